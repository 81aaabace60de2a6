import Verif.Lemmas.PySum
import Verif.Props.Beam
import Verif.Props.Grid
import Verif.Lemmas.Fast64

/-!
# Property C117: the answers do not depend on the version of Python

From Python 3.12 on the builtin `sum`, and so `Beam.length`, corrects the rounding errors of adding floats; the ends of the
elements are still added one after the other.
-/

set_option linter.unusedSectionVars false

namespace BeamDesign

open Spec

section
variable {K S : Type} [Field K] [LinearOrder K] [IsStrictOrderedRing K] [FloorRing K] {rt : Rt K} {rnd : K → K}

/-- C117, when the ends of the elements are machine numbers: every version of Python gives the same length, positions, sections
and loads, and the same errors, for all arguments.  Missing: element ends that are rounded, where it is false
(`C117_counterexample`, `C117_dropped_counterexample`). -/
theorem C117_beam_partial (hr : RoundsTo rt rnd) (b : Beam K S) (ls : List (Num K)) (h : HasLengths b ls)
    (he : ExactSums rnd ls) (v : PySum) :
    b.length (rt.withSum v) = b.length rt ∧
    (∀ position n c, b.listPositions (rt.withSum v) position n c = b.listPositions rt position n c) ∧
    (∀ position n c, b.getSection (rt.withSum v) position n c = b.getSection rt position n c) ∧
    ∀ c position n k, b.getLoads (rt.withSum v) c position n k = b.getLoads rt c position n k := by
  have hl := length_exactSums hr h he v
  exact ⟨hl, fun _ _ _ => listPositions_withSum hl _ _ _, fun _ _ _ => getSection_of _ _ _ (listPositions_withSum hl _ _ _),
    fun _ _ _ _ => getLoads_of _ _ _ _ (listPositions_withSum hl _ _ _)⟩

/-- C117, when the ends of the elements are machine numbers: the same tension, capacities and utilisation. -/
theorem C117_check_partial (hr : RoundsTo rt rnd) (o : AS4100 K) (b : Beam K (Sect K)) (hb : o.beam = some b)
    (ls : List (Num K)) (h : HasLengths b ls) (he : ExactSums rnd ls) (v : PySum) :
    (∀ c position n, o.getTension (rt.withSum v) c position n = o.getTension rt c position n) ∧
    (∀ position, o.tensionCapacity (rt.withSum v) position = o.tensionCapacity rt position) ∧
    ∀ c position, o.tensionUtilisation (rt.withSum v) c position = o.tensionUtilisation rt c position := by
  have hl := length_exactSums hr h he v
  exact ⟨fun _ _ _ => getTension_withSum hb hl _ _ _, fun _ => phiNt_withSum hb hl _,
    fun _ _ => tensionUtilisation_withSum hb hl _ _⟩

theorem positionList_common {v : PySum} {b : Beam K S} {L L' : Num K} (hL : b.length rt = .ok L)
    (hL' : b.length (rt.withSum v) = .ok L') {position : PosArg K} {xs : List K} (hreq : Requested position xs)
    (hin : ∀ x ∈ xs, x ≤ L.val ∧ x ≤ L'.val) (c : Option ℤ) :
    b.positionList (rt.withSum v) position none c = b.positionList rt position none c := by
  have key : ∀ ps : List (Num K), (∀ p ∈ ps, p.val ≤ L.val ∧ p.val ≤ L'.val) →
      b.checkPositions (rt.withSum v) ps = b.checkPositions rt ps := by
    intro ps
    induction ps with
    | nil => intro _; rfl
    | cons p ps ih =>
      intro hp
      have h1 := hp p List.mem_cons_self
      unfold Beam.checkPositions
      rw [hL, hL']
      simp only [bind, Except.bind, if_neg (not_lt.2 h1.1), if_neg (not_lt.2 h1.2),
        ih fun q hq => hp q (List.mem_cons_of_mem _ hq)]
  rcases hreq with ⟨x, rfl, rfl⟩ | ⟨zs, rfl, rfl⟩
  · simp only [Beam.positionList, Num.flt_isInt, Bool.false_eq_true, if_false]
    rw [key _ (by simpa using hin)]
  · simp only [Beam.positionList]
    rw [key _ (by simpa using hin)]

/-- C117, at positions up to both lengths: the same positions, sections and loads, whatever is rounded.
Missing: positions between the two lengths, and the positions chosen by the program. -/
theorem C117_common_partial (v : PySum) (b : Beam K S) (L L' : Num K) (hL : b.length rt = .ok L)
    (hL' : b.length (rt.withSum v) = .ok L') (position : PosArg K) (xs : List K) (hreq : Requested position xs)
    (hin : ∀ x ∈ xs, x ≤ L.val ∧ x ≤ L'.val) :
    (∀ c, b.listPositions (rt.withSum v) position none c = b.listPositions rt position none c) ∧
    (∀ c, b.getSection (rt.withSum v) position none c = b.getSection rt position none c) ∧
    ∀ c k, b.getLoads (rt.withSum v) c position none k = b.getLoads rt c position none k := by
  have h := fun c => listPositions_of _ _ _ (positionList_common hL hL' hreq hin c)
  exact ⟨h, fun c => getSection_of _ _ _ (h c), fun c k => getLoads_of _ _ _ _ (h (some c))⟩

/-- C117: for up to `1 / 2u` elements with float lengths the two lengths differ by no more than `16 u` of the length for each
element. -/
theorem C117_near_partial {F : K → Prop} {u η : K} (hr : RoundsAdd rt rnd) (hF : ∀ x, F x → rnd x = x)
    (hR : Rounds rt F u η) (hu0 : 0 ≤ u) (hu : u ≤ 1 / 4) (b : Beam K S) (ls : List (Num K)) (h : HasLengths b ls)
    (hls : ∀ l ∈ ls, l.isInt = false ∧ F l.val) (hn : 2 * (ls.length : K) * u ≤ 1) (v : PySum) :
    ∃ L L', b.length (rt.withSum .plain) = .ok L ∧ b.length (rt.withSum v) = .ok L' ∧ 0 ≤ L.val ∧
      |L'.val - L.val| ≤ ls.length * (16 * u) * L.val := by
  refine ⟨_, pySum (rt.withSum v) ls, by unfold Beam.length; rw [lengths_ok h]; rfl, by
    unfold Beam.length; rw [lengths_ok h]; rfl, ?_⟩
  have hnn : ∀ l ∈ ls, 0 ≤ l.val := h.2
  cases ls with
  | nil =>
    cases v <;> simp [pySum, Rt.withSum, sumInts, Num.int]
  | cons x xs =>
    obtain ⟨hxi, hxF⟩ := hls x List.mem_cons_self
    have hx0 := hnn x List.mem_cons_self
    have e0 : (Num.int 0).padd rt x = ⟨rt.add 0 x.val, false⟩ := by unfold Num.padd; rw [hxi, Bool.and_false]; rfl
    have ex : rt.add 0 x.val = x.val := by rw [hr.add, zero_add, hF _ hxF]
    have hFz : F 0 := by
      have h1 := (hR.sub _ _ hxF hxF)
      have : rt.sub x.val x.val = 0 := by simpa using h1.2
      rw [← this]; exact h1.1
    have hplain : pySum (rt.withSum .plain) (x :: xs) = xs.foldl (Num.padd rt) ⟨x.val, false⟩ := by
      show (x :: xs).foldl (Num.padd rt) (Num.int 0) = _
      rw [List.foldl_cons, e0, ex]
    have hR' : Rounds (rt.withSum v) F u η := ⟨hR.add, hR.sub, hR.mul, hR.div⟩
    have hr' : RoundsAdd (rt.withSum v) rnd := ⟨hr.add, hr.mono, hr.idem⟩
    have hu1 : (xs.length : K) ≤ ((x :: xs).length : K) := by simp
    obtain ⟨h1, h2⟩ := sumFloats_near hr' hF (fun a b => by rw [hr'.add, hr'.add, add_comm]) hR' hu0 hu xs x.val 0 0 hxF hFz
      hx0 (fun y hy => ⟨(hls y (List.mem_cons_of_mem _ hy)).1, hnn y (List.mem_cons_of_mem _ hy), (hls y (List.mem_cons_of_mem _ hy)).2⟩)
      (by rw [Nat.zero_add]; nlinarith) _ rfl (by simp)
    rw [hplain]
    change x.val ≤ (xs.foldl (Num.padd rt) ⟨x.val, false⟩).val at h1
    change |_ - (xs.foldl (Num.padd rt) ⟨x.val, false⟩).val| ≤ _ * _ * (xs.foldl (Num.padd rt) ⟨x.val, false⟩).val at h2
    set T := (xs.foldl (Num.padd rt) ⟨x.val, false⟩).val with hTdef
    have hT0 : 0 ≤ T := hx0.trans h1
    refine ⟨hT0, ?_⟩
    have hval : v ≠ .plain → (pySum (rt.withSum v) (x :: xs)).val = sumFloats (rt.withSum v) x.val 0 xs := by
      intro hv
      have : pySum (rt.withSum v) (x :: xs) = sumInts (rt.withSum v) 0 (x :: xs) := by
        unfold pySum
        split
        · next hp => exact absurd hp hv
        · rfl
      rw [this]
      unfold sumInts
      rw [if_neg (by simp [hxi])]
      show sumFloats (rt.withSum v) (rt.add 0 x.val) 0 xs = _
      rw [ex]
    by_cases hv : v = .plain
    · subst hv
      rw [hplain, ← hTdef, sub_self, abs_zero]
      positivity
    · rw [hval hv]
      refine h2.trans ?_
      have : 0 ≤ u * T := mul_nonneg hu0 hT0
      have hxs : (0 : K) ≤ (xs.length : K) := Nat.cast_nonneg _
      simp only [List.length_cons, Nat.zero_add]
      push_cast
      nlinarith

/-- C117: what goes wrong between the lengths.  A position beyond the last element end but not beyond `Beam.length` is
accepted and silently gets no place and no section, and instead of loads `None`; one beyond `Beam.length` is refused even if it
is the end of an element. -/
theorem C117_between {L L' : Num K} (hr : RoundsAdd rt rnd) (b : Beam K S) (ls : List (Num K)) (h : HasLengths b ls)
    (hls : ∀ l ∈ ls, l.isInt = false ∧ rnd l.val = l.val) (h0 : rnd 0 = 0) (hL : b.length (rt.withSum .plain) = .ok L)
    (hL' : b.length rt = .ok L') (p : K) (hp : 0 ≤ p) :
    (L.val < p → p ≤ L'.val → ∀ c k, b.listPositions rt (.scalar (.flt p)) none c = .ok [] ∧
      b.getSection rt (.scalar (.flt p)) none c = .ok [] ∧
      ∀ c, b.getLoads rt c (.scalar (.flt p)) none k = .ok none) ∧
    (L'.val < p → ∀ c k, b.listPositions rt (.scalar (.flt p)) none c = .error .positionNotInBeam ∧
      b.getSection rt (.scalar (.flt p)) none c = .error .positionNotInBeam ∧
      ∀ c, b.getLoads rt c (.scalar (.flt p)) none k = .error .positionNotInBeam) := by
  constructor
  · intro hLp hpL' c k
    have hnil : b.inElements rt (.flt p) = .ok [] := by
      obtain ⟨ends, h1, -, -, h4, h5, h6⟩ := C12_tiling (rt := rt.withSum .plain) (rnd := rnd) ⟨hr.add, hr.mono, hr.idem⟩ rfl b ls h
        (fun l hl => (hls l hl).2) (by
          intro k hk
          cases k with
          | zero => rw [startOf_zero, h0]
          | succ k =>
            cases ls with
            | nil => simp [startOf, h0]
            | cons l t =>
              have h1 := hk l (by simp)
              rw [(hls l (by simp)).1] at h1
              cases h1)
      rw [elementEnds_withSum] at h1
      unfold Beam.inElements
      rw [h1]
      simp only [bind, Except.bind, pure, Except.pure]
      have hle : ∀ se ∈ ends, se.2.val ≤ L.val := by
        have : ∀ (es : List (Num K × Num K)), es.IsChain (fun a b => a.2 = b.1) → (∀ se ∈ es, se.1.val ≤ se.2.val) →
            (∀ se, es.getLast? = some se → se.2.val = L.val) → ∀ se ∈ es, se.2.val ≤ L.val := by
          intro es
          induction es with
          | nil => intro _ _ _ se hse; simp at hse
          | cons a t ih =>
            intro hc hi hlast se hse
            cases t with
            | nil =>
              rw [List.mem_singleton] at hse
              subst hse
              exact (hlast _ rfl).le
            | cons a' t =>
              rw [List.isChain_cons_cons] at hc
              have hih := ih hc.2 (fun s hs => hi s (List.mem_cons_of_mem _ hs)) (fun s hs => hlast s (by simpa using hs))
              rcases List.mem_cons.1 hse with rfl | hse
              · rw [hc.1]
                exact (hi a' (by simp)).trans (hih a' (by simp))
              · exact hih se hse
        refine this ends h4 h5 fun se hse => ?_
        have := (h6 se hse).symm.trans hL
        cases this
        rfl
      congr 1
      unfold inEnds
      rw [List.filter_eq_nil_iff]
      intro i hi
      rw [List.mem_range] at hi
      rw [List.getElem?_eq_getElem hi]
      simp only [Num.flt_val, Bool.and_eq_true, not_and]
      intro _ hc
      exact absurd (of_decide_eq_true hc) (not_le.2 (lt_of_le_of_lt (hle _ (List.getElem_mem hi)) hLp))
    have hpos : ∀ c, b.positionList rt (.scalar (.flt p)) none c = .ok [.flt p] := by
      intro c
      simp only [Beam.positionList, Num.flt_isInt, Bool.false_eq_true, if_false]
      rw [checkPositions_ok hL' _ (by simpa using ⟨hp, hpL'⟩)]
      rfl
    have hlist : ∀ c, b.listPositions rt (.scalar (.flt p)) none c = .ok [] := by
      intro c
      unfold Beam.listPositions
      rw [hpos]
      simp [bind, Except.bind, pure, Except.pure, hnil]
    refine ⟨hlist c, ?_, fun c => ?_⟩
    · unfold Beam.getSection
      rw [hlist]; rfl
    · unfold Beam.getLoads
      rw [hlist]; rfl
  · intro hLp c k
    have hlist : ∀ c, b.listPositions rt (.scalar (.flt p)) none c = .error .positionNotInBeam := by
      intro c
      unfold Beam.listPositions
      have : b.positionList rt (.scalar (.flt p)) none c = .error .positionNotInBeam := by
        simp only [Beam.positionList, Num.flt_isInt, Bool.false_eq_true, if_false]
        rw [checkPositions_error hL' _ ⟨_, List.mem_singleton.2 rfl, Or.inr hLp⟩]
        rfl
      rw [this]
      rfl
    refine ⟨hlist c, ?_, fun c => ?_⟩
    · unfold Beam.getSection
      rw [hlist]; rfl
    · unfold Beam.getLoads
      rw [hlist]; rfl

end

/-! ## Double precision -/

/-- C117 in double precision: with up to `2 ^ 52` elements of float lengths the lengths differ by at most `2 ^ -49` of the length
for each element, and at positions short of the end of the beam by that much all versions answer alike. -/
theorem C117_binary64_partial {S : Type} (b : Beam ℚ S) (ls : List (Num ℚ)) (h : HasLengths b ls)
    (hls : ∀ l ∈ ls, l.isInt = false ∧ IsDouble l.val) (hn : ls.length ≤ 2 ^ 52) (v : PySum) :
    ∃ L L', b.length Rt.binary64 = .ok L ∧ b.length (Rt.binary64.withSum v) = .ok L' ∧
      |L'.val - L.val| ≤ ls.length * 2 ^ (-49 : ℤ) * L.val ∧
      ∀ position xs, Requested position xs → (∀ x ∈ xs, x ≤ (1 - ls.length * 2 ^ (-49 : ℤ)) * L.val) →
        (∀ c, b.listPositions (Rt.binary64.withSum v) position none c = b.listPositions Rt.binary64 position none c) ∧
        (∀ c, b.getSection (Rt.binary64.withSum v) position none c = b.getSection Rt.binary64 position none c) ∧
        ∀ c k, b.getLoads (Rt.binary64.withSum v) c position none k = b.getLoads Rt.binary64 c position none k := by
  have hn' : (ls.length : ℚ) ≤ 2 ^ 52 := by exact_mod_cast hn
  obtain ⟨L, L', h1, h2, h3, h4⟩ := C117_near_partial binary64_roundsAdd (fun x hx => isDouble_iff.1 hx) C78_binary64_rounds
    (two_zpow_pos _).le (by norm_num) b ls h hls
    (by rw [show (2 : ℚ) ^ (-53 : ℤ) = 1 / (2 * 2 ^ 52) by norm_num]; linarith) v
  rw [show (16 : ℚ) * 2 ^ (-53 : ℤ) = 2 ^ (-49 : ℤ) by norm_num] at h4
  refine ⟨L, L', h1, h2, h4, fun position xs hreq hx => C117_common_partial v b L L' h1 h2 position xs hreq fun x hxs => ?_⟩
  have h5 := hx x hxs
  have h6 : 0 ≤ (ls.length : ℚ) * 2 ^ (-49 : ℤ) * L.val := by positivity
  rw [abs_le] at h4
  constructor <;> linarith [h4.1]

/-! ## Counterexamples -/

/-- `Rt.binary64.withSum` for the kernel -/
theorem binary64_withSum_eq (v : PySum) : Rt.binary64.withSum v = Rt.fast64.withSum v := by rw [binary64_eq]

/-- A rod of radius 0.01 in three elements, 0.1, 1.8 and 2.0 long, with a tension of 50 kN. -/
def versionObj : AS4100 ℚ :=
  let e := fun l => (⟨[(1, ⟨some ⟨false, [Samples.axial 0 50000, Samples.axial 1 50000]⟩⟩)], some (Num.flt (fastRnd l)),
      .circle (fastRnd (1/100)) (some doubleSteel)⟩ : Element ℚ (Sect ℚ))
  let d : DSect ℚ := ⟨fastRnd (1/100), doubleSteel⟩
  ⟨some ⟨[e (1/10), e (18/10), e 2]⟩, none, 20, [d, d, d], fastRnd (9/10), fastRnd (85/100), 1⟩

/-- C117 is false in double precision: up to Python 3.11 the tension utilisation of the rod is a number below 1; from 3.12 on
`tension_utilisation()` raises `PositionNotInBeamError`, because the last element ends beyond the corrected length. -/
theorem C117_counterexample :
    (∃ r, versionObj.tensionUtilisation Rt.binary64 .none .none = .ok r ∧ 0 < r ∧ r < 1) ∧
    ∀ v, v ≠ .plain → versionObj.tensionUtilisation (Rt.binary64.withSum v) .none .none = .error .positionNotInBeam := by
  constructor
  · rw [binary64_eq]
    have h1 : (match versionObj.tensionUtilisation Rt.fast64 .none .none with
      | .ok v => decide (0 < v ∧ v < 1) | .error _ => false) = true := by decide +kernel
    split at h1
    next v hv => exact ⟨v, hv, of_decide_eq_true h1⟩
    next => cases h1
  · intro v hv
    rw [binary64_withSum_eq]
    cases v with
    | plain => exact absurd rfl hv
    | floats => decide +kernel
    | all => decide +kernel

/-- A beam of ten elements 0.1 long. -/
def tenths : Beam ℚ Unit :=
  ⟨List.replicate 10 ⟨[(1, ⟨some ⟨false, [Samples.axial 0 50000, Samples.axial 1 50000]⟩⟩)], some (Num.flt (fastRnd (1/10))), ()⟩⟩

/-- C117 is false in double precision: from Python 3.12 on the length of the beam is 1.0, and `get_loads` at the end of the
beam returns `None`; up to 3.11 the length is less and the position is refused. -/
theorem C117_dropped_counterexample : ∀ v, v ≠ .plain →
    tenths.length (Rt.binary64.withSum v) = .ok (.flt 1) ∧
    tenths.getLoads (Rt.binary64.withSum v) 1 (.scalar (.flt 1)) none (.name "N") = .ok none ∧
    tenths.getLoads Rt.binary64 1 (.scalar (.flt 1)) none (.name "N") = .error .positionNotInBeam := by
  intro v hv
  rw [binary64_withSum_eq, binary64_eq]
  cases v with
  | plain => exact absurd rfl hv
  | floats => decide +kernel
  | all => decide +kernel

/-! ## Cases meeting the hypotheses -/

theorem rods_exactSums : ExactSums rnd64 Samples.rodLens := ⟨fun l hl => (rods_marks.1 l hl).2.2, rods_marks.2⟩

/-- the rods of the samples -/
example (v : PySum) : Samples.rods.length (Rt.binary64.withSum v) = Samples.rods.length Rt.binary64 :=
  (C117_beam_partial C83_binary64_rounds _ _ Samples.rods_lens rods_exactSums v).1

theorem tenths_lens : HasLengths tenths (List.replicate 10 (.flt (fastRnd (1/10)))) := by
  refine ⟨?_, by decide +kernel⟩
  show List.Forall₂ _ (List.replicate 10 _) (List.replicate 10 _)
  simp [List.replicate]

theorem tenth_double : IsDouble (fastRnd (1/10)) := by rw [fastRnd_eq]; exact isDouble_rnd64 _

/-- ten elements: the loads up to 0.9 -/
example (v : PySum) : ∃ L L', tenths.length Rt.binary64 = .ok L ∧ tenths.length (Rt.binary64.withSum v) = .ok L' ∧
      |L'.val - L.val| ≤ 10 * 2 ^ (-49 : ℤ) * L.val := by
  obtain ⟨L, L', h1, h2, h3, -⟩ := C117_binary64_partial tenths _ tenths_lens
    (fun l hl => by rw [List.eq_of_mem_replicate hl]; exact ⟨rfl, tenth_double⟩) (by simp) v
  exact ⟨L, L', h1, h2, by simpa using h3⟩

/-- the hypotheses of `C117_between`: the end of the ten elements -/
example (c : ℤ) : tenths.getLoads (Rt.binary64.withSum .floats) c (.scalar (.flt 1)) none .none = .ok none := by
  have hL : ∃ L, tenths.length ((Rt.binary64.withSum .floats).withSum .plain) = .ok L ∧ L.val < 1 := by
    show ∃ L, tenths.length Rt.binary64 = .ok L ∧ L.val < 1
    rw [binary64_eq]
    refine ⟨.flt (9007199254740991 / 2 ^ 53), ?_, ?_⟩ <;> decide +kernel
  obtain ⟨L, hL, hlt⟩ := hL
  exact ((C117_between ⟨fun _ _ => rfl, rnd64_mono, rnd64_idem⟩ tenths _ tenths_lens
    (fun l hl => by rw [List.eq_of_mem_replicate hl]; exact ⟨rfl, isDouble_iff.1 tenth_double⟩) rnd64_zero hL
    (C117_dropped_counterexample .floats (by decide)).1 1 (by norm_num)).1 hlt (le_refl (1 : ℚ)) none .none).2.2 c

end BeamDesign
