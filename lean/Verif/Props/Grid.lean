import Verif.Lemmas.Grid
import Verif.Lemmas.Fast64
import Verif.Props.Rounding
import Verif.Props.Beam
import Verif.Props.UtilRound

set_option linter.unusedSectionVars false

/-!
# C17, C83, C84: beams in floating point arithmetic
-/

namespace BeamDesign

open Spec

section
variable {K S : Type} [Field K] [LinearOrder K] [IsStrictOrderedRing K]
variable {rt : Rt K} {rnd : K → K}

/-- C17 for every monotone rounding, for beams whose element ends are machine numbers: positions in range are listed without
failure, each with each element containing it, at the correctly rounded local position.  What is missing: beams whose
element ends are rounded (`C17_counterexample`). -/
theorem C17_marks_partial (hr : RoundsTo rt rnd) (b : Beam K S) (ls : List (Num K)) (h : HasLengths b ls)
    (hm : Marks rnd ls) (position : PosArg K) (xs : List K) (hreq : Requested position xs) (c : Option ℤ)
    (hin : ∀ x ∈ xs, 0 ≤ x ∧ x ≤ total ls) :
    ∃ out, b.listPositions rt position none c = .ok out ∧ RoundedListing rnd ls xs out := by
  obtain ⟨L, hL, hLv⟩ := flength hr h hm
  obtain ⟨ps, hps, hd⟩ := (positionList_explicit hL hreq c).2 (by rw [hLv]; exact hin)
  obtain ⟨out, h1, pairs, h2, h3⟩ := flisting hr h hm hps hd.1
  refine ⟨out, h1, pairs, ⟨h2.1, fun p i => ?_⟩, h3⟩
  rw [h2.2, hd.2]

/-- C17 for every monotone rounding, for beams whose element ends are machine numbers: listing at least `n` positions does
not fail; the starts of the elements and the rounded positions of the stored loads are among them. -/
theorem C17_marks_min_partial (hr : RoundsTo rt rnd) (b : Beam K S) (ls : List (Num K)) (h : HasLengths b ls)
    (hm : Marks rnd ls) (c : Option ℤ) (hc : ∀ k, c = some k → Loaded b k) (n : ℕ) :
    ∃ xs out, b.listPositions rt .none (some n) c = .ok out ∧ RoundedListing rnd ls xs out ∧
      (∀ i, i < ls.length → startOf ls i ∈ xs) ∧
      ∀ i l k t r, ls[i]? = some l → c = some k → HasTable b k i t → r ∈ t.rows →
        rnd (startOf ls i + rnd (r.pos * l.val)) ∈ xs := by
  obtain ⟨ps, hps, hsort, h1, h2⟩ := fpositionList hr h hm c hc n
  obtain ⟨out, h3, h4⟩ := flisting hr h hm hps hsort
  exact ⟨_, out, h3, h4, h1, h2⟩

variable [FloorRing K]

theorem block_near {F : K → Prop} {u η : K} (hr : Rounds rt F u η) (hu0 : 0 ≤ u) (hu : u ≤ 1 / 64) (hη : 0 ≤ η)
    {rows : List (LRow K)} (hwf : WellFormed rows) (hne : rows ≠ []) (hF : Machine F rows) {p : K} (hFp : F p)
    (cs : List LComp) : NearAnswerAt (16 * u) (4 * η) rows cs p (block rt rows cs p) := by
  unfold block
  split_ifs with h
  · refine Or.inl ⟨h, ?_⟩
    apply List.map_congr_left
    intro r hr'
    have := (List.mem_filter.1 hr').2
    rw [of_decide_eq_true this, entry_eq]
  · refine Or.inr ⟨h, _, rfl, ?_⟩
    rw [List.forall₂_map_right_iff]
    exact List.forall₂_same.2 fun c _ => interpVal_near hr hu0 hu hη hwf hne hF hFp h c

theorem listing_ne {ls : List (Num K)} {xs : List K} {out : List (Loc K)} (h : RoundedListing rnd ls xs out) {p : K}
    {i : ℕ} (hp : p ∈ xs) (hi : InElement ls p i) : ∃ e ∈ out, e.pos.val = p ∧ e.elem = i ∧ RoundedAt rnd ls p i e.loc.val := by
  obtain ⟨pairs, h1, h2⟩ := h
  obtain ⟨e, he, h3⟩ := forall₂_mem_left h2 ((h1.2 p i).2 ⟨hp, hi⟩)
  exact ⟨e, he, h3⟩

theorem loads_near {F : K → Prop} {u η : K} (hr : Rounds rt F u η) (hu0 : 0 ≤ u) (hu : u ≤ 1 / 64) (hη : 0 ≤ η)
    (hFr : ∀ a, F (rnd a)) (hs : rt.SortOK) {b : Beam K S} {ls : List (Num K)} {k : ℤ} (hb : LoadedFloat b k)
    (hF : MachineLoads F b k) {component : CompArg} {cs : List LComp} (hc : component.resolve = .ok cs) (hcs : cs ≠ [])
    {position : PosArg K} {minPos : Option ℤ} {xs : List K} {out : List (Loc K)} (hne : out ≠ [])
    (h1 : b.listPositions rt position minPos (some k) = .ok out) (h2 : RoundedListing rnd ls xs out) :
    ∃ blocks dt, List.Forall₂ (NearLoadBlock (16 * u) (4 * η) b k cs) out blocks ∧
      b.getLoads rt k position minPos component = .ok (some ⟨dt, cs.length, cells blocks.flatten⟩) := by
  obtain ⟨blocks, hf, he⟩ := getLoads_eq hs hb hc hcs hne h1
  refine ⟨blocks, _, ?_, he⟩
  have hloc : ∀ l ∈ out, F l.loc.val := by
    obtain ⟨pairs, -, h3⟩ := h2
    intro l hl
    obtain ⟨pi, -, -, -, -, -, l', -, hq⟩ := forall₂_mem_right h3 hl
    rw [hq]
    exact hFr _
  clear he h1 h2 hne
  induction hf with
  | nil => exact .nil
  | cons hh _ ih =>
    refine .cons ?_ (ih fun l hl => hloc l (List.mem_cons_of_mem _ hl))
    obtain ⟨t, e, ht, -, rfl, -⟩ := hh
    obtain ⟨-, -, -, hwf, hne⟩ := id ht
    exact ⟨t, _, ht, block_near hr hu0 hu hη hwf hne (hF _ t ht) (hloc _ List.mem_cons_self) cs, rfl⟩

/-- C83: with any monotone rounding that meets the standard model, on a beam whose element ends are machine numbers, the
loads at requested positions are reported without failure; each block of rows holds the stored rows of the element at the
rounded local position exactly, or is within `16 u` of the curve there. -/
theorem C83_get_loads (hr : RoundsTo rt rnd) {F : K → Prop} {u η : K} (hR : Rounds rt F u η) (hu0 : 0 ≤ u)
    (hu : u ≤ 1 / 64) (hη : 0 ≤ η) (hFr : ∀ a, F (rnd a)) (hs : rt.SortOK) (b : Beam K S) (ls : List (Num K))
    (h : HasLengths b ls) (hls : ls ≠ []) (hm : Marks rnd ls) (k : ℤ) (hb : LoadedFloat b k) (hF : MachineLoads F b k)
    (component : CompArg) (cs : List LComp) (hc : Asks component cs) (hcs : cs ≠ [])
    (position : PosArg K) (xs : List K) (hreq : Requested position xs) (hxs : xs ≠ [])
    (hin : ∀ x ∈ xs, 0 ≤ x ∧ x ≤ total ls) :
    ∃ locs blocks dt, RoundedListing rnd ls xs locs ∧ List.Forall₂ (NearLoadBlock (16 * u) (4 * η) b k cs) locs blocks ∧
      b.getLoads rt k position none component = .ok (some ⟨dt, cs.length, cells blocks.flatten⟩) := by
  rw [asks_iff] at hc
  obtain ⟨out, h1, h2⟩ := C17_marks_partial hr b ls h hm position xs hreq (some k) hin
  obtain ⟨x, hx⟩ := List.exists_mem_of_ne_nil xs hxs
  obtain ⟨i, hi⟩ := exists_inElement h.2 hls (hin x hx).1 (hin x hx).2
  obtain ⟨e, he, -⟩ := listing_ne h2 hx hi
  obtain ⟨blocks, dt, h3, h4⟩ := loads_near hR hu0 hu hη hFr hs hb hF hc hcs (List.ne_nil_of_mem he) h1 h2
  exact ⟨out, blocks, dt, h2, h3, h4⟩

/-- C83, for at least `n` positions chosen by the beam. -/
theorem C83_get_loads_min_positions (hr : RoundsTo rt rnd) {F : K → Prop} {u η : K} (hR : Rounds rt F u η) (hu0 : 0 ≤ u)
    (hu : u ≤ 1 / 64) (hη : 0 ≤ η) (hFr : ∀ a, F (rnd a)) (hs : rt.SortOK) (b : Beam K S) (ls : List (Num K))
    (h : HasLengths b ls) (hls : ls ≠ []) (hm : Marks rnd ls) (k : ℤ) (hb : LoadedFloat b k) (hF : MachineLoads F b k)
    (component : CompArg) (cs : List LComp) (hc : Asks component cs) (hcs : cs ≠ []) (n : ℕ) :
    ∃ xs locs blocks dt, RoundedListing rnd ls xs locs ∧
      List.Forall₂ (NearLoadBlock (16 * u) (4 * η) b k cs) locs blocks ∧
      (∀ i, i < ls.length → startOf ls i ∈ xs) ∧
      (∀ i l t r, ls[i]? = some l → HasTable b k i t → r ∈ t.rows → rnd (startOf ls i + rnd (r.pos * l.val)) ∈ xs) ∧
      b.getLoads rt k .none (some n) component = .ok (some ⟨dt, cs.length, cells blocks.flatten⟩) := by
  rw [asks_iff] at hc
  obtain ⟨xs, out, h1, h2, h5, h6⟩ := C17_marks_min_partial hr b ls h hm (some k) (by
    rintro k' hk i hi
    cases hk
    obtain ⟨t, ht, -⟩ := hb i hi
    exact ⟨t, ht⟩) n
  have hlen : 0 < ls.length := List.length_pos_of_ne_nil hls
  obtain ⟨e, he, -⟩ := listing_ne h2 (h5 0 hlen) ⟨hlen, le_refl _, startOf_mono h.2 (by omega)⟩
  obtain ⟨blocks, dt, h3, h4⟩ := loads_near hR hu0 hu hη hFr hs hb hF hc hcs (List.ne_nil_of_mem he) h1 h2
  exact ⟨xs, out, blocks, dt, h2, h3, h5, fun i l t r hl ht hr => h6 i l k t r hl rfl ht hr, h4⟩

/-- C84 for stored loads on the grid of machine numbers: the row stored at local position `x` of element `i` is in the table
reported for at least `n` positions, at `x` along the element, for every monotone rounding.  What is missing: other stored
positions, whose loads can be lost (`C84_counterexample`). -/
theorem C84_stored_partial (hr : RoundsTo rt rnd) (hs : rt.SortOK) (b : Beam K S) (ls : List (Num K))
    (h : HasLengths b ls) (hls : ls ≠ []) (hm : Marks rnd ls) (k : ℤ) (hb : LoadedFloat b k)
    (component : CompArg) (cs : List LComp) (hc : Asks component cs) (hcs : cs ≠ []) (n : ℕ) :
    ∃ tab, b.getLoads rt k .none (some n) component = .ok (some tab) ∧
      ∀ i l t r, ls[i]? = some l → HasTable b k i t → r ∈ t.rows → OnGrid rnd ls i r.pos →
        (startOf ls i + r.pos * l.val, cs.map fun c => some (entry r c)) ∈ tab.rows := by
  rw [asks_iff] at hc
  obtain ⟨xs, out, h1, h2, h5, h6⟩ := C17_marks_min_partial hr b ls h hm (some k) (by
    rintro k' hk i hi
    cases hk
    obtain ⟨t, ht, -⟩ := hb i hi
    exact ⟨t, ht⟩) n
  have hlen : 0 < ls.length := List.length_pos_of_ne_nil hls
  obtain ⟨e, he, -⟩ := listing_ne h2 (h5 0 hlen) ⟨hlen, le_refl _, startOf_mono h.2 (by omega)⟩
  obtain ⟨blocks, hf, hg⟩ := getLoads_eq hs hb hc hcs (List.ne_nil_of_mem he) h1
  refine ⟨_, hg, ?_⟩
  rintro i l t r hl ht hrow ⟨g1, l', hl', g2, g3⟩
  rw [hl] at hl'; cases hl'
  obtain ⟨-, hpos, -⟩ := hm.1 l (List.mem_of_getElem? hl)
  have hilt : i < ls.length := (List.getElem?_eq_some_iff.1 hl).1
  have hstep := startOf_succ ls i l hl
  obtain ⟨e1, he1, he2, hwf, hne⟩ := id ht
  obtain ⟨x0, x1⟩ := hwf.2 r hrow
  have hmem := h6 i l k t r hl rfl ht hrow
  rw [g2, g3] at hmem
  have hx0 : 0 ≤ r.pos * l.val := mul_nonneg x0 hpos.le
  have hx1 : r.pos * l.val ≤ l.val := mul_le_of_le_one_left hpos.le x1
  obtain ⟨e, he, q1, q2, -, -, l', hl', q3⟩ := listing_ne h2 hmem ⟨hilt, by linarith, by linarith⟩
  rw [hl] at hl'; cases hl'
  rw [add_sub_cancel_left, g2, mul_div_assoc, div_self hpos.ne', mul_one, g1] at q3
  obtain ⟨rows, hrows, t', e', ht', -, hre, -⟩ := forall₂_mem_left hf he
  obtain ⟨e2, he3, he4, -⟩ := ht'
  rw [q2, he1] at he3; cases he3
  rw [he2] at he4; cases he4
  have hin : (r.pos, cs.map (entry r)) ∈ block rt t.rows cs r.pos := by
    unfold block
    rw [if_pos (List.mem_map_of_mem hrow)]
    refine List.mem_map.2 ⟨r, List.mem_filter.2 ⟨hrow, by simp⟩, ?_⟩
    rw [entry_eq]
  have hin2 : (startOf ls i + r.pos * l.val, cs.map (entry r)) ∈ blocks.flatten := by
    refine List.mem_flatten.2 ⟨rows, hrows, ?_⟩
    rw [hre, q3, q1]
    exact List.mem_map.2 ⟨_, hin, rfl⟩
  unfold cells
  refine List.mem_map.2 ⟨_, hin2, ?_⟩
  simp

end

/-- C83: IEEE double precision rounds monotonically. -/
theorem C83_binary64_rounds : RoundsTo Rt.binary64 rnd64 where
  add := fun _ _ => rfl
  sub := fun _ _ => rfl
  mul := fun _ _ => rfl
  div := fun _ _ => rfl
  mono := fun _ _ h => rnd64_mono h
  idem := rnd64_idem
  zero := rnd64_zero
  one := isDouble_iff.1 ⟨1, 0, by norm_num, by norm_num, by norm_num⟩
  neg := rnd64_neg

/-- C83 in double precision: on a beam whose element ends are doubles, the loads at requested positions are reported
without failure, within `2 ^ -49` of the curve at the correctly rounded local position. -/
theorem C83_binary64 {S : Type} (b : Beam ℚ S) (ls : List (Num ℚ)) (h : HasLengths b ls) (hls : ls ≠ [])
    (hm : Marks rnd64 ls) (k : ℤ) (hb : LoadedFloat b k) (hF : MachineLoads IsDouble b k)
    (component : CompArg) (cs : List LComp) (hc : Asks component cs) (hcs : cs ≠ [])
    (position : PosArg ℚ) (xs : List ℚ) (hreq : Requested position xs) (hxs : xs ≠ [])
    (hin : ∀ x ∈ xs, 0 ≤ x ∧ x ≤ total ls) :
    ∃ locs blocks dt, RoundedListing rnd64 ls xs locs ∧
      List.Forall₂ (NearLoadBlock (2 ^ (-49 : ℤ)) (2 ^ (-1073 : ℤ)) b k cs) locs blocks ∧
      b.getLoads Rt.binary64 k position none component = .ok (some ⟨dt, cs.length, cells blocks.flatten⟩) := by
  have := C83_get_loads C83_binary64_rounds C78_binary64_rounds (two_zpow_pos _).le (by norm_num) (two_zpow_pos _).le
    isDouble_rnd64 binary64_sortOK b ls h hls hm k hb hF component cs hc hcs position xs hreq hxs hin
  rwa [show (16 : ℚ) * 2 ^ (-53 : ℤ) = 2 ^ (-49 : ℤ) by norm_num,
    show (4 : ℚ) * 2 ^ (-1075 : ℤ) = 2 ^ (-1073 : ℤ) by
      rw [show (-1073 : ℤ) = -1075 + 2 by norm_num, zpow_add₀ (by norm_num), mul_comm]; norm_num] at this

/-! ## A stored load lost to rounding -/

/-- A rod of length 3.0 and radius 0.01 with a jump of the tension, to 100 kN and back to nothing, at 0.1 of its length. -/
def lostObj : AS4100 ℚ :=
  ⟨some ⟨[⟨[(1, ⟨some ⟨false, [Samples.axial 0 0, Samples.axial (fastRnd (1/10)) 100000,
      Samples.axial (fastRnd (1/10)) 0, Samples.axial 1 0]⟩⟩)], some (Num.flt 3),
      .circle (fastRnd (1/100)) (some doubleSteel)⟩]⟩,
    none, 20, [⟨fastRnd (1/100), doubleSteel⟩], fastRnd (9/10), fastRnd (85/100), 1⟩

/-- C84: in double precision the overall utilisation of the rod is below 3/4, although the tension stored is more than 1.4
times the capacity. -/
theorem C84_counterexample :
    (∃ v, lostObj.tensionUtilisation Rt.binary64 (.one 1) .none = .ok v ∧ v < 3 / 4) ∧
    ∃ cap, lostObj.phiNt Rt.binary64 (.scalar (Num.flt 0)) = .ok cap ∧ 14 / 10 * cap < 100000 := by
  rw [binary64_eq]
  have h1 : (match lostObj.tensionUtilisation Rt.fast64 (.one 1) .none with
    | .ok v => decide (v < 3 / 4) | .error _ => false) = true := by decide +kernel
  have h2 : (match lostObj.phiNt Rt.fast64 (.scalar (Num.flt 0)) with
    | .ok v => decide (14 / 10 * v < 100000) | .error _ => false) = true := by decide +kernel
  constructor
  · split at h1
    next v hv => exact ⟨v, hv, of_decide_eq_true h1⟩
    next => cases h1
  · split at h2
    next v hv => exact ⟨v, hv, of_decide_eq_true h2⟩
    next => cases h2

/-- C84: nor is the stored row among the loads reported along the rod. -/
theorem C84_counterexample_loads : ∃ b tab, lostObj.beam = some b ∧
    b.getLoads Rt.binary64 1 .none (some 20) (.name "N") = .ok (some tab) ∧
    ∀ r ∈ tab.rows, r.2 ≠ [some 100000] := by
  rw [binary64_eq]
  have h1 : (match lostObj.beam with
    | some b => match b.getLoads Rt.fast64 1 .none (some 20) (.name "N") with
      | .ok (some tab) => decide (∀ r ∈ tab.rows, r.2 ≠ [some 100000])
      | _ => false
    | none => false) = true := by decide +kernel
  split at h1
  next b hb =>
    split at h1
    next tab ht => exact ⟨b, tab, hb, ht, of_decide_eq_true h1⟩
    next => cases h1
  next => cases h1

/-! ## Cases meeting the hypotheses -/

theorem int_rnd (n : ℤ) (h : |n| < 2 ^ 53) : rnd64 (n : ℚ) = n := isDouble_iff.1 ⟨n, 0, h, by norm_num, by simp⟩

/-- The rods of the samples, 2 and 3 long. -/
theorem rods_marks : Marks rnd64 Samples.rodLens := by
  have h2 := int_rnd 2 (by norm_num)
  have h3 := int_rnd 3 (by norm_num)
  have h5 := int_rnd 5 (by norm_num)
  push_cast at h2 h3 h5
  constructor
  · intro l hl
    rcases List.mem_pair.1 hl with rfl | rfl
    · exact ⟨rfl, by norm_num, h2⟩
    · exact ⟨rfl, by norm_num, h3⟩
  · intro i
    match i with
    | 0 => simp [startOf, rnd64_zero]
    | 1 => simpa [startOf, Samples.rodLens] using h2
    | i + 2 =>
      rw [show startOf Samples.rodLens (i + 2) = 5 by norm_num [startOf, Samples.rodLens]]
      exact h5

theorem rods_machine : MachineLoads IsDouble Samples.rods 7 := by
  rintro i t ⟨e, he, hl, -, -⟩
  have : t = ⟨false, Samples.rows⟩ := by
    have hi : i < 2 := (List.getElem?_eq_some_iff.1 he).1
    obtain rfl | rfl : i = 0 ∨ i = 1 := by omega
    all_goals (cases he; cases hl; rfl)
  subst this
  exact samples_machine

/-- Positions on both rods, in range. -/
example : ∃ out, Samples.rods.listPositions Rt.binary64 (.list [Num.flt (fastRnd (1/10)), Num.flt (fastRnd (37/10))])
    none none = .ok out ∧ RoundedListing rnd64 Samples.rodLens [fastRnd (1/10), fastRnd (37/10)] out :=
  C17_marks_partial C83_binary64_rounds _ _ Samples.rods_lens rods_marks _ _
    (Or.inr ⟨_, rfl, rfl⟩) _ (by decide +kernel)

/-- Twenty positions. -/
example : ∃ xs out, Samples.rods.listPositions Rt.binary64 .none (some (20 : ℕ)) none = .ok out ∧
    RoundedListing rnd64 Samples.rodLens xs out ∧ (∀ i, i < Samples.rodLens.length → startOf Samples.rodLens i ∈ xs) := by
  obtain ⟨xs, out, h1, h2, h3, -⟩ :=
    C17_marks_min_partial C83_binary64_rounds _ _ Samples.rods_lens rods_marks none (by simp) 20
  exact ⟨xs, out, h1, h2, h3⟩

/-- The axial loads at these positions. -/
example : ∃ locs blocks dt, RoundedListing rnd64 Samples.rodLens [fastRnd (1/10), fastRnd (37/10)] locs ∧
    List.Forall₂ (NearLoadBlock (2 ^ (-49 : ℤ)) (2 ^ (-1073 : ℤ)) Samples.rods 7 [.N]) locs blocks ∧
    Samples.rods.getLoads Rt.binary64 7 (.list [Num.flt (fastRnd (1/10)), Num.flt (fastRnd (37/10))]) none (.name "N")
      = .ok (some ⟨dt, 1, cells blocks.flatten⟩) :=
  C83_binary64 _ _ Samples.rods_lens (by simp [Samples.rodLens]) rods_marks 7 Samples.rods_loaded rods_machine
    (.name "N") [.N] ⟨_, rfl, by simp⟩ (by simp) _ _ (Or.inr ⟨_, rfl, rfl⟩) (by simp) (by decide +kernel)

/-- The loads at twenty positions. -/
example : ∃ xs locs blocks dt, RoundedListing rnd64 Samples.rodLens xs locs ∧
    List.Forall₂ (NearLoadBlock (16 * 2 ^ (-53 : ℤ)) (4 * 2 ^ (-1075 : ℤ)) Samples.rods 7 [.N]) locs blocks ∧
    Samples.rods.getLoads Rt.binary64 7 .none (some (20 : ℕ)) (.name "N")
      = .ok (some ⟨dt, 1, cells blocks.flatten⟩) := by
  obtain ⟨xs, locs, blocks, dt, h1, h2, -, -, h3⟩ := C83_get_loads_min_positions C83_binary64_rounds C78_binary64_rounds
    (two_zpow_pos _).le (by norm_num) (two_zpow_pos _).le isDouble_rnd64 binary64_sortOK _ _ Samples.rods_lens
    (by simp [Samples.rodLens]) rods_marks 7 Samples.rods_loaded rods_machine (.name "N") [.N] ⟨_, rfl, by simp⟩
    (by simp) 20
  exact ⟨xs, locs, blocks, dt, h1, h2, h3⟩

/-- The load stored half way along the second rod is reported, at 3.5. -/
example : ∃ tab, Samples.rods.getLoads Rt.binary64 7 .none (some (20 : ℕ)) (.name "N") = .ok (some tab) ∧
    ∃ r ∈ Samples.rows, r.pos = 1 / 2 ∧ (7 / 2, [some r.n]) ∈ tab.rows := by
  obtain ⟨tab, h1, h2⟩ := C84_stored_partial C83_binary64_rounds binary64_sortOK _ _ Samples.rods_lens
    (by simp [Samples.rodLens]) rods_marks 7 Samples.rods_loaded (.name "N") [.N] ⟨_, rfl, by simp⟩ (by simp) 20
  obtain ⟨r, hr, hp⟩ : ∃ r ∈ Samples.rows, r.pos = 1 / 2 := by decide +kernel
  refine ⟨tab, h1, r, hr, hp, ?_⟩
  have := h2 1 (Num.flt 3) ⟨false, Samples.rows⟩ r rfl
    ⟨_, rfl, rfl, Samples.wf, by simp [Samples.rows]⟩ hr (by
      rw [hp]
      refine ⟨isDouble_iff.1 ⟨1, -1, by norm_num, by norm_num, by norm_num⟩, Num.flt 3, rfl,
        isDouble_iff.1 ⟨3, -1, by norm_num, by norm_num, by norm_num⟩,
        isDouble_iff.1 ⟨7, -1, by norm_num, by norm_num, by norm_num [startOf, Samples.rodLens]⟩⟩)
  rw [hp] at this
  norm_num [startOf, Samples.rodLens] at this
  exact this

end BeamDesign
