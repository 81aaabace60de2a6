import Verif.Props.Sound64

/-!
# Lemmas for C146: beams whose element ends are rounded
-/

set_option linter.unusedSectionVars false

namespace BeamDesign

open Spec

section
variable {K S : Type} [Field K] [LinearOrder K] [IsStrictOrderedRing K] [FloorRing K]
variable {rt : Rt K} {rnd : K → K}

/-- The lengths are positive floats that are machine numbers. -/
def FloatLens (rnd : K → K) (ls : List (Num K)) : Prop :=
  ∀ l ∈ ls, l.isInt = false ∧ 0 < l.val ∧ rnd l.val = l.val

/-- The computed start of element `i` when the first element starts at `a`. -/
def gstart (rnd : K → K) (a : K) : List (Num K) → ℕ → K
  | _, 0 => a
  | [], _ => a
  | l :: t, i + 1 => gstart rnd (rnd (a + l.val)) t i

theorem gstart_succ (ls : List (Num K)) : ∀ (a : K) (i : ℕ) (l : Num K), ls[i]? = some l →
    gstart rnd a ls (i + 1) = rnd (gstart rnd a ls i + l.val) := by
  induction ls with
  | nil => intro a i l h; simp at h
  | cons l t ih =>
    intro a i l' h
    cases i with
    | zero => simp only [List.getElem?_cons_zero, Option.some.injEq] at h; subst h; cases t <;> rfl
    | succ i => exact ih _ i l' (by simpa using h)

theorem gends_from (hr : RoundsTo rt rnd) (ls : List (Num K)) : ∀ (prev : Num K), prev.isInt = false →
    (∀ l ∈ ls, l.isInt = false) → ∀ i, i < ls.length →
    ∃ se, (endsFrom rt prev ls)[i]? = some se ∧ se.1.val = gstart rnd prev.val ls i ∧
      se.2.val = gstart rnd prev.val ls (i + 1) ∧ se.1.isInt = false := by
  induction ls with
  | nil => intro prev _ _ i hi; simp at hi
  | cons l t ih =>
    intro prev hp hl i hi
    obtain ⟨hv, hv'⟩ := fpadd hr prev l (hl l List.mem_cons_self)
    cases i with
    | zero =>
      refine ⟨(prev, prev.padd rt l), rfl, rfl, ?_, hp⟩
      rw [hv]; cases t <;> rfl
    | succ i =>
      obtain ⟨se, h1, h2, h3, h4⟩ := ih (prev.padd rt l) hv' (fun l h => hl l (List.mem_cons_of_mem _ h)) i (by simpa using hi)
      rw [hv] at h2 h3
      exact ⟨se, by simpa [endsFrom] using h1, h2, h3, h4⟩

theorem gends (hr : RoundsTo rt rnd) {ls : List (Num K)} (hm : FloatLens rnd ls) (i : ℕ) (hi : i < ls.length) :
    ∃ se, (endsOf rt ls)[i]? = some se ∧ se.1.val = gstart rnd 0 ls i ∧ se.2.val = gstart rnd 0 ls (i + 1) ∧
      se.1.isInt = false := by
  cases ls with
  | nil => simp at hi
  | cons l t =>
    obtain ⟨m1, -, m3⟩ := hm l List.mem_cons_self
    have e0 : rnd (0 + l.val) = l.val := by rw [zero_add, m3]
    cases i with
    | zero =>
      refine ⟨(Num.flt 0, l), rfl, rfl, ?_, rfl⟩
      show l.val = gstart rnd (rnd (0 + l.val)) t 0
      rw [e0]; cases t <;> rfl
    | succ i =>
      obtain ⟨se, h1, h2, h3, h4⟩ := gends_from hr t l m1
        (fun l h => (hm l (List.mem_cons_of_mem _ h)).1) i (by simpa using hi)
      refine ⟨se, by simpa [endsOf] using h1, ?_, ?_, h4⟩
      · show _ = gstart rnd (rnd (0 + l.val)) t i
        rw [e0, h2]
      · show _ = gstart rnd (rnd (0 + l.val)) t (i + 1)
        rw [e0, h3]

theorem gstartEnd (hr : RoundsTo rt rnd) {b : Beam K S} {ls : List (Num K)} (h : HasLengths b ls) (hm : FloatLens rnd ls)
    {i : ℕ} (hi : i < ls.length) :
    ∃ se, b.getElementStartEnd rt (i : ℤ) = .ok se ∧ se.1.val = gstart rnd 0 ls i ∧ se.1.isInt = false := by
  obtain ⟨se, h1, h2, -, h4⟩ := gends hr hm i hi
  refine ⟨se, ?_, h2, h4⟩
  unfold Beam.getElementStartEnd
  rw [elementEnds_ok rt h]
  exact (pyIndex_ok_iff _ _ _).2 ⟨i, h1, Or.inl rfl⟩

theorem ginElements (hr : RoundsTo rt rnd) {b : Beam K S} {ls : List (Num K)} (h : HasLengths b ls) (hm : FloatLens rnd ls)
    {p : Num K} {i : ℕ} (hi : i < ls.length) (h1 : gstart rnd 0 ls i ≤ p.val) (h2 : p.val ≤ gstart rnd 0 ls (i + 1)) :
    ∃ is, b.inElements rt p = .ok is ∧ i ∈ is := by
  refine ⟨inEnds p.val (endsOf rt ls), ?_, ?_⟩
  · unfold Beam.inElements; rw [elementEnds_ok rt h]; rfl
  · unfold inEnds
    rw [List.mem_filter, List.mem_range, endsOf_length]
    refine ⟨hi, ?_⟩
    obtain ⟨se, h3, h4, h5, -⟩ := gends hr hm i hi
    rw [h3]
    simp [h4, h5, h1, h2]

/-- A local position that is found. -/
theorem glocate (hr : RoundsTo rt rnd) {b : Beam K S} {ls : List (Num K)} (h : HasLengths b ls) (hm : FloatLens rnd ls)
    {c : Option ℤ} {p : Num K} {i : ℕ} {l : Num K} (hl : ls[i]? = some l) {out : List (Loc K)}
    (ho : b.locate rt c p i = .ok out) :
    out = [⟨p, i, Num.flt (rnd (rnd (p.val - gstart rnd 0 ls i) / l.val))⟩] ∧ 0 ≤ rnd (p.val - gstart rnd 0 ls i) ∧
      rnd (p.val - gstart rnd 0 ls i) ≤ l.val := by
  have hi : i < ls.length := (List.getElem?_eq_some_iff.1 hl).1
  obtain ⟨e, l', h4, h5, h6, h7⟩ := element_ok h hi (z := i) (Or.inl rfl)
  rw [hl] at h5; cases h5
  obtain ⟨hint, hpos, hmach⟩ := hm l (List.mem_of_getElem? hl)
  obtain ⟨se, h1, h2, h3⟩ := gstartEnd hr h hm hi
  have hsub : (p.psub rt se.1).val = rnd (p.val - gstart rnd 0 ls i) := by
    unfold Num.psub
    simp [h3, hr.sub, h2]
  unfold Beam.locate at ho
  simp only [h4, h6, bind, Except.bind] at ho
  rw [if_neg hpos.ne'] at ho
  unfold Beam.beamToLocal at ho
  simp only [h1, h4, h6, bind, Except.bind, hsub] at ho
  split_ifs at ho with g1 g2
  · push Not at g1
    simp only [pure, Except.pure, Num.pdiv, hsub, hr.div] at ho
    cases ho
    exact ⟨rfl, g1⟩

/-- A listing that is found holds every position with every element that contains it. -/
theorem glisting (hr : RoundsTo rt rnd) {b : Beam K S} {ls : List (Num K)} (h : HasLengths b ls) (hm : FloatLens rnd ls)
    {position : PosArg K} {minPos c : Option ℤ} {ps : List (Num K)} (hps : b.positionList rt position minPos c = .ok ps)
    {out : List (Loc K)} (ho : b.listPositions rt position minPos c = .ok out) {p : Num K} (hp : p ∈ ps) {i : ℕ} {l : Num K}
    (hl : ls[i]? = some l) (h1 : gstart rnd 0 ls i ≤ p.val) (h2 : p.val ≤ gstart rnd 0 ls (i + 1)) :
    (⟨p, i, Num.flt (rnd (rnd (p.val - gstart rnd 0 ls i) / l.val))⟩ : Loc K) ∈ out ∧
      0 ≤ rnd (p.val - gstart rnd 0 ls i) ∧ rnd (p.val - gstart rnd 0 ls i) ≤ l.val := by
  have hi : i < ls.length := (List.getElem?_eq_some_iff.1 hl).1
  unfold Beam.listPositions at ho
  simp only [hps, bind, Except.bind, pure, Except.pure] at ho
  split at ho
  · cases ho
  next blocks hblocks =>
  cases ho
  obtain ⟨blk, hblk, hpb⟩ := forall₂_mem_left ((mapM_ok_iff _ _ _).1 hblocks) hp
  obtain ⟨is, his, him⟩ := ginElements hr h hm hi h1 h2
  simp only [his] at hpb
  split at hpb
  · cases hpb
  next lss hls =>
  cases hpb
  obtain ⟨blk', hblk', hloc⟩ := forall₂_mem_left ((mapM_ok_iff _ _ _).1 hls) him
  obtain ⟨e1, e2⟩ := glocate hr h hm hl hloc
  exact ⟨List.mem_flatten.2 ⟨_, hblk, List.mem_flatten.2 ⟨_, hblk', by rw [e1]; simp⟩⟩, e2⟩

theorem glocalToBeam (hr : RoundsTo rt rnd) {b : Beam K S} {ls : List (Num K)} (h : HasLengths b ls) (hm : FloatLens rnd ls)
    {i : ℕ} {l : Num K} (hl : ls[i]? = some l) (p : Num K) (h0 : 0 ≤ p.val) (h1 : p.val ≤ 1) :
    ∃ q, b.localToBeam rt p (i : ℤ) = .ok q ∧ q.val = rnd (gstart rnd 0 ls i + rnd (p.val * l.val)) := by
  have hi : i < ls.length := (List.getElem?_eq_some_iff.1 hl).1
  obtain ⟨e, l', h4, h5, h6, -⟩ := element_ok h hi (z := i) (Or.inl rfl)
  rw [hl] at h5; cases h5
  obtain ⟨se, h7, h8, h9⟩ := gstartEnd hr h hm hi
  have hint := (hm l (List.mem_of_getElem? hl)).1
  unfold Beam.localToBeam
  rw [if_neg (by push Not; exact ⟨h0, h1⟩)]
  simp only [h7, h4, h6, bind, Except.bind]
  refine ⟨_, rfl, ?_⟩
  unfold Num.padd Num.pmul
  simp [hint, h9, hr.add, hr.mul, h8]

/-- A position list that is found contains the converted positions of the stored loads. -/
theorem gpositionList (hr : RoundsTo rt rnd) {b : Beam K S} {ls : List (Num K)} (h : HasLengths b ls) (hm : FloatLens rnd ls)
    {n k : ℤ} {ps : List (Num K)} (hps : b.positionList rt .none (some n) (some k) = .ok ps) {i : ℕ} {l : Num K} {t : Table K}
    {r : LRow K} (hl : ls[i]? = some l) (ht : HasTable b k i t) (hrow : r ∈ t.rows) :
    Num.flt (rnd (gstart rnd 0 ls i + rnd (r.pos * l.val))) ∈ ps := by
  have hflt := positionList_flt h (fun l hl => (hm l hl).1) hps
  suffices hv : rnd (gstart rnd 0 ls i + rnd (r.pos * l.val)) ∈ ps.map (·.val) by
    obtain ⟨p, hp, hpv⟩ := List.mem_map.1 hv
    have := hflt p hp
    obtain ⟨pv, pi⟩ := p
    simp only at this hpv
    subst this; subst hpv
    exact hp
  obtain ⟨e, he, hlk, hwf, hne⟩ := id ht
  have hz : (e, i) ∈ b.elements.zipIdx := List.mem_zipIdx_iff_getElem?.2 he
  simp only [Beam.positionList, bind, Except.bind, elementEnds_ok rt h, pure, Except.pure] at hps
  split at hps
  · cases hps
  split at hps
  · cases hps
  split at hps
  · cases hps
  next real hreal =>
  cases hps
  rw [sortedSet_vals]
  obtain ⟨rp, hrp, hrr⟩ := forall₂_mem_left ((mapM_ok_iff _ _ _).1 hreal) hz
  have hep : e.loadPositions k = .ok (t.rows.map fun r => ⟨r.pos, t.isInt⟩) := by
    simp [Element.loadPositions, Element.case, hlk, LoadCase.loadPositions, bind, Except.bind]
  simp only [Beam.realPositions, hep, bind, Except.bind] at hrr
  obtain ⟨q, hq, hqv⟩ := forall₂_mem_left ((mapM_ok_iff _ _ _).1 hrr)
    (List.mem_map_of_mem (f := fun r : LRow K => (⟨r.pos, t.isInt⟩ : Num K)) hrow)
  obtain ⟨q', h1, h2⟩ := glocalToBeam hr h hm hl ⟨r.pos, t.isInt⟩ (hwf.2 r hrow).1 (hwf.2 r hrow).2
  rw [hqv] at h1
  cases h1
  exact List.mem_map.2 ⟨q, List.mem_append_left _ (List.mem_append_right _ (List.mem_flatten.2 ⟨rp, hrp, hq⟩)), h2⟩

/-- The design sections considered at a position include those of the elements that contain it. -/
theorem gconsidered (hr : RoundsTo rt rnd) {o : AS4100 K} {b : Beam K (Sect K)} (hb : o.beam = some b)
    (ha : Aligned o) {ls : List (Num K)} (h : HasLengths b ls) (hm : FloatLens rnd ls) {x : K} {ds : List (DSect K)}
    (hds : o.considered rt (.scalar (Num.flt x)) = .ok ds) :
    (∀ d ∈ ds, d ∈ o.dsects) ∧ ∀ i e d, b.elements[i]? = some e → e.sect = .circle d.radius (some d.material) →
      gstart rnd 0 ls i ≤ x → x ≤ gstart rnd 0 ls (i + 1) → d ∈ ds := by
  have hcons : o.considered rt (.scalar (Num.flt x)) =
      (do let l ← o.getDSection rt (.list [Num.flt x]) none none; return l.map (·.2)) := rfl
  rw [hcons] at hds
  simp only [AS4100.getDSection, hb, bind, Except.bind, pure, Except.pure] at hds
  split at hds
  · cases hds
  next ys hys =>
  cases hds
  split at hys
  · cases hys
  next out hout =>
  have hf := (mapM_ok_iff _ _ _).1 hys
  constructor
  · intro d hd
    obtain ⟨y, hy, rfl⟩ := List.mem_map.1 hd
    obtain ⟨l, -, hly⟩ := forall₂_mem_right hf hy
    split at hly
    · cases hly
    next d' hd' =>
    cases hly
    exact List.mem_of_getElem? (pyIndex_nat_ok hd')
  · intro i e d he hes h1 h2
    have hi : i < ls.length := by rw [← hasLengths_length h]; exact (List.getElem?_eq_some_iff.1 he).1
    obtain ⟨ps, hps, -⟩ := listPositions_pos hout
    have hpe : ps = [Num.flt x] := by
      simp only [Beam.positionList, bind, Except.bind, pure, Except.pure] at hps
      split at hps
      · cases hps
      · cases hps; rfl
    obtain ⟨hmem, -⟩ := glisting hr h hm hps hout (p := Num.flt x) (by rw [hpe]; simp) (List.getElem?_eq_getElem hi) h1 h2
    obtain ⟨y, hy, hly⟩ := forall₂_mem_left hf hmem
    obtain ⟨d', hd', hds'⟩ := aligned_get hb ha he
    rw [hes] at hds'
    cases dsect_eq hds'
    simp only [pyIndex_nat _ _ _ hd'] at hly
    cases hly
    exact List.mem_map.2 ⟨_, hy, rfl⟩

theorem gstart_nonneg (hr : RoundsTo rt rnd) {ls : List (Num K)} (hm : FloatLens rnd ls) : ∀ i, i ≤ ls.length →
    0 ≤ gstart rnd 0 ls i ∧ rnd (gstart rnd 0 ls i) = gstart rnd 0 ls i := by
  intro i
  induction i with
  | zero => intro _; cases ls <;> exact ⟨le_rfl, hr.zero⟩
  | succ i ih =>
    intro hi
    obtain ⟨h1, -⟩ := ih (by omega)
    have hl : ls[i]? = some ls[i] := List.getElem?_eq_getElem (by omega)
    rw [gstart_succ ls 0 i _ hl]
    refine ⟨?_, hr.idem _⟩
    exact hr.zero.ge.trans (hr.mono (add_nonneg h1 (hm _ (List.mem_of_getElem? hl)).2.1.le))

end

/-- The computed ends are not far above the exact ones. -/
theorem gstart_le {ls : List (Num ℚ)} (hm : FloatLens rnd64 ls) (hsmall : ∀ l ∈ ls, 2 ^ (-100 : ℤ) ≤ l.val)
    (hlen : ls.length ≤ 2 ^ 50) : ∀ i, i ≤ ls.length →
    gstart rnd64 0 ls i ≤ startOf ls i * (1 + i * (4 * 2 ^ (-53 : ℤ))) := by
  intro i
  induction i with
  | zero => intro _; cases ls <;> simp [gstart, startOf]
  | succ i ih =>
    intro hi
    have h1 := ih (by omega)
    have hl : ls[i]? = some ls[i] := List.getElem?_eq_getElem (by omega)
    have hmem := List.mem_of_getElem? hl
    rw [gstart_succ ls 0 i _ hl, startOf_succ ls i _ hl]
    obtain ⟨g0, -⟩ := gstart_nonneg C83_binary64_rounds hm i (by omega)
    have hs0 : 0 ≤ startOf ls i := startOf_nonneg (fun l hl => (hm l hl).2.1.le) i
    obtain ⟨-, hpos, -⟩ := hm _ hmem
    have hη : (2 : ℚ) ^ (-1075 : ℤ) ≤ 2 ^ (-55 : ℤ) * (ls[i]).val := by
      calc (2 : ℚ) ^ (-1075 : ℤ) ≤ 2 ^ (-155 : ℤ) := zpow_le_zpow_right₀ (by norm_num) (by norm_num)
        _ = 2 ^ (-55 : ℤ) * 2 ^ (-100 : ℤ) := by rw [← zpow_add₀ (by norm_num)]; norm_num
        _ ≤ _ := mul_le_mul_of_nonneg_left (hsmall _ hmem) (two_zpow_pos _).le
    have e := (abs_le.1 (rnd64_error (gstart rnd64 0 ls i + (ls[i]).val))).2
    rw [abs_of_nonneg (by linarith)] at e
    generalize (2 : ℚ) ^ (-1075 : ℤ) = η at *
    generalize (ls[i]).val = y at *
    generalize gstart rnd64 0 ls i = gs at *
    generalize startOf ls i = s at *
    have hi' : (i : ℚ) ≤ 2 ^ 50 := by
      have : i ≤ 2 ^ 50 := by omega
      exact_mod_cast this
    have hi0 : (0 : ℚ) ≤ i := Nat.cast_nonneg i
    push_cast
    generalize (i : ℚ) = j at *
    have h2 : gs ≤ (s + y) * (1 + j * (4 * 2 ^ (-53 : ℤ))) - y := by
      have : 0 ≤ y * (j * (4 * 2 ^ (-53 : ℤ))) := by positivity
      linarith
    have h3 : (s + y) * (1 + j * (4 * 2 ^ (-53 : ℤ))) ≤ (s + y) * 2 := by
      refine mul_le_mul_of_nonneg_left ?_ (by linarith)
      norm_num at hi' ⊢
      linarith
    norm_num at e h2 h3 hη ⊢
    linarith

/-- How far the local position used for a stored row can be from the position stored. -/
theorem gdrift {ls : List (Num ℚ)} (hm : FloatLens rnd64 ls) {R : ℚ} (ht : NotTiny ls R) (hlen : ls.length ≤ 2 ^ 50) {i : ℕ}
    {l : Num ℚ} (hl : ls[i]? = some l) {x X q : ℚ} (hx0 : 0 ≤ x) (hx1 : x ≤ 1)
    (hX : X = rnd64 (gstart rnd64 0 ls i + rnd64 (x * l.val))) (hq : q = rnd64 (rnd64 (X - gstart rnd64 0 ls i) / l.val))
    (hD1 : rnd64 (X - gstart rnd64 0 ls i) ≤ l.val) :
    |q - x| ≤ 8 * 2 ^ (-53 : ℤ) * R := by
  obtain ⟨-, hpos, hml⟩ := hm l (List.mem_of_getElem? hl)
  obtain ⟨hR, hl100⟩ := ht l (List.mem_of_getElem? hl)
  have hilt : i < ls.length := (List.getElem?_eq_some_iff.1 hl).1
  have hnn : ∀ l ∈ ls, 0 ≤ l.val := fun l hl => (hm l hl).2.1.le
  have hstep := startOf_succ ls i l hl
  have hs0 : 0 ≤ startOf ls i := startOf_nonneg hnn i
  have hsT : startOf ls (i + 1) ≤ total ls := startOf_le_total hnn (i + 1)
  obtain ⟨g0, hm1⟩ := gstart_nonneg C83_binary64_rounds hm i hilt.le
  have g1 := gstart_le hm (fun l hl => (ht l hl).2) hlen i hilt.le
  have hi' : (i : ℚ) ≤ 2 ^ 50 := by
    have : i ≤ 2 ^ 50 := by omega
    exact_mod_cast this
  have hsl : gstart rnd64 0 ls i + l.val ≤ 2 * (R * l.val) := by
    have h3 : startOf ls i * (1 + i * (4 * 2 ^ (-53 : ℤ))) ≤ startOf ls i * 2 := by
      refine mul_le_mul_of_nonneg_left ?_ hs0
      clear hsT
      generalize (i : ℚ) = j at hi' ⊢
      norm_num at hi' ⊢
      linarith
    linarith
  set s := gstart rnd64 0 ls i with hs
  set T := total ls
  set A := rnd64 (x * l.val) with hA
  have hA0 : 0 ≤ A := by rw [hA, ← rnd64_zero]; exact rnd64_mono (mul_nonneg hx0 hpos.le)
  have hA1 : A ≤ l.val := le_trans (rnd64_mono (mul_le_of_le_one_left hpos.le hx1)) hml.le
  have hX0 : s ≤ X := by rw [hX]; exact hm1.ge.trans (rnd64_mono (by linarith))
  set D := rnd64 (X - s) with hD
  have hD0 : 0 ≤ D := by rw [hD, ← rnd64_zero]; exact rnd64_mono (by linarith)
  have hq0 : 0 ≤ D / l.val := div_nonneg hD0 hpos.le
  have hq1 : D / l.val ≤ 1 := (div_le_one hpos).2 hD1
  have e1 := rnd64_error (x * l.val)
  have e2 := rnd64_error (s + A)
  have e3 := rnd64_error (X - s)
  have e4 := rnd64_error (D / l.val)
  rw [← hA, abs_of_nonneg (mul_nonneg hx0 hpos.le)] at e1
  rw [← hX, abs_of_nonneg (by linarith : 0 ≤ s + A)] at e2
  rw [← hD, abs_of_nonneg (by linarith : 0 ≤ X - s)] at e3
  rw [← hq, abs_of_nonneg hq0] at e4
  have hη : (2 : ℚ) ^ (-1075 : ℤ) ≤ 2 ^ (-55 : ℤ) * l.val := by
    calc (2 : ℚ) ^ (-1075 : ℤ) ≤ 2 ^ (-155 : ℤ) := zpow_le_zpow_right₀ (by norm_num) (by norm_num)
      _ = 2 ^ (-55 : ℤ) * 2 ^ (-100 : ℤ) := by rw [← zpow_add₀ (by norm_num)]; norm_num
      _ ≤ _ := mul_le_mul_of_nonneg_left hl100 (two_zpow_pos _).le
  have hη' : (2 : ℚ) ^ (-1075 : ℤ) ≤ 2 ^ (-55 : ℤ) := zpow_le_zpow_right₀ (by norm_num) (by norm_num)
  generalize (2 : ℚ) ^ (-1075 : ℤ) = η at *
  have hR1 : 1 ≤ R := by
    by_contra hcon
    have : R * l.val < 1 * l.val := mul_lt_mul_of_pos_right (not_le.1 hcon) hpos
    linarith
  -- on the element
  have hxl : x * l.val ≤ l.val := mul_le_of_le_one_left hpos.le hx1
  have hRl : l.val ≤ R * l.val := le_mul_of_one_le_left hpos.le hR1
  have k : |D - x * l.val| ≤ (3 + 2 * R) * 2 ^ (-53 : ℤ) * l.val := by
    rw [abs_le] at e1 e2 e3 ⊢
    norm_num at e1 e2 e3 hη ⊢
    constructor <;> linarith [e1.1, e1.2, e2.1, e2.2, e3.1, e3.2]
  have k' : |D / l.val - x| ≤ (3 + 2 * R) * 2 ^ (-53 : ℤ) := by
    rw [show D / l.val - x = (D - x * l.val) / l.val by field_simp, abs_div, abs_of_pos hpos, div_le_iff₀ hpos]
    exact k
  rw [abs_le] at e4 k' ⊢
  norm_num at e4 k' hη' ⊢
  constructor <;> linarith [e4.1, e4.2, k'.1, k'.2]

/-- The utilisation of some axial load reported next to a stored row is at most the overall one. -/
theorem ganywhere_covers {one : ℚ → ℚ → Py ℚ} {o : AS4100 ℚ} {b : Beam ℚ (Sect ℚ)} (hb : o.beam = some b)
    {ls : List (Num ℚ)} (h : HasLengths b ls) (hm : FloatLens rnd64 ls)
    {loadCase : CaseArg} {c : ℤ} {cs : List ℤ} (hcs : CasesOf o loadCase (c :: cs))
    (hc : ∀ k ∈ c :: cs, LoadedFloat b k) {v : ℚ} (hv : o.tensionUtilisationWith one Rt.binary64 loadCase .none = .ok v) {k : ℤ}
    (hk : k ∈ c :: cs) (hst : StationsOf b c k) {i : ℕ} {l : Num ℚ} {t : Table ℚ} {r : LRow ℚ} (hl : ls[i]? = some l)
    (ht : HasTable b k i t) (hrow : r ∈ t.rows) (hF : Machine IsDouble t.rows) {g W : ℚ} (hg : 0 < g)
    (hp : t.rows.Pairwise fun r s => r.pos + g ≤ s.pos) (hW : ∀ r ∈ t.rows, |r.n| ≤ W) {X q : ℚ}
    (hX : X = rnd64 (gstart rnd64 0 ls i + rnd64 (r.pos * l.val))) (hq : q = rnd64 (rnd64 (X - gstart rnd64 0 ls i) / l.val)) :
    gstart rnd64 0 ls i ≤ X ∧ X ≤ gstart rnd64 0 ls (i + 1) ∧ rnd64 (X - gstart rnd64 0 ls i) ≤ l.val ∧
    ∃ m cap w, o.phiNt Rt.binary64 (.scalar (Num.flt X)) = .ok cap ∧ IsDouble m ∧
      |m - r.n| ≤ 2 * W / g * |q - r.pos| + (2 ^ (-49 : ℤ) * W + 2 ^ (-1073 : ℤ)) ∧
      one cap (max m 0) = .ok w ∧ w ≤ v := by
  have hr := C83_binary64_rounds
  have hs := binary64_sortOK
  obtain ⟨-, hpos, hml⟩ := hm l (List.mem_of_getElem? hl)
  have hilt : i < ls.length := (List.getElem?_eq_some_iff.1 hl).1
  obtain ⟨e1, he1, he2, hwf, hne⟩ := id ht
  obtain ⟨x0, x1⟩ := hwf.2 r hrow
  have hA0 : 0 ≤ rnd64 (r.pos * l.val) := by
    rw [← rnd64_zero]; exact rnd64_mono (mul_nonneg x0 hpos.le)
  have hA1 : rnd64 (r.pos * l.val) ≤ l.val := by
    refine le_trans (rnd64_mono (mul_le_of_le_one_left hpos.le x1)) hml.le
  obtain ⟨-, hmg⟩ := gstart_nonneg hr hm i hilt.le
  have hin1 : gstart rnd64 0 ls i ≤ X := by
    rw [hX]
    exact hmg.ge.trans (rnd64_mono (by linarith))
  have hin2 : X ≤ gstart rnd64 0 ls (i + 1) := by
    rw [hX, gstart_succ ls 0 i l hl]
    exact rnd64_mono (by linarith)
  refine ⟨hin1, hin2, ?_⟩
  -- the positions checked
  obtain ⟨locs, hlocs⟩ : ∃ locs, b.listPositions Rt.binary64 .none (some o.assessmentPoints) (some c) = .ok locs := by
    have hv' := hv
    simp only [AS4100.tensionUtilisationWith, PosArg.given, utilCases_ok hcs, AS4100.utilLoopWith, AS4100.utilPositions, hb,
      bind, Except.bind, pure, Except.pure] at hv'
    split at hv'
    · cases hv'
    next ret hret =>
    split at hret
    · cases hret
    next ps hps =>
    split at hps
    · cases hps
    next locs hlocs => exact ⟨locs, hlocs⟩
  obtain ⟨ps, hps, -⟩ := listPositions_pos hlocs
  obtain ⟨t', r', ht', hr', hrr⟩ := hst i t r ht hrow
  have hmem := gpositionList hr h hm hps hl ht' hr'
  rw [hrr, ← hX] at hmem
  obtain ⟨hel, -, -⟩ := glisting hr h hm hps hlocs hmem hl hin1 hin2
  obtain ⟨cap, tab', a1, a2, a3⟩ := utilisation_covers hb hcs hlocs hv hk hel
  simp only at a1 a2
  -- what is reported at `X`
  simp only [AS4100.getTension, hb, bind, Except.bind, pure, Except.pure] at a2
  obtain ⟨out, hout⟩ : ∃ out, b.listPositions Rt.binary64 (.scalar (Num.flt X)) none (some k) = .ok out := by
    unfold Beam.getLoads at a2
    simp only [bind, Except.bind] at a2
    cases hh : b.listPositions Rt.binary64 (.scalar (Num.flt X)) none (some k) with
    | error e => rw [hh] at a2; cases a2
    | ok out => exact ⟨out, rfl⟩
  obtain ⟨ps', hps', -⟩ := listPositions_pos hout
  have hpe : ps' = [Num.flt X] := by
    have hpl : b.positionList Rt.binary64 (.scalar (Num.flt X)) none (some k) =
        (do b.checkPositions Rt.binary64 [Num.flt X]
            return [Num.flt X]) := rfl
    rw [hpl] at hps'
    simp only [bind, Except.bind, pure, Except.pure] at hps'
    split at hps'
    · cases hps'
    · cases hps'; rfl
  obtain ⟨hel', -, hD1⟩ := glisting hr h hm hps' hout (p := Num.flt X) (by rw [hpe]; simp) hl hin1 hin2
  refine ⟨hD1, ?_⟩
  obtain ⟨m, hmb, m1, -, m3⟩ := block_gentle hwf hne hF hg hp hW hrow (q := q) (by rw [hq]; exact isDouble_rnd64 _)
  obtain ⟨blocks, hf, hgl⟩ := getLoads_eq (component := .name "N") (cs := [.N]) hs (hc k hk) rfl (by simp)
    (List.ne_nil_of_mem hel') hout
  obtain ⟨rows, hrows, t', e', ht', -, hre, -⟩ := forall₂_mem_left hf hel'
  obtain ⟨e2, he3, he4, -⟩ := ht'
  simp only at he3
  rw [he1] at he3; cases he3
  rw [he2] at he4; cases he4
  have hin2 : (X, [m]) ∈ blocks.flatten := by
    refine List.mem_flatten.2 ⟨rows, hrows, ?_⟩
    rw [hre]
    show _ ∈ (block Rt.binary64 t.rows [.N] (rnd64 (rnd64 (X - gstart rnd64 0 ls i) / l.val))).map _
    rw [← hq]
    exact List.mem_map.2 ⟨_, hmb, rfl⟩
  have hrt : (X, [some m]) ∈ cells blocks.flatten := by
    unfold cells
    exact List.mem_map.2 ⟨_, hin2, by simp⟩
  rw [hgl] at a2
  simp only at a2
  split at a2
  · cases a2
  next rows hrows =>
  cases a2
  obtain ⟨x, hx, hrx⟩ := forall₂_mem_left ((mapM_ok_iff _ _ _).1 hrows) hrt
  obtain ⟨n', rest, w, b1, b2, b3⟩ := a3 x hx
  refine ⟨m, cap, w, a1, m1, m3, ?_, b3⟩
  simp only [clampRow] at hrx
  cases hrx
  cases b1
  rw [← b2]
  congr 1
  split_ifs with h0
  · exact max_eq_right h0.le
  · exact max_eq_left (not_lt.1 h0)

end BeamDesign
