import Verif.Lemmas.Positions
import Verif.Spec.Beam

/-! # Lemmas about beams -/

set_option linter.unusedSectionVars false

namespace BeamDesign

open Spec

/-! ## Python indexing -/

theorem pyIndex_nat {α : Type} (xs : List α) (i : ℕ) (a : α) (h : xs[i]? = some a) :
    pyIndex xs (i : ℤ) = .ok a := by
  unfold pyIndex
  have h1 : ¬ (i : ℤ) < 0 := by omega
  simp [h1, h]

theorem pyIndex_neg {α : Type} (xs : List α) (i : ℕ) (a : α) (h : xs[i]? = some a) :
    pyIndex xs ((i : ℤ) - xs.length) = .ok a := by
  have hi : i < xs.length := by
    by_contra hc
    rw [List.getElem?_eq_none (by omega)] at h
    cases h
  unfold pyIndex
  have h1 : ((i : ℤ) - xs.length) < 0 := by omega
  simp [h1, h]

theorem pyIndex_ok_iff {α : Type} (xs : List α) (i : ℤ) (a : α) :
    pyIndex xs i = .ok a ↔ ∃ j : ℕ, xs[j]? = some a ∧ (i = j ∨ i = (j : ℤ) - xs.length) := by
  constructor
  · intro h
    unfold pyIndex at h
    simp only at h
    split_ifs at h with h1 h2
    · cases hx : xs[(i + xs.length).toNat]? with
      | none => rw [hx] at h; cases h
      | some b =>
        rw [hx] at h; cases h
        exact ⟨_, hx, Or.inr (by omega)⟩
    · cases hx : xs[i.toNat]? with
      | none => rw [hx] at h; cases h
      | some b =>
        rw [hx] at h; cases h
        exact ⟨_, hx, Or.inl (by omega)⟩
  · rintro ⟨j, hj, rfl | rfl⟩
    · exact pyIndex_nat xs j a hj
    · exact pyIndex_neg xs j a hj

theorem pyIndex_error_iff {α : Type} (xs : List α) (i : ℤ) :
    pyIndex xs i = .error .indexError ↔ i < -xs.length ∨ (xs.length : ℤ) ≤ i := by
  unfold pyIndex
  simp only
  split_ifs with h1 h2 h2
  · simp; omega
  · constructor
    · intro h
      cases hx : xs[(i + xs.length).toNat]? with
      | none => rw [List.getElem?_eq_none_iff] at hx; omega
      | some b => rw [hx] at h; cases h
    · intro h; omega
  · constructor
    · intro h
      cases hx : xs[i.toNat]? with
      | none => rw [List.getElem?_eq_none_iff] at hx; omega
      | some b => rw [hx] at h; cases h
    · intro h
      rw [List.getElem?_eq_none (by omega)]

section
variable {K S : Type} [Field K] [LinearOrder K] [IsStrictOrderedRing K]

/-! ## Arithmetic on tagged numbers -/

theorem padd_val {rt : Rt K} (hx : rt.Exact) (a b : Num K) : (a.padd rt b).val = a.val + b.val := by
  unfold Num.padd; split_ifs
  · rfl
  · exact hx.add _ _

theorem psub_val {rt : Rt K} (hx : rt.Exact) (a b : Num K) : (a.psub rt b).val = a.val - b.val := by
  unfold Num.psub; split_ifs
  · rfl
  · exact hx.sub _ _

theorem pmul_val {rt : Rt K} (hx : rt.Exact) (a b : Num K) : (a.pmul rt b).val = a.val * b.val := by
  unfold Num.pmul; split_ifs
  · rfl
  · exact hx.mul _ _

theorem pdiv_val {rt : Rt K} (hx : rt.Exact) (a b : Num K) : (a.pdiv rt b).val = a.val / b.val :=
  hx.div _ _

/-! ## Lengths and ends -/

theorem lengths_ok {b : Beam K S} {ls : List (Num K)} (h : HasLengths b ls) : b.lengths = .ok ls := by
  unfold Beam.lengths
  rw [mapM_eq_ok_iff]
  exact h.1.imp fun e l hl => by simp [Element.len, hl]

theorem foldl_padd {rt : Rt K} (hx : rt.Exact) (ls : List (Num K)) (a : Num K) :
    (ls.foldl (Num.padd rt) a).val = a.val + (ls.map (·.val)).sum := by
  induction ls generalizing a with
  | nil => simp
  | cons l t ih =>
    rw [List.foldl_cons, ih, padd_val hx, List.map_cons, List.sum_cons]; ring

/-- When no addition rounds there is nothing to correct. -/
theorem sumFloats_eq {rt : Rt K} (h0 : rt.add 0 0 = 0) (xs : List (Num K)) :
    ∀ f : Num K, f.isInt = false → (∀ a l b, xs = a ++ l :: b →
      rt.add (rt.sub (a.foldl (Num.padd rt) f).val (rt.add (a.foldl (Num.padd rt) f).val l.val)) l.val = 0 ∧
      rt.add (rt.sub l.val (rt.add (a.foldl (Num.padd rt) f).val l.val)) (a.foldl (Num.padd rt) f).val = 0) →
    (⟨sumFloats rt f.val 0 xs, false⟩ : Num K) = xs.foldl (Num.padd rt) f := by
  induction xs with
  | nil => rintro ⟨f, i⟩ hi _; simp only at hi; simp [sumFloats, hi]
  | cons x xs ih =>
    intro f hi h
    have hx : f.padd rt x = ⟨rt.add f.val x.val, false⟩ := by unfold Num.padd; rw [hi]; rfl
    have h1 := h [] x xs rfl
    simp only [List.foldl_nil] at h1
    have := ih (f.padd rt x) (by rw [hx]) (fun a l b hab => by
      have := h (x :: a) l b (by rw [hab]; rfl)
      simpa using this)
    rw [hx] at this
    rw [List.foldl_cons, hx, ← this]
    simp only [sumFloats, h1.1, h1.2, h0, ite_self]

theorem sumInts_eq {rt : Rt K} (h0 : rt.add 0 0 = 0) (xs : List (Num K)) :
    ∀ r : K, (∀ a l b, xs = a ++ l :: b →
      rt.add (rt.sub (a.foldl (Num.padd rt) (Num.int r)).val (rt.add (a.foldl (Num.padd rt) (Num.int r)).val l.val)) l.val = 0 ∧
      rt.add (rt.sub l.val (rt.add (a.foldl (Num.padd rt) (Num.int r)).val l.val)) (a.foldl (Num.padd rt) (Num.int r)).val = 0) →
    sumInts rt r xs = xs.foldl (Num.padd rt) (Num.int r) := by
  induction xs with
  | nil => intro r _; rfl
  | cons x xs ih =>
    intro r h
    unfold sumInts
    by_cases hi : x.isInt = true
    · have hx : (Num.int r).padd rt x = Num.int (r + x.val) := by unfold Num.padd; simp [Num.int, hi]
      rw [if_pos hi, List.foldl_cons, hx]
      refine ih _ fun a l b hab => ?_
      have := h (x :: a) l b (by rw [hab]; rfl)
      rwa [List.foldl_cons, hx] at this
    · have hx : (Num.int r).padd rt x = ⟨rt.add r x.val, false⟩ := by unfold Num.padd; simp [Num.int, hi]
      rw [if_neg hi, List.foldl_cons, hx]
      refine sumFloats_eq h0 xs ⟨rt.add r x.val, false⟩ rfl fun a l b hab => ?_
      have := h (x :: a) l b (by rw [hab]; rfl)
      rwa [List.foldl_cons, hx] at this

theorem pySum_of {rt : Rt K} (h0 : rt.add 0 0 = 0) (xs : List (Num K)) (h : ∀ a l b, xs = a ++ l :: b →
      rt.add (rt.sub (a.foldl (Num.padd rt) (Num.int 0)).val (rt.add (a.foldl (Num.padd rt) (Num.int 0)).val l.val)) l.val = 0 ∧
      rt.add (rt.sub l.val (rt.add (a.foldl (Num.padd rt) (Num.int 0)).val l.val)) (a.foldl (Num.padd rt) (Num.int 0)).val = 0) :
    pySum rt xs = xs.foldl (Num.padd rt) (Num.int 0) := by
  unfold pySum
  split
  · rfl
  · exact sumInts_eq h0 xs 0 h

theorem pySum_eq {rt : Rt K} (hx : rt.Exact) (xs : List (Num K)) : pySum rt xs = xs.foldl (Num.padd rt) (Num.int 0) :=
  pySum_of (by rw [hx.add, add_zero]) xs fun a l b _ => by
    simp only [hx.add, hx.sub]; constructor <;> ring

theorem pySum_plain {rt : Rt K} (hp : rt.sum = .plain) (xs : List (Num K)) : pySum rt xs = xs.foldl (Num.padd rt) (Num.int 0) := by
  unfold pySum; rw [hp]

theorem pySum_single (rt : Rt K) (l : Num K) : pySum rt [l] = (Num.int 0).padd rt l := by
  unfold pySum
  split
  · rfl
  · obtain ⟨v, i⟩ := l
    cases i <;> simp [sumInts, sumFloats, Num.padd, Num.int]

theorem length_ok {rt : Rt K} (hx : rt.Exact) {b : Beam K S} {ls : List (Num K)}
    (h : HasLengths b ls) : ∃ l, b.length rt = .ok l ∧ l.val = total ls := by
  refine ⟨pySum rt ls, ?_, ?_⟩
  · unfold Beam.length; rw [lengths_ok h]; rfl
  · rw [pySum_eq hx, foldl_padd hx]; simp [total]

theorem startOf_zero (ls : List (Num K)) : startOf ls 0 = 0 := by simp [startOf]

theorem startOf_succ (ls : List (Num K)) (i : ℕ) (l : Num K) (h : ls[i]? = some l) :
    startOf ls (i + 1) = startOf ls i + l.val := by
  unfold startOf
  rw [List.take_add_one, h]
  simp

theorem startOf_length (ls : List (Num K)) : startOf ls ls.length = total ls := by
  simp [startOf, total]

theorem startOf_ge_length (ls : List (Num K)) {i : ℕ} (h : ls.length ≤ i) : startOf ls i = total ls := by
  unfold startOf total
  rw [List.take_of_length_le h]

theorem startOf_mono {ls : List (Num K)} (hl : ∀ l ∈ ls, 0 ≤ l.val) {i j : ℕ} (h : i ≤ j) :
    startOf ls i ≤ startOf ls j := by
  induction h with
  | refl => exact le_refl _
  | @step m _ ih =>
    refine ih.trans ?_
    cases hm : ls[m]? with
    | none =>
      rw [List.getElem?_eq_none_iff] at hm
      rw [startOf_ge_length ls hm, startOf_ge_length ls (by omega)]
    | some l =>
      rw [startOf_succ ls m l hm]
      have := hl l (List.mem_of_getElem? hm)
      linarith

theorem startOf_nonneg {ls : List (Num K)} (hl : ∀ l ∈ ls, 0 ≤ l.val) (i : ℕ) : 0 ≤ startOf ls i := by
  rw [← startOf_zero ls]; exact startOf_mono hl (Nat.zero_le _)

theorem startOf_le_total {ls : List (Num K)} (hl : ∀ l ∈ ls, 0 ≤ l.val) (i : ℕ) :
    startOf ls i ≤ total ls := by
  rcases Nat.le_total i ls.length with h | h
  · rw [← startOf_length]; exact startOf_mono hl h
  · rw [startOf_ge_length ls h]

theorem total_nonneg {ls : List (Num K)} (hl : ∀ l ∈ ls, 0 ≤ l.val) : 0 ≤ total ls :=
  (startOf_nonneg hl 0).trans (startOf_le_total hl 0)

theorem endsFrom_length (rt : Rt K) (prev : Num K) (ls : List (Num K)) :
    (endsFrom rt prev ls).length = ls.length := by
  induction ls generalizing prev with
  | nil => rfl
  | cons l t ih => simp [endsFrom, ih]

theorem endsOf_length (rt : Rt K) (ls : List (Num K)) : (endsOf rt ls).length = ls.length := by
  cases ls with
  | nil => rfl
  | cons l t => simp [endsOf, endsFrom_length]

theorem endsFrom_get {rt : Rt K} (hx : rt.Exact) (ls : List (Num K)) (prev : Num K) (i : ℕ)
    (hi : i < ls.length) :
    ∃ se, (endsFrom rt prev ls)[i]? = some se ∧ se.1.val = prev.val + startOf ls i ∧
      se.2.val = prev.val + startOf ls (i + 1) := by
  induction ls generalizing prev i with
  | nil => simp at hi
  | cons l t ih =>
    cases i with
    | zero =>
      refine ⟨(prev, prev.padd rt l), rfl, by simp [startOf], ?_⟩
      rw [padd_val hx]; simp [startOf]
    | succ i =>
      obtain ⟨se, h1, h2, h3⟩ := ih (prev.padd rt l) i (by simpa using hi)
      refine ⟨se, by simpa [endsFrom] using h1, ?_, ?_⟩
      · rw [h2, padd_val hx]; simp [startOf]; ring
      · rw [h3, padd_val hx]; simp [startOf]; ring

theorem endsOf_get {rt : Rt K} (hx : rt.Exact) (ls : List (Num K)) (i : ℕ) (hi : i < ls.length) :
    ∃ se, (endsOf rt ls)[i]? = some se ∧ se.1.val = startOf ls i ∧ se.2.val = startOf ls (i + 1) := by
  cases ls with
  | nil => simp at hi
  | cons l t =>
    cases i with
    | zero => exact ⟨(Num.flt 0, l), rfl, by simp [startOf], by simp [startOf]⟩
    | succ i =>
      obtain ⟨se, h1, h2, h3⟩ := endsFrom_get hx t l i (by simpa using hi)
      exact ⟨se, by simpa [endsOf] using h1, by rw [h2]; simp [startOf], by rw [h3]; simp [startOf]⟩

theorem elementEnds_ok (rt : Rt K) {b : Beam K S} {ls : List (Num K)} (h : HasLengths b ls) :
    b.elementEnds rt = .ok (endsOf rt ls) := by
  unfold Beam.elementEnds; rw [lengths_ok h]; rfl

theorem hasLengths_length {b : Beam K S} {ls : List (Num K)} (h : HasLengths b ls) :
    b.elements.length = ls.length := h.1.length_eq

theorem hasLengths_get {b : Beam K S} {ls : List (Num K)} (h : HasLengths b ls) {i : ℕ}
    (hi : i < ls.length) : ∃ e l, b.elements[i]? = some e ∧ ls[i]? = some l ∧ e.length = some l ∧
      e ∈ b.elements := by
  have hi' : i < b.elements.length := by rw [hasLengths_length h]; exact hi
  refine ⟨b.elements[i], ls[i], List.getElem?_eq_getElem hi', List.getElem?_eq_getElem hi, ?_,
    List.getElem_mem _⟩
  exact h.1.get hi' hi

/-! ## Elements at a position -/

theorem inElements_ok {rt : Rt K} (hx : rt.Exact) {b : Beam K S} {ls : List (Num K)}
    (h : HasLengths b ls) (p : Num K) :
    ∃ is, b.inElements rt p = .ok is ∧ Elements ls p.val is := by
  refine ⟨inEnds p.val (endsOf rt ls), ?_, ?_, ?_⟩
  · unfold Beam.inElements; rw [elementEnds_ok rt h]; rfl
  · exact (List.pairwise_lt_range).sublist List.filter_sublist
  · intro i
    unfold inEnds InElement
    rw [List.mem_filter, List.mem_range, endsOf_length]
    apply and_congr_right
    intro hi
    obtain ⟨se, h1, h2, h3⟩ := endsOf_get hx ls i hi
    rw [h1]
    simp [h2, h3]

theorem exists_inElement {ls : List (Num K)} (hl : ∀ l ∈ ls, 0 ≤ l.val) (hne : ls ≠ []) {p : K}
    (h0 : 0 ≤ p) (h1 : p ≤ total ls) : ∃ i, InElement ls p i := by
  -- the first element whose end is not before p
  have hex : ∃ i, p ≤ startOf ls (i + 1) := ⟨ls.length, by
    rw [startOf_ge_length ls (by omega)]; exact h1⟩
  classical
  obtain ⟨i, hi, hmin⟩ : ∃ i, p ≤ startOf ls (i + 1) ∧ ∀ j < i, ¬ p ≤ startOf ls (j + 1) :=
    ⟨Nat.find hex, Nat.find_spec hex, fun j hj => Nat.find_min hex hj⟩
  have hlen : 0 < ls.length := List.length_pos_of_ne_nil hne
  have hi' : i < ls.length := by
    by_contra hc
    have h2 := hmin (ls.length - 1) (by omega)
    rw [startOf_ge_length ls (by omega)] at h2
    exact h2 h1
  refine ⟨i, hi', ?_, hi⟩
  cases i with
  | zero => rw [startOf_zero]; exact h0
  | succ i => exact (not_le.1 (hmin i (by omega))).le

theorem inElement_range {ls : List (Num K)} (hl : ∀ l ∈ ls, 0 ≤ l.val) {p : K} {i : ℕ}
    (h : InElement ls p i) : 0 ≤ p ∧ p ≤ total ls :=
  ⟨(startOf_nonneg hl i).trans h.2.1, h.2.2.trans (startOf_le_total hl _)⟩

/-! ## Conversions -/

theorem getElementStartEnd_ok {rt : Rt K} (hx : rt.Exact) {b : Beam K S} {ls : List (Num K)}
    (h : HasLengths b ls) {i : ℕ} (hi : i < ls.length) {z : ℤ}
    (hz : z = i ∨ z = (i : ℤ) - ls.length) :
    ∃ se, b.getElementStartEnd rt z = .ok se ∧ se.1.val = startOf ls i ∧
      se.2.val = startOf ls (i + 1) := by
  obtain ⟨se, h1, h2, h3⟩ := endsOf_get hx ls i hi
  refine ⟨se, ?_, h2, h3⟩
  unfold Beam.getElementStartEnd
  rw [elementEnds_ok rt h]
  exact (pyIndex_ok_iff _ _ _).2 ⟨i, h1, by rw [endsOf_length]; exact hz⟩

theorem element_ok {b : Beam K S} {ls : List (Num K)}
    (h : HasLengths b ls) {i : ℕ} (hi : i < ls.length) {z : ℤ}
    (hz : z = i ∨ z = (i : ℤ) - ls.length) :
    ∃ e l, pyIndex b.elements z = .ok e ∧ ls[i]? = some l ∧ e.len = .ok l ∧
      b.elements[i]? = some e := by
  obtain ⟨e, l, h1, h2, h3, -⟩ := hasLengths_get h hi
  refine ⟨e, l, ?_, h2, by simp [Element.len, h3], h1⟩
  exact (pyIndex_ok_iff _ _ _).2 ⟨i, h1, by rw [hasLengths_length h]; exact hz⟩

theorem beamToLocal_eq {rt : Rt K} (hx : rt.Exact) {b : Beam K S} {ls : List (Num K)}
    (h : HasLengths b ls) {i : ℕ} {l : Num K} (hl : ls[i]? = some l) {z : ℤ}
    (hz : z = i ∨ z = (i : ℤ) - ls.length) (p : Num K) :
    b.beamToLocal rt p z =
      if p.val < startOf ls i ∨ startOf ls (i + 1) < p.val then .error .positionNotInElement
      else if l.val = 0 then .error .elementLengthError
      else .ok (Num.flt ((p.val - startOf ls i) / l.val)) := by
  have hi : i < ls.length := by
    by_contra hc
    rw [List.getElem?_eq_none (by omega)] at hl
    cases hl
  obtain ⟨se, h1, h2, h3⟩ := getElementStartEnd_ok hx h hi hz
  obtain ⟨e, l', h4, h5, h6, -⟩ := element_ok h hi hz
  rw [hl] at h5; cases h5
  unfold Beam.beamToLocal
  simp only [h1, h4, h6, bind, Except.bind, psub_val hx, h2, startOf_succ ls i l hl]
  have e1 : (p.val - startOf ls i < 0 ∨ l.val < p.val - startOf ls i) ↔
      (p.val < startOf ls i ∨ startOf ls i + l.val < p.val) := by
    constructor
    · rintro (h | h)
      · left; linarith
      · right; linarith
    · rintro (h | h)
      · left; linarith
      · right; linarith
  simp only [e1]
  split_ifs
  · rfl
  · rfl
  · simp only [pure, Except.pure, Num.pdiv, Num.flt, psub_val hx, h2, hx.div]

theorem localToBeam_eq {rt : Rt K} (hx : rt.Exact) {b : Beam K S} {ls : List (Num K)}
    (h : HasLengths b ls) {i : ℕ} {l : Num K} (hl : ls[i]? = some l) {z : ℤ}
    (hz : z = i ∨ z = (i : ℤ) - ls.length) (p : Num K) :
    (p.val < 0 ∨ 1 < p.val → b.localToBeam rt p z = .error .positionNotInElement) ∧
    (0 ≤ p.val → p.val ≤ 1 → ∃ q, b.localToBeam rt p z = .ok q ∧
      q.val = startOf ls i + p.val * l.val) := by
  have hi : i < ls.length := by
    by_contra hc
    rw [List.getElem?_eq_none (by omega)] at hl
    cases hl
  obtain ⟨se, h1, h2, h3⟩ := getElementStartEnd_ok hx h hi hz
  obtain ⟨e, l', h4, h5, h6, -⟩ := element_ok h hi hz
  rw [hl] at h5; cases h5
  constructor
  · intro hc
    unfold Beam.localToBeam
    rw [if_pos hc]
  · intro h0 h1'
    unfold Beam.localToBeam
    rw [if_neg (by push Not; exact ⟨h0, h1'⟩)]
    simp only [h1, h4, h6, bind, Except.bind]
    exact ⟨_, rfl, by rw [padd_val hx, pmul_val hx, h2]⟩

end

end BeamDesign
