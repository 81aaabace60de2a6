import Verif.Lemmas.BeamLoads
import Verif.Lemmas.Float64
import Verif.Spec.Samples

/-! # Properties C11 - C20 and C22: beams -/

set_option linter.unusedSectionVars false

namespace BeamDesign

open Spec

section
variable {K S : Type} [Field K] [LinearOrder K] [IsStrictOrderedRing K]

/-! ## C11 -/

theorem allSome_iff {α : Type} (es : List (Option α)) (l : List α) :
    (es.all Option.isSome = true ∧ es.filterMap id = l) ↔ es = l.map some := by
  induction es generalizing l with
  | nil => cases l <;> simp
  | cons a t ih =>
    cases a with
    | none => cases l <;> simp
    | some x =>
      cases l with
      | nil => simp
      | cons y l =>
        have := ih l
        simp only [List.all_cons, Option.isSome_some, Bool.true_and, List.map_cons, List.cons.injEq,
          Option.some.injEq, List.filterMap_cons, id] at this ⊢
        rw [← this]
        tauto

/-- C11: a list is accepted exactly when it is a non-empty list of elements which all have the same load case
numbers in the same order; the beam then holds these elements. -/
theorem C11_list_iff (es : List (Option (Element K S))) (b : Beam K S) :
    Beam.new (.list es) = .ok b ↔
      es = b.elements.map some ∧ es ≠ [] ∧
      ∀ e ∈ b.elements, ∀ e' ∈ b.elements, e.loads.map (·.1) = e'.loads.map (·.1) := by
  obtain ⟨l⟩ := b
  cases es with
  | nil => simp [Beam.new]
  | cons a t =>
    simp only [Beam.new, bind, Except.bind, pure, Except.pure, ne_eq, reduceCtorEq, not_false_eq_true,
      true_and]
    unfold Beam.checkElements
    have hiff := allSome_iff (a :: t) l
    constructor
    · intro h
      split at h
      · cases h
      next v hv =>
      cases h
      simp only at hv
      split_ifs at hv with h1
      split at hv
      · cases hv
      next first rest heq =>
      split_ifs at hv with h2 h3
      cases hv
      refine ⟨hiff.1 ⟨h1, rfl⟩, ?_⟩
      simp only [Bool.not_eq_true, Bool.not_eq_false', List.all_eq_true, decide_eq_true_eq] at h3
      intro e he e' he'
      exact (h3 e he).trans (h3 e' he').symm
    · rintro ⟨h1, h2⟩
      obtain ⟨h3, h4⟩ := hiff.2 h1
      rw [if_pos h3]
      simp only [h4]
      cases l with
      | nil => simp at h1
      | cons first rest =>
        have h5 : ∀ e ∈ first :: rest, e.loadCases = first.loadCases := fun e he => h2 e he first (by simp)
        have h6 : ((first :: rest).all fun e => decide (e.noLoadCases = first.noLoadCases)) = true := by
          rw [List.all_eq_true]
          intro e he
          simp [Element.noLoadCases, h5 e he]
        have h7 : ((first :: rest).all fun e => decide (e.loadCases = first.loadCases)) = true := by
          rw [List.all_eq_true]
          intro e he
          simp [h5 e he]
        simp only [h6, h7, Bool.not_true, Bool.false_eq_true, if_false]

/-- C11: a single element is always accepted. -/
theorem C11_single (e : Element K S) : Beam.new (.single e) = .ok ⟨[e]⟩ := by
  have := (C11_list_iff [some e] ⟨[e]⟩).2 (by simp)
  exact this

/-- C11: no elements or something else than an element raise `ElementError`, elements with different load
cases raise `ElementCaseError`. -/
theorem C11_errors :
    Beam.new (.none : ElementsArg K S) = .error .elementError ∧
    Beam.new (.list [] : ElementsArg K S) = .error .elementError ∧
    (∀ es : List (Option (Element K S)), none ∈ es → Beam.new (.list es) = .error .elementError) ∧
    (∀ es : List (Element K S),
      (∃ e ∈ es, ∃ e' ∈ es, e.loads.map (·.1) ≠ e'.loads.map (·.1)) →
      Beam.new (.list (es.map some)) = .error .elementCaseError) := by
  refine ⟨rfl, rfl, ?_, ?_⟩
  · intro es h
    cases es with
    | nil => simp at h
    | cons a t =>
      simp only [Beam.new, Beam.checkElements]
      rw [if_neg]
      · rfl
      · intro hc
        rw [List.all_eq_true] at hc
        have := hc none h
        simp at this
  · rintro es ⟨e, he, e', he', hne⟩
    cases es with
    | nil => simp at he
    | cons a t =>
      obtain ⟨h3, h4⟩ := (allSome_iff ((a :: t).map some) (a :: t)).2 rfl
      simp only [List.map_cons] at h3 h4 ⊢
      simp only [Beam.new, Beam.checkElements]
      rw [if_pos h3]
      simp only [h4]
      split_ifs with h5 h6
      · rfl
      · rfl
      · exfalso
        simp only [Bool.not_eq_true, Bool.not_eq_false', List.all_eq_true, decide_eq_true_eq] at h6
        exact hne ((h6 e he).trans (h6 e' he').symm)

example : Beam.new (.list (Samples.beam.elements.map some)) = .ok Samples.beam :=
  (C11_list_iff _ _).2 ⟨rfl, by simp [Samples.beam], by decide +kernel⟩

example : Beam.new (.list [some (Samples.elem 1 "A"), some ⟨[(8, Samples.lc)], none, "B"⟩])
    = .error .elementCaseError :=
  C11_errors.2.2.2 [_, _] ⟨_, List.mem_cons_self, _, List.mem_cons_of_mem _ List.mem_cons_self, by decide +kernel⟩

/-- C11: the order of the load cases matters. -/
example : Beam.new (.list [some (⟨[(1, Samples.lc), (2, Samples.lc)], none, ()⟩ : Element ℚ Unit),
    some ⟨[(2, Samples.lc), (1, Samples.lc)], none, ()⟩]) = .error .elementCaseError :=
  C11_errors.2.2.2 [_, _] ⟨_, List.mem_cons_self, _, List.mem_cons_of_mem _ List.mem_cons_self, by decide +kernel⟩

/-! ## C12 -/

/-- Partial sums under rounding: consecutive ends. -/
theorem endsFrom_tile {rt : Rt K} {rnd : K → K} (hr : RoundsAdd rt rnd) (ls : List (Num K))
    (hl : ∀ l ∈ ls, 0 ≤ l.val) (prev : Num K)
    (hprev : ∀ k, rnd (prev.val + startOf ls k) = prev.val + startOf ls k ∨ prev.isInt = false ∨
      ∃ l ∈ ls.take k, l.isInt = false)
    (hflt : prev.isInt = false → rnd prev.val = prev.val) :
    (∀ se ∈ endsFrom rt prev ls, se.1.val ≤ se.2.val) ∧
    List.IsChain (fun a b => a.2 = b.1) ((prev, prev) :: endsFrom rt prev ls) ∧
    (((prev, prev) :: endsFrom rt prev ls).getLast (by simp)).2 = ls.foldl (Num.padd rt) prev := by
  induction ls generalizing prev with
  | nil => simp [endsFrom]
  | cons l t ih =>
    have hrep : rnd prev.val = prev.val := by
      cases hp : prev.isInt with
      | false => exact hflt hp
      | true =>
        rcases hprev 0 with h | h | h
        · simpa [startOf_zero] using h
        · rw [hp] at h; cases h
        · simp at h
    have hle : prev.val ≤ (prev.padd rt l).val := by
      unfold Num.padd
      have := hl l (by simp)
      split_ifs
      · simp only; linarith
      · simp only [hr.add]
        calc prev.val = rnd prev.val := hrep.symm
          _ ≤ _ := hr.mono (by linarith)
    have hnext := ih (fun x hx => hl x (List.mem_cons_of_mem _ hx)) (prev.padd rt l) ?_ ?_
    · obtain ⟨h1, h2, h3⟩ := hnext
      refine ⟨?_, ?_, ?_⟩
      · intro se hse
        rcases List.mem_cons.1 hse with rfl | hse
        · exact hle
        · exact h1 se hse
      · simp only [endsFrom]
        refine List.IsChain.cons_cons rfl ?_
        generalize endsFrom rt (prev.padd rt l) t = es at h2
        cases es with
        | nil => exact List.IsChain.singleton _
        | cons e es =>
          rw [List.isChain_cons_cons] at h2 ⊢
          exact h2
      · rw [List.foldl_cons, ← h3]
        simp only [endsFrom]
        rw [List.getLast_cons (by simp)]
        cases hes : endsFrom rt (prev.padd rt l) t with
        | nil => simp
        | cons e es => simp
    · intro k
      by_cases hi : (prev.isInt && l.isInt) = true
      · have hv : prev.padd rt l = ⟨prev.val + l.val, true⟩ := by unfold Num.padd; rw [if_pos hi]
        rw [hv]
        simp only [Bool.and_eq_true] at hi
        have := hprev (k + 1)
        have hs : startOf (l :: t) (k + 1) = l.val + startOf t k := by simp [startOf]
        rw [hs, ← add_assoc] at this
        rcases this with h | h | ⟨x, hx, hxi⟩
        · exact Or.inl h
        · rw [hi.1] at h; cases h
        · rw [List.take_succ_cons, List.mem_cons] at hx
          rcases hx with rfl | hx
          · rw [hi.2] at hxi; cases hxi
          · exact Or.inr (Or.inr ⟨x, hx, hxi⟩)
      · have hv : prev.padd rt l = ⟨rt.add prev.val l.val, false⟩ := by unfold Num.padd; rw [if_neg hi]
        rw [hv]
        exact Or.inr (Or.inl rfl)
    · intro hf
      unfold Num.padd at hf ⊢
      split_ifs with hi
      · rw [if_pos hi] at hf; cases hf
      · simp only [hr.add, hr.idem]

/-- C12: whatever the rounding, the first element starts at 0, each element starts where the previous one ends,
no element ends before it starts, and the last one ends at the length of the beam.
Assumed: addition rounds the exact sum monotonically, `sum` adds one number after the other (Python up to 3.11; see C117
for later versions), the first length is a float or int the rounding leaves alone,
and the leading sums of int lengths (which Python adds exactly) are representable. -/
theorem C12_tiling {rt : Rt K} {rnd : K → K} (hr : RoundsAdd rt rnd) (hp : rt.sum = .plain) (b : Beam K S)
    (ls : List (Num K)) (h : HasLengths b ls) (hrep : ∀ l ∈ ls, rnd l.val = l.val)
    (hint : ∀ k, (∀ l ∈ ls.take k, l.isInt = true) → rnd (startOf ls k) = startOf ls k) :
    ∃ ends, b.elementEnds rt = .ok ends ∧ ends.length = ls.length ∧
      (∀ se, ends.head? = some se → se.1 = Num.flt 0) ∧
      ends.IsChain (fun a b => a.2 = b.1) ∧
      (∀ se ∈ ends, se.1.val ≤ se.2.val) ∧
      (∀ se, ends.getLast? = some se → b.length rt = .ok se.2) := by
  refine ⟨endsOf rt ls, elementEnds_ok rt h, endsOf_length rt ls, ?_, ?_⟩
  · intro se hse
    cases ls with
    | nil => simp [endsOf] at hse
    | cons l t => simp [endsOf] at hse; subst hse; rfl
  · cases ls with
    | nil => simp [endsOf]
    | cons l t =>
      have hmain := endsFrom_tile hr t (fun x hx => h.2 x (List.mem_cons_of_mem _ hx)) l ?_ ?_
      · obtain ⟨h1, h2, h3⟩ := hmain
        refine ⟨?_, ?_, ?_⟩
        · simp only [endsOf]
          generalize endsFrom rt l t = es at h2
          cases es with
          | nil => exact List.IsChain.singleton _
          | cons e es =>
            rw [List.isChain_cons_cons] at h2 ⊢
            exact h2
        · intro se hse
          simp only [endsOf, List.mem_cons] at hse
          rcases hse with rfl | hse
          · exact h.2 l (by simp)
          · exact h1 se hse
        · intro se hse
          have hlen : b.length rt = .ok (t.foldl (Num.padd rt) l) := by
            unfold Beam.length
            rw [lengths_ok h]
            simp only [bind, Except.bind, pure, Except.pure, pySum_plain hp, List.foldl_cons]
            congr 2
            unfold Num.padd
            split_ifs with hi
            · simp only [Num.int_val, zero_add]
              simp only [Num.int_isInt, Bool.true_and] at hi
              rw [← hi]
            · simp only [hr.add, Num.int_val, zero_add, hrep l (by simp)]
              simp only [Num.int_isInt, Bool.true_and, Bool.not_eq_true] at hi
              rw [← hi]
          rw [hlen, ← h3]
          simp only [endsOf] at hse
          rw [List.getLast?_cons] at hse
          cases hse
          cases endsFrom rt l t with
          | nil => rfl
          | cons e es => rw [List.getLast_cons (by simp), List.getLast_eq_getLastD]; simp [List.getLast?_cons]
      · intro k
        by_cases hk : ∀ x ∈ (l :: t).take (k + 1), x.isInt = true
        · left
          have := hint (k + 1) hk
          simpa [startOf] using this
        · push Not at hk
          obtain ⟨x, hx, hxi⟩ := hk
          rw [List.take_succ_cons, List.mem_cons] at hx
          simp only [Bool.not_eq_true] at hxi
          rcases hx with rfl | hx
          · exact Or.inr (Or.inl hxi)
          · exact Or.inr (Or.inr ⟨x, hx, hxi⟩)
      · intro _
        exact hrep l (by simp)

/-- C12 in exact arithmetic: element `i` reaches from the sum of the lengths before it to that sum plus its own
length; the length of the beam is the sum of all lengths. -/
theorem C12_exact {rt : Rt K} (hx : rt.Exact) (b : Beam K S) (ls : List (Num K)) (h : HasLengths b ls) :
    (∃ ends, b.elementEnds rt = .ok ends ∧ ends.map (fun se => (se.1.val, se.2.val))
        = (List.range ls.length).map fun i => (startOf ls i, startOf ls (i + 1))) ∧
    ∃ L, b.length rt = .ok L ∧ L.val = total ls := by
  refine ⟨⟨endsOf rt ls, elementEnds_ok rt h, ?_⟩, length_ok hx h⟩
  apply List.ext_getElem (by simp [endsOf_length])
  intro i h1 h2
  have hi : i < ls.length := by simpa [endsOf_length] using h1
  obtain ⟨se, h3, h4, h5⟩ := endsOf_get hx ls i hi
  rw [List.getElem?_eq_getElem (by rw [endsOf_length]; exact hi)] at h3
  simp only [Option.some.injEq] at h3
  simp [h3, h4, h5]

/-- IEEE binary64 addition is such an addition. -/
theorem binary64_roundsAdd : RoundsAdd Rt.binary64 rnd64 := ⟨fun _ _ => rfl, rnd64_mono, rnd64_idem⟩

/-- C12 for IEEE binary64: any lengths entered as floats (doubles). -/
theorem C12_binary64 (b : Beam ℚ S) (ls : List (Num ℚ)) (h : HasLengths b ls)
    (hd : ∀ l ∈ ls, l.isInt = false ∧ ∃ x, l.val = rnd64 x) :
    ∃ ends, b.elementEnds Rt.binary64 = .ok ends ∧ ends.length = ls.length ∧
      (∀ se, ends.head? = some se → se.1 = Num.flt 0) ∧
      ends.IsChain (fun a b => a.2 = b.1) ∧
      (∀ se ∈ ends, se.1.val ≤ se.2.val) ∧
      (∀ se, ends.getLast? = some se → b.length Rt.binary64 = .ok se.2) := by
  refine C12_tiling binary64_roundsAdd rfl b ls h ?_ ?_
  · intro l hl
    obtain ⟨-, x, hx⟩ := hd l hl
    rw [hx, rnd64_idem]
  · intro k hk
    cases k with
    | zero => simp [startOf_zero, rnd64_zero]
    | succ k =>
      cases ls with
      | nil => simp [startOf, rnd64_zero]
      | cons l t =>
        have h1 := hk l (by simp)
        rw [(hd l (by simp)).1] at h1
        cases h1

/-- the double nearest to 0.1 -/
abbrev d01 : ℚ := 3602879701896397 * 2 ^ (-55 : ℤ)
/-- the double nearest to 0.2 -/
abbrev d02 : ℚ := 3602879701896397 * 2 ^ (-54 : ℤ)

theorem d01_rep : rnd64 d01 = d01 :=
  rnd64_of_small (n := 3602879701896397) (by norm_num) (by norm_num)

theorem d02_rep : rnd64 d02 = d02 :=
  rnd64_of_small (n := 3602879701896397) (by norm_num) (by norm_num)

/-- Two elements, 0.1 and 0.2 long. -/
def beam03 : Beam ℚ Unit := ⟨[⟨[], some (Num.flt d01), ()⟩, ⟨[], some (Num.flt d02), ()⟩]⟩

theorem beam03_lens : HasLengths beam03 [Num.flt d01, Num.flt d02] := by
  refine ⟨List.Forall₂.cons rfl (List.Forall₂.cons rfl List.Forall₂.nil), ?_⟩
  intro l hl
  rcases List.mem_cons.1 hl with rfl | hl
  · norm_num [Num.flt]
  · rw [List.mem_singleton] at hl; subst hl; norm_num [Num.flt]

example : ∃ ends, beam03.elementEnds Rt.binary64 = .ok ends ∧ ends.length = 2 ∧
      (∀ se, ends.head? = some se → se.1 = Num.flt 0) ∧
      ends.IsChain (fun a b => a.2 = b.1) ∧
      (∀ se ∈ ends, se.1.val ≤ se.2.val) ∧
      (∀ se, ends.getLast? = some se → beam03.length Rt.binary64 = .ok se.2) := by
  refine C12_binary64 beam03 _ beam03_lens ?_
  intro l hl
  rcases List.mem_cons.1 hl with rfl | hl
  · exact ⟨rfl, d01, d01_rep.symm⟩
  · rw [List.mem_singleton] at hl; subst hl; exact ⟨rfl, d02, d02_rep.symm⟩

/-! ## C13 -/

/-- C13: `in_elements` lists, ascending, exactly the elements whose closed interval contains the position; none
exactly when the position is not on the beam; a run of neighbours, which share the position as a common end. -/
theorem C13_in_elements {rt : Rt K} (hx : rt.Exact) (b : Beam K S) (ls : List (Num K))
    (h : HasLengths b ls) (hne : ls ≠ []) (p : Num K) :
    ∃ is, b.inElements rt p = .ok is ∧ is.Pairwise (· < ·) ∧
      (∀ i, i ∈ is ↔ i < ls.length ∧ startOf ls i ≤ p.val ∧ p.val ≤ startOf ls (i + 1)) ∧
      (is = [] ↔ p.val < 0 ∨ total ls < p.val) ∧
      (∀ i j k, i ∈ is → k ∈ is → i ≤ j → j ≤ k → j ∈ is) ∧
      (∀ i, i ∈ is → i + 1 ∈ is → p.val = startOf ls (i + 1)) := by
  obtain ⟨is, h1, h2, h3⟩ := inElements_ok hx h p
  refine ⟨is, h1, h2, h3, ?_, ?_, ?_⟩
  · constructor
    · intro h0
      by_contra hc
      push Not at hc
      obtain ⟨i, hi⟩ := exists_inElement h.2 hne hc.1 hc.2
      have := (h3 i).2 hi
      rw [h0] at this; simp at this
    · intro hc
      by_contra h0
      obtain ⟨i, hi⟩ := List.exists_mem_of_ne_nil is h0
      have := inElement_range h.2 ((h3 i).1 hi)
      rcases hc with hc | hc <;> linarith [this.1, this.2]
  · intro i j k hi hk hij hjk
    have hi' := (h3 i).1 hi
    have hk' := (h3 k).1 hk
    refine (h3 j).2 ⟨by have := hk'.1; omega, ?_, ?_⟩
    · exact (startOf_mono h.2 hjk).trans hk'.2.1
    · exact hi'.2.2.trans (startOf_mono h.2 (by omega))
  · intro i hi hi1
    exact le_antisymm ((h3 i).1 hi).2.2 ((h3 (i + 1)).1 hi1).2.1

example : Samples.beam.inElements Samples.rt (Num.flt 2) = .ok [0, 1, 2] := by decide +kernel
example : Samples.lens ≠ [] ∧ HasLengths Samples.beam Samples.lens := ⟨by simp [Samples.lens], Samples.beam_lens⟩

/-! ## C14 -/

/-- C14: the two conversions, for element `i` written as Python index `z` (`i` or `i - n`).
On an element of non-zero length they are inverse bijections between `[0, 1]` and the element; outside both
raise `PositionNotInElementError`. -/
theorem C14_inverse {rt : Rt K} (hx : rt.Exact) (b : Beam K S) (ls : List (Num K))
    (h : HasLengths b ls) (i : ℕ) (l : Num K) (hl : ls[i]? = some l) (hl0 : l.val ≠ 0) (z : ℤ)
    (hz : z = i ∨ z = (i : ℤ) - ls.length) :
    (∀ q : Num K, 0 ≤ q.val → q.val ≤ 1 → ∃ p r, b.localToBeam rt q z = .ok p ∧
      startOf ls i ≤ p.val ∧ p.val ≤ startOf ls (i + 1) ∧
      b.beamToLocal rt p z = .ok r ∧ r.val = q.val) ∧
    (∀ p : Num K, startOf ls i ≤ p.val → p.val ≤ startOf ls (i + 1) →
      ∃ q r, b.beamToLocal rt p z = .ok q ∧ 0 ≤ q.val ∧ q.val ≤ 1 ∧
      b.localToBeam rt q z = .ok r ∧ r.val = p.val) ∧
    (∀ q : Num K, q.val < 0 ∨ 1 < q.val → b.localToBeam rt q z = .error .positionNotInElement) ∧
    (∀ p : Num K, p.val < startOf ls i ∨ startOf ls (i + 1) < p.val →
      b.beamToLocal rt p z = .error .positionNotInElement) := by
  have hpos : 0 < l.val := lt_of_le_of_ne (h.2 l (List.mem_of_getElem? hl)) (Ne.symm hl0)
  have hs := startOf_succ ls i l hl
  refine ⟨?_, ?_, ?_, ?_⟩
  · intro q h0 h1
    obtain ⟨p, hp, hpv⟩ := (localToBeam_eq hx h hl hz q).2 h0 h1
    have e1 : startOf ls i ≤ p.val := by rw [hpv]; nlinarith
    have e2 : p.val ≤ startOf ls (i + 1) := by rw [hpv, hs]; nlinarith
    refine ⟨p, Num.flt ((p.val - startOf ls i) / l.val), hp, e1, e2, ?_, ?_⟩
    · rw [beamToLocal_eq hx h hl hz, if_neg (by push Not; exact ⟨e1, e2⟩), if_neg hl0]
    · simp only [Num.flt_val, hpv]
      field_simp
      ring
  · intro p h0 h1
    set q := Num.flt ((p.val - startOf ls i) / l.val) with hq
    have e1 : 0 ≤ q.val := div_nonneg (by linarith) hpos.le
    have e2 : q.val ≤ 1 := by rw [hq, Num.flt_val, div_le_one hpos]; linarith
    obtain ⟨r, hr, hrv⟩ := (localToBeam_eq hx h hl hz q).2 e1 e2
    refine ⟨q, r, ?_, e1, e2, hr, ?_⟩
    · rw [beamToLocal_eq hx h hl hz, if_neg (by push Not; exact ⟨h0, h1⟩), if_neg hl0]
    · rw [hrv, hq, Num.flt_val]
      field_simp
      ring
  · exact fun q hq => (localToBeam_eq hx h hl hz q).1 hq
  · intro p hp
    rw [beamToLocal_eq hx h hl hz, if_pos hp]

/-- C14: on a zero length element every local position maps to its place on the beam, the way back raises
`ElementLengthError` there and `PositionNotInElementError` elsewhere. -/
theorem C14_zero_length {rt : Rt K} (hx : rt.Exact) (b : Beam K S) (ls : List (Num K))
    (h : HasLengths b ls) (i : ℕ) (l : Num K) (hl : ls[i]? = some l) (hl0 : l.val = 0) (z : ℤ)
    (hz : z = i ∨ z = (i : ℤ) - ls.length) :
    (∀ q : Num K, 0 ≤ q.val → q.val ≤ 1 → ∃ p, b.localToBeam rt q z = .ok p ∧ p.val = startOf ls i) ∧
    (∀ p : Num K, p.val = startOf ls i → b.beamToLocal rt p z = .error .elementLengthError) ∧
    (∀ p : Num K, p.val ≠ startOf ls i → b.beamToLocal rt p z = .error .positionNotInElement) := by
  have hs := startOf_succ ls i l hl
  rw [hl0, add_zero] at hs
  refine ⟨?_, ?_, ?_⟩
  · intro q h0 h1
    obtain ⟨p, hp, hpv⟩ := (localToBeam_eq hx h hl hz q).2 h0 h1
    exact ⟨p, hp, by rw [hpv, hl0]; ring⟩
  · intro p hp
    rw [beamToLocal_eq hx h hl hz, if_neg (by rw [hs, hp]; simp), if_pos hl0]
  · intro p hp
    rw [beamToLocal_eq hx h hl hz, if_pos (by rw [hs]; exact lt_or_gt_of_ne hp)]

/-- C14: an element number outside the Python index range raises `IndexError` (for a local position in
`[0, 1]`). -/
theorem C14_bad_index {rt : Rt K} (b : Beam K S) (ls : List (Num K)) (h : HasLengths b ls) (z : ℤ)
    (hz : z < -ls.length ∨ (ls.length : ℤ) ≤ z) (p : Num K) :
    b.beamToLocal rt p z = .error .indexError ∧
    (0 ≤ p.val → p.val ≤ 1 → b.localToBeam rt p z = .error .indexError) := by
  have hse : b.getElementStartEnd rt z = .error .indexError := by
    unfold Beam.getElementStartEnd
    rw [elementEnds_ok rt h]
    exact (pyIndex_error_iff _ _).2 (by rw [endsOf_length]; exact hz)
  constructor
  · unfold Beam.beamToLocal; rw [hse]; rfl
  · intro h0 h1
    unfold Beam.localToBeam
    rw [if_neg (by push Not; exact ⟨h0, h1⟩), hse]; rfl

example : Samples.beam.localToBeam Samples.rt (Num.flt (1/3)) (-1) = .ok (Num.flt 3) ∧
    Samples.beam.beamToLocal Samples.rt (Num.flt 3) (-1) = .ok (Num.flt (1/3)) := by decide +kernel
example : Samples.lens[2]? = some (Num.flt 3) ∧ (Num.flt (3 : ℚ)).val ≠ 0 ∧
    (-1 : ℤ) = ((2 : ℕ) : ℤ) - Samples.lens.length := by decide +kernel
example : Samples.lens[1]? = some (Num.flt 0) := by decide +kernel

/-! ## C15 -/

/-- C15: explicit positions outside the beam raise `PositionNotInBeamError`. -/
theorem C15_outside {rt : Rt K} (hx : rt.Exact) (b : Beam K S) (ls : List (Num K)) (h : HasLengths b ls)
    (position : PosArg K) (xs : List K) (hreq : Requested position xs) (c : Option ℤ)
    (hout : ∃ x ∈ xs, x < 0 ∨ total ls < x) :
    b.listPositions rt position none c = .error .positionNotInBeam := by
  obtain ⟨L, hL, hLv⟩ := length_ok hx h
  unfold Beam.listPositions
  rw [(positionList_explicit hL hreq c).1 (by rw [hLv]; exact hout)]
  rfl

/-- C15: explicit positions on the beam are listed in ascending order without repetition, each with every element
containing it in element order, and with local positions that map back to it. -/
theorem C15_listing {rt : Rt K} (hx : rt.Exact) (b : Beam K S) (ls : List (Num K)) (h : HasLengths b ls)
    (position : PosArg K) (xs : List K) (hreq : Requested position xs) (c : Option ℤ)
    (hc : ∀ k, c = some k → ZeroLengthLoaded b ls k) (hin : ∀ x ∈ xs, 0 ≤ x ∧ x ≤ total ls) :
    ∃ out, b.listPositions rt position none c = .ok out ∧ Listing ls c xs out := by
  obtain ⟨L, hL, hLv⟩ := length_ok hx h
  obtain ⟨ps, hps, hsort, hv⟩ := (positionList_explicit hL hreq c).2 (by rw [hLv]; exact hin)
  obtain ⟨out, h1, pairs, blocks, hp, hf, he⟩ := listing_of_positionList hx h hc hps hsort
  refine ⟨out, h1, pairs, blocks, ⟨hp.1, ?_⟩, hf, he⟩
  intro p i
  rw [hp.2 p i, hv]

/-- C15: both or neither of `position` and `min_positions`, or a single int, are errors. -/
theorem C15_arguments {rt : Rt K} (b : Beam K S) (c : Option ℤ) (n : ℤ) (position : PosArg K)
    (hp : position ≠ .none) (x : K) :
    b.listPositions rt .none none c = .error .invalidPosition ∧
    b.listPositions rt position (some n) c = .error .invalidPosition ∧
    b.listPositions rt (.scalar (Num.int x)) none c = .error .typeError := by
  refine ⟨rfl, ?_, rfl⟩
  cases position with
  | none => exact absurd rfl hp
  | scalar => rfl
  | list => rfl

theorem samples_zeroLoaded : ZeroLengthLoaded Samples.beam Samples.lens 7 := by
  intro i l hl _
  have hi : i < Samples.beam.elements.length := by
    rw [hasLengths_length Samples.beam_lens]
    by_contra hc
    rw [List.getElem?_eq_none (by omega)] at hl
    cases hl
  obtain ⟨t, ht, -⟩ := Samples.beam_loaded i hi
  exact ⟨t, ht⟩

example : (Samples.beam.listPositions Samples.rt (.list [Num.flt 4, Num.int 2, Num.flt 4]) none none).map
    (List.map fun l => (l.pos.val, l.elem, l.loc.val))
    = .ok [(2, 0, 1), (2, 1, 0), (2, 1, 1), (2, 2, 0), (4, 2, 2/3)] := by decide +kernel
example : ∃ out, Samples.beam.listPositions Samples.rt (.list [Num.flt 4, Num.int 2]) none (some 7) = .ok out ∧
    Listing Samples.lens (some 7) [4, 2] out :=
  C15_listing (Rt.exact_exact ℚ) _ _ Samples.beam_lens _ _ (Or.inr ⟨_, rfl, rfl⟩) _
    (by rintro k h; cases h; exact samples_zeroLoaded) (by decide +kernel)

/-! ## C16 -/

/-- C16: `min_positions=n` lists exactly the element ends, the stored load positions of the case on every element
converted to the beam, and `n` equally spaced positions; all on the beam; at least `n` different ones if
the beam has positive length. -/
theorem C16_min_positions {rt : Rt K} (hx : rt.Exact) (b : Beam K S) (ls : List (Num K))
    (h : HasLengths b ls) (c : Option ℤ) (hc : ∀ k, c = some k → Loaded b k) (n : ℕ) :
    ∃ xs out, b.listPositions rt .none (some n) c = .ok out ∧ Listing ls c xs out ∧
      xs.Pairwise (· < ·) ∧
      (∀ v, v ∈ xs ↔
        (∃ i, i < ls.length ∧ (v = startOf ls i ∨ v = startOf ls (i + 1))) ∨
        (∃ i l k t r, ls[i]? = some l ∧ c = some k ∧ HasTable b k i t ∧ r ∈ t.rows ∧
          v = startOf ls i + r.pos * l.val) ∨
        EquallySpaced 0 (total ls) n v) ∧
      (∀ v ∈ xs, 0 ≤ v ∧ v ≤ total ls) ∧
      (0 < total ls → n ≤ xs.length) := by
  obtain ⟨ps, hps, hsort, hv⟩ := positionList_min hx h c hc n
  have hc' : ∀ k, c = some k → ZeroLengthLoaded b ls k := by
    intro k hk i l hl _
    refine hc k hk i ?_
    rw [hasLengths_length h]
    by_contra hcc
    rw [List.getElem?_eq_none (by omega)] at hl
    cases hl
  obtain ⟨out, h1, h2⟩ := listing_of_positionList hx h hc' hps hsort
  refine ⟨ps.map (·.val), out, h1, h2, hsort, ?_, ?_, ?_⟩
  · intro v
    rw [hv v]
    constructor
    · rintro (h | ⟨i, l, hl, k, t, r, h⟩ | h)
      · exact Or.inl h
      · exact Or.inr (Or.inl ⟨i, l, k, t, r, hl, h⟩)
      · exact Or.inr (Or.inr h)
    · rintro (h | ⟨i, l, k, t, r, hl, h⟩ | h)
      · exact Or.inl h
      · exact Or.inr (Or.inl ⟨i, l, hl, k, t, r, h⟩)
      · exact Or.inr (Or.inr h)
  · intro v hvm
    rcases (hv v).1 hvm with ⟨i, hi, rfl | rfl⟩ | ⟨i, l, hl, k, t, r, -, ht, hr, rfl⟩ | he
    · exact ⟨startOf_nonneg h.2 _, startOf_le_total h.2 _⟩
    · exact ⟨startOf_nonneg h.2 _, startOf_le_total h.2 _⟩
    · obtain ⟨e, -, -, hwf, -⟩ := ht
      have hp := hwf.2 r hr
      have hl0 := h.2 l (List.mem_of_getElem? hl)
      have hs := startOf_succ ls i l hl
      have h3 := startOf_nonneg h.2 i
      have h4 := startOf_le_total h.2 (i + 1)
      constructor
      · have := mul_nonneg hp.1 hl0; linarith
      · have : r.pos * l.val ≤ l.val := by nlinarith [hp.2]
        linarith
    · exact equallySpaced_mem (total_nonneg h.2) he
  · intro h0
    refine equallySpaced_card h0 n (hsort.imp fun h => ne_of_lt h) ?_
    intro x hx
    exact (hv x).2 (Or.inr (Or.inr hx))

example : (Samples.beam.listPositions Samples.rt .none (some 3) (some 7)).map
    (List.map fun l => (l.pos.val, l.elem, l.loc.val))
    = .ok [(0, 0, 0), (1, 0, 1/2), (2, 0, 1), (2, 1, 0), (2, 1, 1/2), (2, 1, 1/2), (2, 1, 1), (2, 2, 0),
      (5/2, 2, 1/6), (7/2, 2, 1/2), (5, 2, 1)] := by decide +kernel
example : ∀ k, (some 7 : Option ℤ) = some k → Loaded Samples.beam k := by
  rintro k h; cases h
  intro i hi
  obtain ⟨t, ht, -⟩ := Samples.beam_loaded i hi
  exact ⟨t, ht⟩

/-! ## C17 -/

/-- C17, part: listing positions on the beam never fails in exact arithmetic (no load case, any positions in
range).  What is missing: binary64 arithmetic, where it is false (`C17_counterexample`). -/
theorem C17_exact_partial {rt : Rt K} (hx : rt.Exact) (b : Beam K S) (ls : List (Num K))
    (h : HasLengths b ls) (position : PosArg K) (xs : List K) (hreq : Requested position xs)
    (L : Num K) (hL : b.length rt = .ok L) (hin : ∀ x ∈ xs, 0 ≤ x ∧ x ≤ L.val) :
    ∃ out, b.listPositions rt position none none = .ok out := by
  obtain ⟨L', hL', hLv⟩ := length_ok hx h
  rw [hL] at hL'; cases hL'
  obtain ⟨out, h1, -⟩ := C15_listing hx b ls h position xs hreq none (by simp) (by rw [← hLv]; exact hin)
  exact ⟨out, h1⟩

/-- C17, part: with a single element it never fails whatever the rounding, if subtracting 0.0 and adding the length
to 0 are exact (as in binary64). -/
theorem C17_single_element_partial {rt : Rt K} (e : Element K S) (l : Num K) (he : e.length = some l)
    (hl : 0 ≤ l.val) (hadd : rt.add 0 l.val = l.val) (position : PosArg K) (xs : List K)
    (hreq : Requested position xs) (hsub : ∀ x ∈ xs, rt.sub x 0 = x)
    (L : Num K) (hL : (⟨[e]⟩ : Beam K S).length rt = .ok L) (hin : ∀ x ∈ xs, 0 ≤ x ∧ x ≤ L.val) :
    ∃ out, (⟨[e]⟩ : Beam K S).listPositions rt position none none = .ok out := by
  have h : HasLengths (⟨[e]⟩ : Beam K S) [l] :=
    ⟨List.Forall₂.cons he List.Forall₂.nil, by simpa using hl⟩
  have hLv : L.val = l.val := by
    unfold Beam.length at hL
    rw [lengths_ok h] at hL
    simp only [bind, Except.bind, pure, Except.pure, pySum_single] at hL
    cases hL
    unfold Num.padd
    split_ifs
    · simp
    · simpa using hadd
  obtain ⟨ps, hps, -, hv⟩ := (positionList_explicit hL hreq none).2 hin
  unfold Beam.listPositions
  rw [hps]
  simp only [bind, Except.bind]
  have hall : ∀ p ∈ ps, ∃ y, (do
      let es ← (⟨[e]⟩ : Beam K S).inElements rt p
      let ls ← es.mapM fun i => (⟨[e]⟩ : Beam K S).locate rt none p i
      return ls.flatten : Py (List (Loc K))) = .ok y := by
    intro p hp
    have hpx : p.val ∈ xs := (hv p.val).1 (List.mem_map.2 ⟨p, hp, rfl⟩)
    obtain ⟨h0, h1⟩ := hin _ hpx
    rw [hLv] at h1
    have hin : (⟨[e]⟩ : Beam K S).inElements rt p = .ok [0] := by
      unfold Beam.inElements
      rw [elementEnds_ok rt h]
      simp [endsOf, endsFrom, inEnds, h0, h1, bind, Except.bind, pure, Except.pure, List.range_succ]
    have hloc : ∃ y, (⟨[e]⟩ : Beam K S).locate rt none p 0 = .ok y := by
      unfold Beam.locate
      have hidx : pyIndex (⟨[e]⟩ : Beam K S).elements ((0 : ℕ) : ℤ) = .ok e := pyIndex_nat _ 0 e rfl
      have hlen : e.len = .ok l := by simp [Element.len, he]
      simp only [hidx, hlen, bind, Except.bind]
      split_ifs with h00
      · exact ⟨_, rfl⟩
      · have hse : (⟨[e]⟩ : Beam K S).getElementStartEnd rt ((0 : ℕ) : ℤ) = .ok (Num.flt 0, l) := by
          unfold Beam.getElementStartEnd
          rw [elementEnds_ok rt h]
          rfl
        have hsubv : (p.psub rt (Num.flt 0)).val = p.val := by
          unfold Num.psub
          simp [hsub _ hpx]
        unfold Beam.beamToLocal
        simp only [hse, hidx, hlen, bind, Except.bind, hsubv]
        rw [if_neg (by push Not; exact ⟨h0, h1⟩), if_neg h00]
        exact ⟨_, rfl⟩
    obtain ⟨y, hy⟩ := hloc
    refine ⟨y, ?_⟩
    simp [hin, hy, bind, Except.bind, pure, Except.pure]
  choose! f hf using hall
  have hm := mapM_ok ps hf
  simp only [bind, Except.bind] at hm
  rw [hm]
  exact ⟨_, rfl⟩

/-- The double 0.1 + 0.2 = 0.30000000000000004 -/
theorem sum03 : rnd64 (d01 + d02) = 5404319552844596 * 2 ^ (-54 : ℤ) := by
  have he : exp64 (d01 + d02) = -54 := by
    apply exp64_eq
    · norm_num [abs_of_pos]
    · norm_num [abs_of_pos]
    · norm_num
  unfold rnd64
  rw [he]
  have hq : (d01 + d02) / 2 ^ (-54 : ℤ) = 5404319552844595 + 1 / 2 := by norm_num
  have hf : ⌊(5404319552844595 : ℚ) + 1 / 2⌋ = 5404319552844595 := by norm_num
  have hodd : ¬ Even (5404319552844595 : ℤ) := by decide
  rw [hq]
  unfold roundEven
  rw [hf]
  norm_num [hodd]

theorem diff03 : rnd64 (5404319552844596 * 2 ^ (-54 : ℤ) - d01) = 7205759403792795 * 2 ^ (-55 : ℤ) := by
  have : (5404319552844596 * 2 ^ (-54 : ℤ) - d01 : ℚ) = ((7205759403792795 : ℤ) : ℚ) * 2 ^ (-55 : ℤ) := by
    norm_num
  rw [this, rnd64_of_small (by norm_num) (by norm_num)]
  norm_num

/-- C17 is false in binary64: on a beam of two elements of length 0.1 and 0.2, listing the end of the beam
(`position=beam.length`) raises `PositionNotInElementError`. -/
theorem C17_counterexample :
    ∃ L, beam03.length Rt.binary64 = .ok L ∧ 0 ≤ L.val ∧ L.isInt = false ∧
      beam03.listPositions Rt.binary64 (.scalar L) none none = .error .positionNotInElement := by
  set L : Num ℚ := Num.flt (5404319552844596 * 2 ^ (-54 : ℤ)) with hLdef
  have hadd : Rt.binary64.add d01 d02 = 5404319552844596 * 2 ^ (-54 : ℤ) := sum03
  have hadd0 : Rt.binary64.add 0 d01 = d01 := by
    show rnd64 (0 + d01) = d01
    rw [zero_add]; exact d01_rep
  have hL : beam03.length Rt.binary64 = .ok L := by
    unfold Beam.length
    rw [lengths_ok beam03_lens]
    simp only [bind, Except.bind, pure, Except.pure, pySum_plain (rt := Rt.binary64) rfl, List.foldl_cons, List.foldl_nil]
    simp only [Num.padd, Num.int, Num.flt, Bool.and_false, Bool.false_eq_true, if_false, hadd0, hadd, hLdef]
  have hends : endsOf Rt.binary64 [Num.flt d01, Num.flt d02] = [(Num.flt 0, Num.flt d01), (Num.flt d01, L)] := by
    simp [endsOf, endsFrom, Num.padd, Num.flt, hadd, hLdef]
  have h0 : (0 : ℚ) ≤ L.val := by norm_num [hLdef]
  refine ⟨L, hL, h0, rfl, ?_⟩
  unfold Beam.listPositions
  have hps : beam03.positionList Rt.binary64 (.scalar L) none none = .ok [L] := by
    simp only [Beam.positionList]
    rw [if_neg (by simp [hLdef]), checkPositions_ok hL]
    · rfl
    · intro p hp
      rw [List.mem_singleton] at hp
      subst hp
      exact ⟨h0, le_refl _⟩
  have hin : beam03.inElements Rt.binary64 L = .ok [1] := by
    unfold Beam.inElements
    rw [elementEnds_ok _ beam03_lens, hends]
    have e1 : ¬ L.val ≤ d01 := by norm_num [hLdef]
    have e2 : d01 ≤ L.val := by norm_num [hLdef]
    simp [inEnds, List.range_succ, bind, Except.bind, pure, Except.pure, e1, e2]
  have hloc : beam03.locate Rt.binary64 none L 1 = .error .positionNotInElement := by
    unfold Beam.locate
    have hidx : pyIndex beam03.elements ((1 : ℕ) : ℤ) = .ok ⟨[], some (Num.flt d02), ()⟩ := rfl
    have hlen : (⟨[], some (Num.flt d02), ()⟩ : Element ℚ Unit).len = .ok (Num.flt d02) := rfl
    have hse : beam03.getElementStartEnd Rt.binary64 ((1 : ℕ) : ℤ) = .ok (Num.flt d01, L) := by
      unfold Beam.getElementStartEnd
      rw [elementEnds_ok _ beam03_lens, hends]
      rfl
    have hsub : (L.psub Rt.binary64 (Num.flt d01)).val = 7205759403792795 * 2 ^ (-55 : ℤ) := by
      have : Rt.binary64.sub L.val d01 = 7205759403792795 * 2 ^ (-55 : ℤ) := diff03
      unfold Num.psub
      simp [Num.flt, hLdef] at this ⊢
      exact this
    simp only [hidx, hlen, bind, Except.bind]
    rw [if_neg (by norm_num)]
    unfold Beam.beamToLocal
    simp only [hse, hidx, hlen, bind, Except.bind, hsub]
    rw [if_pos (by right; norm_num)]
  rw [hps]
  simp [bind, Except.bind, hin, hloc]

example : ∃ L, Samples.beam.length Samples.rt = .ok L ∧ ∀ x ∈ [(5 : ℚ), 0], 0 ≤ x ∧ x ≤ L.val :=
  ⟨Num.flt 5, by decide +kernel, by decide +kernel⟩
example : Rt.binary64.add 0 d01 = d01 ∧ Rt.binary64.sub d01 0 = d01 := by
  constructor
  · show rnd64 (0 + d01) = d01
    rw [zero_add, d01_rep]
  · show rnd64 (d01 - 0) = d01
    rw [sub_zero, d01_rep]

end

section
variable {K S : Type} [Field K] [LinearOrder K] [IsStrictOrderedRing K] [FloorRing K]

/-! ## C18 -/

/-- C18: `Beam.get_loads` stacks, for each listed (position, element, local position), the rows the element itself
reports at that local position, with the position column replaced.  For tables of floats and
for every kind of rounding; int tables are the subject of C20. -/
theorem C18_stack {rt : Rt K} (hs : rt.SortOK) (b : Beam K S) (k : ℤ) (hb : LoadedFloat b k)
    (component : CompArg) (cs : List LComp) (hc : Asks component cs) (hcs : cs ≠ [])
    (position : PosArg K) (minPos : Option ℤ) (locs : List (Loc K)) (hne : locs ≠ [])
    (h : b.listPositions rt position minPos (some k) = .ok locs) :
    ∃ tab blocks, b.getLoads rt k position minPos component = .ok (some tab) ∧
      tab.width = cs.length ∧ tab.rows = blocks.flatten ∧
      List.Forall₂ (fun l block => ∃ e t, b.elements[l.elem]? = some e ∧
        e.getLoads rt k (.scalar l.loc) none component = .ok (some t) ∧
        block = t.rows.map fun r => (l.pos.val, r.2)) locs blocks := by
  rw [asks_iff] at hc
  obtain ⟨blocks, hf, he⟩ := getLoads_eq hs hb hc hcs hne h
  refine ⟨_, blocks.map cells, he, rfl, ?_, ?_⟩
  · simp only [cells, List.map_flatten]
    rfl
  · rw [List.forall₂_map_right_iff]
    refine hf.imp ?_
    rintro l rows ⟨t, e, -, he, rfl, hg⟩
    refine ⟨e, _, he, hg, ?_⟩
    simp [cells]

/-- C18: what a user sees for explicit positions: the listing of the positions, and for each entry the answer of the
load table of that element at the local position. -/
theorem C18_get_loads {rt : Rt K} (hx : rt.Exact) (hs : rt.SortOK) (b : Beam K S) (ls : List (Num K))
    (h : HasLengths b ls) (hls : ls ≠ []) (k : ℤ) (hb : LoadedFloat b k)
    (component : CompArg) (cs : List LComp) (hc : Asks component cs) (hcs : cs ≠ [])
    (position : PosArg K) (xs : List K) (hreq : Requested position xs) (hxs : xs ≠ [])
    (hin : ∀ x ∈ xs, 0 ≤ x ∧ x ≤ total ls) :
    ∃ locs blocks dt, Listing ls (some k) xs locs ∧ List.Forall₂ (LoadBlock b k cs) locs blocks ∧
      b.getLoads rt k position none component = .ok (some ⟨dt, cs.length, cells blocks.flatten⟩) := by
  rw [asks_iff] at hc
  obtain ⟨out, h1, h2⟩ := C15_listing hx b ls h position xs hreq (some k) (by
    rintro k' hk i l hl -
    cases hk
    obtain ⟨t, ht, -⟩ := hb i (by
      rw [hasLengths_length h]
      by_contra hcc
      rw [List.getElem?_eq_none (by omega)] at hl
      cases hl)
    exact ⟨t, ht⟩) hin
  have hne : out ≠ [] := by
    obtain ⟨x, hx'⟩ := List.exists_mem_of_ne_nil xs hxs
    obtain ⟨i, hi⟩ := exists_inElement h.2 hls (hin x hx').1 (hin x hx').2
    obtain ⟨pairs, blocks, hp, hf, rfl⟩ := h2
    have hmem := (hp.2 x i).2 ⟨hx', hi⟩
    obtain ⟨j, hj, hje⟩ := List.getElem_of_mem hmem
    have := hf.get hj (by rw [← hf.length_eq]; exact hj)
    simp only [List.get_eq_getElem] at this
    obtain ⟨l, -, -, -, -, hbne⟩ := this
    intro h0
    rw [List.flatten_eq_nil_iff] at h0
    exact hbne (h0 _ (List.getElem_mem _))
  obtain ⟨blocks, hf, he⟩ := getLoads_eq hs hb hc hcs hne h1
  exact ⟨out, blocks, _, h2, hf.imp fun l r hr => stepRows_loadBlock hx hr, he⟩

/-- C18: the same for `min_positions`. -/
theorem C18_get_loads_min_positions {rt : Rt K} (hx : rt.Exact) (hs : rt.SortOK) (b : Beam K S)
    (ls : List (Num K)) (h : HasLengths b ls) (hls : ls ≠ []) (k : ℤ) (hb : LoadedFloat b k)
    (component : CompArg) (cs : List LComp) (hc : Asks component cs) (hcs : cs ≠ []) (n : ℕ) :
    ∃ xs locs blocks dt, Listing ls (some k) xs locs ∧ List.Forall₂ (LoadBlock b k cs) locs blocks ∧
      (∀ v, v ∈ xs ↔
        (∃ i, i < ls.length ∧ (v = startOf ls i ∨ v = startOf ls (i + 1))) ∨
        (∃ i l t r, ls[i]? = some l ∧ HasTable b k i t ∧ r ∈ t.rows ∧
          v = startOf ls i + r.pos * l.val) ∨
        EquallySpaced 0 (total ls) n v) ∧
      b.getLoads rt k .none (some n) component = .ok (some ⟨dt, cs.length, cells blocks.flatten⟩) := by
  rw [asks_iff] at hc
  obtain ⟨xs, out, h1, h2, -, hv, -, -⟩ := C16_min_positions hx b ls h (some k) (by
    rintro k' hk i hi
    cases hk
    obtain ⟨t, ht, -⟩ := hb i hi
    exact ⟨t, ht⟩) n
  have hne : out ≠ [] := by
    have hlen : 0 < ls.length := List.length_pos_of_ne_nil hls
    have hx' : startOf ls 0 ∈ xs := (hv _).2 (Or.inl ⟨0, hlen, Or.inl rfl⟩)
    have hi : InElement ls (startOf ls 0) 0 := ⟨hlen, le_refl _, startOf_mono h.2 (by omega)⟩
    obtain ⟨pairs, blocks, hp, hf, rfl⟩ := h2
    have hmem := (hp.2 _ 0).2 ⟨hx', hi⟩
    obtain ⟨j, hj, hje⟩ := List.getElem_of_mem hmem
    have := hf.get hj (by rw [← hf.length_eq]; exact hj)
    simp only [List.get_eq_getElem] at this
    obtain ⟨l, -, -, -, -, hbne⟩ := this
    intro h0
    rw [List.flatten_eq_nil_iff] at h0
    exact hbne (h0 _ (List.getElem_mem _))
  obtain ⟨blocks, hf, he⟩ := getLoads_eq hs hb hc hcs hne h1
  refine ⟨xs, out, blocks, _, h2, hf.imp fun l r hr => stepRows_loadBlock hx hr, ?_, he⟩
  intro v
  rw [hv v]
  constructor
  · rintro (h | ⟨i, l, k', t, r, hl, hk, h⟩ | h)
    · exact Or.inl h
    · cases hk
      exact Or.inr (Or.inl ⟨i, l, t, r, hl, h⟩)
    · exact Or.inr (Or.inr h)
  · rintro (h | ⟨i, l, t, r, hl, h⟩ | h)
    · exact Or.inl h
    · exact Or.inr (Or.inl ⟨i, l, k, t, r, hl, rfl, h⟩)
    · exact Or.inr (Or.inr h)

example : (Samples.beam.getLoads Samples.rt 7 (.list [Num.flt 4, Num.flt 1]) none (.comp .N)).map
    (Option.map (·.rows)) = .ok (some [(1, [some 3]), (1, [some 4]), (4, [some (-2/3)])]) := by decide +kernel
example : LoadedFloat Samples.beam 7 ∧ HasLengths Samples.beam Samples.lens ∧
    CompArg.resolve (.comp .N) = .ok [.N] := ⟨Samples.beam_loaded, Samples.beam_lens, rfl⟩

/-! ## C20 -/

/-- C20, part: with tables of floats the positions in the answer are exactly the positions asked for.
Missing: int tables, for which it is false (`C20_counterexample`). -/
theorem C20_float_partial {rt : Rt K} (hx : rt.Exact) (hs : rt.SortOK) (b : Beam K S) (ls : List (Num K))
    (h : HasLengths b ls) (hls : ls ≠ []) (k : ℤ) (hb : LoadedFloat b k)
    (component : CompArg) (cs : List LComp) (hc : Asks component cs) (hcs : cs ≠ [])
    (position : PosArg K) (xs : List K) (hreq : Requested position xs) (hxs : xs ≠ [])
    (hin : ∀ x ∈ xs, 0 ≤ x ∧ x ≤ total ls) :
    ∃ tab, b.getLoads rt k position none component = .ok (some tab) ∧
      tab.rows.Pairwise (fun a b => a.1 ≤ b.1) ∧ ∀ p, p ∈ tab.rows.map (·.1) ↔ p ∈ xs := by
  rw [asks_iff] at hc
  obtain ⟨locs, blocks, dt, hl, hf, he⟩ :=
    C18_get_loads hx hs b ls h hls k hb component cs (asks_iff.2 hc) hcs position xs hreq hxs hin
  obtain ⟨pairs, lblocks, hp, hbl, rfl⟩ := hl
  refine ⟨_, he, ?_, ?_⟩
  · simp only [cells]
    rw [List.pairwise_map]
    have hlocs : lblocks.flatten.Pairwise (fun a b => a.pos.val ≤ b.pos.val) := by
      have hp1 := hp.1
      clear hf he
      have hp2 : ∀ pi ∈ pairs, pi.1 ∈ xs := fun pi hpi => ((hp.2 pi.1 pi.2).1 hpi).1
      clear hp
      induction hbl with
      | nil => simp
      | @cons pi blk ps bs h1 h2 ih =>
        rw [List.pairwise_cons] at hp1
        rw [List.flatten_cons, List.pairwise_append]
        obtain ⟨l, -, hb1, -⟩ := h1
        refine ⟨?_, ih hp1.2 fun q hq => hp2 q (List.mem_cons_of_mem _ hq), ?_⟩
        · rw [List.pairwise_iff_forall_sublist]
          intro a b hab
          have ha := hab.subset (List.mem_cons_self)
          have hb := hab.subset (List.mem_cons_of_mem _ (List.mem_singleton.2 rfl))
          rw [(hb1 a ha).1, (hb1 b hb).1]
        · intro a ha c hc
          obtain ⟨blk', hblk', hc⟩ := List.mem_flatten.1 hc
          obtain ⟨j, hj, rfl⟩ := List.getElem_of_mem hblk'
          have := h2.get (by rw [h2.length_eq]; exact hj) hj
          simp only [List.get_eq_getElem] at this
          obtain ⟨l', -, hb2, -⟩ := this
          rw [(hb1 a ha).1, (hb2 c hc).1]
          rcases hp1.1 _ (List.getElem_mem (by rw [h2.length_eq]; exact hj)) with h | h
          · exact h.le
          · exact h.1.le
    clear he hbl
    generalize lblocks.flatten = locs at hf hlocs
    induction hf with
    | nil => simp
    | @cons l rows ls' rs h1 h2 ih =>
      rw [List.pairwise_cons] at hlocs
      rw [List.flatten_cons, List.pairwise_append]
      obtain ⟨t, ans, -, -, rfl⟩ := h1
      refine ⟨?_, ih hlocs.2, ?_⟩
      · rw [List.pairwise_map]
        exact List.pairwise_of_forall fun _ _ => le_refl _
      · intro a ha c hc
        obtain ⟨a', -, rfl⟩ := List.mem_map.1 ha
        obtain ⟨blk', hblk', hc⟩ := List.mem_flatten.1 hc
        obtain ⟨j, hj, rfl⟩ := List.getElem_of_mem hblk'
        have := h2.get (by rw [h2.length_eq]; exact hj) hj
        simp only [List.get_eq_getElem] at this
        obtain ⟨t', ans', -, -, hb2⟩ := this
        rw [hb2] at hc
        obtain ⟨c', -, rfl⟩ := List.mem_map.1 hc
        exact hlocs.1 _ (List.getElem_mem _)
  · intro p
    simp only [cells, List.map_map]
    constructor
    · intro hpm
      obtain ⟨r, hr, rfl⟩ := List.mem_map.1 hpm
      simp only [Function.comp]
      obtain ⟨blk, hblk, hr⟩ := List.mem_flatten.1 hr
      obtain ⟨j, hj, rfl⟩ := List.getElem_of_mem hblk
      have := hf.get (by rw [hf.length_eq]; exact hj) hj
      simp only [List.get_eq_getElem] at this
      obtain ⟨t, ans, -, -, hb2⟩ := this
      rw [hb2] at hr
      obtain ⟨r', -, rfl⟩ := List.mem_map.1 hr
      have hmem : lblocks.flatten[j]'(by rw [hf.length_eq]; exact hj) ∈ lblocks.flatten := List.getElem_mem _
      obtain ⟨blk', hblk', hm⟩ := List.mem_flatten.1 hmem
      obtain ⟨j', hj', rfl⟩ := List.getElem_of_mem hblk'
      have := hbl.get (by rw [hbl.length_eq]; exact hj') hj'
      simp only [List.get_eq_getElem] at this
      obtain ⟨l, -, hb1, -⟩ := this
      simp only
      rw [(hb1 _ hm).1]
      exact ((hp.2 _ _).1 (List.getElem_mem _)).1
    · intro hpx
      obtain ⟨i, hi⟩ := exists_inElement h.2 hls (hin p hpx).1 (hin p hpx).2
      obtain ⟨j, hj, hje⟩ := List.getElem_of_mem ((hp.2 p i).2 ⟨hpx, hi⟩)
      have := hbl.get hj (by rw [← hbl.length_eq]; exact hj)
      simp only [List.get_eq_getElem] at this
      obtain ⟨l, -, hb1, -, -, hbne⟩ := this
      obtain ⟨loc, hloc⟩ := List.exists_mem_of_ne_nil _ hbne
      have hlm : loc ∈ lblocks.flatten := List.mem_flatten.2 ⟨_, List.getElem_mem _, hloc⟩
      obtain ⟨m, hm, hme⟩ := List.getElem_of_mem hlm
      have := hf.get hm (by rw [← hf.length_eq]; exact hm)
      simp only [List.get_eq_getElem] at this
      obtain ⟨t, ans, -, hans, hb2⟩ := this
      have hane : ans ≠ [] := by
        rcases hans with ⟨hp', rfl⟩ | ⟨-, vs, rfl, -⟩
        · obtain ⟨r, hr, hre⟩ := List.mem_map.1 hp'
          intro h0
          rw [List.map_eq_nil_iff, List.filter_eq_nil_iff] at h0
          exact h0 r hr (by simpa using hre)
        · simp
      obtain ⟨r, hr⟩ := List.exists_mem_of_ne_nil _ hane
      refine List.mem_map.2 ⟨((lblocks.flatten[m]'hm).pos.val, r.2),
        List.mem_flatten.2 ⟨_, List.getElem_mem (by rw [← hf.length_eq]; exact hm), ?_⟩, ?_⟩
      · rw [hb2]; exact List.mem_map.2 ⟨r, hr, rfl⟩
      · simp only [Function.comp, hme]
        rw [(hb1 _ hloc).1, hje]

/-- A load table entered as ints, on an element of length 7/2. -/
def intBeam : Beam ℚ Unit :=
  ⟨[⟨[(1, ⟨some ⟨true, [⟨0, 0, 0, 5, 0, 0, 0⟩, ⟨1, 0, 0, 9, 0, 0, 0⟩]⟩⟩)], some (Num.flt (7/2)), ()⟩]⟩

/-- C20 is false for int tables: the load at the end of the beam (3.5) is reported at position 3, because the
answer is an integer array. -/
theorem C20_counterexample :
    Loaded intBeam 1 ∧
    intBeam.getLoads Samples.rt 1 (.scalar (Num.flt (7/2))) none (.comp .N)
      = .ok (some ⟨.int, 1, [(3, [some 9])]⟩) := by
  constructor
  · intro i hi
    have : i = 0 := by
      have : intBeam.elements.length = 1 := rfl
      omega
    subst this
    exact ⟨_, _, rfl, rfl, by unfold WellFormed; decide +kernel, by simp⟩
  · decide +kernel

/-! ## C19 -/

/-- C19, part: on a zero length element whose table for the case starts at 0 and ends at 1 every stored position
(so 0 and 1 too) is listed, whatever the rounding.  Missing: other tables, for which it is false
(`C19_counterexample`). -/
theorem C19_listed_partial {rt : Rt K} (b : Beam K S) (i : ℕ) (e : Element K S) (l : Num K)
    (he : b.elements[i]? = some e) (hl : e.length = some l) (hl0 : l.val = 0) (k : ℤ) (t : Table K)
    (hk : e.loads.lookup k = some ⟨some t⟩) (first last : LRow K)
    (hfirst : t.rows.head? = some first) (h0 : first.pos = 0)
    (hlast : t.rows.getLast? = some last) (h1 : last.pos = 1) (p : Num K) :
    b.locate rt (some k) p i = .ok (t.rows.map fun r => ⟨p, i, ⟨r.pos, t.isInt⟩⟩) := by
  unfold Beam.locate
  have hlen : e.len = .ok l := by simp [Element.len, hl]
  have hlp : e.loadPositions k = .ok (t.rows.map fun r => ⟨r.pos, t.isInt⟩) := by
    simp [Element.loadPositions, Element.case, hk, LoadCase.loadPositions, bind, Except.bind]
  have hz : zeroLengthPositions rt (t.rows.map fun r => (⟨r.pos, t.isInt⟩ : Num K))
      = .ok (t.rows.map fun r => ⟨r.pos, t.isInt⟩) := by
    unfold zeroLengthPositions
    simp [List.head?_map, List.getLast?_map, hfirst, hlast, h0, h1]
  simp only [pyIndex_nat _ _ _ he, hlen, hlp, hz, bind, Except.bind, if_pos hl0, pure, Except.pure,
    List.map_map]
  rfl

/-- What is listed for a zero length element in general: if the first stored position is not 0 nothing is added in
front, if the last one is not 1 every stored position is shifted by 1. -/
theorem C19_actual {rt : Rt K} (hx : rt.Exact) (lp : List (Num K)) (first last : Num K)
    (hfirst : lp.head? = some first) (hlast : lp.getLast? = some last) :
    ∃ z, zeroLengthPositions rt lp = .ok z ∧
      z.map (·.val) = if last.val = 1 then lp.map (·.val) else lp.map (fun l => l.val + 1) := by
  unfold zeroLengthPositions
  simp only [hfirst, hlast]
  by_cases h0 : first.val ≠ 0
  · simp only [if_pos h0, List.getLast?_map, hlast, Option.map_some, hx.add, zero_add]
    refine ⟨_, rfl, ?_⟩
    by_cases h1 : last.val = 1
    · rw [if_pos h1, if_neg (by simpa using h1), List.map_map]; rfl
    · rw [if_neg h1, if_pos h1, List.map_map, List.map_map]; rfl
  · simp only [if_neg h0, hlast, hx.add]
    refine ⟨_, rfl, ?_⟩
    by_cases h1 : last.val = 1
    · rw [if_pos h1, if_neg (by simpa using h1)]
    · rw [if_neg h1, if_pos h1, List.map_map]; rfl

/-- C19, part: then every stored row of the zero length element appears in `get_loads` at its position. -/
theorem C19_rows_partial {rt : Rt K} (hs : rt.SortOK) (b : Beam K S) (k : ℤ) (hb : LoadedFloat b k)
    (component : CompArg) (cs : List LComp) (hc : Asks component cs) (hcs : cs ≠ [])
    (position : PosArg K) (minPos : Option ℤ) (locs : List (Loc K))
    (h : b.listPositions rt position minPos (some k) = .ok locs)
    (i : ℕ) (e : Element K S) (he : b.elements[i]? = some e) (t : Table K)
    (hk : e.loads.lookup k = some ⟨some t⟩) (p : Num K)
    (hlisted : ∀ r ∈ t.rows, (⟨p, i, ⟨r.pos, t.isInt⟩⟩ : Loc K) ∈ locs) (r : LRow K) (hr : r ∈ t.rows) :
    ∃ tab, b.getLoads rt k position minPos component = .ok (some tab) ∧
      (p.val, cs.map fun c => some (entry r c)) ∈ tab.rows := by
  rw [asks_iff] at hc
  have hne : locs ≠ [] := by
    intro h0
    have := hlisted r hr
    rw [h0] at this; simp at this
  obtain ⟨blocks, hf, hg⟩ := getLoads_eq hs hb hc hcs hne h
  refine ⟨_, hg, ?_⟩
  obtain ⟨j, hj, hje⟩ := List.getElem_of_mem (hlisted r hr)
  have := hf.get hj (by rw [← hf.length_eq]; exact hj)
  simp only [List.get_eq_getElem] at this
  obtain ⟨t', e', ht, he', hrows, -⟩ := this
  rw [hje] at he' ht hrows
  simp only at he' ht hrows
  rw [he] at he'; cases he'
  obtain ⟨e'', he'', hk', -, -⟩ := ht
  rw [he] at he''; cases he''
  rw [hk] at hk'; cases hk'
  simp only [cells]
  refine List.mem_map.2 ⟨(p.val, cs.map r.get), List.mem_flatten.2 ⟨_, List.getElem_mem (by rw [← hf.length_eq]; exact hj), ?_⟩, by simp [entry_eq]⟩
  rw [hrows]
  refine List.mem_map.2 ⟨(r.pos, cs.map r.get), ?_, rfl⟩
  unfold block
  rw [if_pos (List.mem_map.2 ⟨r, hr, rfl⟩)]
  exact List.mem_map.2 ⟨r, List.mem_filter.2 ⟨hr, by simp⟩, rfl⟩

theorem listPositions_contains {rt : Rt K} {b : Beam K S} {position : PosArg K} {minPos c : Option ℤ}
    {ps : List (Num K)} {out : List (Loc K)} (hps : b.positionList rt position minPos c = .ok ps)
    (hout : b.listPositions rt position minPos c = .ok out) {p : Num K} (hp : p ∈ ps) {is : List ℕ}
    (his : b.inElements rt p = .ok is) {i : ℕ} (hi : i ∈ is) :
    ∃ block, b.locate rt c p i = .ok block ∧ ∀ l ∈ block, l ∈ out := by
  unfold Beam.listPositions at hout
  rw [hps] at hout
  simp only [bind, Except.bind] at hout
  split at hout
  · cases hout
  next blocks hb =>
  cases hout
  rw [mapM_eq_ok_iff] at hb
  obtain ⟨j, hj, rfl⟩ := List.getElem_of_mem hp
  have h1 := hb.get hj (by rw [← hb.length_eq]; exact hj)
  simp only [List.get_eq_getElem, his] at h1
  split at h1
  · cases h1
  next ls hls =>
  rw [mapM_eq_ok_iff] at hls
  obtain ⟨m, hm, rfl⟩ := List.getElem_of_mem hi
  have h2 := hls.get hm (by rw [← hls.length_eq]; exact hm)
  simp only [List.get_eq_getElem] at h2
  refine ⟨_, h2, ?_⟩
  intro l hl
  refine List.mem_flatten.2 ⟨_, List.getElem_mem (by rw [← hb.length_eq]; exact hj), ?_⟩
  have h3 : ls.flatten = blocks[j]'(by rw [← hb.length_eq]; exact hj) := by
    simpa [pure, Except.pure] using h1
  rw [← h3]
  exact List.mem_flatten.2 ⟨_, List.getElem_mem _, hl⟩

/-- C19, part, end to end: a beam with loads in floats, positions asked for that include the place of a zero length
element, whose table starts at 0 and ends at 1: all its stored positions (0 and 1 among them) are listed and
every stored row is reported. -/
theorem C19_zero_length_partial {rt : Rt K} (hx : rt.Exact) (hs : rt.SortOK) (b : Beam K S)
    (ls : List (Num K)) (h : HasLengths b ls) (k : ℤ) (hb : LoadedFloat b k)
    (component : CompArg) (cs : List LComp) (hc : Asks component cs) (hcs : cs ≠ [])
    (position : PosArg K) (xs : List K) (hreq : Requested position xs)
    (hin : ∀ x ∈ xs, 0 ≤ x ∧ x ≤ total ls)
    (i : ℕ) (l : Num K) (hl : ls[i]? = some l) (hl0 : l.val = 0) (hi : startOf ls i ∈ xs) (t : Table K)
    (ht : HasTable b k i t) (first last : LRow K)
    (hfirst : t.rows.head? = some first) (h0 : first.pos = 0)
    (hlast : t.rows.getLast? = some last) (h1 : last.pos = 1) :
    ∃ locs tab, b.listPositions rt position none (some k) = .ok locs ∧
      b.getLoads rt k position none component = .ok (some tab) ∧
      (∀ r ∈ t.rows, ∃ loc ∈ locs, loc.elem = i ∧ loc.pos.val = startOf ls i ∧ loc.loc.val = r.pos) ∧
      (∀ r ∈ t.rows, (startOf ls i, cs.map fun c => some (entry r c)) ∈ tab.rows) := by
  rw [asks_iff] at hc
  have hlen : i < ls.length := by
    by_contra hcc
    rw [List.getElem?_eq_none (by omega)] at hl
    cases hl
  obtain ⟨locs, hlocs, -⟩ := C15_listing hx b ls h position xs hreq (some k) (by
    rintro k' hk i l hl -
    cases hk
    obtain ⟨t, ht, -⟩ := hb i (by
      rw [hasLengths_length h]
      by_contra hcc
      rw [List.getElem?_eq_none (by omega)] at hl
      cases hl)
    exact ⟨t, ht⟩) hin
  obtain ⟨L, hL, hLv⟩ := length_ok hx h
  obtain ⟨ps, hps, -, hv⟩ := (positionList_explicit hL hreq (some k)).2 (by rw [hLv]; exact hin)
  obtain ⟨p, hp, hpv⟩ := List.mem_map.1 ((hv _).2 hi)
  obtain ⟨is, h2, -, h3⟩ := inElements_ok hx h p
  have hmem : i ∈ is := (h3 i).2 ⟨hlen, by rw [hpv], by rw [hpv]; exact startOf_mono h.2 (by omega)⟩
  obtain ⟨e, he, hk, -, -⟩ := ht
  have hel : e.length = some l := by
    obtain ⟨hll, hl'⟩ := List.getElem?_eq_some_iff.1 hl
    obtain ⟨hei, he'⟩ := List.getElem?_eq_some_iff.1 he
    have := h.1.get hei hlen
    simp only [List.get_eq_getElem, he', hl'] at this
    exact this
  obtain ⟨block, hblk, hsub⟩ := listPositions_contains hps hlocs hp h2 hmem
  rw [C19_listed_partial b i e l he hel hl0 k t hk first last hfirst h0 hlast h1 p] at hblk
  cases hblk
  have hlisted : ∀ r ∈ t.rows, (⟨p, i, ⟨r.pos, t.isInt⟩⟩ : Loc K) ∈ locs :=
    fun r hr => hsub _ (List.mem_map.2 ⟨r, hr, rfl⟩)
  have hf : first ∈ t.rows := by
    cases hrows : t.rows with
    | nil => rw [hrows] at hfirst; cases hfirst
    | cons a as => rw [hrows] at hfirst; cases hfirst; simp
  obtain ⟨tab, htab, -⟩ := C19_rows_partial hs b k hb component cs (asks_iff.2 hc) hcs position none locs hlocs i e he t hk p
    hlisted first hf
  refine ⟨locs, tab, hlocs, htab, ?_, ?_⟩
  · intro r hr
    exact ⟨_, hlisted r hr, rfl, hpv, rfl⟩
  · intro r hr
    obtain ⟨tab', htab', hm⟩ := C19_rows_partial hs b k hb component cs (asks_iff.2 hc) hcs position none locs hlocs i e he t
      hk p hlisted r hr
    rw [htab] at htab'
    cases htab'
    rw [← hpv]
    exact hm

/-- A zero length element whose stored loads are at 0 and 1/2. -/
def zeroBeam : Beam ℚ Unit :=
  ⟨[⟨[(1, ⟨some ⟨false, [⟨0, 0, 0, 5, 0, 0, 0⟩, ⟨1/2, 0, 0, 9, 0, 0, 0⟩]⟩⟩)], some (Num.flt 0), ()⟩]⟩

/-- C19 is false: neither 0 nor 1/2 is listed, but 1 and 3/2, and the load 5 stored at 0 is not reported. -/
theorem C19_counterexample :
    LoadedFloat zeroBeam 1 ∧
    (zeroBeam.listPositions Samples.rt (.scalar (Num.flt 0)) none (some 1)).map (List.map (·.loc.val))
      = .ok [1, 3/2] ∧
    zeroBeam.getLoads Samples.rt 1 (.scalar (Num.flt 0)) none (.comp .N)
      = .ok (some ⟨.flt, 1, [(0, [some 9]), (0, [some 9])]⟩) := by
  refine ⟨?_, by decide +kernel, by decide +kernel⟩
  intro i hi
  have : i = 0 := by
    have : zeroBeam.elements.length = 1 := rfl
    omega
  subst this
  exact ⟨_, ⟨_, rfl, rfl, by unfold WellFormed; decide +kernel, by simp⟩, rfl⟩

example : Samples.rows.head?.map (·.pos) = some 0 ∧ Samples.rows.getLast?.map (·.pos) = some 1 := by
  decide +kernel
example : (Samples.beam.getLoads Samples.rt 7 (.scalar (Num.flt 2)) none (.comp .N)).map
    (Option.map (·.rows)) = .ok (some [(2, [some (-10)]), (2, [some 3]), (2, [some 3]), (2, [some 4]),
      (2, [some 3]), (2, [some 4]), (2, [some (-10)]), (2, [some 3])]) := by decide +kernel

end

section
variable {K S : Type} [Field K] [LinearOrder K] [IsStrictOrderedRing K]

/-! ## C22 -/

theorem sections_mapM {b : Beam K S} {locs : List (Loc K)} (h : ∀ l ∈ locs, l.elem < b.elements.length) :
    ∃ out, locs.mapM (fun l => do
      let e ← pyIndex b.elements (l.elem : ℤ)
      return (l.pos, e.sect) : Loc K → Py (Num K × S)) = .ok out ∧
      List.Forall₂ (fun l ps => ∃ e, b.elements[l.elem]? = some e ∧ ps = (l.pos, e.sect)) locs out := by
  induction locs with
  | nil => exact ⟨[], rfl, List.Forall₂.nil⟩
  | cons l t ih =>
    obtain ⟨out, h1, h2⟩ := ih fun x hx => h x (List.mem_cons_of_mem _ hx)
    have hl := h l (by simp)
    have he : b.elements[l.elem]? = some b.elements[l.elem] := List.getElem?_eq_getElem hl
    refine ⟨(l.pos, b.elements[l.elem].sect) :: out, ?_, List.Forall₂.cons ⟨_, he, rfl⟩ h2⟩
    rw [List.mapM_cons, h1, pyIndex_nat _ _ _ he]
    rfl

/-- C22: `Beam.get_section` answers, for each entry of the listing of the positions, the section of that element;
so the pairs (position, section) are exactly the positions asked for with the sections of the elements
containing them. -/
theorem C22_get_section {rt : Rt K} (hx : rt.Exact) (b : Beam K S) (ls : List (Num K)) (h : HasLengths b ls)
    (position : PosArg K) (xs : List K) (hreq : Requested position xs) (c : Option ℤ)
    (hc : ∀ k, c = some k → ZeroLengthLoaded b ls k) (hin : ∀ x ∈ xs, 0 ≤ x ∧ x ≤ total ls) :
    ∃ locs out, Listing ls c xs locs ∧ b.getSection rt position none c = .ok out ∧
      List.Forall₂ (fun l ps => ∃ e, b.elements[l.elem]? = some e ∧ ps = (l.pos, e.sect)) locs out ∧
      ∀ p s, (∃ q, (q, s) ∈ out ∧ q.val = p) ↔
        p ∈ xs ∧ ∃ i e, InElement ls p i ∧ b.elements[i]? = some e ∧ e.sect = s := by
  obtain ⟨locs, h1, h2⟩ := C15_listing hx b ls h position xs hreq c hc hin
  have hlist := h2
  obtain ⟨pairs, blocks, hp, hbl, rfl⟩ := h2
  have hmem : ∀ l ∈ blocks.flatten, l.pos.val ∈ xs ∧ InElement ls l.pos.val l.elem := by
    intro l hl
    obtain ⟨blk, hblk, hl⟩ := List.mem_flatten.1 hl
    obtain ⟨j, hj, rfl⟩ := List.getElem_of_mem hblk
    have := hbl.get (by rw [hbl.length_eq]; exact hj) hj
    simp only [List.get_eq_getElem] at this
    obtain ⟨l', -, hb1, -⟩ := this
    obtain ⟨e1, e2, -⟩ := hb1 l hl
    rw [e1, e2]
    exact (hp.2 _ _).1 (List.getElem_mem _)
  obtain ⟨out, h3, h4⟩ := sections_mapM (b := b) (locs := blocks.flatten) fun l hl => by
    rw [hasLengths_length h]; exact (hmem l hl).2.1
  refine ⟨blocks.flatten, out, hlist, ?_, h4, ?_⟩
  · unfold Beam.getSection
    rw [h1]
    exact h3
  · intro p s
    constructor
    · rintro ⟨q, hq, rfl⟩
      obtain ⟨j, hj, hje⟩ := List.getElem_of_mem hq
      have := h4.get (by rw [h4.length_eq]; exact hj) hj
      simp only [List.get_eq_getElem] at this
      obtain ⟨e, he, heq⟩ := this
      rw [hje] at heq
      cases heq
      have := hmem _ (List.getElem_mem (by rw [h4.length_eq]; exact hj))
      exact ⟨this.1, _, e, this.2, he, rfl⟩
    · rintro ⟨hpx, i, e, hi, he, rfl⟩
      obtain ⟨j, hj, hje⟩ := List.getElem_of_mem ((hp.2 p i).2 ⟨hpx, hi⟩)
      have := hbl.get hj (by rw [← hbl.length_eq]; exact hj)
      simp only [List.get_eq_getElem] at this
      obtain ⟨l, -, hb1, -, -, hbne⟩ := this
      obtain ⟨loc, hloc⟩ := List.exists_mem_of_ne_nil _ hbne
      obtain ⟨e1, e2, -⟩ := hb1 loc hloc
      rw [hje] at e1 e2
      simp only at e1 e2
      have hlm : loc ∈ blocks.flatten := List.mem_flatten.2 ⟨_, List.getElem_mem _, hloc⟩
      obtain ⟨m, hm, hme⟩ := List.getElem_of_mem hlm
      have := h4.get hm (by rw [← h4.length_eq]; exact hm)
      simp only [List.get_eq_getElem] at this
      obtain ⟨e', he', heq⟩ := this
      rw [hme, e2, he] at he'
      cases he'
      refine ⟨loc.pos, ?_, e1⟩
      rw [hme] at heq
      rw [← heq]
      exact List.getElem_mem _

example : (Samples.beam.getSection Samples.rt (.list [Num.flt 4, Num.flt 2]) none none).map
    (List.map fun x => (x.1.val, x.2)) = .ok [(2, "A"), (2, "B"), (2, "B"), (2, "C"), (4, "C")] := by
  decide +kernel

end

end BeamDesign
