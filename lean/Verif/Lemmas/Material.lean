import Verif.Spec.Material
import Verif.Lemmas.Lists
import Mathlib.Tactic.Ring
import Mathlib.Tactic.Linarith

set_option linter.unusedSectionVars false
set_option linter.unusedSimpArgs false

/-! # Lemmas about strength tables -/

namespace BeamDesign

open Spec

section lookup
variable {K : Type} [LinearOrder K]

theorem ascending_iff (l : List K) : ascending l = true ↔ l.Pairwise (· < ·) := by
  induction l with
  | nil => simp [ascending]
  | cons a t ih =>
    cases t with
    | nil => simp [ascending]
    | cons b t =>
      simp only [ascending]
      split
      · rename_i h
        simp only [Bool.false_eq_true, false_iff]
        intro hp
        exact absurd h (not_le.2 (List.rel_of_pairwise_cons hp List.mem_cons_self))
      · rename_i h
        rw [ih]
        refine ⟨fun hp => List.pairwise_cons.2 ⟨?_, hp⟩, fun hp => (List.pairwise_cons.1 hp).2⟩
        intro x hx
        rcases List.mem_cons.1 hx with rfl | hx
        · exact not_le.1 h
        · exact lt_trans (not_le.1 h) (List.rel_of_pairwise_cons hp hx)

theorem bandIndex_some (t : K) (l : List K) (j i : ℕ) (h : bandIndex t l j = some i) :
    ∃ n x, i = j + n ∧ l[n]? = some x ∧ t ≤ x ∧ ∀ m y, m < n → l[m]? = some y → y < t := by
  induction l generalizing j with
  | nil => simp [bandIndex] at h
  | cons a l ih =>
    simp only [bandIndex] at h
    split at h
    · rename_i ha
      refine ⟨0, a, ?_, rfl, ha, fun m _ hm => absurd hm (Nat.not_lt_zero _)⟩
      simpa using h.symm
    · rename_i ha
      obtain ⟨n, x, hi, hx, htx, hall⟩ := ih (j + 1) h
      refine ⟨n + 1, x, by omega, hx, htx, ?_⟩
      intro m y hm hy
      cases m with
      | zero =>
        simp only [List.getElem?_cons_zero, Option.some.injEq] at hy
        exact hy ▸ not_le.1 ha
      | succ m => exact hall m y (by omega) hy

theorem bandIndex_none (t : K) (l : List K) (j : ℕ) (h : bandIndex t l j = none) : ∀ x ∈ l, x < t := by
  induction l generalizing j with
  | nil => simp
  | cons a l ih =>
    simp only [bandIndex] at h
    split at h
    · cases h
    · rename_i ha
      intro x hx
      rcases List.mem_cons.1 hx with rfl | hx
      · exact not_le.1 ha
      · exact ih _ h x hx

theorem asksYield_row {yu : YU} (h : AsksYield yu) : yu.row = .ok 1 := by
  rcases h with rfl | rfl | rfl <;> decide +kernel

theorem asksUltimate_row {yu : YU} (h : AsksUltimate yu) : yu.row = .ok 2 := by
  rcases h with rfl | rfl | rfl <;> decide +kernel

variable [Zero K]

theorem getF_lookup {ts vals : List K} {strengths : List (List K)} {yu : YU} {row : ℕ}
    (hrow : yu.row = .ok row) (h0 : strengths[0]? = some ts) (hv : strengths[row]? = some vals)
    (hasc : ts.Pairwise (· < ·)) (hlen : ts.length ≤ vals.length)
    {t m : K} (hm : ts.getLast? = some m) (ht0 : 0 ≤ t) (ht : t ≤ m) :
    ∃ v, getF t yu strengths = .ok v ∧ BandValue ts vals t v := by
  have hm' : m ∈ ts := List.mem_of_getLast? hm
  rcases hbi : bandIndex t ts 0 with _ | i
  · exact absurd ht (not_le.2 (bandIndex_none _ _ _ hbi m hm'))
  · obtain ⟨n, x, hi, hx, htx, hall⟩ := bandIndex_some _ _ _ _ hbi
    obtain rfl : i = n := by omega
    obtain ⟨hlt, rfl⟩ := List.getElem?_eq_some_iff.1 hx
    have hval : vals[i]? = some (vals[i]'(by omega)) := List.getElem?_eq_getElem (by omega)
    refine ⟨vals[i]'(by omega), ?_, i, ts[i], hx, hval, ⟨List.getElem_mem _, htx⟩, ?_⟩
    · have e1 : ¬ t < 0 := not_lt.2 ht0
      have e2 : ¬ m < t := not_lt.2 ht
      simp only [getF, listGet, h0, bind, Except.bind, e1, if_false, (ascending_iff ts).2 hasc, Bool.not_true,
        Bool.false_eq_true, hm, e2, hrow, hbi, hv, hval, pure, Except.pure]
    · rintro y ⟨hy, hty⟩
      obtain ⟨j, hj, rfl⟩ := List.mem_iff_getElem.1 hy
      by_contra hlt'
      have hji : j < i := by
        by_contra hge
        rcases Nat.lt_or_ge i j with h | h
        · exact hlt' (le_of_lt (List.pairwise_iff_getElem.1 hasc i j _ _ h))
        · obtain rfl : i = j := by omega
          exact hlt' le_rfl
      exact absurd hty (not_le.2 (hall j _ hji (List.getElem?_eq_getElem hj)))

theorem getF_iff {t v : K} {yu : YU} {strengths : List (List K)} :
    getF t yu strengths = .ok v ↔ ∃ row ts vals, yu.row = .ok row ∧ strengths[0]? = some ts ∧
      strengths[row]? = some vals ∧ ts.Pairwise (· < ·) ∧ 0 ≤ t ∧ BandValue ts vals t v := by
  constructor
  · intro h
    unfold getF listGet at h
    rcases h0 : strengths[0]? with _ | ts
    · simp [h0, bind, Except.bind] at h
    simp only [h0, bind, Except.bind] at h
    by_cases hn : t < 0
    · simp [hn, throw, throwThe, MonadExceptOf.throw] at h
    by_cases ha : ascending ts = true
    swap
    · simp [hn, ha, throw, throwThe, MonadExceptOf.throw, pure, Except.pure] at h
    simp only [hn, ha, if_false, Bool.not_true, Bool.false_eq_true, pure, Except.pure] at h
    rcases hl : ts.getLast? with _ | m
    · simp [hl, throw, throwThe, MonadExceptOf.throw] at h
    simp only [hl] at h
    by_cases hm : m < t
    · simp [hm, throw, throwThe, MonadExceptOf.throw] at h
    simp only [hm, if_false] at h
    rcases hr : yu.row with e | row
    · simp [hr] at h
    simp only [hr] at h
    rcases hbi : bandIndex t ts 0 with _ | i
    · simp [hbi, throw, throwThe, MonadExceptOf.throw] at h
    simp only [hbi] at h
    rcases hv : strengths[row]? with _ | vals
    · simp [hv] at h
    simp only [hv] at h
    rcases hvi : vals[i]? with _ | w
    · simp [hvi] at h
    simp only [hvi, Except.ok.injEq] at h
    subst h
    have hasc := (ascending_iff ts).1 ha
    refine ⟨row, ts, vals, rfl, rfl, hv, hasc, not_lt.1 hn, ?_⟩
    obtain ⟨n, x, hi, hx, htx, hall⟩ := bandIndex_some _ _ _ _ hbi
    obtain rfl : i = n := by omega
    refine ⟨i, x, hx, hvi, ⟨List.mem_of_getElem? hx, htx⟩, ?_⟩
    obtain ⟨hlt, rfl⟩ := List.getElem?_eq_some_iff.1 hx
    rintro y ⟨hy, hty⟩
    obtain ⟨j, hj, rfl⟩ := List.mem_iff_getElem.1 hy
    by_contra hlt'
    have hji : j < i := by
      by_contra hge
      rcases Nat.lt_or_ge i j with h | h
      · exact hlt' (le_of_lt (List.pairwise_iff_getElem.1 hasc i j _ _ h))
      · obtain rfl : i = j := by omega
        exact hlt' le_rfl
    exact absurd hty (not_le.2 (hall j _ hji (List.getElem?_eq_getElem hj)))
  · rintro ⟨row, ts, vals, hr, h0, hv, hasc, ht0, i, ti, hti, hvi, hleast⟩
    have hne : ts ≠ [] := by rintro rfl; simp at hti
    have hm := List.getLast?_eq_getLast_of_ne_nil hne
    have hle : ¬ ts.getLast hne < t := by
      rw [not_lt]
      refine hleast.1.2.trans ?_
      obtain ⟨hlt, rfl⟩ := List.getElem?_eq_some_iff.1 hti
      rw [List.getLast_eq_getElem]
      rcases Nat.lt_or_ge i (ts.length - 1) with h | h
      · exact le_of_lt (List.pairwise_iff_getElem.1 hasc _ _ _ _ h)
      · exact le_of_eq (by congr 1; omega)
    have hbi : bandIndex t ts 0 = some i := by
      rcases hb : bandIndex t ts 0 with _ | j
      · exact absurd hleast.1.2 (not_le.2 (bandIndex_none _ _ _ hb ti hleast.1.1))
      · obtain ⟨n, x, hj, hx, htx, hall⟩ := bandIndex_some _ _ _ _ hb
        obtain rfl : j = n := by omega
        have hge : ti ≤ x := hleast.2 ⟨List.mem_of_getElem? hx, htx⟩
        rcases Nat.lt_trichotomy i j with h | h | h
        · exact absurd hleast.1.2 (not_le.2 (hall i _ h hti))
        · rw [h]
        · obtain ⟨hlt, rfl⟩ := List.getElem?_eq_some_iff.1 hti
          obtain ⟨hlt', rfl⟩ := List.getElem?_eq_some_iff.1 hx
          exact absurd hge (not_le.2 (List.pairwise_iff_getElem.1 hasc _ _ _ _ h))
    simp only [getF, listGet, h0, bind, Except.bind, not_lt.2 ht0, if_false, (ascending_iff ts).2 hasc, Bool.not_true,
      Bool.false_eq_true, hm, hle, hr, hbi, hv, hvi, pure, Except.pure]

end lookup

section
variable {K : Type} [Field K] [LinearOrder K]

theorem strengths_iff {d : DSect K} {fy fu : K} : Strengths d fy fu ↔ d.minFy = .ok fy ∧ d.minFu = .ok fu := by
  unfold DSect.minFy DSect.minFu DSect.strengths Material.property DSect.mat
  constructor
  · rintro ⟨ts, fys, fus, rest, hp, hasc, h0, hy, hu⟩
    simp only [hp, bind, Except.bind]
    rw [mul_comm] at h0 hy hu
    exact ⟨getF_iff.2 ⟨1, ts, fys, asksYield_row (Or.inr (Or.inr rfl)), rfl, rfl, hasc, h0, hy⟩, 
      getF_iff.2 ⟨2, ts, fus, asksUltimate_row (Or.inr (Or.inr rfl)), rfl, rfl, hasc, h0, hu⟩⟩
  · rintro ⟨h1, h2⟩
    rcases hp : d.material.properties.lookup "strengths" with _ | v
    · simp [hp, bind, Except.bind] at h1
    simp only [hp, bind, Except.bind] at h1 h2
    rcases v with v | v | rows | _
    · cases h1
    · cases h1
    · simp only [] at h1 h2
      obtain ⟨row, ts, fys, hr, h0, hv, hasc, ht, hb⟩ := getF_iff.1 h1
      obtain ⟨row', ts', fus, hr', h0', hv', -, -, hb'⟩ := getF_iff.1 h2
      obtain rfl : row = 1 := by
        have : YU.row (.str "Y") = .ok 1 := asksYield_row (Or.inr (Or.inr rfl))
        rw [this] at hr
        cases hr
        rfl
      obtain rfl : row' = 2 := by
        have : YU.row (.str "U") = .ok 2 := asksUltimate_row (Or.inr (Or.inr rfl))
        rw [this] at hr'
        cases hr'
        rfl
      rw [h0] at h0'
      cases h0'
      obtain ⟨rest, rfl⟩ : ∃ rest, rows = ts :: fys :: fus :: rest := by
        rcases rows with _ | ⟨a, _ | ⟨b, _ | ⟨c, rest⟩⟩⟩ <;> simp_all
      rw [mul_comm] at ht hb hb'
      exact ⟨ts, fys, fus, rest, hp, hasc, ht, hb, hb'⟩
    · cases h1

end

end BeamDesign
