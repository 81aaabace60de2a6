import Verif.Spec.AS4100
import Verif.Lemmas.BeamLoads
import Verif.Props.Solvers
import Mathlib.Tactic.FieldSimp

set_option linter.unusedSectionVars false
set_option linter.unusedSimpArgs false

/-! # Lemmas about the AS4100 tension checks -/

namespace BeamDesign

open Spec

variable {K : Type} [Field K] [LinearOrder K] [IsStrictOrderedRing K]

theorem foldl_min_isLeast (xs : List K) (x : K) : IsLeast {y | y ∈ x :: xs} (xs.foldl min x) := by
  induction xs generalizing x with
  | nil => simp [IsLeast, lowerBounds]
  | cons a t ih =>
    have h := ih (min x a)
    refine ⟨?_, ?_⟩
    · rcases List.mem_cons.1 h.1 with e | e
      · show t.foldl min (min x a) ∈ x :: a :: t
        rw [e]
        rcases min_choice x a with h' | h' <;> rw [h'] <;> simp
      · exact List.mem_cons_of_mem _ (List.mem_cons_of_mem _ e)
    · intro y hy
      have hle : t.foldl min (min x a) ≤ min x a := h.2 List.mem_cons_self
      rcases List.mem_cons.1 hy with rfl | hy
      · exact le_trans hle (min_le_left _ _)
      · rcases List.mem_cons.1 hy with rfl | hy
        · exact le_trans hle (min_le_right _ _)
        · exact h.2 (List.mem_cons_of_mem _ hy)

theorem foldl_max_isGreatest (xs : List K) (x : K) : IsGreatest {y | y ∈ x :: xs} (xs.foldl max x) := by
  induction xs generalizing x with
  | nil => simp [IsGreatest, upperBounds]
  | cons a t ih =>
    have h := ih (max x a)
    refine ⟨?_, ?_⟩
    · rcases List.mem_cons.1 h.1 with e | e
      · show t.foldl max (max x a) ∈ x :: a :: t
        rw [e]
        rcases max_choice x a with h' | h' <;> rw [h'] <;> simp
      · exact List.mem_cons_of_mem _ (List.mem_cons_of_mem _ e)
    · intro y hy
      have hle : max x a ≤ t.foldl max (max x a) := h.2 List.mem_cons_self
      rcases List.mem_cons.1 hy with rfl | hy
      · exact le_trans (le_max_left _ _) hle
      · rcases List.mem_cons.1 hy with rfl | hy
        · exact le_trans (le_max_right _ _) hle
        · exact h.2 (List.mem_cons_of_mem _ hy)

theorem pyMin_ok {xs : List K} {m : K} (h : pyMin xs = .ok m) : IsLeast {y | y ∈ xs} m := by
  cases xs with
  | nil => cases h
  | cons x xs => cases h; exact foldl_min_isLeast _ _

theorem pyMin_ne {xs : List K} (h : xs ≠ []) : ∃ m, pyMin xs = .ok m := by
  cases xs with
  | nil => exact absurd rfl h
  | cons x xs => exact ⟨_, rfl⟩

theorem pyMax_ok {xs : List K} {m : K} (h : pyMax xs = .ok m) : IsGreatest {y | y ∈ xs} m := by
  cases xs with
  | nil => cases h
  | cons x xs => cases h; exact foldl_max_isGreatest _ _

theorem pyMax_ne {xs : List K} (h : xs ≠ []) : ∃ m, pyMax xs = .ok m := by
  cases xs with
  | nil => exact absurd rfl h
  | cons x xs => exact ⟨_, rfl⟩

/-- `mapM` succeeds iff it does for every entry. -/
theorem mapM_ok_iff {α β : Type} (f : α → Py β) (xs : List α) (ys : List β) :
    xs.mapM f = .ok ys ↔ List.Forall₂ (fun x y => f x = .ok y) xs ys := by
  induction xs generalizing ys with
  | nil => cases ys <;> simp [pure, Except.pure]
  | cons x xs ih =>
    simp only [List.mapM_cons, bind, Except.bind, pure, Except.pure]
    constructor
    · intro h
      split at h
      · cases h
      · rename_i y hy
        split at h
        · cases h
        · rename_i ys' hys
          cases h
          exact .cons hy ((ih ys').1 hys)
    · intro h
      cases h with
      | cons h h' => rw [h, (ih _).2 h']

theorem minUtil_pos : (0 : K) < minUtil := by
  unfold minUtil; norm_num

/-- The function handed to the solver is linear. -/
theorem utilFunc_linear {rt : Rt K} (hx : rt.Exact) {cap t : K} (hc : cap ≠ 0) (x : K) :
    utilFunc rt x [(t, cap)] = .ok (.fin (t / cap * x + -1)) := by
  simp only [utilFunc, hc, if_false, hx.mul, hx.div, hx.sub]
  congr 2
  field_simp
  ring

/-- The two starting values give different function values iff the utilisation is above `minUtil`. -/
theorem close_util_iff {m : K} (hm : 0 < m) :
    Close (1 / 10 ^ 9) (m * 100000 + -1) (m * -100000 + -1) ↔ m ≤ minUtil := by
  have hd : (0 : K) < 2 * 10 ^ 5 - 1 / 10 ^ 4 := by norm_num
  have hmin : m ≤ minUtil ↔ m * (2 * 10 ^ 5 - 1 / 10 ^ 4) ≤ 1 / 10 ^ 9 := by
    unfold minUtil
    rw [le_div_iff₀ hd]
  have e1 : m * -100000 + -1 - (m * 100000 + -1) = -(m * 200000) := by ring
  have e2 : |m * -100000 + -1| = m * 100000 + 1 := by
    rw [show m * -100000 + -1 = -(m * 100000 + 1) by ring, abs_neg, abs_of_pos (by positivity)]
  have e3 : |(-(m * 200000))| = m * 200000 := by rw [abs_neg, abs_of_pos (by positivity)]
  rw [hmin]
  unfold Close
  rw [e1, e2, e3]
  constructor
  · rintro (h | h | h | h)
    · nlinarith
    · norm_num at h ⊢
      linarith
    · have : |m * 100000 + -1| ≤ m * 100000 + 1 := by
        rw [abs_le]; constructor <;> nlinarith
      norm_num at h this ⊢
      linarith
    · norm_num at h ⊢
      linarith
  · intro h
    right; left
    norm_num at h ⊢
    linarith

/-- Near the upper starting value the solver stops at once. -/
theorem close_root {m : K} (hm : 0 < m) (h : Close (1 / 10 ^ 9) 0 (m * 100000 + -1)) :
    Close (1 / 10 ^ 9) 100000 (1 / m) := by
  have hd : |m * 100000 + -1| ≤ 1 / 10 ^ 9 := by
    unfold Close at h
    rw [sub_zero, abs_zero, zero_div] at h
    rcases h with h | h | h | h
    · rw [← h]; simp
    · have h0 := abs_nonneg (m * 100000 + -1)
      norm_num at h
      have : |m * 100000 + -1| = 0 := by linarith
      rw [this]; positivity
    · exact le_trans h (by positivity)
    · exact h
  have hm' : 1 / m * m = 1 := by field_simp
  have hpos : (0 : K) < 1 / m := by positivity
  have e : |1 / m - 100000| = |m * 100000 + -1| * (1 / m) := by
    have e0 : 1 / m - 100000 = -((m * 100000 + -1) * (1 / m)) := by field_simp; ring
    rw [e0, abs_neg, abs_mul, abs_of_pos hpos]
  right; left
  rw [e, abs_of_pos hpos]
  calc |m * 100000 + -1| * (1 / m) ≤ 1 / 10 ^ 9 * (1 / m) := mul_le_mul_of_nonneg_right hd hpos.le
    _ = 1 / m / 10 ^ 9 := by ring

/-- as4100.py 115-140 in exact arithmetic: `t / cap` above the threshold, a `ValueError` below it. -/
theorem utilOne_exact {rt : Rt K} (hx : rt.Exact) {cap t : K} (hc : 0 < cap) :
    (t ≤ 0 ∨ minUtil < t / cap → utilOne rt cap t = .ok (utilOf cap t)) ∧
    (0 < t → t / cap ≤ minUtil → utilOne rt cap t = .error .valueError) := by
  by_cases ht : t ≤ 0
  · exact ⟨fun _ => by simp [utilOne, utilOf, ht], fun h => absurd ht (not_le.2 h)⟩
  have ht' := not_le.1 ht
  have hm : 0 < t / cap := div_pos ht' hc
  have hnc : ¬ Close (1 / 10 ^ 9 : K) 100000 (-100000) := by
    unfold Close
    norm_num
  have key := C39_linear hx (t / cap) (-1) hm.ne' (utilFunc rt) [(t, cap)]
    (fun x => utilFunc_linear hx hc.ne' x) (-100000) 100000 (1 / 10 ^ 9) (by positivity) hnc (some 20000)
    (by rintro k hk; cases hk; norm_num) false 20000 (by norm_num)
  have hroot : -(-1) / (t / cap) = cap / t := by field_simp
  rw [close_util_iff hm, hroot] at key
  constructor
  · rintro (h | h)
    · exact absurd h ht
    · rcases key with ⟨-, hcl | hcl⟩ | ⟨-, n, -, hs⟩
      · exact absurd hcl (not_le.2 h)
      · have := close_root hm hcl.1
        rw [one_div_div] at this
        exact absurd this hcl.2
      · have hne : cap / t ≠ 0 := (div_pos hc ht').ne'
        simp only [utilOne, if_neg ht, hs, hne, ne_eq, not_false_eq_true, if_true, utilOf, hx.div, one_div_div]
  · intro _ h
    rcases key with ⟨hs, -⟩ | ⟨hn, -⟩
    · simp only [utilOne, if_neg ht, hs, SolverErr.toPy]
    · exact absurd h hn

end BeamDesign
