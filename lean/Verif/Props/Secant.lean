import Verif.Props.Solvers
import Verif.Spec.Slopes

/-!
# C112: convergence and accuracy of `secant`
-/

namespace BeamDesign

open Spec

variable {K A : Type} [Field K] [LinearOrder K] [IsStrictOrderedRing K]

/-! ## Lemmas -/

/-- the mean slope between two points -/
theorem slopes_mean {m M : K} {g : K → K} (h : Slopes m M g) (hmM : m ≤ M) (x y : K) :
    ∃ t, m ≤ t ∧ t ≤ M ∧ g y - g x = t * (y - x) := by
  rcases lt_trichotomy x y with hlt | rfl | hlt
  · obtain ⟨h1, h2⟩ := h x y hlt
    have hd : 0 < y - x := sub_pos.2 hlt
    exact ⟨(g y - g x) / (y - x), (le_div_iff₀ hd).2 h1, (div_le_iff₀ hd).2 h2, (div_mul_cancel₀ _ hd.ne').symm⟩
  · exact ⟨m, le_rfl, hmM, by simp⟩
  · obtain ⟨h1, h2⟩ := h y x hlt
    have hd : 0 < x - y := sub_pos.2 hlt
    refine ⟨(g x - g y) / (x - y), (le_div_iff₀ hd).2 h1, (div_le_iff₀ hd).2 h2, ?_⟩
    have : (g x - g y) / (x - y) * (x - y) = g x - g y := div_mul_cancel₀ _ hd.ne'
    linarith

/-- one step of the secant rule: how near the new guess is to the root, in terms of the guess before it and in terms of
the distance between the two -/
theorem secant_step {m M : K} {g : K → K} (h : Slopes m M g) (hm : 0 < m) (hmM : m ≤ M) {r : K} (hr : g r = 0)
    {x1 x2 : K} (hne : g x2 - g x1 ≠ 0) :
    m * |(x1 * g x2 - x2 * g x1) / (g x2 - g x1) - r| ≤ (M - m) * |x2 - r| ∧
    m * |(x1 * g x2 - x2 * g x1) / (g x2 - g x1) - r| ≤
      (M - m) * |(x1 * g x2 - x2 * g x1) / (g x2 - g x1) - x2| := by
  obtain ⟨s, s1, s2, hs⟩ := slopes_mean h hmM x1 x2
  obtain ⟨t, t1, t2, htt⟩ := slopes_mean h hmM r x2
  rw [hr, sub_zero] at htt
  have spos : 0 < s := hm.trans_le s1
  have hd : x2 - x1 ≠ 0 := fun h0 => hne (by rw [hs, h0, mul_zero])
  have hx3 : (x1 * g x2 - x2 * g x1) / (g x2 - g x1) = x2 - g x2 / s := by
    have e : x1 * g x2 - x2 * g x1 = x2 * (g x2 - g x1) - g x2 * (x2 - x1) := by ring
    rw [e, hs]
    field_simp
  set x3 := (x1 * g x2 - x2 * g x1) / (g x2 - g x1) with hx3d
  clear_value x3
  constructor
  · have e : x3 - r = (x2 - r) * ((s - t) / s) := by
      rw [hx3, htt]; field_simp; ring
    rw [e, abs_mul, abs_div, abs_of_pos spos]
    have h1 : |s - t| ≤ M - m := abs_le.2 ⟨by linarith, by linarith⟩
    have h2 : m * (|s - t| / s) ≤ M - m := by
      rw [← mul_div_assoc, div_le_iff₀ spos]
      have := abs_nonneg (s - t)
      nlinarith
    calc m * (|x2 - r| * (|s - t| / s)) = m * (|s - t| / s) * |x2 - r| := by ring
      _ ≤ (M - m) * |x2 - r| := mul_le_mul_of_nonneg_right h2 (abs_nonneg _)
  · obtain ⟨u, u1, u2, hu⟩ := slopes_mean h hmM x2 x3
    obtain ⟨v, v1, v2, hv⟩ := slopes_mean h hmM r x3
    rw [hr, sub_zero] at hv
    have e2 : g x2 = s * (x2 - x3) := by rw [hx3]; field_simp; ring
    have e3 : g x3 = (u - s) * (x3 - x2) := by linarith
    have h1 : |u - s| ≤ M - m := abs_le.2 ⟨by linarith, by linarith⟩
    have h2 : m * |x3 - r| ≤ |g x3| := by
      rw [hv, abs_mul, abs_of_pos (hm.trans_le v1)]
      exact mul_le_mul_of_nonneg_right v1 (abs_nonneg _)
    rw [e3, abs_mul] at h2
    exact h2.trans (mul_le_mul_of_nonneg_right h1 (abs_nonneg _))

/-- two guesses of which the second is nearer to the root have function values that are not close, unless the guesses
themselves are -/
theorem values_not_close {m M : K} {g : K → K} (h : Slopes m M g) (hm : 1 ≤ m) (hmM : m ≤ M)
    (hM : M * (1 + 1 / 10 ^ 9) < 2 * m) {r : K} (hr : g r = 0) {x1 x2 tol : K}
    (hn : m * |x2 - r| ≤ (M - m) * |x1 - r|) (hc : ¬ Close tol x1 x2) : ¬ Close tol (g x2) (g x1) := by
  have hm0 : 0 < m := one_pos.trans_le hm
  have hMpos : 0 < M := hm0.trans_le hmM
  obtain ⟨s, s1, s2, hs⟩ := slopes_mean h hmM x1 x2
  obtain ⟨t1, a1, a2, ht1⟩ := slopes_mean h hmM r x1
  obtain ⟨t2, b1, b2, ht2⟩ := slopes_mean h hmM r x2
  rw [hr, sub_zero] at ht1 ht2
  have hs0 : 0 < s := hm0.trans_le s1
  simp only [Close, not_or, not_le] at hc
  obtain ⟨c0, -, -, c3⟩ := hc
  have hd : |g x1 - g x2| = s * |x2 - x1| := by
    rw [abs_sub_comm, hs, abs_mul, abs_of_pos hs0]
  have hdpos : 0 < |x2 - x1| := abs_pos.2 (sub_ne_zero.2 (Ne.symm c0))
  have e1 : |g x1| ≤ M * |x1 - r| := by
    rw [ht1, abs_mul, abs_of_pos (hm0.trans_le a1)]
    exact mul_le_mul_of_nonneg_right a2 (abs_nonneg _)
  have e2 : |g x2| ≤ M * |x2 - r| := by
    rw [ht2, abs_mul, abs_of_pos (hm0.trans_le b1)]
    exact mul_le_mul_of_nonneg_right b2 (abs_nonneg _)
  have hlow : m * |x2 - x1| ≤ |g x1 - g x2| := by
    rw [hd]; exact mul_le_mul_of_nonneg_right s1 hdpos.le
  have tri : |x1 - r| ≤ |x2 - x1| + |x2 - r| := by
    have := abs_sub_abs_le_abs_sub (x1 - r) (x2 - r)
    have e : x1 - r - (x2 - r) = -(x2 - x1) := by ring
    rw [e, abs_neg] at this
    linarith
  have hkey : (2 * m - M) * |x1 - r| ≤ m * |x2 - x1| := by nlinarith
  have h12 : |x2 - r| ≤ |x1 - r| := by
    have h2 : m * |x2 - r| ≤ m * |x1 - r| := hn.trans (mul_le_mul_of_nonneg_right (by
      have : M ≤ M * (1 + 1 / 10 ^ 9) := by
        have : (0:K) ≤ M * (1 / 10 ^ 9) := by positivity
        linarith
      linarith) (abs_nonneg _))
    exact le_of_mul_le_mul_left h2 hm0
  have h1pos : 0 < |x1 - r| := by
    rcases (abs_nonneg (x1 - r)).lt_or_eq with h0 | h0
    · exact h0
    · rw [← h0] at h12
      have z1 := sub_eq_zero.1 (abs_eq_zero.1 h0.symm)
      have z2 := sub_eq_zero.1 (abs_nonpos_iff.1 h12)
      exact (c0 (z1.trans z2.symm)).elim
  have hbig : M * |x1 - r| / 10 ^ 9 < |g x1 - g x2| := by
    refine lt_of_lt_of_le ?_ (hkey.trans hlow)
    rw [div_eq_mul_one_div, mul_right_comm]
    refine mul_lt_mul_of_pos_right ?_ h1pos
    linarith
  rintro (hh | hh | hh | hh)
  · rw [hh, sub_self, abs_zero] at hlow
    nlinarith
  · have : |g x1| / 10 ^ 9 ≤ M * |x1 - r| / 10 ^ 9 := by gcongr
    linarith
  · have : |g x2| / 10 ^ 9 ≤ M * |x1 - r| / 10 ^ 9 := by
      gcongr
      exact e2.trans (mul_le_mul_of_nonneg_left h12 hMpos.le)
    linarith
  · have : |x2 - x1| ≤ m * |x2 - x1| := le_mul_of_one_le_left hdpos.le hm
    linarith

/-- the loop from a pair of guesses of which the second is nearer to the root -/
theorem secantLoop_converges {rt : Rt K} (hx : rt.Exact) {f : SolveFun K A} {args : List A} {g : K → K}
    (hf : ∀ x, f x args = .ok (.fin (g x))) {m M : K} (h : Slopes m M g) (hm : 1 ≤ m) (hmM : m ≤ M)
    (hM : M * (1 + 1 / 10 ^ 9) < 2 * m) {r : K} (hr : g r = 0) {tol : K} (ht : 0 ≤ tol) {maxIts : Option ℤ}
    (onMax : Option (Except SolverErr (K × ℕ × Bool))) :
    ∀ (k fuel i : ℕ) (x1 x2 : K), k ≤ fuel → (∀ j, maxIts = some j → (i : ℤ) + k < j) →
      m * |x2 - r| ≤ (M - m) * |x1 - r| → M / m * ((M / m - 1) ^ k * |x1 - r|) ≤ tol →
      ∃ x n, secantLoop rt f args tol maxIts onMax fuel i x1 x2 (some x2) = some (.ok (x, n, false)) ∧ n ≤ i + k := by
  have hm0 : 0 < m := one_pos.trans_le hm
  have hq : 0 ≤ M / m - 1 := by rw [sub_nonneg, one_le_div hm0]; exact hmM
  have hlc : ∀ x y, loopCond rt tol (rt.sub y x) x y = .ok (decide (¬ Close tol x y)) := fun x y =>
    loopCond_exact hx ht _ _ _ (by rw [hx.sub])
  have hnear : ∀ {x1 x2 : K}, m * |x2 - r| ≤ (M - m) * |x1 - r| → |x2 - r| ≤ (M / m - 1) * |x1 - r| := by
    intro x1 x2 hn
    have e : (M / m - 1) * |x1 - r| = (M - m) * |x1 - r| / m := by field_simp
    rw [e, le_div_iff₀ hm0]
    linarith
  intro k
  induction k with
  | zero =>
    intro fuel i x1 x2 _ _ hn hb
    have hclose : Close tol x1 x2 := by
      refine Or.inr (Or.inr (Or.inr ?_))
      have h1 := hnear hn
      have h2 : |x2 - x1| ≤ |x2 - r| + |x1 - r| := by
        have := abs_sub (x2 - r) (x1 - r)
        rwa [sub_sub_sub_cancel_right] at this
      rw [pow_zero, one_mul] at hb
      linarith
    unfold secantLoop
    rw [hlc, decide_eq_false (not_not.2 hclose)]
    exact ⟨x2, i, rfl, by omega⟩
  | succ k ih =>
    intro fuel i x1 x2 hk hmax hn hb
    unfold secantLoop
    rw [hlc]
    by_cases hc : Close tol x1 x2
    · rw [decide_eq_false (not_not.2 hc)]
      exact ⟨x2, i, rfl, by omega⟩
    · rw [decide_eq_true hc]
      obtain ⟨fuel, rfl⟩ : ∃ j, fuel = j + 1 := ⟨fuel - 1, by omega⟩
      have hv := values_not_close h hm hmM hM hr hn hc
      have hne : g x2 - g x1 ≠ 0 := fun h0 => hv (Or.inl (sub_eq_zero.1 h0))
      have hs := (secant_step h hm0 hmM hr hne).1
      simp only [secantBody_fin hx ht (hf x1) (hf x2), if_neg hv]
      have hany : ¬ (maxIts.any (fun j => decide (j ≤ (i : ℤ) + 1)) = true) := by
        cases maxIts with
        | none => simp
        | some j =>
          have := hmax j rfl
          simp only [Option.any_some, decide_eq_true_eq]
          push_cast at this
          omega
      rw [if_neg hany]
      obtain ⟨x, n, e1, e2⟩ := ih fuel (i + 1) x2 _ (by omega)
        (fun j hj => by have := hmax j hj; push_cast at this ⊢; omega) hs (by
          refine le_trans ?_ hb
          have : (M / m - 1) ^ k * |x2 - r| ≤ (M / m - 1) ^ (k + 1) * |x1 - r| := by
            rw [pow_succ, mul_assoc]
            exact mul_le_mul_of_nonneg_left (hnear hn) (pow_nonneg hq k)
          exact mul_le_mul_of_nonneg_left this (by linarith))
      exact ⟨x, n, e1, by omega⟩

/-! ## C112 -/

/-- C112, accuracy.  A function whose slope lies between `m > 0` and `M`, with the root `r`, any guesses, tolerance and
limit: an answer found without falling back differs from the root by at most `M / m - 1` times its distance to the
iterate before it, and these two agree within the tolerance. -/
theorem C112_accuracy {rt : Rt K} (hx : rt.Exact) (g : K → K) (f : SolveFun K A) (args : List A)
    (hf : ∀ x, f x args = .ok (.fin (g x))) {m M : K} (h : Slopes m M g) (hm : 0 < m) {r : K} (hr : g r = 0)
    (lo hi tol : K) (maxIts : Option ℤ) (fallback : Bool) (fuel : ℕ) (x : K) (n : ℕ)
    (hs : secant rt f args (.fin lo) (.fin hi) tol maxIts fallback fuel = some (.ok (x, n, false))) :
    ∃ x', Close tol x' x ∧ |x - r| ≤ (M / m - 1) * |x - x'| := by
  obtain ⟨s, -, -, h3, rfl, h5, h6, -⟩ := C38_agreement hx f args lo hi tol maxIts fallback fuel x n hs
  refine ⟨s n, h6, ?_⟩
  obtain ⟨j, rfl⟩ : ∃ j, n = j + 1 := ⟨n - 1, by omega⟩
  obtain ⟨y, y', v1, v2, hne, e⟩ := h3 j (by omega)
  have w1 : y = g (s j) := by
    have := (hf (s j)).symm.trans v1
    injection this with this
    injection this with this
    exact this.symm
  have w2 : y' = g (s (j + 1)) := by
    have := (hf (s (j + 1))).symm.trans v2
    injection this with this
    injection this with this
    exact this.symm
  subst w1 w2
  have hmM : m ≤ M := by
    obtain ⟨a, b⟩ := h 0 1 one_pos
    linarith
  have := (secant_step h hm hmM hr (x1 := s j) (x2 := s (j + 1)) (sub_ne_zero.2 hne)).2
  rw [← e] at this
  have e2 : (M / m - 1) * |s (j + 2) - s (j + 1)| = (M - m) * |s (j + 2) - s (j + 1)| / m := by field_simp
  show |s (j + 2) - r| ≤ (M / m - 1) * |s (j + 2) - s (j + 1)|
  rw [e2, le_div_iff₀ hm]
  linarith

/-- C112, convergence.  A function whose slope lies between `m ≥ 1` and `M`, less than twice `m`: from any two guesses
with function values that are not close, `secant` answers after at most `N` iterations if `N - 1` steps, each bringing
the guess nearer by the factor `M / m - 1`, lead within the tolerance. -/
theorem C112_converges {rt : Rt K} (hx : rt.Exact) (g : K → K) (f : SolveFun K A) (args : List A)
    (hf : ∀ x, f x args = .ok (.fin (g x))) {m M : K} (h : Slopes m M g) (hm : 1 ≤ m)
    (hM : M * (1 + 1 / 10 ^ 9) < 2 * m) {r : K} (hr : g r = 0) (lo hi : K) {tol : K} (ht : 0 ≤ tol)
    (hc : ¬ Close tol hi lo) (hv : ¬ Close tol (g hi) (g lo)) (N : ℕ) (hN : 1 ≤ N)
    (hb : M / m * ((M / m - 1) ^ (N - 1) * |hi - r|) ≤ tol) (maxIts : Option ℤ)
    (hmax : ∀ j, maxIts = some j → (N : ℤ) < j) (fallback : Bool) (fuel : ℕ) (hfuel : N ≤ fuel) :
    ∃ x n x', secant rt f args (.fin lo) (.fin hi) tol maxIts fallback fuel = some (.ok (x, n, false)) ∧ n ≤ N ∧
      Close tol x' x ∧ |x - r| ≤ (M / m - 1) * |x - x'| := by
  have hm0 : 0 < m := one_pos.trans_le hm
  have hmM : m ≤ M := by
    obtain ⟨a, b⟩ := h 0 1 one_pos
    linarith
  obtain ⟨k, rfl⟩ : ∃ k, N = k + 1 := ⟨N - 1, by omega⟩
  obtain ⟨fuel, rfl⟩ : ∃ j, fuel = j + 1 := ⟨fuel - 1, by omega⟩
  have hlc : ∀ x y, loopCond rt tol (rt.sub y x) x y = .ok (decide (¬ Close tol x y)) := fun x y =>
    loopCond_exact hx ht _ _ _ (by rw [hx.sub])
  have hne : g hi - g lo ≠ 0 := fun h0 => hv (Or.inl (sub_eq_zero.1 h0))
  have hs := (secant_step h hm0 hmM hr hne).1
  have main : ∃ x n, secant rt f args (.fin lo) (.fin hi) tol maxIts fallback (fuel + 1) = some (.ok (x, n, false)) ∧
      n ≤ k + 1 := by
    unfold secant checkGuesses
    simp only [Val.isInf, Bool.or_self, Bool.false_eq_true, if_false, isclose_fin hx ht, decide_eq_false hc]
    unfold secantLoop
    rw [hlc, decide_eq_true (show ¬ Close tol lo hi from fun h => hc ((close_comm _ _ _).1 h))]
    simp only [secantBody_fin hx ht (hf lo) (hf hi), if_neg hv]
    have hany : ¬ (maxIts.any (fun j => decide (j ≤ ((0 : ℕ) : ℤ) + 1)) = true) := by
      cases maxIts with
      | none => simp
      | some j =>
        have := hmax j rfl
        simp only [Option.any_some, decide_eq_true_eq]
        push_cast at this ⊢
        omega
    rw [if_neg hany]
    obtain ⟨x, n, e1, e2⟩ := secantLoop_converges hx hf h hm hmM hM hr ht
      (if fallback then secantFallback rt f args lo hi tol else some (.error .exceeded)) k fuel (0 + 1) hi _ (by omega)
      (fun j hj => by have := hmax j hj; push_cast at this ⊢; omega) hs hb
    exact ⟨x, n, e1, by omega⟩
  obtain ⟨x, n, e1, e2⟩ := main
  obtain ⟨x', h1, h2⟩ := C112_accuracy hx g f args hf h hm0 hr lo hi tol maxIts fallback (fuel + 1) x n e1
  exact ⟨x, n, x', e1, e2, h1, h2⟩

/-- slope 1 below zero and 3/2 above it, with the root 2 -/
def kink (x : ℚ) : ℚ := max x (3 / 2 * x) - 3

theorem kink_slopes : Slopes 1 (3 / 2) kink := by
  intro x y hxy
  unfold kink
  rcases le_total x 0 with h1 | h1 <;> rcases le_total y 0 with h2 | h2
  · rw [max_eq_left (by linarith), max_eq_left (by linarith)]; constructor <;> linarith
  · rw [max_eq_right (by linarith : y ≤ 3 / 2 * y), max_eq_left (by linarith)]; constructor <;> linarith
  · linarith
  · rw [max_eq_right (by linarith : y ≤ 3 / 2 * y), max_eq_right (by linarith : x ≤ 3 / 2 * x)]; constructor <;> linarith

example : kink 2 = 0 ∧ (3 / 2 : ℚ) * (1 + 1 / 10 ^ 9) < 2 * 1 ∧ ¬ Close (1 / 10 ^ 9 : ℚ) (-1) (-5) ∧
    ¬ Close (1 / 10 ^ 9 : ℚ) (kink (-1)) (kink (-5)) ∧
    (3 / 2 : ℚ) / 1 * ((3 / 2 / 1 - 1) ^ (40 - 1) * |-1 - 2|) ≤ 1 / 10 ^ 9 := by
  unfold kink Close
  refine ⟨by norm_num, by norm_num, by norm_num, by norm_num [max_def], ?_⟩
  rw [show |(-1 : ℚ) - 2| = 3 by norm_num]
  norm_num

example : secant (Rt.exact ℚ) (fun x (_ : List Unit) => .ok (.fin (kink x))) [] (.fin (-5)) (.fin (-1)) (1 / 10 ^ 9)
    (some 20000) false 20000 = some (.ok (2, 4, false)) := by decide +kernel

/-- C112, why the slope must be at least 1: with the slope 1/1000 the first step from 1 and 10⁻⁷ gives the root 0 exactly, and the
second step raises `ValueError` because the function value at 10⁻⁷ is too close to 0. -/
theorem C112_small_slope :
    secant (Rt.exact ℚ) (fun x (_ : List Unit) => .ok (.fin (x / 1000))) [] (.fin 1) (.fin (1 / 10 ^ 7)) (1 / 10 ^ 9)
      (some 20000) false 20000 = some (.error .sameValue) ∧
    secantBody (Rt.exact ℚ) (fun x (_ : List Unit) => .ok (.fin (x / 1000))) [] (1 / 10 ^ 9) 1 (1 / 10 ^ 7) = .ok 0 := by
  decide +kernel

end BeamDesign
