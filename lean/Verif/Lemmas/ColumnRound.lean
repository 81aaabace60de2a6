import Verif.Lemmas.Acc
import Verif.Lemmas.S6

/-!
# Lemmas about the section 6 formulas in floating point
-/

namespace BeamDesign

open Spec

variable {A : Arith ℝ} {u : ℝ}

/-- an operation on inexact arguments -/
theorem round_abs {x' y x e : ℝ} (h0 : 0 ≤ u) (h : |x' - y| ≤ u * |y|) (hy : |y - x| ≤ e) : |x' - x| ≤ e + u * (|x| + e) := by
  have h1 : |y| ≤ |x| + e := by
    have := abs_add_le (y - x) x
    rw [sub_add_cancel] at this
    linarith
  have h2 := abs_add_le (x' - y) (y - x)
  rw [sub_add_sub_cancel] at h2
  have := mul_le_mul_of_nonneg_left h1 h0
  linarith

theorem minus_near {x y x' y' a b : ℝ} (hx : |x' - x| ≤ a) (hy : |y' - y| ≤ b) : |(x' - y') - (x - y)| ≤ a + b := by
  rw [abs_le] at *
  constructor <;> linarith [hx.1, hx.2, hy.1, hy.2]

theorem plus_near {x y x' y' a b : ℝ} (hx : |x' - x| ≤ a) (hy : |y' - y| ≤ b) : |(x' + y') - (x + y)| ≤ a + b := by
  rw [abs_le] at *
  constructor <;> linarith [hx.1, hx.2, hy.1, hy.2]

theorem prod_near {x y x' y' a b : ℝ} (hx : |x' - x| ≤ a) (hy : |y' - y| ≤ b) :
    |x' * y' - x * y| ≤ a * (|y| + b) + |x| * b := by
  have hy' : |y'| ≤ |y| + b := by
    have := abs_add_le (y' - y) y
    rw [sub_add_cancel] at this
    linarith
  have e : x' * y' - x * y = (x' - x) * y' + x * (y' - y) := by ring
  rw [e]
  refine (abs_add_le _ _).trans ?_
  rw [abs_mul, abs_mul]
  have ha := (abs_nonneg _).trans hx
  exact add_le_add (mul_le_mul hx hy' (abs_nonneg _) ha) (mul_le_mul_of_nonneg_left hy (abs_nonneg _))

theorem quot_near {x y x' y' a b : ℝ} (hy0 : 0 < y) (hb1 : b < 1) (hx : |x' - x| ≤ a) (hy : |y' - y| ≤ b * y) :
    0 < y' ∧ |x' / y' - x / y| ≤ (a + |x| * b) / ((1 - b) * y) := by
  have hy' : (1 - b) * y ≤ y' := by
    rw [abs_le] at hy
    linarith [hy.1]
  have p : 0 < (1 - b) * y := mul_pos (by linarith) hy0
  have p' := p.trans_le hy'
  refine ⟨p', ?_⟩
  have e : x' / y' - x / y = ((x' - x) * y - x * (y' - y)) / (y' * y) := by
    field_simp
    ring
  rw [e, abs_div, abs_of_pos (mul_pos p' hy0)]
  have h1 : |(x' - x) * y - x * (y' - y)| ≤ (a + |x| * b) * y := by
    refine (abs_sub _ _).trans ?_
    rw [abs_mul, abs_mul, abs_of_pos hy0]
    have := mul_le_mul_of_nonneg_right hx hy0.le
    have := mul_le_mul_of_nonneg_left hy (abs_nonneg x)
    linarith
  have h2 : 0 ≤ (a + |x| * b) * y := (abs_nonneg _).trans h1
  calc _ ≤ (a + |x| * b) * y / ((1 - b) * y * y) := by
        apply div_le_div₀ h2 h1 (by positivity)
        exact mul_le_mul_of_nonneg_right hy' hy0.le
    _ = _ := by field_simp

/-- the numerator and the denominator of `α_a` -/
theorem num_le {n : ℝ} : 2100 * (n + 27 / 2) ≤ 40 * (n * n - 153 / 10 * n + 2050) := by
  nlinarith [sq_nonneg (n - 34)]

theorem den_cond {n : ℝ} : n * n + 153 / 10 * n + 2050 ≤ 10 / 7 * (n * n - 153 / 10 * n + 2050) := by
  nlinarith [sq_nonneg (n - 43)]

set_option maxHeartbeats 1000000 in
theorem alphaA_near (hA : Rounded A u) (hu : 1000 * u ≤ 1) {n n' : ℝ} (hn : 0 ≤ n) (h : |n' - n| ≤ 22 * u * n) :
    ∃ a', A.quot (A.mul 2100 (A.sub n' (A.lit (27 / 2)))) (A.add (A.sub (A.mul n' n') (A.mul (A.lit (153 / 10)) n')) 2050) = .ok a' ∧
      |a' - 2100 * (n - 27 / 2) / (n * n - 153 / 10 * n + 2050)| ≤ 4085 * u ∧
      |2100 * (n - 27 / 2) / (n * n - 153 / 10 * n + 2050)| ≤ 40 := by
  have h0 := hA.nonneg
  have hd := den_pos n
  have uu : u * u ≤ 1 / 1000 * u := mul_le_mul_of_nonneg_right (by linarith) h0
  have hun : 0 ≤ u * n := mul_nonneg h0 hn
  have huun : u * u * n ≤ 1 / 1000 * u * n := mul_le_mul_of_nonneg_right uu hn
  have e1 : ((27 / 2 : ℚ) : ℝ) = 27 / 2 := by norm_num
  have e2 : ((153 / 10 : ℚ) : ℝ) = 153 / 10 := by norm_num
  have l1 := hA.lit (27 / 2)
  have l2 := hA.lit (153 / 10)
  rw [e1, abs_of_pos (show (0 : ℝ) < 27 / 2 by norm_num)] at l1
  rw [e2, abs_of_pos (show (0 : ℝ) < 153 / 10 by norm_num)] at l2
  -- numerator
  have abs1 : |n - 27 / 2| ≤ n + 27 / 2 := by rw [abs_le]; constructor <;> linarith
  have s1 : |A.sub n' (A.lit (27 / 2)) - (n - 27 / 2)| ≤ 231 / 10 * u * (n + 27 / 2) := by
    have := round_abs h0 (hA.sub n' (A.lit (27 / 2))) (minus_near h l1)
    have := mul_le_mul_of_nonneg_left abs1 h0
    linarith
  have s2 : |A.mul 2100 (A.sub n' (A.lit (27 / 2))) - 2100 * (n - 27 / 2)| ≤ 242 / 10 * u * (2100 * (n + 27 / 2)) := by
    have m := prod_near (x := 2100) (x' := 2100) (a := 0) (by simp) s1
    rw [zero_mul, zero_add, abs_of_pos (show (0 : ℝ) < 2100 by norm_num)] at m
    have := round_abs h0 (hA.mul 2100 _) m
    rw [abs_mul, abs_of_pos (show (0 : ℝ) < 2100 by norm_num)] at this
    have := mul_le_mul_of_nonneg_left abs1 h0
    linarith
  -- denominator
  have hn2 : 0 ≤ n * n := mul_nonneg hn hn
  have hunn : 0 ≤ u * (n * n) := mul_nonneg h0 hn2
  have huunn : u * u * (n * n) ≤ 1 / 1000 * u * (n * n) := mul_le_mul_of_nonneg_right uu hn2
  have t1 : |A.mul n' n' - n * n| ≤ 456 / 10 * u * (n * n) := by
    have m := prod_near h h
    rw [abs_of_nonneg hn] at m
    have := round_abs h0 (hA.mul n' n') (e := 445 / 10 * u * (n * n)) (m.trans (by linarith))
    rw [abs_of_nonneg hn2] at this
    linarith
  have t2 : |A.mul (A.lit (153 / 10)) n' - 153 / 10 * n| ≤ 242 / 10 * u * (153 / 10 * n) := by
    have m := prod_near l2 h
    rw [abs_of_nonneg hn, abs_of_pos (show (0 : ℝ) < 153 / 10 by norm_num)] at m
    have := round_abs h0 (hA.mul _ n') (e := 231 / 10 * u * (153 / 10 * n)) (m.trans (by linarith))
    rw [abs_of_nonneg (show 0 ≤ 153 / 10 * n by positivity)] at this
    linarith
  have t3 : |A.sub (A.mul n' n') (A.mul (A.lit (153 / 10)) n') - (n * n - 153 / 10 * n)| ≤ 468 / 10 * u * (n * n + 153 / 10 * n) := by
    have := round_abs h0 (hA.sub _ _) (minus_near t1 t2)
    have a3 : |n * n - 153 / 10 * n| ≤ n * n + 153 / 10 * n := by rw [abs_le]; constructor <;> linarith
    have := mul_le_mul_of_nonneg_left a3 h0
    linarith
  have t4 : |A.add (A.sub (A.mul n' n') (A.mul (A.lit (153 / 10)) n')) 2050 - (n * n - 153 / 10 * n + 2050)| ≤
      69 * u * (n * n - 153 / 10 * n + 2050) := by
    have := round_abs h0 (hA.add _ 2050) (plus_near (y := 2050) (y' := 2050) (b := 0) t3 (by simp))
    rw [abs_of_pos hd, add_zero] at this
    have hc := den_cond (n := n)
    have := mul_le_mul_of_nonneg_left hc h0
    linarith
  -- quotient
  obtain ⟨pd, q⟩ := quot_near (b := 69 * u) hd (by linarith) s2 t4
  have hM : 0 ≤ 2100 * (n + 27 / 2) := by positivity
  have hx : |2100 * (n - 27 / 2)| ≤ 2100 * (n + 27 / 2) := by
    rw [abs_mul, abs_of_pos (show (0 : ℝ) < 2100 by norm_num)]
    exact mul_le_mul_of_nonneg_left abs1 (by norm_num)
  have hl := num_le (n := n)
  have hval : |2100 * (n - 27 / 2) / (n * n - 153 / 10 * n + 2050)| ≤ 40 := by
    rw [abs_div, abs_of_pos hd, div_le_iff₀ hd]
    linarith
  have q' : |A.mul 2100 (A.sub n' (A.lit (27 / 2))) / A.add (A.sub (A.mul n' n') (A.mul (A.lit (153 / 10)) n')) 2050 -
      2100 * (n - 27 / 2) / (n * n - 153 / 10 * n + 2050)| ≤ 4040 * u := by
    refine q.trans ?_
    rw [div_le_iff₀ (mul_pos (by linarith) hd)]
    have h1 := mul_le_mul_of_nonneg_right hx (show 0 ≤ 69 * u by positivity)
    have h2 := mul_le_mul_of_nonneg_left hl h0
    have h3 : u * u * (n * n - 153 / 10 * n + 2050) ≤ 1 / 1000 * u * (n * n - 153 / 10 * n + 2050) :=
      mul_le_mul_of_nonneg_right uu hd.le
    linarith
  refine ⟨_, Arith.quot_ok _ pd.ne', ?_, hval⟩
  have := round_abs h0 (hA.div _ _) q'
  have := mul_le_mul_of_nonneg_left hval h0
  linarith

/-- the modified slenderness -/
theorem lambda_near (hA : Rounded A u) (hu : 1000 * u ≤ 1) {n n' ab : ℝ} (hn : 0 ≤ n) (h : |n' - n| ≤ 22 * u * n) (hab : |ab| ≤ 1) :
    ∃ a', A.quot (A.mul 2100 (A.sub n' (A.lit (27 / 2)))) (A.add (A.sub (A.mul n' n') (A.mul (A.lit (153 / 10)) n')) 2050) = .ok a' ∧
      |A.add n' (A.mul a' ab) - lamOf n ab| ≤ 110 * u * (n + 40) ∧ |lamOf n ab| ≤ n + 40 := by
  have h0 := hA.nonneg
  have uu : u * u ≤ 1 / 1000 * u := mul_le_mul_of_nonneg_right (by linarith) h0
  have hun : 0 ≤ u * n := mul_nonneg h0 hn
  have huun : u * u * n ≤ 1 / 1000 * u * n := mul_le_mul_of_nonneg_right uu hn
  obtain ⟨a', e, h1, h2⟩ := alphaA_near hA hu hn h
  refine ⟨a', e, ?_⟩
  unfold lamOf
  generalize 2100 * (n - 27 / 2) / (n * n - 153 / 10 * n + 2050) = a at *
  have hp : |a * ab| ≤ 40 := by
    rw [abs_mul]
    have := mul_le_mul h2 hab (abs_nonneg _) (by norm_num)
    linarith
  have m : |A.mul a' ab - a * ab| ≤ 4130 * u := by
    have m := prod_near (y := ab) (y' := ab) (b := 0) h1 (by simp)
    have m2 : |a' * ab - a * ab| ≤ 4085 * u := by
      refine m.trans ?_
      have : 4085 * u * |ab| ≤ 4085 * u * 1 := mul_le_mul_of_nonneg_left hab (by positivity)
      linarith
    have := round_abs h0 (hA.mul a' ab) m2
    have := mul_le_mul_of_nonneg_left hp h0
    linarith
  have hs : |n + a * ab| ≤ n + 40 := by
    rw [abs_le] at *
    constructor <;> linarith [hp.1, hp.2]
  refine ⟨?_, hs⟩
  have := round_abs h0 (hA.add n' _) (plus_near h m)
  have := mul_le_mul_of_nonneg_left hs h0
  linarith

theorem lamOf_abs {n ab : ℝ} (hn : 0 ≤ n) (hab : |ab| ≤ 1) : |lamOf n ab| ≤ n + 40 := by
  have hd := den_pos n
  have hx : |2100 * (n - 27 / 2) / (n * n - 153 / 10 * n + 2050)| ≤ 40 := by
    have abs1 : |n - 27 / 2| ≤ n + 27 / 2 := by rw [abs_le]; constructor <;> linarith
    rw [abs_div, abs_of_pos hd, div_le_iff₀ hd, abs_mul, abs_of_pos (show (0 : ℝ) < 2100 by norm_num)]
    have := num_le (n := n)
    linarith
  unfold lamOf
  refine (abs_add_le _ _).trans ?_
  rw [abs_mul, abs_of_nonneg hn]
  have := mul_le_mul hx hab (abs_nonneg _) (by norm_num)
  linarith

theorem lamOf_ge {n ab : ℝ} (hn : 0 ≤ n) (hab : |ab| ≤ 1) : -14 ≤ lamOf n ab := by
  have hd := den_pos n
  rw [abs_le] at hab
  unfold lamOf
  rw [div_mul_eq_mul_div, ← sub_le_iff_le_add', le_div_iff₀ hd]
  have p1 : 0 ≤ (n + 14) * (n * n - 153 / 10 * n + 2050) + 2100 * (n - 27 / 2) := by
    nlinarith [mul_nonneg hn (sq_nonneg (n - 1)), sq_nonneg (n - 1)]
  have p2 : 0 ≤ (n + 14) * (n * n - 153 / 10 * n + 2050) - 2100 * (n - 27 / 2) := by
    nlinarith [mul_nonneg hn (sq_nonneg (n - 1)), sq_nonneg (n - 1)]
  have q1 := mul_nonneg p1 (show 0 ≤ (1 + ab) / 2 by linarith [hab.1])
  have q2 := mul_nonneg p2 (show 0 ≤ (1 - ab) / 2 by linarith [hab.2])
  linarith

/-- how far the slenderness is from the peak of the buckling curve: `4 v` is below `0.9025 (v + 1 + η)²` -/
theorem peak_bound {lam : ℝ} (h : -14 ≤ lam) : 4 * (lam / 90) ^ 2 ≤ 9025 / 10000 * ((lam / 90) ^ 2 + 1 + etaOf lam) ^ 2 := by
  have e0 : 0 ≤ etaOf lam := le_max_right _ _
  have e1 : 326 / 100000 * (lam - 27 / 2) ≤ etaOf lam := le_max_left _ _
  set x := lam / 90 with hx
  have hl : lam = 90 * x := by rw [hx]; ring
  rw [hl] at e1 h
  rw [hl] at e0
  rw [hl]
  generalize etaOf (90 * x) = eta at *
  have key : 2 * |x| ≤ 95 / 100 * (x ^ 2 + 1 + eta) := by
    rcases le_total 0 x with c | c
    · rw [abs_of_nonneg c]
      nlinarith [sq_nonneg (x - 9 / 10)]
    · rw [abs_of_nonpos c]
      nlinarith [sq_nonneg x]
  have h2 : (2 * |x|) ^ 2 ≤ (95 / 100 * (x ^ 2 + 1 + eta)) ^ 2 := pow_le_pow_left₀ (by positivity) key 2
  rw [mul_pow, sq_abs, mul_pow] at h2
  linarith

/-- the imperfection parameter -/
theorem eta_near (hA : Rounded A u) {lam lam' τ : ℝ} (hτ : 110 * u ≤ τ) (h1 : 1000 * τ ≤ 1) (h : |lam' - lam| ≤ τ * |lam|) :
    |max (A.mul (A.lit (326 / 100000)) (A.sub lam' (A.lit (27 / 2)))) 0 - etaOf lam| ≤ 1 / 5 * τ * (1 + (lam / 90) ^ 2) := by
  have h0 := hA.nonneg
  have hτ0 : 0 ≤ τ := by linarith
  have uu : u * u ≤ 1 / 1000 * u := mul_le_mul_of_nonneg_right (by linarith) h0
  have uτ : u * τ ≤ u / 1000 := by nlinarith
  have e1 : ((27 / 2 : ℚ) : ℝ) = 27 / 2 := by norm_num
  have e2 : ((326 / 100000 : ℚ) : ℝ) = 326 / 100000 := by norm_num
  have l1 := hA.lit (27 / 2)
  have l2 := hA.lit (326 / 100000)
  rw [e1, abs_of_pos (show (0 : ℝ) < 27 / 2 by norm_num)] at l1
  rw [e2, abs_of_pos (show (0 : ℝ) < 326 / 100000 by norm_num)] at l2
  have hb : |lam| ≤ 45 * (1 + (lam / 90) ^ 2) := by
    have := sq_nonneg (|lam| / 90 - 1)
    have e : (|lam| / 90) ^ 2 = (lam / 90) ^ 2 := by rw [div_pow, div_pow, sq_abs]
    nlinarith
  have hl0 := abs_nonneg lam
  have hul : 0 ≤ u * |lam| := mul_nonneg h0 hl0
  have hτl : 0 ≤ τ * |lam| := mul_nonneg hτ0 hl0
  have huτl : u * (τ * |lam|) ≤ 1 / 1000 * (τ * |lam|) := mul_le_mul_of_nonneg_right (by linarith) hτl
  have hul' : 110 * u * |lam| ≤ τ * |lam| := mul_le_mul_of_nonneg_right hτ hl0
  have hul'' : u * u * |lam| ≤ 1 / 1000 * u * |lam| := mul_le_mul_of_nonneg_right uu hl0
  have a1 : |lam - 27 / 2| ≤ |lam| + 27 / 2 := by
    refine (abs_sub _ _).trans ?_
    rw [abs_of_pos (show (0 : ℝ) < 27 / 2 by norm_num)]
  have s : |A.sub lam' (A.lit (27 / 2)) - (lam - 27 / 2)| ≤ 11 / 10 * (τ * |lam|) + 30 * u := by
    have := round_abs h0 (hA.sub lam' _) (minus_near h l1)
    have := mul_le_mul_of_nonneg_left a1 h0
    nlinarith
  have m : |A.mul (A.lit (326 / 100000)) (A.sub lam' (A.lit (27 / 2))) - 326 / 100000 * (lam - 27 / 2)| ≤
      326 / 100000 * (13 / 10 * (τ * |lam|) + 80 * u) := by
    have m := prod_near l2 s
    rw [abs_of_pos (show (0 : ℝ) < 326 / 100000 by norm_num)] at m
    have h3 := mul_le_mul_of_nonneg_left a1 h0
    have m' := m.trans (show _ ≤ 326 / 100000 * (12 / 10 * (τ * |lam|) + 50 * u) by nlinarith)
    have := round_abs h0 (hA.mul _ _) m'
    rw [abs_mul, abs_of_pos (show (0 : ℝ) < 326 / 100000 by norm_num)] at this
    nlinarith
  unfold etaOf
  refine (abs_max_sub_max_le_abs _ _ 0).trans (m.trans ?_)
  have := mul_le_mul_of_nonneg_left hb hτ0
  have p : 0 ≤ τ * (lam / 90) ^ 2 := by positivity
  nlinarith

/-- `ξ` -/
theorem xi_acc (hA : Rounded A u) {lam lam' τ : ℝ} (h0l : lam ≠ 0) (hτ : 110 * u ≤ τ) (h1 : 3700 * τ ≤ 1) (h : |lam' - lam| ≤ τ * |lam|) :
    ∃ x', S6R.xi A lam' (max (A.mul (A.lit (326 / 100000)) (A.sub lam' (A.lit (27 / 2)))) 0) = .ok x' ∧
      Acc (30 * τ) x' (((lam / 90) ^ 2 + 1 + etaOf lam) / (2 * (lam / 90) ^ 2)) := by
  have h0 := hA.nonneg
  have hτ0 : 0 ≤ τ := by linarith
  have hu1 : u ≤ 1 / 2 := by linarith
  have rr := fun y => Acc.refl le_rfl y
  have he := eta_near hA hτ (by linarith) h
  have e0 : 0 ≤ etaOf lam := le_max_right _ _
  have al := Acc.of_rel hτ0 (by linarith) h
  have av := hA.accSq hu1 (hA.accDiv hu1 al (rr 90))
  have pv : 0 < (lam / 90) ^ 2 := by positivity
  have av1 := hA.accAdd hu1 pv.le zero_le_one av (Acc.refl (by linarith) 1)
  have b1 := (av1.mono (t' := 51 / 10 * τ) (by linarith)).rel (by linarith) (by linarith)
  rw [abs_of_pos (show 0 < (lam / 90) ^ 2 + 1 by linarith)] at b1
  have b2 := round_abs h0 (hA.add _ _) (plus_near b1 he)
  rw [abs_of_pos (show 0 < (lam / 90) ^ 2 + 1 + etaOf lam by linarith)] at b2
  have b3 : |A.add (A.add (A.sq (A.div lam' 90)) 1) (max (A.mul (A.lit (326 / 100000)) (A.sub lam' (A.lit (27 / 2)))) 0) -
      ((lam / 90) ^ 2 + 1 + etaOf lam)| ≤ 12 * τ * |(lam / 90) ^ 2 + 1 + etaOf lam| := by
    rw [abs_of_pos (show 0 < (lam / 90) ^ 2 + 1 + etaOf lam by linarith)]
    refine b2.trans ?_
    generalize (lam / 90) ^ 2 = v at *
    generalize etaOf lam = eta at *
    have g1 : 0 ≤ τ * (v + 1) := by positivity
    have g2 : 0 ≤ τ * eta := by positivity
    have g3 : u * (τ * (v + 1)) ≤ τ * (v + 1) / 1000 := by nlinarith
    have g4 : u * (v + 1) ≤ τ * (v + 1) / 110 := by nlinarith
    have g5 : u * eta ≤ τ * eta / 110 := by nlinarith
    have e1 : 2 * (51 / 10 * τ) * (v + 1) + 1 / 5 * τ * (1 + v) + u * (v + 1 + eta + (2 * (51 / 10 * τ) * (v + 1) + 1 / 5 * τ * (1 + v))) =
      52 / 5 * (τ * (v + 1)) + u * (v + 1) + u * eta + 52 / 5 * (u * (τ * (v + 1))) := by ring
    rw [e1]
    linarith
  have aS := Acc.of_rel (by linarith) (by linarith) b3
  have a2 := hA.accMul hu1 (rr 2) av
  have hne : A.mul 2 (A.sq (A.div lam' 90)) ≠ 0 := a2.ne_zero (by positivity)
  refine ⟨_, Arith.quot_ok _ hne, ?_⟩
  exact (hA.accDiv hu1 aS a2).mono (by linarith)

set_option maxHeartbeats 1000000 in
/-- the last step: `ξ (1 - √(1 - (90 / (ξ λ))²))` -/
theorem fromXi_acc (hA : Rounded A u) {lam lam' xi xi' τ W : ℝ} (h0l : lam ≠ 0) (hxi : 0 < xi) (hτ : 110 * u ≤ τ)
    (hW : W = (90 / (xi * lam)) ^ 2) (hW1 : W ≤ 9025 / 10000) (hE : 3700 * τ + 100 * u / W ≤ 1)
    (h : |lam' - lam| ≤ τ * |lam|) (ax : Acc (30 * τ) xi' xi) :
    ∃ a', S6R.fromXi A xi' lam' = .ok a' ∧ Acc (1779 * τ + 24 * u / W) a' (xi * (1 - √(1 - W))) ∧ 0 < xi * (1 - √(1 - W)) := by
  have h0 := hA.nonneg
  have hτ0 : 0 ≤ τ := by linarith
  have hWp : 0 < W := by rw [hW]; positivity
  have huW : 0 ≤ u / W := by positivity
  have e100 : 100 * u / W = 100 * (u / W) := by ring
  have e24 : 24 * u / W = 24 * (u / W) := by ring
  rw [e100] at hE
  rw [e24]
  have h1 : 3700 * τ ≤ 1 := by linarith
  have hu1 : u ≤ 1 / 2 := by linarith
  have rr := fun y => Acc.refl le_rfl y
  have al := Acc.of_rel hτ0 (by linarith) h
  have am := hA.accMul hu1 ax al
  have hne : A.mul xi' lam' ≠ 0 := am.ne_zero (mul_ne_zero hxi.ne' h0l)
  have at' := hA.accDiv hu1 (rr 90) am
  have asq := (hA.accSq hu1 at').mono (t' := 67 * τ) (by linarith)
  rw [← hW] at asq
  have r1 := asq.rel (by linarith) (by linarith)
  rw [abs_of_pos hWp] at r1
  have hτW : τ * W ≤ τ := mul_le_of_le_one_right hτ0 (by linarith)
  have hτW0 : 0 ≤ τ * W := by positivity
  have huτ : u * (τ * W) ≤ 1 / 1000 * (τ * W) := mul_le_mul_of_nonneg_right (by linarith) hτW0
  have r2 := round_abs h0 (hA.sub 1 _) (minus_near (x := 1) (x' := 1) (a := 0) (by simp) r1)
  rw [abs_of_pos (show 0 < 1 - W by linarith)] at r2
  have r3 : |A.sub 1 (A.sq (A.div 90 (A.mul xi' lam'))) - (1 - W)| ≤ 135 * (τ * W) + u := by
    refine r2.trans ?_
    have : 0 ≤ u * W := by positivity
    have e : 0 + 2 * (67 * τ) * W + u * (1 - W + (0 + 2 * (67 * τ) * W)) = 134 * (τ * W) + u - u * W + 134 * (u * (τ * W)) := by ring
    rw [e]
    linarith
  have root1 : A.root (A.sub 1 (A.sq (A.div 90 (A.mul xi' lam')))) = .ok (A.sqrt (A.sub 1 (A.sq (A.div 90 (A.mul xi' lam'))))) := by
    apply Arith.root_ok
    rw [abs_le] at r3
    linarith [r3.1]
  set z' := A.sub 1 (A.sq (A.div 90 (A.mul xi' lam'))) with hz'
  have hz0 : 0 ≤ z' := by
    rw [abs_le] at r3
    linarith [r3.1]
  set c := √(1 - W) with hc
  have hc2 : c ^ 2 = 1 - W := Real.sq_sqrt (by linarith)
  have hc0 : 31 / 100 ≤ c := Real.le_sqrt_of_sq_le (by norm_num; linarith)
  have hc1 : c < 1 := by nlinarith
  have hz2 := Real.sq_sqrt hz0
  have hzs := Real.sqrt_nonneg z'
  have r4 : |√z' - c| ≤ 436 * (τ * W) + 33 / 10 * u := by
    have e : |√z' - c| * (√z' + c) = |z' - (1 - W)| := by
      rw [← hc2]
      nth_rewrite 3 [← hz2]
      rw [show √z' ^ 2 - c ^ 2 = (√z' - c) * (√z' + c) by ring, abs_mul, abs_of_pos (show 0 < √z' + c by linarith)]
    have : |√z' - c| * (31 / 100) ≤ |√z' - c| * (√z' + c) := mul_le_mul_of_nonneg_left (by linarith) (abs_nonneg _)
    linarith
  have sq' : |A.sqrt z' - √z'| ≤ u * |√z'| := by rw [abs_of_nonneg hzs]; exact hA.sqrt z' hz0
  have r5 : |A.sqrt z' - c| ≤ 4365 / 10 * (τ * W) + 45 / 10 * u := by
    have := round_abs h0 sq' r4
    rw [abs_of_pos (show 0 < c by linarith)] at this
    have g1 : u * c ≤ u := mul_le_of_le_one_right h0 hc1.le
    have g2 : u * u ≤ 1 / 1000 * u := mul_le_mul_of_nonneg_right (by linarith) h0
    have e : u * (c + (436 * (τ * W) + 33 / 10 * u)) = u * c + 436 * (u * (τ * W)) + 33 / 10 * (u * u) := by ring
    rw [e] at this
    linarith
  have r6 : |A.sub 1 (A.sqrt z') - (1 - c)| ≤ 437 * (τ * W) + 6 * u := by
    have := round_abs h0 (hA.sub 1 _) (minus_near (x := 1) (x' := 1) (a := 0) (by simp) r5)
    rw [abs_of_pos (show 0 < 1 - c by linarith)] at this
    have g1 : 0 ≤ u * c := by positivity
    have g2 : u * u ≤ 1 / 1000 * u := mul_le_mul_of_nonneg_right (by linarith) h0
    have e : u * (1 - c + (0 + (4365 / 10 * (τ * W) + 45 / 10 * u))) = u - u * c + 4365 / 10 * (u * (τ * W)) + 45 / 10 * (u * u) := by ring
    rw [e] at this
    linarith
  have hWc : W / 2 ≤ 1 - c := by nlinarith
  have r7 : |A.sub 1 (A.sqrt z') - (1 - c)| ≤ (874 * τ + 12 * (u / W)) * |1 - c| := by
    rw [abs_of_pos (show 0 < 1 - c by linarith)]
    refine r6.trans ?_
    have : (874 * τ + 12 * (u / W)) * (W / 2) = 437 * (τ * W) + 6 * u := by field_simp; ring
    rw [← this]
    exact mul_le_mul_of_nonneg_left hWc (by positivity)
  have ac := Acc.of_rel (by positivity) (by linarith) r7
  refine ⟨A.mul xi' (A.sub 1 (A.sqrt z')), ?_, ?_, mul_pos hxi (by linarith)⟩
  · simp only [S6R.fromXi, Arith.quot_ok _ hne, Except.bind_ok', ← hz', root1]
    rfl
  · exact (hA.accMul hu1 ax ac).mono (by linarith)

end BeamDesign
