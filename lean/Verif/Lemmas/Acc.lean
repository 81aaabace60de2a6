import Verif.Spec.Rounded
import Verif.Lemmas.Real
import Mathlib.Tactic.Positivity
import Mathlib.Tactic.Linarith
import Mathlib.Tactic.FieldSimp
import Mathlib.Tactic.Ring
import Mathlib.Tactic.NormNum
import Mathlib.Analysis.SpecialFunctions.Exp
import Mathlib.Analysis.Complex.Exponential

/-!
# A calculus of relative errors
-/

namespace BeamDesign

open Spec

/-- `x` is `y` times a factor between `e^-t` and `e^t` -/
def Acc (t x y : ℝ) : Prop := ∃ ρ, x = y * ρ ∧ Real.exp (-t) ≤ ρ ∧ ρ ≤ Real.exp t

namespace Acc

variable {t t' x y x' y' : ℝ}

theorem refl {t : ℝ} (ht : 0 ≤ t) (y : ℝ) : Acc t y y :=
  ⟨1, (mul_one y).symm, Real.exp_le_one_iff.2 (by linarith), Real.one_le_exp ht⟩

theorem mono (htt : t ≤ t') (h : Acc t x y) : Acc t' x y := by
  obtain ⟨ρ, e, a, b⟩ := h
  exact ⟨ρ, e, (Real.exp_le_exp.2 (by linarith)).trans a, b.trans (Real.exp_le_exp.2 htt)⟩

theorem mul (h : Acc t x y) (h' : Acc t' x' y') : Acc (t + t') (x * x') (y * y') := by
  obtain ⟨ρ, rfl, a, b⟩ := h
  obtain ⟨ρ', rfl, a', b'⟩ := h'
  have p := (Real.exp_pos (-t)).trans_le a
  have p' := (Real.exp_pos (-t')).trans_le a'
  refine ⟨ρ * ρ', by ring, ?_, ?_⟩
  · rw [neg_add, Real.exp_add]; exact mul_le_mul a a' (Real.exp_pos _).le p.le
  · rw [Real.exp_add]; exact mul_le_mul b b' p'.le (Real.exp_pos _).le

theorem inv (h : Acc t x y) : Acc t x⁻¹ y⁻¹ := by
  obtain ⟨ρ, rfl, a, b⟩ := h
  have p := (Real.exp_pos (-t)).trans_le a
  refine ⟨ρ⁻¹, by rw [mul_inv], ?_, ?_⟩
  · rw [Real.exp_neg]; exact inv_anti₀ p b
  · have := inv_anti₀ (Real.exp_pos _) a
    rwa [Real.exp_neg, inv_inv] at this

theorem div (h : Acc t x y) (h' : Acc t' x' y') : Acc (t + t') (x / x') (y / y') := by
  rw [div_eq_mul_inv, div_eq_mul_inv]
  exact h.mul h'.inv

theorem sqrt (h : Acc t x y) : Acc (t / 2) (√x) (√y) := by
  obtain ⟨ρ, rfl, a, b⟩ := h
  have p := (Real.exp_pos (-t)).trans_le a
  have e : ∀ s : ℝ, Real.exp (s / 2) = √(Real.exp s) := fun s => Real.exp_half s
  refine ⟨√ρ, Real.sqrt_mul' _ p.le, ?_, ?_⟩
  · rw [← neg_div, e]; exact Real.sqrt_le_sqrt a
  · rw [e]; exact Real.sqrt_le_sqrt b

theorem pow (h : Acc t x y) (k : ℕ) : Acc (k * t) (x ^ k) (y ^ k) := by
  obtain ⟨ρ, rfl, a, b⟩ := h
  have p := (Real.exp_pos (-t)).trans_le a
  refine ⟨ρ ^ k, mul_pow _ _ _, ?_, ?_⟩
  · rw [← mul_neg, Real.exp_nat_mul]; exact pow_le_pow_left₀ (Real.exp_pos _).le a k
  · rw [Real.exp_nat_mul]; exact pow_le_pow_left₀ p.le b k

theorem nonneg (h : Acc t x y) (hy : 0 ≤ y) : 0 ≤ x := by
  obtain ⟨ρ, rfl, a, _⟩ := h
  exact mul_nonneg hy ((Real.exp_pos _).le.trans a)

theorem pos (h : Acc t x y) (hy : 0 < y) : 0 < x := by
  obtain ⟨ρ, rfl, a, _⟩ := h
  exact mul_pos hy ((Real.exp_pos _).trans_le a)

theorem ne_zero (h : Acc t x y) (hy : y ≠ 0) : x ≠ 0 := by
  obtain ⟨ρ, rfl, a, _⟩ := h
  exact mul_ne_zero hy ((Real.exp_pos _).trans_le a).ne'

/-- for a positive number the two bounds say it all -/
theorem iff (hy : 0 < y) : Acc t x y ↔ y * Real.exp (-t) ≤ x ∧ x ≤ y * Real.exp t := by
  constructor
  · rintro ⟨ρ, rfl, a, b⟩
    exact ⟨mul_le_mul_of_nonneg_left a hy.le, mul_le_mul_of_nonneg_left b hy.le⟩
  · rintro ⟨a, b⟩
    refine ⟨x / y, by field_simp, ?_, ?_⟩
    · rw [le_div_iff₀ hy, mul_comm]; exact a
    · rw [div_le_iff₀ hy, mul_comm]; exact b

theorem add (hy : 0 < y) (hy' : 0 < y') (h : Acc t x y) (h' : Acc t x' y') : Acc t (x + x') (y + y') := by
  rw [iff hy] at h
  rw [iff hy'] at h'
  rw [iff (by positivity), add_mul, add_mul]
  exact ⟨add_le_add h.1 h'.1, add_le_add h.2 h'.2⟩

theorem add_nonneg (hy : 0 ≤ y) (hy' : 0 ≤ y') (h : Acc t x y) (h' : Acc t x' y') :
    Acc t (x + x') (y + y') := by
  rcases hy.eq_or_lt with e | e
  · obtain ⟨ρ, hx, _⟩ := h
    rw [← e, zero_mul] at hx
    rw [hx, ← e, zero_add, zero_add]; exact h'
  rcases hy'.eq_or_lt with e' | e'
  · obtain ⟨ρ, hx, _⟩ := h'
    rw [← e', zero_mul] at hx
    rw [hx, ← e', add_zero, add_zero]; exact h
  exact h.add e e' h'

theorem min (hy : 0 < y) (hy' : 0 < y') (h : Acc t x y) (h' : Acc t x' y') : Acc t (min x x') (min y y') := by
  have p := (Real.exp_pos (-t)).le
  have q := (Real.exp_pos t).le
  rw [iff hy] at h
  rw [iff hy'] at h'
  rw [iff (lt_min hy hy'), min_mul_of_nonneg _ _ p, min_mul_of_nonneg _ _ q]
  exact ⟨min_le_min h.1 h'.1, min_le_min h.2 h'.2⟩

theorem trans {z : ℝ} (h : Acc t x y) (h' : Acc t' y z) : Acc (t + t') x z := by
  obtain ⟨ρ, rfl, a, b⟩ := h
  obtain ⟨ρ', rfl, a', b'⟩ := h'
  have p := (Real.exp_pos (-t)).trans_le a
  have p' := (Real.exp_pos (-t')).trans_le a'
  refine ⟨ρ' * ρ, by ring, ?_, ?_⟩
  · rw [neg_add, add_comm, Real.exp_add]; exact mul_le_mul a' a (Real.exp_pos _).le p'.le
  · rw [add_comm, Real.exp_add]; exact mul_le_mul b' b p.le (Real.exp_pos _).le

/-- from a relative error -/
theorem of_rel {ε : ℝ} (h0 : 0 ≤ ε) (h1 : ε ≤ 1 / 2) (h : |x - y| ≤ ε * |y|) : Acc (2 * ε) x y := by
  rcases eq_or_ne y 0 with h2 | h2
  · subst h2
    have hx : x = 0 := by simpa using h
    rw [hx]; exact refl (by linarith) 0
  · have hp := abs_pos.2 h2
    have hr : |x / y - 1| ≤ ε := by
      have : x / y - 1 = (x - y) / y := by field_simp
      rw [this, abs_div, div_le_iff₀ hp]; exact h
    rw [abs_le] at hr
    have e1 := Real.add_one_le_exp (2 * ε)
    refine ⟨x / y, by field_simp, ?_, by linarith⟩
    have : Real.exp (-(2 * ε)) ≤ 1 - ε := by
      rw [Real.exp_neg, inv_le_comm₀ (Real.exp_pos _) (by linarith)]
      refine le_trans ?_ e1
      rw [inv_le_iff_one_le_mul₀ (by linarith)]
      nlinarith
    linarith

/-- to a relative error -/
theorem rel (h0 : 0 ≤ t) (h1 : t ≤ 1) (h : Acc t x y) : |x - y| ≤ 2 * t * |y| := by
  obtain ⟨ρ, rfl, a, b⟩ := h
  have e : y * ρ - y = (ρ - 1) * y := by ring
  rw [e, abs_mul]
  apply mul_le_mul_of_nonneg_right _ (abs_nonneg y)
  have e1 := Real.add_one_le_exp (-t)
  have e2 := Real.abs_exp_sub_one_sub_id_le (x := t) (by rwa [abs_of_nonneg h0])
  rw [abs_le] at e2
  rw [abs_le]
  constructor
  · linarith
  · nlinarith [e2.2]

end Acc

/-! ## The operations -/

section
variable {A : Arith ℝ} {u t t' x y x' y' : ℝ}

theorem Spec.Rounded.nonneg (hA : Rounded A u) : 0 ≤ u := by
  have := hA.add 1 0
  norm_num at this
  exact (abs_nonneg _).trans this

theorem Spec.Rounded.mono {w : ℝ} (hA : Rounded A u) (huw : u ≤ w) : Rounded A w where
  add a b := (hA.add a b).trans (mul_le_mul_of_nonneg_right huw (abs_nonneg _))
  sub a b := (hA.sub a b).trans (mul_le_mul_of_nonneg_right huw (abs_nonneg _))
  mul a b := (hA.mul a b).trans (mul_le_mul_of_nonneg_right huw (abs_nonneg _))
  div a b := (hA.div a b).trans (mul_le_mul_of_nonneg_right huw (abs_nonneg _))
  sqrt a h := (hA.sqrt a h).trans (mul_le_mul_of_nonneg_right huw (Real.sqrt_nonneg _))
  sq a := (hA.sq a).trans (mul_le_mul_of_nonneg_right huw (sq_nonneg _))
  cube a := (hA.cube a).trans (mul_le_mul_of_nonneg_right huw (abs_nonneg _))
  lit q := (hA.lit q).trans (mul_le_mul_of_nonneg_right huw (abs_nonneg _))

theorem Spec.Rounded.accMul (hA : Rounded A u) (h1 : u ≤ 1 / 2) (h : Acc t x y) (h' : Acc t' x' y') :
    Acc (2 * u + (t + t')) (A.mul x x') (y * y') := (Acc.of_rel hA.nonneg h1 (hA.mul x x')).trans (h.mul h')

theorem Spec.Rounded.accDiv (hA : Rounded A u) (h1 : u ≤ 1 / 2) (h : Acc t x y) (h' : Acc t' x' y') :
    Acc (2 * u + (t + t')) (A.div x x') (y / y') := (Acc.of_rel hA.nonneg h1 (hA.div x x')).trans (h.div h')

theorem Spec.Rounded.accAdd (hA : Rounded A u) (h1 : u ≤ 1 / 2) (hy : 0 ≤ y) (hy' : 0 ≤ y') (h : Acc t x y)
    (h' : Acc t x' y') : Acc (2 * u + t) (A.add x x') (y + y') :=
  (Acc.of_rel hA.nonneg h1 (hA.add x x')).trans (h.add_nonneg hy hy' h')

theorem Spec.Rounded.accSq (hA : Rounded A u) (h1 : u ≤ 1 / 2) (h : Acc t x y) : Acc (2 * u + 2 * t) (A.sq x) (y ^ 2) := by
  have := (Acc.of_rel hA.nonneg h1 (x := A.sq x) (y := x ^ 2) (by rw [abs_of_nonneg (sq_nonneg x)]; exact hA.sq x)).trans
    (h.pow 2)
  exact_mod_cast this

theorem Spec.Rounded.accCube (hA : Rounded A u) (h1 : u ≤ 1 / 2) (h : Acc t x y) :
    Acc (2 * u + 3 * t) (A.cube x) (y ^ 3) := by
  have := (Acc.of_rel hA.nonneg h1 (hA.cube x)).trans (h.pow 3)
  exact_mod_cast this

theorem Spec.Rounded.accSqrt (hA : Rounded A u) (h1 : u ≤ 1 / 2) (hy : 0 ≤ y) (h : Acc t x y) :
    Acc (2 * u + t / 2) (A.sqrt x) (√y) := by
  have hx := h.nonneg hy
  exact (Acc.of_rel hA.nonneg h1 (x := A.sqrt x) (y := √x)
    (by rw [abs_of_nonneg (Real.sqrt_nonneg x)]; exact hA.sqrt x hx)).trans h.sqrt

theorem Spec.Rounded.accLit (hA : Rounded A u) (h1 : u ≤ 1 / 2) (q : ℚ) : Acc (2 * u) (A.lit q) (q : ℝ) :=
  Acc.of_rel hA.nonneg h1 (hA.lit q)

/-- a difference: the relative errors are magnified by the ratio of the sum to the difference -/
theorem sub_rel {ε : ℝ} (hx : |x - y| ≤ ε * |y|) (hx' : |x' - y'| ≤ ε * |y'|) :
    |(x - x') - (y - y')| ≤ ε * (|y| + |y'|) := by
  rw [abs_le] at *
  constructor <;> linarith [hx.1, hx.2, hx'.1, hx'.2]

theorem Arith.quot_ok {K : Type} [Field K] [LinearOrder K] (A : Arith K) {a b : K} (h : b ≠ 0) :
    A.quot a b = .ok (A.div a b) := if_neg h

theorem Arith.root_ok {K : Type} [Field K] [LinearOrder K] (A : Arith K) {x : K} (h : 0 ≤ x) :
    A.root x = .ok (A.sqrt x) := if_neg (not_lt.2 h)

end

end BeamDesign
