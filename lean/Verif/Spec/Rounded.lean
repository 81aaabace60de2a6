import Verif.Model.Rounded
import Verif.Spec.Segment

/-!
# What is assumed of float arithmetic in the section 5 and section 6 formulas
-/

namespace BeamDesign.Spec

/-- The standard model of floating point arithmetic: the result of every operation has a relative error of at most `u`.  IEEE double
precision has `u = 2 ^ -53` for `+ - * /`; powers of the C library are accurate to one unit in the last place, `2 ^ -52`.  Results that
overflow or underflow are excluded by this model. -/
structure Rounded (A : Arith ℝ) (u : ℝ) : Prop where
  add : ∀ a b, |A.add a b - (a + b)| ≤ u * |a + b|
  sub : ∀ a b, |A.sub a b - (a - b)| ≤ u * |a - b|
  mul : ∀ a b, |A.mul a b - a * b| ≤ u * |a * b|
  div : ∀ a b, |A.div a b - a / b| ≤ u * |a / b|
  sqrt : ∀ a, 0 ≤ a → |A.sqrt a - √a| ≤ u * √a
  sq : ∀ a, |A.sq a - a ^ 2| ≤ u * a ^ 2
  cube : ∀ a, |A.cube a - a ^ 3| ≤ u * |a ^ 3|
  lit : ∀ q : ℚ, |A.lit q - q| ≤ u * |(q : ℝ)|

/-- `M` is the value a caller gets for the segment by chaining the functions of `S5.py` in the arithmetic `A`. -/
def Segment.Computed (A : Arith ℝ) (s : Segment) (M : ℝ) : Prop :=
  ∃ k Mo a, S5R.kt A s.d1 s.l s.tf s.tw s.nw s.code = .ok k ∧
    S5R.Mo A (S5R.le A k s.kl s.kr s.l) s.Iy s.J s.Iw s.betaX s.E s.G = .ok Mo ∧
    S5R.alphaS A (S5R.Ms A s.fy s.Ze) Mo = .ok a ∧ M = S5R.Mb A (S5R.Ms A s.fy s.Ze) s.alphaM a

/-- `v` is the shear capacity of a web of depth `dp` and thickness `tw` that a caller gets from the functions of `S5_Shear.py` in the
arithmetic `A`: `s5_11_5_α_v(...) * s5_11_4_V_w_Generic(A_w=d_p * t_w, ...)` -/
def WebComputed (A : Arith ℝ) (dp tw fy lim fref ratio v : ℝ) : Prop :=
  ∃ a, S5ShearR.alphaV A dp tw fy lim fref = .ok a ∧ v = A.mul a (S5ShearR.VwGeneric A (A.mul dp tw) fy ratio)

/-- `v` is a value with the relative error `ε` for the positive number `w` -/
def Within (ε v w : ℝ) : Prop := 0 < w ∧ |v - w| ≤ ε * w

end BeamDesign.Spec
