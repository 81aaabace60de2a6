import Verif.Model.Solvers

/-!
# Specification of the solvers
-/

namespace BeamDesign.Spec

variable {K A : Type} [Field K] [LinearOrder K]

/-- `a` and `b` agree within the absolute tolerance `tol` or relatively to 10⁻⁹ (`math.isclose`). -/
def Close (tol a b : K) : Prop :=
  a = b ∨ |b - a| ≤ |b| / 10 ^ 9 ∨ |b - a| ≤ |a| / 10 ^ 9 ∨ |b - a| ≤ tol

/-- `x` lies in the bracket, whichever end is the lower one. -/
def InBracket (lo hi x : K) : Prop := min lo hi ≤ x ∧ x ≤ max lo hi

/-- Halving the sum of two representable numbers gives a representable number between them. -/
def MidBetween (rt : Rt K) (Rep : K → Prop) : Prop :=
  ∀ a b, Rep a → Rep b → Rep (rt.div (rt.add a b) 2) ∧ InBracket a b (rt.div (rt.add a b) 2)

/-- At `x` the function answers the finite number `y`. -/
def Value (f : SolveFun K A) (args : List A) (x y : K) : Prop := f x args = .ok (.fin y)

/-- `s 0, s 1, s 2, ...` are the secant iterates for `f` up to `s (n + 1)`. -/
def SecantSeq (f : SolveFun K A) (args : List A) (s : ℕ → K) (n : ℕ) : Prop :=
  ∀ j, j < n → ∃ y y', Value f args (s j) y ∧ Value f args (s (j + 1)) y' ∧ y' ≠ y ∧
    s (j + 2) = (s j * y' - s (j + 1) * y) / (y' - y)

end BeamDesign.Spec
