import Verif.Model.Solvers64
import Verif.Spec.Solvers
import Verif.Spec.Rounding

/-!
# Specification of the solvers on doubles
-/

namespace BeamDesign.Spec

/-- `sys.float_info.max` -/
def maxDouble : ℚ := 2 ^ 1024 - 2 ^ 971

/-- a finite double -/
def FiniteDouble (x : ℚ) : Prop := IsDouble x ∧ |x| ≤ maxDouble

/-- Between `lo` and `hi` the Python function `f` takes finite doubles to the finite doubles given by `g`. -/
def Computes {A : Type} (f : SolveFun64 A) (args : List A) (g : ℚ → ℚ) (lo hi : ℚ) : Prop :=
  ∀ x, FiniteDouble x → InBracket lo hi x → f (.fin x) args = .ok (.fin (g x)) ∧ FiniteDouble (g x)

/-- The largest distance of the two ends of the last bracket around `x`: `tol` or 10⁻⁹ times `x`, give or take rounding. -/
def lastWidth (tol x : ℚ) : ℚ := (1 + 2 ^ (-20 : ℤ)) * max tol (|x| / 10 ^ 9)

/-- `x` is as good an answer as the tolerance allows: `g` is within `tol` of zero there, or `x` lies between two doubles of the bracket,
as close together as the tolerance asks, between which `g` changes sign (or at one of which it is within `tol` of zero). -/
def Solves (g : ℚ → ℚ) (tol lo hi x : ℚ) : Prop :=
  |g x| ≤ tol ∨ ∃ a b, FiniteDouble a ∧ FiniteDouble b ∧ InBracket lo hi a ∧ InBracket lo hi b ∧ InBracket a b x ∧
    |b - a| ≤ lastWidth tol x ∧ (g a * g b ≤ 0 ∨ |g b| ≤ tol)

/-- The guesses of the secant method: `s 0` and `s 1` are the given ones, and each of the next `n` is the zero of the line through the two
before it, (x₁ f(x₂) - x₂ f(x₁)) / (f(x₂) - f(x₁)), computed in floating point. -/
def SecantGuesses {A : Type} (f : SolveFun64 A) (args : List A) (lo hi : Flt) (s : ℕ → Flt) (n : ℕ) : Prop :=
  s 0 = lo ∧ s 1 = hi ∧ ∀ k < n, ∃ c d, f (s (k + 1)) args = .ok c ∧ f (s k) args = .ok d ∧
    F64.div (F64.sub (F64.mul (s k) c) (F64.mul (s (k + 1)) d)) (F64.sub c d) = .ok (s (k + 2))

end BeamDesign.Spec
