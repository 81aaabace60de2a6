import Verif.Model.RoundedUnsym
import Verif.Spec.RoundedTorsion
import Verif.Spec.Unsymmetric

/-!
# What is claimed about unsymmetric sections in floating point
-/

namespace BeamDesign.Spec

/-- The stress `F` is a simple root of the cubic that is solved for the member: the real parts of the other two roots are above it by a
fraction of at least `g`. -/
def Separated (m : Member) (F g : ℝ) : Prop :=
  ∃ (q : S6.Cubic) (z w : ℂ), S6.cubic m = .ok q ∧ (1 + g) * F ≤ z.re ∧ (1 + g) * F ≤ w.re ∧
    ∀ x : ℂ, q.a * x ^ 3 - q.b * x ^ 2 + q.c * x - q.d = q.a * (x - F) * (x - z) * (x - w)

/-- `v` is the smallest real root of the cubic with these coefficients -/
def LeastRoot (q : S6R.Cubic ℝ) (v : ℝ) : Prop :=
  q.a * v ^ 3 - q.b * v ^ 2 + q.c * v - q.d = 0 ∧ ∀ f < v, q.a * f ^ 3 - q.b * f ^ 2 + q.c * f - q.d < 0

/-- the root finder gives the smallest real root of this cubic with a relative error of at most `η` -/
def Finds (find : S6R.Cubic ℝ → Py ℝ) (η : ℝ) (q : S6R.Cubic ℝ) : Prop :=
  ∀ v, 0 < v → LeastRoot q v → ∃ x, find q = .ok x ∧ |x - v| ≤ η * v

/-- the ratio of the polar second moments about the shear centre and about the centroid -/
noncomputable def polar (m : Member) : ℝ := (m.rx ^ 2 + m.ry ^ 2 + m.xo ^ 2 + m.yo ^ 2) / (m.rx ^ 2 + m.ry ^ 2)

/-- the condition number of the stress of an unsymmetric section -/
noncomputable def unsymCond (m : Member) (g : ℝ) : ℝ := polar m * (3 + 4 / g) ^ 2

end BeamDesign.Spec
