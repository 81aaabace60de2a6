import Verif.Spec.Solvers

/-!
# Functions whose slope is bounded from both sides
-/

namespace BeamDesign.Spec

variable {K : Type} [Field K] [LinearOrder K]

/-- Between any two points the function rises by at least `m` and at most `M` times their distance. -/
def Slopes (m M : K) (g : K → K) : Prop :=
  ∀ x y, x < y → m * (y - x) ≤ g y - g x ∧ g y - g x ≤ M * (y - x)

end BeamDesign.Spec
