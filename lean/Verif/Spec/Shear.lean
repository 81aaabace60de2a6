import Verif.Model.S5

/-!
# Shear capacity of an unstiffened web, as a user of the S5.11 functions computes it
-/

namespace BeamDesign.Spec

open S5Shear

/-- `v` is the shear buckling coefficient times the shear yield capacity of a web of depth `dp` and thickness `tw`. -/
def WebCapacity (dp tw fy lim fref ratio v : ℝ) : Prop :=
  ∃ a, alphaV dp tw fy lim fref = .ok a ∧ v = a * VwGeneric (dp * tw) fy ratio

end BeamDesign.Spec
