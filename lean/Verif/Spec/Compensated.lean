import Verif.Spec.Beam
import Verif.Spec.Rounding

/-!
# What is added up: doubles that are not negative
-/

namespace BeamDesign.Spec

/-- The numbers are Python floats, not negative. -/
def FloatsOnly (ls : List (Num ℚ)) : Prop := ∀ l ∈ ls, l.isInt = false ∧ 0 ≤ l.val ∧ IsDouble l.val

/-- `v` is `w` up to the relative error `ε` -/
def RightTo (ε v w : ℚ) : Prop := |v - w| ≤ ε * w

end BeamDesign.Spec
