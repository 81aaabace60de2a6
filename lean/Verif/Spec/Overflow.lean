import Verif.Spec.Load

/-!
# What C122 asks of a table
-/

namespace BeamDesign.Spec

variable {K : Type} [Field K] [LinearOrder K]

/-- different positions of the table are at least `gap` apart, and no load of the component is larger than `size` -/
structure Moderate (gap size : K) (c : LComp) (rows : List (LRow K)) : Prop where
  gaps : ∀ a ∈ rows, ∀ b ∈ rows, a.pos < b.pos → gap ≤ b.pos - a.pos
  sizes : ∀ r ∈ rows, |entry r c| ≤ size

end BeamDesign.Spec
