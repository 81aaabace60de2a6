import Verif.Model.Beam

/-!
# Rows of an answer of `get_loads` (C158)
-/

namespace BeamDesign.Spec

variable {K : Type}

/-- The rows of an answer; none if the answer is `None`. -/
def rowsOf : Option (Tab K) → List (K × List (Option K))
  | none => []
  | some t => t.rows

/-- All tables among the answers have the same number of columns. -/
def OneWidth (as : List (Option (Tab K))) : Prop := ∀ t t', some t ∈ as → some t' ∈ as → t.width = t'.width

end BeamDesign.Spec
