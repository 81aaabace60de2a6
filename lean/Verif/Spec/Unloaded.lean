import Verif.Spec.AS4100

/-!
# Specification of load cases without loads
-/

namespace BeamDesign.Spec

variable {K S : Type}

/-- On element `i` at least one row of loads is stored for load case `c`. -/
def HasRows (b : Beam K S) (c : ℤ) (i : ℕ) : Prop :=
  ∃ e t, b.elements[i]? = some e ∧ e.loads.lookup c = some ⟨some t⟩ ∧ t.rows ≠ []

end BeamDesign.Spec
