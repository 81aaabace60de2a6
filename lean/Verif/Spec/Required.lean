import Verif.Spec.Rounding

/-!
# Specification of section 7 in floating point arithmetic
-/

namespace BeamDesign.Spec

/-- A machine number of usual size: between `σ` and `1 / σ`. -/
def Between {K : Type} [Field K] [LinearOrder K] (F : K → Prop) (σ x : K) : Prop := F x ∧ σ ≤ x ∧ x ≤ σ⁻¹

/-- A double between `2 ^ -100` and `2 ^ 100`. -/
def UsualDouble (x : ℚ) : Prop := Between IsDouble (2 ^ (-100 : ℤ)) x

end BeamDesign.Spec
