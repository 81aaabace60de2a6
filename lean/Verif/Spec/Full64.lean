import Verif.Spec.Sound64
import Verif.Spec.Overflow

/-!
# Specification of data and loads that are not enormous
-/

namespace BeamDesign.Spec

/-- None of the factors, radii and strengths is above `B` in size. -/
def DataUpTo (B : ℚ) (o : AS4100 ℚ) : Prop :=
  |o.phiSteel| ≤ B ∧ |o.kt| ≤ B ∧ |o.alphaU| ≤ B ∧
    ∀ d ∈ o.dsects, |d.radius| ≤ B ∧ ∀ fy fu, Strengths d fy fu → |fy| ≤ B ∧ |fu| ≤ B

/-- All the tables of the beam hold machine numbers at ordered positions within the element; different positions are at least `gap`
apart, and no axial load is above `size`. -/
def LoadsUpTo (F : ℚ → Prop) (gap size : ℚ) (b : Beam ℚ (Sect ℚ)) : Prop :=
  ∀ e ∈ b.elements, ∀ c t, e.loads.lookup c = some ⟨some t⟩ → WellFormed t.rows ∧ Machine F t.rows ∧ Moderate gap size .N t.rows

end BeamDesign.Spec
