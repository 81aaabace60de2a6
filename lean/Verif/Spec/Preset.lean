import Verif.Model.Preset
import Verif.Model.Shipped
import Verif.Model.SectProps

/-!
# Notions used in the statements on default reference stresses
-/

namespace BeamDesign.Spec

/-- The reference stress of AS4100, 250 MPa, in pascals -/
def reference : ℝ := 250000000

/-- `fy` (in pascals) is a yield stress of a steel shipped with the library, at some thickness. -/
def ShippedYield (fy : ℚ) : Prop :=
  ∃ ms name m rows t, Material.loadAll shippedFile = .ok ms ∧ (name, m) ∈ ms ∧
    Material.property m "strengths" = .ok (.table rows) ∧ getF t (.str "Y") rows = .ok fy

end BeamDesign.Spec
