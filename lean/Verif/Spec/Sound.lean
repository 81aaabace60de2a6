import Verif.Spec.Capacity
import Verif.Spec.Safe

/-!
# Specification of a design that is safe in real arithmetic
-/

namespace BeamDesign.Spec

/-- In load case `k` the axial load is nowhere, on any element, above `f` times the true design capacity of the element. -/
def TrulyNowhereAbove (o : AS4100 ℚ) (b : Beam ℚ (Sect ℚ)) (k : ℤ) (f : ℝ) : Prop :=
  ∀ i t e d c x v, HasTable b k i t → b.elements[i]? = some e → e.sect = .circle d.radius (some d.material) →
    TrueCapacity o d c → 0 ≤ x → x ≤ 1 → AxialAt t.rows x v → (v : ℝ) ≤ f * c

/-- The loads of load case `k` are machine numbers, stored at positions on the grid of machine numbers, and no stored axial
load is above 5000 times the true design capacity of any section. -/
def GridLoads (rnd : ℚ → ℚ) (F : ℚ → Prop) (o : AS4100 ℚ) (b : Beam ℚ (Sect ℚ)) (ls : List (Num ℚ)) (k : ℤ) : Prop :=
  MachineLoads F b k ∧ ∀ i t r, HasTable b k i t → r ∈ t.rows → OnGrid rnd ls i r.pos ∧
    ∀ d ∈ o.dsects, ∀ c, TrueCapacity o d c → (r.n : ℝ) ≤ 5000 * c

end BeamDesign.Spec
