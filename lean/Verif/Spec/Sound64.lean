import Verif.Spec.Anywhere

/-!
# Specification of a safe design on IEEE doubles
-/

namespace BeamDesign.Spec

/-- The loads of load case `k` are machine numbers of any size, stored at positions on the grid of machine numbers. -/
def LoadsOnGrid (rnd : ℚ → ℚ) (F : ℚ → Prop) (b : Beam ℚ (Sect ℚ)) (ls : List (Num ℚ)) (k : ℤ) : Prop :=
  MachineLoads F b k ∧ ∀ i t r, HasTable b k i t → r ∈ t.rows → OnGrid rnd ls i r.pos

end BeamDesign.Spec
