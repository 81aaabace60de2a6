import Verif.Spec.Load
import Verif.Spec.Rounding

/-!
# Specification of equally spaced positions in double precision
-/

namespace BeamDesign.Spec

/-- `v` stands for the `i`th of `n` equally spaced positions from 0 to 1: it is at most `2 ^ -51` away from it, and the first
and last are exact. -/
def Stands (n i : ℕ) (v : ℚ) : Prop :=
  if i = 0 then v = 0 else if i + 1 = n then v = 1 else |v - i / (n - 1)| ≤ 2 ^ (-51 : ℤ)

end BeamDesign.Spec
