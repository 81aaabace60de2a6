import Verif.Model.RoundedTorsion

/-!
# IEEE double precision with gradual underflow and overflow

The arithmetic of CPython's floats, on real numbers.  Simplified: the infinities and NaN are represented by the number `2 ^ 1024`, which is
not a double, and powers are rounded correctly.
-/

namespace BeamDesign

/-- rounding to the nearest double: multiples of `2 ^ -1074` below `2 ^ -1022`, 53 digits up to `2 ^ 1024`, infinity beyond -/
noncomputable def ieee (x : ℝ) : ℝ :=
  if |x| < 2 ^ (-1022 : ℤ) then roundEvenR (x / 2 ^ (-1074 : ℤ)) * 2 ^ (-1074 : ℤ)
  else if 2 ^ (1024 : ℤ) ≤ |fl53 x| then 2 ^ (1024 : ℤ)
  else fl53 x

/-- the arithmetic of CPython's floats -/
noncomputable def Arith.ieee : Arith ℝ where
  add := fun a b => BeamDesign.ieee (a + b)
  sub := fun a b => BeamDesign.ieee (a - b)
  mul := fun a b => BeamDesign.ieee (a * b)
  div := fun a b => BeamDesign.ieee (a / b)
  sqrt := fun a => BeamDesign.ieee (Real.sqrt a)
  sq := fun a => BeamDesign.ieee (a ^ 2)
  cube := fun a => BeamDesign.ieee (a ^ 3)
  lit := fun q => BeamDesign.ieee q

end BeamDesign
