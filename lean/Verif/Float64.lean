import Verif.Numpy
import Mathlib.Data.Int.Log
import Mathlib.Data.Rat.Floor
import Mathlib.Algebra.Order.Field.Rat

/-!
# IEEE 754 binary64 arithmetic

Round to nearest, ties to even, with gradual underflow.  Simplified: there is no overflow
(the exponent has no upper bound), no infinities, no NaN and no signed zero.
-/

namespace BeamDesign

/-- Round to the nearest integer, ties to even. -/
def roundEven (q : ℚ) : ℤ :=
  if q - ⌊q⌋ < 1 / 2 then ⌊q⌋
  else if 1 / 2 < q - ⌊q⌋ then ⌊q⌋ + 1
  else if Even ⌊q⌋ then ⌊q⌋ else ⌊q⌋ + 1

/-- Exponent of the last binary digit of a double near `x`: 53 significant digits, not below `2 ^ -1074`. -/
def exp64 (x : ℚ) : ℤ := max (Int.log 2 |x| - 52) (-1074)

/-- The double nearest to `x`. -/
def rnd64 (x : ℚ) : ℚ := roundEven (x / 2 ^ exp64 x) * 2 ^ exp64 x

/-- The run-time of CPython and numpy on a machine with IEEE doubles. -/
def Rt.binary64 : Rt ℚ where
  add := fun a b => rnd64 (a + b)
  sub := fun a b => rnd64 (a - b)
  mul := fun a b => rnd64 (a * b)
  div := fun a b => rnd64 (a / b)
  qsort := fun l => l.insertionSort (fun a b => a.1 ≤ b.1)

end BeamDesign
