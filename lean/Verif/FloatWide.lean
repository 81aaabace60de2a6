import Verif.Float64

/-!
# Binary floating point arithmetic with unlimited exponents

The arithmetic of IEEE doubles as long as nothing underflows or overflows.
-/

namespace BeamDesign

/-- Exponent of the last of 53 binary digits of `x`. -/
def exp53 (x : ℚ) : ℤ := Int.log 2 |x| - 52

/-- `x` rounded to 53 binary digits, ties to even. -/
def rnd53 (x : ℚ) : ℚ := roundEven (x / 2 ^ exp53 x) * 2 ^ exp53 x

/-- Every operation is the exact one rounded to 53 binary digits.  The unstable sort and the version of Python are left open. -/
structure Rt.Wide (rt : Rt ℚ) : Prop where
  add : ∀ a b, rt.add a b = rnd53 (a + b)
  sub : ∀ a b, rt.sub a b = rnd53 (a - b)
  mul : ∀ a b, rt.mul a b = rnd53 (a * b)
  div : ∀ a b, rt.div a b = rnd53 (a / b)

end BeamDesign
