import Verif.Model.S7
import Mathlib.Analysis.SpecialFunctions.Pow.Real

/-!
# Python float operations on the reals

The formulas of `S5.py`, `S5_Shear.py`, `S6.py` and of the local buckling functions use square roots
and powers, so they are modelled on the reals with exact arithmetic (no rounding, no overflow).
`math.pi` is the exact value of the double, `piD`.
-/

namespace BeamDesign

/-- `a / b` on floats: `ZeroDivisionError` when `b` is zero -/
noncomputable def rdiv (a b : ℝ) : Py ℝ := if b = 0 then .error .zeroDivision else .ok (a / b)

/-- `x ** 0.5` on a float.  Python gives a complex number for a negative `x`: outside the model. -/
noncomputable def rsqrt (x : ℝ) : Py ℝ := if x < 0 then .error .outsideModel else .ok (Real.sqrt x)

/-- `x ** y` on a positive float base (the only use is `0.658 ** (λ_c * λ_c)`, S6.py 872) -/
noncomputable def rpow (x y : ℝ) : ℝ := x ^ y

end BeamDesign
