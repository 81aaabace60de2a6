import Verif.Model.Beam
import Verif.Model.S5

/-!
# Weld capacities with the `sum` of every version of Python
-/

namespace BeamDesign.S5Shear

variable {K : Type} [Field K] [LinearOrder K]

/-- S5_Shear.py 150-185 `s5_11_4_V_w_Weld` for a list of ints and floats; a single float is wrapped in a list (lines 180-181) -/
def VwWeldPy (rt : Rt K) (vs : List (Num K)) (Q I : K) : Py K := pyDiv rt (rt.mul (pySum rt vs).val I) Q

end BeamDesign.S5Shear
