import Verif.Model.Effective
import Verif.Model.S5
import Verif.Model.S6

/-!
# Calls that leave the reference stress to the default argument
-/

namespace BeamDesign

/-- as4100_sect_props.py 227 `s6_2_λ_e_flatplate(b, t, f_y)`: `f_ref=250.0` -/
noncomputable def Effective.lambdaPlatePreset (b t fy : ℝ) : Py ℝ := lambdaPlate b t fy 250

/-- as4100_sect_props.py 241 `s6_2_λ_e_CHS(d_o, t, f_y)`: `f_ref=250.0` -/
noncomputable def Effective.lambdaCHSPreset (d t fy : ℝ) : Py ℝ := lambdaCHS d t fy 250

/-- as4100_sect_props.py 286 `s6_2_A_e_flatplate(b, t, f_y, λ_ey)`: `f_ref=250.0` -/
noncomputable def Effective.aPlatePreset (b t fy ley : ℝ) : Py ℝ := aPlate b t fy ley 250

/-- S5_Shear.py 88-95 `s5_11_5_α_v(d_p=…, t_w=…, f_y=…)`: `slenderness_limit=82`, `f_y_ref=250e6` -/
noncomputable def S5Shear.alphaVPreset (dp tw fy : ℝ) : Py ℝ := alphaV dp tw fy 82 250000000

/-- S6.py 185-187 `s6_3_3_λ_n(k_f=…, l_e=…, r=…, f_y=…)`: `f_ref=250e6` -/
noncomputable def S6.lambdaNPreset (kf le r fy : ℝ) : Py ℝ := lambdaN kf le r fy 250000000

end BeamDesign
