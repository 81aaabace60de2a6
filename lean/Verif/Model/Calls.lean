import Verif.Model.S7

/-!
# Section 7 functions called with or without their optional keyword arguments

`none` stands for an argument that is left out.
-/

namespace BeamDesign

variable {K : Type} [Field K] [LinearOrder K]

/-- S7.py 143-191 `s7_1_A_reqd`, with the defaults of 147 (`φ`) and 148 (`α_u`) -/
def S7.AReqdCall (rt : Rt K) (Nt fy fu kt : K) (phi alphaU : Option K) : Py (S7.Areas K) :=
  S7.AReqd rt Nt fy fu kt (phi.getD S7.phi) (alphaU.getD S7.alphaU)

/-- S7.py 194-255 `s7_1_N_t`, with the defaults of 201 (`φ`) and 202 (`α_u`) -/
def S7.NtCall (rt : Rt K) (Ag An fy fu kt : K) (phi alphaU : Option K) : S7.Capacity K :=
  S7.Nt rt Ag An fy fu kt (phi.getD S7.phi) (alphaU.getD S7.alphaU)

/-- S7.py 53-70 `s7_2_N_t_ultimate`, with the default of 54 -/
def S7.NtUltimateCall (rt : Rt K) (An fu kt : K) (alphaU : Option K) : K :=
  S7.NtUltimate rt An fu kt (alphaU.getD S7.alphaU)

/-- S7.py 73-88 `s7_2_An`, with the default of 74 -/
def S7.AnCall (rt : Rt K) (Nt fu kt : K) (alphaU : Option K) : Py K :=
  S7.An rt Nt fu kt (alphaU.getD S7.alphaU)

/-- S7.py 91-106 `s7_5_a_min_thickness`.  91 has `safety_factor: 0.25`, an annotation and not a default: a call without the
argument raises `TypeError`. -/
def S7.minThicknessCall (rt : Rt K) (ae : K) (sf : Option K) : Py K :=
  match sf with
  | none => .error .typeError
  | some s => .ok (S7.minThickness rt ae s)

/-- S7.py 109-125 `s7_5_b_A_beyond`, with the default of 109 -/
def S7.ABeyondCall (rt : Rt K) (Areqd : K) (sf : Option K) : K := S7.ABeyond rt Areqd (sf.getD 1)

/-- S7.py 128-140 `s7_5_c_A_perp`, with the default of 128 -/
def S7.APerpCall (rt : Rt K) (Areqd : K) (sf : Option K) : K := S7.APerp rt Areqd (sf.getD (133 / 100))

end BeamDesign
