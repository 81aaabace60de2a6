import Verif.Model.AS4100

/-!
# AS4100 section 7 formulas (`beamdesign/codecheck/as4100/S7.py`)

The result dictionaries are structures with one field for each key.
-/

namespace BeamDesign

variable {K : Type} [Field K] [LinearOrder K]

/-- Python `a / b` on floats: `ZeroDivisionError` when `b` is zero. -/
def pyDiv (rt : Rt K) (a b : K) : Py K :=
  if b = 0 then .error .zeroDivision else .ok (rt.div a b)

/-- S7.py 27-37 `s7_2_N_t_yield` -/
def S7.NtYield (rt : Rt K) (Ag fy : K) : K := rt.mul Ag fy

/-- S7.py 40-50 `s7_2_Ag` -/
def S7.Ag (rt : Rt K) (Nt fy : K) : Py K := pyDiv rt Nt fy

/-- S7.py 53-70 `s7_2_N_t_ultimate` (`ultimate_uncertainty` is `alphaU`) -/
def S7.NtUltimate (rt : Rt K) (An fu kt alphaU : K) : K :=
  rt.mul (rt.mul (rt.mul An fu) kt) alphaU

/-- S7.py 73-88 `s7_2_An` -/
def S7.An (rt : Rt K) (Nt fu kt alphaU : K) : Py K := do
  let a ← pyDiv rt Nt alphaU
  let b ← pyDiv rt a kt
  pyDiv rt b fu

/-- the default uncertainty factor, S7.py 54, 74, 148, 202 -/
def S7.alphaU : K := 85 / 100

/-- the default capacity reduction factor, S7.py 147, 201 -/
def S7.phi : K := 9 / 10

/-- S7.py 91-106 `s7_5_a_min_thickness` -/
def S7.minThickness (rt : Rt K) (ae sf : K) : K := rt.mul ae sf

/-- S7.py 109-125 `s7_5_b_A_beyond` -/
def S7.ABeyond (rt : Rt K) (Areqd sf : K) : K := rt.mul Areqd sf

/-- S7.py 128-140 `s7_5_c_A_perp` -/
def S7.APerp (rt : Rt K) (Areqd sf : K) : K := rt.mul Areqd sf

/-- the dictionary returned by `s7_1_A_reqd`; `phiAg` is the key `"φA_g"` and so on -/
structure S7.Areas (K : Type) where
  Ag : K
  An : K
  A : K
  phiAg : K
  phiAn : K
  phiA : K
  deriving DecidableEq

/-- S7.py 143-191 `s7_1_A_reqd` -/
def S7.AReqd (rt : Rt K) (Nt fy fu kt phi alphaU : K) : Py (S7.Areas K) := do
  let ag ← S7.Ag rt Nt fy
  let an ← S7.An rt Nt fu kt alphaU
  let a := max ag an
  let phiAg ← pyDiv rt ag phi
  let phiAn ← pyDiv rt an phi
  let phiA ← pyDiv rt a phi
  return ⟨ag, an, a, phiAg, phiAn, phiA⟩

/-- the dictionary returned by `s7_1_N_t`; `phiN` is the key `"φN"` and so on -/
structure S7.Capacity (K : Type) where
  Nty : K
  Ntu : K
  N : K
  phiNty : K
  phiNtu : K
  phiN : K
  deriving DecidableEq

/-- S7.py 194-255 `s7_1_N_t` -/
def S7.Nt (rt : Rt K) (Ag An fy fu kt phi alphaU : K) : S7.Capacity K :=
  let nty := S7.NtYield rt Ag fy
  let ntu := S7.NtUltimate rt An fu kt alphaU
  let n := min nty ntu
  ⟨nty, ntu, n, rt.mul nty phi, rt.mul ntu phi, rt.mul n phi⟩

end BeamDesign
