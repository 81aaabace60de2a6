import Verif.Model.Effective
import Verif.Model.Rounded

/-!
# The effective sections for local buckling operation by operation, over a floating point arithmetic

The counterpart of `Model/Effective` for as4100_sect_props.py 227-302 and 326-334.
-/

namespace BeamDesign.EffectiveR

variable {K : Type} [Field K] [LinearOrder K]

/-- as4100_sect_props.py 227-238 `s6_2_λ_e_flatplate` -/
def lambdaPlate (A : Arith K) (b t fy fref : K) : Py K := do
  let s ← A.quot b t
  let q ← A.quot fy fref
  let r ← A.root q
  return A.mul s r

/-- as4100_sect_props.py 241-252 `s6_2_λ_e_CHS` -/
def lambdaCHS (A : Arith K) (d t fy fref : K) : Py K := do
  let s ← A.quot d t
  let q ← A.quot fy fref
  return A.mul s q

/-- as4100_sect_props.py 255-266 `s6_2_b_e_flatplate` -/
def bPlate (A : Arith K) (b le ley : K) : Py K := do
  let q ← A.quot ley le
  return min (A.mul b q) b

/-- as4100_sect_props.py 269-283 `s6_2_d_e_CHS`: `3 * λ_ey / λ_e` is `(3 * λ_ey) / λ_e` -/
def dCHS (A : Arith K) (d le ley : K) : Py K := do
  let q ← A.quot ley le
  let r ← A.root q
  let q3 ← A.quot (A.mul 3 ley) le
  return min (min (A.mul d r) (A.mul d (A.sq q3))) d

/-- as4100_sect_props.py 286-302 `s6_2_A_e_flatplate` -/
def aPlate (A : Arith K) (b t fy ley fref : K) : Py K := do
  let le ← lambdaPlate A b t fy fref
  let be ← bPlate A b le ley
  return A.mul be t

/-- as4100_sect_props.py 326-334 `s6_2_k_f_Form_Factor` -/
def kf (A : Arith K) (An Ae : K) : Py K := A.quot Ae An

end BeamDesign.EffectiveR
