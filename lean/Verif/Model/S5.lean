import Verif.Model.Real

/-!
# AS4100 section 5 formulas (`S5.py`, `S5_Shear.py` in `beamdesign/codecheck/as4100`)

Decimal literals of the source stand for the decimal number, not for the nearest double.
-/

namespace BeamDesign

namespace S5

/-- S5.py 39-47 `Restraints` -/
inductive Restraint
  | FF | FP | FL | FU | PP | PL | PU | LL
  deriving DecidableEq, Repr

/-- What a caller passes as `restraint_code`: a member of the enumeration or a string. -/
inductive RestraintArg
  | code (r : Restraint)
  | str (s : String)
  deriving DecidableEq, Repr

/-- What `"…" in Restraints` does depends on the Python version: `False` up to 3.7, `TypeError` in
3.8 to 3.11, from 3.12 on whether the string is the value of a member. -/
inductive PyVersion
  | upTo37
  | v38to311
  | from312
  deriving DecidableEq, Repr

/-- the values of the enumeration, S5.py 40-47 -/
def restraintValues : List String := ["FF", "FP", "FL", "FU", "PP", "PL", "PU", "LL"]

/-- S5.py 55-65 `s5_2_M_s` -/
noncomputable def Ms (fy Ze : ℝ) : ℝ := fy * Ze

/-- S5.py 77-110 `s5_6_1_M_o`; the defaults are `β_x = 0`, `E = 200e9`, `G = 80e9` -/
noncomputable def Mo (le Iy J Iw betaX E G : ℝ) : Py ℝ := do
  let a ← rdiv (piD * piD * E * Iy) (le * le)
  let b := G * J
  let c ← rdiv (piD * piD * E * Iw) (le * le)
  let d := betaX / 2
  let ra ← rsqrt a
  let rb ← rsqrt (b + c + d * d * a)
  return ra * (rb + d * ra)

/-- S5.py 113-136 `s5_6_1_α_m`; the default `α_m_max` is 2.5 -/
noncomputable def alphaM (Mmax M2 M3 M4 cap : ℝ) : Py ℝ := do
  let r ← rsqrt (M2 * M2 + M3 * M3 + M4 * M4)
  let a ← rdiv (17 / 10 * |Mmax|) r
  return min a cap

/-- S5.py 139-152 `s5_6_α_s` -/
noncomputable def alphaS (Ms Mo : ℝ) : Py ℝ := do
  let x ← rdiv Ms Mo
  let r ← rsqrt (x ^ 2 + 3)
  return 6 / 10 * (r - x)

/-- S5.py 185: the excess of the twist restraint factor for `factor` partially restrained ends -/
noncomputable def ktExcess (factor d1 l tf tw nw : ℝ) : Py ℝ := do
  let x ← rdiv d1 l
  let y ← rdiv tf (2 * tw)
  rdiv (factor * x * y ^ 3) nw

/-- S5.py 155-197 `s5_6_3_k_t` -/
noncomputable def kt (v : PyVersion) (d1 l tf tw nw : ℝ) (code : RestraintArg) : Py ℝ :=
  match code with
  | .str s =>
    match v with
    | .upTo37 => .error .assertionError
    | .v38to311 => .error .typeError
    | .from312 => if s ∈ restraintValues then .error .valueError else .error .assertionError
  | .code r =>
    if r = .FF ∨ r = .FL ∨ r = .LL ∨ r = .FU then .ok 1
    else if r = .FP ∨ r = .PL ∨ r = .PU then do
      let e ← ktExcess 1 d1 l tf tw nw
      return 1 + e
    else if r = .PP then do
      let e ← ktExcess 2 d1 l tf tw nw
      return 1 + e
    else .error .typeError

/-- S5.py 200-211 `s5_6_3_l_e` -/
noncomputable def le (kt kl kr lact : ℝ) : ℝ := kt * kl * kr * lact

/-- S5.py 214-224 `s5_6_1_Mb` -/
noncomputable def Mb (Ms alphaM alphaS : ℝ) : ℝ := alphaM * alphaS * Ms

end S5

namespace S5Shear

/-- S5_Shear.py 29-57 `s5_11_4_V_w_Generic`; the default `shear_to_axial` is 0.6 -/
noncomputable def VwGeneric (Aw fy ratio : ℝ) : ℝ := ratio * fy * Aw

/-- S5_Shear.py 60-85 `s5_11_4_V_w_CHS`; the defaults of the last two are 0.6 -/
noncomputable def VwCHS (Ae fy ratio area : ℝ) : ℝ := area * (ratio * fy) * Ae

/-- S5_Shear.py 88-125 `s5_11_5_α_v`; the defaults are `slenderness_limit = 82`, `f_y_ref = 250e6` -/
noncomputable def alphaV (dp tw fy slendernessLimit fref : ℝ) : Py ℝ := do
  let q ← rdiv fy fref
  let r ← rsqrt q
  let lim ← rdiv slendernessLimit r
  let s ← rdiv dp tw
  if s > lim then do
    let u ← rdiv lim s
    return u ^ 2
  else
    return 1

/-- S5_Shear.py 128-147 `s5_11_3_α_vma` -/
noncomputable def alphaVma (fvm fva : ℝ) : Py ℝ := do
  let q ← rdiv fvm fva
  let a ← rdiv 2 (9 / 10 + q)
  return min a 1

/-- What a caller passes as `v_w`. -/
inductive WeldArg (K : Type)
  | scalar (v : Num K)
  | list (vs : List K)

variable {K : Type} [Field K] [LinearOrder K]

/-- S5_Shear.py 150-185 `s5_11_4_V_w_Weld`.  A scalar that is not a `float` is not wrapped in a list
and `sum` raises `TypeError`.  `sum` adds one number after the other, as Python does up to 3.11 (for later versions see
`Model/WeldSum`). -/
def VwWeld (rt : Rt K) (vw : WeldArg K) (Q I : K) : Py K :=
  match vw with
  | .scalar v =>
    if v.isInt then .error .typeError
    else pyDiv rt (rt.mul (rt.add 0 v.val) I) Q
  | .list vs => pyDiv rt (rt.mul (vs.foldl rt.add 0) I) Q

/-- S5_Shear.py 188-217 `s5_11_4_V_w_Interface`; the default `shear_to_axial` is 0.6 -/
noncomputable def VwInterface (t fy Q I ratio : ℝ) : Py ℝ := rdiv (fy * ratio * t * I) Q

end S5Shear

end BeamDesign
