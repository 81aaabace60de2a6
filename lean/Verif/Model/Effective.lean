import Verif.Model.Real

/-!
# Effective areas for local buckling (`as4100_sect_props.py` 227-334) and `sections/hollowcircle.py`
-/

namespace BeamDesign.Effective

/-- as4100_sect_props.py 227-238 `s6_2_λ_e_flatplate` (the default `f_ref` is 250.0, in MPa) -/
noncomputable def lambdaPlate (b t fy fref : ℝ) : Py ℝ := do
  let s ← rdiv b t
  let q ← rdiv fy fref
  let r ← rsqrt q
  return s * r

/-- as4100_sect_props.py 241-252 `s6_2_λ_e_CHS` -/
noncomputable def lambdaCHS (d t fy fref : ℝ) : Py ℝ := do
  let s ← rdiv d t
  let q ← rdiv fy fref
  return s * q

/-- as4100_sect_props.py 255-266 `s6_2_b_e_flatplate` -/
noncomputable def bPlate (b le ley : ℝ) : Py ℝ := do
  let q ← rdiv ley le
  return min (b * q) b

/-- as4100_sect_props.py 269-283 `s6_2_d_e_CHS` -/
noncomputable def dCHS (d le ley : ℝ) : Py ℝ := do
  let q ← rdiv ley le
  let r ← rsqrt q
  let q3 ← rdiv (3 * ley) le
  return min (min (d * r) (d * q3 ^ 2)) d

/-- as4100_sect_props.py 286-302 `s6_2_A_e_flatplate` -/
noncomputable def aPlate (b t fy ley fref : ℝ) : Py ℝ := do
  let le ← lambdaPlate b t fy fref
  let be ← bPlate b le ley
  return be * t

/-- section.py 33-82: the names `Section` declares abstract -/
def sectionAbstract : List String := ["is_circle", "is_hollow", "is_composite", "area", "area_net"]

/-- hollowcircle.py 13-68: the names the body of `HollowCircle` defines -/
def hollowCircleNames : List String := ["__init__", "radius_i", "area", "is_circle", "is_hollow"]

/-- circle.py 18-60: the names the body of `Circle` defines -/
def circleNames : List String :=
  ["__init__", "is_circle", "is_hollow", "is_composite", "area", "area_net", "__repr__"]

/-- Python's `ABCMeta`: the abstract names a subclass of `Section` leaves undefined -/
def leftAbstract (names : List String) : List String := sectionAbstract.filter (· ∉ names)

/-- a `HollowCircle`: outer and inner radius -/
structure HollowCircle where
  ro : ℝ
  ri : ℝ

/-- hollowcircle.py 13-23: calling the class.  A class with abstract names left cannot be instantiated
(`TypeError`); were it concrete, `super().__init__(x, y)` passes positional arguments to the keyword-only
`Section.__init__` (section.py 33), again `TypeError`. -/
def HollowCircle.new (_x _y _ro _ri : ℝ) : Py HollowCircle :=
  if leftAbstract hollowCircleNames ≠ [] then .error .typeError
  else .error .typeError

/-- hollowcircle.py 46-53 `area`: `Circle` takes no positional arguments (circle.py 18), so it raises
`TypeError` -/
def HollowCircle.area (_c : HollowCircle) : Py ℝ := .error .typeError

/-- as4100_sect_props.py 305-323 `s6_2_A_e_CHS` -/
noncomputable def aCHS (d t fy ley fref : ℝ) : Py ℝ := do
  let le ← lambdaCHS d t fy fref
  let de ← dCHS d le ley
  let c ← HollowCircle.new 0 0 (de / 2) (de / 2 - t)
  c.area

/-- as4100_sect_props.py 326-334 `s6_2_k_f_Form_Factor` -/
noncomputable def kf (An Ae : ℝ) : Py ℝ := rdiv Ae An

end BeamDesign.Effective
