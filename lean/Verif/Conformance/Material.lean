import Verif.Conformance.Basic
import Verif.Model.MaterialEq
import Verif.Model.Shipped
import Verif.Model.SectProps

/-!
# `tests/test_material.py`, `tests/test_circle.py` and `tests/test_AS4100_sectprops.py` run on the model
-/

namespace BeamDesign.Conformance

/-- numbers of a table as doubles -/
def roundVal : TVal ℚ → TVal ℚ
  | .num x => .num (fastRnd x)
  | .table rows => .table (rows.map (·.map fastRnd))
  | v => v

/-- the shipped file as the parser gives it: decimals as doubles -/
def shipped : MatFile ℚ := shippedFile.map fun kv => (kv.1, kv.2.map fun t => t.map fun x => (x.1, roundVal x.2))

/-- test_material.py 12-16 -/
def table250 : List (List ℚ) := [[8, 12, 20, 50, 80, 150, 200].map (fun x => fastRnd (x / 1000)),
  [280, 260, 250, 250, 240, 230, 220].map (· * 10 ^ 6), [410, 410, 410, 410, 410, 410, 400].map (· * 10 ^ 6)]

/-- test_material.py 17-21 -/
def table300 : List (List ℚ) := [[8, 12, 20, 50, 80, 150, 200].map (fun x => fastRnd (x / 1000)),
  [320, 310, 300, 280, 270, 260, 250].map (· * 10 ^ 6), [430, 430, 430, 430, 430, 430, 420].map (· * 10 ^ 6)]

/-- `Material(type="steel", name=.., standard=.., properties={"E": 200e9, "strengths": ..})` -/
def steel (name standard : String) (strengths : List (List ℚ)) : Py (Material ℚ) :=
  Material.new (.str "steel") (.str name) (.str standard) [("E", .num (200 * 10 ^ 9)), ("strengths", .table strengths)]

/-- `a == b` -/
def sameMat (a b : Py (Material ℚ)) : Bool := passes a fun x => passes b fun y => x.eq y

-- test_material.py 24 test_material
example : passes (steel "HR250" "AS3678" table250) (fun _ => true) = true := by decide +kernel

-- 41 test_material_eq
example : sameMat (steel "HR250" "AS3678" table250) (steel "HR250" "AS3678" table250) = true := by decide +kernel
example : sameMat (steel "HR250" "AS3678" table250) (steel "HR250" "AS3678" table300) = false := by decide +kernel

/-- `Material.load_material()[name]` -/
def loadedAll (name : String) : Py (Material ℚ) := do
  match (← Material.loadAll shipped).lookup name with
  | some m => .ok m
  | none => .error .keyError

-- 75 test_load_material
example : sameMat (loadedAll "AS3678-2016-250") (steel "250" "AS3678-2016" table250) = true := by decide +kernel
example : sameMat (loadedAll "AS3678-2016-300") (steel "300" "AS3678-2016" table300) = true := by decide +kernel

-- 107 test_load_material2
example : sameMat (steel "250" "AS3678-2016" table250) (Material.loadOne shipped "AS3678-2016-250") = true := by decide +kernel

-- 126 test_load_material_propertyless
example : passes (Material.loadOne shipped "test_propertyless") (fun m => decide (m.properties = [])) = true := by decide +kernel

/-- `Circle(radius=r, material=as3678_250)`, a section of the grade named -/
def circleOf (grade : String) (r : ℚ) : Py (Sect ℚ) := do Sect.newCircle (fastRnd r) (some (← Material.loadOne shipped grade))

/-- the circles of most tests -/
def circle (r : ℚ) : Py (Sect ℚ) := circleOf "AS3678-2016-250" r

-- test_circle.py 14 test_Circle
example : passes (circle (2 / 100)) (fun _ => true) = true := by decide +kernel

-- 37 test_Circle_area
example : near (circleArea rt (fastRnd (2 / 100))) (125663706143592 / 10 ^ 17) = true := by decide +kernel

/-- `AS4100Circle(section=Circle(..))` -/
def design (r : ℚ) : Py (DSect ℚ) := do DSect.factory (← circle r)

-- test_AS4100_sectprops.py 16, 28 test_AS4100_factory, test_circle
example : passes (design (2 / 100)) (fun _ => true) = true := by decide +kernel

-- 55 test_circle_min_fy
example : [(3, 280), (4, 280), (5, 260), (9, 250), (25, 250), (51 / 2, 240), (40, 240), (60, 230), (75, 230), (100, 220)].all (fun x =>
    passes (do (← design (x.1 / 1000)).minFy) fun fy => near fy (x.2 * 10 ^ 6)) = true := by decide +kernel

-- 83 test_circle_min_fu
example : [(3, 410), (4, 410), (5, 410), (9, 410), (25, 410), (51 / 2, 410), (40, 410), (60, 410), (75, 410), (80, 400), (100, 400)].all (fun x =>
    passes (do (← design (x.1 / 1000)).minFu) fun fu => near fu (x.2 * 10 ^ 6)) = true := by decide +kernel

/-- `pi * r ** 2` -/
def area (r : ℚ) : ℚ := rt.mul piD (rt.mul (fastRnd r) (fastRnd r))

-- 95, 110 test_circle_Ag, test_circle_An
example : passes (design (2 / 100)) (fun s => near (area (2 / 100)) (s.Ag rt)) = true := by decide +kernel
example : passes (design (2 / 100)) (fun s => near (area (2 / 100)) (s.An rt)) = true := by decide +kernel

end BeamDesign.Conformance
