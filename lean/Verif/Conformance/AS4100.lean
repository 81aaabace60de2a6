import Verif.Conformance.LoadCase
import Verif.Conformance.Material
import Verif.Model.AS4100

/-!
# `tests/test_AS4100.py` run on the model, all but the utilisations

The test of `s7_2_Nty`, `s7_2_Ntu` and `s7_1_Nt` on the sections of a spreadsheet is in `Verif.Conformance.Sheets`.
-/

namespace BeamDesign.Conformance

/-- beams with real sections -/
abbrev BeamS := Beam ℚ (Sect ℚ)

/-- a float literal -/
def f (q : ℚ) : ℚ := fastRnd q

/-- `AS4100(beam=b, φ_steel=0.9, αu=0.85, kt=1.0)` -/
def ofBeam (b : Py BeamS) : Py (AS4100 ℚ) := do AS4100.new (f (9 / 10)) (f (85 / 100)) 1 (some (← b)) none

/-- `AS4100(section=s, φ_steel=0.9, αu=0.85, kt=1.0)` -/
def ofSection (s : Py (Sect ℚ)) : Py (AS4100 ℚ) := do AS4100.new (f (9 / 10)) (f (85 / 100)) 1 none (some (← s))

/-- `Element.empty_element(length=l, section=s)` for several elements, then `Beam(elements=[..])` -/
def emptyBeam (parts : List (ℚ × Py (Sect ℚ))) : Py BeamS := do
  let es ← parts.mapM fun x => do Element.emptyElement (d x.1) (← x.2)
  Beam.new (.list (es.map some))

/-- the circles of radius 0.02, 0.04 and 0.06 on elements of length 0.5, 0.0 and 0.5 -/
def three : Py BeamS := emptyBeam [(1 / 2, circle (2 / 100)), (0, circle (4 / 100)), (1 / 2, circle (6 / 100))]

-- 32 test_AS4100
example : passes (ofSection (circle (2 / 100))) (fun _ => true) = true := by decide +kernel
example : passes (ofBeam (do Beam.new (.single (← Element.constantLoadElement 0 0 0 0 0 0 0 (d 0) (← circle (2 / 100))))))
    (fun _ => true) = true := by decide +kernel

-- 51 test_AS4100_default
example : passes (do AS4100.default none (some (← circle (2 / 100)))) (fun _ => true) = true := by decide +kernel

-- 70 test_AS4100_beam_section_None_error
example : raises .codeCheckError (AS4100.new (f (9 / 10)) (f (85 / 100)) 1 none none) = true := by decide +kernel

/-- the sections of an object are these -/
def sectionsAre (o : Py (AS4100 ℚ)) (ss : List (Py (Sect ℚ))) : Bool :=
  passes o fun x => passes (ss.mapM id) fun l => decide (x.sections = l)

-- 78, 92, 107 test_AS4100_sections, test_AS4100_sections2, test_AS4100_sections3
example : sectionsAre (ofSection (circle (2 / 100))) [circle (2 / 100)] = true := by decide +kernel
example : sectionsAre (ofBeam (do Beam.emptyBeam (d 0) (← circle (2 / 100)))) [circle (2 / 100)] = true := by decide +kernel
example : sectionsAre (ofBeam three) [circle (2 / 100), circle (4 / 100), circle (6 / 100)] = true := by decide +kernel

-- 129, 145 test_AS4100_get_section_error, test_AS4100_get_section_error2
example : raises .sectionOnly (do (← ofSection (circle (2 / 100))).getSection rt .none none none) = true := by decide +kernel
example : raises .invalidPosition (do (← ofBeam (do Beam.emptyBeam (d 0) (← circle (2 / 100)))).getSection rt .none none none) = true := by
  decide +kernel

/-- `get_section(position=p) == (positions, sections)` -/
def getsSections (o : Py (AS4100 ℚ)) (p : ℚ) (expected : List (ℚ × ℚ)) : Bool :=
  passes (do (← o).getSection rt (.scalar (d p)) none none) fun r =>
    passes (expected.mapM fun x => do return (d x.1, ← circle x.2)) fun l => decide (r = l)

-- 161 test_AS4100_get_section
example : getsSections (ofBeam (do Beam.emptyBeam (d 0) (← circle (2 / 100)))) 0 [(0, 2 / 100), (0, 2 / 100)] = true := by decide +kernel

-- 176 test_AS4100_get_section2
example : getsSections (ofBeam three) (1 / 4) [(1 / 4, 2 / 100)] = true := by decide +kernel
example : getsSections (ofBeam three) (1 / 2) [(1 / 2, 2 / 100), (1 / 2, 4 / 100), (1 / 2, 4 / 100), (1 / 2, 6 / 100)] = true := by decide +kernel
example : getsSections (ofBeam three) (3 / 4) [(3 / 4, 6 / 100)] = true := by decide +kernel

/-- `AS4100.default_AS4100(beam=Beam(elements=Element(loads={1: LoadCase(loads=rows)}, length=1.0, section=s)))` -/
def withLoads (rows : List (List ℚ)) : Py (AS4100 ℚ) := do
  let lc ← lcase rows
  let e ← Element.new [(1, lc)] (some (d 1)) (← circle (2 / 100))
  AS4100.default (some (← Beam.new (.single e))) none

/-- `get_tension(load_case=1, min_positions=n)` -/
def tensionOf (rows : List (List ℚ)) (n : ℤ) : Py (Option (Tab ℚ)) := do return some (← (← withLoads rows).getTension rt 1 .none (some n))

-- 222 test_as4100_get_tension
example : closeTo (tensionOf [[0, 1, 1, 1, 1, 1, 1], [1 / 2, 1, 1, 1, 1, 1, 1], [1, 1, 1, 1, 1, 1, 1]] 3) [[0, 1], [1 / 2, 1], [1, 1]] = true := by
  decide +kernel
example : closeTo (tensionOf [[0, 1, 1, 1, 1, 1, 1], [1 / 2, 1, 1, -1, 1, 1, 1], [1, 1, 1, 1, 1, 1, 1]] 3) [[0, 1], [1 / 2, 0], [1, 1]] = true := by
  decide +kernel

-- 247 test_as4100_get_tension2
example : closeTo (tensionOf [[0, 1, 1, 1, 1, 1, 1], [1 / 2, 1, 1, -1, 1, 1, 1], [1, 1, 1, 1, 1, 1, 1]] 9)
    [[0, 1], [125 / 1000, 1 / 2], [250 / 1000, 0], [375 / 1000, 0], [1 / 2, 0], [625 / 1000, 0], [750 / 1000, 0], [875 / 1000, 1 / 2], [1, 1]] = true := by
  decide +kernel

/-- `f * pi * r ** 2` -/
def timesArea (q r : ℚ) : ℚ := rt.mul (rt.mul q piD) (rt.mul (f r) (f r))

/-- `0.85 * 1.0 * f * pi * r ** 2` -/
def timesArea85 (q r : ℚ) : ℚ := timesArea (rt.mul (f (85 / 100)) q) r

/-- `0.9 * f * pi * r ** 2` -/
def timesArea9 (q r : ℚ) : ℚ := timesArea (rt.mul (f (9 / 10)) q) r

/-- the result is close to the value expected -/
def gives (r : Py ℚ) (expected : ℚ) : Bool := passes r (near · expected)

-- 313 test_AS4100_Nt
example : gives (do (← ofSection (circle (2 / 100))).Nt rt .none) (timesArea (250 * 10 ^ 6) (2 / 100)) = true := by decide +kernel
example : gives (do (← ofSection (circle (2 / 100))).phiNt rt .none) (timesArea9 (250 * 10 ^ 6) (2 / 100)) = true := by decide +kernel

-- 334 test_AS4100_Nt_multiple_sections
example : gives (do (← ofBeam three).Nt rt .none) (timesArea (250 * 10 ^ 6) (2 / 100)) = true := by decide +kernel
example : gives (do (← ofBeam three).phiNt rt .none) (timesArea9 (250 * 10 ^ 6) (2 / 100)) = true := by decide +kernel

/-- two grades -/
def grades : Py (AS4100 ℚ) := ofBeam (emptyBeam [(1 / 2, circle (2 / 100)), (1 / 2, circleOf "AS3678-2016-300" (2 / 100))])

-- 363 test_AS4100_Nt_multiple_grades
example : gives (do (← grades).Nt rt .none) (timesArea (250 * 10 ^ 6) (2 / 100)) = true := by decide +kernel
example : gives (do (← grades).phiNt rt .none) (timesArea9 (250 * 10 ^ 6) (2 / 100)) = true := by decide +kernel
example : gives (do (← grades).Nt rt (.scalar (d (3 / 4)))) (timesArea (280 * 10 ^ 6) (2 / 100)) = true := by decide +kernel

-- 396 test_AS4100_Nty
example : gives (do (← ofSection (circle (2 / 100))).Nty rt .none) (timesArea (250 * 10 ^ 6) (2 / 100)) = true := by decide +kernel

/-- the positions of a test: none, then some -/
def posArgs (ps : List ℚ) : List (PosArg ℚ) := .none :: ps.map fun p => .scalar (d p)

-- 410 test_AS4100_Nty2
example : (posArgs [0, 1 / 4, 1 / 2, 3 / 4, 1]).all (fun p =>
    gives (do (← ofBeam (emptyBeam [(1, circle (2 / 100))])).Nty rt p) (timesArea (250 * 10 ^ 6) (2 / 100))) = true := by decide +kernel

-- 434 test_AS4100_Nty3
example : (posArgs [1 / 4, 1 / 2]).all (fun p => gives (do (← ofBeam three).Nty rt p) (timesArea (250 * 10 ^ 6) (2 / 100))) = true := by
  decide +kernel
example : [3 / 4, 1].all (fun p => gives (do (← ofBeam three).Nty rt (.scalar (d p))) (timesArea (230 * 10 ^ 6) (6 / 100))) = true := by
  decide +kernel

-- 462 test_AS4100_Nty_multi_positions
example : [[1 / 4, 3 / 4], [1 / 2, 3 / 4, 1]].all (fun ps =>
    gives (do (← ofBeam three).Nty rt (.list (ps.map d))) (timesArea (250 * 10 ^ 6) (2 / 100))) = true := by decide +kernel
example : gives (do (← ofBeam three).Nty rt (.list ([3 / 4, 1].map d))) (timesArea (230 * 10 ^ 6) (6 / 100)) = true := by decide +kernel

-- 490 test_AS4100_Ntu
example : gives (do (← ofSection (circle (2 / 100))).Ntu rt .none) (timesArea85 (410 * 10 ^ 6) (2 / 100)) = true := by decide +kernel

-- 504 test_AS4100_Ntu2
example : (posArgs [0, 1 / 4, 1 / 2, 3 / 4, 1]).all (fun p =>
    gives (do (← ofBeam (emptyBeam [(1, circle (2 / 100))])).Ntu rt p) (timesArea85 (410 * 10 ^ 6) (2 / 100))) = true := by decide +kernel

-- 527 test_AS4100_Ntu3
example : (posArgs [1 / 4, 1 / 2]).all (fun p => gives (do (← ofBeam three).Ntu rt p) (timesArea85 (410 * 10 ^ 6) (2 / 100))) = true := by
  decide +kernel
example : [3 / 4, 1].all (fun p => gives (do (← ofBeam three).Ntu rt (.scalar (d p))) (timesArea85 (410 * 10 ^ 6) (6 / 100))) = true := by
  decide +kernel

-- 555 test_AS4100_Ntu_multi_positions
example : [[1 / 4, 3 / 4], [1 / 2, 3 / 4, 1]].all (fun ps =>
    gives (do (← ofBeam three).Ntu rt (.list (ps.map d))) (timesArea85 (410 * 10 ^ 6) (2 / 100))) = true := by decide +kernel
example : gives (do (← ofBeam three).Ntu rt (.list ([3 / 4, 1].map d))) (timesArea85 (410 * 10 ^ 6) (6 / 100)) = true := by decide +kernel

end BeamDesign.Conformance
