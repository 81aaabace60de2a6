import Verif.Conformance.LoadCase

/-!
# `tests/test_beam.py` and `tests/test_element.py` run on the model

Sections are numbered: `some 1` is the section `s1` of a test, `none` is `None`.  The table rows of the tests, in which all six components are
equal, are written by `same`.
-/

namespace BeamDesign.Conformance

/-- elements and beams whose sections are numbers or `None` -/
abbrev Elem := Element ℚ (Option ℕ)

/-- `Element.empty_element(length=l, section=s)` -/
def empty (l : Num ℚ) (s : Option ℕ) : Py Elem := Element.emptyElement l s

/-- `Beam(elements=[..])` -/
def beamOf (es : List (Py Elem)) : Py (Beam ℚ (Option ℕ)) := do
  let l ← es.mapM id
  Beam.new (.list (l.map some))

/-- a beam of empty elements of these lengths -/
def emptyOf (ls : List ℚ) : Py (Beam ℚ (Option ℕ)) := beamOf (ls.map fun l => empty (d l) none)

/-- one row with six equal components -/
def same (p v : ℚ) : List ℚ := [p, v, v, v, v, v, v]

/-- `Element.constant_load_element(VX=lo, ..., T=lo, length=le)` -/
def constElem (le lo : ℚ) : Py Elem :=
  Element.constantLoadElement 0 (fastRnd lo) (fastRnd lo) (fastRnd lo) (fastRnd lo) (fastRnd lo) (fastRnd lo) (d le) none

/-- `Element(loads={0: LoadCase(loads=rows)}, length=le)` -/
def loaded (rows : List (List ℚ)) (le : Num ℚ) : Py Elem := do
  let lc ← lcase rows
  Element.new [(0, lc)] (some le) none

/-- test_element.py 12 test_Element_init; `empty_element` has the default length 0.0 -/
example : passes (empty (d 0) none) (fun _ => true) = true := by decide +kernel

-- test_element.py 22 test_Element_init_length_error
example : raises .elementLengthError (empty (d (-1)) none) = true := by decide +kernel

-- 25 test_Beam_init
example : passes (Beam.emptyBeam (d 0) (none : Option ℕ)) (fun _ => true) = true := by decide +kernel

-- 37 test_Beam_init_element_errors
example : raises .elementError (Beam.new (K := ℚ) (S := Option ℕ) .none) = true := by decide +kernel
example : raises .elementError (Beam.new (K := ℚ) (S := Option ℕ) (.list [])) = true := by decide +kernel
example : raises .elementError (Beam.new (K := ℚ) (S := Option ℕ) (.list [none])) = true := by decide +kernel

-- 57 test_Beam_init_element_errors2: entries that are not elements are `none` in the model
example : raises .elementError (do Beam.new (.list [some (← empty (d 0) none), none])) = true := by decide +kernel

-- 69 test_Beam_length
example : [[1 / 2, 5 / 2], [1, 1, 1], [0, 5]].all (fun ls => passes (emptyOf ls) fun b =>
    decide (b.length rt = .ok (d ls.sum))) = true := by decide +kernel

/-- the ends as the test writes them -/
def endsAre (ls : List ℚ) (ends : List (ℚ × ℚ)) : Bool :=
  passes (do (← emptyOf ls).elementEnds rt) fun r =>
    decide (r.map (fun se => (se.1.val, se.2.val)) = ends.map fun se => (fastRnd se.1, fastRnd se.2))

-- 93 test_Beam_element_ends: equality of floats
example : endsAre [1, 2] [(0, 1), (1, 3)] = true := by decide +kernel
example : endsAre [1, 23 / 10, 1 / 2] [(0, 1), (1, 33 / 10), (33 / 10, 38 / 10)] = true := by decide +kernel
example : endsAre [12345 / 10000, 45678 / 10000, 23456 / 10000]
    [(0, 12345 / 10000), (12345 / 10000, 58023 / 10000), (58023 / 10000, 81479 / 10000)] = true := by decide +kernel

/-- `get_element_start_end(element=n)` -/
def startEnd (ls : List ℚ) (n : ℤ) (s e : ℚ) : Bool :=
  passes (do (← emptyOf ls).getElementStartEnd rt n) fun r => decide (r.1.val = fastRnd s ∧ r.2.val = fastRnd e)

-- 106 test_Beam_get_element_start_end
example : startEnd [1, 23 / 10, 1 / 2] 0 0 1 = true := by decide +kernel
example : startEnd [1, 23 / 10, 1 / 2] 1 1 (33 / 10) = true := by decide +kernel
example : startEnd [1, 23 / 10, 1 / 2] 2 (33 / 10) (38 / 10) = true := by decide +kernel

-- 124 test_Beam_get_element_start_end_zero_length
example : startEnd [0] 0 0 0 = true := by decide +kernel

-- 155 test_Beam_in_element
example : [(d (-1 / 10), []), (d (39 / 10), []), (d (1 / 2), [0]), (d (3 / 2), [1]), (d (35 / 10), [2]), (i 0, [0]), (d (38 / 10), [2]),
    (d 1, [0, 1]), (d (33 / 10), [1, 2])].all (fun x =>
      decide ((do (← emptyOf [1, 23 / 10, 1 / 2]).inElements rt x.1) = (.ok x.2 : Py (List ℕ)))) = true := by decide +kernel

/-- the lengths 1.0, 0.0, 2.3 and 0.5 -/
def four : Py (Beam ℚ (Option ℕ)) := emptyOf [1, 0, 23 / 10, 1 / 2]

-- 183 test_Beam_beam_to_local: equality of floats
example : [(1 / 2, 0, d (1 / 2)), (1, 0, d 1), (1, 2, d 0), (3 / 2, 2, ⟨rt.div (1 / 2) (fastRnd (23 / 10)), false⟩), (33 / 10, 2, d 1), (33 / 10, 3, d 0),
    (355 / 100, 3, d (1 / 2)), (38 / 10, 3, d 1)].all (fun x =>
      passes (do (← four).beamToLocal rt (d x.1) x.2.1) fun r => decide (r = x.2.2)) = true := by decide +kernel

-- 200 test_Beam_beam_to_local_error
example : raises .elementLengthError (do (← four).beamToLocal rt (d 1) 1) = true := by decide +kernel

-- 222 test_Beam_beam_to_local_error2
example : [(-1 / 2, 0), (1 / 2, 1), (11 / 10, 0), (11 / 10, 1), (39 / 10, 3)].all (fun x =>
    raises .positionNotInElement (do (← four).beamToLocal rt (d x.1) x.2)) = true := by decide +kernel

-- 254 test_Beam_local_to_beam_position: equality of floats
example : [(0, 0, 0), (1 / 2, 0, 1 / 2), (1, 0, 1), (0, 1, 1), (1 / 2, 1, 1), (1, 1, 1), (0, 2, 1), (1 / 2, 2, 215 / 100), (1, 2, 33 / 10),
    (0, 3, 33 / 10), (1 / 2, 3, 355 / 100), (1, 3, 38 / 10)].all (fun x =>
      passes (do (← four).localToBeam rt (d x.1) x.2.1) fun r => decide (r = d x.2.2)) = true := by decide +kernel

-- 273 test_Beam_local_to_beam_position_error
example : [i (-1), d (-1 / 10), d (11 / 10), d 2].all (fun p => [0, 1, 2, 3].all fun e =>
    raises .positionNotInElement (do (← four).localToBeam rt p e)) = true := by decide +kernel

/-- the beam of constant load elements -/
def fourLoaded : Py (Beam ℚ (Option ℕ)) := beamOf [constElem 1 (1 / 2), constElem 0 5, constElem (23 / 10) (5 / 2), constElem (1 / 2) 25]

/-- `get_loads(load_case=0, position=p)` -/
def loadsAt (b : Py (Beam ℚ (Option ℕ))) (p : ℚ) : Py (Option (Tab ℚ)) := do (← b).getLoads rt 0 (.scalar (d p)) none .none

-- 289 test_Beam_get_loads_position
example : closeTo (loadsAt fourLoaded 0) [same 0 (1 / 2)] = true := by decide +kernel
example : closeTo (loadsAt fourLoaded 1) [same 1 (1 / 2), same 1 5, same 1 (5 / 2)] = true := by decide +kernel
example : closeTo (loadsAt fourLoaded 2) [same 2 (5 / 2)] = true := by decide +kernel
example : closeTo (loadsAt fourLoaded (33 / 10)) [same (33 / 10) (5 / 2), same (33 / 10) 25] = true := by decide +kernel
example : closeTo (loadsAt fourLoaded (38 / 10)) [same (38 / 10) 25] = true := by decide +kernel

-- 339 test_Beam_get_loads_positions2
example : closeTo (do (← fourLoaded).getLoads rt 0 (.list ([1 / 2, 3 / 2, 5 / 2, 7 / 2].map d)) none .none)
    [same (1 / 2) (1 / 2), same (3 / 2) (5 / 2), same (5 / 2) (5 / 2), same (7 / 2) 25] = true := by decide +kernel

/-- the beam with a zero length element, whose length is the int 0, with several load positions -/
def zeroLoaded : Py (Beam ℚ (Option ℕ)) :=
  beamOf [constElem 1 (1 / 2), loaded [same 0 5, same (1 / 2) (-10), same 1 5] (i 0), constElem (23 / 10) (5 / 2), constElem (1 / 2) 25]

-- 370 test_Beam_get_loads_position3
example : closeTo (loadsAt zeroLoaded 1) [same 1 (1 / 2), same 1 5, same 1 (-10), same 1 5, same 1 (5 / 2)] = true := by decide +kernel

-- 417 test_Beam_get_loads_min_positions
example : closeTo (do (← fourLoaded).getLoads rt 0 .none (some 5) .none)
    [same 0 (1 / 2), same (95 / 100) (1 / 2), same 1 (1 / 2), same 1 5, same 1 (5 / 2), same (19 / 10) (5 / 2), same (285 / 100) (5 / 2),
      same (33 / 10) (5 / 2), same (33 / 10) 25, same (38 / 10) 25] = true := by decide +kernel

-- 453 test_Beam_get_loads_min_positions2
example : closeTo (do (← zeroLoaded).getLoads rt 0 .none (some 5) .none)
    [same 0 (1 / 2), same (95 / 100) (1 / 2), same 1 (1 / 2), same 1 5, same 1 (-10), same 1 5, same 1 (5 / 2), same (19 / 10) (5 / 2),
      same (285 / 100) (5 / 2), same (33 / 10) (5 / 2), same (33 / 10) 25, same (38 / 10) 25] = true := by decide +kernel

-- 504 test_Beam_get_loads_min_positions3
example : closeTo (do (← beamOf [constElem 1 (5 / 2),
      loaded [same 0 5, same (1 / 2) (-3), same (1 / 2) 10, same (1 / 2) 5, same 1 10] (d 1)]).getLoads rt 0 .none (some 4) .none)
    [same 0 (5 / 2), same (2 / 3) (5 / 2), same 1 (5 / 2), same 1 5, same (4 / 3) (-1 / 3), same (3 / 2) (-3), same (3 / 2) 10, same (3 / 2) 5,
      same 2 10] = true := by decide +kernel

/-- an element with two load cases -/
def twoCases : Py (Beam ℚ (Option ℕ)) := do
  let l0 ← LoadCase.constantLoad (5 / 2) (5 / 2) (5 / 2) (5 / 2) (5 / 2) (5 / 2)
  let l1 ← LoadCase.constantLoad 5 5 5 5 5 5
  let e ← Element.new [(0, l0), (1, l1)] (some (d 1)) none
  Beam.new (.single e)

-- 549 test_Beam_get_loads_multiple_load_cases
example : closeTo (do (← twoCases).getLoads rt 0 (.scalar (d (1 / 2))) none .none) [same (1 / 2) (5 / 2)] = true := by decide +kernel
example : closeTo (do (← twoCases).getLoads rt 1 (.scalar (d (1 / 2))) none .none) [same (1 / 2) 5] = true := by decide +kernel

-- 576 test_Beam_get_loads_error, the first of this name, which pytest does not see
example : raises .invalidPosition (do (← fourLoaded).getLoads rt 0 (.scalar (d (1 / 2))) (some 10) .none) = true := by decide +kernel
example : raises .invalidPosition (do (← fourLoaded).getLoads rt 0 .none none .none) = true := by decide +kernel

-- 602 test_Beam_get_loads_error
example : [.scalar (d (-1 / 10)), .list [d (-1 / 10), d 1], .list [d 1, d 4], .scalar (d 4)].all (fun p =>
    raises .positionNotInBeam (do (← fourLoaded).getLoads rt 0 p none .none)) = true := by decide +kernel

/-- the sections `s1`, `s2`, `s3` on elements of length 0.5, 0.0, 0.5 -/
def threeSections : Py (Beam ℚ (Option ℕ)) := beamOf [empty (d (1 / 2)) (some 1), empty (d 0) (some 2), empty (d (1 / 2)) (some 3)]

-- 628 test_Beam_sections
example : passes threeSections (fun b => decide (b.sections = [some 1, some 2, some 3])) = true := by decide +kernel

/-- `get_section(position=p) == (positions, sections)` -/
def sectionsAt (b : Py (Beam ℚ (Option ℕ))) (p : PosArg ℚ) (expected : List (ℚ × Option ℕ)) : Bool :=
  passes (do (← b).getSection rt p none none) fun r => decide (r = expected.map fun x => (d x.1, x.2))

-- 647 test_Beam_get_section_none
example : sectionsAt (beamOf [empty (d 1) none]) (.scalar (d (1 / 2))) [(1 / 2, none)] = true := by decide +kernel

/-- two sections -/
def twoSections : Py (Beam ℚ (Option ℕ)) := beamOf [empty (d (1 / 2)) (some 1), empty (d (1 / 2)) (some 2)]

-- 660 test_Beam_get_section
example : sectionsAt twoSections (.scalar (d (1 / 4))) [(1 / 4, some 1)] = true := by decide +kernel
example : sectionsAt twoSections (.scalar (d (3 / 4))) [(3 / 4, some 2)] = true := by decide +kernel

-- 677 test_Beam_get_section_on_element_boundary
example : sectionsAt twoSections (.scalar (d (1 / 2))) [(1 / 2, some 1), (1 / 2, some 2)] = true := by decide +kernel

-- 696 test_Beam_get_section_on_zero_length_element
example : sectionsAt (beamOf [empty (d 0) none]) (.scalar (d 0)) [(0, none), (0, none)] = true := by decide +kernel

-- 709 test_Beam_get_section_on_zero_length_element_2
example : sectionsAt threeSections (.scalar (d (4999999 / 10000000))) [(4999999 / 10000000, some 1)] = true := by decide +kernel
example : sectionsAt threeSections (.scalar (d (1 / 2))) [(1 / 2, some 1), (1 / 2, some 2), (1 / 2, some 2), (1 / 2, some 3)] = true := by
  decide +kernel
example : sectionsAt threeSections (.scalar (d (5000001 / 10000000))) [(5000001 / 10000000, some 3)] = true := by decide +kernel

-- 729 test_Beam_get_section_multiple
example : sectionsAt threeSections (.list ([1 / 4, 1 / 2, 3 / 4].map d))
    [(1 / 4, some 1), (1 / 2, some 1), (1 / 2, some 2), (1 / 2, some 2), (1 / 2, some 3), (3 / 4, some 3)] = true := by decide +kernel

-- 749 test_Beam_get_section_outside_range_err
example : [-1 / 10, 11 / 10].all (fun p => raises .positionNotInBeam (do (← threeSections).getSection rt (.scalar (d p)) none none)) = true := by
  decide +kernel

end BeamDesign.Conformance
