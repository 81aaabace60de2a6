import Verif.Conformance.Basic
import Verif.Model.LoadSingle

/-!
# `tests/test_loadcase.py` run on the model
-/

namespace BeamDesign.Conformance

/-- the names of the components in the order the tests go through them -/
def names : List String := ["VX", "VY", "N", "MX", "MY", "T"]

/-- `LoadCase(loads=[..])` with a list of rows -/
def lcase (rows : List (List ℚ)) : Py (LoadCase ℚ) := LoadCase.new (.table 7 (rows.map (·.map d)))

/-- `LoadCase(loads=[0.5, 1, 2, 3, 4, 5, 6])` -/
def lcRow : Py (LoadCase ℚ) := LoadCase.new (.row [d (1 / 2), i 1, i 2, i 3, i 4, i 5, i 6])

/-- the load case of two rows -/
def lcTwo : Py (LoadCase ℚ) := lcase [[1 / 4, 1, 2, 3, 4, 5, 6], [3 / 4, 2, 3, 4, 5, 6, 7]]

/-- the load case of six rows -/
def rowsSix : List (List ℚ) := [[0, 0, 0, 0, 0, 0, 0], [1 / 4, 1, 2, 3, 4, 5, 6], [1 / 2, 3 / 2, 5 / 2, 7 / 2, 9 / 2, 11 / 2, 13 / 2],
  [1 / 2, 10, 10, 10, 10, 10, 10], [3 / 4, 2, 3, 4, 5, 6, 7], [1, 3, 4, 5, 6, 7, 8]]

/-- the load case of six rows -/
def lcSix : Py (LoadCase ℚ) := lcase rowsSix

/-- `get_load(position=p, component=c)` -/
def loadAt (lc : Py (LoadCase ℚ)) (p : ℚ) (c : CompArg) : Py (Option (Tab ℚ)) := do (← lc).getLoad rt (.scalar (d p)) none c

/-- the six components one after the other, each with the expected rows `[p, value]` -/
def eachName (test : Py (Option (Tab ℚ)) → List (List ℚ) → Bool) (lc : Py (LoadCase ℚ)) (p : ℚ) (expected : List (List ℚ)) : Bool :=
  (names.zip expected).all fun x => test (loadAt lc p (.name x.1)) (x.2.map fun v => [p, v])

-- 11 test_LoadCase_init
example : LoadCase.new (K := ℚ) .none = .ok ⟨none⟩ := by decide +kernel

-- 21 test_LoadCase_init2
example : passes lcSix (fun _ => true) = true := by decide +kernel

-- 41 test_LoadCase_init_error: a row is too short
example : raises .loadCaseError (lcase ([0, 0, 0, 0, 0, 0] :: rowsSix.drop 1)) = true := by decide +kernel

-- 58 test_get_loads_1
example : (names.all fun n => decide (LoadCase.inputLoads (K := ℚ) ⟨none⟩ (.name n) = .ok none)) = true := by decide +kernel

-- 69 test_get_loads_2
example : (names.zip [1, 2, 3, 4, 5, 6]).all (fun x => passes lcRow fun lc =>
    decide (lc.inputLoads (.name x.1) = .ok (some [(1 / 2, x.2)]))) = true := by decide +kernel

-- 81 test_get_loads_3
example : (names.zip [1, 2, 3, 4, 5, 6]).all (fun x => passes lcTwo fun lc =>
    decide (lc.inputLoads (.name x.1) = .ok (some [(1 / 4, x.2), (3 / 4, x.2 + 1)]))) = true := by decide +kernel

-- 106 test_get_load_None
example : (names.all fun n => decide (loadAt (.ok ⟨none⟩) 1 (.name n) = .ok (some ⟨.obj, 1, [(1, [none])]⟩))) = true := by decide +kernel

-- 135 test_get_load_single
example : eachName equals lcRow (1 / 4) [[1], [2], [3], [4], [5], [6]] = true := by decide +kernel
example : eachName equals lcRow (1 / 2) [[1], [2], [3], [4], [5], [6]] = true := by decide +kernel
example : eachName equals lcRow (3 / 4) [[1], [2], [3], [4], [5], [6]] = true := by decide +kernel

-- 199 test_get_load_multiple
example : (names.zip [1, 2, 3, 4, 5, 6]).all (fun x => passes lcRow fun lc =>
    equals (lc.getLoad rt (.list [d (1 / 4), d (3 / 4)]) none (.name x.1)) [[1 / 4, x.2], [3 / 4, x.2]]) = true := by decide +kernel

-- 240 test_get_load_components
example : (LComp.all.zip [1, 2, 3, 4, 5, 6]).all (fun x => equals (loadAt lcRow (1 / 4) (.comp x.1)) [[1 / 4, x.2]]) = true := by decide +kernel

-- 275 test_get_load_multiple_positions
example : eachName equals lcTwo 0 [[1], [2], [3], [4], [5], [6]] = true := by decide +kernel
example : eachName equals lcTwo (1 / 4) [[1], [2], [3], [4], [5], [6]] = true := by decide +kernel
example : eachName equals lcTwo (1 / 2) [[3 / 2], [5 / 2], [7 / 2], [9 / 2], [11 / 2], [13 / 2]] = true := by decide +kernel
example : eachName equals lcTwo (3 / 4) [[2], [3], [4], [5], [6], [7]] = true := by decide +kernel
example : eachName equals lcTwo 1 [[2], [3], [4], [5], [6], [7]] = true := by decide +kernel

-- 387 test_get_load_multiple_positions2
example : eachName equals lcSix 0 [[0], [0], [0], [0], [0], [0]] = true := by decide +kernel
example : eachName equals lcSix (1 / 4) [[1], [2], [3], [4], [5], [6]] = true := by decide +kernel
example : eachName closeTo lcSix (4 / 10) [[13 / 10], [23 / 10], [33 / 10], [43 / 10], [53 / 10], [63 / 10]] = true := by decide +kernel
example : eachName equals lcSix (1 / 2) [[3 / 2, 10], [5 / 2, 10], [7 / 2, 10], [9 / 2, 10], [11 / 2, 10], [13 / 2, 10]] = true := by decide +kernel
example : eachName closeTo lcSix (6 / 10) [[68 / 10], [72 / 10], [76 / 10], [8], [84 / 10], [88 / 10]] = true := by decide +kernel
example : eachName equals lcSix (3 / 4) [[2], [3], [4], [5], [6], [7]] = true := by decide +kernel
example : eachName equals lcSix 1 [[3], [4], [5], [6], [7], [8]] = true := by decide +kernel

-- 544 test_get_load_multiple_positions3
example : equals (loadAt lcSix 0 .none) [[0, 0, 0, 0, 0, 0, 0]] = true := by decide +kernel
example : equals (loadAt lcSix (1 / 4) .none) [[1 / 4, 1, 2, 3, 4, 5, 6]] = true := by decide +kernel
example : closeTo (loadAt lcSix (4 / 10) .none) [[4 / 10, 13 / 10, 23 / 10, 33 / 10, 43 / 10, 53 / 10, 63 / 10]] = true := by decide +kernel
example : equals (loadAt lcSix (1 / 2) .none) [[1 / 2, 3 / 2, 5 / 2, 7 / 2, 9 / 2, 11 / 2, 13 / 2], [1 / 2, 10, 10, 10, 10, 10, 10]] = true := by
  decide +kernel
example : closeTo (loadAt lcSix (6 / 10) .none) [[6 / 10, 68 / 10, 72 / 10, 76 / 10, 8, 84 / 10, 88 / 10]] = true := by decide +kernel
example : equals (loadAt lcSix (3 / 4) .none) [[3 / 4, 2, 3, 4, 5, 6, 7]] = true := by decide +kernel
example : equals (loadAt lcSix 1 .none) [[1, 3, 4, 5, 6, 7, 8]] = true := by decide +kernel

-- 605 test_get_load_multiple_positions4
example : closeTo (do (← lcSix).getLoad rt (.list ([0, 4 / 10, 1 / 4, 1 / 2, 6 / 10, 3 / 4, 1].map d)) none .none)
    [[0, 0, 0, 0, 0, 0, 0], [1 / 4, 1, 2, 3, 4, 5, 6], [4 / 10, 13 / 10, 23 / 10, 33 / 10, 43 / 10, 53 / 10, 63 / 10],
      [1 / 2, 3 / 2, 5 / 2, 7 / 2, 9 / 2, 11 / 2, 13 / 2], [1 / 2, 10, 10, 10, 10, 10, 10], [6 / 10, 68 / 10, 72 / 10, 76 / 10, 8, 84 / 10, 88 / 10],
      [3 / 4, 2, 3, 4, 5, 6, 7], [1, 3, 4, 5, 6, 7, 8]] = true := by decide +kernel

-- 642 test_get_load_min_positions
example : closeTo (do (← lcSix).getLoad rt .none (some 5) .none) rowsSix = true := by decide +kernel

-- 675, 699 test_get_load_position_error, test_get_load_position_error1
example : raises .assertionError (do (← lcSix).getLoad rt (.scalar (d (1 / 2))) (some 2) .none) = true := by decide +kernel
example : raises .assertionError (do (← lcSix).getLoad rt .none none .none) = true := by decide +kernel

-- 722 test_constant_load
example : closeTo (loadAt (LoadCase.constantLoad 0 0 0 0 0 0) (1 / 4) .none) [[1 / 4, 0, 0, 0, 0, 0, 0]] = true := by decide +kernel
example : closeTo (loadAt (LoadCase.constantLoad 0 0 0 0 0 0) (3 / 4) .none) [[3 / 4, 0, 0, 0, 0, 0, 0]] = true := by decide +kernel
example : closeTo (loadAt (LoadCase.constantLoad 0 3 0 0 0 5) (1 / 4) .none) [[1 / 4, 0, 3, 0, 0, 0, 5]] = true := by decide +kernel
example : closeTo (loadAt (LoadCase.constantLoad 0 3 0 0 0 5) (3 / 4) .none) [[3 / 4, 0, 3, 0, 0, 0, 5]] = true := by decide +kernel

end BeamDesign.Conformance
