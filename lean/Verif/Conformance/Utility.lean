import Verif.Conformance.Basic
import Verif.Model.Interp
import Verif.Model.Solvers

/-!
# `tests/test_interp.py` and `tests/test_solver.py` run on the model

The tests of the solvers with `exp`, `sin` and `cos` are left out, as are the tests on random lines (the model's theorems cover lines); the two parabolas
are here.  The interpolation tests compare with `np.interp`, so the values expected are those of numpy's documentation, written out.
-/

namespace BeamDesign.Conformance

open Interp

/-- `multi_interp(x, xp, fp, left, right)` gives these rows -/
def interpGives (x : XArg ℚ) (xp : List ℚ) (fp : FArg ℚ) (left right : Option ℚ) (expected : List (List ℚ)) : Bool :=
  let r := Interp.multiInterp .before125 rt x xp fp left right
  let near2 := fun (a b : List (List ℚ)) => decide (a.length = b.length) &&
    (a.zip b).all fun x => decide (x.1.length = x.2.length) && (x.1.zip x.2).all fun y => allclose y.1 y.2
  match r with
  | .ok (.scalar v) => near2 [[v]] expected
  | .ok (.row vs) => near2 [vs] expected
  | .ok (.table vss) => near2 vss expected
  | .error _ => false

-- 10-72 test_multi_interp0 to 4
example : interpGives (.scalar 0) [0, 0] (.row [0, 0]) none none [[0]] = true := by decide +kernel
example : interpGives (.scalar 1) [0, 1] (.row [0, 1]) none none [[1]] = true := by decide +kernel
example : interpGives (.list [1 / 2]) [0, 1] (.row [0, 1]) none none [[1 / 2]] = true := by decide +kernel
example : interpGives (.scalar (1 / 2)) [0, 1] (.row [0, 1]) none none [[1 / 2]] = true := by decide +kernel

-- 75 test_multi_interp5
example : interpGives (.list [1 / 2, 3 / 2]) [0, 1, 2] (.rows [[0, 1, 2], [10, 11, 12]]) none none [[1 / 2, 3 / 2], [21 / 2, 23 / 2]] = true := by
  decide +kernel

/-- the points of tests 6 and 7 -/
def xs6 : XArg ℚ := .list [-1 / 2, 1 / 2, 3 / 2, 5 / 2]

-- 88 test_multi_interp6
example : interpGives xs6 [0, 1, 2] (.rows [[0, 1, 2], [10, 11, 12]]) (some (-50)) none
    [[-50, 1 / 2, 3 / 2, 2], [-50, 21 / 2, 23 / 2, 12]] = true := by decide +kernel
example : interpGives xs6 [0, 1, 2] (.rows [[0, 1, 2], [10, 11, 12]]) none (some 50)
    [[0, 1 / 2, 3 / 2, 50], [10, 21 / 2, 23 / 2, 50]] = true := by decide +kernel
example : interpGives xs6 [0, 1, 2] (.rows [[0, 1, 2], [10, 11, 12]]) (some (-50)) (some 50)
    [[-50, 1 / 2, 3 / 2, 50], [-50, 21 / 2, 23 / 2, 50]] = true := by decide +kernel

-- 120 test_multi_interp7: equal abscissae
example : interpGives xs6 [0, 1, 1, 2] (.rows [[0, 1, 4, 2], [10, 11, 14, 12]]) (some (-50)) none
    [[-50, 1 / 2, 3, 2], [-50, 21 / 2, 13, 12]] = true := by decide +kernel
example : interpGives xs6 [0, 1, 1, 2] (.rows [[0, 1, 4, 2], [10, 11, 14, 12]]) none (some 50)
    [[0, 1 / 2, 3, 50], [10, 21 / 2, 13, 50]] = true := by decide +kernel
example : interpGives xs6 [0, 1, 1, 2] (.rows [[0, 1, 4, 2], [10, 11, 14, 12]]) (some (-50)) (some 50)
    [[-50, 1 / 2, 3, 50], [-50, 21 / 2, 13, 50]] = true := by decide +kernel

/-- the points of test 8 -/
def xs8 : XArg ℚ := .list [-1 / 2, -1 / 4, 0, 1 / 4, 1 / 2, 3 / 4, 1, 5 / 4, 3 / 2, 7 / 4, 2, 9 / 4, 5 / 2]

-- 152 test_multi_interp8: points at the abscissae; at the double one `np.interp` gives the last value
example : interpGives xs8 [0, 1, 1, 2] (.rows [[0, 1, 4, 2], [10, 11, 14, 12]]) none none
    [[0, 0, 0, 1 / 4, 1 / 2, 3 / 4, 4, 7 / 2, 3, 5 / 2, 2, 2, 2],
      [10, 10, 10, 41 / 4, 21 / 2, 43 / 4, 14, 27 / 2, 13, 25 / 2, 12, 12, 12]] = true := by decide +kernel
example : interpGives xs8 [0, 1, 1, 2] (.rows [[0, 1, 4, 2], [10, 11, 14, 12]]) (some (-50)) (some 50)
    [[-50, -50, 0, 1 / 4, 1 / 2, 3 / 4, 4, 7 / 2, 3, 5 / 2, 2, 50, 50],
      [-50, -50, 10, 41 / 4, 21 / 2, 43 / 4, 14, 27 / 2, 13, 25 / 2, 12, 50, 50]] = true := by decide +kernel

/-- `lambda x: x ** 2 - 3` -/
def parabola : SolveFun ℚ Unit := fun x _ => .ok (.fin (rt.sub (rt.mul x x) 3))

/-- `sqrt(3)` -/
def root3 : ℚ := fastRnd (17320508075688772935 / 10 ^ 19)

/-- `isclose(x, root, abs_tol=1e-8)` -/
def nearRoot (x root : ℚ) : Bool := near x root || decide (|x - root| ≤ 1 / 10 ^ 8)

-- test_solver.py 66 test_bisection_2
example : (match bisection rt parabola [] (.fin (-2)) (.fin (-1)) (fastRnd (1 / 10 ^ 9)) (some 20000) true 100 with
  | some (.ok (x, _)) => nearRoot x (-root3)
  | _ => false) = true := by decide +kernel
example : (match bisection rt parabola [] (.fin 1) (.fin 2) (fastRnd (1 / 10 ^ 9)) (some 20000) true 100 with
  | some (.ok (x, _)) => nearRoot x root3
  | _ => false) = true := by decide +kernel

-- 146 test_secant_3
example : (match secant rt parabola [] (.fin (-2)) (.fin (-1)) (fastRnd (1 / 10 ^ 9)) (some 20000) true 100 with
  | some (.ok (x, _, _)) => nearRoot x (-root3)
  | _ => false) = true := by decide +kernel
example : (match secant rt parabola [] (.fin 1) (.fin 2) (fastRnd (1 / 10 ^ 9)) (some 20000) true 100 with
  | some (.ok (x, _, _)) => nearRoot x root3
  | _ => false) = true := by decide +kernel

end BeamDesign.Conformance
