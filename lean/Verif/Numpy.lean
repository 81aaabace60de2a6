import Verif.Py

/-!
# The numpy functions the library uses

Written against numpy 1.16 (the version current when the repository was written).
-/

namespace BeamDesign

/-- A row of a result array: the position column and the other columns. -/
abbrev Row (K : Type) := K × List K

/-- How the builtin `sum` adds floats: one after the other (Python up to 3.11), with a correction for the rounding errors
made in adding floats (from 3.12), or in adding ints to floats too. -/
inductive PySum
  | plain
  | floats
  | all
  deriving DecidableEq, Repr

/-- The run-time environment of the code: floating point arithmetic, the order in which `numpy.argsort()` (default kind,
unstable) leaves rows with equal keys, and the version of the builtin `sum`. -/
structure Rt (K : Type) where
  add : K → K → K
  sub : K → K → K
  mul : K → K → K
  div : K → K → K
  /-- `a[a[:, 0].argsort()]` for rows carrying an integer index column -/
  qsort : List (ℕ × Row K) → List (ℕ × Row K)
  /-- the builtin `sum`; Python up to 3.11 unless said otherwise -/
  sum : PySum := .plain

namespace Rt

variable {K : Type}

/-- All that is assumed of the unstable sort: it permutes the rows and sorts them by key. -/
def SortOK (rt : Rt K) : Prop :=
  ∀ l, (rt.qsort l).Perm l ∧ (rt.qsort l).Pairwise (fun a b => a.1 ≤ b.1)

/-- Exact arithmetic. -/
structure Exact [Field K] (rt : Rt K) : Prop where
  add : ∀ a b, rt.add a b = a + b
  sub : ∀ a b, rt.sub a b = a - b
  mul : ∀ a b, rt.mul a b = a * b
  div : ∀ a b, rt.div a b = a / b

/-- The concrete exact run-time with a stable sort, used in examples. -/
def exact (K : Type) [Field K] : Rt K where
  add := (· + ·)
  sub := (· - ·)
  mul := (· * ·)
  div := (· / ·)
  qsort := fun l => l.insertionSort (fun a b => a.1 ≤ b.1)

end Rt

/-- dtype of an array -/
inductive DType
  | int
  | flt
  | obj
  deriving DecidableEq, Repr

/-- dtype of the concatenation of two arrays -/
def DType.join : DType → DType → DType
  | .obj, _ => .obj
  | _, .obj => .obj
  | .flt, _ => .flt
  | _, .flt => .flt
  | .int, .int => .int

/-- A two dimensional result array: dtype, number of columns after the position column, rows.
A cell is `none` when it holds Python's `None`. -/
structure Tab (K : Type) where
  dt : DType
  width : ℕ
  rows : List (K × List (Option K))
  deriving DecidableEq, Repr

/-- `np.vstack((a, b))`: raises `ValueError` when the column counts differ. -/
def Tab.vstack {K : Type} (a b : Tab K) : Py (Tab K) :=
  if a.width = b.width then .ok ⟨a.dt.join b.dt, a.width, a.rows ++ b.rows⟩
  else .error .valueError

section
variable {K : Type} [Field K] [LinearOrder K] [FloorRing K]

/-- Conversion of a number to an integer array element: truncation towards zero. -/
def truncK (x : K) : K := if 0 ≤ x then (⌊x⌋ : K) else (⌈x⌉ : K)

/-- `a[..., 0] = p` -/
def Tab.setPos (a : Tab K) (p : K) : Tab K :=
  let q := if a.dt = DType.int then truncK p else p
  { a with rows := a.rows.map (fun r => (q, r.2)) }

end

section
variable {K : Type} [LinearOrder K]

/-- `np.all(np.diff(pos) >= 0)`.  (On floats `b - a >= 0` is `a <= b`.) -/
def diffNonneg : List K → Bool
  | [] => true
  | [_] => true
  | a :: b :: rest => decide (a ≤ b) && diffNonneg (b :: rest)

/-- Core of `np.interp`: the current knot `(xj, yj)` has `xj <= x`; walk to the last knot not
beyond `x` and use the straight line to the next one.  numpy finds the same knot by
binary search (the positions are sorted, see `LoadCase._set_loads`). -/
def interpGo (rt : Rt K) (x : K) : K × K → List (K × K) → K
  | (_, yj), [] => yj
  | (xj, yj), (x1, y1) :: rest =>
    if x1 ≤ x then interpGo rt x (x1, y1) rest
    else if xj = x then yj
    else rt.add (rt.mul (rt.div (rt.sub y1 yj) (rt.sub x1 xj)) (rt.sub x xj)) yj

/-- `np.interp(x, xp, fp, left, right)` for one `x`, knots given as pairs.
Empty data raise `ValueError`. -/
def npInterp (rt : Rt K) (left right : Option K) (x : K) : List (K × K) → Py K
  | [] => .error .valueError
  | (x0, y0) :: rest =>
    if x < x0 then .ok (left.getD y0)
    else
      let l := ((x0, y0) :: rest).getLast (by simp)
      if l.1 < x then .ok (right.getD l.2)
      else .ok (interpGo rt x (x0, y0) rest)

end

section
variable {K : Type} [Field K] [DecidableEq K]

/-- `np.linspace(start, stop, num)`. -/
def linspace (rt : Rt K) (start stop : K) (num : ℤ) : Py (List K) :=
  if num < 0 then .error .valueError
  else
    let n := num.toNat
    let delta := rt.sub stop start
    .ok ((List.range n).map fun (i : ℕ) =>
      if n ≤ 1 then rt.add (rt.mul (i : K) delta) start
      else if i + 1 = n then stop
      else
        let step := rt.div delta ((n - 1 : ℕ) : K)
        if step = 0 then rt.add (rt.mul (rt.div (i : K) ((n - 1 : ℕ) : K)) delta) start
        else rt.add (rt.mul (i : K) step) start)

end

end BeamDesign
