import Verif.Numpy

/-!
# Model of `beamdesign/loadcase.py`, `beamdesign/const.py` and `beamdesign/utility/interp.py`
-/

namespace BeamDesign

/-- `const.py:8-18` `LoadComponents` -/
inductive LComp
  | VX | VY | N | MX | MY | T
  deriving DecidableEq, Repr

namespace LComp

/-- `const.py:8-18`: the enum values. -/
def value : LComp → ℕ
  | VX => 1 | VY => 2 | N => 3 | MX => 4 | MY => 5 | T => 6

/-- All members, in the order of `loadcase.py:374-381`. -/
def all : List LComp := [VX, VY, N, MX, MY, T]

/-- `LoadComponents[name]` -/
def ofName (s : String) : Py LComp :=
  if s = "VX" then .ok VX else if s = "VY" then .ok VY else if s = "N" then .ok N
  else if s = "MX" then .ok MX else if s = "MY" then .ok MY else if s = "T" then .ok T
  else .error .keyError

/-- `LoadComponents(value)` -/
def ofValue (i : ℤ) : Py LComp :=
  if i = 1 then .ok VX else if i = 2 then .ok VY else if i = 3 then .ok N
  else if i = 4 then .ok MX else if i = 5 then .ok MY else if i = 6 then .ok T
  else .error .valueError

end LComp

/-- One row `[pos, vx, vy, N, mx, my, T]` of a load table. -/
structure LRow (K : Type) where
  pos : K
  vx : K
  vy : K
  n : K
  mx : K
  my : K
  t : K
  deriving DecidableEq, Repr

/-- Column of a row: numpy column `c.value`. -/
def LRow.get {K : Type} (r : LRow K) : LComp → K
  | .VX => r.vx | .VY => r.vy | .N => r.n | .MX => r.mx | .MY => r.my | .T => r.t

/-- The stored array: dtype (integer iff every entry was an int) and rows. -/
structure Table (K : Type) where
  isInt : Bool
  rows : List (LRow K)
  deriving DecidableEq, Repr

/-- `loadcase.py:14-46`: a `LoadCase` object; `none` is `_loads = None`. -/
structure LoadCase (K : Type) where
  loads : Option (Table K)
  deriving DecidableEq, Repr

/-- The `loads` argument: None, a bare number, a flat list or a list of lists.
Simplified: for arrays of dimension 3 and more and non-numeric entries see `Model/Arrays`. -/
inductive RawLoads (K : Type)
  | none
  | scalar (x : Num K)
  | row (r : List (Num K))
  | table (ncols : ℕ) (rows : List (List (Num K)))
  deriving DecidableEq, Repr

/-- The `position` argument: None, a number or a list. -/
inductive PosArg (K : Type)
  | none
  | scalar (x : Num K)
  | list (xs : List (Num K))
  deriving DecidableEq, Repr

/-- The `component` argument of `get_load`: None, a name, a number, a member of `LoadComponents`, a list of members or a list with
names and numbers among them. -/
inductive CompArg
  | none
  | name (s : String)
  | idx (i : ℤ)
  | comp (c : LComp)
  | list (cs : List LComp)
  | items (xs : List (LComp ⊕ (String ⊕ ℤ)))
  deriving DecidableEq, Repr

section
variable {K : Type}

/-- Interpret seven numbers as a row. -/
def LRow.ofList : List (Num K) → Option (LRow K)
  | [a, b, c, d, e, f, g] => some ⟨a.val, b.val, c.val, d.val, e.val, f.val, g.val⟩
  | _ => none

/-- dtype of `np.array(..)`: integer iff every entry is an int and there is one. -/
def allInt (xs : List (Num K)) : Bool := !xs.isEmpty && xs.all (·.isInt)

variable [LinearOrder K]

/-- `loadcase.py:114-123`: the order and range checks, then the assignment. -/
def LoadCase.checkAndSet [Zero K] [One K] (isInt : Bool) (rows : List (LRow K)) : Py (LoadCase K) :=
  let pos := rows.map (·.pos)
  if !diffNonneg pos then .error .assertionError
  else if !(pos.all (fun p => decide (p ≤ 1)) && pos.all (fun p => decide (0 ≤ p))) then
    .error .assertionError
  else .ok ⟨some ⟨isInt, rows⟩⟩

/-- `loadcase.py:72-123` `_set_loads`, called by `__init__` (18-37).
A table argument comes with its column count `ncols` (an `(0, 7)` array has one); rows of
another length make it ragged: numpy 1.16 then builds a one dimensional object array, which is rejected
(`LoadCaseError`) unless it happens to have 7 entries, when the comparison of a list with
1.0 raises `TypeError`. -/
def LoadCase.new [Zero K] [One K] : RawLoads K → Py (LoadCase K)
  | .none => .ok ⟨Option.none⟩
  | .scalar _ => .error .indexError
  | .row r =>
    match LRow.ofList r with
    | some row => LoadCase.checkAndSet (allInt r) [row]
    | Option.none => .error .loadCaseError
  | .table ncols rows =>
    if rows.all (fun r => r.length == ncols) then
      if ncols ≠ 7 then .error .loadCaseError
      else LoadCase.checkAndSet (allInt rows.flatten) (rows.filterMap LRow.ofList)
    else if rows.length = 7 then .error .typeError
    else .error .loadCaseError

/-- `loadcase.py:48-60` `load_positions`: numpy scalars of the table's dtype.
`None[:, 0]` raises `TypeError`. -/
def LoadCase.loadPositions (lc : LoadCase K) : Py (List (Num K)) :=
  match lc.loads with
  | none => .error .typeError
  | some t => .ok (t.rows.map fun r => ⟨r.pos, t.isInt⟩)

/-- `loadcase.py:62-70` `num_positions` -/
def LoadCase.numPositions (lc : LoadCase K) : Py ℕ := do
  let ps ← lc.loadPositions
  return ps.length

variable [Field K]

/-- `loadcase.py:465-529` `list_positions` -/
def LoadCase.listPositions (rt : Rt K) (lc : LoadCase K) (minPos : Option ℤ) (position : PosArg K) :
    Py (List (Num K)) :=
  match position, minPos with
  | .none, none => .error .assertionError
  | .scalar _, some _ => .error .assertionError
  | .list _, some _ => .error .assertionError
  | .scalar x, none =>
    -- an int is not converted to a list and is not iterable
    if x.isInt then .error .typeError else .ok (sortedSet [x])
  | .list xs, none => .ok (sortedSet xs)
  | .none, some n => do
    let lp ← lc.loadPositions
    let lin ← linspace rt 0 1 n
    let ps := sortedSet (lp ++ lin.map Num.flt)
    if (ps.length : ℤ) < n then .error .assertionError
    else .ok ps

/-- `loadcase.py:372-392`: the components asked for.  Names and numbers in a list are not converted and have no `value`. -/
def CompArg.resolve : CompArg → Py (List LComp)
  | .none => .ok LComp.all
  | .name s => do return [← LComp.ofName s]
  | .idx i => do return [← LComp.ofValue i]
  | .comp c => .ok [c]
  | .list cs => .ok cs
  | .items xs => xs.mapM fun x =>
    match x with
    | .inl c => .ok c
    | .inr _ => .error .attributeError

/-- `interp.py:10-53` `multi_interp` for a two dimensional `fp` (one list of values per component).
The `x is None` / `x == []` checks are the first two cases; no rows in `fp` make `np.vstack` raise
`ValueError`.  The result is given column-wise (as the caller transposes it): one list of
component values per `x`. -/
def multiInterp (rt : Rt K) (x : Option (List K)) (xp : List K) (fp : List (List K))
    (left right : Option K) : Py (List (List K)) :=
  match x with
  | none => .error .valueError
  | some [] => .error .valueError
  | some xs =>
    if fp = [] then .error .valueError
    else xs.mapM fun xi => fp.mapM fun f => npInterp rt left right xi (xp.zip f)

/-- `loadcase.py:425-440`: number the rows of both arrays, stack them, sort on the number with the unstable sort,
then on the position with a stable one, and drop the number. -/
def combineRows (rt : Rt K) (direct interp : List (Row K)) : List (Row K) :=
  let number := fun (l : List (Row K)) => l.zipIdx.map (fun x => (x.2, x.1))
  let sorted := rt.qsort (number direct ++ number interp)
  (sorted.insertionSort (fun a b => a.2.1 ≤ b.2.1)).map (·.2)

/-- Numeric rows as table cells. -/
def cells (rows : List (Row K)) : List (K × List (Option K)) :=
  rows.map fun r => (r.1, r.2.map some)

/-- `loadcase.py:307-463` `get_load`.  `none` is Python's `None`, returned for an empty list of
positions. -/
def LoadCase.getLoad (rt : Rt K) (lc : LoadCase K) (position : PosArg K) (minPos : Option ℤ)
    (component : CompArg) : Py (Option (Tab K)) := do
  let ps ← lc.listPositions rt minPos position
  match lc.loads with
  | none => return some ⟨.obj, 1, ps.map fun p => (p.val, [none])⟩
  | some t =>
    let lp := t.rows.map (·.pos)
    let psv := ps.map (·.val)
    let posDirect : List K := psv.filter (fun p => decide (p ∈ lp))
    let posInterp : List K := psv.filter (fun p => decide (p ∉ lp))
    let comps ← component.resolve
    let project := fun (r : LRow K) => ((r.pos, comps.map r.get) : Row K)
    let tdt := if t.isInt then DType.int else DType.flt
    -- shortcut (394-397): `np.unique` of the load positions
    if psv = (sortedSet (lp.map Num.flt)).map (·.val) then
      return some ⟨tdt, comps.length, cells (t.rows.map project)⟩
    else
      let direct := (t.rows.filter (fun r => decide (r.pos ∈ posDirect))).map project
      if posInterp = [] then
        if posDirect = [] then return none
        else return some ⟨tdt, comps.length, cells direct⟩
      else
        let vals ← multiInterp rt (some posInterp) lp
          (comps.map fun c => t.rows.map fun r => r.get c) none none
        let interp := posInterp.zip vals
        if posDirect = [] then return some ⟨.flt, comps.length, cells interp⟩
        else return some ⟨.flt, comps.length, cells (combineRows rt direct interp)⟩

/-- `loadcase.py:531-558` `constant_load`: a single row at position 0.0. -/
def LoadCase.constantLoadNum (vx vy n mx my t : Num K) : Py (LoadCase K) :=
  LoadCase.new (.row [Num.flt 0, vx, vy, n, mx, my, t])

/-- `loadcase.py:531-558` `constant_load` with floats for all the components -/
def LoadCase.constantLoad (vx vy n mx my t : K) : Py (LoadCase K) :=
  LoadCase.constantLoadNum (Num.flt vx) (Num.flt vy) (Num.flt n) (Num.flt mx) (Num.flt my) (Num.flt t)

end

end BeamDesign
