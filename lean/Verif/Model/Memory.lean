import Verif.Model.AS4100

/-!
# Arrays in memory: which results of `beamdesign` share storage with the stored loads

`Verif.Model.LoadCase`, `.Beam` and `.AS4100` treat arrays as values.  Here arrays are objects with storage: basic
indexing (`a[:, 0]`, `a[:, 1:]`, `a.transpose()`) gives a view of the same buffer, indexing with a list, a mask
or `np.ix_` and `hstack`/`vstack`/`array` give a new buffer, and assignments such as `a[..., 0] = p` write into the
buffer.  The functions are those of the value model, line by line, with these effects.

Simplification: temporary arrays that are neither returned nor written to are values.
-/

namespace BeamDesign

/-- The storage of an array: rows of cells; `none` is Python's `None`. -/
abbrev Buf (K : Type) := List (List (Option K))

/-- All buffers; an address is an index. -/
abbrev Mem (K : Type) := List (Buf K)

/-- A two dimensional `ndarray` object: its buffer, dtype and number of columns, and for each of its cells the
place (row and column) in the buffer. -/
structure Arr where
  buf : ℕ
  dt : DType
  ncols : ℕ
  cells : List (List (ℕ × ℕ))
  deriving DecidableEq, Repr

section
variable {K : Type}

/-- the cell at a place of a buffer -/
def Mem.cell (m : Mem K) (b : ℕ) (pl : ℕ × ℕ) : Option K :=
  ((((m[b]?).getD [])[pl.1]?).getD [])[pl.2]?.getD none

/-- the contents of an array -/
def Arr.read (m : Mem K) (a : Arr) : List (List (Option K)) := a.cells.map fun r => r.map (m.cell a.buf)

/-- assignment: the cells of a buffer for which `f` gives a value -/
def Mem.store (m : Mem K) (b : ℕ) (f : ℕ × ℕ → Option (Option K)) : Mem K :=
  m.modify b fun rows => rows.mapIdx fun i r => r.mapIdx fun j c => (f (i, j)).getD c

/-- A Python computation that may raise and changes memory, also when it raises. -/
def Heap (K α : Type) := Mem K → Py α × Mem K

namespace Heap

/-- return a value -/
def ret {α : Type} (a : α) : Heap K α := fun m => (.ok a, m)

/-- sequencing; an exception skips the rest -/
def andThen {α β : Type} (x : Heap K α) (f : α → Heap K β) : Heap K β := fun m =>
  match x m with
  | (.ok a, m') => f a m'
  | (.error e, m') => (.error e, m')

instance : Monad (Heap K) where
  pure := ret
  bind := andThen

/-- a computation on values -/
def lift {α : Type} (x : Py α) : Heap K α := fun m => (x, m)

/-- look at memory -/
def look {α : Type} (f : Mem K → α) : Heap K α := fun m => (.ok (f m), m)

end Heap

/-- the places of a new buffer -/
def places (rows : List (List (Option K))) : List (List (ℕ × ℕ)) :=
  rows.mapIdx fun i r => r.mapIdx fun j _ => (i, j)

/-- a new array with its own buffer -/
def alloc (dt : DType) (ncols : ℕ) (rows : List (List (Option K))) : Heap K Arr := fun m =>
  (.ok ⟨m.length, dt, ncols, places rows⟩, m ++ [rows])

/-- `a[:, cs]` with a list of columns: a copy -/
def Arr.takeCols (a : Arr) (cs : List ℕ) : Heap K Arr := do
  let rows ← Heap.look a.read
  alloc a.dt cs.length (rows.map fun r => cs.map fun c => (r[c]?).getD none)

/-- `a[np.ix_(mask, cs)]`: a copy of the rows where the mask (a function of the row) is true -/
def Arr.takeIx (a : Arr) (mask : List (Option K) → Bool) (cs : List ℕ) : Heap K Arr := do
  let rows ← Heap.look a.read
  alloc a.dt cs.length ((rows.filter mask).map fun r => cs.map fun c => (r[c]?).getD none)

/-- `a[:, k:]`: a view -/
def Arr.dropCols (a : Arr) (k : ℕ) : Arr := { a with ncols := a.ncols - k, cells := a.cells.map (List.drop k) }

/-- `a[:, c]`: a view; its cells -/
def Arr.col (a : Arr) (c : ℕ) : List (ℕ × ℕ) := a.cells.flatMap fun r => (r[c]?).toList

/-- `a.reshape((-1, n))` for a new array of `n` columns: a view of the whole array -/
def Arr.reshape (a : Arr) : Arr := a

/-- `np.vstack((a, b))`: a new array; `ValueError` when the column counts differ -/
def vstackArr (a b : Arr) : Heap K Arr := do
  if a.ncols = b.ncols then
    let x ← Heap.look a.read
    let y ← Heap.look b.read
    alloc (a.dt.join b.dt) a.ncols (x ++ y)
  else Heap.lift (.error .valueError)

/-- one row of a stored load table as cells -/
def LRow.cells (r : LRow K) : List (Option K) := [some r.pos, some r.vx, some r.vy, some r.n, some r.mx, some r.my, some r.t]

/-- A row of cells as a row of a load table.  Numeric arrays hold no `None`. -/
def LRow.ofCells [Zero K] (r : List (Option K)) : LRow K :=
  let g := fun i => ((r[i]?).getD none).getD 0
  ⟨g 0, g 1, g 2, g 3, g 4, g 5, g 6⟩

/-- What a `LoadCase` object holding the array (or `None`) contains now. -/
def LoadCase.ofMem [Zero K] (m : Mem K) (lc : Option Arr) : LoadCase K :=
  ⟨lc.map fun a => ⟨decide (a.dt = .int), (a.read m).map LRow.ofCells⟩⟩

/-- `element.py:11-51`, `beam.py:46-76`: elements whose load cases are array objects. -/
structure HElement (K S : Type) where
  loads : List (ℤ × Option Arr)
  length : Option (Num K)
  sect : S

/-- What the element contains now. -/
def HElement.now {S : Type} [Zero K] (m : Mem K) (e : HElement K S) : Element K S :=
  ⟨e.loads.map fun p => (p.1, LoadCase.ofMem m p.2), e.length, e.sect⟩

/-- What the beam contains now. -/
def hbeamNow {S : Type} [Zero K] (m : Mem K) (es : List (HElement K S)) : Beam K S := ⟨es.map (HElement.now m)⟩

variable [LinearOrder K] [Field K]

/-- `loadcase.py:307-463` `get_load`; `none` is Python's `None`. -/
def getLoadH (rt : Rt K) (lc : Option Arr) (position : PosArg K) (minPos : Option ℤ) (component : CompArg) :
    Heap K (Option Arr) := do
  let v ← Heap.look fun m => LoadCase.ofMem m lc
  let ps ← Heap.lift (v.listPositions rt minPos position)
  match lc, v.loads with
  | some a, some t =>
    let lp := t.rows.map (·.pos)
    let psv := ps.map (·.val)
    let posDirect : List K := psv.filter (fun p => decide (p ∈ lp))
    let posInterp : List K := psv.filter (fun p => decide (p ∉ lp))
    let comps ← Heap.lift component.resolve
    let cols := 0 :: comps.map LComp.value
    if psv = (sortedSet (lp.map Num.flt)).map (·.val) then
      -- 394-397
      let r ← a.takeCols cols
      return some r
    else do
      -- 402-411
      let direct ← if posDirect = [] then (pure none : Heap K (Option Arr)) else do
        let d ← a.takeIx (fun r => decide (((r[0]?).getD none) ∈ posDirect.map some)) cols
        pure (some d.reshape)
      -- 413-420
      let interp ← if posInterp = [] then (pure none : Heap K (Option Arr)) else do
        let vals ← Heap.lift (multiInterp rt (some posInterp) lp
          (comps.map fun c => t.rows.map fun r => r.get c) none none)
        let i ← alloc .flt cols.length ((posInterp.zip vals).map fun r => some r.1 :: r.2.map some)
        pure (some i)
      match direct, interp with
      | some d, some i => do
        -- 422-441: both get an index column, are stacked and sorted (copies); the index column is cut off (a view)
        let dr ← Heap.look d.read
        let ir ← Heap.look i.read
        let row := fun (r : List (Option K)) => ((((r[0]?).getD none).getD 0, (r.drop 1).map (Option.getD · 0)) : Row K)
        let number := fun (l : List (Row K)) => l.zipIdx.map (fun x => (x.2, x.1))
        let sorted := (rt.qsort (number (dr.map row) ++ number (ir.map row))).insertionSort (fun a b => a.2.1 ≤ b.2.1)
        let s ← alloc .flt (cols.length + 1) (sorted.map fun r => some (r.1 : K) :: some r.2.1 :: r.2.2.map some)
        return some (s.dropCols 1)
      | some d, none => return some d
      | none, i => return i
  | _, _ => do
    -- 446-451
    let r ← alloc .obj 2 (ps.map fun p => [some p.val, none])
    return some r

variable {S : Type} [FloorRing K]

/-- `a[..., 0] = p`: a write into the first column, truncated in an array of ints -/
def Arr.setPos (a : Arr) (p : K) : Heap K Unit := fun m =>
  let q := if a.dt = DType.int then truncK p else p
  (.ok (), m.store a.buf fun pl => if pl ∈ a.col 0 then some (some q) else none)

/-- `element.py:72-134`: `self.loads[load_case].get_load(…)` -/
def HElement.getLoads (rt : Rt K) (e : HElement K S) (c : ℤ) (position : PosArg K) (minPos : Option ℤ)
    (component : CompArg) : Heap K (Option Arr) :=
  match e.loads.lookup c with
  | some lc => getLoadH rt lc position minPos component
  | none => Heap.lift (.error .keyError)

/-- `beam.py:378-392`: one pass of the loop of `get_loads` -/
def loadStepH (rt : Rt K) (es : List (HElement K S)) (c : ℤ) (component : CompArg) (acc : Option Arr) (l : Loc K) :
    Heap K (Option Arr) := do
  let e ← Heap.lift (pyIndex es (l.elem : ℤ))
  let val ← e.getLoads rt c (.scalar l.loc) none component
  match val with
  | none => Heap.lift (.error .typeError)
  | some a => do
    a.setPos l.pos.val
    match acc with
    | none => return some a
    | some b => do
      let r ← vstackArr b a
      return some r

/-- `beam.py:314-394` `Beam.get_loads` -/
def getLoadsH (rt : Rt K) (es : List (HElement K S)) (c : ℤ) (position : PosArg K) (minPos : Option ℤ)
    (component : CompArg) : Heap K (Option Arr) := do
  let b ← Heap.look fun m => hbeamNow m es
  let locs ← Heap.lift (b.listPositions rt position minPos (some c))
  locs.foldlM (loadStepH rt es c component) none

/-- codecheck.py 324: `tension[:, 1][tension[:, 1] < 0] = 0`, a write through a view.  `None < 0` raises
`TypeError`, a missing column `IndexError`; nothing is written then. -/
def Arr.clamp (a : Arr) : Heap K Unit := fun m =>
  if (a.cells.any fun r => decide (r.length ≤ 1)) then (.error .indexError, m)
  else if (a.col 1).any (fun pl => decide (m.cell a.buf pl = none)) then (.error .typeError, m)
  else (.ok (), m.store a.buf fun pl =>
    if pl ∈ a.col 1 then (m.cell a.buf pl).bind fun x => if x < 0 then some (some 0) else none else none)

/-- codecheck.py 270-326 `get_tension` of an object with a beam -/
def getTensionH (rt : Rt K) (es : List (HElement K S)) (c : ℤ) (position : PosArg K) (minPos : Option ℤ) :
    Heap K Arr := do
  match ← getLoadsH rt es c position minPos (.name "N") with
  | none => Heap.lift (.error .typeError)
  | some a => do
    a.clamp
    return a

end

section
variable {K : Type} [Field K] [LinearOrder K] [FloorRing K]

/-- An `AS4100` object whose beam's load tables are arrays in memory; `attrs` has the other attributes. -/
structure HObj (K : Type) where
  elements : List (HElement K (Sect K))
  attrs : AS4100 K

/-- What the object contains now. -/
def HObj.now (m : Mem K) (o : HObj K) : AS4100 K := { o.attrs with beam := some (hbeamNow m o.elements) }

/-- as4100.py 101-144: the utilisations at one position in one load case -/
def HObj.utilAt (rt : Rt K) (o : HObj K) (c : ℤ) (p : Num K) : Heap K (List (ℤ × Num K × K)) := do
  let v ← Heap.look o.now
  let cap ← Heap.lift (v.tensionCapacity rt (.scalar p))
  let a ← getTensionH rt o.elements c (.scalar p) none
  let rows ← Heap.look a.read
  Heap.lift (rows.mapM fun r =>
    match (r[1]?).getD none with
    | some t => do return (c, p, ← utilOne rt cap t)
    | none => .error .typeError)

/-- as4100.py 101: the loop over the positions -/
def HObj.utilPass (rt : Rt K) (o : HObj K) (c : ℤ) : List (Num K) → Heap K (List (List (ℤ × Num K × K)))
  | [] => return []
  | p :: ps => do
    let here ← o.utilAt rt c p
    let rest ← o.utilPass rt c ps
    return here :: rest

/-- as4100.py 94-144: the loop over load cases -/
def HObj.utilLoop (rt : Rt K) (o : HObj K) : Option (List (Num K)) → List ℤ → Heap K (List (ℤ × Num K × K))
  | _, [] => return []
  | pos, c :: cs => do
    let v ← Heap.look o.now
    let ps ← Heap.lift (v.utilPositions rt pos c)
    let here ← o.utilPass rt c ps
    let rest ← o.utilLoop rt (some ps) cs
    return here.flatten ++ rest

/-- as4100.py 65-156 `tension_utilisation` -/
def HObj.tensionUtilisation (rt : Rt K) (o : HObj K) (loadCase : CaseArg) (position : PosArg K) : Heap K K := do
  let given ← Heap.lift position.given
  let v ← Heap.look o.now
  let cases ← Heap.lift (v.utilCases loadCase)
  let ret ← o.utilLoop rt given cases
  Heap.lift (pyMax ((utilFilter loadCase given ret).map fun r => r.2.2))

/-- The queries of the library that involve loads.  `getLoad` is
`beam.elements[i].loads[c].get_load(…)`, `elementLoads` is `beam.elements[i].get_loads(…)`. -/
inductive Query (K : Type)
  | elementLoads (i : ℤ) (c : ℤ) (position : PosArg K) (minPos : Option ℤ) (component : CompArg)
  | getLoads (c : ℤ) (position : PosArg K) (minPos : Option ℤ) (component : CompArg)
  | getTension (c : ℤ) (position : PosArg K) (minPos : Option ℤ)
  | utilisation (loadCase : CaseArg) (position : PosArg K)

/-- What a query returns: an array, `None` or a number. -/
inductive Returned (K : Type)
  | arr (a : Arr)
  | nothing
  | num (x : K)

/-- `None` or an array -/
def Returned.ofOption : Option Arr → Returned K
  | some a => .arr a
  | none => .nothing

/-- one query -/
def Query.run (rt : Rt K) (o : HObj K) : Query K → Heap K (Returned K)
  | .elementLoads i c position minPos component => do
    let e ← Heap.lift (pyIndex o.elements i)
    return .ofOption (← e.getLoads rt c position minPos component)
  | .getLoads c position minPos component => do
    return .ofOption (← getLoadsH rt o.elements c position minPos component)
  | .getTension c position minPos => do
    return .arr (← getTensionH rt o.elements c position minPos)
  | .utilisation loadCase position => do
    return .num (← o.tensionUtilisation rt loadCase position)

/-- What a program does: a query, or writing a number into cell (i, j) of the `k`-th array it got. -/
inductive Step (K : Type)
  | query (q : Query K)
  | write (k i j : ℕ) (x : K)

/-- What the caller sees when a query returns: the dtype, column count and contents of an array, `None` or a number. -/
inductive Answer (K : Type)
  | table (dt : DType) (ncols : ℕ) (rows : List (List (Option K)))
  | nothing
  | num (x : K)
  deriving DecidableEq, Repr

/-- what the caller sees -/
def Returned.look (m : Mem K) : Returned K → Answer K
  | .arr a => .table a.dt a.ncols (a.read m)
  | .nothing => .nothing
  | .num x => .num x

/-- the arrays the caller gets hold of -/
def Returned.arrays : Returned K → List Arr
  | .arr a => [a]
  | _ => []

/-- A program's view: memory, the arrays it got so far, and what the queries returned, as seen on return. -/
structure Program (K : Type) where
  mem : Mem K
  got : List Arr
  seen : List (Py (Answer K))

/-- One step of a program.  Writes to arrays it does not have or cells they do not have do nothing. -/
def Step.exec (rt : Rt K) (o : HObj K) (s : Program K) : Step K → Program K
  | .query q =>
    match q.run rt o s.mem with
    | (.ok r, m) => ⟨m, s.got ++ r.arrays, s.seen ++ [.ok (r.look m)]⟩
    | (.error e, m) => ⟨m, s.got, s.seen ++ [.error e]⟩
  | .write k i j x =>
    match s.got[k]? with
    | none => s
    | some a =>
      match (a.cells[i]?).bind (·[j]?) with
      | none => s
      | some pl =>
        let y := if a.dt = DType.int then truncK x else x
        { s with mem := s.mem.store a.buf fun p => if p = pl then some (some y) else none }

/-- The elements with their load tables put into memory: `np.array(loads)` makes a new array for each. -/
def storeLoads {S : Type} : List (Element K S) → Mem K → List (HElement K S) × Mem K
  | [], m => ([], m)
  | e :: es, m =>
    let cases : List (ℤ × Option Arr) × Mem K := e.loads.foldl (fun acc p =>
      match p.2.loads with
      | none => (acc.1 ++ [(p.1, none)], acc.2)
      | some t =>
        let rows := t.rows.map LRow.cells
        (acc.1 ++ [(p.1, some ⟨acc.2.length, if t.isInt then .int else .flt, 7, places rows⟩)], acc.2 ++ [rows])) ([], m)
    let rest := storeLoads es cases.2
    (⟨cases.1, e.length, e.sect⟩ :: rest.1, rest.2)

/-- The `AS4100` object, its load tables put into memory. -/
def AS4100.inMemory (o : AS4100 K) (b : Beam K (Sect K)) : HObj K × Mem K :=
  let st := storeLoads b.elements []
  (⟨st.1, o⟩, st.2)

/-- Run a program on the object, from its load tables just stored. -/
def runProgram (rt : Rt K) (o : AS4100 K) (b : Beam K (Sect K)) (steps : List (Step K)) : Program K :=
  steps.foldl (Step.exec rt (o.inMemory b).1) ⟨(o.inMemory b).2, [], []⟩

/-- loadcase.py 39-46 `loads`: the stored array itself -/
def loadsH (lc : Option Arr) : Heap K (Option Arr) := Heap.ret lc

/-- loadcase.py 48-60 `load_positions`: `self.loads[:, 0]`, a view, here as an array of one column -/
def loadPositionsH (lc : Option Arr) : Heap K Arr :=
  match lc with
  | none => Heap.lift (.error .typeError)
  | some a => Heap.ret { a with ncols := 1, cells := a.cells.map fun r => (r[0]?).toList }

end

end BeamDesign
