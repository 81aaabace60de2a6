import Verif.Model.LoadCase

/-!
# The `loads` argument beyond tables of numbers

`LoadCase.new` (`Verif/Model/LoadCase.lean`) takes numbers, rows and tables of numbers.  Here are the checks of `_set_loads`
for arrays with more than two dimensions and for rows with `None` or strings in them.
-/

namespace BeamDesign

/-- An array of shape `(n, ncols, outer.., last)`: for each of the `n` blocks and each of its `ncols` columns the fibres along the
last dimension (one fibre for a three dimensional array). -/
structure DeepArray (K : Type) where
  ncols : ℕ
  blocks : List (List (List (List K)))
  deriving DecidableEq, Repr

/-- An entry of a row: a number, `None` or a string. -/
inductive Cell (K : Type)
  | num (x : K)
  | none
  | str (s : String)
  deriving DecidableEq, Repr

variable {K : Type} [LinearOrder K] [Zero K] [One K]

/-- `loadcase.py:114` `pos = arr[:, 0]`: the fibres of the first column of every block -/
def DeepArray.pos (a : DeepArray K) : List (List K) := a.blocks.flatMap fun b => (b.head?.getD [])

/-- `loadcase.py:93-123` `_set_loads` for an array of three and more dimensions: `arr.shape[1]` is compared with 7, and `np.diff` takes
differences along the last dimension. -/
def LoadCase.checkDeep (a : DeepArray K) : Py Unit :=
  if a.ncols ≠ 7 then .error .loadCaseError
  else if !a.pos.all diffNonneg then .error .assertionError
  else if !(a.pos.all (fun f => f.all fun p => decide (p ≤ 1)) && a.pos.all (fun f => f.all fun p => decide (0 ≤ p))) then
    .error .assertionError
  else .ok ()

/-- the position an entry of an object array stands for: `None` and strings cannot be subtracted or compared with 1.0 -/
def Cell.position : Cell K → Py K
  | .num x => .ok x
  | _ => .error .typeError

/-- is the entry a string? -/
def Cell.isStr : Cell K → Bool
  | .str _ => true
  | _ => false

/-- is the entry `None`? -/
def Cell.isNone : Cell K → Bool
  | .none => true
  | _ => false

/-- `loadcase.py:93-123` `_set_loads` for a table of seven columns with entries that are not numbers.  With strings and no `None` the array has a
string dtype, for which `np.diff` raises `TypeError`; with a `None` it is an object array, of which only the positions are looked at
(`np.diff` and the comparisons raise `TypeError` for one that is not a number). -/
def LoadCase.checkCells (rows : List (Cell K × List (Cell K))) : Py Unit :=
  let cells := rows.flatMap fun r => r.1 :: r.2
  if cells.any Cell.isStr && !cells.any Cell.isNone then .error .typeError
  else do
    let pos ← rows.mapM fun r => r.1.position
    if !diffNonneg pos then .error .assertionError
    else if !(pos.all (fun p => decide (p ≤ 1)) && pos.all (fun p => decide (0 ≤ p))) then .error .assertionError
    else .ok ()

end BeamDesign
