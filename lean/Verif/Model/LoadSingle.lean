import Verif.Model.LoadCase

/-!
# The single position helpers of `LoadCase` (`beamdesign/loadcase.py` 125-305)

`get_load` used to call these for one position after the other (see the lines commented out in 450-463); now it
works on all positions at once, and the helpers remain as methods.  The dtypes of the arrays are not modelled here,
only their entries.
-/

namespace BeamDesign

section
variable {K : Type} [Field K] [LinearOrder K]

/-- `loadcase.py:149-153` and `187-191`: strings and numbers become members of the enumeration; anything else
(`None`, a list) has no `.value`, which is read afterwards: `AttributeError`. -/
def CompArg.single : CompArg → Py LComp
  | .name s => LComp.ofName s
  | .idx i => LComp.ofValue i
  | .comp c => .ok c
  | .none => .error .attributeError
  | .list _ => .error .attributeError
  | .items _ => .error .attributeError

/-- `loadcase.py:125-156` `_get_input_loads`: positions and one component of all rows; `none` is `None`. -/
def LoadCase.inputLoads (lc : LoadCase K) (component : CompArg) : Py (Option (List (K × K))) :=
  match lc.loads with
  | none => .ok none
  | some t => do
    let c ← component.single
    return some (t.rows.map fun r => (r.pos, r.get c))

/-- `loadcase.py:200-222`: the index of the first row at a position and the number of rows there
(`np.unique` with `return_index` and `return_counts`); 0 rows if the position is not stored. -/
def positionRun (p : K) (ps : List K) : ℕ × ℕ := (ps.findIdx (fun q => decide (q = p)), ps.count p)

/-- `loadcase.py:158-233` `_get_load_single_component`: the column of values, `none` for `None`. -/
def LoadCase.singleComponent (rt : Rt K) (lc : LoadCase K) (position : K) (component : CompArg) :
    Py (List (Option K)) :=
  match lc.loads with
  | none => .ok [none]
  | some t => do
    let c ← component.single
    if t.rows.length = 1 then
      return (t.rows.take 1).map fun r => some (r.get c)
    else
      let run := positionRun position (t.rows.map (·.pos))
      if 1 < run.2 then
        return ((t.rows.drop run.1).take run.2).map fun r => some (r.get c)
      else do
        match ← lc.inputLoads component with
        | none => .error .typeError
        | some loads => do
          let v ← npInterp rt none none position loads
          return [some v]

/-- `np.hstack` of columns: `ValueError` if they are not equally long. -/
def hstackCols {α : Type} : List (List α) → Py (List (List α))
  | [] => .error .valueError
  | c :: cs =>
    if cs.all (fun d => d.length == c.length) then
      .ok ((List.range c.length).map fun i => (c :: cs).filterMap (·[i]?))
    else .error .valueError

/-- `loadcase.py:235-305` `_get_load_single_position`: rows of position and values. -/
def LoadCase.singlePosition (rt : Rt K) (lc : LoadCase K) (position : K) (component : CompArg) :
    Py (List (K × List (Option K))) :=
  if 0 ≤ position ∧ position ≤ 1 then do
    let comp ←
      if component = .none then do
        let vx ← lc.singleComponent rt position (.comp .VX)
        let vy ← lc.singleComponent rt position (.comp .VY)
        let n ← lc.singleComponent rt position (.comp .N)
        let mx ← lc.singleComponent rt position (.comp .MX)
        let my ← lc.singleComponent rt position (.comp .MY)
        let t ← lc.singleComponent rt position (.comp .T)
        hstackCols [vx, vy, n, mx, my, t]
      else do
        let col ← lc.singleComponent rt position component
        pure (col.map fun v => [v])
    return comp.map fun vs => (position, vs)
  else .error .assertionError

end

end BeamDesign
