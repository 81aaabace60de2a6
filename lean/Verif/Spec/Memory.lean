import Verif.Model.Memory

/-! # What queries should answer: the value model, which has no storage -/

namespace BeamDesign

section
variable {K : Type} [Field K] [LinearOrder K] [FloorRing K]

/-- a table as the caller sees it -/
def Answer.ofTab (t : Tab K) : Answer K := .table t.dt (t.width + 1) (t.rows.map fun r => some r.1 :: r.2)

/-- a table or `None` -/
def Answer.ofTab? : Option (Tab K) → Answer K
  | some t => .ofTab t
  | none => .nothing

/-- What the query gives for a beam with certain loads: a function of the loads and nothing else. -/
def Query.answer (rt : Rt K) (o : AS4100 K) (b : Beam K (Sect K)) : Query K → Py (Answer K)
  | .elementLoads i c position minPos component => do
    let e ← pyIndex b.elements i
    return .ofTab? (← e.getLoads rt c position minPos component)
  | .getLoads c position minPos component => do
    return .ofTab? (← b.getLoads rt c position minPos component)
  | .getTension c position minPos => do
    return .ofTab (← { o with beam := some b }.getTension rt c position minPos)
  | .utilisation loadCase position => do
    return .num (← { o with beam := some b }.tensionUtilisation rt loadCase position)

/-- the queries of a program, in order -/
def queriesOf (steps : List (Step K)) : List (Query K) :=
  steps.filterMap fun
    | .query q => some q
    | .write .. => none

end

end BeamDesign
