import Verif.Spec.Load

/-!
# Specification of entering reported loads again
-/

namespace BeamDesign.Spec

variable {K : Type} [Field K] [LinearOrder K]

/-- The array that `get_load` returned, given as the loads of a new load case: position and components of each row, and
the dtype it had.  (A cell without a number does not occur in what a load case with loads returns.) -/
def entered (t : Tab K) : RawLoads K :=
  .table (t.width + 1) (t.rows.map fun r =>
    ⟨r.1, decide (t.dt = .int)⟩ :: r.2.map fun v => ⟨v.getD 0, decide (t.dt = .int)⟩)

/-- The two load cases answer every explicit request with the same numbers. -/
def SameAnswers (rt : Rt K) (a b : LoadCase K) : Prop :=
  ∀ (position : PosArg K) (xs : List K) (component : CompArg) (cs : List LComp), Requested position xs → xs ≠ [] →
    Asks component cs → cs ≠ [] →
    ∃ (rows : List (K × List (Option K))) (dt dt' : DType), a.getLoad rt position none component = .ok (some ⟨dt, cs.length, rows⟩) ∧
      b.getLoad rt position none component = .ok (some ⟨dt', cs.length, rows⟩)

end BeamDesign.Spec
