import Verif.Model.S6Threads
import Verif.Spec.S6Cache

/-!
# What threads may rely on
-/

namespace BeamDesign

open S6

/-- the tick is a step of thread `i` -/
def S6.Tick.isRun (i : ℕ) : Tick → Bool
  | .run j => j == i
  | .other _ => false

/-- Between the steps of threads the program may do everything, except changing the number stored under
`"f_oxz"` in a dictionary `f_oxz` returned. -/
def S6.Tick.isFair : Tick → Prop
  | .run _ => True
  | .other e => e.isFair

/-- the numbers (or the exceptions) of a list of outcomes -/
def numbersOf (rs : List (Py Answer)) : List (Py Numbers) := rs.map fun r => r.map (·.numbers)

/-- thread `i` has ended, with these outcomes of its calls -/
def S6.Pool.Ended (p : Pool) (i : ℕ) (rs : List (Py Answer)) : Prop := p.threads[i]? = some (.done (.ok rs))

/-- Between the steps of threads the program makes calls and empties caches, but does not itself change
dictionaries of results. -/
def S6.Event.isQuiet : Event → Prop
  | .call _ | .clearRol | .clearTor | .clearFoxz => True
  | _ => False

/-- see `S6.Event.isQuiet` -/
def S6.Tick.isQuiet : Tick → Prop
  | .run _ => True
  | .other e => e.isQuiet

/-- the section whose data is in the dictionary of intermediate results of a doubly or singly symmetric section:
for buckling about y the axes are exchanged -/
def S6.sectionOf (m : Member) (sym : Symmetry) : Option FKey :=
  match sym.symmetry with
  | .ok .double => some (Member.keyX m)
  | .ok .single => if (sym.axes.getD []).any (Axis.isStr "x") then some (Member.keyX m) else some (Member.keyY m)
  | _ => none

/-- the section whose data is in the dictionary of intermediate results of a call, if it has any -/
noncomputable def S6.Call.section : Call → Option FKey
  | .foxz k => some k
  | .focDouble m _ => some (Member.keyX m)
  | .focSingle m sym => if (sym.axes.getD []).any (Axis.isStr "x") then some (Member.keyX m) else some (Member.keyY m)
  | .ncTorsion m _ _ sym _ => sectionOf m sym
  | .nc a => sectionOf a.member a.sym
  | _ => none

/-- the calls that return a dictionary of intermediate results -/
def S6.Call.gives : Call → Prop
  | .rol _ => False
  | .torsionStress _ => False
  | .nc a => a.calcBuckling = true ∧ a.calcTorsion = true
  | _ => True

end BeamDesign
