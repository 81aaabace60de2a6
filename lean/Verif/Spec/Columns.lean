import Verif.Spec.Beam
import Verif.Model.AS4100

/-!
# Specification: load cases that agree in some of the components
-/

namespace BeamDesign.Spec

variable {K S : Type} [Field K] [LinearOrder K]

/-- The two load cases have the same positions and, for the components `cs`, the same loads (or no loads in either), and
are both entered as whole numbers or both not.  Nothing is said about the other components. -/
def SameColumns (cs : List LComp) (a a' : LoadCase K) : Prop :=
  (a.loads = none ∧ a'.loads = none) ∨
  ∃ t t', a.loads = some t ∧ a'.loads = some t' ∧ t.isInt = t'.isInt ∧
    List.Forall₂ (fun r r' => r.pos = r'.pos ∧ ∀ c ∈ cs, entry r c = entry r' c) t.rows t'.rows

/-- The two beams have the same lengths, and their load cases `k` agree in the components `cs` (or are missing in both). -/
def SameComponents (cs : List LComp) (k : ℤ) (b b' : Beam K S) : Prop :=
  List.Forall₂ (fun e e' => e.length = e'.length ∧
    ((e.loads.lookup k = none ∧ e'.loads.lookup k = none) ∨
      ∃ a a', e.loads.lookup k = some a ∧ e'.loads.lookup k = some a' ∧ SameColumns cs a a')) b.elements b'.elements

end BeamDesign.Spec
