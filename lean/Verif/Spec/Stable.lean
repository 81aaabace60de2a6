import Verif.Spec.AS4100

/-!
# Specification of small changes of the loads
-/

namespace BeamDesign.Spec

variable {K : Type} [Field K] [LinearOrder K]

/-- Two tables with the same positions, and axial loads that differ by at most `δ`. -/
def WithinAxial (δ : K) (t t' : Table K) : Prop :=
  t.isInt = t'.isInt ∧ List.Forall₂ (fun r r' => r.pos = r'.pos ∧ |r.n - r'.n| ≤ δ) t.rows t'.rows

/-- Two beams of the same lengths and with the same load cases at the same positions, and axial loads that differ by at
most `δ`.  The other loads do not matter. -/
def WithinTension {S : Type} (δ : K) (b b' : Beam K S) : Prop :=
  List.Forall₂ (fun e e' => e.length = e'.length ∧
    List.Forall₂ (fun l l' => l.1 = l'.1 ∧
      ((l.2.loads = none ∧ l'.2.loads = none) ∨
        ∃ t t', l.2.loads = some t ∧ l'.2.loads = some t' ∧ WithinAxial δ t t')) e.loads e'.loads)
    b.elements b'.elements

end BeamDesign.Spec
