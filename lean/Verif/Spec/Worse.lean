import Verif.Spec.AS4100

/-!
# Specification of one design being worse than another
-/

namespace BeamDesign.Spec

variable {K : Type} [Field K] [LinearOrder K]

/-- Two tables with the same positions, the second with nowhere a smaller axial load. -/
def NoLessAxial (t t' : Table K) : Prop :=
  t.isInt = t'.isInt ∧ List.Forall₂ (fun r r' => r.pos = r'.pos ∧ r.n ≤ r'.n) t.rows t'.rows

/-- Two beams of the same lengths and with the same load cases at the same positions, the second with nowhere a smaller
axial load.  The other loads and the sections do not matter. -/
def NoLessTension {S : Type} (b b' : Beam K S) : Prop :=
  List.Forall₂ (fun e e' => e.length = e'.length ∧
    List.Forall₂ (fun l l' => l.1 = l'.1 ∧
      ((l.2.loads = none ∧ l'.2.loads = none) ∨
        ∃ t t', l.2.loads = some t ∧ l'.2.loads = some t' ∧ NoLessAxial t t')) e.loads e'.loads)
    b.elements b'.elements

/-- Every section of the second object has a positive design capacity, and none larger than the section in its place in
the first. -/
def NoMoreCapacity (rt : Rt K) (o o' : AS4100 K) : Prop :=
  0 < o.phiSteel ∧ 0 < o'.phiSteel ∧
  List.Forall₂ (fun d d' => ∃ n n', SectionCapacity rt o.kt o.alphaU d n ∧ SectionCapacity rt o'.kt o'.alphaU d' n' ∧
    0 < n' ∧ o'.phiSteel * n' ≤ o.phiSteel * n) o.dsects o'.dsects

/-- A solid circle and a thicker one of the same material, in the same band of its strength table: no tabulated
thickness lies from the one diameter up to the other. -/
def ThickerInBand (d d' : DSect K) : Prop :=
  d.material = d'.material ∧ d.radius ≤ d'.radius ∧
  ∀ ts rows, d.material.properties.lookup "strengths" = some (.table (ts :: rows)) →
    ∀ x ∈ ts, 2 * d.radius ≤ x → 2 * d'.radius ≤ x

end BeamDesign.Spec
