import Verif.Spec.Sound

/-!
# Specification of a safe design with loads stored at arbitrary positions
-/

namespace BeamDesign.Spec

/-- In load case `k` the stored positions of every element are at least `g` apart (so there are no jumps) and no stored axial load
has a magnitude above `W`. -/
def GentleLoads (b : Beam ℚ (Sect ℚ)) (k : ℤ) (g W : ℚ) : Prop :=
  ∀ i t, HasTable b k i t → (t.rows.Pairwise fun r s => r.pos + g ≤ s.pos) ∧ ∀ r ∈ t.rows, |r.n| ≤ W

/-- No element is shorter than the beam divided by `R`, nor than `2 ^ -100`. -/
def NotTiny (ls : List (Num ℚ)) (R : ℚ) : Prop := ∀ l ∈ ls, total ls ≤ R * l.val ∧ 2 ^ (-100 : ℤ) ≤ l.val

/-- In load case `k` the axial load is nowhere, on any element, above `f` times the true design capacity of the element by more
than `E`. -/
def TrulyNowhereAboveBy (o : AS4100 ℚ) (b : Beam ℚ (Sect ℚ)) (k : ℤ) (f E : ℝ) : Prop :=
  ∀ i t e d c x v, HasTable b k i t → b.elements[i]? = some e → e.sect = .circle d.radius (some d.material) →
    TrueCapacity o d c → 0 ≤ x → x ≤ 1 → AxialAt t.rows x v → (v : ℝ) ≤ f * c + E

end BeamDesign.Spec
