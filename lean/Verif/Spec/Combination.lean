import Verif.Spec.Beam

/-!
# Specification of load combinations
-/

namespace BeamDesign.Spec

variable {K S : Type} [Field K] [LinearOrder K]

/-- `a` times the loads of the row `r` plus `k` times those of the row `s`, at the position of `r`. -/
def combine (a k : K) (r s : LRow K) : LRow K :=
  ⟨r.pos, a * r.vx + k * s.vx, a * r.vy + k * s.vy, a * r.n + k * s.n, a * r.mx + k * s.mx, a * r.my + k * s.my,
    a * r.t + k * s.t⟩

/-- `a` times the first answer plus `k` times the second, row by row and column by column. -/
def combineAnswers (a k : K) (out₁ out₂ : List (Row K)) : List (Row K) :=
  List.zipWith (fun r s => (r.1, List.zipWith (fun x y => a * x + k * y) r.2 s.2)) out₁ out₂

/-- On every element the tables of the load cases `c₁` and `c₂` have the same positions, and the table of `c₃` is
`a` times the one plus `k` times the other (tables of floats, well formed and not empty). -/
def IsCombination (b : Beam K S) (c₁ c₂ c₃ : ℤ) (a k : K) : Prop :=
  ∀ i, i < b.elements.length → ∃ rs : List (LRow K × LRow K), (∀ r ∈ rs, r.1.pos = r.2.pos) ∧
    HasTable b c₁ i ⟨false, rs.map (·.1)⟩ ∧ HasTable b c₂ i ⟨false, rs.map (·.2)⟩ ∧
    HasTable b c₃ i ⟨false, rs.map fun r => combine a k r.1 r.2⟩

end BeamDesign.Spec
