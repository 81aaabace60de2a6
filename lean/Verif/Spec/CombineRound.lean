import Verif.Spec.Combination
import Verif.Spec.Rounding

/-!
# Specification of load combinations that are computed with rounding
-/

namespace BeamDesign.Spec

variable {K S : Type} [Field K] [LinearOrder K]

/-- `a` times `x` plus `k` times `y`, with the arithmetic of the machine. -/
def comb2 (rt : Rt K) (a k x y : K) : K := rt.add (rt.mul a x) (rt.mul k y)

/-- `a` times the loads of the row `r` plus `k` times those of the row `s`, with the arithmetic of the machine, at the
position of `r`. -/
def combineRt (rt : Rt K) (a k : K) (r s : LRow K) : LRow K :=
  ⟨r.pos, comb2 rt a k r.vx s.vx, comb2 rt a k r.vy s.vy, comb2 rt a k r.n s.n, comb2 rt a k r.mx s.mx,
    comb2 rt a k r.my s.my, comb2 rt a k r.t s.t⟩

/-- The row `z` is at the position of `x` and of `y`.  In each of the columns `cs` it is `a` times `x` plus `k` times `y`,
as computed by the machine, up to the error `ε` of that component. -/
def CloseRow (rt : Rt K) (a k : K) (ε : LComp → K) (cs : List LComp) (x y z : Row K) : Prop :=
  x.1 = z.1 ∧ y.1 = z.1 ∧ x.2.length = cs.length ∧ y.2.length = cs.length ∧ z.2.length = cs.length ∧
    ∀ (j : ℕ) c, cs[j]? = some c → ∃ u v w, x.2[j]? = some u ∧ y.2[j]? = some v ∧ z.2[j]? = some w ∧
      |w - comb2 rt a k u v| ≤ ε c

/-- The three answers have equally many rows, and each row of the third is close to the combination of the rows of the
first two (`CloseRow`). -/
def CloseAnswers (rt : Rt K) (a k : K) (ε : LComp → K) (cs : List LComp) (out₁ out₂ out₃ : List (Row K)) : Prop :=
  out₁.length = out₃.length ∧ out₂.length = out₃.length ∧
    ∀ (i : ℕ) x y z, out₁[i]? = some x → out₂[i]? = some y → out₃[i]? = some z → CloseRow rt a k ε cs x y z

/-- On every element the tables of the load cases `c₁` and `c₂` hold machine numbers and have the same positions, and the
table of `c₃` is `a` times the one plus `k` times the other, computed by the machine.  The loads are at most `M₁` and `M₂`. -/
def IsCombinationRt (rt : Rt K) (F : K → Prop) (b : Beam K S) (c₁ c₂ c₃ : ℤ) (a k : K) (M₁ M₂ : LComp → K) : Prop :=
  ∀ i, i < b.elements.length → ∃ rs : List (LRow K × LRow K), (∀ r ∈ rs, r.1.pos = r.2.pos) ∧
    Machine F (rs.map (·.1)) ∧ Machine F (rs.map (·.2)) ∧
    (∀ r ∈ rs, ∀ c, |entry r.1 c| ≤ M₁ c ∧ |entry r.2 c| ≤ M₂ c) ∧
    HasTable b c₁ i ⟨false, rs.map (·.1)⟩ ∧ HasTable b c₂ i ⟨false, rs.map (·.2)⟩ ∧
    HasTable b c₃ i ⟨false, rs.map fun r => combineRt rt a k r.1 r.2⟩

/-- The error of the combination: 40 units of rounding of the combined magnitudes, and some underflows. -/
def combError (u η a k : K) (M₁ M₂ : LComp → K) (c : LComp) : K :=
  40 * u * (|a| * M₁ c + |k| * M₂ c) + (11 + 5 * (|a| + |k|)) * η

end BeamDesign.Spec
