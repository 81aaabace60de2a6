import Verif.Spec.Beam
import Verif.Model.AS4100

/-!
# Specification: the same loads with other signs, or multiplied by factors
-/

namespace BeamDesign.Spec

variable {K S : Type} [Field K] [LinearOrder K]

/-- The arithmetic treats multiplying the loads by `s` as multiplying the results by `s`. -/
structure Respects (rt : Rt K) (s : K) : Prop where
  add : ∀ a b, rt.add (s * a) (s * b) = s * rt.add a b
  sub : ∀ a b, rt.sub (s * a) (s * b) = s * rt.sub a b
  mul : ∀ a b, rt.mul (s * a) b = s * rt.mul a b
  div : ∀ a b, rt.div (s * a) b = s * rt.div a b

/-- `a'` is the load case `a` with each component `c` multiplied by `σ c` (or neither has loads): the positions are the same, and both
are entered as whole numbers or both not. -/
def TurnedCase (σ : LComp → K) (a a' : LoadCase K) : Prop :=
  (a.loads = none ∧ a'.loads = none) ∨
  ∃ t t', a.loads = some t ∧ a'.loads = some t' ∧ t.isInt = t'.isInt ∧
    List.Forall₂ (fun r r' => r.pos = r'.pos ∧ ∀ c, entry r' c = σ c * entry r c) t.rows t'.rows

/-- The two beams have the same lengths, and their load cases `k` differ by the factors `σ` (or are missing in both). -/
def TurnedBeam (σ : LComp → K) (k : ℤ) (b b' : Beam K S) : Prop :=
  List.Forall₂ (fun e e' => e.length = e'.length ∧
    ((e.loads.lookup k = none ∧ e'.loads.lookup k = none) ∨
      ∃ a a', e.loads.lookup k = some a ∧ e'.loads.lookup k = some a' ∧ TurnedCase σ a a')) b.elements b'.elements

/-- The answer `t` for the components `cs` with the number for component `c` multiplied by `σ c`: the positions, the number of rows and
columns and the type of the columns stay, and so does Python's `None`. -/
def turnedTab (σ : LComp → K) (cs : List LComp) (t : Tab K) : Tab K :=
  { t with rows := t.rows.map fun r => (r.1, List.zipWith (fun c x => x.map (σ c * ·)) cs r.2) }

end BeamDesign.Spec
