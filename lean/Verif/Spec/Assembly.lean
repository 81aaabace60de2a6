import Verif.Model.AS4100
import Verif.Spec.Beam

/-!
# Specification of a beam as part of a longer beam
-/

namespace BeamDesign.Spec

variable {K S : Type} [Field K] [LinearOrder K]

/-- The beam `b` with the elements `pre` put before it and `post` after it. -/
def within (pre : List (Element K S)) (b : Beam K S) (post : List (Element K S)) : Beam K S :=
  ⟨pre ++ b.elements ++ post⟩

/-- `x` is a position of a beam of length `L`, not one where it meets a neighbour. -/
def Inside (pre : List (Element K S)) (L : K) (post : List (Element K S)) (x : K) : Prop :=
  0 ≤ x ∧ x ≤ L ∧ (pre ≠ [] → 0 < x) ∧ (post ≠ [] → x < L)

/-- The positions `xs` as an argument, moved by `off`. -/
def at_ (off : K) (xs : List K) : PosArg K := .list (xs.map fun x => Num.flt (x + off))

/-- A table of loads with its positions moved by `off`. -/
def moveTab (off : K) (t : Tab K) : Tab K := { t with rows := t.rows.map fun r => (r.1 + off, r.2) }

/-- No table of load case `c` holds integers. -/
def NoIntTables (b : Beam K S) (c : ℤ) : Prop :=
  ∀ e ∈ b.elements, ∀ lc t, e.loads.lookup c = some lc → lc.loads = some t → t.isInt = false

end BeamDesign.Spec
