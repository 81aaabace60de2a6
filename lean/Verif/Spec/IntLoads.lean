import Verif.Spec.Beam

/-!
# What is claimed about load tables entered as whole numbers
-/

namespace BeamDesign.Spec

section
variable {K S : Type} [Field K] [LinearOrder K]

/-- `q` is the number `p` without the digits after the point. -/
def Truncated (p q : K) : Prop := ∃ n : ℤ, q = n ∧ |q| ≤ |p| ∧ |p| < |q| + 1 ∧ 0 ≤ p * q

/-- Load case `c` is loaded on every element, on the elements of length zero with a table of floats. -/
def LoadedMixed (b : Beam K S) (c : ℤ) : Prop :=
  ∀ i, i < b.elements.length → ∃ t, HasTable b c i t ∧
    ∀ e l, b.elements[i]? = some e → e.length = some l → l.val = 0 → t.isInt = false

/-- The rows reported for one listed place: the element's answer at the local position; the position column shows the position on the beam, cut off
to a whole number if the table is one of ints and the local position is one of those stored. -/
def MixedBlock (b : Beam K S) (c : ℤ) (cs : List LComp) (l : Loc K) (rows : List (Row K)) : Prop :=
  ∃ t ans q, HasTable b c l.elem t ∧ AnswerAt t.rows cs l.loc.val ans ∧ rows = ans.map (fun r => (q, r.2)) ∧
    (t.isInt = true ∧ l.loc.val ∈ t.rows.map (·.pos) → Truncated l.pos.val q) ∧
    (¬ (t.isInt = true ∧ l.loc.val ∈ t.rows.map (·.pos)) → q = l.pos.val)

end

end BeamDesign.Spec
