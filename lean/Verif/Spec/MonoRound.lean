import Verif.Spec.Worse
import Verif.Spec.Grid

/-!
# Specification of one design being no weaker than another, without arithmetic
-/

namespace BeamDesign.Spec

variable {K : Type} [Field K] [LinearOrder K]

/-- The second solid circle is no thinner than the first and its yield and ultimate strength are no smaller. -/
def NoWeakerSection (d d' : DSect K) : Prop :=
  0 ≤ d.radius ∧ d.radius ≤ d'.radius ∧ ∃ fy fu fy' fu', Strengths d fy fu ∧ Strengths d' fy' fu' ∧
    0 ≤ fy ∧ fy ≤ fy' ∧ 0 ≤ fu ∧ fu ≤ fu'

/-- Neither object has a beam, or the elements of the two beams have the same lengths and loads. -/
def SameLayout (b b' : Option (Beam K (Sect K))) : Prop :=
  Option.Rel (fun b b' => List.Forall₂ (fun e e' => e.length = e'.length ∧ e.loads = e'.loads) b.elements b'.elements) b b'

/-- The second object has no smaller factors, and no section weaker than the one in its place in the first. -/
def NoWeaker (o o' : AS4100 K) : Prop :=
  (0 ≤ o.phiSteel ∧ o.phiSteel ≤ o'.phiSteel) ∧ (0 ≤ o.alphaU ∧ o.alphaU ≤ o'.alphaU) ∧ (0 ≤ o.kt ∧ o.kt ≤ o'.kt) ∧
  List.Forall₂ NoWeakerSection o.dsects o'.dsects ∧ SameLayout o.beam o'.beam

/-- Both computations raise the same exception, or the second gives a number not smaller than the first. -/
def NotLess (x y : Py K) : Prop :=
  (∃ a b, x = .ok a ∧ y = .ok b ∧ a ≤ b) ∨ ∃ e, x = .error e ∧ y = .error e

end BeamDesign.Spec
