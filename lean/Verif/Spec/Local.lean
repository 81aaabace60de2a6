import Verif.Spec.Beam
import Verif.Model.AS4100

/-!
# Specification: what a load at a position depends on
-/

namespace BeamDesign.Spec

variable {K S : Type} [Field K] [LinearOrder K]

/-- The two tables hold the same rows at the positions from `lo` to `hi`, and have rows at `lo` and at `hi`.  Nothing is said
about the rows before and after. -/
def SameRows (lo hi : K) (T T' : List (LRow K)) : Prop :=
  lo ∈ T.map (·.pos) ∧ hi ∈ T.map (·.pos) ∧
    T.filter (fun r => decide (lo ≤ r.pos ∧ r.pos ≤ hi)) = T'.filter (fun r => decide (lo ≤ r.pos ∧ r.pos ≤ hi))

/-- The load case `c` of the two elements is the same one, or there is none in either. -/
def SameLoads (c : ℤ) (e e' : Element K S) : Prop := e.loads.lookup c = e'.loads.lookup c

/-- The load case `c` of the two elements, which are not of zero length, is the same from a stored position before `l` to
one after it. -/
def SameAround (c : ℤ) (l : K) (e e' : Element K S) : Prop :=
  ∃ n isInt T T' lo hi, e.length = some n ∧ n.val ≠ 0 ∧ WellFormed T ∧ WellFormed T' ∧ SameRows lo hi T T' ∧
    lo ≤ l ∧ l ≤ hi ∧ e.loads.lookup c = some ⟨some ⟨isInt, T⟩⟩ ∧ e'.loads.lookup c = some ⟨some ⟨isInt, T'⟩⟩

/-- The elements of the two beams that contain the position `x` have the same load case `c`, as far as it matters at `x`. -/
def SameNear (rt : Rt K) (c : ℤ) (b b' : Beam K S) (x : Num K) : Prop :=
  ∀ is, b.inElements rt x = .ok is → ∀ i ∈ is, ∀ e e', b.elements[i]? = some e → b'.elements[i]? = some e' →
    SameLoads c e e' ∨ ∃ l, b.beamToLocal rt x i = .ok l ∧ SameAround c l.val e e'

/-- The elements of the two beams have the same lengths. -/
def SameLengths (b b' : Beam K S) : Prop :=
  List.Forall₂ (fun e e' => e.length = e'.length) b.elements b'.elements

end BeamDesign.Spec
