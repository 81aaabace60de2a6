import Verif.Spec.Grid

/-! # Specification of sums in different versions of Python -/

namespace BeamDesign

variable {K : Type}

/-- The same machine with another version of Python's `sum`. -/
def Rt.withSum (rt : Rt K) (v : PySum) : Rt K := { rt with sum := v }

namespace Spec

variable [Field K] [LinearOrder K]

/-- The lengths and the distances of the element ends from the start of the beam are machine numbers: no sum is rounded. -/
def ExactSums (rnd : K → K) (ls : List (Num K)) : Prop :=
  (∀ l ∈ ls, rnd l.val = l.val) ∧ ∀ i, rnd (startOf ls i) = startOf ls i

end Spec

end BeamDesign
