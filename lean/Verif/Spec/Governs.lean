import Verif.Spec.Safe
import Verif.Spec.AS4100

/-! # Specification of a governing load case -/

namespace BeamDesign.Spec

variable {K : Type} [Field K] [LinearOrder K] [FloorRing K]

/-- Load case `c` governs load case `k`: at every position along the beam, for every tension reported in `k` there is
one at least as large in `c`. -/
def Governs (rt : Rt K) (o : AS4100 K) (ls : List (Num K)) (c k : ℤ) : Prop :=
  ∀ p, 0 ≤ p → p ≤ total ls → ∀ t', Reported rt o k (Num.flt p) t' → ∃ t, Reported rt o c (Num.flt p) t ∧ t' ≤ t

end BeamDesign.Spec
