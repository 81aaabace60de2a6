import Verif.Spec.AS4100
import Verif.Spec.Rounding

/-!
# Specification of utilisations computed in floating point
-/

namespace BeamDesign.Spec

variable {K : Type} [Field K] [LinearOrder K] [FloorRing K]

/-- At position `p` in load case `c` the capacity is a machine number, and every tension reported is zero or a machine
number, at least `τ`, between a ten thousandth of the capacity and ten thousand times the capacity. -/
def Ordinary (rt : Rt K) (F : K → Prop) (τ : K) (o : AS4100 K) (c : ℤ) (p : Num K) : Prop :=
  ∀ cap t, o.phiNt rt (.scalar p) = .ok cap → Reported rt o c p t →
    F cap ∧ (t ≤ 0 ∨ F t ∧ τ ≤ t ∧ cap / 10 ^ 4 ≤ t ∧ t ≤ 10 ^ 4 * cap)

end BeamDesign.Spec
