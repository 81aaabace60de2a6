import Verif.Spec.AS4100
import Verif.Spec.Rounding
import Verif.Float64

/-!
# Specification of utilisations of any size in double precision
-/

namespace BeamDesign.Spec

/-- At position `p` in load case `c` the capacity is a double of at least `2 ^ -900`, and every tension reported is at most
zero, or a double of at most `2 ^ 1000` times the capacity. -/
def Doubles (o : AS4100 ℚ) (c : ℤ) (p : Num ℚ) : Prop :=
  ∀ cap t, o.phiNt Rt.binary64 (.scalar p) = .ok cap → Reported Rt.binary64 o c p t →
    IsDouble cap ∧ 2 ^ (-900 : ℤ) ≤ cap ∧ (t ≤ 0 ∨ IsDouble t ∧ t ≤ 2 ^ (1000 : ℤ) * cap)

/-- At one of the positions in one of the load cases there is a tension, of less than `k` times the capacity there. -/
def Slight (o : AS4100 ℚ) (cs : List ℤ) (ps : List (Num ℚ)) (k : ℚ) : Prop :=
  ∃ c ∈ cs, ∃ p ∈ ps, ∃ cap t, o.phiNt Rt.binary64 (.scalar p) = .ok cap ∧ Reported Rt.binary64 o c p t ∧
    0 < t ∧ t < k * cap

end BeamDesign.Spec
