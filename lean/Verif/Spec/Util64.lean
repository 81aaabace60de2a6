import Verif.Spec.UtilWide

/-!
# Specification of utilisations on IEEE doubles
-/

namespace BeamDesign.Spec

/-- At position `p` in load case `c` the capacity is a double of at least `2 ^ -900`, and every tension reported is at most
zero, or a double. -/
def AnyDoubles (o : AS4100 ℚ) (c : ℤ) (p : Num ℚ) : Prop :=
  ∀ cap t, o.phiNt Rt.binary64 (.scalar p) = .ok cap → Reported Rt.binary64 o c p t →
    IsDouble cap ∧ 2 ^ (-900 : ℤ) ≤ cap ∧ (t ≤ 0 ∨ IsDouble t)

/-- At one of the positions in one of the load cases there is a tension, and it or the capacity is above `2 ^ 1000`, or it is more than
`2 ^ 900` times the capacity. -/
def Enormous (o : AS4100 ℚ) (cs : List ℤ) (ps : List (Num ℚ)) : Prop :=
  ∃ c ∈ cs, ∃ p ∈ ps, ∃ cap t, o.phiNt Rt.binary64 (.scalar p) = .ok cap ∧ Reported Rt.binary64 o c p t ∧
    0 < t ∧ (2 ^ (1000 : ℤ) < cap ∨ 2 ^ (1000 : ℤ) < t ∨ 2 ^ (900 : ℤ) * cap < t)

end BeamDesign.Spec
