import Verif.Spec.AS4100
import Verif.Spec.Grid
import Mathlib.Analysis.Real.Pi.Bounds

/-!
# Specification of capacities computed in floating point
-/

namespace BeamDesign.Spec

/-- The data of the sections: radius and strengths, and the factors of the check, are machine numbers, not below `σ`. -/
def UsualData {K : Type} [Field K] [LinearOrder K] (F : K → Prop) (σ : K) (o : AS4100 K) : Prop :=
  (F o.phiSteel ∧ σ ≤ o.phiSteel) ∧ (F o.kt ∧ σ ≤ o.kt) ∧ (F o.alphaU ∧ σ ≤ o.alphaU) ∧
    ∀ d ∈ o.dsects, (F d.radius ∧ σ ≤ d.radius) ∧
      ∃ fy fu, Strengths d fy fu ∧ (F fy ∧ σ ≤ fy) ∧ (F fu ∧ σ ≤ fu)

/-- `c` is the design capacity in tension, φ times the S7.1 capacity of a solid circle of radius r, with exact arithmetic and
the true π. -/
def TrueCapacity (o : AS4100 ℚ) (d : DSect ℚ) (c : ℝ) : Prop :=
  ∃ fy fu, Strengths d fy fu ∧
    c = o.phiSteel * min (Real.pi * d.radius ^ 2 * fy) (Real.pi * d.radius ^ 2 * fu * o.kt * o.alphaU)

end BeamDesign.Spec
