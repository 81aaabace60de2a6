import Verif.Model.RoundedEffective
import Verif.Spec.Rounded

/-!
# A section built up of plates, exactly and in floating point
-/

namespace BeamDesign.Spec

/-- a plate: width, thickness and yield slenderness limit -/
structure Flat (K : Type) where
  b : K
  t : K
  ley : K

/-- a plate with positive numbers -/
structure Flat.Positive (p : Flat ℝ) : Prop where
  b : 0 < p.b
  t : 0 < p.t
  ley : 0 < p.ley

/-- `k` is the form factor of plates of one grade, in exact arithmetic: the sum of the effective areas that `s6_2_A_e_flatplate` gives over
the sum of the areas, with `s6_2_k_f_Form_Factor` -/
def FormFactor (ps : List (Flat ℝ)) (fy fref k : ℝ) : Prop :=
  ∃ aes, ps.mapM (fun p => Effective.aPlate p.b p.t fy p.ley fref) = .ok aes ∧
    Effective.kf ((ps.map (fun p => p.b * p.t)).sum) aes.sum = .ok k

/-- the same calculated in the arithmetic `A`, with Python's `sum`, which starts from 0 and adds from the left -/
def FormFactorComputed (A : Arith ℝ) (ps : List (Flat ℝ)) (fy fref k : ℝ) : Prop :=
  ∃ aes, ps.mapM (fun p => EffectiveR.aPlate A p.b p.t fy p.ley fref) = .ok aes ∧
    EffectiveR.kf A ((ps.map (fun p => A.mul p.b p.t)).foldl A.add 0) (aes.foldl A.add 0) = .ok k

end BeamDesign.Spec
