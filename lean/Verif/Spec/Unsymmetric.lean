import Verif.Model.S6

/-!
# The buckling stress of unsymmetric sections in AS 4600
-/

namespace BeamDesign.Spec

/-- AS 4600 clause 3.4.5: the stress is the smallest root `f` of this cubic, with `rsq` the square of the polar radius of gyration about the
shear centre `(x, y)` and `p`, `q`, `s` the buckling stresses about the x, y and z axes. -/
def as4600 (rsq x y p q s f : ℝ) : ℝ :=
  f ^ 3 * (rsq - x ^ 2 - y ^ 2) - f ^ 2 * (rsq * (p + q + s) - (q * x ^ 2 + p * y ^ 2)) +
    f * rsq * (p * q + q * s + p * s) - rsq * p * q * s

/-- the same for a member and the three stresses -/
def Member.as4600 (m : Member) (p q s f : ℝ) : ℝ :=
  Spec.as4600 (m.rx ^ 2 + m.ry ^ 2 + m.xo ^ 2 + m.yo ^ 2) m.xo m.yo p q s f

/-- the three buckling stresses of a member about its axes -/
structure Stresses (m : Member) (p q s : ℝ) : Prop where
  x : S6.fEuler m.E m.lex m.rx = .ok p
  y : S6.fEuler m.E m.ley m.ry = .ok q
  z : S6.fEulerTorsion m.An m.lez m.rx m.ry m.xo m.yo m.J m.Iw m.E m.G = .ok s

/-- The shear centre is within one unit of length (one metre, in the units the functions are documented for) of one of the axes. -/
def NearAxis (m : Member) : Prop := |m.xo| ≤ 1 ∨ |m.yo| ≤ 1

end BeamDesign.Spec
