import Verif.Numpy
import Mathlib.Algebra.Order.Field.Basic

/-!
# Specification of a factor every operation passes on
-/

namespace BeamDesign.Spec

variable {K : Type} [Field K]

/-- Multiplying the operands by `s` multiplies the results as in exact arithmetic.  In binary floating point arithmetic with
unlimited exponents this holds of the powers of two. -/
structure Scales (rt : Rt K) (s : K) : Prop where
  add : ∀ a b, rt.add (s * a) (s * b) = s * rt.add a b
  sub : ∀ a b, rt.sub (s * a) (s * b) = s * rt.sub a b
  mulLeft : ∀ a b, rt.mul (s * a) b = s * rt.mul a b
  mulRight : ∀ a b, rt.mul a (s * b) = s * rt.mul a b
  divTop : ∀ a b, rt.div (s * a) b = s * rt.div a b
  divBoth : ∀ a b, rt.div (s * a) (s * b) = rt.div a b

end BeamDesign.Spec
