import Verif.Model.Rounded

/-!
# What is assumed of float arithmetic when members are put in order
-/

namespace BeamDesign.Spec

variable {K : Type} [Field K] [LinearOrder K]

/-- Every operation rounds the exact result with a function `rnd` that is monotone on the nonnegative numbers and leaves 0 and 1 alone;
roots are nonnegative and monotone, and literals keep their sign.  Nothing is said about how close the results are. -/
structure Orderly (A : Arith K) (rnd : K → K) : Prop where
  add : ∀ a b, A.add a b = rnd (a + b)
  mul : ∀ a b, A.mul a b = rnd (a * b)
  div : ∀ a b, A.div a b = rnd (a / b)
  sq : ∀ a, A.sq a = rnd (a ^ 2)
  sqrt : ∀ a b, 0 ≤ a → a ≤ b → 0 ≤ A.sqrt a ∧ A.sqrt a ≤ A.sqrt b
  lit : ∀ q, 0 ≤ q → 0 ≤ A.lit q
  mono : ∀ a b, 0 ≤ a → a ≤ b → rnd a ≤ rnd b
  zero : rnd 0 = 0
  one : rnd 1 = 1

/-- Nonnegative and not larger. -/
def Least (a b : K) : Prop := 0 ≤ a ∧ a ≤ b

/-- If both calculations give a number, the first is nonnegative and not larger than the second. -/
def InOrder (x y : Py K) : Prop := ∀ a b, x = .ok a → y = .ok b → Least a b

end BeamDesign.Spec
