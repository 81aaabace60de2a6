import Verif.Spec.RoundedMember
import Verif.Spec.RoundedEffective

/-!
# Double precision with overflow and underflow

What a machine promises: nothing about operations that overflow or underflow, and nothing about numbers that are not doubles.
-/

namespace BeamDesign.Spec

/-- a finite double: 53 binary digits, exponents from -1074 to 971 -/
def IsFloat (x : ℝ) : Prop := ∃ m e : ℤ, |m| < 2 ^ 53 ∧ -1074 ≤ e ∧ e ≤ 971 ∧ x = m * 2 ^ e

/-- zero, or of a size that the machine represents with all 53 digits -/
def Normal (x : ℝ) : Prop := x = 0 ∨ ((2 : ℝ) ^ (-1022 : ℤ) ≤ |x| ∧ |x| < 2 ^ (1023 : ℤ))

/-- `r` is a double that differs from `x` by a relative error of at most `u` -/
def Near (u r x : ℝ) : Prop := IsFloat r ∧ |r - x| ≤ u * |x|

/-- The arithmetic of the machine.  Sums and differences do not underflow, as they are multiples of the smallest double; roots neither
overflow nor underflow.  Where the hypotheses do not hold the results are arbitrary: infinities and NaN are among what is not described. -/
structure Ieee (A : Arith ℝ) (u : ℝ) : Prop where
  add : ∀ a b, IsFloat a → IsFloat b → |a + b| < 2 ^ (1023 : ℤ) → Near u (A.add a b) (a + b)
  sub : ∀ a b, IsFloat a → IsFloat b → |a - b| < 2 ^ (1023 : ℤ) → Near u (A.sub a b) (a - b)
  mul : ∀ a b, IsFloat a → IsFloat b → Normal (a * b) → Near u (A.mul a b) (a * b)
  div : ∀ a b, IsFloat a → IsFloat b → b ≠ 0 → Normal (a / b) → Near u (A.div a b) (a / b)
  sqrt : ∀ a, IsFloat a → 0 ≤ a → Near u (A.sqrt a) √a
  sq : ∀ a, IsFloat a → Normal (a ^ 2) → Near u (A.sq a) (a ^ 2)
  cube : ∀ a, IsFloat a → Normal (a ^ 3) → Near u (A.cube a) (a ^ 3)
  lit : ∀ q : ℚ, Normal (q : ℝ) → Near u (A.lit q) q

/-- the same for the power function, with a positive base -/
def IeeePow (pw : ℝ → ℝ → ℝ) (u : ℝ) : Prop :=
  ∀ a b, IsFloat a → IsFloat b → 0 < a → Normal (a ^ b) → Near u (pw a b) (a ^ b)

/-- a positive double between two powers of two -/
def Sized (l h : ℤ) (x : ℝ) : Prop := IsFloat x ∧ (2 : ℝ) ^ l ≤ x ∧ x ≤ 2 ^ h

/-- zero, or a double of such a size, of either sign -/
def SizedOrZero (l h : ℤ) (x : ℝ) : Prop := IsFloat x ∧ (x = 0 ∨ ((2 : ℝ) ^ l ≤ |x| ∧ |x| ≤ 2 ^ h))

/-- A segment with numbers of the usual sizes, in metres and pascals as in millimetres and megapascals. -/
structure Segment.InRange (s : Segment) : Prop where
  l : Sized (-20) 20 s.l
  kl : Sized (-10) 10 s.kl
  kr : Sized (-10) 10 s.kr
  d1 : Sized (-20) 20 s.d1
  tf : Sized (-20) 20 s.tf
  tw : Sized (-20) 20 s.tw
  nw : Sized 0 10 s.nw
  fy : Sized (-10) 40 s.fy
  Ze : Sized (-60) 60 s.Ze
  Iy : Sized (-60) 60 s.Iy
  J : Sized (-60) 60 s.J
  Iw : SizedOrZero (-80) 80 s.Iw ∧ 0 ≤ s.Iw
  betaX : SizedOrZero (-60) 20 s.betaX
  E : Sized (-10) 40 s.E
  G : Sized (-10) 40 s.G
  alphaM : Sized (-10) 10 s.alphaM

/-- the same for the arguments of `s6_1_1_Nc`.  The slendernesses `l_e / r` are between 2^-16 and 2^16 (65536), the yield stress within a
factor of 256 of the reference stress. -/
structure Args.InRange (a : S6R.Args ℝ) : Prop where
  An : Sized (-40) 40 a.An
  kf : Sized (-10) 1 a.kf
  l : Sized (-20) 20 a.l
  kex : Sized (-10) 10 a.kex
  key : Sized (-10) 10 a.key
  kez : Sized (-10) 10 a.kez
  rx : Sized (-20) 20 a.rx
  ry : Sized (-20) 20 a.ry
  xo : SizedOrZero (-60) 20 a.xo
  yo : SizedOrZero (-60) 20 a.yo
  J : Sized (-60) 60 a.J
  Iw : SizedOrZero (-80) 80 a.Iw ∧ 0 ≤ a.Iw
  fy : Sized (-10) 40 a.fy
  E : Sized (-10) 40 a.E
  G : Sized (-10) 40 a.G
  fref : Sized (-10) 40 a.fref
  alphaB : SizedOrZero (-20) 1 a.alphaB
  uncertainty : Sized (-10) 10 a.uncertainty
  phi : Sized (-10) 10 a.phi
  slenderX : (2 : ℝ) ^ (-16 : ℤ) ≤ a.l * a.kex / a.rx ∧ a.l * a.kex / a.rx ≤ 2 ^ (16 : ℤ)
  slenderY : (2 : ℝ) ^ (-16 : ℤ) ≤ a.l * a.key / a.ry ∧ a.l * a.key / a.ry ≤ 2 ^ (16 : ℤ)
  grade : (2 : ℝ) ^ (-8 : ℤ) ≤ a.fy / a.fref ∧ a.fy / a.fref ≤ 2 ^ (8 : ℤ)

/-- what the functions return in `A` they return in `B`, and no more -/
structure SameValues (A B : Arith ℝ) (pw pw' : ℝ → ℝ → ℝ) : Prop where
  segment : ∀ s : Segment, s.InRange → ∀ M, s.Computed A M ↔ s.Computed B M
  web : ∀ dp tw fy lim fref ratio : ℝ, Sized (-20) 20 dp → Sized (-20) 20 tw → Sized (-10) 40 fy → Sized (-10) 20 lim →
    Sized (-10) 40 fref → Sized (-10) 10 ratio → ∀ v, WebComputed A dp tw fy lim fref ratio v ↔ WebComputed B dp tw fy lim fref ratio v
  plate : ∀ b t fy ley fref : ℝ, Sized (-20) 20 b → Sized (-20) 20 t → Sized (-10) 40 fy → Sized (-10) 20 ley → Sized (-10) 40 fref →
    EffectiveR.aPlate A b t fy ley fref = EffectiveR.aPlate B b t fy ley fref
  tube : ∀ d le ley : ℝ, Sized (-20) 20 d → Sized (-60) 60 le → Sized (-10) 20 ley → EffectiveR.dCHS A d le ley = EffectiveR.dCHS B d le ley
  member : ∀ a : S6R.Args ℝ, Args.InRange a → S6R.Nc A pw a = S6R.Nc B pw' a

end BeamDesign.Spec
