import Verif.Model.RoundedMember

/-!
# Members in units which differ by powers of two
-/

namespace BeamDesign.Spec

variable {K : Type} [Field K] [LinearOrder K]

/-- An arithmetic which passes on powers of two: as rounding to a fixed number of binary digits does. -/
structure Binary (A : Arith K) : Prop where
  add : ∀ (j : ℤ) a b, A.add (2 ^ j * a) (2 ^ j * b) = 2 ^ j * A.add a b
  sub : ∀ (j : ℤ) a b, A.sub (2 ^ j * a) (2 ^ j * b) = 2 ^ j * A.sub a b
  mul : ∀ (i j : ℤ) a b, A.mul (2 ^ i * a) (2 ^ j * b) = 2 ^ (i + j) * A.mul a b
  div : ∀ (i j : ℤ) a b, A.div (2 ^ i * a) (2 ^ j * b) = 2 ^ (i - j) * A.div a b
  sq : ∀ (j : ℤ) a, A.sq (2 ^ j * a) = 2 ^ (2 * j) * A.sq a
  sqrt : ∀ (j : ℤ) a, 0 ≤ a → A.sqrt (2 ^ (2 * j) * a) = 2 ^ j * A.sqrt a

/-- The arguments of `s6_1_1_Nc` when the unit of length is divided by `2 ^ k` and that of force by `2 ^ m`. -/
def inUnits (k m : ℤ) (a : S6R.Args K) : S6R.Args K where
  An := 2 ^ (2 * k) * a.An
  kf := a.kf
  l := 2 ^ k * a.l
  kex := a.kex
  key := a.key
  kez := a.kez
  rx := 2 ^ k * a.rx
  ry := 2 ^ k * a.ry
  xo := 2 ^ k * a.xo
  yo := 2 ^ k * a.yo
  J := 2 ^ (4 * k) * a.J
  Iw := 2 ^ (6 * k) * a.Iw
  fy := 2 ^ (m - 2 * k) * a.fy
  E := 2 ^ (m - 2 * k) * a.E
  G := 2 ^ (m - 2 * k) * a.G
  sym := a.sym
  fref := 2 ^ (m - 2 * k) * a.fref
  alphaB := a.alphaB
  uncertainty := a.uncertainty
  phi := a.phi
  calcBuckling := a.calcBuckling
  calcTorsion := a.calcTorsion

/-- The capacities when the unit of force is divided by `2 ^ m`. -/
def forces (m : ℤ) (r : S6R.Result K) : S6R.Result K where
  Ns := 2 ^ m * r.Ns
  phiNs := 2 ^ m * r.phiNs
  Ncx := r.Ncx.map (2 ^ m * ·)
  phiNcx := r.phiNcx.map (2 ^ m * ·)
  Ncy := r.Ncy.map (2 ^ m * ·)
  phiNcy := r.phiNcy.map (2 ^ m * ·)
  NczBuckling := r.NczBuckling.map (2 ^ m * ·)
  Ncz := r.Ncz.map (2 ^ m * ·)
  phiNcz := r.phiNcz.map (2 ^ m * ·)
  Nc := 2 ^ m * r.Nc
  phiNc := 2 ^ m * r.phiNc

/-- The result of the second calculation is `2 ^ j` times that of the first, or both raise the same exception. -/
def Times (j : ℤ) (x y : Py K) : Prop := y = x.map (2 ^ j * ·)

end BeamDesign.Spec
