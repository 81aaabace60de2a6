import Verif.Model.RoundedMember
import Verif.Spec.RoundedTorsion
import Verif.Spec.S6

/-!
# What is claimed about the member capacity in floating point
-/

namespace BeamDesign.Spec

/-- the arguments in the arithmetic's numbers, with the kind of symmetry -/
def Args.of (a : S6.NcArgs) (k : S6R.Sym) : S6R.Args ℝ :=
  ⟨a.An, a.kf, a.l, a.kex, a.key, a.kez, a.rx, a.ry, a.xo, a.yo, a.J, a.Iw, a.fy, a.E, a.G, k, a.fref, a.alphaB, a.uncertainty, a.phi,
    a.calcBuckling, a.calcTorsion⟩

/-- the same numbers -/
def Result.of (r : S6.NcResult) : S6R.Result ℝ :=
  ⟨r.Ns, r.phiNs, r.Ncx, r.phiNcx, r.Ncy, r.phiNcy, r.NczBuckling, r.Ncz, r.phiNcz, r.Nc, r.phiNc⟩

/-- arguments that make sense: positive sizes, stresses and factors, and a member section constant between -1 and 1 -/
structure Args.Sensible (a : S6.NcArgs) : Prop where
  An : 0 < a.An
  kf : 0 < a.kf
  l : 0 < a.l
  kex : 0 < a.kex
  key : 0 < a.key
  kez : 0 < a.kez
  rx : 0 < a.rx
  ry : 0 < a.ry
  J : 0 < a.J
  Iw : 0 ≤ a.Iw
  fy : 0 < a.fy
  E : 0 < a.E
  G : 0 < a.G
  fref : 0 < a.fref
  alphaB : |a.alphaB| ≤ 1
  uncertainty : 0 < a.uncertainty
  phi : 0 < a.phi

/-- The condition number of the flexural capacity, made of the intermediate values returned: large when `λ` is close to 0 and when the
slenderness is very high. -/
noncomputable def Flexural.cond (x : S6.Flexural) : ℝ :=
  410000 * (x.lambdaN + 40) / |x.factors.lambda| + 100 * (x.factors.xi * x.factors.lambda / 90) ^ 2

/-- the errors of both columns grow at most by `κ` -/
structure Columns (a : S6.NcArgs) (κ : ℝ) : Prop where
  x : ∀ c, S6.NcFlexural a.An a.kf (S6.le a.l a.kex) a.rx a.fy a.fref a.alphaB = .ok c → Flexural.cond c ≤ κ
  y : ∀ c, S6.NcFlexural a.An a.kf (S6.le a.l a.key) a.ry a.fy a.fref a.alphaB = .ok c → Flexural.cond c ≤ κ

/-- the errors of the torsional stress grow at most by `κ` -/
def Twist (a : S6.NcArgs) (κ : ℝ) : S6R.Sym → Prop
  | .point => a.sym.symmetry = .ok .point ∧ 400 ≤ κ
  | k => Sym.Of a.sym k ∧ ∃ f, Foxz.Of a.member f k ∧ 0 < Foxz.disc f ∧ 4000 * Foxz.cond f ≤ κ

/-- where both dictionaries have the key the numbers are close, and neither has it where the other does not -/
def WithinOpt (ε : ℝ) : Option ℝ → Option ℝ → Prop
  | some v, some w => Within ε v w
  | none, none => True
  | _, _ => False

/-- every number of the computed dictionary is close to that of the exact one -/
structure ResultWithin (ε : ℝ) (r' : S6R.Result ℝ) (r : S6.NcResult) : Prop where
  Ns : Within ε r'.Ns r.Ns
  phiNs : Within ε r'.phiNs r.phiNs
  Ncx : WithinOpt ε r'.Ncx r.Ncx
  phiNcx : WithinOpt ε r'.phiNcx r.phiNcx
  Ncy : WithinOpt ε r'.Ncy r.Ncy
  phiNcy : WithinOpt ε r'.phiNcy r.phiNcy
  NczBuckling : WithinOpt ε r'.NczBuckling r.NczBuckling
  Ncz : WithinOpt ε r'.Ncz r.Ncz
  phiNcz : WithinOpt ε r'.phiNcz r.phiNcz
  Nc : Within ε r'.Nc r.Nc
  phiNc : Within ε r'.phiNc r.phiNc

end BeamDesign.Spec
