import Verif.Spec.RoundedMember
import Verif.Spec.TorsionMono

/-!
# How much rounding may turn the order of two members round
-/

namespace BeamDesign.Spec

/-- `a` is positive and larger than `b` by at most the part `ε` of `b` -/
def HardlyAbove (ε a b : ℝ) : Prop := 0 < a ∧ a ≤ b + ε * b

/-- A segment that is not very slender and is symmetric or has its larger flange in compression: the exact calculation gives a reference
buckling moment of at least a tenth of the section capacity. -/
def Segment.Usual (v : S5.PyVersion) (s : Segment) : Prop :=
  s.Positive ∧ 0 ≤ s.betaX ∧ ∀ k Mo, S5.kt v s.d1 s.l s.tf s.tw s.nw (.code s.code) = .ok k →
    S5.Mo (S5.le k s.kl s.kr s.l) s.Iy s.J s.Iw s.betaX s.E s.G = .ok Mo → S5.Ms s.fy s.Ze ≤ 10 * Mo

/-- A compression member in the usual range: modified slendernesses from 13.5 to 1000 about both axes, flexural and torsional buckling
stresses that differ by no more than a factor of 100 and are not nearly equal, and a torsional slenderness away from the step at 1.5. -/
structure Args.Usual (roots : S6.Roots) (a : S6.NcArgs) (k : S6R.Sym) : Prop where
  sensible : Args.Sensible a
  sym : Sym.Of a.sym k
  stresses : ∃ f, Foxz.Of a.member f k ∧ 1 / 10 ≤ f.beta ∧ 0 < f.fox ∧ f.fox ≤ 100 * f.foz ∧ f.foz ≤ 100 * f.fox ∧
    (f.beta ≤ 99 / 100 ∨ (f.fox + f.foz) / 10 ≤ |f.fox - f.foz|)
  x : ∀ c, S6.NcFlexural a.An a.kf (S6.le a.l a.kex) a.rx a.fy a.fref a.alphaB = .ok c → 27 / 2 ≤ c.lambdaN ∧ c.lambdaN ≤ 1000
  y : ∀ c, S6.NcFlexural a.An a.kf (S6.le a.l a.key) a.ry a.fy a.fref a.alphaB = .ok c → 27 / 2 ≤ c.lambdaN ∧ c.lambdaN ≤ 1000
  step : ∀ t, S6.NcTorsion roots a.member a.kf a.fy a.sym a.uncertainty = .ok t → 1 / 10 ^ 7 ≤ |t.lambdaC - 3 / 2|

end BeamDesign.Spec
