import Verif.Model.S6

/-!
# Notions used in the statements on section 6
-/

namespace BeamDesign

open S6

/-- A member with positive properties; the shear centre may be anywhere, warping may be absent. -/
structure Member.Positive (m : Member) : Prop where
  An : 0 < m.An
  lex : 0 < m.lex
  ley : 0 < m.ley
  lez : 0 < m.lez
  rx : 0 < m.rx
  ry : 0 < m.ry
  J : 0 < m.J
  Iw : 0 ≤ m.Iw
  E : 0 < m.E
  G : 0 < m.G

/-- The modified slenderness `λ = λ_n + α_a α_b` of AS4100 S6.3.3. -/
noncomputable def slenderness (ln alphaB : ℝ) : ℝ :=
  ln + 2100 * (ln - 135 / 10) / (ln ^ 2 - 153 / 10 * ln + 2050) * alphaB

/-- An exact root finder for cubics: it returns, in some order, the three complex roots. -/
def S6.Roots.Exact (roots : Roots) : Prop :=
  ∀ p q r s : ℝ, p ≠ 0 → ∃ z1 z2 z3 : ℂ, roots p q r s = [z1, z2, z3] ∧
    ∀ x : ℂ, p * x ^ 3 + q * x ^ 2 + r * x + s = p * (x - z1) * (x - z2) * (x - z3)

/-- `a` is one of the spellings of point symmetry -/
def Axis.isPoint (a : Axis) : Prop := a = .str "point" ∨ a = .str "Point" ∨ a = .str "POINT"

end BeamDesign
