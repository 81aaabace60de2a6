import Verif.Spec.Unsymmetric
import Verif.Props.TorsionMono
import Verif.Props.Units

/-!
# C116: unsymmetric sections
-/

namespace BeamDesign

open Spec S6

/-! ## The cubic of the source -/

/-- the cubic whose roots are asked for, with `X = x_o²` and `Y = y_o²` -/
def srcCubic (R X Y p q s f : ℝ) : ℝ :=
  (R - X * Y) * f ^ 3 - (R * (p + q + s) - (q * X + p * Y)) * f ^ 2 + R * (p * q + q * s + p * s) * f - R * p * q * s

theorem srcCubic_eq (R X Y p q s f : ℝ) :
    srcCubic R X Y p q s f = -(R * ((p - f) * (q - f) * (s - f))) + f ^ 2 * (q * X + p * Y) - X * Y * f ^ 3 := by
  unfold srcCubic; ring

/-- what holds of the coefficients when the shear centre is near an axis -/
structure Coeffs (R X Y p q s : ℝ) : Prop where
  hX : 0 ≤ X
  hY : 0 ≤ Y
  lt : X + Y < R
  le : X * Y ≤ X ∨ X * Y ≤ Y
  hp : 0 < p
  hq : 0 < q
  hs : 0 < s

namespace Coeffs

variable {R X Y p q s : ℝ}

theorem hR (h : Coeffs R X Y p q s) : 0 < R := by linarith [h.hX, h.hY, h.lt]

theorem hXY (h : Coeffs R X Y p q s) : 0 ≤ X * Y := mul_nonneg h.hX h.hY

theorem XY_le (h : Coeffs R X Y p q s) : X * Y ≤ X + Y := by
  rcases h.le with g | g <;> linarith [h.hX, h.hY]

theorem a_pos (h : Coeffs R X Y p q s) : 0 < R - X * Y := by linarith [h.XY_le, h.lt]

theorem T_nonneg (h : Coeffs R X Y p q s) : 0 ≤ q * X + p * Y :=
  add_nonneg (mul_nonneg h.hq.le h.hX) (mul_nonneg h.hp.le h.hY)

theorem b_pos (h : Coeffs R X Y p q s) : 0 < R * (p + q + s) - (q * X + p * Y) := by
  have h1 : q * X ≤ q * R := mul_le_mul_of_nonneg_left (by linarith [h.hY, h.lt]) h.hq.le
  have h2 : p * Y ≤ p * R := mul_le_mul_of_nonneg_left (by linarith [h.hX, h.lt]) h.hp.le
  have h3 := mul_pos h.hR h.hs
  nlinarith

theorem zero (h : Coeffs R X Y p q s) : srcCubic R X Y p q s 0 < 0 := by
  have := mul_pos (mul_pos (mul_pos h.hR h.hp) h.hq) h.hs
  unfold srcCubic; linarith

theorem neg (h : Coeffs R X Y p q s) {f : ℝ} (hf : f ≤ 0) : srcCubic R X Y p q s f < 0 := by
  have h1 := mul_pos (mul_pos (mul_pos h.hR h.hp) h.hq) h.hs
  have h2 : (R - X * Y) * f ^ 3 ≤ 0 := mul_nonpos_of_nonneg_of_nonpos h.a_pos.le (Odd.pow_nonpos (by decide) hf)
  have h3 : 0 ≤ (R * (p + q + s) - (q * X + p * Y)) * f ^ 2 := mul_nonneg h.b_pos.le (sq_nonneg f)
  have h4 : R * (p * q + q * s + p * s) * f ≤ 0 := by
    refine mul_nonpos_of_nonneg_of_nonpos ?_ hf
    have := h.hR; have := h.hp; have := h.hq; have := h.hs
    positivity
  unfold srcCubic; linarith

/-- up to the smallest stress -/
theorem tail_nonneg (h : Coeffs R X Y p q s) {f : ℝ} (hf : 0 ≤ f) (hp : f ≤ p) (hq : f ≤ q) :
    0 ≤ f ^ 2 * (q * X + p * Y) - X * Y * f ^ 3 := by
  have h1 : f * X ≤ q * X := mul_le_mul_of_nonneg_right hq h.hX
  have h2 : f * Y ≤ p * Y := mul_le_mul_of_nonneg_right hp h.hY
  have h3 : X * Y * f ≤ (X + Y) * f := mul_le_mul_of_nonneg_right h.XY_le hf
  have : f ^ 2 * (q * X + p * Y) - X * Y * f ^ 3 = f ^ 2 * (q * X + p * Y - X * Y * f) := by ring
  rw [this]
  exact mul_nonneg (sq_nonneg f) (by linarith)

/-- the smallest root -/
theorem exists_least (h : Coeffs R X Y p q s) :
    ∃ v, 0 < v ∧ v ≤ p ∧ v ≤ q ∧ v ≤ s ∧ srcCubic R X Y p q s v = 0 ∧ ∀ f < v, srcCubic R X Y p q s f < 0 := by
  set m := min p (min q s) with hm
  have m0 : 0 < m := lt_min h.hp (lt_min h.hq h.hs)
  have mp : m ≤ p := min_le_left _ _
  have mq : m ≤ q := (min_le_right _ _).trans (min_le_left _ _)
  have ms : m ≤ s := (min_le_right _ _).trans (min_le_right _ _)
  have cont : Continuous (srcCubic R X Y p q s) := by unfold srcCubic; fun_prop
  have atm : 0 ≤ srcCubic R X Y p q s m := by
    rw [srcCubic_eq]
    have z : (p - m) * (q - m) * (s - m) = 0 := by
      rcases min_choice p (min q s) with e | e
      · rw [← hm] at e; rw [e]; ring
      · rw [← hm] at e
        rcases min_choice q s with g | g <;> rw [g] at e <;> rw [e] <;> ring
    rw [z]
    linarith [h.tail_nonneg m0.le mp mq]
  have hc : IsCompact (Set.Icc 0 m ∩ {f | 0 ≤ srcCubic R X Y p q s f}) :=
    isCompact_Icc.inter_right (isClosed_le continuous_const cont)
  obtain ⟨v, ⟨⟨v0, vm⟩, hv⟩, hmin⟩ := hc.exists_isLeast ⟨m, ⟨m0.le, le_rfl⟩, atm⟩
  have below : ∀ f < v, srcCubic R X Y p q s f < 0 := by
    intro f hf
    by_contra hcon
    push Not at hcon
    rcases le_or_gt f 0 with g | g
    · exact absurd (h.neg g) (not_lt.2 hcon)
    · exact absurd (hmin ⟨⟨g.le, hf.le.trans vm⟩, hcon⟩) (not_le.2 hf)
  have vpos : 0 < v := by
    rcases v0.lt_or_eq with g | g
    · exact g
    · rw [← g] at hv; exact absurd h.zero (not_lt.2 hv)
  refine ⟨v, vpos, vm.trans mp, vm.trans mq, vm.trans ms, le_antisymm ?_ hv, below⟩
  by_contra hcon
  push Not at hcon
  obtain ⟨f, ⟨f0, fv⟩, hf⟩ := intermediate_value_Ico v0 cont.continuousOn (show (0 : ℝ) ∈ Set.Ico _ _ from ⟨h.zero.le, hcon⟩)
  exact absurd (below f fv) (by rw [hf]; exact lt_irrefl 0)

/-- the mean of the roots is beyond the smallest -/
theorem mean_lt (h : Coeffs R X Y p q s) (hXY : 0 < X + Y) {v : ℝ} (vp : v ≤ p) (vq : v ≤ q) (vs : v ≤ s)
    (hv : srcCubic R X Y p q s v = 0) (hb : ∀ f < v, srcCubic R X Y p q s f < 0) :
    3 * (R - X * Y) * v < R * (p + q + s) - (q * X + p * Y) := by
  by_contra hc
  push Not at hc
  obtain ⟨w, hw⟩ : ∃ w, w = (R * (p + q + s) - (q * X + p * Y)) / (3 * (R - X * Y)) := ⟨_, rfl⟩
  have a0 := h.a_pos
  have w0 : 0 < w := by rw [hw]; exact div_pos h.b_pos (by linarith)
  have e : 3 * (R - X * Y) * w = R * (p + q + s) - (q * X + p * Y) := by rw [hw]; field_simp
  have wv : w ≤ v := by
    have : 3 * (R - X * Y) * w ≤ 3 * (R - X * Y) * v := by rw [e]; exact hc
    exact le_of_mul_le_mul_left this (by linarith)
  have nonpos : srcCubic R X Y p q s w ≤ 0 := by
    rcases wv.lt_or_eq with g | g
    · exact (hb w g).le
    · rw [g]; exact hv.le
  obtain ⟨α, hα⟩ : ∃ α, p = w + α := ⟨p - w, by ring⟩
  obtain ⟨β, hβ⟩ : ∃ β, q = w + β := ⟨q - w, by ring⟩
  obtain ⟨γ, hγ⟩ : ∃ γ, s = w + γ := ⟨s - w, by ring⟩
  have a1 : 0 ≤ α := by linarith
  have b1 : 0 ≤ β := by linarith
  have c1 : 0 ≤ γ := by linarith
  have hR := h.hR
  have eS : R * (α + β + γ) = (w + β) * X + (w + α) * Y - 3 * (X * Y) * w := by
    rw [hα, hβ, hγ] at e; linear_combination -e
  have eP : srcCubic R X Y p q s w = -(R * (α * β * γ)) + w ^ 2 * (R * (α + β + γ)) + 2 * (X * Y) * w ^ 3 := by
    rw [srcCubic_eq, eS, hα, hβ, hγ]; ring
  rw [eP] at nonpos
  have hXYn := h.hXY
  have t3 : 0 ≤ 2 * (X * Y) * w ^ 3 := by positivity
  rcases (show 0 ≤ α + β + γ by linarith).lt_or_eq with hS | hS
  · -- two of the three differences together are below `w`
    have key : ∀ μ ν : ℝ, 0 ≤ ν → μ + ν = α + β → α ≤ μ → β ≤ μ → α * β = μ * ν → False := by
      intro μ ν hν h1 h2 h3 h4
      have l1 : R * (α + β + γ) < R * (w + μ) := by
        have g1 : (w + β) * X ≤ (w + μ) * X := mul_le_mul_of_nonneg_right (by linarith) h.hX
        have g2 : (w + α) * Y ≤ (w + μ) * Y := mul_le_mul_of_nonneg_right (by linarith) h.hY
        have g3 : (w + μ) * (X + Y) < (w + μ) * R := mul_lt_mul_of_pos_left h.lt (by linarith)
        have g4 : 0 ≤ 3 * (X * Y) * w := by positivity
        rw [eS]; linarith
      have l2 := lt_of_mul_lt_mul_left l1 hR.le
      have l3 : ν + γ < w := by linarith
      have l4 : ν * γ < w ^ 2 := by nlinarith
      have l5 : μ * (ν * γ) ≤ (α + β + γ) * (ν * γ) := mul_le_mul_of_nonneg_right (by linarith) (mul_nonneg hν c1)
      have l6 : (α + β + γ) * (ν * γ) < (α + β + γ) * w ^ 2 := mul_lt_mul_of_pos_left l4 hS
      have l7 : R * (α * β * γ) < R * ((α + β + γ) * w ^ 2) := by
        apply mul_lt_mul_of_pos_left _ hR
        rw [h4, mul_assoc]; linarith
      linarith
    rcases le_total α β with g | g
    · exact key β α a1 (by ring) g le_rfl (by ring)
    · exact key α β b1 rfl le_rfl g rfl
  · have a2 : α = 0 := by linarith
    have b2 : β = 0 := by linarith
    have c2 : γ = 0 := by linarith
    rw [a2, b2, c2] at eS nonpos
    have e2 : X + Y = 3 * (X * Y) := by
      have : w * (X + Y - 3 * (X * Y)) = 0 := by linear_combination -eS
      rcases mul_eq_zero.1 this with g | g
      · exact absurd g w0.ne'
      · linarith
    have : 0 < X * Y := by linarith
    have : 0 < 2 * (X * Y) * w ^ 3 := by positivity
    linarith

/-- a stress for which the cubic is not negative is not below the smallest root -/
theorem least_le {v f : ℝ} (hb : ∀ g < v, srcCubic R X Y p q s g < 0) (hf : 0 ≤ srcCubic R X Y p q s f) : v ≤ f := by
  by_contra hc
  exact absurd (hb f (not_le.1 hc)) (not_lt.2 hf)

/-- Dunkerley's bound -/
theorem dunkerley (h : Coeffs R X Y p q s) {v : ℝ} (v0 : 0 < v) (vp : v ≤ p) (vq : v ≤ q)
    (hv : srcCubic R X Y p q s v = 0) : 1 / v ≤ 1 / p + 1 / q + 1 / s := by
  have hp := h.hp; have hq := h.hq; have hs := h.hs; have hR := h.hR
  rw [srcCubic_eq] at hv
  have main : p * q * s ≤ v * (p * q + q * s + p * s) := by
    have key : ∀ M : ℝ, p ≤ M → q ≤ M → (p - v) * (q - v) * (s - v) ≤ v ^ 2 * M := by
      intro M h1 h2
      have g1 : q * X + p * Y ≤ M * R := by
        have := mul_le_mul_of_nonneg_right h2 h.hX
        have := mul_le_mul_of_nonneg_right h1 h.hY
        have : M * (X + Y) ≤ M * R := mul_le_mul_of_nonneg_left h.lt.le (by linarith)
        linarith
      have g2 : v ^ 2 * (q * X + p * Y) ≤ v ^ 2 * (M * R) := mul_le_mul_of_nonneg_left g1 (sq_nonneg v)
      have g3 : 0 ≤ X * Y * v ^ 3 := by have := h.hXY; positivity
      have g4 : R * ((p - v) * (q - v) * (s - v)) ≤ R * (v ^ 2 * M) := by linarith
      exact le_of_mul_le_mul_left g4 hR
    rcases le_total p q with g | g
    · have := key q g le_rfl
      nlinarith [mul_nonneg (sq_nonneg v) (sub_nonneg.2 vp), mul_pos (pow_pos v0 2) hs]
    · have := key p le_rfl g
      nlinarith [mul_nonneg (sq_nonneg v) (sub_nonneg.2 vq), mul_pos (pow_pos v0 2) hs]
  rw [div_add_div _ _ hp.ne' hq.ne', div_add_div _ _ (by positivity) hs.ne', div_le_div_iff₀ v0 (by positivity)]
  linarith

/-- lower stresses about the axes, lower buckling stress -/
theorem mono (h : Coeffs R X Y p q s) {v p' q' s' v' : ℝ} (v0 : 0 < v) (hp' : p' ≤ p) (hq' : q' ≤ q) (hs' : s' ≤ s)
    (vp : v ≤ p) (vq : v ≤ q) (hv : srcCubic R X Y p q s v = 0) (vp' : v' ≤ p') (vq' : v' ≤ q') (vs' : v' ≤ s')
    (hb' : ∀ f < v', srcCubic R X Y p' q' s' f < 0) : v' ≤ v := by
  rcases lt_or_ge p' v with g1 | g1
  · linarith
  rcases lt_or_ge q' v with g2 | g2
  · linarith
  rcases lt_or_ge s' v with g3 | g3
  · linarith
  apply least_le hb'
  rw [srcCubic_eq] at hv ⊢
  have hR := h.hR
  have hX := h.hX
  have hY := h.hY
  -- in `s`
  have i1 : R * ((p - v) * (q - v) * (s' - v)) ≤ R * ((p - v) * (q - v) * (s - v)) := by
    have := mul_nonneg (sub_nonneg.2 vp) (sub_nonneg.2 vq)
    gcongr
  have f1 : R * ((p - v) * (q - v) * (s' - v)) - v ^ 2 * (q * X + p * Y) + X * Y * v ^ 3 ≤ 0 := by linarith
  -- affine in `p`, and not positive at `p = v`
  have aff : ∀ A B x y : ℝ, 0 ≤ B → A * y - B ≤ 0 → 0 ≤ x → x ≤ y → A * x - B ≤ 0 := by
    intro A B x y hB h1 h2 h3
    rcases le_total A 0 with g | g
    · nlinarith
    · nlinarith
  have tail : ∀ x y : ℝ, v ≤ x → v ≤ y → 0 ≤ v ^ 2 * (x * X + y * Y) - X * Y * v ^ 3 := by
    intro x y g g'
    have h1 : v * X ≤ x * X := mul_le_mul_of_nonneg_right g hX
    have h2 : v * Y ≤ y * Y := mul_le_mul_of_nonneg_right g' hY
    have h3 : X * Y * v ≤ (X + Y) * v := mul_le_mul_of_nonneg_right h.XY_le v0.le
    have : v ^ 2 * (x * X + y * Y) - X * Y * v ^ 3 = v ^ 2 * (x * X + y * Y - X * Y * v) := by ring
    rw [this]
    exact mul_nonneg (sq_nonneg v) (by linarith)
  have f2 : R * ((p' - v) * (q - v) * (s' - v)) - v ^ 2 * (q * X + p' * Y) + X * Y * v ^ 3 ≤ 0 := by
    have := aff (R * ((q - v) * (s' - v)) - v ^ 2 * Y) (v ^ 2 * (q * X + v * Y) - X * Y * v ^ 3) (p' - v) (p - v)
      (tail q v vq le_rfl) (by linarith) (by linarith) (by linarith)
    linarith
  have f3 : R * ((p' - v) * (q' - v) * (s' - v)) - v ^ 2 * (q' * X + p' * Y) + X * Y * v ^ 3 ≤ 0 := by
    have := aff (R * ((p' - v) * (s' - v)) - v ^ 2 * X) (v ^ 2 * (v * X + p' * Y) - X * Y * v ^ 3) (q' - v) (q - v)
      (tail v p' le_rfl g1) (by linarith) (by linarith) (by linarith)
    linarith
  linarith

end Coeffs

/-! ## The roots and the selection -/

theorem coeffs {m : Member} (hm : m.Positive) (hn : NearAxis m) {p q s : ℝ} (hp : 0 < p) (hq : 0 < q) (hs : 0 < s) :
    Coeffs (roSq m.rx m.ry m.xo m.yo) (m.xo ^ 2) (m.yo ^ 2) p q s where
  hX := sq_nonneg _
  hY := sq_nonneg _
  lt := by unfold roSq; nlinarith [pow_pos hm.rx 2, pow_pos hm.ry 2]
  le := by
    rcases hn with h | h
    · right
      have : m.xo ^ 2 ≤ 1 := (sq_le_one_iff_abs_le_one _).2 h
      nlinarith [sq_nonneg m.yo]
    · left
      have : m.yo ^ 2 ≤ 1 := (sq_le_one_iff_abs_le_one _).2 h
      nlinarith [sq_nonneg m.xo]
  hp := hp
  hq := hq
  hs := hs

/-- the smallest real root is selected -/
theorem focUnsym_least {roots : Roots} (hr : roots.Exact) {m : Member} (hm : m.Positive) (hn : NearAxis m) :
    ∃ p q s v, Stresses m p q s ∧ Coeffs (roSq m.rx m.ry m.xo m.yo) (m.xo ^ 2) (m.yo ^ 2) p q s ∧ focUnsym roots m = .ok v ∧ 0 < v ∧
      v ≤ p ∧ v ≤ q ∧ v ≤ s ∧ srcCubic (roSq m.rx m.ry m.xo m.yo) (m.xo ^ 2) (m.yo ^ 2) p q s v = 0 ∧
      ∀ f < v, srcCubic (roSq m.rx m.ry m.xo m.yo) (m.xo ^ 2) (m.yo ^ 2) p q s f < 0 := by
  obtain ⟨p, q, s, p1, p2, p3, e1, e2, e3, ec⟩ := cubic_ok hm
  have hc := coeffs hm hn p1 p2 p3
  obtain ⟨v, v0, vp, vq, vs, hv, hb⟩ := hc.exists_least
  refine ⟨p, q, s, v, ⟨e1, e2, e3⟩, hc, ?_, v0, vp, vq, vs, hv, hb⟩
  set R := roSq m.rx m.ry m.xo m.yo with hR
  set X := m.xo ^ 2 with hX
  set Y := m.yo ^ 2 with hY
  simp only [focUnsym, ec, Except.bind_ok']
  obtain ⟨z1, z2, z3, hl, hpoly⟩ := hr (R - X * Y) (-(R * (p + q + s) - (q * X + p * Y))) (R * (p * q + q * s + p * s))
    (-(R * p * q * s)) hc.a_pos.ne'
  rw [hl]
  have a0 : ((R - X * Y : ℝ) : ℂ) ≠ 0 := by exact_mod_cast hc.a_pos.ne'
  -- the polynomial at real numbers
  have real : ∀ f : ℝ, ((srcCubic R X Y p q s f : ℝ) : ℂ) = ((R - X * Y : ℝ) : ℂ) * (f - z1) * (f - z2) * (f - z3) := by
    intro f
    rw [← hpoly]
    unfold srcCubic
    push_cast
    ring
  have vmem : (v : ℂ) ∈ [z1, z2, z3] := by
    have := real v
    rw [hv, Complex.ofReal_zero] at this
    simp only [List.mem_cons, List.not_mem_nil, or_false]
    rcases mul_eq_zero.1 this.symm with h | h
    · rcases mul_eq_zero.1 h with h | h
      · rcases mul_eq_zero.1 h with h | h
        · exact absurd h a0
        · exact Or.inl (sub_eq_zero.1 h)
      · exact Or.inr (Or.inl (sub_eq_zero.1 h))
    · exact Or.inr (Or.inr (sub_eq_zero.1 h))
  -- sums of the roots
  have sums : ((R - X * Y : ℝ) : ℂ) * (z1 + z2 + z3) = ((R * (p + q + s) - (q * X + p * Y) : ℝ) : ℂ) := by
    have c0 := hpoly 0
    have c1 := hpoly 1
    have c2 := hpoly (-1)
    push_cast at c0 c1 c2 ⊢
    linear_combination (1 / 2) * c1 + (1 / 2) * c2 - c0
  have prod : ((R - X * Y : ℝ) : ℂ) * (z1 * z2 + z2 * z3 + z1 * z3) = ((R * (p * q + q * s + p * s) : ℝ) : ℂ) := by
    have c1 := hpoly 1
    have c2 := hpoly (-1)
    have c3 := hpoly 2
    have c4 := hpoly (-2)
    push_cast at c1 c2 c3 c4 ⊢
    linear_combination (-2 / 3) * c1 + (2 / 3) * c2 + (1 / 12) * c3 - (1 / 12) * c4
  -- the other two roots: a real quadratic
  have other : ∀ w ∈ [z1, z2, z3], w = (v : ℂ) ∨ clt (v : ℂ) w := by
    have two : ∀ w u : ℂ, (((R - X * Y : ℝ) : ℂ) * ((v : ℂ) + w + u) = ((R * (p + q + s) - (q * X + p * Y) : ℝ) : ℂ)) →
        (((R - X * Y : ℝ) : ℂ) * ((v : ℂ) * w + w * u + (v : ℂ) * u) = ((R * (p * q + q * s + p * s) : ℝ) : ℂ)) →
        (∀ f : ℝ, ((srcCubic R X Y p q s f : ℝ) : ℂ) = ((R - X * Y : ℝ) : ℂ) * (f - v) * (f - w) * (f - u)) →
        w = (v : ℂ) ∨ clt (v : ℂ) w := by
      intro w u h1 h2 h3
      rcases eq_or_ne w.im 0 with hi | hi
      · -- a real root
        have hw : w = (w.re : ℂ) := Complex.ext rfl (by simp [hi])
        have hz := h3 w.re
        rw [← hw, sub_self, mul_zero, zero_mul] at hz
        have hz' : srcCubic R X Y p q s w.re = 0 := by exact_mod_cast hz
        have := Coeffs.least_le hb hz'.ge
        rcases this.lt_or_eq with g | g
        · right; rw [hw]; exact ofReal_clt.2 g
        · left; rw [hw, ← g]
      · -- a conjugate pair
        right
        have i1 := congrArg Complex.im h1
        have r1 := congrArg Complex.re h1
        have i2 := congrArg Complex.im h2
        rw [Complex.re_ofReal_mul] at r1
        rw [Complex.im_ofReal_mul] at i1 i2
        simp only [Complex.add_im, Complex.add_re, Complex.mul_im, Complex.ofReal_im, Complex.ofReal_re, zero_add, zero_mul, add_zero] at i1 r1 i2
        have a1 := hc.a_pos.ne'
        have hu : u.im = -w.im := by
          rcases mul_eq_zero.1 i1 with g | g
          · exact absurd g a1
          · linarith
        have hre : u.re = w.re := by
          rcases mul_eq_zero.1 i2 with g | g
          · exact absurd g a1
          · rw [hu] at g
            have : w.im * (u.re - w.re) = 0 := by linear_combination g
            rcases mul_eq_zero.1 this with g | g
            · exact absurd g hi
            · linarith
        rw [hre] at r1
        have hXY : 0 < X + Y := by
          rcases (add_nonneg hc.hX hc.hY).lt_or_eq with g | g
          · exact g
          · exfalso
            have x0 : X = 0 := by linarith [hc.hX, hc.hY]
            have y0 : Y = 0 := by linarith [hc.hX, hc.hY]
            -- then the roots are the three stresses
            have hp3 := h3
            have root : ∀ f : ℝ, f = p ∨ f = q ∨ f = s → ((f : ℂ) - v = 0 ∨ (f : ℂ) - w = 0 ∨ (f : ℂ) - u = 0) := by
              intro f hf
              have h4 := h3 f
              have : srcCubic R X Y p q s f = 0 := by
                rw [srcCubic_eq, x0, y0]
                rcases hf with rfl | rfl | rfl <;> ring
              rw [this, Complex.ofReal_zero] at h4
              rcases mul_eq_zero.1 h4.symm with h | h
              · rcases mul_eq_zero.1 h with h | h
                · rcases mul_eq_zero.1 h with h | h
                  · exact absurd h a0
                  · exact Or.inl h
                · exact Or.inr (Or.inl h)
              · exact Or.inr (Or.inr h)
            have isv : ∀ f : ℝ, f = p ∨ f = q ∨ f = s → f = v := by
              intro f hf
              rcases root f hf with h | h | h
              · exact_mod_cast sub_eq_zero.1 h
              · have := congrArg Complex.im h
                simp at this
                exact absurd this hi
              · have := congrArg Complex.im h
                simp [hu] at this
                exact absurd this hi
            have ep := isv p (Or.inl rfl)
            have eq := isv q (Or.inr (Or.inl rfl))
            have es := isv s (Or.inr (Or.inr rfl))
            rw [x0, y0, ep, eq, es] at r1
            have : w.re = v := by
              have hRR : R ≠ 0 := by have := hc.hR; exact this.ne'
              apply mul_left_cancel₀ hRR
              linear_combination (1 / 2) * r1
            have i3 := congrArg Complex.re h2
            rw [Complex.re_ofReal_mul] at i3
            simp only [Complex.add_re, Complex.mul_re, Complex.ofReal_im, Complex.ofReal_re, zero_mul, sub_zero] at i3
            rw [hre, hu, this, x0, y0, ep, eq, es] at i3
            have : R * w.im ^ 2 = 0 := by linear_combination i3
            rcases mul_eq_zero.1 this with g | g
            · exact absurd g hc.hR.ne'
            · exact hi (pow_eq_zero_iff (by norm_num) |>.1 g)
        have hmean := hc.mean_lt hXY vp vq vs hv hb
        left
        rw [Complex.ofReal_re]
        have : (R - X * Y) * (v + w.re + w.re) > (R - X * Y) * (3 * v) := by rw [r1]; linarith
        have := lt_of_mul_lt_mul_left this hc.a_pos.le
        linarith
    intro w hw
    simp only [List.mem_cons, List.not_mem_nil, or_false] at vmem hw
    rcases vmem with e | e | e <;> rw [← e] at sums prod real
    · rcases hw with g | g | g
      · left; rw [g, e]
      · rw [g]; exact two z2 z3 sums prod real
      · rw [g]; exact two z3 z2 (by linear_combination sums) (by linear_combination prod) (fun f => by rw [real f]; ring)
    · rcases hw with g | g | g
      · rw [g]; exact two z1 z3 (by linear_combination sums) (by linear_combination prod) (fun f => by rw [real f]; ring)
      · left; rw [g, e]
      · rw [g]; exact two z3 z1 (by linear_combination sums) (by linear_combination prod) (fun f => by rw [real f]; ring)
    · rcases hw with g | g | g
      · rw [g]; exact two z1 z2 (by linear_combination sums) (by linear_combination prod) (fun f => by rw [real f]; ring)
      · rw [g]; exact two z2 z1 (by linear_combination sums) (by linear_combination prod) (fun f => by rw [real f]; ring)
      · left; rw [g, e]
  have hsel : minStress [z1, z2, z3] = some (v : ℂ) := by
    apply minStress_eq vmem _ other
    intro w hw hc0
    rcases other w hw with e | e
    · rw [e, ← Complex.ofReal_zero, ofReal_clt] at hc0
      linarith
    · rcases e with e | ⟨e, -⟩ <;> rcases hc0 with g | ⟨g, -⟩ <;> simp only [Complex.ofReal_re, Complex.zero_re] at e g <;> linarith
  rw [hsel]
  simp

/-! ## The theorems -/

/-- the cubic of the standard has a smallest positive root, not above the three stresses -/
theorem standard_least {R x y p q s : ℝ} (h : x ^ 2 + y ^ 2 < R) (hp : 0 < p) (hq : 0 < q) (hs : 0 < s) :
    ∃ g, IsLeast {g | 0 < g ∧ as4600 R x y p q s g = 0} g ∧ g ≤ p ∧ g ≤ q ∧ g ≤ s := by
  have hR : 0 < R := by nlinarith [sq_nonneg x, sq_nonneg y]
  have eq : ∀ g, as4600 R x y p q s g =
      -(R * ((p - g) * (q - g) * (s - g))) + g ^ 2 * (x ^ 2 * (q - g) + y ^ 2 * (p - g)) := by
    intro g; unfold as4600; ring
  set m := min p (min q s) with hm
  have m0 : 0 < m := lt_min hp (lt_min hq hs)
  have mp : m ≤ p := min_le_left _ _
  have mq : m ≤ q := (min_le_right _ _).trans (min_le_left _ _)
  have ms : m ≤ s := (min_le_right _ _).trans (min_le_right _ _)
  have cont : Continuous (as4600 R x y p q s) := by unfold as4600; fun_prop
  have at0 : as4600 R x y p q s 0 < 0 := by
    have := mul_pos (mul_pos (mul_pos hR hp) hq) hs
    unfold as4600; linarith
  have atm : 0 ≤ as4600 R x y p q s m := by
    rw [eq]
    have z : (p - m) * (q - m) * (s - m) = 0 := by
      rcases min_choice p (min q s) with e | e
      · rw [← hm] at e; rw [e]; ring
      · rw [← hm] at e
        rcases min_choice q s with g | g <;> rw [g] at e <;> rw [e] <;> ring
    rw [z, mul_zero, neg_zero, zero_add]
    have := sub_nonneg.2 mp
    have := sub_nonneg.2 mq
    positivity
  have hc : IsCompact (Set.Icc 0 m ∩ {f | 0 ≤ as4600 R x y p q s f}) :=
    isCompact_Icc.inter_right (isClosed_le continuous_const cont)
  obtain ⟨v, ⟨⟨v0, vm⟩, hv⟩, hmin⟩ := hc.exists_isLeast ⟨m, ⟨m0.le, le_rfl⟩, atm⟩
  have vpos : 0 < v := by
    rcases v0.lt_or_eq with g | g
    · exact g
    · rw [← g] at hv; exact absurd at0 (not_lt.2 hv)
  have hz : as4600 R x y p q s v = 0 := by
    refine le_antisymm ?_ hv
    by_contra hcon
    push Not at hcon
    obtain ⟨f, ⟨f0, fv⟩, hf⟩ := intermediate_value_Ico v0 cont.continuousOn (show (0 : ℝ) ∈ Set.Ico _ _ from ⟨at0.le, hcon⟩)
    exact absurd (hmin ⟨⟨f0, fv.le.trans vm⟩, hf.ge⟩) (not_le.2 fv)
  refine ⟨v, ⟨⟨vpos, hz⟩, fun g ⟨g0, hg⟩ => ?_⟩, vm.trans mp, vm.trans mq, vm.trans ms⟩
  rcases le_total g m with l | l
  · exact hmin ⟨⟨g0.le, l⟩, hg.ge⟩
  · exact vm.trans l

/-- C116, for shear centres within a metre of an axis: the stress returned for an unsymmetric section is a real number, positive, not above
any of the three buckling stresses about the axes, not below the stress given by the sum of their reciprocals, and not above the stress of
AS 4600, of which it is at least a third. -/
theorem C116_stress_partial {roots : Roots} (hr : roots.Exact) {m : Member} (hm : m.Positive) (hn : NearAxis m) :
    ∃ p q s f g, Stresses m p q s ∧ focUnsym roots m = .ok f ∧ 0 < f ∧ f ≤ p ∧ f ≤ q ∧ f ≤ s ∧ 1 / f ≤ 1 / p + 1 / q + 1 / s ∧
      IsLeast {g | 0 < g ∧ Member.as4600 m p q s g = 0} g ∧ f ≤ g ∧ g ≤ 3 * f := by
  obtain ⟨p, q, s, f, hS, hc, e, f0, fp, fq, fs, hz, hb⟩ := focUnsym_least hr hm hn
  have eR : m.rx ^ 2 + m.ry ^ 2 + m.xo ^ 2 + m.yo ^ 2 = roSq m.rx m.ry m.xo m.yo := by unfold roSq; ring
  obtain ⟨g, hg, gp, gq, gs⟩ := standard_least hc.lt hc.hp hc.hq hc.hs
  have hd := hc.dunkerley f0 fp fq hz
  refine ⟨p, q, s, f, g, hS, e, f0, fp, fq, fs, hd, by simpa only [Member.as4600, eR] using hg, ?_, ?_⟩
  · obtain ⟨⟨g0, hg0⟩, -⟩ := hg
    apply Coeffs.least_le hb
    have : srcCubic (roSq m.rx m.ry m.xo m.yo) (m.xo ^ 2) (m.yo ^ 2) p q s g =
        as4600 (roSq m.rx m.ry m.xo m.yo) m.xo m.yo p q s g + g ^ 3 * (m.xo ^ 2 + m.yo ^ 2 - m.xo ^ 2 * m.yo ^ 2) := by
      unfold srcCubic as4600; ring
    rw [this, hg0, zero_add]
    exact mul_nonneg (by positivity) (by linarith [hc.XY_le])
  · obtain ⟨⟨g0, -⟩, -⟩ := hg
    have h1 : 1 / p ≤ 1 / g := one_div_le_one_div_of_le g0 gp
    have h2 : 1 / q ≤ 1 / g := one_div_le_one_div_of_le g0 gq
    have h3 : 1 / s ≤ 1 / g := one_div_le_one_div_of_le g0 gs
    have h4 : 1 / f ≤ 3 / g := by
      have : (3 : ℝ) / g = 1 / g + 1 / g + 1 / g := by ring
      rw [this]; linarith
    rw [div_le_div_iff₀ f0 g0] at h4
    linarith

/-- C116, for shear centres within a metre of an axis: longer or less stiff unsymmetric members are not stronger, neither are those with a
smaller form factor or uncertainty factor. -/
theorem C116_longer_partial {roots : Roots} (hr : roots.Exact) {m m' : Member} (hm : m.Positive) (hm' : m'.Positive) (h : NotStiffer m m')
    (hn : NearAxis m) {sym : Symmetry} (hs : sym.symmetry = .ok .none) {kf kf' fy unc unc' : ℝ} (hf : 0 < fy) (hk : 0 ≤ kf')
    (hkk : kf' ≤ kf) (hu : 0 ≤ unc') (huu : unc' ≤ unc) :
    ∃ t t', S6.NcTorsion roots m kf fy sym unc = .ok t ∧ S6.NcTorsion roots m' kf' fy sym unc' = .ok t' ∧
      t'.foc ≤ t.foc ∧ t'.Ncz ≤ t.Ncz := by
  have hn' : NearAxis m' := by unfold NearAxis; rw [h.xo, h.yo]; exact hn
  obtain ⟨p, q, s, f, hS, hc, e, f0, fp, fq, fs, hz, hb⟩ := focUnsym_least hr hm hn
  obtain ⟨p', q', s', f', hS', hc', e', f0', fp', fq', fs', hz', hb'⟩ := focUnsym_least hr hm' hn'
  have euler : ∀ {E E' l l' r a a' : ℝ}, 0 < r → 0 < l → l ≤ l' → 0 < E' → E' ≤ E → fEuler E l r = .ok a → fEuler E' l' r = .ok a' → a' ≤ a := by
    intro E E' l l' r a a' h0 h1 h2 h3 h4 h5 h6
    have pp : (0 : ℝ) < piD := piD_pos
    rw [fEuler_ok h0.ne' h1.ne', Except.ok_inj'] at h5
    rw [fEuler_ok h0.ne' (h1.trans_le h2).ne', Except.ok_inj'] at h6
    rw [← h5, ← h6]
    have := h3.trans_le h4
    have := h1.trans_le h2
    gcongr
  have lp : p' ≤ p := euler hm.rx hm.lex h.lex hm'.E h.E hS.x (h.rx ▸ hS'.x)
  have lq : q' ≤ q := euler hm.ry hm.ley h.ley hm'.E h.E hS.y (h.ry ▸ hS'.y)
  have ls : s' ≤ s := by
    obtain ⟨w, w', -, -, -, -, -, l, g, g'⟩ := foxz_mono (ry := m.ry) (xo := m.xo) (yo := m.yo) hm.An hm.lex hm.lez hm.rx hm'.J hm'.Iw hm'.E
      hm'.G h.lex h.lez le_rfl h.J h.Iw h.E h.G
    have z := hS'.z
    rw [h.An, h.rx, h.ry, h.xo, h.yo, g', Except.ok_inj'] at z
    have z2 := hS.z
    rw [g, Except.ok_inj'] at z2
    rw [← z, ← z2]; exact l
  rw [h.rx, h.ry, h.xo, h.yo] at hb'
  have l : f' ≤ f := hc.mono f0 lp lq ls fp fq hz fp' fq' fs' hb'
  have c : foc roots m sym = .ok f := by simp only [foc, hs, Except.bind_ok']; exact e
  have c' : foc roots m' sym = .ok f' := by simp only [foc, hs, Except.bind_ok']; exact e'
  obtain ⟨t, ht, h1, hc1, hN⟩ := C53_capacity (kf := kf) (unc := unc) hf c f0
  obtain ⟨t', ht', h1', hc1', hN'⟩ := C53_capacity (kf := kf') (unc := unc') hf c' f0'
  refine ⟨t, t', ht, ht', by rw [h1, h1']; exact l, ?_⟩
  obtain ⟨lc, fn, g, -, -, pf, -, -, -, hmono⟩ := C53_curve hf f0
  obtain ⟨lc', fn', g', hle⟩ := hmono f' f0' l
  obtain ⟨lc2, fn2, g2, -, -, pf2, -⟩ := C53_curve hf f0'
  rw [hc1, Except.ok_inj', Prod.mk.injEq] at g
  rw [hc1', Except.ok_inj', Prod.mk.injEq] at g' g2
  rw [hN, hN', h.An, g.2, g'.2]
  have := hm.An
  have : 0 < fn' := by rw [← g'.2, g2.2]; exact pf2
  have := hk.trans hkk
  have := hu.trans huu
  gcongr

/-- the selected stress is not negative -/
theorem minStress_nonneg {l : List ℂ} {z : ℂ} (h : minStress l = some z) : ¬ clt z 0 := by
  classical
  have key : ∀ (l : List ℂ) (acc : Option ℂ), (∀ w, acc = some w → ¬ clt w 0) →
      l.foldl (fun acc i => if clt i 0 then acc
        else match acc with
          | Option.none => some i
          | some m => some (if clt i m then i else m)) acc = some z → ¬ clt z 0 := by
    intro l
    induction l with
    | nil => intro acc ha h; exact ha z h
    | cons w l ih =>
      intro acc ha h
      rw [List.foldl_cons] at h
      refine ih _ ?_ h
      intro u hu
      split at hu
      · exact ha u hu
      · rename_i hw
        cases acc with
        | none => simp only [Option.some.injEq] at hu; rw [← hu]; exact hw
        | some m =>
          simp only [Option.some.injEq] at hu
          rw [← hu]
          split
          · exact hw
          · exact ha m rfl
  unfold minStress at h
  exact key l Option.none (by simp) h

/-- far from both axes the cubic is negative for all stresses -/
theorem srcCubic_far {R X Y p' q' s' : ℝ} (hR : 0 < R) (X0 : 0 ≤ X) (Y0 : 0 ≤ Y) (hlt : X + Y < R) (p1 : 0 < p') (p2 : 0 < q') (p3 : 0 < s')
    (hfar : R * (p' * q' + q' * s' + p' * s') ^ 3 ≤ (X * Y - R) * (p' * q' * s') ^ 2) :
    R < X * Y ∧ ∀ f, 0 ≤ f → srcCubic R X Y p' q' s' f < 0 := by
  have σ0 : 0 < p' * q' + q' * s' + p' * s' := by positivity
  have π0 : 0 < p' * q' * s' := by positivity
  have a0 : R < X * Y := by
    by_contra hc
    push Not at hc
    have h1 : 0 < R * (p' * q' + q' * s' + p' * s') ^ 3 := by positivity
    have h2 : (X * Y - R) * (p' * q' * s') ^ 2 ≤ 0 := mul_nonpos_of_nonpos_of_nonneg (by linarith) (by positivity)
    linarith
  have neg : ∀ f, 0 ≤ f → srcCubic R X Y p' q' s' f < 0 := by
    intro f hf
    have hb : q' * X + p' * Y ≤ R * (p' + q' + s') := by
      have h1 : q' * X ≤ q' * R := mul_le_mul_of_nonneg_left (by linarith) p2.le
      have h2 : p' * Y ≤ p' * R := mul_le_mul_of_nonneg_left (by linarith) p1.le
      have h3 := mul_pos hR p3
      linarith
    have h2 : 0 ≤ (R * (p' + q' + s') - (q' * X + p' * Y)) * f ^ 2 := mul_nonneg (by linarith) (sq_nonneg f)
    have main : R * (p' * q' + q' * s' + p' * s') * f - (X * Y - R) * f ^ 3 < R * (p' * q' * s') := by
      obtain ⟨σ, hσ⟩ : ∃ σ, σ = p' * q' + q' * s' + p' * s' := ⟨_, rfl⟩
      obtain ⟨π, hπ⟩ : ∃ π, π = p' * q' * s' := ⟨_, rfl⟩
      rw [← hσ, ← hπ] at hfar ⊢
      rw [← hσ] at σ0
      rw [← hπ] at π0
      rcases lt_or_ge (σ * f) π with g | g
      · have : R * (σ * f) < R * π := mul_lt_mul_of_pos_left g hR
        have : 0 ≤ (X * Y - R) * f ^ 3 := mul_nonneg (by linarith) (by positivity)
        linarith
      · have g2 : π ^ 2 ≤ (σ * f) ^ 2 := by gcongr
        have g3 : R * σ ^ 3 ≤ (X * Y - R) * (σ * f) ^ 2 := hfar.trans (mul_le_mul_of_nonneg_left g2 (by linarith))
        have g4 : R * σ ≤ (X * Y - R) * f ^ 2 := by
          have : σ ^ 2 * (R * σ) ≤ σ ^ 2 * ((X * Y - R) * f ^ 2) := by linarith
          exact le_of_mul_le_mul_left this (by positivity)
        have g5 := mul_le_mul_of_nonneg_right g4 hf
        have : 0 < R * π := mul_pos hR π0
        nlinarith
    unfold srcCubic
    nlinarith
  exact ⟨a0, neg⟩

/-- C116 is false for shear centres far from both axes, in the unit of length used: no stress is returned (but a complex number or an
exception), and so no capacity of the member. -/
theorem C116_counterexample {roots : Roots} (hr : roots.Exact) {m : Member} (hm : m.Positive) {p q s : ℝ} (hS : Stresses m p q s)
    (hfar : (m.rx ^ 2 + m.ry ^ 2 + m.xo ^ 2 + m.yo ^ 2) * (p * q + q * s + p * s) ^ 3 ≤
      (m.xo ^ 2 * m.yo ^ 2 - (m.rx ^ 2 + m.ry ^ 2 + m.xo ^ 2 + m.yo ^ 2)) * (p * q * s) ^ 2) :
    (∀ v, focUnsym roots m ≠ .ok v) ∧
    (∀ kf fy sym unc t, sym.symmetry = .ok .none → NcTorsion roots m kf fy sym unc ≠ .ok t) ∧
    (∀ a r, a.member = m → a.sym.symmetry = .ok .none → a.calcBuckling = true → a.calcTorsion = true → Nc roots a ≠ .ok r) := by
  have eR : m.rx ^ 2 + m.ry ^ 2 + m.xo ^ 2 + m.yo ^ 2 = roSq m.rx m.ry m.xo m.yo := by unfold roSq; ring
  rw [eR] at hfar
  obtain ⟨p', q', s', p1, p2, p3, e1, e2, e3, ec⟩ := cubic_ok hm
  obtain rfl : p' = p := Except.ok_inj'.1 (e1.symm.trans hS.x)
  obtain rfl : q' = q := Except.ok_inj'.1 (e2.symm.trans hS.y)
  obtain rfl : s' = s := Except.ok_inj'.1 (e3.symm.trans hS.z)
  have hR := roSq_pos m.ry m.xo m.yo hm.rx
  have hlt : m.xo ^ 2 + m.yo ^ 2 < roSq m.rx m.ry m.xo m.yo := by
    unfold roSq; nlinarith [pow_pos hm.rx 2, pow_pos hm.ry 2]
  set R := roSq m.rx m.ry m.xo m.yo
  obtain ⟨X, hX⟩ : ∃ X, X = m.xo ^ 2 := ⟨_, rfl⟩
  obtain ⟨Y, hY⟩ : ∃ Y, Y = m.yo ^ 2 := ⟨_, rfl⟩
  have X0 : 0 ≤ X := by rw [hX]; positivity
  have Y0 : 0 ≤ Y := by rw [hY]; positivity
  rw [← hX, ← hY] at hfar hlt ec
  obtain ⟨a0, neg⟩ := srcCubic_far hR X0 Y0 hlt p1 p2 p3 hfar
  have first : ∀ v, focUnsym roots m ≠ .ok v := by
    intro v hv
    simp only [focUnsym, ec, Except.bind_ok'] at hv
    obtain ⟨z1, z2, z3, hl, hpoly⟩ := hr (R - X * Y) (-(R * (p' + q' + s') - (q' * X + p' * Y))) (R * (p' * q' + q' * s' + p' * s'))
      (-(R * p' * q' * s')) (by linarith)
    rw [hl] at hv
    split at hv
    · cases hv
    · rename_i z hz
      split at hv
      · rename_i hi
        have hre := minStress_nonneg hz
        have hmem := minStress_mem hz
        have hzr : z = (z.re : ℂ) := Complex.ext rfl (by simp [hi])
        have h0 : 0 ≤ z.re := by
          by_contra hc
          exact hre (Or.inl (by rw [Complex.zero_re]; linarith))
        have hroot := hpoly z
        have : ((R - X * Y : ℝ) : ℂ) * (z - z1) * (z - z2) * (z - z3) = 0 := by
          simp only [List.mem_cons, List.not_mem_nil, or_false] at hmem
          rcases hmem with rfl | rfl | rfl <;> simp
        rw [this] at hroot
        have hr' : ((srcCubic R X Y p' q' s' z.re : ℝ) : ℂ) = 0 := by
          rw [← hroot]
          conv_rhs => rw [hzr]
          unfold srcCubic
          push_cast
          ring
        have : srcCubic R X Y p' q' s' z.re = 0 := by exact_mod_cast hr'
        linarith [neg z.re h0]
      · cases hv
  have second : ∀ kf fy sym unc t, sym.symmetry = .ok .none → NcTorsion roots m kf fy sym unc ≠ .ok t := by
    intro kf fy sym unc t hs ht
    simp only [NcTorsion, foc, hs, Except.bind_ok'] at ht
    cases hv : focUnsym roots m with
    | ok v => exact first v hv
    | error e => rw [hv] at ht; cases ht
  refine ⟨first, second, ?_⟩
  intro a r ha hs hb ht h
  obtain ⟨-, -, -, -, -, -, -, htor, -⟩ := C54_minimum h
  obtain ⟨t, e, -⟩ := htor hb ht
  rw [← ha] at second
  exact second _ _ _ _ t hs e

/-- C116 is false in small units of length, whatever the section: there is a unit in which, and below which, no stress is returned. -/
theorem C116_units_counterexample {roots : Roots} (hr : roots.Exact) {m : Member} (hm : m.Positive) (hx : m.xo ≠ 0) (hy : m.yo ≠ 0) :
    ∃ L0 : ℝ, ∀ L F, L0 ≤ L → 0 < L → 0 < F → ∀ v, focUnsym roots (m.units L F) ≠ .ok v := by
  obtain ⟨p, q, s, p1, p2, p3, e1, e2, e3, -⟩ := cubic_ok hm
  have hR := roSq_pos m.ry m.xo m.yo hm.rx
  have eR : m.rx ^ 2 + m.ry ^ 2 + m.xo ^ 2 + m.yo ^ 2 = roSq m.rx m.ry m.xo m.yo := by unfold roSq; ring
  have σ0 : 0 < p * q + q * s + p * s := by positivity
  have π0 : 0 < p * q * s := by positivity
  have XY : 0 < m.xo ^ 2 * m.yo ^ 2 := by positivity
  obtain ⟨C, hC⟩ : ∃ C, C = (roSq m.rx m.ry m.xo m.yo * (p * q + q * s + p * s) ^ 3 / (p * q * s) ^ 2 + roSq m.rx m.ry m.xo m.yo) /
      (m.xo ^ 2 * m.yo ^ 2) := ⟨_, rfl⟩
  refine ⟨max 1 C, fun L F hL L0 F0 => ?_⟩
  have L1 : 1 ≤ L := (le_max_left _ _).trans hL
  have LC : C ≤ L ^ 2 := ((le_max_right _ _).trans hL).trans (by nlinarith)
  have hm' : (m.units L F).Positive := by
    obtain ⟨a, b, c, d, e, f, g, h, i, j⟩ := hm
    constructor <;> simp only [Member.units] <;> positivity
  have hS : Stresses (m.units L F) (F / L ^ 2 * p) (F / L ^ 2 * q) (F / L ^ 2 * s) := by
    refine ⟨?_, ?_, ?_⟩
    · show fEuler (F / L ^ 2 * m.E) (L * m.lex) (L * m.rx) = _
      rw [fEuler_units L0, e1]; rfl
    · show fEuler (F / L ^ 2 * m.E) (L * m.ley) (L * m.ry) = _
      rw [fEuler_units L0, e2]; rfl
    · show fEulerTorsion (L ^ 2 * m.An) (L * m.lez) (L * m.rx) (L * m.ry) (L * m.xo) (L * m.yo) (L ^ 4 * m.J) (L ^ 6 * m.Iw)
        (F / L ^ 2 * m.E) (F / L ^ 2 * m.G) = _
      rw [fEulerTorsion_units L0 F0, e3]; rfl
  refine (C116_counterexample hr hm' hS ?_).1
  show ((L * m.rx) ^ 2 + (L * m.ry) ^ 2 + (L * m.xo) ^ 2 + (L * m.yo) ^ 2) * _ ≤
    ((L * m.xo) ^ 2 * (L * m.yo) ^ 2 - ((L * m.rx) ^ 2 + (L * m.ry) ^ 2 + (L * m.xo) ^ 2 + (L * m.yo) ^ 2)) * _
  have k : (L * m.rx) ^ 2 + (L * m.ry) ^ 2 + (L * m.xo) ^ 2 + (L * m.yo) ^ 2 = L ^ 2 * roSq m.rx m.ry m.xo m.yo := by
    rw [← eR]; ring
  rw [k]
  set R := roSq m.rx m.ry m.xo m.yo
  rw [hC, div_le_iff₀ XY, ← le_sub_iff_add_le, div_le_iff₀ (by positivity)] at LC
  have : 0 ≤ (F / L ^ 2) ^ 6 * L ^ 2 := by positivity
  have := mul_le_mul_of_nonneg_left LC this
  calc _ = (F / L ^ 2) ^ 6 * L ^ 2 * (R * (p * q + q * s + p * s) ^ 3) := by ring
    _ ≤ _ := this
    _ = _ := by ring

/-- an unequal angle in metres: the hypotheses of the positive theorems are met, and a symmetry without axes is unsymmetric -/
noncomputable def unequalAngle : Member :=
  ⟨19 / 10000, 2, 2, 2, 48 / 1000, 21 / 1000, 14 / 1000, 36 / 1000, 4 / 10 ^ 8, 0, 200000000000, 80000000000⟩

example : unequalAngle.Positive ∧ NearAxis unequalAngle ∧ (Symmetry.mk (some [])).symmetry = .ok .none ∧
    NotStiffer unequalAngle { unequalAngle with lex := 3, E := 190000000000 } := by
  refine ⟨by constructor <;> norm_num [unequalAngle], Or.inl (by norm_num [unequalAngle, abs_le]), by decide +kernel, ?_⟩
  constructor <;> norm_num [unequalAngle]

/-- The same angle in millimetres and megapascals has no stress. -/
theorem C116_millimetres_counterexample {roots : Roots} (hr : roots.Exact) (v : ℝ) :
    focUnsym roots (unequalAngle.units 1000 1) ≠ .ok v := by
  have hm : (unequalAngle.units 1000 1).Positive := by constructor <;> norm_num [unequalAngle, Member.units]
  obtain ⟨p, q, s, p1, p2, p3, e1, e2, e3, -⟩ := cubic_ok hm
  refine (C116_counterexample hr hm ⟨e1, e2, e3⟩ ?_).1 v
  rw [fEuler_ok hm.rx.ne' hm.lex.ne', Except.ok_inj'] at e1
  rw [fEuler_ok hm.ry.ne' hm.ley.ne', Except.ok_inj'] at e2
  rw [fEulerTorsion_ok hm.An hm.lez hm.rx hm.J hm.G, Except.ok_inj'] at e3
  rw [← e1, ← e2, ← e3]
  norm_num [unequalAngle, Member.units, piD, roSq]

/-- exact root finders exist -/
example : unequalAngle.xo ≠ 0 ∧ unequalAngle.yo ≠ 0 ∧ ∃ roots : Roots, roots.Exact :=
  ⟨by norm_num [unequalAngle], by norm_num [unequalAngle], exists_exact_roots⟩

end BeamDesign
