import Verif.Spec.RoundedUnsym
import Verif.Lemmas.TorsionRound2
import Verif.Props.TorsionRound
import Verif.Props.Unsymmetric

/-!
# The least root of a cubic with slightly wrong coefficients
-/

namespace BeamDesign

open Spec S6

/-- a cubic as it is solved: `a, b, c, d` are the numbers called so in S6.py -/
def cub (a b c d f : ℝ) : ℝ := a * f ^ 3 - b * f ^ 2 + c * f - d

/-- the value of the cubic with wrong coefficients -/
theorem cub_error {a b c d a' b' c' d' ε f : ℝ} (ha : |a' - a| ≤ ε * a) (hb : |b' - b| ≤ ε * b) (hc : |c' - c| ≤ ε * c)
    (hd : |d' - d| ≤ ε * d) (hf : 0 ≤ f) : |cub a' b' c' d' f - cub a b c d f| ≤ ε * (a * f ^ 3 + b * f ^ 2 + c * f + d) := by
  have f2 : 0 ≤ f ^ 2 := by positivity
  have f3 : 0 ≤ f ^ 3 := by positivity
  rw [abs_le] at *
  have a1 := mul_le_mul_of_nonneg_right ha.1 f3
  have a2 := mul_le_mul_of_nonneg_right ha.2 f3
  have b1 := mul_le_mul_of_nonneg_right hb.1 f2
  have b2 := mul_le_mul_of_nonneg_right hb.2 f2
  have c1 := mul_le_mul_of_nonneg_right hc.1 hf
  have c2 := mul_le_mul_of_nonneg_right hc.2 hf
  unfold cub
  constructor <;> linarith [hd.1, hd.2]

/-- the quadratic factor -/
structure Factor (v M g B C : ℝ) : Prop where
  nonneg : 0 ≤ M
  bound : ∀ f, 0 ≤ f → f ≤ v * (1 + g / 2) → 0 < f ^ 2 - B * f + C ∧ f ^ 2 + B * f + C ≤ M ^ 2 * (f ^ 2 - B * f + C)

/-- two roots with real parts beyond `(1 + g) v` -/
theorem factor_of {v g x1 x2 y : ℝ} (hv : 0 < v) (hg : 0 < g) (h1 : (1 + g) * v ≤ x1) (h2 : (1 + g) * v ≤ x2) :
    Factor v (3 + 4 / g) g (x1 + x2) (x1 * x2 + y ^ 2) where
  nonneg := by positivity
  bound := by
    intro f f0 hf
    have hM : 0 < 4 / g := by positivity
    have hMg : 4 / g * g = 4 := by field_simp
    have lt : ∀ x, (1 + g) * v ≤ x → 0 < x - f ∧ f + x ≤ (3 + 4 / g) * (x - f) := by
      intro x hx
      have hgv : 0 < g * v := by positivity
      refine ⟨by nlinarith, ?_⟩
      have e1 : f * (4 + 4 / g) ≤ v * (1 + g / 2) * (4 + 4 / g) := mul_le_mul_of_nonneg_right hf (by linarith)
      have e2 : (1 + g) * v * (2 + 4 / g) ≤ x * (2 + 4 / g) := mul_le_mul_of_nonneg_right hx (by linarith)
      have e3 : v * (1 + g / 2) * (4 + 4 / g) = (1 + g) * v * (2 + 4 / g) := by field_simp; ring
      nlinarith
    obtain ⟨p1, b1⟩ := lt x1 h1
    obtain ⟨p2, b2⟩ := lt x2 h2
    have e1 : f ^ 2 - (x1 + x2) * f + (x1 * x2 + y ^ 2) = (x1 - f) * (x2 - f) + y ^ 2 := by ring
    have e2 : f ^ 2 + (x1 + x2) * f + (x1 * x2 + y ^ 2) = (f + x1) * (f + x2) + y ^ 2 := by ring
    rw [e1, e2]
    refine ⟨by positivity, ?_⟩
    have hx2 : 0 ≤ f + x2 := by linarith
    have m1 := mul_le_mul b1 b2 hx2 (by positivity)
    have m2 : y ^ 2 ≤ (3 + 4 / g) ^ 2 * y ^ 2 := by
      have : (1 : ℝ) ≤ (3 + 4 / g) ^ 2 := by nlinarith
      nlinarith [sq_nonneg y]
    nlinarith

/-- the least root of the wrong cubic is near that of the right one -/
theorem least_near {a b c d a' b' c' d' v g B C M ε δ : ℝ} (a0 : 0 < a) (hv : 0 < v) (hB : 0 < B) (hC : 0 < C) (hF : Factor v M g B C)
    (eb : b = a * (v + B)) (ec : c = a * (v * B + C)) (ed : d = a * (v * C))
    (ha : |a' - a| ≤ ε * a) (hb : |b' - b| ≤ ε * b) (hc : |c' - c| ≤ ε * c) (hd : |d' - d| ≤ ε * d) (hε : 0 ≤ ε) (h1 : ε < 1)
    (hδ : 3 * ε * M ^ 2 ≤ δ) (δ1 : δ < 1) (δg : δ ≤ g / 2) :
    ∃ v', |v' - v| ≤ δ * v ∧ cub a' b' c' d' v' = 0 ∧ ∀ f < v', cub a' b' c' d' f < 0 := by
  have δ0 : 0 ≤ δ := le_trans (by positivity) hδ
  have b0 : 0 < b := by rw [eb]; positivity
  have c0 : 0 < c := by rw [ec]; positivity
  have d0 : 0 < d := by rw [ed]; positivity
  have pos : ∀ {x x' : ℝ}, 0 < x → |x' - x| ≤ ε * x → 0 < x' := by
    intro x x' hx h
    have := (abs_le.1 h).1
    nlinarith
  have a0' := pos a0 ha
  have b0' := pos b0 hb
  have c0' := pos c0 hc
  have d0' := pos d0 hd
  have S : ∀ f, a * f ^ 3 + b * f ^ 2 + c * f + d = a * ((f + v) * (f ^ 2 + B * f + C)) := fun f => by rw [eb, ec, ed]; ring
  have V : ∀ f, cub a b c d f = a * ((f - v) * (f ^ 2 - B * f + C)) := fun f => by unfold cub; rw [eb, ec, ed]; ring
  have err : ∀ f, 0 ≤ f → |cub a' b' c' d' f - cub a b c d f| ≤ ε * (a * ((f + v) * (f ^ 2 + B * f + C))) := fun f hf =>
    S f ▸ cub_error ha hb hc hd hf
  -- below
  have low : ∀ f, f < v * (1 - δ) → cub a' b' c' d' f < 0 := by
    intro f hf
    rcases lt_or_ge f 0 with hn | hn
    · have p3 : f ^ 3 < 0 := by have := mul_pos_of_neg_of_neg hn hn; nlinarith
      have t1 : a' * f ^ 3 < 0 := mul_neg_of_pos_of_neg a0' p3
      have t2 : 0 ≤ b' * f ^ 2 := by positivity
      have t3 : c' * f < 0 := mul_neg_of_pos_of_neg c0' hn
      unfold cub; linarith
    · have hfv : f ≤ v * (1 + g / 2) := by nlinarith
      obtain ⟨q0, q1⟩ := hF.bound f hn hfv
      have e := (abs_le.1 (err f hn)).2
      rw [V f] at e
      have lt : f < v := by nlinarith
      -- ε (f + v) (..) ≤ ε 2 v M² (f² - B f + C) ≤ (2/3) δ v (..)
      have k1 : (f + v) * (f ^ 2 + B * f + C) ≤ 2 * v * (M ^ 2 * (f ^ 2 - B * f + C)) :=
        mul_le_mul (by linarith) q1 (by positivity) (by positivity)
      have k2 : ε * ((f + v) * (f ^ 2 + B * f + C)) ≤ δ * v * (f ^ 2 - B * f + C) := by
        have := mul_le_mul_of_nonneg_left k1 hε
        have h3 : ε * (2 * v * (M ^ 2 * (f ^ 2 - B * f + C))) = 2 / 3 * (3 * ε * M ^ 2) * (v * (f ^ 2 - B * f + C)) := by ring
        have h4 : 3 * ε * M ^ 2 * (v * (f ^ 2 - B * f + C)) ≤ δ * (v * (f ^ 2 - B * f + C)) := mul_le_mul_of_nonneg_right hδ (by positivity)
        have h5 : 0 ≤ 3 * ε * M ^ 2 * (v * (f ^ 2 - B * f + C)) := by positivity
        linarith
      have k3 : δ * v * (f ^ 2 - B * f + C) < (v - f) * (f ^ 2 - B * f + C) := mul_lt_mul_of_pos_right (by linarith) q0
      have k4 : a * (ε * ((f + v) * (f ^ 2 + B * f + C))) < a * ((v - f) * (f ^ 2 - B * f + C)) := mul_lt_mul_of_pos_left (by linarith) a0
      linarith
  -- above
  have high : 0 ≤ cub a' b' c' d' (v * (1 + δ)) := by
    have hn : 0 ≤ v * (1 + δ) := by positivity
    obtain ⟨q0, q1⟩ := hF.bound _ hn (mul_le_mul_of_nonneg_left (by linarith) hv.le)
    have e := (abs_le.1 (err _ hn)).1
    rw [V] at e
    set f := v * (1 + δ) with hf
    have k1 : (f + v) * (f ^ 2 + B * f + C) ≤ 3 * v * (M ^ 2 * (f ^ 2 - B * f + C)) :=
      mul_le_mul (by nlinarith) q1 (by positivity) (by positivity)
    have k2 : ε * ((f + v) * (f ^ 2 + B * f + C)) ≤ (f - v) * (f ^ 2 - B * f + C) := by
      have := mul_le_mul_of_nonneg_left k1 hε
      have h3 : ε * (3 * v * (M ^ 2 * (f ^ 2 - B * f + C))) = (3 * ε * M ^ 2) * (v * (f ^ 2 - B * f + C)) := by ring
      have h4 : 3 * ε * M ^ 2 * (v * (f ^ 2 - B * f + C)) ≤ δ * (v * (f ^ 2 - B * f + C)) := mul_le_mul_of_nonneg_right hδ (by positivity)
      have h5 : f - v = δ * v := by rw [hf]; ring
      rw [h5]; linarith
    have k4 : a * (ε * ((f + v) * (f ^ 2 + B * f + C))) ≤ a * ((f - v) * (f ^ 2 - B * f + C)) := mul_le_mul_of_nonneg_left k2 a0.le
    linarith
  have cont : Continuous (cub a' b' c' d') := by unfold cub; fun_prop
  have ends : v * (1 - δ) ≤ v * (1 + δ) := mul_le_mul_of_nonneg_left (by linarith) hv.le
  have comp : IsCompact (Set.Icc (v * (1 - δ)) (v * (1 + δ)) ∩ {f | 0 ≤ cub a' b' c' d' f}) :=
    isCompact_Icc.inter_right (isClosed_le continuous_const cont)
  obtain ⟨v', ⟨⟨l, r⟩, hz⟩, hmin⟩ := comp.exists_isLeast ⟨v * (1 + δ), ⟨ends, le_rfl⟩, high⟩
  have below : ∀ f < v', cub a' b' c' d' f < 0 := by
    intro f hf
    by_contra hcon
    push Not at hcon
    rcases lt_or_ge f (v * (1 - δ)) with k | k
    · exact absurd (low f k) (not_lt.2 hcon)
    · exact absurd (hmin ⟨⟨k, hf.le.trans r⟩, hcon⟩) (not_le.2 hf)
  refine ⟨v', by rw [abs_le]; constructor <;> linarith, le_antisymm ?_ hz, below⟩
  by_contra hcon
  push Not at hcon
  have v'0 : 0 < v' := lt_of_lt_of_le (by nlinarith) l
  have z0 : cub a' b' c' d' 0 < 0 := by unfold cub; linarith
  obtain ⟨f, ⟨f0, fv⟩, hf⟩ := intermediate_value_Ico v'0.le cont.continuousOn (show (0 : ℝ) ∈ Set.Ico _ _ from ⟨z0.le, hcon⟩)
  exact absurd (below f fv) (by rw [hf]; exact lt_irrefl 0)

end BeamDesign
