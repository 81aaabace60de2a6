import Verif.Model.S6
import Verif.Lemmas.Real

/-!
# Lemmas on the section 6 formulas
-/

set_option linter.unusedSimpArgs false

namespace BeamDesign

open S6

/-- the denominator of `α_a` is positive -/
theorem den_pos (x : ℝ) : 0 < x * x - 153 / 10 * x + 2050 := by nlinarith [sq_nonneg (x - 153 / 20)]

/-- `α` is the smaller root of the Perry-Robertson quadratic `u α² - (u + 1 + η) α + 1 = 0` -/
structure IsAlpha (u eta a : ℝ) : Prop where
  pos : 0 < a
  root : u * a ^ 2 - (u + 1 + eta) * a + 1 = 0
  small : 2 * u * a ≤ u + 1 + eta

theorem IsAlpha.le_of_nonpos {u eta a b : ℝ} (h : IsAlpha u eta a) (hu : 0 < u)
    (hb : u * b ^ 2 - (u + 1 + eta) * b + 1 ≤ 0) : a ≤ b := by
  by_contra hc
  have hlt : b < a := not_le.1 hc
  have h1 := h.root
  have h2 := h.small
  have h3 : (a - b) * (u * (a + b) - (u + 1 + eta)) ≥ 0 := by nlinarith
  have h4 : u * (a + b) - (u + 1 + eta) < 0 := by nlinarith
  nlinarith

theorem IsAlpha.le_one {u eta a : ℝ} (h : IsAlpha u eta a) (hu : 0 < u) (he : 0 ≤ eta) : a ≤ 1 :=
  h.le_of_nonpos hu (by nlinarith)

theorem IsAlpha.lt_one {u eta a : ℝ} (h : IsAlpha u eta a) (hu : 0 < u) (he : 0 < eta) : a < 1 := by
  refine lt_of_le_of_ne (h.le_one hu he.le) (fun e => ?_)
  have := h.root
  rw [e] at this
  nlinarith

theorem IsAlpha.le_inv {u eta a : ℝ} (h : IsAlpha u eta a) (hu : 0 < u) (he : 0 ≤ eta) : a * u ≤ 1 := by
  have : a ≤ 1 / u := by
    apply h.le_of_nonpos hu
    have e : u * (1 / u) ^ 2 - (u + 1 + eta) * (1 / u) + 1 = -(eta * (1 / u)) := by field_simp; ring
    rw [e]
    have : 0 ≤ eta * (1 / u) := by positivity
    linarith
  rwa [le_div_iff₀ hu] at this

theorem IsAlpha.mono {u eta a u' eta' a' : ℝ} (h : IsAlpha u eta a) (h' : IsAlpha u' eta' a') (hu : 0 < u)
    (he : 0 ≤ eta) (huu : u ≤ u') (hee : eta ≤ eta') : a' ≤ a := by
  apply h'.le_of_nonpos (hu.trans_le huu)
  have h1 := h.root
  have h2 := h.le_one hu he
  have h3 := h.pos
  have h4 : (u' - u) * (a * (a - 1)) ≤ 0 :=
    mul_nonpos_of_nonneg_of_nonpos (by linarith) (mul_nonpos_of_nonneg_of_nonpos h3.le (by linarith))
  have h5 : 0 ≤ (eta' - eta) * a := mul_nonneg (by linarith) h3.le
  nlinarith

theorem IsAlpha.eq_one {u a : ℝ} (h : IsAlpha u 0 a) (hu1 : u ≤ 1) : a = 1 := by
  have h1 := h.root
  have h2 := h.small
  have h3 : (u * a - 1) * (a - 1) = 0 := by nlinarith
  rcases mul_eq_zero.1 h3 with h | h
  · have : u = 1 := by nlinarith
    rw [this] at h; linarith
  · linarith

/-- the modified slenderness of S6.3.3 -/
noncomputable def lamOf (ln ab : ℝ) : ℝ := ln + 2100 * (ln - 27 / 2) / (ln * ln - 153 / 10 * ln + 2050) * ab

/-- the imperfection parameter of S6.3.3 -/
noncomputable def etaOf (lam : ℝ) : ℝ := max (326 / 100000 * (lam - 27 / 2)) 0

theorem alphaC_ok {ln ab : ℝ} (h : lamOf ln ab ≠ 0) :
    ∃ r, alphaC ln ab = .ok r ∧ r.lambda = lamOf ln ab ∧ r.eta = etaOf (lamOf ln ab) ∧
      IsAlpha ((lamOf ln ab / 90) ^ 2) (etaOf (lamOf ln ab)) r.alphaC := by
  have hd := den_pos ln
  set lam := lamOf ln ab with hlam
  have heta : 0 ≤ etaOf lam := le_max_right _ _
  set eta := etaOf lam with heta'
  have hu : 0 < (lam / 90) ^ 2 := by positivity
  set u := (lam / 90) ^ 2 with hu'
  have hxi : 0 < (u + 1 + eta) / (2 * u) := by positivity
  set xi := (u + 1 + eta) / (2 * u) with hxi'
  have hxl : xi * lam ≠ 0 := mul_ne_zero hxi.ne' h
  have ht : (90 / (xi * lam)) ^ 2 = 1 / (xi ^ 2 * u) := by
    rw [hu']; field_simp
  have hxu : 1 ≤ xi ^ 2 * u := by
    have : xi ^ 2 * u = (u + 1 + eta) ^ 2 / (4 * u) := by rw [hxi']; field_simp; ring
    rw [this, le_div_iff₀ (by positivity)]
    nlinarith [sq_nonneg (u - 1), mul_nonneg heta heta, mul_nonneg heta hu.le]
  have ht1 : 0 ≤ 1 - (90 / (xi * lam)) ^ 2 := by
    rw [ht]
    have : 1 / (xi ^ 2 * u) ≤ 1 := by rw [div_le_one (by positivity)]; exact hxu
    linarith
  refine ⟨⟨2100 * (ln - 27 / 2) / (ln * ln - 153 / 10 * ln + 2050), lam, eta, xi, xi * (1 - √(1 - (90 / (xi * lam)) ^ 2))⟩, ?_, rfl, rfl, ?_⟩
  · simp only [alphaC, rdiv_ok hd.ne', Except.bind_ok']
    have e1 : ln + 2100 * (ln - 27 / 2) / (ln * ln - 153 / 10 * ln + 2050) * ab = lam := rfl
    have e2 : max (326 / 100000 * (lam - 27 / 2)) 0 = eta := rfl
    rw [e1, e2, rdiv_ok (show 2 * (lam / 90) ^ 2 ≠ 0 by positivity), Except.bind_ok']
    have e3 : ((lam / 90) ^ 2 + 1 + eta) / (2 * (lam / 90) ^ 2) = xi := rfl
    rw [e3, rdiv_ok hxl, Except.bind_ok', rsqrt_ok ht1, Except.bind_ok']
    rfl
  · have hy := Real.sq_sqrt ht1
    set y := √(1 - (90 / (xi * lam)) ^ 2) with hy'
    have hy0 : 0 ≤ y := Real.sqrt_nonneg _
    have hy1 : y < 1 := by
      have : 0 < (90 / (xi * lam)) ^ 2 := by positivity
      nlinarith
    have hux : 2 * u * xi = u + 1 + eta := by rw [hxi']; field_simp
    refine ⟨mul_pos hxi (by linarith), ?_, ?_⟩
    · show u * (xi * (1 - y)) ^ 2 - (u + 1 + eta) * (xi * (1 - y)) + 1 = 0
      rw [← hux]
      have : u * (xi * (1 - y)) ^ 2 - 2 * u * xi * (xi * (1 - y)) + 1 = 1 - xi ^ 2 * u * (1 - y ^ 2) := by ring
      rw [this, hy, ht]
      field_simp
      ring
    · show 2 * u * (xi * (1 - y)) ≤ u + 1 + eta
      rw [← hux]
      nlinarith [mul_pos hu hxi]

theorem alphaC_zero {ln ab : ℝ} (h : lamOf ln ab = 0) : alphaC ln ab = .error .zeroDivision := by
  have hd := den_pos ln
  have e1 : ln + 2100 * (ln - 27 / 2) / (ln * ln - 153 / 10 * ln + 2050) * ab = 0 := h
  simp only [alphaC, rdiv_ok hd.ne', Except.bind_ok', e1, zero_div, ne_eq, OfNat.ofNat_ne_zero,
    not_false_eq_true, zero_pow, mul_zero, rdiv_zero, Except.bind_error']

theorem lamOf_sub (ln ab : ℝ) :
    lamOf ln ab - 27 / 2 = (ln - 27 / 2) * (1 + 2100 * ab / (ln * ln - 153 / 10 * ln + 2050)) := by
  unfold lamOf; ring

theorem etaOf_of_le {lam : ℝ} (h : lam ≤ 27 / 2) : etaOf lam = 0 := by
  unfold etaOf; apply max_eq_right; linarith

theorem etaOf_mono {lam lam' : ℝ} (h : lam ≤ lam') : etaOf lam ≤ etaOf lam' := by
  unfold etaOf; apply max_le_max _ le_rfl; linarith

/-- short columns: the factor is exactly one -/
theorem alpha_one {lam a : ℝ} (h1 : lam ≤ 27 / 2) (h2 : -90 ≤ lam) (h : IsAlpha ((lam / 90) ^ 2) (etaOf lam) a) :
    a = 1 := by
  rw [etaOf_of_le h1] at h
  apply h.eq_one
  rw [div_pow, div_le_one (by norm_num)]
  nlinarith

/-- slender enough columns: the slenderness is above 13.5 only if it grows from there on -/
theorem lam_mono {ln ln' ab : ℝ} (h0 : 27 / 2 ≤ ln) (h : ln ≤ ln') (hab1 : ab ≤ 1)
    (hl : 27 / 2 < lamOf ln ab) : lamOf ln ab ≤ lamOf ln' ab := by
  obtain ⟨t, rfl⟩ : ∃ t, ln = t + 27 / 2 := ⟨ln - 27 / 2, by ring⟩
  obtain ⟨t', rfl⟩ : ∃ t', ln' = t' + 27 / 2 := ⟨ln' - 27 / 2, by ring⟩
  have ht : 0 ≤ t := by linarith
  have htt : t ≤ t' := by linarith
  have ht' : 0 ≤ t' := by linarith
  have hd := den_pos (t + 27 / 2)
  have hd' := den_pos (t' + 27 / 2)
  have s := lamOf_sub (t + 27 / 2) ab
  have s' := lamOf_sub (t' + 27 / 2) ab
  rw [add_sub_cancel_right] at s s'
  have eD : (t + 27 / 2) * (t + 27 / 2) - 153 / 10 * (t + 27 / 2) + 2050 = t ^ 2 + 117 / 10 * t + 20257 / 10 := by
    ring
  have eD' : (t' + 27 / 2) * (t' + 27 / 2) - 153 / 10 * (t' + 27 / 2) + 2050 =
      t' ^ 2 + 117 / 10 * t' + 20257 / 10 := by ring
  rw [eD] at s hd
  rw [eD'] at s' hd'
  set D := t ^ 2 + 117 / 10 * t + 20257 / 10 with hD
  set D' := t' ^ 2 + 117 / 10 * t' + 20257 / 10 with hD'
  have hDD : D ≤ D' := by rw [hD, hD']; nlinarith
  suffices hs : t * (1 + 2100 * ab / D) ≤ t' * (1 + 2100 * ab / D') by linarith
  rcases le_total ab 0 with hneg | hpos
  · have g : 0 < t * (1 + 2100 * ab / D) := by linarith
    have gp : 0 < 1 + 2100 * ab / D := by
      rcases ht.lt_or_eq with h | h
      · exact (mul_pos_iff_of_pos_left h).1 g
      · rw [← h] at g; simp at g
    have : 2100 * ab / D ≤ 2100 * ab / D' := by
      rw [div_le_div_iff₀ hd hd']
      nlinarith
    exact mul_le_mul htt (by linarith) gp.le ht'
  · have e : t' * (1 + 2100 * ab / D') - t * (1 + 2100 * ab / D) =
        (t' - t) * (D * D' + 2100 * ab * (20257 / 10 - t * t')) / (D * D') := by
      rw [hD, hD'] at *
      field_simp
      ring
    have hnum : 0 ≤ D * D' + 2100 * ab * (20257 / 10 - t * t') := by
      have a1 : t ^ 2 + 2025 ≤ D := by rw [hD]; nlinarith
      have a2 : t' ^ 2 + 2025 ≤ D' := by rw [hD']; nlinarith
      have a3 : (t ^ 2 + 2025) * (t' ^ 2 + 2025) ≤ D * D' := by gcongr
      have a4 : 8100 * (t * t') ≤ (t ^ 2 + 2025) * (t' ^ 2 + 2025) := by
        nlinarith [sq_nonneg (t * t' - 2025), sq_nonneg (t - t'), mul_nonneg ht ht']
      have a5 : 0 ≤ t * t' := mul_nonneg ht ht'
      have a6 : ab * (t * t') ≤ t * t' := by nlinarith
      nlinarith
    have : 0 ≤ (t' - t) * (D * D' + 2100 * ab * (20257 / 10 - t * t')) / (D * D') := by
      have : 0 ≤ t' - t := by linarith
      positivity
    linarith

/-- The buckling factor does not increase from a slenderness of 13.5 on. -/
theorem alpha_mono_slender {ln ln' ab a a' : ℝ} (h0 : 27 / 2 ≤ ln) (h : ln ≤ ln') (hab : -1 ≤ ab) (hab1 : ab ≤ 1)
    (hz' : lamOf ln' ab ≠ 0)
    (ha : IsAlpha ((lamOf ln ab / 90) ^ 2) (etaOf (lamOf ln ab)) a)
    (ha' : IsAlpha ((lamOf ln' ab / 90) ^ 2) (etaOf (lamOf ln' ab)) a') : a' ≤ a := by
  have hu' : 0 < (lamOf ln' ab / 90) ^ 2 := by positivity
  rcases lt_or_ge (27 / 2) (lamOf ln ab) with hgt | hle
  · have hm := lam_mono h0 h hab1 hgt
    have hl0 : 0 < lamOf ln ab := by linarith
    exact ha.mono ha' (by positivity) (le_max_right _ _) (by gcongr) (etaOf_mono hm)
  · have : a = 1 := by
      refine alpha_one hle ?_ ha
      have s := lamOf_sub ln ab
      have hd := den_pos ln
      set D := ln * ln - 153 / 10 * ln + 2050 with hD
      by_contra hc
      have hlt : (ln - 27 / 2) * (1 + 2100 * ab / D) < -(207 / 2) := by linarith
      have hq : -(2100 : ℝ) / D ≤ 2100 * ab / D := by
        apply div_le_div_of_nonneg_right _ hd.le
        linarith
      have h5 : (ln - 27 / 2) * (1 + -2100 / D) ≤ (ln - 27 / 2) * (1 + 2100 * ab / D) := by
        apply mul_le_mul_of_nonneg_left _ (by linarith)
        linarith
      have h6 : (ln - 27 / 2) * (1 + -2100 / D) < -(207 / 2) := by linarith
      have h7 : (ln - 27 / 2) * (1 + -2100 / D) * D = (ln - 27 / 2) * (D - 2100) := by field_simp; ring
      have h8 : (ln - 27 / 2) * (D - 2100) < -(207 / 2) * D := by
        rw [← h7]; exact mul_lt_mul_of_pos_right h6 hd
      have h9 : (0 : ℝ) ≤ ln - 27 / 2 := by linarith
      rw [hD] at h8
      nlinarith [mul_nonneg h9 (sq_nonneg (ln - 27 / 2)), mul_nonneg h9 h9]
    rw [this]
    exact ha'.le_one hu' (le_max_right _ _)

/-- The buckling factor does not increase with the slenderness when `α_b ≥ -796591/840000` (about -0.948323). -/
theorem alpha_mono {ln ln' ab a a' : ℝ} (h0 : 0 ≤ ln) (h : ln ≤ ln') (hab : -(796591 / 840000) ≤ ab) (hab1 : ab ≤ 1)
    (hz' : lamOf ln' ab ≠ 0)
    (ha : IsAlpha ((lamOf ln ab / 90) ^ 2) (etaOf (lamOf ln ab)) a)
    (ha' : IsAlpha ((lamOf ln' ab / 90) ^ 2) (etaOf (lamOf ln' ab)) a') : a' ≤ a := by
  rcases le_or_gt (27 / 2) ln with hge | hlt
  · exact alpha_mono_slender hge h (by linarith) hab1 hz' ha ha'
  · have hu' : 0 < (lamOf ln' ab / 90) ^ 2 := by positivity
    have s := lamOf_sub ln ab
    have hd := den_pos ln
    have hDlo : 19914775 / 10000 ≤ ln * ln - 153 / 10 * ln + 2050 := by nlinarith [sq_nonneg (ln - 153 / 20)]
    set D := ln * ln - 153 / 10 * ln + 2050 with hD
    have q1 : -1 ≤ 2100 * ab / D := by rw [le_div_iff₀ hd]; nlinarith
    have q2 : 2100 * ab / D ≤ 2 := by rw [div_le_iff₀ hd]; nlinarith
    have : a = 1 := by
      refine alpha_one ?_ ?_ ha
      · nlinarith
      · nlinarith
    rw [this]
    exact ha'.le_one hu' (le_max_right _ _)

theorem lambdaN_ok {kf le r fy fref : ℝ} (hk : 0 ≤ kf) (hr : r ≠ 0) (hf : 0 ≤ fy / fref) (hfr : fref ≠ 0) :
    lambdaN kf le r fy fref = .ok (le / r * √kf * √(fy / fref)) := by
  simp only [lambdaN, rdiv_ok hr, rsqrt_ok hk, rdiv_ok hfr, rsqrt_ok hf, Except.bind_ok', pure, Except.pure]

/-- `s6_3_3_N_c` when it returns -/
theorem NcFlexural_inv {An kf le r fy fref ab : ℝ} {x : Flexural} (hk : 0 ≤ kf) (hr : r ≠ 0)
    (hf : 0 ≤ fy / fref) (hfr : fref ≠ 0) (h : NcFlexural An kf le r fy fref ab = .ok x) :
    lamOf (le / r * √kf * √(fy / fref)) ab ≠ 0 ∧ x.lambdaN = le / r * √kf * √(fy / fref) ∧
      x.Nc = An * kf * fy * x.factors.alphaC ∧
      IsAlpha ((lamOf (le / r * √kf * √(fy / fref)) ab / 90) ^ 2)
        (etaOf (lamOf (le / r * √kf * √(fy / fref)) ab)) x.factors.alphaC := by
  simp only [NcFlexural, lambdaN_ok hk hr hf hfr, Except.bind_ok'] at h
  by_cases hz : lamOf (le / r * √kf * √(fy / fref)) ab = 0
  · rw [alphaC_zero hz] at h; cases h
  · obtain ⟨c, hc, _, _, hal⟩ := alphaC_ok hz
    rw [hc] at h
    injection h with h
    subst h
    exact ⟨hz, rfl, rfl, hal⟩

theorem fEuler_ok {E le r : ℝ} (hr : r ≠ 0) (hl : le ≠ 0) :
    fEuler E le r = .ok (piD * piD * E / (le / r * (le / r))) := by
  have : le / r * (le / r) ≠ 0 := mul_ne_zero (div_ne_zero hl hr) (div_ne_zero hl hr)
  simp only [fEuler, rdiv_ok hr, Except.bind_ok', rdiv_ok this]

/-- the squared polar radius of gyration -/
noncomputable def roSq (rx ry xo yo : ℝ) : ℝ := rx * rx + ry * ry + xo * xo + yo * yo

theorem roSq_pos {rx : ℝ} (ry xo yo : ℝ) (h : 0 < rx) : 0 < roSq rx ry xo yo := by
  unfold roSq
  have := mul_self_nonneg ry
  have := mul_self_nonneg xo
  have := mul_self_nonneg yo
  have : 0 < rx * rx := by positivity
  linarith

theorem rol_ok {rx : ℝ} (ry xo yo : ℝ) (h : 0 < rx) : rol rx ry xo yo = .ok (√(roSq rx ry xo yo)) :=
  rsqrt_ok (roSq_pos ry xo yo h).le

theorem fEulerTorsion_ok {A lez rx ry xo yo J Iw E G : ℝ} (hA : 0 < A) (hl : 0 < lez) (hrx : 0 < rx) (hJ : 0 < J)
    (hG : 0 < G) :
    fEulerTorsion A lez rx ry xo yo J Iw E G =
      .ok (G * J / (A * roSq rx ry xo yo) * (1 + piD * piD * E * Iw / (G * J * (lez * lez)))) := by
  have h := roSq_pos ry xo yo hrx
  have hs : √(roSq rx ry xo yo) ≠ 0 := (Real.sqrt_pos.2 h).ne'
  have e : A * √(roSq rx ry xo yo) * √(roSq rx ry xo yo) = A * roSq rx ry xo yo := by
    rw [mul_assoc, Real.mul_self_sqrt h.le]
  simp only [fEulerTorsion, rol_ok ry xo yo hrx, Except.bind_ok', e]
  rw [rdiv_ok (by positivity), Except.bind_ok', rdiv_ok (by positivity), Except.bind_ok']
  rfl

theorem fEulerTorsion_pos {A lez rx ry xo yo J Iw E G : ℝ} (hA : 0 < A) (hl : 0 < lez) (hrx : 0 < rx) (hJ : 0 < J)
    (hG : 0 < G) (hE : 0 < E) (hI : 0 ≤ Iw) :
    0 < G * J / (A * roSq rx ry xo yo) * (1 + piD * piD * E * Iw / (G * J * (lez * lez))) := by
  have h := roSq_pos ry xo yo hrx
  have hp : (0 : ℝ) < piD := piD_pos
  positivity

/-- the smaller root of `β f² - (p + q) f + p q = 0` -/
theorem flexTorsion {p q beta : ℝ} (hp : 0 < p) (hq : 0 < q) (hb : 0 < beta) (hb1 : beta ≤ 1) :
    0 ≤ (p + q) ^ 2 - 4 * beta * p * q ∧
    0 < 1 / (2 * beta) * (p + q - √((p + q) ^ 2 - 4 * beta * p * q)) ∧
    1 / (2 * beta) * (p + q - √((p + q) ^ 2 - 4 * beta * p * q)) ≤ p ∧
    1 / (2 * beta) * (p + q - √((p + q) ^ 2 - 4 * beta * p * q)) ≤ q ∧
    beta * (1 / (2 * beta) * (p + q - √((p + q) ^ 2 - 4 * beta * p * q))) ^ 2 -
      (p + q) * (1 / (2 * beta) * (p + q - √((p + q) ^ 2 - 4 * beta * p * q))) + p * q = 0 ∧
    (beta = 1 → 1 / (2 * beta) * (p + q - √((p + q) ^ 2 - 4 * beta * p * q)) = min p q) := by
  have hpq : 0 < p * q := mul_pos hp hq
  have hnn : 0 ≤ (p + q) ^ 2 - 4 * beta * p * q := by nlinarith [sq_nonneg (p - q)]
  have hs := Real.sq_sqrt hnn
  have hs0 := Real.sqrt_nonneg ((p + q) ^ 2 - 4 * beta * p * q)
  set s := √((p + q) ^ 2 - 4 * beta * p * q) with hs'
  have hlt : s < p + q := by
    have : s ^ 2 < (p + q) ^ 2 := by rw [hs]; nlinarith [mul_pos hb hpq]
    exact lt_of_pow_lt_pow_left₀ 2 (by linarith) this
  have hle : ∀ x y : ℝ, 0 < x → 0 < y → s ^ 2 = (x + y) ^ 2 - 4 * beta * x * y → x + y - 2 * beta * x ≤ s := by
    intro x y hx hy he
    rcases le_total (x + y - 2 * beta * x) 0 with h | h
    · linarith
    · apply le_of_sq_le_sq _ hs0
      rw [he]
      nlinarith [mul_nonneg (mul_pos hb (mul_pos hx hx)).le (sub_nonneg.2 hb1)]
  have h1 := hle p q hp hq (by rw [hs])
  have h2 := hle q p hq hp (by rw [hs]; ring)
  refine ⟨hnn, ?_, ?_, ?_, ?_, ?_⟩
  · have : 0 < p + q - s := by linarith
    positivity
  · rw [one_div_mul_eq_div, div_le_iff₀ (by positivity)]; linarith
  · rw [one_div_mul_eq_div, div_le_iff₀ (by positivity)]; linarith
  · have : beta * (1 / (2 * beta) * (p + q - s)) ^ 2 - (p + q) * (1 / (2 * beta) * (p + q - s)) + p * q =
        (s ^ 2 - ((p + q) ^ 2 - 4 * beta * p * q)) / (4 * beta) := by
      field_simp
      ring
    rw [this, hs]; simp
  · intro hb
    have : s = |p - q| := by
      rw [hs', hb, show (p + q) ^ 2 - 4 * 1 * p * q = (p - q) ^ 2 by ring, Real.sqrt_sq_eq_abs]
    rw [this, hb]
    rcases le_total p q with h | h
    · rw [min_eq_left h, abs_of_nonpos (by linarith)]; ring
    · rw [min_eq_right h, abs_of_nonneg (by linarith)]; ring

end BeamDesign
