import Verif.Spec.S6
import Verif.Lemmas.S6

/-!
# Section 6 properties: C50 to C54
-/

set_option linter.unusedSimpArgs false

namespace BeamDesign

open S6

theorem slenderness_eq (ln ab : ℝ) : slenderness ln ab = lamOf ln ab := by
  unfold slenderness lamOf
  norm_num [sq]

/-! ## C50 -/

/-- C50.  Whatever the slenderness and the section constant: when the modified slenderness `λ` is not
zero the buckling factor is a number in (0, 1], not above `(90/λ)²`, and the smaller root of the
Perry-Robertson equation; when it is zero `ZeroDivisionError` is raised. -/
theorem C50_alpha_c (ln ab : ℝ) :
    (slenderness ln ab ≠ 0 → ∃ r, alphaC ln ab = .ok r ∧ r.lambda = slenderness ln ab ∧
      0 < r.alphaC ∧ r.alphaC ≤ 1 ∧ r.alphaC ≤ (90 / r.lambda) ^ 2 ∧
      (r.lambda / 90) ^ 2 * r.alphaC ^ 2 -
        ((r.lambda / 90) ^ 2 + 1 + max (326 / 100000 * (r.lambda - 135 / 10)) 0) * r.alphaC + 1 = 0) ∧
    (alphaC ln ab = .error .zeroDivision ↔ slenderness ln ab = 0) := by
  rw [slenderness_eq]
  constructor
  · intro h
    obtain ⟨r, e, hl, he, hal⟩ := alphaC_ok h
    have hu : 0 < (lamOf ln ab / 90) ^ 2 := by positivity
    have heta : 0 ≤ etaOf (lamOf ln ab) := le_max_right _ _
    refine ⟨r, e, hl, hal.pos, hal.le_one hu heta, ?_, ?_⟩
    · have := hal.le_inv hu heta
      rw [hl, show (90 / lamOf ln ab) ^ 2 = 1 / (lamOf ln ab / 90) ^ 2 by field_simp, le_div_iff₀ hu]
      exact this
    · have := hal.root
      rw [hl]
      have e : (135 : ℝ) / 10 = 27 / 2 := by norm_num
      rw [e]
      exact this
  · constructor
    · intro h
      by_contra hc
      obtain ⟨r, e, _⟩ := alphaC_ok hc
      rw [e] at h; cases h
    · exact alphaC_zero

/-- The standard's stocky limit: at `λ_n = 13.5` the factor is 1, and beyond it is below 1. -/
example : (∃ r, alphaC (27 / 2) 0 = .ok r ∧ r.alphaC ≤ 1) ∧ slenderness 100 0 = 100 := by
  have h : slenderness (27 / 2) 0 ≠ 0 := by unfold slenderness; norm_num
  obtain ⟨r, e, _, _, h1, _⟩ := (C50_alpha_c (27 / 2) 0).1 h
  exact ⟨⟨r, e, h1⟩, by unfold slenderness; norm_num⟩

/-- C50.  `λ = 0` is reached by a real column: for `α_b = 1` some slenderness between 6 and 7 raises
`ZeroDivisionError`. -/
theorem C50_zero_reached : ∃ ln, 6 < ln ∧ ln < 7 ∧ alphaC ln 1 = .error .zeroDivision := by
  have hc : Continuous (fun x : ℝ => lamOf x 1) := by
    unfold lamOf
    apply Continuous.add continuous_id
    apply Continuous.mul _ continuous_const
    apply Continuous.div (by fun_prop) (by fun_prop)
    intro x; exact (den_pos x).ne'
  have h6 : lamOf 6 1 < 0 := by unfold lamOf; norm_num
  have h7 : 0 < lamOf 7 1 := by unfold lamOf; norm_num
  obtain ⟨x, hx, h0⟩ := intermediate_value_Ioo (by norm_num : (6 : ℝ) ≤ 7) hc.continuousOn ⟨h6, h7⟩
  exact ⟨x, hx.1, hx.2, alphaC_zero h0⟩

/-! ## C51 -/

/-- C51, partial: a longer column is not stronger, for every `α_b` from -796591/840000 (about -0.948323) to 1: all
values of the standard except -1, for which see `C51_counterexample`. -/
theorem C51_longer_partial {An kf r fy fref ab le le' : ℝ} {x x' : Flexural} (hA : 0 < An) (hk : 0 < kf)
    (hr : 0 < r) (hf : 0 < fy) (hfr : 0 < fref) (hab : -(796591 / 840000) ≤ ab) (hab1 : ab ≤ 1) (hl : 0 ≤ le)
    (hll : le ≤ le') (h : NcFlexural An kf le r fy fref ab = .ok x)
    (h' : NcFlexural An kf le' r fy fref ab = .ok x') : x'.Nc ≤ x.Nc := by
  obtain ⟨_, _, e, al⟩ := NcFlexural_inv hk.le hr.ne' (by positivity) hfr.ne' h
  obtain ⟨z', _, e', al'⟩ := NcFlexural_inv hk.le hr.ne' (by positivity) hfr.ne' h'
  rw [e, e']
  apply mul_le_mul_of_nonneg_left _ (by positivity)
  exact alpha_mono (by positivity) (by gcongr) hab hab1 z' al al'

/-- C51, partial: for every `α_b` from -1 to 1 a longer column is not stronger once the slenderness
`λ_n` is at least 13.5. -/
theorem C51_slender_partial {An kf r fy fref ab le le' : ℝ} {x x' : Flexural} (hA : 0 < An) (hk : 0 < kf)
    (hr : 0 < r) (hf : 0 < fy) (hfr : 0 < fref) (hab : -1 ≤ ab) (hab1 : ab ≤ 1)
    (hll : le ≤ le') (h : NcFlexural An kf le r fy fref ab = .ok x)
    (h' : NcFlexural An kf le' r fy fref ab = .ok x') (hs : 135 / 10 ≤ x.lambdaN) : x'.Nc ≤ x.Nc := by
  obtain ⟨_, el, e, al⟩ := NcFlexural_inv hk.le hr.ne' (by positivity) hfr.ne' h
  obtain ⟨z', _, e', al'⟩ := NcFlexural_inv hk.le hr.ne' (by positivity) hfr.ne' h'
  rw [e, e']
  apply mul_le_mul_of_nonneg_left _ (by positivity)
  exact alpha_mono_slender (by rw [← el]; linarith) (by gcongr) hab hab1 z' al al'

theorem NcFlexural_ok {An kf le r fy fref ab : ℝ} (hk : 0 ≤ kf) (hr : r ≠ 0)
    (hf : 0 ≤ fy / fref) (hfr : fref ≠ 0) (hz : lamOf (le / r * √kf * √(fy / fref)) ab ≠ 0) :
    ∃ x, NcFlexural An kf le r fy fref ab = .ok x := by
  obtain ⟨c, hc, _⟩ := alphaC_ok hz
  simp only [NcFlexural, lambdaN_ok hk hr hf hfr, Except.bind_ok', hc]
  exact ⟨_, rfl⟩

/-- C51 is false for `α_b = -1` (hot rolled hollow sections), and for every `α_b` below -796591/840000: a column of slenderness 13.5 is
stronger than one of slenderness 7.65. -/
theorem C51_counterexample {ab : ℝ} (hab : ab < -(796591 / 840000)) :
    ∃ x x', NcFlexural 1 1 (765 / 100) 1 1 1 ab = .ok x ∧ NcFlexural 1 1 (135 / 10) 1 1 1 ab = .ok x' ∧ x.Nc < x'.Nc := by
  have one : (765 / 100 : ℝ) / 1 * √1 * √(1 / 1) = 765 / 100 := by simp
  have two : (135 / 10 : ℝ) / 1 * √1 * √(1 / 1) = 27 / 2 := by norm_num
  have z1 : 27 / 2 < lamOf (765 / 100) ab := by unfold lamOf; norm_num; linarith
  have z2 : lamOf (27 / 2) ab = 27 / 2 := by unfold lamOf; norm_num
  obtain ⟨x, e⟩ := NcFlexural_ok (An := 1) (kf := 1) (le := 765 / 100) (r := 1) (fy := 1) (fref := 1) (ab := ab)
    zero_le_one one_ne_zero (by norm_num) one_ne_zero (by rw [one]; linarith)
  obtain ⟨x', e'⟩ := NcFlexural_ok (An := 1) (kf := 1) (le := 135 / 10) (r := 1) (fy := 1) (fref := 1) (ab := ab)
    zero_le_one one_ne_zero (by norm_num) one_ne_zero (by rw [two, z2]; norm_num)
  refine ⟨x, x', e, e', ?_⟩
  obtain ⟨_, _, n, al⟩ := NcFlexural_inv zero_le_one one_ne_zero (by norm_num) one_ne_zero e
  obtain ⟨_, _, n', al'⟩ := NcFlexural_inv zero_le_one one_ne_zero (by norm_num) one_ne_zero e'
  rw [one] at al
  rw [two, z2] at al'
  have h1 : x'.factors.alphaC = 1 := alpha_one le_rfl (by norm_num) al'
  have h2 : x.factors.alphaC < 1 := by
    apply al.lt_one
    · have : 0 < lamOf (765 / 100) ab := by linarith
      positivity
    · unfold etaOf
      apply lt_max_of_lt_left
      linarith
  rw [n, n', h1]
  linarith

example : (-1 : ℝ) < -(796591 / 840000) := by norm_num

/-- C51: the member constants up to 1 for which a longer column is never stronger are exactly those from -796591/840000 on. -/
theorem C51_threshold {ab : ℝ} (hab1 : ab ≤ 1) :
    (∀ An kf r fy fref le le' x x', 0 < An → 0 < kf → 0 < r → 0 < fy → 0 < fref → 0 ≤ le → le ≤ le' →
      NcFlexural An kf le r fy fref ab = .ok x → NcFlexural An kf le' r fy fref ab = .ok x' → x'.Nc ≤ x.Nc) ↔
    -(796591 / 840000) ≤ ab := by
  constructor
  · intro h
    by_contra hc
    obtain ⟨x, x', e, e', hlt⟩ := C51_counterexample (not_le.1 hc)
    exact absurd (h 1 1 1 1 1 _ _ x x' one_pos one_pos one_pos one_pos one_pos (by norm_num) (by norm_num) e e') (not_le.2 hlt)
  · intro h An kf r fy fref le le' x x' h1 h2 h3 h4 h5 h6 h7 e e'
    exact C51_longer_partial h1 h2 h3 h4 h5 h hab1 h6 h7 e e'

/-- the hypotheses of the partial theorems are met by a pair of columns -/
example : ∃ x x', NcFlexural 1 1 20 1 1 1 1 = .ok x ∧ NcFlexural 1 1 100 1 1 1 1 = .ok x' ∧ x'.Nc ≤ x.Nc := by
  have pos : ∀ l : ℝ, 27 / 2 ≤ l → lamOf (l / 1 * √1 * √(1 / 1)) 1 ≠ 0 := by
    intro l hl
    have : l / 1 * √1 * √(1 / 1) = l := by simp
    rw [this]
    have hd := den_pos l
    have : 0 ≤ 2100 * (l - 27 / 2) / (l * l - 153 / 10 * l + 2050) * 1 := by
      have : 0 ≤ l - 27 / 2 := by linarith
      positivity
    unfold lamOf
    linarith
  obtain ⟨x, e⟩ := NcFlexural_ok (An := 1) (kf := 1) (le := 20) (r := 1) (fy := 1) (fref := 1) (ab := 1)
    zero_le_one one_ne_zero (by norm_num) one_ne_zero (pos _ (by norm_num))
  obtain ⟨x', e'⟩ := NcFlexural_ok (An := 1) (kf := 1) (le := 100) (r := 1) (fy := 1) (fref := 1) (ab := 1)
    zero_le_one one_ne_zero (by norm_num) one_ne_zero (pos _ (by norm_num))
  exact ⟨x, x', e, e', C51_longer_partial one_pos one_pos one_pos one_pos one_pos (by norm_num) le_rfl
    (by norm_num) (by norm_num) e e'⟩

/-! ## C52 -/

/-- the value of `β` is in (0, 1], and 1 exactly when the shear centre is on the axis -/
theorem beta_range {rx : ℝ} (ry xo yo : ℝ) (h : 0 < rx) :
    0 < 1 - (xo / √(roSq rx ry xo yo)) ^ 2 ∧ 1 - (xo / √(roSq rx ry xo yo)) ^ 2 ≤ 1 := by
  have hp := roSq_pos ry xo yo h
  rw [div_pow, Real.sq_sqrt hp.le]
  constructor
  · rw [sub_pos, div_lt_one hp]
    unfold roSq
    have := mul_self_nonneg ry
    have := mul_self_nonneg yo
    have : 0 < rx * rx := by positivity
    nlinarith
  · have : 0 ≤ xo ^ 2 / roSq rx ry xo yo := by positivity
    linarith

/-- C52.  For positive section properties (any shear centre) the flexural-torsional buckling stress is
a positive number, not larger than the flexural and the torsional stress it is computed from, a root of
the AS4600 equation, and the smaller of the two stresses when `x_o = 0`. -/
theorem C52_foxz {An lex lez rx ry xo yo J Iw E G : ℝ} (hA : 0 < An) (hlx : 0 < lex) (hlz : 0 < lez) (hrx : 0 < rx)
    (hJ : 0 < J) (hIw : 0 ≤ Iw) (hE : 0 < E) (hG : 0 < G) :
    ∃ f, foxz An lex lez rx ry xo yo J Iw E G = .ok f ∧
      fEuler E lex rx = .ok f.fox ∧ fEulerTorsion An lez rx ry xo yo J Iw E G = .ok f.foz ∧
      0 < f.foxz ∧ f.foxz ≤ f.fox ∧ f.foxz ≤ f.foz ∧
      (1 - xo ^ 2 / (rx ^ 2 + ry ^ 2 + xo ^ 2 + yo ^ 2)) * f.foxz ^ 2 - (f.fox + f.foz) * f.foxz +
        f.fox * f.foz = 0 ∧
      (xo = 0 → f.foxz = min f.fox f.foz) := by
  have hp := roSq_pos ry xo yo hrx
  have hs : √(roSq rx ry xo yo) ≠ 0 := (Real.sqrt_pos.2 hp).ne'
  obtain ⟨hb0, hb1⟩ := beta_range ry xo yo hrx
  have hpi : (0 : ℝ) < piD := piD_pos
  have e1 := fEuler_ok (E := E) hrx.ne' hlx.ne'
  have e2 := fEulerTorsion_ok (ry := ry) (xo := xo) (yo := yo) (Iw := Iw) (E := E) hA hlz hrx hJ hG
  have p1 : 0 < piD * piD * E / (lex / rx * (lex / rx)) := by positivity
  have p2 := fEulerTorsion_pos (ry := ry) (xo := xo) (yo := yo) hA hlz hrx hJ hG hE hIw
  set fox := piD * piD * E / (lex / rx * (lex / rx))
  set foz := G * J / (An * roSq rx ry xo yo) * (1 + piD * piD * E * Iw / (G * J * (lez * lez)))
  have hbeta : 1 - (xo / √(roSq rx ry xo yo)) ^ 2 = 1 - xo ^ 2 / (rx ^ 2 + ry ^ 2 + xo ^ 2 + yo ^ 2) := by
    rw [div_pow, Real.sq_sqrt hp.le, roSq]
    simp only [sq]
  set beta := 1 - (xo / √(roSq rx ry xo yo)) ^ 2 with hbeta'
  obtain ⟨n0, n1, n2, n3, n4, n5⟩ := flexTorsion p1 p2 hb0 hb1
  refine ⟨⟨beta, fox, foz, rx, ry, xo, yo, √(roSq rx ry xo yo),
    1 / (2 * beta) * (fox + foz - √((fox + foz) ^ 2 - 4 * beta * fox * foz))⟩, ?_, e1, e2, n1, n2, n3, ?_, ?_⟩
  · have hb2 : 2 * beta ≠ 0 := by positivity
    simp only [foxz, rol_ok ry xo yo hrx, Except.bind_ok', rdiv_ok hs, e1, e2]
    rw [← hbeta', rdiv_ok hb2, Except.bind_ok', rsqrt_ok n0]
    rfl
  · rw [← hbeta]; exact n4
  · intro h0
    apply n5
    rw [hbeta', h0]; simp

/-- a channel-like section meets the hypotheses -/
example : ∃ f, foxz 1 2 2 1 1 1 0 1 1 1 1 = .ok f ∧ 0 < f.foxz := by
  obtain ⟨f, e, _, _, p, _⟩ := C52_foxz (An := 1) (lex := 2) (lez := 2) (rx := 1) (ry := 1) (xo := 1) (yo := 0)
    (J := 1) (Iw := 1) (E := 1) (G := 1) one_pos two_pos two_pos one_pos one_pos zero_le_one one_pos one_pos
  exact ⟨f, e, p⟩

/-! ## C53 -/

theorem columnCurve_ok {fy foc : ℝ} (hf : 0 < fy) (ho : 0 < foc) :
    columnCurve fy foc = .ok (√(fy / foc),
      if fy / foc ≤ 9 / 4 then fy * (658 / 1000 : ℝ) ^ (fy / foc) else 877 / 1000 * foc) := by
  have hq : 0 < fy / foc := by positivity
  have hs : √(fy / foc) * √(fy / foc) = fy / foc := Real.mul_self_sqrt hq.le
  have hiff : √(fy / foc) ≤ 3 / 2 ↔ fy / foc ≤ 9 / 4 := by
    rw [Real.sqrt_le_left (by norm_num)]; norm_num
  simp only [columnCurve, rdiv_ok ho.ne', Except.bind_ok', rsqrt_ok hq.le, hs, rpow, rdiv_ok hq.ne', hiff]
  split
  · rfl
  · simp only [pure, Except.pure]
    congr 2
    field_simp

/-- the AS4600 column curve falls across the switch between its two branches -/
theorem curve_switch : (877 / 1000 : ℝ) * (4 / 9) < (658 / 1000 : ℝ) ^ (9 / 4 : ℝ) := by
  have h : ((877 / 1000 : ℝ) * (4 / 9)) ^ 4 < ((658 / 1000 : ℝ) ^ (9 / 4 : ℝ)) ^ 4 := by
    rw [← Real.rpow_natCast ((658 / 1000 : ℝ) ^ (9 / 4 : ℝ)), ← Real.rpow_mul (by norm_num)]
    have : (9 / 4 : ℝ) * ((4 : ℕ) : ℝ) = ((9 : ℕ) : ℝ) := by norm_num
    rw [this, Real.rpow_natCast]
    norm_num
  exact lt_of_pow_lt_pow_left₀ 4 (by positivity) h

/-- C53.  The AS4600 column curve stress is positive, below the yield stress and, beyond slenderness
1.5, exactly `0.877 f_oc`; it does not increase as the buckling stress falls, also across the switch. -/
theorem C53_curve {fy foc : ℝ} (hf : 0 < fy) (ho : 0 < foc) :
    ∃ lc fn, columnCurve fy foc = .ok (lc, fn) ∧ 0 ≤ lc ∧ lc ^ 2 = fy / foc ∧ 0 < fn ∧ fn < fy ∧
      (3 / 2 < lc → fn = 877 / 1000 * foc) ∧ (lc ≤ 3 / 2 → fn = fy * (658 / 1000 : ℝ) ^ (lc ^ 2)) ∧
      ∀ foc', 0 < foc' → foc' ≤ foc → ∃ lc' fn', columnCurve fy foc' = .ok (lc', fn') ∧ fn' ≤ fn := by
  have hq : 0 < fy / foc := by positivity
  have hsq := Real.sq_sqrt hq.le
  have hiff : √(fy / foc) ≤ 3 / 2 ↔ fy / foc ≤ 9 / 4 := by
    rw [Real.sqrt_le_left (by norm_num)]; norm_num
  refine ⟨_, _, columnCurve_ok hf ho, Real.sqrt_nonneg _, hsq, ?_, ?_, ?_, ?_, ?_⟩
  · split <;> positivity
  · split
    · have : (658 / 1000 : ℝ) ^ (fy / foc) < 1 := Real.rpow_lt_one (by norm_num) (by norm_num) hq
      nlinarith
    · rename_i h
      have : 9 / 4 * foc < fy := by rwa [not_le, lt_div_iff₀ ho] at h
      nlinarith
  · intro h
    rw [if_neg]
    rw [← hiff]; exact not_le.2 h
  · intro h
    rw [if_pos (hiff.1 h), hsq]
  · intro foc' ho' hle
    refine ⟨_, _, columnCurve_ok hf ho', ?_⟩
    have hqq : fy / foc ≤ fy / foc' := div_le_div_of_nonneg_left hf.le ho' hle
    split
    · rename_i h'
      rw [if_pos (hqq.trans h')]
      apply mul_le_mul_of_nonneg_left _ hf.le
      exact Real.rpow_le_rpow_of_exponent_ge (by norm_num) (by norm_num) hqq
    · rename_i h'
      split
      · rename_i h
        have h1 : 9 / 4 * foc' < fy := by rwa [not_le, lt_div_iff₀ ho'] at h'
        have h2 : (658 / 1000 : ℝ) ^ (9 / 4 : ℝ) ≤ (658 / 1000 : ℝ) ^ (fy / foc) :=
          Real.rpow_le_rpow_of_exponent_ge (by norm_num) (by norm_num) h
        have h3 := curve_switch
        nlinarith
      · nlinarith

/-- C53.  The torsional capacity is the uncertainty factor times the effective area times that stress. -/
theorem C53_capacity {roots : Roots} {m : Member} {kf fy unc foc' : ℝ} {sym : Symmetry} (hf : 0 < fy)
    (hfoc : foc roots m sym = .ok foc') (hpos : 0 < foc') :
    ∃ t, NcTorsion roots m kf fy sym unc = .ok t ∧ t.foc = foc' ∧
      columnCurve fy foc' = .ok (t.lambdaC, t.fn) ∧ t.Ncz = unc * (m.An * kf) * t.fn := by
  have e := columnCurve_ok hf hpos
  refine ⟨⟨unc * Ae m.An kf * _, foc', _, _⟩, ?_, rfl, e, rfl⟩
  simp only [NcTorsion, hfoc, Except.bind_ok', e]
  rfl

/-- both branches of the curve are met -/
example : (∃ lc fn, columnCurve 250 1000 = .ok (lc, fn) ∧ lc ≤ 3 / 2) ∧
    (∃ lc fn, columnCurve 250 100 = .ok (lc, fn) ∧ 3 / 2 < lc ∧ fn = 877 / 10) := by
  constructor
  · refine ⟨_, _, columnCurve_ok (by norm_num) (by norm_num), ?_⟩
    rw [Real.sqrt_le_left (by norm_num)]; norm_num
  · refine ⟨_, _, columnCurve_ok (by norm_num) (by norm_num), ?_, ?_⟩
    · rw [Real.lt_sqrt (by norm_num)]; norm_num
    · rw [if_neg (by norm_num)]; norm_num

/-! ## C54 -/

/-- the capacities of the checks that were carried out -/
def S6.NcResult.computed (r : NcResult) : List ℝ := r.Ns :: [r.Ncx, r.Ncy, r.Ncz].filterMap id

/-- C54.  The capacity is the smallest of the section capacity and the computed member capacities; the
design capacity is `φ` times it (`φ ≥ 0`); the flexural capacities are those of the two axes and the torsional one
that of `s6_3_3_N_c_torsion`, each not above the section capacity. -/
theorem C54_minimum {roots : Roots} {a : NcArgs} {r : NcResult} (h : Nc roots a = .ok r) :
    r.Ns = a.An * a.kf * a.fy ∧ r.phiNs = a.phi * r.Ns ∧
    r.Nc ∈ r.computed ∧ (∀ n ∈ r.computed, r.Nc ≤ n) ∧ r.Nc ≤ r.Ns ∧
    (0 ≤ a.phi → r.phiNc = a.phi * r.Nc) ∧
    (a.calcBuckling = true → ∃ bx bY, NcFlexural a.An a.kf (a.l * a.kex) a.rx a.fy a.fref a.alphaB = .ok bx ∧
      NcFlexural a.An a.kf (a.l * a.key) a.ry a.fy a.fref a.alphaB = .ok bY ∧
      r.Ncx = some (min bx.Nc r.Ns) ∧ r.Ncy = some (min bY.Nc r.Ns) ∧
      r.phiNcx = some (a.phi * min bx.Nc r.Ns) ∧ r.phiNcy = some (a.phi * min bY.Nc r.Ns)) ∧
    (a.calcBuckling = true → a.calcTorsion = true → ∃ t,
      NcTorsion roots ⟨a.An, a.l * a.kex, a.l * a.key, a.l * a.kez, a.rx, a.ry, a.xo, a.yo, a.J, a.Iw, a.E, a.G⟩
        a.kf a.fy a.sym a.uncertainty = .ok t ∧
      r.NczBuckling = some t.Ncz ∧ r.Ncz = some (min r.Ns t.Ncz) ∧ r.phiNcz = some (a.phi * min r.Ns t.Ncz)) ∧
    (a.calcBuckling = false → r.Ncx = none ∧ r.Ncy = none) ∧
    (a.calcBuckling = false ∨ a.calcTorsion = false → r.Ncz = none) := by
  simp only [Nc] at h
  cases hb : a.calcBuckling
  · simp only [hb, Bool.false_eq_true, if_false] at h
    injection h with h
    subst h
    simp [NcResult.computed, Ns, Ae]
  · simp only [hb, if_true] at h
    cases hx : NcFlexural a.An a.kf (le a.l a.kex) a.rx a.fy a.fref a.alphaB with
    | error e => rw [hx] at h; cases h
    | ok bx =>
      cases hy : NcFlexural a.An a.kf (le a.l a.key) a.ry a.fy a.fref a.alphaB with
      | error e => rw [hx, hy] at h; cases h
      | ok bY =>
        rw [hx, hy] at h
        simp only [Except.bind_ok'] at h
        cases ht : a.calcTorsion
        · simp only [ht, Bool.false_eq_true, if_false] at h
          injection h with h
          subst h
          refine ⟨rfl, rfl, ?_, ?_, ?_, ?_, ?_, by simp, by simp, by simp⟩
          · simp only [NcResult.computed, List.filterMap_cons, id, List.filterMap_nil, List.mem_cons,
              List.not_mem_nil, or_false]
            rcases min_choice (min (Ns (Ae a.An a.kf) a.fy) (min bx.Nc (Ns (Ae a.An a.kf) a.fy)))
              (min bY.Nc (Ns (Ae a.An a.kf) a.fy)) with e | e
            · rw [e]
              rcases min_choice (Ns (Ae a.An a.kf) a.fy) (min bx.Nc (Ns (Ae a.An a.kf) a.fy)) with e | e
              · rw [e]; exact Or.inl rfl
              · rw [e]; exact Or.inr (Or.inl rfl)
            · rw [e]; exact Or.inr (Or.inr rfl)
          · intro n hn
            simp only [NcResult.computed, List.filterMap_cons, id, List.filterMap_nil, List.mem_cons,
              List.not_mem_nil, or_false] at hn
            rcases hn with rfl | rfl | rfl
            · exact (min_le_left _ _).trans (min_le_left _ _)
            · exact (min_le_left _ _).trans (min_le_right _ _)
            · exact min_le_right _ _
          · exact (min_le_left _ _).trans (min_le_left _ _)
          · intro hphi
            show min (min _ _) _ = a.phi * min (min _ _) _
            simp only [mul_min_of_nonneg _ _ hphi]
          · intro _
            exact ⟨bx, bY, hx, hy, rfl, rfl, rfl, rfl⟩
        · simp only [ht, if_true] at h
          cases hz : NcTorsion roots a.member a.kf a.fy a.sym a.uncertainty with
          | error e => rw [hz] at h; cases h
          | ok t =>
            rw [hz] at h
            injection h with h
            subst h
            refine ⟨rfl, rfl, ?_, ?_, ?_, fun _ => rfl, ?_, ?_, by simp, by simp⟩
            · simp only [NcResult.computed, List.filterMap_cons, id, List.filterMap_nil, List.mem_cons,
                List.not_mem_nil, or_false]
              rcases min_choice (min (min (Ns (Ae a.An a.kf) a.fy) (min bx.Nc (Ns (Ae a.An a.kf) a.fy)))
                (min bY.Nc (Ns (Ae a.An a.kf) a.fy))) (min (Ns (Ae a.An a.kf) a.fy) t.Ncz) with e | e
              · rw [e]
                rcases min_choice (min (Ns (Ae a.An a.kf) a.fy) (min bx.Nc (Ns (Ae a.An a.kf) a.fy)))
                  (min bY.Nc (Ns (Ae a.An a.kf) a.fy)) with e | e
                · rw [e]
                  rcases min_choice (Ns (Ae a.An a.kf) a.fy) (min bx.Nc (Ns (Ae a.An a.kf) a.fy)) with e | e
                  · rw [e]; exact Or.inl rfl
                  · rw [e]; exact Or.inr (Or.inl rfl)
                · rw [e]; exact Or.inr (Or.inr (Or.inl rfl))
              · rw [e]; exact Or.inr (Or.inr (Or.inr rfl))
            · intro n hn
              simp only [NcResult.computed, List.filterMap_cons, id, List.filterMap_nil, List.mem_cons,
                List.not_mem_nil, or_false] at hn
              rcases hn with rfl | rfl | rfl | rfl
              · exact ((min_le_left _ _).trans (min_le_left _ _)).trans (min_le_left _ _)
              · exact ((min_le_left _ _).trans (min_le_left _ _)).trans (min_le_right _ _)
              · exact (min_le_left _ _).trans (min_le_right _ _)
              · exact min_le_right _ _
            · exact ((min_le_left _ _).trans (min_le_left _ _)).trans (min_le_left _ _)
            · intro _
              exact ⟨bx, bY, hx, hy, rfl, rfl, rfl, rfl⟩
            · intro _ _
              exact ⟨t, hz, rfl, rfl, rfl⟩

/-- C54.  Switching checks off never makes the call fail and never lowers the capacity. -/
theorem C54_switching_off {roots : Roots} {a : NcArgs} {r : NcResult} (h : Nc roots a = .ok r) (b t : Bool)
    (hb : b = true → a.calcBuckling = true) (ht : t = true → a.calcTorsion = true) :
    ∃ r', Nc roots { a with calcBuckling := b, calcTorsion := t } = .ok r' ∧ r.Nc ≤ r'.Nc := by
  have hmin := (C54_minimum h).2.2.2.1
  have hns := C54_minimum h
  obtain ⟨e1, _, _, _, hle, _, hfl, htor, _, _⟩ := hns
  cases b
  · refine ⟨_, rfl, ?_⟩
    show r.Nc ≤ a.An * a.kf * a.fy
    rw [← e1]; exact hle
  · have hb' := hb rfl
    obtain ⟨bx, bY, hx, hy, cx, cy, _, _⟩ := hfl hb'
    have l1 : r.Nc ≤ min bx.Nc r.Ns := hmin _ (by simp [NcResult.computed, cx])
    have l2 : r.Nc ≤ min bY.Nc r.Ns := hmin _ (by
      simp only [NcResult.computed, List.filterMap_cons, id, cx, cy, List.mem_cons]
      simp)
    rw [e1] at l1 l2 hle
    cases t
    · refine ⟨_, by simp only [Nc, le, hx, hy, Except.bind_ok', if_true, Bool.false_eq_true, if_false]; rfl, ?_⟩
      exact le_min (le_min hle l1) l2
    · have ht' := ht rfl
      refine ⟨r, ?_, le_rfl⟩
      have : ({ a with calcBuckling := true, calcTorsion := true } : NcArgs) = a := by
        cases a; simp_all
      rw [this]; exact h

/-- the hypotheses are met: the section capacity alone -/
example (roots : Roots) (sym : Symmetry) :
    ∃ r, Nc roots ⟨2, 1, 3, 1, 1, 1, 1, 1, 0, 0, 1, 1, 250, 1, 1, sym, 250, 0, 1, 9 / 10, false, true⟩ = .ok r ∧
      r.Nc = 500 := by
  refine ⟨_, rfl, ?_⟩
  show (2 : ℝ) * 1 * 250 = 500
  norm_num

/-- and a member with flexural buckling -/
example (roots : Roots) (sym : Symmetry) :
    ∃ r, Nc roots ⟨1, 1, 100, 1, 1, 1, 1, 1, 0, 0, 1, 1, 1, 1, 1, sym, 1, 0, 1, 9 / 10, true, false⟩ = .ok r ∧
      r.Nc < r.Ns := by
  have e1 : (le 100 1) / 1 * √1 * √(1 / 1) = 100 := by simp [le]
  have e2 : lamOf 100 0 = 100 := by unfold lamOf; norm_num
  obtain ⟨x, e⟩ := NcFlexural_ok (An := 1) (kf := 1) (le := le 100 1) (r := 1) (fy := 1) (fref := 1) (ab := 0)
    zero_le_one one_ne_zero (by norm_num) one_ne_zero (by rw [e1, e2]; norm_num)
  obtain ⟨_, _, n, al⟩ := NcFlexural_inv zero_le_one one_ne_zero (by norm_num) one_ne_zero e
  rw [e1, e2] at al
  have hlt : x.factors.alphaC < 1 := al.lt_one (by positivity) (lt_max_of_lt_left (by norm_num))
  refine ⟨_, by simp only [Nc, e, Except.bind_ok', if_true, Bool.false_eq_true, if_false]; rfl, ?_⟩
  have hns : Ns (Ae 1 1) 1 = 1 := by simp [Ns, Ae]
  show min (min (Ns (Ae 1 1) 1) (min x.Nc (Ns (Ae 1 1) 1))) (min x.Nc (Ns (Ae 1 1) 1)) < Ns (Ae 1 1) 1
  rw [hns]
  apply lt_of_le_of_lt (min_le_right _ _)
  apply lt_of_le_of_lt (min_le_left _ _)
  rw [n]; linarith

end BeamDesign
