import Verif.Model.ComplexUnsym
import Verif.Props.Unsymmetric
import Verif.Props.Complex
import Mathlib.Analysis.SpecialFunctions.Pow.Real
import Mathlib.Analysis.Real.Pi.Bounds

/-!
# C136: unsymmetric sections
-/

namespace BeamDesign

open Spec S6

/-! ## Roots of real cubics -/

theorem vieta {p q r s z1 z2 z3 : ℂ}
    (h : ∀ x : ℂ, p * x ^ 3 + q * x ^ 2 + r * x + s = p * (x - z1) * (x - z2) * (x - z3)) :
    q = -(p * (z1 + z2 + z3)) ∧ r = p * (z1 * z2 + z1 * z3 + z2 * z3) ∧ s = -(p * (z1 * z2 * z3)) := by
  have h0 := h 0
  have h1 := h 1
  have h2 := h (-1)
  refine ⟨?_, ?_, ?_⟩
  · linear_combination (1 / 2) * h1 + (1 / 2) * h2 - h0
  · linear_combination (1 / 2) * h1 - (1 / 2) * h2
  · linear_combination h0

/-- a real cubic has a real root -/
theorem real_root {p q r s : ℝ} (hp : p ≠ 0) {z1 z2 z3 : ℂ}
    (h : ∀ x : ℂ, (p : ℂ) * x ^ 3 + q * x ^ 2 + r * x + s = p * (x - z1) * (x - z2) * (x - z3)) :
    ∃ (t : ℝ) (u v : ℂ), (∀ z, z ∈ [z1, z2, z3] ↔ z = t ∨ z = u ∨ z = v) ∧
      ∀ x : ℂ, (p : ℂ) * x ^ 3 + q * x ^ 2 + r * x + s = p * (x - t) * (x - u) * (x - v) := by
  have hpc : (p : ℂ) ≠ 0 := by exact_mod_cast hp
  have hreal : ∀ z : ℂ, z.im = 0 → z = (z.re : ℂ) := fun z hz => Complex.ext rfl (by simp [hz])
  by_cases hz : z1.im = 0
  · refine ⟨z1.re, z2, z3, fun z => by rw [← hreal z1 hz]; simp, fun x => by rw [← hreal z1 hz]; exact h x⟩
  have hsum : ((z1 + z2 + z3).im) = 0 := by
    have h1 : z1 + z2 + z3 = ((-(q / p) : ℝ) : ℂ) := by
      have := (vieta h).1
      push_cast
      field_simp
      linear_combination this
    rw [h1]; exact Complex.ofReal_im _
  have hconj : (p : ℂ) * (starRingEnd ℂ z1 - z1) * (starRingEnd ℂ z1 - z2) * (starRingEnd ℂ z1 - z3) = 0 := by
    rw [← h]
    have h1 : (p : ℂ) * z1 ^ 3 + q * z1 ^ 2 + r * z1 + s = 0 := by rw [h]; simp
    have h2 := congrArg (starRingEnd ℂ) h1
    simpa using h2
  have hne : starRingEnd ℂ z1 - z1 ≠ 0 := by
    intro h0
    have := congrArg Complex.im h0
    simp at this
    exact hz (by linarith)
  simp only [mul_eq_zero, hpc, hne, false_or] at hconj
  have him : ∀ w : ℂ, starRingEnd ℂ z1 - w = 0 → w.im = -z1.im := by
    intro w hw
    rw [← sub_eq_zero.1 hw]; simp
  rcases hconj with hw | hw
  · have h3 : z3.im = 0 := by
      have := him z2 hw
      simp only [Complex.add_im] at hsum
      linarith
    refine ⟨z3.re, z1, z2, fun z => by rw [← hreal z3 h3]; simp; tauto, fun x => ?_⟩
    rw [← hreal z3 h3, h x]; ring
  · have h3 : z2.im = 0 := by
      have := him z3 hw
      simp only [Complex.add_im] at hsum
      linarith
    refine ⟨z2.re, z1, z3, fun z => by rw [← hreal z2 h3]; simp; tauto, fun x => ?_⟩
    rw [← hreal z2 h3, h x]; ring

/-- A cubic with leading coefficient `a < 0`, `c > 0` and `d > 0` that is negative for all `f ≥ 0` has one negative root and two conjugate
ones with a positive real part. -/
theorem far_roots {a b c d : ℝ} (ha : a < 0) (hc : 0 < c) (hd : 0 < d) (hneg : ∀ f, 0 ≤ f → a * f ^ 3 - b * f ^ 2 + c * f - d < 0)
    {z1 z2 z3 : ℂ} (h : ∀ x : ℂ, (a : ℂ) * x ^ 3 + (-b : ℝ) * x ^ 2 + c * x + (-d : ℝ) = a * (x - z1) * (x - z2) * (x - z3)) :
    ∃ z, minStress [z1, z2, z3] = some z ∧ 0 < z.re ∧ z.im ≠ 0 := by
  obtain ⟨t, u, v, hmem, hf⟩ := real_root ha.ne h
  have hac : (a : ℂ) ≠ 0 := by exact_mod_cast ha.ne
  have noreal : ∀ x : ℝ, (a : ℂ) * (x - t) * (x - u) * (x - v) = 0 → x < 0 := by
    intro x hx
    by_contra h0
    push Not at h0
    have h1 := hneg x h0
    rw [← hf] at hx
    have : a * x ^ 3 - b * x ^ 2 + c * x - d = 0 := by
      have h2 : ((a * x ^ 3 - b * x ^ 2 + c * x - d : ℝ) : ℂ) = 0 := by
        rw [← hx]; push_cast; ring
      exact_mod_cast h2
    linarith
  have ht : t < 0 := noreal t (by simp)
  obtain ⟨v1, v2, v3⟩ := vieta hf
  -- sum and product of the other two
  have hS : (u + v).im = 0 := by
    have : u + v = ((b / a - t : ℝ) : ℂ) := by
      push_cast at v1 ⊢
      field_simp
      linear_combination v1
    rw [this]; exact Complex.ofReal_im _
  have hP : u * v = (((c / a) - t * (u + v).re : ℝ) : ℂ) := by
    have : u + v = ((u + v).re : ℂ) := Complex.ext rfl (by simp [hS])
    push_cast at v2 ⊢
    rw [← this]
    field_simp
    linear_combination -v2
  have hP' : u * v = ((d / (a * t) : ℝ) : ℂ) := by
    have htc : (t : ℂ) ≠ 0 := by exact_mod_cast ht.ne
    push_cast at v3 ⊢
    field_simp
    linear_combination v3
  have hPpos : 0 < d / (a * t) := div_pos hd (mul_pos_of_neg_of_neg ha ht)
  have hre : 0 < (u + v).re := by
    have h1 : (c / a) - t * (u + v).re = d / (a * t) := by
      have := hP.symm.trans hP'
      exact_mod_cast this
    have h2 : c / a < 0 := div_neg_of_pos_of_neg hc ha
    by_contra h0
    push Not at h0
    have : 0 ≤ t * (u + v).re := mul_nonneg_of_nonpos_of_nonpos ht.le h0
    linarith
  have hiu : u.im + v.im = 0 := by rw [← Complex.add_im]; exact hS
  have hm : u.re * v.im + u.im * v.re = 0 := by
    have := congrArg Complex.im hP'
    rwa [Complex.mul_im, Complex.ofReal_im] at this
  have hn : u.re * v.re - u.im * v.im = d / (a * t) := by
    have := congrArg Complex.re hP'
    rwa [Complex.mul_re, Complex.ofReal_re] at this
  rw [Complex.add_re] at hre
  have hune : u.im ≠ 0 := by
    intro h0
    have hv0 : v.im = 0 := by linarith
    have eu : u = (u.re : ℂ) := Complex.ext rfl (by simp [h0])
    have ev : v = (v.re : ℂ) := Complex.ext rfl (by simp [hv0])
    have n1 : u.re < 0 := noreal u.re (by rw [← eu]; simp)
    have n2 : v.re < 0 := noreal v.re (by rw [← ev]; simp)
    linarith
  have heq : u.re = v.re := by
    have : u.im * (v.re - u.re) = 0 := by linear_combination hm - u.re * hiu
    rcases mul_eq_zero.1 this with h0 | h0
    · exact absurd h0 hune
    · linarith
  have hu0 : 0 < u.re := by linarith
  have hv0 : 0 < v.re := by linarith
  have hvne : v.im ≠ 0 := fun h0 => hune (by linarith)
  have pos : ∀ w : ℂ, 0 < w.re → ¬ clt w 0 := by
    intro w hw hc
    rcases hc with hc | ⟨hc, -⟩ <;> simp only [Complex.zero_re] at hc <;> linarith
  have hum : u ∈ [z1, z2, z3] := (hmem u).2 (Or.inr (Or.inl rfl))
  cases hms : minStress [z1, z2, z3] with
  | none => exact absurd (((minStress_spec _).1.1 hms) u hum) (pos u hu0)
  | some z =>
    obtain ⟨h1, h2, -⟩ := ((minStress_spec _).2 z).1 hms
    rcases (hmem z).1 h1 with rfl | rfl | rfl
    · exact absurd (Or.inl (by simpa using ht)) h2
    · exact ⟨_, rfl, hu0, hune⟩
    · exact ⟨_, rfl, hv0, hvne⟩

/-! ## The column curve with a complex stress -/

/-- the capacity from a complex stress is complex -/
theorem curve_complex {fy : ℝ} (hfy : 0 < fy) {f : ℂ} (hre : 0 < f.re) (him : f.im ≠ 0) :
    let lc := (fy / f) ^ (1 / 2 : ℂ)
    ((fy : ℂ) * (658 / 1000 : ℂ) ^ (lc * lc)).im ≠ 0 ∨ ¬ Cx.cle lc (3 / 2) := by
  intro lc
  by_cases hl : Cx.cle lc (3 / 2)
  swap
  · exact Or.inr hl
  left
  have hf0 : f ≠ 0 := fun h => him (by rw [h]; rfl)
  have hsq : lc * lc = fy / f := by
    have := Complex.cpow_nat_inv_pow (fy / f) (n := 2) (by norm_num)
    rw [pow_two] at this
    simp only [lc, one_div]
    exact_mod_cast this
  have hN : 0 < Complex.normSq f := Complex.normSq_pos.2 hf0
  have hwre : 0 < ((fy : ℂ) / f).re := by
    rw [Complex.div_re]
    simp only [Complex.ofReal_re, Complex.ofReal_im, zero_mul, zero_div, add_zero]
    positivity
  have hwim : ((fy : ℂ) / f).im ≠ 0 := by
    rw [Complex.div_im]
    simp only [Complex.ofReal_re, Complex.ofReal_im, zero_mul, zero_div, zero_sub]
    exact neg_ne_zero.2 (div_ne_zero (mul_ne_zero hfy.ne' him) hN.ne')
  have hlre : 0 ≤ lc.re := by
    simp only [lc, one_div]
    rw [Complex.cpow_inv_two_re]
    exact Real.sqrt_nonneg _
  have hle : lc.re ≤ 3 / 2 := by
    rcases hl with (h | ⟨h, -⟩) | h
    · have : lc.re < (3 / 2 : ℂ).re := h
      norm_num at this
      linarith
    · have : lc.re = (3 / 2 : ℂ).re := h
      norm_num at this
      linarith
    · rw [h]; norm_num
  have h1 := congrArg Complex.re hsq
  have h2 := congrArg Complex.im hsq
  rw [Complex.mul_re] at h1
  rw [Complex.mul_im] at h2
  rw [hsq]
  set w := (fy : ℂ) / f
  have hwb : |w.im| ≤ 9 / 2 := by
    have h3 : |lc.im| ≤ lc.re := abs_le_of_sq_le_sq (by nlinarith) hlre
    rw [← h2, show lc.re * lc.im + lc.im * lc.re = 2 * (lc.re * lc.im) by ring, abs_mul, abs_mul, abs_of_nonneg hlre, abs_two]
    nlinarith [abs_nonneg lc.im]
  have hbase : (658 / 1000 : ℂ) = ((658 / 1000 : ℝ) : ℂ) := by push_cast; rfl
  have hb0 : (658 / 1000 : ℂ) ≠ 0 := by norm_num
  have hlog : Complex.log (658 / 1000 : ℂ) = (Real.log (658 / 1000) : ℂ) := by
    rw [hbase, Complex.ofReal_log (by norm_num)]
  obtain ⟨g, hg⟩ : ∃ g, g = Real.log (658 / 1000) := ⟨_, rfl⟩
  have hg1 : g < 0 := by rw [hg]; exact Real.log_neg (by norm_num) (by norm_num)
  have hg2 : -(6 / 10) < g := by
    have := Real.one_sub_inv_le_log_of_pos (show (0 : ℝ) < 658 / 1000 by norm_num)
    rw [hg]
    have h3 : (-(6 / 10) : ℝ) < 1 - (658 / 1000)⁻¹ := by norm_num
    linarith
  rw [Complex.cpow_def_of_ne_zero hb0, hlog, ← hg, Complex.im_ofReal_mul, Complex.exp_im, Complex.im_ofReal_mul]
  refine mul_ne_zero hfy.ne' (mul_ne_zero (Real.exp_pos _).ne' ?_)
  have hlt : |g * w.im| < Real.pi := by
    have h3 := Real.pi_gt_three
    have h4 : |g| ≤ 6 / 10 := abs_le.2 ⟨by linarith, by linarith⟩
    rw [abs_mul]
    have : |g| * |w.im| ≤ 6 / 10 * (9 / 2) := mul_le_mul h4 hwb (abs_nonneg _) (by norm_num)
    linarith
  rw [abs_lt] at hlt
  rw [Ne, Real.sin_eq_zero_iff_of_lt_of_lt hlt.1 hlt.2]
  exact mul_ne_zero hg1.ne hwim

/-! ## The capacity -/

theorem focUnsym_cases (roots : Roots) (m : Member) :
    (∀ v, S6.focUnsym roots m = .ok v ↔ Cx.focUnsym roots m = .ok (v : ℂ)) ∧
    (∀ z, Cx.focUnsym roots m = .ok z → z.im = 0 → S6.focUnsym roots m = .ok z.re) := by
  cases hq : cubic m with
  | error e => simp [S6.focUnsym, Cx.focUnsym, hq, Except.bind_error']
  | ok q =>
    simp only [S6.focUnsym, Cx.focUnsym, hq, Except.bind_ok']
    cases hs : minStress (roots q.a (-q.b) q.c (-q.d)) with
    | none => simp
    | some z =>
      refine ⟨fun v => ?_, fun z' h hz => ?_⟩
      · by_cases h : z.im = 0
        · simp only [h, if_true, Except.ok_inj']
          exact ⟨fun e => Complex.ext (by simpa using e) (by simpa using h), fun e => by rw [e]; simp⟩
        · simp only [h, if_false, Except.ok_inj']
          refine ⟨fun e => (by cases e), fun e => absurd (by rw [e]; simp) h⟩
      · rw [Except.ok_inj'] at h
        subst h
        simp [hz]

theorem cle_real (x : ℝ) : Cx.cle (x : ℂ) (3 / 2) ↔ x ≤ 3 / 2 := by
  have h : (3 / 2 : ℂ) = ((3 / 2 : ℝ) : ℂ) := by push_cast; rfl
  rw [h, Cx.cle, clt]
  simp only [Complex.ofReal_re, Complex.ofReal_im, lt_self_iff_false, and_false, or_false, Complex.ofReal_inj]
  exact le_iff_lt_or_eq.symm

/-- C136: the torsional capacity of an unsymmetric section is the real number of the formula exactly where the stress is a real
number. -/
theorem C136_unsymmetric_partial (roots : Roots) (m : Member) (kf fy unc : ℝ) (sym : Symmetry) (hs : sym.symmetry = .ok .none)
    (t : Cx.TorsionalUnsym) (h : Cx.NcTorsionUnsym roots m kf fy unc = .ok t) (hf : t.foc.im = 0) :
    ∃ r, S6.NcTorsion roots m kf fy sym unc = .ok r ∧ t.Ncz = r.Ncz ∧ t.foc = r.foc ∧ t.lambdaC = r.lambdaC ∧ t.fn = r.fn := by
  unfold Cx.NcTorsionUnsym at h
  cases hz : Cx.focUnsym roots m with
  | error e => rw [hz] at h; cases h
  | ok z =>
    simp only [hz, Except.bind_ok'] at h
    split at h
    · cases h
    rename_i hn
    push Not at hn
    obtain ⟨hz0, hz1⟩ := hn
    rw [show ∀ x : Cx.TorsionalUnsym, (pure x : Py Cx.TorsionalUnsym) = .ok x from fun _ => rfl, Except.ok_inj'] at h
    subst h
    have hf' : z.im = 0 := hf
    have hzr : z = (z.re : ℂ) := Complex.ext rfl (by simp [hf'])
    have hne : z.re ≠ 0 := fun h0 => hz0 (by rw [hzr, h0]; simp)
    have hq := hz1 hf'
    have hfoc := (focUnsym_cases roots m).2 z hz hf'
    have hlc : ((fy : ℂ) / z) ^ (1 / 2 : ℂ) = (Real.sqrt (fy / z.re) : ℂ) := by
      rw [Real.sqrt_eq_rpow, Complex.ofReal_cpow hq]
      conv_lhs => rw [hzr]
      push_cast
      rfl
    have hsq : Real.sqrt (fy / z.re) * Real.sqrt (fy / z.re) = fy / z.re := Real.mul_self_sqrt hq
    have hp : ((658 / 1000 : ℂ)) ^ ((Real.sqrt (fy / z.re) : ℂ) * (Real.sqrt (fy / z.re) : ℂ)) =
        ((rpow (658 / 1000) (Real.sqrt (fy / z.re) * Real.sqrt (fy / z.re)) : ℝ) : ℂ) := by
      unfold rpow
      rw [Complex.ofReal_cpow (by norm_num)]
      push_cast
      rfl
    simp only [S6.NcTorsion, foc, hs, Except.bind_ok', hfoc, columnCurve, rdiv, if_neg hne, rsqrt, if_neg (not_lt.2 hq)]
    rw [hlc]
    set lc := Real.sqrt (fy / z.re) with hl
    by_cases hle : lc ≤ 3 / 2
    · simp only [if_pos hle, if_pos ((cle_real lc).2 hle), Except.bind_ok', pure, Except.pure, Except.ok_inj', exists_eq_left', hp]
      simp only [Ae]
      refine ⟨by push_cast; ring, hzr, trivial, by push_cast; rfl⟩
    · have h0 : lc * lc ≠ 0 := by
        have : 3 / 2 < lc := not_le.1 hle
        positivity
      simp only [if_neg hle, if_neg (mt (cle_real lc).1 hle), if_neg h0, Except.bind_ok', pure, Except.pure, Except.ok_inj', exists_eq_left']
      simp only [Ae]
      refine ⟨by push_cast; ring, hzr, trivial, by push_cast; rfl⟩

/-- C136: where the formula for the compression capacity of an unsymmetric section gives real numbers, `s6_1_1_Nc` returns these. -/
theorem C136_unsymmetric_member_partial (roots : Roots) (a : NcArgs) (hs : a.sym.symmetry = .ok .none) (hb : a.calcBuckling = true)
    (ht : a.calcTorsion = true) {r : NcResult} (h : S6.Nc roots a = .ok r) :
    ∃ c, Cx.NcUnsym roots a = .ok c ∧ r.Ncz.map (fun x : ℝ => (x : ℂ)) = some c.Ncz ∧
      r.phiNcz.map (fun x : ℝ => (x : ℂ)) = some c.phiNcz ∧ c.Nc = r.Nc ∧ c.phiNc = r.phiNc := by
  have cm : ∀ x y : ℝ, Cx.cmin (x : ℂ) (y : ℂ) = ((min x y : ℝ) : ℂ) := by
    intro x y
    have e : clt (y : ℂ) (x : ℂ) ↔ y < x := by simp [clt]
    unfold Cx.cmin
    by_cases h : y < x
    · rw [if_pos (e.2 h), min_eq_right h.le]
    · rw [if_neg (mt e.1 h), min_eq_left (not_lt.1 h)]
  unfold S6.Nc at h
  simp only [hb, ht, if_true] at h
  cases hx : S6.NcFlexural a.An a.kf (le a.l a.kex) a.rx a.fy a.fref a.alphaB with
  | error e => rw [hx] at h; cases h
  | ok bx =>
  cases hy : S6.NcFlexural a.An a.kf (le a.l a.key) a.ry a.fy a.fref a.alphaB with
  | error e => simp only [hx, hy, Except.bind_ok'] at h; cases h
  | ok bY =>
  cases hz : S6.NcTorsion roots a.member a.kf a.fy a.sym a.uncertainty with
  | error e => simp only [hx, hy, hz, Except.bind_ok'] at h; cases h
  | ok t =>
  simp only [hx, hy, hz, Except.bind_ok', pure, Except.pure, Except.ok_inj'] at h
  have hc : ∃ c, Cx.NcTorsionUnsym roots a.member a.kf a.fy a.uncertainty = .ok c ∧ c.foc.im = 0 := by
    simp only [S6.NcTorsion, foc, hs, Except.bind_ok'] at hz
    cases hf : S6.focUnsym roots a.member with
    | error e => rw [hf] at hz; cases hz
    | ok f =>
      simp only [hf, Except.bind_ok', columnCurve, rdiv] at hz
      have hfc := ((focUnsym_cases roots a.member).1 f).1 hf
      by_cases f0 : f = 0
      · rw [if_pos f0] at hz; cases hz
      rw [if_neg f0] at hz
      simp only [Except.bind_ok', rsqrt] at hz
      by_cases q0 : a.fy / f < 0
      · rw [if_pos q0] at hz; cases hz
      have h0 : ¬ ((f : ℂ) = 0 ∨ (f : ℂ).im = 0 ∧ a.fy / (f : ℂ).re < 0) := by
        rintro (h | ⟨-, h⟩)
        · exact f0 (by exact_mod_cast h)
        · rw [Complex.ofReal_re] at h; exact q0 h
      exact ⟨_, by simp only [Cx.NcTorsionUnsym, hfc, Except.bind_ok', if_neg h0, pure, Except.pure]; rfl, Complex.ofReal_im f⟩
  obtain ⟨c, hc, hi⟩ := hc
  obtain ⟨r', hr', e, -⟩ := C136_unsymmetric_partial roots a.member a.kf a.fy a.uncertainty a.sym hs c hc hi
  obtain rfl : t = r' := Except.ok_inj'.1 (hz.symm.trans hr')
  simp only [Cx.NcUnsym, hx, hy, hc, Except.bind_ok', pure, Except.pure, Except.ok_inj', exists_eq_left']
  subst h
  rw [e]
  simp only [cm, Option.map_some, Complex.ofReal_mul, and_self]

/-- C136 is false of unsymmetric sections with a shear centre far from both axes, in the unit of length used: the stress and the
torsional capacity are complex numbers, nothing is raised, and where the real part is less than the other capacities so is the capacity of
the member. -/
theorem C136_unsymmetric_counterexample {roots : Roots} (hr : roots.Exact) {a : NcArgs} (hm : a.member.Positive) {p q s : ℝ}
    (hS : Stresses a.member p q s)
    (hfar : (a.rx ^ 2 + a.ry ^ 2 + a.xo ^ 2 + a.yo ^ 2) * (p * q + q * s + p * s) ^ 3 ≤
      (a.xo ^ 2 * a.yo ^ 2 - (a.rx ^ 2 + a.ry ^ 2 + a.xo ^ 2 + a.yo ^ 2)) * (p * q * s) ^ 2)
    (hkf : 0 < a.kf) (hfy : 0 < a.fy) (hu : 0 < a.uncertainty) :
    ∃ t, Cx.NcTorsionUnsym roots a.member a.kf a.fy a.uncertainty = .ok t ∧ t.foc.im ≠ 0 ∧ t.fn.im ≠ 0 ∧ t.Ncz.im ≠ 0 ∧
      ∀ bx bY, S6.NcFlexural a.An a.kf (le a.l a.kex) a.rx a.fy a.fref a.alphaB = .ok bx →
        S6.NcFlexural a.An a.kf (le a.l a.key) a.ry a.fy a.fref a.alphaB = .ok bY →
        t.Ncz.re < a.An * a.kf * a.fy → t.Ncz.re < bx.Nc → t.Ncz.re < bY.Nc →
        ∃ r, Cx.NcUnsym roots a = .ok r ∧ r.Nc = t.Ncz ∧ r.Nc.im ≠ 0 ∧ r.phiNc = a.phi * t.Ncz := by
  obtain ⟨m, hmm⟩ : ∃ m, m = a.member := ⟨_, rfl⟩
  have hAn : a.An = m.An := by rw [hmm]; rfl
  have hfar' : (m.rx ^ 2 + m.ry ^ 2 + m.xo ^ 2 + m.yo ^ 2) * (p * q + q * s + p * s) ^ 3 ≤
      (m.xo ^ 2 * m.yo ^ 2 - (m.rx ^ 2 + m.ry ^ 2 + m.xo ^ 2 + m.yo ^ 2)) * (p * q * s) ^ 2 := by rw [hmm]; exact hfar
  clear hfar
  rw [← hmm] at hm hS ⊢
  have eR : m.rx ^ 2 + m.ry ^ 2 + m.xo ^ 2 + m.yo ^ 2 = roSq m.rx m.ry m.xo m.yo := by unfold roSq; ring
  rw [eR] at hfar'
  obtain ⟨p', q', s', p1, p2, p3, e1, e2, e3, ec⟩ := cubic_ok hm
  obtain rfl : p' = p := Except.ok_inj'.1 (e1.symm.trans hS.x)
  obtain rfl : q' = q := Except.ok_inj'.1 (e2.symm.trans hS.y)
  obtain rfl : s' = s := Except.ok_inj'.1 (e3.symm.trans hS.z)
  have hR := roSq_pos m.ry m.xo m.yo hm.rx
  have hlt : m.xo ^ 2 + m.yo ^ 2 < roSq m.rx m.ry m.xo m.yo := by
    unfold roSq; nlinarith [pow_pos hm.rx 2, pow_pos hm.ry 2]
  obtain ⟨R, hRR⟩ : ∃ R, R = roSq m.rx m.ry m.xo m.yo := ⟨_, rfl⟩
  obtain ⟨X, hX⟩ : ∃ X, X = m.xo ^ 2 := ⟨_, rfl⟩
  obtain ⟨Y, hY⟩ : ∃ Y, Y = m.yo ^ 2 := ⟨_, rfl⟩
  have X0 : 0 ≤ X := by rw [hX]; positivity
  have Y0 : 0 ≤ Y := by rw [hY]; positivity
  rw [← hX, ← hY, ← hRR] at hfar' hlt ec
  rw [← hRR] at hR
  obtain ⟨a0, neg⟩ := srcCubic_far hR X0 Y0 hlt p1 p2 p3 hfar'
  obtain ⟨z1, z2, z3, hl, hpoly⟩ := hr (R - X * Y) (-(R * (p' + q' + s') - (q' * X + p' * Y))) (R * (p' * q' + q' * s' + p' * s'))
    (-(R * p' * q' * s')) (by linarith)
  obtain ⟨z, hz, zre, zim⟩ := far_roots (a := R - X * Y) (b := R * (p' + q' + s') - (q' * X + p' * Y))
    (c := R * (p' * q' + q' * s' + p' * s')) (d := R * p' * q' * s') (by linarith) (by positivity) (by positivity)
    (fun f hf => by have := neg f hf; unfold srcCubic at this; linarith) hpoly
  have hfoc : Cx.focUnsym roots m = .ok z := by
    simp only [Cx.focUnsym, ec, Except.bind_ok', hl, hz]
  have hz0 : z ≠ 0 := fun h => zim (by rw [h]; rfl)
  have hcond : ¬ (z = 0 ∨ (z.im = 0 ∧ a.fy / z.re < 0)) := by
    rintro (h | ⟨h, -⟩)
    · exact hz0 h
    · exact zim h
  have hsq : ((a.fy : ℂ) / z) ^ (1 / 2 : ℂ) * ((a.fy : ℂ) / z) ^ (1 / 2 : ℂ) = a.fy / z := by
    have := Complex.cpow_nat_inv_pow (a.fy / z) (n := 2) (by norm_num)
    rw [pow_two] at this
    simp only [one_div]
    exact_mod_cast this
  classical
  obtain ⟨fn, hfn⟩ : ∃ fn : ℂ, fn = if Cx.cle (((a.fy : ℂ) / z) ^ (1 / 2 : ℂ)) (3 / 2) then
      (a.fy : ℂ) * (658 / 1000 : ℂ) ^ (((a.fy : ℂ) / z) ^ (1 / 2 : ℂ) * ((a.fy : ℂ) / z) ^ (1 / 2 : ℂ))
      else (a.fy : ℂ) * ((877 / 1000) / (((a.fy : ℂ) / z) ^ (1 / 2 : ℂ) * ((a.fy : ℂ) / z) ^ (1 / 2 : ℂ))) := ⟨_, rfl⟩
  have him : fn.im ≠ 0 := by
    rw [hfn]
    have hcur := curve_complex hfy zre zim
    split
    · rename_i hle
      rcases hcur with h | h
      · exact h
      · exact absurd hle h
    · rw [hsq]
      have hfc : (a.fy : ℂ) ≠ 0 := by exact_mod_cast hfy.ne'
      have : (a.fy : ℂ) * ((877 / 1000) / ((a.fy : ℂ) / z)) = ((877 / 1000 : ℝ) : ℂ) * z := by
        push_cast; field_simp
      rw [this, Complex.im_ofReal_mul]
      exact mul_ne_zero (by norm_num) zim
  have hNim : ((a.uncertainty : ℂ) * ((m.An : ℂ) * a.kf) * fn).im ≠ 0 := by
    have : (a.uncertainty : ℂ) * ((m.An : ℂ) * a.kf) = ((a.uncertainty * (m.An * a.kf) : ℝ) : ℂ) := by push_cast; ring
    rw [this, Complex.im_ofReal_mul]
    have := hm.An
    exact mul_ne_zero (by positivity) him
  have hres : Cx.NcTorsionUnsym roots m a.kf a.fy a.uncertainty =
      .ok ⟨(a.uncertainty : ℂ) * ((m.An : ℂ) * a.kf) * fn, z, ((a.fy : ℂ) / z) ^ (1 / 2 : ℂ), fn⟩ := by
    simp only [Cx.NcTorsionUnsym, hfoc, Except.bind_ok', if_neg hcond, pure, Except.pure, ← hfn]
    push_cast
    rfl
  refine ⟨_, hres, zim, him, hNim, ?_⟩
  intro bx bY hbx hbY l1 l2 l3
  rw [hmm] at hres
  simp only [Cx.NcUnsym, hbx, hbY, hres, Except.bind_ok', pure, Except.pure, Except.ok_inj', exists_eq_left']
  have hN : S6.Ns (Ae a.An a.kf) a.fy = a.An * a.kf * a.fy := by simp only [S6.Ns, Ae]
  rw [hN]
  rw [hmm] at l1 l2 l3 hNim
  have c1 : ∀ (x : ℝ) (w : ℂ), w.re < x → Cx.cmin (x : ℂ) w = w := by
    intro x w h
    have : clt w (x : ℂ) := Or.inl (by simpa using h)
    rw [Cx.cmin, if_pos this]
  simp only at l1 l2 l3
  rw [c1 _ _ l1, c1 _ _ (by simp only [lt_min_iff]; exact ⟨⟨l1, l2, l1⟩, l3, l1⟩), hmm]
  exact ⟨rfl, hNim, rfl⟩

theorem NcTorsionUnsym_scale {roots : Roots} {m : Member} {kf fy : ℝ} {t : Cx.TorsionalUnsym} (u : ℝ)
    (h : Cx.NcTorsionUnsym roots m kf fy 1 = .ok t) : Cx.NcTorsionUnsym roots m kf fy u = .ok { t with Ncz := u * t.Ncz } := by
  unfold Cx.NcTorsionUnsym at h ⊢
  cases hz : Cx.focUnsym roots m with
  | error e => rw [hz] at h; cases h
  | ok z =>
    simp only [hz, Except.bind_ok'] at h ⊢
    split at h
    · cases h
    · rename_i hn
      rw [if_neg hn]
      simp only [pure, Except.pure, Except.ok_inj'] at h ⊢
      subst h
      simp only [Complex.ofReal_one, one_mul]
      congr 1
      ring

/-- the call for the angle of C116 in millimetres and megapascals -/
noncomputable def angleCall (u : ℝ) : NcArgs :=
  ⟨1900, 1, 2000, 1, 1, 1, 48, 21, 14, 36, 40000, 0, 300, 200000, 80000, ⟨some []⟩, 250, 0, u, 9 / 10, true, true⟩

theorem angleCall_far (u : ℝ) : (angleCall u).member.Positive ∧ ∃ p q s, Stresses (angleCall u).member p q s ∧
    ((angleCall u).rx ^ 2 + (angleCall u).ry ^ 2 + (angleCall u).xo ^ 2 + (angleCall u).yo ^ 2) * (p * q + q * s + p * s) ^ 3 ≤
      ((angleCall u).xo ^ 2 * (angleCall u).yo ^ 2 -
        ((angleCall u).rx ^ 2 + (angleCall u).ry ^ 2 + (angleCall u).xo ^ 2 + (angleCall u).yo ^ 2)) * (p * q * s) ^ 2 := by
  have hm : (angleCall u).member.Positive := by constructor <;> norm_num [angleCall, NcArgs.member, S6.le]
  obtain ⟨p, q, s, p1, p2, p3, e1, e2, e3, -⟩ := cubic_ok hm
  refine ⟨hm, p, q, s, ⟨e1, e2, e3⟩, ?_⟩
  rw [fEuler_ok hm.rx.ne' hm.lex.ne', Except.ok_inj'] at e1
  rw [fEuler_ok hm.ry.ne' hm.ley.ne', Except.ok_inj'] at e2
  rw [fEulerTorsion_ok hm.An hm.lez hm.rx hm.J hm.G, Except.ok_inj'] at e3
  rw [← e1, ← e2, ← e3]
  norm_num [angleCall, NcArgs.member, S6.le, piD, roSq]

/-- C136 is false of an unequal angle in millimetres: for small uncertainty factors `s6_1_1_Nc` returns a complex capacity of the
member, and raises nothing. -/
theorem C136_angle_counterexample {roots : Roots} (hr : roots.Exact) :
    ∃ u0 > 0, ∀ u, 0 < u → u ≤ u0 → ∃ r, Cx.NcUnsym roots (angleCall u) = .ok r ∧ r.Nc.im ≠ 0 := by
  obtain ⟨hm1, p, q, s, hS, hfar⟩ := angleCall_far 1
  obtain ⟨t, ht, -⟩ := C136_unsymmetric_counterexample hr hm1 hS hfar (by norm_num [angleCall]) (by norm_num [angleCall])
    (by norm_num [angleCall])
  have col : ∀ r : ℝ, 0 < r → ∃ x, S6.NcFlexural 1900 1 (S6.le 2000 1) r 300 250 0 = .ok x ∧ 0 < x.Nc := by
    intro r hr
    obtain ⟨x, hx⟩ := NcFlexural_ok (An := 1900) (kf := 1) (le := S6.le 2000 1) (r := r) (fy := 300) (fref := 250) (ab := 0)
      (by norm_num) hr.ne' (by norm_num) (by norm_num) (by unfold lamOf S6.le; rw [mul_zero, add_zero, Real.sqrt_one]; positivity)
    refine ⟨x, hx, ?_⟩
    obtain ⟨_, _, n, al⟩ := NcFlexural_inv (by norm_num) hr.ne' (by norm_num) (by norm_num) hx
    rw [n]
    have := al.pos
    positivity
  obtain ⟨x, hx, x0⟩ := col 48 (by norm_num)
  obtain ⟨y, hy, y0⟩ := col 21 (by norm_num)
  obtain ⟨n, hn⟩ : ∃ n, n = min (min x.Nc y.Nc) (1900 * 1 * 300) := ⟨_, rfl⟩
  have n0 : 0 < n := by rw [hn]; simp only [lt_min_iff]; exact ⟨⟨x0, y0⟩, by norm_num⟩
  refine ⟨n / (2 * (|t.Ncz.re| + 1)), by positivity, ?_⟩
  intro u u0 hu
  obtain ⟨hm, p, q, s, hS, hfar⟩ := angleCall_far u
  obtain ⟨t', ht', -, -, -, h⟩ := C136_unsymmetric_counterexample hr hm hS hfar (by norm_num [angleCall]) (by norm_num [angleCall]) u0
  have e := NcTorsionUnsym_scale u ht
  have : t' = { t with Ncz := u * t.Ncz } := Except.ok_inj'.1 (ht'.symm.trans e)
  have hlt : t'.Ncz.re < n := by
    rw [this]
    show ((u : ℂ) * t.Ncz).re < n
    rw [Complex.re_ofReal_mul]
    rw [le_div_iff₀ (by positivity)] at hu
    have h1 : u * t.Ncz.re ≤ u * |t.Ncz.re| := mul_le_mul_of_nonneg_left (le_abs_self _) u0.le
    nlinarith [abs_nonneg t.Ncz.re]
  rw [hn] at hlt
  simp only [lt_min_iff] at hlt
  obtain ⟨r, hr', -, hi, -⟩ := h x y hx hy hlt.2 hlt.1.1 hlt.1.2
  exact ⟨r, hr', hi⟩

/-- The angle in metres has real numbers (C116), so the hypotheses of the partial theorem are met. -/
example {roots : Roots} (hr : roots.Exact) : ∃ t, Cx.NcTorsionUnsym roots unequalAngle 1 300000000 (85 / 100) = .ok t ∧ t.foc.im = 0 := by
  have hm : unequalAngle.Positive := by constructor <;> norm_num [unequalAngle]
  obtain ⟨-, -, -, f, -, -, hf, f0, -⟩ := C116_stress_partial hr hm (Or.inl (by norm_num [unequalAngle, abs_le]))
  have h := ((focUnsym_cases roots unequalAngle).1 f).1 hf
  have h0 : ¬ ((f : ℂ) = 0 ∨ (f : ℂ).im = 0 ∧ 300000000 / (f : ℂ).re < 0) := by
    rintro (h | ⟨-, h⟩)
    · exact f0.ne' (by exact_mod_cast h)
    · rw [Complex.ofReal_re] at h
      have : 0 < 300000000 / f := by positivity
      linarith
  refine ⟨_, by simp only [Cx.NcTorsionUnsym, h, Except.bind_ok', if_neg h0, pure, Except.pure]; rfl, Complex.ofReal_im f⟩

/-- so are those of the theorem for the member -/
example {roots : Roots} (hr : roots.Exact) : ∃ a r, a.member = unequalAngle ∧ a.sym.symmetry = .ok .none ∧ a.calcBuckling = true ∧
    a.calcTorsion = true ∧ S6.Nc roots a = .ok r := by
  have hm : unequalAngle.Positive := by constructor <;> norm_num [unequalAngle]
  obtain ⟨-, -, -, f, -, -, hf, f0, -⟩ := C116_stress_partial hr hm (Or.inl (by norm_num [unequalAngle, abs_le]))
  obtain ⟨a, ha⟩ : ∃ a : NcArgs, a = ⟨19 / 10000, 1, 2, 1, 1, 1, 48 / 1000, 21 / 1000, 14 / 1000, 36 / 1000, 4 / 10 ^ 8, 0, 300000000,
    200000000000, 80000000000, ⟨some []⟩, 250000000, 0, 85 / 100, 9 / 10, true, true⟩ := ⟨_, rfl⟩
  have hmem : a.member = unequalAngle := by rw [ha]; norm_num [NcArgs.member, unequalAngle, S6.le]
  have hsym : a.sym.symmetry = .ok .none := by rw [ha]; decide +kernel
  have col : ∀ r : ℝ, 0 < r → ∃ x, S6.NcFlexural (19 / 10000) 1 (S6.le 2 1) r 300000000 250000000 0 = .ok x := by
    intro r hr
    exact NcFlexural_ok (by norm_num) hr.ne' (by norm_num) (by norm_num)
      (by unfold lamOf S6.le; rw [mul_zero, add_zero, Real.sqrt_one]; positivity)
  obtain ⟨x, hx⟩ := col (48 / 1000) (by norm_num)
  obtain ⟨y, hy⟩ := col (21 / 1000) (by norm_num)
  have ht : ∃ t, S6.NcTorsion roots a.member a.kf a.fy a.sym a.uncertainty = .ok t := by
    have fy0 : 0 < a.fy := by rw [ha]; norm_num
    simp only [S6.NcTorsion, foc, hsym, hmem, hf, Except.bind_ok', columnCurve_ok fy0 f0]
    exact ⟨_, rfl⟩
  obtain ⟨t, ht⟩ := ht
  have hb : a.calcBuckling = true := by rw [ha]
  have hb' : a.calcTorsion = true := by rw [ha]
  have hx' : S6.NcFlexural a.An a.kf (le a.l a.kex) a.rx a.fy a.fref a.alphaB = .ok x := by rw [ha]; exact hx
  have hy' : S6.NcFlexural a.An a.kf (le a.l a.key) a.ry a.fy a.fref a.alphaB = .ok y := by rw [ha]; exact hy
  have hN : ∃ r, S6.Nc roots a = .ok r := by
    simp only [S6.Nc, hb, hb', if_true, hx', hy', ht, Except.bind_ok']
    exact ⟨_, rfl⟩
  obtain ⟨r, hN⟩ := hN
  exact ⟨a, r, hmem, hsym, hb, hb', hN⟩

end BeamDesign
