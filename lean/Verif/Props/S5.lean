import Verif.Model.S5
import Verif.Lemmas.Real
import Verif.Props.S7

/-!
# Section 5 properties: C44 to C49
-/

set_option linter.unusedSectionVars false
set_option linter.unusedSimpArgs false

namespace BeamDesign

open S5 S5Shear

/-! ## C44 -/

theorem alphaS_ok {Ms Mo : ℝ} (h : Mo ≠ 0) :
    alphaS Ms Mo = .ok (6 / 10 * (√((Ms / Mo) ^ 2 + 3) - Ms / Mo)) := by
  simp only [alphaS, rdiv_ok h, Except.bind_ok', rsqrt_ok (show 0 ≤ (Ms / Mo) ^ 2 + 3 by positivity), pure,
    Except.pure]

theorem sqrt_sub_eq (x : ℝ) (hx : 0 ≤ x) :
    √(x ^ 2 + 3) - x = 3 / (√(x ^ 2 + 3) + x) := by
  have h0 : 0 < √(x ^ 2 + 3) := Real.sqrt_pos.2 (by positivity)
  have hs : √(x ^ 2 + 3) * √(x ^ 2 + 3) = x ^ 2 + 3 := Real.mul_self_sqrt (by positivity)
  rw [eq_div_iff (by positivity)]
  nlinarith

/-- C44.  For positive moments the slenderness factor is a number strictly between 0 and 0.6√3 and the
member capacity never exceeds 0.9 times the (modified) buckling moment. -/
theorem C44_bounds {Ms Mo : ℝ} (hs : 0 < Ms) (ho : 0 < Mo) :
    ∃ a, alphaS Ms Mo = .ok a ∧ 0 < a ∧ a < 6 / 10 * √3 ∧
      ∀ am, 0 ≤ am → Mb Ms am a ≤ am * (9 / 10 * Mo) := by
  refine ⟨_, alphaS_ok ho.ne', ?_⟩
  set x := Ms / Mo with hx
  have hx0 : 0 < x := by positivity
  have hsx : x < √(x ^ 2 + 3) := Real.lt_sqrt_of_sq_lt (by linarith)
  have hpos : 0 < √(x ^ 2 + 3) + x := by linarith
  have hM : Ms = x * Mo := by rw [hx]; field_simp
  refine ⟨?_, ?_, ?_⟩
  · have : 0 < √(x ^ 2 + 3) - x := by linarith
    positivity
  · have h3 : √(x ^ 2 + 3) < √3 + x := by
      rw [Real.sqrt_lt' (by positivity)]
      have e3 : √3 * √3 = 3 := Real.mul_self_sqrt (by norm_num)
      have : 0 < √3 * x := by positivity
      nlinarith
    have : √(x ^ 2 + 3) - x < √3 := by linarith
    linarith
  · intro am ham
    have hk : 6 / 10 * (√(x ^ 2 + 3) - x) * x ≤ 9 / 10 := by
      rw [sqrt_sub_eq x hx0.le]
      have : 3 / (√(x ^ 2 + 3) + x) * x ≤ 3 / 2 := by
        rw [div_mul_eq_mul_div, div_le_div_iff₀ hpos (by norm_num)]
        nlinarith
      nlinarith
    have : Mb Ms am (6 / 10 * (√(x ^ 2 + 3) - x)) = am * (6 / 10 * (√(x ^ 2 + 3) - x) * x * Mo) := by
      rw [Mb, hM]; ring
    rw [this]
    apply mul_le_mul_of_nonneg_left _ ham
    exact mul_le_mul_of_nonneg_right hk ho.le

/-- C44.  The slenderness factor decreases as `Ms / Mo` grows. -/
theorem C44_decreasing {Ms Mo Ms' Mo' : ℝ} (hs : 0 < Ms) (ho : 0 < Mo) (ho' : 0 < Mo')
    (h : Ms / Mo < Ms' / Mo') :
    ∃ a a', alphaS Ms Mo = .ok a ∧ alphaS Ms' Mo' = .ok a' ∧ a' < a := by
  refine ⟨_, _, alphaS_ok ho.ne', alphaS_ok ho'.ne', ?_⟩
  have hx0 : 0 < Ms / Mo := by positivity
  rw [sqrt_sub_eq _ hx0.le, sqrt_sub_eq _ (hx0.trans h).le]
  set x := Ms / Mo
  set y := Ms' / Mo'
  have h1 : √(x ^ 2 + 3) < √(y ^ 2 + 3) := by
    apply Real.sqrt_lt_sqrt (by positivity)
    nlinarith
  have h2 : 0 ≤ √(x ^ 2 + 3) := Real.sqrt_nonneg _
  have : 3 / (√(y ^ 2 + 3) + y) < 3 / (√(x ^ 2 + 3) + x) := by
    apply div_lt_div_of_pos_left (by norm_num) (by linarith) (by linarith)
  linarith

/-- C44.  The slenderness factor is the positive root of `a² + 1.2 (Ms / Mo) a = 1.08`, so it is the value
of S5.6.1.1(2) and no other. -/
theorem C44_equation {Ms Mo : ℝ} (hs : 0 ≤ Ms) (ho : 0 < Mo) (a : ℝ) :
    alphaS Ms Mo = .ok a ↔ 0 < a ∧ a ^ 2 + 12 / 10 * (Ms / Mo) * a = 108 / 100 := by
  rw [alphaS_ok ho.ne']
  have hx0 : 0 ≤ Ms / Mo := by positivity
  set x := Ms / Mo
  have h0 : 0 < √(x ^ 2 + 3) := Real.sqrt_pos.2 (by positivity)
  have hsq : √(x ^ 2 + 3) * √(x ^ 2 + 3) = x ^ 2 + 3 := Real.mul_self_sqrt (by positivity)
  constructor
  · intro h
    have h : 6 / 10 * (√(x ^ 2 + 3) - x) = a := by injection h
    subst h
    refine ⟨?_, by nlinarith⟩
    have : x < √(x ^ 2 + 3) := Real.lt_sqrt_of_sq_lt (by linarith)
    linarith
  · rintro ⟨ha, h⟩
    have : √(x ^ 2 + 3) = 10 / 6 * a + x := by
      rw [Real.sqrt_eq_iff_mul_self_eq (by positivity) (by positivity)]
      nlinarith
    rw [this]
    congr 1
    ring

/-- a stocky beam: `Ms = Mo = 1` gives 0.6 -/
example : alphaS 1 1 = .ok (6 / 10) := by
  rw [alphaS_ok one_ne_zero]
  have : √(((1 : ℝ) / 1) ^ 2 + 3) = 2 := by
    rw [show ((1 : ℝ) / 1) ^ 2 + 3 = 2 ^ 2 by norm_num]
    exact Real.sqrt_sq (by norm_num)
  rw [this]; norm_num

/-! ## C45 -/

theorem sumsq_zero {a b c : ℝ} : a * a + b * b + c * c = 0 ↔ a = 0 ∧ b = 0 ∧ c = 0 := by
  constructor
  · intro h
    have h1 := mul_self_nonneg a
    have h2 := mul_self_nonneg b
    have h3 := mul_self_nonneg c
    exact ⟨mul_self_eq_zero.1 (by linarith), mul_self_eq_zero.1 (by linarith), mul_self_eq_zero.1 (by linarith)⟩
  · rintro ⟨rfl, rfl, rfl⟩; ring

theorem sumsq_nonneg (a b c : ℝ) : 0 ≤ a * a + b * b + c * c := by
  have h1 := mul_self_nonneg a
  have h2 := mul_self_nonneg b
  have h3 := mul_self_nonneg c
  linarith

theorem alphaM_ok {Mmax M2 M3 M4 cap : ℝ} (h : ¬ (M2 = 0 ∧ M3 = 0 ∧ M4 = 0)) :
    alphaM Mmax M2 M3 M4 cap =
      .ok (min (17 / 10 * |Mmax| / √(M2 * M2 + M3 * M3 + M4 * M4)) cap) := by
  have hn := sumsq_nonneg M2 M3 M4
  have hz : √(M2 * M2 + M3 * M3 + M4 * M4) ≠ 0 := by
    rw [Ne, Real.sqrt_eq_zero hn, sumsq_zero]; exact h
  simp only [alphaM, rsqrt_ok hn, Except.bind_ok', rdiv_ok hz, pure, Except.pure]

/-- C45.  The moment modification factor is a number not above its cap, except when the three quarter
point moments are all zero, when `ZeroDivisionError` is raised; no other error occurs. -/
theorem C45_defined (Mmax M2 M3 M4 cap : ℝ) :
    (alphaM Mmax M2 M3 M4 cap = .error .zeroDivision ↔ M2 = 0 ∧ M3 = 0 ∧ M4 = 0) ∧
    (¬ (M2 = 0 ∧ M3 = 0 ∧ M4 = 0) → ∃ a, alphaM Mmax M2 M3 M4 cap = .ok a ∧ a ≤ cap) := by
  by_cases h : M2 = 0 ∧ M3 = 0 ∧ M4 = 0
  · refine ⟨⟨fun _ => h, fun _ => ?_⟩, fun h' => absurd h h'⟩
    obtain ⟨rfl, rfl, rfl⟩ := h
    simp only [alphaM, mul_zero, add_zero, rsqrt_ok le_rfl, Real.sqrt_zero, Except.bind_ok', rdiv_zero]
    rfl
  · rw [alphaM_ok h]
    exact ⟨⟨fun e => by simp at e, fun h' => absurd h' h⟩, fun _ => ⟨_, rfl, min_le_right _ _⟩⟩

/-- C45.  Scaling all moments by a non-zero number (of either sign) changes nothing, nor does changing
the sign of any one of them. -/
theorem C45_invariant (Mmax M2 M3 M4 cap : ℝ) :
    (∀ s, s ≠ 0 → alphaM (s * Mmax) (s * M2) (s * M3) (s * M4) cap = alphaM Mmax M2 M3 M4 cap) ∧
    alphaM (-Mmax) M2 M3 M4 cap = alphaM Mmax M2 M3 M4 cap ∧
    alphaM Mmax (-M2) M3 M4 cap = alphaM Mmax M2 M3 M4 cap ∧
    alphaM Mmax M2 (-M3) M4 cap = alphaM Mmax M2 M3 M4 cap ∧
    alphaM Mmax M2 M3 (-M4) cap = alphaM Mmax M2 M3 M4 cap := by
  refine ⟨fun s hs => ?_, ?_, ?_, ?_, ?_⟩
  · by_cases h : M2 = 0 ∧ M3 = 0 ∧ M4 = 0
    · have h' : s * M2 = 0 ∧ s * M3 = 0 ∧ s * M4 = 0 := by
        obtain ⟨rfl, rfl, rfl⟩ := h; simp
      rw [(C45_defined _ _ _ _ _).1.2 h, (C45_defined _ _ _ _ _).1.2 h']
    · have h' : ¬ (s * M2 = 0 ∧ s * M3 = 0 ∧ s * M4 = 0) := by simpa [hs] using h
      rw [alphaM_ok h, alphaM_ok h']
      have e : s * M2 * (s * M2) + s * M3 * (s * M3) + s * M4 * (s * M4) =
          s ^ 2 * (M2 * M2 + M3 * M3 + M4 * M4) := by ring
      rw [e, Real.sqrt_mul (sq_nonneg s), Real.sqrt_sq_eq_abs, abs_mul]
      have hs' : |s| ≠ 0 := abs_ne_zero.2 hs
      congr 2
      rw [show 17 / 10 * (|s| * |Mmax|) = |s| * (17 / 10 * |Mmax|) by ring, mul_div_mul_left _ _ hs']
  all_goals simp only [alphaM, abs_neg, neg_mul_neg]

/-- C45.  When `M_max` bounds the other moments the factor is at least 1.7/√3 or the cap, with equality
for a uniform moment. -/
theorem C45_lower {Mmax M2 M3 M4 cap : ℝ} (h2 : |M2| ≤ |Mmax|) (h3 : |M3| ≤ |Mmax|) (h4 : |M4| ≤ |Mmax|)
    (h : ¬ (M2 = 0 ∧ M3 = 0 ∧ M4 = 0)) :
    (∃ a, alphaM Mmax M2 M3 M4 cap = .ok a ∧ min (17 / 10 / √3) cap ≤ a) ∧
    (Mmax ≠ 0 → alphaM Mmax Mmax Mmax Mmax cap = .ok (min (17 / 10 / √3) cap)) := by
  have h30 : 0 < √(3 : ℝ) := Real.sqrt_pos.2 (by norm_num)
  constructor
  · refine ⟨_, alphaM_ok h, min_le_min ?_ le_rfl⟩
    have hn := sumsq_nonneg M2 M3 M4
    have hpos : 0 < √(M2 * M2 + M3 * M3 + M4 * M4) :=
      Real.sqrt_pos.2 (lt_of_le_of_ne hn (fun e => h (sumsq_zero.1 e.symm)))
    have hle : √(M2 * M2 + M3 * M3 + M4 * M4) ≤ |Mmax| * √3 := by
      rw [Real.sqrt_le_left (by positivity), mul_pow, Real.sq_sqrt (by norm_num), sq_abs]
      have a2 := sq_le_sq.2 h2
      have a3 := sq_le_sq.2 h3
      have a4 := sq_le_sq.2 h4
      nlinarith
    rw [div_le_div_iff₀ h30 hpos]
    nlinarith
  · intro hm
    rw [alphaM_ok (fun h => hm h.1)]
    have e : Mmax * Mmax + Mmax * Mmax + Mmax * Mmax = Mmax ^ 2 * 3 := by ring
    rw [e, Real.sqrt_mul (sq_nonneg _), Real.sqrt_sq_eq_abs]
    have : |Mmax| ≠ 0 := abs_ne_zero.2 hm
    congr 2
    field_simp

/-- a concrete moment diagram meeting the hypotheses -/
example : ∃ a, alphaM (-100) 75 (-100) 50 (5 / 2) = .ok a ∧ min (17 / 10 / √3) (5 / 2) ≤ a :=
  (C45_lower (by rw [abs_neg, abs_of_pos, abs_of_pos] <;> norm_num) (le_refl _)
    (by rw [abs_neg, abs_of_pos, abs_of_pos] <;> norm_num) (by norm_num)).1

/-- C45.  Below its cap the factor `a` is the value of S5.6.1.1(3):
`a² (M_2² + M_3² + M_4²) = (1.7 M_max)²`; and the cap is used exactly when that value exceeds it. -/
theorem C45_equation {Mmax M2 M3 M4 cap : ℝ} (h : ¬ (M2 = 0 ∧ M3 = 0 ∧ M4 = 0)) :
    ∃ b, 0 ≤ b ∧ b ^ 2 * (M2 ^ 2 + M3 ^ 2 + M4 ^ 2) = (17 / 10 * Mmax) ^ 2 ∧
      alphaM Mmax M2 M3 M4 cap = .ok (if b ≤ cap then b else cap) := by
  have hn := sumsq_nonneg M2 M3 M4
  have hp : 0 < M2 * M2 + M3 * M3 + M4 * M4 := lt_of_le_of_ne hn (fun e => h (sumsq_zero.1 e.symm))
  refine ⟨17 / 10 * |Mmax| / √(M2 * M2 + M3 * M3 + M4 * M4), by positivity, ?_, ?_⟩
  · rw [div_pow, Real.sq_sqrt hn, mul_pow, sq_abs, show M2 ^ 2 + M3 ^ 2 + M4 ^ 2 = M2 * M2 + M3 * M3 + M4 * M4 by ring,
      div_mul_cancel₀ _ hp.ne']
    ring
  · rw [alphaM_ok h, min_def]

/-! ## C46 -/

/-- C46.  The fully and laterally restrained codes give exactly 1 for any dimensions; the partially
restrained codes give more than 1 for positive dimensions, by the amount of S5.6.3, and the excess of
`PP` is twice that of the others. -/
theorem C46_values (v : PyVersion) :
    (∀ d1 l tf tw nw r, r ∈ [Restraint.FF, .FL, .LL, .FU] → kt v d1 l tf tw nw (.code r) = .ok 1) ∧
    (∀ d1 l tf tw nw, 0 < d1 → 0 < l → 0 < tf → 0 < tw → 0 < nw →
      ∃ e, 0 < e ∧ e * nw * l * (8 * tw ^ 3) = d1 * tf ^ 3 ∧
        (∀ r, r ∈ [Restraint.FP, .PL, .PU] → kt v d1 l tf tw nw (.code r) = .ok (1 + e)) ∧
        kt v d1 l tf tw nw (.code .PP) = .ok (1 + 2 * e)) := by
  constructor
  · intro d1 l tf tw nw r hr
    simp only [List.mem_cons, List.not_mem_nil, or_false] at hr
    rcases hr with rfl | rfl | rfl | rfl <;> simp [kt]
  · intro d1 l tf tw nw h1 h2 h3 h4 h5
    have ex : ∀ f, ktExcess f d1 l tf tw nw = .ok (f * (d1 / l) * (tf / (2 * tw)) ^ 3 / nw) := by
      intro f
      simp only [ktExcess, rdiv_ok h2.ne', rdiv_ok (show 2 * tw ≠ 0 by positivity), Except.bind_ok',
        rdiv_ok h5.ne']
    refine ⟨1 * (d1 / l) * (tf / (2 * tw)) ^ 3 / nw, by positivity, ?_, ?_, ?_⟩
    · field_simp; ring
    · intro r hr
      simp only [List.mem_cons, List.not_mem_nil, or_false] at hr
      rcases hr with rfl | rfl | rfl <;> simp [kt, ex, Except.bind_ok', pure, Except.pure]
    · simp only [kt, ex, Except.bind_ok', pure, Except.pure, reduceCtorEq, or_self, if_false, if_true]
      congr 2
      ring

/-- C46.  Only the eight members of the enumeration are accepted; in every Python version a string
(although the documentation asks for one) raises an exception. -/
theorem C46_only (v : PyVersion) (d1 l tf tw nw k : ℝ) (arg : RestraintArg)
    (h : kt v d1 l tf tw nw arg = .ok k) :
    ∃ r, arg = .code r ∧ r ∈ [Restraint.FF, .FP, .FL, .FU, .PP, .PL, .PU, .LL] := by
  cases arg with
  | code r => exact ⟨r, rfl, by cases r <;> simp⟩
  | str s =>
    cases v <;> simp only [kt, reduceCtorEq] at h
    split at h <;> cases h

/-- C46: the exception for a string: `AssertionError` up to Python 3.7, `TypeError` from 3.8 to 3.11; from 3.12 on `ValueError` for one of the eight
documented codes and `AssertionError` for any other. -/
theorem C46_strings (d1 l tf tw nw : ℝ) (s : String) :
    kt .upTo37 d1 l tf tw nw (.str s) = .error .assertionError ∧
    kt .v38to311 d1 l tf tw nw (.str s) = .error .typeError ∧
    (s ∈ ["FF", "FP", "FL", "FU", "PP", "PL", "PU", "LL"] → kt .from312 d1 l tf tw nw (.str s) = .error .valueError) ∧
    (s ∉ ["FF", "FP", "FL", "FU", "PP", "PL", "PU", "LL"] → kt .from312 d1 l tf tw nw (.str s) = .error .assertionError) := by
  refine ⟨rfl, rfl, fun h => ?_, fun h => ?_⟩
  · have h' : s ∈ restraintValues := h
    simp only [kt, if_pos h']
  · have h' : s ∉ restraintValues := h
    simp only [kt, if_neg h']

/-- a plate girder with one partially restrained end -/
example : kt .upTo37 1 10 2 1 1 (.code .FP) = .ok (11 / 10) := by
  simp only [kt, ktExcess, reduceCtorEq, or_self, if_false, or_false, if_true]
  rw [rdiv_ok (by norm_num), Except.bind_ok', rdiv_ok (by norm_num), Except.bind_ok', rdiv_ok (by norm_num)]
  simp only [Except.bind_ok', pure, Except.pure]
  norm_num

/-! ## C47 -/

/-- the closed form of the code -/
noncomputable def moForm (a s d : ℝ) : ℝ := √a * (√(s + d * d * a) + d * √a)

theorem Mo_ok {le Iy J Iw betaX E G : ℝ} (hl : 0 < le) (hIy : 0 < Iy) (hJ : 0 < J) (hIw : 0 ≤ Iw)
    (hE : 0 < E) (hG : 0 < G) :
    Mo le Iy J Iw betaX E G =
      .ok (moForm (piD * piD * E * Iy / (le * le)) (G * J + piD * piD * E * Iw / (le * le)) (betaX / 2)) := by
  have hp : (0 : ℝ) < piD := piD_pos
  have hll : le * le ≠ 0 := (mul_pos hl hl).ne'
  have ha : 0 ≤ piD * piD * E * Iy / (le * le) := by positivity
  have hb : 0 ≤ G * J + piD * piD * E * Iw / (le * le) +
      betaX / 2 * (betaX / 2) * (piD * piD * E * Iy / (le * le)) := by
    have := mul_nonneg (mul_self_nonneg (betaX / 2)) ha
    positivity
  simp only [Mo, rdiv_ok hll, Except.bind_ok', rsqrt_ok ha, rsqrt_ok hb, pure, Except.pure, moForm]

theorem moForm_pos {a s : ℝ} (d : ℝ) (ha : 0 < a) (hs : 0 < s) : 0 < moForm a s d := by
  have h1 : 0 < √a := Real.sqrt_pos.2 ha
  have h2 : |d| * √a < √(s + d * d * a) := by
    apply Real.lt_sqrt_of_sq_lt
    rw [mul_pow, sq_abs, Real.sq_sqrt ha.le]
    nlinarith
  have h3 : -(|d| * √a) ≤ d * √a := by
    rw [← neg_mul]
    exact mul_le_mul_of_nonneg_right (neg_abs_le d) h1.le
  exact mul_pos h1 (by linarith)

theorem moForm_sq {a s : ℝ} (d : ℝ) (ha : 0 < a) (hs : 0 < s) :
    moForm a s d * moForm a s d = a * (s + 2 * d * moForm a s d) := by
  have h1 : √a * √a = a := Real.mul_self_sqrt ha.le
  have h2 : √(s + d * d * a) * √(s + d * d * a) = s + d * d * a := Real.mul_self_sqrt (by
    have := mul_nonneg (mul_self_nonneg d) ha.le
    linarith)
  unfold moForm
  set X := √a
  set Y := √(s + d * d * a)
  rw [← h1] at h2 ⊢
  calc X * (Y + d * X) * (X * (Y + d * X)) = X * X * (Y * Y + 2 * d * (X * Y) + d * d * (X * X)) := by ring
    _ = _ := by rw [h2]; ring

theorem moForm_lt {a s a' s' : ℝ} (d : ℝ) (ha : 0 < a) (hs : 0 < s) (haa : a ≤ a') (hss : s ≤ s')
    (h : a < a' ∨ s < s') : moForm a s d < moForm a' s' d := by
  have ha' := ha.trans_le haa
  have hs' := hs.trans_le hss
  have p := moForm_pos d ha hs
  have p' := moForm_pos d ha' hs'
  have e := moForm_sq d ha hs
  have e' := moForm_sq d ha' hs'
  set M := moForm a s d
  set M' := moForm a' s' d
  by_contra hc
  have hle : M' ≤ M := not_lt.1 hc
  rcases le_total 0 d with hd | hd
  · -- M = a s / M + 2 d a
    have q : M - 2 * d * a = a * s / M := by field_simp; nlinarith
    have q' : M' - 2 * d * a' = a' * s' / M' := by field_simp; nlinarith
    have has : a * s < a' * s' := by
      rcases h with h | h
      · exact mul_lt_mul h hss hs ha'.le
      · exact mul_lt_mul' haa h hs.le ha'
    have h1 : a * s / M < a' * s' / M' := by
      rw [div_lt_div_iff₀ p p']
      calc a * s * M' ≤ a * s * M := by gcongr
        _ < a' * s' * M := by gcongr
    have h2 : 2 * d * a ≤ 2 * d * a' := by gcongr
    linarith
  · have k : 0 < s + 2 * d * M := by
      have : 0 < a * (s + 2 * d * M) := e ▸ mul_pos p p
      exact (mul_pos_iff_of_pos_left ha).1 this
    have k2 : 2 * d * M ≤ 2 * d * M' := by
      have : d * M ≤ d * M' := mul_le_mul_of_nonpos_left hle hd
      linarith
    have : M * M < M' * M' := by
      rw [e, e']
      rcases h with h | h
      · exact mul_lt_mul h (by linarith) k ha'.le
      · exact mul_lt_mul' haa (by linarith) k.le ha'
    nlinarith

/-- C47.  The reference buckling moment is positive, decreases with the effective length and grows with
`I_y`, `J` and `I_w` (here for every monosymmetry constant `β_x`, not only zero). -/
theorem C47_monotone {le Iy J Iw E G : ℝ} (betaX : ℝ) (hl : 0 < le) (hIy : 0 < Iy) (hJ : 0 < J)
    (hIw : 0 ≤ Iw) (hE : 0 < E) (hG : 0 < G) :
    ∃ M, Mo le Iy J Iw betaX E G = .ok M ∧ 0 < M ∧
      (∀ le', le < le' → ∃ M', Mo le' Iy J Iw betaX E G = .ok M' ∧ M' < M) ∧
      (∀ Iy' J' Iw', Iy ≤ Iy' → J ≤ J' → Iw ≤ Iw' → (Iy < Iy' ∨ J < J' ∨ Iw < Iw') →
        ∃ M', Mo le Iy' J' Iw' betaX E G = .ok M' ∧ M < M') := by
  have hp : (0 : ℝ) < piD := piD_pos
  have hs : ∀ {l J Iw : ℝ}, 0 < l → 0 < J → 0 ≤ Iw → 0 < G * J + piD * piD * E * Iw / (l * l) := by
    intro l J Iw h1 h2 h3; positivity
  refine ⟨_, Mo_ok hl hIy hJ hIw hE hG, moForm_pos _ (by positivity) (hs hl hJ hIw), ?_, ?_⟩
  · intro le' h
    have hl' := hl.trans h
    refine ⟨_, Mo_ok hl' hIy hJ hIw hE hG, moForm_lt _ (by positivity) (hs hl' hJ hIw) ?_ ?_ (Or.inl ?_)⟩
    · gcongr
    · gcongr
    · have : le * le < le' * le' := by nlinarith
      apply div_lt_div_of_pos_left (by positivity) (by positivity) this
  · intro Iy' J' Iw' g1 g2 g3 g
    refine ⟨_, Mo_ok hl (hIy.trans_le g1) (hJ.trans_le g2) (hIw.trans g3) hE hG,
      moForm_lt _ (by positivity) (hs hl hJ hIw) (by gcongr) (by gcongr) ?_⟩
    rcases g with g | g | g
    · left
      have : piD * piD * E * Iy < piD * piD * E * Iy' := by gcongr
      gcongr
    · right
      have : piD * piD * E * Iw / (le * le) ≤ piD * piD * E * Iw' / (le * le) := by gcongr
      have : G * J < G * J' := by gcongr
      linarith
    · right
      have : piD * piD * E * Iw / (le * le) < piD * piD * E * Iw' / (le * le) := by gcongr
      have : G * J ≤ G * J' := by gcongr
      linarith

/-- C47.  For `β_x = 0` the value is the formula of S5.6.1.1. -/
theorem C47_symmetric {le Iy J Iw E G : ℝ} (hl : 0 < le) (hIy : 0 < Iy) (hJ : 0 < J)
    (hIw : 0 ≤ Iw) (hE : 0 < E) (hG : 0 < G) :
    Mo le Iy J Iw 0 E G =
      .ok (√(piD ^ 2 * E * Iy / le ^ 2 * (G * J + piD ^ 2 * E * Iw / le ^ 2))) := by
  have hp : (0 : ℝ) < piD := piD_pos
  rw [Mo_ok hl hIy hJ hIw hE hG, Real.sqrt_mul (by positivity)]
  simp only [moForm, zero_div, mul_zero, zero_mul, add_zero, sq]

/-- C47.  In general the moment solves the quadratic of S5.6.1.2:
`M_o² = π²EI_y/l² (GJ + π²EI_w/l² + β_x M_o)`. -/
theorem C47_general {le Iy J Iw E G : ℝ} (betaX : ℝ) (hl : 0 < le) (hIy : 0 < Iy) (hJ : 0 < J)
    (hIw : 0 ≤ Iw) (hE : 0 < E) (hG : 0 < G) :
    ∃ M, Mo le Iy J Iw betaX E G = .ok M ∧
      M ^ 2 = piD ^ 2 * E * Iy / le ^ 2 * (G * J + piD ^ 2 * E * Iw / le ^ 2 + betaX * M) := by
  have hp : (0 : ℝ) < piD := piD_pos
  refine ⟨_, Mo_ok hl hIy hJ hIw hE hG, ?_⟩
  have := moForm_sq (a := piD * piD * E * Iy / (le * le)) (s := G * J + piD * piD * E * Iw / (le * le))
    (betaX / 2) (by positivity) (by positivity)
  rw [sq, this, show 2 * (betaX / 2) = betaX by ring]
  simp only [sq]

/-- the hypotheses are met -/
example : ∃ M, Mo 4 (1 / 100000) (1 / 1000000) 0 (1 / 10) 200000000000 80000000000 = .ok M ∧ 0 < M := by
  obtain ⟨M, h, hp, _⟩ := C47_monotone (le := 4) (Iy := 1 / 100000) (J := 1 / 1000000) (Iw := 0)
    (E := 200000000000) (G := 80000000000) (1 / 10) (by norm_num) (by norm_num) (by norm_num) le_rfl
    (by norm_num) (by norm_num)
  exact ⟨M, h, hp⟩

/-! ## C48 -/

theorem alphaV_ok {dp tw fy lim fref : ℝ} (hd : 0 < dp) (ht : 0 < tw) (hf : 0 < fy) (hr : 0 < fref) :
    alphaV dp tw fy lim fref =
      .ok (if dp / tw > lim / √(fy / fref) then (lim / √(fy / fref) / (dp / tw)) ^ 2 else 1) := by
  have h1 : 0 < fy / fref := by positivity
  have h2 : √(fy / fref) ≠ 0 := (Real.sqrt_pos.2 h1).ne'
  have h3 : dp / tw ≠ 0 := by positivity
  simp only [alphaV, rdiv_ok hr.ne', rsqrt_ok h1.le, rdiv_ok h2, rdiv_ok ht.ne', rdiv_ok h3,
    Except.bind_ok', pure, Except.pure]
  split <;> rfl

/-- C48.  The shear buckling coefficient is in (0, 1] and equals 1 exactly up to the slenderness limit;
beyond it, it is the squared ratio of the limit to the slenderness. -/
theorem C48_range {dp tw fy lim fref : ℝ} (hd : 0 < dp) (ht : 0 < tw) (hf : 0 < fy) (hl : 0 < lim)
    (hr : 0 < fref) :
    ∃ a, alphaV dp tw fy lim fref = .ok a ∧ 0 < a ∧ a ≤ 1 ∧ (a = 1 ↔ dp / tw * √(fy / fref) ≤ lim) ∧
      (lim ≤ dp / tw * √(fy / fref) → a * (dp / tw) ^ 2 * (fy / fref) = lim ^ 2) := by
  refine ⟨_, alphaV_ok hd ht hf hr, ?_⟩
  have h1 : 0 < fy / fref := by positivity
  have h2 : 0 < √(fy / fref) := Real.sqrt_pos.2 h1
  have hsq : √(fy / fref) ^ 2 = fy / fref := Real.sq_sqrt h1.le
  have hs : 0 < dp / tw := by positivity
  set r := √(fy / fref)
  set s := dp / tw
  split
  · rename_i hgt
    have hlt : lim < s * r := (div_lt_iff₀ h2).1 hgt
    have hlt1 : lim / r / s < 1 := by rw [div_lt_one hs]; exact hgt
    have hpos : 0 < lim / r / s := by positivity
    have hlt2 : (lim / r / s) ^ 2 < 1 := by nlinarith
    refine ⟨by positivity, hlt2.le, ⟨fun e => absurd e hlt2.ne, fun e => absurd e (not_le.2 hlt)⟩, fun _ => ?_⟩
    rw [← hsq]; field_simp
  · rename_i hgt
    have hle : s * r ≤ lim := (le_div_iff₀ h2).1 (not_lt.1 hgt)
    refine ⟨one_pos, le_rfl, ⟨fun _ => hle, fun _ => rfl⟩, fun h => ?_⟩
    have : lim = s * r := le_antisymm h hle
    rw [this, ← hsq]; ring

/-- C48.  The shear buckling coefficient does not increase with the web depth (or with the yield
strength, or as the web gets thinner), and strictly decreases with depth beyond the limit. -/
theorem C48_monotone {dp tw fy dp' tw' fy' lim fref : ℝ} (hd : 0 < dp) (ht : 0 < tw') (hf : 0 < fy)
    (hl : 0 < lim) (hr : 0 < fref) (gd : dp ≤ dp') (gt : tw' ≤ tw) (gf : fy ≤ fy') :
    ∃ a a', alphaV dp tw fy lim fref = .ok a ∧ alphaV dp' tw' fy' lim fref = .ok a' ∧ a' ≤ a ∧
      (dp < dp' → a < 1 → a' < a) := by
  have ht' := ht.trans_le gt
  have hd' := hd.trans_le gd
  have hf' := hf.trans_le gf
  obtain ⟨a, e, p, le1, iff1, val⟩ := C48_range hd ht' hf hl hr
  obtain ⟨a', e', p', le1', iff1', val'⟩ := C48_range hd' ht hf' hl hr
  refine ⟨a, a', e, e', ?_⟩
  have hs0 : 0 < dp / tw := by positivity
  have hs : dp / tw ≤ dp' / tw' := by gcongr
  have hss : dp < dp' → dp / tw < dp' / tw' := fun h =>
    div_lt_div₀ h gt hd'.le ht
  have hq0 : 0 < fy / fref := by positivity
  have hq : fy / fref ≤ fy' / fref := by gcongr
  have hr0 : 0 < √(fy / fref) := Real.sqrt_pos.2 hq0
  have hrr : √(fy / fref) ≤ √(fy' / fref) := Real.sqrt_le_sqrt hq
  have hprod : dp / tw * √(fy / fref) ≤ dp' / tw' * √(fy' / fref) := by gcongr
  rcases lt_or_ge (dp / tw * √(fy / fref)) lim with hlt | hge
  · have ha : a = 1 := iff1.2 hlt.le
    rw [ha]
    exact ⟨le1', fun _ h => absurd h (lt_irrefl _)⟩
  · have v := val hge
    have v' := val' (hge.trans hprod)
    have hA : 0 < (dp / tw) ^ 2 * (fy / fref) := by positivity
    have hsq : (dp / tw) ^ 2 ≤ (dp' / tw') ^ 2 := by gcongr
    have hle : (dp / tw) ^ 2 * (fy / fref) ≤ (dp' / tw') ^ 2 * (fy' / fref) := by gcongr
    have k : a' * ((dp' / tw') ^ 2 * (fy' / fref)) = a * ((dp / tw) ^ 2 * (fy / fref)) := by
      rw [← mul_assoc, ← mul_assoc, v, v']
    constructor
    · by_contra hc
      have := mul_lt_mul (not_le.1 hc) hle hA p'.le
      exact absurd k this.ne'
    · intro h _
      have h2 : (dp / tw) ^ 2 < (dp' / tw') ^ 2 := by
        have := hss h
        gcongr
      have hlt : (dp / tw) ^ 2 * (fy / fref) < (dp' / tw') ^ 2 * (fy' / fref) := by
        exact mul_lt_mul h2 hq hq0 (by positivity)
      by_contra hc
      have := mul_lt_mul' (not_lt.1 hc) hlt hA.le p'
      exact absurd k this.ne'

/-- C48.  The non-uniform shear factor is in (0, 1] for positive stresses; it is 1 exactly when the
maximum stress is at most 1.1 times the average. -/
theorem C48_alpha_vma {fvm fva : ℝ} (hm : 0 < fvm) (ha : 0 < fva) :
    ∃ a, alphaVma fvm fva = .ok a ∧ 0 < a ∧ a ≤ 1 ∧ (a = 1 ↔ fvm ≤ 11 / 10 * fva) := by
  have hq : 0 < fvm / fva := by positivity
  have hden : (0 : ℝ) < 9 / 10 + fvm / fva := by positivity
  refine ⟨min (2 / (9 / 10 + fvm / fva)) 1, ?_, lt_min (by positivity) one_pos, min_le_right _ _, ?_⟩
  · simp only [alphaVma, rdiv_ok ha.ne', Except.bind_ok', rdiv_ok hden.ne', pure, Except.pure]
  · rw [min_eq_right_iff, one_le_div hden, ← le_sub_iff_add_le', div_le_iff₀ ha]
    norm_num

/-- a slender and a stocky web -/
example : ∃ a b, alphaV 2 (1 / 100) 250000000 82 250000000 = .ok a ∧ a < 1 ∧
    alphaV (1 / 2) (1 / 100) 250000000 82 250000000 = .ok b ∧ b = 1 := by
  obtain ⟨a, e, _, le1, iff1, _⟩ := C48_range (dp := 2) (tw := 1 / 100) (fy := 250000000) (lim := 82)
    (fref := 250000000) (by norm_num) (by norm_num) (by norm_num) (by norm_num) (by norm_num)
  obtain ⟨b, e', _, _, iff2, _⟩ := C48_range (dp := 1 / 2) (tw := 1 / 100) (fy := 250000000) (lim := 82)
    (fref := 250000000) (by norm_num) (by norm_num) (by norm_num) (by norm_num) (by norm_num)
  refine ⟨a, b, e, lt_of_le_of_ne le1 (fun h => ?_), e', iff2.2 ?_⟩
  · have := iff1.1 h
    rw [div_self (by norm_num), Real.sqrt_one] at this
    norm_num at this
  · rw [div_self (by norm_num), Real.sqrt_one]
    norm_num

/-! ## C49 -/

section weld
variable {K : Type} [Field K] [LinearOrder K] [IsStrictOrderedRing K]

/-- C49.  A list of welds gives the same capacity as the single float that is their sum, whatever the
order of the list, and that capacity is the total strength times `I / Q`. -/
theorem C49_weld {rt : Rt K} (hx : rt.Exact) (vs : List K) (Q I : K) :
    VwWeld rt (.list vs) Q I = VwWeld rt (.scalar (.flt vs.sum)) Q I ∧
    (∀ ws, ws.Perm vs → VwWeld rt (.list ws) Q I = VwWeld rt (.list vs) Q I) ∧
    (Q ≠ 0 → VwWeld rt (.list vs) Q I = .ok (vs.sum * I / Q)) ∧
    (Q = 0 → VwWeld rt (.list vs) Q I = .error .zeroDivision) := by
  have hadd : rt.add = (· + ·) := by funext a b; exact hx.add a b
  have fold : ∀ (ws : List K) (a : K), ws.foldl (· + ·) a = a + ws.sum := by
    intro ws
    induction ws with
    | nil => simp
    | cons w ws ih => intro a; rw [List.foldl_cons, ih, List.sum_cons, add_assoc]
  have key : ∀ ws : List K, VwWeld rt (.list ws) Q I = pyDiv rt (ws.sum * I) Q := by
    intro ws
    simp only [VwWeld, hadd, fold, zero_add, hx.mul]
  refine ⟨?_, ?_, ?_, ?_⟩
  · rw [key]
    simp [VwWeld, hx.add, hx.mul]
  · intro ws h
    rw [key, key, h.sum_eq]
  · intro hQ
    rw [key, pyDiv_ok hx hQ]
  · rintro rfl
    rw [key]; simp [pyDiv]

/-- C49 with rounding: a list gives the same capacity as the single float that Python's `sum` of the list
is, in any arithmetic where adding zero changes nothing. -/
theorem C49_weld_rounded {rt : Rt K} (h0 : ∀ x, rt.add 0 x = x) (vs : List K) (Q I : K) :
    VwWeld rt (.list vs) Q I = VwWeld rt (.scalar (.flt (vs.foldl rt.add 0))) Q I := by
  simp [VwWeld, h0]

/-- An `int` weld strength is not accepted as a scalar. -/
theorem C49_int_scalar (rt : Rt K) (v Q I : K) :
    VwWeld rt (.scalar (.int v)) Q I = .error .typeError := by
  simp [VwWeld]

end weld

/-- two welds -/
example : VwWeld (Rt.exact ℚ) (.list [3, 5]) 2 10 = .ok 40 ∧
    VwWeld (Rt.exact ℚ) (.scalar (.flt 8)) 2 10 = .ok 40 := by
  constructor <;> decide +kernel

end BeamDesign
