import Verif.Lemmas.BendingRound

/-!
# C102: the bending capacity in floating point
-/

namespace BeamDesign

open Spec

/-- with exact arithmetic the formulas operation by operation are the formulas of `Model/S5` -/
theorem C102_exact (v : S5.PyVersion) :
    (∀ fy Ze : ℝ, S5R.Ms .exact fy Ze = S5.Ms fy Ze) ∧
    (∀ le Iy J Iw betaX E G : ℝ, S5R.Mo .exact le Iy J Iw betaX E G = S5.Mo le Iy J Iw betaX E G) ∧
    (∀ Mmax M2 M3 M4 cap : ℝ, S5R.alphaM .exact Mmax M2 M3 M4 cap = S5.alphaM Mmax M2 M3 M4 cap) ∧
    (∀ Ms Mo : ℝ, S5R.alphaS .exact Ms Mo = S5.alphaS Ms Mo) ∧
    (∀ (d1 l tf tw nw : ℝ) (r : S5.Restraint), S5R.kt .exact d1 l tf tw nw r = S5.kt v d1 l tf tw nw (.code r)) ∧
    (∀ kt kl kr l : ℝ, S5R.le .exact kt kl kr l = S5.le kt kl kr l) ∧
    (∀ Ms am as : ℝ, S5R.Mb .exact Ms am as = S5.Mb Ms am as) ∧
    (∀ dp tw fy lim fref : ℝ, S5ShearR.alphaV .exact dp tw fy lim fref = S5Shear.alphaV dp tw fy lim fref) ∧
    (∀ Aw fy ratio : ℝ, S5ShearR.VwGeneric .exact Aw fy ratio = S5Shear.VwGeneric Aw fy ratio) := by
  have hq : ∀ a b, Arith.exact.quot a b = rdiv a b := fun _ _ => rfl
  have hr : ∀ a, Arith.exact.root a = rsqrt a := fun _ => rfl
  refine ⟨fun _ _ => rfl, fun _ _ _ _ _ _ _ => rfl, ?_, ?_, ?_, fun _ _ _ _ => rfl, fun _ _ _ => rfl, fun _ _ _ _ _ => rfl,
    fun _ _ _ => rfl⟩
  · intro Mmax M2 M3 M4 cap
    simp only [S5R.alphaM, S5.alphaM, hq, hr]
    simp only [Arith.exact, abs_eq_max_neg]
    norm_num
  · intro Ms Mo
    simp only [S5R.alphaS, S5.alphaS, hq, hr]
    simp only [Arith.exact]
    norm_num
  · intro d1 l tf tw nw r
    have e : ∀ f x, Arith.exact.mul f x = f * x := fun _ _ => rfl
    have e1 : ∀ x, Arith.exact.cube x = x ^ 3 := fun _ => rfl
    have e2 : ∀ f x, Arith.exact.add f x = f + x := fun _ _ => rfl
    cases r <;> simp only [S5R.kt, S5R.ktRest, S5.kt, S5.ktExcess, hq, reduceCtorEq, or_self, or_false, false_or, if_true, if_false, e, e1, e2, one_mul]
    all_goals
      cases rdiv d1 l <;> simp only [Except.bind_ok', Except.bind_error']
      cases rdiv tf (2 * tw) <;> simp only [Except.bind_ok', Except.bind_error']

/-- the error of rounding to 53 digits -/
theorem fl53_error (x : ℝ) : |fl53 x - x| ≤ 2 ^ (-53 : ℤ) * |x| := by
  have hr : ∀ q : ℝ, |(roundEvenR q : ℝ) - q| ≤ 1 / 2 := by
    intro q
    have h1 := Int.floor_le q
    have h2 := Int.lt_floor_add_one q
    rw [abs_le]
    unfold roundEvenR
    split_ifs <;> push_cast <;> constructor <;> linarith
  rcases eq_or_ne x 0 with h | h
  · subst h
    simp [fl53, roundEvenR]
  · have hp := abs_pos.2 h
    have hlog := Int.zpow_log_le_self (b := 2) (by norm_num) hp
    push_cast at hlog
    set e := Int.log 2 |x| - 52 with he
    have p2 : (0 : ℝ) < 2 ^ e := by positivity
    have : fl53 x - x = ((roundEvenR (x / 2 ^ e) : ℝ) - x / 2 ^ e) * 2 ^ e := by
      unfold fl53
      rw [sub_mul, div_mul_cancel₀ _ p2.ne']
    rw [this, abs_mul, abs_of_pos p2]
    calc |(roundEvenR (x / 2 ^ e) : ℝ) - x / 2 ^ e| * 2 ^ e ≤ 1 / 2 * 2 ^ e := by gcongr; exact hr _
      _ = 2 ^ (-53 : ℤ) * 2 ^ Int.log 2 |x| := by
        rw [he, ← zpow_add₀ (by norm_num : (2 : ℝ) ≠ 0), show (1 / 2 : ℝ) = 2 ^ (-1 : ℤ) by norm_num,
          ← zpow_add₀ (by norm_num : (2 : ℝ) ≠ 0)]
        congr 1
        ring
      _ ≤ _ := by gcongr

/-- double precision without overflow and underflow meets the assumptions -/
theorem C102_double : Rounded Arith.double (2 ^ (-53 : ℤ)) where
  add _ _ := fl53_error _
  sub _ _ := fl53_error _
  mul _ _ := fl53_error _
  div _ _ := fl53_error _
  sqrt a _ := by have := fl53_error (√a); rwa [abs_of_nonneg (Real.sqrt_nonneg a)] at this
  sq a := by have := fl53_error (a ^ 2); rwa [abs_of_nonneg (sq_nonneg a)] at this
  cube _ := fl53_error _
  lit _ := fl53_error _

/-- C102, partial: in every arithmetic with relative errors of at most `u`, the bending capacity a caller gets by chaining the
functions has a relative error of at most `7000 u (1 + 2κ) (1 + (M_s/M_o)²)`, as long as that is not above 1.  `κ` bounds the
monosymmetry term against the torsion terms when `β_x` is negative; otherwise it can be 0. -/
theorem C102_bending_partial (v : S5.PyVersion) {A : Arith ℝ} {u : ℝ} (hA : Rounded A u) {s : Segment} (hs : s.Positive)
    {k Mo a M κ : ℝ} (hk : S5.kt v s.d1 s.l s.tf s.tw s.nw (.code s.code) = .ok k)
    (hMo : S5.Mo (S5.le k s.kl s.kr s.l) s.Iy s.J s.Iw s.betaX s.E s.G = .ok Mo)
    (ha : S5.alphaS (S5.Ms s.fy s.Ze) Mo = .ok a) (hM : M = S5.Mb (S5.Ms s.fy s.Ze) s.alphaM a) (hκ : 0 ≤ κ)
    (hb : s.betaX < 0 → (s.betaX / 2) ^ 2 * (piD * piD * s.E * s.Iy / (S5.le k s.kl s.kr s.l * S5.le k s.kl s.kr s.l)) ≤
      κ * (s.G * s.J + piD * piD * s.E * s.Iw / (S5.le k s.kl s.kr s.l * S5.le k s.kl s.kr s.l)))
    (hu : 7000 * u * (1 + 2 * κ) * (1 + (S5.Ms s.fy s.Ze / Mo) ^ 2) ≤ 1) :
    ∃ M', s.Computed A M' ∧ 0 < M ∧ |M' - M| ≤ 7000 * u * (1 + 2 * κ) * (1 + (S5.Ms s.fy s.Ze / Mo) ^ 2) * M := by
  have h0 := hA.nonneg
  have rr := fun y => Acc.refl le_rfl y
  set q := 1 + (S5.Ms s.fy s.Ze / Mo) ^ 2 with hq
  have q1 : 1 ≤ q := by rw [hq]; nlinarith [sq_nonneg (S5.Ms s.fy s.Ze / Mo)]
  have q0 : 0 ≤ q := by linarith
  set w := u * (1 + 2 * κ) with hw
  have w0 : 0 ≤ w := by positivity
  have wu : u ≤ w := by rw [hw]; nlinarith [mul_nonneg h0 hκ]
  have hu' : 7000 * (w * q) ≤ 1 := by rw [hw]; linarith
  have wq : w ≤ w * q := by nlinarith
  have h1 : u ≤ 1 / 2 := by linarith
  obtain ⟨k', ek, ak, pk⟩ := kt_acc v hA h1 hs.d1 hs.l hs.tf hs.tw hs.nw hk
  have hL := hA.accMul h1 (hA.accMul h1 (hA.accMul h1 ak (rr s.kl)) (rr s.kr)) (rr s.l)
  have pL : 0 < S5.le k s.kl s.kr s.l := by
    have := hs.kl; have := hs.kr; have := hs.l
    unfold S5.le; positivity
  obtain ⟨Mo', eo, ao, po⟩ := Mo_acc hA (L' := S5R.le A k' s.kl s.kr s.l) pL (hL.mono (by linarith)) hs.Iy hs.J hs.Iw hs.E hs.G hκ hb
    (by rw [mul_assoc, ← hw]; linarith) hMo
  rw [mul_assoc, ← hw] at ao
  have pS : 0 < S5.Ms s.fy s.Ze := mul_pos hs.fy hs.Ze
  have aS : Acc (2 * u) (S5R.Ms A s.fy s.Ze) (S5.Ms s.fy s.Ze) := (hA.accMul h1 (rr s.fy) (rr s.Ze)).mono (by linarith)
  have uq : u * q ≤ w * q := mul_le_mul_of_nonneg_right wu q0
  obtain ⟨a', ea, aa, pa⟩ := alphaS_acc hA pS po aS ao (by linarith) (by rw [← hq]; linarith) ha
  rw [← hq] at aa
  have am := hs.alphaM
  have aM := hA.accMul h1 (hA.accMul h1 (rr s.alphaM) aa) aS
  refine ⟨S5R.Mb A (S5R.Ms A s.fy s.Ze) s.alphaM a', ⟨k', Mo', a', ek, eo, ea, rfl⟩, ?_, ?_⟩
  · rw [hM]; unfold S5.Mb; positivity
  · have pM : 0 < M := by rw [hM]; unfold S5.Mb; positivity
    have hfin : Acc (3500 * (w * q)) (S5R.Mb A (S5R.Ms A s.fy s.Ze) s.alphaM a') M := by
      rw [hM]
      exact aM.mono (by linarith)
    have := hfin.rel (by positivity) (by linarith)
    rw [abs_of_pos pM] at this
    refine this.trans (le_of_eq ?_)
    rw [hw]; ring

/-- C102, partial: with double precision and `β_x ≥ 0`, sections up to `M_s = 10 M_o` have capacities with a relative error below
`10^-10`. -/
theorem C102_usual_partial (v : S5.PyVersion) {s : Segment} (hs : s.Positive) {k Mo a M : ℝ}
    (hk : S5.kt v s.d1 s.l s.tf s.tw s.nw (.code s.code) = .ok k)
    (hMo : S5.Mo (S5.le k s.kl s.kr s.l) s.Iy s.J s.Iw s.betaX s.E s.G = .ok Mo)
    (ha : S5.alphaS (S5.Ms s.fy s.Ze) Mo = .ok a) (hM : M = S5.Mb (S5.Ms s.fy s.Ze) s.alphaM a) (hb : 0 ≤ s.betaX)
    (hx : S5.Ms s.fy s.Ze ≤ 10 * Mo) :
    ∃ M', s.Computed Arith.double M' ∧ |M' - M| ≤ 1 / 10 ^ 10 * M := by
  have pS : 0 < S5.Ms s.fy s.Ze := mul_pos hs.fy hs.Ze
  have pMo : 0 < Mo := by linarith
  have hq : (S5.Ms s.fy s.Ze / Mo) ^ 2 ≤ 100 := by
    have h1 : S5.Ms s.fy s.Ze / Mo ≤ 10 := by rwa [div_le_iff₀ pMo]
    have h2 : 0 ≤ S5.Ms s.fy s.Ze / Mo := by positivity
    nlinarith
  have hc : (7000 : ℝ) * 2 ^ (-53 : ℤ) * (1 + 2 * 0) * 101 ≤ 1 / 10 ^ 10 := by norm_num
  have hb' : (7000 : ℝ) * 2 ^ (-53 : ℤ) * (1 + 2 * 0) * (1 + (S5.Ms s.fy s.Ze / Mo) ^ 2) ≤
      7000 * 2 ^ (-53 : ℤ) * (1 + 2 * 0) * 101 := by
    apply mul_le_mul_of_nonneg_left _ (by positivity)
    linarith
  obtain ⟨M', h1, h2, h3⟩ := C102_bending_partial v C102_double hs hk hMo ha hM le_rfl (fun h => absurd hb (not_le.2 h))
    (hb'.trans (hc.trans (by norm_num)))
  exact ⟨M', h1, h3.trans (mul_le_mul_of_nonneg_right (hb'.trans hc) h2.le)⟩

/-- the sample segment of C88 with full restraint at both ends meets the hypotheses -/
example : ∃ M', ({ sampleSegment with code := .FF } : Segment).Computed Arith.double M' := by
  have hs : ({ sampleSegment with code := .FF } : Segment).Positive := { sampleSegment_pos with }
  have hMo := Mo_ok (le := 4) (Iy := 255/100000000) (J := 67/1000000000) (Iw := 36/1000000000) (betaX := 0) (E := 200000000000)
    (G := 80000000000) (by norm_num) (by norm_num) (by norm_num) (by norm_num) (by norm_num) (by norm_num)
  have hpi : (9 : ℝ) ≤ piD * piD := by norm_num [piD]
  have hbig : (10500 : ℝ) ≤ moForm (piD * piD * 200000000000 * (255/100000000) / (4 * 4))
      (80000000000 * (67/1000000000) + piD * piD * 200000000000 * (36/1000000000) / (4 * 4)) (0 / 2) := by
    have e1 : (500 : ℝ) ≤ √(piD * piD * 200000000000 * (255/100000000) / (4 * 4)) := Real.le_sqrt_of_sq_le (by linarith)
    have e2 : (60 : ℝ) ≤ √(80000000000 * (67/1000000000) + piD * piD * 200000000000 * (36/1000000000) / (4 * 4) +
        0 / 2 * (0 / 2) * (piD * piD * 200000000000 * (255/100000000) / (4 * 4))) := Real.le_sqrt_of_sq_le (by linarith)
    unfold moForm
    nlinarith
  have e0 : S5.le 1 1 1 4 = 4 := by norm_num [S5.le]
  obtain ⟨M', h, _⟩ := C102_usual_partial .from312 hs (k := 1) rfl (by simp only [sampleSegment]; rw [e0]; exact hMo)
    (alphaS_ok (by linarith)) rfl (by norm_num [sampleSegment]) (by
      have : S5.Ms sampleSegment.fy sampleSegment.Ze = 105000 := by norm_num [S5.Ms, sampleSegment]
      simp only
      rw [this]; linarith)
  exact ⟨M', h⟩

/-- C102: the moment modification factor has a relative error of at most `40 u` for all moments. -/
theorem C102_alphaM {A : Arith ℝ} {u : ℝ} (hA : Rounded A u) (hu : 20 * u ≤ 1) {Mmax M2 M3 M4 cap a : ℝ} (hm : Mmax ≠ 0)
    (hc : 0 < cap) (h : S5.alphaM Mmax M2 M3 M4 cap = .ok a) :
    ∃ a', S5R.alphaM A Mmax M2 M3 M4 cap = .ok a' ∧ |a' - a| ≤ 40 * u * a := by
  have h0 := hA.nonneg
  have h1 : u ≤ 1 / 2 := by linarith
  have rr := fun y => Acc.refl le_rfl y
  have hne : ¬ (M2 = 0 ∧ M3 = 0 ∧ M4 = 0) := by
    rintro ⟨rfl, rfl, rfl⟩
    simp only [S5.alphaM, mul_zero, add_zero, rsqrt_ok le_rfl, Real.sqrt_zero, Except.bind_ok', rdiv_zero, Except.bind_error'] at h
    cases h
  have ps : 0 < M2 * M2 + M3 * M3 + M4 * M4 :=
    lt_of_le_of_ne (sumsq_nonneg M2 M3 M4) (fun e => hne (sumsq_zero.1 e.symm))
  have s2 := hA.accAdd h1 (mul_self_nonneg M2) (mul_self_nonneg M3) (hA.accMul h1 (rr M2) (rr M2)) (hA.accMul h1 (rr M3) (rr M3))
  have s3 := hA.accAdd h1 (add_nonneg (mul_self_nonneg M2) (mul_self_nonneg M3)) (mul_self_nonneg M4) s2
    ((hA.accMul h1 (rr M4) (rr M4)).mono (t' := 2 * u + (2 * u + (0 + 0))) (by linarith))
  have r := hA.accSqrt h1 ps.le s3
  have pr := Real.sqrt_pos.2 ps
  have pm := abs_pos.2 hm
  have n := hA.accMul h1 (hA.accLit h1 (17 / 10)) (rr |Mmax|)
  have e17 : ((17 / 10 : ℚ) : ℝ) = 17 / 10 := by norm_num
  rw [e17] at n
  have q := hA.accDiv h1 n r
  rw [alphaM_ok hne] at h
  injection h with h
  refine ⟨min (A.div (A.mul (A.lit (17 / 10)) |Mmax|) (A.sqrt (A.add (A.add (A.mul M2 M2) (A.mul M3 M3)) (A.mul M4 M4)))) cap, ?_, ?_⟩
  · simp only [S5R.alphaM, Arith.root_ok _ (s3.nonneg ps.le), Except.bind_ok', Arith.quot_ok _ (r.ne_zero pr.ne'), abs_eq_max_neg]
    rfl
  · have fin := Acc.min (by positivity) hc q (Acc.refl (t := 2 * u + (2 * u + (2 * u + 0) + (2 * u + (2 * u + (2 * u + (2 * u + (0 + 0)))) / 2)))
      (by linarith) cap)
    rw [h] at fin
    have pa : 0 < a := by rw [← h]; exact lt_min (by positivity) hc
    have := (fin.mono (t' := 20 * u) (by linarith)).rel (by linarith) (by linarith)
    rw [abs_of_pos pa] at this
    exact this.trans (by linarith)

/-- C102 is false without a bound on the slenderness or with a large negative `β_x`: in double precision the slenderness factor of a
section with `M_s = 2^27 M_o` is 0, though the formula gives a positive number; and the buckling moment of a section with `β_x = -2 m`
and hardly any torsional stiffness is 0, so that its slenderness factor raises `ZeroDivisionError`. -/
theorem C102_counterexample :
    (S5R.alphaS Arith.binary64 (2 ^ 27) 1 = .ok 0 ∧ ∃ a, S5.alphaS (2 ^ 27) 1 = .ok a ∧ 0 < a) ∧
    (S5R.Mo Arith.binary64 1 1 (2 ^ (-60 : ℤ)) 0 (-2) 200000000000 80000000000 = .ok 0 ∧
      S5R.alphaS Arith.binary64 1 0 = .error .zeroDivision ∧
      ∃ m, S5.Mo 1 1 (2 ^ (-60 : ℤ)) 0 (-2) 200000000000 80000000000 = .ok m ∧ 0 < m) := by
  refine ⟨⟨by decide +kernel, ?_⟩, by decide +kernel, by decide +kernel, ?_⟩
  · obtain ⟨a, h, h1, _⟩ := C44_bounds (Ms := 2 ^ 27) (Mo := 1) (by norm_num) (by norm_num)
    exact ⟨a, h, h1⟩
  · have := Mo_ok (le := 1) (Iy := 1) (J := 2 ^ (-60 : ℤ)) (Iw := 0) (betaX := -2) (E := 200000000000) (G := 80000000000)
      (by norm_num) (by norm_num) (by norm_num) (by norm_num) (by norm_num) (by norm_num)
    exact ⟨_, this, moForm_pos _ (by have := piD_pos; positivity) (by have := piD_pos; positivity)⟩

/-- moments of a uniformly loaded span: 1.7·1/√(0.75² + 1 + 0.75²) -/
example : ∃ a, S5.alphaM 1 (3 / 4) 1 (3 / 4) (5 / 2) = .ok a := ⟨_, alphaM_ok (by norm_num)⟩

end BeamDesign
