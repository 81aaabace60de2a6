import Verif.Lemmas.TorsionRound
import Mathlib.Analysis.SpecialFunctions.Pow.Real

/-!
# Relative errors of the flexural-torsional stress and of the column curve
-/

namespace BeamDesign

open Spec

variable {A : Arith ℝ} {u : ℝ}

/-- the shape of the values of `f_oxz` -/
theorem foxz_shape {An lex lez rx ry xo yo J Iw E G : ℝ} (hr : 0 < rx) {f : S6.Foxz}
    (h : S6.foxz An lex lez rx ry xo yo J Iw E G = .ok f) :
    f.beta = 1 - (xo / √(roSq rx ry xo yo)) ^ 2 ∧ S6.fEuler E lex rx = .ok f.fox ∧
      S6.fEulerTorsion An lez rx ry xo yo J Iw E G = .ok f.foz ∧
      f.foxz = 1 / (2 * f.beta) * (f.fox + f.foz - √(Foxz.disc f)) := by
  have hp := roSq_pos ry xo yo hr
  have hs : √(roSq rx ry xo yo) ≠ 0 := (Real.sqrt_pos.2 hp).ne'
  obtain ⟨hb0, hb1⟩ := beta_range ry xo yo hr
  have hb2 : 2 * (1 - (xo / √(roSq rx ry xo yo)) ^ 2) ≠ 0 := by positivity
  simp only [S6.foxz, rol_ok ry xo yo hr, Except.bind_ok', rdiv_ok hs] at h
  cases e3 : S6.fEuler E lex rx with
  | error e => rw [e3] at h; cases h
  | ok fox =>
  rw [e3, Except.bind_ok'] at h
  cases e4 : S6.fEulerTorsion An lez rx ry xo yo J Iw E G with
  | error e => rw [e4] at h; cases h
  | ok foz =>
  rw [e4, Except.bind_ok', rdiv_ok hb2, Except.bind_ok'] at h
  unfold rsqrt at h
  split_ifs at h with hn
  · cases h
  · injection h with h
    subst h
    exact ⟨rfl, rfl, rfl, rfl⟩

/-- the lengths may be rounded already: with errors `s`, the result is as with exact lengths and errors `u` of one operation -/
theorem foxz_acc {u0 s : ℝ} (hA0 : Rounded A u0) (huw : u0 ≤ u) (hs0 : 0 ≤ s) (hsw : 38 * u0 + 2 * s ≤ 38 * u)
    {An lex lez lex' lez' rx ry xo yo J Iw E G : ℝ} (hAn : 0 < An) (hlx : 0 < lex) (hlz : 0 < lez) (alx : Acc s lex' lex)
    (alz : Acc s lez' lez) (hr : 0 < rx) (hJ : 0 < J) (hIw : 0 ≤ Iw) (hE : 0 < E) (hG : 0 < G) {f : S6.Foxz}
    (h : S6.foxz An lex lez rx ry xo yo J Iw E G = .ok f) (hD : 0 < Foxz.disc f) (hu : 1100 * u * Foxz.cond f ≤ 1) :
    ∃ x z, S6R.foxz A An lex' lez' rx ry xo yo J Iw E G = .ok (.real x) ∧ Acc (515 * u * Foxz.cond f) x f.foxz ∧ 0 < f.foxz ∧
      S6R.fEulerTorsion A An lez' rx ry xo yo J Iw E G = .ok z ∧ Acc (38 * u) z f.foz ∧ 0 < f.foz ∧ 4 ≤ Foxz.cond f := by
  have hA := hA0.mono huw
  have h0 := hA.nonneg
  have h00 := hA0.nonneg
  have rr := fun y => Acc.refl le_rfl y
  obtain ⟨eb, ex, ez, ef⟩ := foxz_shape hr h
  have hp := roSq_pos ry xo yo hr
  have hs := Real.sqrt_pos.2 hp
  obtain ⟨hb0, hb1⟩ := beta_range ry xo yo hr
  rw [← eb] at hb0 hb1
  -- positive stresses
  have px : 0 < f.fox := by
    rw [fEuler_ok hr.ne' hlx.ne'] at ex
    injection ex with ex
    have : (0 : ℝ) < piD := piD_pos
    rw [← ex]; positivity
  have pz : 0 < f.foz := by
    have := fEulerTorsion_pos (ry := ry) (xo := xo) (yo := yo) hAn hlz hr hJ hG hE hIw
    rw [fEulerTorsion_ok hAn hlz hr hJ hG] at ez
    injection ez with ez
    rwa [ez] at this
  have k4 : 4 ≤ Foxz.cond f := by
    have hS : 4 * (f.fox * f.foz) ≤ (f.fox + f.foz) ^ 2 := by nlinarith [sq_nonneg (f.fox - f.foz)]
    have hP : 0 < f.fox * f.foz := by positivity
    have hDS : Foxz.disc f ≤ (f.fox + f.foz) ^ 2 := by
      unfold Foxz.disc
      have : 0 < 4 * f.beta * f.fox * f.foz := by positivity
      linarith
    unfold Foxz.cond
    rw [le_div_iff₀ (by positivity), show (f.fox + f.foz) ^ 4 = (f.fox + f.foz) ^ 2 * (f.fox + f.foz) ^ 2 by ring]
    have h1 := mul_le_mul hS hDS hD.le (sq_nonneg (f.fox + f.foz))
    have h2 := mul_le_mul_of_nonneg_right hb1 (show 0 ≤ 4 * (f.fox * f.foz) * Foxz.disc f by positivity)
    linarith
  have hu4 : 4400 * u ≤ 1 := by
    have := mul_le_mul_of_nonneg_left k4 (show 0 ≤ 1100 * u by positivity)
    linarith
  have h1 : u ≤ 1 / 2 := by linarith
  obtain ⟨x1, e1, a1, -⟩ := fEuler_acc hA0 (by linarith) hE hlx hr alx ex
  obtain ⟨x2, e2, a2, -⟩ := fEulerTorsion_acc hA0 (by linarith) hAn hlz hs0 alz hr hJ hIw hE hG ez
  replace a2 := a2.mono hsw
  obtain ⟨ro, er, ar⟩ := rol_acc hA h1 ry xo yo hr
  have aq := hA.accDiv h1 (rr xo) ar
  have aqq := (hA.accSq h1 aq).mono (t' := 18 * u) (by linarith)
  -- the error of β
  have q1 : (xo / √(roSq rx ry xo yo)) ^ 2 ≤ 1 := by linarith
  have q0 := sq_nonneg (xo / √(roSq rx ry xo yo))
  have eq := aqq.rel (by linarith) (by linarith)
  rw [abs_of_nonneg q0] at eq
  set Q := (xo / √(roSq rx ry xo yo)) ^ 2 with hQ
  set Q' := A.sq (A.div xo ro) with hQ'
  have eq' : |Q' - Q| ≤ 36 * u := by
    have := mul_le_mul_of_nonneg_left q1 (show 0 ≤ 2 * (18 * u) by positivity)
    linarith
  have ebb : |A.sub 1 Q' - f.beta| ≤ 38 * u := by
    have r := hA.sub 1 Q'
    have : |1 - Q'| ≤ 2 := by
      rw [abs_le] at eq' ⊢
      constructor <;> linarith [eq'.1, eq'.2]
    have r2 := mul_le_mul_of_nonneg_left this h0
    have t := abs_sub_le (A.sub 1 Q') (1 - Q') f.beta
    have : |1 - Q' - f.beta| = |Q' - Q| := by rw [eb, show 1 - Q' - (1 - Q) = -(Q' - Q) by ring, abs_neg]
    rw [this] at t
    linarith
  obtain ⟨x, e, a, p⟩ := solve_acc hA px pz hb0 hb1 (a1.mono (by linarith)) a2 ebb (D := Foxz.disc f) (κ := Foxz.cond f) rfl hD rfl hu
  rw [← ef] at a p
  refine ⟨x, x2, ?_, a, p, e2, a2, pz, k4⟩
  simp only [S6R.foxz, er, Except.bind_ok', Arith.quot_ok _ (ar.ne_zero hs.ne'), e1, e2]
  exact e

/-- powers of a base between `e^-1/2` and 1 with errors in base and exponent -/
theorem pow_acc {pw : ℝ → ℝ → ℝ} (hpw : RoundedPow pw u) (h0 : 0 ≤ u) (h1 : u ≤ 1 / 2) {t s a c x y : ℝ} (hc : 0 < c) (hc1 : c ≤ 1)
    (hce : Real.exp (-(1 / 2)) ≤ c) (ha : Acc t a c) (hx : Acc s x y) (hy : 0 < y) (hy1 : y ≤ 9 / 4) (hs : 0 ≤ s) (hs1 : s ≤ 1 / 6) (ht : 0 ≤ t) :
    Acc (2 * u + 3 * t + 9 / 4 * s) (pw a x) (c ^ y) := by
  have pa := ha.pos hc
  have px := hx.pos hy
  have ex := hx.rel hs (by linarith)
  rw [abs_of_pos hy] at ex
  have ex2 : |x - y| ≤ 9 / 2 * s := by
    have := mul_le_mul_of_nonneg_left hy1 (show 0 ≤ 2 * s by positivity)
    linarith
  have x3 : x ≤ 3 := by
    rw [abs_le] at ex2
    linarith [ex2.2]
  have s1 : Acc (2 * u) (pw a x) (a ^ x) := by
    apply Acc.of_rel h0 h1
    rw [abs_of_pos (Real.rpow_pos_of_pos pa x)]
    exact hpw a x pa
  have s2 : Acc (3 * t) (a ^ x) (c ^ x) := by
    obtain ⟨ρ, rfl, l, r⟩ := ha
    have pρ := (Real.exp_pos (-t)).trans_le l
    refine ⟨ρ ^ x, Real.mul_rpow hc.le pρ.le, ?_, ?_⟩
    · calc Real.exp (-(3 * t)) ≤ Real.exp (-t * x) := Real.exp_le_exp.2 (by nlinarith)
        _ = Real.exp (-t) ^ x := by rw [← Real.exp_mul]
        _ ≤ ρ ^ x := Real.rpow_le_rpow (Real.exp_pos _).le l px.le
    · calc ρ ^ x ≤ Real.exp t ^ x := Real.rpow_le_rpow pρ.le r px.le
        _ = Real.exp (t * x) := by rw [← Real.exp_mul]
        _ ≤ Real.exp (3 * t) := Real.exp_le_exp.2 (by nlinarith)
  have s3 : Acc (9 / 4 * s) (c ^ x) (c ^ y) := by
    have hl : Real.log c ≤ 0 := Real.log_nonpos hc.le hc1
    have hl2 : -(1 / 2) ≤ Real.log c := (Real.le_log_iff_exp_le hc).2 hce
    refine ⟨c ^ (x - y), by rw [← Real.rpow_add hc]; congr 1; ring, ?_, ?_⟩
    all_goals
      rw [Real.rpow_def_of_pos hc]
      apply Real.exp_le_exp.2
      have : |Real.log c * (x - y)| ≤ 9 / 4 * s := by
        rw [abs_mul]
        have : |Real.log c| ≤ 1 / 2 := by rw [abs_le]; constructor <;> linarith
        calc |Real.log c| * |x - y| ≤ 1 / 2 * (9 / 2 * s) := mul_le_mul this ex2 (abs_nonneg _) (by norm_num)
          _ = _ := by ring
      rw [abs_le] at this
      linarith [this.1, this.2]
  exact (s1.trans (s2.trans s3)).mono (by linarith)

theorem exp_neg_half_le : Real.exp (-(1 / 2)) ≤ 658 / 1000 := by
  rw [Real.exp_neg, inv_le_comm₀ (Real.exp_pos _) (by norm_num)]
  have := Real.quadratic_le_exp_of_nonneg (x := 1 / 2) (by norm_num)
  linarith

/-- the column curve, away from its step at the slenderness 1.5 -/
theorem curve_acc (hA : Rounded A u) {pw : ℝ → ℝ → ℝ} (hpw : RoundedPow pw (2 * u)) {fy F f s : ℝ} (hf : 0 < fy) (pF : 0 < F)
    (hs : 0 ≤ s) (hu : 54 * (u + s) ≤ 1) (af : Acc s f F) (hl : 9 * (u + s) < |√(fy / F) - 3 / 2|) :
    ∃ lc fn lc' fn', S6.columnCurve fy F = .ok (lc, fn) ∧ lc = √(fy / F) ∧ 0 < fn ∧ S6R.columnCurve A pw fy f = .ok (lc', fn') ∧
      Acc (34 * u + 3 * s) fn' fn := by
  have h0 := hA.nonneg
  have h1 : u ≤ 1 / 2 := by linarith
  have rr := fun y => Acc.refl le_rfl y
  have pf := af.pos pF
  have pq : 0 < fy / F := by positivity
  have aq := hA.accDiv h1 (rr fy) af
  have al := (hA.accSqrt h1 pq.le aq).mono (t' := 3 * u + s / 2) (by linarith)
  have pl := Real.sqrt_pos.2 pq
  have pl' := al.pos pl
  have a2 := (hA.accMul h1 al al).mono (t' := 8 * u + s) (by linarith)
  have hq' := (aq.pos pq).le
  set lc := √(fy / F) with hlc
  set lc' := A.sqrt (A.div fy f) with hlc'
  have p2 : 0 < lc * lc := by positivity
  have step : ∀ B, S6R.columnCurve A pw fy f = B ↔ (if lc' ≤ 3 / 2 then
      (.ok (lc', A.mul fy (pw (A.lit (658 / 1000)) (A.mul lc' lc'))) : Py (ℝ × ℝ))
      else .ok (lc', A.mul fy (A.div (A.lit (877 / 1000)) (A.mul lc' lc')))) = B := by
    intro B
    simp only [S6R.columnCurve, Arith.quot_ok _ pf.ne', Except.bind_ok', Arith.root_ok _ hq']
    rw [← hlc']
    simp only [Arith.quot_ok _ (a2.ne_zero p2.ne'), Except.bind_ok']
    split_ifs <;> rfl
  have step0 : S6.columnCurve fy F = (if lc ≤ 3 / 2 then .ok (lc, fy * (658 / 1000 : ℝ) ^ (lc * lc))
      else .ok (lc, fy * (877 / 1000 / (lc * lc)))) := by
    simp only [S6.columnCurve, rdiv_ok pF.ne', Except.bind_ok', rsqrt_ok pq.le, ← hlc, rpow, rdiv_ok p2.ne']
    split_ifs <;> rfl
  have hτ : 0 ≤ 3 * u + s / 2 := by linarith
  have hb := (Acc.iff pl).1 al
  have e1 := Real.add_one_le_exp (-(3 * u + s / 2))
  have rl := al.rel hτ (by linarith)
  rw [abs_of_pos pl] at rl
  by_cases c : lc ≤ 3 / 2
  · have c' : lc' ≤ 3 / 2 := by
      rw [abs_of_nonpos (by linarith)] at hl
      have h2 := mul_le_mul_of_nonneg_left c (show 0 ≤ 2 * (3 * u + s / 2) by positivity)
      rw [abs_le] at rl
      linarith [rl.2]
    rw [if_pos c] at step0
    have hx : lc * lc ≤ 9 / 4 := by nlinarith
    have l658 := hA.accLit h1 (658 / 1000)
    have e658 : ((658 / 1000 : ℚ) : ℝ) = 658 / 1000 := by norm_num
    rw [e658] at l658
    have ap := pow_acc hpw (by linarith) (by linarith) (by norm_num) (by norm_num) exp_neg_half_le l658 a2 p2 hx (by linarith) (by linarith) (by linarith)
    have pp : 0 < (658 / 1000 : ℝ) ^ (lc * lc) := by positivity
    refine ⟨lc, _, lc', _, step0, rfl, by positivity, (step _).2 (if_pos c'), ?_⟩
    exact (hA.accMul h1 (rr fy) ap).mono (by linarith)
  · have c' : ¬ lc' ≤ 3 / 2 := by
      push Not at c ⊢
      rw [abs_of_pos (by linarith)] at hl
      have h2 := mul_le_mul_of_nonneg_left e1 pl.le
      have h3 : 3 / 2 < lc * (-(3 * u + s / 2) + 1) := by
        have h4 := mul_le_mul_of_nonneg_right hl.le (show 0 ≤ -(3 * u + s / 2) + 1 by linarith)
        nlinarith
      linarith [hb.1]
    rw [if_neg c] at step0
    have l877 := hA.accLit h1 (877 / 1000)
    have e877 : ((877 / 1000 : ℚ) : ℝ) = 877 / 1000 := by norm_num
    rw [e877] at l877
    refine ⟨lc, _, lc', _, step0, rfl, by positivity, (step _).2 (if_neg c'), ?_⟩
    exact (hA.accMul h1 (rr fy) (hA.accDiv h1 l877 a2)).mono (by linarith)

end BeamDesign
