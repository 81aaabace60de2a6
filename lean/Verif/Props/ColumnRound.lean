import Verif.Lemmas.ColumnRound
import Verif.Props.S6
import Verif.Props.WebRound

/-!
# C104: the column capacity in floating point
-/

namespace BeamDesign

open Spec

/-- with exact arithmetic the formulas operation by operation are the formulas of `Model/S6` -/
theorem C104_exact (An kf le r fy fref ab : ℝ) : S6R.NcFlexural .exact An kf le r fy fref ab =
    (S6.NcFlexural An kf le r fy fref ab).map (fun x => (x.Nc, x.lambdaN,
      ⟨x.factors.alphaA, x.factors.lambda, x.factors.eta, x.factors.xi, x.factors.alphaC⟩)) := by
  have hq : ∀ a b, Arith.exact.quot a b = rdiv a b := fun _ _ => rfl
  have hr : ∀ a, Arith.exact.root a = rsqrt a := fun _ => rfl
  have hl : S6R.lambdaN .exact kf le r fy fref = S6.lambdaN kf le r fy fref := rfl
  have ha : ∀ n, S6R.alphaC .exact n ab = (S6.alphaC n ab).map (fun x => ⟨x.alphaA, x.lambda, x.eta, x.xi, x.alphaC⟩) := by
    intro n
    simp only [S6R.alphaC, S6R.xi, S6R.fromXi, S6.alphaC, hq, hr]
    simp only [Arith.exact]
    norm_num
    cases rdiv (2100 * (n - 27 / 2)) (n * n - 153 / 10 * n + 2050) with
    | error e => rfl
    | ok a =>
      simp only [Except.bind_ok']
      generalize n + a * ab = lam
      generalize max (163 / 50000 * (lam - 27 / 2)) 0 = eta
      cases rdiv ((lam / 90) ^ 2 + 1 + eta) (2 * (lam / 90) ^ 2) with
      | error e => rfl
      | ok xi =>
        simp only [Except.bind_ok']
        cases rdiv 90 (xi * lam) with
        | error e => rfl
        | ok t =>
          simp only [Except.bind_ok']
          cases rsqrt (1 - t ^ 2) <;> rfl
  simp only [S6R.NcFlexural, S6.NcFlexural, hl]
  cases S6.lambdaN kf le r fy fref with
  | error e => rfl
  | ok n =>
    simp only [Except.bind_ok', ha]
    cases S6.alphaC n ab <;> rfl

/-- the capacity when the length may be rounded already: with an error `s`, the result is as with the exact length and errors `u` of one
operation -/
theorem column_near {A : Arith ℝ} {u u0 s : ℝ} (hA0 : Rounded A u0) (huw : u0 ≤ u) (hsw : 11 * u0 + s ≤ 11 * u)
    {An kf le le' r fy fref ab : ℝ} (hAn : 0 < An) (hk : 0 < kf) (hle : 0 < le) (al0 : Acc s le' le) (hr : 0 < r) (hfy : 0 < fy)
    (hfr : 0 < fref) (hab : |ab| ≤ 1) {x : S6.Flexural} (h : S6.NcFlexural An kf le r fy fref ab = .ok x)
    (hu : 410000 * u * (x.lambdaN + 40) / |x.factors.lambda| + 100 * u * (x.factors.xi * x.factors.lambda / 90) ^ 2 ≤ 1) :
    ∃ N' l' f', S6R.NcFlexural A An kf le' r fy fref ab = .ok (N', l', f') ∧
      Acc ((410000 * u * (x.lambdaN + 40) / |x.factors.lambda| + 100 * u * (x.factors.xi * x.factors.lambda / 90) ^ 2) / 2) N' x.Nc ∧
      0 < x.Nc := by
  have hA := hA0.mono huw
  have h0 := hA.nonneg
  have h00 := hA0.nonneg
  have rr := fun y => Acc.refl le_rfl y
  have pq : 0 < fy / fref := by positivity
  set n := le / r * √kf * √(fy / fref) with hn
  have sk := Real.sqrt_pos.2 hk
  have sq := Real.sqrt_pos.2 pq
  have pn : 0 < n := by positivity
  -- the exact values
  obtain ⟨hz, -, -, -⟩ := NcFlexural_inv hk.le hr.ne' pq.le hfr.ne' h
  rw [← hn] at hz
  set lam := lamOf n ab with hlam
  set xi := ((lam / 90) ^ 2 + 1 + etaOf lam) / (2 * (lam / 90) ^ 2) with hxi
  have e0 : 0 ≤ etaOf lam := le_max_right _ _
  have pxi : 0 < xi := by positivity
  have hxl : xi * lam ≠ 0 := mul_ne_zero pxi.ne' hz
  set W := (90 / (xi * lam)) ^ 2 with hW
  have pW : 0 < W := by positivity
  have hlb : -14 ≤ lam := lamOf_ge pn.le hab
  have hW' : W = 4 * (lam / 90) ^ 2 / ((lam / 90) ^ 2 + 1 + etaOf lam) ^ 2 := by
    have pv : 0 < (lam / 90) ^ 2 := by positivity
    rw [hW, hxi]
    field_simp
    ring
  have hW1 : W ≤ 9025 / 10000 := by
    rw [hW', div_le_iff₀ (by positivity)]
    exact peak_bound hlb
  have hWu : 100 * u * (xi * lam / 90) ^ 2 = 100 * u / W := by
    rw [hW]
    field_simp
  have hroot : 0 ≤ 1 - W := by linarith
  have hval : x.lambdaN = n ∧ x.factors.lambda = lam ∧ x.factors.xi = xi ∧ x.Nc = An * kf * fy * (xi * (1 - √(1 - W))) := by
    have hd := den_pos n
    have e1 : n + 2100 * (n - 27 / 2) / (n * n - 153 / 10 * n + 2050) * ab = lam := rfl
    have e2 : max (326 / 100000 * (lam - 27 / 2)) 0 = etaOf lam := rfl
    simp only [S6.NcFlexural, S6.lambdaN, rdiv_ok hr.ne', rsqrt_ok hk.le, rdiv_ok hfr.ne', rsqrt_ok pq.le, Except.bind_ok', pure,
      Except.pure, S6.alphaC, ← hn, rdiv_ok hd.ne', e1, e2, rdiv_ok (show 2 * (lam / 90) ^ 2 ≠ 0 by positivity), ← hxi,
      rdiv_ok hxl, ← hW, rsqrt_ok hroot] at h
    injection h with h
    subst h
    exact ⟨rfl, rfl, rfl, rfl⟩
  obtain ⟨v1, v2, v3, v4⟩ := hval
  rw [v1, v2, v3, hWu] at hu ⊢
  rw [v4]
  -- how the errors start
  have pl : 0 < |lam| := abs_pos.2 hz
  have hlam40 : |lam| ≤ n + 40 := lamOf_abs pn.le hab
  have huW : 0 ≤ 100 * u / W := by positivity
  set τ := 110 * u * (n + 40) / |lam| with hτ
  have e41 : 410000 * u * (n + 40) / |lam| = 410000 / 110 * τ := by rw [hτ]; ring
  rw [e41] at hu ⊢
  have hτu : 110 * u ≤ τ := by
    rw [hτ, le_div_iff₀ pl]
    exact mul_le_mul_of_nonneg_left hlam40 (by positivity)
  have hτ0 : 0 ≤ τ := by linarith
  have h1 : 3700 * τ ≤ 1 := by linarith
  have hu1 : u ≤ 1 / 2 := by linarith
  -- the slenderness
  have hu0 : u0 ≤ 1 / 2 := by linarith
  have an : Acc (11 * u) (A.mul (A.mul (A.div le' r) (A.sqrt kf)) (A.sqrt (A.div fy fref))) n :=
    (hA0.accMul hu0 (hA0.accMul hu0 (hA0.accDiv hu0 al0 (rr r)) (hA0.accSqrt hu0 hk.le (rr kf)))
      (hA0.accSqrt hu0 pq.le (hA0.accDiv hu0 (rr fy) (rr fref)))).mono (by linarith)
  have hq' : 0 ≤ A.div fy fref := (hA.accDiv hu1 (rr fy) (rr fref)).nonneg pq.le
  set n' := A.mul (A.mul (A.div le' r) (A.sqrt kf)) (A.sqrt (A.div fy fref)) with hn'
  have rn := an.rel (by linarith) (by linarith)
  rw [abs_of_pos pn] at rn
  obtain ⟨a', ea, al, -⟩ := lambda_near hA (by linarith) pn.le (n := n) (n' := n') (rn.trans (le_of_eq (by ring))) hab
  rw [← hlam] at al
  set lam' := A.add n' (A.mul a' ab) with hlam'
  have al' : |lam' - lam| ≤ τ * |lam| := by
    rw [hτ, div_mul_cancel₀ _ pl.ne']
    exact al
  obtain ⟨xi', ex, ax⟩ := xi_acc hA hz hτu h1 al'
  rw [← hxi] at ax
  obtain ⟨ac', ec, ac, pc⟩ := fromXi_acc hA hz pxi hτu hW hW1 (by linarith) al' ax
  have aNs := hA.accMul hu1 (hA.accMul hu1 (rr An) (rr kf)) (rr fy)
  have aN := hA.accMul hu1 aNs ac
  refine ⟨A.mul (S6R.Ns A (S6R.Ae A An kf) fy) ac', n', ⟨a', lam', max (A.mul (A.lit (326 / 100000)) (A.sub lam' (A.lit (27 / 2)))) 0, xi', ac'⟩, ?_, ?_, by positivity⟩
  · simp only [S6R.NcFlexural, S6R.lambdaN, Arith.quot_ok _ hr.ne', Arith.root_ok _ hk.le, Arith.quot_ok _ hfr.ne',
      Arith.root_ok _ hq', Except.bind_ok', pure, Except.pure, S6R.alphaC]
    rw [← hn', ea]
    simp only [Except.bind_ok']
    rw [← hlam', ex]
    simp only [Except.bind_ok']
    rw [ec]
    rfl
  · have e24 : 24 * u / W = 24 / 100 * (100 * u / W) := by ring
    rw [e24] at aN
    exact aN.mono (by linarith)

/-- C104, partial: in every arithmetic with relative errors of at most `u` the column capacity has a relative error of at most
`410000 u (λ_n + 40) / |λ| + 100 u (ξ λ / 90)²`, as long as that is not above 1.  `λ_n`, `λ` and `ξ` are the intermediate values the
function returns. -/
theorem C104_column_partial {A : Arith ℝ} {u : ℝ} (hA : Rounded A u) {An kf le r fy fref ab : ℝ} (hAn : 0 < An) (hk : 0 < kf)
    (hle : 0 < le) (hr : 0 < r) (hfy : 0 < fy) (hfr : 0 < fref) (hab : |ab| ≤ 1) {x : S6.Flexural}
    (h : S6.NcFlexural An kf le r fy fref ab = .ok x)
    (hu : 410000 * u * (x.lambdaN + 40) / |x.factors.lambda| + 100 * u * (x.factors.xi * x.factors.lambda / 90) ^ 2 ≤ 1) :
    ∃ N' l' f', S6R.NcFlexural A An kf le r fy fref ab = .ok (N', l', f') ∧
      Within (410000 * u * (x.lambdaN + 40) / |x.factors.lambda| + 100 * u * (x.factors.xi * x.factors.lambda / 90) ^ 2) N' x.Nc := by
  have h0 := hA.nonneg
  obtain ⟨N', l', f', e, a, p⟩ := column_near hA le_rfl (by linarith) hAn hk hle (Acc.refl le_rfl le) hr hfy hfr hab h hu
  have hn : 0 ≤ x.lambdaN := by
    rw [(NcFlexural_inv hk.le hr.ne' (by positivity) hfr.ne' h).2.1]
    positivity
  exact ⟨N', l', f', e, a.within p (by positivity) (by linarith) (by linarith)⟩

/-- how much the errors grow in the usual columns -/
theorem column_usual {An kf le r fy fref ab : ℝ} (hk : 0 < kf) (hr : 0 < r) (hfy : 0 < fy)
    (hfr : 0 < fref) (hab : |ab| ≤ 1) {x : S6.Flexural} (h : S6.NcFlexural An kf le r fy fref ab = .ok x)
    (hl : 27 / 2 ≤ x.lambdaN) (hh : x.lambdaN ≤ 1000) :
    410000 * (x.lambdaN + 40) / |x.factors.lambda| + 100 * (x.factors.xi * x.factors.lambda / 90) ^ 2 ≤ 2064400 := by
  have pq : 0 < fy / fref := by positivity
  obtain ⟨hz, hln, -, -⟩ := NcFlexural_inv hk.le hr.ne' pq.le hfr.ne' h
  set n := le / r * √kf * √(fy / fref) with hn
  rw [hln] at hl hh
  have hd := den_pos n
  have hvals : x.factors.lambda = lamOf n ab ∧
      x.factors.xi = ((lamOf n ab / 90) ^ 2 + 1 + etaOf (lamOf n ab)) / (2 * (lamOf n ab / 90) ^ 2) := by
    have e1 : n + 2100 * (n - 27 / 2) / (n * n - 153 / 10 * n + 2050) * ab = lamOf n ab := rfl
    have e2 : max (326 / 100000 * (lamOf n ab - 27 / 2)) 0 = etaOf (lamOf n ab) := rfl
    simp only [S6.NcFlexural, S6.lambdaN, rdiv_ok hr.ne', rsqrt_ok hk.le, rdiv_ok hfr.ne', rsqrt_ok pq.le, Except.bind_ok', pure,
      Except.pure, S6.alphaC, ← hn, rdiv_ok hd.ne', e1, e2, rdiv_ok (show 2 * (lamOf n ab / 90) ^ 2 ≠ 0 by positivity)] at h
    cases e3 : rdiv 90 (((lamOf n ab / 90) ^ 2 + 1 + etaOf (lamOf n ab)) / (2 * (lamOf n ab / 90) ^ 2) * lamOf n ab) with
    | error e => rw [e3] at h; cases h
    | ok t =>
      rw [e3] at h
      simp only [Except.bind_ok'] at h
      cases e4 : rsqrt (1 - t ^ 2) with
      | error e => rw [e4] at h; cases h
      | ok s =>
        rw [e4] at h
        injection h with h
        subst h
        exact ⟨rfl, rfl⟩
  -- the modified slenderness
  rw [abs_le] at hab
  have hlow : (n + 40) / 5 ≤ lamOf n ab := by
    unfold lamOf
    rw [div_mul_eq_mul_div, ← sub_le_iff_le_add', le_div_iff₀ hd]
    have p : 2100 * (n - 27 / 2) ≤ (4 / 5 * n - 8) * (n * n - 153 / 10 * n + 2050) := by
      nlinarith [mul_nonneg (show 0 ≤ n by linarith) (sq_nonneg (n - 23)), sq_nonneg (n - 23)]
    nlinarith [hab.1, hab.2]
  have hhigh : lamOf n ab ≤ 1040 := by
    have : 2100 * (n - 27 / 2) / (n * n - 153 / 10 * n + 2050) * ab ≤ 40 := by
      rw [div_mul_eq_mul_div, div_le_iff₀ hd]
      have := num_le (n := n)
      nlinarith [hab.1, hab.2]
    unfold lamOf
    linarith
  set lam := lamOf n ab with hlam
  have pl : 0 < lam := by linarith
  · rw [hvals.1, hvals.2, hln, abs_of_pos pl]
    have b1 : (n + 40) / lam ≤ 5 := by rw [div_le_iff₀ pl]; linarith
    have e : ((lam / 90) ^ 2 + 1 + etaOf lam) / (2 * (lam / 90) ^ 2) * lam / 90 = ((lam / 90) ^ 2 + 1 + etaOf lam) / (2 * (lam / 90)) := by
      field_simp
    have he : etaOf lam ≤ 326 / 100000 * lam := by
      unfold etaOf
      apply max_le <;> linarith
    have b2 : ((lam / 90) ^ 2 + 1 + etaOf lam) / (2 * (lam / 90)) ≤ 12 := by
      rw [div_le_iff₀ (by positivity)]
      have : 10 ≤ lam := by linarith
      nlinarith
    have e0 : 0 ≤ etaOf lam := le_max_right _ _
    have b3 : (((lam / 90) ^ 2 + 1 + etaOf lam) / (2 * (lam / 90))) ^ 2 ≤ 12 ^ 2 := pow_le_pow_left₀ (by positivity) b2 2
    rw [e, mul_div_assoc]
    linarith

/-- C104, partial: in double precision columns of nominal slenderness between 13.5 and 1000 have capacities with a relative error
below `10^-9`, for every member constant. -/
theorem C104_usual_partial {An kf le r fy fref ab : ℝ} (hAn : 0 < An) (hk : 0 < kf) (hle : 0 < le) (hr : 0 < r) (hfy : 0 < fy)
    (hfr : 0 < fref) (hab : |ab| ≤ 1) {x : S6.Flexural} (h : S6.NcFlexural An kf le r fy fref ab = .ok x)
    (hl : 27 / 2 ≤ x.lambdaN) (hh : x.lambdaN ≤ 1000) :
    ∃ N' l' f', S6R.NcFlexural .double An kf le r fy fref ab = .ok (N', l', f') ∧ Within (1 / 10 ^ 9) N' x.Nc := by
  have hbound : 410000 * (2 : ℝ) ^ (-53 : ℤ) * (x.lambdaN + 40) / |x.factors.lambda| +
      100 * 2 ^ (-53 : ℤ) * (x.factors.xi * x.factors.lambda / 90) ^ 2 ≤ 1 / 10 ^ 9 := by
    have := mul_le_mul_of_nonneg_left (column_usual hk hr hfy hfr hab h hl hh) (show (0 : ℝ) ≤ 2 ^ (-53 : ℤ) by positivity)
    refine le_trans (le_of_eq (by ring)) (this.trans (by norm_num))
  obtain ⟨N', l', f', e, p, w⟩ := C104_column_partial C102_double hAn hk hle hr hfy hfr hab h
    (hbound.trans (by norm_num))
  exact ⟨N', l', f', e, p, w.trans (mul_le_mul_of_nonneg_right hbound p.le)⟩

/-- C104 is false for stocky columns: with the default `α_b = 1` the factor computed in double precision at the slenderness 6.92815493
is 0 and at 6.9281553 it is more than 1.5, though the formula gives 1 at both. -/
theorem C104_counterexample :
    (S6R.alphaC .binary64 (rnd64 (692815493 / 100000000)) 1).map (·.alphaC) = .ok 0 ∧
    (∃ f, S6R.alphaC .binary64 (rnd64 (69281553 / 10000000)) 1 = .ok f ∧ 3 / 2 < f.alphaC) ∧
    (∃ f, S6.alphaC (rnd64 (692815493 / 100000000) : ℚ) 1 = .ok f ∧ f.alphaC = 1) ∧
    (∃ f, S6.alphaC (rnd64 (69281553 / 10000000) : ℚ) 1 = .ok f ∧ f.alphaC = 1) := by
  have near : ∀ q : ℚ, 6928 / 1000 < q → q < 6929 / 1000 → lamOf (q : ℝ) 1 ≠ 0 →
      ∃ f, S6.alphaC (q : ℝ) 1 = .ok f ∧ f.alphaC = 1 := by
    intro q h1 h2 h4
    have h1' : (6928 / 1000 : ℝ) < q := by have := (Rat.cast_lt (K := ℝ)).2 h1; push_cast at this; exact this
    have h2' : (q : ℝ) < 6929 / 1000 := by have := (Rat.cast_lt (K := ℝ)).2 h2; push_cast at this; exact this
    obtain ⟨f, e, -, -, hal⟩ := alphaC_ok h4
    refine ⟨f, e, alpha_one ?_ ?_ hal⟩
    · have := lamOf_sub (q : ℝ) 1
      have hd := den_pos (q : ℝ)
      have : (q - 27 / 2 : ℝ) * (1 + 2100 * 1 / (q * q - 153 / 10 * q + 2050)) ≤ 0 :=
        mul_nonpos_of_nonpos_of_nonneg (by linarith) (by positivity)
      linarith
    · have := lamOf_ge (n := (q : ℝ)) (ab := 1) (by linarith) (by norm_num)
      linarith
  have v1 : rnd64 (692815493 / 100000000) = 3900204495139133 / 562949953421312 := by decide +kernel
  have v2 : rnd64 (69281553 / 10000000) = 487525587928827 / 70368744177664 := by decide +kernel
  refine ⟨by decide +kernel, ?_, ?_, ?_⟩
  · have : (match S6R.alphaC .binary64 (rnd64 (69281553 / 10000000)) 1 with
      | .ok f => decide (3 / 2 < f.alphaC)
      | .error _ => false) = true := by decide +kernel
    cases e : S6R.alphaC .binary64 (rnd64 (69281553 / 10000000)) 1 with
    | error _ => rw [e] at this; cases this
    | ok f => rw [e] at this; exact ⟨f, rfl, of_decide_eq_true this⟩
  · rw [v1]
    exact near _ (by norm_num) (by norm_num) (by unfold lamOf; norm_num)
  · rw [v2]
    exact near _ (by norm_num) (by norm_num) (by unfold lamOf; norm_num)

/-- a 310UB46 of grade 320 and 4 m length: `λ_n` is about 116 -/
example : ∃ x N' l' f', S6.NcFlexural (593 / 100000) 1 4 (39 / 1000) 320000000 250000000 0 = .ok x ∧
    S6R.NcFlexural .double (593 / 100000) 1 4 (39 / 1000) 320000000 250000000 0 = .ok (N', l', f') ∧
    Within (1 / 10 ^ 9) N' x.Nc := by
  have h1 : (1 : ℝ) ≤ √(320000000 / 250000000) := Real.one_le_sqrt.2 (by norm_num)
  have h2 : √(320000000 / 250000000 : ℝ) ≤ 2 := Real.sqrt_le_iff.2 ⟨by norm_num, by norm_num⟩
  have hn : lamOf (4 / (39 / 1000) * √1 * √(320000000 / 250000000)) 0 ≠ 0 := by
    unfold lamOf
    rw [mul_zero, add_zero, Real.sqrt_one]
    positivity
  obtain ⟨x, hx⟩ := NcFlexural_ok (An := 593 / 100000) (by norm_num) (by norm_num) (by norm_num) (by norm_num) hn
  obtain ⟨-, hln, -⟩ := NcFlexural_inv (by norm_num) (by norm_num) (by norm_num) (by norm_num) hx
  obtain ⟨N', l', f', e, w⟩ := C104_usual_partial (by norm_num) (by norm_num) (by norm_num) (by norm_num) (by norm_num) (by norm_num)
    (by norm_num) hx (by rw [hln, Real.sqrt_one]; linarith) (by rw [hln, Real.sqrt_one]; linarith)
  exact ⟨x, N', l', f', hx, e, w⟩

end BeamDesign
