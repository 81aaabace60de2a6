import Verif.Lemmas.Required
import Verif.Props.Capacity
import Verif.Lemmas.Fast64

/-!
# C92: the required area in floating point arithmetic
-/

namespace BeamDesign

open Spec

section
variable {K : Type} [Field K] [LinearOrder K] [IsStrictOrderedRing K]
variable {rt : Rt K} {F : K → Prop} {u η σ : K}

/-- The required area and the capacity of every area from it on. -/
theorem required_near (hr : Rounds rt F u η) (hu0 : 0 ≤ u) (hu : u ≤ 1 / 1000) (hσ0 : 0 < σ) (hσ1 : σ ≤ 1 / 2)
    (hη : η * 100 ≤ u * σ ^ 10) {N fy fu kt phi au : K} (hN : Between F σ N) (hfy : Between F σ fy)
    (hfu : Between F σ fu) (hkt : Between F σ kt) (hphi : Between F σ phi) (hau : Between F σ au) :
    ∃ r, S7.AReqd rt N fy fu kt phi au = .ok r ∧ F r.phiA ∧ 0 < r.phiA ∧
      |(S7.Nt rt r.phiA r.phiA fy fu kt phi au).phiN - N| ≤ 83 / 10 * u * N ∧
      ∀ A, F A → (1 + 10 * u) * r.phiA ≤ A → N ≤ (S7.Nt rt A A fy fu kt phi au).phiN := by
  have hσ1' : σ ≤ 1 := by linarith
  obtain ⟨r, h1, h2, h3, h4⟩ := AReqd_rel hr hu0 hu hσ0 hσ1' hη hN hfy hfu hkt hphi hau
  have hex := required_exact (hN.pos hσ0) (hfy.pos hσ0) (hfu.pos hσ0) (hkt.pos hσ0) (hphi.pos hσ0) (hau.pos hσ0)
  set X := max (N / fy) (N / au / kt / fu) / phi
  set m := min fy (fu * kt * au) * phi
  have N0 := hN.pos hσ0
  have m0 : 0 < m := mul_pos (lt_min (hfy.pos hσ0) (mul_pos (mul_pos (hfu.pos hσ0) (hkt.pos hσ0)) (hau.pos hσ0)))
    (hphi.pos hσ0)
  have X0 : 0 < X := lt_of_lt_of_le (by positivity) h4
  rw [abs_le] at h3
  have low : (1 - 41 / 10 * u) * X ≤ r.phiA := by linarith [h3.1]
  have s6 : σ ^ 6 ≤ r.phiA := by
    have : σ ^ 6 ≤ 1 / 2 * σ ^ 5 := by
      rw [pow_succ, mul_comm]; exact mul_le_mul_of_nonneg_right hσ1 (by positivity)
    have : 1 / 2 * σ ^ 5 ≤ 1 / 2 * X := by linarith
    have : 1 / 2 * X ≤ (1 - 41 / 10 * u) * X := mul_le_mul_of_nonneg_right (by linarith) X0.le
    linarith
  have a0 : 0 < r.phiA := lt_of_lt_of_le (by positivity) s6
  have e1 : -(41 / 10 * u * N) ≤ r.phiA * m - N ∧ r.phiA * m - N ≤ 41 / 10 * u * N := by
    rw [← hex]
    constructor
    · have := mul_le_mul_of_nonneg_right h3.1 m0.le; linarith
    · have := mul_le_mul_of_nonneg_right h3.2 m0.le; linarith
  have huN : u * (u * N) ≤ 1 / 1000 * (u * N) := mul_le_mul_of_nonneg_right hu (by positivity)
  have hu2 : 0 ≤ u * N := by positivity
  refine ⟨r, h1, h2, a0, ?_, ?_⟩
  · have h5 := Nt_rel hr hu0 hu hσ0 hσ1' hη h2 s6 hfy hfu hkt hphi hau
    have h6 : |(S7.Nt rt r.phiA r.phiA fy fu kt phi au).phiN - r.phiA * m| ≤ 41 / 10 * u * (r.phiA * m) := h5
    have h7 : u * (r.phiA * m) ≤ u * (N + 41 / 10 * u * N) := mul_le_mul_of_nonneg_left (by linarith [e1.2]) hu0
    rw [abs_le] at h6 ⊢
    constructor
    · nlinarith [h6.1, e1.1]
    · nlinarith [h6.2, e1.2]
  · intro A hA hge
    have hAge : r.phiA ≤ A := by nlinarith
    have h6 : |(S7.Nt rt A A fy fu kt phi au).phiN - A * m| ≤ 41 / 10 * u * (A * m) :=
      Nt_rel hr hu0 hu hσ0 hσ1' hη hA (s6.trans hAge) hfy hfu hkt hphi hau
    have h7 : (1 - 41 / 10 * u) * (A * m) ≤ (S7.Nt rt A A fy fu kt phi au).phiN := by
      linarith [(abs_le.1 h6).1]
    refine le_trans ?_ h7
    have h8 : (1 + 10 * u) * (r.phiA * m) ≤ A * m := by
      rw [← mul_assoc]; exact mul_le_mul_of_nonneg_right hge m0.le
    have h9 : (1 - 41 / 10 * u) * N ≤ r.phiA * m := by linarith [e1.1]
    have c0 : (0 : K) ≤ 1 - 41 / 10 * u := by linarith
    have c1 : (0 : K) ≤ 1 + 10 * u := by linarith
    calc N ≤ (1 - 41 / 10 * u) * ((1 + 10 * u) * ((1 - 41 / 10 * u) * N)) := by
          have : 1 ≤ (1 - 41 / 10 * u) * ((1 + 10 * u) * (1 - 41 / 10 * u)) := by nlinarith [mul_nonneg hu0 hu0, mul_nonneg hu0 (mul_nonneg hu0 hu0)]
          nlinarith
      _ ≤ (1 - 41 / 10 * u) * (A * m) :=
          mul_le_mul_of_nonneg_left ((mul_le_mul_of_nonneg_left h9 c1).trans h8) c0

end

theorem underflow_ten : (2 : ℚ) ^ (-1075 : ℤ) * 100 ≤ 2 ^ (-53 : ℤ) * (2 ^ (-100 : ℤ)) ^ 10 := by
  have h1 : (2 : ℚ) ^ (-1075 : ℤ) * 100 ≤ 2 ^ (-1075 : ℤ) * 2 ^ (7 : ℤ) :=
    mul_le_mul_of_nonneg_left (by norm_num) (two_zpow_pos _).le
  refine h1.trans ?_
  rw [← zpow_natCast, ← zpow_mul, ← zpow_add₀ (by norm_num), ← zpow_add₀ (by norm_num)]
  exact zpow_le_zpow_right₀ (by norm_num) (by norm_num)

/-- C92, part: with the required area the design capacity in double precision is the applied force, with a relative error
of at most `2 ^ -49`.  Missing: that it is not below the force, which is false (`C92_counterexample`). -/
theorem C92_near_partial (N fy fu kt phi au : ℚ) (hN : UsualDouble N) (hfy : UsualDouble fy) (hfu : UsualDouble fu)
    (hkt : UsualDouble kt) (hphi : UsualDouble phi) (hau : UsualDouble au) :
    ∃ r, S7.AReqd Rt.binary64 N fy fu kt phi au = .ok r ∧ 0 < r.phiA ∧
      |(S7.Nt Rt.binary64 r.phiA r.phiA fy fu kt phi au).phiN - N| ≤ 2 ^ (-49 : ℤ) * N := by
  obtain ⟨r, h1, -, h2, h3, -⟩ := required_near C78_binary64_rounds (two_zpow_pos _).le (by norm_num) (two_zpow_pos _)
    (by norm_num) underflow_ten hN hfy hfu hkt hphi hau
  refine ⟨r, h1, h2, h3.trans (mul_le_mul_of_nonneg_right (by norm_num) ?_)⟩
  exact (hN.pos (two_zpow_pos _)).le

/-- C92, part: every area that is larger than the required one by a factor of `1 + 2 ^ -49` does carry the force in double
precision. -/
theorem C92_margin_partial (N fy fu kt phi au : ℚ) (hN : UsualDouble N) (hfy : UsualDouble fy) (hfu : UsualDouble fu)
    (hkt : UsualDouble kt) (hphi : UsualDouble phi) (hau : UsualDouble au) (r : S7.Areas ℚ)
    (hr : S7.AReqd Rt.binary64 N fy fu kt phi au = .ok r) (A : ℚ) (hA : IsDouble A)
    (hge : (1 + 2 ^ (-49 : ℤ)) * r.phiA ≤ A) : N ≤ (S7.Nt Rt.binary64 A A fy fu kt phi au).phiN := by
  obtain ⟨r', h1, -, h2, -, h3⟩ := required_near C78_binary64_rounds (two_zpow_pos _).le (by norm_num) (two_zpow_pos _)
    (by norm_num) underflow_ten hN hfy hfu hkt hphi hau
  rw [hr] at h1
  cases h1
  exact h3 A hA ((mul_le_mul_of_nonneg_right (by norm_num) h2.le).trans hge)

/-- 11000 N on steel with 250 and 410 MPa and the default factors 0.9 and 0.85 -/
theorem C92_counterexample :
    ∃ r, S7.AReqd Rt.binary64 11000 250000000 410000000 1 (rnd64 (9/10)) (rnd64 (85/100)) = .ok r ∧
      (S7.Nt Rt.binary64 r.phiA r.phiA 250000000 410000000 1 (rnd64 (9/10)) (rnd64 (85/100))).phiN < 11000 := by
  rw [binary64_eq, ← fastRnd_eq, ← fastRnd_eq]
  refine ⟨⟨3246626956972881 / 73786976294838206464, 72781271452943 / 2305843009213693952, 3246626956972881 / 73786976294838206464, 3607363285525423 / 73786976294838206464, 5175557081098169 / 147573952589676412928, 3607363285525423 / 73786976294838206464⟩,
    by decide +kernel, by decide +kernel⟩

/-- the partial theorems apply to the same data -/
example : UsualDouble 11000 ∧ UsualDouble 250000000 ∧ UsualDouble 410000000 ∧ UsualDouble 1 ∧
    UsualDouble (rnd64 (9/10)) ∧ UsualDouble (rnd64 (85/100)) := by
  have key : ∀ n : ℤ, |n| < 2 ^ 53 → 1 ≤ n → UsualDouble n := fun n h h1 => by
    refine ⟨⟨n, 0, h, by norm_num, by simp⟩, ?_, ?_⟩
    · have : (1 : ℚ) ≤ n := by exact_mod_cast h1
      exact le_trans (by norm_num) this
    · have h2 : (n : ℚ) < 2 ^ 53 := by exact_mod_cast (abs_lt.1 h).2
      exact h2.le.trans (by norm_num)
  have frac : ∀ x : ℚ, 1 / 2 ≤ fastRnd x → fastRnd x ≤ 1 → UsualDouble (rnd64 x) := fun x h1 h2 => by
    rw [← fastRnd_eq]
    exact ⟨fast_double x, le_trans (by norm_num) h1, h2.trans (by norm_num)⟩
  exact ⟨by exact_mod_cast key 11000 (by norm_num) (by norm_num), by exact_mod_cast key 250000000 (by norm_num) (by norm_num),
    by exact_mod_cast key 410000000 (by norm_num) (by norm_num), by exact_mod_cast key 1 (by norm_num) (by norm_num),
    frac _ (by decide +kernel) (by decide +kernel), frac _ (by decide +kernel) (by decide +kernel)⟩

end BeamDesign
