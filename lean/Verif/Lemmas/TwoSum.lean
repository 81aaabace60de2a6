import Verif.Lemmas.Solvers64
import Verif.Lemmas.PySum
import Mathlib.Tactic.LinearCombination

/-!
# Adding doubles with a correction is exact
-/

namespace BeamDesign

open Spec

theorem roundEven_nearest (q : ℚ) (k : ℤ) : |(roundEven q : ℚ) - q| ≤ |(k : ℚ) - q| := by
  have h1 := Int.floor_le q
  have h2 := Int.lt_floor_add_one q
  rcases le_or_gt k ⌊q⌋ with h | h
  · have hk : (k : ℚ) ≤ ⌊q⌋ := by exact_mod_cast h
    rw [abs_of_nonpos (a := (k : ℚ) - q) (by linarith)]
    rcases roundEven_cases q with ⟨e, h3⟩ | ⟨e, h3⟩ <;> rw [e, abs_le] <;> push_cast <;> constructor <;> linarith
  · have hk : (⌊q⌋ : ℚ) + 1 ≤ k := by exact_mod_cast h
    rw [abs_of_nonneg (a := (k : ℚ) - q) (by linarith)]
    rcases roundEven_cases q with ⟨e, h3⟩ | ⟨e, h3⟩ <;> rw [e, abs_le] <;> push_cast <;> constructor <;> linarith

theorem exp64_ge (x : ℚ) : -1074 ≤ exp64 x := le_max_right _ _

theorem lt_exp64 {x : ℚ} (hx : 0 < x) : x < 2 ^ (exp64 x + 53) := by
  have h := Int.lt_zpow_succ_log_self (b := 2) (by norm_num) x
  refine lt_of_lt_of_le h ?_
  push_cast
  refine zpow_le_zpow_right₀ (by norm_num) ?_
  have := le_max_left (Int.log 2 |x| - 52) (-1074)
  rw [abs_of_pos hx] at this
  unfold exp64
  rw [abs_of_pos hx]
  omega

theorem exp64_mono {x y : ℚ} (hx : 0 < x) (h : x ≤ y) : exp64 x ≤ exp64 y := by
  unfold exp64
  rw [abs_of_pos hx, abs_of_pos (hx.trans_le h)]
  have := Int.log_mono_right (b := 2) hx h
  omega

theorem exp64_double_le {x y : ℚ} (hx : 0 < x) (hy : 0 < y) (h : y ≤ 2 * x) : exp64 y ≤ exp64 x + 1 := by
  have h1 : Int.log 2 y ≤ Int.log 2 x + 1 := by
    have h2 := Int.lt_zpow_succ_log_self (b := 2) (by norm_num) x
    have h3 := Int.zpow_log_le_self (b := 2) (by norm_num) hy
    push_cast at h2 h3
    have h4 : (2 : ℚ) ^ Int.log 2 y < 2 ^ (Int.log 2 x + 1 + 1) := by
      rw [zpow_add_one₀ (by norm_num)]
      linarith
    have := (zpow_lt_zpow_iff_right₀ (by norm_num : (1 : ℚ) < 2)).1 h4
    omega
  unfold exp64
  rw [abs_of_pos hx, abs_of_pos hy]
  omega

theorem exp64_cases {x : ℚ} (hx : 0 < x) : exp64 x = -1074 ∨ 2 ^ (exp64 x + 52) ≤ x := by
  rcases le_or_gt (Int.log 2 |x| - 52) (-1074) with h | h
  · left; unfold exp64; omega
  · right
    have e : exp64 x = Int.log 2 x - 52 := by unfold exp64; rw [abs_of_pos hx] at *; omega
    rw [e, sub_add_cancel]
    exact_mod_cast Int.zpow_log_le_self (b := 2) (by norm_num) hx

theorem two_split {e g : ℤ} (h : g ≤ e) : (2 : ℚ) ^ e = ((2 ^ (e - g).toNat : ℤ) : ℚ) * 2 ^ g := by
  push_cast
  rw [← zpow_natCast, ← zpow_add₀ (by norm_num), Int.toNat_of_nonneg (by omega)]
  congr 1
  omega

theorem multiple_of {x : ℚ} (h : IsDouble x) : ∃ n : ℤ, x = n * 2 ^ exp64 x := ⟨_, (isDouble_iff.1 h).symm⟩

theorem multiple_down {x : ℚ} {e g : ℤ} (h : g ≤ e) (hx : ∃ n : ℤ, x = n * 2 ^ e) : ∃ n : ℤ, x = n * 2 ^ g := by
  obtain ⟨n, rfl⟩ := hx
  refine ⟨n * 2 ^ (e - g).toNat, ?_⟩
  rw [two_split h]
  push_cast
  ring

/-- a multiple of the last digit of a double that is not larger than it is a double -/
theorem isDouble_of_multiple {x y : ℚ} (hy : 0 < y) (hx : ∃ n : ℤ, x = n * 2 ^ exp64 y) (h : |x| ≤ y) : IsDouble x := by
  obtain ⟨n, rfl⟩ := hx
  have p := two_zpow_pos (exp64 y)
  refine ⟨n, _, ?_, exp64_ge y, rfl⟩
  have h1 := h.trans_lt (lt_exp64 hy)
  rw [abs_mul, abs_of_pos p, add_comm, zpow_add₀ (by norm_num), mul_lt_mul_iff_left₀ p] at h1
  exact_mod_cast h1

variable {a b : ℚ}

theorem add_error_le (ha : IsDouble a) (h0 : 0 < b) (h : b ≤ a) : |rnd64 (a + b) - (a + b)| ≤ b := by
  have pa := h0.trans_le h
  have px : 0 < a + b := by linarith
  have l1 := exp64_mono pa (show a ≤ a + b by linarith)
  have l2 := exp64_double_le pa px (by linarith)
  obtain ⟨n, hn⟩ := multiple_of ha
  have p := two_zpow_pos (exp64 (a + b))
  rcases l1.lt_or_eq with l | l
  · have e : exp64 (a + b) = exp64 a + 1 := by omega
    have h1 := rnd64_abs_error (a + b)
    rw [e, zpow_add_one₀ (by norm_num)] at h1
    have h2 := (exp64_cases px).resolve_left (by have := exp64_ge a; omega)
    rw [e, show exp64 a + 1 + 52 = 53 + exp64 a by ring, zpow_add₀ (by norm_num)] at h2
    have h3 := lt_exp64 pa
    rw [add_comm, zpow_add₀ (by norm_num)] at h3
    have h3 : (n : ℚ) * 2 ^ exp64 a < 2 ^ (53 : ℤ) * 2 ^ exp64 a := by rw [← hn]; exact h3
    rw [mul_lt_mul_iff_left₀ (two_zpow_pos _)] at h3
    have h4 : n + 1 ≤ 2 ^ 53 := by exact_mod_cast h3
    have h5 : (n : ℚ) + 1 ≤ 2 ^ (53 : ℤ) := by exact_mod_cast h4
    have h6 := mul_le_mul_of_nonneg_right h5 (two_zpow_pos (exp64 a)).le
    rw [add_mul, ← hn] at h6
    linarith
  · have h1 := roundEven_nearest ((a + b) / 2 ^ exp64 (a + b)) n
    have h2 := mul_le_mul_of_nonneg_right h1 p.le
    rw [← abs_of_pos p, ← abs_mul, ← abs_mul, abs_of_pos p, sub_mul, sub_mul, div_mul_cancel₀ _ p.ne'] at h2
    refine h2.trans ?_
    rw [← l, ← hn, abs_of_nonpos (by linarith)]
    linarith

/-- Subtracting the sum from the larger number, and adding the smaller one, gives the rounding error of the sum exactly. -/
theorem twoSum (ha : IsDouble a) (hb : IsDouble b) (h0 : 0 ≤ b) (h : b ≤ a) :
    rnd64 (rnd64 (a - rnd64 (a + b)) + b) = a + b - rnd64 (a + b) := by
  rcases h0.eq_or_lt with h0 | h0
  · subst h0
    simp only [add_zero, isDouble_iff.1 ha, sub_self, rnd64_zero]
  have pa := h0.trans_le h
  have px : 0 < a + b := by linarith
  have l1 := exp64_mono pa (show a ≤ a + b by linarith)
  have l0 := exp64_mono h0 h
  obtain ⟨na, hna⟩ := multiple_of ha
  obtain ⟨ka, hka⟩ := multiple_down l0 (multiple_of ha)
  obtain ⟨nb, hnb⟩ := multiple_of hb
  obtain ⟨nt, hnt⟩ : ∃ n : ℤ, rnd64 (a + b) = n * 2 ^ exp64 a := multiple_down l1 ⟨_, rfl⟩
  obtain ⟨kt, hkt⟩ : ∃ n : ℤ, rnd64 (a + b) = n * 2 ^ exp64 b := multiple_down (l0.trans l1) ⟨_, rfl⟩
  have he := add_error_le ha h0 h
  have hlo : a ≤ rnd64 (a + b) := by
    have := rnd64_mono (show a ≤ a + b by linarith)
    rwa [isDouble_iff.1 ha] at this
  have e1 : rnd64 (a - rnd64 (a + b)) = a - rnd64 (a + b) := by
    refine isDouble_iff.1 (isDouble_of_multiple pa ⟨na - nt, ?_⟩ ?_)
    · rw [hnt]; nth_rw 1 [hna]; push_cast; ring
    · rw [abs_of_nonpos (by linarith)]
      have := (rnd64_mono (show a + b ≤ 2 * a by linarith)).trans_eq ((isDouble_iff (x := 2 * a)).1 (by
        obtain ⟨n, e, h1, h2, h3⟩ := ha
        exact ⟨n, e + 1, h1, by omega, by rw [h3, zpow_add_one₀ (by norm_num)]; ring⟩))
      linarith
  rw [e1, show a - rnd64 (a + b) + b = a + b - rnd64 (a + b) by ring]
  refine isDouble_iff.1 (isDouble_of_multiple h0 ⟨ka + nb - kt, ?_⟩ ?_)
  · push_cast; linear_combination hka + hnb - hkt
  · rwa [abs_sub_comm]

/-- one step of the corrected sum: `f` is the sum so far, `x` the next number -/
theorem twoSum_step {f x : ℚ} (hf : IsDouble f) (hx : IsDouble x) (h0 : 0 ≤ f) (h1 : 0 ≤ x) :
    (|x| ≤ |f| → rnd64 (rnd64 (f - rnd64 (f + x)) + x) = f + x - rnd64 (f + x)) ∧
    (¬ |x| ≤ |f| → rnd64 (rnd64 (x - rnd64 (f + x)) + f) = f + x - rnd64 (f + x)) := by
  rw [abs_of_nonneg h0, abs_of_nonneg h1]
  refine ⟨fun h => twoSum hf hx h1 h, fun h => ?_⟩
  rw [add_comm f x]
  exact twoSum hx hf h0 (not_le.1 h).le

/-- The invariant of the corrected sum: after `k` additions `f` has at most `k` rounding errors, and `f + c` differs from the sum `P`
by a multiple of the square of the rounding unit only. -/
structure Corrected (T : ℚ) (k : ℕ) (P f c : ℚ) : Prop where
  sum : IsDouble f
  corr : IsDouble c
  f0 : 0 ≤ f
  near : |f - P| ≤ 2 * k * 2 ^ (-53 : ℤ) * T
  both : |f + c - P| ≤ 4 * k ^ 2 * (2 ^ (-53 : ℤ)) ^ 2 * T

theorem Corrected.step {T P f c x : ℚ} {k : ℕ} (h : Corrected T k P f c) (hx : IsDouble x) (h0 : 0 ≤ x) (hP : 0 ≤ P)
    (hT : P + x ≤ T) (hk : k ≤ 2 ^ 51) :
    Corrected T (k + 1) (P + x) (rnd64 (f + x)) (rnd64 (c + (f + x - rnd64 (f + x)))) ∧
      IsDouble (f + x - rnd64 (f + x)) := by
  have hz : IsDouble (f + x - rnd64 (f + x)) := by
    have s := twoSum_step h.sum hx h.f0 h0
    by_cases e : |x| ≤ |f|
    · rw [← s.1 e]; exact isDouble_rnd64 _
    · rw [← s.2 e]; exact isDouble_rnd64 _
  have e1 := add_error h.sum hx
  have e2 := add_error h.corr hz
  have hk' : (k : ℚ) * 2 ^ (-53 : ℤ) ≤ 1 / 4 := by
    have : (k : ℚ) ≤ 2 ^ 51 := by exact_mod_cast hk
    calc (k : ℚ) * 2 ^ (-53 : ℤ) ≤ 2 ^ 51 * 2 ^ (-53 : ℤ) := mul_le_mul_of_nonneg_right this (by positivity)
      _ = 1 / 4 := by norm_num
  have hu : (2 : ℚ) ^ (-53 : ℤ) ≤ 1 / 4 := by norm_num
  have hu0 := two_zpow_pos (-53)
  suffices key : |rnd64 (f + x) - (P + x)| ≤ 2 * ((k : ℚ) + 1) * 2 ^ (-53 : ℤ) * T ∧
      |rnd64 (f + x) + rnd64 (c + (f + x - rnd64 (f + x))) - (P + x)| ≤ 4 * ((k : ℚ) + 1) ^ 2 * (2 ^ (-53 : ℤ)) ^ 2 * T from
    ⟨⟨isDouble_rnd64 _, isDouble_rnd64 _, rnd64_nonneg (add_nonneg h.f0 h0), by push_cast; exact key.1,
      by push_cast; exact key.2⟩, hz⟩
  have hn := h.near
  have hb := h.both
  have hf0 := h.f0
  generalize (2 : ℚ) ^ (-53 : ℤ) = u at *
  generalize rnd64 (f + x) = t at *
  have hk0 : (0 : ℚ) ≤ k := Nat.cast_nonneg k
  generalize (k : ℚ) = κ at *
  have hT0 : 0 ≤ T := by linarith
  have q1 : κ * u * T ≤ 1 / 4 * T := mul_le_mul_of_nonneg_right hk' hT0
  have a1 : f + x ≤ 3 / 2 * T := by
    have := (abs_le.1 hn).2
    nlinarith
  rw [abs_of_nonneg (by linarith : 0 ≤ f + x)] at e1
  have n1 : |t - (P + x)| ≤ 2 * (κ + 1) * u * T := by
    have : t - (P + x) = (t - (f + x)) + (f - P) := by ring
    rw [this]
    refine (abs_add_le _ _).trans ?_
    have := mul_le_mul_of_nonneg_left a1 hu0.le
    nlinarith [mul_nonneg hu0.le hT0]
  refine ⟨n1, ?_⟩
  · have d : t + rnd64 (c + (f + x - t)) - (P + x) = (rnd64 (c + (f + x - t)) - (c + (f + x - t))) + (f + c - P) := by ring
    have d2 : |c + (f + x - t)| ≤ 4 * κ ^ 2 * u ^ 2 * T + 2 * (κ + 1) * u * T := by
      have : c + (f + x - t) = (f + c - P) - (t - (P + x)) := by ring
      rw [this]
      exact (abs_sub _ _).trans (add_le_add hb n1)
    rw [d]
    refine (abs_add_le _ _).trans ((add_le_add (e2.trans (mul_le_mul_of_nonneg_left d2 hu0.le)) hb).trans ?_)
    have w : 0 ≤ u ^ 2 * T := by positivity
    have w2 : 4 * κ * (κ * u) ≤ κ := by nlinarith
    nlinarith [mul_le_mul_of_nonneg_right w2 w, mul_nonneg hk0 w]

end BeamDesign
