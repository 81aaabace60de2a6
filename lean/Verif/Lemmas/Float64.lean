import Verif.Float64
import Mathlib.Tactic.Linarith
import Mathlib.Tactic.Positivity
import Mathlib.Tactic.NormNum
import Mathlib.Algebra.Ring.Int.Parity

/-! # Rounding to binary64 is monotone, idempotent and odd -/

namespace BeamDesign

theorem roundEven_int (n : ℤ) : roundEven (n : ℚ) = n := by
  unfold roundEven
  simp

theorem roundEven_cases (q : ℚ) :
    (roundEven q = ⌊q⌋ ∧ q - ⌊q⌋ ≤ 1 / 2) ∨ (roundEven q = ⌊q⌋ + 1 ∧ 1 / 2 ≤ q - ⌊q⌋) := by
  unfold roundEven
  split_ifs with h1 h2 h3
  · exact Or.inl ⟨rfl, h1.le⟩
  · exact Or.inr ⟨rfl, h2.le⟩
  · exact Or.inl ⟨rfl, not_lt.1 h2⟩
  · exact Or.inr ⟨rfl, not_lt.1 h1⟩

theorem roundEven_mono : Monotone roundEven := by
  intro a b hab
  have hf : ⌊a⌋ ≤ ⌊b⌋ := Int.floor_le_floor hab
  rcases hf.lt_or_eq with hlt | heq
  · have h1 : roundEven a ≤ ⌊a⌋ + 1 := by rcases roundEven_cases a with h | h <;> omega
    have h2 : ⌊b⌋ ≤ roundEven b := by rcases roundEven_cases b with h | h <;> omega
    omega
  · unfold roundEven
    rw [heq]
    split_ifs with h1 h2 h3 h4 h5 h6 h7 h8 h9 h10 <;> first | omega | skip
    all_goals exfalso; linarith

theorem floor_neg_of_not_int (q : ℚ) (h : q ≠ ⌊q⌋) : ⌊-q⌋ = -⌊q⌋ - 1 := by
  rw [Int.floor_eq_iff]
  have h1 := Int.floor_le q
  have h2 := Int.lt_floor_add_one q
  have h3 : (⌊q⌋ : ℚ) < q := lt_of_le_of_ne h1 (Ne.symm h)
  push_cast
  constructor <;> linarith

theorem roundEven_neg (q : ℚ) : roundEven (-q) = - roundEven q := by
  by_cases h : q = ⌊q⌋
  · rw [h, ← Int.cast_neg, roundEven_int, roundEven_int]
  · have hf := floor_neg_of_not_int q h
    have h2 := Int.lt_floor_add_one q
    unfold roundEven
    rw [hf]
    have he : Even (-⌊q⌋ - 1) ↔ ¬ Even ⌊q⌋ := by
      rw [Int.even_sub, even_neg]; simp
    push_cast
    simp only [he]
    split_ifs <;> first | omega | (exfalso; linarith)

theorem exp64_neg (x : ℚ) : exp64 (-x) = exp64 x := by
  unfold exp64; rw [abs_neg]

theorem rnd64_neg (x : ℚ) : rnd64 (-x) = - rnd64 x := by
  unfold rnd64
  rw [exp64_neg, neg_div, roundEven_neg]
  push_cast; ring

theorem rnd64_zero : rnd64 0 = 0 := by
  unfold rnd64
  have := roundEven_int 0
  simp only [Int.cast_zero] at this
  rw [zero_div, this]; simp

theorem two_zpow_pos (e : ℤ) : (0 : ℚ) < 2 ^ e := zpow_pos (by norm_num) e

theorem rnd64_nonneg {x : ℚ} (h : 0 ≤ x) : 0 ≤ rnd64 x := by
  unfold rnd64
  have h1 := roundEven_mono (div_nonneg h (two_zpow_pos (exp64 x)).le)
  have h0 := roundEven_int 0
  simp only [Int.cast_zero] at h0
  rw [h0] at h1
  have : (0 : ℚ) ≤ roundEven (x / 2 ^ exp64 x) := by exact_mod_cast h1
  exact mul_nonneg this (two_zpow_pos _).le

/-- A multiple of a power of two not below the last digit is not changed. -/
theorem rnd64_of_multiple {x : ℚ} {e n : ℤ} (he : exp64 x ≤ e) (hx : x = n * 2 ^ e) : rnd64 x = x := by
  unfold rnd64
  have h2 : (2 : ℚ) ^ e = 2 ^ (e - exp64 x).toNat * 2 ^ exp64 x := by
    rw [← zpow_natCast, ← zpow_add₀ (by norm_num)]
    congr 1
    have : 0 ≤ e - exp64 x := by omega
    rw [Int.toNat_of_nonneg this]; ring
  have h3 : x / 2 ^ exp64 x = ((n * 2 ^ (e - exp64 x).toNat : ℤ) : ℚ) := by
    rw [div_eq_iff (two_zpow_pos _).ne']
    refine hx.trans ?_
    rw [h2]
    push_cast; ring
  rw [h3, roundEven_int, ← h3]
  exact div_mul_cancel₀ _ (two_zpow_pos _).ne'

/-- Numbers with at most 53 binary digits, not below `2 ^ -1074`, are doubles. -/
theorem rnd64_of_small {e n : ℤ} (he : -1074 ≤ e) (hn : |n| < 2 ^ 53) :
    rnd64 (n * 2 ^ e) = n * 2 ^ e := by
  by_cases h0 : n = 0
  · subst h0; simp [rnd64_zero]
  · refine rnd64_of_multiple (e := e) ?_ rfl
    unfold exp64
    have hpos : (0 : ℚ) < |(n : ℚ) * 2 ^ e| := by
      rw [abs_pos]
      exact mul_ne_zero (by exact_mod_cast h0) (two_zpow_pos e).ne'
    have hlt : |(n : ℚ) * 2 ^ e| < ((2 : ℕ) : ℚ) ^ (53 + e) := by
      rw [abs_mul, abs_of_pos (two_zpow_pos e)]
      push_cast
      rw [zpow_add₀ (by norm_num)]
      apply mul_lt_mul_of_pos_right _ (two_zpow_pos e)
      have : ((|n| : ℤ) : ℚ) < ((2 ^ 53 : ℤ) : ℚ) := by exact_mod_cast hn
      push_cast at this
      norm_num at this ⊢
      exact this
    have := (Int.lt_zpow_iff_log_lt (b := 2) (by norm_num) hpos).1 hlt
    omega

theorem rnd64_mono_pos {x y : ℚ} (hx : 0 < x) (hxy : x ≤ y) : rnd64 x ≤ rnd64 y := by
  have hy : 0 < y := hx.trans_le hxy
  have hlog : Int.log 2 x ≤ Int.log 2 y := Int.log_mono_right hx hxy
  have hex : exp64 x = max (Int.log 2 x - 52) (-1074) := by unfold exp64; rw [abs_of_pos hx]
  have hey : exp64 y = max (Int.log 2 y - 52) (-1074) := by unfold exp64; rw [abs_of_pos hy]
  by_cases he : exp64 x = exp64 y
  · unfold rnd64
    rw [he]
    apply mul_le_mul_of_nonneg_right _ (two_zpow_pos _).le
    have := roundEven_mono (div_le_div_of_nonneg_right hxy (two_zpow_pos (exp64 y)).le)
    exact_mod_cast this
  · have he1 : Int.log 2 x < Int.log 2 y := by omega
    have he2 : exp64 y = Int.log 2 y - 52 := by omega
    have he3 : exp64 x ≤ Int.log 2 y := by omega
    -- the power of two between them
    have hB1 : (2 : ℚ) ^ Int.log 2 y ≤ y := by
      have := Int.zpow_log_le_self (b := 2) (by norm_num) hy
      exact_mod_cast this
    have hB2 : x ≤ (2 : ℚ) ^ Int.log 2 y := by
      have h1 := Int.lt_zpow_succ_log_self (b := 2) (by norm_num) x
      push_cast at h1
      refine h1.le.trans ?_
      exact zpow_le_zpow_right₀ (by norm_num) (by omega)
    refine le_trans (b := (2 : ℚ) ^ Int.log 2 y) ?_ ?_
    · have h1 : (2 : ℚ) ^ Int.log 2 y / 2 ^ exp64 x = ((2 ^ (Int.log 2 y - exp64 x).toNat : ℤ) : ℚ) := by
        push_cast
        rw [← zpow_natCast, Int.toNat_of_nonneg (by omega), zpow_sub₀ (by norm_num)]
      have h2 := roundEven_mono (div_le_div_of_nonneg_right hB2 (two_zpow_pos (exp64 x)).le)
      rw [h1, roundEven_int] at h2
      unfold rnd64
      rw [← le_div_iff₀ (two_zpow_pos _), h1]
      exact_mod_cast h2
    · have h1 : (2 : ℚ) ^ Int.log 2 y / 2 ^ exp64 y = ((2 ^ 52 : ℤ) : ℚ) := by
        rw [he2, ← zpow_sub₀ (by norm_num)]
        rw [show Int.log 2 y - (Int.log 2 y - 52) = (52 : ℕ) by push_cast; ring, zpow_natCast]
        push_cast; rfl
      have h2 := roundEven_mono (div_le_div_of_nonneg_right hB1 (two_zpow_pos (exp64 y)).le)
      rw [h1, roundEven_int] at h2
      unfold rnd64
      rw [← div_le_iff₀ (two_zpow_pos _), h1]
      exact_mod_cast h2

/-- Rounding to binary64 is monotone. -/
theorem rnd64_mono : Monotone rnd64 := by
  intro x y hxy
  rcases lt_trichotomy x 0 with hx | rfl | hx
  · rcases lt_or_ge y 0 with hy | hy
    · have := rnd64_mono_pos (x := -y) (y := -x) (by linarith) (by linarith)
      rw [rnd64_neg, rnd64_neg] at this
      linarith
    · have h1 := rnd64_nonneg (x := -x) (by linarith)
      rw [rnd64_neg] at h1
      have h2 := rnd64_nonneg hy
      linarith
  · rw [rnd64_zero]; exact rnd64_nonneg hxy
  · exact rnd64_mono_pos hx hxy

/-- A rounded number is a double. -/
theorem rnd64_idem (x : ℚ) : rnd64 (rnd64 x) = rnd64 x := by
  set e := exp64 x with he
  set n := roundEven (x / 2 ^ e) with hn
  have hr : rnd64 x = n * 2 ^ e := rfl
  have he0 : -1074 ≤ e := le_max_right _ _
  -- |n| ≤ 2^53
  have hq : |x / 2 ^ e| ≤ ((2 ^ 53 : ℤ) : ℚ) := by
    rw [abs_div, abs_of_pos (two_zpow_pos e), div_le_iff₀ (two_zpow_pos e)]
    have h1 := Int.lt_zpow_succ_log_self (b := 2) (by norm_num) |x|
    push_cast at h1
    refine h1.le.trans ?_
    have : (2 : ℚ) ^ (Int.log 2 |x| + 1) ≤ 2 ^ (53 + e) :=
      zpow_le_zpow_right₀ (by norm_num) (by rw [he]; unfold exp64; omega)
    refine this.trans (le_of_eq ?_)
    rw [zpow_add₀ (by norm_num)]
    norm_num
  have hub : n ≤ 2 ^ 53 := by
    have := roundEven_mono ((le_abs_self _).trans hq)
    rwa [roundEven_int] at this
  have hlb : -2 ^ 53 ≤ n := by
    have h1 : ((-2 ^ 53 : ℤ) : ℚ) ≤ x / 2 ^ e := by
      push_cast at hq ⊢
      linarith [neg_abs_le (x / 2 ^ e)]
    have := roundEven_mono h1
    rwa [roundEven_int] at this
  rw [hr]
  by_cases h1 : |n| < 2 ^ 53
  · exact rnd64_of_small he0 h1
  · have h2 : n = 2 * 2 ^ 52 ∨ n = 2 * (-2 ^ 52) := by
      rcases abs_cases n with ⟨h, _⟩ | ⟨h, _⟩ <;> rw [h] at h1 <;> norm_num at * <;> omega
    rcases h2 with h2 | h2
    · have h3 : (n : ℚ) * 2 ^ e = ((2 ^ 52 : ℤ) : ℚ) * 2 ^ (e + 1) := by
        rw [h2, zpow_add_one₀ (by norm_num)]; push_cast; ring
      rw [h3]
      exact rnd64_of_small (by omega) (by norm_num)
    · have h3 : (n : ℚ) * 2 ^ e = ((-2 ^ 52 : ℤ) : ℚ) * 2 ^ (e + 1) := by
        rw [h2, zpow_add_one₀ (by norm_num)]; push_cast; ring
      rw [h3]
      exact rnd64_of_small (by omega) (by norm_num)

/-- Evaluation of `exp64`. -/
theorem exp64_eq {x : ℚ} {e : ℤ} (h1 : (2 : ℚ) ^ (e + 52) ≤ |x|) (h2 : |x| < 2 ^ (e + 53))
    (he : -1074 ≤ e) : exp64 x = e := by
  have hpos : 0 < |x| := (two_zpow_pos _).trans_le h1
  have h3 : Int.log 2 |x| < e + 53 :=
    (Int.lt_zpow_iff_log_lt (b := 2) (by norm_num) hpos).1 (by exact_mod_cast h2)
  have h4 : e + 52 ≤ Int.log 2 |x| :=
    (Int.zpow_le_iff_le_log (b := 2) (by norm_num) hpos).1 (by exact_mod_cast h1)
  unfold exp64
  omega

/-- Twice a double is a double. -/
theorem rnd64_double {x : ℚ} (h : rnd64 x = x) : rnd64 (2 * x) = 2 * x := by
  by_cases h0 : x = 0
  · subst h0; simp [rnd64_zero]
  · refine rnd64_of_multiple (e := exp64 x + 1) (n := roundEven (x / 2 ^ exp64 x)) ?_ ?_
    · have hpos : 0 < |x| := abs_pos.2 h0
      have hpos2 : 0 < |2 * x| := by rw [abs_mul]; norm_num; exact h0
      have h1 : Int.log 2 |2 * x| < Int.log 2 |x| + 2 := by
        rw [← Int.lt_zpow_iff_log_lt (b := 2) (by norm_num) hpos2]
        have h2 := Int.lt_zpow_succ_log_self (b := 2) (by norm_num) |x|
        push_cast at h2 ⊢
        rw [abs_mul, show Int.log 2 |x| + 2 = (Int.log 2 |x| + 1) + 1 by ring, zpow_add₀ (by norm_num)]
        simp only [Nat.abs_ofNat, zpow_one]
        linarith
      unfold exp64
      omega
    · rw [zpow_add₀ (by norm_num)]
      conv_lhs => rw [← h]
      unfold rnd64
      ring

end BeamDesign
