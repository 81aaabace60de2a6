import Verif.Lemmas.Rounding

/-! # Equally spaced positions in double precision -/

set_option linter.unusedSectionVars false
set_option exponentiation.threshold 2000

namespace BeamDesign

open Spec

/-- The `i`th of `n` equally spaced positions as it is computed. -/
def spaced64 (L : ℚ) (n i : ℕ) : ℚ :=
  if n ≤ 1 then 0 else if i + 1 = n then L else rnd64 (i * rnd64 (L / ((n - 1 : ℕ) : ℚ)))

theorem rnd64_rel {x : ℚ} (h : 2 ^ (-1000 : ℤ) ≤ |x|) : |rnd64 x - x| ≤ 2 ^ (-53 : ℤ) * |x| := by
  rcases rnd64_error_cases x with h1 | ⟨h1, -⟩
  · exact h1
  · exfalso
    have h2 := Int.lt_zpow_succ_log_self (b := 2) (by norm_num) |x|
    push_cast at h2
    have h3 : Int.log 2 |x| ≤ -1022 := by
      unfold exp64 at h1
      omega
    have h4 : (2 : ℚ) ^ (Int.log 2 |x| + 1) ≤ 2 ^ (-1000 : ℤ) := zpow_le_zpow_right₀ (by norm_num) (by omega)
    exact absurd (h2.trans_le h4) (not_lt.2 h)

section
variable {L : ℚ} {n : ℕ} (hL : 2 ^ (-900 : ℤ) ≤ L) (hn : 2 ≤ n) (hn' : n ≤ 2 ^ 50)
include hL hn hn'

theorem step_bounds : 0 < L / ((n - 1 : ℕ) : ℚ) ∧ 2 ^ (-1000 : ℤ) ≤ L / ((n - 1 : ℕ) : ℚ) ∧
    |rnd64 (L / ((n - 1 : ℕ) : ℚ)) - L / ((n - 1 : ℕ) : ℚ)| ≤ 2 ^ (-53 : ℤ) * (L / ((n - 1 : ℕ) : ℚ)) := by
  have hL0 : 0 < L := (two_zpow_pos _).trans_le hL
  have hm : (1 : ℚ) ≤ ((n - 1 : ℕ) : ℚ) := by exact_mod_cast (by omega : 1 ≤ n - 1)
  have hm' : ((n - 1 : ℕ) : ℚ) ≤ 2 ^ 50 := by exact_mod_cast (by omega : n - 1 ≤ 2 ^ 50)
  have h0 : 0 < L / ((n - 1 : ℕ) : ℚ) := by positivity
  have h1 : (2 : ℚ) ^ (-1000 : ℤ) ≤ L / ((n - 1 : ℕ) : ℚ) := by
    rw [le_div_iff₀ (by linarith)]
    have e1 : (2 : ℚ) ^ (-1000 : ℤ) * ((n - 1 : ℕ) : ℚ) ≤ 2 ^ (-1000 : ℤ) * 2 ^ (50 : ℤ) :=
      mul_le_mul_of_nonneg_left (by exact_mod_cast hm') (two_zpow_pos _).le
    rw [← zpow_add₀ (by norm_num)] at e1
    refine e1.trans (le_trans ?_ hL)
    exact zpow_le_zpow_right₀ (by norm_num) (by norm_num)
  have h2 := rnd64_rel (x := L / ((n - 1 : ℕ) : ℚ)) (by rw [abs_of_pos h0]; exact h1)
  rw [abs_of_pos h0] at h2
  exact ⟨h0, h1, h2⟩

/-- Each position is within `L * 2 ^ -51` of where it should be. -/
theorem spaced64_error (i : ℕ) (hi : i < n) : |spaced64 L n i - L * (i / (n - 1))| ≤ 2 ^ (-51 : ℤ) * L := by
  have hL0 : 0 < L := (two_zpow_pos _).trans_le hL
  obtain ⟨h0, h1, h2⟩ := step_bounds hL hn hn'
  have hcast : ((n - 1 : ℕ) : ℚ) = n - 1 := by push_cast [Nat.cast_sub (show 1 ≤ n by omega)]; ring
  have hm : (1 : ℚ) ≤ ((n - 1 : ℕ) : ℚ) := by exact_mod_cast (by omega : 1 ≤ n - 1)
  unfold spaced64
  rw [if_neg (by omega)]
  split_ifs with h
  · have hc : (i : ℚ) / (n - 1) = 1 := by
      rw [← hcast, show i = n - 1 by omega, div_self (by linarith)]
    rw [hc, mul_one, sub_self, abs_zero]
    exact mul_nonneg (two_zpow_pos _).le hL0.le
  · set s := L / ((n - 1 : ℕ) : ℚ) with hs
    set t := rnd64 s with ht
    have htgt : L * (i / (n - 1)) = i * s := by rw [hs, hcast]; ring
    rw [htgt]
    rcases Nat.eq_zero_or_pos i with rfl | hi0
    · simp only [Nat.cast_zero, zero_mul, rnd64_zero, sub_self, abs_zero]
      exact mul_nonneg (two_zpow_pos _).le hL0.le
    have hi1 : (1 : ℚ) ≤ i := by exact_mod_cast hi0
    have his : (i : ℚ) * s ≤ L := by
      have : (i : ℚ) ≤ ((n - 1 : ℕ) : ℚ) := by exact_mod_cast (by omega : i ≤ n - 1)
      calc (i : ℚ) * s ≤ ((n - 1 : ℕ) : ℚ) * s := mul_le_mul_of_nonneg_right this h0.le
        _ = L := by rw [hs]; field_simp
    have hu : (2 : ℚ) ^ (-53 : ℤ) = 1 / 9007199254740992 := by norm_num
    have hu' : (2 : ℚ) ^ (-51 : ℤ) = 4 / 9007199254740992 := by norm_num
    rw [hu] at h2
    rw [hu']
    rw [abs_le] at h2
    have hts : t ≤ 2 * s := by linarith
    have hts' : s / 2 ≤ t := by linarith
    have hit : |(i : ℚ) * t - i * s| ≤ 1 / 9007199254740992 * L := by
      rw [← mul_sub, abs_mul, abs_of_pos (by linarith : (0 : ℚ) < i)]
      have : |t - s| ≤ 1 / 9007199254740992 * s := abs_le.2 h2
      calc (i : ℚ) * |t - s| ≤ i * (1 / 9007199254740992 * s) := mul_le_mul_of_nonneg_left this (by linarith)
        _ = 1 / 9007199254740992 * (i * s) := by ring
        _ ≤ _ := mul_le_mul_of_nonneg_left his (by norm_num)
    have hit0 : 0 < (i : ℚ) * t := by have : 0 < t := by linarith
                                      positivity
    have hrel : |rnd64 (i * t) - i * t| ≤ 1 / 9007199254740992 * (i * t) := by
      rcases rnd64_error_cases ((i : ℚ) * t) with h3 | ⟨h3, -⟩
      · rwa [abs_of_pos hit0, hu] at h3
      · have := isDouble_multiple (isDouble_rnd64 s)
        obtain ⟨z, hz⟩ := this
        have h4 := rnd64_error_multiple (x := (i : ℚ) * t) (i * z) (by rw [ht, hz]; push_cast; ring)
        rwa [abs_of_pos hit0, hu] at h4
    have hitL : (i : ℚ) * t ≤ 2 * L := by
      calc (i : ℚ) * t ≤ i * (2 * s) := mul_le_mul_of_nonneg_left hts (by linarith)
        _ = 2 * (i * s) := by ring
        _ ≤ _ := by linarith
    have := abs_sub_le (rnd64 (i * t)) (i * t) (i * s)
    have h5 : 1 / 9007199254740992 * ((i : ℚ) * t) ≤ 1 / 9007199254740992 * (2 * L) :=
      mul_le_mul_of_nonneg_left hitL (by norm_num)
    linarith

theorem spaced64_strict (i j : ℕ) (hij : i < j) (hj : j < n) : spaced64 L n i < spaced64 L n j := by
  have hL0 : 0 < L := (two_zpow_pos _).trans_le hL
  have hcast : ((n - 1 : ℕ) : ℚ) = n - 1 := by push_cast [Nat.cast_sub (show 1 ≤ n by omega)]; ring
  have hm : (0 : ℚ) < (n : ℚ) - 1 := by
    rw [← hcast]; exact_mod_cast (by omega : 0 < n - 1)
  have hm' : (n : ℚ) - 1 < 2 ^ 50 := by
    rw [← hcast]; exact_mod_cast (by omega : n - 1 < 2 ^ 50)
  have h1 := abs_le.1 (spaced64_error hL hn hn' i (by omega))
  have h2 := abs_le.1 (spaced64_error hL hn hn' j hj)
  have hij' : (i : ℚ) + 1 ≤ j := by exact_mod_cast hij
  have h3 : L * ((j : ℚ) / (n - 1)) - L * (i / (n - 1)) ≥ L * (1 / (n - 1)) := by
    rw [ge_iff_le, ← mul_sub, ← sub_div]
    exact mul_le_mul_of_nonneg_left (div_le_div_of_nonneg_right (by linarith) hm.le) hL0.le
  have h4 : (2 : ℚ) ^ (-51 : ℤ) * L * 2 < L * (1 / (n - 1)) := by
    have : (2 : ℚ) ^ (-51 : ℤ) * 2 < 1 / (n - 1) := by
      rw [lt_div_iff₀ hm]
      have : (2 : ℚ) ^ (-51 : ℤ) * 2 = 1 / 2 ^ 50 := by norm_num
      rw [this, div_mul_eq_mul_div, one_mul, div_lt_one (by norm_num)]
      exact hm'
    nlinarith
  linarith [h1.2, h2.1]

theorem spaced64_range (i : ℕ) (hi : i < n) : 0 ≤ spaced64 L n i ∧ spaced64 L n i ≤ L := by
  have h0 : spaced64 L n 0 = 0 := by
    unfold spaced64
    rw [if_neg (by omega), if_neg (by omega)]
    simp [rnd64_zero]
  have h1 : spaced64 L n (n - 1) = L := by
    unfold spaced64
    rw [if_neg (by omega), if_pos (by omega)]
  constructor
  · rcases Nat.eq_zero_or_pos i with rfl | h
    · exact h0.ge
    · exact h0 ▸ (spaced64_strict hL hn hn' 0 i h hi).le
  · by_cases h : i = n - 1
    · rw [h, h1]
    · exact (spaced64_strict hL hn hn' i (n - 1) (by omega) (by omega)).le.trans h1.le

end

/-- What `linspace` computes in double precision. -/
theorem linspace64 {L : ℚ} (hd : IsDouble L) (hL : 2 ^ (-900 : ℤ) ≤ L) (n : ℕ) (hn' : n ≤ 2 ^ 50) :
    linspace Rt.binary64 0 L n = .ok ((List.range n).map (spaced64 L n)) := by
  unfold linspace
  rw [if_neg (by omega)]
  simp only [Int.toNat_natCast]
  congr 1
  apply List.map_congr_left
  intro i hi
  have hi := List.mem_range.1 hi
  have hdl : rnd64 (L - 0) = L := by rw [sub_zero]; exact isDouble_iff.1 hd
  simp only [Rt.binary64, hdl, spaced64, add_zero, rnd64_idem]
  split_ifs with h1 h2 h3
  · rw [show i = 0 by omega]
    simp [rnd64_zero]
  · rfl
  · exfalso
    obtain ⟨e0, -, e2⟩ := step_bounds hL (by omega) hn'
    rw [h3, abs_le] at e2
    have hu : (2 : ℚ) ^ (-53 : ℤ) = 1 / 9007199254740992 := by norm_num
    rw [hu] at e2
    linarith [e2.1]
  · rfl

end BeamDesign
