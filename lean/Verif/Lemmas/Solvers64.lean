import Verif.Spec.Solvers64
import Verif.Lemmas.Rounding
import Verif.Lemmas.Fast64
import Verif.Props.Solvers

/-!
# Bisection on doubles
-/

namespace BeamDesign

open Spec

theorem maxDouble_lt : maxDouble < 2 ^ 1024 := by
  unfold maxDouble
  exact sub_lt_self _ (pow_pos (by norm_num) _)

theorem maxDouble_pos : 0 < maxDouble := by
  unfold maxDouble
  exact sub_pos.2 (pow_lt_pow_right₀ (by norm_num) (by norm_num))

theorem maxDouble_double : rnd64 maxDouble = maxDouble := by
  have h : maxDouble = ((2 ^ 53 - 1 : ℤ) : ℚ) * 2 ^ (971 : ℤ) := by
    unfold maxDouble
    rw [show (2 : ℚ) ^ 1024 = 2 ^ 53 * 2 ^ 971 by rw [← pow_add]]
    push_cast
    rw [show (2 : ℚ) ^ (971 : ℤ) = 2 ^ 971 by rw [← zpow_natCast]; norm_num]
    ring
  rw [h]
  exact rnd64_of_small (by norm_num) (by norm_num)

theorem rnd64_abs (x : ℚ) : |rnd64 x| = rnd64 |x| := by
  rcases le_total 0 x with h | h
  · rw [abs_of_nonneg h, abs_of_nonneg (rnd64_nonneg h)]
  · have := rnd64_nonneg (neg_nonneg.2 h)
    rw [abs_of_nonpos h, rnd64_neg]
    rw [rnd64_neg] at this
    exact abs_of_nonpos (by linarith)

theorem rnd64_max {x : ℚ} (h : |x| ≤ maxDouble) : |rnd64 x| ≤ maxDouble := by
  rw [rnd64_abs, ← maxDouble_double]
  exact rnd64_mono h

theorem finiteDouble_rnd {x : ℚ} (h : |x| ≤ maxDouble) : FiniteDouble (rnd64 x) := ⟨isDouble_rnd64 x, rnd64_max h⟩

theorem cap_double {x : ℚ} (h : |x| ≤ maxDouble) : Val.cap x = .fin x := by
  have h1 := maxDouble_lt
  have h2 := abs_le.1 h
  unfold Val.cap
  rw [if_neg (not_le.2 (h2.2.trans_lt h1)), if_neg (not_le.2 ((neg_lt_neg h1).trans_le h2.1))]

theorem lt_zero_cap (x : ℚ) : F64.lt (.fin 0) (Val.cap x) = decide (0 < x) := by
  have hp : (0 : ℚ) < 2 ^ 1024 := pow_pos (by norm_num) _
  unfold Val.cap
  split_ifs with h1 h2
  · simp [F64.lt, hp.trans_le h1]
  · have : ¬ 0 < x := not_lt.2 (h2.trans (neg_nonpos.2 hp.le))
    simp [F64.lt, this]
  · rfl

theorem sub_fin {a b : ℚ} (h : |b - a| ≤ maxDouble) : F64.sub (.fin b) (.fin a) = .fin (rnd64 (b - a)) := cap_double (rnd64_max h)

theorem relTol_val : F64.relTol = 4835703278458517 / 4835703278458516698824704 := by
  unfold F64.relTol
  rw [← fastRnd_eq]
  decide +kernel

theorem relTol_mul {b : ℚ} (h : |b| ≤ maxDouble) : |F64.relTol * b| ≤ maxDouble := by
  rw [abs_mul, relTol_val]
  refine le_trans ?_ h
  rw [abs_of_pos (by norm_num)]
  have := abs_nonneg b
  nlinarith

theorem mul_fin {a b : ℚ} (h : |a * b| ≤ maxDouble) : F64.mul (.fin a) (.fin b) = .fin (rnd64 (a * b)) := cap_double (rnd64_max h)

theorem lt_zero_mul (a b : ℚ) : F64.lt (.fin 0) (F64.mul (.fin a) (.fin b)) = decide (0 < rnd64 (a * b)) := lt_zero_cap _

/-- what `math.isclose` compares -/
def CloseR (t a b : ℚ) : Prop :=
  a = b ∨ |rnd64 (b - a)| ≤ |rnd64 (F64.relTol * b)| ∨ |rnd64 (b - a)| ≤ |rnd64 (F64.relTol * a)| ∨ |rnd64 (b - a)| ≤ t

instance (t a b : ℚ) : Decidable (CloseR t a b) := by
  unfold CloseR
  infer_instance

theorem le_fin (a b : ℚ) : F64.le (.fin a) (.fin b) = decide (a ≤ b) := by
  unfold F64.le F64.lt F64.eq
  simp [le_iff_lt_or_eq]

theorem isclose64_fin {t a b : ℚ} (ht : 0 ≤ t) (ha : |a| ≤ maxDouble) (hb : |b| ≤ maxDouble) (h : |b - a| ≤ maxDouble) :
    F64.isclose (.fin t) (.fin a) (.fin b) = .ok (decide (CloseR t a b)) := by
  unfold F64.isclose
  rw [if_neg (by simp [F64.lt, ht])]
  by_cases hab : a = b
  · rw [if_pos (by simp [F64.eq, hab])]
    simp [CloseR, hab]
  · rw [if_neg (by simp [F64.eq, hab]), if_neg (by simp [Val.isInf]), sub_fin h, mul_fin (relTol_mul ha), mul_fin (relTol_mul hb)]
    simp only [F64.abs, le_fin, CloseR, hab, false_or, Bool.decide_or, Bool.or_assoc]

theorem isclose64_zero {t y : ℚ} (ht : 0 ≤ t) (hy : FiniteDouble y) : F64.isclose (.fin t) (.fin y) (.fin 0) = .ok (decide (|y| ≤ t)) := by
  have hd := isDouble_iff.1 hy.1
  rw [isclose64_fin ht hy.2 (by rw [abs_zero]; exact maxDouble_pos.le) (by rw [zero_sub, abs_neg]; exact hy.2)]
  congr 1
  rw [decide_eq_decide]
  unfold CloseR
  rw [zero_sub, rnd64_neg, hd, abs_neg, mul_zero, rnd64_zero, abs_zero]
  constructor
  · rintro (h | h | h | h)
    · rw [h, abs_zero]; exact ht
    · exact h.trans ht
    · by_contra hc
      have hpos : 0 < |y| := lt_of_le_of_lt ht (not_le.1 hc)
      have h1 : |rnd64 (F64.relTol * y)| ≤ |rnd64 (y / 2)| := by
        rw [rnd64_abs, rnd64_abs]
        apply rnd64_mono
        rw [abs_mul, abs_div, relTol_val]
        norm_num
        linarith
      have h2 := h.trans h1
      have h3 := (rnd64_error (y / 2))
      obtain ⟨n, e, hn, he, rfl⟩ := hy.1
      -- half a double is nearer to zero than the double
      have h4 : |rnd64 ((n : ℚ) * 2 ^ e / 2)| < |(n : ℚ) * 2 ^ e| := by
        have hn0 : n ≠ 0 := by
          rintro rfl
          simp at hpos
        by_cases h5 : exp64 ((n : ℚ) * 2 ^ e / 2) ≤ e - 1
        · rw [rnd64_of_multiple (e := e - 1) (n := n) h5 (by rw [zpow_sub_one₀ (by norm_num)]; ring), abs_div]
          have : |(2 : ℚ)| = 2 := by norm_num
          rw [this]
          linarith
        · rcases rnd64_error_cases ((n : ℚ) * 2 ^ e / 2) with h6 | ⟨h6, h7⟩
          · have h8 : (2 : ℚ) ^ (-53 : ℤ) < 1 := by norm_num
            have h9 : |(n : ℚ) * 2 ^ e / 2| = |(n : ℚ) * 2 ^ e| / 2 := by rw [abs_div]; norm_num
            have h10 := abs_sub_abs_le_abs_sub (rnd64 ((n : ℚ) * 2 ^ e / 2)) ((n : ℚ) * 2 ^ e / 2)
            rw [h9] at h6 h10
            nlinarith
          · have he' : e = -1074 := by omega
            subst he'
            have h9 : |(n : ℚ) * 2 ^ (-1074 : ℤ) / 2| = |(n : ℚ) * 2 ^ (-1074 : ℤ)| / 2 := by rw [abs_div]; norm_num
            have h10 := abs_sub_abs_le_abs_sub (rnd64 ((n : ℚ) * 2 ^ (-1074 : ℤ) / 2)) ((n : ℚ) * 2 ^ (-1074 : ℤ) / 2)
            rw [h9] at h10
            rcases eq_or_ne |n| 1 with h11 | h11
            · have : rnd64 ((n : ℚ) * 2 ^ (-1074 : ℤ) / 2) = 0 := by
                unfold rnd64
                rw [h6]
                have h12 : (n : ℚ) * 2 ^ (-1074 : ℤ) / 2 / 2 ^ (-1074 : ℤ) = n / 2 := by
                  rw [div_div, mul_comm (2 : ℚ) (2 ^ (-1074 : ℤ)), ← div_div, mul_div_cancel_right₀ _ (two_zpow_pos _).ne']
                rw [h12]
                have : roundEven ((n : ℚ) / 2) = 0 := by
                  rcases abs_eq (by norm_num : (0 : ℤ) ≤ 1) |>.1 h11 with rfl | rfl
                  · decide +kernel
                  · decide +kernel
                rw [this]
                simp
              rw [this, abs_zero]
              exact hpos
            · have h12 : (2 : ℤ) ≤ |n| := by
                have := Int.one_le_abs hn0
                omega
              have h13 : (2 : ℚ) * 2 ^ (-1074 : ℤ) ≤ |(n : ℚ) * 2 ^ (-1074 : ℤ)| := by
                rw [abs_mul, abs_of_pos (two_zpow_pos _)]
                refine mul_le_mul_of_nonneg_right ?_ (two_zpow_pos _).le
                exact_mod_cast h12
              have h14 : (2 : ℚ) ^ (-1074 : ℤ) = 2 * 2 ^ (-1075 : ℤ) := by
                rw [show (-1074 : ℤ) = -1075 + 1 by norm_num, zpow_add_one₀ (by norm_num)]
                ring
              have h15 := two_zpow_pos (-1075)
              rw [h14] at h13
              rw [h14] at h10 h7 hpos ⊢
              linarith
      linarith
    · exact h
  · intro h
    exact Or.inr (Or.inr (Or.inr h))

/-! ## The width of the bracket -/

theorem sub_double_error {a b : ℚ} (ha : IsDouble a) (hb : IsDouble b) : |rnd64 (b - a) - (b - a)| ≤ 2 ^ (-53 : ℤ) * |b - a| := by
  obtain ⟨n, hn⟩ := isDouble_multiple ha
  obtain ⟨m, hm⟩ := isDouble_multiple hb
  refine rnd64_error_multiple (m - n) ?_
  rw [hn, hm]
  push_cast
  ring

theorem add_error {a b : ℚ} (ha : IsDouble a) (hb : IsDouble b) : |rnd64 (a + b) - (a + b)| ≤ 2 ^ (-53 : ℤ) * |a + b| := by
  obtain ⟨n, hn⟩ := isDouble_multiple ha
  obtain ⟨m, hm⟩ := isDouble_multiple hb
  refine rnd64_error_multiple (n + m) ?_
  rw [hn, hm]
  push_cast
  ring

theorem small_eta : (2 : ℚ) ^ (-1075 : ℤ) ≤ 2 ^ (-1000 : ℤ) / 2 ^ 60 := by
  rw [show (2 : ℚ) ^ (-1000 : ℤ) / 2 ^ 60 = 2 ^ (-1060 : ℤ) by
    rw [show (-1000 : ℤ) = -1060 + 60 by norm_num, zpow_add₀ (by norm_num)]
    norm_num]
  exact zpow_le_zpow_right₀ (by norm_num) (by norm_num)

theorem tol_1000 {t : ℚ} (ht : 2 ^ (-500 : ℤ) ≤ t) : 2 ^ (-1000 : ℤ) ≤ t :=
  (zpow_le_zpow_right₀ (by norm_num) (by norm_num)).trans ht

theorem two53 : (2 : ℚ) ^ (-53 : ℤ) = 1 / 9007199254740992 := by norm_num

/-- Two doubles that are not close are not much closer together than 10⁻⁹ of their size. -/
theorem apart {t a b : ℚ} (ht : 2 ^ (-1000 : ℤ) ≤ t) (ha : IsDouble a) (hb : IsDouble b) (h : ¬ CloseR t a b) :
    max |a| |b| ≤ 4 * 10 ^ 9 * |b - a| ∧ t ≤ 2 * |b - a| := by
  unfold CloseR at h
  push Not at h
  obtain ⟨-, h1, h2, h3⟩ := h
  have e1 := abs_le.1 (abs_sub_abs_le_abs_sub (rnd64 (b - a)) (b - a) |>.trans (sub_double_error ha hb) |> fun h => abs_le.2 ⟨?_, h⟩)
  · have key : ∀ x : ℚ, |rnd64 (F64.relTol * x)| < |rnd64 (b - a)| → |x| ≤ 4 * 10 ^ 9 * |b - a| := by
      intro x hx
      have e2 := rnd64_error (F64.relTol * x)
      have e3 := abs_sub_abs_le_abs_sub (F64.relTol * x) (rnd64 (F64.relTol * x))
      rw [abs_sub_comm (F64.relTol * x) (rnd64 (F64.relTol * x))] at e3
      have e4 := e3.trans e2
      have e5 : |F64.relTol * x| = F64.relTol * |x| := by
        rw [abs_mul, abs_of_pos (by rw [relTol_val]; norm_num)]
      rw [e5] at e4
      clear e2 e3 e5
      generalize rnd64 (F64.relTol * x) = q at *
      rw [relTol_val] at e4
      have hη := small_eta
      rw [two53] at *
      generalize (2 : ℚ) ^ (-1075 : ℤ) = η at *
      generalize (2 : ℚ) ^ (-1000 : ℤ) = τ at *
      have := abs_nonneg x
      have := e1.2
      norm_num at *
      linarith
    refine ⟨max_le (key a h2) (key b h1), ?_⟩
    have := e1.2
    rw [two53] at this
    linarith [abs_nonneg (b - a)]
  · have := abs_sub_abs_le_abs_sub (b - a) (rnd64 (b - a))
    rw [abs_sub_comm (b - a) (rnd64 (b - a))] at this
    linarith [sub_double_error ha hb]

theorem mid_error {a b : ℚ} (ha : IsDouble a) (hb : IsDouble b) :
    |rnd64 (rnd64 (a + b) / 2) - (a + b) / 2| ≤ 2 ^ (-51 : ℤ) * max |a| |b| + 2 ^ (-1075 : ℤ) := by
  have e1 := add_error ha hb
  have e2 := rnd64_error (rnd64 (a + b) / 2)
  have e3 : |a + b| ≤ 2 * max |a| |b| := (abs_add_le a b).trans (by linarith [le_max_left |a| |b|, le_max_right |a| |b|])
  have e4 : |rnd64 (a + b)| ≤ |a + b| + 2 ^ (-53 : ℤ) * |a + b| := by
    have := abs_sub_abs_le_abs_sub (rnd64 (a + b)) (a + b)
    linarith
  have e5 : |rnd64 (a + b) / 2| = |rnd64 (a + b)| / 2 := by rw [abs_div]; norm_num
  rw [e5] at e2
  have e6 : rnd64 (rnd64 (a + b) / 2) - (a + b) / 2 = (rnd64 (rnd64 (a + b) / 2) - rnd64 (a + b) / 2) + (rnd64 (a + b) - (a + b)) / 2 := by
    ring
  rw [e6]
  refine (abs_add_le _ _).trans ?_
  have e7 : |(rnd64 (a + b) - (a + b)) / 2| = |rnd64 (a + b) - (a + b)| / 2 := by rw [abs_div]; norm_num
  rw [e7]
  rw [two53] at *
  rw [show (2 : ℚ) ^ (-51 : ℤ) = 1 / 2251799813685248 by norm_num]
  generalize (2 : ℚ) ^ (-1075 : ℤ) = η at *
  linarith [abs_nonneg (a + b)]

/-- Halving on doubles: the new bracket has at most 1000 / 1999 of the width. -/
theorem halved {t a b : ℚ} (ht : 2 ^ (-1000 : ℤ) ≤ t) (ha : IsDouble a) (hb : IsDouble b) (h : ¬ CloseR t a b) :
    |b - rnd64 (rnd64 (a + b) / 2)| ≤ 1000 / 1999 * |b - a| ∧ |rnd64 (rnd64 (a + b) / 2) - a| ≤ 1000 / 1999 * |b - a| := by
  obtain ⟨h1, h2⟩ := apart ht ha hb h
  have e := mid_error ha hb
  have hη := small_eta
  rw [show (2 : ℚ) ^ (-51 : ℤ) = 1 / 2251799813685248 by norm_num] at e
  generalize rnd64 (rnd64 (a + b) / 2) = m at *
  generalize (2 : ℚ) ^ (-1075 : ℤ) = η at *
  generalize (2 : ℚ) ^ (-1000 : ℤ) = τ at *
  generalize max |a| |b| = M at *
  have hd : |m - (a + b) / 2| ≤ 1 / 10 ^ 5 * |b - a| := by
    norm_num at *
    linarith [abs_nonneg (b - a)]
  have e1 : b - m = (b - a) / 2 - (m - (a + b) / 2) := by ring
  have e2 : m - a = (b - a) / 2 + (m - (a + b) / 2) := by ring
  have e3 : |(b - a) / 2| = |b - a| / 2 := by rw [abs_div]; norm_num
  constructor
  · rw [e1]
    refine (abs_sub _ _).trans ?_
    rw [e3]
    linarith [abs_nonneg (b - a)]
  · rw [e2]
    refine (abs_add_le _ _).trans ?_
    rw [e3]
    linarith [abs_nonneg (b - a)]

/-- Two doubles that are close. -/
theorem near {t a b lo hi : ℚ} (ht : 2 ^ (-1000 : ℤ) ≤ t) (ha : IsDouble a) (hb : IsDouble b) (hM : |a| ≤ max |lo| |hi|)
    (hM' : |b| ≤ max |lo| |hi|) (h : CloseR t a b) : |b - a| ≤ (1 + 2 ^ (-40 : ℤ)) * max t (max |lo| |hi| / 10 ^ 9) := by
  have hη := small_eta
  have e0 := sub_double_error ha hb
  have e1 := abs_sub_abs_le_abs_sub (b - a) (rnd64 (b - a))
  rw [abs_sub_comm (b - a) (rnd64 (b - a))] at e1
  have h40 : (2 : ℚ) ^ (-40 : ℤ) = 1 / 1099511627776 := by norm_num
  have ht0 : 0 < t := (two_zpow_pos _).trans_le ht
  have hw : 0 ≤ max t (max |lo| |hi| / 10 ^ 9) := ht0.le.trans (le_max_left _ _)
  have m1 := le_max_left t (max |lo| |hi| / 10 ^ 9)
  have m2 := le_max_right t (max |lo| |hi| / 10 ^ 9)
  have key : ∀ x : ℚ, |x| ≤ max |lo| |hi| → |rnd64 (b - a)| ≤ |rnd64 (F64.relTol * x)| → |b - a| ≤ (1 + 2 ^ (-40 : ℤ)) * max t (max |lo| |hi| / 10 ^ 9) := by
    intro x hx hle
    have e2 := rnd64_error (F64.relTol * x)
    have e3 := abs_sub_abs_le_abs_sub (rnd64 (F64.relTol * x)) (F64.relTol * x)
    have e5 : |F64.relTol * x| = F64.relTol * |x| := by
      rw [abs_mul, abs_of_pos (by rw [relTol_val]; norm_num)]
    have e4 := e3.trans e2
    rw [e5] at e4
    clear e2 e3 e5
    generalize rnd64 (F64.relTol * x) = q at *
    rw [relTol_val] at e4
    rw [h40]
    rw [two53] at *
    generalize max t (max |lo| |hi| / 10 ^ 9) = W at *
    generalize max |lo| |hi| = M at *
    generalize (2 : ℚ) ^ (-1075 : ℤ) = η at *
    generalize (2 : ℚ) ^ (-1000 : ℤ) = τ at *
    have := abs_nonneg x
    have := abs_nonneg (b - a)
    norm_num at *
    linarith
  rcases h with h | h | h | h
  · rw [h, sub_self, abs_zero]
    exact mul_nonneg (by norm_num) hw
  · exact key b hM' h
  · exact key a hM h
  · rw [h40]
    rw [two53] at *
    generalize max t (max |lo| |hi| / 10 ^ 9) = W at *
    generalize max |lo| |hi| = M at *
    have := abs_nonneg (b - a)
    norm_num at *
    linarith

theorem near_point {t a b x : ℚ} (ht : 0 ≤ t) (hx : InBracket a b x)
    (h : |b - a| ≤ (1 + 2 ^ (-40 : ℤ)) * max t (max |a| |b| / 10 ^ 9)) : |b - a| ≤ lastWidth t x := by
  have hM : max |a| |b| ≤ |x| + |b - a| := by
    obtain ⟨h1, h2⟩ := hx
    have h3 : |a - x| ≤ |b - a| ∧ |b - x| ≤ |b - a| := by
      rcases le_total a b with hab | hab
      · rw [min_eq_left hab] at h1
        rw [max_eq_right hab] at h2
        rw [abs_of_nonneg (by linarith : 0 ≤ b - a), abs_le, abs_le]
        refine ⟨⟨?_, ?_⟩, ⟨?_, ?_⟩⟩ <;> linarith
      · rw [min_eq_right hab] at h1
        rw [max_eq_left hab] at h2
        rw [abs_of_nonpos (by linarith : b - a ≤ 0), abs_le, abs_le]
        refine ⟨⟨?_, ?_⟩, ⟨?_, ?_⟩⟩ <;> linarith
    refine max_le ?_ ?_
    · linarith [abs_sub_abs_le_abs_sub a x]
    · linarith [abs_sub_abs_le_abs_sub b x]
  unfold lastWidth
  rw [show (2 : ℚ) ^ (-40 : ℤ) = 1 / 1099511627776 by norm_num] at h
  rw [show (2 : ℚ) ^ (-20 : ℤ) = 1 / 1048576 by norm_num]
  have m1 := le_max_left t (|x| / 10 ^ 9)
  have m2 := le_max_right t (|x| / 10 ^ 9)
  generalize max t (|x| / 10 ^ 9) = W at *
  have := abs_nonneg x
  have := abs_nonneg (b - a)
  rcases max_cases t (max |a| |b| / 10 ^ 9) with ⟨h5, -⟩ | ⟨h5, -⟩
  · rw [h5] at h
    linarith
  · rw [h5] at h
    generalize max |a| |b| = M at *
    norm_num at *
    linarith

/-! ## The loop -/

theorem abs_bracket {lo hi a : ℚ} (h : InBracket lo hi a) : |a| ≤ max |lo| |hi| := by
  obtain ⟨h1, h2⟩ := h
  rw [abs_le]
  constructor
  · refine le_trans ?_ h1
    refine le_min ?_ ?_
    · linarith [neg_abs_le lo, le_max_left |lo| |hi|]
    · linarith [neg_abs_le hi, le_max_right |lo| |hi|]
  · exact h2.trans (max_le ((le_abs_self lo).trans (le_max_left _ _)) ((le_abs_self hi).trans (le_max_right _ _)))

theorem mid64_fin {a b : ℚ} (ha : |a| ≤ maxDouble / 2) (hb : |b| ≤ maxDouble / 2) :
    F64.mid (.fin a) (.fin b) = .fin (rnd64 (rnd64 (a + b) / 2)) := by
  have h : |a + b| ≤ maxDouble := (abs_add_le a b).trans (by linarith)
  have h' : |rnd64 (a + b) / 2| ≤ maxDouble := by
    have := rnd64_max h
    rw [abs_div, abs_of_pos (by norm_num : (0 : ℚ) < 2)]
    linarith [abs_nonneg (rnd64 (a + b))]
  have e1 : F64.add (.fin a) (.fin b) = .fin (rnd64 (a + b)) := cap_double (rnd64_max h)
  unfold F64.mid
  rw [e1]
  unfold Val.div
  rw [if_neg (by norm_num)]
  exact cap_double (rnd64_max h')

theorem loopCond64 {t a b : ℚ} (ht : 0 ≤ t) (ha : |a| ≤ maxDouble / 2) (hb : |b| ≤ maxDouble / 2) :
    F64.loopCond (.fin t) (F64.sub (.fin b) (.fin a)) (.fin b) (.fin a) = .ok (decide (¬ CloseR t b a)) := by
  have hp := maxDouble_pos
  have h : |b - a| ≤ maxDouble := (abs_sub b a).trans (by linarith)
  have h' : |a - b| ≤ maxDouble := by rw [abs_sub_comm]; exact h
  unfold F64.loopCond
  rw [sub_fin h, isclose64_fin ht (by linarith) (by linarith) h']
  simp only [F64.abs, F64.lt, decide_eq_true_eq]
  split_ifs with hlt
  · simp [bind, Except.bind, pure, Except.pure]
  · have : CloseR t b a := by
      refine Or.inr (Or.inr (Or.inr ?_))
      rw [← neg_sub, rnd64_neg, abs_neg]
      exact not_lt.1 hlt
    simp [this]

theorem closeR_comm {t a b : ℚ} : CloseR t a b ↔ CloseR t b a := by
  have e : |rnd64 (b - a)| = |rnd64 (a - b)| := by rw [← neg_sub, rnd64_neg, abs_neg]
  unfold CloseR
  rw [e, eq_comm]
  tauto

/-- A product that is not found to be positive: the signs differ, or the second factor is tiny. -/
theorem not_pos_product {t y z : ℚ} (ht : 2 ^ (-500 : ℤ) ≤ t) (hy : t < |y|) (h : ¬ 0 < rnd64 (y * z)) : y * z ≤ 0 ∨ |z| ≤ t := by
  by_contra hc
  push Not at hc
  obtain ⟨h1, h2⟩ := hc
  apply h
  have h3 : (2 : ℚ) ^ (-1000 : ℤ) ≤ y * z := by
    rw [← abs_of_pos h1, abs_mul, show (-1000 : ℤ) = -500 + -500 by norm_num, zpow_add₀ (by norm_num)]
    exact mul_le_mul (ht.trans hy.le) (ht.trans h2.le) (two_zpow_pos _).le (abs_nonneg _)
  have h4 := rnd64_mono h3
  have h5 : rnd64 ((2 : ℚ) ^ (-1000 : ℤ)) = 2 ^ (-1000 : ℤ) := by
    have := rnd64_of_small (e := -1000) (n := 1) (by norm_num) (by norm_num)
    simpa using this
  rw [h5] at h4
  exact (two_zpow_pos _).trans_le h4

variable {A : Type}

/-- One pass through the loop. -/
theorem body64 {f : SolveFun64 A} {args : List A} {g : ℚ → ℚ} {lo hi t a b : ℚ} (hlo : |lo| ≤ maxDouble / 2)
    (hhi : |hi| ≤ maxDouble / 2) (ht : 2 ^ (-500 : ℤ) ≤ t) (hf : Computes f args g lo hi) (ha : FiniteDouble a) (hb : FiniteDouble b)
    (ia : InBracket lo hi a) (ib : InBracket lo hi b) (hs : g a * g b ≤ 0 ∨ |g b| ≤ t) :
    (F64.bisectBody f args (.fin t) (.fin a) (.fin b) = .ok (.ret (.fin a)) ∧ |g a| ≤ t) ∨
    (F64.bisectBody f args (.fin t) (.fin a) (.fin b) = .ok (.ret (.fin b)) ∧ |g b| ≤ t) ∨
    (let m := rnd64 (rnd64 (a + b) / 2)
     FiniteDouble m ∧ InBracket a b m ∧ InBracket lo hi m ∧
     ((F64.bisectBody f args (.fin t) (.fin a) (.fin b) = .ok (.next (.fin m) (.fin b)) ∧ (g m * g b ≤ 0 ∨ |g b| ≤ t)) ∨
      (F64.bisectBody f args (.fin t) (.fin a) (.fin b) = .ok (.next (.fin a) (.fin m)) ∧ (g a * g m ≤ 0 ∨ |g m| ≤ t)))) := by
  have ht0 : 0 ≤ t := (two_zpow_pos _).le.trans ht
  have hM : max |lo| |hi| ≤ maxDouble / 2 := max_le hlo hhi
  have ba := (abs_bracket ia).trans hM
  have bb := (abs_bracket ib).trans hM
  obtain ⟨fa, da⟩ := hf a ha ia
  obtain ⟨fb, db⟩ := hf b hb ib
  have hbody : F64.bisectBody f args (.fin t) (.fin a) (.fin b) = (do
      if decide (|g a| ≤ t) then return .ret (.fin a)
      if decide (|g b| ≤ t) then return .ret (.fin b)
      if decide (0 < rnd64 (g a * g b)) then throw .notBracketed
      let yMid ← F64.call f (.fin (rnd64 (rnd64 (a + b) / 2))) args
      if F64.lt (.fin 0) (F64.mul (.fin (g a)) yMid) then return .next (.fin (rnd64 (rnd64 (a + b) / 2))) (.fin b)
      else return .next (.fin a) (.fin (rnd64 (rnd64 (a + b) / 2)))) := by
    unfold F64.bisectBody
    simp only [F64.call, fa, fb, isclose64_zero ht0 da, isclose64_zero ht0 db, mid64_fin ba bb, lt_zero_mul, Val.isInf, Val.isNan,
      bind, Except.bind, pure, Except.pure]
    rfl
  rw [hbody]
  by_cases h1 : |g a| ≤ t
  · left
    simp [h1, pure, Except.pure]
  by_cases h2 : |g b| ≤ t
  · right; left
    simp [h1, h2, pure, Except.pure]
  right; right
  have hs' : g a * g b ≤ 0 := by
    rcases hs with h | h
    · exact h
    · exact absurd h h2
  have h3 : ¬ 0 < rnd64 (g a * g b) := by
    have := rnd64_mono hs'
    rw [rnd64_zero] at this
    exact not_lt.2 this
  have hm := midBetween_binary64 a b (isDouble_iff.1 ha.1) (isDouble_iff.1 hb.1)
  have hm2 : InBracket a b (rnd64 (rnd64 (a + b) / 2)) := hm.2
  have im : InBracket lo hi (rnd64 (rnd64 (a + b) / 2)) := inBracket_trans hm2 ia ib
  have hmf : FiniteDouble (rnd64 (rnd64 (a + b) / 2)) := by
    refine ⟨isDouble_rnd64 _, ?_⟩
    have := abs_bracket im
    have := maxDouble_pos
    linarith
  obtain ⟨fm, dm⟩ := hf _ hmf im
  refine ⟨hmf, hm2, im, ?_⟩
  generalize rnd64 (rnd64 (a + b) / 2) = m at *
  simp only [F64.call, fm, h1, h2, h3, decide_false, Bool.false_eq_true, if_false, lt_zero_mul, bind, Except.bind, pure, Except.pure,
    decide_eq_true_eq]
  by_cases h4 : 0 < rnd64 (g a * g m)
  · left
    refine ⟨by rw [if_pos h4], Or.inl ?_⟩
    have h5 : 0 < g a * g m := by
      by_contra hc
      have := rnd64_mono (not_lt.1 hc)
      rw [rnd64_zero] at this
      linarith
    by_contra hc
    have := mul_pos h5 (not_le.1 hc)
    nlinarith [sq_nonneg (g m), mul_nonneg (sq_nonneg (g m)) (neg_nonneg.2 hs')]
  · right
    exact ⟨by rw [if_neg h4], not_pos_product ht (not_le.1 h1) h4⟩

theorem loop64 {f : SolveFun64 A} {args : List A} {g : ℚ → ℚ} {lo hi t : ℚ} (hlo : |lo| ≤ maxDouble / 2)
    (hhi : |hi| ≤ maxDouble / 2) (ht : 2 ^ (-500 : ℤ) ≤ t) (hd : IsDouble t) (hf : Computes f args g lo hi) {maxIts : Option ℤ}
    {failOn : Bool} : ∀ (N fuel i : ℕ) (a b : ℚ), N ≤ fuel → FiniteDouble a → FiniteDouble b → InBracket lo hi a → InBracket lo hi b →
      (g a * g b ≤ 0 ∨ |g b| ≤ t) → |b - a| ≤ t * (1999 / 1000) ^ N → (∀ m, maxIts = some m → (i : ℤ) + N < m) →
      ∃ x n, F64.bisectLoop f args (.fin t) maxIts failOn fuel i (.fin a) (.fin b) = some (.ok (.fin x, n)) ∧ n ≤ i + N ∧
        FiniteDouble x ∧ InBracket lo hi x ∧ Solves g t lo hi x := by
  have ht0 : 0 ≤ t := (two_zpow_pos _).le.trans ht
  have hM : max |lo| |hi| ≤ maxDouble / 2 := max_le hlo hhi
  have hp := maxDouble_pos
  intro N
  induction N with
  | zero =>
    intro fuel i a b _ ha hb ia ib hs hw hmax
    have ba := (abs_bracket ia).trans hM
    have bb := (abs_bracket ib).trans hM
    have hc : CloseR t b a := by
      refine Or.inr (Or.inr (Or.inr ?_))
      rw [rnd64_abs, abs_sub_comm, ← isDouble_iff.1 hd]
      refine rnd64_mono ?_
      simpa using hw
    have hm2 : InBracket a b (rnd64 (rnd64 (a + b) / 2)) :=
      (midBetween_binary64 a b (isDouble_iff.1 ha.1) (isDouble_iff.1 hb.1)).2
    have im : InBracket lo hi (rnd64 (rnd64 (a + b) / 2)) := inBracket_trans hm2 ia ib
    refine ⟨rnd64 (rnd64 (a + b) / 2), i, ?_, by omega, ⟨isDouble_rnd64 _, ?_⟩, im, Or.inr ⟨a, b, ha, hb, ia, ib, hm2, ?_, hs⟩⟩
    · unfold F64.bisectLoop
      rw [loopCond64 ht0 ba bb]
      simp only [hc, not_true, decide_false, mid64_fin ba bb]
    · have := abs_bracket im
      linarith
    · exact near_point ht0 hm2 (near (tol_1000 ht) ha.1 hb.1 (le_max_left _ _) (le_max_right _ _) (closeR_comm.1 hc))
  | succ N ih =>
    intro fuel i a b hfuel ha hb ia ib hs hw hmax
    have ba := (abs_bracket ia).trans hM
    have bb := (abs_bracket ib).trans hM
    obtain ⟨fuel, rfl⟩ : ∃ k, fuel = k + 1 := ⟨fuel - 1, by omega⟩
    by_cases hc : CloseR t b a
    · have hm2 : InBracket a b (rnd64 (rnd64 (a + b) / 2)) :=
        (midBetween_binary64 a b (isDouble_iff.1 ha.1) (isDouble_iff.1 hb.1)).2
      have im : InBracket lo hi (rnd64 (rnd64 (a + b) / 2)) := inBracket_trans hm2 ia ib
      refine ⟨rnd64 (rnd64 (a + b) / 2), i, ?_, by omega, ⟨isDouble_rnd64 _, ?_⟩, im, Or.inr ⟨a, b, ha, hb, ia, ib, hm2, ?_, hs⟩⟩
      · unfold F64.bisectLoop
        rw [loopCond64 ht0 ba bb]
        simp only [hc, not_true, decide_false, mid64_fin ba bb]
      · have := abs_bracket im
        linarith
      · exact near_point ht0 hm2 (near (tol_1000 ht) ha.1 hb.1 (le_max_left _ _) (le_max_right _ _) (closeR_comm.1 hc))
    have hc' : ¬ CloseR t a b := fun h => hc (closeR_comm.1 h)
    have hany : maxIts.any (fun m => decide (m ≤ ((i : ℤ) + 1))) = false := by
      cases maxIts with
      | none => rfl
      | some m =>
        have := hmax m rfl
        push_cast at this
        simp
        omega
    obtain ⟨w1, w2⟩ := halved (tol_1000 ht) ha.1 hb.1 hc'
    have hpow : ∀ w : ℚ, w ≤ 1000 / 1999 * |b - a| → w ≤ t * (1999 / 1000) ^ N := by
      intro w hw'
      rw [pow_succ] at hw
      have : 1000 / 1999 * |b - a| ≤ 1000 / 1999 * (t * ((1999 / 1000) ^ N * (1999 / 1000))) :=
        mul_le_mul_of_nonneg_left hw (by norm_num)
      refine hw'.trans (this.trans (le_of_eq ?_))
      ring
    have hloop : F64.bisectLoop f args (.fin t) maxIts failOn (fuel + 1) i (.fin a) (.fin b) =
        match F64.bisectBody f args (.fin t) (.fin a) (.fin b) with
        | .error e => some (.error e)
        | .ok (.ret x) => some (.ok (x, i + 1))
        | .ok (.next lo' hi') => F64.bisectLoop f args (.fin t) maxIts failOn fuel (i + 1) lo' hi' := by
      rw [F64.bisectLoop, loopCond64 ht0 ba bb]
      simp only [hc, not_false_eq_true, decide_true, hany]
      rfl
    rw [hloop]
    have hmax' : ∀ m, maxIts = some m → ((i + 1 : ℕ) : ℤ) + N < m := by
      intro m hm
      have := hmax m hm
      push_cast at this ⊢
      omega
    rcases body64 hlo hhi ht hf ha hb ia ib hs with ⟨h, hg⟩ | ⟨h, hg⟩ | ⟨dm, -, im, ⟨h, hg⟩ | ⟨h, hg⟩⟩
    · rw [h]
      exact ⟨a, i + 1, rfl, by omega, ha, ia, Or.inl hg⟩
    · rw [h]
      exact ⟨b, i + 1, rfl, by omega, hb, ib, Or.inl hg⟩
    · rw [h]
      obtain ⟨x, n, h1, h2, h3⟩ := ih fuel (i + 1) _ b (by omega) dm hb im ib hg (hpow _ w1) hmax'
      exact ⟨x, n, h1, by omega, h3⟩
    · rw [h]
      obtain ⟨x, n, h1, h2, h3⟩ := ih fuel (i + 1) a _ (by omega) ha dm ia im hg (hpow _ w2) hmax'
      exact ⟨x, n, h1, by omega, h3⟩

theorem closeR_zero {t y : ℚ} (ht : 0 ≤ t) (hy : FiniteDouble y) : CloseR t y 0 ↔ |y| ≤ t := by
  have h1 := isclose64_zero ht hy
  rw [isclose64_fin ht hy.2 (by rw [abs_zero]; exact maxDouble_pos.le) (by rw [zero_sub, abs_neg]; exact hy.2)] at h1
  simpa using h1

/-- One pass through the loop, from the values of the function. -/
theorem body_values {f : SolveFun64 A} {args : List A} {t yl yh ym : ℚ} {lo hi : Flt} (ht : 0 ≤ t) (h1 : f lo args = .ok (.fin yl))
    (h2 : f hi args = .ok (.fin yh)) (h3 : f (F64.mid lo hi) args = .ok (.fin ym)) (d1 : FiniteDouble yl) (d2 : FiniteDouble yh)
    (n1 : t < |yl|) (n2 : t < |yh|) (hb : ¬ 0 < rnd64 (yl * yh)) :
    F64.bisectBody f args (.fin t) lo hi =
      .ok (if 0 < rnd64 (yl * ym) then .next (F64.mid lo hi) hi else .next lo (F64.mid lo hi)) := by
  unfold F64.bisectBody
  simp only [F64.call, h1, h2, h3, isclose64_zero ht d1, isclose64_zero ht d2, lt_zero_mul, Val.isInf, Val.isNan, not_le.2 n1, not_le.2 n2,
    hb, decide_false, Bool.false_eq_true, if_false, Bool.or_self, bind, Except.bind, pure, Except.pure, decide_eq_true_eq]
  split_ifs <;> rfl

theorem maxDouble_big : (2 : ℚ) ^ 1023 ≤ maxDouble := by
  unfold maxDouble
  have h : (2 : ℚ) ^ 971 ≤ 2 ^ 1023 := pow_le_pow_right₀ (by norm_num) (by norm_num)
  have e : (2 : ℚ) ^ 1024 = 2 * 2 ^ 1023 := by rw [← pow_succ']
  rw [e]
  generalize (2 : ℚ) ^ 1023 = k at *
  generalize (2 : ℚ) ^ 971 = l at *
  clear e
  linarith

theorem maxDouble_eight : (8 : ℚ) ≤ maxDouble / 2 := by
  have h := maxDouble_big
  have e : (16 : ℚ) ≤ 2 ^ 1023 := by
    rw [show (16 : ℚ) = 2 ^ 4 by norm_num]
    exact pow_le_pow_right₀ (by norm_num) (by norm_num)
  generalize (2 : ℚ) ^ 1023 = k at *
  linarith

theorem small_half {x : ℚ} (h : |x| ≤ 8) : |x| ≤ maxDouble / 2 := h.trans maxDouble_eight

theorem small_max {x : ℚ} (h : |x| ≤ 8) : |x| ≤ maxDouble := (small_half h).trans (by linarith [maxDouble_pos])

theorem rnd64_unit : rnd64 1 = 1 := isDouble_iff.1 ⟨1, 0, by norm_num, by norm_num, by norm_num⟩

theorem rnd64_pow {e : ℤ} (he : -1074 ≤ e) : rnd64 ((2 : ℚ) ^ e) = 2 ^ e := by
  have := rnd64_of_small (e := e) (n := 1) he (by norm_num)
  simpa using this

theorem one_double : FiniteDouble 1 := ⟨⟨1, 0, by norm_num, by norm_num, by norm_num⟩, small_max (by norm_num)⟩

theorem neg_one_double : FiniteDouble (-1) := ⟨⟨-1, 0, by norm_num, by norm_num, by norm_num⟩, small_max (by norm_num)⟩

/-- The product of values of which one is 1 and the other -1. -/
theorem rnd64_signs : ¬ (0 : ℚ) < rnd64 (-1 * 1) := by
  rw [mul_one, rnd64_neg, rnd64_unit]
  norm_num

theorem rnd64_nonpos {x : ℚ} (h : x ≤ 0) : rnd64 x ≤ 0 := by
  have := rnd64_mono h
  rwa [rnd64_zero] at this

/-- the largest double and its half -/
theorem maxDouble_finite : FiniteDouble maxDouble := ⟨isDouble_iff.2 maxDouble_double, by rw [abs_of_pos maxDouble_pos]⟩

theorem half_max_double : rnd64 (maxDouble / 2) = maxDouble / 2 := by
  have h : maxDouble / 2 = ((2 ^ 53 - 1 : ℤ) : ℚ) * 2 ^ (970 : ℤ) := by
    unfold maxDouble
    rw [show (2 : ℚ) ^ 1024 = 2 ^ 53 * 2 ^ 971 by rw [← pow_add], show (2 : ℚ) ^ 971 = 2 ^ 970 * 2 by rw [← pow_succ]]
    push_cast
    rw [show (2 : ℚ) ^ (970 : ℤ) = 2 ^ 970 by rw [← zpow_natCast]; norm_num]
    ring
  rw [h]
  exact rnd64_of_small (by norm_num) (by norm_num)

theorem neg_finite {x : ℚ} (h : FiniteDouble x) : FiniteDouble (-x) :=
  ⟨isDouble_iff.2 (by rw [rnd64_neg, isDouble_iff.1 h.1]), by rw [abs_neg]; exact h.2⟩

theorem half_max_finite : FiniteDouble (maxDouble / 2) :=
  ⟨isDouble_iff.2 half_max_double, by rw [abs_of_pos (by linarith [maxDouble_pos])]; linarith [maxDouble_pos]⟩

/-- the middle of a bracket whose sum does not overflow -/
theorem mid_sum {a b : ℚ} (h : |a + b| ≤ maxDouble) : F64.mid (.fin a) (.fin b) = .fin (rnd64 (rnd64 (a + b) / 2)) := by
  have h' : |rnd64 (a + b) / 2| ≤ maxDouble := by
    have := rnd64_max h
    rw [abs_div, abs_of_pos (by norm_num : (0 : ℚ) < 2)]
    linarith [abs_nonneg (rnd64 (a + b))]
  unfold F64.mid
  rw [show F64.add (.fin a) (.fin b) = .fin (rnd64 (a + b)) from cap_double (rnd64_max h)]
  have : Val.div Rt.binary64 (.fin (rnd64 (a + b))) 2 = .fin (rnd64 (rnd64 (a + b) / 2)) := by
    simp [Val.div, Rt.binary64]
  rw [this]
  exact cap_double (rnd64_max h')

/-- the condition of the loop where the difference does not overflow -/
theorem loopCond_sum {t a b : ℚ} (ht : 0 ≤ t) (ha : |a| ≤ maxDouble) (hb : |b| ≤ maxDouble) (h : |b - a| ≤ maxDouble) :
    F64.loopCond (.fin t) (F64.sub (.fin b) (.fin a)) (.fin b) (.fin a) = .ok (decide (¬ CloseR t b a)) := by
  have h' : |a - b| ≤ maxDouble := by rw [abs_sub_comm]; exact h
  unfold F64.loopCond
  rw [sub_fin h, isclose64_fin ht hb ha h']
  simp only [F64.abs, F64.lt]
  by_cases hc : CloseR t b a
  · simp [hc, bind, Except.bind, pure, Except.pure]
  · have : t < |rnd64 (b - a)| := by
      unfold CloseR at hc
      push Not at hc
      rw [rnd64_abs, abs_sub_comm, ← rnd64_abs]
      exact hc.2.2.2
    simp [hc, this, bind, Except.bind, pure, Except.pure]

theorem body_ret_low {f : SolveFun64 A} {args : List A} {t yl yh : ℚ} {lo hi : Flt} (ht : 0 ≤ t) (h1 : f lo args = .ok (.fin yl))
    (h2 : f hi args = .ok (.fin yh)) (d1 : FiniteDouble yl) (n1 : |yl| ≤ t) : F64.bisectBody f args (.fin t) lo hi = .ok (.ret lo) := by
  unfold F64.bisectBody
  simp only [F64.call, h1, h2, isclose64_zero ht d1, n1, decide_true, bind, Except.bind, pure, Except.pure, if_true]

theorem body_ret_high {f : SolveFun64 A} {args : List A} {t yl yh : ℚ} {lo hi : Flt} (ht : 0 ≤ t) (h1 : f lo args = .ok (.fin yl))
    (h2 : f hi args = .ok (.fin yh)) (d1 : FiniteDouble yl) (d2 : FiniteDouble yh) (n1 : t < |yl|) (n2 : |yh| ≤ t) :
    F64.bisectBody f args (.fin t) lo hi = .ok (.ret hi) := by
  unfold F64.bisectBody
  simp only [F64.call, h1, h2, isclose64_zero ht d1, isclose64_zero ht d2, not_le.2 n1, n2, decide_true, decide_false, bind, Except.bind,
    pure, Except.pure, if_true, Bool.false_eq_true, if_false]

end BeamDesign
