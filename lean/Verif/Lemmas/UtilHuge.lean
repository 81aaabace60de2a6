import Verif.Lemmas.UtilWide
import Verif.Props.Rounding

/-!
# The secant method for very large utilisations, in double precision
-/

namespace BeamDesign

open Spec

/-- A large double absorbs what is at most one. -/
theorem rnd64_absorb {r h : ℚ} (hr : IsDouble r) (hlo : 2 ^ 55 ≤ r) (hh : |h| ≤ 1) : rnd64 (r + h) = r := by
  obtain ⟨n, e, hn, -, hre⟩ := hr
  have h2e := two_zpow_pos e
  have bh := abs_le.1 hh
  have hn' : (n : ℚ) ≤ 2 ^ 53 - 1 := by
    have : n ≤ 2 ^ 53 - 1 := by
      have := (abs_lt.1 hn).2
      omega
    exact_mod_cast this
  have he4 : (4 : ℚ) < 2 ^ e := by
    have : r ≤ (2 ^ 53 - 1) * 2 ^ e := by
      rw [hre]; exact mul_le_mul_of_nonneg_right hn' h2e.le
    by_contra hc
    push Not at hc
    have h3 : (2 ^ 53 - 1) * (2 : ℚ) ^ e ≤ (2 ^ 53 - 1) * 4 := mul_le_mul_of_nonneg_left hc (by norm_num)
    norm_num at h3 hlo this
    linarith
  have hz0 : 0 < r + h := by norm_num at hlo; linarith [bh.1]
  have hlt : r + h < 2 ^ (e + 53) := by
    rw [zpow_add₀ (by norm_num), show ((2 : ℚ) ^ (53 : ℤ)) = 2 ^ 53 by norm_cast]
    have : r ≤ (2 ^ 53 - 1) * 2 ^ e := by
      rw [hre]; exact mul_le_mul_of_nonneg_right hn' h2e.le
    linarith [bh.2, mul_comm ((2 : ℚ) ^ e) (2 ^ 53), sub_mul ((2 : ℚ) ^ 53) 1 (2 ^ e)]
  have hlog : Int.log 2 (r + h) < e + 53 := by
    have := (Int.lt_zpow_iff_log_lt (b := 2) (by norm_num) hz0 (x := e + 53)).1 (by exact_mod_cast hlt)
    exact this
  have hlog2 : 54 ≤ Int.log 2 (r + h) := by
    have := (Int.zpow_le_iff_le_log (b := 2) (by norm_num) hz0 (x := 54)).1 (by norm_num at hlo ⊢; linarith [bh.1])
    exact this
  have hex : exp64 (r + h) = Int.log 2 (r + h) - 52 := by
    unfold exp64
    rw [abs_of_pos hz0, max_eq_left (by omega)]
  have hg0 := two_zpow_pos (exp64 (r + h))
  obtain ⟨k, hk⟩ : ∃ k : ℤ, r = k * 2 ^ exp64 (r + h) := by
    refine ⟨n * 2 ^ (e - exp64 (r + h)).toNat, ?_⟩
    push_cast
    rw [← zpow_natCast, Int.toNat_of_nonneg (by omega), mul_assoc, ← zpow_add₀ (by norm_num), sub_add_cancel, hre]
  have hg4 : (4 : ℚ) ≤ 2 ^ exp64 (r + h) := by
    calc (4 : ℚ) = 2 ^ (2 : ℤ) := by norm_num
      _ ≤ _ := zpow_le_zpow_right₀ (by norm_num) (by omega)
  unfold rnd64
  have hround : roundEven ((r + h) / 2 ^ exp64 (r + h)) = k := by
    have h1 := roundEven_error ((r + h) / 2 ^ exp64 (r + h))
    have h2 : |(r + h) / 2 ^ exp64 (r + h) - k| ≤ 1 / 4 := by
      have : (r + h) / 2 ^ exp64 (r + h) - k = h / 2 ^ exp64 (r + h) := by
        rw [div_sub' hg0.ne', mul_comm _ (k : ℚ), ← hk]
        congr 1; ring
      rw [this, abs_div, abs_of_pos hg0, div_le_iff₀ hg0]
      linarith
    have h3 := abs_add_le ((roundEven ((r + h) / 2 ^ exp64 (r + h)) : ℚ) - (r + h) / 2 ^ exp64 (r + h))
      ((r + h) / 2 ^ exp64 (r + h) - k)
    rw [sub_add_sub_cancel] at h3
    have h4 : |((roundEven ((r + h) / 2 ^ exp64 (r + h)) - k : ℤ) : ℚ)| < 1 := by
      push_cast
      linarith
    rw [← Int.cast_abs] at h4
    have h5 : |roundEven ((r + h) / 2 ^ exp64 (r + h)) - k| < 1 := by exact_mod_cast h4
    have := abs_lt.1 h5
    omega
  rw [hround, ← hk]

theorem eta_small : (2 : ℚ) ^ (-1075 : ℤ) ≤ 2 ^ (-53 : ℤ) / 10 ^ 30 := by
  rw [show (2 : ℚ) ^ (-1075 : ℤ) = 2 ^ (-53 : ℤ) * 2 ^ (-1022 : ℤ) by rw [← zpow_add₀ (by norm_num)]; norm_num,
    div_eq_mul_inv]
  refine mul_le_mul_of_nonneg_left ?_ (two_zpow_pos _).le
  calc (2 : ℚ) ^ (-1022 : ℤ) ≤ 2 ^ (-120 : ℤ) := zpow_le_zpow_right₀ (by norm_num) (by norm_num)
    _ ≤ _ := by norm_num

theorem eta_cap {cap : ℚ} (h : 2 ^ (-1000 : ℤ) ≤ cap) : (2 : ℚ) ^ (-1075 : ℤ) ≤ 2 ^ (-53 : ℤ) / 1000 * cap := by
  rw [show (2 : ℚ) ^ (-1075 : ℤ) = 2 ^ (-53 : ℤ) * 2 ^ (-22 : ℤ) * 2 ^ (-1000 : ℤ) by
    rw [← zpow_add₀ (by norm_num), ← zpow_add₀ (by norm_num)]; norm_num]
  refine mul_le_mul ?_ h (two_zpow_pos _).le (by positivity)
  norm_num

theorem double_hundred : IsDouble 100000 := ⟨100000, 0, by norm_num, by norm_num, by norm_num⟩

theorem double_neg_hundred : IsDouble (-100000) := ⟨-100000, 0, by norm_num, by norm_num, by norm_num⟩

theorem double_unit : IsDouble 1 := ⟨1, 0, by norm_num, by norm_num, by norm_num⟩

/-- The arithmetic of doubles, where the product with the relative tolerance may be another one. -/
structure Like64 (rt : Rt ℚ) : Prop where
  add : ∀ a b, rt.add a b = rnd64 (a + b)
  sub : ∀ a b, rt.sub a b = rnd64 (a - b)
  mul : ∀ a b, IsDouble a → rt.mul a b = rnd64 (a * b)
  div : ∀ a b, rt.div a b = rnd64 (a / b)
  rel : NearRel rt IsDouble (2 ^ (-53 : ℤ)) (2 ^ (-1075 : ℤ))

theorem Like64.rounds {rt : Rt ℚ} (h : Like64 rt) : Rounds rt IsDouble (2 ^ (-53 : ℤ)) (2 ^ (-1075 : ℤ)) where
  add := fun a b ha hb => by rw [h.add]; exact C78_binary64_rounds.add a b ha hb
  sub := fun a b ha hb => by rw [h.sub]; exact C78_binary64_rounds.sub a b ha hb
  mul := fun a b ha hb => by rw [h.mul a b ha]; exact C78_binary64_rounds.mul a b ha hb
  div := fun a b ha hb h0 => by rw [h.div]; exact C78_binary64_rounds.div a b ha hb h0

theorem like64_binary64 : Like64 Rt.binary64 where
  add := fun _ _ => rfl
  sub := fun _ _ => rfl
  mul := fun _ _ _ => rfl
  div := fun _ _ => rfl
  rel := nearRel_of (two_zpow_pos _).le fun _ _ => rnd64_error _

theorem Like64.ratio_neg {rt : Rt ℚ} (h : Like64 rt) {x : ℚ} (hx : IsDouble x) (hn : IsDouble (-x)) (t cap : ℚ) :
    rt.div (rt.mul (-x) t) cap = -rt.div (rt.mul x t) cap := by
  rw [h.div, h.div, h.mul _ _ hx, h.mul _ _ hn, neg_mul, rnd64_neg, neg_div, rnd64_neg]

/-- The passes of the secant method for one tension of more than `4 * 10 ^ 11` times the capacity, in double precision; the
relative tolerance may be rounded. -/
theorem util_huge {rt : Rt ℚ} {tol : ℚ} (hrt : Like64 rt) (hT : NearTol tol) {t cap m : ℚ} (ht : IsDouble t) (hc : IsDouble cap) (hcap : 2 ^ (-1000 : ℤ) ≤ cap)
    (hm : m = t / cap) (hlo : 4 * 10 ^ 11 < m) (hhi : m ≤ 2 ^ (1000 : ℤ)) :
    ∃ x, IsDouble x ∧ TwoSteps rt tol t cap 0 x ∧ |x * m| ≤ 2 ∧ x ≠ 0 ∧ |rt.div 1 x - m| ≤ 610 * 2 ^ (-53 : ℤ) * m := by
  have hu : (2 : ℚ) ^ (-53 : ℤ) ≤ 1 / (8 * 10 ^ 15) := by norm_num
  have hrel := hrt.rel
  have hc0 : 0 < cap := (two_zpow_pos _).trans_le hcap
  have hm0 : 0 < m := lt_trans (by norm_num) hlo
  have ht0 : ¬ t ≤ 0 := by
    intro h
    have := div_nonpos_of_nonpos_of_nonneg h hc0.le
    rw [← hm] at this
    linarith
  obtain ⟨hrd, he⟩ := ratio_wide hrt.rounds (two_zpow_pos _).le hu ht hc hc0 eta_small (eta_cap hcap) double_hundred
  obtain ⟨r, hr⟩ : ∃ r, r = rt.div (rt.mul 100000 t) cap := ⟨_, rfl⟩
  rw [← hr, ← hm, abs_of_pos (show 0 < 100000 * m by positivity)] at he
  rw [← hr] at hrd
  obtain ⟨u, hue⟩ : ∃ u : ℚ, u = 2 ^ (-53 : ℤ) := ⟨_, rfl⟩
  have hu0 : 0 < u := by rw [hue]; exact two_zpow_pos _
  have hum : 0 < u * m := mul_pos hu0 hm0
  have he' : |r - 100000 * m| ≤ 220000 * (u * m) := by
    refine he.trans ?_
    rw [← hue]
    have : u * 1 ≤ u * m := mul_le_mul_of_nonneg_left (by norm_num at hlo; linarith) hu0.le
    linarith [mul_left_comm u 100000 m]
  have hus : u ≤ 1 / 10 ^ 15 := by rw [hue]; norm_num
  have hums : u * m ≤ 1 / 10 ^ 15 * m := mul_le_mul_of_nonneg_right hus hm0.le
  norm_num at hums
  have br := abs_le.1 he'
  have hr55 : 2 ^ 55 ≤ r := by norm_num at hlo ⊢; linarith [br.1]
  have hr0 : 0 < r := lt_of_lt_of_le (by norm_num) hr55
  have fX : utilFunc rt 100000 [(t, cap)] = .ok (.fin r) := by
    simp only [utilFunc, if_neg hc0.ne']
    rw [← hr]
    rw [hrt.sub, sub_eq_add_neg, rnd64_absorb hrd hr55 (by norm_num)]
  have fX' : utilFunc rt (-100000) [(t, cap)] = .ok (.fin (-r)) := by
    simp only [utilFunc, if_neg hc0.ne']
    rw [hrt.ratio_neg double_hundred double_neg_hundred, ← hr, hrt.sub]
    rw [show -r - 1 = -(r + 1) by ring, rnd64_neg, rnd64_absorb hrd hr55 (by norm_num)]
  have hz : IsDouble 0 := ⟨0, 0, by norm_num, by norm_num, by norm_num⟩
  have f0 : utilFunc rt 0 [(t, cap)] = .ok (.fin (-1)) := by
    simp only [utilFunc, if_neg hc0.ne', hrt.sub, hrt.div, hrt.mul _ _ hz, zero_mul, rnd64_zero, zero_div, zero_sub, rnd64_neg]
    rw [isDouble_iff.1 double_unit]
  have hnr : IsDouble (-r) := by
    rw [isDouble_iff] at hrd ⊢
    rw [rnd64_neg, hrd]
  have hn1 : IsDouble (-1) := ⟨-1, 0, by norm_num, by norm_num, by norm_num⟩
  -- the first pass
  have hcl1 : isclose rt tol (.fin r) (.fin (-r)) = .ok false := by
    rcases isclose_cases hrt.rounds hu eta_small hT hrel hrd hnr with ⟨-, -, h⟩ | ⟨h, -⟩
    · exfalso
      have h3 := h (Or.inl (by rw [abs_of_pos hr0]; norm_num at hr55; linarith))
      rw [abs_neg, abs_of_pos hr0, abs_of_neg (by linarith)] at h3
      norm_num at h3
      linarith
    · exact h
  have hw1 : rt.sub r (-r) = 2 * r := by
    rw [hrt.sub, sub_neg_eq_add, ← two_mul, rnd64_double (isDouble_iff.1 hrd)]
  have b1 : secantBody rt (utilFunc rt) [(t, cap)] tol (-100000) 100000 = .ok 0 := by
    rw [secantBody_val fX fX' hcl1 (by rw [hw1]; positivity), hw1, hrt.div, hrt.sub, hrt.mul _ _ double_hundred,
      hrt.mul _ _ double_neg_hundred]
    rw [show (-100000 : ℚ) * r = 100000 * -r by ring, sub_self, rnd64_zero, zero_div, rnd64_zero]
  -- the second pass
  have hcl2 : isclose rt tol (.fin (-1)) (.fin r) = .ok false := by
    rcases isclose_cases hrt.rounds hu eta_small hT hrel hn1 hrd with ⟨-, -, h⟩ | ⟨h, -⟩
    · exfalso
      have h3 := h (Or.inl (by norm_num))
      rw [abs_neg, abs_one, abs_of_pos hr0, abs_of_pos (by linarith)] at h3
      norm_num at h3 hr55
      linarith
    · exact h
  have hw2 : rt.sub (-1) r = -r := by
    rw [hrt.sub, show -1 - r = -(r + 1) by ring, rnd64_neg, rnd64_absorb hrd hr55 (by norm_num)]
  obtain ⟨x, hx⟩ : ∃ x, x = rt.div 100000 r := ⟨_, rfl⟩
  have b2 : secantBody rt (utilFunc rt) [(t, cap)] tol 100000 0 = .ok x := by
    rw [secantBody_val f0 fX hcl2 (by rw [hw2]; exact neg_ne_zero.2 hr0.ne'), hw2, hx, hrt.div, hrt.div, hrt.sub, hrt.mul _ _ double_hundred, hrt.mul _ _ hz]
    rw [zero_mul, rnd64_zero, sub_zero, mul_neg_one, isDouble_iff.1 double_neg_hundred, isDouble_iff.1 double_neg_hundred,
      neg_div_neg_eq]
  -- its guess
  have dx := hrt.rounds.div 100000 r double_hundred hrd hr0.ne'
  rw [← hx, ← hue] at dx
  have hηR : (2 : ℚ) ^ (-1075 : ℤ) * m ≤ u / 1000 := by
    rw [show (2 : ℚ) ^ (-1075 : ℤ) = 2 ^ (-53 : ℤ) * 2 ^ (-22 : ℤ) * 2 ^ (-1000 : ℤ) by
      rw [← zpow_add₀ (by norm_num), ← zpow_add₀ (by norm_num)]; norm_num, ← hue, mul_assoc]
    have h3 : (2 : ℚ) ^ (-1000 : ℤ) * m ≤ 1 := by
      calc (2 : ℚ) ^ (-1000 : ℤ) * m ≤ 2 ^ (-1000 : ℤ) * 2 ^ (1000 : ℤ) := mul_le_mul_of_nonneg_left hhi (two_zpow_pos _).le
        _ = 1 := by rw [← zpow_add₀ (by norm_num)]; norm_num
    have h4 : u * (2 : ℚ) ^ (-22 : ℤ) * (2 ^ (-1000 : ℤ) * m) ≤ u * 2 ^ (-22 : ℤ) * 1 :=
      mul_le_mul_of_nonneg_left h3 (mul_pos hu0 (two_zpow_pos _)).le
    refine h4.trans ?_
    norm_num
    linarith
  have hxm : |x * m - 1| ≤ 5 * u := by
    have hL : 99000 * m ≤ |r| := by rw [abs_of_pos hr0]; linarith [br.1]
    have h5 := div_near hu0.le (s := 100000) (S := 100000) (e1 := 0) (W := 100000 * m) (R := 1 / m) (by field_simp) (by simp)
      he' (by positivity) hL dx.2
    have e : x * m - 1 = (x - 1 / m) * m := by field_simp
    rw [e, abs_mul, abs_of_pos hm0]
    refine (mul_le_mul_of_nonneg_right h5 hm0.le).trans ?_
    rw [abs_of_pos (show 0 < 1 / m by positivity)]
    generalize (2 : ℚ) ^ (-1075 : ℤ) = η at hηR ⊢
    have e2 : ((1 + u) * ((0 + 220000 * (u * m) * (1 / m)) / (99000 * m)) + u * (1 / m) + η) * m =
        (1 + u) * (220 / 99 * u) + u + η * m := by
      field_simp
      ring
    rw [e2]
    have huu : u * u ≤ 1 / 10 ^ 15 * u := mul_le_mul_of_nonneg_right hus hu0.le
    norm_num at huu
    linarith [add_mul 1 u (220 / 99 * u), mul_left_comm u (220 / 99) u]
  have hxn : NearRoot (2 ^ (-53 : ℤ)) m x := by
    unfold NearRoot
    rw [← hue]
    linarith
  have bx := abs_le.1 hxm
  have hxsm : |x| ≤ 1 / 10 ^ 10 := by
    by_contra h
    push Not at h
    have h3 : 1 / 10 ^ 10 * (4 * 10 ^ 11) ≤ |x| * m := mul_le_mul h.le hlo.le (by positivity) (abs_nonneg _)
    rw [show |x| * m = |x * m| by rw [abs_mul, abs_of_pos hm0]] at h3
    have h4 : |x * m| ≤ 2 := abs_le.2 ⟨by norm_num at hus; linarith [bx.1], by norm_num at hus; linarith [bx.2]⟩
    norm_num [-abs_mul] at h3
    linarith
  have hend : |rt.sub x 0| ≤ tol := by
    rw [hrt.sub, sub_zero, isDouble_iff.1 dx.1]
    refine hxsm.trans (le_trans ?_ hT.1)
    norm_num
  have hg : ∀ a b, IsDouble a → IsDouble b → 1 ≤ |a| → 11 / 10 ^ 10 * (|a| + |b|) < |b - a| →
      loopCond rt tol (rt.sub b a) a b = .ok true := by
    intro a b ha hb h1 hfar
    rcases loopCond_cases hrt.rounds hu eta_small hT hrel ha hb with ⟨-, h⟩ | ⟨h, -⟩
    · exact absurd (h (Or.inl h1)) (not_le.2 hfar)
    · exact h
  obtain ⟨hx0, hv⟩ := inverse_near hrt.rounds (two_zpow_pos _).le hu double_unit hm0
    (by
      have h3 := eta_small
      rw [← hue] at h3 ⊢
      have h6 : u * 1 ≤ u * m := mul_le_mul_of_nonneg_left (by norm_num at hlo; linarith) hu0.le
      refine h3.trans (le_trans ?_ h6)
      norm_num
      linarith) dx.1 hxn
  exact ⟨x, dx.1, ⟨hg _ _ double_neg_hundred double_hundred (by norm_num) (by norm_num), b1,
    hg _ _ double_hundred hz (by norm_num) (by norm_num), b2, loopCond_false hend⟩,
    abs_le.2 ⟨by norm_num at hus; linarith [bx.1], by norm_num at hus; linarith [bx.2]⟩, hx0, hv⟩

/-- The starting guesses are not taken for equal. -/
theorem start_far {rt : Rt ℚ} {tol : ℚ} (hrt : Like64 rt) (hT : NearTol tol) :
    isclose rt tol (.fin 100000) (.fin (-100000)) = .ok false := by
  rcases isclose_cases hrt.rounds (by norm_num) eta_small hT hrt.rel double_hundred double_neg_hundred with ⟨-, -, h⟩ | ⟨h, -⟩
  · have := h (Or.inl (by norm_num))
    norm_num at this
  · exact h

/-- The loop of the secant method for one tension of any size, in double precision. -/
theorem util_run {rt : Rt ℚ} {tol : ℚ} (hrt : Like64 rt) (hT : NearTol tol) {t cap m : ℚ} (ht : IsDouble t) (hc : IsDouble cap)
    (hcap : 2 ^ (-900 : ℤ) ≤ cap) (ht0 : 0 < t) (hm : m = t / cap) (hhi : m ≤ 2 ^ (1000 : ℤ)) {cond body}
    (H : 4 / 10 ^ 15 < m → SameLoop rt IsDouble tol t cap cond body)
    (Hc : cond (-100000) 100000 = loopCond rt tol (rt.sub 100000 (-100000)) (-100000) 100000)
    (Hb : body (-100000) 100000 = secantBody rt (utilFunc rt) [(t, cap)] tol (-100000) 100000) (om) :
    4 / 10 ^ 15 < m ∧ (∃ x i, runLoop cond body om 20000 0 (-100000) 100000 none = some (.ok (x, i, false)) ∧ IsDouble x ∧ x ≠ 0 ∧
        |rt.div 1 x - m| ≤ 2 ^ (-43 : ℤ) * m) ∨
      runLoop cond body om 20000 0 (-100000) 100000 none = some (.error .sameValue) ∧ m < 1 / 10 ^ 4 := by
  have hu : (2 : ℚ) ^ (-53 : ℤ) ≤ 1 / (8 * 10 ^ 15) := by norm_num
  have hcap' : (2 : ℚ) ^ (-1000 : ℤ) ≤ cap := (zpow_le_zpow_right₀ (by norm_num) (by norm_num)).trans hcap
  have hc0 : 0 < cap := (two_zpow_pos _).trans_le hcap
  have hm0 : 0 < m := by rw [hm]; exact div_pos ht0 hc0
  have hk : (610 : ℚ) * 2 ^ (-53 : ℤ) * m ≤ 2 ^ (-43 : ℤ) * m := mul_le_mul_of_nonneg_right (by norm_num) hm0.le
  by_cases htiny : m ≤ 4 / 10 ^ 15
  · right
    exact ⟨loop_tiny hrt.rounds (two_zpow_pos _).le hu eta_small hT hrt.rel ht hc double_unit double_hundred double_neg_hundred hc0
      (eta_cap hcap') hm hm0 htiny Hc Hb om 19999, htiny.trans_lt (by norm_num)⟩
  push Not at htiny
  have H := H htiny
  by_cases hbig : 4 * 10 ^ 11 < m
  · left
    obtain ⟨x, Fx, h2, hxm, hx0, he⟩ := util_huge hrt hT ht hc hcap' hm hbig hhi
    exact ⟨htiny, x, 2, runLoop_two h2 double_hundred double_neg_hundred ⟨0, 0, by norm_num, by norm_num, by norm_num⟩ Fx
      (by rw [← hm]; exact hm0) (by simp) (by rw [← hm]; exact hxm) H om 19997, Fx, hx0, he.trans hk⟩
  push Not at hbig
  by_cases hmid : 1 / 10 ^ 4 ≤ m ∧ m ≤ 10 ^ 4
  · left
    have h4 : (2 : ℚ) ^ (-900 : ℤ) / 10 ^ 4 ≤ t := by
      have : cap / 10 ^ 4 ≤ t := by
        have := hmid.1
        rw [hm, le_div_iff₀ hc0] at this
        linarith
      exact (div_le_div_of_nonneg_right hcap (by norm_num)).trans this
    obtain ⟨x3, x4, F3, F4, h2, h3m, h4m, hx0, he⟩ := util_steps hrt.rounds (two_zpow_pos _).le (by norm_num) hT hrt.rel double_unit
      double_hundred double_neg_hundred ht hc hc0 (by rw [← hm]; exact hmid.1) (by rw [← hm]; exact hmid.2)
      (by
        rw [show (2 : ℚ) ^ (-1075 : ℤ) = 2 ^ (-53 : ℤ) * (2 ^ (-900 : ℤ) * 2 ^ (-122 : ℤ)) by
          rw [← zpow_add₀ (by norm_num), ← zpow_add₀ (by norm_num)]; norm_num, mul_div_assoc]
        refine mul_le_mul_of_nonneg_left ?_ (two_zpow_pos _).le
        refine le_trans ?_ (div_le_div_of_nonneg_right h4 (by norm_num))
        rw [div_div, div_eq_mul_inv]
        refine mul_le_mul_of_nonneg_left ?_ (two_zpow_pos _).le
        norm_num)
      (eta_small.trans (div_le_div_of_nonneg_left (two_zpow_pos _).le (by norm_num) (by norm_num)))
    refine ⟨htiny, x4, 2, runLoop_two h2 double_hundred double_neg_hundred F3 F4 (by rw [← hm]; exact hm0) h3m h4m H om 19997,
      F4, hx0, ?_⟩
    rw [← hm] at he
    refine he.trans (le_trans ?_ hk)
    exact mul_le_mul_of_nonneg_right (by norm_num) hm0.le
  rcases loop_start hrt.rounds (two_zpow_pos _).le hu eta_small hT hrt.rel ht hc double_unit double_hundred double_neg_hundred hc0
    (eta_cap hcap') hm hm0 hbig H om 19997 with ⟨x, i, he, Fx, hx⟩ | ⟨he, hsm⟩
  · left
    have hηm : (2 : ℚ) ^ (-1075 : ℤ) ≤ 2 ^ (-53 : ℤ) * m := by
      refine eta_small.trans ?_
      rw [div_eq_mul_inv]
      exact mul_le_mul_of_nonneg_left (le_trans (by norm_num) htiny.le) (two_zpow_pos _).le
    obtain ⟨hx0, hv⟩ := inverse_near hrt.rounds (two_zpow_pos _).le hu double_unit hm0 hηm Fx hx
    exact ⟨htiny, x, i, he, Fx, hx0, hv.trans hk⟩
  · right
    refine ⟨he, ?_⟩
    by_contra h
    push Not at h
    exact hmid ⟨h, hsm.le⟩

/-- The utilisation of one tension of any size, in double precision. -/
theorem utilOne_double {t cap : ℚ} (ht : IsDouble t) (hc : IsDouble cap) (hcap : 2 ^ (-900 : ℤ) ≤ cap) (ht0 : 0 < t)
    (hhi : t ≤ 2 ^ (1000 : ℤ) * cap) :
    4 / 10 ^ 15 * cap < t ∧ (∃ v, utilOne Rt.binary64 cap t = .ok v ∧ |v - t / cap| ≤ 2 ^ (-43 : ℤ) * (t / cap)) ∨
      utilOne Rt.binary64 cap t = .error .valueError ∧ t < cap / 10 ^ 4 := by
  have hc0 : 0 < cap := (two_zpow_pos _).trans_le hcap
  have key := util_run like64_binary64 nearTol_exact ht hc hcap ht0 rfl (by rw [div_le_iff₀ hc0]; exact hhi)
    (cond := fun x y => loopCond Rt.binary64 (1 / 10 ^ 9) (Rt.binary64.sub y x) x y)
    (body := secantBody Rt.binary64 (utilFunc Rt.binary64) [(t, cap)] (1 / 10 ^ 9))
    (fun _ _ _ _ _ _ _ => ⟨rfl, rfl⟩) rfl rfl (some (.error .exceeded))
  unfold utilOne secant
  rw [if_neg (not_le.2 ht0)]
  simp only [checkGuesses, Val.isInf, Bool.or_self, Bool.false_eq_true, if_false, start_far like64_binary64 nearTol_exact,
    secantLoop_run]
  rcases key with ⟨hlo, x, i, he, -, hx0, hv⟩ | ⟨he, hsm⟩
  · left
    rw [he]
    rw [lt_div_iff₀ hc0] at hlo
    exact ⟨hlo, _, by simp only [ne_eq, hx0, not_false_eq_true, if_true], hv⟩
  · right
    rw [he]
    rw [div_lt_iff₀ hc0] at hsm
    exact ⟨rfl, by linarith⟩

end BeamDesign
