import Verif.Lemmas.UtilHuge
import Verif.Lemmas.Solvers64
import Verif.Model.Util64

/-!
# The utilisation of one tension on IEEE doubles
-/

namespace BeamDesign

open Spec

/-- The arithmetic of doubles without overflow, with the relative tolerance rounded. -/
def Rt.tol64 : Rt ℚ :=
  { Rt.binary64 with mul := fun a b => if a = relTol then rnd64 (F64.relTol * b) else rnd64 (a * b) }

theorem relTol_not_double : ¬ IsDouble (relTol : ℚ) := by
  intro h
  have h1 : F64.relTol = relTol := isDouble_iff.1 h
  rw [relTol_val, relTol] at h1
  norm_num at h1

theorem nearTol_64 : NearTol F64.relTol := by
  unfold NearTol
  rw [relTol_val]
  norm_num

theorem like64_tol64 : Like64 Rt.tol64 where
  add := fun _ _ => rfl
  sub := fun _ _ => rfl
  mul := by
    intro a b ha
    have : a ≠ relTol := by
      rintro rfl
      exact relTol_not_double ha
    show (if a = relTol then _ else _) = _
    rw [if_neg this]
  div := fun _ _ => rfl
  rel := by
    intro y _
    show |(if (relTol : ℚ) = relTol then rnd64 (F64.relTol * y) else _) - _| ≤ _
    rw [if_pos rfl]
    have h1 := rnd64_error (F64.relTol * y)
    have h2 := abs_add_le (rnd64 (F64.relTol * y) - F64.relTol * y) (F64.relTol * y - relTol * y)
    rw [sub_add_sub_cancel] at h2
    have h3 : |F64.relTol * y - relTol * y| = (F64.relTol - relTol) * |y| := by
      rw [← sub_mul, abs_mul, abs_of_nonneg]
      rw [relTol_val, relTol]
      norm_num
    have h4 : |F64.relTol * y| = F64.relTol * |y| := by
      rw [abs_mul, abs_of_nonneg]
      rw [relTol_val]
      norm_num
    have h5 : |relTol * y| = relTol * |y| := by
      rw [abs_mul, abs_of_nonneg]
      rw [relTol]
      norm_num
    rw [h3] at h2
    rw [h4] at h1
    rw [h5]
    generalize (2 : ℚ) ^ (-1075 : ℤ) = η at h1 ⊢
    have h6 := abs_nonneg y
    generalize |rnd64 (F64.relTol * y) - F64.relTol * y| = A at h1 h2
    generalize |rnd64 (F64.relTol * y) - relTol * y| = Z at h2 ⊢
    rw [relTol_val] at h1 h2
    rw [relTol] at h2 ⊢
    norm_num at h1 h2 ⊢
    linarith

theorem isclose_tol64 {a b : ℚ} : isclose Rt.tol64 F64.relTol (.fin a) (.fin b) = .ok (decide (CloseR F64.relTol a b)) := by
  have h0 : ¬ F64.relTol < 0 := not_lt.2 (le_trans (by norm_num) nearTol_64.1)
  unfold isclose
  rw [if_neg h0]
  have hm : ∀ z : ℚ, Rt.tol64.mul relTol z = rnd64 (F64.relTol * z) := fun z => if_pos rfl
  have hs : Rt.tol64.sub b a = rnd64 (b - a) := rfl
  simp only [hm, hs, Except.ok.injEq]
  rw [Bool.eq_iff_iff]
  simp only [Bool.or_eq_true, decide_eq_true_eq, or_assoc]
  rfl

theorem le_maxDouble {x : ℚ} {k : ℤ} (hk : k ≤ 1023) (h : |x| ≤ 2 ^ k) : |x| ≤ maxDouble := by
  refine h.trans (le_trans (zpow_le_zpow_right₀ (by norm_num) hk) ?_)
  have := maxDouble_big
  rwa [← zpow_natCast] at this

theorem rnd64_le_pow {x : ℚ} {k : ℤ} (hk : -1074 ≤ k) (h : |x| ≤ 2 ^ k) : |rnd64 x| ≤ 2 ^ k := by
  rw [rnd64_abs, ← rnd64_pow hk]
  exact rnd64_mono h

theorem big_bound {D : ℚ} (h : D ≤ 2 ^ (1000 : ℤ)) : 2 * D + 3 ≤ 2 ^ (1023 : ℤ) := by
  have h1 : (2 : ℚ) ^ (1023 : ℤ) = 2 ^ (1000 : ℤ) * 8388608 := by
    rw [show (8388608 : ℚ) = 2 ^ (23 : ℤ) by norm_num, ← zpow_add₀ (by norm_num)]; norm_num
  have h2 : (1 : ℚ) ≤ 2 ^ (1000 : ℤ) := one_le_zpow₀ (by norm_num) (by norm_num)
  rw [h1]
  clear h1
  generalize (2 : ℚ) ^ (1000 : ℤ) = B at *
  linarith

section
variable {t cap m : ℚ}

/-- what is known of the tension and the capacity -/
structure MiddleSize (t cap m : ℚ) : Prop where
  dt : IsDouble t
  dc : IsDouble cap
  cap_lo : 2 ^ (-900 : ℤ) ≤ cap
  cap_hi : cap ≤ 2 ^ (1000 : ℤ)
  t_pos : 0 < t
  t_hi : t ≤ 2 ^ (1000 : ℤ)
  ratio : m = t / cap
  m_hi : m ≤ 2 ^ (900 : ℤ)

theorem MiddleSize.cap_pos (h : MiddleSize t cap m) : 0 < cap := (two_zpow_pos _).trans_le h.cap_lo

theorem MiddleSize.m_pos (h : MiddleSize t cap m) : 0 < m := by rw [h.ratio]; exact div_pos h.t_pos h.cap_pos

/-- The same with no limit to overflow -/
structure Sized (t cap m : ℚ) : Prop where
  dt : IsDouble t
  dc : IsDouble cap
  cap_lo : 2 ^ (-900 : ℤ) ≤ cap
  t_pos : 0 < t
  ratio : m = t / cap
  m_hi : m ≤ 2 ^ (1000 : ℤ)

theorem MiddleSize.sized (h : MiddleSize t cap m) : Sized t cap m :=
  ⟨h.dt, h.dc, h.cap_lo, h.t_pos, h.ratio, h.m_hi.trans (zpow_le_zpow_right₀ (by norm_num) (by norm_num))⟩

theorem Sized.cap_pos (h : Sized t cap m) : 0 < cap := (two_zpow_pos _).trans_le h.cap_lo

theorem Sized.m_pos (h : Sized t cap m) : 0 < m := by rw [h.ratio]; exact div_pos h.t_pos h.cap_pos

theorem cap_or (v : ℚ) : Val.cap v = .fin v ∨ (Val.cap v).isInf = true := by
  unfold Val.cap
  split_ifs
  · exact Or.inr rfl
  · exact Or.inr rfl
  · exact Or.inl rfl

/-- The function solved is that without overflow, or overflows. -/
theorem utilFunc_or (h : Sized t cap m) {x D : ℚ} (hx : IsDouble x) (hD : |x * m| ≤ D) (hE : 2 * D + 3 ≤ 2 ^ (1023 : ℤ)) :
    ∃ c, IsDouble c ∧ |c| ≤ 2 * D + 3 ∧ utilFunc Rt.tol64 x [(t, cap)] = .ok (.fin c) ∧ |c - (x * m - 1)| ≤ |x * m| / 100 + 1 / 10 ∧
      (F64.utilFunc (.fin x) [(.fin t, .fin cap)] = .ok (.fin c) ∨
        ¬ |x * t| ≤ maxDouble ∧ ∃ w, w.isInf = true ∧ F64.utilFunc (.fin x) [(.fin t, .fin cap)] = .ok w) := by
  have hc0 := h.cap_pos
  have hcap' : (2 : ℚ) ^ (-1000 : ℤ) ≤ cap := (zpow_le_zpow_right₀ (by norm_num) (by norm_num)).trans h.cap_lo
  have hu : (2 : ℚ) ^ (-53 : ℤ) ≤ 1 / (8 * 10 ^ 15) := by norm_num
  obtain ⟨-, hr⟩ := ratio_wide like64_tol64.rounds (two_zpow_pos _).le hu h.dt h.dc hc0 eta_small (eta_cap hcap') hx
  obtain ⟨c, fc, Fc, ec⟩ := utilFunc_wide like64_tol64.rounds (two_zpow_pos _).le hu h.dt h.dc double_unit hc0 eta_small (eta_cap hcap') hx
  rw [← h.ratio] at hr ec
  have hD0 := (abs_nonneg _).trans hD
  have hp : (0 : ℚ) ≤ 2 ^ (-53 : ℤ) := (two_zpow_pos _).le
  have hru : (2 : ℚ) ^ (-53 : ℤ) * |x * m| ≤ 1 / 1000 * |x * m| := mul_le_mul_of_nonneg_right (by norm_num) (abs_nonneg _)
  have hu1 : (2 : ℚ) ^ (-53 : ℤ) ≤ 1 / 100 := by norm_num
  have hce' : |c - (x * m - 1)| ≤ |x * m| / 100 + 1 / 10 := by
    clear hE hcap' hr hu
    have h0 := abs_nonneg (x * m)
    generalize (2 : ℚ) ^ (-53 : ℤ) = u at *
    linarith [mul_add u (4 * |x * m|) (11 / 10), mul_left_comm u 4 |x * m|]
  have hcle : |c| ≤ 2 * D + 3 := by
    have h1 := abs_add_le (c - (x * m - 1)) (x * m - 1)
    rw [sub_add_cancel] at h1
    have h2 := abs_sub (x * m) 1
    rw [abs_one] at h2
    linarith
  refine ⟨c, Fc, hcle, fc, hce', ?_⟩
  have hce : c = rnd64 (rnd64 (rnd64 (x * t) / cap) - 1) := by
    simp only [utilFunc, if_neg hc0.ne', Except.ok.injEq, Val.fin.injEq] at fc
    rw [← fc, like64_tol64.sub, like64_tol64.div, like64_tol64.mul _ _ hx]
  rw [like64_tol64.div, like64_tol64.mul _ _ hx] at hr
  have hrle : |rnd64 (rnd64 (x * t) / cap)| ≤ 2 * D + 3 := by
    have h1 := abs_add_le (rnd64 (rnd64 (x * t) / cap) - x * m) (x * m)
    rw [sub_add_cancel] at h1
    generalize (2 : ℚ) ^ (-53 : ℤ) = u at *
    generalize rnd64 (rnd64 (x * t) / cap) = r at *
    linarith [mul_add u (2 * |x * m|) (11 / 10), mul_left_comm u 2 |x * m|]
  by_cases hxt : F64.mul (.fin x) (.fin t) = .fin (rnd64 (x * t))
  · left
    simp only [F64.utilFunc, F64.ndiv]
    rw [hxt]
    simp only [Val.div, if_neg hc0.ne', Val.over]
    show Except.ok (F64.sub (Val.cap (rnd64 (rnd64 (x * t) / cap))) (.fin 1)) = _
    rw [cap_double (le_maxDouble (le_refl 1023) (hrle.trans hE))]
    show Except.ok (Val.cap (rnd64 (rnd64 (rnd64 (x * t) / cap) - 1))) = _
    rw [← hce, cap_double (le_maxDouble (le_refl 1023) (hcle.trans hE))]
  · right
    refine ⟨fun h1 => hxt (mul_fin h1), ?_⟩
    have hi : (F64.mul (.fin x) (.fin t)).isInf = true := (cap_or (rnd64 (x * t))).resolve_left hxt
    simp only [F64.utilFunc, F64.ndiv]
    generalize F64.mul (.fin x) (.fin t) = w at hi
    cases w with
    | fin q => simp [Val.isInf] at hi
    | nan => simp [Val.isInf] at hi
    | posInf =>
      refine ⟨.posInf, rfl, ?_⟩
      simp [Val.div, hc0.ne', Val.signed, hc0, Val.over, F64.sub, Val.sub]
    | negInf =>
      refine ⟨.negInf, rfl, ?_⟩
      simp [Val.div, hc0.ne', Val.signed, hc0, Val.over, F64.sub, Val.sub]

/-- The function solved does not overflow. -/
theorem utilFunc_64 (h : MiddleSize t cap m) {x D : ℚ} (hx : IsDouble x) (hD : |x * m| ≤ D) (hDc : D * cap ≤ 2 ^ (1020 : ℤ))
    (hDm : D ≤ 2 ^ (1000 : ℤ)) :
    ∃ c, IsDouble c ∧ |c| ≤ 2 * D + 3 ∧ F64.utilFunc (.fin x) [(.fin t, .fin cap)] = .ok (.fin c) ∧
      utilFunc Rt.tol64 x [(t, cap)] = .ok (.fin c) := by
  obtain ⟨c, Fc, hc, fc, -, hor⟩ := utilFunc_or h.sized hx hD (big_bound hDm)
  have hxt : |x * t| ≤ maxDouble := by
    refine le_maxDouble (k := 1020) (by norm_num) (le_trans ?_ hDc)
    have : x * t = x * m * cap := by rw [h.ratio]; field_simp [h.cap_pos.ne']
    rw [this, abs_mul, abs_of_pos h.cap_pos]
    exact mul_le_mul_of_nonneg_right hD h.cap_pos.le
  rcases hor with h1 | ⟨h1, -⟩
  · exact ⟨c, Fc, hc, h1, fc⟩
  · exact absurd hxt h1

/-- The test that ends the loop, on finite guesses -/
def cond64 (x y : ℚ) : Except SolverErr Bool := F64.loopCond (.fin F64.relTol) (F64.sub (.fin y) (.fin x)) (.fin x) (.fin y)

/-- One pass of the loop, on finite guesses -/
def body64' (t cap x y : ℚ) : Except SolverErr ℚ :=
  match F64.secantBody F64.utilFunc [(.fin t, .fin cap)] (.fin F64.relTol) (.fin x) (.fin y) with
  | .error e => .error e
  | .ok (.fin v) => .ok v
  | .ok _ => .error .guessBad

theorem relTol_nonneg : 0 ≤ F64.relTol := le_trans (by norm_num) nearTol_64.1

theorem cond64_same {x y : ℚ} (hx : |x| ≤ 2 ^ (100 : ℤ)) (hy : |y| ≤ 2 ^ (100 : ℤ)) :
    cond64 x y = loopCond Rt.tol64 F64.relTol (Rt.tol64.sub y x) x y := by
  have hd : |y - x| ≤ 2 ^ (101 : ℤ) := by
    have := abs_sub y x
    rw [show (2 : ℚ) ^ (101 : ℤ) = 2 ^ (100 : ℤ) + 2 ^ (100 : ℤ) by norm_num]
    linarith
  unfold cond64 F64.loopCond loopCond
  rw [sub_fin (le_maxDouble (by norm_num) hd), isclose64_fin relTol_nonneg (le_maxDouble (by norm_num) hx)
    (le_maxDouble (by norm_num) hy) (le_maxDouble (by norm_num) hd), isclose_tol64]
  have hs : Rt.tol64.sub y x = rnd64 (y - x) := rfl
  simp only [F64.abs, F64.lt, hs, decide_eq_true_eq, gt_iff_lt]

/-- One pass of the loop does not overflow. -/
theorem body64_same (h : MiddleSize t cap m) {x y D : ℚ} (hx : IsDouble x) (hy : IsDouble y) (hDx : |x * m| ≤ D) (hDy : |y * m| ≤ D)
    (hDc : D * cap ≤ 2 ^ (1020 : ℤ)) (hD : D ≤ 2 ^ (930 : ℤ)) (hX : |x| * (2 * D + 3) ≤ 2 ^ (940 : ℤ))
    (hY : |y| * (2 * D + 3) ≤ 2 ^ (940 : ℤ)) :
    body64' t cap x y = secantBody Rt.tol64 (utilFunc Rt.tol64) [(t, cap)] F64.relTol x y := by
  have hD' : D ≤ 2 ^ (1000 : ℤ) := hD.trans (zpow_le_zpow_right₀ (by norm_num) (by norm_num))
  obtain ⟨c, Fc, cE, fc, fc'⟩ := utilFunc_64 h hy hDy hDc hD'
  obtain ⟨d, Fd, dE, fd, fd'⟩ := utilFunc_64 h hx hDx hDc hD'
  have hE : 2 * D + 3 ≤ 2 ^ (940 : ℤ) := by
    have h1 : (2 : ℚ) ^ (940 : ℤ) = 2 ^ (930 : ℤ) * 1024 := by
      rw [show (1024 : ℚ) = 2 ^ (10 : ℤ) by norm_num, ← zpow_add₀ (by norm_num)]; norm_num
    have h2 : (1 : ℚ) ≤ 2 ^ (930 : ℤ) := one_le_zpow₀ (by norm_num) (by norm_num)
    rw [h1]
    clear h1 hX hY hDc hD'
    generalize (2 : ℚ) ^ (930 : ℤ) = B at *
    linarith
  have two : ∀ {a b : ℚ}, |a| ≤ 2 ^ (940 : ℤ) → |b| ≤ 2 ^ (940 : ℤ) → |a - b| ≤ 2 ^ (941 : ℤ) := by
    intro a b ha hb
    rw [show (2 : ℚ) ^ (941 : ℤ) = 2 ^ (940 : ℤ) + 2 ^ (940 : ℤ) by
      rw [← two_mul, ← zpow_one_add₀ (by norm_num)]; norm_num]
    exact (abs_sub a b).trans (add_le_add ha hb)
  have hxc : |x * c| ≤ 2 ^ (940 : ℤ) := by
    rw [abs_mul]
    exact (mul_le_mul_of_nonneg_left cE (abs_nonneg _)).trans hX
  have hyd : |y * d| ≤ 2 ^ (940 : ℤ) := by
    rw [abs_mul]
    exact (mul_le_mul_of_nonneg_left dE (abs_nonneg _)).trans hY
  have hcd := two (cE.trans hE) (dE.trans hE)
  have hdc := two (dE.trans hE) (cE.trans hE)
  have hab := two (rnd64_le_pow (by norm_num) hxc) (rnd64_le_pow (by norm_num) hyd)
  have big : ∀ {a : ℚ} {k : ℤ}, k ≤ 1023 → |a| ≤ 2 ^ k → |a| ≤ maxDouble := fun hk h => le_maxDouble hk h
  unfold body64' F64.secantBody secantBody
  simp only [F64.call, callFunc, fc, fd, fc', fd', bind, Except.bind, mulVal]
  rw [mul_fin (big (by norm_num) hxc), mul_fin (big (by norm_num) hyd), like64_tol64.mul _ _ hx, like64_tol64.mul _ _ hy,
    isclose64_fin relTol_nonneg (big (by norm_num) (cE.trans hE)) (big (by norm_num) (dE.trans hE)) (big (by norm_num) hdc), isclose_tol64]
  by_cases hcl : CloseR F64.relTol c d
  · simp [Val.isInf, hcl, throw, throwThe, MonadExceptOf.throw]
  · have hw : F64.relTol < |rnd64 (c - d)| := by
      unfold CloseR at hcl
      push Not at hcl
      rw [rnd64_abs, abs_sub_comm, ← rnd64_abs]
      exact hcl.2.2.2
    have hw0 : rnd64 (c - d) ≠ 0 := by
      intro h0
      rw [h0, abs_zero] at hw
      exact absurd hw (not_lt.2 relTol_nonneg)
    have hq : |rnd64 (rnd64 (x * c) - rnd64 (y * d)) / rnd64 (c - d)| ≤ 2 ^ (971 : ℤ) := by
      rw [abs_div, div_le_iff₀ (abs_pos.2 hw0)]
      have h30 : (2 : ℚ) ^ (-30 : ℤ) ≤ |rnd64 (c - d)| := by
        refine le_trans ?_ hw.le
        rw [relTol_val]
        norm_num
      calc |rnd64 (rnd64 (x * c) - rnd64 (y * d))| ≤ 2 ^ (941 : ℤ) := rnd64_le_pow (by norm_num) hab
        _ = 2 ^ (971 : ℤ) * 2 ^ (-30 : ℤ) := by rw [← zpow_add₀ (by norm_num)]; norm_num
        _ ≤ _ := mul_le_mul_of_nonneg_left h30 (two_zpow_pos _).le
    have hdiv : F64.div (F64.sub (.fin (rnd64 (x * c))) (.fin (rnd64 (y * d)))) (F64.sub (.fin c) (.fin d)) =
        .ok (.fin (rnd64 (rnd64 (rnd64 (x * c) - rnd64 (y * d)) / rnd64 (c - d)))) := by
      rw [sub_fin (big (by norm_num) hab), sub_fin (big (by norm_num) hcd)]
      simp only [F64.div, if_neg hw0, Val.div, Val.over]
      show Except.ok (Val.cap (rnd64 (rnd64 (rnd64 (x * c) - rnd64 (y * d)) / rnd64 (c - d)))) = _
      rw [cap_double (rnd64_max (big (by norm_num) hq))]
    simp [Val.isInf, Val.isNan, hcl, hdiv, hw0, like64_tol64.sub, like64_tol64.div, pure, Except.pure]

theorem range_bounds (h : MiddleSize t cap m) :
    (100000 * m + 32) * cap ≤ 2 ^ (1020 : ℤ) ∧ 100000 * m + 32 ≤ 2 ^ (930 : ℤ) := by
  have h1 : (2 : ℚ) ^ (1020 : ℤ) = 2 ^ (1000 : ℤ) * 1048576 := by
    rw [show (1048576 : ℚ) = 2 ^ (20 : ℤ) by norm_num, ← zpow_add₀ (by norm_num)]; norm_num
  have h2 : (2 : ℚ) ^ (930 : ℤ) = 2 ^ (900 : ℤ) * 1073741824 := by
    rw [show (1073741824 : ℚ) = 2 ^ (30 : ℤ) by norm_num, ← zpow_add₀ (by norm_num)]; norm_num
  have h3 : (1 : ℚ) ≤ 2 ^ (900 : ℤ) := one_le_zpow₀ (by norm_num) (by norm_num)
  have hmc : m * cap = t := by rw [h.ratio]; field_simp [h.cap_pos.ne']
  have ht := h.t_hi
  have hc := h.cap_hi
  have hm := h.m_hi
  have h4 : (0 : ℚ) < 2 ^ (1000 : ℤ) := two_zpow_pos _
  rw [h1, h2]
  clear h1 h2
  generalize (2 : ℚ) ^ (1000 : ℤ) = A at *
  generalize (2 : ℚ) ^ (900 : ℤ) = B at *
  constructor
  · linarith [mul_assoc 100000 m cap, add_mul (100000 * m) 32 cap]
  · linarith

theorem guess_bound (h : MiddleSize t cap m) {b x : ℚ} (hb : b * m ≤ 100000 * m + 32) (hb' : b ≤ 2 ^ (53 : ℤ)) (hx : |x| ≤ b) :
    |x| * (2 * (100000 * m + 32) + 3) ≤ 2 ^ (940 : ℤ) := by
  have h2 : (2 : ℚ) ^ (940 : ℤ) = 2 ^ (900 : ℤ) * 1099511627776 := by
    rw [show (1099511627776 : ℚ) = 2 ^ (40 : ℤ) by norm_num, ← zpow_add₀ (by norm_num)]; norm_num
  have h3 : (2 : ℚ) ^ (100 : ℤ) ≤ 2 ^ (900 : ℤ) := zpow_le_zpow_right₀ (by norm_num) (by norm_num)
  have hm := h.m_hi
  have hm0 := h.m_pos
  have h5 : |x| * (2 * (100000 * m + 32) + 3) ≤ b * (2 * (100000 * m + 32) + 3) :=
    mul_le_mul_of_nonneg_right hx (by positivity)
  rw [h2]
  clear h2
  generalize (2 : ℚ) ^ (900 : ℤ) = B at *
  norm_num at h3 hb'
  nlinarith [h5, hb, hb', h3, hm]

theorem same64 (h : MiddleSize t cap m) (hlo : 4 / 10 ^ 15 < m) :
    SameLoop Rt.tol64 IsDouble F64.relTol t cap cond64 (body64' t cap) := by
  intro x y Fx Fy hx hy
  rw [← h.ratio] at hx hy
  have hm0 := h.m_pos
  have hB : ∀ z : ℚ, |z * m| ≤ 100000 * m + 32 → |z| ≤ 100000 + 32 / m := by
    intro z hz
    rw [abs_mul, abs_of_pos hm0] at hz
    refine le_of_mul_le_mul_right (hz.trans (le_of_eq ?_)) hm0
    field_simp
  have hb : (100000 + 32 / m) * m ≤ 100000 * m + 32 := le_of_eq (by field_simp)
  have hb' : 100000 + 32 / m ≤ 2 ^ (53 : ℤ) := by
    have : 32 / m ≤ 8 * 10 ^ 15 := by rw [div_le_iff₀ hm0]; linarith
    norm_num at this ⊢
    linarith
  have hp : ∀ z : ℚ, |z| ≤ 100000 + 32 / m → |z| ≤ 2 ^ (100 : ℤ) := fun z hz =>
    (hz.trans hb').trans (zpow_le_zpow_right₀ (by norm_num) (by norm_num))
  obtain ⟨r1, r2⟩ := range_bounds h
  exact ⟨cond64_same (hp _ (hB _ hx)) (hp _ (hB _ hy)),
    body64_same h Fx Fy hx hy r1 r2 (guess_bound h hb hb' (hB _ hx)) (guess_bound h hb hb' (hB _ hy))⟩

theorem start64 (h : MiddleSize t cap m) :
    body64' t cap (-100000) 100000 = secantBody Rt.tol64 (utilFunc Rt.tol64) [(t, cap)] F64.relTol (-100000) 100000 := by
  obtain ⟨r1, r2⟩ := range_bounds h
  have hm0 := h.m_pos
  have hb : ∀ z : ℚ, |z| = 100000 → |z * m| ≤ 100000 * m + 32 := by
    intro z hz
    rw [abs_mul, hz, abs_of_pos hm0]
    linarith
  exact body64_same h double_neg_hundred double_hundred (hb _ (by norm_num)) (hb _ (by norm_num)) r1 r2
    (guess_bound h (b := 100000) (by linarith) (by norm_num) (by norm_num))
    (guess_bound h (b := 100000) (by linarith) (by norm_num) (by norm_num))

theorem secantBody64_fin {A : Type} {f : SolveFun64 A} {args : List A} {tol x y v : Flt} (h : F64.secantBody f args tol x y = .ok v) :
    ∃ q, v = .fin q := by
  unfold F64.secantBody at h
  simp only [bind, Except.bind] at h
  split at h
  · cases h
  split at h
  · cases h
  split at h
  · cases h
  split at h
  · cases h
  split at h
  · cases h
  split at h
  · cases h
  split at h
  · cases h
  rename_i v' _ hn
  simp only [pure, Except.pure, Except.ok.injEq] at h
  subst h
  cases v' <;> simp_all [Val.isInf, Val.isNan]

/-- A result on numbers as a result on doubles. -/
def lift64 : Option (Except SolverErr (ℚ × ℕ × Bool)) → Option (Except SolverErr (Flt × ℕ × Bool))
  | none => none
  | some (.error e) => some (.error e)
  | some (.ok (x, i, b)) => some (.ok (.fin x, i, b))

theorem secantLoop64_run (t cap : ℚ) (n i : ℕ) (x y : ℚ) (z : Option ℚ) :
    F64.secantLoop F64.utilFunc [(.fin t, .fin cap)] (.fin F64.relTol) (some 20000) (some (.error .exceeded)) n i (.fin x) (.fin y)
      (z.map .fin) = lift64 (runLoop cond64 (body64' t cap) (some (.error .exceeded)) n i x y z) := by
  induction n generalizing i x y z with
  | zero =>
    unfold F64.secantLoop runLoop cond64
    cases F64.loopCond (.fin F64.relTol) (F64.sub (.fin y) (.fin x)) (.fin x) (.fin y) with
    | error e => rfl
    | ok b => cases b <;> cases z <;> rfl
  | succ n ih =>
    unfold F64.secantLoop runLoop
    rw [show cond64 x y = F64.loopCond (.fin F64.relTol) (F64.sub (.fin y) (.fin x)) (.fin x) (.fin y) from rfl]
    cases F64.loopCond (.fin F64.relTol) (F64.sub (.fin y) (.fin x)) (.fin x) (.fin y) with
    | error e => rfl
    | ok b =>
      cases b with
      | false => cases z <;> rfl
      | true =>
        simp only
        unfold body64'
        cases hb : F64.secantBody F64.utilFunc [(.fin t, .fin cap)] (.fin F64.relTol) (.fin x) (.fin y) with
        | error e => rfl
        | ok v =>
          obtain ⟨q, rfl⟩ := secantBody64_fin hb
          simp only [Option.any_some, decide_eq_true_eq]
          by_cases hi : (20000 : ℤ) ≤ (i + 1 : ℤ)
          · rw [if_pos hi, if_pos hi]; rfl
          · rw [if_neg hi, if_neg hi]
            exact ih (i + 1) y q (some q)

/-- C140 for one tension -/
theorem utilNum_double (h : MiddleSize t cap m) :
    4 / 10 ^ 15 * cap < t ∧ (∃ v, F64.utilNum cap t = .ok v ∧ |v - t / cap| ≤ 2 ^ (-43 : ℤ) * (t / cap)) ∨
      F64.utilNum cap t = .error .valueError ∧ t < cap / 10 ^ 4 := by
  have hc0 := h.cap_pos
  have hm0 := h.m_pos
  have key := util_run like64_tol64 nearTol_64 h.dt h.dc h.cap_lo h.t_pos h.ratio
    (h.m_hi.trans (zpow_le_zpow_right₀ (by norm_num) (by norm_num))) (same64 h)
    (cond64_same (by norm_num) (by norm_num)) (start64 h) (some (.error .exceeded))
  have hstart : F64.isclose (.fin F64.relTol) (.fin 100000) (.fin (-100000)) = .ok false := by
    rw [isclose64_fin relTol_nonneg (le_maxDouble (k := 100) (by norm_num) (by norm_num))
      (le_maxDouble (k := 100) (by norm_num) (by norm_num)) (le_maxDouble (k := 100) (by norm_num) (by norm_num)), ← isclose_tol64]
    exact start_far like64_tol64 nearTol_64
  have hrun := secantLoop64_run t cap 20000 0 (-100000) 100000 none
  unfold F64.utilNum F64.utilOne F64.secant
  have hle : ¬ F64.le (.fin t) (.fin 0) = true := by
    rw [le_fin]
    simpa using h.t_pos
  rw [if_neg hle]
  simp only [Option.map_none] at hrun
  simp only [F64.checkGuesses, Val.isInf, Val.isNan, Bool.or_self, Bool.false_eq_true, if_false, hstart, hrun]
  rw [h.ratio] at key
  rcases key with ⟨hlo, x, i, he, Fx, hx0, hv⟩ | ⟨he, hsm⟩
  · left
    rw [he]
    have hm' : 0 < t / cap := div_pos h.t_pos hc0
    have hdiv : |rnd64 (1 / x)| ≤ 2 ^ (901 : ℤ) := by
      rw [like64_tol64.div] at hv
      have h1 := h.m_hi
      rw [h.ratio] at h1
      have h2 := abs_add_le (rnd64 (1 / x) - t / cap) (t / cap)
      rw [sub_add_cancel, abs_of_pos hm'] at h2
      have h3 : (2 : ℚ) ^ (-43 : ℤ) * (t / cap) ≤ 1 * (t / cap) := mul_le_mul_of_nonneg_right (by norm_num) hm'.le
      rw [show (2 : ℚ) ^ (901 : ℤ) = 2 * 2 ^ (900 : ℤ) by rw [← zpow_one_add₀ (by norm_num)]; norm_num]
      generalize (2 : ℚ) ^ (900 : ℤ) = B at *
      generalize (2 : ℚ) ^ (-43 : ℤ) * (t / cap) = C at *
      linarith
    rw [lt_div_iff₀ hc0] at hlo
    refine ⟨hlo, _, ?_, hv⟩
    have hq : F64.div (.fin 1) (.fin x) = .ok (.fin (rnd64 (1 / x))) := by
      simp only [F64.div, if_neg hx0, Val.div, Val.over]
      show Except.ok (Val.cap (rnd64 (1 / x))) = _
      rw [cap_double (le_maxDouble (by norm_num) hdiv)]
    have he0 : F64.eq (.fin x) (.fin 0) = false := by simp [F64.eq, hx0]
    simp only [lift64, he0, hq, Bool.false_eq_true, if_false, bind, Except.bind, like64_tol64.div]
  · right
    rw [he]
    rw [div_lt_iff₀ hc0] at hsm
    exact ⟨rfl, by linarith⟩

/-! ## Tensions and capacities of any size -/

theorem wide_bound (h : Sized t cap m) : 2 * (100000 * m + 32) + 3 ≤ 2 ^ (1020 : ℤ) := by
  have h1 : (2 : ℚ) ^ (1020 : ℤ) = 2 ^ (1000 : ℤ) * 1048576 := by
    rw [show (1048576 : ℚ) = 2 ^ (20 : ℤ) by norm_num, ← zpow_add₀ (by norm_num)]; norm_num
  have h2 : (1 : ℚ) ≤ 2 ^ (1000 : ℤ) := one_le_zpow₀ (by norm_num) (by norm_num)
  have hm := h.m_hi
  rw [h1]
  clear h1
  generalize (2 : ℚ) ^ (1000 : ℤ) = A at *
  linarith

/-- One pass of the loop is that without overflow, or ends with one of the two errors. -/
theorem body64_or (h : Sized t cap m) {x y : ℚ} (hx : IsDouble x) (hy : IsDouble y) (hDx : |x * m| ≤ 100000 * m + 32)
    (hDy : |y * m| ≤ 100000 * m + 32) :
    body64' t cap x y = secantBody Rt.tol64 (utilFunc Rt.tol64) [(t, cap)] F64.relTol x y ∨
      body64' t cap x y = .error .secantInf ∨ body64' t cap x y = .error .guessBad := by
  have hE := wide_bound h
  have hE' : 2 * (100000 * m + 32) + 3 ≤ 2 ^ (1023 : ℤ) := hE.trans (zpow_le_zpow_right₀ (by norm_num) (by norm_num))
  obtain ⟨c, Fc, cE, fc', -, hc⟩ := utilFunc_or h hy hDy hE'
  obtain ⟨d, Fd, dE, fd', -, hd⟩ := utilFunc_or h hx hDx hE'
  have two : ∀ {a b : ℚ}, |a| ≤ 2 ^ (1020 : ℤ) → |b| ≤ 2 ^ (1020 : ℤ) → |a - b| ≤ maxDouble := by
    intro a b ha hb
    refine le_maxDouble (k := 1021) (by norm_num) ?_
    rw [show (2 : ℚ) ^ (1021 : ℤ) = 2 ^ (1020 : ℤ) + 2 ^ (1020 : ℤ) by
      rw [← two_mul, ← zpow_one_add₀ (by norm_num)]; norm_num]
    exact (abs_sub a b).trans (add_le_add ha hb)
  have hcd := two (cE.trans hE) (dE.trans hE)
  have hdc := two (dE.trans hE) (cE.trans hE)
  rcases hc with fc | ⟨-, w, hw, fc⟩
  swap
  · right; left
    unfold body64' F64.secantBody
    rcases hd with fd | ⟨-, w', -, fd⟩
    · simp [F64.call, fc, fd, bind, Except.bind, hw, throw, throwThe, MonadExceptOf.throw]
    · simp [F64.call, fc, fd, bind, Except.bind, hw, throw, throwThe, MonadExceptOf.throw]
  rcases hd with fd | ⟨-, w, hw, fd⟩
  swap
  · right; left
    unfold body64' F64.secantBody
    simp [F64.call, fc, fd, bind, Except.bind, hw, throw, throwThe, MonadExceptOf.throw]
  have ha : F64.mul (.fin x) (.fin c) = .fin (rnd64 (x * c)) ∨ (F64.mul (.fin x) (.fin c)).isInf = true := cap_or _
  have hb : F64.mul (.fin y) (.fin d) = .fin (rnd64 (y * d)) ∨ (F64.mul (.fin y) (.fin d)).isInf = true := cap_or _
  rcases ha with ha | ha
  swap
  · right; left
    unfold body64' F64.secantBody
    simp [F64.call, fc, fd, bind, Except.bind, ha, throw, throwThe, MonadExceptOf.throw]
  rcases hb with hb | hb
  swap
  · right; left
    unfold body64' F64.secantBody
    simp [F64.call, fc, fd, bind, Except.bind, hb, throw, throwThe, MonadExceptOf.throw]
  have hcl := isclose64_fin relTol_nonneg (le_maxDouble (by norm_num) (cE.trans hE)) (le_maxDouble (by norm_num) (dE.trans hE)) hdc
  unfold body64' F64.secantBody secantBody
  simp only [F64.call, callFunc, fc, fd, fc', fd', bind, Except.bind, mulVal]
  rw [ha, hb, hcl, like64_tol64.mul _ _ hx, like64_tol64.mul _ _ hy, isclose_tol64]
  by_cases hclose : CloseR F64.relTol c d
  · left
    simp [Val.isInf, hclose, throw, throwThe, MonadExceptOf.throw]
  have hw : F64.relTol < |rnd64 (c - d)| := by
    unfold CloseR at hclose
    push Not at hclose
    rw [rnd64_abs, abs_sub_comm, ← rnd64_abs]
    exact hclose.2.2.2
  have hw0 : rnd64 (c - d) ≠ 0 := by
    intro h0
    rw [h0, abs_zero] at hw
    exact absurd hw (not_lt.2 relTol_nonneg)
  rw [sub_fin hcd]
  have hs : F64.sub (.fin (rnd64 (x * c))) (.fin (rnd64 (y * d))) = .fin (rnd64 (rnd64 (x * c) - rnd64 (y * d))) ∨
      (F64.sub (.fin (rnd64 (x * c))) (.fin (rnd64 (y * d)))).isInf = true := cap_or _
  rcases hs with hs | hs
  · rw [hs]
    have hq : F64.div (.fin (rnd64 (rnd64 (x * c) - rnd64 (y * d)))) (.fin (rnd64 (c - d))) =
        .ok (Val.cap (rnd64 (rnd64 (rnd64 (x * c) - rnd64 (y * d)) / rnd64 (c - d)))) := by
      simp only [F64.div, if_neg hw0, Val.div, Val.over]
      rfl
    rcases cap_or (rnd64 (rnd64 (rnd64 (x * c) - rnd64 (y * d)) / rnd64 (c - d))) with hv | hv
    · left
      rw [hv] at hq
      simp [Val.isInf, Val.isNan, hclose, hq, hw0, like64_tol64.sub, like64_tol64.div, pure, Except.pure]
    · right; right
      rw [hq]
      generalize Val.cap (rnd64 (rnd64 (rnd64 (x * c) - rnd64 (y * d)) / rnd64 (c - d))) = w at hv
      cases w <;> simp_all [Val.isInf, Val.isNan, throw, throwThe, MonadExceptOf.throw]
  · right; right
    generalize F64.sub (.fin (rnd64 (x * c))) (.fin (rnd64 (y * d))) = w at hs
    have hq : ∃ w', w'.isInf = true ∧ F64.div w (.fin (rnd64 (c - d))) = .ok w' := by
      cases w with
      | fin q => simp [Val.isInf] at hs
      | nan => simp [Val.isInf] at hs
      | posInf =>
        refine ⟨(Val.signed true (rnd64 (c - d))).over, ?_, by simp only [F64.div, if_neg hw0, Val.div]⟩
        unfold Val.signed; split_ifs <;> rfl
      | negInf =>
        refine ⟨(Val.signed false (rnd64 (c - d))).over, ?_, by simp only [F64.div, if_neg hw0, Val.div]⟩
        unfold Val.signed; split_ifs <;> rfl
    obtain ⟨w', hw', hq⟩ := hq
    rw [hq]
    cases w' <;> simp_all [Val.isInf, Val.isNan, throw, throwThe, MonadExceptOf.throw]

/-- The first pass overflows if the tension is more than `2 ^ 1000` times the capacity. -/
theorem body64_huge (dt : IsDouble t) (hcap : 2 ^ (-900 : ℤ) ≤ cap) (hm : 2 ^ (1000 : ℤ) < t / cap) :
    body64' t cap (-100000) 100000 = .error .secantInf := by
  have hc0 : 0 < cap := (two_zpow_pos _).trans_le hcap
  have ht0 : 0 < t := by
    by_contra h0
    exact absurd (hm.trans_le (div_nonpos_of_nonpos_of_nonneg (not_lt.1 h0) hc0.le)) (not_lt.2 (two_zpow_pos _).le)
  have d16 : IsDouble (2 ^ (16 : ℤ) * t) := by
    obtain ⟨n, e, h1, h2, rfl⟩ := dt
    refine ⟨n, 16 + e, h1, by omega, ?_⟩
    rw [zpow_add₀ (by norm_num)]
    ring
  have r1 : 2 ^ (16 : ℤ) * t ≤ rnd64 (100000 * t) := by
    rw [← isDouble_iff.1 d16]
    exact rnd64_mono (mul_le_mul_of_nonneg_right (by norm_num) ht0.le)
  have r2 : 2 ^ (1016 : ℤ) ≤ rnd64 (rnd64 (100000 * t) / cap) := by
    rw [← rnd64_pow (show (-1074 : ℤ) ≤ 1016 by norm_num)]
    refine rnd64_mono ?_
    rw [show (2 : ℚ) ^ (1016 : ℤ) = 2 ^ (16 : ℤ) * 2 ^ (1000 : ℤ) by rw [← zpow_add₀ (by norm_num)]; norm_num, le_div_iff₀ hc0]
    refine le_trans ?_ r1
    rw [lt_div_iff₀ hc0] at hm
    rw [mul_assoc]
    exact mul_le_mul_of_nonneg_left hm.le (by norm_num)
  have r3 : 2 ^ (1015 : ℤ) ≤ rnd64 (rnd64 (rnd64 (100000 * t) / cap) - 1) := by
    rw [← rnd64_pow (show (-1074 : ℤ) ≤ 1015 by norm_num)]
    refine rnd64_mono ?_
    have h1 : (2 : ℚ) ^ (1016 : ℤ) = 2 ^ (1015 : ℤ) + 2 ^ (1015 : ℤ) := by rw [← two_mul, ← zpow_one_add₀ (by norm_num)]; norm_num
    have h2 : (1 : ℚ) ≤ 2 ^ (1015 : ℤ) := one_le_zpow₀ (by norm_num) (by norm_num)
    rw [h1] at r2
    clear h1 hm d16
    generalize (2 : ℚ) ^ (1015 : ℤ) = A at *
    linarith
  have hw : ∃ w, F64.utilFunc (.fin 100000) [(.fin t, .fin cap)] = .ok w ∧ (w.isInf = true ∨ ∃ c, w = .fin c ∧ 2 ^ (1015 : ℤ) ≤ c) := by
    refine ⟨_, rfl, ?_⟩
    rcases cap_or (rnd64 (100000 * t)) with h1 | h1
    · have h1' : F64.mul (.fin 100000) (.fin t) = .fin (rnd64 (100000 * t)) := h1
      rw [h1']
      simp only [F64.ndiv, Val.div, if_neg hc0.ne', Val.over]
      show (F64.sub (Val.cap (rnd64 (rnd64 (100000 * t) / cap))) (.fin 1)).isInf = true ∨ _
      rcases cap_or (rnd64 (rnd64 (100000 * t) / cap)) with h2 | h2
      · rw [h2]
        rcases cap_or (rnd64 (rnd64 (rnd64 (100000 * t) / cap) - 1)) with h3 | h3
        · refine Or.inr ⟨_, ?_, r3⟩
          show F64.sub (Val.cap (rnd64 (rnd64 (100000 * t) / cap))) (.fin 1) = _
          rw [h2]
          exact h3
        · exact Or.inl h3
      · left
        generalize Val.cap (rnd64 (rnd64 (100000 * t) / cap)) = w at h2
        cases w <;> simp_all [Val.isInf, F64.sub, Val.sub, Val.over]
    · left
      have h1' : (F64.mul (.fin 100000) (.fin t)).isInf = true := h1
      generalize F64.mul (.fin 100000) (.fin t) = w at h1'
      cases w <;> simp_all [Val.isInf, F64.sub, F64.ndiv, Val.sub, Val.over, Val.div, Val.signed, hc0.ne']
  obtain ⟨w, fw, hw⟩ := hw
  obtain ⟨w', fw'⟩ : ∃ w', F64.utilFunc (.fin (-100000)) [(.fin t, .fin cap)] = .ok w' := ⟨_, rfl⟩
  have ha : w.isInf = true ∨ (F64.mul (.fin (-100000)) w).isInf = true := by
    rcases hw with hw | ⟨c, rfl, hc⟩
    · exact Or.inl hw
    · right
      have h1 : 2 ^ (1031 : ℤ) ≤ rnd64 (100000 * c) := by
        rw [← rnd64_pow (show (-1074 : ℤ) ≤ 1031 by norm_num)]
        refine rnd64_mono ?_
        rw [show (2 : ℚ) ^ (1031 : ℤ) = 2 ^ (16 : ℤ) * 2 ^ (1015 : ℤ) by rw [← zpow_add₀ (by norm_num)]; norm_num]
        exact mul_le_mul (by norm_num) hc (two_zpow_pos _).le (by norm_num)
      have h2 : (2 : ℚ) ^ 1024 ≤ rnd64 (100000 * c) := by
        refine le_trans ?_ h1
        rw [← zpow_natCast]
        exact zpow_le_zpow_right₀ (by norm_num) (by norm_num)
      show (Val.cap (rnd64 (-100000 * c))).isInf = true
      rw [neg_mul, rnd64_neg]
      have hp : (0 : ℚ) < 2 ^ 1024 := pow_pos (by norm_num) _
      unfold Val.cap
      rw [if_neg (not_le.2 ((neg_nonpos.2 (hp.le.trans h2)).trans_lt hp)), if_pos (neg_le_neg h2)]
      rfl
  unfold body64' F64.secantBody
  rcases ha with ha | ha <;>
  simp [F64.call, fw, fw', bind, Except.bind, ha, throw, throwThe, MonadExceptOf.throw]

/-- Both loops on the same guesses end alike, if the second does not leave the set `P` and the first differs from it there only by
ending with one of the two errors. -/
theorem runLoop_sim {P : ℚ → ℚ → Prop} {c1 c2 : ℚ → ℚ → Except SolverErr Bool} {b1 b2 : ℚ → ℚ → Except SolverErr ℚ} {e : SolverErr}
    (hc : ∀ x y, P x y → c1 x y = c2 x y) (hn : ∀ x y, ¬ P x y → c2 x y = .error e)
    (hb : ∀ x y, P x y → b1 x y = b2 x y ∨ b1 x y = .error .secantInf ∨ b1 x y = .error .guessBad) (om)
    (n i : ℕ) (x y : ℚ) (z : Option ℚ) :
    runLoop c1 b1 om n i x y z = runLoop c2 b2 om n i x y z ∨ runLoop c1 b1 om n i x y z = some (.error .secantInf) ∨
      runLoop c1 b1 om n i x y z = some (.error .guessBad) ∨ runLoop c2 b2 om n i x y z = some (.error e) := by
  induction n generalizing i x y z with
  | zero =>
    by_cases hP : P x y
    · left
      unfold runLoop
      rw [hc x y hP]
    · right; right; right
      unfold runLoop
      rw [hn x y hP]
  | succ n ih =>
    by_cases hP : P x y
    · unfold runLoop
      rw [hc x y hP]
      cases hcc : c2 x y with
      | error e' => left; rfl
      | ok b =>
        cases b with
        | false => left; rfl
        | true =>
          simp only
          rcases hb x y hP with h1 | h1 | h1
          · rw [h1]
            cases b2 x y with
            | error e' => left; rfl
            | ok q =>
              simp only
              by_cases hi : (20000 : ℤ) ≤ (i + 1 : ℤ)
              · rw [if_pos hi, if_pos hi]; exact Or.inl rfl
              · rw [if_neg hi, if_neg hi]
                exact ih (i + 1) y q (some q)
          · rw [h1]; right; left; rfl
          · rw [h1]; right; right; left; rfl
    · right; right; right
      unfold runLoop
      rw [hn x y hP]

theorem cond64_start : cond64 (-100000) 100000 = .ok true := by
  rw [cond64_same (by norm_num) (by norm_num)]
  rcases loopCond_cases like64_tol64.rounds (by norm_num) eta_small nearTol_64 like64_tol64.rel double_neg_hundred double_hundred with
    ⟨-, h⟩ | ⟨h, -⟩
  · exfalso
    have := h (Or.inl (by norm_num))
    norm_num at this
  · exact h

/-- Whatever the sizes: right, or a `ValueError`. -/
theorem utilNum_sound (dt : IsDouble t) (dc : IsDouble cap) (hcap : 2 ^ (-900 : ℤ) ≤ cap) (ht0 : 0 < t) :
    4 / 10 ^ 15 * cap < t ∧ (∃ v, F64.utilNum cap t = .ok v ∧ |v - t / cap| ≤ 2 ^ (-43 : ℤ) * (t / cap)) ∨
      F64.utilNum cap t = .error .valueError := by
  have hc0 : 0 < cap := (two_zpow_pos _).trans_le hcap
  have hle : ¬ F64.le (.fin t) (.fin 0) = true := by
    rw [le_fin]
    simpa using ht0
  have hstart : F64.isclose (.fin F64.relTol) (.fin 100000) (.fin (-100000)) = .ok false := by
    rw [isclose64_fin relTol_nonneg (le_maxDouble (k := 100) (by norm_num) (by norm_num))
      (le_maxDouble (k := 100) (by norm_num) (by norm_num)) (le_maxDouble (k := 100) (by norm_num) (by norm_num)), ← isclose_tol64]
    exact start_far like64_tol64 nearTol_64
  have hrun := secantLoop64_run t cap 20000 0 (-100000) 100000 none
  simp only [Option.map_none] at hrun
  have fail : ∀ e : SolverErr, e.toPy = .valueError →
      runLoop cond64 (body64' t cap) (some (.error .exceeded)) 20000 0 (-100000) 100000 none = some (.error e) →
      F64.utilNum cap t = .error .valueError := by
    intro e hep he
    unfold F64.utilNum F64.utilOne F64.secant
    rw [if_neg hle]
    simp only [F64.checkGuesses, Val.isInf, Val.isNan, Bool.or_self, Bool.false_eq_true, if_false, hstart, hrun, he, lift64, hep]
    rfl
  by_cases hhi : t / cap ≤ 2 ^ (1000 : ℤ)
  swap
  · right
    refine fail .secantInf rfl ?_
    unfold runLoop
    rw [cond64_start, body64_huge dt hcap (not_le.1 hhi)]
  have h : Sized t cap (t / cap) := ⟨dt, dc, hcap, ht0, rfl, hhi⟩
  have hm0 := h.m_pos
  classical
  let P : ℚ → ℚ → Prop := fun x y => x = -100000 ∧ y = 100000 ∨ 4 / 10 ^ 15 < t / cap ∧ IsDouble x ∧ IsDouble y ∧
    |x * (t / cap)| ≤ 100000 * (t / cap) + 32 ∧ |y * (t / cap)| ≤ 100000 * (t / cap) + 32
  let c2 : ℚ → ℚ → Except SolverErr Bool := fun x y =>
    if P x y then loopCond Rt.tol64 F64.relTol (Rt.tol64.sub y x) x y else .error .fallbackArgs
  let b2 := secantBody Rt.tol64 (utilFunc Rt.tol64) [(t, cap)] F64.relTol
  have hPs : P (-100000) 100000 := Or.inl ⟨rfl, rfl⟩
  have key := util_run like64_tol64 nearTol_64 dt dc hcap ht0 rfl hhi (cond := c2) (body := b2)
    (fun hlo x y Fx Fy hx hy => ⟨if_pos (Or.inr ⟨hlo, Fx, Fy, hx, hy⟩), rfl⟩) (if_pos hPs) rfl (some (.error .exceeded))
  have hB : 4 / 10 ^ 15 < t / cap → ∀ z : ℚ, |z * (t / cap)| ≤ 100000 * (t / cap) + 32 → |z| ≤ 2 ^ (100 : ℤ) := by
    intro hlo z hz
    rw [abs_mul, abs_of_pos hm0] at hz
    have h1 : |z| ≤ 10 ^ 20 := by
      refine le_of_mul_le_mul_right (hz.trans ?_) hm0
      norm_num at hlo ⊢
      linarith
    exact h1.trans (by norm_num)
  have sim := runLoop_sim (P := P) (c1 := cond64) (c2 := c2) (b1 := body64' t cap) (b2 := b2) (e := .fallbackArgs)
    (by
      rintro x y hP
      show _ = if P x y then _ else _
      rw [if_pos hP]
      rcases hP with ⟨rfl, rfl⟩ | ⟨hlo, -, -, hx, hy⟩
      · exact cond64_same (by norm_num) (by norm_num)
      · exact cond64_same (hB hlo _ hx) (hB hlo _ hy))
    (fun x y hP => if_neg hP)
    (by
      rintro x y (⟨rfl, rfl⟩ | ⟨-, Fx, Fy, hx, hy⟩)
      · have hb : ∀ z : ℚ, |z| = 100000 → |z * (t / cap)| ≤ 100000 * (t / cap) + 32 := by
          intro z hz
          rw [abs_mul, hz, abs_of_pos hm0]
          linarith
        exact body64_or h double_neg_hundred double_hundred (hb _ (by norm_num)) (hb _ (by norm_num))
      · exact body64_or h Fx Fy hx hy)
    (some (.error .exceeded)) 20000 0 (-100000) 100000 none
  rcases sim with sim | sim | sim | sim
  · rcases key with ⟨hlo, x, i, he, Fx, hx0, hv⟩ | ⟨he, -⟩
    · rw [he] at sim
      have hq : F64.div (.fin 1) (.fin x) = .ok (.fin (rnd64 (1 / x))) := by
        have hdiv : |rnd64 (1 / x)| ≤ 2 ^ (1001 : ℤ) := by
          rw [like64_tol64.div] at hv
          have h2 := abs_add_le (rnd64 (1 / x) - t / cap) (t / cap)
          rw [sub_add_cancel, abs_of_pos hm0] at h2
          have h3 : (2 : ℚ) ^ (-43 : ℤ) * (t / cap) ≤ 1 * (t / cap) := mul_le_mul_of_nonneg_right (by norm_num) hm0.le
          rw [show (2 : ℚ) ^ (1001 : ℤ) = 2 * 2 ^ (1000 : ℤ) by rw [← zpow_one_add₀ (by norm_num)]; norm_num]
          clear hB hPs
          generalize (2 : ℚ) ^ (1000 : ℤ) = B at *
          generalize (2 : ℚ) ^ (-43 : ℤ) * (t / cap) = C at *
          linarith
        simp only [F64.div, if_neg hx0, Val.div, Val.over]
        show Except.ok (Val.cap (rnd64 (1 / x))) = _
        rw [cap_double (le_maxDouble (by norm_num) hdiv)]
      have he0 : F64.eq (.fin x) (.fin 0) = false := by simp [F64.eq, hx0]
      left
      rw [lt_div_iff₀ hc0] at hlo
      refine ⟨hlo, _, ?_, hv⟩
      unfold F64.utilNum F64.utilOne F64.secant
      rw [if_neg hle]
      simp only [F64.checkGuesses, Val.isInf, Val.isNan, Bool.or_self, Bool.false_eq_true, if_false, hstart, hrun, sim]
      simp only [lift64, he0, hq, Bool.false_eq_true, if_false, bind, Except.bind, like64_tol64.div]
    · rw [he] at sim
      exact Or.inr (fail _ rfl sim)
  · exact Or.inr (fail _ rfl sim)
  · exact Or.inr (fail _ rfl sim)
  · exfalso
    rcases key with ⟨-, x, i, he, -⟩ | ⟨he, -⟩
    · rw [he] at sim; simp at sim
    · rw [he] at sim; simp at sim

/-- C140 for one tension -/
theorem utilNum_cases (dt : IsDouble t) (dc : IsDouble cap) (hcap : 2 ^ (-900 : ℤ) ≤ cap) (ht0 : 0 < t) :
    4 / 10 ^ 15 * cap < t ∧ (∃ v, F64.utilNum cap t = .ok v ∧ |v - t / cap| ≤ 2 ^ (-43 : ℤ) * (t / cap)) ∨
      F64.utilNum cap t = .error .valueError ∧
        (t < 1 / 10 ^ 4 * cap ∨ 2 ^ (1000 : ℤ) < cap ∨ 2 ^ (1000 : ℤ) < t ∨ 2 ^ (900 : ℤ) * cap < t) := by
  have hc0 : 0 < cap := (two_zpow_pos _).trans_le hcap
  by_cases hb : 2 ^ (1000 : ℤ) < cap ∨ 2 ^ (1000 : ℤ) < t ∨ 2 ^ (900 : ℤ) * cap < t
  · exact (utilNum_sound dt dc hcap ht0).imp id fun h => ⟨h, Or.inr hb⟩
  · push Not at hb
    refine (utilNum_double ⟨dt, dc, hcap, hb.1, ht0, hb.2.1, rfl, ?_⟩).imp id fun h => ⟨h.1, Or.inl ?_⟩
    · rw [div_le_iff₀ hc0]
      exact hb.2.2
    · rw [one_div_mul_eq_div]
      exact h.2

end

end BeamDesign
