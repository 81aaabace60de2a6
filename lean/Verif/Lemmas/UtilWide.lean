import Verif.Lemmas.UtilRound

/-!
# The secant method for utilisations of any size, with rounding
-/

set_option linter.unusedSectionVars false

namespace BeamDesign

open Spec

variable {K : Type} [Field K] [LinearOrder K] [IsStrictOrderedRing K]

section
variable {rt : Rt K} {F : K → Prop} {u η tol : K}

/-- The ratio of a load and the capacity, at any guess. -/
theorem ratio_wide (hr : Rounds rt F u η) (hu0 : 0 ≤ u) (hu : u ≤ 1 / (8 * 10 ^ 15)) {t cap : K}
    (ht : F t) (hc : F cap) (hc0 : 0 < cap) (hη : η ≤ u / 10 ^ 30) (hηc : η ≤ u / 1000 * cap) {x : K}
    (hx : F x) :
    F (rt.div (rt.mul x t) cap) ∧
      |rt.div (rt.mul x t) cap - x * (t / cap)| ≤ 21 / 10 * (u * |x * (t / cap)|) + u / 100 := by
  have d1 := hr.mul x t hx ht
  have d2 := hr.div _ _ d1.1 hc hc0.ne'
  refine ⟨d2.1, ?_⟩
  set m := t / cap with hm
  have hxm : x * t = cap * (x * m) := by rw [hm]; field_simp
  have e1 : |rt.mul x t - x * t| ≤ cap * (u * |x * m| + u / 1000) := by
    refine d1.2.trans ?_
    rw [hxm, abs_mul, abs_of_pos hc0]
    linarith [mul_comm u cap, mul_left_comm u cap |x * m|, mul_add cap (u * |x * m|) (u / 1000)]
  have e2 : |rt.div (rt.mul x t) cap - x * m| ≤
      (1 + u) * ((cap * (u * |x * m| + u / 1000) + 0 * |x * m|) / cap) + u * |x * m| + η :=
    div_near hu0 hxm e1 (by rw [sub_self, abs_zero]) hc0 (le_abs_self _) d2.2
  have e3 : (cap * (u * |x * m| + u / 1000) + 0 * |x * m|) / cap = u * |x * m| + u / 1000 := by
    field_simp; ring
  rw [e3] at e2
  have hq0 : 0 ≤ |x * m| := abs_nonneg _
  have hqu : 0 ≤ u * |x * m| := mul_nonneg hu0 hq0
  have hu' : u ≤ 1 / 10 ^ 15 := hu.trans (by norm_num)
  have hquu : u * (u * |x * m|) ≤ 1 / 10 ^ 15 * (u * |x * m|) := mul_le_mul_of_nonneg_right hu' hqu
  have huu : u * u ≤ 1 / 10 ^ 15 * u := mul_le_mul_of_nonneg_right hu' hu0
  norm_num [-abs_mul] at hquu huu hη
  refine e2.trans ?_
  have : (1 + u) * (u * |x * m| + u / 1000) = u * |x * m| + u / 1000 + u * (u * |x * m|) + u * u / 1000 := by ring
  rw [this]
  linarith

/-- The function solved, evaluated with rounding, at any guess. -/
theorem utilFunc_wide (hr : Rounds rt F u η) (hu0 : 0 ≤ u) (hu : u ≤ 1 / (8 * 10 ^ 15)) {t cap : K}
    (ht : F t) (hc : F cap) (h1 : F 1) (hc0 : 0 < cap) (hη : η ≤ u / 10 ^ 30) (hηc : η ≤ u / 1000 * cap) {x : K}
    (hx : F x) :
    ∃ y, utilFunc rt x [(t, cap)] = .ok (.fin y) ∧ F y ∧
      |y - (x * (t / cap) - 1)| ≤ u * (4 * |x * (t / cap)| + 11 / 10) := by
  obtain ⟨d2, e4⟩ := ratio_wide hr hu0 hu ht hc hc0 hη hηc hx
  have d3 := hr.sub _ _ d2 h1
  refine ⟨_, by simp only [utilFunc, if_neg hc0.ne'], d3.1, ?_⟩
  obtain ⟨y, hy⟩ : ∃ y, y = x * (t / cap) := ⟨_, rfl⟩
  rw [← hy] at e4 ⊢
  have hq0 : 0 ≤ |y| := abs_nonneg _
  have hqu : 0 ≤ u * |y| := mul_nonneg hu0 hq0
  have hu' : u ≤ 1 / 10 ^ 15 := hu.trans (by norm_num)
  have hquu : u * (u * |y|) ≤ 1 / 10 ^ 15 * (u * |y|) := mul_le_mul_of_nonneg_right hu' hqu
  have huu : u * u ≤ 1 / 10 ^ 15 * u := mul_le_mul_of_nonneg_right hu' hu0
  norm_num at hquu huu
  have e5 := sub_near hu0 e4 (b := 1) (b' := 1) (e2 := 0) (by simp) d3.2
  refine e5.trans ?_
  have h6 : |y - 1| ≤ |y| + 1 := by
    have := abs_sub y 1
    rwa [abs_one] at this
  have h7 := mul_le_mul_of_nonneg_left h6 hu0
  have : (1 + u) * (21 / 10 * (u * |y|) + u / 100 + 0) =
    21 / 10 * (u * |y|) + u / 100 + 21 / 10 * (u * (u * |y|)) + u * u / 100 := by ring
  rw [this]
  linarith [mul_add u |y| 1, mul_add u (4 * |y|) (11 / 10), mul_left_comm u 4 |y|]

/-- One pass of the secant method on a function near `x m - 1`: the new guess in terms of the root `1 / m`. -/
theorem step_near {m x1 x2 c d a b s w q γ δ B G : K} (hu0 : 0 ≤ u) (hu : u ≤ 1 / (8 * 10 ^ 15))
    (hm : 0 < m) (hc : |c - (x2 * m - 1)| ≤ γ) (hd : |d - (x1 * m - 1)| ≤ δ)
    (ha : |a - x1 * c| ≤ u * |x1 * c| + η) (hb : |b - x2 * d| ≤ u * |x2 * d| + η)
    (hs : |s - (a - b)| ≤ u * |a - b|) (hw : |w - (c - d)| ≤ u * |c - d|) (hq : |q - s / w| ≤ u * |s / w| + η)
    (hcd : 0 < |c - d|) (hB0 : 0 ≤ B) (hG0 : 0 ≤ G)
    (hB : |x1 * m - 1| * γ + |x2 * m - 1| * δ ≤ B * |c - d|)
    (hG : |x1 * m| * |c| + |x2 * m| * |d| ≤ G * |c - d|)
    (hη : η * m ≤ u / 1000 * |c - d|) (hη' : η * m ≤ u / 1000) :
    |q * m - 1| ≤ 11 / 10 * (B + u * G) + 5 * u := by
  obtain ⟨R, hR⟩ : ∃ R, R = 1 / m := ⟨_, rfl⟩
  have hmR : m * R = 1 := by rw [hR]; field_simp
  have hR0 : 0 < R := by rw [hR]; positivity
  obtain ⟨D, hD⟩ : ∃ D, D = |c - d| := ⟨_, rfl⟩
  rw [← hD] at hcd hB hG hη hw
  have hu' : u ≤ 1 / 10 ^ 15 := hu.trans (by norm_num)
  have key : |x1 * c - x2 * d - (c - d) * R| ≤ R * (B * D) := by
    have e : x1 * c - x2 * d - (c - d) * R =
        R * ((x1 * m - 1) * (c - (x2 * m - 1)) - (x2 * m - 1) * (d - (x1 * m - 1))) := by
      have h1 : x1 = x1 * m * R := by rw [mul_assoc, hmR, mul_one]
      have h2 : x2 = x2 * m * R := by rw [mul_assoc, hmR, mul_one]
      calc _ = x1 * m * R * c - x2 * m * R * d - (c - d) * R := by rw [← h1, ← h2]
        _ = _ := by ring
    rw [e, abs_mul, abs_of_pos hR0]
    refine mul_le_mul_of_nonneg_left (le_trans ?_ hB) hR0.le
    refine (abs_sub _ _).trans (add_le_add ?_ ?_)
    · rw [abs_mul]; exact mul_le_mul_of_nonneg_left hc (abs_nonneg _)
    · rw [abs_mul]; exact mul_le_mul_of_nonneg_left hd (abs_nonneg _)
  have h3 := sub_near hu0 ha hb hs
  have hx : |x1 * c| + |x2 * d| ≤ R * (G * D) := by
    have e1 : |x1 * c| = R * (|x1 * m| * |c|) := by
      rw [abs_mul, abs_mul, abs_of_pos hm]
      calc _ = |x1| * |c| * (m * R) := by rw [hmR, mul_one]
        _ = _ := by ring
    have e2 : |x2 * d| = R * (|x2 * m| * |d|) := by
      rw [abs_mul, abs_mul, abs_of_pos hm]
      calc _ = |x2| * |d| * (m * R) := by rw [hmR, mul_one]
        _ = _ := by ring
    rw [e1, e2, ← mul_add]
    exact mul_le_mul_of_nonneg_left hG hR0.le
  have hdiff : |x1 * c - x2 * d| ≤ R * D + R * (B * D) := by
    have := abs_add_le (x1 * c - x2 * d - (c - d) * R) ((c - d) * R)
    rw [sub_add_cancel, abs_mul (c - d), ← hD, abs_of_pos hR0] at this
    linarith [mul_comm D R]
  have hηR : η ≤ R * (u / 1000 * D) := by
    have := mul_le_mul_of_nonneg_left hη hR0.le
    have e : R * (η * m) = η := by rw [mul_left_comm, mul_comm R m, hmR, mul_one]
    rwa [e] at this
  obtain ⟨z, hz⟩ : ∃ z, z = R * D := ⟨_, rfl⟩
  have hz0 : 0 < z := by rw [hz]; positivity
  have huz : 0 ≤ u * z := mul_nonneg hu0 hz0.le
  have e1 : |s - (c - d) * R| ≤ z * (101 / 100 * (B + u * G) + 2 * u) := by
    have h4 := abs_add_le (s - (x1 * c - x2 * d)) (x1 * c - x2 * d - (c - d) * R)
    rw [sub_add_sub_cancel] at h4
    have h5 : u * |x1 * c| + η + (u * |x2 * d| + η) ≤ u * (z * G) + 2 * (z * (u / 1000)) := by
      have := mul_le_mul_of_nonneg_left hx hu0
      rw [show R * (G * D) = z * G by rw [hz]; ring] at this
      rw [show R * (u / 1000 * D) = z * (u / 1000) by rw [hz]; ring] at hηR
      linarith [mul_add u |x1 * c| |x2 * d|]
    have h6 := mul_le_mul_of_nonneg_left h5 (show 0 ≤ 1 + u by linarith)
    have h7 := mul_le_mul_of_nonneg_left hdiff hu0
    rw [show R * D + R * (B * D) = z + z * B by rw [hz]; ring] at h7
    rw [show R * (B * D) = z * B by rw [hz]; ring] at key
    have h8 : u * (u * (z * G)) ≤ 1 / 10 ^ 15 * (u * (z * G)) :=
      mul_le_mul_of_nonneg_right hu' (mul_nonneg hu0 (mul_nonneg hz0.le hG0))
    have h9 : u * (z * B) ≤ 1 / 10 ^ 15 * (z * B) := mul_le_mul_of_nonneg_right hu' (mul_nonneg hz0.le hB0)
    have h10 : u * (u * z) ≤ 1 / 10 ^ 15 * (u * z) := mul_le_mul_of_nonneg_right hu' huz
    have hzB : 0 ≤ z * B := mul_nonneg hz0.le hB0
    have huzG : 0 ≤ u * (z * G) := mul_nonneg hu0 (mul_nonneg hz0.le hG0)
    norm_num at h8 h9 h10
    have e6 : (1 + u) * (u * (z * G) + 2 * (z * (u / 1000))) =
      u * (z * G) + u * (u * (z * G)) + (u * z) / 500 + u * (u * z) / 500 := by ring
    rw [e6] at h6
    have e7 : z * (101 / 100 * (B + u * G) + 2 * u) = 101 / 100 * (z * B) + 101 / 100 * (u * (z * G)) + 2 * (u * z) := by ring
    rw [e7]
    linarith [mul_add u z (z * B)]
  have hwL : (1 - u) * D ≤ |w| := by
    have := abs_sub_abs_le_abs_sub (c - d) w
    rw [abs_sub_comm (c - d) w, ← hD] at this
    linarith [sub_mul 1 u D]
  have hL : 0 < (1 - u) * D := by
    have : u < 1 := hu'.trans_lt (by norm_num)
    exact mul_pos (by linarith) hcd
  have h5 := div_near hu0 (S := (c - d) * R) (R := R) rfl e1 hw hL hwL hq
  rw [abs_of_pos hR0] at h5
  obtain ⟨V, hV⟩ : ∃ V, V = 101 / 100 * (B + u * G) + 3 * u := ⟨_, rfl⟩
  have hV0 : 0 ≤ V := by rw [hV]; positivity
  have e8 : z * (101 / 100 * (B + u * G) + 2 * u) + u * D * R = z * V := by rw [hV, hz]; ring
  rw [e8] at h5
  have e9 : z * V / ((1 - u) * D) = R * (V / (1 - u)) := by
    have : (1 - u) ≠ 0 := by
      have : u < 1 := hu'.trans_lt (by norm_num)
      linarith
    rw [hz]; field_simp
  rw [e9] at h5
  have e10 : q * m - 1 = (q - R) * m := by rw [sub_mul, mul_comm R m, hmR]
  rw [e10, abs_mul, abs_of_pos hm]
  refine (mul_le_mul_of_nonneg_right h5 hm.le).trans ?_
  have e11 : ((1 + u) * (R * (V / (1 - u))) + u * R + η) * m = (1 + u) * (V / (1 - u)) + u + η * m := by
    calc _ = (1 + u) * (V / (1 - u)) * (m * R) + u * (m * R) + η * m := by ring
      _ = _ := by rw [hmR, mul_one, mul_one]
  rw [e11]
  have h11 : (1 + u) * (V / (1 - u)) ≤ 1001 / 1000 * V := by
    rw [← mul_div_assoc, div_le_iff₀ (by linarith [hu'.trans_lt (show (1 : K) / 10 ^ 15 < 1 by norm_num)])]
    have : u * V ≤ 1 / 10 ^ 15 * V := mul_le_mul_of_nonneg_right hu' hV0
    norm_num at this
    linarith [add_mul 1 u V, mul_sub (1001 / 1000 * V) 1 u, mul_comm u (1001 / 1000 * V), mul_assoc (1001 / 1000) V u, mul_comm V u]
  have hBG : 0 ≤ B + u * G := by positivity
  have h12 : 1001 / 1000 * V = 1001 / 1000 * (101 / 100) * (B + u * G) + 3003 / 1000 * u := by rw [hV]; ring
  linarith

/-- What the test whether two numbers are close says about them. -/
theorem isclose_cases (hr : Rounds rt F u η) (hu : u ≤ 1 / (8 * 10 ^ 15)) (hη : η ≤ u / 10 ^ 30)
    (hT : NearTol tol) (hrel : NearRel rt F u η) {x y : K} (hx : F x) (hy : F y) :
    isclose rt tol (.fin x) (.fin y) = .ok true ∧ |y - x| ≤ 2 / 10 ^ 9 * (1 + |x| + |y|) ∧
        (1 ≤ |x| ∨ 1 ≤ |y| → |y - x| ≤ 11 / 10 ^ 10 * (|x| + |y|)) ∨
      isclose rt tol (.fin x) (.fin y) = .ok false ∧ 9 / 10 ^ 10 < |y - x| ∧
        9 / 10 ^ 10 * |y| < |y - x| + η := by
  have d := (hr.sub y x hy hx).2
  have hu' : u ≤ 1 / 10 ^ 15 := hu.trans (by norm_num)
  have hη' : η ≤ 1 / 10 ^ 15 := by
    refine hη.trans ?_
    rw [div_le_iff₀ (by positivity)]
    refine hu'.trans ?_
    norm_num
  have hs1 : |y - x| ≤ 101 / 100 * |rt.sub y x| := by
    have h := abs_sub_abs_le_abs_sub (y - x) (rt.sub y x)
    rw [abs_sub_comm (y - x) (rt.sub y x)] at h
    have := mul_le_mul_of_nonneg_right hu' (abs_nonneg (y - x))
    norm_num at this
    linarith [abs_nonneg (y - x)]
  have hs2 : |rt.sub y x| ≤ 101 / 100 * |y - x| := by
    have h := abs_sub_abs_le_abs_sub (rt.sub y x) (y - x)
    have := mul_le_mul_of_nonneg_right hu' (abs_nonneg (y - x))
    norm_num at this
    linarith [abs_nonneg (y - x)]
  have hm : ∀ z, F z → |rt.mul relTol z| ≤ 101 / 10 ^ 11 * |z| + η ∧ 99 / 10 ^ 11 * |z| ≤ |rt.mul relTol z| + η := by
    intro z hz
    have h := hrel z hz
    have e : |relTol * z| = 1 / 10 ^ 9 * |z| := by
      rw [abs_mul, relTol, abs_of_nonneg (by positivity)]
    rw [e] at h
    have h1 := abs_sub_abs_le_abs_sub (rt.mul relTol z) (relTol * z)
    have h2 := abs_sub_abs_le_abs_sub (relTol * z) (rt.mul relTol z)
    rw [abs_sub_comm] at h2
    rw [e] at h1 h2
    rw [mul_assoc] at h
    have h3 := mul_le_mul_of_nonneg_right hu' (show 0 ≤ 1 / 10 ^ 9 * |z| by positivity)
    have h4 := abs_nonneg z
    norm_num at h1 h2 h3 ⊢
    norm_num at h
    constructor <;> linarith
  obtain ⟨hx1, hx2⟩ := hm x hx
  obtain ⟨hy1, hy2⟩ := hm y hy
  have ax := abs_nonneg x
  have ay := abs_nonneg y
  norm_num at hη' hx1 hx2 hy1 hy2
  obtain ⟨hT1, hT2⟩ := hT
  have hT0 : 0 ≤ tol := le_trans (by norm_num) hT1
  norm_num at hT1 hT2
  by_cases hcl : x = y ∨ |rt.sub y x| ≤ |rt.mul relTol y| ∨ |rt.sub y x| ≤ |rt.mul relTol x| ∨ |rt.sub y x| ≤ tol
  · left
    refine ⟨?_, ?_, ?_⟩
    · unfold isclose
      rw [if_neg (not_lt.2 hT0)]
      simp only [Except.ok.injEq, Bool.or_eq_true, decide_eq_true_eq]
      tauto
    · rcases hcl with rfl | h | h | h
      · rw [sub_self, abs_zero]; positivity
      all_goals norm_num at h ⊢; linarith
    · intro h1
      rcases hcl with rfl | h | h | h
      · rw [sub_self, abs_zero]; positivity
      all_goals rcases h1 with h1 | h1 <;> norm_num at h ⊢ <;> linarith
  · right
    push Not at hcl
    obtain ⟨hne, h1, h2, h3⟩ := hcl
    refine ⟨?_, ?_, ?_⟩
    · unfold isclose
      rw [if_neg (not_lt.2 hT0)]
      simp only [hne, decide_false, not_le.2 h1, not_le.2 h2, not_le.2 h3, Bool.or_false]
    · norm_num at h3 ⊢; linarith
    · norm_num; linarith

omit [IsStrictOrderedRing K] in
theorem secantBody_same {A : Type} {f : SolveFun K A} {args : List A} {tol x1 x2 c d : K}
    (hc : f x2 args = .ok (.fin c)) (hd : f x1 args = .ok (.fin d))
    (hcl : isclose rt tol (.fin c) (.fin d) = .ok true) :
    secantBody rt f args tol x1 x2 = .error .sameValue := by
  unfold secantBody callFunc
  simp [hc, hd, bind, Except.bind, mulVal, Val.isInf, hcl, throw, throwThe, MonadExceptOf.throw]

/-- One pass of the secant method on the utilisation: it takes the two values for equal, or finds the next guess. -/
theorem utilBody_cases (hr : Rounds rt F u η) (hu0 : 0 ≤ u) (hu : u ≤ 1 / (8 * 10 ^ 15)) (hη : η ≤ u / 10 ^ 30)
    (hT : NearTol tol) (hrel : NearRel rt F u η) {t cap m : K} (ht : F t) (hc : F cap)
    (h1 : F 1) (hc0 : 0 < cap) (hηc : η ≤ u / 1000 * cap) (hm : m = t / cap) (hm0 : 0 < m) (hmhi : m ≤ 4 * 10 ^ 11)
    {x1 x2 : K} (hx1 : F x1) (hx2 : F x2) :
    ∃ c d, |c - (x2 * m - 1)| ≤ u * (4 * |x2 * m| + 11 / 10) ∧ |d - (x1 * m - 1)| ≤ u * (4 * |x1 * m| + 11 / 10) ∧
      (secantBody rt (utilFunc rt) [(t, cap)] tol x1 x2 = .error .sameValue ∧
          |c - d| ≤ 2 / 10 ^ 9 * (1 + |c| + |d|) ∨
        9 / 10 ^ 10 < |c - d| ∧ ∃ q, secantBody rt (utilFunc rt) [(t, cap)] tol x1 x2 = .ok q ∧ F q ∧
          ∀ B G, 0 ≤ B → 0 ≤ G →
            |x1 * m - 1| * (u * (4 * |x2 * m| + 11 / 10)) + |x2 * m - 1| * (u * (4 * |x1 * m| + 11 / 10)) ≤ B * |c - d| →
            |x1 * m| * |c| + |x2 * m| * |d| ≤ G * |c - d| → |q * m - 1| ≤ 11 / 10 * (B + u * G) + 5 * u) := by
  obtain ⟨c, fc, Fc, ec⟩ := utilFunc_wide hr hu0 hu ht hc h1 hc0 hη hηc hx2
  obtain ⟨d, fd, Fd, ed⟩ := utilFunc_wide hr hu0 hu ht hc h1 hc0 hη hηc hx1
  rw [← hm] at ec ed
  refine ⟨c, d, ec, ed, ?_⟩
  rcases isclose_cases hr hu hη hT hrel Fc Fd with ⟨h, hcl, -⟩ | ⟨h, hfar, -⟩
  · left
    rw [abs_sub_comm d c] at hcl
    exact ⟨secantBody_same fc fd h, hcl⟩
  · right
    rw [abs_sub_comm d c] at hfar
    refine ⟨hfar, ?_⟩
    have hcd : 0 < |c - d| := lt_trans (by positivity) hfar
    have dw := hr.sub c d Fc Fd
    have hw0 : rt.sub c d ≠ 0 := by
      intro h0
      have h2 := dw.2
      rw [h0, zero_sub, abs_neg] at h2
      have : u * |c - d| ≤ 1 / (8 * 10 ^ 15) * |c - d| := mul_le_mul_of_nonneg_right hu hcd.le
      norm_num at this
      linarith
    have da := hr.mul x1 c hx1 Fc
    have db := hr.mul x2 d hx2 Fd
    have ds := hr.sub _ _ da.1 db.1
    have dq := hr.div _ _ ds.1 dw.1 hw0
    refine ⟨_, secantBody_val fc fd h hw0, dq.1, ?_⟩
    intro B G hB0 hG0 hB hG
    have hηm : η * m ≤ u / 10 ^ 18 := by
      have h0 : η * m ≤ u / 10 ^ 30 * m := mul_le_mul_of_nonneg_right hη hm0.le
      have h2 : u / 10 ^ 30 * m ≤ u / 10 ^ 30 * (4 * 10 ^ 11) := mul_le_mul_of_nonneg_left hmhi (by positivity)
      refine h0.trans (h2.trans ?_)
      norm_num
      linarith
    refine step_near hu0 hu hm0 ec ed da.2 db.2 ds.2 dw.2 dq.2 hcd hB0 hG0 hB hG ?_ ?_
    · have : u / 1000 * (9 / 10 ^ 10) ≤ u / 1000 * |c - d| := mul_le_mul_of_nonneg_left hfar.le (by positivity)
      norm_num at hηm this ⊢
      linarith
    · norm_num at hηm ⊢
      linarith

/-- The test that ends the loop. -/
theorem loopCond_cases (hr : Rounds rt F u η) (hu : u ≤ 1 / (8 * 10 ^ 15)) (hη : η ≤ u / 10 ^ 30)
    (hT : NearTol tol) (hrel : NearRel rt F u η) {x y : K} (hx : F x) (hy : F y) :
    loopCond rt tol (rt.sub y x) x y = .ok false ∧
        (1 ≤ |x| ∨ 1 ≤ |y| → |y - x| ≤ 11 / 10 ^ 10 * (|x| + |y|)) ∨
      loopCond rt tol (rt.sub y x) x y = .ok true ∧ 9 / 10 ^ 10 < |y - x| ∧
        9 / 10 ^ 10 * |y| < |y - x| + η := by
  unfold loopCond
  by_cases h : |rt.sub y x| > tol
  · rw [if_pos h]
    rcases isclose_cases hr hu hη hT hrel hx hy with ⟨h1, -, h2⟩ | ⟨h1, h2⟩
    · exact Or.inl ⟨by simp only [h1, bind, Except.bind, pure, Except.pure, Bool.not_true], h2⟩
    · exact Or.inr ⟨by simp only [h1, bind, Except.bind, pure, Except.pure, Bool.not_false], h2⟩
  · rw [if_neg h]
    refine Or.inl ⟨rfl, ?_⟩
    have d := (hr.sub y x hy hx).2
    have hu' : u ≤ 1 / 10 ^ 15 := hu.trans (by norm_num)
    have h1 := abs_sub_abs_le_abs_sub (y - x) (rt.sub y x)
    rw [abs_sub_comm (y - x) (rt.sub y x)] at h1
    have h2 := mul_le_mul_of_nonneg_right hu' (abs_nonneg (y - x))
    have h3 := abs_nonneg x
    have h4 := abs_nonneg y
    have hT2 := hT.2
    rintro (h5 | h5) <;> norm_num at h h2 hT2 ⊢ <;> linarith

/-- The loop of the secant method with any test and any passes, up to 20000 of them. -/
def runLoop (cond : K → K → Except SolverErr Bool) (body : K → K → Except SolverErr K) (om : Option (Except SolverErr (K × ℕ × Bool))) :
    ℕ → ℕ → K → K → Option K → Option (Except SolverErr (K × ℕ × Bool))
  | fuel, i, x1, x2, x3 =>
    match cond x1 x2 with
    | .error e => some (.error e)
    | .ok false =>
      match x3 with
      | some x => some (.ok (x, i, false))
      | none => some (.error .unbound)
    | .ok true =>
      match fuel with
      | 0 => none
      | fuel + 1 =>
        match body x1 x2 with
        | .error e => some (.error e)
        | .ok x3 => if (20000 : ℤ) ≤ (i + 1 : ℤ) then om else runLoop cond body om fuel (i + 1) x2 x3 (some x3)

omit [IsStrictOrderedRing K] in
theorem secantLoop_run {A : Type} {f : SolveFun K A} {args : List A} (om) (n i : ℕ) (x1 x2 : K) (x3 : Option K) :
    secantLoop rt f args tol (some 20000) om n i x1 x2 x3 =
      runLoop (fun x y => loopCond rt tol (rt.sub y x) x y) (secantBody rt f args tol) om n i x1 x2 x3 := by
  induction n generalizing i x1 x2 x3 with
  | zero => unfold secantLoop runLoop; rfl
  | succ n ih =>
    unfold secantLoop runLoop
    simp only [Option.any_some, decide_eq_true_eq, ih]
    rfl

/-- The test and the passes are those of the secant method for the utilisation, for guesses of the size that occurs. -/
def SameLoop (rt : Rt K) (F : K → Prop) (tol t cap : K) (cond : K → K → Except SolverErr Bool) (body : K → K → Except SolverErr K) : Prop :=
  ∀ x y, F x → F y → |x * (t / cap)| ≤ 100000 * (t / cap) + 32 → |y * (t / cap)| ≤ 100000 * (t / cap) + 32 →
    cond x y = loopCond rt tol (rt.sub y x) x y ∧ body x y = secantBody rt (utilFunc rt) [(t, cap)] tol x y

/-- The root to be found, up to `600 u`. -/
def NearRoot (u m x : K) : Prop := |x * m - 1| ≤ 600 * u

/-- The loop ended with a number near the root or, for a small `m`, gave up as two values were the same. -/
def Ended (F : K → Prop) (u m : K) (r : Option (Except SolverErr (K × ℕ × Bool))) : Prop :=
  (∃ x i, r = some (.ok (x, i, false)) ∧ F x ∧ NearRoot u m x) ∨
    r = some (.error .sameValue) ∧ m < 10 ^ 4

/-- Near the root the loop ends. -/
theorem loop_near (hr : Rounds rt F u η) (hu : u ≤ 1 / (8 * 10 ^ 15)) (hη : η ≤ u / 10 ^ 30)
    (hT : NearTol tol) (hrel : NearRel rt F u η) {m : K} (hm0 : 0 < m)
    (hmhi : m ≤ 4 * 10 ^ 11) (hu0 : 0 ≤ u) {x y : K} (hx : F x) (hy : F y) (nx : NearRoot u m x) (ny : NearRoot u m y) :
    loopCond rt tol (rt.sub y x) x y = .ok false := by
  rcases loopCond_cases hr hu hη hT hrel hx hy with h | ⟨-, -, h⟩
  · exact h.1
  · exfalso
    have h1 := mul_lt_mul_of_pos_right h hm0
    have e1 : |y - x| * m = |y * m - x * m| := by rw [← sub_mul, abs_mul, abs_of_pos hm0]
    have e2 : |y| * m = |y * m| := by rw [abs_mul, abs_of_pos hm0]
    have hηm : η * m ≤ u := by
      have h0 : η * m ≤ u / 10 ^ 30 * m := mul_le_mul_of_nonneg_right hη hm0.le
      have h2 : u / 10 ^ 30 * m ≤ u / 10 ^ 30 * (4 * 10 ^ 11) := mul_le_mul_of_nonneg_left hmhi (by positivity)
      refine h0.trans (h2.trans ?_)
      norm_num
      linarith
    rw [mul_assoc, e2, add_mul, e1] at h1
    unfold NearRoot at nx ny
    have a := abs_le.1 nx
    have b := abs_le.1 ny
    have h2 : |y * m - x * m| ≤ 1200 * u := abs_le.2 ⟨by linarith [a.1, a.2, b.1, b.2], by linarith [a.1, a.2, b.1, b.2]⟩
    have h3 := le_abs_self (y * m)
    norm_num [-abs_mul] at h1 hu
    linarith [b.1]

/-- The first pass, from the guesses `-r` and `r` (in units of the root). -/
theorem first_bound {r W c d : K} (hu0 : 0 ≤ u) (hu : u ≤ 1 / (8 * 10 ^ 15)) (hr0 : 0 < r) (hW : W * r = u) (hW0 : 0 ≤ W)
    (hc : |c - (r - 1)| ≤ u * (4 * |r| + 11 / 10)) (hd : |d - (-r - 1)| ≤ u * (4 * |-r| + 11 / 10))
    (hD : 9 / 10 ^ 10 < |c - d|) :
    W ≤ 3 / 10 ^ 7 ∧
    |-r - 1| * (u * (4 * |r| + 11 / 10)) + |r - 1| * (u * (4 * |-r| + 11 / 10)) ≤
      (u * (41 / 10 * r + 53 / 10) + 12 / 10 * W) * |c - d| ∧
    |-r| * |c| + |r| * |d| ≤ 11 / 10 * (r + 1) * |c - d| := by
  rw [abs_neg, abs_of_pos hr0] at *
  have hur : 0 ≤ u * r := mul_nonneg hu0 hr0.le
  have hur' : u * r ≤ 1 / 10 ^ 15 * r := mul_le_mul_of_nonneg_right (hu.trans (by norm_num)) hr0.le
  norm_num at hu hur' hD
  have bc := abs_le.1 hc
  have bd := abs_le.1 hd
  have e : u * (4 * r + 11 / 10) = 4 * (u * r) + 11 / 10 * u := by ring
  rw [e] at *
  have hD' : |c - d| ≤ 2 * r + (8 * (u * r) + 22 / 10 * u) :=
    abs_le.2 ⟨by linarith [bc.1, bc.2, bd.1, bd.2], by linarith [bc.1, bc.2, bd.1, bd.2]⟩
  have hrlo : 44 / 10 ^ 11 ≤ r := by norm_num; linarith
  have hWle : W ≤ 3 / 10 ^ 7 := by
    by_contra h
    push Not at h
    have : 3 / 10 ^ 7 * r ≤ W * r := mul_le_mul_of_nonneg_right h.le hr0.le
    rw [hW] at this
    norm_num at this hrlo
    linarith
  have huWr : u ≤ 3 / 10 ^ 7 * r := by
    have := mul_le_mul_of_nonneg_right hWle hr0.le
    rwa [hW] at this
  norm_num at huWr
  have hDlo : 199 / 100 * r ≤ |c - d| := by
    refine le_trans ?_ (le_abs_self _)
    linarith [bc.1, bd.2]
  refine ⟨hWle, ?_, ?_⟩
  · have h1 : |-r - 1| = r + 1 := by rw [abs_of_neg (by linarith)]; ring
    have h2 : |r - 1| ≤ r + 1 := abs_le.2 ⟨by linarith, by linarith⟩
    rw [h1]
    have h3 : |r - 1| * (4 * (u * r) + 11 / 10 * u) ≤ (r + 1) * (4 * (u * r) + 11 / 10 * u) :=
      mul_le_mul_of_nonneg_right h2 (by positivity)
    have h4 : (u * (41 / 10 * r + 53 / 10) + 12 / 10 * W) * (199 / 100 * r) ≤
        (u * (41 / 10 * r + 53 / 10) + 12 / 10 * W) * |c - d| := mul_le_mul_of_nonneg_left hDlo (by positivity)
    refine le_trans ?_ h4
    have e1 : (u * (41 / 10 * r + 53 / 10) + 12 / 10 * W) * (199 / 100 * r) =
      8159 / 1000 * (u * r * r) + 10547 / 1000 * (u * r) + 2388 / 1000 * (W * r) := by ring
    have e2 : (r + 1) * (4 * (u * r) + 11 / 10 * u) = 4 * (u * r * r) + 51 / 10 * (u * r) + 11 / 10 * u := by ring
    have h5 : 0 ≤ u * r * r := by positivity
    rw [e1, hW]
    linarith
  · have h1 : |c| ≤ r + 1 + (4 * (u * r) + 11 / 10 * u) := abs_le.2 ⟨by linarith [bc.1], by linarith [bc.2]⟩
    have h2 : |d| ≤ r + 1 + (4 * (u * r) + 11 / 10 * u) := abs_le.2 ⟨by linarith [bd.1], by linarith [bd.2]⟩
    have h3 : |c| + |d| ≤ 2 * (r + 1) + (r + 1) / 100 := by linarith
    have h4 := mul_le_mul_of_nonneg_left h3 hr0.le
    have h5 : 11 / 10 * (r + 1) * (199 / 100 * r) ≤ 11 / 10 * (r + 1) * |c - d| :=
      mul_le_mul_of_nonneg_left hDlo (by positivity)
    have e1 : 11 / 10 * (r + 1) * (199 / 100 * r) = 2189 / 1000 * (r * (r + 1)) := by ring
    have e2 : r * (2 * (r + 1) + (r + 1) / 100) = 201 / 100 * (r * (r + 1)) := by ring
    have h6 : 0 ≤ r * (r + 1) := by positivity
    linarith [mul_add r |c| |d|]

set_option maxHeartbeats 1000000 in
/-- The second pass, from the guesses `r` and `y`, which is near 1 unless `r` is large. -/
theorem second_bound {r W y c d : K} (hu0 : 0 ≤ u) (hu : u ≤ 1 / (8 * 10 ^ 15)) (hr0 : 0 < r) (hrhi : r ≤ 4 * 10 ^ 16)
    (hW : W * r = u) (hW0 : 0 ≤ W) (hW1 : W ≤ 3 / 10 ^ 7) (hy : |y - 1| ≤ u * (6 * r + 13) + 14 / 10 * W)
    (hc : |c - (y - 1)| ≤ u * (4 * |y| + 11 / 10)) (hd : |d - (r - 1)| ≤ u * (4 * |r| + 11 / 10))
    (hD : 9 / 10 ^ 10 < |c - d|) :
    |y| ≤ 32 ∧
    |r - 1| * (u * (4 * |y| + 11 / 10)) + |y - 1| * (u * (4 * |r| + 11 / 10)) ≤ 440 * u * |c - d| ∧
    |r| * |c| + |y| * |d| ≤ 100 * |c - d| := by
  rw [abs_of_pos hr0] at *
  have hur : 0 ≤ u * r := mul_nonneg hu0 hr0.le
  have hur' : u * r ≤ 1 / (8 * 10 ^ 15) * r := mul_le_mul_of_nonneg_right hu hr0.le
  norm_num at hu hur' hD hrhi hW1
  have ey : u * (6 * r + 13) = 6 * (u * r) + 13 * u := by ring
  have ed : u * (4 * r + 11 / 10) = 4 * (u * r) + 11 / 10 * u := by ring
  rw [ey] at hy
  rw [ed] at hd ⊢
  have hy1 : |y - 1| ≤ 301 / 10 := by linarith
  have hyl : |y| ≤ |y - 1| + 1 := by
    have := abs_add_le (y - 1) 1
    rwa [sub_add_cancel, abs_one] at this
  have hγ : u * (4 * |y| + 11 / 10) ≤ 4 * (u * |y - 1|) + 51 / 10 * u := by
    have := mul_le_mul_of_nonneg_left hyl hu0
    linarith [mul_add u (4 * |y|) (11 / 10), mul_left_comm u 4 |y|, mul_add u |y - 1| 1]
  have hγ0 : 0 ≤ u * (4 * |y| + 11 / 10) := by positivity
  have huy : u * |y - 1| ≤ 301 / 10 * u := by
    have := mul_le_mul_of_nonneg_left hy1 hu0
    linarith
  refine ⟨by linarith, ?_⟩
  have bc := abs_le.1 hc
  have bd := abs_le.1 hd
  have by' := abs_le.1 (le_refl |y - 1|)
  have hcb : |c| ≤ |y - 1| + u * (4 * |y| + 11 / 10) := abs_le.2 ⟨by linarith [bc.1, by'.1], by linarith [bc.2, by'.2]⟩
  by_cases h2 : 2 ≤ r
  · have hWu : W ≤ u := by
      have := mul_le_mul_of_nonneg_left h2 hW0
      linarith
    have hsmall : |y - 1| + u * (4 * |y| + 11 / 10) + (4 * (u * r) + 11 / 10 * u) ≤ (r - 1) / 100 := by linarith
    have hDlo : 99 / 100 * (r - 1) ≤ |c - d| := by
      refine le_trans ?_ (neg_le_abs _)
      linarith [bc.2, bd.1, by'.2]
    have hr1 : |r - 1| = r - 1 := abs_of_pos (by linarith)
    rw [hr1]
    constructor
    · have h3 : (r - 1) * (u * (4 * |y| + 11 / 10)) ≤ (r - 1) * (1261 / 10 * u) :=
        mul_le_mul_of_nonneg_left (by linarith) (by linarith)
      have h4 : |y - 1| * (4 * (u * r) + 11 / 10 * u) ≤ 301 / 10 * (4 * (u * r) + 11 / 10 * u) :=
        mul_le_mul_of_nonneg_right hy1 (by positivity)
      have h5 : 440 * u * (99 / 100 * (r - 1)) ≤ 440 * u * |c - d| := mul_le_mul_of_nonneg_left hDlo (by positivity)
      have h6 : 0 ≤ u * (r - 2) := mul_nonneg hu0 (by linarith)
      have e1 : (r - 1) * (1261 / 10 * u) = 1261 / 10 * (u * (r - 2)) + 1261 / 10 * u := by ring
      have e2 : 440 * u * (99 / 100 * (r - 1)) = 4356 / 10 * (u * (r - 2)) + 4356 / 10 * u := by ring
      have e3 : u * r = u * (r - 2) + 2 * u := by ring
      linarith
    · have hcl : |c| ≤ 311 / 10 := by linarith
      have hdl : |d| ≤ 101 / 100 * (r - 1) := abs_le.2 ⟨by linarith [bd.1], by linarith [bd.2, abs_nonneg (y - 1)]⟩
      have h3 := mul_le_mul_of_nonneg_left hcl hr0.le
      have h4 : |y| * |d| ≤ 312 / 10 * (101 / 100 * (r - 1)) :=
        mul_le_mul (by linarith) hdl (abs_nonneg _) (by norm_num)
      linarith
  · push Not at h2
    have hγ2 : |y - 1| ≤ 1 / 10 ^ 6 := by norm_num; linarith
    norm_num at hγ2
    have huy' : u * |y - 1| ≤ 1 / 1000000 * u := by
      have := mul_le_mul_of_nonneg_left hγ2 hu0
      linarith
    have hA : |y - 1| + u * (4 * |y| + 11 / 10) + (4 * (u * r) + 11 / 10 * u) ≤ |c - d| := by
      by_cases h3 : 1 / 2 ≤ r
      · have hWu : W ≤ 2 * u := by
          have := mul_le_mul_of_nonneg_left h3 hW0
          linarith
        have : u * r ≤ 2 * u := by
          have := mul_le_mul_of_nonneg_left h2.le hu0
          linarith
        linarith
      · push Not at h3
        refine le_trans ?_ (le_abs_self _)
        linarith [bc.1, bd.2, by'.1]
    have hr1 : |r - 1| ≤ 2 * |c - d| := by
      have a1 := abs_le.1 (le_refl |c - d|)
      exact abs_le.2 ⟨by linarith [a1.1, a1.2, bc.1, bc.2, bd.1, bd.2, by'.1, by'.2],
        by linarith [a1.1, a1.2, bc.1, bc.2, bd.1, bd.2, by'.1, by'.2]⟩
    have hD0 := abs_nonneg (c - d)
    have hur2 : u * r ≤ 2 * u := by
      have := mul_le_mul_of_nonneg_left h2.le hu0
      linarith
    have huD : 0 ≤ u * |c - d| := mul_nonneg hu0 hD0
    constructor
    · have h3 : |r - 1| * (u * (4 * |y| + 11 / 10)) ≤ 2 * |c - d| * (52 / 10 * u) :=
        mul_le_mul hr1 (by linarith) hγ0 (by positivity)
      have h4 : |y - 1| * (4 * (u * r) + 11 / 10 * u) ≤ |c - d| * (91 / 10 * u) :=
        mul_le_mul (by linarith [abs_nonneg (y - 1)]) (by linarith) (by positivity) hD0
      have e1 : 2 * |c - d| * (52 / 10 * u) = 104 / 10 * (u * |c - d|) := by ring
      have e2 : |c - d| * (91 / 10 * u) = 91 / 10 * (u * |c - d|) := by ring
      have e3 : 440 * u * |c - d| = 440 * (u * |c - d|) := by ring
      linarith
    · have hcD : |c| ≤ |c - d| := by linarith
      have hdD : |d| ≤ 3 * |c - d| := by
        have a1 := abs_le.1 hr1
        exact abs_le.2 ⟨by linarith [bd.1, a1.1, abs_nonneg (y - 1)], by linarith [bd.2, a1.2, abs_nonneg (y - 1)]⟩
      have h3 : r * |c| ≤ 2 * |c - d| := mul_le_mul h2.le hcD (abs_nonneg _) (by norm_num)
      have h4 : |y| * |d| ≤ 2 * (3 * |c - d|) := mul_le_mul (by linarith) hdD (abs_nonneg _) (by norm_num)
      linarith

/-- Further passes: from any guess and one near the root. -/
theorem later_bound {z y c d : K} (hu0 : 0 ≤ u) (hu : u ≤ 1 / (8 * 10 ^ 15)) (hz : |z| ≤ 32) (hy : |y - 1| ≤ 600 * u)
    (hc : |c - (y - 1)| ≤ u * (4 * |y| + 11 / 10)) (hd : |d - (z - 1)| ≤ u * (4 * |z| + 11 / 10))
    (hD : 9 / 10 ^ 10 < |c - d|) :
    |z - 1| * (u * (4 * |y| + 11 / 10)) + |y - 1| * (u * (4 * |z| + 11 / 10)) ≤ 20 * u * |c - d| ∧
    |z| * |c| + |y| * |d| ≤ 10 * |c - d| := by
  norm_num at hu hD
  have hyl : |y| ≤ 101 / 100 := by
    have := abs_add_le (y - 1) 1
    rw [sub_add_cancel, abs_one] at this
    linarith
  have hγ : u * (4 * |y| + 11 / 10) ≤ 52 / 10 * u := by
    have := mul_le_mul_of_nonneg_left hyl hu0
    linarith [mul_add u (4 * |y|) (11 / 10), mul_left_comm u 4 |y|]
  have hδ : u * (4 * |z| + 11 / 10) ≤ 1292 / 10 * u := by
    have := mul_le_mul_of_nonneg_left hz hu0
    linarith [mul_add u (4 * |z|) (11 / 10), mul_left_comm u 4 |z|]
  have hγ0 : 0 ≤ u * (4 * |y| + 11 / 10) := by positivity
  have hδ0 : 0 ≤ u * (4 * |z| + 11 / 10) := by positivity
  have bc := abs_le.1 hc
  have bd := abs_le.1 hd
  have by' := abs_le.1 hy
  have a1 := abs_le.1 (le_refl |c - d|)
  have hcl : |c| ≤ 606 * u := abs_le.2 ⟨by linarith [bc.1, by'.1], by linarith [bc.2, by'.2]⟩
  have bcl := abs_le.1 hcl
  have hdl : |d| ≤ 2 * |c - d| := abs_le.2 ⟨by linarith [a1.1, a1.2, bcl.1, bcl.2], by linarith [a1.1, a1.2, bcl.1, bcl.2]⟩
  have hzl : |z - 1| ≤ 2 * |c - d| :=
    abs_le.2 ⟨by linarith [a1.1, a1.2, bcl.1, bcl.2, bd.1, bd.2], by linarith [a1.1, a1.2, bcl.1, bcl.2, bd.1, bd.2]⟩
  have hD0 := abs_nonneg (c - d)
  have huD : 0 ≤ u * |c - d| := mul_nonneg hu0 hD0
  constructor
  · have h3 : |z - 1| * (u * (4 * |y| + 11 / 10)) ≤ 2 * |c - d| * (52 / 10 * u) := mul_le_mul hzl hγ hγ0 (by positivity)
    have h4 : |y - 1| * (u * (4 * |z| + 11 / 10)) ≤ 1 / 1000 * |c - d| * (1292 / 10 * u) :=
      mul_le_mul (by linarith) hδ hδ0 (by positivity)
    have e1 : 2 * |c - d| * (52 / 10 * u) = 104 / 10 * (u * |c - d|) := by ring
    have e2 : 1 / 1000 * |c - d| * (1292 / 10 * u) = 1292 / 10000 * (u * |c - d|) := by ring
    have e3 : 20 * u * |c - d| = 20 * (u * |c - d|) := by ring
    linarith
  · have h3 : |z| * |c| ≤ 32 * (606 * u) := mul_le_mul hz hcl (abs_nonneg _) (by norm_num)
    have h4 : |y| * |d| ≤ 101 / 100 * (2 * |c - d|) := mul_le_mul hyl hdl (abs_nonneg _) (by norm_num)
    linarith

/-- The loop from any guess of moderate size and one near the root. -/
theorem loop_later (hr : Rounds rt F u η) (hu0 : 0 ≤ u) (hu : u ≤ 1 / (8 * 10 ^ 15)) (hη : η ≤ u / 10 ^ 30)
    (hT : NearTol tol) (hrel : NearRel rt F u η) {t cap m : K} (ht : F t) (hc : F cap)
    (h1 : F 1) (hc0 : 0 < cap) (hηc : η ≤ u / 1000 * cap) (hm : m = t / cap) (hm0 : 0 < m) (hmhi : m ≤ 4 * 10 ^ 11)
    {x1 x2 : K} (hx1 : F x1) (hx2 : F x2) (hz : |x1 * m| ≤ 32) (hy : NearRoot u m x2) {cond body} (H : SameLoop rt F tol t cap cond body) (om)
    (n i : ℕ) (hi : i < 100) :
    Ended F u m (runLoop cond body om (n + 1) i x1 x2 (some x2)) := by
  unfold SameLoop at H
  rw [← hm] at H
  have hyb : ∀ q, NearRoot u m q → |q * m| ≤ 100000 * m + 32 := by
    intro q hq
    unfold NearRoot at hq
    have := abs_le.1 hq
    norm_num at hu
    exact abs_le.2 ⟨by linarith [this.1], by linarith [this.2]⟩
  obtain ⟨Hc, Hb⟩ := H x1 x2 hx1 hx2 (by linarith) (hyb _ hy)
  rw [runLoop, Hc]
  rcases loopCond_cases hr hu hη hT hrel hx1 hx2 with ⟨hl, -⟩ | ⟨hl, hfar, -⟩
  · rw [hl]
    exact Or.inl ⟨x2, i, rfl, hx2, hy⟩
  rw [hl]
  simp only
  obtain ⟨c, d, ec, ed, hb⟩ := utilBody_cases hr hu0 hu hη hT hrel ht hc h1 hc0 hηc hm hm0 hmhi hx1 hx2
  rcases hb with ⟨hb, hD⟩ | ⟨hD, q, hb, Fq, hq⟩
  · rw [Hb, hb]
    refine Or.inr ⟨rfl, ?_⟩
    by_contra hbig
    push Not at hbig
    unfold NearRoot at hy
    have bc := abs_le.1 ec
    have bd := abs_le.1 ed
    have by' := abs_le.1 hy
    have hyl : |x2 * m| ≤ 101 / 100 := by
      norm_num at hu
      exact abs_le.2 ⟨by linarith [by'.1], by linarith [by'.2]⟩
    have hγ : u * (4 * |x2 * m| + 11 / 10) ≤ 52 / 10 * u := by
      have := mul_le_mul_of_nonneg_left hyl hu0
      linarith [mul_add u (4 * |x2 * m|) (11 / 10), mul_left_comm u 4 |x2 * m|]
    have hδ : u * (4 * |x1 * m| + 11 / 10) ≤ 1292 / 10 * u := by
      have := mul_le_mul_of_nonneg_left hz hu0
      linarith [mul_add u (4 * |x1 * m|) (11 / 10), mul_left_comm u 4 |x1 * m|]
    have hfar' : 9 / 10 ^ 6 ≤ |x2 * m - x1 * m| := by
      rw [← sub_mul, abs_mul, abs_of_pos hm0]
      calc (9 : K) / 10 ^ 6 = 9 / 10 ^ 10 * 10 ^ 4 := by norm_num
        _ ≤ _ := mul_le_mul hfar.le hbig (by positivity) (abs_nonneg _)
    have bz := abs_le.1 hz
    norm_num [-abs_mul] at hu hD hfar'
    have hcl : |c| ≤ 1 := abs_le.2 ⟨by linarith [bc.1, by'.1], by linarith [bc.2, by'.2]⟩
    have hdl : |d| ≤ 34 := abs_le.2 ⟨by linarith [bd.1, bz.1], by linarith [bd.2, bz.2]⟩
    have a1 := abs_le.1 (le_refl |c - d|)
    have : |x2 * m - x1 * m| ≤ |c - d| + 200 * u :=
      abs_le.2 ⟨by linarith [a1.1, a1.2, bc.1, bc.2, bd.1, bd.2], by linarith [a1.1, a1.2, bc.1, bc.2, bd.1, bd.2]⟩
    linarith
  · rw [Hb, hb]
    have hM : ¬ (20000 : ℤ) ≤ ((i : ℕ) + 1 : ℤ) := by omega
    simp only [hM, if_false]
    obtain ⟨hB, hG⟩ := later_bound hu0 hu hz hy ec ed hD
    have hqn : NearRoot u m q := by
      refine (hq (20 * u) 10 (by positivity) (by norm_num) hB hG).trans ?_
      linarith
    unfold runLoop
    rw [(H x2 q hx2 Fq (hyb _ hy) (hyb _ hqn)).1, loop_near hr hu hη hT hrel hm0 hmhi hu0 hx2 Fq hy hqn]
    exact Or.inl ⟨q, i + 1, rfl, Fq, hqn⟩

/-- The loop from the starting guesses. -/
theorem loop_start (hr : Rounds rt F u η) (hu0 : 0 ≤ u) (hu : u ≤ 1 / (8 * 10 ^ 15)) (hη : η ≤ u / 10 ^ 30)
    (hT : NearTol tol) (hrel : NearRel rt F u η) {t cap m : K} (ht : F t) (hc : F cap)
    (h1 : F 1) (hX : F 100000) (hX' : F (-100000)) (hc0 : 0 < cap) (hηc : η ≤ u / 1000 * cap) (hm : m = t / cap)
    (hm0 : 0 < m) (hmhi : m ≤ 4 * 10 ^ 11) {cond body} (H : SameLoop rt F tol t cap cond body) (om) (n : ℕ) :
    Ended F u m (runLoop cond body om (n + 3) 0 (-100000) 100000 none) := by
  obtain ⟨r, hrr⟩ : ∃ r, r = 100000 * m := ⟨_, rfl⟩
  have hr0 : 0 < r := by rw [hrr]; positivity
  have hrhi : r ≤ 4 * 10 ^ 16 := by rw [hrr]; norm_num at hmhi ⊢; linarith
  obtain ⟨W, hWe⟩ : ∃ W, W = u / r := ⟨_, rfl⟩
  have hW : W * r = u := by rw [hWe]; field_simp
  have hW0 : 0 ≤ W := by rw [hWe]; positivity
  have H' := H
  unfold SameLoop at H'
  rw [← hm] at H'
  obtain ⟨Hc, Hb⟩ := H' (-100000) 100000 hX' hX (by rw [neg_mul, abs_neg, abs_of_pos (by positivity)]; linarith)
    (by rw [abs_of_pos (by positivity)]; linarith)
  rw [runLoop, Hc]
  rcases loopCond_cases hr hu hη hT hrel hX' hX with ⟨-, h⟩ | ⟨hl, -⟩
  · exfalso
    have := h (Or.inl (by norm_num))
    norm_num at this
  rw [hl]
  simp only
  obtain ⟨c, d, ec, ed, hb⟩ := utilBody_cases hr hu0 hu hη hT hrel ht hc h1 hc0 hηc hm hm0 hmhi hX' hX
  rw [neg_mul, ← hrr] at ed hb
  rw [← hrr] at ec
  rcases hb with ⟨hb, hD⟩ | ⟨hD, x3, hb, F3, hq⟩
  · rw [Hb, hb]
    refine Or.inr ⟨rfl, ?_⟩
    by_contra hbig
    push Not at hbig
    have hrlo : 10 ^ 9 ≤ r := by rw [hrr]; norm_num at hbig ⊢; linarith
    have bc := abs_le.1 ec
    have bd := abs_le.1 ed
    rw [abs_neg, abs_of_pos hr0] at bd
    rw [abs_of_pos hr0] at bc
    have hur' : u * r ≤ 1 / (8 * 10 ^ 15) * r := mul_le_mul_of_nonneg_right hu hr0.le
    have e : u * (4 * r + 11 / 10) = 4 * (u * r) + 11 / 10 * u := by ring
    rw [e] at bc bd
    norm_num at hu hur' hrlo hD
    have hcl : |c| ≤ 2 * r := abs_le.2 ⟨by linarith [bc.1], by linarith [bc.2]⟩
    have hdl : |d| ≤ 2 * r := abs_le.2 ⟨by linarith [bd.1], by linarith [bd.2]⟩
    have := le_abs_self (c - d)
    linarith [bc.1, bd.2]
  rw [Hb, hb]
  have hM : ¬ (20000 : ℤ) ≤ ((0 : ℕ) + 1 : ℤ) := by norm_num
  simp only [hM, if_false]
  obtain ⟨hW1, hB, hG⟩ := first_bound hu0 hu hr0 hW hW0 ec ed hD
  have hy := hq _ _ (by positivity) (by positivity) hB hG
  have hy' : |x3 * m - 1| ≤ u * (6 * r + 13) + 14 / 10 * W := by
    refine hy.trans ?_
    have hur : 0 ≤ u * r := mul_nonneg hu0 hr0.le
    have e1 : 11 / 10 * (u * (41 / 10 * r + 53 / 10) + 12 / 10 * W + u * (11 / 10 * (r + 1))) + 5 * u =
      572 / 100 * (u * r) + 1204 / 100 * u + 132 / 100 * W := by ring
    have e2 : u * (6 * r + 13) = 6 * (u * r) + 13 * u := by ring
    linarith
  clear hy hq hB hG
  have hy0 : |x3 * m| ≤ 32 := by
    have hyl : |x3 * m| ≤ |x3 * m - 1| + 1 := by
      have := abs_add_le (x3 * m - 1) 1
      rwa [sub_add_cancel, abs_one] at this
    have e3 : u * (6 * r + 13) = 6 * (u * r) + 13 * u := by ring
    rw [e3] at hy'
    have hur' : u * r ≤ 1 / (8 * 10 ^ 15) * r := mul_le_mul_of_nonneg_right hu hr0.le
    norm_num at hu hur' hrhi hW1
    linarith
  obtain ⟨Hc2, Hb2⟩ := H' 100000 x3 hX F3 (by rw [abs_of_pos (by positivity)]; linarith) (by linarith)
  rw [runLoop, Hc2]
  rcases loopCond_cases hr hu hη hT hrel hX F3 with ⟨hl2, hcl⟩ | ⟨hl2, -⟩
  · rw [hl2]
    refine Or.inl ⟨x3, 0 + 1, rfl, F3, ?_⟩
    have h2 := hcl (Or.inl (by norm_num))
    have h3 := mul_le_mul_of_nonneg_right h2 hm0.le
    have e1 : |x3 - 100000| * m = |x3 * m - r| := by rw [hrr, ← sub_mul, abs_mul, abs_of_pos hm0]
    have e2 : 11 / 10 ^ 10 * (|(100000 : K)| + |x3|) * m = 11 / 10 ^ 10 * (r + |x3 * m|) := by
      rw [abs_of_pos (show (0 : K) < 100000 by norm_num), abs_mul, abs_of_pos hm0, hrr]; ring
    rw [e1, e2] at h3
    obtain ⟨y, hye⟩ : ∃ y, y = x3 * m := ⟨_, rfl⟩
    unfold NearRoot
    rw [← hye] at h3 hy' ⊢
    have e3 : u * (6 * r + 13) = 6 * (u * r) + 13 * u := by ring
    rw [e3] at hy'
    have hur' : u * r ≤ 1 / (8 * 10 ^ 15) * r := mul_le_mul_of_nonneg_right hu hr0.le
    norm_num at hu hur' hrhi h3 hW1
    have hyl : |y| ≤ |y - 1| + 1 := by
      have := abs_add_le (y - 1) 1
      rwa [sub_add_cancel, abs_one] at this
    have b := abs_le.1 (le_refl |y - 1|)
    have b3 := abs_le.1 h3
    have hr33 : r ≤ 33 := by linarith [b3.1, b.2]
    have hsm : |y - 1| ≤ 1 / 10 ^ 6 := by norm_num; linarith
    norm_num at hsm
    have hrlo : 9 / 10 ≤ r := by linarith [b3.2, b.1]
    have hr2 : r ≤ 2 := by linarith [b3.1, b.2]
    have hWu : W ≤ 2 * u := by
      have := mul_le_mul_of_nonneg_left hrlo hW0
      linarith
    have hur2 : u * r ≤ 2 * u := by
      have := mul_le_mul_of_nonneg_left hr2 hu0
      linarith
    linarith
  rw [hl2]
  simp only
  obtain ⟨c2, d2, ec2, ed2, hb2⟩ := utilBody_cases hr hu0 hu hη hT hrel ht hc h1 hc0 hηc hm hm0 hmhi hX F3
  rw [← hrr] at ed2 hb2
  rcases hb2 with ⟨hb2, hD2⟩ | ⟨hD2, x4, hb2, F4, hq2⟩
  · rw [Hb2, hb2]
    refine Or.inr ⟨rfl, ?_⟩
    by_contra hbig
    push Not at hbig
    have hrlo : 10 ^ 9 ≤ r := by rw [hrr]; norm_num at hbig ⊢; linarith
    obtain ⟨y, hye⟩ : ∃ y, y = x3 * m := ⟨_, rfl⟩
    rw [← hye] at hy' ec2
    have bc := abs_le.1 ec2
    have bd := abs_le.1 ed2
    rw [abs_of_pos hr0] at bd
    have hur' : u * r ≤ 1 / (8 * 10 ^ 15) * r := mul_le_mul_of_nonneg_right hu hr0.le
    have e : u * (4 * r + 11 / 10) = 4 * (u * r) + 11 / 10 * u := by ring
    have e3 : u * (6 * r + 13) = 6 * (u * r) + 13 * u := by ring
    rw [e] at bd
    rw [e3] at hy'
    norm_num at hu hur' hrlo hD2 hrhi hW1
    have hyl : |y| ≤ |y - 1| + 1 := by
      have := abs_add_le (y - 1) 1
      rwa [sub_add_cancel, abs_one] at this
    have hy32 : |y| ≤ 32 := by linarith
    have hγ : u * (4 * |y| + 11 / 10) ≤ 1292 / 10 * u := by
      have := mul_le_mul_of_nonneg_left hy32 hu0
      linarith [mul_add u (4 * |y|) (11 / 10), mul_left_comm u 4 |y|]
    have b := abs_le.1 hy32
    have hcl : |c2| ≤ 34 := abs_le.2 ⟨by linarith [bc.1, b.1], by linarith [bc.2, b.2]⟩
    have hdl : |d2| ≤ 2 * r := abs_le.2 ⟨by linarith [bd.1], by linarith [bd.2]⟩
    have := neg_le_abs (c2 - d2)
    have b4 := abs_le.1 hcl
    linarith [b4.2, bd.1]
  rw [Hb2, hb2]
  have hM2 : ¬ (20000 : ℤ) ≤ ((0 + 1 : ℕ) + 1 : ℤ) := by norm_num
  simp only [hM2, if_false]
  obtain ⟨hy32, hB, hG⟩ := second_bound hu0 hu hr0 hrhi hW hW0 hW1 hy' ec2 ed2 hD2
  have hn : NearRoot u m x4 := by
    refine (hq2 (440 * u) 100 (by positivity) (by norm_num) hB hG).trans ?_
    linarith
  exact loop_later hr hu0 hu hη hT hrel ht hc h1 hc0 hηc hm hm0 hmhi F3 F4 hy32 hn H om n (0 + 1 + 1) (by norm_num)

/-- The loop gives up in the first pass if the tension is a tiny part of the capacity. -/
theorem loop_tiny (hr : Rounds rt F u η) (hu0 : 0 ≤ u) (hu : u ≤ 1 / (8 * 10 ^ 15)) (hη : η ≤ u / 10 ^ 30)
    (hT : NearTol tol) (hrel : NearRel rt F u η) {t cap m : K} (ht : F t) (hc : F cap)
    (h1 : F 1) (hX : F 100000) (hX' : F (-100000)) (hc0 : 0 < cap) (hηc : η ≤ u / 1000 * cap) (hm : m = t / cap)
    (hm0 : 0 < m) (hmhi : m ≤ 4 / 10 ^ 15) {cond body}
    (Hc : cond (-100000) 100000 = loopCond rt tol (rt.sub 100000 (-100000)) (-100000) 100000)
    (Hb : body (-100000) 100000 = secantBody rt (utilFunc rt) [(t, cap)] tol (-100000) 100000) (om) (n : ℕ) :
    runLoop cond body om (n + 1) 0 (-100000) 100000 none =
      some (.error .sameValue) := by
  rw [runLoop, Hc]
  rcases loopCond_cases hr hu hη hT hrel hX' hX with ⟨-, h⟩ | ⟨hl, -⟩
  · exfalso
    have := h (Or.inl (by norm_num))
    norm_num at this
  rw [hl]
  simp only
  obtain ⟨c, d, ec, ed, hb⟩ := utilBody_cases hr hu0 hu hη hT hrel ht hc h1 hc0 hηc hm hm0
    (hmhi.trans (by norm_num)) hX' hX
  rcases hb with ⟨hb, -⟩ | ⟨hD, -⟩
  · rw [Hb, hb]
  · exfalso
    have hX0 : |100000 * m| = 100000 * m := abs_of_pos (by positivity)
    rw [neg_mul, abs_neg, hX0] at ed
    rw [hX0] at ec
    have bc := abs_le.1 ec
    have bd := abs_le.1 ed
    have hum : u * m ≤ 1 * m := mul_le_mul_of_nonneg_right (hu.trans (by norm_num)) hm0.le
    have hum' : u * m ≤ u * (4 / 10 ^ 15) := mul_le_mul_of_nonneg_left hmhi hu0
    norm_num at hu hD hmhi hum'
    have e : u * (4 * (100000 * m) + 11 / 10) = 400000 * (u * m) + 11 / 10 * u := by ring
    rw [e] at bc bd
    have : |c - d| ≤ 9 / 10000000000 :=
      abs_le.2 ⟨by linarith [bc.1, bc.2, bd.1, bd.2], by linarith [bc.1, bc.2, bd.1, bd.2]⟩
    linarith

/-- The loop ends after two passes. -/
theorem runLoop_two {t cap x3 x4 : K} (h : TwoSteps rt tol t cap x3 x4) (hX : F 100000) (hX' : F (-100000)) (F3 : F x3) (F4 : F x4)
    (hm0 : 0 < t / cap) (h3 : |x3 * (t / cap)| ≤ 2) (h4 : |x4 * (t / cap)| ≤ 2) {cond body} (H : SameLoop rt F tol t cap cond body)
    (om) (n : ℕ) : runLoop cond body om (n + 3) 0 (-100000) 100000 none = some (.ok (x4, 2, false)) := by
  obtain ⟨c1, b1, c2, b2, c3⟩ := h
  have hp : |(100000 : K) * (t / cap)| ≤ 100000 * (t / cap) + 32 := by rw [abs_of_pos (by positivity)]; linarith
  have hn : |(-100000 : K) * (t / cap)| ≤ 100000 * (t / cap) + 32 := by rw [neg_mul, abs_neg]; exact hp
  obtain ⟨Hc1, Hb1⟩ := H _ _ hX' hX hn hp
  obtain ⟨Hc2, Hb2⟩ := H _ _ hX F3 hp (by linarith)
  obtain ⟨Hc3, -⟩ := H _ _ F3 F4 (by linarith) (by linarith)
  have m1 : ¬ (20000 : ℤ) ≤ ((0 : ℕ) + 1 : ℤ) := by norm_num
  have m2 : ¬ (20000 : ℤ) ≤ ((0 + 1 : ℕ) + 1 : ℤ) := by norm_num
  rw [runLoop]
  simp only [Hc1, c1, Hb1, b1, m1, if_false]
  rw [runLoop]
  simp only [Hc2, c2, Hb2, b2, m2, if_false]
  rw [runLoop]
  simp only [Hc3, c3]

/-- The reciprocal of a number near the root. -/
theorem inverse_near (hr : Rounds rt F u η) (hu0 : 0 ≤ u) (hu : u ≤ 1 / (8 * 10 ^ 15)) {m x : K} (h1 : F 1)
    (hm0 : 0 < m) (hηm : η ≤ u * m) (Fx : F x) (hx : NearRoot u m x) :
    x ≠ 0 ∧ |rt.div 1 x - m| ≤ 610 * u * m := by
  unfold NearRoot at hx
  have hu1 : u ≤ 1 / 10 ^ 15 := hu.trans (by norm_num)
  norm_num at hu1
  have b := abs_le.1 hx
  have hxm : 0 < x * m := by linarith [b.1]
  have hx0 : 0 < x := by
    by_contra h
    push Not at h
    linarith [mul_nonpos_of_nonpos_of_nonneg h hm0.le]
  have dv := hr.div 1 x h1 Fx hx0.ne'
  refine ⟨hx0.ne', ?_⟩
  have hR : |x - 1 / m| ≤ 600 * u / m := by
    have e : x - 1 / m = (x * m - 1) / m := by field_simp
    rw [e, abs_div, abs_of_pos hm0]
    exact div_le_div_of_nonneg_right hx hm0.le
  have hL : 99 / 100 * (1 / m) ≤ |x| := by
    rw [abs_of_pos hx0, mul_one_div, div_le_iff₀ hm0]
    linarith [b.1]
  have h5 := div_near hu0 (s := 1) (S := 1) (e1 := 0) (W := 1 / m) (R := m) (by field_simp) (by simp) hR (by positivity) hL dv.2
  refine h5.trans ?_
  rw [abs_of_pos hm0]
  have e : (0 + 600 * u / m * m) / (99 / 100 * (1 / m)) = 60000 / 99 * (u * m) := by field_simp; ring
  rw [e]
  have hum : 0 ≤ u * m := mul_nonneg hu0 hm0.le
  have huum : u * (u * m) ≤ 1 / 1000000000000000 * (u * m) := mul_le_mul_of_nonneg_right hu1 hum
  have e2 : (1 + u) * (60000 / 99 * (u * m)) + u * m + η = 60099 / 99 * (u * m) + 60000 / 99 * (u * (u * m)) + η := by ring
  rw [e2]
  linarith [mul_assoc 610 u m]

end

end BeamDesign
