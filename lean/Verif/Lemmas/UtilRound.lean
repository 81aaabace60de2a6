import Verif.Spec.Rounding
import Verif.Model.AS4100
import Mathlib.Tactic.Linarith
import Mathlib.Tactic.FieldSimp
import Mathlib.Tactic.Positivity
import Mathlib.Tactic.NormNum
import Mathlib.Tactic.Ring

/-!
# The secant method for the utilisation, with rounding
-/

set_option linter.unusedSectionVars false

namespace BeamDesign

open Spec

variable {K : Type} [Field K] [LinearOrder K] [IsStrictOrderedRing K]

theorem mul_near {u η x x' y p e : K} (hu : 0 ≤ u) (h : |x' - x| ≤ e) (hp : |p - x' * y| ≤ u * |x' * y| + η) :
    |p - x * y| ≤ (e + u * (|x| + e)) * |y| + η := by
  have h1 : |x'| ≤ |x| + e := by
    have := abs_add_le (x' - x) x
    rw [sub_add_cancel] at this
    linarith
  have h2 : |x' * y - x * y| ≤ e * |y| := by
    rw [← sub_mul, abs_mul]
    exact mul_le_mul_of_nonneg_right h (abs_nonneg _)
  have h3 : u * |x' * y| ≤ u * ((|x| + e) * |y|) := by
    rw [abs_mul]
    exact mul_le_mul_of_nonneg_left (mul_le_mul_of_nonneg_right h1 (abs_nonneg _)) hu
  have h4 := abs_add_le (p - x' * y) (x' * y - x * y)
  rw [sub_add_sub_cancel] at h4
  calc _ ≤ _ := h4
    _ ≤ (u * ((|x| + e) * |y|) + η) + e * |y| := by linarith
    _ = _ := by ring

theorem sub_near {u a a' b b' s e1 e2 : K} (hu : 0 ≤ u) (h1 : |a' - a| ≤ e1) (h2 : |b' - b| ≤ e2)
    (hs : |s - (a' - b')| ≤ u * |a' - b'|) : |s - (a - b)| ≤ (1 + u) * (e1 + e2) + u * |a - b| := by
  have h3 : |(a' - b') - (a - b)| ≤ e1 + e2 := by
    have := abs_sub (a' - a) (b' - b)
    rw [show a' - a - (b' - b) = (a' - b') - (a - b) by ring] at this
    linarith
  have h4 : |a' - b'| ≤ |a - b| + (e1 + e2) := by
    have := abs_add_le ((a' - b') - (a - b)) (a - b)
    rw [sub_add_cancel] at this
    linarith
  have h5 := abs_add_le (s - (a' - b')) ((a' - b') - (a - b))
  rw [sub_add_sub_cancel] at h5
  have h6 := mul_le_mul_of_nonneg_left h4 hu
  linarith [mul_add u |a - b| (e1 + e2), add_mul 1 u (e1 + e2)]

/-- A quotient of nearby numbers; `S / W = R`. -/
theorem div_near {u η s w S W R q e1 e2 L : K} (hu : 0 ≤ u) (hR : S = W * R) (h1 : |s - S| ≤ e1) (h2 : |w - W| ≤ e2)
    (hL : 0 < L) (hw : L ≤ |w|) (hq : |q - s / w| ≤ u * |s / w| + η) :
    |q - R| ≤ (1 + u) * ((e1 + e2 * |R|) / L) + u * |R| + η := by
  have hw0 : w ≠ 0 := by
    intro h0
    rw [h0, abs_zero] at hw
    linarith
  have h3 : |s / w - R| ≤ (e1 + e2 * |R|) / L := by
    have e : s / w - R = ((s - S) - (w - W) * R) / w := by
      rw [hR]; field_simp; ring
    rw [e, abs_div]
    have hn : |(s - S) - (w - W) * R| ≤ e1 + e2 * |R| := by
      refine (abs_sub _ _).trans (add_le_add h1 ?_)
      rw [abs_mul]
      exact mul_le_mul_of_nonneg_right h2 (abs_nonneg _)
    exact div_le_div₀ ((abs_nonneg _).trans hn) hn hL hw
  have h4 : |s / w| ≤ |R| + (e1 + e2 * |R|) / L := by
    have := abs_add_le (s / w - R) R
    rw [sub_add_cancel] at this
    linarith
  have h5 := abs_add_le (q - s / w) (s / w - R)
  rw [sub_add_sub_cancel] at h5
  have h6 := mul_le_mul_of_nonneg_left h4 hu
  linarith [mul_add u |R| ((e1 + e2 * |R|) / L), add_mul 1 u ((e1 + e2 * |R|) / L)]

/-- the tolerance 1e-9, perhaps rounded -/
def NearTol (tol : K) : Prop := 999 / 10 ^ 12 ≤ tol ∧ tol ≤ 1001 / 10 ^ 12

theorem nearTol_exact : NearTol (1 / 10 ^ 9 : K) := by unfold NearTol; norm_num

/-- The product of the relative tolerance 1e-9, perhaps rounded, with a number is near the exact product. -/
def NearRel (rt : Rt K) (F : K → Prop) (u η : K) : Prop :=
  ∀ y, F y → |rt.mul relTol y - relTol * y| ≤ 2 * u * |relTol * y| + η

theorem nearRel_of {rt : Rt K} {F : K → Prop} {u η : K} (hu0 : 0 ≤ u)
    (h : ∀ y, F y → |rt.mul relTol y - relTol * y| ≤ u * |relTol * y| + η) : NearRel rt F u η := by
  intro y hy
  have := mul_nonneg hu0 (abs_nonneg (relTol * y))
  linarith [h y hy, mul_assoc 2 u |relTol * y|]

section
variable {rt : Rt K} {F : K → Prop} {u η tol : K}

/-- The function solved, evaluated with rounding. -/
theorem utilFunc_near (hr : Rounds rt F u η) (hu0 : 0 ≤ u) (hu : u ≤ 1 / (2 * 10 ^ 15)) {t cap : K}
    (ht : F t) (hc : F cap) (h1 : F 1) (hc0 : 0 < cap) (ht0 : 0 < t) {x : K} (hx : F x)
    (hη1 : η ≤ u * |x * t|) (hη2 : η ≤ u * |x * (t / cap)|) :
    ∃ y, utilFunc rt x [(t, cap)] = .ok (.fin y) ∧ F y ∧
      |y - (x * (t / cap) - 1)| ≤ 5 * u * |x * (t / cap)| + u * |x * (t / cap) - 1| := by
  have d1 := hr.mul x t hx ht
  have d2 := hr.div _ _ d1.1 hc hc0.ne'
  have d3 := hr.sub _ _ d2.1 h1
  refine ⟨_, by simp only [utilFunc, if_neg hc0.ne'], d3.1, ?_⟩
  set m := t / cap with hm
  have e1 : |rt.mul x t - x * t| ≤ 2 * u * |x * t| := by linarith [d1.2]
  have hxm : x * t = cap * (x * m) := by rw [hm]; field_simp
  have e2 : |rt.div (rt.mul x t) cap - x * m| ≤ (1 + u) * ((2 * u * |x * t| + 0 * |x * m|) / cap) + u * |x * m| + η :=
    div_near hu0 hxm e1 (by rw [sub_self, abs_zero]) hc0 (le_abs_self _) d2.2
  have e3 : (2 * u * |x * t| + 0 * |x * m|) / cap = 2 * u * |x * m| := by
    rw [hxm, abs_mul, abs_of_pos hc0]; field_simp; ring
  rw [e3] at e2
  have hq0 : 0 ≤ |x * m| := abs_nonneg _
  have hqu : 0 ≤ u * |x * m| := mul_nonneg hu0 hq0
  have hquu : u * (u * |x * m|) ≤ 1 / (2 * 10 ^ 15) * (u * |x * m|) := mul_le_mul_of_nonneg_right hu hqu
  have e4 : |rt.div (rt.mul x t) cap - x * m| ≤ (41 / 10) * (u * |x * m|) := by
    refine e2.trans ?_
    have : (1 + u) * (2 * u * |x * m|) = 2 * (u * |x * m|) + 2 * (u * (u * |x * m|)) := by ring
    rw [this]
    linarith
  have e5 := sub_near hu0 e4 (b := 1) (b' := 1) (e2 := 0) (by simp) d3.2
  refine e5.trans ?_
  have : (1 + u) * (41 / 10 * (u * |x * m|) + 0) = 41 / 10 * (u * |x * m|) + 41 / 10 * (u * (u * |x * m|)) := by ring
  rw [this]
  linarith

/-- Numbers that are clearly apart are not taken for equal. -/
theorem isclose_far (hr : Rounds rt F u η) (hu : u ≤ 1 / (2 * 10 ^ 15)) (hη : η ≤ 1 / 10) (hT : NearTol tol)
    (hrel : NearRel rt F u η) {x y : K} (hx : F x) (hy : F y)
    (hd : 1 ≤ |y - x|) (hx' : |x| ≤ 10 ^ 6 * |y - x|) (hy' : |y| ≤ 10 ^ 6 * |y - x|) :
    isclose rt tol (.fin x) (.fin y) = .ok false ∧ tol < |rt.sub y x| ∧ rt.sub y x ≠ 0 := by
  have d1 := (hr.sub y x hy hx).2
  have hs : 9 / 10 * |y - x| ≤ |rt.sub y x| := by
    have := abs_sub_abs_le_abs_sub (y - x) (rt.sub y x)
    rw [abs_sub_comm] at d1
    have h2 := mul_le_mul_of_nonneg_right hu (abs_nonneg (y - x))
    linarith
  have hbig : ∀ z, F z → |z| ≤ 10 ^ 6 * |y - x| → |rt.mul relTol z| < |rt.sub y x| := by
    intro z hz hzb
    have d2 := hrel z hz
    have h3 := abs_sub_abs_le_abs_sub (rt.mul relTol z) (relTol * z)
    have h4 : |relTol * z| ≤ 1 / 1000 * |y - x| := by
      rw [abs_mul, relTol, abs_of_nonneg (by positivity)]
      calc _ ≤ 1 / 10 ^ 9 * (10 ^ 6 * |y - x|) := mul_le_mul_of_nonneg_left hzb (by positivity)
        _ = _ := by ring
    have h5 : u * |relTol * z| ≤ 1 / (2 * 10 ^ 15) * |relTol * z| := mul_le_mul_of_nonneg_right hu (abs_nonneg _)
    rw [mul_assoc] at d2
    linarith
  have hne : x ≠ y := by
    rintro rfl
    rw [sub_self, abs_zero] at hd
    linarith
  have hT2 := hT.2
  have hT0 : 0 ≤ tol := le_trans (by norm_num) hT.1
  have ht : tol < |rt.sub y x| := by
    refine lt_of_lt_of_le ?_ hs
    norm_num at hT2
    linarith
  refine ⟨?_, ht, ?_⟩
  · unfold isclose
    rw [if_neg (not_lt.2 hT0)]
    simp only [hne, decide_false, not_le.2 (hbig y hy hy'), not_le.2 (hbig x hx hx'), not_le.2 ht,
      Bool.or_false]
  · intro h0
    rw [h0, abs_zero] at ht
    exact absurd ht (not_lt.2 hT0)

omit [IsStrictOrderedRing K] in
theorem secantBody_val {A : Type} {f : SolveFun K A} {args : List A} {tol x1 x2 c d : K}
    (hc : f x2 args = .ok (.fin c)) (hd : f x1 args = .ok (.fin d))
    (hcl : isclose rt tol (.fin c) (.fin d) = .ok false) (h0 : rt.sub c d ≠ 0) :
    secantBody rt f args tol x1 x2 = .ok (rt.div (rt.sub (rt.mul x1 c) (rt.mul x2 d)) (rt.sub c d)) := by
  unfold secantBody callFunc
  simp [hc, hd, bind, Except.bind, mulVal, Val.isInf, hcl, h0, pure, Except.pure]

/-- Two passes of the secant method for the utilisation, from the starting guesses to `x3` and `x4`, end the loop. -/
def TwoSteps (rt : Rt K) (tol t cap x3 x4 : K) : Prop :=
  loopCond rt tol (rt.sub 100000 (-100000)) (-100000) 100000 = .ok true ∧
  secantBody rt (utilFunc rt) [(t, cap)] tol (-100000) 100000 = .ok x3 ∧
  loopCond rt tol (rt.sub x3 100000) 100000 x3 = .ok true ∧
  secantBody rt (utilFunc rt) [(t, cap)] tol 100000 x3 = .ok x4 ∧
  loopCond rt tol (rt.sub x4 x3) x3 x4 = .ok false

omit [IsStrictOrderedRing K] in
theorem loopCond_true {x y : K} (h : isclose rt tol (.fin x) (.fin y) = .ok false ∧ tol < |rt.sub y x|) :
    loopCond rt tol (rt.sub y x) x y = .ok true := by
  simp only [loopCond, gt_iff_lt, h.2, if_true, h.1, bind, Except.bind, pure, Except.pure, Bool.not_false]

omit [IsStrictOrderedRing K] in
theorem loopCond_false {x y : K} (h : |rt.sub y x| ≤ tol) : loopCond rt tol (rt.sub y x) x y = .ok false := by
  simp only [loopCond, gt_iff_lt, not_lt.2 h, if_false]

omit [IsStrictOrderedRing K] in
/-- The secant method ends after two passes. -/
theorem secant_two {t cap x3 x4 : K} {M : ℤ} {fb : Bool}
    (h0 : isclose rt tol (.fin 100000) (.fin (-100000)) = .ok false) (h : TwoSteps rt tol t cap x3 x4) (hM : 2 < M) (n : ℕ) :
    secant rt (utilFunc rt) [(t, cap)] (.fin (-100000)) (.fin 100000) tol (some M) fb (n + 3) = some (.ok (x4, 2, false)) := by
  obtain ⟨h1, b1, h2, b2, h3⟩ := h
  have m1 : ¬ M ≤ ((0 : ℕ) + 1 : ℤ) := by simp; omega
  have m2 : ¬ M ≤ ((0 + 1 : ℕ) + 1 : ℤ) := by simp; omega
  unfold secant
  simp only [checkGuesses, Val.isInf, Bool.or_self, Bool.false_eq_true, if_false, h0]
  generalize (if fb = true then secantFallback rt (utilFunc rt) [(t, cap)] (-100000) 100000 tol else some (.error .exceeded)) = om
  rw [secantLoop]
  simp only [h1, b1, Option.any_some, m1, decide_false, Bool.false_eq_true, if_false]
  rw [secantLoop]
  simp only [h2, b2, Option.any_some, m2, decide_false, Bool.false_eq_true, if_false]
  rw [secantLoop]
  simp only [h3]

set_option maxHeartbeats 1000000 in
/-- The passes of the secant method for the utilisation of one tension, computed with rounding. -/
theorem util_steps (hr : Rounds rt F u η) (hu0 : 0 ≤ u) (hu : u ≤ 1 / (2 * 10 ^ 15)) (hT : NearTol tol)
    (hrel : NearRel rt F u η)
    (h1 : F 1) (hX : F 100000) (hX' : F (-100000)) {t cap : K} (ht : F t) (hc : F cap)
    (hc0 : 0 < cap) (hlo : 1 / 10 ^ 4 ≤ t / cap) (hhi : t / cap ≤ 10 ^ 4)
    (hη1 : η ≤ u * t / 10 ^ 5) (hη2 : η ≤ u / 10 ^ 9) :
    ∃ x3 x4, F x3 ∧ F x4 ∧ TwoSteps rt tol t cap x3 x4 ∧ |x3 * (t / cap)| ≤ 2 ∧ |x4 * (t / cap)| ≤ 2 ∧ x4 ≠ 0 ∧
      |rt.div 1 x4 - t / cap| ≤ 27 * u * (t / cap) := by
  set m := t / cap with hm
  have hm0 : 0 < m := lt_of_lt_of_le (by positivity) hlo
  have ht0 : 0 < t := by
    have : t = m * cap := by rw [hm]; field_simp
    rw [this]; positivity
  norm_num at hlo hhi hη1 hη2
  have hut : 0 ≤ u * t := mul_nonneg hu0 ht0.le
  have hη1' : η ≤ u * t / 100000 := by linarith
  have huz : 0 ≤ u * m := mul_nonneg hu0 hm0.le
  have hum : u ≤ 10000 * (u * m) := by
    have := mul_le_mul_of_nonneg_left hlo hu0
    linarith
  have huu : u * u ≤ 1 / 10 ^ 15 * u := by
    have := mul_le_mul_of_nonneg_right hu hu0
    norm_num at this ⊢
    linarith
  have huum : u * (u * m) ≤ 1 / 10 ^ 15 * (u * m) := by
    have := mul_le_mul_of_nonneg_right hu huz
    norm_num at this ⊢
    linarith
  have hu' : u ≤ 1 / 10 ^ 15 := by norm_num at hu ⊢; linarith
  have humle : u * m ≤ 1 / (2 * 10 ^ 11) := by
    have := mul_le_mul_of_nonneg_left hhi hu0
    norm_num at hu ⊢
    linarith
  norm_num at huu huum hu' humle
  have hηs : η ≤ 1 / 10 := by linarith
  -- the two starting values
  obtain ⟨y2, f2, F2, e2⟩ := utilFunc_near hr hu0 hu ht hc h1 hc0 ht0 hX
    (by rw [abs_of_pos (by positivity)]; linarith) (by rw [abs_of_pos (by positivity)]; linarith)
  obtain ⟨y1, f1, F1, e1⟩ := utilFunc_near hr hu0 hu ht hc h1 hc0 ht0 hX'
    (by rw [neg_mul, abs_neg, abs_of_pos (by positivity)]; linarith)
    (by rw [neg_mul, abs_neg, abs_of_pos (by positivity)]; linarith)
  rw [← hm] at e1 e2
  rw [abs_of_pos (show 0 < 100000 * m by positivity), abs_of_pos (show 0 < 100000 * m - 1 by linarith)] at e2
  rw [neg_mul, abs_neg, abs_of_pos (show 0 < 100000 * m by positivity),
    abs_of_neg (show -(100000 * m) - 1 < 0 by linarith)] at e1
  have e2' : |y2 - (100000 * m - 1)| ≤ 600000 * (u * m) := by
    refine e2.trans ?_
    have : 5 * u * (100000 * m) + u * (100000 * m - 1) = 600000 * (u * m) - u := by ring
    linarith
  have e1' : |y1 - (-(100000 * m) - 1)| ≤ 610000 * (u * m) := by
    refine e1.trans ?_
    have : 5 * u * (100000 * m) + u * -(-(100000 * m) - 1) = 600000 * (u * m) + u := by ring
    linarith
  have b2 := abs_le.1 e2'
  have b1 := abs_le.1 e1'
  have hfar1 : isclose rt tol (.fin y2) (.fin y1) = .ok false := by
    have hd : |y1 - y2| = -(y1 - y2) := abs_of_neg (by linarith [b1.2, b2.1])
    refine (isclose_far hr hu hηs hT hrel F2 F1 ?_ ?_ ?_).1
    · rw [hd]; linarith [b1.2, b2.1]
    · rw [hd, abs_of_pos (by linarith [b2.1])]; linarith [b1.2, b2.1, b2.2]
    · rw [hd, abs_of_neg (by linarith [b1.2])]; linarith [b1.1, b1.2, b2.1]
  have hsub1 : rt.sub y2 y1 ≠ 0 := by
    have hd : |y2 - y1| = (y2 - y1) := abs_of_pos (by linarith [b1.2, b2.1])
    refine (isclose_far hr hu hηs hT hrel F1 F2 ?_ ?_ ?_).2.2
    · rw [hd]; linarith [b1.2, b2.1]
    · rw [hd, abs_of_neg (by linarith [b1.2])]; linarith [b1.1, b1.2, b2.1]
    · rw [hd, abs_of_pos (by linarith [b2.1])]; linarith [b1.2, b2.1, b2.2]
  -- the first step
  obtain ⟨R, hR⟩ : ∃ R, R = 1 / m := ⟨_, rfl⟩
  have hmR : m * R = 1 := by rw [hR]; field_simp
  have hR0 : 0 < R := by rw [hR]; positivity
  have hRhi : R ≤ 10000 := by
    rw [hR, div_le_iff₀ hm0]; linarith
  have hRlo : 1 / 10000 ≤ R := by
    rw [hR, le_div_iff₀ hm0]; linarith
  have huR : 0 ≤ u * R := mul_nonneg hu0 hR0.le
  have huRle : u ≤ 10000 * (u * R) := by
    have := mul_le_mul_of_nonneg_left hRlo hu0
    linarith
  have huuR : u * (u * R) ≤ 1 / 10 ^ 15 * (u * R) := mul_le_mul_of_nonneg_right (by linarith) huR
  have humR : u * m * R = u := by rw [mul_assoc, hmR, mul_one]
  have humR' : u ≤ 1 / 200000000000 * R := by
    have := mul_le_mul_of_nonneg_right humle hR0.le
    rw [humR] at this
    linarith
  have hz : |100000 * m - 1| = 100000 * m - 1 := abs_of_pos (by linarith)
  have hz' : |-(100000 * m) - 1| = 100000 * m + 1 := by rw [abs_of_neg (by linarith)]; ring
  have da := hr.mul (-100000) y2 hX' F2
  have db := hr.mul 100000 y1 hX F1
  have ea : |rt.mul (-100000) y2 - (100000 * m - 1) * (-100000)| ≤ 71000000000 * (u * m) := by
    have h := da.2
    rw [mul_comm (-100000 : K) y2] at h
    refine (mul_near hu0 e2' h).trans ?_
    rw [hz, abs_neg, abs_of_pos (by norm_num : (0 : K) < 100000)]
    have : (600000 * (u * m) + u * (100000 * m - 1 + 600000 * (u * m))) * 100000 + η =
      70000000000 * (u * m) - 100000 * u + 60000000000 * (u * (u * m)) + η := by ring
    rw [this]
    linarith
  have eb : |rt.mul 100000 y1 - (-(100000 * m) - 1) * 100000| ≤ 73000000000 * (u * m) := by
    have h := db.2
    rw [mul_comm (100000 : K) y1] at h
    refine (mul_near hu0 e1' h).trans ?_
    rw [hz', abs_of_pos (by norm_num : (0 : K) < 100000)]
    have : (610000 * (u * m) + u * (100000 * m + 1 + 610000 * (u * m))) * 100000 + η =
      71000000000 * (u * m) + 100000 * u + 61000000000 * (u * (u * m)) + η := by ring
    rw [this]
    linarith
  have ds := hr.sub _ _ da.1 db.1
  have dw := hr.sub _ _ F2 F1
  have es : |rt.sub (rt.mul (-100000) y2) (rt.mul 100000 y1) - 200000| ≤ 147000000000 * (u * m) := by
    have h := sub_near hu0 ea eb ds.2
    rw [show (100000 * m - 1) * (-100000) - (-(100000 * m) - 1) * 100000 = (200000 : K) by ring,
      abs_of_pos (by norm_num : (0 : K) < 200000)] at h
    refine h.trans ?_
    have : (1 + u) * (71000000000 * (u * m) + 73000000000 * (u * m)) + u * 200000 =
      144000000000 * (u * m) + 144000000000 * (u * (u * m)) + 200000 * u := by ring
    rw [this]
    linarith
  have ew : |rt.sub y2 y1 - 200000 * m| ≤ 1420000 * (u * m) := by
    have h := sub_near hu0 e2' e1' dw.2
    rw [show 100000 * m - 1 - (-(100000 * m) - 1) = 200000 * m by ring,
      abs_of_pos (show 0 < 200000 * m by positivity)] at h
    refine h.trans ?_
    have : (1 + u) * (600000 * (u * m) + 610000 * (u * m)) + u * (200000 * m) =
      1410000 * (u * m) + 1210000 * (u * (u * m)) := by ring
    rw [this]
    linarith
  have hw : 199000 * m ≤ |rt.sub y2 y1| := by
    refine le_trans ?_ (le_abs_self _)
    linarith [(abs_le.1 ew).1]
  have dx := hr.div _ _ ds.1 dw.1 hsub1
  obtain ⟨x3, hx3⟩ : ∃ x3, x3 = rt.div (rt.sub (rt.mul (-100000) y2) (rt.mul 100000 y1)) (rt.sub y2 y1) := ⟨_, rfl⟩
  rw [← hx3] at dx
  have e3 : |x3 - R| ≤ 800000 * u + 9 * (u * R) := by
    refine (div_near hu0 (R := R) (by rw [mul_assoc, hmR, mul_one]) es ew (by positivity) hw dx.2).trans ?_
    rw [abs_of_pos hR0]
    have : (147000000000 * (u * m) + 1420000 * (u * m) * R) / (199000 * m) =
        147000000 / 199 * u + 1420 / 199 * (u * R) := by
      field_simp
      ring
    rw [this]
    have : (1 + u) * (147000000 / 199 * u + 1420 / 199 * (u * R)) + u * R + η =
      147000000 / 199 * u + 147000000 / 199 * (u * u) + 1619 / 199 * (u * R) + 1420 / 199 * (u * (u * R)) + η := by ring
    rw [this]
    linarith
  have b3 := abs_le.1 e3
  have huRs : u * R ≤ 1 / 10 ^ 15 * R := mul_le_mul_of_nonneg_right (by linarith) hR0.le
  have h3lo : 99 / 100 * R ≤ x3 := by linarith
  have h3hi : x3 ≤ 101 / 100 * R := by linarith
  have h3pos : 0 < x3 := by linarith
  have e3m : |x3 * m - 1| ≤ 900000 * (u * m) := by
    have : x3 * m - 1 = (x3 - R) * m := by rw [sub_mul, mul_comm R m, hmR]
    rw [this, abs_mul, abs_of_pos hm0]
    refine (mul_le_mul_of_nonneg_right e3 hm0.le).trans ?_
    have : (800000 * u + 9 * (u * R)) * m = 800000 * (u * m) + 9 * (u * (m * R)) := by ring
    rw [this, hmR]
    linarith
  have b3m := abs_le.1 e3m
  have hxm1 : x3 * m ≤ 100001 / 100000 := by linarith
  have hxm0 : 99999 / 100000 ≤ x3 * m := by linarith
  -- the second step
  obtain ⟨c, fc, Fc, ec⟩ := utilFunc_near hr hu0 hu ht hc h1 hc0 ht0 dx.1
    (by
      rw [abs_of_pos (mul_pos h3pos ht0)]
      have : u * t * (1 / 20000) ≤ u * t * x3 := mul_le_mul_of_nonneg_left (by linarith) hut
      have h' : u * (x3 * t) = u * t * x3 := by ring
      rw [h']
      linarith)
    (by
      rw [← hm, abs_of_pos (mul_pos h3pos hm0)]
      have := mul_le_mul_of_nonneg_left hxm0 hu0
      linarith)
  rw [← hm] at ec
  have ec' : |c - (x3 * m - 1)| ≤ 51 / 10 * u := by
    refine ec.trans ?_
    rw [abs_of_pos (mul_pos h3pos hm0)]
    have h1 := mul_le_mul_of_nonneg_left hxm1 hu0
    have h2 := mul_le_mul_of_nonneg_left (e3m.trans (show 900000 * (u * m) ≤ 1 / 1000 by linarith)) hu0
    have : 5 * u * (x3 * m) = 5 * (u * (x3 * m)) := by ring
    rw [this]
    linarith
  have bc := abs_le.1 ec'
  have hfar2 : isclose rt tol (.fin c) (.fin y2) = .ok false := by
    have hd : |y2 - c| = y2 - c := abs_of_pos (by linarith [b2.1, bc.2])
    refine (isclose_far hr hu hηs hT hrel Fc F2 ?_ ?_ ?_).1
    · rw [hd]; linarith [b2.1, bc.2]
    · rw [hd]
      refine (abs_le.2 ⟨?_, ?_⟩ : |c| ≤ 1).trans ?_
      · linarith [bc.1]
      · linarith [bc.2]
      · linarith [b2.1, bc.2]
    · rw [hd, abs_of_pos (by linarith [b2.1])]; linarith [b2.1, bc.2]
  have hsub2 : rt.sub c y2 ≠ 0 := by
    have hd : |c - y2| = y2 - c := by rw [abs_of_neg (by linarith [b2.1, bc.2])]; ring
    refine (isclose_far hr hu hηs hT hrel F2 Fc ?_ ?_ ?_).2.2
    · rw [hd]; linarith [b2.1, bc.2]
    · rw [hd, abs_of_pos (by linarith [b2.1])]; linarith [b2.1, bc.2]
    · rw [hd]
      refine (abs_le.2 ⟨?_, ?_⟩ : |c| ≤ 1).trans ?_
      · linarith [bc.1]
      · linarith [bc.2]
      · linarith [b2.1, bc.2]
  have hfarx : isclose rt tol (.fin 100000) (.fin x3) = .ok false ∧ tol < |rt.sub x3 100000| := by
    have hd : |x3 - 100000| = 100000 - x3 := by rw [abs_of_neg (by linarith)]; ring
    have := isclose_far hr hu hηs hT hrel hX dx.1 (by rw [hd]; linarith)
      (by rw [hd, abs_of_pos (by norm_num)]; linarith) (by rw [hd, abs_of_pos h3pos]; linarith)
    exact ⟨this.1, this.2.1⟩
  have da2 := hr.mul 100000 c hX Fc
  have db2 := hr.mul x3 y2 dx.1 F2
  have ea2 : |rt.mul 100000 c - (x3 * m - 1) * 100000| ≤ 520000 * u := by
    have h := da2.2
    rw [mul_comm (100000 : K) c] at h
    refine (mul_near hu0 ec' h).trans ?_
    rw [abs_of_pos (by norm_num : (0 : K) < 100000)]
    have h2 := mul_le_mul_of_nonneg_left (e3m.trans (show 900000 * (u * m) ≤ 1 / 1000 by linarith)) hu0
    have : (51 / 10 * u + u * (|x3 * m - 1| + 51 / 10 * u)) * 100000 + η =
      510000 * u + 100000 * (u * |x3 * m - 1|) + 510000 * (u * u) + η := by ring
    rw [this]
    linarith
  have eb2 : |rt.mul x3 y2 - (100000 * m - 1) * x3| ≤ 720000 * u := by
    have h := db2.2
    rw [mul_comm x3 y2] at h
    refine (mul_near hu0 e2' h).trans ?_
    rw [hz, abs_of_pos h3pos]
    have h2 := mul_le_mul_of_nonneg_left hxm1 hu0
    have h3 := mul_le_mul_of_nonneg_left hxm1 (mul_nonneg hu0 hu0)
    have h4 : 0 ≤ u * x3 := mul_nonneg hu0 h3pos.le
    have : (600000 * (u * m) + u * (100000 * m - 1 + 600000 * (u * m))) * x3 + η =
      700000 * (u * (x3 * m)) - u * x3 + 600000 * (u * u * (x3 * m)) + η := by ring
    rw [this]
    linarith
  have ds2 := hr.sub _ _ da2.1 db2.1
  have dw2 := hr.sub _ _ Fc F2
  have es2 : |rt.sub (rt.mul 100000 c) (rt.mul x3 y2) - (x3 - 100000)| ≤ 1350000 * u := by
    have h := sub_near hu0 ea2 eb2 ds2.2
    rw [show (x3 * m - 1) * 100000 - (100000 * m - 1) * x3 = x3 - 100000 by ring,
      abs_of_neg (show x3 - 100000 < 0 by linarith)] at h
    refine h.trans ?_
    have h4 : 0 ≤ u * x3 := mul_nonneg hu0 h3pos.le
    have : (1 + u) * (520000 * u + 720000 * u) + u * -(x3 - 100000) =
      1340000 * u + 1240000 * (u * u) - u * x3 := by ring
    rw [this]
    linarith
  have ew2 : |rt.sub c y2 - (x3 * m - 100000 * m)| ≤ 760000 * (u * m) := by
    have h := sub_near hu0 ec' e2' dw2.2
    rw [show x3 * m - 1 - (100000 * m - 1) = x3 * m - 100000 * m by ring,
      abs_of_neg (show x3 * m - 100000 * m < 0 by linarith)] at h
    refine h.trans ?_
    have h4 : 0 ≤ u * (x3 * m) := mul_nonneg hu0 (mul_pos h3pos hm0).le
    have : (1 + u) * (51 / 10 * u + 600000 * (u * m)) + u * -(x3 * m - 100000 * m) =
      51 / 10 * u + 700000 * (u * m) + 51 / 10 * (u * u) + 600000 * (u * (u * m)) - u * (x3 * m) := by ring
    rw [this]
    linarith
  have hw2 : 89000 * m ≤ |rt.sub c y2| := by
    refine le_trans ?_ (neg_le_abs _)
    linarith [(abs_le.1 ew2).2]
  have dx2 := hr.div _ _ ds2.1 dw2.1 hsub2
  obtain ⟨x4, hx4⟩ : ∃ x4, x4 = rt.div (rt.sub (rt.mul 100000 c) (rt.mul x3 y2)) (rt.sub c y2) := ⟨_, rfl⟩
  rw [← hx4] at dx2
  have e4 : |x4 - R| ≤ 25 * (u * R) := by
    refine (div_near hu0 (R := R) ?_ es2 ew2 (by positivity) hw2 dx2.2).trans ?_
    · have : (x3 * m - 100000 * m) * R = (x3 - 100000) * (m * R) := by ring
      rw [this, hmR, mul_one]
    rw [abs_of_pos hR0]
    have : (1350000 * u + 760000 * (u * m) * R) / (89000 * m) = 2110 / 89 * (u * R) := by
      have : 1350000 * u + 760000 * (u * m) * R = 2110000 * u := by
        rw [mul_assoc 760000, humR]; ring
      rw [this, hR]
      field_simp
      ring
    rw [this]
    have : (1 + u) * (2110 / 89 * (u * R)) + u * R + η = 2199 / 89 * (u * R) + 2110 / 89 * (u * (u * R)) + η := by ring
    rw [this]
    linarith
  have b4 := abs_le.1 e4
  have h4pos : 0 < x4 := by
    have : u * R ≤ 1 / 1000 * R := mul_le_mul_of_nonneg_right (by linarith) hR0.le
    linarith
  -- the end of the loop
  have hend : |rt.sub x4 x3| ≤ tol := by
    have hT1 := hT.1
    have h := (hr.sub _ _ dx2.1 dx.1).2
    have huR' : u * R ≤ 10000 * u := by
      have := mul_le_mul_of_nonneg_left hRhi hu0
      linarith
    have h2 : |x4 - x3| ≤ 6 / 10 ^ 10 := by
      refine abs_le.2 ⟨?_, ?_⟩ <;> norm_num <;> norm_num at hu <;> linarith [b3.1, b3.2, b4.1, b4.2]
    have h3 := abs_sub_abs_le_abs_sub (rt.sub x4 x3) (x4 - x3)
    have h4 : u * |x4 - x3| ≤ 1 * |x4 - x3| := mul_le_mul_of_nonneg_right (by linarith) (abs_nonneg _)
    have h5 : u * |x4 - x3| ≤ u * 1 := mul_le_mul_of_nonneg_left (by norm_num at h2 ⊢; linarith) hu0
    norm_num at h2 hT1 ⊢
    linarith
  have hstart' : isclose rt tol (.fin (-100000)) (.fin 100000) = .ok false ∧ tol < |rt.sub 100000 (-100000)| := by
    have := isclose_far hr hu hηs hT hrel hX' hX (by norm_num) (by norm_num) (by norm_num)
    exact ⟨this.1, this.2.1⟩
  have dv := hr.div 1 x4 h1 dx2.1 h4pos.ne'
  refine ⟨x3, x4, dx.1, dx2.1, ⟨loopCond_true hstart', secantBody_val f2 f1 hfar1 hsub1 |>.trans (by rw [← hx3]),
    loopCond_true hfarx, secantBody_val fc f2 hfar2 hsub2 |>.trans (by rw [← hx4]), loopCond_false hend⟩, ?_, ?_, h4pos.ne', ?_⟩
  · rw [abs_of_pos (mul_pos h3pos hm0)]
    linarith
  · rw [abs_of_pos (mul_pos h4pos hm0)]
    have h5 : x4 ≤ 2 * R := by
      have : u * R ≤ 1 / 10000 * R := mul_le_mul_of_nonneg_right (by linarith) hR0.le
      linarith [b4.2]
    have := mul_le_mul_of_nonneg_right h5 hm0.le
    rwa [mul_assoc, mul_comm R m, hmR, mul_one] at this
  · have hL : 99 / 100 * R ≤ |x4| := by
      rw [abs_of_pos h4pos]
      have : u * R ≤ 1 / 10000 * R := mul_le_mul_of_nonneg_right (by linarith) hR0.le
      linarith
    have h5 := div_near hu0 (s := 1) (S := 1) (e1 := 0) (R := m) (by rw [mul_comm, hmR]) (by simp) e4 (by positivity) hL dv.2
    refine h5.trans ?_
    rw [abs_of_pos hm0]
    have : (0 + 25 * (u * R) * m) / (99 / 100 * R) = 2500 / 99 * (u * m) := by field_simp; ring
    rw [this]
    have : (1 + u) * (2500 / 99 * (u * m)) + u * m + η = 2599 / 99 * (u * m) + 2500 / 99 * (u * (u * m)) + η := by ring
    rw [this]
    linarith

/-- The utilisation of one tension, computed with rounding. -/
theorem utilOne_near (hr : Rounds rt F u η) (hu0 : 0 ≤ u) (hu : u ≤ 1 / (2 * 10 ^ 15)) (_ : 0 ≤ η)
    (hrel : ∀ y, F y → |rt.mul relTol y - relTol * y| ≤ u * |relTol * y| + η)
    (h1 : F 1) (hX : F 100000) (hX' : F (-100000)) {t cap : K} (ht : F t) (hc : F cap)
    (hc0 : 0 < cap) (hlo : 1 / 10 ^ 4 ≤ t / cap) (hhi : t / cap ≤ 10 ^ 4)
    (hη1 : η ≤ u * t / 10 ^ 5) (hη2 : η ≤ u / 10 ^ 9) :
    ∃ v, utilOne rt cap t = .ok v ∧ |v - t / cap| ≤ 27 * u * (t / cap) := by
  have hrel' := nearRel_of hu0 hrel
  obtain ⟨x3, x4, -, -, h2, -, -, h4, hv⟩ := util_steps hr hu0 hu nearTol_exact hrel' h1 hX hX' ht hc hc0 hlo hhi hη1 hη2
  have hηs : η ≤ 1 / 10 := by norm_num at hη2 hu; linarith
  have hstart : isclose rt (1 / 10 ^ 9) (.fin 100000) (.fin (-100000)) = .ok false := by
    refine (isclose_far hr hu hηs nearTol_exact hrel' hX hX' ?_ ?_ ?_).1 <;> norm_num
  have ht0 : ¬ t ≤ 0 := by
    intro h
    have := div_nonpos_of_nonpos_of_nonneg h hc0.le
    have h5 : (0 : K) < 1 / 10 ^ 4 := by positivity
    linarith
  refine ⟨rt.div 1 x4, ?_, hv⟩
  unfold utilOne
  rw [if_neg ht0, secant_two hstart h2 (by norm_num) 19997]
  simp only [ne_eq, h4, not_false_eq_true, if_true]

end

end BeamDesign
