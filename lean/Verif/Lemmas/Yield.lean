import Verif.Lemmas.Slope
import Mathlib.Analysis.SpecialFunctions.Sqrt
import Mathlib.Analysis.Calculus.Deriv.MeanValue
import Mathlib.Analysis.Calculus.Deriv.Inv

/-!
# The column capacity as a function of the yield stress

With `n` the nominal slenderness, the capacity is proportional to `n² α_c`.  Its derivative in `n` is
non-negative; on small slendernesses, where `η` has a kink, two values are compared directly.
-/

namespace BeamDesign

open S6

/-- an upper bound for `u a` -/
theorem IsAlpha.ua_le {u eta a N M : ℝ} (h : IsAlpha u eta a) (hu : 0 < u) (hM : 0 < M)
    (hq : 0 ≤ (u + 1 + eta) * N * M - N ^ 2 - u * M ^ 2) : u * a * M ≤ N := by
  have : a ≤ N / (M * u) := by
    apply h.le_of_nonpos hu
    have e : u * (N / (M * u)) ^ 2 - (u + 1 + eta) * (N / (M * u)) + 1 =
        -(((u + 1 + eta) * N * M - N ^ 2 - u * M ^ 2) / (M ^ 2 * u)) := by
      field_simp; ring
    rw [e]
    have : 0 ≤ ((u + 1 + eta) * N * M - N ^ 2 - u * M ^ 2) / (M ^ 2 * u) := by positivity
    linarith
  rw [le_div_iff₀ (by positivity)] at this
  linarith

/-- `2100 (n - 13.5) / D`, the shift of the slenderness -/
noncomputable def shiftOf (n : ℝ) : ℝ := 2100 * (n - 27 / 2) / (n * n - 153 / 10 * n + 2050)

/-- `shiftOf n - n shiftOf' n` -/
noncomputable def fallOf (n : ℝ) : ℝ :=
  2100 * (-(27 / 2) * (n * n - 153 / 10 * n + 2050) + n * (n - 27 / 2) * (2 * n - 153 / 10)) /
    (n * n - 153 / 10 * n + 2050) ^ 2

/-- the slenderness and the imperfection leave room for the growth `T` -/
def Room (l a T : ℝ) : Prop :=
  T * (2 * ((l / 90) ^ 2 - (l / 90) ^ 2 * a) + 326 / 100000 * l) ≤
    l * (2 * (1 - (l / 90) ^ 2 * a) + 326 / 100000 * (l - 27))

theorem Room.mono {l a T T' : ℝ} (h : Room l a T') (hl : 0 < l) (ha : a ≤ 1) (hT : T ≤ T') : Room l a T := by
  unfold Room at *
  refine le_trans (mul_le_mul_of_nonneg_right hT ?_) h
  have : 0 ≤ (l / 90) ^ 2 * (1 - a) := mul_nonneg (sq_nonneg _) (by linarith)
  nlinarith

theorem room_of {l a T : ℝ} (h : IsAlpha ((l / 90) ^ 2) (326 / 100000 * (l - 27 / 2)) a) (hl : 0 < l)
    (hT : T < l)
    (hq : 0 ≤ (((l / 90) ^ 2 + 1 + 326 / 100000 * (l - 27 / 2)) *
      (2 * l + 326 / 100000 * l * (l - 27) - T * (2 * (l / 90) ^ 2 + 326 / 100000 * l)) * (2 * (l - T)) -
      (2 * l + 326 / 100000 * l * (l - 27) - T * (2 * (l / 90) ^ 2 + 326 / 100000 * l)) ^ 2 -
      (l / 90) ^ 2 * (2 * (l - T)) ^ 2)) : Room l a T := by
  have := h.ua_le (by positivity) (by linarith : 0 < 2 * (l - T)) hq
  unfold Room
  linarith

/-- up to a slenderness of 143 there is room for 28 -/
theorem room28 {l a : ℝ} (h : IsAlpha ((l / 90) ^ 2) (326 / 100000 * (l - 27 / 2)) a) (h1 : 27 / 2 ≤ l)
    (h2 : l ≤ 143) : Room l a 28 := by
  have hu : 0 < (l / 90) ^ 2 := by positivity
  have p1 := h.le_inv hu (by linarith)
  have p0 : 0 < (l / 90) ^ 2 * a := mul_pos hu h.pos
  rcases le_total l 28 with k | k
  · unfold Room
    nlinarith
  rcases le_total l 100 with k' | k'
  · unfold Room
    have : (l - 28) * ((l / 90) ^ 2 * a) ≤ l - 28 := by nlinarith
    nlinarith
  · exact room_of h (by linarith) (by linarith) (slope_f0 k' h2)

theorem fall_le {n : ℝ} (h : 18 ≤ n) : fallOf n ≤ 28 := by
  have d := den_pos n
  unfold fallOf
  rw [div_le_iff₀ (by positivity)]
  linarith [slope_h h]

theorem neg_fall_le {n : ℝ} (h : 18 ≤ n) : -fallOf n ≤ 28 := by
  have d := den_pos n
  unfold fallOf
  rw [neg_le, le_div_iff₀ (by positivity)]
  linarith [slope_h' h]

theorem fall_nonneg {n : ℝ} (h : 40 ≤ n) : 0 ≤ fallOf n := by
  have d := den_pos n
  unfold fallOf
  have := slope_y h
  positivity

theorem shift_nonneg {n : ℝ} (h : 27 / 2 ≤ n) : 0 ≤ shiftOf n := by
  have d := den_pos n
  unfold shiftOf
  have : 0 ≤ n - 27 / 2 := by linarith
  positivity

theorem shift_le {n : ℝ} (h : 143 ≤ n) : shiftOf n ≤ 14 := by
  unfold shiftOf
  rw [div_le_iff₀ (den_pos n)]
  nlinarith

theorem shift_le' (n : ℝ) : shiftOf n ≤ 30 := by
  unfold shiftOf
  rw [div_le_iff₀ (den_pos n)]
  nlinarith [sq_nonneg (n - 43)]

/-- a tangent below `K` that is above the growth for `b = 1` is above it for all `b` in `[0, 1]` -/
theorem tangent {n b m s : ℝ} (hb : 0 ≤ b) (hb1 : b ≤ 1) (h0 : s * n ≤ m)
    (h1 : 0 ≤ ((m - s * n) * (n * n - 153 / 10 * n + 2050) ^ 2 +
      s * (2100 * (n - 27 / 2) * (n * n - 153 / 10 * n + 2050)) -
      2100 * (-(27 / 2) * (n * n - 153 / 10 * n + 2050) + n * (n - 27 / 2) * (2 * n - 153 / 10)))) :
    b * fallOf n ≤ m - s * (n - b * shiftOf n) := by
  have d := den_pos n
  have e : m - s * n + s * shiftOf n - fallOf n = ((m - s * n) * (n * n - 153 / 10 * n + 2050) ^ 2 +
      s * (2100 * (n - 27 / 2) * (n * n - 153 / 10 * n + 2050)) -
      2100 * (-(27 / 2) * (n * n - 153 / 10 * n + 2050) + n * (n - 27 / 2) * (2 * n - 153 / 10))) /
      (n * n - 153 / 10 * n + 2050) ^ 2 := by
    unfold shiftOf fallOf
    generalize n * n - 153 / 10 * n + 2050 = D at d ⊢
    field_simp
  have g : 0 ≤ m - s * n + s * shiftOf n - fallOf n := by rw [e]; positivity
  nlinarith [mul_nonneg hb g, mul_nonneg (sub_nonneg.2 hb1) (sub_nonneg.2 h0)]

/-- the slenderness never grows faster than there is room for -/
theorem room_all {n ab a : ℝ} (hn : 18 ≤ n) (hab : -1 ≤ ab) (hab1 : ab ≤ 1) (hl : 27 / 2 ≤ n + ab * shiftOf n)
    (h : IsAlpha (((n + ab * shiftOf n) / 90) ^ 2) (326 / 100000 * ((n + ab * shiftOf n) - 27 / 2)) a) :
    Room (n + ab * shiftOf n) a (-ab * fallOf n) := by
  set l := n + ab * shiftOf n with hle
  have hl0 : 0 < l := by linarith
  have ha1 : a ≤ 1 := h.le_one (by positivity) (by linarith)
  rcases le_total l 143 with k | k
  · refine (room28 h hl k).mono hl0 ha1 ?_
    have f1 := fall_le hn
    have f2 := neg_fall_le hn
    rcases le_total 0 ab with c | c
    · nlinarith
    · nlinarith
  rcases le_total 0 ab with c | c
  · -- the slenderness ratio falls
    have hs := shift_le' n
    have hn' : 40 ≤ n := by nlinarith [shift_nonneg (n := n) (by linarith)]
    have r0 : Room l a 0 := by
      unfold Room
      have p1 := h.le_inv (by positivity) (by linarith)
      have : 0 ≤ l * (2 * (1 - (l / 90) ^ 2 * a)) := mul_nonneg hl0.le (by linarith)
      have : 0 ≤ l * (326 / 100000 * (l - 27)) := mul_nonneg hl0.le (by linarith)
      linarith
    exact r0.mono hl0 ha1 (by nlinarith [fall_nonneg hn'])
  · have s0 := shift_nonneg (n := n) (by linarith)
    have hnl : l ≤ n := by nlinarith
    have s1 := shift_le (n := n) (by linarith)
    have hln : n ≤ l + 14 := by nlinarith
    have el : l = n - (-ab) * shiftOf n := by rw [hle]; ring
    rcases le_total l 213 with k1 | k1
    · refine (room_of h hl0 ?_ (slope_f1 k k1)).mono hl0 ha1 ?_
      · linarith
      · have := tangent (b := -ab) (m := 4391 / 125) (s := 41 / 500) (by linarith) (by linarith) (by linarith)
          (slope_g1 (x := n) (by linarith) (by linarith))
        rwa [← el] at this
    rcases le_total l 303 with k2 | k2
    · refine (room_of h hl0 ?_ (slope_f2 k1 k2)).mono hl0 ha1 ?_
      · linarith
      · have := tangent (b := -ab) (m := 5673 / 200) (s := 1 / 20) (by linarith) (by linarith) (by linarith)
          (slope_g2 (x := n) (by linarith) (by linarith))
        rwa [← el] at this
    rcases le_total l 340 with k3 | k3
    · refine (room_of h hl0 ?_ (slope_f3 k2 k3)).mono hl0 ha1 ?_
      · linarith
      · have := tangent (b := -ab) (m := 2449 / 125) (s := 2 / 125) (by linarith) (by linarith) (by linarith)
          (slope_g3 (x := n) (by linarith) (by linarith))
        rwa [← el] at this
    · refine (room_of h hl0 ?_ (slope_f4 k3)).mono hl0 ha1 ?_
      · linarith
      · have := tangent (n := n) (b := -ab) (m := 129 / 10) (s := 0) (by linarith) (by linarith) (by linarith)
          (by have := slope_g4 (x := n) (by linarith); linarith)
        linarith

/-! ## The derivative -/

/-- the reduction factor for slendernesses above 13.5 -/
noncomputable def redOf (l : ℝ) : ℝ :=
  2 / (((l / 90) ^ 2 + 1 + 326 / 100000 * (l - 27 / 2)) +
    √(((l / 90) ^ 2 + 1 + 326 / 100000 * (l - 27 / 2)) ^ 2 - 4 * (l / 90) ^ 2))

theorem disc_nonneg {l : ℝ} (hl : 27 / 2 ≤ l) :
    0 ≤ ((l / 90) ^ 2 + 1 + 326 / 100000 * (l - 27 / 2)) ^ 2 - 4 * (l / 90) ^ 2 := by
  nlinarith [sq_nonneg ((l / 90) ^ 2 - 1), mul_nonneg (sub_nonneg.2 hl) (sq_nonneg (l / 90)),
    sq_nonneg (326 / 100000 * (l - 27 / 2))]

theorem disc_pos {l : ℝ} (hl : 27 / 2 < l) :
    0 < ((l / 90) ^ 2 + 1 + 326 / 100000 * (l - 27 / 2)) ^ 2 - 4 * (l / 90) ^ 2 := by
  nlinarith [sq_nonneg ((l / 90) ^ 2 - 1), mul_nonneg (sub_nonneg.2 hl.le) (sq_nonneg (l / 90)),
    sq_nonneg (326 / 100000 * (l - 27 / 2))]

theorem redOf_isAlpha {l : ℝ} (hl : 27 / 2 ≤ l) :
    IsAlpha ((l / 90) ^ 2) (326 / 100000 * (l - 27 / 2)) (redOf l) := by
  have hd := disc_nonneg hl
  unfold redOf
  have hs : 0 < (l / 90) ^ 2 + 1 + 326 / 100000 * (l - 27 / 2) := by nlinarith [sq_nonneg (l / 90)]
  set s := (l / 90) ^ 2 + 1 + 326 / 100000 * (l - 27 / 2) with hsd
  set x := (l / 90) ^ 2 with hx
  have hw := Real.sqrt_nonneg (s ^ 2 - 4 * x)
  have hw2 := Real.sq_sqrt hd
  set w := √(s ^ 2 - 4 * x)
  have hsw : 0 < s + w := by linarith
  refine ⟨by positivity, ?_, ?_⟩
  · rw [← hsd]
    field_simp
    linarith
  · rw [← hsd]
    rw [mul_div_assoc', div_le_iff₀ hsw]
    nlinarith

theorem IsAlpha.unique {u eta a b : ℝ} (h : IsAlpha u eta a) (h' : IsAlpha u eta b) (hu : 0 < u) : a = b :=
  le_antisymm (h.le_of_nonpos hu h'.root.le) (h'.le_of_nonpos hu h.root.le)

theorem lamOf_eq (n ab : ℝ) : lamOf n ab = n + ab * shiftOf n := by
  unfold lamOf shiftOf; ring

theorem shift_deriv (n : ℝ) : ∃ d, HasDerivAt shiftOf d n ∧ n * d = shiftOf n - fallOf n := by
  have hd := den_pos n
  have h1 : HasDerivAt (fun n : ℝ => 2100 * (n - 27 / 2)) (2100 * 1) n :=
    ((hasDerivAt_id n).sub_const (27 / 2)).const_mul 2100
  have h2 : HasDerivAt (fun n : ℝ => n * n - 153 / 10 * n + 2050) (1 * n + n * 1 - 153 / 10 * 1) n :=
    (((hasDerivAt_id n).mul (hasDerivAt_id n)).sub ((hasDerivAt_id n).const_mul (153 / 10))).add_const 2050
  refine ⟨_, h1.div h2 hd.ne', ?_⟩
  unfold shiftOf fallOf
  have e : n * n = (n * n - 153 / 10 * n + 2050) + 153 / 10 * n - 2050 := by ring
  generalize hD : n * n - 153 / 10 * n + 2050 = D at *
  field_simp
  subst hD
  ring

theorem redOf_deriv {l : ℝ} (hl : 27 / 2 < l) :
    ∃ d, HasDerivAt redOf d l ∧
      d * ((l / 90) ^ 2 + 1 + 326 / 100000 * (l - 27 / 2) - 2 * (l / 90) ^ 2 * redOf l) =
        -(redOf l * (2 * l / 8100 * (1 - redOf l) + 326 / 100000)) := by
  have hd := disc_pos hl
  have hs : 0 < (l / 90) ^ 2 + 1 + 326 / 100000 * (l - 27 / 2) := by nlinarith [sq_nonneg (l / 90)]
  have hx : HasDerivAt (fun l : ℝ => (l / 90) ^ 2) (2 * l / 8100) l := by
    have := ((hasDerivAt_id l).div_const 90).pow 2
    refine this.congr_deriv ?_
    simp; ring
  have hsd : HasDerivAt (fun l : ℝ => (l / 90) ^ 2 + 1 + 326 / 100000 * (l - 27 / 2))
      (2 * l / 8100 + 326 / 100000 * 1) l :=
    (hx.add_const 1).add (((hasDerivAt_id l).sub_const (27 / 2)).const_mul (326 / 100000))
  have hw := ((hsd.pow 2).sub (hx.const_mul 4)).sqrt hd.ne'
  have hwp := Real.sqrt_pos.2 hd
  have hw2 := Real.sq_sqrt hd.le
  have hsum := hsd.add hw
  have hpos : 0 < ((l / 90) ^ 2 + 1 + 326 / 100000 * (l - 27 / 2)) +
      √(((l / 90) ^ 2 + 1 + 326 / 100000 * (l - 27 / 2)) ^ 2 - 4 * (l / 90) ^ 2) := by linarith
  have hA := (hasDerivAt_const l (2 : ℝ)).div hsum hpos.ne'
  refine ⟨_, hA, ?_⟩
  unfold redOf
  simp only [Pi.add_apply, Pi.pow_apply, Pi.sub_apply]
  set s := (l / 90) ^ 2 + 1 + 326 / 100000 * (l - 27 / 2)
  set w := √(s ^ 2 - 4 * (l / 90) ^ 2)
  have e1 : s - 2 * (l / 90) ^ 2 * (2 / (s + w)) = w := by
    field_simp
    nlinarith
  rw [e1]
  clear_value s w
  field_simp
  push_cast
  ring

/-- the capacity divided by the area and by the yield stress at unit slenderness -/
noncomputable def capOf (ab n : ℝ) : ℝ := n ^ 2 * redOf (n + ab * shiftOf n)

theorem lam_gt {n ab : ℝ} (hn : 181 / 10 ≤ n) (hab : -1 ≤ ab) : 27 / 2 < n + ab * shiftOf n := by
  have hd := den_pos n
  have h0 := shift_nonneg (n := n) (by linarith)
  have : shiftOf n < n - 27 / 2 := by
    unfold shiftOf
    rw [div_lt_iff₀ hd]
    have : 0 < (n - 27 / 2) * (n * n - 153 / 10 * n + 2050 - 2100) := mul_pos (by linarith) (by nlinarith)
    linarith
  nlinarith

theorem capOf_mono {ab : ℝ} (hab : -1 ≤ ab) (hab1 : ab ≤ 1) : MonotoneOn (capOf ab) (Set.Ici (181 / 10)) := by
  have key : ∀ n : ℝ, 181 / 10 ≤ n → ∃ d, HasDerivAt (capOf ab) d n ∧ 0 ≤ d := by
    intro n hn
    have hl := lam_gt hn hab
    obtain ⟨ds, hds, es⟩ := shift_deriv n
    obtain ⟨dr, hdr, er⟩ := redOf_deriv hl
    have hal := redOf_isAlpha hl.le
    have room := room_all (by linarith) hab hab1 hl.le hal
    have hlam : HasDerivAt (fun n => n + ab * shiftOf n) (1 + ab * ds) n :=
      (hasDerivAt_id n).add (hds.const_mul ab)
    have hcomp : HasDerivAt (fun n => redOf (n + ab * shiftOf n)) (dr * (1 + ab * ds)) n :=
      HasDerivAt.comp (h₂ := redOf) (h := fun n => n + ab * shiftOf n) n hdr hlam
    have hsq : HasDerivAt (fun n : ℝ => n ^ 2) (2 * n) n := by simpa using hasDerivAt_pow 2 n
    refine ⟨_, hsq.mul hcomp, ?_⟩
    set l := n + ab * shiftOf n with hle
    set a := redOf l with ha
    have hn0 : 0 < n := by linarith
    have hl0 : 0 < l := by linarith
    have hw : 0 < (l / 90) ^ 2 + 1 + 326 / 100000 * (l - 27 / 2) - 2 * (l / 90) ^ 2 * a := by
      have h1 := hal.root
      have h2 := hal.pos
      have h3 := hal.lt_one (by positivity) (by linarith)
      have h4 := hal.le_inv (by positivity) (by linarith)
      have : a * ((l / 90) ^ 2 + 1 + 326 / 100000 * (l - 27 / 2) - 2 * (l / 90) ^ 2 * a) =
          1 - (l / 90) ^ 2 * a * a := by linarith
      have : 0 < a * ((l / 90) ^ 2 + 1 + 326 / 100000 * (l - 27 / 2) - 2 * (l / 90) ^ 2 * a) := by
        rw [this]; nlinarith
      exact (mul_pos_iff_of_pos_left h2).1 this
    set w := (l / 90) ^ 2 + 1 + 326 / 100000 * (l - 27 / 2) - 2 * (l / 90) ^ 2 * a with hwd
    have hgrow : n * (1 + ab * ds) = l + -ab * fallOf n := by
      have : n * (1 + ab * ds) = n + ab * (n * ds) := by ring
      rw [this, es, hle]; ring
    have goal : 0 ≤ w * l * (2 * n * a + n ^ 2 * (dr * (1 + ab * ds))) := by
      have e : w * l * (2 * n * a + n ^ 2 * (dr * (1 + ab * ds))) =
          n * a * (2 * w * l - (n * (1 + ab * ds)) * (l * (2 * l / 8100 * (1 - a) + 326 / 100000))) := by
        have : w * l * (2 * n * a + n ^ 2 * (dr * (1 + ab * ds))) =
          2 * w * l * n * a + l * n * (n * (1 + ab * ds)) * (dr * w) := by ring
        rw [this, er]; ring
      rw [e, hgrow]
      unfold Room at room
      apply mul_nonneg (mul_nonneg hn0.le hal.pos.le)
      have e2 : l * (2 * l / 8100 * (1 - a) + 326 / 100000) =
        2 * ((l / 90) ^ 2 - (l / 90) ^ 2 * a) + 326 / 100000 * l := by ring
      rw [e2, hwd]
      linarith
    exact (mul_nonneg_iff_of_pos_left (mul_pos hw hl0)).1 goal
  apply monotoneOn_of_deriv_nonneg (convex_Ici _)
  · intro n hn
    obtain ⟨d, hd, _⟩ := key n hn
    exact hd.continuousAt.continuousWithinAt
  · intro n hn
    rw [interior_Ici] at hn
    obtain ⟨d, hd, _⟩ := key n (le_of_lt hn)
    exact hd.differentiableAt.differentiableWithinAt
  · intro n hn
    rw [interior_Ici] at hn
    obtain ⟨d, hd, h0⟩ := key n (le_of_lt hn)
    rw [hd.deriv]; exact h0

/-! ## Small slendernesses -/

theorem shift_lip {n n' : ℝ} (h0 : 0 ≤ n) (h : n ≤ n') (h1 : n' ≤ 181 / 10) :
    |shiftOf n' - shiftOf n| ≤ 12 / 10 * (n' - n) := by
  have hd := den_pos n
  have hd' := den_pos n'
  have e : shiftOf n' - shiftOf n = (n' - n) * (2100 * (20257 / 10 - (n - 27 / 2) * (n' - 27 / 2)) /
      ((n * n - 153 / 10 * n + 2050) * (n' * n' - 153 / 10 * n' + 2050))) := by
    unfold shiftOf
    rw [div_sub_div _ _ hd'.ne' hd.ne', mul_div_assoc', div_eq_div_iff (by positivity) (by positivity)]
    ring
  have a1 : 1990 ≤ n * n - 153 / 10 * n + 2050 := by nlinarith [sq_nonneg (n - 153 / 20)]
  have a2 : 1990 ≤ n' * n' - 153 / 10 * n' + 2050 := by nlinarith [sq_nonneg (n' - 153 / 20)]
  have a3 : 1990 * 1990 ≤ (n * n - 153 / 10 * n + 2050) * (n' * n' - 153 / 10 * n' + 2050) := by gcongr
  have b : |2100 * (20257 / 10 - (n - 27 / 2) * (n' - 27 / 2)) /
      ((n * n - 153 / 10 * n + 2050) * (n' * n' - 153 / 10 * n' + 2050))| ≤ 12 / 10 := by
    rw [abs_le, le_div_iff₀ (by positivity), div_le_iff₀ (by positivity)]
    constructor <;> nlinarith
  rw [e, abs_mul, abs_of_nonneg (by linarith : 0 ≤ n' - n)]
  nlinarith [abs_nonneg (2100 * (20257 / 10 - (n - 27 / 2) * (n' - 27 / 2)) /
      ((n * n - 153 / 10 * n + 2050) * (n' * n' - 153 / 10 * n' + 2050)))]

theorem shift_abs {n : ℝ} (h0 : 0 ≤ n) (h1 : n ≤ 181 / 10) : |shiftOf n| ≤ 15 := by
  have hd := den_pos n
  unfold shiftOf
  rw [abs_le, le_div_iff₀ hd, div_le_iff₀ hd]
  constructor <;> nlinarith [sq_nonneg (n - 153 / 20)]

theorem small_mono {n n' ab a a' : ℝ} (h0 : 0 < n) (h : n ≤ n') (h1 : n' ≤ 181 / 10) (hab : |ab| ≤ 1)
    (hz : lamOf n ab ≠ 0) (hz' : lamOf n' ab ≠ 0)
    (ha : IsAlpha ((lamOf n ab / 90) ^ 2) (etaOf (lamOf n ab)) a)
    (ha' : IsAlpha ((lamOf n' ab / 90) ^ 2) (etaOf (lamOf n' ab)) a') : n ^ 2 * a ≤ n' ^ 2 * a' := by
  have hu : 0 < (lamOf n ab / 90) ^ 2 := by positivity
  have hu' : 0 < (lamOf n' ab / 90) ^ 2 := by positivity
  have he : 0 ≤ etaOf (lamOf n ab) := le_max_right _ _
  have he' : 0 ≤ etaOf (lamOf n' ab) := le_max_right _ _
  have ha1 := ha.le_one hu he
  have ha1' := ha'.le_one hu' he'
  -- how far the two slendernesses are apart
  have hlip : |lamOf n' ab - lamOf n ab| ≤ 22 / 10 * (n' - n) := by
    rw [lamOf_eq, lamOf_eq]
    have e : n' + ab * shiftOf n' - (n + ab * shiftOf n) = (n' - n) + ab * (shiftOf n' - shiftOf n) := by ring
    rw [e]
    refine (abs_add_le _ _).trans ?_
    rw [abs_mul, abs_of_nonneg (by linarith : 0 ≤ n' - n)]
    have := shift_lip h0.le h h1
    nlinarith [abs_nonneg (shiftOf n' - shiftOf n), abs_nonneg ab]
  have habs : ∀ m, 0 ≤ m → m ≤ 181 / 10 → |lamOf m ab| ≤ 34 := by
    intro m m0 m1
    rw [lamOf_eq]
    refine (abs_add_le _ _).trans ?_
    rw [abs_mul, abs_of_nonneg m0]
    have := shift_abs m0 m1
    nlinarith [abs_nonneg (shiftOf m), abs_nonneg ab]
  have b1 := habs n h0.le (by linarith)
  have b2 := habs n' (by linarith) h1
  set l := lamOf n ab
  set l' := lamOf n' ab
  have hdx : |(l' / 90) ^ 2 - (l / 90) ^ 2| ≤ 2 / 100 * (n' - n) := by
    have e : (l' / 90) ^ 2 - (l / 90) ^ 2 = (l' - l) * ((l' + l) / 8100) := by ring
    rw [e, abs_mul]
    have : |(l' + l) / 8100| ≤ 68 / 8100 := by
      rw [abs_div, abs_of_pos (by norm_num : (0 : ℝ) < 8100)]
      have := abs_add_le l' l
      gcongr
      linarith
    calc |l' - l| * |(l' + l) / 8100| ≤ (22 / 10 * (n' - n)) * (68 / 8100) := by gcongr
      _ ≤ _ := by linarith
  have hde : etaOf l' - etaOf l ≤ 1 / 100 * (n' - n) := by
    have hl := (abs_le.1 hlip).2
    unfold etaOf
    rcases le_total (326 / 100000 * (l' - 27 / 2)) 0 with k | k
    · rw [max_eq_right k]
      have := le_max_right (326 / 100000 * (l - 27 / 2)) 0
      linarith
    · rw [max_eq_left k]
      have := le_max_left (326 / 100000 * (l - 27 / 2)) 0
      linarith
  have hx : (l / 90) ^ 2 ≤ 15 / 100 := by
    have := sq_le_sq' (abs_le.1 b1).1 (abs_le.1 b1).2
    rw [div_pow]; linarith
  set x := (l / 90) ^ 2
  set x' := (l' / 90) ^ 2
  have hdx2 := (abs_le.1 hdx).2
  have hdx1 := (abs_le.1 hdx).1
  by_contra hc
  push Not at hc
  -- the ratio of the squares
  have hn2 : 0 < n ^ 2 := by positivity
  set k := n' ^ 2 / n ^ 2 with hk
  have hk1 : 2 / 19 * (n' - n) ≤ k - 1 := by
    rw [hk, le_sub_iff_add_le, le_div_iff₀ hn2]
    nlinarith [mul_nonneg (by linarith : 0 ≤ n' - n) h0.le]
  have hka : k * a' < a := by
    rw [hk, div_mul_eq_mul_div, div_lt_iff₀ hn2]; linarith
  have hb : a ≤ k * a' := by
    apply ha.le_of_nonpos hu
    have h3 := ha'.root
    have hp := ha'.pos
    have e : x * (k * a') ^ 2 - (x + 1 + etaOf l) * (k * a') + 1 =
        a' * (x * (k - 1) * (a' * (k + 1) - 1) + (x' - x) * (1 - a') - (k - 1) * (1 + etaOf l) +
          (etaOf l' - etaOf l)) := by
      linarith
    rw [e]
    apply mul_nonpos_of_nonneg_of_nonpos hp.le
    have hd0 : 0 ≤ n' - n := by linarith
    have hk0 : 0 ≤ k - 1 := by linarith
    have t1 : x * (k - 1) * (a' * (k + 1) - 1) ≤ x * (k - 1) * 1 := by
      apply mul_le_mul_of_nonneg_left _ (mul_nonneg hu.le hk0)
      linarith
    have t2 : x * (k - 1) ≤ 15 / 100 * (k - 1) := by gcongr
    have t3 : (x' - x) * (1 - a') ≤ 2 / 100 * (n' - n) := by nlinarith
    have t4 : 0 ≤ (k - 1) * etaOf l := mul_nonneg hk0 he
    linarith
  linarith

/-- the capacity never falls as the nominal slenderness grows with the yield stress -/
theorem cap_mono {n n' ab a a' : ℝ} (h0 : 0 < n) (h : n ≤ n') (hab : -1 ≤ ab) (hab1 : ab ≤ 1)
    (hz : lamOf n ab ≠ 0) (hz' : lamOf n' ab ≠ 0)
    (ha : IsAlpha ((lamOf n ab / 90) ^ 2) (etaOf (lamOf n ab)) a)
    (ha' : IsAlpha ((lamOf n' ab / 90) ^ 2) (etaOf (lamOf n' ab)) a') : n ^ 2 * a ≤ n' ^ 2 * a' := by
  have big : ∀ m, 181 / 10 ≤ m → IsAlpha ((lamOf m ab / 90) ^ 2) (etaOf (lamOf m ab)) (redOf (m + ab * shiftOf m)) ∧
      lamOf m ab ≠ 0 := by
    intro m hm
    have hl := lam_gt hm hab
    have e : etaOf (lamOf m ab) = 326 / 100000 * (m + ab * shiftOf m - 27 / 2) := by
      rw [lamOf_eq]; unfold etaOf; exact max_eq_left (by linarith)
    rw [e, lamOf_eq]
    exact ⟨redOf_isAlpha hl.le, by linarith⟩
  have eqb : ∀ m b, 181 / 10 ≤ m → IsAlpha ((lamOf m ab / 90) ^ 2) (etaOf (lamOf m ab)) b →
      m ^ 2 * b = capOf ab m := by
    intro m b hm hb
    obtain ⟨h1, h2⟩ := big m hm
    have hu : 0 < (lamOf m ab / 90) ^ 2 := by positivity
    rw [hb.unique h1 hu]; rfl
  have hab' : |ab| ≤ 1 := abs_le.2 ⟨hab, hab1⟩
  rcases le_total n' (181 / 10) with k | k
  · exact small_mono h0 h k hab' hz hz' ha ha'
  rw [eqb n' a' k ha']
  rcases le_total n (181 / 10) with k' | k'
  · obtain ⟨h1, h2⟩ := big (181 / 10) le_rfl
    refine (small_mono h0 k' le_rfl hab' hz h2 ha h1).trans ?_
    exact capOf_mono hab hab1 (Set.mem_Ici.2 le_rfl) (Set.mem_Ici.2 k) k
  · rw [eqb n a k' ha]
    exact capOf_mono hab hab1 (Set.mem_Ici.2 k') (Set.mem_Ici.2 k) h

end BeamDesign
