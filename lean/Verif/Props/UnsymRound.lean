import Verif.Lemmas.UnsymRound
import Verif.Lemmas.FastArith

/-!
# C118: the stress and the capacity of unsymmetric sections in floating point
-/

namespace BeamDesign

open Spec S6

/-- the smallest real root is selected if it is below the mean of the roots -/
theorem pick_eq {roots : Roots} (hr : roots.Exact) {q : S6R.Cubic ℝ} {v : ℝ} (a0 : 0 < q.a) (hv : 0 < v) (hl : LeastRoot q v)
    (hm : 3 * q.a * v < q.b) : S6R.pick roots q = .ok v := by
  obtain ⟨hz, hb⟩ := hl
  obtain ⟨z1, z2, z3, he, hpoly⟩ := hr q.a (-q.b) q.c (-q.d) a0.ne'
  have a1 : (q.a : ℂ) ≠ 0 := by exact_mod_cast a0.ne'
  have real : ∀ f : ℝ, ((q.a * f ^ 3 - q.b * f ^ 2 + q.c * f - q.d : ℝ) : ℂ) = q.a * (f - z1) * (f - z2) * (f - z3) := by
    intro f
    rw [← hpoly]
    push_cast
    ring
  have vmem : (v : ℂ) ∈ [z1, z2, z3] := by
    have := real v
    rw [hz, Complex.ofReal_zero] at this
    simp only [List.mem_cons, List.not_mem_nil, or_false]
    rcases mul_eq_zero.1 this.symm with h | h
    · rcases mul_eq_zero.1 h with h | h
      · rcases mul_eq_zero.1 h with h | h
        · exact absurd h a1
        · exact Or.inl (sub_eq_zero.1 h)
      · exact Or.inr (Or.inl (sub_eq_zero.1 h))
    · exact Or.inr (Or.inr (sub_eq_zero.1 h))
  have sums : (q.a : ℂ) * (z1 + z2 + z3) = (q.b : ℂ) := by
    have c0 := hpoly 0
    have c1 := hpoly 1
    have c2 := hpoly (-1)
    push_cast at c0 c1 c2 ⊢
    linear_combination (1 / 2) * c1 + (1 / 2) * c2 - c0
  have prod : (q.a : ℂ) * (z1 * z2 + z2 * z3 + z1 * z3) = (q.c : ℂ) := by
    have c1 := hpoly 1
    have c2 := hpoly (-1)
    have c3 := hpoly 2
    have c4 := hpoly (-2)
    push_cast at c1 c2 c3 c4 ⊢
    linear_combination (-2 / 3) * c1 + (2 / 3) * c2 + (1 / 12) * c3 - (1 / 12) * c4
  have other : ∀ w ∈ [z1, z2, z3], w = (v : ℂ) ∨ clt (v : ℂ) w := by
    have two : ∀ w u : ℂ, ((q.a : ℂ) * ((v : ℂ) + w + u) = (q.b : ℂ)) →
        ((q.a : ℂ) * ((v : ℂ) * w + w * u + (v : ℂ) * u) = (q.c : ℂ)) →
        (∀ f : ℝ, ((q.a * f ^ 3 - q.b * f ^ 2 + q.c * f - q.d : ℝ) : ℂ) = (q.a : ℂ) * (f - v) * (f - w) * (f - u)) →
        w = (v : ℂ) ∨ clt (v : ℂ) w := by
      intro w u h1 h2 h3
      rcases eq_or_ne w.im 0 with hi | hi
      · have hw : w = (w.re : ℂ) := Complex.ext rfl (by simp [hi])
        have hz := h3 w.re
        rw [← hw, sub_self, mul_zero, zero_mul] at hz
        have hz' : q.a * w.re ^ 3 - q.b * w.re ^ 2 + q.c * w.re - q.d = 0 := by exact_mod_cast hz
        rcases lt_trichotomy w.re v with g | g | g
        · exact absurd (hb _ g) (by rw [hz']; exact lt_irrefl 0)
        · left; rw [hw, g]
        · right; rw [hw]; exact ofReal_clt.2 g
      · right
        have i1 := congrArg Complex.im h1
        have r1 := congrArg Complex.re h1
        have i2 := congrArg Complex.im h2
        rw [Complex.re_ofReal_mul] at r1
        rw [Complex.im_ofReal_mul] at i1 i2
        simp only [Complex.add_im, Complex.add_re, Complex.mul_im, Complex.ofReal_im, Complex.ofReal_re, zero_add, zero_mul, add_zero] at i1 r1 i2
        have hu : u.im = -w.im := by
          rcases mul_eq_zero.1 i1 with g | g
          · exact absurd g a0.ne'
          · linarith
        have hre : u.re = w.re := by
          rcases mul_eq_zero.1 i2 with g | g
          · exact absurd g a0.ne'
          · rw [hu] at g
            have : w.im * (u.re - w.re) = 0 := by linear_combination g
            rcases mul_eq_zero.1 this with g | g
            · exact absurd g hi
            · linarith
        rw [hre] at r1
        left
        rw [Complex.ofReal_re]
        have : q.a * (v + w.re + w.re) > q.a * (3 * v) := by rw [r1]; linarith
        have := lt_of_mul_lt_mul_left this a0.le
        linarith
    intro w hw
    simp only [List.mem_cons, List.not_mem_nil, or_false] at vmem hw
    rcases vmem with e | e | e <;> rw [← e] at sums prod real
    · rcases hw with g | g | g
      · left; rw [g, e]
      · rw [g]; exact two z2 z3 sums prod real
      · rw [g]; exact two z3 z2 (by linear_combination sums) (by linear_combination prod) (fun f => by rw [real f]; ring)
    · rcases hw with g | g | g
      · rw [g]; exact two z1 z3 (by linear_combination sums) (by linear_combination prod) (fun f => by rw [real f]; ring)
      · left; rw [g, e]
      · rw [g]; exact two z3 z1 (by linear_combination sums) (by linear_combination prod) (fun f => by rw [real f]; ring)
    · rcases hw with g | g | g
      · rw [g]; exact two z1 z2 (by linear_combination sums) (by linear_combination prod) (fun f => by rw [real f]; ring)
      · rw [g]; exact two z2 z1 (by linear_combination sums) (by linear_combination prod) (fun f => by rw [real f]; ring)
      · left; rw [g, e]
  have hsel : minStress [z1, z2, z3] = some (v : ℂ) := by
    apply minStress_eq vmem _ other
    intro w hw hc0
    rcases other w hw with e | e
    · rw [e, ← Complex.ofReal_zero, ofReal_clt] at hc0
      linarith
    · rcases e with e | ⟨e, -⟩ <;> rcases hc0 with g | ⟨g, -⟩ <;> simp only [Complex.ofReal_re, Complex.zero_re] at e g <;> linarith
  unfold S6R.pick
  rw [he, hsel]
  simp

/-- a difference of positive numbers with relative errors -/
theorem sub_error {A : Arith ℝ} {u : ℝ} (hA : Rounded A u) {x x' y y' ε : ℝ} (hy : 0 ≤ y) (hy' : 0 ≤ y') (hx : |x - y| ≤ ε * y)
    (hx' : |x' - y'| ≤ ε * y') (hu : u ≤ 1 / 2) (hyy : y' ≤ y) : |A.sub x x' - (y - y')| ≤ (3 * ε + u) * y := by
  have h1 := hA.sub x x'
  have h0 := hA.nonneg
  have e0 : 0 ≤ ε * y := (abs_nonneg _).trans hx
  have e1 : ε * y' ≤ ε * y ∨ y = 0 := by
    rcases hy.lt_or_eq with p | p
    · left
      exact mul_le_mul_of_nonneg_left hyy (nonneg_of_mul_nonneg_left e0 p)
    · right; exact p.symm
  have e2 : ε * y' ≤ ε * y := by
    rcases e1 with e | e
    · exact e
    · have : y' = 0 := by linarith
      rw [e, this]
  have d : |(x - x') - (y - y')| ≤ 2 * (ε * y) := by
    rw [abs_le] at *
    constructor <;> linarith [hx.1, hx.2, hx'.1, hx'.2]
  have d1 : |x - x'| ≤ y + 2 * (ε * y) := by
    have a1 := abs_le.1 d
    rw [abs_le]
    constructor <;> linarith [a1.1, a1.2]
  have d2 : u * |x - x'| ≤ u * y + ε * y := by
    have a1 := mul_le_mul_of_nonneg_left d1 h0
    have a2 : u * (2 * (ε * y)) ≤ 1 / 2 * (2 * (ε * y)) := mul_le_mul_of_nonneg_right hu (by linarith)
    linarith
  have a1 := abs_le.1 d
  have a2 := abs_le.1 h1
  have : 0 ≤ u * y := mul_nonneg h0 hy
  rw [abs_le]
  constructor <;> linarith [a1.1, a1.2, a2.1, a2.2]

/-- the errors of the coefficients -/
theorem coefficients_near {A : Arith ℝ} {u u0 s : ℝ} (hA : Rounded A u0) (huw : u0 ≤ u) (hs0 : 0 ≤ s) (hsw : 38 * u0 + 2 * s ≤ 38 * u)
    (hu : u ≤ 1 / 200) {m : Member} (hm : m.Positive) (hn : NearAxis m) {b : S6R.Bar ℝ} (hb : BarNear s b m) :
    ∃ q q', S6.cubic m = .ok q ∧ S6R.cubic A b = .ok q' ∧ 0 < q.a ∧
      |q'.a - q.a| ≤ 350 * u * polar m * q.a ∧ |q'.b - q.b| ≤ 350 * u * polar m * q.b ∧ |q'.c - q.c| ≤ 350 * u * polar m * q.c ∧
      |q'.d - q.d| ≤ 350 * u * polar m * q.d ∧ 1 ≤ polar m := by
  obtain ⟨p, q, z, hp, hq, hz, e1, e2, e3, ec⟩ := cubic_ok hm
  have hc := coeffs hm hn hp hq hz
  have h0 := hA.nonneg
  have hAu := hA.mono huw
  have h1 : u ≤ 1 / 2 := by linarith
  obtain ⟨p', ep, ap, -⟩ := fEuler_acc hA (by linarith) hm.E hm.lex hm.rx hb.lex e1
  obtain ⟨q', eq, aq, -⟩ := fEuler_acc hA (by linarith) hm.E hm.ley hm.ry hb.ley e2
  obtain ⟨z', ez, az, -⟩ := fEulerTorsion_acc hA (by linarith) hm.An hm.lez hs0 hb.lez hm.rx hm.J hm.Iw hm.E hm.G e3
  obtain ⟨r', er, ar⟩ := rol_acc hAu h1 m.ry m.xo m.yo hm.rx
  have ap := ap.mono (t' := 38 * u) (by linarith)
  have aq := aq.mono (t' := 38 * u) (by linarith)
  have az := az.mono (t' := 38 * u) (by linarith)
  obtain ⟨er', ar'⟩ : S6R.rol A m.rx m.ry m.xo m.yo = .ok r' ∧ Acc (14 * u) (A.sq r') (roSq m.rx m.ry m.xo m.yo) := by
    refine ⟨er, ?_⟩
    have := hAu.accSq h1 ar
    rw [Real.sq_sqrt hc.hR.le] at this
    exact this.mono (by linarith)
  set R := roSq m.rx m.ry m.xo m.yo with hR
  have rr := fun y => Acc.refl le_rfl y
  have aX : Acc (2 * u) (A.sq m.xo) (m.xo ^ 2) := (hAu.accSq h1 (rr m.xo)).mono (by linarith)
  have aY : Acc (2 * u) (A.sq m.yo) (m.yo ^ 2) := (hAu.accSq h1 (rr m.yo)).mono (by linarith)
  set X := m.xo ^ 2 with hX
  set Y := m.yo ^ 2 with hY
  have pR := hc.hR
  have r2 : 0 < m.rx ^ 2 + m.ry ^ 2 := by have := hm.rx; positivity
  have eR : R = m.rx ^ 2 + m.ry ^ 2 + X + Y := by rw [hR, hX, hY]; unfold roSq; ring
  have hκ : polar m * (m.rx ^ 2 + m.ry ^ 2) = R := by unfold polar; rw [← hX, ← hY, ← eR]; field_simp
  have κ1 : 1 ≤ polar m := by
    have := hc.hX; have := hc.hY
    unfold polar
    rw [le_div_iff₀ r2, ← hX, ← hY]
    linarith
  have u0' : 0 ≤ u := h0.trans huw
  have rel : ∀ {t x y : ℝ}, Acc (t * u) x y → 0 ≤ t → t ≤ 200 → 0 ≤ y → |x - y| ≤ 2 * t * u * y := by
    intro t x y h t0 t1 hy
    have := h.rel (by positivity) (by nlinarith)
    rw [abs_of_nonneg hy] at this
    linarith
  have grow : ∀ {t y : ℝ}, t ≤ 350 → 0 ≤ y → t * u * y ≤ 350 * u * polar m * y := by
    intro t y ht hy
    have a1 : t * u ≤ 350 * u := mul_le_mul_of_nonneg_right ht u0'
    have a2 : 350 * u ≤ 350 * u * polar m := le_mul_of_one_le_right (by positivity) κ1
    exact mul_le_mul_of_nonneg_right (a1.trans a2) hy
  have pX := hc.hX
  have pY := hc.hY
  -- the four coefficients
  have hXY : X * Y ≤ R := (hc.XY_le.trans hc.lt.le)
  have ea := sub_error hAu pR.le (mul_nonneg pX pY) (rel ar' (by norm_num) (by norm_num) pR.le)
    (show |A.mul (A.sq m.xo) (A.sq m.yo) - X * Y| ≤ 2 * 14 * u * (X * Y) from
      rel ((hAu.accMul h1 aX aY).mono (by linarith)) (by norm_num) (by norm_num) (mul_nonneg pX pY)) h1 hXY
  have aS : Acc (42 * u) (A.add (A.add p' q') z') (p + q + z) :=
    (hAu.accAdd h1 (by positivity) hz.le (hAu.accAdd h1 hp.le hq.le ap aq) (az.mono (t' := 2 * u + 38 * u) (by linarith))).mono (by linarith)
  have aRS := (hAu.accMul h1 ar' aS).mono (t' := 58 * u) (by linarith)
  have aT : Acc (58 * u) (A.add (A.mul q' (A.sq m.xo)) (A.mul p' (A.sq m.yo))) (q * X + p * Y) :=
    (hAu.accAdd h1 (by positivity) (by positivity) (hAu.accMul h1 aq aX) (hAu.accMul h1 ap aY)).mono (by linarith)
  have hT : q * X + p * Y ≤ R * (p + q + z) := by
    have g1 : q * X ≤ q * R := mul_le_mul_of_nonneg_left (by linarith [hc.lt]) hq.le
    have g2 : p * Y ≤ p * R := mul_le_mul_of_nonneg_left (by linarith [hc.lt]) hp.le
    have g3 := mul_pos pR hz
    linarith
  have eb := sub_error hAu (show 0 ≤ R * (p + q + z) by positivity) hc.T_nonneg
    (rel aRS (by norm_num) (by norm_num) (by positivity)) (rel aT (by norm_num) (by norm_num) hc.T_nonneg) h1 hT
  have aC := (hAu.accMul h1 ar' (hAu.accAdd h1 (by positivity) (by positivity)
    (hAu.accAdd h1 (by positivity) (by positivity) (hAu.accMul h1 ap aq) (hAu.accMul h1 aq az))
    ((hAu.accMul h1 ap az).mono (t' := 2 * u + (2 * u + (38 * u + 38 * u))) (by linarith)))).mono (t' := 98 * u) (by linarith)
  have aD := (hAu.accMul h1 (hAu.accMul h1 (hAu.accMul h1 ar' ap) aq) az).mono (t' := 134 * u) (by linarith)
  refine ⟨_, S6R.coefficients A r' m.xo m.yo p' q' z', ec, ?_, hc.a_pos, ?_, ?_, ?_, ?_, κ1⟩
  · simp only [S6R.cubic, hb.An, hb.rx, hb.ry, hb.xo, hb.yo, hb.J, hb.Iw, hb.E, hb.G, ep, eq, er', ez, Except.bind_ok']
    rfl
  · refine (show |A.sub (A.sq r') (A.mul (A.sq m.xo) (A.sq m.yo)) - (R - X * Y)| ≤ _ from ea).trans ?_
    have k1 : m.rx ^ 2 + m.ry ^ 2 ≤ R - X * Y := by linarith [hc.XY_le]
    have k2 : R ≤ polar m * (R - X * Y) := by rw [← hκ]; exact mul_le_mul_of_nonneg_left (hκ ▸ k1) (by linarith)
    have k3 : (3 * (2 * 14 * u) + u) * R ≤ (3 * (2 * 14 * u) + u) * (polar m * (R - X * Y)) := mul_le_mul_of_nonneg_left k2 (by positivity)
    have k4 : 0 ≤ u * (polar m * (R - X * Y)) := mul_nonneg u0' (by linarith)
    linarith
  · refine (show |A.sub (A.mul (A.sq r') (A.add (A.add p' q') z')) (A.add (A.mul q' (A.sq m.xo)) (A.mul p' (A.sq m.yo))) -
      (R * (p + q + z) - (q * X + p * Y))| ≤ _ from eb).trans ?_
    have k1 : (m.rx ^ 2 + m.ry ^ 2) * (p + q + z) ≤ R * (p + q + z) - (q * X + p * Y) := by
      have g1 := mul_nonneg hp.le pX
      have g2 := mul_nonneg hq.le pY
      have g3 := mul_nonneg hz.le pX
      have g4 := mul_nonneg hz.le pY
      rw [eR]; linarith
    have k2 : R * (p + q + z) ≤ polar m * (R * (p + q + z) - (q * X + p * Y)) := by
      have := mul_le_mul_of_nonneg_left k1 (show 0 ≤ polar m by linarith)
      rw [← mul_assoc, hκ] at this
      exact this
    have k3 : (3 * (2 * 58 * u) + u) * (R * (p + q + z)) ≤ (3 * (2 * 58 * u) + u) * (polar m * (R * (p + q + z) - (q * X + p * Y))) :=
      mul_le_mul_of_nonneg_left k2 (by positivity)
    have k4 : 0 ≤ u * (polar m * (R * (p + q + z) - (q * X + p * Y))) := mul_nonneg u0' (mul_nonneg (by linarith) hc.b_pos.le)
    linarith
  · exact (rel aC (by norm_num) (by norm_num) (by positivity)).trans (grow (by norm_num) (by positivity))
  · exact (rel aD (by norm_num) (by norm_num) (by positivity)).trans (grow (by norm_num) (by positivity))

theorem mean_near {a b a' b' F g ε δ v' : ℝ} (a0 : 0 < a) (hF : 0 < F) (hg : 0 < g) (hε : 0 ≤ ε) (hεδ : 27 * ε ≤ δ) (h1 : δ < 1) (h2 : 2 * δ ≤ g)
    (b1 : a * ((3 + 2 * g) * F) ≤ b) (ga : a' - a ≤ ε * a) (gb : -(ε * b) ≤ b' - b) (n : -(δ * F) ≤ v' - F ∧ v' - F ≤ δ * F) :
    3 * a' * v' < b' := by
  have ε1 : ε ≤ 1 / 27 := by linarith
  have k1 : a * ((3 + 2 * g) * F) * (1 - ε) ≤ b' := by
    have := mul_le_mul_of_nonneg_right b1 (show 0 ≤ 1 - ε by linarith)
    linarith
  have v0' : 0 < v' := by
    have : 0 < F * (1 - δ) := mul_pos hF (by linarith)
    linarith [n.1]
  have δ0 : 0 ≤ δ := by linarith
  have k2 : a' * v' ≤ a * (1 + ε) * (F * (1 + δ)) := mul_le_mul (by linarith) (by linarith [n.2]) v0'.le (by positivity)
  have k3 : 3 * ((1 + ε) * (1 + δ)) < (3 + 2 * g) * (1 - ε) := by
    have e1 : ε * δ ≤ ε * 1 := mul_le_mul_of_nonneg_left h1.le hε
    have e2 : g * ε ≤ g * (1 / 27) := mul_le_mul_of_nonneg_left ε1 hg.le
    linarith
  have k4 : a * F * (3 * ((1 + ε) * (1 + δ))) < a * F * ((3 + 2 * g) * (1 - ε)) := mul_lt_mul_of_pos_left k3 (by positivity)
  linarith

/-- the least root of the computed cubic, and that it is below the mean of the roots -/
theorem computed_least {A : Arith ℝ} {u u0 s : ℝ} (hA : Rounded A u0) (huw : u0 ≤ u) (hs0 : 0 ≤ s) (hsw : 38 * u0 + 2 * s ≤ 38 * u)
    {m : Member} (hm : m.Positive) (hn : NearAxis m) {b : S6R.Bar ℝ} (hb : BarNear s b m) {F g : ℝ} (hF : 0 < F) (hg : 0 < g)
    (hsep : Separated m F g) (h1 : 1050 * u * unsymCond m g < 1) (h2 : 2100 * u * unsymCond m g ≤ g) :
    ∃ q' v', S6R.cubic A b = .ok q' ∧ LeastRoot q' v' ∧ |v' - F| ≤ 1050 * u * unsymCond m g * F ∧ 0 < q'.a ∧ 3 * q'.a * v' < q'.b ∧
      9 ≤ unsymCond m g := by
  obtain ⟨q, z, w, ec, hz, hw, hpoly⟩ := hsep
  have hM : 9 ≤ (3 + 4 / g) ^ 2 := by have : 0 < 4 / g := by positivity
                                      nlinarith
  have pol : 1 ≤ polar m := by
    have r2 : 0 < m.rx ^ 2 + m.ry ^ 2 := by have := hm.rx; positivity
    unfold polar
    rw [le_div_iff₀ r2]
    nlinarith [sq_nonneg m.xo, sq_nonneg m.yo]
  have hκ : unsymCond m g = polar m * (3 + 4 / g) ^ 2 := rfl
  have hu0 : 0 ≤ u := hA.nonneg.trans huw
  have κ9 : 9 ≤ unsymCond m g := by rw [hκ]; nlinarith
  have hu : u ≤ 1 / 200 := by nlinarith
  obtain ⟨q1, q', ec1, ec', a0, da, db, dc, dd, -⟩ := coefficients_near hA huw hs0 hsw hu hm hn hb
  rw [ec] at ec1
  injection ec1 with ec1
  subst ec1
  -- the coefficients in terms of the roots
  have a1 : (q.a : ℂ) ≠ 0 := by exact_mod_cast a0.ne'
  have sums : (q.a : ℂ) * (F + z + w) = (q.b : ℂ) := by
    have c0 := hpoly 0
    have c1 := hpoly 1
    have c2 := hpoly (-1)
    linear_combination (1 / 2) * c1 + (1 / 2) * c2 - c0
  have prod : (q.a : ℂ) * (F * z + z * w + F * w) = (q.c : ℂ) := by
    have c1 := hpoly 1
    have c2 := hpoly (-1)
    have c3 := hpoly 2
    have c4 := hpoly (-2)
    linear_combination (-2 / 3) * c1 + (2 / 3) * c2 + (1 / 12) * c3 - (1 / 12) * c4
  have cons : (q.a : ℂ) * (F * (z * w)) = (q.d : ℂ) := by
    have c0 := hpoly 0
    linear_combination c0
  have i1 := congrArg Complex.im sums
  have r1 := congrArg Complex.re sums
  have i2 := congrArg Complex.im prod
  have r2 := congrArg Complex.re prod
  have r3 := congrArg Complex.re cons
  rw [Complex.re_ofReal_mul] at r1 r2 r3
  rw [Complex.im_ofReal_mul] at i1 i2
  rw [Complex.re_ofReal_mul] at r3
  simp only [Complex.add_im, Complex.add_re, Complex.mul_im, Complex.mul_re, Complex.ofReal_im, Complex.ofReal_re, zero_add, zero_mul, add_zero,
    sub_zero] at i1 r1 i2 r2 r3
  have hwi : w.im = -z.im := by
    rcases mul_eq_zero.1 i1 with k | k
    · exact absurd k a0.ne'
    · linarith
  rw [hwi] at r2 r3
  have fac := factor_of (y := z.im) hF hg hz hw
  have x1 : 0 < z.re := lt_of_lt_of_le (by positivity) hz
  have x2 : 0 < w.re := lt_of_lt_of_le (by positivity) hw
  have hε : 0 ≤ 350 * u * polar m := by positivity
  have hδ : 3 * (350 * u * polar m) * (3 + 4 / g) ^ 2 ≤ 1050 * u * unsymCond m g := by rw [hκ]; linarith
  have hεδ : 27 * (350 * u * polar m) ≤ 1050 * u * unsymCond m g := by
    have := mul_le_mul_of_nonneg_left hM hε
    rw [hκ]; linarith
  obtain ⟨v', n, z0, below⟩ := least_near (a' := q'.a) (b' := q'.b) (c' := q'.c) (d' := q'.d) a0 hF (show 0 < z.re + w.re by positivity)
    (show 0 < z.re * w.re + z.im ^ 2 by positivity) fac
    (by rw [← r1]; ring) (by rw [← r2]; ring) (by rw [← r3]; ring) da db dc dd hε (by linarith) hδ h1 (by linarith)
  have n' := abs_le.1 n
  set δ := 1050 * u * unsymCond m g with hδ'
  set ε := 350 * u * polar m with hε'
  refine ⟨q', v', ec', ⟨z0, below⟩, n, ?_, ?_, κ9⟩
  · have := (abs_le.1 da).1
    have : 0 < q.a * (1 - ε) := mul_pos a0 (by linarith)
    linarith
  · exact mean_near a0 hF hg hε hεδ h1 (by linarith) (by rw [← r1]; exact mul_le_mul_of_nonneg_left (by linarith) a0.le) (abs_le.1 da).2
      (abs_le.1 db).1 n'

/-- the stress of the exact formulas is positive -/
theorem focUnsym_pos {roots : Roots} (hr : roots.Exact) {m : Member} (hm : m.Positive) (hn : NearAxis m) {F : ℝ}
    (h : S6.focUnsym roots m = .ok F) : 0 < F := by
  obtain ⟨-, -, -, v, -, -, e, v0, -⟩ := focUnsym_least hr hm hn
  rw [e] at h
  injection h with h
  exact h ▸ v0

/-- C118, partial: in every arithmetic with relative errors of at most `u`, the stress `f_oc_unsymmetric` finds by choosing among the exact roots
of the cubic with the computed coefficients is a number with a relative error of at most `1050 u κ`, if that is below 1 and at most half the gap `g`
between the smallest root and the others.  `κ = (r_o1² / (r_x² + r_y²)) (3 + 4 / g)²` is a condition number. -/
theorem C118_stress_partial {A : Arith ℝ} {u : ℝ} (hA : Rounded A u) {roots : Roots} (hr : roots.Exact) {m : Member} (hm : m.Positive)
    (hn : NearAxis m) {F g : ℝ} (h : S6.focUnsym roots m = .ok F) (hg : 0 < g) (hsep : Separated m F g)
    (h1 : 1050 * u * unsymCond m g < 1) (h2 : 2100 * u * unsymCond m g ≤ g) :
    ∃ x, S6R.focUnsym A roots (Bar.of m) = .ok x ∧ Within (1050 * u * unsymCond m g) x F := by
  have hF := focUnsym_pos hr hm hn h
  obtain ⟨q', v', ec, hl, n, a0, hmean, -⟩ := computed_least hA le_rfl le_rfl (by linarith) hm hn (barNear_of m) hF hg hsep h1 h2
  have v0 : 0 < v' := by have := (abs_le.1 n).1; nlinarith
  refine ⟨v', ?_, hF, n⟩
  simp only [S6R.focUnsym, ec, Except.bind_ok', pick_eq hr a0 v0 hl hmean]

/-- with exact arithmetic the coefficients and the stress are those of `Model/S6` -/
theorem C118_exact (roots : Roots) (m : Member) : S6R.focUnsym .exact roots (Bar.of m) = S6.focUnsym roots m := by
  have e1 : S6R.fEuler .exact m.E m.lex m.rx = S6.fEuler m.E m.lex m.rx := rfl
  have e2 : S6R.fEuler .exact m.E m.ley m.ry = S6.fEuler m.E m.ley m.ry := rfl
  have e3 : S6R.rol .exact m.rx m.ry m.xo m.yo = S6.rol m.rx m.ry m.xo m.yo := rfl
  have e4 : S6R.fEulerTorsion .exact m.An m.lez m.rx m.ry m.xo m.yo m.J m.Iw m.E m.G =
    S6.fEulerTorsion m.An m.lez m.rx m.ry m.xo m.yo m.J m.Iw m.E m.G := rfl
  simp only [S6R.focUnsym, S6R.cubic, Bar.of, e1, e2, e3, e4, S6.focUnsym, S6.cubic]
  cases S6.fEuler m.E m.lex m.rx with
  | error e => rfl
  | ok p =>
  simp only [Except.bind_ok']
  cases S6.fEuler m.E m.ley m.ry with
  | error e => rfl
  | ok q =>
  simp only [Except.bind_ok']
  cases S6.rol m.rx m.ry m.xo m.yo with
  | error e => rfl
  | ok r =>
  simp only [Except.bind_ok']
  cases S6.fEulerTorsion m.An m.lez m.rx m.ry m.xo m.yo m.J m.Iw m.E m.G with
  | error e => rfl
  | ok z => rfl

/-- C118, partial: the capacity `s6_3_3_N_c_torsion` gives for an unsymmetric section has a relative error of at most `13000 u κ + 24 η` when the
root finder has a relative error of at most `η`, if the bounds below hold and the slenderness `λ_c` is away from 1.5, where the column curve has a
step. -/
theorem C118_capacity_partial {A : Arith ℝ} {u η : ℝ} (hA : Rounded A u) {pw : ℝ → ℝ → ℝ} (hpw : RoundedPow pw (2 * u)) {roots : Roots}
    (hr : roots.Exact) {m : Member} (hm : m.Positive) (hn : NearAxis m) {kf fy unc : ℝ} (hkf : 0 < kf) (hfy : 0 < fy) (hunc : 0 < unc)
    {sym : Symmetry} (hs : sym.symmetry = .ok .none) {t : S6.Torsional} (h : S6.NcTorsion roots m kf fy sym unc = .ok t) {g : ℝ} (hg : 0 < g)
    (hsep : Separated m t.foc g) {find : S6R.Cubic ℝ → Py ℝ} (hη : 0 ≤ η)
    (hf : ∀ q, S6R.cubic A (Bar.of m) = .ok q → Finds find η q) (h1 : 120000 * u * unsymCond m g + 220 * η ≤ 1) (h2 : 2100 * u * unsymCond m g ≤ g)
    (hl : 20000 * u * unsymCond m g + 36 * η < |t.lambdaC - 3 / 2|) :
    ∃ N', S6R.NcTorsionUnsym A pw find (Bar.of m) kf fy unc = .ok N' ∧ Within (13000 * u * unsymCond m g + 24 * η) N' t.Ncz := by
  have h0 := hA.nonneg
  simp only [S6.NcTorsion, S6.foc, hs, Except.bind_ok'] at h
  cases e1 : S6.focUnsym roots m with
  | error e => rw [e1] at h; cases h
  | ok F =>
  have hF := focUnsym_pos hr hm hn e1
  rw [e1, Except.bind_ok'] at h
  have hcc := columnCurve_ok hfy hF
  have hfoc : t.foc = F ∧ t.lambdaC = √(fy / F) := by
    rw [hcc, Except.bind_ok'] at h
    injection h with h
    rw [← h]
    exact ⟨rfl, rfl⟩
  rw [hfoc.1] at hsep
  rw [hfoc.2] at hl
  have uκ : 0 ≤ u * unsymCond m g := by
    have : 0 ≤ unsymCond m g := by unfold unsymCond polar; positivity
    positivity
  obtain ⟨q', v', ec, hlr, n, a0, hmean, κ9⟩ := computed_least hA le_rfl le_rfl (by linarith) hm hn (barNear_of m) hF hg hsep (by linarith) h2
  have hu9 : 9 * u ≤ u * unsymCond m g := by
    have := mul_le_mul_of_nonneg_left κ9 h0
    linarith
  have v0 : 0 < v' := by
    have := (abs_le.1 n).1
    have : 0 < F * (1 - 1050 * u * unsymCond m g) := mul_pos hF (by linarith)
    linarith
  obtain ⟨x, ex, nx⟩ := hf q' ec v' v0 hlr
  -- the error of the stress
  have ax : |x - F| ≤ (1050 * (u * unsymCond m g) + 2 * η) * F := by
    have l1 := abs_le.1 n
    have l2 := abs_le.1 nx
    have : η * v' ≤ η * (2 * F) := by
      apply mul_le_mul_of_nonneg_left _ hη
      have : 1050 * u * unsymCond m g * F ≤ 1 * F := mul_le_mul_of_nonneg_right (by linarith) hF.le
      linarith [l1.2]
    rw [abs_le]
    constructor <;> linarith [l1.1, l1.2, l2.1, l2.2]
  have acc : Acc (2 * (1050 * (u * unsymCond m g) + 2 * η)) x F :=
    Acc.of_rel (by positivity) (by linarith) (by rwa [abs_of_pos hF])
  have u1 : u ≤ 1 / 2 := by linarith
  have rr := fun y => Acc.refl le_rfl y
  obtain ⟨lc, fn, lc', fn', c1, -, pfn, c2, afn⟩ := curve_acc hA hpw hfy hF (by positivity) (by linarith) acc (by linarith)
  rw [c1, Except.bind_ok'] at h
  injection h with h
  have pN : 0 < unc * (m.An * kf) * fn := by have := hm.An; positivity
  refine ⟨A.mul (A.mul unc (A.mul m.An kf)) fn', ?_, ?_⟩
  · simp only [S6R.NcTorsionUnsym, ec, ex, Except.bind_ok', c2]
    rfl
  · rw [← h]
    exact ((hA.accMul u1 (hA.accMul u1 (rr unc) (hA.accMul u1 (rr m.An) (rr kf))) afn).mono
      (t' := 40 * u + 3 * (2 * (1050 * (u * unsymCond m g) + 2 * η))) (by linarith)).within pN (by positivity) (by linarith) (by linarith)

/-- C118 in double precision: for members whose polar second moment about the shear centre is at most 4 times that about the centroid, with a gap of at
least a tenth, the stress has a relative error of at most 10⁻⁹. -/
theorem C118_double_partial {roots : Roots} (hr : roots.Exact) {m : Member} (hm : m.Positive) (hn : NearAxis m) (hp : polar m ≤ 4) {F : ℝ}
    (h : S6.focUnsym roots m = .ok F) (hsep : Separated m F (1 / 10)) :
    ∃ x, S6R.focUnsym .double roots (Bar.of m) = .ok x ∧ Within (1 / 10 ^ 9) x F := by
  have hk : unsymCond m (1 / 10) ≤ 7396 := by
    unfold unsymCond
    linarith [mul_le_mul_of_nonneg_right hp (by norm_num : (0 : ℝ) ≤ (3 + 4 / (1 / 10)) ^ 2)]
  have hu : 1050 * (2 : ℝ) ^ (-53 : ℤ) * unsymCond m (1 / 10) ≤ 1 / 10 ^ 9 :=
    (mul_le_mul_of_nonneg_left hk (by positivity)).trans (by norm_num)
  obtain ⟨x, e, w⟩ := C118_stress_partial C102_double hr hm hn h (by norm_num) hsep (hu.trans_lt (by norm_num))
    (by linarith [hu, (by norm_num : (1 : ℝ) / 10 ^ 9 ≤ 1 / 20)])
  exact ⟨x, e, w.1, w.2.trans (mul_le_mul_of_nonneg_right hu w.1.le)⟩

/-- a member of 6 m with equal radii of gyration whose shear centre is a nanometre from the centroid along each axis -/
def twinBar : S6R.Bar ℚ where
  An := rnd64 (4 / 1000)
  lex := 6
  ley := 6
  lez := 6
  rx := rnd64 (4 / 100)
  ry := rnd64 (4 / 100)
  xo := 1 / 2 ^ 30
  yo := 1 / 2 ^ 30
  J := rnd64 (1 / 10 ^ 6)
  Iw := 0
  E := 200000000000
  G := 80000000000

/-- the same member as real numbers -/
noncomputable def twinMember : Member where
  An := (twinBar.An : ℚ)
  lex := 6
  ley := 6
  lez := 6
  rx := (twinBar.rx : ℚ)
  ry := (twinBar.ry : ℚ)
  xo := 1 / 2 ^ 30
  yo := 1 / 2 ^ 30
  J := (twinBar.J : ℚ)
  Iw := 0
  E := 200000000000
  G := 80000000000

/-- C118, the counterexample: two of the stresses coincide, and in double precision the computed cubic has no real root near them.  Whatever exact
root finder is used, the result is complex or more than 50 times the stress. -/
theorem C118_counterexample {roots : Roots} (hr : roots.Exact) :
    twinMember.Positive ∧ NearAxis twinMember ∧ ∃ (F : ℝ) (q : S6R.Cubic ℚ), S6.focUnsym roots twinMember = .ok F ∧ 0 < F ∧
      S6R.cubic .binary64 twinBar = .ok q ∧ ∀ v, S6R.pick roots ⟨q.a, q.b, q.c, q.d⟩ = .ok v → 50 * F < v := by
  have c1 : (0 : ℝ) < twinMember.An := (Rat.cast_pos (K := ℝ)).2 (show 0 < twinBar.An by decide +kernel)
  have c2 : (0 : ℝ) < twinMember.rx := (Rat.cast_pos (K := ℝ)).2 (show 0 < twinBar.rx by decide +kernel)
  have c3 : (0 : ℝ) < twinMember.J := (Rat.cast_pos (K := ℝ)).2 (show 0 < twinBar.J by decide +kernel)
  have c4 : twinMember.rx < 41 / 1000 := by
    have := (Rat.cast_lt (K := ℝ)).2 (show twinBar.rx < 41 / 1000 by decide +kernel)
    push_cast at this
    exact this
  have hm : twinMember.Positive := by
    constructor <;> first | exact c1 | exact c2 | exact c3 | (norm_num [twinMember])
  have hn : NearAxis twinMember := Or.inl (by rw [show twinMember.xo = 1 / 2 ^ 30 from rfl]; norm_num [abs_le])
  obtain ⟨p, q, s, F, hs, -, e, F0, hp, -⟩ := focUnsym_least hr hm hn
  refine ⟨hm, hn, F, ⟨461168601842739 / 144115188075855872, 2759713898892687 / 134217728, 3533821542416665, 153930415461139654639616⟩, e, F0,
    by rw [← fastArith_eq]; decide +kernel, fun v hv => ?_⟩
  have hpb : p < 10 ^ 8 := by
    have h1 := hs.1
    rw [fEuler_ok hm.rx.ne' hm.lex.ne', Except.ok_inj'] at h1
    rw [← h1, show twinMember.lex = 6 from rfl, show twinMember.E = 200000000000 from rfl]
    have h1 : 6 / (41 / 1000) < 6 / twinMember.rx := div_lt_div_of_pos_left (by norm_num) c2 c4
    have h2 := mul_lt_mul'' h1 h1 (by norm_num) (by norm_num)
    rw [div_lt_iff₀ (by positivity)]
    norm_num [piD] at h2 ⊢
    linarith
  simp only [S6R.pick] at hv
  push_cast at hv
  obtain ⟨z1, z2, z3, hl, hpoly⟩ := hr (461168601842739 / 144115188075855872) (-(2759713898892687 / 134217728)) 3533821542416665
    (-153930415461139654639616) (by norm_num)
  rw [hl] at hv
  cases hz : minStress [z1, z2, z3] with
  | none => rw [hz] at hv; cases hv
  | some z =>
  rw [hz] at hv
  simp only at hv
  split_ifs at hv with hi
  injection hv with hv
  have hzv : z = (v : ℂ) := Complex.ext hv (by simp [hi])
  have mem := minStress_mem hz
  have root := hpoly v
  have zero : (461168601842739 / 144115188075855872 : ℝ) * v ^ 3 + -(2759713898892687 / 134217728) * v ^ 2 + 3533821542416665 * v +
      -153930415461139654639616 = 0 := by
    have : ((461168601842739 / 144115188075855872 : ℝ) : ℂ) * ((v : ℂ) - z1) * ((v : ℂ) - z2) * ((v : ℂ) - z3) = 0 := by
      rw [← hzv]
      simp only [List.mem_cons, List.not_mem_nil, or_false] at mem
      rcases mem with g | g | g <;> rw [g] <;> ring
    rw [this] at root
    exact_mod_cast root
  by_contra hcon
  have hv' : v ≤ 5 * 10 ^ 9 := by linarith
  have key : (461168601842739 / 144115188075855872 : ℝ) * v ^ 3 + -(2759713898892687 / 134217728) * v ^ 2 + 3533821542416665 * v +
      -153930415461139654639616 =
      461168601842739 / 144115188075855872 * (v - (2063233398808967070375059941080929 / 330117343809434890010624)) * ((v - (376796694463435183 / 4294967296)) ^ 2 + (11305586779261164440169917017741625 / 8507059173023465453021923035316224)) + (-1521588996576684632160899938094436324613100229375401280737099299021 / 219400607642827572004368021397377090603277847622537510387712) := by
    ring
  rw [zero] at key
  have : 0 < (v - (376796694463435183 / 4294967296)) ^ 2 + (11305586779261164440169917017741625 / 8507059173023465453021923035316224) := by positivity
  nlinarith

/-- a section with its shear centre off both axes; the smallest root of its cubic is 1 and the other two are complex -/
noncomputable def skew : Member := ⟨9, 2, 1, 1, 4, 2, 2, 1, 241, 0, 1 / (piD * piD), 1⟩

theorem skew_positive : skew.Positive := by
  have : (0 : ℝ) < 1 / (piD * piD) := by norm_num [piD]
  constructor <;> first | exact this | norm_num [skew]

theorem skew_cubic : S6.cubic skew = .ok ⟨21, 1861 / 9, 5528 / 9, 3856 / 9, 4, 4, 241 / 225⟩ := by
  obtain ⟨p, q, s, -, -, -, e1, e2, e3, ec⟩ := cubic_ok skew_positive
  rw [fEuler_ok skew_positive.rx.ne' skew_positive.lex.ne', Except.ok_inj'] at e1
  rw [fEuler_ok skew_positive.ry.ne' skew_positive.ley.ne', Except.ok_inj'] at e2
  rw [fEulerTorsion_ok skew_positive.An skew_positive.lez skew_positive.rx skew_positive.J skew_positive.G, Except.ok_inj'] at e3
  have hp : p = 4 := by rw [← e1]; norm_num [skew, piD]
  have hq : q = 4 := by rw [← e2]; norm_num [skew, piD]
  have hs : s = 241 / 225 := by rw [← e3]; norm_num [skew, roSq]
  subst hp hq hs
  rw [ec]
  norm_num [skew, roSq]

theorem skew_separated : Separated skew 1 (1 / 10) := by
  have h2 : (((√(119552 / 81) : ℝ) : ℂ)) ^ 2 = 119552 / 81 := by
    rw [← Complex.ofReal_pow, Real.sq_sqrt (by norm_num)]
    norm_num
  refine ⟨_, ⟨1672 / 378, √(119552 / 81) / 42⟩, ⟨1672 / 378, -(√(119552 / 81) / 42)⟩, skew_cubic, by norm_num, by norm_num, fun x => ?_⟩
  have z : ∀ a b : ℝ, (⟨a, b⟩ : ℂ) = a + b * Complex.I := fun a b => by apply Complex.ext <;> simp
  rw [z, z]
  push_cast
  linear_combination (-(x - 1) / 84) * h2 + ((x - 1) / 84) * (√(119552 / 81) : ℝ) ^ 2 * Complex.I_sq

theorem skew_stress {roots : Roots} (hr : roots.Exact) : S6.focUnsym roots skew = .ok 1 := by
  have h := pick_eq hr (q := ⟨21, 1861 / 9, 5528 / 9, 3856 / 9⟩) (v := 1) (by norm_num) one_pos ⟨by norm_num, fun f hf => ?_⟩ (by norm_num)
  · simp only [S6.focUnsym, skew_cubic, Except.bind_ok']
    exact h
  · show (21 : ℝ) * f ^ 3 - 1861 / 9 * f ^ 2 + 5528 / 9 * f - 3856 / 9 < 0
    have : 0 < 21 * (f - 1672 / 378) ^ 2 + 1 := by positivity
    nlinarith

/-- exact root finders for the smallest root exist -/
theorem exists_finds : ∃ find : S6R.Cubic ℝ → Py ℝ, ∀ q, Finds find 0 q := by
  classical
  refine ⟨fun q => if h : ∃ v, LeastRoot q v then .ok h.choose else .error .exception, fun q v _ hv => ?_⟩
  have h : ∃ v, LeastRoot q v := ⟨v, hv⟩
  refine ⟨h.choose, dif_pos h, ?_⟩
  have hc := h.choose_spec
  have : h.choose = v := by
    rcases lt_trichotomy h.choose v with g | g | g
    · exact absurd (hv.2 _ g) (by rw [hc.1]; exact lt_irrefl 0)
    · exact g
    · exact absurd (hc.2 _ g) (by rw [hv.1]; exact lt_irrefl 0)
  simp [this]

/-- a member that meets the hypotheses of the theorems above, in double precision -/
example : skew.Positive ∧ NearAxis skew ∧ polar skew ≤ 4 ∧ skew.xo ≠ 0 ∧ skew.yo ≠ 0 ∧ (Symmetry.mk (some [])).symmetry = .ok .none ∧
    ∃ roots find t, Roots.Exact roots ∧ (∀ q, Finds find 0 q) ∧ S6.focUnsym roots skew = .ok 1 ∧ Separated skew 1 (1 / 10) ∧
      S6.NcTorsion roots skew 1 1 (Symmetry.mk (some [])) 1 = .ok t ∧ Separated skew t.foc (1 / 10) ∧
      120000 * (2 : ℝ) ^ (-53 : ℤ) * unsymCond skew (1 / 10) + 220 * 0 ≤ 1 ∧ 2100 * (2 : ℝ) ^ (-53 : ℤ) * unsymCond skew (1 / 10) ≤ 1 / 10 ∧
      20000 * (2 : ℝ) ^ (-53 : ℤ) * unsymCond skew (1 / 10) + 36 * 0 < |t.lambdaC - 3 / 2| := by
  have hs : (Symmetry.mk (some [])).symmetry = .ok .none := by decide +kernel
  obtain ⟨roots, hr⟩ := exists_exact_roots
  obtain ⟨find, hf⟩ := exists_finds
  have ht : ∃ t, S6.NcTorsion roots skew 1 1 (Symmetry.mk (some [])) 1 = .ok t ∧ t.foc = 1 ∧ t.lambdaC = √(1 / 1) := by
    simp only [S6.NcTorsion, S6.foc, hs, Except.bind_ok', skew_stress hr, columnCurve_ok one_pos one_pos]
    exact ⟨_, rfl, rfl, rfl⟩
  obtain ⟨t, e, h1, h2⟩ := ht
  refine ⟨skew_positive, Or.inr (by norm_num [skew]), by norm_num [skew, polar], by norm_num [skew], by norm_num [skew], hs, roots, find, t, hr, hf,
    skew_stress hr, skew_separated, e, h1 ▸ skew_separated, ?_, ?_, ?_⟩
  · norm_num [unsymCond, skew, polar]
  · norm_num [unsymCond, skew, polar]
  · rw [h2]
    norm_num [unsymCond, skew, polar]

end BeamDesign
