import Verif.Spec.Reversal
import Verif.Props.BendingRound
import Verif.Props.ColumnRound
import Verif.Props.WebRound
import Verif.Props.MemberRound
import Verif.Props.TorsionMono
import Verif.Props.Segment
import Verif.Props.Web
import Verif.Props.Yield
import Verif.Props.OrderRound

/-!
# Rounding turns the order of two members round only in the last digits
-/

namespace BeamDesign
open Spec

/-- two computed values of exact values in order -/
theorem Spec.Within.hardly {ε v v' w w' : ℝ} (hε : ε ≤ 1 / 3) (h : Within ε v w) (h' : Within ε v' w') (hw : w ≤ w') :
    HardlyAbove (3 * ε) v v' := by
  obtain ⟨p, e⟩ := h
  obtain ⟨p', e'⟩ := h'
  rw [abs_le] at e e'
  have h0 : 0 ≤ ε := by nlinarith [e.1, e.2]
  refine ⟨by nlinarith, ?_⟩
  have h1 : v ≤ (1 + ε) * w' := by nlinarith [e.2]
  have h2 : (1 - ε) * w' ≤ v' := by linarith [e'.1]
  have h3 : (1 + 3 * ε) * ((1 - ε) * w') ≤ (1 + 3 * ε) * v' := mul_le_mul_of_nonneg_left h2 (by linarith)
  have h4 : 0 ≤ ε * (1 - 3 * ε) * w' := mul_nonneg (mul_nonneg h0 (by linarith)) p'.le
  nlinarith

/-- C154, in every arithmetic with relative errors of at most `u`: the computed shear capacity of a web is larger than that of the same web
of a thicker plate or a stronger steel by at most the part `180 u`. -/
theorem C154_web {A : Arith ℝ} {u : ℝ} (hA : Rounded A u) (hu : 180 * u ≤ 1) {dp tw tw' fy fy' lim fref ratio w w' : ℝ} (hd : 0 < dp)
    (ht : 0 < tw) (htt : tw ≤ tw') (hf : 0 < fy) (hff : fy ≤ fy') (hl : 0 < lim) (hr : 0 < fref) (hq : 0 < ratio)
    (h : WebComputed A dp tw fy lim fref ratio w) (h' : WebComputed A dp tw' fy' lim fref ratio w') :
    HardlyAbove (180 * u) w w' := by
  have hv := (webCapacity_iff (dp := dp) (tw := tw) (fy := fy) hd ht hf hl hr hq).2 rfl
  have hv' := (webCapacity_iff (dp := dp) (tw := tw') (fy := fy') hd (ht.trans_le htt) (hf.trans_le hff) hl hr hq).2 rfl
  have h0 := hA.nonneg
  have uniq : ∀ {t f x y : ℝ}, WebComputed A dp t f lim fref ratio x → WebComputed A dp t f lim fref ratio y → x = y := by
    rintro t f x y ⟨a, e, rfl⟩ ⟨b, e', rfl⟩
    rw [e, Except.ok_inj'] at e'
    rw [e']
  obtain ⟨x, c, q⟩ := C103_web hA (by linarith) hd ht hf hl hr hq hv
  obtain ⟨x', c', q'⟩ := C103_web hA (by linarith) hd (ht.trans_le htt) (hf.trans_le hff) hl hr hq hv'
  rw [uniq h c, uniq h' c']
  have := q.hardly (by linarith) q' (C96_stronger_partial hd ht htt hf hff hl hr hq hv hv')
  rwa [show 3 * (60 * u) = 180 * u by ring] at this

/-- a column that is not stocky has a positive slenderness -/
theorem lamOf_pos {n ab : ℝ} (hn : 27 / 2 ≤ n) (hab : -1 ≤ ab) : 0 < lamOf n ab := by
  have hd := den_pos n
  unfold lamOf
  rw [div_mul_eq_mul_div, ← neg_lt_iff_pos_add', lt_div_iff₀ hd]
  have h1 : 0 ≤ (1 + ab) * (n - 27 / 2) := mul_nonneg (by linarith) (by linarith)
  have h2 : 0 < n * (n * n - 153 / 10 * n + 2050) - 2100 * (n - 27 / 2) := by
    nlinarith [mul_nonneg (show 0 ≤ n by linarith) (sq_nonneg (n - 15)), sq_nonneg (n - 15)]
  nlinarith

/-- C154, partial: in doubles the capacity of a column of a modified slenderness from 13.5 to 1000 is larger than that of a shorter one, of
one with a larger area or of one of stronger steel by at most three parts in 10⁹.  The two columns may differ in all of these. -/
theorem C154_column_partial {An An' kf kf' le le' r fy fy' fref ab : ℝ} (hA : 0 < An) (hAA : An ≤ An') (hk : 0 < kf) (hkk : kf ≤ kf')
    (hle : 0 < le') (hll : le' ≤ le) (hr : 0 < r) (hf : 0 < fy) (hff : fy ≤ fy') (hfr : 0 < fref) (hab : |ab| ≤ 1) {x x' : S6.Flexural}
    (h : S6.NcFlexural An kf le r fy fref ab = .ok x) (h' : S6.NcFlexural An' kf' le' r fy' fref ab = .ok x')
    (hx : 27 / 2 ≤ x.lambdaN ∧ x.lambdaN ≤ 1000) (hx' : 27 / 2 ≤ x'.lambdaN ∧ x'.lambdaN ≤ 1000) {N N' : ℝ × ℝ × S6R.AlphaC ℝ}
    (hN : S6R.NcFlexural .double An kf le r fy fref ab = .ok N) (hN' : S6R.NcFlexural .double An' kf' le' r fy' fref ab = .ok N') :
    HardlyAbove (3 / 10 ^ 9) N.1 N'.1 := by
  obtain ⟨a1, a2⟩ := abs_le.1 hab
  have ple : 0 < le := hle.trans_le hll
  have pk' := hk.trans_le hkk
  have pf' := hf.trans_le hff
  obtain ⟨M, l, f, e, w⟩ := C104_usual_partial hA hk ple hr hf hfr hab h hx.1 hx.2
  obtain ⟨M', l', f', e', w'⟩ := C104_usual_partial (hA.trans_le hAA) pk' hle hr pf' hfr hab h' hx'.1 hx'.2
  rw [e, Except.ok_inj'] at hN
  rw [e', Except.ok_inj'] at hN'
  subst hN hN'
  -- the long column of the stronger steel
  have hord : x.Nc ≤ x'.Nc := by
    have hlam : lamOf (le / r * √kf' * √(fy' / fref)) ab ≠ 0 := by
      obtain ⟨-, e1, -⟩ := NcFlexural_inv hk.le hr.ne' (by positivity) hfr.ne' h
      have h1 : 27 / 2 ≤ le / r * √kf' * √(fy' / fref) := by
        refine hx.1.trans ?_
        rw [e1]
        gcongr
      exact (lamOf_pos h1 a1).ne'
    obtain ⟨y, hy⟩ := NcFlexural_ok (An := An') pk'.le hr.ne' (by positivity) hfr.ne' hlam
    refine (C93_stronger hA.le hAA hk hkk hf hff ple.le hr hfr a1 a2 h hy).trans ?_
    exact C51_slender_partial (hA.trans_le hAA) pk' hr pf' hfr a1 a2 hll h' hy (by linarith [hx'.1])
  have := w.hardly (by norm_num) w' hord
  rwa [show (3 : ℝ) * (1 / 10 ^ 9) = 3 / 10 ^ 9 by norm_num] at this

/-- C154, partial: in doubles the bending capacity of a segment that is not very slender is larger than that of a shorter one by at most
three parts in 10¹⁰. -/
theorem C154_segment_partial (v : S5.PyVersion) {s : Segment} (hs : s.Usual v) {l' M M' : ℝ} (hl : s.l < l')
    (hs' : ({ s with l := l' } : Segment).Usual v) (hM : s.Computed .double M) (hM' : ({ s with l := l' } : Segment).Computed .double M') :
    HardlyAbove (3 / 10 ^ 10) M' M := by
  have near : ∀ {z : Segment} {m}, z.Usual v → z.Computed .double m → ∃ x, z.Capacity v x ∧ Within (1 / 10 ^ 10) m x := by
    intro z m hz hm
    obtain ⟨hp, hb, hx⟩ := hz
    obtain ⟨x, px, hc⟩ := C88_defined v hp
    have c := (hc x).2 rfl
    obtain ⟨k, Mo, a, e1, e2, e3, e4⟩ := c
    obtain ⟨m', c', d⟩ := C102_usual_partial v hp e1 e2 e3 e4 hb (hx k Mo e1 e2)
    obtain ⟨k1, o1, a1, f1, f2, f3, rfl⟩ := hm
    obtain ⟨k2, o2, a2, g1, g2, g3, rfl⟩ := c'
    rw [f1, Except.ok_inj'] at g1; subst g1
    rw [f2, Except.ok_inj'] at g2; subst g2
    rw [f3, Except.ok_inj'] at g3; subst g3
    exact ⟨x, (hc x).2 rfl, px, d⟩
  obtain ⟨x, c, w⟩ := near hs hM
  obtain ⟨x', c', w'⟩ := near hs' hM'
  have := w'.hardly (by norm_num) w (C88_longer v hs.1 hl c c').le
  rwa [show (3 : ℝ) * (1 / 10 ^ 10) = 3 / 10 ^ 10 by norm_num] at this

/-- C154, partial: in doubles the governing compression capacity of a member in the usual range is larger than that of a member with shorter
effective lengths by at most three parts in 10⁷, and so is the design capacity. -/
theorem C154_member_partial {pw : ℝ → ℝ → ℝ} (hpw : RoundedPow pw (2 * 2 ^ (-53 : ℤ))) {roots : S6.Roots} {a : S6.NcArgs} {k : S6R.Sym}
    {l' kex' key' kez' : ℝ} (ha : Args.Usual roots a k) (ha' : Args.Usual roots { a with l := l', kex := kex', key := key', kez := kez' } k)
    (hs : HasSymmetry a.sym) (hab : -(796591 / 840000) ≤ a.alphaB) (gx : a.l * a.kex ≤ l' * kex') (gy : a.l * a.key ≤ l' * key')
    (gz : a.l * a.kez ≤ l' * kez') {r r' : S6.NcResult} (h : S6.Nc roots a = .ok r)
    (h' : S6.Nc roots { a with l := l', kex := kex', key := key', kez := kez' } = .ok r') {q q' : S6R.Result ℝ}
    (hq : S6R.Nc .double pw (Args.of a k) = .ok q)
    (hq' : S6R.Nc .double pw (Args.of { a with l := l', kex := kex', key := key', kez := kez' } k) = .ok q') :
    HardlyAbove (3 / 10 ^ 7) q'.Nc q.Nc ∧ HardlyAbove (3 / 10 ^ 7) q'.phiNc q.phiNc := by
  obtain ⟨f, f1, f2, f3, f4, f5, f6⟩ := ha.stresses
  obtain ⟨g, g1, g2, g3, g4, g5, g6⟩ := ha'.stresses
  obtain ⟨o, e, w⟩ := C114_usual_partial hpw ha.sensible ha.sym f1 f2 f3 f4 f5 f6 ha.x ha.y ha.step h
  obtain ⟨o', e', w'⟩ := C114_usual_partial hpw ha'.sensible ha'.sym g1 g2 g3 g4 g5 g6 ha'.x ha'.y ha'.step h'
  rw [e, Except.ok_inj'] at hq
  rw [e', Except.ok_inj'] at hq'
  subst hq hq'
  have z := ha.sensible
  have hm : a.member.Positive := ⟨z.An, mul_pos z.l z.kex, mul_pos z.l z.key, mul_pos z.l z.kez, z.rx, z.ry, z.J, z.Iw, z.E, z.G⟩
  obtain ⟨o1, o2⟩ := C107_compression hm hs z.kf z.fy z.fref z.uncertainty.le z.phi.le hab (abs_le.1 z.alphaB).2 gx gy gz h h'
  have e3 : (3 : ℝ) * (1 / 10 ^ 7) = 3 / 10 ^ 7 := by norm_num
  constructor
  · have := w'.Nc.hardly (by norm_num) w.Nc o1
    rwa [e3] at this
  · have := w'.phiNc.hardly (by norm_num) w.phiNc o2
    rwa [e3] at this

/-- C154 is false for stocky columns: in doubles a column of 6.92815493 m has no capacity at all, and one of 6.9281553 m has more than one
and a half times its squash load. -/
theorem C154_counterexample : ∃ r r',
    S6R.NcFlexural Arith.binary64 (1/8) 1 (rnd64 (692815493 / 100000000)) 1 250000000 250000000 1 = .ok r ∧
    S6R.NcFlexural Arith.binary64 (1/8) 1 (rnd64 (69281553 / 10000000)) 1 250000000 250000000 1 = .ok r' ∧
    rnd64 (692815493 / 100000000) < rnd64 (69281553 / 10000000) ∧ r.1 = 0 ∧ 3 / 2 * (1/8 * 250000000) < r'.1 := by
  rw [← fastArith_eq]
  exact both_ok (by decide +kernel)

/-- webs of 10 mm of grade 250 and 12 mm of grade 350 in doubles: the bound is below two parts in 10¹⁴ -/
example : ∃ w w', WebComputed .double 1 (1 / 100) 250000000 82 250000000 (6 / 10) w ∧
    WebComputed .double 1 (12 / 1000) 350000000 82 250000000 (6 / 10) w' ∧ HardlyAbove (180 * 2 ^ (-53 : ℤ)) w w' ∧
    180 * (2 : ℝ) ^ (-53 : ℤ) < 2 / 10 ^ 14 := by
  have h := fun t f (ht : 0 < t) (hf : 0 < f) => C103_double (dp := 1) (tw := t) (fy := f) (lim := 82) (fref := 250000000)
    (ratio := 6 / 10) (by norm_num) ht hf (by norm_num) (by norm_num) (by norm_num)
    ((webCapacity_iff (by norm_num) ht hf (by norm_num) (by norm_num) (by norm_num)).2 rfl)
  obtain ⟨w, c, -⟩ := h (1 / 100) 250000000 (by norm_num) (by norm_num)
  obtain ⟨w', c', -⟩ := h (12 / 1000) 350000000 (by norm_num) (by norm_num)
  exact ⟨w, w', c, c', C154_web C102_double (by norm_num) (by norm_num) (by norm_num) (by norm_num) (by norm_num) (by norm_num) (by norm_num)
    (by norm_num) (by norm_num) c c', by norm_num⟩

/-- a 310UB46 of grade 320 and 4 m length and one of grade 350 and 3 m length -/
example : ∃ N N' : ℝ × ℝ × S6R.AlphaC ℝ, S6R.NcFlexural .double (593 / 100000) 1 4 (39 / 1000) 320000000 250000000 0 = .ok N ∧
    S6R.NcFlexural .double (593 / 100000) 1 3 (39 / 1000) 350000000 250000000 0 = .ok N' ∧ HardlyAbove (3 / 10 ^ 9) N.1 N'.1 := by
  have col : ∀ l f : ℝ, 3 ≤ l → l ≤ 4 → 250000000 ≤ f → f ≤ 1000000000 → ∃ x N' l' f',
      S6.NcFlexural (593 / 100000) 1 l (39 / 1000) f 250000000 0 = .ok x ∧ (27 / 2 ≤ x.lambdaN ∧ x.lambdaN ≤ 1000) ∧
      S6R.NcFlexural .double (593 / 100000) 1 l (39 / 1000) f 250000000 0 = .ok (N', l', f') := by
    intro l f l1 l2 f1 f2
    have h1 : (1 : ℝ) ≤ √(f / 250000000) := Real.one_le_sqrt.2 (by linarith)
    have h2 : √(f / 250000000 : ℝ) ≤ 2 := Real.sqrt_le_iff.2 ⟨by norm_num, by linarith⟩
    have h3 : 27 / 2 ≤ l / (39 / 1000) * √1 * √(f / 250000000) := by rw [Real.sqrt_one]; nlinarith
    obtain ⟨x, hx⟩ := NcFlexural_ok (An := 593 / 100000) (by norm_num) (by norm_num) (by linarith) (by norm_num)
      (lamOf_pos (ab := 0) h3 (by norm_num)).ne'
    obtain ⟨-, hln, -⟩ := NcFlexural_inv (by norm_num) (by norm_num) (by linarith) (by norm_num) hx
    have g1 : 27 / 2 ≤ x.lambdaN := by rw [hln]; exact h3
    have g2 : x.lambdaN ≤ 1000 := by rw [hln, Real.sqrt_one]; nlinarith
    obtain ⟨N', l', f', e, -⟩ := C104_usual_partial (by norm_num) (by norm_num) (by linarith) (by norm_num) (by linarith) (by norm_num)
      (by norm_num) hx g1 g2
    exact ⟨x, N', l', f', hx, ⟨g1, g2⟩, e⟩
  obtain ⟨x, N, l, f, hx, r, e⟩ := col 4 320000000 (by norm_num) (by norm_num) (by norm_num) (by norm_num)
  obtain ⟨x', N', l', f', hx', r', e'⟩ := col 3 350000000 (by norm_num) (by norm_num) (by norm_num) (by norm_num)
  exact ⟨_, _, e, e', C154_column_partial (by norm_num) le_rfl (by norm_num) le_rfl (by norm_num) (by norm_num) (by norm_num) (by norm_num)
    (by norm_num) (by norm_num) (by norm_num) hx hx' r r' e e'⟩

/-- segments of 4 m and 4.5 m with full restraint at both ends -/
example : ∃ M M', ({ sampleSegment with code := .FF } : Segment).Computed .double M ∧
    ({ sampleSegment with code := .FF, l := 9 / 2 } : Segment).Computed .double M' ∧ HardlyAbove (3 / 10 ^ 10) M' M := by
  have hpi : (9 : ℝ) ≤ piD * piD := by norm_num [piD]
  have us : ∀ l : ℝ, 4 ≤ l → l ≤ 9 / 2 → ({ sampleSegment with code := .FF, l := l } : Segment).Usual .from312 ∧
      ∃ M, ({ sampleSegment with code := .FF, l := l } : Segment).Computed .double M := by
    intro l l1 l2
    have l0 : 0 < l := by linarith
    have hp : ({ sampleSegment with code := .FF, l := l } : Segment).Positive := { sampleSegment_pos with l := l0 }
    have hMo := Mo_ok (le := l) (Iy := 255/100000000) (J := 67/1000000000) (Iw := 36/1000000000) (betaX := 0) (E := 200000000000)
      (G := 80000000000) l0 (by norm_num) (by norm_num) (by norm_num) (by norm_num) (by norm_num)
    have hbig : (10500 : ℝ) ≤ moForm (piD * piD * 200000000000 * (255/100000000) / (l * l))
        (80000000000 * (67/1000000000) + piD * piD * 200000000000 * (36/1000000000) / (l * l)) (0 / 2) := by
      have p0 : 0 < l * l := by positivity
      have p1 : l * l ≤ 81 / 4 := by nlinarith
      have e1 : (400 : ℝ) ≤ √(piD * piD * 200000000000 * (255/100000000) / (l * l)) := by
        apply Real.le_sqrt_of_sq_le
        rw [le_div_iff₀ p0]
        nlinarith
      have e2 : (60 : ℝ) ≤ √(80000000000 * (67/1000000000) + piD * piD * 200000000000 * (36/1000000000) / (l * l) +
          0 / 2 * (0 / 2) * (piD * piD * 200000000000 * (255/100000000) / (l * l))) := by
        apply Real.le_sqrt_of_sq_le
        have : 0 ≤ piD * piD * 200000000000 * (36/1000000000) / (l * l) := by positivity
        linarith
      unfold moForm
      nlinarith
    have e0 : S5.le 1 1 1 l = l := by norm_num [S5.le]
    have hS : S5.Ms sampleSegment.fy sampleSegment.Ze = 105000 := by norm_num [S5.Ms, sampleSegment]
    have u : ({ sampleSegment with code := .FF, l := l } : Segment).Usual .from312 := by
      refine ⟨hp, by norm_num [sampleSegment], fun k Mo hk h => ?_⟩
      injection hk with hk
      subst hk
      simp only [sampleSegment] at h
      rw [e0, hMo, Except.ok_inj'] at h
      simp only
      rw [hS, ← h]
      linarith
    refine ⟨u, ?_⟩
    obtain ⟨M, h, -⟩ := C102_usual_partial .from312 hp (k := 1) rfl (by simp only [sampleSegment]; rw [e0]; exact hMo)
      (alphaS_ok (by linarith)) rfl (by norm_num [sampleSegment]) (by simp only; rw [hS]; linarith)
    exact ⟨M, h⟩
  obtain ⟨u, M, h⟩ := us 4 le_rfl (by norm_num)
  obtain ⟨u', M', h'⟩ := us (9 / 2) (by norm_num) le_rfl
  exact ⟨M, M', h, h', C154_segment_partial .from312 (l' := 9 / 2) u (by norm_num) u' h h'⟩

/-- a call gives a result when its parts do -/
theorem Nc_of_parts {roots : S6.Roots} {a : S6.NcArgs}
    (hx : ∃ x, S6.NcFlexural a.An a.kf (S6.le a.l a.kex) a.rx a.fy a.fref a.alphaB = .ok x)
    (hy : ∃ y, S6.NcFlexural a.An a.kf (S6.le a.l a.key) a.ry a.fy a.fref a.alphaB = .ok y)
    (ht : ∃ t, S6.NcTorsion roots a.member a.kf a.fy a.sym a.uncertainty = .ok t) : ∃ r, S6.Nc roots a = .ok r := by
  obtain ⟨x, hx⟩ := hx
  obtain ⟨y, hy⟩ := hy
  obtain ⟨t, ht⟩ := ht
  cases hb : a.calcBuckling <;> cases hz : a.calcTorsion <;>
    simp only [S6.Nc, hb, hz, hx, hy, ht, Except.bind_ok', if_true, Bool.false_eq_true, if_false] <;> exact ⟨_, rfl⟩

/-- the channel of C106 of 4 m and of 4.25 m length -/
theorem channels_usual (roots : S6.Roots) (l : ℝ) (hl : l = 4 ∨ l = 17 / 4) :
    Args.Usual roots { channelCall with l := l } (.single true) ∧ ∃ r, S6.Nc roots { channelCall with l := l } = .ok r := by
  rcases hl with rfl | rfl
  all_goals
    generalize hcall : ({ channelCall with l := _ } : S6.NcArgs) = c
    have hm : c.member.Positive := by subst hcall; constructor <;> norm_num [channelCall, S6.NcArgs.member, S6.le]
    have ha : Args.Sensible c := by subst hcall; constructor <;> norm_num [channelCall]
    have hk : Sym.Of c.sym (.single true) := by subst hcall; rfl
    obtain ⟨f, e, ex, ez, p, px, -, -, -⟩ := C52_foxz (ry := c.member.ry) (xo := c.member.xo) (yo := c.member.yo) hm.An hm.lex hm.lez
      hm.rx hm.J hm.Iw hm.E hm.G
    have hfoc : S6.foc roots c.member ⟨some [.str "x"]⟩ = .ok f.foxz := by
      simp [S6.foc, Symmetry.symmetry, Symmetry.symcount, S6.focSingle, Axis.isStr, e, Except.bind_ok', pure, Except.pure]
    obtain ⟨t, ht, -, hc, -⟩ := C53_capacity (kf := 1) (unc := 1) (show (0 : ℝ) < 350000000 by norm_num) hfoc p
    rw [fEuler_ok hm.rx.ne' hm.lex.ne', Except.ok_inj'] at ex
    rw [fEulerTorsion_ok hm.An hm.lez hm.rx hm.J hm.G, Except.ok_inj'] at ez
    have hb := (foxz_shape hm.rx e).1
    rw [div_pow, Real.sq_sqrt (roSq_pos _ _ _ hm.rx).le] at hb
    have e' := e
    have ht' := ht
    subst hcall
    simp only [channelCall, S6.NcArgs.member, S6.le, roSq, piD] at ex ez hb
    norm_num at ex ez hb
    rw [columnCurve_ok (by norm_num) p, Except.ok_inj', Prod.mk.injEq] at hc
    have hl : 17 / 10 < t.lambdaC := by
      rw [← hc.1, Real.lt_sqrt (by norm_num), lt_div_iff₀ p]
      have : f.fox < 115000000 := by rw [← ex]; norm_num
      linarith
    have g1 : (1 : ℝ) ≤ √(350000000 / 250000000) := Real.one_le_sqrt.2 (by norm_num)
    have g2 : √(350000000 / 250000000 : ℝ) ≤ 2 := Real.sqrt_le_iff.2 ⟨by norm_num, by norm_num⟩
    have col : ∀ le r : ℝ, 20 ≤ le / r → 0 < r → (∃ x, S6.NcFlexural (4 / 1000) 1 le r 350000000 250000000 0 = .ok x) := by
      intro le r h1 hr
      refine NcFlexural_ok (by norm_num) hr.ne' (by norm_num) (by norm_num) ?_
      refine (lamOf_pos ?_ (by norm_num)).ne'
      rw [Real.sqrt_one]
      nlinarith
    have rng : ∀ le r : ℝ, 20 ≤ le / r → le / r ≤ 400 → 0 < r →
        ∀ x, S6.NcFlexural (4 / 1000) 1 le r 350000000 250000000 0 = .ok x → 27 / 2 ≤ x.lambdaN ∧ x.lambdaN ≤ 1000 := by
      intro le r h1 h2 hr x hx
      obtain ⟨-, hln, -⟩ := NcFlexural_inv (by norm_num) hr.ne' (by norm_num) (by norm_num) hx
      rw [hln, Real.sqrt_one, mul_one]
      constructor <;> nlinarith
    refine ⟨⟨ha, hk, ⟨f, e', by rw [hb]; norm_num, by rw [← ex]; norm_num, by rw [← ex, ← ez]; norm_num, by rw [← ex, ← ez]; norm_num,
      Or.inl (by rw [hb]; norm_num)⟩, ?_, ?_, ?_⟩, ?_⟩
    · exact rng _ (6 / 100) (by norm_num [S6.le, channelCall]) (by norm_num [S6.le, channelCall]) (by norm_num)
    · exact rng _ (3 / 100) (by norm_num [S6.le, channelCall]) (by norm_num [S6.le, channelCall]) (by norm_num)
    · intro t' h'
      have : t' = t := Except.ok_inj'.1 (h'.symm.trans ht')
      rw [this, abs_of_pos (by linarith)]
      norm_num
      linarith
    · exact Nc_of_parts (col _ (6 / 100) (by norm_num [S6.le, channelCall]) (by norm_num))
        (col _ (3 / 100) (by norm_num [S6.le, channelCall]) (by norm_num)) ⟨t, ht'⟩

example (roots : S6.Roots) : ∃ q q', S6R.Nc .double (fun a b => fl53 (a ^ b)) (Args.of { channelCall with l := 4 } (.single true)) = .ok q ∧
    S6R.Nc .double (fun a b => fl53 (a ^ b)) (Args.of { channelCall with l := 17 / 4 } (.single true)) = .ok q' ∧
    HardlyAbove (3 / 10 ^ 7) q'.Nc q.Nc := by
  obtain ⟨u, r, h⟩ := channels_usual roots 4 (Or.inl rfl)
  obtain ⟨u', r', h'⟩ := channels_usual roots (17 / 4) (Or.inr rfl)
  have comp : ∀ {a r}, Args.Usual roots a (.single true) → S6.Nc roots a = .ok r →
      ∃ q, S6R.Nc .double (fun a b => fl53 (a ^ b)) (Args.of a (.single true)) = .ok q := by
    intro a r u h
    obtain ⟨f, f1, f2, f3, f4, f5, f6⟩ := u.stresses
    obtain ⟨o, e, -⟩ := C114_usual_partial C106_pow u.sensible u.sym f1 f2 f3 f4 f5 f6 u.x u.y u.step h
    exact ⟨o, e⟩
  obtain ⟨q, e⟩ := comp u h
  obtain ⟨q', e'⟩ := comp u' h'
  exact ⟨q, q', e, e', (C154_member_partial C106_pow (l' := 17 / 4) u u' ⟨.single, rfl, by decide⟩ (by norm_num [channelCall])
    (by norm_num [channelCall]) (by norm_num [channelCall]) (by norm_num [channelCall]) h h' e e').1⟩

end BeamDesign
