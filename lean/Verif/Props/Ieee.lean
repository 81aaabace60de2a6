import Verif.Model.Ieee
import Verif.Lemmas.IeeeS6
import Verif.Props.BendingRound
import Verif.Props.WebRound
import Verif.Props.EffectiveRound
import Verif.Props.MemberRound

/-!
# C115: no overflow and no underflow for numbers of the usual sizes
-/

namespace BeamDesign

open Spec

/-! ## The machine's arithmetic -/

theorem roundEvenR_error (q : ℝ) : |(roundEvenR q : ℝ) - q| ≤ 1 / 2 := by
  have h1 := Int.floor_le q
  have h2 := Int.lt_floor_add_one q
  rw [abs_le]
  unfold roundEvenR
  split_ifs <;> push_cast <;> constructor <;> linarith

theorem roundEvenR_int (n : ℤ) : roundEvenR (n : ℝ) = n := by
  unfold roundEvenR
  rw [if_pos (by simp), Int.floor_intCast]

/-- numbers of 53 digits are doubles -/
theorem isFloat_mul {n e : ℤ} (hn : |n| ≤ 2 ^ 53) (h1 : -1074 ≤ e) (h2 : e ≤ 970) : IsFloat (n * 2 ^ e) := by
  rcases hn.lt_or_eq with h | h
  · exact ⟨n, e, h, h1, by omega, rfl⟩
  · have h3 : n = 2 * 2 ^ 52 ∨ n = 2 * (-2 ^ 52) := by
      rcases abs_cases n with ⟨g, _⟩ | ⟨g, _⟩ <;> rw [g] at h <;> norm_num at * <;> omega
    rcases h3 with h3 | h3
    · refine ⟨2 ^ 52, e + 1, by norm_num, by omega, by omega, ?_⟩
      rw [h3, two_succ]; push_cast; ring
    · refine ⟨-2 ^ 52, e + 1, by norm_num, by omega, by omega, ?_⟩
      rw [h3, two_succ]; push_cast; ring

theorem fl53_float {x : ℝ} (h1 : (2 : ℝ) ^ (-1022 : ℤ) ≤ |x|) (h2 : |x| < 2 ^ (1023 : ℤ)) : IsFloat (fl53 x) := by
  have hp : 0 < |x| := (two_pos' _).trans_le h1
  have lo := Int.zpow_log_le_self (b := 2) (by norm_num) hp
  have hi := Int.lt_zpow_succ_log_self (b := 2) (by norm_num) |x|
  push_cast at lo hi
  have a : -1022 ≤ Int.log 2 |x| := by
    by_contra hc
    have : (2 : ℝ) ^ (Int.log 2 |x| + 1) ≤ 2 ^ (-1022 : ℤ) := two_le (by omega)
    linarith
  have b : Int.log 2 |x| ≤ 1022 := by
    by_contra hc
    have : (2 : ℝ) ^ (1023 : ℤ) ≤ 2 ^ Int.log 2 |x| := two_le (by omega)
    linarith
  unfold fl53
  set e := Int.log 2 |x| - 52 with he
  refine isFloat_mul ?_ (by omega) (by omega)
  have q : |x / 2 ^ e| < 2 ^ (53 : ℤ) := by
    rw [abs_div, abs_of_pos (two_pos' e), div_lt_iff₀ (two_pos' e), ← two_add]
    exact hi.trans_le (two_le (by omega))
  have r := roundEvenR_error (x / 2 ^ e)
  have s : |(roundEvenR (x / 2 ^ e) : ℝ)| < 2 ^ 53 + 1 := by
    have := abs_sub_abs_le_abs_sub (roundEvenR (x / 2 ^ e) : ℝ) (x / 2 ^ e)
    norm_num at q ⊢
    linarith
  have s' : |roundEvenR (x / 2 ^ e)| < 2 ^ 53 + 1 := by exact_mod_cast s
  omega

theorem ieee_near {x : ℝ} (h : Normal x) : Near (2 ^ (-53 : ℤ)) (ieee x) x := by
  rcases h with rfl | ⟨h1, h2⟩
  · have e : ieee 0 = 0 := by
      unfold ieee
      rw [abs_zero, if_pos (two_pos' _), zero_div]
      have := roundEvenR_int 0
      rw [Int.cast_zero] at this
      rw [this]; simp
    rw [e]
    exact ⟨⟨0, 0, by norm_num, by norm_num, by norm_num, by simp⟩, by simp⟩
  · have err := fl53_error x
    have b : |fl53 x| < 2 ^ (1024 : ℤ) := by
      have a := abs_sub_abs_le_abs_sub (fl53 x) x
      have c : (2 : ℝ) ^ (-53 : ℤ) * |x| ≤ 1 * |x| := mul_le_mul_of_nonneg_right (by norm_num) (abs_nonneg x)
      rw [show (1024 : ℤ) = 1023 + 1 by norm_num, two_succ]
      linarith
    have e : ieee x = fl53 x := by
      unfold ieee
      rw [if_neg (not_lt.2 h1), if_neg (not_le.2 b)]
    rw [e]
    exact ⟨fl53_float h1 h2, err⟩

/-- sums of doubles do not underflow -/
theorem ieee_near_sum {x : ℝ} (h : |x| < 2 ^ (1023 : ℤ)) (k : ℤ) (hk : x = k * 2 ^ (-1074 : ℤ)) : Near (2 ^ (-53 : ℤ)) (ieee x) x := by
  rcases lt_or_ge |x| (2 ^ (-1022 : ℤ)) with h1 | h1
  · have e : ieee x = x := by
      unfold ieee
      rw [if_pos h1, hk, mul_div_cancel_right₀ _ (two_pos' _).ne', roundEvenR_int]
    rw [e]
    refine ⟨⟨k, -1074, ?_, by norm_num, by norm_num, hk⟩, by rw [sub_self, abs_zero]; positivity⟩
    rw [hk, abs_mul, abs_of_pos (two_pos' _), show (-1022 : ℤ) = 52 + -1074 by norm_num, two_add,
      mul_lt_mul_iff_of_pos_right (two_pos' _)] at h1
    have : |k| < 2 ^ 52 := by exact_mod_cast h1
    omega
  · exact ieee_near (Or.inr ⟨h1, h⟩)

theorem float_multiple {x : ℝ} (h : IsFloat x) : ∃ k : ℤ, x = k * 2 ^ (-1074 : ℤ) := by
  obtain ⟨m, e, -, he, -, rfl⟩ := h
  refine ⟨m * 2 ^ (e + 1074).toNat, ?_⟩
  push_cast
  rw [← zpow_natCast, Int.toNat_of_nonneg (by omega), mul_assoc, ← two_add]
  congr 2
  omega

/-- C115: the arithmetic of the machine, with gradual underflow and overflow, meets the assumptions. -/
theorem C115_machine : Ieee .ieee (2 ^ (-53 : ℤ)) ∧ IeeePow (fun a b => ieee (a ^ b)) (2 ^ (-53 : ℤ)) := by
  refine ⟨⟨?_, ?_, fun a b _ _ n => ieee_near n, fun a b _ _ _ n => ieee_near n, ?_, fun a _ n => ieee_near n, fun a _ n => ieee_near n,
    fun q n => ieee_near n⟩, fun a b _ _ _ n => ieee_near n⟩
  · intro a b ha hb h
    obtain ⟨k, hk⟩ := float_multiple ha
    obtain ⟨n, hn⟩ := float_multiple hb
    exact ieee_near_sum h (k + n) (by rw [hk, hn]; push_cast; ring)
  · intro a b ha hb h
    obtain ⟨k, hk⟩ := float_multiple ha
    obtain ⟨n, hn⟩ := float_multiple hb
    exact ieee_near_sum h (k - n) (by rw [hk, hn]; push_cast; ring)
  · intro a ha h0
    refine ieee_near ?_
    obtain ⟨k, hk⟩ := float_multiple ha
    obtain ⟨m, e, hm, -, he, hx⟩ := ha
    rcases h0.eq_or_lt with h | h
    · left; rw [← h, Real.sqrt_zero]
    right
    rw [abs_of_nonneg (Real.sqrt_nonneg a)]
    have k1 : (1 : ℝ) ≤ k := by
      have : (0 : ℝ) < k := by
        rw [hk] at h
        exact pos_of_mul_pos_left h (two_pos' _).le
      exact_mod_cast this
    constructor
    · apply Real.le_sqrt_of_sq_le
      rw [← zpow_natCast, ← zpow_mul]
      have : (2 : ℝ) ^ (-1022 * ((2 : ℕ) : ℤ)) ≤ 2 ^ (-1074 : ℤ) := two_le (by norm_num)
      have q := mul_le_mul_of_nonneg_right k1 (two_pos' (-1074)).le
      rw [one_mul, ← hk] at q
      exact this.trans q
    · rw [Real.sqrt_lt' (two_pos' _), ← zpow_natCast, ← zpow_mul]
      have m1 : (m : ℝ) ≤ 2 ^ (53 : ℤ) := by
        have := (le_abs_self m).trans hm.le
        exact_mod_cast this
      have : (m : ℝ) * 2 ^ e ≤ 2 ^ (53 + e) := by
        rw [two_add]; exact mul_le_mul_of_nonneg_right m1 (two_pos' e).le
      rw [hx]
      exact this.trans_lt (two_lt (by push_cast; omega))

/-! ## The functions -/

/-- C115: for numbers of the usual sizes no operation of the formulas overflows or underflows: an arithmetic of which nothing is known
outside the normal range, and nothing for numbers that are not doubles, gives the same values and the same exceptions as one that has
small relative errors everywhere, for bending, shear, effective sections and the whole member capacity. -/
theorem C115_same {A : Arith ℝ} {pw : ℝ → ℝ → ℝ} {u : ℝ} (hA : Ieee A u) (hp : IeeePow pw u) (h0 : 0 ≤ u) (hu : u ≤ 1 / 2) :
    ∃ B pw', Rounded B u ∧ RoundedPow pw' u ∧ SameValues A B pw pw' :=
  ⟨A.patch, patchPow pw, patch_rounded hA h0, patchPow_rounded hp h0,
    { segment := fun _ hs M => segment_iff hA hu hs M
      web := fun _ _ _ _ _ _ h1 h2 h3 h4 h5 h6 v => web_iff hA hu h1.rg h2.rg h3.rg h4.rg h5.rg h6.rg v
      plate := fun _ _ _ _ _ h1 h2 h3 h4 h5 => (aPlate_w hA hu h1.rg h2.rg h3.rg h4.rg h5.rg).eq.symm
      tube := fun _ _ _ h1 h2 h3 => (dCHS_w hA hu h1.rg h2.rg h3.rg).eq.symm
      member := fun _ ha => (ncMember_eq hA hu hp ha).symm }⟩

/-- a power function is needed only for the member capacity -/
theorem pow_exists : ∃ pw : ℝ → ℝ → ℝ, ∀ u : ℝ, 2 ^ (-53 : ℤ) ≤ u → IeeePow pw u :=
  ⟨fun a b => ieee (a ^ b), fun _ hu a b ha hb h n =>
    let g := C115_machine.2 a b ha hb h n
    ⟨g.1, g.2.trans (mul_le_mul_of_nonneg_right hu (abs_nonneg _))⟩⟩

/-- C115: on the machine the shear capacity of a web has an error of at most `60 u` and the effective area of a plate one of `26 u`. -/
theorem C115_web {A : Arith ℝ} {u : ℝ} (hA : Ieee A u) (h0 : 2 ^ (-53 : ℤ) ≤ u) (hu : 60 * u ≤ 1) {dp tw fy lim fref ratio v : ℝ}
    (hd : Sized (-20) 20 dp) (ht : Sized (-20) 20 tw) (hf : Sized (-10) 40 fy) (hl : Sized (-10) 20 lim) (hr : Sized (-10) 40 fref)
    (hq : Sized (-10) 10 ratio) :
    (WebCapacity dp tw fy lim fref ratio v → ∃ v', WebComputed A dp tw fy lim fref ratio v' ∧ Within (60 * u) v' v) ∧
    (Effective.aPlate dp tw fy lim fref = .ok v → ∃ v', EffectiveR.aPlate A dp tw fy lim fref = .ok v' ∧ Within (26 * u) v' v) := by
  obtain ⟨pw, hpw⟩ := pow_exists
  have p53 : (0 : ℝ) < 2 ^ (-53 : ℤ) := by positivity
  obtain ⟨B, pw', hB, -, hS⟩ := C115_same hA (hpw u h0) (by linarith) (by linarith)
  constructor
  · intro h
    obtain ⟨v', c, w⟩ := C103_web hB hu hd.rg.sgn ht.rg.sgn hf.rg.sgn hl.rg.sgn hr.rg.sgn hq.rg.sgn h
    exact ⟨v', (hS.web _ _ _ _ _ _ hd ht hf hl hr hq v').2 c, w⟩
  · intro h
    obtain ⟨v', c, w⟩ := (C113_plate hB (by linarith) hd.rg.sgn ht.rg.sgn hf.rg.sgn hl.rg.sgn hr.rg.sgn).2.2 v h
    exact ⟨v', (hS.plate _ _ _ _ _ hd ht hf hl hr).trans c, w⟩

/-- C115: on the machine segments with `β_x ≥ 0` and `M_s ≤ 10 M_o` have bending capacities with a relative error below `10^-9`. -/
theorem C115_bending (v : S5.PyVersion) {A : Arith ℝ} {u : ℝ} (hA : Ieee A u) (h0 : 2 ^ (-53 : ℤ) ≤ u) (hu : u ≤ 2 ^ (-52 : ℤ))
    {s : Segment} (hs : s.Positive) (hr : s.InRange) {k Mo a M : ℝ} (hk : S5.kt v s.d1 s.l s.tf s.tw s.nw (.code s.code) = .ok k)
    (hMo : S5.Mo (S5.le k s.kl s.kr s.l) s.Iy s.J s.Iw s.betaX s.E s.G = .ok Mo)
    (ha : S5.alphaS (S5.Ms s.fy s.Ze) Mo = .ok a) (hM : M = S5.Mb (S5.Ms s.fy s.Ze) s.alphaM a) (hb : 0 ≤ s.betaX)
    (hx : S5.Ms s.fy s.Ze ≤ 10 * Mo) :
    ∃ M', s.Computed A M' ∧ |M' - M| ≤ 1 / 10 ^ 9 * M := by
  obtain ⟨pw, hpw⟩ := pow_exists
  have p53 : (0 : ℝ) < 2 ^ (-53 : ℤ) := by positivity
  have u2 : u ≤ 1 / 10 ^ 15 := hu.trans (by norm_num)
  obtain ⟨B, pw', hB, -, hS⟩ := C115_same hA (hpw u h0) (by linarith) (by linarith)
  have pS : 0 < S5.Ms s.fy s.Ze := mul_pos hs.fy hs.Ze
  have pMo : 0 < Mo := by linarith
  have hq : (S5.Ms s.fy s.Ze / Mo) ^ 2 ≤ 100 := by
    have h1 : S5.Ms s.fy s.Ze / Mo ≤ 10 := by rwa [div_le_iff₀ pMo]
    have h2 : 0 ≤ S5.Ms s.fy s.Ze / Mo := by positivity
    nlinarith
  have hc : 7000 * u * (1 + 2 * 0) * (1 + (S5.Ms s.fy s.Ze / Mo) ^ 2) ≤ 1 / 10 ^ 9 := by
    have : 7000 * u * (1 + 2 * 0) * (1 + (S5.Ms s.fy s.Ze / Mo) ^ 2) ≤ 7000 * u * (1 + 2 * 0) * 101 :=
      mul_le_mul_of_nonneg_left (by linarith) (by linarith)
    linarith
  obtain ⟨M', h1, h2, h3⟩ := C102_bending_partial v hB hs hk hMo ha hM le_rfl (fun h => absurd hb (not_le.2 h)) (hc.trans (by norm_num))
  exact ⟨M', (hS.segment s hr M').2 h1, h3.trans (mul_le_mul_of_nonneg_right hc h2.le)⟩

/-- C115: on the machine every number of the dictionary of the member capacity has an error of at most 10⁻⁶ for the usual members of
C114. -/
theorem C115_member {A : Arith ℝ} {pw : ℝ → ℝ → ℝ} {u : ℝ} (hA : Ieee A u) (hp : IeeePow pw u) (h0 : 0 ≤ u) (hu : u ≤ 2 ^ (-52 : ℤ))
    {a : S6.NcArgs} (ha : Args.Sensible a) {k : S6R.Sym} (hr : Args.InRange (Args.of a k)) (hk : Sym.Of a.sym k)
    {f : S6.Foxz} (hf : Foxz.Of a.member f k) (hb : 1 / 10 ≤ f.beta)
    (hx : 0 < f.fox) (h1 : f.fox ≤ 100 * f.foz) (h2 : f.foz ≤ 100 * f.fox)
    (h3 : f.beta ≤ 99 / 100 ∨ (f.fox + f.foz) / 10 ≤ |f.fox - f.foz|) {roots : S6.Roots}
    (hcx : ∀ c, S6.NcFlexural a.An a.kf (S6.le a.l a.kex) a.rx a.fy a.fref a.alphaB = .ok c → 27 / 2 ≤ c.lambdaN ∧ c.lambdaN ≤ 1000)
    (hcy : ∀ c, S6.NcFlexural a.An a.kf (S6.le a.l a.key) a.ry a.fy a.fref a.alphaB = .ok c → 27 / 2 ≤ c.lambdaN ∧ c.lambdaN ≤ 1000)
    (hl : ∀ t, S6.NcTorsion roots a.member a.kf a.fy a.sym a.uncertainty = .ok t → 1 / 10 ^ 6 ≤ |t.lambdaC - 3 / 2|)
    {r : S6.NcResult} (h : S6.Nc roots a = .ok r) :
    ∃ r', S6R.Nc A pw (Args.of a k) = .ok r' ∧ ResultWithin (1 / 10 ^ 6) r' r := by
  have u2 : u ≤ 1 / 10 ^ 15 := hu.trans (by norm_num)
  obtain ⟨B, pw', hB, hpB, hS⟩ := C115_same hA hp h0 (by linarith)
  have hpB' : RoundedPow pw' (2 * u) := fun x y hxp =>
    (hpB x y hxp).trans (mul_le_mul_of_nonneg_right (by linarith) (Real.rpow_pos_of_pos hxp y).le)
  obtain ⟨r', e, w⟩ := member_usual hB hu hpB' ha hk hf hb hx h1 h2 h3 hcx hcy (ε := 1 / 10 ^ 6) (by linarith) (by norm_num) hl h
  exact ⟨r', (hS.member _ hr).trans e, w⟩

/-- C115 needs the sizes: for a length of `2 ^ -600` the square of the length underflows and `s5_6_1_M_o` raises `ZeroDivisionError`,
though the formula has a value. -/
theorem C115_counterexample : S5R.Mo Arith.binary64 (2 ^ (-600 : ℤ)) 1 1 0 0 200000000000 80000000000 = .error .zeroDivision ∧
    ∃ m, S5.Mo (2 ^ (-600 : ℤ)) 1 1 0 0 200000000000 80000000000 = .ok m ∧ 0 < m := by
  refine ⟨by decide +kernel, ?_⟩
  have := Mo_ok (le := 2 ^ (-600 : ℤ)) (Iy := 1) (J := 1) (Iw := 0) (betaX := 0) (E := 200000000000) (G := 80000000000)
    (by positivity) (by norm_num) (by norm_num) (by norm_num) (by norm_num) (by norm_num)
  exact ⟨_, this, moForm_pos _ (by have := piD_pos; positivity) (by have := piD_pos; positivity)⟩

/-! ## Examples -/

theorem sized_nat (n : ℕ) {l h : ℤ} (hn : n < 2 ^ 53 := by norm_num) (h0 : (2 : ℝ) ^ l ≤ n := by norm_num)
    (h1 : (n : ℝ) ≤ 2 ^ h := by norm_num) : Sized l h (n : ℝ) :=
  ⟨(Rg.nat n l h hn h0 h1).flt, h0, h1⟩

theorem sized_dyadic (m : ℕ) (e : ℕ) {x : ℝ} {l h : ℤ} (hx : x = m / 2 ^ e) (hm : m < 2 ^ 53 := by norm_num) (he : e ≤ 1074 := by norm_num)
    (h0 : (2 : ℝ) ^ l ≤ x := by norm_num) (h1 : x ≤ 2 ^ h := by norm_num) : Sized l h x := by
  refine ⟨⟨m, -e, ?_, by omega, by omega, ?_⟩, h0, h1⟩
  · rw [abs_of_nonneg (by positivity)]; exact_mod_cast hm
  · rw [hx, zpow_neg, zpow_natCast]; push_cast; rw [div_eq_mul_inv]

/-- a channel with dyadic numbers -/
noncomputable def dyadicChannel : Member where
  An := 1 / 256
  lex := 8
  ley := 4
  lez := 4
  rx := 1 / 16
  ry := 1 / 32
  xo := 5 / 128
  yo := 0
  J := 1 / 2 ^ 23
  Iw := 1 / 2 ^ 30
  E := 200000000000
  G := 80000000000

noncomputable def dyadicCall : S6.NcArgs :=
  ⟨1 / 256, 1, 4, 2, 1, 1, 1 / 16, 1 / 32, 5 / 128, 0, 1 / 2 ^ 23, 1 / 2 ^ 30, 350000000, 200000000000, 80000000000, ⟨some [.str "x"]⟩,
    250000000, 0, 1, 15 / 16, true, true⟩

theorem dyadicCall_inRange : Args.InRange (Args.of dyadicCall (.single true)) where
  An := sized_dyadic 1 8 (by norm_num [Args.of, dyadicCall]) (h0 := by norm_num [Args.of, dyadicCall]) (h1 := by norm_num [Args.of, dyadicCall])
  kf := by simpa [Args.of, dyadicCall] using (sized_nat 1 : Sized (-10) 1 _)
  l := by simpa [Args.of, dyadicCall] using (sized_nat 4 : Sized (-20) 20 _)
  kex := by simpa [Args.of, dyadicCall] using (sized_nat 2 : Sized (-10) 10 _)
  key := by simpa [Args.of, dyadicCall] using (sized_nat 1 : Sized (-10) 10 _)
  kez := by simpa [Args.of, dyadicCall] using (sized_nat 1 : Sized (-10) 10 _)
  rx := sized_dyadic 1 4 (by norm_num [Args.of, dyadicCall]) (h0 := by norm_num [Args.of, dyadicCall]) (h1 := by norm_num [Args.of, dyadicCall])
  ry := sized_dyadic 1 5 (by norm_num [Args.of, dyadicCall]) (h0 := by norm_num [Args.of, dyadicCall]) (h1 := by norm_num [Args.of, dyadicCall])
  xo := by
    have : Sized (-60) 20 (5 / 128 : ℝ) := sized_dyadic 5 7 (by norm_num)
    exact ⟨this.1, this.rg.size⟩
  yo := ⟨⟨0, 0, by norm_num, by norm_num, by norm_num, by simp [Args.of, dyadicCall]⟩, Or.inl rfl⟩
  J := sized_dyadic 1 23 (by norm_num [Args.of, dyadicCall]) (h0 := by norm_num [Args.of, dyadicCall]) (h1 := by norm_num [Args.of, dyadicCall])
  Iw := by
    have : Sized (-80) 80 (1 / 2 ^ 30 : ℝ) := sized_dyadic 1 30 (by norm_num)
    exact ⟨⟨this.1, this.rg.size⟩, by norm_num [Args.of, dyadicCall]⟩
  fy := by simpa [Args.of, dyadicCall] using (sized_nat 350000000 : Sized (-10) 40 _)
  E := by simpa [Args.of, dyadicCall] using (sized_nat 200000000000 : Sized (-10) 40 _)
  G := by simpa [Args.of, dyadicCall] using (sized_nat 80000000000 : Sized (-10) 40 _)
  fref := by simpa [Args.of, dyadicCall] using (sized_nat 250000000 : Sized (-10) 40 _)
  alphaB := ⟨⟨0, 0, by norm_num, by norm_num, by norm_num, by simp [Args.of, dyadicCall]⟩, Or.inl rfl⟩
  uncertainty := by simpa [Args.of, dyadicCall] using (sized_nat 1 : Sized (-10) 10 _)
  phi := sized_dyadic 15 4 (by norm_num [Args.of, dyadicCall]) (h0 := by norm_num [Args.of, dyadicCall]) (h1 := by norm_num [Args.of, dyadicCall])
  slenderX := by norm_num [Args.of, dyadicCall]
  slenderY := by norm_num [Args.of, dyadicCall]
  grade := by norm_num [Args.of, dyadicCall]

/-- the hypotheses are met by the channel in steel of 350 MPa, on the machine -/
example (roots : S6.Roots) : ∃ r r', S6.Nc roots dyadicCall = .ok r ∧
    S6R.Nc .ieee (fun a b => ieee (a ^ b)) (Args.of dyadicCall (.single true)) = .ok r' ∧ ResultWithin (1 / 10 ^ 6) r' r := by
  have em : dyadicCall.member = dyadicChannel := by
    simp only [S6.NcArgs.member, dyadicCall, dyadicChannel, S6.le]
    norm_num
  have ha : Args.Sensible dyadicCall := by constructor <;> norm_num [dyadicCall]
  have hm : dyadicChannel.Positive := by constructor <;> norm_num [dyadicChannel]
  have hk : Sym.Of dyadicCall.sym (.single true) := rfl
  obtain ⟨f, e, ex, ez, p, px, -, -, -⟩ := C52_foxz (ry := dyadicChannel.ry) (xo := dyadicChannel.xo) (yo := dyadicChannel.yo) hm.An hm.lex hm.lez
    hm.rx hm.J hm.Iw hm.E hm.G
  have hfoc : S6.foc roots dyadicChannel ⟨some [.str "x"]⟩ = .ok f.foxz := by
    simp [S6.foc, Symmetry.symmetry, Symmetry.symcount, S6.focSingle, Axis.isStr, e, Except.bind_ok', pure, Except.pure]
  obtain ⟨t, ht, -, hc, -⟩ := C53_capacity (kf := 1) (unc := 1) (show (0 : ℝ) < 350000000 by norm_num) hfoc p
  rw [fEuler_ok hm.rx.ne' hm.lex.ne', Except.ok_inj'] at ex
  rw [fEulerTorsion_ok hm.An hm.lez hm.rx hm.J hm.G, Except.ok_inj'] at ez
  have hb := (foxz_shape hm.rx e).1
  rw [div_pow, Real.sq_sqrt (roSq_pos _ _ _ hm.rx).le] at hb
  simp only [dyadicChannel, roSq, piD] at ex ez hb
  norm_num at ex ez hb
  rw [columnCurve_ok (by norm_num) p, Except.ok_inj', Prod.mk.injEq] at hc
  have hl : 16 / 10 < t.lambdaC := by
    rw [← hc.1, Real.lt_sqrt (by norm_num), lt_div_iff₀ p]
    have : f.fox < 125000000 := by rw [← ex]; norm_num
    linarith
  have g1 : (1 : ℝ) ≤ √(350000000 / 250000000) := Real.one_le_sqrt.2 (by norm_num)
  have g2 : √(350000000 / 250000000 : ℝ) ≤ 2 := Real.sqrt_le_iff.2 ⟨by norm_num, by norm_num⟩
  have col : ∀ ke r : ℝ, 0 < r → 0 < ke → (∃ x, S6.NcFlexural (1 / 256) 1 (S6.le 4 ke) r 350000000 250000000 0 = .ok x) := by
    intro ke r hr hke
    refine NcFlexural_ok (by norm_num) hr.ne' (by norm_num) (by norm_num) ?_
    unfold lamOf S6.le
    rw [mul_zero, add_zero, Real.sqrt_one]
    positivity
  have rng : ∀ ke r : ℝ, 20 ≤ 4 * ke / r → 4 * ke / r ≤ 400 → 0 < r →
      ∀ x, S6.NcFlexural (1 / 256) 1 (S6.le 4 ke) r 350000000 250000000 0 = .ok x → 27 / 2 ≤ x.lambdaN ∧ x.lambdaN ≤ 1000 := by
    intro ke r h1 h2 hr x hx
    obtain ⟨-, hln, -⟩ := NcFlexural_inv (by norm_num) hr.ne' (by norm_num) (by norm_num) hx
    rw [hln, Real.sqrt_one, mul_one]
    unfold S6.le
    constructor <;> nlinarith
  obtain ⟨x, hx⟩ := col 2 (1 / 16) (by norm_num) (by norm_num)
  obtain ⟨y, hy⟩ := col 1 (1 / 32) (by norm_num) (by norm_num)
  have hN : ∃ r, S6.Nc roots dyadicCall = .ok r := by
    have e1 : S6.NcFlexural dyadicCall.An dyadicCall.kf (S6.le dyadicCall.l dyadicCall.kex) dyadicCall.rx dyadicCall.fy
      dyadicCall.fref dyadicCall.alphaB = .ok x := hx
    have e2 : S6.NcFlexural dyadicCall.An dyadicCall.kf (S6.le dyadicCall.l dyadicCall.key) dyadicCall.ry dyadicCall.fy
      dyadicCall.fref dyadicCall.alphaB = .ok y := hy
    have e3 : S6.NcTorsion roots dyadicCall.member dyadicCall.kf dyadicCall.fy dyadicCall.sym dyadicCall.uncertainty = .ok t := by
      rw [em]; exact ht
    have e4 : dyadicCall.calcBuckling = true := rfl
    have e5 : dyadicCall.calcTorsion = true := rfl
    simp only [S6.Nc, e4, e5, e1, e2, e3, Except.bind_ok', if_true]
    exact ⟨_, rfl⟩
  obtain ⟨r, hr⟩ := hN
  obtain ⟨r', e', w⟩ := C115_member C115_machine.1 C115_machine.2 (by positivity) (by norm_num) ha dyadicCall_inRange hk (f := f)
    (by rw [em]; exact e) (by rw [hb]; norm_num)
    (by rw [← ex]; norm_num) (by rw [← ex, ← ez]; norm_num) (by rw [← ex, ← ez]; norm_num) (Or.inl (by rw [hb]; norm_num)) (roots := roots)
    (rng 2 (1 / 16) (by norm_num) (by norm_num) (by norm_num)) (rng 1 (1 / 32) (by norm_num) (by norm_num) (by norm_num))
    (fun t' h' => by
      rw [em] at h'
      have : t' = t := Except.ok_inj'.1 (h'.symm.trans ht)
      rw [this, abs_of_pos (by linarith)]
      norm_num
      linarith) hr
  exact ⟨r, r', hr, e', w⟩

/-- a 1 m × 8 mm web -/
example : Sized (-20) 20 (1 : ℝ) ∧ Sized (-20) 20 (1 / 128 : ℝ) ∧ Sized (-10) 40 (250000000 : ℝ) ∧ Sized (-10) 20 (82 : ℝ) ∧
    Sized (-10) 10 (5 / 8 : ℝ) :=
  ⟨by simpa using (sized_nat 1 : Sized (-20) 20 _), sized_dyadic 1 7 (by norm_num), sized_nat 250000000, sized_nat 82,
    sized_dyadic 5 3 (by norm_num)⟩

end BeamDesign
