import Verif.Props.Anywhere
import Verif.Props.Util64
import Verif.Spec.Sound64

/-!
# C141: a design that passes on IEEE doubles, with loads of any size
-/

set_option linter.unusedSectionVars false

namespace BeamDesign

open Spec

theorem utilNum_zero {cap t : ℚ} (h : t ≤ 0) : F64.utilNum cap t = .ok 0 := by
  unfold F64.utilNum F64.utilOne
  rw [le_fin, decide_eq_true h]
  rfl

/-- A utilisation that is found bounds the tension. -/
theorem sound_one64 {n cap w v X N : ℚ} (hF : IsDouble n) (hFc : IsDouble cap) (hw : F64.utilNum cap (max n 0) = .ok w)
    (hwv : w ≤ v) (hX : (2 ^ (-100 : ℤ)) ^ 6 ≤ X) (hcap : |cap - X| ≤ 62 / 10 * 2 ^ (-53 : ℤ) * X) (hN : X ≤ N) :
    0 ≤ v ∧ n ≤ v * (1 + 2 ^ (-42 : ℤ)) * N := by
  have hX0 : 0 < X := lt_of_lt_of_le (pow_pos (two_zpow_pos _) _) hX
  have hN0 : 0 < N := hX0.trans_le hN
  obtain ⟨c1, c2⟩ := abs_le.1 hcap
  norm_num at c1 c2
  have hc0 : 0 < cap := by linarith
  rcases le_or_gt n 0 with h0 | h0
  · rw [max_eq_right h0, utilNum_zero le_rfl] at hw
    cases hw
    exact ⟨hwv, h0.trans (mul_nonneg (mul_nonneg hwv (by positivity)) hN0.le)⟩
  · rw [max_eq_left h0.le] at hw
    have hlo : (2 : ℚ) ^ (-900 : ℤ) ≤ cap := by
      have h1 : (2 : ℚ) ^ (-900 : ℤ) * 2 ≤ X := by
        refine le_trans ?_ hX
        rw [← zpow_natCast, ← zpow_mul, ← zpow_add_one₀ (by norm_num)]
        exact zpow_le_zpow_right₀ (by norm_num) (by norm_num)
      generalize (2 : ℚ) ^ (-900 : ℤ) = z at h1 ⊢
      clear hX
      linarith
    rcases utilNum_cases hF hFc hlo h0 with ⟨-, w', hw', hnear⟩ | ⟨he, -⟩
    · rw [hw] at hw'
      cases hw'
      clear hX hlo
      obtain ⟨d1, -⟩ := abs_le.1 hnear
      have hq : 0 < n / cap := div_pos h0 hc0
      have h1 : n / cap * (1 - 2 ^ (-43 : ℤ)) ≤ v := by norm_num at d1 ⊢; linarith
      have hv0 : 0 < v := lt_of_lt_of_le (mul_pos hq (by norm_num)) h1
      refine ⟨hv0.le, ?_⟩
      rw [div_mul_eq_mul_div, div_le_iff₀ hc0] at h1
      have h2 : v * cap ≤ v * ((1 + 7 * 2 ^ (-53 : ℤ)) * N) := by
        refine mul_le_mul_of_nonneg_left ?_ hv0.le
        norm_num
        linarith
      have h3 : 0 < v * N := mul_pos hv0 hN0
      norm_num at h1 h2 ⊢
      nlinarith
    · rw [hw] at he
      cases he

/-- C141: on doubles that overflow, with infinities and nan, on a beam whose element ends are doubles, with loads of any size stored
on the grid of doubles, in the first load case and in every load case whose stations are among its stations: the true axial load is
nowhere above `1 + 2 ^ -42` times the overall utilisation times the true design capacity. -/
theorem C141_grid (o : AS4100 ℚ) (b : Beam ℚ (Sect ℚ)) (hb : o.beam = some b) (ha : Aligned o)
    (ls : List (Num ℚ)) (h : HasLengths b ls) (hls : ls ≠ []) (hm : Marks rnd64 ls) (n : ℕ) (hn : o.assessmentPoints = n)
    (hd : UsualData IsDouble (2 ^ (-100 : ℤ)) o)
    (loadCase : CaseArg) (c : ℤ) (cs : List ℤ) (hcs : CasesOf o loadCase (c :: cs))
    (hc : ∀ k ∈ c :: cs, LoadedFloat b k) (v : ℚ) (hv : o.tensionUtilisation64 loadCase .none = .ok v)
    (k : ℤ) (hk : k ∈ c :: cs) (hst : StationsOf b c k) (hgl : LoadsOnGrid rnd64 IsDouble b ls k) :
    TrulyNowhereAbove o b k (v * (1 + 2 ^ (-42 : ℤ))) := by
  rintro i t e d C x a ht he hes hC - - hax
  obtain ⟨r, hr, har⟩ := axialAt_le hax
  have hgrid := hgl.2 i t r ht hr
  have hi : i < ls.length := by
    rw [← hasLengths_length h]
    exact (List.getElem?_eq_some_iff.1 he).1
  have hl : ls[i]? = some ls[i] := List.getElem?_eq_getElem hi
  obtain ⟨hin, cap, w, hcap, hw, hwv⟩ := fcovers C83_binary64_rounds binary64_sortOK hb h hm hn hcs hc hv hk hst hl ht hr hgrid
  set q := startOf ls i + r.pos * (ls[i]).val with hq
  obtain ⟨cap', M, h1, h2, h3, h4, h5⟩ := C85_capacity C83_binary64_rounds C78_binary64_rounds (two_zpow_pos _).le
    (by norm_num) (two_zpow_pos _) (by norm_num) underflow_small piD_double o b hb ha ls h hls hm hd (.scalar (Num.flt q)) [q]
    (Or.inl ⟨_, rfl, rfl⟩) (by simp) (by simpa using inElement_range h.2 hin)
  rw [hcap] at h1
  cases h1
  obtain ⟨N, hN⟩ := trueCapacity_section hC
  have hphi : 0 ≤ o.phiSteel := (two_zpow_pos _).le.trans hd.1.2
  have hMN : o.phiSteel * M ≤ o.phiSteel * N :=
    mul_le_mul_of_nonneg_left (h3.2 ⟨q, by simp, d, ⟨i, e, hin, he, hes⟩, hN⟩) hphi
  have hX0 : (0 : ℚ) < o.phiSteel * M := lt_of_lt_of_le (pow_pos (two_zpow_pos _) _) h5
  obtain ⟨k1, -⟩ := pi_ratio
  obtain ⟨hv0, hmain⟩ := sound_one64 ((hgl.1 i t ht r hr).2 .N) h2 hw hwv h5 h4 hMN
  have hr' : (a : ℝ) ≤ (v * (1 + 2 ^ (-42 : ℤ)) * (o.phiSteel * N) : ℚ) := by exact_mod_cast har.trans hmain
  refine hr'.trans ?_
  rw [trueCapacity_eq hN hC]
  have h0 : (0 : ℝ) < ((o.phiSteel * N : ℚ) : ℝ) := by exact_mod_cast hX0.trans_le hMN
  have h6 : ((o.phiSteel * N : ℚ) : ℝ) ≤ Real.pi / ((piD : ℚ) : ℝ) * ((o.phiSteel * N : ℚ) : ℝ) := le_mul_of_one_le_left h0.le k1
  have hv0' : (0 : ℝ) ≤ v := by exact_mod_cast hv0
  rw [Rat.cast_mul]
  push_cast at h6 ⊢
  exact mul_le_mul_of_nonneg_left h6 (by positivity)

/-- C141: the same with loads up to any `W` stored at any positions that are at least `g` apart, on elements not shorter than the
beam divided by `R`: the true axial load is nowhere above that by more than `2 ^ -49 * W * (1 + R / g)` and two steps of underflow. -/
theorem C141_anywhere (o : AS4100 ℚ) (b : Beam ℚ (Sect ℚ)) (hb : o.beam = some b) (ha : Aligned o)
    (ls : List (Num ℚ)) (h : HasLengths b ls) (hls : ls ≠ []) (hm : Marks rnd64 ls) (R : ℚ) (hR : NotTiny ls R)
    (n : ℕ) (hn : o.assessmentPoints = n) (hd : UsualData IsDouble (2 ^ (-100 : ℤ)) o)
    (loadCase : CaseArg) (c : ℤ) (cs : List ℤ) (hcs : CasesOf o loadCase (c :: cs))
    (hc : ∀ k ∈ c :: cs, LoadedFloat b k) (v : ℚ) (hv : o.tensionUtilisation64 loadCase .none = .ok v)
    (k : ℤ) (hk : k ∈ c :: cs) (hst : StationsOf b c k) (hml : MachineLoads IsDouble b k)
    (g W : ℚ) (hg : 0 < g) (hgl : GentleLoads b k g W) :
    TrulyNowhereAboveBy o b k (v * (1 + 2 ^ (-42 : ℤ))) (2 ^ (-49 : ℤ) * W * (1 + R / g) + 2 ^ (-1073 : ℤ)) := by
  rintro i t e d C x a ht he hes hC - - hax
  obtain ⟨r, hr, har⟩ := axialAt_le hax
  have hi : i < ls.length := by
    rw [← hasLengths_length h]
    exact (List.getElem?_eq_some_iff.1 he).1
  have hl : ls[i]? = some ls[i] := List.getElem?_eq_getElem hi
  obtain ⟨hp, hW⟩ := hgl i t ht
  have hW0 : 0 ≤ W := (abs_nonneg _).trans (hW r hr)
  obtain ⟨X, hX⟩ : ∃ X, X = rnd64 (startOf ls i + rnd64 (r.pos * (ls[i]).val)) := ⟨_, rfl⟩
  obtain ⟨q, hq⟩ : ∃ q, q = rnd64 (rnd64 (X - startOf ls i) / (ls[i]).val) := ⟨_, rfl⟩
  obtain ⟨hin, m, cap, w, hcap, hmF, hmW, hmr, hw, hwv⟩ := anywhere_covers hb h hm hn hcs hc hv hk hst hl ht hr (hml i t ht) hg hp
    hW hX hq
  obtain ⟨x0, x1⟩ := (by obtain ⟨-, -, -, hwf, -⟩ := id ht; exact hwf.2 r hr : 0 ≤ r.pos ∧ r.pos ≤ 1)
  have hdrift := local_drift hm h.2 hR hl x0 x1 hX hq
  obtain ⟨cap', M, h1, h2, h3, h4, h5⟩ := C85_capacity C83_binary64_rounds C78_binary64_rounds (two_zpow_pos _).le
    (by norm_num) (two_zpow_pos _) (by norm_num) underflow_small piD_double o b hb ha ls h hls hm hd (.scalar (Num.flt X)) [X]
    (Or.inl ⟨_, rfl, rfl⟩) (by simp) (by simpa using inElement_range h.2 hin)
  rw [hcap] at h1
  cases h1
  obtain ⟨N, hN⟩ := trueCapacity_section hC
  have hphi : 0 ≤ o.phiSteel := (two_zpow_pos _).le.trans hd.1.2
  have hMN : o.phiSteel * M ≤ o.phiSteel * N :=
    mul_le_mul_of_nonneg_left (h3.2 ⟨X, by simp, d, ⟨i, e, hin, he, hes⟩, hN⟩) hphi
  have hX0 : (0 : ℚ) < o.phiSteel * M := lt_of_lt_of_le (pow_pos (two_zpow_pos _) _) h5
  obtain ⟨k1, -⟩ := pi_ratio
  obtain ⟨hv0, hmain⟩ := sound_one64 hmF h2 hw hwv h5 h4 hMN
  have hrm : r.n ≤ m + (2 ^ (-49 : ℤ) * W * (1 + R / g) + 2 ^ (-1073 : ℤ)) := by
    generalize (2 : ℚ) ^ (-1073 : ℤ) = τ at hmr ⊢
    have h6 : 2 * W / g * |q - r.pos| ≤ 2 * W / g * (8 * 2 ^ (-53 : ℤ) * R) :=
      mul_le_mul_of_nonneg_left hdrift (by positivity)
    have h7 : 2 * W / g * (8 * 2 ^ (-53 : ℤ) * R) = 2 ^ (-49 : ℤ) * W * (R / g) := by norm_num; ring
    have h8 := (abs_le.1 hmr).1
    clear h5
    rw [mul_add, mul_one]
    linarith
  have hr' : (a : ℝ) ≤ (v * (1 + 2 ^ (-42 : ℤ)) * (o.phiSteel * N) + (2 ^ (-49 : ℤ) * W * (1 + R / g) + 2 ^ (-1073 : ℤ)) : ℚ) := by
    exact_mod_cast har.trans (hrm.trans (add_le_add hmain le_rfl))
  refine hr'.trans ?_
  rw [trueCapacity_eq hN hC]
  have h0 : (0 : ℝ) < ((o.phiSteel * N : ℚ) : ℝ) := by exact_mod_cast hX0.trans_le hMN
  have h6 : ((o.phiSteel * N : ℚ) : ℝ) ≤ Real.pi / ((piD : ℚ) : ℝ) * ((o.phiSteel * N : ℚ) : ℝ) := le_mul_of_one_le_left h0.le k1
  have hv0' : (0 : ℝ) ≤ v := by exact_mod_cast hv0
  rw [Rat.cast_add, Rat.cast_mul]
  push_cast at h6 ⊢
  refine add_le_add (mul_le_mul_of_nonneg_left h6 (by positivity)) le_rfl

/-- C141: a utilisation of at most 1 means that no element is overloaded anywhere in the load case, by more than rounding. -/
theorem C141_passes (o : AS4100 ℚ) (b : Beam ℚ (Sect ℚ)) (hb : o.beam = some b) (ha : Aligned o)
    (ls : List (Num ℚ)) (h : HasLengths b ls) (hls : ls ≠ []) (hm : Marks rnd64 ls) (R : ℚ) (hR : NotTiny ls R)
    (n : ℕ) (hn : o.assessmentPoints = n) (hd : UsualData IsDouble (2 ^ (-100 : ℤ)) o) (c : ℤ) (hc : LoadedFloat b c)
    (hml : MachineLoads IsDouble b c) (g W : ℚ) (hg : 0 < g) (hgl : GentleLoads b c g W)
    (v : ℚ) (hv : o.tensionUtilisation64 (.one c) .none = .ok v) (hv1 : v ≤ 1) :
    TrulyNowhereAboveBy o b c (1 + 2 ^ (-42 : ℤ)) (2 ^ (-49 : ℤ) * W * (1 + R / g) + 2 ^ (-1073 : ℤ)) := by
  have hmain := C141_anywhere o b hb ha ls h hls hm R hR n hn hd (.one c) c [] (Or.inr (Or.inl ⟨c, rfl, rfl⟩))
    (by simpa using hc) v hv c List.mem_cons_self (fun i t r ht hr => ⟨t, r, ht, hr, rfl⟩) hml g W hg hgl
  intro i t e d C x a ht he hes hC h0 h1 hax
  have hi : i < ls.length := by
    rw [← hasLengths_length h]
    exact (List.getElem?_eq_some_iff.1 he).1
  have hC0 : 0 ≤ C := (trueCapacity_pos (two_zpow_pos _) hd (atPosition_mem hb ha (ls := ls) (p := startOf ls i)
    ⟨i, e, ⟨hi, le_rfl, startOf_mono h.2 (Nat.le_succ i)⟩, he, hes⟩) hC).le
  refine (hmain i t e d C x a ht he hes hC h0 h1 hax).trans ?_
  refine add_le_add (mul_le_mul_of_nonneg_right ?_ hC0) le_rfl
  exact mul_le_of_le_one_left (by positivity) (by exact_mod_cast hv1)

/-- C141: a utilisation of zero means that there is no tension anywhere on the beam, with loads on the grid. -/
theorem C141_zero (o : AS4100 ℚ) (b : Beam ℚ (Sect ℚ)) (hb : o.beam = some b) (ha : Aligned o)
    (ls : List (Num ℚ)) (h : HasLengths b ls) (hls : ls ≠ []) (hm : Marks rnd64 ls) (n : ℕ) (hn : o.assessmentPoints = n)
    (hd : UsualData IsDouble (2 ^ (-100 : ℤ)) o) (c : ℤ) (hc : LoadedFloat b c) (hgl : LoadsOnGrid rnd64 IsDouble b ls c)
    (hv : o.tensionUtilisation64 (.one c) .none = .ok 0) :
    TrulyNowhereAbove o b c 0 := by
  have hmain := C141_grid o b hb ha ls h hls hm n hn hd (.one c) c [] (Or.inr (Or.inl ⟨c, rfl, rfl⟩))
    (by simpa using hc) 0 hv c List.mem_cons_self (fun i t r ht hr => ⟨t, r, ht, hr, rfl⟩) hgl
  simpa using hmain

/-! ## Cases meeting the hypotheses -/

/-- C141, concretely: the rods of C135, whose loads are not stored on the grid, pass, so they are nowhere overloaded by more than a
millionth. -/
example : TrulyNowhereAboveBy gentleObj gentleBeam 1 (1 + 2 ^ (-42 : ℤ)) (1 / 10 ^ 6) := by
  have h : (match gentleObj.tensionUtilisationWith F64.utilNum Rt.fast64 (.one 1) .none with
    | .ok v => decide (v ≤ 1) | .error _ => false) = true := by decide +kernel
  split at h
  next v hv =>
    rw [← binary64_eq] at hv
    have := C141_passes gentleObj gentleBeam rfl (.cons ⟨rfl, rfl⟩ (.cons ⟨rfl, rfl⟩ .nil)) pairLens
      ⟨.cons rfl (.cons rfl .nil), by decide +kernel⟩ (by simp [pairLens]) pair_marks 5 gentle_notTiny 20 rfl
      pairObj_usual 1 gentle_loaded gentle_machine (1/20) 60000 (by norm_num) gentle_gentle v hv (of_decide_eq_true h)
    intro i t e d C x a h1 h2 h3 h4 h5 h6 h7
    refine (this i t e d C x a h1 h2 h3 h4 h5 h6 h7).trans (add_le_add le_rfl ?_)
    have : (2 : ℝ) ^ (-1073 : ℤ) ≤ 2 ^ (-100 : ℤ) := zpow_le_zpow_right₀ (by norm_num) (by norm_num)
    generalize (2 : ℝ) ^ (-1073 : ℤ) = z at *
    norm_num at this ⊢
    linarith
  next => cases h

/-- The two rods of C86, with loads on the grid, pass as well. -/
example : TrulyNowhereAbove pairObj pairBeam 1 (1 + 2 ^ (-42 : ℤ)) := by
  have h : (match pairObj.tensionUtilisationWith F64.utilNum Rt.fast64 (.one 1) .none with
    | .ok v => decide (v ≤ 1) && decide (0 ≤ v) | .error _ => false) = true := by decide +kernel
  split at h
  next v hv =>
    rw [← binary64_eq] at hv
    obtain ⟨h1, h0⟩ := (Bool.and_eq_true _ _).mp h
    have hv1 : (v : ℝ) ≤ 1 := by exact_mod_cast of_decide_eq_true h1
    have := C141_grid pairObj pairBeam rfl pairObj_aligned pairLens pairBeam_lens (by simp [pairLens]) pair_marks 20 rfl pairObj_usual
      (.one 1) 1 [] (Or.inr (Or.inl ⟨1, rfl, rfl⟩)) (by simpa using pair_loaded) v hv 1 List.mem_cons_self
      (fun i t r ht hr => ⟨t, r, ht, hr, rfl⟩) ⟨pair_grid.1, fun i t r ht hr => (pair_grid.2 i t r ht hr).1⟩
    intro i t e d C x a g1 g2 g3 g4 g5 g6 g7
    refine (this i t e d C x a g1 g2 g3 g4 g5 g6 g7).trans (mul_le_mul_of_nonneg_right ?_ ?_)
    · exact mul_le_of_le_one_left (by positivity) hv1
    · have hi : i < pairLens.length := (List.getElem?_eq_some_iff.1 g2).1
      exact (trueCapacity_pos (two_zpow_pos _) pairObj_usual (atPosition_mem rfl pairObj_aligned (ls := pairLens)
        (p := startOf pairLens i) ⟨i, e, ⟨hi, le_rfl, startOf_mono pairBeam_lens.2 (Nat.le_succ i)⟩, g2, g3⟩) g4).le
  next => cases h

def pushed : Table ℚ := ⟨false, [Samples.axial 0 (-12345), Samples.axial 1 (-20000)]⟩

def pushedBeam : Beam ℚ (Sect ℚ) :=
  ⟨[⟨[(1, ⟨some pushed⟩)], some (Num.flt (3/4)), .circle (fastRnd (1/100)) (some doubleSteel)⟩,
    ⟨[(1, ⟨some pushed⟩)], some (Num.flt (5/2)), .circle (fastRnd (2/100)) (some doubleSteel)⟩]⟩

/-- The two rods in compression. -/
def pushedObj : AS4100 ℚ := { pairObj with beam := some pushedBeam }

theorem pushed_table {i : ℕ} {t : Table ℚ} (h : HasTable pushedBeam 1 i t) : (i = 0 ∨ i = 1) ∧ t = pushed := by
  obtain ⟨e, he, hl, -, -⟩ := h
  have hi : i < 2 := (List.getElem?_eq_some_iff.1 he).1
  obtain rfl | rfl : i = 0 ∨ i = 1 := by omega
  · cases he; cases hl; exact ⟨Or.inl rfl, rfl⟩
  · cases he; cases hl; exact ⟨Or.inr rfl, rfl⟩

theorem pushed_loaded : LoadedFloat pushedBeam 1 := by
  intro i hi
  obtain rfl | rfl : i = 0 ∨ i = 1 := by
    have : pushedBeam.elements.length = 2 := rfl
    omega
  all_goals exact ⟨pushed, ⟨_, rfl, rfl, by constructor <;> decide +kernel, by simp [pushed]⟩, rfl⟩

theorem pushed_grid : LoadsOnGrid rnd64 IsDouble pushedBeam pairLens 1 := by
  have hi : ∀ n : ℤ, |n| < 2 ^ 53 → IsDouble (n : ℚ) := fun n hn => ⟨n, 0, hn, by norm_num, by simp⟩
  have h0 := hi 0 (by norm_num)
  have h1 := hi 1 (by norm_num)
  have h2 := hi (-12345) (by norm_num)
  have h3 := hi (-20000) (by norm_num)
  push_cast at *
  constructor
  · intro i t ht r hr
    obtain ⟨-, rfl⟩ := pushed_table ht
    rcases List.mem_pair.1 hr with rfl | rfl
    · exact axial_machine h0 h2
    · exact axial_machine h1 h3
  · intro i t r ht hr
    have q : ∀ a : ℤ, ∀ e : ℤ, |a| < 2 ^ 53 → -1074 ≤ e → rnd64 ((a : ℚ) * 2 ^ e) = a * 2 ^ e := fun a e ha he =>
      isDouble_iff.1 ⟨a, e, ha, he, rfl⟩
    have q1 := q 3 (-2) (by norm_num) (by norm_num)
    have q2 := q 5 (-1) (by norm_num) (by norm_num)
    have q3 := q 13 (-2) (by norm_num) (by norm_num)
    have q4 := isDouble_iff.1 h1
    norm_num at q1 q2 q3
    obtain ⟨rfl | rfl, rfl⟩ := pushed_table ht <;> rcases List.mem_pair.1 hr with rfl | rfl
    all_goals refine ⟨?_, _, rfl, ?_, ?_⟩ <;>
      norm_num [Samples.axial, startOf, pairLens, Num.flt, rnd64_zero, q1, q2, q3, q4]

/-- The two rods in compression have the utilisation 0. -/
example : TrulyNowhereAbove pushedObj pushedBeam 1 0 := by
  have h : pushedObj.tensionUtilisation64 (.one 1) .none = .ok 0 := by
    unfold AS4100.tensionUtilisation64
    rw [binary64_eq]
    decide +kernel
  exact C141_zero pushedObj pushedBeam rfl (.cons ⟨rfl, rfl⟩ (.cons ⟨rfl, rfl⟩ .nil)) pairLens
    ⟨.cons rfl (.cons rfl .nil), by decide +kernel⟩ (by simp [pairLens]) pair_marks 20 rfl pairObj_usual 1 pushed_loaded pushed_grid h

end BeamDesign
