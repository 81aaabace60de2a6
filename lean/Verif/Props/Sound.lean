import Verif.Lemmas.Sound

/-!
# C86: a design that passes in double precision is nowhere overloaded
-/

set_option linter.unusedSectionVars false

namespace BeamDesign

open Spec

theorem small_underflow {n : ℚ} (h : (2 ^ (-100 : ℤ)) ^ 6 / 10 ^ 5 ≤ n) : (2 : ℚ) ^ (-1075 : ℤ) ≤ 2 ^ (-53 : ℤ) * n / 10 ^ 5 := by
  rw [mul_div_assoc]
  have h1 : (2 : ℚ) ^ (-1022 : ℤ) ≤ n / 10 ^ 5 := by
    refine le_trans ?_ (div_le_div_of_nonneg_right h (by norm_num))
    rw [div_div, le_div_iff₀ (by norm_num)]
    calc (2 : ℚ) ^ (-1022 : ℤ) * (10 ^ 5 * 10 ^ 5) ≤ 2 ^ (-1022 : ℤ) * 2 ^ (40 : ℤ) :=
          mul_le_mul_of_nonneg_left (by norm_num) (two_zpow_pos _).le
      _ = 2 ^ (-982 : ℤ) := by rw [← zpow_add₀ (by norm_num)]; norm_num
      _ ≤ 2 ^ (-600 : ℤ) := zpow_le_zpow_right₀ (by norm_num) (by norm_num)
      _ = _ := by rw [← zpow_natCast, ← zpow_mul]; norm_num
  calc (2 : ℚ) ^ (-1075 : ℤ) = 2 ^ (-53 : ℤ) * 2 ^ (-1022 : ℤ) := by rw [← zpow_add₀ (by norm_num)]; norm_num
    _ ≤ _ := mul_le_mul_of_nonneg_left h1 (two_zpow_pos _).le

theorem small_underflow' : (2 : ℚ) ^ (-1075 : ℤ) ≤ 2 ^ (-53 : ℤ) / 10 ^ 9 := by
  rw [show (2 : ℚ) ^ (-1075 : ℤ) = 2 ^ (-53 : ℤ) * 2 ^ (-1022 : ℤ) by rw [← zpow_add₀ (by norm_num)]; norm_num,
    div_eq_mul_inv]
  refine mul_le_mul_of_nonneg_left ?_ (two_zpow_pos _).le
  calc (2 : ℚ) ^ (-1022 : ℤ) ≤ 2 ^ (-40 : ℤ) := zpow_le_zpow_right₀ (by norm_num) (by norm_num)
    _ ≤ _ := by norm_num

theorem trueCapacity_pos {o : AS4100 ℚ} {σ : ℚ} (hσ : 0 < σ) {F : ℚ → Prop} (hd : UsualData F σ o) {d : DSect ℚ}
    (hm : d ∈ o.dsects) {c : ℝ} (hc : TrueCapacity o d c) : 0 < c := by
  obtain ⟨hphi, hkt, hau, hds⟩ := hd
  obtain ⟨hr, fy, fu, hs, hy, hu⟩ := hds d hm
  obtain ⟨N, hN⟩ := trueCapacity_section hc
  have hN' := sectionCapacity_unique hN ⟨fy, fu, hs, rfl⟩
  have p1 := hσ.trans_le hphi.2
  have p2 := hσ.trans_le hkt.2
  have p3 := hσ.trans_le hau.2
  have p4 := hσ.trans_le hr.2
  have p5 := hσ.trans_le hy.2
  have p6 := hσ.trans_le hu.2
  have p7 : (0 : ℚ) < piD := by linarith [piD_gt (K := ℚ)]
  have hN0 : 0 < N := by
    rw [hN']
    simp only [Rt.exact]
    exact lt_min (by positivity) (by positivity)
  rw [trueCapacity_eq hN hc]
  have h0 : (0 : ℝ) < ((o.phiSteel * N : ℚ) : ℝ) := by exact_mod_cast mul_pos p1 hN0
  exact mul_pos (lt_of_lt_of_le one_pos pi_ratio.1) h0

/-- The arithmetic of a single stored tension. -/
theorem sound_one {n cap w v X N : ℚ} (hF : IsDouble n) (hFc : IsDouble cap) (hw : utilOne Rt.binary64 cap (max n 0) = .ok w)
    (hwv : w ≤ v) (hX : (2 ^ (-100 : ℤ)) ^ 6 ≤ X) (hcap : |cap - X| ≤ 62 / 10 * 2 ^ (-53 : ℤ) * X) (hN : X ≤ N)
    (hbig : n ≤ 6000 * X) : n ≤ max v (1 / 10 ^ 4) * (1 + 2 ^ (-47 : ℤ)) * N := by
  have hX0 : 0 < X := lt_of_lt_of_le (pow_pos (two_zpow_pos _) _) hX
  have hN0 : 0 < N := hX0.trans_le hN
  obtain ⟨c1, c2⟩ := abs_le.1 hcap
  norm_num at c1 c2
  have hc0 : 0 < cap := by linarith
  have hm : (1 : ℚ) / 10 ^ 4 ≤ max v (1 / 10 ^ 4) := le_max_right _ _
  by_cases hs : n < cap / 10 ^ 4
  · have h1 : n ≤ 1 / 10 ^ 4 * ((1 + 2 ^ (-47 : ℤ)) * N) := by norm_num at hs ⊢; linarith
    refine h1.trans ?_
    rw [mul_assoc]
    exact mul_le_mul_of_nonneg_right hm (mul_nonneg (by norm_num) hN0.le)
  · have hs := not_lt.1 hs
    have hn0 : 0 < n := lt_of_lt_of_le (by positivity) hs
    rw [max_eq_left hn0.le] at hw
    obtain ⟨w', hw', hnear⟩ := utilOne_near C78_binary64_rounds (two_zpow_pos _).le (by norm_num) (two_zpow_pos _).le
      (fun y _ => rnd64_error _) ⟨1, 0, by norm_num, by norm_num, by norm_num⟩
      ⟨100000, 0, by norm_num, by norm_num, by norm_num⟩ ⟨-100000, 0, by norm_num, by norm_num, by norm_num⟩
      hF hFc hc0 (by rw [le_div_iff₀ hc0]; linarith) (by rw [div_le_iff₀ hc0]; norm_num; linarith)
      (small_underflow (by generalize ((2 : ℚ) ^ (-100 : ℤ)) ^ 6 = z at hX ⊢; norm_num at hs ⊢; linarith)) small_underflow'
    rw [hw] at hw'
    cases hw'
    obtain ⟨d1, -⟩ := abs_le.1 hnear
    have hv : w ≤ max v (1 / 10 ^ 4) := hwv.trans (le_max_left _ _)
    generalize max v (1 / 10 ^ 4) = V at *
    have h1 : n / cap * (1 - 27 * 2 ^ (-53 : ℤ)) ≤ V := by linarith
    rw [div_mul_eq_mul_div, div_le_iff₀ hc0] at h1
    have hV0 : 0 < V := lt_of_lt_of_le (by norm_num) hm
    have h2 : V * cap ≤ V * ((1 + 7 * 2 ^ (-53 : ℤ)) * N) := by
      refine mul_le_mul_of_nonneg_left ?_ hV0.le
      norm_num
      linarith
    have h3 : 0 < V * N := mul_pos hV0 hN0
    norm_num at h1 h2 ⊢
    nlinarith

/-- C86: in double precision, on a beam whose element ends are doubles, with loads stored on the grid of doubles, in the first
load case and in every load case whose stations are among its stations: the true axial load is nowhere above `1 + 2 ^ -47`
times the overall utilisation (or a ten thousandth, if that is more) times the true design capacity. -/
theorem C86_nowhere_above (o : AS4100 ℚ) (b : Beam ℚ (Sect ℚ)) (hb : o.beam = some b) (ha : Aligned o)
    (ls : List (Num ℚ)) (h : HasLengths b ls) (hls : ls ≠ []) (hm : Marks rnd64 ls) (n : ℕ) (hn : o.assessmentPoints = n)
    (hd : UsualData IsDouble (2 ^ (-100 : ℤ)) o)
    (loadCase : CaseArg) (c : ℤ) (cs : List ℤ) (hcs : CasesOf o loadCase (c :: cs))
    (hc : ∀ k ∈ c :: cs, LoadedFloat b k) (v : ℚ) (hv : o.tensionUtilisation Rt.binary64 loadCase .none = .ok v)
    (k : ℤ) (hk : k ∈ c :: cs) (hst : StationsOf b c k) (hgl : GridLoads rnd64 IsDouble o b ls k) :
    TrulyNowhereAbove o b k (max (v : ℝ) (1 / 10 ^ 4) * (1 + 2 ^ (-47 : ℤ))) := by
  rintro i t e d C x a ht he hes hC - - hax
  obtain ⟨r, hr, har⟩ := axialAt_le hax
  obtain ⟨hgrid, hbig⟩ := hgl.2 i t r ht hr
  have hi : i < ls.length := by
    rw [← hasLengths_length h]
    exact (List.getElem?_eq_some_iff.1 he).1
  have hl : ls[i]? = some ls[i] := List.getElem?_eq_getElem hi
  rw [← tensionUtilisationWith_eq] at hv
  obtain ⟨hin, cap, w, hcap, hw, hwv⟩ := fcovers C83_binary64_rounds binary64_sortOK hb h hm hn hcs hc hv hk hst hl ht hr hgrid
  set q := startOf ls i + r.pos * (ls[i]).val with hq
  obtain ⟨cap', M, h1, h2, h3, h4, h5⟩ := C85_capacity C83_binary64_rounds C78_binary64_rounds (two_zpow_pos _).le
    (by norm_num) (two_zpow_pos _) (by norm_num) underflow_small piD_double o b hb ha ls h hls hm hd (.scalar (Num.flt q)) [q]
    (Or.inl ⟨_, rfl, rfl⟩) (by simp) (by simpa using inElement_range h.2 hin)
  rw [hcap] at h1
  cases h1
  obtain ⟨N, hN⟩ := trueCapacity_section hC
  have hphi : 0 ≤ o.phiSteel := (two_zpow_pos _).le.trans hd.1.2
  have hMN : o.phiSteel * M ≤ o.phiSteel * N :=
    mul_le_mul_of_nonneg_left (h3.2 ⟨q, by simp, d, ⟨i, e, hin, he, hes⟩, hN⟩) hphi
  have hX0 : (0 : ℚ) < o.phiSteel * M := lt_of_lt_of_le (pow_pos (two_zpow_pos _) _) h5
  obtain ⟨k1, k2⟩ := pi_ratio
  have hbig' : r.n ≤ 6000 * (o.phiSteel * M) := by
    obtain ⟨p, hp, d', hat, hM'⟩ := h3.1
    have := hbig d' (atPosition_mem hb ha hat) _ (trueCapacity_of hM')
    have h0 : (0 : ℝ) < ((o.phiSteel * M : ℚ) : ℝ) := by exact_mod_cast hX0
    have h6 : Real.pi / ((piD : ℚ) : ℝ) * ((o.phiSteel * M : ℚ) : ℝ) ≤ (1 + 2 ^ (-54 : ℤ)) * ((o.phiSteel * M : ℚ) : ℝ) :=
      mul_le_mul_of_nonneg_right k2 h0.le
    have h7 : (r.n : ℝ) ≤ 6000 * ((o.phiSteel * M : ℚ) : ℝ) := by
      norm_num at h6 ⊢
      norm_num at h0 this
      linarith
    exact_mod_cast h7
  have hFn : IsDouble r.n := (hgl.1 i t ht r hr).2 .N
  have hmain := sound_one hFn h2 hw hwv h5 h4 hMN hbig'
  have hr' : (a : ℝ) ≤ (max v (1 / 10 ^ 4) * (1 + 2 ^ (-47 : ℤ)) * (o.phiSteel * N) : ℚ) := by
    exact_mod_cast har.trans hmain
  refine hr'.trans ?_
  rw [trueCapacity_eq hN hC]
  have h0 : (0 : ℝ) < ((o.phiSteel * N : ℚ) : ℝ) := by exact_mod_cast hX0.trans_le hMN
  have h6 : ((o.phiSteel * N : ℚ) : ℝ) ≤ Real.pi / ((piD : ℚ) : ℝ) * ((o.phiSteel * N : ℚ) : ℝ) := le_mul_of_one_le_left h0.le k1
  rw [Rat.cast_mul]
  push_cast at h6 ⊢
  exact mul_le_mul_of_nonneg_left h6 (by positivity)

/-- C86: a utilisation of at most 1 in double precision means that no element is overloaded anywhere, by more than rounding:
the true axial load is at most `1 + 2 ^ -47` times the true design capacity. -/
theorem C86_passes (o : AS4100 ℚ) (b : Beam ℚ (Sect ℚ)) (hb : o.beam = some b) (ha : Aligned o)
    (ls : List (Num ℚ)) (h : HasLengths b ls) (hls : ls ≠ []) (hm : Marks rnd64 ls) (n : ℕ) (hn : o.assessmentPoints = n)
    (hd : UsualData IsDouble (2 ^ (-100 : ℤ)) o) (c : ℤ) (hc : LoadedFloat b c) (hgl : GridLoads rnd64 IsDouble o b ls c)
    (v : ℚ) (hv : o.tensionUtilisation Rt.binary64 (.one c) .none = .ok v) (hv1 : v ≤ 1) :
    TrulyNowhereAbove o b c (1 + 2 ^ (-47 : ℤ)) := by
  have hmain := C86_nowhere_above o b hb ha ls h hls hm n hn hd (.one c) c [] (Or.inr (Or.inl ⟨c, rfl, rfl⟩))
    (by simpa using hc) v hv c List.mem_cons_self (fun i t r ht hr => ⟨t, r, ht, hr, rfl⟩) hgl
  intro i t e d C x a ht he hes hC h0 h1 hax
  have hi : i < ls.length := by
    rw [← hasLengths_length h]
    exact (List.getElem?_eq_some_iff.1 he).1
  have hC0 : 0 ≤ C := (trueCapacity_pos (two_zpow_pos _) hd (atPosition_mem hb ha (ls := ls) (p := startOf ls i)
    ⟨i, e, ⟨hi, le_rfl, startOf_mono h.2 (Nat.le_succ i)⟩, he, hes⟩) hC).le
  refine (hmain i t e d C x a ht he hes hC h0 h1 hax).trans ?_
  refine mul_le_mul_of_nonneg_right ?_ hC0
  have : max (v : ℝ) (1 / 10 ^ 4) ≤ 1 := max_le (by exact_mod_cast hv1) (by norm_num)
  exact mul_le_of_le_one_left (by positivity) this

/-! ## A case meeting the hypotheses -/

theorem pair_table {i : ℕ} {t : Table ℚ} (h : HasTable pairBeam 1 i t) :
    (i = 0 ∧ t = ⟨false, [Samples.axial 0 12345, Samples.axial (1/2) 60000, Samples.axial 1 (-20000)]⟩) ∨
    (i = 1 ∧ t = ⟨false, [Samples.axial 0 (-20000), Samples.axial (1/2) 100000]⟩) := by
  obtain ⟨e, he, hl, -, -⟩ := h
  have hi : i < 2 := (List.getElem?_eq_some_iff.1 he).1
  obtain rfl | rfl : i = 0 ∨ i = 1 := by omega
  · cases he; cases hl; exact Or.inl ⟨rfl, rfl⟩
  · cases he; cases hl; exact Or.inr ⟨rfl, rfl⟩

theorem pair_loaded : LoadedFloat pairBeam 1 := by
  intro i hi
  obtain rfl | rfl : i = 0 ∨ i = 1 := by
    have : pairBeam.elements.length = 2 := rfl
    omega
  · exact ⟨⟨false, [Samples.axial 0 12345, Samples.axial (1/2) 60000, Samples.axial 1 (-20000)]⟩,
      ⟨_, rfl, rfl, by constructor <;> decide +kernel, by simp⟩, rfl⟩
  · exact ⟨⟨false, [Samples.axial 0 (-20000), Samples.axial (1/2) 100000]⟩,
      ⟨_, rfl, rfl, by constructor <;> decide +kernel, by simp⟩, rfl⟩

theorem axial_machine {p n : ℚ} (hp : IsDouble p) (hn : IsDouble n) :
    IsDouble (Samples.axial p n).pos ∧ ∀ c, IsDouble (entry (Samples.axial p n) c) := by
  refine ⟨hp, fun c => ?_⟩
  have h0 : IsDouble 0 := ⟨0, 0, by norm_num, by norm_num, by norm_num⟩
  cases c
  case N => exact hn
  all_goals exact h0

theorem pair_capacity {d : DSect ℚ} (hd : d ∈ pairObj.dsects) {c : ℝ} (hc : TrueCapacity pairObj d c) : 100 ≤ c := by
  have key : ∃ N, SectionCapacity (Rt.exact ℚ) pairObj.kt pairObj.alphaU d N ∧ 100 ≤ pairObj.phiSteel * N := by
    rcases List.mem_pair.1 hd with rfl | rfl
    · exact ⟨_, ⟨250000000, 410000000, strengths_iff.2 ⟨by decide +kernel, by decide +kernel⟩, rfl⟩, by decide +kernel⟩
    · exact ⟨_, ⟨250000000, 410000000, strengths_iff.2 ⟨by decide +kernel, by decide +kernel⟩, rfl⟩, by decide +kernel⟩
  obtain ⟨N, hN, h100⟩ := key
  rw [trueCapacity_eq hN hc]
  have h1 : (100 : ℝ) ≤ ((pairObj.phiSteel * N : ℚ) : ℝ) := by exact_mod_cast h100
  exact h1.trans (le_mul_of_one_le_left (by linarith) pi_ratio.1)

theorem pair_grid : GridLoads rnd64 IsDouble pairObj pairBeam pairLens 1 := by
  have hi : ∀ n : ℤ, |n| < 2 ^ 53 → IsDouble (n : ℚ) := fun n hn => ⟨n, 0, hn, by norm_num, by simp⟩
  have h0 := hi 0 (by norm_num)
  have h1 := hi 1 (by norm_num)
  have h2 := hi 12345 (by norm_num)
  have h3 := hi 60000 (by norm_num)
  have h4 := hi (-20000) (by norm_num)
  have h5 := hi 100000 (by norm_num)
  have hh : IsDouble (1 / 2) := ⟨1, -1, by norm_num, by norm_num, by norm_num⟩
  push_cast at *
  constructor
  · intro i t ht r hr
    rcases pair_table ht with ⟨rfl, rfl⟩ | ⟨rfl, rfl⟩
    · simp only [List.mem_cons, List.not_mem_nil, or_false] at hr
      rcases hr with rfl | rfl | rfl
      · exact axial_machine h0 h2
      · exact axial_machine hh h3
      · exact axial_machine h1 h4
    · rcases List.mem_pair.1 hr with rfl | rfl
      · exact axial_machine h0 h4
      · exact axial_machine hh h5
  · intro i t r ht hr
    have hn : r.n ≤ 100000 := by
      rcases pair_table ht with ⟨rfl, rfl⟩ | ⟨rfl, rfl⟩
      · revert r; decide +kernel
      · revert r; decide +kernel
    refine ⟨?_, fun d hd c hc => ?_⟩
    · have q : ∀ a : ℤ, ∀ e : ℤ, |a| < 2 ^ 53 → -1074 ≤ e → rnd64 ((a : ℚ) * 2 ^ e) = a * 2 ^ e := fun a e ha he =>
        isDouble_iff.1 ⟨a, e, ha, he, rfl⟩
      have q1 := q 3 (-2) (by norm_num) (by norm_num)
      have q2 := q 3 (-3) (by norm_num) (by norm_num)
      have q3 := q 5 (-2) (by norm_num) (by norm_num)
      have q4 := q 2 0 (by norm_num) (by norm_num)
      have q5 := isDouble_iff.1 hh
      have q6 := isDouble_iff.1 h1
      norm_num at q1 q2 q3 q4 q5
      rcases pair_table ht with ⟨rfl, rfl⟩ | ⟨rfl, rfl⟩
      · simp only [List.mem_cons, List.not_mem_nil, or_false] at hr
        rcases hr with rfl | rfl | rfl
        all_goals refine ⟨?_, _, rfl, ?_, ?_⟩ <;>
          norm_num [Samples.axial, startOf, pairLens, Num.flt, rnd64_zero, q1, q2, q3, q4, q5, q6]
      · rcases List.mem_pair.1 hr with rfl | rfl
        all_goals refine ⟨?_, _, rfl, ?_, ?_⟩ <;>
          norm_num [Samples.axial, startOf, pairLens, Num.flt, rnd64_zero, q1, q2, q3, q4, q5, q6]
    · have h6 : (r.n : ℝ) ≤ 100000 := by exact_mod_cast hn
      have := pair_capacity hd hc
      linarith

/-- C86, concretely: the two rods of 0.75 and 2.5 pass in double precision, so they are nowhere overloaded. -/
example : TrulyNowhereAbove pairObj pairBeam 1 (1 + 2 ^ (-47 : ℤ)) := by
  have h : (match pairObj.tensionUtilisation Rt.fast64 (.one 1) .none with
    | .ok v => decide (v ≤ 1) | .error _ => false) = true := by decide +kernel
  split at h
  next v hv =>
    rw [← binary64_eq] at hv
    exact C86_passes pairObj pairBeam rfl pairObj_aligned pairLens pairBeam_lens (by simp [pairLens]) pair_marks 20 rfl
      pairObj_usual 1 pair_loaded pair_grid v hv (of_decide_eq_true h)
  next => cases h

end BeamDesign
