import Verif.Lemmas.Anywhere

/-!
# C135: a design that passes in double precision, with loads stored at arbitrary positions
-/

set_option linter.unusedSectionVars false

namespace BeamDesign

open Spec

/-- How far the local position used for a stored row can be from the position stored. -/
theorem local_drift {ls : List (Num ℚ)} (hm : Marks rnd64 ls) (hnn : ∀ l ∈ ls, 0 ≤ l.val) {R : ℚ} (ht : NotTiny ls R) {i : ℕ}
    {l : Num ℚ} (hl : ls[i]? = some l) {x X q : ℚ} (hx0 : 0 ≤ x) (hx1 : x ≤ 1)
    (hX : X = rnd64 (startOf ls i + rnd64 (x * l.val))) (hq : q = rnd64 (rnd64 (X - startOf ls i) / l.val)) :
    |q - x| ≤ 8 * 2 ^ (-53 : ℤ) * R := by
  obtain ⟨-, hpos, hml⟩ := hm.1 l (List.mem_of_getElem? hl)
  obtain ⟨hR, hl100⟩ := ht l (List.mem_of_getElem? hl)
  have hilt : i < ls.length := (List.getElem?_eq_some_iff.1 hl).1
  have hstep := startOf_succ ls i l hl
  have hs0 : 0 ≤ startOf ls i := startOf_nonneg hnn i
  have hsT : startOf ls (i + 1) ≤ total ls := startOf_le_total hnn (i + 1)
  set s := startOf ls i with hs
  set T := total ls
  have hm1 : rnd64 s = s := hm.2 i
  have hm2 : rnd64 (s + l.val) = s + l.val := by rw [← hstep]; exact hm.2 (i + 1)
  set A := rnd64 (x * l.val) with hA
  have hA0 : 0 ≤ A := by rw [hA, ← rnd64_zero]; exact rnd64_mono (mul_nonneg hx0 hpos.le)
  have hA1 : A ≤ l.val := le_trans (rnd64_mono (mul_le_of_le_one_left hpos.le hx1)) hml.le
  have hX0 : s ≤ X := by rw [hX]; exact hm1.ge.trans (rnd64_mono (by linarith))
  have hX1 : X ≤ s + l.val := by rw [hX]; exact (rnd64_mono (by linarith)).trans hm2.le
  set D := rnd64 (X - s) with hD
  have hD0 : 0 ≤ D := by rw [hD, ← rnd64_zero]; exact rnd64_mono (by linarith)
  have hD1 : D ≤ l.val := le_trans (rnd64_mono (by linarith)) hml.le
  have hq0 : 0 ≤ D / l.val := div_nonneg hD0 hpos.le
  have hq1 : D / l.val ≤ 1 := (div_le_one hpos).2 hD1
  have e1 := rnd64_error (x * l.val)
  have e2 := rnd64_error (s + A)
  have e3 := rnd64_error (X - s)
  have e4 := rnd64_error (D / l.val)
  rw [← hA, abs_of_nonneg (mul_nonneg hx0 hpos.le)] at e1
  rw [← hX, abs_of_nonneg (by linarith : 0 ≤ s + A)] at e2
  rw [← hD, abs_of_nonneg (by linarith : 0 ≤ X - s)] at e3
  rw [← hq, abs_of_nonneg hq0] at e4
  have hη : (2 : ℚ) ^ (-1075 : ℤ) ≤ 2 ^ (-55 : ℤ) * l.val := by
    calc (2 : ℚ) ^ (-1075 : ℤ) ≤ 2 ^ (-155 : ℤ) := zpow_le_zpow_right₀ (by norm_num) (by norm_num)
      _ = 2 ^ (-55 : ℤ) * 2 ^ (-100 : ℤ) := by rw [← zpow_add₀ (by norm_num)]; norm_num
      _ ≤ _ := mul_le_mul_of_nonneg_left hl100 (two_zpow_pos _).le
  have hη' : (2 : ℚ) ^ (-1075 : ℤ) ≤ 2 ^ (-55 : ℤ) := zpow_le_zpow_right₀ (by norm_num) (by norm_num)
  generalize (2 : ℚ) ^ (-1075 : ℤ) = η at *
  have hR1 : 1 ≤ R := by
    by_contra hcon
    have : R * l.val < 1 * l.val := mul_lt_mul_of_pos_right (not_le.1 hcon) hpos
    linarith
  -- on the element
  have hxl : x * l.val ≤ l.val := mul_le_of_le_one_left hpos.le hx1
  have k : |D - x * l.val| ≤ (3 + R) * 2 ^ (-53 : ℤ) * l.val := by
    rw [abs_le] at e1 e2 e3 ⊢
    norm_num at e1 e2 e3 hη ⊢
    constructor <;> linarith [e1.1, e1.2, e2.1, e2.2, e3.1, e3.2]
  have k' : |D / l.val - x| ≤ (3 + R) * 2 ^ (-53 : ℤ) := by
    rw [show D / l.val - x = (D - x * l.val) / l.val by field_simp, abs_div, abs_of_pos hpos, div_le_iff₀ hpos]
    exact k
  rw [abs_le] at e4 k' ⊢
  norm_num at e4 k' hη' ⊢
  constructor <;> linarith [e4.1, e4.2, k'.1, k'.2]

/-- C135: in double precision, on a beam whose element ends are doubles and whose elements are not shorter than the beam divided
by `R`, with loads up to `W` stored at any positions that are at least `g` apart, in the first load case and in every load case
whose stations are among its stations: the true axial load is nowhere above `1 + 2 ^ -46` times the overall utilisation (or a
ten thousandth, if that is more) times the true design capacity, by more than `2 ^ -49 * W * (1 + R / g)`. -/
theorem C135_nowhere_above (o : AS4100 ℚ) (b : Beam ℚ (Sect ℚ)) (hb : o.beam = some b) (ha : Aligned o)
    (ls : List (Num ℚ)) (h : HasLengths b ls) (hls : ls ≠ []) (hm : Marks rnd64 ls) (R : ℚ) (hR : NotTiny ls R)
    (n : ℕ) (hn : o.assessmentPoints = n) (hd : UsualData IsDouble (2 ^ (-100 : ℤ)) o)
    (loadCase : CaseArg) (c : ℤ) (cs : List ℤ) (hcs : CasesOf o loadCase (c :: cs))
    (hc : ∀ k ∈ c :: cs, LoadedFloat b k) (v : ℚ) (hv : o.tensionUtilisation Rt.binary64 loadCase .none = .ok v)
    (k : ℤ) (hk : k ∈ c :: cs) (hst : StationsOf b c k) (hml : MachineLoads IsDouble b k)
    (g W : ℚ) (hg : 0 < g) (hgl : GentleLoads b k g W)
    (hbig : ∀ d ∈ o.dsects, ∀ C, TrueCapacity o d C → (W : ℝ) ≤ 5000 * C) :
    TrulyNowhereAboveBy o b k (max (v : ℝ) (1 / 10 ^ 4) * (1 + 2 ^ (-46 : ℤ))) (2 ^ (-49 : ℤ) * W * (1 + R / g)) := by
  rintro i t e d C x a ht he hes hC - - hax
  obtain ⟨r, hr, har⟩ := axialAt_le hax
  have hi : i < ls.length := by
    rw [← hasLengths_length h]
    exact (List.getElem?_eq_some_iff.1 he).1
  have hl : ls[i]? = some ls[i] := List.getElem?_eq_getElem hi
  obtain ⟨hp, hW⟩ := hgl i t ht
  have hW0 : 0 ≤ W := (abs_nonneg _).trans (hW r hr)
  obtain ⟨X, hX⟩ : ∃ X, X = rnd64 (startOf ls i + rnd64 (r.pos * (ls[i]).val)) := ⟨_, rfl⟩
  obtain ⟨q, hq⟩ : ∃ q, q = rnd64 (rnd64 (X - startOf ls i) / (ls[i]).val) := ⟨_, rfl⟩
  rw [← tensionUtilisationWith_eq] at hv
  obtain ⟨hin, m, cap, w, hcap, hmF, hmW, hmr, hw, hwv⟩ := anywhere_covers hb h hm hn hcs hc hv hk hst hl ht hr (hml i t ht) hg hp
    hW hX hq
  obtain ⟨x0, x1⟩ := (by obtain ⟨-, -, -, hwf, -⟩ := id ht; exact hwf.2 r hr : 0 ≤ r.pos ∧ r.pos ≤ 1)
  have hdrift := local_drift hm h.2 hR hl x0 x1 hX hq
  obtain ⟨cap', M, h1, h2, h3, h4, h5⟩ := C85_capacity C83_binary64_rounds C78_binary64_rounds (two_zpow_pos _).le
    (by norm_num) (two_zpow_pos _) (by norm_num) underflow_small piD_double o b hb ha ls h hls hm hd (.scalar (Num.flt X)) [X]
    (Or.inl ⟨_, rfl, rfl⟩) (by simp) (by simpa using inElement_range h.2 hin)
  rw [hcap] at h1
  cases h1
  obtain ⟨N, hN⟩ := trueCapacity_section hC
  have hphi : 0 ≤ o.phiSteel := (two_zpow_pos _).le.trans hd.1.2
  have hMN : o.phiSteel * M ≤ o.phiSteel * N :=
    mul_le_mul_of_nonneg_left (h3.2 ⟨X, by simp, d, ⟨i, e, hin, he, hes⟩, hN⟩) hphi
  have hX0 : (0 : ℚ) < o.phiSteel * M := lt_of_lt_of_le (pow_pos (two_zpow_pos _) _) h5
  have htiny : (2 : ℚ) ^ (-1073 : ℤ) ≤ 2 ^ (-100 : ℤ) * (o.phiSteel * M) := by
    calc (2 : ℚ) ^ (-1073 : ℤ) ≤ 2 ^ (-700 : ℤ) := zpow_le_zpow_right₀ (by norm_num) (by norm_num)
      _ = 2 ^ (-100 : ℤ) * (2 ^ (-100 : ℤ)) ^ 6 := by
        rw [← zpow_natCast, ← zpow_mul, ← zpow_add₀ (by norm_num)]; norm_num
      _ ≤ _ := mul_le_mul_of_nonneg_left h5 (two_zpow_pos _).le
  obtain ⟨k1, k2⟩ := pi_ratio
  have hbig' : W ≤ 5500 * (o.phiSteel * M) := by
    obtain ⟨p, hp, d', hat, hM'⟩ := h3.1
    have := hbig d' (atPosition_mem hb ha hat) _ (trueCapacity_of hM')
    have h0 : (0 : ℝ) < ((o.phiSteel * M : ℚ) : ℝ) := by exact_mod_cast hX0
    have h6 : Real.pi / ((piD : ℚ) : ℝ) * ((o.phiSteel * M : ℚ) : ℝ) ≤ (1 + 2 ^ (-54 : ℤ)) * ((o.phiSteel * M : ℚ) : ℝ) :=
      mul_le_mul_of_nonneg_right k2 h0.le
    have h7 : (W : ℝ) ≤ 5500 * ((o.phiSteel * M : ℚ) : ℝ) := by
      norm_num at h6 ⊢
      norm_num at h0 this
      linarith
    exact_mod_cast h7
  generalize (2 : ℚ) ^ (-1073 : ℤ) = τ at hmW hmr htiny
  have hmain := sound_one hmF h2 hw hwv h5 h4 hMN (by norm_num at hmW htiny ⊢; linarith)
  -- back to the stored load
  have hrm : r.n ≤ m + (2 ^ (-49 : ℤ) * W * (1 + R / g) + τ) := by
    have h6 : 2 * W / g * |q - r.pos| ≤ 2 * W / g * (8 * 2 ^ (-53 : ℤ) * R) :=
      mul_le_mul_of_nonneg_left hdrift (by positivity)
    have h7 : 2 * W / g * (8 * 2 ^ (-53 : ℤ) * R) = 2 ^ (-49 : ℤ) * W * (R / g) := by norm_num; ring
    have h8 := (abs_le.1 hmr).1
    rw [mul_add, mul_one]
    linarith
  have hV : (1 : ℚ) / 10 ^ 4 ≤ max v (1 / 10 ^ 4) := le_max_right _ _
  have hfin : r.n ≤ max v (1 / 10 ^ 4) * (1 + 2 ^ (-46 : ℤ)) * (o.phiSteel * N) + 2 ^ (-49 : ℤ) * W * (1 + R / g) := by
    have h6 : τ ≤ max v (1 / 10 ^ 4) * 2 ^ (-47 : ℤ) * (o.phiSteel * N) := by
      refine htiny.trans ?_
      refine mul_le_mul ?_ hMN hX0.le (by positivity)
      calc (2 : ℚ) ^ (-100 : ℤ) ≤ 1 / 10 ^ 4 * 2 ^ (-47 : ℤ) := by norm_num
        _ ≤ _ := mul_le_mul_of_nonneg_right hV (by norm_num)
    have h7 : max v (1 / 10 ^ 4) * (1 + 2 ^ (-46 : ℤ)) * (o.phiSteel * N)
        = max v (1 / 10 ^ 4) * (1 + 2 ^ (-47 : ℤ)) * (o.phiSteel * N) + max v (1 / 10 ^ 4) * 2 ^ (-47 : ℤ) * (o.phiSteel * N) := by
      norm_num; ring
    linarith
  have hr' : (a : ℝ) ≤ ((max v (1 / 10 ^ 4) * (1 + 2 ^ (-46 : ℤ)) * (o.phiSteel * N) + 2 ^ (-49 : ℤ) * W * (1 + R / g) : ℚ) : ℝ) := by
    exact_mod_cast har.trans hfin
  refine hr'.trans ?_
  rw [trueCapacity_eq hN hC]
  have h0 : (0 : ℝ) < ((o.phiSteel * N : ℚ) : ℝ) := by exact_mod_cast hX0.trans_le hMN
  have h6 : ((o.phiSteel * N : ℚ) : ℝ) ≤ Real.pi / ((piD : ℚ) : ℝ) * ((o.phiSteel * N : ℚ) : ℝ) := le_mul_of_one_le_left h0.le k1
  rw [Rat.cast_add, Rat.cast_mul]
  push_cast at h6 ⊢
  refine add_le_add (mul_le_mul_of_nonneg_left h6 (by positivity)) le_rfl

/-- C135: a utilisation of at most 1 in double precision means that no element is overloaded anywhere, by more than rounding. -/
theorem C135_passes (o : AS4100 ℚ) (b : Beam ℚ (Sect ℚ)) (hb : o.beam = some b) (ha : Aligned o)
    (ls : List (Num ℚ)) (h : HasLengths b ls) (hls : ls ≠ []) (hm : Marks rnd64 ls) (R : ℚ) (hR : NotTiny ls R)
    (n : ℕ) (hn : o.assessmentPoints = n) (hd : UsualData IsDouble (2 ^ (-100 : ℤ)) o) (c : ℤ) (hc : LoadedFloat b c)
    (hml : MachineLoads IsDouble b c) (g W : ℚ) (hg : 0 < g) (hgl : GentleLoads b c g W)
    (hbig : ∀ d ∈ o.dsects, ∀ C, TrueCapacity o d C → (W : ℝ) ≤ 5000 * C)
    (v : ℚ) (hv : o.tensionUtilisation Rt.binary64 (.one c) .none = .ok v) (hv1 : v ≤ 1) :
    TrulyNowhereAboveBy o b c (1 + 2 ^ (-46 : ℤ)) (2 ^ (-49 : ℤ) * W * (1 + R / g)) := by
  have hmain := C135_nowhere_above o b hb ha ls h hls hm R hR n hn hd (.one c) c [] (Or.inr (Or.inl ⟨c, rfl, rfl⟩))
    (by simpa using hc) v hv c List.mem_cons_self (fun i t r ht hr => ⟨t, r, ht, hr, rfl⟩) hml g W hg hgl hbig
  intro i t e d C x a ht he hes hC h0 h1 hax
  have hi : i < ls.length := by
    rw [← hasLengths_length h]
    exact (List.getElem?_eq_some_iff.1 he).1
  have hC0 : 0 ≤ C := (trueCapacity_pos (two_zpow_pos _) hd (atPosition_mem hb ha (ls := ls) (p := startOf ls i)
    ⟨i, e, ⟨hi, le_rfl, startOf_mono h.2 (Nat.le_succ i)⟩, he, hes⟩) hC).le
  refine (hmain i t e d C x a ht he hes hC h0 h1 hax).trans ?_
  refine add_le_add (mul_le_mul_of_nonneg_right ?_ hC0) le_rfl
  have : max (v : ℝ) (1 / 10 ^ 4) ≤ 1 := max_le (by exact_mod_cast hv1) (by norm_num)
  exact mul_le_of_le_one_left (by positivity) this

/-! ## A case meeting the hypotheses -/

def tableA : Table ℚ := ⟨false, [Samples.axial 0 12345, Samples.axial (fastRnd (1/10)) 60000, Samples.axial 1 (-20000)]⟩

def tableB : Table ℚ := ⟨false, [Samples.axial (fastRnd (1/3)) (-20000), Samples.axial (fastRnd (7/10)) 60000]⟩

def gentleBeam : Beam ℚ (Sect ℚ) :=
  ⟨[⟨[(1, ⟨some tableA⟩)], some (Num.flt (3/4)), .circle (fastRnd (1/100)) (some doubleSteel)⟩,
    ⟨[(1, ⟨some tableB⟩)], some (Num.flt (5/2)), .circle (fastRnd (2/100)) (some doubleSteel)⟩]⟩

/-- The two rods of C85 with loads stored at a tenth of the first and at a third and seven tenths of the second. -/
def gentleObj : AS4100 ℚ := { pairObj with beam := some gentleBeam }

theorem gentle_table {i : ℕ} {t : Table ℚ} (h : HasTable gentleBeam 1 i t) : (i = 0 ∧ t = tableA) ∨ (i = 1 ∧ t = tableB) := by
  obtain ⟨e, he, hl, -, -⟩ := h
  have hi : i < 2 := (List.getElem?_eq_some_iff.1 he).1
  obtain rfl | rfl : i = 0 ∨ i = 1 := by omega
  · cases he; cases hl; exact Or.inl ⟨rfl, rfl⟩
  · cases he; cases hl; exact Or.inr ⟨rfl, rfl⟩

theorem gentle_loaded : LoadedFloat gentleBeam 1 := by
  intro i hi
  obtain rfl | rfl : i = 0 ∨ i = 1 := by
    have : gentleBeam.elements.length = 2 := rfl
    omega
  · exact ⟨tableA, ⟨_, rfl, rfl, by constructor <;> decide +kernel, by simp [tableA]⟩, rfl⟩
  · exact ⟨tableB, ⟨_, rfl, rfl, by constructor <;> decide +kernel, by simp [tableB]⟩, rfl⟩

theorem gentle_machine : MachineLoads IsDouble gentleBeam 1 := by
  have hi : ∀ n : ℤ, |n| < 2 ^ 53 → IsDouble (n : ℚ) := fun n hn => ⟨n, 0, hn, by norm_num, by simp⟩
  have h0 := hi 0 (by norm_num)
  have h1 := hi 1 (by norm_num)
  have h2 := hi 12345 (by norm_num)
  have h3 := hi 60000 (by norm_num)
  have h4 := hi (-20000) (by norm_num)
  push_cast at *
  intro i t ht r hr
  rcases gentle_table ht with ⟨rfl, rfl⟩ | ⟨rfl, rfl⟩
  · simp only [tableA, List.mem_cons, List.not_mem_nil, or_false] at hr
    rcases hr with rfl | rfl | rfl
    · exact axial_machine h0 h2
    · exact axial_machine (fast_double _) h3
    · exact axial_machine h1 h4
  · rcases List.mem_pair.1 hr with rfl | rfl
    · exact axial_machine (fast_double _) h4
    · exact axial_machine (fast_double _) h3

theorem gentle_gentle : GentleLoads gentleBeam 1 (1/20) 60000 := by
  intro i t ht
  rcases gentle_table ht with ⟨rfl, rfl⟩ | ⟨rfl, rfl⟩ <;> constructor <;> decide +kernel

theorem gentle_notTiny : NotTiny pairLens 5 := by
  intro l hl
  rcases List.mem_pair.1 hl with rfl | rfl <;> norm_num [total, pairLens]

/-- C135, concretely: the two rods pass in double precision, so they are nowhere overloaded by more than a millionth. -/
example : TrulyNowhereAboveBy gentleObj gentleBeam 1 (1 + 2 ^ (-46 : ℤ)) (1 / 10 ^ 6) := by
  have h : (match gentleObj.tensionUtilisation Rt.fast64 (.one 1) .none with
    | .ok v => decide (v ≤ 1) | .error _ => false) = true := by decide +kernel
  split at h
  next v hv =>
    rw [← binary64_eq] at hv
    have := C135_passes gentleObj gentleBeam rfl (.cons ⟨rfl, rfl⟩ (.cons ⟨rfl, rfl⟩ .nil)) pairLens
      ⟨.cons rfl (.cons rfl .nil), by decide +kernel⟩ (by simp [pairLens]) pair_marks 5 gentle_notTiny 20 rfl
      pairObj_usual 1 gentle_loaded gentle_machine (1/20) 60000 (by norm_num) gentle_gentle
      (fun d hd C hC => by have := pair_capacity (d := d) hd (c := C) hC; norm_num; linarith) v hv (of_decide_eq_true h)
    intro i t e d C x a h1 h2 h3 h4 h5 h6 h7
    refine (this i t e d C x a h1 h2 h3 h4 h5 h6 h7).trans (add_le_add le_rfl ?_)
    norm_num
  next => cases h

end BeamDesign
