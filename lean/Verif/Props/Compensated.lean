import Verif.Model.WeldSum
import Verif.Spec.Compensated
import Verif.Spec.PySum
import Verif.Lemmas.TwoSum
import Verif.Lemmas.Fast64
import Verif.Props.PySum

/-!
# Property C155: a sum of many numbers is as accurate as a sum of two
-/

namespace BeamDesign

open Spec

theorem sumFloats_corrected (v : PySum) {T : ℚ} (hT : 0 ≤ T) : ∀ (xs : List (Num ℚ)) {k : ℕ} {P f c : ℚ}, Corrected T k P f c → 0 ≤ P →
    FloatsOnly xs → P + total xs ≤ T → k + xs.length ≤ 2 ^ 51 →
    |sumFloats (Rt.binary64.withSum v) f c xs - (P + total xs)| ≤
      (2 ^ (-53 : ℤ) + 8 * ((k + xs.length : ℕ) : ℚ) ^ 2 * (2 ^ (-53 : ℤ)) ^ 2) * T := by
  intro xs
  induction xs with
  | nil =>
    intro k P f c h hP _ hPT hk
    have hb := h.both
    simp only [total, List.map_nil, List.sum_nil, add_zero, List.length_nil] at hPT ⊢
    have hu0 := two_zpow_pos (-53)
    have hu : (2 : ℚ) ^ (-53 : ℤ) ≤ 1 := by norm_num
    have hD : (0 : ℚ) ≤ 4 * (k : ℚ) ^ 2 * (2 ^ (-53 : ℤ)) ^ 2 * T := by positivity
    unfold sumFloats
    split_ifs with hc
    · rw [hc, add_zero] at hb
      nlinarith [mul_nonneg hu0.le hT]
    · have e := add_error h.sum h.corr
      show |rnd64 (f + c) - P| ≤ _
      have h1 : |f + c| ≤ T + 4 * (k : ℚ) ^ 2 * (2 ^ (-53 : ℤ)) ^ 2 * T := by
        have := abs_le.1 hb
        rw [abs_le]; constructor <;> linarith
      have h2 : rnd64 (f + c) - P = (rnd64 (f + c) - (f + c)) + (f + c - P) := by ring
      rw [h2]
      refine (abs_add_le _ _).trans ((add_le_add (e.trans (mul_le_mul_of_nonneg_left h1 hu0.le)) hb).trans ?_)
      have e8 : (2 ^ (-53 : ℤ) + 8 * (k : ℚ) ^ 2 * (2 ^ (-53 : ℤ)) ^ 2) * T =
          2 ^ (-53 : ℤ) * T + 2 * (4 * (k : ℚ) ^ 2 * (2 ^ (-53 : ℤ)) ^ 2 * T) := by ring
      rw [e8]
      generalize 4 * (k : ℚ) ^ 2 * (2 ^ (-53 : ℤ)) ^ 2 * T = D at *
      generalize (2 : ℚ) ^ (-53 : ℤ) = u at *
      nlinarith
  | cons x xs ih =>
    intro k P f c h hP hxs hPT hk
    obtain ⟨hi, h0, hd⟩ := hxs x List.mem_cons_self
    have hrest : FloatsOnly xs := fun l hl => hxs l (List.mem_cons_of_mem _ hl)
    have htot : total (x :: xs) = x.val + total xs := by simp [total]
    have htot0 : 0 ≤ total xs := List.sum_nonneg (by
      intro y hy
      obtain ⟨l, hl, rfl⟩ := List.mem_map.1 hy
      exact (hrest l hl).2.1)
    rw [htot] at hPT ⊢
    rw [List.length_cons] at hk ⊢
    obtain ⟨hs, -⟩ := h.step hd h0 hP (by linarith) (by omega)
    have r := ih hs (by linarith) hrest (by linarith) (by omega)
    rw [show k + (xs.length + 1) = k + 1 + xs.length by omega, ← add_assoc]
    have st := twoSum_step h.sum hd h.f0 h0
    unfold sumFloats
    simp only [hi, Bool.false_eq_true, false_and, if_false]
    split_ifs with hc
    · show |sumFloats _ (rnd64 (f + x.val)) (rnd64 (c + rnd64 (rnd64 (f - rnd64 (f + x.val)) + x.val))) xs - _| ≤ _
      rw [st.1 hc]; exact r
    · show |sumFloats _ (rnd64 (f + x.val)) (rnd64 (c + rnd64 (rnd64 (x.val - rnd64 (f + x.val)) + f))) xs - _| ≤ _
      rw [st.2 hc]; exact r

theorem total_nonneg_of_floats {ls : List (Num ℚ)} (h : FloatsOnly ls) : 0 ≤ total ls := List.sum_nonneg (by
  intro y hy
  obtain ⟨l, hl, rfl⟩ := List.mem_map.1 hy
  exact (h l hl).2.1)

/-- the corrected sum of floats: one rounding error and terms of the second order -/
theorem pySum_corrected {v : PySum} (hv : v ≠ .plain) (ls : List (Num ℚ)) (h : FloatsOnly ls) (hn : ls.length ≤ 2 ^ 51) :
    RightTo (2 ^ (-53 : ℤ) + 8 * (ls.length : ℚ) ^ 2 * (2 ^ (-53 : ℤ)) ^ 2) (pySum (Rt.binary64.withSum v) ls).val (total ls) := by
  have hs : pySum (Rt.binary64.withSum v) ls = sumInts (Rt.binary64.withSum v) 0 ls := by
    cases v with
    | plain => exact absurd rfl hv
    | floats => rfl
    | all => rfl
  rw [hs]
  cases ls with
  | nil => simp [RightTo, sumInts, total]
  | cons x xs =>
    obtain ⟨hi, h0, hd⟩ := h x List.mem_cons_self
    have hrest : FloatsOnly xs := fun l hl => h l (List.mem_cons_of_mem _ hl)
    have hT := total_nonneg_of_floats h
    have htot : total (x :: xs) = x.val + total xs := by simp [total]
    unfold sumInts RightTo
    simp only [hi, Bool.false_eq_true, if_false]
    show |sumFloats _ (rnd64 (0 + x.val)) 0 xs - _| ≤ _
    rw [zero_add, isDouble_iff.1 hd]
    have start : Corrected (total (x :: xs)) 0 x.val x.val 0 := by
      refine ⟨hd, ⟨0, 0, by norm_num, by norm_num, by norm_num⟩, h0, by simp, by simp⟩
    rw [List.length_cons] at hn ⊢
    have r := sumFloats_corrected v hT xs start h0 hrest htot.ge (by omega)
    rw [← htot] at r
    refine r.trans (mul_le_mul_of_nonneg_right ?_ hT)
    have : ((0 + xs.length : ℕ) : ℚ) ≤ ((xs.length + 1 : ℕ) : ℚ) := by exact_mod_cast (by omega)
    have h2 := pow_le_pow_left₀ (Nat.cast_nonneg _) this 2
    have h3 := mul_le_mul_of_nonneg_right h2 (sq_nonneg ((2 : ℚ) ^ (-53 : ℤ)))
    linarith

/-- up to 33 million numbers -/
theorem pySum_ulp {v : PySum} (hv : v ≠ .plain) (ls : List (Num ℚ)) (h : FloatsOnly ls) (hn : ls.length ≤ 2 ^ 25) :
    RightTo (2 ^ (-52 : ℤ)) (pySum (Rt.binary64.withSum v) ls).val (total ls) := by
  refine (pySum_corrected hv ls h (hn.trans (by norm_num))).trans (mul_le_mul_of_nonneg_right ?_ (total_nonneg_of_floats h))
  have h1 : (ls.length : ℚ) ≤ 2 ^ 25 := by exact_mod_cast hn
  have h2 := pow_le_pow_left₀ (Nat.cast_nonneg _) h1 2
  have h3 := mul_le_mul_of_nonneg_right h2 (sq_nonneg ((2 : ℚ) ^ (-53 : ℤ)))
  have h4 : (2 : ℚ) ^ (-53 : ℤ) + 8 * ((2 ^ 25) ^ 2 * (2 ^ (-53 : ℤ)) ^ 2) = 2 ^ (-52 : ℤ) := by norm_num
  linarith

variable {S : Type}

/-- C155: from Python 3.12 on the length of a beam is right to the last digit, however many elements it has (up to 33 million): the
relative error is at most `2 ^ -52`.  Missing: Python up to 3.11 (`C155_counterexample`) and lengths given as ints. -/
theorem C155_length_partial (b : Beam ℚ S) (ls : List (Num ℚ)) (h : HasLengths b ls) (hf : FloatsOnly ls) (hn : ls.length ≤ 2 ^ 25)
    (v : PySum) (hv : v ≠ .plain) :
    ∃ L, b.length (Rt.binary64.withSum v) = .ok L ∧ RightTo (2 ^ (-52 : ℤ)) L.val (total ls) :=
  ⟨_, by unfold Beam.length; rw [lengths_ok h]; rfl, pySum_ulp hv ls hf hn⟩

/-- C155 for more elements: the error is one rounding error and a term of the second order -/
theorem C155_many_partial (b : Beam ℚ S) (ls : List (Num ℚ)) (h : HasLengths b ls) (hf : FloatsOnly ls) (hn : ls.length ≤ 2 ^ 51)
    (v : PySum) (hv : v ≠ .plain) :
    ∃ L, b.length (Rt.binary64.withSum v) = .ok L ∧
      RightTo (2 ^ (-53 : ℤ) + 8 * (ls.length : ℚ) ^ 2 * (2 ^ (-53 : ℤ)) ^ 2) L.val (total ls) :=
  ⟨_, by unfold Beam.length; rw [lengths_ok h]; rfl, pySum_corrected hv ls hf hn⟩

theorem rnd64_rel_normal {x : ℚ} (hx : 2 ^ (-1022 : ℤ) ≤ x) : |rnd64 x - x| ≤ 2 ^ (-53 : ℤ) * x := by
  have p : 0 < x := (two_zpow_pos _).trans_le hx
  rcases rnd64_error_cases x with h | ⟨-, h⟩
  · rwa [abs_of_pos p] at h
  · refine h.trans ?_
    rw [show (-1075 : ℤ) = -53 + -1022 by norm_num, zpow_add₀ (by norm_num)]
    exact mul_le_mul_of_nonneg_left hx (two_zpow_pos _).le

theorem rightTo_rnd {a z ε : ℚ} (h1 : ε ≤ 1 / 2) (hz : 2 ^ (-1000 : ℤ) ≤ z) (h : RightTo ε a z) :
    RightTo (ε + 2 ^ (-53 : ℤ) * (1 + ε)) (rnd64 a) z := by
  unfold RightTo at *
  have hlow : (2 : ℚ) ^ (-1000 : ℤ) = 4194304 * 2 ^ (-1022 : ℤ) := by
    rw [show (-1000 : ℤ) = 22 + -1022 by norm_num, zpow_add₀ (by norm_num)]; norm_num
  have hp := two_zpow_pos (-1022)
  rw [hlow] at hz
  have z0 : 0 ≤ z := by linarith
  have hab := abs_le.1 h
  have hez := mul_le_mul_of_nonneg_right h1 z0
  have r := rnd64_rel_normal (x := a) (by linarith)
  have e : rnd64 a - z = (rnd64 a - a) + (a - z) := by ring
  rw [e]
  refine (abs_add_le _ _).trans ((add_le_add (r.trans (mul_le_mul_of_nonneg_left (show a ≤ z + ε * z by linarith)
    (two_zpow_pos _).le)) h).trans_eq ?_)
  ring

theorem foldl_padd_floats {K : Type} [Field K] [LinearOrder K] (rt : Rt K) : ∀ (vs : List K) (a : Num K),
    ((vs.map Num.flt).foldl (Num.padd (rt.withSum .plain)) a).val = vs.foldl rt.add a.val := by
  intro vs
  induction vs with
  | nil => intro a; rfl
  | cons w vs ih =>
    intro a
    rw [List.map_cons, List.foldl_cons, ih, List.foldl_cons]
    unfold Num.padd
    rw [show (Num.flt w).isInt = false from rfl, Bool.and_false]
    rfl

/-- up to Python 3.11 the model of this file is the one of `Model/S5` -/
theorem C155_weld_model {K : Type} [Field K] [LinearOrder K] (rt : Rt K) (vs : List K) (Q I : K) :
    S5Shear.VwWeldPy (rt.withSum .plain) (vs.map Num.flt) Q I = S5Shear.VwWeld rt (.list vs) Q I := by
  have h : (pySum (rt.withSum .plain) (vs.map Num.flt)).val = vs.foldl rt.add 0 := by
    show ((vs.map Num.flt).foldl (Num.padd (rt.withSum .plain)) (.int 0)).val = _
    rw [foldl_padd_floats]
    simp [Num.int]
  unfold S5Shear.VwWeldPy S5Shear.VwWeld
  rw [h]
  rfl

/-- C155 for welds: the capacity of welds is right to the last digits, however many welds there are -/
theorem C155_weld_partial (vs : List (Num ℚ)) (hf : FloatsOnly vs) (hn : vs.length ≤ 2 ^ 25) {Q I : ℚ} (hQ : 0 < Q) (hI : 0 < I)
    (h1 : 2 ^ (-1000 : ℤ) ≤ total vs * I) (h2 : 2 ^ (-1000 : ℤ) ≤ total vs * I / Q) (v : PySum) (hv : v ≠ .plain) :
    ∃ V, S5Shear.VwWeldPy (Rt.binary64.withSum v) vs Q I = .ok V ∧ RightTo (5 * 2 ^ (-53 : ℤ)) V (total vs * I / Q) := by
  have hs := pySum_ulp hv vs hf hn
  have h0 := total_nonneg_of_floats hf
  refine ⟨rnd64 (rnd64 ((pySum (Rt.binary64.withSum v) vs).val * I) / Q), ?_, ?_⟩
  · unfold S5Shear.VwWeldPy pyDiv
    rw [if_neg hQ.ne']
    rfl
  have hI' : RightTo (2 ^ (-52 : ℤ)) ((pySum (Rt.binary64.withSum v) vs).val * I) (total vs * I) := by
    unfold RightTo at *
    rw [← sub_mul, abs_mul, abs_of_pos hI, ← mul_assoc]
    exact mul_le_mul_of_nonneg_right hs hI.le
  have hm := rightTo_rnd (by norm_num) h1 hI'
  have hq : RightTo (2 ^ (-52 : ℤ) + 2 ^ (-53 : ℤ) * (1 + 2 ^ (-52 : ℤ))) (rnd64 ((pySum (Rt.binary64.withSum v) vs).val * I) / Q) (total vs * I / Q) := by
    unfold RightTo at *
    rw [← sub_div, abs_div, abs_of_pos hQ, ← mul_div_assoc]
    exact div_le_div_of_nonneg_right hm hQ.le
  refine (rightTo_rnd (by norm_num) h2 hq).trans (mul_le_mul_of_nonneg_right (by norm_num) ?_)
  exact (two_zpow_pos _).le.trans h2

theorem foldl_corrected {T : ℚ} : ∀ (xs : List (Num ℚ)) {k : ℕ} {P f c : ℚ}, Corrected T k P f c → 0 ≤ P →
    FloatsOnly xs → P + total xs ≤ T → k + xs.length ≤ 2 ^ 51 →
    |(xs.foldl (Num.padd (Rt.binary64.withSum .plain)) (.flt f)).val - (P + total xs)| ≤ 2 * ((k + xs.length : ℕ) : ℚ) * 2 ^ (-53 : ℤ) * T := by
  intro xs
  induction xs with
  | nil =>
    intro k P f c h _ _ _ _
    simpa [total, Num.flt] using h.near
  | cons x xs ih =>
    intro k P f c h hP hxs hPT hk
    obtain ⟨hi, h0, hd⟩ := hxs x List.mem_cons_self
    have hrest : FloatsOnly xs := fun l hl => hxs l (List.mem_cons_of_mem _ hl)
    have htot : total (x :: xs) = x.val + total xs := by simp [total]
    have htot0 := total_nonneg_of_floats hrest
    rw [htot] at hPT ⊢
    rw [List.length_cons] at hk ⊢
    obtain ⟨hs, -⟩ := h.step hd h0 hP (by linarith) (by omega)
    have r := ih hs (by linarith) hrest (by linarith) (by omega)
    rw [show k + (xs.length + 1) = k + 1 + xs.length by omega, ← add_assoc]
    exact r

/-- C155 up to Python 3.11: the error is at most `2 ^ -52` for each number added -/
theorem C155_plain (ls : List (Num ℚ)) (h : FloatsOnly ls) (hn : ls.length ≤ 2 ^ 51) :
    RightTo (ls.length * 2 ^ (-52 : ℤ)) (pySum (Rt.binary64.withSum .plain) ls).val (total ls) := by
  cases ls with
  | nil => simp [RightTo, pySum, Rt.withSum, total, Num.int]
  | cons x xs =>
    obtain ⟨hi, h0, hd⟩ := h x List.mem_cons_self
    have hrest : FloatsOnly xs := fun l hl => h l (List.mem_cons_of_mem _ hl)
    have hT := total_nonneg_of_floats h
    have htot : total (x :: xs) = x.val + total xs := by simp [total]
    have start : Corrected (total (x :: xs)) 0 x.val x.val 0 := by
      refine ⟨hd, ⟨0, 0, by norm_num, by norm_num, by norm_num⟩, h0, by simp, by simp⟩
    rw [List.length_cons] at hn ⊢
    have r := foldl_corrected xs start h0 hrest htot.ge (by omega)
    have e : Num.padd (Rt.binary64.withSum .plain) (.int 0) x = .flt x.val := by
      unfold Num.padd
      rw [hi, Bool.and_false]
      show Num.flt (rnd64 (((0 : ℤ) : ℚ) + x.val)) = _
      rw [Int.cast_zero, zero_add, isDouble_iff.1 hd]
    show |((x :: xs).foldl (Num.padd (Rt.binary64.withSum .plain)) (.int 0)).val - _| ≤ _
    rw [List.foldl_cons, e, htot]
    refine r.trans ?_
    rw [htot] at hT ⊢
    refine mul_le_mul_of_nonneg_right ?_ hT
    push_cast
    have : (2 : ℚ) ^ (-52 : ℤ) = 2 * 2 ^ (-53 : ℤ) := by norm_num
    rw [this]
    have := two_zpow_pos (-53)
    nlinarith

/-- `1` and `n` numbers of half the last digit of `1` -/
def crumbs (n : ℕ) : List (Num ℚ) := .flt 1 :: List.replicate n (.flt (2 ^ (-53 : ℤ)))

/-- C155 is false up to Python 3.11: the sum of 1 and any number of numbers of `2 ^ -53` is 1, the error grows with their number.  A
hundred elements of 0.1 make a beam shorter than 10 by more than `2 ^ -49` times its length; from Python 3.12 on it is 10 long. -/
theorem C155_counterexample :
    (∀ n, FloatsOnly (crumbs n) ∧ (pySum (Rt.binary64.withSum .plain) (crumbs n)).val = 1 ∧ total (crumbs n) = 1 + n * 2 ^ (-53 : ℤ)) ∧
    ¬ RightTo (2 ^ (-49 : ℤ)) (pySum (Rt.binary64.withSum .plain) (List.replicate 100 (.flt (fastRnd (1/10))))).val
      (total (List.replicate 100 (.flt (fastRnd (1/10))))) ∧
    (∀ v, v ≠ .plain → (pySum (Rt.binary64.withSum v) (List.replicate 100 (.flt (fastRnd (1/10))))).val = 10) := by
  refine ⟨fun n => ⟨?_, ?_, ?_⟩, ?_, ?_⟩
  · intro l hl
    rcases List.mem_cons.1 hl with rfl | hl
    · exact ⟨rfl, by norm_num [Num.flt], 1, 0, by norm_num, by norm_num, by norm_num [Num.flt]⟩
    · rw [List.eq_of_mem_replicate hl]
      exact ⟨rfl, (two_zpow_pos _).le, 1, -53, by norm_num, by norm_num, by norm_num [Num.flt]⟩
  · have r1 : rnd64 (0 + 1) = 1 := by rw [← fastRnd_eq]; decide +kernel
    have r2 : rnd64 (1 + 2 ^ (-53 : ℤ)) = 1 := by rw [← fastRnd_eq]; decide +kernel
    show ((crumbs n).foldl (Num.padd _) (Num.int 0)).val = 1
    have key : ∀ n, (List.replicate n (Num.flt ((2 : ℚ) ^ (-53 : ℤ)))).foldl (Num.padd (Rt.binary64.withSum .plain)) (.flt 1) = .flt 1 := by
      intro n
      induction n with
      | zero => rfl
      | succ n ih =>
        rw [List.replicate_succ, List.foldl_cons]
        have : Num.padd (Rt.binary64.withSum .plain) (.flt 1) (.flt ((2 : ℚ) ^ (-53 : ℤ))) = .flt 1 := congrArg Num.flt r2
        rw [this, ih]
    rw [crumbs, List.foldl_cons]
    have : Num.padd (Rt.binary64.withSum .plain) (.int 0) (.flt (1 : ℚ)) = .flt 1 := by
      show Num.flt (rnd64 (((0 : ℤ) : ℚ) + 1)) = _
      rw [Int.cast_zero, r1]
    rw [this, key]
    rfl
  · simp [total, crumbs, Num.flt]
  · rw [binary64_withSum_eq]
    unfold RightTo
    decide +kernel
  · intro v hv
    rw [binary64_withSum_eq]
    cases v with
    | plain => exact absurd rfl hv
    | floats => decide +kernel
    | all => decide +kernel

/-- ten elements of 0.1 -/
example (v : PySum) (hv : v ≠ .plain) : ∃ L, tenths.length (Rt.binary64.withSum v) = .ok L ∧
    RightTo (2 ^ (-52 : ℤ)) L.val (total (List.replicate 10 (.flt (fastRnd (1/10))))) :=
  C155_length_partial tenths _ tenths_lens (by
    intro l hl
    rw [List.eq_of_mem_replicate hl]
    exact ⟨rfl, by decide +kernel, tenth_double⟩) (by simp) v hv

/-- two welds of 1 MN/m on a 310UB -/
example : ∃ V, S5Shear.VwWeldPy (Rt.binary64.withSum .all) [.flt 1000000, .flt 1000000] (3 / 10000) (1 / 10000) = .ok V ∧
    RightTo (5 * 2 ^ (-53 : ℤ)) V (total [.flt 1000000, .flt 1000000] * (1 / 10000) / (3 / 10000)) := by
  have ht : total [.flt 1000000, .flt (1000000 : ℚ)] = 2000000 := by norm_num [total, Num.flt]
  have hp : (2 : ℚ) ^ (-1000 : ℤ) ≤ 1 := zpow_le_one_of_nonpos₀ (by norm_num) (by norm_num)
  refine C155_weld_partial _ ?_ (by simp) (by norm_num) (by norm_num) (by rw [ht]; linarith) (by rw [ht]; linarith) _ (by simp)
  intro l hl
  have : l = .flt 1000000 := by simpa using hl
  rw [this]
  exact ⟨rfl, by norm_num [Num.flt], 1000000, 0, by norm_num, by norm_num, by norm_num [Num.flt]⟩

end BeamDesign
