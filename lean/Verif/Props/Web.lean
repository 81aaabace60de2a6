import Verif.Spec.Shear
import Verif.Props.S5

/-!
# C96: a stronger, thicker or deeper web is never weaker in shear
-/

namespace BeamDesign

open S5Shear Spec

/-- the capacity is the smaller of yielding and buckling, and buckling does not depend on the yield stress -/
theorem webCapacity_iff {dp tw fy lim fref ratio v : ℝ} (hd : 0 < dp) (ht : 0 < tw) (hf : 0 < fy) (hl : 0 < lim)
    (hr : 0 < fref) (hq : 0 < ratio) :
    WebCapacity dp tw fy lim fref ratio v ↔ v = ratio * min (fy * dp * tw) (lim ^ 2 * fref * tw ^ 3 / dp) := by
  obtain ⟨a, e, p, le1, iff1, val⟩ := C48_range hd ht hf hl hr
  have h1 : 0 < fy / fref := by positivity
  have hsq : √(fy / fref) ^ 2 = fy / fref := Real.sq_sqrt h1.le
  have hs := Real.sqrt_pos.2 h1
  have key : a * VwGeneric (dp * tw) fy ratio = ratio * min (fy * dp * tw) (lim ^ 2 * fref * tw ^ 3 / dp) := by
    unfold VwGeneric
    rcases le_total (dp / tw * √(fy / fref)) lim with h | h
    · rw [iff1.2 h, min_eq_left]
      · ring
      · rw [le_div_iff₀ hd]
        have h2 : (dp / tw * √(fy / fref)) ^ 2 ≤ lim ^ 2 := by gcongr
        rw [mul_pow, hsq] at h2
        have h3 : (dp / tw) ^ 2 * (fy / fref) * (fref * tw ^ 3) ≤ lim ^ 2 * (fref * tw ^ 3) := by gcongr
        have e3 : (dp / tw) ^ 2 * (fy / fref) * (fref * tw ^ 3) = fy * dp * tw * dp := by field_simp
        linarith
    · have v := val h
      rw [min_eq_right]
      · rw [← v]; field_simp
      · rw [div_le_iff₀ hd]
        have h2 : lim ^ 2 ≤ (dp / tw * √(fy / fref)) ^ 2 := by gcongr
        rw [mul_pow, hsq] at h2
        have h3 : lim ^ 2 * (fref * tw ^ 3) ≤ (dp / tw) ^ 2 * (fy / fref) * (fref * tw ^ 3) := by gcongr
        have e3 : (dp / tw) ^ 2 * (fy / fref) * (fref * tw ^ 3) = fy * dp * tw * dp := by field_simp
        linarith
  unfold WebCapacity
  constructor
  · rintro ⟨a', e', rfl⟩
    rw [e] at e'
    injection e' with e'
    rw [← e', key]
  · rintro rfl
    exact ⟨a, e, key.symm⟩

/-- C96, partial: a web of higher yield stress or greater thickness is never weaker in shear.  (Of greater depth it can
be: `C96_counterexample`.) -/
theorem C96_stronger_partial {dp tw tw' fy fy' lim fref ratio v v' : ℝ} (hd : 0 < dp) (ht : 0 < tw) (htt : tw ≤ tw')
    (hf : 0 < fy) (hff : fy ≤ fy') (hl : 0 < lim) (hr : 0 < fref) (hq : 0 < ratio)
    (h : WebCapacity dp tw fy lim fref ratio v) (h' : WebCapacity dp tw' fy' lim fref ratio v') : v ≤ v' := by
  rw [webCapacity_iff hd ht hf hl hr hq] at h
  rw [webCapacity_iff hd (ht.trans_le htt) (hf.trans_le hff) hl hr hq] at h'
  rw [h, h']
  apply mul_le_mul_of_nonneg_left _ hq.le
  have : 0 ≤ fy' * dp := mul_nonneg (hf.le.trans hff) hd.le
  apply min_le_min <;> gcongr

/-- C96: no depth gives more than `ratio · lim · t_w² · √(f_y f_ref)`, and the depth at the slenderness limit gives it;
up to that depth a deeper web is stronger, beyond it weaker. -/
theorem C96_depth {tw fy lim fref ratio : ℝ} (ht : 0 < tw) (hf : 0 < fy) (hl : 0 < lim) (hr : 0 < fref)
    (hq : 0 < ratio) :
    (∀ dp v, 0 < dp → WebCapacity dp tw fy lim fref ratio v → v ≤ ratio * lim * tw ^ 2 * √(fy * fref)) ∧
    (∀ dp, dp = lim / √(fy / fref) * tw →
      WebCapacity dp tw fy lim fref ratio (ratio * lim * tw ^ 2 * √(fy * fref))) ∧
    (∀ dp dp' v v', 0 < dp → dp < dp' → WebCapacity dp tw fy lim fref ratio v →
      WebCapacity dp' tw fy lim fref ratio v' →
      (dp' ≤ lim / √(fy / fref) * tw → v < v') ∧ (lim / √(fy / fref) * tw ≤ dp → v' < v)) := by
  have hp : 0 < fy * fref := by positivity
  have h1 : 0 < fy / fref := by positivity
  have hs := Real.sqrt_pos.2 h1
  have hsq : √(fy / fref) ^ 2 = fy / fref := Real.sq_sqrt h1.le
  have e : √(fy * fref) = √(fy / fref) * fref := by
    have : fy * fref = (√(fy / fref) * fref) ^ 2 := by rw [mul_pow, hsq]; field_simp
    rw [this, Real.sqrt_sq (by positivity)]
  have efy : fy = √(fy / fref) ^ 2 * fref := by rw [hsq]; field_simp
  set s := √(fy / fref) with hsd
  -- the two branches on either side of the limit
  have left : ∀ dp, 0 < dp → dp ≤ lim / s * tw → fy * dp * tw ≤ lim ^ 2 * fref * tw ^ 3 / dp := by
    intro dp hd h
    rw [le_div_iff₀ hd, efy]
    have h2 : s * dp ≤ lim * tw := by
      calc s * dp ≤ s * (lim / s * tw) := by gcongr
        _ = lim * tw := by field_simp
    have h3 : (s * dp) ^ 2 ≤ (lim * tw) ^ 2 := by gcongr
    have h4 : (s * dp) ^ 2 * (fref * tw) ≤ (lim * tw) ^ 2 * (fref * tw) := by gcongr
    linarith
  have right : ∀ dp, 0 < dp → lim / s * tw ≤ dp → lim ^ 2 * fref * tw ^ 3 / dp ≤ fy * dp * tw := by
    intro dp hd h
    rw [div_le_iff₀ hd, efy]
    have h2 : lim * tw ≤ s * dp := by
      calc lim * tw = s * (lim / s * tw) := by field_simp
        _ ≤ s * dp := by gcongr
    have h3 : (lim * tw) ^ 2 ≤ (s * dp) ^ 2 := by gcongr
    have h4 : (lim * tw) ^ 2 * (fref * tw) ≤ (s * dp) ^ 2 * (fref * tw) := by gcongr
    linarith
  refine ⟨?_, ?_, ?_⟩
  · intro dp v hd h
    rw [webCapacity_iff hd ht hf hl hr hq] at h
    rw [h, e]
    have : min (fy * dp * tw) (lim ^ 2 * fref * tw ^ 3 / dp) ≤ lim * tw ^ 2 * (s * fref) := by
      rcases le_total dp (lim / s * tw) with k | k
      · refine (min_le_left _ _).trans ?_
        calc fy * dp * tw ≤ fy * (lim / s * tw) * tw := by gcongr
          _ = lim * tw ^ 2 * (s * fref) := by rw [efy]; field_simp
      · refine (min_le_right _ _).trans ?_
        have hk : 0 < lim / s * tw := by positivity
        calc lim ^ 2 * fref * tw ^ 3 / dp ≤ lim ^ 2 * fref * tw ^ 3 / (lim / s * tw) := by gcongr
          _ = lim * tw ^ 2 * (s * fref) := by field_simp
    calc ratio * min (fy * dp * tw) (lim ^ 2 * fref * tw ^ 3 / dp) ≤ ratio * (lim * tw ^ 2 * (s * fref)) := by gcongr
      _ = _ := by ring
  · rintro dp rfl
    have hd : 0 < lim / s * tw := by positivity
    rw [webCapacity_iff hd ht hf hl hr hq, min_eq_left (left _ hd le_rfl), e]
    rw [efy]; field_simp
  · intro dp dp' v v' hd hlt h h'
    have hd' := hd.trans hlt
    rw [webCapacity_iff hd ht hf hl hr hq] at h
    rw [webCapacity_iff hd' ht hf hl hr hq] at h'
    rw [h, h']
    constructor
    · intro k
      rw [min_eq_left (left _ hd (hlt.le.trans k)), min_eq_left (left _ hd' k)]
      gcongr
    · intro k
      rw [min_eq_right (right _ hd k), min_eq_right (right _ hd' (k.trans hlt.le))]
      gcongr

/-- a 10 mm web of grade 250 steel: 2 m deep it carries less than 1 m deep (504 kN and 1009 kN with the defaults) -/
theorem C96_counterexample : ∃ v v', WebCapacity 1 (1 / 100) 250000000 82 250000000 (6 / 10) v ∧
    WebCapacity 2 (1 / 100) 250000000 82 250000000 (6 / 10) v' ∧ v' < v := by
  refine ⟨_, _, (webCapacity_iff (by norm_num) (by norm_num) (by norm_num) (by norm_num) (by norm_num) (by norm_num)).2 rfl,
    (webCapacity_iff (by norm_num) (by norm_num) (by norm_num) (by norm_num) (by norm_num) (by norm_num)).2 rfl, ?_⟩
  rw [min_eq_right (by norm_num), min_eq_right (by norm_num)]
  norm_num

/-- the hypotheses of `C96_stronger_partial`: 10 mm of grade 250 and 12 mm of grade 350 -/
example : ∃ v v', WebCapacity 1 (1 / 100) 250000000 82 250000000 (6 / 10) v ∧
    WebCapacity 1 (12 / 1000) 350000000 82 250000000 (6 / 10) v' ∧ v ≤ v' := by
  have h := fun t f (ht : 0 < t) (hf : 0 < f) => (webCapacity_iff (dp := 1) (tw := t) (fy := f) (lim := 82)
    (fref := 250000000) (ratio := 6 / 10) (by norm_num) ht hf (by norm_num) (by norm_num) (by norm_num)).2 rfl
  have a := h (1 / 100) 250000000 (by norm_num) (by norm_num)
  have b := h (12 / 1000) 350000000 (by norm_num) (by norm_num)
  exact ⟨_, _, a, b, C96_stronger_partial (by norm_num) (by norm_num) (by norm_num) (by norm_num) (by norm_num)
    (by norm_num) (by norm_num) (by norm_num) a b⟩

end BeamDesign
