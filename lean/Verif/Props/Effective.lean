import Verif.Model.Effective
import Verif.Lemmas.Real
import Mathlib.Tactic.Positivity
import Mathlib.Tactic.Linarith
import Mathlib.Tactic.FieldSimp
import Mathlib.Tactic.NormNum

/-!
# Effective areas: C59
-/

namespace BeamDesign

open Effective

theorem min_mul_self {b q : ℝ} (hb : 0 < b) (hq : 0 < q) :
    0 < min (b * q) b ∧ min (b * q) b ≤ b ∧ (min (b * q) b = b ↔ 1 ≤ q) ∧ (q ≤ 1 → min (b * q) b = b * q) := by
  refine ⟨lt_min (by positivity) hb, min_le_right _ _, ?_, ?_⟩
  · rw [min_eq_right_iff]
    constructor
    · intro h; nlinarith
    · intro h; nlinarith
  · intro h
    apply min_eq_left
    nlinarith

/-- C59, partial (plates): the effective width is positive, not above the width, and equal to it exactly
for a stocky plate. -/
theorem C59_width_partial {b le ley : ℝ} (hb : 0 < b) (hl : 0 < le) (hy : 0 < ley) :
    ∃ be, bPlate b le ley = .ok be ∧ 0 < be ∧ be ≤ b ∧ (be = b ↔ le ≤ ley) := by
  obtain ⟨h1, h2, h3, _⟩ := min_mul_self hb (show 0 < ley / le by positivity)
  refine ⟨min (b * (ley / le)) b, ?_, h1, h2, ?_⟩
  · simp only [bPlate, rdiv_ok hl.ne', Except.bind_ok']
    rfl
  · rw [h3, le_div_iff₀ hl, one_mul]

/-- C59, partial (tubes): the effective diameter is positive, not above the diameter, and equal to it
exactly for a stocky tube. -/
theorem C59_diameter_partial {d le ley : ℝ} (hd : 0 < d) (hl : 0 < le) (hy : 0 < ley) :
    ∃ de, dCHS d le ley = .ok de ∧ 0 < de ∧ de ≤ d ∧ (de = d ↔ le ≤ ley) := by
  have hq : 0 < ley / le := by positivity
  refine ⟨min (min (d * √(ley / le)) (d * (3 * ley / le) ^ 2)) d, ?_, ?_, min_le_right _ _, ?_⟩
  · simp only [dCHS, rdiv_ok hl.ne', Except.bind_ok', rsqrt_ok hq.le]
    rfl
  · have := Real.sqrt_pos.2 hq
    exact lt_min (lt_min (by positivity) (by positivity)) hd
  · rw [min_eq_right_iff, le_min_iff]
    constructor
    · rintro ⟨h, _⟩
      have h1 : 1 ≤ √(ley / le) := by nlinarith
      rw [Real.one_le_sqrt, le_div_iff₀ hl, one_mul] at h1
      exact h1
    · intro h
      have h1 : 1 ≤ ley / le := by rwa [le_div_iff₀ hl, one_mul]
      have h2 : 1 ≤ √(ley / le) := Real.one_le_sqrt.2 h1
      have e : 3 * ley / le = 3 * (ley / le) := by ring
      rw [e]
      constructor
      · nlinarith
      · have : 1 ≤ (3 * (ley / le)) ^ 2 := by nlinarith
        nlinarith

/-- C59, partial (plates): the effective area is positive, not above the gross area, equal to it exactly
when the slenderness is within the limit; for a more slender plate the effective part has exactly the
limiting slenderness. -/
theorem C59_area_partial {b t fy ley fref : ℝ} (hb : 0 < b) (ht : 0 < t) (hf : 0 < fy) (hy : 0 < ley)
    (hr : 0 < fref) :
    ∃ le ae, lambdaPlate b t fy fref = .ok le ∧ le = b / t * √(fy / fref) ∧ aPlate b t fy ley fref = .ok ae ∧
      0 < ae ∧ ae ≤ b * t ∧ (ae = b * t ↔ le ≤ ley) ∧
      (ley ≤ le → lambdaPlate (ae / t) t fy fref = .ok ley) := by
  have hq : 0 < fy / fref := by positivity
  have hs := Real.sqrt_pos.2 hq
  have hlam : ∀ b, lambdaPlate b t fy fref = .ok (b / t * √(fy / fref)) := by
    intro b
    simp only [lambdaPlate, rdiv_ok ht.ne', rdiv_ok hr.ne', Except.bind_ok', rsqrt_ok hq.le]
    rfl
  have hl : 0 < b / t * √(fy / fref) := by positivity
  obtain ⟨be, e, h1, h2, h3⟩ := C59_width_partial hb hl hy
  refine ⟨_, be * t, hlam b, rfl, ?_, by positivity, by nlinarith, ?_, ?_⟩
  · simp only [aPlate, hlam, Except.bind_ok', e]
    rfl
  · rw [← h3]
    constructor
    · intro h; exact mul_right_cancel₀ ht.ne' h
    · intro h; rw [h]
  · intro h
    rw [hlam]
    congr 1
    have hbe : be = b * (ley / (b / t * √(fy / fref))) := by
      simp only [bPlate, rdiv_ok hl.ne', Except.bind_ok'] at e
      injection e with e
      rw [← e]
      apply (min_mul_self hb (show 0 < ley / (b / t * √(fy / fref)) by positivity)).2.2.2
      rwa [div_le_one hl]
    rw [hbe]
    field_simp

/-- C59, partial: the form factor of an effective area not above the net area is in (0, 1]. -/
theorem C59_form_factor_partial {An Ae : ℝ} (h : 0 < Ae) (hA : Ae ≤ An) :
    ∃ k, kf An Ae = .ok k ∧ 0 < k ∧ k ≤ 1 ∧ (k = 1 ↔ Ae = An) ∧ An * k = Ae := by
  have hn : 0 < An := lt_of_lt_of_le h hA
  refine ⟨Ae / An, rdiv_ok hn.ne', by positivity, (div_le_one hn).2 hA, ?_, by field_simp⟩
  rw [div_eq_one_iff_eq hn.ne']

/-- C59 is false for tubes: `s6_2_A_e_CHS` never returns an area; with positive dimensions it always raises
`TypeError`. -/
theorem C59_tube_counterexample (d t fy ley fref : ℝ) :
    (∀ a, aCHS d t fy ley fref ≠ .ok a) ∧
    (0 < d → 0 < t → 0 < fy → 0 < ley → 0 < fref → aCHS d t fy ley fref = .error .typeError) := by
  have hnew : ∀ a b c e, HollowCircle.new a b c e = .error .typeError := by
    intro a b c e; unfold HollowCircle.new; split <;> rfl
  constructor
  · intro a h
    simp only [aCHS, hnew] at h
    cases h1 : lambdaCHS d t fy fref with
    | error e => rw [h1] at h; cases h
    | ok le =>
      rw [h1, Except.bind_ok'] at h
      cases h2 : dCHS d le ley with
      | error e => rw [h2] at h; cases h
      | ok de => rw [h2, Except.bind_ok'] at h; cases h
  · intro hd ht hf hy hr
    obtain ⟨de, e, _⟩ := C59_diameter_partial hd (show 0 < d / t * (fy / fref) by positivity) hy
    simp only [aCHS, lambdaCHS, rdiv_ok ht.ne', rdiv_ok hr.ne', Except.bind_ok', hnew]
    simp only [pure, Except.pure, Except.bind_ok', e]
    rfl

/-- C59, the cause: two abstract names are left in `HollowCircle`, none in `Circle`. -/
theorem C59_abstract : leftAbstract hollowCircleNames = ["is_composite", "area_net"] ∧ leftAbstract circleNames = [] := by
  decide

/-- a slender and a stocky plate -/
example : (∃ be, bPlate 100 80 40 = .ok be ∧ be < 100) ∧ (∃ be, bPlate 100 30 40 = .ok be ∧ be = 100) := by
  constructor
  · obtain ⟨be, e, _, h, h'⟩ := C59_width_partial (b := 100) (le := 80) (ley := 40) (by norm_num) (by norm_num) (by norm_num)
    exact ⟨be, e, lt_of_le_of_ne h (fun hc => by have := h'.1 hc; norm_num at this)⟩
  · obtain ⟨be, e, _, _, h'⟩ := C59_width_partial (b := 100) (le := 30) (ley := 40) (by norm_num) (by norm_num) (by norm_num)
    exact ⟨be, e, h'.2 (by norm_num)⟩

end BeamDesign
