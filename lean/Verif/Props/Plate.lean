import Verif.Props.Effective
import Verif.Props.Yield

/-!
# C100, C101: effective areas of plates and tubes and the capacities they give
-/

namespace BeamDesign

open Effective S6

/-- The specification of the effective area of a flat plate: the width counted is the actual width, but at
most the width at which the slenderness `b_e/t·√(f_y/f_ref)` reaches the yield limit `ley`. -/
theorem aPlate_val {b t fy ley fref : ℝ} (hb : 0 < b) (ht : 0 < t) (hf : 0 < fy) (hr : 0 < fref) :
    aPlate b t fy ley fref = .ok (min (ley * t / √(fy / fref)) b * t) := by
  have hq : 0 < fy / fref := by positivity
  have hs := Real.sqrt_pos.2 hq
  have hl : b / t * √(fy / fref) ≠ 0 := by positivity
  simp only [aPlate, lambdaPlate, bPlate, rdiv_ok ht.ne', rdiv_ok hr.ne', Except.bind_ok', rsqrt_ok hq.le,
    pure, Except.pure, rdiv_ok hl]
  congr 3
  field_simp

/-- C100: a plate at least as wide and as thick never has a smaller effective area, a plate in a stronger
steel never a larger one, but its squash load `N_s = A_e f_y` never goes down. -/
theorem C100_plate {b b' t t' fy fy' ley fref a a' : ℝ} (hb : 0 < b) (hbb : b ≤ b') (ht : 0 < t) (htt : t ≤ t')
    (hf : 0 < fy) (hff : fy ≤ fy') (hy : 0 ≤ ley) (hr : 0 < fref)
    (h : aPlate b t fy ley fref = .ok a) (h' : aPlate b' t' fy' ley fref = .ok a') :
    Ns a fy ≤ Ns a' fy' ∧ (fy' = fy → a ≤ a') ∧ (b' = b → t' = t → a' ≤ a) := by
  have hb' := hb.trans_le hbb
  have ht' := ht.trans_le htt
  have hf' := hf.trans_le hff
  rw [aPlate_val hb ht hf hr] at h
  rw [aPlate_val hb' ht' hf' hr] at h'
  injection h with h; injection h' with h'
  subst h; subst h'
  have hs := Real.sqrt_pos.2 (show 0 < fy / fref by positivity)
  have hs' := Real.sqrt_pos.2 (show 0 < fy' / fref by positivity)
  have hss : √(fy / fref) ≤ √(fy' / fref) := by gcongr
  have key : ∀ f : ℝ, 0 < f → f / √(f / fref) = fref * √(f / fref) := by
    intro f hf
    have h1 := Real.sq_sqrt (show 0 ≤ f / fref by positivity)
    have h2 := Real.sqrt_pos.2 (show 0 < f / fref by positivity)
    rw [div_eq_iff h2.ne']
    have : f = fref * (√(f / fref) ^ 2) := by rw [h1]; field_simp
    nlinarith
  have form : ∀ b t f : ℝ, 0 < f → 0 ≤ t → min (ley * t / √(f / fref)) b * t * f =
      min (ley * t * (fref * √(f / fref))) (b * f) * t := by
    intro b t f hf _
    rw [← key f hf]
    rw [mul_assoc, mul_comm t f, ← mul_assoc, min_mul_of_nonneg _ _ hf.le]
    congr 2
    ring
  refine ⟨?_, ?_, ?_⟩
  · rw [Ns, Ns, form _ _ _ hf ht.le, form _ _ _ hf' ht'.le]
    have h0 : 0 ≤ min (ley * t' * (fref * √(fy' / fref))) (b' * fy') := by positivity
    calc _ ≤ min (ley * t' * (fref * √(fy' / fref))) (b' * fy') * t := by gcongr
      _ ≤ _ := by gcongr
  · rintro rfl
    have h0 : 0 ≤ min (ley * t' / √(fy' / fref)) b' := by positivity
    calc _ ≤ min (ley * t' / √(fy' / fref)) b' * t := by gcongr
      _ ≤ _ := by gcongr
  · rintro rfl rfl
    gcongr

/-- C100: beyond the limiting slenderness more width adds nothing, and doubling the thickness of a plate
that stays slender quadruples the effective area. -/
theorem C100_slender {b b' t fy ley fref a a' : ℝ} (hb : 0 < b) (hb' : 0 < b') (ht : 0 < t) (hf : 0 < fy)
    (hr : 0 < fref) (hs : ley ≤ b / t * √(fy / fref))
    (h : aPlate b t fy ley fref = .ok a) :
    (b ≤ b' → aPlate b' t fy ley fref = .ok a' → a' = a) ∧
    (ley ≤ b / (2 * t) * √(fy / fref) → aPlate b (2 * t) fy ley fref = .ok a' → a' = 4 * a) := by
  have hq := Real.sqrt_pos.2 (show 0 < fy / fref by positivity)
  have le_of : ∀ b t : ℝ, 0 < t → ley ≤ b / t * √(fy / fref) → ley * t / √(fy / fref) ≤ b := by
    intro b t ht h
    rw [div_le_iff₀ hq]
    calc ley * t ≤ b / t * √(fy / fref) * t := by gcongr
      _ = _ := by field_simp
  rw [aPlate_val hb ht hf hr, min_eq_left (le_of b t ht hs)] at h
  injection h with h
  subst h
  constructor
  · intro hbb h'
    rw [aPlate_val hb' ht hf hr, min_eq_left ((le_of b t ht hs).trans hbb)] at h'
    injection h' with h'
    exact h'.symm
  · intro hs2 h'
    rw [aPlate_val hb (by positivity) hf hr, min_eq_left (le_of b _ (by positivity) hs2)] at h'
    injection h' with h'
    rw [← h']
    ring

/-- C100: a column whose form factor comes from its effective area (`s6_2_A_e_flatplate`, then
`s6_2_k_f_Form_Factor` over the gross area) never gets weaker in a stronger steel, although its form factor
may go down. -/
theorem C100_column {b t fy fy' ley fref le r ab a a' k k' : ℝ} {x x' : Flexural}
    (hb : 0 < b) (ht : 0 < t) (hf : 0 < fy) (hff : fy ≤ fy') (hy : 0 < ley) (hl : 0 ≤ le) (hrr : 0 < r)
    (hr : 0 < fref) (hab : -1 ≤ ab) (hab1 : ab ≤ 1)
    (ha : aPlate b t fy ley fref = .ok a) (ha' : aPlate b t fy' ley fref = .ok a')
    (hk : kf (b * t) a = .ok k) (hk' : kf (b * t) a' = .ok k')
    (h : NcFlexural (b * t) k le r fy fref ab = .ok x)
    (h' : NcFlexural (b * t) k' le r fy' fref ab = .ok x') : x.Nc ≤ x'.Nc ∧ k' ≤ k := by
  have hf' := hf.trans_le hff
  have hA : 0 < b * t := by positivity
  obtain ⟨_, _, _, _, e, p, _⟩ := C59_area_partial hb ht hf hy hr
  obtain ⟨_, _, _, _, e', p', _⟩ := C59_area_partial hb ht hf' hy hr
  rw [ha] at e; rw [ha'] at e'
  injection e with e; injection e' with e'
  subst e; subst e'
  obtain ⟨c, _, d⟩ := C100_plate hb le_rfl ht le_rfl hf hff hy.le hr ha ha'
  rw [kf, rdiv_ok hA.ne'] at hk hk'
  injection hk with hk; injection hk' with hk'
  subst hk; subst hk'
  refine ⟨C93_squash hA.le le_rfl (by positivity) (by positivity) hf hf' ?_ hl hrr hr hab hab1 h h', ?_⟩
  · rw [div_mul_eq_mul_div, div_mul_eq_mul_div]
    exact div_le_div_of_nonneg_right c hA.le
  · exact div_le_div_of_nonneg_right (d rfl rfl) hA.le

/-- a plate of slenderness 45 in grade 250 and of about 53 in grade 350, limit 40: both areas, form factors
and column capacities are numbers -/
example : ∃ a a' k k' x x', aPlate 450 10 250 40 250 = .ok a ∧ aPlate 450 10 350 40 250 = .ok a' ∧
    kf (450 * 10) a = .ok k ∧ kf (450 * 10) a' = .ok k' ∧
    NcFlexural (450 * 10) k 3000 50 250 250 0 = .ok x ∧ NcFlexural (450 * 10) k' 3000 50 350 250 0 = .ok x' ∧
    x.Nc ≤ x'.Nc := by
  obtain ⟨_, a, _, _, e, p, q, _⟩ := C59_area_partial (b := 450) (t := 10) (fy := 250) (ley := 40) (fref := 250)
    (by norm_num) (by norm_num) (by norm_num) (by norm_num) (by norm_num)
  obtain ⟨_, a', _, _, e', p', q', _⟩ := C59_area_partial (b := 450) (t := 10) (fy := 350) (ley := 40) (fref := 250)
    (by norm_num) (by norm_num) (by norm_num) (by norm_num) (by norm_num)
  obtain ⟨k, hk, hk0, _⟩ := C59_form_factor_partial p q
  obtain ⟨k', hk', hk0', _⟩ := C59_form_factor_partial p' q'
  have pos : ∀ f k : ℝ, 0 < k → 0 < f → lamOf (3000 / 50 * √k * √(f / 250)) 0 ≠ 0 := by
    intro f k hk hf
    rw [lamOf_eq, zero_mul, add_zero]
    positivity
  obtain ⟨x, hx⟩ := NcFlexural_ok (An := 450 * 10) hk0.le (by norm_num) (by norm_num) (by norm_num)
    (pos 250 k hk0 (by norm_num))
  obtain ⟨x', hx'⟩ := NcFlexural_ok (An := 450 * 10) hk0'.le (by norm_num) (by norm_num) (by norm_num)
    (pos 350 k' hk0' (by norm_num))
  exact ⟨a, a', k, k', x, x', e, e', hk, hk', hx, hx',
    (C100_column (by norm_num) (by norm_num) (by norm_num) (by norm_num) (by norm_num) (by norm_num)
      (by norm_num) (by norm_num) (by norm_num) (by norm_num) e e' hk hk' hx hx').1⟩

/-- the effective diameter of a tube: `s6_2_λ_e_CHS` followed by `s6_2_d_e_CHS`, as the first two statements
of `s6_2_A_e_CHS` call them (as4100_sect_props.py 305-323) -/
noncomputable def tubeDiameter (d t fy ley fref : ℝ) : Py ℝ := do
  let le ← lambdaCHS d t fy fref
  dCHS d le ley

theorem tube_val {d t fy ley fref : ℝ} (hd : 0 < d) (ht : 0 < t) (hf : 0 < fy) (hy : 0 < ley) (hr : 0 < fref) :
    tubeDiameter d t fy ley fref = .ok (min (min (d * √(ley / (d / t * (fy / fref))))
      (d * (3 * ley / (d / t * (fy / fref))) ^ 2)) d) := by
  have hl : d / t * (fy / fref) ≠ 0 := by positivity
  have hq : 0 ≤ ley / (d / t * (fy / fref)) := by positivity
  simp only [tubeDiameter, lambdaCHS, dCHS, rdiv_ok ht.ne', rdiv_ok hr.ne', Except.bind_ok', rsqrt_ok hq,
    pure, Except.pure, rdiv_ok hl]

/-- the same in one parameter `c = ley·t·f_ref/f_y`, the diameter at which the tube reaches the limit -/
theorem tube_eq {d t fy ley fref : ℝ} (hd : 0 < d) (ht : 0 < t) (hf : 0 < fy) (hy : 0 < ley) (hr : 0 < fref) :
    tubeDiameter d t fy ley fref = .ok (min (min (√(ley * t * fref / fy * d))
      (9 * (ley * t * fref / fy) ^ 2 / d)) d) := by
  rw [tube_val hd ht hf hy hr]
  have e : ley / (d / t * (fy / fref)) = (ley * t * fref / fy * d) / d ^ 2 := by field_simp
  have e1 : d * √(ley / (d / t * (fy / fref))) = √(ley * t * fref / fy * d) := by
    rw [e, Real.sqrt_div' _ (by positivity), Real.sqrt_sq hd.le]
    field_simp
  have e2 : d * (3 * ley / (d / t * (fy / fref))) ^ 2 = 9 * (ley * t * fref / fy) ^ 2 / d := by
    field_simp
    ring
  rw [e1, e2]

/-- C101, partial: as long as the larger tube is not beyond about 4.33 times the limiting slenderness
(`λ³ ≤ 81 ley³`), a wider, thicker or stronger tube never has a smaller product of effective diameter and
yield stress.  A thicker tube never has a smaller effective diameter, a stronger one never a larger one,
whatever the slenderness. -/
theorem C101_tube_partial {d d' t t' fy fy' ley fref x x' : ℝ} (hd : 0 < d) (hdd : d ≤ d') (ht : 0 < t)
    (htt : t ≤ t') (hf : 0 < fy) (hff : fy ≤ fy') (hy : 0 < ley) (hr : 0 < fref)
    (h : tubeDiameter d t fy ley fref = .ok x) (h' : tubeDiameter d' t' fy' ley fref = .ok x') :
    ((∃ l, lambdaCHS d' t' fy' fref = .ok l ∧ l ^ 3 ≤ 81 * ley ^ 3) → x * fy ≤ x' * fy') ∧
    (d' = d → fy' = fy → x ≤ x') ∧ (d' = d → t' = t → x' ≤ x) := by
  have hd' := hd.trans_le hdd
  have ht' := ht.trans_le htt
  have hf' := hf.trans_le hff
  rw [tube_eq hd ht hf hy hr] at h
  rw [tube_eq hd' ht' hf' hy hr] at h'
  injection h with h; injection h' with h'
  subst h; subst h'
  refine ⟨?_, ?_, ?_⟩
  · rintro ⟨l, hl, hle⟩
    simp only [lambdaCHS, rdiv_ok ht'.ne', rdiv_ok hr.ne', Except.bind_ok', pure, Except.pure] at hl
    injection hl with hl
    subst hl
    set c := ley * t * fref / fy with hc
    set c' := ley * t' * fref / fy' with hc'
    have pc : 0 < c := by positivity
    have pc' : 0 < c' := by positivity
    have hcf : c * fy ≤ c' * fy' := by
      rw [hc, hc', div_mul_cancel₀ _ hf.ne', div_mul_cancel₀ _ hf'.ne']
      gcongr
    have h3 : d' ^ 3 ≤ 81 * c' ^ 3 := by
      have e : (d' / t' * (fy' / fref)) = d' * (ley / c') := by rw [hc']; field_simp
      rw [e, mul_pow, div_pow] at hle
      have p3 : 0 < ley ^ 3 := by positivity
      have q3 : 0 < c' ^ 3 := by positivity
      have : d' ^ 3 * (ley ^ 3 / c' ^ 3) * (c' ^ 3 / ley ^ 3) ≤ 81 * ley ^ 3 * (c' ^ 3 / ley ^ 3) := by gcongr
      have e1 : d' ^ 3 * (ley ^ 3 / c' ^ 3) * (c' ^ 3 / ley ^ 3) = d' ^ 3 := by field_simp
      have e2 : 81 * ley ^ 3 * (c' ^ 3 / ley ^ 3) = 81 * c' ^ 3 := by field_simp
      rwa [e1, e2] at this
    have drop : √(c' * d') ≤ 9 * c' ^ 2 / d' := by
      rw [Real.sqrt_le_left (by positivity), div_pow, le_div_iff₀ (by positivity)]
      calc c' * d' * d' ^ 2 = c' * d' ^ 3 := by ring
        _ ≤ c' * (81 * c' ^ 3) := by gcongr
        _ = _ := by ring
    rw [min_eq_left drop, min_mul_of_nonneg _ _ hf'.le]
    have root : ∀ c d f : ℝ, 0 ≤ f → √(c * d) * f = √(c * f * (d * f)) := by
      intro c d f h0
      rw [show c * f * (d * f) = f ^ 2 * (c * d) by ring, Real.sqrt_mul (sq_nonneg f) (c * d), Real.sqrt_sq h0, mul_comm]
    refine le_min ?_ ?_
    · calc _ ≤ √(c * d) * fy := by gcongr; exact (min_le_left _ _).trans (min_le_left _ _)
        _ = √(c * fy * (d * fy)) := root _ _ _ hf.le
        _ ≤ √(c' * fy' * (d' * fy')) := by gcongr
        _ = _ := (root _ _ _ hf'.le).symm
    · calc _ ≤ d * fy := by gcongr; exact min_le_right _ _
        _ ≤ _ := by gcongr
  · rintro rfl rfl
    gcongr
  · rintro rfl rfl
    gcongr

/-- a tube of slenderness 2 limits and a wider and stronger one of just over 4 limits meet the hypotheses -/
example : (∃ x, tubeDiameter 164 1 250 82 250 = .ok x) ∧ (∃ x, tubeDiameter 230 1 350 82 250 = .ok x) ∧
    ∃ l, lambdaCHS 230 1 350 250 = .ok l ∧ l ^ 3 ≤ 81 * 82 ^ 3 := by
  refine ⟨⟨_, tube_eq (by norm_num) (by norm_num) (by norm_num) (by norm_num) (by norm_num)⟩,
    ⟨_, tube_eq (by norm_num) (by norm_num) (by norm_num) (by norm_num) (by norm_num)⟩, ?_⟩
  simp only [lambdaCHS, rdiv_ok (show (1 : ℝ) ≠ 0 by norm_num), rdiv_ok (show (250 : ℝ) ≠ 0 by norm_num),
    Except.bind_ok']
  exact ⟨_, rfl, by norm_num⟩

/-- C101 is false for very slender tubes: of two tubes with the same wall the one with twice the diameter
has half the effective diameter, and the same tube in a steel twice as strong has half the product of
effective diameter and yield stress. -/
theorem C101_counterexample :
    tubeDiameter 410 1 250 82 250 = .ok (738 / 5) ∧ tubeDiameter 820 1 250 82 250 = .ok (369 / 5) ∧
    tubeDiameter 410 1 500 82 250 = .ok (369 / 10) := by
  have lb : ∀ a b : ℝ, 0 ≤ a → a ^ 2 ≤ b → a ≤ √b := fun a b _ h => Real.le_sqrt_of_sq_le h
  refine ⟨?_, ?_, ?_⟩ <;>
  · rw [tube_eq (by norm_num) (by norm_num) (by norm_num) (by norm_num) (by norm_num), min_eq_left, min_eq_right]
    · norm_num
    · exact lb _ _ (by norm_num) (by norm_num)
    · exact (min_le_right _ _).trans (by norm_num)

end BeamDesign
