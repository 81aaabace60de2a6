import Verif.Spec.Preset
import Verif.Props.Effective
import Verif.Props.S5
import Verif.Props.Material

/-!
# C87: one yield stress serves all formulas with their default arguments
-/

namespace BeamDesign

open Effective Spec S5Shear

theorem getF_mem {rows : List (List ℚ)} {t v : ℚ} (h : getF t (.str "Y") rows = .ok v) :
    ∃ row, rows[1]? = some row ∧ v ∈ row := by
  obtain ⟨row, ts, vals, h1, -, h3, -, -, i, ti, -, h4, -⟩ := getF_iff.1 h
  rw [asksYield_row (Or.inr (Or.inr rfl) : AsksYield (.str "Y"))] at h1
  obtain rfl := Except.ok.inj h1
  exact ⟨vals, h3, List.mem_of_getElem? h4⟩

/-- the second row of the table of strengths, all at least 200 MPa and at most 450 MPa -/
def yieldsIn (lo hi : ℚ) (m : Material ℚ) : Bool :=
  match m.properties.lookup "strengths" with
  | some (.table rows) => match rows[1]? with
    | some row => row.all fun f => decide (lo ≤ f ∧ f ≤ hi)
    | none => true
  | _ => true

theorem shipped_range {fy : ℚ} (h : ShippedYield fy) : 200000000 ≤ fy ∧ fy ≤ 450000000 := by
  obtain ⟨ms, name, m, rows, t, hms, hm, hp, hf⟩ := h
  have : (Material.loadAll shippedFile).map (fun l => l.all fun km => yieldsIn 200000000 450000000 km.2) = .ok true := by
    decide +kernel
  rw [hms] at this
  have h1 := List.all_eq_true.1 (Except.ok.inj this) _ hm
  have hl : m.properties.lookup "strengths" = some (.table rows) := by
    unfold Material.property at hp
    split at hp
    · rename_i v e; rw [e]; exact congrArg some (Except.ok.inj hp)
    · cases hp
  obtain ⟨row, hr, hv⟩ := getF_mem hf
  simp only [yieldsIn, hl, hr, List.all_eq_true, decide_eq_true_eq] at h1
  exact h1 _ hv

theorem lambdaPlate_ok {b t fy fref : ℝ} (ht : 0 < t) (hf : 0 < fy) (hr : 0 < fref) :
    lambdaPlate b t fy fref = .ok (b / t * √(fy / fref)) := by
  simp only [lambdaPlate, rdiv_ok ht.ne', rdiv_ok hr.ne', Except.bind_ok',
    rsqrt_ok (show 0 ≤ fy / fref by positivity), pure, Except.pure]

theorem sqrt_thousand (fy : ℝ) : √(fy / 250) = 1000 * √(fy / reference) := by
  rw [show fy / 250 = 1000 ^ 2 * (fy / reference) by unfold reference; ring,
    Real.sqrt_mul (by norm_num), Real.sqrt_sq (by norm_num)]

/-- C87, counterexample: for every plate and tube and every yield stress in pascals, the plate slenderness with the
default reference stress is 1000 times, the tube slenderness a million times that against 250 MPa. -/
theorem C87_slenderness_counterexample {b t fy : ℝ} (ht : 0 < t) (hf : 0 < fy) :
    lambdaPlatePreset b t fy = .ok (1000 * (b / t * √(fy / reference))) ∧
    lambdaCHSPreset b t fy = .ok (1000000 * (b / t * (fy / reference))) := by
  constructor
  · rw [lambdaPlatePreset, lambdaPlate_ok ht hf (by norm_num), sqrt_thousand]
    congr 1; ring
  · simp only [lambdaCHSPreset, lambdaCHS, rdiv_ok ht.ne', rdiv_ok (show (250 : ℝ) ≠ 0 by norm_num), Except.bind_ok',
      pure, Except.pure, reference]
    congr 1; ring

/-- C87, counterexample: a plate of any shipped steel, at least as wide as thick, is never fully effective with the
default reference stress, whatever the yield slenderness limit up to 800 (those of AS4100 are below 100).  A plate
whose true slenderness is within the limit, so that all of it is effective, gets the share `limit / (1000 true
slenderness)` of its area. -/
theorem C87_area_counterexample {b t ley : ℝ} {fy : ℚ} (hfy : ShippedYield fy) (ht : 0 < t) (hb : t ≤ b) (hl : 0 < ley)
    (hl' : ley ≤ 800) :
    ∃ ae, aPlatePreset b t fy ley = .ok ae ∧ ae < b * t ∧
      ae = ley / (1000 * (b / t * √(fy / reference))) * (b * t) ∧
      (b / t * √(fy / reference) ≤ ley → aPlate b t fy ley reference = .ok (b * t)) := by
  obtain ⟨lo, -⟩ := shipped_range hfy
  have lo' : (200000000 : ℝ) ≤ fy := by exact_mod_cast lo
  have hf : (0 : ℝ) < fy := by linarith
  have hb0 : 0 < b := by linarith
  have hs : (894 / 1000 : ℝ) ≤ √(fy / reference) := by
    apply Real.le_sqrt_of_sq_le
    rw [reference, le_div_iff₀ (by norm_num)]
    linarith
  have hbt : 1 ≤ b / t := (one_le_div ht).2 hb
  have hlam : (894 : ℝ) ≤ 1000 * (b / t * √(fy / reference)) := by nlinarith
  obtain ⟨le, ae, h1, h2, h3, -, h5, h6, -⟩ := C59_area_partial hb0 ht hf hl (show (0 : ℝ) < 250 by norm_num)
  have hle : le = 1000 * (b / t * √(fy / reference)) := by rw [h2, sqrt_thousand]; ring
  have hne : ¬ le ≤ ley := by rw [hle]; linarith
  refine ⟨ae, h3, lt_of_le_of_ne h5 (fun e => hne (h6.1 e)), ?_, ?_⟩
  · rw [aPlate, h1, Except.bind_ok', bPlate] at h3
    have hq : le ≠ 0 := by rw [hle]; linarith
    rw [rdiv_ok hq, Except.bind_ok'] at h3
    have hle1 : ley / le ≤ 1 := by
      rw [div_le_one (by linarith [not_le.1 hne])]; exact (not_le.1 hne).le
    have hm : min (b * (ley / le)) b = b * (ley / le) := min_eq_left (by nlinarith)
    simp only [hm, pure, Except.pure, Except.bind_ok'] at h3
    rw [← hle, ← Except.ok.inj h3]
    ring
  · intro h
    obtain ⟨le', ae', g1, g2, g3, -, g5, g6, -⟩ :=
      C59_area_partial hb0 ht hf hl (show 0 < reference by norm_num [reference])
    rw [g3, g6.2 (by rw [g2]; exact h)]

/-- C87, part: the shear buckling factor and the member slenderness do measure yield stresses in pascals against
250 MPa.  Missing: the local buckling functions, for which the claim is false (`C87_slenderness_counterexample`). -/
theorem C87_pascals_partial {fy : ℝ} (hf : 0 < fy) :
    (∀ dp tw, 0 < dp → 0 < tw → ∃ a, alphaVPreset dp tw fy = .ok a ∧ 0 < a ∧ a ≤ 1 ∧
      (a = 1 ↔ dp / tw * √(fy / reference) ≤ 82) ∧
      (82 ≤ dp / tw * √(fy / reference) → a * (dp / tw) ^ 2 * (fy / reference) = 82 ^ 2)) ∧
    (∀ kf le r, 0 ≤ kf → 0 < r → S6.lambdaNPreset kf le r fy = .ok (le / r * √kf * √(fy / reference))) := by
  constructor
  · intro dp tw hd ht
    exact C48_range hd ht hf (by norm_num) (by norm_num)
  · intro kf le r hk hr
    simp only [S6.lambdaNPreset, S6.lambdaN, rdiv_ok hr.ne', rdiv_ok (show (250000000 : ℝ) ≠ 0 by norm_num),
      Except.bind_ok', rsqrt_ok hk, rsqrt_ok (show 0 ≤ fy / 250000000 by positivity), pure, Except.pure, reference]

/-- C87, part: the local buckling functions measure yield stresses in megapascals against 250 MPa. -/
theorem C87_megapascals_partial {fy : ℝ} (b t : ℝ) :
    lambdaPlatePreset b t fy = lambdaPlate b t (1000000 * fy) reference ∧
    lambdaCHSPreset b t fy = lambdaCHS b t (1000000 * fy) reference ∧
    ∀ ley, aPlatePreset b t fy ley = aPlate b t (1000000 * fy) ley reference := by
  have e : rdiv (1000000 * fy) reference = rdiv fy 250 := by
    rw [rdiv_ok (by norm_num [reference]), rdiv_ok (by norm_num), reference]
    congr 1; ring
  refine ⟨?_, ?_, fun ley => ?_⟩ <;>
    simp only [lambdaPlatePreset, lambdaPlate, lambdaCHSPreset, lambdaCHS, aPlatePreset, aPlate, e]

/-- 250 MPa is a yield stress of the first shipped steel, 15 mm thick -/
theorem yield_250 : ShippedYield 250000000 := by
  rcases h : Material.loadAll shippedFile with e | ms
  · have : (Material.loadAll shippedFile).isOk = true := by decide +kernel
    rw [h] at this
    cases this
  · have key : (Material.loadAll shippedFile).map (fun l => l.any fun km =>
        match Material.property km.2 "strengths" with
        | .ok (.table rows) => decide (getF (15/1000) (.str "Y") rows = .ok 250000000)
        | _ => false) = .ok true := by decide +kernel
    rw [h] at key
    obtain ⟨⟨name, m⟩, hm, hk⟩ := List.any_eq_true.1 (Except.ok.inj key)
    simp only at hk
    split at hk
    · rename_i rows e
      exact ⟨ms, name, m, rows, _, h, hm, e, of_decide_eq_true hk⟩
    · cases hk

/-- A plate 100 mm by 15 mm with the limit 40 is all effective; with the default 0.6 % of it is. -/
example : ∃ ae, aPlatePreset (1/10) (15/1000) ((250000000 : ℚ) : ℝ) 40 = .ok ae ∧ ae < 1/10 * (15/1000) ∧
    ae = 9 / 1000000 ∧ aPlate (1/10) (15/1000) ((250000000 : ℚ) : ℝ) 40 reference = .ok (1/10 * (15/1000)) := by
  obtain ⟨ae, h1, h2, h3, h4⟩ := C87_area_counterexample (b := 1/10) (t := 15/1000) (ley := 40) yield_250 (by norm_num)
    (by norm_num) (by norm_num) (by norm_num)
  have e : √(((250000000 : ℚ) : ℝ) / reference) = 1 := by norm_num [reference]
  refine ⟨ae, h1, h2, ?_, h4 ?_⟩
  · rw [h3, e]; norm_num
  · rw [e]; norm_num

example : lambdaPlatePreset 40 1 250000000 = .ok 40000 := by
  rw [(C87_slenderness_counterexample one_pos (by norm_num)).1]
  norm_num [reference]

example : lambdaPlatePreset 40 1 250 = .ok 40 := by
  rw [(C87_megapascals_partial 40 1).1, lambdaPlate_ok one_pos (by norm_num) (by norm_num [reference])]
  norm_num [reference]

example : S6.lambdaNPreset 1 3 (3/100) 250000000 = .ok 100 := by
  rw [(C87_pascals_partial (by norm_num)).2 1 3 (3/100) one_pos.le (by norm_num)]
  norm_num [reference]

end BeamDesign
