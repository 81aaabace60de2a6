import Verif.Lemmas.Capacity
import Verif.Props.S7
import Verif.Spec.Required

/-!
# Section 7 in floating point arithmetic
-/

set_option linter.unusedSectionVars false

namespace BeamDesign

open Spec

variable {K : Type} [Field K] [LinearOrder K] [IsStrictOrderedRing K]
variable {rt : Rt K} {F : K → Prop} {u η σ : K}

theorem div_rel {a A y p ε L : K} (hu0 : 0 ≤ u) (hη : η * 100 ≤ u * L) (hA : 0 < A) (hy : 0 < y) (hL : L ≤ A / y)
    (hε : ε ≤ 1 / 100) (h : |a - A| ≤ ε * A) (hp : |p - a / y| ≤ u * |a / y| + η) :
    |p - A / y| ≤ (ε + 102 / 100 * u) * (A / y) := by
  rw [div_eq_mul_inv A] at hL ⊢
  rw [div_eq_mul_inv a] at hp
  exact mul_rel hu0 hη hA (inv_pos.2 hy) hL hε h hp

theorem max_rel {a A b B ε : K} (h1 : |a - A| ≤ ε * A) (h2 : |b - B| ≤ ε * B) (hε0 : 0 ≤ ε) :
    |max a b - max A B| ≤ ε * max A B := by
  have ha := mul_le_mul_of_nonneg_left (le_max_left A B) hε0
  have hb := mul_le_mul_of_nonneg_left (le_max_right A B) hε0
  rw [abs_le] at *
  constructor
  · rcases le_total A B with h | h
    · rw [max_eq_right h] at *; linarith [le_max_right a b]
    · rw [max_eq_left h] at *; linarith [le_max_left a b]
  · have : max a b ≤ max A B + ε * max A B :=
      max_le (by linarith [le_max_left A B]) (by linarith [le_max_right A B])
    linarith

theorem Spec.Between.pos {x : K} (hσ0 : 0 < σ) (h : Between F σ x) : 0 < x := hσ0.trans_le h.2.1

theorem Spec.Between.div {x : K} (hσ0 : 0 < σ) (h : Between F σ x) {y L : K} (hL0 : 0 ≤ L) (hy : L ≤ y) : L * σ ≤ y / x := by
  rw [le_div_iff₀ (h.pos hσ0)]
  have h1 : σ * x ≤ 1 := by
    have := mul_le_mul_of_nonneg_left h.2.2 hσ0.le
    rwa [mul_inv_cancel₀ hσ0.ne'] at this
  calc L * σ * x = L * (σ * x) := by ring
    _ ≤ L * 1 := mul_le_mul_of_nonneg_left h1 hL0
    _ = L := mul_one L
    _ ≤ y := hy

/-- the exact required area -/
theorem required_exact {N fy fu kt phi au : K} (hN : 0 < N) (hfy : 0 < fy) (hfu : 0 < fu) (hkt : 0 < kt)
    (hphi : 0 < phi) (hau : 0 < au) :
    max (N / fy) (N / au / kt / fu) / phi * (min fy (fu * kt * au) * phi) = N := by
  have e : N / au / kt / fu = N / (fu * kt * au) := by field_simp
  rw [e]
  have hm : 0 < fu * kt * au := by positivity
  rcases le_total fy (fu * kt * au) with h | h
  · rw [min_eq_left h, max_eq_left (div_le_div_of_nonneg_left hN.le hfy h)]
    field_simp
  · rw [min_eq_right h, max_eq_right (div_le_div_of_nonneg_left hN.le hm h)]
    field_simp

/-- `s7_1_A_reqd`, rounded. -/
theorem AReqd_rel (hr : Rounds rt F u η) (hu0 : 0 ≤ u) (hu : u ≤ 1 / 1000) (hσ0 : 0 < σ) (hσ1 : σ ≤ 1)
    (hη : η * 100 ≤ u * σ ^ 10) {N fy fu kt phi au : K} (hN : Between F σ N) (hfy : Between F σ fy)
    (hfu : Between F σ fu) (hkt : Between F σ kt) (hphi : Between F σ phi) (hau : Between F σ au) :
    ∃ r, S7.AReqd rt N fy fu kt phi au = .ok r ∧ F r.phiA ∧
      |r.phiA - max (N / fy) (N / au / kt / fu) / phi| ≤ 41 / 10 * u * (max (N / fy) (N / au / kt / fu) / phi) ∧
      σ ^ 5 ≤ max (N / fy) (N / au / kt / fu) / phi := by
  have N0 := hN.pos hσ0
  have fy0 := hfy.pos hσ0
  have fu0 := hfu.pos hσ0
  have kt0 := hkt.pos hσ0
  have phi0 := hphi.pos hσ0
  have au0 := hau.pos hσ0
  have small : ∀ k, k ≤ 10 → ∀ X, σ ^ k ≤ X → η * 100 ≤ u * X := fun k hk X h =>
    hη.trans (mul_le_mul_of_nonneg_left ((pow_le_pow_of_le_one hσ0.le hσ1 hk).trans h) hu0)
  have l0 : σ ^ 1 ≤ N := by simpa using hN.2.1
  have p : ∀ k, (0 : K) ≤ σ ^ k := fun k => by positivity
  have l1 : σ ^ 2 ≤ N / fy := by rw [pow_succ]; exact hfy.div hσ0 (p _) l0
  have l2 : σ ^ 2 ≤ N / au := by rw [pow_succ]; exact hau.div hσ0 (p _) l0
  have l3 : σ ^ 3 ≤ N / au / kt := by rw [pow_succ]; exact hkt.div hσ0 (p _) l2
  have l4 : σ ^ 4 ≤ N / au / kt / fu := by rw [pow_succ]; exact hfu.div hσ0 (p _) l3
  have l5 : σ ^ 5 ≤ max (N / fy) (N / au / kt / fu) / phi := by
    rw [pow_succ]; exact hphi.div hσ0 (p _) (l4.trans (le_max_right _ _))
  obtain ⟨F1, e1⟩ := hr.div _ _ hN.1 hfy.1 fy0.ne'
  have d1 := div_rel (ε := 0) hu0 (small 2 (by norm_num) _ l1) N0 fy0 le_rfl (by norm_num) (by simp) e1
  obtain ⟨F2, e2⟩ := hr.div _ _ hN.1 hau.1 au0.ne'
  have d2 := div_rel (ε := 0) hu0 (small 2 (by norm_num) _ l2) N0 au0 le_rfl (by norm_num) (by simp) e2
  obtain ⟨F3, e3⟩ := hr.div _ _ F2 hkt.1 kt0.ne'
  have d3 := div_rel hu0 (small 3 (by norm_num) _ l3) (by positivity) kt0 le_rfl (by linarith) d2 e3
  obtain ⟨F4, e4⟩ := hr.div _ _ F3 hfu.1 fu0.ne'
  have d4 := div_rel hu0 (small 4 (by norm_num) _ l4) (by positivity) fu0 le_rfl (by linarith) d3 e4
  set ag := rt.div N fy
  set an := rt.div (rt.div (rt.div N au) kt) fu
  have dm : |max ag an - max (N / fy) (N / au / kt / fu)| ≤ (307 / 100 * u) * max (N / fy) (N / au / kt / fu) := by
    refine max_rel (d1.trans ?_) (d4.trans ?_) (by positivity)
    · exact mul_le_mul_of_nonneg_right (by linarith) (by positivity)
    · exact mul_le_mul_of_nonneg_right (by linarith) (by positivity)
  have Fm : F (max ag an) := by
    rcases max_choice ag an with h | h <;> rw [h]
    · exact F1
    · exact F4
  have m0 : 0 < max (N / fy) (N / au / kt / fu) := lt_max_of_lt_left (by positivity)
  obtain ⟨F5, e5⟩ := hr.div _ _ Fm hphi.1 phi0.ne'
  have d5 := div_rel hu0 (small 5 (by norm_num) _ l5) m0 phi0 le_rfl (by linarith) dm e5
  refine ⟨⟨ag, an, max ag an, rt.div ag phi, rt.div an phi, rt.div (max ag an) phi⟩, ?_, F5, d5.trans ?_, l5⟩
  · simp only [S7.AReqd, S7.Ag, S7.An, pyDiv, if_neg fy0.ne', if_neg fu0.ne', if_neg kt0.ne', if_neg phi0.ne',
      if_neg au0.ne', bind, Except.bind, pure, Except.pure]
    rfl
  · exact mul_le_mul_of_nonneg_right (by linarith) (by positivity)

/-- `s7_1_N_t` for one area, rounded. -/
theorem Nt_rel (hr : Rounds rt F u η) (hu0 : 0 ≤ u) (hu : u ≤ 1 / 1000) (hσ0 : 0 < σ) (hσ1 : σ ≤ 1)
    (hη : η * 100 ≤ u * σ ^ 10) {A fy fu kt phi au : K} (hA : F A) (hA0 : σ ^ 6 ≤ A) (hfy : Between F σ fy)
    (hfu : Between F σ fu) (hkt : Between F σ kt) (hphi : Between F σ phi) (hau : Between F σ au) :
    |(S7.Nt rt A A fy fu kt phi au).phiN - A * (min fy (fu * kt * au) * phi)| ≤
      41 / 10 * u * (A * (min fy (fu * kt * au) * phi)) := by
  have fy0 := hfy.pos hσ0
  have fu0 := hfu.pos hσ0
  have kt0 := hkt.pos hσ0
  have phi0 := hphi.pos hσ0
  have au0 := hau.pos hσ0
  have a0 : 0 < A := lt_of_lt_of_le (by positivity) hA0
  have small : ∀ k, k ≤ 10 → ∀ X, σ ^ k ≤ X → η * 100 ≤ u * X := fun k hk X h =>
    hη.trans (mul_le_mul_of_nonneg_left ((pow_le_pow_of_le_one hσ0.le hσ1 hk).trans h) hu0)
  have l1 : σ ^ 7 ≤ A * fy := by rw [pow_succ]; exact mul_le_mul hA0 hfy.2.1 hσ0.le a0.le
  have l2 : σ ^ 7 ≤ A * fu := by rw [pow_succ]; exact mul_le_mul hA0 hfu.2.1 hσ0.le a0.le
  have l3 : σ ^ 8 ≤ A * fu * kt := by rw [pow_succ]; exact mul_le_mul l2 hkt.2.1 hσ0.le (by positivity)
  have l4 : σ ^ 9 ≤ A * fu * kt * au := by rw [pow_succ]; exact mul_le_mul l3 hau.2.1 hσ0.le (by positivity)
  have l5 : σ ^ 9 ≤ min (A * fy) (A * fu * kt * au) :=
    le_min ((pow_le_pow_of_le_one hσ0.le hσ1 (by norm_num)).trans l1) l4
  have m0 : 0 < min (A * fy) (A * fu * kt * au) := lt_min (by positivity) (by positivity)
  have l6 : σ ^ 10 ≤ min (A * fy) (A * fu * kt * au) * phi := by
    rw [pow_succ]; exact mul_le_mul l5 hphi.2.1 hσ0.le m0.le
  obtain ⟨F1, e1⟩ := hr.mul _ _ hA hfy.1
  have d1 := mul_rel (ε := 0) hu0 (small 7 (by norm_num) _ l1) a0 fy0 le_rfl (by norm_num) (by simp) e1
  obtain ⟨F2, e2⟩ := hr.mul _ _ hA hfu.1
  have d2 := mul_rel (ε := 0) hu0 (small 7 (by norm_num) _ l2) a0 fu0 le_rfl (by norm_num) (by simp) e2
  obtain ⟨F3, e3⟩ := hr.mul _ _ F2 hkt.1
  have d3 := mul_rel hu0 (small 8 (by norm_num) _ l3) (by positivity) kt0 le_rfl (by linarith) d2 e3
  obtain ⟨F4, e4⟩ := hr.mul _ _ F3 hau.1
  have d4 := mul_rel hu0 (small 9 (by norm_num) _ l4) (by positivity) au0 le_rfl (by linarith) d3 e4
  set ny := rt.mul A fy
  set nu := rt.mul (rt.mul (rt.mul A fu) kt) au
  have dm : |min ny nu - min (A * fy) (A * fu * kt * au)| ≤ (307 / 100 * u) * min (A * fy) (A * fu * kt * au) := by
    refine min_rel (by linarith) (d1.trans ?_) (d4.trans ?_)
    · exact mul_le_mul_of_nonneg_right (by linarith) (by positivity)
    · exact mul_le_mul_of_nonneg_right (by linarith) (by positivity)
  have Fm : F (min ny nu) := by
    rcases min_choice ny nu with h | h <;> rw [h]
    · exact F1
    · exact F4
  obtain ⟨F5, e5⟩ := hr.mul _ _ Fm hphi.1
  have d5 := mul_rel hu0 (small 10 (by norm_num) _ l6) m0 phi0 le_rfl (by linarith) dm e5
  have hmin : min (A * fy) (A * fu * kt * au) * phi = A * (min fy (fu * kt * au) * phi) := by
    rw [show A * fu * kt * au = A * (fu * kt * au) by ring, ← mul_min_of_nonneg _ _ a0.le, mul_assoc]
  rw [hmin] at d5
  refine (show |(S7.Nt rt A A fy fu kt phi au).phiN - _| ≤ _ from d5).trans ?_
  have : 0 ≤ A * (min fy (fu * kt * au) * phi) := hmin ▸ (mul_pos m0 phi0).le
  exact mul_le_mul_of_nonneg_right (by linarith) this

end BeamDesign
