import Verif.Spec.Euler
import Verif.Model.RoundedUnsym
import Verif.Lemmas.TorsionRound
import Verif.Props.Capacity

/-!
# C134: elastic buckling loads and stresses
-/

namespace BeamDesign

open Spec

theorem piD_cast : (piD : ℝ) = ((piD : ℚ) : ℝ) := by unfold piD; push_cast; rfl

theorem piD_acc : Acc (2 ^ (-54 : ℤ)) (piD : ℝ) Real.pi := by
  obtain ⟨h1, h2⟩ := piD_real
  rw [← piD_cast] at h1 h2
  have hp : (0 : ℝ) < piD := piD_pos
  rw [Acc.iff Real.pi_pos]
  have e := Real.add_one_le_exp ((2 : ℝ) ^ (-54 : ℤ))
  have e0 := Real.exp_pos ((2 : ℝ) ^ (-54 : ℤ))
  constructor
  · rw [Real.exp_neg, ← div_eq_mul_inv, div_le_iff₀ e0]
    refine h2.trans ?_
    rw [mul_comm]
    exact mul_le_mul_of_nonneg_left (by linarith) hp.le
  · refine h1.le.trans (le_mul_of_one_le_right Real.pi_pos.le ?_)
    exact Real.one_le_exp (by positivity)

theorem NEuler_ok {E I le : ℝ} (hl : le ≠ 0) : S6.NEuler E I le = .ok (piD * piD * E * I / (le * le)) :=
  rdiv_ok (mul_ne_zero hl hl)

theorem piSq_acc : Acc (2 * 2 ^ (-54 : ℤ)) (piD * piD : ℝ) (Real.pi ^ 2) := by
  rw [pow_two, two_mul]
  exact piD_acc.mul piD_acc

theorem eulerLoad_acc (E I le : ℝ) : Acc (2 * 2 ^ (-54 : ℤ)) (piD * piD * E * I / (le * le)) (eulerLoad E I le) := by
  have := ((piSq_acc.mul (Acc.refl le_rfl E)).mul (Acc.refl le_rfl I)).div (Acc.refl le_rfl (le * le))
  unfold eulerLoad
  rw [pow_two le]
  simpa using this

theorem eulerStress_acc (E le r : ℝ) :
    Acc (2 * 2 ^ (-54 : ℤ)) (piD * piD * E / (le / r * (le / r))) (eulerStress E le r) := by
  have := (piSq_acc.mul (Acc.refl le_rfl E)).div (Acc.refl le_rfl (le / r * (le / r)))
  unfold eulerStress
  rw [pow_two (le / r)]
  simpa using this

theorem torsionStress_acc {An lez rx ry xo yo J Iw E G : ℝ} (hA : 0 < An) (hl : 0 < lez) (hrx : 0 < rx) (hJ : 0 < J)
    (hIw : 0 ≤ Iw) (hE : 0 < E) (hG : 0 < G) :
    Acc (2 * 2 ^ (-54 : ℤ)) (G * J / (An * roSq rx ry xo yo) * (1 + piD * piD * E * Iw / (G * J * (lez * lez))))
      (torsionStress An lez rx ry xo yo J Iw E G) := by
  have hro := roSq_pos ry xo yo hrx
  have h1 := (((piSq_acc.mul (Acc.refl le_rfl E)).mul (Acc.refl le_rfl Iw)).div (Acc.refl le_rfl (lez * lez)))
  simp only [add_zero] at h1
  have h2 := Acc.add_nonneg (by positivity) (by positivity) (Acc.refl (t := 2 * 2 ^ (-54 : ℤ)) (by positivity) (G * J)) h1
  have h3 := h2.div (Acc.refl le_rfl (An * roSq rx ry xo yo))
  simp only [add_zero] at h3
  have e1 : G * J / (An * roSq rx ry xo yo) * (1 + piD * piD * E * Iw / (G * J * (lez * lez))) =
      (G * J + piD * piD * E * Iw / (lez * lez)) / (An * roSq rx ry xo yo) := by
    field_simp
  have e2 : torsionStress An lez rx ry xo yo J Iw E G =
      (G * J + Real.pi ^ 2 * E * Iw / (lez * lez)) / (An * roSq rx ry xo yo) := by
    unfold torsionStress roSq
    simp only [pow_two]
  rw [e1, e2]
  exact h3

theorem Acc.within' {t x y : ℝ} (h0 : 0 ≤ t) (h1 : t ≤ 1) (hy : 0 < y) (h : Acc t x y) : Within (2 * t) x y := by
  have := h.rel h0 h1
  rw [abs_of_pos hy] at this
  exact ⟨hy, this⟩

/-- C134: computed without rounding the Euler load, the Euler stress and the stress of torsional buckling are those of the
textbook up to the difference between `math.pi` and π. -/
theorem C134_exact {An le r rx ry xo yo I J Iw E G : ℝ} (hA : 0 < An) (hl : 0 < le) (hr : 0 < r) (hrx : 0 < rx) (hI : 0 < I)
    (hJ : 0 < J) (hIw : 0 ≤ Iw) (hE : 0 < E) (hG : 0 < G) :
    (∃ N, S6.NEuler E I le = .ok N ∧ Within (2 ^ (-52 : ℤ)) N (eulerLoad E I le)) ∧
    (∃ f, S6.fEuler E le r = .ok f ∧ Within (2 ^ (-52 : ℤ)) f (eulerStress E le r)) ∧
    ∃ f, S6.fEulerTorsion An le rx ry xo yo J Iw E G = .ok f ∧
      Within (2 ^ (-52 : ℤ)) f (torsionStress An le rx ry xo yo J Iw E G) := by
  have hp := Real.pi_pos
  have e : (2 : ℝ) ^ (-52 : ℤ) = 2 * (2 * 2 ^ (-54 : ℤ)) := by norm_num
  have h0 : (0 : ℝ) ≤ 2 * 2 ^ (-54 : ℤ) := by positivity
  have h1 : (2 : ℝ) * 2 ^ (-54 : ℤ) ≤ 1 := by norm_num
  rw [e]
  refine ⟨⟨_, NEuler_ok hl.ne', (eulerLoad_acc E I le).within' h0 h1 ?_⟩,
    ⟨_, fEuler_ok hr.ne' hl.ne', (eulerStress_acc E le r).within' h0 h1 ?_⟩,
    ⟨_, fEulerTorsion_ok hA hl hrx hJ hG, (torsionStress_acc hA hl hrx hJ hIw hE hG).within' h0 h1 ?_⟩⟩
  · unfold eulerLoad; positivity
  · unfold eulerStress; positivity
  · unfold torsionStress; positivity

/-- C134: the same in floating point, with a relative error of at most `80 u + 2 ^ -52`. -/
theorem C134_rounded {A : Arith ℝ} {u : ℝ} (hA : Rounded A u) (hu : 80 * u ≤ 1) {An le r rx ry xo yo I J Iw E G : ℝ} (hAn : 0 < An)
    (hl : 0 < le) (hr : 0 < r) (hrx : 0 < rx) (hI : 0 < I) (hJ : 0 < J) (hIw : 0 ≤ Iw) (hE : 0 < E) (hG : 0 < G) :
    (∃ N, S6R.NEuler A E I le = .ok N ∧ Within (80 * u + 2 ^ (-52 : ℤ)) N (eulerLoad E I le)) ∧
    (∃ f, S6R.fEuler A E le r = .ok f ∧ Within (80 * u + 2 ^ (-52 : ℤ)) f (eulerStress E le r)) ∧
    ∃ f, S6R.fEulerTorsion A An le rx ry xo yo J Iw E G = .ok f ∧
      Within (80 * u + 2 ^ (-52 : ℤ)) f (torsionStress An le rx ry xo yo J Iw E G) := by
  have hp := Real.pi_pos
  have hu0 := hA.nonneg
  have h1 : u ≤ 1 / 2 := by linarith
  have rr := fun y => Acc.refl le_rfl y
  have e : (80 * u + (2 : ℝ) ^ (-52 : ℤ)) = 2 * (40 * u + 2 * 2 ^ (-54 : ℤ)) := by norm_num; ring
  have h0 : (0 : ℝ) ≤ 40 * u + 2 * 2 ^ (-54 : ℤ) := by positivity
  have h2 : 40 * u + 2 * 2 ^ (-54 : ℤ) ≤ 1 := by
    have : (2 : ℝ) * 2 ^ (-54 : ℤ) ≤ 1 / 2 := by norm_num
    have h3 : 40 * u ≤ 1 / 2 := by linarith
    calc _ ≤ (1 : ℝ) / 2 + 1 / 2 := add_le_add h3 this
      _ = 1 := by norm_num
  rw [e]
  refine ⟨?_, ?_, ?_⟩
  · have a3 := hA.accMul h1 (hA.accMul h1 (hA.accMul h1 (rr piD) (rr piD)) (rr E)) (rr I)
    have a2 := hA.accMul h1 (rr le) (rr le)
    have pl : le * le ≠ 0 := by positivity
    refine ⟨_, Arith.quot_ok _ (a2.ne_zero pl), Acc.within' h0 h2 (by unfold eulerLoad; positivity) ?_⟩
    refine ((hA.accDiv h1 a3 a2).trans (eulerLoad_acc E I le)).mono ?_
    linarith
  · obtain ⟨x, e1, a, -⟩ := fEuler_acc hA h1 hE hl hr (rr le) (fEuler_ok hr.ne' hl.ne')
    refine ⟨x, e1, Acc.within' h0 h2 (by unfold eulerStress; positivity) ((a.trans (eulerStress_acc E le r)).mono ?_)⟩
    linarith
  · obtain ⟨x, e1, a, -⟩ := fEulerTorsion_acc hA h1 hAn hl le_rfl (rr le) hrx hJ hIw hE hG (fEulerTorsion_ok hAn hl hrx hJ hG)
    refine ⟨x, e1, Acc.within' h0 h2 (by unfold torsionStress; positivity)
      ((a.trans (torsionStress_acc hAn hl hrx hJ hIw hE hG)).mono ?_)⟩
    linarith

/-- C134: the load is the stress times the area, for the second moment of area `A r²`. -/
theorem C134_load_stress {An le r E : ℝ} (hr : r ≠ 0) :
    S6.NEuler E (An * r ^ 2) le = (S6.fEuler E le r).map (An * ·) := by
  rcases eq_or_ne le 0 with rfl | hl
  · unfold S6.NEuler S6.fEuler
    rw [mul_zero, rdiv_zero, rdiv_ok hr, Except.bind_ok', zero_div, mul_zero, rdiv_zero]
    rfl
  · rw [NEuler_ok hl, fEuler_ok hr hl]
    show Except.ok _ = Except.ok _
    congr 1
    field_simp

/-- C134: a column without length has no Euler load or stress (the stress also not without a radius of gyration), nothing
else raises. -/
theorem C134_raises (E I le r : ℝ) :
    (S6.NEuler E I le = .error .zeroDivision ↔ le = 0) ∧ (S6.fEuler E le r = .error .zeroDivision ↔ le = 0 ∨ r = 0) ∧
    (∀ e, S6.NEuler E I le = .error e → e = .zeroDivision) ∧ ∀ e, S6.fEuler E le r = .error e → e = .zeroDivision := by
  have hN : le = 0 → S6.NEuler E I le = .error .zeroDivision := by
    rintro rfl; unfold S6.NEuler; rw [mul_zero, rdiv_zero]
  have hf : le = 0 ∨ r = 0 → S6.fEuler E le r = .error .zeroDivision := by
    intro h
    unfold S6.fEuler
    rcases eq_or_ne r 0 with rfl | hr
    · rw [rdiv_zero]; rfl
    · obtain rfl := h.resolve_right hr
      rw [rdiv_ok hr, Except.bind_ok', zero_div, mul_zero, rdiv_zero]
  have hf' : ¬ (le = 0 ∨ r = 0) → ∃ x, S6.fEuler E le r = .ok x := fun h =>
    ⟨_, fEuler_ok (fun e => h (Or.inr e)) (fun e => h (Or.inl e))⟩
  refine ⟨⟨fun h => ?_, hN⟩, ⟨fun h => ?_, hf⟩, fun e h => ?_, fun e h => ?_⟩
  · by_contra hc; rw [NEuler_ok hc] at h; cases h
  · by_contra hc; obtain ⟨x, hx⟩ := hf' hc; rw [hx] at h; cases h
  · by_cases hc : le = 0
    · rw [hN hc] at h; cases h; rfl
    · rw [NEuler_ok hc] at h; cases h
  · by_cases hc : le = 0 ∨ r = 0
    · rw [hf hc] at h; cases h; rfl
    · obtain ⟨x, hx⟩ := hf' hc; rw [hx] at h; cases h

/-- The hypotheses can be met: a steel column of 3 m in double precision. -/
example : ∃ N, S6R.NEuler Arith.double (200 * 10 ^ 9) (1 / 10 ^ 5) 3 = .ok N ∧
    Within (1 / 10 ^ 14) N (eulerLoad (200 * 10 ^ 9) (1 / 10 ^ 5) 3) := by
  obtain ⟨⟨N, h1, h2, h3⟩, -⟩ := C134_rounded C102_double (by norm_num) (An := 1) (le := 3) (r := 1) (rx := 1) (ry := 1) (xo := 0)
    (yo := 0) (I := 1 / 10 ^ 5) (J := 1) (Iw := 0) (E := 200 * 10 ^ 9) (G := 1) (by norm_num) (by norm_num) (by norm_num)
    (by norm_num) (by norm_num) (by norm_num) (by norm_num) (by norm_num) (by norm_num)
  exact ⟨N, h1, h2, h3.trans (mul_le_mul_of_nonneg_right (by norm_num) h2.le)⟩

end BeamDesign
