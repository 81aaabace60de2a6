import Verif.Lemmas.Yield
import Verif.Props.S6

/-!
# C93: stronger steel never weakens a column
-/

namespace BeamDesign

open S6

/-- C93, in the form that also covers a form factor that falls as the yield stress rises: the capacity
`s6_3_3_N_c` never goes down when the product of form factor and yield stress does not, nor when the area
grows. -/
theorem C93_squash {An An' kf kf' le r fy fy' fref ab : ℝ} {x x' : Flexural}
    (hA : 0 ≤ An) (hAA : An ≤ An') (hk : 0 < kf) (hk' : 0 < kf') (hf : 0 < fy) (hf' : 0 < fy')
    (hkf : kf * fy ≤ kf' * fy')
    (hl : 0 ≤ le) (hr : 0 < r) (hfr : 0 < fref) (hab : -1 ≤ ab) (hab1 : ab ≤ 1)
    (h : NcFlexural An kf le r fy fref ab = .ok x)
    (h' : NcFlexural An' kf' le r fy' fref ab = .ok x') : x.Nc ≤ x'.Nc := by
  have hA' : 0 ≤ An' := hA.trans hAA
  obtain ⟨z, _, e, al⟩ := NcFlexural_inv hk.le hr.ne' (by positivity) hfr.ne' h
  obtain ⟨z', _, e', al'⟩ := NcFlexural_inv hk'.le hr.ne' (by positivity) hfr.ne' h'
  rw [e, e']
  rcases hl.eq_or_lt with h0 | h0
  · subst h0
    simp only [zero_div, zero_mul] at z z' al al'
    have hu : 0 < (lamOf 0 ab / 90) ^ 2 := by positivity
    rw [al.unique al' hu]
    have := al'.pos
    calc An * kf * fy * x'.factors.alphaC = An * (kf * fy) * x'.factors.alphaC := by ring
      _ ≤ An' * (kf' * fy') * x'.factors.alphaC := by gcongr
      _ = _ := by ring
  · have hn : 0 < le / r * √kf * √(fy / fref) := by positivity
    have root : ∀ k f : ℝ, 0 < k → le / r * √k * √(f / fref) = le / r * √(k * f / fref) := by
      intro k f hk
      rw [mul_assoc, ← Real.sqrt_mul hk.le, mul_div_assoc]
    have hle : le / r * √kf * √(fy / fref) ≤ le / r * √kf' * √(fy' / fref) := by
      rw [root _ _ hk, root _ _ hk']
      gcongr
    have hm := cap_mono hn hle hab hab1 z z' al al'
    have sq : ∀ k f : ℝ, 0 < k → 0 < f → (le / r * √k * √(f / fref)) ^ 2 = (le / r) ^ 2 / fref * (k * f) := by
      intro k f hk hf
      rw [mul_pow, mul_pow, Real.sq_sqrt hk.le, Real.sq_sqrt (by positivity)]
      ring
    rw [sq _ _ hk hf, sq _ _ hk' hf'] at hm
    have hc : 0 < (le / r) ^ 2 / fref := by positivity
    have hm' : kf * fy * x.factors.alphaC ≤ kf' * fy' * x'.factors.alphaC := by
      rw [mul_assoc ((le / r) ^ 2 / fref), mul_assoc ((le / r) ^ 2 / fref)] at hm
      exact le_of_mul_le_mul_left hm hc
    have p := al'.pos
    calc An * kf * fy * x.factors.alphaC = An * (kf * fy * x.factors.alphaC) := by ring
      _ ≤ An * (kf' * fy' * x'.factors.alphaC) := by gcongr
      _ ≤ An' * (kf' * fy' * x'.factors.alphaC) := by gcongr
      _ = _ := by ring

/-- C93: with the same geometry, a higher yield stress, a higher form factor or a larger area never lowers
`s6_3_3_N_c`, for every `α_b` from -1 to 1. -/
theorem C93_stronger {An An' kf kf' le r fy fy' fref ab : ℝ} {x x' : Flexural}
    (hA : 0 ≤ An) (hAA : An ≤ An') (hk : 0 < kf) (hkk : kf ≤ kf') (hf : 0 < fy) (hff : fy ≤ fy')
    (hl : 0 ≤ le) (hr : 0 < r) (hfr : 0 < fref) (hab : -1 ≤ ab) (hab1 : ab ≤ 1)
    (h : NcFlexural An kf le r fy fref ab = .ok x)
    (h' : NcFlexural An' kf' le r fy' fref ab = .ok x') : x.Nc ≤ x'.Nc :=
  C93_squash hA hAA hk (hk.trans_le hkk) hf (hf.trans_le hff)
    (mul_le_mul hkk hff hf.le (hk.trans_le hkk).le) hl hr hfr hab hab1 h h'

/-- a column of nominal slenderness 60 in grade 250 steel and the same column in grade 350: both
capacities are numbers, for every `α_b` -/
example (ab : ℝ) (hab : -1 ≤ ab) (hab1 : ab ≤ 1) : ∃ x x',
    NcFlexural (1 / 100) 1 3 (1 / 20) 250000000 250000000 ab = .ok x ∧
    NcFlexural (1 / 100) 1 3 (1 / 20) 350000000 250000000 ab = .ok x' ∧ x.Nc ≤ x'.Nc := by
  have pos : ∀ fy : ℝ, 250000000 ≤ fy → lamOf (3 / (1 / 20) * √1 * √(fy / 250000000)) ab ≠ 0 := by
    intro fy hfy
    have h1 : 1 ≤ √(fy / 250000000) := by
      rw [Real.one_le_sqrt, le_div_iff₀ (by norm_num)]; linarith
    have := lam_gt (n := 3 / (1 / 20) * √1 * √(fy / 250000000)) (ab := ab)
      (by rw [Real.sqrt_one]; linarith) hab
    rw [lamOf_eq]
    linarith
  obtain ⟨x, e⟩ := NcFlexural_ok (An := 1 / 100) (by norm_num) (by norm_num) (by norm_num) (by norm_num)
    (pos 250000000 le_rfl)
  obtain ⟨x', e'⟩ := NcFlexural_ok (An := 1 / 100) (by norm_num) (by norm_num) (by norm_num) (by norm_num)
    (pos 350000000 (by norm_num))
  exact ⟨x, x', e, e', C93_stronger (by norm_num) le_rfl (by norm_num) le_rfl (by norm_num) (by norm_num)
    (by norm_num) (by norm_num) (by norm_num) hab hab1 e e'⟩

end BeamDesign
