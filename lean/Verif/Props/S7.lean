import Verif.Model.S7
import Mathlib.Tactic.Positivity
import Mathlib.Tactic.FieldSimp
import Mathlib.Tactic.NormNum
import Mathlib.Tactic.Ring
import Mathlib.Tactic.GCongr
import Mathlib.Tactic.Linarith

/-!
# Section 7 properties: C41, C42
-/

set_option linter.unusedSectionVars false
set_option linter.unusedSimpArgs false

namespace BeamDesign

variable {K : Type} [Field K] [LinearOrder K] [IsStrictOrderedRing K]

theorem pyDiv_ok {rt : Rt K} (hx : rt.Exact) {a b : K} (hb : b ≠ 0) : pyDiv rt a b = .ok (a / b) := by
  simp [pyDiv, hb, hx.div]

/-- `s7_1_A_reqd` in closed form -/
theorem AReqd_ok {rt : Rt K} (hx : rt.Exact) {N fy fu kt phi au : K} (hfy : fy ≠ 0) (hfu : fu ≠ 0)
    (hkt : kt ≠ 0) (hphi : phi ≠ 0) (hau : au ≠ 0) :
    S7.AReqd rt N fy fu kt phi au =
      .ok ⟨N / fy, N / au / kt / fu, max (N / fy) (N / au / kt / fu), N / fy / phi,
        N / au / kt / fu / phi, max (N / fy) (N / au / kt / fu) / phi⟩ := by
  simp only [S7.AReqd, S7.Ag, S7.An, pyDiv_ok hx hfy, pyDiv_ok hx hfu, pyDiv_ok hx hkt,
    pyDiv_ok hx hau, pyDiv_ok hx hphi, bind, Except.bind, pure, Except.pure]

/-- `s7_1_N_t` in closed form -/
theorem Nt_eq {rt : Rt K} (hx : rt.Exact) (Ag An fy fu kt phi au : K) :
    S7.Nt rt Ag An fy fu kt phi au =
      ⟨Ag * fy, An * fu * kt * au, min (Ag * fy) (An * fu * kt * au), Ag * fy * phi,
        An * fu * kt * au * phi, min (Ag * fy) (An * fu * kt * au) * phi⟩ := by
  simp only [S7.Nt, S7.NtYield, S7.NtUltimate, hx.mul]

/-- C41: the required areas exist unless a strength or factor is zero; then `ZeroDivisionError` is raised, whatever the rounding. -/
theorem C41_zero (rt : Rt K) (N fy fu kt phi au : K) :
    (S7.AReqd rt N fy fu kt phi au = .error .zeroDivision ↔ fy = 0 ∨ fu = 0 ∨ kt = 0 ∨ phi = 0 ∨ au = 0) ∧
    (∀ e, S7.AReqd rt N fy fu kt phi au = .error e → e = .zeroDivision) := by
  by_cases h1 : fy = 0 <;> by_cases h2 : au = 0 <;> by_cases h3 : kt = 0 <;> by_cases h4 : fu = 0 <;> by_cases h5 : phi = 0 <;>
    simp [S7.AReqd, S7.Ag, S7.An, pyDiv, bind, Except.bind, pure, Except.pure, h1, h2, h3, h4, h5]

/-- the areas for steel without a strength -/
example : S7.AReqd (Rt.exact ℚ) 1000 0 410 1 (9/10) (85/100) = .error .zeroDivision := by decide +kernel

/-- C41.  A member whose gross and net area are both the required area `φA` for `N` has design
capacity `φN` exactly `N`; every smaller common area has a smaller one. -/
theorem C41_inverse {rt : Rt K} (hx : rt.Exact) {N fy fu kt phi au : K} (hN : 0 < N) (hfy : 0 < fy)
    (hfu : 0 < fu) (hkt : 0 < kt) (hphi : 0 < phi) (hau : 0 < au) :
    ∃ r : S7.Areas K, S7.AReqd rt N fy fu kt phi au = .ok r ∧ 0 < r.phiA ∧
      (S7.Nt rt r.phiA r.phiA fy fu kt phi au).phiN = N ∧
      ∀ A, A < r.phiA → (S7.Nt rt A A fy fu kt phi au).phiN < N := by
  refine ⟨_, AReqd_ok hx hfy.ne' hfu.ne' hkt.ne' hphi.ne' hau.ne', ?_⟩
  have key : ∀ A : K, (S7.Nt rt A A fy fu kt phi au).phiN = A * (min fy (fu * kt * au) * phi) ∨ A < 0 := by
    intro A
    rcases lt_or_ge A 0 with h | h
    · exact Or.inr h
    · left
      rw [Nt_eq hx]
      simp only
      have : A * fu * kt * au = A * (fu * kt * au) := by ring
      rw [this, ← mul_min_of_nonneg _ _ h]
      ring
  set m := min fy (fu * kt * au) with hm
  have hmpos : 0 < m := lt_min hfy (by positivity)
  have hmax : max (N / fy) (N / au / kt / fu) = N / m := by
    have e : N / au / kt / fu = N / (fu * kt * au) := by field_simp
    rw [e]
    rcases le_total fy (fu * kt * au) with h | h
    · rw [hm, min_eq_left h]
      exact max_eq_left (div_le_div_of_nonneg_left hN.le hfy h)
    · rw [hm, min_eq_right h]
      exact max_eq_right (div_le_div_of_nonneg_left hN.le (by positivity) h)
  simp only [hmax]
  have hpos : 0 < N / m / phi := by positivity
  refine ⟨hpos, ?_, ?_⟩
  · rcases key (N / m / phi) with h | h
    · rw [h]; field_simp
    · exact absurd h (not_lt.2 hpos.le)
  · intro A hA
    rcases key A with h | h
    · rw [h]
      calc A * (m * phi) < N / m / phi * (m * phi) := by
            apply mul_lt_mul_of_pos_right hA; positivity
        _ = N := by field_simp
    · rw [Nt_eq hx]
      simp only
      have : min (A * fy) (A * fu * kt * au) ≤ A * fy := min_le_left _ _
      have h2 : A * fy < 0 := mul_neg_of_neg_of_pos h hfy
      have h3 : min (A * fy) (A * fu * kt * au) * phi < 0 :=
        mul_neg_of_neg_of_pos (lt_of_le_of_lt this h2) hphi
      exact h3.trans hN

/-- the hypotheses of `C41_inverse` are met: 500 kN on a grade 300 bar -/
example : ∃ r : S7.Areas ℚ, S7.AReqd (Rt.exact ℚ) 500000 300000000 440000000 1 S7.phi S7.alphaU = .ok r ∧
    r.phiA = 1 / 540 ∧
    (S7.Nt (Rt.exact ℚ) (1 / 540) (1 / 540) 300000000 440000000 1 S7.phi S7.alphaU).phiN = 500000 := by
  exact ⟨⟨1 / 600, 1 / 748, 1 / 600, 1 / 540, 5 / 3366, 1 / 540⟩, by decide +kernel, rfl, by decide +kernel⟩

/-- C41.  The required areas do not decrease with the load and do not increase with the strengths and
factors (every entry of the dictionary). -/
theorem C41_areas_monotone {rt : Rt K} (hx : rt.Exact) {N N' fy fy' fu fu' kt kt' phi phi' au au' : K}
    (hN : 0 < N) (hfy : 0 < fy) (hfu : 0 < fu) (hkt : 0 < kt) (hphi : 0 < phi) (hau : 0 < au)
    (gN : N ≤ N') (gfy : fy ≤ fy') (gfu : fu ≤ fu') (gkt : kt ≤ kt') (gphi : phi ≤ phi') (gau : au ≤ au') :
    ∃ more less light : S7.Areas K,
      S7.AReqd rt N' fy fu kt phi au = .ok more ∧ S7.AReqd rt N fy fu kt phi au = .ok light ∧
      S7.AReqd rt N fy' fu' kt' phi' au' = .ok less ∧
      (light.Ag ≤ more.Ag ∧ light.An ≤ more.An ∧ light.A ≤ more.A ∧
        light.phiAg ≤ more.phiAg ∧ light.phiAn ≤ more.phiAn ∧ light.phiA ≤ more.phiA) ∧
      (less.Ag ≤ light.Ag ∧ less.An ≤ light.An ∧ less.A ≤ light.A ∧
        less.phiAg ≤ light.phiAg ∧ less.phiAn ≤ light.phiAn ∧ less.phiA ≤ light.phiA) ∧
      (N < N' → light.phiA < more.phiA) := by
  have hfy' := hfy.trans_le gfy
  have hfu' := hfu.trans_le gfu
  have hkt' := hkt.trans_le gkt
  have hphi' := hphi.trans_le gphi
  have hau' := hau.trans_le gau
  have hN' := hN.trans_le gN
  refine ⟨_, _, _, AReqd_ok hx hfy.ne' hfu.ne' hkt.ne' hphi.ne' hau.ne',
    AReqd_ok hx hfy.ne' hfu.ne' hkt.ne' hphi.ne' hau.ne',
    AReqd_ok hx hfy'.ne' hfu'.ne' hkt'.ne' hphi'.ne' hau'.ne', ?_, ?_, ?_⟩
  · have a1 : N / fy ≤ N' / fy := by gcongr
    have a2 : N / au / kt / fu ≤ N' / au / kt / fu := by gcongr
    exact ⟨a1, a2, max_le_max a1 a2, div_le_div_of_nonneg_right a1 hphi.le,
      div_le_div_of_nonneg_right a2 hphi.le,
      div_le_div_of_nonneg_right (max_le_max a1 a2) hphi.le⟩
  · have a1 : N / fy' ≤ N / fy := by gcongr
    have a2 : N / au' / kt' / fu' ≤ N / au / kt / fu := by gcongr
    have a3 := max_le_max a1 a2
    have a4 : 0 ≤ max (N / fy) (N / au / kt / fu) := le_max_of_le_left (by positivity)
    refine ⟨a1, a2, a3, ?_, ?_, ?_⟩
    · show N / fy' / phi' ≤ N / fy / phi
      gcongr
    · show N / au' / kt' / fu' / phi' ≤ N / au / kt / fu / phi
      gcongr
    · exact div_le_div₀ a4 a3 hphi gphi
  · intro h
    have a1 : N / fy < N' / fy := by gcongr
    have a2 : N / au / kt / fu < N' / au / kt / fu := by gcongr
    exact div_lt_div_of_pos_right (max_lt_max a1 a2) hphi

/-- C41.  The capacities do not decrease with the areas, the strengths and the factors, and the design
capacity strictly grows when both areas do. -/
theorem C41_capacity_monotone {rt : Rt K} (hx : rt.Exact)
    {Ag Ag' An An' fy fy' fu fu' kt kt' phi phi' au au' : K} (hAg : 0 < Ag) (hAn : 0 < An)
    (hfy : 0 < fy) (hfu : 0 < fu) (hkt : 0 < kt) (hphi : 0 < phi) (hau : 0 < au)
    (gAg : Ag ≤ Ag') (gAn : An ≤ An') (gfy : fy ≤ fy') (gfu : fu ≤ fu') (gkt : kt ≤ kt')
    (gphi : phi ≤ phi') (gau : au ≤ au') :
    let c := S7.Nt rt Ag An fy fu kt phi au
    let c' := S7.Nt rt Ag' An' fy' fu' kt' phi' au'
    c.Nty ≤ c'.Nty ∧ c.Ntu ≤ c'.Ntu ∧ c.N ≤ c'.N ∧ c.phiNty ≤ c'.phiNty ∧ c.phiNtu ≤ c'.phiNtu ∧
      c.phiN ≤ c'.phiN ∧ (Ag < Ag' → An < An' → c.phiN < c'.phiN) := by
  intro c c'
  simp only [c, c', Nt_eq hx]
  have hAg' := hAg.trans_le gAg
  have hAn' := hAn.trans_le gAn
  have hfy' := hfy.trans_le gfy
  have hfu' := hfu.trans_le gfu
  have hkt' := hkt.trans_le gkt
  have hphi' := hphi.trans_le gphi
  have hau' := hau.trans_le gau
  have a1 : Ag * fy ≤ Ag' * fy' := by gcongr
  have a2 : An * fu * kt * au ≤ An' * fu' * kt' * au' := by gcongr
  have a3 := min_le_min a1 a2
  have a4 : 0 ≤ min (Ag' * fy') (An' * fu' * kt' * au') := le_min (by positivity) (by positivity)
  refine ⟨a1, a2, a3, ?_, ?_, mul_le_mul a3 gphi hphi.le a4, ?_⟩
  · gcongr
  · gcongr
  · intro h1 h2
    have b1 : Ag * fy < Ag' * fy' := mul_lt_mul h1 gfy hfy hAg'.le
    have b2 : An * fu * kt * au < An' * fu' * kt' * au' := by
      have : An * fu < An' * fu' := mul_lt_mul h2 gfu hfu hAn'.le
      have : An * fu * kt < An' * fu' * kt' := mul_lt_mul this gkt hkt (by positivity)
      exact mul_lt_mul this gau hau (by positivity)
    exact mul_lt_mul (min_lt_min b1 b2) gphi hphi a4

/-- a concrete pair of bars for `C41_capacity_monotone` -/
example : (S7.Nt (Rt.exact ℚ) 1 1 300 440 1 S7.phi S7.alphaU).phiN = 270 ∧
    (S7.Nt (Rt.exact ℚ) 2 1 300 440 1 S7.phi S7.alphaU).phiN = 1683 / 5 := by
  constructor <;> decide +kernel

/-- C42.  `AS4100.s7_1_Nt` and the `'N'` entry of `S7.s7_1_N_t` are the same number, in any
floating point arithmetic; the φ entries are the others times φ, and `N` is the smaller capacity. -/
theorem C42_agree (rt : Rt K) (Ag An fy fu kt phi au : K) :
    let c := S7.Nt rt Ag An fy fu kt phi au
    s7Nt rt Ag An fy fu kt au = c.N ∧ s7Nty rt Ag fy = c.Nty ∧ s7Ntu rt An fu kt au = c.Ntu ∧
      c.phiNty = rt.mul c.Nty phi ∧ c.phiNtu = rt.mul c.Ntu phi ∧ c.phiN = rt.mul c.N phi ∧
      (c.N = c.Nty ∨ c.N = c.Ntu) ∧ c.N ≤ c.Nty ∧ c.N ≤ c.Ntu ∧
      c.Nty = rt.mul Ag fy ∧ c.Ntu = rt.mul (rt.mul (rt.mul An fu) kt) au := by
  refine ⟨rfl, rfl, rfl, rfl, rfl, rfl, ?_, min_le_left _ _, min_le_right _ _, rfl, rfl⟩
  exact min_choice _ _

/-- both capacities can be the smaller one -/
example : (S7.Nt (Rt.exact ℚ) 1 1 300 440 1 S7.phi S7.alphaU).N = 300 ∧
    (S7.Nt (Rt.exact ℚ) 2 1 300 440 1 S7.phi S7.alphaU).N = 374 := by
  constructor <;> decide +kernel

end BeamDesign
