import Verif.Lemmas.Capacity
import Verif.Props.Safe

/-!
# C85: capacities computed in floating point
-/

set_option linter.unusedSectionVars false

namespace BeamDesign

open Spec

section
variable {K : Type} [Field K] [LinearOrder K] [IsStrictOrderedRing K]
variable {rt : Rt K} {rnd : K → K} {F : K → Prop} {u η σ : K}

/-- The design capacity over the sections considered, rounded. -/
theorem phiNt_near (hR : Rounds rt F u η) (hu0 : 0 ≤ u) (hu : u ≤ 1 / 1000) (hσ0 : 0 < σ)
    (hσ1 : σ ≤ 1) (hη : η * 100 ≤ u * σ ^ 6) (hpi : F piD) {o : AS4100 K} (hd : UsualData F σ o) {position : PosArg K}
    {ds : List (DSect K)} (hds : o.considered rt position = .ok ds) (hne : ds ≠ []) (hsub : ∀ d ∈ ds, d ∈ o.dsects) :
    ∃ cap M, o.phiNt rt position = .ok cap ∧ F cap ∧
      IsLeast {N | ∃ d ∈ ds, SectionCapacity (Rt.exact K) o.kt o.alphaU d N} M ∧
      |cap - o.phiSteel * M| ≤ 62 / 10 * u * (o.phiSteel * M) ∧ σ ^ 6 ≤ o.phiSteel * M := by
  obtain ⟨hphi, hkt, hau, hds'⟩ := hd
  have hsec : ∀ rt' : Rt K, ∀ d ∈ ds, ∃ n, SectionCapacity rt' o.kt o.alphaU d n := by
    intro rt' d hd
    obtain ⟨-, fy, fu, hs, -⟩ := hds' d (hsub d hd)
    exact ⟨_, fy, fu, hs, rfl⟩
  have hnear : ∀ d ∈ ds, ∀ n N, SectionCapacity rt o.kt o.alphaU d n → SectionCapacity (Rt.exact K) o.kt o.alphaU d N →
      F n ∧ |n - N| ≤ 51 / 10 * u * N ∧ σ ^ 5 ≤ N := by
    intro d hd n N hn hN
    obtain ⟨hrad, fy, fu, hs, hfy, hfu⟩ := hds' d (hsub d hd)
    exact sectionCapacity_rel hR hu0 hu hσ0 hσ1 hη hpi hkt hau hrad hs hfy hfu hn hN
  obtain ⟨m, hm, hl⟩ := Nt_of_considered o position ds hds hne (hsec rt)
  obtain ⟨M, hM⟩ : ∃ M, IsLeast {N | ∃ d ∈ ds, SectionCapacity (Rt.exact K) o.kt o.alphaU d N} M := by
    clear hl hm hnear hsub hds
    induction ds with
    | nil => exact absurd rfl hne
    | cons d ds ih =>
      obtain ⟨N, hN⟩ := hsec (Rt.exact K) d List.mem_cons_self
      by_cases h0 : ds = []
      · subst h0
        refine ⟨N, ⟨d, List.mem_cons_self, hN⟩, ?_⟩
        rintro n ⟨d', hd', hn⟩
        rw [List.mem_singleton.1 hd'] at hn
        exact (sectionCapacity_unique hN hn).le
      · obtain ⟨M, ⟨d₀, hd₀, hM₀⟩, hM⟩ := ih h0 fun rt' d hd => hsec rt' d (List.mem_cons_of_mem _ hd)
        refine ⟨min N M, ?_, ?_⟩
        · rcases min_choice N M with h | h <;> rw [h]
          · exact ⟨d, List.mem_cons_self, hN⟩
          · exact ⟨d₀, List.mem_cons_of_mem _ hd₀, hM₀⟩
        · rintro n ⟨d', hd', hn⟩
          rcases List.mem_cons.1 hd' with rfl | hd'
          · rw [← sectionCapacity_unique hN hn]; exact min_le_left _ _
          · exact (min_le_right _ _).trans (hM ⟨d', hd', hn⟩)
  have h1 : |m - M| ≤ 51 / 10 * u * M := least_rel (P := fun d => d ∈ ds) (by linarith) hl hM
    (fun d hd n N hn hN => (hnear d hd n N hn hN).2.1) (hsec rt) (hsec (Rt.exact K))
  have hFm : F m := by
    obtain ⟨d, hd, hn⟩ := hl.1
    obtain ⟨N, hN⟩ := hsec (Rt.exact K) d hd
    exact (hnear d hd m N hn hN).1
  have hMσ : σ ^ 5 ≤ M := by
    obtain ⟨d, hd, hN⟩ := hM.1
    obtain ⟨n, hn⟩ := hsec rt d hd
    exact (hnear d hd n M hn hN).2.2
  have hM0 : 0 < M := lt_of_lt_of_le (by positivity) hMσ
  have hphi0 : 0 < o.phiSteel := hσ0.trans_le hphi.2
  have hlow : σ ^ 6 ≤ M * o.phiSteel := by
    rw [pow_succ]; exact mul_le_mul hMσ hphi.2 hσ0.le hM0.le
  obtain ⟨Fc, ec⟩ := hR.mul _ _ hphi.1 hFm
  refine ⟨rt.mul o.phiSteel m, M, ?_, Fc, hM, ?_, by rw [mul_comm]; exact hlow⟩
  · simp only [AS4100.phiNt, hm, bind, Except.bind, pure, Except.pure]
  · rw [mul_comm o.phiSteel m] at ec
    have := mul_rel hu0 (hη.trans (mul_le_mul_of_nonneg_left hlow hu0)) hM0 hphi0 le_rfl (by linarith) h1 ec
    rw [mul_comm o.phiSteel M]
    refine this.trans (mul_le_mul_of_nonneg_right (by linarith) (by positivity))

/-- C85: in floating point arithmetic with relative error `u`, on a beam whose element ends are machine numbers, with data
that are not tiny, the design capacity at given positions is φ times the least exact S7.1 capacity there, with a relative
error of at most `6.2 u`. -/
theorem C85_capacity (hr : RoundsTo rt rnd) (hR : Rounds rt F u η) (hu0 : 0 ≤ u) (hu : u ≤ 1 / 1000) (hσ0 : 0 < σ)
    (hσ1 : σ ≤ 1) (hη : η * 100 ≤ u * σ ^ 6) (hpi : F piD) (o : AS4100 K) (b : Beam K (Sect K)) (hb : o.beam = some b)
    (ha : Aligned o) (ls : List (Num K)) (h : HasLengths b ls) (hls : ls ≠ []) (hm : Marks rnd ls)
    (hd : UsualData F σ o) (position : PosArg K) (xs : List K) (hreq : Requested position xs) (hxs : xs ≠ [])
    (hin : ∀ x ∈ xs, 0 ≤ x ∧ x ≤ total ls) :
    ∃ cap M, o.phiNt rt position = .ok cap ∧ F cap ∧
      IsLeast {N | ∃ p ∈ xs, ∃ d, AtPosition b ls p d ∧ SectionCapacity (Rt.exact K) o.kt o.alphaU d N} M ∧
      |cap - o.phiSteel * M| ≤ 62 / 10 * u * (o.phiSteel * M) ∧ σ ^ 6 ≤ o.phiSteel * M := by
  obtain ⟨ds, hds, hmem⟩ := fconsidered hr hb ha h hm hreq hin
  have hne : ds ≠ [] := by
    obtain ⟨x, hxm⟩ := List.exists_mem_of_ne_nil xs hxs
    obtain ⟨i, hi⟩ := exists_inElement h.2 hls (hin x hxm).1 (hin x hxm).2
    have hlt : i < b.elements.length := by rw [hasLengths_length h]; exact hi.1
    obtain ⟨d, -, hd⟩ := aligned_get hb ha (List.getElem?_eq_getElem hlt)
    exact List.ne_nil_of_mem ((hmem d).2 ⟨x, hxm, i, _, hi, List.getElem?_eq_getElem hlt, hd⟩)
  obtain ⟨cap, M, h1, h2, h3, h4⟩ := phiNt_near hR hu0 hu hσ0 hσ1 hη hpi hd hds hne (fun d hd' => by
    obtain ⟨p, -, hat⟩ := (hmem d).1 hd'
    exact atPosition_mem hb ha hat)
  refine ⟨cap, M, h1, h2, ?_, h4⟩
  convert h3 using 1
  ext N
  constructor
  · rintro ⟨p, hp, d, hat, hN⟩
    exact ⟨d, (hmem d).2 ⟨p, hp, hat⟩, hN⟩
  · rintro ⟨d, hd', hN⟩
    obtain ⟨p, hp, hat⟩ := (hmem d).1 hd'
    exact ⟨p, hp, d, hat, hN⟩

end

theorem piD_double : IsDouble piD := ⟨884279719003555, -48, by norm_num, by norm_num, by unfold piD; norm_num⟩

/-- The double nearest to π is below π, by less than a hundred-millionth of a billionth. -/
theorem piD_real : ((piD : ℚ) : ℝ) < Real.pi ∧ Real.pi ≤ (1 + 2 ^ (-54 : ℤ)) * ((piD : ℚ) : ℝ) := by
  have h1 := Real.pi_gt_d20
  have h2 := Real.pi_lt_d20
  unfold piD
  push_cast
  constructor
  · refine lt_of_lt_of_le ?_ h1.le; norm_num
  · refine h2.le.trans ?_; norm_num

/-- Exact capacities with the double for π and with π itself. -/
theorem trueCapacity_eq {o : AS4100 ℚ} {d : DSect ℚ} {N : ℚ} (hN : SectionCapacity (Rt.exact ℚ) o.kt o.alphaU d N) {c : ℝ}
    (hc : TrueCapacity o d c) : c = Real.pi / ((piD : ℚ) : ℝ) * ((o.phiSteel * N : ℚ) : ℝ) := by
  obtain ⟨fy, fu, hs, rfl⟩ := hc
  have hN' : N = min (piD * (d.radius * d.radius) * fy) (piD * (d.radius * d.radius) * fu * o.kt * o.alphaU) :=
    sectionCapacity_unique hN ⟨fy, fu, hs, rfl⟩
  have hpi : (0 : ℝ) < ((piD : ℚ) : ℝ) := by exact_mod_cast (show (0 : ℚ) < piD by linarith [piD_gt (K := ℚ)])
  rw [hN']
  push_cast
  have hk : (0 : ℝ) ≤ Real.pi / ((piD : ℚ) : ℝ) := div_nonneg Real.pi_pos.le hpi.le
  rw [mul_left_comm, mul_min_of_nonneg _ _ hk]
  congr 2 <;> field_simp

theorem trueCapacity_of {o : AS4100 ℚ} {d : DSect ℚ} {N : ℚ} (hN : SectionCapacity (Rt.exact ℚ) o.kt o.alphaU d N) :
    TrueCapacity o d (Real.pi / ((piD : ℚ) : ℝ) * ((o.phiSteel * N : ℚ) : ℝ)) := by
  obtain ⟨fy, fu, hs, -⟩ := id hN
  have : TrueCapacity o d _ := ⟨fy, fu, hs, rfl⟩
  rwa [trueCapacity_eq hN this] at this

theorem trueCapacity_section {o : AS4100 ℚ} {d : DSect ℚ} {c : ℝ} (hc : TrueCapacity o d c) :
    ∃ N, SectionCapacity (Rt.exact ℚ) o.kt o.alphaU d N := by
  obtain ⟨fy, fu, hs, -⟩ := hc
  exact ⟨_, fy, fu, hs, rfl⟩

/-- Least exact capacities, with the double for π, are least true capacities. -/
theorem least_true {o : AS4100 ℚ} {P : DSect ℚ → Prop} (hphi : 0 ≤ o.phiSteel) {M : ℚ}
    (hM : IsLeast {N | ∃ d, P d ∧ SectionCapacity (Rt.exact ℚ) o.kt o.alphaU d N} M) :
    IsLeast {c | ∃ d, P d ∧ TrueCapacity o d c} (Real.pi / ((piD : ℚ) : ℝ) * ((o.phiSteel * M : ℚ) : ℝ)) := by
  obtain ⟨⟨d, hd, hN⟩, hle⟩ := hM
  refine ⟨⟨d, hd, trueCapacity_of hN⟩, ?_⟩
  rintro c ⟨d', hd', hc⟩
  obtain ⟨N, hN'⟩ := trueCapacity_section hc
  rw [trueCapacity_eq hN' hc]
  have hpi : (0 : ℝ) < ((piD : ℚ) : ℝ) := by exact_mod_cast (show (0 : ℚ) < piD by linarith [piD_gt (K := ℚ)])
  refine mul_le_mul_of_nonneg_left ?_ (div_nonneg Real.pi_pos.le hpi.le)
  exact_mod_cast mul_le_mul_of_nonneg_left (hle ⟨d', hd', hN'⟩) hphi

/-- The quotient of π and its double. -/
theorem pi_ratio : 1 ≤ Real.pi / ((piD : ℚ) : ℝ) ∧ Real.pi / ((piD : ℚ) : ℝ) ≤ 1 + 2 ^ (-54 : ℤ) := by
  have hpi : (0 : ℝ) < ((piD : ℚ) : ℝ) := by exact_mod_cast (show (0 : ℚ) < piD by linarith [piD_gt (K := ℚ)])
  rw [le_div_iff₀ hpi, div_le_iff₀ hpi, one_mul]
  exact ⟨piD_real.1.le, piD_real.2⟩

theorem near_true {cap X : ℚ} (hX : 0 ≤ X) (h : |cap - X| ≤ 62 / 10 * 2 ^ (-53 : ℤ) * X) :
    |(cap : ℝ) - Real.pi / ((piD : ℚ) : ℝ) * (X : ℝ)| ≤ 2 ^ (-50 : ℤ) * (Real.pi / ((piD : ℚ) : ℝ) * (X : ℝ)) := by
  have h' : |(cap : ℝ) - X| ≤ 62 / 10 * 2 ^ (-53 : ℤ) * X := by
    have := (Rat.cast_le (K := ℝ)).2 h
    rw [Rat.cast_abs] at this
    push_cast at this
    exact this
  have hX' : (0 : ℝ) ≤ X := by exact_mod_cast hX
  obtain ⟨h1, h2⟩ := pi_ratio
  generalize Real.pi / ((piD : ℚ) : ℝ) = k at *
  have h3 : (X : ℝ) ≤ k * X := le_mul_of_one_le_left hX' h1
  have h4 : k * X ≤ (1 + 2 ^ (-54 : ℤ)) * (X : ℝ) := mul_le_mul_of_nonneg_right h2 hX'
  rw [abs_le] at *
  norm_num at *
  constructor <;> linarith

theorem underflow_small : (2 : ℚ) ^ (-1075 : ℤ) * 100 ≤ 2 ^ (-53 : ℤ) * (2 ^ (-100 : ℤ)) ^ 6 := by
  have h1 : (2 : ℚ) ^ (-1075 : ℤ) * 100 ≤ 2 ^ (-1075 : ℤ) * 2 ^ (7 : ℤ) :=
    mul_le_mul_of_nonneg_left (by norm_num) (two_zpow_pos _).le
  refine h1.trans ?_
  rw [← zpow_natCast, ← zpow_mul, ← zpow_add₀ (by norm_num), ← zpow_add₀ (by norm_num)]
  exact zpow_le_zpow_right₀ (by norm_num) (by norm_num)

theorem swap_exists {α β γ : Type} {xs : List α} {P : α → β → Prop} {Q : β → γ → Prop} :
    {c | ∃ p ∈ xs, ∃ d, P p d ∧ Q d c} = {c | ∃ d, (∃ p ∈ xs, P p d) ∧ Q d c} := by
  ext c
  constructor
  · rintro ⟨p, hp, d, hat, hN⟩; exact ⟨d, ⟨p, hp, hat⟩, hN⟩
  · rintro ⟨d, ⟨p, hp, hat⟩, hN⟩; exact ⟨p, hp, d, hat, hN⟩

/-- C85 in double precision: the design capacity at given positions is the least of the true ones there, with the true π,
with a relative error below `2 ^ -50`. -/
theorem C85_binary64 (o : AS4100 ℚ) (b : Beam ℚ (Sect ℚ)) (hb : o.beam = some b) (ha : Aligned o) (ls : List (Num ℚ))
    (h : HasLengths b ls) (hls : ls ≠ []) (hm : Marks rnd64 ls) (hd : UsualData IsDouble (2 ^ (-100 : ℤ)) o)
    (position : PosArg ℚ) (xs : List ℚ) (hreq : Requested position xs) (hxs : xs ≠ [])
    (hin : ∀ x ∈ xs, 0 ≤ x ∧ x ≤ total ls) :
    ∃ cap C, o.phiNt Rt.binary64 position = .ok cap ∧
      IsLeast {c | ∃ p ∈ xs, ∃ d, AtPosition b ls p d ∧ TrueCapacity o d c} C ∧
      |(cap : ℝ) - C| ≤ 2 ^ (-50 : ℤ) * C := by
  obtain ⟨cap, M, h1, -, h2, h3, h4⟩ := C85_capacity C83_binary64_rounds C78_binary64_rounds (two_zpow_pos _).le
    (by norm_num) (two_zpow_pos _) (by norm_num) underflow_small piD_double o b hb ha ls h hls hm hd position xs hreq hxs hin
  rw [swap_exists] at h2
  refine ⟨cap, _, h1, ?_, near_true (le_trans (by positivity) h4) h3⟩
  rw [swap_exists]
  exact least_true ((two_zpow_pos _).le.trans hd.1.2) h2

/-- C85 in double precision, for all sections of the object. -/
theorem C85_binary64_overall (o : AS4100 ℚ) (hne : o.dsects ≠ []) (hd : UsualData IsDouble (2 ^ (-100 : ℤ)) o) :
    ∃ cap C, o.phiNt Rt.binary64 .none = .ok cap ∧ IsLeast {c | ∃ d, d ∈ o.dsects ∧ TrueCapacity o d c} C ∧
      |(cap : ℝ) - C| ≤ 2 ^ (-50 : ℤ) * C := by
  obtain ⟨cap, M, h1, -, h2, h3, h4⟩ := phiNt_near C78_binary64_rounds (two_zpow_pos _).le
    (by norm_num) (two_zpow_pos _) (by norm_num) underflow_small piD_double hd (position := .none) rfl hne (fun d h => h)
  exact ⟨cap, _, h1, least_true ((two_zpow_pos _).le.trans hd.1.2) h2, near_true (le_trans (by positivity) h4) h3⟩

/-! ## Cases meeting the hypotheses -/

theorem fast_double (x : ℚ) : IsDouble (fastRnd x) := by rw [fastRnd_eq]; exact isDouble_rnd64 x

theorem usual_of {x : ℚ} (h : IsDouble x) (hx : 1 / 1024 ≤ x) : IsDouble x ∧ 2 ^ (-100 : ℤ) ≤ x :=
  ⟨h, le_trans (by norm_num) hx⟩

/-- Two rods of lengths 0.75 and 2.5, radii 0.01 and 0.02, in doubles: stored tensions up to 60 kN on the first, and 100 kN in
the middle of the second. -/
def pairObj : AS4100 ℚ :=
  ⟨some ⟨[⟨[(1, ⟨some ⟨false, [Samples.axial 0 12345, Samples.axial (1/2) 60000, Samples.axial 1 (-20000)]⟩⟩)],
      some (Num.flt (3/4)), .circle (fastRnd (1/100)) (some doubleSteel)⟩,
    ⟨[(1, ⟨some ⟨false, [Samples.axial 0 (-20000), Samples.axial (1/2) 100000]⟩⟩)],
      some (Num.flt (5/2)), .circle (fastRnd (2/100)) (some doubleSteel)⟩]⟩,
    none, 20, [⟨fastRnd (1/100), doubleSteel⟩, ⟨fastRnd (2/100), doubleSteel⟩], fastRnd (9/10), fastRnd (85/100), 1⟩

def pairLens : List (Num ℚ) := [Num.flt (3/4), Num.flt (5/2)]

def pairBeam : Beam ℚ (Sect ℚ) := (pairObj.beam).getD ⟨[]⟩

theorem pairObj_aligned : Aligned pairObj := by
  unfold Aligned
  exact .cons ⟨rfl, rfl⟩ (.cons ⟨rfl, rfl⟩ .nil)

theorem pairBeam_lens : HasLengths pairBeam pairLens :=
  ⟨.cons rfl (.cons rfl .nil), by decide +kernel⟩

theorem pair_marks : Marks rnd64 pairLens := by
  have h1 : rnd64 (3/4) = 3/4 := isDouble_iff.1 ⟨3, -2, by norm_num, by norm_num, by norm_num⟩
  have h2 : rnd64 (5/2) = 5/2 := isDouble_iff.1 ⟨5, -1, by norm_num, by norm_num, by norm_num⟩
  have h3 : rnd64 (13/4) = 13/4 := isDouble_iff.1 ⟨13, -2, by norm_num, by norm_num, by norm_num⟩
  constructor
  · intro l hl
    rcases List.mem_pair.1 hl with rfl | rfl
    · exact ⟨rfl, by norm_num, h1⟩
    · exact ⟨rfl, by norm_num, h2⟩
  · intro i
    match i with
    | 0 => simp [startOf, rnd64_zero]
    | 1 => simpa [startOf, pairLens] using h1
    | i + 2 =>
      rw [show startOf pairLens (i + 2) = 13/4 by norm_num [startOf, pairLens]]
      exact h3

theorem pairObj_usual : UsualData IsDouble (2 ^ (-100 : ℤ)) pairObj := by
  refine ⟨usual_of (fast_double _) (by decide +kernel), usual_of ⟨1, 0, by norm_num, by norm_num, by norm_num [pairObj]⟩
    (by norm_num [pairObj]), usual_of (fast_double _) (by decide +kernel), ?_⟩
  intro d hd
  rcases List.mem_pair.1 hd with rfl | rfl
  · exact ⟨usual_of (fast_double _) (by decide +kernel), 250000000, 410000000, strengths_iff.2 ⟨by decide +kernel,
      by decide +kernel⟩, usual_of ⟨250000000, 0, by norm_num, by norm_num, by norm_num⟩ (by norm_num),
      usual_of ⟨410000000, 0, by norm_num, by norm_num, by norm_num⟩ (by norm_num)⟩
  · exact ⟨usual_of (fast_double _) (by decide +kernel), 250000000, 410000000, strengths_iff.2 ⟨by decide +kernel,
      by decide +kernel⟩, usual_of ⟨250000000, 0, by norm_num, by norm_num, by norm_num⟩ (by norm_num),
      usual_of ⟨410000000, 0, by norm_num, by norm_num, by norm_num⟩ (by norm_num)⟩

/-- The rods at 0.1 and 3. -/
example : ∃ cap C, pairObj.phiNt Rt.binary64 (.list [Num.flt (fastRnd (1/10)), Num.flt 3]) = .ok cap ∧
    IsLeast {c | ∃ p ∈ [fastRnd (1/10), 3], ∃ d, AtPosition pairBeam pairLens p d ∧ TrueCapacity pairObj d c} C ∧
    |(cap : ℝ) - C| ≤ 2 ^ (-50 : ℤ) * C :=
  C85_binary64 pairObj pairBeam rfl pairObj_aligned pairLens pairBeam_lens (by simp [pairLens]) pair_marks pairObj_usual _ _
    (Or.inr ⟨_, rfl, rfl⟩) (by simp) (by decide +kernel)

/-- The same rods with generic roundings. -/
example : ∃ cap M, pairObj.phiNt Rt.binary64 (.scalar (Num.flt 3)) = .ok cap ∧ IsDouble cap ∧
    IsLeast {N | ∃ p ∈ [(3 : ℚ)], ∃ d, AtPosition pairBeam pairLens p d ∧
      SectionCapacity (Rt.exact ℚ) pairObj.kt pairObj.alphaU d N} M ∧
    |cap - pairObj.phiSteel * M| ≤ 62 / 10 * 2 ^ (-53 : ℤ) * (pairObj.phiSteel * M) ∧
    (2 ^ (-100 : ℤ)) ^ 6 ≤ pairObj.phiSteel * M :=
  C85_capacity C83_binary64_rounds C78_binary64_rounds (two_zpow_pos _).le
    (by norm_num) (two_zpow_pos _) (by norm_num) underflow_small piD_double pairObj pairBeam rfl pairObj_aligned pairLens
    pairBeam_lens (by simp [pairLens]) pair_marks pairObj_usual _ _
    (Or.inl ⟨_, rfl, rfl⟩) (by simp) (by decide +kernel)

/-- All sections. -/
example : ∃ cap C, pairObj.phiNt Rt.binary64 .none = .ok cap ∧ IsLeast {c | ∃ d, d ∈ pairObj.dsects ∧ TrueCapacity pairObj d c} C ∧
    |(cap : ℝ) - C| ≤ 2 ^ (-50 : ℤ) * C := C85_binary64_overall _ (by simp [pairObj]) pairObj_usual

end BeamDesign
