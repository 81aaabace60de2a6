import Verif.Lemmas.Full64

/-!
# C142: the whole utilisation on IEEE doubles
-/

set_option linter.unusedSectionVars false

namespace BeamDesign

open Spec

/-- The axial load is within some utilisation that was found, times the true design capacity. -/
theorem full_bound {o : AS4100 ℚ} {b : Beam ℚ (Sect ℚ)} (hb : o.beam = some b) (ha : Aligned o)
    {ls : List (Num ℚ)} (h : HasLengths b ls) (hls : ls ≠ []) (hm : Marks rnd64 ls) {n : ℕ} (hn : o.assessmentPoints = n)
    (hd : UsualData IsDouble (2 ^ (-100 : ℤ)) o) (hB : DataUpTo (2 ^ (100 : ℤ)) o)
    {loadCase : CaseArg} {c : ℤ} {cs : List ℤ} (hcs : CasesOf o loadCase (c :: cs))
    (hc : LoadedFloat b c) {u : Flt} (hu : o.tensionUtilisationFull loadCase .none = .ok u)
    {k : ℤ} (hk : k ∈ c :: cs) (hst : StationsOf b c k) (hgl : LoadsOnGrid rnd64 IsDouble b ls k)
    {i : ℕ} {t : Table ℚ} {e : Element ℚ (Sect ℚ)} {d : DSect ℚ} {C : ℝ} {x a : ℚ} (ht : HasTable b k i t)
    (he : b.elements[i]? = some e) (hes : e.sect = .circle d.radius (some d.material)) (hC : TrueCapacity o d C)
    (hax : AxialAt t.rows x a) :
    ∃ (w : ℚ) (ws : List Flt), Val.fin w ∈ ws ∧ F64.maxList ws = .ok u ∧ 0 ≤ C ∧ (a : ℝ) ≤ (w : ℝ) * (1 + 2 ^ (-42 : ℤ)) * C := by
  obtain ⟨r, hr, har⟩ := axialAt_le hax
  have hgrid := hgl.2 i t r ht hr
  have hi : i < ls.length := by
    rw [← hasLengths_length h]
    exact (List.getElem?_eq_some_iff.1 he).1
  have hl : ls[i]? = some ls[i] := List.getElem?_eq_getElem hi
  have hin : InElement ls (startOf ls i + r.pos * (ls[i]).val) i := by
    obtain ⟨-, hpos, -⟩ := hm.1 ls[i] (List.mem_of_getElem? hl)
    have hstep := startOf_succ ls i ls[i] hl
    obtain ⟨-, -, -, hwf, -⟩ := id ht
    obtain ⟨x0, x1⟩ := hwf.2 r hr
    have hx0 : 0 ≤ r.pos * (ls[i]).val := mul_nonneg x0 hpos.le
    have hx1 : r.pos * (ls[i]).val ≤ (ls[i]).val := mul_le_of_le_one_left hpos.le x1
    exact ⟨hi, by linarith, by linarith⟩
  set q := startOf ls i + r.pos * (ls[i]).val with hq
  obtain ⟨cap, M, h1, h2, h3, h4, h5⟩ := C85_capacity C83_binary64_rounds C78_binary64_rounds (two_zpow_pos _).le
    (by norm_num) (two_zpow_pos _) (by norm_num) underflow_small piD_double o b hb ha ls h hls hm hd (.scalar (Num.flt q)) [q]
    (Or.inl ⟨_, rfl, rfl⟩) (by simp) (by simpa using inElement_range h.2 hin)
  obtain ⟨w, ws, hw, hmem, hmax⟩ := fullCovers (rated_of hd hB) hb h hm hn hcs hc hu hk hst hl ht hr hgrid h1
  have hF : IsDouble (max r.n 0) := by
    rcases max_choice r.n 0 with h0 | h0 <;> rw [h0]
    · exact (hgl.1 i t ht r hr).2 .N
    · exact ⟨0, 0, by norm_num, by norm_num, by simp⟩
  obtain ⟨v, rfl, hv⟩ := utilOne_num hF h2 (phiNt_usual hd h1).2 hw
  obtain ⟨N, hN⟩ := trueCapacity_section hC
  have hphi : 0 ≤ o.phiSteel := (two_zpow_pos _).le.trans hd.1.2
  have hMN : o.phiSteel * M ≤ o.phiSteel * N :=
    mul_le_mul_of_nonneg_left (h3.2 ⟨q, by simp, d, ⟨i, e, hin, he, hes⟩, hN⟩) hphi
  have hX0 : (0 : ℚ) < o.phiSteel * M := lt_of_lt_of_le (pow_pos (two_zpow_pos _) _) h5
  obtain ⟨k1, -⟩ := pi_ratio
  obtain ⟨hv0, hmain⟩ := sound_one64 ((hgl.1 i t ht r hr).2 .N) h2 hv le_rfl h5 h4 hMN
  have hC0 : 0 ≤ C := (trueCapacity_pos (two_zpow_pos _) hd (atPosition_mem hb ha (ls := ls) (p := startOf ls i)
    ⟨i, e, ⟨hi, le_rfl, startOf_mono h.2 (Nat.le_succ i)⟩, he, hes⟩) hC).le
  refine ⟨v, ws, hmem, hmax, hC0, ?_⟩
  have hr' : (a : ℝ) ≤ (v * (1 + 2 ^ (-42 : ℤ)) * (o.phiSteel * N) : ℚ) := by exact_mod_cast har.trans hmain
  refine hr'.trans ?_
  rw [trueCapacity_eq hN hC]
  have h0 : (0 : ℝ) < ((o.phiSteel * N : ℚ) : ℝ) := by exact_mod_cast hX0.trans_le hMN
  have h6 : ((o.phiSteel * N : ℚ) : ℝ) ≤ Real.pi / ((piD : ℚ) : ℝ) * ((o.phiSteel * N : ℚ) : ℝ) := le_mul_of_one_le_left h0.le k1
  have hv0' : (0 : ℝ) ≤ v := by exact_mod_cast hv0
  rw [Rat.cast_mul]
  push_cast at h6 ⊢
  exact mul_le_mul_of_nonneg_left h6 (by positivity)

/-- C142: on IEEE doubles throughout, where loads, areas, strengths and capacities overflow to infinities and nan, on a beam whose
element ends are doubles, with data between `2 ^ -100` and `2 ^ 100` and loads of any size stored on the grid of doubles: if the check
returns a number, the true axial load is nowhere above `1 + 2 ^ -42` times that number times the true design capacity.  This holds for
the first load case, and for every load case whose stations are among its stations. -/
theorem C142_grid (o : AS4100 ℚ) (b : Beam ℚ (Sect ℚ)) (hb : o.beam = some b) (ha : Aligned o)
    (ls : List (Num ℚ)) (h : HasLengths b ls) (hls : ls ≠ []) (hm : Marks rnd64 ls) (n : ℕ) (hn : o.assessmentPoints = n)
    (hd : UsualData IsDouble (2 ^ (-100 : ℤ)) o) (hB : DataUpTo (2 ^ (100 : ℤ)) o)
    (loadCase : CaseArg) (c : ℤ) (cs : List ℤ) (hcs : CasesOf o loadCase (c :: cs)) (hc : LoadedFloat b c)
    (v : ℚ) (hv : o.tensionUtilisationFull loadCase .none = .ok (.fin v))
    (k : ℤ) (hk : k ∈ c :: cs) (hst : StationsOf b c k) (hgl : LoadsOnGrid rnd64 IsDouble b ls k) :
    TrulyNowhereAbove o b k (v * (1 + 2 ^ (-42 : ℤ))) := by
  rintro i t e d C x a ht he hes hC - - hax
  obtain ⟨w, ws, h1, h2, h3, h4⟩ := full_bound hb ha h hls hm hn hd hB hcs hc hv hk hst hgl ht he hes hC hax
  have hw : (w : ℝ) ≤ v := by exact_mod_cast maxList_fin h2 h1
  exact h4.trans (mul_le_mul_of_nonneg_right (mul_le_mul_of_nonneg_right hw (by positivity)) h3)

/-- C142: whatever the check returns, if it compares as at most 1 then no element is overloaded anywhere, by more than rounding. -/
theorem C142_passes (o : AS4100 ℚ) (b : Beam ℚ (Sect ℚ)) (hb : o.beam = some b) (ha : Aligned o)
    (ls : List (Num ℚ)) (h : HasLengths b ls) (hls : ls ≠ []) (hm : Marks rnd64 ls) (n : ℕ) (hn : o.assessmentPoints = n)
    (hd : UsualData IsDouble (2 ^ (-100 : ℤ)) o) (hB : DataUpTo (2 ^ (100 : ℤ)) o)
    (loadCase : CaseArg) (c : ℤ) (cs : List ℤ) (hcs : CasesOf o loadCase (c :: cs)) (hc : LoadedFloat b c)
    (u : Flt) (hu : o.tensionUtilisationFull loadCase .none = .ok u) (hu1 : F64.le u (.fin 1) = true)
    (k : ℤ) (hk : k ∈ c :: cs) (hst : StationsOf b c k) (hgl : LoadsOnGrid rnd64 IsDouble b ls k) :
    TrulyNowhereAbove o b k (1 + 2 ^ (-42 : ℤ)) := by
  rintro i t e d C x a ht he hes hC - - hax
  obtain ⟨w, ws, h1, h2, h3, h4⟩ := full_bound hb ha h hls hm hn hd hB hcs hc hu hk hst hgl ht he hes hC hax
  have hw : (w : ℝ) ≤ 1 := by
    cases u with
    | fin v =>
      rw [le_fin] at hu1
      exact_mod_cast (maxList_fin h2 h1).trans (of_decide_eq_true hu1)
    | posInf => cases hu1
    | negInf => exact absurd h1 (maxList_negInf h2 w)
    | nan => cases hu1
  exact h4.trans (mul_le_mul_of_nonneg_right (mul_le_of_le_one_left (by positivity) hw) h3)

/-- C142: with loads and data of at most `2 ^ 100`, and different stations at least `2 ^ -900` apart, nothing overflows: for all
arguments, valid or not, the check on IEEE doubles gives the number or the exception of the check of C140. -/
theorem C142_same (o : AS4100 ℚ) (hd : UsualData IsDouble (2 ^ (-100 : ℤ)) o) (hB : DataUpTo (2 ^ (100 : ℤ)) o)
    (hl : ∀ b, o.beam = some b → LoadsUpTo IsDouble (2 ^ (-900 : ℤ)) (2 ^ (100 : ℤ)) b) (loadCase : CaseArg) (position : PosArg ℚ) :
    o.tensionUtilisationFull loadCase position = (o.tensionUtilisation64 loadCase position).map Val.fin := by
  have key : PRel (fun v w => v = Val.fin w) (o.tensionUtilisationFull loadCase position) (o.tensionUtilisation64 loadCase position) := by
    unfold AS4100.tensionUtilisationFull AS4100.tensionUtilisation64 AS4100.tensionUtilisationWith
    refine PRel.bind (PRel.refl _) fun given _ hg => ?_
    subst hg
    refine PRel.bind (PRel.refl _) fun cases' _ hc => ?_
    subst hc
    refine (utilLoopFull_rel (rated_of hd hB) hd hl cases' given).bind fun xs ys hxy => ?_
    have hsel : List.Forall₂ SameRow (utilSelect loadCase given xs) (utilFilter loadCase given ys) := by
      have h1 : ∀ ps : List (Num ℚ), ∀ x y, SameRow x y →
          decide (x.2.1.val ∈ ps.map fun p => p.val) = decide (y.2.1.val ∈ ps.map fun p => p.val) := by
        rintro ps x y ⟨-, h, -⟩; rw [h]
      have h2 : ∀ cs : List ℤ, ∀ x y, SameRow x y → decide (x.1 ∈ cs) = decide (y.1 ∈ cs) := by
        rintro cs x y ⟨h, -⟩; rw [h]
      unfold utilSelect utilFilter
      cases loadCase <;> cases given <;> simp only
      · exact hxy
      · exact filter_rel (h1 _) hxy
      · exact filter_rel (h2 _) hxy
      · exact hxy
      · exact filter_rel (h2 _) hxy
      · exact hxy
    have hmap : (utilSelect loadCase given xs).map (fun r => r.2.2) = ((utilFilter loadCase given ys).map fun r => r.2.2).map Val.fin := by
      rw [List.map_map, ← List.forall₂_eq_eq_eq, List.forall₂_map_left_iff, List.forall₂_map_right_iff]
      exact hsel.imp fun x y h => h.2.2
    rw [hmap, maxList_map]
    cases pyMax ((utilFilter loadCase given ys).map fun r => r.2.2) <;> rfl
  revert key
  cases o.tensionUtilisationFull loadCase position <;> cases o.tensionUtilisation64 loadCase position <;> simp only [PRel, false_implies]
  · rintro rfl; rfl
  · rintro rfl; rfl

/-- C142: with such loads, stored at any positions, a utilisation that compares as at most 1 means that no element is overloaded
anywhere by more than rounding. -/
theorem C142_anywhere (o : AS4100 ℚ) (b : Beam ℚ (Sect ℚ)) (hb : o.beam = some b) (ha : Aligned o)
    (ls : List (Num ℚ)) (h : HasLengths b ls) (hls : ls ≠ []) (hm : Marks rnd64 ls) (R : ℚ) (hR : NotTiny ls R)
    (n : ℕ) (hn : o.assessmentPoints = n) (hd : UsualData IsDouble (2 ^ (-100 : ℤ)) o) (hB : DataUpTo (2 ^ (100 : ℤ)) o)
    (hl : LoadsUpTo IsDouble (2 ^ (-900 : ℤ)) (2 ^ (100 : ℤ)) b) (c : ℤ) (hc : LoadedFloat b c)
    (g W : ℚ) (hg : 0 < g) (hgl : GentleLoads b c g W)
    (u : Flt) (hu : o.tensionUtilisationFull (.one c) .none = .ok u) (hu1 : F64.le u (.fin 1) = true) :
    TrulyNowhereAboveBy o b c (1 + 2 ^ (-42 : ℤ)) (2 ^ (-49 : ℤ) * W * (1 + R / g) + 2 ^ (-1073 : ℤ)) := by
  rw [C142_same o hd hB (fun b' hb' => by rw [hb] at hb'; cases hb'; exact hl)] at hu
  cases hv : o.tensionUtilisation64 (.one c) .none with
  | error => rw [hv] at hu; cases hu
  | ok v =>
    rw [hv] at hu
    cases hu
    rw [le_fin] at hu1
    refine C141_passes o b hb ha ls h hls hm R hR n hn hd c hc ?_ g W hg hgl v hv (of_decide_eq_true hu1)
    intro i t ht
    obtain ⟨e, he, hlk, -⟩ := ht
    exact (hl e (List.mem_of_getElem? he) c t hlk).2.1

/-- A rod of radius `2 ^ 300` with strengths `2 ^ 380` and `2 ^ 450`, and `kt = 2 ^ -90`, under a tension of `2 ^ 980`. -/
def vastObj : AS4100 ℚ :=
  let steel : Material ℚ := ⟨.mat .steel, .str "vast", .str "none", [("strengths", .table [[2 ^ 400], [2 ^ 380], [2 ^ 450]])]⟩
  ⟨some ⟨[⟨[(1, ⟨some ⟨false, [Samples.axial 0 (2 ^ 980)]⟩⟩)], some (Num.flt 1), .circle (2 ^ 300) (some steel)⟩]⟩,
    none, 20, [⟨2 ^ 300, steel⟩], 1, 1, (1 / 2) ^ 90⟩

theorem vast_strengths {fy fu : ℚ} {d : DSect ℚ} (hd : d ∈ vastObj.dsects) (h : Strengths d fy fu) : fy = 2 ^ 380 ∧ fu = 2 ^ 450 := by
  obtain rfl := List.mem_singleton.1 hd
  obtain ⟨h1, h2⟩ := strengths_iff.1 h
  have h3 : (DSect.minFy (⟨2 ^ 300, ⟨.mat .steel, .str "vast", .str "none", [("strengths", .table [[2 ^ 400], [2 ^ 380], [2 ^ 450]])]⟩⟩ :
    DSect ℚ)) = .ok (2 ^ 380) := by decide +kernel
  have h4 : (DSect.minFu (⟨2 ^ 300, ⟨.mat .steel, .str "vast", .str "none", [("strengths", .table [[2 ^ 400], [2 ^ 380], [2 ^ 450]])]⟩⟩ :
    DSect ℚ)) = .ok (2 ^ 450) := by decide +kernel
  rw [h3] at h1
  rw [h4] at h2
  exact ⟨(Except.ok.inj h1).symm, (Except.ok.inj h2).symm⟩

/-- C142 needs the upper bound on the data: the product of area and tensile strength overflows, so that the factor `kt` has no effect, and
the rod passes although its tension is more than 300000 times the true design capacity. -/
theorem C142_counterexample :
    vastObj.tensionUtilisationFull (.one 1) .none = .ok (.fin (5734161139222659 / 2 ^ 54)) ∧
    ∀ d ∈ vastObj.dsects, ∀ C, TrueCapacity vastObj d C → 300000 * C < 2 ^ 980 := by
  refine ⟨by decide +kernel, ?_⟩
  rintro d hd C ⟨fy, fu, hs, rfl⟩
  obtain ⟨rfl, rfl⟩ := vast_strengths hd hs
  obtain rfl := List.mem_singleton.1 hd
  have hpi := Real.pi_lt_d2
  have h1 : Real.pi * ((2 ^ 300 : ℚ) : ℝ) ^ 2 * ((2 ^ 450 : ℚ) : ℝ) * (((1 / 2) ^ 90 : ℚ) : ℝ) * ((1 : ℚ) : ℝ) = Real.pi * 2 ^ 960 := by
    have h : (2 : ℝ) ^ 450 = 2 ^ 360 * 2 ^ 90 := by rw [← pow_add]
    have h' : (2 : ℝ) ^ 90 * (1 / 2) ^ 90 = 1 := by rw [← mul_pow]; norm_num
    have h'' : (2 : ℝ) ^ 960 = (2 ^ 300) ^ 2 * 2 ^ 360 := by rw [← pow_mul, ← pow_add]
    push_cast
    rw [h, h'', mul_one]
    calc _ = Real.pi * (2 ^ 300) ^ 2 * 2 ^ 360 * (2 ^ 90 * (1 / 2) ^ 90) := by ring
      _ = _ := by rw [h', mul_one, mul_assoc]
  have h2 : (2 : ℝ) ^ 980 = 2 ^ 960 * 1048576 := by
    rw [show (1048576 : ℝ) = 2 ^ 20 by norm_num, ← pow_add]
  have h3 : (0 : ℝ) < 2 ^ 960 := by positivity
  show 300000 * (((1 : ℚ) : ℝ) * min (Real.pi * ((2 ^ 300 : ℚ) : ℝ) ^ 2 * ((2 ^ 380 : ℚ) : ℝ))
    (Real.pi * ((2 ^ 300 : ℚ) : ℝ) ^ 2 * ((2 ^ 450 : ℚ) : ℝ) * (((1 / 2) ^ 90 : ℚ) : ℝ) * ((1 : ℚ) : ℝ))) < _
  rw [h1, h2, Rat.cast_one, one_mul]
  refine (mul_le_mul_of_nonneg_left (min_le_right _ _) (by norm_num)).trans_lt ?_
  have h4 := mul_lt_mul_of_pos_right hpi h3
  clear h1 h2
  generalize (2 : ℝ) ^ 960 = z at *
  linarith

/-! ## Cases meeting the hypotheses -/

theorem pairObj_upTo : DataUpTo (2 ^ (100 : ℤ)) pairObj := by
  refine ⟨by decide +kernel, by decide +kernel, by decide +kernel, ?_⟩
  intro d hd
  have h1 : ∀ d ∈ pairObj.dsects, |d.radius| ≤ 2 ^ (100 : ℤ) ∧ d.minFy ∈ [.ok 250000000, .ok 250000000] ∧ d.minFu = .ok 410000000 := by
    decide +kernel
  obtain ⟨h2, h3, h4⟩ := h1 d hd
  refine ⟨h2, fun fy fu hs => ?_⟩
  obtain ⟨h5, h6⟩ := strengths_iff.1 hs
  rw [h4] at h6
  rw [h5] at h3
  cases h6
  simp only [List.mem_cons, Except.ok.injEq, List.not_mem_nil, or_false, or_self] at h3
  rw [h3]
  norm_num

/-- C142, concretely: the two rods of C86. -/
example : TrulyNowhereAbove pairObj pairBeam 1 (7645548185630213 / 2 ^ 53 * (1 + 2 ^ (-42 : ℤ))) := by
  have h : pairObj.tensionUtilisationFull (.one 1) .none = .ok (.fin (7645548185630213 / 2 ^ 53)) := by decide +kernel
  have := C142_grid pairObj pairBeam rfl pairObj_aligned pairLens pairBeam_lens (by simp [pairLens]) pair_marks 20 rfl pairObj_usual
    pairObj_upTo (.one 1) 1 [] (Or.inr (Or.inl ⟨1, rfl, rfl⟩)) pair_loaded _ h 1 List.mem_cons_self
    (fun i t r ht hr => ⟨t, r, ht, hr, rfl⟩) ⟨pair_grid.1, fun i t r ht hr => (pair_grid.2 i t r ht hr).1⟩
  push_cast at this
  exact this

def plunge : Table ℚ := ⟨false, [Samples.axial 0 12345, Samples.axial (1/2) (-(2 ^ 1023))]⟩

def plungeBeam : Beam ℚ (Sect ℚ) :=
  ⟨[⟨[(1, ⟨some plunge⟩)], some (Num.flt (3/4)), .circle (fastRnd (1/100)) (some doubleSteel)⟩,
    ⟨[(1, ⟨some plunge⟩)], some (Num.flt (5/2)), .circle (fastRnd (2/100)) (some doubleSteel)⟩]⟩

/-- The two rods under a load that falls from a tension to `2 ^ 1023` in compression. -/
def plungeObj : AS4100 ℚ := { pairObj with beam := some plungeBeam }

theorem plunge_table {i : ℕ} {t : Table ℚ} (h : HasTable plungeBeam 1 i t) : (i = 0 ∨ i = 1) ∧ t = plunge := by
  obtain ⟨e, he, hl, -, -⟩ := h
  have hi : i < 2 := (List.getElem?_eq_some_iff.1 he).1
  obtain rfl | rfl : i = 0 ∨ i = 1 := by omega
  · cases he; cases hl; exact ⟨Or.inl rfl, rfl⟩
  · cases he; cases hl; exact ⟨Or.inr rfl, rfl⟩

theorem plunge_loaded : LoadedFloat plungeBeam 1 := by
  intro i hi
  obtain rfl | rfl : i = 0 ∨ i = 1 := by
    have : plungeBeam.elements.length = 2 := rfl
    omega
  all_goals exact ⟨plunge, ⟨_, rfl, rfl, by constructor <;> decide +kernel, by simp [plunge]⟩, rfl⟩

theorem plunge_grid : LoadsOnGrid rnd64 IsDouble plungeBeam pairLens 1 := by
  have h0 : IsDouble (0 : ℚ) := ⟨0, 0, by norm_num, by norm_num, by simp⟩
  have h1 : IsDouble (1 / 2 : ℚ) := ⟨1, -1, by norm_num, by norm_num, by norm_num⟩
  have h2 : IsDouble (12345 : ℚ) := ⟨12345, 0, by norm_num, by norm_num, by simp⟩
  have h3 : IsDouble (-(2 ^ 1023) : ℚ) := ⟨-1, 1023, by norm_num, by norm_num, by
    rw [← zpow_natCast]; push_cast; rw [neg_one_mul]⟩
  constructor
  · intro i t ht r hr
    obtain ⟨-, rfl⟩ := plunge_table ht
    rcases List.mem_pair.1 hr with rfl | rfl
    · exact axial_machine h0 h2
    · exact axial_machine h1 h3
  · intro i t r ht hr
    have q : ∀ a : ℤ, ∀ e : ℤ, |a| < 2 ^ 53 → -1074 ≤ e → rnd64 ((a : ℚ) * 2 ^ e) = a * 2 ^ e := fun a e ha he =>
      isDouble_iff.1 ⟨a, e, ha, he, rfl⟩
    have q1 := q 3 (-2) (by norm_num) (by norm_num)
    have q2 := q 5 (-2) (by norm_num) (by norm_num)
    have q3 := q 3 (-3) (by norm_num) (by norm_num)
    have q4 := q 1 (-1) (by norm_num) (by norm_num)
    have q5 := q 2 0 (by norm_num) (by norm_num)
    norm_num at q1 q2 q3 q4 q5
    obtain ⟨rfl | rfl, rfl⟩ := plunge_table ht <;> rcases List.mem_pair.1 hr with rfl | rfl
    all_goals refine ⟨?_, _, rfl, ?_, ?_⟩ <;>
      norm_num [Samples.axial, startOf, pairLens, Num.flt, rnd64_zero, q1, q2, q3, q4, q5]

theorem plunge_usual : UsualData IsDouble (2 ^ (-100 : ℤ)) plungeObj := by
  obtain ⟨h1, h2, h3, h4⟩ := pairObj_usual
  exact ⟨h1, h2, h3, h4⟩

theorem plunge_upTo : DataUpTo (2 ^ (100 : ℤ)) plungeObj := by
  obtain ⟨h1, h2, h3, h4⟩ := pairObj_upTo
  exact ⟨h1, h2, h3, h4⟩

/-- C142 where interpolation overflows: at 1/4 on the first rod the reported load is minus infinity, and the check passes. -/
example : plungeBeam.axialOver 1 ⟨Num.flt (3/16), 0, Num.flt (1/4)⟩ = .ok [some .negInf] ∧
    TrulyNowhereAbove plungeObj plungeBeam 1 (1 + 2 ^ (-42 : ℤ)) := by
  refine ⟨by decide +kernel, ?_⟩
  have h : plungeObj.tensionUtilisationFull (.one 1) .none = .ok (.fin (6292286156773665 / 2 ^ 55)) := by decide +kernel
  exact C142_passes plungeObj plungeBeam rfl (.cons ⟨rfl, rfl⟩ (.cons ⟨rfl, rfl⟩ .nil)) pairLens
    ⟨.cons rfl (.cons rfl .nil), by decide +kernel⟩ (by simp [pairLens]) pair_marks 20 rfl plunge_usual plunge_upTo (.one 1) 1 []
    (Or.inr (Or.inl ⟨1, rfl, rfl⟩)) plunge_loaded _ h (by decide +kernel) 1 List.mem_cons_self
    (fun i t r ht hr => ⟨t, r, ht, hr, rfl⟩) plunge_grid

theorem gentle_upTo : LoadsUpTo IsDouble (2 ^ (-900 : ℤ)) (2 ^ (100 : ℤ)) gentleBeam := by
  intro e he c t ht
  obtain ⟨i, hi⟩ := List.getElem?_of_mem he
  have hc : c = 1 := by
    by_contra hne
    have hb : (c == 1) = false := beq_false_of_ne hne
    rcases List.mem_pair.1 he with rfl | rfl <;> simp [List.lookup, hb] at ht
  subst hc
  have hwf : WellFormed t.rows ∧ t.rows ≠ [] ∧ Moderate (1 / 20) (2 ^ (100 : ℤ)) .N t.rows := by
    rcases List.mem_pair.1 he with rfl | rfl <;> cases ht <;>
      exact ⟨by constructor <;> decide +kernel, by decide +kernel, by constructor <;> decide +kernel⟩
  obtain ⟨h1, h2, h3, h4⟩ := hwf
  have h5 : (2 : ℚ) ^ (-900 : ℤ) ≤ 1 / 20 := by
    have : (2 : ℚ) ^ (-900 : ℤ) ≤ 2 ^ (-10 : ℤ) := zpow_le_zpow_right₀ (by norm_num) (by norm_num)
    exact this.trans (by norm_num)
  exact ⟨h1, gentle_machine i t ⟨e, hi, ht, h1, h2⟩, fun a ha b hb hab => h5.trans (h3 a ha b hb hab), h4⟩

/-- C142 for the rods of C135, whose loads are not stored on the grid. -/
example : gentleObj.tensionUtilisationFull (.one 1) .none = (gentleObj.tensionUtilisation64 (.one 1) .none).map Val.fin :=
  C142_same gentleObj pairObj_usual pairObj_upTo (fun b hb => by cases hb; exact gentle_upTo) _ _

end BeamDesign
