import Verif.Props.Peak
import Verif.Spec.Safe

/-!
# C81: a design that passes is nowhere overloaded
-/

namespace BeamDesign

open Spec

variable {K : Type} [Field K] [LinearOrder K] [IsStrictOrderedRing K] [FloorRing K]

omit [FloorRing K] in
theorem axialAt_le {rows : List (LRow K)} {x v : K} (h : AxialAt rows x v) : ∃ r ∈ rows, v ≤ r.n := by
  rcases h with ⟨r, hr, -, rfl⟩ | ⟨-, h⟩
  · exact ⟨r, hr, le_rfl⟩
  · obtain ⟨-, -, r, hr, -, h2⟩ := onCurve_bounds h
    exact ⟨r, hr, h2⟩

/-- C81: in the first load case, and in every load case whose stations are among its stations, the axial load is nowhere
above the overall utilisation times the design capacity. -/
theorem C81_nowhere_above {rt : Rt K} (hx : rt.Exact) (hs : rt.SortOK) (o : AS4100 K) (b : Beam K (Sect K))
    (hb : o.beam = some b) (ha : Aligned o) (ls : List (Num K)) (h : HasLengths b ls) (hls : ls ≠ [])
    (hpos : ∀ l ∈ ls, l.isInt = false ∧ 0 < l.val) (n : ℕ) (hn : o.assessmentPoints = n)
    (hphi : 0 < o.phiSteel) (hcap : ∀ d ∈ o.dsects, ∃ n, SectionCapacity rt o.kt o.alphaU d n ∧ 0 < n)
    (loadCase : CaseArg) (c : ℤ) (cs : List ℤ) (hcs : CasesOf o loadCase (c :: cs))
    (hc : ∀ k ∈ c :: cs, LoadedFloat b k) (u : K) (hu : o.tensionUtilisation rt loadCase .none = .ok u)
    (k : ℤ) (hk : k ∈ c :: cs) (hst : StationsOf b c k) : NowhereAbove rt o b k u := by
  obtain ⟨xs, hg, -, hstored, -, -⟩ := overall_ok hx hs hb ha h hls (fun l hl => (hpos l hl).1) hn hphi hcap hcs hc hu
  rintro i t cap x v ht ⟨e, d, m, he, hd, hm, rfl⟩ - - hv
  obtain ⟨r, hr, hvr⟩ := axialAt_le hv
  have hi : i < ls.length := by
    rw [← hasLengths_length h]
    exact (List.getElem?_eq_some_iff.1 he).1
  have hl : ls[i]? = some ls[i] := List.getElem?_eq_getElem hi
  obtain ⟨t', r', ht', hr', hrr⟩ := hst i t r ht hr
  obtain ⟨hiq, hrep⟩ := stored_reported hx hs hb h hls (hc k hk) hl (hpos _ (List.getElem_mem hi)).2.ne' ht hr
  have hq := hstored i _ t' r' hl ht' hr'
  rw [hrr] at hq
  set q := startOf ls i + r.pos * (ls[i]).val with hqd
  obtain ⟨hdef, m', hphim', hm'⟩ := defined_of_beam hx hs o b hb ha ls h hls k (hc k hk) hphi hcap (Num.flt q) rfl
    (inElement_range h.2 hiq)
  have hle : m' ≤ m := hm'.2 ⟨d, ⟨i, e, hiq, he, hd⟩, hm⟩
  have hcap' : 0 < o.phiSteel * m' := by
    obtain ⟨cap', -, -, hcp', hpos', -⟩ := hdef
    rw [hphim'] at hcp'
    cases hcp'
    exact hpos'
  have hup := hg.2 ⟨k, hk, q, hq, _, _, hphim', hrep, rfl⟩
  have hmm : o.phiSteel * m' ≤ o.phiSteel * m := mul_le_mul_of_nonneg_left hle hphi.le
  refine (hvr.trans (le_max_left _ (0 : K))).trans ?_
  split_ifs at hup with h1
  · exact h1.trans (mul_nonneg hup (hcap'.le.trans hmm))
  · have hu0 : 0 ≤ u := (div_nonneg (le_max_right _ _) hcap'.le).trans hup
    exact ((div_le_iff₀ hcap').1 hup).trans (mul_le_mul_of_nonneg_left hmm hu0)

/-- C81: a utilisation of at most 1 means that no element is overloaded anywhere. -/
theorem C81_passes {rt : Rt K} (hx : rt.Exact) (hs : rt.SortOK) (o : AS4100 K) (b : Beam K (Sect K))
    (hb : o.beam = some b) (ha : Aligned o) (ls : List (Num K)) (h : HasLengths b ls) (hls : ls ≠ [])
    (hpos : ∀ l ∈ ls, l.isInt = false ∧ 0 < l.val) (n : ℕ) (hn : o.assessmentPoints = n)
    (hphi : 0 < o.phiSteel) (hcap : ∀ d ∈ o.dsects, ∃ n, SectionCapacity rt o.kt o.alphaU d n ∧ 0 < n)
    (c : ℤ) (hc : LoadedFloat b c) (u : K) (hu : o.tensionUtilisation rt (.one c) .none = .ok u) (hu1 : u ≤ 1) :
    NowhereAbove rt o b c 1 := by
  have hmain := C81_nowhere_above hx hs o b hb ha ls h hls hpos n hn hphi hcap (.one c) c [] (Or.inr (Or.inl ⟨c, rfl, rfl⟩))
    (by simpa using hc) u hu c List.mem_cons_self (fun i t r ht hr => ⟨t, r, ht, hr, rfl⟩)
  intro i t cap x v ht hcp h0 h1 hv
  refine (hmain i t cap x v ht hcp h0 h1 hv).trans (mul_le_mul_of_nonneg_right hu1 ?_)
  obtain ⟨e, d, m, he, hd, hm, rfl⟩ := hcp
  have hat : d ∈ o.dsects := by
    have hi : i < ls.length := by
      rw [← hasLengths_length h]
      exact (List.getElem?_eq_some_iff.1 he).1
    refine atPosition_mem hb ha (ls := ls) (p := startOf ls i) ⟨i, e, ⟨hi, le_rfl, ?_⟩, he, hd⟩
    exact startOf_mono h.2 (Nat.le_succ i)
  obtain ⟨m', hm', hp⟩ := hcap d hat
  rw [sectionCapacity_unique hm hm']
  exact (mul_pos hphi hp).le

/-- C81: when all sections have the same capacity, the check passes exactly when no element is overloaded anywhere. -/
theorem C81_uniform {rt : Rt K} (hx : rt.Exact) (hs : rt.SortOK) (o : AS4100 K) (b : Beam K (Sect K))
    (hb : o.beam = some b) (ha : Aligned o) (ls : List (Num K)) (h : HasLengths b ls) (hls : ls ≠ [])
    (hpos : ∀ l ∈ ls, l.isInt = false ∧ 0 < l.val) (n : ℕ) (hn : o.assessmentPoints = n)
    (hphi : 0 < o.phiSteel) (m : K) (hm0 : 0 < m) (hm : ∀ d ∈ o.dsects, SectionCapacity rt o.kt o.alphaU d m)
    (c : ℤ) (hc : LoadedFloat b c) (u : K) (hu : o.tensionUtilisation rt (.one c) .none = .ok u) :
    u ≤ 1 ↔ NowhereAbove rt o b c 1 := by
  have hcap : ∀ d ∈ o.dsects, ∃ n, SectionCapacity rt o.kt o.alphaU d n ∧ 0 < n := fun d hd => ⟨m, hm d hd, hm0⟩
  refine ⟨C81_passes hx hs o b hb ha ls h hls hpos n hn hphi hcap c hc u hu, fun hno => ?_⟩
  obtain ⟨⟨i, t, r, ht, hr, rfl⟩, -⟩ := C72_largest_stored hx hs o b hb ha ls h hls hpos n hn hphi m hm0 hm (.one c) c
    (Or.inr (Or.inl ⟨c, rfl, rfl⟩)) hc u hu
  have hpm : 0 < o.phiSteel * m := mul_pos hphi hm0
  rw [div_le_one hpm]
  refine max_le ?_ hpm.le
  obtain ⟨e, he, -, hw, -⟩ := id ht
  have ha' := ha
  unfold Aligned at ha'
  simp only [hb] at ha'
  obtain ⟨d, hd, hsd, -⟩ := forall₂_mem_left ha' (List.mem_map_of_mem (List.mem_of_getElem? he))
  have := hno i t _ r.pos r.n ht ⟨e, d, m, he, hsd, hm d hd, rfl⟩ (hw.2 r hr).1 (hw.2 r hr).2 (Or.inl ⟨r, hr, rfl, rfl⟩)
  rwa [one_mul] at this

/-! ## Examples -/

/-- A thin rod without load, then a thick one under a constant tension it can carry and the thin one could not. -/
def jointBeam : Beam ℚ (Sect ℚ) :=
  ⟨[⟨[(1, Samples.slack)], some (Num.flt 1), Samples.rod (1/100)⟩,
    ⟨[(1, ⟨some ⟨false, [Samples.axial 0 100000, Samples.axial 1 100000]⟩⟩)], some (Num.flt 1), Samples.rod (1/50)⟩]⟩

/-- The check of it. -/
def jointObj : AS4100 ℚ :=
  ⟨some jointBeam, none, 20, [⟨1/100, Samples.steel⟩, ⟨1/50, Samples.steel⟩], 90/100, 85/100, 1⟩

theorem joint_thin : SectionCapacity Samples.rt 1 (85/100) ⟨1/100, Samples.steel⟩ (10/9 * Samples.thinCap) :=
  ⟨250000000, 410000000, strengths_iff.2 ⟨by decide +kernel, by decide +kernel⟩, by decide +kernel⟩

theorem joint_thick : SectionCapacity Samples.rt 1 (85/100) ⟨1/50, Samples.steel⟩ (10/9 * 4 * Samples.thinCap) :=
  ⟨250000000, 410000000, strengths_iff.2 ⟨by decide +kernel, by decide +kernel⟩, by decide +kernel⟩

theorem joint_aligned : Aligned jointObj := .cons ⟨rfl, rfl⟩ (.cons ⟨rfl, rfl⟩ .nil)

theorem joint_lens : HasLengths jointBeam [Num.flt 1, Num.flt 1] :=
  ⟨.cons rfl (.cons rfl .nil), by decide +kernel⟩

/-- The converse of C81 fails where a weak and a strong element meet: the tension of the strong one is compared with the
capacity of the weak one. -/
theorem C81_converse_counterexample : NowhereAbove Samples.rt jointObj jointBeam 1 1 ∧
    ∃ u, jointObj.tensionUtilisation Samples.rt (.one 1) .none = .ok u ∧ 1 < u := by
  refine ⟨?_, 100000 / Samples.thinCap, by decide +kernel, by decide +kernel⟩
  rintro i t cap x v ⟨e, he, hlk, -⟩ ⟨e', d, m, he', hd, hm, rfl⟩ - - hv
  rw [he] at he'
  cases he'
  obtain ⟨r, hr, hvr⟩ := axialAt_le hv
  refine hvr.trans ?_
  rcases i with _ | _ | i
  · obtain rfl : _ = e := by simpa [jointBeam] using he
    obtain ⟨rfl⟩ : d = ⟨1/100, Samples.steel⟩ := by
      obtain ⟨a, b⟩ := d
      simp only [Samples.rod, Sect.circle.injEq, Option.some.injEq] at hd
      rw [← hd.1, ← hd.2, one_div]
    rw [sectionCapacity_unique hm joint_thin]
    obtain rfl : _ = t := by simpa [Samples.slack, List.lookup_cons] using hlk
    have : ∀ r ∈ [Samples.axial 0 0, Samples.axial 1 0], r.n ≤ 1 * (jointObj.phiSteel * (10/9 * Samples.thinCap)) := by
      decide +kernel
    exact this r hr
  · obtain rfl : _ = e := by simpa [jointBeam] using he
    obtain ⟨rfl⟩ : d = ⟨1/50, Samples.steel⟩ := by
      obtain ⟨a, b⟩ := d
      simp only [Samples.rod, Sect.circle.injEq, Option.some.injEq] at hd
      rw [← hd.1, ← hd.2, one_div]
    rw [sectionCapacity_unique hm joint_thick]
    obtain rfl : _ = t := by simpa [List.lookup_cons] using hlk
    have : ∀ r ∈ [Samples.axial 0 100000, Samples.axial 1 100000],
        r.n ≤ 1 * (jointObj.phiSteel * (10/9 * 4 * Samples.thinCap)) := by
      decide +kernel
    exact this r hr
  · simp [jointBeam] at he

/-- C81, concretely: the two rods of the samples carry their loads everywhere. -/
example : NowhereAbove Samples.rt Samples.obj Samples.rods 7 1 :=
  C81_passes (Rt.exact_exact ℚ) (Rt.exact_sortOK ℚ) Samples.obj Samples.rods rfl Samples.obj_aligned
    Samples.rodLens Samples.rods_lens (by decide +kernel) (by decide +kernel) 20 rfl (by decide +kernel) obj_capacity_pos
    7 Samples.rods_loaded (4 / Samples.thinCap) (by decide +kernel) (by decide +kernel)

end BeamDesign
