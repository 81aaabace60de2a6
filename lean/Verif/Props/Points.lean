import Verif.Props.Peak

/-!
# C91: the number of assessment points
-/

namespace BeamDesign

open Spec

variable {K : Type} [Field K] [LinearOrder K] [IsStrictOrderedRing K] [FloorRing K]

theorem points_le {rt : Rt K} (hx : rt.Exact) (hs : rt.SortOK) (o : AS4100 K) (b : Beam K (Sect K))
    (hb : o.beam = some b) (ha : Aligned o) (ls : List (Num K)) (h : HasLengths b ls) (hls : ls ≠ [])
    (hflt : ∀ l ∈ ls, l.isInt = false) (hphi : 0 < o.phiSteel)
    (hcap : ∀ d ∈ o.dsects, ∃ n, SectionCapacity rt o.kt o.alphaU d n ∧ 0 < n)
    (loadCase : CaseArg) (c : ℤ) (cs : List ℤ) (hcs : CasesOf o loadCase (c :: cs))
    (hc : ∀ k ∈ c :: cs, LoadedFloat b k) (hst : ∀ k ∈ cs, StationsOf b c k) (n m : ℕ) (u v : K)
    (hu : (o.setAssessmentPoints n).tensionUtilisation rt loadCase .none = .ok u)
    (hv : (o.setAssessmentPoints m).tensionUtilisation rt loadCase .none = .ok v) : v ≤ u := by
  obtain ⟨xs, hg, hends, hstored, -, -⟩ :=
    overall_ok (o := o.setAssessmentPoints n) hx hs hb ha h hls hflt rfl hphi hcap hcs hc hu
  obtain ⟨ys, hgv, -, -, hys, -⟩ :=
    overall_ok (o := o.setAssessmentPoints m) hx hs hb ha h hls hflt rfl hphi hcap hcs hc hv
  obtain ⟨k, hk, y, hy, hut⟩ := hgv.1
  refine utilAt_le_overall (o := o.setAssessmentPoints n) hx hs hb ha h hls hphi hcap hc hg hends hstored hk ?_
    (hys y hy) hut
  rcases List.mem_cons.1 hk with rfl | hk
  · exact fun i t r ht hr => ⟨t, r, ht, hr, rfl⟩
  · exact hst k hk

/-- C91, part: the overall utilisation does not depend on the number of assessment points, for one load case and for
several whose stations are stations of the first.  Missing: other load cases (`C91_cases_counterexample`), and the
cases where one of the two calls raises (`C91_error_counterexample`). -/
theorem C91_same_partial {rt : Rt K} (hx : rt.Exact) (hs : rt.SortOK) (o : AS4100 K) (b : Beam K (Sect K))
    (hb : o.beam = some b) (ha : Aligned o) (ls : List (Num K)) (h : HasLengths b ls) (hls : ls ≠ [])
    (hflt : ∀ l ∈ ls, l.isInt = false) (hphi : 0 < o.phiSteel)
    (hcap : ∀ d ∈ o.dsects, ∃ n, SectionCapacity rt o.kt o.alphaU d n ∧ 0 < n)
    (loadCase : CaseArg) (c : ℤ) (cs : List ℤ) (hcs : CasesOf o loadCase (c :: cs))
    (hc : ∀ k ∈ c :: cs, LoadedFloat b k) (hst : ∀ k ∈ cs, StationsOf b c k) (n m : ℕ) (u v : K)
    (hu : (o.setAssessmentPoints n).tensionUtilisation rt loadCase .none = .ok u)
    (hv : (o.setAssessmentPoints m).tensionUtilisation rt loadCase .none = .ok v) : u = v :=
  le_antisymm (points_le hx hs o b hb ha ls h hls hflt hphi hcap loadCase c cs hcs hc hst m n v u hv hu)
    (points_le hx hs o b hb ha ls h hls hflt hphi hcap loadCase c cs hcs hc hst n m u v hu hv)

/-- C91, part: one value for every number of assessment points, if on every element in every load case there is no
tension, or only tension above `minUtil` times the design capacities. -/
theorem C91_value_partial {rt : Rt K} (hx : rt.Exact) (hs : rt.SortOK) (o : AS4100 K) (b : Beam K (Sect K))
    (hb : o.beam = some b) (ha : Aligned o) (ls : List (Num K)) (h : HasLengths b ls) (hls : ls ≠ [])
    (hflt : ∀ l ∈ ls, l.isInt = false) (hphi : 0 < o.phiSteel)
    (hcap : ∀ d ∈ o.dsects, ∃ n, SectionCapacity rt o.kt o.alphaU d n ∧ 0 < n)
    (loadCase : CaseArg) (c : ℤ) (cs : List ℤ) (hcs : CasesOf o loadCase (c :: cs))
    (hc : ∀ k ∈ c :: cs, LoadedFloat b k) (hst : ∀ k ∈ cs, StationsOf b c k)
    (hsign : ∀ k ∈ c :: cs, ∀ i t, HasTable b k i t → (∀ r ∈ t.rows, r.n ≤ 0) ∨
      ∀ r ∈ t.rows, ∀ d ∈ o.dsects, ∀ m, SectionCapacity rt o.kt o.alphaU d m → minUtil * (o.phiSteel * m) < r.n) :
    ∃ u, ∀ n : ℕ, (o.setAssessmentPoints n).tensionUtilisation rt loadCase .none = .ok u := by
  have key := fun n : ℕ => C34_signed_partial hx hs (o.setAssessmentPoints n) b hb ha ls h hls hflt n rfl hphi hcap
    loadCase (c :: cs) hcs (by simp) hc hsign
  obtain ⟨u, hu, -⟩ := key 0
  refine ⟨u, fun n => ?_⟩
  obtain ⟨v, hv, -⟩ := key n
  rw [hv, C91_same_partial hx hs o b hb ha ls h hls hflt hphi hcap loadCase c cs hcs hc hst 0 n u v hu hv]

/-- The hypotheses of `C91_value_partial` can be met. -/
example : ∃ u, ∀ n : ℕ, (rodTwo.setAssessmentPoints n).tensionUtilisation Samples.rt .none .none = .ok u := by
  have hload : LoadedFloat (⟨[⟨[(1, ⟨some ⟨false, [Samples.axial 0 1000, Samples.axial 1 1000]⟩⟩)],
      some (Num.flt 1), Samples.rod (1/100)⟩]⟩ : Beam ℚ (Sect ℚ)) 1 := by
    intro i hi
    obtain rfl : i = 0 := by simpa using hi
    exact ⟨_, ⟨_, rfl, rfl, by unfold WellFormed; decide +kernel, by simp⟩, rfl⟩
  refine C91_value_partial (Rt.exact_exact ℚ) (Rt.exact_sortOK ℚ) rodTwo _ rfl (.cons ⟨rfl, rfl⟩ .nil) [Num.flt 1]
    ⟨.cons rfl .nil, by decide +kernel⟩ (by simp) (by simp) (by decide +kernel) thin_capacity .none 1 []
    (Or.inr (Or.inr ⟨rfl, _, _, [], rfl, rfl, rfl⟩)) ?_ (by simp) ?_
  · intro c hc
    obtain rfl : c = 1 := by simpa using hc
    exact hload
  · intro c hc i t ht
    obtain rfl : c = 1 := by simpa using hc
    obtain ⟨e, he, hl, -⟩ := ht
    obtain ⟨hi, rfl⟩ := List.getElem?_eq_some_iff.1 he
    obtain rfl : i = 0 := by simpa using hi
    cases hl
    right
    intro r hr d hd m hm
    have h : d = ⟨1/100, Samples.steel⟩ := by
      simpa [rodTwo, Samples.constObj, AS4100.setAssessmentPoints] using hd
    subst h
    obtain ⟨fy, fu, h12, rfl⟩ := hm
    obtain ⟨h1, h2⟩ := strengths_iff.1 h12
    have g1 : (⟨1/100, Samples.steel⟩ : DSect ℚ).minFy = .ok 250000000 := by decide +kernel
    have g2 : (⟨1/100, Samples.steel⟩ : DSect ℚ).minFu = .ok 410000000 := by decide +kernel
    rw [g1] at h1; rw [g2] at h2
    cases h1; cases h2
    simp only [List.mem_cons, List.not_mem_nil, or_false] at hr
    rcases hr with rfl | rfl <;> decide +kernel

/-- concretely, on the sample rods -/
example (m : ℕ) (v : ℚ) (hv : (Samples.obj.setAssessmentPoints m).tensionUtilisation Samples.rt (.one 7) .none = .ok v) :
    4 / Samples.thinCap = v :=
  C91_same_partial (Rt.exact_exact ℚ) (Rt.exact_sortOK ℚ) Samples.obj Samples.rods rfl Samples.obj_aligned
    Samples.rodLens Samples.rods_lens (by decide +kernel) (by decide +kernel) (by decide +kernel) obj_capacity_pos
    (.one 7) 7 [] (Or.inr (Or.inl ⟨7, rfl, rfl⟩)) (by simpa using Samples.rods_loaded) (by simp) 20 m _ _
    (by decide +kernel) hv

/-- C91 is false for several load cases: with two assessment points the peak of the second load case is missed, with
three it is found. -/
theorem C91_cases_counterexample :
    (Samples.peakObj.setAssessmentPoints 2).tensionUtilisation Samples.rt (.list [1, 2]) .none = .ok 0 ∧
    (Samples.peakObj.setAssessmentPoints 3).tensionUtilisation Samples.rt (.list [1, 2]) .none
      = .ok (1000 / Samples.thinCap) := by
  refine ⟨by decide +kernel, by decide +kernel⟩

/-- A rod of length 1 under an axial load rising from -1000 to `n`. -/
def risingObj (n : ℚ) : AS4100 ℚ :=
  ⟨some ⟨[⟨[(1, ⟨some ⟨false, [Samples.axial 0 (-1000), Samples.axial 1 n]⟩⟩)], some (Num.flt 1), Samples.rod (1/100)⟩]⟩,
    none, 20, [⟨1/100, Samples.steel⟩], 90/100, 85/100, 1⟩

/-- C91 is false even for one load case: with three points the check meets a tension too small for the solver. -/
theorem C91_error_counterexample :
    (∃ u, ((risingObj (1000 + 1 / 10 ^ 10)).setAssessmentPoints 2).tensionUtilisation Samples.rt (.one 1) .none = .ok u ∧
      0 < u) ∧
    ((risingObj (1000 + 1 / 10 ^ 10)).setAssessmentPoints 3).tensionUtilisation Samples.rt (.one 1) .none
      = .error .valueError := by
  refine ⟨⟨(1000 + 1 / 10 ^ 10) / Samples.thinCap, by decide +kernel, by decide +kernel⟩, by decide +kernel⟩

end BeamDesign
