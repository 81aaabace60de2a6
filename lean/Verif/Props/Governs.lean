import Verif.Props.Peak
import Verif.Spec.Governs

/-! # C129: a governing load case decides -/

namespace BeamDesign

open Spec

variable {K : Type} [Field K] [LinearOrder K] [IsStrictOrderedRing K] [FloorRing K]

/-- A utilisation in the governed load case is at most one in the governing load case. -/
theorem utilAt_governs {rt : Rt K} (hx : rt.Exact) (hs : rt.SortOK) {o : AS4100 K} {b : Beam K (Sect K)}
    (hb : o.beam = some b) (ha : Aligned o) {ls : List (Num K)} (h : HasLengths b ls) (hls : ls ≠ [])
    (hphi : 0 < o.phiSteel) (hcap : ∀ d ∈ o.dsects, ∃ n, SectionCapacity rt o.kt o.alphaU d n ∧ 0 < n)
    {c k : ℤ} (hc : LoadedFloat b c) (hg : Governs rt o ls c k) {p : K} (hp : 0 ≤ p ∧ p ≤ total ls) {v : K}
    (hv : UtilAt rt o k (Num.flt p) v) : ∃ v', UtilAt rt o c (Num.flt p) v' ∧ v ≤ v' := by
  obtain ⟨cap, t', hcp, ht', rfl⟩ := hv
  obtain ⟨t, ht, hle⟩ := hg p hp.1 hp.2 t' ht'
  refine ⟨_, ⟨cap, t, hcp, ht, rfl⟩, ?_⟩
  obtain ⟨⟨cap', -, -, hcp', hpos, -⟩, -⟩ :=
    defined_of_beam hx hs o b hb ha ls h hls c hc hphi hcap (Num.flt p) rfl hp
  rw [hcp] at hcp'
  cases hcp'
  split_ifs with h1 h2 h2
  · exact le_rfl
  · exact div_nonneg (not_le.1 h2).le hpos.le
  · exact absurd (hle.trans h2) h1
  · exact div_le_div_of_nonneg_right hle hpos.le

/-- **C129.**  If the first load case governs all others, the overall utilisation misses nothing: it is at least the
utilisation of every load case at every position of the beam. -/
theorem C129_everywhere {rt : Rt K} (hx : rt.Exact) (hs : rt.SortOK) (o : AS4100 K) (b : Beam K (Sect K))
    (hb : o.beam = some b) (ha : Aligned o) (ls : List (Num K)) (h : HasLengths b ls) (hls : ls ≠ [])
    (hflt : ∀ l ∈ ls, l.isInt = false) (n : ℕ) (hn : o.assessmentPoints = n)
    (hphi : 0 < o.phiSteel) (hcap : ∀ d ∈ o.dsects, ∃ n, SectionCapacity rt o.kt o.alphaU d n ∧ 0 < n)
    (loadCase : CaseArg) (c : ℤ) (cs : List ℤ) (hcs : CasesOf o loadCase (c :: cs))
    (hc : ∀ k ∈ c :: cs, LoadedFloat b k) (hg : ∀ k ∈ cs, Governs rt o ls c k)
    (u : K) (hu : o.tensionUtilisation rt loadCase .none = .ok u)
    (k : ℤ) (hk : k ∈ c :: cs) (p : K) (hp : 0 ≤ p ∧ p ≤ total ls)
    (v : K) (hv : o.tensionUtilisation rt (.one k) (.scalar (Num.flt p)) = .ok v) : v ≤ u := by
  obtain ⟨xs, hgr, hends, hstored, hxs, -⟩ := overall_ok hx hs hb ha h hls hflt hn hphi hcap hcs hc hu
  have hcm : c ∈ c :: cs := List.mem_cons_self
  have hdef := (defined_of_beam hx hs o b hb ha ls h hls k (hc k hk) hphi hcap (Num.flt p) rfl hp).1
  have hloop := utilisation_of_loop hx o (.one k) [k] (Or.inr (Or.inl ⟨k, rfl, rfl⟩)) (.scalar (Num.flt p)) _
    (given_ok (Or.inr ⟨p, rfl, rfl⟩)) [Num.flt p] (by rintro _ ⟨⟩; rfl) rfl (by simp) (by simp)
    (by
      intro k' hk' p' hp'
      rw [List.mem_singleton.1 hk', List.mem_singleton.1 hp']
      exact hdef)
  have hsmall : ∀ k' ∈ [k], ∀ p' ∈ [Num.flt p], ¬ Tiny rt o k' p' := by
    intro k' hk' p' hp' ht
    rw [hloop.2 ⟨k', hk', p', hp', ht⟩] at hv
    cases hv
  obtain ⟨v', hv', hgv⟩ := hloop.1 hsmall
  rw [hv] at hv'
  cases hv'
  obtain ⟨k', hk', p', hp', hut⟩ := hgv.1
  rw [List.mem_singleton.1 hk', List.mem_singleton.1 hp'] at hut
  have hself : ∀ w, UtilAt rt o c (Num.flt p) w → w ≤ u := fun w hw =>
    utilAt_le_overall hx hs hb ha h hls hphi hcap hc hgr hends hstored hcm
      (fun i t r ht hr => ⟨t, r, ht, hr, rfl⟩) hp hw
  rcases List.mem_cons.1 hk with rfl | hkc
  · exact hself _ hut
  · obtain ⟨w, hw, hle⟩ := utilAt_governs hx hs hb ha h hls hphi hcap (hc c hcm) (hg k hkc) hp hut
    exact hle.trans (hself w hw)

/-- **C129.**  The overall utilisation of a governed load case is at most that of the governing load case, wherever the
loads of the two are stored. -/
theorem C129_pairs {rt : Rt K} (hx : rt.Exact) (hs : rt.SortOK) (o : AS4100 K) (b : Beam K (Sect K))
    (hb : o.beam = some b) (ha : Aligned o) (ls : List (Num K)) (h : HasLengths b ls) (hls : ls ≠ [])
    (hflt : ∀ l ∈ ls, l.isInt = false) (n : ℕ) (hn : o.assessmentPoints = n)
    (hphi : 0 < o.phiSteel) (hcap : ∀ d ∈ o.dsects, ∃ n, SectionCapacity rt o.kt o.alphaU d n ∧ 0 < n)
    (c k : ℤ) (hc : LoadedFloat b c) (hk : LoadedFloat b k) (hg : Governs rt o ls c k) (u v : K)
    (hu : o.tensionUtilisation rt (.one c) .none = .ok u) (hv : o.tensionUtilisation rt (.one k) .none = .ok v) : v ≤ u := by
  obtain ⟨xs, hgr, hends, hstored, hxs, -⟩ := overall_ok hx hs hb ha h hls hflt hn hphi hcap
    (Or.inr (Or.inl ⟨c, rfl, rfl⟩)) (cs := []) (by simpa using hc) hu
  obtain ⟨ys, hgy, -, -, hys, -⟩ := overall_ok hx hs hb ha h hls hflt hn hphi hcap
    (Or.inr (Or.inl ⟨k, rfl, rfl⟩)) (cs := []) (by simpa using hk) hv
  obtain ⟨k', hk', y, hy, hut⟩ := hgy.1
  rw [List.mem_singleton.1 hk'] at hut
  obtain ⟨w, hw, hle⟩ := utilAt_governs hx hs hb ha h hls hphi hcap hc hg (hys y hy) hut
  exact hle.trans (utilAt_le_overall hx hs hb ha h hls hphi hcap (by simpa using hc) hgr hends hstored
    List.mem_cons_self (fun i t r ht hr => ⟨t, r, ht, hr, rfl⟩) (hys y hy) hw)

/-- **C129.**  If the first load case governs all others, checking all of them gives what checking the first gives. -/
theorem C129_first {rt : Rt K} (hx : rt.Exact) (hs : rt.SortOK) (o : AS4100 K) (b : Beam K (Sect K))
    (hb : o.beam = some b) (ha : Aligned o) (ls : List (Num K)) (h : HasLengths b ls) (hls : ls ≠ [])
    (hflt : ∀ l ∈ ls, l.isInt = false) (n : ℕ) (hn : o.assessmentPoints = n)
    (hphi : 0 < o.phiSteel) (hcap : ∀ d ∈ o.dsects, ∃ n, SectionCapacity rt o.kt o.alphaU d n ∧ 0 < n)
    (loadCase : CaseArg) (c : ℤ) (cs : List ℤ) (hcs : CasesOf o loadCase (c :: cs))
    (hc : ∀ k ∈ c :: cs, LoadedFloat b k) (hg : ∀ k ∈ cs, Governs rt o ls c k) (u v : K)
    (hu : o.tensionUtilisation rt loadCase .none = .ok u) (hv : o.tensionUtilisation rt (.one c) .none = .ok v) : u = v := by
  have hcm : c ∈ c :: cs := List.mem_cons_self
  obtain ⟨xs, hgr, hends, hstored, hxs, -⟩ := overall_ok hx hs hb ha h hls hflt hn hphi hcap hcs hc hu
  obtain ⟨ys, hgy, hendy, hstory, hys, -⟩ := overall_ok hx hs hb ha h hls hflt hn hphi hcap
    (Or.inr (Or.inl ⟨c, rfl, rfl⟩)) (cs := []) (by simpa using hc c hcm) hv
  have hself : ∀ p, 0 ≤ p ∧ p ≤ total ls → ∀ w, UtilAt rt o c (Num.flt p) w → w ≤ v := fun p hp w hw =>
    utilAt_le_overall hx hs hb ha h hls hphi hcap (by simpa using hc c hcm) hgy hendy hstory List.mem_cons_self
      (fun i t r ht hr => ⟨t, r, ht, hr, rfl⟩) hp hw
  apply le_antisymm
  · obtain ⟨k, hk, x, hxm, hut⟩ := hgr.1
    rcases List.mem_cons.1 hk with rfl | hkc
    · exact hself x (hxs x hxm) _ hut
    · obtain ⟨w, hw, hle⟩ := utilAt_governs hx hs hb ha h hls hphi hcap (hc c hcm) (hg k hkc) (hxs x hxm) hut
      exact hle.trans (hself x (hxs x hxm) w hw)
  · obtain ⟨k, hk, y, hy, hut⟩ := hgy.1
    rw [List.mem_singleton.1 hk] at hut
    exact utilAt_le_overall hx hs hb ha h hls hphi hcap hc hgr hends hstored hcm
      (fun i t r ht hr => ⟨t, r, ht, hr, rfl⟩) (hys y hy) hut

/-- **C129.**  A load case whose stored axial loads are all at least `m` governs one whose stored axial loads are all at
most `m`. -/
theorem C129_bound {rt : Rt K} (hx : rt.Exact) (hs : rt.SortOK) (o : AS4100 K) (b : Beam K (Sect K))
    (hb : o.beam = some b) (ha : Aligned o) (ls : List (Num K)) (h : HasLengths b ls) (hls : ls ≠ [])
    (hphi : 0 < o.phiSteel) (hcap : ∀ d ∈ o.dsects, ∃ n, SectionCapacity rt o.kt o.alphaU d n ∧ 0 < n)
    (c k : ℤ) (hc : LoadedFloat b c) (hk : LoadedFloat b k) (m : K)
    (hlo : ∀ i t, HasTable b c i t → ∀ r ∈ t.rows, m ≤ r.n) (hhi : ∀ i t, HasTable b k i t → ∀ r ∈ t.rows, r.n ≤ m) :
    Governs rt o ls c k := by
  intro p hp0 hp1 t' ht'
  obtain ⟨i', tab', -, htab', -, -, r', hr', -, hle'⟩ :=
    reported_bounds hx hs o b hb ls h hls k hk (Num.flt p) rfl ⟨hp0, hp1⟩ t' ht'
  obtain ⟨⟨cap, dt, rows, -, -, hne, hten⟩, -⟩ :=
    defined_of_beam hx hs o b hb ha ls h hls c hc hphi hcap (Num.flt p) rfl ⟨hp0, hp1⟩
  obtain ⟨q, hq⟩ := List.exists_mem_of_ne_nil _ hne
  have hrep : Reported rt o c (Num.flt p) q.2 := (reported_iff hten q.2).2 ⟨q, hq, rfl⟩
  obtain ⟨i, tab, -, htab, r, hr, -, -, hle, -⟩ :=
    reported_bounds hx hs o b hb ls h hls c hc (Num.flt p) rfl ⟨hp0, hp1⟩ q.2 hrep
  exact ⟨q.2, hrep, hle'.trans ((max_le_max ((hhi _ _ htab' r' hr').trans (hlo _ _ htab r hr)) le_rfl).trans hle)⟩

/-! ## A concrete case: a narrow peak below a constant tension -/

/-- A rod of length 1: load case 2 has a narrow peak of 1000, load case 3 is 1500 or more everywhere. -/
def governedBeam : Beam ℚ (Sect ℚ) :=
  ⟨[⟨[(3, ⟨some ⟨false, [Samples.axial 0 1500, Samples.axial 1 2000]⟩⟩), (2, Samples.peak)], some (Num.flt 1), Samples.rod (1/100)⟩]⟩

/-- The AS4100 object for it. -/
def governedObj : AS4100 ℚ := { Samples.peakObj with beam := some governedBeam }

theorem governed_tables {c : ℤ} {i : ℕ} {t : Table ℚ} (h : HasTable governedBeam c i t) :
    (c = 3 ∧ t = ⟨false, [Samples.axial 0 1500, Samples.axial 1 2000]⟩) ∨ (c = 2 ∧ some t = Samples.peak.loads) := by
  obtain ⟨e, he, hl, -⟩ := h
  have hi : i = 0 := by
    have := (List.getElem?_eq_some_iff.1 he).1
    have h1 : governedBeam.elements.length = 1 := rfl
    omega
  subst hi
  cases he
  simp only [List.lookup_cons, List.lookup_nil] at hl
  split at hl
  · rename_i hc
    left
    cases hl
    exact ⟨by simpa using hc, rfl⟩
  · split at hl
    · rename_i hc
      right
      refine ⟨by simpa using hc, ?_⟩
      cases hl
      rfl
    · cases hl

theorem governed_loaded (c : ℤ) (hc : c = 3 ∨ c = 2) : LoadedFloat governedBeam c := by
  intro i hi
  obtain rfl : i = 0 := by simpa [governedBeam] using hi
  rcases hc with rfl | rfl
  · exact ⟨_, ⟨_, rfl, rfl, ⟨by decide +kernel, by decide +kernel⟩, by simp⟩, rfl⟩
  · exact ⟨_, ⟨_, rfl, rfl, ⟨by decide +kernel, by decide +kernel⟩, by simp⟩, rfl⟩

theorem governed_aligned : Aligned governedObj := .cons ⟨rfl, rfl⟩ .nil

theorem governed_capacity : ∀ d ∈ governedObj.dsects,
    ∃ n, SectionCapacity Samples.rt governedObj.kt governedObj.alphaU d n ∧ 0 < n := by
  intro d hd
  have h : d = ⟨1/100, Samples.steel⟩ := by simpa [governedObj, Samples.peakObj] using hd
  subst h
  refine ⟨Samples.thinCap / (90/100), ⟨250000000, 410000000, strengths_iff.2 ⟨by decide +kernel, by decide +kernel⟩,
    by decide +kernel⟩, by decide +kernel⟩

theorem governed : Governs Samples.rt governedObj [Num.flt 1] 3 2 := by
  refine C129_bound (Rt.exact_exact ℚ) (Rt.exact_sortOK ℚ) governedObj governedBeam rfl governed_aligned [Num.flt 1]
    ⟨.cons rfl .nil, by decide +kernel⟩ (by simp) (by decide +kernel) governed_capacity 3 2
    (governed_loaded 3 (Or.inl rfl)) (governed_loaded 2 (Or.inr rfl)) 1500 ?_ ?_
  · intro i t ht
    rcases governed_tables ht with ⟨-, rfl⟩ | ⟨h, -⟩
    · decide +kernel
    · exact absurd h (by decide)
  · intro i t ht
    rcases governed_tables ht with ⟨h, -⟩ | ⟨-, ht⟩
    · exact absurd h (by decide)
    · cases ht
      decide +kernel

/-- All hypotheses hold: the utilisation of the two load cases is that of the governing one, 2000 over the capacity. -/
example : (2000 / Samples.thinCap : ℚ) = 2000 / Samples.thinCap := by
  refine C129_first (Rt.exact_exact ℚ) (Rt.exact_sortOK ℚ) governedObj governedBeam rfl governed_aligned [Num.flt 1]
    ⟨.cons rfl .nil, by decide +kernel⟩ (by simp) (by decide +kernel) 20 rfl (by decide +kernel) governed_capacity .none 3 [2]
    (Or.inr (Or.inr ⟨rfl, _, _, _, rfl, rfl, rfl⟩)) ?_ ?_ _ _ (by decide +kernel) (by decide +kernel)
  · intro k hk
    exact governed_loaded k (by simpa using hk)
  · intro k hk
    obtain rfl : k = 2 := by simpa using hk
    exact governed

/-- The narrow peak, between the points assessed, is covered by the governing load case. -/
example : (1000 / Samples.thinCap : ℚ) ≤ 2000 / Samples.thinCap := by
  refine C129_everywhere (Rt.exact_exact ℚ) (Rt.exact_sortOK ℚ) governedObj governedBeam rfl governed_aligned [Num.flt 1]
    ⟨.cons rfl .nil, by decide +kernel⟩ (by simp) (by decide +kernel) 20 rfl (by decide +kernel) governed_capacity .none 3 [2]
    (Or.inr (Or.inr ⟨rfl, _, _, _, rfl, rfl, rfl⟩)) ?_ ?_ _ (by decide +kernel) 2 (by simp) (1/2) (by decide +kernel) _
    (by decide +kernel)
  · intro k hk
    exact governed_loaded k (by simpa using hk)
  · intro k hk
    obtain rfl : k = 2 := by simpa using hk
    exact governed

example : (1000 / Samples.thinCap : ℚ) ≤ 2000 / Samples.thinCap :=
  C129_pairs (Rt.exact_exact ℚ) (Rt.exact_sortOK ℚ) governedObj governedBeam rfl governed_aligned [Num.flt 1]
    ⟨.cons rfl .nil, by decide +kernel⟩ (by simp) (by decide +kernel) 20 rfl (by decide +kernel) governed_capacity 3 2
    (governed_loaded 3 (Or.inl rfl)) (governed_loaded 2 (Or.inr rfl)) governed _ _ (by decide +kernel) (by decide +kernel)

end BeamDesign
