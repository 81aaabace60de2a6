import Verif.Props.Tension
import Verif.Props.Load

set_option linter.unusedSectionVars false
set_option linter.unusedSimpArgs false

/-! # Overall utilisation: C33, C34 and C62 -/

namespace BeamDesign

open Spec

variable {K : Type} [Field K] [LinearOrder K] [IsStrictOrderedRing K] [FloorRing K]

/-! ## C33 -/

theorem utilLoop_first (rt : Rt K) (o : AS4100 K) (b : Beam K (Sect K)) (hb : o.beam = some b) (c : ℤ) (cs : List ℤ)
    (locs : List (Loc K)) (hl : b.listPositions rt .none (some o.assessmentPoints) (some c) = .ok locs) :
    o.utilLoop rt none (c :: cs) = o.utilLoop rt (some (locs.map fun l => l.pos)) (c :: cs) := by
  simp only [AS4100.utilLoop, AS4100.utilPositions, hb, hl, bind, Except.bind, pure, Except.pure]

/-- C33, part: without `position` the utilisation is the largest over all load cases, but at the assessment points of
the first load case only. -/
theorem C33_first_case_partial {rt : Rt K} (hx : rt.Exact) (o : AS4100 K) (b : Beam K (Sect K))
    (hb : o.beam = some b) (loadCase : CaseArg) (c : ℤ) (cs : List ℤ) (hcs : CasesOf o loadCase (c :: cs))
    (locs : List (Loc K)) (hl : b.listPositions rt .none (some o.assessmentPoints) (some c) = .ok locs)
    (hne : locs ≠ []) (h : ∀ k ∈ c :: cs, ∀ l ∈ locs, Defined rt o k l.pos)
    (hsmall : ∀ k ∈ c :: cs, ∀ l ∈ locs, ¬ Tiny rt o k l.pos) :
    ∃ u, o.tensionUtilisation rt loadCase .none = .ok u ∧
      IsGreatest {v | ∃ k ∈ c :: cs, ∃ l ∈ locs, UtilAt rt o k l.pos v} u := by
  obtain ⟨u, hu, hg⟩ := (utilisation_of_loop hx o loadCase (c :: cs) hcs .none none rfl
    (locs.map fun l => l.pos) (by simp) (utilLoop_first rt o b hb c cs locs hl) (by simp) (by simpa using hne)
    (by
      intro k hk p hp
      obtain ⟨l, hlm, rfl⟩ := List.mem_map.1 hp
      exact h k hk l hlm)).1 (by
      intro k hk p hp
      obtain ⟨l, hlm, rfl⟩ := List.mem_map.1 hp
      exact hsmall k hk l hlm)
  refine ⟨u, hu, ?_⟩
  convert hg using 1
  ext v
  simp only [List.mem_map, exists_exists_and_eq_and]

/-- C33, part: if all load cases have the same assessment points, the utilisation is at least the utilisation at every
assessment point of every load case, and it is one of them. -/
theorem C33_same_points_partial {rt : Rt K} (hx : rt.Exact) (o : AS4100 K) (b : Beam K (Sect K))
    (hb : o.beam = some b) (loadCase : CaseArg) (cs : List ℤ) (hcne : cs ≠ []) (hcs : CasesOf o loadCase cs)
    (ps : List (Num K)) (hne : ps ≠ [])
    (hl : ∀ k ∈ cs, ∃ locs, b.listPositions rt .none (some o.assessmentPoints) (some k) = .ok locs ∧
      ∀ p, p ∈ ps ↔ ∃ l ∈ locs, l.pos = p)
    (h : ∀ k ∈ cs, ∀ p ∈ ps, Defined rt o k p) (hsmall : ∀ k ∈ cs, ∀ p ∈ ps, ¬ Tiny rt o k p) :
    ∃ u, o.tensionUtilisation rt loadCase .none = .ok u ∧
      IsGreatest {v | ∃ k ∈ cs, ∃ locs, b.listPositions rt .none (some o.assessmentPoints) (some k) = .ok locs ∧
        ∃ l ∈ locs, UtilAt rt o k l.pos v} u := by
  obtain ⟨c, cs, rfl⟩ := List.exists_cons_of_ne_nil hcne
  obtain ⟨locs, hlocs, hmem⟩ := hl c List.mem_cons_self
  have hin : ∀ l ∈ locs, l.pos ∈ ps := fun l hlm => (hmem _).2 ⟨l, hlm, rfl⟩
  obtain ⟨u, hu, hg⟩ := C33_first_case_partial hx o b hb loadCase c cs hcs locs hlocs
    (by
      obtain ⟨p, hp⟩ := List.exists_mem_of_ne_nil ps hne
      obtain ⟨l, hlm, -⟩ := (hmem p).1 hp
      exact List.ne_nil_of_mem hlm)
    (fun k hk l hlm => h k hk _ (hin l hlm)) (fun k hk l hlm => hsmall k hk _ (hin l hlm))
  refine ⟨u, hu, ?_⟩
  convert hg using 1
  ext v
  constructor
  · rintro ⟨k, hk, locs', hlocs', l, hlm, hv⟩
    obtain ⟨locs'', hlocs'', hmem'⟩ := hl k hk
    rw [hlocs'] at hlocs''
    cases hlocs''
    obtain ⟨l', hl', he⟩ := (hmem l.pos).1 ((hmem' _).2 ⟨l, hlm, rfl⟩)
    exact ⟨k, hk, l', hl', by rw [he]; exact hv⟩
  · rintro ⟨k, hk, l, hlm, hv⟩
    obtain ⟨locs', hlocs', hmem'⟩ := hl k hk
    obtain ⟨l', hl', he⟩ := (hmem' l.pos).1 (hin l hlm)
    exact ⟨k, hk, locs', hlocs', l', hl', by rw [he]; exact hv⟩

/-- C33, part: if all load cases have the same assessment points, the order in which they are given does not
matter. -/
theorem C33_order_partial {rt : Rt K} (hx : rt.Exact) (o : AS4100 K) (b : Beam K (Sect K))
    (hb : o.beam = some b) (cs cs' : List ℤ) (hcne : cs ≠ []) (hperm : cs.Perm cs')
    (ps : List (Num K)) (hne : ps ≠ [])
    (hl : ∀ k ∈ cs, ∃ locs, b.listPositions rt .none (some o.assessmentPoints) (some k) = .ok locs ∧
      ∀ p, p ∈ ps ↔ ∃ l ∈ locs, l.pos = p)
    (h : ∀ k ∈ cs, ∀ p ∈ ps, Defined rt o k p) (hsmall : ∀ k ∈ cs, ∀ p ∈ ps, ¬ Tiny rt o k p) :
    o.tensionUtilisation rt (.list cs) .none = o.tensionUtilisation rt (.list cs') .none := by
  have hm : ∀ k, k ∈ cs' ↔ k ∈ cs := fun k => hperm.symm.mem_iff
  obtain ⟨u, hu, hg⟩ := C33_same_points_partial hx o b hb (.list cs) cs hcne (Or.inl rfl) ps hne hl h hsmall
  obtain ⟨u', hu', hg'⟩ := C33_same_points_partial hx o b hb (.list cs') cs'
    (by rintro rfl; exact hcne hperm.eq_nil) (Or.inl rfl) ps hne
    (fun k hk => hl k ((hm k).1 hk)) (fun k hk => h k ((hm k).1 hk)) (fun k hk => hsmall k ((hm k).1 hk))
  simp only [hm] at hg'
  rw [hu, hu', hg.unique hg']

/-! ## C34 -/

theorem padd_flt_left {rt : Rt K} {a b : Num K} (h : a.isInt = false) : (a.padd rt b).isInt = false := by
  simp [Num.padd, h]

theorem endsFrom_flt {rt : Rt K} (ls : List (Num K)) : ∀ p : Num K, p.isInt = false →
    ∀ se ∈ endsFrom rt p ls, se.1.isInt = false ∧ se.2.isInt = false := by
  induction ls with
  | nil => simp [endsFrom]
  | cons l ls ih =>
    intro p hp se hse
    rcases List.mem_cons.1 hse with rfl | hse
    · exact ⟨hp, padd_flt_left hp⟩
    · exact ih _ (padd_flt_left hp) se hse

theorem endsOf_flt {rt : Rt K} {ls : List (Num K)} (h : ∀ l ∈ ls, l.isInt = false) :
    ∀ se ∈ endsOf rt ls, se.1.isInt = false ∧ se.2.isInt = false := by
  cases ls with
  | nil => simp [endsOf]
  | cons l ls =>
    intro se hse
    have hl := h l List.mem_cons_self
    rcases List.mem_cons.1 hse with rfl | hse
    · exact ⟨rfl, hl⟩
    · exact endsFrom_flt ls l hl se hse

theorem realPositions_mapM {S : Type} {rt : Rt K} {b : Beam K S} {c : Option ℤ} {i : ℕ} {e : Element K S}
    {rp : List (Num K)} (h : b.realPositions rt c i e = .ok rp) :
    ∃ ep : List (Num K), ep.mapM (fun p => b.localToBeam rt p (i : ℤ)) = .ok rp := by
  unfold Beam.realPositions at h
  cases c with
  | none => exact ⟨_, h⟩
  | some k =>
    simp only [bind, Except.bind] at h
    split at h
    · cases h
    · exact ⟨_, h⟩

/-- With float lengths all assessment points are floats. -/
theorem positionList_flt {S : Type} {rt : Rt K} {b : Beam K S} {ls : List (Num K)} (h : HasLengths b ls)
    (hf : ∀ l ∈ ls, l.isInt = false) {n : ℤ} {c : Option ℤ} {ps : List (Num K)}
    (hp : b.positionList rt .none (some n) c = .ok ps) : ∀ p ∈ ps, p.isInt = false := by
  unfold Beam.positionList at hp
  simp only [bind, Except.bind, pure, Except.pure, elementEnds_ok rt h] at hp
  split at hp
  · cases hp
  split at hp
  · cases hp
  rename_i lin _
  split at hp
  · cases hp
  rename_i real hreal
  cases hp
  intro p hpm
  have := mem_of_mem_sortedSet hpm
  simp only [List.mem_append, List.mem_flatMap, List.mem_cons, List.not_mem_nil, or_false, List.mem_flatten,
    List.mem_map] at this
  rcases this with (⟨se, hse, rfl | rfl⟩ | ⟨l, hl, hpl⟩) | ⟨x, -, rfl⟩
  · exact (endsOf_flt hf se hse).1
  · exact (endsOf_flt hf se hse).2
  · obtain ⟨ei, -, he⟩ := forall₂_mem_right ((mapM_ok_iff _ _ _).1 hreal) hl
    obtain ⟨ep, he⟩ := realPositions_mapM he
    obtain ⟨q, -, hq⟩ := forall₂_mem_right ((mapM_ok_iff _ _ _).1 he) hpl
    unfold Beam.localToBeam at hq
    split at hq
    · cases hq
    simp only [bind, Except.bind, pure, Except.pure] at hq
    split at hq
    · cases hq
    rename_i se hse
    split at hq
    · cases hq
    split at hq
    · cases hq
    cases hq
    refine padd_flt_left ?_
    unfold Beam.getElementStartEnd at hse
    simp only [elementEnds_ok rt h, bind, Except.bind] at hse
    obtain ⟨j, hj, -⟩ := (pyIndex_ok_iff _ _ _).1 hse
    exact (endsOf_flt hf _ (List.mem_of_getElem? hj)).1
  · rfl

/-- Every entry listed is at one of the positions. -/
theorem listPositions_pos {S : Type} {rt : Rt K} {b : Beam K S} {position : PosArg K} {n c : Option ℤ}
    {locs : List (Loc K)} (h : b.listPositions rt position n c = .ok locs) :
    ∃ ps, b.positionList rt position n c = .ok ps ∧ ∀ l ∈ locs, l.pos ∈ ps := by
  unfold Beam.listPositions at h
  simp only [bind, Except.bind, pure, Except.pure] at h
  split at h
  · cases h
  rename_i ps hps
  split at h
  · cases h
  rename_i blocks hblocks
  cases h
  refine ⟨ps, hps, fun l hl => ?_⟩
  obtain ⟨blk, hblk, hl⟩ := List.mem_flatten.1 hl
  obtain ⟨p, hp, hr⟩ := forall₂_mem_right ((mapM_ok_iff _ _ _).1 hblocks) hblk
  split at hr
  · cases hr
  split at hr
  · cases hr
  rename_i ls hls
  cases hr
  obtain ⟨blk', hblk', hl⟩ := List.mem_flatten.1 hl
  obtain ⟨i, -, hi⟩ := forall₂_mem_right ((mapM_ok_iff _ _ _).1 hls) hblk'
  unfold Beam.locate at hi
  simp only [bind, Except.bind, pure, Except.pure] at hi
  split at hi
  · cases hi
  split at hi
  · cases hi
  split at hi
  · cases c with
    | none =>
      cases hi
      obtain ⟨q, -, rfl⟩ := List.mem_map.1 hl
      exact hp
    | some k =>
      simp only at hi
      split at hi
      · cases hi
      split at hi
      · cases hi
      cases hi
      obtain ⟨q, -, rfl⟩ := List.mem_map.1 hl
      exact hp
  · split at hi
    · cases hi
    cases hi
    rw [List.mem_singleton.1 hl]
    exact hp

/-- C34, part: with float lengths, steel circles of positive capacity and loads in every load case, the overall
utilisation has a value, unless a tension at an assessment point of the first load case is too small for the solver. -/
theorem C34_float_partial {rt : Rt K} (hx : rt.Exact) (hs : rt.SortOK) (o : AS4100 K) (b : Beam K (Sect K))
    (hb : o.beam = some b) (ha : Aligned o) (ls : List (Num K)) (h : HasLengths b ls) (hls : ls ≠ [])
    (hflt : ∀ l ∈ ls, l.isInt = false) (n : ℕ) (hn : o.assessmentPoints = n)
    (hphi : 0 < o.phiSteel) (hcap : ∀ d ∈ o.dsects, ∃ n, SectionCapacity rt o.kt o.alphaU d n ∧ 0 < n)
    (loadCase : CaseArg) (cs : List ℤ) (hcs : CasesOf o loadCase cs) (hcne : cs ≠ [])
    (hc : ∀ c ∈ cs, LoadedFloat b c)
    (hsmall : ∀ c₀, cs.head? = some c₀ → ∀ locs,
      b.listPositions rt .none (some o.assessmentPoints) (some c₀) = .ok locs →
      ∀ c ∈ cs, ∀ l ∈ locs, ¬ Tiny rt o c l.pos) :
    ∃ u, o.tensionUtilisation rt loadCase .none = .ok u ∧ 0 ≤ u := by
  obtain ⟨c, cs, rfl⟩ := List.exists_cons_of_ne_nil hcne
  obtain ⟨xs, locs, hlocs, hL, -, hv, hin, -⟩ := C16_min_positions hx b ls h (some c) (by
    rintro k hk i hi
    cases hk
    exact (hc c List.mem_cons_self i hi).imp fun _ h => h.1) n
  obtain ⟨ps, hps, hpm⟩ := listPositions_pos hlocs
  have hfl := positionList_flt h hflt hps
  have hrange : ∀ l ∈ locs, 0 ≤ l.pos.val ∧ l.pos.val ≤ total ls := by
    intro l hl
    obtain ⟨pairs, bl, hp, hbl, rfl⟩ := hL
    obtain ⟨blk, hblk, hl⟩ := List.mem_flatten.1 hl
    obtain ⟨pi, hpi, l', -, he, -⟩ := forall₂_mem_right hbl hblk
    rw [(he l hl).1]
    exact hin _ ((hp.2 pi.1 pi.2).1 hpi).1
  have hne : locs ≠ [] := by
    rintro rfl
    obtain ⟨pairs, bl, hp, hbl, he⟩ := hL
    have h0 : (0 : K) ∈ xs := (hv 0).2 (Or.inl ⟨0, List.length_pos_iff.2 hls, Or.inl (by simp [startOf])⟩)
    obtain ⟨i, hi⟩ := exists_inElement h.2 hls (hin 0 h0).1 (hin 0 h0).2
    obtain ⟨blk, hblk, l, -, -, -, -, hb⟩ := forall₂_mem_left hbl ((hp.2 0 i).2 ⟨h0, hi⟩)
    exact hb (List.flatten_eq_nil_iff.1 he.symm _ hblk)
  obtain ⟨u, hu, hg⟩ := C33_first_case_partial hx o b hb loadCase c cs hcs locs (by rw [hn]; exact hlocs) hne
    (fun k hk l hl => (defined_of_beam hx hs o b hb ha ls h hls k (hc k hk) hphi hcap l.pos (hfl _ (hpm l hl))
      (hrange l hl)).1)
    (hsmall c rfl locs (by rw [hn]; exact hlocs))
  refine ⟨u, hu, ?_⟩
  obtain ⟨k, hk, l, hl, cap, t, hcp, -, rfl⟩ := hg.1
  obtain ⟨⟨cap', -, -, hcp', hpos, -⟩, -⟩ := defined_of_beam hx hs o b hb ha ls h hls k (hc k hk) hphi hcap l.pos
    (hfl _ (hpm l hl)) (hrange l hl)
  rw [hcp] at hcp'
  cases hcp'
  split_ifs with h0
  · exact le_rfl
  · exact (div_pos (not_le.1 h0) hpos).le

/-- The tension reported anywhere on the beam lies between axial loads of the element there. -/
theorem reported_bounds {rt : Rt K} (hx : rt.Exact) (hs : rt.SortOK) (o : AS4100 K) (b : Beam K (Sect K))
    (hb : o.beam = some b) (ls : List (Num K)) (h : HasLengths b ls) (hls : ls ≠ []) (c : ℤ)
    (hc : LoadedFloat b c) (p : Num K) (hp : p.isInt = false) (hin : 0 ≤ p.val ∧ p.val ≤ total ls) (t : K)
    (ht : Reported rt o c p t) :
    ∃ i tab, InElement ls p.val i ∧ HasTable b c i tab ∧ ∃ r₁ ∈ tab.rows, ∃ r₂ ∈ tab.rows,
      max r₁.n 0 ≤ t ∧ t ≤ max r₂.n 0 := by
  have hpe : p = Num.flt p.val := by cases p; simp only at hp; rw [hp]; rfl
  obtain ⟨dt, rows, locs, blocks, hL, hB, hfl, -, -, hten⟩ := C31_beam hx hs o b hb ls h hls c hc (.scalar p) [p.val]
    (Or.inl ⟨p.val, by rw [← hpe], rfl⟩) (by simp) (by simpa using hin)
  have e1 : o.getTension rt c (.scalar p) none = .ok ⟨dt, 1,
      (rows.map fun r => (r.1, if r.2 < 0 then 0 else r.2)).map fun r => (r.1, [some r.2])⟩ := by
    rw [hten, List.map_map]; rfl
  obtain ⟨r, hr, rfl⟩ := (reported_iff e1 t).1 ht
  obtain ⟨q, hq, rfl⟩ := List.mem_map.1 hr
  have hmem : (q.1, [q.2]) ∈ blocks.flatten := by rw [hfl]; exact List.mem_map_of_mem hq
  obtain ⟨blk, hblk, hqb⟩ := List.mem_flatten.1 hmem
  obtain ⟨l, hl, tab, ans, htab, hans, rfl⟩ := forall₂_mem_right hB hblk
  obtain ⟨a, ha, hae⟩ := List.mem_map.1 hqb
  have hlin : InElement ls p.val l.elem := by
    obtain ⟨pairs, bl, hp', hbl, rfl⟩ := hL
    obtain ⟨blk', hblk', hl'⟩ := List.mem_flatten.1 hl
    obtain ⟨pi, hpi, _, -, he, -⟩ := forall₂_mem_right hbl hblk'
    obtain ⟨h1, h2⟩ := (hp'.2 pi.1 pi.2).1 hpi
    rw [List.mem_singleton] at h1
    rw [h1] at h2
    rw [(he l hl').2.1]
    exact h2
  have hval : ∃ r₁ ∈ tab.rows, ∃ r₂ ∈ tab.rows, r₁.n ≤ q.2 ∧ q.2 ≤ r₂.n := by
    rcases hans with ⟨-, rfl⟩ | ⟨-, vs, rfl, hv⟩
    · obtain ⟨r, hr, rfl⟩ := List.mem_map.1 ha
      simp only [List.map_cons, List.map_nil, Prod.mk.injEq, List.cons.injEq, and_true] at hae
      have hr' := (List.mem_filter.1 hr).1
      exact ⟨r, hr', r, hr', hae.2.le, hae.2.ge⟩
    · rw [List.mem_singleton.1 ha] at hae
      cases hv with
      | cons h1 h2 =>
        cases h2
        simp only [Prod.mk.injEq, List.cons.injEq, and_true] at hae
        rw [← hae.2]
        exact onCurve_bounds h1
  obtain ⟨r₁, h1, r₂, h2, h3, h4⟩ := hval
  refine ⟨l.elem, tab, hlin, htab, r₁, h1, r₂, h2, ?_⟩
  have hclamp : (if q.2 < 0 then 0 else q.2) = max q.2 0 := by
    split_ifs with h0
    · rw [max_eq_right h0.le]
    · rw [max_eq_left (not_lt.1 h0)]
  simp only [hclamp]
  exact ⟨max_le_max_right 0 h3, max_le_max_right 0 h4⟩

/-- C34, part: the overall utilisation has a value if, on every element in every load case, either there is no tension
at all or every axial load is a tension above `minUtil` times the design capacity of every section. -/
theorem C34_signed_partial {rt : Rt K} (hx : rt.Exact) (hs : rt.SortOK) (o : AS4100 K) (b : Beam K (Sect K))
    (hb : o.beam = some b) (ha : Aligned o) (ls : List (Num K)) (h : HasLengths b ls) (hls : ls ≠ [])
    (hflt : ∀ l ∈ ls, l.isInt = false) (n : ℕ) (hn : o.assessmentPoints = n)
    (hphi : 0 < o.phiSteel) (hcap : ∀ d ∈ o.dsects, ∃ n, SectionCapacity rt o.kt o.alphaU d n ∧ 0 < n)
    (loadCase : CaseArg) (cs : List ℤ) (hcs : CasesOf o loadCase cs) (hcne : cs ≠ [])
    (hc : ∀ c ∈ cs, LoadedFloat b c)
    (hsign : ∀ c ∈ cs, ∀ i t, HasTable b c i t → (∀ r ∈ t.rows, r.n ≤ 0) ∨
      ∀ r ∈ t.rows, ∀ d ∈ o.dsects, ∀ m, SectionCapacity rt o.kt o.alphaU d m → minUtil * (o.phiSteel * m) < r.n) :
    ∃ u, o.tensionUtilisation rt loadCase .none = .ok u ∧ 0 ≤ u := by
  refine C34_float_partial hx hs o b hb ha ls h hls hflt n hn hphi hcap loadCase cs hcs hcne hc ?_
  rintro c₀ hc₀ locs hlocs c hcm l hl ⟨cap, t, hcp, ht, h0, h1⟩
  obtain ⟨ps, hps, hpm⟩ := listPositions_pos hlocs
  have hfl := positionList_flt h hflt hps _ (hpm l hl)
  have hc₀m : c₀ ∈ cs := by
    obtain ⟨a, cs, rfl⟩ := List.exists_cons_of_ne_nil hcne
    cases hc₀
    exact List.mem_cons_self
  obtain ⟨xs, locs', hlocs', hL, -, hv, hin, -⟩ := C16_min_positions hx b ls h (some c₀) (by
    rintro k hk i hi
    cases hk
    exact (hc c₀ hc₀m i hi).imp fun _ h => h.1) n
  rw [hn, hlocs'] at hlocs
  cases hlocs
  have hrange : 0 ≤ l.pos.val ∧ l.pos.val ≤ total ls := by
    obtain ⟨pairs, bl, hp, hbl, rfl⟩ := hL
    obtain ⟨blk, hblk, hl⟩ := List.mem_flatten.1 hl
    obtain ⟨pi, hpi, l', -, he, -⟩ := forall₂_mem_right hbl hblk
    rw [(he l hl).1]
    exact hin _ ((hp.2 pi.1 pi.2).1 hpi).1
  obtain ⟨i, tab, hi, htab, r₁, hr₁, r₂, hr₂, hle, hge⟩ :=
    reported_bounds hx hs o b hb ls h hls c (hc c hcm) l.pos hfl hrange t ht
  rcases hsign c hcm i tab htab with hneg | hbig
  · rw [max_eq_right (hneg r₂ hr₂)] at hge
    exact absurd h0 (not_lt.2 hge)
  · obtain ⟨⟨cap', -, -, hcp', hpos, -⟩, m, hm, hleast⟩ :=
      defined_of_beam hx hs o b hb ha ls h hls c (hc c hcm) hphi hcap l.pos hfl hrange
    rw [hcp] at hcp' hm
    cases hcp'
    simp only [Except.ok.injEq] at hm
    obtain ⟨d, ⟨j, e, hj, he, hes⟩, hdm⟩ := hleast.1
    have hd : d ∈ o.dsects := by
      unfold Aligned at ha
      simp only [hb] at ha
      obtain ⟨d', hd', h2, -⟩ := forall₂_mem_left ha (List.mem_map_of_mem (List.mem_of_getElem? he))
      rw [hes] at h2
      obtain ⟨r, mt⟩ := d
      obtain ⟨r', mt'⟩ := d'
      simp only [Sect.circle.injEq, Option.some.injEq] at h2
      obtain ⟨rfl, rfl⟩ := h2
      exact hd'
    have hb1 := hbig r₁ hr₁ d hd m hdm
    rw [← hm] at hb1
    have : minUtil < t / cap := by
      rw [lt_div_iff₀ hpos]
      exact lt_of_lt_of_le hb1 (le_trans (le_max_left _ _) hle)
    exact absurd h1 (not_le.2 this)

/-! ### Integer lengths -/

theorem mem_pySet_of_first (pre : List (Num K)) (x : Num K) (rest : List (Num K)) (h : ∀ y ∈ pre, y.val ≠ x.val) :
    x ∈ pySet (pre ++ x :: rest) := by
  induction pre with
  | nil => simp [pySet]
  | cons a pre ih =>
    simp only [List.cons_append, pySet, List.mem_cons, List.mem_filter]
    exact Or.inr ⟨ih fun y hy => h y (List.mem_cons_of_mem _ hy),
      decide_eq_true (Ne.symm (h a List.mem_cons_self))⟩

theorem mapM_not_ok {α β : Type} {f : α → Py β} {l : List α} {x : α} (hx : x ∈ l) (h : ∀ y, f x ≠ .ok y)
    (ys : List β) : l.mapM f ≠ .ok ys := by
  intro he
  obtain ⟨y, -, hy⟩ := forall₂_mem_left ((mapM_ok_iff _ _ _).1 he) hx
  exact h y hy

theorem utilAt_int {rt : Rt K} {o : AS4100 K} {c : ℤ} {p : Num K} (hp : p.isInt = true)
    (l : List (ℤ × Num K × K)) : o.utilAt rt c p ≠ .ok l := by
  have hw : (PosArg.scalar p).wrap = .scalar p := by simp [PosArg.wrap, hp]
  have : ∃ e, o.phiNt rt (.scalar p) = .error e := by
    unfold AS4100.phiNt AS4100.Nt AS4100.Nty AS4100.considered AS4100.getDSection
    cases hb : o.beam with
    | none => exact ⟨_, rfl⟩
    | some b =>
      exact ⟨.typeError, by
        simp only [hw, Beam.listPositions, Beam.positionList, hp, if_true, bind, Except.bind]⟩
  obtain ⟨e, he⟩ := this
  simp [AS4100.utilAt, AS4100.tensionCapacity, he, bind, Except.bind]

/-- C34 is false: whenever the first element has a positive int length, the overall utilisation has no value,
whatever the sections, the loads and the load cases. -/
theorem C34_int_counterexample {rt : Rt K} (o : AS4100 K) (b : Beam K (Sect K)) (hb : o.beam = some b)
    (l : K) (hl : 0 < l) (ls : List (Num K)) (h : HasLengths b (Num.int l :: ls)) (loadCase : CaseArg) (u : K) :
    o.tensionUtilisation rt loadCase .none ≠ .ok u := by
  intro hu
  unfold AS4100.tensionUtilisation at hu
  simp only [PosArg.given, bind, Except.bind] at hu
  split at hu
  · cases hu
  rename_i cs hcs
  split at hu
  · cases hu
  rename_i ret hret
  cases cs with
  | nil =>
    cases hret
    have : utilFilter loadCase none ([] : List (ℤ × Num K × K)) = [] := by
      unfold utilFilter; split <;> rfl
    rw [this] at hu
    cases hu
  | cons c cs =>
    simp only [AS4100.utilLoop, AS4100.utilPositions, hb, bind, Except.bind, pure, Except.pure] at hret
    split at hret
    · cases hret
    rename_i ps hps
    split at hps
    · cases hps
    rename_i locs hlocs
    cases hps
    split at hret
    · cases hret
    rename_i ys hys
    refine mapM_not_ok (x := Num.int l) ?_ (utilAt_int rfl) ys hys
    -- the end of the first element is listed
    unfold Beam.listPositions at hlocs
    simp only [bind, Except.bind, pure, Except.pure] at hlocs
    split at hlocs
    · cases hlocs
    rename_i pl hpl
    split at hlocs
    · cases hlocs
    rename_i blocks hblocks
    cases hlocs
    have hmem : Num.int l ∈ pl := by
      unfold Beam.positionList at hpl
      simp only [bind, Except.bind, pure, Except.pure, elementEnds_ok rt h] at hpl
      split at hpl
      · cases hpl
      split at hpl
      · cases hpl
      split at hpl
      · cases hpl
      cases hpl
      refine (sortedSet_perm _).mem_iff.2 ?_
      simp only [endsOf, List.flatMap_cons, List.cons_append, List.nil_append]
      exact mem_pySet_of_first [Num.flt 0] (Num.int l) _ (by simpa using hl.ne)
    obtain ⟨blk, hblk, hr⟩ := forall₂_mem_left ((mapM_ok_iff _ _ _).1 hblocks) hmem
    split at hr
    · cases hr
    rename_i es hes
    split at hr
    · cases hr
    rename_i lss hlss
    cases hr
    have h0 : 0 ∈ es := by
      unfold Beam.inElements at hes
      simp only [elementEnds_ok rt h, bind, Except.bind, pure, Except.pure] at hes
      cases hes
      simp [inEnds, endsOf, hl.le]
    obtain ⟨b0, hb0, hloc⟩ := forall₂_mem_left ((mapM_ok_iff _ _ _).1 hlss) h0
    have : ∃ x ∈ b0, x.pos = Num.int l := by
      obtain ⟨hf, -⟩ := h
      rcases hel : b.elements with _ | ⟨e, es'⟩
      · rw [hel] at hf; cases hf
      rw [hel] at hf
      cases hf with
      | cons h1 h2 =>
      unfold Beam.locate at hloc
      have h3 : pyIndex b.elements ((0 : ℕ) : ℤ) = .ok e := by rw [hel]; rfl
      have h4 : e.len = .ok (Num.int l) := by simp [Element.len, h1]
      simp only [h3, h4, bind, Except.bind, pure, Except.pure] at hloc
      rw [if_neg (show ¬ (Num.int l).val = 0 from hl.ne')] at hloc
      split at hloc
      · cases hloc
      cases hloc
      exact ⟨_, List.mem_singleton.2 rfl, rfl⟩
    obtain ⟨x, hx, hxp⟩ := this
    exact List.mem_map.2 ⟨x, List.mem_flatten.2 ⟨_, hblk, List.mem_flatten.2 ⟨b0, hb0, hx⟩⟩, hxp⟩

/-! ### Concrete cases -/

/-- C33 is false.  Load case 2 has a peak at 1/2, one of its own assessment points, which the points of load case 1
miss: listing load case 1 first the utilisation is 0, listing it last it is 1000 N over the capacity, and this is the
utilisation at the peak in both orders. -/
theorem C33_counterexample :
    Samples.peakObj.tensionUtilisation Samples.rt .none .none = .ok 0 ∧
    Samples.peakObj.tensionUtilisation Samples.rt (.list [1, 2]) .none = .ok 0 ∧
    Samples.peakObj.tensionUtilisation Samples.rt (.list [2, 1]) .none = .ok (1000 / Samples.thinCap) ∧
    Samples.peakObj.tensionUtilisation Samples.rt (.list [1, 2]) (.scalar (Num.flt (1/2)))
      = .ok (1000 / Samples.thinCap) ∧
    ∃ b locs, Samples.peakObj.beam = some b ∧ b.listPositions Samples.rt .none (some 20) (some 2) = .ok locs ∧
      ∃ l ∈ locs, l.pos = Num.flt (1/2) := by
  refine ⟨by decide +kernel, by decide +kernel, by decide +kernel, by decide +kernel, ?_⟩
  have h : (match (⟨[⟨[(1, Samples.slack), (2, Samples.peak)], some (Num.flt 1), Samples.rod (1/100)⟩]⟩ :
        Beam ℚ (Sect ℚ)).listPositions Samples.rt .none (some 20) (some 2) with
      | .ok locs => locs.any fun l => decide (l.pos = Num.flt (1/2))
      | .error _ => false) = true := by decide +kernel
  split at h
  · rename_i locs hl
    obtain ⟨l, hlm, he⟩ := List.any_eq_true.1 h
    exact ⟨_, locs, rfl, hl, l, hlm, by simpa using he⟩
  · cases h

/-- C34 is false: the same rod with the length 1.0 has a utilisation, with the length 1 it raises `TypeError`; and
a very small tension raises `ValueError`. -/
theorem C34_counterexample :
    (Samples.constObj (Num.flt 1) 1000).tensionUtilisation Samples.rt .none .none = .ok (1000 / Samples.thinCap) ∧
    (Samples.constObj (Num.int 1) 1000).tensionUtilisation Samples.rt .none .none = .error .typeError ∧
    (Samples.constObj (Num.flt 1) (1 / 10 ^ 10)).tensionUtilisation Samples.rt .none .none = .error .valueError := by
  refine ⟨by decide +kernel, by decide +kernel, by decide +kernel⟩

/-- The concrete rod with two assessment points. -/
def rodTwo : AS4100 ℚ := (Samples.constObj (Num.flt 1) 1000).setAssessmentPoints 2

theorem rodTwo_defined (p : ℚ) (hp : p = 0 ∨ p = 1) :
    Defined Samples.rt rodTwo 1 (Num.flt p) ∧ ¬ Tiny Samples.rt rodTwo 1 (Num.flt p) := by
  have hcap : rodTwo.phiNt Samples.rt (.scalar (Num.flt p)) = .ok Samples.thinCap := by
    rcases hp with rfl | rfl <;> decide +kernel
  have hten : rodTwo.getTension Samples.rt 1 (.scalar (Num.flt p)) none =
      .ok ⟨.flt, 1, [(p, (1000 : ℚ))].map fun r => (r.1, [some r.2])⟩ := by
    rcases hp with rfl | rfl <;> decide +kernel
  refine ⟨⟨_, _, _, hcap, by decide +kernel, by simp, hten⟩, ?_⟩
  rintro ⟨cap, t, h1, h2, h3, h4⟩
  rw [hcap] at h1
  cases h1
  obtain ⟨r, hr, rfl⟩ := (reported_iff hten t).1 h2
  rw [List.mem_singleton.1 hr] at h4
  have : ¬ (1000 / Samples.thinCap ≤ minUtil) := by decide +kernel
  exact this h4

theorem rodTwo_points : ∃ b locs, rodTwo.beam = some b ∧
    b.listPositions Samples.rt .none (some rodTwo.assessmentPoints) (some 1) = .ok locs ∧ locs ≠ [] ∧
    (∀ l ∈ locs, l.pos = Num.flt 0 ∨ l.pos = Num.flt 1) ∧
    ∀ p, p ∈ [Num.flt 0, Num.flt (1 : ℚ)] ↔ ∃ l ∈ locs, l.pos = p := by
  refine ⟨_, [⟨Num.flt 0, 0, Num.flt 0⟩, ⟨Num.flt 1, 0, Num.flt 1⟩], rfl, by decide +kernel, by simp, by simp, ?_⟩
  intro p
  simp [eq_comm]

/-- The hypotheses of `C33_same_points_partial` and `C33_order_partial` can be met (load case 1 twice). -/
example : rodTwo.tensionUtilisation Samples.rt (.list [1, 1]) .none =
    rodTwo.tensionUtilisation Samples.rt (.list [1, 1]) .none ∧
    ∃ u, rodTwo.tensionUtilisation Samples.rt .none .none = .ok u := by
  obtain ⟨b, locs, hb, hl, hne, hp, hm⟩ := rodTwo_points
  have hd : ∀ p ∈ [Num.flt 0, Num.flt (1 : ℚ)], Defined Samples.rt rodTwo 1 p ∧ ¬ Tiny Samples.rt rodTwo 1 p := by
    intro p hp
    simp only [List.mem_cons, List.not_mem_nil, or_false] at hp
    rcases hp with rfl | rfl
    · exact rodTwo_defined 0 (Or.inl rfl)
    · exact rodTwo_defined 1 (Or.inr rfl)
  constructor
  · exact C33_order_partial (Rt.exact_exact ℚ) rodTwo b hb [1, 1] [1, 1] (by simp) (List.Perm.refl _)
      [Num.flt 0, Num.flt 1] (by simp)
      (by intro k hk; obtain rfl : k = 1 := by simpa using hk
          exact ⟨locs, hl, hm⟩)
      (by intro k hk p hp; obtain rfl : k = 1 := by simpa using hk
          exact (hd p hp).1)
      (by intro k hk p hp; obtain rfl : k = 1 := by simpa using hk
          exact (hd p hp).2)
  · obtain ⟨u, hu, -⟩ := C33_first_case_partial (Rt.exact_exact ℚ) rodTwo b hb .none 1 []
      (Or.inr (Or.inr ⟨rfl, b, _, [], hb, by cases hb; rfl, rfl⟩)) locs hl hne
      (by intro k hk l hlm; obtain rfl : k = 1 := by simpa using hk
          exact (hd _ ((hm _).2 ⟨l, hlm, rfl⟩)).1)
      (by intro k hk l hlm; obtain rfl : k = 1 := by simpa using hk
          exact (hd _ ((hm _).2 ⟨l, hlm, rfl⟩)).2)
    exact ⟨u, hu⟩

/-- The thin rod has its capacity. -/
theorem thin_capacity : ∀ d ∈ rodTwo.dsects, ∃ n, SectionCapacity Samples.rt rodTwo.kt rodTwo.alphaU d n ∧ 0 < n := by
  intro d hd
  have h : d = ⟨1/100, Samples.steel⟩ := by
    simpa [rodTwo, Samples.constObj, AS4100.setAssessmentPoints] using hd
  subst h
  exact ⟨_, ⟨250000000, 410000000, strengths_iff.2 ⟨by decide +kernel, by decide +kernel⟩, rfl⟩, by decide +kernel⟩

/-- The hypotheses of `C34_signed_partial` can be met. -/
example : ∃ u, rodTwo.tensionUtilisation Samples.rt .none .none = .ok u ∧ 0 ≤ u := by
  have hload : LoadedFloat (⟨[⟨[(1, ⟨some ⟨false, [Samples.axial 0 1000, Samples.axial 1 1000]⟩⟩)],
      some (Num.flt 1), Samples.rod (1/100)⟩]⟩ : Beam ℚ (Sect ℚ)) 1 := by
    intro i hi
    obtain rfl : i = 0 := by simpa using hi
    exact ⟨_, ⟨_, rfl, rfl, by unfold WellFormed; decide +kernel, by simp⟩, rfl⟩
  refine C34_signed_partial (Rt.exact_exact ℚ) (Rt.exact_sortOK ℚ) rodTwo _ rfl (.cons ⟨rfl, rfl⟩ .nil) [Num.flt 1]
    ⟨.cons rfl .nil, by decide +kernel⟩ (by simp) (by simp) 2 rfl (by decide +kernel) thin_capacity .none [1]
    (Or.inr (Or.inr ⟨rfl, _, _, [], rfl, rfl, rfl⟩)) (by simp) ?_ ?_
  · intro c hc
    obtain rfl : c = 1 := by simpa using hc
    exact hload
  · intro c hc i t ht
    obtain rfl : c = 1 := by simpa using hc
    obtain ⟨e, he, hl, -⟩ := ht
    obtain ⟨hi, rfl⟩ := List.getElem?_eq_some_iff.1 he
    obtain rfl : i = 0 := by simpa using hi
    cases hl
    right
    intro r hr d hd m hm
    have h : d = ⟨1/100, Samples.steel⟩ := by
      simpa [rodTwo, Samples.constObj, AS4100.setAssessmentPoints] using hd
    subst h
    obtain ⟨fy, fu, h12, rfl⟩ := hm
    obtain ⟨h1, h2⟩ := strengths_iff.1 h12
    have g1 : (⟨1/100, Samples.steel⟩ : DSect ℚ).minFy = .ok 250000000 := by decide +kernel
    have g2 : (⟨1/100, Samples.steel⟩ : DSect ℚ).minFu = .ok 410000000 := by decide +kernel
    rw [g1] at h1; rw [g2] at h2
    cases h1; cases h2
    simp only [List.mem_cons, List.not_mem_nil, or_false] at hr
    rcases hr with rfl | rfl <;> decide +kernel

end BeamDesign
