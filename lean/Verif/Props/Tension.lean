import Verif.Props.AS4100

set_option linter.unusedSectionVars false
set_option linter.unusedSimpArgs false

/-! # Tension loads and utilisation: C31 to C34 and C62 -/

namespace BeamDesign

open Spec

variable {K : Type} [Field K] [LinearOrder K] [IsStrictOrderedRing K] [FloorRing K]

/-! ## C31 -/

/-- Rows of position and axial load, as table rows. -/
def nRows (rows : List (K × K)) : List (K × List (Option K)) := rows.map fun r => (r.1, [some r.2])

theorem clampRows (rows : List (K × K)) :
    (nRows rows).mapM clampRow = .ok (nRows (rows.map fun r => (r.1, if r.2 < 0 then 0 else r.2))) := by
  rw [mapM_ok_iff]
  unfold nRows
  induction rows with
  | nil => exact .nil
  | cons r rows ih => exact .cons rfl ih

/-- C31: whenever `get_loads` gives axial loads, `get_tension` gives the same table with each negative value replaced by
0 and nothing else changed. -/
theorem C31_get_tension (rt : Rt K) (o : AS4100 K) (c : ℤ) (position : PosArg K) (minPos : Option ℤ) (dt : DType)
    (rows : List (K × K))
    (h : o.getLoads rt c position minPos (.name "N") =
      .ok (some ⟨dt, 1, rows.map fun r => (r.1, [some r.2])⟩)) :
    o.getTension rt c position minPos =
      .ok ⟨dt, 1, rows.map fun r => (r.1, [some (if r.2 < 0 then 0 else r.2)])⟩ := by
  unfold AS4100.getLoads at h
  unfold AS4100.getTension
  rcases hb : o.beam with _ | b
  · simp [hb] at h
  · simp only [hb] at h ⊢
    have := clampRows rows
    unfold nRows at this
    simp only [h, bind, Except.bind, this, pure, Except.pure, List.map_map]
    rfl

/-- C31: on a beam where the load case is loaded `get_tension` answers: the rows of `get_loads`, clamped. -/
theorem C31_beam {rt : Rt K} (hx : rt.Exact) (hs : rt.SortOK) (o : AS4100 K) (b : Beam K (Sect K))
    (hb : o.beam = some b) (ls : List (Num K)) (h : HasLengths b ls) (hls : ls ≠ []) (c : ℤ)
    (hc : LoadedFloat b c) (position : PosArg K) (xs : List K) (hreq : Requested position xs) (hxs : xs ≠ [])
    (hin : ∀ x ∈ xs, 0 ≤ x ∧ x ≤ total ls) :
    ∃ dt, ∃ rows : List (K × K), ∃ locs blocks,
      Listing ls (some c) xs locs ∧ List.Forall₂ (LoadBlock b c [.N]) locs blocks ∧
      blocks.flatten = rows.map (fun r => (r.1, [r.2])) ∧ rows ≠ [] ∧
      o.getLoads rt c position none (.name "N") = .ok (some ⟨dt, 1, rows.map fun r => (r.1, [some r.2])⟩) ∧
      o.getTension rt c position none =
        .ok ⟨dt, 1, rows.map fun r => (r.1, [some (if r.2 < 0 then 0 else r.2)])⟩ := by
  obtain ⟨locs, blocks, dt, hL, hB, hg⟩ := C18_get_loads hx hs b ls h hls c hc (.name "N") [.N] ⟨_, rfl, by simp⟩
    (by simp) position xs hreq hxs hin
  have hrow : ∀ r ∈ blocks.flatten, ∃ x, r.2 = [x] := by
    intro r hr
    obtain ⟨bl, hbl, hr⟩ := List.mem_flatten.1 hr
    obtain ⟨l, -, t, ans, -, hans, rfl⟩ := forall₂_mem_right hB hbl
    obtain ⟨a, ha, rfl⟩ := List.mem_map.1 hr
    rcases hans with ⟨-, rfl⟩ | ⟨-, vs, rfl, hv⟩
    · obtain ⟨q, -, rfl⟩ := List.mem_map.1 ha
      exact ⟨_, rfl⟩
    · rw [List.mem_singleton.1 ha]
      cases hv with
      | cons h1 h2 => cases h2; exact ⟨_, rfl⟩
  obtain ⟨rows, hrows⟩ : ∃ rows : List (K × K), blocks.flatten = rows.map (fun r => (r.1, [r.2])) := by
    clear hB hg
    generalize blocks.flatten = l at hrow
    induction l with
    | nil => exact ⟨[], rfl⟩
    | cons r l ih =>
      obtain ⟨rows, hr⟩ := ih fun r h => hrow r (List.mem_cons_of_mem _ h)
      obtain ⟨x, hx'⟩ := hrow r List.mem_cons_self
      exact ⟨(r.1, x) :: rows, by rw [hr, List.map_cons, ← hx']⟩
  have hne : rows ≠ [] := by
    rintro rfl
    simp only [List.map_nil] at hrows
    obtain ⟨x, hxm⟩ := List.exists_mem_of_ne_nil xs hxs
    obtain ⟨i, hi⟩ := exists_inElement h.2 hls (hin x hxm).1 (hin x hxm).2
    obtain ⟨pairs, bl, hp, hbl, rfl⟩ := hL
    obtain ⟨blk, hblk, l, -, -, -, -, hne⟩ := forall₂_mem_left hbl ((hp.2 x i).2 ⟨hxm, hi⟩)
    obtain ⟨e, he⟩ := List.exists_mem_of_ne_nil blk hne
    obtain ⟨rws, hrws, t, ans, ht, hans, rfl⟩ := forall₂_mem_left hB (List.mem_flatten.2 ⟨blk, hblk, he⟩)
    have hnil := List.flatten_eq_nil_iff.1 hrows _ hrws
    rw [List.map_eq_nil_iff] at hnil
    rcases hans with ⟨hm, rfl⟩ | ⟨-, vs, rfl, -⟩
    · obtain ⟨r, hr, hre⟩ := List.mem_map.1 hm
      rw [List.map_eq_nil_iff, List.filter_eq_nil_iff] at hnil
      exact hnil r hr (by simpa using hre)
    · cases hnil
  have hcells : cells blocks.flatten = rows.map fun r => (r.1, [some r.2]) := by
    rw [hrows]
    simp [cells, List.map_map, Function.comp_def]
  have hg' : o.getLoads rt c position none (.name "N") =
      .ok (some ⟨dt, 1, rows.map fun r => (r.1, [some r.2])⟩) := by
    simp only [AS4100.getLoads, hb]
    rw [hg, hcells]
    rfl
  exact ⟨dt, rows, locs, blocks, hL, hB, hrows, hne, hg', C31_get_tension rt o c position none dt rows hg'⟩

/-! ## C32: utilisation at given positions -/

theorem mapM_error {α β : Type} {f : α → Py β} {l : List α} {e : PyErr}
    (h : ∀ x ∈ l, (∃ y, f x = .ok y) ∨ f x = .error e) (hx : ∃ x ∈ l, f x = .error e) :
    l.mapM f = .error e := by
  induction l with
  | nil => simp at hx
  | cons a l ih =>
    rw [List.mapM_cons]
    rcases h a List.mem_cons_self with ⟨y, hy⟩ | hy
    · obtain ⟨x, hxm, hxe⟩ := hx
      rcases List.mem_cons.1 hxm with rfl | hxm
      · rw [hy] at hxe; cases hxe
      · rw [hy, ih (fun x hx => h x (List.mem_cons_of_mem _ hx)) ⟨x, hxm, hxe⟩]; rfl
    · rw [hy]; rfl

theorem reported_iff {rt : Rt K} {o : AS4100 K} {c : ℤ} {p : Num K} {dt : DType} {rows : List (K × K)}
    (h : o.getTension rt c (.scalar p) none = .ok ⟨dt, 1, rows.map fun r => (r.1, [some r.2])⟩) (t : K) :
    Reported rt o c p t ↔ ∃ r ∈ rows, r.2 = t := by
  constructor
  · rintro ⟨tab, r, htab, hr, hrt⟩
    rw [h] at htab
    cases htab
    obtain ⟨q, hq, rfl⟩ := List.mem_map.1 hr
    exact ⟨q, hq, by simpa using hrt⟩
  · rintro ⟨r, hr, rfl⟩
    exact ⟨_, _, h, List.mem_map_of_mem hr, rfl⟩

theorem utilAt_ok {rt : Rt K} (hx : rt.Exact) {o : AS4100 K} {c : ℤ} {p : Num K} (h : Defined rt o c p) :
    (¬ Tiny rt o c p → ∃ l, o.utilAt rt c p = .ok l ∧ l ≠ [] ∧
      ∀ r, r ∈ l ↔ r.1 = c ∧ r.2.1 = p ∧ UtilAt rt o c p r.2.2) ∧
    (Tiny rt o c p → o.utilAt rt c p = .error .valueError) := by
  obtain ⟨cap, dt, rows, hcap, hpos, hne, hten⟩ := h
  have hrep := reported_iff hten
  constructor
  · intro hsmall
    have hs : ∀ r ∈ rows, r.2 ≤ 0 ∨ minUtil < r.2 / cap := by
      intro r hr
      by_contra hc
      push Not at hc
      exact hsmall ⟨cap, r.2, hcap, (hrep _).2 ⟨r, hr, rfl⟩, hc.1, hc.2⟩
    refine ⟨rows.map fun r => (c, p, utilOf cap r.2), ?_, by simpa using hne, ?_⟩
    · simp only [AS4100.utilAt, AS4100.tensionCapacity, hcap, hten, bind, Except.bind]
      rw [mapM_ok_iff]
      clear hten hne hrep
      induction rows with
      | nil => exact .nil
      | cons r rows ih =>
        refine .cons ?_ (ih fun r h => hs r (List.mem_cons_of_mem _ h))
        simp only [(utilOne_exact hx hpos).1 (hs r List.mem_cons_self), pure, Except.pure]
    · rintro ⟨c', p', v⟩
      rw [List.mem_map]
      constructor
      · rintro ⟨r, hr, e⟩
        cases e
        exact ⟨rfl, rfl, cap, r.2, hcap, (hrep _).2 ⟨r, hr, rfl⟩, rfl⟩
      · rintro ⟨rfl, rfl, cap', t, hcap', ht, hv⟩
        rw [hcap] at hcap'
        cases hcap'
        obtain ⟨q, hq, rfl⟩ := (hrep t).1 ht
        exact ⟨q, hq, by simp only at hv; rw [hv]; rfl⟩
  · rintro ⟨cap', t, hcap', ht, h0, h1⟩
    rw [hcap] at hcap'
    cases hcap'
    obtain ⟨q, hq, rfl⟩ := (hrep t).1 ht
    simp only [AS4100.utilAt, AS4100.tensionCapacity, hcap, hten, bind, Except.bind]
    refine mapM_error ?_ ⟨_, List.mem_map_of_mem hq, ?_⟩
    · intro r hr
      obtain ⟨r, -, rfl⟩ := List.mem_map.1 hr
      by_cases hs : r.2 ≤ 0 ∨ minUtil < r.2 / cap
      · left
        simp only [(utilOne_exact hx hpos).1 hs, pure, Except.pure]
        exact ⟨_, rfl⟩
      · right
        push Not at hs
        simp only [(utilOne_exact hx hpos).2 hs.1 hs.2]
    · simp only [(utilOne_exact hx hpos).2 h0 h1]

theorem utilLoop_ok {rt : Rt K} (hx : rt.Exact) {o : AS4100 K} (cs : List ℤ) (ps : List (Num K))
    (h : ∀ c ∈ cs, ∀ p ∈ ps, Defined rt o c p) :
    ((∀ c ∈ cs, ∀ p ∈ ps, ¬ Tiny rt o c p) →
      ∃ ret, o.utilLoop rt (some ps) cs = .ok ret ∧ (cs ≠ [] → ps ≠ [] → ret ≠ []) ∧
        ∀ r, r ∈ ret ↔ r.1 ∈ cs ∧ r.2.1 ∈ ps ∧ UtilAt rt o r.1 r.2.1 r.2.2) ∧
    ((∃ c ∈ cs, ∃ p ∈ ps, Tiny rt o c p) → o.utilLoop rt (some ps) cs = .error .valueError) := by
  induction cs with
  | nil => exact ⟨fun _ => ⟨[], rfl, fun h => absurd rfl h, by simp⟩, by simp⟩
  | cons c cs ih =>
    obtain ⟨ih1, ih2⟩ := ih fun c hc => h c (List.mem_cons_of_mem _ hc)
    have hall : (∀ p ∈ ps, ¬ Tiny rt o c p) → ∃ ls, ps.mapM (fun p => o.utilAt rt c p) = .ok ls ∧
        List.Forall₂ (fun p l => o.utilAt rt c p = .ok l) ps ls := fun hs =>
      mapM_all_ok (fun p => o.utilAt rt c p) ps fun p hp =>
        ((utilAt_ok hx (h c List.mem_cons_self p hp)).1 (hs p hp)).imp fun _ h => h.1
    constructor
    · intro hs
      have hs' := hs c List.mem_cons_self
      obtain ⟨ret, hret, -, hmem⟩ := ih1 fun c hc => hs c (List.mem_cons_of_mem _ hc)
      obtain ⟨ls, hls, hf⟩ := hall hs'
      refine ⟨ls.flatten ++ ret, ?_, ?_, ?_⟩
      · simp only [AS4100.utilLoop, AS4100.utilPositions, bind, Except.bind, pure, Except.pure] at hret ⊢
        rw [hls]
        simp only [hret]
      · intro _ hps
        obtain ⟨p, hp⟩ := List.exists_mem_of_ne_nil ps hps
        obtain ⟨l, hl, he⟩ := forall₂_mem_left hf hp
        obtain ⟨l', hl', hne, -⟩ := (utilAt_ok hx (h c List.mem_cons_self p hp)).1 (hs' p hp)
        rw [hl'] at he
        cases he
        obtain ⟨x, hxm⟩ := List.exists_mem_of_ne_nil _ hne
        exact List.ne_nil_of_mem (List.mem_append_left _ (List.mem_flatten.2 ⟨_, hl, hxm⟩))
      · intro r
        rw [List.mem_append, hmem, List.mem_flatten, List.mem_cons]
        constructor
        · rintro (⟨l, hl, hr⟩ | ⟨h1, h2⟩)
          · obtain ⟨p, hp, he⟩ := forall₂_mem_right hf hl
            obtain ⟨l', hl', -, hm⟩ := (utilAt_ok hx (h c List.mem_cons_self p hp)).1 (hs' p hp)
            rw [hl'] at he
            cases he
            obtain ⟨h1, h2, h3⟩ := (hm r).1 hr
            rw [h1, h2]
            exact ⟨Or.inl rfl, hp, h3⟩
          · exact ⟨Or.inr h1, h2⟩
        · rintro ⟨h1 | h1, hp, hu⟩
          · obtain ⟨l, hl, he⟩ := forall₂_mem_left hf hp
            obtain ⟨l', hl', -, hm⟩ := (utilAt_ok hx (h c List.mem_cons_self r.2.1 hp)).1 (hs' _ hp)
            rw [hl'] at he
            cases he
            rw [h1] at hu
            exact Or.inl ⟨_, hl, (hm r).2 ⟨h1, rfl, hu⟩⟩
          · exact Or.inr ⟨h1, hp, hu⟩
    · rintro ⟨c', hc', p, hp, ht⟩
      simp only [AS4100.utilLoop, AS4100.utilPositions, bind, Except.bind, pure, Except.pure]
      by_cases hs : ∀ p ∈ ps, ¬ Tiny rt o c p
      · obtain ⟨ls, hls, -⟩ := hall hs
        rcases List.mem_cons.1 hc' with rfl | hc'
        · exact absurd ht (hs p hp)
        · rw [hls]
          simp only [ih2 ⟨c', hc', p, hp, ht⟩]
      · push Not at hs
        obtain ⟨q, hq, hqt⟩ := hs
        rw [mapM_error (e := .valueError) (fun x hxm => ?_)
          ⟨q, hq, (utilAt_ok hx (h c List.mem_cons_self q hq)).2 hqt⟩]
        by_cases hxt : Tiny rt o c x
        · exact Or.inr ((utilAt_ok hx (h c List.mem_cons_self x hxm)).2 hxt)
        · exact Or.inl (((utilAt_ok hx (h c List.mem_cons_self x hxm)).1 hxt).imp fun _ h => h.1)

theorem utilCases_ok {o : AS4100 K} {loadCase : CaseArg} {cs : List ℤ} (h : CasesOf o loadCase cs) :
    o.utilCases loadCase = .ok cs := by
  rcases h with rfl | ⟨c, rfl, rfl⟩ | ⟨rfl, b, e, rest, hb, he, rfl⟩
  · rfl
  · rfl
  · simp [AS4100.utilCases, hb, Beam.loadCases, he, Element.loadCases]

theorem given_ok {position : PosArg K} {ps : List (Num K)} (h : PositionsOf position ps) :
    position.given = .ok (some ps) := by
  rcases h with rfl | ⟨x, rfl, rfl⟩ <;> rfl

theorem utilFilter_id {loadCase : CaseArg} {o : AS4100 K} {cs : List ℤ} (hc : CasesOf o loadCase cs)
    (given : Option (List (Num K))) (ret : List (ℤ × Num K × K))
    (h : ∀ r ∈ ret, r.1 ∈ cs ∧ ∀ ps, given = some ps → r.2.1 ∈ ps) :
    utilFilter loadCase given ret = ret := by
  unfold utilFilter
  split
  · rw [List.filter_eq_self]
    intro r hr
    exact decide_eq_true (List.mem_map_of_mem ((h r hr).2 _ rfl))
  · rename_i c
    rcases hc with hc | ⟨c', hc, rfl⟩ | ⟨hc, -⟩
    · cases hc
    · cases hc
      rw [List.filter_eq_self]
      intro r hr
      exact decide_eq_true (h r hr).1
    · cases hc
  · rename_i cs'
    rcases hc with hc | ⟨c', hc, rfl⟩ | ⟨hc, -⟩
    · cases hc
      rw [List.filter_eq_self]
      intro r hr
      exact decide_eq_true (h r hr).1
    · cases hc
    · cases hc
  · rfl

/-- The end of `tension_utilisation`, once the loop is known to use the positions `ps`. -/
theorem utilisation_of_loop {rt : Rt K} (hx : rt.Exact) (o : AS4100 K) (loadCase : CaseArg) (cs : List ℤ)
    (hcs : CasesOf o loadCase cs) (position : PosArg K) (given : Option (List (Num K)))
    (hg : position.given = .ok given) (ps : List (Num K)) (hgp : ∀ ps', given = some ps' → ps' = ps)
    (hloop : o.utilLoop rt given cs = o.utilLoop rt (some ps) cs)
    (hcne : cs ≠ []) (hpne : ps ≠ []) (h : ∀ c ∈ cs, ∀ p ∈ ps, Defined rt o c p) :
    ((∀ c ∈ cs, ∀ p ∈ ps, ¬ Tiny rt o c p) →
      ∃ u, o.tensionUtilisation rt loadCase position = .ok u ∧
        IsGreatest {v | ∃ c ∈ cs, ∃ p ∈ ps, UtilAt rt o c p v} u) ∧
    ((∃ c ∈ cs, ∃ p ∈ ps, Tiny rt o c p) → o.tensionUtilisation rt loadCase position = .error .valueError) := by
  constructor
  · intro hs
    obtain ⟨ret, hret, hne, hmem⟩ := (utilLoop_ok hx cs ps h).1 hs
    have hf := utilFilter_id hcs given ret fun r hr =>
      ⟨((hmem r).1 hr).1, fun ps' hps' => by rw [hgp ps' hps']; exact ((hmem r).1 hr).2.1⟩
    obtain ⟨u, hu⟩ := pyMax_ne (xs := ret.map fun r => r.2.2) (by simpa using hne hcne hpne)
    refine ⟨u, ?_, ?_⟩
    · simp only [AS4100.tensionUtilisation, hg, utilCases_ok hcs, hloop, hret, bind, Except.bind, hf, hu]
    · have hg := pyMax_ok hu
      refine ⟨?_, ?_⟩
      · obtain ⟨r, hr, rfl⟩ := List.mem_map.1 hg.1
        obtain ⟨h1, h2, h3⟩ := (hmem r).1 hr
        exact ⟨r.1, h1, r.2.1, h2, h3⟩
      · rintro v ⟨c, hc, p, hp, h3⟩
        exact hg.2 (List.mem_map.2 ⟨(c, p, v), (hmem _).2 ⟨hc, hp, h3⟩, rfl⟩)
  · intro ht
    simp only [AS4100.tensionUtilisation, hg, utilCases_ok hcs, hloop, (utilLoop_ok hx cs ps h).2 ht, bind,
      Except.bind]

/-- C32: at given positions and load cases the utilisation is the largest `t / φNt` (0 for no tension) of the tensions
`get_tension` reports there, provided none of them is too small for the solver. -/
theorem C32_utilisation {rt : Rt K} (hx : rt.Exact) (o : AS4100 K) (loadCase : CaseArg) (cs : List ℤ)
    (hcs : CasesOf o loadCase cs) (position : PosArg K) (ps : List (Num K)) (hps : PositionsOf position ps)
    (hcne : cs ≠ []) (hpne : ps ≠ []) (h : ∀ c ∈ cs, ∀ p ∈ ps, Defined rt o c p)
    (hsmall : ∀ c ∈ cs, ∀ p ∈ ps, ¬ Tiny rt o c p) :
    ∃ u, o.tensionUtilisation rt loadCase position = .ok u ∧
      IsGreatest {v | ∃ c ∈ cs, ∃ p ∈ ps, ∃ cap t, o.phiNt rt (.scalar p) = .ok cap ∧
        Reported rt o c p t ∧ v = if t ≤ 0 then 0 else t / cap} u :=
  (utilisation_of_loop hx o loadCase cs hcs position (some ps) (given_ok hps) ps (by rintro _ ⟨⟩; rfl) rfl hcne hpne
    h).1 hsmall

/-- C32: and if one of them is too small the answer is a `ValueError`. -/
theorem C32_too_small {rt : Rt K} (hx : rt.Exact) (o : AS4100 K) (loadCase : CaseArg) (cs : List ℤ)
    (hcs : CasesOf o loadCase cs) (position : PosArg K) (ps : List (Num K)) (hps : PositionsOf position ps)
    (h : ∀ c ∈ cs, ∀ p ∈ ps, Defined rt o c p) (hsmall : ∃ c ∈ cs, ∃ p ∈ ps, Tiny rt o c p) :
    o.tensionUtilisation rt loadCase position = .error .valueError := by
  obtain ⟨c, hc, p, hp, ht⟩ := hsmall
  exact (utilisation_of_loop hx o loadCase cs hcs position (some ps) (given_ok hps) ps (by rintro _ ⟨⟩; rfl) rfl
    (List.ne_nil_of_mem hc) (List.ne_nil_of_mem hp) h).2 ⟨c, hc, p, hp, ht⟩

/-- Steel sections of positive capacity, aligned with the beam, and loads in the load case: capacity and tension are
defined at every position of the beam. -/
theorem defined_of_beam {rt : Rt K} (hx : rt.Exact) (hs : rt.SortOK) (o : AS4100 K) (b : Beam K (Sect K))
    (hb : o.beam = some b) (ha : Aligned o) (ls : List (Num K)) (h : HasLengths b ls) (hls : ls ≠ []) (c : ℤ)
    (hc : LoadedFloat b c) (hphi : 0 < o.phiSteel)
    (hcap : ∀ d ∈ o.dsects, ∃ n, SectionCapacity rt o.kt o.alphaU d n ∧ 0 < n) (p : Num K)
    (hp : p.isInt = false) (hin : 0 ≤ p.val ∧ p.val ≤ total ls) :
    Defined rt o c p ∧ ∃ m, o.phiNt rt (.scalar p) = .ok (o.phiSteel * m) ∧
      IsLeast {n | ∃ d, AtPosition b ls p.val d ∧ SectionCapacity rt o.kt o.alphaU d n} m := by
  have hpe : p = Num.flt p.val := by cases p; simp only at hp; rw [hp]; rfl
  have hreq : Requested (.scalar p) [p.val] := Or.inl ⟨p.val, by rw [← hpe], rfl⟩
  obtain ⟨m, hm, hl⟩ := C29_positions hx o b hb ha ls h hls (.scalar p) [p.val] hreq (by simp) (by simpa using hin)
    (fun d hd => (hcap d hd).imp fun _ h => h.1)
  have hset : {n | ∃ q ∈ [p.val], ∃ d, AtPosition b ls q d ∧ SectionCapacity rt o.kt o.alphaU d n} =
      {n | ∃ d, AtPosition b ls p.val d ∧ SectionCapacity rt o.kt o.alphaU d n} := by
    ext n; simp
  rw [hset] at hl
  have hphiNt : o.phiNt rt (.scalar p) = .ok (o.phiSteel * m) := by
    simp [AS4100.phiNt, hm, bind, Except.bind, pure, Except.pure, hx.mul]
  have hmpos : 0 < m := by
    obtain ⟨d, ⟨i, e, hi, he, hes⟩, fy, fu, h12, h3⟩ := hl.1
    obtain ⟨h1, h2⟩ := strengths_iff.1 h12
    unfold Aligned at ha
    simp only [hb] at ha
    obtain ⟨d', hd', h4, -⟩ := forall₂_mem_left ha (List.mem_map_of_mem (List.mem_of_getElem? he))
    rw [hes] at h4
    obtain ⟨r, mt⟩ := d
    obtain ⟨r', mt'⟩ := d'
    simp only [Sect.circle.injEq, Option.some.injEq] at h4
    obtain ⟨rfl, rfl⟩ := h4
    obtain ⟨n, ⟨fy', fu', g12, g3⟩, hn⟩ := hcap _ hd'
    obtain ⟨g1, g2⟩ := strengths_iff.1 g12
    rw [h1] at g1; rw [h2] at g2
    cases g1; cases g2
    rw [h3, ← g3]; exact hn
  obtain ⟨dt, rows, -, -, -, -, -, hne, -, hten⟩ := C31_beam hx hs o b hb ls h hls c hc (.scalar p) [p.val] hreq
    (by simp) (by simpa using hin)
  refine ⟨⟨o.phiSteel * m, dt, rows.map fun r => (r.1, if r.2 < 0 then 0 else r.2), hphiNt, mul_pos hphi hmpos,
    by simpa using hne, ?_⟩, m, hphiNt, hl⟩
  rw [hten, List.map_map]
  rfl

/-- C32 for a beam of steel circles: the utilisation at float positions on the beam. -/
theorem C32_beam {rt : Rt K} (hx : rt.Exact) (hs : rt.SortOK) (o : AS4100 K) (b : Beam K (Sect K))
    (hb : o.beam = some b) (ha : Aligned o) (ls : List (Num K)) (h : HasLengths b ls) (hls : ls ≠ [])
    (hphi : 0 < o.phiSteel) (hcap : ∀ d ∈ o.dsects, ∃ n, SectionCapacity rt o.kt o.alphaU d n ∧ 0 < n)
    (loadCase : CaseArg) (cs : List ℤ) (hcs : CasesOf o loadCase cs) (hcne : cs ≠ [])
    (hc : ∀ c ∈ cs, LoadedFloat b c) (position : PosArg K) (ps : List K)
    (hps : PositionsOf position (ps.map Num.flt)) (hpne : ps ≠ []) (hin : ∀ p ∈ ps, 0 ≤ p ∧ p ≤ total ls)
    (hsmall : ∀ c ∈ cs, ∀ p ∈ ps, ¬ Tiny rt o c (Num.flt p)) :
    ∃ u, o.tensionUtilisation rt loadCase position = .ok u ∧
      IsGreatest {v | ∃ c ∈ cs, ∃ p ∈ ps, ∃ m t,
        IsLeast {n | ∃ d, AtPosition b ls p d ∧ SectionCapacity rt o.kt o.alphaU d n} m ∧
        Reported rt o c (Num.flt p) t ∧ v = if t ≤ 0 then 0 else t / (o.phiSteel * m)} u := by
  have hdef := fun c (hcm : c ∈ cs) p (hp : p ∈ ps) =>
    defined_of_beam hx hs o b hb ha ls h hls c (hc c hcm) hphi hcap (Num.flt p) rfl (hin p hp)
  obtain ⟨u, hu, hg⟩ := C32_utilisation hx o loadCase cs hcs position _ hps hcne (by simpa using hpne)
    (by
      intro c hcm p hp
      obtain ⟨p, hp', rfl⟩ := List.mem_map.1 hp
      exact (hdef c hcm p hp').1)
    (by
      intro c hcm p hp
      obtain ⟨p, hp', rfl⟩ := List.mem_map.1 hp
      exact hsmall c hcm p hp')
  refine ⟨u, hu, ?_⟩
  convert hg using 1
  ext v
  constructor
  · rintro ⟨c, hcm, p, hp, m, t, hm, ht, rfl⟩
    obtain ⟨-, m', hphi', hm'⟩ := hdef c hcm p hp
    obtain rfl : m = m' := hm.unique hm'
    exact ⟨c, hcm, _, List.mem_map_of_mem hp, _, t, hphi', ht, rfl⟩
  · rintro ⟨c, hcm, p, hp, cap, t, hcp, ht, rfl⟩
    obtain ⟨p, hp', rfl⟩ := List.mem_map.1 hp
    obtain ⟨-, m', hphi', hm'⟩ := hdef c hcm p hp'
    rw [hphi'] at hcp
    cases hcp
    exact ⟨c, hcm, p, hp', m', t, hm', ht, rfl⟩

/-- C31, concretely: at the joint of the two rods the load changes from -10 to 3. -/
example : Samples.obj.getLoads Samples.rt 7 (.scalar (Num.flt 2)) none (.name "N") =
      .ok (some ⟨.flt, 1, [(2, [some (-10)]), (2, [some 3])]⟩) ∧
    Samples.obj.getTension Samples.rt 7 (.scalar (Num.flt 2)) none = .ok ⟨.flt, 1, [(2, [some 0]), (2, [some 3])]⟩ := by
  decide +kernel

/-- The rods have positive capacities. -/
theorem obj_capacity_pos : ∀ d ∈ Samples.obj.dsects, ∃ n,
    SectionCapacity Samples.rt Samples.obj.kt Samples.obj.alphaU d n ∧ 0 < n := by
  intro d hd
  have h : d = ⟨1/100, Samples.steel⟩ ∨ d = ⟨1/50, Samples.steel⟩ := by simpa [Samples.obj] using hd
  rcases h with rfl | rfl
  · exact ⟨_, ⟨250000000, 410000000, strengths_iff.2 ⟨by decide +kernel, by decide +kernel⟩, rfl⟩, by decide +kernel⟩
  · exact ⟨_, ⟨250000000, 410000000, strengths_iff.2 ⟨by decide +kernel, by decide +kernel⟩, rfl⟩, by decide +kernel⟩

/-- There is no tiny tension at the joint. -/
theorem obj_joint_not_tiny : ¬ Tiny Samples.rt Samples.obj 7 (Num.flt 2) := by
  have hcap : Samples.obj.phiNt Samples.rt (.scalar (Num.flt 2)) = .ok Samples.thinCap := by decide +kernel
  have hten : Samples.obj.getTension Samples.rt 7 (.scalar (Num.flt 2)) none =
      .ok ⟨.flt, 1, [((2 : ℚ), (0 : ℚ)), (2, 3)].map fun r => (r.1, [some r.2])⟩ := by decide +kernel
  rintro ⟨cap, t, h1, h2, h3, h4⟩
  rw [hcap] at h1
  cases h1
  obtain ⟨r, hr, rfl⟩ := (reported_iff hten t).1 h2
  simp only [List.mem_cons, List.not_mem_nil, or_false] at hr
  rcases hr with rfl | rfl
  · exact lt_irrefl _ h3
  · have : ¬ (3 / Samples.thinCap ≤ minUtil) := by decide +kernel
    exact this h4

/-- The hypotheses of `C32_beam` can be met; the utilisation at the joint is 3 N over the capacity of the thin rod. -/
example : (∃ u, Samples.obj.tensionUtilisation Samples.rt .none (.scalar (Num.flt 2)) = .ok u ∧
    IsGreatest {v | ∃ c ∈ [7], ∃ p ∈ [(2 : ℚ)], ∃ m t,
        IsLeast {n | ∃ d, AtPosition Samples.rods Samples.rodLens p d ∧
          SectionCapacity Samples.rt Samples.obj.kt Samples.obj.alphaU d n} m ∧
        Reported Samples.rt Samples.obj c (Num.flt p) t ∧
        v = if t ≤ 0 then 0 else t / (Samples.obj.phiSteel * m)} u) ∧
    Samples.obj.tensionUtilisation Samples.rt .none (.scalar (Num.flt 2)) = .ok (3 / Samples.thinCap) := by
  refine ⟨C32_beam (Rt.exact_exact ℚ) (Rt.exact_sortOK ℚ) Samples.obj Samples.rods rfl Samples.obj_aligned
    Samples.rodLens Samples.rods_lens (by simp [Samples.rodLens]) (by decide +kernel) obj_capacity_pos .none [7]
    (Or.inr (Or.inr ⟨rfl, _, _, _, rfl, rfl, rfl⟩)) (by simp) ?_ (.scalar (Num.flt 2)) [2]
    (Or.inr ⟨2, rfl, rfl⟩) (by simp) ?_ ?_, by decide +kernel⟩
  · intro c hc
    obtain rfl : c = 7 := by simpa using hc
    exact Samples.rods_loaded
  · intro p hp
    obtain rfl : p = 2 := by simpa using hp
    decide +kernel
  · intro c hc p hp
    obtain rfl : c = 7 := by simpa using hc
    obtain rfl : p = 2 := by simpa using hp
    exact obj_joint_not_tiny

end BeamDesign
