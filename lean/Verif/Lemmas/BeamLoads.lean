import Verif.Lemmas.BeamList

/-! # Lemmas about `Beam.get_loads` -/

set_option linter.unusedSectionVars false

namespace BeamDesign

open Spec

section
variable {K S : Type} [Field K] [LinearOrder K] [IsStrictOrderedRing K]

/-- Everything `list_positions` lists is on an existing element, at a float local position. -/
theorem listPositions_mem {rt : Rt K} {b : Beam K S} {k : ℤ} (hb : LoadedFloat b k)
    {position : PosArg K} {minPos : Option ℤ} {locs : List (Loc K)}
    (h : b.listPositions rt position minPos (some k) = .ok locs) :
    ∀ l ∈ locs, l.elem < b.elements.length ∧ l.loc.isInt = false := by
  unfold Beam.listPositions at h
  simp only [bind, Except.bind] at h
  split at h
  · cases h
  next ps hps =>
  split at h
  · cases h
  next blocks hblocks =>
  cases h
  intro l hl
  obtain ⟨blk, hblk, hl⟩ := List.mem_flatten.1 hl
  rw [mapM_eq_ok_iff] at hblocks
  obtain ⟨i, hi, hib⟩ := List.getElem_of_mem hblk
  have hr := hblocks.get (by rw [hblocks.length_eq]; exact hi) hi
  simp only [List.get_eq_getElem] at hr
  rw [hib] at hr
  split at hr
  · cases hr
  next es hes =>
  split at hr
  · cases hr
  next ls hls =>
  cases hr
  obtain ⟨blk', hblk', hl⟩ := List.mem_flatten.1 hl
  rw [mapM_eq_ok_iff] at hls
  obtain ⟨j, hj, hjb⟩ := List.getElem_of_mem hblk'
  have hr2 := hls.get (by rw [hls.length_eq]; exact hj) hj
  simp only [List.get_eq_getElem] at hr2
  rw [hjb] at hr2
  unfold Beam.locate at hr2
  simp only [bind, Except.bind] at hr2
  split at hr2
  · cases hr2
  next e he =>
  split at hr2
  · cases hr2
  next len hlen =>
  obtain ⟨m, hm, hmi⟩ := (pyIndex_ok_iff _ _ _).1 he
  have hmlt : m < b.elements.length := by
    by_contra hc
    rw [List.getElem?_eq_none (by omega)] at hm
    cases hm
  have hjes : j < es.length := by rw [hls.length_eq]; exact hj
  have hidx : es[j] = m := by
    rcases hmi with hmi | hmi <;> omega
  split_ifs at hr2 with h0
  · split at hr2
    · cases hr2
    next lp0 hlp0 =>
    split at hr2
    · cases hr2
    next lp hlp =>
    cases hr2
    obtain ⟨q, hq, rfl⟩ := List.mem_map.1 hl
    refine ⟨by simp only [hidx]; exact hmlt, ?_⟩
    obtain ⟨t, ⟨e', he', hlk, -, -⟩, hf⟩ := hb m hmlt
    rw [hm] at he'; cases he'
    simp [Element.loadPositions, Element.case, hlk, LoadCase.loadPositions, bind, Except.bind] at hlp0
    subst hlp0
    refine zeroLengthPositions_flt hlp ?_ q hq
    intro x hx
    obtain ⟨r, -, rfl⟩ := List.mem_map.1 hx
    exact hf
  · split at hr2
    · cases hr2
    next q hq =>
    cases hr2
    rw [List.mem_singleton] at hl
    subst hl
    refine ⟨by simp only [hidx]; exact hmlt, ?_⟩
    unfold Beam.beamToLocal at hq
    simp only [bind, Except.bind] at hq
    split at hq
    · cases hq
    split at hq
    · cases hq
    split at hq
    · cases hq
    split_ifs at hq
    cases hq
    rfl

variable [FloorRing K]

/-- What one pass of the loop adds. -/
def StepRows (rt : Rt K) (b : Beam K S) (k : ℤ) (component : CompArg) (cs : List LComp) (l : Loc K)
    (rows : List (Row K)) : Prop :=
  ∃ t e, HasTable b k l.elem t ∧ b.elements[l.elem]? = some e ∧
    rows = (block rt t.rows cs l.loc.val).map (fun r => (l.pos.val, r.2)) ∧
    e.getLoads rt k (.scalar l.loc) none component
      = .ok (some ⟨.flt, cs.length, cells (block rt t.rows cs l.loc.val)⟩)

theorem cells_setPos (dt : DType) (w : ℕ) (rows : List (Row K)) (p : K) (hdt : dt ≠ .int) :
    (⟨dt, w, cells rows⟩ : Tab K).setPos p = ⟨dt, w, cells (rows.map fun r => (p, r.2))⟩ := by
  unfold Tab.setPos cells
  simp [hdt]

theorem stepRows_exists {rt : Rt K} (hs : rt.SortOK) {b : Beam K S} {k : ℤ} (hb : LoadedFloat b k)
    {component : CompArg} {cs : List LComp} (hc : component.resolve = .ok cs) (hcs : cs ≠ [])
    (l : Loc K) (h1 : l.elem < b.elements.length) (h2 : l.loc.isInt = false) :
    ∃ rows, StepRows rt b k component cs l rows := by
  obtain ⟨⟨isInt, trows⟩, ht, hf⟩ := hb l.elem h1
  obtain ⟨e, he, hlk, hwf, hne⟩ := ht
  simp only at hf hwf hne
  subst hf
  refine ⟨_, ⟨false, trows⟩, e, ⟨e, he, hlk, hwf, hne⟩, he, rfl, ?_⟩
  unfold Element.getLoads Element.case
  simp only [hlk, bind, Except.bind]
  have hlist : (⟨some ⟨false, trows⟩⟩ : LoadCase K).listPositions rt none (.scalar l.loc) = .ok [l.loc] := by
    simp [LoadCase.listPositions, h2, sortedSet_singleton]
  have := getLoad_eq hs hwf hne hlist (by simp) (by simp) hc hcs
  rw [this]
  simp only [List.map_cons, List.map_nil, List.flatMap_cons, List.flatMap_nil, List.append_nil]
  congr 3
  simp [answerDType]

theorem loadStep_some {rt : Rt K} {b : Beam K S} {k : ℤ}
    {component : CompArg} {cs : List LComp} {l : Loc K} {rows : List (Row K)}
    (h : StepRows rt b k component cs l rows) (acc : List (Row K)) :
    b.loadStep rt k component (some ⟨.flt, cs.length, cells acc⟩) l
      = .ok (some ⟨.flt, cs.length, cells (acc ++ rows)⟩) := by
  obtain ⟨t, e, -, he, rfl, hg⟩ := h
  unfold Beam.loadStep
  simp only [pyIndex_nat _ _ _ he, hg, bind, Except.bind, cells_setPos .flt _ _ _ (by simp)]
  simp [Tab.vstack, DType.join, cells, pure, Except.pure]

theorem loadStep_none {rt : Rt K} {b : Beam K S} {k : ℤ}
    {component : CompArg} {cs : List LComp} {l : Loc K} {rows : List (Row K)}
    (h : StepRows rt b k component cs l rows) :
    b.loadStep rt k component none l = .ok (some ⟨.flt, cs.length, cells rows⟩) := by
  obtain ⟨t, e, -, he, rfl, hg⟩ := h
  unfold Beam.loadStep
  simp only [pyIndex_nat _ _ _ he, hg, bind, Except.bind, cells_setPos .flt _ _ _ (by simp)]
  rfl

theorem foldl_loads {rt : Rt K} {b : Beam K S} {k : ℤ}
    {component : CompArg} {cs : List LComp} {locs : List (Loc K)} {blocks : List (List (Row K))}
    (h : List.Forall₂ (StepRows rt b k component cs) locs blocks) (acc : List (Row K)) :
    locs.foldlM (b.loadStep rt k component) (some ⟨.flt, cs.length, cells acc⟩)
      = .ok (some ⟨.flt, cs.length, cells (acc ++ blocks.flatten)⟩) := by
  induction h generalizing acc with
  | nil => simp [pure, Except.pure]
  | cons h1 _ ih =>
    rw [List.foldlM_cons, loadStep_some h1]
    simp only [bind, Except.bind]
    rw [ih, List.flatten_cons, List.append_assoc]

/-- `get_loads` on a beam loaded with tables of floats. -/
theorem getLoads_eq {rt : Rt K} (hs : rt.SortOK) {b : Beam K S} {k : ℤ} (hb : LoadedFloat b k)
    {component : CompArg} {cs : List LComp} (hc : component.resolve = .ok cs) (hcs : cs ≠ [])
    {position : PosArg K} {minPos : Option ℤ} {locs : List (Loc K)} (hne : locs ≠ [])
    (h : b.listPositions rt position minPos (some k) = .ok locs) :
    ∃ blocks, List.Forall₂ (StepRows rt b k component cs) locs blocks ∧
      b.getLoads rt k position minPos component
        = .ok (some ⟨.flt, cs.length, cells blocks.flatten⟩) := by
  have hex : ∀ locs : List (Loc K), (∀ l ∈ locs, l.elem < b.elements.length ∧ l.loc.isInt = false) →
      ∃ blocks, List.Forall₂ (StepRows rt b k component cs) locs blocks := by
    intro locs
    induction locs with
    | nil => intro _; exact ⟨[], List.Forall₂.nil⟩
    | cons l t ih =>
      intro hl
      obtain ⟨bs, hbs⟩ := ih fun x hx => hl x (List.mem_cons_of_mem _ hx)
      obtain ⟨r, hr⟩ := stepRows_exists hs hb hc hcs l (hl l (by simp)).1 (hl l (by simp)).2
      exact ⟨r :: bs, List.Forall₂.cons hr hbs⟩
  obtain ⟨blocks, hblocks⟩ := hex locs (listPositions_mem hb h)
  refine ⟨blocks, hblocks, ?_⟩
  unfold Beam.getLoads
  rw [h]
  simp only [bind, Except.bind]
  cases hblocks with
  | nil => exact absurd rfl hne
  | cons h1 h2 =>
    rw [List.foldlM_cons, loadStep_none h1]
    simp only [bind, Except.bind]
    rw [foldl_loads h2, List.flatten_cons]

theorem stepRows_loadBlock {rt : Rt K} (hx : rt.Exact) {b : Beam K S} {k : ℤ} {component : CompArg}
    {cs : List LComp} {l : Loc K} {rows : List (Row K)} (h : StepRows rt b k component cs l rows) :
    LoadBlock b k cs l rows := by
  obtain ⟨t, e, ht, he, rfl, -⟩ := h
  exact ⟨t, _, ht, block_answer hx ht.choose_spec.2.2.2 cs l.loc.val, rfl⟩

end

end BeamDesign
