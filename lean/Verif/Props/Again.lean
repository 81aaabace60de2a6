import Verif.Lemmas.Again
import Verif.Spec.Samples

/-!
# C130: reported loads can be entered again
-/

set_option linter.unusedSectionVars false

namespace BeamDesign

open Spec

section
variable {K : Type} [Field K] [LinearOrder K] [IsStrictOrderedRing K] [FloorRing K]

theorem sameAnswers_of_block {rt : Rt K} (hs : rt.SortOK) {i i' : Bool} {rows rows' : List (LRow K)} (hw : WellFormed rows)
    (hw' : WellFormed rows') (hne : rows ≠ []) (hne' : rows' ≠ [])
    (hb : ∀ cs x, block rt rows' cs x = block rt rows cs x) :
    SameAnswers rt ⟨some ⟨i, rows⟩⟩ ⟨some ⟨i', rows'⟩⟩ := by
  intro position xs component cs hreq hxs hc hcs
  rw [asks_iff] at hc
  obtain ⟨ps, h1, h2, h3⟩ := requested_listPositions rt (⟨some ⟨i, rows⟩⟩ : LoadCase K) hreq
  have h1' : (⟨some ⟨i', rows'⟩⟩ : LoadCase K).listPositions rt none position = .ok ps := by
    rw [← h1]
    rcases hreq with ⟨x, rfl, -⟩ | ⟨l, rfl, -⟩ <;> rfl
  have hps0 : ps ≠ [] := by
    rintro rfl
    obtain ⟨x, hx'⟩ := List.exists_mem_of_ne_nil xs hxs
    simpa using (h3 x).2 hx'
  have h4 := getLoad_eq hs hw' hne' h1' h2 hps0 hc hcs
  rw [funext (hb cs)] at h4
  exact ⟨_, _, _, getLoad_eq hs hw hne h1 h2 hps0 hc hcs, h4⟩

theorem entered_same {rt : Rt K} (hx : rt.Exact) (hs : rt.SortOK) (isInt : Bool) (rows : List (LRow K))
    (hwf : WellFormed rows) (hne : rows ≠ []) {position : PosArg K} {minPos : Option ℤ} {ps : List (Num K)}
    (hlist : (⟨some ⟨isInt, rows⟩⟩ : LoadCase K).listPositions rt minPos position = .ok ps)
    (hps : (ps.map (·.val)).Pairwise (· < ·)) (h01 : ∀ p ∈ ps.map (·.val), 0 ≤ p ∧ p ≤ 1)
    (hcov : ∀ r ∈ rows, r.pos ∈ ps.map (·.val)) :
    ∃ tab again, (⟨some ⟨isInt, rows⟩⟩ : LoadCase K).getLoad rt position minPos .none = .ok (some tab) ∧
      LoadCase.new (entered tab) = .ok again ∧ SameAnswers rt ⟨some ⟨isInt, rows⟩⟩ again := by
  have hps0 : ps ≠ [] := by
    rintro rfl
    obtain ⟨r, hr⟩ := List.exists_mem_of_ne_nil rows hne
    simpa using hcov r hr
  have hpv0 : ps.map (·.val) ≠ [] := by simpa using hps0
  obtain ⟨h1, h2⟩ := block_refine hx (ps.map (·.val)) [] rows hps h01 hwf hne (by simp) hcov
  simp only [List.nil_append] at h1 h2
  refine ⟨_, ⟨some ⟨_, _⟩⟩, getLoad_eq hs hwf hne hlist hps hps0 rfl (by simp [LComp.all]),
    (entered_new rt rows _ _ hpv0 _).2 ⟨h1, rfl⟩, sameAnswers_of_block hs hwf h1 hne ?_ h2⟩
  intro h
  obtain ⟨p, hp⟩ := List.exists_mem_of_ne_nil _ hpv0
  exact rowsAt_ne rt rows p (List.flatMap_eq_nil_iff.1 h p hp)

/-! ## C130 -/

/-- C130: all six components listed at a number of positions, entered again as the loads of a new load case: they are
accepted, and the new load case answers every explicit request like the first. -/
theorem C130_min_positions {rt : Rt K} (hx : rt.Exact) (hs : rt.SortOK) (isInt : Bool) (rows : List (LRow K))
    (hwf : WellFormed rows) (hne : rows ≠ []) (n : ℕ) :
    ∃ tab again, (⟨some ⟨isInt, rows⟩⟩ : LoadCase K).getLoad rt .none (some n) .none = .ok (some tab) ∧
      LoadCase.new (entered tab) = .ok again ∧ SameAnswers rt ⟨some ⟨isInt, rows⟩⟩ again := by
  obtain ⟨ps, h1, h2, h3, h4, -⟩ := C03_min_positions hx isInt rows hwf n
  refine entered_same hx hs isInt rows hwf hne h1 h2 ?_ fun r hr => (h3 _).2 (Or.inl (List.mem_map_of_mem hr))
  intro p hp
  obtain ⟨q, hq, rfl⟩ := List.mem_map.1 hp
  exact h4 q hq

/-- C130: the same for the loads at a list of positions of the element which contains every stored position. -/
theorem C130_positions {rt : Rt K} (hx : rt.Exact) (hs : rt.SortOK) (isInt : Bool) (rows : List (LRow K))
    (hwf : WellFormed rows) (hne : rows ≠ []) (position : PosArg K) (xs : List K) (hreq : Requested position xs)
    (h01 : ∀ x ∈ xs, 0 ≤ x ∧ x ≤ 1) (hcov : ∀ r ∈ rows, r.pos ∈ xs) :
    ∃ tab again, (⟨some ⟨isInt, rows⟩⟩ : LoadCase K).getLoad rt position none .none = .ok (some tab) ∧
      LoadCase.new (entered tab) = .ok again ∧ SameAnswers rt ⟨some ⟨isInt, rows⟩⟩ again := by
  obtain ⟨ps, h1, h2, h3⟩ := requested_listPositions rt (⟨some ⟨isInt, rows⟩⟩ : LoadCase K) hreq
  exact entered_same hx hs isInt rows hwf hne h1 h2 (fun p hp => h01 p ((h3 p).1 hp)) fun r hr => (h3 _).2 (hcov r hr)

theorem entered_again {rt : Rt K} (hs : rt.SortOK) (isInt : Bool) (rows : List (LRow K))
    (hwf : WellFormed rows) (hne : rows ≠ []) {position : PosArg K} {minPos : Option ℤ} {ps : List (Num K)}
    (hlist : (⟨some ⟨isInt, rows⟩⟩ : LoadCase K).listPositions rt minPos position = .ok ps)
    (hps : (ps.map (·.val)).Pairwise (· < ·)) (hps0 : ps ≠ []) (tab : Tab K) (again : LoadCase K)
    (ht : (⟨some ⟨isInt, rows⟩⟩ : LoadCase K).getLoad rt position minPos .none = .ok (some tab))
    (ha : LoadCase.new (entered tab) = .ok again) {position' : PosArg K} {minPos' : Option ℤ} {ps' : List (Num K)}
    (hlist' : again.listPositions rt minPos' position' = .ok ps') (hpp : ps'.map (·.val) = ps.map (·.val))
    (component : CompArg) (cs : List LComp) (hc : component.resolve = .ok cs) (hcs : cs ≠ []) :
    again.getLoad rt position' minPos' component = (⟨some ⟨isInt, rows⟩⟩ : LoadCase K).getLoad rt position minPos component := by
  have hpv0 : ps.map (·.val) ≠ [] := by simpa using hps0
  rw [getLoad_eq hs hwf hne hlist hps hps0 (component := .none) rfl (by simp [LComp.all])] at ht
  cases ht
  obtain ⟨h1, h2⟩ := (entered_new rt rows _ _ hpv0 _).1 ha
  obtain ⟨loads⟩ := again
  cases h2
  have hne' : (ps.map (·.val)).flatMap (rowsAt rt rows) ≠ [] := by
    intro h
    obtain ⟨p, hp⟩ := List.exists_mem_of_ne_nil _ hpv0
    exact rowsAt_ne rt rows p (List.flatMap_eq_nil_iff.1 h p hp)
  rw [getLoad_eq hs h1 hne' hlist' (hpp ▸ hps) (fun h => hps0 (by simpa [h] using hpp.symm)) hc hcs,
    getLoad_eq hs hwf hne hlist hps hps0 hc hcs, hpp]
  congr 3
  · have hall : ∀ p ∈ ps.map (·.val), p ∈ ((ps.map (·.val)).flatMap (rowsAt rt rows)).map (·.pos) :=
      fun p hp => (mem_refined rt rows _ p).2 hp
    generalize ps.map (·.val) = l at hall
    unfold answerDType
    rw [if_pos hall]
    split_ifs <;> simp_all
  · congr 1
    refine List.flatMap_congr fun p hp => ?_
    exact block_reported rt rows _ hps cs p hp

/-- C130: whatever the arithmetic, when the listed loads are accepted as loads of a new load case, listing the loads of the
new load case in the same way, for any components, gives the very array the first one gives: entering and listing again
adds no further rounding. -/
theorem C130_again {rt : Rt K} (hs : rt.SortOK) (isInt : Bool) (rows : List (LRow K)) (hwf : WellFormed rows)
    (hne : rows ≠ []) (n : ℤ) (tab : Tab K) (again : LoadCase K)
    (ht : (⟨some ⟨isInt, rows⟩⟩ : LoadCase K).getLoad rt .none (some n) .none = .ok (some tab))
    (ha : LoadCase.new (entered tab) = .ok again) (component : CompArg) (cs : List LComp) (hc : Asks component cs)
    (hcs : cs ≠ []) :
    again.getLoad rt .none (some n) component = (⟨some ⟨isInt, rows⟩⟩ : LoadCase K).getLoad rt .none (some n) component := by
  rw [asks_iff] at hc
  rcases hl : (⟨some ⟨isInt, rows⟩⟩ : LoadCase K).listPositions rt (some n) .none with e | ps
  · simp [LoadCase.getLoad, hl, bind, Except.bind] at ht
  obtain ⟨lin, hlin, hpseq, hlen⟩ : ∃ lin, linspace rt 0 1 n = .ok lin ∧
      ps = sortedSet ((rows.map fun r => (⟨r.pos, isInt⟩ : Num K)) ++ lin.map Num.flt) ∧ ¬ (ps.length : ℤ) < n := by
    simp only [LoadCase.listPositions, LoadCase.loadPositions, bind, Except.bind] at hl
    rcases hlin : linspace rt 0 1 n with e | lin
    · simp [hlin] at hl
    · simp only [hlin] at hl
      split_ifs at hl with h
      cases hl
      exact ⟨lin, rfl, rfl, h⟩
  have hps : (ps.map (·.val)).Pairwise (· < ·) := hpseq ▸ sortedSet_sorted _
  have hmem : ∀ v, v ∈ ps.map (·.val) ↔ v ∈ rows.map (·.pos) ∨ v ∈ lin := by
    intro v
    rw [hpseq, sortedSet_vals, List.map_append, List.mem_append, List.map_map, List.map_map]
    simp [Function.comp_def]
  have hps0 : ps ≠ [] := by
    rintro rfl
    obtain ⟨r, hr⟩ := List.exists_mem_of_ne_nil rows hne
    simpa using (hmem r.pos).2 (Or.inl (List.mem_map_of_mem hr))
  have hpv0 : ps.map (·.val) ≠ [] := by simpa using hps0
  have hloads : ∃ i, again.loads = some ⟨i, (ps.map (·.val)).flatMap (rowsAt rt rows)⟩ := by
    rw [getLoad_eq hs hwf hne hl hps hps0 (component := .none) rfl (by simp [LComp.all])] at ht
    cases ht
    exact ⟨_, ((entered_new rt rows _ _ hpv0 _).1 ha).2⟩
  obtain ⟨i, hloads⟩ := hloads
  set ps' := sortedSet ((((ps.map (·.val)).flatMap (rowsAt rt rows)).map fun r => (⟨r.pos, i⟩ : Num K))
    ++ lin.map Num.flt) with hps'
  have hpp : ps'.map (·.val) = ps.map (·.val) := by
    refine sorted_unique (sortedSet_sorted _) hps fun v => ?_
    rw [sortedSet_vals, List.map_append, List.mem_append, List.map_map, List.map_map, ← mem_refined rt rows (ps.map (·.val)) v]
    have : v ∈ lin → v ∈ ((ps.map (·.val)).flatMap (rowsAt rt rows)).map (·.pos) :=
      fun h => (mem_refined rt rows _ v).2 ((hmem v).2 (Or.inr h))
    simp only [Function.comp_def, Num.flt, List.map_id']
    exact ⟨fun h => h.elim id this, Or.inl⟩
  refine entered_again hs isInt rows hwf hne hl hps hps0 tab again ht ha (ps' := ps') ?_ hpp component cs hc hcs
  have hl' : ps'.length = ps.length := by simpa using congrArg List.length hpp
  simp only [LoadCase.listPositions, LoadCase.loadPositions, hloads, hlin, bind, Except.bind]
  rw [← hps', hl', if_neg hlen]

/-- C130: the same for the loads at a list of positions. -/
theorem C130_again_positions {rt : Rt K} (hs : rt.SortOK) (isInt : Bool) (rows : List (LRow K)) (hwf : WellFormed rows)
    (hne : rows ≠ []) (position : PosArg K) (xs : List K) (hreq : Requested position xs) (hxs : xs ≠ []) (tab : Tab K)
    (again : LoadCase K) (ht : (⟨some ⟨isInt, rows⟩⟩ : LoadCase K).getLoad rt position none .none = .ok (some tab))
    (ha : LoadCase.new (entered tab) = .ok again) (component : CompArg) (cs : List LComp) (hc : Asks component cs)
    (hcs : cs ≠ []) :
    again.getLoad rt position none component = (⟨some ⟨isInt, rows⟩⟩ : LoadCase K).getLoad rt position none component := by
  rw [asks_iff] at hc
  obtain ⟨ps, h1, h2, h3⟩ := requested_listPositions rt (⟨some ⟨isInt, rows⟩⟩ : LoadCase K) hreq
  have h1' : again.listPositions rt none position = .ok ps := by
    rw [← h1]
    rcases hreq with ⟨x, rfl, -⟩ | ⟨l, rfl, -⟩ <;> rfl
  have hps0 : ps ≠ [] := by
    rintro rfl
    obtain ⟨x, hx'⟩ := List.exists_mem_of_ne_nil xs hxs
    simpa using (h3 x).2 hx'
  exact entered_again hs isInt rows hwf hne h1 h2 hps0 tab again ht ha h1' rfl component cs hc hcs

end

/-- The sample load case lists its loads at four positions; entered again it answers as before at a fifth. -/
def listed (rt : Rt ℚ) (position : PosArg ℚ) (minPos : Option ℤ) : Py (LoadCase ℚ) := do
  match ← Samples.lc.getLoad rt position minPos .none with
  | some tab => LoadCase.new (entered tab)
  | none => .error .typeError

example : ∃ tab again, Samples.lc.getLoad Samples.rt .none (some ((4 : ℕ) : ℤ)) .none = .ok (some tab) ∧
    LoadCase.new (entered tab) = .ok again ∧ SameAnswers Samples.rt Samples.lc again :=
  C130_min_positions (Rt.exact_exact ℚ) (Rt.exact_sortOK ℚ) false Samples.rows Samples.wf (by decide) 4

example : (do (← listed Samples.rt .none (some 4)).getLoad Samples.rt (.list [Num.flt (1/4), Num.flt (1/2)]) none .none)
    = Samples.lc.getLoad Samples.rt (.list [Num.flt (1/4), Num.flt (1/2)]) none .none := by decide +kernel

example : listed Samples.rt .none (some 4) ≠ .ok Samples.lc := by decide +kernel

/-- The same in double precision: the array listed again is the very same. -/
example : (do (← listed Rt.binary64 .none (some 4)).getLoad Rt.binary64 .none (some 4) .none)
    = Samples.lc.getLoad Rt.binary64 .none (some 4) .none := by decide +kernel

/-- A list of positions that leaves out a stored one is not enough. -/
example : (do (← listed Samples.rt (.list [Num.flt 0, Num.flt 1]) none).getLoad Samples.rt (.scalar (Num.flt (1/2))) none .none)
    ≠ Samples.lc.getLoad Samples.rt (.scalar (Num.flt (1/2))) none .none := by decide +kernel

end BeamDesign
