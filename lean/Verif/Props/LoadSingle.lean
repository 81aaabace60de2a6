import Verif.Model.LoadSingle
import Verif.Props.Load
import Verif.Spec.Samples

/-! # Property C64: `get_load` agrees with the single position helper -/

set_option linter.unusedSectionVars false
set_option linter.unusedSimpArgs false

namespace BeamDesign

open Spec

section
variable {K : Type} [Field K] [LinearOrder K] [IsStrictOrderedRing K]

theorem take_count_of_ge {p : K} : ∀ {rows : List (LRow K)},
    rows.Pairwise (fun a b => a.pos ≤ b.pos) → (∀ r ∈ rows, p ≤ r.pos) →
    rows.take ((rows.map (·.pos)).count p) = rows.filter (fun r => decide (r.pos = p))
  | [], _, _ => by simp
  | a :: t, hw, hge => by
    rw [List.pairwise_cons] at hw
    by_cases h : a.pos = p
    · simp [h, take_count_of_ge hw.2 (fun r hr => hge r (by simp [hr]))]
    · have hlt : p < a.pos := lt_of_le_of_ne (hge a (by simp)) (Ne.symm h)
      have hnone : ∀ r ∈ a :: t, r.pos ≠ p := by
        intro r hr
        rcases List.mem_cons.1 hr with rfl | hr
        · exact h
        · exact (lt_of_lt_of_le hlt (hw.1 r hr)).ne'
      have h0 : ((a :: t).map (·.pos)).count p = 0 := by
        rw [List.count_eq_zero]
        intro hm
        obtain ⟨r, hr, e⟩ := List.mem_map.1 hm
        exact hnone r hr e
      have hf : (a :: t).filter (fun r => decide (r.pos = p)) = [] := by
        rw [List.filter_eq_nil_iff]
        intro r hr
        simpa using hnone r hr
      rw [h0, hf, List.take_zero]

/-- the rows `np.unique` points to are the rows at the position -/
theorem run_eq_filter {p : K} : ∀ {rows : List (LRow K)},
    rows.Pairwise (fun a b => a.pos ≤ b.pos) →
    (rows.drop (positionRun p (rows.map (·.pos))).1).take (positionRun p (rows.map (·.pos))).2
      = rows.filter (fun r => decide (r.pos = p))
  | [], _ => by simp
  | a :: t, hw => by
    by_cases h : a.pos = p
    · have := take_count_of_ge (p := p) hw (fun r hr => by
        rw [← h]
        rcases List.mem_cons.1 hr with rfl | hr
        · exact le_rfl
        · exact (List.pairwise_cons.1 hw).1 r hr)
      simpa [positionRun, List.findIdx_cons, h] using this
    · have ih := run_eq_filter (p := p) (List.pairwise_cons.1 hw).2
      simp only [positionRun] at ih ⊢
      simp only [List.map_cons, List.findIdx_cons, h, decide_false, cond_false, List.drop_succ_cons,
        List.filter_cons, Bool.false_eq_true, if_false]
      rw [List.count_cons_of_ne (Ne.symm (Ne.symm h))]
      exact ih

theorem interpGo_at {rt : Rt K} (c : LComp) (p : K) : ∀ (rest : List (LRow K)) (a : LRow K),
    (a :: rest).Pairwise (fun a b => a.pos ≤ b.pos) → a.pos ≤ p →
    ∀ r, (a :: rest).filter (fun r => decide (r.pos = p)) = [r] →
    interpGo rt p (a.pos, a.get c) (rest.map fun r => (r.pos, r.get c)) = r.get c
  | [], a, _, _, r, hr => by
    have : r ∈ [a] := List.mem_of_mem_filter (hr ▸ List.mem_singleton_self r)
    rw [List.mem_singleton] at this
    subst this
    rfl
  | b :: rest, a, hw, ha, r, hr => by
    simp only [List.map_cons, interpGo]
    by_cases hb : b.pos ≤ p
    · rw [if_pos hb]
      apply interpGo_at c p rest b (List.pairwise_cons.1 hw).2 hb
      by_cases hap : a.pos = p
      · have hbp : b.pos = p := le_antisymm hb (hap ▸ (List.pairwise_cons.1 hw).1 b (by simp))
        simp [List.filter_cons, hap, hbp] at hr
      · simpa [List.filter_cons, hap] using hr
    · rw [if_neg hb]
      have hgt : ∀ x ∈ b :: rest, x.pos ≠ p := by
        intro x hx
        have : b.pos ≤ x.pos := by
          rcases List.mem_cons.1 hx with rfl | hx
          · exact le_rfl
          · exact (List.pairwise_cons.1 (List.pairwise_cons.1 hw).2).1 x hx
        exact (lt_of_lt_of_le (not_le.1 hb) this).ne'
      have hnil : (b :: rest).filter (fun r => decide (r.pos = p)) = [] := by
        rw [List.filter_eq_nil_iff]
        intro x hx
        simpa using hgt x hx
      rw [List.filter_cons, hnil] at hr
      by_cases hap : a.pos = p
      · simp only [hap, decide_true, if_true, List.cons.injEq, and_true] at hr
        rw [if_pos hap, hr]
      · simp [hap] at hr

/-- `np.interp` at a position stored once gives the stored value, whatever the rounding -/
theorem interpVal_at (rt : Rt K) {rows : List (LRow K)} (hw : rows.Pairwise (fun a b => a.pos ≤ b.pos))
    (c : LComp) (p : K) (r : LRow K) (hr : rows.filter (fun r => decide (r.pos = p)) = [r]) :
    interpVal rt rows c p = r.get c := by
  have hmem : r ∈ rows := List.mem_of_mem_filter (hr ▸ List.mem_singleton_self r)
  have hrp : r.pos = p := by
    have : r ∈ rows.filter (fun r => decide (r.pos = p)) := hr ▸ List.mem_singleton_self r
    simpa using (List.mem_filter.1 this).2
  cases rows with
  | nil => simp at hmem
  | cons a t =>
    have hap : a.pos ≤ p := by
      rw [← hrp]
      rcases List.mem_cons.1 hmem with rfl | h
      · exact le_rfl
      · exact (List.pairwise_cons.1 hw).1 r h
    have hlast : ((a.pos, a.get c) :: t.map fun r => (r.pos, r.get c)).getLast (by simp)
        = (((a :: t).getLast (by simp)).pos, ((a :: t).getLast (by simp)).get c) := by
      have : ((a.pos, a.get c) :: t.map fun r => (r.pos, r.get c))
          = (a :: t).map (fun r => (r.pos, r.get c)) := rfl
      simp only [this, List.getLast_map]
    have hpl : p ≤ ((a :: t).getLast (by simp)).pos := by
      rw [← hrp]
      have hsplit := List.dropLast_append_getLast (l := a :: t) (by simp)
      rw [← hsplit] at hmem hw
      rcases List.mem_append.1 hmem with h | h
      · exact (List.pairwise_append.1 hw).2.2 r h _ (by simp)
      · rw [List.mem_singleton] at h
        rw [← h]
    simp only [interpVal, List.map_cons, npInterp]
    rw [if_neg (not_lt.2 hap), hlast]
    simp only
    rw [if_neg (not_lt.2 hpl)]
    exact interpGo_at c p t a hw hap r hr

/-- the answers at a position: one function of the component for each row -/
def answersAt (rt : Rt K) (rows : List (LRow K)) (p : K) : List (LComp → K) :=
  if p ∈ rows.map (·.pos) then (rows.filter (fun r => decide (r.pos = p))).map (fun r => r.get)
  else [fun c => interpVal rt rows c p]

theorem block_answersAt (rt : Rt K) (rows : List (LRow K)) (cs : List LComp) (p : K) :
    block rt rows cs p = (answersAt rt rows p).map fun g => (p, cs.map g) := by
  unfold block answersAt
  split_ifs
  · rw [List.map_map]
    apply List.map_congr_left
    intro r hr
    have := (List.mem_filter.1 hr).2
    simp only [Function.comp]
    rw [of_decide_eq_true this]
  · rfl

theorem singleComponent_eq (rt : Rt K) {isInt : Bool} {rows : List (LRow K)} (hwf : WellFormed rows)
    (hne : rows ≠ []) (p : K) (component : CompArg) (c : LComp) (hc : component.single = .ok c) :
    (⟨some ⟨isInt, rows⟩⟩ : LoadCase K).singleComponent rt p component
      = .ok ((answersAt rt rows p).map fun g => some (g c)) := by
  simp only [LoadCase.singleComponent, hc, bind, Except.bind, pure, Except.pure, LoadCase.inputLoads]
  by_cases h1 : rows.length = 1
  · rw [if_pos h1]
    obtain ⟨r, rfl⟩ := List.length_eq_one_iff.1 h1
    unfold answersAt
    by_cases hp : p = r.pos
    · subst hp; simp
    · have : interpVal rt [r] c p = r.get c := by
        by_cases ha : p < r.pos <;> by_cases hb : r.pos < p <;>
          simp [interpVal, npInterp, interpGo, ha, hb]
      rw [if_neg (by simpa using hp)]
      simp [this]
  · rw [if_neg h1]
    by_cases h2 : 1 < (positionRun p (rows.map (·.pos))).2
    · rw [if_pos h2, run_eq_filter hwf.1]
      have : p ∈ rows.map (·.pos) := List.count_pos_iff.1 (lt_trans Nat.zero_lt_one h2)
      rw [answersAt, if_pos this, List.map_map]
      rfl
    · rw [if_neg h2, npInterp_ok rt hne]
      unfold answersAt
      split_ifs with hp
      · have h3 : (rows.filter (fun r => decide (r.pos = p))).length = 1 := by
          have hcnt : (rows.map (·.pos)).count p = 1 := by
            have := List.count_pos_iff.2 hp
            simp only [positionRun] at h2
            omega
          rw [← hcnt, List.count, List.countP_map, List.countP_eq_length_filter]
          rfl
        obtain ⟨r, hr⟩ := List.length_eq_one_iff.1 h3
        rw [hr, interpVal_at rt hwf.1 c p r hr]
        rfl
      · rfl

theorem hstackCols_map {α β γ : Type} (F : γ → β → α) (B : List β) (c : γ) (cs : List γ) :
    hstackCols ((c :: cs).map fun x => B.map (F x)) = .ok (B.map fun b => (c :: cs).map fun x => F x b) := by
  simp only [List.map_cons, hstackCols]
  rw [if_pos (by simp)]
  congr 1
  apply List.ext_getElem
  · simp
  · intro i h1 h2
    have hi : i < B.length := by simpa using h2
    simp only [List.getElem_map, List.getElem_range]
    rw [List.filterMap_cons]
    simp only [List.getElem?_map, List.getElem?_eq_getElem hi, Option.map_some]
    congr 1
    induction cs with
    | nil => rfl
    | cons d ds ih =>
      simp only [List.map_cons, List.filterMap_cons, List.getElem?_map, List.getElem?_eq_getElem hi,
        Option.map_some]
      rw [ih] <;> simp [hi]

theorem singlePosition_eq (rt : Rt K) {isInt : Bool} {rows : List (LRow K)} (hwf : WellFormed rows)
    (hne : rows ≠ []) (p : K) (h0 : 0 ≤ p) (h1 : p ≤ 1) (component : CompArg) (hl : ∀ cs, component ≠ .list cs)
    (hi : ∀ xs, component ≠ .items xs)
    (cs : List LComp) (hc : component.resolve = .ok cs) :
    (⟨some ⟨isInt, rows⟩⟩ : LoadCase K).singlePosition rt p component = .ok (cells (block rt rows cs p)) := by
  have hone : ∀ c, component ≠ .none → component.single = .ok c → cs = [c] →
      (⟨some ⟨isInt, rows⟩⟩ : LoadCase K).singlePosition rt p component = .ok (cells (block rt rows cs p)) := by
    intro c hn hsing hcs
    subst hcs
    rw [LoadCase.singlePosition, if_pos ⟨h0, h1⟩, if_neg hn]
    simp only [bind, Except.bind, pure, Except.pure, singleComponent_eq rt hwf hne p component c hsing,
      block_answersAt, cells, List.map_map]
    rfl
  cases component with
  | none =>
    cases hc
    rw [LoadCase.singlePosition, if_pos ⟨h0, h1⟩, if_pos rfl]
    simp only [bind, Except.bind, pure, Except.pure, singleComponent_eq rt hwf hne p (.comp _) _ rfl]
    have := hstackCols_map (fun (c : LComp) (g : LComp → K) => some (g c)) (answersAt rt rows p)
      LComp.VX [.VY, .N, .MX, .MY, .T]
    simp only [List.map_cons, List.map_nil] at this
    rw [this]
    simp only [block_answersAt, cells, List.map_map]
    rfl
  | list l => exact absurd rfl (hl l)
  | items l => exact absurd rfl (hi l)
  | name s =>
    simp only [CompArg.resolve, bind, Except.bind, pure, Except.pure] at hc
    cases hs : LComp.ofName s with
    | error e => rw [hs] at hc; cases hc
    | ok c => rw [hs] at hc; cases hc; exact hone c (by simp) hs rfl
  | idx i =>
    simp only [CompArg.resolve, bind, Except.bind, pure, Except.pure] at hc
    cases hs : LComp.ofValue i with
    | error e => rw [hs] at hc; cases hc
    | ok c => rw [hs] at hc; cases hc; exact hone c (by simp) hs rfl
  | comp c => cases hc; exact hone c (by simp) rfl rfl

theorem getLoad_flat {rt : Rt K} (hs : rt.SortOK) {isInt : Bool} {rows : List (LRow K)} (hwf : WellFormed rows)
    (hne : rows ≠ []) (p : K) {component : CompArg} {cs : List LComp} (hc : component.resolve = .ok cs)
    (hcs : cs ≠ []) :
    ((⟨some ⟨isInt, rows⟩⟩ : LoadCase K).getLoad rt (.scalar (Num.flt p)) none component).map
      (Option.map Tab.rows) = .ok (some (cells (block rt rows cs p))) := by
  rw [getLoad_eq hs hwf hne (ps := [Num.flt p]) rfl (by simp) (by simp) hc hcs]
  simp [Except.map, Num.flt]

/-- a resolved component is never the empty list, unless an empty list was given -/
theorem resolve_ne_nil {component : CompArg} (hl : ∀ cs, component ≠ .list cs) (hi : ∀ xs, component ≠ .items xs) {cs : List LComp}
    (hc : component.resolve = .ok cs) : cs ≠ [] := by
  cases component with
  | none => cases hc; simp [LComp.all]
  | list l => exact absurd rfl (hl l)
  | items l => exact absurd rfl (hi l)
  | name s =>
    simp only [CompArg.resolve, bind, Except.bind, pure, Except.pure] at hc
    cases hs : LComp.ofName s with
    | error e => rw [hs] at hc; cases hc
    | ok c => rw [hs] at hc; cases hc; simp
  | idx i =>
    simp only [CompArg.resolve, bind, Except.bind, pure, Except.pure] at hc
    cases hs : LComp.ofValue i with
    | error e => rw [hs] at hc; cases hc
    | ok c => rw [hs] at hc; cases hc; simp
  | comp c => cases hc; simp

/-- what is stored is well formed -/
theorem new_wellFormed {raw : RawLoads K} {lc : LoadCase K} (h : LoadCase.new raw = .ok lc) :
    lc = ⟨none⟩ ∨ ∃ b rows, WellFormed rows ∧ lc = ⟨some ⟨b, rows⟩⟩ := by
  obtain ⟨loads⟩ := lc
  rcases (C01_accepts_iff raw _).1 h with ⟨_, h⟩ | ⟨_, row, b, _, _, hw, h, _⟩ | ⟨_, rows, b, _, _, hw, h, _⟩ <;>
    simp only at h <;> subst h
  · exact Or.inl rfl
  · exact Or.inr ⟨b, _, hw, rfl⟩
  · exact Or.inr ⟨b, _, hw, rfl⟩

/-! ## C64 -/

/-- C64: at every position from 0 to 1, for every load case and every choice of one or all components, `get_load`
gives the rows the single position helper gives, and raises what it raises; whatever the rounding and the
unstable sort.  (Only for a case without loads, when all components are asked for, the number of columns
differs: see `C64_unloaded_columns` and C61.) -/
theorem C64_helper {rt : Rt K} (hs : rt.SortOK) (raw : RawLoads K) (lc : LoadCase K) (hnew : LoadCase.new raw = .ok lc)
    (p : K) (h0 : 0 ≤ p) (h1 : p ≤ 1) (component : CompArg) (hl : ∀ cs, component ≠ .list cs)
    (hi : ∀ xs, component ≠ .items xs)
    (hu : lc.loads = none → component ≠ .none) :
    (lc.getLoad rt (.scalar (Num.flt p)) none component).map (Option.map Tab.rows)
      = (lc.singlePosition rt p component).map some := by
  have hsingle : ∀ e, component.resolve = .error e → component ≠ .none ∧ component.single = .error e := by
    intro e he
    cases component with
    | none => cases he
    | list l => cases he
    | items l => exact absurd rfl (hi l)
    | comp c => cases he
    | name s =>
      simp only [CompArg.resolve, bind, Except.bind, pure, Except.pure] at he
      cases hs : LComp.ofName s with
      | error e' => rw [hs] at he; cases he; exact ⟨by simp, hs⟩
      | ok c => rw [hs] at he; cases he
    | idx i =>
      simp only [CompArg.resolve, bind, Except.bind, pure, Except.pure] at he
      cases hs : LComp.ofValue i with
      | error e' => rw [hs] at he; cases he; exact ⟨by simp, hs⟩
      | ok c => rw [hs] at he; cases he
  have hlist : ∀ lc : LoadCase K, lc.listPositions rt none (.scalar (Num.flt p)) = .ok [Num.flt p] := fun _ => rfl
  rcases new_wellFormed hnew with rfl | ⟨b, rows, hwf, rfl⟩
  · rw [LoadCase.singlePosition, if_pos ⟨h0, h1⟩, if_neg (hu rfl)]
    rfl
  · cases hc : component.resolve with
    | error e =>
      obtain ⟨hn, hsg⟩ := hsingle e hc
      rw [LoadCase.singlePosition, if_pos ⟨h0, h1⟩, if_neg hn]
      simp only [LoadCase.getLoad, hlist, LoadCase.singleComponent, hsg, hc, bind, Except.bind, Except.map]
    | ok cs =>
      by_cases hne : rows = []
      · subst hne
        have hG : (⟨some ⟨b, []⟩⟩ : LoadCase K).getLoad rt (.scalar (Num.flt p)) none component
            = .error .valueError := by
          obtain ⟨c, cs', rfl⟩ := List.exists_cons_of_ne_nil (resolve_ne_nil hl hi hc)
          have hss : (sortedSet ([] : List (Num K))).map (·.val) = [] := rfl
          simp [LoadCase.getLoad, hlist, hc, bind, Except.bind, hss, multiInterp, npInterp]
        have hC : ∀ comp c, comp.single = .ok c →
            (⟨some ⟨b, []⟩⟩ : LoadCase K).singleComponent rt p comp = .error .valueError := by
          intro comp c hsg
          simp [LoadCase.singleComponent, hsg, bind, Except.bind, positionRun, LoadCase.inputLoads, npInterp,
            pure, Except.pure]
        have hH : (⟨some ⟨b, []⟩⟩ : LoadCase K).singlePosition rt p component = .error .valueError := by
          rw [LoadCase.singlePosition, if_pos ⟨h0, h1⟩]
          split_ifs with hn
          · simp only [hC (.comp .VX) .VX rfl, bind, Except.bind]
          · obtain ⟨c, hcs⟩ : ∃ c, component.single = .ok c := by
              cases hsg : component.single with
              | ok c => exact ⟨c, rfl⟩
              | error e =>
                cases component <;> simp_all [CompArg.single, CompArg.resolve, bind, Except.bind]
            simp only [hC component c hcs, bind, Except.bind]
        rw [hG, hH]
        rfl
      · rw [getLoad_flat hs hwf hne p hc (resolve_ne_nil hl hi hc),
          singlePosition_eq rt hwf hne p h0 h1 component hl hi cs hc]
        rfl

example : (Samples.lc.getLoad (Rt.exact ℚ) (.scalar (Num.flt (1/2))) none .none).map (Option.map Tab.rows)
      = (Samples.lc.singlePosition (Rt.exact ℚ) (1/2) .none).map some ∧
    Samples.lc.singlePosition (Rt.exact ℚ) (3/4) (.name "N") = .ok [(3/4, [some (-3)])] :=
  ⟨C64_helper (Rt.exact_sortOK ℚ) Samples.raw Samples.lc (by decide +kernel) _ (by norm_num) (by norm_num) _
    (by simp) (by simp) (by simp [Samples.lc]), by decide +kernel⟩

/-- C64: asking `get_load` for many positions is asking the helper for each distinct one in ascending order and
stacking the rows, as the loop it replaced did. -/
theorem C64_loop {rt : Rt K} (hs : rt.SortOK) (raw : RawLoads K) (lc : LoadCase K) (hnew : LoadCase.new raw = .ok lc)
    (xs : List (Num K)) (hxs : xs ≠ []) (h01 : ∀ x ∈ xs, 0 ≤ x.val ∧ x.val ≤ 1) (component : CompArg)
    (hl : ∀ cs, component ≠ .list cs) (hi : ∀ xs, component ≠ .items xs) (tab : Tab K) (hload : lc.loads ≠ none)
    (hok : lc.getLoad rt (.list xs) none component = .ok (some tab)) :
    ∃ ps blocks, Distinct (xs.map (·.val)) ps ∧
      List.Forall₂ (fun p rows => lc.singlePosition rt p component = .ok rows) ps blocks ∧
      tab.rows = blocks.flatten := by
  obtain ⟨ps, hlist, hd⟩ := requested_listPositions rt lc (position := .list xs) (Or.inr ⟨xs, rfl, rfl⟩)
  have hps0 : ps ≠ [] := by
    rintro rfl
    obtain ⟨x, hx⟩ := List.exists_mem_of_ne_nil xs hxs
    have := (hd.2 x.val).2 (List.mem_map.2 ⟨x, hx, rfl⟩)
    simp at this
  rcases new_wellFormed hnew with rfl | ⟨b, rows, hwf, rfl⟩
  · exact absurd rfl hload
  · cases hc : component.resolve with
    | error e =>
      simp only [LoadCase.getLoad, hlist, hc, bind, Except.bind] at hok
      cases hok
    | ok cs =>
      have hcs := resolve_ne_nil hl hi hc
      by_cases hne : rows = []
      · subst hne
        exfalso
        obtain ⟨c, cs', rfl⟩ := List.exists_cons_of_ne_nil hcs
        obtain ⟨q, ps', rfl⟩ := List.exists_cons_of_ne_nil hps0
        have hss : (sortedSet ([] : List (Num K))).map (·.val) = [] := rfl
        simp [LoadCase.getLoad, hlist, hc, bind, Except.bind, hss, multiInterp, npInterp] at hok
      · rw [getLoad_eq hs hwf hne hlist hd.1 hps0 hc hcs] at hok
        refine ⟨ps.map (·.val), (ps.map (·.val)).map fun p => cells (block rt rows cs p), hd, ?_, ?_⟩
        · rw [List.forall₂_map_right_iff]
          apply List.forall₂_same.2
          intro p hp
          obtain ⟨x, hx, rfl⟩ := List.mem_map.1 ((hd.2 p).1 hp)
          exact singlePosition_eq rt hwf hne _ (h01 x hx).1 (h01 x hx).2 component hl hi cs hc
        · cases hok
          rw [cells, List.map_flatMap]
          rw [List.flatMap_def]
          rfl

example : ∃ ps blocks tab, Distinct [3/4, 1/2] ps ∧
    List.Forall₂ (fun p rows => Samples.lc.singlePosition (Rt.exact ℚ) p (.name "N") = .ok rows) ps blocks ∧
    tab.rows = blocks.flatten ∧
    Samples.lc.getLoad (Rt.exact ℚ) (.list [Num.flt (3/4), Num.flt (1/2)]) none (.name "N") = .ok (some tab) := by
  refine (C64_loop (Rt.exact_sortOK ℚ) Samples.raw Samples.lc (by decide +kernel)
    [Num.flt (3/4), Num.flt (1/2)] (by simp) (by decide +kernel) (.name "N") (by simp) (by simp)
    ⟨.flt, 1, [(1/2, [some 3]), (1/2, [some 4]), (3/4, [some (-3)])]⟩ (by simp [Samples.lc]) (by decide +kernel)).imp ?_
  rintro ps ⟨blocks, h1, h2, h3⟩
  exact ⟨blocks, _, h1, h2, h3, by decide +kernel⟩

/-- C64: outside the element the helper raises `AssertionError`, where `get_load` answers. -/
theorem C64_outside {rt : Rt K} (hs : rt.SortOK) (isInt : Bool) (rows : List (LRow K)) (hwf : WellFormed rows)
    (hne : rows ≠ []) (p : K) (hp : p < 0 ∨ 1 < p) (c : LComp) :
    (⟨some ⟨isInt, rows⟩⟩ : LoadCase K).singlePosition rt p (.comp c) = .error .assertionError ∧
    ∃ tab, (⟨some ⟨isInt, rows⟩⟩ : LoadCase K).getLoad rt (.scalar (Num.flt p)) none (.comp c) = .ok (some tab) := by
  constructor
  · rw [LoadCase.singlePosition, if_neg]
    rintro ⟨h0, h1⟩
    rcases hp with h | h
    · exact absurd h (not_lt.2 h0)
    · exact absurd h (not_lt.2 h1)
  · exact ⟨_, getLoad_eq hs hwf hne (ps := [Num.flt p]) rfl (by simp) (by simp) rfl (by simp)⟩

example : Samples.lc.singlePosition (Rt.exact ℚ) 2 (.comp .N) = .error .assertionError :=
  (C64_outside (Rt.exact_sortOK ℚ) false Samples.rows Samples.wf (by simp [Samples.rows]) 2 (by norm_num) .N).1

/-- C64: the helper for one component needs a component: for a load case with loads, `None` or a list raises `AttributeError`; a name, a
number or a member of the enumeration is looked up as `get_load` does. -/
theorem C64_component (rt : Rt K) (isInt : Bool) (rows : List (LRow K)) (p : K) :
    (⟨some ⟨isInt, rows⟩⟩ : LoadCase K).singleComponent rt p .none = .error .attributeError ∧
    (∀ cs, (⟨some ⟨isInt, rows⟩⟩ : LoadCase K).singleComponent rt p (.list cs) = .error .attributeError) ∧
    (⟨some ⟨isInt, rows⟩⟩ : LoadCase K).inputLoads .none = .error .attributeError ∧
    ∀ c, (⟨some ⟨isInt, rows⟩⟩ : LoadCase K).inputLoads (.comp c) = .ok (some (rows.map fun r => (r.pos, r.get c))) :=
  ⟨rfl, fun _ => rfl, rfl, fun _ => rfl⟩

/-- C64: the hypothesis about cases without loads is needed: asked for all components the helper gives six
`None`, `get_load` one. -/
theorem C64_unloaded_columns (rt : Rt K) (p : K) (h0 : 0 ≤ p) (h1 : p ≤ 1) :
    (⟨none⟩ : LoadCase K).singlePosition rt p .none = .ok [(p, [none, none, none, none, none, none])] ∧
    ((⟨none⟩ : LoadCase K).getLoad rt (.scalar (Num.flt p)) none .none).map (Option.map Tab.rows)
      = .ok (some [(p, [none])]) := by
  constructor
  · rw [LoadCase.singlePosition, if_pos ⟨h0, h1⟩]
    rfl
  · rfl

example : (⟨none⟩ : LoadCase ℚ).singlePosition (Rt.exact ℚ) (1/3) .none
    = .ok [(1/3, [none, none, none, none, none, none])] :=
  (C64_unloaded_columns (Rt.exact ℚ) (1/3) (by norm_num) (by norm_num)).1

end

end BeamDesign
