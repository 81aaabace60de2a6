import Verif.Lemmas.Lists
import Verif.Spec.Load

/-! # Lemmas about `LoadCase.getLoad` -/

set_option linter.unusedSectionVars false

namespace BeamDesign

/-! ## `mapM` in `Except` -/

theorem mapM_ok {α β : Type} {f : α → Py β} {g : α → β} (l : List α)
    (h : ∀ a ∈ l, f a = .ok (g a)) : l.mapM f = .ok (l.map g) := by
  induction l with
  | nil => rfl
  | cons a t ih =>
    rw [List.mapM_cons, h a (by simp), ih (fun b hb => h b (List.mem_cons_of_mem _ hb))]
    rfl

theorem mapM_eq_ok_iff {α β : Type} {f : α → Py β} (l : List α) (ys : List β) :
    l.mapM f = .ok ys ↔ List.Forall₂ (fun x y => f x = .ok y) l ys := by
  induction l generalizing ys with
  | nil =>
    constructor
    · intro h; cases h; exact List.Forall₂.nil
    · intro h; cases h; rfl
  | cons a t ih =>
    rw [List.mapM_cons]
    constructor
    · intro h
      cases ha : f a with
      | error e => rw [ha] at h; cases h
      | ok b =>
        rw [ha] at h
        cases ht : t.mapM f with
        | error e => rw [ht] at h; cases h
        | ok bs =>
          rw [ht] at h
          cases h
          exact List.Forall₂.cons ha ((ih bs).1 ht)
    · intro h
      cases h with
      | cons h1 h2 =>
        rw [h1, (ih _).2 h2]; rfl

/-! ## Interpolation -/

section
variable {K : Type} [Field K] [LinearOrder K] [IsStrictOrderedRing K]

open Spec

theorem entry_eq (r : LRow K) : entry r = r.get := rfl

theorem asks_iff {component : CompArg} {cs : List LComp} : Asks component cs ↔ component.resolve = .ok cs := by
  cases component with
  | none => simp [Asks, CompArg.resolve, LComp.all, eq_comm]
  | comp c => simp [Asks, CompArg.resolve, eq_comm]
  | list l => simp [Asks, CompArg.resolve, eq_comm]
  | items l =>
    simp only [Asks, CompArg.resolve, mapM_eq_ok_iff]
    constructor
    · rintro rfl
      rw [List.forall₂_map_left_iff]
      exact List.forall₂_same.2 fun _ _ => rfl
    · intro h
      induction h with
      | nil => rfl
      | @cons x c _ _ h1 _ ih =>
        cases x with
        | inl d => cases h1; rw [ih]; rfl
        | inr => cases h1
  | name s =>
    simp only [Asks, CompArg.resolve, LComp.ofName, List.mem_cons, Prod.mk.injEq, List.not_mem_nil, or_false]
    constructor
    · rintro ⟨c, rfl, ⟨rfl, rfl⟩ | ⟨rfl, rfl⟩ | ⟨rfl, rfl⟩ | ⟨rfl, rfl⟩ | ⟨rfl, rfl⟩ | ⟨rfl, rfl⟩⟩ <;> rfl
    · intro h
      split_ifs at h
      all_goals first
        | (cases h; exact ⟨_, rfl, by simp_all⟩)
        | cases h
  | idx i =>
    simp only [Asks, CompArg.resolve, LComp.ofValue, List.mem_cons, Prod.mk.injEq, List.not_mem_nil, or_false]
    constructor
    · rintro ⟨c, rfl, ⟨rfl, rfl⟩ | ⟨rfl, rfl⟩ | ⟨rfl, rfl⟩ | ⟨rfl, rfl⟩ | ⟨rfl, rfl⟩ | ⟨rfl, rfl⟩⟩ <;> rfl
    · intro h
      split_ifs at h
      all_goals first
        | (cases h; exact ⟨_, rfl, by simp_all⟩)
        | cases h

theorem interpGo_onCurve {rt : Rt K} (hx : rt.Exact) (c : LComp) (p : K) (rest : List (LRow K)) :
    ∀ (pre : List (LRow K)) (a : LRow K), a.pos < p → (∀ r ∈ rest, r.pos ≠ p) →
      OnCurve (pre ++ a :: rest) c p
        (interpGo rt p (a.pos, a.get c) (rest.map fun r => (r.pos, r.get c))) := by
  induction rest with
  | nil =>
    intro pre a ha _
    exact Or.inr (Or.inl ⟨pre, a, rfl, ha, rfl⟩)
  | cons b t ih =>
    intro pre a ha hne
    have hb : b.pos ≠ p := hne b (by simp)
    simp only [List.map_cons, interpGo]
    split_ifs with h1 h2
    · have := ih (pre ++ [a]) b (lt_of_le_of_ne h1 hb) (fun r hr => hne r (List.mem_cons_of_mem _ hr))
      simpa using this
    · exact absurd h2 (ne_of_lt ha)
    · push Not at h1
      refine Or.inr (Or.inr ⟨pre, a, b, t, rfl, ha, h1, ?_⟩)
      rw [hx.add, hx.mul, hx.div, hx.sub, hx.sub, hx.sub, entry_eq, entry_eq]
      have : b.pos - a.pos ≠ 0 := by
        have := ha.trans h1
        exact sub_ne_zero.2 this.ne'
      field_simp
      ring

/-- The value interpolated by the model (0 when the table is empty). -/
def interpVal (rt : Rt K) (rows : List (LRow K)) (c : LComp) (p : K) : K :=
  match npInterp rt none none p (rows.map fun r => (r.pos, r.get c)) with
  | .ok v => v
  | .error _ => 0

theorem npInterp_ok (rt : Rt K) {rows : List (LRow K)} (hne : rows ≠ []) (c : LComp) (p : K) :
    npInterp rt none none p (rows.map fun r => (r.pos, r.get c)) = .ok (interpVal rt rows c p) := by
  cases rows with
  | nil => exact absurd rfl hne
  | cons a t =>
    simp only [interpVal, List.map_cons, npInterp]
    split_ifs <;> rfl

theorem interpVal_onCurve {rt : Rt K} (hx : rt.Exact) {rows : List (LRow K)} (hne : rows ≠ [])
    (c : LComp) (p : K) (hp : p ∉ rows.map (·.pos)) :
    OnCurve rows c p (interpVal rt rows c p) := by
  cases rows with
  | nil => exact absurd rfl hne
  | cons a t =>
    have hpos : ∀ r ∈ a :: t, r.pos ≠ p := fun r hr h => hp (List.mem_map.2 ⟨r, hr, h⟩)
    have happ := List.dropLast_append_getLast (l := a :: t) (by simp)
    have hlast : ((a.pos, a.get c) :: t.map fun r => (r.pos, r.get c)).getLast (by simp)
        = (((a :: t).getLast (by simp)).pos, ((a :: t).getLast (by simp)).get c) := by
      have : ((a.pos, a.get c) :: t.map fun r => (r.pos, r.get c))
          = (a :: t).map (fun r => (r.pos, r.get c)) := rfl
      simp only [this, List.getLast_map]
    simp only [interpVal, List.map_cons, npInterp]
    by_cases h1 : p < a.pos
    · simp only [h1, if_true]
      exact Or.inl ⟨a, t, rfl, h1, rfl⟩
    · simp only [h1, if_false]
      rw [hlast]
      by_cases h2 : ((a :: t).getLast (by simp)).pos < p
      · simp only [h2, if_true]
        exact Or.inr (Or.inl ⟨_, _, happ.symm, h2, rfl⟩)
      · simp only [h2, if_false]
        have ha : a.pos < p := lt_of_le_of_ne (not_lt.1 h1) (hpos a (by simp))
        exact interpGo_onCurve hx c p t [] a ha (fun r hr => hpos r (List.mem_cons_of_mem _ hr))

theorem zip_map_pos_get (rows : List (LRow K)) (c : LComp) :
    (rows.map (·.pos)).zip (rows.map fun r => r.get c) = rows.map fun r => (r.pos, r.get c) := by
  induction rows with
  | nil => rfl
  | cons a t ih => simp [ih]

theorem multiInterp_ok (rt : Rt K) {rows : List (LRow K)} (hne : rows ≠ []) {cs : List LComp}
    (hcs : cs ≠ []) {xs : List K} (hxs : xs ≠ []) :
    multiInterp rt (some xs) (rows.map (·.pos)) (cs.map fun c => rows.map fun r => r.get c) none none
      = .ok (xs.map fun p => cs.map fun c => interpVal rt rows c p) := by
  cases xs with
  | nil => exact absurd rfl hxs
  | cons x xs =>
    simp only [multiInterp]
    rw [if_neg (by simpa using hcs)]
    apply mapM_ok
    intro p _
    rw [show (cs.map fun c => interpVal rt rows c p)
        = (cs.map fun c => rows.map fun r => r.get c).map
            (fun f => match npInterp rt none none p ((rows.map (·.pos)).zip f) with
              | .ok v => v
              | .error _ => 0) by
      rw [List.map_map]
      apply List.map_congr_left
      intro c _
      simp only [Function.comp, zip_map_pos_get, interpVal]]
    apply mapM_ok
    intro f hf
    obtain ⟨c, _, rfl⟩ := List.mem_map.1 hf
    rw [zip_map_pos_get, npInterp_ok rt hne]

/-! ## The combination of direct and interpolated rows -/

/-- numbering used by `combineRows` -/
def numberRows (l : List (Row K)) : List (ℕ × Row K) := l.zipIdx.map (fun x => (x.2, x.1))

theorem numberRows_snd (l : List (Row K)) : (numberRows l).map (·.2) = l := by
  rw [numberRows, List.map_map]
  exact List.zipIdx_map_fst 0 l

theorem mem_numberRows {l : List (Row K)} {a : ℕ × Row K} (h : a ∈ numberRows l) :
    l[a.1]? = some a.2 := by
  rw [numberRows, List.mem_map] at h
  obtain ⟨⟨x, i⟩, hx, rfl⟩ := h
  exact List.mem_zipIdx_iff_getElem?.1 hx

theorem numberRows_sorted (l : List (Row K)) : (numberRows l).Pairwise (fun a b => a.1 ≤ b.1) := by
  have : ((numberRows l).map (·.1)).Pairwise (· ≤ ·) := by
    rw [numberRows, List.map_map]
    have : (l.zipIdx.map ((fun a : ℕ × Row K => a.1) ∘ fun x => (x.2, x.1))) = List.range' 0 l.length := by
      exact List.zipIdx_map_snd 0 l
    rw [this]
    exact (List.pairwise_lt_range' (s := 0) (n := l.length) 1).imp (fun h => le_of_lt h)
  rwa [List.pairwise_map] at this

/-- The unstable sort keeps the order of the rows at a position when these come from one array. -/
theorem qsort_filter {rt : Rt K} (hs : rt.SortOK) (d i l : List (Row K)) (p : K)
    (hl : (numberRows d ++ numberRows i).filter (fun a => decide (a.2.1 = p))
      = (numberRows l).filter (fun a => decide (a.2.1 = p))) :
    (rt.qsort (numberRows d ++ numberRows i)).filter (fun a => decide (a.2.1 = p))
      = (numberRows l).filter (fun a => decide (a.2.1 = p)) := by
  obtain ⟨hp, hsrt⟩ := hs (numberRows d ++ numberRows i)
  have hperm := hp.filter (fun a => decide (a.2.1 = p))
  rw [hl] at hperm
  refine hperm.eq_of_pairwise (le := fun a b => a.1 ≤ b.1) ?_
    (hsrt.sublist List.filter_sublist) ((numberRows_sorted l).sublist List.filter_sublist)
  intro a b ha hb hab hba
  have ha' := mem_numberRows (List.mem_filter.1 (hperm.mem_iff.1 ha)).1
  have hb' := mem_numberRows (List.mem_filter.1 hb).1
  have hidx : a.1 = b.1 := le_antisymm hab hba
  rw [hidx, hb'] at ha'
  exact Prod.ext hidx (Option.some.inj ha').symm

theorem numberRows_filter_snd (l : List (Row K)) (p : K) :
    ((numberRows l).filter (fun a => decide (a.2.1 = p))).map (·.2)
      = l.filter (fun a => decide (a.1 = p)) := by
  conv_rhs => rw [← numberRows_snd l]
  rw [List.filter_map]
  rfl

theorem numberRows_filter_nil {l : List (Row K)} {p : K} (h : ∀ a ∈ l, a.1 ≠ p) :
    (numberRows l).filter (fun a => decide (a.2.1 = p)) = [] := by
  rw [List.filter_eq_nil_iff]
  intro a ha
  have := List.mem_of_getElem? (mem_numberRows ha)
  simpa using h _ this

/-- The block of rows at one position. -/
def block (rt : Rt K) (rows : List (LRow K)) (cs : List LComp) (p : K) : List (Row K) :=
  if p ∈ rows.map (·.pos) then
    (rows.filter (fun r => decide (r.pos = p))).map (fun r => (r.pos, cs.map r.get))
  else [(p, cs.map fun c => interpVal rt rows c p)]

theorem block_answer {rt : Rt K} (hx : rt.Exact) {rows : List (LRow K)} (hne : rows ≠ [])
    (cs : List LComp) (p : K) : AnswerAt rows cs p (block rt rows cs p) := by
  unfold block
  split_ifs with h
  · refine Or.inl ⟨h, ?_⟩
    apply List.map_congr_left
    intro r hr
    have := (List.mem_filter.1 hr).2
    rw [of_decide_eq_true this, entry_eq]
  · refine Or.inr ⟨h, _, rfl, ?_⟩
    rw [List.forall₂_map_right_iff]
    exact List.forall₂_same.2 fun c _ => interpVal_onCurve hx hne c p h

theorem combineRows_eq {rt : Rt K} (hs : rt.SortOK) {rows : List (LRow K)}
    (cs : List LComp) {ps : List K} (hps : ps.Pairwise (· < ·)) :
    combineRows rt
      ((rows.filter (fun r => decide (r.pos ∈ ps.filter (fun p => decide (p ∈ rows.map (·.pos)))))).map
        (fun r => ((r.pos, cs.map r.get) : Row K)))
      ((ps.filter (fun p => decide (p ∉ rows.map (·.pos)))).map
        (fun p => ((p, cs.map fun c => interpVal rt rows c p) : Row K)))
    = ps.flatMap (block rt rows cs) := by
  set D := (rows.filter (fun r => decide (r.pos ∈ ps.filter (fun p => decide (p ∈ rows.map (·.pos)))))).map
        (fun r => ((r.pos, cs.map r.get) : Row K)) with hD
  set I := (ps.filter (fun p => decide (p ∉ rows.map (·.pos)))).map
        (fun p => ((p, cs.map fun c => interpVal rt rows c p) : Row K)) with hI
  have hDmem : ∀ a ∈ D, a.1 ∈ ps ∧ a.1 ∈ rows.map (·.pos) := by
    intro a ha
    rw [hD, List.mem_map] at ha
    obtain ⟨r, hr, rfl⟩ := ha
    have := (List.mem_filter.1 hr).2
    have := List.mem_filter.1 (of_decide_eq_true this)
    exact ⟨this.1, of_decide_eq_true this.2⟩
  have hImem : ∀ a ∈ I, a.1 ∈ ps ∧ a.1 ∉ rows.map (·.pos) := by
    intro a ha
    rw [hI, List.mem_map] at ha
    obtain ⟨p, hp, rfl⟩ := ha
    have := List.mem_filter.1 hp
    exact ⟨this.1, of_decide_eq_true this.2⟩
  have hcomb : combineRows rt D I =
      ((rt.qsort (numberRows D ++ numberRows I)).insertionSort (fun a b => a.2.1 ≤ b.2.1)).map (·.2) := rfl
  rw [hcomb]
  set Q := (rt.qsort (numberRows D ++ numberRows I)).insertionSort (fun a b => a.2.1 ≤ b.2.1) with hQ
  have hQkey : ∀ a ∈ Q, a.2.1 ∈ ps := by
    intro a ha
    rw [hQ, List.mem_insertionSort, (hs _).1.mem_iff, List.mem_append] at ha
    rcases ha with ha | ha
    · exact (hDmem _ (List.mem_of_getElem? (mem_numberRows ha))).1
    · exact (hImem _ (List.mem_of_getElem? (mem_numberRows ha))).1
  have hQs : Q.Pairwise (fun a b => a.2.1 ≤ b.2.1) :=
    insertionSort_key_sorted (fun a : ℕ × Row K => a.2.1) _
  rw [eq_flatMap_fibres (fun a : ℕ × Row K => a.2.1) Q ps hQs hps hQkey, List.map_flatMap]
  apply List.flatMap_congr
  intro p hp
  rw [hQ, insertionSort_filter (fun a : ℕ × Row K => a.2.1)]
  by_cases hpl : p ∈ rows.map (·.pos)
  · rw [qsort_filter hs D I D p]
    · rw [numberRows_filter_snd, block, if_pos hpl, hD, List.filter_map]
      congr 1
      rw [List.filter_filter]
      apply List.filter_congr
      intro r _
      by_cases hr : r.pos = p
      · subst hr
        simp only [Function.comp, decide_true, Bool.true_and, decide_eq_true_eq]
        rw [List.mem_filter]
        exact ⟨hp, decide_eq_true hpl⟩
      · simp [hr]
    · rw [List.filter_append, numberRows_filter_nil (l := I), List.append_nil]
      intro a ha h
      exact (hImem a ha).2 (h ▸ hpl)
  · rw [qsort_filter hs D I I p]
    · rw [numberRows_filter_snd, block, if_neg hpl, hI, List.filter_map]
      have hcomp : ((fun a : Row K => decide (a.1 = p)) ∘
          (fun p => ((p, cs.map fun c => interpVal rt rows c p) : Row K))) = fun q => decide (q = p) := rfl
      rw [hcomp, List.filter_filter]
      have : ps.filter (fun a => decide (a = p) && decide (a ∉ rows.map (·.pos))) = [p] := by
        have h1 : ps.filter (fun a => decide (a = p) && decide (a ∉ rows.map (·.pos)))
            = ps.filter (fun a => a == p) := by
          apply List.filter_congr
          intro q _
          by_cases hq : q = p
          · subst hq; simp [hpl]
          · simp [hq]
        rw [h1, List.filter_beq,
          List.count_eq_one_of_mem (hps.imp (fun h => ne_of_lt h)) hp]
        rfl
      rw [this]
      rfl
    · rw [List.filter_append, numberRows_filter_nil (l := D), List.nil_append]
      intro a ha h
      exact hpl (h ▸ (hDmem a ha).2)

/-- The dtype of the answer. -/
def answerDType (isInt : Bool) (lp ps : List K) : DType :=
  if ∀ p ∈ ps, p ∈ lp then (if isInt then .int else .flt) else .flt

/-- `get_load` on a loaded, non-empty, well formed table, in closed form. -/
theorem getLoad_eq {rt : Rt K} (hs : rt.SortOK) {isInt : Bool} {rows : List (LRow K)}
    (hwf : WellFormed rows) (hne : rows ≠ []) {position : PosArg K} {minPos : Option ℤ}
    {ps : List (Num K)}
    (hlist : (⟨some ⟨isInt, rows⟩⟩ : LoadCase K).listPositions rt minPos position = .ok ps)
    (hps : (ps.map (·.val)).Pairwise (· < ·)) (hps0 : ps ≠ [])
    {component : CompArg} {cs : List LComp} (hc : component.resolve = .ok cs) (hcs : cs ≠ []) :
    (⟨some ⟨isInt, rows⟩⟩ : LoadCase K).getLoad rt position minPos component
      = .ok (some ⟨answerDType isInt (rows.map (·.pos)) (ps.map (·.val)), cs.length,
          cells ((ps.map (·.val)).flatMap (block rt rows cs))⟩) := by
  set psv := ps.map (·.val) with hpsv
  have hpsv0 : psv ≠ [] := by simpa [hpsv] using hps0
  unfold LoadCase.getLoad
  rw [hlist]
  simp only [bind, Except.bind, hc, pure, Except.pure, ← hpsv]
  by_cases hshort : psv = (sortedSet ((rows.map (·.pos)).map Num.flt)).map (·.val)
  · rw [if_pos hshort]
    have hmem : ∀ v, v ∈ psv ↔ v ∈ rows.map (·.pos) := by
      intro v
      rw [hshort, sortedSet_vals, List.map_map]
      simp
    have hdt : answerDType isInt (rows.map (·.pos)) psv = if isInt then .int else .flt := by
      rw [answerDType, if_pos (fun p hp => (hmem p).1 hp)]
    rw [hdt]
    have : rows.map (fun r => ((r.pos, cs.map r.get) : Row K)) = psv.flatMap (block rt rows cs) := by
      conv_lhs => rw [eq_flatMap_fibres (fun r : LRow K => r.pos) rows psv hwf.1 hps
        (fun a ha => (hmem _).2 (List.mem_map.2 ⟨a, ha, rfl⟩)), List.map_flatMap]
      apply List.flatMap_congr
      intro p hp
      rw [block, if_pos ((hmem p).1 hp)]
    rw [this]
  · rw [if_neg hshort]
    by_cases hI : psv.filter (fun p => decide (p ∉ rows.map (·.pos))) = []
    · rw [if_pos hI]
      have hall : ∀ p ∈ psv, p ∈ rows.map (·.pos) := by
        intro p hp
        have := List.filter_eq_nil_iff.1 hI p hp
        simpa using this
      have hDeq : psv.filter (fun p => decide (p ∈ rows.map (·.pos))) = psv := by
        rw [List.filter_eq_self]
        intro p hp
        exact decide_eq_true (hall p hp)
      rw [hDeq, if_neg hpsv0, answerDType, if_pos hall]
      have : (rows.filter (fun r => decide (r.pos ∈ psv))).map (fun r => ((r.pos, cs.map r.get) : Row K))
          = psv.flatMap (block rt rows cs) := by
        conv_lhs => rw [eq_flatMap_fibres (fun r : LRow K => r.pos)
          (rows.filter (fun r => decide (r.pos ∈ psv))) psv (hwf.1.sublist List.filter_sublist) hps
          (fun a ha => of_decide_eq_true (List.mem_filter.1 ha).2), List.map_flatMap]
        apply List.flatMap_congr
        intro p hp
        rw [block, if_pos (hall p hp), List.filter_filter]
        congr 1
        apply List.filter_congr
        intro r _
        by_cases hr : r.pos = p
        · simp [hr, hp]
        · simp [hr]
      rw [this]
    · rw [if_neg hI, multiInterp_ok rt hne hcs hI]
      have hdt : answerDType isInt (rows.map (·.pos)) psv = .flt := by
        rw [answerDType, if_neg]
        intro hall
        apply hI
        rw [List.filter_eq_nil_iff]
        intro p hp
        simpa using hall p hp
      have hzip : (psv.filter (fun p => decide (p ∉ rows.map (·.pos)))).zip
            ((psv.filter (fun p => decide (p ∉ rows.map (·.pos)))).map
              fun p => cs.map fun c => interpVal rt rows c p)
          = (psv.filter (fun p => decide (p ∉ rows.map (·.pos)))).map
              (fun p => ((p, cs.map fun c => interpVal rt rows c p) : Row K)) := by
        generalize psv.filter (fun p => decide (p ∉ rows.map (·.pos))) = l
        induction l with
        | nil => rfl
        | cons a t ih => simp [ih]
      simp only [hzip]
      by_cases hD : psv.filter (fun p => decide (p ∈ rows.map (·.pos))) = []
      · rw [if_pos hD, hdt]
        have hnone : ∀ p ∈ psv, p ∉ rows.map (·.pos) := by
          intro p hp
          have := List.filter_eq_nil_iff.1 hD p hp
          simpa using this
        have hIeq : psv.filter (fun p => decide (p ∉ rows.map (·.pos))) = psv := by
          rw [List.filter_eq_self]
          intro p hp
          exact decide_eq_true (hnone p hp)
        rw [hIeq]
        have : psv.map (fun p => ((p, cs.map fun c => interpVal rt rows c p) : Row K))
            = psv.flatMap (block rt rows cs) := by
          rw [List.map_eq_flatMap]
          apply List.flatMap_congr
          intro p hp
          rw [block, if_neg (hnone p hp)]
        rw [this]
      · rw [if_neg hD, hdt, combineRows_eq hs cs hps]

end

end BeamDesign
