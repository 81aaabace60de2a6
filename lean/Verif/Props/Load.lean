import Verif.Lemmas.Positions
import Verif.Spec.Samples

/-! # Properties C01 - C10 and C61: load cases -/

set_option linter.unusedSectionVars false

namespace BeamDesign

open Spec

section
variable {K : Type} [Field K] [LinearOrder K] [IsStrictOrderedRing K]

/-! ## C01 -/

theorem checkAndSet_ok_iff (b : Bool) (rows : List (LRow K)) (lc : LoadCase K) :
    LoadCase.checkAndSet b rows = .ok lc ↔ WellFormed rows ∧ lc = ⟨some ⟨b, rows⟩⟩ := by
  have h1 : diffNonneg (rows.map (·.pos)) = true ↔ rows.Pairwise (fun a b => a.pos ≤ b.pos) := by
    rw [diffNonneg_iff, List.pairwise_map]
  have h2 : ((rows.map (·.pos)).all (fun p => decide (p ≤ 1)) &&
      (rows.map (·.pos)).all (fun p => decide (0 ≤ p))) = true
      ↔ ∀ r ∈ rows, 0 ≤ r.pos ∧ r.pos ≤ 1 := by
    simp only [List.all_map, Bool.and_eq_true, List.all_eq_true, Function.comp, decide_eq_true_eq]
    constructor
    · rintro ⟨ha, hb⟩ r hr; exact ⟨hb r hr, ha r hr⟩
    · intro h; exact ⟨fun r hr => (h r hr).2, fun r hr => (h r hr).1⟩
  unfold WellFormed
  rw [← h1, ← h2]
  have hdef : LoadCase.checkAndSet b rows =
      if !diffNonneg (rows.map (·.pos)) then .error .assertionError
      else if !((rows.map (·.pos)).all (fun p => decide (p ≤ 1)) &&
        (rows.map (·.pos)).all (fun p => decide (0 ≤ p))) then .error .assertionError
      else .ok ⟨some ⟨b, rows⟩⟩ := rfl
  rw [hdef]
  generalize diffNonneg (rows.map (·.pos)) = x
  generalize ((rows.map (·.pos)).all (fun p => decide (p ≤ 1)) &&
      (rows.map (·.pos)).all (fun p => decide (0 ≤ p))) = y
  cases x <;> cases y <;> simp
  exact eq_comm

theorem checkAndSet_error (b : Bool) (rows : List (LRow K)) (h : ¬ WellFormed rows) :
    LoadCase.checkAndSet b rows = .error .assertionError := by
  cases hc : LoadCase.checkAndSet b rows with
  | ok lc => exact absurd ((checkAndSet_ok_iff b rows lc).1 hc).1 h
  | error e =>
    unfold LoadCase.checkAndSet at hc
    simp only at hc
    split_ifs at hc <;> simp_all

theorem ofList_eq_some (r : List (Num K)) (row : LRow K) :
    LRow.ofList r = some row ↔ r.map (·.val) = rowList row := by
  constructor
  · intro h
    unfold LRow.ofList at h
    split at h
    · cases h; rfl
    · cases h
  · intro h
    have hlen : r.length = 7 := by
      have := congrArg List.length h
      simpa [rowList] using this
    match r, hlen with
    | [a, b, c, d, e, f, g], _ =>
      simp only [List.map_cons, List.map_nil, rowList, List.cons.injEq, and_true] at h
      obtain ⟨h1, h2, h3, h4, h5, h6, h7⟩ := h
      simp only [LRow.ofList, h1, h2, h3, h4, h5, h6, h7]

theorem ofList_of_length (r : List (Num K)) (h : r.length = 7) : ∃ row, LRow.ofList r = some row := by
  match r, h with
  | [a, b, c, d, e, f, g], _ => exact ⟨_, rfl⟩

theorem filterMap_ofList (rs : List (List (Num K))) (rows : List (LRow K))
    (h : List.Forall₂ (fun r row => r.map (·.val) = rowList row) rs rows) :
    rs.filterMap LRow.ofList = rows := by
  induction h with
  | nil => rfl
  | cons h1 _ ih => rw [List.filterMap_cons_some ((ofList_eq_some _ _).2 h1), ih]

theorem exists_rows (rs : List (List (Num K))) (h : ∀ r ∈ rs, r.length = 7) :
    List.Forall₂ (fun r row => r.map (·.val) = rowList row) rs (rs.filterMap LRow.ofList) := by
  induction rs with
  | nil => exact List.Forall₂.nil
  | cons a t ih =>
    obtain ⟨row, hrow⟩ := ofList_of_length a (h a (by simp))
    rw [List.filterMap_cons_some hrow]
    exact List.Forall₂.cons ((ofList_eq_some _ _).1 hrow) (ih fun r hr => h r (List.mem_cons_of_mem _ hr))

/-- C01: exactly None, a single row of 7 numbers, and a table of rows of 7 numbers with ascending positions in
`[0, 1]` are accepted, and the rows are stored as given. -/
theorem C01_accepts_iff (raw : RawLoads K) (lc : LoadCase K) :
    LoadCase.new raw = .ok lc ↔
      (raw = .none ∧ lc.loads = none) ∨
      (∃ r row b, raw = .row r ∧ r.map (·.val) = rowList row ∧ WellFormed [row] ∧
        lc.loads = some ⟨b, [row]⟩ ∧ (b = true ↔ ∀ x ∈ r, x.isInt)) ∨
      (∃ rs rows b, raw = .table 7 rs ∧
        List.Forall₂ (fun r row => r.map (·.val) = rowList row) rs rows ∧ WellFormed rows ∧
        lc.loads = some ⟨b, rows⟩ ∧ (b = true ↔ rs ≠ [] ∧ ∀ r ∈ rs, ∀ x ∈ r, x.isInt)) := by
  obtain ⟨loads⟩ := lc
  cases raw with
  | none => simp [LoadCase.new]; exact eq_comm
  | scalar x => simp [LoadCase.new]
  | row r =>
    simp only [LoadCase.new, reduceCtorEq, false_and, RawLoads.row.injEq, exists_false, or_false, false_or]
    constructor
    · intro h
      cases hr : LRow.ofList r with
      | none => rw [hr] at h; cases h
      | some row =>
        rw [hr] at h
        obtain ⟨hwf, he⟩ := (checkAndSet_ok_iff _ _ _).1 h
        refine ⟨r, row, _, rfl, (ofList_eq_some _ _).1 hr, hwf, by simpa using he, ?_⟩
        have hne : r ≠ [] := by rintro rfl; simp [LRow.ofList] at hr
        cases r with
        | nil => exact absurd rfl hne
        | cons a t => simp [allInt]
    · rintro ⟨r', row, b, rfl, hr, hwf, he, hb⟩
      rw [(ofList_eq_some _ _).2 hr]
      refine (checkAndSet_ok_iff _ _ _).2 ⟨hwf, ?_⟩
      have hne : r ≠ [] := by rintro rfl; simp [rowList] at hr
      have : allInt r = b := by
        rw [Bool.eq_iff_iff, hb]
        cases r with
        | nil => exact absurd rfl hne
        | cons a t => simp [allInt]
      rw [this]
      simpa using he
  | table n rs =>
    simp only [LoadCase.new, reduceCtorEq, false_and, RawLoads.table.injEq, exists_false, false_or]
    constructor
    · intro h
      split_ifs at h with h1 h2 h3
      push Not at h2
      subst h2
      obtain ⟨hwf, he⟩ := (checkAndSet_ok_iff _ _ _).1 h
      have hlen : ∀ r ∈ rs, r.length = 7 := by
        simpa using h1
      refine ⟨rs, _, _, ⟨rfl, rfl⟩, exists_rows rs hlen, hwf, by simpa using he, ?_⟩
      constructor
      · intro hb
        rw [allInt, Bool.and_eq_true] at hb
        refine ⟨by rintro rfl; simp at hb, fun r hr x hx => ?_⟩
        exact List.all_eq_true.1 hb.2 x (List.mem_flatten.2 ⟨r, hr, hx⟩)
      · rintro ⟨hne, hall⟩
        rw [allInt, Bool.and_eq_true]
        constructor
        · cases rs with
          | nil => exact absurd rfl hne
          | cons a t =>
            have := hlen a (by simp)
            cases a with
            | nil => simp at this
            | cons => simp
        · rw [List.all_eq_true]
          intro x hx
          obtain ⟨r, hr, hx⟩ := List.mem_flatten.1 hx
          exact hall r hr x hx
    · rintro ⟨rs', rows, b, ⟨rfl, rfl⟩, hf, hwf, he, hb⟩
      have hlen : ∀ r ∈ rs, r.length = 7 := by
        intro r hr
        clear he hb hwf
        induction hf with
        | nil => cases hr
        | cons h1 _ ih =>
          rcases List.mem_cons.1 hr with rfl | hr
          · have := congrArg List.length h1
            simpa [rowList] using this
          · exact ih hr
      rw [if_pos (by simpa using hlen), if_neg (by simp), filterMap_ofList rs rows hf]
      refine (checkAndSet_ok_iff _ _ _).2 ⟨hwf, ?_⟩
      have : allInt rs.flatten = b := by
        rw [Bool.eq_iff_iff, hb, allInt, Bool.and_eq_true, List.all_eq_true]
        constructor
        · rintro ⟨h1, h2⟩
          refine ⟨by rintro rfl; simp at h1, fun r hr x hx => ?_⟩
          exact h2 x (List.mem_flatten.2 ⟨r, hr, hx⟩)
        · rintro ⟨hne, hall⟩
          constructor
          · cases rs with
            | nil => exact absurd rfl hne
            | cons a t =>
              have := hlen a (by simp)
              cases a with
              | nil => simp at this
              | cons => simp
          · intro x hx
            obtain ⟨r, hr, hx⟩ := List.mem_flatten.1 hx
            exact hall r hr x hx
      rw [this]
      simpa using he

/-- C01: a wrong number of columns is a `LoadCaseError`. -/
theorem C01_wrong_columns (r : List (Num K)) (hr : r.length ≠ 7) (n : ℕ) (hn : n ≠ 7)
    (rs : List (List (Num K))) (hrs : ∀ x ∈ rs, x.length = n) :
    LoadCase.new (.row r) = .error .loadCaseError ∧
    LoadCase.new (.table n rs) = .error .loadCaseError := by
  constructor
  · simp only [LoadCase.new]
    cases h : LRow.ofList r with
    | none => rfl
    | some row =>
      have := congrArg List.length ((ofList_eq_some _ _).1 h)
      simp [rowList] at this
      exact absurd this hr
  · simp only [LoadCase.new]
    rw [if_pos (by simpa using hrs), if_pos hn]

/-- C01: seven columns but positions out of order or range is an `AssertionError`. -/
theorem C01_bad_positions (rs : List (List (Num K))) (rows : List (LRow K))
    (hf : List.Forall₂ (fun r row => r.map (·.val) = rowList row) rs rows)
    (hbad : (¬ rows.Pairwise (fun a b => a.pos ≤ b.pos)) ∨ ∃ r ∈ rows, r.pos < 0 ∨ 1 < r.pos) :
    LoadCase.new (.table 7 rs) = .error .assertionError := by
  have hlen : ∀ r ∈ rs, r.length = 7 := by
    intro r hr
    clear hbad
    induction hf with
    | nil => cases hr
    | cons h1 _ ih =>
      rcases List.mem_cons.1 hr with rfl | hr
      · have := congrArg List.length h1
        simpa [rowList] using this
      · exact ih hr
  simp only [LoadCase.new]
  rw [if_pos (by simpa using hlen), if_neg (by simp), filterMap_ofList rs rows hf]
  apply checkAndSet_error
  rintro ⟨h1, h2⟩
  rcases hbad with h | ⟨r, hr, h⟩
  · exact h h1
  · have := h2 r hr
    rcases h with h | h
    · exact absurd this.1 (not_le.2 h)
    · exact absurd this.2 (not_le.2 h)

example : LoadCase.new Samples.raw = .ok Samples.lc ∧ WellFormed Samples.rows := by
  refine ⟨by decide +kernel, ?_, ?_⟩ <;> decide +kernel

example : LoadCase.new (.row ([0, 1, 2].map Num.flt) : RawLoads ℚ) = .error .loadCaseError := by
  decide +kernel

/-! ## C02 -/

/-- C02: explicit positions come back distinct, ascending and complete. -/
theorem C02_explicit_positions (rt : Rt K) (lc : LoadCase K) (position : PosArg K) (xs : List K)
    (h : Requested position xs) :
    ∃ ps, lc.listPositions rt none position = .ok ps ∧
      (ps.map (·.val)).Pairwise (· < ·) ∧ ∀ v, v ∈ ps.map (·.val) ↔ v ∈ xs :=
  requested_listPositions rt lc h

/-- C02: a Python int is not accepted as a single position; giving both or neither of the arguments is an
`AssertionError`. -/
theorem C02_errors (rt : Rt K) (lc : LoadCase K) (x : K) (n : ℤ) (p : PosArg K) (hp : p ≠ .none) :
    lc.listPositions rt none (.scalar (Num.int x)) = .error .typeError ∧
    lc.listPositions rt none .none = .error .assertionError ∧
    lc.listPositions rt (some n) p = .error .assertionError := by
  refine ⟨rfl, rfl, ?_⟩
  cases p with
  | none => exact absurd rfl hp
  | scalar => rfl
  | list => rfl

example : Requested (.list [Num.flt (3/4), Num.flt (1/4), Num.flt (3/4)] : PosArg ℚ) [3/4, 1/4, 3/4] :=
  Or.inr ⟨_, rfl, rfl⟩

example : (Samples.lc.listPositions Samples.rt none (.list [Num.flt (3/4), Num.flt (1/4), Num.flt (3/4)]))
    = .ok [Num.flt (1/4), Num.flt (3/4)] := by decide +kernel

/-! ## C03 -/

/-- C03: `min_positions=n` lists exactly the stored positions and the `n` equally spaced ones, ascending, inside
`[0, 1]`, at least `n` of them; no assertion fires. -/
theorem C03_min_positions {rt : Rt K} (hx : rt.Exact) (isInt : Bool) (rows : List (LRow K))
    (hwf : WellFormed rows) (n : ℕ) :
    ∃ ps, (⟨some ⟨isInt, rows⟩⟩ : LoadCase K).listPositions rt (some n) .none = .ok ps ∧
      (ps.map (·.val)).Pairwise (· < ·) ∧
      (∀ v, v ∈ ps.map (·.val) ↔ v ∈ rows.map (·.pos) ∨ EquallySpaced 0 1 n v) ∧
      (∀ p ∈ ps, 0 ≤ p.val ∧ p.val ≤ 1) ∧ n ≤ ps.length := by
  obtain ⟨lin, hlin, -, hmem⟩ := linspace_ok hx (0 : K) 1 n
  set lp : List (Num K) := rows.map fun r => ⟨r.pos, isInt⟩ with hlp
  have hv : ∀ v, v ∈ (sortedSet (lp ++ lin.map Num.flt)).map (·.val) ↔
      v ∈ rows.map (·.pos) ∨ EquallySpaced 0 1 n v := by
    intro v
    rw [sortedSet_vals, List.map_append, List.mem_append, ← hmem v]
    apply or_congr
    · rw [hlp, List.map_map]; exact Iff.rfl
    · rw [List.map_map]; simp
  have hlen : n ≤ (sortedSet (lp ++ lin.map Num.flt)).length := by
    have := equallySpaced_card (zero_lt_one (α := K)) n
      (l := (sortedSet (lp ++ lin.map Num.flt)).map (fun x => x.val))
      ((sortedSet_sorted (lp ++ lin.map Num.flt)).imp (fun h => ne_of_lt h)) (fun x hx => (hv x).2 (Or.inr hx))
    simpa using this
  refine ⟨sortedSet (lp ++ lin.map Num.flt), ?_, sortedSet_sorted _, hv, ?_, hlen⟩
  · simp only [LoadCase.listPositions, LoadCase.loadPositions, bind, Except.bind, hlin]
    rw [← hlp, if_neg (by push Not; exact_mod_cast hlen)]
  · intro p hp
    rcases (hv p.val).1 (List.mem_map.2 ⟨p, hp, rfl⟩) with h | h
    · obtain ⟨r, hr, he⟩ := List.mem_map.1 h
      rw [← he]; exact hwf.2 r hr
    · exact equallySpaced_mem zero_le_one h

/-- C03: on a case without loads `min_positions` raises `TypeError`. -/
theorem C03_unloaded (rt : Rt K) (n : ℤ) :
    (⟨none⟩ : LoadCase K).listPositions rt (some n) .none = .error .typeError := rfl

example : (Samples.lc.listPositions Samples.rt (some 4) .none).map (List.map (·.val))
    = .ok [0, 1/3, 1/2, 2/3, 1] := by decide +kernel

/-! ## C04 -/

/-- C04: the answer of `get_load` is, for the distinct requested positions in ascending order, the concatenation
of the answers for each of them; whatever the unstable sort does. -/
theorem C04_getLoad {rt : Rt K} (hx : rt.Exact) (hs : rt.SortOK) (isInt : Bool) (rows : List (LRow K))
    (hwf : WellFormed rows) (hne : rows ≠ []) (position : PosArg K) (xs : List K)
    (hreq : Requested position xs) (hxs : xs ≠ []) (component : CompArg) (cs : List LComp)
    (hc : Asks component cs) (hcs : cs ≠ []) :
    ∃ ps out dt, Distinct xs ps ∧ Answer rows cs ps out ∧
      (⟨some ⟨isInt, rows⟩⟩ : LoadCase K).getLoad rt position none component
        = .ok (some ⟨dt, cs.length, cells out⟩) := by
  rw [asks_iff] at hc
  obtain ⟨ps, hps, hd⟩ := requested_listPositions rt ⟨some ⟨isInt, rows⟩⟩ hreq
  have hps0 : ps ≠ [] := by
    rintro rfl
    cases xs with
    | nil => exact hxs rfl
    | cons a t => have := (hd.2 a).2 (by simp); simp at this
  refine ⟨_, _, _, hd, ?_, getLoad_eq hs hwf hne hps hd.1 hps0 hc hcs⟩
  refine ⟨(ps.map (·.val)).map (block rt rows cs), ?_, by rw [List.flatMap_def]⟩
  rw [List.forall₂_map_right_iff]
  exact List.forall₂_same.2 fun p _ => block_answer hx hne cs p

/-- C04 for `min_positions`: the same with the positions of C03. -/
theorem C04_getLoad_min_positions {rt : Rt K} (hx : rt.Exact) (hs : rt.SortOK) (isInt : Bool)
    (rows : List (LRow K)) (hwf : WellFormed rows) (hne : rows ≠ []) (n : ℕ)
    (component : CompArg) (cs : List LComp) (hc : Asks component cs) (hcs : cs ≠ []) :
    ∃ ps out dt, ps.Pairwise (· < ·) ∧
      (∀ v, v ∈ ps ↔ v ∈ rows.map (·.pos) ∨ EquallySpaced 0 1 n v) ∧ Answer rows cs ps out ∧
      (⟨some ⟨isInt, rows⟩⟩ : LoadCase K).getLoad rt .none (some n) component
        = .ok (some ⟨dt, cs.length, cells out⟩) := by
  rw [asks_iff] at hc
  obtain ⟨ps, hps, hsrt, hv, -, -⟩ := C03_min_positions hx isInt rows hwf n
  have hps0 : ps ≠ [] := by
    rintro rfl
    cases rows with
    | nil => exact hne rfl
    | cons a t => have := (hv a.pos).2 (by simp); simp at this
  refine ⟨_, _, _, hsrt, hv, ?_, getLoad_eq hs hwf hne hps hsrt hps0 hc hcs⟩
  refine ⟨(ps.map (·.val)).map (block rt rows cs), ?_, by rw [List.flatMap_def]⟩
  rw [List.forall₂_map_right_iff]
  exact List.forall₂_same.2 fun p _ => block_answer hx hne cs p

/-- C04: the answer does not depend on the unstable sort. -/
theorem C04_sort_independent {rt rt' : Rt K} (hx : rt.Exact) (hx' : rt'.Exact) (hs : rt.SortOK)
    (hs' : rt'.SortOK) (isInt : Bool) (rows : List (LRow K)) (hwf : WellFormed rows) (hne : rows ≠ [])
    (position : PosArg K) (xs : List K)
    (hreq : Requested position xs) (hxs : xs ≠ []) (component : CompArg) (cs : List LComp)
    (hc : Asks component cs) (hcs : cs ≠ []) :
    (⟨some ⟨isInt, rows⟩⟩ : LoadCase K).getLoad rt position none component =
      (⟨some ⟨isInt, rows⟩⟩ : LoadCase K).getLoad rt' position none component := by
  rw [asks_iff] at hc
  obtain ⟨ps, hps, hd⟩ := requested_listPositions rt ⟨some ⟨isInt, rows⟩⟩ hreq
  have hps' : (⟨some ⟨isInt, rows⟩⟩ : LoadCase K).listPositions rt' none position = .ok ps := by
    rw [← hps]
    rcases hreq with ⟨x, rfl, rfl⟩ | ⟨l, rfl, rfl⟩ <;> rfl
  have hps0 : ps ≠ [] := by
    rintro rfl
    cases xs with
    | nil => exact hxs rfl
    | cons a t => have := (hd.2 a).2 (by simp); simp at this
  rw [getLoad_eq hs hwf hne hps hd.1 hps0 hc hcs, getLoad_eq hs' hwf hne hps' hd.1 hps0 hc hcs]
  have hval : interpVal rt rows = interpVal rt' rows := by
    funext c p
    unfold interpVal
    congr 1
    have hgo : ∀ (l : List (K × K)) (a : K × K), interpGo rt p a l = interpGo rt' p a l := by
      intro l
      induction l with
      | nil => intro a; rfl
      | cons b t ih =>
        intro a
        simp only [interpGo, ih, hx.add, hx'.add, hx.mul, hx'.mul, hx.div, hx'.div, hx.sub, hx'.sub]
    have : ∀ l, npInterp rt none none p l = npInterp rt' none none p l := by
      intro l
      cases l with
      | nil => rfl
      | cons a t => simp only [npInterp, hgo]
    rw [this]
  have hblock : block rt rows cs = block rt' rows cs := by
    funext p
    unfold block
    rw [hval]
  rw [hblock]

/-- C04: an empty list of positions gives Python's `None` (non-empty table). -/
theorem C04_no_positions (rt : Rt K) (isInt : Bool) (rows : List (LRow K)) (hne : rows ≠ [])
    (component : CompArg) (cs : List LComp) (hc : Asks component cs) :
    (⟨some ⟨isInt, rows⟩⟩ : LoadCase K).getLoad rt (.list []) none component = .ok none := by
  rw [asks_iff] at hc
  unfold LoadCase.getLoad
  simp only [LoadCase.listPositions, sortedSet_nil, bind, Except.bind, hc, pure, Except.pure,
    List.map_nil, List.filter_nil]
  rw [if_neg]
  · simp
  · intro h
    have h' := h.symm
    rw [List.map_eq_nil_iff, sortedSet_eq_nil] at h'
    simp at h'
    exact hne h'

example : (Samples.lc.getLoad Samples.rt
      (.list [Num.flt (3/4), Num.flt (1/2), Num.flt (1/4)]) none (.name "N"))
    = .ok (some ⟨.flt, 1, cells [(1/4, [3]), (1/2, [3]), (1/2, [4]), (3/4, [-3])]⟩) := by
  decide +kernel

example : (Rt.exact ℚ).Exact ∧ (Rt.exact ℚ).SortOK ∧ WellFormed Samples.rows ∧ Samples.rows ≠ [] ∧
    Requested (.list [Num.flt (3/4), Num.flt (1/2)] : PosArg ℚ) [3/4, 1/2] ∧
    (CompArg.name "N").resolve = .ok [LComp.N] :=
  ⟨Rt.exact_exact ℚ, Rt.exact_sortOK ℚ, ⟨by decide +kernel, by decide +kernel⟩, by decide +kernel,
    Or.inr ⟨_, rfl, rfl⟩, by decide +kernel⟩

/-! ## C05 - C07: consequences of the specification -/

theorem answer_rows {rows : List (LRow K)} {cs : List LComp} {ps : List K} {out : List (Row K)}
    (h : Answer rows cs ps out) {r : Row K} (hr : r ∈ out) :
    r.1 ∈ ps ∧ ∃ b, AnswerAt rows cs r.1 b ∧ r ∈ b := by
  obtain ⟨blocks, hf, rfl⟩ := h
  induction hf with
  | nil => simp at hr
  | @cons p b ps' bs hb _ ih =>
    rw [List.flatten_cons, List.mem_append] at hr
    rcases hr with hr | hr
    · have hp : r.1 = p := by
        rcases hb with ⟨-, rfl⟩ | ⟨-, vs, rfl, -⟩
        · obtain ⟨x, -, rfl⟩ := List.mem_map.1 hr; rfl
        · rw [List.mem_singleton] at hr; rw [hr]
      subst hp
      exact ⟨by simp, b, hb, hr⟩
    · have := ih hr
      exact ⟨List.mem_cons_of_mem _ this.1, this.2⟩

/-- In every specified answer the positions never decrease and exactly the requested positions occur. -/
theorem answer_order {rows : List (LRow K)} {cs : List LComp} {xs ps : List K} {out : List (Row K)}
    (hd : Distinct xs ps) (h : Answer rows cs ps out) :
    out.Pairwise (fun a b => a.1 ≤ b.1) ∧ ∀ p, p ∈ out.map (·.1) ↔ p ∈ xs := by
  have hkey : ∀ p b, AnswerAt rows cs p b → b ≠ [] ∧ ∀ r ∈ b, r.1 = p := by
    intro p b hb
    rcases hb with ⟨hp, rfl⟩ | ⟨-, vs, rfl, -⟩
    · constructor
      · obtain ⟨r, hr, he⟩ := List.mem_map.1 hp
        intro h0
        rw [List.map_eq_nil_iff, List.filter_eq_nil_iff] at h0
        exact h0 r hr (by simpa using he)
      · intro r hr
        obtain ⟨x, -, rfl⟩ := List.mem_map.1 hr; rfl
    · simp
  constructor
  · obtain ⟨blocks, hf, rfl⟩ := h
    have hps := hd.1
    clear hd
    induction hf with
    | nil => simp
    | @cons p b ps' bs hb hrest ih =>
      rw [List.flatten_cons, List.pairwise_append]
      have hps' := List.pairwise_cons.1 hps
      refine ⟨?_, ih hps'.2, ?_⟩
      · exact List.Pairwise.imp_of_mem (R := fun _ _ => True) (fun ha hb' _ => by
          rw [(hkey p b hb).2 _ ha, (hkey p b hb).2 _ hb']) (by simp [List.pairwise_iff_forall_sublist])
      · intro x hx y hy
        rw [(hkey p b hb).2 x hx]
        have := (answer_rows ⟨bs, hrest, rfl⟩ hy).1
        exact (hps'.1 _ this).le
  · intro p
    rw [← hd.2 p]
    constructor
    · intro hp
      obtain ⟨r, hr, rfl⟩ := List.mem_map.1 hp
      exact (answer_rows h hr).1
    · intro hp
      obtain ⟨blocks, hf, rfl⟩ := h
      clear hd
      induction hf with
      | nil => simp at hp
      | @cons q b ps' bs hb _ ih =>
        rw [List.flatten_cons, List.map_append, List.mem_append]
        rcases List.mem_cons.1 hp with rfl | hp
        · left
          obtain ⟨h1, h2⟩ := hkey _ b hb
          obtain ⟨r, hr⟩ := List.exists_mem_of_ne_nil b h1
          exact List.mem_map.2 ⟨r, hr, h2 r hr⟩
        · exact Or.inr (ih hp)

/-- C05 on the code: the position column of `get_load`'s answer is ascending and complete. -/
theorem C05_getLoad_order {rt : Rt K} (hx : rt.Exact) (hs : rt.SortOK) (isInt : Bool)
    (rows : List (LRow K)) (hwf : WellFormed rows) (hne : rows ≠ []) (position : PosArg K)
    (xs : List K) (hreq : Requested position xs) (hxs : xs ≠ []) (component : CompArg)
    (cs : List LComp) (hc : Asks component cs) (hcs : cs ≠ []) :
    ∃ tab, (⟨some ⟨isInt, rows⟩⟩ : LoadCase K).getLoad rt position none component = .ok (some tab) ∧
      tab.width = cs.length ∧ (∀ r ∈ tab.rows, r.2.length = cs.length) ∧
      tab.rows.Pairwise (fun a b => a.1 ≤ b.1) ∧ ∀ p, p ∈ tab.rows.map (·.1) ↔ p ∈ xs := by
  rw [asks_iff] at hc
  obtain ⟨ps, out, dt, hd, ha, he⟩ := C04_getLoad hx hs isInt rows hwf hne position xs hreq hxs component cs (asks_iff.2 hc) hcs
  obtain ⟨h1, h2⟩ := answer_order hd ha
  refine ⟨_, he, rfl, ?_, ?_, ?_⟩
  · intro r hr
    simp only [cells, List.mem_map] at hr
    obtain ⟨q, hq, rfl⟩ := hr
    obtain ⟨-, b, hb, hqb⟩ := answer_rows ha hq
    rcases hb with ⟨-, rfl⟩ | ⟨-, vs, rfl, hf⟩
    · obtain ⟨x, -, hx'⟩ := List.mem_map.1 hqb
      rw [← hx']; simp
    · rw [List.mem_singleton] at hqb
      rw [hqb]; simp [hf.length_eq]
  · simp only [cells]
    rw [List.pairwise_map]
    exact h1
  · intro p
    rw [← h2 p]
    simp [cells]

/-- C06: one component at one position that is not stored: a single row, whose value is on the straight line
between the neighbouring stored rows, or the end value outside the stored range. -/
theorem C06_interpolation {rt : Rt K} (hx : rt.Exact) (hs : rt.SortOK) (isInt : Bool)
    (rows : List (LRow K)) (hwf : WellFormed rows) (hne : rows ≠ []) (p : K) (c : LComp)
    (hp : p ∉ rows.map (·.pos)) :
    ∃ v, (⟨some ⟨isInt, rows⟩⟩ : LoadCase K).getLoad rt (.scalar (Num.flt p)) none (.comp c)
        = .ok (some ⟨.flt, 1, [(p, [some v])]⟩) ∧
      (∀ pre a b post, rows = pre ++ a :: b :: post → a.pos < p → p < b.pos →
        (v - entry a c) * (b.pos - a.pos) = (entry b c - entry a c) * (p - a.pos)) ∧
      (∀ first rest, rows = first :: rest → p < first.pos → v = entry first c) ∧
      (∀ init last, rows = init ++ [last] → last.pos < p → v = entry last c) := by
  have hcl := getLoad_eq (rt := rt) hs (isInt := isInt) hwf hne
    (position := .scalar (Num.flt p)) (minPos := none) (ps := [Num.flt p]) rfl (by simp) (by simp)
    (component := .comp c) (cs := [c]) rfl (by simp)
  refine ⟨interpVal rt rows c p, ?_, ?_⟩
  · rw [hcl]
    simp only [List.map_cons, List.map_nil, Num.flt_val, List.flatMap_cons, List.flatMap_nil,
      List.append_nil, block, if_neg hp, answerDType, cells]
    rw [if_neg (by simpa using hp)]
    rfl
  · have hcurve := interpVal_onCurve hx hne c p hp
    have hsort := hwf.1
    -- positions in a split list
    have hsplit : ∀ (l : List (LRow K)) (x : LRow K) (r : List (LRow K)), rows = l ++ x :: r →
        (∀ y ∈ l, y.pos ≤ x.pos) ∧ ∀ y ∈ r, x.pos ≤ y.pos := by
      intro l x r h
      rw [h, List.pairwise_append] at hsort
      refine ⟨fun y hy => hsort.2.2 y hy x (by simp), (List.pairwise_cons.1 hsort.2.1).1⟩
    have uniq : ∀ (pre : List (LRow K)) (a b : LRow K) (post pre' : List (LRow K)) (a' b' : LRow K)
        (post' : List (LRow K)), rows = pre ++ a :: b :: post → rows = pre' ++ a' :: b' :: post' →
        a.pos < p → p < b.pos → a'.pos < p → p < b'.pos → a = a' ∧ b = b' := by
      intro pre a b post pre' a' b' post' h h' ha hb ha' hb'
      -- rows before p and after p are determined
      have hf : rows.filter (fun r => decide (r.pos < p)) = pre ++ [a] := by
        rw [h, show pre ++ a :: b :: post = (pre ++ [a]) ++ (b :: post) by simp, List.filter_append,
          List.filter_eq_self.2, List.filter_eq_nil_iff.2, List.append_nil]
        · intro y hy
          have : b.pos ≤ y.pos := by
            rcases List.mem_cons.1 hy with rfl | hy
            · exact le_refl _
            · exact (hsplit (pre ++ [a]) b post (by simp [h])).2 y hy
          simpa using (hb.trans_le this).le
        · intro y hy
          have : y.pos ≤ a.pos := by
            rcases List.mem_append.1 hy with hy | hy
            · exact (hsplit pre a (b :: post) h).1 y hy
            · rw [List.mem_singleton] at hy; rw [hy]
          simpa using this.trans_lt ha
      have hf' : rows.filter (fun r => decide (r.pos < p)) = pre' ++ [a'] := by
        rw [h', show pre' ++ a' :: b' :: post' = (pre' ++ [a']) ++ (b' :: post') by simp, List.filter_append,
          List.filter_eq_self.2, List.filter_eq_nil_iff.2, List.append_nil]
        · intro y hy
          have : b'.pos ≤ y.pos := by
            rcases List.mem_cons.1 hy with rfl | hy
            · exact le_refl _
            · exact (hsplit (pre' ++ [a']) b' post' (by simp [h'])).2 y hy
          simpa using (hb'.trans_le this).le
        · intro y hy
          have : y.pos ≤ a'.pos := by
            rcases List.mem_append.1 hy with hy | hy
            · exact (hsplit pre' a' (b' :: post') h').1 y hy
            · rw [List.mem_singleton] at hy; rw [hy]
          simpa using this.trans_lt ha'
      rw [hf] at hf'
      obtain ⟨h1, h2⟩ := List.append_inj' hf' rfl
      have h2' : a = a' := by simpa using h2
      subst h2' h1
      rw [h] at h'
      have := List.append_cancel_left h'
      simp only [List.cons.injEq, true_and] at this
      exact ⟨rfl, this.1⟩
    refine ⟨?_, ?_, ?_⟩
    · intro pre a b post h ha hb
      rcases hcurve with ⟨f, r, h', hp', hv⟩ | ⟨i, l, h', hp', hv⟩ | ⟨pre', a', b', post', h', ha', hb', hv⟩
      · exfalso
        have : f.pos ≤ a.pos := by
          cases pre with
          | nil => rw [h] at h'; simp only [List.nil_append, List.cons.injEq] at h'; rw [h'.1]
          | cons x t =>
            rw [h] at h'
            simp only [List.cons_append, List.cons.injEq] at h'
            have := (hsplit (x :: t) a (b :: post) h).1 x (by simp)
            rwa [h'.1] at this
        exact absurd hp' (not_lt.2 (this.trans ha.le))
      · exfalso
        have hl : b.pos ≤ l.pos := by
          have hmem : b ∈ i ++ [l] := by rw [← h', h]; simp
          rcases List.mem_append.1 hmem with hm | hm
          · exact (hsplit i l [] h').1 b hm
          · rw [List.mem_singleton] at hm; rw [hm]
        exact absurd (hb.trans_le hl) (not_lt.2 hp'.le)
      · obtain ⟨rfl, rfl⟩ := uniq pre a b post pre' a' b' post' h h' ha hb ha' hb'
        have hne' : b.pos - a.pos ≠ 0 := sub_ne_zero.2 (ha.trans hb).ne'
        rw [hv]
        field_simp
        ring
    · intro first rest h hlt
      rcases hcurve with ⟨f, r, h', hp', hv⟩ | ⟨i, l, h', hp', hv⟩ | ⟨pre', a', b', post', h', ha', hb', hv⟩
      · rw [h] at h'; simp only [List.cons.injEq] at h'; rw [hv, h'.1]
      · exfalso
        have hmem : l ∈ first :: rest := by rw [← h, h']; simp
        have : first.pos ≤ l.pos := by
          rcases List.mem_cons.1 hmem with hm | hm
          · rw [hm]
          · exact (hsplit [] first rest h).2 l hm
        exact absurd (hlt.trans_le this) (not_lt.2 hp'.le)
      · exfalso
        have hmem : a' ∈ first :: rest := by rw [← h, h']; simp
        have : first.pos ≤ a'.pos := by
          rcases List.mem_cons.1 hmem with hm | hm
          · rw [hm]
          · exact (hsplit [] first rest h).2 a' hm
        exact absurd (hlt.trans_le this) (not_lt.2 ha'.le)
    · intro init last h hlt
      have hle : ∀ y ∈ rows, y.pos ≤ last.pos := by
        intro y hy
        rw [h] at hy
        rcases List.mem_append.1 hy with hm | hm
        · exact (hsplit init last [] h).1 y hm
        · rw [List.mem_singleton] at hm; rw [hm]
      rcases hcurve with ⟨f, r, h', hp', hv⟩ | ⟨i, l, h', hp', hv⟩ | ⟨pre', a', b', post', h', ha', hb', hv⟩
      · exfalso
        have := hle f (by rw [h']; simp)
        exact absurd (hp'.trans_le this) (not_lt.2 hlt.le)
      · rw [h] at h'
        have := (List.append_inj' h' rfl).2
        simp only [List.cons.injEq, and_true] at this
        rw [hv, this]
      · exfalso
        have := hle b' (by rw [h']; simp)
        exact absurd (hb'.trans_le this) (not_lt.2 hlt.le)

example : (1/4 : ℚ) ∉ Samples.rows.map (·.pos) ∧
    Samples.lc.getLoad Samples.rt (.scalar (Num.flt (3/4))) none (.comp .N)
      = .ok (some ⟨.flt, 1, [(3/4, [some (-3)])]⟩) := by
  constructor <;> decide +kernel

theorem onCurve_bounds {rows : List (LRow K)} {c : LComp} {p v : K} (h : OnCurve rows c p v) :
    ∃ r₁ ∈ rows, ∃ r₂ ∈ rows, entry r₁ c ≤ v ∧ v ≤ entry r₂ c := by
  rcases h with ⟨f, r, rfl, -, rfl⟩ | ⟨i, l, rfl, -, rfl⟩ | ⟨pre, a, b, post, rfl, ha, hb, rfl⟩
  · exact ⟨f, by simp, f, by simp, le_refl _, le_refl _⟩
  · exact ⟨l, by simp, l, by simp, le_refl _, le_refl _⟩
  · have hd : 0 < b.pos - a.pos := sub_pos.2 (ha.trans hb)
    set t := (p - a.pos) / (b.pos - a.pos) with ht
    have h0 : 0 ≤ t := div_nonneg (sub_nonneg.2 ha.le) hd.le
    have h1 : t ≤ 1 := (div_le_one hd).2 (by linarith)
    rcases le_total (entry a c) (entry b c) with h | h
    · refine ⟨a, by simp, b, by simp, ?_, ?_⟩
      · have := mul_nonneg (sub_nonneg.2 h) h0; linarith
      · have := mul_le_mul_of_nonneg_left h1 (sub_nonneg.2 h); linarith
    · refine ⟨b, by simp, a, by simp, ?_, ?_⟩
      · have := mul_le_mul_of_nonneg_left h1 (sub_nonneg.2 h); linarith
      · have := mul_nonneg (sub_nonneg.2 h) h0; linarith

/-- C07: no returned value is outside the range of the stored values of its component. -/
theorem C07_no_overshoot {rt : Rt K} (hx : rt.Exact) (hs : rt.SortOK) (isInt : Bool)
    (rows : List (LRow K)) (hwf : WellFormed rows) (hne : rows ≠ []) (position : PosArg K)
    (xs : List K) (hreq : Requested position xs) (hxs : xs ≠ []) (component : CompArg)
    (cs : List LComp) (hc : Asks component cs) (hcs : cs ≠ []) :
    ∃ tab, (⟨some ⟨isInt, rows⟩⟩ : LoadCase K).getLoad rt position none component = .ok (some tab) ∧
      ∀ row ∈ tab.rows, List.Forall₂
        (fun c cell => ∃ v, cell = some v ∧ ∃ r₁ ∈ rows, ∃ r₂ ∈ rows, entry r₁ c ≤ v ∧ v ≤ entry r₂ c)
        cs row.2 := by
  rw [asks_iff] at hc
  obtain ⟨ps, out, dt, hd, ha, he⟩ := C04_getLoad hx hs isInt rows hwf hne position xs hreq hxs component cs (asks_iff.2 hc) hcs
  refine ⟨_, he, ?_⟩
  intro row hrow
  simp only [cells, List.mem_map] at hrow
  obtain ⟨q, hq, rfl⟩ := hrow
  rw [List.forall₂_map_right_iff]
  obtain ⟨-, b, hb, hqb⟩ := answer_rows ha hq
  rcases hb with ⟨-, rfl⟩ | ⟨-, vs, rfl, hf⟩
  · obtain ⟨r, hr, hrq⟩ := List.mem_map.1 hqb
    rw [← hrq, List.forall₂_map_right_iff]
    have hrm := (List.mem_filter.1 hr).1
    exact List.forall₂_same.2 fun c _ => ⟨_, rfl, r, hrm, r, hrm, le_refl _, le_refl _⟩
  · rw [List.mem_singleton] at hqb
    rw [hqb]
    exact hf.imp fun c v h => ⟨v, rfl, onCurve_bounds h⟩

/-! ## C08 -/

/-- C08: a constant load case answers its values, once, at every requested position. -/
theorem C08_constant {rt : Rt K} (hs : rt.SortOK) (vx vy n mx my t : K) (position : PosArg K)
    (xs : List K) (hreq : Requested position xs) (hxs : xs ≠ []) :
    ∃ lc ps dt, LoadCase.constantLoad vx vy n mx my t = .ok lc ∧ Distinct xs ps ∧
      lc.getLoad rt position none .none
        = .ok (some ⟨dt, 6, ps.map fun p => (p, [vx, vy, n, mx, my, t].map some)⟩) := by
  have hwf : WellFormed [(⟨0, vx, vy, n, mx, my, t⟩ : LRow K)] := by
    simp [WellFormed]
  refine ⟨⟨some ⟨false, [⟨0, vx, vy, n, mx, my, t⟩]⟩⟩, ?_⟩
  obtain ⟨ps, hps, hd⟩ := requested_listPositions rt
    ⟨some ⟨false, [(⟨0, vx, vy, n, mx, my, t⟩ : LRow K)]⟩⟩ hreq
  have hps0 : ps ≠ [] := by
    rintro rfl
    cases xs with
    | nil => exact hxs rfl
    | cons a t => have := (hd.2 a).2 (by simp); simp at this
  refine ⟨ps.map (·.val), answerDType false [0] (ps.map (·.val)), ?_, hd, ?_⟩
  · rw [LoadCase.constantLoad, LoadCase.constantLoadNum, C01_accepts_iff]
    refine Or.inr (Or.inl ⟨_, _, _, rfl, rfl, hwf, rfl, ?_⟩)
    simp
  · rw [getLoad_eq hs hwf (by simp) hps hd.1 hps0 (component := .none) (cs := LComp.all) rfl
      (by simp [LComp.all])]
    congr 3
    generalize ps.map (·.val) = qs
    rw [cells, List.map_flatMap, List.map_eq_flatMap]
    apply List.flatMap_congr
    intro p _
    unfold block
    split_ifs with h
    · simp only [List.map_cons, List.map_nil, List.mem_singleton] at h
      subst h
      simp [LComp.all, LRow.get]
    · have hv : ∀ c, interpVal rt [(⟨0, vx, vy, n, mx, my, t⟩ : LRow K)] c p
          = (⟨0, vx, vy, n, mx, my, t⟩ : LRow K).get c := by
        intro c
        simp only [interpVal, List.map_cons, List.map_nil, npInterp, interpGo]
        split_ifs <;> rfl
      simp [hv, LComp.all, LRow.get]

/-- C08: components entered as ints (as are the defaults of `constant_load_element`) give the same load case, and the same element. -/
theorem C08_ints {S : Type} (caseId : ℤ) (vx vy n mx my t length : Num K) (sect : S) :
    LoadCase.constantLoadNum vx vy n mx my t = LoadCase.constantLoad vx.val vy.val n.val mx.val my.val t.val ∧
    Element.constantLoadElementNum caseId vx vy n mx my t length sect
      = Element.constantLoadElement caseId vx.val vy.val n.val mx.val my.val t.val length sect := by
  have h : LoadCase.constantLoadNum vx vy n mx my t = LoadCase.constantLoad vx.val vy.val n.val mx.val my.val t.val := by
    simp [LoadCase.constantLoad, LoadCase.constantLoadNum, LoadCase.new, LRow.ofList, allInt, Num.flt]
  exact ⟨h, by unfold Element.constantLoadElementNum Element.constantLoadElement; rw [h]⟩

example : (LoadCase.constantLoadNum (K := ℚ) (Num.int 1) (Num.flt 2) (Num.int 3) (Num.int 0) (Num.int 0) (Num.int 0))
    = .ok ⟨some ⟨false, [⟨0, 1, 2, 3, 0, 0, 0⟩]⟩⟩ := by decide +kernel

example : (LoadCase.constantLoad (K := ℚ) 1 2 3 4 5 6).bind
      (fun lc => lc.getLoad Samples.rt (.list [Num.flt (1/3), Num.flt 0]) none .none)
    = .ok (some ⟨.flt, 6, [(0, [1, 2, 3, 4, 5, 6].map some), (1/3, [1, 2, 3, 4, 5, 6].map some)]⟩) := by
  decide +kernel

/-! ## C09 -/

/-- C09: naming a component by string, number or enum member is equivalent. -/
theorem C09_names (rt : Rt K) (lc : LoadCase K) (position : PosArg K) (minPos : Option ℤ) :
    ∀ nc ∈ [("VX", LComp.VX), ("VY", .VY), ("N", .N), ("MX", .MX), ("MY", .MY), ("T", .T)],
      lc.getLoad rt position minPos (.name nc.1) = lc.getLoad rt position minPos (.comp nc.2) ∧
      lc.getLoad rt position minPos (.idx nc.2.value) = lc.getLoad rt position minPos (.comp nc.2) := by
  intro nc hnc
  simp only [List.mem_cons, List.not_mem_nil, or_false] at hnc
  rcases hnc with rfl | rfl | rfl | rfl | rfl | rfl <;> exact ⟨rfl, rfl⟩

/-- C09: selecting one component is dropping the other columns. -/
theorem C09_projection {rt : Rt K} (hs : rt.SortOK) (isInt : Bool) (rows : List (LRow K))
    (hwf : WellFormed rows) (hne : rows ≠ []) (position : PosArg K) (xs : List K)
    (hreq : Requested position xs) (hxs : xs ≠ []) (c : LComp) :
    ∃ tab, (⟨some ⟨isInt, rows⟩⟩ : LoadCase K).getLoad rt position none .none = .ok (some tab) ∧
      (⟨some ⟨isInt, rows⟩⟩ : LoadCase K).getLoad rt position none (.comp c)
        = .ok (some ⟨tab.dt, 1, tab.rows.map fun r => (r.1, [r.2.getD (c.value - 1) none])⟩) := by
  obtain ⟨ps, hps, hd⟩ := requested_listPositions rt ⟨some ⟨isInt, rows⟩⟩ hreq
  have hps0 : ps ≠ [] := by
    rintro rfl
    cases xs with
    | nil => exact hxs rfl
    | cons a t => have := (hd.2 a).2 (by simp); simp at this
  refine ⟨_, getLoad_eq hs hwf hne hps hd.1 hps0 (component := .none) (cs := LComp.all) rfl
      (by simp [LComp.all]), ?_⟩
  rw [getLoad_eq hs hwf hne hps hd.1 hps0 (component := .comp c) (cs := [c]) rfl (by simp)]
  simp only [List.length_singleton]
  congr 3
  simp only [cells, List.map_flatMap, List.map_map]
  apply List.flatMap_congr
  intro p _
  unfold block
  split_ifs
  · rw [List.map_map, List.map_map]
    apply List.map_congr_left
    intro r _
    cases c <;> rfl
  · cases c <;> rfl

/-- C09: on a loaded case an unknown name raises `KeyError`, an unknown number `ValueError`. -/
theorem C09_unknown (rt : Rt K) (t : Table K) (position : PosArg K) (xs : List K)
    (hreq : Requested position xs) (s : String)
    (hs : s ∉ ["VX", "VY", "N", "MX", "MY", "T"]) (i : ℤ) (hi : i < 1 ∨ 6 < i) :
    (⟨some t⟩ : LoadCase K).getLoad rt position none (.name s) = .error .keyError ∧
    (⟨some t⟩ : LoadCase K).getLoad rt position none (.idx i) = .error .valueError := by
  obtain ⟨ps, hps, -⟩ := requested_listPositions rt ⟨some t⟩ hreq
  simp only [List.mem_cons, List.not_mem_nil, or_false, not_or] at hs
  obtain ⟨h1, h2, h3, h4, h5, h6⟩ := hs
  constructor
  · unfold LoadCase.getLoad
    rw [hps]
    simp [bind, Except.bind, CompArg.resolve, LComp.ofName, h1, h2, h3, h4, h5, h6]
  · unfold LoadCase.getLoad
    rw [hps]
    have : LComp.ofValue i = .error .valueError := by
      unfold LComp.ofValue
      rw [if_neg (by omega), if_neg (by omega), if_neg (by omega), if_neg (by omega),
        if_neg (by omega), if_neg (by omega)]
    simp [bind, Except.bind, CompArg.resolve, this]

/-- C09: a list of members selects these columns; a list with a name or a number in it is an `AttributeError` on a loaded case. -/
theorem C09_items (rt : Rt K) (t : Table K) (position : PosArg K) (xs : List K) (hreq : Requested position xs) :
    (∀ (lc : LoadCase K) (n : Option ℤ) (cs : List LComp),
      lc.getLoad rt position n (.items (cs.map Sum.inl)) = lc.getLoad rt position n (.list cs)) ∧
    ∀ (items : List (LComp ⊕ (String ⊕ ℤ))) (x : String ⊕ ℤ), Sum.inr x ∈ items →
      (⟨some t⟩ : LoadCase K).getLoad rt position none (.items items) = .error .attributeError := by
  constructor
  · intro lc n cs
    have h : (CompArg.items (cs.map Sum.inl)).resolve = (CompArg.list cs).resolve := asks_iff.1 rfl
    unfold LoadCase.getLoad
    rw [h]
  · intro items x hx
    have h : (CompArg.items items).resolve = .error .attributeError := by
      rw [CompArg.resolve.eq_6]
      induction items with
      | nil => simp at hx
      | cons y items ih =>
        rw [List.mapM_cons]
        cases y with
        | inr => rfl
        | inl c =>
          rcases List.mem_cons.1 hx with h | h
          · cases h
          · simp only [bind, Except.bind, ih h]
    obtain ⟨ps, hps, -⟩ := requested_listPositions rt ⟨some t⟩ hreq
    unfold LoadCase.getLoad
    rw [hps]
    simp only [bind, Except.bind, h]

example : Samples.lc.getLoad Samples.rt (.scalar (Num.flt (1/4))) none (.items [.inl .N, .inr (.inl "VX")])
    = .error .attributeError := by decide +kernel

example : (Samples.lc.getLoad Samples.rt (.scalar (Num.flt (1/4))) none (.name "Fz"))
    = .error .keyError := by decide +kernel

/-! ## C10 -/

/-- C10: the order and the repetition of the requested positions do not matter. -/
theorem C10_order_irrelevant (rt : Rt K) (lc : LoadCase K) (xs ys : List (Num K))
    (h : ∀ v, v ∈ xs.map (·.val) ↔ v ∈ ys.map (·.val)) (component : CompArg) :
    lc.getLoad rt (.list xs) none component = lc.getLoad rt (.list ys) none component := by
  have he : (sortedSet xs).map (·.val) = (sortedSet ys).map (·.val) :=
    eq_of_strict_sorted (sortedSet_sorted xs) (sortedSet_sorted ys) fun v => by
      rw [sortedSet_vals, sortedSet_vals, h v]
  unfold LoadCase.getLoad
  simp only [LoadCase.listPositions, bind, Except.bind]
  cases lc.loads with
  | none =>
    have : (sortedSet xs).map (fun p => ((p.val, [none]) : K × List (Option K)))
        = (sortedSet ys).map (fun p => (p.val, [none])) := by
      rw [show (fun p : Num K => ((p.val, [none]) : K × List (Option K)))
        = (fun v => (v, [none])) ∘ (fun p : Num K => p.val) from rfl, ← List.map_map, he, List.map_map]
    simp only [this]
  | some t => simp only [he]

/-- C10: asking for a list of positions is asking for each distinct position and stacking the answers. -/
theorem C10_batching {rt : Rt K} (hs : rt.SortOK) (isInt : Bool) (rows : List (LRow K))
    (hwf : WellFormed rows) (hne : rows ≠ []) (xs : List (Num K)) (hxs : xs ≠ [])
    (component : CompArg) (cs : List LComp) (hc : Asks component cs) (hcs : cs ≠ []) :
    ∃ ps tabs dt, Distinct (xs.map (·.val)) ps ∧
      List.Forall₂ (fun p tab => (⟨some ⟨isInt, rows⟩⟩ : LoadCase K).getLoad rt
        (.scalar (Num.flt p)) none component = .ok (some tab)) ps tabs ∧
      (⟨some ⟨isInt, rows⟩⟩ : LoadCase K).getLoad rt (.list xs) none component
        = .ok (some ⟨dt, cs.length, (tabs.map (·.rows)).flatten⟩) := by
  rw [asks_iff] at hc
  obtain ⟨ps, hps, hd⟩ := requested_listPositions rt ⟨some ⟨isInt, rows⟩⟩ (Or.inr ⟨xs, rfl, rfl⟩)
  have hps0 : ps ≠ [] := by
    rintro rfl
    cases xs with
    | nil => exact hxs rfl
    | cons a t => have := (hd.2 a.val).2 (by simp); simp at this
  refine ⟨_, (ps.map (·.val)).map fun p => ⟨answerDType isInt (rows.map (·.pos)) [p], cs.length,
    cells (block rt rows cs p)⟩, answerDType isInt (rows.map (·.pos)) (ps.map (·.val)), hd, ?_, ?_⟩
  · rw [List.forall₂_map_right_iff]
    refine List.forall₂_same.2 fun p _ => ?_
    rw [getLoad_eq (rt := rt) hs (isInt := isInt) hwf hne
      (position := .scalar (Num.flt p)) (minPos := none) (ps := [Num.flt p]) rfl (by simp) (by simp)
      hc hcs]
    simp
  · rw [getLoad_eq hs hwf hne hps hd.1 hps0 hc hcs]
    congr 3
    generalize ps.map (·.val) = qs
    rw [cells, List.map_flatMap, List.flatMap_def, List.map_map]
    rfl

example : Samples.lc.getLoad Samples.rt (.list [Num.flt 1, Num.flt (1/2), Num.flt 1]) none .none
    = Samples.lc.getLoad Samples.rt (.list [Num.flt (1/2), Num.flt 1]) none .none := by
  apply C10_order_irrelevant
  intro v
  simp only [List.map_cons, List.map_nil, List.mem_cons, List.not_mem_nil, or_false]
  tauto

/-! ## C61 -/

/-- C61 (partial: the row part).  A case without loads answers one `[position, None]` row per distinct position.
Missing: the number of columns, see `C61_width_counterexample`. -/
theorem C61_unloaded_partial (rt : Rt K) (position : PosArg K) (xs : List K)
    (hreq : Requested position xs) (component : CompArg) :
    ∃ ps, Distinct xs ps ∧ (⟨none⟩ : LoadCase K).getLoad rt position none component
      = .ok (some ⟨.obj, 1, ps.map fun p => (p, [none])⟩) := by
  obtain ⟨ps, hps, hd⟩ := requested_listPositions rt (⟨none⟩ : LoadCase K) hreq
  refine ⟨_, hd, ?_⟩
  unfold LoadCase.getLoad
  rw [hps]
  simp [bind, Except.bind, pure, Except.pure, Function.comp_def]

/-- C61 is false as stated: asked for all components, a case without loads answers one column where every loaded
case answers six. -/
theorem C61_width_counterexample {rt : Rt K} (hs : rt.SortOK) (isInt : Bool)
    (rows : List (LRow K)) (hwf : WellFormed rows) (hne : rows ≠ []) (position : PosArg K)
    (xs : List K) (hreq : Requested position xs) (hxs : xs ≠ []) :
    ∃ t₁ t₂, (⟨none⟩ : LoadCase K).getLoad rt position none .none = .ok (some t₁) ∧
      (⟨some ⟨isInt, rows⟩⟩ : LoadCase K).getLoad rt position none .none = .ok (some t₂) ∧
      t₁.width = 1 ∧ t₂.width = 6 := by
  obtain ⟨ps, hps, hd⟩ := requested_listPositions rt ⟨some ⟨isInt, rows⟩⟩ hreq
  have hps0 : ps ≠ [] := by
    rintro rfl
    cases xs with
    | nil => exact hxs rfl
    | cons a t => have := (hd.2 a).2 (by simp); simp at this
  obtain ⟨_, _, he⟩ := C61_unloaded_partial rt position xs hreq .none
  exact ⟨_, _, he, getLoad_eq hs hwf hne hps hd.1 hps0 (component := .none) (cs := LComp.all) rfl
      (by simp [LComp.all]), rfl, rfl⟩

end

end BeamDesign
