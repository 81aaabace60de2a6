import Verif.Props.Beam
import Verif.Spec.IntLoads

/-!
# C20 and C18 for load tables entered as whole numbers: what is reported
-/

set_option linter.unusedSectionVars false

namespace BeamDesign

open Spec

section
variable {K S : Type} [Field K] [LinearOrder K] [IsStrictOrderedRing K]

/-- Everything `list_positions` lists is on an existing element, at a local position that is a float unless the element has no length and a table
of ints. -/
theorem listPositions_mem_any {rt : Rt K} {b : Beam K S} {k : ℤ} (hb : Loaded b k)
    {position : PosArg K} {minPos : Option ℤ} {locs : List (Loc K)}
    (h : b.listPositions rt position minPos (some k) = .ok locs) :
    ∀ l ∈ locs, l.elem < b.elements.length ∧ ((∀ e len t, b.elements[l.elem]? = some e → e.length = some len → len.val = 0 →
      HasTable b k l.elem t → t.isInt = false) → l.loc.isInt = false) := by
  unfold Beam.listPositions at h
  simp only [bind, Except.bind] at h
  split at h
  · cases h
  next ps hps =>
  split at h
  · cases h
  next blocks hblocks =>
  cases h
  intro l hl
  obtain ⟨blk, hblk, hl⟩ := List.mem_flatten.1 hl
  rw [mapM_eq_ok_iff] at hblocks
  obtain ⟨i, hi, hib⟩ := List.getElem_of_mem hblk
  have hr := hblocks.get (by rw [hblocks.length_eq]; exact hi) hi
  simp only [List.get_eq_getElem] at hr
  rw [hib] at hr
  split at hr
  · cases hr
  next es hes =>
  split at hr
  · cases hr
  next ls hls =>
  cases hr
  obtain ⟨blk', hblk', hl⟩ := List.mem_flatten.1 hl
  rw [mapM_eq_ok_iff] at hls
  obtain ⟨j, hj, hjb⟩ := List.getElem_of_mem hblk'
  have hr2 := hls.get (by rw [hls.length_eq]; exact hj) hj
  simp only [List.get_eq_getElem] at hr2
  rw [hjb] at hr2
  unfold Beam.locate at hr2
  simp only [bind, Except.bind] at hr2
  split at hr2
  · cases hr2
  next e he =>
  split at hr2
  · cases hr2
  next len hlen =>
  obtain ⟨m, hm, hmi⟩ := (pyIndex_ok_iff _ _ _).1 he
  have hmlt : m < b.elements.length := by
    by_contra hc
    rw [List.getElem?_eq_none (by omega)] at hm
    cases hm
  have hjes : j < es.length := by rw [hls.length_eq]; exact hj
  have hidx : es[j] = m := by
    rcases hmi with hmi | hmi <;> omega
  have hel : e.length = some len := by
    unfold Element.len at hlen
    split at hlen <;> cases hlen
    assumption
  split_ifs at hr2 with h0
  · split at hr2
    · cases hr2
    next lp0 hlp0 =>
    split at hr2
    · cases hr2
    next lp hlp =>
    cases hr2
    obtain ⟨q, hq, rfl⟩ := List.mem_map.1 hl
    refine ⟨by simp only [hidx]; exact hmlt, fun hfl => ?_⟩
    simp only [hidx] at hfl
    obtain ⟨t, ht⟩ := hb m hmlt
    have hf' := hfl e len t hm hel h0 ht
    obtain ⟨e', he', hlk, -, -⟩ := ht
    rw [hm] at he'; cases he'
    simp [Element.loadPositions, Element.case, hlk, LoadCase.loadPositions, bind, Except.bind] at hlp0
    subst hlp0
    refine zeroLengthPositions_flt hlp ?_ q hq
    intro x hx
    obtain ⟨r, -, rfl⟩ := List.mem_map.1 hx
    exact hf'
  · split at hr2
    · cases hr2
    next q hq =>
    cases hr2
    rw [List.mem_singleton] at hl
    subst hl
    refine ⟨by simp only [hidx]; exact hmlt, fun _ => ?_⟩
    unfold Beam.beamToLocal at hq
    simp only [bind, Except.bind] at hq
    split at hq
    · cases hq
    split at hq
    · cases hq
    split at hq
    · cases hq
    split_ifs at hq
    cases hq
    rfl

theorem table_unique {b : Beam K S} {k : ℤ} {i : ℕ} {t t' : Table K} (h : HasTable b k i t) (h' : HasTable b k i t') : t = t' := by
  obtain ⟨e, he, hl, -, -⟩ := h
  obtain ⟨e', he', hl', -, -⟩ := h'
  rw [he] at he'
  cases he'
  rw [hl] at hl'
  cases hl'
  rfl

theorem listPositions_mem_mixed {rt : Rt K} {b : Beam K S} {k : ℤ} (hb : LoadedMixed b k)
    {position : PosArg K} {minPos : Option ℤ} {locs : List (Loc K)}
    (h : b.listPositions rt position minPos (some k) = .ok locs) :
    ∀ l ∈ locs, l.elem < b.elements.length ∧ l.loc.isInt = false := by
  intro l hl
  obtain ⟨h1, h2⟩ := listPositions_mem_any (fun i hi => (hb i hi).imp fun _ ht => ht.1) h l hl
  refine ⟨h1, h2 fun e len t he hlen h0 ht => ?_⟩
  obtain ⟨t', ht', hf⟩ := hb l.elem h1
  rw [table_unique ht ht']
  exact hf e len he hlen h0

variable [FloorRing K]

/-- What one pass of the loop of `get_loads` adds. -/
def StepTab (rt : Rt K) (b : Beam K S) (k : ℤ) (component : CompArg) (cs : List LComp) (l : Loc K) (tab : Tab K) : Prop :=
  ∃ t e, HasTable b k l.elem t ∧ b.elements[l.elem]? = some e ∧
    e.getLoads rt k (.scalar l.loc) none component
      = .ok (some ⟨answerDType t.isInt (t.rows.map (·.pos)) [l.loc.val], cs.length, cells (block rt t.rows cs l.loc.val)⟩) ∧
    tab = (⟨answerDType t.isInt (t.rows.map (·.pos)) [l.loc.val], cs.length, cells (block rt t.rows cs l.loc.val)⟩ : Tab K).setPos l.pos.val

theorem stepTab_exists {rt : Rt K} (hs : rt.SortOK) {b : Beam K S} {k : ℤ} (hb : Loaded b k)
    {component : CompArg} {cs : List LComp} (hc : component.resolve = .ok cs) (hcs : cs ≠ [])
    (l : Loc K) (h1 : l.elem < b.elements.length) (h2 : l.loc.isInt = false) :
    ∃ tab, StepTab rt b k component cs l tab := by
  obtain ⟨⟨isInt, trows⟩, ht⟩ := hb l.elem h1
  obtain ⟨e, he, hlk, hwf, hne⟩ := ht
  simp only at hwf hne
  refine ⟨_, ⟨isInt, trows⟩, e, ⟨e, he, hlk, hwf, hne⟩, he, ?_, rfl⟩
  unfold Element.getLoads Element.case
  simp only [hlk, bind, Except.bind]
  have hlist : (⟨some ⟨isInt, trows⟩⟩ : LoadCase K).listPositions rt none (.scalar l.loc) = .ok [l.loc] := by
    simp [LoadCase.listPositions, h2, sortedSet_singleton]
  have := getLoad_eq hs hwf hne hlist (by simp) (by simp) hc hcs
  rw [this]
  simp only [List.map_cons, List.map_nil, List.flatMap_cons, List.flatMap_nil, List.append_nil]

theorem StepTab.width {rt : Rt K} {b : Beam K S} {k : ℤ} {component : CompArg} {cs : List LComp} {l : Loc K} {tab : Tab K}
    (h : StepTab rt b k component cs l tab) : tab.width = cs.length := by
  obtain ⟨t, e, -, -, -, rfl⟩ := h
  rfl

theorem foldl_mixed {rt : Rt K} {b : Beam K S} {k : ℤ} {component : CompArg} {cs : List LComp} {locs : List (Loc K)} {tabs : List (Tab K)}
    (h : List.Forall₂ (StepTab rt b k component cs) locs tabs) (acc : Tab K) (ha : acc.width = cs.length) :
    ∃ dt, locs.foldlM (b.loadStep rt k component) (some acc)
      = .ok (some ⟨dt, cs.length, acc.rows ++ (tabs.map (·.rows)).flatten⟩) := by
  induction h generalizing acc with
  | nil => exact ⟨acc.dt, by rw [← ha]; simp [pure, Except.pure]⟩
  | @cons l tab _ _ h1 _ ih =>
    have hw := h1.width
    have hstep : b.loadStep rt k component (some acc) l = .ok (some ⟨acc.dt.join tab.dt, cs.length, acc.rows ++ tab.rows⟩) := by
      obtain ⟨t, e, -, he, hg, rfl⟩ := h1
      unfold Beam.loadStep
      simp only [pyIndex_nat _ _ _ he, hg, bind, Except.bind]
      rw [Tab.vstack, if_pos (ha.trans hw.symm), ha]
      rfl
    obtain ⟨dt, e⟩ := ih ⟨acc.dt.join tab.dt, cs.length, acc.rows ++ tab.rows⟩ rfl
    refine ⟨dt, ?_⟩
    rw [List.foldlM_cons, hstep]
    simp only [bind, Except.bind]
    rw [e]
    simp

theorem truncated_truncK (p : K) : Truncated p (truncK p) := by
  unfold truncK
  split_ifs with h
  · have h1 : (0 : K) ≤ (⌊p⌋ : ℤ) := by exact_mod_cast Int.floor_nonneg.2 h
    refine ⟨⌊p⌋, rfl, ?_, ?_, mul_nonneg h h1⟩
    · rw [abs_of_nonneg h1, abs_of_nonneg h]; exact Int.floor_le p
    · rw [abs_of_nonneg h1, abs_of_nonneg h]; exact Int.lt_floor_add_one p
  · have h := not_le.1 h
    have h1 : ((⌈p⌉ : ℤ) : K) ≤ 0 := by
      have : ⌈p⌉ ≤ 0 := Int.ceil_le.2 (by simpa using h.le)
      exact_mod_cast this
    refine ⟨⌈p⌉, rfl, ?_, ?_, mul_nonneg_of_nonpos_of_nonpos h.le h1⟩
    · rw [abs_of_nonpos h1, abs_of_neg h]; linarith [Int.le_ceil p]
    · rw [abs_of_nonpos h1, abs_of_neg h]; linarith [Int.ceil_lt_add_one p]

/-- C20: stacked tables hold whole numbers only if both do, and objects if one of them does; the rows are those of both, in order. -/
theorem C20_dtype {K : Type} (a b t : Tab K) (h : a.vstack b = .ok t) :
    (t.dt = .int ↔ a.dt = .int ∧ b.dt = .int) ∧ (t.dt = .obj ↔ a.dt = .obj ∨ b.dt = .obj) ∧ t.rows = a.rows ++ b.rows := by
  unfold Tab.vstack at h
  split_ifs at h
  cases h
  rcases a.dt <;> rcases b.dt <;> simp [DType.join]

/-- C20, what is reported: with tables of ints or floats (floats on elements of length zero) `get_loads` reports, for each entry of the listing, the
answer of the table of the element at the local position; the position is that on the beam, cut off to a whole number exactly where a table of ints
is asked at one of its stored positions. -/
theorem C20_reported {rt : Rt K} (hx : rt.Exact) (hs : rt.SortOK) (b : Beam K S) (k : ℤ) (hb : LoadedMixed b k)
    (component : CompArg) (cs : List LComp) (hc : Asks component cs) (hcs : cs ≠ [])
    (position : PosArg K) (minPos : Option ℤ) (locs : List (Loc K)) (hne : locs ≠ [])
    (h : b.listPositions rt position minPos (some k) = .ok locs) :
    ∃ blocks dt, List.Forall₂ (MixedBlock b k cs) locs blocks ∧
      b.getLoads rt k position minPos component = .ok (some ⟨dt, cs.length, cells blocks.flatten⟩) := by
  rw [asks_iff] at hc
  have hex : ∀ locs : List (Loc K), (∀ l ∈ locs, l.elem < b.elements.length ∧ l.loc.isInt = false) →
      ∃ tabs, List.Forall₂ (StepTab rt b k component cs) locs tabs := by
    intro locs
    induction locs with
    | nil => intro _; exact ⟨[], List.Forall₂.nil⟩
    | cons l t ih =>
      intro hl
      obtain ⟨bs, hbs⟩ := ih fun x hx => hl x (List.mem_cons_of_mem _ hx)
      obtain ⟨r, hr⟩ := stepTab_exists hs (fun i hi => (hb i hi).imp fun _ ht => ht.1) hc hcs l (hl l (by simp)).1 (hl l (by simp)).2
      exact ⟨r :: bs, List.Forall₂.cons hr hbs⟩
  obtain ⟨tabs, htabs⟩ := hex locs (listPositions_mem_mixed hb h)
  have hblock : ∀ (l : Loc K) (tab : Tab K), StepTab rt b k component cs l tab → ∃ rows, MixedBlock b k cs l rows ∧ tab.rows = cells rows := by
    rintro l tab ⟨t, e, ht, he, -, rfl⟩
    refine ⟨(block rt t.rows cs l.loc.val).map fun r =>
      ((if answerDType t.isInt (t.rows.map (·.pos)) [l.loc.val] = .int then truncK l.pos.val else l.pos.val), r.2),
      ⟨t, _, _, ht, block_answer hx ht.choose_spec.2.2.2 cs l.loc.val, rfl, ?_, ?_⟩, ?_⟩
    · rintro ⟨h1, h2⟩
      rw [if_pos]
      · exact truncated_truncK _
      · simp only [answerDType, h1]
        rw [if_pos (by simpa using h2)]
        rfl
    · intro h1
      rw [if_neg]
      simp only [answerDType]
      intro h2
      split_ifs at h2 with h3 h4
      exact h1 ⟨h4, h3 _ (by simp)⟩
    · simp [Tab.setPos, cells]
  have hblocks : ∃ blocks, List.Forall₂ (MixedBlock b k cs) locs blocks ∧ (tabs.map (·.rows)).flatten = cells blocks.flatten := by
    clear h hne
    induction htabs with
    | nil => exact ⟨[], .nil, by simp [cells]⟩
    | cons h1 _ ih =>
      obtain ⟨bs, hf, e⟩ := ih
      obtain ⟨r, hr, e'⟩ := hblock _ _ h1
      refine ⟨r :: bs, .cons hr hf, ?_⟩
      rw [List.map_cons, List.flatten_cons, e, e', List.flatten_cons]
      simp [cells]
  obtain ⟨blocks, hf, e⟩ := hblocks
  refine ⟨blocks, ?_⟩
  unfold Beam.getLoads
  rw [h]
  simp only [bind, Except.bind]
  cases htabs with
  | nil => exact absurd rfl hne
  | @cons l tab _ _ h1 h2 =>
    have hstep : b.loadStep rt k component none l = .ok (some tab) := by
      obtain ⟨t, e, -, he, hg, rfl⟩ := h1
      unfold Beam.loadStep
      simp only [pyIndex_nat _ _ _ he, hg, bind, Except.bind]
      rfl
    obtain ⟨dt, e2⟩ := foldl_mixed h2 tab h1.width
    refine ⟨dt, hf, ?_⟩
    rw [List.foldlM_cons, hstep]
    simp only [bind, Except.bind]
    rw [e2, ← e, List.map_cons, List.flatten_cons]

/-- C20, the part that holds for tables of ints: on elements of any length except zero, positions that are whole numbers are reported as they are,
in ascending order and completely. -/
theorem C20_whole_partial {rt : Rt K} (hx : rt.Exact) (hs : rt.SortOK) (b : Beam K S) (ls : List (Num K))
    (h : HasLengths b ls) (hls : ls ≠ []) (k : ℤ) (hb : LoadedMixed b k)
    (component : CompArg) (cs : List LComp) (hc : Asks component cs) (hcs : cs ≠ [])
    (position : PosArg K) (xs : List K) (hreq : Requested position xs) (hxs : xs ≠ [])
    (hin : ∀ x ∈ xs, 0 ≤ x ∧ x ≤ total ls) (hw : ∀ x ∈ xs, ∃ n : ℤ, x = n) :
    ∃ locs blocks dt, Listing ls (some k) xs locs ∧ List.Forall₂ (LoadBlock b k cs) locs blocks ∧
      b.getLoads rt k position none component = .ok (some ⟨dt, cs.length, cells blocks.flatten⟩) := by
  obtain ⟨locs, hlocs, hl⟩ := C15_listing hx b ls h position xs hreq (some k) (by
    rintro k' hk i l hl -
    cases hk
    obtain ⟨t, ht, -⟩ := hb i (by
      rw [hasLengths_length h]
      by_contra hcc
      rw [List.getElem?_eq_none (by omega)] at hl
      cases hl)
    exact ⟨t, ht⟩) hin
  have hne : locs ≠ [] := by
    obtain ⟨x, hx'⟩ := List.exists_mem_of_ne_nil xs hxs
    obtain ⟨i, hi⟩ := exists_inElement h.2 hls (hin x hx').1 (hin x hx').2
    obtain ⟨pairs, blocks, hp, hf, rfl⟩ := hl
    have hmem := (hp.2 x i).2 ⟨hx', hi⟩
    obtain ⟨j, hj, hje⟩ := List.getElem_of_mem hmem
    have := hf.get hj (by rw [← hf.length_eq]; exact hj)
    simp only [List.get_eq_getElem] at this
    obtain ⟨l, -, -, -, -, hbne⟩ := this
    intro h0
    rw [List.flatten_eq_nil_iff] at h0
    exact hbne (h0 _ (List.getElem_mem _))
  have hpos : ∀ l ∈ locs, l.pos.val ∈ xs := by
    obtain ⟨pairs, blocks, hp, hf, rfl⟩ := hl
    intro l hl
    obtain ⟨blk, hblk, hl⟩ := List.mem_flatten.1 hl
    obtain ⟨j, hj, rfl⟩ := List.getElem_of_mem hblk
    have := hf.get (by rw [hf.length_eq]; exact hj) hj
    simp only [List.get_eq_getElem] at this
    obtain ⟨l', -, hb2, -⟩ := this
    rw [(hb2 l hl).1]
    exact ((hp.2 _ _).1 (List.getElem_mem (by rw [hf.length_eq]; exact hj))).1
  obtain ⟨blocks, dt, hf, e⟩ := C20_reported hx hs b k hb component cs hc hcs position none locs hne hlocs
  refine ⟨locs, blocks, dt, hl, ?_, e⟩
  rw [List.forall₂_iff_get] at hf ⊢
  refine ⟨hf.1, fun i h1 h2 => ?_⟩
  obtain ⟨t, ans, q, ht, ha, hr, htr, hno⟩ := hf.2 i h1 h2
  refine ⟨t, ans, ht, ha, ?_⟩
  rw [hr]
  obtain ⟨n, hn⟩ := hw _ (hpos _ (List.get_mem locs ⟨i, h1⟩))
  have hq : q = (locs.get ⟨i, h1⟩).pos.val := by
    by_cases hi : t.isInt = true ∧ (locs.get ⟨i, h1⟩).loc.val ∈ t.rows.map (·.pos)
    · obtain ⟨m, hm, a1, a2, a3⟩ := htr hi
      rw [hn] at a1 a2 a3 ⊢
      rw [hm] at a1 a2 a3 ⊢
      have b1 : |m| ≤ |n| := by exact_mod_cast a1
      have b2 : |n| < |m| + 1 := by exact_mod_cast a2
      have b3 : 0 ≤ n * m := by exact_mod_cast a3
      have b4 : |m| = |n| := by omega
      have : m = n := by
        rcases abs_eq_abs.1 b4 with g | g
        · exact g
        · rw [g] at b3 ⊢
          have : n = 0 := by nlinarith
          rw [this]; rfl
      rw [this]
    · exact hno hi
  rw [hq]

/-- An element without length and with a table of ints that reaches from 0 to 1 makes `get_loads` fail: its stored positions are ints, which the
element does not accept as a position. -/
theorem C20_zero_length {rt : Rt K} (hx : rt.Exact) (hs : rt.SortOK) (b : Beam K S)
    (ls : List (Num K)) (h : HasLengths b ls) (k : ℤ) (hb : Loaded b k)
    (component : CompArg) (cs : List LComp) (hc : Asks component cs) (hcs : cs ≠ [])
    (position : PosArg K) (xs : List K) (hreq : Requested position xs)
    (hin : ∀ x ∈ xs, 0 ≤ x ∧ x ≤ total ls)
    (i : ℕ) (l : Num K) (hl : ls[i]? = some l) (hl0 : l.val = 0) (hi : startOf ls i ∈ xs) (t : Table K)
    (ht : HasTable b k i t) (hint : t.isInt = true) (first last : LRow K)
    (hfirst : t.rows.head? = some first) (h0 : first.pos = 0)
    (hlast : t.rows.getLast? = some last) (h1 : last.pos = 1) :
    b.getLoads rt k position none component = .error .typeError := by
  rw [asks_iff] at hc
  have hlen : i < ls.length := by
    by_contra hcc
    rw [List.getElem?_eq_none (by omega)] at hl
    cases hl
  obtain ⟨locs, hlocs, -⟩ := C15_listing hx b ls h position xs hreq (some k) (by
    rintro k' hk i l hl -
    cases hk
    exact hb i (by
      rw [hasLengths_length h]
      by_contra hcc
      rw [List.getElem?_eq_none (by omega)] at hl
      cases hl)) hin
  obtain ⟨L, hL, hLv⟩ := length_ok hx h
  obtain ⟨ps, hps, -, hv⟩ := (positionList_explicit hL hreq (some k)).2 (by rw [hLv]; exact hin)
  obtain ⟨p, hp, hpv⟩ := List.mem_map.1 ((hv _).2 hi)
  obtain ⟨is, h2, -, h3⟩ := inElements_ok hx h p
  have hmem : i ∈ is := (h3 i).2 ⟨hlen, by rw [hpv], by rw [hpv]; exact startOf_mono h.2 (by omega)⟩
  obtain ⟨e, he, hk, -, -⟩ := ht
  have hel : e.length = some l := by
    obtain ⟨hll, hl'⟩ := List.getElem?_eq_some_iff.1 hl
    obtain ⟨hei, he'⟩ := List.getElem?_eq_some_iff.1 he
    have := h.1.get hei hlen
    simp only [List.get_eq_getElem, he', hl'] at this
    exact this
  obtain ⟨block, hblk, hsub⟩ := listPositions_contains hps hlocs hp h2 hmem
  rw [C19_listed_partial b i e l he hel hl0 k t hk first last hfirst h0 hlast h1 p] at hblk
  cases hblk
  have hf : first ∈ t.rows := by
    cases hrows : t.rows with
    | nil => rw [hrows] at hfirst; cases hfirst
    | cons a as => rw [hrows] at hfirst; cases hfirst; simp
  have hbad : ∃ l ∈ locs, l.loc.isInt = true := ⟨_, hsub _ (List.mem_map.2 ⟨first, hf, rfl⟩), hint⟩
  have hall := fun l hl => (listPositions_mem_any hb hlocs l hl).1
  unfold Beam.getLoads
  rw [hlocs]
  simp only [bind, Except.bind]
  -- the loop stops at the first int
  have hint : ∀ (acc : Option (Tab K)) (l : Loc K), l.elem < b.elements.length → l.loc.isInt = true →
      b.loadStep rt k component acc l = .error .typeError := by
    intro acc l hl hi
    obtain ⟨t, e, he, hlk, -, -⟩ := hb l.elem hl
    have : (⟨some t⟩ : LoadCase K).listPositions rt none (.scalar l.loc) = .error .typeError := by
      simp [LoadCase.listPositions, hi]
    unfold Beam.loadStep
    simp only [pyIndex_nat _ _ _ he, bind, Except.bind, Element.getLoads, Element.case, hlk, LoadCase.getLoad, this]
  have hgo : ∀ (locs : List (Loc K)) (acc : Option (Tab K)), (∀ a, acc = some a → a.width = cs.length) →
      (∀ l ∈ locs, l.elem < b.elements.length) → (∃ l ∈ locs, l.loc.isInt = true) →
      locs.foldlM (b.loadStep rt k component) acc = .error .typeError := by
    intro locs
    induction locs with
    | nil => rintro acc - - ⟨l, hl, -⟩; cases hl
    | cons l rest ih =>
      intro acc ha hall hbad
      rw [List.foldlM_cons]
      rcases Bool.eq_false_or_eq_true l.loc.isInt with g | g
      · rw [hint acc l (hall l (by simp)) g]
        rfl
      · obtain ⟨tab, htab⟩ := stepTab_exists hs hb hc hcs l (hall l (by simp)) g
        have hw := htab.width
        have hstep : ∃ a, b.loadStep rt k component acc l = .ok (some a) ∧ a.width = cs.length := by
          obtain ⟨t, e, -, he, hg, rfl⟩ := htab
          unfold Beam.loadStep
          simp only [pyIndex_nat _ _ _ he, hg, bind, Except.bind]
          cases acc with
          | none => exact ⟨_, rfl, hw⟩
          | some a =>
            simp only
            rw [Tab.vstack, if_pos ((ha a rfl).trans hw.symm)]
            exact ⟨_, rfl, ha a rfl⟩
        obtain ⟨a, e1, e2⟩ := hstep
        rw [e1]
        simp only [bind, Except.bind]
        refine ih (some a) (by rintro _ ⟨⟩; exact e2) (fun l hl => hall l (by simp [hl])) ?_
        obtain ⟨l', hl', hi'⟩ := hbad
        rcases List.mem_cons.1 hl' with rfl | hl'
        · rw [g] at hi'; cases hi'
        · exact ⟨l', hl', hi'⟩
  exact hgo locs none (by rintro _ ⟨⟩) hall hbad

end

/-- the beam of `C20_counterexample` and one with a piece without length behind it, all loaded with tables of ints -/
def pinBeam : Beam ℚ Unit :=
  ⟨intBeam.elements ++ [⟨[(1, ⟨some ⟨true, [⟨0, 0, 0, 4, 0, 0, 0⟩, ⟨1, 0, 0, 6, 0, 0, 0⟩]⟩⟩)], some (Num.flt 0), ()⟩]⟩

example : LoadedMixed intBeam 1 ∧ HasLengths intBeam [Num.flt (7 / 2)] ∧ Loaded pinBeam 1 ∧ HasLengths pinBeam [Num.flt (7 / 2), Num.flt 0] ∧
    (intBeam.getLoads Samples.rt 1 (.list [Num.flt 0, Num.flt 1, Num.flt (7 / 2)]) none (.comp .N)).toOption
      = some (some ⟨.flt, 1, [(0, [some 5]), (1, [some (43 / 7)]), (3, [some 9])]⟩) ∧
    pinBeam.getLoads Samples.rt 1 (.scalar (Num.flt (7 / 2))) none (.comp .N) = .error .typeError := by
  refine ⟨?_, ⟨?_, ?_⟩, ?_, ⟨?_, ?_⟩, by decide +kernel, by decide +kernel⟩
  · intro i hi
    obtain rfl : i = 0 := by
      have : intBeam.elements.length = 1 := rfl
      omega
    refine ⟨_, ⟨_, rfl, rfl, by unfold WellFormed; decide +kernel, by simp⟩, ?_⟩
    rintro e l ⟨⟩ ⟨⟩ h0
    norm_num [Num.flt] at h0
  · exact .cons rfl .nil
  · norm_num [Num.flt]
  · intro i hi
    have : pinBeam.elements.length = 2 := rfl
    rcases (by omega : i = 0 ∨ i = 1) with rfl | rfl
    · exact ⟨_, _, rfl, rfl, by unfold WellFormed; decide +kernel, by simp⟩
    · exact ⟨_, _, rfl, rfl, by unfold WellFormed; decide +kernel, by simp⟩
  · exact .cons rfl (.cons rfl .nil)
  · norm_num [Num.flt]

end BeamDesign
