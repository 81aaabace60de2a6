import Verif.Lemmas.Load
import Verif.Lemmas.AS4100
import Verif.Spec.OneByOne

/-!
# Lemmas for C156
-/

set_option linter.unusedSectionVars false

namespace BeamDesign

variable {K : Type} [Field K] [LinearOrder K] [IsStrictOrderedRing K] [FloorRing K]
variable {rt : Rt K} {S : Type}

/-- loads at one position have at least one row -/
theorem getLoad_scalar_rows {lc : LoadCase K} {p : Num K} {comp : CompArg} {t : Tab K}
    (h0 : lc.getLoad rt (.scalar p) none comp = .ok (some t)) : t.rows ≠ [] := by
  by_cases hp : p.isInt = true
  · simp [LoadCase.getLoad, LoadCase.listPositions, hp, bind, Except.bind] at h0
  have hs : sortedSet [p] = [p] := by simp [sortedSet, pySet, pySorted]
  have ht : lc.listPositions rt none (.scalar p) = .ok [p] := by
    unfold LoadCase.listPositions
    simp only [hp, Bool.false_eq_true, if_false, hs]
  unfold LoadCase.getLoad at h0
  rw [ht] at h0
  simp only [bind, Except.bind, pure, Except.pure] at h0
  cases hl : lc.loads with
  | none =>
    rw [hl] at h0
    cases h0
    simp
  | some tab =>
    rw [hl] at h0
    cases hc : comp.resolve with
    | error e => rw [hc] at h0; cases h0
    | ok comps =>
    rw [hc] at h0
    by_cases hm : p.val ∈ tab.rows.map (·.pos)
    · have hne : tab.rows ≠ [] := by rintro h; rw [h] at hm; cases hm
      obtain ⟨r, hr, hrp⟩ := List.mem_map.1 hm
      simp only [List.map_cons, List.map_nil, List.filter_cons, List.filter_nil, hm, decide_true, not_true_eq_false, decide_false,
        Bool.false_eq_true, if_true, if_false] at h0
      generalize (if tab.isInt = true then DType.int else DType.flt) = tdt at h0
      simp only [reduceCtorEq, if_false] at h0
      split_ifs at h0 with h1
      · cases h0
        simpa [cells] using hne
      · cases h0
        intro he
        have he : (tab.rows.filter fun r => decide (r.pos ∈ [p.val])) = [] := by simpa [cells] using he
        have : r ∈ tab.rows.filter fun r => decide (r.pos ∈ [p.val]) := List.mem_filter.2 ⟨hr, by simp [hrp]⟩
        rw [he] at this
        cases this
    · simp only [List.map_cons, List.map_nil, List.filter_cons, List.filter_nil, hm, decide_true, not_false_eq_true, decide_false,
        Bool.false_eq_true, if_true, if_false] at h0
      generalize (if tab.isInt = true then DType.int else DType.flt) = tdt at h0
      simp only [reduceCtorEq, if_false] at h0
      split_ifs at h0 with h1
      · cases h0
        intro he
        have he : tab.rows = [] := by simpa [cells] using he
        rw [he] at h1
        simp [sortedSet, pySet, pySorted] at h1
      · cases hv : multiInterp rt (some [p.val]) (tab.rows.map (·.pos)) (comps.map fun c => tab.rows.map fun r => r.get c) none none with
        | error e => rw [hv] at h0; cases h0
        | ok vals =>
          rw [hv] at h0
          cases h0
          unfold multiInterp at hv
          split_ifs at hv
          cases (mapM_ok_iff _ _ _).1 hv with
          | cons _ h3 => simp [cells]

/-- no table, or one with rows -/
def HasRows (a : Option (Tab K)) : Prop := ∀ t, a = some t → t.rows ≠ []

theorem loadStep_rows {b : Beam K S} {c : ℤ} {comp : CompArg} {acc a : Option (Tab K)} {l : Loc K} (hacc : HasRows acc)
    (h : b.loadStep rt c comp acc l = .ok a) : HasRows a := by
  unfold Beam.loadStep at h
  simp only [bind, Except.bind, pure, Except.pure] at h
  split at h
  · cases h
  split at h
  · cases h
  next val hval =>
  unfold Element.getLoads at hval
  simp only [bind, Except.bind] at hval
  split at hval
  · cases hval
  cases val with
  | none => cases h
  | some t =>
    have ht := getLoad_scalar_rows hval
    have ht' : (t.setPos l.pos.val).rows ≠ [] := by simpa [Tab.setPos] using ht
    cases acc with
    | none => cases h; rintro _ ⟨⟩; exact ht'
    | some x =>
      simp only at h
      split at h
      · cases h
      next y hy =>
      cases h
      rintro _ ⟨⟩
      unfold Tab.vstack at hy
      split_ifs at hy
      cases hy
      simpa using fun _ => ht'

theorem foldlM_rows {b : Beam K S} {c : ℤ} {comp : CompArg} (locs : List (Loc K)) : ∀ {acc a : Option (Tab K)}, HasRows acc →
    locs.foldlM (b.loadStep rt c comp) acc = .ok a → HasRows a := by
  induction locs with
  | nil => intro acc a hacc h; cases h; exact hacc
  | cons l locs ih =>
    intro acc a hacc h
    simp only [List.foldlM_cons, bind, Except.bind] at h
    split at h
    · cases h
    next x hx => exact ih (loadStep_rows hacc hx) h

theorem getTension_rows {o : AS4100 K} {c : ℤ} {p : PosArg K} {n : Option ℤ} {tab : Tab K} (h : o.getTension rt c p n = .ok tab) :
    tab.rows ≠ [] := by
  unfold AS4100.getTension at h
  cases hb : o.beam with
  | none => rw [hb] at h; cases h
  | some b =>
    rw [hb] at h
    simp only [bind, Except.bind, pure, Except.pure] at h
    split at h
    · cases h
    next a ha =>
    unfold Beam.getLoads at ha
    simp only [bind, Except.bind] at ha
    split at ha
    · cases ha
    have hr := foldlM_rows _ (by intro t ht; cases ht) ha
    cases a with
    | none => cases h
    | some t =>
      simp only at h
      split at h
      · cases h
      next rows hrows =>
      cases h
      have := ((mapM_ok_iff _ _ _).1 hrows).length_eq
      intro he
      rw [show rows = [] from he] at this
      exact hr t rfl (List.length_eq_zero_iff.1 this)

theorem utilAt_rows {o : AS4100 K} {c : ℤ} {p : Num K} {l : List (ℤ × Num K × K)} (h : o.utilAt rt c p = .ok l) : l ≠ [] := by
  unfold AS4100.utilAt at h
  simp only [bind, Except.bind, pure, Except.pure] at h
  split at h
  · cases h
  split at h
  · cases h
  next tab htab =>
  have := ((mapM_ok_iff _ _ _).1 h).length_eq
  rintro rfl
  exact getTension_rows htab (List.length_eq_zero_iff.1 this)

theorem forall₂_of_right {α β : Type} {R : α → β → Prop} {xs : List α} {ys : List β} (h : List.Forall₂ R xs ys) :
    ∀ y ∈ ys, ∃ x ∈ xs, R x y := by
  induction h with
  | nil => intro y hy; cases hy
  | cons h _ ih =>
    intro y hy
    rcases List.mem_cons.1 hy with rfl | hy
    · exact ⟨_, List.mem_cons_self, h⟩
    · obtain ⟨x, hx, hr⟩ := ih y hy
      exact ⟨x, List.mem_cons_of_mem _ hx, hr⟩

theorem forall₂_of_left {α β : Type} {R : α → β → Prop} {xs : List α} {ys : List β} (h : List.Forall₂ R xs ys) :
    ∀ x ∈ xs, ∃ y ∈ ys, R x y := by
  induction h with
  | nil => intro y hy; cases hy
  | cons h _ ih =>
    intro y hy
    rcases List.mem_cons.1 hy with rfl | hy
    · exact ⟨_, List.mem_cons_self, h⟩
    · obtain ⟨x, hx, hr⟩ := ih y hy
      exact ⟨x, List.mem_cons_of_mem _ hx, hr⟩

theorem mapM_of_each {α β : Type} {f : α → Py β} : ∀ (xs : List α), (∀ x ∈ xs, ∃ y, f x = .ok y) → ∃ ys, xs.mapM f = .ok ys := by
  intro xs
  induction xs with
  | nil => intro _; exact ⟨[], rfl⟩
  | cons x xs ih =>
    intro h
    obtain ⟨y, hy⟩ := h x List.mem_cons_self
    obtain ⟨ys, hys⟩ := ih fun z hz => h z (List.mem_cons_of_mem _ hz)
    exact ⟨y :: ys, (mapM_ok_iff _ _ _).2 (.cons hy ((mapM_ok_iff _ _ _).1 hys))⟩

/-- the position and load case of every row -/
theorem utilAt_label {o : AS4100 K} {c : ℤ} {p : Num K} {l : List (ℤ × Num K × K)} (h : o.utilAt rt c p = .ok l) :
    ∀ r ∈ l, r.1 = c ∧ r.2.1 = p := by
  unfold AS4100.utilAt at h
  simp only [bind, Except.bind, pure, Except.pure] at h
  split at h
  · cases h
  split at h
  · cases h
  next tab htab =>
  intro r hr
  obtain ⟨x, -, hx⟩ := forall₂_of_right ((mapM_ok_iff _ _ _).1 h) r hr
  split at hx
  · split at hx
    · cases hx
    · cases hx; exact ⟨rfl, rfl⟩
  · cases hx

/-- the loop at given positions finishes iff every single check does -/
theorem utilLoop_iff {o : AS4100 K} {ps : List (Num K)} : ∀ (cs : List ℤ),
    ((∃ ret, o.utilLoop rt (some ps) cs = .ok ret) ↔ ∀ c ∈ cs, ∀ p ∈ ps, ∃ l, o.utilAt rt c p = .ok l) ∧
    ∀ ret, o.utilLoop rt (some ps) cs = .ok ret → ∀ r, r ∈ ret ↔ ∃ c ∈ cs, ∃ p ∈ ps, ∃ l, o.utilAt rt c p = .ok l ∧ r ∈ l := by
  intro cs
  induction cs with
  | nil =>
    refine ⟨⟨fun _ c hc => (by cases hc), fun _ => ⟨[], rfl⟩⟩, fun ret h r => ?_⟩
    cases h
    simp
  | cons c cs ih =>
    obtain ⟨ih1, ih2⟩ := ih
    have hstep : o.utilLoop rt (some ps) (c :: cs) = (do
        let here ← ps.mapM fun p => o.utilAt rt c p
        let rest ← o.utilLoop rt (some ps) cs
        return here.flatten ++ rest) := rfl
    constructor
    · constructor
      · rintro ⟨ret, h⟩
        rw [hstep] at h
        simp only [bind, Except.bind, pure, Except.pure] at h
        split at h
        · cases h
        next here hhere =>
        split at h
        · cases h
        next rest hrest =>
        intro c' hc' p hp
        rcases List.mem_cons.1 hc' with rfl | hc'
        · obtain ⟨l, -, hl⟩ := forall₂_of_left ((mapM_ok_iff _ _ _).1 hhere) p hp
          exact ⟨l, hl⟩
        · exact ih1.1 ⟨rest, hrest⟩ c' hc' p hp
      · intro h
        obtain ⟨here, hhere⟩ := mapM_of_each ps fun p hp => h c List.mem_cons_self p hp
        obtain ⟨rest, hrest⟩ := ih1.2 fun c' hc' => h c' (List.mem_cons_of_mem _ hc')
        exact ⟨here.flatten ++ rest, by rw [hstep, hhere, hrest]; rfl⟩
    · intro ret h r
      rw [hstep] at h
      simp only [bind, Except.bind, pure, Except.pure] at h
      split at h
      · cases h
      next here hhere =>
      split at h
      · cases h
      next rest hrest =>
      cases h
      have hf := (mapM_ok_iff _ _ _).1 hhere
      rw [List.mem_append, List.mem_flatten, ih2 rest hrest r]
      constructor
      · rintro (⟨l, hl, hr⟩ | ⟨c', hc', p, hp, l, hl, hr⟩)
        · obtain ⟨p, hp, e⟩ := forall₂_of_right hf l hl
          exact ⟨c, List.mem_cons_self, p, hp, l, e, hr⟩
        · exact ⟨c', List.mem_cons_of_mem _ hc', p, hp, l, hl, hr⟩
      · rintro ⟨c', hc', p, hp, l, hl, hr⟩
        rcases List.mem_cons.1 hc' with rfl | hc'
        · obtain ⟨l', hl', e⟩ := forall₂_of_left hf p hp
          rw [hl] at e
          cases e
          exact .inl ⟨l, hl', hr⟩
        · exact .inr ⟨c', hc', p, hp, l, hl, hr⟩

theorem pyMax_iff {xs : List K} {m : K} : pyMax xs = .ok m ↔ IsGreatest {y | y ∈ xs} m := by
  constructor
  · exact pyMax_ok
  · intro h
    obtain ⟨m', hm⟩ := pyMax_ne (List.ne_nil_of_mem h.1)
    rw [hm, (pyMax_ok hm).unique h]

/-- a check asked for on its own -/
theorem alone_eq {o : AS4100 K} {c : ℤ} {p : Num K} :
    Spec.alone rt o c p = (o.utilAt rt c p).bind fun l => pyMax (l.map fun r => r.2.2) := by
  unfold Spec.alone AS4100.tensionUtilisation
  simp only [PosArg.given, AS4100.utilCases, AS4100.utilLoop, AS4100.utilPositions, List.mapM_cons, List.mapM_nil, bind, Except.bind,
    pure, Except.pure]
  cases o.utilAt rt c p with
  | error e => rfl
  | ok l => simp [utilFilter]

theorem alone_ok {o : AS4100 K} {c : ℤ} {p : Num K} {v : K} :
    Spec.alone rt o c p = .ok v ↔ ∃ l, o.utilAt rt c p = .ok l ∧ IsGreatest {y | y ∈ l.map fun r => r.2.2} v := by
  rw [alone_eq]
  cases h : o.utilAt rt c p with
  | error e => simp [Except.bind]
  | ok l => simp [Except.bind, pyMax_iff]

theorem alone_defined {o : AS4100 K} {c : ℤ} {p : Num K} :
    (∃ v, Spec.alone rt o c p = .ok v) ↔ ∃ l, o.utilAt rt c p = .ok l := by
  constructor
  · rintro ⟨v, hv⟩
    obtain ⟨l, hl, -⟩ := alone_ok.1 hv
    exact ⟨l, hl⟩
  · rintro ⟨l, hl⟩
    obtain ⟨m, hm⟩ := pyMax_ne (xs := l.map fun r => r.2.2) (by simpa using utilAt_rows hl)
    exact ⟨m, alone_ok.2 ⟨l, hl, pyMax_ok hm⟩⟩

theorem alone_error {o : AS4100 K} {c : ℤ} {p : Num K} {e : PyErr} :
    Spec.alone rt o c p = .error e ↔ o.utilAt rt c p = .error e := by
  rw [alone_eq]
  cases h : o.utilAt rt c p with
  | error e => simp [Except.bind]
  | ok l =>
    obtain ⟨m, hm⟩ := pyMax_ne (xs := l.map fun r => r.2.2) (by simpa using utilAt_rows h)
    simp [Except.bind, hm]

/-- the loop at given positions is one run over the pairs -/
theorem utilLoop_pairs {o : AS4100 K} {ps : List (Num K)} : ∀ (cs : List ℤ),
    o.utilLoop rt (some ps) cs = ((Spec.pairsInOrder cs ps).mapM fun q => o.utilAt rt q.1 q.2).map List.flatten := by
  intro cs
  induction cs with
  | nil => rfl
  | cons c cs ih =>
    have hstep : o.utilLoop rt (some ps) (c :: cs) = (do
        let here ← ps.mapM fun p => o.utilAt rt c p
        let rest ← o.utilLoop rt (some ps) cs
        return here.flatten ++ rest) := rfl
    have hmap : ((ps.map fun p => (c, p)).mapM fun q => o.utilAt rt q.1 q.2) = ps.mapM fun p => o.utilAt rt c p := by
      rw [List.mapM_map]
      rfl
    have hcons : Spec.pairsInOrder (c :: cs) ps = (ps.map fun p => (c, p)) ++ Spec.pairsInOrder cs ps := rfl
    rw [hstep, ih, hcons, List.mapM_append, hmap]
    simp only [bind, Except.bind, pure, Except.pure]
    cases ps.mapM fun p => o.utilAt rt c p with
    | error e => rfl
    | ok here =>
      cases hr : (Spec.pairsInOrder cs ps).mapM fun q => o.utilAt rt q.1 q.2 with
      | error e => rfl
      | ok rest => simp [Except.map]

theorem mapM_first_error {α β : Type} {f : α → Py β} {x : α} {e : PyErr} (hx : f x = .error e) : ∀ (pre post : List α),
    (∀ y ∈ pre, ∃ z, f y = .ok z) → (pre ++ x :: post).mapM f = .error e := by
  intro pre post h
  obtain ⟨ys, hys⟩ := mapM_of_each pre h
  rw [List.mapM_append, hys, List.mapM_cons, hx]
  rfl

/-- a list of load cases at given positions -/
theorem util_list {o : AS4100 K} {cs : List ℤ} {ps : List (Num K)} :
    o.tensionUtilisation rt (.list cs) (.list ps) = (o.utilLoop rt (some ps) cs).bind fun ret => pyMax (ret.map fun r => r.2.2) := by
  rfl

end BeamDesign
