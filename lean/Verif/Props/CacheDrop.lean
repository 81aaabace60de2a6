import Verif.Props.CacheSize

/-!
# What the caches of S6.py forget: C148
-/

set_option linter.unusedSimpArgs false

namespace BeamDesign

open S6

/-- The entries at the front are for different keys of `L`, and either they cover `L` or there are no others. -/
def FrontOf (L : List FKey) (c : List (FKey × ℕ)) : Prop :=
  ∃ pre rest, c = pre ++ rest ∧ (pre.map (·.1)).Nodup ∧ (∀ e ∈ pre, e.1 ∈ L) ∧ ((∀ k ∈ L, k ∈ pre.map (·.1)) ∨ rest = [])

theorem frontOf_get {L : List FKey} {c c' : List (FKey × ℕ)} {k : FKey} {v : ℕ} (h : FrontOf L c) (hg : lruGet k c = some (v, c')) :
    FrontOf (k :: L) c' := by
  classical
  obtain ⟨pre, rest, rfl, hnd, hin, hcov⟩ := h
  unfold lruGet at hg
  split at hg
  · rename_i e he
    injection hg with hg
    rw [Prod.mk.injEq] at hg
    obtain ⟨-, h2⟩ := hg
    have hek := List.find?_some he
    simp only [decide_eq_true_eq] at hek
    refine ⟨e :: pre.filter (fun e => e.1 ≠ k), rest.filter (fun e => e.1 ≠ k), ?_, ?_, ?_, ?_⟩
    · rw [← h2, List.filter_append]
      rfl
    · rw [List.map_cons, List.nodup_cons]
      refine ⟨?_, hnd.sublist (List.filter_sublist.map _)⟩
      rw [hek]
      intro hm
      obtain ⟨x, hx, hxk⟩ := List.mem_map.1 hm
      have := (List.mem_filter.1 hx).2
      simp [hxk] at this
    · intro x hx
      rcases List.mem_cons.1 hx with rfl | hx
      · rw [hek]; exact List.mem_cons_self
      · exact List.mem_cons_of_mem _ (hin x (List.mem_filter.1 hx).1)
    · rcases hcov with hcov | rfl
      · left
        intro k' hk'
        by_cases hkk : k' = k
        · rw [hkk, List.map_cons, hek]; exact List.mem_cons_self
        · have := hcov k' ((List.mem_cons.1 hk').resolve_left hkk)
          obtain ⟨x, hx, hxk⟩ := List.mem_map.1 this
          rw [List.map_cons]
          refine List.mem_cons_of_mem _ (List.mem_map.2 ⟨x, List.mem_filter.2 ⟨hx, ?_⟩, hxk⟩)
          simpa [hxk] using hkk
      · right; rfl
  · cases hg

theorem frontOf_put {L : List FKey} {c : List (FKey × ℕ)} {k : FKey} (v : ℕ) (h : FrontOf L c) (hg : lruGet k c = none) :
    FrontOf (k :: L) (lruPut k v c) := by
  have hno := lruGet_none hg
  obtain ⟨pre, rest, rfl, hnd, hin, hcov⟩ := h
  refine ⟨(k, v) :: pre.take 127, rest.take (127 - pre.length), ?_, ?_, ?_, ?_⟩
  · simp only [lruPut, maxsize, List.take_append]
    rfl
  · rw [List.map_cons, List.nodup_cons]
    refine ⟨?_, hnd.sublist ((List.take_sublist _ _).map _)⟩
    intro hm
    obtain ⟨x, hx, hxk⟩ := List.mem_map.1 hm
    exact hno x (List.mem_append_left _ (List.mem_of_mem_take hx)) hxk
  · intro x hx
    rcases List.mem_cons.1 hx with rfl | hx
    · exact List.mem_cons_self
    · exact List.mem_cons_of_mem _ (hin x (List.mem_of_mem_take hx))
  · by_cases hlen : pre.length ≤ 127
    · rcases hcov with hcov | rfl
      · left
        intro k' hk'
        rw [List.take_of_length_le hlen, List.map_cons]
        rcases List.mem_cons.1 hk' with rfl | hk'
        · exact List.mem_cons_self
        · exact List.mem_cons_of_mem _ (hcov k' hk')
      · right; simp
    · right
      rw [show 127 - pre.length = 0 by omega]
      rfl

/-- what a call of `f_oxz` does to its cache -/
theorem foxz_cache {k : FKey} {s t : St} {o : ℕ} (h : foxzM k s = (.ok o, t)) :
    (∃ c, lruGet k s.cFoxz = some (o, c) ∧ t.cFoxz = c) ∨ (lruGet k s.cFoxz = none ∧ t.cFoxz = lruPut k o s.cFoxz ∧
      ∃ s', foxzWork k s = (.ok o, s') ∧ t.inner = s'.inner ∧ t.outer = s'.outer) := by
  have hdef : foxzM k = cached St.cFoxz (fun c s => { s with cFoxz := c }) k (foxzWork k) := rfl
  rw [hdef] at h
  unfold cached at h
  split at h
  next v c hg =>
    simp only [Prod.mk.injEq, Except.ok.injEq] at h
    obtain ⟨rfl, rfl⟩ := h
    exact Or.inl ⟨c, hg, rfl⟩
  next hg =>
    right
    split at h
    next v s1 hw =>
      simp only [Prod.mk.injEq, Except.ok.injEq] at h
      obtain ⟨rfl, rfl⟩ := h
      have := work_cache k s.cFoxz s rfl
      rw [hw] at this
      simp only at this
      exact ⟨hg, by simp only [this], s1, hw, rfl, rfl⟩
    next => simp at h

/-- the work allocates one dictionary, and only one -/
theorem work_inner {k : FKey} {s t : St} {o : ℕ} (h : foxzWork k s = (.ok o, t)) :
    t.inner.length = s.inner.length + 1 ∧ ∃ f, t.outer[o]? = some (s.inner.length, f) := by
  have key : ∀ {α β : Type} {x : M α} {f : α → M β} {s t : St} {b : β}, (x >>= f) s = (.ok b, t) → Keeps (fun u => u.inner = s.inner) x →
      ∃ a u, u.inner = s.inner ∧ f a u = (.ok b, t) := by
    intro α β x f s t b h hk
    rw [M.bind_eq] at h
    have h0 := hk s rfl
    rcases hx : x s with ⟨_ | a, u⟩ <;> rw [hx] at h h0
    · simp at h
    · exact ⟨a, u, h0, h⟩
  have hrol : ∀ i r, Keeps (fun u => u.inner = i) (rolM r) := fun i r =>
    keeps_cached (Keeps.lift _) (fun _ _ _ h _ => h) (fun _ _ _ _ _ h => h)
  have htor : ∀ i r, Keeps (fun u => u.inner = i) (torM r) := fun i r =>
    keeps_cached ((hrol i _).bind fun _ => (Keeps.lift _).bind fun _ => (Keeps.lift _).bind fun _ => Keeps.pure _)
      (fun _ _ _ h _ => h) (fun _ _ _ _ _ h => h)
  unfold foxzWork at h
  obtain ⟨a1, s1, e1, h⟩ := key h (hrol _ _)
  obtain ⟨a2, s2, e2, h⟩ := key h (Keeps.lift _)
  obtain ⟨a3, s3, e3, h⟩ := key h (Keeps.lift _)
  obtain ⟨a4, s4, e4, h⟩ := key h (htor _ _)
  obtain ⟨a5, s5, e5, h⟩ := key h (Keeps.lift _)
  obtain ⟨a6, s6, e6, h⟩ := key h (Keeps.lift _)
  have e : s6.inner = s.inner := by rw [e6, e5, e4, e3, e2, e1]
  simp only [M.bind_eq, allocInner, allocOuter, Prod.mk.injEq, Except.ok.injEq] at h
  obtain ⟨rfl, rfl⟩ := h
  rw [← e]
  simp

theorem runEvents_append (roots : Roots) (es es' : List Event) : ∀ s, runEvents roots (es ++ es') s = runEvents roots es' (runEvents roots es s) := by
  induction es with
  | nil => intro s; rfl
  | cons e es ih => intro s; exact ih _

theorem frontOf_calls (roots : Roots) (ks : List FKey) (hok : ∀ k ∈ ks, ∃ f, k.value = .ok f) : ∀ (L : List FKey) (s : St), Inv false s →
    FrontOf L s.cFoxz → ∃ L', (∀ k, k ∈ L' ↔ k ∈ L ∨ k ∈ ks) ∧ FrontOf L' (runEvents roots (ks.map fun k => .call (.foxz k)) s).cFoxz := by
  induction ks with
  | nil => intro L s _ h; exact ⟨L, by simp, h⟩
  | cons k ks ih =>
    intro L s hi h
    obtain ⟨f, hf⟩ := hok k List.mem_cons_self
    have hag := (foxzM_tri (b := false) (s0 := s) k s hi (Eff.refl _ _) trivial).2.2
    rw [hf] at hag
    rcases hx : foxzM k s with ⟨e | o, t⟩ <;> rw [hx] at hag
    · exact hag.elim
    have hstep : ((Event.call (.foxz k)).step roots s).cFoxz = t.cFoxz := by
      have hr := Keeps.readOuter (P := fun u => u.cFoxz = t.cFoxz) o t rfl
      simp only [Event.step, Call.exec, M.bind_eq, hx]
      rcases hy : readOuter o t with ⟨_ | p, u⟩ <;> rw [hy] at hr <;> exact hr
    have hF : FrontOf (k :: L) ((Event.call (.foxz k)).step roots s).cFoxz := by
      rw [hstep]
      rcases foxz_cache hx with ⟨c, hg, hc⟩ | ⟨hg, hc, -⟩
      · rw [hc]; exact frontOf_get h hg
      · rw [hc]; exact frontOf_put _ h hg
    obtain ⟨L', hL', hF'⟩ := ih (fun k' hk' => hok k' (List.mem_cons_of_mem _ hk')) (k :: L) _
      (inv_step roots (e := .call (.foxz k)) trivial hi) hF
    refine ⟨L', fun k' => ?_, hF'⟩
    rw [hL', List.mem_cons, List.mem_cons]
    tauto

/-- C148: whatever has happened before, after answers for 128 or more other sets of arguments `f_oxz` has forgotten a result: it makes a new
dictionary of intermediate results, different from all there were. -/
theorem C148_dropped (roots : Roots) (es : List Event) (he : ∀ e ∈ es, e.isFair) (k : FKey) (ks : List FKey) (hk : k ∉ ks)
    (hok : ∀ k' ∈ ks, ∃ f, k'.value = .ok f) (different : List FKey) (hd : different.Nodup) (hds : different ⊆ ks)
    (hmany : 128 ≤ different.length) (r : Answer) (t : St)
    (h : (Call.foxz k).exec roots (runEvents roots (es ++ ks.map fun k' => .call (.foxz k')) St.init) = (.ok r, t)) :
    r.inter = some (runEvents roots (es ++ ks.map fun k' => .call (.foxz k')) St.init).inner.length ∧
    t.inner.length = (runEvents roots (es ++ ks.map fun k' => .call (.foxz k')) St.init).inner.length + 1 := by
  have hsmall := (C148_bounded roots (es ++ ks.map fun k' => .call (.foxz k'))).2.2
  rw [runEvents_append] at h hsmall ⊢
  obtain ⟨L', hL', pre, rest, hc, hnd, hin, hcov⟩ := frontOf_calls roots ks hok [] (runEvents roots es St.init)
    (inv_run roots es he inv_init) ⟨[], _, rfl, by simp, by simp, by simp⟩
  generalize runEvents roots (ks.map fun k' => Event.call (.foxz k')) (runEvents roots es St.init) = s at h hsmall hc ⊢
  have hrest : rest = [] := by
    rcases hcov with hcov | hr
    · have : different.length ≤ (pre.map (·.1)).length :=
        (List.subperm_of_subset hd fun x hx => hcov x ((hL' x).2 (Or.inr (hds hx)))).length_le
      rw [List.length_map] at this
      rw [hc, List.length_append] at hsmall
      exact List.eq_nil_of_length_eq_zero (by omega)
    · exact hr
  have hnone : lruGet k s.cFoxz = none := by
    classical
    unfold lruGet
    rw [List.find?_eq_none.2]
    intro e hm
    rw [hc, hrest, List.append_nil] at hm
    have := (hL' e.1).1 (hin e hm)
    simp only [List.not_mem_nil, false_or] at this
    simp only [decide_eq_true_eq]
    rintro rfl
    exact hk this
  simp only [Call.exec, M.bind_eq] at h
  rcases hf : foxzM k s with ⟨_ | o, u⟩ <;> rw [hf] at h
  · simp at h
  rcases foxz_cache hf with ⟨c, hg, -⟩ | ⟨-, -, s', hw, hin', hout⟩
  · rw [hnone] at hg; cases hg
  obtain ⟨hlen, f, ho⟩ := work_inner hw
  simp only [readOuter, hout, ho, M.pure_eq, Prod.mk.injEq, Except.ok.injEq] at h
  obtain ⟨rfl, rfl⟩ := h
  exact ⟨rfl, by rw [hin', hlen]⟩

/-- sections of different lengths -/
noncomputable def keyOfLength (n : ℕ) : FKey := ⟨1, n + 3, 2, 1, 1, 1, 0, 1, 1, 1, 1⟩

/-- The hypotheses are met: 128 or more sections of different lengths after the sample section, which then is calculated again. -/
example (roots : Roots) (n : ℕ) (hn : 128 ≤ n) : ∃ r t, (Call.foxz sampleKey).exec roots (runEvents roots
      ([.call (.foxz sampleKey)] ++ ((List.range n).map keyOfLength).map fun k' => .call (.foxz k')) St.init) = (.ok r, t) ∧
    r.inter = some (runEvents roots
      ([.call (.foxz sampleKey)] ++ ((List.range n).map keyOfLength).map fun k' => .call (.foxz k')) St.init).inner.length := by
  have hfair : ∀ e ∈ [Event.call (.foxz sampleKey)] ++ ((List.range n).map keyOfLength).map (fun k' => Event.call (.foxz k')), e.isFair := by
    intro e he
    rcases List.mem_append.1 he with he | he
    · rw [List.mem_singleton.1 he]; trivial
    · obtain ⟨k, -, rfl⟩ := List.mem_map.1 he; trivial
  obtain ⟨f, hf, -⟩ := sampleKey_value
  have hC := C55_cache_invisible roots _ hfair (.foxz sampleKey)
  simp only [Call.numbersIn, Call.value, hf, bind, Except.bind, pure, Except.pure] at hC
  rcases hx : (Call.foxz sampleKey).exec roots (runEvents roots
      ([.call (.foxz sampleKey)] ++ ((List.range n).map keyOfLength).map fun k' => .call (.foxz k')) St.init) with ⟨e | r, t⟩
  · rw [hx] at hC
    cases hC
  refine ⟨r, t, hx, (C148_dropped roots [.call (.foxz sampleKey)] (fun e he => by rw [List.mem_singleton.1 he]; trivial) sampleKey
    ((List.range n).map keyOfLength) ?_ ?_ ((List.range n).map keyOfLength) ?_ (List.Subset.refl _) (by simpa using hn) r t hx).1⟩
  · intro hm
    obtain ⟨m, -, hm⟩ := List.mem_map.1 hm
    have := congrArg FKey.lex hm
    simp only [keyOfLength, sampleKey] at this
    have h0 : (0 : ℝ) ≤ m := Nat.cast_nonneg m
    linarith
  · intro k' hk'
    obtain ⟨m, -, rfl⟩ := List.mem_map.1 hk'
    have h0 : (0 : ℝ) < m + 3 := by positivity
    obtain ⟨f, e, _⟩ := C52_foxz (An := 1) (lex := m + 3) (lez := 2) (rx := 1) (ry := 1) (xo := 1) (yo := 0)
      (J := 1) (Iw := 1) (E := 1) (G := 1) one_pos h0 two_pos one_pos one_pos zero_le_one one_pos one_pos
    exact ⟨f, e⟩
  · refine List.Nodup.map ?_ List.nodup_range
    intro m m' hmn
    have := congrArg FKey.lex hmn
    simp only [keyOfLength, add_left_inj, Nat.cast_inj] at this
    exact this

end BeamDesign
