import Verif.Props.S6Cache

/-!
# How much the caches of S6.py keep: C148
-/

set_option linter.unusedSimpArgs false

namespace BeamDesign

open S6

/-! ## What is preserved by every step of a program -/

/-- whatever `x` does keeps `P`, also when it raises -/
def Keeps {α : Type} (P : St → Prop) (x : M α) : Prop := ∀ s, P s → P (x s).2

theorem Keeps.bind {α β : Type} {P : St → Prop} {x : M α} {f : α → M β} (hx : Keeps P x) (hf : ∀ a, Keeps P (f a)) :
    Keeps P (x >>= f) := by
  intro s hs
  rw [M.bind_eq]
  have h := hx s hs
  rcases hxs : x s with ⟨_ | a, s'⟩ <;> rw [hxs] at h
  · exact h
  · exact hf a s' h

theorem Keeps.pure {α : Type} {P : St → Prop} (a : α) : Keeps P (pure a : M α) := fun _ h => h

theorem Keeps.lift {α : Type} {P : St → Prop} (x : Py α) : Keeps P (M.lift x) := fun _ h => h

/-- `P` does not mind changes to the inner dictionaries and new dictionaries -/
def Calm (P : St → Prop) : Prop :=
  (∀ s i, P s → P { s with inner := i }) ∧ ∀ s p, P s → P { s with outer := s.outer ++ [p] }

theorem Keeps.allocInner {P : St → Prop} (hP : Calm P) (d : Dict) : Keeps P (allocInner d) := fun s h => hP.1 s _ h

theorem Keeps.allocOuter {P : St → Prop} (hP : Calm P) (a : ℕ) (f : ℝ) : Keeps P (allocOuter a f) := fun s h => hP.2 s _ h

theorem Keeps.update {P : St → Prop} (hP : Calm P) (a : ℕ) (k : String) (v : S6.Val) : Keeps P (update a k v) :=
  fun s h => hP.1 s _ h

theorem Keeps.readOuter {P : St → Prop} (o : ℕ) : Keeps P (readOuter o) := by
  intro s h
  unfold S6.readOuter
  split <;> exact h

/-- The keys of `f_oxz` a call can ask for: the section about x, about y, or the arguments themselves. -/
noncomputable def S6.Call.foxzKeys : Call → List FKey
  | .foxz k => [k]
  | .focDouble m _ => [⟨m.An, m.lex, m.lez, m.rx, m.ry, m.xo, m.yo, m.J, m.Iw, m.E, m.G⟩]
  | .focSingle m _ | .ncTorsion m _ _ _ _ => [⟨m.An, m.lex, m.lez, m.rx, m.ry, m.xo, m.yo, m.J, m.Iw, m.E, m.G⟩,
      ⟨m.An, m.ley, m.lez, m.ry, m.rx, m.yo, m.xo, m.J, m.Iw, m.E, m.G⟩]
  | .nc a => [⟨a.member.An, a.member.lex, a.member.lez, a.member.rx, a.member.ry, a.member.xo, a.member.yo, a.member.J, a.member.Iw,
        a.member.E, a.member.G⟩,
      ⟨a.member.An, a.member.ley, a.member.lez, a.member.ry, a.member.rx, a.member.yo, a.member.xo, a.member.J, a.member.Iw,
        a.member.E, a.member.G⟩]
  | _ => []

/-- Every call keeps what the three cached functions keep. -/
theorem keeps_call {P : St → Prop} (hP : Calm P) (hr : ∀ k, Keeps P (rolM k)) (ht : ∀ k, Keeps P (torM k)) (roots : Roots)
    (c : Call) (hf : ∀ k ∈ c.foxzKeys, Keeps P (foxzM k)) : Keeps P (c.exec roots) := by
  have up := fun a k v => Keeps.update hP a k v
  have hdouble : ∀ m sym, Keeps P (foxzM (Member.keyX m)) → Keeps P (focDoubleM m sym) := by
    intro m sym h
    unfold focDoubleM
    refine h.bind fun o => (ht _).bind fun foz => (Keeps.readOuter o).bind fun p => ?_
    refine (up _ _ _).bind fun _ => (up _ _ _).bind fun _ => (up _ _ _).bind fun _ => (Keeps.lift _).bind fun _ => (up _ _ _).bind fun _ =>
      Keeps.pure _
  have hsingle : ∀ m sym, Keeps P (foxzM (Member.keyX m)) → Keeps P (foxzM (Member.keyY m)) → Keeps P (focSingleM m sym) := by
    intro m sym h h'
    unfold focSingleM
    refine (Keeps.lift _).bind fun n => ?_
    split
    · exact Keeps.lift _
    · split
      · refine h.bind fun o => (Keeps.readOuter o).bind fun p => ?_
        refine (up _ _ _).bind fun _ => (up _ _ _).bind fun _ => (Keeps.lift _).bind fun _ => (up _ _ _).bind fun _ => (up _ _ _).bind fun _ =>
          Keeps.pure _
      · refine h'.bind fun o => (Keeps.readOuter o).bind fun p => ?_
        refine (up _ _ _).bind fun _ => (up _ _ _).bind fun _ => (Keeps.lift _).bind fun _ => (up _ _ _).bind fun _ => (up _ _ _).bind fun _ =>
          Keeps.pure _
  have hpoint : ∀ m, Keeps P (focPointM m) := by
    intro m
    exact (ht _).bind fun f => (Keeps.allocInner hP _).bind fun a => Keeps.pure _
  have hunsym : ∀ m, Keeps P (focUnsymM roots m) := by
    intro m
    unfold focUnsymM
    exact (Keeps.lift _).bind fun _ => (Keeps.lift _).bind fun _ => (hr _).bind fun _ => (ht _).bind fun _ =>
      (Keeps.lift _).bind fun _ => (Keeps.allocInner hP _).bind fun _ => Keeps.pure _
  have hnct : ∀ m kf fy sym unc, Keeps P (foxzM (Member.keyX m)) → Keeps P (foxzM (Member.keyY m)) →
      Keeps P (NcTorsionM roots m kf fy sym unc) := by
    intro m kf fy sym unc h h'
    unfold NcTorsionM
    refine Keeps.bind ?_ fun r => (Keeps.lift _).bind fun _ => (up _ _ _).bind fun _ => (up _ _ _).bind fun _ => (up _ _ _).bind fun _ =>
      Keeps.pure _
    unfold focM
    refine (Keeps.lift _).bind fun k => ?_
    cases k
    · exact hdouble _ _ h
    · exact hsingle _ _ h h'
    · exact hpoint _
    · exact hunsym _
  cases c with
  | rol k => exact (hr k).bind fun _ => Keeps.pure _
  | torsionStress k => exact (ht k).bind fun _ => Keeps.pure _
  | foxz k => exact (hf k (by simp [Call.foxzKeys])).bind fun o => (Keeps.readOuter o).bind fun _ => Keeps.pure _
  | focDouble m sym => exact (hdouble m sym (hf _ (by simp [Call.foxzKeys, Member.keyX]))).bind fun _ => Keeps.pure _
  | focSingle m sym =>
    exact (hsingle m sym (hf _ (by simp [Call.foxzKeys, Member.keyX])) (hf _ (by simp [Call.foxzKeys, Member.keyY]))).bind
      fun _ => Keeps.pure _
  | focPoint m => exact (hpoint m).bind fun _ => Keeps.pure _
  | focUnsym m => exact (hunsym m).bind fun _ => Keeps.pure _
  | ncTorsion m kf fy sym unc =>
    exact (hnct m kf fy sym unc (hf _ (by simp [Call.foxzKeys, Member.keyX])) (hf _ (by simp [Call.foxzKeys, Member.keyY]))).bind
      fun _ => Keeps.pure _
  | nc a =>
    refine Keeps.bind ?_ fun _ => Keeps.pure _
    unfold NcM
    split
    · refine (Keeps.lift _).bind fun _ => (Keeps.lift _).bind fun _ => ?_
      split
      · refine (hnct _ _ _ _ _ (hf _ (by simp [Call.foxzKeys, Member.keyX])) (hf _ (by simp [Call.foxzKeys, Member.keyY]))).bind
          fun _ => (up _ _ _).bind fun _ => Keeps.pure _
      · exact Keeps.pure _
    · exact Keeps.pure _

/-! ## Sizes -/

theorem lruGet_length {κ β : Type} {k : κ} {c c' : List (κ × β)} {v : β} (h : lruGet k c = some (v, c')) : c'.length ≤ c.length := by
  classical
  unfold lruGet at h
  split at h
  · rename_i e he
    injection h with h
    rw [Prod.mk.injEq] at h
    obtain ⟨-, h2⟩ := h
    rw [← h2, List.length_cons]
    have hk := List.find?_some he
    have hm := List.mem_of_find?_eq_some he
    simp only [decide_eq_true_eq] at hk
    refine Nat.succ_le_of_lt (List.length_filter_lt_length_iff_exists.2 ⟨e, hm, ?_⟩)
    simp [hk]
  · cases h

theorem keeps_cached {κ β : Type} {P : St → Prop} {get : St → List (κ × β)} {put : List (κ × β) → St → St} {k : κ} {body : M β}
    (hb : Keeps P body) (hget : ∀ s v c, P s → lruGet k (get s) = some (v, c) → P (put c s))
    (hput : ∀ s v s', lruGet k (get s) = none → body s = (.ok v, s') → P s' → P (put (lruPut k v (get s')) s')) :
    Keeps P (cached get put k body) := by
  intro s hs
  unfold cached
  split
  next v c h => exact hget s v c hs h
  next h =>
    have := hb s hs
    split
    next v s' e => rw [e] at this; exact hput s v s' h e this
    next e' s' e => rw [e] at this; exact this

/-- no cache holds more than 128 results -/
def Small (s : St) : Prop := s.cRol.length ≤ 128 ∧ s.cTor.length ≤ 128 ∧ s.cFoxz.length ≤ 128

theorem lruPut_length {κ β : Type} (k : κ) (v : β) (c : List (κ × β)) : (lruPut k v c).length ≤ 128 := by
  simp only [lruPut, maxsize, List.length_cons, List.length_take]
  omega

theorem small_rol (k : RKey) : Keeps Small (rolM k) :=
  keeps_cached (Keeps.lift _) (fun _ _ _ hs h => ⟨(lruGet_length h).trans hs.1, hs.2⟩) (fun _ _ _ _ _ hs => ⟨lruPut_length _ _ _, hs.2⟩)

theorem small_tor (k : TKey) : Keeps Small (torM k) :=
  keeps_cached ((small_rol _).bind fun _ => (Keeps.lift _).bind fun _ => (Keeps.lift _).bind fun _ => Keeps.pure _)
    (fun _ _ _ hs h => ⟨hs.1, (lruGet_length h).trans hs.2.1, hs.2.2⟩) (fun _ _ _ _ _ hs => ⟨hs.1, lruPut_length _ _ _, hs.2.2⟩)

theorem small_caches : Calm Small := ⟨fun _ _ h => h, fun _ _ h => h⟩

/-- what `f_oxz` computes when it has no result -/
noncomputable def foxzWork (k : FKey) : M ℕ := do
  let ro ← rolM ⟨k.rx, k.ry, k.xo, k.yo⟩
  let q ← M.lift (rdiv k.xo ro)
  let beta := 1 - q ^ 2
  let fox ← M.lift (fEuler k.E k.lex k.rx)
  let foz ← torM ⟨k.An, k.lez, k.rx, k.ry, k.xo, k.yo, k.J, k.Iw, k.E, k.G⟩
  let h ← M.lift (rdiv 1 (2 * beta))
  let r ← M.lift (rsqrt ((fox + foz) ^ 2 - 4 * beta * fox * foz))
  let a ← allocInner [("β", .num beta), ("f_ox", .num fox), ("f_oz", .num foz), ("r_x", .num k.rx),
    ("r_y", .num k.ry), ("x_o", .num k.xo), ("y_o", .num k.yo), ("r_ol", .num ro)]
  allocOuter a (h * (fox + foz - r))

theorem work_keeps {P : St → Prop} (hP : Calm P) (hr : ∀ k, Keeps P (rolM k)) (ht : ∀ k, Keeps P (torM k)) (k : FKey) :
    Keeps P (foxzWork k) :=
  (hr _).bind fun _ => (Keeps.lift _).bind fun _ => (Keeps.lift _).bind fun _ => (ht _).bind fun _ =>
    (Keeps.lift _).bind fun _ => (Keeps.lift _).bind fun _ => (Keeps.allocInner hP _).bind fun _ => Keeps.allocOuter hP _ _

theorem foxzM_keeps {P : St → Prop} (hP : Calm P) (hr : ∀ k, Keeps P (rolM k)) (ht : ∀ k, Keeps P (torM k)) (k : FKey)
    (hget : ∀ s v c, P s → lruGet k s.cFoxz = some (v, c) → P { s with cFoxz := c })
    (hput : ∀ s v s', lruGet k s.cFoxz = none → foxzWork k s = (.ok v, s') → P s' → P { s' with cFoxz := lruPut k v s'.cFoxz }) :
    Keeps P (foxzM k) :=
  keeps_cached (work_keeps hP hr ht k) hget hput

theorem small_foxz (k : FKey) : Keeps Small (foxzM k) :=
  foxzM_keeps small_caches small_rol small_tor k (fun _ _ _ hs h => ⟨hs.1, hs.2.1, (lruGet_length h).trans hs.2.2⟩)
    (fun _ _ _ _ _ hs => ⟨hs.1, hs.2.1, lruPut_length _ _ _⟩)

theorem small_step (roots : Roots) (e : Event) {s : St} (h : Small s) : Small (e.step roots s) := by
  cases e with
  | call c => exact keeps_call small_caches small_rol small_tor roots c (fun k _ => small_foxz k) s h
  | write a k v => exact h
  | delete a k => exact h
  | writeOuter o f => exact h
  | clearRol => exact ⟨by simp [Event.step], h.2⟩
  | clearTor => exact ⟨h.1, by simp [Event.step], h.2.2⟩
  | clearFoxz => exact ⟨h.1, h.2.1, by simp [Event.step]⟩

/-- C148: however long a program runs and whatever it calls, none of the three caches ever holds more than 128 results. -/
theorem C148_bounded (roots : Roots) (es : List Event) :
    (runEvents roots es St.init).cRol.length ≤ 128 ∧ (runEvents roots es St.init).cTor.length ≤ 128 ∧
      (runEvents roots es St.init).cFoxz.length ≤ 128 := by
  have : ∀ (es : List Event) s, Small s → Small (runEvents roots es s) := by
    intro es
    induction es with
    | nil => intro s h; exact h
    | cons e es ih => intro s h; exact ih _ (small_step roots e h)
  exact this es _ (by simp [Small, St.init])

/-! ## What is kept -/

/-- The entry for `k` is the dictionary at `o`, whose inner dictionary is at `a`; the keys used more recently are in `L`. -/
def Remembers (k : FKey) (o a : ℕ) (L : List FKey) (s : St) : Prop :=
  (∃ f, s.outer[o]? = some (a, f)) ∧
  ∃ pre post, s.cFoxz = pre ++ (k, o) :: post ∧ (pre.map (·.1)).Nodup ∧ ∀ e ∈ pre, e.1 ≠ k ∧ e.1 ∈ L

theorem remembers_calm (k : FKey) (o a : ℕ) (L : List FKey) : Calm (Remembers k o a L) := by
  refine ⟨fun _ _ h => h, fun s p h => ⟨?_, h.2⟩⟩
  obtain ⟨f, hf⟩ := h.1
  refine ⟨f, ?_⟩
  have hlt : o < s.outer.length := by
    by_contra hc
    rw [List.getElem?_eq_none (by omega)] at hf
    cases hf
  simp only
  rw [List.getElem?_append_left hlt, hf]

theorem remembers_rol (k : FKey) (o a : ℕ) (L : List FKey) (r : RKey) : Keeps (Remembers k o a L) (rolM r) :=
  keeps_cached (Keeps.lift _) (fun _ _ _ h _ => h) (fun _ _ _ _ _ h => h)

theorem remembers_tor (k : FKey) (o a : ℕ) (L : List FKey) (t : TKey) : Keeps (Remembers k o a L) (torM t) :=
  keeps_cached ((remembers_rol k o a L _).bind fun _ => (Keeps.lift _).bind fun _ => (Keeps.lift _).bind fun _ => Keeps.pure _)
    (fun _ _ _ h _ => h) (fun _ _ _ _ _ h => h)

theorem rol_cache (k : RKey) (c : List (FKey × ℕ)) : Keeps (fun s => s.cFoxz = c) (rolM k) :=
  keeps_cached (Keeps.lift _) (fun _ _ _ h _ => h) (fun _ _ _ _ _ h => h)

theorem tor_cache (k : TKey) (c : List (FKey × ℕ)) : Keeps (fun s => s.cFoxz = c) (torM k) :=
  keeps_cached ((rol_cache _ c).bind fun _ => (Keeps.lift _).bind fun _ => (Keeps.lift _).bind fun _ => Keeps.pure _)
    (fun _ _ _ h _ => h) (fun _ _ _ _ _ h => h)

theorem work_cache (k : FKey) (c : List (FKey × ℕ)) : Keeps (fun s => s.cFoxz = c) (foxzWork k) :=
  work_keeps ⟨fun _ _ h => h, fun _ _ h => h⟩ (fun k => rol_cache k c) (fun k => tor_cache k c) k

theorem lruGet_none {κ β : Type} {k : κ} {c : List (κ × β)} (h : lruGet k c = none) : ∀ e ∈ c, e.1 ≠ k := by
  classical
  unfold lruGet at h
  split at h
  · cases h
  next hf =>
    intro e he hk
    have := List.find?_eq_none.1 hf e he
    simp [hk] at this

theorem remembers_foxz {k : FKey} {o a : ℕ} {L : List FKey} (hL : L.length ≤ 127) {k' : FKey} (hk : k' = k ∨ k' ∈ L) :
    Keeps (Remembers k o a L) (foxzM k') := by
  classical
  refine foxzM_keeps (remembers_calm k o a L) (remembers_rol k o a L) (remembers_tor k o a L) k' ?_ ?_
  · rintro s v c ⟨ho, pre, post, hc, hnd, hpre⟩ hg
    refine ⟨ho, ?_⟩
    simp only
    unfold lruGet at hg
    split at hg
    · rename_i e he
      injection hg with hg
      rw [Prod.mk.injEq] at hg
      obtain ⟨-, h2⟩ := hg
      have hek := List.find?_some he
      simp only [decide_eq_true_eq] at hek
      rw [← h2, hc]
      by_cases hkk : k' = k
      · subst hkk
        refine ⟨[], (pre ++ (k', o) :: post).filter (fun e => e.1 ≠ k'), ?_, by simp, by simp⟩
        rw [hc, List.find?_append, List.find?_eq_none.2 (fun x hx => by simpa using (hpre x hx).1)] at he
        simp at he
        rw [← he]
        rfl
      · refine ⟨e :: pre.filter (fun e => e.1 ≠ k'), post.filter (fun e => e.1 ≠ k'), ?_, ?_, ?_⟩
        · rw [List.filter_append, List.filter_cons_of_pos (by simpa using Ne.symm hkk)]
          rfl
        · rw [List.map_cons, List.nodup_cons]
          refine ⟨?_, ?_⟩
          · rw [hek]
            intro hm
            obtain ⟨x, hx, hxk⟩ := List.mem_map.1 hm
            have := (List.mem_filter.1 hx).2
            simp [hxk] at this
          · exact hnd.sublist (List.filter_sublist.map _)
        · intro x hx
          rcases List.mem_cons.1 hx with rfl | hx
          · rw [hek]
            exact ⟨hkk, hk.resolve_left hkk⟩
          · exact hpre x (List.mem_filter.1 hx).1
    · cases hg
  · rintro s v s' hnone hw ⟨ho, pre, post, hc, hnd, hpre⟩
    have hsame : s'.cFoxz = s.cFoxz := by
      have := work_cache k' s.cFoxz s rfl
      rw [hw] at this
      exact this
    have hno := lruGet_none hnone
    rw [← hsame, hc] at hno
    have hkk : k' ≠ k := fun e => hno (k, o) (by simp) e.symm
    have hkpre : k' ∉ pre.map (·.1) := by
      intro hm
      obtain ⟨x, hx, hxk⟩ := List.mem_map.1 hm
      exact hno x (by simp [hx]) hxk
    have hlen : (k' :: pre.map (·.1)).length ≤ L.length := by
      refine (List.subperm_of_subset (List.nodup_cons.2 ⟨hkpre, hnd⟩) ?_).length_le
      intro x hx
      rcases List.mem_cons.1 hx with rfl | hx
      · exact hk.resolve_left hkk
      · obtain ⟨e, he, rfl⟩ := List.mem_map.1 hx
        exact (hpre e he).2
    rw [List.length_cons, List.length_map] at hlen
    refine ⟨ho, (k', v) :: pre, post.take (126 - pre.length), ?_, ?_, ?_⟩
    · simp only [lruPut, maxsize, hc]
      rw [List.take_append, List.take_of_length_le (by omega : pre.length ≤ 128 - 1)]
      have : 128 - 1 - pre.length = (126 - pre.length) + 1 := by omega
      rw [this, List.take_succ_cons]
      rfl
    · rw [List.map_cons]
      exact List.nodup_cons.2 ⟨hkpre, hnd⟩
    · intro x hx
      rcases List.mem_cons.1 hx with rfl | hx
      · exact ⟨hkk, hk.resolve_left hkk⟩
      · exact hpre x hx

/-- what the events may do: not empty the cache of `f_oxz`, and ask it for `k` or for keys of `L` -/
def S6.Event.asksOnly (k : FKey) (L : List FKey) : Event → Prop
  | .call c => ∀ k' ∈ c.foxzKeys, k' = k ∨ k' ∈ L
  | .clearFoxz => False
  | _ => True

theorem remembers_step (roots : Roots) {k : FKey} {o a : ℕ} {L : List FKey} (hL : L.length ≤ 127) {e : Event}
    (he : e.asksOnly k L) {s : St} (h : Remembers k o a L s) : Remembers k o a L (e.step roots s) := by
  cases e with
  | call c =>
    exact keeps_call (remembers_calm k o a L) (remembers_rol k o a L) (remembers_tor k o a L) roots c
      (fun k' hk' => remembers_foxz hL (he k' hk')) s h
  | write a k v => exact h
  | delete a k => exact h
  | writeOuter o' f =>
    refine ⟨?_, h.2⟩
    obtain ⟨f0, hf⟩ := h.1
    simp only [Event.step, List.getElem?_modify, hf]
    split
    · exact ⟨f, rfl⟩
    · exact ⟨f0, rfl⟩
  | clearRol => exact h
  | clearTor => exact h
  | clearFoxz => exact he.elim

/-- the first call leaves the entry at the front -/
theorem remembers_first (roots : Roots) {k : FKey} {s s' : St} {r : Answer} (h : (Call.foxz k).exec roots s = (.ok r, s')) :
    ∃ o a, r.inter = some a ∧ Remembers k o a [] s' := by
  classical
  simp only [Call.exec, M.bind_eq] at h
  rcases hf : foxzM k s with ⟨_ | o, t⟩ <;> rw [hf] at h
  · simp at h
  simp only [readOuter] at h
  rcases ho : t.outer[o]? with _ | p <;> rw [ho] at h
  · simp at h
  simp only [M.pure_eq, Prod.mk.injEq, Except.ok.injEq] at h
  obtain ⟨rfl, rfl⟩ := h
  refine ⟨o, p.1, rfl, ⟨p.2, ho⟩, [], ?_⟩
  simp only [List.nil_append, List.map_nil, List.nodup_nil, List.not_mem_nil, false_imp_iff, implies_true, and_true]
  unfold foxzM cached at hf
  split at hf
  next v c hg =>
    simp only [Prod.mk.injEq, Except.ok.injEq] at hf
    obtain ⟨rfl, rfl⟩ := hf
    unfold lruGet at hg
    split at hg
    · rename_i e he
      injection hg with hg
      rw [Prod.mk.injEq] at hg
      obtain ⟨rfl, h2⟩ := hg
      have hek := List.find?_some he
      simp only [decide_eq_true_eq] at hek
      refine ⟨s.cFoxz.filter (fun e => e.1 ≠ k), h2.symm.trans ?_⟩
      rw [← hek]
    · cases hg
  next hg =>
    split at hf
    next v s1 hw =>
      simp only [Prod.mk.injEq, Except.ok.injEq] at hf
      obtain ⟨rfl, rfl⟩ := hf
      exact ⟨_, rfl⟩
    next => simp at hf

/-- the entry is found -/
theorem remembers_last (roots : Roots) {k : FKey} {o a : ℕ} {L : List FKey} {s : St} (h : Remembers k o a L s) :
    ∃ r s', (Call.foxz k).exec roots s = (.ok r, s') ∧ r.inter = some a ∧ s'.inner = s.inner := by
  classical
  obtain ⟨⟨f, ho⟩, pre, post, hc, -, hpre⟩ := h
  have hfind : s.cFoxz.find? (fun e => e.1 = k) = some (k, o) := by
    rw [hc, List.find?_append, List.find?_eq_none.2 (fun x hx => by simpa using (hpre x hx).1)]
    simp
  refine ⟨⟨.num f, some a⟩, { s with cFoxz := (k, o) :: s.cFoxz.filter (fun e => e.1 ≠ k) }, ?_, rfl, rfl⟩
  have hg : lruGet k s.cFoxz = some (o, (k, o) :: s.cFoxz.filter (fun e => e.1 ≠ k)) := by
    unfold lruGet
    rw [hfind]
  simp only [Call.exec, M.bind_eq, foxzM, cached, hg, readOuter, ho, M.pure_eq]

/-- C148: once `f_oxz` has answered for some arguments, it answers with the same dictionary of intermediate results, and creates no new one,
as long as the cache is not emptied and at most 127 other sets of arguments are asked for in between, however often. -/
theorem C148_kept (roots : Roots) {k : FKey} {s s' : St} {r : Answer} (h : (Call.foxz k).exec roots s = (.ok r, s')) (L : List FKey)
    (hL : L.length ≤ 127) (es : List Event) (he : ∀ e ∈ es, e.asksOnly k L) :
    ∃ r' t, (Call.foxz k).exec roots (runEvents roots es s') = (.ok r', t) ∧ r'.inter = r.inter ∧
      t.inner = (runEvents roots es s').inner := by
  obtain ⟨o, a, hr, pre⟩ := remembers_first roots h
  have h0 : Remembers k o a L s' := by
    obtain ⟨h1, p, q, h2, h3, h4⟩ := pre
    exact ⟨h1, p, q, h2, h3, fun e he => absurd (h4 e he).2 (by simp)⟩
  have run : ∀ (es : List Event) s, (∀ e ∈ es, e.asksOnly k L) → Remembers k o a L s → Remembers k o a L (runEvents roots es s) := by
    intro es
    induction es with
    | nil => intro s _ h; exact h
    | cons e es ih =>
      intro s he h
      exact ih _ (fun x hx => he x (by simp [hx])) (remembers_step roots hL (he e (by simp)) h)
  obtain ⟨r', t, h1, h2, h3⟩ := remembers_last roots (run es s' he h0)
  exact ⟨r', t, h1, h2.trans hr.symm, h3⟩

/-- another section -/
def otherKey : FKey := ⟨1, 3, 2, 1, 1, 1, 0, 1, 1, 1, 1⟩

/-- The hypotheses are met: after a first call for a section, one call for another section in between. -/
example (roots : Roots) : (∃ r s', (Call.foxz sampleKey).exec roots St.init = (.ok r, s')) ∧
    ∀ e ∈ [Event.call (.foxz otherKey)], e.asksOnly sampleKey [otherKey] := by
  obtain ⟨f, hf, -⟩ := sampleKey_value
  constructor
  · refine ⟨⟨.num f.foxz, some 0⟩, afterFoxz sampleKey f (foxzDict f), ?_⟩
    simp only [Call.exec, M.bind_eq, foxzM_first hf, afterFoxz, readOuter, M.pure_eq]
    rfl
  · intro e he
    simp only [List.mem_singleton] at he
    subst he
    intro k' hk'
    right
    simpa [Call.foxzKeys] using hk'

end BeamDesign
