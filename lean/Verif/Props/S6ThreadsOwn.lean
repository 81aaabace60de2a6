import Verif.Lemmas.S6ThreadsOwn
import Verif.Props.S6Threads

/-!
# C111: the dictionaries of intermediate results when several threads call

`C111_counterexample` shows that a dictionary taken from the cache may have entries of another call.  What is left: such
a dictionary always has the data of the right section, and a dictionary that is not taken from the cache belongs to
its call alone.
-/

namespace BeamDesign

open S6

/-- C111 for the entries that `f_oxz` made.  Any number of threads and any schedule, in which the program may also make
other calls and empty the caches.  From the moment a thread has ended, the dictionary each of its calls returned has
the data of the section of that call: those that other calls of the same section, with another yield stress or another
symmetry, do not change. -/
theorem C111_section_partial (roots : Roots) (es : List Event) (he : ∀ e ∈ es, e.isQuiet) (threads : List (List Call))
    (schedule : List Tick) (hs : ∀ t ∈ schedule, t.isQuiet) {p : Pool}
    (hp : p = runTicks roots schedule (Pool.start roots (runEvents roots es St.init) threads))
    {i j a : ℕ} {rs : List (Py Answer)} {calls : List Call} {c : Call} {r : Answer} {k : FKey}
    (h : p.Ended i rs) (hi : threads[i]? = some calls) (hc : calls[j]? = some c) (hr : rs[j]? = some (.ok r))
    (ha : r.inter = some a) (hk : c.section = some k) :
    ∃ f, k.value = .ok f ∧ (p.st.dict a).Describes f := by
  obtain ⟨Os, hd, hinv, ho, hsure⟩ := ownPool_run roots schedule (ownPool_start roots threads (quiet_run roots es he inv_init)) hs
  rw [← hp] at hinv ho hsure
  obtain ⟨l, h1, h2⟩ := hsure i _ h
  rw [hi, Option.some.injEq] at h1
  subst h1
  obtain ⟨rs', h3, h4, _⟩ := h2 _ (Rely.refl _ _) hinv (ho i)
  injection h3 with h3
  subst h3
  obtain ⟨O1, _, hkind⟩ := h4 j c r a hc hr ha
  rcases hkind with ⟨d0, g1, _⟩ | ⟨k0, f, g1, g2, _, g4⟩
  · exfalso
    have : callDict roots c = none := by
      cases c with
      | focPoint m => cases hk
      | focUnsym m => cases hk
      | ncTorsion m kf fy sym unc =>
        simp only [Call.section, sectionOf] at hk
        simp only [callDict, ncTorsionDict, focDict]
        split at hk <;> simp_all
      | nc a =>
        simp only [Call.section, sectionOf] at hk
        simp only [callDict, ncDict, ncTorsionDict, focDict]
        split at hk <;> simp_all
      | _ => rfl
    rw [this] at g1
    cases g1
  · rw [hk, Option.some.injEq] at g1
    subst g1
    exact ⟨f, g2, g4.2.2 rfl⟩

/-- C111 for the calls that do not use the cache for their dictionary: from the moment the thread has ended, the
dictionary has exactly the entries that the same call returns in a program with one thread, whatever that program did
before. -/
theorem C111_private_partial (roots : Roots) (es : List Event) (he : ∀ e ∈ es, e.isQuiet) (threads : List (List Call))
    (schedule : List Tick) (hs : ∀ t ∈ schedule, t.isQuiet) {p : Pool}
    (hp : p = runTicks roots schedule (Pool.start roots (runEvents roots es St.init) threads))
    {i j a : ℕ} {rs : List (Py Answer)} {calls : List Call} {c : Call} {r : Answer}
    (h : p.Ended i rs) (hi : threads[i]? = some calls) (hc : calls[j]? = some c) (hr : rs[j]? = some (.ok r))
    (ha : r.inter = some a) (hu : c.unshared)
    (es' : List Event) (he' : ∀ e ∈ es', e.isQuiet) {r' : Answer} {s' : St} {a' : ℕ}
    (h' : c.exec roots (runEvents roots es' St.init) = (.ok r', s')) (ha' : r'.inter = some a') :
    p.st.dict a = s'.dict a' := by
  obtain ⟨Os, hd, hinv, ho, hsure⟩ := ownPool_run roots schedule (ownPool_start roots threads (quiet_run roots es he inv_init)) hs
  rw [← hp] at hinv ho hsure
  obtain ⟨l, h1, h2⟩ := hsure i _ h
  rw [hi, Option.some.injEq] at h1
  subst h1
  obtain ⟨rs', h3, h4, _⟩ := h2 _ (Rely.refl _ _) hinv (ho i)
  injection h3 with h3
  subst h3
  obtain ⟨O1, _, hkind⟩ := h4 j c r a hc hr ha
  obtain ⟨O2, hkind'⟩ := exec_kind roots c (quiet_run roots es' he' inv_init) h' ha'
  have g := (hkind.own hu).2.2
  rw [(hkind'.own hu).2.2, Option.some.injEq] at g
  exact g.symm

/-- C111, the dictionary object a call returns that does not use the cache is returned by no other call, in this thread
or in another. -/
theorem C111_apart_partial (roots : Roots) (es : List Event) (he : ∀ e ∈ es, e.isQuiet) (threads : List (List Call))
    (schedule : List Tick) (hs : ∀ t ∈ schedule, t.isQuiet) {p : Pool}
    (hp : p = runTicks roots schedule (Pool.start roots (runEvents roots es St.init) threads))
    {i j i' j' a : ℕ} {rs rs' : List (Py Answer)} {calls calls' : List Call} {c c' : Call} {r r' : Answer}
    (h : p.Ended i rs) (hi : threads[i]? = some calls) (hc : calls[j]? = some c) (hr : rs[j]? = some (.ok r))
    (ha : r.inter = some a)
    (h' : p.Ended i' rs') (hi' : threads[i']? = some calls') (hc' : calls'[j']? = some c')
    (hr' : rs'[j']? = some (.ok r')) (ha' : r'.inter = some a) (hu : c.unshared) :
    i = i' ∧ j = j' := by
  obtain ⟨Os, hd, hinv, ho, hsure⟩ := ownPool_run roots schedule (ownPool_start roots threads (quiet_run roots es he inv_init)) hs
  rw [← hp] at hinv ho hsure
  obtain ⟨l, h1, h2⟩ := hsure i _ h
  rw [hi, Option.some.injEq] at h1
  subst h1
  obtain ⟨l', h1', h2'⟩ := hsure i' _ h'
  rw [hi', Option.some.injEq] at h1'
  subst h1'
  obtain ⟨rs1, h3, h4, h5, _⟩ := h2 _ (Rely.refl _ _) hinv (ho i)
  injection h3 with h3
  subst h3
  obtain ⟨rs1', h3', h4', _⟩ := h2' _ (Rely.refl _ _) hinv (ho i')
  injection h3' with h3'
  subst h3'
  by_cases hii : i = i'
  · subst hii
    have e : calls = calls' := Option.some.inj (hi.symm.trans hi')
    subst e
    have e : rs = rs' := by
      have := h.symm.trans h'
      simpa using this
    subst e
    exact ⟨rfl, h5 j j' c c' r r' a hc hc' hu hr hr' ha ha'⟩
  · exfalso
    obtain ⟨O1, k1, k2⟩ := h4 j c r a hc hr ha
    obtain ⟨O2, k3, k4⟩ := h4' j' c' r' a hc' hr' ha'
    have g := k2.own hu
    refine hd i i' hii a (k1 ?_) (k3 ?_)
    · rw [g.1]; rfl
    · rw [k4.own' g.2.1]; rfl

/-- C111, every call that is to return a dictionary and does not raise returns one. -/
theorem C111_given (roots : Roots) (es : List Event) (he : ∀ e ∈ es, e.isQuiet) (threads : List (List Call))
    (schedule : List Tick) (hs : ∀ t ∈ schedule, t.isQuiet) {p : Pool}
    (hp : p = runTicks roots schedule (Pool.start roots (runEvents roots es St.init) threads))
    {i j : ℕ} {rs : List (Py Answer)} {calls : List Call} {c : Call} {r : Answer}
    (h : p.Ended i rs) (hi : threads[i]? = some calls) (hc : calls[j]? = some c) (hr : rs[j]? = some (.ok r))
    (hg : c.gives) : ∃ a, r.inter = some a := by
  obtain ⟨Os, hd, hinv, ho, hsure⟩ := ownPool_run roots schedule (ownPool_start roots threads (quiet_run roots es he inv_init)) hs
  rw [← hp] at hinv ho hsure
  obtain ⟨l, h1, h2⟩ := hsure i _ h
  rw [hi, Option.some.injEq] at h1
  subst h1
  obtain ⟨rs', h3, _, _, h4⟩ := h2 _ (Rely.refl _ _) hinv (ho i)
  injection h3 with h3
  subst h3
  exact h4 j c r hc hr hg

theorem isFair_of_isQuiet {e : Event} (h : e.isQuiet) : e.isFair := by cases e <;> trivial

theorem tick_isFair {t : Tick} (h : t.isQuiet) : t.isFair := by
  cases t with
  | run i => trivial
  | other e => exact isFair_of_isQuiet h

/-- a point-symmetric section in one thread and a doubly symmetric one in another, both from the cache of one call: after
every schedule long enough both have ended, the first with a dictionary of its own and the second with one that has
the data of the section -/
example (roots : Roots) {m : Member} (hm : m.Positive) {sym : Symmetry} (hs : sym.symmetry = .ok .double)
    (schedule : List Tick) (hq : ∀ t ∈ schedule, t.isQuiet) (hn : 21 ≤ schedule.countP (Tick.isRun 0))
    (hn' : 21 ≤ schedule.countP (Tick.isRun 1)) :
    ∃ p r r' a a' f, p = runTicks roots schedule (Pool.start roots (runEvents roots [.call (.focDouble m sym)] St.init)
        [[.focPoint m], [.focDouble m sym]]) ∧
      p.Ended 0 [.ok r] ∧ p.Ended 1 [.ok r'] ∧ r.inter = some a ∧ r'.inter = some a' ∧ a ≠ a' ∧
      (Member.keyX m).value = .ok f ∧ (p.st.dict a').Describes f ∧
      p.st.dict a = [("AS4600 Clause", .str "AS4600 S3.4.4")] := by
  obtain ⟨f, hf, _⟩ := C52_foxz (ry := m.ry) (xo := m.xo) (yo := m.yo) hm.An hm.lex hm.lez hm.rx hm.J hm.Iw hm.E hm.G
  have hk : (Member.keyX m).value = .ok f := hf
  have hkt : (Member.keyT m).value = .ok f.foz := foz_of_value hk
  have he : ∀ e ∈ [Event.call (.focDouble m sym)], e.isQuiet := by
    intro e h
    rw [List.mem_singleton] at h
    subst h
    trivial
  have hfair : ∀ t ∈ schedule, t.isFair := fun t h => tick_isFair (hq t h)
  have hfe : ∀ e ∈ [Event.call (.focDouble m sym)], e.isFair := fun e h => isFair_of_isQuiet (he e h)
  obtain ⟨rs, h1, _⟩ := C110_progress roots _ hfe [[.focPoint m], [.focDouble m sym]] schedule hfair (i := 0) rfl (by simpa using hn)
  obtain ⟨rs', h2, _⟩ := C110_progress roots _ hfe [[.focPoint m], [.focDouble m sym]] schedule hfair (i := 1) rfl (by simpa using hn')
  have v1 : (Call.focPoint m).value roots = .ok (.num f.foz) := by
    show (Member.keyT m).value.map Numbers.num = _
    rw [hkt]
    rfl
  have v2 : (Call.focDouble m sym).value roots = .ok (.num (min f.foxz f.foz)) := by
    show (do let x ← focDouble m; let _ ← sym.symmetry; return Numbers.num x) = _
    have : focDouble m = .ok (min f.foxz f.foz) := by
      show ((Member.keyX m).value >>= fun f => (Member.keyT m).value >>= fun z => _) = _
      rw [hk, hkt]
      rfl
    rw [this, hs]
    rfl
  have one : ∀ {rs : List (Py Answer)} {x : ℝ}, numbersOf rs = [.ok (.num x)] → ∃ r, rs = [.ok r] := by
    intro rs x h
    obtain ⟨o, rfl⟩ := List.length_eq_one_iff.1 (show rs.length = 1 by simpa [numbersOf] using congrArg List.length h)
    cases o with
    | ok r => exact ⟨r, rfl⟩
    | error e => simp [numbersOf, Except.map] at h
  obtain ⟨l, g1, g2⟩ := C110_numbers roots _ hfe _ _ hfair h1
  rw [← Option.some.inj g1, List.map_singleton, v1] at g2
  obtain ⟨r, rfl⟩ := one g2
  obtain ⟨l', g1', g2'⟩ := C110_numbers roots _ hfe _ _ hfair h2
  rw [← Option.some.inj g1', List.map_singleton, v2] at g2'
  obtain ⟨r', rfl⟩ := one g2'
  obtain ⟨a, ha⟩ := C111_given roots _ he _ _ hq rfl h1 (j := 0) rfl rfl rfl trivial
  obtain ⟨a', ha'⟩ := C111_given roots _ he _ _ hq rfl h2 (j := 0) rfl rfl rfl trivial
  obtain ⟨f', k1, k2⟩ := C111_section_partial roots _ he _ _ hq rfl h2 (j := 0) rfl rfl rfl ha' (k := Member.keyX m) rfl
  obtain rfl : f = f' := by rw [hk] at k1; injection k1
  refine ⟨_, r, r', a, a', f, rfl, h1, h2, ha, ha', ?_, hk, k2, ?_⟩
  · rintro rfl
    have := C111_apart_partial roots _ he _ _ hq rfl h1 (j := 0) rfl rfl rfl ha h2 (j' := 0) rfl rfl rfl ha' trivial
    omega
  · have hy := (proc_relO roots (.focPoint m) (inv_init (b := true))).alone inv_init (Owns.empty _)
    rw [proc_alone] at hy
    rcases he2 : (Call.focPoint m).exec roots St.init with ⟨o, s'⟩
    rw [he2, v1] at hy
    cases o with
    | error e => obtain ⟨_, hy⟩ := hy; exact hy.elim
    | ok r2 =>
      obtain ⟨O, hy⟩ := hy
      obtain ⟨a2, ha2⟩ := hy.1 trivial
      rw [C111_private_partial roots _ he _ _ hq rfl h1 (j := 0) rfl rfl rfl ha trivial [] (fun _ h => by cases h) he2 ha2]
      exact (Option.some.inj ((hy.2 a2 ha2).own (c := .focPoint m) trivial).2.2).symm

end BeamDesign
