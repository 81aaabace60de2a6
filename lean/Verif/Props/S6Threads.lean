import Verif.Lemmas.S6Threads
import Verif.Props.S6Cache

/-!
# Calls from several threads: C110, C111
-/

set_option linter.unusedSimpArgs false

namespace BeamDesign

open S6

/-! ## C110 -/

/-- C110, the model of threads: a call that is not interrupted does what it does in a program with one thread. -/
theorem C110_alone (roots : Roots) (c : Call) (s : St) : (c.proc roots).alone s = c.exec roots s := by
  rw [proc_alone]

/-- C110.  Any number of threads, each with any list of calls, started after any history; any schedule, in which
the program may also change dictionaries of intermediate results and empty the caches between any two steps.
When a thread has ended, each of its calls returned the numbers (or raised the exception) of the formula. -/
theorem C110_numbers (roots : Roots) (es : List Event) (he : ∀ e ∈ es, e.isFair) (threads : List (List Call))
    (schedule : List Tick) (hs : ∀ t ∈ schedule, t.isFair) {i : ℕ} {rs : List (Py Answer)}
    (h : (runTicks roots schedule (Pool.start roots (runEvents roots es St.init) threads)).Ended i rs) :
    ∃ calls, threads[i]? = some calls ∧ numbersOf rs = calls.map (·.value roots) := by
  have hp := poolOk_run roots schedule (poolOk_start roots threads (inv_run roots es he inv_init)) hs
  obtain ⟨l, h1, h2⟩ := hp.safe i _ h
  obtain ⟨rs', h3, h4⟩ := h2 _ (Ext.refl _)
  injection h3 with h3
  subst h3
  exact ⟨l, h1, h4⟩

/-- C110, compared with a program without threads: the numbers of every call are the ones the same call gives
after any history in a program with one thread. -/
theorem C110_sequential (roots : Roots) (es : List Event) (he : ∀ e ∈ es, e.isFair) (threads : List (List Call))
    (schedule : List Tick) (hs : ∀ t ∈ schedule, t.isFair) {i : ℕ} {rs : List (Py Answer)}
    (h : (runTicks roots schedule (Pool.start roots (runEvents roots es St.init) threads)).Ended i rs)
    (es' : List Event) (he' : ∀ e ∈ es', e.isFair) :
    ∃ calls, threads[i]? = some calls ∧
      numbersOf rs = calls.map fun c => c.numbersIn roots (runEvents roots es' St.init) := by
  obtain ⟨l, h1, h2⟩ := C110_numbers roots es he threads schedule hs h
  refine ⟨l, h1, h2.trans ?_⟩
  congr 1
  funext c
  exact (C55_cache_invisible roots es' he' c).symm

/-- C110, no deadlock and no endless retrying: a thread has ended after 21 of its own steps for each of its calls,
whatever the other threads do and however long they are held up. -/
theorem C110_progress (roots : Roots) (es : List Event) (he : ∀ e ∈ es, e.isFair) (threads : List (List Call))
    (schedule : List Tick) (hs : ∀ t ∈ schedule, t.isFair) {i : ℕ} {calls : List Call} (hi : threads[i]? = some calls)
    (hn : 21 * calls.length ≤ schedule.countP (Tick.isRun i)) :
    ∃ rs, (runTicks roots schedule (Pool.start roots (runEvents roots es St.init) threads)).Ended i rs ∧
      rs.length = calls.length := by
  have hp := poolOk_run roots schedule (poolOk_start roots threads (inv_run roots es he inv_init)) hs
  obtain ⟨t, h1, h2⟩ := atMost_run roots schedule (p := Pool.start roots (runEvents roots es St.init) threads) (i := i)
    (t := threadP roots calls) (by simp [Pool.start, hi]) (thread_atMost roots calls)
  obtain ⟨r, rfl⟩ := atMost_zero (h2.mono (m := 0) (by omega))
  obtain ⟨l, h3, h4⟩ := hp.safe i _ h1
  obtain ⟨rs, rfl, h5⟩ := h4 _ (Ext.refl _)
  refine ⟨rs, h1, ?_⟩
  have := congrArg List.length h5
  rw [hi, Option.some.injEq] at h3
  simpa [numbersOf, h3] using this

/-- two threads that need the same cached results, one step at a time in turn, with the cache emptied in
between: both end, with the capacity of the formula -/
example (roots : Roots) : ∃ rs rs' x,
    (runTicks roots ((List.replicate 30 [Tick.run 0, .run 1, .other .clearFoxz]).flatten)
      (Pool.start roots (runEvents roots [] St.init) [[.foxz sampleKey], [.foxz sampleKey]])).Ended 0 rs ∧
    (runTicks roots ((List.replicate 30 [Tick.run 0, .run 1, .other .clearFoxz]).flatten)
      (Pool.start roots (runEvents roots [] St.init) [[.foxz sampleKey], [.foxz sampleKey]])).Ended 1 rs' ∧
    numbersOf rs = [.ok (.num x)] ∧ numbersOf rs' = [.ok (.num x)] ∧ 0 < x := by
  obtain ⟨f, e, p⟩ := sampleKey_value
  have hs : ∀ t ∈ (List.replicate 30 [Tick.run 0, .run 1, .other .clearFoxz]).flatten, t.isFair := by
    intro t ht
    obtain ⟨l, hl, ht⟩ := List.mem_flatten.1 ht
    rw [(List.mem_replicate.1 hl).2] at ht
    simp only [List.mem_cons, List.not_mem_nil, or_false] at ht
    rcases ht with rfl | rfl | rfl <;> trivial
  have he : ∀ e ∈ ([] : List Event), e.isFair := fun _ h => by cases h
  have hc : ∀ i : ℕ, i < 2 → 21 ≤ List.countP (Tick.isRun i)
      (List.replicate 30 [Tick.run 0, .run 1, .other .clearFoxz]).flatten := by
    intro i hi
    obtain rfl | rfl : i = 0 ∨ i = 1 := by omega
    all_goals simp [List.replicate, Tick.isRun]
  obtain ⟨rs, h1, _⟩ := C110_progress roots [] he [[.foxz sampleKey], [.foxz sampleKey]] _ hs (i := 0) rfl (hc 0 (by omega))
  obtain ⟨rs', h2, _⟩ := C110_progress roots [] he [[.foxz sampleKey], [.foxz sampleKey]] _ hs (i := 1) rfl (hc 1 (by omega))
  obtain ⟨l, g1, g2⟩ := C110_numbers roots [] he _ _ hs h1
  obtain ⟨l', g1', g2'⟩ := C110_numbers roots [] he _ _ hs h2
  have hv : (Call.foxz sampleKey).value roots = .ok (.num f.foxz) := by
    simp only [Call.value, e]; rfl
  refine ⟨rs, rs', f.foxz, h1, h2, ?_, ?_, p⟩
  · rw [g2, ← Option.some.inj g1]; simp [hv]
  · rw [g2', ← Option.some.inj g1']; simp [hv]

/-! ## C111 -/

/-- `n` steps of one function, without interruption, lead from `p` in `s` to `q` in `t` -/
inductive Steps {α : Type} : Proc α → St → ℕ → Proc α → St → Prop
  | refl (p : Proc α) (s : St) : Steps p s 0 p s
  | step {act : St → St} {next : St → Proc α} {s : St} {n : ℕ} {q : Proc α} {t : St} (h : Steps (next s) (act s) n q t) :
      Steps (.more act next) s (n + 1) q t

theorem Steps.bind {α β : Type} {p q : Proc α} {s t : St} {n : ℕ} (f : α → Proc β) (h : Steps p s n q t) :
    Steps (p >>= f) s n (q >>= f) t := by
  induction h with
  | refl p s => exact .refl _ _
  | step _ ih => exact .step ih

theorem Steps.attempt {α : Type} {p q : Proc α} {s t : St} {n : ℕ} (h : Steps p s n q t) :
    Steps p.attempt s n q.attempt t := by
  induction h with
  | refl p s => exact .refl _ _
  | step _ ih => exact .step ih

theorem Steps.trans {α : Type} {p q r : Proc α} {s t u : St} {n m : ℕ} (h : Steps p s n q t) (h' : Steps q t m r u) :
    Steps p s (n + m) r u := by
  induction h with
  | refl p s => rwa [Nat.zero_add]
  | step _ ih =>
    rw [Nat.add_right_comm]
    exact .step (ih h')

/-- a single step on the shared state -/
theorem Steps.one {α β : Type} {x : M α} {s t : St} {a : α} (f : α → Proc β) (h : x s = (.ok a, t)) :
    Steps (Proc.step x >>= f) s 1 (f a) t := by
  have : Steps (Proc.step x) s 1 (.done (.ok a)) t := by
    refine .step ?_
    rw [h]
    exact .refl _ _
  exact this.bind f

/-- steps of the first of two threads -/
theorem Steps.first (roots : Roots) {n : ℕ} {p p' : Proc (List (Py Answer))} {s t : St} (h : Steps p s n p' t)
    (q : Proc (List (Py Answer))) (ts : List Tick) :
    runTicks roots (List.replicate n (.run 0) ++ ts) ⟨s, [p, q]⟩ = runTicks roots ts ⟨t, [p', q]⟩ := by
  induction h with
  | refl p s => rfl
  | step _ ih => exact ih

/-- steps of the second of two threads -/
theorem Steps.second (roots : Roots) {n : ℕ} {q q' : Proc (List (Py Answer))} {s t : St} (h : Steps q s n q' t)
    (p : Proc (List (Py Answer))) (ts : List Tick) :
    runTicks roots (List.replicate n (.run 1) ++ ts) ⟨s, [p, q]⟩ = runTicks roots ts ⟨t, [p, q']⟩ := by
  induction h with
  | refl p s => rfl
  | step _ ih => exact ih

/-- the dictionary after `f_oc_single_symmetric` for the axis x -/
noncomputable def singleDict (f : Foxz) (d : Dict) : Dict :=
  Dict.set "AS4600 Clause" (.str "AS4600 S3.4.3") (Dict.set "Symmetry" (.str "Single")
    (Dict.set "f_oxz" (.num f.foxz) (Dict.set "Axis of Symmetry" (.str "x") d)))

/-- `f_oxz` is in the cache -/
theorem foxzP_hit (k : FKey) (f : Foxz) (d : Dict) :
    Steps (foxzP k) (afterFoxz k f d) 1 (.done (.ok 0)) (afterFoxz k f d) := by
  refine .step ?_
  simp only [afterFoxz, lruGet_head]
  exact .refl _ _

/-- `f_euler_torsion` is in the cache -/
theorem torP_hit (m : Member) (f : Foxz) (d : Dict) :
    Steps (torP (Member.keyT m)) (afterFoxz (Member.keyX m) f d) 1 (.done (.ok f.foz)) (afterFoxz (Member.keyX m) f d) := by
  have e : (afterFoxz (Member.keyX m) f d).cTor = [(Member.keyT m, f.foz)] := rfl
  refine .step ?_
  simp only [e, lruGet_head]
  exact .refl _ _

theorem focDouble_steps {m : Member} {sym : Symmetry} (hs : sym.symmetry = .ok .double) (f : Foxz) (d : Dict) :
    Steps (focDoubleP m sym) (afterFoxz (Member.keyX m) f d) 7 (.done (.ok ⟨min f.foxz f.foz, 0⟩))
      (afterFoxz (Member.keyX m) f (doubleDict f d)) := by
  unfold focDoubleP
  refine Steps.trans (n := 1) (m := 6) ((foxzP_hit _ f d).bind _) ?_
  refine Steps.trans (n := 1) (m := 5) ((torP_hit m f d).bind _) ?_
  refine Steps.trans (n := 1) (m := 4) (.one _ (readOuter_after _ f d)) ?_
  refine Steps.trans (n := 1) (m := 3) (.one _ (update_after _ _ _ _ _)) ?_
  refine Steps.trans (n := 1) (m := 2) (.one _ (update_after _ _ _ _ _)) ?_
  refine Steps.trans (n := 1) (m := 1) (.one _ (update_after _ _ _ _ _)) ?_
  rw [hs]
  refine Steps.trans (n := 1) (m := 0) (.one _ (update_after _ _ _ _ _)) ?_
  exact .refl _ _

theorem focSingle_steps {m : Member} {sym : Symmetry} (hs : sym.symmetry = .ok .single) (hn : sym.symcount = .ok 1)
    (hx : (sym.axes.getD []).any (Axis.isStr "x") = true) (f : Foxz) (d : Dict) :
    Steps (focSingleP m sym) (afterFoxz (Member.keyX m) f d) 6 (.done (.ok ⟨f.foxz, 0⟩))
      (afterFoxz (Member.keyX m) f (singleDict f d)) := by
  have e : focSingleP m sym = singleTailP (Member.keyX m) "x" sym := by
    unfold focSingleP
    rw [hn]
    show (if (1 : ℕ) ≠ 1 then Proc.lift (.error .typeError) else
      if (sym.axes.getD []).any (Axis.isStr "x") then singleTailP (Member.keyX m) "x" sym
      else singleTailP (Member.keyY m) "y" sym) = _
    rw [if_neg (by simp), if_pos hx]
  rw [e]
  unfold singleTailP
  refine Steps.trans (n := 1) (m := 5) ((foxzP_hit _ f d).bind _) ?_
  refine Steps.trans (n := 1) (m := 4) (.one _ (readOuter_after _ f d)) ?_
  refine Steps.trans (n := 1) (m := 3) (.one _ (update_after _ _ _ _ _)) ?_
  refine Steps.trans (n := 1) (m := 2) (.one _ (update_after _ _ _ _ _)) ?_
  rw [hs]
  refine Steps.trans (n := 1) (m := 1) (.one _ (update_after _ _ _ _ _)) ?_
  refine Steps.trans (n := 1) (m := 0) (.one _ (update_after _ _ _ _ _)) ?_
  exact .refl _ _

/-- what is left of a thread with one call of `s6_3_3_N_c_torsion` when the stress is known -/
noncomputable def lastUpdate (m : Member) (kf fy unc : ℝ) (r : StressResult) : Proc (List (Py Answer)) := do
  let a ← (do
    let r ← (do
      let p ← Proc.lift (columnCurve fy r.foc)
      Proc.step do
        update r.inter "f_oc" (.num r.foc)
        update r.inter "λ_c" (.num p.1)
        update r.inter "f_n" (.num p.2)
      return (⟨unc * Ae m.An kf * p.2, r.inter⟩ : TorsionResult))
    return (⟨.num r.Ncz, some r.inter⟩ : Answer) : Proc Answer).attempt
  let rs ← (pure [] : Proc (List (Py Answer)))
  return a :: rs

theorem thread_steps (roots : Roots) {m : Member} {sym : Symmetry} {s t : St} {n : ℕ} {r : StressResult}
    (h : Steps (focP roots m sym) s n (.done (.ok r)) t) (kf fy unc : ℝ) :
    Steps (threadP roots [.ncTorsion m kf fy sym unc]) s n (lastUpdate m kf fy unc r) t := by
  have h1 := ((h.bind fun r => (do
      let p ← Proc.lift (columnCurve fy r.foc)
      Proc.step do
        update r.inter "f_oc" (.num r.foc)
        update r.inter "λ_c" (.num p.1)
        update r.inter "f_n" (.num p.2)
      return (⟨unc * Ae m.An kf * p.2, r.inter⟩ : TorsionResult) : Proc TorsionResult)).bind
    fun r => (pure (⟨.num r.Ncz, some r.inter⟩ : Answer) : Proc Answer)).attempt
  exact h1.bind fun a => (do
    let rs ← (pure [] : Proc (List (Py Answer)))
    return a :: rs : Proc (List (Py Answer)))

theorem last_step (k : FKey) (f : Foxz) (d : Dict) (m : Member) (kf unc : ℝ) {fy x lc fn : ℝ}
    (hc : columnCurve fy x = .ok (lc, fn)) :
    Steps (lastUpdate m kf fy unc ⟨x, 0⟩) (afterFoxz k f d) 1 (.done (.ok [.ok ⟨.num (unc * Ae m.An kf * fn), some 0⟩]))
      (afterFoxz k f (torsionDict x lc fn d)) := by
  unfold lastUpdate
  simp only [hc]
  exact .step (.refl _ _)

/-- C111 fails.  For every member with positive properties there are two threads, one calculating the torsional
capacity for a doubly symmetric section and one for a section symmetric about x only, and a schedule, so that at the
moment the first call returns the dictionary it returns says that the section is singly symmetric. -/
theorem C111_counterexample (roots : Roots) {m : Member} (hm : m.Positive) {sym sym' : Symmetry}
    (hs : sym.symmetry = .ok .double) (hs' : sym'.symmetry = .ok .single) (hn : sym'.symcount = .ok 1)
    (hx : (sym'.axes.getD []).any (Axis.isStr "x") = true) (kf unc : ℝ) {fy : ℝ} (hy : 0 < fy) :
    ∃ schedule i r a p, p = runTicks roots (schedule ++ [.run i]) (Pool.start roots
        (runEvents roots [.call (.foxz (Member.keyX m))] St.init)
        [[.ncTorsion m kf fy sym unc], [.ncTorsion m kf fy sym' unc]]) ∧
      i = 0 ∧ p.Ended i [.ok r] ∧ r.inter = some a ∧ (p.st.dict a).get "Symmetry" = some (.str "Single") ∧
      ∀ rs, ¬ (runTicks roots schedule (Pool.start roots (runEvents roots [.call (.foxz (Member.keyX m))] St.init)
        [[.ncTorsion m kf fy sym unc], [.ncTorsion m kf fy sym' unc]])).Ended i rs := by
  obtain ⟨f, hf, _, _, p1, _, p2, _⟩ := C52_foxz (ry := m.ry) (xo := m.xo) (yo := m.yo) hm.An hm.lex hm.lez hm.rx hm.J
    hm.Iw hm.E hm.G
  have hk : (Member.keyX m).value = .ok f := hf
  obtain ⟨lc, fn, c1⟩ : ∃ lc fn, columnCurve fy (min f.foxz f.foz) = .ok (lc, fn) :=
    ⟨_, _, columnCurve_ok hy (lt_min p1 (p1.trans_le p2))⟩
  obtain ⟨lc', fn', c2⟩ : ∃ lc fn, columnCurve fy f.foxz = .ok (lc, fn) := ⟨_, _, columnCurve_ok hy p1⟩
  have e0 : runEvents roots [.call (.foxz (Member.keyX m))] St.init = afterFoxz (Member.keyX m) f (foxzDict f) := by
    simp only [runEvents, Event.step, Call.exec, M.bind_eq, foxzM_first hk, readOuter_after, M.pure_eq]
  have d0 : focP roots m sym = focDoubleP m sym := by
    unfold focP; rw [hs]; rfl
  have d1 : focP roots m sym' = focSingleP m sym' := by
    unfold focP; rw [hs']; rfl
  have a1 := thread_steps roots (d0 ▸ focDouble_steps hs f (foxzDict f)) kf fy unc
  have b1 := thread_steps roots (d1 ▸ focSingle_steps hs' hn hx f (doubleDict f (foxzDict f))) kf fy unc
  have b2 := last_step (Member.keyX m) f (singleDict f (doubleDict f (foxzDict f))) m kf unc c2
  have a2 := last_step (Member.keyX m) f (torsionDict f.foxz lc' fn' (singleDict f (doubleDict f (foxzDict f)))) m kf unc c1
  have run : ∀ ts, runTicks roots (List.replicate 7 (.run 0) ++ (List.replicate 7 (.run 1) ++ ts))
      (Pool.start roots (afterFoxz (Member.keyX m) f (foxzDict f))
        [[.ncTorsion m kf fy sym unc], [.ncTorsion m kf fy sym' unc]]) = runTicks roots ts
          ⟨afterFoxz (Member.keyX m) f (torsionDict f.foxz lc' fn' (singleDict f (doubleDict f (foxzDict f)))),
            [lastUpdate m kf fy unc ⟨min f.foxz f.foz, 0⟩,
              .done (.ok [.ok ⟨.num (unc * Ae m.An kf * fn'), some 0⟩])]⟩ := by
    intro ts
    exact (a1.first roots _ _).trans ((b1.trans b2).second roots _ _)
  refine ⟨List.replicate 7 (.run 0) ++ List.replicate 7 (.run 1), 0, ⟨.num (unc * Ae m.An kf * fn), some 0⟩, 0, _,
    rfl, rfl, ?_, rfl, ?_, ?_⟩
  · rw [e0, List.append_assoc, run]
    unfold Pool.Ended
    have := a2.first roots (.done (.ok [.ok ⟨.num (unc * Ae m.An kf * fn'), some 0⟩])) []
    rw [show List.replicate 1 (Tick.run 0) ++ [] = [.run 0] from rfl] at this
    rw [this]
    rfl
  · rw [e0, List.append_assoc, run]
    have := a2.first roots (.done (.ok [.ok ⟨.num (unc * Ae m.An kf * fn'), some 0⟩])) []
    rw [show List.replicate 1 (Tick.run 0) ++ [] = [.run 0] from rfl] at this
    rw [this]
    show Dict.get "Symmetry" (torsionDict _ _ _ (torsionDict _ _ _ (singleDict _ _))) = _
    simp [torsionDict, singleDict, Dict.get_set]
  · intro rs
    rw [e0]
    have := run []
    rw [List.append_nil] at this
    rw [this]
    show ¬ (some (lastUpdate _ _ _ _ _) = _)
    unfold lastUpdate
    simp only [c1]
    intro h
    cases h

end BeamDesign
