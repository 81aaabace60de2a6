import Verif.Lemmas.S6Cache
import Verif.Props.S6

/-!
# Caching and shared results: C55, C56
-/

set_option linter.unusedSimpArgs false

namespace BeamDesign

open S6

/-! ## C55 -/

/-- C55.  Whatever a program has called before, whatever it has changed in the dictionaries of intermediate
results, whichever caches were cleared and whichever entries were evicted: a call returns the numbers (or
raises the exception) of the formula without a cache. -/
theorem C55_cache_invisible (roots : Roots) (es : List Event) (he : ∀ e ∈ es, e.isFair) (c : Call) :
    c.numbersIn roots (runEvents roots es St.init) = c.value roots := by
  have hi := inv_run roots es he inv_init
  obtain ⟨_, _, h⟩ := exec_tri (s0 := runEvents roots es St.init) roots c _ hi (Eff.refl _ _) trivial
  unfold Call.numbersIn
  rcases hx : (c.exec roots (runEvents roots es St.init)).1 with e | r <;> rcases hv : c.value roots with e' | x <;>
    rw [hx, hv] at h
  · rw [show e = e' from h]; rfl
  · exact h.elim
  · exact h.elim
  · have := h.1
    show Except.ok r.numbers = _
    rw [this]

/-- C55, the same claim for two histories: the numbers are the same after both. -/
theorem C55_same_after_any_calls (roots : Roots) (cs cs' : List Call) (c : Call) :
    c.numbersIn roots (runEvents roots (cs.map .call) St.init) =
      c.numbersIn roots (runEvents roots (cs'.map .call) St.init) := by
  have h : ∀ l : List Call, ∀ e ∈ l.map Event.call, e.isFair := by
    intro l e he
    obtain ⟨c, _, rfl⟩ := List.mem_map.1 he
    trivial
  rw [C55_cache_invisible roots _ (h cs), C55_cache_invisible roots _ (h cs')]

theorem lruGet_head {κ β : Type} (k : κ) (v : β) : lruGet k [(k, v)] = some (v, [(k, v)]) := by
  classical
  simp [lruGet]

theorem lruGet_nil {κ β : Type} (k : κ) : lruGet k ([] : List (κ × β)) = none := rfl

/-- the state after `f_oxz(k)` as the first call, when the dictionary has become `d` -/
noncomputable def afterFoxz (k : FKey) (f : Foxz) (d : Dict) : St where
  inner := [d]
  outer := [(0, f.foxz)]
  cRol := [(⟨k.rx, k.ry, k.xo, k.yo⟩, f.rol)]
  cTor := [(⟨k.An, k.lez, k.rx, k.ry, k.xo, k.yo, k.J, k.Iw, k.E, k.G⟩, f.foz)]
  cFoxz := [(k, 0)]

/-- the entries a first call of `f_oxz` gives -/
noncomputable def foxzDict (f : Foxz) : Dict :=
  [("β", .num f.beta), ("f_ox", .num f.fox), ("f_oz", .num f.foz), ("r_x", .num f.rx), ("r_y", .num f.ry),
    ("x_o", .num f.xo), ("y_o", .num f.yo), ("r_ol", .num f.rol)]

theorem M.bind_eq {α β : Type} (x : M α) (f : α → M β) (s : St) :
    (x >>= f) s = match x s with
      | (.ok a, s') => f a s'
      | (.error e, s') => (.error e, s') := rfl

theorem M.pure_eq {α : Type} (a : α) (s : St) : (pure a : M α) s = (.ok a, s) := rfl

theorem foxzM_first {k : FKey} {f : Foxz} (h : k.value = .ok f) :
    foxzM k St.init = (.ok 0, afterFoxz k f (foxzDict f)) := by
  have hz := foz_of_value h
  simp only [FKey.value, foxz] at h
  have er : rol k.rx k.ry k.xo k.yo = rsqrt (k.rx * k.rx + k.ry * k.ry + k.xo * k.xo + k.yo * k.yo) := rfl
  cases e1 : rol k.rx k.ry k.xo k.yo with
  | error e => rw [e1] at h; cases h
  | ok ro =>
  rw [e1, Except.bind_ok'] at h
  cases e2 : rdiv k.xo ro with
  | error e => rw [e2] at h; cases h
  | ok q =>
  rw [e2, Except.bind_ok'] at h
  cases e3 : fEuler k.E k.lex k.rx with
  | error e => rw [e3] at h; cases h
  | ok fox =>
  rw [e3, Except.bind_ok'] at h
  cases e4 : fEulerTorsion k.An k.lez k.rx k.ry k.xo k.yo k.J k.Iw k.E k.G with
  | error e => rw [e4] at h; cases h
  | ok foz =>
  rw [e4, Except.bind_ok'] at h
  cases e5 : rdiv 1 (2 * (1 - q ^ 2)) with
  | error e => rw [e5] at h; cases h
  | ok h' =>
  rw [e5, Except.bind_ok'] at h
  cases e6 : rsqrt ((fox + foz) ^ 2 - 4 * (1 - q ^ 2) * fox * foz) with
  | error e => rw [e6] at h; cases h
  | ok r =>
  rw [e6, Except.bind_ok'] at h
  injection h with h
  subst h
  simp only [fEulerTorsion, e1, Except.bind_ok'] at e4
  cases e7 : rdiv (k.G * k.J) (k.An * ro * ro) with
  | error e => rw [e7] at e4; cases e4
  | ok a =>
  rw [e7, Except.bind_ok'] at e4
  cases e8 : rdiv (piD * piD * k.E * k.Iw) (k.G * k.J * (k.lez * k.lez)) with
  | error e => rw [e8] at e4; cases e4
  | ok b =>
  rw [e8, Except.bind_ok'] at e4
  injection e4 with e4
  subst e4
  rw [er] at e1
  simp only [foxzM, rolM, torM, cached, St.init, lruGet_nil, M.lift, M.bind_eq, M.pure_eq, e1, e2, e3, lruPut,
    List.take_nil, lruGet_head, e7, e8, e5, e6, allocInner, allocOuter, List.length_nil, List.nil_append]
  rfl

/-- a cached call of `f_oxz` -/
theorem foxzM_again (k : FKey) (f : Foxz) (d : Dict) : foxzM k (afterFoxz k f d) = (.ok 0, afterFoxz k f d) := by
  simp only [foxzM, cached, afterFoxz, lruGet_head]

/-- C55, what is excluded: when a program overwrites the entry `"f_oxz"` of the dictionary `f_oxz` returned, the
next call of `f_oxz` with the same arguments returns the overwritten number. -/
theorem C55_overwritten_result (roots : Roots) {k : FKey} {f : Foxz} (h : k.value = .ok f) (x : ℝ) :
    (Call.foxz k).numbersIn roots (runEvents roots [.call (.foxz k), .writeOuter 0 x] St.init) = .ok (.num x) := by
  have e : runEvents roots [.call (.foxz k), .writeOuter 0 x] St.init =
      { afterFoxz k f (foxzDict f) with outer := [(0, x)] } := by
    simp only [runEvents, Event.step, Call.exec, M.bind_eq, foxzM_first h, readOuter, afterFoxz, M.pure_eq]
    rfl
  rw [e]
  simp only [Call.numbersIn, Call.exec, M.bind_eq, foxzM, cached, afterFoxz, lruGet_head, readOuter, M.pure_eq]
  rfl

/-- a key with a result, so that the two theorems about `f_oxz` are about numbers that exist -/
def sampleKey : FKey := ⟨1, 2, 2, 1, 1, 1, 0, 1, 1, 1, 1⟩

theorem sampleKey_value : ∃ f, sampleKey.value = .ok f ∧ 0 < f.foxz := by
  obtain ⟨f, e, _, _, p, _⟩ := C52_foxz (An := 1) (lex := 2) (lez := 2) (rx := 1) (ry := 1) (xo := 1) (yo := 0)
    (J := 1) (Iw := 1) (E := 1) (G := 1) one_pos two_pos two_pos one_pos one_pos zero_le_one one_pos one_pos
  exact ⟨f, e, p⟩

/-- C55 for a history with a repeated call, a caller's write and a clearing -/
example (roots : Roots) (v : S6.Val) : ∃ x : ℝ, 0 < x ∧
    (Call.foxz sampleKey).numbersIn roots
      (runEvents roots [.call (.foxz sampleKey), .write 0 "f_ox" v, .clearTor, .call (.foxz sampleKey)] St.init) =
      .ok (.num x) := by
  obtain ⟨f, e, p⟩ := sampleKey_value
  refine ⟨f.foxz, p, ?_⟩
  rw [C55_cache_invisible]
  · simp only [Call.value, e]; rfl
  · intro e he
    simp only [List.mem_cons, List.not_mem_nil, or_false] at he
    rcases he with rfl | rfl | rfl | rfl <;> trivial

/-! ## C56 -/

theorem dict_modify_ne (s : St) {a b : ℕ} (g : Dict → Dict) (h : a ≠ b) :
    St.dict { s with inner := s.inner.modify a g } b = s.dict b := by
  rw [dict_modify, if_neg fun hc => h hc.1]

theorem unshared_run (roots : Roots) (a : ℕ) (es : List Event) (hf : ∀ e ∈ es, e.leaves a) {s : St}
    (hi : Inv false s) (hu : Unshared s a) : (runEvents roots es s).dict a = s.dict a := by
  induction es generalizing s with
  | nil => rfl
  | cons e es ih =>
    have he : e.leaves a := hf e List.mem_cons_self
    have hfair : e.isFair := by
      cases e <;> trivial
    have hi' := inv_step roots hfair hi
    have hstep : Unshared (e.step roots s) a ∧ (e.step roots s).dict a = s.dict a := by
      cases e with
      | call c =>
        exact (exec_tri (s0 := s) roots c s hi (Eff.refl _ _) trivial).2.1.unshared a hu
      | write b k v =>
        refine ⟨⟨?_, hu.2⟩, dict_modify_ne s _ he⟩
        simp only [Event.step, List.length_modify]; exact hu.1
      | delete b k =>
        refine ⟨⟨?_, hu.2⟩, dict_modify_ne s _ he⟩
        simp only [Event.step, List.length_modify]; exact hu.1
      | writeOuter o f => exact he.elim
      | clearRol => exact ⟨hu, rfl⟩
      | clearTor => exact ⟨hu, rfl⟩
      | clearFoxz => exact ⟨hu, rfl⟩
    simp only [runEvents]
    rw [ih (fun x hx => hf x (List.mem_cons_of_mem _ hx)) hi' hstep.1, hstep.2]

/-- C56, sections that are point symmetric or have no symmetry: after any history, the intermediate results a
call returns stay as returned, whatever is called afterwards and whatever else the program changes. -/
theorem C56_unshared_partial (roots : Roots) (es : List Event) (he : ∀ e ∈ es, e.isFair) (c : Call) (hc : c.unshared)
    {r : Answer} {s : St} (hr : c.exec roots (runEvents roots es St.init) = (.ok r, s)) {a : ℕ}
    (ha : r.inter = some a) (es' : List Event) (hl : ∀ e ∈ es', e.leaves a) :
    (runEvents roots es' s).dict a = s.dict a := by
  have hi := inv_run roots es he inv_init
  obtain ⟨h1, _, h⟩ := exec_tri (s0 := runEvents roots es St.init) roots c _ hi (Eff.refl _ _) trivial
  rw [hr] at h1 h
  rcases hv : c.value roots with e' | x <;> rw [hv] at h
  · exact h.elim
  · exact unshared_run roots a es' hl h1 ((h.2 a ha).1 hc).2

theorem call_run (roots : Roots) (cs : List Call) {s0 s : St} (hi : Inv true s) (he : Eff true s0 s) :
    Inv true (runEvents roots (cs.map .call) s) ∧ Eff true s0 (runEvents roots (cs.map .call) s) := by
  induction cs generalizing s with
  | nil => exact ⟨hi, he⟩
  | cons c cs ih =>
    obtain ⟨h1, h2, _⟩ := exec_tri (s0 := s0) roots c s hi he trivial
    exact ih h1 h2

/-- C56, the section data among the intermediate results: whatever was called before a call and whatever is
called after it, the entries `β`, `f_ox`, `f_oz`, `r_x`, `r_y`, `x_o`, `y_o` and `r_ol` of the dictionary the
call returned stay as returned. -/
theorem C56_section_data_partial (roots : Roots) (cs : List Call) (c : Call) {r : Answer} {s : St}
    (hr : c.exec roots (runEvents roots (cs.map .call) St.init) = (.ok r, s)) {a : ℕ} (ha : r.inter = some a)
    (cs' : List Call) (key : String) (hk : key ∈ ["β", "f_ox", "f_oz", "r_x", "r_y", "x_o", "y_o", "r_ol"]) :
    ((runEvents roots (cs'.map .call) s).dict a).get key = (s.dict a).get key := by
  obtain ⟨hi, _⟩ := call_run roots cs (inv_init (b := true)) (Eff.refl _ _)
  obtain ⟨h1, _, h⟩ := exec_tri (s0 := runEvents roots (cs.map .call) St.init) roots c _ hi (Eff.refl _ _) trivial
  rw [hr] at h1 h
  rcases hv : c.value roots with e' | x <;> rw [hv] at h
  · exact h.elim
  obtain ⟨_, h2⟩ := call_run roots cs' h1 (Eff.refl _ _)
  rcases (h.2 a ha).2 with hn | ⟨f, hf⟩
  · rw [(h2.unshared a hn.2).2]
  · obtain ⟨p, hp, hpa⟩ := hf.2.1
    have hlt : a < s.inner.length := by rw [← hpa]; exact h1.outer p hp
    have d1 := hf.2.2 rfl
    have d2 := h2.base rfl a f hf.1 hlt d1
    obtain ⟨a1, a2, a3, a4, a5, a6, a7, a8, _⟩ := d1
    obtain ⟨b1, b2, b3, b4, b5, b6, b7, b8, _⟩ := d2
    simp only [List.mem_cons, List.not_mem_nil, or_false] at hk
    rcases hk with rfl | rfl | rfl | rfl | rfl | rfl | rfl | rfl
    · rw [a1, b1]
    · rw [a2, b2]
    · rw [a3, b3]
    · rw [a4, b4]
    · rw [a5, b5]
    · rw [a6, b6]
    · rw [a7, b7]
    · rw [a8, b8]

/-- C56, `f_oxz`: whatever was called before and whatever is called afterwards, the dictionary of intermediate
results holds the values of the section `f_oxz` was called for. -/
theorem C56_foxz_partial (roots : Roots) (cs : List Call) {k : FKey} {f : Foxz} (hk : k.value = .ok f) {r : Answer}
    {s : St} (hr : (Call.foxz k).exec roots (runEvents roots (cs.map .call) St.init) = (.ok r, s)) (cs' : List Call) :
    r.numbers = .num f.foxz ∧ ∃ a, r.inter = some a ∧ (s.dict a).Describes f ∧
      ((runEvents roots (cs'.map .call) s).dict a).Describes f := by
  obtain ⟨hi, _⟩ := call_run roots cs (inv_init (b := true)) (Eff.refl _ _)
  have T : Tri true (runEvents roots (cs.map .call) St.init) (fun _ => True) ((Call.foxz k).exec roots) k.value
      (fun r f s => r.numbers = .num f.foxz ∧ ∃ a, r.inter = some a ∧ Shared true a f s) := by
    simp only [Call.exec]
    refine Tri.of_eq (p := k.value >>= fun f => (.ok f : Py Foxz) >>= fun f => pure f) ?_ ?_
    · cases k.value <;> rfl
    refine Tri.bind (foxzM_tri k) fun o f => ?_
    refine Tri.bind (readOuter_tri o f) fun p f => Tri.ret fun s h => ?_
    exact ⟨by simp only; rw [h.1], _, rfl, h.2⟩
  obtain ⟨h1, _, h⟩ := T _ hi (Eff.refl _ _) trivial
  rw [hr] at h1 h
  rw [hk] at h
  obtain ⟨hn, a, ha, hf⟩ := h
  obtain ⟨_, h2⟩ := call_run roots cs' h1 (Eff.refl _ _)
  obtain ⟨p, hp, hpa⟩ := hf.2.1
  have hlt : a < s.inner.length := by rw [← hpa]; exact h1.outer p hp
  exact ⟨hn, a, ha, hf.2.2 rfl, h2.base rfl a f ⟨k, hk⟩ hlt (hf.2.2 rfl)⟩

/-- C56, `s6_3_3_N_c_torsion`: at the moment the call returns, the dictionary holds the buckling stress, the
slenderness and the column stress of that call, whatever was called before. -/
theorem C56_on_return_partial (roots : Roots) (es : List Event) (he : ∀ e ∈ es, e.isFair) {m : Member} {kf fy unc : ℝ}
    {sym : Symmetry} {t : Torsional} (ht : NcTorsion roots m kf fy sym unc = .ok t) {r : Answer} {s : St}
    (hr : (Call.ncTorsion m kf fy sym unc).exec roots (runEvents roots es St.init) = (.ok r, s)) :
    r.numbers = .num t.Ncz ∧ ∃ a, r.inter = some a ∧ (s.dict a).get "f_oc" = some (.num t.foc) ∧
      (s.dict a).get "λ_c" = some (.num t.lambdaC) ∧ (s.dict a).get "f_n" = some (.num t.fn) := by
  have hi := inv_run roots es he inv_init
  have T : Tri false (runEvents roots es St.init) (fun _ => True) ((Call.ncTorsion m kf fy sym unc).exec roots)
      (NcTorsion roots m kf fy sym unc)
      (fun r t s => r.numbers = .num t.Ncz ∧ ∃ a, r.inter = some a ∧ HasTorsion t (s.dict a)) := by
    simp only [Call.exec]
    refine Tri.of_eq (p := NcTorsion roots m kf fy sym unc >>= fun t => pure t) ?_ ?_
    · cases NcTorsion roots m kf fy sym unc <;> rfl
    refine Tri.bind (NcTorsionM_tri roots m kf fy sym unc) fun r t => Tri.ret fun s h => ?_
    exact ⟨by simp only; rw [h.1], _, rfl, h.2.2⟩
  obtain ⟨_, _, h⟩ := T _ hi (Eff.refl _ _) trivial
  rw [hr, ht] at h
  exact h

/-! ### The counterexamples -/

theorem torM_again (k : FKey) (f : Foxz) (d : Dict) :
    torM ⟨k.An, k.lez, k.rx, k.ry, k.xo, k.yo, k.J, k.Iw, k.E, k.G⟩ (afterFoxz k f d) = (.ok f.foz, afterFoxz k f d) := by
  simp only [torM, cached, afterFoxz, lruGet_head]

/-- the dictionary after `f_oc_double_symmetric` -/
noncomputable def doubleDict (f : Foxz) (d : Dict) : Dict :=
  Dict.set "Symmetry" (.str "Double") (Dict.set "AS4600 Clause" (.str "AS4600 S3.4.3")
    (Dict.set "f_oz" (.num f.foz) (Dict.set "f_oxz" (.num f.foxz) d)))

/-- the dictionary after `s6_3_3_N_c_torsion` -/
noncomputable def torsionDict (foc lc fn : ℝ) (d : Dict) : Dict :=
  Dict.set "f_n" (.num fn) (Dict.set "λ_c" (.num lc) (Dict.set "f_oc" (.num foc) d))

theorem update_after (k : FKey) (f : Foxz) (d : Dict) (key : String) (v : S6.Val) :
    update 0 key v (afterFoxz k f d) = (.ok (), afterFoxz k f (Dict.set key v d)) := rfl

theorem readOuter_after (k : FKey) (f : Foxz) (d : Dict) :
    readOuter 0 (afterFoxz k f d) = (.ok (0, f.foxz), afterFoxz k f d) := rfl

theorem focDouble_of_foxz {m : Member} {f : Foxz} {sym : Symmetry} (hs : sym.symmetry = .ok .double) {s : St} {d : Dict}
    (h : foxzM (Member.keyX m) s = (.ok 0, afterFoxz (Member.keyX m) f d)) :
    focDoubleM m sym s = (.ok ⟨min f.foxz f.foz, 0⟩, afterFoxz (Member.keyX m) f (doubleDict f d)) := by
  have e := torM_again (Member.keyX m) f d
  have e' : torM (Member.keyT m) (afterFoxz (Member.keyX m) f d) = (.ok f.foz, afterFoxz (Member.keyX m) f d) := e
  simp only [focDoubleM, M.bind_eq, h, e', readOuter_after, update_after, M.lift, hs, M.pure_eq]
  rfl

theorem ncTorsion_of_foxz (roots : Roots) {m : Member} {f : Foxz} {sym : Symmetry} (hs : sym.symmetry = .ok .double)
    {s : St} {d : Dict} (h : foxzM (Member.keyX m) s = (.ok 0, afterFoxz (Member.keyX m) f d)) (kf unc : ℝ) {fy lc fn : ℝ}
    (hc : columnCurve fy (min f.foxz f.foz) = .ok (lc, fn)) :
    (Call.ncTorsion m kf fy sym unc).exec roots s =
      (.ok ⟨.num (unc * Ae m.An kf * fn), some 0⟩,
        afterFoxz (Member.keyX m) f (torsionDict (min f.foxz f.foz) lc fn (doubleDict f d))) := by
  simp only [Call.exec, NcTorsionM, focM, M.bind_eq, M.lift, hs, focDouble_of_foxz hs h, hc, update_after, M.pure_eq]
  rfl

/-- C56 fails for doubly symmetric sections.  For every member with positive properties and two different yield
stresses: the dictionary returned by the first call of `s6_3_3_N_c_torsion` holds a different slenderness `λ_c`
after the second call. -/
theorem C56_counterexample (roots : Roots) {m : Member} (hm : m.Positive) {sym : Symmetry}
    (hs : sym.symmetry = .ok .double) (kf unc : ℝ) {fy fy' : ℝ} (h : 0 < fy) (h' : 0 < fy') (hne : fy ≠ fy') :
    ∃ r s a v v', (Call.ncTorsion m kf fy sym unc).exec roots St.init = (.ok r, s) ∧ r.inter = some a ∧
      (s.dict a).get "λ_c" = some (.num v) ∧
      ((runEvents roots [.call (.ncTorsion m kf fy' sym unc)] s).dict a).get "λ_c" = some (.num v') ∧ v ≠ v' := by
  obtain ⟨f, hf, _, _, p1, _, p2, _⟩ := C52_foxz (ry := m.ry) (xo := m.xo) (yo := m.yo) hm.An hm.lex hm.lez hm.rx hm.J
    hm.Iw hm.E hm.G
  have hk : (Member.keyX m).value = .ok f := hf
  have hfoc : 0 < min f.foxz f.foz := lt_min p1 (p1.trans_le p2)
  have c1 := columnCurve_ok h hfoc
  have c2 := columnCurve_ok h' hfoc
  have e1 := ncTorsion_of_foxz roots hs (foxzM_first hk) kf unc c1
  refine ⟨_, _, 0, √(fy / min f.foxz f.foz), √(fy' / min f.foxz f.foz), e1, rfl, ?_, ?_, ?_⟩
  · show Dict.get "λ_c" (torsionDict _ _ _ _) = _
    simp [torsionDict, Dict.get_set]
  · have e2 := ncTorsion_of_foxz roots hs (foxzM_again (Member.keyX m) f
      (torsionDict (min f.foxz f.foz) (√(fy / min f.foxz f.foz))
        (if fy / min f.foxz f.foz ≤ 9 / 4 then fy * (658 / 1000 : ℝ) ^ (fy / min f.foxz f.foz)
          else 877 / 1000 * min f.foxz f.foz) (doubleDict f (foxzDict f)))) kf unc c2
    simp only [runEvents, Event.step, e2]
    show Dict.get "λ_c" (torsionDict _ _ _ _) = _
    simp [torsionDict, Dict.get_set]
  · intro hc
    rw [Real.sqrt_inj (by positivity) (by positivity), div_left_inj' hfoc.ne'] at hc
    exact hne hc

/-- C56 fails for `f_oxz` too: its dictionary of intermediate results has no slenderness entry when it is the
first call, but has one, that of an unrelated capacity calculation, after `s6_3_3_N_c_torsion`. -/
theorem C56_stale_counterexample (roots : Roots) {m : Member} (hm : m.Positive) {sym : Symmetry}
    (hs : sym.symmetry = .ok .double) (kf unc : ℝ) {fy : ℝ} (h : 0 < fy) :
    (∃ r s a, (Call.foxz (Member.keyX m)).exec roots St.init = (.ok r, s) ∧ r.inter = some a ∧
      (s.dict a).get "λ_c" = none) ∧
    ∃ r s a v, (Call.foxz (Member.keyX m)).exec roots
        (runEvents roots [.call (.ncTorsion m kf fy sym unc)] St.init) = (.ok r, s) ∧ r.inter = some a ∧
      (s.dict a).get "λ_c" = some (.num v) := by
  obtain ⟨f, hf, _, _, p1, _, p2, _⟩ := C52_foxz (ry := m.ry) (xo := m.xo) (yo := m.yo) hm.An hm.lex hm.lez hm.rx hm.J
    hm.Iw hm.E hm.G
  have hk : (Member.keyX m).value = .ok f := hf
  have hfoc : 0 < min f.foxz f.foz := lt_min p1 (p1.trans_le p2)
  have c1 := columnCurve_ok h hfoc
  constructor
  · refine ⟨⟨.num f.foxz, some 0⟩, afterFoxz (Member.keyX m) f (foxzDict f), 0, ?_, rfl, ?_⟩
    · simp only [Call.exec, M.bind_eq, foxzM_first hk, readOuter_after, M.pure_eq]
    · show Dict.get "λ_c" (foxzDict f) = _
      simp [foxzDict, Dict.get]
  · have e1 := ncTorsion_of_foxz roots hs (foxzM_first hk) kf unc c1
    have e2 : ∀ d, (Call.foxz (Member.keyX m)).exec roots (afterFoxz (Member.keyX m) f d) =
        (.ok ⟨.num f.foxz, some 0⟩, afterFoxz (Member.keyX m) f d) := by
      intro d
      simp only [Call.exec, M.bind_eq, foxzM_again, readOuter_after, M.pure_eq]
    simp only [runEvents, Event.step, e1]
    refine ⟨_, _, 0, √(fy / min f.foxz f.foz), e2 _, rfl, ?_⟩
    · show Dict.get "λ_c" (torsionDict _ _ _ _) = _
      simp [torsionDict, Dict.get_set]

/-- a doubly symmetric section, as the code classifies it -/
example : (⟨some [.str "x", .str "y"]⟩ : Symmetry).symmetry = .ok .double := by decide

/-- a member that meets the hypotheses of the counterexamples -/
example (roots : Roots) : ∃ r s a v v',
    (Call.ncTorsion ⟨1, 2, 2, 2, 1, 1, 0, 0, 1, 1, 1, 1⟩ 1 1 ⟨some [.str "x", .str "y"]⟩ 1).exec roots St.init =
      (.ok r, s) ∧ r.inter = some a ∧ (s.dict a).get "λ_c" = some (.num v) ∧
    ((runEvents roots [.call (.ncTorsion ⟨1, 2, 2, 2, 1, 1, 0, 0, 1, 1, 1, 1⟩ 1 2 ⟨some [.str "x", .str "y"]⟩ 1)] s).dict
      a).get "λ_c" = some (.num v') ∧ v ≠ v' :=
  C56_counterexample roots (by constructor <;> norm_num) (by decide) 1 1 one_pos two_pos (by norm_num)

/-- a point symmetric section returns an unshared dictionary, so `C56_unshared_partial` is about results that
exist -/
example (roots : Roots) : ∃ r s a, (Call.focPoint ⟨1, 2, 2, 2, 1, 1, 0, 0, 1, 1, 1, 1⟩).exec roots St.init = (.ok r, s) ∧
    r.inter = some a ∧ (Call.focPoint ⟨1, 2, 2, 2, 1, 1, 0, 0, 1, 1, 1, 1⟩).unshared := by
  obtain ⟨_, _, h⟩ := exec_tri (b := false) (s0 := St.init) roots (.focPoint ⟨1, 2, 2, 2, 1, 1, 0, 0, 1, 1, 1, 1⟩) _
    inv_init (Eff.refl _ _) trivial
  have hv : (Call.focPoint ⟨1, 2, 2, 2, 1, 1, 0, 0, 1, 1, 1, 1⟩).value roots = .ok (.num (1 * 1 / (1 * roSq 1 1 0 0) *
      (1 + piD * piD * 1 * 1 / (1 * 1 * (2 * 2))))) := by
    simp only [Call.value, focPoint]
    rw [fEulerTorsion_ok one_pos two_pos one_pos one_pos one_pos]
    rfl
  rw [hv] at h
  rcases hx : (Call.focPoint ⟨1, 2, 2, 2, 1, 1, 0, 0, 1, 1, 1, 1⟩).exec roots St.init with ⟨r, s⟩
  rw [hx] at h
  cases r with
  | error e => exact h.elim
  | ok r =>
    simp only [Call.exec, focPointM, M.bind_eq] at hx
    rcases hy : torM (Member.keyT ⟨1, 2, 2, 2, 1, 1, 0, 0, 1, 1, 1, 1⟩) St.init with ⟨_ | x, s'⟩
    · rw [hy] at hx; cases hx
    · rw [hy] at hx
      simp only [allocInner, M.pure_eq, Prod.mk.injEq, Except.ok_inj'] at hx
      exact ⟨r, s, _, rfl, by rw [← hx.1], trivial⟩

end BeamDesign
