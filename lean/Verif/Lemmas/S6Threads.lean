import Verif.Lemmas.S6Cache
import Verif.Spec.S6Threads

/-!
# Reasoning about threads
-/

set_option linter.unusedSimpArgs false

namespace BeamDesign.S6

variable {α β γ δ : Type}

/-! ## Running alone -/

theorem M.ext_bind (x : M α) (f : α → M β) (s : St) :
    (x >>= f) s = match x s with
      | (.ok a, s') => f a s'
      | (.error e, s') => (.error e, s') := rfl

theorem M.assoc (x : M α) (f : α → M β) (g : β → M γ) : (x >>= f) >>= g = x >>= fun a => f a >>= g := by
  funext s
  simp only [M.ext_bind]
  rcases x s with ⟨_ | a, s'⟩ <;> rfl

theorem alone_bind (p : Proc α) (f : α → Proc β) : (p >>= f).alone = p.alone >>= fun a => (f a).alone := by
  show (p.andThen f).alone = _
  induction p with
  | done r => cases r <;> rfl
  | more act next ih =>
    funext s
    show ((next s).andThen f).alone (act s) = _
    rw [ih]
    rfl

theorem alone_lift (x : Py α) : (Proc.lift x).alone = M.lift x := rfl

theorem alone_step (x : M α) : (Proc.step x).alone = x := rfl

theorem alone_pure (a : α) : (pure a : Proc α).alone = pure a := rfl

theorem alone_more (act : St → St) (next : St → Proc α) (s : St) :
    (Proc.more act next).alone s = (next s).alone (act s) := rfl

theorem alone_attempt (p : Proc α) (s : St) : p.attempt.alone s = (.ok (p.alone s).1, (p.alone s).2) := by
  induction p generalizing s with
  | done r => rfl
  | more act next ih => exact ih s (act s)

theorem alone_cached {κ : Type} {get : St → List (κ × β)} {put : List (κ × β) → St → St} {k : κ} {body : Proc β}
    (h : ∀ s, get (body.alone s).2 = get s) :
    (cachedP get put k body).alone = cached get put k body.alone := by
  funext s
  unfold cachedP cached
  rw [alone_more]
  cases hl : lruGet k (get s) with
  | some vc => rfl
  | none =>
    simp only [alone_bind, alone_step, M.ext_bind]
    have h' := h s
    rcases hb : body.alone s with ⟨r, s'⟩
    rw [hb] at h'
    cases r with
    | error e => rfl
    | ok v =>
      simp only [store]
      simp only at h'
      rw [h', hl]
      rfl

theorem rol_alone (k : RKey) : (rolP k).alone = rolM k := alone_cached fun _ => rfl

theorem torBody_alone (k : TKey) : (torBodyP k).alone = (do
    let ro ← rolM ⟨k.rx, k.ry, k.xo, k.yo⟩
    let a ← M.lift (rdiv (k.G * k.J) (k.A * ro * ro))
    let b ← M.lift (rdiv (piD * piD * k.E * k.Iw) (k.G * k.J * (k.lez * k.lez)))
    return a * (1 + b) : M ℝ) := by
  simp only [torBodyP, alone_bind, rol_alone, alone_lift, alone_pure]

/-- `r_ol` changes its own cache only -/
theorem rolM_other (k : RKey) (s : St) : (rolM k s).2.cTor = s.cTor ∧ (rolM k s).2.cFoxz = s.cFoxz := by
  unfold rolM cached
  cases lruGet k s.cRol with
  | some vc => exact ⟨rfl, rfl⟩
  | none =>
    simp only [M.lift]
    cases rsqrt (k.rx * k.rx + k.ry * k.ry + k.xo * k.xo + k.yo * k.yo) <;> exact ⟨rfl, rfl⟩

theorem bind_keeps {ι : Type} {get : St → ι} {x : M α} {f : α → M β} (hx : ∀ s, get (x s).2 = get s)
    (hf : ∀ a s, get (f a s).2 = get s) (s : St) : get ((x >>= f) s).2 = get s := by
  rw [M.ext_bind]
  have h := hx s
  rcases hxs : x s with ⟨r, s'⟩
  rw [hxs] at h
  cases r with
  | error e => exact h
  | ok a => exact (hf a s').trans h

theorem lift_keeps {ι : Type} {get : St → ι} (x : Py α) (s : St) : get (M.lift x s).2 = get s := rfl

theorem tor_alone (k : TKey) : (torP k).alone = torM k := by
  unfold torP torM
  rw [alone_cached, torBody_alone]
  intro s
  rw [torBody_alone]
  exact bind_keeps (fun s => (rolM_other _ s).1) (fun ro => bind_keeps (lift_keeps _) fun a =>
    bind_keeps (lift_keeps _) fun b s => rfl) s

theorem torM_other (k : TKey) (s : St) : (torM k s).2.cFoxz = s.cFoxz := by
  unfold torM cached
  cases lruGet k s.cTor with
  | some vc => rfl
  | none =>
    simp only
    have h := bind_keeps (get := St.cFoxz) (x := rolM ⟨k.rx, k.ry, k.xo, k.yo⟩) (f := fun ro => (do
      let a ← M.lift (rdiv (k.G * k.J) (k.A * ro * ro))
      let b ← M.lift (rdiv (piD * piD * k.E * k.Iw) (k.G * k.J * (k.lez * k.lez)))
      return a * (1 + b) : M ℝ)) (fun s => (rolM_other _ s).2) (fun ro => bind_keeps (lift_keeps _) fun a =>
        bind_keeps (lift_keeps _) fun b s => rfl) s
    rcases hx : ((rolM ⟨k.rx, k.ry, k.xo, k.yo⟩ >>= fun ro => (do
      let a ← M.lift (rdiv (k.G * k.J) (k.A * ro * ro))
      let b ← M.lift (rdiv (piD * piD * k.E * k.Iw) (k.G * k.J * (k.lez * k.lez)))
      return a * (1 + b) : M ℝ)) s) with ⟨r, s'⟩
    rw [hx] at h
    cases r <;> exact h

theorem foxzBody_alone (k : FKey) : (foxzBodyP k).alone = foxzBody k := by
  simp only [foxzBodyP, foxzBody, alone_bind, rol_alone, tor_alone, alone_lift, alone_step]

theorem foxz_alone (k : FKey) : (foxzP k).alone = foxzM k := by
  have hdef : foxzM k = cached St.cFoxz (fun c s => { s with cFoxz := c }) k (foxzBody k) := rfl
  rw [hdef, foxzP, alone_cached, foxzBody_alone]
  intro s
  rw [foxzBody_alone]
  exact bind_keeps (fun s => (rolM_other _ s).2) (fun ro => bind_keeps (lift_keeps _) fun q =>
    bind_keeps (lift_keeps _) fun fox => bind_keeps (torM_other _) fun foz => bind_keeps (lift_keeps _) fun h =>
    bind_keeps (lift_keeps _) fun r => bind_keeps (fun s => rfl) fun a s => rfl) s

theorem focDouble_alone (m : Member) (sym : Symmetry) : (focDoubleP m sym).alone = focDoubleM m sym := by
  simp only [focDoubleP, focDoubleM, alone_bind, foxz_alone, tor_alone, alone_lift, alone_step, alone_pure]

theorem singleTail_alone (k : FKey) (axis : String) (sym : Symmetry) :
    (singleTailP k axis sym).alone = singleTail k axis sym := by
  simp only [singleTailP, singleTail, alone_bind, foxz_alone, alone_lift, alone_step, alone_pure]

theorem focSingle_alone (m : Member) (sym : Symmetry) : (focSingleP m sym).alone = focSingleM m sym := by
  simp only [focSingleP, alone_bind, alone_lift]
  unfold focSingleM
  congr 1
  funext n
  split
  · rfl
  · split
    · exact singleTail_alone _ _ _
    · exact singleTail_alone _ _ _

theorem focPoint_alone (m : Member) : (focPointP m).alone = focPointM m := by
  simp only [focPointP, focPointM, alone_bind, tor_alone, alone_step, alone_pure]

theorem focUnsym_alone (roots : Roots) (m : Member) : (focUnsymP roots m).alone = focUnsymM roots m := by
  simp only [focUnsymP, focUnsymM, alone_bind, rol_alone, tor_alone, alone_lift, alone_step, alone_pure]
  rfl

theorem foc_alone (roots : Roots) (m : Member) (sym : Symmetry) : (focP roots m sym).alone = focM roots m sym := by
  unfold focP focM
  rw [alone_bind, alone_lift]
  congr 1
  funext k
  cases k with
  | double => exact focDouble_alone m sym
  | single => exact focSingle_alone m sym
  | point => exact focPoint_alone m
  | none => exact focUnsym_alone roots m

theorem ncTorsion_alone (roots : Roots) (m : Member) (kf fy : ℝ) (sym : Symmetry) (unc : ℝ) :
    (NcTorsionP roots m kf fy sym unc).alone = NcTorsionM roots m kf fy sym unc := by
  simp only [NcTorsionP, NcTorsionM, alone_bind, foc_alone, alone_lift, alone_step, alone_pure, M.assoc]

theorem nc_alone (roots : Roots) (a : NcArgs) : (NcP roots a).alone = NcM roots a := by
  unfold NcP NcM
  simp only
  split
  · simp only [alone_bind, alone_lift]
    congr 1
    funext bx
    congr 1
    funext bY
    split
    · simp only [alone_bind, ncTorsion_alone, alone_step, alone_pure]
    · rfl
  · rfl

theorem proc_alone (roots : Roots) (c : Call) : (c.proc roots).alone = c.exec roots := by
  cases c <;> simp only [Call.proc, Call.exec, alone_bind, alone_step, alone_pure, rol_alone, tor_alone, foxz_alone,
    focDouble_alone, focSingle_alone, focPoint_alone, focUnsym_alone, ncTorsion_alone, nc_alone]

/-! ## What stays true while other threads run -/

/-- dictionaries are never removed, and the ones `f_oxz` returned keep their number -/
structure Ext (s s' : St) : Prop where
  inner : s.inner.length ≤ s'.inner.length
  outer : s.outer <+: s'.outer

theorem Ext.refl (s : St) : Ext s s := ⟨le_rfl, List.prefix_rfl⟩

theorem Ext.trans {s s' s'' : St} (h : Ext s s') (h' : Ext s' s'') : Ext s s'' :=
  ⟨h.inner.trans h'.inner, h.outer.trans h'.outer⟩

theorem Ext.get {s s' : St} (h : Ext s s') {o : ℕ} {p : ℕ × ℝ} (hp : s.outer[o]? = some p) : s'.outer[o]? = some p := by
  obtain ⟨t, ht⟩ := h.outer
  rw [← ht, List.getElem?_append_left (List.getElem?_eq_some_iff.1 hp).1]
  exact hp

/-- However the steps of `p` are mixed with what others do, the caches stay correct, and at the end and ever
after `Q` holds. -/
def Safe (Q : Py α → St → Prop) : Proc α → St → Prop
  | .done r, s => ∀ s', Ext s s' → Q r s'
  | .more act next, s => ∀ s', Ext s s' → Inv false s' →
      Inv false (act s') ∧ Ext s' (act s') ∧ Safe Q (next s') (act s')

theorem Safe.later {Q : Py α → St → Prop} {p : Proc α} {s s' : St} (h : Safe Q p s) (he : Ext s s') : Safe Q p s' := by
  cases p with
  | done r => exact fun t ht => h t (he.trans ht)
  | more act next => exact fun t ht => h t (he.trans ht)

theorem Safe.attempt {Q : Py α → St → Prop} {p : Proc α} {s : St} (h : Safe Q p s) :
    Safe (fun r s => ∃ r', r = .ok r' ∧ Q r' s) p.attempt s := by
  induction p generalizing s with
  | done r => exact fun t ht => ⟨r, rfl, h t ht⟩
  | more act next ih =>
    intro t ht hi
    obtain ⟨h1, h2, h3⟩ := h t ht hi
    exact ⟨h1, h2, ih t h3⟩

theorem Safe.bind {Q : Py α → St → Prop} {Q' : Py β → St → Prop} {p : Proc α} {f : α → Proc β} {s : St}
    (hp : Safe Q p s) (he : ∀ e s', Ext s s' → Q (.error e) s' → Q' (.error e) s')
    (hf : ∀ a s', Ext s s' → (∀ t, Ext s' t → Q (.ok a) t) → Safe Q' (f a) s') : Safe Q' (p >>= f) s := by
  show Safe Q' (p.andThen f) s
  induction p generalizing s with
  | done r =>
    cases r with
    | error e => exact fun t ht => he e t ht (hp t ht)
    | ok a => exact hf a s (Ext.refl s) hp
  | more act next ih =>
    intro t ht hi
    obtain ⟨h1, h2, h3⟩ := hp t ht hi
    exact ⟨h1, h2, ih t h3 (fun e s' hs => he e s' (ht.trans (h2.trans hs)))
      fun a s' hs => hf a s' (ht.trans (h2.trans hs))⟩

/-- the outcome is the one of `v`, related by `R` -/
def Rel (R : α → β → St → Prop) (p : Proc α) (v : Py β) (s : St) : Prop :=
  Safe (fun r t => Agree (fun a c => R a c t) r v) p s

theorem Rel.later {R : α → β → St → Prop} {p : Proc α} {v : Py β} {s s' : St} (h : Rel R p v s) (he : Ext s s') :
    Rel R p v s' := Safe.later h he

theorem Rel.bind {R : α → β → St → Prop} {R' : γ → δ → St → Prop} {p : Proc α} {v : Py β} {f : α → Proc γ}
    {g : β → Py δ} {s : St} (hp : Rel R p v s)
    (hf : ∀ a c s', Ext s s' → (∀ t, Ext s' t → R a c t) → Rel R' (f a) (g c) s') : Rel R' (p >>= f) (v >>= g) s := by
  refine Safe.bind hp ?_ ?_
  · intro e s' _ h
    cases v with
    | error e' => exact h
    | ok c => exact h.elim
  · intro a s' hs h
    cases v with
    | error e' => exact (h s' (Ext.refl s')).elim
    | ok c => exact hf a c s' hs h

theorem Rel.ret {R : α → β → St → Prop} {a : α} {c : β} {s : St} (h : ∀ t, Ext s t → R a c t) :
    Rel R (pure a) (pure c) s := h

theorem Rel.lift {R : α → α → St → Prop} (v : Py α) {s : St} (h : ∀ a t, Ext s t → R a a t) : Rel R (Proc.lift v) v s := by
  cases v with
  | error e => exact fun t _ => rfl
  | ok a => exact fun t ht => h a t ht

theorem Rel.bindLift {R : γ → δ → St → Prop} (v : Py α) {f : α → Proc γ} {g : α → Py δ} {s : St}
    (h : ∀ a, Rel R (f a) (g a) s) : Rel R (Proc.lift v >>= f) (v >>= g) s := by
  cases v with
  | error e => exact fun t _ => rfl
  | ok a => exact h a

/-- two numbers are the same -/
def Same (a c : ℝ) (_ : St) : Prop := a = c

theorem Rel.bindSame {R : γ → δ → St → Prop} {p : Proc ℝ} {v : Py ℝ} {f : ℝ → Proc γ} {g : ℝ → Py δ} {s : St}
    (hp : Rel Same p v s) (h : ∀ a s', Ext s s' → Rel R (f a) (g a) s') : Rel R (p >>= f) (v >>= g) s :=
  Rel.bind hp fun a c s' hs hr => by
    obtain rfl : a = c := hr s' (Ext.refl s')
    exact h a s' hs

theorem Rel.step {R : α → β → St → Prop} {x : M α} {v : Py β} {s : St}
    (h : ∀ s', Ext s s' → Inv false s' → Inv false (x s').2 ∧ Ext s' (x s').2 ∧
      ∀ t, Ext (x s').2 t → Agree (fun a c => R a c t) (x s').1 v) : Rel R (Proc.step x) v s :=
  fun s' hs hi => h s' hs hi

/-- a step that only changes entries of a dictionary -/
theorem Rel.bindUpdate {R : γ → δ → St → Prop} (x : M Unit) (hx : ∀ s, ∃ a g, x s = (.ok (), { s with inner := s.inner.modify a g }))
    {f : Unit → Proc γ} {v : Py δ} {s : St} (h : ∀ s', Ext s s' → Rel R (f ()) v s') :
    Rel R (Proc.step x >>= f) v s := by
  intro s' hs hi
  obtain ⟨a, g, e⟩ := hx s'
  have he : Ext s' { s' with inner := s'.inner.modify a g } := ⟨by simp, List.prefix_rfl⟩
  refine ⟨?_, ?_, ?_⟩
  · simp only [e]; exact hi.modify'
  · simp only [e]; exact he
  · simp only [e]; exact h _ (hs.trans he)

theorem Rel.update {R : γ → δ → St → Prop} (a : ℕ) (k : String) (x : Val)
    {f : Unit → Proc γ} {v : Py δ} {s : St} (h : ∀ s', Ext s s' → Rel R (f ()) v s') :
    Rel R (Proc.step (update a k x) >>= f) v s :=
  Rel.bindUpdate _ (fun _ => ⟨a, _, rfl⟩) h

theorem modify_modify {ι : Type} (l : List ι) (a : ℕ) (f g : ι → ι) :
    (l.modify a f).modify a g = l.modify a (g ∘ f) := by
  apply List.ext_getElem?
  intro i
  simp only [List.getElem?_modify]
  by_cases h : a = i <;> simp [h, Option.map_map, Function.comp_def]

theorem cached_rel {κ : Type} {get : St → List (κ × α)} {put : List (κ × α) → St → St} {k : κ} {body : Proc α}
    {v : Py β} {R : α → β → St → Prop} {s : St}
    (hit : ∀ s' x c, Ext s s' → Inv false s' → lruGet k (get s') = some (x, c) →
      Inv false (put c s') ∧ Ext s' (put c s') ∧ ∀ t, Ext (put c s') t → Agree (fun a c => R a c t) (.ok x) v)
    (hbody : ∀ s', Ext s s' → Rel R body v s')
    (hstore : ∀ s' x y, Inv false s' → v = .ok y → R x y s' →
      Inv false (put (lruPut k x (get s')) s') ∧ Ext s' (put (lruPut k x (get s')) s')) :
    Rel R (cachedP get put k body) v s := by
  intro s' hs hi
  simp only
  cases hl : lruGet k (get s') with
  | some xc =>
    obtain ⟨x, c⟩ := xc
    obtain ⟨h1, h2, h3⟩ := hit s' x c hs hi hl
    exact ⟨h1, h2, fun t ht => h3 t ht⟩
  | none =>
    refine ⟨hi, Ext.refl _, ?_⟩
    refine Safe.bind (hbody s' hs) (fun _ _ _ h => h) fun x s'' hs'' hx => ?_
    intro t ht hti
    cases v with
    | error e => exact (hx t ht).elim
    | ok y =>
      have hR := hx t ht
      obtain ⟨h1, h2⟩ := hstore t x y hti rfl hR
      simp only [store]
      cases lruGet k (get t) with
      | some xc =>
        exact ⟨hti, Ext.refl _, fun u hu => hx u (ht.trans hu)⟩
      | none => exact ⟨h1, h2, fun u hu => hx u (ht.trans (h2.trans hu))⟩

theorem rol_rel (k : RKey) (s : St) : Rel Same (rolP k) k.value s := by
  apply cached_rel
  · intro s' x c hs hi hl
    obtain ⟨h1, h2⟩ := lruGet_some hl
    refine ⟨hi.setRol fun e he => hi.rol e (h2 e he), ⟨le_rfl, List.prefix_rfl⟩, fun t _ => ?_⟩
    have := hi.rol _ h1
    simp only at this
    rw [this]
    exact rfl
  · intro s' _
    have hv : k.value = rsqrt (k.rx * k.rx + k.ry * k.ry + k.xo * k.xo + k.yo * k.yo) := rfl
    rw [hv]
    exact Rel.lift _ fun a t _ => rfl
  · intro s' x y hi hv hxy
    obtain rfl : x = y := hxy
    refine ⟨hi.setRol fun e he => ?_, ⟨le_rfl, List.prefix_rfl⟩⟩
    rcases mem_lruPut he with rfl | he
    · exact hv
    · exact hi.rol e he

theorem tor_rel (k : TKey) (s : St) : Rel Same (torP k) k.value s := by
  apply cached_rel
  · intro s' x c hs hi hl
    obtain ⟨h1, h2⟩ := lruGet_some hl
    refine ⟨hi.setTor fun e he => hi.tor e (h2 e he), ⟨le_rfl, List.prefix_rfl⟩, fun t _ => ?_⟩
    have := hi.tor _ h1
    simp only at this
    rw [this]
    exact rfl
  · intro s' _
    unfold torBodyP
    show Rel Same _ ((RKey.value ⟨k.rx, k.ry, k.xo, k.yo⟩) >>= _) s'
    refine Rel.bindSame (rol_rel _ _) fun ro s'' _ => ?_
    refine Rel.bindLift _ fun a => ?_
    exact Rel.bindLift _ fun b => Rel.ret fun t _ => rfl
  · intro s' x y hi hv hxy
    obtain rfl : x = y := hxy
    refine ⟨hi.setTor fun e he => ?_, ⟨le_rfl, List.prefix_rfl⟩⟩
    rcases mem_lruPut he with rfl | he
    · exact hv
    · exact hi.tor e he

/-- `o` is the address of a dictionary that holds the number of `f` -/
def At (o : ℕ) (f : Foxz) (s : St) : Prop := ∃ a, s.outer[o]? = some (a, f.foxz)

theorem At.later {o : ℕ} {f : Foxz} {s s' : St} (h : At o f s) (he : Ext s s') : At o f s' := by
  obtain ⟨a, ha⟩ := h
  exact ⟨a, he.get ha⟩

theorem foxz_rel (k : FKey) (s : St) : Rel At (foxzP k) k.value s := by
  apply cached_rel
  · intro s' x c hs hi hl
    obtain ⟨h1, h2⟩ := lruGet_some hl
    refine ⟨⟨hi.rol, hi.tor, fun e he => hi.foxz e (h2 e he), hi.outer⟩, ⟨le_rfl, List.prefix_rfl⟩, fun t ht => ?_⟩
    obtain ⟨a, f, g1, g2, _⟩ := hi.foxz _ h1
    simp only at g1 g2
    rw [g1]
    exact ⟨a, ht.get g2⟩
  · intro s' _
    unfold foxzBodyP FKey.value foxz
    refine Rel.bindSame (rol_rel ⟨k.rx, k.ry, k.xo, k.yo⟩ _) fun ro s1 _ => ?_
    refine Rel.bindLift _ fun q => ?_
    refine Rel.bindLift _ fun fox => ?_
    refine Rel.bindSame (tor_rel ⟨k.An, k.lez, k.rx, k.ry, k.xo, k.yo, k.J, k.Iw, k.E, k.G⟩ _) fun foz s2 _ => ?_
    refine Rel.bindLift _ fun h => ?_
    refine Rel.bindLift _ fun r => ?_
    refine Rel.bind (v := (.ok () : Py Unit))
      (g := fun _ => .ok (⟨1 - q ^ 2, fox, foz, k.rx, k.ry, k.xo, k.yo, ro, h * (fox + foz - r)⟩ : Foxz))
      (R := fun a _ s => a < s.inner.length) ?_ ?_
    · apply Rel.step
      intro s3 _ hi
      refine ⟨hi.allocInner _, ⟨by simp [S6.allocInner], List.prefix_rfl⟩, fun t ht => ?_⟩
      show s3.inner.length < t.inner.length
      have := ht.inner
      simp [S6.allocInner] at this
      omega
    · intro a _ s3 _ ha
      apply Rel.step
      intro s4 h4 hi
      refine ⟨⟨hi.rol, hi.tor, ?_, ?_⟩, ⟨le_rfl, List.prefix_append _ _⟩, fun t ht => ?_⟩
      · intro e hc
        obtain ⟨c, f, g1, g2, g3⟩ := hi.foxz e hc
        refine ⟨c, f, g1, ?_, g3⟩
        show (s4.outer ++ [_])[e.2]? = _
        rw [List.getElem?_append_left (List.getElem?_eq_some_iff.1 g2).1]
        exact g2
      · intro p hp
        rcases List.mem_append.1 hp with hp | hp
        · exact hi.outer p hp
        · rw [List.mem_singleton.1 hp]; exact ha s4 h4
      · refine ⟨a, ht.get ?_⟩
        simp [S6.allocOuter]
  · intro s' x y hi hv hxy
    refine ⟨⟨hi.rol, hi.tor, fun e he => ?_, hi.outer⟩, ⟨le_rfl, List.prefix_rfl⟩⟩
    rcases mem_lruPut he with rfl | he
    · obtain ⟨a, ha⟩ := hxy
      exact ⟨a, y, hv, ha, fun hb => by cases hb⟩
    · exact hi.foxz e he

/-- reading the dictionary `f_oxz` returned -/
theorem Rel.bindRead {R : γ → δ → St → Prop} {o : ℕ} {f : Foxz} {s : St} (ho : At o f s) {g : ℕ × ℝ → Proc γ} {v : Py δ}
    (h : ∀ a s', Ext s s' → Rel R (g (a, f.foxz)) v s') : Rel R (Proc.step (readOuter o) >>= g) v s := by
  intro s' hs hi
  obtain ⟨a, ha⟩ := ho.later hs
  have e : readOuter o s' = (.ok (a, f.foxz), s') := by unfold readOuter; rw [ha]
  simp only [e]
  exact ⟨hi, Ext.refl _, h a s' hs⟩

/-- the stress is right -/
def FocIs (r : StressResult) (x : ℝ) (_ : St) : Prop := r.foc = x

theorem focDouble_rel (m : Member) (sym : Symmetry) (s : St) :
    Rel FocIs (focDoubleP m sym) (do let f ← focDouble m; let _ ← sym.symmetry; return f) s := by
  have e : (do let f ← focDouble m; let _ ← sym.symmetry; return f : Py ℝ) = (do
      let f ← (Member.keyX m).value
      let z ← (Member.keyT m).value
      let _ ← sym.symmetry
      return min f.foxz z) := by
    show ((Member.keyX m).value >>= fun f => (Member.keyT m).value >>= fun z => _) >>= _ = _
    cases (Member.keyX m).value <;> cases (Member.keyT m).value <;> cases sym.symmetry <;> rfl
  rw [e]
  unfold focDoubleP
  refine Rel.bind (foxz_rel _ _) fun o f s1 _ ho => ?_
  refine Rel.bindSame (tor_rel _ _) fun foz s2 h2 => ?_
  refine Rel.bindRead (ho s2 h2) fun a s3 _ => ?_
  refine Rel.update _ _ _ fun s4 _ => ?_
  refine Rel.update _ _ _ fun s5 _ => ?_
  refine Rel.update _ _ _ fun s6 _ => ?_
  refine Rel.bindLift _ fun k => ?_
  refine Rel.update _ _ _ fun s7 _ => ?_
  exact Rel.ret fun t _ => rfl

theorem singleTail_rel (k : FKey) (axis : String) (sym : Symmetry) (s : St) :
    Rel FocIs (singleTailP k axis sym) (do let f ← k.value; let _ ← sym.symmetry; return f.foxz) s := by
  unfold singleTailP
  refine Rel.bind (foxz_rel _ _) fun o f s1 _ ho => ?_
  refine Rel.bindRead (ho s1 (Ext.refl _)) fun a s3 _ => ?_
  refine Rel.update _ _ _ fun s4 _ => ?_
  refine Rel.update _ _ _ fun s5 _ => ?_
  refine Rel.bindLift _ fun k => ?_
  refine Rel.update _ _ _ fun s6 _ => ?_
  refine Rel.update _ _ _ fun s7 _ => ?_
  exact Rel.ret fun t _ => rfl

theorem focSingle_rel (m : Member) (sym : Symmetry) (s : St) : Rel FocIs (focSingleP m sym) (focSingle m sym) s := by
  unfold focSingleP focSingle
  cases hn : sym.symcount with
  | error e => exact fun t _ => rfl
  | ok n =>
    obtain ⟨k, hk⟩ := symmetry_of_symcount hn
    refine Rel.bindLift _ fun n => ?_
    split
    · exact fun t _ => rfl
    · split
      · have h := singleTail_rel (Member.keyX m) "x" sym s
        simp only [hk, Except.bind_ok'] at h
        exact h
      · have h := singleTail_rel (Member.keyY m) "y" sym s
        simp only [hk, Except.bind_ok'] at h
        exact h

/-- a new dictionary -/
theorem Rel.bindAlloc {R : γ → δ → St → Prop} (d : Dict) {f : ℕ → Proc γ} {v : Py δ} {s : St}
    (h : ∀ a s', Ext s s' → Rel R (f a) v s') : Rel R (Proc.step (allocInner d) >>= f) v s := by
  intro s' hs hi
  have he : Ext s' { s' with inner := s'.inner ++ [d] } := ⟨by simp, List.prefix_rfl⟩
  exact ⟨hi.allocInner d, he, h _ _ (hs.trans he)⟩

theorem focPoint_rel (m : Member) (s : St) : Rel FocIs (focPointP m) (focPoint m) s := by
  have e : focPoint m = (Member.keyT m).value >>= fun x => pure x := by
    show fEulerTorsion _ _ _ _ _ _ _ _ _ _ = _
    simp only [TKey.value, Member.keyT]
    cases fEulerTorsion m.An m.lez m.rx m.ry m.xo m.yo m.J m.Iw m.E m.G <;> rfl
  rw [e]
  unfold focPointP
  refine Rel.bindSame (tor_rel _ _) fun f s1 _ => ?_
  exact Rel.bindAlloc _ fun a s2 _ => Rel.ret fun t _ => rfl

theorem focUnsym_rel (roots : Roots) (m : Member) (s : St) : Rel FocIs (focUnsymP roots m) (focUnsym roots m) s := by
  unfold focUnsymP focUnsym cubic
  have assoc : ∀ {α β γ : Type} (x : Py α) (f : α → Py β) (g : β → Py γ), (x >>= f) >>= g = x >>= fun a => f a >>= g := by
    intro α β γ x f g; cases x <;> rfl
  simp only [assoc]
  refine Rel.bindLift _ fun fox => ?_
  refine Rel.bindLift _ fun foy => ?_
  refine Rel.bindSame (rol_rel ⟨m.rx, m.ry, m.xo, m.yo⟩ _) fun ro s1 _ => ?_
  refine Rel.bindSame (tor_rel (Member.keyT m) _) fun foz s2 _ => ?_
  simp only [pure, Except.pure, Except.bind_ok']
  have tail : ∀ (v : Py ℝ) (d : Dict), Rel FocIs (do
      let f ← Proc.lift v
      let i ← Proc.step (allocInner d)
      return (⟨f, i⟩ : StressResult)) v s2 := by
    intro v d
    have e : v = v >>= fun x => pure x := by cases v <;> rfl
    have h : Rel FocIs (do
      let f ← Proc.lift v
      let i ← Proc.step (allocInner d)
      return (⟨f, i⟩ : StressResult)) (v >>= fun x => pure x) s2 :=
      Rel.bindLift _ fun f => Rel.bindAlloc _ fun a s3 _ => Rel.ret fun t _ => rfl
    rw [← e] at h
    exact h
  exact tail _ _

theorem foc_rel (roots : Roots) (m : Member) (sym : Symmetry) (s : St) :
    Rel FocIs (focP roots m sym) (foc roots m sym) s := by
  unfold focP foc
  cases hk : sym.symmetry with
  | error e => exact fun t _ => rfl
  | ok k =>
    refine Rel.bindLift _ fun k => ?_
    cases k with
    | double =>
      have h := focDouble_rel m sym s
      have e : (do let f ← focDouble m; let _ ← sym.symmetry; return f : Py ℝ) = focDouble m := by
        rw [hk]; cases focDouble m <;> rfl
      rw [e] at h
      exact h
    | single => exact focSingle_rel m sym s
    | point => exact focPoint_rel m s
    | none => exact focUnsym_rel roots m s

theorem ncTorsion_rel (roots : Roots) (m : Member) (kf fy : ℝ) (sym : Symmetry) (unc : ℝ) (s : St) :
    Rel (fun r t _ => r.Ncz = t.Ncz) (NcTorsionP roots m kf fy sym unc) (NcTorsion roots m kf fy sym unc) s := by
  unfold NcTorsionP NcTorsion
  refine Rel.bind (foc_rel roots m sym s) fun r x s1 _ hr => ?_
  obtain rfl : r.foc = x := hr s1 (Ext.refl _)
  refine Rel.bindLift _ fun p => ?_
  refine Rel.bindUpdate _ (fun s => ⟨r.inter, Dict.set "f_n" (.num p.2) ∘ Dict.set "λ_c" (.num p.1) ∘
    Dict.set "f_oc" (.num r.foc), ?_⟩) fun s2 _ => ?_
  · show (Except.ok (), St.mk (((s.inner.modify r.inter _).modify r.inter _).modify r.inter _) _ _ _ _) = _
    rw [modify_modify, modify_modify]
    rfl
  · exact Rel.ret fun t _ => rfl

theorem nc_rel (roots : Roots) (a : NcArgs) (s : St) :
    Rel (fun r x _ => r.1 = x) (NcP roots a) (Nc roots a) s := by
  unfold NcP Nc
  simp only
  split
  · refine Rel.bindLift _ fun bx => ?_
    refine Rel.bindLift _ fun bY => ?_
    split
    · refine Rel.bind (ncTorsion_rel roots a.member a.kf a.fy a.sym a.uncertainty s) fun t t' s1 _ ht => ?_
      have e : t.Ncz = t'.Ncz := ht s1 (Ext.refl _)
      rw [← e]
      refine Rel.update _ _ _ fun s2 _ => ?_
      exact Rel.ret fun t _ => rfl
    · exact Rel.ret fun t _ => rfl
  · exact Rel.ret fun t _ => rfl

theorem proc_rel (roots : Roots) (c : Call) (s : St) :
    Rel (fun r x _ => r.numbers = x) (c.proc roots) (c.value roots) s := by
  have hmap : ∀ {α β : Type} (f : α → β) (x : Py α), x.map f = x >>= fun a => pure (f a) := by
    intro α β f x; cases x <;> rfl
  cases c with
  | rol k =>
    simp only [Call.proc, Call.value, hmap]
    exact Rel.bindSame (rol_rel k s) fun a s1 _ => Rel.ret fun t _ => rfl
  | torsionStress k =>
    simp only [Call.proc, Call.value, hmap]
    exact Rel.bindSame (tor_rel k s) fun a s1 _ => Rel.ret fun t _ => rfl
  | foxz k =>
    simp only [Call.proc, Call.value, hmap]
    refine Rel.bind (foxz_rel k s) fun o f s1 _ ho => ?_
    exact Rel.bindRead (ho s1 (Ext.refl _)) fun a s2 _ => Rel.ret fun t _ => rfl
  | focDouble m sym =>
    simp only [Call.proc, Call.value]
    have h := focDouble_rel m sym s
    have e : (do let f ← focDouble m; let _ ← sym.symmetry; return Numbers.num f : Py Numbers) =
        (do let f ← focDouble m; let _ ← sym.symmetry; return f : Py ℝ) >>= fun f => pure (Numbers.num f) := by
      cases focDouble m <;> cases sym.symmetry <;> rfl
    rw [e]
    refine Rel.bind h fun r x s1 _ hr => Rel.ret fun t _ => ?_
    rw [show r.foc = x from hr s1 (Ext.refl _)]
  | focSingle m sym =>
    simp only [Call.proc, Call.value, hmap]
    refine Rel.bind (focSingle_rel m sym s) fun r x s1 _ hr => Rel.ret fun t _ => ?_
    rw [show r.foc = x from hr s1 (Ext.refl _)]
  | focPoint m =>
    simp only [Call.proc, Call.value, hmap]
    refine Rel.bind (focPoint_rel m s) fun r x s1 _ hr => Rel.ret fun t _ => ?_
    rw [show r.foc = x from hr s1 (Ext.refl _)]
  | focUnsym m =>
    simp only [Call.proc, Call.value, hmap]
    refine Rel.bind (focUnsym_rel roots m s) fun r x s1 _ hr => Rel.ret fun t _ => ?_
    rw [show r.foc = x from hr s1 (Ext.refl _)]
  | ncTorsion m kf fy sym unc =>
    simp only [Call.proc, Call.value, hmap]
    refine Rel.bind (ncTorsion_rel roots m kf fy sym unc s) fun r x s1 _ hr => Rel.ret fun t _ => ?_
    rw [show r.Ncz = x.Ncz from hr s1 (Ext.refl _)]
  | nc a =>
    simp only [Call.proc, Call.value, hmap]
    refine Rel.bind (nc_rel roots a s) fun r x s1 _ hr => Rel.ret fun t _ => ?_
    rw [show r.1 = x from hr s1 (Ext.refl _)]

theorem agree_map {r : Py Answer} {v : Py Numbers} (h : Agree (fun a c => a.numbers = c) r v) : r.map (·.numbers) = v := by
  cases r with
  | error e =>
    cases v with
    | error e' => rw [show e = e' from h]; rfl
    | ok x => exact h.elim
  | ok a =>
    cases v with
    | error e' => exact h.elim
    | ok x => rw [← show a.numbers = x from h]; rfl

/-- the outcomes of a thread are the ones of the formulas -/
theorem thread_safe (roots : Roots) (cs : List Call) (s : St) :
    Safe (fun r _ => ∃ rs, r = .ok rs ∧ numbersOf rs = cs.map (·.value roots)) (threadP roots cs) s := by
  induction cs generalizing s with
  | nil => exact fun t _ => ⟨[], rfl, rfl⟩
  | cons c cs ih =>
    unfold threadP
    refine Safe.bind (Safe.attempt (proc_rel roots c s)) ?_ ?_
    · rintro e s' _ ⟨r', h, _⟩
      cases h
    · intro r s' _ hr
      obtain ⟨r', h1, h2⟩ := hr s' (Ext.refl _)
      injection h1 with h1
      subst h1
      refine Safe.bind (ih s') ?_ ?_
      · rintro e s' _ ⟨r', h, _⟩
        cases h
      · intro rs s'' _ hrs t ht
        obtain ⟨rs', h3, h4⟩ := hrs t ht
        injection h3 with h3
        subst h3
        refine ⟨_, rfl, ?_⟩
        simp only [numbersOf, List.map_cons] at h4 ⊢
        rw [h4, agree_map h2]

/-! ## A pool of threads -/

theorem ext_event (roots : Roots) {e : Event} (he : e.isFair) {s : St} (hi : Inv false s) : Ext s (e.step roots s) := by
  cases e with
  | call c =>
    have h := (exec_tri (s0 := s) roots c s hi (Eff.refl _ _) trivial).2.1
    exact ⟨h.len, h.outer⟩
  | write a k v => exact ⟨by simp [Event.step], List.prefix_rfl⟩
  | delete a k => exact ⟨by simp [Event.step], List.prefix_rfl⟩
  | writeOuter o f => exact he.elim
  | clearRol => exact ⟨le_rfl, List.prefix_rfl⟩
  | clearTor => exact ⟨le_rfl, List.prefix_rfl⟩
  | clearFoxz => exact ⟨le_rfl, List.prefix_rfl⟩

/-- all threads are on their way to the right outcomes -/
structure PoolOk (roots : Roots) (cs : List (List Call)) (p : Pool) : Prop where
  inv : Inv false p.st
  safe : ∀ (i : ℕ) t, p.threads[i]? = some t → ∃ l : List Call, cs[i]? = some l ∧
    Safe (fun r _ => ∃ rs, r = .ok rs ∧ numbersOf rs = l.map (·.value roots)) t p.st

theorem poolOk_step (roots : Roots) {cs : List (List Call)} {p : Pool} (h : PoolOk roots cs p) {t : Tick} (ht : t.isFair) :
    PoolOk roots cs (t.step roots p) := by
  cases t with
  | other e =>
    have he := ext_event roots ht h.inv
    refine ⟨inv_step roots ht h.inv, fun i t hi => ?_⟩
    obtain ⟨l, h1, h2⟩ := h.safe i t hi
    exact ⟨l, h1, h2.later he⟩
  | run i =>
    simp only [Tick.step]
    cases hi : p.threads[i]? with
    | none => exact h
    | some q =>
      cases q with
      | done r => exact h
      | more act next =>
        obtain ⟨l, h1, h2⟩ := h.safe i _ hi
        obtain ⟨g1, g2, g3⟩ := h2 p.st (Ext.refl _) h.inv
        refine ⟨g1, fun j t hj => ?_⟩
        simp only [List.getElem?_set] at hj
        by_cases hij : i = j
        · subst hij
          have hlt : i < p.threads.length := (List.getElem?_eq_some_iff.1 hi).1
          simp only [if_true, hlt, Option.some.injEq] at hj
          subst hj
          exact ⟨l, h1, g3⟩
        · rw [if_neg hij] at hj
          obtain ⟨l', h1', h2'⟩ := h.safe j t hj
          exact ⟨l', h1', h2'.later g2⟩

theorem poolOk_run (roots : Roots) {cs : List (List Call)} (ts : List Tick) {p : Pool} (h : PoolOk roots cs p)
    (hf : ∀ t ∈ ts, t.isFair) : PoolOk roots cs (runTicks roots ts p) := by
  induction ts generalizing p with
  | nil => exact h
  | cons t ts ih =>
    exact ih (poolOk_step roots h (hf t List.mem_cons_self)) fun x hx => hf x (List.mem_cons_of_mem _ hx)

theorem poolOk_start (roots : Roots) (cs : List (List Call)) {s : St} (h : Inv false s) :
    PoolOk roots cs (Pool.start roots s cs) := by
  refine ⟨h, fun i t hi => ?_⟩
  simp only [Pool.start, List.getElem?_map, Option.map_eq_some_iff] at hi
  obtain ⟨l, hl, rfl⟩ := hi
  exact ⟨l, hl, thread_safe roots l s⟩

/-! ## The number of steps -/

/-- the function ends after at most `n` of its own steps, whatever others do in between -/
def AtMost : Proc α → ℕ → Prop
  | .done _, _ => True
  | .more _ _, 0 => False
  | .more _ next, n + 1 => ∀ s, AtMost (next s) n

theorem AtMost.mono {p : Proc α} {n m : ℕ} (h : AtMost p n) (hnm : n ≤ m) : AtMost p m := by
  induction p generalizing n m with
  | done r => trivial
  | more act next ih =>
    cases n with
    | zero => exact h.elim
    | succ n =>
      cases m with
      | zero => omega
      | succ m => exact fun s => ih s (h s) (by omega)

theorem AtMost.bind {p : Proc α} {f : α → Proc β} {n m : ℕ} (hp : AtMost p n) (hf : ∀ a, AtMost (f a) m) :
    AtMost (p >>= f) (n + m) := by
  show AtMost (p.andThen f) (n + m)
  induction p generalizing n with
  | done r =>
    cases r with
    | error e => trivial
    | ok a => exact (hf a).mono (by omega)
  | more act next ih =>
    cases n with
    | zero => exact hp.elim
    | succ n =>
      rw [show n + 1 + m = (n + m) + 1 by omega]
      exact fun s => ih s (hp s)

theorem AtMost.attempt {p : Proc α} {n : ℕ} (h : AtMost p n) : AtMost p.attempt n := by
  induction p generalizing n with
  | done r => trivial
  | more act next ih =>
    cases n with
    | zero => exact h.elim
    | succ n => exact fun s => ih s (h s)

theorem AtMost.lift {x : Py α} {f : α → Proc β} {n : ℕ} (hf : ∀ a, AtMost (f a) n) : AtMost (Proc.lift x >>= f) n := by
  cases x with
  | error e => trivial
  | ok a => exact hf a

theorem AtMost.step {x : M α} {f : α → Proc β} {n : ℕ} (hf : ∀ a, AtMost (f a) n) :
    AtMost (Proc.step x >>= f) (n + 1) := by
  intro s
  show AtMost (Proc.andThen (.done (x s).1) f) n
  cases (x s).1 with
  | error e => trivial
  | ok a => exact hf a

theorem AtMost.ret {a : α} {n : ℕ} : AtMost (pure a : Proc α) n := trivial

theorem AtMost.cached {κ : Type} {get : St → List (κ × α)} {put : List (κ × α) → St → St} {k : κ} {body : Proc α} {n : ℕ}
    (h : AtMost body n) : AtMost (cachedP get put k body) (n + 2) := by
  intro s
  simp only
  cases lruGet k (get s) with
  | some vc => trivial
  | none => exact h.bind fun v => AtMost.step fun _ => AtMost.ret

theorem rol_atMost (k : RKey) : AtMost (rolP k) 2 := AtMost.cached (n := 0) trivial

theorem tor_atMost (k : TKey) : AtMost (torP k) 4 := by
  apply AtMost.cached (n := 2)
  exact (rol_atMost _).bind (m := 0) fun ro => AtMost.lift fun a => AtMost.lift fun b => AtMost.ret

theorem foxz_atMost (k : FKey) : AtMost (foxzP k) 10 := by
  apply AtMost.cached (n := 8)
  refine (rol_atMost _).bind (m := 6) fun ro => AtMost.lift fun q => AtMost.lift fun fox => ?_
  refine (tor_atMost _).bind (m := 2) fun foz => AtMost.lift fun h => AtMost.lift fun r => ?_
  exact AtMost.step fun a => fun s => trivial

theorem focDouble_atMost (m : Member) (sym : Symmetry) : AtMost (focDoubleP m sym) 19 := by
  refine (foxz_atMost _).bind (m := 9) fun o => (tor_atMost _).bind (m := 5) fun foz => ?_
  exact AtMost.step fun p => AtMost.step fun _ => AtMost.step fun _ => AtMost.step fun _ => AtMost.lift fun k =>
    AtMost.step fun _ => AtMost.ret

theorem singleTail_atMost (k : FKey) (axis : String) (sym : Symmetry) : AtMost (singleTailP k axis sym) 19 := by
  refine (foxz_atMost _).bind (m := 9) fun o => ?_
  exact AtMost.step fun p => AtMost.step fun _ => AtMost.step fun _ => AtMost.lift fun k =>
    AtMost.step fun _ => AtMost.step fun _ => AtMost.ret

theorem focSingle_atMost (m : Member) (sym : Symmetry) : AtMost (focSingleP m sym) 19 := by
  refine AtMost.lift fun n => ?_
  split
  · trivial
  · split
    · exact singleTail_atMost _ _ _
    · exact singleTail_atMost _ _ _

theorem focPoint_atMost (m : Member) : AtMost (focPointP m) 19 :=
  (tor_atMost _).bind (m := 15) fun _ => AtMost.step fun _ => AtMost.ret

theorem focUnsym_atMost (roots : Roots) (m : Member) : AtMost (focUnsymP roots m) 19 := by
  refine AtMost.lift fun fox => AtMost.lift fun foy => (rol_atMost _).bind (m := 17) fun ro => ?_
  exact (tor_atMost _).bind (m := 13) fun foz => AtMost.lift fun f => AtMost.step fun i => AtMost.ret

theorem ncTorsion_atMost (roots : Roots) (m : Member) (kf fy : ℝ) (sym : Symmetry) (unc : ℝ) :
    AtMost (NcTorsionP roots m kf fy sym unc) 20 := by
  have h : AtMost (focP roots m sym) 19 := by
    refine AtMost.lift fun k => ?_
    cases k with
    | double => exact focDouble_atMost m sym
    | single => exact focSingle_atMost m sym
    | point => exact focPoint_atMost m
    | none => exact focUnsym_atMost roots m
  exact h.bind (m := 1) fun r => AtMost.lift fun p => AtMost.step fun _ => AtMost.ret

theorem nc_atMost (roots : Roots) (a : NcArgs) : AtMost (NcP roots a) 21 := by
  unfold NcP
  simp only
  split
  · refine AtMost.lift fun bx => AtMost.lift fun bY => ?_
    split
    · exact (ncTorsion_atMost roots _ _ _ _ _).bind (m := 1) fun t => AtMost.step fun _ => AtMost.ret
    · trivial
  · trivial

theorem proc_atMost (roots : Roots) (c : Call) : AtMost (c.proc roots) 21 := by
  cases c with
  | rol k => exact (rol_atMost k).bind (m := 19) fun _ => AtMost.ret
  | torsionStress k => exact (tor_atMost k).bind (m := 17) fun _ => AtMost.ret
  | foxz k => exact (foxz_atMost k).bind (m := 11) fun _ => AtMost.step fun _ => AtMost.ret
  | focDouble m sym => exact (focDouble_atMost m sym).bind (m := 2) fun _ => AtMost.ret
  | focSingle m sym => exact (focSingle_atMost m sym).bind (m := 2) fun _ => AtMost.ret
  | focPoint m => exact (focPoint_atMost m).bind (m := 2) fun _ => AtMost.ret
  | focUnsym m => exact (focUnsym_atMost roots m).bind (m := 2) fun _ => AtMost.ret
  | ncTorsion m kf fy sym unc => exact (ncTorsion_atMost roots m kf fy sym unc).bind (m := 1) fun _ => AtMost.ret
  | nc a => exact (nc_atMost roots a).bind (m := 0) fun _ => AtMost.ret

theorem thread_atMost (roots : Roots) (cs : List Call) : AtMost (threadP roots cs) (21 * cs.length) := by
  induction cs with
  | nil => trivial
  | cons c cs ih =>
    rw [List.length_cons, show 21 * (cs.length + 1) = 21 + (21 * cs.length + 0) by omega]
    exact (proc_atMost roots c).attempt.bind fun r => ih.bind fun rs => AtMost.ret

theorem atMost_zero {p : Proc α} (h : AtMost p 0) : ∃ r, p = .done r := by
  cases p with
  | done r => exact ⟨r, rfl⟩
  | more act next => exact h.elim

theorem atMost_run (roots : Roots) (ts : List Tick) {p : Pool} {i n : ℕ} {t : Proc (List (Py Answer))}
    (hi : p.threads[i]? = some t) (hn : AtMost t n) :
    ∃ t', (runTicks roots ts p).threads[i]? = some t' ∧ AtMost t' (n - ts.countP (Tick.isRun i)) := by
  induction ts generalizing p n t with
  | nil => exact ⟨t, hi, by simpa using hn⟩
  | cons x ts ih =>
    simp only [runTicks, List.countP_cons]
    cases x with
    | other e =>
      obtain ⟨t', h1, h2⟩ := ih (p := (Tick.other e).step roots p) hi hn
      exact ⟨t', h1, by simpa [Tick.isRun] using h2⟩
    | run j =>
      by_cases hj : j = i
      · subst hj
        have hlt : j < p.threads.length := (List.getElem?_eq_some_iff.1 hi).1
        simp only [Tick.step, hi]
        cases t with
        | done r =>
          obtain ⟨t', h1, h2⟩ := ih (p := p) (n := 0) hi trivial
          exact ⟨t', h1, h2.mono (by omega)⟩
        | more act next =>
          cases n with
          | zero => exact hn.elim
          | succ n =>
            obtain ⟨t', h1, h2⟩ := ih (p := ⟨act p.st, p.threads.set j (next p.st)⟩) (n := n) (t := next p.st)
              (by simp [hlt]) (hn p.st)
            refine ⟨t', h1, h2.mono ?_⟩
            simp only [Tick.isRun, beq_self_eq_true, if_true]
            omega
      · have hk : ((Tick.run j).step roots p).threads[i]? = some t := by
          simp only [Tick.step]
          split
          · simp [List.getElem?_set, hj, hi]
          · exact hi
        obtain ⟨t', h1, h2⟩ := ih (p := (Tick.run j).step roots p) hk hn
        refine ⟨t', h1, ?_⟩
        simpa [Tick.isRun, hj] using h2

end BeamDesign.S6
