import Verif.Lemmas.S6Threads
import Mathlib.Data.Set.Lattice

/-!
# Dictionaries owned by one thread, and what the shared ones keep

A thread owns the dictionaries it created and has not put into the cache.  Other threads do not touch them, and
no thread changes the section data of a dictionary in the cache.
-/

set_option linter.unusedSimpArgs false

namespace BeamDesign.S6

variable {α β γ δ : Type}

/-- what the owner of `O` may rely on when the state goes from `s` to `s'` -/
structure Rely (O : Set ℕ) (s s' : St) : Prop where
  len : s.inner.length ≤ s'.inner.length
  outer : s.outer <+: s'.outer
  own : ∀ a ∈ O, Unshared s a → Unshared s' a ∧ s'.dict a = s.dict a
  base : ∀ a f, (∃ k : FKey, k.value = .ok f) → a < s.inner.length → (s.dict a).Describes f → (s'.dict a).Describes f

theorem Rely.refl (O : Set ℕ) (s : St) : Rely O s s :=
  ⟨le_rfl, List.prefix_rfl, fun _ _ h => ⟨h, rfl⟩, fun _ _ _ _ h => h⟩

theorem Rely.trans {O : Set ℕ} {s s' s'' : St} (h : Rely O s s') (h' : Rely O s' s'') : Rely O s s'' := by
  refine ⟨h.len.trans h'.len, h.outer.trans h'.outer, fun a ha hu => ?_, fun a f hk hl hd => ?_⟩
  · obtain ⟨u, e⟩ := h.own a ha hu
    obtain ⟨u', e'⟩ := h'.own a ha u
    exact ⟨u', e'.trans e⟩
  · exact h'.base a f hk (hl.trans_le h.len) (h.base a f hk hl hd)

theorem Rely.sub {O O' : Set ℕ} {s s' : St} (h : Rely O s s') (hs : O' ⊆ O) : Rely O' s s' :=
  ⟨h.len, h.outer, fun a ha => h.own a (hs ha), h.base⟩

theorem Rely.none {O : Set ℕ} {s s' : St} (h : Rely O s s') : Rely ∅ s s' := h.sub (Set.empty_subset _)

theorem Rely.of_eff {s s' : St} (h : Eff true s s') (O : Set ℕ) : Rely O s s' :=
  ⟨h.len, h.outer, fun a _ hu => h.unshared a hu, h.base rfl⟩

/-- the dictionaries in `O` exist and are not in the cache -/
def Owns (O : Set ℕ) (s : St) : Prop := ∀ a ∈ O, Unshared s a

theorem Owns.later {O : Set ℕ} {s s' : St} (h : Owns O s) (hr : Rely O s s') : Owns O s' :=
  fun a ha => (hr.own a ha (h a ha)).1

theorem Owns.empty (s : St) : Owns ∅ s := fun _ h => h.elim

/-- However the steps of `p` are mixed with what others do: `p` touches only what it owns or what is shared, and at
the end and ever after `Q` holds. -/
def Sure (Q : Py α → Set ℕ → St → Prop) : Proc α → Set ℕ → St → Prop
  | .done r, O, s => ∀ s', Rely O s s' → Inv true s' → Owns O s' → Q r O s'
  | .more act next, O, s => ∀ s', Rely O s s' → Inv true s' → Owns O s' →
      Inv true (act s') ∧ Rely Oᶜ s' (act s') ∧
      ∃ O', O' ⊆ O ∪ {a | s'.inner.length ≤ a} ∧ Owns O' (act s') ∧ Sure Q (next s') O' (act s')

theorem Sure.later {Q : Py α → Set ℕ → St → Prop} {p : Proc α} {O : Set ℕ} {s s' : St} (h : Sure Q p O s)
    (he : Rely O s s') : Sure Q p O s' := by
  cases p with
  | done r => exact fun t ht => h t (he.trans ht)
  | more act next => exact fun t ht => h t (he.trans ht)

theorem Sure.mono {Q Q' : Py α → Set ℕ → St → Prop} {p : Proc α} {O : Set ℕ} {s : St} (h : Sure Q p O s)
    (hQ : ∀ r O u, Q r O u → Q' r O u) : Sure Q' p O s := by
  induction p generalizing s O with
  | done r => exact fun u hu hi ho => hQ _ _ _ (h u hu hi ho)
  | more act next ih =>
    intro u hu hi ho
    obtain ⟨g1, g2, O', g3, g4, g5⟩ := h u hu hi ho
    exact ⟨g1, g2, O', g3, g4, ih _ g5⟩

theorem Sure.attempt {Q : Py α → Set ℕ → St → Prop} {p : Proc α} {O : Set ℕ} {s : St} (h : Sure Q p O s) :
    Sure (fun r O s => ∃ r', r = .ok r' ∧ Q r' O s) p.attempt O s := by
  induction p generalizing s O with
  | done r => exact fun t ht hi ho => ⟨r, rfl, h t ht hi ho⟩
  | more act next ih =>
    intro t ht hi ho
    obtain ⟨h1, h2, O', h3, h4, h5⟩ := h t ht hi ho
    exact ⟨h1, h2, O', h3, h4, ih t h5⟩

theorem Sure.bind {Q : Py α → Set ℕ → St → Prop} {Q' : Py β → Set ℕ → St → Prop} {p : Proc α} {f : α → Proc β}
    {O : Set ℕ} {s : St} (hi : Inv true s) (ho : Owns O s) (hp : Sure Q p O s)
    (he : ∀ e O' s', Q (.error e) O' s' → Q' (.error e) O' s')
    (hf : ∀ a O' s', Rely ∅ s s' → Inv true s' → Owns O' s' →
      (∀ t, Rely O' s' t → Inv true t → Owns O' t → Q (.ok a) O' t) → Sure Q' (f a) O' s') :
    Sure Q' (p >>= f) O s := by
  show Sure Q' (p.andThen f) O s
  induction p generalizing s O with
  | done r =>
    cases r with
    | error e => exact fun t ht hi ho => he e O t (hp t ht hi ho)
    | ok a => exact hf a O s (Rely.refl _ _) hi ho hp
  | more act next ih =>
    intro t ht hti hto
    obtain ⟨h1, h2, O', h3, h4, h5⟩ := hp t ht hti hto
    exact ⟨h1, h2, O', h3, h4, ih t h1 h4 h5
      fun a O'' s' hs => hf a O'' s' (ht.none.trans (h2.none.trans hs))⟩

/-- a function leaves alone what it does not own -/
theorem Sure.frame {Q : Py α → Set ℕ → St → Prop} {p : Proc α} {O F : Set ℕ} {s : St} (hF : Owns F s)
    (hd : ∀ a ∈ F, a ∉ O) (h : Sure Q p O s) :
    Sure (fun r O' t => ∃ O1, O' = O1 ∪ F ∧ (∀ a ∈ F, a ∉ O1) ∧ Q r O1 t ∧ Rely F s t) p (O ∪ F) s := by
  induction p generalizing s O with
  | done r =>
    intro t ht hi ho
    exact ⟨O, rfl, hd, h t (ht.sub Set.subset_union_left) hi fun a ha => ho a (Or.inl ha), ht.sub Set.subset_union_right⟩
  | more act next ih =>
    intro t ht hi ho
    have hFt : Owns F t := fun a ha => ho a (Or.inr ha)
    obtain ⟨h1, h2, O', h3, h4, h5⟩ := h t (ht.sub Set.subset_union_left) hi fun a ha => ho a (Or.inl ha)
    have hF' : Rely F t (act t) := h2.sub fun a ha => hd a ha
    have hd' : ∀ a ∈ F, a ∉ O' := by
      intro a ha hc
      rcases h3 hc with hc | hc
      · exact hd a ha hc
      · have h6 := (hFt a ha).1
        have h7 : t.inner.length ≤ a := hc
        omega
    have h8 := ih t (hFt.later hF') hd' h5
    refine ⟨h1, h2.sub ?_, O' ∪ F, ?_, ?_, h8.mono ?_⟩
    · exact Set.compl_subset_compl.2 Set.subset_union_left
    · rintro a (ha | ha)
      · rcases h3 ha with ha | ha
        · exact Or.inl (Or.inl ha)
        · exact Or.inr ha
      · exact Or.inl (Or.inr ha)
    · rintro a (ha | ha)
      · exact h4 a ha
      · exact hFt.later hF' a ha
    · rintro r O1 u ⟨O2, e1, e0, e2, e3⟩
      exact ⟨O2, e1, e0, e2, ((ht.sub Set.subset_union_right).trans hF').trans e3⟩

/-- the outcome is the one of `v`, related by `R` -/
def RelO (R : α → β → Set ℕ → St → Prop) (p : Proc α) (v : Py β) (O : Set ℕ) (s : St) : Prop :=
  Sure (fun r O' t => Agree (fun a c => R a c O' t) r v) p O s

theorem RelO.bind {R : α → β → Set ℕ → St → Prop} {R' : γ → δ → Set ℕ → St → Prop} {p : Proc α} {v : Py β}
    {f : α → Proc γ} {g : β → Py δ} {O : Set ℕ} {s : St} (hi : Inv true s) (ho : Owns O s) (hp : RelO R p v O s)
    (hf : ∀ a c O' s', v = .ok c → Rely ∅ s s' → Inv true s' → Owns O' s' →
      (∀ t, Rely O' s' t → Inv true t → Owns O' t → R a c O' t) → RelO R' (f a) (g c) O' s') :
    RelO R' (p >>= f) (v >>= g) O s := by
  refine Sure.bind hi ho hp ?_ ?_
  · intro e O' s' h
    cases v with
    | error e' => exact h
    | ok c => exact h.elim
  · intro a O' s' hs hi' ho' h
    cases v with
    | error e' => exact (h s' (Rely.refl _ _) hi' ho').elim
    | ok c => exact hf a c O' s' rfl hs hi' ho' h

theorem RelO.ret {R : α → β → Set ℕ → St → Prop} {a : α} {c : β} {O : Set ℕ} {s : St}
    (h : ∀ t, Rely O s t → Inv true t → Owns O t → R a c O t) : RelO R (pure a) (pure c) O s := h

theorem RelO.bindLift {R : γ → δ → Set ℕ → St → Prop} (v : Py α) {f : α → Proc γ} {g : α → Py δ} {O : Set ℕ} {s : St}
    (h : ∀ a, v = .ok a → RelO R (f a) (g a) O s) : RelO R (Proc.lift v >>= f) (v >>= g) O s := by
  cases v with
  | error e => exact fun t _ _ _ => rfl
  | ok a => exact h a rfl

theorem RelO.bindLift' {R : γ → α → Set ℕ → St → Prop} (v : Py α) {f : α → Proc γ} {O : Set ℕ} {s : St}
    (h : ∀ a, v = .ok a → RelO R (f a) (pure a) O s) : RelO R (Proc.lift v >>= f) v O s := by
  cases v with
  | error e => exact fun t _ _ _ => rfl
  | ok a => exact h a rfl

/-- the numbers are the same, and nothing is owned -/
def SameO (a c : ℝ) (O : Set ℕ) (_ : St) : Prop := a = c ∧ O = ∅

theorem RelO.bindSame {R : γ → δ → Set ℕ → St → Prop} {p : Proc ℝ} {v : Py ℝ} {f : ℝ → Proc γ} {g : ℝ → Py δ} {s : St}
    (hi : Inv true s) (hp : RelO SameO p v ∅ s)
    (h : ∀ a s', v = .ok a → Rely ∅ s s' → Inv true s' → RelO R (f a) (g a) ∅ s') : RelO R (p >>= f) (v >>= g) ∅ s := by
  refine RelO.bind hi (Owns.empty s) hp ?_
  intro a c O' s' hv hs hi' ho' hr
  obtain ⟨rfl, rfl⟩ := hr s' (Rely.refl _ _) hi' ho'
  exact h a s' hv hs hi'

theorem RelO.lift {R : α → α → Set ℕ → St → Prop} (v : Py α) {O : Set ℕ} {s : St}
    (h : ∀ a t, R a a O t) : RelO R (Proc.lift v) v O s := by
  cases v with
  | error e => exact fun t _ _ _ => rfl
  | ok a => exact fun t _ _ _ => h a t

theorem Rely.caches {O : Set ℕ} {s s' : St} (h1 : s'.inner = s.inner) (h2 : s'.outer = s.outer) : Rely O s s' :=
  Rely.of_eff ((Eff.refl true s).heap h1 h2) O

theorem cached_relO {κ : Type} {get : St → List (κ × α)} {put : List (κ × α) → St → St} {k : κ} {body : Proc α}
    {v : Py β} {R : α → β → Set ℕ → St → Prop} {s : St}
    (hput : ∀ c t, (put c t).inner = t.inner ∧ (put c t).outer = t.outer)
    (hit : ∀ s' x c, Rely ∅ s s' → Inv true s' → lruGet k (get s') = some (x, c) →
      Inv true (put c s') ∧ ∀ t, Rely ∅ (put c s') t → Inv true t → Agree (fun a c => R a c ∅ t) (.ok x) v)
    (hbody : ∀ s', Rely ∅ s s' → Inv true s' → RelO R body v ∅ s')
    (hown : ∀ a c O t, R a c O t → O = ∅)
    (hstore : ∀ s' x y, Inv true s' → v = .ok y → R x y ∅ s' → Inv true (put (lruPut k x (get s')) s')) :
    RelO R (cachedP get put k body) v ∅ s := by
  intro s' hs hi ho
  simp only
  cases hl : lruGet k (get s') with
  | some xc =>
    obtain ⟨x, c⟩ := xc
    obtain ⟨h1, h3⟩ := hit s' x c hs hi hl
    exact ⟨h1, Rely.caches (hput _ _).1 (hput _ _).2, ∅, Set.empty_subset _, Owns.empty _,
      fun t ht hi _ => h3 t ht hi⟩
  | none =>
    refine ⟨hi, Rely.refl _ _, ∅, Set.empty_subset _, Owns.empty _, ?_⟩
    refine Sure.bind hi (Owns.empty _) (hbody s' hs hi) (fun _ _ _ h => h) fun x O' s'' hs'' hi'' ho'' hx => ?_
    cases v with
    | error e => exact (hx s'' (Rely.refl _ _) hi'' ho'').elim
    | ok y =>
      obtain rfl : O' = ∅ := hown _ _ _ _ (hx s'' (Rely.refl _ _) hi'' ho'')
      intro t ht hti hto
      have hR : R x y ∅ t := hx t ht hti hto
      have h1 := hstore t x y hti rfl hR
      have h2 : ∀ O, Rely O t (put (lruPut k x (get t)) t) := fun O => Rely.caches (hput _ _).1 (hput _ _).2
      simp only [store]
      cases lruGet k (get t) with
      | some xc =>
        exact ⟨hti, Rely.refl _ _, ∅, Set.empty_subset _, Owns.empty _, fun u hu => hx u (ht.trans hu)⟩
      | none => exact ⟨h1, h2 _, ∅, Set.empty_subset _, Owns.empty _, fun u hu => hx u (ht.trans ((h2 _).trans hu))⟩

theorem rol_relO (k : RKey) (s : St) : RelO SameO (rolP k) k.value ∅ s := by
  apply cached_relO
  · exact fun c t => ⟨rfl, rfl⟩
  · intro s' x c hs hi hl
    obtain ⟨h1, h2⟩ := lruGet_some hl
    refine ⟨hi.setRol fun e he => hi.rol e (h2 e he), fun t _ _ => ?_⟩
    have := hi.rol _ h1
    simp only at this
    rw [this]
    exact ⟨rfl, rfl⟩
  · intro s' _ _
    have hv : k.value = rsqrt (k.rx * k.rx + k.ry * k.ry + k.xo * k.xo + k.yo * k.yo) := rfl
    rw [hv]
    exact RelO.lift _ fun a t => ⟨rfl, rfl⟩
  · exact fun a c O t h => h.2
  · intro s' x y hi hv hxy
    obtain rfl : x = y := hxy.1
    refine hi.setRol fun e he => ?_
    rcases mem_lruPut he with rfl | he
    · exact hv
    · exact hi.rol e he

theorem tor_relO (k : TKey) (s : St) : RelO SameO (torP k) k.value ∅ s := by
  apply cached_relO
  · exact fun c t => ⟨rfl, rfl⟩
  · intro s' x c hs hi hl
    obtain ⟨h1, h2⟩ := lruGet_some hl
    refine ⟨hi.setTor fun e he => hi.tor e (h2 e he), fun t _ _ => ?_⟩
    have := hi.tor _ h1
    simp only at this
    rw [this]
    exact ⟨rfl, rfl⟩
  · intro s' _ hi
    unfold torBodyP
    show RelO SameO _ ((RKey.value ⟨k.rx, k.ry, k.xo, k.yo⟩) >>= _) ∅ s'
    refine RelO.bindSame hi (rol_relO _ _) fun ro s'' _ _ _ => ?_
    refine RelO.bindLift _ fun a _ => ?_
    exact RelO.bindLift _ fun b _ => RelO.ret fun t _ _ _ => ⟨rfl, rfl⟩
  · exact fun a c O t h => h.2
  · intro s' x y hi hv hxy
    obtain rfl : x = y := hxy.1
    refine hi.setTor fun e he => ?_
    rcases mem_lruPut he with rfl | he
    · exact hv
    · exact hi.tor e he

/-- an address that is not in use has an empty dictionary, which describes nothing -/
theorem describes_lt {s : St} {a : ℕ} {f : Foxz} (h : (s.dict a).Describes f) : a < s.inner.length := by
  by_contra hc
  have : s.dict a = [] := by
    unfold St.dict
    rw [List.getElem?_eq_none (not_lt.1 hc)]
    rfl
  rw [this] at h
  cases h.1

theorem Holds.later {o : ℕ} {f : Foxz} {s s' : St} (h : Holds true s o f) (hr : Rely ∅ s s') : Holds true s' o f := by
  obtain ⟨hk, a, h1, h2⟩ := h
  obtain ⟨t, ht⟩ := hr.outer
  refine ⟨hk, a, ?_, fun _ => hr.base a f hk (describes_lt (h2 rfl)) (h2 rfl)⟩
  rw [← ht, List.getElem?_append_left (List.getElem?_eq_some_iff.1 h1).1]
  exact h1

theorem Shared.later {a : ℕ} {f : Foxz} {s s' : St} (h : Shared true a f s) (hr : Rely ∅ s s') : Shared true a f s' := by
  obtain ⟨hk, ⟨p, hp, hpa⟩, h2⟩ := h
  exact ⟨hk, ⟨p, hr.outer.subset hp, hpa⟩, fun _ => hr.base a f hk (describes_lt (h2 rfl)) (h2 rfl)⟩

/-- `o` is the address of the result of `f_oxz`; nothing is owned -/
def HoldsO (o : ℕ) (f : Foxz) (O : Set ℕ) (s : St) : Prop := Holds true s o f ∧ O = ∅

/-- a new dictionary, owned by the thread -/
theorem RelO.bindAlloc {R : γ → δ → Set ℕ → St → Prop} (d : Dict) {f : ℕ → Proc γ} {v : Py δ} {s : St}
    (h : ∀ a s', Rely ∅ s s' → Inv true s' → Unshared s' a → s'.dict a = d → RelO R (f a) v {a} s') :
    RelO R (Proc.step (allocInner d) >>= f) v ∅ s := by
  intro s' hs hi ho
  have he : Eff true s' { s' with inner := s'.inner ++ [d] } := (Eff.refl _ _).allocInner d
  have hu : Unshared { s' with inner := s'.inner ++ [d] } s'.inner.length := unshared_alloc hi d
  refine ⟨hi.allocInner d, Rely.of_eff he _, {s'.inner.length}, ?_, ?_, ?_⟩
  · intro a ha
    rw [Set.mem_singleton_iff] at ha
    right
    show s'.inner.length ≤ a
    omega
  · intro a ha
    rw [Set.mem_singleton_iff] at ha
    rw [ha]
    exact hu
  · refine h _ _ (hs.trans (Rely.of_eff he _)) (hi.allocInner d) hu ?_
    show St.dict { s' with inner := s'.inner ++ [d] } s'.inner.length = d
    rw [dict_append, if_pos rfl]

theorem foxz_relO (k : FKey) (s : St) : RelO HoldsO (foxzP k) k.value ∅ s := by
  have hb : ∀ s', Inv true s' → RelO (fun o f O t => O = ∅ ∧ ∃ a, t.outer[o]? = some (a, f.foxz) ∧
      (k.value = .ok f → (t.dict a).Describes f)) (foxzBodyP k) k.value ∅ s' := by
    intro s' hi
    unfold foxzBodyP
    have hval : k.value = (do
      let ro ← RKey.value ⟨k.rx, k.ry, k.xo, k.yo⟩
      let q ← rdiv k.xo ro
      let fox ← fEuler k.E k.lex k.rx
      let foz ← TKey.value ⟨k.An, k.lez, k.rx, k.ry, k.xo, k.yo, k.J, k.Iw, k.E, k.G⟩
      let h ← rdiv 1 (2 * (1 - q ^ 2))
      let r ← rsqrt ((fox + foz) ^ 2 - 4 * (1 - q ^ 2) * fox * foz)
      return (⟨1 - q ^ 2, fox, foz, k.rx, k.ry, k.xo, k.yo, ro, h * (fox + foz - r)⟩ : Foxz)) := rfl
    generalize hv : k.value = v at *
    rw [hval]
    refine RelO.bindSame hi (rol_relO ⟨k.rx, k.ry, k.xo, k.yo⟩ _) fun ro s1 e1 _ hi1 => ?_
    refine RelO.bindLift _ fun q e2 => ?_
    refine RelO.bindLift _ fun fox e3 => ?_
    refine RelO.bindSame hi1 (tor_relO ⟨k.An, k.lez, k.rx, k.ry, k.xo, k.yo, k.J, k.Iw, k.E, k.G⟩ _) fun foz s2 e4 _ hi2 => ?_
    refine RelO.bindLift _ fun h e5 => ?_
    refine RelO.bindLift _ fun r e6 => ?_
    simp only [e1, e2, e3, e4, e5, e6, Except.bind_ok'] at hval
    refine RelO.bindAlloc _ fun a s3 _ hi3 hu3 hd3 => ?_
    intro s4 h4 hi4 ho4
    have hu4 := ho4 a rfl
    have hd4 := (h4.own a rfl hu3).2.trans hd3
    have hk : k.value = .ok ⟨1 - q ^ 2, fox, foz, k.rx, k.ry, k.xo, k.yo, ro, h * (fox + foz - r)⟩ := hv.trans hval
    have hdesc : (s4.dict a).Describes ⟨1 - q ^ 2, fox, foz, k.rx, k.ry, k.xo, k.yo, ro, h * (fox + foz - r)⟩ := by
      rw [hd4]
      simp [Dict.Describes, Dict.get]
    refine ⟨⟨hi4.rol, hi4.tor, ?_, ?_⟩, ⟨le_rfl, List.prefix_append _ _, ?_, fun _ _ _ _ h => h⟩, ∅, Set.empty_subset _,
      Owns.empty _, ?_⟩
    · intro e hc
      obtain ⟨c, f, g1, g2, g3⟩ := hi4.foxz e hc
      refine ⟨c, f, g1, ?_, g3⟩
      show (s4.outer ++ [_])[e.2]? = _
      rw [List.getElem?_append_left (List.getElem?_eq_some_iff.1 g2).1]
      exact g2
    · intro p hp
      rcases List.mem_append.1 hp with hp | hp
      · exact hi4.outer p hp
      · rw [List.mem_singleton.1 hp]; exact hu4.1
    · intro c hc hu
      refine ⟨⟨hu.1, fun p hp => ?_⟩, rfl⟩
      rcases List.mem_append.1 hp with hp | hp
      · exact hu.2 p hp
      · rw [List.mem_singleton.1 hp]
        exact fun h => hc h.symm
    · intro t ht _ _
      refine ⟨rfl, a, ?_, fun _ => ?_⟩
      · obtain ⟨u, hu⟩ := ht.outer
        rw [← hu, List.getElem?_append_left (by simp [S6.allocOuter])]
        simp [S6.allocOuter]
      · exact ht.base a _ ⟨k, hk⟩ hu4.1 hdesc
  apply cached_relO
  · exact fun c t => ⟨rfl, rfl⟩
  · intro s' x c hs hi hl
    obtain ⟨h1, h2⟩ := lruGet_some hl
    have hi' : Inv true { s' with cFoxz := c } := ⟨hi.rol, hi.tor, fun e he => hi.foxz e (h2 e he), hi.outer⟩
    refine ⟨hi', fun t ht _ => ?_⟩
    obtain ⟨a, f, g1, g2, g3⟩ := hi.foxz _ h1
    simp only at g1 g2
    rw [g1]
    have : Holds true { s' with cFoxz := c } x f := ⟨⟨k, g1⟩, a, g2, g3⟩
    exact ⟨this.later ht, rfl⟩
  · intro s' _ hi
    have h := hb s' hi
    refine h.mono ?_
    intro r O u hr
    cases hk : k.value with
    | error e =>
      rw [hk] at hr
      cases r with
      | error e' => exact hr
      | ok o => exact hr.elim
    | ok f =>
      rw [hk] at hr
      cases r with
      | error e' => exact hr
      | ok o =>
        obtain ⟨h1, a, h2, h3⟩ := hr
        exact ⟨⟨⟨k, hk⟩, a, h2, fun _ => h3 rfl⟩, h1⟩
  · exact fun a c O t h => h.2
  · intro s' x y hi hv hxy
    refine ⟨hi.rol, hi.tor, fun e he => ?_, hi.outer⟩
    rcases mem_lruPut he with rfl | he
    · obtain ⟨⟨_, a, ha, hd⟩, _⟩ := hxy
      exact ⟨a, y, hv, ha, hd⟩
    · exact hi.foxz e he

/-! ## The dictionaries of results -/

/-- The dictionary at `a` is owned and has the entries `d`, or it is shared and belongs to the section `k`. -/
def Kind (d : Option Dict) (k : Option FKey) (a : ℕ) (O : Set ℕ) (t : St) : Prop :=
  (∃ d0, d = some d0 ∧ O = {a} ∧ Unshared t a ∧ t.dict a = d0) ∨
  ∃ k0 f, k = some k0 ∧ k0.value = .ok f ∧ O = ∅ ∧ Shared true a f t

theorem Kind.later {d : Option Dict} {k : Option FKey} {a : ℕ} {O : Set ℕ} {s t : St} (h : Kind d k a O s)
    (hr : Rely O s t) : Kind d k a O t := by
  rcases h with ⟨d0, h1, h2, h3, h4⟩ | ⟨k0, f, h1, h2, h3, h4⟩
  · obtain ⟨g1, g2⟩ := hr.own a (by rw [h2]; rfl) h3
    exact Or.inl ⟨d0, h1, h2, g1, g2.trans h4⟩
  · exact Or.inr ⟨k0, f, h1, h2, h3, h4.later hr.none⟩

/-- an update of a shared dictionary -/
theorem shared_step {a : ℕ} {f : Foxz} {s : St} {key : String} {v : Val} (h : Shared true a f s) (hi : Inv true s)
    (hk : key ∉ baseKeys ∨ (key = "f_oz" ∧ v = .num f.foz) ∨ (key = "f_oxz" ∧ v = .num f.foxz)) :
    Inv true { s with inner := s.inner.modify a (Dict.set key v) } ∧
    (∀ O, Rely O s { s with inner := s.inner.modify a (Dict.set key v) }) ∧
    Shared true a f { s with inner := s.inner.modify a (Dict.set key v) } := by
  have hm : MayUpdate true s a key v s := by
    refine ⟨Or.inr h.2.1, fun hb => ?_⟩
    rcases hk with hk | hk
    · exact Or.inl hk
    · exact Or.inr ⟨f, h.1, h.2.2 hb, hk⟩
  exact ⟨hi.modify hm, fun O => Rely.of_eff ((Eff.refl _ _).modify hm) O, shared_modify hm h⟩

theorem RelO.updateShared {R : γ → δ → Set ℕ → St → Prop} {a : ℕ} {g : Foxz} {s : St} (h : Shared true a g s) {key : String}
    {x : Val} (hk : key ∉ baseKeys ∨ (key = "f_oz" ∧ x = .num g.foz) ∨ (key = "f_oxz" ∧ x = .num g.foxz))
    {f : Unit → Proc γ} {v : Py δ}
    (hf : ∀ s', Inv true s' → Shared true a g s' → RelO R (f ()) v ∅ s') :
    RelO R (Proc.step (update a key x) >>= f) v ∅ s := by
  intro s' hs hi ho
  obtain ⟨h1, h2, h3⟩ := shared_step (h.later hs) hi hk
  exact ⟨h1, h2 _, ∅, Set.empty_subset _, Owns.empty _, hf _ h1 h3⟩

/-- an update with a key that `f_oxz` does not use -/
theorem kind_step {d : Option Dict} {k : Option FKey} {a : ℕ} {O : Set ℕ} {s : St} {key : String} {v : Val}
    (h : Kind d k a O s) (hi : Inv true s) (ho : Owns O s) (hk : key ∉ baseKeys) :
    Inv true { s with inner := s.inner.modify a (Dict.set key v) } ∧
    Rely Oᶜ s { s with inner := s.inner.modify a (Dict.set key v) } ∧
    Owns O { s with inner := s.inner.modify a (Dict.set key v) } ∧
    Kind (d.map (Dict.set key v)) k a O { s with inner := s.inner.modify a (Dict.set key v) } := by
  rcases h with ⟨d0, rfl, rfl, h3, h4⟩ | ⟨k0, f, h1, h2, rfl, h4⟩
  · have hu : Unshared { s with inner := s.inner.modify a (Dict.set key v) } a :=
      ⟨by simp only [List.length_modify]; exact h3.1, h3.2⟩
    have hm : MayUpdate true { s with inner := s.inner.take a } a key v s :=
      ⟨Or.inl (by simp), fun _ => Or.inl hk⟩
    refine ⟨hi.modify hm, ⟨?_, List.prefix_rfl, ?_, ?_⟩, ?_, Or.inl ⟨_, rfl, rfl, hu, ?_⟩⟩
    · simp
    · intro c hc hu
      refine ⟨⟨by simp only [List.length_modify]; exact hu.1, hu.2⟩, ?_⟩
      rw [dict_modify, if_neg]
      rintro ⟨rfl, _⟩
      exact hc rfl
    · intro c f hkf hc hd
      exact describes_update hm rfl hkf hd
    · intro c hc
      rw [Set.mem_singleton_iff] at hc
      rw [hc]
      exact hu
    · rw [dict_modify, if_pos ⟨rfl, h3.1⟩, h4]
  · obtain ⟨g1, g2, g3⟩ := shared_step (v := v) h4 hi (Or.inl hk)
    exact ⟨g1, g2 _, Owns.empty _, Or.inr ⟨k0, f, h1, h2, rfl, g3⟩⟩

theorem RelO.updateKind {R : γ → δ → Set ℕ → St → Prop} {d : Option Dict} {k : Option FKey} {a : ℕ} {O : Set ℕ} {s : St}
    (h : Kind d k a O s) {key : String} (x : Val) (hk : key ∉ baseKeys) {f : Unit → Proc γ} {v : Py δ}
    (hf : ∀ s', Inv true s' → Owns O s' → Kind (d.map (Dict.set key x)) k a O s' → RelO R (f ()) v O s') :
    RelO R (Proc.step (update a key x) >>= f) v O s := by
  intro s' hs hi ho
  obtain ⟨h1, h2, h3, h4⟩ := kind_step (v := x) (h.later hs) hi ho hk
  exact ⟨h1, h2, O, Set.subset_union_left, h3, hf _ h1 h3 h4⟩

theorem RelO.updateKind3 {R : γ → δ → Set ℕ → St → Prop} {d : Option Dict} {k : Option FKey} {a : ℕ} {O : Set ℕ} {s : St}
    (h : Kind d k a O s) {k1 k2 k3 : String} (x1 x2 x3 : Val) (hk1 : k1 ∉ baseKeys) (hk2 : k2 ∉ baseKeys)
    (hk3 : k3 ∉ baseKeys) {f : Unit → Proc γ} {v : Py δ}
    (hf : ∀ s', Inv true s' → Owns O s' →
      Kind (((d.map (Dict.set k1 x1)).map (Dict.set k2 x2)).map (Dict.set k3 x3)) k a O s' → RelO R (f ()) v O s') :
    RelO R (Proc.step (do update a k1 x1; update a k2 x2; update a k3 x3) >>= f) v O s := by
  intro s' hs hi ho
  obtain ⟨h1, h2, h3, h4⟩ := kind_step (v := x1) (h.later hs) hi ho hk1
  obtain ⟨i1, i2, i3, i4⟩ := kind_step (v := x2) h4 h1 h3 hk2
  obtain ⟨j1, j2, j3, j4⟩ := kind_step (v := x3) i4 i1 i3 hk3
  exact ⟨j1, h2.trans (i2.trans j2), O, Set.subset_union_left, j3, hf _ j1 j3 j4⟩

/-- reading the dictionary `f_oxz` returned -/
theorem RelO.bindRead {R : γ → δ → Set ℕ → St → Prop} {o : ℕ} {f : Foxz} {s : St} (ho : Holds true s o f)
    {g : ℕ × ℝ → Proc γ} {v : Py δ}
    (h : ∀ a s', Inv true s' → Shared true a f s' → RelO R (g (a, f.foxz)) v ∅ s') :
    RelO R (Proc.step (readOuter o) >>= g) v ∅ s := by
  intro s' hs hi _
  obtain ⟨hk, a, ha, hd⟩ := ho.later hs
  have e : readOuter o s' = (.ok (a, f.foxz), s') := by unfold readOuter; rw [ha]
  simp only [e]
  exact ⟨hi, Rely.refl _ _, ∅, Set.empty_subset _, Owns.empty _,
    h a s' hi ⟨hk, ⟨_, List.mem_of_getElem? ha, rfl⟩, hd⟩⟩

/-- the stress is right, and so is the dictionary -/
def FocPost (d : Option Dict) (k : Option FKey) (r : StressResult) (x : ℝ) (O : Set ℕ) (t : St) : Prop :=
  r.foc = x ∧ Kind d k r.inter O t

theorem focDouble_relO (m : Member) (sym : Symmetry) {s : St} (hi : Inv true s) :
    RelO (FocPost none (some (Member.keyX m))) (focDoubleP m sym)
      (do let f ← focDouble m; let _ ← sym.symmetry; return f) ∅ s := by
  have e : (do let f ← focDouble m; let _ ← sym.symmetry; return f : Py ℝ) = (do
      let f ← (Member.keyX m).value
      let z ← (Member.keyT m).value
      let _ ← sym.symmetry
      return min f.foxz z) := by
    show ((Member.keyX m).value >>= fun f => (Member.keyT m).value >>= fun z => _) >>= _ = _
    cases (Member.keyX m).value <;> cases (Member.keyT m).value <;> cases sym.symmetry <;> rfl
  rw [e]
  unfold focDoubleP
  refine RelO.bind hi (Owns.empty _) (foxz_relO _ _) fun o f O1 s1 hf _ hi1 ho1 ho => ?_
  obtain ⟨h0, rfl⟩ := ho s1 (Rely.refl _ _) hi1 ho1
  refine RelO.bindSame hi1 (tor_relO _ _) fun foz s2 hz h2 hi2 => ?_
  have hfz : foz = f.foz := by
    have := foz_of_value hf
    simp only [Member.keyX] at this
    simp only [Member.keyT] at hz
    rw [hz, Except.ok_inj'] at this
    exact this
  refine RelO.bindRead (h0.later h2) fun a s3 hi3 hs3 => ?_
  refine RelO.updateShared hs3 (Or.inr (Or.inr ⟨rfl, rfl⟩)) fun s4 hi4 hs4 => ?_
  refine RelO.updateShared hs4 (Or.inr (Or.inl ⟨rfl, by rw [hfz]⟩)) fun s5 hi5 hs5 => ?_
  refine RelO.updateShared hs5 (Or.inl (by decide)) fun s6 hi6 hs6 => ?_
  refine RelO.bindLift _ fun k _ => ?_
  refine RelO.updateShared hs6 (Or.inl (by decide)) fun s7 hi7 hs7 => ?_
  exact RelO.ret fun t ht _ _ => ⟨rfl, Or.inr ⟨_, f, rfl, hf, rfl, hs7.later ht⟩⟩

theorem singleTail_relO (k : FKey) (axis : String) (sym : Symmetry) {s : St} (hi : Inv true s) :
    RelO (FocPost none (some k)) (singleTailP k axis sym) (do let f ← k.value; let _ ← sym.symmetry; return f.foxz) ∅ s := by
  unfold singleTailP
  refine RelO.bind hi (Owns.empty _) (foxz_relO _ _) fun o f O1 s1 hf _ hi1 ho1 ho => ?_
  obtain ⟨h0, rfl⟩ := ho s1 (Rely.refl _ _) hi1 ho1
  refine RelO.bindRead h0 fun a s3 hi3 hs3 => ?_
  refine RelO.updateShared hs3 (Or.inl (by decide)) fun s4 hi4 hs4 => ?_
  refine RelO.updateShared hs4 (Or.inr (Or.inr ⟨rfl, rfl⟩)) fun s5 hi5 hs5 => ?_
  refine RelO.bindLift _ fun k _ => ?_
  refine RelO.updateShared hs5 (Or.inl (by decide)) fun s6 hi6 hs6 => ?_
  refine RelO.updateShared hs6 (Or.inl (by decide)) fun s7 hi7 hs7 => ?_
  exact RelO.ret fun t ht _ _ => ⟨rfl, Or.inr ⟨_, f, rfl, hf, rfl, hs7.later ht⟩⟩

theorem focSingle_relO (m : Member) (sym : Symmetry) {s : St} (hi : Inv true s) :
    RelO (FocPost none (if (sym.axes.getD []).any (Axis.isStr "x") then some (Member.keyX m) else some (Member.keyY m)))
      (focSingleP m sym) (focSingle m sym) ∅ s := by
  unfold focSingleP focSingle
  cases hn : sym.symcount with
  | error e => exact fun t _ _ _ => rfl
  | ok n =>
    obtain ⟨k, hk⟩ := symmetry_of_symcount hn
    refine RelO.bindLift _ fun n _ => ?_
    by_cases h1 : n ≠ 1
    · rw [if_pos h1, if_pos h1]
      exact fun t _ _ _ => rfl
    · rw [if_neg h1, if_neg h1]
      split
      · have h := singleTail_relO (Member.keyX m) "x" sym hi
        simp only [hk, Except.bind_ok'] at h
        exact h
      · have h := singleTail_relO (Member.keyY m) "y" sym hi
        simp only [hk, Except.bind_ok'] at h
        exact h

/-- the dictionary of `f_oc_point_symmetric` -/
def pointDict : Dict := [("AS4600 Clause", .str "AS4600 S3.4.4")]

/-- the dictionary of `f_oc_unsymmetric` -/
noncomputable def unsymDict (roots : Roots) (m : Member) : Py Dict := do
  let fox ← fEuler m.E m.lex m.rx
  let foy ← fEuler m.E m.ley m.ry
  let ro ← RKey.value ⟨m.rx, m.ry, m.xo, m.yo⟩
  let foz ← (Member.keyT m).value
  let a := ro ^ 2 - m.xo ^ 2 * m.yo ^ 2
  let b := ro ^ 2 * (fox + foy + foz) - (foy * m.xo ^ 2 + fox * m.yo ^ 2)
  let c := ro ^ 2 * (fox * foy + foy * foz + fox * foz)
  let d := ro ^ 2 * fox * foy * foz
  return [("AS4600 Clause", .str "S3.4.5"), ("Equation", .nums [a, -b, c, -d]),
    ("Solutions", .text (roots a (-b) c (-d))), ("f_ox", .num fox), ("f_oy", .num foy), ("f_oz", .num foz),
    ("a", .num a), ("b", .num b), ("c", .num c), ("d", .num d)]

theorem focPoint_relO (m : Member) {s : St} (hi : Inv true s) :
    RelO (FocPost (some pointDict) none) (focPointP m) (focPoint m) ∅ s := by
  have e : focPoint m = (Member.keyT m).value >>= fun x => pure x := by
    show fEulerTorsion _ _ _ _ _ _ _ _ _ _ = _
    simp only [TKey.value, Member.keyT]
    cases fEulerTorsion m.An m.lez m.rx m.ry m.xo m.yo m.J m.Iw m.E m.G <;> rfl
  rw [e]
  unfold focPointP
  refine RelO.bindSame hi (tor_relO _ _) fun f s1 _ _ _ => ?_
  refine RelO.bindAlloc _ fun a s2 _ hi2 hu2 hd2 => RelO.ret fun t ht _ _ => ⟨rfl, ?_⟩
  have : Kind (some pointDict) none a {a} s2 := Or.inl ⟨_, rfl, rfl, hu2, hd2⟩
  exact this.later ht

theorem focUnsym_relO (roots : Roots) (m : Member) {s : St} (hi : Inv true s) :
    RelO (FocPost (unsymDict roots m).toOption none) (focUnsymP roots m) (focUnsym roots m) ∅ s := by
  have assoc : ∀ {α β γ : Type} (x : Py α) (f : α → Py β) (g : β → Py γ), (x >>= f) >>= g = x >>= fun a => f a >>= g := by
    intro α β γ x f g; cases x <;> rfl
  have e : focUnsym roots m = (do
      let fox ← fEuler m.E m.lex m.rx
      let foy ← fEuler m.E m.ley m.ry
      let ro ← RKey.value ⟨m.rx, m.ry, m.xo, m.yo⟩
      let foz ← (Member.keyT m).value
      let a := ro ^ 2 - m.xo ^ 2 * m.yo ^ 2
      let b := ro ^ 2 * (fox + foy + foz) - (foy * m.xo ^ 2 + fox * m.yo ^ 2)
      let c := ro ^ 2 * (fox * foy + foy * foz + fox * foz)
      let d := ro ^ 2 * fox * foy * foz
      let f ← (match minStress (roots a (-b) c (-d)) with
        | Option.none => .error .exception
        | some z => if z.im = 0 then .ok z.re else .error .outsideModel)
      return f) := by
    unfold focUnsym cubic
    have id' : ∀ v : Py ℝ, (v >>= fun f => pure f) = v := by intro v; cases v <;> rfl
    simp only [assoc, id']
    rfl
  rw [e]
  unfold focUnsymP
  refine RelO.bindLift _ fun fox e1 => ?_
  refine RelO.bindLift _ fun foy e2 => ?_
  refine RelO.bindSame hi (rol_relO ⟨m.rx, m.ry, m.xo, m.yo⟩ _) fun ro s1 e3 _ hi1 => ?_
  refine RelO.bindSame hi1 (tor_relO (Member.keyT m) _) fun foz s2 e4 _ hi2 => ?_
  simp only
  refine RelO.bindLift' _ fun f _ => ?_
  refine RelO.bindAlloc _ fun i s3 _ hi3 hu3 hd3 => RelO.ret fun t ht _ _ => ⟨rfl, ?_⟩
  have : Kind (unsymDict roots m).toOption none i {i} s3 := by
    refine Or.inl ⟨_, ?_, rfl, hu3, hd3⟩
    simp only [unsymDict, e1, e2, e3, e4, Except.bind_ok']
    rfl
  exact this.later ht

/-- the dictionary of the chosen clause when it is not shared -/
noncomputable def focDict (roots : Roots) (m : Member) (sym : Symmetry) : Option Dict :=
  match sym.symmetry with
  | .ok .point => some pointDict
  | .ok .none => (unsymDict roots m).toOption
  | _ => none

theorem foc_relO (roots : Roots) (m : Member) (sym : Symmetry) {s : St} (hi : Inv true s) :
    RelO (FocPost (focDict roots m sym) (sectionOf m sym)) (focP roots m sym) (foc roots m sym) ∅ s := by
  unfold focP foc focDict sectionOf
  cases hk : sym.symmetry with
  | error e => exact fun t _ _ _ => rfl
  | ok k =>
    refine RelO.bindLift _ fun k' hk' => ?_
    injection hk' with hk'
    subst hk'
    cases k with
    | double =>
      have h := focDouble_relO m sym hi
      have e : (do let f ← focDouble m; let _ ← sym.symmetry; return f : Py ℝ) = focDouble m := by
        rw [hk]; cases focDouble m <;> rfl
      rw [e] at h
      exact h
    | single => exact focSingle_relO m sym hi
    | point => exact focPoint_relO m hi
    | none => exact focUnsym_relO roots m hi

/-- the dictionary of `s6_3_3_N_c_torsion` when it is not shared -/
noncomputable def ncTorsionDict (roots : Roots) (m : Member) (kf fy : ℝ) (sym : Symmetry) (unc : ℝ) : Option Dict := do
  let d ← focDict roots m sym
  let t ← (NcTorsion roots m kf fy sym unc).toOption
  return Dict.set "f_n" (.num t.fn) (Dict.set "λ_c" (.num t.lambdaC) (Dict.set "f_oc" (.num t.foc) d))

theorem ncTorsion_relO (roots : Roots) (m : Member) (kf fy : ℝ) (sym : Symmetry) (unc : ℝ) {s : St} (hi : Inv true s) :
    RelO (fun r t O u => r.Ncz = t.Ncz ∧ Kind (ncTorsionDict roots m kf fy sym unc) (sectionOf m sym) r.inter O u)
      (NcTorsionP roots m kf fy sym unc) (NcTorsion roots m kf fy sym unc) ∅ s := by
  have hdef : NcTorsion roots m kf fy sym unc = (do
    let x ← foc roots m sym
    let p ← columnCurve fy x
    return (⟨unc * Ae m.An kf * p.2, x, p.1, p.2⟩ : Torsional)) := rfl
  have hd := hdef
  generalize hv : NcTorsion roots m kf fy sym unc = v at *
  rw [hdef]
  unfold NcTorsionP
  refine RelO.bind hi (Owns.empty _) (foc_relO roots m sym hi) fun r x O1 s1 hx _ hi1 ho1 hr => ?_
  obtain ⟨rfl, hkind⟩ := hr s1 (Rely.refl _ _) hi1 ho1
  refine RelO.bindLift _ fun p hp => ?_
  simp only [hx, hp, Except.bind_ok'] at hd
  refine RelO.updateKind3 hkind _ _ _ (by decide) (by decide) (by decide) fun s2 hi2 ho2 hk2 => ?_
  refine RelO.ret fun t ht _ _ => ⟨rfl, ?_⟩
  have e : ncTorsionDict roots m kf fy sym unc = (((focDict roots m sym).map (Dict.set "f_oc" (.num r.foc))).map
      (Dict.set "λ_c" (.num p.1))).map (Dict.set "f_n" (.num p.2)) := by
    unfold ncTorsionDict
    rw [hv, hd]
    cases focDict roots m sym <;> rfl
  rw [e]
  exact hk2.later ht

/-- the dictionary of `s6_1_1_Nc` when it is not shared -/
noncomputable def ncDict (roots : Roots) (a : NcArgs) : Option Dict := do
  let d ← ncTorsionDict roots a.member a.kf a.fy a.sym a.uncertainty
  let t ← (NcTorsion roots a.member a.kf a.fy a.sym a.uncertainty).toOption
  return Dict.set "N_cz_buckling" (.num t.Ncz) d

theorem nc_relO (roots : Roots) (a : NcArgs) {s : St} (hi : Inv true s) :
    RelO (fun r x O u => r.1 = x ∧ (a.calcBuckling = true ∧ a.calcTorsion = true → ∃ i, r.2 = some i) ∧ ∀ i, r.2 = some i → Kind (ncDict roots a) (sectionOf a.member a.sym) i O u)
      (NcP roots a) (Nc roots a) ∅ s := by
  unfold NcP Nc
  simp only
  by_cases hb : a.calcBuckling = true
  · rw [if_pos hb, if_pos hb]
    refine RelO.bindLift _ fun bx _ => ?_
    refine RelO.bindLift _ fun bY _ => ?_
    by_cases ht : a.calcTorsion = true
    · rw [if_pos ht, if_pos ht]
      refine RelO.bind hi (Owns.empty _) (ncTorsion_relO roots a.member a.kf a.fy a.sym a.uncertainty hi)
        fun t t' O1 s1 hv _ hi1 ho1 ht => ?_
      obtain ⟨e, hkind⟩ := ht s1 (Rely.refl _ _) hi1 ho1
      rw [← e]
      refine RelO.updateKind hkind _ (by decide) fun s2 hi2 ho2 hk2 => ?_
      refine RelO.ret fun u hu _ _ => ⟨rfl, fun _ => ⟨_, rfl⟩, fun i hi => ?_⟩
      rw [← Option.some.inj hi]
      have e' : ncDict roots a = (ncTorsionDict roots a.member a.kf a.fy a.sym a.uncertainty).map
          (Dict.set "N_cz_buckling" (.num t.Ncz)) := by
        unfold ncDict
        rw [hv, e]
        cases ncTorsionDict roots a.member a.kf a.fy a.sym a.uncertainty <;> rfl
      rw [e']
      exact hk2.later hu
    · rw [if_neg ht, if_neg ht]
      exact RelO.ret fun t _ _ _ => ⟨rfl, fun h => (ht h.2).elim, fun i hi => by cases hi⟩
  · rw [if_neg hb, if_neg hb]
    exact RelO.ret fun t _ _ _ => ⟨rfl, fun h => (hb h.1).elim, fun i hi => by cases hi⟩

/-- the dictionary of a call when it is not shared -/
noncomputable def callDict (roots : Roots) : Call → Option Dict
  | .focPoint _ => some pointDict
  | .focUnsym m => (unsymDict roots m).toOption
  | .ncTorsion m kf fy sym unc => ncTorsionDict roots m kf fy sym unc
  | .nc a => ncDict roots a
  | _ => none

/-- what is known about the dictionary of an answer -/
def CallPost (roots : Roots) (c : Call) (r : Answer) (O : Set ℕ) (u : St) : Prop :=
  (c.gives → ∃ i, r.inter = some i) ∧ ∀ i, r.inter = some i → Kind (callDict roots c) c.section i O u

theorem proc_relO (roots : Roots) (c : Call) {s : St} (hi : Inv true s) :
    RelO (fun r (_ : Numbers) O u => CallPost roots c r O u) (c.proc roots) (c.value roots) ∅ s := by
  have hmap : ∀ {α β : Type} (f : α → β) (x : Py α), x.map f = x >>= fun a => pure (f a) := by
    intro α β f x; cases x <;> rfl
  cases c with
  | rol k =>
    simp only [Call.proc, Call.value, hmap]
    exact RelO.bindSame hi (rol_relO k s) fun a s1 _ _ _ => RelO.ret fun t _ _ _ => ⟨fun h => h.elim, fun i hi => by cases hi⟩
  | torsionStress k =>
    simp only [Call.proc, Call.value, hmap]
    exact RelO.bindSame hi (tor_relO k s) fun a s1 _ _ _ => RelO.ret fun t _ _ _ => ⟨fun h => h.elim, fun i hi => by cases hi⟩
  | foxz k =>
    simp only [Call.proc, Call.value, hmap]
    refine RelO.bind hi (Owns.empty _) (foxz_relO k s) fun o f O1 s1 hf _ hi1 ho1 ho => ?_
    obtain ⟨h0, rfl⟩ := ho s1 (Rely.refl _ _) hi1 ho1
    refine RelO.bindRead h0 fun a s2 hi2 hs2 => RelO.ret fun t ht _ _ => ⟨fun _ => ⟨_, rfl⟩, fun i hi => ?_⟩
    rw [← Option.some.inj hi]
    exact Or.inr ⟨k, f, rfl, hf, rfl, hs2.later ht⟩
  | focDouble m sym =>
    simp only [Call.proc, Call.value]
    have h := focDouble_relO m sym hi
    have e : (do let f ← focDouble m; let _ ← sym.symmetry; return Numbers.num f : Py Numbers) =
        (do let f ← focDouble m; let _ ← sym.symmetry; return f : Py ℝ) >>= fun f => pure (Numbers.num f) := by
      cases focDouble m <;> cases sym.symmetry <;> rfl
    rw [e]
    refine RelO.bind hi (Owns.empty _) h fun r x O1 s1 _ _ hi1 ho1 hr => RelO.ret fun t ht hit hot => ⟨fun _ => ⟨_, rfl⟩, fun i hi => ?_⟩
    rw [← Option.some.inj hi]
    exact (hr t ht hit hot).2
  | focSingle m sym =>
    simp only [Call.proc, Call.value, hmap]
    refine RelO.bind hi (Owns.empty _) (focSingle_relO m sym hi) fun r x O1 s1 _ _ hi1 ho1 hr =>
      RelO.ret fun t ht hit hot => ⟨fun _ => ⟨_, rfl⟩, fun i hi => ?_⟩
    rw [← Option.some.inj hi]
    exact (hr t ht hit hot).2
  | focPoint m =>
    simp only [Call.proc, Call.value, hmap]
    refine RelO.bind hi (Owns.empty _) (focPoint_relO m hi) fun r x O1 s1 _ _ hi1 ho1 hr =>
      RelO.ret fun t ht hit hot => ⟨fun _ => ⟨_, rfl⟩, fun i hi => ?_⟩
    rw [← Option.some.inj hi]
    exact (hr t ht hit hot).2
  | focUnsym m =>
    simp only [Call.proc, Call.value, hmap]
    refine RelO.bind hi (Owns.empty _) (focUnsym_relO roots m hi) fun r x O1 s1 _ _ hi1 ho1 hr =>
      RelO.ret fun t ht hit hot => ⟨fun _ => ⟨_, rfl⟩, fun i hi => ?_⟩
    rw [← Option.some.inj hi]
    exact (hr t ht hit hot).2
  | ncTorsion m kf fy sym unc =>
    simp only [Call.proc, Call.value, hmap]
    refine RelO.bind hi (Owns.empty _) (ncTorsion_relO roots m kf fy sym unc hi) fun r x O1 s1 _ _ hi1 ho1 hr =>
      RelO.ret fun t ht hit hot => ⟨fun _ => ⟨_, rfl⟩, fun i hi => ?_⟩
    rw [← Option.some.inj hi]
    exact (hr t ht hit hot).2
  | nc a =>
    simp only [Call.proc, Call.value, hmap]
    refine RelO.bind hi (Owns.empty _) (nc_relO roots a hi) fun r x O1 s1 _ _ hi1 ho1 hr =>
      RelO.ret fun t ht hit hot => (hr t ht hit hot).2

/-! ## Threads and pools -/

/-- what is known about the dictionaries of the answers of a thread -/
def ThreadPost (roots : Roots) (cs : List Call) (rs : List (Py Answer)) (O : Set ℕ) (u : St) : Prop :=
  ∀ (j : ℕ) c r i, cs[j]? = some c → rs[j]? = some (.ok r) → r.inter = some i →
    ∃ O1, O1 ⊆ O ∧ Kind (callDict roots c) c.section i O1 u

/-- which calls return a dictionary -/
def Returned (cs : List Call) (rs : List (Py Answer)) : Prop :=
  ∀ (j : ℕ) c r, cs[j]? = some c → rs[j]? = some (.ok r) → c.gives → ∃ i, r.inter = some i

/-- the dictionary of a call that does not use the cache is not the dictionary of another call -/
def Apart (cs : List Call) (rs : List (Py Answer)) : Prop :=
  ∀ (j j' : ℕ) c c' r r' i, cs[j]? = some c → cs[j']? = some c' → c.unshared →
    rs[j]? = some (.ok r) → rs[j']? = some (.ok r') → r.inter = some i → r'.inter = some i → j = j'

theorem section_unshared {c : Call} (h : c.unshared) : c.section = none := by
  cases c with
  | focPoint m => rfl
  | focUnsym m => rfl
  | ncTorsion m kf fy sym unc => rcases h with h | h <;> simp only [Call.section, sectionOf, h]
  | nc a => rcases h with h | h <;> simp only [Call.section, sectionOf, h]
  | _ => exact h.elim

/-- the dictionary of a call that does not use the cache is owned -/
theorem Kind.own {roots : Roots} {c : Call} (h : c.unshared) {a : ℕ} {O : Set ℕ} {t : St}
    (hk : Kind (callDict roots c) c.section a O t) : O = {a} ∧ Unshared t a ∧ callDict roots c = some (t.dict a) := by
  rcases hk with ⟨d0, h1, h2, h3, h4⟩ | ⟨k0, f, h1, _⟩
  · exact ⟨h2, h3, by rw [h1, h4]⟩
  · rw [section_unshared h] at h1; cases h1

/-- a dictionary that is not in the cache is owned -/
theorem Kind.own' {d : Option Dict} {k : Option FKey} {a : ℕ} {O : Set ℕ} {t : St} (hk : Kind d k a O t)
    (h : Unshared t a) : O = {a} := by
  rcases hk with ⟨d0, h1, h2, h3, h4⟩ | ⟨k0, f, _, _, _, _, ⟨p, hp, hpa⟩, _⟩
  · exact h2
  · exact (h.2 p hp hpa).elim

/-- what is known when a thread has ended -/
def ThreadEnd (roots : Roots) (cs : List Call) (r : Py (List (Py Answer))) (O : Set ℕ) (u : St) : Prop :=
  ∃ rs, r = .ok rs ∧ ThreadPost roots cs rs O u ∧ Apart cs rs ∧ Returned cs rs

theorem thread_sure (roots : Roots) (cs : List Call) {s : St} (hi : Inv true s) :
    Sure (ThreadEnd roots cs) (threadP roots cs) ∅ s := by
  induction cs generalizing s with
  | nil => exact fun t _ _ _ => ⟨[], rfl, fun j c r i hc => by simp at hc, fun j j' c c' r r' i hc => by simp at hc,
      fun j c r hc => by simp at hc⟩
  | cons c cs ih =>
    unfold threadP
    refine Sure.bind hi (Owns.empty _) (Sure.attempt (proc_relO roots c hi)) ?_ ?_
    · rintro e O' s' ⟨r', h, _⟩
      cases h
    · intro r O1 s1 _ hi1 ho1 hr
      have h2 := Sure.frame (F := O1) (O := ∅) ho1 (fun _ _ h => h) (ih hi1)
      rw [Set.empty_union] at h2
      refine Sure.bind hi1 ho1 h2 ?_ ?_
      · rintro e O' s' ⟨O2, _, _, ⟨rs, h, _⟩, _⟩
        cases h
      · intro rs O2 s2 _ hi2 ho2 hrs t ht hit hot
        obtain ⟨O3, rfl, hd, ⟨rs', h3, h4, h6, h7⟩, h5⟩ := hrs t ht hit hot
        injection h3 with h3
        subst h3
        have post : ∀ r', r = .ok r' → CallPost roots c r' O1 s1 := by
          intro r' hr'
          subst hr'
          obtain ⟨r'', e, hr2⟩ := hr s1 (Rely.refl _ _) hi1 ho1
          injection e with e
          subst e
          cases hv : c.value roots with
          | error e => rw [hv] at hr2; exact hr2.elim
          | ok x =>
            rw [hv] at hr2
            exact hr2
        have first : ∀ r' i, r = .ok r' → r'.inter = some i → Kind (callDict roots c) c.section i O1 t :=
          fun r' i hr' hi' => ((post r' hr').2 i hi').later h5
        refine ⟨_, rfl, ?_, ?_, ?_⟩
        · intro j c' r' i hc hr' hi'
          cases j with
          | succ j =>
            obtain ⟨O4, g1, g2⟩ := h4 j c' r' i hc hr' hi'
            exact ⟨O4, g1.trans Set.subset_union_left, g2⟩
          | zero =>
            simp only [List.getElem?_cons_zero, Option.some.injEq] at hc hr'
            subst hc
            exact ⟨O1, Set.subset_union_right, first r' i hr' hi'⟩
        · have other : ∀ (j : ℕ) (c' : Call) (r' r'' : Answer) (i : ℕ), c.unshared ∨ c'.unshared → cs[j]? = some c' →
              r = .ok r' → rs[j]? = some (.ok r'') → r'.inter = some i → r''.inter = some i → False := by
            intro j c' r' r'' i hu hc hr' hr'' hi' hi''
            have g := first r' i hr' hi'
            obtain ⟨O4, g1, g2⟩ := h4 j c' r'' i hc hr'' hi''
            have hun : Unshared t i := by
              rcases hu with hu | hu
              · exact (g.own hu).2.1
              · exact (g2.own hu).2.1
            exact hd i (by rw [g.own' hun]; rfl) (g1 (by rw [g2.own' hun]; rfl))
          intro j j' c1 c2 r1 r2 i hc1 hc2 hu1 hr1 hr2 hi1' hi2'
          cases j with
          | zero =>
            simp only [List.getElem?_cons_zero, Option.some.injEq] at hc1 hr1
            subst hc1
            cases j' with
            | zero => rfl
            | succ j' => exact (other j' c2 r1 r2 i (Or.inl hu1) hc2 hr1 hr2 hi1' hi2').elim
          | succ j =>
            cases j' with
            | zero =>
              simp only [List.getElem?_cons_zero, Option.some.injEq] at hc2 hr2
              subst hc2
              exact (other j c1 r2 r1 i (Or.inr hu1) hc1 hr2 hr1 hi2' hi1').elim
            | succ j' => rw [h6 j j' c1 c2 r1 r2 i hc1 hc2 hu1 hr1 hr2 hi1' hi2']
        · intro j c' r' hc hr' hg
          cases j with
          | succ j => exact h7 j c' r' hc hr' hg
          | zero =>
            simp only [List.getElem?_cons_zero, Option.some.injEq] at hc hr'
            subst hc
            exact (post r' hr').1 hg

/-- without interruption -/
theorem Sure.alone {Q : Py α → Set ℕ → St → Prop} {p : Proc α} {O : Set ℕ} {s : St} (h : Sure Q p O s)
    (hi : Inv true s) (ho : Owns O s) : ∃ O', Q (p.alone s).1 O' (p.alone s).2 := by
  induction p generalizing s O with
  | done r => exact ⟨O, h s (Rely.refl _ _) hi ho⟩
  | more act next ih =>
    obtain ⟨h1, h2, O', h3, h4, h5⟩ := h s (Rely.refl _ _) hi ho
    exact ih s h5 h1 h4

/-- every thread is where its calls lead, and owns dictionaries no other thread owns -/
def OwnPool (roots : Roots) (cs : List (List Call)) (p : Pool) : Prop :=
  ∃ Os : ℕ → Set ℕ, (∀ i j, i ≠ j → ∀ a ∈ Os i, a ∉ Os j) ∧ Inv true p.st ∧ (∀ i, Owns (Os i) p.st) ∧
    ∀ (i : ℕ) t, p.threads[i]? = some t → ∃ l : List Call, cs[i]? = some l ∧
      Sure (ThreadEnd roots l) t (Os i) p.st

theorem quiet_step (roots : Roots) {e : Event} (he : e.isQuiet) {s : St} (h : Inv true s) :
    Inv true (e.step roots s) ∧ ∀ O, Rely O s (e.step roots s) := by
  cases e with
  | call c =>
    have hc := exec_tri (s0 := s) roots c s h (Eff.refl _ _) trivial
    exact ⟨hc.1, Rely.of_eff hc.2.1⟩
  | write a k v => exact he.elim
  | delete a k => exact he.elim
  | writeOuter o f => exact he.elim
  | clearRol => exact ⟨⟨fun _ h' => (by cases h'), h.tor, h.foxz, h.outer⟩, fun O => Rely.caches rfl rfl⟩
  | clearTor => exact ⟨⟨h.rol, fun _ h' => (by cases h'), h.foxz, h.outer⟩, fun O => Rely.caches rfl rfl⟩
  | clearFoxz => exact ⟨⟨h.rol, h.tor, fun _ h' => (by cases h'), h.outer⟩, fun O => Rely.caches rfl rfl⟩

theorem quiet_run (roots : Roots) (es : List Event) (he : ∀ e ∈ es, e.isQuiet) {s : St} (h : Inv true s) :
    Inv true (runEvents roots es s) := by
  induction es generalizing s with
  | nil => exact h
  | cons e es ih =>
    exact ih (fun x hx => he x (List.mem_cons_of_mem _ hx)) (quiet_step roots (he e List.mem_cons_self) h).1

theorem ownPool_step (roots : Roots) {cs : List (List Call)} {p : Pool} (h : OwnPool roots cs p) {t : Tick}
    (ht : t.isQuiet) : OwnPool roots cs (t.step roots p) := by
  obtain ⟨Os, hd, hi, ho, hs⟩ := h
  cases t with
  | other e =>
    obtain ⟨g1, g2⟩ := quiet_step roots ht hi
    refine ⟨Os, hd, g1, fun i => (ho i).later (g2 _), fun i t hit => ?_⟩
    obtain ⟨l, h1, h2⟩ := hs i t hit
    exact ⟨l, h1, h2.later (g2 _)⟩
  | run i =>
    simp only [Tick.step]
    cases hit : p.threads[i]? with
    | none => exact ⟨Os, hd, hi, ho, hs⟩
    | some q =>
      cases q with
      | done r => exact ⟨Os, hd, hi, ho, hs⟩
      | more act next =>
        obtain ⟨l, hl, hsure⟩ := hs i _ hit
        obtain ⟨h1, h2, O', h3, h4, h5⟩ := hsure p.st (Rely.refl _ _) hi (ho i)
        have hr : ∀ j, j ≠ i → Rely (Os j) p.st (act p.st) := fun j hj => h2.sub fun a ha => hd j i hj a ha
        have hnew : ∀ j, j ≠ i → ∀ a ∈ O', a ∉ Os j := by
          intro j hj a ha hc
          rcases h3 ha with ha | ha
          · exact hd i j (Ne.symm hj) a ha hc
          · have h6 := (ho j a hc).1
            have h7 : p.st.inner.length ≤ a := ha
            omega
        refine ⟨fun j => if j = i then O' else Os j, ?_, h1, ?_, ?_⟩
        · intro j k hjk a ha
          simp only at ha ⊢
          by_cases hj : j = i
          · rw [if_pos hj] at ha
            have hk : k ≠ i := fun hk => hjk (hj.trans hk.symm)
            rw [if_neg hk]
            exact hnew k hk a ha
          · rw [if_neg hj] at ha
            by_cases hk : k = i
            · rw [if_pos hk]
              exact fun hc => hnew j hj a hc ha
            · rw [if_neg hk]
              exact hd j k hjk a ha
        · intro j
          simp only
          by_cases hj : j = i
          · rw [if_pos hj]; exact h4
          · rw [if_neg hj]; exact (ho j).later (hr j hj)
        · intro j t hjt
          simp only
          by_cases hj : j = i
          · subst hj
            rw [if_pos rfl]
            have hlt : j < p.threads.length := (List.getElem?_eq_some_iff.1 hit).1
            simp only [List.getElem?_set, if_true, hlt, Option.some.injEq] at hjt
            subst hjt
            exact ⟨l, hl, h5⟩
          · rw [if_neg hj]
            simp only [List.getElem?_set, Ne.symm hj, if_false] at hjt
            obtain ⟨l', g1, g2⟩ := hs j t hjt
            exact ⟨l', g1, g2.later (hr j hj)⟩

theorem ownPool_run (roots : Roots) {cs : List (List Call)} (ts : List Tick) {p : Pool} (h : OwnPool roots cs p)
    (hq : ∀ t ∈ ts, t.isQuiet) : OwnPool roots cs (runTicks roots ts p) := by
  induction ts generalizing p with
  | nil => exact h
  | cons t ts ih =>
    exact ih (ownPool_step roots h (hq t List.mem_cons_self)) fun x hx => hq x (List.mem_cons_of_mem _ hx)

theorem ownPool_start (roots : Roots) (cs : List (List Call)) {s : St} (h : Inv true s) :
    OwnPool roots cs (Pool.start roots s cs) := by
  refine ⟨fun _ => ∅, fun i j _ a ha => ha.elim, h, fun i => Owns.empty _, fun i t hi => ?_⟩
  simp only [Pool.start, List.getElem?_map, Option.map_eq_some_iff] at hi
  obtain ⟨l, hl, rfl⟩ := hi
  exact ⟨l, hl, thread_sure roots l h⟩

/-- a call that is not interrupted -/
theorem exec_kind (roots : Roots) (c : Call) {s s' : St} {r : Answer} {i : ℕ} (h : Inv true s)
    (he : c.exec roots s = (.ok r, s')) (hr : r.inter = some i) :
    ∃ O, Kind (callDict roots c) c.section i O s' := by
  have hs := (proc_relO roots c h).alone h (Owns.empty _)
  rw [proc_alone, he] at hs
  obtain ⟨O', hs⟩ := hs
  cases hv : c.value roots with
  | error e => rw [hv] at hs; exact hs.elim
  | ok x =>
    rw [hv] at hs
    exact ⟨O', hs.2 i hr⟩

end BeamDesign.S6
