import Verif.Spec.S6Cache
import Verif.Lemmas.Real
import Mathlib.Tactic.SplitIfs

/-!
# Reasoning about the caches of section 6
-/

set_option linter.unusedSimpArgs false

namespace BeamDesign.S6

/-! ## The cache -/

theorem lruGet_some {κ β : Type} {k : κ} {c c' : List (κ × β)} {v : β} (h : lruGet k c = some (v, c')) :
    (k, v) ∈ c ∧ ∀ e ∈ c', e ∈ c := by
  classical
  unfold lruGet at h
  split at h
  · rename_i e he
    injection h with h
    rw [Prod.mk.injEq] at h
    obtain ⟨h1, h2⟩ := h
    have hk := List.find?_some he
    have hm := List.mem_of_find?_eq_some he
    simp only [decide_eq_true_eq] at hk
    refine ⟨?_, ?_⟩
    · rw [← hk, ← h1]; exact hm
    · intro x hx
      rw [← h2] at hx
      rcases List.mem_cons.1 hx with rfl | hx
      · exact hm
      · exact (List.mem_filter.1 hx).1
  · cases h

theorem mem_lruPut {κ β : Type} {k : κ} {v : β} {c : List (κ × β)} {e : κ × β} (h : e ∈ lruPut k v c) :
    e = (k, v) ∨ e ∈ c := by
  rcases List.mem_cons.1 h with h | h
  · exact Or.inl h
  · exact Or.inr (List.mem_of_mem_take h)

/-! ## Dictionaries -/

theorem Dict.get_set (k k' : String) (v : Val) (d : Dict) :
    (d.set k v).get k' = if k' = k then some v else d.get k' := by
  induction d with
  | nil =>
    simp only [Dict.set, Dict.get]
    by_cases h : k' = k
    · simp [h]
    · simp [h, Ne.symm h]
  | cons e d ih =>
    obtain ⟨k0, v0⟩ := e
    simp only [Dict.set]
    by_cases h0 : k0 = k
    · rw [if_pos h0]
      simp only [Dict.get]
      by_cases h : k' = k
      · simp [h]
      · rw [h0, if_neg (Ne.symm h), if_neg (Ne.symm h), if_neg h]
    · rw [if_neg h0]
      simp only [Dict.get]
      by_cases h1 : k0 = k'
      · subst h1; simp [h0]
      · rw [if_neg h1, if_neg h1, ih]

/-- the keys a documented entry of `f_oxz` has -/
def baseKeys : List String := ["β", "f_ox", "f_oz", "r_x", "r_y", "x_o", "y_o", "r_ol", "f_oxz"]

theorem Dict.Describes.set {d : Dict} {f : Foxz} (h : Dict.Describes d f) (k : String) (v : Val)
    (hk : k ∉ baseKeys ∨ (k = "f_oz" ∧ v = .num f.foz) ∨ (k = "f_oxz" ∧ v = .num f.foxz)) :
    Dict.Describes (Dict.set k v d) f := by
  obtain ⟨h1, h2, h3, h4, h5, h6, h7, h8, h9⟩ := h
  rcases hk with hk | ⟨rfl, rfl⟩ | ⟨rfl, rfl⟩
  · simp only [baseKeys, List.mem_cons, List.not_mem_nil, or_false, not_or] at hk
    obtain ⟨n1, n2, n3, n4, n5, n6, n7, n8, n9⟩ := hk
    unfold Dict.Describes
    simp only [Dict.get_set, if_neg (Ne.symm n1), if_neg (Ne.symm n2), if_neg (Ne.symm n3), if_neg (Ne.symm n4),
      if_neg (Ne.symm n5), if_neg (Ne.symm n6), if_neg (Ne.symm n7), if_neg (Ne.symm n8), if_neg (Ne.symm n9)]
    exact ⟨h1, h2, h3, h4, h5, h6, h7, h8, h9⟩
  · unfold Dict.Describes
    simp only [Dict.get_set]
    simp [h1, h2, h4, h5, h6, h7, h8, h9]
  · unfold Dict.Describes
    simp only [Dict.get_set]
    simp [h1, h2, h3, h4, h5, h6, h7, h8]

theorem dict_modify (s : St) (a b : ℕ) (g : Dict → Dict) :
    St.dict { s with inner := s.inner.modify a g } b =
      if a = b ∧ b < s.inner.length then g (s.dict b) else s.dict b := by
  unfold St.dict
  simp only [List.getElem?_modify]
  by_cases hb : b < s.inner.length
  · rw [List.getElem?_eq_getElem hb]
    by_cases h : a = b
    · simp [h, hb]
    · simp [h]
  · rw [List.getElem?_eq_none (not_lt.1 hb)]
    by_cases h : a = b <;> simp [h, hb]

/-! ## The invariant and the effect of library code -/

/-- What every cache entry satisfies; with `b` also that the shared dictionaries describe their section. -/
structure Inv (b : Bool) (s : St) : Prop where
  rol : ∀ e ∈ s.cRol, e.1.value = .ok e.2
  tor : ∀ e ∈ s.cTor, e.1.value = .ok e.2
  foxz : ∀ e ∈ s.cFoxz, ∃ a f, e.1.value = .ok f ∧ s.outer[e.2]? = some (a, f.foxz) ∧
    (b = true → (s.dict a).Describes f)
  outer : ∀ p ∈ s.outer, p.1 < s.inner.length

/-- `a` is not the address of a shared dictionary -/
def Unshared (s : St) (a : ℕ) : Prop := a < s.inner.length ∧ ∀ p ∈ s.outer, p.1 ≠ a

/-- what library code may have changed since `s0` -/
structure Eff (b : Bool) (s0 s : St) : Prop where
  len : s0.inner.length ≤ s.inner.length
  outer : s0.outer <+: s.outer
  unshared : ∀ a, Unshared s0 a → Unshared s a ∧ s.dict a = s0.dict a
  base : b = true → ∀ a f, (∃ k : FKey, k.value = .ok f) → a < s0.inner.length → (s0.dict a).Describes f →
    (s.dict a).Describes f

theorem Eff.refl (b : Bool) (s : St) : Eff b s s :=
  ⟨le_rfl, List.prefix_rfl, fun _ h => ⟨h, rfl⟩, fun _ _ _ _ _ h => h⟩

/-- the outcomes agree -/
def Agree {α β : Type} (R : α → β → Prop) : Py α → Py β → Prop
  | .ok a, .ok b => R a b
  | .error e, .error e' => e = e'
  | _, _ => False

/-- Started in a good state satisfying `P`, `x` ends in a good state with the outcome of `p`, and `R`. -/
def Tri {α β : Type} (b : Bool) (s0 : St) (P : St → Prop) (x : M α) (p : Py β) (R : α → β → St → Prop) : Prop :=
  ∀ s, Inv b s → Eff b s0 s → P s →
    Inv b (x s).2 ∧ Eff b s0 (x s).2 ∧ Agree (fun a c => R a c (x s).2) (x s).1 p

variable {b : Bool} {s0 : St} {α β γ δ : Type}

theorem Tri.bind {P : St → Prop} {x : M α} {p : Py β} {R : α → β → St → Prop} {f : α → M γ} {g : β → Py δ}
    {R' : γ → δ → St → Prop} (hx : Tri b s0 P x p R) (hf : ∀ a c, Tri b s0 (R a c) (f a) (g c) R') :
    Tri b s0 P (x >>= f) (p >>= g) R' := by
  intro s hi he hp
  obtain ⟨h1, h2, h3⟩ := hx s hi he hp
  have e : (x >>= f) s = M.andThen x f s := rfl
  rw [e]
  unfold M.andThen
  rcases hxs : x s with ⟨r, s'⟩
  rw [hxs] at h1 h2 h3
  cases r with
  | error err =>
    cases p with
    | error err' => exact ⟨h1, h2, h3⟩
    | ok c => exact h3.elim
  | ok a =>
    cases p with
    | error err' => exact h3.elim
    | ok c => exact hf a c s' h1 h2 h3

theorem Tri.ret {P : St → Prop} {a : α} {c : β} {R : α → β → St → Prop} (h : ∀ s, P s → R a c s) :
    Tri b s0 P (pure a : M α) (pure c : Py β) R :=
  fun s hi he hp => ⟨hi, he, h s hp⟩

theorem Tri.lift {P : St → Prop} (p : Py α) : Tri b s0 P (M.lift p) p (fun a c s => a = c ∧ P s) := by
  intro s hi he hp
  refine ⟨hi, he, ?_⟩
  show Agree _ p p
  cases p with
  | error e => exact rfl
  | ok a => exact ⟨rfl, hp⟩

theorem Tri.weaken {P P' : St → Prop} {x : M α} {p : Py β} {R R' : α → β → St → Prop}
    (h : Tri b s0 P x p R) (hP : ∀ s, P' s → P s) (hR : ∀ a c s, R a c s → R' a c s) : Tri b s0 P' x p R' := by
  intro s hi he hp
  obtain ⟨h1, h2, h3⟩ := h s hi he (hP s hp)
  refine ⟨h1, h2, ?_⟩
  rcases hx : (x s).1 with e | a <;> rcases p with e' | c <;> rw [hx] at h3
  · exact h3
  · exact h3
  · exact h3
  · exact hR _ _ _ h3

/-- a property of states only the heap of dictionaries matters for -/
def HeapOnly (P : St → Prop) : Prop := ∀ s s', s'.inner = s.inner → s'.outer = s.outer → P s → P s'

theorem Eff.heap {s s' : St} (h : Eff b s0 s) (h1 : s'.inner = s.inner) (h2 : s'.outer = s.outer) : Eff b s0 s' := by
  have hd : ∀ a, s'.dict a = s.dict a := fun a => by unfold St.dict; rw [h1]
  refine ⟨by rw [h1]; exact h.len, by rw [h2]; exact h.outer, fun a ha => ?_, fun hb a f hk ha hf => ?_⟩
  · obtain ⟨u, e⟩ := h.unshared a ha
    refine ⟨⟨by rw [h1]; exact u.1, by rw [h2]; exact u.2⟩, by rw [hd]; exact e⟩
  · rw [hd]; exact h.base hb a f hk ha hf

theorem Inv.setRol {s : St} (h : Inv b s) {c : List (RKey × ℝ)} (hc : ∀ e ∈ c, e.1.value = .ok e.2) :
    Inv b { s with cRol := c } := ⟨hc, h.tor, h.foxz, h.outer⟩

theorem Inv.setTor {s : St} (h : Inv b s) {c : List (TKey × ℝ)} (hc : ∀ e ∈ c, e.1.value = .ok e.2) :
    Inv b { s with cTor := c } := ⟨h.rol, hc, h.foxz, h.outer⟩

theorem rolM_tri (k : RKey) {P : St → Prop} (hP : HeapOnly P) :
    Tri b s0 P (rolM k) k.value (fun a c s => a = c ∧ P s) := by
  intro s hi he hp
  simp only [rolM, cached]
  cases hl : lruGet k s.cRol with
  | some vc =>
    obtain ⟨v, c⟩ := vc
    obtain ⟨h1, h2⟩ := lruGet_some hl
    refine ⟨hi.setRol fun e he => hi.rol e (h2 e he), he.heap rfl rfl, ?_⟩
    have := hi.rol _ h1
    simp only at this
    rw [this]
    exact ⟨rfl, hP s _ rfl rfl hp⟩
  | none =>
    have hv : k.value = rsqrt (k.rx * k.rx + k.ry * k.ry + k.xo * k.xo + k.yo * k.yo) := rfl
    simp only [M.lift, ← hv]
    cases hk : k.value with
    | error e => exact ⟨hi, he, rfl⟩
    | ok v =>
      refine ⟨hi.setRol fun e he => ?_, he.heap rfl rfl, rfl, hP s _ rfl rfl hp⟩
      rcases mem_lruPut he with rfl | he
      · exact hk
      · exact hi.rol e he

theorem torM_tri (k : TKey) {P : St → Prop} (hP : HeapOnly P) :
    Tri b s0 P (torM k) k.value (fun a c s => a = c ∧ P s) := by
  intro s hi he hp
  simp only [torM]
  have hbody : Tri b s0 P (do
      let ro ← rolM ⟨k.rx, k.ry, k.xo, k.yo⟩
      let a ← M.lift (rdiv (k.G * k.J) (k.A * ro * ro))
      let b ← M.lift (rdiv (piD * piD * k.E * k.Iw) (k.G * k.J * (k.lez * k.lez)))
      return a * (1 + b)) k.value (fun a c s => a = c ∧ P s) := by
    refine Tri.bind (rolM_tri _ hP) fun ro ro' => ?_
    refine Tri.bind (P := fun s => ro = ro' ∧ P s) (R := fun a c s => a = c ∧ ro = ro' ∧ P s) ?_ fun a a' => ?_
    · intro s hi he hp
      rw [hp.1]
      exact (Tri.lift (P := fun s => ro' = ro' ∧ P s) _).weaken (fun s h => h) (fun a c s h => h) s hi he ⟨rfl, hp.2⟩
    · refine Tri.bind (Tri.lift _) fun x x' => Tri.ret ?_
      rintro s ⟨rfl, rfl, _, hp⟩
      exact ⟨rfl, hp⟩
  unfold cached
  cases hl : lruGet k s.cTor with
  | some vc =>
    obtain ⟨v, c⟩ := vc
    obtain ⟨h1, h2⟩ := lruGet_some hl
    refine ⟨hi.setTor fun e he => hi.tor e (h2 e he), he.heap rfl rfl, ?_⟩
    have := hi.tor _ h1
    simp only at this
    rw [this]
    exact ⟨rfl, hP s _ rfl rfl hp⟩
  | none =>
    obtain ⟨h1, h2, h3⟩ := hbody s hi he hp
    simp only
    rcases hx : (do
      let ro ← rolM ⟨k.rx, k.ry, k.xo, k.yo⟩
      let a ← M.lift (rdiv (k.G * k.J) (k.A * ro * ro))
      let b ← M.lift (rdiv (piD * piD * k.E * k.Iw) (k.G * k.J * (k.lez * k.lez)))
      return a * (1 + b) : M ℝ) s with ⟨r, s'⟩
    rw [hx] at h1 h2 h3
    cases r with
    | error e => exact ⟨h1, h2, h3⟩
    | ok v =>
      cases hk : k.value with
      | error e => rw [hk] at h3; exact h3.elim
      | ok v' =>
        rw [hk] at h3
        obtain ⟨rfl, hp'⟩ := h3
        refine ⟨h1.setTor fun e he => ?_, h2.heap rfl rfl, rfl, hP s' _ rfl rfl hp'⟩
        rcases mem_lruPut he with rfl | he
        · exact hk
        · exact h1.tor e he

/-! ## Allocation and updates -/

theorem dict_append (s : St) (d : Dict) (a : ℕ) :
    St.dict { s with inner := s.inner ++ [d] } a =
      if a = s.inner.length then d else s.dict a := by
  unfold St.dict
  simp only
  rcases lt_trichotomy a s.inner.length with h | h | h
  · rw [List.getElem?_append_left h, if_neg h.ne]
  · subst h; simp
  · rw [List.getElem?_eq_none (by simp; omega), List.getElem?_eq_none (by omega), if_neg h.ne']

theorem Inv.allocInner {s : St} (h : Inv b s) (d : Dict) : Inv b { s with inner := s.inner ++ [d] } := by
  refine ⟨h.rol, h.tor, ?_, ?_⟩
  · intro e he
    obtain ⟨a, f, h1, h2, h3⟩ := h.foxz e he
    refine ⟨a, f, h1, h2, fun hb => ?_⟩
    have ha : a < s.inner.length := h.outer _ (List.mem_of_getElem? h2)
    rw [dict_append, if_neg ha.ne]
    exact h3 hb
  · intro p hp
    have := h.outer p hp
    simp only [List.length_append, List.length_singleton]
    omega

theorem Eff.allocInner {s : St} (h : Eff b s0 s) (d : Dict) : Eff b s0 { s with inner := s.inner ++ [d] } := by
  refine ⟨?_, h.outer, ?_, ?_⟩
  · have := h.len
    simp only [List.length_append, List.length_singleton]
    omega
  · intro a ha
    obtain ⟨u, e⟩ := h.unshared a ha
    refine ⟨⟨?_, u.2⟩, ?_⟩
    · have := u.1
      simp only [List.length_append, List.length_singleton]
      omega
    · rw [dict_append, if_neg u.1.ne]; exact e
  · intro hb a f hk ha hf
    have := h.len
    rw [dict_append, if_neg (by omega)]
    exact h.base hb a f hk ha hf

/-- the outcome of allocating a dictionary -/
theorem allocInner_tri (d : Dict) {P : St → Prop} {R : ℕ → Unit → St → Prop}
    (h : ∀ s, Inv b s → Eff b s0 s → P s → R s.inner.length () { s with inner := s.inner ++ [d] }) :
    Tri b s0 P (allocInner d) (.ok ()) R :=
  fun s hi he hp => ⟨hi.allocInner d, he.allocInner d, h s hi he hp⟩

/-- the entries of a result of `f_oxz` determine it -/
theorem describes_unique {d : Dict} {k k' : FKey} {f f' : Foxz} (hk : k.value = .ok f) (hk' : k'.value = .ok f')
    (h : d.Describes f) (h' : d.Describes f') : f = f' := by
  obtain ⟨h1, h2, h3, h4, h5, h6, h7, h8, _⟩ := h
  obtain ⟨g1, g2, g3, g4, g5, g6, g7, g8, _⟩ := h'
  rw [h1, Option.some.injEq, Val.num.injEq] at g1
  rw [h2, Option.some.injEq, Val.num.injEq] at g2
  rw [h3, Option.some.injEq, Val.num.injEq] at g3
  rw [h4, Option.some.injEq, Val.num.injEq] at g4
  rw [h5, Option.some.injEq, Val.num.injEq] at g5
  rw [h6, Option.some.injEq, Val.num.injEq] at g6
  rw [h7, Option.some.injEq, Val.num.injEq] at g7
  rw [h8, Option.some.injEq, Val.num.injEq] at g8
  have key : ∀ {k : FKey} {f : Foxz}, k.value = .ok f → ∃ h s, rdiv 1 (2 * f.beta) = .ok h ∧
      rsqrt ((f.fox + f.foz) ^ 2 - 4 * f.beta * f.fox * f.foz) = .ok s ∧ f.foxz = h * (f.fox + f.foz - s) := by
    intro k f hk
    simp only [FKey.value, foxz] at hk
    cases e1 : rol k.rx k.ry k.xo k.yo with
    | error e => rw [e1] at hk; cases hk
    | ok ro =>
    rw [e1, Except.bind_ok'] at hk
    cases e2 : rdiv k.xo ro with
    | error e => rw [e2] at hk; cases hk
    | ok q =>
    rw [e2, Except.bind_ok'] at hk
    cases e3 : fEuler k.E k.lex k.rx with
    | error e => rw [e3] at hk; cases hk
    | ok fox =>
    rw [e3, Except.bind_ok'] at hk
    cases e4 : fEulerTorsion k.An k.lez k.rx k.ry k.xo k.yo k.J k.Iw k.E k.G with
    | error e => rw [e4] at hk; cases hk
    | ok foz =>
    rw [e4, Except.bind_ok'] at hk
    cases e5 : rdiv 1 (2 * (1 - q ^ 2)) with
    | error e => rw [e5] at hk; cases hk
    | ok h =>
    rw [e5, Except.bind_ok'] at hk
    cases e6 : rsqrt ((fox + foz) ^ 2 - 4 * (1 - q ^ 2) * fox * foz) with
    | error e => rw [e6] at hk; cases hk
    | ok r =>
    rw [e6, Except.bind_ok'] at hk
    injection hk with hk
    subst hk
    exact ⟨h, r, e5, e6, rfl⟩
  obtain ⟨x, y, u1, u2, u3⟩ := key hk
  obtain ⟨x', y', w1, w2, w3⟩ := key hk'
  rw [← g1] at w1
  rw [← g1, ← g2, ← g3] at w2
  rw [u1, Except.ok_inj'] at w1
  rw [u2, Except.ok_inj'] at w2
  have g9 : f.foxz = f'.foxz := by rw [u3, w3, w1, w2, g2, g3]
  cases f; cases f'
  simp only at g1 g2 g3 g4 g5 g6 g7 g8 g9
  simp only [g1, g2, g3, g4, g5, g6, g7, g8, g9]

/-- which updates keep everything in order -/
def MayUpdate (b : Bool) (s0 : St) (a : ℕ) (k : String) (v : Val) (s : St) : Prop :=
  (s0.inner.length ≤ a ∨ ∃ p ∈ s.outer, p.1 = a) ∧
  (b = true → k ∉ baseKeys ∨ ∃ f, (∃ key : FKey, key.value = .ok f) ∧ (s.dict a).Describes f ∧
    ((k = "f_oz" ∧ v = .num f.foz) ∨ (k = "f_oxz" ∧ v = .num f.foxz)))

theorem describes_update {s : St} {a c : ℕ} {k : String} {v : Val} {f : Foxz} (h : MayUpdate b s0 a k v s)
    (hb : b = true) (hf : ∃ key : FKey, key.value = .ok f) (hd : (s.dict c).Describes f) :
    (St.dict { s with inner := s.inner.modify a (Dict.set k v) } c).Describes f := by
  rw [dict_modify]
  split
  · rename_i hac
    obtain ⟨rfl, _⟩ := hac
    apply hd.set
    rcases h.2 hb with h | ⟨f', ⟨key', hk'⟩, hd', h⟩
    · exact Or.inl h
    · right
      obtain ⟨key, hk⟩ := hf
      rw [describes_unique hk hk' hd hd']
      exact h
  · exact hd

theorem Inv.modify {s : St} {a : ℕ} {k : String} {v : Val} (h : Inv b s) (hm : MayUpdate b s0 a k v s) :
    Inv b { s with inner := s.inner.modify a (Dict.set k v) } := by
  refine ⟨h.rol, h.tor, ?_, ?_⟩
  · intro e he
    obtain ⟨c, f, h1, h2, h3⟩ := h.foxz e he
    exact ⟨c, f, h1, h2, fun hb => describes_update hm hb ⟨_, h1⟩ (h3 hb)⟩
  · intro p hp
    simp only [List.length_modify]
    exact h.outer p hp

theorem Eff.modify {s : St} {a : ℕ} {k : String} {v : Val} (h : Eff b s0 s) (hm : MayUpdate b s0 a k v s) :
    Eff b s0 { s with inner := s.inner.modify a (Dict.set k v) } := by
  refine ⟨?_, h.outer, ?_, ?_⟩
  · simp only [List.length_modify]; exact h.len
  · intro c hc
    obtain ⟨u, e⟩ := h.unshared c hc
    refine ⟨⟨?_, u.2⟩, ?_⟩
    · simp only [List.length_modify]; exact u.1
    · rw [dict_modify, if_neg]
      · exact e
      · rintro ⟨rfl, _⟩
        rcases hm.1 with h | ⟨p, hp, rfl⟩
        · have := hc.1; omega
        · exact u.2 p hp rfl
  · intro hb c f hk hc hd
    exact describes_update hm hb hk (h.base hb c f hk hc hd)

/-- the outcome of an update -/
theorem update_tri (a : ℕ) (k : String) (v : Val) {P : St → Prop} {R : Unit → Unit → St → Prop}
    (hm : ∀ s, Inv b s → Eff b s0 s → P s → MayUpdate b s0 a k v s)
    (h : ∀ s, Inv b s → Eff b s0 s → P s → R () () { s with inner := s.inner.modify a (Dict.set k v) }) :
    Tri b s0 P (update a k v) (pure ()) R :=
  fun s hi he hp => ⟨hi.modify (hm s hi he hp), he.modify (hm s hi he hp), h s hi he hp⟩

/-! ## `f_oxz` -/

/-- `o` is the address of a result of `f_oxz` for the values `f` -/
def Holds (b : Bool) (s : St) (o : ℕ) (f : Foxz) : Prop :=
  (∃ k : FKey, k.value = .ok f) ∧
  ∃ a, s.outer[o]? = some (a, f.foxz) ∧ (b = true → (s.dict a).Describes f)

theorem allocOuter_tri (a : ℕ) (x : ℝ) (r : β) {P : St → Prop} {R : ℕ → β → St → Prop}
    (hm : ∀ s, Inv b s → Eff b s0 s → P s → s0.inner.length ≤ a ∧ a < s.inner.length)
    (h : ∀ s, Inv b s → Eff b s0 s → P s → R s.outer.length r { s with outer := s.outer ++ [(a, x)] }) :
    Tri b s0 P (allocOuter a x) (.ok r) R := by
  intro s hi he hp
  obtain ⟨h1, h2⟩ := hm s hi he hp
  refine ⟨⟨hi.rol, hi.tor, ?_, ?_⟩, ⟨he.len, ?_, ?_, he.base⟩, h s hi he hp⟩
  · intro e hc
    obtain ⟨c, f, g1, g2, g3⟩ := hi.foxz e hc
    refine ⟨c, f, g1, ?_, g3⟩
    show (s.outer ++ [(a, x)])[e.2]? = _
    rw [List.getElem?_append_left (List.getElem?_eq_some_iff.1 g2).1]
    exact g2
  · intro p hp
    rcases List.mem_append.1 hp with hp | hp
    · exact hi.outer p hp
    · rw [List.mem_singleton.1 hp]; exact h2
  · exact he.outer.trans (List.prefix_append _ _)
  · intro c hc
    obtain ⟨u, e⟩ := he.unshared c hc
    refine ⟨⟨u.1, ?_⟩, e⟩
    intro p hp
    rcases List.mem_append.1 hp with hp | hp
    · exact u.2 p hp
    · rw [List.mem_singleton.1 hp]
      have := hc.1
      show a ≠ c
      omega

theorem Tri.of_eq {P : St → Prop} {x : M α} {p q : Py β} {R : α → β → St → Prop} (h : p = q)
    (ht : Tri b s0 P x p R) : Tri b s0 P x q R := h ▸ ht

/-- the rule for a pure step inside a block: the two values are equal -/
theorem Tri.bindLift {P : St → Prop} (p : Py α) {f : α → M γ} {g : α → Py δ} {R : γ → δ → St → Prop}
    (h : ∀ a, Tri b s0 P (f a) (g a) R) : Tri b s0 P (M.lift p >>= f) (p >>= g) R :=
  Tri.bind (Tri.lift p) fun a c s hi he hp => by
    obtain ⟨rfl, hp⟩ := hp
    exact h a s hi he hp

theorem Tri.bindEq {P : St → Prop} {x : M α} {p : Py α} (hx : Tri b s0 P x p (fun a c s => a = c ∧ P s))
    {f : α → M γ} {g : α → Py δ} {R : γ → δ → St → Prop}
    (h : ∀ a, Tri b s0 P (f a) (g a) R) : Tri b s0 P (x >>= f) (p >>= g) R :=
  Tri.bind hx fun a c s hi he hp => by
    obtain ⟨rfl, hp⟩ := hp
    exact h a s hi he hp

/-- the body of `f_oxz` -/
noncomputable def foxzBody (k : FKey) : M ℕ := do
    let ro ← rolM ⟨k.rx, k.ry, k.xo, k.yo⟩
    let q ← M.lift (rdiv k.xo ro)
    let beta := 1 - q ^ 2
    let fox ← M.lift (fEuler k.E k.lex k.rx)
    let foz ← torM ⟨k.An, k.lez, k.rx, k.ry, k.xo, k.yo, k.J, k.Iw, k.E, k.G⟩
    let h ← M.lift (rdiv 1 (2 * beta))
    let r ← M.lift (rsqrt ((fox + foz) ^ 2 - 4 * beta * fox * foz))
    let a ← allocInner [("β", .num beta), ("f_ox", .num fox), ("f_oz", .num foz), ("r_x", .num k.rx),
      ("r_y", .num k.ry), ("x_o", .num k.xo), ("y_o", .num k.yo), ("r_ol", .num ro)]
    allocOuter a (h * (fox + foz - r))

/-- what is known when the body returns, except that the values are those of a call -/
def Fresh (b : Bool) (o : ℕ) (f : Foxz) (s : St) : Prop :=
  ∃ a, s.outer[o]? = some (a, f.foxz) ∧ (b = true → (s.dict a).Describes f)

theorem foxzBody_tri (k : FKey) : Tri b s0 (fun _ => True) (foxzBody k) k.value (Fresh b) := by
  unfold foxzBody FKey.value foxz
  have hT : HeapOnly fun _ => True := fun _ _ _ _ _ => trivial
  refine Tri.bindEq (rolM_tri ⟨k.rx, k.ry, k.xo, k.yo⟩ hT) fun ro => ?_
  refine Tri.bindLift _ fun q => ?_
  refine Tri.bindLift _ fun fox => ?_
  refine Tri.bindEq (torM_tri ⟨k.An, k.lez, k.rx, k.ry, k.xo, k.yo, k.J, k.Iw, k.E, k.G⟩ hT) fun foz => ?_
  refine Tri.bindLift _ fun h => ?_
  refine Tri.bindLift _ fun r => ?_
  refine Tri.of_eq (p := (.ok () : Py Unit) >>= fun _ =>
    .ok ⟨1 - q ^ 2, fox, foz, k.rx, k.ry, k.xo, k.yo, ro, h * (fox + foz - r)⟩) rfl ?_
  refine Tri.bind (R := fun a _ s => s0.inner.length ≤ a ∧ a < s.inner.length ∧
    (s.dict a).Describes ⟨1 - q ^ 2, fox, foz, k.rx, k.ry, k.xo, k.yo, ro, h * (fox + foz - r)⟩)
    (allocInner_tri _ ?_) fun a _ => ?_
  · intro s hi he _
    refine ⟨he.len, by simp, ?_⟩
    rw [dict_append, if_pos rfl]
    simp [Dict.Describes, Dict.get]
  · apply allocOuter_tri
    · intro s _ _ hp
      exact ⟨hp.1, hp.2.1⟩
    · intro s _ _ hp
      refine ⟨a, ?_, fun _ => hp.2.2⟩
      simp

theorem foxzM_tri (k : FKey) : Tri b s0 (fun _ => True) (foxzM k) k.value (fun o f s => Holds b s o f) := by
  intro s hi he hp
  have hdef : foxzM k = cached St.cFoxz (fun c s => { s with cFoxz := c }) k (foxzBody k) := rfl
  rw [hdef]
  unfold cached
  cases hl : lruGet k s.cFoxz with
  | some vc =>
    obtain ⟨v, c⟩ := vc
    obtain ⟨h1, h2⟩ := lruGet_some hl
    refine ⟨⟨hi.rol, hi.tor, fun e he => hi.foxz e (h2 e he), hi.outer⟩, he.heap rfl rfl, ?_⟩
    obtain ⟨a, f, g1, g2, g3⟩ := hi.foxz _ h1
    simp only at g1 g2
    rw [g1]
    exact ⟨⟨k, g1⟩, a, g2, g3⟩
  | none =>
    obtain ⟨h1, h2, h3⟩ := foxzBody_tri (b := b) (s0 := s0) k s hi he hp
    simp only
    rcases hx : foxzBody k s with ⟨r, s'⟩
    rw [hx] at h1 h2 h3
    cases r with
    | error e =>
      cases hk : k.value with
      | error e' => rw [hk] at h3; exact ⟨h1, h2, h3⟩
      | ok f => rw [hk] at h3; exact h3.elim
    | ok v =>
      cases hk : k.value with
      | error e => rw [hk] at h3; exact h3.elim
      | ok f =>
        rw [hk] at h3
        obtain ⟨a, g2, g3⟩ := h3
        refine ⟨⟨h1.rol, h1.tor, fun e he => ?_, h1.outer⟩, h2.heap rfl rfl, ⟨k, hk⟩, a, g2, g3⟩
        rcases mem_lruPut he with rfl | he
        · exact ⟨a, f, hk, g2, g3⟩
        · exact h1.foxz e he

theorem holds_heapOnly (o : ℕ) (f : Foxz) : HeapOnly fun s => Holds b s o f := by
  intro s s' h1 h2 h
  obtain ⟨hk, a, g1, g2⟩ := h
  refine ⟨hk, a, by rw [h2]; exact g1, fun hb => ?_⟩
  have : s'.dict a = s.dict a := by unfold St.dict; rw [h1]
  rw [this]; exact g2 hb

theorem Tri.assume {φ : Prop} {P P' : St → Prop} {x : M α} {p : Py β} {R : α → β → St → Prop}
    (hs : ∀ s, P s → φ ∧ P' s) (h : φ → Tri b s0 P' x p R) : Tri b s0 P x p R :=
  fun s hi he hp => h (hs s hp).1 s hi he (hs s hp).2

/-! ## The dictionaries handed out -/

/-- What is known about the inner dictionary at `a` that came with the values `f` from `f_oxz` -/
def Shared (b : Bool) (a : ℕ) (f : Foxz) (s : St) : Prop :=
  (∃ k : FKey, k.value = .ok f) ∧ (∃ p ∈ s.outer, p.1 = a) ∧ (b = true → (s.dict a).Describes f)

theorem readOuter_tri (o : ℕ) (f : Foxz) :
    Tri b s0 (fun s => Holds b s o f) (readOuter o) (.ok f) (fun p f' s => p.2 = f'.foxz ∧ Shared b p.1 f' s) := by
  intro s hi he hp
  obtain ⟨hk, a, g1, g2⟩ := hp
  unfold readOuter
  rw [g1]
  exact ⟨hi, he, rfl, hk, ⟨_, List.mem_of_getElem? g1, rfl⟩, g2⟩

theorem shared_modify {s : St} {a : ℕ} {f : Foxz} {k : String} {v : Val}
    (hm : MayUpdate b s0 a k v s) (h : Shared b a f s) :
    Shared b a f { s with inner := s.inner.modify a (Dict.set k v) } :=
  ⟨h.1, h.2.1, fun hb => describes_update hm hb h.1 (h.2.2 hb)⟩

/-- an update of a shared dictionary -/
theorem shared_update_tri {a : ℕ} {f : Foxz} (k : String) (v : Val)
    (hk : k ∉ baseKeys ∨ (k = "f_oz" ∧ v = .num f.foz) ∨ (k = "f_oxz" ∧ v = .num f.foxz)) :
    Tri b s0 (Shared b a f) (update a k v) (pure ()) (fun _ _ => Shared b a f) := by
  have hm : ∀ s, Inv b s → Eff b s0 s → Shared b a f s → MayUpdate b s0 a k v s := by
    intro s _ _ h
    refine ⟨Or.inr h.2.1, fun hb => ?_⟩
    rcases hk with hk | hk
    · exact Or.inl hk
    · exact Or.inr ⟨f, h.1, h.2.2 hb, hk⟩
  exact update_tri _ _ _ hm fun s hi he h => shared_modify (hm s hi he h) h

/-- the dictionary at `a` is new -/
def New (s0 : St) (a : ℕ) (s : St) : Prop := s0.inner.length ≤ a ∧ Unshared s a

/-- what the `f_oc` functions give: the stress, and a dictionary that is new or shared -/
def Given (b : Bool) (s0 : St) (r : StressResult) (x : ℝ) (s : St) : Prop :=
  r.foc = x ∧ (New s0 r.inter s ∨ ∃ f, Shared b r.inter f s)

theorem foz_of_value {k : FKey} {f : Foxz} (h : k.value = .ok f) :
    (TKey.mk k.An k.lez k.rx k.ry k.xo k.yo k.J k.Iw k.E k.G).value = .ok f.foz := by
  simp only [FKey.value, foxz] at h
  cases e1 : rol k.rx k.ry k.xo k.yo with
  | error e => rw [e1] at h; cases h
  | ok ro =>
  rw [e1, Except.bind_ok'] at h
  cases e2 : rdiv k.xo ro with
  | error e => rw [e2] at h; cases h
  | ok q =>
  rw [e2, Except.bind_ok'] at h
  cases e3 : fEuler k.E k.lex k.rx with
  | error e => rw [e3] at h; cases h
  | ok fox =>
  rw [e3, Except.bind_ok'] at h
  cases e4 : fEulerTorsion k.An k.lez k.rx k.ry k.xo k.yo k.J k.Iw k.E k.G with
  | error e => rw [e4] at h; cases h
  | ok foz =>
  rw [e4, Except.bind_ok'] at h
  cases e5 : rdiv 1 (2 * (1 - q ^ 2)) with
  | error e => rw [e5] at h; cases h
  | ok h' =>
  rw [e5, Except.bind_ok'] at h
  cases e6 : rsqrt ((fox + foz) ^ 2 - 4 * (1 - q ^ 2) * fox * foz) with
  | error e => rw [e6] at h; cases h
  | ok r =>
  rw [e6, Except.bind_ok'] at h
  injection h with h
  subst h
  exact e4

/-- the values of `f_oc_double_symmetric`, in the order of the code -/
noncomputable def doubleValue (m : Member) (sym : Symmetry) : Py (Foxz × ℝ) := do
  let f ← (Member.keyX m).value
  let z ← (Member.keyT m).value
  let _ ← sym.symmetry
  return (f, min f.foxz z)

theorem focDoubleM_tri (m : Member) (sym : Symmetry) :
    Tri b s0 (fun _ => True) (focDoubleM m sym) (doubleValue m sym)
      (fun r x s => r.foc = x.2 ∧ (Member.keyX m).value = .ok x.1 ∧ Shared b r.inter x.1 s) := by
  unfold focDoubleM doubleValue
  have hP : ∀ o f, HeapOnly fun s => (Member.keyX m).value = .ok f ∧ Holds b s o f := by
    intro o f s s' h1 h2 h
    exact ⟨h.1, holds_heapOnly o f s s' h1 h2 h.2⟩
  refine Tri.bind (R := fun o f s => (Member.keyX m).value = .ok f ∧ Holds b s o f) ?_ fun o f => ?_
  · intro s hi he hp
    obtain ⟨h1, h2, h3⟩ := foxzM_tri (b := b) (s0 := s0) (Member.keyX m) s hi he hp
    refine ⟨h1, h2, ?_⟩
    rcases hx : (foxzM (Member.keyX m) s).1 with e | o <;> rcases hk : (Member.keyX m).value with e' | f <;>
      rw [hx, hk] at h3
    · exact h3
    · exact h3
    · exact h3
    · exact ⟨rfl, h3⟩
  refine Tri.bind (R := fun a c s => a = c ∧ (Member.keyT m).value = .ok c ∧ (Member.keyX m).value = .ok f ∧ Holds b s o f)
    ?_ fun foz foz' => ?_
  · intro s hi he hp
    obtain ⟨h1, h2, h3⟩ := torM_tri (b := b) (s0 := s0) (Member.keyT m) (hP o f) s hi he hp
    refine ⟨h1, h2, ?_⟩
    rcases hx : (torM (Member.keyT m) s).1 with e | o <;> rcases hk : (Member.keyT m).value with e' | f <;>
      rw [hx, hk] at h3
    · exact h3
    · exact h3
    · exact h3
    · exact ⟨h3.1, rfl, h3.2⟩
  intro s hi he hp
  obtain ⟨rfl, hz, hf, hh⟩ := hp
  have hfz : foz = f.foz := by
    have := foz_of_value hf
    simp only [Member.keyX] at this
    simp only [Member.keyT] at hz
    rw [hz, Except.ok_inj'] at this
    exact this
  have main : Tri b s0 (fun s => Holds b s o f) (do
      let (a, f) ← readOuter o
      update a "f_oxz" (.num f)
      update a "f_oz" (.num foz)
      update a "AS4600 Clause" (.str "AS4600 S3.4.3")
      let k ← M.lift sym.symmetry
      update a "Symmetry" (.str k.name)
      return (⟨min f foz, a⟩ : StressResult))
      ((.ok f : Py Foxz) >>= fun _ => (pure () : Py Unit) >>= fun _ => (pure () : Py Unit) >>= fun _ =>
        (pure () : Py Unit) >>= fun _ => sym.symmetry >>= fun _ => (pure () : Py Unit) >>= fun _ =>
          pure (f, min f.foxz foz))
      (fun r x s => r.foc = x.2 ∧ (Member.keyX m).value = .ok x.1 ∧ Shared b r.inter x.1 s) := by
    refine Tri.bind (R := fun p f' s => f' = f ∧ p.2 = f.foxz ∧ Shared b p.1 f s) ?_ fun p f' => ?_
    · intro s hi he hp
      obtain ⟨h1, h2, h3⟩ := readOuter_tri (b := b) (s0 := s0) o f s hi he hp
      refine ⟨h1, h2, ?_⟩
      rcases hx : (readOuter o s).1 with e | p <;> rw [hx] at h3
      · exact h3
      · exact ⟨rfl, h3⟩
    obtain ⟨a, x⟩ := p
    dsimp only
    refine Tri.assume (φ := x = f.foxz) (P' := Shared b a f) (fun s h => ⟨h.2.1, h.2.2⟩) fun hx => ?_
    subst hx
    refine Tri.bind (shared_update_tri _ _ (Or.inr (Or.inr ⟨rfl, rfl⟩))) (fun _ _ => ?_)
    refine Tri.bind (shared_update_tri _ _ (Or.inr (Or.inl ⟨rfl, by rw [hfz]⟩))) (fun _ _ => ?_)
    refine Tri.bind (shared_update_tri _ _ (Or.inl (by decide))) (fun _ _ => ?_)
    refine Tri.bindLift _ fun k => ?_
    refine Tri.bind (shared_update_tri _ _ (Or.inl (by decide))) (fun _ _ => ?_)
    exact Tri.ret fun s h => ⟨rfl, hf, h⟩
  exact Tri.of_eq (by simp only [pure, Except.pure, Except.bind_ok']) main s hi he hh

/-- the part of `f_oc_single_symmetric` after the choice of the axis -/
noncomputable def singleTail (k : FKey) (axis : String) (sym : Symmetry) : M StressResult := do
  let o ← foxzM k
  let (a, f) ← readOuter o
  update a "Axis of Symmetry" (.str axis)
  update a "f_oxz" (.num f)
  let k ← M.lift sym.symmetry
  update a "Symmetry" (.str k.name)
  update a "AS4600 Clause" (.str "AS4600 S3.4.3")
  return ⟨f, a⟩

theorem singleTail_tri (k : FKey) (axis : String) (sym : Symmetry) :
    Tri b s0 (fun _ => True) (singleTail k axis sym) (do
      let f ← k.value
      let _ ← sym.symmetry
      return f.foxz) (fun r x s => r.foc = x ∧ ∃ f, Shared b r.inter f s) := by
  unfold singleTail
  refine Tri.bind (foxzM_tri k) fun o f => ?_
  refine Tri.of_eq (p := (.ok f : Py Foxz) >>= fun f' => (pure () : Py Unit) >>= fun _ => (pure () : Py Unit) >>= fun _ =>
        sym.symmetry >>= fun _ => (pure () : Py Unit) >>= fun _ => (pure () : Py Unit) >>= fun _ =>
          pure f'.foxz) (by simp only [pure, Except.pure, Except.bind_ok']) ?_
  refine Tri.bind (readOuter_tri o f) fun p f => ?_
  obtain ⟨a, x⟩ := p
  dsimp only
  refine Tri.assume (φ := x = f.foxz) (P' := Shared b a f) (fun s h => h) fun hx => ?_
  subst hx
  refine Tri.bind (shared_update_tri _ _ (Or.inl (by decide))) (fun _ _ => ?_)
  refine Tri.bind (shared_update_tri _ _ (Or.inr (Or.inr ⟨rfl, rfl⟩))) (fun _ _ => ?_)
  refine Tri.bindLift _ fun k => ?_
  refine Tri.bind (shared_update_tri _ _ (Or.inl (by decide))) (fun _ _ => ?_)
  refine Tri.bind (shared_update_tri _ _ (Or.inl (by decide))) (fun _ _ => ?_)
  exact Tri.ret fun s h => ⟨rfl, f, h⟩

theorem symmetry_of_symcount {sym : Symmetry} {n : ℕ} (h : sym.symcount = .ok n) : ∃ k, sym.symmetry = .ok k := by
  obtain ⟨axes⟩ := sym
  cases axes with
  | none => cases h
  | some axes => exact ⟨_, rfl⟩

theorem focSingleM_tri (m : Member) (sym : Symmetry) :
    Tri b s0 (fun _ => True) (focSingleM m sym) (focSingle m sym)
      (fun r x s => r.foc = x ∧ ∃ f, Shared b r.inter f s) := by
  unfold focSingleM focSingle
  cases hn : sym.symcount with
  | error e => exact fun s hi he _ => ⟨hi, he, rfl⟩
  | ok n =>
    obtain ⟨k, hk⟩ := symmetry_of_symcount hn
    refine Tri.bindLift _ fun n => ?_
    split
    · exact fun s hi he _ => ⟨hi, he, rfl⟩
    · split
      · refine Tri.of_eq ?_ (singleTail_tri (Member.keyX m) "x" sym)
        simp only [hk, Except.bind_ok']
        rfl
      · refine Tri.of_eq ?_ (singleTail_tri (Member.keyY m) "y" sym)
        simp only [hk, Except.bind_ok']
        rfl

theorem unshared_alloc {s : St} (hi : Inv b s) (d : Dict) :
    Unshared { s with inner := s.inner ++ [d] } s.inner.length := by
  refine ⟨by simp, fun p hp => ?_⟩
  have := hi.outer p hp
  omega

theorem focPointM_tri (m : Member) :
    Tri b s0 (fun _ => True) (focPointM m) (focPoint m) (fun r x s => r.foc = x ∧ New s0 r.inter s) := by
  unfold focPointM
  have hT : HeapOnly fun _ => True := fun _ _ _ _ _ => trivial
  refine Tri.of_eq (p := (Member.keyT m).value >>= fun x => (.ok () : Py Unit) >>= fun _ => pure x) ?_ ?_
  · simp only [Except.bind_ok']
    show _ = fEulerTorsion _ _ _ _ _ _ _ _ _ _
    simp only [TKey.value, Member.keyT]
    cases fEulerTorsion m.An m.lez m.rx m.ry m.xo m.yo m.J m.Iw m.E m.G <;> rfl
  refine Tri.bindEq (torM_tri _ hT) fun f => ?_
  refine Tri.bind (R := fun a _ s => New s0 a s) (allocInner_tri _ ?_) fun a _ => ?_
  · intro s hi he _
    exact ⟨he.len, unshared_alloc hi _⟩
  · exact Tri.ret fun s h => ⟨rfl, h⟩

theorem focUnsymM_tri (roots : Roots) (m : Member) :
    Tri b s0 (fun _ => True) (focUnsymM roots m) (focUnsym roots m) (fun r x s => r.foc = x ∧ New s0 r.inter s) := by
  unfold focUnsymM focUnsym cubic
  have hT : HeapOnly fun _ => True := fun _ _ _ _ _ => trivial
  have assoc : ∀ {α β γ : Type} (x : Py α) (f : α → Py β) (g : β → Py γ), (x >>= f) >>= g = x >>= fun a => f a >>= g := by
    intro α β γ x f g; cases x <;> rfl
  simp only [assoc]
  refine Tri.bindLift _ fun fox => ?_
  refine Tri.bindLift _ fun foy => ?_
  refine Tri.bindEq (rolM_tri ⟨m.rx, m.ry, m.xo, m.yo⟩ hT) fun ro => ?_
  refine Tri.bindEq (torM_tri (Member.keyT m) hT) fun foz => ?_
  simp only [pure, Except.pure, Except.bind_ok']
  have tail : ∀ (v : Py ℝ) (d : Dict), Tri b s0 (fun _ => True) (do
      let f ← M.lift v
      let i ← allocInner d
      return (⟨f, i⟩ : StressResult)) v (fun r x s => r.foc = x ∧ New s0 r.inter s) := by
    intro v d
    refine Tri.of_eq (p := v >>= fun x => (.ok () : Py Unit) >>= fun _ => pure x) ?_ ?_
    · cases v <;> rfl
    refine Tri.bindLift _ fun f => ?_
    refine Tri.bind (R := fun a _ s => New s0 a s) (allocInner_tri _ ?_) fun a _ => ?_
    · intro s hi he _
      exact ⟨he.len, unshared_alloc hi _⟩
    · exact Tri.ret fun s h => ⟨rfl, h⟩
  exact tail _ _

/-- the dictionary is new when the kind of symmetry is one whose results are not shared -/
def Kept (b : Bool) (s0 : St) (sym : Symmetry) (a : ℕ) (s : St) : Prop :=
  (sym.unshared → New s0 a s) ∧ (New s0 a s ∨ ∃ f, Shared b a f s)

theorem focM_tri (roots : Roots) (m : Member) (sym : Symmetry) :
    Tri b s0 (fun _ => True) (focM roots m sym) (foc roots m sym)
      (fun r x s => r.foc = x ∧ Kept b s0 sym r.inter s) := by
  unfold focM foc
  cases hk : sym.symmetry with
  | error e => exact fun s hi he _ => ⟨hi, he, rfl⟩
  | ok k =>
    have e : ∀ f : SymKind → M StressResult, (M.lift (.ok k : Py SymKind) >>= f) = f k := fun _ => rfl
    rw [e, Except.bind_ok']
    cases k with
    | double =>
      have hn : ¬ sym.unshared := by unfold Symmetry.unshared; rw [hk]; simp
      refine Tri.of_eq (p := doubleValue m sym >>= fun x => pure x.2) ?_ ?_
      · unfold doubleValue focDouble
        rw [hk]
        show _ = (Member.keyX m).value >>= fun f => (Member.keyT m).value >>= fun z => _
        cases (Member.keyX m).value <;> cases (Member.keyT m).value <;> rfl
      · have : focDoubleM m sym = focDoubleM m sym >>= fun r => pure r := by
          funext s
          show _ = M.andThen _ _ s
          unfold M.andThen
          rcases focDoubleM m sym s with ⟨_ | _, _⟩ <;> rfl
        simp only
        rw [this]
        refine Tri.bind (focDoubleM_tri m sym) fun r x => Tri.ret fun s h => ?_
        exact ⟨h.1, fun hc => absurd hc hn, Or.inr ⟨_, h.2.2⟩⟩
    | single =>
      have hn : ¬ sym.unshared := by unfold Symmetry.unshared; rw [hk]; simp
      exact (focSingleM_tri m sym).weaken (fun _ h => h) fun r x s h => ⟨h.1, fun hc => absurd hc hn, Or.inr h.2⟩
    | point =>
      exact (focPointM_tri m).weaken (fun _ h => h) fun r x s h => ⟨h.1, fun _ => h.2, Or.inl h.2⟩
    | none =>
      exact (focUnsymM_tri roots m).weaken (fun _ h => h) fun r x s h => ⟨h.1, fun _ => h.2, Or.inl h.2⟩

theorem new_modify {s : St} {a : ℕ} {k : String} {v : Val} (h : New s0 a s) :
    New s0 a { s with inner := s.inner.modify a (Dict.set k v) } :=
  ⟨h.1, by simp only [List.length_modify]; exact h.2.1, h.2.2⟩

theorem kept_mayUpdate {sym : Symmetry} {a : ℕ} {k : String} (v : Val) {s : St} (h : Kept b s0 sym a s) (hk : k ∉ baseKeys) :
    MayUpdate b s0 a k v s := by
  refine ⟨?_, fun _ => Or.inl hk⟩
  rcases h.2 with h | ⟨f, h⟩
  · exact Or.inl h.1
  · exact Or.inr h.2.1

theorem kept_modify {sym : Symmetry} {a : ℕ} {k : String} {v : Val} {s : St} (h : Kept b s0 sym a s) (hk : k ∉ baseKeys) :
    Kept b s0 sym a { s with inner := s.inner.modify a (Dict.set k v) } := by
  refine ⟨fun hu => new_modify (h.1 hu), ?_⟩
  rcases h.2 with h' | ⟨f, h'⟩
  · exact Or.inl (new_modify h')
  · exact Or.inr ⟨f, shared_modify (kept_mayUpdate v h hk) h'⟩

theorem kept_lt {sym : Symmetry} {a : ℕ} {s : St} (hi : Inv b s) (h : Kept b s0 sym a s) : a < s.inner.length := by
  rcases h.2 with h | ⟨f, _, ⟨p, hp, rfl⟩, _⟩
  · exact h.2.1
  · exact hi.outer p hp

/-- an update with a key `f_oxz` does not use -/
theorem kept_update_tri {sym : Symmetry} {a : ℕ} (k : String) (v : Val) (hk : k ∉ baseKeys) {Q : Dict → Prop}
    {Q' : Dict → Prop} (hQ : ∀ d, Q d → Q' (Dict.set k v d)) :
    Tri b s0 (fun s => Kept b s0 sym a s ∧ Q (s.dict a)) (update a k v) (pure ())
      (fun _ _ s => Kept b s0 sym a s ∧ Q' (s.dict a)) := by
  apply update_tri
  · intro s _ _ h
    exact kept_mayUpdate v h.1 hk
  · intro s hi _ h
    refine ⟨kept_modify h.1 hk, ?_⟩
    rw [dict_modify, if_pos ⟨rfl, kept_lt hi h.1⟩]
    exact hQ _ h.2

/-- the entries `s6_3_3_N_c_torsion` adds -/
def HasTorsion (t : Torsional) (d : Dict) : Prop :=
  d.get "f_oc" = some (.num t.foc) ∧ d.get "λ_c" = some (.num t.lambdaC) ∧ d.get "f_n" = some (.num t.fn)

theorem NcTorsionM_tri (roots : Roots) (m : Member) (kf fy : ℝ) (sym : Symmetry) (unc : ℝ) :
    Tri b s0 (fun _ => True) (NcTorsionM roots m kf fy sym unc) (NcTorsion roots m kf fy sym unc)
      (fun r t s => r.Ncz = t.Ncz ∧ Kept b s0 sym r.inter s ∧ HasTorsion t (s.dict r.inter)) := by
  unfold NcTorsionM NcTorsion
  refine Tri.bind (focM_tri roots m sym) fun r x => ?_
  intro s hi he hp
  obtain ⟨rfl, hp⟩ := hp
  have main : Tri b s0 (fun s => Kept b s0 sym r.inter s) (do
      let p ← M.lift (columnCurve fy r.foc)
      update r.inter "f_oc" (.num r.foc)
      update r.inter "λ_c" (.num p.1)
      update r.inter "f_n" (.num p.2)
      return (⟨unc * Ae m.An kf * p.2, r.inter⟩ : TorsionResult))
      (columnCurve fy r.foc >>= fun p => (pure () : Py Unit) >>= fun _ => (pure () : Py Unit) >>= fun _ =>
        (pure () : Py Unit) >>= fun _ => pure (⟨unc * Ae m.An kf * p.2, r.foc, p.1, p.2⟩ : Torsional))
      (fun r t s => r.Ncz = t.Ncz ∧ Kept b s0 sym r.inter s ∧ HasTorsion t (s.dict r.inter)) := by
    refine Tri.bindLift _ fun p => ?_
    refine Tri.bind ((kept_update_tri (Q := fun _ => True) (Q' := fun d => d.get "f_oc" = some (.num r.foc)) "f_oc"
      (.num r.foc) (by decide) ?_).weaken (fun s h => ⟨h, trivial⟩) fun _ _ _ h => h) (fun _ _ => ?_)
    · intro d _; rw [Dict.get_set, if_pos rfl]
    refine Tri.bind (kept_update_tri (Q := fun d => d.get "f_oc" = some (.num r.foc))
      (Q' := fun d => d.get "f_oc" = some (.num r.foc) ∧ d.get "λ_c" = some (.num p.1))
      "λ_c" (.num p.1) (by decide) ?_) (fun _ _ => ?_)
    · intro d h
      simp only [Dict.get_set]
      exact ⟨by simpa using h, by simp⟩
    refine Tri.bind (kept_update_tri
      (Q := fun d => d.get "f_oc" = some (.num r.foc) ∧ d.get "λ_c" = some (.num p.1)) (Q' := fun d => HasTorsion ⟨unc * Ae m.An kf * p.2, r.foc, p.1, p.2⟩ d)
      "f_n" (.num p.2) (by decide) ?_) (fun _ _ => ?_)
    · intro d h
      simp only [HasTorsion, Dict.get_set]
      exact ⟨by simpa using h.1, by simpa using h.2, by simp⟩
    exact Tri.ret fun s h => ⟨rfl, h⟩
  exact Tri.of_eq (by simp only [pure, Except.pure, Except.bind_ok']) main s hi he hp

theorem NcM_tri (roots : Roots) (a : NcArgs) :
    Tri b s0 (fun _ => True) (NcM roots a) (Nc roots a)
      (fun r x s => r.1 = x ∧ ∀ i, r.2 = some i → Kept b s0 a.sym i s) := by
  unfold NcM Nc
  simp only
  split
  · refine Tri.bindLift _ fun bx => ?_
    refine Tri.bindLift _ fun bY => ?_
    split
    · refine Tri.bind (NcTorsionM_tri roots a.member a.kf a.fy a.sym a.uncertainty) fun t t' => ?_
      refine Tri.assume (φ := t.Ncz = t'.Ncz) (P' := fun s => Kept b s0 a.sym t.inter s) (fun s h => ⟨h.1, h.2.1⟩) fun h1 => ?_
      rw [← h1]
      refine Tri.of_eq (p := (pure () : Py Unit) >>= fun _ => _) rfl ?_
      refine Tri.bind ((kept_update_tri (Q := fun _ => True) (Q' := fun _ => True) "N_cz_buckling" (.num t.Ncz) (by decide)
        (fun _ _ => trivial)).weaken (fun s h => ⟨h, trivial⟩) fun _ _ _ h => h.1) (fun _ _ => ?_)
      refine Tri.ret fun s h => ⟨rfl, fun i hi => ?_⟩
      rw [← Option.some.inj hi]
      exact h
    · exact Tri.ret fun s _ => ⟨rfl, fun i hi => by cases hi⟩
  · exact Tri.ret fun s _ => ⟨rfl, fun i hi => by cases hi⟩

/-! ## Whole calls -/

/-- what is known about an answer -/
def AnswerOk (b : Bool) (s0 : St) (c : Call) (r : Answer) (x : Numbers) (s : St) : Prop :=
  r.numbers = x ∧ ∀ i, r.inter = some i →
    (c.unshared → New s0 i s) ∧ (New s0 i s ∨ ∃ f, Shared b i f s)

theorem exec_tri (roots : Roots) (c : Call) :
    Tri b s0 (fun _ => True) (c.exec roots) (c.value roots) (AnswerOk b s0 c) := by
  have hT : HeapOnly fun _ => True := fun _ _ _ _ _ => trivial
  have hmap : ∀ {α β : Type} (f : α → β) (x : Py α), x.map f = x >>= fun a => pure (f a) := by
    intro α β f x; cases x <;> rfl
  cases c with
  | rol k =>
    simp only [Call.exec, Call.value, hmap]
    exact Tri.bindEq (rolM_tri k hT) fun a => Tri.ret fun s _ => ⟨rfl, fun i hi => by cases hi⟩
  | torsionStress k =>
    simp only [Call.exec, Call.value, hmap]
    exact Tri.bindEq (torM_tri k hT) fun a => Tri.ret fun s _ => ⟨rfl, fun i hi => by cases hi⟩
  | foxz k =>
    simp only [Call.exec, Call.value, hmap]
    refine Tri.bind (foxzM_tri k) fun o f => ?_
    refine Tri.of_eq (p := (.ok f : Py Foxz) >>= fun f => pure (Numbers.num f.foxz)) rfl ?_
    refine Tri.bind (readOuter_tri o f) fun p f => Tri.ret fun s h => ?_
    refine ⟨by simp only; rw [h.1], fun i hi => ?_⟩
    rw [← Option.some.inj hi]
    exact ⟨fun hc => hc.elim, Or.inr ⟨f, h.2⟩⟩
  | focDouble m sym =>
    simp only [Call.exec, Call.value]
    refine Tri.of_eq (p := doubleValue m sym >>= fun x => pure (Numbers.num x.2)) ?_ ?_
    · show _ = ((Member.keyX m).value >>= fun f => (Member.keyT m).value >>= fun z => _) >>= _
      unfold doubleValue
      cases (Member.keyX m).value <;> cases (Member.keyT m).value <;> cases sym.symmetry <;> rfl
    · refine Tri.bind (focDoubleM_tri m sym) fun r x => Tri.ret fun s h => ?_
      refine ⟨by simp only; rw [h.1], fun i hi => ?_⟩
      rw [← Option.some.inj hi]
      exact ⟨fun hc => hc.elim, Or.inr ⟨_, h.2.2⟩⟩
  | focSingle m sym =>
    simp only [Call.exec, Call.value, hmap]
    refine Tri.bind (focSingleM_tri m sym) fun r x => Tri.ret fun s h => ?_
    refine ⟨by simp only; rw [h.1], fun i hi => ?_⟩
    rw [← Option.some.inj hi]
    exact ⟨fun hc => hc.elim, Or.inr h.2⟩
  | focPoint m =>
    simp only [Call.exec, Call.value, hmap]
    refine Tri.bind (focPointM_tri m) fun r x => Tri.ret fun s h => ?_
    refine ⟨by simp only; rw [h.1], fun i hi => ?_⟩
    rw [← Option.some.inj hi]
    exact ⟨fun _ => h.2, Or.inl h.2⟩
  | focUnsym m =>
    simp only [Call.exec, Call.value, hmap]
    refine Tri.bind (focUnsymM_tri roots m) fun r x => Tri.ret fun s h => ?_
    refine ⟨by simp only; rw [h.1], fun i hi => ?_⟩
    rw [← Option.some.inj hi]
    exact ⟨fun _ => h.2, Or.inl h.2⟩
  | ncTorsion m kf fy sym unc =>
    simp only [Call.exec, Call.value, hmap]
    refine Tri.bind (NcTorsionM_tri roots m kf fy sym unc) fun r x => Tri.ret fun s h => ?_
    refine ⟨by simp only; rw [h.1], fun i hi => ?_⟩
    rw [← Option.some.inj hi]
    exact h.2.1
  | nc a =>
    simp only [Call.exec, Call.value, hmap]
    refine Tri.bind (NcM_tri roots a) fun r x => Tri.ret fun s h => ?_
    exact ⟨by simp only; rw [h.1], h.2⟩

theorem inv_init : Inv b St.init :=
  ⟨fun _ h => (by cases h), fun _ h => (by cases h), fun _ h => (by cases h), fun _ h => (by cases h)⟩

theorem Inv.modify' {s : St} {a : ℕ} {g : Dict → Dict} (h : Inv false s) :
    Inv false { s with inner := s.inner.modify a g } := by
  refine ⟨h.rol, h.tor, ?_, ?_⟩
  · intro e he
    obtain ⟨c, f, h1, h2, _⟩ := h.foxz e he
    exact ⟨c, f, h1, h2, fun hb => by cases hb⟩
  · intro p hp
    simp only [List.length_modify]
    exact h.outer p hp

/-- every fair event keeps the invariant -/
theorem inv_step (roots : Roots) {e : Event} (he : e.isFair) {s : St} (h : Inv false s) : Inv false (e.step roots s) := by
  cases e with
  | call c => exact (exec_tri (s0 := s) roots c s h (Eff.refl _ _) trivial).1
  | write a k v => exact h.modify'
  | delete a k => exact h.modify'
  | writeOuter o f => exact he.elim
  | clearRol => exact ⟨fun _ h' => (by cases h'), h.tor, h.foxz, h.outer⟩
  | clearTor => exact ⟨h.rol, fun _ h' => (by cases h'), h.foxz, h.outer⟩
  | clearFoxz => exact ⟨h.rol, h.tor, fun _ h' => (by cases h'), h.outer⟩

theorem inv_run (roots : Roots) (es : List Event) (he : ∀ e ∈ es, e.isFair) {s : St} (h : Inv false s) :
    Inv false (runEvents roots es s) := by
  induction es generalizing s with
  | nil => exact h
  | cons e es ih =>
    exact ih (fun x hx => he x (List.mem_cons_of_mem _ hx)) (inv_step roots (he e List.mem_cons_self) h)

end BeamDesign.S6
