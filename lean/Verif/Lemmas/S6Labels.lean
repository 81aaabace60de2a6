import Verif.Lemmas.S6Cache

/-!
# What a call of section 6 leaves in the dictionary it returns
-/

set_option linter.unusedSimpArgs false

namespace BeamDesign.S6

variable {α β : Type}

/-- when `x` returns from the state `s`, its value and the state then satisfy `Q` -/
def Ends (x : M α) (s : St) (Q : α → St → Prop) : Prop := ∀ a s', x s = (.ok a, s') → Q a s'

theorem Ends.bind {x : M α} {f : α → M β} {s : St} {Q : β → St → Prop}
    (h : Ends x s fun a s' => Ends (f a) s' Q) : Ends (x >>= f) s Q := by
  intro r s' e
  have e' : M.andThen x f s = (.ok r, s') := e
  unfold M.andThen at e'
  rcases hx : x s with ⟨_ | a, s1⟩ <;> rw [hx] at e'
  · cases e'
  · exact h a s1 hx r s' e'

theorem Ends.ret {a : α} {s : St} {Q : α → St → Prop} (h : Q a s) : Ends (pure a : M α) s Q := by
  intro r s' e
  have e' : (M.ret a : M α) s = (.ok r, s') := e
  simp only [M.ret, Prod.mk.injEq, Except.ok.injEq] at e'
  obtain ⟨rfl, rfl⟩ := e'
  exact h

theorem Ends.lift {p : Py α} {s : St} {Q : α → St → Prop} (h : ∀ a, p = .ok a → Q a s) : Ends (M.lift p) s Q := by
  intro r s' e
  simp only [M.lift, Prod.mk.injEq] at e
  obtain ⟨e1, rfl⟩ := e
  exact h r e1

theorem Ends.mono {x : M α} {s : St} {Q Q' : α → St → Prop} (h : Ends x s Q) (hq : ∀ a s', Q a s' → Q' a s') :
    Ends x s Q' := fun a s' e => hq a s' (h a s' e)

theorem ends_update {a : ℕ} {k : String} {v : Val} {s : St} {Q : Unit → St → Prop}
    (h : Q () { s with inner := s.inner.modify a (Dict.set k v) }) : Ends (update a k v) s Q := by
  intro r s' e
  simp only [update, Prod.mk.injEq] at e
  obtain ⟨_, rfl⟩ := e
  exact h

theorem ends_allocInner {d : Dict} {s : St} {Q : ℕ → St → Prop}
    (h : Q s.inner.length { s with inner := s.inner ++ [d] }) : Ends (allocInner d) s Q := by
  intro r s' e
  simp only [allocInner, Prod.mk.injEq, Except.ok.injEq] at e
  obtain ⟨rfl, rfl⟩ := e
  exact h

/-- a fact proved with the step rule -/
theorem ends_of_tri {b : Bool} {x : M α} {p : Py β} {s : St} {R : α → β → St → Prop}
    (ht : Tri b s (fun _ => True) x p R) (hi : Inv b s) :
    Ends x s fun a s' => Inv b s' ∧ Eff b s s' ∧ ∃ c, p = .ok c ∧ R a c s' := by
  intro a s' e
  obtain ⟨h1, h2, h3⟩ := ht s hi (Eff.refl _ _) trivial
  rw [e] at h1 h2 h3
  rcases hp : p with er | c <;> rw [hp] at h3
  · exact h3.elim
  · exact ⟨h1, h2, c, rfl, h3⟩

theorem ends_tor {b : Bool} {k : TKey} {s : St} (hi : Inv b s) :
    Ends (torM k) s fun z s' => Inv b s' ∧ k.value = .ok z ∧ s'.inner = s.inner ∧ s'.outer = s.outer := by
  intro a s' e
  have hP : HeapOnly fun s' => s'.inner = s.inner ∧ s'.outer = s.outer := by
    intro s1 s2 h1 h2 h
    exact ⟨h1.trans h.1, h2.trans h.2⟩
  obtain ⟨h1, _, h3⟩ := torM_tri (b := b) (s0 := s) k hP s hi (Eff.refl _ _) ⟨rfl, rfl⟩
  rw [e] at h1 h3
  rcases hp : k.value with er | c <;> rw [hp] at h3
  · exact h3.elim
  · obtain ⟨rfl, h4⟩ := h3
    exact ⟨h1, rfl, h4⟩

theorem ends_rol {b : Bool} {k : RKey} {s : St} (hi : Inv b s) :
    Ends (rolM k) s fun z s' => Inv b s' ∧ k.value = .ok z := by
  have hT : HeapOnly fun _ => True := fun _ _ _ _ _ => trivial
  refine (ends_of_tri (rolM_tri (b := b) (s0 := s) k hT) hi).mono ?_
  rintro a s' ⟨h1, _, c, h2, rfl, _⟩
  exact ⟨h1, h2⟩

/-- `f_oxz`: the dictionary it returns, found or made -/
theorem ends_foxz {b : Bool} {k : FKey} {s : St} (hi : Inv b s) :
    Ends (foxzM k) s fun o s' => Inv b s' ∧ ∃ f a, k.value = .ok f ∧ s'.outer[o]? = some (a, f.foxz) ∧
      a < s'.inner.length ∧ (b = true → (s'.dict a).Describes f) := by
  refine (ends_of_tri (foxzM_tri (b := b) (s0 := s) k) hi).mono ?_
  rintro o s' ⟨h1, _, f, hf, _, a, ho, hd⟩
  exact ⟨h1, f, a, hf, ho, h1.outer _ (List.mem_of_getElem? ho), hd⟩

theorem ends_readOuter {o : ℕ} {s : St} {p : ℕ × ℝ} (h : s.outer[o]? = some p) {Q : ℕ × ℝ → St → Prop} (hq : Q p s) :
    Ends (readOuter o) s Q := by
  intro r s' e
  simp only [readOuter, h, Prod.mk.injEq, Except.ok.injEq] at e
  obtain ⟨rfl, rfl⟩ := e
  exact hq

/-- the entry of the dictionary that was written -/
theorem dict_update {s : St} {a : ℕ} (ha : a < s.inner.length) (k : String) (v : Val) :
    St.dict { s with inner := s.inner.modify a (Dict.set k v) } a = Dict.set k v (s.dict a) := by
  rw [dict_modify, if_pos ⟨rfl, ha⟩]

end BeamDesign.S6
