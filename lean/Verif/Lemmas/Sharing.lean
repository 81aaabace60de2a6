import Verif.Spec.Sharing
import Verif.Props.Load
import Verif.Props.Beam

/-!
# Lemmas on objects that stay valid
-/

set_option linter.unusedSectionVars false
set_option linter.unusedSimpArgs false

namespace BeamDesign

open Spec

theorem optMapM_iff {α β : Type} (f : α → Option β) (l : List α) (ys : List β) :
    l.mapM f = some ys ↔ List.Forall₂ (fun a b => f a = some b) l ys := by
  induction l generalizing ys with
  | nil => cases ys <;> simp [pure]
  | cons a t ih =>
    rw [List.mapM_cons]
    cases ys with
    | nil =>
      simp only [List.forall₂_nil_right_iff, reduceCtorEq, iff_false]
      cases f a <;> simp [bind, Option.bind]
      cases t.mapM f <;> simp [pure]
    | cons b u =>
      rw [List.forall₂_cons, ← ih]
      cases f a <;> simp [bind, Option.bind]
      cases t.mapM f <;> simp [pure]

theorem optMapM_some {α β : Type} {f : α → Option β} {l : List α} (h : ∀ a ∈ l, ∃ b, f a = some b) :
    ∃ ys, l.mapM f = some ys := by
  induction l with
  | nil => exact ⟨[], rfl⟩
  | cons a t ih =>
    obtain ⟨b, hb⟩ := h a (by simp)
    obtain ⟨ys, hy⟩ := ih fun x hx => h x (by simp [hx])
    exact ⟨b :: ys, by rw [List.mapM_cons, hb, hy]; rfl⟩

section
variable {K : Type} [Field K] [LinearOrder K] [IsStrictOrderedRing K]

/-- the load case ids of an element -/
def keysOf (s : Store K) (e : ℕ) : Option (List ℤ) :=
  (dictOf s e).bind fun d => s.dicts[d]?.map fun kv => kv.map (·.1)

/-- what every reachable store satisfies -/
structure Inv (s : Store K) : Prop where
  arr : ∀ a, Stored s a → ∃ t, s.arrays[a]? = some t ∧ WellFormed t.rows
  dict : ∀ kv ∈ s.dicts, ∀ p ∈ kv, p.2 < s.cases.length
  elem : ∀ el ∈ s.elems, el.1 < s.dicts.length ∧ ∀ x, el.2 = some x → 0 ≤ x.val
  list : ∀ es ∈ s.lists, ∀ e ∈ es, e < s.elems.length
  beam : ∀ l ∈ s.beams, ∃ es, s.lists[l]? = some es ∧ es ≠ [] ∧ ∀ e ∈ es, ∀ e' ∈ es, keysOf s e = keysOf s e'

theorem caseNow_some {s : Store K} (h : Inv s) {c : ℕ} (hc : c < s.cases.length) :
    ∃ lc, s.caseNow c = some lc ∧ ∀ t, lc.loads = some t → WellFormed t.rows := by
  unfold Store.caseNow
  rw [List.getElem?_eq_getElem hc]
  rcases e : s.cases[c] with _ | a
  · exact ⟨_, rfl, by simp⟩
  · obtain ⟨t, ht, hw⟩ := h.arr a (show some a ∈ s.cases from e ▸ List.getElem_mem hc)
    refine ⟨⟨some t⟩, by simp [ht], ?_⟩
    rintro t' ⟨⟩
    exact hw

theorem elemNow_keys {s : Store K} {e : ℕ} {el : Element K Unit} (h : s.elemNow e = some el) :
    keysOf s e = some (el.loads.map (·.1)) ∧ s.elems[e]?.map (·.2) = some el.length := by
  unfold Store.elemNow at h
  rcases h1 : s.elems[e]? with _ | ⟨d, l⟩
  · simp [h1] at h
  rw [h1] at h
  simp only [bind, Option.bind] at h
  rcases h2 : s.dicts[d]? with _ | kv
  · simp [h2] at h
  simp only [h2] at h
  rcases h3 : kv.mapM fun p => (s.caseNow p.2).map fun lc => (p.1, lc) with _ | cs
  · simp [h3] at h
  simp only [h3, pure, Option.some.injEq] at h
  subst h
  refine ⟨?_, by simp⟩
  have hk : kv.map (·.1) = cs.map (·.1) := by
    have := (optMapM_iff _ _ _).1 h3
    clear h3 h2
    induction this with
    | nil => rfl
    | @cons a b _ _ hab _ ih =>
      simp only [List.map_cons, ih, List.cons.injEq, and_true]
      obtain ⟨lc, -, rfl⟩ := Option.map_eq_some_iff.1 hab
      rfl
  simp [keysOf, dictOf, h1, h2, hk]

theorem elemNow_some {s : Store K} (h : Inv s) {e : ℕ} (he : e < s.elems.length) :
    ∃ el, s.elemNow e = some el ∧ ∀ l, el.length = some l → 0 ≤ l.val := by
  have hm := List.getElem_mem he
  obtain ⟨h1, h2⟩ := h.elem _ hm
  have hd := h.dict _ (List.getElem_mem h1)
  obtain ⟨cs, hcs⟩ := optMapM_some (f := fun p : ℤ × ℕ => (s.caseNow p.2).map fun lc => (p.1, lc))
    (l := s.dicts[(s.elems[e]).1]) (fun p hp => by
      obtain ⟨lc, hlc, -⟩ := caseNow_some h (hd p hp)
      exact ⟨_, by rw [hlc]; rfl⟩)
  refine ⟨⟨cs, (s.elems[e]).2, ()⟩, ?_, h2⟩
  unfold Store.elemNow
  rw [List.getElem?_eq_getElem he]
  simp only [bind, Option.bind]
  rw [List.getElem?_eq_getElem h1]
  simp only [hcs]
  rfl

theorem Inv.valid {s : Store K} (h : Inv s) : AllValid s := by
  refine ⟨fun c hc => caseNow_some h hc, fun e he => elemNow_some h he, fun b hb => ?_⟩
  obtain ⟨es, h1, h2, h3⟩ := h.beam _ (List.getElem_mem hb)
  have hl : es ∈ s.lists := List.mem_of_getElem? h1
  obtain ⟨els, he⟩ := optMapM_some (f := s.elemNow) (l := es) fun e hm => by
    obtain ⟨el, q, -⟩ := elemNow_some h (h.list es hl e hm)
    exact ⟨el, q⟩
  refine ⟨⟨els⟩, ?_, ?_, ?_⟩
  · unfold Store.beamNow
    rw [List.getElem?_eq_getElem hb]
    simp only [bind, Option.bind, h1, he]
    rfl
  · rintro rfl
    have := (optMapM_iff _ _ _).1 he
    cases this
    exact h2 rfl
  · have hf := (optMapM_iff _ _ _).1 he
    intro x hx y hy
    obtain ⟨i, hi, rfl⟩ := List.mem_iff_getElem.1 hx
    obtain ⟨j, hj, rfl⟩ := List.mem_iff_getElem.1 hy
    have hlen := hf.length_eq
    have p := (elemNow_keys (hf.get (i := i) (by simp only at hi; omega) hi)).1
    have q := (elemNow_keys (hf.get (i := j) (by simp only at hj; omega) hj)).1
    have := h3 _ (List.getElem_mem (l := es) (n := i) (by simp only at hi; omega)) _
      (List.getElem_mem (l := es) (n := j) (by simp only at hj; omega))
    simp only [List.get_eq_getElem] at p q
    rw [p, q] at this
    exact Option.some.inj this

theorem Inv.empty : Inv (Store.empty K) := by
  constructor <;> simp [Store.empty, Stored]

/-! ## new objects -/

theorem Inv.addCase {s : Store K} (h : Inv s) {r : Py (LoadCase K)}
    (hr : ∀ t, r = .ok ⟨some t⟩ → WellFormed t.rows) : Inv (s.addCase r) := by
  rcases r with e | ⟨_ | t⟩
  · exact h
  · obtain ⟨h1, h2, h3, h4, h5⟩ := h
    refine ⟨fun a ha => ?_, fun kv hkv p hp => ?_, h3, h4, h5⟩
    · unfold Stored Store.addCase at ha
      simp at ha
      exact h1 a ha
    · have := h2 kv hkv p hp
      simp only [Store.addCase, List.length_append, List.length_singleton]
      omega
  · obtain ⟨h1, h2, h3, h4, h5⟩ := h
    refine ⟨fun a ha => ?_, fun kv hkv p hp => ?_, h3, h4, h5⟩
    · unfold Stored Store.addCase at ha
      simp only [List.mem_append, List.mem_singleton, Option.some.injEq] at ha
      rcases ha with ha | rfl
      · obtain ⟨t', e, w⟩ := h1 a ha
        refine ⟨t', ?_, w⟩
        simp only [Store.addCase]
        rw [List.getElem?_append_left (List.getElem?_eq_some_iff.1 e).1]
        exact e
      · exact ⟨t, by simp [Store.addCase], hr t rfl⟩
    · have := h2 kv hkv p hp
      simp only [Store.addCase, List.length_append, List.length_singleton]
      omega

theorem dictSet_values {kv : List (ℤ × ℕ)} {k : ℤ} {c n : ℕ} (h : ∀ p ∈ kv, p.2 < n) (hc : c < n) :
    ∀ p ∈ dictSet kv k c, p.2 < n := by
  intro p hp
  unfold dictSet at hp
  split at hp
  · obtain ⟨q, hq, rfl⟩ := List.mem_map.1 hp
    split
    · exact hc
    · exact h q hq
  · rcases List.mem_append.1 hp with hp | hp
    · exact h p hp
    · rw [List.mem_singleton.1 hp]; exact hc

theorem dictFold_values {kv : List (ℤ × ℕ)} {n : ℕ} (h : ∀ p ∈ kv, p.2 < n) (acc : List (ℤ × ℕ))
    (ha : ∀ p ∈ acc, p.2 < n) : ∀ p ∈ kv.foldl (fun d p => dictSet d p.1 p.2) acc, p.2 < n := by
  induction kv generalizing acc with
  | nil => exact ha
  | cons a t ih =>
    exact ih (fun p hp => h p (by simp [hp])) _ (dictSet_values ha (h a (by simp)))

theorem dictSet_keys {kv : List (ℤ × ℕ)} {k : ℤ} (c : ℕ) (h : k ∈ kv.map (·.1)) :
    (dictSet kv k c).map (·.1) = kv.map (·.1) := by
  unfold dictSet
  rw [if_pos h, List.map_map]
  apply List.map_congr_left
  intro p _
  simp only [Function.comp]
  split
  · rename_i e; exact e.symm
  · rfl

theorem keysOf_append_dict {s : Store K} (h : ∀ el ∈ s.elems, el.1 < s.dicts.length) (kv : List (ℤ × ℕ)) (e : ℕ) :
    keysOf { s with dicts := s.dicts ++ [kv] } e = keysOf s e := by
  unfold keysOf dictOf
  rcases he : s.elems[e]? with _ | el
  · rfl
  · have := h el (List.mem_of_getElem? he)
    simp only [Option.map_some, Option.bind_some]
    rw [List.getElem?_append_left this]

theorem keysOf_append_elem {s : Store K} (x : ℕ × Option (Num K)) {e : ℕ} (he : e < s.elems.length) :
    keysOf { s with elems := s.elems ++ [x] } e = keysOf s e := by
  unfold keysOf dictOf
  simp only
  rw [List.getElem?_append_left he]

theorem dictOf_setLength (s : Store K) (e : ℕ) (l : Option (Num K)) (i : ℕ) :
    dictOf { s with elems := s.elems.modify e fun x => (x.1, l) } i = dictOf s i := by
  unfold dictOf
  simp only [List.getElem?_modify]
  split <;> cases s.elems[i]? <;> rfl

theorem keysOf_setLength (s : Store K) (e : ℕ) (l : Option (Num K)) (i : ℕ) :
    keysOf { s with elems := s.elems.modify e fun x => (x.1, l) } i = keysOf s i := by
  unfold keysOf
  rw [dictOf_setLength]

theorem keysOf_modify (s : Store K) (d : ℕ) (f : List (ℤ × ℕ) → List (ℤ × ℕ)) (e : ℕ)
    (h : ∀ kv, s.dicts[d]? = some kv → dictOf s e = some d → (f kv).map (·.1) = kv.map (·.1)) :
    keysOf { s with dicts := s.dicts.modify d f } e = keysOf s e := by
  unfold keysOf
  have : dictOf { s with dicts := s.dicts.modify d f } e = dictOf s e := rfl
  rw [this]
  rcases he : dictOf s e with _ | i
  · rfl
  · simp only [Option.bind_some, List.getElem?_modify]
    split
    · rename_i hi
      subst hi
      rcases hk : s.dicts[d]? with _ | kv
      · rfl
      · simp [h kv hk he]
    · rcases s.dicts[i]? with _ | kv <;> rfl

/-- changing the keys of a dict which, in every beam, belongs to all elements or to none -/
theorem beam_modify {s : Store K} (h : Inv s) {d : ℕ} (f : List (ℤ × ℕ) → List (ℤ × ℕ))
    (hu : Uniform s d ∨ ∀ kv, s.dicts[d]? = some kv → (f kv).map (·.1) = kv.map (·.1)) :
    ∀ l ∈ s.beams, ∃ es, s.lists[l]? = some es ∧ es ≠ [] ∧ ∀ e ∈ es, ∀ e' ∈ es,
      keysOf { s with dicts := s.dicts.modify d f } e = keysOf { s with dicts := s.dicts.modify d f } e' := by
  intro l hl
  obtain ⟨es, h1, h2, h3⟩ := h.beam l hl
  refine ⟨es, h1, h2, fun e he e' he' => ?_⟩
  rcases hu with hu | hu
  · rcases hu l hl es h1 with hu | hu
    · unfold keysOf
      have k1 : dictOf { s with dicts := s.dicts.modify d f } e = some d := hu e he
      have k2 : dictOf { s with dicts := s.dicts.modify d f } e' = some d := hu e' he'
      rw [k1, k2]
    · rw [keysOf_modify s d f e fun _ _ q => absurd q (hu e he),
        keysOf_modify s d f e' fun _ _ q => absurd q (hu e' he')]
      exact h3 e he e' he'
  · rw [keysOf_modify s d f e fun kv q _ => hu kv q, keysOf_modify s d f e' fun kv q _ => hu kv q]
    exact h3 e he e' he'

theorem mem_modify {α : Type} {l : List α} {i : ℕ} {f : α → α} {x : α} (h : x ∈ l.modify i f) :
    x ∈ l ∨ ∃ y, l[i]? = some y ∧ x = f y := by
  obtain ⟨j, hj⟩ := List.mem_iff_getElem?.1 h
  rw [List.getElem?_modify] at hj
  split at hj
  · rename_i e
    subst e
    rcases hy : l[i]? with _ | y
    · simp [hy] at hj
    · simp only [hy, Option.map_eq_map, Option.map_some, Option.some.injEq] at hj
      exact Or.inr ⟨y, rfl, hj.symm⟩
  · left
    rcases hy : l[j]? with _ | y
    · simp [hy] at hj
    · simp only [hy, Option.map_eq_map, Option.map_some, id_eq, Option.some.injEq] at hj
      exact hj ▸ List.mem_of_getElem? hy

theorem checkAndSet_wf {b : Bool} {rows : List (LRow K)} {t : Table K}
    (h : LoadCase.checkAndSet b rows = .ok ⟨some t⟩) : WellFormed t.rows := by
  obtain ⟨w, e⟩ := (checkAndSet_ok_iff _ _ _).1 h
  simp only [LoadCase.mk.injEq, Option.some.injEq] at e
  rw [e]; exact w

theorem new_wf {raw : RawLoads K} {t : Table K} (h : LoadCase.new raw = .ok ⟨some t⟩) : WellFormed t.rows := by
  rcases (C01_accepts_iff raw ⟨some t⟩).1 h with ⟨-, q⟩ | ⟨r, row, b, -, -, w, q, -⟩ | ⟨rs, rows, b, -, -, w, q, -⟩
  · cases q
  · simp only [Option.some.injEq] at q
    rw [q]; exact w
  · simp only [Option.some.injEq] at q
    rw [q]; exact w

end

end BeamDesign
