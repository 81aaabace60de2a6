import Verif.Spec.Objects
import Verif.Spec.SamplesAS
import Verif.Lemmas.AS4100

/-!
# Design sections and the beam (C60)

The property as stated, "`as4100_sections[n]` is the wrapper of `sections[n]` at all times", is false: see the
counterexamples.  What holds: it is true for every history of changes that does not assign `element.section` or
`wrapper.section` and does not change the list of elements.
-/

set_option linter.unusedSectionVars false
set_option linter.unusedSimpArgs false

namespace BeamDesign

open Spec

section
variable {K : Type} [Field K] [LinearOrder K]

theorem objGet_ok {α : Type} {xs : List α} {i : ℕ} {a : α} : objGet xs i = .ok a ↔ xs[i]? = some a := by
  unfold objGet
  cases xs[i]? <;> simp

theorem construct_wraps {sects : List (Sect K)} {elems : List (OElement K)} {beam : List ℕ} {p a k : K} {w : World K}
    (h : World.construct sects elems beam p a k = .ok w) : WrapsSections w := by
  unfold World.construct at h
  simp only [bind, Except.bind] at h
  split at h
  · cases h
  next nos hn =>
  split at h
  · cases h
  cases h
  exact hn

theorem exec_wraps {w : World K} {c : Change K} (hc : SameObjects c) (h : WrapsSections w) :
    WrapsSections (c.exec w) := by
  have key : ∀ elems : List (OElement K), (∀ (i : ℕ) (e : OElement K), w.elems[i]? = some e → ∃ e' : OElement K, elems[i]? = some e' ∧ e'.sect = e.sect) →
      ∀ w' : World K, w'.elems = elems → w'.beam = w.beam → w'.wraps = w.wraps → WrapsSections w' := by
    intro elems he w' h1 h2 h3
    unfold WrapsSections World.sectionNos at h ⊢
    rw [h1, h2, h3]
    rw [mapM_ok_iff] at h ⊢
    refine h.imp ?_
    intro i s hs
    simp only [bind, Except.bind] at hs ⊢
    split at hs
    · cases hs
    next e hx =>
    cases hs
    rw [objGet_ok] at hx
    obtain ⟨e', h4, h5⟩ := he i e hx
    have := objGet_ok.2 h4
    rw [this]
    simp [pure, Except.pure, h5]
  cases c with
  | elementSection => exact hc.elim
  | wrapperSection => exact hc.elim
  | append => exact hc.elim
  | delete => exact hc.elim
  | newElement e =>
    refine key _ ?_ _ rfl rfl rfl
    intro i x hx
    refine ⟨x, ?_, rfl⟩
    have : i < w.elems.length := by
      by_contra hn
      rw [List.getElem?_eq_none (by omega)] at hx; cases hx
    show (w.elems ++ [e])[i]? = some x
    rw [List.getElem?_append_left this]; exact hx
  | length e l =>
    refine key _ ?_ _ rfl rfl rfl
    intro i x hx
    show ∃ e' : OElement K, (w.elems.modify e fun x => { x with length := l })[i]? = some e' ∧ e'.sect = x.sect
    rw [List.getElem?_modify, hx]
    by_cases hi : e = i
    · exact ⟨{ x with length := l }, by simp [hi], rfl⟩
    · exact ⟨x, by simp [hi], rfl⟩
  | newSection | radius | material | phiSteel | alphaU | kt | assessmentPoints =>
    exact key _ (fun i e he => ⟨e, he, rfl⟩) _ rfl rfl rfl

theorem after_wraps {w : World K} (h : WrapsSections w) (hist : List (Change K)) (hc : ∀ c ∈ hist, SameObjects c) :
    WrapsSections (w.after hist) := by
  induction hist generalizing w with
  | nil => exact h
  | cons c cs ih =>
    exact ih (exec_wraps (hc c (List.mem_cons_self ..)) h) fun x hx => hc x (List.mem_cons_of_mem _ hx)

theorem fresh_now {w : World K} (h : WrapsSections w) {o : AS4100 K} (hf : freshObject w = .ok o) :
    w.now = .ok { o with assessmentPoints := w.assessmentPoints } := by
  unfold freshObject at hf
  rcases hb : w.beamNow with e | b
  · rw [hb] at hf; cases hf
  rw [hb] at hf
  simp only [bind, Except.bind, AS4100.new] at hf
  split at hf
  · cases hf
  next ds hds =>
  cases hf
  have hwr : (w.wraps.mapM fun i => do (← objGet w.sects i).wrapped) = .ok ds := by
    unfold WrapsSections World.sectionNos at h
    rw [mapM_ok_iff] at h
    unfold World.beamNow at hb
    simp only [bind, Except.bind] at hb
    split at hb
    · cases hb
    next es hes =>
    cases hb
    rw [mapM_ok_iff] at hes
    simp only [sectionsOf, Beam.sections] at hds
    rw [mapM_ok_iff] at hds ⊢
    revert hds hes h
    generalize w.wraps = ws
    generalize w.beam = bs
    intro h hes hds
    rw [List.forall₂_map_left_iff] at hds
    induction h generalizing es ds with
    | nil =>
      cases hes
      cases hds
      exact .nil
    | @cons i s is ss his _ ih =>
      cases hes with
      | @cons _ e _ es' hie hes' =>
        cases hds with
        | @cons _ d _ ds' hed hds' =>
          refine .cons ?_ (ih _ _ hes' hds')
          simp only [bind, Except.bind] at his hie ⊢
          split at his
          · cases his
          next x hx =>
          cases his
          rw [hx] at hie
          simp only at hie
          split at hie
          · cases hie
          next s hs =>
          cases hie
          simp only at hed ⊢
          unfold DSect.factory at hed
          cases s with
          | other m => cases hed
          | circle r m =>
            cases m with
            | none => cases hed
            | some m =>
              simp only at hed
              split_ifs at hed
              cases hed
              rfl
  unfold World.now
  rw [hb]
  simp only [bind, Except.bind] at hwr ⊢
  rw [hwr]
  rfl

/-- **C60**, part.  For every history of changes to radii, materials, lengths and factors, and of new objects:
`as4100_sections[n]` wraps the very object `sections[n]`, for every `n`.
Missing: histories that assign `element.section` or a wrapper's `section` or change the list `beam.elements`
(`C60_section_counterexample`, `C60_append_counterexample`). -/
theorem C60_same_objects_partial {sects : List (Sect K)} {elems : List (OElement K)} {beam : List ℕ} {p a k : K}
    {w : World K} (h : World.construct sects elems beam p a k = .ok w) (hist : List (Change K))
    (hc : ∀ c ∈ hist, SameObjects c) : WrapsSections (w.after hist) :=
  after_wraps (construct_wraps h) hist hc

/-- **C60**, part.  After such a history the object is what a new `AS4100` object of the same beam would be, so
long as that can be made at all; so all capacities (and all other results) refer to the current sections. -/
theorem C60_current_partial {sects : List (Sect K)} {elems : List (OElement K)} {beam : List ℕ} {p a k : K}
    {w : World K} (h : World.construct sects elems beam p a k = .ok w) (hist : List (Change K))
    (hc : ∀ c ∈ hist, SameObjects c) {fresh : AS4100 K} (hf : freshObject (w.after hist) = .ok fresh) :
    ∃ o, (w.after hist).now = .ok o ∧ o = { fresh with assessmentPoints := (w.after hist).assessmentPoints } ∧
      ∀ rt position, o.phiNt rt position = fresh.phiNt rt position ∧ o.Nty rt position = fresh.Nty rt position ∧
        o.Ntu rt position = fresh.Ntu rt position :=
  ⟨_, fresh_now (after_wraps (construct_wraps h) hist hc) hf, rfl, fun _ _ => ⟨rfl, rfl, rfl⟩⟩

/-- What happens in general: as long as nobody assigns a wrapper's `section`, the wrappers hold the sections the
elements had when the `AS4100` object was made. -/
theorem C60_wrappers_stay_partial {sects : List (Sect K)} {elems : List (OElement K)} {beam : List ℕ} {p a k : K}
    {w : World K} (h : World.construct sects elems beam p a k = .ok w) (hist : List (Change K))
    (hc : ∀ c ∈ hist, WrappersLeft c) : w.sectionNos = .ok (w.after hist).wraps := by
  have h1 := construct_wraps h
  have h2 : (w.after hist).wraps = w.wraps := by
    clear h h1
    induction hist generalizing w with
    | nil => rfl
    | cons c cs ih =>
      have h3 := ih (w := c.exec w) fun x hx => hc x (List.mem_cons_of_mem _ hx)
      have h4 : (c.exec w).wraps = w.wraps := by
        have := hc c (List.mem_cons_self ..)
        cases c <;> first | rfl | exact this.elim
      exact h3.trans h4
  rw [h2]; exact h1

end

section
open Samples

/-- Two rods, a 20 mm and a 40 mm one, and an element with load case 7 of each. -/
def C60_sects : List (Sect ℚ) := [rod (1/100), rod (1/50)]

/-- the elements -/
def C60_elems : List (OElement ℚ) := [⟨[(7, lc)], some (Num.flt 2), 0⟩, ⟨[(7, lc)], some (Num.flt 3), 1⟩]

/-- The `AS4100` object for the two. -/
def C60_world : World ℚ := ⟨C60_sects, C60_elems, [0, 1], [0, 1], 20, 90/100, 85/100, 1⟩

example : World.construct C60_sects C60_elems [0, 1] (90/100) (85/100) 1 = .ok C60_world := rfl

/-- A history allowed in the theorems: a thicker rod, another factor, a longer element.  The capacity follows. -/
example : (∀ c ∈ [Change.radius 0 (1/40 : ℚ), .kt (9/10), .length 1 (some (Num.flt 4))], SameObjects c) ∧
    (∃ fresh, freshObject (C60_world.after [Change.radius 0 (1/40), .kt (9/10), .length 1 (some (Num.flt 4))]) = .ok fresh) ∧
    (do (← (C60_world.after [Change.radius 0 (1/40), .kt (9/10), .length 1 (some (Num.flt 4))]).now).phiNt rt .none)
      ≠ (do (← C60_world.now).phiNt rt .none) := by
  refine ⟨by simp [SameObjects], ⟨_, rfl⟩, by decide +kernel⟩

/-- Against **C60**: after `elements[0].section = elements[1].section` the first wrapper is still that of the old
section, and the capacity is that of the old, thin rod; a new `AS4100` object has a larger one. -/
theorem C60_section_counterexample :
    let w := C60_world.after [.elementSection 0 1]
    ¬ WrapsSections w ∧
      (do (← w.now).phiNt rt .none) = (do (← C60_world.now).phiNt rt .none) ∧
      ∃ old new, (do (← w.now).phiNt rt .none) = .ok old ∧ (do (← freshObject w).phiNt rt .none) = .ok new ∧
        old < new := by
  refine ⟨?_, ?_, ?_⟩
  · unfold WrapsSections; decide +kernel
  · decide +kernel
  · refine ⟨90/100 * (piD * (1/100 * (1/100)) * 250000000), 90/100 * (piD * (1/50 * (1/50)) * 250000000), ?_, ?_, ?_⟩ <;>
      decide +kernel

/-- Against **C60**: `beam.elements.append(element)` makes a beam the object has no design section for; its capacity
in the new element is an `IndexError`. -/
theorem C60_append_counterexample :
    let w := C60_world.after [.append 0]
    ¬ WrapsSections w ∧ (do (← w.now).phiNt rt (.scalar (Num.flt 6))) = .error .indexError ∧
      ∃ new, (do (← freshObject w).phiNt rt (.scalar (Num.flt 6))) = .ok new := by
  refine ⟨?_, ?_, ⟨90/100 * (piD * (1/100 * (1/100)) * 250000000), ?_⟩⟩
  · unfold WrapsSections; decide +kernel
  · decide +kernel
  · decide +kernel

/-- The hypothesis of `C60_current_partial` that a new object can be made is needed: the material is checked only by the
constructor.  With a concrete material put into a section the object still gives a capacity, where a new object is
refused. -/
theorem C60_material_counterexample :
    ∃ m : Material ℚ, ∃ cap, m.type = .mat .concrete ∧
      freshObject (C60_world.after [.material 0 (some m)]) = .error .invalidMaterial ∧
      (do (← (C60_world.after [.material 0 (some m)]).now).phiNt rt .none) = .ok cap := by
  refine ⟨{ steel with type := .mat .concrete }, 90/100 * (piD * (1/100 * (1/100)) * 250000000), rfl, rfl, ?_⟩
  decide +kernel

end

end BeamDesign
