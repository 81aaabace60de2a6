import Verif.Spec.Written
import Verif.Props.Objects

/-!
# C143: attributes hold what was last written to them
-/

namespace BeamDesign

open Spec Samples

variable {K : Type}

theorem lastWritten_cons {C α : Type} (f : C → Option α) (first : α) (c : C) (hist : List C) :
    lastWritten f first (c :: hist) = lastWritten f ((f c).getD first) hist := by
  unfold lastWritten
  cases hc : f c with
  | none => rw [List.filterMap_cons_none hc]; rfl
  | some x =>
    rw [List.filterMap_cons_some hc, List.getLast?_cons]
    cases (List.filterMap f hist).getLast? <;> rfl

/-- C143: a circular section has the radius and the material last assigned to it, whatever else was done, to it or to other objects; if
none was assigned, those it had. -/
theorem C143_section [Field K] [LinearOrder K] (w : World K) (hist : List (Change K)) (s : ℕ) (r : K) (m : Option (Material K))
    (h : w.sects[s]? = some (.circle r m)) :
    (w.after hist).sects[s]? = some (.circle (lastWritten (writesRadius s) r hist) (lastWritten (writesMaterial s) m hist)) := by
  induction hist generalizing w r m with
  | nil => exact h
  | cons c cs ih =>
    rw [lastWritten_cons, lastWritten_cons]
    refine ih (c.exec w) _ _ ?_
    have hlt := (List.getElem?_eq_some_iff.1 h).1
    cases c <;> try exact h
    case newSection x => exact (List.getElem?_append_left hlt).trans h
    case radius i x =>
      by_cases hi : i = s
      · subst hi
        simp [Change.exec, h, Sect.setRadius, writesRadius, writesMaterial]
      · simp [Change.exec, h, hi, writesRadius, writesMaterial]
    case material i x =>
      by_cases hi : i = s
      · subst hi
        simp [Change.exec, h, Sect.setMaterial, writesRadius, writesMaterial]
      · simp [Change.exec, h, hi, writesRadius, writesMaterial]

/-- C143: an element has the length and the section last assigned to it, and the loads it was made with. -/
theorem C143_element [Field K] [LinearOrder K] (w : World K) (hist : List (Change K)) (e : ℕ) (x : OElement K)
    (h : w.elems[e]? = some x) :
    (w.after hist).elems[e]? = some ⟨x.loads, lastWritten (writesLength e) x.length hist, lastWritten (writesSection e) x.sect hist⟩ := by
  induction hist generalizing w x with
  | nil => exact h
  | cons c cs ih =>
    rw [lastWritten_cons, lastWritten_cons]
    have hlt := (List.getElem?_eq_some_iff.1 h).1
    refine ih (c.exec w) ⟨x.loads, (writesLength e c).getD x.length, (writesSection e c).getD x.sect⟩ ?_
    cases c <;> try exact h
    case newElement y => exact (List.getElem?_append_left hlt).trans h
    case length i y =>
      by_cases hi : i = e
      · subst hi
        simp [Change.exec, h, writesLength, writesSection]
      · simp [Change.exec, h, hi, writesLength, writesSection]
    case elementSection i y =>
      by_cases hi : i = e
      · subst hi
        simp [Change.exec, h, writesLength, writesSection]
      · simp [Change.exec, h, hi, writesLength, writesSection]

/-- C143: a wrapper holds the section last assigned to it. -/
theorem C143_wrapper [Field K] [LinearOrder K] (w : World K) (hist : List (Change K)) (n s : ℕ) (h : w.wraps[n]? = some s) :
    (w.after hist).wraps[n]? = some (lastWritten (writesWrapper n) s hist) := by
  induction hist generalizing w s with
  | nil => exact h
  | cons c cs ih =>
    rw [lastWritten_cons]
    have hlt := (List.getElem?_eq_some_iff.1 h).1
    refine ih (c.exec w) _ ?_
    cases c <;> try exact h
    case wrapperSection i y =>
      by_cases hi : i = n
      · subst hi
        simp [Change.exec, hlt, writesWrapper]
      · simp [Change.exec, h, hi, writesWrapper]

theorem wraps_length [Field K] [LinearOrder K] (w : World K) (hist : List (Change K)) : (w.after hist).wraps.length = w.wraps.length := by
  induction hist generalizing w with
  | nil => rfl
  | cons c cs ih =>
    refine (ih (c.exec w)).trans ?_
    cases c <;> simp [Change.exec]

/-- C143: the factors and the number of assessment points of the `AS4100` object are those last assigned. -/
theorem C143_factors [Field K] [LinearOrder K] (w : World K) (hist : List (Change K)) :
    (w.after hist).phiSteel = lastWritten writesPhi w.phiSteel hist ∧ (w.after hist).alphaU = lastWritten writesAlphaU w.alphaU hist ∧
    (w.after hist).kt = lastWritten writesKt w.kt hist ∧
    (w.after hist).assessmentPoints = lastWritten writesPoints w.assessmentPoints hist := by
  induction hist generalizing w with
  | nil => exact ⟨rfl, rfl, rfl, rfl⟩
  | cons c cs ih =>
    rw [lastWritten_cons, lastWritten_cons, lastWritten_cons, lastWritten_cons]
    have := ih (c.exec w)
    cases c <;> exact this

/-- C143: the beam consists of the same elements until `beam.elements` is changed. -/
theorem C143_beam [Field K] [LinearOrder K] (w : World K) (hist : List (Change K)) (hl : ∀ c ∈ hist, ListLeft c) :
    (w.after hist).beam = w.beam := by
  induction hist generalizing w with
  | nil => rfl
  | cons c cs ih =>
    refine (ih (c.exec w) fun x hx => hl x (List.mem_cons_of_mem _ hx)).trans ?_
    have := hl c List.mem_cons_self
    cases c <;> first | rfl | exact this.elim

/-- C143: what the `AS4100` object then computes with: for each element of the beam its loads, the length last assigned and the section
that the object `s` last assigned to the element holds; for each wrapper the radius and material last assigned to its section. -/
theorem C143_now [Field K] [LinearOrder K] (w : World K) (hist : List (Change K)) (hl : ∀ c ∈ hist, ListLeft c) (o : AS4100 K)
    (ho : (w.after hist).now = .ok o) :
    o.phiSteel = lastWritten writesPhi w.phiSteel hist ∧ o.alphaU = lastWritten writesAlphaU w.alphaU hist ∧
    o.kt = lastWritten writesKt w.kt hist ∧ o.assessmentPoints = lastWritten writesPoints w.assessmentPoints hist ∧
    (∃ b : Beam K (Sect K), o.beam = some b ∧ b.elements.length = w.beam.length ∧ ∀ (j e : ℕ) (x : OElement K), w.beam[j]? = some e → w.elems[e]? = some x →
      ∃ y : Element K (Sect K), b.elements[j]? = some y ∧ y.loads = x.loads ∧ y.length = lastWritten (writesLength e) x.length hist ∧
        ∀ r m, w.sects[lastWritten (writesSection e) x.sect hist]? = some (.circle r m) →
          y.sect = .circle (lastWritten (writesRadius (lastWritten (writesSection e) x.sect hist)) r hist)
            (lastWritten (writesMaterial (lastWritten (writesSection e) x.sect hist)) m hist)) ∧
    o.dsects.length = w.wraps.length ∧ ∀ (n s : ℕ) (r : K) (m : Option (Material K)), w.wraps[n]? = some s →
      w.sects[lastWritten (writesWrapper n) s hist]? = some (.circle r m) → ∃ d, o.dsects[n]? = some d ∧
        d.radius = lastWritten (writesRadius (lastWritten (writesWrapper n) s hist)) r hist ∧
        some d.material = lastWritten (writesMaterial (lastWritten (writesWrapper n) s hist)) m hist := by
  obtain ⟨h1, h2, h3, h4⟩ := C143_factors w hist
  have h5 := C143_beam w hist hl
  have h8 := fun n s => C143_wrapper w hist n s
  have h9 : (w.after hist).wraps.length = w.wraps.length := wraps_length w hist
  have h6 := fun e x => C143_element w hist e x
  have h7 := fun s r m => C143_section w hist s r m
  generalize w.after hist = w' at *
  unfold World.now at ho
  cases hb : w'.beamNow with
  | error => rw [hb] at ho; cases ho
  | ok b =>
    rw [hb] at ho
    cases hm : w'.wraps.mapM fun i => do (← objGet w'.sects i).wrapped with
    | error => simp only [bind, Except.bind] at ho hm; rw [hm] at ho; cases ho
    | ok ds =>
      have hm' := hm
      simp only [bind, Except.bind, pure, Except.pure] at ho hm'
      rw [hm'] at ho
      cases ho
      refine ⟨h1, h2, h3, h4, ⟨b, rfl, ?_⟩, ?_⟩
      swap
      · obtain ⟨hlen, hall⟩ := List.forall₂_iff_get.1 ((mapM_ok_iff _ _ _).1 hm)
        refine ⟨hlen.symm.trans h9, fun n s r m hn hs => ?_⟩
        obtain ⟨hn1, hn2⟩ := List.getElem?_eq_some_iff.1 (h8 n s hn)
        have hr := hall n hn1 (hlen ▸ hn1)
        simp only [List.get_eq_getElem, hn2, objGet, h7 _ _ _ hs, bind, Except.bind] at hr
        refine ⟨ds[n], List.getElem?_eq_getElem (hlen ▸ hn1), ?_⟩
        generalize ds[n] = d at hr
        cases hm : lastWritten (writesMaterial (lastWritten (writesWrapper n) s hist)) m hist with
        | none => rw [hm] at hr; cases hr
        | some m' => rw [hm] at hr; cases hr; exact ⟨rfl, rfl⟩
      unfold World.beamNow at hb
      cases hes : w'.beam.mapM fun i => do
          let e ← objGet w'.elems i
          return (⟨e.loads, e.length, ← objGet w'.sects e.sect⟩ : Element K (Sect K)) with
      | error => simp only [bind, Except.bind, pure, Except.pure] at hb hes; rw [hes] at hb; cases hb
      | ok es =>
        have hes' := hes
        simp only [bind, Except.bind, pure, Except.pure] at hb hes'
        rw [hes'] at hb
        cases hb
        have hall := (mapM_ok_iff _ _ _).1 hes
        rw [h5] at hall
        refine ⟨hall.length_eq.symm, fun j e x hj hx => ?_⟩
        obtain ⟨hlen, hall⟩ := List.forall₂_iff_get.1 hall
        obtain ⟨hj1, hje⟩ := List.getElem?_eq_some_iff.1 hj
        have hr := hall j hj1 (hlen ▸ hj1)
        simp only [List.get_eq_getElem, hje] at hr
        have hy : es[j]? = some es[j] := List.getElem?_eq_getElem (hlen ▸ hj1)
        generalize es[j] = y at hr hy
        refine ⟨y, hy, ?_⟩
        simp only [objGet, h6 e x hx, bind, Except.bind, pure, Except.pure] at hr
        cases hs : w'.sects[lastWritten (writesSection e) x.sect hist]? with
        | none => rw [hs] at hr; cases hr
        | some s =>
          rw [hs] at hr
          cases hr
          refine ⟨rfl, rfl, fun r m hrm => ?_⟩
          rw [h7 _ _ _ hrm] at hs
          exact (Option.some.inj hs).symm

/-! ## A case meeting the hypotheses -/

/-- a history in which the same attributes are assigned several times, of several objects -/
def rewrites : List (Change ℚ) := [.radius 0 (1/40), .material 1 none, .length 1 (some (Num.flt 4)), .radius 1 (1/30), .radius 0 (1/60), .kt (9/10),
  .elementSection 0 1, .material 1 (some steel), .kt (8/10)]

/-- C143, concretely: the first rod is changed twice, and the material of the second one is removed and put back. -/
example : (C60_world.after rewrites).sects[0]? = some (.circle (1/60) (some steel)) ∧
    (C60_world.after rewrites).sects[1]? = some (.circle (1/30) (some steel)) ∧
    (∀ c ∈ rewrites, ListLeft c) ∧ ∃ o, (C60_world.after rewrites).now = .ok o ∧ o.kt = 8/10 := by
  have h0 := C143_section C60_world rewrites 0 (1/100) (some steel) rfl
  have h1 := C143_section C60_world rewrites 1 (1/50) (some steel) rfl
  refine ⟨h0, h1, by simp [rewrites, ListLeft], _, rfl, rfl⟩

end BeamDesign
