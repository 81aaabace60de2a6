import Verif.Props.Unloaded
import Verif.Props.Beam

/-!
# A load case the beam does not have: C147
-/

set_option linter.unusedSimpArgs false
set_option linter.unusedSectionVars false

namespace BeamDesign

open Spec

section
variable {K S : Type} [Field K] [LinearOrder K]

theorem case_unknown {e : Element K S} {c : ℤ} (h : c ∉ e.loadCases) : e.case c = .error .keyError := by
  unfold Element.case
  cases hl : e.loads.lookup c with
  | none => rfl
  | some lc =>
    obtain ⟨l1, l2, e, -⟩ := List.lookup_eq_some_iff.1 hl
    exact absurd (List.mem_map.2 ⟨(c, lc), by rw [e]; simp, rfl⟩) h

/-- C147: asked for a load case it does not have, an element raises `KeyError`, whatever else it is asked. -/
theorem C147_element (rt : Rt K) (e : Element K S) {c : ℤ} (h : c ∉ e.loadCases) (position : PosArg K) (n : Option ℤ)
    (component : CompArg) : e.getLoads rt c position n component = .error .keyError ∧ e.loadPositions c = .error .keyError := by
  simp only [Element.getLoads, Element.loadPositions, case_unknown h, bind, Except.bind, and_self]

variable [FloorRing K]

theorem loadStep_unknown (rt : Rt K) {b : Beam K S} {c : ℤ} (h : ∀ e ∈ b.elements, c ∉ e.loadCases) (component : CompArg)
    (acc : Option (Tab K)) (l : Loc K) (t : Option (Tab K)) : b.loadStep rt c component acc l ≠ .ok t := by
  intro ht
  unfold Beam.loadStep at ht
  cases he : pyIndex b.elements (l.elem : ℤ) with
  | error x => simp [he, bind, Except.bind] at ht
  | ok e =>
    have hm : e ∈ b.elements := by
      obtain ⟨i, hi, -⟩ := (pyIndex_ok_iff _ _ _).1 he
      exact List.mem_of_getElem? hi
    simp [he, bind, Except.bind, (C147_element rt e (h e hm) (.scalar l.loc) none component).1] at ht

theorem getLoads_unknown (rt : Rt K) {b : Beam K S} {c : ℤ} (h : ∀ e ∈ b.elements, c ∉ e.loadCases) (position : PosArg K)
    (n : Option ℤ) (component : CompArg) (t : Tab K) : b.getLoads rt c position n component ≠ .ok (some t) := by
  intro ht
  unfold Beam.getLoads at ht
  cases hl : b.listPositions rt position n (some c) with
  | error x => simp [hl, bind, Except.bind] at ht
  | ok locs =>
    simp only [hl, bind, Except.bind] at ht
    cases locs with
    | nil => simp [List.foldlM, pure, Except.pure] at ht
    | cons l locs =>
      rw [List.foldlM_cons] at ht
      cases hs : b.loadStep rt c component none l with
      | error x => simp [hs, bind, Except.bind] at ht
      | ok s => exact loadStep_unknown rt h component none l s hs

theorem getTension_unknown (rt : Rt K) (o : AS4100 K) {c : ℤ} (h : ∀ b, o.beam = some b → ∀ e ∈ b.elements, c ∉ e.loadCases)
    (position : PosArg K) (n : Option ℤ) (t : Tab K) : o.getTension rt c position n ≠ .ok t := by
  intro ht
  unfold AS4100.getTension at ht
  cases hb : o.beam with
  | none => simp [hb] at ht
  | some b =>
    simp only [hb, bind, Except.bind] at ht
    cases hg : b.getLoads rt c position n (.name "N") with
    | error x => simp [hg] at ht
    | ok r =>
      cases r with
      | none => simp [hg] at ht
      | some r => exact getLoads_unknown rt (h b hb) position n _ r hg

theorem utilAt_unknown (rt : Rt K) (o : AS4100 K) {c : ℤ} (h : ∀ b, o.beam = some b → ∀ e ∈ b.elements, c ∉ e.loadCases)
    (p : Num K) (r : List (ℤ × Num K × K)) : o.utilAt rt c p ≠ .ok r := by
  intro hr
  unfold AS4100.utilAt at hr
  simp only [bind, Except.bind] at hr
  split at hr
  · cases hr
  split at hr
  · cases hr
  next t ht => exact getTension_unknown rt o h _ _ t ht

theorem utilLoop_nil (rt : Rt K) (o : AS4100 K) (cs : List ℤ) :
    ∀ r : List (ℤ × Num K × K), o.utilLoop rt (some []) cs = .ok r → r = [] := by
  induction cs with
  | nil => intro r hr; simp [AS4100.utilLoop] at hr; exact hr
  | cons d cs ih =>
    intro r hr
    simp only [AS4100.utilLoop, AS4100.utilPositions, bind, Except.bind, List.mapM_nil, pure, Except.pure] at hr
    cases hl : o.utilLoop rt (some []) cs with
    | error x => simp [hl] at hr
    | ok q =>
      simp only [hl, ih q hl, List.flatten_nil, List.append_nil, Except.ok.injEq] at hr
      exact hr.symm

theorem utilLoop_some (rt : Rt K) (o : AS4100 K) {c : ℤ} (h : ∀ b, o.beam = some b → ∀ e ∈ b.elements, c ∉ e.loadCases)
    (p : Num K) (ps : List (Num K)) (cs : List ℤ) :
    ∀ r : List (ℤ × Num K × K), c ∈ cs → o.utilLoop rt (some (p :: ps)) cs ≠ .ok r := by
  induction cs with
  | nil => intro r hc; cases hc
  | cons d cs ih =>
    intro r hc hr
    simp only [AS4100.utilLoop, AS4100.utilPositions, bind, Except.bind, pure, Except.pure] at hr
    cases hm : (p :: ps).mapM (fun p => o.utilAt rt d p) with
    | error x => simp [hm] at hr
    | ok here =>
      simp only [hm] at hr
      cases hl : o.utilLoop rt (some (p :: ps)) cs with
      | error x => simp [hl] at hr
      | ok q =>
        rcases List.mem_cons.1 hc with rfl | e
        · rw [mapM_eq_ok_iff] at hm
          cases hm with
          | cons h1 _ => exact absurd h1 (utilAt_unknown rt o h p _)
        · exact ih q e hl

/-- Only an empty list of results can come out of a loop over load cases one of which is unknown. -/
theorem utilLoop_unknown (rt : Rt K) (o : AS4100 K) {c : ℤ} (h : ∀ b, o.beam = some b → ∀ e ∈ b.elements, c ∉ e.loadCases)
    (cs : List ℤ) (hc : c ∈ cs) (pos : Option (List (Num K))) (r : List (ℤ × Num K × K)) (hr : o.utilLoop rt pos cs = .ok r) :
    r = [] := by
  cases cs with
  | nil => cases hc
  | cons d cs =>
    have hr' := hr
    simp only [AS4100.utilLoop, bind, Except.bind, pure, Except.pure] at hr
    cases hp : o.utilPositions rt pos d with
    | error x => simp [hp] at hr
    | ok ps =>
      have e : o.utilLoop rt (some ps) (d :: cs) = .ok r := by
        rw [← hr']
        simp only [AS4100.utilLoop, bind, Except.bind, pure, Except.pure, hp]
        rfl
      cases ps with
      | nil => exact utilLoop_nil rt o _ r e
      | cons p ps => exact absurd e (utilLoop_some rt o h p ps _ r hc)

/-- C147: for a load case none of the elements of the beam has, no loads, no tension and no utilisation is ever returned, whatever the
positions and however numbers are rounded; nor when it is one of several load cases checked together. -/
theorem C147_never (rt : Rt K) (o : AS4100 K) {c : ℤ} (h : ∀ b, o.beam = some b → ∀ e ∈ b.elements, c ∉ e.loadCases)
    (position : PosArg K) (n : Option ℤ) :
    (∀ b component t, o.beam = some b → b.getLoads rt c position n component ≠ .ok (some t)) ∧
    (∀ component t, o.getLoads rt c position n component ≠ .ok (some t)) ∧
    (∀ t, o.getTension rt c position n ≠ .ok t) ∧
    (∀ u, o.tensionUtilisation rt (.one c) position ≠ .ok u) ∧
    (∀ cs, c ∈ cs → ∀ u, o.tensionUtilisation rt (.list cs) position ≠ .ok u) := by
  have util : ∀ lc cs, o.utilCases lc = .ok cs → c ∈ cs → ∀ u, o.tensionUtilisation rt lc position ≠ .ok u := by
    intro lc cs hcs hc u hu
    unfold AS4100.tensionUtilisation at hu
    simp only [bind, Except.bind, hcs] at hu
    cases hg : position.given with
    | error x => simp [hg] at hu
    | ok g =>
      simp only [hg] at hu
      cases hl : o.utilLoop rt g cs with
      | error x => simp [hl] at hu
      | ok r =>
        have hr := utilLoop_unknown rt o h cs hc g r hl
        subst hr
        simp only [hl] at hu
        have : utilFilter lc g ([] : List (ℤ × Num K × K)) = [] := by
          unfold utilFilter
          split <;> rfl
        rw [this] at hu
        cases hu
  refine ⟨fun b comp t hb => getLoads_unknown rt (h b hb) position n comp t, fun comp t ht => ?_,
    getTension_unknown rt o h position n, util (.one c) [c] rfl (by simp), fun cs hc => util (.list cs) cs rfl hc⟩
  unfold AS4100.getLoads at ht
  cases hb : o.beam with
  | none => simp [hb] at ht
  | some b =>
    simp only [hb] at ht
    exact getLoads_unknown rt (h b hb) position n comp t ht

end

section
variable {K S : Type} [Field K] [LinearOrder K] [IsStrictOrderedRing K] [FloorRing K]

theorem locate_unknown {rt : Rt K} (hx : rt.Exact) {b : Beam K S} {ls : List (Num K)} (hl : HasLengths b ls) {c : ℤ}
    (h : ∀ e ∈ b.elements, c ∉ e.loadCases) (p : Num K) {i : ℕ} (hi : InElement ls p.val i) :
    b.locate rt (some c) p i = .error .keyError ∨ ∃ q, b.locate rt (some c) p i = .ok [⟨p, i, q⟩] := by
  obtain ⟨e, l, h4, h5, h6, h7⟩ := element_ok hl hi.1 (z := i) (Or.inl rfl)
  by_cases h0 : l.val = 0
  · left
    unfold Beam.locate
    simp only [h4, h6, bind, Except.bind, h0, if_true,
      (C147_element rt e (h e (List.mem_of_getElem? h7)) .none none .none).2]
  · right
    exact ⟨_, locate_ok hx hl (some c) p hi ⟨e, l, h7, h5, Or.inl ⟨h0, rfl⟩⟩⟩

theorem locateAll_unknown {rt : Rt K} (hx : rt.Exact) {b : Beam K S} {ls : List (Num K)} (hl : HasLengths b ls) {c : ℤ}
    (h : ∀ e ∈ b.elements, c ∉ e.loadCases) (p : Num K) (is : List ℕ) (hi : ∀ i ∈ is, InElement ls p.val i) :
    is.mapM (fun i => b.locate rt (some c) p i) = .error .keyError ∨
      ∃ qs : List (Num K), qs.length = is.length ∧
        is.mapM (fun i => b.locate rt (some c) p i) = .ok (List.zipWith (fun i q => [⟨p, i, q⟩]) is qs) := by
  induction is with
  | nil => exact Or.inr ⟨[], rfl, rfl⟩
  | cons i is ih =>
    rw [List.mapM_cons]
    rcases locate_unknown hx hl h p (hi i (by simp)) with e | ⟨q, e⟩
    · left; simp [e, bind, Except.bind]
    · rcases ih (fun j hj => hi j (by simp [hj])) with e' | ⟨qs, hq, e'⟩
      · left; simp [e, e', bind, Except.bind]
      · right
        exact ⟨q :: qs, by simp [hq], by simp [e, e', bind, Except.bind, pure, Except.pure]⟩

/-- C147: with exact numbers the exception is `KeyError`, for any position on the beam and for any number of equally spaced positions. -/
theorem C147_key_error {rt : Rt K} (hx : rt.Exact) {b : Beam K S} {ls : List (Num K)} (hl : HasLengths b ls) (hne : ls ≠ [])
    {c : ℤ} (h : ∀ e ∈ b.elements, c ∉ e.loadCases) (component : CompArg) :
    (∀ x, 0 ≤ x → x ≤ total ls → b.getLoads rt c (.scalar (Num.flt x)) none component = .error .keyError) ∧
    (∀ n : ℕ, b.getLoads rt c .none (some n) component = .error .keyError) := by
  obtain ⟨L, hL, hLv⟩ := length_ok hx hl
  constructor
  · intro x h0 h1
    have hps : b.positionList rt (.scalar (Num.flt x)) none (some c) = .ok [Num.flt x] := by
      have e : b.positionList rt (.scalar (Num.flt x)) none (some c) = (do
          b.checkPositions rt [Num.flt x]
          return sortedSet [Num.flt x]) := rfl
      rw [e, checkPositions_ok hL [Num.flt x] (by simp [Num.flt, h0, hLv, h1])]
      rfl
    obtain ⟨is, his, hel⟩ := inElements_ok hx hl (Num.flt x)
    have hin : is ≠ [] := by
      obtain ⟨i, hi⟩ := exists_inElement hl.2 hne h0 h1
      exact List.ne_nil_of_mem ((hel.2 i).2 hi)
    unfold Beam.getLoads Beam.listPositions
    rw [hps]
    simp only [bind, Except.bind, List.mapM_cons, List.mapM_nil, his, pure, Except.pure]
    rcases locateAll_unknown hx hl h (Num.flt x) is (fun i hi => (hel.2 i).1 hi) with e | ⟨qs, hq, e⟩
    · rw [e]
    · rw [e]
      simp only [List.flatten_cons, List.flatten_nil, List.append_nil]
      cases is with
      | nil => exact absurd rfl hin
      | cons i is =>
        cases qs with
        | nil => cases hq
        | cons q qs =>
          obtain ⟨el, l, h4, -, -, h7⟩ := element_ok hl ((hel.2 i).1 (by simp)).1 (z := i) (Or.inl rfl)
          simp only [List.zipWith_cons_cons, List.flatten_cons, List.singleton_append, List.foldlM_cons, Beam.loadStep, h4, bind, Except.bind,
            (C147_element rt el (h el (List.mem_of_getElem? h7)) (.scalar q) none component).1]
  · intro n
    have hlin : ∃ lin, linspace rt 0 L.val (n : ℤ) = .ok lin := by
      unfold linspace
      rw [if_neg (by omega)]
      exact ⟨_, rfl⟩
    obtain ⟨lin, hlin⟩ := hlin
    have hps : b.positionList rt .none (some n) (some c) = .error .keyError := by
      unfold Beam.positionList
      simp only [hL, hlin, elementEnds_ok rt hl, bind, Except.bind]
      obtain ⟨es⟩ := b
      cases es with
      | nil =>
        have := hl.1
        cases this
        exact absurd rfl hne
      | cons e es =>
        simp only [List.zipIdx_cons, List.mapM_cons, Beam.realPositions,
          (C147_element rt e (h e (by simp)) .none none .none).2, bind, Except.bind]
    unfold Beam.getLoads Beam.listPositions
    simp only [hps, bind, Except.bind]

end

/-- The hypotheses are met: the two rods have the load case 1 only. -/
example : (∀ e ∈ Samples.rods.elements, (99 : ℤ) ∉ e.loadCases) ∧
    Samples.rods.getLoads Samples.rt 99 (.scalar (Num.flt (1/2))) none .none = .error .keyError ∧
    Samples.rods.getLoads Samples.rt 99 .none (some 5) .none = .error .keyError := by decide +kernel

end BeamDesign
