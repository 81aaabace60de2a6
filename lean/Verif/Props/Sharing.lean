import Verif.Lemmas.Sharing

/-!
# C90: accepted objects stay valid
-/

namespace BeamDesign

open Spec

section
variable {K : Type} [Field K] [LinearOrder K] [IsStrictOrderedRing K]

theorem Inv.exec {s : Store K} (h : Inv s) {o : Op K} (hc : Careful s o) : Inv (Op.exec s o) := by
  cases o with
  | newArray t =>
    obtain ⟨h1, h2, h3, h4, h5⟩ := h
    refine ⟨fun a ha => ?_, h2, h3, h4, h5⟩
    obtain ⟨t', e, w⟩ := h1 a ha
    exact ⟨t', by simp only [Op.exec]; rw [List.getElem?_append_left (List.getElem?_eq_some_iff.1 e).1]; exact e, w⟩
  | newCase raw => exact h.addCase fun t ht => new_wf ht
  | newCaseOf a =>
    simp only [Op.exec]
    split
    · exact h
    · exact h.addCase fun t ht => checkAndSet_wf ht
  | newDict kv =>
    simp only [Op.exec]
    split
    · rename_i hk
      obtain ⟨h1, h2, h3, h4, h5⟩ := h
      refine ⟨h1, fun d hd p hp => ?_, fun el hel => ?_, h4, fun l hl => ?_⟩
      · rcases List.mem_append.1 hd with hd | hd
        · exact h2 d hd p hp
        · rw [List.mem_singleton.1 hd] at hp
          exact dictFold_values hk [] (by simp) p hp
      · obtain ⟨q, r⟩ := h3 el hel
        refine ⟨?_, r⟩
        simp only [List.length_append, List.length_singleton]
        omega
      · obtain ⟨es, e1, e2, e3⟩ := h5 l hl
        refine ⟨es, e1, e2, fun e he e' he' => ?_⟩
        rw [keysOf_append_dict (fun el hel => (h3 el hel).1), keysOf_append_dict (fun el hel => (h3 el hel).1)]
        exact e3 e he e' he'
    · exact h
  | newElement d l =>
    simp only [Op.exec]
    split
    · rename_i hd
      split
      · rename_i e he
        have hl : e.length = l ∧ ∀ x, l = some x → 0 ≤ x.val := by
          unfold Element.new at he
          split at he
          · cases he; exact ⟨rfl, by simp⟩
          · split at he
            · cases he
            · rename_i hn
              cases he
              refine ⟨rfl, ?_⟩
              rintro x ⟨⟩
              exact not_lt.1 hn
        obtain ⟨h1, h2, h3, h4, h5⟩ := h
        refine ⟨h1, h2, fun el hel => ?_, fun es hes i hi => ?_, fun k hk => ?_⟩
        · rcases List.mem_append.1 hel with hel | hel
          · exact h3 el hel
          · rw [List.mem_singleton.1 hel]
            exact ⟨hd, by rw [hl.1]; exact hl.2⟩
        · have := h4 es hes i hi
          simp only [List.length_append, List.length_singleton]
          omega
        · obtain ⟨es, e1, e2, e3⟩ := h5 k hk
          have hm := h4 es (List.mem_of_getElem? e1)
          refine ⟨es, e1, e2, fun i hi j hj => ?_⟩
          rw [keysOf_append_elem _ (hm i hi), keysOf_append_elem _ (hm j hj)]
          exact e3 i hi j hj
      · exact h
    · exact h
  | newList es =>
    simp only [Op.exec]
    split
    · rename_i hes
      obtain ⟨h1, h2, h3, h4, h5⟩ := h
      refine ⟨h1, h2, h3, fun l hl => ?_, fun k hk => ?_⟩
      · rcases List.mem_append.1 hl with hl | hl
        · exact h4 l hl
        · rw [List.mem_singleton.1 hl]; exact hes
      · obtain ⟨es', e1, e2, e3⟩ := h5 k hk
        exact ⟨es', by simp only; rw [List.getElem?_append_left (List.getElem?_eq_some_iff.1 e1).1]; exact e1, e2, e3⟩
    · exact h
  | newBeam l =>
    simp only [Op.exec]
    split
    · exact h
    · rename_i es hes
      split
      · rename_i bm hb
        obtain ⟨q1, q2, q3⟩ := (C11_list_iff _ _).1 hb
        obtain ⟨h1, h2, h3, h4, h5⟩ := h
        refine ⟨h1, h2, h3, h4, fun k hk => ?_⟩
        rcases List.mem_append.1 hk with hk | hk
        · exact h5 k hk
        · rw [List.mem_singleton.1 hk]
          refine ⟨es, hes, by rintro rfl; exact q2 rfl, fun i hi j hj => ?_⟩
          have key : ∀ i ∈ es, ∃ el ∈ bm.elements, s.elemNow i = some el := by
            intro i hi
            have : s.elemNow i ∈ bm.elements.map some := q1 ▸ List.mem_map_of_mem hi
            obtain ⟨el, hel, e⟩ := List.mem_map.1 this
            exact ⟨el, hel, e.symm⟩
          obtain ⟨x, hx, ex⟩ := key i hi
          obtain ⟨y, hy, ey⟩ := key j hj
          have kx := (elemNow_keys ex).1
          have ky := (elemNow_keys ey).1
          rw [show keysOf { s with beams := s.beams ++ [l] } i = keysOf s i from rfl,
            show keysOf { s with beams := s.beams ++ [l] } j = keysOf s j from rfl, kx, ky, q3 x hx y hy]
      · exact h
  | newBeamOf e =>
    simp only [Op.exec]
    split
    · exact h
    · rename_i el hel
      split
      · obtain ⟨h1, h2, h3, h4, h5⟩ := h
        have he : e < s.elems.length := by
          by_contra hc
          unfold Store.elemNow at hel
          rw [List.getElem?_eq_none (not_lt.1 hc)] at hel
          simp at hel
        refine ⟨h1, h2, h3, fun l hl => ?_, fun k hk => ?_⟩
        · rcases List.mem_append.1 hl with hl | hl
          · exact h4 l hl
          · rw [List.mem_singleton.1 hl]
            intro x hx
            rw [List.mem_singleton.1 hx]; exact he
        · rcases List.mem_append.1 hk with hk | hk
          · obtain ⟨es', e1, e2, e3⟩ := h5 k hk
            exact ⟨es', by simp only; rw [List.getElem?_append_left (List.getElem?_eq_some_iff.1 e1).1]; exact e1, e2, e3⟩
          · rw [List.mem_singleton.1 hk]
            refine ⟨[e], by simp, by simp, ?_⟩
            intro i hi j hj
            rw [List.mem_singleton.1 hi, List.mem_singleton.1 hj]
      · exact h
  | writeRow a i r =>
    obtain ⟨h1, h2, h3, h4, h5⟩ := h
    refine ⟨fun a' ha => ?_, h2, h3, h4, h5⟩
    obtain ⟨t, e, w⟩ := h1 a' ha
    refine ⟨t, ?_, w⟩
    simp only [Op.exec, List.getElem?_modify]
    have hne : a ≠ a' := by rintro rfl; exact hc ha
    simp [hne, e]
  | dictSet d k c =>
    simp only [Op.exec]
    split
    · rename_i hcl
      have hb := beam_modify h (d := d) (fun kv => dictSet kv k c) (by
        rcases hc with ⟨kv, c', hkv, hm⟩ | hc
        · refine Or.inr fun kv' hkv' => ?_
          rw [hkv] at hkv'
          obtain rfl := Option.some.inj hkv'
          exact dictSet_keys c (List.mem_map_of_mem (f := Prod.fst) hm)
        · exact Or.inl hc)
      obtain ⟨h1, h2, h3, h4, -⟩ := h
      refine ⟨h1, fun kv hkv p hp => ?_, fun el hel => ?_, h4, hb⟩
      · rcases mem_modify hkv with hkv | ⟨y, hy, rfl⟩
        · exact h2 kv hkv p hp
        · exact dictSet_values (h2 y (List.mem_of_getElem? hy)) hcl p hp
      · simpa using h3 el hel
    · exact h
  | dictDel d k =>
    have hb := beam_modify h (d := d) (fun kv => kv.filter fun p => p.1 ≠ k) (Or.inl hc)
    obtain ⟨h1, h2, h3, h4, -⟩ := h
    refine ⟨h1, fun kv hkv p hp => ?_, fun el hel => ?_, h4, hb⟩
    · rcases mem_modify hkv with hkv | ⟨y, hy, rfl⟩
      · exact h2 kv hkv p hp
      · exact h2 y (List.mem_of_getElem? hy) p (List.mem_of_mem_filter hp)
    · simpa [Op.exec] using h3 el hel
  | setLength e l =>
    obtain ⟨h1, h2, h3, h4, h5⟩ := h
    refine ⟨h1, h2, fun el hel => ?_, fun es hes i hi => ?_, fun k hk => ?_⟩
    · rcases mem_modify hel with hel | ⟨y, hy, rfl⟩
      · exact h3 el hel
      · exact ⟨(h3 y (List.mem_of_getElem? hy)).1, hc⟩
    · simpa [Op.exec] using h4 es hes i hi
    · obtain ⟨es, e1, e2, e3⟩ := h5 k hk
      refine ⟨es, e1, e2, fun i hi j hj => ?_⟩
      simp only [Op.exec]
      rw [keysOf_setLength, keysOf_setLength]
      exact e3 i hi j hj
  | listAppend l e =>
    simp only [Op.exec]
    split
    · rename_i he
      obtain ⟨h1, h2, h3, h4, h5⟩ := h
      refine ⟨h1, h2, h3, fun es hes x hx => ?_, fun k hk => ?_⟩
      · rcases mem_modify hes with hes | ⟨y, hy, rfl⟩
        · exact h4 es hes x hx
        · rcases List.mem_append.1 hx with hx | hx
          · exact h4 y (List.mem_of_getElem? hy) x hx
          · rw [List.mem_singleton.1 hx]; exact he
      · obtain ⟨es, e1, e2, e3⟩ := h5 k hk
        refine ⟨es, ?_, e2, e3⟩
        simp only [List.getElem?_modify]
        have hne : l ≠ k := by rintro rfl; exact hc hk
        simp [hne, e1]
    · exact h
  | listSet l i e =>
    simp only [Op.exec]
    split
    · rename_i he
      obtain ⟨h1, h2, h3, h4, h5⟩ := h
      refine ⟨h1, h2, h3, fun es hes x hx => ?_, fun k hk => ?_⟩
      · rcases mem_modify hes with hes | ⟨y, hy, rfl⟩
        · exact h4 es hes x hx
        · rcases List.mem_or_eq_of_mem_set hx with hx | hx
          · exact h4 y (List.mem_of_getElem? hy) x hx
          · rw [hx]; exact he
      · obtain ⟨es, e1, e2, e3⟩ := h5 k hk
        refine ⟨es, ?_, e2, e3⟩
        simp only [List.getElem?_modify]
        have hne : l ≠ k := by rintro rfl; exact hc hk
        simp [hne, e1]
    · exact h
  | listDel l i =>
    obtain ⟨h1, h2, h3, h4, h5⟩ := h
    refine ⟨h1, h2, h3, fun es hes x hx => ?_, fun k hk => ?_⟩
    · rcases mem_modify hes with hes | ⟨y, hy, rfl⟩
      · exact h4 es hes x hx
      · exact h4 y (List.mem_of_getElem? hy) x (List.mem_of_mem_eraseIdx hx)
    · obtain ⟨es, e1, e2, e3⟩ := h5 k hk
      refine ⟨es, ?_, e2, e3⟩
      simp only [Op.exec, List.getElem?_modify]
      have hne : l ≠ k := by rintro rfl; exact hc hk
      simp [hne, e1]

theorem Inv.run {s : Store K} (h : Inv s) {hist : List (Op K)} (hc : CarefulRun s hist) : Inv (s.run hist) := by
  induction hist generalizing s with
  | nil => exact h
  | cons o t ih => exact ih (h.exec hc.1) hc.2

/-- C90, part: whatever a program does with load cases, elements and beams, as long as it does not write into the
array of a load case, change the list of a beam, assign a negative length, or add or remove load cases in a dict that
only some elements of a beam share, all objects stay what their constructors demand.  Constructor calls that raise,
writes into the caller's own arrays (load cases hold copies) and new load cases for existing keys are all covered.
Missing: the other writes, for which the claim is false (`C90_*_counterexample`). -/
theorem C90_valid_partial (hist : List (Op K)) (hc : CarefulRun (Store.empty K) hist) :
    AllValid ((Store.empty K).run hist) :=
  (Inv.empty.run hc).valid

end

/-! ## examples and counterexamples -/

/-- an array, a load case made of it, another one, two dicts, two elements and a beam -/
def sharedHist : List (Op ℚ) :=
  [.newArray ⟨false, [⟨0, 0, 0, 5, 0, 0, 0⟩, ⟨1, 0, 0, 7, 0, 0, 0⟩]⟩, .newCaseOf 0, .newCase .none,
   .newCase (.row [.flt 3, .flt 0, .flt 0, .flt 0, .flt 0, .flt 0, .flt 0]),
   .newDict [(1, 0)], .newDict [(1, 0)], .newElement 0 (some (.flt 2)), .newElement 1 (some (.flt 3)),
   .newElement 1 (some (.flt (-3))), .newList [0, 1], .newBeam 0]

/-- the history above, followed by harmless writes: into the caller's array, a new load case for key 1, another length -/
example : CarefulRun (Store.empty ℚ) (sharedHist ++
    [.writeRow 0 0 ⟨5, 0, 0, 0, 0, 0, 0⟩, .dictSet 0 1 1, .setLength 0 (some (.flt 4))]) := by
  simp only [sharedHist, List.cons_append, List.nil_append, CarefulRun, Careful, true_and, and_true]
  refine ⟨by unfold Stored; decide +kernel, Or.inl ⟨[(1, 0)], 0, by decide +kernel, by decide +kernel⟩, ?_⟩
  rintro x ⟨⟩
  norm_num [Num.flt]

/-- and that leaves the load case as it was accepted -/
example : (((Store.empty ℚ).run sharedHist).caseNow 0 =
    some ⟨some ⟨false, [⟨0, 0, 0, 5, 0, 0, 0⟩, ⟨1, 0, 0, 7, 0, 0, 0⟩]⟩⟩) ∧
    ((Store.empty ℚ).run (sharedHist ++ [.writeRow 0 0 ⟨5, 0, 0, 0, 0, 0, 0⟩])).caseNow 0 =
      ((Store.empty ℚ).run sharedHist).caseNow 0 ∧ ((Store.empty ℚ).run sharedHist).beams = [0] ∧
    ((Store.empty ℚ).run sharedHist).elems.length = 2 := by decide +kernel

/-- C90, counterexample: writing through `LoadCase.loads` (documented as read-only) leaves a load case with the position
3, which the constructor refuses (`sharedHist` tries). -/
theorem C90_loads_counterexample :
    ¬ AllValid ((Store.empty ℚ).run (sharedHist ++ [.writeRow 1 1 ⟨3, 0, 0, 7, 0, 0, 0⟩])) := by
  intro h
  obtain ⟨lc, h1, h2⟩ := h.cases 0 (by decide +kernel)
  have e : ((Store.empty ℚ).run (sharedHist ++ [.writeRow 1 1 ⟨3, 0, 0, 7, 0, 0, 0⟩])).caseNow 0 =
      some ⟨some ⟨false, [⟨0, 0, 0, 5, 0, 0, 0⟩, ⟨3, 0, 0, 7, 0, 0, 0⟩]⟩⟩ := by decide +kernel
  rw [e] at h1
  obtain rfl := Option.some.inj h1
  have := ((h2 _ rfl).2 ⟨3, 0, 0, 7, 0, 0, 0⟩ (by simp)).2
  norm_num at this

/-- C90, counterexample: a load case added to the dict of one element after the beam was made.  The beam lists it and
raises `KeyError` when asked for it. -/
theorem C90_dict_counterexample :
    ∃ b, ((Store.empty ℚ).run (sharedHist ++ [.dictSet 0 2 0])).beamNow 0 = some b ∧ b.loadCases = .ok [1, 2] ∧
      b.getLoads (Rt.exact ℚ) 2 (.scalar (.flt 3)) none (.name "N") = .error .keyError ∧
      ¬ AllValid ((Store.empty ℚ).run (sharedHist ++ [.dictSet 0 2 0])) := by
  have e : ((Store.empty ℚ).run (sharedHist ++ [.dictSet 0 2 0])).beamNow 0 = some ⟨[
      ⟨[(1, ⟨some ⟨false, [⟨0, 0, 0, 5, 0, 0, 0⟩, ⟨1, 0, 0, 7, 0, 0, 0⟩]⟩⟩),
        (2, ⟨some ⟨false, [⟨0, 0, 0, 5, 0, 0, 0⟩, ⟨1, 0, 0, 7, 0, 0, 0⟩]⟩⟩)], some (.flt 2), ()⟩,
      ⟨[(1, ⟨some ⟨false, [⟨0, 0, 0, 5, 0, 0, 0⟩, ⟨1, 0, 0, 7, 0, 0, 0⟩]⟩⟩)], some (.flt 3), ()⟩]⟩ := by decide +kernel
  refine ⟨_, e, by decide +kernel, by decide +kernel, ?_⟩
  intro h
  obtain ⟨bm, h1, -, h2⟩ := h.beams 0 (by decide +kernel)
  rw [e] at h1
  obtain rfl := Option.some.inj h1
  have := h2 _ (List.mem_cons_self) _ (List.mem_cons_of_mem _ List.mem_cons_self)
  revert this
  decide +kernel

/-- C90, counterexample: a negative length assigned to an element.  The beam gets shorter than its first element. -/
theorem C90_length_counterexample :
    ∃ b, ((Store.empty ℚ).run (sharedHist ++ [.setLength 1 (some (.flt (-1)))])).beamNow 0 = some b ∧
      b.length (Rt.exact ℚ) = .ok (.flt 1) ∧
      ¬ AllValid ((Store.empty ℚ).run (sharedHist ++ [.setLength 1 (some (.flt (-1)))])) := by
  have e : ((Store.empty ℚ).run (sharedHist ++ [.setLength 1 (some (.flt (-1)))])).beamNow 0 = some ⟨[
      ⟨[(1, ⟨some ⟨false, [⟨0, 0, 0, 5, 0, 0, 0⟩, ⟨1, 0, 0, 7, 0, 0, 0⟩]⟩⟩)], some (.flt 2), ()⟩,
      ⟨[(1, ⟨some ⟨false, [⟨0, 0, 0, 5, 0, 0, 0⟩, ⟨1, 0, 0, 7, 0, 0, 0⟩]⟩⟩)], some (.flt (-1)), ()⟩]⟩ := by
    decide +kernel
  refine ⟨_, e, by decide +kernel, ?_⟩
  intro h
  obtain ⟨el, h1, h2⟩ := h.elems 1 (by decide +kernel)
  have e1 : ((Store.empty ℚ).run (sharedHist ++ [.setLength 1 (some (.flt (-1)))])).elemNow 1 = some
      ⟨[(1, ⟨some ⟨false, [⟨0, 0, 0, 5, 0, 0, 0⟩, ⟨1, 0, 0, 7, 0, 0, 0⟩]⟩⟩)], some (.flt (-1)), ()⟩ := by decide +kernel
  rw [e1] at h1
  obtain rfl := Option.some.inj h1
  have := h2 _ rfl
  norm_num [Num.flt] at this

/-- C90, counterexample: the caller goes on using the list given to `Beam` and empties it.  The beam has no elements and
no load cases (`IndexError`). -/
theorem C90_list_counterexample :
    ∃ b, ((Store.empty ℚ).run (sharedHist ++ [.listDel 0 1, .listDel 0 0])).beamNow 0 = some b ∧ b.elements = [] ∧
      b.loadCases = .error .indexError ∧
      ¬ AllValid ((Store.empty ℚ).run (sharedHist ++ [.listDel 0 1, .listDel 0 0])) := by
  have e : ((Store.empty ℚ).run (sharedHist ++ [.listDel 0 1, .listDel 0 0])).beamNow 0 = some ⟨[]⟩ := by decide +kernel
  refine ⟨_, e, rfl, by decide +kernel, ?_⟩
  intro h
  obtain ⟨bm, h1, h2, -⟩ := h.beams 0 (by decide +kernel)
  rw [e] at h1
  obtain rfl := Option.some.inj h1
  exact h2 rfl

end BeamDesign
