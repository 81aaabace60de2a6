import Verif.Lemmas.OneByOne
import Verif.Spec.SamplesAS

/-!
# C156: a utilisation for several load cases and positions is the largest of those asked for one by one

In every arithmetic: the run-time `rt` may round as it likes.
-/

set_option linter.unusedSectionVars false

namespace BeamDesign

open Spec

variable {K : Type} [Field K] [LinearOrder K] [IsStrictOrderedRing K] [FloorRing K]

/-- The call for several load cases and positions answers iff every single call does, with the largest of their
answers. -/
theorem C156_value (rt : Rt K) (o : AS4100 K) (cs : List ℤ) (ps : List (Num K)) (v : K) :
    o.tensionUtilisation rt (.list cs) (.list ps) = .ok v ↔
      (∀ c ∈ cs, ∀ p ∈ ps, ∃ w, alone rt o c p = .ok w) ∧
        IsGreatest {w | ∃ c ∈ cs, ∃ p ∈ ps, alone rt o c p = .ok w} v := by
  rw [util_list]
  constructor
  · intro h
    cases hl : o.utilLoop rt (some ps) cs with
    | error e => rw [hl] at h; cases h
    | ok ret =>
    rw [hl] at h
    have hg := pyMax_ok h
    have hall := (utilLoop_iff cs).1.1 ⟨ret, hl⟩
    have hmem := (utilLoop_iff cs).2 ret hl
    refine ⟨fun c hc p hp => alone_defined.2 (hall c hc p hp), ?_, ?_⟩
    · obtain ⟨r, hr, hrv⟩ := List.mem_map.1 hg.1
      obtain ⟨c, hc, p, hp, l, hu, hrl⟩ := (hmem r).1 hr
      refine ⟨c, hc, p, hp, alone_ok.2 ⟨l, hu, List.mem_map.2 ⟨r, hrl, hrv⟩, ?_⟩⟩
      rintro y hy
      obtain ⟨r', hr', rfl⟩ := List.mem_map.1 hy
      exact hg.2 (List.mem_map.2 ⟨r', (hmem r').2 ⟨c, hc, p, hp, l, hu, hr'⟩, rfl⟩)
    · rintro w ⟨c, hc, p, hp, hw⟩
      obtain ⟨l, hu, hwl, -⟩ := alone_ok.1 hw
      obtain ⟨r, hr, rfl⟩ := List.mem_map.1 hwl
      exact hg.2 (List.mem_map.2 ⟨r, (hmem r).2 ⟨c, hc, p, hp, l, hu, hr⟩, rfl⟩)
  · rintro ⟨hall, ⟨c, hc, p, hp, hv⟩, hub⟩
    obtain ⟨ret, hl⟩ := (utilLoop_iff cs).1.2 fun c hc p hp => alone_defined.1 (hall c hc p hp)
    have hmem := (utilLoop_iff cs).2 ret hl
    rw [hl]
    refine pyMax_iff.2 ⟨?_, ?_⟩
    · obtain ⟨l, hu, hvl, -⟩ := alone_ok.1 hv
      obtain ⟨r, hr, hrv⟩ := List.mem_map.1 hvl
      exact List.mem_map.2 ⟨r, (hmem r).2 ⟨c, hc, p, hp, l, hu, hr⟩, hrv⟩
    · rintro y hy
      obtain ⟨r, hr, rfl⟩ := List.mem_map.1 hy
      obtain ⟨c', hc', p', hp', l, hu, hrl⟩ := (hmem r).1 hr
      obtain ⟨w, hw⟩ := hall c' hc' p' hp'
      obtain ⟨l', hu', -, hle⟩ := alone_ok.1 hw
      rw [hu] at hu'
      cases hu'
      exact (hle (List.mem_map.2 ⟨r, hrl, rfl⟩)).trans (hub ⟨c', hc', p', hp', hw⟩)

/-- The error raised is the one of the first single call that fails. -/
theorem C156_error (rt : Rt K) (o : AS4100 K) (cs : List ℤ) (ps : List (Num K)) (pre post : List (ℤ × Num K)) (c : ℤ) (p : Num K)
    (e : PyErr) (hsplit : pairsInOrder cs ps = pre ++ (c, p) :: post) (hpre : ∀ q ∈ pre, ∃ w, alone rt o q.1 q.2 = .ok w)
    (he : alone rt o c p = .error e) : o.tensionUtilisation rt (.list cs) (.list ps) = .error e := by
  have hx : (fun q : ℤ × Num K => o.utilAt rt q.1 q.2) (c, p) = .error e := alone_error.1 he
  have hm := mapM_first_error (f := fun q : ℤ × Num K => o.utilAt rt q.1 q.2) (x := (c, p)) hx pre post fun q hq => alone_defined.1 (hpre q hq)
  rw [util_list, utilLoop_pairs, hsplit, hm]
  simp only [Except.map, Except.bind]

/-- With no load case or no position, `max` of nothing: a `ValueError`. -/
theorem C156_empty (rt : Rt K) (o : AS4100 K) (cs : List ℤ) (ps : List (Num K)) (h : cs = [] ∨ ps = []) :
    o.tensionUtilisation rt (.list cs) (.list ps) = .error .valueError := by
  have hnil : pairsInOrder cs ps = [] := by
    rcases h with rfl | rfl
    · rfl
    · simp [pairsInOrder]
  rw [util_list, utilLoop_pairs, hnil]
  rfl

/-- Neither the order nor the repetition of load cases and positions changes the answer. -/
theorem C156_order (rt : Rt K) (o : AS4100 K) (cs cs' : List ℤ) (ps ps' : List (Num K)) (hc : ∀ c, c ∈ cs ↔ c ∈ cs')
    (hp : ∀ p, p ∈ ps ↔ p ∈ ps') (v : K) :
    o.tensionUtilisation rt (.list cs) (.list ps) = .ok v ↔ o.tensionUtilisation rt (.list cs') (.list ps') = .ok v := by
  rw [C156_value, C156_value]
  simp only [hc, hp]

/-- Fewer load cases and positions: the answer is there still, and no larger. -/
theorem C156_fewer (rt : Rt K) (o : AS4100 K) (cs cs' : List ℤ) (ps ps' : List (Num K)) (hc : cs ⊆ cs') (hp : ps ⊆ ps')
    (hcs : cs ≠ []) (hps : ps ≠ []) (v : K) (h : o.tensionUtilisation rt (.list cs') (.list ps') = .ok v) :
    ∃ u, o.tensionUtilisation rt (.list cs) (.list ps) = .ok u ∧ u ≤ v := by
  obtain ⟨hall, -, hub⟩ := (C156_value rt o cs' ps' v).1 h
  obtain ⟨ret, hl⟩ := (utilLoop_iff cs).1.2 fun c hc' p hp' => alone_defined.1 (hall c (hc hc') p (hp hp'))
  obtain ⟨c, hc'⟩ := List.exists_mem_of_ne_nil _ hcs
  obtain ⟨p, hp'⟩ := List.exists_mem_of_ne_nil _ hps
  obtain ⟨l, hu⟩ := alone_defined.1 (hall c (hc hc') p (hp hp'))
  obtain ⟨r, hr⟩ := List.exists_mem_of_ne_nil _ (utilAt_rows hu)
  have hret : ret.map (fun r => r.2.2) ≠ [] :=
    List.ne_nil_of_mem (List.mem_map.2 ⟨r, ((utilLoop_iff cs).2 ret hl r).2 ⟨c, hc', p, hp', l, hu, hr⟩, rfl⟩)
  obtain ⟨u, hmax⟩ := pyMax_ne hret
  have hres : o.tensionUtilisation rt (.list cs) (.list ps) = .ok u := by
    rw [util_list, hl]
    exact hmax
  obtain ⟨-, ⟨c, hc', p, hp', hw⟩, -⟩ := (C156_value rt o cs ps u).1 hres
  exact ⟨u, hres, hub ⟨c, hc hc', p, hp hp', hw⟩⟩

/-- Two runs over load cases put together: the larger of the two answers. -/
theorem C156_cases (rt : Rt K) (o : AS4100 K) (cs cs' : List ℤ) (ps : List (Num K)) (v v' : K)
    (h : o.tensionUtilisation rt (.list cs) (.list ps) = .ok v) (h' : o.tensionUtilisation rt (.list cs') (.list ps) = .ok v') :
    o.tensionUtilisation rt (.list (cs ++ cs')) (.list ps) = .ok (max v v') := by
  obtain ⟨hall, ⟨c, hc, p, hp, hv⟩, hub⟩ := (C156_value rt o cs ps v).1 h
  obtain ⟨hall', ⟨c', hc', p', hp', hv'⟩, hub'⟩ := (C156_value rt o cs' ps v').1 h'
  refine (C156_value rt o (cs ++ cs') ps (max v v')).2 ⟨fun k hk q hq => ?_, ?_, ?_⟩
  · rcases List.mem_append.1 hk with hk | hk
    · exact hall k hk q hq
    · exact hall' k hk q hq
  · rcases le_total v v' with hle | hle
    · rw [max_eq_right hle]
      exact ⟨c', List.mem_append_right _ hc', p', hp', hv'⟩
    · rw [max_eq_left hle]
      exact ⟨c, List.mem_append_left _ hc, p, hp, hv⟩
  · rintro w ⟨k, hk, q, hq, hw⟩
    rcases List.mem_append.1 hk with hk | hk
    · exact (hub ⟨k, hk, q, hq, hw⟩).trans (le_max_left _ _)
    · exact (hub' ⟨k, hk, q, hq, hw⟩).trans (le_max_right _ _)

/-- Two runs over positions put together: the larger of the two answers. -/
theorem C156_positions (rt : Rt K) (o : AS4100 K) (cs : List ℤ) (ps ps' : List (Num K)) (v v' : K)
    (h : o.tensionUtilisation rt (.list cs) (.list ps) = .ok v) (h' : o.tensionUtilisation rt (.list cs) (.list ps') = .ok v') :
    o.tensionUtilisation rt (.list cs) (.list (ps ++ ps')) = .ok (max v v') := by
  obtain ⟨hall, ⟨c, hc, p, hp, hv⟩, hub⟩ := (C156_value rt o cs ps v).1 h
  obtain ⟨hall', ⟨c', hc', p', hp', hv'⟩, hub'⟩ := (C156_value rt o cs ps' v').1 h'
  refine (C156_value rt o cs (ps ++ ps') (max v v')).2 ⟨fun k hk q hq => ?_, ?_, ?_⟩
  · rcases List.mem_append.1 hq with hq | hq
    · exact hall k hk q hq
    · exact hall' k hk q hq
  · rcases le_total v v' with hle | hle
    · rw [max_eq_right hle]
      exact ⟨c', hc', p', List.mem_append_right _ hp', hv'⟩
    · rw [max_eq_left hle]
      exact ⟨c, hc, p, List.mem_append_left _ hp, hv⟩
  · rintro w ⟨k, hk, q, hq, hw⟩
    rcases List.mem_append.1 hq with hq | hq
    · exact (hub ⟨k, hk, q, hq, hw⟩).trans (le_max_left _ _)
    · exact (hub' ⟨k, hk, q, hq, hw⟩).trans (le_max_right _ _)

/-- One load case is a list of one, a float position is a list of one. -/
theorem C156_one (rt : Rt K) (o : AS4100 K) (c : ℤ) (ps : List (Num K)) (loadCase : CaseArg) (x : K) :
    o.tensionUtilisation rt (.one c) (.list ps) = o.tensionUtilisation rt (.list [c]) (.list ps) ∧
      o.tensionUtilisation rt loadCase (.scalar (Num.flt x)) = o.tensionUtilisation rt loadCase (.list [Num.flt x]) := by
  exact ⟨rfl, rfl⟩

/-- No load case given: all those of the beam, in its order. -/
theorem C156_all (rt : Rt K) (o : AS4100 K) (b : Beam K (Sect K)) (hb : o.beam = some b) (cs : List ℤ) (hcs : b.loadCases = .ok cs)
    (ps : List (Num K)) :
    o.tensionUtilisation rt .none (.list ps) = o.tensionUtilisation rt (.list cs) (.list ps) := by
  rw [util_list]
  unfold AS4100.tensionUtilisation
  simp only [PosArg.given, AS4100.utilCases, hb, hcs, bind, Except.bind]
  cases hl : o.utilLoop rt (some ps) cs with
  | error e => rfl
  | ok ret =>
    have hmem := (utilLoop_iff cs).2 ret hl
    have hf : utilFilter .none (some ps) ret = ret := by
      refine List.filter_eq_self.2 fun r hr => ?_
      obtain ⟨c, -, p, hp, l, hu, hrl⟩ := (hmem r).1 hr
      rw [(utilAt_label hu r hrl).2]
      exact decide_eq_true (List.mem_map.2 ⟨p, hp, rfl⟩)
    simp only [hf]

/-- No position given: all load cases are checked at the positions listed for the first of them. -/
theorem C156_listed (rt : Rt K) (o : AS4100 K) (b : Beam K (Sect K)) (hb : o.beam = some b) (c : ℤ) (cs : List ℤ) (locs : List (Loc K))
    (hl : b.listPositions rt .none (some o.assessmentPoints) (some c) = .ok locs) :
    o.tensionUtilisation rt (.list (c :: cs)) .none =
        o.tensionUtilisation rt (.list (c :: cs)) (.list (locs.map fun l => l.pos)) ∧
      (b.loadCases = .ok (c :: cs) → o.tensionUtilisation rt .none .none =
        o.tensionUtilisation rt (.list (c :: cs)) (.list (locs.map fun l => l.pos))) := by
  have hloop : o.utilLoop rt none (c :: cs) = o.utilLoop rt (some (locs.map fun l => l.pos)) (c :: cs) := by
    rw [AS4100.utilLoop, AS4100.utilLoop]
    simp only [AS4100.utilPositions, hb, hl, bind, Except.bind, pure, Except.pure]
  refine ⟨?_, fun hcs => ?_⟩
  · rw [util_list]
    unfold AS4100.tensionUtilisation
    simp only [PosArg.given, AS4100.utilCases, hloop, bind, Except.bind]
    cases h : o.utilLoop rt (some (locs.map fun l => l.pos)) (c :: cs) with
    | error e => rfl
    | ok ret =>
      have hmem := (utilLoop_iff (c :: cs)).2 ret h
      have hf : utilFilter (.list (c :: cs)) none ret = ret := by
        refine List.filter_eq_self.2 fun r hr => ?_
        obtain ⟨k, hk, p, -, l, hu, hrl⟩ := (hmem r).1 hr
        rw [(utilAt_label hu r hrl).1]
        exact decide_eq_true hk
      simp only [hf]
  · rw [util_list]
    unfold AS4100.tensionUtilisation
    simp only [PosArg.given, AS4100.utilCases, hb, hcs, hloop, bind, Except.bind]
    rfl

/-- Load case 1 has no tension, load case 2 has its peak at 0.5. -/
example : Samples.peakObj.tensionUtilisation Samples.rt (.list [1, 2]) (.list [Num.flt (1/4), Num.flt (1/2)]) =
    alone Samples.rt Samples.peakObj 2 (Num.flt (1/2)) ∧
    (∃ v, alone Samples.rt Samples.peakObj 2 (Num.flt (1/2)) = .ok v ∧ 0 < v) ∧
    alone Samples.rt Samples.peakObj 1 (Num.flt (1/2)) = .ok 0 := by
  refine ⟨by decide +kernel, ⟨1000 / Samples.thinCap, by decide +kernel, by decide +kernel⟩, by decide +kernel⟩

/-- A position beyond the end and a load case the beam does not have. -/
example : pairsInOrder [1, 2] [Num.flt (1/2 : ℚ), Num.flt 3] = [(1, Num.flt (1/2))] ++ (1, Num.flt 3) ::
      [(2, Num.flt (1/2)), (2, Num.flt 3)] ∧
    (∃ w, alone Samples.rt Samples.peakObj 1 (Num.flt (1/2)) = .ok w) ∧
    alone Samples.rt Samples.peakObj 1 (Num.flt 3) = .error .positionNotInBeam := by
  refine ⟨by decide +kernel, ⟨0, by decide +kernel⟩, by decide +kernel⟩

/-- The positions listed for the first load case are there. -/
example : ∃ b, Samples.peakObj.beam = some b ∧ b.loadCases = .ok [1, 2] ∧
    (b.listPositions Samples.rt .none (some Samples.peakObj.assessmentPoints) (some 1)).map List.length = .ok 20 := by
  exact ⟨_, rfl, by decide +kernel, by decide +kernel⟩

end BeamDesign
