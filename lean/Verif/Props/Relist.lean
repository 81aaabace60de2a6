import Verif.Lemmas.Relist
import Verif.Spec.SamplesAS
import Verif.Props.Beam
import Verif.Props.PySum

/-!
# C159: a query by number of positions can be repeated with the positions it found

In exact arithmetic it always can.  In every arithmetic it can unless one of the positions found is outside the length of the beam, which
does happen in double precision.
-/

set_option linter.unusedSectionVars false

namespace BeamDesign

open Spec

variable {K : Type} [Field K] [LinearOrder K] [IsStrictOrderedRing K] {S : Type}

/-- Listing again at the positions found by a listing for `n` positions gives the same listing.  It is refused only if one of the positions
found is outside the length of the beam. -/
theorem C159_list_partial (rt : Rt K) (b : Beam K S) (n : ℤ) (c : Option ℤ) (locs : List (Loc K))
    (h : b.listPositions rt .none (some n) c = .ok locs) : ∃ l, b.length rt = .ok l ∧
    (b.listPositions rt (.list (locs.map (·.pos))) none c = .ok locs ∨
      (b.listPositions rt (.list (locs.map (·.pos))) none c = .error .positionNotInBeam ∧
        ∃ p ∈ locs, p.pos.val < 0 ∨ l.val < p.pos.val)) := by
  obtain ⟨l, ps, blocks, hl, hsort, hf, rfl⟩ := list_number h
  obtain ⟨ps', blocks', hf', hfl, hsub, hmem⟩ := drop_empty (fun p block h => entriesAt_pos h) hf
  refine ⟨l, hl, ?_⟩
  rcases check_cases hl (blocks.flatten.map (·.pos)) with hc | ⟨hc, p, hp, hp'⟩
  · refine .inl (list_eq.2 ⟨hc, blocks', ?_, hfl.symm⟩)
    rw [sorted_again hsort hsub hmem]
    exact hf'
  · obtain ⟨q, hq, rfl⟩ := List.mem_map.1 hp
    refine .inr ⟨?_, q, hq, hp'⟩
    unfold Beam.listPositions Beam.positionList
    simp only [hc, bind, Except.bind]

/-- So sections, design sections and loads found for `n` positions are those at the positions found. -/
theorem C159_queries_partial [FloorRing K] (rt : Rt K) (o : AS4100 K) (b : Beam K (Sect K)) (hb : o.beam = some b) (n : ℤ) (k : ℤ)
    (component : CompArg) (l : Num K) (hl : b.length rt = .ok l) (locs : List (Loc K))
    (h : b.listPositions rt .none (some n) (some k) = .ok locs) (hin : ∀ p ∈ locs, 0 ≤ p.pos.val ∧ p.pos.val ≤ l.val) :
    b.getSection rt .none (some n) (some k) = b.getSection rt (.list (locs.map (·.pos))) none (some k) ∧
    o.getDSection rt .none (some n) (some k) = o.getDSection rt (.list (locs.map (·.pos))) none (some k) ∧
    b.getLoads rt k .none (some n) component = b.getLoads rt k (.list (locs.map (·.pos))) none component ∧
    o.getTension rt k .none (some n) = o.getTension rt k (.list (locs.map (·.pos))) none := by
  obtain ⟨l', hl', hor⟩ := C159_list_partial rt b n (some k) locs h
  rw [hl] at hl'
  cases hl'
  rcases hor with hok | ⟨-, p, hp, hout⟩
  · refine ⟨?_, ?_, ?_, ?_⟩
    · unfold Beam.getSection
      rw [h, hok]
    · unfold AS4100.getDSection
      simp only [hb, h, hok]
    · unfold Beam.getLoads
      rw [h, hok]
    · unfold AS4100.getTension Beam.getLoads
      simp only [hb, h, hok]
  · rcases hout with hout | hout
    · exact absurd (hin p hp).1 (not_le.2 hout)
    · exact absurd (hin p hp).2 (not_le.2 hout)

/-- C159 in exact arithmetic: if all elements have lengths and the load case is loaded, listing again at the positions found gives the same
listing. -/
theorem C159_exact_partial {rt : Rt K} (hx : rt.Exact) (b : Beam K S) (ls : List (Num K)) (h : HasLengths b ls) (c : Option ℤ)
    (hc : ∀ k, c = some k → Loaded b k) (n : ℕ) :
    ∃ locs, b.listPositions rt .none (some n) c = .ok locs ∧
      b.listPositions rt (.list (locs.map (·.pos))) none c = .ok locs := by
  obtain ⟨xs, locs, hok, ⟨pairs, blocks, hp, hbl, hout⟩, -, -, hin, -⟩ := C16_min_positions hx b ls h c hc n
  refine ⟨locs, hok, ?_⟩
  obtain ⟨l, hl, hor⟩ := C159_list_partial rt b n c locs hok
  obtain ⟨l', hl', htot⟩ := length_ok hx h
  rw [hl] at hl'
  cases hl'
  rcases hor with hor | ⟨-, p, hp', hbad⟩
  · exact hor
  · rw [hout] at hp'
    obtain ⟨block, hb, hpb⟩ := List.mem_flatten.1 hp'
    obtain ⟨pi, hpi, len, -, he, -⟩ := forall₂_of_right hbl block hb
    have h1 := hin pi.1 ((hp.2 pi.1 pi.2).1 hpi).1
    rw [← (he p hpb).1, ← htot] at h1
    rcases hbad with hbad | hbad
    · exact absurd h1.1 (not_le.2 hbad)
    · exact absurd h1.2 (not_le.2 hbad)

example : ∃ locs, Samples.beam.listPositions Samples.rt .none (some 5) (some 7) = .ok locs ∧
    Samples.beam.listPositions Samples.rt (.list (locs.map (·.pos))) none (some 7) = .ok locs :=
  C159_exact_partial (Rt.exact_exact ℚ) _ _ Samples.beam_lens _ (by
    rintro k h; cases h
    intro i hi
    obtain ⟨t, ht, -⟩ := Samples.beam_loaded i hi
    exact ⟨t, ht⟩) 5

/-- C159 is false in double precision from Python 3.12 on: twenty positions are found on the rod, but `list_positions` and `get_loads`
refuse them, because the last element ends beyond the corrected length. -/
theorem C159_counterexample (v : PySum) (hv : v ≠ .plain) : ∃ b locs, versionObj.beam = some b ∧
    b.listPositions (Rt.binary64.withSum v) .none (some 20) (some 1) = .ok locs ∧
    b.listPositions (Rt.binary64.withSum v) (.list (locs.map (·.pos))) none (some 1) = .error .positionNotInBeam ∧
    b.getLoads (Rt.binary64.withSum v) 1 (.list (locs.map (·.pos))) none (.name "N") = .error .positionNotInBeam := by
  rw [binary64_withSum_eq]
  have key : (match versionObj.beam with
      | none => false
      | some b => match b.listPositions (Rt.fast64.withSum v) .none (some 20) (some 1) with
        | .error _ => false
        | .ok locs =>
          decide (b.listPositions (Rt.fast64.withSum v) (.list (locs.map (·.pos))) none (some 1) = .error .positionNotInBeam ∧
            b.getLoads (Rt.fast64.withSum v) 1 (.list (locs.map (·.pos))) none (.name "N") = .error .positionNotInBeam)) = true := by
    cases v with
    | plain => exact absurd rfl hv
    | floats => decide +kernel
    | all => decide +kernel
  split at key
  next => cases key
  next b hb =>
    split at key
    next => cases key
    next locs hlocs => exact ⟨b, locs, hb, hlocs, of_decide_eq_true key⟩

/-- The two rods of the sample: seven equally spaced positions, the ends and the stored positions, all within the beam. -/
example : (Samples.rods.length Samples.rt).map (·.val) = .ok 5 ∧
    (Samples.rods.listPositions Samples.rt .none (some 7) (some 7)).map
      (fun locs => decide (7 < locs.length ∧ ∀ p ∈ locs, 0 ≤ p.pos.val ∧ p.pos.val ≤ 5)) = .ok true ∧
    (Samples.rods.listPositions Samples.rt .none (some 7) (some 7) >>= fun locs =>
      Samples.rods.listPositions Samples.rt (.list (locs.map (·.pos))) none (some 7)) =
      Samples.rods.listPositions Samples.rt .none (some 7) (some 7) := by
  refine ⟨by decide +kernel, by decide +kernel, by decide +kernel⟩

end BeamDesign
