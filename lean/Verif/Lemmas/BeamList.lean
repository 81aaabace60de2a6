import Verif.Lemmas.Beam

/-! # Lemmas about `Beam.list_positions` and `Beam.get_loads` -/

set_option linter.unusedSectionVars false

namespace BeamDesign

open Spec

section
variable {K S : Type} [Field K] [LinearOrder K] [IsStrictOrderedRing K]

/-- Positions checked one by one. -/
theorem checkPositions_ok {rt : Rt K} {b : Beam K S} {l : Num K} (hl : b.length rt = .ok l)
    (ps : List (Num K)) (h : ∀ p ∈ ps, 0 ≤ p.val ∧ p.val ≤ l.val) :
    b.checkPositions rt ps = .ok () := by
  induction ps with
  | nil => rfl
  | cons p t ih =>
    have := h p (by simp)
    unfold Beam.checkPositions
    rw [if_neg (not_lt.2 this.1)]
    simp only [hl, bind, Except.bind]
    rw [if_neg (not_lt.2 this.2)]
    exact ih fun q hq => h q (List.mem_cons_of_mem _ hq)

theorem checkPositions_error {rt : Rt K} {b : Beam K S} {l : Num K} (hl : b.length rt = .ok l)
    (ps : List (Num K)) (h : ∃ p ∈ ps, p.val < 0 ∨ l.val < p.val) :
    b.checkPositions rt ps = .error .positionNotInBeam := by
  induction ps with
  | nil => simp at h
  | cons p t ih =>
    unfold Beam.checkPositions
    split_ifs with h1
    · rfl
    · simp only [hl, bind, Except.bind]
      split_ifs with h2
      · rfl
      · obtain ⟨q, hq, hc⟩ := h
        rcases List.mem_cons.1 hq with rfl | hq
        · rcases hc with hc | hc <;> contradiction
        · exact ih ⟨q, hq, hc⟩

theorem positionList_explicit {rt : Rt K} {b : Beam K S} {l : Num K}
    (hl : b.length rt = .ok l) {position : PosArg K} {xs : List K} (hreq : Requested position xs)
    (c : Option ℤ) :
    ((∃ x ∈ xs, x < 0 ∨ l.val < x) →
      b.positionList rt position none c = .error .positionNotInBeam) ∧
    ((∀ x ∈ xs, 0 ≤ x ∧ x ≤ l.val) → ∃ ps, b.positionList rt position none c = .ok ps ∧
      Distinct xs (ps.map (·.val))) := by
  rcases hreq with ⟨x, rfl, rfl⟩ | ⟨zs, rfl, rfl⟩
  · constructor
    · intro h
      simp only [Beam.positionList, Num.flt_isInt, Bool.false_eq_true, if_false]
      rw [checkPositions_error hl]
      · rfl
      · simpa using h
    · intro h
      refine ⟨[Num.flt x], ?_, by simp [Distinct]⟩
      simp only [Beam.positionList, Num.flt_isInt, Bool.false_eq_true, if_false]
      rw [checkPositions_ok hl]
      · rfl
      · simpa using h
  · constructor
    · intro h
      simp only [Beam.positionList]
      rw [checkPositions_error hl]
      · rfl
      · obtain ⟨x, hx, hc⟩ := h
        obtain ⟨z, hz, rfl⟩ := List.mem_map.1 hx
        exact ⟨z, hz, hc⟩
    · intro h
      refine ⟨sortedSet zs, ?_, sortedSet_sorted zs, sortedSet_vals zs⟩
      simp only [Beam.positionList]
      rw [checkPositions_ok hl]
      · rfl
      · intro z hz; exact h _ (List.mem_map.2 ⟨z, hz, rfl⟩)

/-- Local positions reported by the model for element `i` at `p`. -/
def Locals (rt : Rt K) (b : Beam K S) (ls : List (Num K)) (c : Option ℤ) (p : K) (i : ℕ)
    (locs : List (Num K)) : Prop :=
  ∃ e l, b.elements[i]? = some e ∧ ls[i]? = some l ∧
    ((l.val ≠ 0 ∧ locs = [Num.flt ((p - startOf ls i) / l.val)]) ∨
     (l.val = 0 ∧ c = none ∧ locs = [Num.flt 0, Num.flt 1]) ∨
     (l.val = 0 ∧ ∃ k lp, c = some k ∧ e.loadPositions k = .ok lp ∧
        zeroLengthPositions rt lp = .ok locs))

theorem locate_ok {rt : Rt K} (hx : rt.Exact) {b : Beam K S} {ls : List (Num K)}
    (h : HasLengths b ls) (c : Option ℤ) (p : Num K) {i : ℕ} (hi : InElement ls p.val i)
    {locs : List (Num K)} (hlocs : Locals rt b ls c p.val i locs) :
    b.locate rt c p i = .ok (locs.map fun l => ⟨p, i, l⟩) := by
  obtain ⟨e, l, he, hl, hcase⟩ := hlocs
  obtain ⟨e', l', h4, h5, h6, h7⟩ := element_ok h hi.1 (z := i) (Or.inl rfl)
  rw [he] at h7; cases h7
  rw [hl] at h5; cases h5
  unfold Beam.locate
  simp only [h4, h6, bind, Except.bind]
  rcases hcase with ⟨hne, rfl⟩ | ⟨h0, rfl, rfl⟩ | ⟨h0, k, lp, rfl, hlp, hz⟩
  · rw [if_neg hne, beamToLocal_eq hx h hl (Or.inl rfl), if_neg, if_neg hne]
    · rfl
    · push Not; exact hi.2
  · rw [if_pos h0]; rfl
  · rw [if_pos h0]
    simp only [hlp, hz, pure, Except.pure]

/-- `list_positions` from the position list, when local positions exist everywhere. -/
theorem listPositions_eq {rt : Rt K} (hx : rt.Exact) {b : Beam K S} {ls : List (Num K)}
    (h : HasLengths b ls) {position : PosArg K} {minPos c : Option ℤ} {ps : List (Num K)}
    (hps : b.positionList rt position minPos c = .ok ps)
    (locs : K → ℕ → List (Num K))
    (hlocs : ∀ p ∈ ps, ∀ i, InElement ls p.val i → Locals rt b ls c p.val i (locs p.val i)) :
    ∃ els : List (List ℕ), List.Forall₂ (fun p is => Elements ls p.val is) ps els ∧
      b.listPositions rt position minPos c = .ok
        ((List.zipWith (fun p is => is.flatMap fun i => (locs p.val i).map fun l => (⟨p, i, l⟩ : Loc K))
          ps els).flatten) := by
  have hblocks : ∀ ps : List (Num K),
      (∀ p ∈ ps, ∀ i, InElement ls p.val i → Locals rt b ls c p.val i (locs p.val i)) →
      ∃ els : List (List ℕ), List.Forall₂ (fun p is => Elements ls p.val is) ps els ∧
      (ps.mapM fun p => do
        let es ← b.inElements rt p
        let ls ← es.mapM fun i => b.locate rt c p i
        return ls.flatten) = .ok (List.zipWith (fun p is =>
          is.flatMap fun i => (locs p.val i).map fun l => (⟨p, i, l⟩ : Loc K)) ps els) := by
    intro ps
    induction ps with
    | nil => intro _; exact ⟨[], List.Forall₂.nil, rfl⟩
    | cons p t ih =>
      intro hl
      obtain ⟨els, h1, h2⟩ := ih fun q hq => hl q (List.mem_cons_of_mem _ hq)
      obtain ⟨is, h3, h4⟩ := inElements_ok hx h p
      refine ⟨is :: els, List.Forall₂.cons h4 h1, ?_⟩
      rw [List.mapM_cons, h2]
      have : is.mapM (fun i => b.locate rt c p i)
          = .ok (is.map fun i => (locs p.val i).map fun l => (⟨p, i, l⟩ : Loc K)) :=
        mapM_ok is fun i hi => locate_ok hx h c p ((h4.2 i).1 hi) (hl p (by simp) i ((h4.2 i).1 hi))
      simp only [h3, this, bind, Except.bind, pure, Except.pure, List.flatMap_def]
      rfl
  obtain ⟨els, h1, h2⟩ := hblocks ps hlocs
  refine ⟨els, h1, ?_⟩
  unfold Beam.listPositions
  simp only [hps, bind, Except.bind] at h2 ⊢
  rw [h2]
  rfl

/-- Local positions always exist when zero length elements are loaded (or no load case is given). -/
theorem locals_exist {rt : Rt K} {b : Beam K S} {ls : List (Num K)}
    (h : HasLengths b ls) (c : Option ℤ) (hc : ∀ k, c = some k → ZeroLengthLoaded b ls k) (p : K) (i : ℕ)
    (hi : i < ls.length) : ∃ locs, Locals rt b ls c p i locs := by
  obtain ⟨e, l, he, hl, -, -⟩ := hasLengths_get h hi
  by_cases h0 : l.val = 0
  · cases c with
    | none => exact ⟨_, e, l, he, hl, Or.inr (Or.inl ⟨h0, rfl, rfl⟩)⟩
    | some k =>
      obtain ⟨t, e', he', hlk, -, hne⟩ := hc k rfl i l hl h0
      rw [he] at he'; cases he'
      have hlp : e.loadPositions k = .ok (t.rows.map fun r => ⟨r.pos, t.isInt⟩) := by
        simp [Element.loadPositions, Element.case, hlk, LoadCase.loadPositions, bind, Except.bind]
      obtain ⟨z, hz⟩ : ∃ z, zeroLengthPositions rt
          (t.rows.map fun r => (⟨r.pos, t.isInt⟩ : Num K)) = .ok z := by
        cases hr : t.rows with
        | nil => exact absurd hr hne
        | cons r rs =>
          unfold zeroLengthPositions
          simp only [List.map_cons, List.head?_cons, List.getLast?_cons]
          split_ifs <;> simp [List.getLast?_cons]
      exact ⟨z, e, l, he, hl, Or.inr (Or.inr ⟨h0, k, _, rfl, hlp, hz⟩)⟩
  · exact ⟨_, e, l, he, hl, Or.inl ⟨h0, rfl⟩⟩

theorem zeroLengthPositions_cases {rt : Rt K} {lp z : List (Num K)} (h : zeroLengthPositions rt lp = .ok z) :
    lp ≠ [] ∧ ∃ lp1, (lp1 = lp ∨ lp1 = lp.map (fun l => ⟨rt.add 0 l.val, false⟩)) ∧
      (z = lp1 ∨ z = lp1.map (fun l => ⟨rt.add l.val 1, false⟩)) := by
  unfold zeroLengthPositions at h
  split at h
  · next hd _ h1 _ =>
    refine ⟨by rintro rfl; simp at h1, if hd.val ≠ 0 then lp.map (fun l => ⟨rt.add 0 l.val, false⟩) else lp, ?_, ?_⟩
    · by_cases h0 : hd.val ≠ 0
      · rw [if_pos h0]; exact Or.inr rfl
      · rw [if_neg h0]; exact Or.inl rfl
    · simp only at h
      split at h
      · next zl hz =>
        cases h
        by_cases h0 : zl.val ≠ 1
        · rw [if_pos h0]; exact Or.inr rfl
        · rw [if_neg h0]; exact Or.inl rfl
      · cases h
  · cases h

theorem zeroLengthPositions_ne {rt : Rt K} {lp z : List (Num K)} (h : zeroLengthPositions rt lp = .ok z) :
    z ≠ [] := by
  obtain ⟨hne, lp1, rfl | rfl, rfl | rfl⟩ := zeroLengthPositions_cases h <;> simpa using hne

theorem zeroLengthPositions_flt {rt : Rt K} {lp z : List (Num K)} (h : zeroLengthPositions rt lp = .ok z)
    (hlp : ∀ x ∈ lp, x.isInt = false) : ∀ x ∈ z, x.isInt = false := by
  obtain ⟨hne, lp1, rfl | rfl, rfl | rfl⟩ := zeroLengthPositions_cases h <;> intro x hx
  · exact hlp x hx
  · obtain ⟨y, -, rfl⟩ := List.mem_map.1 hx; rfl
  · obtain ⟨y, -, rfl⟩ := List.mem_map.1 hx; rfl
  · obtain ⟨y, -, rfl⟩ := List.mem_map.1 hx; rfl

theorem locals_block {rt : Rt K} {b : Beam K S} {ls : List (Num K)} {c : Option ℤ} {p : Num K} {i : ℕ}
    {locs : List (Num K)} (hi : InElement ls p.val i) (h : Locals rt b ls c p.val i locs) :
    BlockAt ls c p.val i (locs.map fun l => ⟨p, i, l⟩) := by
  obtain ⟨e, l, he, hl, hcase⟩ := h
  have hs := startOf_succ ls i l hl
  refine ⟨l, hl, ?_, ?_, ?_, ?_⟩
  · intro x hx
    obtain ⟨q, hq, rfl⟩ := List.mem_map.1 hx
    refine ⟨rfl, rfl, ?_⟩
    rcases hcase with ⟨hne, rfl⟩ | ⟨h0, -⟩ | ⟨h0, -⟩
    · rw [List.mem_singleton] at hq
      subst hq
      simp only [Num.flt_val]
      field_simp
      ring
    · have := hi.2.2
      rw [hs, h0] at this
      simp only [h0, mul_zero, add_zero] at this ⊢
      exact le_antisymm this hi.2.1
    · have := hi.2.2
      rw [hs, h0] at this
      simp only [h0, mul_zero, add_zero] at this ⊢
      exact le_antisymm this hi.2.1
  · intro hne
    rcases hcase with ⟨-, rfl⟩ | ⟨h0, -⟩ | ⟨h0, -⟩
    · exact ⟨_, rfl⟩
    · exact absurd h0 hne
    · exact absurd h0 hne
  · intro h0 hc
    rcases hcase with ⟨hne, -⟩ | ⟨-, -, rfl⟩ | ⟨-, k, lp, hk, -⟩
    · exact absurd h0 hne
    · rfl
    · rw [hc] at hk; cases hk
  · rcases hcase with ⟨-, rfl⟩ | ⟨-, -, rfl⟩ | ⟨-, k, lp, -, -, hz⟩
    · simp
    · simp
    · simpa using zeroLengthPositions_ne hz

/-- The concatenation over positions and elements as blocks over the sorted list of pairs. -/
theorem blocks_of {ls : List (Num K)} (f : Num K → ℕ → List (Loc K)) (R : K → ℕ → List (Loc K) → Prop)
    {ps : List (Num K)} {els : List (List ℕ)}
    (hels : List.Forall₂ (fun p is => Elements ls p.val is) ps els)
    (hps : (ps.map (·.val)).Pairwise (· < ·))
    (hR : ∀ p ∈ ps, ∀ i, InElement ls p.val i → R p.val i (f p i)) :
    ∃ pairs blocks, Pairs ls (ps.map (·.val)) pairs ∧
      List.Forall₂ (fun pi b => R pi.1 pi.2 b) pairs blocks ∧
      (List.zipWith (fun p is => is.flatMap (f p)) ps els).flatten = blocks.flatten := by
  induction hels with
  | nil =>
    refine ⟨[], [], ⟨List.Pairwise.nil, by simp⟩, List.Forall₂.nil, rfl⟩
  | @cons p is ps els h1 h2 ih =>
    rw [List.map_cons, List.pairwise_cons] at hps
    obtain ⟨pairs, blocks, hp, hf, he⟩ := ih hps.2 fun q hq => hR q (List.mem_cons_of_mem _ hq)
    refine ⟨is.map (fun i => (p.val, i)) ++ pairs, is.map (f p) ++ blocks, ⟨?_, ?_⟩, ?_, ?_⟩
    · rw [List.pairwise_append]
      refine ⟨?_, hp.1, ?_⟩
      · rw [List.pairwise_map]
        exact h1.1.imp fun h => Or.inr ⟨rfl, h⟩
      · rintro ⟨q, i⟩ hq ⟨q', i'⟩ hq'
        obtain ⟨j, -, hj⟩ := List.mem_map.1 hq
        cases hj
        exact Or.inl (hps.1 q' ((hp.2 q' i').1 hq').1)
    · intro q i
      rw [List.mem_append, List.mem_map, List.map_cons, List.mem_cons]
      constructor
      · rintro (⟨j, hj, he⟩ | h)
        · cases he
          exact ⟨Or.inl rfl, (h1.2 i).1 hj⟩
        · exact ⟨Or.inr ((hp.2 q i).1 h).1, ((hp.2 q i).1 h).2⟩
      · rintro ⟨rfl | h, hi⟩
        · exact Or.inl ⟨i, (h1.2 i).2 hi, rfl⟩
        · exact Or.inr ((hp.2 q i).2 ⟨h, hi⟩)
    · refine List.rel_append ?_ hf
      rw [List.forall₂_map_left_iff, List.forall₂_map_right_iff]
      exact List.forall₂_same.2 fun i hi => hR p (by simp) i ((h1.2 i).1 hi)
    · rw [List.zipWith_cons_cons, List.flatten_cons, he, List.flatten_append, List.flatMap_def]

/-- `list_positions` from the position list. -/
theorem listing_of_positionList {rt : Rt K} (hx : rt.Exact) {b : Beam K S} {ls : List (Num K)}
    (h : HasLengths b ls) {position : PosArg K} {minPos c : Option ℤ} {ps : List (Num K)}
    (hc : ∀ k, c = some k → ZeroLengthLoaded b ls k)
    (hps : b.positionList rt position minPos c = .ok ps) (hsort : (ps.map (·.val)).Pairwise (· < ·)) :
    ∃ out, b.listPositions rt position minPos c = .ok out ∧ Listing ls c (ps.map (·.val)) out := by
  classical
  let locs : K → ℕ → List (Num K) := fun p i =>
    if hi : i < ls.length then (locals_exist (rt := rt) h c hc p i hi).choose else []
  have hl : ∀ p i, InElement ls p i → Locals rt b ls c p i (locs p i) := by
    intro p i hi
    simp only [locs, dif_pos hi.1]
    exact (locals_exist (rt := rt) h c hc p i hi.1).choose_spec
  obtain ⟨els, h1, h2⟩ := listPositions_eq hx h hps locs fun p _ i hi => hl p.val i hi
  obtain ⟨pairs, blocks, hp, hf, he⟩ := blocks_of
    (fun p i => (locs p.val i).map fun l => (⟨p, i, l⟩ : Loc K)) (BlockAt ls c) h1 hsort
    (fun p _ i hi => locals_block hi (hl p.val i hi))
  exact ⟨_, h2, pairs, blocks, hp, hf, he⟩

/-- The position list for `min_positions`. -/
theorem positionList_min {rt : Rt K} (hx : rt.Exact) {b : Beam K S} {ls : List (Num K)}
    (h : HasLengths b ls) (c : Option ℤ) (hc : ∀ k, c = some k → Loaded b k) (n : ℕ) :
    ∃ ps, b.positionList rt .none (some n) c = .ok ps ∧ (ps.map (·.val)).Pairwise (· < ·) ∧
      ∀ v, v ∈ ps.map (·.val) ↔
        (∃ i, i < ls.length ∧ (v = startOf ls i ∨ v = startOf ls (i + 1))) ∨
        (∃ i l, ls[i]? = some l ∧ ∃ k t r, c = some k ∧ HasTable b k i t ∧ r ∈ t.rows ∧
          v = startOf ls i + r.pos * l.val) ∨
        EquallySpaced 0 (total ls) n v := by
  obtain ⟨L, hL, hLv⟩ := length_ok hx h
  obtain ⟨lin, hlin, -, hmem⟩ := linspace_ok hx (0 : K) L.val n
  -- the local positions of element i
  have hep : ∀ i e, b.elements[i]? = some e → ∃ ep : List (Num K),
      (match c with
        | none => (.ok [Num.flt 0, Num.flt 1] : Py (List (Num K)))
        | some c => e.loadPositions c) = .ok ep ∧
      (∀ q ∈ ep, 0 ≤ q.val ∧ q.val ≤ 1) ∧
      ((c = none ∧ ep.map (·.val) = [0, 1]) ∨ ∃ k t, c = some k ∧ HasTable b k i t ∧
        ep.map (·.val) = t.rows.map (·.pos)) := by
    intro i e he
    cases c with
    | none => exact ⟨_, rfl, by simp, Or.inl ⟨rfl, rfl⟩⟩
    | some k =>
      have hi : i < b.elements.length := by
        by_contra hc'
        rw [List.getElem?_eq_none (by omega)] at he
        cases he
      obtain ⟨t, e', he', hlk, hwf, hne⟩ := hc k rfl i hi
      have he'' := he'
      rw [he] at he''; cases he''
      refine ⟨t.rows.map fun r => ⟨r.pos, t.isInt⟩, ?_, ?_, Or.inr ⟨k, t, rfl, ⟨e, he', hlk, hwf, hne⟩, ?_⟩⟩
      · simp [Element.loadPositions, Element.case, hlk, LoadCase.loadPositions, bind, Except.bind]
      · intro q hq
        obtain ⟨r, hr, rfl⟩ := List.mem_map.1 hq
        exact hwf.2 r hr
      · rw [List.map_map]; rfl
  -- the real positions of element i
  have hreal : ∀ i e l, b.elements[i]? = some e → ls[i]? = some l → ∃ rp : List (Num K),
      b.realPositions rt c i e = .ok rp ∧
      ∀ v, v ∈ rp.map (·.val) ↔
        (c = none ∧ (v = startOf ls i ∨ v = startOf ls (i + 1))) ∨
        (∃ k t r, c = some k ∧ HasTable b k i t ∧ r ∈ t.rows ∧ v = startOf ls i + r.pos * l.val) := by
    intro i e l he hl
    obtain ⟨ep, hep1, hep2, hep3⟩ := hep i e he
    have hconv : ∃ f : Num K → Num K, ∀ q ∈ ep, b.localToBeam rt q (i : ℤ) = .ok (f q) ∧
        (f q).val = startOf ls i + q.val * l.val := by
      classical
      refine ⟨fun q => if hq : ∃ z, b.localToBeam rt q (i : ℤ) = .ok z ∧
        z.val = startOf ls i + q.val * l.val then hq.choose else q, ?_⟩
      intro q hq
      have hex : ∃ z, b.localToBeam rt q (i : ℤ) = .ok z ∧ z.val = startOf ls i + q.val * l.val :=
        (localToBeam_eq hx h hl (Or.inl rfl) q).2 (hep2 q hq).1 (hep2 q hq).2
      simp only [dif_pos hex]
      exact hex.choose_spec
    obtain ⟨f, hf⟩ := hconv
    refine ⟨ep.map f, ?_, ?_⟩
    · unfold Beam.realPositions
      have : ep.mapM (fun p => b.localToBeam rt p (i : ℤ)) = .ok (ep.map f) :=
        mapM_ok ep fun q hq => (hf q hq).1
      cases c with
      | none => cases hep1; exact this
      | some k =>
        simp only [bind, Except.bind] at hep1 ⊢
        rw [hep1]; exact this
    · intro v
      have hmap : (ep.map f).map (·.val) = (ep.map (·.val)).map (fun q => startOf ls i + q * l.val) := by
        rw [List.map_map, List.map_map]
        exact List.map_congr_left fun q hq => (hf q hq).2
      rw [hmap]
      rcases hep3 with ⟨rfl, hv⟩ | ⟨k, t, rfl, ht, hv⟩
      · rw [hv]
        simp [startOf_succ ls i l hl]
      · rw [hv, List.map_map]
        simp only [List.mem_map, reduceCtorEq, false_and, false_or, Option.some.injEq]
        constructor
        · rintro ⟨r, hr, rfl⟩
          exact ⟨k, t, r, rfl, ht, hr, rfl⟩
        · rintro ⟨k', t', r, rfl, ht', hr, rfl⟩
          obtain ⟨e1, h1, h2, -, -⟩ := ht
          obtain ⟨e2, h3, h4, -, -⟩ := ht'
          rw [h1] at h3; cases h3
          rw [h2] at h4; cases h4
          exact ⟨r, hr, rfl⟩
  -- all real positions
  have hall : ∃ f : Element K S × ℕ → List (Num K),
      ∀ ei ∈ b.elements.zipIdx, b.realPositions rt c ei.2 ei.1 = .ok (f ei) ∧
      ∃ l, ls[ei.2]? = some l ∧ ∀ v, v ∈ (f ei).map (·.val) ↔
        (c = none ∧ (v = startOf ls ei.2 ∨ v = startOf ls (ei.2 + 1))) ∨
        (∃ k t r, c = some k ∧ HasTable b k ei.2 t ∧ r ∈ t.rows ∧
          v = startOf ls ei.2 + r.pos * l.val) := by
    classical
    have hex : ∀ ei ∈ b.elements.zipIdx, ∃ rp, b.realPositions rt c ei.2 ei.1 = .ok rp ∧
        ∃ l, ls[ei.2]? = some l ∧ ∀ v, v ∈ rp.map (·.val) ↔
        (c = none ∧ (v = startOf ls ei.2 ∨ v = startOf ls (ei.2 + 1))) ∨
        (∃ k t r, c = some k ∧ HasTable b k ei.2 t ∧ r ∈ t.rows ∧
          v = startOf ls ei.2 + r.pos * l.val) := by
      rintro ⟨e, i⟩ hei
      have he : b.elements[i]? = some e := List.mem_zipIdx_iff_getElem?.1 hei
      have hi : i < ls.length := by
        rw [← hasLengths_length h]
        by_contra hc'
        rw [List.getElem?_eq_none (by omega)] at he
        cases he
      obtain ⟨rp, h1, h2⟩ := hreal i e ls[i] he (List.getElem?_eq_getElem hi)
      exact ⟨rp, h1, ls[i], List.getElem?_eq_getElem hi, h2⟩
    refine ⟨fun ei => if hh : ei ∈ b.elements.zipIdx then (hex ei hh).choose else [], ?_⟩
    intro ei hei
    simp only [dif_pos hei]
    exact (hex ei hei).choose_spec
  obtain ⟨f, hf⟩ := hall
  have hmapM : (b.elements.zipIdx).mapM (fun ei => b.realPositions rt c ei.2 ei.1)
      = .ok ((b.elements.zipIdx).map f) := mapM_ok _ fun ei hei => (hf ei hei).1
  refine ⟨sortedSet ((endsOf rt ls).flatMap (fun se => [se.1, se.2])
    ++ ((b.elements.zipIdx).map f).flatten ++ lin.map Num.flt), ?_, sortedSet_sorted _, ?_⟩
  · simp only [Beam.positionList, bind, Except.bind, hL, hlin, elementEnds_ok rt h]
    rw [hmapM]
    rfl
  · intro v
    rw [sortedSet_vals, List.map_append, List.map_append, List.mem_append, List.mem_append]
    have hlast : v ∈ (lin.map Num.flt).map (·.val) ↔ EquallySpaced 0 (total ls) n v := by
      rw [List.map_map, ← hLv, ← hmem v]; simp
    have hfirst : v ∈ ((endsOf rt ls).flatMap (fun se => [se.1, se.2])).map (·.val) ↔
        ∃ i, i < ls.length ∧ (v = startOf ls i ∨ v = startOf ls (i + 1)) := by
      simp only [List.map_flatMap, List.mem_flatMap]
      constructor
      · rintro ⟨se, hse, hv⟩
        obtain ⟨i, hi, he⟩ := List.getElem_of_mem hse
        rw [endsOf_length] at hi
        obtain ⟨se', h1, h2, h3⟩ := endsOf_get hx ls i hi
        rw [List.getElem?_eq_getElem (by rw [endsOf_length]; exact hi), he] at h1
        cases h1
        refine ⟨i, hi, ?_⟩
        simpa [h2, h3] using hv
      · rintro ⟨i, hi, hv⟩
        obtain ⟨se', h1, h2, h3⟩ := endsOf_get hx ls i hi
        refine ⟨se', List.mem_of_getElem? h1, ?_⟩
        simpa [h2, h3] using hv
    have hmid : v ∈ (((b.elements.zipIdx).map f).flatten).map (·.val) ↔
        (∃ i l, ls[i]? = some l ∧ ((c = none ∧ (v = startOf ls i ∨ v = startOf ls (i + 1))) ∨
          ∃ k t r, c = some k ∧ HasTable b k i t ∧ r ∈ t.rows ∧
          v = startOf ls i + r.pos * l.val)) := by
      rw [List.map_flatten, List.mem_flatten]
      constructor
      · rintro ⟨l, hl, hv⟩
        rw [List.map_map, List.mem_map] at hl
        obtain ⟨ei, hei, rfl⟩ := hl
        obtain ⟨-, l, hl, hiff⟩ := hf ei hei
        exact ⟨ei.2, l, hl, (hiff v).1 hv⟩
      · rintro ⟨i, l, hl, hv⟩
        have hi : i < ls.length := by
          by_contra hc'
          rw [List.getElem?_eq_none (by omega)] at hl
          cases hl
        obtain ⟨e, l', he, hl', -, -⟩ := hasLengths_get h hi
        rw [hl] at hl'; cases hl'
        have hei : (e, i) ∈ b.elements.zipIdx := List.mem_zipIdx_iff_getElem?.2 he
        obtain ⟨-, l'', hl'', hiff⟩ := hf (e, i) hei
        simp only [hl, Option.some.injEq] at hl''
        subst hl''
        refine ⟨(f (e, i)).map (·.val), ?_, (hiff v).2 hv⟩
        rw [List.map_map, List.mem_map]
        exact ⟨(e, i), hei, rfl⟩
    rw [hlast, hfirst, hmid]
    constructor
    · rintro ((h1 | ⟨i, l, hl, h2 | h2⟩) | h3)
      · exact Or.inl h1
      · left
        have hi : i < ls.length := by
          by_contra hc'
          rw [List.getElem?_eq_none (by omega)] at hl
          cases hl
        exact ⟨i, hi, h2.2⟩
      · exact Or.inr (Or.inl ⟨i, l, hl, h2⟩)
      · exact Or.inr (Or.inr h3)
    · rintro (h1 | ⟨i, l, hl, h2⟩ | h3)
      · exact Or.inl (Or.inl h1)
      · exact Or.inl (Or.inr ⟨i, l, hl, Or.inr h2⟩)
      · exact Or.inr h3

end

end BeamDesign
