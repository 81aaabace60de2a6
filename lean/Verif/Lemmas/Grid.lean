import Verif.Lemmas.BeamLoads
import Verif.Spec.Grid

/-!
# Beams in floating point arithmetic
-/

namespace BeamDesign

open Spec

section
variable {K S : Type} [Field K] [LinearOrder K] [IsStrictOrderedRing K]
variable {rt : Rt K} {rnd : K → K}

omit [IsStrictOrderedRing K] in
theorem fpadd (hr : RoundsTo rt rnd) (a b : Num K) (hb : b.isInt = false) :
    (a.padd rt b).val = rnd (a.val + b.val) ∧ (a.padd rt b).isInt = false := by
  unfold Num.padd
  simp [hb, hr.add]

omit [IsStrictOrderedRing K] in
theorem fends_from (hr : RoundsTo rt rnd) (ls : List (Num K)) (prev : Num K) (hp : prev.isInt = false)
    (hl : ∀ l ∈ ls, l.isInt = false) (hm : ∀ j, rnd (prev.val + startOf ls j) = prev.val + startOf ls j) (i : ℕ)
    (hi : i < ls.length) :
    ∃ se, (endsFrom rt prev ls)[i]? = some se ∧ se.1.val = prev.val + startOf ls i ∧
      se.2.val = prev.val + startOf ls (i + 1) ∧ se.1.isInt = false := by
  induction ls generalizing prev i with
  | nil => simp at hi
  | cons l t ih =>
    have hv : (prev.padd rt l).val = prev.val + l.val := by
      rw [(fpadd hr prev l (hl l List.mem_cons_self)).1]
      have := hm 1
      simpa [startOf] using this
    cases i with
    | zero =>
      refine ⟨(prev, prev.padd rt l), rfl, by simp [startOf], ?_, hp⟩
      rw [hv]; simp [startOf]
    | succ i =>
      obtain ⟨se, h1, h2, h3, h4⟩ := ih (prev.padd rt l) (fpadd hr prev l (hl l List.mem_cons_self)).2
        (fun l h => hl l (List.mem_cons_of_mem _ h)) (fun j => by
          have := hm (j + 1)
          rw [hv]
          simpa [startOf, add_assoc] using this) i (by simpa using hi)
      refine ⟨se, by simpa [endsFrom] using h1, ?_, ?_, h4⟩
      · rw [h2, hv]; simp [startOf]; ring
      · rw [h3, hv]; simp [startOf]; ring

omit [IsStrictOrderedRing K] in
theorem fends (hr : RoundsTo rt rnd) {ls : List (Num K)} (hm : Marks rnd ls) (i : ℕ) (hi : i < ls.length) :
    ∃ se, (endsOf rt ls)[i]? = some se ∧ se.1.val = startOf ls i ∧ se.2.val = startOf ls (i + 1) ∧
      se.1.isInt = false := by
  cases ls with
  | nil => simp at hi
  | cons l t =>
    cases i with
    | zero => exact ⟨(Num.flt 0, l), rfl, by simp [startOf], by simp [startOf], rfl⟩
    | succ i =>
      obtain ⟨se, h1, h2, h3, h4⟩ := fends_from hr t l (hm.1 l List.mem_cons_self).1
        (fun l h => (hm.1 l (List.mem_cons_of_mem _ h)).1)
        (fun j => by simpa [startOf] using hm.2 (j + 1)) i (by simpa using hi)
      exact ⟨se, by simpa [endsOf] using h1, by rw [h2]; simp [startOf], by rw [h3]; simp [startOf], h4⟩

theorem flength (hr : RoundsTo rt rnd) {b : Beam K S} {ls : List (Num K)} (h : HasLengths b ls) (hm : Marks rnd ls) :
    ∃ L, b.length rt = .ok L ∧ L.val = total ls := by
  refine ⟨pySum rt ls, by unfold Beam.length; rw [lengths_ok h]; rfl, ?_⟩
  · have key : ∀ (t : List (Num K)) (a : Num K), (∀ l ∈ t, l.isInt = false) →
        (∀ j, rnd (a.val + startOf t j) = a.val + startOf t j) → (t.foldl (Num.padd rt) a).val = a.val + total t := by
      intro t
      induction t with
      | nil => intro a _ _; simp [total]
      | cons l t ih =>
        intro a hl hj
        have hv : (a.padd rt l).val = a.val + l.val := by
          rw [(fpadd hr a l (hl l List.mem_cons_self)).1]
          simpa [startOf] using hj 1
        rw [List.foldl_cons, ih _ (fun l h => hl l (List.mem_cons_of_mem _ h)) (fun j => by
          have := hj (j + 1)
          rw [hv]
          simpa [startOf, add_assoc] using this), hv]
        simp [total, add_assoc]
    rw [pySum_of (by rw [hr.add, add_zero, hr.zero]) ls (fun a l b hab => by
      have hl := hm.1 l (by rw [hab]; simp)
      have ha : (a.foldl (Num.padd rt) (Num.int 0)).val = startOf ls a.length := by
        rw [key a (Num.int 0) (fun l hl => (hm.1 l (by rw [hab]; simp [hl])).1) (fun j => ?_)]
        · simp [Num.int, startOf, total, hab]
        · have : startOf a j = startOf ls (min j a.length) := by
            simp only [startOf, hab, List.take_append, List.map_append, List.sum_append]
            have e1 : min j a.length - a.length = 0 := by omega
            rw [e1, List.take_zero, List.map_nil, List.sum_nil, add_zero,
              show List.take j a = List.take (min j a.length) a from List.take_eq_take_iff.2 (by omega)]
          rw [this]; simpa [Num.int] using hm.2 (min j a.length)
      have hs : startOf ls a.length + l.val = startOf ls (a.length + 1) := by
        rw [startOf_succ ls a.length l (by rw [hab]; simp)]
      have hs0 := hm.2 a.length
      simp only [ha, hr.add, hr.sub, hs, hm.2 (a.length + 1)]
      rw [show startOf ls a.length - startOf ls (a.length + 1) = -l.val by rw [← hs]; ring,
        show l.val - startOf ls (a.length + 1) = -startOf ls a.length by rw [← hs]; ring, hr.neg, hr.neg, hl.2.2, hs0,
        neg_add_cancel, neg_add_cancel, hr.zero]
      exact ⟨rfl, rfl⟩), key ls (Num.int 0) (fun l hl => (hm.1 l hl).1) (fun j => by simpa [Num.int] using hm.2 j)]
    simp [Num.int]

theorem finElements (hr : RoundsTo rt rnd) {b : Beam K S} {ls : List (Num K)} (h : HasLengths b ls) (hm : Marks rnd ls)
    (p : Num K) : ∃ is, b.inElements rt p = .ok is ∧ Elements ls p.val is := by
  refine ⟨inEnds p.val (endsOf rt ls), ?_, ?_, ?_⟩
  · unfold Beam.inElements; rw [elementEnds_ok rt h]; rfl
  · exact (List.pairwise_lt_range).sublist List.filter_sublist
  · intro i
    unfold inEnds InElement
    rw [List.mem_filter, List.mem_range, endsOf_length]
    apply and_congr_right
    intro hi
    obtain ⟨se, h1, h2, h3, -⟩ := fends hr hm i hi
    rw [h1]
    simp [h2, h3]

theorem fstartEnd (hr : RoundsTo rt rnd) {b : Beam K S} {ls : List (Num K)} (h : HasLengths b ls) (hm : Marks rnd ls)
    {i : ℕ} (hi : i < ls.length) :
    ∃ se, b.getElementStartEnd rt (i : ℤ) = .ok se ∧ se.1.val = startOf ls i ∧ se.1.isInt = false := by
  obtain ⟨se, h1, h2, -, h4⟩ := fends hr hm i hi
  refine ⟨se, ?_, h2, h4⟩
  unfold Beam.getElementStartEnd
  rw [elementEnds_ok rt h]
  exact (pyIndex_ok_iff _ _ _).2 ⟨i, h1, Or.inl rfl⟩

/-- The local position computed for `p` on element `i`. -/
def fpos (rnd : K → K) (ls : List (Num K)) (p : K) (i : ℕ) : K :=
  rnd (rnd (p - startOf ls i) / (ls[i]?.elim 0 (·.val)))

theorem fpos_rounded (hr : RoundsTo rt rnd) {ls : List (Num K)} (hm : Marks rnd ls) {p : K} {i : ℕ}
    (hi : InElement ls p i) : RoundedAt rnd ls p i (fpos rnd ls p i) := by
  obtain ⟨l, hl⟩ : ∃ l, ls[i]? = some l := ⟨_, List.getElem?_eq_getElem hi.1⟩
  obtain ⟨-, hpos, hmach⟩ := hm.1 _ (List.mem_of_getElem? hl)
  have hstep := startOf_succ ls i _ hl
  have h1 : 0 ≤ rnd (p - startOf ls i) := by
    rw [← hr.zero]; exact hr.mono (by linarith [hi.2.1])
  have h2 : rnd (p - startOf ls i) ≤ l.val := by
    rw [← hmach]; exact hr.mono (by linarith [hi.2.2])
  refine ⟨?_, ?_, _, hl, by simp [fpos, hl]⟩
  · unfold fpos
    rw [hl, ← hr.zero]
    exact hr.mono (div_nonneg h1 hpos.le)
  · unfold fpos
    rw [hl, ← hr.one]
    exact hr.mono ((div_le_one hpos).2 h2)

theorem flocate (hr : RoundsTo rt rnd) {b : Beam K S} {ls : List (Num K)} (h : HasLengths b ls) (hm : Marks rnd ls)
    (c : Option ℤ) (p : Num K) {i : ℕ} (hi : InElement ls p.val i) :
    b.locate rt c p i = .ok [⟨p, i, Num.flt (fpos rnd ls p.val i)⟩] := by
  obtain ⟨e, l, h4, h5, h6, h7⟩ := element_ok h hi.1 (z := i) (Or.inl rfl)
  obtain ⟨hint, hpos, hmach⟩ := hm.1 l (List.mem_of_getElem? h5)
  obtain ⟨se, h1, h2, h3⟩ := fstartEnd hr h hm hi.1
  have hstep := startOf_succ ls i _ h5
  have hsub : (p.psub rt se.1).val = rnd (p.val - startOf ls i) := by
    unfold Num.psub
    simp [h3, hr.sub, h2]
  have hb1 : 0 ≤ rnd (p.val - startOf ls i) := by
    rw [← hr.zero]; exact hr.mono (by linarith [hi.2.1])
  have hb2 : rnd (p.val - startOf ls i) ≤ l.val := by
    rw [← hmach]; exact hr.mono (by linarith [hi.2.2])
  unfold Beam.locate
  simp only [h4, h6, bind, Except.bind]
  rw [if_neg hpos.ne']
  unfold Beam.beamToLocal
  simp only [h1, h4, h6, bind, Except.bind, hsub]
  rw [if_neg (by push Not; exact ⟨hb1, hb2⟩), if_neg hpos.ne']
  simp only [pure, Except.pure, Num.pdiv, Num.flt, hsub, hr.div, fpos, h5, Option.elim]

/-- `list_positions` from the position list. -/
theorem flisting (hr : RoundsTo rt rnd) {b : Beam K S} {ls : List (Num K)} (h : HasLengths b ls) (hm : Marks rnd ls)
    {position : PosArg K} {minPos c : Option ℤ} {ps : List (Num K)}
    (hps : b.positionList rt position minPos c = .ok ps) (hsort : (ps.map (·.val)).Pairwise (· < ·)) :
    ∃ out, b.listPositions rt position minPos c = .ok out ∧ RoundedListing rnd ls (ps.map (·.val)) out := by
  have hblocks : ∀ ps : List (Num K), ∃ els : List (List ℕ), List.Forall₂ (fun p is => Elements ls p.val is) ps els ∧
      (ps.mapM fun p => do
        let es ← b.inElements rt p
        let ls ← es.mapM fun i => b.locate rt c p i
        return ls.flatten) = .ok (List.zipWith (fun p is =>
          is.flatMap fun i => [(⟨p, i, Num.flt (fpos rnd ls p.val i)⟩ : Loc K)]) ps els) := by
    intro ps
    induction ps with
    | nil => exact ⟨[], List.Forall₂.nil, rfl⟩
    | cons p t ih =>
      obtain ⟨els, h1, h2⟩ := ih
      obtain ⟨is, h3, h4⟩ := finElements hr h hm p
      refine ⟨is :: els, List.Forall₂.cons h4 h1, ?_⟩
      rw [List.mapM_cons, h2]
      have : is.mapM (fun i => b.locate rt c p i)
          = .ok (is.map fun i => [(⟨p, i, Num.flt (fpos rnd ls p.val i)⟩ : Loc K)]) :=
        mapM_ok is fun i hi => flocate hr h hm c p ((h4.2 i).1 hi)
      simp only [h3, this, bind, Except.bind, pure, Except.pure, List.flatMap_def]
      rfl
  obtain ⟨els, h1, h2⟩ := hblocks ps
  obtain ⟨pairs, blocks, hp, hf, he⟩ := blocks_of
    (fun p i => [(⟨p, i, Num.flt (fpos rnd ls p.val i)⟩ : Loc K)])
    (fun p i blk => ∃ e, blk = [e] ∧ e.pos.val = p ∧ e.elem = i ∧ RoundedAt rnd ls p i e.loc.val) h1 hsort
    (fun p _ i hi => ⟨_, rfl, rfl, rfl, fpos_rounded hr hm hi⟩)
  refine ⟨blocks.flatten, ?_, pairs, hp, ?_⟩
  · rw [← he]
    unfold Beam.listPositions
    simp only [hps, bind, Except.bind] at h2 ⊢
    rw [h2]
    rfl
  · clear he hp
    induction hf with
    | nil => exact .nil
    | cons hh _ ih =>
      obtain ⟨e, rfl, h1, h2, h3⟩ := hh
      exact .cons ⟨h1, h2, h3⟩ ih

theorem flocalToBeam (hr : RoundsTo rt rnd) {b : Beam K S} {ls : List (Num K)} (h : HasLengths b ls) (hm : Marks rnd ls)
    {i : ℕ} {l : Num K} (hl : ls[i]? = some l) (p : Num K) (h0 : 0 ≤ p.val) (h1 : p.val ≤ 1) :
    ∃ q, b.localToBeam rt p (i : ℤ) = .ok q ∧ q.val = rnd (startOf ls i + rnd (p.val * l.val)) := by
  have hi : i < ls.length := (List.getElem?_eq_some_iff.1 hl).1
  obtain ⟨e, l', h4, h5, h6, -⟩ := element_ok h hi (z := i) (Or.inl rfl)
  rw [hl] at h5; cases h5
  obtain ⟨se, h7, h8, h9⟩ := fstartEnd hr h hm hi
  have hint := (hm.1 l (List.mem_of_getElem? hl)).1
  unfold Beam.localToBeam
  rw [if_neg (by push Not; exact ⟨h0, h1⟩)]
  simp only [h7, h4, h6, bind, Except.bind]
  refine ⟨_, rfl, ?_⟩
  unfold Num.padd Num.pmul
  simp [hint, h9, hr.add, hr.mul, h8]

/-- The position list for `min_positions` contains the converted positions of the stored loads. -/
theorem fpositionList (hr : RoundsTo rt rnd) {b : Beam K S} {ls : List (Num K)} (h : HasLengths b ls) (hm : Marks rnd ls)
    (c : Option ℤ) (hc : ∀ k, c = some k → Loaded b k) (n : ℕ) :
    ∃ ps, b.positionList rt .none (some n) c = .ok ps ∧ (ps.map (·.val)).Pairwise (· < ·) ∧
      (∀ i, i < ls.length → startOf ls i ∈ ps.map (·.val)) ∧
      ∀ i l k t r, ls[i]? = some l → c = some k → HasTable b k i t → r ∈ t.rows →
        rnd (startOf ls i + rnd (r.pos * l.val)) ∈ ps.map (·.val) := by
  obtain ⟨L, hL, hLv⟩ := flength hr h hm
  obtain ⟨lin, hlin⟩ : ∃ lin, linspace rt 0 L.val (n : ℤ) = .ok lin := by
    unfold linspace
    rw [if_neg (by omega)]
    exact ⟨_, rfl⟩
  -- the real positions of element i
  have hreal : ∀ ei ∈ b.elements.zipIdx, ∃ rp : List (Num K), b.realPositions rt c ei.2 ei.1 = .ok rp ∧
      ∀ l k t r, ls[ei.2]? = some l → c = some k → HasTable b k ei.2 t → r ∈ t.rows →
        rnd (startOf ls ei.2 + rnd (r.pos * l.val)) ∈ rp.map (·.val) := by
    rintro ⟨e, i⟩ hei
    have he : b.elements[i]? = some e := List.mem_zipIdx_iff_getElem?.1 hei
    have hi' : i < b.elements.length := (List.getElem?_eq_some_iff.1 he).1
    have hi : i < ls.length := by rw [← hasLengths_length h]; exact hi'
    have hl : ls[i]? = some ls[i] := List.getElem?_eq_getElem hi
    have hep : ∃ ep : List (Num K),
        (match c with
          | none => (.ok [Num.flt 0, Num.flt 1] : Py (List (Num K)))
          | some c => e.loadPositions c) = .ok ep ∧ (∀ q ∈ ep, 0 ≤ q.val ∧ q.val ≤ 1) ∧
        ∀ k t r, c = some k → HasTable b k i t → r ∈ t.rows → ∃ q ∈ ep, q.val = r.pos := by
      cases c with
      | none => exact ⟨_, rfl, by simp, by simp⟩
      | some k =>
        obtain ⟨t, e', he', hlk, hwf, hne⟩ := hc k rfl i hi'
        have he'' := he'
        rw [he] at he''; cases he''
        refine ⟨t.rows.map fun r => ⟨r.pos, t.isInt⟩, ?_, ?_, ?_⟩
        · simp [Element.loadPositions, Element.case, hlk, LoadCase.loadPositions, bind, Except.bind]
        · intro q hq
          obtain ⟨r, hr, rfl⟩ := List.mem_map.1 hq
          exact hwf.2 r hr
        · rintro k' t' r ⟨⟩ ⟨e2, h3, h4, -, -⟩ hr
          rw [he] at h3; cases h3
          rw [hlk] at h4; cases h4
          exact ⟨_, List.mem_map_of_mem hr, rfl⟩
    obtain ⟨ep, hep1, hep2, hep3⟩ := hep
    choose! f hf1 hf2 using fun q (hq : q ∈ ep) => flocalToBeam hr h hm hl q (hep2 q hq).1 (hep2 q hq).2
    refine ⟨ep.map f, ?_, ?_⟩
    · unfold Beam.realPositions
      have : ep.mapM (fun p => b.localToBeam rt p (i : ℤ)) = .ok (ep.map f) := mapM_ok ep hf1
      cases c with
      | none => cases hep1; exact this
      | some k =>
        simp only [bind, Except.bind] at hep1 ⊢
        rw [hep1]; exact this
    · intro l k t r hl' hk ht hrow
      simp only at hl' ht
      rw [hl] at hl'; cases hl'
      obtain ⟨q, hq, hqr⟩ := hep3 k t r hk ht hrow
      rw [List.map_map]
      exact List.mem_map.2 ⟨q, hq, by simp only [Function.comp]; rw [hf2 q hq, hqr]⟩
  choose! f hf1 hf2 using hreal
  have hmapM : (b.elements.zipIdx).mapM (fun ei => b.realPositions rt c ei.2 ei.1)
      = .ok ((b.elements.zipIdx).map f) := mapM_ok _ hf1
  refine ⟨sortedSet ((endsOf rt ls).flatMap (fun se => [se.1, se.2])
    ++ ((b.elements.zipIdx).map f).flatten ++ lin.map Num.flt), ?_, sortedSet_sorted _, ?_, ?_⟩
  · simp only [Beam.positionList, bind, Except.bind, hL, hlin, elementEnds_ok rt h]
    rw [hmapM]
    rfl
  · intro i hi
    obtain ⟨se, h1, h2, -, -⟩ := fends hr hm i hi
    rw [sortedSet_vals]
    refine List.mem_map.2 ⟨se.1, ?_, h2⟩
    refine List.mem_append_left _ (List.mem_append_left _ (List.mem_flatMap.2 ⟨se, List.mem_of_getElem? h1, by simp⟩))
  · intro i l k t r hl hk ht hrow
    obtain ⟨e, he, -⟩ := id ht
    have hz : (e, i) ∈ b.elements.zipIdx := List.mem_zipIdx_iff_getElem?.2 he
    have := hf2 _ hz l k t r hl hk ht hrow
    rw [sortedSet_vals]
    obtain ⟨q, hq, hqv⟩ := List.mem_map.1 this
    exact List.mem_map.2 ⟨q, List.mem_append_left _ (List.mem_append_right _
      (List.mem_flatten.2 ⟨_, List.mem_map_of_mem hz, hq⟩)), hqv⟩

end

end BeamDesign
