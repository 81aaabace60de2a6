import Verif.Spec.Assembly
import Verif.Props.MaterialEq
import Verif.Lemmas.BeamList
import Verif.Props.Utilisation

set_option linter.unusedSectionVars false
set_option linter.unusedSimpArgs false

/-! # C70: a beam inside a longer beam -/

namespace BeamDesign

open Spec

variable {K S : Type} [Field K] [LinearOrder K] [IsStrictOrderedRing K] [FloorRing K]

theorem sorted_unique {α : Type} [LinearOrder α] {l l' : List α} (h : l.Pairwise (· < ·)) (h' : l'.Pairwise (· < ·))
    (hm : ∀ a, a ∈ l ↔ a ∈ l') : l = l' := by
  have hp : l.Perm l' :=
    (List.perm_ext_iff_of_nodup (h.imp fun h => ne_of_lt h) (h'.imp fun h => ne_of_lt h)).2 hm
  exact hp.eq_of_pairwise (fun a b _ _ h1 h2 => absurd (lt_trans h1 h2) (lt_irrefl _)) h h'

theorem flt_eta {p : Num K} (h : p.isInt = false) : p = Num.flt p.val := by
  cases p; simp_all [Num.flt]

theorem flts_eta {ps : List (Num K)} (h : ∀ p ∈ ps, p.isInt = false) : ps = (ps.map (·.val)).map Num.flt := by
  rw [List.map_map]
  conv_lhs => rw [← List.map_id ps]
  exact List.map_congr_left fun p hp => flt_eta (h p hp)

/-- The ascending list of the distinct members of `xs`. -/
noncomputable def asc (xs : List K) : List K := (sortedSet (xs.map Num.flt)).map (·.val)

theorem asc_sorted (xs : List K) : (asc xs).Pairwise (· < ·) := sortedSet_sorted _

theorem mem_asc {xs : List K} {v : K} : v ∈ asc xs ↔ v ∈ xs := by
  unfold asc
  rw [sortedSet_vals]
  simp

theorem sortedSet_flt (xs : List K) : sortedSet (xs.map Num.flt) = (asc xs).map Num.flt := by
  refine flts_eta fun p hp => ?_
  obtain ⟨x, -, rfl⟩ := List.mem_map.1 (mem_of_mem_sortedSet hp)
  rfl

theorem asc_shift (off : K) (xs : List K) : asc (xs.map (· + off)) = (asc xs).map (· + off) := by
  refine sorted_unique (asc_sorted _) ?_ ?_
  · rw [List.pairwise_map]
    exact (asc_sorted xs).imp fun h => by linarith
  · intro v
    simp only [mem_asc, List.mem_map]

theorem mem_of_mapM {α β : Type} {f : α → Py β} {l : List α} {r : List β} (h : l.mapM f = .ok r) {y : β} (hy : y ∈ r) :
    ∃ x ∈ l, f x = .ok y := by
  have h1 := (mapM_eq_ok_iff _ _).1 h
  obtain ⟨i, hi, rfl⟩ := List.getElem_of_mem hy
  have h2 := h1.get (by rw [h1.length_eq]; exact hi) hi
  exact ⟨_, List.getElem_mem _, h2⟩

theorem mapM_flatten_map {α β γ : Type} (f : α → Py (List β)) (g : β → γ) (l : List α) :
    Except.bind (l.mapM fun a => (f a).map (List.map g)) (fun v => pure v.flatten) =
    (Except.bind (l.mapM f) (fun v => pure v.flatten)).map (List.map g) := by
  induction l with
  | nil => rfl
  | cons a l ih =>
    simp only [List.mapM_cons, bind, Except.bind] at ih ⊢
    generalize (l.mapM fun a => (f a).map (List.map g)) = u at ih ⊢
    generalize l.mapM f = v at ih ⊢
    rcases f a with e | x
    · rfl
    · rcases u with e | u <;> rcases v with e' | v <;>
        simp_all [Except.map, pure, Except.pure]

section
variable {rt : Rt K} (hx : rt.Exact) {pre post : List (Element K S)} {b : Beam K S}
  {lpre ls lpost : List (Num K)} (hpre : HasLengths (⟨pre⟩ : Beam K S) lpre) (h : HasLengths b ls)
  (hpost : HasLengths (⟨post⟩ : Beam K S) lpost)

include hpre h hpost in
theorem within_lengths : HasLengths (within pre b post) (lpre ++ ls ++ lpost) := by
  refine ⟨List.rel_append (List.rel_append hpre.1 h.1) hpost.1, ?_⟩
  intro l hl
  simp only [List.mem_append] at hl
  rcases hl with (hl | hl) | hl
  · exact hpre.2 l hl
  · exact h.2 l hl
  · exact hpost.2 l hl

theorem start_within {lpre ls lpost : List (Num K)} {i : ℕ} (hi : i ≤ ls.length) :
    startOf (lpre ++ ls ++ lpost) (lpre.length + i) = total lpre + startOf ls i := by
  unfold startOf total
  rw [List.append_assoc, List.take_length_add_append, List.take_append_of_le_length hi, List.map_append, List.sum_append]

theorem start_before {lpre rest : List (Num K)} (hp : ∀ l ∈ lpre ++ rest, 0 ≤ l.val) {i : ℕ} (hi : i ≤ lpre.length) :
    startOf (lpre ++ rest) i ≤ total lpre := by
  have := startOf_mono hp hi
  refine this.trans (le_of_eq ?_)
  unfold startOf total
  rw [List.take_left']
  rfl

include hpre h hpost in
theorem inElement_within {x : K} (hin : Inside pre (total ls) post x) (j : ℕ) :
    InElement (lpre ++ ls ++ lpost) (x + total lpre) j ↔ ∃ i, j = i + lpre.length ∧ InElement ls x i := by
  have hw := (within_lengths hpre h hpost).2
  have hlp : lpre.length = pre.length := (hasLengths_length hpre).symm
  have hlq : lpost.length = post.length := (hasLengths_length hpost).symm
  constructor
  · rintro ⟨h1, h2, h3⟩
    by_cases hj : j < lpre.length
    · exfalso
      have hne : pre ≠ [] := by intro h0; rw [h0] at hlp; simp only [List.length_nil] at hlp; omega
      have := start_before (lpre := lpre) (rest := ls ++ lpost) (by rwa [← List.append_assoc]) (show j + 1 ≤ lpre.length from hj)
      rw [← List.append_assoc] at this
      have := hin.2.2.1 hne
      linarith
    · obtain ⟨i, rfl⟩ : ∃ i, j = lpre.length + i := ⟨j - lpre.length, by omega⟩
      by_cases hi : i < ls.length
      · refine ⟨i, by omega, hi, ?_, ?_⟩
        · rw [start_within hi.le] at h2; linarith
        · rw [add_assoc, start_within hi] at h3; linarith
      · exfalso
        have hne : post ≠ [] := by
          intro h0
          rw [h0] at hlq
          simp only [List.length_append, List.length_nil] at h1 hlq
          omega
        have h5 := startOf_mono hw (show lpre.length + ls.length ≤ lpre.length + i by omega)
        rw [start_within le_rfl, startOf_length] at h5
        have := hin.2.2.2 hne
        linarith
  · rintro ⟨i, rfl, h1, h2, h3⟩
    rw [add_comm i]
    refine ⟨by simp only [List.length_append]; omega, ?_, ?_⟩
    · rw [start_within h1.le]; linarith
    · rw [add_assoc, start_within h1]; linarith

theorem index_within {α : Type} (pre es post : List α) (i : ℕ) (hi : i < es.length) :
    pyIndex (pre ++ es ++ post) ((i + pre.length : ℕ) : ℤ) = pyIndex es (i : ℤ) := by
  rw [pyIndex_nat es i es[i] (List.getElem?_eq_getElem hi)]
  apply pyIndex_nat
  rw [List.append_assoc, List.getElem?_append_right (by omega), List.getElem?_append_left (by omega)]
  simp [hi]

/-- One listed place moved along the beam. -/
def moveLoc (off : K) (k : ℕ) (l : Loc K) : Loc K := ⟨Num.flt (l.pos.val + off), l.elem + k, l.loc⟩

include hx hpre h hpost in
theorem locate_within (c : Option ℤ) (x : K) (i : ℕ) (hi : InElement ls x i) :
    (within pre b post).locate rt c (Num.flt (x + total lpre)) (i + lpre.length) =
      (b.locate rt c (Num.flt x) i).map (List.map (moveLoc (total lpre) lpre.length)) := by
  have hlp : lpre.length = pre.length := (hasLengths_length hpre).symm
  have hi' : i < b.elements.length := by rw [hasLengths_length h]; exact hi.1
  obtain ⟨e, l, he, hl, hel, -⟩ := element_ok h hi.1 (z := i) (Or.inl rfl)
  unfold Beam.locate
  rw [show (within pre b post).elements = pre ++ b.elements ++ post from rfl, hlp, index_within _ _ _ _ hi', he]
  simp only [bind, Except.bind, hel]
  by_cases h0 : l.val = 0
  · simp only [if_pos h0]
    cases c with
    | none => rfl
    | some k =>
      simp only []
      cases e.loadPositions k with
      | error e => rfl
      | ok lp =>
        simp only []
        cases zeroLengthPositions rt lp with
        | error e => rfl
        | ok z => simp [Except.map, pure, Except.pure, moveLoc, Num.flt]
  · simp only [if_neg h0]
    have hw := within_lengths hpre h hpost
    have hl' : (lpre ++ ls ++ lpost)[i + lpre.length]? = some l := by
      rw [List.append_assoc, List.getElem?_append_right (by omega), List.getElem?_append_left (by have := hi.1; omega)]
      simpa using hl
    rw [← hlp, beamToLocal_eq hx hw hl' (Or.inl rfl), beamToLocal_eq hx h hl (Or.inl rfl), if_neg, if_neg h0, if_neg,
      if_neg h0]
    · rw [add_comm i, start_within hi.1.le]
      simp only [Except.map, pure, Except.pure, moveLoc, Num.flt, List.map_cons, List.map_nil]
      rw [show x + total lpre - (total lpre + startOf ls i) = x - startOf ls i by ring, add_comm lpre.length]
    · push Not; exact hi.2
    · have := (inElement_within hpre h hpost (x := x) (j := i + lpre.length))
      rw [add_right_comm, add_comm (i + 1), add_comm i, start_within hi.1.le, start_within hi.1]
      push Not
      constructor
      · have := hi.2.1; simp only [Num.flt]; linarith
      · have := hi.2.2; simp only [Num.flt]; linarith

include hx hpre h hpost in
theorem listPositions_within (c : Option ℤ) (xs : List K) (hin : ∀ x ∈ xs, Inside pre (total ls) post x) :
    (within pre b post).listPositions rt (at_ (total lpre) xs) none c =
      (b.listPositions rt (at_ 0 xs) none c).map (List.map (moveLoc (total lpre) lpre.length)) := by
  have hw := within_lengths hpre h hpost
  obtain ⟨L, hL, hLv⟩ := length_ok hx h
  obtain ⟨M, hM, hMv⟩ := length_ok hx hw
  have htot : total (lpre ++ ls ++ lpost) = total lpre + total ls + total lpost := by
    simp [total, add_assoc]
  have hp0 := total_nonneg hpre.2
  have hq0 := total_nonneg hpost.2
  have e1 : b.positionList rt (at_ 0 xs) none c = .ok ((asc xs).map Num.flt) := by
    simp only [at_, Beam.positionList, add_zero]
    rw [checkPositions_ok hL, ← sortedSet_flt]
    · rfl
    · intro p hp
      obtain ⟨x, hx', rfl⟩ := List.mem_map.1 hp
      rw [hLv]
      exact ⟨(hin x hx').1, (hin x hx').2.1⟩
  have e2 : (within pre b post).positionList rt (at_ (total lpre) xs) none c =
      .ok ((asc xs).map fun x => Num.flt (x + total lpre)) := by
    simp only [at_, Beam.positionList]
    rw [checkPositions_ok hM]
    · have : (xs.map fun x => Num.flt (x + total lpre)) = (xs.map (· + total lpre)).map Num.flt := by
        rw [List.map_map]; rfl
      rw [this, sortedSet_flt, asc_shift, List.map_map]
      rfl
    · intro p hp
      obtain ⟨x, hx', rfl⟩ := List.mem_map.1 hp
      have := hin x hx'
      rw [hMv, htot]
      simp only [Num.flt]
      exact ⟨by linarith [this.1], by linarith [this.2.1]⟩
  unfold Beam.listPositions
  rw [e1, e2]
  simp only [bind, Except.bind]
  have key : ∀ x ∈ asc xs,
      (do let es ← (within pre b post).inElements rt (Num.flt (x + total lpre))
          let l ← es.mapM fun i => (within pre b post).locate rt c (Num.flt (x + total lpre)) i
          return l.flatten : Py (List (Loc K))) =
      (do let es ← b.inElements rt (Num.flt x)
          let l ← es.mapM fun i => b.locate rt c (Num.flt x) i
          return l.flatten : Py (List (Loc K))).map (List.map (moveLoc (total lpre) lpre.length)) := by
    intro x hx'
    obtain ⟨is, his, hE⟩ := inElements_ok hx h (Num.flt x)
    obtain ⟨js, hjs, hF⟩ := inElements_ok hx hw (Num.flt (x + total lpre))
    have hj : js = is.map (· + lpre.length) := by
      refine sorted_unique hF.1 ?_ ?_
      · rw [List.pairwise_map]
        exact hE.1.imp fun h => by omega
      · intro j
        rw [hF.2, show (Num.flt (x + total lpre)).val = x + total lpre from rfl,
          inElement_within hpre h hpost (hin x (mem_asc.1 hx')), List.mem_map]
        exact exists_congr fun i => by rw [hE.2]; exact ⟨fun h => ⟨h.2, h.1.symm⟩, fun h => ⟨h.2.symm, h.1⟩⟩
    rw [his, hjs, hj]
    simp only [bind, Except.bind]
    have : (is.map (· + lpre.length)).mapM (fun i => (within pre b post).locate rt c (Num.flt (x + total lpre)) i) =
        is.mapM fun i => (b.locate rt c (Num.flt x) i).map (List.map (moveLoc (total lpre) lpre.length)) :=
      mapM_map_congr _ fun i hi => locate_within hx hpre h hpost c x i ((hE.2 i).1 hi)
    rw [this]
    exact mapM_flatten_map _ _ is
  rw [mapM_map_congr _ key]
  rw [mapM_map_congr (g' := fun x => (do
    let es ← b.inElements rt (Num.flt x)
    let l ← es.mapM fun i => b.locate rt c (Num.flt x) i
    return l.flatten : Py (List (Loc K)))) _ fun x _ => rfl]
  exact mapM_flatten_map _ _ (asc xs)


/-- A table with another position column. -/
def mapPos (φ : K → K) (t : Tab K) : Tab K := { t with rows := t.rows.map fun r => (φ r.1, r.2) }

theorem mapPos_vstack (φ : K → K) (a t : Tab K) : (mapPos φ a).vstack (mapPos φ t) = (a.vstack t).map (mapPos φ) := by
  unfold Tab.vstack mapPos
  split_ifs <;> simp [Except.map]

theorem loadStep_within {φ φ' : K → K} {off : K} (c : ℤ) (component : CompArg)
    (hφ : ∀ e ∈ b.elements, ∀ l t p, e.getLoads rt c (.scalar l) none component = .ok (some t) →
      mapPos φ' (t.setPos (p + off)) = mapPos φ (t.setPos p))
    (acc acc' : Option (Tab K)) (hacc : acc'.map (mapPos φ') = acc.map (mapPos φ)) (l : Loc K)
    (hl : l.elem < b.elements.length) :
    ((within pre b post).loadStep rt c component acc' (moveLoc off pre.length l)).map (Option.map (mapPos φ')) =
      (b.loadStep rt c component acc l).map (Option.map (mapPos φ)) := by
  unfold Beam.loadStep moveLoc
  simp only [show (within pre b post).elements = pre ++ b.elements ++ post from rfl, index_within _ _ _ _ hl, bind,
    Except.bind]
  rcases hp : pyIndex b.elements (l.elem : ℤ) with e | e
  · rfl
  have he : e ∈ b.elements := by
    obtain ⟨j, hj, -⟩ := (pyIndex_ok_iff _ _ _).1 hp
    exact List.mem_of_getElem? hj
  simp only []
  rcases hg : e.getLoads rt c (.scalar l.loc) none component with e | _ | t
  · rfl
  · rfl
  have h1 := hφ e he l.loc t l.pos.val hg
  cases acc with
  | none =>
    cases acc' with
    | none => simp [Except.map, pure, Except.pure, h1, Num.flt]
    | some a' => simp at hacc
  | some a =>
    cases acc' with
    | none => simp at hacc
    | some a' =>
      simp only [Option.map_some, Option.some.injEq] at hacc
      have h2 := mapPos_vstack φ' a' (t.setPos (l.pos.val + off))
      have h3 := mapPos_vstack φ a (t.setPos l.pos.val)
      rw [hacc, h1, h3] at h2
      revert h2
      simp only [Num.flt]
      cases a'.vstack (t.setPos (l.pos.val + off)) <;> cases a.vstack (t.setPos l.pos.val) <;>
        simp +contextual [Except.map, pure, Except.pure]

theorem loadFold_within {φ φ' : K → K} {off : K} (c : ℤ) (component : CompArg)
    (hφ : ∀ e ∈ b.elements, ∀ l t p, e.getLoads rt c (.scalar l) none component = .ok (some t) →
      mapPos φ' (t.setPos (p + off)) = mapPos φ (t.setPos p))
    (locs : List (Loc K)) (hl : ∀ l ∈ locs, l.elem < b.elements.length)
    (acc acc' : Option (Tab K)) (hacc : acc'.map (mapPos φ') = acc.map (mapPos φ)) :
    ((locs.map (moveLoc off pre.length)).foldlM ((within pre b post).loadStep rt c component) acc').map
        (Option.map (mapPos φ')) =
      (locs.foldlM (b.loadStep rt c component) acc).map (Option.map (mapPos φ)) := by
  induction locs generalizing acc acc' with
  | nil => simp [pure, Except.pure, Except.map, hacc]
  | cons l locs ih =>
    simp only [List.map_cons, List.foldlM_cons, bind, Except.bind]
    have h1 := loadStep_within (pre := pre) (post := post) c component hφ acc acc' hacc l (hl l List.mem_cons_self)
    revert h1
    cases (within pre b post).loadStep rt c component acc' (moveLoc off pre.length l) <;>
      cases b.loadStep rt c component acc l <;> simp only [Except.map, Except.ok.injEq, reduceCtorEq, false_implies,
        Except.error.injEq]
    · rintro rfl; rfl
    · intro h1
      exact ih (fun x hx => hl x (List.mem_cons_of_mem _ hx)) _ _ h1

theorem locs_lt {locs : List (Loc K)} {position : PosArg K} {n : Option ℤ} {c : Option ℤ}
    (hl : b.listPositions rt position n c = .ok locs) : ∀ l ∈ locs, l.elem < b.elements.length := by
  unfold Beam.listPositions at hl
  simp only [bind, Except.bind] at hl
  split at hl
  · cases hl
  split at hl
  · cases hl
  next blocks hblocks =>
  cases hl
  intro l hl
  obtain ⟨blk, hblk, hl⟩ := List.mem_flatten.1 hl
  obtain ⟨p, -, hp⟩ := mem_of_mapM hblocks hblk
  split at hp
  · cases hp
  split at hp
  · cases hp
  next ls hls =>
  cases hp
  obtain ⟨blk', hblk', hl⟩ := List.mem_flatten.1 hl
  obtain ⟨i, -, hi⟩ := mem_of_mapM hls hblk'
  have hlt : i < b.elements.length ∧ l.elem = i := by
    unfold Beam.locate at hi
    simp only [bind, Except.bind] at hi
    split at hi
    · cases hi
    next e he =>
    have hlt : i < b.elements.length := by
      obtain ⟨j, hj, hij⟩ := (pyIndex_ok_iff _ _ _).1 he
      have := (List.getElem?_eq_some_iff.1 hj).1
      omega
    refine ⟨hlt, ?_⟩
    split at hi
    · cases hi
    split_ifs at hi
    · have key : ∀ {v : List (Num K)}, blk' = v.map (fun x => ⟨p, i, x⟩) → l.elem = i := by
        rintro v rfl
        obtain ⟨q, -, rfl⟩ := List.mem_map.1 hl
        rfl
      split at hi
      · simp only [pure, Except.pure, Except.ok.injEq] at hi
        exact key hi.symm
      · split at hi
        · cases hi
        split at hi
        · cases hi
        · simp only [pure, Except.pure, Except.ok.injEq] at hi
          exact key hi.symm
    · split at hi
      · cases hi
      · simp only [pure, Except.pure, Except.ok.injEq] at hi
        subst hi
        rw [List.mem_singleton.1 hl]
  exact hlt.2 ▸ hlt.1

include hx hpre h hpost in
theorem getLoads_within {φ φ' : K → K} (c : ℤ) (component : CompArg)
    (hφ : ∀ e ∈ b.elements, ∀ l t p, e.getLoads rt c (.scalar l) none component = .ok (some t) →
      mapPos φ' (t.setPos (p + total lpre)) = mapPos φ (t.setPos p))
    (xs : List K) (hin : ∀ x ∈ xs, Inside pre (total ls) post x) :
    ((within pre b post).getLoads rt c (at_ (total lpre) xs) none component).map (Option.map (mapPos φ')) =
      (b.getLoads rt c (at_ 0 xs) none component).map (Option.map (mapPos φ)) := by
  unfold Beam.getLoads
  rw [listPositions_within hx hpre h hpost (some c) xs hin]
  rcases hl : b.listPositions rt (at_ 0 xs) none (some c) with e | locs
  · rfl
  · rw [← hasLengths_length hpre]
    exact loadFold_within c component hφ locs (locs_lt hl) none none rfl


theorem getLoad_dt {lc : LoadCase K} (hn : ∀ t, lc.loads = some t → t.isInt = false) {position : PosArg K} {n : Option ℤ}
    {component : CompArg} {t : Tab K} (ht : lc.getLoad rt position n component = .ok (some t)) : t.dt ≠ .int := by
  unfold LoadCase.getLoad at ht
  simp only [bind, Except.bind] at ht
  split at ht
  · cases ht
  split at ht
  · cases ht; simp
  next t' ht' =>
  have := hn t' ht'
  simp only [this, Bool.false_eq_true, if_false] at ht
  split at ht
  · cases ht
  split_ifs at ht
  all_goals first
    | (cases ht; done)
    | (cases ht; simp)
    | (split at ht <;> (cases ht; try simp))

include hx hpre h hpost in
/-- What a pass over the listed elements answers. -/
theorem byElement_within {D : Type} (dpre ds dpost : List D) (h1 : dpre.length = pre.length)
    (h2 : ds.length = b.elements.length) (c : Option ℤ) (xs : List K)
    (hin : ∀ x ∈ xs, Inside pre (total ls) post x) :
    (do let locs ← (within pre b post).listPositions rt (at_ (total lpre) xs) none c
        locs.mapM fun l => do
          let d ← pyIndex (dpre ++ ds ++ dpost) (l.elem : ℤ)
          return (l.pos, d) : Py (List (Num K × D))) =
    (do let locs ← b.listPositions rt (at_ 0 xs) none c
        locs.mapM fun l => do
          let d ← pyIndex ds (l.elem : ℤ)
          return (l.pos, d) : Py (List (Num K × D))).map
      (List.map fun r => (Num.flt (r.1.val + total lpre), r.2)) := by
  rw [listPositions_within hx hpre h hpost c xs hin]
  rcases hl : b.listPositions rt (at_ 0 xs) none c with e | locs
  · rfl
  have hlt := locs_lt hl
  clear hl
  simp only [bind, Except.bind, Except.map]
  rw [← hasLengths_length hpre]
  induction locs with
  | nil => rfl
  | cons l locs ih =>
    have hl := hlt l List.mem_cons_self
    have hi := ih fun x hx => hlt x (List.mem_cons_of_mem _ hx)
    have e1 := index_within dpre ds dpost l.elem (by omega)
    have e2 := pyIndex_nat ds l.elem ds[l.elem] (List.getElem?_eq_getElem (by omega))
    rw [h1] at e1
    simp only [List.map_cons, List.mapM_cons, bind, Except.bind]
    simp only [moveLoc, e1, e2] at hi ⊢
    revert hi
    split <;> split <;> simp_all [pure, Except.pure]

end

/-! ## C70 -/

section
variable {rt : Rt K} (hx : rt.Exact) {pre post : List (Element K S)} {b : Beam K S}
  {lpre ls lpost : List (Num K)} (hpre : HasLengths (⟨pre⟩ : Beam K S) lpre) (h : HasLengths b ls)
  (hpost : HasLengths (⟨post⟩ : Beam K S) lpost)

include hx hpre h hpost in
/-- C70: putting elements before and after a beam moves its listed places and changes nothing else: same number of
places in the same order, same local positions, positions larger by the length put before it, elements counted from
those put before it. -/
theorem C70_positions (c : Option ℤ) (xs : List K) (hin : ∀ x ∈ xs, Inside pre (total ls) post x) :
    (within pre b post).listPositions rt (at_ (total lpre) xs) none c =
      (b.listPositions rt (at_ 0 xs) none c).map
        (List.map fun l => ⟨Num.flt (l.pos.val + total lpre), l.elem + pre.length, l.loc⟩) := by
  rw [listPositions_within hx hpre h hpost c xs hin, ← hasLengths_length hpre]
  rfl

include hx hpre h hpost in
/-- C70: nor does it change the sections found. -/
theorem C70_sections (c : Option ℤ) (xs : List K) (hin : ∀ x ∈ xs, Inside pre (total ls) post x) :
    (within pre b post).getSection rt (at_ (total lpre) xs) none c =
      (b.getSection rt (at_ 0 xs) none c).map (List.map fun r => (Num.flt (r.1.val + total lpre), r.2)) := by
  have h1 := byElement_within hx hpre h hpost (pre.map (·.sect)) (b.elements.map (·.sect)) (post.map (·.sect)) (by simp)
    (by simp) c xs hin
  have key : ∀ (b : Beam K S) (position : PosArg K), b.getSection rt position none c =
      (do let locs ← b.listPositions rt position none c
          locs.mapM fun l => do
            let d ← pyIndex (b.elements.map (·.sect)) (l.elem : ℤ)
            return (l.pos, d) : Py (List (Num K × S))) := by
    intro b position
    unfold Beam.getSection
    rcases b.listPositions rt position none c with e | locs
    · rfl
    simp only [bind, Except.bind]
    refine mapM_congr' _ fun l _ => ?_
    rw [pyIndex_map]
    rcases pyIndex b.elements (l.elem : ℤ) with e | e <;> rfl
  rw [key, key, ← h1]
  simp only [within, List.map_append]

include hx hpre h hpost in
/-- C70: nor the loads, if no table of the load case holds integers: the tables differ by the shift of the position column
only, and the exceptions are the same. -/
theorem C70_loads (c : ℤ) (component : CompArg) (xs : List K) (hin : ∀ x ∈ xs, Inside pre (total ls) post x)
    (hi : NoIntTables b c) :
    (within pre b post).getLoads rt c (at_ (total lpre) xs) none component =
      (b.getLoads rt c (at_ 0 xs) none component).map (Option.map (moveTab (total lpre))) := by
  have := getLoads_within hx hpre h hpost (φ := (· + total lpre)) (φ' := id) c component ?_ xs hin
  · have e1 : (mapPos id : Tab K → Tab K) = id := by funext t; simp [mapPos]
    rw [e1, Option.map_id, show (Except.map id : Py (Option (Tab K)) → _) = id by funext t; cases t <;> rfl] at this
    exact this
  · intro e he l t p ht
    have : t.dt ≠ .int := by
      unfold Element.getLoads Element.case at ht
      rcases hl : e.loads.lookup c with _ | lc
      · rw [hl] at ht; cases ht
      · rw [hl] at ht
        exact getLoad_dt (fun t' ht' => hi e he lc t' hl ht') ht
    simp [mapPos, Tab.setPos, this]

end

/-! ### Checkers -/

section
variable {rt : Rt K} (hx : rt.Exact) {pre post : List (Element K (Sect K))} {b : Beam K (Sect K)}
  {lpre ls lpost : List (Num K)} (hpre : HasLengths (⟨pre⟩ : Beam K (Sect K)) lpre) (h : HasLengths b ls)
  (hpost : HasLengths (⟨post⟩ : Beam K (Sect K)) lpost)
  {phi au kt : K} {s : Option (Sect K)} {o o' : AS4100 K} (ho : AS4100.new phi au kt (some b) s = .ok o)
  (ho' : AS4100.new phi au kt (some (within pre b post)) s = .ok o')

theorem mapM_append_ok {α β : Type} {f : α → Py β} {l l' : List α} {r : List β} (h : (l ++ l').mapM f = .ok r) :
    ∃ r1 r2, l.mapM f = .ok r1 ∧ l'.mapM f = .ok r2 ∧ r = r1 ++ r2 := by
  rw [List.mapM_append] at h
  simp only [bind, Except.bind] at h
  split at h
  · cases h
  next r1 h1 =>
  split at h
  · cases h
  next r2 h2 =>
  cases h
  exact ⟨r1, r2, h1, h2, rfl⟩

include ho ho' in
theorem new_within : ∃ ds dpre dpost, ds.length = b.elements.length ∧ dpre.length = pre.length ∧
    o = ⟨some b, s, defaultAssessmentPoints, ds, phi, au, kt⟩ ∧
    o' = ⟨some (within pre b post), s, defaultAssessmentPoints, dpre ++ ds ++ dpost, phi, au, kt⟩ := by
  unfold AS4100.new at ho ho'
  simp only [sectionsOf, bind, Except.bind, Beam.sections, within, List.map_append] at ho ho'
  split at ho
  · cases ho
  next ds hds =>
  split at ho'
  · cases ho'
  next ds' hds' =>
  cases ho
  cases ho'
  obtain ⟨r, dpost, h1, -, rfl⟩ := mapM_append_ok hds'
  obtain ⟨dpre, ds'', h2, h3, rfl⟩ := mapM_append_ok h1
  rw [hds] at h3
  cases h3
  have e1 := ((mapM_eq_ok_iff _ _).1 hds).length_eq
  have e2 := ((mapM_eq_ok_iff _ _).1 h2).length_eq
  simp only [List.length_map] at e1 e2
  exact ⟨ds, dpre, dpost, e1.symm, e2.symm, rfl, rfl⟩

include hx hpre h hpost ho ho' in
theorem considered_within (xs : List K) (hin : ∀ x ∈ xs, Inside pre (total ls) post x) :
    o'.considered rt (at_ (total lpre) xs) = o.considered rt (at_ 0 xs) := by
  obtain ⟨ds, dpre, dpost, h1, h2, rfl, rfl⟩ := new_within ho ho'
  have h3 := byElement_within hx hpre h hpost dpre ds dpost h2 h1 none xs hin
  unfold AS4100.considered at_ PosArg.wrap AS4100.getDSection
  simp only []
  unfold at_ at h3
  rw [h3]
  generalize (do
    let locs ← b.listPositions rt _ none none
    locs.mapM fun l => do
          let d ← pyIndex ds (l.elem : ℤ)
          return (l.pos, d) : Py (List (Num K × DSect K))) = r
  rcases r with e | r
  · rfl
  · simp [Except.map, bind, Except.bind, pure, Except.pure]

theorem scalar_list (p : Num K) (hp : p.isInt = false) {S : Type} (b : Beam K S) (c : Option ℤ) :
    b.listPositions rt (.scalar p) none c = b.listPositions rt (.list [p]) none c := by
  unfold Beam.listPositions Beam.positionList
  simp only [hp, Bool.false_eq_true, if_false]

/-- A table without its positions. -/
def vals (t : Tab K) : List (List (Option K)) := t.rows.map (·.2)

theorem clamp_vals (rows rows' : List (K × List (Option K))) (he : rows.map (·.2) = rows'.map (·.2)) :
    (rows.mapM clampRow).map (List.map (·.2)) = (rows'.mapM clampRow).map (List.map (·.2)) := by
  induction rows generalizing rows' with
  | nil =>
    have : rows' = [] := by simpa using he.symm
    rw [this]
  | cons r rows ih =>
    rcases rows' with _ | ⟨r', rows'⟩
    · simp at he
    simp only [List.map_cons, List.cons.injEq] at he
    have hi := ih rows' he.2
    simp only [List.mapM_cons, bind, Except.bind]
    obtain ⟨a, r⟩ := r
    obtain ⟨a', r'⟩ := r'
    obtain rfl : r = r' := he.1
    revert hi
    rcases r with _ | ⟨_ | x, r⟩
    · intro _; rfl
    · intro _; rfl
    · simp only [clampRow]
      cases rows.mapM clampRow <;> cases rows'.mapM clampRow <;> simp [Except.map, pure, Except.pure]

include hx hpre h hpost ho ho' in
theorem getTension_within (c : ℤ) (xs : List K) (hin : ∀ x ∈ xs, Inside pre (total ls) post x) :
    (o'.getTension rt c (at_ (total lpre) xs) none).map vals = (o.getTension rt c (at_ 0 xs) none).map vals := by
  obtain ⟨ds, dpre, dpost, h1, h2, rfl, rfl⟩ := new_within ho ho'
  have h3 := getLoads_within hx hpre h hpost (φ := fun _ => 0) (φ' := fun _ => 0) c (.name "N") (by
    intro e _ l t p _
    simp [mapPos, Tab.setPos]) xs hin
  unfold AS4100.getTension
  revert h3
  simp only [bind, Except.bind]
  rcases (within pre b post).getLoads rt c (at_ (total lpre) xs) none (.name "N") with e | _ | t <;>
    rcases b.getLoads rt c (at_ 0 xs) none (.name "N") with e' | _ | t' <;>
    simp only [Except.map, Except.error.injEq, reduceCtorEq, false_implies, Except.ok.injEq, Option.map_none,
      Option.map_some, Option.some.injEq]
  · rintro rfl; rfl
  · intro _; trivial
  · intro hm
    have hv : t.rows.map (·.2) = t'.rows.map (·.2) := by
      have := congrArg (fun t : Tab K => t.rows.map (·.2)) hm
      simpa [mapPos, Function.comp_def] using this
    have := clamp_vals _ _ hv
    revert this
    cases t.rows.mapM clampRow <;> cases t'.rows.mapM clampRow <;>
      simp [Except.map, pure, Except.pure, vals]

include hx hpre h hpost ho ho' in
/-- C70: nor any capacity. -/
theorem C70_capacity (xs : List K) (hin : ∀ x ∈ xs, Inside pre (total ls) post x) :
    o'.Nty rt (at_ (total lpre) xs) = o.Nty rt (at_ 0 xs) ∧
    o'.Ntu rt (at_ (total lpre) xs) = o.Ntu rt (at_ 0 xs) ∧
    o'.Nt rt (at_ (total lpre) xs) = o.Nt rt (at_ 0 xs) ∧
    o'.tensionCapacity rt (at_ (total lpre) xs) = o.tensionCapacity rt (at_ 0 xs) := by
  have h3 := considered_within hx hpre h hpost ho ho' xs hin
  obtain ⟨ds, dpre, dpost, h1, h2, rfl, rfl⟩ := new_within ho ho'
  have hy : ∀ {o : AS4100 K}, o.Nty rt = fun p => (o.considered rt p >>= fun ds =>
      (ds.mapM fun s => do return s7Nty rt (s.Ag rt) (← s.minFy)) >>= pyMin) := fun {o} => rfl
  have hu : ∀ {o : AS4100 K}, o.Ntu rt = fun p => (o.considered rt p >>= fun ds =>
      (ds.mapM fun s => do return s7Ntu rt (s.An rt) (← s.minFu) o.kt o.alphaU) >>= pyMin) := fun {o} => rfl
  simp only [AS4100.tensionCapacity, AS4100.phiNt, AS4100.Nt, hy, hu, h3, and_self]

include hx hpre h hpost ho ho' in
theorem utilAt_within (c : ℤ) (x : K) (hin : Inside pre (total ls) post x) :
    (o'.utilAt rt c (Num.flt (x + total lpre))).map (List.map fun r => r.2.2) =
      (o.utilAt rt c (Num.flt x)).map (List.map fun r => r.2.2) := by
  have h3 := (C70_capacity hx hpre h hpost ho ho' [x] (by simpa using hin)).2.2.2
  have h4 := getTension_within hx hpre h hpost ho ho' c [x] (by simpa using hin)
  have e1 : ∀ (o : AS4100 K) (p : Num K), p.isInt = false → o.tensionCapacity rt (.scalar p) =
      o.tensionCapacity rt (.list [p]) := by
    intro o p hp
    have : o.considered rt (.scalar p) = o.considered rt (.list [p]) := by
      simp [AS4100.considered, PosArg.wrap, hp]
    simp only [AS4100.tensionCapacity, AS4100.phiNt, AS4100.Nt, AS4100.Nty, AS4100.Ntu, this]
  have e2 : ∀ (o : AS4100 K) (p : Num K), p.isInt = false → o.getTension rt c (.scalar p) none =
      o.getTension rt c (.list [p]) none := by
    intro o p hp
    unfold AS4100.getTension
    cases o.beam with
    | none => rfl
    | some b =>
      simp only [Beam.getLoads, scalar_list p hp]
  unfold AS4100.utilAt
  rw [e1 _ _ rfl, e1 _ _ rfl, e2 _ _ rfl, e2 _ _ rfl]
  simp only [at_, List.map_cons, List.map_nil, add_zero] at h3 h4
  rw [h3]
  simp only [bind, Except.bind]
  rcases o.tensionCapacity rt (.list [Num.flt x]) with e | cap
  · rfl
  revert h4
  simp only []
  rcases o'.getTension rt c (.list [Num.flt (x + total lpre)]) none with e | t <;>
    rcases o.getTension rt c (.list [Num.flt x]) none with e' | t' <;>
    simp only [Except.map, Except.error.injEq, reduceCtorEq, false_implies, Except.ok.injEq]
  · rintro rfl; rfl
  · unfold vals
    generalize t.rows = rows
    generalize t'.rows = rows'
    intro he
    induction rows generalizing rows' with
    | nil =>
      have : rows' = [] := by simpa using he.symm
      rw [this]; rfl
    | cons r rows ih =>
      rcases rows' with _ | ⟨r', rows'⟩
      · simp at he
      simp only [List.map_cons, List.cons.injEq] at he
      have hi := ih rows' he.2
      obtain ⟨a, r⟩ := r
      obtain ⟨a', r'⟩ := r'
      obtain rfl : r = r' := he.1
      simp only [List.mapM_cons, bind, Except.bind]
      rcases r with _ | ⟨_ | v, r⟩
      · rfl
      · rfl
      · simp only []
        rcases utilOne rt cap v with e | u
        · rfl
        · revert hi
          simp only [pure, Except.pure]
          split <;> split <;> simp_all

include hx hpre h hpost ho ho' in
/-- C70: nor the utilisation, for given load cases and positions. -/
theorem C70_utilisation (cs : List ℤ) (xs : List K) (hin : ∀ x ∈ xs, Inside pre (total ls) post x) :
    o'.tensionUtilisation rt (.list cs) (at_ (total lpre) xs) = o.tensionUtilisation rt (.list cs) (at_ 0 xs) ∧
    ∀ c, o'.tensionUtilisation rt (.one c) (at_ (total lpre) xs) = o.tensionUtilisation rt (.one c) (at_ 0 xs) := by
  have key : ∀ cs, (o'.utilLoop rt (some (xs.map fun x => Num.flt (x + total lpre))) cs).map (List.map fun r => r.2.2) =
      (o.utilLoop rt (some (xs.map fun x => Num.flt x)) cs).map (List.map fun r => r.2.2) := by
    intro cs
    induction cs with
    | nil => rfl
    | cons c cs ih =>
      unfold AS4100.utilLoop
      simp only [AS4100.utilPositions, bind, Except.bind]
      have h1 : (Except.bind ((xs.map fun x => Num.flt (x + total lpre)).mapM fun p => o'.utilAt rt c p)
            (fun v => pure v.flatten)).map (List.map fun r => r.2.2) =
          (Except.bind ((xs.map fun x => Num.flt x).mapM fun p => o.utilAt rt c p)
            (fun v => pure v.flatten)).map (List.map fun r => r.2.2) := by
        rw [← mapM_flatten_map, ← mapM_flatten_map]
        congr 1
        rw [mapM_map_congr (g := fun p => (o'.utilAt rt c p).map (List.map fun r => r.2.2))
            (g' := fun x => (o.utilAt rt c (Num.flt x)).map (List.map fun r => r.2.2)) _ fun x hx' =>
            utilAt_within hx hpre h hpost ho ho' c x (hin x hx'),
          mapM_map_congr (g := fun p => (o.utilAt rt c p).map (List.map fun r => r.2.2))
            (g' := fun x => (o.utilAt rt c (Num.flt x)).map (List.map fun r => r.2.2)) _ fun x _ => rfl]
      revert h1 ih
      simp only [Except.bind, pure, Except.pure]
      cases (xs.map fun x => Num.flt (x + total lpre)).mapM fun p => o'.utilAt rt c p <;>
        cases (xs.map fun x => Num.flt x).mapM fun p => o.utilAt rt c p <;>
        cases o'.utilLoop rt (some (xs.map fun x => Num.flt (x + total lpre))) cs <;>
        cases o.utilLoop rt (some (xs.map fun x => Num.flt x)) cs <;>
        simp +contextual [Except.map]
  have fin : ∀ {r r' : Py (List (ℤ × Num K × K))}, r'.map (List.map fun r => r.2.2) = r.map (List.map fun r => r.2.2) →
      (r' >>= fun l => pyMax (l.map fun r => r.2.2)) = (r >>= fun l => pyMax (l.map fun r => r.2.2)) := by
    rintro (e | r) (e' | r') <;> simp +contextual [Except.map, bind, Except.bind]
  constructor
  · have := fin (key cs)
    simpa [AS4100.tensionUtilisation, at_, PosArg.given, AS4100.utilCases, utilFilter, bind, Except.bind] using this
  · intro c
    have := fin (key [c])
    simpa [AS4100.tensionUtilisation, at_, PosArg.given, AS4100.utilCases, utilFilter, bind, Except.bind] using this

end

/-! ### The hypotheses can be met -/

namespace AssemblySamples

open Samples

/-- A thicker rod put before the beam of two rods. -/
def before : List (Element ℚ (Sect ℚ)) := [rodElem (7/2) (1/50)]

/-- A thinner rod put after it. -/
def after : List (Element ℚ (Sect ℚ)) := [rodElem 1 (1/200)]

theorem before_lens : HasLengths (⟨before⟩ : Beam ℚ (Sect ℚ)) [Num.flt (7/2)] :=
  ⟨.cons rfl .nil, by decide +kernel⟩

theorem after_lens : HasLengths (⟨after⟩ : Beam ℚ (Sect ℚ)) [Num.flt 1] :=
  ⟨.cons rfl .nil, by decide +kernel⟩

theorem inside : ∀ x ∈ [(3 : ℚ), 1, 2], Inside before (total rodLens) after x := by
  intro x hx
  have ht : total rodLens = 5 := by decide +kernel
  rw [ht]
  simp only [List.mem_cons, List.not_mem_nil, or_false] at hx
  rcases hx with rfl | rfl | rfl <;> refine ⟨by norm_num, by norm_num, fun _ => by norm_num, fun _ => by norm_num⟩

example : (within before rods after).listPositions Samples.rt (at_ (7/2) [3, 1, 2]) none (some 7) =
    .ok [⟨Num.flt (9/2), 1, Num.flt (1/2)⟩, ⟨Num.flt (11/2), 1, Num.flt 1⟩, ⟨Num.flt (11/2), 2, Num.flt 0⟩,
      ⟨Num.flt (13/2), 2, Num.flt (1/3)⟩] ∧
    rods.listPositions Samples.rt (at_ 0 [3, 1, 2]) none (some 7) =
    .ok [⟨Num.flt 1, 0, Num.flt (1/2)⟩, ⟨Num.flt 2, 0, Num.flt 1⟩, ⟨Num.flt 2, 1, Num.flt 0⟩,
      ⟨Num.flt 3, 1, Num.flt (1/3)⟩] := by decide +kernel

example : (within before rods after).getSection Samples.rt (at_ (total [Num.flt (7/2)]) [3, 1, 2]) none none =
    (rods.getSection Samples.rt (at_ 0 [3, 1, 2]) none none).map
      (List.map fun r => (Num.flt (r.1.val + total [Num.flt (7/2)]), r.2)) :=
  C70_sections (Rt.exact_exact ℚ) before_lens rods_lens after_lens none _ inside

example : (within before rods after).getLoads Samples.rt 7 (at_ (total [Num.flt (7/2)]) [3, 1, 2]) none .none =
    (rods.getLoads Samples.rt 7 (at_ 0 [3, 1, 2]) none .none).map (Option.map (moveTab (total [Num.flt (7/2)]))) :=
  C70_loads (Rt.exact_exact ℚ) before_lens rods_lens after_lens 7 .none _ inside (by
    intro e he lc t hl ht
    simp only [rods, List.mem_cons, List.not_mem_nil, or_false] at he
    rcases he with rfl | rfl <;>
    · simp only [rodElem, List.lookup, beq_self_eq_true, Option.some.injEq] at hl
      subst hl
      simp only [Samples.lc, Option.some.injEq] at ht
      subst ht
      rfl)

example : ∃ o', AS4100.new (90/100) (85/100) 1 (some (within before rods after)) none = .ok o' ∧
    o'.tensionCapacity Samples.rt (at_ (total [Num.flt (7/2)]) [3, 1, 2]) =
      obj.tensionCapacity Samples.rt (at_ 0 [3, 1, 2]) ∧
    obj.tensionCapacity Samples.rt (at_ 0 [3, 1, 2]) = .ok thinCap ∧
    o'.tensionUtilisation Samples.rt (.list [7]) (at_ (total [Num.flt (7/2)]) [3, 1, 2]) =
      obj.tensionUtilisation Samples.rt (.list [7]) (at_ 0 [3, 1, 2]) := by
  have ho : AS4100.new (90/100) (85/100) 1 (some rods) none = .ok obj := by decide +kernel
  refine ⟨_, rfl, ?_, by decide +kernel, ?_⟩
  · exact (C70_capacity (Rt.exact_exact ℚ) before_lens rods_lens after_lens ho rfl _ inside).2.2.2
  · exact (C70_utilisation (Rt.exact_exact ℚ) before_lens rods_lens after_lens ho rfl [7] _ inside).1

/-- Where two beams meet the neighbour is listed too: the hypothesis `Inside` is needed. -/
example : (rods.listPositions Samples.rt (at_ 0 [5]) none none).map List.length = .ok 1 ∧
    ((within before rods after).listPositions Samples.rt (at_ (7/2) [5]) none none).map List.length = .ok 2 := by
  decide +kernel

/-- A rod with a table of integers. -/
def intRod : Beam ℚ (Sect ℚ) :=
  ⟨[⟨[(7, ⟨some ⟨true, [axial 0 10, axial 1 20]⟩⟩)], some (Num.flt 2), rod (1/100)⟩]⟩

/-- With integers the position column is cut to whole numbers: the hypothesis `NoIntTables` is needed.  At the end of
this rod the position 2 is answered for 2, and 5 for 5.5. -/
example : (intRod.getLoads Samples.rt 7 (at_ 0 [2]) none (.comp .N)).map (Option.map (·.rows)) =
      .ok (some [(2, [some 20])]) ∧
    ((within before intRod []).getLoads Samples.rt 7 (at_ (7/2) [2]) none (.comp .N)).map (Option.map (·.rows)) =
      .ok (some [(5, [some 20])]) := by decide +kernel

end AssemblySamples

end BeamDesign
