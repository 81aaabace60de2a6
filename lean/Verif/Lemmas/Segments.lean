import Verif.Props.Assembly

/-!
# `get_loads` of a beam of positive lengths, element by element
-/

set_option linter.unusedSectionVars false
set_option linter.unusedSimpArgs false

namespace BeamDesign

open Spec

/-- The rows and the length of an element. -/
abbrev Seg (K : Type) := List (LRow K) × K

section
variable {K S : Type} [Field K] [LinearOrder K] [IsStrictOrderedRing K]

/-- The rows of one element starting at `off`, for the beam position `p`. -/
def segAt (rt : Rt K) (cs : List LComp) (p off : K) (s : Seg K) : List (Row K) :=
  if off ≤ p ∧ p ≤ off + s.2 then (block rt s.1 cs ((p - off) / s.2)).map (fun r => (p, r.2)) else []

/-- The rows of the elements from `off` on, for the beam position `p`. -/
def ansAt (rt : Rt K) (cs : List LComp) (p : K) : K → List (Seg K) → List (Row K)
  | _, [] => []
  | off, s :: es => segAt rt cs p off s ++ ansAt rt cs p (off + s.2) es

theorem ansAt_append (rt : Rt K) (cs : List LComp) (p off : K) (es fs : List (Seg K)) :
    ansAt rt cs p off (es ++ fs) = ansAt rt cs p off es ++ ansAt rt cs p (off + (es.map (·.2)).sum) fs := by
  induction es generalizing off with
  | nil => simp [ansAt]
  | cons s es ih => simp [ansAt, ih, add_assoc]

/-- The element has this table of floats for load case `k`, and this length. -/
def SegOf (k : ℤ) (e : Element K S) (s : Seg K) : Prop :=
  (∃ l, e.length = some l ∧ l.val = s.2) ∧ 0 < s.2 ∧ e.loads.lookup k = some ⟨some ⟨false, s.1⟩⟩ ∧
    WellFormed s.1 ∧ s.1 ≠ []

/-- Where element `i` of the list starts. -/
def segStart (es : List (Seg K)) (i : ℕ) : K := ((es.take i).map (·.2)).sum

theorem ansAt_range (rt : Rt K) (cs : List LComp) (p : K) (es : List (Seg K)) (off : K) :
    ansAt rt cs p off es = (List.range es.length).flatMap fun i =>
      match es[i]? with
      | some s => segAt rt cs p (off + segStart es i) s
      | none => [] := by
  induction es generalizing off with
  | nil => rfl
  | cons s es ih =>
    rw [List.length_cons, List.range_succ_eq_map, List.flatMap_cons, List.flatMap_map]
    simp only [ansAt, List.getElem?_cons_zero, List.getElem?_cons_succ, ih]
    congr 1
    · simp [segStart]
    · congr 1
      funext i
      simp only [segStart, List.take_succ_cons, List.map_cons, List.sum_cons, add_assoc]

theorem lex_unique {α : Type} {r : α → α → Prop} (hirr : ∀ a, ¬ r a a) (hasy : ∀ a b, r a b → r b a → False)
    {l l' : List α} (h : l.Pairwise r) (h' : l'.Pairwise r) (hm : ∀ a, a ∈ l ↔ a ∈ l') : l = l' := by
  have hne : ∀ {a b}, r a b → a ≠ b := by
    rintro a b hab rfl
    exact hirr a hab
  have hp : l.Perm l' := (List.perm_ext_iff_of_nodup (h.imp hne) (h'.imp hne)).2 hm
  exact hp.eq_of_pairwise (fun a b _ _ h1 h2 => (hasy a b h1 h2).elim) h h'

theorem pairs_eq [FloorRing K] {ls : List (Num K)} {xs : List K} {pairs : List (K × ℕ)} (h : Pairs ls xs pairs) :
    pairs = (asc xs).flatMap fun p =>
      ((List.range ls.length).filter fun i => decide (startOf ls i ≤ p ∧ p ≤ startOf ls (i + 1))).map fun i => (p, i) := by
  refine lex_unique (r := fun a b => a.1 < b.1 ∨ a.1 = b.1 ∧ a.2 < b.2) ?_ ?_ h.1 ?_ ?_
  · rintro a (h | h)
    · exact lt_irrefl _ h
    · exact lt_irrefl _ h.2
  · rintro a b (h1 | h1) (h2 | h2)
    · exact lt_irrefl _ (h1.trans h2)
    · exact lt_irrefl _ (h2.1 ▸ h1)
    · exact lt_irrefl _ (h1.1 ▸ h2)
    · exact lt_irrefl _ (h1.2.trans h2.2)
  · rw [List.pairwise_flatMap]
    constructor
    · intro p _
      rw [List.pairwise_map]
      exact (List.pairwise_lt_range.filter _).imp fun h => Or.inr ⟨rfl, h⟩
    · refine (asc_sorted xs).imp ?_
      intro p q hpq a ha b hb
      obtain ⟨i, -, rfl⟩ := List.mem_map.1 ha
      obtain ⟨j, -, rfl⟩ := List.mem_map.1 hb
      exact Or.inl hpq
  · rintro ⟨p, i⟩
    rw [h.2 p i]
    simp only [List.mem_flatMap, mem_asc, List.mem_map, List.mem_filter, List.mem_range, decide_eq_true_eq,
      Prod.mk.injEq]
    constructor
    · rintro ⟨hp, hi⟩
      exact ⟨p, hp, i, ⟨hi.1, hi.2⟩, rfl, rfl⟩
    · rintro ⟨q, hq, j, ⟨h1, h2⟩, rfl, rfl⟩
      exact ⟨hq, h1, h2⟩

end

section
variable {K S : Type} [Field K] [LinearOrder K] [IsStrictOrderedRing K] [FloorRing K]

theorem segs_lengths {b : Beam K S} {k : ℤ} {es : List (Seg K)} (h : List.Forall₂ (SegOf k) b.elements es) :
    ∃ ls, HasLengths b ls ∧ ls.map (·.val) = es.map (·.2) := by
  obtain ⟨els⟩ := b
  simp only at h
  induction h with
  | nil => exact ⟨[], ⟨List.Forall₂.nil, by simp⟩, rfl⟩
  | @cons e s els es h1 _ ih =>
    obtain ⟨ls, h2, h3⟩ := ih
    obtain ⟨⟨l, hl, hv⟩, hpos, -⟩ := h1
    refine ⟨l :: ls, ⟨List.Forall₂.cons hl h2.1, ?_⟩, by simp [hv, h3]⟩
    intro x hx
    rcases List.mem_cons.1 hx with rfl | hx
    · rw [hv]; exact hpos.le
    · exact h2.2 x hx

theorem segs_loaded {b : Beam K S} {k : ℤ} {es : List (Seg K)} (h : List.Forall₂ (SegOf k) b.elements es) :
    LoadedFloat b k := by
  intro i hi
  have h1 := h.get hi (by rw [← h.length_eq]; exact hi)
  exact ⟨⟨false, _⟩, ⟨_, List.getElem?_eq_getElem hi, h1.2.2.1, h1.2.2.2.1, h1.2.2.2.2⟩, rfl⟩

theorem segStart_eq {ls : List (Num K)} {es : List (Seg K)} (h : ls.map (·.val) = es.map (·.2)) (i : ℕ) :
    startOf ls i = segStart es i := by
  unfold startOf segStart
  rw [List.map_take, List.map_take, h]

/-- `get_loads` at explicit positions of a beam of positive lengths. -/
theorem getLoads_segs {rt : Rt K} (hx : rt.Exact) (hs : rt.SortOK) {b : Beam K S} {k : ℤ} {es : List (Seg K)}
    (h : List.Forall₂ (SegOf k) b.elements es) (hes : es ≠ [])
    {component : CompArg} {cs : List LComp} (hc : component.resolve = .ok cs) (hcs : cs ≠ [])
    {position : PosArg K} {xs : List K} (hreq : Requested position xs) (hxs : xs ≠ [])
    (hin : ∀ x ∈ xs, 0 ≤ x ∧ x ≤ (es.map (·.2)).sum) :
    b.getLoads rt k position none component =
      .ok (some ⟨.flt, cs.length, cells ((asc xs).flatMap fun p => ansAt rt cs p 0 es)⟩) := by
  obtain ⟨ls, hls, hv⟩ := segs_lengths h
  have hb := segs_loaded h
  have hlen : ls.length = es.length := by simpa using congrArg List.length hv
  have hls0 : ls ≠ [] := by
    rintro rfl
    exact hes (List.length_eq_zero_iff.1 hlen.symm)
  have htot : total ls = (es.map (·.2)).sum := by unfold total; rw [hv]
  obtain ⟨out, h1, pairs, blocks, hp, hf, rfl⟩ := C15_listing hx b ls hls position xs hreq (some k) (by
    rintro k' hk i l hl -
    cases hk
    obtain ⟨t, ht, -⟩ := hb i (by
      rw [hasLengths_length hls]
      by_contra hcc
      rw [List.getElem?_eq_none (by omega)] at hl
      cases hl)
    exact ⟨t, ht⟩) (by rw [htot]; exact hin)
  have hne : blocks.flatten ≠ [] := by
    obtain ⟨x, hx'⟩ := List.exists_mem_of_ne_nil xs hxs
    obtain ⟨i, hi⟩ := exists_inElement hls.2 hls0 (hin x hx').1 (htot ▸ (hin x hx').2)
    have hpi := (hp.2 x i).2 ⟨hx', hi⟩
    obtain ⟨blk, hb1, hb2⟩ := forall₂_mem_left hf hpi
    obtain ⟨-, -, -, -, -, hb3⟩ := hb2
    intro h0
    rw [List.flatten_eq_nil_iff] at h0
    exact hb3 (h0 blk hb1)
  obtain ⟨rows, hr, he⟩ := getLoads_eq hs hb hc hcs hne h1
  rw [he]
  congr 4
  -- each pair gives the rows of its element
  have key : ∀ pairs : List (K × ℕ), (∀ q ∈ pairs, InElement ls q.1 q.2) → ∀ blocks rows,
      List.Forall₂ (fun pi block => BlockAt ls (some k) pi.1 pi.2 block) pairs blocks →
      List.Forall₂ (StepRows rt b k component cs) blocks.flatten rows →
      rows.flatten = pairs.flatMap fun q => match es[q.2]? with
        | some s => segAt rt cs q.1 (segStart es q.2) s
        | none => [] := by
    intro pairs hq blocks rows hf
    induction hf generalizing rows with
    | nil =>
      intro hr
      rw [List.flatten_nil, List.forall₂_nil_left_iff] at hr
      subst hr
      rfl
    | @cons q blk pairs blocks h1 _ ih =>
      intro hr
      obtain ⟨l, hl, h2, h3, -, -⟩ := h1
      have hqi := hq q List.mem_cons_self
      have hi : q.2 < es.length := hlen ▸ hqi.1
      have hib : q.2 < b.elements.length := by rw [h.length_eq]; exact hi
      have hsi : SegOf k b.elements[q.2] es[q.2] := h.get (by rw [h.length_eq]; exact hi) hi
      have hlv : l.val = es[q.2].2 := by
        have := congrArg (fun v => v[q.2]?) hv
        simp only [List.getElem?_map, hl, List.getElem?_eq_getElem hi, Option.map_some, Option.some.injEq] at this
        exact this
      have hl0 : l.val ≠ 0 := by rw [hlv]; exact hsi.2.1.ne'
      obtain ⟨e, rfl⟩ := h3 hl0
      rw [List.flatten_cons, List.singleton_append] at hr
      cases hr with
      | @cons _ r _ rows hr1 hr2 =>
      rw [List.flatten_cons, List.flatMap_cons, ih (fun q hq' => hq q (List.mem_cons_of_mem _ hq')) rows hr2]
      congr 1
      rw [List.getElem?_eq_getElem hi]
      obtain ⟨he1, he2, he3⟩ := h2 e (by simp)
      obtain ⟨t, el, ⟨el', hel', ht, -, -⟩, -, rfl, -⟩ := hr1
      have hel : el' = b.elements[q.2] := by
        rw [he2, List.getElem?_eq_getElem (by rw [h.length_eq]; exact hi)] at hel'
        exact (Option.some.inj hel').symm
      rw [hel, hsi.2.2.1] at ht
      have ht' : t = ⟨false, es[q.2].1⟩ := by
        simpa using ht.symm
      have hin' : segStart es q.2 ≤ q.1 ∧ q.1 ≤ segStart es q.2 + es[q.2].2 := by
        have h5 := hqi.2
        rw [startOf_succ _ _ _ hl, segStart_eq hv, hlv] at h5
        exact h5
      have hloc : e.loc.val = (q.1 - segStart es q.2) / es[q.2].2 := by
        rw [eq_div_iff hsi.2.1.ne', ← hlv, ← segStart_eq hv]
        linarith
      simp only [segAt, if_pos hin', ht', hloc, he1]
  rw [key pairs (fun q hq => ((hp.2 q.1 q.2).1 hq).2) _ _ hf hr, pairs_eq hp, List.flatMap_assoc]
  congr 1
  funext p
  rw [List.flatMap_map, ansAt_range, hlen]
  have : ∀ l : List ℕ, (∀ i ∈ l, i < es.length) →
      (l.filter fun i => decide (startOf ls i ≤ p ∧ p ≤ startOf ls (i + 1))).flatMap
        (fun i => match es[i]? with | some s => segAt rt cs p (segStart es i) s | none => []) =
      l.flatMap fun i => match es[i]? with | some s => segAt rt cs p (0 + segStart es i) s | none => [] := by
    intro l hl
    induction l with
    | nil => rfl
    | cons i l ih =>
      have hi := hl i List.mem_cons_self
      rw [List.filter_cons]
      have ih' := ih fun j hj => hl j (List.mem_cons_of_mem _ hj)
      have hlsi : ls[i]? = some ls[i] := List.getElem?_eq_getElem (by omega)
      have hlv : ls[i].val = es[i].2 := by
        have := congrArg (fun v => v[i]?) hv
        simpa [hlsi, List.getElem?_eq_getElem hi] using this
      split_ifs with hc
      · rw [List.flatMap_cons, List.flatMap_cons, ih', zero_add]
      · rw [List.flatMap_cons, ih', List.getElem?_eq_getElem hi]
        simp only [zero_add, segAt]
        rw [decide_eq_true_eq, startOf_succ _ _ _ hlsi, segStart_eq hv, hlv] at hc
        rw [if_neg hc, List.nil_append]
  exact this _ fun i hi => List.mem_range.1 hi

end

end BeamDesign
