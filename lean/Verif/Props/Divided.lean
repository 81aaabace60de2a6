import Verif.Lemmas.Divided
import Verif.Spec.SamplesAS

/-!
# C132: the overall utilisation of a beam does not depend on how the beam is divided and described
-/

set_option linter.unusedSectionVars false

namespace BeamDesign

open Spec

section
variable {K : Type} [Field K] [LinearOrder K] [IsStrictOrderedRing K] [FloorRing K]

/-! ## The sections -/

theorem zip_sects {pre mid post : List (Sect K)} {lp lm lq : List K} (h1 : pre.length = lp.length)
    (h2 : mid.length = lm.length) :
    (pre ++ (mid ++ post)).zip (lp ++ (lm ++ lq)) = pre.zip lp ++ (mid.zip lm ++ post.zip lq) := by
  rw [List.zip_append h1, List.zip_append h2]

/-- Replacing some elements by others of the same total length that have the same sections everywhere. -/
theorem sectsAt_replace {S : Type} (p : K) (ps ms ms' qs : List (S × K)) (hsum : (ms'.map (·.2)).sum = (ms.map (·.2)).sum)
    (heq : ∀ s off, s ∈ sectsAt p off ms' ↔ s ∈ sectsAt p off ms) (s : S) :
    s ∈ sectsAt p 0 (ps ++ (ms' ++ qs)) ↔ s ∈ sectsAt p 0 (ps ++ (ms ++ qs)) := by
  simp only [sectsAt_append, List.mem_append, hsum, heq]

theorem ansAt_replace (rt : Rt K) (cs : List LComp) (p : K) (ps ms ms' qs : List (Seg K))
    (hsum : (ms'.map (·.2)).sum = (ms.map (·.2)).sum)
    (heq : ∀ off r, off = (ps.map (·.2)).sum → (r ∈ ansAt rt cs p off ms' ↔ r ∈ ansAt rt cs p off ms)) (r : Row K) :
    r ∈ ansAt rt cs p 0 (ps ++ (ms' ++ qs)) ↔ r ∈ ansAt rt cs p 0 (ps ++ (ms ++ qs)) := by
  simp only [ansAt_append, List.mem_append, hsum, heq (0 + (ps.map (·.2)).sum) r (zero_add _)]

/-- Two ways to describe a part of a beam, with the same tensions and sections at each position, give the same overall
utilisation. -/
theorem replace_same {rt : Rt K} (hx : rt.Exact) (hs : rt.SortOK) {o o' : AS4100 K}
    {pre mid mid' post : List (Element K (Sect K))} {ls ls' : List (Num K)} {c : ℤ}
    (h : Checked rt o ⟨pre ++ (mid ++ post)⟩ ls c) (h' : Checked rt o' ⟨pre ++ (mid' ++ post)⟩ ls' c) (hf : SameFactors o o')
    {ps ms ms' qs : List (Seg K)} (hps : List.Forall₂ (SegOf c) pre ps) (hms : List.Forall₂ (SegOf c) mid ms)
    (hms' : List.Forall₂ (SegOf c) mid' ms') (hqs : List.Forall₂ (SegOf c) post qs)
    (hl : (ps ++ (ms ++ qs)).map (·.2) = ls.map (·.val)) (hl' : (ps ++ (ms' ++ qs)).map (·.2) = ls'.map (·.val))
    (hsum : (ms'.map (·.2)).sum = (ms.map (·.2)).sum)
    (hans : ∀ p off r, off = (ps.map (·.2)).sum → (r ∈ ansAt rt [.N] p off ms' ↔ r ∈ ansAt rt [.N] p off ms))
    (hsect : ∀ p s off, s ∈ sectsAt p off ((mid'.map fun e => e.sect).zip (ms'.map (·.2))) ↔
      s ∈ sectsAt p off ((mid.map fun e => e.sect).zip (ms.map (·.2))))
    {loadCase loadCase' : CaseArg} (hc : CasesOf o loadCase [c]) (hc' : CasesOf o' loadCase' [c]) {u u' : K}
    (hu : o.tensionUtilisation rt loadCase .none = .ok u) (hu' : o'.tensionUtilisation rt loadCase' .none = .ok u') :
    u' = u := by
  have he := List.rel_append hps (List.rel_append hms hqs)
  have he' := List.rel_append hps (List.rel_append hms' hqs)
  have hes : ps ++ (ms ++ qs) ≠ [] := by
    intro hh
    rw [hh] at hl
    exact h.some (List.map_eq_nil_iff.1 hl.symm)
  have hes' : ps ++ (ms' ++ qs) ≠ [] := by
    intro hh
    rw [hh] at hl'
    exact h'.some (List.map_eq_nil_iff.1 hl'.symm)
  have htot : total ls' = total ls := by
    unfold total
    rw [← hl, ← hl']
    simp [hsum]
  have e1 : pre.length = ps.length := hps.length_eq
  have e2 : mid.length = ms.length := hms.length_eq
  have e3 : mid'.length = ms'.length := hms'.length_eq
  have hsnd : ∀ {els : List (Element K (Sect K))} {es : List (Seg K)}, els.length = es.length →
      (((els.map fun e => e.sect).zip (es.map (·.2))).map (·.2)) = es.map (·.2) := by
    intro els es hh
    exact List.map_snd_zip (by simp [hh])
  have hS : ∀ p s, s ∈ sectsAt p 0 (((pre ++ (mid' ++ post)).map fun e => e.sect).zip (ls'.map (·.val))) ↔
      s ∈ sectsAt p 0 (((pre ++ (mid ++ post)).map fun e => e.sect).zip (ls.map (·.val))) := by
    intro p s
    rw [← hl, ← hl']
    simp only [List.map_append]
    rw [zip_sects (by simp [e1]) (by simp [e3]), zip_sects (by simp [e1]) (by simp [e2])]
    refine sectsAt_replace p _ _ _ _ ?_ (hsect p) s
    rw [hsnd e2, hsnd e3, hsum]
  have hA : ∀ p r, r ∈ ansAt rt [.N] p 0 (ps ++ (ms' ++ qs)) ↔ r ∈ ansAt rt [.N] p 0 (ps ++ (ms ++ qs)) := fun p r =>
    ansAt_replace rt _ p ps ms ms' qs hsum (fun off r => hans p off r) r
  refine le_antisymm ?_ ?_
  · refine overall_le hx hs h' h (fun p v hp hv => ⟨p, htot ▸ hp, ?_⟩) hc' hc hu' hu
    exact utilAt_transfer hx hs h' h ⟨hf.1.symm, hf.2.1.symm, hf.2.2.symm⟩ he' he hes' hes hl' hl hp (htot ▸ hp)
      (fun n hn => (hA p _).1 hn) (hS p) hv
  · refine overall_le hx hs h h' (fun p v hp hv => ⟨p, htot.symm ▸ hp, ?_⟩) hc hc' hu hu'
    exact utilAt_transfer hx hs h h' hf he he' hes hes' hl hl' hp (htot.symm ▸ hp)
      (fun n hn => (hA p _).2 hn) (fun s => (hS p s).symm) hv

/-- The lengths of the elements are determined by the elements. -/
theorem segs_lens_unique {S : Type} {c : ℤ} {els : List (Element K S)} {a b : List (Seg K)} (ha : List.Forall₂ (SegOf c) els a)
    (hb : List.Forall₂ (SegOf c) els b) : a.map (·.2) = b.map (·.2) := by
  induction ha generalizing b with
  | nil => cases hb; rfl
  | cons q1 _ ih =>
    cases hb with
    | cons q2 q3 =>
      obtain ⟨x, hx1, hx2⟩ := q1.1
      obtain ⟨y, hy1, hy2⟩ := q2.1
      rw [hx1] at hy1
      cases hy1
      simp only [List.map_cons, ih q3, ← hx2, ← hy2]

/-! ## C132 -/

/-- C132: a row lying on the curve of every component, stored in the table of one element or left out: the overall
utilisation is the same, whenever it is a value. -/
theorem C132_redundant {rt : Rt K} (hx : rt.Exact) (hs : rt.SortOK) (o o' : AS4100 K)
    (pre post : List (Element K (Sect K))) (e e' : Element K (Sect K)) (ls ls' : List (Num K)) (c : ℤ)
    (h : Checked rt o ⟨pre ++ e :: post⟩ ls c) (h' : Checked rt o' ⟨pre ++ e' :: post⟩ ls' c) (hf : SameFactors o o')
    (A B : List (LRow K)) (m : LRow K) (hm : Redundant A m B) (hlen : e'.length = e.length) (hsect : e'.sect = e.sect)
    (ht : TableOf c e (A ++ B)) (ht' : TableOf c e' (A ++ m :: B))
    (loadCase loadCase' : CaseArg) (hc : CasesOf o loadCase [c]) (hc' : CasesOf o' loadCase' [c]) (u u' : K)
    (hu : o.tensionUtilisation rt loadCase .none = .ok u) (hu' : o'.tensionUtilisation rt loadCase' .none = .ok u') :
    u' = u := by
  obtain ⟨es, h1, h2⟩ := segs_exist h.loaded h.lengths h.positive
  obtain ⟨ps, ⟨rows, l⟩, qs, rfl, h3, h4, h5⟩ := segs_split h1
  have hrows : rows = A ++ B := by
    have := h4.2.2.1.symm.trans ht
    simpa using this
  subst hrows
  have h4' : SegOf c e' (A ++ m :: B, l) := ⟨hlen ▸ h4.1, h4.2.1, ht', insert_wf hm h4.2.2.2.1, by simp⟩
  have hl' : (ps ++ ([(A ++ m :: B, l)] ++ qs)).map (·.2) = ls'.map (·.val) := by
    obtain ⟨es', h1', h2'⟩ := segs_exist h'.loaded h'.lengths h'.positive
    rw [← h2']
    exact segs_lens_unique (List.rel_append h3 (List.rel_append (List.Forall₂.cons h4' List.Forall₂.nil) h5)) h1'
  refine replace_same (mid := [e]) (mid' := [e']) hx hs h h' hf h3 (List.Forall₂.cons h4 List.Forall₂.nil)
    (List.Forall₂.cons h4' List.Forall₂.nil) h5 (by simpa using h2) hl' (by simp) ?_ ?_ hc hc' hu hu'
  · intro p off r _
    simp only [ansAt, segAt, funext (block_insert hx hm h4.2.2.2.1.1 h4.2.2.2.2 _)]
  · intro p s off
    simp [hsect]

/-- C132: an element cut in two at a stored position (with one row there, or two where the loads jump), both parts having
its section: the overall utilisation is the same, whenever it is a value. -/
theorem C132_cut {rt : Rt K} (hx : rt.Exact) (hs : rt.SortOK) (o o' : AS4100 K)
    (pre post : List (Element K (Sect K))) (e e1 e2 : Element K (Sect K)) (ls ls' : List (Num K)) (c : ℤ)
    (h : Checked rt o ⟨pre ++ e :: post⟩ ls c) (h' : Checked rt o' ⟨pre ++ e1 :: e2 :: post⟩ ls' c) (hf : SameFactors o o')
    (s l : K) (M : List (LRow K)) (hcut : CutInto c s l M e e1 e2) (hM2 : M.length ≤ 2) (hs1 : e1.sect = e.sect)
    (hs2 : e2.sect = e.sect)
    (loadCase loadCase' : CaseArg) (hc : CasesOf o loadCase [c]) (hc' : CasesOf o' loadCase' [c]) (u u' : K)
    (hu : o.tensionUtilisation rt loadCase .none = .ok u) (hu' : o'.tensionUtilisation rt loadCase' .none = .ok u') :
    u' = u := by
  obtain ⟨es, h1, h2⟩ := segs_exist h.loaded h.lengths h.positive
  obtain ⟨ps, ⟨rows, l'⟩, qs, rfl, h3, h4, h5⟩ := segs_split h1
  obtain ⟨es', h1', h2'⟩ := segs_exist h'.loaded h'.lengths h'.positive
  obtain ⟨hp0, hp1, hl, ⟨n, hn, rfl⟩, hl1, hl2, A, B, first, last, hM, hM', hA, hMs, hB, t, t1, t2⟩ := hcut
  have hrows : rows = A ++ M ++ B := by
    have := h4.2.2.1.symm.trans t
    simpa using this
  have hl' : l' = n.val := by
    obtain ⟨n', hn', hv⟩ := h4.1
    rw [hn] at hn'
    cases hn'
    exact hv.symm
  subst hrows hl'
  obtain ⟨g1, g2⟩ := cut_segs hp0 hp1 hl hl1 hl2 hM hM' hA hMs hB h4.2.2.2.1 t1 t2
  have hmid' := List.Forall₂.cons g1 (List.Forall₂.cons g2 (List.Forall₂.nil (R := SegOf c)))
  have hlens' : (ps ++ ([((A ++ [first]).map (placed fun x => x / s), s * n.val),
      ((last :: B).map (placed fun x => (x - s) / (1 - s)), (1 - s) * n.val)] ++ qs)).map (·.2) = ls'.map (·.val) := by
    rw [← h2']
    exact segs_lens_unique (List.rel_append h3 (List.rel_append hmid' h5)) h1'
  refine replace_same (mid := [e]) (mid' := [e1, e2]) hx hs h h' hf h3 (List.Forall₂.cons h4 List.Forall₂.nil) hmid' h5
    (by simpa using h2) hlens' (by simp; ring) ?_ ?_ hc hc' hu hu'
  · intro p off r _
    simp only [ansAt, List.append_nil]
    by_cases hcase : p ≠ off + s * n.val ∨ M.length = 2
    · rw [segAt_cut hx hp0 hp1 hl hM hM' hA hMs hB h4.2.2.2.1.1 _ hcase]
    · -- at the cut, with one row
      have hMm : M = [first] := by
        have h0 : M ≠ [] := by rintro rfl; cases hM
        have hlen : M.length = 1 := by
          have := List.length_pos_iff.2 h0
          have : M.length ≠ 2 := fun hh => hcase (Or.inr hh)
          omega
        obtain ⟨a, rfl⟩ := List.length_eq_one_iff.1 hlen
        simpa using hM
      have hlast : last = first := by
        rw [hMm] at hM'
        simpa using hM'.symm
      subst hMm hlast
      have hw : WellFormed (A ++ [last, last] ++ B) := by
        have hw := h4.2.2.2.1
        constructor
        · have hw := hw.1
          simp only [List.append_assoc, List.pairwise_append, List.cons_append, List.nil_append, List.pairwise_cons,
            List.mem_cons] at hw ⊢
          refine ⟨hw.1, ⟨?_, hw.2.1⟩, ?_⟩
          · rintro a (rfl | ha)
            · exact le_rfl
            · exact hw.2.1.1 a ha
          · intro a ha b hb
            rcases hb with rfl | rfl | hb
            · exact hw.2.2 a ha _ (Or.inl rfl)
            · exact hw.2.2 a ha _ (Or.inl rfl)
            · exact hw.2.2 a ha b (Or.inr hb)
        · intro r hr
          refine hw.2 r ?_
          simpa using hr
      have hms : ∀ r ∈ [last, last], r.pos = s := by
        intro r hr
        exact hMs r (by simpa using hr)
      rw [segAt_cut (M := [last, last]) (first := last) (last := last) hx hp0 hp1 hl rfl rfl hA hms hB hw.1 _ (Or.inr rfl)]
      unfold segAt
      split_ifs
      · have hq : (p - off) / n.val = s := by
          have : p = off + s * n.val := by
            by_contra hh
            exact hcase (Or.inl hh)
          rw [this]
          field_simp
          ring
        rw [hq]
        unfold block
        rw [if_pos (by simp [hMs last (by simp)]), if_pos (by simp [hMs last (by simp)])]
        simp only [List.mem_map, List.mem_filter, List.mem_append, List.mem_cons, List.not_mem_nil, or_false, or_self]
      · rfl
  · intro p sc off
    simp only [List.map_cons, List.map_nil, List.zip_cons_cons, List.zip_nil_right, sectsAt, List.append_nil, hs1, hs2]
    have e1 : off + s * n.val + (1 - s) * n.val = off + n.val := by ring
    rw [e1]
    have q1 : 0 < s * n.val := mul_pos hp0 hl
    have q2 : s * n.val < n.val := by nlinarith
    by_cases k1 : off ≤ p ∧ p ≤ off + n.val
    · rw [if_pos k1]
      by_cases k2 : p ≤ off + s * n.val
      · rw [if_pos ⟨k1.1, k2⟩]
        split_ifs <;> simp
      · rw [if_neg fun hh => k2 hh.2, if_pos ⟨(not_le.1 k2).le, k1.2⟩]
        simp
    · rw [if_neg k1, if_neg fun hh => k1 ⟨hh.1, by linarith [hh.2]⟩, if_neg fun hh => k1 ⟨by linarith [hh.1], hh.2⟩]
      simp

theorem sectsAt_mirror {S : Type} (es : List (S × K)) (L off p : K) :
    sectsAt (L - p) (L - off - (es.map (·.2)).sum) es.reverse = (sectsAt p off es).reverse := by
  induction es generalizing off with
  | nil => rfl
  | cons s es ih =>
    have e1 : L - off - ((s :: es).map (·.2)).sum = L - (off + s.2) - (es.map (·.2)).sum := by
      simp only [List.map_cons, List.sum_cons]
      ring
    rw [e1, List.reverse_cons, sectsAt_append, ih (off + s.2), List.map_reverse, List.sum_reverse,
      show L - (off + s.2) - (es.map (·.2)).sum + (es.map (·.2)).sum = L - off - s.2 by ring]
    have hiff : (L - off - s.2 ≤ L - p ∧ L - p ≤ L - off - s.2 + s.2) ↔ (off ≤ p ∧ p ≤ off + s.2) :=
      ⟨fun h => ⟨by linarith [h.2], by linarith [h.1]⟩, fun h => ⟨by linarith [h.2], by linarith [h.1]⟩⟩
    simp only [sectsAt, hiff, List.append_nil, List.reverse_append]
    congr 1
    split_ifs <;> rfl

theorem mirror_segs {c : ℤ} {els els' : List (Element K (Sect K))} {es : List (Seg K)} (h1 : List.Forall₂ (SegOf c) els es)
    (hm : List.Forall₂ (fun e e' => Mirrored c e e' ∧ e'.sect = e.sect) els els') :
    List.Forall₂ (SegOf c) els' (es.map mirrorSeg) ∧ (els'.map fun e => e.sect) = els.map fun e => e.sect := by
  induction hm generalizing es with
  | nil =>
    rw [List.forall₂_nil_left_iff] at h1
    subst h1
    exact ⟨List.Forall₂.nil, rfl⟩
  | @cons e e' els els' g1 _ ih =>
    cases h1 with
    | @cons _ s _ es g2 g3 =>
      obtain ⟨⟨⟨n, n', q1, q2, q3⟩, q4⟩, q5⟩ := g1
      obtain ⟨⟨m, m1, m2⟩, m3, m4, m5, m6⟩ := g2
      rw [q1] at m1
      cases m1
      obtain ⟨i1, i2⟩ := ih g3
      exact ⟨List.Forall₂.cons ⟨⟨n', q2, q3.trans m2⟩, m3, q4 _ m4, mirror_wf m5,
        by simpa [mirrorSeg, mirrorRows] using m6⟩ i1, by simp [q5, i2]⟩

/-- C132: the beam described from its other end (elements in the opposite order, tables turned round): the overall
utilisation is the same, whenever it is a value. -/
theorem C132_mirror {rt : Rt K} (hx : rt.Exact) (hs : rt.SortOK) (o o' : AS4100 K) (b : Beam K (Sect K))
    (els' : List (Element K (Sect K))) (ls ls' : List (Num K)) (c : ℤ)
    (h : Checked rt o b ls c) (h' : Checked rt o' ⟨els'.reverse⟩ ls' c) (hf : SameFactors o o')
    (hm : List.Forall₂ (fun e e' => Mirrored c e e' ∧ e'.sect = e.sect) b.elements els')
    (loadCase loadCase' : CaseArg) (hc : CasesOf o loadCase [c]) (hc' : CasesOf o' loadCase' [c]) (u u' : K)
    (hu : o.tensionUtilisation rt loadCase .none = .ok u) (hu' : o'.tensionUtilisation rt loadCase' .none = .ok u') :
    u' = u := by
  obtain ⟨es, h1, h2⟩ := segs_exist (els := b.elements) h.loaded h.lengths h.positive
  have hes0 : es ≠ [] := by
    rintro rfl
    exact h.some (List.map_eq_nil_iff.1 h2.symm)
  have hes : ∀ s ∈ es, 0 < s.2 ∧ WellFormed s.1 ∧ s.1 ≠ [] := by
    intro s hs
    obtain ⟨e, -, he⟩ := forall₂_mem_right h1 hs
    exact ⟨he.2.1, he.2.2.2.1, he.2.2.2.2⟩
  obtain ⟨h1', hsec⟩ := mirror_segs h1 hm
  have h1'' : List.Forall₂ (SegOf c) els'.reverse (es.map mirrorSeg).reverse := List.rel_reverse h1'
  have hl' : ((es.map mirrorSeg).reverse).map (·.2) = ls'.map (·.val) := by
    obtain ⟨es', g1, g2⟩ := segs_exist h'.loaded h'.lengths h'.positive
    rw [← g2]
    exact segs_lens_unique h1'' g1
  have hrev : ls'.map (·.val) = (ls.map (·.val)).reverse := by
    rw [← hl', ← h2, List.map_reverse, List.map_map]
    rfl
  have htot : total ls' = total ls := by
    unfold total
    rw [hrev, List.sum_reverse]
  have hsum : (es.map (·.2)).sum = total ls := by rw [h2]; rfl
  have hA : ∀ p n, (p, [n]) ∈ ansAt rt [.N] p 0 es ↔
      (total ls - p, [n]) ∈ ansAt rt [.N] (total ls - p) 0 (es.map mirrorSeg).reverse := by
    intro p n
    have := ansAt_mirror hx es hes [.N] (total ls) 0 p
    rw [hsum, sub_zero, sub_self] at this
    rw [this, List.mem_reverse, List.mem_map]
    constructor
    · intro hh
      exact ⟨_, hh, rfl⟩
    · rintro ⟨⟨q1, q2⟩, hq, he⟩
      simp only [Prod.mk.injEq, sub_right_inj] at he
      obtain ⟨rfl, rfl⟩ := he
      exact hq
  have hzip : ((els'.reverse.map fun e => e.sect).zip (ls'.map (·.val))) =
      ((b.elements.map fun e => e.sect).zip (ls.map (·.val))).reverse := by
    rw [hrev, List.map_reverse, hsec]
    exact (List.reverse_zipWith (by simpa using h.lengths.1.length_eq)).symm
  have hS : ∀ p s, s ∈ sectsAt p 0 ((b.elements.map fun e => e.sect).zip (ls.map (·.val))) ↔
      s ∈ sectsAt (total ls - p) 0 ((els'.reverse.map fun e => e.sect).zip (ls'.map (·.val))) := by
    intro p s
    have := sectsAt_mirror ((b.elements.map fun e => e.sect).zip (ls.map (·.val))) (total ls) 0 p
    rw [List.map_snd_zip (by simpa using h.lengths.1.length_eq.ge)] at this
    rw [show (ls.map (·.val)).sum = total ls from rfl, sub_zero, sub_self] at this
    rw [hzip, this, List.mem_reverse]
  have hes' : (es.map mirrorSeg).reverse ≠ [] := by simpa using hes0
  refine le_antisymm ?_ ?_
  · refine overall_le hx hs h' h (fun p v hp hv => ⟨total ls - p, ?_, ?_⟩) hc' hc hu' hu
    · rw [htot] at hp
      constructor <;> linarith [hp.1, hp.2]
    · have hpp : p = total ls - (total ls - p) := by ring
      refine utilAt_transfer hx hs h' h ⟨hf.1.symm, hf.2.1.symm, hf.2.2.symm⟩ h1'' h1 hes' hes0 hl' h2 hp
        (by rw [htot] at hp; constructor <;> linarith [hp.1, hp.2]) (fun n hn => ?_) (fun s => ?_) hv
      · rw [hA, ← hpp]
        exact hn
      · rw [hS (total ls - p), ← hpp]
  · refine overall_le hx hs h h' (fun p v hp hv => ⟨total ls - p, ?_, ?_⟩) hc hc' hu hu'
    · rw [htot]
      constructor <;> linarith [hp.1, hp.2]
    · exact utilAt_transfer hx hs h h' hf h1 h1'' hes0 hes' h2 hl' hp
        (by rw [htot]; constructor <;> linarith [hp.1, hp.2]) (fun n hn => (hA p n).1 hn) (hS p) hv

end

/-! ## Cases meeting the hypotheses -/

/-- A rod under axial loads in load case 1. -/
def partE (l : ℚ) (rows : List (LRow ℚ)) : Element ℚ (Sect ℚ) :=
  ⟨[(1, ⟨some ⟨false, rows⟩⟩)], some (Num.flt l), Samples.rod (1/100)⟩

/-- Objects with such rods. -/
def partObj (els : List (Element ℚ (Sect ℚ))) : AS4100 ℚ :=
  ⟨some ⟨els⟩, none, 3, els.map fun _ => ⟨1/100, Samples.steel⟩, 90/100, 85/100, 1⟩

/-- Tension rising from 1000 to 2000, and after a jump from 4000 to 6000. -/
def partRows : List (LRow ℚ) := [Samples.axial 0 1000, Samples.axial (1/4) 2000, Samples.axial (1/4) 4000, Samples.axial 1 6000]
def partWhole : Element ℚ (Sect ℚ) := partE 4 partRows
def partLeft : Element ℚ (Sect ℚ) := partE 1 [Samples.axial 0 1000, Samples.axial 1 2000]
def partRight : Element ℚ (Sect ℚ) := partE 3 [Samples.axial 0 4000, Samples.axial 1 6000]
/-- The whole rod with a redundant row, and seen from the other end. -/
def partMore : Element ℚ (Sect ℚ) := partE 4
  [Samples.axial 0 1000, Samples.axial (1/8) 1500, Samples.axial (1/4) 2000, Samples.axial (1/4) 4000, Samples.axial 1 6000]
def partBack : Element ℚ (Sect ℚ) := partE 4
  [Samples.axial 0 6000, Samples.axial (3/4) 4000, Samples.axial (3/4) 2000, Samples.axial 1 1000]

theorem part_checked {els : List (ℚ × List (LRow ℚ))} (h0 : els ≠ []) (hl : ∀ e ∈ els, 0 < e.1)
    (hw : ∀ e ∈ els, WellFormed e.2 ∧ e.2 ≠ []) :
    Checked Samples.rt (partObj (els.map fun e => partE e.1 e.2)) ⟨els.map fun e => partE e.1 e.2⟩
      (els.map fun e => Num.flt e.1) 1 where
  beam := rfl
  aligned := by
    unfold Aligned
    simp only [partObj, List.map_map]
    rw [List.forall₂_map_left_iff, List.forall₂_map_right_iff]
    exact List.forall₂_same.2 fun e _ => ⟨rfl, rfl⟩
  lengths := by
    refine ⟨?_, ?_⟩
    · simp only
      rw [List.forall₂_map_left_iff, List.forall₂_map_right_iff]
      exact List.forall₂_same.2 fun e _ => rfl
    · intro l hl'
      obtain ⟨e, he, rfl⟩ := List.mem_map.1 hl'
      exact (hl e he).le
  some := by simpa using h0
  float := by
    intro l hl'
    obtain ⟨e, he, rfl⟩ := List.mem_map.1 hl'
    rfl
  positive := by
    intro l hl'
    obtain ⟨e, he, rfl⟩ := List.mem_map.1 hl'
    exact hl e he
  phi := by simp [partObj]
  capacity := by
    intro d hd
    obtain ⟨-, -, rfl⟩ := List.mem_map.1 hd
    exact ⟨_, ⟨250000000, 410000000, strengths_iff.2 ⟨by decide +kernel, by decide +kernel⟩, rfl⟩, by simp only [partObj]; decide +kernel⟩
  points := ⟨3, rfl⟩
  loaded := by
    intro i hi
    simp only [List.length_map] at hi
    have hm := List.getElem_mem hi
    exact ⟨⟨false, els[i].2⟩, ⟨partE els[i].1 els[i].2, by simp [hi], rfl, (hw _ hm).1, (hw _ hm).2⟩, rfl⟩

theorem part_whole : Checked Samples.rt (partObj [partWhole]) ⟨[partWhole]⟩ [Num.flt 4] 1 :=
  part_checked (els := [(4, partRows)]) (by simp) (by simp) (by unfold WellFormed; decide +kernel)

theorem part_value : (partObj [partWhole]).tensionUtilisation Samples.rt .none .none = .ok (6000 / Samples.thinCap) := by
  decide +kernel

/-- The hypotheses of the three theorems can be met: the rod cut at the jump, with a redundant row, and from its other end. -/
example (u' : ℚ) (hu' : (partObj [partLeft, partRight]).tensionUtilisation Samples.rt .none .none = .ok u') :
    u' = 6000 / Samples.thinCap :=
  C132_cut (Rt.exact_exact ℚ) (Rt.exact_sortOK ℚ) (partObj [partWhole]) (partObj [partLeft, partRight]) [] [] partWhole
    partLeft partRight [Num.flt 4] [Num.flt 1, Num.flt 3] 1 part_whole
    (part_checked (els := [(1, [Samples.axial 0 1000, Samples.axial 1 2000]), (3, [Samples.axial 0 4000, Samples.axial 1 6000])])
      (by simp) (by simp) (by unfold WellFormed; decide +kernel))
    ⟨rfl, rfl, rfl⟩ (1/4) 4 [Samples.axial (1/4) 2000, Samples.axial (1/4) 4000]
    ⟨by norm_num, by norm_num, by norm_num, ⟨_, rfl, rfl⟩, ⟨_, rfl, by norm_num [Num.flt]⟩, ⟨_, rfl, by norm_num [Num.flt]⟩,
      [Samples.axial 0 1000], [Samples.axial 1 6000], _, _, rfl, rfl, by decide +kernel, by decide +kernel,
      by decide +kernel, rfl, by unfold TableOf; decide +kernel, by unfold TableOf; decide +kernel⟩
    (by simp) rfl rfl .none .none (Or.inr (Or.inr ⟨rfl, _, _, [], rfl, rfl, rfl⟩))
    (Or.inr (Or.inr ⟨rfl, _, _, [_], rfl, rfl, rfl⟩)) _ u' part_value hu'

example : (partObj [partLeft, partRight]).tensionUtilisation Samples.rt .none .none = .ok (6000 / Samples.thinCap) := by
  decide +kernel

example (u' : ℚ) (hu' : (partObj [partMore]).tensionUtilisation Samples.rt .none .none = .ok u') :
    u' = 6000 / Samples.thinCap :=
  C132_redundant (Rt.exact_exact ℚ) (Rt.exact_sortOK ℚ) (partObj [partWhole]) (partObj [partMore]) [] [] partWhole
    partMore [Num.flt 4] [Num.flt 4] 1 part_whole
    (part_checked (els := [(4, [Samples.axial 0 1000, Samples.axial (1/8) 1500, Samples.axial (1/4) 2000,
      Samples.axial (1/4) 4000, Samples.axial 1 6000])]) (by simp) (by simp) (by unfold WellFormed; decide +kernel))
    ⟨rfl, rfl, rfl⟩ [Samples.axial 0 1000] [Samples.axial (1/4) 2000, Samples.axial (1/4) 4000, Samples.axial 1 6000]
    (Samples.axial (1/8) 1500)
    ⟨by decide +kernel, by decide +kernel, by decide +kernel, by decide +kernel, fun c => Or.inr (Or.inr
      ⟨[], Samples.axial 0 1000, Samples.axial (1/4) 2000, _, rfl, by decide +kernel, by decide +kernel,
        by cases c <;> decide +kernel⟩)⟩ rfl rfl rfl rfl .none .none (Or.inr (Or.inr ⟨rfl, _, _, [], rfl, rfl, rfl⟩))
    (Or.inr (Or.inr ⟨rfl, _, _, [], rfl, rfl, rfl⟩)) _ u' part_value hu'

example (u' : ℚ) (hu' : (partObj [partBack]).tensionUtilisation Samples.rt .none .none = .ok u') :
    u' = 6000 / Samples.thinCap :=
  C132_mirror (Rt.exact_exact ℚ) (Rt.exact_sortOK ℚ) (partObj [partWhole]) (partObj [partBack]) ⟨[partWhole]⟩ [partBack]
    [Num.flt 4] [Num.flt 4] 1 part_whole
    (part_checked (els := [(4, [Samples.axial 0 6000, Samples.axial (3/4) 4000, Samples.axial (3/4) 2000,
      Samples.axial 1 1000])]) (by simp) (by simp) (by unfold WellFormed; decide +kernel))
    ⟨rfl, rfl, rfl⟩
    (.cons ⟨⟨⟨_, _, rfl, rfl, rfl⟩, fun rows hr => by
      have : rows = partRows := by simpa [TableOf, partWhole, partE, List.lookup] using hr.symm
      subst this
      unfold TableOf
      decide +kernel⟩, rfl⟩ .nil) .none .none (Or.inr (Or.inr ⟨rfl, _, _, [], rfl, rfl, rfl⟩))
    (Or.inr (Or.inr ⟨rfl, _, _, [], rfl, rfl, rfl⟩)) _ u' part_value hu'

/-- With several load cases in one call it is not so: the rod of `C91_cases_counterexample`, slack in load case 1 and with a
peak of tension in the middle in load case 2, shows the peak only when it is cut there. -/
theorem C132_cases_counterexample :
    (⟨some ⟨[⟨[(1, Samples.slack), (2, Samples.peak)], some (Num.flt 1), Samples.rod (1/100)⟩]⟩, none, 2,
        [⟨1/100, Samples.steel⟩], 90/100, 85/100, 1⟩ : AS4100 ℚ).tensionUtilisation Samples.rt .none .none = .ok 0 ∧
    (⟨some ⟨[⟨[(1, Samples.slack), (2, ⟨some ⟨false, [Samples.axial 0 0, Samples.axial (49/50) 0, Samples.axial 1 1000]⟩⟩)],
          some (Num.flt (1/2)), Samples.rod (1/100)⟩,
        ⟨[(1, Samples.slack), (2, ⟨some ⟨false, [Samples.axial 0 1000, Samples.axial (1/50) 0, Samples.axial 1 0]⟩⟩)],
          some (Num.flt (1/2)), Samples.rod (1/100)⟩]⟩, none, 2, [⟨1/100, Samples.steel⟩, ⟨1/100, Samples.steel⟩],
        90/100, 85/100, 1⟩ : AS4100 ℚ).tensionUtilisation Samples.rt .none .none = .ok (1000 / Samples.thinCap) := by
  refine ⟨by decide +kernel, by decide +kernel⟩

end BeamDesign
