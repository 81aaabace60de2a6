import Verif.Lemmas.Mesh
import Verif.Spec.Samples

/-!
# C75, C76, C77: redundant points, cut elements and the beam from its other end
-/

set_option linter.unusedSectionVars false

namespace BeamDesign

open Spec

section
variable {K S : Type} [Field K] [LinearOrder K] [IsStrictOrderedRing K] [FloorRing K]

/-! ## C75 -/

/-- C75: a row lying on the curve of every component can be stored or left out: the load case gives the same answer
for every explicit position and every choice of components. -/
theorem C75_get_load {rt : Rt K} (hx : rt.Exact) (hs : rt.SortOK) (A B : List (LRow K)) (m : LRow K)
    (hw : WellFormed (A ++ B)) (hm : Redundant A m B) (hne : A ++ B ≠ []) (position : PosArg K) (xs : List K)
    (hreq : Requested position xs) (hxs : xs ≠ []) (component : CompArg) (cs : List LComp) (hc : Asks component cs)
    (hcs : cs ≠ []) :
    ∃ tab, (⟨some ⟨false, A ++ B⟩⟩ : LoadCase K).getLoad rt position none component = .ok (some tab) ∧
      (⟨some ⟨false, A ++ m :: B⟩⟩ : LoadCase K).getLoad rt position none component = .ok (some tab) := by
  rw [asks_iff] at hc
  obtain ⟨ps, h1, h2, h3⟩ := requested_listPositions rt (⟨some ⟨false, A ++ B⟩⟩ : LoadCase K) hreq
  obtain ⟨ps', h1', h2', h3'⟩ := requested_listPositions rt (⟨some ⟨false, A ++ m :: B⟩⟩ : LoadCase K) hreq
  have hps : ps' = ps := by
    have := h1'.symm.trans ((?_ : _ = _).trans h1)
    · exact Except.ok.inj this
    · rcases hreq with ⟨x, rfl, -⟩ | ⟨l, rfl, -⟩ <;> rfl
  subst hps
  have hps0 : ps' ≠ [] := by
    rintro rfl
    obtain ⟨x, hx'⟩ := List.exists_mem_of_ne_nil xs hxs
    simpa using (h3 x).2 hx'
  refine ⟨_, getLoad_eq hs hw hne h1 h2 hps0 hc hcs, ?_⟩
  rw [getLoad_eq hs (insert_wf hm hw) (by simp) h1' h2 hps0 hc hcs]
  congr 3
  · simp [answerDType]
  · rw [funext (block_insert hx hm hw.1 hne cs)]

/-- C75: the same for a beam: the loads it reports at explicit positions do not change when such a row is added to
the table of one of its elements. -/
theorem C75_get_loads {rt : Rt K} (hx : rt.Exact) (hs : rt.SortOK) (pre post : List (Element K S)) (e e' : Element K S)
    (k : ℤ) (ls : List (Num K)) (h : HasLengths (⟨pre ++ e :: post⟩ : Beam K S) ls) (hpos : ∀ l ∈ ls, 0 < l.val)
    (hb : LoadedFloat (⟨pre ++ e :: post⟩ : Beam K S) k) (A B : List (LRow K)) (m : LRow K)
    (hm : Redundant A m B) (hlen : e'.length = e.length) (ht : TableOf k e (A ++ B)) (ht' : TableOf k e' (A ++ m :: B))
    (position : PosArg K) (xs : List K) (hreq : Requested position xs) (hxs : xs ≠ [])
    (hin : ∀ x ∈ xs, 0 ≤ x ∧ x ≤ total ls) (component : CompArg) (cs : List LComp) (hc : Asks component cs)
    (hcs : cs ≠ []) :
    ∃ tab, (⟨pre ++ e :: post⟩ : Beam K S).getLoads rt k position none component = .ok (some tab) ∧
      (⟨pre ++ e' :: post⟩ : Beam K S).getLoads rt k position none component = .ok (some tab) := by
  rw [asks_iff] at hc
  obtain ⟨es, h1, h2⟩ := segs_exist hb h hpos
  obtain ⟨ps, ⟨rows, l⟩, qs, rfl, h3, h4, h5⟩ := segs_split h1
  have hrows : rows = A ++ B := by
    have := h4.2.2.1.symm.trans ht
    simpa using this
  subst hrows
  have h4' : SegOf k e' (A ++ m :: B, l) :=
    ⟨hlen ▸ h4.1, h4.2.1, ht', insert_wf hm h4.2.2.2.1, by simp⟩
  refine getLoads_replace hx hs h3 (List.Forall₂.cons h4 List.Forall₂.nil) (List.Forall₂.cons h4' List.Forall₂.nil) h5
    (by simp) (by simp) (by simp) hc hcs hreq hxs ?_ ?_
  · intro x hx'
    have := hin x hx'
    unfold total at this
    rw [← h2] at this
    simpa using this
  · intro x _
    simp only [ansAt, segAt, funext (block_insert hx hm h4.2.2.2.1.1 h4.2.2.2.2 cs)]

/-! ## C76 -/

/-- C76: cutting an element in two at a stored position, without changing the loads on either side, changes nothing in
what the beam reports at explicit positions.  At the cut itself this needs the table to have two rows there. -/
theorem C76_cut {rt : Rt K} (hx : rt.Exact) (hs : rt.SortOK) (pre post : List (Element K S)) (e e1 e2 : Element K S)
    (k : ℤ) (ls : List (Num K)) (h : HasLengths (⟨pre ++ e :: post⟩ : Beam K S) ls) (hpos : ∀ l ∈ ls, 0 < l.val)
    (hb : LoadedFloat (⟨pre ++ e :: post⟩ : Beam K S) k) (s l : K) (M : List (LRow K)) (hcut : CutInto k s l M e e1 e2)
    (position : PosArg K) (xs : List K) (hreq : Requested position xs) (hxs : xs ≠ [])
    (hin : ∀ x ∈ xs, 0 ≤ x ∧ x ≤ total ls)
    (hat : M.length = 2 ∨ ∀ x ∈ xs, x ≠ startOf ls pre.length + s * l)
    (component : CompArg) (cs : List LComp) (hc : Asks component cs) (hcs : cs ≠ []) :
    ∃ tab, (⟨pre ++ e :: post⟩ : Beam K S).getLoads rt k position none component = .ok (some tab) ∧
      (⟨pre ++ e1 :: e2 :: post⟩ : Beam K S).getLoads rt k position none component = .ok (some tab) := by
  rw [asks_iff] at hc
  obtain ⟨es, h1, h2⟩ := segs_exist hb h hpos
  obtain ⟨ps, ⟨rows, l'⟩, qs, rfl, h3, h4, h5⟩ := segs_split h1
  obtain ⟨hs0, hs1, hl, ⟨n, hn, rfl⟩, hl1, hl2, A, B, first, last, hM, hM', hA, hMs, hB, t, t1, t2⟩ := hcut
  have hrows : rows = A ++ M ++ B := by
    have := h4.2.2.1.symm.trans t
    simpa using this
  have hl' : l' = n.val := by
    obtain ⟨n', hn', hv⟩ := h4.1
    rw [hn] at hn'
    cases hn'
    exact hv.symm
  subst hrows hl'
  obtain ⟨g1, g2⟩ := cut_segs hs0 hs1 hl hl1 hl2 hM hM' hA hMs hB h4.2.2.2.1 t1 t2
  refine getLoads_replace hx hs h3 (List.Forall₂.cons h4 List.Forall₂.nil)
    (List.Forall₂.cons g1 (List.Forall₂.cons g2 List.Forall₂.nil)) h5
    (by simp) (by simp) (by simp; ring) hc hcs hreq hxs ?_ ?_
  · intro x hx'
    have := hin x hx'
    unfold total at this
    rw [← h2] at this
    simpa using this
  · intro x hx'
    simp only [ansAt, List.append_nil, zero_add]
    refine segAt_cut hx hs0 hs1 hl hM hM' hA hMs hB h4.2.2.2.1.1 cs ?_
    rcases hat with hat | hat
    · exact Or.inr hat
    · refine Or.inl ?_
      have := hat x hx'
      rwa [segStart_eq h2.symm, segStart, h3.length_eq, List.take_left'] at this
      rfl

/-- C76: an element can be cut anywhere: with a row on the curve at the cut, given to both parts, the beam reports the
same at all other positions. -/
theorem C76_cut_anywhere {rt : Rt K} (hx : rt.Exact) (hs : rt.SortOK) (pre post : List (Element K S))
    (e e1 e2 : Element K S)
    (k : ℤ) (ls : List (Num K)) (h : HasLengths (⟨pre ++ e :: post⟩ : Beam K S) ls) (hpos : ∀ l ∈ ls, 0 < l.val)
    (hb : LoadedFloat (⟨pre ++ e :: post⟩ : Beam K S) k) (A B : List (LRow K)) (m : LRow K)
    (hm : Redundant A m B) (hm0 : 0 < m.pos) (hm1 : m.pos < 1) (n n1 n2 : Num K)
    (hn : e.length = some n) (hn1 : e1.length = some n1) (hn2 : e2.length = some n2)
    (hv1 : n1.val = m.pos * n.val) (hv2 : n2.val = (1 - m.pos) * n.val)
    (ht : TableOf k e (A ++ B)) (ht1 : TableOf k e1 ((A ++ [m]).map (placed fun x => x / m.pos)))
    (ht2 : TableOf k e2 ((m :: B).map (placed fun x => (x - m.pos) / (1 - m.pos))))
    (position : PosArg K) (xs : List K) (hreq : Requested position xs) (hxs : xs ≠ [])
    (hin : ∀ x ∈ xs, 0 ≤ x ∧ x ≤ total ls) (hat : ∀ x ∈ xs, x ≠ startOf ls pre.length + m.pos * n.val)
    (component : CompArg) (cs : List LComp) (hc : Asks component cs) (hcs : cs ≠ []) :
    ∃ tab, (⟨pre ++ e :: post⟩ : Beam K S).getLoads rt k position none component = .ok (some tab) ∧
      (⟨pre ++ e1 :: e2 :: post⟩ : Beam K S).getLoads rt k position none component = .ok (some tab) := by
  -- the element with the row at the cut
  let e' : Element K S := ⟨[(k, ⟨some ⟨false, A ++ m :: B⟩⟩)], e.length, e.sect⟩
  have ht' : TableOf k e' (A ++ m :: B) := by simp [TableOf, e', List.lookup]
  obtain ⟨tab, h1, h2⟩ := C75_get_loads hx hs pre post e e' k ls h hpos hb A B m hm rfl ht ht' position xs hreq hxs hin
    component cs hc hcs
  obtain ⟨es, g1, g2⟩ := segs_exist hb h hpos
  obtain ⟨ps, ⟨rows, l'⟩, qs, rfl, g3, g4, g5⟩ := segs_split g1
  have hrows : rows = A ++ B := by
    have := g4.2.2.1.symm.trans ht
    simpa using this
  subst hrows
  have g4' : SegOf k e' (A ++ m :: B, l') := ⟨g4.1, g4.2.1, ht', insert_wf hm g4.2.2.2.1, by simp⟩
  have hl' : l' = n.val := by
    obtain ⟨n', hn', hv⟩ := g4.1
    rw [hn] at hn'
    cases hn'
    exact hv.symm
  have hb' : LoadedFloat (⟨pre ++ e' :: post⟩ : Beam K S) k :=
    segs_loaded (List.rel_append g3 (List.Forall₂.cons g4' g5))
  have hh' : HasLengths (⟨pre ++ e' :: post⟩ : Beam K S) ls := by
    refine ⟨?_, h.2⟩
    have h0 := h.1
    rw [← List.forall₂_map_left_iff (f := fun e : Element K S => e.length) (R := fun a l => a = some l)] at h0 ⊢
    simpa [e'] using h0
  obtain ⟨tab', h3, h4⟩ := C76_cut hx hs pre post e' e1 e2 k ls hh' hpos hb' m.pos n.val [m]
    ⟨hm0, hm1, hl' ▸ g4.2.1, ⟨n, hn, rfl⟩, ⟨n1, hn1, hv1⟩, ⟨n2, hn2, hv2⟩, A, B, m, m, rfl, rfl, hm.2.2.1,
      by simp, hm.2.2.2.1, by simpa using ht', ht1, ht2⟩
    position xs hreq hxs hin (Or.inr hat) component cs hc hcs
  rw [h2] at h3
  cases h3
  exact ⟨tab, h1, h4⟩

/-! ## C77 -/

/-- C77: describing the beam from its other end - elements in the opposite order, tables turned round - gives the same
loads from the other end: at the position `L - x` what was reported at `x`, in the opposite order. -/
theorem C77_mirror {rt : Rt K} (hx : rt.Exact) (hs : rt.SortOK) (b : Beam K S) (els' : List (Element K S)) (k : ℤ)
    (ls : List (Num K)) (h : HasLengths b ls) (hls : ls ≠ []) (hpos : ∀ l ∈ ls, 0 < l.val) (hb : LoadedFloat b k)
    (hm : List.Forall₂ (Mirrored k) b.elements els')
    (position position' : PosArg K) (xs : List K) (hreq : Requested position xs)
    (hreq' : Requested position' (xs.map fun x => total ls - x)) (hxs : xs ≠ [])
    (hin : ∀ x ∈ xs, 0 ≤ x ∧ x ≤ total ls) (component : CompArg) (cs : List LComp) (hc : Asks component cs)
    (hcs : cs ≠ []) :
    ∃ tab, b.getLoads rt k position none component = .ok (some tab) ∧
      (⟨els'.reverse⟩ : Beam K S).getLoads rt k position' none component = .ok (some (mirrorTab (total ls) tab)) := by
  rw [asks_iff] at hc
  obtain ⟨es, h1, h2⟩ := segs_exist (els := b.elements) hb h hpos
  have hes : ∀ s ∈ es, 0 < s.2 ∧ WellFormed s.1 ∧ s.1 ≠ [] := by
    intro s hs
    obtain ⟨e, -, he⟩ := forall₂_mem_right h1 hs
    exact ⟨he.2.1, he.2.2.2.1, he.2.2.2.2⟩
  have hes0 : es ≠ [] := by
    rintro rfl
    exact hls (List.map_eq_nil_iff.1 h2.symm)
  have htot : total ls = (es.map (·.2)).sum := by unfold total; rw [h2]
  have h1' : List.Forall₂ (SegOf k) els' (es.map mirrorSeg) := by
    clear hes hes0 h2 htot h hb
    generalize b.elements = els at h1 hm
    induction hm generalizing es with
    | nil =>
      rw [List.forall₂_nil_left_iff] at h1
      subst h1
      exact List.Forall₂.nil
    | @cons e e' els els' g1 _ ih =>
      cases h1 with
      | @cons _ s _ es g2 g3 =>
        refine List.Forall₂.cons ?_ (ih es g3)
        obtain ⟨⟨n, n', q1, q2, q3⟩, q4⟩ := g1
        obtain ⟨⟨m, m1, m2⟩, m3, m4, m5, m6⟩ := g2
        rw [q1] at m1
        cases m1
        exact ⟨⟨n', q2, q3.trans m2⟩, m3, q4 _ m4, mirror_wf m5, by simpa [mirrorSeg, mirrorRows] using m6⟩
  refine ⟨_, getLoads_segs hx hs h1 hes0 hc hcs hreq hxs (htot ▸ hin), ?_⟩
  have hsum : (((es.map mirrorSeg).reverse).map (·.2)).sum = (es.map (·.2)).sum := by
    rw [List.map_reverse, List.sum_reverse, List.map_map]
    rfl
  rw [getLoads_segs (b := ⟨els'.reverse⟩) (es := (es.map mirrorSeg).reverse) hx hs (List.rel_reverse h1') (by simpa using hes0) hc hcs hreq' (by simpa using hxs) (by
    intro y hy
    obtain ⟨x, hx', rfl⟩ := List.mem_map.1 hy
    have := hin x hx'
    rw [hsum, ← htot]
    constructor <;> linarith [this.1, this.2])]
  unfold mirrorTab
  congr 3
  rw [asc_mirror]
  have hmap : ∀ x, ansAt rt cs (total ls - x) 0 (es.map mirrorSeg).reverse =
      ((ansAt rt cs x 0 es).map fun r => (total ls - r.1, r.2)).reverse := by
    intro x
    have := ansAt_mirror hx es hes cs (total ls) 0 x
    rw [htot, sub_zero, sub_self, ← htot] at this
    exact this
  have hcells : ∀ rows : List (Row K), ((cells rows).map fun r => (total ls - r.1, r.2)).reverse =
      cells ((rows.map fun r => (total ls - r.1, r.2)).reverse) := by
    intro rows
    simp [cells, List.map_reverse]
  rw [hcells]
  congr 1
  generalize asc xs = ys
  induction ys with
  | nil => rfl
  | cons y ys ih =>
    simp only [List.map_cons, List.reverse_cons, List.flatMap_append, List.flatMap_cons, List.flatMap_nil,
      List.append_nil, List.map_append, List.reverse_append, ih, hmap]

end

/-! ## Cases meeting the hypotheses -/

section
open Samples

/-- Axial load 0, 6 at the ends, with a step from 2 to 4 at a quarter. -/
def meshA : List (LRow ℚ) := [⟨0, 0, 0, 0, 0, 0, 0⟩, ⟨1/4, 0, 0, 2, 0, 0, 0⟩]
def meshB : List (LRow ℚ) := [⟨1/4, 0, 0, 4, 0, 0, 0⟩, ⟨1, 1, 0, 6, 0, 0, 0⟩]
def meshM : LRow ℚ := ⟨1/2, 1/3, 0, 14/3, 0, 0, 0⟩

/-- An element with load case 1 only. -/
def meshE (rows : List (LRow ℚ)) (l : ℚ) : Element ℚ Unit := ⟨[(1, ⟨some ⟨false, rows⟩⟩)], some (Num.flt l), ()⟩

theorem mesh_redundant : Redundant (meshA ++ [⟨1/4, 0, 0, 4, 0, 0, 0⟩]) meshM [⟨1, 1, 0, 6, 0, 0, 0⟩] := by
  refine ⟨by decide +kernel, by decide +kernel, by decide +kernel, by decide +kernel, fun c => Or.inr (Or.inr ?_)⟩
  refine ⟨meshA, ⟨1/4, 0, 0, 4, 0, 0, 0⟩, ⟨1, 1, 0, 6, 0, 0, 0⟩, [], rfl, by decide +kernel, by decide +kernel, ?_⟩
  cases c <;> decide +kernel

example : WellFormed ((meshA ++ [⟨1/4, 0, 0, 4, 0, 0, 0⟩]) ++ [⟨1, 1, 0, 6, 0, 0, 0⟩]) := by
  unfold WellFormed meshA
  exact ⟨by decide +kernel, by decide +kernel⟩

/-- The element of length 8 is cut at its step. -/
example : CutInto 1 (1/4) 8 [⟨1/4, 0, 0, 2, 0, 0, 0⟩, ⟨1/4, 0, 0, 4, 0, 0, 0⟩] (meshE (meshA ++ meshB) 8)
    (meshE [⟨0, 0, 0, 0, 0, 0, 0⟩, ⟨1, 0, 0, 2, 0, 0, 0⟩] 2) (meshE [⟨0, 0, 0, 4, 0, 0, 0⟩, ⟨1, 1, 0, 6, 0, 0, 0⟩] 6) := by
  refine ⟨by norm_num, by norm_num, by norm_num, ⟨_, rfl, rfl⟩, ⟨_, rfl, by decide +kernel⟩, ⟨_, rfl, by decide +kernel⟩,
    [⟨0, 0, 0, 0, 0, 0, 0⟩], [⟨1, 1, 0, 6, 0, 0, 0⟩], _, _, rfl, rfl, by decide +kernel, by decide +kernel,
    by decide +kernel, ?_, ?_, ?_⟩ <;> unfold TableOf <;> decide +kernel

/-- Both beams report the same, at the step too. -/
example :
    (⟨[meshE (meshA ++ meshB) 8]⟩ : Beam ℚ Unit).getLoads (Rt.exact ℚ) 1
        (.list [Num.flt 5, Num.flt 1, Num.flt 2]) none (.name "N") =
      .ok (some ⟨.flt, 1, cells [(1, [1]), (2, [2]), (2, [4]), (5, [5])]⟩) ∧
    (⟨[meshE [⟨0, 0, 0, 0, 0, 0, 0⟩, ⟨1, 0, 0, 2, 0, 0, 0⟩] 2, meshE [⟨0, 0, 0, 4, 0, 0, 0⟩, ⟨1, 1, 0, 6, 0, 0, 0⟩] 6]⟩ :
        Beam ℚ Unit).getLoads (Rt.exact ℚ) 1 (.list [Num.flt 5, Num.flt 1, Num.flt 2]) none (.name "N") =
      .ok (some ⟨.flt, 1, cells [(1, [1]), (2, [2]), (2, [4]), (5, [5])]⟩) := by
  decide +kernel

/-- A cut where the table has one row: the row is reported once before and twice after, which is why the position of
the cut is left out of `C76_cut`. -/
example :
    (⟨[meshE [⟨0, 0, 0, 0, 0, 0, 0⟩, ⟨1/2, 0, 0, 3, 0, 0, 0⟩, ⟨1, 0, 0, 4, 0, 0, 0⟩] 2]⟩ : Beam ℚ Unit).getLoads
        (Rt.exact ℚ) 1 (.scalar (Num.flt 1)) none (.name "N") = .ok (some ⟨.flt, 1, cells [(1, [3])]⟩) ∧
    (⟨[meshE [⟨0, 0, 0, 0, 0, 0, 0⟩, ⟨1, 0, 0, 3, 0, 0, 0⟩] 1, meshE [⟨0, 0, 0, 3, 0, 0, 0⟩, ⟨1, 0, 0, 4, 0, 0, 0⟩] 1]⟩ :
        Beam ℚ Unit).getLoads (Rt.exact ℚ) 1 (.scalar (Num.flt 1)) none (.name "N") =
      .ok (some ⟨.flt, 1, cells [(1, [3]), (1, [3])]⟩) := by
  decide +kernel

/-- The step seen from the other end. -/
example : Mirrored 1 (meshE (meshA ++ meshB) 8)
    (meshE [⟨0, 1, 0, 6, 0, 0, 0⟩, ⟨3/4, 0, 0, 4, 0, 0, 0⟩, ⟨3/4, 0, 0, 2, 0, 0, 0⟩, ⟨1, 0, 0, 0, 0, 0, 0⟩] 8) := by
  refine ⟨⟨_, _, rfl, rfl, rfl⟩, ?_⟩
  intro rows h
  have : rows = meshA ++ meshB := by
    unfold TableOf meshE at h
    simpa [List.lookup] using h.symm
  subst this
  unfold TableOf
  decide +kernel

example :
    (⟨[meshE [⟨0, 1, 0, 6, 0, 0, 0⟩, ⟨3/4, 0, 0, 4, 0, 0, 0⟩, ⟨3/4, 0, 0, 2, 0, 0, 0⟩, ⟨1, 0, 0, 0, 0, 0, 0⟩] 8]⟩ :
        Beam ℚ Unit).getLoads (Rt.exact ℚ) 1 (.list [Num.flt 3, Num.flt 7, Num.flt 6]) none (.name "N") =
      .ok (some ⟨.flt, 1, cells [(3, [5]), (6, [4]), (6, [2]), (7, [1])]⟩) := by
  decide +kernel

end

end BeamDesign
