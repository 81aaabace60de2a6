import Verif.Props.Peak
import Verif.Lemmas.Mesh
import Verif.Spec.Divided

/-!
# The utilisation at a position of a beam, in terms of its elements: lemmas for C132
-/

set_option linter.unusedSectionVars false

namespace BeamDesign

open Spec

variable {K : Type} [Field K] [LinearOrder K] [IsStrictOrderedRing K] [FloorRing K]

/-- The sections at the beam position `p` of elements starting at `off`. -/
def sectsAt {S : Type} (p : K) : K → List (S × K) → List S
  | _, [] => []
  | off, s :: es => (if off ≤ p ∧ p ≤ off + s.2 then [s.1] else []) ++ sectsAt p (off + s.2) es

theorem sectsAt_append {S : Type} (p off : K) (es fs : List (S × K)) :
    sectsAt p off (es ++ fs) = sectsAt p off es ++ sectsAt p (off + (es.map (·.2)).sum) fs := by
  induction es generalizing off with
  | nil => simp [sectsAt]
  | cons s es ih => simp [sectsAt, ih, add_assoc]

theorem mem_sectsAt {S : Type} (p off : K) (es : List (S × K)) (s : S) :
    s ∈ sectsAt p off es ↔ ∃ (i : ℕ) (l : K), es[i]? = some (s, l) ∧ off + ((es.take i).map (·.2)).sum ≤ p ∧
      p ≤ off + ((es.take (i + 1)).map (·.2)).sum := by
  induction es generalizing off with
  | nil => simp [sectsAt]
  | cons e es ih =>
    obtain ⟨e1, e2⟩ := e
    simp only [sectsAt, List.mem_append, ih]
    constructor
    · rintro (h | ⟨i, l, h1, h2, h3⟩)
      · split_ifs at h with hh
        · rw [List.mem_singleton.1 h]
          exact ⟨0, e2, rfl, by simpa using hh.1, by simpa using hh.2⟩
        · cases h
      · refine ⟨i + 1, l, by simpa using h1, ?_, ?_⟩
        · simpa [add_assoc] using h2
        · simpa [add_assoc] using h3
    · rintro ⟨i, l, h1, h2, h3⟩
      cases i with
      | zero =>
        left
        simp only [List.getElem?_cons_zero, Option.some.injEq, Prod.mk.injEq] at h1
        rw [if_pos ⟨by simpa using h2, by simpa using h3⟩, h1.1]
        simp
      | succ i =>
        right
        refine ⟨i, l, by simpa using h1, ?_, ?_⟩
        · simpa [add_assoc] using h2
        · simpa [add_assoc] using h3

theorem zip_take_sum {S : Type} (es : List S) (ls : List (Num K)) (h : es.length = ls.length) (i : ℕ) :
    (((es.zip (ls.map (·.val))).take i).map (·.2)).sum = startOf ls i := by
  unfold startOf
  rw [List.map_take, List.map_take]
  congr 2
  exact List.map_snd_zip (by simp [h])

theorem atPosition_iff {b : Beam K (Sect K)} {ls : List (Num K)} (h : HasLengths b ls) (p : K) (d : DSect K) :
    AtPosition b ls p d ↔
      Sect.circle d.radius (some d.material) ∈ sectsAt p 0 ((b.elements.map fun e => e.sect).zip (ls.map (·.val))) := by
  have hlen : (b.elements.map fun e => e.sect).length = ls.length := by simpa using h.1.length_eq
  rw [mem_sectsAt]
  simp only [zip_take_sum _ ls hlen, zero_add]
  constructor
  · rintro ⟨i, e, ⟨h1, h2, h3⟩, h4, h5⟩
    refine ⟨i, ls[i].val, ?_, h2, h3⟩
    rw [List.getElem?_zip_eq_some]
    exact ⟨by simp [h4, h5], by simp [h1]⟩
  · rintro ⟨i, l, h1, h2, h3⟩
    rw [List.getElem?_zip_eq_some] at h1
    obtain ⟨h4, h5⟩ := h1
    rw [List.getElem?_map, Option.map_eq_some_iff] at h4
    obtain ⟨e, h6, h7⟩ := h4
    rw [List.getElem?_map, Option.map_eq_some_iff] at h5
    obtain ⟨l', h8, -⟩ := h5
    exact ⟨i, e, ⟨(List.getElem?_eq_some_iff.1 h8).1, h2, h3⟩, h6, h7⟩

/-- The tensions reported at a position. -/
theorem reported_segs {rt : Rt K} (hx : rt.Exact) (hs : rt.SortOK) {o : AS4100 K} {b : Beam K (Sect K)} {c : ℤ}
    (hb : o.beam = some b) {es : List (Seg K)} (h : List.Forall₂ (SegOf c) b.elements es) (hes : es ≠ []) {p : K}
    (hp : 0 ≤ p ∧ p ≤ (es.map (·.2)).sum) (t : K) :
    Reported rt o c (Num.flt p) t ↔ ∃ n, (p, [n]) ∈ ansAt rt [.N] p 0 es ∧ t = if n < 0 then 0 else n := by
  obtain ⟨ls, hls, hv⟩ := segs_lengths h
  have hls0 : ls ≠ [] := by
    rintro rfl
    exact hes (List.map_eq_nil_iff.1 hv.symm)
  have hin : 0 ≤ p ∧ p ≤ total ls := by unfold total; rw [hv]; exact hp
  have hreq : Requested (.scalar (Num.flt p)) [p] := Or.inl ⟨p, rfl, rfl⟩
  obtain ⟨dt, rows, -, -, -, -, -, -, hg, ht⟩ := C31_beam hx hs o b hb ls hls hls0 c (segs_loaded h) (.scalar (Num.flt p)) [p]
    hreq (by simp) (by simpa using hin)
  have hg' : o.getLoads rt c (.scalar (Num.flt p)) none (.name "N")
      = b.getLoads rt c (.scalar (Num.flt p)) none (.name "N") := by
    simp [AS4100.getLoads, hb]
  rw [hg', getLoads_segs hx hs h hes (cs := [.N]) rfl (by simp) hreq (by simp) (by simpa using hp)] at hg
  have e1 : o.getTension rt c (.scalar (Num.flt p)) none = .ok ⟨dt, 1,
      (rows.map fun r => (r.1, if r.2 < 0 then 0 else r.2)).map fun r => (r.1, [some r.2])⟩ := by
    rw [ht, List.map_map]; rfl
  rw [reported_iff e1]
  have hrows : cells (ansAt rt [.N] p 0 es) = rows.map fun r => (r.1, [some r.2]) := by
    have hasc : asc [p] = [p] := rfl
    simp only [hasc, List.flatMap_cons, List.flatMap_nil, List.append_nil, Except.ok.injEq, Option.some.injEq,
      Tab.mk.injEq] at hg
    exact hg.2.2
  have hpos : ∀ r ∈ ansAt rt [.N] p 0 es, r.1 = p := by
    intro r hr
    rw [ansAt_range] at hr
    obtain ⟨i, -, hr⟩ := List.mem_flatMap.1 hr
    split at hr
    · unfold segAt at hr
      split_ifs at hr
      · obtain ⟨q, -, rfl⟩ := List.mem_map.1 hr
        rfl
      · cases hr
    · cases hr
  constructor
  · rintro ⟨r, hr, rfl⟩
    obtain ⟨q, hq, rfl⟩ := List.mem_map.1 hr
    have : (q.1, [some q.2]) ∈ cells (ansAt rt [.N] p 0 es) := hrows ▸ List.mem_map_of_mem hq
    obtain ⟨w, hw, he⟩ := List.mem_map.1 this
    refine ⟨q.2, ?_, rfl⟩
    have hwp := hpos w hw
    obtain ⟨w1, w2⟩ := w
    simp only [Prod.mk.injEq] at he hwp
    obtain ⟨-, he⟩ := he
    have : w2 = [q.2] := by
      cases w2 with
      | nil => cases he
      | cons x y =>
        cases y with
        | nil => simpa using he
        | cons _ _ => simp at he
    rw [← this, ← hwp]
    exact hwp ▸ hw
  · rintro ⟨n, hn, rfl⟩
    have : (p, [some n]) ∈ rows.map fun r => (r.1, [some r.2]) := hrows ▸ List.mem_map.2 ⟨_, hn, rfl⟩
    obtain ⟨q, hq, he⟩ := List.mem_map.1 this
    simp only [Prod.mk.injEq, List.cons.injEq, Option.some.injEq, and_true] at he
    exact ⟨_, List.mem_map_of_mem hq, by simp only [he.2]⟩

/-- Two beams with the same tensions and the same sections at a position have the same utilisations there. -/
theorem utilAt_transfer {rt : Rt K} (hx : rt.Exact) (hs : rt.SortOK) {o o' : AS4100 K} {b b' : Beam K (Sect K)}
    {ls ls' : List (Num K)} {c : ℤ} (h : Checked rt o b ls c) (h' : Checked rt o' b' ls' c) (hf : SameFactors o o')
    {es es' : List (Seg K)} (he : List.Forall₂ (SegOf c) b.elements es) (he' : List.Forall₂ (SegOf c) b'.elements es')
    (hes : es ≠ []) (hes' : es' ≠ []) (hl : es.map (·.2) = ls.map (·.val)) (hl' : es'.map (·.2) = ls'.map (·.val))
    {p p' : K} (hp : 0 ≤ p ∧ p ≤ total ls) (hp' : 0 ≤ p' ∧ p' ≤ total ls')
    (hload : ∀ n, (p, [n]) ∈ ansAt rt [.N] p 0 es → (p', [n]) ∈ ansAt rt [.N] p' 0 es')
    (hsect : ∀ s, s ∈ sectsAt p 0 ((b.elements.map fun e => e.sect).zip (ls.map (·.val))) ↔
      s ∈ sectsAt p' 0 ((b'.elements.map fun e => e.sect).zip (ls'.map (·.val)))) {v : K}
    (hv : UtilAt rt o c (Num.flt p) v) : UtilAt rt o' c (Num.flt p') v := by
  obtain ⟨cap, t, h1, h2, rfl⟩ := hv
  obtain ⟨-, m, h3, h4⟩ := defined_of_beam hx hs o b h.beam h.aligned ls h.lengths h.some c h.loaded h.phi h.capacity
    (Num.flt p) rfl hp
  obtain ⟨-, m', h3', h4'⟩ := defined_of_beam hx hs o' b' h'.beam h'.aligned ls' h'.lengths h'.some c h'.loaded h'.phi
    h'.capacity (Num.flt p') rfl hp'
  have hm : m' = m := by
    refine h4'.unique ?_
    convert h4 using 2
    ext n
    simp only [atPosition_iff h'.lengths, atPosition_iff h.lengths, hf.2.1, hf.2.2, Num.flt, ← hsect]
  rw [h1] at h3
  cases h3
  refine ⟨_, t, by rw [h3', hm, hf.1], ?_, rfl⟩
  have htot : total ls = (es.map (·.2)).sum := by unfold total; rw [hl]
  have htot' : total ls' = (es'.map (·.2)).sum := by unfold total; rw [hl']
  rw [reported_segs hx hs h.beam he hes (htot ▸ hp)] at h2
  rw [reported_segs hx hs h'.beam he' hes' (htot' ▸ hp')]
  obtain ⟨n, hn, rfl⟩ := h2
  exact ⟨n, hload n hn, rfl⟩

/-- A beam on which every utilisation of another is found has no smaller overall utilisation. -/
theorem overall_le {rt : Rt K} (hx : rt.Exact) (hs : rt.SortOK) {o o' : AS4100 K} {b b' : Beam K (Sect K)}
    {ls ls' : List (Num K)} {c : ℤ} (h : Checked rt o b ls c) (h' : Checked rt o' b' ls' c)
    (hut : ∀ p v, 0 ≤ p ∧ p ≤ total ls → UtilAt rt o c (Num.flt p) v →
      ∃ p', (0 ≤ p' ∧ p' ≤ total ls') ∧ UtilAt rt o' c (Num.flt p') v)
    {loadCase loadCase' : CaseArg} (hc : CasesOf o loadCase [c]) (hc' : CasesOf o' loadCase' [c]) {u u' : K}
    (hu : o.tensionUtilisation rt loadCase .none = .ok u) (hu' : o'.tensionUtilisation rt loadCase' .none = .ok u') :
    u ≤ u' := by
  obtain ⟨n, hn⟩ := h.points
  obtain ⟨n', hn'⟩ := h'.points
  obtain ⟨xs, hg, -, -, hin, -⟩ := overall_ok hx hs h.beam h.aligned h.lengths h.some h.float hn h.phi h.capacity hc
    (by simpa using h.loaded) hu
  obtain ⟨xs', hg', hends', hst', -⟩ := overall_ok hx hs h'.beam h'.aligned h'.lengths h'.some h'.float hn' h'.phi h'.capacity
    hc' (by simpa using h'.loaded) hu'
  obtain ⟨k, hk, x, hxm, hv⟩ := hg.1
  obtain rfl : k = c := by simpa using hk
  obtain ⟨p', hp', hv'⟩ := hut x u (hin x hxm) hv
  exact utilAt_le_overall hx hs h'.beam h'.aligned h'.lengths h'.some h'.phi h'.capacity (by simpa using h'.loaded) hg'
    hends' hst' hk (fun i t r ht hr => ⟨t, r, ht, hr, rfl⟩) hp' hv'

end BeamDesign
