import Verif.Props.Capacity
import Verif.Props.UtilRound
import Verif.Spec.Sound

/-!
# Lemmas for C86
-/

set_option linter.unusedSectionVars false

namespace BeamDesign

open Spec

section
variable {K : Type} [Field K] [LinearOrder K] [IsStrictOrderedRing K] [FloorRing K]
variable {rt : Rt K} {rnd : K → K} {one : K → K → Py K}

/-- A loop that finishes has covered every load case, position and reported tension. -/
theorem utilLoop_covers {o : AS4100 K} {ps : List (Num K)} : ∀ {cs : List ℤ} {ret : List (ℤ × Num K × K)},
    o.utilLoopWith one rt (some ps) cs = .ok ret → ∀ k ∈ cs, ∀ p ∈ ps, ∃ cap tab, o.phiNt rt (.scalar p) = .ok cap ∧
      o.getTension rt k (.scalar p) none = .ok tab ∧
      ∀ r ∈ tab.rows, ∃ t rest w, r.2 = some t :: rest ∧ one cap t = .ok w ∧ (k, p, w) ∈ ret := by
  intro cs
  induction cs with
  | nil => intro ret _ k hk; cases hk
  | cons c cs ih =>
    intro ret h k hk p hp
    simp only [AS4100.utilLoopWith, AS4100.utilPositions, bind, Except.bind, pure, Except.pure] at h
    split at h
    · cases h
    next here hhere =>
    split at h
    · cases h
    next rest hrest =>
    cases h
    rcases List.mem_cons.1 hk with rfl | hk
    · obtain ⟨out, hout, hat⟩ := forall₂_mem_left ((mapM_ok_iff _ _ _).1 hhere) hp
      simp only [AS4100.utilAtWith, AS4100.tensionCapacity, bind, Except.bind, pure, Except.pure] at hat
      split at hat
      · cases hat
      next cap hcap =>
      split at hat
      · cases hat
      next tab htab =>
      refine ⟨cap, tab, hcap, htab, ?_⟩
      intro r hr
      obtain ⟨x, hx, hrx⟩ := forall₂_mem_left ((mapM_ok_iff _ _ _).1 hat) hr
      split at hrx
      next t rest' hre =>
        split at hrx
        · cases hrx
        next w hw =>
        cases hrx
        exact ⟨t, rest', w, hre, hw, List.mem_append_left _ (List.mem_flatten.2 ⟨out, hout, hx⟩)⟩
      · cases hrx
    · obtain ⟨cap, tab, h1, h2, h3⟩ := ih hrest k hk p hp
      refine ⟨cap, tab, h1, h2, fun r hr => ?_⟩
      obtain ⟨t, rest', w, h4, h5, h6⟩ := h3 r hr
      exact ⟨t, rest', w, h4, h5, List.mem_append_right _ h6⟩

theorem utilLoopWith_first (o : AS4100 K) (b : Beam K (Sect K)) (hb : o.beam = some b) (c : ℤ) (cs : List ℤ)
    (locs : List (Loc K)) (hl : b.listPositions rt .none (some o.assessmentPoints) (some c) = .ok locs) :
    o.utilLoopWith one rt none (c :: cs) = o.utilLoopWith one rt (some (locs.map fun l => l.pos)) (c :: cs) := by
  simp only [AS4100.utilLoopWith, AS4100.utilPositions, hb, hl, bind, Except.bind, pure, Except.pure]

/-- An overall utilisation is at least the utilisation for every tension reported at every position checked. -/
theorem utilisation_covers {o : AS4100 K} {b : Beam K (Sect K)} (hb : o.beam = some b) {loadCase : CaseArg} {c : ℤ}
    {cs : List ℤ} (hcs : CasesOf o loadCase (c :: cs)) {locs : List (Loc K)}
    (hl : b.listPositions rt .none (some o.assessmentPoints) (some c) = .ok locs) {v : K}
    (hv : o.tensionUtilisationWith one rt loadCase .none = .ok v) {k : ℤ} (hk : k ∈ c :: cs) {l : Loc K} (hlm : l ∈ locs) :
    ∃ cap tab, o.phiNt rt (.scalar l.pos) = .ok cap ∧ o.getTension rt k (.scalar l.pos) none = .ok tab ∧
      ∀ r ∈ tab.rows, ∃ t rest w, r.2 = some t :: rest ∧ one cap t = .ok w ∧ w ≤ v := by
  simp only [AS4100.tensionUtilisationWith, PosArg.given, utilCases_ok hcs, bind, Except.bind,
    utilLoopWith_first o b hb c cs locs hl] at hv
  split at hv
  · cases hv
  next ret hret =>
  obtain ⟨cap, tab, h1, h2, h3⟩ := utilLoop_covers hret k hk l.pos (List.mem_map_of_mem hlm)
  refine ⟨cap, tab, h1, h2, fun r hr => ?_⟩
  obtain ⟨t, rest, w, h4, h5, h6⟩ := h3 r hr
  refine ⟨t, rest, w, h4, h5, (pyMax_ok hv).2 (List.mem_map.2 ⟨(k, l.pos, w), ?_, rfl⟩)⟩
  rcases hcs with rfl | ⟨c', rfl, he⟩ | ⟨rfl, -⟩
  · exact List.mem_filter.2 ⟨h6, by simpa using hk⟩
  · exact List.mem_filter.2 ⟨h6, by rw [he] at hk; simpa using hk⟩
  · exact h6

/-- A stored axial load on the grid is reported at its position on the beam. -/
theorem fstored {b : Beam K (Sect K)} (hr : RoundsTo rt rnd) (hs : rt.SortOK) {ls : List (Num K)}
    (h : HasLengths b ls) (hm : Marks rnd ls) {k : ℤ} (hb : LoadedFloat b k) {i : ℕ} {l : Num K}
    {t : Table K} {r : LRow K} (hl : ls[i]? = some l) (ht : HasTable b k i t) (hrow : r ∈ t.rows)
    (hg : OnGrid rnd ls i r.pos) :
    InElement ls (startOf ls i + r.pos * l.val) i ∧ rnd (startOf ls i + rnd (r.pos * l.val)) = startOf ls i + r.pos * l.val ∧
    ∃ tab, b.getLoads rt k (.scalar (Num.flt (startOf ls i + r.pos * l.val))) none (.name "N") = .ok (some tab) ∧
      (startOf ls i + r.pos * l.val, [some r.n]) ∈ tab.rows := by
  obtain ⟨g1, l', hl', g2, g3⟩ := hg
  rw [hl] at hl'; cases hl'
  obtain ⟨-, hpos, -⟩ := hm.1 l (List.mem_of_getElem? hl)
  have hilt : i < ls.length := (List.getElem?_eq_some_iff.1 hl).1
  have hstep := startOf_succ ls i l hl
  obtain ⟨e1, he1, he2, hwf, hne⟩ := id ht
  obtain ⟨x0, x1⟩ := hwf.2 r hrow
  have hx0 : 0 ≤ r.pos * l.val := mul_nonneg x0 hpos.le
  have hx1 : r.pos * l.val ≤ l.val := mul_le_of_le_one_left hpos.le x1
  have hin : InElement ls (startOf ls i + r.pos * l.val) i := ⟨hilt, by linarith, by linarith⟩
  refine ⟨hin, by rw [g2, g3], ?_⟩
  obtain ⟨out, h1, h2⟩ := C17_marks_partial hr b ls h hm (.scalar (Num.flt (startOf ls i + r.pos * l.val)))
    [startOf ls i + r.pos * l.val] (Or.inl ⟨_, rfl, rfl⟩) (some k) (by simpa using inElement_range h.2 hin)
  obtain ⟨e, he, q1, q2, -, -, l', hl', q3⟩ := listing_ne h2 (List.mem_singleton_self _) hin
  rw [hl] at hl'; cases hl'
  rw [add_sub_cancel_left, g2, mul_div_assoc, div_self hpos.ne', mul_one, g1] at q3
  obtain ⟨blocks, hf, hg⟩ := getLoads_eq (component := .name "N") (cs := [.N]) hs hb rfl (by simp) (List.ne_nil_of_mem he) h1
  refine ⟨_, hg, ?_⟩
  obtain ⟨rows, hrows, t', e', ht', -, hre, -⟩ := forall₂_mem_left hf he
  obtain ⟨e2, he3, he4, -⟩ := ht'
  rw [q2, he1] at he3; cases he3
  rw [he2] at he4; cases he4
  have hin : (r.pos, [r.n]) ∈ block rt t.rows [.N] r.pos := by
    unfold block
    rw [if_pos (List.mem_map_of_mem hrow)]
    exact List.mem_map.2 ⟨r, List.mem_filter.2 ⟨hrow, by simp⟩, rfl⟩
  have hin2 : (startOf ls i + r.pos * l.val, [r.n]) ∈ blocks.flatten := by
    refine List.mem_flatten.2 ⟨rows, hrows, ?_⟩
    rw [hre, q3, q1]
    exact List.mem_map.2 ⟨_, hin, rfl⟩
  unfold cells
  exact List.mem_map.2 ⟨_, hin2, by simp⟩

/-- The utilisation of a stored axial load on the grid is at most the overall one. -/
theorem fcovers (hr : RoundsTo rt rnd) (hs : rt.SortOK) {o : AS4100 K} {b : Beam K (Sect K)} (hb : o.beam = some b)
    {ls : List (Num K)} (h : HasLengths b ls) (hm : Marks rnd ls) {n : ℕ} (hn : o.assessmentPoints = n)
    {loadCase : CaseArg} {c : ℤ} {cs : List ℤ} (hcs : CasesOf o loadCase (c :: cs))
    (hc : ∀ k ∈ c :: cs, LoadedFloat b k) {v : K} (hv : o.tensionUtilisationWith one rt loadCase .none = .ok v) {k : ℤ}
    (hk : k ∈ c :: cs) (hst : StationsOf b c k) {i : ℕ} {l : Num K} {t : Table K} {r : LRow K} (hl : ls[i]? = some l)
    (ht : HasTable b k i t) (hrow : r ∈ t.rows) (hg : OnGrid rnd ls i r.pos) :
    InElement ls (startOf ls i + r.pos * l.val) i ∧
    ∃ cap w, o.phiNt rt (.scalar (Num.flt (startOf ls i + r.pos * l.val))) = .ok cap ∧
      one cap (max r.n 0) = .ok w ∧ w ≤ v := by
  obtain ⟨hin, hgrid, tab, htab, hrt⟩ := fstored hr hs h hm (hc k hk) hl ht hrow hg
  refine ⟨hin, ?_⟩
  obtain ⟨xs, locs, h1, h2, -, h6⟩ := C17_marks_min_partial hr b ls h hm (some c) (by
    rintro k' hk i hi
    cases hk
    obtain ⟨t, ht, -⟩ := hc c List.mem_cons_self i hi
    exact ⟨t, ht⟩) n
  obtain ⟨t', r', ht', hr', hrr⟩ := hst i t r ht hrow
  have hmem := h6 i l c t' r' hl rfl ht' hr'
  rw [hrr, hgrid] at hmem
  obtain ⟨e, he, q1, -⟩ := listing_ne h2 hmem hin
  obtain ⟨ps, hps, hpm⟩ := listPositions_pos h1
  have hfl := positionList_flt h (fun l hl => (hm.1 l hl).1) hps e.pos (hpm e he)
  have hpe : e.pos = Num.flt (startOf ls i + r.pos * l.val) := by
    rw [← q1]
    generalize e.pos = p at hfl
    cases p
    simp only at hfl
    rw [hfl]
    rfl
  obtain ⟨cap, tab', a1, a2, a3⟩ := utilisation_covers hb hcs (by rw [hn]; exact h1) hv hk he
  rw [hpe] at a1 a2
  simp only [AS4100.getTension, hb, htab, bind, Except.bind, pure, Except.pure] at a2
  split at a2
  · cases a2
  next rows hrows =>
  cases a2
  obtain ⟨x, hx, hrx⟩ := forall₂_mem_left ((mapM_ok_iff _ _ _).1 hrows) hrt
  obtain ⟨n', rest, w, b1, b2, b3⟩ := a3 x hx
  refine ⟨cap, w, a1, ?_, b3⟩
  simp only [clampRow] at hrx
  cases hrx
  cases b1
  rw [← b2]
  congr 1
  split_ifs with h0
  · exact max_eq_right h0.le
  · exact max_eq_left (not_lt.1 h0)

end

end BeamDesign
