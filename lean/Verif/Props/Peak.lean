import Verif.Props.Utilisation
import Verif.Spec.Safe

/-!
# C71, C72: the overall utilisation and the loads between the assessment points
-/

namespace BeamDesign

open Spec

variable {K : Type} [Field K] [LinearOrder K] [IsStrictOrderedRing K] [FloorRing K]

/-- What a value of the overall utilisation means. -/
theorem overall_ok {rt : Rt K} (hx : rt.Exact) (hs : rt.SortOK) {o : AS4100 K} {b : Beam K (Sect K)}
    (hb : o.beam = some b) (ha : Aligned o) {ls : List (Num K)} (h : HasLengths b ls) (hls : ls ≠ [])
    (hflt : ∀ l ∈ ls, l.isInt = false) {n : ℕ} (hn : o.assessmentPoints = n)
    (hphi : 0 < o.phiSteel) (hcap : ∀ d ∈ o.dsects, ∃ n, SectionCapacity rt o.kt o.alphaU d n ∧ 0 < n)
    {loadCase : CaseArg} {c : ℤ} {cs : List ℤ} (hcs : CasesOf o loadCase (c :: cs))
    (hc : ∀ k ∈ c :: cs, LoadedFloat b k) {u : K} (hu : o.tensionUtilisation rt loadCase .none = .ok u) :
    ∃ xs : List K, IsGreatest {v | ∃ k ∈ c :: cs, ∃ x ∈ xs, UtilAt rt o k (Num.flt x) v} u ∧
      (∀ i, i < ls.length → startOf ls i ∈ xs ∧ startOf ls (i + 1) ∈ xs) ∧
      (∀ i l t r, ls[i]? = some l → HasTable b c i t → r ∈ t.rows → startOf ls i + r.pos * l.val ∈ xs) ∧
      (∀ x ∈ xs, 0 ≤ x ∧ x ≤ total ls) ∧
      ∃ locs, b.listPositions rt .none (some (n : ℤ)) (some c) = .ok locs ∧ ∀ x, x ∈ xs ↔ ∃ l ∈ locs, l.pos.val = x := by
  obtain ⟨xs, locs, hlocs, hL, -, hv, hin, -⟩ := C16_min_positions hx b ls h (some c) (by
    rintro k hk i hi
    cases hk
    exact (hc c List.mem_cons_self i hi).imp fun _ h => h.1) n
  obtain ⟨ps, hps, hpm⟩ := listPositions_pos hlocs
  have hfl := positionList_flt h hflt hps
  have hmem : ∀ l ∈ locs, l.pos.val ∈ xs := by
    intro l hl
    obtain ⟨pairs, bl, hp, hbl, rfl⟩ := hL
    obtain ⟨blk, hblk, hl⟩ := List.mem_flatten.1 hl
    obtain ⟨pi, hpi, l', -, he, -⟩ := forall₂_mem_right hbl hblk
    rw [(he l hl).1]
    exact ((hp.2 pi.1 pi.2).1 hpi).1
  have hpos : ∀ l ∈ locs, l.pos = Num.flt l.pos.val := by
    intro l hl
    have := hfl _ (hpm l hl)
    generalize l.pos = p at this ⊢
    cases p
    simp only at this
    rw [this]
    rfl
  have hall : ∀ x ∈ xs, ∃ l ∈ locs, l.pos = Num.flt x := by
    intro x hxm
    obtain ⟨pairs, bl, hp, hbl, rfl⟩ := id hL
    obtain ⟨i, hi⟩ := exists_inElement h.2 hls (hin x hxm).1 (hin x hxm).2
    obtain ⟨blk, hblk, l, -, he, -, -, hne⟩ := forall₂_mem_left hbl ((hp.2 x i).2 ⟨hxm, hi⟩)
    obtain ⟨e, he'⟩ := List.exists_mem_of_ne_nil _ hne
    have hm : e ∈ bl.flatten := List.mem_flatten.2 ⟨blk, hblk, he'⟩
    exact ⟨e, hm, by rw [hpos e hm, (he e he').1]⟩
  have hne : locs ≠ [] := by
    have h0 : (0 : K) ∈ xs := (hv 0).2 (Or.inl ⟨0, List.length_pos_iff.2 hls, Or.inl (by simp [startOf])⟩)
    obtain ⟨l, hl, -⟩ := hall 0 h0
    exact List.ne_nil_of_mem hl
  have hdef : ∀ k ∈ c :: cs, ∀ p ∈ locs.map (fun l => l.pos), Defined rt o k p := by
    intro k hk p hp
    obtain ⟨l, hl, rfl⟩ := List.mem_map.1 hp
    exact (defined_of_beam hx hs o b hb ha ls h hls k (hc k hk) hphi hcap l.pos (hfl _ (hpm l hl))
      (hin _ (hmem l hl))).1
  have hloop := utilisation_of_loop hx o loadCase (c :: cs) hcs .none none rfl (locs.map fun l => l.pos) (by simp)
    (utilLoop_first rt o b hb c cs locs (by rw [hn]; exact hlocs)) (by simp) (by simpa using hne) hdef
  have hsmall : ∀ k ∈ c :: cs, ∀ p ∈ locs.map (fun l => l.pos), ¬ Tiny rt o k p := by
    intro k hk p hp ht
    rw [hloop.2 ⟨k, hk, p, hp, ht⟩] at hu
    cases hu
  obtain ⟨u', hu', hg⟩ := hloop.1 hsmall
  rw [hu] at hu'
  cases hu'
  refine ⟨xs, ?_, fun i hi => ⟨(hv _).2 (Or.inl ⟨i, hi, Or.inl rfl⟩), (hv _).2 (Or.inl ⟨i, hi, Or.inr rfl⟩)⟩,
    fun i l t r hl ht hr => (hv _).2 (Or.inr (Or.inl ⟨i, l, c, t, r, hl, rfl, ht, hr, rfl⟩)), hin, locs, hlocs,
    fun x => ⟨fun hxm => (hall x hxm).imp fun l hl => ⟨hl.1, by rw [hl.2]; rfl⟩, ?_⟩⟩
  swap
  · rintro ⟨l, hl, rfl⟩
    exact hmem l hl
  convert hg using 1
  ext v
  constructor
  · rintro ⟨k, hk, x, hxm, hv⟩
    obtain ⟨l, hl, he⟩ := hall x hxm
    exact ⟨k, hk, l.pos, List.mem_map_of_mem hl, by rw [he]; exact hv⟩
  · rintro ⟨k, hk, p, hp, hv⟩
    obtain ⟨l, hl, rfl⟩ := List.mem_map.1 hp
    exact ⟨k, hk, _, hmem l hl, by rw [← hpos l hl]; exact hv⟩

/-- A stored axial load of an element of non-zero length is reported at its position on the beam. -/
theorem stored_reported {rt : Rt K} (hx : rt.Exact) (hs : rt.SortOK) {o : AS4100 K} {b : Beam K (Sect K)}
    (hb : o.beam = some b) {ls : List (Num K)} (h : HasLengths b ls) (hls : ls ≠ []) {c : ℤ}
    (hc : LoadedFloat b c) {i : ℕ} {l : Num K} {t : Table K} {r : LRow K} (hl : ls[i]? = some l) (h0 : l.val ≠ 0)
    (ht : HasTable b c i t) (hr : r ∈ t.rows) :
    InElement ls (startOf ls i + r.pos * l.val) i ∧
    Reported rt o c (Num.flt (startOf ls i + r.pos * l.val)) (max r.n 0) := by
  have hi : i < ls.length := (List.getElem?_eq_some_iff.1 hl).1
  have hl0 : 0 ≤ l.val := h.2 l (List.mem_of_getElem? hl)
  obtain ⟨e, he, hlk, hwf, htne⟩ := id ht
  have hstep := startOf_succ ls i l hl
  obtain ⟨hr0, hr1⟩ := hwf.2 r hr
  have hin : InElement ls (startOf ls i + r.pos * l.val) i :=
    ⟨hi, le_add_of_nonneg_right (mul_nonneg hr0 hl0), by
      rw [hstep]; exact add_le_add_right (mul_le_of_le_one_left hl0 hr1) _⟩
  refine ⟨hin, ?_⟩
  have hrange : 0 ≤ startOf ls i + r.pos * l.val ∧ startOf ls i + r.pos * l.val ≤ total ls :=
    inElement_range h.2 hin
  obtain ⟨dt, rows, locs, blocks, hL, hB, hfl, -, -, hten⟩ := C31_beam hx hs o b hb ls h hls c hc
    (.scalar (Num.flt (startOf ls i + r.pos * l.val))) [startOf ls i + r.pos * l.val]
    (Or.inl ⟨_, rfl, rfl⟩) (by simp) (by simpa using hrange)
  have e1 : o.getTension rt c (.scalar (Num.flt (startOf ls i + r.pos * l.val))) none = .ok ⟨dt, 1,
      (rows.map fun r => (r.1, if r.2 < 0 then 0 else r.2)).map fun r => (r.1, [some r.2])⟩ := by
    rw [hten, List.map_map]; rfl
  rw [reported_iff e1]
  obtain ⟨pairs, bl, hp, hbl, rfl⟩ := hL
  obtain ⟨blk, hblk, l', hl', hloc, hone, -, -⟩ := forall₂_mem_left hbl
    ((hp.2 (startOf ls i + r.pos * l.val) i).2 ⟨by simp, hin⟩)
  rw [hl] at hl'
  cases hl'
  obtain ⟨en, rfl⟩ := hone h0
  obtain ⟨-, hen, hpe⟩ := hloc en (by simp)
  have hlv : en.loc.val = r.pos := by
    have := add_left_cancel hpe
    exact (mul_right_cancel₀ h0 this).symm
  obtain ⟨rb, hrb, t', ans, ht', hans, rfl⟩ := forall₂_mem_left hB (List.mem_flatten.2 ⟨[en], hblk, List.mem_singleton_self en⟩)
  have htt : t' = t := by
    obtain ⟨e', he', hlk', -⟩ := ht'
    rw [hen, he] at he'
    cases he'
    rw [hlk] at hlk'
    cases hlk'
    rfl
  subst htt
  have hrow : (r.pos, [r.n]) ∈ ans := by
    rcases hans with ⟨-, rfl⟩ | ⟨hnot, -⟩
    · rw [hlv]
      exact List.mem_map.2 ⟨r, List.mem_filter.2 ⟨hr, by simp⟩, rfl⟩
    · exact absurd (by rw [hlv]; exact List.mem_map_of_mem hr) hnot
  have hmem : (en.pos.val, [r.n]) ∈ blocks.flatten :=
    List.mem_flatten.2 ⟨_, hrb, List.mem_map.2 ⟨_, hrow, rfl⟩⟩
  rw [hfl] at hmem
  obtain ⟨q, hq, hqe⟩ := List.mem_map.1 hmem
  simp only [Prod.mk.injEq, List.cons.injEq, and_true] at hqe
  refine ⟨_, List.mem_map_of_mem hq, ?_⟩
  simp only [hqe.2]
  split_ifs with hneg
  · rw [max_eq_right hneg.le]
  · rw [max_eq_left (not_lt.1 hneg)]

/-- No utilisation at a position is above the overall utilisation, in the first load case and in those whose stations
are among its stations. -/
theorem utilAt_le_overall {rt : Rt K} (hx : rt.Exact) (hs : rt.SortOK) {o : AS4100 K} {b : Beam K (Sect K)}
    (hb : o.beam = some b) (ha : Aligned o) {ls : List (Num K)} (h : HasLengths b ls) (hls : ls ≠ [])
    (hphi : 0 < o.phiSteel) (hcap : ∀ d ∈ o.dsects, ∃ n, SectionCapacity rt o.kt o.alphaU d n ∧ 0 < n)
    {c : ℤ} {cs : List ℤ} (hc : ∀ k ∈ c :: cs, LoadedFloat b k) {u : K} {xs : List K}
    (hg : IsGreatest {v | ∃ k ∈ c :: cs, ∃ x ∈ xs, UtilAt rt o k (Num.flt x) v} u)
    (hends : ∀ i, i < ls.length → startOf ls i ∈ xs ∧ startOf ls (i + 1) ∈ xs)
    (hstored : ∀ i l t r, ls[i]? = some l → HasTable b c i t → r ∈ t.rows → startOf ls i + r.pos * l.val ∈ xs)
    {k : ℤ} (hk : k ∈ c :: cs) (hst : StationsOf b c k) {p : K} (hpr : 0 ≤ p ∧ p ≤ total ls) {v : K}
    (hut : UtilAt rt o k (Num.flt p) v) : v ≤ u := by
  have hdef := fun p (hp : 0 ≤ p ∧ p ≤ total ls) =>
    defined_of_beam hx hs o b hb ha ls h hls k (hc k hk) hphi hcap (Num.flt p) rfl hp
  by_cases hpx : p ∈ xs
  · exact hg.2 ⟨k, hk, p, hpx, hut⟩
  obtain ⟨cap, t, hcp, ht, rfl⟩ := hut
  obtain ⟨-, m, hphim, hm⟩ := hdef p hpr
  rw [hphim] at hcp
  cases hcp
  obtain ⟨i, tab, hi, htab, -, -, r, hr, -, htr⟩ := reported_bounds hx hs o b hb ls h hls k (hc k hk) (Num.flt p)
    rfl hpr t ht
  obtain ⟨l, hl⟩ : ∃ l, ls[i]? = some l := ⟨_, List.getElem?_eq_getElem hi.1⟩
  have hstep := startOf_succ ls i l hl
  have h0 : l.val ≠ 0 := by
    intro h0
    rw [h0, add_zero] at hstep
    apply hpx
    have hpe : p = startOf ls i := le_antisymm (by have := hi.2.2; rwa [hstep] at this) hi.2.1
    rw [hpe]
    exact (hends i hi.1).1
  obtain ⟨hiq, hrep⟩ := stored_reported hx hs hb h hls (hc k hk) hl h0 htab hr
  set q := startOf ls i + r.pos * l.val with hq
  obtain ⟨-, m', hphim', hm'⟩ := hdef q (inElement_range h.2 hiq)
  have hle : m' ≤ m := by
    obtain ⟨d, ⟨j, e, hj, he, hes⟩, hd⟩ := hm.1
    have hji : j = i := by
      rcases lt_trichotomy j i with hlt | rfl | hlt
      · exfalso
        apply hpx
        have h1 : startOf ls (j + 1) ≤ startOf ls i := startOf_mono h.2 hlt
        have : p = startOf ls i := le_antisymm (hj.2.2.trans h1) hi.2.1
        rw [this]
        exact (hends i hi.1).1
      · rfl
      · exfalso
        apply hpx
        have h1 : startOf ls (i + 1) ≤ startOf ls j := startOf_mono h.2 hlt
        have : p = startOf ls (i + 1) := le_antisymm hi.2.2 (h1.trans hj.2.1)
        rw [this]
        exact (hends i hi.1).2
    subst hji
    exact hm'.2 ⟨d, ⟨j, e, hiq, he, hes⟩, hd⟩
  have hcap' : 0 < o.phiSteel * m' := by
    obtain ⟨⟨cap', -, -, hcp', hpos, -⟩, -⟩ := hdef q (inElement_range h.2 hiq)
    rw [hphim'] at hcp'
    cases hcp'
    exact hpos
  obtain ⟨t', r', ht', hr', hrr⟩ := hst i tab r htab hr
  have hqx := hstored i l t' r' hl ht' hr'
  rw [hrr] at hqx
  have hup := hg.2 ⟨k, hk, q, hqx, _, _, hphim', hrep, rfl⟩
  have hu0 : 0 ≤ u := by
    refine le_trans ?_ hup
    split_ifs with h1
    · exact le_rfl
    · exact div_nonneg (le_max_right _ _) hcap'.le
  split_ifs with h1
  · exact hu0
  · have hpos : 0 < max r.n 0 := (not_le.1 h1).trans_le htr
    rw [if_neg (not_le.2 hpos)] at hup
    refine le_trans ?_ hup
    exact div_le_div₀ hpos.le htr hcap' (mul_le_mul_of_nonneg_left hle hphi.le)

/-- C71: no peak is missed.  In the (first) load case, the utilisation at no position of the beam is above the overall
utilisation. -/
theorem C71_no_missed_peak {rt : Rt K} (hx : rt.Exact) (hs : rt.SortOK) (o : AS4100 K) (b : Beam K (Sect K))
    (hb : o.beam = some b) (ha : Aligned o) (ls : List (Num K)) (h : HasLengths b ls) (hls : ls ≠ [])
    (hflt : ∀ l ∈ ls, l.isInt = false) (n : ℕ) (hn : o.assessmentPoints = n)
    (hphi : 0 < o.phiSteel) (hcap : ∀ d ∈ o.dsects, ∃ n, SectionCapacity rt o.kt o.alphaU d n ∧ 0 < n)
    (loadCase : CaseArg) (c : ℤ) (cs : List ℤ) (hcs : CasesOf o loadCase (c :: cs))
    (hc : ∀ k ∈ c :: cs, LoadedFloat b k) (u : K) (hu : o.tensionUtilisation rt loadCase .none = .ok u)
    (position : PosArg K) (ps : List K) (hps : PositionsOf position (ps.map Num.flt))
    (hin : ∀ p ∈ ps, 0 ≤ p ∧ p ≤ total ls) (v : K) (hv : o.tensionUtilisation rt (.one c) position = .ok v) :
    v ≤ u := by
  obtain ⟨xs, hg, hends, hstored, hxs, -⟩ := overall_ok hx hs hb ha h hls hflt hn hphi hcap hcs hc hu
  have hcm : c ∈ c :: cs := List.mem_cons_self
  have hdef := fun p (hp : 0 ≤ p ∧ p ≤ total ls) =>
    defined_of_beam hx hs o b hb ha ls h hls c (hc c hcm) hphi hcap (Num.flt p) rfl hp
  have hpne : ps ≠ [] := by
    rintro rfl
    have : o.tensionUtilisation rt (.one c) position = .error .valueError := by
      unfold AS4100.tensionUtilisation
      simp [given_ok hps, AS4100.utilCases, AS4100.utilLoop, AS4100.utilPositions, bind, Except.bind, pure,
        Except.pure, utilFilter, pyMax]
    rw [this] at hv
    cases hv
  have hloop := utilisation_of_loop hx o (.one c) [c] (Or.inr (Or.inl ⟨c, rfl, rfl⟩)) position _ (given_ok hps)
    (ps.map Num.flt) (by rintro _ ⟨⟩; rfl) rfl (by simp) (by simpa using hpne)
    (by
      intro k hk p hp
      obtain ⟨p, hp', rfl⟩ := List.mem_map.1 hp
      rw [List.mem_singleton.1 hk]
      exact (hdef p (hin p hp')).1)
  have hsmall : ∀ k ∈ [c], ∀ p ∈ ps.map Num.flt, ¬ Tiny rt o k p := by
    intro k hk p hp ht
    rw [hloop.2 ⟨k, hk, p, hp, ht⟩] at hv
    cases hv
  obtain ⟨v', hv', hgv⟩ := hloop.1 hsmall
  rw [hv] at hv'
  cases hv'
  obtain ⟨k, hk, p, hp, hut⟩ := hgv.1
  obtain ⟨p, hpm, rfl⟩ := List.mem_map.1 hp
  rw [List.mem_singleton.1 hk] at hut
  exact utilAt_le_overall hx hs hb ha h hls hphi hcap hc hg hends hstored hcm
    (fun i t r ht hr => ⟨t, r, ht, hr, rfl⟩) (hin p hpm) hut

omit [IsStrictOrderedRing K] [FloorRing K] in
theorem atPosition_mem {o : AS4100 K} {b : Beam K (Sect K)} (hb : o.beam = some b) (ha : Aligned o)
    {ls : List (Num K)} {p : K} {d : DSect K} (h : AtPosition b ls p d) : d ∈ o.dsects := by
  obtain ⟨i, e, -, he, hes⟩ := h
  unfold Aligned at ha
  simp only [hb] at ha
  obtain ⟨d', hd', h4, -⟩ := forall₂_mem_left ha (List.mem_map_of_mem (List.mem_of_getElem? he))
  rw [hes] at h4
  obtain ⟨r, mt⟩ := d
  obtain ⟨r', mt'⟩ := d'
  simp only [Sect.circle.injEq, Option.some.injEq] at h4
  obtain ⟨rfl, rfl⟩ := h4
  exact hd'

omit [IsStrictOrderedRing K] [FloorRing K] in
theorem sectionCapacity_unique {rt : Rt K} {kt au : K} {d : DSect K} {n n' : K} (h : SectionCapacity rt kt au d n)
    (h' : SectionCapacity rt kt au d n') : n = n' := by
  obtain ⟨fy, fu, h12, rfl⟩ := h
  obtain ⟨fy', fu', g12, rfl⟩ := h'
  obtain ⟨h1, h2⟩ := strengths_iff.1 h12
  obtain ⟨g1, g2⟩ := strengths_iff.1 g12
  rw [h1] at g1; rw [h2] at g2
  cases g1; cases g2
  rfl

/-- C72: when all sections of the beam have the same capacity, the overall utilisation in one load case is the largest
stored tension over the design capacity (0 without tension), whatever the lengths of the elements and the number of
assessment points. -/
theorem C72_largest_stored {rt : Rt K} (hx : rt.Exact) (hs : rt.SortOK) (o : AS4100 K) (b : Beam K (Sect K))
    (hb : o.beam = some b) (ha : Aligned o) (ls : List (Num K)) (h : HasLengths b ls) (hls : ls ≠ [])
    (hpos : ∀ l ∈ ls, l.isInt = false ∧ 0 < l.val) (n : ℕ) (hn : o.assessmentPoints = n)
    (hphi : 0 < o.phiSteel) (m : K) (hm0 : 0 < m) (hm : ∀ d ∈ o.dsects, SectionCapacity rt o.kt o.alphaU d m)
    (loadCase : CaseArg) (c : ℤ) (hcs : CasesOf o loadCase [c]) (hc : LoadedFloat b c) (u : K)
    (hu : o.tensionUtilisation rt loadCase .none = .ok u) :
    IsGreatest {w | ∃ i t r, HasTable b c i t ∧ r ∈ t.rows ∧ w = max r.n 0 / (o.phiSteel * m)} u := by
  have hcap : ∀ d ∈ o.dsects, ∃ n, SectionCapacity rt o.kt o.alphaU d n ∧ 0 < n := fun d hd => ⟨m, hm d hd, hm0⟩
  have hcall : ∀ k ∈ [c], LoadedFloat b k := by simpa using hc
  obtain ⟨xs, hg, -, hstored, hxs, -⟩ := overall_ok hx hs hb ha h hls (fun l hl => (hpos l hl).1) hn hphi hcap hcs hcall hu
  have hcapAt : ∀ p, 0 ≤ p ∧ p ≤ total ls → o.phiNt rt (.scalar (Num.flt p)) = .ok (o.phiSteel * m) := by
    intro p hp
    obtain ⟨-, m', hphim, hm'⟩ := defined_of_beam hx hs o b hb ha ls h hls c hc hphi hcap (Num.flt p) rfl hp
    obtain ⟨d, hd, hdc⟩ := hm'.1
    rw [hphim, sectionCapacity_unique hdc (hm d (atPosition_mem hb ha hd))]
  have hcp : 0 < o.phiSteel * m := mul_pos hphi hm0
  have hif : ∀ x : K, 0 ≤ x → (if x ≤ 0 then 0 else x / (o.phiSteel * m)) = x / (o.phiSteel * m) := by
    intro x hx
    split_ifs with h1
    · rw [le_antisymm h1 hx, zero_div]
    · rfl
  have hup : ∀ i t r, HasTable b c i t → r ∈ t.rows → max r.n 0 / (o.phiSteel * m) ≤ u := by
    intro i t r ht hr
    obtain ⟨e, he, -⟩ := id ht
    have hi : i < ls.length := by
      rw [← hasLengths_length h]
      exact (List.getElem?_eq_some_iff.1 he).1
    have hl : ls[i]? = some ls[i] := List.getElem?_eq_getElem hi
    obtain ⟨hin, hrep⟩ := stored_reported hx hs hb h hls hc hl (hpos _ (List.getElem_mem hi)).2.ne' ht hr
    have := hg.2 ⟨c, List.mem_cons_self, _, hstored i _ t r hl ht hr, _, _, hcapAt _ (inElement_range h.2 hin), hrep, rfl⟩
    rwa [hif _ (le_max_right _ _)] at this
  refine ⟨?_, ?_⟩
  · obtain ⟨k, hk, x, hxm, cap, t, hcpx, ht, hv⟩ := hg.1
    rw [List.mem_singleton.1 hk] at ht
    rw [hcapAt x (hxs x hxm)] at hcpx
    cases hcpx
    obtain ⟨i, tab, -, htab, r₁, hr₁, r, hr, ht1, ht2⟩ := reported_bounds hx hs o b hb ls h hls c hc (Num.flt x) rfl
      (hxs x hxm) t ht
    rw [hif t ((le_max_right _ _).trans ht1)] at hv
    refine ⟨i, tab, r, htab, hr, le_antisymm ?_ (hup i tab r htab hr)⟩
    rw [hv]
    exact div_le_div_of_nonneg_right ht2 hcp.le
  · rintro w ⟨i, t, r, ht, hr, rfl⟩
    exact hup i t r ht hr

/-- C71, concretely: two rods.  The overall utilisation is that of the tension of 4 in the thin rod. -/
example : ∀ p : ℚ, 0 ≤ p → p ≤ 5 → ∀ v, Samples.obj.tensionUtilisation Samples.rt (.one 7) (.scalar (Num.flt p)) = .ok v →
    v ≤ 4 / Samples.thinCap := by
  intro p h0 h5 v hv
  have hl : total Samples.rodLens = 5 := by decide +kernel
  exact C71_no_missed_peak (Rt.exact_exact ℚ) (Rt.exact_sortOK ℚ) Samples.obj Samples.rods rfl Samples.obj_aligned
    Samples.rodLens Samples.rods_lens (by decide +kernel) (by decide +kernel) 20 rfl (by decide +kernel) obj_capacity_pos
    (.one 7) 7 [] (Or.inr (Or.inl ⟨7, rfl, rfl⟩)) (by simpa using Samples.rods_loaded) _ (by decide +kernel)
    (.scalar (Num.flt p)) [p] (Or.inr ⟨p, rfl, rfl⟩) (by simpa [hl] using ⟨h0, h5⟩) v hv

/-- A rod of length 1 with a narrow peak between the assessment points. -/
theorem peakObj_aligned : Aligned Samples.peakObj := .cons ⟨rfl, rfl⟩ .nil

/-- C72, concretely: the peak is found. -/
example : IsGreatest {w | ∃ i t r, HasTable (⟨[⟨[(1, Samples.slack), (2, Samples.peak)], some (Num.flt 1),
      Samples.rod (1/100)⟩]⟩ : Beam ℚ (Sect ℚ)) 2 i t ∧ r ∈ t.rows ∧ w = max r.n 0 / Samples.thinCap}
    (1000 / Samples.thinCap) := by
  have hcapv : Samples.thinCap = Samples.peakObj.phiSteel * (Samples.thinCap / (90/100)) := by decide +kernel
  rw [hcapv]
  refine C72_largest_stored (Rt.exact_exact ℚ) (Rt.exact_sortOK ℚ) Samples.peakObj _ rfl peakObj_aligned
    [Num.flt 1] ⟨.cons rfl .nil, by decide +kernel⟩ (by decide +kernel) (by decide +kernel) 20 rfl (by decide +kernel)
    _ (by decide +kernel) ?_ (.one 2) 2 (Or.inr (Or.inl ⟨2, rfl, rfl⟩)) ?_ _ (by decide +kernel)
  · intro d hd
    have h : d = ⟨1/100, Samples.steel⟩ := by simpa [Samples.peakObj] using hd
    subst h
    exact ⟨250000000, 410000000, strengths_iff.2 ⟨by decide +kernel, by decide +kernel⟩, by decide +kernel⟩
  · intro i hi
    obtain rfl : i = 0 := by simpa using hi
    refine ⟨_, ⟨_, rfl, rfl, ?_, ?_⟩, rfl⟩
    · refine ⟨by decide +kernel, by decide +kernel⟩
    · simp

end BeamDesign
