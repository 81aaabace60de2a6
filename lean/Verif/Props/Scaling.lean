import Verif.Props.Utilisation
import Verif.Lemmas.Congr

set_option linter.unusedSectionVars false
set_option linter.unusedSimpArgs false

/-! # C62: utilisation scales with the axial loads -/

namespace BeamDesign

open Spec

variable {K : Type} [Field K] [LinearOrder K] [IsStrictOrderedRing K] [FloorRing K]

/-! ## Scaling -/

/-- The row with its axial load multiplied. -/
def scaleRow (k : K) (r : LRow K) : LRow K := ⟨r.pos, r.vx, r.vy, k * r.n, r.mx, r.my, r.t⟩

/-- The element with its axial loads multiplied. -/
def scaleElem {S : Type} (k : K) (e : Element K S) : Element K S :=
  ⟨e.loads.map fun l => (l.1, ⟨l.2.loads.map fun t => ⟨t.isInt, t.rows.map (scaleRow k)⟩⟩), e.length, e.sect⟩

theorem scaleN_eq {S : Type} (k : K) (b : Beam K S) : scaleN k b = ⟨b.elements.map (scaleElem k)⟩ := rfl

theorem scale_lookup {S : Type} (k : K) (e : Element K S) (c : ℤ) :
    (scaleElem k e).loads.lookup c =
      (e.loads.lookup c).map fun lc => ⟨lc.loads.map fun t => ⟨t.isInt, t.rows.map (scaleRow k)⟩⟩ := by
  unfold scaleElem
  simp only
  induction e.loads with
  | nil => rfl
  | cons l ls ih =>
    rcases l with ⟨c', lc⟩
    simp only [List.map_cons, List.lookup_cons]
    by_cases h : c == c'
    · simp [h]
    · simp only [Bool.not_eq_true] at h
      simp [h, ih]

theorem scale_loadPositions {S : Type} (k : K) (e : Element K S) (c : ℤ) :
    (scaleElem k e).loadPositions c = e.loadPositions c := by
  unfold Element.loadPositions Element.case
  rw [scale_lookup]
  rcases e.loads.lookup c with _ | ⟨_ | t⟩
  · rfl
  · rfl
  · simp only [Option.map_some, bind, Except.bind, LoadCase.loadPositions, List.map_map]
    rfl

theorem scale_listPositions {S : Type} {rt : Rt K} (k : K) (b : Beam K S) (position : PosArg K) (n c : Option ℤ) :
    (scaleN k b).listPositions rt position n c = b.listPositions rt position n c :=
  listPositions_congr (f := scaleElem k) (fun _ _ => rfl) c (fun e _ k' _ => scale_loadPositions k e k') position n

theorem scale_wf {k : K} {rows : List (LRow K)} (h : WellFormed rows) : WellFormed (rows.map (scaleRow k)) := by
  constructor
  · rw [List.pairwise_map]; exact h.1
  · intro r hr
    obtain ⟨q, hq, rfl⟩ := List.mem_map.1 hr
    exact h.2 q hq

theorem scale_hasTable {S : Type} {k : K} {b : Beam K S} {c : ℤ} {i : ℕ} {t : Table K} (h : HasTable b c i t) :
    HasTable (scaleN k b) c i ⟨t.isInt, t.rows.map (scaleRow k)⟩ := by
  obtain ⟨e, he, hl, hwf, hne⟩ := h
  refine ⟨scaleElem k e, ?_, ?_, scale_wf hwf, by simpa using hne⟩
  · rw [scaleN_eq, List.getElem?_map, he]; rfl
  · rw [scale_lookup, hl]; rfl

theorem scale_loaded {S : Type} {k : K} {b : Beam K S} {c : ℤ} (h : LoadedFloat b c) : LoadedFloat (scaleN k b) c := by
  intro i hi
  obtain ⟨t, ht, hf⟩ := h i (by rw [scaleN_eq, List.length_map] at hi; exact hi)
  exact ⟨_, scale_hasTable ht, hf⟩

theorem scale_lengths {S : Type} {k : K} {b : Beam K S} {ls : List (Num K)} (h : HasLengths b ls) :
    HasLengths (scaleN k b) ls := by
  refine ⟨?_, h.2⟩
  rw [scaleN_eq]
  simp only [List.forall₂_map_left_iff]
  exact h.1

theorem interpGo_scale {rt : Rt K} (hx : rt.Exact) (k x : K) (l : List (K × K)) : ∀ a : K × K,
    interpGo rt x (a.1, k * a.2) (l.map fun r => (r.1, k * r.2)) = k * interpGo rt x a l := by
  induction l with
  | nil => intro a; rfl
  | cons r l ih =>
    intro a
    simp only [List.map_cons, interpGo]
    split_ifs
    · exact ih r
    · rfl
    · simp only [hx.add, hx.mul, hx.div, hx.sub]; ring

theorem interpVal_scale {rt : Rt K} (hx : rt.Exact) (k x : K) {rows : List (LRow K)} (hne : rows ≠ []) :
    interpVal rt (rows.map (scaleRow k)) .N x = k * interpVal rt rows .N x := by
  obtain ⟨a, l, rfl⟩ := List.exists_cons_of_ne_nil hne
  have hl : ((a :: l).map (scaleRow k)).map (fun r => (r.pos, r.get .N)) =
      ((a :: l).map fun r => (r.pos, r.get .N)).map fun r => (r.1, k * r.2) := by
    rw [List.map_map, List.map_map]; rfl
  unfold interpVal
  rw [hl]
  simp only [List.map_cons, npInterp]
  have hlast : ((a.pos, k * a.get .N) :: (l.map fun r => (r.pos, r.get .N)).map fun r => (r.1, k * r.2)).getLast
        (by simp) =
      ((((a.pos, a.get .N) :: l.map fun r => (r.pos, r.get .N)).getLast (by simp)).1,
        k * (((a.pos, a.get .N) :: l.map fun r => (r.pos, r.get .N)).getLast (by simp)).2) := by
    have := List.getLast_map (f := fun r : K × K => (r.1, k * r.2))
      (l := (a.pos, a.get .N) :: l.map fun r => (r.pos, r.get .N)) (by simp)
    exact this
  rw [hlast]
  simp only
  split_ifs
  · rfl
  · rfl
  · exact interpGo_scale hx k x _ (a.pos, a.get .N)

theorem block_scale {rt : Rt K} (hx : rt.Exact) (k x : K) {rows : List (LRow K)} (hne : rows ≠ []) :
    block rt (rows.map (scaleRow k)) [.N] x = (block rt rows [.N] x).map fun r => (r.1, r.2.map (k * ·)) := by
  unfold block
  have hp : (rows.map (scaleRow k)).map (fun r => r.pos) = rows.map fun r => r.pos := by
    rw [List.map_map]; rfl
  rw [hp]
  split_ifs
  · rw [List.filter_map, List.map_map, List.map_map]
    rfl
  · simp [interpVal_scale hx k x hne]

theorem hasTable_unique {S : Type} {b : Beam K S} {c : ℤ} {i : ℕ} {t t' : Table K} (h : HasTable b c i t)
    (h' : HasTable b c i t') : t = t' := by
  obtain ⟨e, he, hl, -⟩ := h
  obtain ⟨e', he', hl', -⟩ := h'
  rw [he] at he'
  cases he'
  rw [hl] at hl'
  cases hl'
  rfl

theorem getLoads_scale {S : Type} {rt : Rt K} (hx : rt.Exact) (hs : rt.SortOK) (k : K) {b : Beam K S} {c : ℤ}
    (hb : LoadedFloat b c) (position : PosArg K) (n : Option ℤ) (locs : List (Loc K)) (hne : locs ≠ [])
    (h : b.listPositions rt position n (some c) = .ok locs) :
    ∃ rows, b.getLoads rt c position n (.name "N") = .ok (some ⟨.flt, 1, cells rows⟩) ∧
      (scaleN k b).getLoads rt c position n (.name "N") =
        .ok (some ⟨.flt, 1, cells (rows.map fun r => (r.1, r.2.map (k * ·)))⟩) := by
  obtain ⟨bl, hf, hg⟩ := getLoads_eq hs hb (component := .name "N") (cs := [.N]) (by decide) (by simp) hne h
  obtain ⟨bl', hf', hg'⟩ := getLoads_eq hs (scale_loaded (k := k) hb) (component := .name "N") (cs := [.N]) (by decide)
    (by simp) hne (by rw [scale_listPositions]; exact h)
  refine ⟨bl.flatten, hg, ?_⟩
  rw [hg']
  have : bl' = bl.map fun rows => rows.map fun r => (r.1, r.2.map (k * ·)) := by
    clear hg hg' h hne
    induction hf generalizing bl' with
    | nil => cases hf'; rfl
    | cons h1 h2 ih =>
      cases hf' with
      | cons h1' h2' =>
        rw [List.map_cons, ← ih _ h2']
        congr 1
        obtain ⟨t, e, ht, he, rfl, -⟩ := h1
        obtain ⟨t', e', ht', he', rfl, -⟩ := h1'
        obtain rfl := hasTable_unique (scale_hasTable (k := k) ht) ht'
        have hne : t.rows ≠ [] := ht.choose_spec.2.2.2
        simp only [block_scale hx k _ hne, List.map_map]
        rfl
  rw [this, List.map_flatten]
  rfl

/-- The scaled utilisation, if there is one or the loads grow. -/
theorem scaling_aux {rt : Rt K} (hx : rt.Exact) (hs : rt.SortOK) (o : AS4100 K) (b : Beam K (Sect K))
    (hb : o.beam = some b) (ha : Aligned o) (ls : List (Num K)) (h : HasLengths b ls) (hls : ls ≠ [])
    (hphi : 0 < o.phiSteel) (hcap : ∀ d ∈ o.dsects, ∃ n, SectionCapacity rt o.kt o.alphaU d n ∧ 0 < n)
    (loadCase : CaseArg) (cs : List ℤ) (hcs : CasesOf o loadCase cs) (hcne : cs ≠ [])
    (hc : ∀ c ∈ cs, LoadedFloat b c) (position : PosArg K) (ps : List K)
    (hps : PositionsOf position (ps.map Num.flt)) (hpne : ps ≠ []) (hin : ∀ p ∈ ps, 0 ≤ p ∧ p ≤ total ls)
    (k : K) (hk : 0 < k) (u : K) (hu : o.tensionUtilisation rt loadCase position = .ok u)
    (hu' : (∃ u', ({ o with beam := some (scaleN k b) } : AS4100 K).tensionUtilisation rt loadCase position = .ok u') ∨
      1 ≤ k) :
    ({ o with beam := some (scaleN k b) } : AS4100 K).tensionUtilisation rt loadCase position = .ok (k * u) := by
  set o' : AS4100 K := { o with beam := some (scaleN k b) } with ho'
  have hb' : o'.beam = some (scaleN k b) := rfl
  have ha' : Aligned o' := by
    unfold Aligned at ha ⊢
    simp only [hb] at ha
    simp only [hb', scaleN_eq, List.map_map]
    exact ha
  have hcs' : CasesOf o' loadCase cs := by
    rcases hcs with h | h | ⟨h1, b0, e, rest, h2, h3, h4⟩
    · exact Or.inl h
    · exact Or.inr (Or.inl h)
    · rw [hb] at h2
      cases h2
      refine Or.inr (Or.inr ⟨h1, scaleN k b, scaleElem k e, rest.map (scaleElem k), rfl, ?_, ?_⟩)
      · rw [scaleN_eq, h3]; rfl
      · rw [h4]; simp [scaleElem, List.map_map, Function.comp_def]
  have hphiNt : ∀ p, o'.phiNt rt p = o.phiNt rt p := by
    intro p
    have hd : ∀ p n c, o'.getDSection rt p n c = o.getDSection rt p n c := by
      intro p n c
      unfold AS4100.getDSection
      simp only [hb, hb', scale_listPositions]
      rfl
    have hcons : o'.considered rt p = o.considered rt p := by
      unfold AS4100.considered
      cases p <;> simp only [hd] <;> rfl
    unfold AS4100.phiNt AS4100.Nt AS4100.Nty AS4100.Ntu
    rw [hcons]
  have hd : ∀ c ∈ cs, ∀ p ∈ ps.map Num.flt, Defined rt o c p := by
    intro c hcm p hp
    obtain ⟨q, hq, rfl⟩ := List.mem_map.1 hp
    exact (defined_of_beam hx hs o b hb ha ls h hls c (hc c hcm) hphi hcap _ rfl (hin q hq)).1
  have hd' : ∀ c ∈ cs, ∀ p ∈ ps.map Num.flt, Defined rt o' c p := by
    intro c hcm p hp
    obtain ⟨q, hq, rfl⟩ := List.mem_map.1 hp
    exact (defined_of_beam hx hs o' _ hb' ha' ls (scale_lengths h) hls c (scale_loaded (hc c hcm)) hphi hcap _ rfl
      (hin q hq)).1
  -- the tensions scale
  have hrep : ∀ c ∈ cs, ∀ p ∈ ps.map Num.flt, ∀ t, Reported rt o' c p t ↔ ∃ s, Reported rt o c p s ∧ t = k * s := by
    intro c hcm p hp
    obtain ⟨q, hq, rfl⟩ := List.mem_map.1 hp
    obtain ⟨dt, rows, locs, -, hL, -, -, hrne, hgl, hten⟩ := C31_beam hx hs o b hb ls h hls c (hc c hcm)
      (.scalar (Num.flt q)) [q] (Or.inl ⟨q, rfl, rfl⟩) (by simp) (by simpa using hin q hq)
    have hgl' : b.getLoads rt c (.scalar (Num.flt q)) none (.name "N") =
        .ok (some ⟨dt, 1, rows.map fun r => (r.1, [some r.2])⟩) := by
      rw [← hgl]; simp [AS4100.getLoads, hb]
    obtain ⟨locs', hlocs'⟩ : ∃ l, b.listPositions rt (.scalar (Num.flt q)) none (some c) = .ok l := by
      unfold Beam.getLoads at hgl'
      rcases hl : b.listPositions rt (.scalar (Num.flt q)) none (some c) with e | l
      · rw [hl] at hgl'; cases hgl'
      · exact ⟨l, rfl⟩
    have hlne : locs' ≠ [] := by
      rintro rfl
      unfold Beam.getLoads at hgl'
      rw [hlocs'] at hgl'
      cases hgl'
    obtain ⟨rows', h1, h2⟩ := getLoads_scale hx hs k (hc c hcm) _ none locs' hlne hlocs'
    rw [hgl'] at h1
    simp only [Except.ok.injEq, Option.some.injEq, Tab.mk.injEq, true_and] at h1
    obtain ⟨-, hcells⟩ := h1
    have hrows' : rows' = rows.map fun r => (r.1, [r.2]) := by
      have hinj : Function.Injective (fun r : Row K => (r.1, r.2.map some)) := by
        rintro ⟨a, x⟩ ⟨a', y⟩ he
        simp only [Prod.mk.injEq] at he
        obtain ⟨rfl, he⟩ := he
        rw [List.map_injective_iff.2 (Option.some_injective _) he]
      apply List.map_injective_iff.2 hinj
      have : cells rows' = rows'.map fun r => (r.1, r.2.map some) := rfl
      rw [← this, ← hcells, List.map_map]
      rfl
    have hten' := C31_get_tension rt o' c (.scalar (Num.flt q)) none .flt (rows.map fun r => (r.1, k * r.2)) (by
      simp only [AS4100.getLoads, hb']
      rw [h2, hrows']
      simp only [cells, List.map_map]
      rfl)
    have e1 : o.getTension rt c (.scalar (Num.flt q)) none = .ok ⟨dt, 1,
        (rows.map fun r => (r.1, if r.2 < 0 then 0 else r.2)).map fun r => (r.1, [some r.2])⟩ := by
      rw [hten, List.map_map]; rfl
    have e2 : o'.getTension rt c (.scalar (Num.flt q)) none = .ok ⟨.flt, 1,
        ((rows.map fun r => (r.1, k * r.2)).map fun r => (r.1, if r.2 < 0 then 0 else r.2)).map
          fun r => (r.1, [some r.2])⟩ := by
      rw [hten', List.map_map, List.map_map, List.map_map]; rfl
    have hclamp : ∀ x : K, (if k * x < 0 then 0 else k * x) = k * (if x < 0 then 0 else x) := by
      intro x
      have : k * x < 0 ↔ x < 0 := by
        constructor
        · intro hlt
          by_contra hc
          exact absurd hlt (not_lt.2 (mul_nonneg hk.le (not_lt.1 hc)))
        · exact mul_neg_of_pos_of_neg hk
      by_cases hx0 : x < 0
      · rw [if_pos hx0, if_pos (this.2 hx0), mul_zero]
      · rw [if_neg hx0, if_neg (fun h => hx0 (this.1 h))]
    intro t
    rw [reported_iff e2]
    simp only [reported_iff e1]
    constructor
    · rintro ⟨r, hr, rfl⟩
      obtain ⟨r1, hr1, rfl⟩ := List.mem_map.1 hr
      obtain ⟨r2, hr2, rfl⟩ := List.mem_map.1 hr1
      exact ⟨_, ⟨_, List.mem_map_of_mem hr2, rfl⟩, hclamp _⟩
    · rintro ⟨s, ⟨r, hr, rfl⟩, rfl⟩
      obtain ⟨r1, hr1, rfl⟩ := List.mem_map.1 hr
      exact ⟨_, List.mem_map_of_mem (List.mem_map_of_mem hr1), hclamp _⟩
  have hnt : ∀ c ∈ cs, ∀ p ∈ ps.map Num.flt, ¬ Tiny rt o c p := by
    intro c hcm p hp ht
    have := C32_too_small hx o loadCase cs hcs position _ hps hd ⟨c, hcm, p, hp, ht⟩
    rw [hu] at this
    cases this
  have hnt' : ∀ c ∈ cs, ∀ p ∈ ps.map Num.flt, ¬ Tiny rt o' c p := by
    intro c hcm p hp ht
    rcases hu' with ⟨u', hu'⟩ | hk1
    · have := C32_too_small hx o' loadCase cs hcs' position _ hps hd' ⟨c, hcm, p, hp, ht⟩
      rw [hu'] at this
      cases this
    · obtain ⟨cap, t, h1, h2, h3, h4⟩ := ht
      obtain ⟨s, hs', rfl⟩ := (hrep c hcm p hp t).1 h2
      rw [hphiNt] at h1
      obtain ⟨cap', -, -, h5, hpos, -⟩ := hd c hcm p hp
      rw [h1] at h5
      cases h5
      have hs0 : 0 < s := (mul_pos_iff_of_pos_left hk).1 h3
      exact hnt c hcm p hp ⟨cap, s, h1, hs', hs0,
        (div_le_div_of_nonneg_right (le_mul_of_one_le_left hs0.le hk1) hpos.le).trans h4⟩
  obtain ⟨v, hv, hg⟩ := C32_utilisation hx o loadCase cs hcs position _ hps hcne (by simpa using hpne) hd hnt
  obtain ⟨v', hv', hg'⟩ := C32_utilisation hx o' loadCase cs hcs' position _ hps hcne (by simpa using hpne) hd' hnt'
  rw [hu] at hv
  cases hv
  rw [hv']
  congr 1
  have hval : ∀ s cap : K, (if k * s ≤ 0 then 0 else k * s / cap) = k * (if s ≤ 0 then 0 else s / cap) := by
    intro s cap
    by_cases hs0 : s ≤ 0
    · rw [if_pos hs0, if_pos (mul_nonpos_of_nonneg_of_nonpos hk.le hs0), mul_zero]
    · rw [if_neg hs0, if_neg (not_le.2 (mul_pos hk (not_le.1 hs0))), mul_div_assoc]
  refine hg'.unique ⟨?_, ?_⟩
  · obtain ⟨c, hcm, p, hp, cap, s, h1, h2, h3⟩ := hg.1
    exact ⟨c, hcm, p, hp, cap, k * s, by rw [hphiNt]; exact h1, (hrep c hcm p hp _).2 ⟨s, h2, rfl⟩, by
      rw [hval, h3]⟩
  · rintro w ⟨c, hcm, p, hp, cap, t, h1, h2, rfl⟩
    obtain ⟨s, hs', rfl⟩ := (hrep c hcm p hp t).1 h2
    rw [hval]
    exact mul_le_mul_of_nonneg_left (hg.2 ⟨c, hcm, p, hp, cap, s, by rw [← hphiNt]; exact h1, hs', rfl⟩) hk.le

/-- C62: multiplying all axial loads by `k > 0` multiplies the utilisation by `k`. -/
theorem C62_scaling {rt : Rt K} (hx : rt.Exact) (hs : rt.SortOK) (o : AS4100 K) (b : Beam K (Sect K))
    (hb : o.beam = some b) (ha : Aligned o) (ls : List (Num K)) (h : HasLengths b ls) (hls : ls ≠ [])
    (hphi : 0 < o.phiSteel) (hcap : ∀ d ∈ o.dsects, ∃ n, SectionCapacity rt o.kt o.alphaU d n ∧ 0 < n)
    (loadCase : CaseArg) (cs : List ℤ) (hcs : CasesOf o loadCase cs) (hcne : cs ≠ [])
    (hc : ∀ c ∈ cs, LoadedFloat b c) (position : PosArg K) (ps : List K)
    (hps : PositionsOf position (ps.map Num.flt)) (hpne : ps ≠ []) (hin : ∀ p ∈ ps, 0 ≤ p ∧ p ≤ total ls)
    (k : K) (hk : 0 < k) (u u' : K) (hu : o.tensionUtilisation rt loadCase position = .ok u)
    (hu' : ({ o with beam := some (scaleN k b) } : AS4100 K).tensionUtilisation rt loadCase position = .ok u') :
    u' = k * u := by
  have h0 := scaling_aux hx hs o b hb ha ls h hls hphi hcap loadCase cs hcs hcne hc position ps hps hpne hin k hk u hu
    (Or.inl ⟨u', hu'⟩)
  rw [hu'] at h0
  cases h0
  rfl

/-- C62: multiplying the axial loads by a factor of at least 1 never makes the check fail with an error. -/
theorem C62_more {rt : Rt K} (hx : rt.Exact) (hs : rt.SortOK) (o : AS4100 K) (b : Beam K (Sect K))
    (hb : o.beam = some b) (ha : Aligned o) (ls : List (Num K)) (h : HasLengths b ls) (hls : ls ≠ [])
    (hphi : 0 < o.phiSteel) (hcap : ∀ d ∈ o.dsects, ∃ n, SectionCapacity rt o.kt o.alphaU d n ∧ 0 < n)
    (loadCase : CaseArg) (cs : List ℤ) (hcs : CasesOf o loadCase cs) (hcne : cs ≠ [])
    (hc : ∀ c ∈ cs, LoadedFloat b c) (position : PosArg K) (ps : List K)
    (hps : PositionsOf position (ps.map Num.flt)) (hpne : ps ≠ []) (hin : ∀ p ∈ ps, 0 ≤ p ∧ p ≤ total ls)
    (k : K) (hk : 1 ≤ k) (u : K) (hu : o.tensionUtilisation rt loadCase position = .ok u) :
    ({ o with beam := some (scaleN k b) } : AS4100 K).tensionUtilisation rt loadCase position = .ok (k * u) :=
  scaling_aux hx hs o b hb ha ls h hls hphi hcap loadCase cs hcs hcne hc position ps hps hpne hin k
    (zero_lt_one.trans_le hk) u hu (Or.inr hk)

/-- A concrete case of `C62_scaling`: all its hypotheses hold for the two rods at the joint, scaled by 5. -/
example : (15 / Samples.thinCap : ℚ) = 5 * (3 / Samples.thinCap) := by
  refine C62_scaling (Rt.exact_exact ℚ) (Rt.exact_sortOK ℚ) Samples.obj Samples.rods rfl Samples.obj_aligned
    Samples.rodLens Samples.rods_lens (by simp [Samples.rodLens]) (by decide +kernel) obj_capacity_pos .none [7]
    (Or.inr (Or.inr ⟨rfl, _, _, _, rfl, rfl, rfl⟩)) (by simp) ?_ (.scalar (Num.flt 2)) [2]
    (Or.inr ⟨2, rfl, rfl⟩) (by simp) ?_ 5 (by decide +kernel) _ _ (by decide +kernel) (by decide +kernel)
  · intro c hc
    obtain rfl : c = 7 := by simpa using hc
    exact Samples.rods_loaded
  · intro p hp
    obtain rfl : p = 2 := by simpa using hp
    decide +kernel

/-- The same case of `C62_more`: all its hypotheses hold for the two rods at the joint, scaled by 5. -/
example : ({ Samples.obj with beam := some (scaleN 5 Samples.rods) } : AS4100 ℚ).tensionUtilisation Samples.rt .none
    (.scalar (Num.flt 2)) = .ok (5 * (3 / Samples.thinCap)) := by
  refine C62_more (Rt.exact_exact ℚ) (Rt.exact_sortOK ℚ) Samples.obj Samples.rods rfl Samples.obj_aligned
    Samples.rodLens Samples.rods_lens (by simp [Samples.rodLens]) (by decide +kernel) obj_capacity_pos .none [7]
    (Or.inr (Or.inr ⟨rfl, _, _, _, rfl, rfl, rfl⟩)) (by simp) ?_ (.scalar (Num.flt 2)) [2]
    (Or.inr ⟨2, rfl, rfl⟩) (by simp) ?_ 5 (by decide +kernel) _ (by decide +kernel)
  · intro c hc
    obtain rfl : c = 7 := by simpa using hc
    exact Samples.rods_loaded
  · intro p hp
    obtain rfl : p = 2 := by simpa using hp
    decide +kernel

end BeamDesign
