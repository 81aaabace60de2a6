import Verif.Props.Superpose
import Verif.Spec.Stable

/-!
# C124: small changes of the loads change the utilisation little
-/

set_option linter.unusedSectionVars false
set_option linter.unusedSimpArgs false

namespace BeamDesign

open Spec

variable {K : Type} [Field K] [LinearOrder K] [IsStrictOrderedRing K] [FloorRing K]

/-! ## Beams with all axial loads raised -/

/-- The row with its axial load raised by `k`. -/
def raiseRow (k : K) (r : LRow K) : LRow K := ⟨r.pos, r.vx, r.vy, r.n + k, r.mx, r.my, r.t⟩

/-- The element with its axial loads raised by `k`. -/
def raiseElem {S : Type} (k : K) (e : Element K S) : Element K S :=
  ⟨e.loads.map fun l => (l.1, ⟨l.2.loads.map fun t => ⟨t.isInt, t.rows.map (raiseRow k)⟩⟩), e.length, e.sect⟩

/-- The beam with its axial loads raised by `k`. -/
def raiseN {S : Type} (k : K) (b : Beam K S) : Beam K S := ⟨b.elements.map (raiseElem k)⟩

theorem raiseN_eq {S : Type} (k : K) (b : Beam K S) : raiseN k b = ⟨b.elements.map (raiseElem k)⟩ := rfl

theorem raise_lookup {S : Type} (k : K) (e : Element K S) (c : ℤ) :
    (raiseElem k e).loads.lookup c =
      (e.loads.lookup c).map fun lc => ⟨lc.loads.map fun t => ⟨t.isInt, t.rows.map (raiseRow k)⟩⟩ := by
  unfold raiseElem
  simp only
  induction e.loads with
  | nil => rfl
  | cons l ls ih =>
    rcases l with ⟨c', lc⟩
    simp only [List.map_cons, List.lookup_cons]
    by_cases h : c == c'
    · simp [h]
    · simp only [Bool.not_eq_true] at h
      simp [h, ih]

theorem raise_loadPositions {S : Type} (k : K) (e : Element K S) (c : ℤ) :
    (raiseElem k e).loadPositions c = e.loadPositions c := by
  unfold Element.loadPositions Element.case
  rw [raise_lookup]
  rcases e.loads.lookup c with _ | ⟨_ | t⟩
  · rfl
  · rfl
  · simp only [Option.map_some, bind, Except.bind, LoadCase.loadPositions, List.map_map]
    rfl

theorem raise_listPositions {S : Type} {rt : Rt K} (k : K) (b : Beam K S) (position : PosArg K) (n c : Option ℤ) :
    (raiseN k b).listPositions rt position n c = b.listPositions rt position n c :=
  listPositions_congr (f := raiseElem k) (fun _ _ => rfl) c (fun e _ k' _ => raise_loadPositions k e k') position n

theorem raise_wf {k : K} {rows : List (LRow K)} (h : WellFormed rows) : WellFormed (rows.map (raiseRow k)) := by
  constructor
  · rw [List.pairwise_map]; exact h.1
  · intro r hr
    obtain ⟨q, hq, rfl⟩ := List.mem_map.1 hr
    exact h.2 q hq

theorem raise_hasTable {S : Type} {k : K} {b : Beam K S} {c : ℤ} {i : ℕ} {t : Table K} (h : HasTable b c i t) :
    HasTable (raiseN k b) c i ⟨t.isInt, t.rows.map (raiseRow k)⟩ := by
  obtain ⟨e, he, hl, hwf, hne⟩ := h
  refine ⟨raiseElem k e, ?_, ?_, raise_wf hwf, by simpa using hne⟩
  · rw [raiseN_eq, List.getElem?_map, he]; rfl
  · rw [raise_lookup, hl]; rfl

theorem raise_loaded {S : Type} {k : K} {b : Beam K S} {c : ℤ} (h : LoadedFloat b c) : LoadedFloat (raiseN k b) c := by
  intro i hi
  obtain ⟨t, ht, hf⟩ := h i (by rw [raiseN_eq, List.length_map] at hi; exact hi)
  exact ⟨_, raise_hasTable ht, hf⟩

theorem raise_lengths {S : Type} {k : K} {b : Beam K S} {ls : List (Num K)} (h : HasLengths b ls) :
    HasLengths (raiseN k b) ls := by
  refine ⟨?_, h.2⟩
  rw [raiseN_eq]
  simp only [List.forall₂_map_left_iff]
  exact h.1

theorem interpGo_raise {rt : Rt K} (hx : rt.Exact) (k x : K) (l : List (K × K)) : ∀ a : K × K,
    interpGo rt x (a.1, a.2 + k) (l.map fun r => (r.1, r.2 + k)) = interpGo rt x a l + k := by
  induction l with
  | nil => intro a; rfl
  | cons r l ih =>
    intro a
    simp only [List.map_cons, interpGo]
    split_ifs
    · exact ih r
    · rfl
    · simp only [hx.add, hx.mul, hx.div, hx.sub]; ring

theorem interpVal_raise {rt : Rt K} (hx : rt.Exact) (k x : K) {rows : List (LRow K)} (hne : rows ≠ []) :
    interpVal rt (rows.map (raiseRow k)) .N x = interpVal rt rows .N x + k := by
  obtain ⟨a, l, rfl⟩ := List.exists_cons_of_ne_nil hne
  have hl : ((a :: l).map (raiseRow k)).map (fun r => (r.pos, r.get .N)) =
      ((a :: l).map fun r => (r.pos, r.get .N)).map fun r => (r.1, r.2 + k) := by
    rw [List.map_map, List.map_map]; rfl
  unfold interpVal
  rw [hl]
  simp only [List.map_cons, npInterp]
  have hlast : ((a.pos, a.get .N + k) :: (l.map fun r => (r.pos, r.get .N)).map fun r => (r.1, r.2 + k)).getLast
        (by simp) =
      ((((a.pos, a.get .N) :: l.map fun r => (r.pos, r.get .N)).getLast (by simp)).1,
        (((a.pos, a.get .N) :: l.map fun r => (r.pos, r.get .N)).getLast (by simp)).2 + k) := by
    have := List.getLast_map (f := fun r : K × K => (r.1, r.2 + k))
      (l := (a.pos, a.get .N) :: l.map fun r => (r.pos, r.get .N)) (by simp)
    exact this
  rw [hlast]
  simp only
  split_ifs
  · rfl
  · rfl
  · exact interpGo_raise hx k x _ (a.pos, a.get .N)

theorem block_raise {rt : Rt K} (hx : rt.Exact) (k x : K) {rows : List (LRow K)} (hne : rows ≠ []) :
    block rt (rows.map (raiseRow k)) [.N] x = (block rt rows [.N] x).map fun r => (r.1, r.2.map (· + k)) := by
  unfold block
  have hp : (rows.map (raiseRow k)).map (fun r => r.pos) = rows.map fun r => r.pos := by
    rw [List.map_map]; rfl
  rw [hp]
  split_ifs
  · rw [List.filter_map, List.map_map, List.map_map]
    rfl
  · simp [interpVal_raise hx k x hne]

theorem getLoads_raise {S : Type} {rt : Rt K} (hx : rt.Exact) (hs : rt.SortOK) (k : K) {b : Beam K S} {c : ℤ}
    (hb : LoadedFloat b c) (position : PosArg K) (n : Option ℤ) (locs : List (Loc K)) (hne : locs ≠ [])
    (h : b.listPositions rt position n (some c) = .ok locs) :
    ∃ rows, b.getLoads rt c position n (.name "N") = .ok (some ⟨.flt, 1, cells rows⟩) ∧
      (raiseN k b).getLoads rt c position n (.name "N") =
        .ok (some ⟨.flt, 1, cells (rows.map fun r => (r.1, r.2.map (· + k)))⟩) := by
  obtain ⟨bl, hf, hg⟩ := getLoads_eq hs hb (component := .name "N") (cs := [.N]) (by decide) (by simp) hne h
  obtain ⟨bl', hf', hg'⟩ := getLoads_eq hs (raise_loaded (k := k) hb) (component := .name "N") (cs := [.N]) (by decide)
    (by simp) hne (by rw [raise_listPositions]; exact h)
  refine ⟨bl.flatten, hg, ?_⟩
  rw [hg']
  have : bl' = bl.map fun rows => rows.map fun r => (r.1, r.2.map (· + k)) := by
    clear hg hg' h hne
    induction hf generalizing bl' with
    | nil => cases hf'; rfl
    | cons h1 h2 ih =>
      cases hf' with
      | cons h1' h2' =>
        rw [List.map_cons, ← ih _ h2']
        congr 1
        obtain ⟨t, e, ht, he, rfl, -⟩ := h1
        obtain ⟨t', e', ht', he', rfl, -⟩ := h1'
        obtain rfl := hasTable_unique (raise_hasTable (k := k) ht) ht'
        have hne : t.rows ≠ [] := ht.choose_spec.2.2.2
        simp only [block_raise hx k _ hne, List.map_map]
        rfl
  rw [this, List.map_flatten]
  rfl

section
variable {rt : Rt K} {o : AS4100 K} {b b' : Beam K (Sect K)} {δ : K}

theorem withinTension_raise (h : WithinTension δ b b') : NoLessTension b (raiseN δ b') := by
  unfold WithinTension at h
  unfold NoLessTension
  rw [raiseN_eq]
  simp only [List.forall₂_map_right_iff, raiseElem]
  refine h.imp fun e e' he => ⟨he.1, he.2.imp fun l l' hl => ⟨hl.1, ?_⟩⟩
  rcases hl.2 with ⟨h1, h2⟩ | ⟨t, t', h1, h2, h3, h4⟩
  · exact Or.inl ⟨h1, by simp only [h2, Option.map_none]⟩
  · refine Or.inr ⟨t, ⟨t'.isInt, t'.rows.map (raiseRow δ)⟩, h1, by simp only [h2, Option.map_some], h3, ?_⟩
    simp only [List.forall₂_map_right_iff]
    refine h4.imp fun r r' hr => ⟨hr.1, ?_⟩
    have := (abs_le.1 hr.2).2
    show r.n ≤ r'.n + δ
    linarith

theorem withinTension_symm (h : WithinTension δ b b') : WithinTension δ b' b := by
  unfold WithinTension at h ⊢
  refine (h.imp (S := flip fun e e' => e.length = e'.length ∧
    List.Forall₂ (fun l l' => l.1 = l'.1 ∧
      ((l.2.loads = none ∧ l'.2.loads = none) ∨
        ∃ t t', l.2.loads = some t ∧ l'.2.loads = some t' ∧ WithinAxial δ t t')) e.loads e'.loads) ?_).flip
  rintro e e' ⟨h1, h2⟩
  refine ⟨h1.symm, (h2.imp (S := flip fun l l' => l.1 = l'.1 ∧
      ((l.2.loads = none ∧ l'.2.loads = none) ∨
        ∃ t t', l.2.loads = some t ∧ l'.2.loads = some t' ∧ WithinAxial δ t t')) ?_).flip⟩
  rintro l l' ⟨g1, g2⟩
  refine ⟨g1.symm, ?_⟩
  rcases g2 with ⟨g2, g3⟩ | ⟨t, t', g2, g3, g4, g5⟩
  · exact Or.inl ⟨g3, g2⟩
  · refine Or.inr ⟨t', t, g3, g2, g4.symm, (g5.imp (S := flip fun r r' => r.pos = r'.pos ∧ |r.n - r'.n| ≤ δ) ?_).flip⟩
    rintro r r' ⟨k1, k2⟩
    exact ⟨k1.symm, by rw [abs_sub_comm]; exact k2⟩

theorem raise_capacity (hb : o.beam = some b) (p : PosArg K) :
    ({ o with beam := some (raiseN δ b) } : AS4100 K).phiNt rt p = o.phiNt rt p := by
  set o' : AS4100 K := { o with beam := some (raiseN δ b) } with ho'
  have hb' : o'.beam = some (raiseN δ b) := rfl
  have hd : ∀ p n c, o'.getDSection rt p n c = o.getDSection rt p n c := by
    intro p n c
    unfold AS4100.getDSection
    simp only [hb, hb', raise_listPositions]
    rfl
  have hcons : o'.considered rt p = o.considered rt p := by
    unfold AS4100.considered
    cases p <;> simp only [hd] <;> rfl
  unfold AS4100.phiNt AS4100.Nt AS4100.Nty AS4100.Ntu
  rw [hcons]

theorem raise_aligned (hb : o.beam = some b) (ha : Aligned o) :
    Aligned ({ o with beam := some (raiseN δ b) } : AS4100 K) := by
  unfold Aligned at ha ⊢
  simp only [hb] at ha
  simp only [raiseN_eq, List.map_map]
  exact ha

/-- The capacity at a position is that of one of the sections. -/
theorem cap_ge (hx : rt.Exact) (hs : rt.SortOK) (hb : o.beam = some b) (ha : Aligned o) {ls : List (Num K)}
    (h : HasLengths b ls) (hls : ls ≠ []) (hphi : 0 < o.phiSteel) {κ : K} (hκ : 0 < κ)
    (hcap : ∀ d ∈ o.dsects, ∃ n, SectionCapacity rt o.kt o.alphaU d n ∧ κ ≤ o.phiSteel * n) {c : ℤ} (hc : LoadedFloat b c)
    {q : K} (hin : 0 ≤ q ∧ q ≤ total ls) : ∃ cap, o.phiNt rt (.scalar (Num.flt q)) = .ok cap ∧ κ ≤ cap := by
  have hp : ∀ d ∈ o.dsects, ∃ n, SectionCapacity rt o.kt o.alphaU d n ∧ 0 < n := fun d hd => by
    obtain ⟨n, h1, h2⟩ := hcap d hd
    exact ⟨n, h1, (mul_pos_iff_of_pos_left hphi).1 (hκ.trans_le h2)⟩
  obtain ⟨-, m, hm, hml⟩ := defined_of_beam hx hs o b hb ha ls h hls c hc hphi hp (Num.flt q) rfl hin
  refine ⟨_, hm, ?_⟩
  obtain ⟨d, ⟨i, e, hi, he, hes⟩, hd⟩ := hml.1
  obtain ⟨d0, hd0, hes0⟩ := aligned_at hb ha he
  have hdd : d0 = d := by
    rw [hes] at hes0
    obtain ⟨r, mt⟩ := d
    obtain ⟨r', mt'⟩ := d0
    simp only [Sect.circle.injEq, Option.some.injEq] at hes0
    obtain ⟨rfl, rfl⟩ := hes0
    rfl
  subst hdd
  obtain ⟨n, h1, h2⟩ := hcap d0 (List.mem_of_getElem? hd0)
  rw [sectionCapacity_unique hd h1]
  exact h2

/-- Raising the loads at one position. -/
theorem utilAt_raise (hx : rt.Exact) (hs : rt.SortOK) (hb : o.beam = some b) (ha : Aligned o) {ls : List (Num K)}
    (h : HasLengths b ls) (hls : ls ≠ []) (hphi : 0 < o.phiSteel) {κ : K} (hκ : 0 < κ)
    (hcap : ∀ d ∈ o.dsects, ∃ n, SectionCapacity rt o.kt o.alphaU d n ∧ κ ≤ o.phiSteel * n) {c : ℤ} (hc : LoadedFloat b c)
    {q : K} (hin : 0 ≤ q ∧ q ≤ total ls) (hδ : 0 ≤ δ) {v : K}
    (hv : UtilAt rt ({ o with beam := some (raiseN δ b) } : AS4100 K) c (Num.flt q) v) :
    ∃ v', UtilAt rt o c (Num.flt q) v' ∧ v ≤ v' + δ / κ := by
  obtain ⟨cap, hcp, hk⟩ := cap_ge hx hs hb ha h hls hphi hκ hcap hc hin
  obtain ⟨dt, rows, -, -, -, -, -, -, hgl, hten⟩ := C31_beam hx hs o b hb ls h hls c hc
    (.scalar (Num.flt q)) [q] (Or.inl ⟨q, rfl, rfl⟩) (by simp) (by simpa using hin)
  have hgl' : b.getLoads rt c (.scalar (Num.flt q)) none (.name "N") =
      .ok (some ⟨dt, 1, rows.map fun r => (r.1, [some r.2])⟩) := by
    rw [← hgl]; simp [AS4100.getLoads, hb]
  obtain ⟨locs', hlocs'⟩ : ∃ l, b.listPositions rt (.scalar (Num.flt q)) none (some c) = .ok l := by
    unfold Beam.getLoads at hgl'
    rcases hl : b.listPositions rt (.scalar (Num.flt q)) none (some c) with e | l
    · rw [hl] at hgl'; cases hgl'
    · exact ⟨l, rfl⟩
  have hlne : locs' ≠ [] := by
    rintro rfl
    unfold Beam.getLoads at hgl'
    rw [hlocs'] at hgl'
    cases hgl'
  obtain ⟨rows', h1, h2⟩ := getLoads_raise hx hs δ hc _ none locs' hlne hlocs'
  rw [hgl'] at h1
  simp only [Except.ok.injEq, Option.some.injEq] at h1
  have hrows' := cells_single (congrArg (·.rows) h1).symm
  have hten' := C31_get_tension rt ({ o with beam := some (raiseN δ b) } : AS4100 K) c (.scalar (Num.flt q)) none .flt
    (rows.map fun r => (r.1, r.2 + δ)) (by
      simp only [AS4100.getLoads]
      rw [h2, hrows']
      simp only [cells, List.map_map]
      rfl)
  have e1 : o.getTension rt c (.scalar (Num.flt q)) none = .ok ⟨dt, 1,
      (rows.map fun r => (r.1, if r.2 < 0 then 0 else r.2)).map fun r => (r.1, [some r.2])⟩ := by
    rw [hten, List.map_map]; rfl
  have e2 : ({ o with beam := some (raiseN δ b) } : AS4100 K).getTension rt c (.scalar (Num.flt q)) none = .ok ⟨.flt, 1,
      ((rows.map fun r => (r.1, r.2 + δ)).map fun r => (r.1, if r.2 < 0 then 0 else r.2)).map
        fun r => (r.1, [some r.2])⟩ := by
    rw [hten', List.map_map, List.map_map, List.map_map]; rfl
  obtain ⟨cap', t, hcp', ht, rfl⟩ := hv
  rw [raise_capacity hb, hcp] at hcp'
  cases hcp'
  obtain ⟨x, hxm, rfl⟩ := (reported_iff e2 t).1 ht
  obtain ⟨y, hy, rfl⟩ := List.mem_map.1 hxm
  obtain ⟨z, hz, rfl⟩ := List.mem_map.1 hy
  refine ⟨_, ⟨_, _, hcp, (reported_iff e1 _).2 ⟨_, List.mem_map_of_mem hz, rfl⟩, rfl⟩, ?_⟩
  simp only [clampUtil]
  have hc0 : 0 < cap := hκ.trans_le hk
  have h3 : δ / cap ≤ δ / κ := div_le_div_of_nonneg_left hδ hκ hk
  have h4 : max (z.2 + δ) 0 / cap ≤ (max z.2 0 + δ) / cap := by
    refine div_le_div_of_nonneg_right (max_le ?_ ?_) hc0.le
    · exact add_le_add_left (le_max_left _ _) _
    · exact add_nonneg (le_max_right _ _) hδ
  rw [add_div] at h4
  linarith

theorem withinTension_lengths (hw : WithinTension δ b b') {ls : List (Num K)} (h : HasLengths b ls) : HasLengths b' ls := by
  have := noLess_lengths (withinTension_raise hw) h
  refine ⟨?_, this.2⟩
  have h3 := this.1
  rw [raiseN_eq] at h3
  simp only [List.forall₂_map_left_iff] at h3
  exact h3

theorem withinTension_loaded (hw : WithinTension δ b b') {c : ℤ} (hc : LoadedFloat b c) : LoadedFloat b' c := by
  have hn := withinTension_raise hw
  intro i hi
  obtain ⟨t, ht, hf⟩ := hc i (by rw [hw.length_eq]; exact hi)
  obtain ⟨t₁, ht₁, hn₁⟩ := noLess_hasTable hn ht
  obtain ⟨e₁, he₁, hl₁, hwf₁, hne₁⟩ := ht₁
  rw [raiseN_eq, List.getElem?_map] at he₁
  rcases he : b'.elements[i]? with _ | e
  · rw [he] at he₁; cases he₁
  rw [he] at he₁
  simp only [Option.map_some, Option.some.injEq] at he₁
  subst he₁
  rw [raise_lookup] at hl₁
  rcases hl : e.loads.lookup c with _ | ⟨_ | t₂⟩
  · rw [hl] at hl₁; cases hl₁
  · rw [hl] at hl₁; cases hl₁
  rw [hl] at hl₁
  simp only [Option.map_some, Option.some.injEq, LoadCase.mk.injEq] at hl₁
  subst hl₁
  refine ⟨t₂, ⟨e, he, hl, ⟨?_, ?_⟩, by simpa using hne₁⟩, hn₁.1.symm.trans hf⟩
  · have := hwf₁.1
    rw [List.pairwise_map] at this
    exact this
  · intro r hr
    exact hwf₁.2 (raiseRow δ r) (List.mem_map_of_mem hr)

/-- Another beam at one position. -/
theorem utilAt_withinTension (hx : rt.Exact) (hs : rt.SortOK) (hb : o.beam = some b) (ha : Aligned o)
    (ha' : Aligned ({ o with beam := some b' } : AS4100 K)) {ls : List (Num K)}
    (h : HasLengths b ls) (hls : ls ≠ []) (hphi : 0 < o.phiSteel) {κ : K} (hκ : 0 < κ)
    (hcap : ∀ d ∈ o.dsects, ∃ n, SectionCapacity rt o.kt o.alphaU d n ∧ κ ≤ o.phiSteel * n)
    (hw : WithinTension δ b b') (hδ : 0 ≤ δ) {c : ℤ} (hc : LoadedFloat b c)
    {q : K} (hin : 0 ≤ q ∧ q ≤ total ls) {v : K} (hv : UtilAt rt o c (Num.flt q) v) :
    ∃ v', UtilAt rt ({ o with beam := some b' } : AS4100 K) c (Num.flt q) v' ∧ v ≤ v' + δ / κ := by
  have hn := withinTension_raise hw
  have hcap' : NoMoreCapacity rt o ({ o with beam := some (raiseN δ b') } : AS4100 K) := by
    refine ⟨hphi, hphi, ?_⟩
    rw [List.forall₂_same]
    intro d hd
    obtain ⟨n, h1, h2⟩ := hcap d hd
    exact ⟨n, n, h1, h1, (mul_pos_iff_of_pos_left hphi).1 (hκ.trans_le h2), le_rfl⟩
  obtain ⟨v₁, h1, h2⟩ := utilAt_le hx hs hb (o' := { o with beam := some (raiseN δ b') }) rfl ha
    (raise_aligned (o := { o with beam := some b' }) rfl ha') h hls hn hcap' hc hin hv
  obtain ⟨v₂, h3, h4⟩ := utilAt_raise hx hs (o := { o with beam := some b' }) rfl ha' (withinTension_lengths hw h) hls hphi hκ hcap (withinTension_loaded hw hc) hin hδ h1
  exact ⟨v₂, h3, h2.trans h4⟩

/-- The utilisation at given positions is the greatest one there. -/
theorem positions_ok (hx : rt.Exact) (hs : rt.SortOK) (hb : o.beam = some b) (ha : Aligned o) {ls : List (Num K)}
    (h : HasLengths b ls) (hls : ls ≠ []) (hphi : 0 < o.phiSteel)
    (hcap : ∀ d ∈ o.dsects, ∃ n, SectionCapacity rt o.kt o.alphaU d n ∧ 0 < n)
    {loadCase : CaseArg} {cs : List ℤ} (hcs : CasesOf o loadCase cs) (hcne : cs ≠ [])
    (hc : ∀ c ∈ cs, LoadedFloat b c) {position : PosArg K} {ps : List K}
    (hps : PositionsOf position (ps.map Num.flt)) (hpne : ps ≠ []) (hin : ∀ p ∈ ps, 0 ≤ p ∧ p ≤ total ls)
    {u : K} (hu : o.tensionUtilisation rt loadCase position = .ok u) :
    IsGreatest {v | ∃ c ∈ cs, ∃ p ∈ ps.map Num.flt, UtilAt rt o c p v} u := by
  have hd : ∀ c ∈ cs, ∀ p ∈ ps.map Num.flt, Defined rt o c p := by
    intro c hcm p hp1
    obtain ⟨q, hq, rfl⟩ := List.mem_map.1 hp1
    exact (defined_of_beam hx hs o b hb ha ls h hls c (hc c hcm) hphi hcap _ rfl (hin q hq)).1
  have hnt : ∀ c ∈ cs, ∀ p ∈ ps.map Num.flt, ¬ Tiny rt o c p := by
    intro c hcm p hp ht
    have := C32_too_small hx o loadCase cs hcs position _ hps hd ⟨c, hcm, p, hp, ht⟩
    rw [hu] at this
    cases this
  obtain ⟨v, hv, hg⟩ := C32_utilisation hx o loadCase cs hcs position _ hps hcne (by simpa using hpne) hd hnt
  rw [hu] at hv
  cases hv
  exact hg

theorem withinTension_cases (hb : o.beam = some b) (hw : WithinTension δ b b') {loadCase : CaseArg} {cs : List ℤ}
    (h : CasesOf o loadCase cs) : CasesOf ({ o with beam := some b' } : AS4100 K) loadCase cs := by
  rcases casesOf_same hb (o' := { o with beam := some (raiseN δ b') }) rfl (withinTension_raise hw) h with
    h | h | ⟨h1, b0, e, rest, h2, h3, h4⟩
  · exact Or.inl h
  · exact Or.inr (Or.inl h)
  · cases h2
    rw [raiseN_eq] at h3
    simp only at h3
    obtain ⟨e', rest', h5, rfl, rfl⟩ := List.map_eq_cons_iff.1 h3
    refine Or.inr (Or.inr ⟨h1, b', e', rest', rfl, h5, ?_⟩)
    rw [h4]
    simp [raiseElem, List.map_map, Function.comp_def]

/-- C124, at given positions: if no axial load changes by more than `δ`, the utilisation does not change by more than
`δ` over the smallest design capacity of a section. -/
theorem C124_positions (hx : rt.Exact) (hs : rt.SortOK) (o : AS4100 K) (b b' : Beam K (Sect K)) (hb : o.beam = some b)
    (ha : Aligned o) (ha' : Aligned ({ o with beam := some b' } : AS4100 K)) (ls : List (Num K)) (h : HasLengths b ls)
    (hls : ls ≠ []) (hphi : 0 < o.phiSteel) (κ : K) (hκ : 0 < κ)
    (hcap : ∀ d ∈ o.dsects, ∃ n, SectionCapacity rt o.kt o.alphaU d n ∧ κ ≤ o.phiSteel * n)
    (δ : K) (hδ : 0 ≤ δ) (hw : WithinTension δ b b')
    (loadCase : CaseArg) (cs : List ℤ) (hcs : CasesOf o loadCase cs) (hcne : cs ≠ [])
    (hc : ∀ c ∈ cs, LoadedFloat b c) (position : PosArg K) (ps : List K)
    (hps : PositionsOf position (ps.map Num.flt)) (hpne : ps ≠ []) (hin : ∀ p ∈ ps, 0 ≤ p ∧ p ≤ total ls)
    (u u' : K) (hu : o.tensionUtilisation rt loadCase position = .ok u)
    (hu' : ({ o with beam := some b' } : AS4100 K).tensionUtilisation rt loadCase position = .ok u') :
    |u - u'| ≤ δ / κ := by
  have hp : ∀ d ∈ o.dsects, ∃ n, SectionCapacity rt o.kt o.alphaU d n ∧ 0 < n := fun d hd => by
    obtain ⟨n, h1, h2⟩ := hcap d hd
    exact ⟨n, h1, (mul_pos_iff_of_pos_left hphi).1 (hκ.trans_le h2)⟩
  have h' := withinTension_lengths hw h
  have hc' : ∀ c ∈ cs, LoadedFloat b' c := fun c hcm => withinTension_loaded hw (hc c hcm)
  have G := positions_ok hx hs hb ha h hls hphi hp hcs hcne hc hps hpne hin hu
  have G' := positions_ok hx hs (o := { o with beam := some b' }) rfl ha' h' hls hphi hp (withinTension_cases hb hw hcs) hcne hc'
    hps hpne hin hu'
  have hoo : ({ ({ o with beam := some b' } : AS4100 K) with beam := some b } : AS4100 K) = o := by
    cases o
    simp only at hb
    subst hb
    rfl
  rw [abs_le]
  constructor
  · obtain ⟨c, hcm, p, hpm, hut⟩ := G'.1
    obtain ⟨q, hq, rfl⟩ := List.mem_map.1 hpm
    obtain ⟨v, h1, h2⟩ := utilAt_withinTension hx hs (o := { o with beam := some b' }) rfl ha' (by rw [hoo]; exact ha) h' hls hphi
      hκ hcap (withinTension_symm hw) hδ (hc' c hcm) (hin q hq) hut
    rw [hoo] at h1
    have := G.2 ⟨c, hcm, _, hpm, h1⟩
    linarith
  · obtain ⟨c, hcm, p, hpm, hut⟩ := G.1
    obtain ⟨q, hq, rfl⟩ := List.mem_map.1 hpm
    obtain ⟨v, h1, h2⟩ := utilAt_withinTension hx hs hb ha ha' h hls hphi hκ hcap hw hδ (hc c hcm) (hin q hq) hut
    have := G'.2 ⟨c, hcm, _, hpm, h1⟩
    linarith

/-- C124, overall: the same without positions. -/
theorem C124_overall (hx : rt.Exact) (hs : rt.SortOK) (o : AS4100 K) (b b' : Beam K (Sect K)) (hb : o.beam = some b)
    (ha : Aligned o) (ha' : Aligned ({ o with beam := some b' } : AS4100 K)) (ls : List (Num K)) (h : HasLengths b ls)
    (hls : ls ≠ []) (hflt : ∀ l ∈ ls, l.isInt = false) (n : ℕ) (hn : o.assessmentPoints = n)
    (hphi : 0 < o.phiSteel) (κ : K) (hκ : 0 < κ)
    (hcap : ∀ d ∈ o.dsects, ∃ n, SectionCapacity rt o.kt o.alphaU d n ∧ κ ≤ o.phiSteel * n)
    (δ : K) (hδ : 0 ≤ δ) (hw : WithinTension δ b b')
    (loadCase : CaseArg) (cs : List ℤ) (hcs : CasesOf o loadCase cs) (hcne : cs ≠ [])
    (hc : ∀ c ∈ cs, LoadedFloat b c)
    (u u' : K) (hu : o.tensionUtilisation rt loadCase .none = .ok u)
    (hu' : ({ o with beam := some b' } : AS4100 K).tensionUtilisation rt loadCase .none = .ok u') :
    |u - u'| ≤ δ / κ := by
  have hp : ∀ d ∈ o.dsects, ∃ n, SectionCapacity rt o.kt o.alphaU d n ∧ 0 < n := fun d hd => by
    obtain ⟨n, h1, h2⟩ := hcap d hd
    exact ⟨n, h1, (mul_pos_iff_of_pos_left hphi).1 (hκ.trans_le h2)⟩
  have h' := withinTension_lengths hw h
  have hc' : ∀ c ∈ cs, LoadedFloat b' c := fun c hcm => withinTension_loaded hw (hc c hcm)
  have hlist : ∀ position n c, b'.listPositions rt position n c = b.listPositions rt position n c := by
    intro position n c
    rw [← noLess_listPositions (withinTension_raise hw), raise_listPositions]
  have hcs' := withinTension_cases hb hw hcs
  obtain ⟨c0, cs, rfl⟩ := List.exists_cons_of_ne_nil hcne
  obtain ⟨xs, G, -, -, hin, locs, hlocs, hmem⟩ := overall_ok hx hs hb ha h hls hflt hn hphi hp hcs hc hu
  obtain ⟨xs', G', -, -, hin', locs', hlocs', hmem'⟩ := overall_ok hx hs (o := { o with beam := some b' }) rfl ha' h' hls
    hflt hn hphi hp hcs' hc' hu'
  rw [hlist, hlocs] at hlocs'
  cases hlocs'
  have hoo : ({ ({ o with beam := some b' } : AS4100 K) with beam := some b } : AS4100 K) = o := by
    cases o
    simp only at hb
    subst hb
    rfl
  rw [abs_le]
  constructor
  · obtain ⟨c, hcm, x, hxm, hut⟩ := G'.1
    obtain ⟨v, h1, h2⟩ := utilAt_withinTension hx hs (o := { o with beam := some b' }) rfl ha' (by rw [hoo]; exact ha) h' hls hphi
      hκ hcap (withinTension_symm hw) hδ (hc' c hcm) (hin' x hxm) hut
    rw [hoo] at h1
    have := G.2 ⟨c, hcm, x, (hmem x).2 ((hmem' x).1 hxm), h1⟩
    linarith
  · obtain ⟨c, hcm, x, hxm, hut⟩ := G.1
    obtain ⟨v, h1, h2⟩ := utilAt_withinTension hx hs hb ha ha' h hls hphi hκ hcap hw hδ (hc c hcm) (hin x hxm) hut
    have := G'.2 ⟨c, hcm, x, (hmem' x).2 ((hmem x).1 hxm), h1⟩
    linarith

end

/-! ## Examples -/

namespace Samples

/-- a rod under constant tension -/
def tautBeam (n : ℚ) : Beam ℚ (Sect ℚ) :=
  ⟨[⟨[(1, ⟨some ⟨false, [axial 0 n, axial 1 n]⟩⟩)], some (Num.flt 1), rod (1/100)⟩]⟩

end Samples

theorem tautBeam_within : WithinTension 250 (Samples.tautBeam 1000) (Samples.tautBeam 1250) :=
  .cons ⟨rfl, .cons ⟨rfl, Or.inr ⟨_, _, rfl, rfl, rfl,
    .cons ⟨rfl, by decide +kernel⟩ (.cons ⟨rfl, by decide +kernel⟩ .nil)⟩⟩ .nil⟩ .nil

theorem constObj_capacity : ∀ d ∈ (Samples.constObj (Num.flt 1) 1000).dsects, ∃ n, SectionCapacity Samples.rt
    (Samples.constObj (Num.flt 1) 1000).kt (Samples.constObj (Num.flt 1) 1000).alphaU d n ∧
    Samples.thinCap ≤ (Samples.constObj (Num.flt 1) 1000).phiSteel * n := by
  intro d hd
  have h : d = ⟨1/100, Samples.steel⟩ := by simpa [Samples.constObj] using hd
  subst h
  exact ⟨Samples.thinCap / (90/100), ⟨250000000, 410000000,
    strengths_iff.2 ⟨by decide +kernel, by decide +kernel⟩, by decide +kernel⟩, by decide +kernel⟩

/-- a rod with a tension of 1000, and with 1250 -/
example : |(1000 / Samples.thinCap : ℚ) - 1250 / Samples.thinCap| ≤ 250 / Samples.thinCap := by
  refine C124_overall (Rt.exact_exact ℚ) (Rt.exact_sortOK ℚ) (Samples.constObj (Num.flt 1) 1000) (Samples.tautBeam 1000)
    (Samples.tautBeam 1250) rfl (.cons ⟨rfl, rfl⟩ .nil) (.cons ⟨rfl, rfl⟩ .nil) [Num.flt 1]
    ⟨.cons rfl .nil, by decide +kernel⟩ (by simp) (by decide +kernel) 20 rfl (by decide +kernel) _ (by decide +kernel)
    constObj_capacity 250 (by norm_num) tautBeam_within .none [1]
    (Or.inr (Or.inr ⟨rfl, _, _, _, rfl, rfl, rfl⟩)) (by simp) ?_ _ _ (by decide +kernel) (by decide +kernel)
  intro c hc
  rw [List.mem_singleton.1 hc]
  exact constObj_loaded 1000

example : |(1000 / Samples.thinCap : ℚ) - 1250 / Samples.thinCap| ≤ 250 / Samples.thinCap := by
  refine C124_positions (Rt.exact_exact ℚ) (Rt.exact_sortOK ℚ) (Samples.constObj (Num.flt 1) 1000) (Samples.tautBeam 1000)
    (Samples.tautBeam 1250) rfl (.cons ⟨rfl, rfl⟩ .nil) (.cons ⟨rfl, rfl⟩ .nil) [Num.flt 1]
    ⟨.cons rfl .nil, by decide +kernel⟩ (by simp) (by decide +kernel) _ (by decide +kernel)
    constObj_capacity 250 (by norm_num) tautBeam_within .none [1]
    (Or.inr (Or.inr ⟨rfl, _, _, _, rfl, rfl, rfl⟩)) (by simp) ?_ (.scalar (Num.flt (1/2))) [1/2] (Or.inr ⟨1/2, rfl, rfl⟩)
    (by simp) (by decide +kernel) _ _ (by decide +kernel) (by decide +kernel)
  intro c hc
  rw [List.mem_singleton.1 hc]
  exact constObj_loaded 1000

end BeamDesign
