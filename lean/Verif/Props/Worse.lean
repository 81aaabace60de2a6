import Verif.Props.Peak
import Verif.Props.Scaling
import Verif.Spec.Worse

/-!
# C73: more tension or less capacity never lowers the utilisation
-/

set_option linter.unusedSectionVars false

namespace BeamDesign

open Spec

variable {K : Type} [Field K] [LinearOrder K] [IsStrictOrderedRing K] [FloorRing K]

theorem interpGo_le {rt : Rt K} (hx : rt.Exact) (x : K) (l : List (K × K × K)) (hl : ∀ r ∈ l, r.2.1 ≤ r.2.2) :
    ∀ a : K × K × K, a.2.1 ≤ a.2.2 → a.1 ≤ x →
    interpGo rt x (a.1, a.2.1) (l.map fun r => (r.1, r.2.1)) ≤
      interpGo rt x (a.1, a.2.2) (l.map fun r => (r.1, r.2.2)) := by
  induction l with
  | nil => intro a ha _; exact ha
  | cons r l ih =>
    intro a ha hax
    simp only [List.map_cons, interpGo]
    split_ifs with h1 h2
    · exact ih (fun q hq => hl q (List.mem_cons_of_mem _ hq)) r (hl r List.mem_cons_self) h1
    · exact ha
    · simp only [hx.add, hx.mul, hx.div, hx.sub]
      have hr := hl r List.mem_cons_self
      have h1 := not_le.1 h1
      have hd : 0 < r.1 - a.1 := by linarith
      have e : ∀ y1 y0 : K, (y1 - y0) / (r.1 - a.1) * (x - a.1) + y0 =
          y0 * ((r.1 - x) / (r.1 - a.1)) + y1 * ((x - a.1) / (r.1 - a.1)) := by
        intro y1 y0
        field_simp
        ring
      rw [e, e]
      exact add_le_add (mul_le_mul_of_nonneg_right ha (div_nonneg (by linarith) hd.le))
        (mul_le_mul_of_nonneg_right hr (div_nonneg (by linarith) hd.le))

/-- Two tables as one list of pairs. -/
theorem noLessAxial_pairs {t t' : Table K} (h : NoLessAxial t t') : ∃ rs : List (LRow K × LRow K),
    t.rows = rs.map (·.1) ∧ t'.rows = rs.map (·.2) ∧ ∀ r ∈ rs, r.1.pos = r.2.pos ∧ r.1.n ≤ r.2.n := by
  obtain ⟨-, h⟩ := h
  generalize t.rows = a at h
  generalize t'.rows = a' at h
  induction h with
  | nil => exact ⟨[], rfl, rfl, by simp⟩
  | @cons r r' _ _ hr _ ih =>
    obtain ⟨rs, rfl, rfl, h⟩ := ih
    exact ⟨(r, r') :: rs, rfl, rfl, by simpa using ⟨hr, fun a b => h (a, b)⟩⟩

theorem interpVal_le {rt : Rt K} (hx : rt.Exact) (x : K) {rs : List (LRow K × LRow K)}
    (hrs : ∀ r ∈ rs, r.1.pos = r.2.pos ∧ r.1.n ≤ r.2.n) (hne : rs ≠ []) :
    interpVal rt (rs.map (·.1)) .N x ≤ interpVal rt (rs.map (·.2)) .N x := by
  have f1 : ((rs.map (·.1)).map fun r => (r.pos, r.get .N))
      = (rs.map fun r => (r.1.pos, r.1.n, r.2.n)).map fun r => (r.1, r.2.1) := by
    simp only [List.map_map]; rfl
  have f2 : ((rs.map (·.2)).map fun r => (r.pos, r.get .N))
      = (rs.map fun r => (r.1.pos, r.1.n, r.2.n)).map fun r => (r.1, r.2.2) := by
    simp only [List.map_map]
    apply List.map_congr_left
    intro r hr
    simp only [Function.comp, (hrs r hr).1]
    rfl
  have hqs : ∀ r ∈ rs.map fun r => (r.1.pos, r.1.n, r.2.n), r.2.1 ≤ r.2.2 := by
    intro r hr
    obtain ⟨q, hq, rfl⟩ := List.mem_map.1 hr
    exact (hrs q hq).2
  have hqn : rs.map (fun r => (r.1.pos, r.1.n, r.2.n)) ≠ [] := by simpa using hne
  unfold interpVal
  rw [f1, f2]
  generalize rs.map (fun r => (r.1.pos, r.1.n, r.2.n)) = qs at hqs hqn
  obtain ⟨p, l, rfl⟩ := List.exists_cons_of_ne_nil hqn
  have hl1 := List.getLast_map (f := fun r : K × K × K => (r.1, r.2.1)) (l := p :: l) (by simp)
  have hl2 := List.getLast_map (f := fun r : K × K × K => (r.1, r.2.2)) (l := p :: l) (by simp)
  simp only [List.map_cons] at hl1 hl2
  simp only [List.map_cons, npInterp, hl1, hl2]
  by_cases h1 : x < p.1
  · simp only [h1, if_true]
    exact hqs p List.mem_cons_self
  · simp only [h1, if_false]
    by_cases h2 : ((p :: l).getLast (by simp)).1 < x
    · simp only [h2, if_true]
      exact hqs _ (List.getLast_mem _)
    · simp only [h2, if_false]
      exact interpGo_le hx x l (fun q hq => hqs q (List.mem_cons_of_mem _ hq)) p (hqs p List.mem_cons_self)
        (not_lt.1 h1)

/-- The rows of one answer: the same positions, no smaller values. -/
def RowsLe (out out' : List (Row K)) : Prop :=
  List.Forall₂ (fun r r' => r.1 = r'.1 ∧ ∃ v v', r.2 = [v] ∧ r'.2 = [v'] ∧ v ≤ v') out out'

theorem block_le {rt : Rt K} (hx : rt.Exact) (x : K) {t t' : Table K} (h : NoLessAxial t t') (hne : t.rows ≠ []) :
    RowsLe (block rt t.rows [.N] x) (block rt t'.rows [.N] x) := by
  obtain ⟨rs, h1, h2, hrs⟩ := noLessAxial_pairs h
  rw [h1] at hne ⊢
  rw [h2]
  have hp2 : (rs.map (·.2)).map (fun r => r.pos) = (rs.map (·.1)).map fun r => r.pos := by
    rw [List.map_map, List.map_map]
    exact List.map_congr_left fun r hr => (hrs r hr).1.symm
  unfold block
  rw [hp2]
  split_ifs
  · have hf : rs.filter ((fun r : LRow K => decide (r.pos = x)) ∘ fun r => r.2)
        = rs.filter ((fun r : LRow K => decide (r.pos = x)) ∘ fun r => r.1) := by
      apply List.filter_congr
      intro r hr
      simp only [Function.comp, (hrs r hr).1]
    simp only [List.filter_map, List.map_map, hf, RowsLe, List.forall₂_map_left_iff, List.forall₂_map_right_iff]
    rw [List.forall₂_same]
    intro r hr
    have := hrs r (List.mem_of_mem_filter hr)
    exact ⟨this.1, _, _, rfl, rfl, this.2⟩
  · exact .cons ⟨rfl, _, _, rfl, rfl, interpVal_le hx x hrs (by simpa using hne)⟩ .nil

section
variable {S : Type} {rt : Rt K} {b b' : Beam K S}

theorem lookup_rel {R : LoadCase K → LoadCase K → Prop} {l l' : List (ℤ × LoadCase K)} (c : ℤ)
    (h : List.Forall₂ (fun a a' => a.1 = a'.1 ∧ R a.2 a'.2) l l') :
    (l.lookup c = none ∧ l'.lookup c = none) ∨ ∃ x x', l.lookup c = some x ∧ l'.lookup c = some x' ∧ R x x' := by
  induction h with
  | nil => exact Or.inl ⟨rfl, rfl⟩
  | @cons a a' _ _ h _ ih =>
    obtain ⟨k, x⟩ := a
    obtain ⟨k', x'⟩ := a'
    obtain ⟨rfl, hR⟩ := h
    simp only [List.lookup_cons]
    by_cases hk : c == k
    · simp only [hk]
      exact Or.inr ⟨x, x', rfl, rfl, hR⟩
    · simp only [Bool.not_eq_true] at hk
      simp only [hk]
      exact ih

theorem noLess_element {i : ℕ} {e : Element K S} (h : NoLessTension b b') (he : b.elements[i]? = some e) :
    ∃ e', b'.elements[i]? = some e' ∧ e.length = e'.length ∧
      ∀ c, (e.loads.lookup c = none ∧ e'.loads.lookup c = none) ∨ ∃ x x', e.loads.lookup c = some x ∧
        e'.loads.lookup c = some x' ∧ ((x.loads = none ∧ x'.loads = none) ∨
        ∃ t t', x.loads = some t ∧ x'.loads = some t' ∧ NoLessAxial t t') := by
  obtain ⟨hl, h⟩ := List.forall₂_iff_get.1 h
  obtain ⟨hi, rfl⟩ := List.getElem?_eq_some_iff.1 he
  refine ⟨b'.elements[i], List.getElem?_eq_getElem (by omega), (h i hi (by omega)).1, fun c => ?_⟩
  exact lookup_rel c (h i hi (by omega)).2

theorem noLess_wf {t t' : Table K} (h : NoLessAxial t t') (hw : WellFormed t.rows) : WellFormed t'.rows := by
  obtain ⟨rs, h1, h2, hrs⟩ := noLessAxial_pairs h
  rw [h1] at hw
  rw [h2]
  refine ⟨?_, ?_⟩
  · have := hw.1
    rw [List.pairwise_map] at this ⊢
    exact this.imp_of_mem (fun {x y} hx hy hxy => by rw [← (hrs x hx).1, ← (hrs y hy).1]; exact hxy)
  · intro r hr
    obtain ⟨q, hq, rfl⟩ := List.mem_map.1 hr
    rw [← (hrs q hq).1]
    exact hw.2 _ (List.mem_map.2 ⟨q, hq, rfl⟩)

theorem noLess_hasTable {c : ℤ} {i : ℕ} {t : Table K} (h : NoLessTension b b') (ht : HasTable b c i t) :
    ∃ t', HasTable b' c i t' ∧ NoLessAxial t t' := by
  obtain ⟨e, he, hl, hwf, hne⟩ := ht
  obtain ⟨e', he', -, hc⟩ := noLess_element h he
  rcases hc c with ⟨h1, -⟩ | ⟨x, x', h1, h2, h3⟩
  · rw [hl] at h1; cases h1
  rw [hl] at h1
  cases h1
  rcases h3 with ⟨h3, -⟩ | ⟨t1, t', h3, h4, h5⟩
  · cases h3
  cases h3
  obtain ⟨o'⟩ := x'
  simp only at h4
  subst h4
  refine ⟨t', ⟨e', he', h2, noLess_wf h5 hwf, ?_⟩, h5⟩
  intro h0
  have := h5.2
  rw [h0] at this
  exact hne (List.forall₂_nil_right_iff.1 this)

theorem noLess_loaded {c : ℤ} (h : NoLessTension b b') (hb : LoadedFloat b c) : LoadedFloat b' c := by
  intro i hi
  obtain ⟨t, ht, hf⟩ := hb i (by rw [h.length_eq]; exact hi)
  obtain ⟨t', ht', hn⟩ := noLess_hasTable h ht
  exact ⟨t', ht', by rw [← hn.1]; exact hf⟩

theorem noLess_lengths {ls : List (Num K)} (h : NoLessTension b b') (hl : HasLengths b ls) : HasLengths b' ls := by
  refine ⟨?_, hl.2⟩
  have h2 := hl.1
  clear hl
  unfold NoLessTension at h
  generalize b.elements = es at h h2
  generalize b'.elements = es' at h
  have h3 : List.Forall₂ (fun (e e' : Element K S) => e.length = e'.length) es es' := h.imp fun _ _ h => h.1
  clear h
  induction h3 generalizing ls with
  | nil => cases h2; exact .nil
  | cons h _ ih =>
    cases h2 with
    | cons g gs => exact .cons (h ▸ g) (ih gs)

theorem noLess_loadPositions {e e' : Element K S} (c : ℤ)
    (h : (e.loads.lookup c = none ∧ e'.loads.lookup c = none) ∨ ∃ x x', e.loads.lookup c = some x ∧
        e'.loads.lookup c = some x' ∧ ((x.loads = none ∧ x'.loads = none) ∨
        ∃ t t', x.loads = some t ∧ x'.loads = some t' ∧ NoLessAxial t t')) :
    e'.loadPositions c = e.loadPositions c := by
  unfold Element.loadPositions Element.case
  rcases h with ⟨h1, h2⟩ | ⟨⟨x⟩, ⟨x'⟩, h1, h2, h3⟩
  · rw [h1, h2]
  · rw [h1, h2]
    rcases h3 with ⟨h3, h4⟩ | ⟨t, t', h3, h4, h5⟩
    · simp only at h3 h4
      subst h3 h4
      rfl
    · simp only at h3 h4
      subst h3 h4
      obtain ⟨rs, g1, g2, hrs⟩ := noLessAxial_pairs h5
      have hi := h5.1
      simp only [bind, Except.bind, LoadCase.loadPositions, g1, g2, List.map_map, hi]
      congr 1
      apply List.map_congr_left
      intro r hr
      simp only [Function.comp, (hrs r hr).1]

/-- The two beams list the same places. -/
theorem noLess_listPositions (h : NoLessTension b b') (position : PosArg K) (n c : Option ℤ) :
    b'.listPositions rt position n c = b.listPositions rt position n c := by
  let B : Beam K (S × Element K S) :=
    ⟨List.zipWith (fun e e' => ⟨e.loads, e.length, (e.sect, e')⟩) b.elements b'.elements⟩
  have hl := h.length_eq
  have hB : ∀ e ∈ B.elements, ∃ (i : ℕ) (e1 e2 : Element K S), b.elements[i]? = some e1 ∧ b'.elements[i]? = some e2 ∧
      e = ⟨e1.loads, e1.length, (e1.sect, e2)⟩ := by
    intro e he
    obtain ⟨i, hi, rfl⟩ := List.getElem_of_mem he
    simp only [B, List.length_zipWith] at hi
    refine ⟨i, b.elements[i], b'.elements[i], List.getElem?_eq_getElem _, List.getElem?_eq_getElem _, ?_⟩
    simp only [B, List.getElem_zipWith]
  have e1 : B.elements.map (fun e => (⟨e.loads, e.length, e.sect.1⟩ : Element K S)) = b.elements := by
    simp only [B, List.map_zipWith]
    exact List.ext_getElem (by simp [hl]) fun i h1 h2 => by simp
  have e2 : B.elements.map (fun e => e.sect.2) = b'.elements := by
    simp only [B, List.map_zipWith]
    exact List.ext_getElem (by simp [hl]) fun i h1 h2 => by simp
  have g1 := listPositions_congr (rt := rt) (b := B) (f := fun e => (⟨e.loads, e.length, e.sect.1⟩ : Element K S))
    (fun _ _ => rfl) c (fun _ _ _ _ => rfl) position n
  have g2 := listPositions_congr (rt := rt) (b := B) (f := fun e => e.sect.2) (fun e he => by
      obtain ⟨i, x, y, hx, hy, rfl⟩ := hB e he
      obtain ⟨y', hy', hlen, -⟩ := noLess_element h hx
      rw [hy] at hy'
      cases hy'
      simp only [Element.len, hlen]) c (fun e he k _ => by
      obtain ⟨i, x, y, hx, hy, rfl⟩ := hB e he
      obtain ⟨y', hy', -, hc⟩ := noLess_element h hx
      rw [hy] at hy'
      cases hy'
      exact noLess_loadPositions (e := x) k (hc k)) position n
  rw [e1] at g1
  rw [e2] at g2
  exact g2.trans g1.symm

theorem forall₂_flatten {α β : Type} {R : α → β → Prop} {l : List (List α)} {l' : List (List β)}
    (h : List.Forall₂ (List.Forall₂ R) l l') : List.Forall₂ R l.flatten l'.flatten := by
  induction h with
  | nil => exact .nil
  | cons h _ ih =>
    simp only [List.flatten_cons]
    exact List.rel_append h ih

theorem getLoads_le (hx : rt.Exact) (hs : rt.SortOK) (h : NoLessTension b b') {c : ℤ} (hb : LoadedFloat b c)
    (position : PosArg K) (n : Option ℤ) (locs : List (Loc K)) (hne : locs ≠ [])
    (hL : b.listPositions rt position n (some c) = .ok locs) :
    ∃ rows rows', b.getLoads rt c position n (.name "N") = .ok (some ⟨.flt, 1, cells rows⟩) ∧
      b'.getLoads rt c position n (.name "N") = .ok (some ⟨.flt, 1, cells rows'⟩) ∧ RowsLe rows rows' := by
  obtain ⟨bl, hf, hg⟩ := getLoads_eq hs hb (component := .name "N") (cs := [.N]) (by decide) (by simp) hne hL
  obtain ⟨bl', hf', hg'⟩ := getLoads_eq hs (noLess_loaded h hb) (component := .name "N") (cs := [.N]) (by decide)
    (by simp) hne (by rw [noLess_listPositions h]; exact hL)
  refine ⟨bl.flatten, bl'.flatten, hg, hg', forall₂_flatten ?_⟩
  clear hg hg' hL hne
  induction hf generalizing bl' with
  | nil => cases hf'; exact .nil
  | cons h1 h2 ih =>
    cases hf' with
    | cons h1' h2' =>
      refine .cons ?_ (ih _ h2')
      obtain ⟨t, e, ht, he, rfl, -⟩ := h1
      obtain ⟨t', e', ht', he', rfl, -⟩ := h1'
      obtain ⟨t'', ht'', hn⟩ := noLess_hasTable h ht
      obtain rfl := hasTable_unique ht'' ht'
      simp only [List.forall₂_map_left_iff, List.forall₂_map_right_iff]
      exact (block_le hx _ hn ht.choose_spec.2.2.2).imp fun r r' hr => ⟨trivial, hr.2⟩

end

section
variable {rt : Rt K} {o o' : AS4100 K} {b b' : Beam K (Sect K)}

theorem noMore_pos (h : NoMoreCapacity rt o o') :
    (∀ d ∈ o.dsects, ∃ n, SectionCapacity rt o.kt o.alphaU d n ∧ 0 < n) ∧
    ∀ d ∈ o'.dsects, ∃ n, SectionCapacity rt o'.kt o'.alphaU d n ∧ 0 < n := by
  obtain ⟨h1, h2, h3⟩ := h
  constructor
  · intro d hd
    obtain ⟨d', -, n, n', g1, g2, g3, g4⟩ := forall₂_mem_left h3 hd
    refine ⟨n, g1, ?_⟩
    have := (mul_pos h2 g3).trans_le g4
    exact (mul_pos_iff_of_pos_left h1).1 this
  · intro d hd
    obtain ⟨d', -, n, n', g1, g2, g3, g4⟩ := forall₂_mem_right h3 hd
    exact ⟨n', g2, g3⟩

theorem aligned_at (hb : o.beam = some b) (ha : Aligned o) {i : ℕ} {e : Element K (Sect K)}
    (he : b.elements[i]? = some e) : ∃ d, o.dsects[i]? = some d ∧ e.sect = .circle d.radius (some d.material) := by
  unfold Aligned at ha
  simp only [hb] at ha
  obtain ⟨hl, h⟩ := List.forall₂_iff_get.1 ha
  obtain ⟨hi, rfl⟩ := List.getElem?_eq_some_iff.1 he
  have hi' : i < o.dsects.length := by rw [← hl]; simpa using hi
  refine ⟨o.dsects[i], List.getElem?_eq_getElem hi', ?_⟩
  have := (h i (by simpa using hi) hi').1
  simpa using this

/-- At one position of one load case. -/
theorem utilAt_le (hx : rt.Exact) (hs : rt.SortOK) (hb : o.beam = some b) (hb' : o'.beam = some b')
    (ha : Aligned o) (ha' : Aligned o') {ls : List (Num K)} (h : HasLengths b ls) (hls : ls ≠ [])
    (hw : NoLessTension b b') (hcap : NoMoreCapacity rt o o') {c : ℤ} (hc : LoadedFloat b c) {q : K}
    (hin : 0 ≤ q ∧ q ≤ total ls) {v : K} (hv : UtilAt rt o c (Num.flt q) v) :
    ∃ v', UtilAt rt o' c (Num.flt q) v' ∧ v ≤ v' := by
  obtain ⟨hp, hp'⟩ := noMore_pos hcap
  have hls' := noLess_lengths hw h
  obtain ⟨-, m, hm, hml⟩ := defined_of_beam hx hs o b hb ha ls h hls c hc hcap.1 hp (Num.flt q) rfl hin
  obtain ⟨⟨cap', -, -, hcp', hcpos, -⟩, m', hm', hml'⟩ := defined_of_beam hx hs o' b' hb' ha' ls hls' hls c (noLess_loaded hw hc)
    hcap.2.1 hp' (Num.flt q) rfl hin
  rw [hm'] at hcp'
  cases hcp'
  have hmm : o'.phiSteel * m' ≤ o.phiSteel * m := by
    obtain ⟨d, ⟨i, e, hi, he, hes⟩, hd⟩ := hml.1
    obtain ⟨d0, hd0, hes0⟩ := aligned_at hb ha he
    have hdd : d0 = d := by
      rw [hes] at hes0
      obtain ⟨r, mt⟩ := d
      obtain ⟨r', mt'⟩ := d0
      simp only [Sect.circle.injEq, Option.some.injEq] at hes0
      obtain ⟨rfl, rfl⟩ := hes0
      rfl
    subst hdd
    obtain ⟨e', he', -, -⟩ := noLess_element hw he
    obtain ⟨d', hd', hes'⟩ := aligned_at hb' ha' he'
    obtain ⟨hl, hall⟩ := List.forall₂_iff_get.1 hcap.2.2
    obtain ⟨hi1, rfl⟩ := List.getElem?_eq_some_iff.1 hd0
    obtain ⟨hi2, rfl⟩ := List.getElem?_eq_some_iff.1 hd'
    obtain ⟨n, n', g1, g2, -, g4⟩ := hall i hi1 hi2
    rw [sectionCapacity_unique hd g1]
    exact (mul_le_mul_of_nonneg_left (hml'.2 ⟨_, ⟨i, e', hi, he', hes'⟩, g2⟩) hcap.2.1.le).trans g4
  obtain ⟨dt, rows, -, -, -, -, -, hrne, hgl, -⟩ := C31_beam hx hs o b hb ls h hls c hc
    (.scalar (Num.flt q)) [q] (Or.inl ⟨q, rfl, rfl⟩) (by simp) (by simpa using hin)
  have hgl' : b.getLoads rt c (.scalar (Num.flt q)) none (.name "N") =
      .ok (some ⟨dt, 1, rows.map fun r => (r.1, [some r.2])⟩) := by
    rw [← hgl]; simp [AS4100.getLoads, hb]
  obtain ⟨locs, hlocs⟩ : ∃ l, b.listPositions rt (.scalar (Num.flt q)) none (some c) = .ok l := by
    unfold Beam.getLoads at hgl'
    rcases hl : b.listPositions rt (.scalar (Num.flt q)) none (some c) with e | l
    · rw [hl] at hgl'; cases hgl'
    · exact ⟨l, rfl⟩
  have hlne : locs ≠ [] := by
    rintro rfl
    unfold Beam.getLoads at hgl'
    rw [hlocs] at hgl'
    cases hgl'
  obtain ⟨out, out', g1, g2, hle⟩ := getLoads_le hx hs hw hc _ none locs hlne hlocs
  have hcol : ∀ {x y : List (Row K)}, RowsLe x y → ∃ ps : List (K × K × K), x = ps.map (fun r => (r.1, [r.2.1])) ∧
      y = ps.map (fun r => (r.1, [r.2.2])) ∧ ∀ r ∈ ps, r.2.1 ≤ r.2.2 := by
    intro x y hxy
    induction hxy with
    | nil => exact ⟨[], rfl, rfl, by simp⟩
    | @cons r r' _ _ hr _ ih =>
      obtain ⟨ps, rfl, rfl, hps⟩ := ih
      obtain ⟨p, vs⟩ := r
      obtain ⟨p', vs'⟩ := r'
      obtain ⟨hpp, v, v', hv1, hv2, hvv⟩ := hr
      simp only at hpp hv1 hv2
      subst hpp hv1 hv2
      exact ⟨(p, v, v') :: ps, rfl, rfl, by
        intro r hr
        rcases List.mem_cons.1 hr with rfl | hr
        · exact hvv
        · exact hps r hr⟩
  obtain ⟨ps, rfl, rfl, hps⟩ := hcol hle
  have t1 := C31_get_tension rt o c (.scalar (Num.flt q)) none .flt (ps.map fun r => (r.1, r.2.1)) (by
    simp only [AS4100.getLoads, hb]
    rw [g1]
    simp only [cells, List.map_map]
    rfl)
  have t2 := C31_get_tension rt o' c (.scalar (Num.flt q)) none .flt (ps.map fun r => (r.1, r.2.2)) (by
    simp only [AS4100.getLoads, hb']
    rw [g2]
    simp only [cells, List.map_map]
    rfl)
  have e1 : o.getTension rt c (.scalar (Num.flt q)) none = .ok ⟨.flt, 1,
      ((ps.map fun r => (r.1, r.2.1)).map fun r => (r.1, if r.2 < 0 then 0 else r.2)).map
        fun r => (r.1, [some r.2])⟩ := by
    rw [t1]; simp only [List.map_map]; rfl
  have e2 : o'.getTension rt c (.scalar (Num.flt q)) none = .ok ⟨.flt, 1,
      ((ps.map fun r => (r.1, r.2.2)).map fun r => (r.1, if r.2 < 0 then 0 else r.2)).map
        fun r => (r.1, [some r.2])⟩ := by
    rw [t2]; simp only [List.map_map]; rfl
  obtain ⟨cap, t, hcp, ht, rfl⟩ := hv
  rw [hm] at hcp
  cases hcp
  obtain ⟨r, hr, rfl⟩ := (reported_iff e1 t).1 ht
  obtain ⟨r1, hr1, rfl⟩ := List.mem_map.1 hr
  obtain ⟨r2, hr2, rfl⟩ := List.mem_map.1 hr1
  have hrep : Reported rt o' c (Num.flt q) (if r2.2.2 < 0 then 0 else r2.2.2) :=
    (reported_iff e2 _).2 ⟨_, List.mem_map_of_mem (List.mem_map_of_mem hr2), rfl⟩
  refine ⟨_, ⟨_, _, hm', hrep, rfl⟩, ?_⟩
  have hval := hps r2 hr2
  simp only
  by_cases h0 : r2.2.1 ≤ 0
  · have : (if r2.2.1 < 0 then 0 else r2.2.1) ≤ 0 := by
      split_ifs
      · exact le_rfl
      · exact h0
    rw [if_pos this]
    generalize (if r2.2.2 < 0 then 0 else r2.2.2) = z
    split_ifs with h2
    · exact le_rfl
    · exact div_nonneg (not_le.1 h2).le hcpos.le
  · have h0 := not_le.1 h0
    have h1 : 0 < r2.2.2 := h0.trans_le hval
    rw [if_neg (not_lt.2 h0.le), if_neg (not_le.2 h0), if_neg (not_lt.2 h1.le), if_neg (not_le.2 h1)]
    exact div_le_div₀ h1.le hval hcpos hmm

theorem casesOf_same (hb : o.beam = some b) (hb' : o'.beam = some b') (hw : NoLessTension b b') {loadCase : CaseArg}
    {cs : List ℤ} (h : CasesOf o loadCase cs) : CasesOf o' loadCase cs := by
  rcases h with h | h | ⟨h1, b0, e, rest, h2, h3, h4⟩
  · exact Or.inl h
  · exact Or.inr (Or.inl h)
  · rw [hb] at h2
    cases h2
    unfold NoLessTension at hw
    rw [h3] at hw
    generalize hes : b'.elements = es' at hw
    cases hw with
    | @cons _ e' _ rest' hw _ =>
      refine Or.inr (Or.inr ⟨h1, b', e', rest', hb', hes, ?_⟩)
      rw [h4]
      exact List.forall₂_eq_eq_eq ▸ (by
        rw [List.forall₂_map_left_iff, List.forall₂_map_right_iff]
        exact hw.2.imp fun _ _ h => h.1)

/-- C73, at given positions: with nowhere a smaller axial load and nowhere a larger design capacity, the utilisation is
not smaller. -/
theorem C73_positions (hx : rt.Exact) (hs : rt.SortOK) (o o' : AS4100 K) (b b' : Beam K (Sect K))
    (hb : o.beam = some b) (hb' : o'.beam = some b') (ha : Aligned o) (ha' : Aligned o') (ls : List (Num K))
    (h : HasLengths b ls) (hls : ls ≠ []) (hw : NoLessTension b b') (hcap : NoMoreCapacity rt o o')
    (loadCase : CaseArg) (cs : List ℤ) (hcs : CasesOf o loadCase cs) (hcne : cs ≠ [])
    (hc : ∀ c ∈ cs, LoadedFloat b c) (position : PosArg K) (ps : List K)
    (hps : PositionsOf position (ps.map Num.flt)) (hpne : ps ≠ []) (hin : ∀ p ∈ ps, 0 ≤ p ∧ p ≤ total ls)
    (u u' : K) (hu : o.tensionUtilisation rt loadCase position = .ok u)
    (hu' : o'.tensionUtilisation rt loadCase position = .ok u') : u ≤ u' := by
  obtain ⟨hp, hp'⟩ := noMore_pos hcap
  have hcs' := casesOf_same hb hb' hw hcs
  have hd : ∀ c ∈ cs, ∀ p ∈ ps.map Num.flt, Defined rt o c p := by
    intro c hcm p hp1
    obtain ⟨q, hq, rfl⟩ := List.mem_map.1 hp1
    exact (defined_of_beam hx hs o b hb ha ls h hls c (hc c hcm) hcap.1 hp _ rfl (hin q hq)).1
  have hd' : ∀ c ∈ cs, ∀ p ∈ ps.map Num.flt, Defined rt o' c p := by
    intro c hcm p hp1
    obtain ⟨q, hq, rfl⟩ := List.mem_map.1 hp1
    exact (defined_of_beam hx hs o' b' hb' ha' ls (noLess_lengths hw h) hls c (noLess_loaded hw (hc c hcm)) hcap.2.1 hp'
      _ rfl (hin q hq)).1
  have hnt : ∀ c ∈ cs, ∀ p ∈ ps.map Num.flt, ¬ Tiny rt o c p := by
    intro c hcm p hp ht
    have := C32_too_small hx o loadCase cs hcs position _ hps hd ⟨c, hcm, p, hp, ht⟩
    rw [hu] at this
    cases this
  have hnt' : ∀ c ∈ cs, ∀ p ∈ ps.map Num.flt, ¬ Tiny rt o' c p := by
    intro c hcm p hp ht
    have := C32_too_small hx o' loadCase cs hcs' position _ hps hd' ⟨c, hcm, p, hp, ht⟩
    rw [hu'] at this
    cases this
  obtain ⟨v, hv, hg⟩ := C32_utilisation hx o loadCase cs hcs position _ hps hcne (by simpa using hpne) hd hnt
  obtain ⟨v', hv', hg'⟩ := C32_utilisation hx o' loadCase cs hcs' position _ hps hcne (by simpa using hpne) hd' hnt'
  rw [hu] at hv
  rw [hu'] at hv'
  cases hv
  cases hv'
  obtain ⟨c, hcm, p, hpm, hut⟩ := hg.1
  obtain ⟨q, hq, rfl⟩ := List.mem_map.1 hpm
  obtain ⟨w, hw', hle⟩ := utilAt_le hx hs hb hb' ha ha' h hls hw hcap (hc c hcm) (hin q hq) hut
  exact hle.trans (hg'.2 ⟨c, hcm, _, hpm, hw'⟩)

/-- C73, overall: the same without positions, with the same number of assessment points. -/
theorem C73_overall (hx : rt.Exact) (hs : rt.SortOK) (o o' : AS4100 K) (b b' : Beam K (Sect K))
    (hb : o.beam = some b) (hb' : o'.beam = some b') (ha : Aligned o) (ha' : Aligned o') (ls : List (Num K))
    (h : HasLengths b ls) (hls : ls ≠ []) (hflt : ∀ l ∈ ls, l.isInt = false) (n : ℕ) (hn : o.assessmentPoints = n)
    (hn' : o'.assessmentPoints = n) (hw : NoLessTension b b') (hcap : NoMoreCapacity rt o o')
    (loadCase : CaseArg) (cs : List ℤ) (hcs : CasesOf o loadCase cs) (hcne : cs ≠ [])
    (hc : ∀ c ∈ cs, LoadedFloat b c) (u u' : K) (hu : o.tensionUtilisation rt loadCase .none = .ok u)
    (hu' : o'.tensionUtilisation rt loadCase .none = .ok u') : u ≤ u' := by
  obtain ⟨hp, hp'⟩ := noMore_pos hcap
  have hcs' := casesOf_same hb hb' hw hcs
  obtain ⟨c, cs, rfl⟩ := List.exists_cons_of_ne_nil hcne
  obtain ⟨xs, hg, -, -, hin, locs, hlocs, hmem⟩ := overall_ok hx hs hb ha h hls hflt hn hcap.1 hp hcs hc hu
  obtain ⟨xs', hg', -, -, -, locs', hlocs', hmem'⟩ := overall_ok hx hs hb' ha' (noLess_lengths hw h) hls hflt hn'
    hcap.2.1 hp' hcs' (fun k hk => noLess_loaded hw (hc k hk)) hu'
  rw [noLess_listPositions hw, hlocs] at hlocs'
  cases hlocs'
  obtain ⟨k, hk, x, hxm, hut⟩ := hg.1
  obtain ⟨w, hw', hle⟩ := utilAt_le hx hs hb hb' ha ha' h hls hw hcap (hc k hk) (hin x hxm) hut
  exact hle.trans (hg'.2 ⟨k, hk, x, (hmem' x).2 ((hmem x).1 hxm), hw'⟩)

/-! ## C74: thicker rods -/

theorem thicker_strengths {d d' : DSect K} (h : ThickerInBand d d') {fy fu : K} (hs : Strengths d fy fu) :
    Strengths d' fy fu := by
  obtain ⟨hm, hr, hband⟩ := h
  obtain ⟨ts, fys, fus, rest, ht, hasc, h0, ⟨i, ti, hi, hv, hl⟩, ⟨j, tj, hj, hw, hl'⟩⟩ := hs
  have hset : {x | x ∈ ts ∧ 2 * d'.radius ≤ x} = {x | x ∈ ts ∧ 2 * d.radius ≤ x} := by
    ext x
    constructor
    · rintro ⟨h1, h2⟩
      exact ⟨h1, by linarith⟩
    · rintro ⟨h1, h2⟩
      exact ⟨h1, hband _ _ ht x h1 h2⟩
  refine ⟨ts, fys, fus, rest, hm ▸ ht, hasc, by linarith, ⟨i, ti, hi, hv, ?_⟩, ⟨j, tj, hj, hw, ?_⟩⟩
  · rw [hset]; exact hl
  · rw [hset]; exact hl'

theorem thicker_capacity (hx : rt.Exact) {kt au : K} (hkt : 0 ≤ kt) (hau : 0 ≤ au) {d d' : DSect K}
    (h : ThickerInBand d d') {fy fu : K} (hs : Strengths d fy fu) (hfy : 0 ≤ fy) (hfu : 0 ≤ fu) :
    ∃ n n', SectionCapacity rt kt au d n ∧ SectionCapacity rt kt au d' n' ∧ n ≤ n' := by
  have h0 : 0 ≤ d.radius := by
    obtain ⟨-, -, -, -, -, -, h0, -⟩ := id hs
    linarith
  refine ⟨_, _, ⟨fy, fu, hs, rfl⟩, ⟨fy, fu, thicker_strengths h hs, rfl⟩, ?_⟩
  simp only [hx.mul]
  have hA : piD * (d.radius * d.radius) ≤ piD * (d'.radius * d'.radius) :=
    mul_le_mul_of_nonneg_left (mul_self_le_mul_self h0 h.2.1) (by unfold piD; positivity)
  exact min_le_min (mul_le_mul_of_nonneg_right hA hfy)
    (mul_le_mul_of_nonneg_right (mul_le_mul_of_nonneg_right (mul_le_mul_of_nonneg_right hA hfu) hkt) hau)

/-- C74, part: replacing rods by thicker ones in the same band of the strength table never lowers the capacity. -/
theorem C74_same_band_partial (hx : rt.Exact) (o o' : AS4100 K) (hne : o.dsects ≠ [])
    (hd : List.Forall₂ ThickerInBand o.dsects o'.dsects) (hkt : 0 ≤ o.kt) (hau : 0 ≤ o.alphaU) (hphi : 0 ≤ o.phiSteel)
    (heq : o'.kt = o.kt ∧ o'.alphaU = o.alphaU ∧ o'.phiSteel = o.phiSteel)
    (hs : ∀ d ∈ o.dsects, ∃ fy fu, Strengths d fy fu ∧ 0 ≤ fy ∧ 0 ≤ fu) :
    ∃ c c', o.tensionCapacity rt .none = .ok c ∧ o'.tensionCapacity rt .none = .ok c' ∧ c ≤ c' := by
  have hcap : ∀ d ∈ o.dsects, ∃ n, SectionCapacity rt o.kt o.alphaU d n := by
    intro d hdm
    obtain ⟨fy, fu, h, -⟩ := hs d hdm
    exact ⟨_, fy, fu, h, rfl⟩
  have hcap' : ∀ d ∈ o'.dsects, ∃ n, SectionCapacity rt o'.kt o'.alphaU d n := by
    intro d' hdm
    obtain ⟨d, hdm, h⟩ := forall₂_mem_right hd hdm
    obtain ⟨fy, fu, hst, -⟩ := hs d hdm
    exact ⟨_, fy, fu, thicker_strengths h hst, rfl⟩
  obtain ⟨m, hm, hl⟩ := C29_overall o hne hcap
  obtain ⟨m', hm', hl'⟩ := C29_overall o' (fun h0 => by
    rw [h0] at hd
    exact hne (List.forall₂_nil_right_iff.1 hd)) hcap'
  refine ⟨o.phiSteel * m, o'.phiSteel * m', ?_, ?_, ?_⟩
  · simp [AS4100.tensionCapacity, AS4100.phiNt, hm, bind, Except.bind, pure, Except.pure, hx.mul]
  · simp [AS4100.tensionCapacity, AS4100.phiNt, hm', bind, Except.bind, pure, Except.pure, hx.mul]
  · rw [heq.2.2]
    refine mul_le_mul_of_nonneg_left ?_ hphi
    obtain ⟨d', hdm', hc'⟩ := hl'.1
    obtain ⟨d, hdm, h⟩ := forall₂_mem_right hd hdm'
    obtain ⟨fy, fu, hst, h1, h2⟩ := hs d hdm
    obtain ⟨n, n', g1, g2, hle⟩ := thicker_capacity hx hkt hau h hst h1 h2
    rw [heq.1, heq.2.1] at hc'
    rw [sectionCapacity_unique hc' g2]
    exact (hl.2 ⟨d, hdm, g1⟩).trans hle

end

/-! ## Concrete cases -/

/-- The rod under twice the tension and with φ = 0.8. -/
def worseRod : AS4100 ℚ := { Samples.constObj (Num.flt 1) 2000 with phiSteel := 8/10 }

theorem constObj_loaded (n : ℚ) : LoadedFloat (⟨[⟨[(1, ⟨some ⟨false, [Samples.axial 0 n, Samples.axial 1 n]⟩⟩)],
    some (Num.flt 1), Samples.rod (1/100)⟩]⟩ : Beam ℚ (Sect ℚ)) 1 := by
  intro i hi
  obtain rfl : i = 0 := by simpa using hi
  refine ⟨_, ⟨_, rfl, rfl, ⟨?_, ?_⟩, by simp⟩, rfl⟩
  · simp [Samples.axial]
  · simp [Samples.axial]

theorem worseRod_capacity : NoMoreCapacity Samples.rt (Samples.constObj (Num.flt 1) 1000) worseRod := by
  have h : Strengths (⟨1/100, Samples.steel⟩ : DSect ℚ) 250000000 410000000 :=
    strengths_iff.2 ⟨by decide +kernel, by decide +kernel⟩
  exact ⟨by decide +kernel, by decide +kernel,
    .cons ⟨_, _, ⟨_, _, h, rfl⟩, ⟨_, _, h, rfl⟩, by decide +kernel, by decide +kernel⟩ .nil⟩

theorem worseRod_loads : NoLessTension (⟨[⟨[(1, ⟨some ⟨false, [Samples.axial 0 1000, Samples.axial 1 1000]⟩⟩)],
      some (Num.flt 1), Samples.rod (1/100)⟩]⟩ : Beam ℚ (Sect ℚ))
    ⟨[⟨[(1, ⟨some ⟨false, [Samples.axial 0 2000, Samples.axial 1 2000]⟩⟩)], some (Num.flt 1), Samples.rod (1/100)⟩]⟩ :=
  .cons ⟨rfl, .cons ⟨rfl, Or.inr ⟨_, _, rfl, rfl, rfl, .cons ⟨rfl, by decide +kernel⟩
    (.cons ⟨rfl, by decide +kernel⟩ .nil)⟩⟩ .nil⟩ .nil

/-- C73, concretely: the utilisations of the two rods, at the middle and overall. -/
example : ∃ u u', (Samples.constObj (Num.flt 1) 1000).tensionUtilisation Samples.rt .none (.scalar (Num.flt (1/2))) = .ok u ∧
    worseRod.tensionUtilisation Samples.rt .none (.scalar (Num.flt (1/2))) = .ok u' ∧ u ≤ u' ∧
    (Samples.constObj (Num.flt 1) 1000).tensionUtilisation Samples.rt .none .none = .ok u ∧
    worseRod.tensionUtilisation Samples.rt .none .none = .ok u' := by
  have h1 : (Samples.constObj (Num.flt 1) 1000).tensionUtilisation Samples.rt .none (.scalar (Num.flt (1/2)))
      = .ok (1000 / Samples.thinCap) := by decide +kernel
  have h2 : worseRod.tensionUtilisation Samples.rt .none (.scalar (Num.flt (1/2)))
      = .ok (2000 / (Samples.thinCap * (8/9))) := by decide +kernel
  refine ⟨_, _, h1, h2, ?_, by decide +kernel, by decide +kernel⟩
  refine C73_positions (Rt.exact_exact ℚ) (Rt.exact_sortOK ℚ) (Samples.constObj (Num.flt 1) 1000) worseRod _ _ rfl rfl
    (.cons ⟨rfl, rfl⟩ .nil) (.cons ⟨rfl, rfl⟩ .nil) [Num.flt 1] ⟨.cons rfl .nil, by decide +kernel⟩ (by simp)
    worseRod_loads worseRod_capacity .none [1] (Or.inr (Or.inr ⟨rfl, _, _, _, rfl, rfl, rfl⟩)) (by simp) ?_
    (.scalar (Num.flt (1/2))) [1/2] (Or.inr ⟨1/2, rfl, rfl⟩) (by simp) ?_ _ _ h1 h2
  · intro c hc
    rw [List.mem_singleton.1 hc]
    exact constObj_loaded 1000
  · intro p hp
    rw [List.mem_singleton.1 hp]
    decide +kernel

example : (1000 / Samples.thinCap : ℚ) ≤ 2000 / (Samples.thinCap * (8/9)) := by
  refine C73_overall (Rt.exact_exact ℚ) (Rt.exact_sortOK ℚ) (Samples.constObj (Num.flt 1) 1000) worseRod _ _ rfl rfl
    (.cons ⟨rfl, rfl⟩ .nil) (.cons ⟨rfl, rfl⟩ .nil) [Num.flt 1] ⟨.cons rfl .nil, by decide +kernel⟩ (by simp)
    (by decide +kernel) 20 rfl rfl worseRod_loads worseRod_capacity .none [1]
    (Or.inr (Or.inr ⟨rfl, _, _, _, rfl, rfl, rfl⟩)) (by simp) ?_ _ _ (by decide +kernel) (by decide +kernel)
  intro c hc
  rw [List.mem_singleton.1 hc]
  exact constObj_loaded 1000

/-- A rod of the given radius by itself. -/
def plainRod (r : ℚ) : AS4100 ℚ := ⟨none, some (Samples.rod r), 20, [⟨r, Samples.steel⟩], 90/100, 85/100, 1⟩

/-- C74 is false: a rod of 8.02 mm of grade 250 steel has a lower tension capacity than one of 8 mm, because its
strength is that of the next band. -/
theorem C74_counterexample : ∃ c c', (plainRod (400/100000)).tensionCapacity Samples.rt .none = .ok c ∧
    (plainRod (401/100000)).tensionCapacity Samples.rt .none = .ok c' ∧ c' < c := by
  have h1 : (match (plainRod (400/100000)).tensionCapacity Samples.rt .none,
      (plainRod (401/100000)).tensionCapacity Samples.rt .none with
      | .ok c, .ok c' => decide (c' < c)
      | _, _ => false) = true := by decide +kernel
  split at h1
  · rename_i c c' h h'
    exact ⟨c, c', h, h', of_decide_eq_true h1⟩
  · cases h1

/-- C74 within a band, concretely: rods of 8.02 mm and 12 mm. -/
example : ∃ c c', (plainRod (401/100000)).tensionCapacity Samples.rt .none = .ok c ∧
    (plainRod (600/100000)).tensionCapacity Samples.rt .none = .ok c' ∧ c ≤ c' := by
  refine C74_same_band_partial (Rt.exact_exact ℚ) _ _ (by simp [plainRod]) (.cons ⟨rfl, ?_, ?_⟩ .nil) ?_ ?_ ?_
    ⟨rfl, rfl, rfl⟩ ?_
  · decide +kernel
  · intro ts rows h
    cases h
    decide +kernel
  · decide +kernel
  · decide +kernel
  · decide +kernel
  · intro d hd
    rw [List.mem_singleton.1 hd]
    exact ⟨260000000, 410000000, strengths_iff.2 ⟨by decide +kernel, by decide +kernel⟩, by decide +kernel,
      by decide +kernel⟩

end BeamDesign
