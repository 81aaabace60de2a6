import Verif.Lemmas.AS4100
import Verif.Props.Material
import Verif.Props.Beam
import Verif.Spec.SamplesAS

set_option linter.unusedSectionVars false
set_option linter.unusedSimpArgs false

/-! # The AS4100 object: capacities (C22, C23, C28 to C30) -/

namespace BeamDesign

open Spec

variable {K : Type} [Field K] [LinearOrder K] [IsStrictOrderedRing K]

/-! ## C28: building an object -/

theorem aligned_iff (o : AS4100 K) :
    Aligned o ↔ List.Forall₂ (fun s d => DSect.factory s = .ok d) (sectionsOf o.beam o.sect) o.dsects := by
  unfold Aligned sectionsOf Beam.sections
  simp only [C28_factory_iff]
  rcases o.beam with _ | b <;> rcases o.sect with _ | s <;> rfl

/-- C28: an `AS4100` object on a beam or a section is built iff all sections are steel circles; the object then keeps
what it was given and has one design section per section. -/
theorem C28_object_iff (phi alphaU kt : K) (beam : Option (Beam K (Sect K))) (sect : Option (Sect K))
    (hsome : beam ≠ none ∨ sect ≠ none) (o : AS4100 K) :
    AS4100.new phi alphaU kt beam sect = .ok o ↔
      o.beam = beam ∧ o.sect = sect ∧ o.assessmentPoints = 20 ∧ o.phiSteel = phi ∧ o.alphaU = alphaU ∧
      o.kt = kt ∧ Aligned o := by
  have hnew : AS4100.new phi alphaU kt beam sect = (do
      let ds ← (sectionsOf beam sect).mapM DSect.factory
      return ⟨beam, sect, defaultAssessmentPoints, ds, phi, alphaU, kt⟩) := by
    unfold AS4100.new
    rcases beam with _ | b
    · rcases sect with _ | s
      · simp at hsome
      · rfl
    · rfl
  rw [hnew, aligned_iff]
  simp only [bind, Except.bind, pure, Except.pure]
  constructor
  · intro h
    split at h
    · cases h
    · rename_i ds hds
      cases h
      exact ⟨rfl, rfl, rfl, rfl, rfl, rfl, (mapM_ok_iff _ _ _).1 hds⟩
  · rintro ⟨rfl, rfl, h3, rfl, rfl, rfl, h⟩
    rw [(mapM_ok_iff _ _ _).2 h]
    obtain ⟨b, s, n, ds, p, a, k⟩ := o
    simp only at h3
    simp [defaultAssessmentPoints, h3]

/-- C28: which error building an object raises: that of the first section for which no design section can be
built.  Without a beam and a section there is no object. -/
theorem C28_object_errors (phi alphaU kt : K) (beam : Option (Beam K (Sect K))) (sect : Option (Sect K)) :
    AS4100.new phi alphaU kt none none = .error .codeCheckError ∧
    ∀ pre s post e, sectionsOf beam sect = pre ++ s :: post → (∀ s' ∈ pre, ∃ d, DSect.factory s' = .ok d) →
      DSect.factory s = .error e → AS4100.new phi alphaU kt beam sect = .error e := by
  refine ⟨rfl, ?_⟩
  intro pre s post e hs hpre he
  have hm : (pre ++ s :: post).mapM DSect.factory = .error e := by
    clear hs
    induction pre with
    | nil => simp [List.mapM_cons, he, bind, Except.bind]
    | cons a pre ih =>
      obtain ⟨d, hd⟩ := hpre a List.mem_cons_self
      have := ih fun s' h => hpre s' (List.mem_cons_of_mem _ h)
      simp only [List.cons_append, List.mapM_cons, hd, bind, Except.bind, this]
  rw [← hs] at hm
  unfold AS4100.new
  rcases beam with _ | b
  · rcases sect with _ | s
    · simp [sectionsOf] at hs
    · simp [hm, bind, Except.bind]
  · simp [hm, bind, Except.bind]

/-! ## C22, C23: sections at a position -/

theorem pyIndex_nat_ok {α : Type} {xs : List α} {i : ℕ} {x : α} (h : pyIndex xs (i : ℤ) = .ok x) :
    xs[i]? = some x := by
  obtain ⟨j, hj, h | h⟩ := (pyIndex_ok_iff xs i x).1 h
  · obtain rfl : i = j := by omega
    exact hj
  · have := (List.getElem?_eq_some_iff.1 hj).1
    omega

theorem pyIndex_forall₂ {α β : Type} {R : α → β → Prop} {xs : List α} {ys : List β} (h : List.Forall₂ R xs ys)
    {i : ℕ} {x : α} (hx : pyIndex xs (i : ℤ) = .ok x) : ∃ y, pyIndex ys (i : ℤ) = .ok y ∧ R x y := by
  have hx' : xs[i]? = some x := pyIndex_nat_ok hx
  obtain ⟨hi, rfl⟩ := List.getElem?_eq_some_iff.1 hx'
  have hi' : i < ys.length := h.length_eq ▸ hi
  refine ⟨ys[i], pyIndex_nat ys i _ (List.getElem?_eq_getElem hi'), ?_⟩
  exact (List.forall₂_iff_get.1 h).2 i hi hi'

/-- C22: the design sections at given positions are those of the sections `Beam.get_section` gives, in the same
order and at the same positions. -/
theorem C22_design_section {rt : Rt K} (o : AS4100 K) (b : Beam K (Sect K)) (hb : o.beam = some b)
    (ha : Aligned o) (position : PosArg K) (minPos loadCase : Option ℤ) (out : List (Num K × Sect K))
    (h : b.getSection rt position minPos loadCase = .ok out) :
    ∃ out', o.getDSection rt position minPos loadCase = .ok out' ∧
      List.Forall₂ (fun ps pd => ps.1 = pd.1 ∧ ps.2 = .circle pd.2.radius (some pd.2.material)) out out' := by
  unfold Aligned at ha
  simp only [hb] at ha
  unfold Beam.getSection at h
  unfold AS4100.getDSection
  simp only [hb]
  rcases hl : b.listPositions rt position minPos loadCase with e | locs
  · simp [hl, bind, Except.bind] at h
  simp only [hl, bind, Except.bind] at h ⊢
  have h2 := (mapM_ok_iff _ _ _).1 h
  clear h hl
  induction h2 with
  | nil => exact ⟨[], rfl, .nil⟩
  | @cons l ps locs out h1 _ ih =>
    obtain ⟨out', hout', hf⟩ := ih
    simp only [pure, Except.pure] at h1
    split at h1
    · cases h1
    · rename_i e he
      cases h1
      have he' : pyIndex (b.elements.map fun e => e.sect) (l.elem : ℤ) = .ok e.sect :=
        pyIndex_nat _ _ _ (by rw [List.getElem?_map, pyIndex_nat_ok he]; rfl)
      obtain ⟨d, hd, hs, -⟩ := pyIndex_forall₂ ha he'
      refine ⟨(l.pos, d) :: out', ?_, .cons ⟨rfl, hs⟩ hf⟩
      simp only [List.mapM_cons, hd, bind, Except.bind, pure, Except.pure] at hout' ⊢
      rw [hout']

/-- C22: without a beam both queries raise `SectionOnlyError`. -/
theorem C22_section_only {rt : Rt K} (o : AS4100 K) (hb : o.beam = none) (position : PosArg K)
    (minPos loadCase : Option ℤ) :
    o.getDSection rt position minPos loadCase = .error .sectionOnly ∧
    o.getSection rt position minPos loadCase = .error .sectionOnly := by
  simp [AS4100.getDSection, AS4100.getSection, AS4100.superGetSection, hb]

/-- C22: the query of the base class, which `AS4100.get_section` calls, gives what the beam gives for the same positions, number of positions
and load case. -/
theorem C22_base (rt : Rt K) (o : AS4100 K) (position : PosArg K) (minPos loadCase : Option ℤ) :
    (∀ b, o.beam = some b → o.superGetSection rt position minPos loadCase = b.getSection rt position minPos loadCase) ∧
    (o.beam = none → o.superGetSection rt position minPos loadCase = .error .sectionOnly) := by
  constructor <;> intro <;> simp_all [AS4100.superGetSection]

/-- C23 (part): with explicit positions `AS4100.get_section` gives what `Beam.get_section` gives (the load case does
not matter then for elements of non-zero length).  Missing: `min_positions` and `load_case`, see
`C23_counterexample`. -/
theorem C23_explicit_partial {rt : Rt K} (o : AS4100 K) (b : Beam K (Sect K)) (hb : o.beam = some b)
    (position : PosArg K) :
    o.getSection rt position none none = b.getSection rt position none none := by
  simp [AS4100.getSection, AS4100.superGetSection, hb]

/-- C23 is false: for every object with a beam, asking `AS4100.get_section` for a number of positions raises
`InvalidPositionError`, whatever the number and load case. -/
theorem C23_counterexample {rt : Rt K} (o : AS4100 K) (b : Beam K (Sect K)) (hb : o.beam = some b) (n : ℤ)
    (loadCase : Option ℤ) :
    o.getSection rt .none (some n) loadCase = .error .invalidPosition := by
  simp [AS4100.getSection, AS4100.superGetSection, hb, Beam.getSection,
    (C15_arguments b none n (.list []) (by simp) 0).1, bind, Except.bind]

/-! ## C29, C30: capacities -/

/-- All design sections of the list have strengths for their thickness. -/
theorem mapM_all_ok {α β : Type} (f : α → Py β) (xs : List α) (h : ∀ x ∈ xs, ∃ y, f x = .ok y) :
    ∃ ys, xs.mapM f = .ok ys ∧ List.Forall₂ (fun x y => f x = .ok y) xs ys := by
  induction xs with
  | nil => exact ⟨[], rfl, .nil⟩
  | cons x xs ih =>
    obtain ⟨y, hy⟩ := h x List.mem_cons_self
    obtain ⟨ys, hys, hf⟩ := ih fun x hx => h x (List.mem_cons_of_mem _ hx)
    exact ⟨y :: ys, by simp [List.mapM_cons, hy, hys, bind, Except.bind, pure, Except.pure], .cons hy hf⟩

theorem forall₂_mem_left {α β : Type} {R : α → β → Prop} {xs : List α} {ys : List β} (h : List.Forall₂ R xs ys)
    {x : α} (hx : x ∈ xs) : ∃ y ∈ ys, R x y := by
  induction h with
  | nil => cases hx
  | cons h _ ih =>
    rcases List.mem_cons.1 hx with rfl | hx
    · exact ⟨_, List.mem_cons_self, h⟩
    · obtain ⟨y, hy, hr⟩ := ih hx
      exact ⟨y, List.mem_cons_of_mem _ hy, hr⟩

theorem forall₂_mem_right {α β : Type} {R : α → β → Prop} {xs : List α} {ys : List β} (h : List.Forall₂ R xs ys)
    {y : β} (hy : y ∈ ys) : ∃ x ∈ xs, R x y := by
  induction h with
  | nil => cases hy
  | cons h _ ih =>
    rcases List.mem_cons.1 hy with rfl | hy
    · exact ⟨_, List.mem_cons_self, h⟩
    · obtain ⟨y, hy, hr⟩ := ih hy
      exact ⟨y, List.mem_cons_of_mem _ hy, hr⟩

/-- The capacity over the design sections considered. -/
theorem Nt_of_considered {rt : Rt K} (o : AS4100 K) (position : PosArg K) (ds : List (DSect K))
    (hds : o.considered rt position = .ok ds) (hne : ds ≠ [])
    (hcap : ∀ d ∈ ds, ∃ n, SectionCapacity rt o.kt o.alphaU d n) :
    ∃ m, o.Nt rt position = .ok m ∧ IsLeast {n | ∃ d ∈ ds, SectionCapacity rt o.kt o.alphaU d n} m := by
  obtain ⟨ys, hys, hfy⟩ := mapM_all_ok (fun s : DSect K => do return s7Nty rt (s.Ag rt) (← s.minFy)) ds (by
    intro d hd
    obtain ⟨n, fy, fu, h12, -⟩ := hcap d hd
    obtain ⟨h1, h2⟩ := strengths_iff.1 h12
    exact ⟨_, by rw [h1]; rfl⟩)
  obtain ⟨us, hus, hfu⟩ := mapM_all_ok
    (fun s : DSect K => do return s7Ntu rt (s.An rt) (← s.minFu) o.kt o.alphaU) ds (by
    intro d hd
    obtain ⟨n, fy, fu, h12, -⟩ := hcap d hd
    obtain ⟨h1, h2⟩ := strengths_iff.1 h12
    exact ⟨_, by rw [h2]; rfl⟩)
  have hyne : ys ≠ [] := by
    rintro rfl
    cases hfy
    exact hne rfl
  have hune : us ≠ [] := by
    rintro rfl
    cases hfu
    exact hne rfl
  obtain ⟨a, ha⟩ := pyMin_ne hyne
  obtain ⟨c, hc⟩ := pyMin_ne hune
  have hla := pyMin_ok ha
  have hlc := pyMin_ok hc
  have hy : o.Nty rt position = .ok a := by
    simp only [AS4100.Nty, hds, bind, Except.bind] at hys ⊢
    rw [hys]
    exact ha
  have hu : o.Ntu rt position = .ok c := by
    simp only [AS4100.Ntu, hds, bind, Except.bind] at hus ⊢
    rw [hus]
    exact hc
  refine ⟨min a c, by simp only [AS4100.Nt, hy, hu, bind, Except.bind, pure, Except.pure], ?_, ?_⟩
  · -- attained
    have key : ∀ d ∈ ds, ∀ n, SectionCapacity rt o.kt o.alphaU d n → min a c ≤ n := by
      rintro d hd n ⟨fy, fu, h12, rfl⟩
      obtain ⟨h1, h2⟩ := strengths_iff.1 h12
      obtain ⟨y, hy, e⟩ := forall₂_mem_left hfy hd
      obtain ⟨u, hu, e'⟩ := forall₂_mem_left hfu hd
      simp only [h1, h2, bind, Except.bind, pure, Except.pure, Except.ok.injEq] at e e'
      refine min_le_min ?_ ?_
      · exact le_of_le_of_eq (hla.2 hy) e.symm
      · exact le_of_le_of_eq (hlc.2 hu) e'.symm
    rcases le_total a c with hac | hac
    · rw [min_eq_left hac]
      obtain ⟨d, hd, e⟩ := forall₂_mem_right hfy hla.1
      obtain ⟨n, hn⟩ := hcap d hd
      refine ⟨d, hd, ?_⟩
      have hle := key d hd n hn
      obtain ⟨fy, fu, h12, rfl⟩ := hn
      refine ⟨fy, fu, h12, ?_⟩
      obtain ⟨h1, h2⟩ := strengths_iff.1 h12
      simp only [h1, bind, Except.bind, pure, Except.pure, Except.ok.injEq] at e
      rw [min_eq_left hac] at hle
      have e' : a = rt.mul (rt.mul piD (rt.mul d.radius d.radius)) fy := e.symm
      rw [← e'] at hle ⊢
      exact (min_eq_left (le_trans hle (min_le_right _ _))).symm
    · rw [min_eq_right hac]
      obtain ⟨d, hd, e⟩ := forall₂_mem_right hfu hlc.1
      obtain ⟨n, hn⟩ := hcap d hd
      refine ⟨d, hd, ?_⟩
      have hle := key d hd n hn
      obtain ⟨fy, fu, h12, rfl⟩ := hn
      refine ⟨fy, fu, h12, ?_⟩
      obtain ⟨h1, h2⟩ := strengths_iff.1 h12
      simp only [h2, bind, Except.bind, pure, Except.pure, Except.ok.injEq] at e
      rw [min_eq_right hac] at hle
      have e' : c = rt.mul (rt.mul (rt.mul (rt.mul piD (rt.mul d.radius d.radius)) fu) o.kt) o.alphaU := e.symm
      rw [← e'] at hle ⊢
      exact (min_eq_right (le_trans hle (min_le_left _ _))).symm
  · rintro n ⟨d, hd, fy, fu, h12, rfl⟩
    obtain ⟨h1, h2⟩ := strengths_iff.1 h12
    obtain ⟨y, hy, e⟩ := forall₂_mem_left hfy hd
    obtain ⟨u, hu, e'⟩ := forall₂_mem_left hfu hd
    simp only [h1, h2, bind, Except.bind, pure, Except.pure, Except.ok.injEq] at e e'
    refine min_le_min ?_ ?_
    · exact le_of_le_of_eq (hla.2 hy) e.symm
    · exact le_of_le_of_eq (hlc.2 hu) e'.symm

/-- C29: `Nt()` is the least S7.1 capacity of the sections, in any arithmetic. -/
theorem C29_overall {rt : Rt K} (o : AS4100 K) (hne : o.dsects ≠ [])
    (hcap : ∀ d ∈ o.dsects, ∃ n, SectionCapacity rt o.kt o.alphaU d n) :
    ∃ m, o.Nt rt .none = .ok m ∧
      IsLeast {n | ∃ d ∈ o.dsects, SectionCapacity rt o.kt o.alphaU d n} m :=
  Nt_of_considered o .none o.dsects rfl hne hcap

theorem requested_wrap {position : PosArg K} {xs : List K} (h : Requested position xs) :
    Requested position.wrap xs ∧ ∀ rt : Rt K, ∀ o : AS4100 K, o.considered rt position =
      (do let l ← o.getDSection rt position.wrap none none; return l.map (·.2)) := by
  rcases h with ⟨x, rfl, rfl⟩ | ⟨l, rfl, rfl⟩
  · exact ⟨Or.inr ⟨[Num.flt x], rfl, rfl⟩, fun rt o => rfl⟩
  · exact ⟨Or.inr ⟨l, rfl, rfl⟩, fun rt o => rfl⟩

/-- The design sections considered at given positions: those of the elements there. -/
theorem considered_ok {rt : Rt K} (hx : rt.Exact) (o : AS4100 K) (b : Beam K (Sect K)) (hb : o.beam = some b)
    (ha : Aligned o) (ls : List (Num K)) (h : HasLengths b ls) (position : PosArg K) (xs : List K)
    (hreq : Requested position xs) (hin : ∀ x ∈ xs, 0 ≤ x ∧ x ≤ total ls) :
    ∃ ds, o.considered rt position = .ok ds ∧ ∀ d, d ∈ ds ↔ ∃ p ∈ xs, AtPosition b ls p d := by
  obtain ⟨hreq', hcons⟩ := requested_wrap hreq
  obtain ⟨-, out, -, hout, -, hmem⟩ := C22_get_section hx b ls h position.wrap xs hreq' none (by simp) hin
  obtain ⟨out', hout', hf⟩ := C22_design_section o b hb ha position.wrap none none out hout
  refine ⟨out'.map (·.2), by rw [hcons, hout']; rfl, ?_⟩
  intro d
  rw [List.mem_map]
  constructor
  · rintro ⟨⟨q, d'⟩, hq, rfl⟩
    obtain ⟨⟨q', s⟩, hs, h1, h2⟩ := forall₂_mem_right hf hq
    simp only at h1 h2
    subst h1
    obtain ⟨hp, i, e, hi, he, hes⟩ := (hmem q'.val s).1 ⟨q', hs, rfl⟩
    exact ⟨q'.val, hp, i, e, hi, he, hes.trans h2⟩
  · rintro ⟨p, hp, i, e, hi, he, hes⟩
    obtain ⟨q, hq, -⟩ := (hmem p e.sect).2 ⟨hp, i, e, hi, he, rfl⟩
    obtain ⟨⟨q', d'⟩, hd', h1, h2⟩ := forall₂_mem_left hf hq
    refine ⟨(q', d'), hd', ?_⟩
    simp only at h2 ⊢
    rw [hes] at h2
    obtain ⟨r, m⟩ := d
    obtain ⟨r', m'⟩ := d'
    simp only [Sect.circle.injEq, Option.some.injEq] at h2
    rw [h2.1, h2.2]

/-- C29: `Nt(position=...)` is the least S7.1 capacity of the elements at the given positions. -/
theorem C29_positions {rt : Rt K} (hx : rt.Exact) (o : AS4100 K) (b : Beam K (Sect K)) (hb : o.beam = some b)
    (ha : Aligned o) (ls : List (Num K)) (h : HasLengths b ls) (hls : ls ≠ []) (position : PosArg K) (xs : List K)
    (hreq : Requested position xs) (hxs : xs ≠ []) (hin : ∀ x ∈ xs, 0 ≤ x ∧ x ≤ total ls)
    (hcap : ∀ d ∈ o.dsects, ∃ n, SectionCapacity rt o.kt o.alphaU d n) :
    ∃ m, o.Nt rt position = .ok m ∧
      IsLeast {n | ∃ p ∈ xs, ∃ d, AtPosition b ls p d ∧ SectionCapacity rt o.kt o.alphaU d n} m := by
  obtain ⟨ds, hds, hmem⟩ := considered_ok hx o b hb ha ls h position xs hreq hin
  have hsub : ∀ d ∈ ds, d ∈ o.dsects := by
    intro d hd
    obtain ⟨p, hp, i, e, hi, he, hes⟩ := (hmem d).1 hd
    unfold Aligned at ha
    simp only [hb] at ha
    obtain ⟨d', hd', h2, -⟩ := forall₂_mem_left ha (List.mem_map_of_mem (List.mem_of_getElem? he))
    rw [hes] at h2
    obtain ⟨r, m⟩ := d
    obtain ⟨r', m'⟩ := d'
    simp only [Sect.circle.injEq, Option.some.injEq] at h2
    rw [h2.1, h2.2]
    exact hd'
  have hne : ds ≠ [] := by
    rintro rfl
    obtain ⟨x, hxm⟩ := List.exists_mem_of_ne_nil xs hxs
    obtain ⟨i, hi⟩ := exists_inElement h.2 hls (hin x hxm).1 (hin x hxm).2
    have hlt : i < b.elements.length := by rw [hasLengths_length h]; exact hi.1
    unfold Aligned at ha
    simp only [hb] at ha
    obtain ⟨d, -, hd, -⟩ := forall₂_mem_left ha
      (List.mem_map_of_mem (f := fun e : Element K (Sect K) => e.sect) (List.getElem_mem hlt))
    have := (hmem d).2 ⟨x, hxm, i, _, hi, List.getElem?_eq_getElem hlt, hd⟩
    cases this
  obtain ⟨m, hm, hl⟩ := Nt_of_considered o position ds hds hne fun d hd => hcap d (hsub d hd)
  refine ⟨m, hm, ?_⟩
  have : {n | ∃ d ∈ ds, SectionCapacity rt o.kt o.alphaU d n} =
      {n | ∃ p ∈ xs, ∃ d, AtPosition b ls p d ∧ SectionCapacity rt o.kt o.alphaU d n} := by
    ext n
    constructor
    · rintro ⟨d, hd, hn⟩
      obtain ⟨p, hp, hat⟩ := (hmem d).1 hd
      exact ⟨p, hp, d, hat, hn⟩
    · rintro ⟨p, hp, d, hat, hn⟩
      exact ⟨d, (hmem d).2 ⟨p, hp, hat⟩, hn⟩
  rw [← this]
  exact hl

/-- C29: the capacity of the whole object is not above the capacity at any positions, and the capacity for a list of
positions is the least of the capacities at its members. -/
theorem C29_order {rt : Rt K} (hx : rt.Exact) (o : AS4100 K) (b : Beam K (Sect K)) (hb : o.beam = some b)
    (ha : Aligned o) (ls : List (Num K)) (h : HasLengths b ls) (hls : ls ≠ []) (ps : List K) (hps : ps ≠ [])
    (hin : ∀ x ∈ ps, 0 ≤ x ∧ x ≤ total ls)
    (hcap : ∀ d ∈ o.dsects, ∃ n, SectionCapacity rt o.kt o.alphaU d n) :
    ∃ m m₀, o.Nt rt (.list (ps.map Num.flt)) = .ok m ∧ o.Nt rt .none = .ok m₀ ∧ m₀ ≤ m ∧
      (∀ p ∈ ps, ∃ n, o.Nt rt (.scalar (Num.flt p)) = .ok n) ∧
      IsLeast {n | ∃ p ∈ ps, o.Nt rt (.scalar (Num.flt p)) = .ok n} m := by
  have hreq : Requested (.list (ps.map Num.flt)) ps :=
    Or.inr ⟨_, rfl, by rw [List.map_map]; exact (List.map_id ps).symm⟩
  obtain ⟨m, hm, hl⟩ := C29_positions hx o b hb ha ls h hls _ ps hreq hps hin hcap
  have hsub : ∀ p d, AtPosition b ls p d → d ∈ o.dsects := by
    rintro p d ⟨i, e, hi, he, hes⟩
    unfold Aligned at ha
    simp only [hb] at ha
    obtain ⟨d', hd', h2, -⟩ := forall₂_mem_left ha (List.mem_map_of_mem (List.mem_of_getElem? he))
    rw [hes] at h2
    obtain ⟨r, m⟩ := d
    obtain ⟨r', m'⟩ := d'
    simp only [Sect.circle.injEq, Option.some.injEq] at h2
    rw [h2.1, h2.2]
    exact hd'
  have hne : o.dsects ≠ [] := by
    obtain ⟨p, hp, d, hd, -⟩ := hl.1
    exact List.ne_nil_of_mem (hsub p d hd)
  obtain ⟨m₀, hm₀, hl₀⟩ := C29_overall o hne hcap
  have hone : ∀ p ∈ ps, ∃ n, o.Nt rt (.scalar (Num.flt p)) = .ok n ∧
      IsLeast {n | ∃ p' ∈ [p], ∃ d, AtPosition b ls p' d ∧ SectionCapacity rt o.kt o.alphaU d n} n := fun p hp =>
    C29_positions hx o b hb ha ls h hls _ [p] (Or.inl ⟨p, rfl, rfl⟩) (by simp)
      (fun x hx' => by rw [List.mem_singleton.1 hx']; exact hin p hp) hcap
  refine ⟨m, m₀, hm, hm₀, ?_, fun p hp => ⟨_, (hone p hp).choose_spec.1⟩, ?_, ?_⟩
  · obtain ⟨p, hp, d, hd, hn⟩ := hl.1
    exact hl₀.2 ⟨d, hsub p d hd, hn⟩
  · obtain ⟨p, hp, d, hd, hn⟩ := hl.1
    obtain ⟨n, hn', hln⟩ := hone p hp
    have h1 : n ≤ m := hln.2 ⟨p, List.mem_singleton.2 rfl, d, hd, hn⟩
    obtain ⟨p', hp', d', hd', hc'⟩ := hln.1
    have h2 : m ≤ n := hl.2 ⟨p', by rw [List.mem_singleton.1 hp']; exact hp, d', hd', hc'⟩
    exact ⟨p, hp, by rw [hn', le_antisymm h1 h2]⟩
  · rintro n ⟨p, hp, hn⟩
    obtain ⟨n', hn', hln⟩ := hone p hp
    rw [hn'] at hn
    cases hn
    obtain ⟨p', hp', d', hd', hc'⟩ := hln.1
    exact hl.2 ⟨p', by rw [List.mem_singleton.1 hp']; exact hp, d', hd', hc'⟩

/-- C30 (part): `φNt` and `φNty` are `φ` times `Nt` and `Nty`, and raise the same exceptions; `tension_capacity`
is `φNt`.  Missing: `φNtu`, see `C30_phiNtu_actual` and `C30_counterexample`. -/
theorem C30_phi_partial (rt : Rt K) (o : AS4100 K) (position : PosArg K) :
    (∀ n, o.Nt rt position = .ok n → o.phiNt rt position = .ok (rt.mul o.phiSteel n) ∧
      o.tensionCapacity rt position = .ok (rt.mul o.phiSteel n)) ∧
    (∀ e, o.Nt rt position = .error e → o.phiNt rt position = .error e ∧
      o.tensionCapacity rt position = .error e) ∧
    (∀ n, o.Nty rt position = .ok n → o.phiNty rt position = .ok (rt.mul o.phiSteel n)) ∧
    (∀ e, o.Nty rt position = .error e → o.phiNty rt position = .error e) := by
  refine ⟨fun n h => ?_, fun e h => ?_, fun n h => ?_, fun e h => ?_⟩ <;>
    simp [AS4100.tensionCapacity, AS4100.phiNt, AS4100.phiNty, h, bind, Except.bind, pure, Except.pure]

/-- C30: what `φNtu` really is: `φ` times the yield capacity `Nty`. -/
theorem C30_phiNtu_actual (rt : Rt K) (o : AS4100 K) (position : PosArg K) :
    o.phiNtu rt position = o.phiNty rt position := rfl

/-- C30 is false for `φNtu`: the fracture capacity of the sample (a 20 mm and a 40 mm rod of grade 250) is not what
`φNtu` is based on. -/
theorem C30_counterexample :
    ∃ n u, Samples.obj.Ntu Samples.rt .none = .ok u ∧ Samples.obj.phiNtu Samples.rt .none = .ok n ∧
      n ≠ Samples.obj.phiSteel * u ∧ n < Samples.obj.phiSteel * u :=
  ⟨9/10 * (piD * (1/10000) * 250000000), piD * (1/10000) * 410000000 * (85/100), by decide +kernel,
    by decide +kernel, by decide +kernel, by decide +kernel⟩

/-! The hypotheses of C22, C23, C29 and C30 are met by a beam of two rods. -/

example : AS4100.default (some Samples.rods) none = .ok Samples.obj := by decide +kernel
example : Aligned Samples.obj := Samples.obj_aligned
example : ∀ d ∈ Samples.obj.dsects, ∃ n, SectionCapacity Samples.rt Samples.obj.kt Samples.obj.alphaU d n :=
  Samples.obj_capacity
example : (Samples.obj.Nt Samples.rt (.scalar (Num.flt 1))).toOption ≠
    (Samples.obj.Nt Samples.rt (.scalar (Num.flt 3))).toOption ∧
    Samples.obj.Nt Samples.rt (.scalar (Num.flt 2)) = Samples.obj.Nt Samples.rt .none := by decide +kernel

end BeamDesign
