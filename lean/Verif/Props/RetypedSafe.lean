import Verif.Props.Retyped
import Verif.Props.Safe

/-!
# C119: what tables of floats are known to satisfy also holds for tables entered as whole numbers
-/

set_option linter.unusedSectionVars false

namespace BeamDesign

open Spec

variable {K : Type} [Field K] [LinearOrder K] [IsStrictOrderedRing K] [FloorRing K]

section
variable {S : Type} {b : Beam K S}

theorem float_hasTable {c : ℤ} {i : ℕ} {t : Table K} (h : HasTable b c i t) : HasTable (floatTables b) c i ⟨false, t.rows⟩ := by
  obtain ⟨e, he, hl, hw, hne⟩ := h
  refine ⟨floatElement e, by simp [floatTables, he], ?_, hw, hne⟩
  simp only [floatElement, lookup_float, hl]
  rfl

theorem hasTable_float {c : ℤ} {i : ℕ} {t : Table K} (h : HasTable (floatTables b) c i t) :
    ∃ t', HasTable b c i t' ∧ t'.rows = t.rows := by
  obtain ⟨e, he, hl, hw, hne⟩ := h
  simp only [floatTables, List.getElem?_map, Option.map_eq_some_iff] at he
  obtain ⟨e', he', rfl⟩ := he
  simp only [floatElement, lookup_float, Option.map_eq_some_iff] at hl
  obtain ⟨⟨lc⟩, hlc, hcase⟩ := hl
  rcases lc with _ | t'
  · simp [floatCase] at hcase
  simp only [floatCase, Option.map_some, LoadCase.mk.injEq, Option.some.injEq] at hcase
  subst hcase
  exact ⟨t', ⟨e', he', hlc, hw, hne⟩, rfl⟩

theorem float_loaded {c : ℤ} (h : Loaded b c) : LoadedFloat (floatTables b) c := by
  intro i hi
  obtain ⟨t, ht⟩ := h i (by simpa [floatTables] using hi)
  exact ⟨_, float_hasTable ht, rfl⟩

theorem float_hasLengths {ls : List (Num K)} (h : HasLengths b ls) : HasLengths (floatTables b) ls := by
  refine ⟨?_, h.2⟩
  rw [floatTables, List.forall₂_map_left_iff]
  exact h.1

theorem noIntAtPoint_of {ls : List (Num K)} (h : HasLengths b ls) (hpos : ∀ l ∈ ls, l.isInt = false ∧ 0 < l.val) (c : ℤ) :
    NoIntAtPoint b c ∧ FloatLengths b := by
  have hm : ∀ e ∈ b.elements, ∀ l, e.length = some l → l ∈ ls := by
    intro e he l hl
    obtain ⟨i, hi, rfl⟩ := List.getElem_of_mem he
    have hi' : i < ls.length := by rw [← h.1.length_eq]; exact hi
    have := h.1.get hi hi'
    simp only [List.get_eq_getElem] at this
    rw [hl] at this
    cases this
    exact List.getElem_mem hi'
  constructor
  · intro e he l hl h0
    exact absurd h0 (hpos l (hm e he l hl)).2.ne'
  · intro e he l hl
    exact (hpos l (hm e he l hl)).1

theorem sameNumbers_float (b : Beam K S) : SameNumbers b (floatTables b) := by
  unfold SameNumbers floatTables
  simp only [List.map_map]
  congr 1
  apply List.map_congr_left
  intro e _
  simp only [Function.comp_def, floatElement, List.map_map]
  congr 1
  apply List.map_congr_left
  rintro ⟨k, lc⟩ _
  rcases lc with ⟨_ | t⟩ <;> rfl

end

section
variable {rt : Rt K} {o : AS4100 K} {b : Beam K (Sect K)}

theorem float_aligned (hb : o.beam = some b) (ha : Aligned o) : Aligned ({o with beam := some (floatTables b)} : AS4100 K) := by
  unfold Aligned at ha ⊢
  simp only [hb] at ha
  simp only [floatTables, List.map_map, Function.comp_def, floatElement]
  exact ha

theorem float_casesOf (hb : o.beam = some b) {loadCase : CaseArg} {cs : List ℤ} (h : CasesOf o loadCase cs) :
    CasesOf ({o with beam := some (floatTables b)} : AS4100 K) loadCase cs := by
  rcases h with h | h | ⟨h, b', e, rest, hb', he, hcs⟩
  · exact .inl h
  · exact .inr (.inl h)
  · rw [hb] at hb'
    cases hb'
    refine .inr (.inr ⟨h, floatTables b, floatElement e, rest.map floatElement, rfl, by simp [floatTables, he], ?_⟩)
    rw [hcs]
    simp [floatElement]

/-- The utilisation of the beam is that of the beam with its tables as floats. -/
theorem float_overall (hb : o.beam = some b) {ls : List (Num K)} (h : HasLengths b ls)
    (hpos : ∀ l ∈ ls, l.isInt = false ∧ 0 < l.val) (loadCase : CaseArg) (position : PosArg K) :
    ({o with beam := some (floatTables b)} : AS4100 K).tensionUtilisation rt loadCase position
      = o.tensionUtilisation rt loadCase position :=
  C119_utilisation hb (sameNumbers_float b) loadCase position (fun c => (noIntAtPoint_of h hpos c).1)
    (fun c => (noIntAtPoint_of (float_hasLengths h) hpos c).1) fun _ => (noIntAtPoint_of h hpos 0).2

/-- C119, with C81: also with load tables entered as whole numbers, in the first load case and in every load case whose stations
are among its stations, the axial load is nowhere above the overall utilisation times the design capacity. -/
theorem C119_nowhere_above (hx : rt.Exact) (hs : rt.SortOK) (hb : o.beam = some b) (ha : Aligned o) (ls : List (Num K))
    (h : HasLengths b ls) (hls : ls ≠ []) (hpos : ∀ l ∈ ls, l.isInt = false ∧ 0 < l.val) (n : ℕ)
    (hn : o.assessmentPoints = n) (hphi : 0 < o.phiSteel)
    (hcap : ∀ d ∈ o.dsects, ∃ n, SectionCapacity rt o.kt o.alphaU d n ∧ 0 < n)
    (loadCase : CaseArg) (c : ℤ) (cs : List ℤ) (hcs : CasesOf o loadCase (c :: cs))
    (hc : ∀ k ∈ c :: cs, Loaded b k) (u : K) (hu : o.tensionUtilisation rt loadCase .none = .ok u)
    (k : ℤ) (hk : k ∈ c :: cs) (hst : StationsOf b c k) : NowhereAbove rt o b k u := by
  have hst' : StationsOf (floatTables b) c k := by
    intro i t r ht hr
    obtain ⟨t0, ht0, he⟩ := hasTable_float ht
    obtain ⟨t', r', ht', hr', hp⟩ := hst i t0 r ht0 (by rw [he]; exact hr)
    exact ⟨_, r', float_hasTable ht', hr', hp⟩
  have hall := C81_nowhere_above (rt := rt) hx hs ({o with beam := some (floatTables b)} : AS4100 K) (floatTables b) rfl
    (float_aligned hb ha) ls (float_hasLengths h) hls hpos n hn hphi hcap loadCase c cs (float_casesOf hb hcs)
    (fun k hk => float_loaded (hc k hk)) u ((float_overall hb h hpos loadCase .none).trans hu) k hk hst'
  intro i t cap x v ht hec h0 h1 hax
  refine hall i ⟨false, t.rows⟩ cap x v (float_hasTable ht) ?_ h0 h1 hax
  obtain ⟨e, d, n, he, hsect, hn', hcap'⟩ := hec
  exact ⟨floatElement e, d, n, by simp [floatTables, he], hsect, hn', hcap'⟩

/-- C119, with C72: and with one capacity the overall utilisation is the largest stored tension over the design capacity. -/
theorem C119_largest_stored (hx : rt.Exact) (hs : rt.SortOK) (hb : o.beam = some b) (ha : Aligned o) (ls : List (Num K))
    (h : HasLengths b ls) (hls : ls ≠ []) (hpos : ∀ l ∈ ls, l.isInt = false ∧ 0 < l.val) (n : ℕ)
    (hn : o.assessmentPoints = n) (hphi : 0 < o.phiSteel) (m : K) (hm0 : 0 < m)
    (hm : ∀ d ∈ o.dsects, SectionCapacity rt o.kt o.alphaU d m)
    (loadCase : CaseArg) (c : ℤ) (hcs : CasesOf o loadCase [c]) (hc : Loaded b c) (u : K)
    (hu : o.tensionUtilisation rt loadCase .none = .ok u) :
    IsGreatest {w | ∃ i t r, HasTable b c i t ∧ r ∈ t.rows ∧ w = max r.n 0 / (o.phiSteel * m)} u := by
  have hall := C72_largest_stored (rt := rt) hx hs ({o with beam := some (floatTables b)} : AS4100 K) (floatTables b) rfl
    (float_aligned hb ha) ls (float_hasLengths h) hls hpos n hn hphi m hm0 hm loadCase c (float_casesOf hb hcs)
    (float_loaded hc) u ((float_overall hb h hpos loadCase .none).trans hu)
  have he : {w | ∃ i t r, HasTable b c i t ∧ r ∈ t.rows ∧ w = max r.n 0 / (o.phiSteel * m)}
      = {w | ∃ i t r, HasTable (floatTables b) c i t ∧ r ∈ t.rows ∧ w = max r.n 0 / (o.phiSteel * m)} := by
    ext w
    constructor
    · rintro ⟨i, t, r, ht, hr, hw⟩
      exact ⟨i, _, r, float_hasTable ht, hr, hw⟩
    · rintro ⟨i, t, r, ht, hr, hw⟩
      obtain ⟨t', ht', he⟩ := hasTable_float ht
      exact ⟨i, t', r, ht', by rw [he]; exact hr, hw⟩
  rw [he]
  exact hall

end

/-! ## Example -/

/-- The rod whose first table was entered as whole numbers, with its check. -/
def typedRodObj : AS4100 ℚ :=
  { Samples.obj with beam := some (typedRod true false), dsects := [⟨1 / 100, Samples.steel⟩, ⟨1 / 100, Samples.steel⟩] }

example : Aligned typedRodObj ∧ HasLengths (typedRod true false) [Num.flt 2, Num.flt 3] ∧ Loaded (typedRod true false) 1 ∧
    ¬ LoadedFloat (typedRod true false) 1 ∧
    ∃ u, typedRodObj.tensionUtilisation Samples.rt (.one 1) .none = .ok u ∧ 0 < u := by
  refine ⟨?_, ⟨.cons rfl (.cons rfl .nil), by norm_num [Num.flt]⟩, ?_, ?_, ?_⟩
  · exact .cons ⟨rfl, rfl⟩ (.cons ⟨rfl, rfl⟩ .nil)
  · intro i hi
    have : (typedRod true false).elements.length = 2 := rfl
    rcases (by omega : i = 0 ∨ i = 1) with rfl | rfl
    · exact ⟨_, _, rfl, rfl, by unfold WellFormed; decide +kernel, by simp⟩
    · exact ⟨_, _, rfl, rfl, by unfold WellFormed; decide +kernel, by simp⟩
  · intro h
    obtain ⟨t, ⟨e, he, hl, -, -⟩, ht⟩ := h 0 (by decide)
    cases he
    cases hl
    cases ht
  · have : (typedRodObj.tensionUtilisation Samples.rt (.one 1) .none).toOption.any (fun u => decide (0 < u)) = true := by
      decide +kernel
    rcases hu : typedRodObj.tensionUtilisation Samples.rt (.one 1) .none with er | u
    · rw [hu] at this; simp [Except.toOption] at this
    · rw [hu] at this
      exact ⟨u, rfl, by simpa [Except.toOption] using this⟩

end BeamDesign
