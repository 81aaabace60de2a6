import Verif.Props.Load
import Verif.Props.Beam
import Mathlib.Data.Finset.Dedup

/-!
# C144: the numbers of load positions, load cases and elements
-/

set_option linter.unusedSectionVars false

namespace BeamDesign

open Spec

variable {K S : Type} [Field K] [LinearOrder K] [IsStrictOrderedRing K]

/-- C144: `num_positions` is the number of rows a load case was made of, equal positions counted as often as they occur; without loads it
raises `TypeError`. -/
theorem C144_positions (raw : RawLoads K) (lc : LoadCase K) (h : LoadCase.new raw = .ok lc) :
    (raw = .none → lc.numPositions = .error .typeError) ∧ (∀ r, raw = .row r → lc.numPositions = .ok 1) ∧
    (∀ n rows, raw = .table n rows → lc.numPositions = .ok rows.length) ∧
    (∀ ps, lc.loadPositions = .ok ps → lc.numPositions = .ok ps.length) := by
  refine ⟨?_, ?_, ?_, fun ps hp => by simp only [LoadCase.numPositions, hp]; rfl⟩
  all_goals
    rcases (C01_accepts_iff raw lc).1 h with ⟨h1, h2⟩ | ⟨r', row, b, h1, h2, -, h4, -⟩ | ⟨rs, rs', b, h1, h2, -, h4, -⟩
    all_goals subst h1
  · intro _; simp [LoadCase.numPositions, LoadCase.loadPositions, h2, bind, Except.bind]
  · intro hx; cases hx
  · intro hx; cases hx
  · intro r hx; cases hx
  · intro r _; simp [LoadCase.numPositions, LoadCase.loadPositions, h4, bind, Except.bind, pure, Except.pure]
  · intro r hx; cases hx
  · intro n rows hx; cases hx
  · intro n rows hx; cases hx
  · intro n rows hx
    cases hx
    simp [LoadCase.numPositions, LoadCase.loadPositions, h4, bind, Except.bind, pure, Except.pure, h2.length_eq]

/-- C144: `no_elements` is the number of elements the beam was made of, the same element counted as often as it occurs. -/
theorem C144_elements (b : Beam K S) :
    (∀ e, Beam.new (.single e) = .ok b → b.noElements = 1) ∧ (∀ es, Beam.new (.list es) = .ok b → b.noElements = es.length) := by
  refine ⟨fun e h => ?_, fun es h => ?_⟩
  · rw [C11_single] at h; cases h; rfl
  · rw [((C11_list_iff es b).1 h).1, List.length_map]; rfl

/-- C144: `no_load_cases` of a beam and of each of its elements is the number of different load cases of any element. -/
theorem C144_cases (arg : ElementsArg K S) (b : Beam K S) (h : Beam.new arg = .ok b)
    (hk : ∀ e ∈ b.elements, (e.loads.map (·.1)).Nodup) (e : Element K S) (he : e ∈ b.elements) :
    e.noLoadCases = (e.loads.map (·.1)).toFinset.card ∧ b.noLoadCases = .ok (e.loads.map (·.1)).toFinset.card ∧
    ∀ e' ∈ b.elements, (e'.loads.map (·.1)).toFinset = (e.loads.map (·.1)).toFinset := by
  have hn : ∀ e ∈ b.elements, e.noLoadCases = (e.loads.map (·.1)).toFinset.card := fun e he =>
    (List.toFinset_card_of_nodup (hk e he)).symm
  have hs : ∀ e' ∈ b.elements, e'.loadCases = e.loadCases := by
    intro e' he'
    cases arg with
    | none => cases h
    | single x =>
      rw [C11_single] at h
      cases h
      rw [List.mem_singleton.1 he, List.mem_singleton.1 he']
    | list es => exact ((C11_list_iff es b).1 h).2.2 e' he' e he
  refine ⟨hn e he, ?_, fun e' he' => congrArg List.toFinset (hs e' he')⟩
  cases hb : b.elements with
  | nil => rw [hb] at he; cases he
  | cons f fs =>
    have h1 := hs f (by rw [hb]; exact List.mem_cons_self)
    rw [← hn e he]
    simp only [Beam.noLoadCases, Beam.loadCases, hb, bind, Except.bind, pure, Except.pure, h1]
    rfl

theorem len_ok (es : List (Element K S)) (h : ∀ e ∈ es, e.length ≠ none) : ∃ ls, es.mapM Element.len = .ok ls := by
  induction es with
  | nil => exact ⟨[], rfl⟩
  | cons x xs ih =>
    obtain ⟨ls, hls⟩ := ih fun e he => h e (List.mem_cons_of_mem _ he)
    obtain ⟨l, hl⟩ := Option.ne_none_iff_exists'.1 (h x List.mem_cons_self)
    have hx : x.len = .ok l := by simp only [Element.len, hl]
    exact ⟨l :: ls, by rw [List.mapM_cons, hx, hls]; rfl⟩

theorem len_error (es : List (Element K S)) (e : Element K S) (he : e ∈ es) (h0 : e.length = none) :
    es.mapM Element.len = .error .typeError := by
  induction es with
  | nil => cases he
  | cons x xs ih =>
    cases hx : x.length with
    | none =>
      have hx : x.len = .error .typeError := by simp only [Element.len, hx]
      rw [List.mapM_cons, hx]; rfl
    | some l =>
      have hx' : x.len = .ok l := by simp only [Element.len, hx]
      rcases List.mem_cons.1 he with rfl | he
      · rw [h0] at hx; cases hx
      · rw [List.mapM_cons, hx', ih he]; rfl

/-- C144: the beam has a length if and only if every element has one; otherwise asking for it raises `TypeError`. -/
theorem C144_length (rt : Rt K) (b : Beam K S) :
    ((∃ l, b.length rt = .ok l) ↔ ∀ e ∈ b.elements, e.length ≠ none) ∧
    ((∃ e ∈ b.elements, e.length = none) → b.length rt = .error .typeError) := by
  have good : (∀ e ∈ b.elements, e.length ≠ none) → ∃ l, b.length rt = .ok l := by
    intro h
    have : ∃ ls, b.elements.mapM Element.len = .ok ls := len_ok _ h
    obtain ⟨ls, hls⟩ := this
    exact ⟨_, by simp only [Beam.length, Beam.lengths, hls, bind, Except.bind, pure, Except.pure]; rfl⟩
  have bad : (∃ e ∈ b.elements, e.length = none) → b.length rt = .error .typeError := by
    rintro ⟨e, he, h0⟩
    have : b.elements.mapM Element.len = .error .typeError := len_error _ e he h0
    simp only [Beam.length, Beam.lengths, this, bind, Except.bind]
  refine ⟨⟨fun ⟨l, hl⟩ e he h0 => ?_, good⟩, bad⟩
  rw [bad ⟨e, he, h0⟩] at hl
  cases hl

/-- four rows, two of them at one position -/
def fourRows : List (LRow ℚ) := [⟨0, 0, 0, 1, 0, 0, 0⟩, ⟨1/2, 0, 0, 1, 0, 0, 0⟩, ⟨1/2, 0, 0, 2, 0, 0, 0⟩, ⟨1, 0, 0, 2, 0, 0, 0⟩]

/-- two load cases on each of three elements, two of which have no length -/
def countBeam : Beam ℚ Unit :=
  ⟨[⟨[(7, ⟨some ⟨false, fourRows⟩⟩), (3, ⟨none⟩)], none, ()⟩, ⟨[(7, ⟨some ⟨false, fourRows⟩⟩), (3, ⟨none⟩)], none, ()⟩,
    ⟨[(7, ⟨none⟩), (3, ⟨some ⟨false, fourRows⟩⟩)], some (Num.int 3), ()⟩]⟩

/-- C144, concretely. -/
example : LoadCase.new (.table 7 (fourRows.map fun r => (rowList r).map Num.flt)) = .ok ⟨some ⟨false, fourRows⟩⟩ ∧
    (⟨some ⟨false, fourRows⟩⟩ : LoadCase ℚ).numPositions = .ok 4 ∧ Beam.new (.list (countBeam.elements.map some)) = .ok countBeam ∧
    countBeam.noElements = 3 ∧ countBeam.noLoadCases = .ok 2 ∧ (∀ e ∈ countBeam.elements, (e.loads.map (·.1)).Nodup) ∧
    countBeam.length (Rt.exact ℚ) = .error .typeError := by
  refine ⟨by decide +kernel, by decide +kernel, by decide +kernel, by decide +kernel, by decide +kernel, by decide +kernel,
    by decide +kernel⟩

end BeamDesign
