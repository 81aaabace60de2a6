import Verif.Model.Arrays
import Verif.Props.Load

/-!
# C121: what a load case is made from, beyond tables of numbers
-/

namespace BeamDesign

open Spec

variable {K : Type} [Field K] [LinearOrder K] [IsStrictOrderedRing K]

/-- C121, refuted: a three dimensional array is accepted although its positions descend from 1 to 0 (its only numbers are those of two
rows of seven), and so is a row whose loads are `None`, and one with a string among them. -/
theorem C121_counterexample :
    LoadCase.checkDeep (K := ℚ)
      ⟨7, [[1, 2, 3, 4, 5, 6, 7].map fun x => [[x]], [0, 2, 3, 4, 5, 6, 7].map fun x => [[x]]]⟩ = .ok () ∧
    LoadCase.checkCells (K := ℚ) [(.num 0, List.replicate 6 .none)] = .ok () ∧
    LoadCase.checkCells (K := ℚ) [(.num 0, [.none, .str "VY", .num 1, .num 0, .num 0, .num 0])] = .ok () := by
  decide +kernel

/-- C121, the part that holds for arrays of three and more dimensions: accepted iff the second dimension is 7, and
in the first column of every block the numbers are from 0 to 1 and do not descend along the last dimension. -/
theorem C121_deep_partial (a : DeepArray K) :
    LoadCase.checkDeep a = .ok () ↔
      a.ncols = 7 ∧ ∀ b ∈ a.blocks, ∀ column, b.head? = some column → ∀ fibre ∈ column,
        fibre.Pairwise (· ≤ ·) ∧ ∀ p ∈ fibre, 0 ≤ p ∧ p ≤ 1 := by
  have hpos : ∀ P : List K → Prop, (∀ f ∈ a.pos, P f) ↔
      ∀ b ∈ a.blocks, ∀ column, b.head? = some column → ∀ fibre ∈ column, P fibre := by
    intro P
    simp only [DeepArray.pos, List.mem_flatMap]
    constructor
    · intro h b hb column hc f hf
      exact h f ⟨b, hb, by rw [hc]; exact hf⟩
    · rintro h f ⟨b, hb, hf⟩
      cases hc : b.head? with
      | none => rw [hc] at hf; simp at hf
      | some column => rw [hc] at hf; exact h b hb column hc f hf
  rw [← hpos fun fibre => fibre.Pairwise (· ≤ ·) ∧ ∀ p ∈ fibre, 0 ≤ p ∧ p ≤ 1]
  unfold LoadCase.checkDeep
  by_cases h7 : a.ncols = 7
  · rw [if_neg (not_not.2 h7)]
    by_cases h1 : a.pos.all diffNonneg = true
    · simp only [h1, Bool.not_true, Bool.false_eq_true, if_false]
      rw [List.all_eq_true] at h1
      split_ifs with h2
      · constructor
        · intro h; cases h
        · rintro ⟨-, h⟩
          exfalso
          simp only [Bool.not_eq_true', Bool.and_eq_false_iff] at h2
          rcases h2 with h2 | h2
          · rw [← Bool.not_eq_true, List.all_eq_true] at h2
            exact h2 fun f hf => List.all_eq_true.2 fun p hp => decide_eq_true ((h f hf).2 p hp).2
          · rw [← Bool.not_eq_true, List.all_eq_true] at h2
            exact h2 fun f hf => List.all_eq_true.2 fun p hp => decide_eq_true ((h f hf).2 p hp).1
      · refine ⟨fun _ => ⟨h7, fun f hf => ⟨(diffNonneg_iff f).1 (h1 f hf), fun p hp => ?_⟩⟩, fun _ => rfl⟩
        simp only [Bool.not_eq_true', Bool.not_eq_false, Bool.and_eq_true, List.all_eq_true,
          decide_eq_true_eq] at h2
        exact ⟨h2.2 f hf p hp, h2.1 f hf p hp⟩
    · simp only [Bool.not_eq_true] at h1
      simp only [h1, Bool.not_false, if_true]
      constructor
      · intro h; cases h
      · rintro ⟨-, h⟩
        rw [← Bool.not_eq_true, List.all_eq_true] at h1
        exact absurd (fun f hf => (diffNonneg_iff f).2 (h f hf).1) h1
  · rw [if_pos h7]
    constructor
    · intro h; cases h
    · exact fun h => absurd h.1 h7

example : LoadCase.checkDeep (K := ℚ) ⟨7, [List.replicate 7 [[0, 1/2], [1/2, 1]]]⟩ = .ok () :=
  (C121_deep_partial _).2 ⟨rfl, by decide +kernel⟩

/-- descending along the last dimension, and a second dimension other than 7 -/
example : LoadCase.checkDeep (K := ℚ) ⟨7, [List.replicate 7 [[1, 0]]]⟩ = .error .assertionError ∧
    LoadCase.checkDeep (K := ℚ) ⟨1, [[[[0, 1, 2, 3, 4, 5, 6]]]]⟩ = .error .loadCaseError := by decide +kernel

/-- C121, the part that holds for tables with entries that are not numbers: accepted iff the positions are numbers from 0 to 1 that do
not descend, and there are no strings or there is a `None`.  In particular a table of numbers is accepted iff its positions are so. -/
theorem C121_cells_partial (rows : List (Cell K × List (Cell K))) :
    LoadCase.checkCells rows = .ok () ↔
      (∃ ps : List K, rows.map Prod.fst = ps.map Cell.num ∧ ps.Pairwise (· ≤ ·) ∧ ∀ p ∈ ps, 0 ≤ p ∧ p ≤ 1) ∧
      ((∀ r ∈ rows, ∀ s, Cell.str s ∉ r.1 :: r.2) ∨ ∃ r ∈ rows, Cell.none ∈ r.1 :: r.2) := by
  have hcells : ∀ P : Cell K → Bool, (rows.flatMap fun r => r.1 :: r.2).any P = true ↔
      ∃ r ∈ rows, ∃ c ∈ r.1 :: r.2, P c = true := by
    intro P
    simp only [List.any_eq_true, List.mem_flatMap]
    constructor
    · rintro ⟨c, ⟨r, hr, hc⟩, h⟩; exact ⟨r, hr, c, hc, h⟩
    · rintro ⟨r, hr, c, hc, h⟩; exact ⟨c, ⟨r, hr, hc⟩, h⟩
  have hnone : (rows.flatMap fun r => r.1 :: r.2).any Cell.isNone = true ↔
      ∃ r ∈ rows, Cell.none ∈ r.1 :: r.2 := by
    rw [hcells]
    constructor
    · rintro ⟨r, hr, c, hc, h⟩
      cases c <;> simp [Cell.isNone] at h
      exact ⟨r, hr, hc⟩
    · rintro ⟨r, hr, h⟩; exact ⟨r, hr, _, h, rfl⟩
  have hstr : (rows.flatMap fun r => r.1 :: r.2).any Cell.isStr = true ↔
      ∃ r ∈ rows, ∃ s, Cell.str s ∈ r.1 :: r.2 := by
    rw [hcells]
    constructor
    · rintro ⟨r, hr, c, hc, h⟩
      cases c <;> simp [Cell.isStr] at h
      exact ⟨r, hr, _, hc⟩
    · rintro ⟨r, hr, s, h⟩; exact ⟨r, hr, _, h, rfl⟩
  have hmap : ∀ (l : List (Cell K × List (Cell K))) (ps : List K),
      (l.mapM fun r => r.1.position) = .ok ps ↔ l.map Prod.fst = ps.map Cell.num := by
    intro l ps
    rw [mapM_eq_ok_iff]
    constructor
    · intro h
      induction h with
      | nil => rfl
      | @cons r p _ _ h1 _ ih =>
        rw [List.map_cons, List.map_cons, ih]
        obtain ⟨c, cs⟩ := r
        cases c <;> cases h1
        rfl
    · intro h
      induction l generalizing ps with
      | nil => cases ps <;> simp at h; exact .nil
      | cons r l ih =>
        cases ps with
        | nil => simp at h
        | cons p ps =>
          simp only [List.map_cons, List.cons.injEq] at h
          refine .cons ?_ (ih ps h.2)
          rw [h.1]; rfl
  unfold LoadCase.checkCells
  by_cases hS : (rows.flatMap fun r => r.1 :: r.2).any Cell.isStr = true ∧
      ¬ (rows.flatMap fun r => r.1 :: r.2).any Cell.isNone = true
  · have : ((rows.flatMap fun r => r.1 :: r.2).any Cell.isStr &&
        !(rows.flatMap fun r => r.1 :: r.2).any Cell.isNone) = true := by
      rw [Bool.and_eq_true, Bool.not_eq_true']
      exact ⟨hS.1, by simpa using hS.2⟩
    simp only [this, if_true]
    constructor
    · intro h; cases h
    · rintro ⟨-, h | h⟩
      · obtain ⟨r, hr, s, hs⟩ := hstr.1 hS.1
        exact absurd hs (h r hr s)
      · exact absurd (hnone.2 h) hS.2
  · have : ((rows.flatMap fun r => r.1 :: r.2).any Cell.isStr &&
        !(rows.flatMap fun r => r.1 :: r.2).any Cell.isNone) = false := by
      rw [← Bool.not_eq_true, Bool.and_eq_true, Bool.not_eq_true']
      rintro ⟨h1, h2⟩
      exact hS ⟨h1, by simpa using h2⟩
    have hright : (∀ r ∈ rows, ∀ s, Cell.str s ∉ r.1 :: r.2) ∨ ∃ r ∈ rows, Cell.none ∈ r.1 :: r.2 := by
      by_contra hcon
      rw [not_or] at hcon
      refine hS ⟨hstr.2 ?_, fun h => hcon.2 (hnone.1 h)⟩
      by_contra hno
      exact hcon.1 fun r hr s hs => hno ⟨r, hr, s, hs⟩
    rw [and_iff_left hright]
    simp only [this, Bool.false_eq_true, if_false]
    cases hm : rows.mapM fun r => r.1.position with
    | error e =>
      constructor
      · intro h; cases h
      · rintro ⟨ps, h, -⟩
        rw [(hmap rows ps).2 h] at hm
        cases hm
    | ok ps =>
      have hps := (hmap rows ps).1 hm
      have huniq : ∀ qs : List K, rows.map Prod.fst = qs.map Cell.num → qs = ps := by
        intro qs h
        have := (hmap rows qs).2 h
        rw [hm] at this
        cases this
        rfl
      show (if (!diffNonneg ps) = true then _ else _) = _ ↔ _
      by_cases h1 : diffNonneg ps = true
      · simp only [h1, Bool.not_true, Bool.false_eq_true, if_false]
        by_cases h2 : (ps.all (fun p => decide (p ≤ 1)) && ps.all (fun p => decide (0 ≤ p))) = true
        · simp only [h2, Bool.not_true, Bool.false_eq_true, if_false]
          rw [Bool.and_eq_true, List.all_eq_true, List.all_eq_true] at h2
          exact ⟨fun _ => ⟨ps, hps, (diffNonneg_iff ps).1 h1, fun p hp =>
            ⟨of_decide_eq_true (h2.2 p hp), of_decide_eq_true (h2.1 p hp)⟩⟩, fun _ => trivial⟩
        · have h2' := h2
          rw [Bool.not_eq_true] at h2'
          simp only [h2', Bool.not_false, if_true]
          constructor
          · intro h; cases h
          · rintro ⟨qs, hq, -, hr⟩
            cases huniq qs hq
            rw [Bool.and_eq_true, List.all_eq_true, List.all_eq_true] at h2
            exact absurd ⟨fun p hp => decide_eq_true (hr p hp).2, fun p hp => decide_eq_true (hr p hp).1⟩ h2
      · have h1' := h1
        rw [Bool.not_eq_true] at h1'
        simp only [h1', Bool.not_false, if_true]
        constructor
        · intro h; cases h
        · rintro ⟨qs, hq, hr, -⟩
          cases huniq qs hq
          exact absurd ((diffNonneg_iff ps).2 hr) h1

example : LoadCase.checkCells (K := ℚ) [(.num 0, [.none, .num 1]), (.num (1/2), [.num 1, .num 1])] = .ok () :=
  (C121_cells_partial _).2 ⟨⟨[0, 1/2], rfl, by decide +kernel, by decide +kernel⟩, Or.inr ⟨_, List.mem_cons_self, by simp⟩⟩

/-- C121: on rows of seven numbers these checks accept what `LoadCase` accepts. -/
theorem C121_numbers (rows : List (LRow K)) :
    LoadCase.checkCells (rows.map fun r => (Cell.num r.pos, [Cell.num r.vx, .num r.vy, .num r.n, .num r.mx, .num r.my, .num r.t]))
        = .ok () ↔
      ∃ lc, LoadCase.new (.table 7 (rows.map fun r => (rowList r).map Num.flt)) = .ok lc := by
  rw [C121_cells_partial]
  have hstr : ∀ r ∈ rows.map fun r : LRow K => (Cell.num r.pos, [Cell.num r.vx, .num r.vy, .num r.n, .num r.mx, .num r.my,
      .num r.t]), ∀ s, Cell.str s ∉ r.1 :: r.2 := by
    intro r hr s
    obtain ⟨x, -, rfl⟩ := List.mem_map.1 hr
    simp
  rw [and_iff_left (Or.inl hstr), List.map_map]
  have hrows : ∀ l : List (LRow K), List.Forall₂ (fun r row => r.map (·.val) = rowList row)
      (rows.map fun r => (rowList r).map Num.flt) l → l = rows := by
    intro l h
    rw [List.forall₂_map_left_iff] at h
    clear hstr
    induction h with
    | nil => rfl
    | @cons a b _ _ h1 _ ih =>
      rw [ih]
      simp only [List.map_map, Num.flt, Function.comp_def, List.map_id'] at h1
      cases a; cases b
      simp_all [rowList]
  constructor
  · rintro ⟨ps, hps, hpw, h01⟩
    have hps' : ps = rows.map (·.pos) := by
      have : ps.map (Cell.num (K := K)) = (rows.map (·.pos)).map Cell.num := by rw [← hps, List.map_map]; rfl
      exact List.map_injective_iff.2 (fun a b h => by injection h) this
    subst hps'
    refine ⟨⟨some ⟨allInt (rows.map fun r => (rowList r).map Num.flt).flatten, rows⟩⟩, (C01_accepts_iff _ _).2
      (Or.inr (Or.inr ⟨_, rows, _, rfl, ?_, ⟨List.pairwise_map.1 hpw, ?_⟩, rfl, ?_⟩))⟩
    · rw [List.forall₂_map_left_iff]
      exact List.forall₂_same.2 fun r _ => by simp [Num.flt, Function.comp_def]
    · exact fun r hr => h01 r.pos (List.mem_map_of_mem hr)
    · cases rows <;> simp [allInt, Num.flt, rowList]
  · rintro ⟨lc, h⟩
    rcases (C01_accepts_iff _ _).1 h with ⟨h, -⟩ | ⟨_, _, _, h, -⟩ | ⟨rs, rows', b, hraw, hf, hwf, -⟩
    · cases h
    · cases h
    · cases hraw
      cases hrows rows' hf
      refine ⟨rows.map (·.pos), by rw [List.map_map]; rfl, List.pairwise_map.2 hwf.1, fun p hp => ?_⟩
      obtain ⟨r, hr, rfl⟩ := List.mem_map.1 hp
      exact hwf.2 r hr

example : ∃ lc, LoadCase.new (K := ℚ) (.table 7 ([⟨0, 1, 2, 3, 4, 5, 6⟩, ⟨1, 1, 2, 3, 4, 5, 6⟩].map
    fun r : LRow ℚ => (rowList r).map Num.flt)) = .ok lc :=
  (C121_numbers _).1 (by decide +kernel)

end BeamDesign
