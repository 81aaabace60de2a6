import Verif.Model.Axes
import Verif.Props.Torsion

/-!
# C57 for axes given as a string
-/

namespace BeamDesign

theorem substringIn_singleton (c : Char) (s : List Char) : substringIn [c] s = true ↔ c ∈ s := by
  induction s with
  | nil => simp [substringIn]
  | cons d s ih => simp [substringIn, ih, List.isPrefixOf]

/-- C57: a string of axes is classified and counted as the list of its letters; so `"xy"` has two axes, and a string is never point
symmetric: `"point"` itself has none of the symmetries. -/
theorem C57_text (s : String) :
    Symmetry.symmetry ⟨some (s.toList.map fun c => Axis.str (String.ofList [c]))⟩ = .ok (symmetryOfText s) ∧
    Symmetry.symcount ⟨some (s.toList.map fun c => Axis.str (String.ofList [c]))⟩ = .ok (symcountOfText s) ∧
    symmetryOfText s ≠ .point ∧
    (symmetryOfText s = .double ↔ s = "xy" ∨ s = "yx") ∧
    (symmetryOfText s = .single ↔ s.length = 1) := by
  have hone : ∀ (c : Char) (t : String), t.length ≠ 1 → String.ofList [c] ≠ t := by
    rintro c t ht rfl
    exact ht (by simp)
  have hany : ∀ (c : Char) (l : List Char),
      ((l.map fun c => Axis.str (String.ofList [c])).any (Axis.isStr (String.ofList [c])) = true) ↔ c ∈ l := by
    intro c l
    simp [Axis.isStr, List.any_map]
  have hlong : ∀ (t : String) (l : List Char), t.length ≠ 1 →
      (l.map fun c => Axis.str (String.ofList [c])).any (Axis.isStr t) = false := by
    intro t l ht
    rw [List.any_eq_false]
    intro a ha
    obtain ⟨c, -, rfl⟩ := List.mem_map.1 ha
    simpa [Axis.isStr] using hone c t ht
  have hfirst : s.toList.length = 1 → ∀ t : String, t.length ≠ 1 → String.ofList (s.toList.take 1) ≠ t := by
    intro hl t ht
    obtain ⟨c, hc⟩ := List.length_eq_one_iff.1 hl
    rw [hc]
    exact hone c t ht
  have hx : substringIn "x".toList s.toList = true ↔ 'x' ∈ s.toList := substringIn_singleton _ _
  have hy : substringIn "y".toList s.toList = true ↔ 'y' ∈ s.toList := substringIn_singleton _ _
  have hnot : ¬ (s.toList.length = 1 ∧ (String.ofList (s.toList.take 1) = "point" ∨ String.ofList (s.toList.take 1) = "Point" ∨
      String.ofList (s.toList.take 1) = "POINT")) := by
    rintro ⟨hl, h | h | h⟩
    · exact hfirst hl _ (by decide) h
    · exact hfirst hl _ (by decide) h
    · exact hfirst hl _ (by decide) h
  have hkind : symmetryOfText s = if s.toList.length = 0 then .none
      else if s.toList.length = 2 ∧ 'x' ∈ s.toList ∧ 'y' ∈ s.toList then .double
      else if s.toList.length = 1 then .single else .none := by
    unfold symmetryOfText
    simp only [hx, hy, if_neg hnot]
  have hdouble : (s.toList.length = 2 ∧ 'x' ∈ s.toList ∧ 'y' ∈ s.toList) ↔ s = "xy" ∨ s = "yx" := by
    constructor
    · rintro ⟨hl, h1, h2⟩
      obtain ⟨a, b, hab⟩ := List.length_eq_two.1 hl
      rw [hab] at h1 h2
      have hs : s = String.ofList [a, b] := by rw [← hab, String.ofList_toList]
      simp only [List.mem_cons, List.not_mem_nil, or_false] at h1 h2
      rcases h1 with rfl | rfl <;> rcases h2 with h2 | h2
      · exact absurd h2 (by decide)
      · subst h2; exact Or.inl hs
      · subst h2; exact Or.inr hs
      · exact absurd h2 (by decide)
    · rintro (rfl | rfl) <;> decide
  refine ⟨?_, ?_, ?_, ?_, ?_⟩
  · rw [hkind, Symmetry.symmetry]
    simp only [hlong "point" _ (by decide), hlong "Point" _ (by decide), hlong "POINT" _ (by decide), List.length_map,
      Bool.false_eq_true, or_self, and_false, if_false]
    have e1 := hany 'x' s.toList
    have e2 := hany 'y' s.toList
    rw [show String.ofList ['x'] = "x" from rfl] at e1
    rw [show String.ofList ['y'] = "y" from rfl] at e2
    simp only [e1, e2]
  · simp [Symmetry.symcount, symcountOfText]
  · rw [hkind]
    split_ifs <;> simp
  · rw [hkind, ← hdouble]
    constructor
    · intro h
      split_ifs at h with _ h2
      exact h2
    · intro h
      rw [if_neg (by omega), if_pos h]
  · rw [hkind, ← String.length_toList]
    constructor
    · intro h
      split_ifs at h with _ _ h3
      exact h3
    · intro h
      rw [if_neg (by omega), if_neg (by omega), if_pos h]

example : symmetryOfText "yx" = .double ∧ symmetryOfText "x" = .single ∧ symmetryOfText "point" = .none ∧
    symmetryOfText "" = .none := by decide

end BeamDesign
