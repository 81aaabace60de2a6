import Verif.Spec.Beam
import Mathlib.Data.Rat.Floor
import Mathlib.Algebra.Order.Field.Rat

/-! # Concrete data used to show that hypotheses can be met -/

namespace BeamDesign.Samples

open BeamDesign

/-- A load table with a discontinuity at 1/2. -/
def rows : List (LRow ℚ) :=
  [⟨0, 1, 2, 3, 4, 5, 6⟩, ⟨1/2, 1, 2, 3, 4, 5, 6⟩, ⟨1/2, 1, 2, 4, 4, 5, 6⟩, ⟨1, 1, 2, -10, 4, 5, 6⟩]

/-- The same table as user input (floats). -/
def raw : RawLoads ℚ :=
  .table 7 (rows.map fun r => (Spec.rowList r).map Num.flt)

/-- The load case. -/
def lc : LoadCase ℚ := ⟨some ⟨false, rows⟩⟩

/-- The exact run-time. -/
abbrev rt : Rt ℚ := Rt.exact ℚ

/-- An element with load case 7. -/
def elem (l : ℚ) (sect : String) : Element ℚ String := ⟨[(7, lc)], some (Num.flt l), sect⟩

/-- A beam of three elements, the middle one of zero length. -/
def beam : Beam ℚ String := ⟨[elem 2 "A", elem 0 "B", elem 3 "C"]⟩

/-- Its element lengths. -/
def lens : List (Num ℚ) := [Num.flt 2, Num.flt 0, Num.flt 3]

theorem wf : Spec.WellFormed rows := by
  unfold Spec.WellFormed; decide +kernel

theorem beam_lens : Spec.HasLengths beam lens := by
  refine ⟨?_, by decide +kernel⟩
  repeat first | exact List.Forall₂.nil | refine List.Forall₂.cons rfl ?_

theorem beam_loaded : Spec.LoadedFloat beam 7 := by
  intro i hi
  have : i = 0 ∨ i = 1 ∨ i = 2 := by
    have : beam.elements.length = 3 := rfl
    omega
  refine ⟨⟨false, rows⟩, ?_, rfl⟩
  rcases this with rfl | rfl | rfl
  · exact ⟨elem 2 "A", rfl, rfl, wf, by simp [rows]⟩
  · exact ⟨elem 0 "B", rfl, rfl, wf, by simp [rows]⟩
  · exact ⟨elem 3 "C", rfl, rfl, wf, by simp [rows]⟩

end BeamDesign.Samples
