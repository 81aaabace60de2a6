import Verif.Props.Load

/-! # C01 for a single row with a position outside `[0, 1]` -/

set_option linter.unusedSectionVars false

namespace BeamDesign

open Spec

variable {K : Type} [Field K] [LinearOrder K] [IsStrictOrderedRing K]

/-- C01: a single row of seven numbers with a position outside `[0, 1]` is an `AssertionError`. -/
theorem C01_bad_row (r : List (Num K)) (row : LRow K) (hr : r.map (·.val) = rowList row) (hbad : row.pos < 0 ∨ 1 < row.pos) :
    LoadCase.new (.row r) = .error .assertionError := by
  have hlen : r.length = 7 := by
    have := congrArg List.length hr
    simpa [rowList] using this
  have hb := C01_bad_positions [r] [row] (.cons hr .nil) (Or.inr ⟨row, by simp, hbad⟩)
  simp only [LoadCase.new] at hb ⊢
  simp [hlen] at hb ⊢
  have ho : LRow.ofList r = some row := by
    have := filterMap_ofList [r] [row] (.cons hr .nil)
    cases h : LRow.ofList r with
    | none => simp [h] at this
    | some x => simpa [h] using this
  rw [ho]
  simpa [ho] using hb

example : LoadCase.new (.row ([2, 1, 2, 3, 4, 5, 6].map Num.flt) : RawLoads ℚ) = .error .assertionError := by decide +kernel

end BeamDesign
