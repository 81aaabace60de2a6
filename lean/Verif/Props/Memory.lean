import Verif.Lemmas.Memory
import Verif.Spec.Memory
import Verif.Spec.SamplesAS

/-!
# Queries do not change the stored loads (C21)

The library writes into the arrays `get_load` and `get_loads` return, and so may the caller.  In the model of
`Verif.Model.Memory` arrays have storage that views share.
-/

set_option linter.unusedSectionVars false
set_option linter.unusedSimpArgs false

namespace BeamDesign

section
variable {K : Type} [Field K] [LinearOrder K] [FloorRing K]

/-- **C21.**  Take an `AS4100` object with a beam.  Let a program make any queries (`get_loads` of an element,
`get_loads` of the beam, `get_tension`, `tension_utilisation`, with any arguments, failing or not), in any order, and
write any numbers into any cells of the arrays it gets.  Afterwards the beam contains exactly the loads it had, and
every query was answered as if it had been the only one: the answer is the function `Query.answer` of the original
object. -/
theorem C21_queries_pure {rt : Rt K} (hs : rt.SortOK) (o : AS4100 K) (b : Beam K (Sect K))
    (steps : List (Step K)) :
    hbeamNow (runProgram rt o b steps).mem (o.inMemory b).1.elements = b ∧
      (runProgram rt o b steps).seen = (queriesOf steps).map (Query.answer rt o b) := by
  obtain ⟨-, h2, h3⟩ := storeLoads_spec b.elements []
  have h3' : hbeamNow (o.inMemory b).2 (o.inMemory b).1.elements = b := h3
  obtain ⟨k1, k2⟩ := program_inv (rt := rt) (o := (o.inMemory b).1) hs h2 steps ⟨(o.inMemory b).2, [], []⟩ (Keep.refl _)
    (fun a ha => (by cases ha))
  refine ⟨?_, ?_⟩
  · exact (hbeamNow_keep h2 k1).trans h3'
  · unfold runProgram
    rw [k2]
    have : (hbeamNow (storeLoads b.elements []).2 (o.inMemory b).1.elements) = b := h3
    rw [this]
    rfl

/-- The same question gets the same answer at any two times in any program. -/
theorem C21_same_answer {rt : Rt K} (hs : rt.SortOK) (o : AS4100 K) (b : Beam K (Sect K)) (steps : List (Step K))
    {i j : ℕ} {q : Query K} (hi : (queriesOf steps)[i]? = some q) (hj : (queriesOf steps)[j]? = some q) :
    (runProgram rt o b steps).seen[i]? = (runProgram rt o b steps).seen[j]? := by
  rw [(C21_queries_pure hs o b steps).2]
  simp [hi, hj]

end

section
open Samples

/-- A program that asks for the tension twice, overwriting what it got in between. -/
def C21_program : List (Step ℚ) :=
  [.query (.getTension 7 (.list [Num.flt 2, Num.flt 5]) none), .write 0 0 1 99, .write 0 1 0 98,
    .query (.elementLoads 0 7 (.list [Num.flt 0, Num.flt (1/2), Num.flt 1]) none .none), .write 1 0 0 97, .write 1 2 3 96,
    .query (.getTension 7 (.list [Num.flt 2, Num.flt 5]) none)]

/-- The first and the last query are the same. -/
example : (queriesOf C21_program)[0]? = (queriesOf C21_program)[2]? ∧ (queriesOf C21_program)[0]?.isSome = true :=
  ⟨rfl, rfl⟩

/-- The program gets arrays, the writes reach them, and the answers do not change. -/
example :
    (runProgram rt obj rods C21_program).seen[0]? =
      some (.ok (.table .flt 2 [[some 2, some 0], [some 2, some 3], [some 5, some 0]])) ∧
    (runProgram rt obj rods C21_program).seen[2]? =
      some (.ok (.table .flt 2 [[some 2, some 0], [some 2, some 3], [some 5, some 0]])) ∧
    ((runProgram rt obj rods C21_program).got.map fun a => a.read (runProgram rt obj rods C21_program).mem)[0]? =
      some [[some 2, some 99], [some 98, some 3], [some 5, some 0]] := by
  decide +kernel

/-- Not every array the library hands out is a copy.  `LoadCase.loads` ("a read-only property") is the stored array
itself: a write through it changes the stored loads.  So does one through `load_positions`, a view. -/
theorem C21_loads_property_is_shared :
    ∃ (m : Mem ℚ) (lc : Option Arr) (a v : Arr), loadsH lc m = (.ok (some a), m) ∧ loadPositionsH lc m = (.ok v, m) ∧
      LoadCase.ofMem m lc = Samples.lc ∧
      LoadCase.ofMem (m.store a.buf fun p => if p ∈ a.cells[3]?.toList.flatten then some (some 0) else none) lc ≠ Samples.lc ∧
      LoadCase.ofMem (m.store v.buf fun p => if p ∈ v.cells[3]?.toList.flatten then some (some 0) else none) lc ≠ Samples.lc := by
  refine ⟨[rows.map LRow.cells], some ⟨0, .flt, 7, places (rows.map LRow.cells)⟩, _, _, rfl, rfl, ?_, ?_, ?_⟩ <;>
    decide +kernel

/-- An unloaded case has no array to look into: `load_positions` raises `TypeError` and changes nothing. -/
theorem C21_unloaded_positions {K : Type} [Field K] [LinearOrder K] [FloorRing K] (m : Mem K) :
    loadPositionsH none m = (.error .typeError, m) ∧ (LoadCase.ofMem m none).loadPositions = .error .typeError := ⟨rfl, rfl⟩

end

end BeamDesign
