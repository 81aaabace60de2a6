import Mathlib.Algebra.Order.Field.Basic
import Mathlib.Algebra.Order.Floor.Ring
import Mathlib.Data.List.Sort

/-!
# Python values used by the model

Exceptions are values (`Py`), numbers carry an `isInt` tag because the code asks `isinstance(x, float)`.
-/

namespace BeamDesign

/-- The exceptions the modelled code can raise.
The library's own ones are in `beamdesign/utility/exceptions.py`; the others are Python built-ins. -/
inductive PyErr
  | loadCaseError
  | elementError
  | elementCaseError
  | elementLengthError
  | positionNotInElement
  | positionNotInBeam
  | invalidPosition
  | materialError
  | invalidThickness
  | codeCheckError
  | invalidMaterial
  | sectionOnly
  | assertionError
  | valueError
  | typeError
  | keyError
  | indexError
  | attributeError
  | notImplemented
  | zeroDivision
  | unboundLocal
  | fileNotFound
  /-- a plain `Exception` (S6.py 712) -/
  | exception
  /-- Not a Python exception: the Python value is a complex number (a negative number to a fractional
  power) or another value outside the number model.  The model stops there. -/
  | outsideModel
  deriving DecidableEq, Repr

/-- Result of a Python call: a value or an exception. -/
abbrev Py (α : Type) := Except PyErr α

/-- A Python (or numpy scalar) number: its value and whether it is an `int`
(`isinstance(x, float)` is false) or a `float`. -/
structure Num (K : Type) where
  val : K
  isInt : Bool
  deriving DecidableEq, Repr

namespace Num

variable {K : Type}

/-- a float -/
def flt (x : K) : Num K := ⟨x, false⟩

/-- an int -/
def int (x : K) : Num K := ⟨x, true⟩

@[simp] theorem flt_val (x : K) : (flt x).val = x := rfl
@[simp] theorem int_val (x : K) : (int x).val = x := rfl
@[simp] theorem flt_isInt (x : K) : (flt x).isInt = false := rfl
@[simp] theorem int_isInt (x : K) : (int x).isInt = true := rfl

end Num

section sortedSet

variable {K : Type} [LinearOrder K]

/-- The elements of `set(xs)`: Python keeps the first inserted of several equal numbers
(`1` and `1.0` are equal). -/
def pySet : List (Num K) → List (Num K)
  | [] => []
  | x :: xs => x :: (pySet xs).filter (fun y => decide (y.val ≠ x.val))

/-- `sorted(s)` on numbers. -/
def pySorted (xs : List (Num K)) : List (Num K) :=
  xs.insertionSort (fun a b => a.val ≤ b.val)

/-- `sorted(set(xs))`. -/
def sortedSet (xs : List (Num K)) : List (Num K) := pySorted (pySet xs)

end sortedSet

/-- Python list indexing `xs[i]` with negative indices. -/
def pyIndex {α : Type} (xs : List α) (i : ℤ) : Py α :=
  let j := if i < 0 then i + xs.length else i
  if j < 0 then .error .indexError
  else match xs[j.toNat]? with
    | some a => .ok a
    | none => .error .indexError

end BeamDesign
