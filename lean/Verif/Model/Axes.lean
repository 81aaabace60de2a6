import Verif.Model.S6

/-!
# A symmetry whose axes are given as a string

`Symmetry` keeps whatever it is given as axes.  `Verif/Model/S6.lean` has the lists; here is a string, of which `len`, `in` and
the first item mean its length, a substring and its first character.
-/

namespace BeamDesign

/-- Python's `t in s` for strings: `t` is found at some place of `s` -/
def substringIn (t : List Char) : List Char → Bool
  | [] => t.isEmpty
  | c :: s => t.isPrefixOf (c :: s) || substringIn t s

/-- symmetry.py 40-71 `Symmetry.symmetry` for a string of axes -/
def symmetryOfText (s : String) : SymKind :=
  let cs := s.toList
  let first := String.ofList (cs.take 1)
  if cs.length = 0 then .none
  else if cs.length = 2 ∧ substringIn "x".toList cs ∧ substringIn "y".toList cs then .double
  else if cs.length = 1 ∧ (first = "point" ∨ first = "Point" ∨ first = "POINT") then .point
  else if cs.length = 1 then .single
  else .none

/-- symmetry.py 94-101 `Symmetry.symcount` for a string of axes -/
def symcountOfText (s : String) : ℕ := s.toList.length

end BeamDesign
