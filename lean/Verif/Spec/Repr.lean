import Verif.Model.Repr
import Mathlib.Data.Set.Function

/-!
# Printed objects: what the texts should say
-/

namespace BeamDesign.Spec

/-- the numbers of a set are printed without the characters of lists and strings, and no two of them alike; this holds for the ints and
the finite floats of Python -/
structure Legible {α : Type} (text : α → String) (F : Set α) : Prop where
  inj : F.InjOn text
  nonempty : ∀ x ∈ F, text x ≠ ""
  plain : ∀ x ∈ F, ∀ c ∈ (text x).toList, c ≠ ',' ∧ c ≠ ']' ∧ c ≠ '\'' ∧ c ≠ '"'

/-- the text an element should have: the material is that of its section -/
def elementText {K : Type} (t : Text K) (e : Element K (Option (Sect K))) (s : Sect K) : String :=
  "Element(length=" ++ t.length e.length ++ ", section=" ++ s.repr t ++ ", material=" ++ Material.reprOpt t s.material ++
    ", no. load cases=" ++ toString e.noLoadCases ++ ")"

/-- all angles of a list of axes are numbers of a set -/
def Angles (F : Set ℝ) (s : Symmetry) : Prop := ∀ l, s.axes = some l → ∀ x, Axis.angle x ∈ l → x ∈ F

end BeamDesign.Spec
