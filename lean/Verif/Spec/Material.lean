import Verif.Model.SectProps
import Mathlib.Order.Bounds.Defs

/-!
# Specification of materials and strength tables
-/

namespace BeamDesign.Spec

variable {K : Type} [LinearOrder K]

/-- The documented ways to ask for the yield strength. -/
def AsksYield (yu : YU) : Prop := yu = .bool true ∨ yu = .str "y" ∨ yu = .str "Y"

/-- The documented ways to ask for the ultimate strength. -/
def AsksUltimate (yu : YU) : Prop := yu = .bool false ∨ yu = .str "u" ∨ yu = .str "U"

/-- `v` is the entry of `vals` beside the smallest thickness of `ts` which is not below `t`. -/
def BandValue (ts vals : List K) (t v : K) : Prop :=
  ∃ (i : ℕ) (ti : K), ts[i]? = some ti ∧ vals[i]? = some v ∧ IsLeast {x | x ∈ ts ∧ t ≤ x} ti

/-- The yield and ultimate strengths of a solid circle: those of its material beside the smallest tabulated thickness
not below its diameter. -/
def Strengths [Field K] (d : DSect K) (fy fu : K) : Prop :=
  ∃ ts fys fus rest, d.material.properties.lookup "strengths" = some (.table (ts :: fys :: fus :: rest)) ∧
    ts.Pairwise (· < ·) ∧ 0 ≤ 2 * d.radius ∧ BandValue ts fys (2 * d.radius) fy ∧ BandValue ts fus (2 * d.radius) fu

/-- The dict `rest` holds the entries of `d` other than those with one of the `keys`, in the same order. -/
def Without (d : List (String × TVal K)) (keys : List String) (rest : List (String × TVal K)) : Prop :=
  rest = d.filter fun kv => decide (kv.1 ∉ keys)

/-- A table gives the material `m`: it has a type (a known name, or something that is not a string), a
name and a standard, and the remaining entries are the properties. -/
def Describes (d : List (String × TVal K)) (m : Material K) : Prop :=
  (∃ ty, d.lookup "type" = some ty ∧
    ((ty = .str "steel" ∧ m.type = .mat .steel) ∨ (ty = .str "concrete" ∧ m.type = .mat .concrete) ∨
      (∀ s, ty ≠ .str s) ∧ m.type = .raw ty)) ∧
  d.lookup "name" = some m.name ∧ d.lookup "standard" = some m.standard ∧
  Without d ["type", "name", "standard"] m.properties

end BeamDesign.Spec
