import Verif.Model.MaterialEq
import Verif.Model.AS4100

/-!
# Specification of equal materials
-/

namespace BeamDesign.Spec

variable {K : Type}

/-- A string, a number or a table of numbers. -/
def PlainVal (v : TVal K) : Prop := v ≠ .other

/-- A dict of plain values.  A dict has each key once. -/
def PlainDict (d : List (String × TVal K)) : Prop := (d.map (·.1)).Nodup ∧ ∀ kv ∈ d, PlainVal kv.2

/-- A material with plain attributes only. -/
def PlainMaterial (m : Material K) : Prop :=
  m.type ≠ .raw .other ∧ PlainVal m.name ∧ PlainVal m.standard ∧ PlainDict m.properties

/-- The same type, name and standard, and the same value (or none) for each property name. -/
def SameMaterial (m m' : Material K) : Prop :=
  m.type = m'.type ∧ m.name = m'.name ∧ m.standard = m'.standard ∧ ∀ key, m.property key = m'.property key

/-- Sections of the same kind and size, with the same material or both without. -/
def SameSect : Sect K → Sect K → Prop
  | .circle r none, .circle r' none => r = r'
  | .circle r (some m), .circle r' (some m') => r = r' ∧ SameMaterial m m'
  | .other none, .other none => True
  | .other (some m), .other (some m') => SameMaterial m m'
  | _, _ => False

/-- Elements with the same loads and length, and same sections. -/
def SameElement (e e' : Element K (Sect K)) : Prop :=
  e.loads = e'.loads ∧ e.length = e'.length ∧ SameSect e.sect e'.sect

/-- Both absent, or both present and same. -/
def SameOption {α : Type} (R : α → α → Prop) : Option α → Option α → Prop
  | none, none => True
  | some a, some b => R a b
  | _, _ => False

/-- Beams with the same elements one for one. -/
def SameBeam (b b' : Beam K (Sect K)) : Prop := List.Forall₂ SameElement b.elements b'.elements

/-- Two AS4100 objects answer alike: every query gives the same value or raises the same exception. -/
def AnswerAlike [Field K] [LinearOrder K] [FloorRing K] (o o' : AS4100 K) : Prop :=
  ∀ rt : Rt K,
    (∀ position, o.Nt rt position = o'.Nt rt position ∧ o.Nty rt position = o'.Nty rt position ∧
      o.Ntu rt position = o'.Ntu rt position ∧ o.phiNt rt position = o'.phiNt rt position ∧
      o.phiNty rt position = o'.phiNty rt position ∧ o.phiNtu rt position = o'.phiNtu rt position ∧
      o.tensionCapacity rt position = o'.tensionCapacity rt position) ∧
    (∀ c position n component, o.getLoads rt c position n component = o'.getLoads rt c position n component) ∧
    (∀ c position n, o.getTension rt c position n = o'.getTension rt c position n) ∧
    (∀ cases position, o.tensionUtilisation rt cases position = o'.tensionUtilisation rt cases position)

end BeamDesign.Spec
