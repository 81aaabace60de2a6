import Verif.Model.Objects

/-!
# Attributes of objects: the value last written
-/

namespace BeamDesign.Spec

/-- The value after a history: the last one written, or the first one if none was. `f` picks the writes of one attribute of one object. -/
def lastWritten {C α : Type} (f : C → Option α) (first : α) (hist : List C) : α := ((hist.filterMap f).getLast?).getD first

variable {K : Type}

/-- `section.radius = r` for section `s` -/
def writesRadius (s : ℕ) : Change K → Option K
  | .radius i r => if i = s then some r else none
  | _ => none

/-- `section.material = m` for section `s` -/
def writesMaterial (s : ℕ) : Change K → Option (Option (Material K))
  | .material i m => if i = s then some m else none
  | _ => none

/-- `element.length = l` for element `e` -/
def writesLength (e : ℕ) : Change K → Option (Option (Num K))
  | .length i l => if i = e then some l else none
  | _ => none

/-- `element.section = s` for element `e` -/
def writesSection (e : ℕ) : Change K → Option ℕ
  | .elementSection i s => if i = e then some s else none
  | _ => none

/-- `wrapper.section = s` for wrapper `n` -/
def writesWrapper (n : ℕ) : Change K → Option ℕ
  | .wrapperSection i s => if i = n then some s else none
  | _ => none

/-- `as4100.φ_steel = x` -/
def writesPhi : Change K → Option K
  | .phiSteel x => some x
  | _ => none

/-- `as4100.αu = x` -/
def writesAlphaU : Change K → Option K
  | .alphaU x => some x
  | _ => none

/-- `as4100.kt = x` -/
def writesKt : Change K → Option K
  | .kt x => some x
  | _ => none

/-- `as4100.assessment_points = n` -/
def writesPoints : Change K → Option ℤ
  | .assessmentPoints n => some n
  | _ => none

/-- the list `beam.elements` is not changed -/
def ListLeft : Change K → Prop
  | .append _ => False
  | .delete _ => False
  | _ => True

end BeamDesign.Spec
