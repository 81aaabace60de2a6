import Verif.Model.Objects

/-! # Specification for the `AS4100` object and its sections -/

namespace BeamDesign.Spec

variable {K : Type} [Field K] [LinearOrder K]

/-- The change neither puts another section into an element or a wrapper nor changes the beam's list of elements.
Everything else is allowed: new objects, new radii, materials and lengths, new factors. -/
def SameObjects : Change K → Prop
  | .elementSection .. | .wrapperSection .. | .append .. | .delete .. => False
  | _ => True

/-- The change does not assign a wrapper's `section`. -/
def WrappersLeft : Change K → Prop
  | .wrapperSection .. => False
  | _ => True

/-- `as4100_sections[n]` wraps the very object `sections[n]`, for every `n`. -/
def WrapsSections (w : World K) : Prop := w.sectionNos = .ok w.wraps

/-- A new `AS4100` object made now from the same beam, with the same factors. -/
def freshObject (w : World K) : Py (AS4100 K) := do
  let b ← w.beamNow
  AS4100.new w.phiSteel w.alphaU w.kt (some b) none

end BeamDesign.Spec
