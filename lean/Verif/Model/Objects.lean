import Verif.Model.AS4100

/-!
# Objects that refer to each other: what `AS4100` objects see when sections, elements and beams are changed

The classes of the library have plain public attributes.  An `Element` refers to its section, a `Beam` to its list
of elements, an `AS4100` object to its beam and to a list of wrappers made by its constructor, each of which refers to
a section.  Section and element objects are numbered in the order they are made.
-/

namespace BeamDesign

section
variable {K : Type}

/-- `element.py:19-41`: an `Element` object; `sect` is the number of its section. -/
structure OElement (K : Type) where
  loads : List (ℤ × LoadCase K)
  length : Option (Num K)
  sect : ℕ

/-- All section and element objects, the beam (the numbers of its elements) and the `AS4100` object. -/
structure World (K : Type) where
  sects : List (Sect K)
  elems : List (OElement K)
  /-- `beam.elements` (beam.py 76, 126-134): the list itself, which callers can change -/
  beam : List ℕ
  /-- as4100.py 33-40: the section each wrapper holds -/
  wraps : List ℕ
  assessmentPoints : ℤ
  phiSteel : K
  alphaU : K
  kt : K

/-- An object by its number; the world never refers to objects that do not exist (`attributeError` otherwise). -/
def objGet {α : Type} (xs : List α) (i : ℕ) : Py α :=
  match xs[i]? with
  | some x => .ok x
  | none => .error .attributeError

/-- The numbers of the sections of the beam's elements: beam.py 218-226 `sections`. -/
def World.sectionNos (w : World K) : Py (List ℕ) :=
  w.beam.mapM fun i => do return (← objGet w.elems i).sect

/-- The beam's contents now. -/
def World.beamNow (w : World K) : Py (Beam K (Sect K)) := do
  return ⟨← w.beam.mapM fun i => do
    let e ← objGet w.elems i
    return ⟨e.loads, e.length, ← objGet w.sects e.sect⟩⟩

/-- as4100_sect_props.py 45-51, 198-224: what a wrapper of the section uses: its radius and material, read when
asked for.  Without a radius or a material there is an `AttributeError` (simplified: for every use of the `AS4100`
object, not only for those that need this wrapper). -/
def Sect.wrapped (s : Sect K) : Py (DSect K) :=
  match s with
  | .circle r (some m) => .ok ⟨r, m⟩
  | _ => .error .attributeError

/-- The `AS4100` object as a value: the contents of everything it refers to now. -/
def World.now (w : World K) : Py (AS4100 K) := do
  let b ← w.beamNow
  let ds ← w.wraps.mapM fun i => do (← objGet w.sects i).wrapped
  return ⟨some b, none, w.assessmentPoints, ds, w.phiSteel, w.alphaU, w.kt⟩

variable [Field K] [LinearOrder K]

/-- as4100.py 23-44 `AS4100.__init__` for a beam (a list of existing elements): one wrapper per section; the class and
the material of each section are checked here and only here. -/
def World.construct (sects : List (Sect K)) (elems : List (OElement K)) (beam : List ℕ) (phiSteel alphaU kt : K) :
    Py (World K) := do
  let w : World K := ⟨sects, elems, beam, [], defaultAssessmentPoints, phiSteel, alphaU, kt⟩
  let nos ← w.sectionNos
  let _ ← nos.mapM fun i => do DSect.factory (← objGet sects i)
  return { w with wraps := nos }

/-- What a user can do to the objects afterwards.  Simplified: assigning an attribute of an object that does not exist
does nothing. -/
inductive Change (K : Type)
  /-- `Circle(…)`, a new section object -/
  | newSection (s : Sect K)
  /-- `Element(…)`, a new element object -/
  | newElement (e : OElement K)
  /-- `section.radius = r` -/
  | radius (s : ℕ) (r : K)
  /-- `section.material = m` -/
  | material (s : ℕ) (m : Option (Material K))
  /-- `element.length = l` -/
  | length (e : ℕ) (l : Option (Num K))
  /-- `element.section = s` -/
  | elementSection (e s : ℕ)
  /-- `as4100.as4100_sections[n].section = s` -/
  | wrapperSection (n s : ℕ)
  /-- `beam.elements.append(e)` -/
  | append (e : ℕ)
  /-- `del beam.elements[n]` -/
  | delete (n : ℕ)
  /-- `as4100.φ_steel = x` -/
  | phiSteel (x : K)
  /-- `as4100.αu = x` -/
  | alphaU (x : K)
  /-- `as4100.kt = x` -/
  | kt (x : K)
  /-- `as4100.assessment_points = n` -/
  | assessmentPoints (n : ℤ)

/-- `section.radius = r`: other sections get an attribute nobody reads -/
def Sect.setRadius (r : K) : Sect K → Sect K
  | .circle _ m => .circle r m
  | s => s

/-- `section.material = m` -/
def Sect.setMaterial (m : Option (Material K)) : Sect K → Sect K
  | .circle r _ => .circle r m
  | .other _ => .other m

/-- The effect of a change. -/
def Change.exec (w : World K) : Change K → World K
  | .newSection s => { w with sects := w.sects ++ [s] }
  | .newElement e => { w with elems := w.elems ++ [e] }
  | .radius s r => { w with sects := w.sects.modify s (Sect.setRadius r) }
  | .material s m => { w with sects := w.sects.modify s (Sect.setMaterial m) }
  | .length e l => { w with elems := w.elems.modify e fun x => { x with length := l } }
  | .elementSection e s => { w with elems := w.elems.modify e fun x => { x with sect := s } }
  | .wrapperSection n s => { w with wraps := w.wraps.set n s }
  | .append e => { w with beam := w.beam ++ [e] }
  | .delete n => { w with beam := w.beam.eraseIdx n }
  | .phiSteel x => { w with phiSteel := x }
  | .alphaU x => { w with alphaU := x }
  | .kt x => { w with kt := x }
  | .assessmentPoints n => { w with assessmentPoints := n }

/-- A history of changes. -/
def World.after (w : World K) (h : List (Change K)) : World K := h.foldl Change.exec w

end

end BeamDesign
