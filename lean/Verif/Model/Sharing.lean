import Verif.Model.Beam

/-!
# Load cases, elements and beams as objects that share arrays, dicts and lists

`LoadCase._set_loads` copies the data it is given (`np.array(loads)`), but `LoadCase.loads` hands out the stored array
itself.  `Element` keeps the caller's dict and `Beam` the caller's list; `Element.loads` and `Beam.elements` hand them
out.  `Element.length` is a plain attribute.  The checks are made by the constructors only.  Objects are numbered in
the order they are made; every object can be reached by the caller.

Simplified: sections are left out, and a value written into an array is not cast to its dtype.
-/

namespace BeamDesign

/-- All objects. -/
structure Store (K : Type) where
  /-- arrays: those of the caller and those stored in load cases -/
  arrays : List (Table K)
  /-- `LoadCase` objects: the number of the stored array, or `None` (loadcase.py 88-123) -/
  cases : List (Option ℕ)
  /-- dicts: keys with the numbers of load cases, in insertion order -/
  dicts : List (List (ℤ × ℕ))
  /-- `Element` objects: the number of the dict, the length (element.py 38-41) -/
  elems : List (ℕ × Option (Num K))
  /-- lists of elements -/
  lists : List (List ℕ)
  /-- `Beam` objects: the number of the list (beam.py 76) -/
  beams : List ℕ

/-- No objects yet. -/
def Store.empty (K : Type) : Store K := ⟨[], [], [], [], [], []⟩

section
variable {K : Type}

/-- The contents of a load case now. -/
def Store.caseNow (s : Store K) (c : ℕ) : Option (LoadCase K) :=
  match s.cases[c]? with
  | none => none
  | some none => some ⟨none⟩
  | some (some a) => s.arrays[a]?.map fun t => ⟨some t⟩

/-- The contents of an element now. -/
def Store.elemNow (s : Store K) (e : ℕ) : Option (Element K Unit) := do
  let el ← s.elems[e]?
  let kv ← s.dicts[el.1]?
  let cs ← kv.mapM fun p => (s.caseNow p.2).map fun lc => (p.1, lc)
  return ⟨cs, el.2, ()⟩

/-- The contents of a beam now. -/
def Store.beamNow (s : Store K) (b : ℕ) : Option (Beam K Unit) := do
  let l ← s.beams[b]?
  let es ← s.lists[l]?
  return ⟨← es.mapM s.elemNow⟩

/-- `d[k] = c`: an existing key keeps its place. -/
def dictSet (kv : List (ℤ × ℕ)) (k : ℤ) (c : ℕ) : List (ℤ × ℕ) :=
  if k ∈ kv.map (·.1) then kv.map fun p => if p.1 = k then (k, c) else p else kv ++ [(k, c)]

/-- What a program can do with the objects. -/
inductive Op (K : Type)
  /-- an array of the caller -/
  | newArray (t : Table K)
  /-- `LoadCase(loads=x)` for data that are not an array made before -/
  | newCase (raw : RawLoads K)
  /-- `LoadCase(loads=a)` for an array, of the caller or of a load case -/
  | newCaseOf (a : ℕ)
  /-- `{k1: c1, …}` -/
  | newDict (kv : List (ℤ × ℕ))
  /-- `Element(loads=d, length=l)` -/
  | newElement (d : ℕ) (l : Option (Num K))
  /-- `[e1, …]` -/
  | newList (es : List ℕ)
  /-- `Beam(elements=l)` for a list -/
  | newBeam (l : ℕ)
  /-- `Beam(elements=e)` for an element -/
  | newBeamOf (e : ℕ)
  /-- `a[i] = row` -/
  | writeRow (a i : ℕ) (r : LRow K)
  /-- `d[k] = c` -/
  | dictSet (d : ℕ) (k : ℤ) (c : ℕ)
  /-- `del d[k]` -/
  | dictDel (d : ℕ) (k : ℤ)
  /-- `e.length = l` -/
  | setLength (e : ℕ) (l : Option (Num K))
  /-- `l.append(e)` -/
  | listAppend (l e : ℕ)
  /-- `l[i] = e` -/
  | listSet (l i e : ℕ)
  /-- `del l[i]` -/
  | listDel (l i : ℕ)

variable [Field K] [LinearOrder K]

/-- loadcase.py 18-123: a new load case holds a new array. -/
def Store.addCase (s : Store K) : Py (LoadCase K) → Store K
  | .error _ => s
  | .ok ⟨none⟩ => { s with cases := s.cases ++ [none] }
  | .ok ⟨some t⟩ => { s with arrays := s.arrays ++ [t], cases := s.cases ++ [some s.arrays.length] }

/-- The effect of an operation.  One that raises, or that names an object which does not exist, changes nothing.

* loadcase.py 92-123: the array given is copied, then checked;
* element.py 32-41: the length is checked, the dict is kept;
* beam.py 67-76: the elements are checked, the list is kept; a single element is put into a new list. -/
def Op.exec (s : Store K) : Op K → Store K
  | .newArray t => { s with arrays := s.arrays ++ [t] }
  | .newCase raw => s.addCase (LoadCase.new raw)
  | .newCaseOf a =>
    match s.arrays[a]? with
    | none => s
    | some t => s.addCase (LoadCase.checkAndSet t.isInt t.rows)
  | .newDict kv =>
    if ∀ p ∈ kv, p.2 < s.cases.length then
      { s with dicts := s.dicts ++ [kv.foldl (fun d p => BeamDesign.dictSet d p.1 p.2) []] }
    else s
  | .newElement d l =>
    if d < s.dicts.length then
      match (Element.new (K := K) [] l () : Py (Element K Unit)) with
      | .ok e => { s with elems := s.elems ++ [(d, e.length)] }
      | .error _ => s
    else s
  | .newList es => if ∀ e ∈ es, e < s.elems.length then { s with lists := s.lists ++ [es] } else s
  | .newBeam l =>
    match s.lists[l]? with
    | none => s
    | some es =>
      match Beam.new (.list (es.map s.elemNow)) with
      | .ok _ => { s with beams := s.beams ++ [l] }
      | .error _ => s
  | .newBeamOf e =>
    match s.elemNow e with
    | none => s
    | some el =>
      match Beam.new (.single el) with
      | .ok _ => { s with lists := s.lists ++ [[e]], beams := s.beams ++ [s.lists.length] }
      | .error _ => s
  | .writeRow a i r => { s with arrays := s.arrays.modify a fun t => { t with rows := t.rows.set i r } }
  | .dictSet d k c =>
    if c < s.cases.length then { s with dicts := s.dicts.modify d fun kv => BeamDesign.dictSet kv k c } else s
  | .dictDel d k => { s with dicts := s.dicts.modify d fun kv => kv.filter fun p => p.1 ≠ k }
  | .setLength e l => { s with elems := s.elems.modify e fun x => (x.1, l) }
  | .listAppend l e =>
    if e < s.elems.length then { s with lists := s.lists.modify l fun es => es ++ [e] } else s
  | .listSet l i e =>
    if e < s.elems.length then { s with lists := s.lists.modify l fun es => es.set i e } else s
  | .listDel l i => { s with lists := s.lists.modify l fun es => es.eraseIdx i }

/-- A history. -/
def Store.run (s : Store K) (h : List (Op K)) : Store K := h.foldl Op.exec s

end

end BeamDesign
