import Verif.Model.LoadCase

/-!
# Model of `beamdesign/element.py` and `beamdesign/beam.py`
-/

namespace BeamDesign

/-- `element.py:11-51`: an `Element`.  `loads` is a Python dict: key/value pairs in insertion order.
`S` is the type of sections. -/
structure Element (K S : Type) where
  loads : List (ℤ × LoadCase K)
  length : Option (Num K)
  sect : S
  deriving DecidableEq, Repr

/-- Python arithmetic on tagged numbers: exact between ints, through the run-time otherwise. -/
def Num.padd {K : Type} [Field K] (rt : Rt K) (a b : Num K) : Num K :=
  if a.isInt && b.isInt then ⟨a.val + b.val, true⟩ else ⟨rt.add a.val b.val, false⟩

/-- subtraction -/
def Num.psub {K : Type} [Field K] (rt : Rt K) (a b : Num K) : Num K :=
  if a.isInt && b.isInt then ⟨a.val - b.val, true⟩ else ⟨rt.sub a.val b.val, false⟩

/-- multiplication -/
def Num.pmul {K : Type} [Field K] (rt : Rt K) (a b : Num K) : Num K :=
  if a.isInt && b.isInt then ⟨a.val * b.val, true⟩ else ⟨rt.mul a.val b.val, false⟩

/-- true division (always a float; the divisor is never zero where the code divides) -/
def Num.pdiv {K : Type} (rt : Rt K) (a b : Num K) : Num K := ⟨rt.div a.val b.val, false⟩

section
variable {K S : Type} [LinearOrder K] [Field K]

/-- `element.py:19-41` `Element.__init__` -/
def Element.new (loads : List (ℤ × LoadCase K)) (length : Option (Num K)) (sect : S) :
    Py (Element K S) :=
  match length with
  | none => .ok ⟨loads, none, sect⟩
  | some l => if l.val < 0 then .error .elementLengthError else .ok ⟨loads, some l, sect⟩

/-- `element.py:62-70` `load_cases`: the dict keys in order. -/
def Element.loadCases (e : Element K S) : List ℤ := e.loads.map (·.1)

/-- `element.py:53-60` `no_load_cases` -/
def Element.noLoadCases (e : Element K S) : ℕ := e.loadCases.length

/-- `self.loads[load_case]` -/
def Element.case (e : Element K S) (c : ℤ) : Py (LoadCase K) :=
  match e.loads.lookup c with
  | some lc => .ok lc
  | none => .error .keyError

/-- `element.py:72-134` `get_loads` -/
def Element.getLoads (rt : Rt K) (e : Element K S) (c : ℤ) (position : PosArg K)
    (minPos : Option ℤ) (component : CompArg) : Py (Option (Tab K)) := do
  let lc ← e.case c
  lc.getLoad rt position minPos component

/-- `element.py:136-148` `load_positions` -/
def Element.loadPositions (e : Element K S) (c : ℤ) : Py (List (Num K)) := do
  let lc ← e.case c
  lc.loadPositions

/-- `element.py:150-166` `empty_element` -/
def Element.emptyElement (length : Num K) (sect : S) : Py (Element K S) :=
  Element.new [(0, ⟨none⟩)] (some length) sect

/-- `element.py:168-200` `constant_load_element` -/
def Element.constantLoadElementNum (caseId : ℤ) (vx vy n mx my t : Num K) (length : Num K) (sect : S) :
    Py (Element K S) := do
  let lc ← LoadCase.constantLoadNum vx vy n mx my t
  Element.new [(caseId, lc)] (some length) sect

/-- `element.py:168-200` `constant_load_element` with floats for all the components -/
def Element.constantLoadElement (caseId : ℤ) (vx vy n mx my t : K) (length : Num K) (sect : S) :
    Py (Element K S) := do
  let lc ← LoadCase.constantLoad vx vy n mx my t
  Element.new [(caseId, lc)] (some length) sect

/-- The element's length as a number; arithmetic with `None` raises `TypeError`. -/
def Element.len (e : Element K S) : Py (Num K) :=
  match e.length with
  | some l => .ok l
  | none => .error .typeError

/-- `beam.py:46-76`: a `Beam` holds its list of elements. -/
structure Beam (K S : Type) where
  elements : List (Element K S)
  deriving DecidableEq, Repr

/-- The `elements` argument: None, one element, or a list whose entries may be something else
than an `Element` (`none`). -/
inductive ElementsArg (K S : Type)
  | none
  | single (e : Element K S)
  | list (es : List (Option (Element K S)))

/-- `beam.py:98-124`: the checks on a list of elements (after the emptiness check). -/
def Beam.checkElements (es : List (Option (Element K S))) : Py (List (Element K S)) :=
  if es.all Option.isSome then
    let l := es.filterMap id
    match l with
    | [] => .error .elementError
    | first :: _ =>
      if !(l.all fun e => decide (e.noLoadCases = first.noLoadCases)) then .error .elementCaseError
      else if !(l.all fun e => decide (e.loadCases = first.loadCases)) then .error .elementCaseError
      else .ok l
  else .error .elementError

/-- `beam.py:54-124` `Beam.__init__` with `_check_elements` -/
def Beam.new : ElementsArg K S → Py (Beam K S)
  | .none => .error .elementError
  | .single e => do return ⟨← Beam.checkElements [some e]⟩
  | .list [] => .error .elementError
  | .list es => do return ⟨← Beam.checkElements es⟩

/-- `beam.py:586-599` `empty_beam` -/
def Beam.emptyBeam (length : Num K) (sect : S) : Py (Beam K S) := do
  let e ← Element.emptyElement length sect
  Beam.new (.single e)

/-- Lengths of all elements (`TypeError` if one is None). -/
def Beam.lengths (b : Beam K S) : Py (List (Num K)) := b.elements.mapM Element.len

/-- The builtin `sum` from Python 3.12 on, once the sum is a float: `f` is the sum so far and `c` the rounding errors so far
(CPython, Python/bltinmodule.c `cs_add`, `cs_to_double`).  Simplified: infinities do not occur. -/
def sumFloats (rt : Rt K) (f c : K) : List (Num K) → K
  | [] => if c = 0 then f else rt.add f c
  | x :: xs =>
    let t := rt.add f x.val
    if x.isInt = true ∧ rt.sum ≠ .all then sumFloats rt t c xs
    else if |x.val| ≤ |f| then sumFloats rt t (rt.add c (rt.add (rt.sub f t) x.val)) xs
    else sumFloats rt t (rt.add c (rt.add (rt.sub x.val t) f)) xs

/-- The same while the sum is an int, which is added exactly. -/
def sumInts (rt : Rt K) (r : K) : List (Num K) → Num K
  | [] => ⟨r, true⟩
  | x :: xs => if x.isInt then sumInts rt (r + x.val) xs else ⟨sumFloats rt (rt.add r x.val) 0 xs, false⟩

/-- Python's `sum`: left to right from the int 0, from Python 3.12 on with a correction for rounding errors. -/
def pySum (rt : Rt K) (ls : List (Num K)) : Num K :=
  match rt.sum with
  | .plain => ls.foldl (Num.padd rt) (Num.int 0)
  | _ => sumInts rt 0 ls

/-- `beam.py:136-144` `length` -/
def Beam.length (rt : Rt K) (b : Beam K S) : Py (Num K) := do
  let ls ← b.lengths
  return pySum rt ls

/-- `beam.py:146-154` `no_elements` -/
def Beam.noElements (b : Beam K S) : ℕ := b.elements.length

/-- `beam.py:170-182` `load_cases` -/
def Beam.loadCases (b : Beam K S) : Py (List ℤ) :=
  match b.elements with
  | [] => .error .indexError
  | e :: _ => .ok e.loadCases

/-- `beam.py:156-168` `no_load_cases` -/
def Beam.noLoadCases (b : Beam K S) : Py ℕ := do
  return (← b.loadCases).length

/-- `beam.py:205-214`: the ends of the second and later elements. -/
def endsFrom (rt : Rt K) (prevEnd : Num K) : List (Num K) → List (Num K × Num K)
  | [] => []
  | l :: ls => (prevEnd, prevEnd.padd rt l) :: endsFrom rt (prevEnd.padd rt l) ls

/-- `beam.py:203-216`: element ends from the element lengths. -/
def endsOf (rt : Rt K) : List (Num K) → List (Num K × Num K)
  | [] => []
  | l :: ls => (Num.flt 0, l) :: endsFrom rt l ls

/-- `beam.py:184-216` `element_ends`.
Simplified: with a `None` length the model raises `TypeError` at once, Python does so when the
end is used. -/
def Beam.elementEnds (rt : Rt K) (b : Beam K S) : Py (List (Num K × Num K)) := do
  return endsOf rt (← b.lengths)

/-- `beam.py:218-226` `sections` -/
def Beam.sections (b : Beam K S) : List S := b.elements.map (·.sect)

/-- `beam.py:228-236` `get_element_start_end` -/
def Beam.getElementStartEnd (rt : Rt K) (b : Beam K S) (element : ℤ) : Py (Num K × Num K) := do
  let ends ← b.elementEnds rt
  pyIndex ends element

/-- `beam.py:254-263`: the loop of `in_elements` on the list of ends. -/
def inEnds (p : K) (ends : List (Num K × Num K)) : List ℕ :=
  (List.range ends.length).filter fun i =>
    match ends[i]? with
    | some se => decide (se.1.val ≤ p) && decide (p ≤ se.2.val)
    | none => false

/-- `beam.py:238-263` `in_elements` -/
def Beam.inElements (rt : Rt K) (b : Beam K S) (p : Num K) : Py (List ℕ) := do
  let ends ← b.elementEnds rt
  return inEnds p.val ends

/-- `beam.py:265-290` `beam_to_local_position` -/
def Beam.beamToLocal (rt : Rt K) (b : Beam K S) (p : Num K) (element : ℤ) : Py (Num K) := do
  let se ← b.getElementStartEnd rt element
  let e ← pyIndex b.elements element
  let length ← e.len
  let overlap := p.psub rt se.1
  if overlap.val < 0 ∨ length.val < overlap.val then .error .positionNotInElement
  else if length.val = 0 then .error .elementLengthError
  else return (p.psub rt se.1).pdiv rt length

/-- `beam.py:292-312` `local_to_beam_position` -/
def Beam.localToBeam (rt : Rt K) (b : Beam K S) (p : Num K) (element : ℤ) : Py (Num K) := do
  if p.val < 0 ∨ 1 < p.val then .error .positionNotInElement
  else
    let se ← b.getElementStartEnd rt element
    let e ← pyIndex b.elements element
    let length ← e.len
    return se.1.padd rt (p.pmul rt length)

/-- One entry of the three parallel lists returned by `Beam.list_positions`. -/
structure Loc (K : Type) where
  pos : Num K
  elem : ℕ
  loc : Num K
  deriving DecidableEq, Repr

/-- `beam.py:460-466`: range check of explicit positions, in order.  `self.length` is evaluated only if
the position is not negative. -/
def Beam.checkPositions (rt : Rt K) (b : Beam K S) : List (Num K) → Py Unit
  | [] => .ok ()
  | p :: ps =>
    if p.val < 0 then .error .positionNotInBeam
    else do
      let l ← b.length rt
      if l.val < p.val then .error .positionNotInBeam
      else b.checkPositions rt ps

/-- `beam.py:483-500`: the load positions of one element on the beam. -/
def Beam.realPositions (rt : Rt K) (b : Beam K S) (loadCase : Option ℤ) (i : ℕ) (e : Element K S) :
    Py (List (Num K)) := do
  let elementPos ← match loadCase with
    | none => .ok [Num.flt 0, Num.flt 1]
    | some c => e.loadPositions c
  elementPos.mapM fun p => b.localToBeam rt p (i : ℤ)

/-- `beam.py:449-506`: the sorted list of positions. -/
def Beam.positionList (rt : Rt K) (b : Beam K S) (position : PosArg K) (minPos : Option ℤ)
    (loadCase : Option ℤ) : Py (List (Num K)) :=
  match position, minPos with
  | .none, none => .error .invalidPosition
  | .scalar _, some _ => .error .invalidPosition
  | .list _, some _ => .error .invalidPosition
  | .scalar x, none =>
    if x.isInt then .error .typeError
    else do
      b.checkPositions rt [x]
      return sortedSet [x]
  | .list xs, none => do
    b.checkPositions rt xs
    return sortedSet xs
  | .none, some n => do
    let l ← b.length rt
    let lin ← linspace rt 0 l.val n
    let ends ← b.elementEnds rt
    let real ← (b.elements.zipIdx).mapM fun ei => b.realPositions rt loadCase ei.2 ei.1
    return sortedSet (ends.flatMap (fun se => [se.1, se.2]) ++ real.flatten ++ lin.map Num.flt)

/-- `beam.py:530-537`: local positions listed for a zero length element.  `load_pos` is a numpy array, so
`[0.0] + load_pos` adds 0.0 to, and `load_pos + [1.0]` adds 1.0 to, every entry (numpy broadcasting)
instead of extending the list. -/
def zeroLengthPositions (rt : Rt K) (lp : List (Num K)) : Py (List (Num K)) :=
  match lp.head?, lp.getLast? with
  | some h, some _ =>
    let lp1 := if h.val ≠ 0 then lp.map (fun l => ⟨rt.add 0 l.val, false⟩) else lp
    match lp1.getLast? with
    | some z =>
      .ok (if z.val ≠ 1 then lp1.map (fun l => ⟨rt.add l.val 1, false⟩) else lp1)
    | none => .error .indexError
  | _, _ => .error .indexError

/-- `beam.py:518-549`: entries for one position and one element containing it. -/
def Beam.locate (rt : Rt K) (b : Beam K S) (loadCase : Option ℤ) (p : Num K) (i : ℕ) :
    Py (List (Loc K)) := do
  let e ← pyIndex b.elements (i : ℤ)
  let length ← e.len
  if length.val = 0 then
    let lp ← match loadCase with
      | none => .ok [Num.flt 0, Num.flt 1]
      | some c => do zeroLengthPositions rt (← e.loadPositions c)
    return lp.map fun l => ⟨p, i, l⟩
  else
    let l ← b.beamToLocal rt p (i : ℤ)
    return [⟨p, i, l⟩]

/-- `beam.py:396-551` `list_positions`; the three parallel lists are given as one list of `Loc`. -/
def Beam.listPositions (rt : Rt K) (b : Beam K S) (position : PosArg K) (minPos : Option ℤ)
    (loadCase : Option ℤ) : Py (List (Loc K)) := do
  let ps ← b.positionList rt position minPos loadCase
  let blocks ← ps.mapM fun p => do
    let es ← b.inElements rt p
    let ls ← es.mapM fun i => b.locate rt loadCase p i
    return ls.flatten
  return blocks.flatten

/-- `beam.py:553-584` `get_section` -/
def Beam.getSection (rt : Rt K) (b : Beam K S) (position : PosArg K) (minPos : Option ℤ)
    (loadCase : Option ℤ) : Py (List (Num K × S)) := do
  let locs ← b.listPositions rt position minPos loadCase
  locs.mapM fun l => do
    let e ← pyIndex b.elements (l.elem : ℤ)
    return (l.pos, e.sect)

variable [FloorRing K]

/-- `beam.py:378-392`: one pass of the loop of `get_loads`. -/
def Beam.loadStep (rt : Rt K) (b : Beam K S) (c : ℤ) (component : CompArg)
    (acc : Option (Tab K)) (l : Loc K) : Py (Option (Tab K)) := do
  let e ← pyIndex b.elements (l.elem : ℤ)
  let val ← e.getLoads rt c (.scalar l.loc) none component
  match val with
  | none => .error .typeError
  | some t =>
    let t := t.setPos l.pos.val
    match acc with
    | none => return some t
    | some a => do return some (← a.vstack t)

/-- `beam.py:314-394` `get_loads`; `none` is Python's `None` (no positions). -/
def Beam.getLoads (rt : Rt K) (b : Beam K S) (c : ℤ) (position : PosArg K) (minPos : Option ℤ)
    (component : CompArg) : Py (Option (Tab K)) := do
  let locs ← b.listPositions rt position minPos (some c)
  locs.foldlM (b.loadStep rt c component) none

end

end BeamDesign
