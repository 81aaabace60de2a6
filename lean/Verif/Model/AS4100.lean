import Verif.Model.Beam
import Verif.Model.SectProps
import Verif.Model.Solvers

/-!
# Model of `beamdesign/codecheck/codecheck.py` and `beamdesign/codecheck/as4100/as4100.py`
-/

namespace BeamDesign

/-- codecheck.py 15 -/
def defaultAssessmentPoints : ℤ := 20

/-- codecheck.py 50-56, as4100.py 33-44: the attributes of an `AS4100` object. -/
structure AS4100 (K : Type) where
  beam : Option (Beam K (Sect K))
  sect : Option (Sect K)
  assessmentPoints : ℤ
  dsects : List (DSect K)
  phiSteel : K
  alphaU : K
  kt : K
  deriving DecidableEq, Repr

/-- The `load_case` argument of `tension_utilisation`. -/
inductive CaseArg
  | none
  | one (c : ℤ)
  | list (cs : List ℤ)
  deriving DecidableEq, Repr

section
variable {K : Type} [Field K] [LinearOrder K]

/-- Python's `min` of a list: the first of the smallest; `ValueError` on an empty list. -/
def pyMin : List K → Py K
  | [] => .error .valueError
  | x :: xs => .ok (xs.foldl min x)

/-- Python's `max` of a list. -/
def pyMax : List K → Py K
  | [] => .error .valueError
  | x :: xs => .ok (xs.foldl max x)

/-- codecheck.py 79-93 `sections`: those of the beam if there is one, else the one section. -/
def sectionsOf (beam : Option (Beam K (Sect K))) (sect : Option (Sect K)) : List (Sect K) :=
  match beam, sect with
  | some b, _ => b.sections
  | none, some s => [s]
  | none, none => []

/-- as4100.py 23-44 `AS4100.__init__` with codecheck.py 29-56 `CodeCheck.__init__`. -/
def AS4100.new (phiSteel alphaU kt : K) (beam : Option (Beam K (Sect K))) (sect : Option (Sect K)) :
    Py (AS4100 K) :=
  match beam, sect with
  | none, none => .error .codeCheckError
  | _, _ => do
    let ds ← (sectionsOf beam sect).mapM DSect.factory
    return ⟨beam, sect, defaultAssessmentPoints, ds, phiSteel, alphaU, kt⟩

/-- as4100.py 414-422 `default_AS4100` with the values of as4100.toml. -/
def AS4100.default (beam : Option (Beam K (Sect K))) (sect : Option (Sect K)) : Py (AS4100 K) :=
  AS4100.new (90 / 100) (85 / 100) 1 beam sect

/-- as4100.py 46-49, codecheck.py 79-93 `sections` -/
def AS4100.sections (o : AS4100 K) : List (Sect K) := sectionsOf o.beam o.sect

/-- codecheck.py 104-115: setting `assessment_points` -/
def AS4100.setAssessmentPoints (o : AS4100 K) (n : ℤ) : AS4100 K := { o with assessmentPoints := n }

/-- codecheck.py 159-199 `CodeCheck.get_section` -/
def AS4100.superGetSection (rt : Rt K) (o : AS4100 K) (position : PosArg K) (minPos : Option ℤ)
    (loadCase : Option ℤ) : Py (List (Num K × Sect K)) :=
  match o.beam with
  | none => .error .sectionOnly
  | some b => b.getSection rt position minPos loadCase

/-- as4100.py 158-166 `AS4100.get_section`: only `position` is passed on. -/
def AS4100.getSection (rt : Rt K) (o : AS4100 K) (position : PosArg K) (_minPos : Option ℤ)
    (_loadCase : Option ℤ) : Py (List (Num K × Sect K)) :=
  o.superGetSection rt position none none

/-- as4100.py 168-211 `get_as4100_section` -/
def AS4100.getDSection (rt : Rt K) (o : AS4100 K) (position : PosArg K) (minPos : Option ℤ)
    (loadCase : Option ℤ) : Py (List (Num K × DSect K)) :=
  match o.beam with
  | none => .error .sectionOnly
  | some b => do
    let locs ← b.listPositions rt position minPos loadCase
    locs.mapM fun l => do
      let d ← pyIndex o.dsects (l.elem : ℤ)
      return (l.pos, d)

/-- as4100.py 381-392 `s7_2_Nty` -/
def s7Nty (rt : Rt K) (Ag fy : K) : K := rt.mul Ag fy

/-- as4100.py 394-412 `s7_2_Ntu` -/
def s7Ntu (rt : Rt K) (An fu kt alphaU : K) : K := rt.mul (rt.mul (rt.mul An fu) kt) alphaU

/-- as4100.py 351-379 `s7_1_Nt` -/
def s7Nt (rt : Rt K) (Ag An fy fu kt alphaU : K) : K := min (s7Nty rt Ag fy) (s7Ntu rt An fu kt alphaU)

/-- as4100.py 281-283 and 322-324: a float position becomes a list. -/
def PosArg.wrap : PosArg K → PosArg K
  | .scalar x => if x.isInt then .scalar x else .list [x]
  | p => p

/-- as4100.py 278-285 and 319-326: the design sections considered. -/
def AS4100.considered (rt : Rt K) (o : AS4100 K) (position : PosArg K) : Py (List (DSect K)) :=
  match position with
  | .none => .ok o.dsects
  | p => do
    let l ← o.getDSection rt p.wrap none none
    return l.map (·.2)

/-- as4100.py 266-290 `Nty` -/
def AS4100.Nty (rt : Rt K) (o : AS4100 K) (position : PosArg K) : Py K := do
  let ds ← o.considered rt position
  let ns ← ds.mapM fun s => do return s7Nty rt (s.Ag rt) (← s.minFy)
  pyMin ns

/-- as4100.py 307-334 `Ntu` -/
def AS4100.Ntu (rt : Rt K) (o : AS4100 K) (position : PosArg K) : Py K := do
  let ds ← o.considered rt position
  let ns ← ds.mapM fun s => do return s7Ntu rt (s.An rt) (← s.minFu) o.kt o.alphaU
  pyMin ns

/-- as4100.py 237-249 `Nt` -/
def AS4100.Nt (rt : Rt K) (o : AS4100 K) (position : PosArg K) : Py K := do
  let a ← o.Nty rt position
  let b ← o.Ntu rt position
  return min a b

/-- as4100.py 251-264 `φNt` -/
def AS4100.phiNt (rt : Rt K) (o : AS4100 K) (position : PosArg K) : Py K := do
  return rt.mul o.phiSteel (← o.Nt rt position)

/-- as4100.py 292-305 `φNty` -/
def AS4100.phiNty (rt : Rt K) (o : AS4100 K) (position : PosArg K) : Py K := do
  return rt.mul o.phiSteel (← o.Nty rt position)

/-- as4100.py 336-349 `φNtu`.  The code calls `Nty` here. -/
def AS4100.phiNtu (rt : Rt K) (o : AS4100 K) (position : PosArg K) : Py K := do
  return rt.mul o.phiSteel (← o.Nty rt position)

/-- as4100.py 61-63 `tension_capacity` -/
def AS4100.tensionCapacity (rt : Rt K) (o : AS4100 K) (position : PosArg K) : Py K := o.phiNt rt position

variable [FloorRing K]

/-- codecheck.py 201-268, as4100.py 213-227 `get_loads` -/
def AS4100.getLoads (rt : Rt K) (o : AS4100 K) (c : ℤ) (position : PosArg K) (minPos : Option ℤ)
    (component : CompArg) : Py (Option (Tab K)) :=
  match o.beam with
  | none => .error .sectionOnly
  | some b => b.getLoads rt c position minPos component

/-- codecheck.py 324: `tension[:, 1][tension[:, 1] < 0] = 0` on one row.  `None < 0` raises `TypeError`. -/
def clampRow (r : K × List (Option K)) : Py (K × List (Option K)) :=
  match r.2 with
  | some x :: rest => .ok (r.1, some (if x < 0 then 0 else x) :: rest)
  | none :: _ => .error .typeError
  | [] => .error .indexError

/-- codecheck.py 270-326, as4100.py 229-235 `get_tension`.  Without a beam `None.get_loads` raises
`AttributeError`; without positions `None[:, 1]` raises `TypeError`. -/
def AS4100.getTension (rt : Rt K) (o : AS4100 K) (c : ℤ) (position : PosArg K) (minPos : Option ℤ) :
    Py (Tab K) :=
  match o.beam with
  | none => .error .attributeError
  | some b => do
    match ← b.getLoads rt c position minPos (.name "N") with
    | none => .error .typeError
    | some t => do return { t with rows := ← t.rows.mapM clampRow }

/-- as4100.py 126-128 `util_func`, with `cap_func` of 106-107.  The load is a numpy number, so dividing by a zero
capacity gives an infinity or nan, not an exception. -/
def utilFunc (rt : Rt K) : SolveFun K (K × K) := fun x args =>
  match args with
  | [(load, cap)] =>
    let xl := rt.mul x load
    if cap = 0 then
      .ok (if 0 < xl then .posInf else if xl < 0 then .negInf else .nan)
    else .ok (.fin (rt.sub (rt.div xl cap) 1))
  | _ => .error .typeError

/-- as4100.py 115-140: utilisation for one tension value.  The two positional arguments `t, cap_func` are one
pair here.  `secant` is called with its default `tol = 1e-9` and `max_its = 20000`, so 20000 passes are
enough. -/
def utilOne (rt : Rt K) (cap t : K) : Py K :=
  if t ≤ 0 then .ok 0
  else
    match secant rt (utilFunc rt) [(t, cap)] (.fin (-100000)) (.fin 100000) (1 / 10 ^ 9) (some 20000) false 20000 with
    | none => .error .outsideModel
    | some (.error e) => .error e.toPy
    | some (.ok (x, _, _)) => .ok (if x ≠ 0 then rt.div 1 x else x)

/-- as4100.py 101-144: the utilisations at one position in one load case. -/
def AS4100.utilAt (rt : Rt K) (o : AS4100 K) (c : ℤ) (p : Num K) : Py (List (ℤ × Num K × K)) := do
  let cap ← o.tensionCapacity rt (.scalar p)
  let tab ← o.getTension rt c (.scalar p) none
  tab.rows.mapM fun r =>
    match r.2 with
    | some t :: _ => do return (c, p, ← utilOne rt cap t)
    | _ => .error .typeError

/-- as4100.py 79-84: the positions given, if any; a float becomes a list; an int is not iterable. -/
def PosArg.given : PosArg K → Py (Option (List (Num K)))
  | .none => .ok Option.none
  | .scalar x => if x.isInt then .error .typeError else .ok (some [x])
  | .list xs => .ok (some xs)

/-- as4100.py 96-99: the positions checked; computed from the load case if there are none yet. -/
def AS4100.utilPositions (rt : Rt K) (o : AS4100 K) (pos : Option (List (Num K))) (c : ℤ) :
    Py (List (Num K)) :=
  match pos, o.beam with
  | some ps, _ => .ok ps
  | none, none => .error .attributeError
  | none, some b => do
    let locs ← b.listPositions rt .none (some o.assessmentPoints) (some c)
    return locs.map fun l => l.pos

/-- as4100.py 94-144: the loop over load cases.  `pos` is computed only while it is `None`, that is for the first
load case. -/
def AS4100.utilLoop (rt : Rt K) (o : AS4100 K) :
    Option (List (Num K)) → List ℤ → Py (List (ℤ × Num K × K))
  | _, [] => .ok []
  | pos, c :: cs => do
    let ps ← o.utilPositions rt pos c
    let here ← ps.mapM fun p => o.utilAt rt c p
    let rest ← o.utilLoop rt (some ps) cs
    return here.flatten ++ rest

/-- as4100.py 90-92: the load cases checked. -/
def AS4100.utilCases (o : AS4100 K) : CaseArg → Py (List ℤ)
  | .one c => .ok [c]
  | .list cs => .ok cs
  | .none =>
    match o.beam with
    | Option.none => .error .attributeError
    | some b => b.loadCases

/-- as4100.py 146-154: the final filters. -/
def utilFilter (loadCase : CaseArg) (given : Option (List (Num K))) (ret : List (ℤ × Num K × K)) :
    List (ℤ × Num K × K) :=
  match loadCase, given with
  | .none, some ps => ret.filter fun r => decide (r.2.1.val ∈ ps.map fun p => p.val)
  | .one c, none => ret.filter fun r => decide (r.1 ∈ [c])
  | .list cs, none => ret.filter fun r => decide (r.1 ∈ cs)
  | _, _ => ret

/-- as4100.py 65-156 `tension_utilisation`.  Simplified: an int for `position` raises its `TypeError` ("not
iterable") before any other error, and with no load cases too. -/
def AS4100.tensionUtilisation (rt : Rt K) (o : AS4100 K) (loadCase : CaseArg) (position : PosArg K) : Py K := do
  let given ← position.given
  let cases ← o.utilCases loadCase
  let ret ← o.utilLoop rt given cases
  pyMax ((utilFilter loadCase given ret).map fun r => r.2.2)

end

end BeamDesign
