import Verif.Model.Util64

/-!
# The whole of `AS4100.tension_utilisation` on IEEE doubles

`Model/Util64` solves for each utilisation on doubles that overflow, but takes capacities and interpolated loads from arithmetic without
overflow.  Here every operation on loads, strengths, areas and capacities overflows.  Positions and lengths along the beam are computed
as in `Model/Beam`, without overflow.
-/

namespace BeamDesign

namespace F64

/-- Python's `min(a, b)`: `a` unless `b < a` -/
def min2 (a b : Flt) : Flt := if lt b a then b else a

/-- Python's `max(a, b)`: `a` unless `b > a` -/
def max2 (a b : Flt) : Flt := if lt a b then b else a

/-- Python's `min` of a list; `ValueError` on an empty list -/
def minList : List Flt → Py Flt
  | [] => .error .valueError
  | x :: xs => .ok (xs.foldl min2 x)

/-- Python's `max` of a list -/
def maxList : List Flt → Py Flt
  | [] => .error .valueError
  | x :: xs => .ok (xs.foldl max2 x)

/-- `sections/circle.py:46-52` `area`.  `radius ** 2` of a Python float raises `OverflowError` where a product would be infinite; this
exception is not among those of the model. -/
def circleArea (radius : ℚ) : Py Flt :=
  match mul (.fin radius) (.fin radius) with
  | .fin q => .ok (mul (.fin piD) (.fin q))
  | _ => .error .outsideModel

end F64

/-- as4100.py 266-290 `Nty` with 381-392 `s7_2_Nty` -/
def AS4100.Nty64 (o : AS4100 ℚ) (position : PosArg ℚ) : Py Flt := do
  let ds ← o.considered Rt.binary64 position
  let ns ← ds.mapM fun s => do
    let a ← F64.circleArea s.radius
    let fy ← s.minFy
    return F64.mul a (.fin fy)
  F64.minList ns

/-- as4100.py 307-334 `Ntu` with 394-412 `s7_2_Ntu` -/
def AS4100.Ntu64 (o : AS4100 ℚ) (position : PosArg ℚ) : Py Flt := do
  let ds ← o.considered Rt.binary64 position
  let ns ← ds.mapM fun s => do
    let a ← F64.circleArea s.radius
    let fu ← s.minFu
    return F64.mul (F64.mul (F64.mul a (.fin fu)) (.fin o.kt)) (.fin o.alphaU)
  F64.minList ns

/-- as4100.py 237-249 `Nt` -/
def AS4100.Nt64 (o : AS4100 ℚ) (position : PosArg ℚ) : Py Flt := do
  let a ← o.Nty64 position
  let b ← o.Ntu64 position
  return F64.min2 a b

/-- as4100.py 251-264 `φNt` and 61-63 `tension_capacity` -/
def AS4100.phiNt64 (o : AS4100 ℚ) (position : PosArg ℚ) : Py Flt := do
  let n ← o.Nt64 position
  return F64.mul (.fin o.phiSteel) n

/-- beam.py 378-384: the axial loads at one listed place -/
def Beam.axialOver {S : Type} (b : Beam ℚ S) (c : ℤ) (l : Loc ℚ) : Py (List (Option Flt)) := do
  let e ← pyIndex b.elements (l.elem : ℤ)
  let lc ← e.case c
  lc.loadOver Rt.binary64 .N l.loc

/-- beam.py 314-394 and codecheck.py 270-326: the entries of `get_tension(load_case=c, position=p)[..., 1]` -/
def Beam.tension64 {S : Type} (b : Beam ℚ S) (c : ℤ) (p : Num ℚ) : Py (List Flt) := do
  let locs ← b.listPositions Rt.binary64 (.scalar p) none (some c)
  let vals ← locs.mapM (b.axialOver c)
  if locs = [] then .error .typeError
  else vals.flatten.mapM clampVal

/-- as4100.py 101-144: the utilisations at one position in one load case -/
def AS4100.utilAtFull (o : AS4100 ℚ) (c : ℤ) (p : Num ℚ) : Py (List (ℤ × Num ℚ × Flt)) := do
  let cap ← o.phiNt64 (.scalar p)
  match o.beam with
  | none => .error .attributeError
  | some b => do
    let ts ← b.tension64 c p
    ts.mapM fun t => do return (c, p, ← F64.utilOne cap t)

/-- as4100.py 94-144: the loop over load cases, as in `AS4100.utilLoop` -/
def AS4100.utilLoopFull (o : AS4100 ℚ) : Option (List (Num ℚ)) → List ℤ → Py (List (ℤ × Num ℚ × Flt))
  | _, [] => .ok []
  | pos, c :: cs => do
    let ps ← o.utilPositions Rt.binary64 pos c
    let here ← ps.mapM fun p => o.utilAtFull c p
    let rest ← o.utilLoopFull (some ps) cs
    return here.flatten ++ rest

/-- as4100.py 146-154: the final filters, as in `utilFilter` -/
def utilSelect (loadCase : CaseArg) (given : Option (List (Num ℚ))) (ret : List (ℤ × Num ℚ × Flt)) : List (ℤ × Num ℚ × Flt) :=
  match loadCase, given with
  | .none, some ps => ret.filter fun r => decide (r.2.1.val ∈ ps.map fun p => p.val)
  | .one c, none => ret.filter fun r => decide (r.1 ∈ [c])
  | .list cs, none => ret.filter fun r => decide (r.1 ∈ cs)
  | _, _ => ret

/-- as4100.py 65-156 `tension_utilisation`: a float, which may be infinite or nan -/
def AS4100.tensionUtilisationFull (o : AS4100 ℚ) (loadCase : CaseArg) (position : PosArg ℚ) : Py Flt := do
  let given ← position.given
  let cases ← o.utilCases loadCase
  let ret ← o.utilLoopFull given cases
  F64.maxList ((utilSelect loadCase given ret).map fun r => r.2.2)

end BeamDesign
