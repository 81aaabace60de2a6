import Verif.Model.AS4100

/-!
# Loads that are not finite

The tables of `LoadCase` hold floats, and a float may be an infinity or nan.  The other modules take every load to be a number.  Here the axial
loads are arbitrary floats: `view` tells which float an entry of the axial load column stands for (with `Val.fin` every entry stands for
itself), and the path from the constructor of a load case to the utilisation is followed with the arithmetic of IEEE 754.
-/

namespace BeamDesign

section
variable {K : Type} [LinearOrder K]

/-- `a <= b` for a float `a` and a number `b`: false for nan -/
def Val.le (a : Val K) (b : K) : Bool :=
  match a with
  | .fin x => decide (x ≤ b)
  | .negInf => true
  | _ => false

/-- `a >= b` for a float `a` and a number `b`: false for nan -/
def Val.ge (a : Val K) (b : K) : Bool :=
  match a with
  | .fin x => decide (b ≤ x)
  | .posInf => true
  | _ => false

/-- `b - a >= 0` for floats: false for nan and for the difference of equal infinities -/
def Val.diffNonneg : Val K → Val K → Bool
  | .fin x, .fin y => decide (x ≤ y)
  | .fin _, .posInf => true
  | .negInf, .fin _ => true
  | .negInf, .posInf => true
  | _, _ => false

/-- `loadcase.py:114-121`: the checks of the positions of a table -/
def LoadCase.checkFloats [Zero K] [One K] (pos : List (Val K)) : Py Unit :=
  let rec ordered : List (Val K) → Bool
    | a :: b :: rest => a.diffNonneg b && ordered (b :: rest)
    | _ => true
  if !ordered pos then .error .assertionError
  else if !(pos.all (·.le 1) && pos.all (·.ge 0)) then .error .assertionError
  else .ok ()

end

section
variable {K : Type} [LinearOrder K] [Field K]

/-- `b - a` -/
def Val.sub (rt : Rt K) : Val K → Val K → Val K
  | .fin b, .fin a => .fin (rt.sub b a)
  | .nan, _ => .nan
  | _, .nan => .nan
  | .posInf, .posInf => .nan
  | .negInf, .negInf => .nan
  | .posInf, _ => .posInf
  | .negInf, _ => .negInf
  | .fin _, .posInf => .negInf
  | .fin _, .negInf => .posInf

/-- `a + b` -/
def Val.add (rt : Rt K) : Val K → Val K → Val K
  | .fin a, .fin b => .fin (rt.add a b)
  | .nan, _ => .nan
  | _, .nan => .nan
  | .posInf, .negInf => .nan
  | .negInf, .posInf => .nan
  | .posInf, _ => .posInf
  | .negInf, _ => .negInf
  | .fin _, .posInf => .posInf
  | .fin _, .negInf => .negInf

/-- the sign of a product or quotient of an infinity with a number that is not zero -/
def Val.signed (pos : Bool) (b : K) : Val K := if pos = decide (0 < b) then .posInf else .negInf

/-- `a * b` for a number `b` -/
def Val.mul (rt : Rt K) (a : Val K) (b : K) : Val K :=
  match a with
  | .fin a => .fin (rt.mul a b)
  | .nan => .nan
  | .posInf => if b = 0 then .nan else Val.signed true b
  | .negInf => if b = 0 then .nan else Val.signed false b

/-- `a / b` for a number `b` other than zero, and for a zero (taken to be positive) and a numpy float `a` -/
def Val.div (rt : Rt K) (a : Val K) (b : K) : Val K :=
  match a with
  | .fin a => if b = 0 then (if 0 < a then .posInf else if a < 0 then .negInf else .nan) else .fin (rt.div a b)
  | .nan => .nan
  | .posInf => if b = 0 then .posInf else Val.signed true b
  | .negInf => if b = 0 then .negInf else Val.signed false b

/-- One entry of `np.interp` strictly between two sample points.  numpy 1.16, current when the code was written, uses the line from the left; with
`retry`, as in later versions, a nan is replaced by the line from the right, and if that is nan as well by the value of both ends where they
are equal. -/
def valLine (rt : Rt K) (retry : Bool) (x : K) : K × Val K → K × Val K → Val K
  | (xj, yj), (x1, y1) =>
    let slope := Val.div rt (Val.sub rt y1 yj) (rt.sub x1 xj)
    let y := Val.add rt (Val.mul rt slope (rt.sub x xj)) yj
    if retry ∧ y = .nan then
      let z := Val.add rt (Val.mul rt slope (rt.sub x x1)) y1
      if z = .nan ∧ yj = y1 then yj else z
    else y

/-- The core of `np.interp` as in `interpGo`, for float values. -/
def valInterpGo (rt : Rt K) (retry : Bool) (x : K) : K × Val K → List (K × Val K) → Val K
  | (_, yj), [] => yj
  | (xj, yj), (x1, y1) :: rest =>
    if x1 ≤ x then valInterpGo rt retry x (x1, y1) rest
    else if xj = x then yj
    else valLine rt retry x (xj, yj) (x1, y1)

/-- `np.interp(x, xp, fp)` as in `npInterp`, for float values -/
def valInterp (rt : Rt K) (retry : Bool) (x : K) : List (K × Val K) → Py (Val K)
  | [] => .error .valueError
  | (x0, y0) :: rest =>
    if x < x0 then .ok y0
    else
      let l := ((x0, y0) :: rest).getLast (by simp)
      if l.1 < x then .ok l.2
      else .ok (valInterpGo rt retry x (x0, y0) rest)

/-- `loadcase.py:307-463` `get_load(position=p, component="N")[..., 1]`; `none` is Python's `None`.  The rows at the position are returned both by
the shortcut (394-397) and by the selection (403-414). -/
def LoadCase.axial (rt : Rt K) (retry : Bool) (view : K → Val K) (lc : LoadCase K) (p : Num K) : Py (List (Option (Val K))) :=
  if p.isInt then .error .typeError
  else match lc.loads with
    | none => .ok [none]
    | some t =>
      if p.val ∈ t.rows.map (·.pos) then
        .ok ((t.rows.filter fun r => decide (r.pos = p.val)).map fun r => some (view r.n))
      else do
        let v ← valInterp rt retry p.val (t.rows.map fun r => (r.pos, view r.n))
        return [some v]

/-- codecheck.py 324: `tension[:, 1][tension[:, 1] < 0] = 0` on one entry; nan is not less than 0 -/
def clampVal : Option (Val K) → Py (Val K)
  | none => .error .typeError
  | some (.fin x) => .ok (.fin (if x < 0 then 0 else x))
  | some .negInf => .ok (.fin 0)
  | some v => .ok v

/-- beam.py 378-384: the axial loads at one listed place -/
def Beam.axialOf {S : Type} (rt : Rt K) (retry : Bool) (view : K → Val K) (b : Beam K S) (c : ℤ) (l : Loc K) : Py (List (Option (Val K))) := do
  let e ← pyIndex b.elements (l.elem : ℤ)
  let lc ← e.case c
  lc.axial rt retry view l.loc

/-- beam.py 314-394 and codecheck.py 270-326: the entries of `get_tension(load_case=c, position=p)[..., 1]` -/
def Beam.tensionVals {S : Type} (rt : Rt K) (retry : Bool) (view : K → Val K) (b : Beam K S) (c : ℤ) (p : Num K) : Py (List (Val K)) := do
  let locs ← b.listPositions rt (.scalar p) none (some c)
  let vals ← locs.mapM (b.axialOf rt retry view c)
  if locs = [] then .error .typeError
  else vals.flatten.mapM clampVal

/-- as4100.py 126-128 `util_func` for a float load -/
def utilFuncVal (rt : Rt K) : SolveFun K (Val K × K) := fun x args =>
  match args with
  | [(load, cap)] => .ok (Val.sub rt (Val.div rt (mulVal rt x load) cap) (.fin 1))
  | _ => .error .typeError

/-- as4100.py 115-140: utilisation for one tension value, which may be nan or an infinity -/
def utilOneVal (rt : Rt K) (cap : K) (t : Val K) : Py K :=
  if t.le 0 then .ok 0
  else
    match secant rt (utilFuncVal rt) [(t, cap)] (.fin (-100000)) (.fin 100000) (1 / 10 ^ 9) (some 20000) false 20000 with
    | none => .error .outsideModel
    | some (.error e) => .error e.toPy
    | some (.ok (x, _, _)) => .ok (if x ≠ 0 then rt.div 1 x else x)

/-- as4100.py 101-144: the utilisations at one position in one load case -/
def AS4100.utilAtVal (rt : Rt K) (retry : Bool) (view : K → Val K) (o : AS4100 K) (c : ℤ) (p : Num K) : Py (List (ℤ × Num K × K)) := do
  let cap ← o.tensionCapacity rt (.scalar p)
  match o.beam with
  | none => .error .attributeError
  | some b => do
    let ts ← b.tensionVals rt retry view c p
    ts.mapM fun t => do return (c, p, ← utilOneVal rt cap t)

/-- as4100.py 94-144: the loop over load cases -/
def AS4100.utilLoopVal (rt : Rt K) (retry : Bool) (view : K → Val K) (o : AS4100 K) :
    Option (List (Num K)) → List ℤ → Py (List (ℤ × Num K × K))
  | _, [] => .ok []
  | pos, c :: cs => do
    let ps ← o.utilPositions rt pos c
    let here ← ps.mapM fun p => o.utilAtVal rt retry view c p
    let rest ← o.utilLoopVal rt retry view (some ps) cs
    return here.flatten ++ rest

/-- as4100.py 65-156 `tension_utilisation` -/
def AS4100.tensionUtilisationVal (rt : Rt K) (retry : Bool) (view : K → Val K) (o : AS4100 K) (loadCase : CaseArg) (position : PosArg K) : Py K := do
  let given ← position.given
  let cases ← o.utilCases loadCase
  let ret ← o.utilLoopVal rt retry view given cases
  pyMax ((utilFilter loadCase given ret).map fun r => r.2.2)

end

end BeamDesign
