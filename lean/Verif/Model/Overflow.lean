import Verif.Model.Special

/-!
# Interpolation with overflow

The arithmetic of a run-time `Rt` has no largest number.  Here every operation of `np.interp` is followed by the overflow of doubles.
-/

namespace BeamDesign

variable {K : Type} [Field K] [LinearOrder K]

/-- a rounded result as a double: from `2 ^ 1024` on an infinity -/
def Val.cap (x : K) : Val K :=
  if (2 : K) ^ 1024 ≤ x then .posInf else if x ≤ -(2 : K) ^ 1024 then .negInf else .fin x

/-- overflow of a result that is a number; infinities and nan stay -/
def Val.over : Val K → Val K
  | .fin x => Val.cap x
  | v => v

/-- The core of `np.interp` as in `interpGo`, with overflow: `slope = (y1 - yj) / (x1 - xj)`, then `slope * (x - xj) + yj`.  The
differences of positions cannot overflow. -/
def overInterpGo (rt : Rt K) (x : K) : K × K → List (K × K) → Val K
  | (_, yj), [] => .fin yj
  | (xj, yj), (x1, y1) :: rest =>
    if x1 ≤ x then overInterpGo rt x (x1, y1) rest
    else if xj = x then .fin yj
    else
      let slope := (Val.div rt (Val.cap (rt.sub y1 yj)) (rt.sub x1 xj)).over
      (Val.add rt (Val.mul rt slope (rt.sub x xj)).over (.fin yj)).over

/-- `np.interp(x, xp, fp)` as in `npInterp`, with overflow -/
def overInterp (rt : Rt K) (x : K) : List (K × K) → Py (Val K)
  | [] => .error .valueError
  | (x0, y0) :: rest =>
    if x < x0 then .ok (.fin y0)
    else
      let l := ((x0, y0) :: rest).getLast (by simp)
      if l.1 < x then .ok (.fin l.2)
      else .ok (overInterpGo rt x (x0, y0) rest)

/-- `loadcase.py:307-463` `get_load(position=p, component=c)[..., 1]` with overflow, as in `LoadCase.axial` -/
def LoadCase.loadOver (rt : Rt K) (lc : LoadCase K) (c : LComp) (p : Num K) : Py (List (Option (Val K))) :=
  if p.isInt then .error .typeError
  else match lc.loads with
    | none => .ok [none]
    | some t =>
      if p.val ∈ t.rows.map (·.pos) then
        .ok ((t.rows.filter fun r => decide (r.pos = p.val)).map fun r => some (.fin (r.get c)))
      else do
        let v ← overInterp rt p.val (t.rows.map fun r => (r.pos, r.get c))
        return [some v]

end BeamDesign
