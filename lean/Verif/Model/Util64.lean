import Verif.Model.AS4100
import Verif.Model.Solvers64

/-!
# `AS4100.tension_utilisation` on IEEE doubles

`Model/AS4100` computes the utilisation with a run-time whose numbers are unbounded, and takes the tolerances 1e-09 of the secant
method and of `math.isclose` for the decimal number.  Here the solution for one tension is computed as in `Model/Solvers64`: numbers
overflow, infinities and nan propagate, and the tolerances are the doubles nearest to 10⁻⁹.  The capacity and the tension themselves
are as in `Model/AS4100`.
-/

namespace BeamDesign

namespace F64

/-- `a / b` for a numpy number `a`: dividing by zero, taken to be positive, raises nothing -/
def ndiv : Flt → Flt → Flt
  | a, .fin b => (Val.div Rt.binary64 a b).over
  | .fin _, .posInf => .fin 0
  | .fin _, .negInf => .fin 0
  | _, _ => .nan

/-- as4100.py 126-128 `util_func`, with `cap_func` of 106-107, on doubles.  The load is a numpy number, so that dividing by a zero
capacity raises nothing. -/
def utilFunc : SolveFun64 (Flt × Flt) := fun x args =>
  match args with
  | [(load, cap)] => .ok (sub (ndiv (mul x load) cap) (.fin 1))
  | _ => .error .typeError

/-- as4100.py 115-140: utilisation for one tension value.  `secant` is called with its default `tol = 1e-9` and `max_its = 20000`. -/
def utilOne (cap t : Flt) : Py Flt :=
  if le t (.fin 0) then .ok (.fin 0)
  else
    match secant utilFunc [(t, cap)] (.fin (-100000)) (.fin 100000) (.fin relTol) (some 20000) false 20000 with
    | none => .error .outsideModel
    | some (.error e) => .error e.toPy
    | some (.ok (x, _, _)) =>
      if eq x (.fin 0) then .ok x
      else match div (.fin 1) x with
        | .ok v => .ok v
        | .error e => .error e.toPy

/-- A utilisation that is a number, for a capacity and a tension that are numbers.  An infinity or nan, which Python would keep, is left out of the model here. -/
def utilNum (cap t : ℚ) : Py ℚ := do
  match ← utilOne (.fin cap) (.fin t) with
  | .fin v => .ok v
  | _ => .error .outsideModel

end F64

section
variable {K : Type} [Field K] [LinearOrder K] [FloorRing K]

/-- as4100.py 101-144 as in `AS4100.utilAt`; `one` solves for one tension. -/
def AS4100.utilAtWith (one : K → K → Py K) (rt : Rt K) (o : AS4100 K) (c : ℤ) (p : Num K) : Py (List (ℤ × Num K × K)) := do
  let cap ← o.tensionCapacity rt (.scalar p)
  let tab ← o.getTension rt c (.scalar p) none
  tab.rows.mapM fun r =>
    match r.2 with
    | some t :: _ => do return (c, p, ← one cap t)
    | _ => .error .typeError

/-- as4100.py 94-144 as in `AS4100.utilLoop`; `one` solves for one tension. -/
def AS4100.utilLoopWith (one : K → K → Py K) (rt : Rt K) (o : AS4100 K) :
    Option (List (Num K)) → List ℤ → Py (List (ℤ × Num K × K))
  | _, [] => .ok []
  | pos, c :: cs => do
    let ps ← o.utilPositions rt pos c
    let here ← ps.mapM fun p => o.utilAtWith one rt c p
    let rest ← o.utilLoopWith one rt (some ps) cs
    return here.flatten ++ rest

/-- as4100.py 65-156 `tension_utilisation` as in `AS4100.tensionUtilisation`; `one` solves for one tension. -/
def AS4100.tensionUtilisationWith (one : K → K → Py K) (rt : Rt K) (o : AS4100 K) (loadCase : CaseArg) (position : PosArg K) : Py K := do
  let given ← position.given
  let cases ← o.utilCases loadCase
  let ret ← o.utilLoopWith one rt given cases
  pyMax ((utilFilter loadCase given ret).map fun r => r.2.2)

/-- as4100.py 65-156 `tension_utilisation` on doubles -/
def AS4100.tensionUtilisation64 (o : AS4100 ℚ) (loadCase : CaseArg) (position : PosArg ℚ) : Py ℚ :=
  o.tensionUtilisationWith F64.utilNum Rt.binary64 loadCase position

end

end BeamDesign
