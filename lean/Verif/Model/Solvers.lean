import Verif.Numpy
import Mathlib.Algebra.Order.Field.Basic

/-!
# `beamdesign/utility/solvers.py`

The function to be solved is an arbitrary pure function from a number and the extra positional arguments to a
float value (finite, infinite or nan) or an exception.  Keyword arguments for it are closed over: the
solvers only hand them on.

Simplifications: the arithmetic of the solvers goes through `Rt` but does not overflow to infinity;
the relative tolerance of `math.isclose` is exactly 10⁻⁹ (the code uses the double nearest to it).
-/

namespace BeamDesign

/-- A Python float as a result of a function. -/
inductive Val (K : Type)
  | fin (x : K)
  | posInf
  | negInf
  | nan
  deriving DecidableEq, Repr

namespace Val
variable {K : Type}

/-- `math.isinf` -/
def isInf : Val K → Bool
  | .posInf => true
  | .negInf => true
  | _ => false

/-- `math.isnan` -/
def isNan : Val K → Bool
  | .nan => true
  | _ => false

end Val

/-- Why a solver raised.  All are `ValueError`s with different messages in the code, except `func`, which is
an exception of the function being solved, and `fallbackArgs`, a `TypeError`. -/
inductive SolverErr
  /-- solvers.py 44-47, 180-183: a guess is infinite -/
  | guessInf
  /-- solvers.py 49-52, 185-188: a guess is nan -/
  | guessNan
  /-- solvers.py 54-58, 190-194: the guesses are close to each other -/
  | guessSame
  /-- solvers.py 60-62: `max_its` is less than 2 -/
  | maxItsSmall
  /-- `math.isclose` with a negative tolerance -/
  | tolNegative
  /-- solvers.py 79-85: infinite function value -/
  | yInf
  /-- solvers.py 87-93: nan function value -/
  | yNan
  /-- solvers.py 95-100: the guesses do not bracket the root -/
  | notBracketed
  /-- solvers.py 110-116, 241-253: too many iterations -/
  | exceeded
  /-- solvers.py 209-218: infinite value in the secant formula -/
  | secantInf
  /-- solvers.py 220-228: equal function values -/
  | sameValue
  /-- solvers.py 232-236: the new guess is nan or infinite -/
  | guessBad
  /-- solvers.py 245-247: `func` is passed both by keyword and as first positional argument -/
  | fallbackArgs
  /-- solvers.py 255: `x_3` is not defined -/
  | unbound
  /-- division by zero -/
  | zeroDiv
  /-- raised by the function being solved -/
  | func (e : PyErr)
  deriving DecidableEq, Repr

/-- The Python exception class. -/
def SolverErr.toPy : SolverErr → PyErr
  | .func e => e
  | .fallbackArgs => .typeError
  | .unbound => .unboundLocal
  | .zeroDiv => .zeroDivision
  | _ => .valueError

/-- The function to be solved: number, extra positional arguments. -/
abbrev SolveFun (K A : Type) := K → List A → Py (Val K)

section
variable {K A : Type} [Field K] [LinearOrder K]

/-- the default `rel_tol` of `math.isclose` -/
def relTol : K := 1 / 10 ^ 9

/-- `math.isclose(a, b, abs_tol=tol)` (CPython `math_isclose_impl`). -/
def isclose (rt : Rt K) (tol : K) (a b : Val K) : Except SolverErr Bool :=
  if tol < 0 then .error .tolNegative
  else match a, b with
    | .fin x, .fin y => .ok (decide (x = y) || decide (|rt.sub y x| ≤ |rt.mul relTol y|) ||
        decide (|rt.sub y x| ≤ |rt.mul relTol x|) || decide (|rt.sub y x| ≤ tol))
    | .posInf, .posInf => .ok true
    | .negInf, .negInf => .ok true
    | _, _ => .ok false

/-- `func(x, *args, **kwargs)` inside a solver. -/
def callFunc (f : SolveFun K A) (x : K) (args : List A) : Except SolverErr (Val K) :=
  match f x args with
  | .ok v => .ok v
  | .error e => .error (.func e)

/-- solvers.py 44-52 and 180-188: guesses must be finite. -/
def checkGuesses (xLow xHigh : Val K) : Except SolverErr (K × K) :=
  if xLow.isInf || xHigh.isInf then .error .guessInf
  else match xLow, xHigh with
    | .fin lo, .fin hi => .ok (lo, hi)
    | _, _ => .error .guessNan

/-- `y_low * y_mid > 0.0` for finite `y_low` -/
def prodPos (rt : Rt K) (y : K) : Val K → Bool
  | .fin z => decide (0 < rt.mul y z)
  | .posInf => decide (0 < y)
  | .negInf => decide (y < 0)
  | .nan => false

/-- The loop condition: solvers.py 66 (bisection) and 200 (secant).  `abs(b - a) > tol and not
isclose(x, y, abs_tol=tol)`; bisection calls it with `x_high, x_low`, secant with `x_1, x_2`. -/
def loopCond (rt : Rt K) (tol diff : K) (x y : K) : Except SolverErr Bool :=
  if |diff| > tol then do
    let c ← isclose rt tol (.fin x) (.fin y)
    return !c
  else .ok false

/-- `(x_low + x_high) / 2` solvers.py 102, 120 -/
def mid (rt : Rt K) (lo hi : K) : K := rt.div (rt.add lo hi) 2

/-- Outcome of one pass through the loop of `bisection`. -/
inductive BStep (K : Type)
  | ret (x : K)
  | next (lo hi : K)
  deriving DecidableEq, Repr

/-- solvers.py 68-108: one pass through the loop of `bisection`, up to the check of `max_its`. -/
def bisectBody (rt : Rt K) (f : SolveFun K A) (args : List A) (tol lo hi : K) : Except SolverErr (BStep K) := do
  let yLow ← callFunc f lo args
  let yHigh ← callFunc f hi args
  let c1 ← isclose rt tol yLow (.fin 0)
  if c1 then return .ret lo
  let c2 ← isclose rt tol yHigh (.fin 0)
  if c2 then return .ret hi
  if yLow.isInf || yHigh.isInf then throw .yInf
  match yLow, yHigh with
  | .fin yl, .fin yh =>
    if 0 < rt.mul yl yh then throw .notBracketed
    let xMid := mid rt lo hi
    let yMid ← callFunc f xMid args
    if prodPos rt yl yMid then return .next xMid hi
    else return .next lo xMid
  | _, _ => throw .yNan

/-- solvers.py 64-120: the loop of `bisection`.  `none`: still running after `fuel` passes. -/
def bisectLoop (rt : Rt K) (f : SolveFun K A) (args : List A) (tol : K) (maxIts : Option ℤ) (failOn : Bool) :
    ℕ → ℕ → K → K → Option (Except SolverErr (K × ℕ))
  | fuel, i, lo, hi =>
    match loopCond rt tol (rt.sub hi lo) hi lo with
    | .error e => some (.error e)
    | .ok false => some (.ok (mid rt lo hi, i))
    | .ok true =>
      match fuel with
      | 0 => none
      | fuel + 1 =>
        match bisectBody rt f args tol lo hi with
        | .error e => some (.error e)
        | .ok (.ret x) => some (.ok (x, i + 1))
        | .ok (.next lo' hi') =>
          if maxIts.any (fun m => decide (m ≤ (i + 1 : ℤ))) then
            if failOn then some (.error .exceeded) else some (.ok (mid rt lo' hi', i + 1))
          else bisectLoop rt f args tol maxIts failOn fuel (i + 1) lo' hi'

/-- solvers.py 9-120: `bisection`, stopped after `fuel` passes through the loop (only needed if `max_its` is
`None`). -/
def bisection (rt : Rt K) (f : SolveFun K A) (args : List A) (xLow xHigh : Val K) (tol : K)
    (maxIts : Option ℤ) (failOn : Bool) (fuel : ℕ) : Option (Except SolverErr (K × ℕ)) :=
  match checkGuesses xLow xHigh with
  | .error e => some (.error e)
  | .ok (lo, hi) =>
    match isclose rt tol (.fin hi) (.fin lo) with
    | .error e => some (.error e)
    | .ok true => some (.error .guessSame)
    | .ok false =>
      if maxIts.any (fun m => decide (m ≤ 1)) then some (.error .maxItsSmall)
      else bisectLoop rt f args tol maxIts failOn fuel 0 lo hi

/-- `x * y` for a finite guess `x` and a function value `y` -/
def mulVal (rt : Rt K) (x : K) : Val K → Val K
  | .fin y => .fin (rt.mul x y)
  | .posInf => if 0 < x then .posInf else if x < 0 then .negInf else .nan
  | .negInf => if 0 < x then .negInf else if x < 0 then .posInf else .nan
  | .nan => .nan

/-- solvers.py 202-236: one pass through the loop of `secant`: the new guess. -/
def secantBody (rt : Rt K) (f : SolveFun K A) (args : List A) (tol x1 x2 : K) : Except SolverErr K := do
  let c ← callFunc f x2 args
  let a := mulVal rt x1 c
  let d ← callFunc f x1 args
  let b := mulVal rt x2 d
  if a.isInf || b.isInf || c.isInf || d.isInf then throw .secantInf
  let close ← isclose rt tol c d
  if close then throw .sameValue
  match a, b, c, d with
  | .fin a, .fin b, .fin c, .fin d =>
    if rt.sub c d = 0 then throw .zeroDiv
    return rt.div (rt.sub a b) (rt.sub c d)
  | _, _, _, _ => throw .guessBad

/-- solvers.py 196-255: the loop of `secant`; `x3` is the last guess, if there is one.
`onMax` is what happens when `max_its` is reached. -/
def secantLoop (rt : Rt K) (f : SolveFun K A) (args : List A) (tol : K) (maxIts : Option ℤ)
    (onMax : Option (Except SolverErr (K × ℕ × Bool))) :
    ℕ → ℕ → K → K → Option K → Option (Except SolverErr (K × ℕ × Bool))
  | fuel, i, x1, x2, x3 =>
    match loopCond rt tol (rt.sub x2 x1) x1 x2 with
    | .error e => some (.error e)
    | .ok false =>
      match x3 with
      | some x => some (.ok (x, i, false))
      | none => some (.error .unbound)
    | .ok true =>
      match fuel with
      | 0 => none
      | fuel + 1 =>
        match secantBody rt f args tol x1 x2 with
        | .error e => some (.error e)
        | .ok x3 =>
          if maxIts.any (fun m => decide (m ≤ (i + 1 : ℤ))) then onMax
          else secantLoop rt f args tol maxIts onMax fuel (i + 1) x2 x3 (some x3)

/-- solvers.py 244-248: the fall back to `bisection(func=func, x_low=x_low, x_high=x_high, tol=tol, *args,
**kwargs)`.  With extra positional arguments the first of them is bound to the parameter `func` as well:
`TypeError`.  `max_its` is the default 20000, so 20000 passes are enough. -/
def secantFallback (rt : Rt K) (f : SolveFun K A) (args : List A) (lo hi tol : K) :
    Option (Except SolverErr (K × ℕ × Bool)) :=
  match args with
  | _ :: _ => some (.error .fallbackArgs)
  | [] =>
    (bisection rt f [] (.fin lo) (.fin hi) tol (some 20000) true 20000).map fun r =>
      match r with
      | .ok (x, i) => .ok (x, i, true)
      | .error e => .error e

/-- solvers.py 123-255: `secant`, stopped after `fuel` passes through the loop (only needed if `max_its` is
`None`). -/
def secant (rt : Rt K) (f : SolveFun K A) (args : List A) (xLow xHigh : Val K) (tol : K)
    (maxIts : Option ℤ) (fallback : Bool) (fuel : ℕ) : Option (Except SolverErr (K × ℕ × Bool)) :=
  match checkGuesses xLow xHigh with
  | .error e => some (.error e)
  | .ok (lo, hi) =>
    match isclose rt tol (.fin hi) (.fin lo) with
    | .error e => some (.error e)
    | .ok true => some (.error .guessSame)
    | .ok false =>
      secantLoop rt f args tol maxIts
        (if fallback then secantFallback rt f args lo hi tol else some (.error .exceeded)) fuel 0 lo hi none

end

end BeamDesign
