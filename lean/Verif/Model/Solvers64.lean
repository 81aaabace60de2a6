import Verif.Model.Overflow
import Verif.Float64

/-!
# `beamdesign/utility/solvers.py` on IEEE doubles

As `Model/Solvers`, but every number is a double (finite, infinite or nan), every operation rounds, underflows and overflows, and the
relative tolerance of `math.isclose` is the double `1e-09`.  Finite doubles are rational numbers; the sign of a zero is not kept.  The
functions to be solved return floats.
-/

namespace BeamDesign

/-- a Python float -/
abbrev Flt := Val ℚ

/-- the function to be solved: a float, extra positional arguments -/
abbrev SolveFun64 (A : Type) := Flt → List A → Py Flt

namespace F64

/-- `a + b` -/
def add (a b : Flt) : Flt := (Val.add Rt.binary64 a b).over

/-- `a - b` -/
def sub (a b : Flt) : Flt := (Val.sub Rt.binary64 a b).over

/-- `a * b` -/
def mul : Flt → Flt → Flt
  | a, .fin b => (Val.mul Rt.binary64 a b).over
  | .fin a, b => (Val.mul Rt.binary64 b a).over
  | .nan, _ => .nan
  | _, .nan => .nan
  | .posInf, b => b
  | .negInf, .posInf => .negInf
  | .negInf, .negInf => .posInf

/-- `a / b`: `ZeroDivisionError` when `b` is zero -/
def div : Flt → Flt → Except SolverErr Flt
  | a, .fin b => if b = 0 then .error .zeroDiv else .ok (Val.div Rt.binary64 a b).over
  | .fin _, .posInf => .ok (.fin 0)
  | .fin _, .negInf => .ok (.fin 0)
  | _, _ => .ok .nan

/-- `abs(a)` -/
def abs : Flt → Flt
  | .fin a => .fin |a|
  | .negInf => .posInf
  | a => a

/-- `a < b`: false for nan -/
def lt : Flt → Flt → Bool
  | .fin a, .fin b => decide (a < b)
  | .fin _, .posInf => true
  | .negInf, .fin _ => true
  | .negInf, .posInf => true
  | _, _ => false

/-- `a == b`: false for nan -/
def eq : Flt → Flt → Bool
  | .fin a, .fin b => decide (a = b)
  | .posInf, .posInf => true
  | .negInf, .negInf => true
  | _, _ => false

/-- `a <= b` -/
def le (a b : Flt) : Bool := lt a b || eq a b

/-- the default `rel_tol` of `math.isclose`: the double nearest to 10⁻⁹ -/
def relTol : ℚ := rnd64 (1 / 10 ^ 9)

/-- `math.isclose(a, b, abs_tol=tol)` (CPython `math_isclose_impl`) -/
def isclose (tol a b : Flt) : Except SolverErr Bool :=
  if lt tol (.fin 0) then .error .tolNegative
  else if eq a b then .ok true
  else if a.isInf || b.isInf then .ok false
  else
    let diff := abs (sub b a)
    .ok (le diff (abs (mul (.fin relTol) b)) || le diff (abs (mul (.fin relTol) a)) || le diff tol)

/-- `func(x, *args, **kwargs)` inside a solver -/
def call {A : Type} (f : SolveFun64 A) (x : Flt) (args : List A) : Except SolverErr Flt :=
  match f x args with
  | .ok v => .ok v
  | .error e => .error (.func e)

/-- solvers.py 44-52 and 180-188: guesses must be finite -/
def checkGuesses (lo hi : Flt) : Except SolverErr Unit :=
  if lo.isInf || hi.isInf then .error .guessInf
  else if lo.isNan || hi.isNan then .error .guessNan
  else .ok ()

/-- solvers.py 66, 200: `abs(b - a) > tol and not isclose(x, y, abs_tol=tol)` -/
def loopCond (tol diff x y : Flt) : Except SolverErr Bool :=
  if lt tol (abs diff) then do
    let c ← isclose tol x y
    return !c
  else .ok false

/-- `(x_low + x_high) / 2` solvers.py 102, 120 -/
def mid (lo hi : Flt) : Flt := (Val.div Rt.binary64 (add lo hi) 2).over

/-- outcome of one pass through the loop of `bisection` -/
inductive BStep
  | ret (x : Flt)
  | next (lo hi : Flt)
  deriving DecidableEq, Repr

variable {A : Type}

/-- solvers.py 68-108: one pass through the loop of `bisection`, up to the check of `max_its` -/
def bisectBody (f : SolveFun64 A) (args : List A) (tol lo hi : Flt) : Except SolverErr BStep := do
  let yLow ← call f lo args
  let yHigh ← call f hi args
  let c1 ← isclose tol yLow (.fin 0)
  if c1 then return .ret lo
  let c2 ← isclose tol yHigh (.fin 0)
  if c2 then return .ret hi
  if yLow.isInf || yHigh.isInf then throw .yInf
  if yLow.isNan || yHigh.isNan then throw .yNan
  if lt (.fin 0) (mul yLow yHigh) then throw .notBracketed
  let yMid ← call f (mid lo hi) args
  if lt (.fin 0) (mul yLow yMid) then return .next (mid lo hi) hi
  else return .next lo (mid lo hi)

/-- solvers.py 64-120: the loop of `bisection`.  `none`: still running after `fuel` passes. -/
def bisectLoop (f : SolveFun64 A) (args : List A) (tol : Flt) (maxIts : Option ℤ) (failOn : Bool) :
    ℕ → ℕ → Flt → Flt → Option (Except SolverErr (Flt × ℕ))
  | fuel, i, lo, hi =>
    match loopCond tol (sub hi lo) hi lo with
    | .error e => some (.error e)
    | .ok false => some (.ok (mid lo hi, i))
    | .ok true =>
      match fuel with
      | 0 => none
      | fuel + 1 =>
        match bisectBody f args tol lo hi with
        | .error e => some (.error e)
        | .ok (.ret x) => some (.ok (x, i + 1))
        | .ok (.next lo' hi') =>
          if maxIts.any (fun m => decide (m ≤ (i + 1 : ℤ))) then
            if failOn then some (.error .exceeded) else some (.ok (mid lo' hi', i + 1))
          else bisectLoop f args tol maxIts failOn fuel (i + 1) lo' hi'

/-- solvers.py 9-120: `bisection`, stopped after `fuel` passes through the loop (only needed if `max_its` is `None`) -/
def bisection (f : SolveFun64 A) (args : List A) (lo hi tol : Flt) (maxIts : Option ℤ) (failOn : Bool) (fuel : ℕ) :
    Option (Except SolverErr (Flt × ℕ)) :=
  match checkGuesses lo hi with
  | .error e => some (.error e)
  | .ok () =>
    match isclose tol hi lo with
    | .error e => some (.error e)
    | .ok true => some (.error .guessSame)
    | .ok false =>
      if maxIts.any (fun m => decide (m ≤ 1)) then some (.error .maxItsSmall)
      else bisectLoop f args tol maxIts failOn fuel 0 lo hi

/-- solvers.py 202-236: one pass through the loop of `secant`: the new guess.  The function is called four times, with the same results. -/
def secantBody (f : SolveFun64 A) (args : List A) (tol x1 x2 : Flt) : Except SolverErr Flt := do
  let c ← call f x2 args
  let a := mul x1 c
  let d ← call f x1 args
  let b := mul x2 d
  if a.isInf || b.isInf || c.isInf || d.isInf then throw .secantInf
  let close ← isclose tol c d
  if close then throw .sameValue
  let x3 ← div (sub a b) (sub c d)
  if x3.isNan || x3.isInf then throw .guessBad
  return x3

/-- solvers.py 196-255: the loop of `secant`; `x3` is the last guess, if there is one.  `onMax` is what happens when `max_its` is
reached. -/
def secantLoop (f : SolveFun64 A) (args : List A) (tol : Flt) (maxIts : Option ℤ)
    (onMax : Option (Except SolverErr (Flt × ℕ × Bool))) :
    ℕ → ℕ → Flt → Flt → Option Flt → Option (Except SolverErr (Flt × ℕ × Bool))
  | fuel, i, x1, x2, x3 =>
    match loopCond tol (sub x2 x1) x1 x2 with
    | .error e => some (.error e)
    | .ok false =>
      match x3 with
      | some x => some (.ok (x, i, false))
      | none => some (.error .unbound)
    | .ok true =>
      match fuel with
      | 0 => none
      | fuel + 1 =>
        match secantBody f args tol x1 x2 with
        | .error e => some (.error e)
        | .ok x3 =>
          if maxIts.any (fun m => decide (m ≤ (i + 1 : ℤ))) then onMax
          else secantLoop f args tol maxIts onMax fuel (i + 1) x2 x3 (some x3)

/-- solvers.py 244-248: the fall back to `bisection`, as in `Model/Solvers` -/
def secantFallback (f : SolveFun64 A) (args : List A) (lo hi tol : Flt) : Option (Except SolverErr (Flt × ℕ × Bool)) :=
  match args with
  | _ :: _ => some (.error .fallbackArgs)
  | [] =>
    (bisection f [] lo hi tol (some 20000) true 20000).map fun r =>
      match r with
      | .ok (x, i) => .ok (x, i, true)
      | .error e => .error e

/-- solvers.py 123-255: `secant`, stopped after `fuel` passes through the loop (only needed if `max_its` is `None`) -/
def secant (f : SolveFun64 A) (args : List A) (lo hi tol : Flt) (maxIts : Option ℤ) (fallback : Bool) (fuel : ℕ) :
    Option (Except SolverErr (Flt × ℕ × Bool)) :=
  match checkGuesses lo hi with
  | .error e => some (.error e)
  | .ok () =>
    match isclose tol hi lo with
    | .error e => some (.error e)
    | .ok true => some (.error .guessSame)
    | .ok false =>
      secantLoop f args tol maxIts (if fallback then secantFallback f args lo hi tol else some (.error .exceeded)) fuel 0 lo hi none

end F64

end BeamDesign
