import Verif.Model.LoadCase

/-!
# Model of `beamdesign/utility/interp.py`, all arguments

`Model/LoadCase` has `multi_interp` as `get_load` calls it; here are all forms of its arguments.
-/

namespace BeamDesign.Interp

variable {K : Type}

/-- What `array == []` followed by a truth test does depends on the numpy version.  The comparison broadcasts an array
of one element (or none) to an empty array; for longer ones it gives `False` before 1.25 and raises from 1.25 on.  The
truth value of an empty array is `False` before 2.2 and an error from 2.2 on. -/
inductive NpVersion
  | before125
  | from125to21
  | from22
  deriving DecidableEq, Repr

/-- The forms of `x`. -/
inductive XArg (K : Type)
  | none
  | scalar (x : K)
  | list (xs : List K)
  | array (xs : List K)
  deriving DecidableEq

/-- The forms of `fp`: one row of values, or several (a list of lists or a two dimensional array). -/
inductive FArg (K : Type)
  | row (f : List K)
  | rows (fs : List (List K))
  deriving DecidableEq

/-- The forms of the result: a number, an array, a two dimensional array. -/
inductive Out (K : Type)
  | scalar (v : K)
  | row (vs : List K)
  | table (vss : List (List K))
  deriving DecidableEq

/-- interp.py 38-41: the truth value of `x == []`, `true` when `ValueError` is raised for it, or when the comparison
itself raises (also `ValueError`).  A number is not equal to `[]`. -/
def refused (v : NpVersion) : XArg K → Bool
  | .none => true
  | .scalar _ => false
  | .list xs => xs.isEmpty
  | .array xs => match v with
    | .before125 => false
    | .from125to21 => decide (2 ≤ xs.length)
    | .from22 => true

variable [Field K] [LinearOrder K]

/-- `np.interp` of several points: numpy refuses empty data and rows of the wrong length with `ValueError`. -/
def points (rt : Rt K) (left right : Option K) (xs xp f : List K) : Py (List K) :=
  if xp = [] then .error .valueError
  else if f.length ≠ xp.length then .error .valueError
  else xs.mapM fun x => npInterp rt left right x (xp.zip f)

/-- the points of `x` -/
def XArg.points : XArg K → List K
  | .none => []
  | .scalar x => [x]
  | .list xs => xs
  | .array xs => xs

/-- interp.py 10-53 `multi_interp`.  Rows of different lengths do not form an array: outside the model. -/
def multiInterp (v : NpVersion) (rt : Rt K) (x : XArg K) (xp : List K) (fp : FArg K) (left right : Option K) :
    Py (Out K) :=
  if refused v x then .error .valueError
  else match fp with
    | .row f => do
      let vs ← points rt left right x.points xp f
      match x, vs with
      | .scalar _, [y] => return .scalar y
      | _, _ => return .row vs
    | .rows fs =>
      if fs = [] then .error .valueError
      else if ¬ (∀ f ∈ fs, ∀ g ∈ fs, f.length = g.length) then .error .outsideModel
      else do
        let vss ← fs.mapM fun f => points rt left right x.points xp f
        return .table vss

end BeamDesign.Interp
