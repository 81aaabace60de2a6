import Verif.Model.Beam
import Verif.Lemmas.Fast64

/-!
# Comparing the model with the repository's own tests

The modules in this directory run the model, in double precision, on the inputs of the tests in `/repo/tests` and compare its results with what
those tests expect, by evaluation in the kernel.  They are tests of the model, not proofs about it: no claim rests on them.
-/

namespace BeamDesign.Conformance

/-- the run-time of the tests: double precision -/
abbrev rt : Rt ℚ := Rt.fast64

/-- a float literal -/
def d (q : ℚ) : Num ℚ := ⟨fastRnd q, false⟩

/-- an int literal -/
def i (n : ℤ) : Num ℚ := ⟨n, true⟩

/-- `math.isclose(a, b)` with the default relative tolerance -/
def near (a b : ℚ) : Bool := decide (|a - b| ≤ max |a| |b| / 10 ^ 9)

/-- `np.allclose` of two numbers, with the default tolerances -/
def allclose (a b : ℚ) : Bool := decide (|a - b| ≤ 1 / 10 ^ 8 + |b| / 10 ^ 5)

/-- a comparison of numbers carried over to two dimensional arrays, given as rows -/
def sameRows (eq : ℚ → ℚ → Bool) : List (ℚ × List (Option ℚ)) → List (List ℚ) → Bool
  | [], [] => true
  | (p, vs) :: rest, (q :: ws) :: rest' =>
    eq p q && decide (vs.length = ws.length) && (vs.zip ws).all (fun x => x.1.elim false (eq · x.2)) && sameRows eq rest rest'
  | _, _ => false

/-- `np.array_equal(actual, np.array(expected))` -/
def equals (actual : Py (Option (Tab ℚ))) (expected : List (List ℚ)) : Bool :=
  match actual with
  | .ok (some t) => sameRows (fun a b => decide (a = fastRnd b)) t.rows expected
  | _ => false

/-- `np.allclose(actual, np.array(expected))` -/
def closeTo (actual : Py (Option (Tab ℚ))) (expected : List (List ℚ)) : Bool :=
  match actual with
  | .ok (some t) => sameRows (fun a b => allclose a (fastRnd b)) t.rows expected
  | _ => false

/-- the call raises this error -/
def raises {α : Type} (e : PyErr) : Py α → Bool
  | .error e' => decide (e' = e)
  | .ok _ => false

/-- the call succeeds with a result that passes the test -/
def passes {α : Type} (r : Py α) (test : α → Bool) : Bool :=
  match r with
  | .ok a => test a
  | .error _ => false

end BeamDesign.Conformance
