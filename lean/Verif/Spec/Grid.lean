import Verif.Spec.Beam
import Verif.Spec.Rounding

/-!
# Specification of beams in floating point arithmetic
-/

namespace BeamDesign.Spec

variable {K S : Type} [Field K] [LinearOrder K]

/-- Every operation rounds the exact result with a monotone and odd function `rnd` which leaves its own results,
0 and 1 alone. -/
structure RoundsTo (rt : Rt K) (rnd : K → K) : Prop where
  add : ∀ a b, rt.add a b = rnd (a + b)
  sub : ∀ a b, rt.sub a b = rnd (a - b)
  mul : ∀ a b, rt.mul a b = rnd (a * b)
  div : ∀ a b, rt.div a b = rnd (a / b)
  mono : Monotone rnd
  idem : ∀ a, rnd (rnd a) = rnd a
  zero : rnd 0 = 0
  one : rnd 1 = 1
  neg : ∀ a, rnd (-a) = -rnd a

/-- The lengths are positive floats, and they and the distances of the element ends from the start of the beam are machine
numbers. -/
def Marks (rnd : K → K) (ls : List (Num K)) : Prop :=
  (∀ l ∈ ls, l.isInt = false ∧ 0 < l.val ∧ rnd l.val = l.val) ∧ ∀ i, rnd (startOf ls i) = startOf ls i

/-- `q` is the local position on element `i` for the position `p` on the beam, correctly rounded after the subtraction and
after the division. -/
def RoundedAt (rnd : K → K) (ls : List (Num K)) (p : K) (i : ℕ) (q : K) : Prop :=
  0 ≤ q ∧ q ≤ 1 ∧ ∃ l, ls[i]? = some l ∧ q = rnd (rnd (p - startOf ls i) / l.val)

/-- The listing of positions `xs`: each with each element containing it, once, with the rounded local position. -/
def RoundedListing (rnd : K → K) (ls : List (Num K)) (xs : List K) (out : List (Loc K)) : Prop :=
  ∃ pairs, Pairs ls xs pairs ∧ List.Forall₂ (fun pi (e : Loc K) =>
    e.pos.val = pi.1 ∧ e.elem = pi.2 ∧ RoundedAt rnd ls pi.1 pi.2 e.loc.val) pairs out

/-- What one listed position contributes to the table of loads: the stored rows of the element at the listed local position
exactly, or one row near the curve there. -/
def NearLoadBlock (ε ζ : K) (b : Beam K S) (c : ℤ) (cs : List LComp) (l : Loc K) (rows : List (Row K)) : Prop :=
  ∃ t ans, HasTable b c l.elem t ∧ NearAnswerAt ε ζ t.rows cs l.loc.val ans ∧ rows = ans.map fun r => (l.pos.val, r.2)

/-- All loads of load case `c` are machine numbers. -/
def MachineLoads (F : K → Prop) (b : Beam K S) (c : ℤ) : Prop :=
  ∀ i t, HasTable b c i t → Machine F t.rows

/-- The local position `x` on element `i`, its distance from the start of the element and its distance from the start of
the beam are machine numbers. -/
def OnGrid (rnd : K → K) (ls : List (Num K)) (i : ℕ) (x : K) : Prop :=
  rnd x = x ∧ ∃ l, ls[i]? = some l ∧ rnd (x * l.val) = x * l.val ∧ rnd (startOf ls i + x * l.val) = startOf ls i + x * l.val

end BeamDesign.Spec
