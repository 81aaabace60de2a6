import Verif.Model.Beam
import Verif.Spec.Load

/-!
# Specification of beams

Only data types of the model are used.
-/

namespace BeamDesign.Spec

variable {K S : Type} [Field K] [LinearOrder K]

/-- The elements of the beam have the (non-negative) lengths `ls`. -/
def HasLengths (b : Beam K S) (ls : List (Num K)) : Prop :=
  List.Forall₂ (fun e l => e.length = some l) b.elements ls ∧ ∀ l ∈ ls, 0 ≤ l.val

/-- Distance from the start of the beam to the start of element `i`: the sum of the lengths before it. -/
def startOf (ls : List (Num K)) (i : ℕ) : K := ((ls.take i).map (·.val)).sum

/-- Length of the beam. -/
def total (ls : List (Num K)) : K := (ls.map (·.val)).sum

/-- Beam position `p` is in the closed interval of element `i`. -/
def InElement (ls : List (Num K)) (p : K) (i : ℕ) : Prop :=
  i < ls.length ∧ startOf ls i ≤ p ∧ p ≤ startOf ls (i + 1)

/-- `is` lists, ascending, exactly the elements containing `p`. -/
def Elements (ls : List (Num K)) (p : K) (is : List ℕ) : Prop :=
  is.Pairwise (· < ·) ∧ ∀ i, i ∈ is ↔ InElement ls p i

/-- On element `i` load case `c` is a loaded case with table `t`, well formed and not empty. -/
def HasTable (b : Beam K S) (c : ℤ) (i : ℕ) (t : Table K) : Prop :=
  ∃ e, b.elements[i]? = some e ∧ e.loads.lookup c = some ⟨some t⟩ ∧ WellFormed t.rows ∧ t.rows ≠ []

/-- Load case `c` is loaded on every element. -/
def Loaded (b : Beam K S) (c : ℤ) : Prop :=
  ∀ i, i < b.elements.length → ∃ t, HasTable b c i t

/-- `pairs` lists, ordered by position and then by element, each position of `xs` with each element containing
it, once. -/
def Pairs (ls : List (Num K)) (xs : List K) (pairs : List (K × ℕ)) : Prop :=
  pairs.Pairwise (fun a b => a.1 < b.1 ∨ a.1 = b.1 ∧ a.2 < b.2) ∧
  ∀ p i, (p, i) ∈ pairs ↔ p ∈ xs ∧ InElement ls p i

/-- What is listed for position `p` and element `i`: a local position that maps back to `p`.  On an element
of non-zero length there is exactly one; on a zero length element 0 and 1 are listed when no load case is
given, at least one local position otherwise. -/
def BlockAt (ls : List (Num K)) (c : Option ℤ) (p : K) (i : ℕ) (block : List (Loc K)) : Prop :=
  ∃ l, ls[i]? = some l ∧
    (∀ e ∈ block, e.pos.val = p ∧ e.elem = i ∧ p = startOf ls i + e.loc.val * l.val) ∧
    (l.val ≠ 0 → ∃ e, block = [e]) ∧
    (l.val = 0 → c = none → block.map (·.loc.val) = [0, 1]) ∧ block ≠ []

/-- A listing of the positions `xs`. -/
def Listing (ls : List (Num K)) (c : Option ℤ) (xs : List K) (out : List (Loc K)) : Prop :=
  ∃ pairs blocks, Pairs ls xs pairs ∧
    List.Forall₂ (fun pi block => BlockAt ls c pi.1 pi.2 block) pairs blocks ∧ out = blocks.flatten

/-- On every zero length element load case `c` is loaded, with a non-empty table. -/
def ZeroLengthLoaded (b : Beam K S) (ls : List (Num K)) (c : ℤ) : Prop :=
  ∀ i l, ls[i]? = some l → l.val = 0 → ∃ t, HasTable b c i t

/-- Load case `c` is loaded on every element with a table of floats. -/
def LoadedFloat (b : Beam K S) (c : ℤ) : Prop :=
  ∀ i, i < b.elements.length → ∃ t, HasTable b c i t ∧ t.isInt = false

/-- The rows reported for one listed place: the element's answer at the local position, with the position
replaced by the beam position. -/
def LoadBlock (b : Beam K S) (c : ℤ) (cs : List LComp) (l : Loc K) (rows : List (Row K)) : Prop :=
  ∃ t ans, HasTable b c l.elem t ∧ AnswerAt t.rows cs l.loc.val ans ∧
    rows = ans.map fun r => (l.pos.val, r.2)

/-- Floating point addition rounds the exact sum with a monotone function `rnd` which leaves its own results
alone. -/
structure RoundsAdd (rt : Rt K) (rnd : K → K) : Prop where
  add : ∀ a b, rt.add a b = rnd (a + b)
  mono : Monotone rnd
  idem : ∀ a, rnd (rnd a) = rnd a

end BeamDesign.Spec
