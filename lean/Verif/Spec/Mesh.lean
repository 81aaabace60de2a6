import Verif.Spec.Beam

/-!
# Specification of tables and beams that describe the same loads
-/

namespace BeamDesign.Spec

variable {K S : Type} [Field K] [LinearOrder K]

/-- The row `m` says nothing new: it lies between the rows `A` and the rows `B`, on the curve of every component. -/
def Redundant (A : List (LRow K)) (m : LRow K) (B : List (LRow K)) : Prop :=
  0 ≤ m.pos ∧ m.pos ≤ 1 ∧ (∀ r ∈ A, r.pos < m.pos) ∧ (∀ r ∈ B, m.pos < r.pos) ∧
    ∀ c, OnCurve (A ++ B) c m.pos (entry m c)

/-- The element's table of floats for load case `k`. -/
def TableOf (k : ℤ) (e : Element K S) (rows : List (LRow K)) : Prop :=
  e.loads.lookup k = some ⟨some ⟨false, rows⟩⟩

/-- The same row at another position. -/
def placed (f : K → K) (r : LRow K) : LRow K := { r with pos := f r.pos }

/-- `e1` and `e2` are what `e`, of length `l`, becomes when it is cut at the local position `s`, where the rows `M` of
its table are stored: `e1` gets the rows before the cut and the first row at the cut, `e2` the last row at the cut and
the rows after it. -/
def CutInto (k : ℤ) (s l : K) (M : List (LRow K)) (e e1 e2 : Element K S) : Prop :=
  0 < s ∧ s < 1 ∧ 0 < l ∧
  (∃ n, e.length = some n ∧ n.val = l) ∧ (∃ n, e1.length = some n ∧ n.val = s * l) ∧
  (∃ n, e2.length = some n ∧ n.val = (1 - s) * l) ∧
  ∃ A B first last, M.head? = some first ∧ M.getLast? = some last ∧
    (∀ r ∈ A, r.pos < s) ∧ (∀ r ∈ M, r.pos = s) ∧ (∀ r ∈ B, s < r.pos) ∧
    TableOf k e (A ++ M ++ B) ∧
    TableOf k e1 ((A ++ [first]).map (placed fun x => x / s)) ∧
    TableOf k e2 ((last :: B).map (placed fun x => (x - s) / (1 - s)))

/-- A table of loads seen from the other end. -/
def mirrorRows (rows : List (LRow K)) : List (LRow K) := (rows.map (placed fun x => 1 - x)).reverse

/-- `e'` is the element `e` seen from the other end. -/
def Mirrored (k : ℤ) (e e' : Element K S) : Prop :=
  (∃ n n', e.length = some n ∧ e'.length = some n' ∧ n'.val = n.val) ∧
  ∀ rows, TableOf k e rows → TableOf k e' (mirrorRows rows)

/-- What is reported for a beam of length `L`, seen from the other end. -/
def mirrorTab (L : K) (t : Tab K) : Tab K := { t with rows := (t.rows.map fun r => (L - r.1, r.2)).reverse }

end BeamDesign.Spec
