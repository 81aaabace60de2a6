import Verif.Model.LoadCase

/-!
# Specification of load cases

Written from the documentation of `LoadCase`, without the model's functions.
Only the data types (`LRow`, `LComp`, `Num`) of the model are used.
-/

namespace BeamDesign.Spec

variable {K : Type} [Field K] [LinearOrder K]

/-- A load table is well formed: positions never decrease and lie between 0 and 1. -/
def WellFormed (rows : List (LRow K)) : Prop :=
  rows.Pairwise (fun a b => a.pos ≤ b.pos) ∧ ∀ r ∈ rows, 0 ≤ r.pos ∧ r.pos ≤ 1

/-- `ps` lists the distinct values of `xs` in ascending order. -/
def Distinct (xs ps : List K) : Prop :=
  ps.Pairwise (· < ·) ∧ ∀ v, v ∈ ps ↔ v ∈ xs

/-- The number of a row for a component: the rows are `[pos, vx, vy, N, mx, my, T]`. -/
def entry (r : LRow K) : LComp → K
  | .VX => r.vx
  | .VY => r.vy
  | .N => r.n
  | .MX => r.mx
  | .MY => r.my
  | .T => r.t

/-- `v` is the value at `p` of the piecewise linear curve of component `c` (for a `p` that is not a stored
position): the first value before the first stored position, the last value after the last one,
the straight line between neighbouring stored rows otherwise. -/
def OnCurve (rows : List (LRow K)) (c : LComp) (p v : K) : Prop :=
  (∃ first rest, rows = first :: rest ∧ p < first.pos ∧ v = entry first c) ∨
  (∃ init last, rows = init ++ [last] ∧ last.pos < p ∧ v = entry last c) ∨
  (∃ pre a b post, rows = pre ++ a :: b :: post ∧ a.pos < p ∧ p < b.pos ∧
    v = entry a c + (entry b c - entry a c) * ((p - a.pos) / (b.pos - a.pos)))

/-- What a load case answers for one position and a list of components: the stored rows at that position
if there are any, one row on the curve otherwise. -/
def AnswerAt (rows : List (LRow K)) (cs : List LComp) (p : K) (block : List (Row K)) : Prop :=
  (p ∈ rows.map (·.pos) ∧
    block = (rows.filter (fun r => decide (r.pos = p))).map (fun r => (p, cs.map (entry r)))) ∨
  (p ∉ rows.map (·.pos) ∧ ∃ vs, block = [(p, vs)] ∧ List.Forall₂ (fun c v => OnCurve rows c p v) cs vs)

/-- The answer for a list of positions: the answers for the single positions one after the other. -/
def Answer (rows : List (LRow K)) (cs : List LComp) (ps : List K) (out : List (Row K)) : Prop :=
  ∃ blocks, List.Forall₂ (AnswerAt rows cs) ps blocks ∧ out = blocks.flatten

/-- The seven numbers of a row. -/
def rowList (r : LRow K) : List K := [r.pos, r.vx, r.vy, r.n, r.mx, r.my, r.t]

/-- `position` asks explicitly for the values `xs`: a single float or a list of numbers. -/
def Requested (position : PosArg K) (xs : List K) : Prop :=
  (∃ x, position = .scalar (Num.flt x) ∧ xs = [x]) ∨ (∃ l, position = .list l ∧ xs = l.map (·.val))

/-- The argument `component` asks for the components `cs`: all six without an argument, one by its name, its number or
itself, or a list of them.  Names and numbers in a list are not understood. -/
def Asks : CompArg → List LComp → Prop
  | .none, cs => cs = [.VX, .VY, .N, .MX, .MY, .T]
  | .name s, cs => ∃ c, cs = [c] ∧
      (s, c) ∈ [("VX", LComp.VX), ("VY", .VY), ("N", .N), ("MX", .MX), ("MY", .MY), ("T", .T)]
  | .idx i, cs => ∃ c, cs = [c] ∧ (i, c) ∈ [((1 : ℤ), LComp.VX), (2, .VY), (3, .N), (4, .MX), (5, .MY), (6, .T)]
  | .comp c, cs => cs = [c]
  | .list l, cs => cs = l
  | .items l, cs => l = cs.map Sum.inl

/-- `x` is one of the `n` equally spaced positions from `a` to `b` (only `a` for `n = 1`). -/
def EquallySpaced (a b : K) (n : ℕ) (x : K) : Prop :=
  ∃ i : ℕ, i < n ∧ if n = 1 then x = a else x = a + (b - a) * (i / (n - 1))

end BeamDesign.Spec
