import Verif.Model.Interp

/-!
# Specification of repeated interpolation
-/

namespace BeamDesign.Spec

open Interp

variable {K : Type} [Field K] [LinearOrder K]

/-- `v` is the value at `x` of the curve through the knots `ks`: the fill value (or the end value) outside them, the
value of the last knot at `x` if there is one, and the straight line between neighbouring knots otherwise. -/
def Through (left right : Option K) (ks : List (K × K)) (x v : K) : Prop :=
  (∃ k rest, ks = k :: rest ∧ x < k.1 ∧ v = left.getD k.2) ∨
  (∃ init k, ks = init ++ [k] ∧ k.1 < x ∧ v = right.getD k.2) ∨
  (∃ pre k post, ks = pre ++ k :: post ∧ k.1 = x ∧ (∀ q ∈ post, q.1 ≠ x) ∧ v = k.2) ∨
  (∃ pre a b post, ks = pre ++ a :: b :: post ∧ a.1 < x ∧ x < b.1 ∧
    v = a.2 + (b.2 - a.2) * ((x - a.1) / (b.1 - a.1)))

/-- `vs` are the values at the points `xs` of the curve of one row of values `f`. -/
def RowThrough (left right : Option K) (xp f xs vs : List K) : Prop :=
  List.Forall₂ (Through left right (xp.zip f)) xs vs

/-- The shapes of the result: a number for a number and one row of values, a row for several points and one row of
values, and a table with one row for each row of values. -/
def Answers (left right : Option K) (x : XArg K) (xp : List K) (fp : FArg K) (out : Out K) : Prop :=
  match x, fp with
  | .scalar p, .row f => ∃ v, out = .scalar v ∧ Through left right (xp.zip f) p v
  | .scalar p, .rows fs => ∃ vss, out = .table vss ∧ List.Forall₂ (fun f vs => RowThrough left right xp f [p] vs) fs vss
  | .none, _ => False
  | .list xs, .row f => ∃ vs, out = .row vs ∧ RowThrough left right xp f xs vs
  | .list xs, .rows fs => ∃ vss, out = .table vss ∧ List.Forall₂ (fun f vs => RowThrough left right xp f xs vs) fs vss
  | .array xs, .row f => ∃ vs, out = .row vs ∧ RowThrough left right xp f xs vs
  | .array xs, .rows fs => ∃ vss, out = .table vss ∧ List.Forall₂ (fun f vs => RowThrough left right xp f xs vs) fs vss

/-- Values for `n` knots: one row of `n` values, or one or more such rows. -/
def Shaped (n : ℕ) : FArg K → Prop
  | .row f => f.length = n
  | .rows fs => fs ≠ [] ∧ ∀ f ∈ fs, f.length = n

/-- A number or a non-empty list of numbers -/
def Given : XArg K → Prop
  | .none => False
  | .scalar _ => True
  | .list xs => xs ≠ []
  | .array _ => False

end BeamDesign.Spec
