import Verif.Spec.Load

/-!
# Specification of results that are exact up to rounding
-/

namespace BeamDesign.Spec

variable {K : Type} [Field K] [LinearOrder K]

/-- The standard model of floating point arithmetic on the set `F` of machine numbers: results are machine numbers; sums
and differences have a relative error of at most `u`, products and quotients a further absolute one of at most `η`
(underflow). -/
structure Rounds (rt : Rt K) (F : K → Prop) (u η : K) : Prop where
  add : ∀ a b, F a → F b → F (rt.add a b) ∧ |rt.add a b - (a + b)| ≤ u * |a + b|
  sub : ∀ a b, F a → F b → F (rt.sub a b) ∧ |rt.sub a b - (a - b)| ≤ u * |a - b|
  mul : ∀ a b, F a → F b → F (rt.mul a b) ∧ |rt.mul a b - a * b| ≤ u * |a * b| + η
  div : ∀ a b, F a → F b → b ≠ 0 → F (rt.div a b) ∧ |rt.div a b - a / b| ≤ u * |a / b| + η

/-- A table of machine numbers. -/
def Machine (F : K → Prop) (rows : List (LRow K)) : Prop :=
  ∀ r ∈ rows, F r.pos ∧ ∀ c, F (entry r c)

/-- `v` is on the curve of component `c` at `p`, up to an error of `ε` times the greatest magnitude in the table, and `ζ`. -/
def NearCurve (ε ζ : K) (rows : List (LRow K)) (c : LComp) (p v : K) : Prop :=
  ∃ w, OnCurve rows c p w ∧ ∀ M, (∀ r ∈ rows, |entry r c| ≤ M) → |v - w| ≤ ε * M + ζ

/-- What a load case answers for one position: stored rows exactly, one row near the curve otherwise. -/
def NearAnswerAt (ε ζ : K) (rows : List (LRow K)) (cs : List LComp) (p : K) (block : List (Row K)) : Prop :=
  (p ∈ rows.map (·.pos) ∧
    block = (rows.filter (fun r => decide (r.pos = p))).map (fun r => (p, cs.map (entry r)))) ∨
  (p ∉ rows.map (·.pos) ∧ ∃ vs, block = [(p, vs)] ∧ List.Forall₂ (fun c v => NearCurve ε ζ rows c p v) cs vs)

/-- The IEEE 754 double precision numbers (of any magnitude: there is no overflow). -/
def IsDouble (x : ℚ) : Prop := ∃ n e : ℤ, |n| < 2 ^ 53 ∧ -1074 ≤ e ∧ x = n * 2 ^ e

end BeamDesign.Spec
