import Verif.Conformance.Basic
import Verif.Model.RoundedUnsym
import Verif.Lemmas.FastArith

/-!
# What the tables of the tests of sections 5, 6 and 7 need
-/

namespace BeamDesign.Conformance

/-- the arithmetic of the tests: double precision (`fastArith` is `Arith.binary64`) -/
abbrev ar : Arith ℚ := fastArith

/-- A table of decimal numbers: the n-th number of a row is divided by ten to the n-th exponent, and rounded to a double as Python does when it
reads it -/
def table (exponents : List ℕ) (rows : List (List ℤ)) : List (List ℚ) :=
  rows.map fun r => if r.length = exponents.length then (r.zip exponents).map fun x => fastRnd (mkRat x.1 (10 ^ x.2)) else []

/-- `assertAlmostEqual(first=a, second=b, delta=b / p)` -/
def within (p : ℚ) (a b : ℚ) : Bool := decide (a = b ∨ |a - b| ≤ b / p)

/-- the call succeeds with a number near enough -/
def result (p : ℚ) (r : Py ℚ) (b : ℚ) : Bool := passes r (within p · b)

/-- the call succeeds with a real stress near enough -/
def stress (p : ℚ) (r : Py (S6R.Stress ℚ)) (b : ℚ) : Bool :=
  passes r fun
    | .real x => within p x b
    | .complex => false

/-- the restraints of table 5.6.3(1), in the order of the generated tables -/
def restraint (c : ℚ) : S5.Restraint :=
  if c = 0 then .FF else if c = 1 then .FP else if c = 2 then .FL else if c = 3 then .FU else if c = 4 then .PP else if c = 5 then .PL
  else if c = 6 then .PU else .LL

/-- `n` is the integer part of `x · 2^80` -/
def fix (x : ℚ) : ℤ := (x.num * 2 ^ 80) / x.den

/-- `e^-t` for `t ≥ 0`, in units of 2^-80: the series, with a term `term` that has `n` factors already -/
def expSum (t : ℤ) : ℕ → ℕ → ℤ → ℤ → ℤ
  | 0, _, _, acc => acc
  | fuel + 1, n, term, acc => expSum t fuel (n + 1) (-(term * t / 2 ^ 80) / (n + 1)) (acc + term)

/-- `-ln 0.658`, to 30 digits -/
def minusLog658 : ℚ := 418550347656819850710438829380 / 10 ^ 30

/-- `a ** b` to 24 digits, for the base 0.658 of S6.py 872 and an exponent between 0 and 2.25 -/
def pw (a b : ℚ) : ℚ := if a = fastRnd (658 / 1000) then fastRnd (mkRat (expSum (fix (minusLog658 * b)) 60 0 (2 ^ 80) 0) (2 ^ 80)) else 0

/-- Newton's method for `a x³ − b x² + c x − d` from the left of the smallest root, on the doubles -/
def newton (q : S6R.Cubic ℚ) : ℕ → ℚ → ℚ
  | 0, x => x
  | fuel + 1, x =>
    let x' := fastRnd (x - (((q.a * x - q.b) * x + q.c) * x - q.d) / ((3 * q.a * x - 2 * q.b) * x + q.c))
    if x' = x then x else newton q fuel x'

/-- the smallest root of the cubic, to double precision -/
def smallestRoot (q : S6R.Cubic ℚ) : ℚ := newton q 100 0

/-- the axes of symmetry, in the numbering of the generated tables; none for an unsymmetric section -/
def symmetry (s : ℚ) : Option S6R.Sym :=
  if s = 1 then some (.single true) else if s = 2 then some (.single false) else if s = 3 then some .double
  else if s = 4 then some .point else none

/-- `s6_3_3_N_c_torsion` with the default uncertainty factor -/
def torsion (s : ℚ) (m : S6R.Bar ℚ) (kf fy : ℚ) : Py ℚ :=
  match symmetry s with
  | some y => S6R.NcTorsion ar pw m kf fy y (ar.lit (85 / 100))
  | none => S6R.NcTorsionUnsym ar pw (fun q => .ok (smallestRoot q)) m kf fy (ar.lit (85 / 100))

/-- the checks of `test_s6_1_1_Nc`.  For an unsymmetric section the result without torsion is completed as S6.py 1006-1038 do. -/
def memberGives (s a k l kx ky kz rx ry xo yo j iw fy e g fr ab cb ct ns ncx ncy ncz nc : ℚ) : Bool :=
  let args (y : S6R.Sym) (t : Bool) : S6R.Args ℚ :=
    ⟨a, k, l, kx, ky, kz, rx, ry, xo, yo, j, iw, fy, e, g, y, fr, ab, ar.lit (85 / 100), ar.lit (9 / 10), decide (cb = 1), t⟩
  let set (o : Option ℚ) (x : ℚ) : Bool := o.elim false (within 100000 · x)
  match symmetry s with
  | some y => passes (S6R.Nc ar pw (args y (decide (ct = 1)))) fun r =>
    within 100000 r.phiNs ns && set r.phiNcx ncx && set r.phiNcy ncy && set r.phiNcz ncz && within 100000 r.phiNc nc
  | none => passes (S6R.Nc ar pw (args .double false)) fun r =>
    passes (torsion 0 ((args .double true).bar ar) k fy) fun t =>
      within 100000 r.phiNs ns && set r.phiNcx ncx && set r.phiNcy ncy && within 100000 (ar.mul (ar.lit (9 / 10)) (min r.Ns t)) ncz &&
      within 100000 (ar.mul (ar.lit (9 / 10)) (min r.Nc (min r.Ns t))) nc

end BeamDesign.Conformance
