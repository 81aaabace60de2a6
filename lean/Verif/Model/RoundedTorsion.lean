import Verif.Model.Rounded

/-!
# The torsional buckling formulas of section 6 operation by operation, over a floating point arithmetic

The counterpart of `Model/Rounded` for S6.py 100-175 and 296-625, 868-876.  `pw` is `a ** b` for a float exponent other than 0.5.
Not included: unsymmetric sections, whose stress comes from `numpy.roots`.
-/

namespace BeamDesign.S6R

variable {K : Type} [Field K] [LinearOrder K]

/-- S6.py 100-112 `f_euler` -/
def fEuler (A : Arith K) (E le r : K) : Py K := do
  let s ← A.quot le r
  A.quot (A.mul (A.mul piD piD) E) (A.mul s s)

/-- S6.py 115-134 `r_ol`.  A sum of squares is never negative, so the root is that of a non-negative number. -/
def rol (A : Arith K) (rx ry xo yo : K) : Py K :=
  A.root (A.add (A.add (A.add (A.mul rx rx) (A.mul ry ry)) (A.mul xo xo)) (A.mul yo yo))

/-- S6.py 137-175 `f_euler_torsion` -/
def fEulerTorsion (A : Arith K) (An lez rx ry xo yo J Iw E G : K) : Py K := do
  let ro ← rol A rx ry xo yo
  let a ← A.quot (A.mul G J) (A.mul (A.mul An ro) ro)
  let b ← A.quot (A.mul (A.mul (A.mul piD piD) E) Iw) (A.mul (A.mul G J) (A.mul lez lez))
  return A.mul a (A.add 1 b)

/-- a stress: a float, or a complex number when the root of a negative number was taken -/
inductive Stress (K : Type)
  | real (x : K)
  | complex
  deriving DecidableEq

/-- S6.py 342-346: `1 / (2 * β) * ((f_ox + f_oz) - ((f_ox + f_oz) ** 2 - (4 * β * f_ox * f_oz)) ** 0.5)`.  Python's `**` gives a
complex number for the root of a negative number, and so do the difference and the product. -/
def solveFoxz (A : Arith K) (beta fox foz : K) : Py (Stress K) := do
  let h ← A.quot 1 (A.mul 2 beta)
  let s := A.add fox foz
  let d := A.sub (A.sq s) (A.mul (A.mul (A.mul 4 beta) fox) foz)
  return if d < 0 then .complex else .real (A.mul h (A.sub s (A.sqrt d)))

/-- S6.py 296-361 `f_oxz`, the value of `"f_oxz"` -/
def foxz (A : Arith K) (An lex lez rx ry xo yo J Iw E G : K) : Py (Stress K) := do
  let ro ← rol A rx ry xo yo
  let q ← A.quot xo ro
  let fox ← fEuler A E lex rx
  let foz ← fEulerTorsion A An lez rx ry xo yo J Iw E G
  solveFoxz A (A.sub 1 (A.sq q)) fox foz

/-- the numbers that describe a member, S6.py 296-310, 364-380; as `Member`, in the arithmetic's numbers -/
structure Bar (K : Type) where
  An : K
  lex : K
  ley : K
  lez : K
  rx : K
  ry : K
  xo : K
  yo : K
  J : K
  Iw : K
  E : K
  G : K

/-- S6.py 364-458 `f_oc_double_symmetric`, the value of `"f_oc"`: `min` of a complex number and a float is a `TypeError` -/
def focDouble (A : Arith K) (m : Bar K) : Py K := do
  let f ← foxz A m.An m.lex m.lez m.rx m.ry m.xo m.yo m.J m.Iw m.E m.G
  let z ← fEulerTorsion A m.An m.lez m.rx m.ry m.xo m.yo m.J m.Iw m.E m.G
  match f with
  | .real x => return min x z
  | .complex => .error .typeError

/-- S6.py 461-577 `f_oc_single_symmetric` for a section with one axis of symmetry, the value of `"f_oc"` -/
def focSingle (A : Arith K) (m : Bar K) (x : Bool) : Py (Stress K) :=
  if x then foxz A m.An m.lex m.lez m.rx m.ry m.xo m.yo m.J m.Iw m.E m.G
  else foxz A m.An m.ley m.lez m.ry m.rx m.yo m.xo m.J m.Iw m.E m.G

/-- S6.py 580-625 `f_oc_point_symmetric`, the value of `"f_oc"` -/
def focPoint (A : Arith K) (m : Bar K) : Py K := fEulerTorsion A m.An m.lez m.rx m.ry m.xo m.yo m.J m.Iw m.E m.G

/-- S6.py 867-874: the slenderness and the stress of the column curve -/
def columnCurve (A : Arith K) (pw : K → K → K) (fy foc : K) : Py (K × K) := do
  let q ← A.quot fy foc
  let lc ← A.root q
  if lc ≤ 3 / 2 then
    return (lc, A.mul fy (pw (A.lit (658 / 1000)) (A.mul lc lc)))
  else do
    let v ← A.quot (A.lit (877 / 1000)) (A.mul lc lc)
    return (lc, A.mul fy v)

/-- the kinds of symmetry, with the axis for one axis of symmetry.  Unsymmetric sections are not included. -/
inductive Sym
  | double
  | single (x : Bool)
  | point

/-- S6.py 796-865: the choice of the clause; a complex stress reaches `λ_c <= 1.5`, which is a `TypeError` -/
def foc (A : Arith K) (m : Bar K) : Sym → Py K
  | .double => focDouble A m
  | .point => focPoint A m
  | .single x => do
    match ← focSingle A m x with
    | .real f => return f
    | .complex => .error .typeError

/-- S6.py 735-887 `s6_3_3_N_c_torsion`, the value of `"N_cz"` -/
def NcTorsion (A : Arith K) (pw : K → K → K) (m : Bar K) (kf fy : K) (sym : Sym) (uncertainty : K) : Py K := do
  let ae := Ae A m.An kf
  let f ← foc A m sym
  let p ← columnCurve A pw fy f
  return A.mul (A.mul uncertainty ae) p.2

end BeamDesign.S6R
