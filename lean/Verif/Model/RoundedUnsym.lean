import Verif.Model.RoundedMember
import Verif.Model.S6

/-!
# Unsymmetric sections operation by operation, over a floating point arithmetic

The counterpart of `Model/RoundedTorsion` and `Model/RoundedMember` for S6.py 628-732: the coefficients of the cubic are computed in floating
point; `root` is the smallest root that `numpy.roots` and the loop of S6.py 687-708 find for them.  Also S6.py 87-97.
-/

namespace BeamDesign.S6R

variable {K : Type} [Field K] [LinearOrder K]

/-- S6.py 87-97 `N_euler` -/
def NEuler (A : Arith K) (E I le : K) : Py K := A.quot (A.mul (A.mul (A.mul piD piD) E) I) (A.mul le le)

/-- the coefficients `a, b, c, d` of S6.py 678-681 -/
structure Cubic (K : Type) where
  a : K
  b : K
  c : K
  d : K
  deriving DecidableEq

/-- S6.py 678-681, from `r_o`, `x_o`, `y_o` and the three stresses -/
def coefficients (A : Arith K) (ro xo yo fox foy foz : K) : Cubic K where
  a := A.sub (A.sq ro) (A.mul (A.sq xo) (A.sq yo))
  b := A.sub (A.mul (A.sq ro) (A.add (A.add fox foy) foz)) (A.add (A.mul foy (A.sq xo)) (A.mul fox (A.sq yo)))
  c := A.mul (A.sq ro) (A.add (A.add (A.mul fox foy) (A.mul foy foz)) (A.mul fox foz))
  d := A.mul (A.mul (A.mul (A.sq ro) fox) foy) foz

/-- S6.py 671-681: the coefficients computed by `f_oc_unsymmetric` -/
def cubic (A : Arith K) (m : Bar K) : Py (Cubic K) := do
  let fox ← fEuler A m.E m.lex m.rx
  let foy ← fEuler A m.E m.ley m.ry
  let ro ← rol A m.rx m.ry m.xo m.yo
  let foz ← fEulerTorsion A m.An m.lez m.rx m.ry m.xo m.yo m.J m.Iw m.E m.G
  return coefficients A ro m.xo m.yo fox foy foz

/-- S6.py 735-887 `s6_3_3_N_c_torsion` of an unsymmetric section, the value of `"N_cz"` -/
def NcTorsionUnsym (A : Arith K) (pw : K → K → K) (root : Cubic K → Py K) (m : Bar K) (kf fy uncertainty : K) : Py K := do
  let ae := Ae A m.An kf
  let q ← cubic A m
  let f ← root q
  let p ← columnCurve A pw fy f
  return A.mul (A.mul uncertainty ae) p.2

/-- S6.py 895-1046 `s6_1_1_Nc` of an unsymmetric section; the symmetry among the arguments is not used -/
def NcUnsym (A : Arith K) (pw : K → K → K) (root : Cubic K → Py K) (a : Args K) : Py (Result K) :=
  NcWith A (NcTorsionUnsym A pw root (a.bar A) a.kf a.fy a.uncertainty) a

/-- S6.py 684-716: the choice among the roots of the cubic with the computed coefficients (a sign is changed without an error); a result with a
non-zero imaginary part is outside the model -/
noncomputable def pick (roots : S6.Roots) (q : Cubic ℝ) : Py ℝ :=
  match S6.minStress (roots q.a (-q.b) q.c (-q.d)) with
  | Option.none => .error .exception
  | some z => if z.im = 0 then .ok z.re else .error .outsideModel

/-- S6.py 628-732 `f_oc_unsymmetric`, the value of `"f_oc"` -/
noncomputable def focUnsym (A : Arith ℝ) (roots : S6.Roots) (m : Bar ℝ) : Py ℝ := do
  pick roots (← cubic A m)

end BeamDesign.S6R
