import Verif.Model.S5
import Verif.Model.S6
import Verif.Model.Effective
import Mathlib.Analysis.SpecialFunctions.Pow.Complex

/-!
# The formulas of sections 5 and 6 with Python's complex numbers

`x ** 0.5` is a `complex` for a negative float `x`, and what is computed from a `complex` is a `complex` again, even if its imaginary
part is 0.  Here every intermediate result is a float or a complex number, in exact arithmetic.  The arguments are floats of any sign
(Python floats: numpy's give nan instead).  The source is evaluated in Python's order, so that the exception raised is the first one.
-/

namespace BeamDesign

/-- a Python `float` or `complex` -/
inductive PyVal
  | flt (x : ℝ)
  | cplx (z : ℂ)

namespace PyVal

/-- the number itself -/
noncomputable def toC : PyVal → ℂ
  | .flt x => x
  | .cplx z => z

/-- `a + b` -/
noncomputable def add : PyVal → PyVal → PyVal
  | .flt a, .flt b => .flt (a + b)
  | a, b => .cplx (a.toC + b.toC)

/-- `a - b` -/
noncomputable def sub : PyVal → PyVal → PyVal
  | .flt a, .flt b => .flt (a - b)
  | a, b => .cplx (a.toC - b.toC)

/-- `a * b` -/
noncomputable def mul : PyVal → PyVal → PyVal
  | .flt a, .flt b => .flt (a * b)
  | a, b => .cplx (a.toC * b.toC)

open Classical in
/-- `a / b`: `ZeroDivisionError` when `b` is zero -/
noncomputable def div : PyVal → PyVal → Py PyVal
  | .flt a, .flt b => if b = 0 then .error .zeroDivision else .ok (.flt (a / b))
  | a, b => if b.toC = 0 then .error .zeroDivision else .ok (.cplx (a.toC / b.toC))

open Classical in
/-- `a ** 0.5`: a complex number for a negative float -/
noncomputable def root : PyVal → PyVal
  | .flt x => if x < 0 then .cplx ((x : ℂ) ^ (1 / 2 : ℂ)) else .flt (Real.sqrt x)
  | .cplx z => .cplx (z ^ (1 / 2 : ℂ))

/-- `a ** 2` -/
noncomputable def sq : PyVal → PyVal
  | .flt x => .flt (x ^ 2)
  | .cplx z => .cplx (z ^ 2)

open Classical in
/-- `a < b`: complex numbers are not ordered -/
noncomputable def less : PyVal → PyVal → Py Bool
  | .flt a, .flt b => .ok (decide (a < b))
  | _, _ => .error .typeError

open Classical in
/-- `a <= b` -/
noncomputable def lessEq : PyVal → PyVal → Py Bool
  | .flt a, .flt b => .ok (decide (a ≤ b))
  | _, _ => .error .typeError

/-- `max(a, b)`: `b` if `b > a` -/
noncomputable def pymax (a b : PyVal) : Py PyVal := do
  return if ← less a b then b else a

/-- `min(a, b)`: `b` if `b < a` -/
noncomputable def pymin (a b : PyVal) : Py PyVal := do
  return if ← less b a then b else a

end PyVal

namespace Cx

open PyVal

/-- S5.py 77-110 `s5_6_1_M_o` -/
noncomputable def Mo (le Iy J Iw betaX E G : ℝ) : Py PyVal := do
  let a ← div (.flt (piD * piD * E * Iy)) (.flt (le * le))
  let b : PyVal := .flt (G * J)
  let c ← div (.flt (piD * piD * E * Iw)) (.flt (le * le))
  let d : PyVal := .flt (betaX / 2)
  return mul (root a) (add (root (add (add b c) (mul (mul d d) a))) (mul d (root a)))

/-- S5.py 113-136 `s5_6_1_α_m`; `abs(M_max)` of a float -/
noncomputable def alphaM (Mmax M2 M3 M4 cap : ℝ) : Py PyVal := do
  let a ← div (.flt (17 / 10 * |Mmax|)) (root (.flt (M2 * M2 + M3 * M3 + M4 * M4)))
  pymin a (.flt cap)

/-- S5.py 139-152 `s5_6_α_s` -/
noncomputable def alphaS (Ms Mo : PyVal) : Py PyVal := do
  let x ← div Ms Mo
  let y ← div Ms Mo
  return mul (.flt (6 / 10)) (sub (root (add (sq x) (.flt 3))) y)

/-- S5.py 214-224 `s5_6_1_Mb` -/
noncomputable def Mb (Ms alphaM alphaS : PyVal) : PyVal := mul (mul alphaM alphaS) Ms

/-- S5_Shear.py 88-125 `s5_11_5_α_v` -/
noncomputable def alphaV (dp tw fy slendernessLimit fref : ℝ) : Py PyVal := do
  let q ← div (.flt fy) (.flt fref)
  let lim ← div (.flt slendernessLimit) (root q)
  let s ← div (.flt dp) (.flt tw)
  if ← less lim s then do
    let u ← div lim s
    return sq u
  else
    return .flt 1

/-- as4100_sect_props.py 227-238 `s6_2_λ_e_flatplate` -/
noncomputable def lambdaPlate (b t fy fref : ℝ) : Py PyVal := do
  let s ← div (.flt b) (.flt t)
  let q ← div (.flt fy) (.flt fref)
  return mul s (root q)

/-- as4100_sect_props.py 255-266 `s6_2_b_e_flatplate` -/
noncomputable def bPlate (b : ℝ) (le : PyVal) (ley : ℝ) : Py PyVal := do
  let q ← div (.flt ley) le
  pymin (mul (.flt b) q) (.flt b)

/-- as4100_sect_props.py 269-283 `s6_2_d_e_CHS` -/
noncomputable def dCHS (d le ley : ℝ) : Py PyVal := do
  let q ← div (.flt ley) (.flt le)
  let q3 ← div (.flt (3 * ley)) (.flt le)
  let m ← pymin (mul (.flt d) (root q)) (mul (.flt d) (sq q3))
  pymin m (.flt d)

/-- as4100_sect_props.py 286-302 `s6_2_A_e_flatplate` -/
noncomputable def aPlate (b t fy ley fref : ℝ) : Py PyVal := do
  let le ← lambdaPlate b t fy fref
  let be ← bPlate b le ley
  return mul be (.flt t)

/-- S6.py 185-201 `s6_3_3_λ_n` -/
noncomputable def lambdaN (kf le r fy fref : ℝ) : Py PyVal := do
  let s ← div (.flt le) (.flt r)
  let q ← div (.flt fy) (.flt fref)
  return mul (mul s (root (.flt kf))) (root q)

/-- the dictionary returned by `s6_3_3_α_c` -/
structure AlphaC where
  alphaA : PyVal
  lambda : PyVal
  eta : PyVal
  xi : PyVal
  alphaC : PyVal

/-- S6.py 204-237 `s6_3_3_α_c` -/
noncomputable def alphaC (ln : PyVal) (alphaB : ℝ) : Py AlphaC := do
  let aa ← div (mul (.flt 2100) (sub ln (.flt (27 / 2)))) (add (sub (mul ln ln) (mul (.flt (153 / 10)) ln)) (.flt 2050))
  let lam := add ln (mul aa (.flt alphaB))
  let eta ← pymax (mul (.flt (326 / 100000)) (sub lam (.flt (27 / 2)))) (.flt 0)
  let x ← div lam (.flt 90)
  let y ← div lam (.flt 90)
  let xi ← div (add (add (sq x) (.flt 1)) eta) (mul (.flt 2) (sq y))
  let t ← div (.flt 90) (mul xi lam)
  return ⟨aa, lam, eta, xi, mul xi (sub (.flt 1) (root (sub (.flt 1) (sq t))))⟩

/-- the dictionary returned by `s6_3_3_N_c` -/
structure Flexural where
  Nc : PyVal
  lambdaN : PyVal
  factors : AlphaC
  le : ℝ
  r : ℝ

/-- S6.py 240-286 `s6_3_3_N_c` -/
noncomputable def NcFlexural (An kf le r fy fref alphaB : ℝ) : Py Flexural := do
  let ns : PyVal := .flt (An * kf * fy)
  let ln ← lambdaN kf le r fy fref
  let ac ← alphaC ln alphaB
  return ⟨mul ns ac.alphaC, ln, ac, le, r⟩

/-- S6.py 296-361 `f_oxz`: the value of `"f_oxz"`.  `r_ol`, `f_euler` and `f_euler_torsion` take the root of a sum of squares and are
those of `Model/S6`. -/
noncomputable def foxz (An lex lez rx ry xo yo J Iw E G : ℝ) : Py PyVal := do
  let ro ← S6.rol rx ry xo yo
  let q ← rdiv xo ro
  let beta := 1 - q ^ 2
  let fox ← S6.fEuler E lex rx
  let foz ← S6.fEulerTorsion An lez rx ry xo yo J Iw E G
  let h ← rdiv 1 (2 * beta)
  return mul (.flt h) (sub (.flt (fox + foz)) (root (.flt ((fox + foz) ^ 2 - 4 * beta * fox * foz))))

/-- S6.py 364-458 `f_oc_double_symmetric`, the value of `"f_oc"` -/
noncomputable def focDouble (m : Member) : Py PyVal := do
  let f ← foxz m.An m.lex m.lez m.rx m.ry m.xo m.yo m.J m.Iw m.E m.G
  let z ← S6.fEulerTorsion m.An m.lez m.rx m.ry m.xo m.yo m.J m.Iw m.E m.G
  pymin f (.flt z)

/-- S6.py 461-577 `f_oc_single_symmetric`, the value of `"f_oc"` -/
noncomputable def focSingle (m : Member) (sym : Symmetry) : Py PyVal := do
  let n ← sym.symcount
  if n ≠ 1 then .error .typeError
  else if (sym.axes.getD []).any (Axis.isStr "x") then
    foxz m.An m.lex m.lez m.rx m.ry m.xo m.yo m.J m.Iw m.E m.G
  else
    foxz m.An m.ley m.lez m.ry m.rx m.yo m.xo m.J m.Iw m.E m.G

/-- S6.py 796-865: the choice of the clause.  Unsymmetric sections (`numpy.roots`) are left to `Model/S6`. -/
noncomputable def foc (m : Member) (sym : Symmetry) : Py PyVal := do
  match ← sym.symmetry with
  | .double => focDouble m
  | .single => focSingle m sym
  | .point => return .flt (← S6.focPoint m)
  | .none => .error .outsideModel

/-- the numbers `s6_3_3_N_c_torsion` returns or adds to the intermediate results -/
structure Torsional where
  Ncz : PyVal
  foc : PyVal
  lambdaC : PyVal
  fn : PyVal

/-- S6.py 735-887 `s6_3_3_N_c_torsion`.  Python's `0.658 ** (λ_c * λ_c)` is reached for a float only. -/
noncomputable def NcTorsion (m : Member) (kf fy : ℝ) (sym : Symmetry) (uncertainty : ℝ) : Py Torsional := do
  let ae : PyVal := .flt (m.An * kf)
  let f ← foc m sym
  let q ← div (.flt fy) f
  let lc := root q
  let fn ← (do
    if ← lessEq lc (.flt (3 / 2)) then
      match mul lc lc with
      | .flt x => return mul (.flt fy) (.flt (rpow (658 / 1000) x))
      | .cplx _ => .error .outsideModel
    else do
      let u ← div (.flt (877 / 1000)) (mul lc lc)
      return mul (.flt fy) u)
  return ⟨mul (mul (.flt uncertainty) ae) fn, f, lc, fn⟩

/-- the numbers in the dictionary returned by `s6_1_1_Nc`; keys that are not set are `none` -/
structure NcResult where
  Ns : PyVal
  phiNs : PyVal
  Ncx : Option PyVal
  phiNcx : Option PyVal
  Ncy : Option PyVal
  phiNcy : Option PyVal
  NczBuckling : Option PyVal
  Ncz : Option PyVal
  phiNcz : Option PyVal
  Nc : PyVal
  phiNc : PyVal

/-- S6.py 895-1046 `s6_1_1_Nc` -/
noncomputable def Nc (a : S6.NcArgs) : Py NcResult := do
  let ns : PyVal := .flt (a.An * a.kf * a.fy)
  let phi : PyVal := .flt a.phi
  let phiNs := mul phi ns
  if a.calcBuckling then do
    let bx ← NcFlexural a.An a.kf (S6.le a.l a.kex) a.rx a.fy a.fref a.alphaB
    let by' ← NcFlexural a.An a.kf (S6.le a.l a.key) a.ry a.fy a.fref a.alphaB
    let ncx ← pymin bx.Nc ns
    let ncy ← pymin by'.Nc ns
    let n ← pymin ns ncx
    let nc ← pymin n ncy
    let pn ← pymin phiNs (mul phi ncx)
    let phiNc ← pymin pn (mul phi ncy)
    if a.calcTorsion then do
      let t ← NcTorsion a.member a.kf a.fy a.sym a.uncertainty
      let ncz ← pymin ns t.Ncz
      let nc' ← pymin nc ncz
      return ⟨ns, phiNs, some ncx, some (mul phi ncx), some ncy, some (mul phi ncy), some t.Ncz, some ncz, some (mul phi ncz), nc',
        mul phi nc'⟩
    else
      return ⟨ns, phiNs, some ncx, some (mul phi ncx), some ncy, some (mul phi ncy), Option.none, Option.none, Option.none, nc, phiNc⟩
  else
    return ⟨ns, phiNs, Option.none, Option.none, Option.none, Option.none, Option.none, Option.none, Option.none, ns, phiNs⟩

end Cx

end BeamDesign
