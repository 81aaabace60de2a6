import Verif.Model.Real
import Mathlib.Analysis.Complex.Basic

/-!
# AS4100 section 6 formulas (`beamdesign/codecheck/as4100/S6.py`) and `beamdesign/utility/symmetry.py`

The values the functions compute, without the caches and the sharing of result dictionaries;
those are in `Verif.Model.S6Cache`.  Dictionaries of results are structures.
Decimal literals of the source stand for the decimal number.
-/

namespace BeamDesign

/-- an entry of a list of axes of symmetry: a string or an angle -/
inductive Axis
  | str (s : String)
  | angle (x : ℝ)

/-- `axis == "…"` -/
def Axis.isStr (t : String) : Axis → Bool
  | .str s => s == t
  | .angle _ => false

/-- symmetry.py 12-32, 73-92 `Symmetry`: the axes as given, `None` when not given -/
structure Symmetry where
  axes : Option (List Axis)

/-- the four strings `Symmetry.symmetry` returns -/
inductive SymKind
  | double
  | single
  | point
  | none
  deriving DecidableEq, Repr

/-- the string itself -/
def SymKind.name : SymKind → String
  | .double => "Double"
  | .single => "Single"
  | .point => "Point"
  | .none => "None"

/-- symmetry.py 40-71 `Symmetry.symmetry`: `len(None)` is a `TypeError` -/
def Symmetry.symmetry (s : Symmetry) : Py SymKind :=
  match s.axes with
  | Option.none => .error .typeError
  | some axes =>
    .ok <|
      if axes.length = 0 then .none
      else if axes.length = 2 ∧ axes.any (Axis.isStr "x") ∧ axes.any (Axis.isStr "y") then .double
      else if axes.length = 1 ∧
          (axes.any (Axis.isStr "point") ∨ axes.any (Axis.isStr "Point") ∨ axes.any (Axis.isStr "POINT")) then
        .point
      else if axes.length = 1 then .single
      else .none

/-- symmetry.py 94-101 `Symmetry.symcount` -/
def Symmetry.symcount (s : Symmetry) : Py ℕ :=
  match s.axes with
  | Option.none => .error .typeError
  | some axes => .ok axes.length

/-- the arguments describing the member shared by the torsional buckling functions:
net area, effective lengths, radii of gyration, shear centre, torsion and warping constants, moduli -/
structure Member where
  An : ℝ
  lex : ℝ
  ley : ℝ
  lez : ℝ
  rx : ℝ
  ry : ℝ
  xo : ℝ
  yo : ℝ
  J : ℝ
  Iw : ℝ
  E : ℝ
  G : ℝ

namespace S6

/-- S6.py 39-49 `s6_2_A_e` -/
noncomputable def Ae (An kf : ℝ) : ℝ := An * kf

/-- S6.py 52-61 `s6_2_N_s` -/
noncomputable def Ns (Ae fy : ℝ) : ℝ := Ae * fy

/-- S6.py 71-80 `s6_3_2_l_e` (the default `k_e` is 1) -/
noncomputable def le (l ke : ℝ) : ℝ := l * ke

/-- S6.py 90-100 `N_euler` -/
noncomputable def NEuler (E I le : ℝ) : Py ℝ := rdiv (piD * piD * E * I) (le * le)

/-- S6.py 103-112 `f_euler` -/
noncomputable def fEuler (E le r : ℝ) : Py ℝ := do
  let s ← rdiv le r
  rdiv (piD * piD * E) (s * s)

/-- S6.py 115-134 `r_ol` -/
noncomputable def rol (rx ry xo yo : ℝ) : Py ℝ := rsqrt (rx * rx + ry * ry + xo * xo + yo * yo)

/-- S6.py 137-175 `f_euler_torsion` -/
noncomputable def fEulerTorsion (A lez rx ry xo yo J Iw E G : ℝ) : Py ℝ := do
  let ro ← rol rx ry xo yo
  let a ← rdiv (G * J) (A * ro * ro)
  let b ← rdiv (piD * piD * E * Iw) (G * J * (lez * lez))
  return a * (1 + b)

/-- S6.py 185-201 `s6_3_3_λ_n` (the default `f_ref` is 250e6) -/
noncomputable def lambdaN (kf le r fy fref : ℝ) : Py ℝ := do
  let s ← rdiv le r
  let a ← rsqrt kf
  let q ← rdiv fy fref
  let b ← rsqrt q
  return s * a * b

/-- the dictionary returned by `s6_3_3_α_c` -/
structure AlphaC where
  alphaA : ℝ
  lambda : ℝ
  eta : ℝ
  xi : ℝ
  alphaC : ℝ

/-- S6.py 204-237 `s6_3_3_α_c` (the default `α_b` is 1) -/
noncomputable def alphaC (ln alphaB : ℝ) : Py AlphaC := do
  let aa ← rdiv (2100 * (ln - 27 / 2)) (ln * ln - 153 / 10 * ln + 2050)
  let lam := ln + aa * alphaB
  let eta := max (326 / 100000 * (lam - 27 / 2)) 0
  let xi ← rdiv ((lam / 90) ^ 2 + 1 + eta) (2 * (lam / 90) ^ 2)
  let t ← rdiv 90 (xi * lam)
  let r ← rsqrt (1 - t ^ 2)
  return ⟨aa, lam, eta, xi, xi * (1 - r)⟩

/-- the dictionary returned by `s6_3_3_N_c` -/
structure Flexural where
  Nc : ℝ
  lambdaN : ℝ
  factors : AlphaC
  le : ℝ
  r : ℝ

/-- S6.py 240-286 `s6_3_3_N_c` -/
noncomputable def NcFlexural (An kf le r fy fref alphaB : ℝ) : Py Flexural := do
  let ns := Ns (Ae An kf) fy
  let ln ← lambdaN kf le r fy fref
  let ac ← alphaC ln alphaB
  return ⟨ns * ac.alphaC, ln, ac, le, r⟩

/-- the dictionary returned by `f_oxz` -/
structure Foxz where
  beta : ℝ
  fox : ℝ
  foz : ℝ
  rx : ℝ
  ry : ℝ
  xo : ℝ
  yo : ℝ
  rol : ℝ
  foxz : ℝ

/-- S6.py 296-361 `f_oxz` -/
noncomputable def foxz (An lex lez rx ry xo yo J Iw E G : ℝ) : Py Foxz := do
  let ro ← rol rx ry xo yo
  let q ← rdiv xo ro
  let beta := 1 - q ^ 2
  let fox ← fEuler E lex rx
  let foz ← fEulerTorsion An lez rx ry xo yo J Iw E G
  let h ← rdiv 1 (2 * beta)
  let s ← rsqrt ((fox + foz) ^ 2 - 4 * beta * fox * foz)
  return ⟨beta, fox, foz, rx, ry, xo, yo, ro, h * (fox + foz - s)⟩

/-- S6.py 364-458 `f_oc_double_symmetric`, the value of `"f_oc"` -/
noncomputable def focDouble (m : Member) : Py ℝ := do
  let f ← foxz m.An m.lex m.lez m.rx m.ry m.xo m.yo m.J m.Iw m.E m.G
  let z ← fEulerTorsion m.An m.lez m.rx m.ry m.xo m.yo m.J m.Iw m.E m.G
  return min f.foxz z

/-- S6.py 461-577 `f_oc_single_symmetric`, the value of `"f_oc"`.  The message of the `ValueError`
adds a string and an `int`, so the exception is a `TypeError`. -/
noncomputable def focSingle (m : Member) (sym : Symmetry) : Py ℝ := do
  let n ← sym.symcount
  if n ≠ 1 then .error .typeError
  else if (sym.axes.getD []).any (Axis.isStr "x") then do
    let f ← foxz m.An m.lex m.lez m.rx m.ry m.xo m.yo m.J m.Iw m.E m.G
    return f.foxz
  else do
    let f ← foxz m.An m.ley m.lez m.ry m.rx m.yo m.xo m.J m.Iw m.E m.G
    return f.foxz

/-- S6.py 580-625 `f_oc_point_symmetric`, the value of `"f_oc"` -/
noncomputable def focPoint (m : Member) : Py ℝ :=
  fEulerTorsion m.An m.lez m.rx m.ry m.xo m.yo m.J m.Iw m.E m.G

/-- numpy's `<` on complex numbers: lexicographic -/
def clt (a b : ℂ) : Prop := a.re < b.re ∨ (a.re = b.re ∧ a.im < b.im)

/-- S6.py 687-708: the loop over the roots.  `type(i) is complex` is false for numpy scalars, so
complex roots take part.  `min(minstress, i)` keeps `minstress` unless `i < minstress`. -/
noncomputable def minStress (roots : List ℂ) : Option ℂ :=
  open Classical in
  roots.foldl (fun acc i =>
    if clt i 0 then acc
    else match acc with
      | Option.none => some i
      | some m => some (if clt i m then i else m)) Option.none

/-- the coefficients `a, b, c, d` of the cubic and the three stresses -/
structure Cubic where
  a : ℝ
  b : ℝ
  c : ℝ
  d : ℝ
  fox : ℝ
  foy : ℝ
  foz : ℝ

/-- S6.py 671-681: the coefficients computed by `f_oc_unsymmetric` -/
noncomputable def cubic (m : Member) : Py Cubic := do
  let fox ← fEuler m.E m.lex m.rx
  let foy ← fEuler m.E m.ley m.ry
  let ro ← rol m.rx m.ry m.xo m.yo
  let foz ← fEulerTorsion m.An m.lez m.rx m.ry m.xo m.yo m.J m.Iw m.E m.G
  let a := ro ^ 2 - m.xo ^ 2 * m.yo ^ 2
  let b := ro ^ 2 * (fox + foy + foz) - (foy * m.xo ^ 2 + fox * m.yo ^ 2)
  let c := ro ^ 2 * (fox * foy + foy * foz + fox * foz)
  let d := ro ^ 2 * fox * foy * foz
  return ⟨a, b, c, d, fox, foy, foz⟩

/-- what is assumed to be given for `numpy.roots([p, q, r, s])` -/
abbrev Roots := ℝ → ℝ → ℝ → ℝ → List ℂ

/-- S6.py 628-732 `f_oc_unsymmetric`, the value of `"f_oc"`; a value with a non-zero imaginary part is
outside the model -/
noncomputable def focUnsym (roots : Roots) (m : Member) : Py ℝ := do
  let q ← cubic m
  match minStress (roots q.a (-q.b) q.c (-q.d)) with
  | Option.none => .error .exception
  | some z => if z.im = 0 then .ok z.re else .error .outsideModel

/-- S6.py 796-865: the choice of the clause -/
noncomputable def foc (roots : Roots) (m : Member) (sym : Symmetry) : Py ℝ := do
  match ← sym.symmetry with
  | .double => focDouble m
  | .single => focSingle m sym
  | .point => focPoint m
  | .none => focUnsym roots m

/-- the numbers `s6_3_3_N_c_torsion` returns or adds to the intermediate results -/
structure Torsional where
  Ncz : ℝ
  foc : ℝ
  lambdaC : ℝ
  fn : ℝ

/-- S6.py 868-874: the AS4600 column curve.  (For an unsymmetric section `f_oc` is a numpy number and
a zero gives infinity with a warning instead of the `ZeroDivisionError` of this model.) -/
noncomputable def columnCurve (fy foc : ℝ) : Py (ℝ × ℝ) := do
  let q ← rdiv fy foc
  let lc ← rsqrt q
  if lc ≤ 3 / 2 then
    return (lc, fy * rpow (658 / 1000) (lc * lc))
  else do
    let u ← rdiv (877 / 1000) (lc * lc)
    return (lc, fy * u)

/-- S6.py 735-887 `s6_3_3_N_c_torsion` (the default `uncertainty_factor` is 0.85) -/
noncomputable def NcTorsion (roots : Roots) (m : Member) (kf fy : ℝ) (sym : Symmetry) (uncertainty : ℝ) :
    Py Torsional := do
  let ae := Ae m.An kf
  let f ← foc roots m sym
  let (lc, fn) ← columnCurve fy f
  return ⟨uncertainty * ae * fn, f, lc, fn⟩

/-- the arguments of `s6_1_1_Nc` -/
structure NcArgs where
  An : ℝ
  kf : ℝ
  l : ℝ
  kex : ℝ
  key : ℝ
  kez : ℝ
  rx : ℝ
  ry : ℝ
  xo : ℝ
  yo : ℝ
  J : ℝ
  Iw : ℝ
  fy : ℝ
  E : ℝ
  G : ℝ
  sym : Symmetry
  fref : ℝ
  alphaB : ℝ
  uncertainty : ℝ
  phi : ℝ
  calcBuckling : Bool
  calcTorsion : Bool

/-- the numbers in the dictionary returned by `s6_1_1_Nc`; keys that are not set are `none`.
`phiNs` is the key `"φN_s"` and so on. -/
structure NcResult where
  Ns : ℝ
  phiNs : ℝ
  Ncx : Option ℝ
  phiNcx : Option ℝ
  Ncy : Option ℝ
  phiNcy : Option ℝ
  NczBuckling : Option ℝ
  Ncz : Option ℝ
  phiNcz : Option ℝ
  Nc : ℝ
  phiNc : ℝ

/-- S6.py 975-976, 1004: the member given to the torsional check -/
noncomputable def NcArgs.member (a : NcArgs) : Member :=
  ⟨a.An, le a.l a.kex, le a.l a.key, le a.l a.kez, a.rx, a.ry, a.xo, a.yo, a.J, a.Iw, a.E, a.G⟩

/-- S6.py 895-1046 `s6_1_1_Nc` -/
noncomputable def Nc (roots : Roots) (a : NcArgs) : Py NcResult := do
  let ae := Ae a.An a.kf
  let ns := Ns ae a.fy
  let phiNs := a.phi * ns
  if a.calcBuckling then do
    let bx ← NcFlexural a.An a.kf (le a.l a.kex) a.rx a.fy a.fref a.alphaB
    let by' ← NcFlexural a.An a.kf (le a.l a.key) a.ry a.fy a.fref a.alphaB
    let ncx := min bx.Nc ns
    let ncy := min by'.Nc ns
    let nc := min (min ns ncx) ncy
    let phiNc := min (min phiNs (a.phi * ncx)) (a.phi * ncy)
    if a.calcTorsion then do
      let t ← NcTorsion roots a.member a.kf a.fy a.sym a.uncertainty
      let ncz := min ns t.Ncz
      let nc' := min nc ncz
      return ⟨ns, phiNs, some ncx, some (a.phi * ncx), some ncy, some (a.phi * ncy), some t.Ncz, some ncz,
        some (a.phi * ncz), nc', a.phi * nc'⟩
    else
      return ⟨ns, phiNs, some ncx, some (a.phi * ncx), some ncy, some (a.phi * ncy), Option.none, Option.none,
        Option.none, nc, phiNc⟩
  else
    return ⟨ns, phiNs, Option.none, Option.none, Option.none, Option.none, Option.none, Option.none,
      Option.none, ns, phiNs⟩

end S6

end BeamDesign
