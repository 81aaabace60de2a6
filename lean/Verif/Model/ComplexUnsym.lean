import Verif.Model.Complex

/-!
# Unsymmetric sections with numpy's complex numbers

`numpy.roots` returns numpy numbers.  Those are compared lexicographically instead of raising `TypeError`, and `type(i) is complex` is
false for them, so that the loop of `f_oc_unsymmetric` does not leave complex roots out.  Exact arithmetic.
-/

namespace BeamDesign.Cx

open S6

/-- S6.py 628-732 `f_oc_unsymmetric`, the value of `"f_oc"`, real or complex -/
noncomputable def focUnsym (roots : Roots) (m : Member) : Py ℂ := do
  let q ← cubic m
  match minStress (roots q.a (-q.b) q.c (-q.d)) with
  | Option.none => .error .exception
  | some z => .ok z

/-- numpy's `<=` on complex numbers -/
def cle (a b : ℂ) : Prop := clt a b ∨ a = b

/-- the numbers `s6_3_3_N_c_torsion` returns or adds to the intermediate results -/
structure TorsionalUnsym where
  Ncz : ℂ
  foc : ℂ
  lambdaC : ℂ
  fn : ℂ

open Classical in
/-- S6.py 735-887 `s6_3_3_N_c_torsion` for a section without symmetry.  A stress of 0, for which numpy gives infinities or nan, is
outside the model; so are negative yield stresses with a real stress, for which numpy's root is nan. -/
noncomputable def NcTorsionUnsym (roots : Roots) (m : Member) (kf fy uncertainty : ℝ) : Py TorsionalUnsym := do
  let ae := m.An * kf
  let f ← focUnsym roots m
  if f = 0 ∨ (f.im = 0 ∧ fy / f.re < 0) then .error .outsideModel
  else
    let lc := (fy / f) ^ (1 / 2 : ℂ)
    let fn := if cle lc (3 / 2) then fy * (658 / 1000 : ℂ) ^ (lc * lc) else fy * ((877 / 1000) / (lc * lc))
    return ⟨uncertainty * ae * fn, f, lc, fn⟩

open Classical in
/-- Python's `min(a, b)` on numbers of which one may be a numpy complex number -/
noncomputable def cmin (a b : ℂ) : ℂ := if clt b a then b else a

/-- what `s6_1_1_Nc` returns under the keys `"N_cz"`, `"φN_cz"`, `"N_c"` and `"φN_c"` -/
structure NcUnsymResult where
  Ncz : ℂ
  phiNcz : ℂ
  Nc : ℂ
  phiNc : ℂ

/-- S6.py 895-1046 `s6_1_1_Nc` with `calc_buckling` and `calc_torsion`, for a section without symmetry; only the four numbers that may be
complex -/
noncomputable def NcUnsym (roots : Roots) (a : NcArgs) : Py NcUnsymResult := do
  let ns := S6.Ns (Ae a.An a.kf) a.fy
  let bx ← S6.NcFlexural a.An a.kf (le a.l a.kex) a.rx a.fy a.fref a.alphaB
  let by' ← S6.NcFlexural a.An a.kf (le a.l a.key) a.ry a.fy a.fref a.alphaB
  let nc := min (min ns (min bx.Nc ns)) (min by'.Nc ns)
  let t ← NcTorsionUnsym roots a.member a.kf a.fy a.uncertainty
  let ncz := cmin ns t.Ncz
  let nc' := cmin nc ncz
  return ⟨ncz, a.phi * ncz, nc', a.phi * nc'⟩

end BeamDesign.Cx
