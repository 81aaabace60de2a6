import Verif.Model.S6
import Verif.Model.S5
import Verif.Model.Effective

/-!
# A change of units

`L` is the factor of all lengths and `F` the factor of all forces; a stress changes by `F / L ^ 2`.
-/

namespace BeamDesign

/-- The same computation with its result multiplied by `c`; exceptions are the same. -/
def scaled (c : ℝ) (x : Py ℝ) : Py ℝ := x.map (c * ·)

/-- the same member in other units -/
noncomputable def Member.units (L F : ℝ) (m : Member) : Member :=
  ⟨L ^ 2 * m.An, L * m.lex, L * m.ley, L * m.lez, L * m.rx, L * m.ry, L * m.xo, L * m.yo, L ^ 4 * m.J,
    L ^ 6 * m.Iw, F / L ^ 2 * m.E, F / L ^ 2 * m.G⟩

/-- the same call of `s6_1_1_Nc` in other units -/
noncomputable def S6.NcArgs.units (L F : ℝ) (a : S6.NcArgs) : S6.NcArgs :=
  { a with
    An := L ^ 2 * a.An, l := L * a.l, rx := L * a.rx, ry := L * a.ry, xo := L * a.xo, yo := L * a.yo,
    J := L ^ 4 * a.J, Iw := L ^ 6 * a.Iw, fy := F / L ^ 2 * a.fy, E := F / L ^ 2 * a.E, G := F / L ^ 2 * a.G,
    fref := F / L ^ 2 * a.fref }

/-- all the results of `s6_1_1_Nc` are forces -/
def S6.NcResult.units (F : ℝ) (r : S6.NcResult) : S6.NcResult :=
  ⟨F * r.Ns, F * r.phiNs, r.Ncx.map (F * ·), r.phiNcx.map (F * ·), r.Ncy.map (F * ·), r.phiNcy.map (F * ·),
    r.NczBuckling.map (F * ·), r.Ncz.map (F * ·), r.phiNcz.map (F * ·), F * r.Nc, F * r.phiNc⟩

/-- `N_c` is a force, `l_e` and `r` are lengths, the rest are plain numbers -/
def S6.Flexural.units (L F : ℝ) (x : S6.Flexural) : S6.Flexural :=
  ⟨F * x.Nc, x.lambdaN, x.factors, L * x.le, L * x.r⟩

/-- `β` is a plain number, the `f` are stresses, the rest are lengths -/
noncomputable def S6.Foxz.units (L F : ℝ) (x : S6.Foxz) : S6.Foxz :=
  ⟨x.beta, F / L ^ 2 * x.fox, F / L ^ 2 * x.foz, L * x.rx, L * x.ry, L * x.xo, L * x.yo, L * x.rol,
    F / L ^ 2 * x.foxz⟩

/-- `N_cz` is a force, `f_oc` and `f_n` are stresses, `λ_c` is a plain number -/
noncomputable def S6.Torsional.units (L F : ℝ) (x : S6.Torsional) : S6.Torsional :=
  ⟨F * x.Ncz, F / L ^ 2 * x.foc, x.lambdaC, F / L ^ 2 * x.fn⟩

end BeamDesign
