import Verif.Model.Complex

/-!
# Specification of what the formulas do with roots of negative numbers
-/

namespace BeamDesign.Spec

/-- A call whose formula is `r` (over the real numbers, `outsideModel` where the root of a negative number is taken) never ends with a
complex number: it returns the floats of the formula, raises what the formula raises, or, where the root of a negative number is taken,
raises `TypeError` or `ZeroDivisionError`. -/
def NeverComplex {α β : Type} (floats : α → β) (r : Py α) (c : Py β) : Prop :=
  match r with
  | .ok v => c = .ok (floats v)
  | .error .outsideModel => c = .error .typeError ∨ c = .error .zeroDivision
  | .error e => c = .error e

/-- floats in the dictionary of `s6_3_3_α_c` -/
def floatsC (r : S6.AlphaC) : Cx.AlphaC := ⟨.flt r.alphaA, .flt r.lambda, .flt r.eta, .flt r.xi, .flt r.alphaC⟩

/-- floats in the dictionary of `s6_3_3_N_c` -/
def floatsF (r : S6.Flexural) : Cx.Flexural := ⟨.flt r.Nc, .flt r.lambdaN, floatsC r.factors, r.le, r.r⟩

/-- floats in the results of `s6_3_3_N_c_torsion` -/
def floatsT (r : S6.Torsional) : Cx.Torsional := ⟨.flt r.Ncz, .flt r.foc, .flt r.lambdaC, .flt r.fn⟩

/-- floats in the dictionary of `s6_1_1_Nc` -/
def floatsN (r : S6.NcResult) : Cx.NcResult :=
  ⟨.flt r.Ns, .flt r.phiNs, r.Ncx.map .flt, r.phiNcx.map .flt, r.Ncy.map .flt, r.phiNcy.map .flt, r.NczBuckling.map .flt,
    r.Ncz.map .flt, r.phiNcz.map .flt, .flt r.Nc, .flt r.phiNc⟩

/-- The section has an axis or a point of symmetry, so that no roots of a cubic are searched. -/
def KnownSymmetry (s : Symmetry) : Prop := s.symmetry ≠ .ok .none

end BeamDesign.Spec
