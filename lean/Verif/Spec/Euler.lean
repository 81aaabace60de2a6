import Verif.Spec.Rounded
import Mathlib.Analysis.Real.Pi.Bounds

/-!
# Specification of the elastic buckling loads of a column
-/

namespace BeamDesign.Spec

/-- Euler's load of a column of effective length `le`. -/
noncomputable def eulerLoad (E I le : ℝ) : ℝ := Real.pi ^ 2 * E * I / le ^ 2

/-- Euler's stress of a column of slenderness `le / r`. -/
noncomputable def eulerStress (E le r : ℝ) : ℝ := Real.pi ^ 2 * E / (le / r) ^ 2

/-- Stress of elastic torsional buckling: the resistance against uniform torsion and against warping over the polar moment
of inertia about the shear centre. -/
noncomputable def torsionStress (An lez rx ry xo yo J Iw E G : ℝ) : ℝ :=
  (G * J + Real.pi ^ 2 * E * Iw / lez ^ 2) / (An * (rx ^ 2 + ry ^ 2 + xo ^ 2 + yo ^ 2))

end BeamDesign.Spec
