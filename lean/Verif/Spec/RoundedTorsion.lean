import Verif.Model.RoundedTorsion
import Verif.Spec.Rounded

/-!
# What is assumed and claimed about the torsional formulas in floating point
-/

namespace BeamDesign.Spec

/-- the power function has a relative error of at most `u` for a positive base -/
def RoundedPow (pw : ℝ → ℝ → ℝ) (u : ℝ) : Prop := ∀ a b : ℝ, 0 < a → |pw a b - a ^ b| ≤ u * a ^ b

/-- what is under the root in `f_oxz` -/
def Foxz.disc (f : S6.Foxz) : ℝ := (f.fox + f.foz) ^ 2 - 4 * f.beta * f.fox * f.foz

/-- The condition number of `f_oxz`: large when one of the two stresses is much larger than the other, when they nearly coincide in a
section with the shear centre close to the centroid, and when the shear centre is far away. -/
noncomputable def Foxz.cond (f : S6.Foxz) : ℝ := (f.fox + f.foz) ^ 4 / (f.beta * f.fox * f.foz * Foxz.disc f)

/-- the member in the arithmetic's numbers -/
def Bar.of (m : Member) : S6R.Bar ℝ := ⟨m.An, m.lex, m.ley, m.lez, m.rx, m.ry, m.xo, m.yo, m.J, m.Iw, m.E, m.G⟩

/-- the kind of symmetry of a symmetry object -/
def Sym.Of (s : Symmetry) : S6R.Sym → Prop
  | .double => s.symmetry = .ok .double
  | .point => s.symmetry = .ok .point
  | .single true => s.axes = some [.str "x"]
  | .single false => s.symmetry = .ok .single ∧ s.axes ≠ some [.str "x"]

/-- the values of `f_oxz` that the kind of symmetry asks for -/
def Foxz.Of (m : Member) (f : S6.Foxz) : S6R.Sym → Prop
  | .double | .single true => S6.foxz m.An m.lex m.lez m.rx m.ry m.xo m.yo m.J m.Iw m.E m.G = .ok f
  | .single false => S6.foxz m.An m.ley m.lez m.ry m.rx m.yo m.xo m.J m.Iw m.E m.G = .ok f
  | .point => False

end BeamDesign.Spec
