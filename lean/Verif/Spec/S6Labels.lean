import Verif.Spec.S6Cache

/-!
# What the intermediate results of a torsional capacity should say
-/

namespace BeamDesign

open S6

/-- the clause for each kind of symmetry, as the code spells it -/
def SymKind.clause : SymKind → String
  | .double => "AS4600 S3.4.3"
  | .single => "AS4600 S3.4.3"
  | .point => "AS4600 S3.4.4"
  | .none => "S3.4.5"

open Classical in
/-- the labels: the clause; for sections with axes of symmetry the kind; with one axis, which -/
def S6.Dict.Labelled (d : Dict) (sym : Symmetry) (k : SymKind) : Prop :=
  d.get "AS4600 Clause" = some (.str k.clause) ∧
  (k = .double ∨ k = .single → d.get "Symmetry" = some (.str k.name)) ∧
  (k = .single → d.get "Axis of Symmetry" = some (.str (if sym.axes = some [.str "x"] then "x" else "y")))

/-- the section data and Euler stress about the x axis of the member -/
def S6.Dict.ShowsX (d : Dict) (m : Member) : Prop :=
  d.get "r_x" = some (.num m.rx) ∧ d.get "r_y" = some (.num m.ry) ∧ d.get "x_o" = some (.num m.xo) ∧
  d.get "y_o" = some (.num m.yo) ∧ ∃ v, fEuler m.E m.lex m.rx = .ok v ∧ d.get "f_ox" = some (.num v)

/-- the same with the two axes exchanged -/
def S6.Dict.ShowsSwapped (d : Dict) (m : Member) : Prop :=
  d.get "r_x" = some (.num m.ry) ∧ d.get "r_y" = some (.num m.rx) ∧ d.get "x_o" = some (.num m.yo) ∧
  d.get "y_o" = some (.num m.xo) ∧ ∃ v, fEuler m.E m.ley m.ry = .ok v ∧ d.get "f_ox" = some (.num v)

/-- the cubic equation of an unsymmetric section and the stresses it is made of -/
def S6.Dict.ShowsCubic (d : Dict) (m : Member) : Prop :=
  ∃ fox foy foz ro, fEuler m.E m.lex m.rx = .ok fox ∧ fEuler m.E m.ley m.ry = .ok foy ∧
    fEulerTorsion m.An m.lez m.rx m.ry m.xo m.yo m.J m.Iw m.E m.G = .ok foz ∧ rol m.rx m.ry m.xo m.yo = .ok ro ∧
    d.get "f_ox" = some (.num fox) ∧ d.get "f_oy" = some (.num foy) ∧ d.get "f_oz" = some (.num foz) ∧
    d.get "Equation" = some (.nums [ro ^ 2 - m.xo ^ 2 * m.yo ^ 2,
      -(ro ^ 2 * (fox + foy + foz) - (foy * m.xo ^ 2 + fox * m.yo ^ 2)),
      ro ^ 2 * (fox * foy + foy * foz + fox * foz), -(ro ^ 2 * fox * foy * foz)])

end BeamDesign
