import Verif.Model.S6

/-!
# Members that cannot be better against torsional buckling
-/

namespace BeamDesign.Spec

/-- the same section area and geometry, but lengths that are not shorter and stiffnesses that are not larger -/
structure NotStiffer (m m' : Member) : Prop where
  An : m'.An = m.An
  rx : m'.rx = m.rx
  ry : m'.ry = m.ry
  xo : m'.xo = m.xo
  yo : m'.yo = m.yo
  lex : m.lex ≤ m'.lex
  ley : m.ley ≤ m'.ley
  lez : m.lez ≤ m'.lez
  J : m'.J ≤ m.J
  Iw : m'.Iw ≤ m.Iw
  E : m'.E ≤ m.E
  G : m'.G ≤ m.G

/-- a section with two axes, one axis or a point of symmetry -/
def HasSymmetry (s : Symmetry) : Prop := ∃ k, s.symmetry = .ok k ∧ k ≠ .none

end BeamDesign.Spec
