import Verif.Model.S6Cache

/-!
# What the cached functions should return: the plain formulas of `Verif.Model.S6`
-/

namespace BeamDesign

open S6

/-- the formula of `r_ol` -/
noncomputable def S6.RKey.value (k : RKey) : Py ℝ := rol k.rx k.ry k.xo k.yo

/-- the formula of `f_euler_torsion` -/
noncomputable def S6.TKey.value (k : TKey) : Py ℝ :=
  fEulerTorsion k.A k.lez k.rx k.ry k.xo k.yo k.J k.Iw k.E k.G

/-- the formula of `f_oxz` -/
noncomputable def S6.FKey.value (k : FKey) : Py Foxz :=
  S6.foxz k.An k.lex k.lez k.rx k.ry k.xo k.yo k.J k.Iw k.E k.G

/-- The numbers (or the exception) a call gives when nothing is cached and nothing is shared. -/
noncomputable def S6.Call.value (roots : Roots) : Call → Py Numbers
  | .rol k => k.value.map .num
  | .torsionStress k => k.value.map .num
  | .foxz k => k.value.map fun f => .num f.foxz
  | .focDouble m sym => do
    let f ← S6.focDouble m
    let _ ← sym.symmetry
    return .num f
  | .focSingle m sym => (S6.focSingle m sym).map .num
  | .focPoint m => (S6.focPoint m).map .num
  | .focUnsym m => (S6.focUnsym roots m).map .num
  | .ncTorsion m kf fy sym unc => (NcTorsion roots m kf fy sym unc).map fun t => .num t.Ncz
  | .nc a => (Nc roots a).map .nc

/-- the numbers (or the exception) of a call made in a state -/
noncomputable def S6.Call.numbersIn (roots : Roots) (c : Call) (s : St) : Py Numbers :=
  (c.exec roots s).1.map (·.numbers)

/-- Everything a program can do, except changing the number stored under `"f_oxz"` in a dictionary
`f_oxz` returned. -/
def S6.Event.isFair : Event → Prop
  | .writeOuter _ _ => False
  | _ => True

/-- calls of the library only -/
def S6.Event.isCall : Event → Prop
  | .call _ => True
  | _ => False

/-- the event is not a program writing into the dictionary at address `a` -/
def S6.Event.leaves (a : ℕ) : Event → Prop
  | .write b _ _ => b ≠ a
  | .delete b _ => b ≠ a
  | .writeOuter _ _ => False
  | _ => True

/-- The dictionary at an address, in a state. -/
def S6.St.dict (s : St) (a : ℕ) : Dict := (s.inner[a]?).getD []

/-- The entries `f_oxz` documents, for the section it was called for; an entry `f_oxz` may be there. -/
def S6.Dict.Describes (d : Dict) (f : Foxz) : Prop :=
  d.get "β" = some (.num f.beta) ∧ d.get "f_ox" = some (.num f.fox) ∧ d.get "f_oz" = some (.num f.foz) ∧
  d.get "r_x" = some (.num f.rx) ∧ d.get "r_y" = some (.num f.ry) ∧ d.get "x_o" = some (.num f.xo) ∧
  d.get "y_o" = some (.num f.yo) ∧ d.get "r_ol" = some (.num f.rol) ∧
  (d.get "f_oxz" = none ∨ d.get "f_oxz" = some (.num f.foxz))

/-- the kinds of symmetry whose results are not shared -/
def Symmetry.unshared (s : Symmetry) : Prop := s.symmetry = .ok .point ∨ s.symmetry = .ok .none

/-- calls whose intermediate results are not taken from the cache -/
def S6.Call.unshared : Call → Prop
  | .focPoint _ => True
  | .focUnsym _ => True
  | .ncTorsion _ _ _ sym _ => sym.unshared
  | .nc a => a.sym.unshared
  | _ => False

end BeamDesign
