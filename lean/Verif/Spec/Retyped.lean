import Verif.Spec.Beam

/-!
# What is claimed about entering loads as whole numbers or as floats
-/

namespace BeamDesign.Spec

section
variable {K S : Type}

/-- The load case with its table stored as floats: the same numbers. -/
def floatCase (lc : LoadCase K) : LoadCase K := ⟨lc.loads.map fun t => ⟨false, t.rows⟩⟩

/-- The element with all its load tables stored as floats. -/
def floatElement (e : Element K S) : Element K S := ⟨e.loads.map fun l => (l.1, floatCase l.2), e.length, e.sect⟩

/-- The beam with all its load tables stored as floats: the same numbers. -/
def floatTables (b : Beam K S) : Beam K S := ⟨b.elements.map floatElement⟩

/-- The same loads, with every number entered as a float. -/
def floatRaw : RawLoads K → RawLoads K
  | .none => .none
  | .scalar x => .scalar (Num.flt x.val)
  | .row r => .row (r.map fun x => Num.flt x.val)
  | .table n rows => .table n (rows.map fun r => r.map fun x => Num.flt x.val)

/-- The two beams differ at most in which of their load tables were entered as whole numbers. -/
def SameNumbers (b b' : Beam K S) : Prop := floatTables b = floatTables b'

/-- No element of length zero has a table of ints in load case `c`. -/
def NoIntAtPoint [Zero K] (b : Beam K S) (c : ℤ) : Prop :=
  ∀ e ∈ b.elements, ∀ l, e.length = some l → l.val = 0 → ∀ t, e.loads.lookup c = some ⟨some t⟩ → t.isInt = false

/-- All element lengths are floats. -/
def FloatLengths (b : Beam K S) : Prop := ∀ e ∈ b.elements, ∀ l, e.length = some l → l.isInt = false

/-- The loads of a reported table, without the column of positions. -/
def loadsOnly (t : Tab K) : ℕ × List (List (Option K)) := (t.width, t.rows.map (·.2))

end

end BeamDesign.Spec
