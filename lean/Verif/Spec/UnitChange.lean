import Verif.Model.AS4100

/-!
# Specification of a change of the units of length and force

A length of 1 in the old unit is `L` in the new one, a force of 1 is `F`.
-/

namespace BeamDesign.Spec

variable {K S : Type} [Field K] [LinearOrder K]

/-- A length.  It stays an int or a float: lengths entered as ints are meant for a whole number `L`. -/
def lengthIn (L : K) (x : Num K) : Num K := ⟨L * x.val, x.isInt⟩

/-- The positions asked for. -/
def positionIn (L : K) : PosArg K → PosArg K
  | .none => .none
  | .scalar x => .scalar (lengthIn L x)
  | .list xs => .list (xs.map (lengthIn L))

/-- Forces scale with `F`, moments and torsions with `F * L`. -/
def factorIn (L F : K) : LComp → K
  | .VX => F | .VY => F | .N => F | .MX => F * L | .MY => F * L | .T => F * L

/-- A row of a load table.  The position is relative to the length of the element. -/
def rowIn (L F : K) (r : LRow K) : LRow K :=
  ⟨r.pos, F * r.vx, F * r.vy, F * r.n, F * L * r.mx, F * L * r.my, F * L * r.t⟩

def loadsIn (L F : K) (lc : LoadCase K) : LoadCase K := ⟨lc.loads.map fun t => ⟨t.isInt, t.rows.map (rowIn L F)⟩⟩

/-- A table of strengths: the first row holds thicknesses, the others stresses. -/
def strengthsIn (L F : K) : List (List K) → List (List K)
  | [] => []
  | ts :: fs => ts.map (L * ·) :: fs.map (List.map (F / L ^ 2 * ·))

/-- A property of a material: the strengths and the modulus of elasticity have units. -/
def propertyIn (L F : K) (kv : String × TVal K) : String × TVal K :=
  (kv.1, match kv.2 with
    | .table rows => if kv.1 = "strengths" then .table (strengthsIn L F rows) else kv.2
    | .num x => if kv.1 = "E" then .num (F / L ^ 2 * x) else kv.2
    | v => v)

def materialIn (L F : K) (m : Material K) : Material K := { m with properties := m.properties.map (propertyIn L F) }

def sectIn (L F : K) : Sect K → Sect K
  | .circle r m => .circle (L * r) (m.map (materialIn L F))
  | .other m => .other (m.map (materialIn L F))

def elementIn (L F : K) (e : Element K (Sect K)) : Element K (Sect K) :=
  ⟨e.loads.map fun l => (l.1, loadsIn L F l.2), e.length.map (lengthIn L), sectIn L F e.sect⟩

def beamIn (L F : K) (b : Beam K (Sect K)) : Beam K (Sect K) := ⟨b.elements.map (elementIn L F)⟩

/-- An `AS4100` object: capacity factors have no units. -/
def objectIn (L F : K) (o : AS4100 K) : AS4100 K :=
  { o with
    beam := o.beam.map (beamIn L F)
    sect := o.sect.map (sectIn L F)
    dsects := o.dsects.map fun d => ⟨L * d.radius, materialIn L F d.material⟩ }

/-- The cells of a row of a result array, one for each component asked for.  Empty cells stay empty. -/
def cellsIn (L F : K) : List LComp → List (Option K) → List (Option K)
  | c :: cs, v :: vs => v.map (factorIn L F c * ·) :: cellsIn L F cs vs
  | _, vs => vs

/-- A result array: a length in the first column, the components asked for in the others. -/
def tableIn (L F : K) (cs : List LComp) (t : Tab K) : Tab K :=
  { t with rows := t.rows.map fun r => (L * r.1, cellsIn L F cs r.2) }

/-- No load case of the beam was entered with whole numbers only. -/
def FloatTables (b : Beam K S) : Prop :=
  ∀ e ∈ b.elements, ∀ c lc t, e.loads.lookup c = some lc → lc.loads = some t → t.isInt = false

end BeamDesign.Spec
