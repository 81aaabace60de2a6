import Verif.Model.Material

/-!
# Model of `beamdesign/codecheck/as4100/as4100_sect_props.py` (classes)

The functions for effective areas (227-334) are in `Verif.Model.Effective`.
-/

namespace BeamDesign

/-- The `yield_or_ult` argument of `_get_f`: a string or a bool. -/
inductive YU
  | str (s : String)
  | bool (b : Bool)
  deriving DecidableEq, Repr

/-- as4100_sect_props.py 161-166: the row of the table of strengths. -/
def YU.row : YU → Py ℕ
  | .bool true => .ok 1
  | .bool false => .ok 2
  | .str s => if s.toLower = "y" then .ok 1 else if s.toLower = "u" then .ok 2 else .error .keyError

section
variable {K : Type} [LinearOrder K]

/-- as4100_sect_props.py 138-148: every neighbour difference is positive.  `l - s <= 0` is `l <= s`. -/
def ascending : List K → Bool
  | [] => true
  | [_] => true
  | s :: l :: rest => if l ≤ s then false else ascending (l :: rest)

/-- as4100_sect_props.py 169-175: index of the first tabulated thickness not below the thickness. -/
def bandIndex (thickness : K) : List K → ℕ → Option ℕ
  | [], _ => none
  | t :: ts, i => if thickness ≤ t then some i else bandIndex thickness ts (i + 1)

/-- `xs[i]` for a natural number `i` -/
def listGet {α : Type} (xs : List α) (i : ℕ) : Py α :=
  match xs[i]? with
  | some x => .ok x
  | none => .error .indexError

/-- as4100_sect_props.py 104-179 `AS4100Section._get_f` -/
def getF [Zero K] (thickness : K) (yu : YU) (strengths : List (List K)) : Py K := do
  let thicknesses ← listGet strengths 0
  if thickness < 0 then throw .invalidThickness
  if !ascending thicknesses then throw .invalidMaterial
  match thicknesses.getLast? with
  | none => throw .indexError
  | some last =>
    if last < thickness then throw .invalidThickness
    let row ← yu.row
    match bandIndex thickness thicknesses 0 with
    | none => throw .materialError
    | some i => do
      let values ← listGet strengths row
      listGet values i

end

section
variable {K : Type} [Field K] [LinearOrder K]

/-- as4100_sect_props.py 190-196: an `AS4100Circle`, the only concrete `AS4100Section`.  It holds its section
(a circle). -/
structure DSect (K : Type) where
  radius : K
  material : Material K
  deriving DecidableEq, Repr

/-- as4100_sect_props.py 181-187 `AS4100_sect_factory`, 194-196 and 29-43: a circle whose material is steel.
A missing material has no attribute `type`. -/
def DSect.factory (s : Sect K) : Py (DSect K) :=
  match s with
  | .other _ => .error .notImplemented
  | .circle _ none => .error .attributeError
  | .circle r (some m) => if m.type = .mat .steel then .ok ⟨r, m⟩ else .error .invalidMaterial

/-- as4100_sect_props.py 45-51: the section's material -/
def DSect.mat (s : DSect K) : Material K := s.material

/-- as4100_sect_props.py 53-59 `E` -/
def DSect.E (s : DSect K) : Py (TVal K) := s.mat.property "E"

/-- as4100_sect_props.py 61-67 `_strengths`.  A number has no index (`TypeError`); other values are outside
the model. -/
def DSect.strengths (s : DSect K) : Py (List (List K)) := do
  match ← s.mat.property "strengths" with
  | .table rows => .ok rows
  | .num _ => .error .typeError
  | _ => .error .outsideModel

/-- as4100_sect_props.py 198-205 `min_fy`.  `radius * 2` is exact in floating point. -/
def DSect.minFy (s : DSect K) : Py K := do
  getF (s.radius * 2) (.str "Y") (← s.strengths)

/-- as4100_sect_props.py 207-214 `min_fu` -/
def DSect.minFu (s : DSect K) : Py K := do
  getF (s.radius * 2) (.str "U") (← s.strengths)

/-- as4100_sect_props.py 216-219 `Ag` -/
def DSect.Ag (rt : Rt K) (s : DSect K) : K := circleArea rt s.radius

/-- as4100_sect_props.py 221-224 `An`, which is `area_net`, which is `area` -/
def DSect.An (rt : Rt K) (s : DSect K) : K := circleArea rt s.radius

end

end BeamDesign
