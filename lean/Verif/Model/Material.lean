import Verif.Numpy

/-!
# Model of `beamdesign/materials/material.py`, `beamdesign/const.py` (`MatType`) and `beamdesign/sections`
-/

namespace BeamDesign

/-- `const.py:17-19` `MatType` -/
inductive MatType
  | steel
  | concrete
  deriving DecidableEq, Repr

/-- `MatType(value)` -/
def MatType.ofValue (s : String) : Py MatType :=
  if s = "steel" then .ok .steel else if s = "concrete" then .ok .concrete else .error .valueError

/-- A value of a parsed TOML table.  Simplified: the only arrays are tables of numbers; every other value
(dates, booleans, nested tables) is `other`. -/
inductive TVal (K : Type)
  | str (s : String)
  | num (x : K)
  | table (rows : List (List K))
  | other
  deriving DecidableEq, Repr

/-- The `type` attribute of a material: only strings are converted to `MatType`. -/
inductive TypeVal (K : Type)
  | mat (m : MatType)
  | raw (v : TVal K)
  deriving DecidableEq, Repr

/-- `material.py:13-51`: a `Material`.  `properties` is a dict: key/value pairs in insertion order. -/
structure Material (K : Type) where
  type : TypeVal K
  name : TVal K
  standard : TVal K
  properties : List (String × TVal K)
  deriving DecidableEq, Repr

/-- A parsed TOML file: top level keys in order with their values, which are tables (`some`) or something
else (`none`). -/
abbrev MatFile (K : Type) := List (String × Option (List (String × TVal K)))

section
variable {K : Type}

/-- `material.py:45-46`: a string becomes a `MatType`. -/
def TypeVal.ofArg : TVal K → Py (TypeVal K)
  | .str s => do return .mat (← MatType.ofValue s)
  | v => .ok (.raw v)

/-- `material.py:26-51` `Material.__init__` -/
def Material.new (type name standard : TVal K) (properties : List (String × TVal K)) : Py (Material K) := do
  return ⟨← TypeVal.ofArg type, name, standard, properties⟩

/-- `d.pop(key)`: the value and the dict without the key; `KeyError` if it is missing. -/
def dictPop (d : List (String × TVal K)) (key : String) : Py (TVal K × List (String × TVal K)) :=
  match d.lookup key with
  | some v => .ok (v, d.filter fun kv => kv.1 != key)
  | none => .error .keyError

/-- `material.py:94-100`: the material of one table. -/
def Material.ofTable (d : List (String × TVal K)) : Py (Material K) := do
  let (type, d) ← dictPop d "type"
  let (name, d) ← dictPop d "name"
  let (standard, d) ← dictPop d "standard"
  Material.new type name standard d

/-- `material.py:90-100`: the materials of a whole file, in file order.  A top level value which is not a
table has no `pop` (`AttributeError`; a list has one, which raises `TypeError` - not distinguished here). -/
def Material.ofFile (f : MatFile K) : Py (List (String × Material K)) :=
  f.mapM fun kv => do
    match kv.2 with
    | none => .error .attributeError
    | some d => return (kv.1, ← Material.ofTable d)

/-- `material.py:72-106` `load_material(name=None)` on the parsed file. -/
def Material.loadAll (f : MatFile K) : Py (List (String × Material K)) := Material.ofFile f

/-- `material.py:72-106` `load_material(name=name)` on the parsed file. -/
def Material.loadOne (f : MatFile K) (name : String) : Py (Material K) := do
  let d ← Material.ofFile f
  match d.lookup name with
  | some m => .ok m
  | none => .error .keyError

/-- `material.py:108-119` `load_list` on the parsed file. -/
def Material.loadList (f : MatFile K) : List String := f.map (·.1)

/-- `self.material.properties[key]` -/
def Material.property (m : Material K) (key : String) : Py (TVal K) :=
  match m.properties.lookup key with
  | some v => .ok v
  | none => .error .keyError

/-- A section: a `sections/circle.py:12-60` `Circle` with its radius, or an instance of another subclass of
`sections/section.py:9-82` `Section`, which the library does not know.  The material may be `None`. -/
inductive Sect (K : Type)
  | circle (radius : K) (material : Option (Material K))
  | other (material : Option (Material K))
  deriving DecidableEq, Repr

/-- `section.material` -/
def Sect.material : Sect K → Option (Material K)
  | .circle _ m => m
  | .other m => m

variable [Field K] [LinearOrder K]

/-- `sections/circle.py:18-29` `Circle.__init__` -/
def Sect.newCircle (radius : K) (material : Option (Material K)) : Py (Sect K) :=
  if 0 ≤ radius then .ok (.circle radius material) else .error .assertionError

/-- `math.pi`: the double nearest to π. -/
def piD : K := 884279719003555 / 281474976710656

/-- `sections/circle.py:46-52` `area`.  `radius ** 2` is modelled as `radius * radius`. -/
def circleArea (rt : Rt K) (radius : K) : K := rt.mul piD (rt.mul radius radius)

end

end BeamDesign
