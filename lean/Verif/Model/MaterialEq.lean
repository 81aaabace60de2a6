import Verif.Model.Material

/-!
# Model of `Material.__eq__` (`beamdesign/materials/material.py` 53-61)
-/

namespace BeamDesign

variable {K : Type} [DecidableEq K]

/-- `a == b` for parsed TOML values.  What `==` does with values outside the model (`other`) is not modelled: it is `false`
here, and the theorems are about materials without such values. -/
def TVal.eq : TVal K → TVal K → Bool
  | .str a, .str b => a == b
  | .num a, .num b => a == b
  | .table a, .table b => a == b
  | _, _ => false

/-- `a == b` for two `type` attributes; members of `MatType` are compared by identity. -/
def TypeVal.eq : TypeVal K → TypeVal K → Bool
  | .mat a, .mat b => a == b
  | .raw a, .raw b => a.eq b
  | _, _ => false

/-- `a == b` for two dicts: as many entries, and for each key of `a` an equal value in `b`.  The order of the entries is not
looked at. -/
def dictEq (a b : List (String × TVal K)) : Bool :=
  a.length == b.length &&
    a.all fun kv => match b.lookup kv.1 with
      | some v => kv.2.eq v
      | none => false

/-- material.py 53-61 `__eq__` for two `Material` objects: `self.__dict__ == other.__dict__`, the four attributes of 48-51. -/
def Material.eq (m m' : Material K) : Bool :=
  m.type.eq m'.type && m.name.eq m'.name && m.standard.eq m'.standard && dictEq m.properties m'.properties

end BeamDesign
