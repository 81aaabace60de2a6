import Verif.Model.Beam
import Verif.Model.Material
import Verif.Model.S6

/-!
# The texts the objects are printed as (`__repr__` and `__str__`)

How Python and numpy print numbers and arrays is a parameter, `Text`.
Lists of axes are printed with Python's `repr` of strings, which is modelled in full.
Simplified: the class name is that of the library's own class, not of a subclass.
-/

namespace BeamDesign

/-- the texts of values that are not the library's own: `str` of a number, of the decimal number `x` as an angle, of an array, of a list of
lists, of any other value and of a section that is not a `Circle` -/
structure Text (K : Type) where
  num : Num K → String
  real : ℝ → String
  scalar : K → String
  array : Table K → String
  table : List (List K) → String
  other : String
  object : String

section
variable {K S : Type}

/-- `f"{v}"` of a value read from a file: a string is inserted as it is -/
def Text.value (t : Text K) : TVal K → String
  | .str s => s
  | .num x => t.scalar x
  | .table r => t.table r
  | .other => t.other

/-- `f"{v}"` of a `MatType` (`const.py:20-22`) or of whatever else was given as the type -/
def Text.type (t : Text K) : TypeVal K → String
  | .mat .steel => "MatType.steel"
  | .mat .concrete => "MatType.concrete"
  | .raw v => t.value v

/-- `material.py:63-70` `Material.__repr__` -/
def Material.repr (t : Text K) (m : Material K) : String :=
  "Material(" ++ ("type=" ++ t.type m.type ++ ", ") ++ ("name=" ++ t.value m.name ++ ", ") ++ ("standard=" ++ t.value m.standard) ++ ")"

/-- `f"{m}"` of a material or None -/
def Material.reprOpt (t : Text K) : Option (Material K) → String
  | none => "None"
  | some m => m.repr t

/-- `circle.py:54-60` `Circle.__repr__`; other sections are printed by Python -/
def Sect.repr (t : Text K) : Sect K → String
  | .circle r m => "Circle(" ++ ("radius=" ++ t.scalar r ++ ", ") ++ ("material=" ++ Material.reprOpt t m) ++ ")"
  | .other _ => t.object

/-- `f"{self.section}"` of a section or None -/
def Sect.reprOpt (t : Text K) : Option (Sect K) → String
  | none => "None"
  | some s => s.repr t

/-- `f"{self.length}"` -/
def Text.length (t : Text K) : Option (Num K) → String
  | none => "None"
  | some x => t.num x

/-- `element.py:202-210` `Element.__repr__`; what is shown as the material is the section (line 207) -/
def Element.repr (t : Text K) (e : Element K (Option (Sect K))) : String :=
  "Element(" ++ ("length=" ++ t.length e.length ++ ", ") ++ ("section=" ++ Sect.reprOpt t e.sect ++ ", ") ++
    ("material=" ++ Sect.reprOpt t e.sect ++ ", ") ++ ("no. load cases=" ++ toString e.noLoadCases) ++ ")"

/-- `beam.py:601-608` `Beam.__repr__` -/
def Beam.repr [Field K] [LinearOrder K] (rt : Rt K) (t : Text K) (b : Beam K S) : Py String := do
  let l ← b.length rt
  let c ← b.noLoadCases
  return "Beam(" ++ ("length=" ++ t.num l ++ ", ") ++ ("no. elements=" ++ toString b.noElements ++ ", ") ++
    ("no. load cases=" ++ toString c) ++ ")"

/-- `loadcase.py:560-561` `LoadCase.__repr__` -/
def LoadCase.repr (t : Text K) (l : LoadCase K) : String :=
  "LoadCase(" ++ ("loads=" ++ match l.loads with | none => "None" | some a => t.array a) ++ ")"

end

/-! ### Python's `repr` of a string -/

/-- a hexadecimal digit -/
def hexChar (n : ℕ) : Char := if n < 10 then Char.ofNat (48 + n) else Char.ofNat (87 + n)

/-- the last `k` hexadecimal digits of a number -/
def hexDigits : ℕ → ℕ → List Char
  | 0, _ => []
  | k + 1, n => hexDigits k (n / 16) ++ [hexChar (n % 16)]

/-- CPython `unicode_repr`: one character between quotes `q`; `printable` is Python's `str.isprintable` beyond ASCII -/
def reprChar (printable : Char → Bool) (q c : Char) : List Char :=
  if c = q ∨ c = '\\' then ['\\', c]
  else if c = '\t' then ['\\', 't']
  else if c = '\n' then ['\\', 'n']
  else if c = '\r' then ['\\', 'r']
  else if c.toNat < 32 ∨ c.toNat = 127 then '\\' :: 'x' :: hexDigits 2 c.toNat
  else if c.toNat < 127 then [c]
  else if printable c then [c]
  else if c.toNat < 256 then '\\' :: 'x' :: hexDigits 2 c.toNat
  else if c.toNat < 65536 then '\\' :: 'u' :: hexDigits 4 c.toNat
  else '\\' :: 'U' :: hexDigits 8 c.toNat

/-- the quotes: double ones if the string has single quotes and no double ones -/
def reprQuote (s : List Char) : Char := if '\'' ∈ s ∧ '"' ∉ s then '"' else '\''

/-- `repr` of a string.  Simplified: no lone surrogates. -/
def reprStr (printable : Char → Bool) (s : String) : List Char :=
  reprQuote s.toList :: (s.toList.flatMap (reprChar printable (reprQuote s.toList)) ++ [reprQuote s.toList])

/-- `repr` of an entry of a list of axes -/
def Axis.repr {K : Type} (t : Text K) (printable : Char → Bool) : Axis → List Char
  | .str s => reprStr printable s
  | .angle x => (t.real x).toList

/-- the entries after the first, and the closing bracket -/
def reprRest {K : Type} (t : Text K) (printable : Char → Bool) : List Axis → List Char
  | [] => [']']
  | a :: l => ',' :: ' ' :: (a.repr t printable ++ reprRest t printable l)

/-- `repr` of a list of axes -/
def reprList {K : Type} (t : Text K) (printable : Char → Bool) : List Axis → List Char
  | [] => ['[', ']']
  | a :: l => '[' :: (a.repr t printable ++ reprRest t printable l)

/-- symmetry.py 37-38 `Symmetry.__repr__` -/
def Symmetry.repr {K : Type} (t : Text K) (printable : Char → Bool) (s : Symmetry) : String :=
  "Symmetry(" ++ (match s.axes with | none => "None" | some l => String.ofList (reprList t printable l)) ++ ")"

/-- symmetry.py 34-35 `Symmetry.__str__` -/
def Symmetry.str (s : Symmetry) : Py String := do
  let k ← s.symmetry
  return k.name

end BeamDesign
