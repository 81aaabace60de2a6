import Verif.Model.Toml
import Verif.Model.Defaults

/-!
# Model of the functions that read files (material.py 72-143, as4100.py 414-446)

The machine is what these functions can see of it: the bytes of the files, and the text encoding `open` uses when none is given.
Only missing files are modelled of the errors the operating system can report.
-/

namespace BeamDesign

/-- a decoder of bytes to text; `none`: `UnicodeDecodeError` -/
abbrev Decoder := ByteArray → Option (List Char)

/-- `encoding="utf-8"` -/
def utf8 : Decoder := fun b => b.utf8Decode?.map (·.toList)

/-- the characters of bytes 0x80 to 0x9f in Windows code page 1252; 0 if there is none -/
def cp1252High : List ℕ :=
  [0x20ac, 0, 0x201a, 0x0192, 0x201e, 0x2026, 0x2020, 0x2021, 0x02c6, 0x2030, 0x0160, 0x2039, 0x0152, 0, 0x017d, 0,
   0, 0x2018, 0x2019, 0x201c, 0x201d, 0x2022, 0x2013, 0x2014, 0x02dc, 0x2122, 0x0161, 0x203a, 0x0153, 0, 0x017e, 0x0178]

/-- a byte in code page 1252 -/
def cp1252Byte (b : ℕ) : Option Char :=
  if b < 0x80 ∨ 0xa0 ≤ b then some (Char.ofNat b)
  else match cp1252High[b - 0x80]? with
    | some 0 => none
    | some n => some (Char.ofNat n)
    | none => none

/-- the encoding of many Windows installations, which `open` uses there when no encoding is given -/
def cp1252 : Decoder := fun b => b.data.toList.mapM fun x => cp1252Byte x.toNat

/-- text mode: every kind of line end is read as `\n` -/
def universalNewlines : List Char → List Char
  | '\r' :: '\n' :: cs => '\n' :: universalNewlines cs
  | '\r' :: cs => '\n' :: universalNewlines cs
  | c :: cs => c :: universalNewlines cs
  | [] => []

/-- what the loaders see of the machine -/
structure Machine where
  files : String → Option ByteArray
  /-- the encoding of the platform -/
  locale : Decoder
  /-- the directory the package is installed in -/
  package : String

/-- `with file_path.open(mode="r", ..) as f: vals = toml.load(f=f)` -/
def readToml {K : Type} (rd : ℚ → K) (w : Machine) (dec : Decoder) (path : String) : Py (MatFile K) :=
  match w.files path with
  | none => .error .fileNotFound
  | some b =>
    match dec b with
    | none => .error .valueError
    | some cs => Toml.load rd (universalNewlines cs)

/-- material.py 133-135: the file in the package -/
def Machine.materialPath (w : Machine) : String := w.package ++ "/materials/material.toml"

/-- as4100.py 436-438: the file in the package -/
def Machine.defaultsPath (w : Machine) : String := w.package ++ "/codecheck/as4100/as4100.toml"

variable {K : Type}

/-- material.py 121-143 `Material._load_helper`: opened without an encoding -/
def Material.loadHelper (rd : ℚ → K) (w : Machine) (path : Option String) : Py (MatFile K) :=
  readToml rd w w.locale (path.getD w.materialPath)

/-- material.py 72-106 `Material.load_material(file_path=path)` -/
def Material.loadFileAll (rd : ℚ → K) (w : Machine) (path : Option String) : Py (List (String × Material K)) := do
  Material.loadAll (← Material.loadHelper rd w path)

/-- material.py 72-106 `Material.load_material(file_path=path, name=name)` -/
def Material.loadFileOne (rd : ℚ → K) (w : Machine) (path : Option String) (name : String) : Py (Material K) := do
  Material.loadOne (← Material.loadHelper rd w path) name

/-- material.py 108-119 `Material.load_list(file_path=path)` -/
def Material.loadFileList (rd : ℚ → K) (w : Machine) (path : Option String) : Py (List String) := do
  return Material.loadList (← Material.loadHelper rd w path)

/-- as4100.py 424-446 `AS4100.get_defaults`: opened as UTF-8 -/
def AS4100.getDefaults (rd : ℚ → K) (w : Machine) (path : Option String) : Py (MatFile K) :=
  readToml rd w utf8 (path.getD w.defaultsPath)

/-- as4100.py 414-422 `AS4100.default_AS4100` -/
def AS4100.defaultFile [Field K] [LinearOrder K] (rd : ℚ → K) (w : Machine) (path : Option String)
    (beam : Option (Beam K (Sect K))) (sect : Option (Sect K)) : Py (AS4100 K) := do
  AS4100.defaultFrom (← AS4100.getDefaults rd w path) beam sect

end BeamDesign
