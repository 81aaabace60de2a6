import Verif.Model.Material
import Mathlib.Algebra.Order.Field.Rat

/-!
# How a materials file is written

A grammar, independent of the parser in `Model/Toml`: which text writes down which tables.  It covers the layout documented at the
top of `material.toml`: tables with entries, comments, blank lines, any indentation, keys bare or in quotes, strings, numbers, and
arrays of rows that may run over several lines with comments in them and a comma after the last item.
-/

namespace BeamDesign.Spec.Toml

/-- spaces and tabs -/
def Gap (g : List Char) : Prop := ∀ c ∈ g, c = ' ' ∨ c = '\t'

/-- a comment, without the end of the line -/
def Comment (t : List Char) : Prop := ∃ s, t = '#' :: s ∧ '\n' ∉ s

/-- the rest of a line with nothing on it but perhaps a comment -/
def EndLine (e : List Char) : Prop := ∃ g t, Gap g ∧ (t = [] ∨ Comment t) ∧ e = g ++ t ++ ['\n']

/-- what can stand between the items of an array: blanks, ends of lines and comments -/
inductive Skip : List Char → Prop
  | nil : Skip []
  | blank {g s} : Gap g → Skip s → Skip (g ++ s)
  | line {e s} : EndLine e → Skip s → Skip (e ++ s)

/-- a nonempty run of decimal digits -/
def Digits (ds : List Char) : Prop := ds ≠ [] ∧ ∀ c ∈ ds, '0' ≤ c ∧ c ≤ '9'

/-- the number a run of digits stands for -/
def natVal (ds : List Char) : ℕ := ds.foldl (fun n c => 10 * n + (c.toNat - '0'.toNat)) 0

/-- a sign and the factor it stands for -/
inductive Sign : List Char → ℤ → Prop
  | none : Sign [] 1
  | plus : Sign ['+'] 1
  | minus : Sign ['-'] (-1)

/-- the part after the point and its value -/
inductive Frac : List Char → ℚ → Prop
  | none : Frac [] 0
  | some {ds} : Digits ds → Frac ('.' :: ds) (natVal ds / 10 ^ ds.length)

/-- the exponent and its value -/
inductive Exp : List Char → ℤ → Prop
  | none : Exp [] 0
  | some {c s i ds} : (c = 'e' ∨ c = 'E') → Sign s i → Digits ds → Exp (c :: (s ++ ds)) (i * natVal ds)

/-- a decimal number such as `0.008`, `200e9` or `-1.5E-3` -/
inductive Number : List Char → ℚ → Prop
  | mk {s i ds f x e n} : Sign s i → Digits ds → Frac f x → Exp e n →
      Number (s ++ ds ++ f ++ e) (i * ((natVal ds + x) * 10 ^ n))

/-- text in double quotes: any characters but the quote, the backslash and control characters -/
inductive Quoted : List Char → String → Prop
  | mk {s : List Char} : (∀ c ∈ s, c ≠ '"' ∧ c ≠ '\\' ∧ 32 ≤ c.toNat ∧ c.toNat ≠ 127) →
      Quoted ('"' :: (s ++ ['"'])) (String.ofList s)

/-- keys: ASCII letters, digits, `_` and `-`, or quoted -/
inductive Key : List Char → String → Prop
  | bare {s : List Char} : s ≠ [] → (∀ c ∈ s, c.isAlphanum ∨ c = '_' ∨ c = '-') → Key s (String.ofList s)
  | quoted {s k} : Quoted s k → Key s k

/-- items of an array, between its brackets -/
inductive Items {α : Type} (W : List Char → α → Prop) : List Char → List α → Prop
  | none {s} : Skip s → Items W s []
  | one {s c a t} : Skip s → W c a → Skip t → Items W (s ++ c ++ t) [a]
  | more {s c a t r l} : Skip s → W c a → Skip t → Items W r l → Items W (s ++ c ++ t ++ ',' :: r) (a :: l)

/-- an array -/
def Array {α : Type} (W : List Char → α → Prop) (t : List Char) (l : List α) : Prop :=
  ∃ i, Items W i l ∧ t = '[' :: (i ++ [']'])

variable {K : Type}

/-- values; `rd` says which number of the program a decimal becomes -/
inductive Value (rd : ℚ → K) : List Char → TVal K → Prop
  | str {t s} : Quoted t s → Value rd t (.str s)
  | num {t x} : Number t x → Value rd t (.num (rd x))
  | table {t rows} : Array (Array fun c y => ∃ x, Number c x ∧ rd x = y) t rows → Value rd t (.table rows)

/-- lines after a header: entries, blank lines and comments -/
inductive Entries (rd : ℚ → K) : List Char → List (String × TVal K) → Prop
  | nil : Entries rd [] []
  | blank {e r l} : EndLine e → Entries rd r l → Entries rd (e ++ r) l
  | entry {g k key h h' t v e r l} : Gap g → Key k key → Gap h → Gap h' → Value rd t v → EndLine e → Entries rd r l →
      Entries rd (g ++ k ++ h ++ '=' :: (h' ++ t ++ e) ++ r) ((key, v) :: l)

/-- a text that writes down the tables `f` -/
inductive Writes (rd : ℚ → K) : List Char → MatFile K → Prop
  | nil : Writes rd [] []
  | blank {e r f} : EndLine e → Writes rd r f → Writes rd (e ++ r) f
  | table {g h k key h' e b l r f} : Gap g → Gap h → Key k key → Gap h' → EndLine e → Entries rd b l → Writes rd r f →
      Writes rd (g ++ '[' :: (h ++ k ++ h') ++ ']' :: e ++ b ++ r) ((key, some l) :: f)

/-- the end of the last line may be missing -/
def WritesFile (rd : ℚ → K) (text : List Char) (f : MatFile K) : Prop := Writes rd text f ∨ Writes rd (text ++ ['\n']) f

/-- no table twice, and in no table a key twice -/
def Distinct (f : MatFile K) : Prop :=
  (f.map (·.1)).Nodup ∧ ∀ kv ∈ f, ∀ d, kv.2 = some d → (d.map (·.1)).Nodup

/-- text that can stand in double quotes as it is -/
def Plain (s : String) : Prop := ∀ c ∈ s.toList, c ≠ '"' ∧ c ≠ '\\' ∧ 32 ≤ c.toNat ∧ c.toNat ≠ 127

/-- a number with a finite decimal expansion -/
def Decimal (x : ℚ) : Prop := ∃ (i n : ℤ), x = i * 10 ^ n

/-- values that can be written down -/
def PlainValue (rd : ℚ → K) : TVal K → Prop
  | .str s => Plain s
  | .num y => ∃ x, Decimal x ∧ rd x = y
  | .table rows => ∀ r ∈ rows, ∀ y ∈ r, ∃ x, Decimal x ∧ rd x = y
  | .other => False

/-- tables that can be written down -/
def PlainFile (rd : ℚ → K) (f : MatFile K) : Prop :=
  ∀ kv ∈ f, Plain kv.1 ∧ ∃ d, kv.2 = some d ∧ ∀ e ∈ d, Plain e.1 ∧ PlainValue rd e.2

/-- the same text with the line ends of Windows -/
def crlf (t : List Char) : List Char := t.flatMap fun c => if c = '\n' then ['\r', '\n'] else [c]

/-- an encoding that reads ASCII as ASCII: UTF-8, the Windows and ISO code pages, but not UTF-16 -/
def ReadsAscii (dec : ByteArray → Option (List Char)) : Prop :=
  ∀ t : List Char, (∀ c ∈ t, c.toNat < 128) → dec t.utf8Encode = some t

end BeamDesign.Spec.Toml
