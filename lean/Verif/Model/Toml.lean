import Verif.Model.Material
import Mathlib.Data.Rat.Defs
import Mathlib.Algebra.Order.Field.Rat
import Mathlib.Algebra.Field.Basic

/-!
# Model of `toml.load` (material.py 141, as4100.py 444) for the part of TOML the library's files use

`toml` is a third party package, not part of the repository.  Modelled from the TOML language: comments, table headers, bare and
quoted keys, strings without escapes, decimal numbers, booleans, and arrays of arrays of numbers over several lines.  Everything
else (dotted keys, escapes, literal strings, inline tables, dates, other arrays) ends in `PyErr.outsideModel`.  A key or a table
given twice raises `TomlDecodeError`, which is a `ValueError`.
-/

namespace BeamDesign.Toml

/-- a token of a TOML text -/
inductive Tok
  | lb | rb | comma | eq | nl
  | str (s : List Char)
  | word (s : List Char)
  deriving DecidableEq, Repr

/-- characters of bare keys -/
def bareChar (c : Char) : Bool := c.isAlphanum || c == '_' || c == '-'

/-- characters of bare keys and of numbers -/
def wordChar (c : Char) : Bool := bareChar c || c == '+' || c == '.'

/-- characters a basic string can contain: no quote, no escape, no control character -/
def strChar (c : Char) : Bool := c != '"' && c != '\\' && decide (32 ≤ c.toNat) && c.toNat != 127

/-- what the lexer is in the middle of; the characters read so far are in reverse -/
inductive Mode
  | plain
  | word (rev : List Char)
  | str (rev : List Char)
  | comment
  deriving DecidableEq, Repr

/-- a character outside words, strings and comments -/
def lexPlain (c : Char) : Option (List Tok × Mode) :=
  if c = ' ' ∨ c = '\t' then some ([], .plain)
  else if c = '\n' then some ([.nl], .plain)
  else if c = '[' then some ([.lb], .plain)
  else if c = ']' then some ([.rb], .plain)
  else if c = ',' then some ([.comma], .plain)
  else if c = '=' then some ([.eq], .plain)
  else if c = '#' then some ([], .comment)
  else if c = '"' then some ([], .str [])
  else if wordChar c then some ([], .word [c])
  else none

/-- one character: the tokens completed by it, and what the lexer is in now -/
def lexStep : Mode → Char → Option (List Tok × Mode)
  | .plain, c => lexPlain c
  | .word w, c =>
    if wordChar c then some ([], .word (c :: w))
    else do
      let (ts, m) ← lexPlain c
      return (.word w.reverse :: ts, m)
  | .str s, c =>
    if c = '"' then some ([.str s.reverse], .plain) else if strChar c then some ([], .str (c :: s)) else none
  | .comment, c => if c = '\n' then some ([.nl], .plain) else some ([], .comment)

/-- the tokens of a text -/
def lex : Mode → List Char → Option (List Tok)
  | .plain, [] => some []
  | .word w, [] => some [.word w.reverse]
  | .str _, [] => none
  | .comment, [] => some []
  | m, c :: cs => do
    let (ts, m') ← lexStep m c
    let r ← lex m' cs
    return ts ++ r

/-- the value of a list of decimal digits; `none` if it is empty or has another character in it -/
def natOf (ds : List Char) : Option ℕ :=
  if ds ≠ [] ∧ ds.all Char.isDigit then some (ds.foldl (fun n c => 10 * n + (c.toNat - 48)) 0) else none

/-- an optional sign and the rest -/
def signOf : List Char → Bool × List Char
  | '-' :: w => (true, w)
  | '+' :: w => (false, w)
  | w => (false, w)

/-- an exponent: nothing, or `e` and an integer -/
def expOf (w : List Char) : Option ℤ :=
  if w = [] then some 0
  else do
    let (neg, ds) := signOf w.tail
    let n ← natOf ds
    return if neg then -(n : ℤ) else n

/-- the digits of a fraction: nothing, or a point and digits -/
def fracOf (w : List Char) : Option ℕ := if w = [] then some 0 else natOf w.tail

/-- the exact value of a decimal number: sign, digits, fraction, exponent -/
def num (w : List Char) : Option ℚ := do
  let (neg, u) := signOf w
  let isE := fun c => c == 'e' || c == 'E'
  let mant := u.takeWhile fun c => !isE c
  let ex := u.dropWhile fun c => !isE c
  let e ← expOf ex
  let ip := mant.takeWhile fun c => c != '.'
  let fp := mant.dropWhile fun c => c != '.'
  let i ← natOf ip
  let f ← fracOf fp
  let x : ℚ := (i + f / 10 ^ (fp.length - 1)) * 10 ^ e
  return if neg then -x else x

/-- a key: a bare word or a string -/
def keyOf : Tok → Py String
  | .word w => if w.all bareChar then .ok (String.ofList w) else .error .outsideModel
  | .str s => .ok (String.ofList s)
  | _ => .error .outsideModel

section
variable {K : Type}

/-- a new table: its name must not be in use -/
def addTable (f : MatFile K) (k : String) : Py (MatFile K) :=
  if f.any fun kv => kv.1 == k then .error .valueError else .ok (f ++ [(k, some [])])

/-- a new entry of the last table, or of the top level if there is no table yet -/
def addEntry (f : MatFile K) (k : String) (v : TVal K) : Py (MatFile K) :=
  match f.getLast? with
  | some (t, some es) =>
    if es.any fun kv => kv.1 == k then .error .valueError else .ok (f.dropLast ++ [(t, some (es ++ [(k, v)]))])
  | _ => if f.any fun kv => kv.1 == k then .error .valueError else .ok (f ++ [(k, none)])

/-- what the parser is in the middle of -/
inductive PMode (K : Type)
  | line
  | header
  | closing (k : String)
  | ending
  | eq (k : String)
  | value (k : String)
  /-- in the outer array; `sep`: a comma must come before the next row -/
  | rows (k : String) (rs : List (List K)) (sep : Bool)
  | row (k : String) (rs : List (List K)) (r : List K) (sep : Bool)

/-- one token; `rd` turns the decimal into a number of the program (`float(..)`) -/
def step (rd : ℚ → K) : PMode K × MatFile K → Tok → Py (PMode K × MatFile K)
  | (.line, f), .nl => .ok (.line, f)
  | (.line, f), .lb => .ok (.header, f)
  | (.line, f), t => do return (.eq (← keyOf t), f)
  | (.header, f), t => do return (.closing (← keyOf t), f)
  | (.closing k, f), .rb => do return (.ending, ← addTable f k)
  | (.ending, f), .nl => .ok (.line, f)
  | (.eq k, f), .eq => .ok (.value k, f)
  | (.value k, f), .lb => .ok (.rows k [] false, f)
  | (.value k, f), .str s => do return (.ending, ← addEntry f k (.str (String.ofList s)))
  | (.value k, f), .word w =>
    if w = ['t', 'r', 'u', 'e'] ∨ w = ['f', 'a', 'l', 's', 'e'] then do return (.ending, ← addEntry f k .other)
    else
      match num w with
      | some x => do return (.ending, ← addEntry f k (.num (rd x)))
      | none => .error .outsideModel
  | (.rows k rs s, f), .nl => .ok (.rows k rs s, f)
  | (.rows k rs true, f), .comma => .ok (.rows k rs false, f)
  | (.rows k rs false, f), .lb => .ok (.row k rs [] false, f)
  | (.rows k rs _, f), .rb => do return (.ending, ← addEntry f k (.table rs))
  | (.row k rs r s, f), .nl => .ok (.row k rs r s, f)
  | (.row k rs r true, f), .comma => .ok (.row k rs r false, f)
  | (.row k rs r false, f), .word w =>
    match num w with
    | some x => .ok (.row k rs (r ++ [rd x]) true, f)
    | none => .error .outsideModel
  | (.row k rs r _, f), .rb => .ok (.rows k (rs ++ [r]) true, f)
  | _, _ => .error .outsideModel

/-- `toml.load(f=f)` on the text of the file -/
def load (rd : ℚ → K) (text : List Char) : Py (MatFile K) :=
  match lex .plain text with
  | none => .error .outsideModel
  | some ts => do
    match ← ts.foldlM (step rd) (.line, []) with
    | (.line, f) => .ok f
    | (.ending, f) => .ok f
    | _ => .error .outsideModel

end

end BeamDesign.Toml
