import Mathlib.Data.List.Basic
import Mathlib.Tactic.Common

/-!
# Python string literals

The Python language reference, section 2.4.1: what a string literal on one line denotes.  Left out: octal escapes, `\a`, `\b`, `\f`, `\v`, `\N`,
the end of a line after a backslash and capital hexadecimal digits.
-/

namespace BeamDesign.Spec

/-- the hexadecimal digits -/
def hexAlphabet : List Char := ['0', '1', '2', '3', '4', '5', '6', '7', '8', '9', 'a', 'b', 'c', 'd', 'e', 'f']

/-- the number with the hexadecimal digits `ds`, the first one counting most -/
def hexNumber (ds : List Char) : ℕ := ds.foldl (fun n d => 16 * n + hexAlphabet.idxOf d) 0

/-- what stands between the quotes `q` of a literal, and the characters it denotes -/
inductive Denotes (q : Char) : List Char → List Char → Prop
  | nil : Denotes q [] []
  | plain {c t s} : c ≠ q → c ≠ '\\' → c ≠ '\n' → c ≠ '\r' → Denotes q t s → Denotes q (c :: t) (c :: s)
  | escape {e c t s} : (e, c) ∈ [('\\', '\\'), ('\'', '\''), ('"', '"'), ('n', '\n'), ('t', '\t'), ('r', '\r')] → Denotes q t s →
      Denotes q ('\\' :: e :: t) (c :: s)
  | hex {x n ds c t s} : (x, n) ∈ [('x', 2), ('u', 4), ('U', 8)] → ds.length = n → (∀ d ∈ ds, d ∈ hexAlphabet) → hexNumber ds = c.toNat →
      Denotes q t s → Denotes q ('\\' :: x :: (ds ++ t)) (c :: s)

/-- `text` is a literal of the string `s` -/
def Literal (text s : String) : Prop :=
  ∃ q body, (q = '\'' ∨ q = '"') ∧ text.toList = q :: (body ++ [q]) ∧ Denotes q body s.toList

end BeamDesign.Spec
