import Verif.Spec.Repr
import Std.Data.String.ToNat
import Mathlib.Tactic.IntervalCases

/-!
# Texts can be taken apart again
-/

namespace BeamDesign

/-- two texts without a character, each followed by it -/
theorem split_at {p : Char → Prop} {a a' : List Char} {c c' : Char} {r r' : List Char} (ha : ∀ x ∈ a, p x) (ha' : ∀ x ∈ a', p x)
    (hc : ¬ p c) (hc' : ¬ p c') (h : a ++ c :: r = a' ++ c' :: r') : a = a' ∧ c = c' ∧ r = r' := by
  induction a generalizing a' with
  | nil =>
    cases a' with
    | nil => simpa using h
    | cons y a' =>
      injection h with h1 h2
      exact absurd (h1 ▸ ha' y List.mem_cons_self) hc
  | cons x a ih =>
    cases a' with
    | nil =>
      injection h with h1 h2
      exact absurd (h1 ▸ ha x List.mem_cons_self) hc'
    | cons y a' =>
      injection h with h1 h2
      obtain ⟨e1, e2, e3⟩ := ih (fun z hz => ha z (List.mem_cons_of_mem _ hz)) (fun z hz => ha' z (List.mem_cons_of_mem _ hz)) h2
      exact ⟨by rw [h1, e1], e2, e3⟩

theorem digits_plain (n : ℕ) : ∀ c ∈ (toString n).toList, c.isDigit = true := by
  intro c hc
  apply Nat.isDigit_of_mem_toDigits (b := 10) (n := n) (by decide) (by decide)
  simpa [toString, Nat.repr] using hc

theorem hexChar_inj : ∀ m < 16, ∀ n < 16, hexChar m = hexChar n → m = n := by decide

theorem hexDigits_length (k n : ℕ) : (hexDigits k n).length = k := by
  induction k generalizing n with
  | zero => rfl
  | succ k ih => simp [hexDigits, ih]

theorem hexDigits_inj (k : ℕ) {m n : ℕ} (hm : m < 16 ^ k) (hn : n < 16 ^ k) (h : hexDigits k m = hexDigits k n) : m = n := by
  induction k generalizing m n with
  | zero => simp at hm hn; omega
  | succ k ih =>
    rw [hexDigits, hexDigits] at h
    obtain ⟨h1, h2⟩ := List.append_inj' h (by simp)
    have e1 := ih (Nat.div_lt_of_lt_mul (by rw [pow_succ] at hm; linarith)) (Nat.div_lt_of_lt_mul (by rw [pow_succ] at hn; linarith)) h1
    have e2 := hexChar_inj _ (Nat.mod_lt _ (by norm_num)) _ (Nat.mod_lt _ (by norm_num)) (by simpa using h2)
    omega

/-- the forms a character is printed in -/
inductive Form (q c : Char) : List Char → Prop
  | plain (h1 : c ≠ q) (h2 : c ≠ '\\') : Form q c [c]
  | quote (h : c = q ∨ c = '\\') : Form q c ['\\', c]
  | tab (h : c = '\t') : Form q c ['\\', 't']
  | newline (h : c = '\n') : Form q c ['\\', 'n']
  | ret (h : c = '\r') : Form q c ['\\', 'r']
  | hex2 (h : c.toNat < 256) : Form q c ('\\' :: 'x' :: hexDigits 2 c.toNat)
  | hex4 (h : c.toNat < 65536) : Form q c ('\\' :: 'u' :: hexDigits 4 c.toNat)
  | hex8 (h : c.toNat < 4294967296) : Form q c ('\\' :: 'U' :: hexDigits 8 c.toNat)

theorem reprChar_form (pr : Char → Bool) (q c : Char) : Form q c (reprChar pr q c) := by
  have hb : c.toNat < 4294967296 := c.val.toNat_lt
  unfold reprChar
  split_ifs with h1 h2 h3 h4 h5 h6 h7 h8 h9
  · exact .quote h1
  · exact .tab h2
  · exact .newline h3
  · exact .ret h4
  · exact .hex2 (by omega)
  · exact .plain (fun h => h1 (Or.inl h)) (fun h => h1 (Or.inr h))
  · exact .plain (fun h => h1 (Or.inl h)) (fun h => h1 (Or.inr h))
  · exact .hex2 h8
  · exact .hex4 h9
  · exact .hex8 hb

theorem toNat_inj {c c' : Char} (h : c.toNat = c'.toNat) : c = c' := by
  apply Char.ext
  exact UInt32.toNat_inj.1 h

/-- a quote is one of two characters -/
def IsQuote (q : Char) : Prop := q = '\'' ∨ q = '"'

/-- printed characters can be told apart, whatever follows -/
theorem form_inj {q c c' : Char} {a a' r r' : List Char} (hq : IsQuote q) (h : Form q c a) (h' : Form q c' a')
    (e : a ++ r = a' ++ r') : c = c' ∧ r = r' := by
  have nq : ∀ d : Char, (d = q ∨ d = '\\') → d ≠ 't' ∧ d ≠ 'n' ∧ d ≠ 'r' ∧ d ≠ 'x' ∧ d ≠ 'u' ∧ d ≠ 'U' := by
    rintro d (rfl | rfl)
    · rcases hq with rfl | rfl <;> decide
    · decide
  have hex : ∀ k, ∀ x y : Char, ∀ r r' : List Char, x.toNat < 16 ^ k → y.toNat < 16 ^ k →
      hexDigits k x.toNat ++ r = hexDigits k y.toNat ++ r' → x = y ∧ r = r' := by
    intro k x y r r' hx hy e
    obtain ⟨e1, e2⟩ := List.append_inj e (by simp [hexDigits_length])
    exact ⟨toNat_inj (hexDigits_inj k hx hy e1), e2⟩
  cases h <;> cases h' <;> simp only [List.cons_append, List.nil_append, List.cons.injEq, true_and] at e
  all_goals first
    | exact e
    | exact absurd e.1 (by decide)
    | exact absurd e.1 (by assumption)
    | exact absurd e.1.symm (by assumption)
    | exact absurd e.1 (by have := nq _ (by assumption); tauto)
    | exact ⟨Eq.trans (by assumption) (Eq.symm (by assumption)), e⟩
    | exact hex 2 _ _ _ _ (by assumption) (by assumption) e
    | exact hex 4 _ _ _ _ (by assumption) (by assumption) e
    | exact hex 8 _ _ _ _ (by assumption) (by assumption) e

theorem form_ne {q c : Char} {a r r' : List Char} (hq : IsQuote q) (h : Form q c a) : a ++ r ≠ q :: r' := by
  intro e
  have : q ≠ '\\' := by rcases hq with rfl | rfl <;> decide
  cases h <;> simp only [List.cons_append, List.nil_append, List.cons.injEq] at e
  · exact absurd e.1 (by assumption)
  all_goals exact this e.1.symm

theorem body_inj (pr : Char → Bool) {q : Char} (hq : IsQuote q) {s s' r r' : List Char}
    (e : s.flatMap (reprChar pr q) ++ q :: r = s'.flatMap (reprChar pr q) ++ q :: r') : s = s' ∧ r = r' := by
  induction s generalizing s' with
  | nil =>
    cases s' with
    | nil => simpa using e
    | cons c s' =>
      simp only [List.flatMap_nil, List.nil_append, List.flatMap_cons, List.append_assoc] at e
      exact absurd e.symm (form_ne hq (reprChar_form pr q c))
  | cons d s ih =>
    cases s' with
    | nil =>
      simp only [List.flatMap_nil, List.nil_append, List.flatMap_cons, List.append_assoc] at e
      exact absurd e (form_ne hq (reprChar_form pr q d))
    | cons c s' =>
      simp only [List.flatMap_cons, List.append_assoc] at e
      obtain ⟨e1, e2⟩ := form_inj hq (reprChar_form pr q d) (reprChar_form pr q c) e
      obtain ⟨e3, e4⟩ := ih e2
      exact ⟨by rw [e1, e3], e4⟩

theorem reprQuote_isQuote (s : List Char) : IsQuote (reprQuote s) := by
  unfold reprQuote IsQuote
  split_ifs <;> simp

theorem reprStr_inj (pr : Char → Bool) {s s' : String} {r r' : List Char} (e : reprStr pr s ++ r = reprStr pr s' ++ r') :
    s = s' ∧ r = r' := by
  unfold reprStr at e
  simp only [List.cons_append, List.append_assoc, List.cons.injEq, List.nil_append] at e
  obtain ⟨e1, e2⟩ := e
  rw [← e1] at e2
  obtain ⟨e3, e4⟩ := body_inj pr (reprQuote_isQuote _) e2
  exact ⟨String.toList_inj.1 e3, e4⟩

end BeamDesign
