import Verif.Spec.Literal
import Verif.Lemmas.Repr

/-!
# C145: printed strings can be read back
-/

namespace BeamDesign

open Spec

variable {K : Type}

theorem hexChar_mem {n : ℕ} (h : n < 16) : hexChar n ∈ hexAlphabet ∧ hexAlphabet.idxOf (hexChar n) = n := by
  interval_cases n <;> decide

theorem hexDigits_mem (k n : ℕ) : ∀ d ∈ hexDigits k n, d ∈ hexAlphabet := by
  induction k generalizing n with
  | zero => intro d hd; cases hd
  | succ k ih =>
    intro d hd
    rcases List.mem_append.1 hd with hd | hd
    · exact ih _ d hd
    · rw [List.mem_singleton.1 hd]; exact (hexChar_mem (Nat.mod_lt _ (by norm_num))).1

theorem hexNumber_hexDigits (k n : ℕ) (h : n < 16 ^ k) : hexNumber (hexDigits k n) = n := by
  induction k generalizing n with
  | zero => simp only [pow_zero, Nat.lt_one_iff] at h; subst h; rfl
  | succ k ih =>
    have h1 : hexNumber (hexDigits k (n / 16)) = n / 16 := ih _ (by rw [pow_succ] at h; omega)
    have h2 := (hexChar_mem (Nat.mod_lt n (show 16 > 0 by norm_num))).2
    have h3 : hexNumber (hexDigits (k + 1) n) = 16 * hexNumber (hexDigits k (n / 16)) + hexAlphabet.idxOf (hexChar (n % 16)) := by
      simp [hexNumber, hexDigits, List.foldl_append]
    rw [h3, h1, h2]
    omega

/-- The literal of one character, followed by more. -/
theorem reprChar_denotes (printable : Char → Bool) {q : Char} (hq : q = '\'' ∨ q = '"') (c : Char) {t s : List Char} (h : Denotes q t s) :
    Denotes q (reprChar printable q c ++ t) (c :: s) := by
  unfold reprChar
  split_ifs with h1 h2 h3 h4 h5 h6 h7 h8 h9
  · refine .escape ?_ h
    rcases h1 with rfl | rfl
    · rcases hq with rfl | rfl <;> simp
    · simp
  · exact .escape (by simp [h2]) h
  · exact .escape (by simp [h3]) h
  · exact .escape (by simp [h4]) h
  · exact .hex (n := 2) (by simp) (hexDigits_length _ _) (hexDigits_mem _ _) (hexNumber_hexDigits _ _ (by norm_num; omega)) h
  · exact .plain (fun x => h1 (Or.inl x)) (fun x => h1 (Or.inr x)) h3 h4 h
  · exact .plain (fun x => h1 (Or.inl x)) (fun x => h1 (Or.inr x)) h3 h4 h
  · exact .hex (n := 2) (by simp) (hexDigits_length _ _) (hexDigits_mem _ _) (hexNumber_hexDigits _ _ (by norm_num; omega)) h
  · exact .hex (n := 4) (by simp) (hexDigits_length _ _) (hexDigits_mem _ _) (hexNumber_hexDigits _ _ (by norm_num; omega)) h
  · refine .hex (n := 8) (by simp) (hexDigits_length _ _) (hexDigits_mem _ _) (hexNumber_hexDigits _ _ ?_) h
    have h10 : c.toNat < 1114112 := by
      rcases c.valid with hv | ⟨-, hv⟩ <;> simp only [Char.toNat, UInt32.toNat] at * <;> omega
    norm_num; omega

/-- C145: the text printed for a string is a Python literal of this string, whatever characters it has, whichever of them count as
printable. -/
theorem C145_string (printable : Char → Bool) (s : String) : Literal (String.ofList (reprStr printable s)) s := by
  have hq : reprQuote s.toList = '\'' ∨ reprQuote s.toList = '"' := by unfold reprQuote; split_ifs <;> simp
  refine ⟨reprQuote s.toList, _, hq, by rw [String.toList_ofList]; rfl, ?_⟩
  generalize reprQuote s.toList = q at *
  induction s.toList with
  | nil => exact .nil
  | cons c l ih => exact reprChar_denotes printable hq c ih

/-- C145: what a literal denotes is unique, so the string can be recovered from the text. -/
theorem C145_unique (text s s' : String) (h : Literal text s) (h' : Literal text s') : s = s' := by
  obtain ⟨q, body, hq, h1, h2⟩ := h
  obtain ⟨q', body', -, h1', h2'⟩ := h'
  rw [h1] at h1'
  simp only [List.cons.injEq] at h1'
  obtain ⟨rfl, h1'⟩ := h1'
  obtain rfl := List.append_cancel_right h1'
  rw [← String.toList_inj]
  clear h1 h1'
  revert h2'
  generalize s'.toList = l'
  generalize s.toList = l at h2
  induction h2 generalizing l' with
  | nil => intro h; cases h; rfl
  | plain a b c d _ ih =>
    intro h
    cases h with
    | plain _ _ _ _ h => rw [ih _ h]
    | escape => exact absurd rfl b
    | hex => exact absurd rfl b
  | escape he _ ih =>
    intro h
    cases h with
    | plain _ hb => exact absurd rfl hb
    | escape he' h =>
      rw [ih _ h]
      congr 1
      simp only [List.mem_cons, Prod.mk.injEq, List.not_mem_nil, or_false] at he he'
      rcases he with ⟨rfl, rfl⟩ | ⟨rfl, rfl⟩ | ⟨rfl, rfl⟩ | ⟨rfl, rfl⟩ | ⟨rfl, rfl⟩ | ⟨rfl, rfl⟩ <;> simp_all
    | hex hx =>
      exfalso
      simp only [List.mem_cons, Prod.mk.injEq, List.not_mem_nil, or_false] at he hx
      rcases he with ⟨rfl, rfl⟩ | ⟨rfl, rfl⟩ | ⟨rfl, rfl⟩ | ⟨rfl, rfl⟩ | ⟨rfl, rfl⟩ | ⟨rfl, rfl⟩ <;> simp_all
  | @hex x n ds c t s hx hn hd hv _ ih =>
    intro h
    generalize hl : '\\' :: x :: (ds ++ t) = l at h
    cases h with
    | nil => cases hl
    | plain _ hb => cases hl; exact absurd rfl hb
    | escape he h =>
      exfalso
      cases hl
      simp only [List.mem_cons, Prod.mk.injEq, List.not_mem_nil, or_false] at he hx
      rcases hx with ⟨rfl, rfl⟩ | ⟨rfl, rfl⟩ | ⟨rfl, rfl⟩ <;> simp_all
    | @hex x' n' ds' c' t' s' hx' hn' hd' hv' h =>
      simp only [List.cons.injEq, true_and] at hl
      obtain ⟨rfl, hl⟩ := hl
      have hnn : n = n' := by
        simp only [List.mem_cons, Prod.mk.injEq, List.not_mem_nil, or_false] at hx hx'
        rcases hx with ⟨rfl, rfl⟩ | ⟨rfl, rfl⟩ | ⟨rfl, rfl⟩ <;> simp_all
      obtain ⟨rfl, rfl⟩ := List.append_inj hl (by omega)
      rw [ih _ h]
      congr 1
      rw [hv] at hv'
      exact Char.toNat_inj.1 hv'

/-- C145: the quotes are single ones unless the string has single quotes and no double ones. -/
theorem C145_quotes (printable : Char → Bool) (s : String) :
    (reprStr printable s).head? = some (if '\'' ∈ s.toList ∧ '"' ∉ s.toList then '"' else '\'') := rfl

/-- C145: the text of a symmetry is that of its list of axes: their texts in order, separated by commas; a string's text is a literal of
it. -/
theorem C145_symmetry (t : Text K) (printable : Char → Bool) (s : Symmetry) :
    (s.axes = none → s.repr t printable = "Symmetry(None)") ∧
    ∀ l, s.axes = some l → ∃ items : List String, s.repr t printable = "Symmetry([" ++ String.intercalate ", " items ++ "])" ∧
      List.Forall₂ (fun item a => match a with | .str x => Literal item x | .angle x => item = t.real x) items l := by
  refine ⟨fun h => by simp only [Symmetry.repr, h]; rfl, fun l h => ?_⟩
  refine ⟨l.map fun a => String.ofList (a.repr t printable), ?_, ?_⟩
  · have hrest : ∀ (x : String) (l : List Axis), x ++ String.ofList (reprRest t printable l) =
        String.intercalate ", " (x :: l.map fun a => String.ofList (a.repr t printable)) ++ "]" := by
      intro x l
      induction l generalizing x with
      | nil => rw [List.map_nil, String.intercalate_singleton]; rfl
      | cons a l ih =>
        rw [List.map_cons, String.intercalate_cons_cons, String.append_assoc, ← ih]
        apply String.toList_inj.1
        have c : ", ".toList = [',', ' '] := by decide
        simp only [String.toList_append, String.toList_ofList, reprRest, c, List.append_assoc, List.cons_append, List.nil_append]
    simp only [Symmetry.repr, h]
    apply String.toList_inj.1
    have c1 : "Symmetry([".toList = "Symmetry(".toList ++ ['['] := by decide
    have c2 : "])".toList = "]".toList ++ ")".toList := by decide
    cases l with
    | nil =>
      have c3 : "]".toList = [']'] := by decide
      simp only [reprList, List.map_nil, String.intercalate_nil, String.toList_append, c1, c2, c3, String.toList_ofList, List.append_assoc]
      rfl
    | cons a l =>
      have := congrArg String.toList (hrest (String.ofList (a.repr t printable)) l)
      simp only [String.toList_append, String.toList_ofList] at this
      simp only [reprList, List.map_cons, String.toList_append, c1, c2, String.toList_ofList, List.append_assoc]
      rw [← List.append_assoc (String.toList (String.intercalate _ _)), ← this]
      simp only [List.append_assoc, List.cons_append, List.nil_append]
  · rw [List.forall₂_map_left_iff]
    refine List.forall₂_same.2 fun a _ => ?_
    cases a with
    | str x => exact C145_string printable x
    | angle x => exact String.ofList_toList

/-- C145: where there is no material, section, length or load, the text says None; a circular section shows its radius and material and an
element its section, with the number of its load cases. -/
theorem C145_none (t : Text K) (r : K) (m : Option (Material K)) (loads : List (ℤ × LoadCase K)) (l : Option (Num K))
    (s : Option (Sect K)) (a : Option (Table K)) :
    (Sect.circle r m).repr t = "Circle(radius=" ++ t.scalar r ++ ", material=" ++ m.elim "None" (·.repr t) ++ ")" ∧
    Element.repr t ⟨loads, l, s⟩ = "Element(length=" ++ l.elim "None" t.num ++ ", section=" ++ s.elim "None" (·.repr t) ++
      ", material=" ++ s.elim "None" (·.repr t) ++ ", no. load cases=" ++ toString loads.length ++ ")" ∧
    LoadCase.repr t ⟨a⟩ = "LoadCase(loads=" ++ a.elim "None" t.array ++ ")" := by
  refine ⟨?_, ?_, ?_⟩
  · apply String.toList_inj.1
    cases m <;> simp [Sect.repr, Material.reprOpt]
  · apply String.toList_inj.1
    cases l <;> cases s <;> simp [Element.repr, Sect.reprOpt, Text.length, Element.noLoadCases, Element.loadCases]
  · apply String.toList_inj.1
    cases a <;> simp [LoadCase.repr]

/-- C145, concretely: a string with both kinds of quotes, a backslash, a line end, a control character and an unprintable one. -/
example : String.ofList (reprStr (fun _ => false) "a'\"\\\n\x01é") = "'a\\'\"\\\\\\n\\x01\\xe9'" ∧
    Literal "'a\\'\"\\\\\\n\\x01\\xe9'" "a'\"\\\n\x01é" := by
  have h : String.ofList (reprStr (fun _ => false) "a'\"\\\n\x01é") = "'a\\'\"\\\\\\n\\x01\\xe9'" := by decide +kernel
  exact ⟨h, h ▸ C145_string _ _⟩

end BeamDesign
