import Verif.Model.Toml
import Verif.Spec.Toml
import Mathlib.Tactic.Ring
import Mathlib.Tactic.NormNum

/-!
# The parser of `Model/Toml` reads the grammar of `Spec/Toml`
-/

namespace BeamDesign.Toml

open Spec.Toml

/-- whatever follows, as long as it satisfies `P`, the text `cs` has the tokens `ts` -/
def Lx (P : List Char → Prop) (cs : List Char) (ts : List Tok) : Prop :=
  ∀ rest, P rest → lex .plain (cs ++ rest) = (lex .plain rest).map (ts ++ ·)

/-- the text does not go on with a character of a word -/
def Stops (r : List Char) : Prop := ∀ c r', r = c :: r' → wordChar c = false

/-- any continuation -/
def Any (_ : List Char) : Prop := True

theorem Lx.weaken {cs ts} {P : List Char → Prop} (h : Lx Any cs ts) : Lx P cs ts := fun r _ => h r trivial

theorem Lx.append {a b ta tb} {P Q : List Char → Prop} (ha : Lx P a ta) (hb : Lx Q b tb) (h : ∀ r, Q r → P (b ++ r)) :
    Lx Q (a ++ b) (ta ++ tb) := by
  intro r hr
  rw [List.append_assoc, ha _ (h r hr), hb r hr]
  cases lex .plain r <;> simp

theorem Lx.seq {a b ta tb} {Q : List Char → Prop} (ha : Lx Any a ta) (hb : Lx Q b tb) : Lx Q (a ++ b) (ta ++ tb) :=
  ha.append hb fun _ _ => trivial

theorem Lx.nil {P : List Char → Prop} : Lx P [] [] := by
  intro r _; cases h : lex .plain r <;> simp [h]

theorem Stops.nil : Stops [] := by intro c r h; simp at h

theorem Stops.cons {c r} (h : wordChar c = false) : Stops (c :: r) := by
  intro c' r' h'
  injection h' with h1 h2
  rw [← h1]; exact h

/-- a single character that is a token or a blank -/
theorem lx_char {c : Char} {ts : List Tok} (h : lexPlain c = some (ts, .plain)) : Lx Any [c] ts := by
  intro r _
  simp only [List.cons_append, List.nil_append, lex, lexStep, h, Option.bind_eq_bind, Option.bind_some]
  cases lex .plain r <;> rfl

theorem Lx.cons {c : Char} {cs ts tc} {P : List Char → Prop} (h : lexPlain c = some (tc, .plain)) (hs : Lx P cs ts) :
    Lx P (c :: cs) (tc ++ ts) := (lx_char h).seq hs

theorem lx_gap {g : List Char} (h : Gap g) : Lx Any g [] := by
  induction g with
  | nil => exact Lx.nil
  | cons c g ih =>
    have := ih fun c hc => h c (List.mem_cons_of_mem _ hc)
    refine Lx.cons (tc := []) ?_ this
    rcases h c List.mem_cons_self with rfl | rfl <;> decide

theorem lex_comment {s rest : List Char} (h : '\n' ∉ s) :
    lex .comment (s ++ '\n' :: rest) = (lex .plain rest).map (Tok.nl :: ·) := by
  induction s with
  | nil =>
    simp only [List.nil_append, lex, lexStep, if_true, Option.bind_eq_bind, Option.bind_some]
    cases lex .plain rest <;> rfl
  | cons c s ih =>
    simp only [List.mem_cons, not_or] at h
    simp only [List.cons_append, lex, lexStep, if_neg (Ne.symm h.1)]
    have := ih h.2
    simp only [Option.bind_eq_bind, Option.bind_some, this]
    cases lex .plain rest <;> rfl

theorem lx_endLine {e : List Char} (h : EndLine e) : Lx Any e [.nl] := by
  obtain ⟨g, t, hg, ht, rfl⟩ := h
  rw [List.append_assoc]
  refine (lx_gap hg).seq (ta := []) ?_
  rcases ht with rfl | ⟨s, rfl, hs⟩
  · exact lx_char (by decide)
  · intro r _
    have : '#' :: s ++ ['\n'] ++ r = '#' :: (s ++ '\n' :: r) := by simp
    rw [this]
    have e1 : lexPlain '#' = some ([], .comment) := by decide
    simp only [lex, lexStep, e1, Option.bind_eq_bind, Option.bind_some, lex_comment hs]
    cases lex .plain r <;> rfl

theorem stops_gap {g r : List Char} (h : Gap g) (hr : Stops r) : Stops (g ++ r) := by
  cases g with
  | nil => exact hr
  | cons c g =>
    refine Stops.cons ?_
    rcases h c List.mem_cons_self with rfl | rfl <;> decide

theorem stops_endLine {e r : List Char} (h : EndLine e) : Stops (e ++ r) := by
  obtain ⟨g, t, hg, ht, rfl⟩ := h
  rw [List.append_assoc, List.append_assoc]
  refine stops_gap hg ?_
  rcases ht with rfl | ⟨s, rfl, hs⟩ <;> exact Stops.cons (by decide)

theorem lx_skip {s : List Char} (h : Skip s) : ∃ n, Lx Any s (List.replicate n .nl) := by
  induction h with
  | nil => exact ⟨0, Lx.nil⟩
  | blank hg _ ih => obtain ⟨n, ih⟩ := ih; exact ⟨n, (lx_gap hg).seq ih⟩
  | line he _ ih => obtain ⟨n, ih⟩ := ih; exact ⟨n + 1, (lx_endLine he).seq ih⟩

theorem stops_skip {s r : List Char} (h : Skip s) (hr : Stops r) : Stops (s ++ r) := by
  induction h with
  | nil => exact hr
  | blank hg _ ih => rw [List.append_assoc]; exact stops_gap hg ih
  | line he _ ih => rw [List.append_assoc]; exact stops_endLine he

theorem lex_word {cs rest w : List Char} (h : ∀ c ∈ cs, wordChar c = true) (hr : Stops rest) :
    lex (.word w) (cs ++ rest) = (lex .plain rest).map (Tok.word (w.reverse ++ cs) :: ·) := by
  induction cs generalizing w with
  | nil =>
    cases rest with
    | nil => simp [lex]
    | cons c r =>
      have hc := hr c r rfl
      simp only [List.nil_append, lex, lexStep, hc]
      cases lexPlain c with
      | none => rfl
      | some p =>
        obtain ⟨ts, m⟩ := p
        cases h : lex m r <;> simp [h]
  | cons c cs ih =>
    have hc := h c List.mem_cons_self
    simp only [List.cons_append, lex, lexStep, hc, if_true, Option.bind_eq_bind, Option.bind_some]
    rw [ih fun c hc => h c (List.mem_cons_of_mem _ hc)]
    cases lex .plain rest <;> simp

theorem wordChar_plain {c : Char} (h : wordChar c = true) : lexPlain c = some ([], .word [c]) := by
  have n : ∀ d, wordChar d = false → c ≠ d := by rintro d hd rfl; rw [h] at hd; cases hd
  simp only [lexPlain]
  rw [if_neg, if_neg (n _ (by decide)), if_neg (n _ (by decide)), if_neg (n _ (by decide)), if_neg (n _ (by decide)),
    if_neg (n _ (by decide)), if_neg (n _ (by decide)), if_neg (n _ (by decide)), if_pos h]
  rintro (hc | hc)
  · exact n _ (by decide) hc
  · exact n _ (by decide) hc

theorem lx_word {w : List Char} (h : ∀ c ∈ w, wordChar c = true) (hw : w ≠ []) : Lx Stops w [.word w] := by
  intro r hr
  cases w with
  | nil => exact absurd rfl hw
  | cons c cs =>
    simp only [List.cons_append, lex, lexStep, wordChar_plain (h c List.mem_cons_self), Option.bind_eq_bind,
      Option.bind_some, lex_word (fun c hc => h c (List.mem_cons_of_mem _ hc)) hr]
    cases lex .plain r <;> simp

theorem lex_str {s rest w : List Char} (h : ∀ c ∈ s, c ≠ '"' ∧ c ≠ '\\' ∧ 32 ≤ c.toNat ∧ c.toNat ≠ 127) :
    lex (.str w) (s ++ '"' :: rest) = (lex .plain rest).map (Tok.str (w.reverse ++ s) :: ·) := by
  induction s generalizing w with
  | nil =>
    simp only [List.nil_append, lex, lexStep, if_true, Option.bind_eq_bind, Option.bind_some]
    cases lex .plain rest <;> simp
  | cons c s ih =>
    obtain ⟨h1, h2, h3, h4⟩ := h c List.mem_cons_self
    have hc : strChar c = true := by simp [strChar, h1, h2, h3, h4]
    simp only [List.cons_append, lex, lexStep, hc, if_true, if_neg h1, Option.bind_eq_bind, Option.bind_some]
    rw [ih fun c hc => h c (List.mem_cons_of_mem _ hc)]
    cases lex .plain rest <;> simp

theorem lx_quoted {t s} (h : Quoted t s) : ∃ l, Lx Any t [.str l] ∧ String.ofList l = s := by
  obtain ⟨hs⟩ := h
  rename_i l
  refine ⟨l, ?_, rfl⟩
  intro r _
  have : '"' :: (l ++ ['"']) ++ r = '"' :: (l ++ '"' :: r) := by simp
  have e1 : lexPlain '"' = some ([], .str []) := by decide
  rw [this]
  simp only [lex, lexStep, e1, Option.bind_eq_bind, Option.bind_some, lex_str hs]
  cases lex .plain r <;> simp

theorem lx_key {t k} (h : Key t k) : ∃ tok, Lx Stops t [tok] ∧ keyOf tok = .ok k ∧ tok ≠ .nl ∧ tok ≠ .lb := by
  cases h with
  | bare h0 h1 =>
    have hb : ∀ c ∈ t, bareChar c = true := by
      intro c hc
      rcases h1 c hc with h | h | h <;> simp [bareChar, h]
    refine ⟨.word t, lx_word (fun c hc => by simp [wordChar, hb c hc]) h0, ?_, by simp, by simp⟩
    have : t.all bareChar = true := List.all_eq_true.2 hb
    simp [keyOf, this]
  | quoted h =>
    obtain ⟨l, hl, rfl⟩ := lx_quoted h
    exact ⟨.str l, hl.weaken, rfl, by simp, by simp⟩

/-! ### numbers -/

theorem digit_range {c : Char} (h : '0' ≤ c ∧ c ≤ '9') : c.isDigit = true := by
  simp only [Char.isDigit, Bool.and_eq_true, decide_eq_true_eq]
  exact h

theorem natOf_digits {ds} (h : Digits ds) : natOf ds = some (natVal ds) := by
  have : ds.all Char.isDigit = true := List.all_eq_true.2 fun c hc => digit_range (h.2 c hc)
  unfold natOf natVal
  rw [if_pos ⟨h.1, this⟩]
  rfl

theorem digit_ne {c d : Char} (h : c.isDigit = true) (hd : d.isDigit = false) : c ≠ d := by
  rintro rfl; rw [h] at hd; cases hd

theorem digits_word {ds} (h : Digits ds) : ∀ c ∈ ds, wordChar c = true := by
  intro c hc
  have := digit_range (h.2 c hc)
  simp [wordChar, bareChar, Char.isAlphanum, this]

theorem digits_isDigit {ds} (h : Digits ds) : ∀ c ∈ ds, c.isDigit = true := fun c hc => digit_range (h.2 c hc)

theorem signOf_sign {s i w} (hs : Sign s i) (hw : ∃ c r, w = c :: r ∧ c.isDigit = true) :
    ∃ neg, signOf (s ++ w) = (neg, w) ∧ i = if neg then -1 else 1 := by
  obtain ⟨c, r, rfl, hc⟩ := hw
  cases hs with
  | none =>
    refine ⟨false, ?_, by simp⟩
    have h1 := digit_ne hc (d := '-') (by decide)
    have h2 := digit_ne hc (d := '+') (by decide)
    simp only [List.nil_append]
    unfold signOf
    split
    · rename_i h; injection h with h _; exact absurd h h1
    · rename_i h; injection h with h _; exact absurd h h2
    · rfl
  | plus => exact ⟨false, rfl, by simp⟩
  | minus => exact ⟨true, rfl, by simp⟩

theorem digits_head {ds} (h : Digits ds) (r : List Char) : ∃ c r', ds ++ r = c :: r' ∧ c.isDigit = true := by
  cases ds with
  | nil => exact absurd rfl h.1
  | cons c ds => exact ⟨c, ds ++ r, rfl, digits_isDigit h c List.mem_cons_self⟩

theorem expOf_exp {e n} (h : Exp e n) : expOf e = some n := by
  cases h with
  | none => rfl
  | some hc hs hd =>
    obtain ⟨neg, h1, h2⟩ := signOf_sign hs (by simpa using digits_head hd [])
    simp only [expOf, reduceCtorEq, if_false, List.tail_cons, h1, natOf_digits hd, Option.bind_eq_bind, Option.bind_some, h2]
    cases neg <;> simp

theorem exp_head {e n} (h : Exp e n) (he : e ≠ []) : ∃ c r, e = c :: r ∧ (c == 'e' || c == 'E') = true := by
  cases h with
  | none => exact absurd rfl he
  | some hc hs hd => exact ⟨_, _, rfl, by rcases hc with rfl | rfl <;> decide⟩

theorem exp_word {e n} (h : Exp e n) : ∀ c ∈ e, wordChar c = true := by
  cases h with
  | none => simp
  | some hc hs hd =>
    intro c h
    rw [List.mem_cons, List.mem_append] at h
    rcases h with rfl | h | h
    · rcases hc with rfl | rfl <;> decide
    · cases hs
      · simp at h
      · simp at h; subst h; decide
      · simp at h; subst h; decide
    · exact digits_word hd c h

theorem frac_word {f x} (h : Frac f x) : ∀ c ∈ f, wordChar c = true := by
  cases h with
  | none => simp
  | some hd =>
    intro c h
    rcases List.mem_cons.1 h with rfl | h
    · decide
    · exact digits_word hd c h

theorem sign_word {s i} (h : Sign s i) : ∀ c ∈ s, wordChar c = true := by
  cases h
  · simp
  · intro c h; simp at h; subst h; decide
  · intro c h; simp at h; subst h; decide

theorem isDigit_notE {c : Char} (h : c.isDigit = true) : (!(c == 'e' || c == 'E')) = true := by
  have h1 := digit_ne h (d := 'e') (by decide)
  have h2 := digit_ne h (d := 'E') (by decide)
  simp [h1, h2]

theorem frac_notE {f x} (h : Frac f x) : ∀ c ∈ f, (!(c == 'e' || c == 'E')) = true := by
  cases h with
  | none => simp
  | some hd =>
    intro c h
    rcases List.mem_cons.1 h with rfl | h
    · decide
    · exact isDigit_notE (digits_isDigit hd c h)

theorem num_number {w x} (h : Number w x) : num w = some x := by
  obtain ⟨hs, hd, hf, he⟩ := h
  rename_i s i ds f y e n
  obtain ⟨neg, h1, h2⟩ := signOf_sign hs (digits_head hd (f ++ e))
  have hm : ∀ c ∈ ds ++ f, (!(c == 'e' || c == 'E')) = true := by
    intro c h
    rcases List.mem_append.1 h with h | h
    · exact isDigit_notE (digits_isDigit hd c h)
    · exact frac_notE hf c h
  have ht : ((ds ++ f) ++ e).takeWhile (fun c => !(c == 'e' || c == 'E')) = ds ++ f := by
    rw [List.takeWhile_append_of_pos hm]
    by_cases h0 : e = []
    · simp [h0]
    · obtain ⟨c, r, rfl, hc⟩ := exp_head he h0
      rw [List.takeWhile_cons_of_neg (by simp [hc]), List.append_nil]
  have hdr : ((ds ++ f) ++ e).dropWhile (fun c => !(c == 'e' || c == 'E')) = e := by
    rw [List.dropWhile_append_of_pos hm]
    by_cases h0 : e = []
    · simp [h0]
    · obtain ⟨c, r, rfl, hc⟩ := exp_head he h0
      rw [List.dropWhile_cons_of_neg (by simp [hc])]
  have hdot : ∀ c ∈ ds, (c != '.') = true := fun c hc => by
    simp [digit_ne (digits_isDigit hd c hc) (d := '.') (by decide)]
  have hi : (ds ++ f).takeWhile (fun c => c != '.') = ds := by
    rw [List.takeWhile_append_of_pos hdot]
    cases hf <;> simp
  have hfp : (ds ++ f).dropWhile (fun c => c != '.') = f := by
    rw [List.dropWhile_append_of_pos hdot]
    cases hf <;> simp
  unfold num
  simp only [List.append_assoc] at h1 ht hdr ⊢
  simp only [h1, ht, hdr, hi, hfp, expOf_exp he, natOf_digits hd, Option.bind_eq_bind, Option.bind_some]
  have hx : ∃ m : ℕ, fracOf f = some m ∧ (m : ℚ) / 10 ^ (f.length - 1) = y := by
    cases hf with
    | none => exact ⟨0, rfl, by simp⟩
    | some hds => exact ⟨_, by rw [fracOf, if_neg (by simp)]; exact natOf_digits hds, by simp⟩
  obtain ⟨m, hm1, hm2⟩ := hx
  simp only [hm1, Option.bind_some, hm2, h2]
  cases neg <;> simp

theorem lx_number {w x} (h : Number w x) : Lx Stops w [.word w] := by
  obtain ⟨hs, hd, hf, he⟩ := h
  refine lx_word ?_ ?_
  · intro c h
    simp only [List.mem_append] at h
    rcases h with ((h | h) | h) | h
    · exact sign_word hs c h
    · exact digits_word hd c h
    · exact frac_word hf c h
    · exact exp_word he c h
  · intro h
    simp only [List.append_eq_nil_iff] at h
    exact hd.1 h.1.1.2

end BeamDesign.Toml
