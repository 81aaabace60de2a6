import Verif.Lemmas.TomlParse
import Verif.Model.Files
import Mathlib.Tactic.FieldSimp
import Mathlib.Tactic.Push

/-!
# Every printable file can be written down
-/

namespace BeamDesign.Toml

open Spec.Toml

theorem natVal_append (ds : List Char) (c : Char) : natVal (ds ++ [c]) = 10 * natVal ds + (c.toNat - 48) := by
  unfold natVal
  rw [List.foldl_append]
  rfl

theorem digit_char (n : ℕ) (h : n < 10) : ∃ c : Char, ('0' ≤ c ∧ c ≤ '9') ∧ c.toNat - 48 = n := by
  have : ∀ m : Fin 10, ∃ c : Char, ('0' ≤ c ∧ c ≤ '9') ∧ c.toNat - 48 = m.val := by
    intro m
    refine ⟨Char.ofNat (48 + m.val), ?_⟩
    revert m
    decide
  exact this ⟨n, h⟩

theorem exists_digits (n : ℕ) : ∃ ds, Digits ds ∧ natVal ds = n := by
  induction n using Nat.strongRecOn with
  | ind n ih =>
    obtain ⟨c, hc, hv⟩ := digit_char (n % 10) (Nat.mod_lt _ (by decide))
    by_cases h : n < 10
    · refine ⟨[c], ⟨by simp, by simpa using hc⟩, ?_⟩
      have := natVal_append [] c
      simp only [List.nil_append] at this
      rw [this, hv]
      simp [natVal, Nat.mod_eq_of_lt h]
    · obtain ⟨ds, hd, hn⟩ := ih (n / 10) (by omega)
      refine ⟨ds ++ [c], ⟨by simp, ?_⟩, ?_⟩
      · intro c' h'
        rcases List.mem_append.1 h' with h' | h'
        · exact hd.2 c' h'
        · rw [List.mem_singleton.1 h']; exact hc
      · rw [natVal_append, hn, hv]; omega

theorem exists_sign (i : ℤ) : ∃ s j, Sign s j ∧ i = j * (i.natAbs : ℤ) := by
  rcases le_total 0 i with h | h
  · exact ⟨_, _, .none, by omega⟩
  · exact ⟨_, _, .minus, by omega⟩

theorem exists_number {x : ℚ} (h : Decimal x) : ∃ w, Number w x := by
  obtain ⟨i, n, rfl⟩ := h
  obtain ⟨s, j, hs, hj⟩ := exists_sign i
  obtain ⟨ds, hd, hv⟩ := exists_digits i.natAbs
  obtain ⟨s', j', hs', hj'⟩ := exists_sign n
  obtain ⟨ds', hd', hv'⟩ := exists_digits n.natAbs
  refine ⟨s ++ ds ++ [] ++ 'e' :: (s' ++ ds'), ?_⟩
  have := Number.mk hs hd .none (.some (c := 'e') (.inl rfl) hs' hd')
  convert this using 1
  rw [hv, hv', ← hj', add_zero, ← mul_assoc]
  congr 1
  have : (i : ℚ) = ((j * (i.natAbs : ℤ) : ℤ) : ℚ) := by rw [← hj]
  rw [this, Int.cast_mul, Int.cast_natCast]

theorem plain_quoted {s : String} (h : Plain s) : ∃ t, Quoted t s := by
  refine ⟨'"' :: (s.toList ++ ['"']), ?_⟩
  have := Quoted.mk h
  rwa [String.ofList_toList] at this

theorem plain_key {s : String} (h : Plain s) : ∃ t, Key t s := by
  obtain ⟨t, ht⟩ := plain_quoted h
  exact ⟨t, .quoted ht⟩

theorem exists_items {α : Type} {W : List Char → α → Prop} {l : List α} (h : ∀ a ∈ l, ∃ t, W t a) : ∃ t, Items W t l := by
  induction l with
  | nil => exact ⟨[], .none .nil⟩
  | cons a l ih =>
    obtain ⟨c, hc⟩ := h a List.mem_cons_self
    obtain ⟨t, ht⟩ := ih fun a ha => h a (List.mem_cons_of_mem _ ha)
    exact ⟨_, .more .nil hc .nil ht⟩

theorem exists_array {α : Type} {W : List Char → α → Prop} {l : List α} (h : ∀ a ∈ l, ∃ t, W t a) : ∃ t, Array W t l := by
  obtain ⟨t, ht⟩ := exists_items h
  exact ⟨_, t, ht, rfl⟩

variable {K : Type} {rd : ℚ → K}

theorem exists_value {v : TVal K} (h : PlainValue rd v) : ∃ t, Value rd t v := by
  cases v with
  | str s => obtain ⟨t, ht⟩ := plain_quoted h; exact ⟨t, .str ht⟩
  | num y =>
    obtain ⟨x, hx, rfl⟩ := h
    obtain ⟨w, hw⟩ := exists_number hx
    exact ⟨w, .num hw⟩
  | table rows =>
    obtain ⟨t, ht⟩ := exists_array (W := Array fun c y => ∃ x, Number c x ∧ rd x = y) (l := rows) fun r hr =>
      exists_array fun y hy => by
        obtain ⟨x, hx, rfl⟩ := h r hr y hy
        obtain ⟨w, hw⟩ := exists_number hx
        exact ⟨w, x, hw, rfl⟩
    exact ⟨t, .table ht⟩
  | other => exact h.elim

theorem gap_nil : Gap [] := by intro c h; simp at h

theorem endLine_nl : EndLine ['\n'] := ⟨[], [], gap_nil, .inl rfl, rfl⟩

theorem exists_entries {l : List (String × TVal K)} (h : ∀ e ∈ l, Plain e.1 ∧ PlainValue rd e.2) : ∃ t, Entries rd t l := by
  induction l with
  | nil => exact ⟨[], .nil⟩
  | cons e l ih =>
    obtain ⟨t, ht⟩ := ih fun e he => h e (List.mem_cons_of_mem _ he)
    obtain ⟨hk, hv⟩ := h e List.mem_cons_self
    obtain ⟨k, hk⟩ := plain_key hk
    obtain ⟨v, hv⟩ := exists_value hv
    exact ⟨_, .entry gap_nil hk gap_nil gap_nil hv endLine_nl ht⟩

theorem exists_writes {f : MatFile K} (h : PlainFile rd f) : ∃ t, Writes rd t f := by
  induction f with
  | nil => exact ⟨[], .nil⟩
  | cons kv f ih =>
    obtain ⟨t, ht⟩ := ih fun kv hkv => h kv (List.mem_cons_of_mem _ hkv)
    obtain ⟨hk, d, hd, he⟩ := h kv List.mem_cons_self
    obtain ⟨k, hk⟩ := plain_key hk
    obtain ⟨b, hb⟩ := exists_entries he
    obtain ⟨key, val⟩ := kv
    simp only at hd
    subst hd
    exact ⟨_, .table gap_nil gap_nil hk gap_nil endLine_nl hb ht⟩

/-! ### line ends and encodings -/

theorem newlines_none {t : List Char} (h : '\r' ∉ t) : universalNewlines t = t := by
  induction t with
  | nil => rfl
  | cons c t ih =>
    simp only [List.mem_cons, not_or] at h
    have hc : c ≠ '\r' := fun e => h.1 e.symm
    rw [universalNewlines, ih h.2]
    · rintro _ rfl; exact absurd rfl hc
    · exact hc

theorem newlines_crlf {t : List Char} (h : '\r' ∉ t) : universalNewlines (crlf t) = t := by
  induction t with
  | nil => rfl
  | cons c t ih =>
    simp only [List.mem_cons, not_or] at h
    have hc : c ≠ '\r' := fun e => h.1 e.symm
    have e : crlf (c :: t) = (if c = '\n' then ['\r', '\n'] else [c]) ++ crlf t := rfl
    rw [e]
    by_cases hn : c = '\n'
    · subst hn
      rw [if_pos rfl]
      show universalNewlines ('\r' :: '\n' :: crlf t) = _
      rw [universalNewlines, ih h.2]
    · rw [if_neg hn]
      show universalNewlines (c :: crlf t) = _
      rw [universalNewlines, ih h.2]
      · rintro _ rfl; exact absurd rfl hc
      · exact hc

theorem utf8_encode (t : List Char) : utf8 t.utf8Encode = some t := by
  simp [utf8, List.utf8Decode?_utf8Encode]

theorem encodeChar_ascii {c : Char} (h : c.toNat < 128) : String.utf8EncodeChar c = [c.val.toUInt8] := by
  have : c.toNat ≤ 127 := Nat.le_of_lt_succ h
  simp [String.utf8EncodeChar, this]
  rfl

theorem encode_ascii {t : List Char} (h : ∀ c ∈ t, c.toNat < 128) :
    t.utf8Encode.data.toList = t.map fun c => c.val.toUInt8 := by
  have : t.flatMap String.utf8EncodeChar = t.map fun c => c.val.toUInt8 := by
    induction t with
    | nil => rfl
    | cons c t ih =>
      rw [List.flatMap_cons, encodeChar_ascii (h c List.mem_cons_self), ih fun c hc => h c (List.mem_cons_of_mem _ hc)]
      rfl
  rw [List.utf8Encode, this, List.data_toByteArray]

theorem cp1252_ascii : ReadsAscii cp1252 := by
  intro t h
  simp only [cp1252, encode_ascii h, List.mapM_map]
  induction t with
  | nil => rfl
  | cons c t ih =>
    have hc := h c List.mem_cons_self
    have e : cp1252Byte (c.val.toUInt8).toNat = some c := by
      have h1 : (c.val.toUInt8).toNat = c.toNat := by
        have : c.val.toNat < 128 := hc
        simp only [UInt32.toNat_toUInt8]
        show c.val.toNat % 256 = c.val.toNat
        omega
      rw [h1, cp1252Byte, if_pos (.inl hc), Char.ofNat_toNat]
    rw [List.mapM_cons, Function.comp_apply, e, ih fun c hc => h c (List.mem_cons_of_mem _ hc)]
    rfl

theorem utf8_ascii : ReadsAscii utf8 := fun t _ => utf8_encode t

end BeamDesign.Toml
