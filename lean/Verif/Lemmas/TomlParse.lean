import Verif.Lemmas.Toml

/-!
# From tokens to tables
-/

namespace BeamDesign.Toml

open Spec.Toml

variable {K : Type} {rd : ℚ → K}

/-- the effect of tokens on the parser -/
abbrev run (rd : ℚ → K) (ts : List Tok) (p : PMode K × MatFile K) : Py (PMode K × MatFile K) := ts.foldlM (step rd) p

theorem run_append (a b : List Tok) (p : PMode K × MatFile K) : run rd (a ++ b) p = run rd a p >>= run rd b := by
  simp only [run, List.foldlM_append]

theorem run_cons (t : Tok) (ts : List Tok) (p : PMode K × MatFile K) : run rd (t :: ts) p = step rd p t >>= run rd ts := by
  simp only [run, List.foldlM_cons]

theorem run_nil (p : PMode K × MatFile K) : run rd [] p = .ok p := rfl

theorem run_one (t : Tok) (p : PMode K × MatFile K) : run rd [t] p = step rd p t := by
  rw [run_cons]
  cases step rd p t <;> rfl

theorem run_nls {p : PMode K × MatFile K} (h : step rd p .nl = .ok p) (n : ℕ) :
    run rd (List.replicate n .nl) p = .ok p := by
  induction n with
  | zero => rfl
  | succ n ih =>
    rw [List.replicate_succ, run_cons, h]
    exact ih

theorem ok_bind {α β : Type} (a : α) (f : α → Py β) : ((.ok a : Py α) >>= f) = f a := rfl

theorem run_row {i : List Char} {l : List K} (h : Items (fun c y => ∃ x, Number c x ∧ rd x = y) i l) :
    ∃ ts, Lx Stops i ts ∧
      ∀ k rs r f, ∃ b, run rd ts (.row k rs r false, f) = .ok (.row k rs (r ++ l) b, f) := by
  induction h with
  | none hs =>
    obtain ⟨n, hn⟩ := lx_skip hs
    refine ⟨_, hn.weaken, fun k rs r f => ⟨false, ?_⟩⟩
    rw [run_nls rfl, List.append_nil]
  | one hs hc ht =>
    obtain ⟨x, hx, rfl⟩ := hc
    obtain ⟨n, hn⟩ := lx_skip hs
    obtain ⟨m, hm⟩ := lx_skip ht
    refine ⟨_, (hn.seq (lx_number hx)).append hm.weaken fun r hr => stops_skip ht hr, fun k rs r f => ⟨true, ?_⟩⟩
    rw [run_append, run_append, run_nls rfl, ok_bind, run_one]
    simp only [step, num_number hx, ok_bind]
    rw [run_nls rfl]
  | more hs hc ht _ ih =>
    obtain ⟨x, hx, rfl⟩ := hc
    obtain ⟨n, hn⟩ := lx_skip hs
    obtain ⟨m, hm⟩ := lx_skip ht
    obtain ⟨ts, hts, hrun⟩ := ih
    refine ⟨_, ((hn.seq (lx_number hx)).append (P := Stops) (hm.weaken (P := Stops)) fun r hr => stops_skip ht hr).append
      (P := Stops) (Lx.cons (tc := [.comma]) (by decide) hts) fun r _ => Stops.cons (by decide), fun k rs r f => ?_⟩
    obtain ⟨b, hb⟩ := hrun k rs (r ++ [rd x]) f
    refine ⟨b, ?_⟩
    rw [run_append, run_append, run_append, run_nls rfl, ok_bind, run_one]
    simp only [step, num_number hx, ok_bind]
    rw [run_nls rfl, ok_bind, List.singleton_append, run_cons]
    simp only [step, ok_bind, hb, List.append_assoc, List.singleton_append]

theorem run_array {t : List Char} {l : List K} (h : Array (fun c y => ∃ x, Number c x ∧ rd x = y) t l) :
    ∃ ts, Lx Any t ts ∧ ∀ k rs f, run rd ts (.rows k rs false, f) = .ok (.rows k (rs ++ [l]) true, f) := by
  obtain ⟨i, hi, rfl⟩ := h
  obtain ⟨ts, hts, hrun⟩ := run_row hi
  refine ⟨_, Lx.cons (tc := [.lb]) (by decide) (hts.append (lx_char (ts := [.rb]) (by decide)) fun r _ =>
    Stops.cons (by decide)), fun k rs f => ?_⟩
  obtain ⟨b, hb⟩ := hrun k rs [] f
  rw [List.singleton_append, run_cons]
  simp only [step, ok_bind]
  rw [run_append, hb, ok_bind, run_one]
  cases b <;> rfl

theorem run_rows {i : List Char} {l : List (List K)}
    (h : Items (Array (fun c y => ∃ x, Number c x ∧ rd x = y)) i l) :
    ∃ ts, Lx Any i ts ∧ ∀ k rs f, ∃ b, run rd ts (.rows k rs false, f) = .ok (.rows k (rs ++ l) b, f) := by
  induction h with
  | none hs =>
    obtain ⟨n, hn⟩ := lx_skip hs
    refine ⟨_, hn, fun k rs f => ⟨false, ?_⟩⟩
    rw [run_nls rfl, List.append_nil]
  | one hs hc ht =>
    obtain ⟨n, hn⟩ := lx_skip hs
    obtain ⟨m, hm⟩ := lx_skip ht
    obtain ⟨ta, hta, hra⟩ := run_array hc
    refine ⟨_, (hn.seq hta).seq hm, fun k rs f => ⟨true, ?_⟩⟩
    rw [run_append, run_append, run_nls rfl, ok_bind, hra, ok_bind, run_nls rfl]
  | more hs hc ht _ ih =>
    obtain ⟨n, hn⟩ := lx_skip hs
    obtain ⟨m, hm⟩ := lx_skip ht
    obtain ⟨ta, hta, hra⟩ := run_array hc
    obtain ⟨ts, hts, hrun⟩ := ih
    refine ⟨_, ((hn.seq hta).seq hm).seq (Lx.cons (tc := [.comma]) (by decide) hts), fun k rs f => ?_⟩
    rename_i a _ _ _ _
    obtain ⟨b, hb⟩ := hrun k (rs ++ [a]) f
    refine ⟨b, ?_⟩
    rw [run_append, run_append, run_append, run_nls rfl, ok_bind, hra, ok_bind, run_nls rfl, ok_bind, List.singleton_append,
      run_cons]
    simp only [step, ok_bind, hb, List.append_assoc, List.singleton_append]

theorem run_value {t : List Char} {v : TVal K} (h : Value rd t v) :
    ∃ ts, Lx Stops t ts ∧ ∀ k f, run rd ts (.value k, f) = (do return (.ending, ← addEntry f k v)) := by
  cases h with
  | str h =>
    obtain ⟨l, hl, rfl⟩ := lx_quoted h
    exact ⟨_, hl.weaken, fun k f => by rw [run_one]; rfl⟩
  | num h =>
    refine ⟨_, lx_number h, fun k f => ?_⟩
    have hn := num_number h
    have h1 : ¬(t = ['t', 'r', 'u', 'e'] ∨ t = ['f', 'a', 'l', 's', 'e']) := by
      rintro (rfl | rfl)
      · exact absurd hn (by rw [show num ['t', 'r', 'u', 'e'] = none by decide +kernel]; simp)
      · exact absurd hn (by rw [show num ['f', 'a', 'l', 's', 'e'] = none by decide +kernel]; simp)
    rw [run_one]
    simp only [step, if_neg h1, hn]
  | table h =>
    obtain ⟨i, hi, rfl⟩ := h
    obtain ⟨ts, hts, hrun⟩ := run_rows hi
    refine ⟨_, (Lx.cons (tc := [.lb]) (by decide) (hts.seq (lx_char (ts := [.rb]) (by decide)))).weaken, fun k f => ?_⟩
    obtain ⟨b, hb⟩ := hrun k [] f
    rw [List.singleton_append, run_cons]
    simp only [step, ok_bind]
    rw [run_append, hb, ok_bind, run_one]
    cases b <;> rfl

/-- all entries of a table, one after the other -/
def addEntries (l : List (String × TVal K)) (f : MatFile K) : Py (MatFile K) := l.foldlM (fun f kv => addEntry f kv.1 kv.2) f

theorem value_stops {e r : List Char} (h : EndLine e) : Stops (e ++ r) := stops_endLine h

theorem run_entries {b : List Char} {l : List (String × TVal K)} (h : Entries rd b l) :
    ∃ ts, Lx Any b ts ∧ ∀ f, run rd ts (.line, f) = (do return (.line, ← addEntries l f)) := by
  induction h with
  | nil => exact ⟨[], Lx.nil, fun f => rfl⟩
  | blank he _ ih =>
    obtain ⟨ts, hts, hrun⟩ := ih
    refine ⟨_, (lx_endLine he).seq hts, fun f => ?_⟩
    rw [List.singleton_append, run_cons]
    simp only [step, ok_bind, hrun]
  | entry hg hk hh hh' hv he _ ih =>
    rename_i g k key h h' t v e r l _
    obtain ⟨ts, hts, hrun⟩ := ih
    obtain ⟨tok, htok, hkey, hn1, hn2⟩ := lx_key hk
    obtain ⟨tv, htv, hrv⟩ := run_value hv
    have l1 : Lx Any (h' ++ t ++ e) ([] ++ tv ++ [.nl]) :=
      ((lx_gap hh').seq htv).append (lx_endLine he) fun r _ => stops_endLine he
    have l2 : Lx Any ('=' :: (h' ++ t ++ e)) ([.eq] ++ ([] ++ tv ++ [.nl])) := Lx.cons (by decide) l1
    have l3 : Lx Stops (g ++ k) ([] ++ [tok]) := (lx_gap hg).seq htok
    have l4 : Lx Stops (g ++ k ++ h) ([] ++ [tok] ++ []) :=
      l3.append (lx_gap hh).weaken fun r hr => stops_gap hh hr
    have l5 := (l4.append l2 fun r _ => Stops.cons (by decide)).seq hts
    refine ⟨_, l5, fun f => ?_⟩
    simp only [List.nil_append, List.append_nil, List.cons_append, List.append_assoc]
    rw [run_cons]
    have s1 : step rd (.line, f) tok = .ok (.eq key, f) := by
      cases tok with
      | nl => exact absurd rfl hn1
      | lb => exact absurd rfl hn2
      | _ => simp only [step, hkey, ok_bind]; rfl
    rw [s1, ok_bind, run_cons]
    simp only [step, ok_bind]
    rw [run_append, hrv]
    unfold addEntries
    rw [List.foldlM_cons]
    cases addEntry f key v with
    | error e => rfl
    | ok f' =>
      simp only [bind_pure_comp, ok_bind, Functor.map]
      show run rd (.nl :: ts) (.ending, f') = _
      rw [run_cons]
      simp only [step, ok_bind, hrun]
      rfl

/-- all tables, one after the other -/
def addTables (l : MatFile K) (f : MatFile K) : Py (MatFile K) :=
  l.foldlM (fun f kv => do addEntries (kv.2.getD []) (← addTable f kv.1)) f

theorem run_writes {b : List Char} {l : MatFile K} (h : Writes rd b l) :
    ∃ ts, Lx Any b ts ∧ ∀ f, run rd ts (.line, f) = (do return (.line, ← addTables l f)) := by
  induction h with
  | nil => exact ⟨[], Lx.nil, fun f => rfl⟩
  | blank he _ ih =>
    obtain ⟨ts, hts, hrun⟩ := ih
    refine ⟨_, (lx_endLine he).seq hts, fun f => ?_⟩
    rw [List.singleton_append, run_cons]
    simp only [step, ok_bind, hrun]
  | table hg hh hk hh' he hb _ ih =>
    rename_i g h k key h' e b l r fl _
    obtain ⟨ts, hts, hrun⟩ := ih
    obtain ⟨tok, htok, hkey, hn1, hn2⟩ := lx_key hk
    obtain ⟨tb, htb, hrb⟩ := run_entries hb
    have l1 : Lx Stops (h ++ k ++ h') ([] ++ [tok] ++ []) :=
      ((lx_gap hh).seq htok).append (lx_gap hh').weaken fun r hr => stops_gap hh' hr
    have l2 : Lx Stops (g ++ '[' :: (h ++ k ++ h')) ([] ++ ([.lb] ++ ([] ++ [tok] ++ []))) :=
      (lx_gap hg).seq (Lx.cons (by decide) l1)
    have l3 : Lx Any (']' :: e) ([.rb] ++ [.nl]) := Lx.cons (by decide) (lx_endLine he)
    have l4 := (((l2.append l3 fun r _ => Stops.cons (by decide)).seq htb).seq hts)
    refine ⟨_, l4, fun f => ?_⟩
    simp only [List.nil_append, List.append_nil, List.cons_append]
    rw [run_cons]
    simp only [step, ok_bind]
    rw [run_cons]
    simp only [step, hkey, ok_bind]
    show run rd (.rb :: .nl :: (tb ++ ts)) (.closing key, f) = _
    rw [run_cons]
    simp only [step]
    unfold addTables
    rw [List.foldlM_cons]
    cases addTable f key with
    | error e => rfl
    | ok f' =>
      show run rd (.nl :: (tb ++ ts)) (.ending, f') = _
      rw [run_cons]
      simp only [step, ok_bind]
      rw [run_append, hrb]
      simp only [Option.getD_some]
      cases addEntries l f' with
      | error e => rfl
      | ok f'' =>
        show run rd ts (.line, f'') = _
        rw [hrun]
        rfl

theorem load_writes {b : List Char} {l : MatFile K} (h : Writes rd b l) : load rd b = addTables l [] := by
  obtain ⟨ts, hts, hrun⟩ := run_writes h
  have e := hts [] trivial
  rw [List.append_nil] at e
  unfold load
  rw [e]
  simp only [lex, Option.map_some, List.append_nil]
  have := hrun []
  simp only [run] at this
  rw [this]
  cases addTables l [] <;> rfl

theorem lex_newline (t : List Char) : ∀ m, lex m (t ++ ['\n']) = (lex m t).map (· ++ [.nl]) := by
  induction t with
  | nil => rintro (_ | w | w | _) <;> simp [lex, lexStep, lexPlain, wordChar, bareChar, strChar]
  | cons c t ih =>
    intro m
    cases h : lexStep m c with
    | none => cases m <;> simp [lex, h]
    | some p =>
      obtain ⟨ts, m'⟩ := p
      have e : ∀ r, lex m (c :: r) = (lex m' r).map (ts ++ ·) := by
        intro r
        cases m <;> simp only [lex, h, Option.bind_eq_bind, Option.bind_some] <;> cases lex m' r <;> rfl
      rw [List.cons_append, e, e, ih]
      cases lex m' t <;> simp

/-- the last line end makes no difference -/
theorem load_newline (t : List Char) : load rd (t ++ ['\n']) = load rd t := by
  unfold load
  rw [lex_newline]
  cases lex .plain t with
  | none => rfl
  | some ts =>
    simp only [Option.map_some, List.foldlM_append]
    cases ts.foldlM (step rd) (.line, []) with
    | error e => rfl
    | ok p =>
      obtain ⟨m, f⟩ := p
      cases m <;> rfl

theorem load_writesFile {b : List Char} {l : MatFile K} (h : WritesFile rd b l) : load rd b = addTables l [] := by
  rcases h with h | h
  · exact load_writes h
  · rw [← load_newline]; exact load_writes h

/-! ### distinct keys -/

theorem addEntries_ok {pre : MatFile K} {t : String} {es l : List (String × TVal K)} :
    addEntries l (pre ++ [(t, some es)]) =
      if (l.map (·.1)).Nodup ∧ (∀ k ∈ l.map (·.1), k ∉ es.map (·.1)) then .ok (pre ++ [(t, some (es ++ l))])
      else .error .valueError := by
  induction l generalizing es with
  | nil => simp [addEntries]; rfl
  | cons kv l ih =>
    unfold addEntries at ih ⊢
    rw [List.foldlM_cons]
    have ea : addEntry (pre ++ [(t, some es)]) kv.1 kv.2 =
        if kv.1 ∈ es.map (·.1) then .error .valueError else .ok (pre ++ [(t, some (es ++ [kv]))]) := by
      have : (es.any fun x => x.1 == kv.1) = true ↔ kv.1 ∈ es.map (·.1) := by
        simp [List.any_eq_true]
      simp only [addEntry, List.getLast?_append, List.getLast?_singleton, Option.some_or, List.dropLast_concat, this]
    rw [ea]
    by_cases h : kv.1 ∈ es.map (·.1)
    · rw [if_pos h, if_neg]
      · rfl
      · rintro ⟨_, h2⟩
        exact h2 kv.1 (by simp) h
    · rw [if_neg h]
      show List.foldlM _ _ l = _
      rw [ih]
      have : ((l.map (·.1)).Nodup ∧ ∀ k ∈ l.map (·.1), k ∉ (es ++ [kv]).map (·.1)) ↔
          (((kv :: l).map (·.1)).Nodup ∧ ∀ k ∈ (kv :: l).map (·.1), k ∉ es.map (·.1)) := by
        simp only [List.map_cons, List.nodup_cons, List.map_append, List.map_nil, List.mem_append, List.not_mem_nil,
          List.mem_cons, not_or, forall_eq_or_imp]
        constructor
        · rintro ⟨h1, h2⟩
          exact ⟨⟨fun hk => (h2 _ hk).2.1 rfl, h1⟩, h, fun k hk => (h2 k hk).1⟩
        · rintro ⟨⟨h0, h1⟩, _, h2⟩
          exact ⟨h1, fun k hk => ⟨h2 k hk, by rintro rfl; exact h0 hk, id⟩⟩
      simp only [this, List.append_assoc, List.singleton_append]

theorem addTables_ok {l : MatFile K} (hs : ∀ kv ∈ l, kv.2.isSome = true) {pre : MatFile K} :
    addTables l pre =
      if (l.map (·.1)).Nodup ∧ (∀ k ∈ l.map (·.1), k ∉ pre.map (·.1)) ∧
        (∀ kv ∈ l, ∀ d, kv.2 = some d → (d.map (·.1)).Nodup) then .ok (pre ++ l)
      else .error .valueError := by
  induction l generalizing pre with
  | nil => simp [addTables]; rfl
  | cons kv l ih =>
    obtain ⟨key, val⟩ := kv
    obtain ⟨d, rfl⟩ := Option.isSome_iff_exists.1 (hs _ List.mem_cons_self)
    have ih := @ih fun kv hkv => hs kv (List.mem_cons_of_mem _ hkv)
    unfold addTables at ih ⊢
    rw [List.foldlM_cons]
    have ha : addTable pre key =
        if key ∈ pre.map (·.1) then .error .valueError else .ok (pre ++ [(key, some [])]) := by
      have : (pre.any fun x => x.1 == key) = true ↔ key ∈ pre.map (·.1) := by simp [List.any_eq_true]
      simp only [addTable, this]
    rw [ha]
    by_cases h : key ∈ pre.map (·.1)
    · rw [if_pos h, if_neg]
      · rfl
      · rintro ⟨_, h2, _⟩
        exact h2 key (by simp) h
    · rw [if_neg h]
      show (addEntries d (pre ++ [(key, some [])]) >>= _) = _
      rw [addEntries_ok]
      simp only [List.map_nil, List.not_mem_nil, not_false_eq_true, implies_true, and_true, List.nil_append]
      by_cases hd : (d.map (·.1)).Nodup
      · rw [if_pos hd]
        show List.foldlM _ (pre ++ [(key, some d)]) l = _
        rw [ih]
        have : ((l.map (·.1)).Nodup ∧ (∀ k ∈ l.map (·.1), k ∉ (pre ++ [(key, some d)]).map (·.1)) ∧
              (∀ kv ∈ l, ∀ d, kv.2 = some d → (d.map (·.1)).Nodup)) ↔
            (((key, some d) :: l).map (·.1)).Nodup ∧ (∀ k ∈ ((key, some d) :: l).map (·.1), k ∉ pre.map (·.1)) ∧
              (∀ kv ∈ (key, some d) :: l, ∀ d, kv.2 = some d → (d.map (·.1)).Nodup) := by
          simp only [List.map_cons, List.nodup_cons, List.map_append, List.map_nil, List.mem_append, List.not_mem_nil,
            List.mem_cons, not_or, forall_eq_or_imp, Option.some.injEq, forall_eq']
          constructor
          · rintro ⟨h1, h2, h3⟩
            exact ⟨⟨fun hk => (h2 _ hk).2.1 rfl, h1⟩, ⟨h, fun k hk => (h2 k hk).1⟩, hd, h3⟩
          · rintro ⟨⟨h0, h1⟩, ⟨_, h2⟩, _, h3⟩
            exact ⟨h1, fun k hk => ⟨h2 k hk, by rintro rfl; exact h0 hk, id⟩, h3⟩
        simp only [this, List.append_assoc, List.singleton_append]
      · rw [if_neg hd, if_neg]
        · rfl
        · rintro ⟨_, _, h3⟩
          exact hd (h3 _ List.mem_cons_self d rfl)

theorem writes_some {b : List Char} {l : MatFile K} (h : Writes rd b l) : ∀ kv ∈ l, kv.2.isSome = true := by
  induction h with
  | nil => simp
  | blank _ _ ih => exact ih
  | table _ _ _ _ _ _ _ ih =>
    intro kv hkv
    rcases List.mem_cons.1 hkv with rfl | hkv
    · rfl
    · exact ih kv hkv

end BeamDesign.Toml
