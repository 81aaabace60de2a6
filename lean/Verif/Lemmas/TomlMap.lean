import Verif.Lemmas.TomlParse

/-!
# The parser does not look at the numbers
-/

namespace BeamDesign

variable {K L : Type}

/-- the same value with its numbers changed -/
def TVal.map (rd : K → L) : TVal K → TVal L
  | .str s => .str s
  | .num x => .num (rd x)
  | .table rows => .table (rows.map (·.map rd))
  | .other => .other

/-- the same file with its numbers changed -/
def MatFile.map (rd : K → L) (f : MatFile K) : MatFile L :=
  List.map (fun kv => (kv.1, kv.2.map (List.map fun e => (e.1, e.2.map rd)))) f

namespace Toml

/-- the same parser state with its numbers changed -/
def PMode.map (rd : K → L) : PMode K → PMode L
  | .line => .line
  | .header => .header
  | .closing k => .closing k
  | .ending => .ending
  | .eq k => .eq k
  | .value k => .value k
  | .rows k rs s => .rows k (rs.map (·.map rd)) s
  | .row k rs r s => .row k (rs.map (·.map rd)) (r.map rd) s

theorem addTable_map (rd : K → L) (f : MatFile K) (k : String) :
    addTable (f.map rd) k = (addTable f k).map (MatFile.map rd) := by
  have : (List.any (f.map rd) fun kv => kv.1 == k) = List.any f fun kv => kv.1 == k := by
    simp [MatFile.map, List.any_map, Function.comp_def]
  unfold addTable
  rw [this]
  cases (List.any f fun kv => kv.1 == k) <;> simp [MatFile.map, Except.map]

theorem addEntry_map (rd : K → L) (f : MatFile K) (k : String) (v : TVal K) :
    addEntry (f.map rd) k (v.map rd) = (addEntry f k v).map (MatFile.map rd) := by
  have ha : (List.any (f.map rd) fun kv => kv.1 == k) = List.any f fun kv => kv.1 == k := by
    simp [MatFile.map, List.any_map, Function.comp_def]
  unfold addEntry
  rw [ha]
  rcases List.eq_nil_or_concat f with rfl | ⟨pre, ⟨t, o⟩, rfl⟩
  · simp [MatFile.map, Except.map]
  · rcases o with _ | es
    · cases (List.any (pre.concat (t, none)) fun kv => kv.1 == k) <;> simp [MatFile.map, Except.map]
    · have : (List.any (es.map fun e => (e.1, e.2.map rd)) fun kv => kv.1 == k) = es.any fun kv => kv.1 == k := by
        simp [List.any_map, Function.comp_def]
      simp only [MatFile.map, List.concat_eq_append, List.map_append, List.map_cons, List.map_nil, Option.map_some,
        List.getLast?_append, List.getLast?_singleton, Option.some_or, List.dropLast_concat, this]
      cases (es.any fun kv => kv.1 == k) <;> simp [MatFile.map, Except.map]

/-- both halves of the state -/
def mapState (rd : K → L) (s : PMode K × MatFile K) : PMode L × MatFile L := (s.1.map rd, MatFile.map rd s.2)

theorem step_map (rd : ℚ → L) (s : PMode ℚ × MatFile ℚ) (t : Tok) :
    step rd (mapState rd s) t = (step id s t).map (mapState rd) := by
  obtain ⟨m, f⟩ := s
  have e1 : ∀ k, (do return (PMode.ending, ← addTable (f.map rd) k) : Py (PMode L × MatFile L)) =
      (do return (PMode.ending, ← addTable f k) : Py _).map (mapState rd) := by
    intro k; rw [addTable_map]; cases addTable f k <;> rfl
  have e2 : ∀ k v v', v' = TVal.map rd v → (do return (PMode.ending, ← addEntry (f.map rd) k v') : Py (PMode L × MatFile L)) =
      (do return (PMode.ending, ← addEntry f k v) : Py _).map (mapState rd) := by
    rintro k v _ rfl; rw [addEntry_map]; cases addEntry f k v <;> rfl
  cases m with
  | line => cases t with
    | nl => rfl
    | lb => rfl
    | word w => simp only [mapState, PMode.map, step]; cases keyOf (.word w) <;> rfl
    | str w => simp only [mapState, PMode.map, step]; cases keyOf (.str w) <;> rfl
    | _ => rfl
  | header => simp only [mapState, PMode.map, step]; cases keyOf t <;> rfl
  | closing k => cases t with
    | rb => exact e1 k
    | _ => rfl
  | ending => cases t <;> rfl
  | eq k => cases t <;> rfl
  | value k => cases t with
    | str s => exact e2 k _ _ rfl
    | word w =>
      simp only [mapState, PMode.map, step]
      split
      · exact e2 k _ _ rfl
      · cases num w with
        | none => rfl
        | some x => exact e2 k _ _ rfl
    | _ => rfl
  | rows k rs s => cases t with
    | rb => cases s <;> exact e2 k _ _ rfl
    | _ => cases s <;> rfl
  | row k rs r s => cases t with
    | word w =>
      cases s
      · simp only [mapState, PMode.map, step]
        cases num w with
        | none => rfl
        | some x => simp [Except.map, mapState, PMode.map]
      · rfl
    | rb => cases s <;> simp [Except.map, mapState, PMode.map, step]
    | _ => cases s <;> rfl

theorem run_map (rd : ℚ → L) (ts : List Tok) (s : PMode ℚ × MatFile ℚ) :
    run rd ts (mapState rd s) = (run id ts s).map (mapState rd) := by
  induction ts generalizing s with
  | nil => rfl
  | cons t ts ih =>
    rw [run_cons, run_cons, step_map]
    cases step id s t with
    | error e => rfl
    | ok s' => exact ih s'

theorem load_map (rd : ℚ → L) (text : List Char) : load rd text = (load id text).map (MatFile.map rd) := by
  unfold load
  cases lex .plain text with
  | none => rfl
  | some ts =>
    have := run_map rd ts (.line, [])
    simp only [run] at this
    have e : mapState rd (PMode.line, ([] : MatFile ℚ)) = (PMode.line, []) := rfl
    rw [e] at this
    simp only [this]
    rcases ts.foldlM (step id) (.line, []) with e | ⟨m, f⟩
    · rfl
    · cases m <;> rfl

end Toml
end BeamDesign
