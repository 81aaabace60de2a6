import Verif.Lemmas.TomlWrite
import Verif.Lemmas.TomlMap
import Verif.Model.Texts
import Verif.Model.Shipped
import Verif.Props.Material

/-!
# C97 - C99: files

C97: a materials file in the documented layout loads as exactly what is written in it.
C98: a file loads the same on every platform.
C99: the files shipped with the library contain the tables of the model, on every platform.
-/

namespace BeamDesign

open Spec Spec.Toml Toml

variable {K : Type}

/-! ### C97 -/

/-- C97: a text that writes down tables loads as those tables, in order, whatever its indentation, comments and quoting, with or
without the end of the last line; if a table or a key occurs twice, `ValueError`. -/
theorem C97_text {rd : ℚ → K} {text : List Char} {f : MatFile K} (h : WritesFile rd text f) :
    (Distinct f → load rd text = .ok f) ∧ (¬Distinct f → load rd text = .error .valueError) := by
  rw [load_writesFile h, addTables_ok (h.elim writes_some writes_some)]
  unfold Distinct
  simp only [List.map_nil, List.not_mem_nil, not_false_eq_true, implies_true, true_and, List.nil_append]
  exact ⟨fun h => if_pos h, fun h => if_neg h⟩

/-- C97: every file of printable keys and strings and decimal numbers can be written down. -/
theorem C97_exists {rd : ℚ → K} {f : MatFile K} (h : PlainFile rd f) : ∃ text, Writes rd text f := exists_writes h

/-- C97: `load_material(file_path=p)` gives the materials written in the file at `p`, if each of its tables describes one; with
`name` it gives the one of that name; `load_list` gives the names.  The file may have the line ends of Windows. -/
theorem C97_load [LinearOrder K] {rd : ℚ → K} {w : Machine} {p : String} {b : ByteArray} {raw text : List Char} {f : MatFile K}
    {ms : List (String × Material K)} (hp : w.files p = some b) (hb : w.locale b = some raw)
    (hraw : raw = text ∨ raw = crlf text) (hr : '\r' ∉ text) (ht : WritesFile rd text f) (hf : Distinct f)
    (hm : List.Forall₂ (fun kv km => kv.1 = km.1 ∧ ∃ d, kv.2 = some d ∧ Describes d km.2) f ms) :
    Material.loadFileAll rd w (some p) = .ok ms ∧
    Material.loadFileList rd w (some p) = .ok (ms.map (·.1)) ∧
    (∀ n m, (n, m) ∈ ms → Material.loadFileOne rd w (some p) n = .ok m) ∧
    (∀ n, n ∉ ms.map (·.1) → Material.loadFileOne rd w (some p) n = .error .keyError) := by
  have hn : universalNewlines raw = text := by
    rcases hraw with rfl | rfl
    · exact newlines_none hr
    · exact newlines_crlf hr
  have h1 : Material.loadHelper rd w (some p) = .ok f := by
    simp only [Material.loadHelper, readToml, Option.getD_some, hp, hb, hn]
    exact (C97_text ht).1 hf
  have h2 := (C27_load_all f ms).2 hm
  have h3 := (C27_load_list f).2 ms h2
  have h4 := (C27_load_one f)
  have hnd : (ms.map (·.1)).Nodup := by rw [h3]; exact hf.1
  refine ⟨?_, ?_, fun n m hnm => ?_, fun n hn => ?_⟩
  · rw [Material.loadFileAll, h1]; exact h2
  · rw [Material.loadFileList, h1, h3]; rfl
  · rw [Material.loadFileOne, h1]
    refine ((h4 n).2 ms h2).1 m ?_
    clear hm h2 h3 h4
    induction ms with
    | nil => simp at hnm
    | cons a ms ih =>
      obtain ⟨a, x⟩ := a
      rcases List.mem_cons.1 hnm with h | h
      · injection h with h h'; subst h h'; simp
      · have hne : n ≠ a := by
          rintro rfl
          exact (List.nodup_cons.1 hnd).1 (List.mem_map.2 ⟨(n, m), h, rfl⟩)
        rw [List.lookup_cons, beq_false_of_ne hne]
        exact ih (List.nodup_cons.1 hnd).2 h
  · rw [Material.loadFileOne, h1]
    exact ((h4 n).2 ms h2).2 (by rw [← h3]; exact hn)

/-- a small materials file: comments, indentation, a quoted key, a table over several lines with a comma too many -/
def sampleText : List Char :=
  ("# steels\n[\"S.1\"] # rolled\n  type= \"steel\"\n  name = \"S\"\n\n  standard =\"x\"\n  E = 200e9\n" ++
   "  strengths = [ # mm\n    [0.01, 0.2],\n    [3e2,2.5E+2,],\n  ]\n").toList

/-- the tables in it -/
def sampleFile : MatFile ℚ := [("S.1", some [("type", .str "steel"), ("name", .str "S"), ("standard", .str "x"),
  ("E", .num 200000000000), ("strengths", .table [[1 / 100, 2 / 10], [300, 250]])])]

theorem sample_gap (n : ℕ) : Gap (List.replicate n ' ') := fun _ h => .inl (List.eq_of_mem_replicate h)

theorem sample_end : EndLine ['\n'] := ⟨[], [], gap_nil, .inl rfl, rfl⟩

/-- the grammar accepts it -/
theorem sample_writes : Writes id sampleText sampleFile := by
  have q : ∀ s : String, Plain s → Quoted ('"' :: (s.toList ++ ['"'])) s := fun s h => by
    have := Quoted.mk h
    rwa [String.ofList_toList] at this
  have key : ∀ s : List Char, s ≠ [] → (∀ c ∈ s, c.isAlphanum ∨ c = '_' ∨ c = '-') → Key s (String.ofList s) :=
    fun s => Key.bare
  have num : ∀ {s i ds f x e n}, Sign s i → Digits ds → Frac f x → Exp e n → ∀ t y, t = s ++ ds ++ f ++ e →
      y = i * ((natVal ds + x) * 10 ^ n) → ∃ z, Number t z ∧ id z = y := by
    intro s i ds f x e n h1 h2 h3 h4 t y ht hy
    exact ⟨_, ht ▸ Number.mk h1 h2 h3 h4, hy.symm⟩
  have dig : ∀ ds : List Char, (ds ≠ [] ∧ (ds.all fun c => decide ('0' ≤ c ∧ c ≤ '9')) = true) → Digits ds :=
    fun ds h => ⟨h.1, by simpa using h.2⟩
  have n1 := num .none (dig "0".toList (by decide +kernel)) (.some (dig "01".toList (by decide +kernel))) .none "0.01".toList (1 / 100)
    (by decide +kernel) (by decide +kernel)
  have n2 := num .none (dig "0".toList (by decide +kernel)) (.some (dig "2".toList (by decide +kernel))) .none "0.2".toList (2 / 10)
    (by decide +kernel) (by decide +kernel)
  have n3 := num .none (dig "3".toList (by decide +kernel)) .none (.some (.inl rfl) .none (dig "2".toList (by decide +kernel)))
    "3e2".toList 300 (by decide +kernel) (by decide +kernel)
  have n4 := num .none (dig "2".toList (by decide +kernel)) (.some (dig "5".toList (by decide +kernel)))
    (.some (.inr rfl) .plus (dig "2".toList (by decide +kernel))) "2.5E+2".toList 250 (by decide +kernel) (by decide +kernel)
  obtain ⟨z, n5, hz⟩ := num .none (dig "200".toList (by decide +kernel)) .none (.some (.inl rfl) .none (dig "9".toList (by decide +kernel)))
    "200e9".toList 200000000000 (by decide +kernel) (by decide +kernel)
  have sk1 : Skip [' '] := .blank (sample_gap 1) .nil
  have r1 : Array (fun c y => ∃ x, Number c x ∧ id x = y) "[0.01, 0.2]".toList [1 / 100, 2 / 10] :=
    ⟨_, .more .nil n1 .nil (.one sk1 n2 .nil), by decide +kernel⟩
  have r2 : Array (fun c y => ∃ x, Number c x ∧ id x = y) "[3e2,2.5E+2,]".toList [300, 250] :=
    ⟨_, .more .nil n3 .nil (.more .nil n4 .nil (.none .nil)), by decide +kernel⟩
  have sk2 : Skip " # mm\n    ".toList :=
    .line (e := " # mm\n".toList) ⟨[' '], "# mm".toList, sample_gap 1, .inr ⟨" mm".toList, by decide +kernel, by decide +kernel⟩,
      by decide +kernel⟩ (.blank (sample_gap 4) .nil)
  have sk3 : Skip "\n    ".toList := .line (e := ['\n']) sample_end (.blank (sample_gap 4) .nil)
  have sk4 : Skip "\n  ".toList := .line (e := ['\n']) sample_end (.blank (sample_gap 2) .nil)
  have v : Value id "[ # mm\n    [0.01, 0.2],\n    [3e2,2.5E+2,],\n  ]".toList (.table [[1 / 100, 2 / 10], [300, 250]]) :=
    .table ⟨_, .more sk2 r1 .nil (.more sk3 r2 .nil (.none sk4)), by decide +kernel⟩
  have e5 := Entries.entry (rd := id) (sample_gap 2) (key "strengths".toList (by decide +kernel) (by decide +kernel)) (sample_gap 1)
    (sample_gap 1) v sample_end .nil
  have e4 := Entries.entry (rd := id) (sample_gap 2) (key "E".toList (by decide +kernel) (by decide +kernel)) (sample_gap 1)
    (sample_gap 1) (.num n5) sample_end e5
  have e3 := Entries.entry (sample_gap 2) (key "standard".toList (by decide +kernel) (by decide +kernel)) (sample_gap 1)
    (sample_gap 0) (.str (q "x" (by unfold Plain; decide +kernel))) sample_end e4
  have e2 := Entries.entry (sample_gap 2) (key "name".toList (by decide +kernel) (by decide +kernel)) (sample_gap 1)
    (sample_gap 1) (.str (q "S" (by unfold Plain; decide +kernel))) sample_end (.blank sample_end e3)
  have e1 := Entries.entry (sample_gap 2) (key "type".toList (by decide +kernel) (by decide +kernel)) (sample_gap 0)
    (sample_gap 1) (.str (q "steel" (by unfold Plain; decide +kernel))) sample_end e2
  have en : EndLine " # rolled\n".toList :=
    ⟨[' '], "# rolled".toList, sample_gap 1, .inr ⟨" rolled".toList, by decide +kernel, by decide +kernel⟩, by decide +kernel⟩
  have e0 : EndLine "# steels\n".toList :=
    ⟨[], "# steels".toList, gap_nil, .inr ⟨" steels".toList, by decide +kernel, by decide +kernel⟩, by decide +kernel⟩
  have t := Writes.blank e0 (Writes.table (sample_gap 0) (sample_gap 0) (.quoted (q "S.1" (by unfold Plain; decide +kernel)))
    (sample_gap 0) en e1 .nil)
  rw [hz] at t
  simp only [String.ofList_toList] at t
  convert t using 1
  · decide +kernel
  · rfl

/-- it may end without the last line end -/
example : WritesFile id sampleText.dropLast sampleFile :=
  .inr (by rw [show sampleText.dropLast ++ ['\n'] = sampleText by decide +kernel]; exact sample_writes)

/-- so it loads as these tables -/
example : load id sampleText = .ok sampleFile := (C97_text (.inl sample_writes)).1 (by
  refine ⟨by decide +kernel, ?_⟩
  intro kv h d hd
  rw [sampleFile, List.mem_singleton] at h
  subst h
  injection hd with hd
  rw [← hd]
  decide +kernel)

/-- and from a file with the line ends of Windows as one material -/
example : Material.loadFileAll id ⟨fun p => if p = "s.toml" then some (crlf sampleText).utf8Encode else none, utf8, ""⟩
    (some "s.toml") = .ok [("S.1", ⟨.mat .steel, .str "S", .str "x",
      [("E", .num 200000000000), ("strengths", .table [[1 / 100, 2 / 10], [300, 250]])]⟩)] := by
  refine (C97_load (by simp) (utf8_encode _) (.inr rfl) (by decide +kernel) (.inl sample_writes) ?_ ?_).1
  · refine ⟨by decide +kernel, ?_⟩
    intro kv h d hd
    rw [sampleFile, List.mem_singleton] at h
    subst h
    injection hd with hd
    rw [← hd]
    decide +kernel
  · exact (C27_load_all _ _).1 (by decide +kernel)

/-! ### C98 -/

/-- C98, partial: a file of ASCII characters loads the same under all encodings that read ASCII.  (With other characters it does
not: `C98_counterexample`.) -/
theorem C98_ascii_partial {rd : ℚ → K} {w w' : Machine} {path : Option String} {text : List Char}
    (hl : ReadsAscii w.locale) (hl' : ReadsAscii w'.locale)
    (hf : w.files (path.getD w.materialPath) = some text.utf8Encode)
    (hf' : w'.files (path.getD w'.materialPath) = some text.utf8Encode) (ha : ∀ c ∈ text, c.toNat < 128) :
    Material.loadFileAll rd w path = Material.loadFileAll rd w' path ∧
    Material.loadFileList rd w path = Material.loadFileList rd w' path ∧
    ∀ n, Material.loadFileOne rd w path n = Material.loadFileOne rd w' path n := by
  have : Material.loadHelper rd w path = Material.loadHelper rd w' path := by
    simp only [Material.loadHelper, readToml, hf, hf', hl _ ha, hl' _ ha]
  simp only [Material.loadFileAll, Material.loadFileList, Material.loadFileOne, this, true_and, implies_true]

/-- C98: the defaults for AS4100 do not depend on the encoding of the platform, whatever is in the file; if it is missing,
`FileNotFoundError`. -/
theorem C98_defaults [Field K] [LinearOrder K] {rd : ℚ → K} {w w' : Machine} {path : Option String}
    (hf : w.files (path.getD w.defaultsPath) = w'.files (path.getD w'.defaultsPath))
    (beam : Option (Beam K (Sect K))) (sect : Option (Sect K)) :
    AS4100.getDefaults rd w path = AS4100.getDefaults rd w' path ∧
    AS4100.defaultFile rd w path beam sect = AS4100.defaultFile rd w' path beam sect ∧
    (w.files (path.getD (w.package ++ "/codecheck/as4100/as4100.toml")) = none →
      AS4100.getDefaults rd w path = .error .fileNotFound ∧
      AS4100.defaultFile rd w path beam sect = .error .fileNotFound) := by
  have : AS4100.getDefaults rd w path = AS4100.getDefaults rd w' path := by
    simp only [AS4100.getDefaults, readToml, hf]
  refine ⟨this, by simp only [AS4100.defaultFile, this], fun h => ?_⟩
  have e : AS4100.getDefaults rd w path = .error .fileNotFound := by
    simp only [AS4100.getDefaults, readToml, Machine.defaultsPath, h]
  exact ⟨e, by simp only [AS4100.defaultFile, e]; rfl⟩

/-- C98: only the file asked for matters, and without a path the one in the package; if it is missing every loader raises
`FileNotFoundError`. -/
theorem C98_frame {rd : ℚ → K} {w w' : Machine} {path : Option String} (hl : w.locale = w'.locale)
    (hf : w.files (path.getD (w.package ++ "/materials/material.toml")) =
      w'.files (path.getD (w'.package ++ "/materials/material.toml"))) :
    Material.loadFileAll rd w path = Material.loadFileAll rd w' path ∧
    Material.loadFileList rd w path = Material.loadFileList rd w' path ∧
    (∀ n, Material.loadFileOne rd w path n = Material.loadFileOne rd w' path n) ∧
    (w.files (path.getD (w.package ++ "/materials/material.toml")) = none →
      Material.loadFileAll rd w path = .error .fileNotFound ∧ Material.loadFileList rd w path = .error .fileNotFound ∧
      ∀ n, Material.loadFileOne rd w path n = .error .fileNotFound) := by
  have he : Material.loadHelper rd w path = Material.loadHelper rd w' path := by
    simp only [Material.loadHelper, readToml, Machine.materialPath, hl, hf]
  refine ⟨by simp only [Material.loadFileAll, he], by simp only [Material.loadFileList, he],
    fun n => by simp only [Material.loadFileOne, he], ?_⟩
  · intro h
    have : Material.loadHelper rd w path = .error .fileNotFound := by
      simp only [Material.loadHelper, readToml, Machine.materialPath, h]
    simp only [Material.loadFileAll, Material.loadFileList, Material.loadFileOne, this]
    exact ⟨rfl, rfl, fun _ => rfl⟩

/-- C98: read with code page 1252, five bytes are no character, the other bytes from 0x80 to 0x9f are characters beyond Latin 1, and the rest is
Latin 1; no two bytes are the same character. -/
theorem C98_windows (b : ℕ) (hb : b < 256) :
    (cp1252Byte b = none ↔ b ∈ [0x81, 0x8d, 0x8f, 0x90, 0x9d]) ∧
    (b < 0x80 ∨ 0xa0 ≤ b → cp1252Byte b = some (Char.ofNat b)) ∧
    (∀ c, cp1252Byte b = some c → 0x80 ≤ b → b < 0xa0 → 256 ≤ c.toNat) ∧
    (∀ b' < 256, ∀ c, cp1252Byte b = some c → cp1252Byte b' = some c → b = b') := by
  have h1 : ∀ b < 256, (cp1252Byte b = none ↔ b ∈ [0x81, 0x8d, 0x8f, 0x90, 0x9d]) ∧
      (b < 0x80 ∨ 0xa0 ≤ b → cp1252Byte b = some (Char.ofNat b)) ∧
      (0x80 ≤ b → b < 0xa0 → (cp1252Byte b).all (fun c => 256 ≤ c.toNat) = true) := by decide +kernel
  have h2 : ∀ b < 256, ∀ b' < 256, cp1252Byte b = cp1252Byte b' → b = b' ∨ cp1252Byte b = none := by decide +kernel
  refine ⟨(h1 b hb).1, (h1 b hb).2.1, fun c hc h h' => ?_, fun b' hb' c hc hc' => ?_⟩
  · have := (h1 b hb).2.2 h h'
    rw [hc] at this
    simpa using this
  · rcases h2 b hb b' hb' (hc.trans hc'.symm) with e | e
    · exact e
    · rw [hc] at e
      cases e

instance [DecidableEq K] : DecidableEq (String × Option (List (String × TVal K))) := fun _ _ => inferInstance

/-- a materials file with a Greek letter in quotes, as `material.toml` says it can have -/
def greekText : List Char :=
  "[a]\ntype = \"steel\"\nname = \"a\"\nstandard = \"s\"\n\"φ\" = 0.9\n".toList

/-- a machine with this file -/
noncomputable def greekMachine (dec : Decoder) : Machine := ⟨fun p => if p = "m.toml" then some greekText.utf8Encode else none, dec, ""⟩

/-- The file read where the platform's encoding is UTF-8 has the property `φ`; read on Windows with code page 1252 it loads
without an error, but the property has another name and asking for `φ` raises `KeyError`. -/
theorem C98_counterexample :
    ∃ m m', Material.loadFileOne (K := ℚ) id (greekMachine utf8) (some "m.toml") "a" = .ok m ∧
      Material.loadFileOne (K := ℚ) id (greekMachine cp1252) (some "m.toml") "a" = .ok m' ∧
      m.property "φ" = .ok (.num (9 / 10)) ∧ m'.property "φ" = .error .keyError ∧
      m'.property "Ï†" = .ok (.num (9 / 10)) := by
  refine ⟨⟨.mat .steel, .str "a", .str "s", [("φ", .num (9 / 10))]⟩,
    ⟨.mat .steel, .str "a", .str "s", [("Ï†", .num (9 / 10))]⟩, ?_, ?_, by decide +kernel, by decide +kernel,
    by decide +kernel⟩
  · have : Material.loadHelper (K := ℚ) id (greekMachine utf8) (some "m.toml") = Toml.load id (universalNewlines greekText) := by
      simp only [Material.loadHelper, readToml, greekMachine, Option.getD_some, if_true, utf8_encode]
    rw [Material.loadFileOne, this]
    decide +kernel
  · decide +kernel

/-- the hypotheses of `C98_ascii_partial`: the same file under UTF-8 and under code page 1252 -/
example : Material.loadFileAll (K := ℚ) id ⟨fun _ => some sampleText.utf8Encode, utf8, "a"⟩ (some "s.toml") =
    Material.loadFileAll id ⟨fun _ => some sampleText.utf8Encode, cp1252, "b"⟩ (some "s.toml") :=
  (C98_ascii_partial utf8_ascii cp1252_ascii rfl rfl (by decide +kernel)).1

/-! ### C99 -/

set_option maxRecDepth 200000 in
theorem ascii_material : ∀ c ∈ materialToml.toList, c.toNat < 128 ∧ c ≠ '\r' := by
  have : (materialToml.toList.all fun c => decide (c.toNat < 128 ∧ c ≠ '\r')) = true := by
    rw [show materialToml = String.ofList _ from rfl, String.toList_ofList]
    decide +kernel
  simpa using this

set_option maxRecDepth 200000 in
theorem parse_material : Toml.load id materialToml.toList = .ok shippedFile := by
  rw [show materialToml = String.ofList _ from rfl, String.toList_ofList]
  decide +kernel

set_option maxRecDepth 20000 in
theorem parse_defaults : Toml.load id as4100Toml.toList = .ok shippedDefaults := by
  rw [show as4100Toml = String.ofList _ from rfl, String.toList_ofList]
  decide +kernel

set_option maxRecDepth 20000 in
theorem noreturn_defaults : '\r' ∉ as4100Toml.toList := by
  rw [show as4100Toml = String.ofList _ from rfl, String.toList_ofList]
  decide +kernel

/-- C99: on every platform whose encoding reads ASCII, with the line ends of Unix or Windows, the package's file gives the
materials of the model, with every number read by the program's conversion `rd`. -/
theorem C99_materials {rd : ℚ → K} {w : Machine} {text : List Char} (hl : ReadsAscii w.locale)
    (ht : text = materialToml.toList ∨ text = crlf materialToml.toList)
    (hf : w.files (w.package ++ "/materials/material.toml") = some text.utf8Encode) :
    Material.loadFileAll rd w none = Material.loadAll (shippedFile.map rd) ∧
    Material.loadFileList rd w none = .ok (Material.loadList shippedFile) ∧
    ∀ n, Material.loadFileOne rd w none n = Material.loadOne (shippedFile.map rd) n := by
  have hasc := ascii_material
  have hparse := parse_material
  generalize materialToml.toList = T at ht hasc hparse
  have hr : '\r' ∉ T := fun h => (hasc _ h).2 rfl
  have ha : ∀ c ∈ text, c.toNat < 128 := by
    rcases ht with rfl | rfl
    · exact fun c h => (hasc c h).1
    · intro c h
      simp only [crlf, List.mem_flatMap] at h
      obtain ⟨d, hd, hc⟩ := h
      split at hc
      · simp only [List.mem_cons, List.not_mem_nil, or_false] at hc
        rcases hc with rfl | rfl <;> decide
      · rw [List.mem_singleton.1 hc]; exact (hasc d hd).1
  have hn : universalNewlines text = T := by
    rcases ht with rfl | rfl
    · exact newlines_none hr
    · exact newlines_crlf hr
  have h1 : Material.loadHelper rd w none = .ok (shippedFile.map rd) := by
    simp only [Material.loadHelper, readToml, Machine.materialPath, Option.getD_none, hf, hl _ ha, hn]
    rw [load_map, hparse]
    rfl
  refine ⟨?_, ?_, fun n => ?_⟩
  · rw [Material.loadFileAll, h1]; rfl
  · rw [Material.loadFileList, h1]
    simp only [Material.loadList, MatFile.map]
    rfl
  · rw [Material.loadFileOne, h1]; rfl

/-- C99: on every platform the package's file gives the defaults of the model. -/
theorem C99_defaults [Field K] [LinearOrder K] {w : Machine} {text : List Char} (rd : ℚ → K)
    (ht : text = as4100Toml.toList ∨ text = crlf as4100Toml.toList)
    (hf : w.files (w.package ++ "/codecheck/as4100/as4100.toml") = some text.utf8Encode)
    (beam : Option (Beam K (Sect K))) (sect : Option (Sect K)) :
    AS4100.getDefaults rd w none = .ok [("defaults", some
      [("φ_steel", .num (rd (9 / 10))), ("kt", .num (rd 1)), ("αu", .num (rd (85 / 100)))])] ∧
    AS4100.defaultFile rd w none beam sect = AS4100.new (rd (9 / 10)) (rd (85 / 100)) (rd 1) beam sect := by
  have hr := noreturn_defaults
  have hparse := parse_defaults
  generalize as4100Toml.toList = T at ht hr hparse
  have hn : universalNewlines text = T := by
    rcases ht with rfl | rfl
    · exact newlines_none hr
    · exact newlines_crlf hr
  have h1 : AS4100.getDefaults rd w none = .ok [("defaults", some
      [("φ_steel", .num (rd (9 / 10))), ("kt", .num (rd 1)), ("αu", .num (rd (85 / 100)))])] := by
    simp only [AS4100.getDefaults, readToml, Machine.defaultsPath, Option.getD_none, hf, utf8_encode, hn]
    rw [load_map, hparse]
    have : (90 / 100 : ℚ) = 9 / 10 := by norm_num
    simp only [Except.map, shippedDefaults, MatFile.map, List.map_cons, List.map_nil, Option.map_some, TVal.map, this]
  refine ⟨h1, ?_⟩
  rw [AS4100.defaultFile, h1]
  simp only [ok_bind]
  unfold AS4100.defaultFrom AS4100.ofDefaults
  simp [as4100Params, List.lookup]

/-- the hypotheses of `C99_materials`: a checkout on Windows with its own line ends and encoding -/
example (n : String) : Material.loadFileOne id ⟨fun _ => some (crlf materialToml.toList).utf8Encode, cp1252, "C:"⟩ none n =
    Material.loadOne (shippedFile.map id) n := (C99_materials cp1252_ascii (.inr rfl) rfl).2.2 n

end BeamDesign
