import Verif.Lemmas.Repr
import Mathlib.Data.List.Perm.Basic

/-!
# C109: the texts objects are printed as
-/

namespace BeamDesign

open Spec

variable {K S : Type}

/-- C109, partial: a beam is printed if all its elements have a length. -/
theorem C109_beam_partial [Field K] [LinearOrder K] (rt : Rt K) (t : Text K) {arg : ElementsArg K S} {b : Beam K S}
    (hb : Beam.new arg = .ok b) :
    ((∃ s, b.repr rt t = .ok s) ↔ ∀ e ∈ b.elements, e.length ≠ none) ∧
    ((∃ e ∈ b.elements, e.length = none) → b.repr rt t = .error .typeError) := by
  have hne : b.elements ≠ [] := by
    have hc : ∀ es l, Beam.checkElements (K := K) (S := S) es = .ok l → l ≠ [] := by
      intro es l h
      simp only [Beam.checkElements] at h
      split_ifs at h with h1
      split at h
      · cases h
      · rename_i e1
        split_ifs at h
        rw [Except.ok.injEq] at h
        rw [← h, e1]
        simp
    cases arg with
    | none => cases hb
    | single e =>
      simp only [Beam.new] at hb
      cases h : Beam.checkElements [some e] with
      | error _ => rw [h] at hb; cases hb
      | ok l => rw [h] at hb; injection hb with hb; rw [← hb]; exact hc _ _ h
    | list es =>
      cases es with
      | nil => cases hb
      | cons a es =>
        simp only [Beam.new] at hb
        cases h : Beam.checkElements (a :: es) with
        | error _ => rw [h] at hb; cases hb
        | ok l => rw [h] at hb; injection hb with hb; rw [← hb]; exact hc _ _ h
  have good : (∀ e ∈ b.elements, e.length ≠ none) → ∃ s, b.repr rt t = .ok s := by
    intro h
    obtain ⟨ls, hls⟩ : ∃ ls, b.lengths = .ok ls := by
      unfold Beam.lengths
      clear hne hb
      generalize b.elements = es at h
      induction es with
      | nil => exact ⟨_, rfl⟩
      | cons e es ih =>
        obtain ⟨ls, hls⟩ := ih fun e he => h e (List.mem_cons_of_mem _ he)
        obtain ⟨l, hl⟩ := Option.ne_none_iff_exists'.1 (h e List.mem_cons_self)
        rw [List.mapM_cons, hls]
        simp only [Element.len, hl]
        exact ⟨_, rfl⟩
    obtain ⟨e, es, he⟩ := List.exists_cons_of_ne_nil hne
    simp only [Beam.repr, Beam.length, hls, Beam.noLoadCases, Beam.loadCases, he]
    exact ⟨_, rfl⟩
  have bad : (∃ e ∈ b.elements, e.length = none) → b.repr rt t = .error .typeError := by
    intro h
    have : b.lengths = .error .typeError := by
      unfold Beam.lengths
      clear hne hb good
      generalize b.elements = es at h
      induction es with
      | nil => obtain ⟨e, he, -⟩ := h; cases he
      | cons e es ih =>
        rw [List.mapM_cons]
        cases hl : e.length with
        | none => simp only [Element.len, hl]; rfl
        | some l =>
          obtain ⟨e', he', h0⟩ := h
          rcases List.mem_cons.1 he' with rfl | he'
          · rw [h0] at hl; cases hl
          · simp only [Element.len, hl]
            have := ih ⟨e', he', h0⟩
            change (do let y ← List.mapM Element.len es; pure (l :: y)) = _
            rw [this]; rfl
    simp only [Beam.repr, Beam.length, this]
    rfl
  refine ⟨⟨fun ⟨s, hs⟩ e he h0 => ?_, good⟩, bad⟩
  rw [bad ⟨e, he, h0⟩] at hs
  cases hs

/-- C109, partial: the text of a beam tells its length, its number of elements and its number of load cases. -/
theorem C109_beam_text_partial [Field K] [LinearOrder K] {rt : Rt K} {t : Text K} {F : Set (Num K)} (ht : Legible t.num F)
    {b b' : Beam K S} {l l' : Num K} {s : String} (hl : b.length rt = .ok l) (hl' : b'.length rt = .ok l') (hF : l ∈ F) (hF' : l' ∈ F)
    (h : b.repr rt t = .ok s) (h' : b'.repr rt t = .ok s) :
    l = l' ∧ b.noElements = b'.noElements ∧ b.noLoadCases = b'.noLoadCases := by
  have c1 : ", ".toList = [',', ' '] := by decide
  have c2 : ")".toList = [')'] := by decide
  have hd : ∀ n : ℕ, ∀ c ∈ (toString n).toList, c ≠ ',' ∧ c ≠ ')' := by
    intro n c hc
    have := digits_plain n c hc
    constructor <;> rintro rfl <;> revert this <;> decide
  have inj : ∀ m n : ℕ, (toString m).toList = (toString n).toList → m = n := fun m n h => Nat.repr_injective (String.toList_inj.1 h)
  simp only [Beam.repr, hl] at h
  simp only [Beam.repr, hl'] at h'
  cases hc : b.noLoadCases with
  | error _ => rw [hc] at h; cases h
  | ok c =>
  cases hc' : b'.noLoadCases with
  | error _ => rw [hc'] at h'; cases h'
  | ok c' =>
  rw [hc] at h
  rw [hc'] at h'
  have e := h.trans h'.symm
  injection e with e
  have e := congrArg String.toList e
  simp only [String.toList_append, List.append_assoc, List.append_cancel_left_eq, c1, c2, List.cons_append, List.nil_append] at e
  obtain ⟨e1, -, e2⟩ := split_at (p := (· ≠ ',')) (fun x hx => (ht.plain l hF x hx).1) (fun x hx => (ht.plain l' hF' x hx).1)
    (by simp) (by simp) e
  simp only [List.cons.injEq, true_and, List.append_cancel_left_eq] at e2
  obtain ⟨e3, -, e4⟩ := split_at (p := (· ≠ ',')) (fun x hx => (hd _ x hx).1) (fun x hx => (hd _ x hx).1) (by simp) (by simp) e2
  simp only [List.cons.injEq, true_and, List.append_cancel_left_eq] at e4
  obtain ⟨e5, -, -⟩ := split_at (p := (· ≠ ')')) (fun x hx => (hd _ x hx).2) (fun x hx => (hd _ x hx).2) (by simp) (by simp) e4
  exact ⟨ht.inj hF hF' (String.toList_inj.1 e1), inj _ _ e3, by rw [inj _ _ e5]⟩

/-- C109: a beam with an element without a length cannot be printed, although the element can. -/
theorem C109_beam_counterexample : ∃ b : Beam ℚ (Option (Sect ℚ)), Beam.new (.list (b.elements.map some)) = .ok b ∧
    ∀ t : Text ℚ, b.repr (Rt.exact ℚ) t = .error .typeError := by
  refine ⟨⟨[⟨[(0, ⟨none⟩)], none, none⟩]⟩, by decide +kernel, fun t => ?_⟩
  exact (C109_beam_partial _ t (arg := .list [some ⟨[(0, ⟨none⟩)], none, none⟩]) (by decide +kernel)).2 ⟨_, List.mem_cons_self, rfl⟩

/-- C109: the text of an element with a circular section never shows the material of the section where it says so; it shows the section
again. -/
theorem C109_element_counterexample (t : Text K) (e : Element K (Option (Sect K))) (r : K) (m : Option (Material K))
    (h : e.sect = some (.circle r m)) : e.repr t ≠ elementText t e (.circle r m) := by
  intro heq
  have e1 : Sect.reprOpt t e.sect = Sect.repr t (.circle r m) := by rw [h]; rfl
  have e2 : (Sect.repr t (.circle r m)).toList = "Circle(".toList ++ ("radius=" ++ t.scalar r ++ ", ").toList ++
      ("material=".toList ++ (Material.reprOpt t m).toList) ++ ")".toList := by
    rw [← String.toList_append, ← String.toList_append, ← String.toList_append, ← String.toList_append]; rfl
  have l : ")".toList.length = 1 := by decide
  have e3 : (Material.reprOpt t m).toList.length < (Sect.repr t (.circle r m)).toList.length := by
    rw [e2]
    simp only [List.length_append, l]
    omega
  unfold Element.repr elementText at heq
  rw [e1] at heq
  have e4 := congrArg (fun s => s.toList.length) heq
  have g : Sect.material (.circle r m) = m := rfl
  have a1 : ", section=".toList.length = 10 := by decide
  have a2 : ", material=".toList.length = 11 := by decide
  have a3 : ", no. load cases=".toList.length = 17 := by decide
  have a4 : "Element(length=".toList.length = 15 := by decide
  have b1 : "section=".toList.length = 8 := by decide
  have b2 : "material=".toList.length = 9 := by decide
  have b3 : "no. load cases=".toList.length = 15 := by decide
  have b4 : "Element(".toList.length = 8 := by decide
  have b5 : "length=".toList.length = 7 := by decide
  have b6 : ", ".toList.length = 2 := by decide
  simp only [String.toList_append, List.length_append, g, a1, a2, a3, a4, b1, b2, b3, b4, b5, b6, l] at e4
  omega

/-- C109, partial: the text of an element with a circular section tells its length, its number of load cases, the radius and what is printed
of the material of the section.  Missing: the text says that the section is the material (`C109_element_counterexample`). -/
theorem C109_element_partial {t : Text K} {F : Set (Num K)} {G : Set K} (ht : Legible t.num F) (hg : Legible t.scalar G)
    {e e' : Element K (Option (Sect K))} {l l' : Num K} {r r' : K} {m m' : Option (Material K)} (hl : e.length = some l)
    (hl' : e'.length = some l') (hF : l ∈ F) (hF' : l' ∈ F) (hr : e.sect = some (.circle r m)) (hr' : e'.sect = some (.circle r' m'))
    (hG : r ∈ G) (hG' : r' ∈ G) (h : e.repr t = e'.repr t) :
    l = l' ∧ e.noLoadCases = e'.noLoadCases ∧ r = r' ∧ Material.reprOpt t m = Material.reprOpt t m' := by
  have c1 : ", ".toList = [',', ' '] := by decide
  have c2 : ")".toList = [')'] := by decide
  have c3 : "no. load cases=".toList = "no. load cases".toList ++ ['='] := by decide
  have hd : ∀ n : ℕ, ∀ c ∈ (toString n).toList.reverse, c ≠ '=' := by
    intro n c hc
    have := digits_plain n c (List.mem_reverse.1 hc)
    rintro rfl
    revert this
    decide
  have h := congrArg String.toList h
  simp only [Element.repr, hl, hl', Text.length, String.toList_append, List.append_assoc, List.append_cancel_left_eq, c1, c2,
    List.cons_append, List.nil_append] at h
  obtain ⟨e1, -, e2⟩ := split_at (p := (· ≠ ',')) (fun x hx => (ht.plain l hF x hx).1) (fun x hx => (ht.plain l' hF' x hx).1)
    (by simp) (by simp) h
  have el : l = l' := ht.inj hF hF' (String.toList_inj.1 e1)
  simp only [List.cons.injEq, true_and, List.append_cancel_left_eq] at e2
  have e3 := congrArg List.reverse e2
  simp only [c3, List.reverse_append, List.reverse_cons, List.append_assoc, List.reverse_nil, List.cons_append, List.nil_append,
    List.cons.injEq, true_and] at e3
  obtain ⟨e4, -, e5⟩ := split_at (p := (· ≠ '=')) (hd _) (hd _) (by simp) (by simp) e3
  have en : e.noLoadCases = e'.noLoadCases := Nat.repr_injective (String.toList_inj.1 (List.reverse_injective e4))
  rw [en] at e2
  have hlen := congrArg List.length e2
  simp only [List.length_append, List.length_cons] at hlen
  have hX := (List.append_inj e2 (by omega)).1
  rw [hr, hr'] at hX
  simp only [Sect.reprOpt, Sect.repr, String.toList_append, List.append_assoc, List.append_cancel_left_eq, c1, c2,
    List.cons_append, List.nil_append] at hX
  obtain ⟨e6, -, e7⟩ := split_at (p := (· ≠ ',')) (fun x hx => (hg.plain r hG x hx).1) (fun x hx => (hg.plain r' hG' x hx).1)
    (by simp) (by simp) hX
  simp only [List.cons.injEq, true_and, List.append_cancel_left_eq, List.append_cancel_right_eq] at e7
  exact ⟨el, en, hg.inj hG hG' (String.toList_inj.1 e6), String.toList_inj.1 e7⟩

/-- C109: materials with different strengths are printed alike. -/
theorem C109_material_counterexample : ∃ m m' : Material ℚ, m ≠ m' ∧ ∀ t : Text ℚ, m.repr t = m'.repr t := by
  refine ⟨⟨.mat .steel, .str "S", .str "A", []⟩, ⟨.mat .steel, .str "S", .str "A", [("E", .num 1)]⟩, by decide +kernel, fun t => rfl⟩

/-- C109, partial: the text of a material with a type, a name and a standard tells these three if neither name has a comma. -/
theorem C109_material_partial (t : Text K) {m m' : Material K} {n n' s s' : String} {k k' : MatType} (hk : m.type = .mat k)
    (hk' : m'.type = .mat k') (hn : m.name = .str n) (hn' : m'.name = .str n') (hs : m.standard = .str s) (hs' : m'.standard = .str s')
    (c : ',' ∉ n.toList) (c' : ',' ∉ n'.toList) (h : m.repr t = m'.repr t) : k = k' ∧ n = n' ∧ s = s' := by
  have c1 : ", ".toList = [',', ' '] := by decide
  simp only [Material.repr, hk, hk', hn, hn', hs, hs', Text.value, Text.type] at h
  have e := congrArg String.toList h
  simp only [String.toList_append, List.append_assoc, List.append_cancel_left_eq] at e
  have hkk : k = k' := by
    have d1 : "MatType.steel".toList = ['M', 'a', 't', 'T', 'y', 'p', 'e', '.', 's', 't', 'e', 'e', 'l'] := by decide
    have d2 : "MatType.concrete".toList = ['M', 'a', 't', 'T', 'y', 'p', 'e', '.', 'c', 'o', 'n', 'c', 'r', 'e', 't', 'e'] := by decide
    cases k <;> cases k' <;> simp [d1, d2] at e ⊢
  subst hkk
  simp only [List.append_cancel_left_eq, c1, List.cons_append, List.nil_append, List.cons.injEq, true_and] at e
  obtain ⟨e1, -, e2⟩ := split_at (p := (· ≠ ',')) (fun x hx hc => c (hc ▸ hx)) (fun x hx hc => c' (hc ▸ hx)) (by simp) (by simp) e
  simp only [List.append_cancel_left_eq, List.append_cancel_right_eq, List.cons.injEq, true_and] at e2
  exact ⟨rfl, String.toList_inj.1 e1, String.toList_inj.1 e2⟩

/-- C109: `str` of a symmetry is the same as that of a doubly symmetric section exactly for the axes x and y, in either order; with no axes
given it is a TypeError. -/
theorem C109_str (s : Symmetry) :
    (s.str = (⟨some [.str "x", .str "y"]⟩ : Symmetry).str ↔ s.axes = some [.str "x", .str "y"] ∨ s.axes = some [.str "y", .str "x"]) ∧
    (s.str = .error .typeError ↔ s.axes = none) ∧ (∀ e, s.str = .error e → e = .typeError) := by
  have hd : (⟨some [.str "x", .str "y"]⟩ : Symmetry).str = .ok "Double" := by
    simp [Symmetry.str, Symmetry.symmetry, Axis.isStr, SymKind.name]
  obtain ⟨_ | l⟩ := s
  · refine ⟨?_, by simp [Symmetry.str, Symmetry.symmetry], fun e h => ?_⟩
    · rw [hd]
      constructor
      · intro h; cases h
      · rintro (h | h) <;> cases h
    · injection h with h; exact h.symm
  · have ok : ∃ k, (⟨some l⟩ : Symmetry).symmetry = .ok k ∧ (⟨some l⟩ : Symmetry).str = .ok k.name := ⟨_, rfl, rfl⟩
    obtain ⟨k, h1, h2⟩ := ok
    refine ⟨?_, ?_, fun e h => ?_⟩
    · rw [hd, h2]
      have : (Except.ok k.name : Py String) = .ok "Double" ↔ k = .double := by
        cases k <;> simp [SymKind.name]
      rw [this]
      simp only [Symmetry.symmetry, Except.ok.injEq] at h1
      rw [← h1]
      simp only [Option.some.injEq]
      match l with
      | [] => simp
      | [a] => simp only [List.length_singleton]; split_ifs <;> simp_all
      | [a, b] =>
        simp only [List.length_cons, List.length_nil]
        cases a with
        | angle x =>
          cases b with
          | angle y => simp [Axis.isStr]
          | str v =>
            simp only [Axis.isStr, List.any_cons, List.any_nil, Bool.false_or, Bool.or_false, beq_iff_eq]
            by_cases hv : v = "x" <;> simp [hv]
        | str u =>
          cases b with
          | angle y =>
            simp only [Axis.isStr, List.any_cons, List.any_nil, Bool.or_false, beq_iff_eq]
            by_cases hv : u = "x" <;> simp [hv]
          | str v =>
            simp only [Axis.isStr, List.any_cons, List.any_nil, Bool.or_false, Bool.or_eq_true, beq_iff_eq]
            by_cases h1 : u = "x" <;> by_cases h2 : v = "x" <;> by_cases h3 : u = "y" <;> by_cases h4 : v = "y" <;> simp_all
      | a :: b :: c :: l => simp
    · rw [h2]; simp
    · rw [h2] at h; cases h

theorem axis_inj {t : Text K} {F : Set ℝ} (ht : Legible t.real F) (pr : Char → Bool) {a a' : Axis} (ha : ∀ x, a = .angle x → x ∈ F)
    (ha' : ∀ x, a' = .angle x → x ∈ F) {c c' : Char} {r r' : List Char} (hc : c = ',' ∨ c = ']') (hc' : c' = ',' ∨ c' = ']')
    (h : a.repr t pr ++ c :: r = a'.repr t pr ++ c' :: r') : a = a' ∧ c = c' ∧ r = r' := by
  have head : ∀ (s : String) (x : ℝ) (u v : List Char), x ∈ F → reprStr pr s ++ u ≠ (t.real x).toList ++ v := by
    intro s x u v hx e
    have h0 := ht.nonempty x hx
    cases hl : (t.real x).toList with
    | nil => exact h0 (String.toList_inj.1 (hl.trans rfl))
    | cons d l =>
      rw [hl] at e
      injection e with e1 e2
      have := ht.plain x hx d (by rw [hl]; exact List.mem_cons_self)
      rcases reprQuote_isQuote s.toList with h | h <;> rw [h] at e1
      · exact this.2.2.1 e1.symm
      · exact this.2.2.2 e1.symm
  cases a with
  | str s =>
    cases a' with
    | str s' =>
      obtain ⟨e1, e2⟩ := reprStr_inj pr h
      injection e2 with e2 e3
      exact ⟨by rw [e1], e2, e3⟩
    | angle x => exact absurd h (head s x _ _ (ha' x rfl))
  | angle x =>
    cases a' with
    | str s => exact absurd h.symm (head s x _ _ (ha x rfl))
    | angle y =>
      have q : ∀ d, d = ',' ∨ d = ']' → ¬ (d ≠ ',' ∧ d ≠ ']') := by rintro d (rfl | rfl) <;> simp
      obtain ⟨e1, e2, e3⟩ := split_at (p := fun d => d ≠ ',' ∧ d ≠ ']')
        (fun d hd => ⟨(ht.plain x (ha x rfl) d hd).1, (ht.plain x (ha x rfl) d hd).2.1⟩)
        (fun d hd => ⟨(ht.plain y (ha' y rfl) d hd).1, (ht.plain y (ha' y rfl) d hd).2.1⟩) (q c hc) (q c' hc') h
      exact ⟨by rw [ht.inj (ha x rfl) (ha' y rfl) (String.toList_inj.1 e1)], e2, e3⟩

theorem rest_head (t : Text K) (pr : Char → Bool) (l : List Axis) : ∃ c r, reprRest t pr l = c :: r ∧ (c = ',' ∨ c = ']') := by
  cases l with
  | nil => exact ⟨_, _, rfl, Or.inr rfl⟩
  | cons a l => exact ⟨_, _, rfl, Or.inl rfl⟩

theorem rest_inj {t : Text K} {F : Set ℝ} (ht : Legible t.real F) (pr : Char → Bool) {l l' : List Axis} {r r' : List Char}
    (hl : ∀ x, Axis.angle x ∈ l → x ∈ F) (hl' : ∀ x, Axis.angle x ∈ l' → x ∈ F)
    (h : reprRest t pr l ++ r = reprRest t pr l' ++ r') : l = l' := by
  induction l generalizing l' with
  | nil =>
    cases l' with
    | nil => rfl
    | cons a l' =>
      injection h with h1
      exact absurd h1 (by decide)
  | cons a l ih =>
    cases l' with
    | nil =>
      injection h with h1
      exact absurd h1 (by decide)
    | cons a' l' =>
      simp only [reprRest, List.cons_append, List.cons.injEq, true_and, List.append_assoc] at h
      obtain ⟨c, u, e, hc⟩ := rest_head t pr l
      obtain ⟨c', u', e', hc'⟩ := rest_head t pr l'
      have h2 := h
      rw [e, e', List.cons_append, List.cons_append] at h2
      obtain ⟨e1, e2, e3⟩ := axis_inj ht pr (fun x hx => hl x (by rw [← hx]; exact List.mem_cons_self))
        (fun x hx => hl' x (by rw [← hx]; exact List.mem_cons_self)) hc hc' h2
      rw [e1, ih (fun x hx => hl x (List.mem_cons_of_mem _ hx)) (fun x hx => hl' x (List.mem_cons_of_mem _ hx))]
      rw [e, e', List.cons_append, List.cons_append, e2, e3]

/-- C109: two symmetries are printed alike only if they have the same axes, in the same order; the strings may contain quotes, commas, line
ends or any other characters. -/
theorem C109_symmetry {t : Text K} {F : Set ℝ} (ht : Legible t.real F) (printable : Char → Bool) {s s' : Symmetry} (hF : Angles F s)
    (hF' : Angles F s') : s.repr t printable = s'.repr t printable ↔ s.axes = s'.axes := by
  constructor
  · intro h
    have e := congrArg String.toList h
    simp only [Symmetry.repr, String.toList_append, List.append_assoc, List.append_cancel_left_eq, List.append_cancel_right_eq] at e
    have c0 : "None".toList = ['N', 'o', 'n', 'e'] := by decide
    obtain ⟨a⟩ := s
    obtain ⟨a'⟩ := s'
    cases a with
    | none =>
      cases a' with
      | none => rfl
      | some l' =>
        simp only [c0, String.toList_ofList] at e
        cases l' <;> simp [reprList] at e
    | some l =>
      cases a' with
      | none =>
        simp only [c0, String.toList_ofList] at e
        cases l <;> simp [reprList] at e
      | some l' =>
        simp only [String.toList_ofList] at e
        have start : ∀ a : Axis, (∀ x, a = .angle x → x ∈ F) → ∀ u, a.repr t printable ++ u ≠ [']'] := by
          intro a ha u e
          cases a with
          | str w =>
            injection e with e1
            rcases reprQuote_isQuote w.toList with h | h <;> rw [h] at e1 <;> exact absurd e1 (by decide)
          | angle x =>
            cases hl : (t.real x).toList with
            | nil => exact ht.nonempty x (ha x rfl) (String.toList_inj.1 (hl.trans rfl))
            | cons d v =>
              simp only [Axis.repr, hl, List.cons_append] at e
              injection e with e1
              exact (ht.plain x (ha x rfl) d (by rw [hl]; exact List.mem_cons_self)).2.1 e1
        cases l with
        | nil =>
          cases l' with
          | nil => rfl
          | cons b l' =>
            injection e with _ e
            exact absurd e.symm (start b (fun x hx => hF' _ rfl x (by rw [← hx]; exact List.mem_cons_self)) _)
        | cons a l =>
          cases l' with
          | nil =>
            injection e with _ e
            exact absurd e (start a (fun x hx => hF _ rfl x (by rw [← hx]; exact List.mem_cons_self)) _)
          | cons b l' =>
            have : a :: l = b :: l' := by
              apply rest_inj ht printable (r := []) (r' := []) (hF _ rfl) (hF' _ rfl)
              injection e with _ e
              simp only [reprRest, e]
            rw [this]
  · intro h
    simp only [Symmetry.repr, h]

/-- texts of whole numbers: the conditions on the printing of numbers are met -/
theorem legible_nat : Legible (fun x : ℝ => toString ⌊x⌋₊) (Set.range ((↑) : ℕ → ℝ)) := by
  refine ⟨?_, ?_, ?_⟩
  · rintro _ ⟨m, rfl⟩ _ ⟨n, rfl⟩ h
    simp only [Nat.floor_natCast] at h
    rw [Nat.repr_injective h]
  · rintro _ ⟨n, rfl⟩ h
    have : 0 < (toString ⌊(n : ℝ)⌋₊).toList.length := by
      rw [List.length_pos_iff]
      simp [toString, Nat.repr]
    rw [h] at this
    exact absurd this (by decide)
  · rintro _ ⟨n, rfl⟩ c hc
    have := digits_plain _ c hc
    refine ⟨?_, ?_, ?_, ?_⟩ <;> rintro rfl <;> revert this <;> decide

/-- numbers printed as different whole numbers -/
theorem legible_of {α : Type} (f : α → ℕ) {F : Set α} (hf : F.InjOn f) : Legible (fun x => toString (f x)) F := by
  refine ⟨fun x hx y hy h => hf hx hy (Nat.repr_injective h), fun x _ h => ?_, fun x _ c hc => ?_⟩
  · have : 0 < (toString (f x)).toList.length := by
      rw [List.length_pos_iff]
      simp [toString, Nat.repr]
    rw [h] at this
    exact absurd this (by decide)
  · have := digits_plain _ c hc
    refine ⟨?_, ?_, ?_, ?_⟩ <;> rintro rfl <;> revert this <;> decide

/-- rods of radius 1 and 2 are told apart -/
example (t : Text ℚ) (hn : t.num = fun x => toString x.val.num.natAbs) (hs : t.scalar = fun x => toString x.num.natAbs) :
    Element.repr t ⟨[], some (.flt 3), some (.circle 1 none)⟩ ≠ Element.repr t ⟨[], some (.flt 3), some (.circle 2 none)⟩ := by
  intro h
  have := (C109_element_partial (t := t) (F := {.flt 3}) (G := {1, 2}) (by rw [hn]; exact legible_of _ (by simp))
    (by rw [hs]; exact legible_of _ (by rintro x (rfl | rfl) y (rfl | rfl) <;> decide +kernel)) rfl rfl rfl rfl rfl rfl (by simp) (by simp) h).2.2.1
  norm_num at this

/-- a string with the characters of a list is told from a list of strings -/
example (t : Text ℚ) (pr : Char → Bool) (ht : t.real = fun x => toString ⌊x⌋₊) :
    Symmetry.repr t pr ⟨some [.str "x', 'y", .angle 3]⟩ ≠ Symmetry.repr t pr ⟨some [.str "x", .str "y", .angle 3]⟩ := by
  intro h
  have h3 : (3 : ℝ) ∈ Set.range ((↑) : ℕ → ℝ) := ⟨3, by norm_num⟩
  have := (C109_symmetry (F := Set.range ((↑) : ℕ → ℝ)) (by rw [ht]; exact legible_nat) pr
    (by rintro l ⟨⟩ x hx; simp at hx; rw [hx]; exact h3) (by rintro l ⟨⟩ x hx; simp at hx; rw [hx]; exact h3)).1 h
  simp at this

/-- Python's own texts: `repr(["it's", 'a"b\n'])` -/
example (t : Text ℚ) (pr : Char → Bool) : reprList t pr [.str "it's", .str "a\"b\n"] = "[\"it's\", 'a\"b\\n']".toList := by
  rfl

/-- a beam of two elements with its text -/
example (t : Text ℚ) (ht : t.num ⟨5, false⟩ = "5.0") : (⟨[⟨[(0, ⟨none⟩)], some ⟨2, false⟩, none⟩, ⟨[(0, ⟨none⟩)], some ⟨3, false⟩, none⟩]⟩ :
    Beam ℚ (Option (Sect ℚ))).repr (Rt.exact ℚ) t = .ok "Beam(length=5.0, no. elements=2, no. load cases=1)" := by
  have h : (⟨[⟨[(0, ⟨none⟩)], some ⟨2, false⟩, none⟩, ⟨[(0, ⟨none⟩)], some ⟨3, false⟩, none⟩]⟩ :
    Beam ℚ (Option (Sect ℚ))).length (Rt.exact ℚ) = .ok ⟨5, false⟩ := by decide +kernel
  simp only [Beam.repr, h]
  change Except.ok ("Beam(" ++ ("length=" ++ t.num ⟨5, false⟩ ++ ", ") ++ _ ++ _ ++ ")") = _
  rw [ht]
  rfl

end BeamDesign
