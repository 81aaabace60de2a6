import Verif.Lemmas.Segments
import Verif.Spec.Mesh

/-!
# Lemmas about redundant points, cut elements and mirrored beams
-/

set_option linter.unusedSectionVars false

namespace BeamDesign

open Spec

section
variable {K : Type} [Field K] [LinearOrder K] [IsStrictOrderedRing K]

/-- The curve between the rows `A` before `x` and the rows `B` after it. -/
def curveAt (A B : List (LRow K)) (c : LComp) (x : K) : K :=
  match A.getLast?, B.head? with
  | none, none => 0
  | none, some b => b.get c
  | some a, none => a.get c
  | some a, some b => a.get c + (b.get c - a.get c) * ((x - a.pos) / (b.pos - a.pos))

theorem onCurve_split {A B : List (LRow K)} {c : LComp} {x v : K} (hA : ∀ r ∈ A, r.pos < x) (hB : ∀ r ∈ B, x < r.pos)
    (h : OnCurve (A ++ B) c x v) : v = curveAt A B c x := by
  rcases h with ⟨f, rest, he, hp, rfl⟩ | ⟨ini, l, he, hp, rfl⟩ | ⟨pre, a, b, post, he, ha, hb, rfl⟩
  · cases A with
    | nil =>
      rw [List.nil_append] at he
      subst he
      rfl
    | cons a A =>
      rw [List.cons_append, List.cons.injEq] at he
      obtain ⟨rfl, -⟩ := he
      exact absurd (hA a List.mem_cons_self) (not_lt.2 hp.le)
  · rcases List.eq_nil_or_concat B with rfl | ⟨B', b, rfl⟩
    · rw [List.append_nil] at he
      subst he
      simp [curveAt, entry_eq]
    · rw [List.concat_eq_append, ← List.append_assoc] at he
      obtain ⟨-, he⟩ := List.append_inj' he rfl
      cases he
      exact absurd (hB l (by simp)) (not_lt.2 hp.le)
  · have he' : A ++ B = (pre ++ [a]) ++ (b :: post) := by rw [he]; simp
    rcases List.append_eq_append_iff.1 he' with ⟨l, h1, h2⟩ | ⟨l, h1, h2⟩
    · rcases List.eq_nil_or_concat l with rfl | ⟨l', z, rfl⟩
      · rw [List.append_nil] at h1
        rw [List.nil_append] at h2
        subst h1 h2
        simp [curveAt, entry_eq]
      · rw [List.concat_eq_append, ← List.append_assoc] at h1
        obtain ⟨-, h1⟩ := List.append_inj' h1 rfl
        cases h1
        exact absurd (hB a (by rw [h2]; simp)) (not_lt.2 ha.le)
    · cases l with
      | nil =>
        rw [List.append_nil] at h1
        rw [List.nil_append] at h2
        subst h1 h2
        simp [curveAt, entry_eq]
      | cons z l =>
        rw [List.cons_append, List.cons.injEq] at h2
        obtain ⟨rfl, -⟩ := h2
        exact absurd (hA b (by rw [h1]; simp)) (not_lt.2 hb.le)

theorem interpVal_split {rt : Rt K} (hx : rt.Exact) {A B : List (LRow K)} (c : LComp) {x : K}
    (hA : ∀ r ∈ A, r.pos < x) (hB : ∀ r ∈ B, x < r.pos) (hne : A ++ B ≠ []) :
    interpVal rt (A ++ B) c x = curveAt A B c x := by
  refine onCurve_split hA hB (interpVal_onCurve hx hne c x ?_)
  intro h
  obtain ⟨r, hr, he⟩ := List.mem_map.1 h
  rcases List.mem_append.1 hr with hr | hr
  · exact absurd he (ne_of_lt (hA r hr))
  · exact absurd he (ne_of_gt (hB r hr))

/-- Rows in order, around a position that is not stored. -/
theorem split_rows {rows : List (LRow K)} (h : rows.Pairwise fun a b => a.pos ≤ b.pos) {x : K}
    (hx : x ∉ rows.map (·.pos)) :
    ∃ A B, rows = A ++ B ∧ (∀ r ∈ A, r.pos < x) ∧ ∀ r ∈ B, x < r.pos := by
  induction rows with
  | nil => exact ⟨[], [], rfl, by simp, by simp⟩
  | cons r rows ih =>
    rw [List.pairwise_cons] at h
    simp only [List.map_cons, List.mem_cons, not_or] at hx
    rcases lt_or_gt_of_ne hx.1 with hlt | hlt
    · refine ⟨[], r :: rows, rfl, by simp, ?_⟩
      intro q hq
      rcases List.mem_cons.1 hq with rfl | hq
      · exact hlt
      · exact hlt.trans_le (h.1 q hq)
    · obtain ⟨A, B, rfl, hA, hB⟩ := ih h.2 hx.2
      refine ⟨r :: A, B, rfl, ?_, hB⟩
      intro q hq
      rcases List.mem_cons.1 hq with rfl | hq
      · exact hlt
      · exact hA q hq

theorem line_left {a b m xa xm xb x : K} (h1 : xa < xm) (h2 : xm < xb) (hm : m = a + (b - a) * ((xm - xa) / (xb - xa))) :
    a + (m - a) * ((x - xa) / (xm - xa)) = a + (b - a) * ((x - xa) / (xb - xa)) := by
  have : xm - xa ≠ 0 := by linarith
  have : xb - xa ≠ 0 := by linarith
  subst hm
  field_simp
  ring

theorem line_right {a b m xa xm xb x : K} (h1 : xa < xm) (h2 : xm < xb) (hm : m = a + (b - a) * ((xm - xa) / (xb - xa))) :
    m + (b - m) * ((x - xm) / (xb - xm)) = a + (b - a) * ((x - xa) / (xb - xa)) := by
  have : xb - xm ≠ 0 := by linarith
  have : xb - xa ≠ 0 := by linarith
  subst hm
  field_simp
  ring

theorem interpVal_insert {rt : Rt K} (hx : rt.Exact) {A B : List (LRow K)} {m : LRow K} (h : Redundant A m B)
    (hw : (A ++ B).Pairwise fun a b => a.pos ≤ b.pos) (hne : A ++ B ≠ []) (c : LComp) {x : K}
    (hxs : x ∉ (A ++ B).map (·.pos)) (hxm : x ≠ m.pos) :
    interpVal rt (A ++ m :: B) c x = interpVal rt (A ++ B) c x := by
  obtain ⟨-, -, hA, hB, hm⟩ := h
  have hmc : m.get c = curveAt A B c m.pos := onCurve_split hA hB (hm c)
  obtain ⟨A1, B1, he, hA1, hB1⟩ := split_rows hw hxs
  rw [he, interpVal_split hx c hA1 hB1 (he ▸ hne)]
  rcases lt_or_gt_of_ne hxm with hlt | hlt
  · -- before the new row
    rcases List.append_eq_append_iff.1 he with ⟨l, h1, h2⟩ | ⟨l, h1, h2⟩
    · -- `A1 = A ++ l`: nothing of `B` is before `x`
      have hl : l = [] := by
        rw [List.eq_nil_iff_forall_not_mem]
        intro r hr
        exact absurd ((hB r (by rw [h2]; simp [hr])).trans (hA1 r (by rw [h1]; simp [hr]))) (not_lt.2 hlt.le)
      subst hl
      rw [List.append_nil] at h1
      rw [List.nil_append] at h2
      subst h1 h2
      rw [interpVal_split hx c hA1 (B := m :: B) (by
        intro r hr
        rcases List.mem_cons.1 hr with rfl | hr
        · exact hlt
        · exact hB1 r hr) (by simp)]
      unfold curveAt at hmc ⊢
      rcases hal : A1.getLast? with _ | a
      · rcases hbl : B.head? with _ | b
        · rw [List.getLast?_eq_none_iff] at hal
          rw [List.head?_eq_none_iff] at hbl
          subst hal hbl
          exact absurd rfl hne
        · simp only [hal, hbl] at hmc
          simpa using hmc
      · rcases hbl : B.head? with _ | b
        · simp only [hal, hbl] at hmc
          simp [hmc]
        · simp only [hal, hbl] at hmc
          simp only [List.head?_cons]
          exact line_left (hA a (List.mem_of_getLast? hal)) (hB b (List.mem_of_head? hbl)) hmc
    · -- `A = A1 ++ l`
      subst h1 h2
      cases l with
      | nil =>
        rw [List.append_nil] at hmc hA ⊢
        rw [List.nil_append] at hB1 ⊢
        rw [interpVal_split hx c hA1 (B := m :: B) (by
          intro r hr
          rcases List.mem_cons.1 hr with rfl | hr
          · exact hlt
          · exact hB1 r hr) (by simp)]
        unfold curveAt at hmc ⊢
        rcases hal : A1.getLast? with _ | a
        · rcases hbl : B.head? with _ | b
          · rw [List.getLast?_eq_none_iff] at hal
            rw [List.head?_eq_none_iff] at hbl
            subst hal hbl
            exact absurd rfl hne
          · simp only [hal, hbl] at hmc
            simpa using hmc
        · rcases hbl : B.head? with _ | b
          · simp only [hal, hbl] at hmc
            simp [hmc]
          · simp only [hal, hbl] at hmc
            simp only [List.head?_cons]
            exact line_left (hA a (List.mem_of_getLast? hal)) (hB b (List.mem_of_head? hbl)) hmc
      | cons r l =>
        rw [List.append_assoc, interpVal_split hx c hA1 (B := (r :: l) ++ m :: B) (by
          intro q hq
          rcases List.mem_append.1 hq with hq | hq
          · exact hB1 q (List.mem_append_left _ hq)
          rcases List.mem_cons.1 hq with rfl | hq
          · exact hlt
          · exact hB1 q (List.mem_append_right _ hq)) (by simp)]
        rfl
  · -- after the new row
    rcases List.append_eq_append_iff.1 he with ⟨l, h1, h2⟩ | ⟨l, h1, h2⟩
    · -- `A1 = A ++ l`, `B = l ++ B1`
      subst h1 h2
      have hA1' : ∀ r ∈ A ++ m :: l, r.pos < x := by
        intro q hq
        rcases List.mem_append.1 hq with hq | hq
        · exact hA1 q (List.mem_append_left _ hq)
        rcases List.mem_cons.1 hq with rfl | hq
        · exact hlt
        · exact hA1 q (List.mem_append_right _ hq)
      have e : A ++ m :: (l ++ B1) = (A ++ m :: l) ++ B1 := by simp
      rw [e, interpVal_split hx c hA1' hB1 (by simp)]
      rcases List.eq_nil_or_concat l with rfl | ⟨l', z, rfl⟩
      · rw [List.nil_append] at hmc hB
        rw [List.append_nil]
        unfold curveAt at hmc ⊢
        rcases hal : A.getLast? with _ | a
        · rcases hbl : B1.head? with _ | b
          · rw [List.getLast?_eq_none_iff] at hal
            rw [List.head?_eq_none_iff] at hbl
            subst hal hbl
            exact absurd rfl hne
          · simp only [hal, hbl] at hmc
            simp [hmc]
        · rcases hbl : B1.head? with _ | b
          · simp only [hal, hbl] at hmc
            simp [hmc]
          · simp only [hal, hbl] at hmc
            simp only [List.getLast?_append, List.getLast?_singleton, Option.some_or]
            exact line_right (hA a (List.mem_of_getLast? hal)) (hB b (List.mem_of_head? hbl)) hmc
      · unfold curveAt
        simp [List.concat_eq_append, List.getLast?_append, List.getLast?_cons]
    · -- `A = A1 ++ l`: everything of `A` is before `x`
      have hl : l = [] := by
        rw [List.eq_nil_iff_forall_not_mem]
        intro r hr
        exact absurd ((hA r (by rw [h1]; simp [hr])).trans hlt) (not_lt.2 (hB1 r (by rw [h2]; simp [hr])).le)
      subst hl
      rw [List.append_nil] at h1
      rw [List.nil_append] at h2
      subst h1 h2
      have e : A ++ m :: B1 = (A ++ [m]) ++ B1 := by simp
      rw [e, interpVal_split hx c (A := A ++ [m]) (by
        intro q hq
        rcases List.mem_append.1 hq with hq | hq
        · exact hA1 q hq
        · rw [List.mem_singleton.1 hq]; exact hlt) hB1 (by simp)]
      unfold curveAt at hmc ⊢
      rcases hal : A.getLast? with _ | a
      · rcases hbl : B1.head? with _ | b
        · rw [List.getLast?_eq_none_iff] at hal
          rw [List.head?_eq_none_iff] at hbl
          subst hal hbl
          exact absurd rfl hne
        · simp only [hal, hbl] at hmc
          simp [hmc]
      · rcases hbl : B1.head? with _ | b
        · simp only [hal, hbl] at hmc
          simp [hmc]
        · simp only [hal, hbl] at hmc
          simp only [List.getLast?_append, List.getLast?_singleton, Option.some_or]
          exact line_right (hA a (List.mem_of_getLast? hal)) (hB b (List.mem_of_head? hbl)) hmc

theorem block_insert {rt : Rt K} (hx : rt.Exact) {A B : List (LRow K)} {m : LRow K} (h : Redundant A m B)
    (hw : (A ++ B).Pairwise fun a b => a.pos ≤ b.pos) (hne : A ++ B ≠ []) (cs : List LComp) (x : K) :
    block rt (A ++ m :: B) cs x = block rt (A ++ B) cs x := by
  have hmem : x ∈ (A ++ m :: B).map (·.pos) ↔ x = m.pos ∨ x ∈ (A ++ B).map (·.pos) := by
    simp only [List.map_append, List.map_cons, List.mem_append, List.mem_cons]
    tauto
  have hnot : m.pos ∉ (A ++ B).map (·.pos) := by
    intro hh
    obtain ⟨r, hr, he⟩ := List.mem_map.1 hh
    rcases List.mem_append.1 hr with hr | hr
    · exact absurd he (ne_of_lt (h.2.2.1 r hr))
    · exact absurd he (ne_of_gt (h.2.2.2.1 r hr))
  unfold block
  by_cases h1 : x ∈ (A ++ B).map (·.pos)
  · rw [if_pos (hmem.2 (Or.inr h1)), if_pos h1]
    have hne : m.pos ≠ x := fun he => hnot (he ▸ h1)
    simp [List.filter_append, hne]
  · rw [if_neg h1]
    by_cases h2 : x = m.pos
    · subst h2
      rw [if_pos (hmem.2 (Or.inl rfl))]
      have hf : (A ++ m :: B).filter (fun r => decide (r.pos = m.pos)) = [m] := by
        have e1 : A.filter (fun r => decide (r.pos = m.pos)) = [] := by
          rw [List.filter_eq_nil_iff]
          intro r hr
          simpa using ne_of_lt (h.2.2.1 r hr)
        have e2 : B.filter (fun r => decide (r.pos = m.pos)) = [] := by
          rw [List.filter_eq_nil_iff]
          intro r hr
          simpa using ne_of_gt (h.2.2.2.1 r hr)
        rw [List.filter_append, List.filter_cons, e1, e2]
        simp
      rw [hf]
      simp only [List.map_cons, List.map_nil]
      congr 2
      apply List.map_congr_left
      intro c _
      rw [interpVal_split hx c h.2.2.1 h.2.2.2.1 hne]
      exact onCurve_split h.2.2.1 h.2.2.2.1 (h.2.2.2.2 c)
    · rw [if_neg (fun hh => (hmem.1 hh).elim h2 h1)]
      congr 2
      apply List.map_congr_left
      intro c _
      exact (interpVal_insert hx h hw hne c h1 h2).symm ▸ rfl

theorem insert_wf {A B : List (LRow K)} {m : LRow K} (h : Redundant A m B) (hw : WellFormed (A ++ B)) : WellFormed (A ++ m :: B) := by
  obtain ⟨h1, h2⟩ := hw
  rw [List.pairwise_append] at h1
  refine ⟨?_, ?_⟩
  · rw [List.pairwise_append, List.pairwise_cons]
    refine ⟨h1.1, ⟨fun r hr => (h.2.2.2.1 r hr).le, h1.2.1⟩, ?_⟩
    intro a ha b hb
    rcases List.mem_cons.1 hb with rfl | hb
    · exact (h.2.2.1 a ha).le
    · exact h1.2.2 a ha b hb
  · intro r hr
    rcases List.mem_append.1 hr with hr | hr
    · exact h2 r (List.mem_append_left _ hr)
    rcases List.mem_cons.1 hr with rfl | hr
    · exact ⟨h.1, h.2.1⟩
    · exact h2 r (List.mem_append_right _ hr)

/-! ## Cutting -/

theorem curveAt_placed {f : K → K} {a d : K} (hf : ∀ x, f x = a * x + d) (ha : 0 < a) (A B : List (LRow K)) (c : LComp)
    (x : K) : curveAt (A.map (placed f)) (B.map (placed f)) c (f x) = curveAt A B c x := by
  unfold curveAt
  rw [List.getLast?_map, List.head?_map]
  rcases A.getLast? with _ | p <;> rcases B.head? with _ | q
  · rfl
  · rfl
  · rfl
  · simp only [Option.map_some]
    have h1 : ((placed f p).get c : K) = p.get c := by cases c <;> rfl
    have h2 : ((placed f q).get c : K) = q.get c := by cases c <;> rfl
    rw [h1, h2]
    have h3 : (f x - (placed f p).pos) / ((placed f q).pos - (placed f p).pos) = (x - p.pos) / (q.pos - p.pos) := by
      simp only [placed, hf]
      rw [show a * x + d - (a * p.pos + d) = a * (x - p.pos) by ring,
        show a * q.pos + d - (a * p.pos + d) = a * (q.pos - p.pos) by ring]
      exact mul_div_mul_left _ _ ha.ne'
    rw [h3]

theorem vals_placed {rt : Rt K} (hx : rt.Exact) {f : K → K} {a d : K} (hf : ∀ x, f x = a * x + d) (ha : 0 < a)
    {rows : List (LRow K)} (hw : rows.Pairwise fun a b => a.pos ≤ b.pos) (hne : rows ≠ []) (cs : List LComp) (x : K) :
    (block rt (rows.map (placed f)) cs (f x)).map (·.2) = (block rt rows cs x).map (·.2) := by
  have hlt : ∀ {y z}, y < z → f y < f z := by
    intro y z h
    rw [hf, hf]
    have := mul_lt_mul_of_pos_left h ha
    linarith
  have hinj : ∀ {y z}, f y = f z → y = z := by
    intro y z h
    by_contra hc
    rcases lt_or_gt_of_ne hc with h1 | h1
    · exact absurd h (hlt h1).ne
    · exact absurd h (hlt h1).ne'
  have hmem : f x ∈ (rows.map (placed f)).map (·.pos) ↔ x ∈ rows.map (·.pos) := by
    rw [List.map_map]
    simp only [List.mem_map, Function.comp]
    constructor
    · rintro ⟨r, hr, he⟩
      exact ⟨r, hr, hinj he⟩
    · rintro ⟨r, hr, rfl⟩
      exact ⟨r, hr, rfl⟩
  unfold block
  by_cases h1 : x ∈ rows.map (·.pos)
  · rw [if_pos h1, if_pos (hmem.2 h1), List.filter_map, List.map_map, List.map_map, List.map_map]
    have : rows.filter ((fun r => decide (r.pos = f x)) ∘ placed f) = rows.filter fun r => decide (r.pos = x) := by
      apply List.filter_congr
      intro r _
      exact decide_eq_decide.2 ⟨fun h => hinj h, fun h => congrArg f h⟩
    rw [this]
    apply List.map_congr_left
    intro r _
    simp only [Function.comp]
    apply List.map_congr_left
    intro c _
    cases c <;> rfl
  · rw [if_neg h1, if_neg fun h => h1 (hmem.1 h)]
    obtain ⟨A, B, rfl, hA, hB⟩ := split_rows hw h1
    simp only [List.map_cons, List.map_nil, List.cons.injEq, and_true]
    apply List.map_congr_left
    intro c _
    rw [interpVal_split hx c hA hB hne, List.map_append, interpVal_split hx c, curveAt_placed hf ha]
    · intro r hr
      obtain ⟨q, hq, rfl⟩ := List.mem_map.1 hr
      exact hlt (hA q hq)
    · intro r hr
      obtain ⟨q, hq, rfl⟩ := List.mem_map.1 hr
      exact hlt (hB q hq)
    · rwa [← List.map_append, Ne, List.map_eq_nil_iff]

theorem block_left {rt : Rt K} (hx : rt.Exact) {A M B : List (LRow K)} {first : LRow K} {s x : K}
    (hM : M.head? = some first) (hA : ∀ r ∈ A, r.pos < s) (hMs : ∀ r ∈ M, r.pos = s) (hB : ∀ r ∈ B, s < r.pos)
    (hw : (A ++ M ++ B).Pairwise fun a b => a.pos ≤ b.pos) (hxs : x < s) (cs : List LComp) :
    block rt (A ++ [first]) cs x = block rt (A ++ M ++ B) cs x := by
  have hfs : first.pos = s := hMs _ (List.mem_of_head? hM)
  have hM' : ∀ r ∈ M ++ B, x < r.pos := by
    intro r hr
    rcases List.mem_append.1 hr with hr | hr
    · rw [hMs r hr]; exact hxs
    · exact hxs.trans (hB r hr)
  have e1 : x ∈ (A ++ M ++ B).map (·.pos) ↔ x ∈ A.map (·.pos) := by
    rw [List.append_assoc, List.map_append, List.mem_append, or_iff_left]
    intro h
    obtain ⟨r, hr, he⟩ := List.mem_map.1 h
    exact absurd he (hM' r hr).ne'
  have e2 : x ∈ (A ++ [first]).map (·.pos) ↔ x ∈ A.map (·.pos) := by
    rw [List.map_append, List.mem_append, or_iff_left]
    simp [hfs, hxs.ne]
  unfold block
  by_cases h1 : x ∈ A.map (·.pos)
  · rw [if_pos (e1.2 h1), if_pos (e2.2 h1), List.append_assoc, List.filter_append, List.filter_append]
    have f1 : [first].filter (fun r => decide (r.pos = x)) = [] := by
      simp [hfs, hxs.ne']
    have f2 : (M ++ B).filter (fun r => decide (r.pos = x)) = [] := by
      rw [List.filter_eq_nil_iff]
      intro r hr
      simpa using (hM' r hr).ne'
    rw [f1, f2]
  · rw [if_neg fun h => h1 (e1.1 h), if_neg fun h => h1 (e2.1 h)]
    rw [List.append_assoc, List.pairwise_append] at hw
    obtain ⟨A1, A2, rfl, hA1, hA2⟩ := split_rows hw.1 h1
    congr 2
    apply List.map_congr_left
    intro c _
    rw [List.append_assoc, List.append_assoc, List.append_assoc, interpVal_split hx c hA1 (B := A2 ++ [first]) (by
        intro r hr
        rcases List.mem_append.1 hr with hr | hr
        · exact hA2 r hr
        · rw [List.mem_singleton.1 hr, hfs]; exact hxs) (by simp),
      interpVal_split hx c hA1 (B := A2 ++ (M ++ B)) (by
        intro r hr
        rcases List.mem_append.1 hr with hr | hr
        · exact hA2 r hr
        · exact hM' r hr) (by
          have : M ≠ [] := by rintro rfl; cases hM
          simp [this])]
    unfold curveAt
    rw [List.head?_append, List.head?_append, List.head?_append, hM]
    rfl

theorem block_right {rt : Rt K} (hx : rt.Exact) {A M B : List (LRow K)} {last : LRow K} {s x : K}
    (hM : M.getLast? = some last) (hA : ∀ r ∈ A, r.pos < s) (hMs : ∀ r ∈ M, r.pos = s) (hB : ∀ r ∈ B, s < r.pos)
    (hw : (A ++ M ++ B).Pairwise fun a b => a.pos ≤ b.pos) (hxs : s < x) (cs : List LComp) :
    block rt (last :: B) cs x = block rt (A ++ M ++ B) cs x := by
  have hfs : last.pos = s := hMs _ (List.mem_of_getLast? hM)
  have hM' : ∀ r ∈ A ++ M, r.pos < x := by
    intro r hr
    rcases List.mem_append.1 hr with hr | hr
    · exact (hA r hr).trans hxs
    · rw [hMs r hr]; exact hxs
  have e1 : x ∈ (A ++ M ++ B).map (·.pos) ↔ x ∈ B.map (·.pos) := by
    rw [List.map_append, List.mem_append, or_iff_right]
    intro h
    obtain ⟨r, hr, he⟩ := List.mem_map.1 h
    exact absurd he (hM' r hr).ne
  have e2 : x ∈ (last :: B).map (·.pos) ↔ x ∈ B.map (·.pos) := by
    rw [List.map_cons, List.mem_cons, or_iff_right]
    rw [hfs]; exact hxs.ne'
  unfold block
  by_cases h1 : x ∈ B.map (·.pos)
  · rw [if_pos (e1.2 h1), if_pos (e2.2 h1), List.filter_append, List.filter_cons]
    have f2 : (A ++ M).filter (fun r => decide (r.pos = x)) = [] := by
      rw [List.filter_eq_nil_iff]
      intro r hr
      simpa using (hM' r hr).ne
    rw [f2, if_neg (by simp [hfs, hxs.ne]), List.nil_append]
  · rw [if_neg fun h => h1 (e1.1 h), if_neg fun h => h1 (e2.1 h)]
    rw [List.pairwise_append] at hw
    obtain ⟨B1, B2, rfl, hB1, hB2⟩ := split_rows hw.2.1 h1
    congr 2
    apply List.map_congr_left
    intro c _
    have a1 : last :: (B1 ++ B2) = ([last] ++ B1) ++ B2 := rfl
    have a2 : A ++ M ++ (B1 ++ B2) = (A ++ M ++ B1) ++ B2 := by simp
    rw [a1, a2, interpVal_split hx c (A := [last] ++ B1) (by
        intro r hr
        rcases List.mem_append.1 hr with hr | hr
        · rw [List.mem_singleton.1 hr, hfs]; exact hxs
        · exact hB1 r hr) hB2 (by simp),
      interpVal_split hx c (A := A ++ M ++ B1) (by
        intro r hr
        rcases List.mem_append.1 hr with hr | hr
        · exact hM' r hr
        · exact hB1 r hr) hB2 (by
          have : M ≠ [] := by rintro rfl; cases hM
          simp [this])]
    unfold curveAt
    rw [List.getLast?_append, List.getLast?_append, List.getLast?_append, hM]
    rfl

theorem map_at (p : K) (rows : List (Row K)) : rows.map (fun r => (p, r.2)) = (rows.map (·.2)).map (fun v => (p, v)) := by
  simp

theorem segAt_cut {rt : Rt K} (hx : rt.Exact) {A M B : List (LRow K)} {first last : LRow K} {s l p off : K}
    (hs0 : 0 < s) (hs1 : s < 1) (hl : 0 < l)
    (hM : M.head? = some first) (hM' : M.getLast? = some last) (hA : ∀ r ∈ A, r.pos < s) (hMs : ∀ r ∈ M, r.pos = s)
    (hB : ∀ r ∈ B, s < r.pos)
    (hw : (A ++ M ++ B).Pairwise fun a b => a.pos ≤ b.pos) (cs : List LComp) (hp : p ≠ off + s * l ∨ M.length = 2) :
    segAt rt cs p off ((A ++ [first]).map (placed fun x => x / s), s * l) ++
      segAt rt cs p (off + s * l) ((last :: B).map (placed fun x => (x - s) / (1 - s)), (1 - s) * l) =
    segAt rt cs p off (A ++ M ++ B, l) := by
  have hsl : 0 < s * l := mul_pos hs0 hl
  have hsl' : 0 < (1 - s) * l := mul_pos (by linarith) hl
  have h1s : (1 - s) ≠ 0 := by linarith
  have hM0 : M ≠ [] := by rintro rfl; cases hM
  have hfs : first.pos = s := hMs _ (List.mem_of_head? hM)
  have hls : last.pos = s := hMs _ (List.mem_of_getLast? hM')
  have hw1 : (A ++ [first]).Pairwise fun a b => a.pos ≤ b.pos := by
    rw [List.append_assoc, List.pairwise_append] at hw
    rw [List.pairwise_append]
    refine ⟨hw.1, by simp, ?_⟩
    intro a ha b hb
    rw [List.mem_singleton.1 hb, hfs]
    exact (hA a ha).le
  have hw2 : (last :: B).Pairwise fun a b => a.pos ≤ b.pos := by
    rw [List.pairwise_append] at hw
    rw [List.pairwise_cons]
    exact ⟨fun b hb => hls ▸ (hB b hb).le, hw.2.1⟩
  have v1 := fun x => vals_placed hx (f := fun x => x / s) (a := s⁻¹) (d := 0) (fun x => by field_simp; ring)
    (inv_pos.2 hs0) hw1 (by simp) cs x
  have v2 := fun x => vals_placed hx (f := fun x => (x - s) / (1 - s)) (a := (1 - s)⁻¹) (d := -s / (1 - s))
    (fun x => by field_simp; ring) (inv_pos.2 (by linarith)) hw2 (by simp) cs x
  simp only at v1 v2
  have d1 : (p - off) / (s * l) = (p - off) / l / s := by rw [div_div, mul_comm]
  have d2 : (p - (off + s * l)) / ((1 - s) * l) = ((p - off) / l - s) / (1 - s) := by
    field_simp
    ring
  unfold segAt
  simp only [map_at, d1, d2, v1, v2]
  rcases lt_trichotomy p (off + s * l) with h | h | h
  · rw [if_neg (show ¬ (off + s * l ≤ p ∧ p ≤ off + s * l + (1 - s) * l) from fun hh => absurd hh.1 (not_le.2 h)),
      List.append_nil]
    have hx' : (p - off) / l < s := by
      rw [div_lt_iff₀ hl]
      linarith
    rw [block_left hx hM hA hMs hB hw hx']
    by_cases ho : off ≤ p
    · rw [if_pos ⟨ho, h.le⟩, if_pos ⟨ho, by linarith [h, hsl']⟩]
    · rw [if_neg fun hh => ho hh.1, if_neg fun hh => ho hh.1]
  · -- at the cut
    have hlen : M.length = 2 := hp.resolve_left (not_not_intro h)
    have hq : (p - off) / l = s := by
      rw [h]
      field_simp
      ring
    rw [if_pos ⟨by linarith, h.le⟩, if_pos ⟨h.ge, by linarith⟩, if_pos ⟨by linarith, by linarith⟩, hq]
    obtain ⟨a, b, rfl⟩ : ∃ a b, M = [a, b] := List.length_eq_two.1 hlen
    simp only [List.head?_cons, Option.some.injEq] at hM
    simp only [List.getLast?_cons_cons, List.getLast?_singleton, Option.some.injEq] at hM'
    subst hM hM'
    have hAf : A.filter (fun r => decide (r.pos = s)) = [] := by
      rw [List.filter_eq_nil_iff]
      intro r hr
      simpa using (hA r hr).ne
    have hBf : B.filter (fun r => decide (r.pos = s)) = [] := by
      rw [List.filter_eq_nil_iff]
      intro r hr
      simpa using (hB r hr).ne'
    unfold block
    rw [if_pos (show s ∈ (A ++ [a]).map (·.pos) by simp [hfs]), if_pos (show s ∈ (b :: B).map (·.pos) by simp [hls]),
      if_pos (show s ∈ (A ++ [a, b] ++ B).map (·.pos) by simp [hfs])]
    simp [List.filter_append, hAf, hBf, hfs, hls]
  · rw [if_neg (show ¬ (off ≤ p ∧ p ≤ off + s * l) from fun hh => absurd hh.2 (not_le.2 h)), List.nil_append]
    have hx' : s < (p - off) / l := by
      rw [lt_div_iff₀ hl]
      linarith
    rw [block_right hx hM' hA hMs hB hw hx']
    have he : off + s * l + (1 - s) * l = off + l := by ring
    rw [he]
    by_cases ho : p ≤ off + l
    · rw [if_pos ⟨h.le, ho⟩, if_pos ⟨by linarith, ho⟩]
    · rw [if_neg fun hh => ho hh.2, if_neg fun hh => ho hh.2]

end

section
variable {K S : Type} [Field K] [LinearOrder K] [IsStrictOrderedRing K] [FloorRing K]

/-- Loaded elements of positive length. -/
theorem segs_exist {k : ℤ} {els : List (Element K S)} {ls : List (Num K)} (hb : LoadedFloat (⟨els⟩ : Beam K S) k)
    (h : HasLengths (⟨els⟩ : Beam K S) ls) (hpos : ∀ l ∈ ls, 0 < l.val) :
    ∃ es, List.Forall₂ (SegOf k) els es ∧ es.map (·.2) = ls.map (·.val) := by
  obtain ⟨h, -⟩ := h
  simp only at h
  induction h with
  | nil => exact ⟨[], List.Forall₂.nil, rfl⟩
  | @cons e l els ls h1 h2 ih =>
    obtain ⟨es, h3, h4⟩ := ih (by
      intro i hi
      obtain ⟨t, ⟨e', he', hr⟩, hf⟩ := hb (i + 1) (by simpa using hi)
      exact ⟨t, ⟨e', by simpa using he', hr⟩, hf⟩) fun l hl => hpos l (List.mem_cons_of_mem _ hl)
    obtain ⟨⟨isInt, rows⟩, ⟨e', he', hlk, hw, hne⟩, hf⟩ := hb 0 (by simp)
    simp only at hf hw hne
    simp only [List.getElem?_cons_zero, Option.some.injEq] at he'
    subst hf he'
    exact ⟨(rows, l.val) :: es, List.Forall₂.cons ⟨⟨l, h1, rfl⟩, hpos l List.mem_cons_self, hlk, hw, hne⟩ h3,
      by simp [h4]⟩

theorem segs_split {k : ℤ} {pre post : List (Element K S)} {e : Element K S} {es : List (Seg K)}
    (h : List.Forall₂ (SegOf k) (pre ++ e :: post) es) :
    ∃ ps s qs, es = ps ++ s :: qs ∧ List.Forall₂ (SegOf k) pre ps ∧ SegOf k e s ∧ List.Forall₂ (SegOf k) post qs := by
  induction pre generalizing es with
  | nil =>
    cases h with
    | @cons _ s _ qs h1 h2 => exact ⟨[], s, qs, rfl, List.Forall₂.nil, h1, h2⟩
  | cons a pre ih =>
    cases h with
    | @cons _ t _ rest h1 h2 =>
      obtain ⟨ps, s, qs, rfl, h3, h4, h5⟩ := ih h2
      exact ⟨t :: ps, s, qs, rfl, List.Forall₂.cons h1 h3, h4, h5⟩

/-- Two beams that differ in one element, with the same rows at the requested positions. -/
theorem getLoads_replace {rt : Rt K} (hx : rt.Exact) (hs : rt.SortOK) {pre post mid mid' : List (Element K S)} {k : ℤ}
    {ps qs ms ms' : List (Seg K)} (hpre : List.Forall₂ (SegOf k) pre ps) (hmid : List.Forall₂ (SegOf k) mid ms)
    (hmid' : List.Forall₂ (SegOf k) mid' ms') (hpost : List.Forall₂ (SegOf k) post qs) (hne : ms ≠ []) (hne' : ms' ≠ [])
    (hsum : (ms'.map (·.2)).sum = (ms.map (·.2)).sum)
    {component : CompArg} {cs : List LComp} (hc : component.resolve = .ok cs) (hcs : cs ≠ [])
    {position : PosArg K} {xs : List K} (hreq : Requested position xs) (hxs : xs ≠ [])
    (hin : ∀ x ∈ xs, 0 ≤ x ∧ x ≤ (ps.map (·.2)).sum + ((ms.map (·.2)).sum + (qs.map (·.2)).sum))
    (heq : ∀ x ∈ xs, ansAt rt cs x (0 + (ps.map (·.2)).sum) ms' = ansAt rt cs x (0 + (ps.map (·.2)).sum) ms) :
    ∃ tab, (⟨pre ++ (mid ++ post)⟩ : Beam K S).getLoads rt k position none component = .ok (some tab) ∧
      (⟨pre ++ (mid' ++ post)⟩ : Beam K S).getLoads rt k position none component = .ok (some tab) := by
  refine ⟨_, getLoads_segs hx hs (List.rel_append hpre (List.rel_append hmid hpost)) (by simp [hne]) hc hcs hreq hxs
    (by simpa using hin), ?_⟩
  rw [getLoads_segs hx hs (List.rel_append hpre (List.rel_append hmid' hpost)) (by simp [hne']) hc hcs hreq hxs
    (by simpa [hsum] using hin)]
  congr 4
  apply List.flatMap_congr
  intro x hx'
  rw [ansAt_append, ansAt_append, ansAt_append, ansAt_append, heq x (mem_asc.1 hx'), hsum]

theorem cut_segs {k : ℤ} {s l : K} {A M B : List (LRow K)} {first last : LRow K} {e1 e2 : Element K S}
    (hs0 : 0 < s) (hs1 : s < 1) (hl : 0 < l) (hl1 : ∃ n, e1.length = some n ∧ n.val = s * l)
    (hl2 : ∃ n, e2.length = some n ∧ n.val = (1 - s) * l)
    (hM : M.head? = some first) (hM' : M.getLast? = some last) (hA : ∀ r ∈ A, r.pos < s) (hMs : ∀ r ∈ M, r.pos = s)
    (hB : ∀ r ∈ B, s < r.pos) (hw : WellFormed (A ++ M ++ B))
    (t1 : TableOf k e1 ((A ++ [first]).map (placed fun x => x / s)))
    (t2 : TableOf k e2 ((last :: B).map (placed fun x => (x - s) / (1 - s)))) :
    SegOf k e1 ((A ++ [first]).map (placed fun x => x / s), s * l) ∧
      SegOf k e2 ((last :: B).map (placed fun x => (x - s) / (1 - s)), (1 - s) * l) := by
  have hfs : first.pos = s := hMs _ (List.mem_of_head? hM)
  have hls : last.pos = s := hMs _ (List.mem_of_getLast? hM')
  have h1s : 0 < 1 - s := by linarith
  refine ⟨⟨hl1, mul_pos hs0 hl, t1, ⟨?_, ?_⟩, by simp⟩, hl2, mul_pos h1s hl, t2, ⟨?_, ?_⟩, by simp⟩
  · rw [List.pairwise_map]
    have hw1 := hw.1
    rw [List.append_assoc, List.pairwise_append] at hw1
    rw [List.pairwise_append]
    refine ⟨hw1.1.imp fun h => div_le_div_of_nonneg_right h hs0.le, by simp, ?_⟩
    intro a ha b hb
    rw [List.mem_singleton.1 hb]
    simp only [placed, hfs]
    exact div_le_div_of_nonneg_right (hA a ha).le hs0.le
  · intro r hr
    obtain ⟨q, hq, rfl⟩ := List.mem_map.1 hr
    simp only [placed]
    have : 0 ≤ q.pos ∧ q.pos ≤ s := by
      rcases List.mem_append.1 hq with hq | hq
      · exact ⟨(hw.2 q (by simp [hq])).1, (hA q hq).le⟩
      · rw [List.mem_singleton.1 hq, hfs]; exact ⟨hs0.le, le_rfl⟩
    exact ⟨div_nonneg this.1 hs0.le, (div_le_one hs0).2 this.2⟩
  · rw [List.pairwise_map]
    have hw1 := hw.1
    rw [List.pairwise_append] at hw1
    rw [List.pairwise_cons]
    refine ⟨?_, hw1.2.1.imp fun h => div_le_div_of_nonneg_right (by linarith) h1s.le⟩
    intro b hb
    simp only [placed, hls]
    exact div_le_div_of_nonneg_right (by linarith [hB b hb]) h1s.le
  · intro r hr
    obtain ⟨q, hq, rfl⟩ := List.mem_map.1 hr
    simp only [placed]
    have : s ≤ q.pos ∧ q.pos ≤ 1 := by
      rcases List.mem_cons.1 hq with rfl | hq
      · rw [hls]; exact ⟨le_rfl, hs1.le⟩
      · exact ⟨(hB q hq).le, (hw.2 q (by simp [hq])).2⟩
    exact ⟨div_nonneg (by linarith) h1s.le, (div_le_one h1s).2 (by linarith)⟩

end

/-! ## The other end -/

section
variable {K S : Type} [Field K] [LinearOrder K] [IsStrictOrderedRing K]

theorem curveAt_mirror (A B : List (LRow K)) (c : LComp) (x : K) (hA : ∀ r ∈ A, r.pos < x) (hB : ∀ r ∈ B, x < r.pos) :
    curveAt (mirrorRows B) (mirrorRows A) c (1 - x) = curveAt A B c x := by
  unfold curveAt mirrorRows
  rw [List.getLast?_reverse, List.head?_reverse, List.getLast?_map, List.head?_map]
  rcases hal : A.getLast? with _ | p <;> rcases hbl : B.head? with _ | q
  · rfl
  · rfl
  · rfl
  · simp only [Option.map_some]
    have h1 : ((placed (fun x => 1 - x) p).get c : K) = p.get c := by cases c <;> rfl
    have h2 : ((placed (fun x => 1 - x) q).get c : K) = q.get c := by cases c <;> rfl
    rw [h1, h2]
    have h3 := hA p (List.mem_of_getLast? hal)
    have h4 := hB q (List.mem_of_head? hbl)
    have h5 : q.pos - p.pos ≠ 0 := by linarith
    have h6 : (1 - x - (placed (fun x => 1 - x) q).pos) / ((placed (fun x => 1 - x) p).pos - (placed (fun x => 1 - x) q).pos)
        = 1 - (x - p.pos) / (q.pos - p.pos) := by
      simp only [placed]
      rw [show (1 : K) - p.pos - (1 - q.pos) = q.pos - p.pos by ring]
      field_simp
      ring
    rw [h6]
    ring

theorem mirrorRows_append (A B : List (LRow K)) : mirrorRows (A ++ B) = mirrorRows B ++ mirrorRows A := by
  simp [mirrorRows]

theorem mirror_wf {rows : List (LRow K)} (hw : WellFormed rows) : WellFormed (mirrorRows rows) := by
  constructor
  · unfold mirrorRows
    rw [List.pairwise_reverse, List.pairwise_map]
    exact hw.1.imp fun h => by simp only [placed]; linarith
  · intro r hr
    obtain ⟨q, hq, rfl⟩ := List.mem_map.1 (List.mem_reverse.1 hr)
    have := hw.2 q hq
    simp only [placed]
    constructor <;> linarith [this.1, this.2]

theorem vals_mirror {rt : Rt K} (hx : rt.Exact)
    {rows : List (LRow K)} (hw : rows.Pairwise fun a b => a.pos ≤ b.pos) (hne : rows ≠ []) (cs : List LComp) (x : K) :
    (block rt (mirrorRows rows) cs (1 - x)).map (·.2) = ((block rt rows cs x).map (·.2)).reverse := by
  have hinj : ∀ {y z : K}, 1 - y = 1 - z → y = z := fun h => by linarith
  have hmem : 1 - x ∈ (mirrorRows rows).map (·.pos) ↔ x ∈ rows.map (·.pos) := by
    unfold mirrorRows
    rw [List.map_reverse, List.mem_reverse, List.map_map]
    simp only [List.mem_map, Function.comp]
    constructor
    · rintro ⟨r, hr, he⟩
      exact ⟨r, hr, hinj he⟩
    · rintro ⟨r, hr, rfl⟩
      exact ⟨r, hr, rfl⟩
  unfold block
  by_cases h1 : x ∈ rows.map (·.pos)
  · rw [if_pos h1, if_pos (hmem.2 h1)]
    unfold mirrorRows
    rw [List.filter_reverse, List.filter_map, List.map_reverse, List.map_reverse, List.map_map, List.map_map, List.map_map]
    have : rows.filter ((fun r => decide (r.pos = 1 - x)) ∘ placed fun x => 1 - x) =
        rows.filter fun r => decide (r.pos = x) := by
      apply List.filter_congr
      intro r _
      exact decide_eq_decide.2 ⟨fun h => hinj h, fun h => congrArg (1 - ·) h⟩
    rw [this]
    rfl
  · rw [if_neg h1, if_neg fun h => h1 (hmem.1 h)]
    obtain ⟨A, B, rfl, hA, hB⟩ := split_rows hw h1
    simp only [List.map_cons, List.map_nil, List.reverse_singleton, List.cons.injEq, and_true]
    apply List.map_congr_left
    intro c _
    rw [interpVal_split hx c hA hB hne, mirrorRows_append, interpVal_split hx c, curveAt_mirror A B c x hA hB]
    · intro r hr
      obtain ⟨q, hq, rfl⟩ := List.mem_map.1 (List.mem_reverse.1 hr)
      simp only [placed]
      linarith [hB q hq]
    · intro r hr
      obtain ⟨q, hq, rfl⟩ := List.mem_map.1 (List.mem_reverse.1 hr)
      simp only [placed]
      linarith [hA q hq]
    · rw [← mirrorRows_append]
      unfold mirrorRows
      rwa [Ne, List.reverse_eq_nil_iff, List.map_eq_nil_iff]

/-- The rows and the length of the mirrored element. -/
def mirrorSeg (s : Seg K) : Seg K := (mirrorRows s.1, s.2)

theorem segAt_mirror {rt : Rt K} (hx : rt.Exact) {s : Seg K} (hs : 0 < s.2)
    (hw : s.1.Pairwise fun a b => a.pos ≤ b.pos) (hne : s.1 ≠ []) (cs : List LComp) (L off x : K) :
    segAt rt cs (L - x) (L - off - s.2) (mirrorSeg s) = ((segAt rt cs x off s).map fun r => (L - r.1, r.2)).reverse := by
  unfold segAt mirrorSeg
  have hiff : (L - off - s.2 ≤ L - x ∧ L - x ≤ L - off - s.2 + s.2) ↔ (off ≤ x ∧ x ≤ off + s.2) :=
    ⟨fun h => ⟨by linarith [h.2], by linarith [h.1]⟩, fun h => ⟨by linarith [h.2], by linarith [h.1]⟩⟩
  have hq : (L - x - (L - off - s.2)) / s.2 = 1 - (x - off) / s.2 := by
    field_simp
    ring
  simp only [hiff, hq, map_at, vals_mirror hx hw hne]
  split_ifs
  · simp [List.map_reverse]
  · rfl

theorem ansAt_mirror {rt : Rt K} (hx : rt.Exact) (es : List (Seg K)) (hes : ∀ s ∈ es, 0 < s.2 ∧ WellFormed s.1 ∧ s.1 ≠ [])
    (cs : List LComp) (L off x : K) :
    ansAt rt cs (L - x) (L - off - (es.map (·.2)).sum) (es.map mirrorSeg).reverse =
      ((ansAt rt cs x off es).map fun r => (L - r.1, r.2)).reverse := by
  induction es generalizing off with
  | nil => rfl
  | cons s es ih =>
    have h1 := hes s List.mem_cons_self
    have ih' := ih (fun t ht => hes t (List.mem_cons_of_mem _ ht)) (off + s.2)
    have e1 : L - off - ((s :: es).map (·.2)).sum = L - (off + s.2) - (es.map (·.2)).sum := by
      simp only [List.map_cons, List.sum_cons]
      ring
    have e2 : (((es.map mirrorSeg).reverse).map (·.2)).sum = (es.map (·.2)).sum := by
      rw [List.map_reverse, List.sum_reverse, List.map_map]
      rfl
    rw [e1, List.map_cons, List.reverse_cons, ansAt_append, e2, ih', show L - (off + s.2) - (es.map (·.2)).sum + (es.map (·.2)).sum = L - off - s.2 by ring]
    simp only [ansAt, List.append_nil, List.map_append, List.reverse_append]
    rw [segAt_mirror hx h1.1 h1.2.1.1 h1.2.2]

end

section
variable {K S : Type} [Field K] [LinearOrder K] [IsStrictOrderedRing K] [FloorRing K]

theorem asc_mirror (L : K) (xs : List K) : asc (xs.map (L - ·)) = ((asc xs).map (L - ·)).reverse := by
  refine sorted_unique (asc_sorted _) ?_ ?_
  · rw [List.pairwise_reverse, List.pairwise_map]
    exact (asc_sorted xs).imp fun h => by linarith
  · intro v
    simp only [mem_asc, List.mem_reverse, List.mem_map]

end

end BeamDesign
