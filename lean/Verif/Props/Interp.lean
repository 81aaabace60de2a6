import Verif.Spec.Interp
import Verif.Lemmas.Load
import Verif.Lemmas.Positions

/-!
# C89: `multi_interp` interpolates every row
-/

namespace BeamDesign

open Interp Spec

section
variable {K : Type} [Field K] [LinearOrder K]

/-- the value `np.interp` gives (0 without knots) -/
def interpAt (rt : Rt K) (left right : Option K) (ks : List (K × K)) (x : K) : K :=
  match npInterp rt left right x ks with
  | .ok v => v
  | .error _ => 0

theorem npInterp_val (rt : Rt K) (left right : Option K) {ks : List (K × K)} (h : ks ≠ []) (x : K) :
    npInterp rt left right x ks = .ok (interpAt rt left right ks x) := by
  cases ks with
  | nil => exact absurd rfl h
  | cons a t =>
    simp only [interpAt, npInterp]
    split_ifs <;> rfl

theorem mapM_map {α β : Type} (g : α → β) (f : α → Py β) (l : List α) (h : ∀ a ∈ l, f a = .ok (g a)) :
    l.mapM f = .ok (l.map g) := by
  induction l with
  | nil => rfl
  | cons a t ih =>
    rw [List.mapM_cons, h a (by simp), ih fun b hb => h b (by simp [hb])]
    rfl

theorem points_val (rt : Rt K) (left right : Option K) {xs xp f : List K} (h : xp ≠ []) (hl : f.length = xp.length) :
    points rt left right xs xp f = .ok (xs.map (interpAt rt left right (xp.zip f))) := by
  have hz : xp.zip f ≠ [] := by
    rw [← List.length_pos_iff, List.length_zip, hl, min_self]
    exact List.length_pos_iff.2 h
  rw [Interp.points, if_neg h, if_neg (not_not.2 hl)]
  exact mapM_map _ _ _ fun x _ => npInterp_val rt left right hz x

theorem rows_val (v : NpVersion) (rt : Rt K) (left right : Option K) {x : XArg K} {xp : List K} {fs : List (List K)}
    (hx : refused v x = false) (h : xp ≠ []) (hf : fs ≠ []) (hl : ∀ f ∈ fs, f.length = xp.length) :
    Interp.multiInterp v rt x xp (.rows fs) left right =
      .ok (.table (fs.map fun f => x.points.map (interpAt rt left right (xp.zip f)))) := by
  simp only [Interp.multiInterp, hx, if_neg hf, Bool.false_eq_true, if_false]
  rw [if_neg (not_not.2 fun f hf' g hg => (hl f hf').trans (hl g hg).symm),
    mapM_map (fun f => x.points.map (interpAt rt left right (xp.zip f))) _ _
      fun f hf' => points_val rt left right h (hl f hf')]
  rfl

theorem row_val (v : NpVersion) (rt : Rt K) (left right : Option K) {x : XArg K} {xp f : List K}
    (hx : refused v x = false) (h : xp ≠ []) (hl : f.length = xp.length) :
    Interp.multiInterp v rt x xp (.row f) left right =
      .ok (match x with
        | .scalar p => .scalar (interpAt rt left right (xp.zip f) p)
        | _ => .row (x.points.map (interpAt rt left right (xp.zip f)))) := by
  simp only [Interp.multiInterp, hx, Bool.false_eq_true, if_false, points_val rt left right h hl]
  cases x <;> rfl

end

section
variable {K : Type} [Field K] [LinearOrder K]

theorem interpGo_through {rt : Rt K} (hx : rt.Exact) (left right : Option K) (x : K) (rest : List (K × K)) :
    ∀ (pre : List (K × K)) (a : K × K), a.1 ≤ x → (∀ l, (a :: rest).getLast? = some l → x ≤ l.1) →
      (a :: rest).Pairwise (fun p q => p.1 ≤ q.1) →
      Through left right (pre ++ a :: rest) x (interpGo rt x a rest) := by
  induction rest with
  | nil =>
    intro pre a ha hl _
    exact Or.inr (Or.inr (Or.inl ⟨pre, a, [], rfl, le_antisymm ha (hl a rfl), by simp, rfl⟩))
  | cons b t ih =>
    intro pre a ha hl hs
    obtain ⟨a1, a2⟩ := a
    obtain ⟨b1, b2⟩ := b
    simp only [interpGo]
    split_ifs with h1 h2
    · have := ih (pre ++ [(a1, a2)]) (b1, b2) h1 (fun l e => hl l (by simpa using e)) (List.pairwise_cons.1 hs).2
      simpa using this
    · refine Or.inr (Or.inr (Or.inl ⟨pre, (a1, a2), (b1, b2) :: t, rfl, h2, ?_, rfl⟩))
      intro q hq
      have h3 : x < b1 := not_le.1 h1
      rcases List.mem_cons.1 hq with rfl | hq
      · exact h3.ne'
      · exact (h3.trans_le ((List.pairwise_cons.1 (List.pairwise_cons.1 hs).2).1 q hq)).ne'
    · have h3 : x < b1 := not_le.1 h1
      have h4 : a1 < x := lt_of_le_of_ne ha h2
      refine Or.inr (Or.inr (Or.inr ⟨pre, (a1, a2), (b1, b2), t, rfl, h4, h3, ?_⟩))
      rw [hx.add, hx.mul, hx.div, hx.sub, hx.sub, hx.sub]
      have : b1 - a1 ≠ 0 := sub_ne_zero.2 (h4.trans h3).ne'
      field_simp
      ring

theorem interpAt_through {rt : Rt K} (hx : rt.Exact) (left right : Option K) {ks : List (K × K)} (h : ks ≠ [])
    (hs : ks.Pairwise (fun p q => p.1 ≤ q.1)) (x : K) :
    Through left right ks x (interpAt rt left right ks x) := by
  cases ks with
  | nil => exact absurd rfl h
  | cons a t =>
    obtain ⟨a1, a2⟩ := a
    simp only [interpAt, npInterp]
    by_cases h1 : x < a1
    · simp only [h1, if_true]
      exact Or.inl ⟨_, t, rfl, h1, rfl⟩
    · simp only [h1, if_false]
      by_cases h2 : (((a1, a2) :: t).getLast (by simp)).1 < x
      · simp only [h2, if_true]
        exact Or.inr (Or.inl ⟨((a1, a2) :: t).dropLast, _, (List.dropLast_append_getLast (by simp)).symm, h2, rfl⟩)
      · simp only [h2, if_false]
        refine interpGo_through hx left right x t [] (a1, a2) (not_lt.1 h1) ?_ hs
        intro l e
        rw [List.getLast?_eq_some_getLast (by simp)] at e
        rw [← Option.some.inj e]
        exact not_lt.1 h2

omit [Field K] in
theorem zip_sorted {xp f : List K} (h : xp.Pairwise (· ≤ ·)) (hl : f.length = xp.length) :
    (xp.zip f).Pairwise (fun p q => p.1 ≤ q.1) := by
  rw [← List.pairwise_map (f := Prod.fst) (R := (· ≤ ·)), List.map_fst_zip hl.symm.le]
  exact h

theorem forall₂_map {α β : Type} {R : α → β → Prop} {g : α → β} {l : List α} (h : ∀ a ∈ l, R a (g a)) :
    List.Forall₂ R l (l.map g) := by
  induction l with
  | nil => exact .nil
  | cons a t ih => exact .cons (h a (by simp)) (ih fun b hb => h b (by simp [hb]))

/-- C89, part: with sorted data of the right shape, a number or a list of points (for numpy before 1.25 also an array)
is answered with one value for each point and row, on the curve of that row.  Missing: unsorted data are documented to
raise, and do not (`C89_unsorted_counterexample`); newer numpy refuses arrays (`C89_array_counterexample`). -/
theorem C89_values_partial (v : NpVersion) {rt : Rt K} (hrt : rt.Exact) {x : XArg K} {xp : List K} {fp : FArg K}
    (left right : Option K) (hx : Given x ∨ (v = .before125 ∧ ∃ xs, x = .array xs)) (hne : xp ≠ [])
    (hs : xp.Pairwise (· ≤ ·)) (hf : Shaped xp.length fp) :
    ∃ out, Interp.multiInterp v rt x xp fp left right = .ok out ∧ Answers left right x xp fp out := by
  have hr : refused v x = false := by
    rcases hx with h | ⟨rfl, xs, rfl⟩
    · cases x <;> simp_all [Given, refused]
    · rfl
  have hz : ∀ f : List K, f.length = xp.length → xp.zip f ≠ [] := by
    intro f hl
    rw [← List.length_pos_iff, List.length_zip, hl, min_self]
    exact List.length_pos_iff.2 hne
  have key : ∀ f : List K, f.length = xp.length → ∀ p, Through left right (xp.zip f) p (interpAt rt left right (xp.zip f) p) :=
    fun f hl p => interpAt_through hrt left right (hz f hl) (zip_sorted hs hl) p
  cases fp with
  | row f =>
    refine ⟨_, row_val v rt left right hr hne hf, ?_⟩
    have hxn : x ≠ .none := by rintro rfl; simp [refused] at hr
    cases x with
    | none => exact absurd rfl hxn
    | scalar p => exact ⟨_, rfl, key f hf p⟩
    | list xs => exact ⟨_, rfl, forall₂_map fun p _ => key f hf p⟩
    | array xs => exact ⟨_, rfl, forall₂_map fun p _ => key f hf p⟩
  | rows fs =>
    refine ⟨_, rows_val v rt left right hr hne hf.1 hf.2, ?_⟩
    have hxn : x ≠ .none := by rintro rfl; simp [refused] at hr
    cases x with
    | none => exact absurd rfl hxn
    | scalar p => exact ⟨_, rfl, forall₂_map fun f hf' => forall₂_map fun p _ => key f (hf.2 f hf') p⟩
    | list xs => exact ⟨_, rfl, forall₂_map fun f hf' => forall₂_map fun p _ => key f (hf.2 f hf') p⟩
    | array xs => exact ⟨_, rfl, forall₂_map fun f hf' => forall₂_map fun p _ => key f (hf.2 f hf') p⟩

set_option linter.unusedSectionVars false in
theorem interpGo_skip (rt : Rt K) {x : K} (k : K × K) (post : List (K × K)) (hk : k.1 ≤ x) :
    ∀ (mid : List (K × K)) (a : K × K), (∀ q ∈ mid, q.1 ≤ x) →
      interpGo rt x a (mid ++ k :: post) = interpGo rt x k post := by
  intro mid
  induction mid with
  | nil => intro a _; obtain ⟨a1, a2⟩ := a; obtain ⟨k1, k2⟩ := k; simp only [List.nil_append, interpGo, if_pos hk]
  | cons b t ih =>
    intro a h
    obtain ⟨a1, a2⟩ := a
    obtain ⟨b1, b2⟩ := b
    simp only [List.cons_append, interpGo, if_pos (h _ List.mem_cons_self)]
    exact ih _ fun q hq => h q (List.mem_cons_of_mem _ hq)

/-- once the knots from `k` on decide, so does the whole list -/
theorem npInterp_tail (rt : Rt K) (left right : Option K) {x : K} {pre post : List (K × K)} {k : K × K}
    (hs : (pre ++ k :: post).Pairwise (fun p q => p.1 ≤ q.1)) (hk : k.1 ≤ x)
    (hl : ∀ l, (pre ++ k :: post).getLast? = some l → x ≤ l.1) :
    interpAt rt left right (pre ++ k :: post) x = interpGo rt x k post := by
  have hpre : ∀ q ∈ pre, q.1 ≤ x := fun q hq => ((List.pairwise_append.1 hs).2.2 q hq k List.mem_cons_self).trans hk
  cases pre with
  | nil =>
    obtain ⟨k1, k2⟩ := k
    have h2 : ¬ (((k1, k2) :: post).getLast (by simp)).1 < x :=
      not_lt.2 (hl _ (List.getLast?_eq_some_getLast (by simp)))
    simp only [List.nil_append, interpAt, npInterp, if_neg (not_lt.2 hk), if_neg h2]
  | cons a t =>
    obtain ⟨a1, a2⟩ := a
    have h1 : ¬ x < a1 := not_lt.2 (hpre _ List.mem_cons_self)
    have h2 : ¬ (((a1, a2) :: (t ++ k :: post)).getLast (by simp)).1 < x :=
      not_lt.2 (hl _ (List.getLast?_eq_some_getLast (by simp)))
    simp only [List.cons_append, interpAt, npInterp, if_neg h1, if_neg h2]
    exact interpGo_skip rt k post hk t _ fun q hq => hpre q (List.mem_cons_of_mem _ hq)

theorem through_val {rt : Rt K} (hx : rt.Exact) {left right : Option K} {ks : List (K × K)}
    (hs : ks.Pairwise (fun p q => p.1 ≤ q.1)) {x v : K} (h : Through left right ks x v) :
    v = interpAt rt left right ks x := by
  rcases h with ⟨k, rest, rfl, hk, rfl⟩ | ⟨init, k, rfl, hk, rfl⟩ | ⟨pre, k, post, rfl, hk, hp, rfl⟩ |
    ⟨pre, a, b, post, rfl, ha, hb, rfl⟩
  · obtain ⟨k1, k2⟩ := k
    simp only [interpAt, npInterp, if_pos hk]
  · cases init with
    | nil =>
      obtain ⟨k1, k2⟩ := k
      simp only at hk
      have h2 : ([(k1, k2)].getLast (by simp)).1 < x := hk
      simp only [List.nil_append, interpAt, npInterp, if_neg (not_lt.2 (le_of_lt hk)), if_pos h2]
      rfl
    | cons a t =>
      obtain ⟨a1, a2⟩ := a
      have h1 : ¬ x < a1 := not_lt.2
        (((List.pairwise_append.1 hs).2.2 _ List.mem_cons_self k (by simp)).trans hk.le)
      have h2 : ((a1, a2) :: (t ++ [k])).getLast (by simp) = k := by
        simp
      simp only [List.cons_append, interpAt, npInterp, if_neg h1, h2, if_pos hk]
  · rw [npInterp_tail rt left right hs hk.le]
    · cases post with
      | nil => obtain ⟨k1, k2⟩ := k; rfl
      | cons b t =>
        obtain ⟨k1, k2⟩ := k
        obtain ⟨b1, b2⟩ := b
        have h1 : k1 ≤ b1 :=
          (List.pairwise_cons.1 (List.pairwise_append.1 hs).2.1).1 _ List.mem_cons_self
        have h2 : ¬ b1 ≤ x := fun hc => hp _ List.mem_cons_self (le_antisymm hc (hk ▸ h1))
        simp only at hk
        simp only [interpGo, if_neg h2, if_pos hk]
    · intro l hl
      rw [List.getLast?_append, Option.or_eq_some_iff] at hl
      rcases hl with hl | ⟨hl, -⟩
      · rw [← hk]
        rcases List.mem_cons.1 (List.mem_of_getLast? hl) with rfl | hq
        · exact le_rfl
        · exact (List.pairwise_cons.1 (List.pairwise_append.1 hs).2.1).1 _ hq
      · simp at hl
  · rw [npInterp_tail rt left right hs ha.le]
    · obtain ⟨a1, a2⟩ := a
      obtain ⟨b1, b2⟩ := b
      simp only [interpGo, if_neg (not_le.2 hb), if_neg (ne_of_lt ha)]
      simp only at ha hb
      rw [hx.add, hx.mul, hx.div, hx.sub, hx.sub, hx.sub]
      have : b1 - a1 ≠ 0 := sub_ne_zero.2 (ha.trans hb).ne'
      field_simp
      ring
    · intro l hl
      rw [List.getLast?_append, Option.or_eq_some_iff] at hl
      rcases hl with hl | ⟨hl, -⟩
      · have hbl : b.1 ≤ l.1 := by
          rw [List.getLast?_cons_cons] at hl
          rcases List.mem_cons.1 (List.mem_of_getLast? hl) with rfl | hq
          · exact le_rfl
          · exact (List.pairwise_cons.1 (List.pairwise_cons.1 (List.pairwise_append.1 hs).2.1).2).1 _ hq
        exact hb.le.trans hbl
      · simp at hl

/-- C89, part: the curve of sorted knots has one value at each point, so the answers above are the only ones. -/
theorem C89_unique_partial {left right : Option K} {ks : List (K × K)} (hs : ks.Pairwise (fun p q => p.1 ≤ q.1))
    {x v w : K} (h : Through left right ks x v) (h' : Through left right ks x w) : v = w :=
  (through_val (Rt.exact_exact K) hs h).trans (through_val (Rt.exact_exact K) hs h').symm

end

/-- C89: nothing to interpolate, no data, rows of the wrong length and no rows at all raise `ValueError`. -/
theorem C89_errors_partial {K : Type} [Field K] [LinearOrder K] (v : NpVersion) (rt : Rt K) (xp : List K) (fp : FArg K)
    (left right : Option K) :
    Interp.multiInterp v rt .none xp fp left right = .error .valueError ∧
    Interp.multiInterp v rt (.list []) xp fp left right = .error .valueError ∧
    (∀ x f, xp = [] ∨ f.length ≠ xp.length → Interp.multiInterp v rt x xp (.row f) left right = .error .valueError) ∧
    (∀ x, Interp.multiInterp v rt x xp (.rows []) left right = .error .valueError) ∧
    (∀ x f fs, (∀ g ∈ fs, g.length = f.length) → xp = [] ∨ f.length ≠ xp.length →
      Interp.multiInterp v rt x xp (.rows (f :: fs)) left right = .error .valueError) := by
  have hp : ∀ (xs f : List K), xp = [] ∨ f.length ≠ xp.length → points rt left right xs xp f = .error .valueError := by
    intro xs f h
    unfold Interp.points
    by_cases h0 : xp = []
    · rw [if_pos h0]
    · rw [if_neg h0, if_pos (h.resolve_left h0)]
  refine ⟨rfl, rfl, fun x f h => ?_, fun x => ?_, fun x f fs he h => ?_⟩
  · simp only [Interp.multiInterp, hp _ _ h]
    split <;> rfl
  · simp only [Interp.multiInterp, if_true, ite_self]
  · simp only [Interp.multiInterp]
    split
    · rfl
    · rw [if_neg (by simp), if_neg, List.mapM_cons, hp _ _ h]
      · rfl
      · rw [not_not]
        intro a ha b hb
        have : ∀ a ∈ f :: fs, a.length = f.length := by
          intro a ha
          rcases List.mem_cons.1 ha with rfl | ha
          · rfl
          · exact he a ha
        rw [this a ha, this b hb]

/-- C89, counterexample: unsorted data never raise `ValueError`, or anything else, as long as the shapes are right. -/
theorem C89_unsorted_counterexample {K : Type} [Field K] [LinearOrder K] (v : NpVersion) (rt : Rt K) {x : XArg K}
    {xp : List K} {fp : FArg K} (left right : Option K) (hx : Given x) (hu : ¬ xp.Pairwise (· ≤ ·))
    (hf : Shaped xp.length fp) : ∃ out, Interp.multiInterp v rt x xp fp left right = .ok out := by
  have hne : xp ≠ [] := by rintro rfl; exact hu .nil
  have hr : refused v x = false := by cases x <;> simp_all [Given, refused]
  cases fp with
  | row f => exact ⟨_, row_val v rt left right hr hne hf⟩
  | rows fs => exact ⟨_, rows_val v rt left right hr hne hf.1 hf.2⟩

/-- C89, counterexample: with numpy 1.25 or newer an array of two or more points raises `ValueError`, with numpy 2.2 or
newer any array does. -/
theorem C89_array_counterexample {K : Type} [Field K] [LinearOrder K] (rt : Rt K) (xs xp : List K) (fp : FArg K)
    (left right : Option K) :
    (2 ≤ xs.length → Interp.multiInterp .from125to21 rt (.array xs) xp fp left right = .error .valueError) ∧
    Interp.multiInterp .from22 rt (.array xs) xp fp left right = .error .valueError := by
  constructor
  · intro h
    simp [Interp.multiInterp, refused, h]
  · rfl

/-- The model of `multi_interp` used for `get_load` is this one with an array of points and numpy before 1.25,
transposed. -/
theorem C89_get_load_partial {K : Type} [Field K] [LinearOrder K] (rt : Rt K) {xs xp : List K} {fs : List (List K)}
    (left right : Option K) (hx : xs ≠ []) (hne : xp ≠ []) (hf : Shaped xp.length (.rows fs)) :
    ∃ g : List K → K → K,
      Interp.multiInterp .before125 rt (.array xs) xp (.rows fs) left right = .ok (.table (fs.map fun f => xs.map (g f))) ∧
      BeamDesign.multiInterp rt (some xs) xp fs left right = .ok (xs.map fun x => fs.map fun f => g f x) := by
  refine ⟨fun f => interpAt rt left right (xp.zip f), rows_val _ rt left right rfl hne hf.1 hf.2, ?_⟩
  cases xs with
  | nil => exact absurd rfl hx
  | cons a t =>
    simp only [BeamDesign.multiInterp, if_neg hf.1]
    apply mapM_map
    intro x _
    apply mapM_map
    intro f hf'
    refine npInterp_val rt left right ?_ x
    rw [← List.length_pos_iff, List.length_zip, hf.2 f hf', min_self]
    exact List.length_pos_iff.2 hne

example : Interp.multiInterp .from22 (Rt.exact ℚ) (.list [-1, 1/2, 1, 3]) [0, 1, 1, 2] (.rows [[0, 10, 20, 30], [5, 5, 6, 6]])
    (some 7) none = .ok (.table [[7, 5, 20, 30], [7, 5, 6, 6]]) := by decide +kernel

example : Interp.multiInterp .from22 (Rt.exact ℚ) (.scalar (1/2)) [0, 1] (.row [0, 10]) none none = .ok (.scalar 5) := by
  decide +kernel

/-- unsorted data -/
example : (Interp.multiInterp .before125 (Rt.exact ℚ) (.scalar (1/2)) [0, 2, 1] (.row [0, 10, 20]) none none).isOk = true ∧
    Given (.scalar (1/2 : ℚ)) ∧ ¬ ([0, 2, 1] : List ℚ).Pairwise (· ≤ ·) ∧ Shaped 3 (.row [(0 : ℚ), 10, 20]) := by
  refine ⟨by decide +kernel, trivial, by decide +kernel, rfl⟩

end BeamDesign
