import Verif.Model.Beam
import Mathlib.Tactic.Linarith
import Mathlib.Tactic.Ring
import Mathlib.Tactic.FieldSimp
import Mathlib.Data.List.Perm.Basic
import Mathlib.Data.List.Nodup

/-! # List lemmas: `sorted(set(..))`, stable sorting, lists sorted by a key -/

namespace BeamDesign

section
variable {K : Type} [LinearOrder K]

theorem mem_pySet_sub {x : Num K} {xs : List (Num K)} (h : x ∈ pySet xs) : x ∈ xs := by
  induction xs with
  | nil => simp [pySet] at h
  | cons a t ih =>
    simp only [pySet, List.mem_cons, List.mem_filter] at h
    rcases h with h | h
    · simp [h]
    · exact List.mem_cons_of_mem _ (ih h.1)

theorem pySet_vals (xs : List (Num K)) (v : K) :
    v ∈ (pySet xs).map (·.val) ↔ v ∈ xs.map (·.val) := by
  induction xs with
  | nil => simp [pySet]
  | cons a t ih =>
    simp only [pySet, List.map_cons, List.mem_cons]
    constructor
    · rintro (h | h)
      · exact Or.inl h
      · right
        rw [← ih]
        simp only [List.mem_map, List.mem_filter] at h ⊢
        obtain ⟨y, ⟨hy, -⟩, rfl⟩ := h
        exact ⟨y, hy, rfl⟩
    · rintro (h | h)
      · exact Or.inl h
      · by_cases hv : v = a.val
        · exact Or.inl hv
        · right
          rw [← ih] at h
          simp only [List.mem_map, List.mem_filter] at h ⊢
          obtain ⟨y, hy, rfl⟩ := h
          exact ⟨y, ⟨hy, by simpa using hv⟩, rfl⟩

theorem pySet_nodup (xs : List (Num K)) : ((pySet xs).map (·.val)).Nodup := by
  induction xs with
  | nil => simp [pySet]
  | cons a t ih =>
    simp only [pySet, List.map_cons, List.nodup_cons]
    constructor
    · simp
    · exact List.Nodup.sublist (List.Sublist.map _ List.filter_sublist) ih

theorem sortedSet_perm (xs : List (Num K)) : (sortedSet xs).Perm (pySet xs) :=
  List.perm_insertionSort _ _

theorem mem_of_mem_sortedSet {x : Num K} {xs : List (Num K)} (h : x ∈ sortedSet xs) : x ∈ xs :=
  mem_pySet_sub ((sortedSet_perm xs).mem_iff.1 h)

/-- `sorted(set(xs))` holds exactly the values of `xs`. -/
theorem sortedSet_vals (xs : List (Num K)) (v : K) :
    v ∈ (sortedSet xs).map (·.val) ↔ v ∈ xs.map (·.val) := by
  rw [← pySet_vals xs]
  exact ((sortedSet_perm xs).map _).mem_iff

/-- `sorted(set(xs))` is strictly ascending. -/
theorem sortedSet_sorted (xs : List (Num K)) :
    ((sortedSet xs).map (·.val)).Pairwise (· < ·) := by
  have h1 : ((sortedSet xs).map (·.val)).Pairwise (· ≤ ·) := by
    rw [List.pairwise_map]
    have : IsTrans (Num K) (fun a b => a.val ≤ b.val) := ⟨fun _ _ _ => le_trans⟩
    have : Std.Total (fun a b : Num K => a.val ≤ b.val) := ⟨fun a b => le_total _ _⟩
    exact List.pairwise_insertionSort (fun a b : Num K => a.val ≤ b.val) _
  have h2 : ((sortedSet xs).map (·.val)).Nodup :=
    (((sortedSet_perm xs).map (·.val)).nodup_iff).2 (pySet_nodup xs)
  have := h1.and h2
  exact this.imp fun h => lt_of_le_of_ne h.1 h.2

/-- A strictly ascending list is determined by its members. -/
theorem eq_of_strict_sorted {l₁ l₂ : List K} (h₁ : l₁.Pairwise (· < ·)) (h₂ : l₂.Pairwise (· < ·))
    (h : ∀ v, v ∈ l₁ ↔ v ∈ l₂) : l₁ = l₂ := by
  have n1 : l₁.Nodup := h₁.imp (fun h => ne_of_lt h)
  have n2 : l₂.Nodup := h₂.imp (fun h => ne_of_lt h)
  have p : l₁.Perm l₂ := (List.perm_ext_iff_of_nodup n1 n2).2 h
  exact p.eq_of_pairwise (fun a b _ _ hab hba => absurd hab (not_lt.2 hba.le)) h₁ h₂

theorem sortedSet_nil : sortedSet ([] : List (Num K)) = [] := rfl

theorem sortedSet_eq_nil {xs : List (Num K)} : sortedSet xs = [] ↔ xs = [] := by
  constructor
  · intro h
    cases xs with
    | nil => rfl
    | cons a t =>
      have : a.val ∈ (sortedSet (a :: t)).map (·.val) := by rw [sortedSet_vals]; simp
      simp [h] at this
  · rintro rfl; rfl

theorem sortedSet_singleton (x : Num K) : sortedSet [x] = [x] := rfl

/-! ## Lists sorted by a key -/

/-- A list sorted by a key is the concatenation of its fibres over the ascending keys. -/
theorem eq_flatMap_fibres {α : Type} (key : α → K) (l : List α) (ps : List K)
    (hl : l.Pairwise (fun a b => key a ≤ key b)) (hps : ps.Pairwise (· < ·))
    (hk : ∀ a ∈ l, key a ∈ ps) :
    l = ps.flatMap (fun p => l.filter (fun a => decide (key a = p))) := by
  induction ps generalizing l with
  | nil =>
    have : l = [] := List.eq_nil_iff_forall_not_mem.2 fun a ha => by simpa using hk a ha
    simp [this]
  | cons p ps ih =>
    have hps' := List.pairwise_cons.1 hps
    -- split l in the rows at p and the rest
    have key1 : l = l.filter (fun a => decide (key a = p)) ++ l.filter (fun a => !decide (key a = p)) := by
      clear ih
      induction l with
      | nil => simp
      | cons a t iht =>
        have hl' := List.pairwise_cons.1 hl
        by_cases ha : key a = p
        · simp only [ha, decide_true, List.filter_cons_of_pos, Bool.not_true, List.cons_append,
            Bool.false_eq_true, not_false_eq_true, List.filter_cons_of_neg]
          rw [← iht hl'.2 (fun b hb => hk b (List.mem_cons_of_mem _ hb))]
        · have hap : p < key a := by
            have := hk a (by simp)
            simp only [List.mem_cons, ha, false_or] at this
            exact hps'.1 _ this
          have hnone : ∀ b ∈ t, key b ≠ p := fun b hb h => by
            have := hl'.1 b hb
            rw [h] at this
            exact absurd hap (not_lt.2 this)
          have e1 : (a :: t).filter (fun a => decide (key a = p)) = [] := by
            rw [List.filter_eq_nil_iff]
            intro b hb
            rcases List.mem_cons.1 hb with rfl | hb
            · simpa using ha
            · simpa using hnone b hb
          have e2 : (a :: t).filter (fun a => !decide (key a = p)) = a :: t := by
            rw [List.filter_eq_self]
            intro b hb
            rcases List.mem_cons.1 hb with rfl | hb
            · simpa using ha
            · simpa using hnone b hb
          rw [e1, e2]; rfl
    have hl2 : (l.filter (fun a => !decide (key a = p))).Pairwise (fun a b => key a ≤ key b) :=
      hl.sublist List.filter_sublist
    have hk2 : ∀ a ∈ l.filter (fun a => !decide (key a = p)), key a ∈ ps := by
      intro a ha
      rw [List.mem_filter] at ha
      have := hk a ha.1
      rcases List.mem_cons.1 this with h | h
      · simp [h] at ha
      · exact h
    have := ih _ hl2 hps'.2 hk2
    rw [List.flatMap_cons]
    conv_lhs => rw [key1]
    congr 1
    rw [this]
    apply List.flatMap_congr
    intro q hq
    have hne : p ≠ q := ne_of_lt (hps'.1 q hq)
    rw [List.filter_filter]
    apply List.filter_congr
    intro a _
    by_cases h : key a = q
    · simp [h, hne.symm]
    · simp [h]

/-! ## Stable sorting -/

theorem orderedInsert_filter {α : Type} (key : α → K) (p : K) (x : α) (l : List α)
    (hl : l.Pairwise (fun a b => key a ≤ key b)) :
    (l.orderedInsert (fun a b => key a ≤ key b) x).filter (fun a => decide (key a = p))
      = (x :: l).filter (fun a => decide (key a = p)) := by
  induction l with
  | nil => rfl
  | cons a t ih =>
    rw [List.orderedInsert_cons]
    split_ifs with h
    · rfl
    · have hl' := List.pairwise_cons.1 hl
      rw [List.filter_cons, ih hl'.2]
      push Not at h
      by_cases hx : key x = p
      · have : key a ≠ p := by rw [← hx]; exact ne_of_lt h
        simp [hx, this]
      · by_cases ha : key a = p <;> simp [hx, ha]

/-- Sorting stably on a key keeps the order within a fibre. -/
theorem insertionSort_filter {α : Type} (key : α → K) (p : K) (l : List α) :
    (l.insertionSort (fun a b => key a ≤ key b)).filter (fun a => decide (key a = p))
      = l.filter (fun a => decide (key a = p)) := by
  induction l with
  | nil => rfl
  | cons a t ih =>
    have : IsTrans α (fun a b => key a ≤ key b) := ⟨fun _ _ _ => le_trans⟩
    have : Std.Total (fun a b : α => key a ≤ key b) := ⟨fun a b => le_total _ _⟩
    rw [List.insertionSort_cons, orderedInsert_filter]
    · by_cases ha : key a = p <;> simp [ha, ih]
    · exact List.pairwise_insertionSort (fun a b : α => key a ≤ key b) t

theorem insertionSort_key_sorted {α : Type} (key : α → K) (l : List α) :
    (l.insertionSort (fun a b => key a ≤ key b)).Pairwise (fun a b => key a ≤ key b) := by
  have : IsTrans α (fun a b => key a ≤ key b) := ⟨fun _ _ _ => le_trans⟩
  have : Std.Total (fun a b : α => key a ≤ key b) := ⟨fun a b => le_total _ _⟩
  exact List.pairwise_insertionSort (fun a b : α => key a ≤ key b) l

end

end BeamDesign
