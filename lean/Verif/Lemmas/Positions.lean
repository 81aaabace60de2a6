import Verif.Lemmas.Load
import Mathlib.Data.Finset.Card

/-! # Lemmas about position lists and `np.linspace` -/

set_option linter.unusedSectionVars false

namespace BeamDesign

theorem Rt.exact_exact (K : Type) [Field K] : (Rt.exact K).Exact :=
  ⟨fun _ _ => rfl, fun _ _ => rfl, fun _ _ => rfl, fun _ _ => rfl⟩

theorem Rt.exact_sortOK (K : Type) [Field K] : (Rt.exact K).SortOK := fun l =>
  ⟨List.perm_insertionSort _ l, insertionSort_key_sorted (fun a : ℕ × Row K => a.1) l⟩

section
variable {K : Type} [Field K] [LinearOrder K] [IsStrictOrderedRing K]

open Spec

theorem diffNonneg_iff (l : List K) : diffNonneg l = true ↔ l.Pairwise (· ≤ ·) := by
  induction l with
  | nil => simp [diffNonneg]
  | cons a t ih =>
    cases t with
    | nil => simp [diffNonneg]
    | cons b r =>
      simp only [diffNonneg, Bool.and_eq_true, decide_eq_true_eq, ih]
      constructor
      · rintro ⟨h1, h2⟩
        refine List.pairwise_cons.2 ⟨?_, h2⟩
        intro x hx
        rcases List.mem_cons.1 hx with rfl | hx
        · exact h1
        · exact h1.trans ((List.pairwise_cons.1 h2).1 x hx)
      · intro h
        have := List.pairwise_cons.1 h
        exact ⟨this.1 b (by simp), this.2⟩

theorem requested_listPositions (rt : Rt K) (lc : LoadCase K) {position : PosArg K} {xs : List K}
    (h : Requested position xs) :
    ∃ ps, lc.listPositions rt none position = .ok ps ∧ Distinct xs (ps.map (·.val)) := by
  rcases h with ⟨x, rfl, rfl⟩ | ⟨l, rfl, rfl⟩
  · exact ⟨[Num.flt x], rfl, by simp [Distinct]⟩
  · exact ⟨sortedSet l, rfl, sortedSet_sorted l, sortedSet_vals l⟩

theorem linspace_ok {rt : Rt K} (hx : rt.Exact) (a b : K) (n : ℕ) :
    ∃ l, linspace rt a b (n : ℤ) = .ok l ∧ l.length = n ∧ ∀ x, x ∈ l ↔ EquallySpaced a b n x := by
  refine ⟨_, by rw [linspace, if_neg (by simp)], by simp, ?_⟩
  intro x
  simp only [List.mem_map, List.mem_range, Int.toNat_natCast, EquallySpaced]
  apply exists_congr
  intro i
  apply and_congr_right
  intro hi
  rcases Nat.lt_or_ge 1 n with hn | hn
  · have hn1 : ¬ n ≤ 1 := by omega
    have hn2 : n ≠ 1 := by omega
    have hcast : ((n - 1 : ℕ) : K) = (n : K) - 1 := by
      rw [Nat.cast_sub (by omega)]; simp
    have hpos : (0 : K) < (n : K) - 1 := by
      rw [← hcast]; exact_mod_cast (by omega : 0 < n - 1)
    rw [if_neg hn2]
    simp only [hn1, if_false, hx.add, hx.mul, hx.div, hx.sub, hcast]
    split_ifs with h1 h2
    · have : (i : K) = n - 1 := by
        have : ((i + 1 : ℕ) : K) = n := by rw [h1]
        push_cast at this; linarith
      rw [this, div_self hpos.ne']
      constructor
      · rintro rfl; ring
      · rintro rfl; ring
    · constructor
      · rintro rfl; ring
      · rintro rfl; ring
    · constructor
      · rintro rfl; ring
      · rintro rfl; ring
  · have : n = 1 := by omega
    subst this
    have : i = 0 := by omega
    subst this
    simp [hx.add, hx.mul, eq_comm]

theorem equallySpaced_card {a b : K} (hab : a < b) (n : ℕ) {l : List K} (hl : l.Nodup)
    (h : ∀ x, EquallySpaced a b n x → x ∈ l) : n ≤ l.length := by
  have hinj : ∀ i j : ℕ, i < n → j < n → n ≠ 1 →
      a + (b - a) * ((i : K) / (n - 1)) = a + (b - a) * ((j : K) / (n - 1)) → i = j := by
    intro i j hi hj hn he
    have hn1 : (0 : K) < (n : K) - 1 := by
      have : (1 : K) < n := by exact_mod_cast (by omega : 1 < n)
      linarith
    have h1 : (b - a) * ((i : K) / (n - 1)) = (b - a) * ((j : K) / (n - 1)) := by linarith
    have h2 := mul_left_cancel₀ (sub_ne_zero.2 hab.ne') h1
    have h3 := (div_left_inj' hn1.ne').1 h2
    exact_mod_cast h3
  by_cases hn : n = 1
  · subst hn
    have := h a ⟨0, by omega, by simp⟩
    exact List.length_pos_of_mem this
  · have hsub : (Finset.range n).image (fun i : ℕ => a + (b - a) * ((i : K) / (n - 1))) ⊆ l.toFinset := by
      intro x hx
      obtain ⟨i, hi, rfl⟩ := Finset.mem_image.1 hx
      rw [List.mem_toFinset]
      exact h _ ⟨i, Finset.mem_range.1 hi, by rw [if_neg hn]⟩
    have h1 := Finset.card_le_card hsub
    rw [Finset.card_image_of_injOn, Finset.card_range, List.toFinset_card_of_nodup hl] at h1
    · exact h1
    · intro i hi j hj he
      exact hinj i j (by simpa using hi) (by simpa using hj) hn he

theorem equallySpaced_mem {a b : K} (hab : a ≤ b) {n : ℕ} {x : K} (h : EquallySpaced a b n x) :
    a ≤ x ∧ x ≤ b := by
  obtain ⟨i, hi, h⟩ := h
  split_ifs at h with hn
  · subst h; exact ⟨le_refl _, hab⟩
  · subst h
    have hn1 : (0 : K) < (n : K) - 1 := by
      have : (1 : K) < n := by exact_mod_cast (by omega : 1 < n)
      linarith
    have hi1 : (i : K) ≤ n - 1 := by
      have : ((i + 1 : ℕ) : K) ≤ n := by exact_mod_cast hi
      push_cast at this; linarith
    have h0 : (0 : K) ≤ (i : K) / (n - 1) := div_nonneg (Nat.cast_nonneg _) hn1.le
    have h1 : (i : K) / (n - 1) ≤ 1 := (div_le_one hn1).2 hi1
    have hba : 0 ≤ b - a := sub_nonneg.2 hab
    constructor
    · have := mul_nonneg hba h0; linarith
    · have := mul_le_mul_of_nonneg_left h1 hba; linarith

end

end BeamDesign
