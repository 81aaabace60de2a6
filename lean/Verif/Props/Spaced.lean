import Verif.Lemmas.Linspace64
import Verif.Lemmas.Positions
import Verif.Props.Again
import Verif.Props.Rounding
import Verif.Spec.Spaced

/-!
# C131: listing loads at a number of positions in double precision
-/

set_option linter.unusedSectionVars false

namespace BeamDesign

open Spec

theorem isDouble_one : IsDouble 1 := ⟨1, 0, by norm_num, by norm_num, by norm_num⟩

theorem one_large : (2 : ℚ) ^ (-900 : ℤ) ≤ 1 := zpow_le_one_of_nonpos₀ (by norm_num) (by norm_num)

theorem spaced64_one_stands (n i : ℕ) (hn : n ≤ 2 ^ 50) (hi : i < n) : Stands n i (spaced64 1 n i) := by
  unfold Stands
  split_ifs with h0 h1
  · subst h0
    unfold spaced64
    split_ifs with h2 h3
    · rfl
    · omega
    · simp [rnd64_zero]
  · unfold spaced64
    rw [if_neg (by omega), if_pos h1]
  · simpa using spaced64_error one_large (by omega) hn i hi

theorem spaced64_one_range (n i : ℕ) (hn : n ≤ 2 ^ 50) (hi : i < n) : 0 ≤ spaced64 1 n i ∧ spaced64 1 n i ≤ 1 := by
  by_cases h : n ≤ 1
  · simp [spaced64, h]
  · exact spaced64_range one_large (by omega) hn i hi

theorem spaced64_one_nodup (n : ℕ) (hn : n ≤ 2 ^ 50) : ((List.range n).map (spaced64 1 n)).Nodup := by
  rw [List.nodup_map_iff_inj_on List.nodup_range]
  intro i hi j hj hij
  have hi := List.mem_range.1 hi
  have hj := List.mem_range.1 hj
  by_contra hne
  rcases lt_or_gt_of_ne hne with h | h
  · exact absurd hij (spaced64_strict one_large (by omega) hn i j h hj).ne
  · exact absurd hij (spaced64_strict one_large (by omega) hn j i h hi).ne'

/-- C131: in double precision too, `list_positions(min_positions=n)` of a load case succeeds for every `n` up to `2 ^ 50`: it
lists ascending positions of the element, `n` or more, with every stored position among them and, for each of the `n` equally
spaced positions, one that stands for it; nothing else. -/
theorem C131_list_positions (isInt : Bool) (rows : List (LRow ℚ)) (hwf : WellFormed rows) (n : ℕ) (hn : n ≤ 2 ^ 50) :
    ∃ ps, (⟨some ⟨isInt, rows⟩⟩ : LoadCase ℚ).listPositions Rt.binary64 (some n) .none = .ok ps ∧
      (ps.map (·.val)).Pairwise (· < ·) ∧ n ≤ ps.length ∧ (∀ v ∈ ps.map (·.val), 0 ≤ v ∧ v ≤ 1) ∧
      (∀ r ∈ rows, r.pos ∈ ps.map (·.val)) ∧ (∀ i < n, ∃ v ∈ ps.map (·.val), Stands n i v) ∧
      ∀ v ∈ ps.map (·.val), v ∈ rows.map (·.pos) ∨ ∃ i < n, Stands n i v := by
  set lin := (List.range n).map (spaced64 1 n) with hlin
  have hl : linspace Rt.binary64 0 1 n = .ok lin := linspace64 isDouble_one one_large n hn
  set ps := sortedSet ((rows.map fun r => (⟨r.pos, isInt⟩ : Num ℚ)) ++ lin.map Num.flt) with hps
  have hmem : ∀ v, v ∈ ps.map (·.val) ↔ v ∈ rows.map (·.pos) ∨ v ∈ lin := by
    intro v
    rw [hps, sortedSet_vals, List.map_append, List.mem_append, List.map_map, List.map_map]
    simp [Function.comp_def]
  have hlen : n ≤ ps.length := by
    have hsub : lin ⊆ ps.map (·.val) := fun v hv => (hmem v).2 (Or.inr hv)
    have := (spaced64_one_nodup n hn).subperm hsub |>.length_le
    simpa using this
  refine ⟨ps, ?_, sortedSet_sorted _, hlen, ?_, ?_, ?_, ?_⟩
  · simp only [LoadCase.listPositions, LoadCase.loadPositions, bind, Except.bind, hl]
    rw [← hps, if_neg (by exact_mod_cast not_lt.2 hlen)]
  · intro v hv
    rcases (hmem v).1 hv with h | h
    · obtain ⟨r, hr, rfl⟩ := List.mem_map.1 h
      exact hwf.2 r hr
    · obtain ⟨i, hi, rfl⟩ := List.mem_map.1 h
      exact spaced64_one_range n i hn (List.mem_range.1 hi)
  · intro r hr
    exact (hmem _).2 (Or.inl (List.mem_map_of_mem hr))
  · intro i hi
    exact ⟨_, (hmem _).2 (Or.inr (List.mem_map_of_mem (List.mem_range.2 hi))), spaced64_one_stands n i hn hi⟩
  · intro v hv
    refine ((hmem v).1 hv).imp id fun h => ?_
    obtain ⟨i, hi, rfl⟩ := List.mem_map.1 h
    exact ⟨i, List.mem_range.1 hi, spaced64_one_stands n i hn (List.mem_range.1 hi)⟩

/-- C131: and `get_load(min_positions=n)` reports loads at exactly the positions listed, for every choice of components. -/
theorem C131_get_load (isInt : Bool) (rows : List (LRow ℚ)) (hwf : WellFormed rows) (hne : rows ≠ []) (n : ℕ)
    (hn : n ≤ 2 ^ 50) (component : CompArg) (cs : List LComp) (hc : Asks component cs) (hcs : cs ≠ []) :
    ∃ ps tab, (⟨some ⟨isInt, rows⟩⟩ : LoadCase ℚ).listPositions Rt.binary64 (some n) .none = .ok ps ∧
      (⟨some ⟨isInt, rows⟩⟩ : LoadCase ℚ).getLoad Rt.binary64 .none (some n) component = .ok (some tab) ∧
      (∀ v, v ∈ tab.rows.map (·.1) ↔ v ∈ ps.map (·.val)) ∧ ∀ r ∈ tab.rows, r.2.length = cs.length := by
  rw [asks_iff] at hc
  obtain ⟨ps, h1, h2, h3, h4, h5, h6, h7⟩ := C131_list_positions isInt rows hwf n hn
  have hps0 : ps ≠ [] := by
    rintro rfl
    obtain ⟨r, hr⟩ := List.exists_mem_of_ne_nil rows hne
    simpa using h5 r hr
  refine ⟨ps, _, h1, getLoad_eq binary64_sortOK hwf hne h1 h2 hps0 hc hcs, ?_, ?_⟩
  · intro v
    have : (ps.map (·.val)).flatMap (block Rt.binary64 rows cs)
        = ((ps.map (·.val)).flatMap (rowsAt Rt.binary64 rows)).map fun r => (r.pos, cs.map r.get) := by
      rw [List.map_flatMap]
      congr 1
      funext p
      exact block_rowsAt _ rows p _
    rw [← mem_refined Rt.binary64 rows (ps.map (·.val)) v, this]
    simp [cells]
  · intro r hr
    simp only [cells, List.mem_map] at hr
    obtain ⟨q, hq, rfl⟩ := hr
    obtain ⟨p, -, hq⟩ := List.mem_flatMap.1 hq
    rw [block_rowsAt] at hq
    obtain ⟨w, -, rfl⟩ := List.mem_map.1 hq
    simp

/-- C130: in double precision the loads listed at up to `2 ^ 50` positions are always accepted as the loads of a new load
case, which lists the very same array. -/
theorem C130_binary64 (isInt : Bool) (rows : List (LRow ℚ)) (hwf : WellFormed rows) (hne : rows ≠ []) (n : ℕ)
    (hn : n ≤ 2 ^ 50) :
    ∃ tab again, (⟨some ⟨isInt, rows⟩⟩ : LoadCase ℚ).getLoad Rt.binary64 .none (some n) .none = .ok (some tab) ∧
      LoadCase.new (entered tab) = .ok again ∧ again.getLoad Rt.binary64 .none (some n) .none = .ok (some tab) := by
  obtain ⟨ps, h1, h2, h3, h4, h5, -⟩ := C131_list_positions isInt rows hwf n hn
  have hps0 : ps ≠ [] := by
    rintro rfl
    obtain ⟨r, hr⟩ := List.exists_mem_of_ne_nil rows hne
    simpa using h5 r hr
  have hg := getLoad_eq binary64_sortOK hwf hne h1 h2 hps0 (component := .none) rfl (by simp [LComp.all])
  have hw : WellFormed ((ps.map (·.val)).flatMap (rowsAt Rt.binary64 rows)) := by
    constructor
    · rw [List.pairwise_flatMap]
      constructor
      · intro p _
        rw [List.pairwise_iff_forall_sublist]
        intro a b hab
        rw [rowsAt_pos _ rows p a (hab.subset (by simp)), rowsAt_pos _ rows p b (hab.subset (by simp))]
      · refine h2.imp ?_
        intro p q hpq a ha b hb
        rw [rowsAt_pos _ rows p a ha, rowsAt_pos _ rows q b hb]
        exact hpq.le
    · intro r hr
      obtain ⟨p, hp, hr⟩ := List.mem_flatMap.1 hr
      rw [rowsAt_pos _ rows p r hr]
      exact h4 p hp
  have ha := (entered_new Rt.binary64 rows (answerDType isInt (rows.map (·.pos)) (ps.map (·.val))) (ps.map (·.val))
    (by simpa using hps0) ⟨some ⟨_, _⟩⟩).2 ⟨hw, rfl⟩
  refine ⟨_, _, hg, ha, ?_⟩
  rw [C130_again binary64_sortOK isInt rows hwf hne n _ _ hg ha .none _ rfl (by simp)]
  exact hg

/-- Three positions of the sample load case. -/
example : ∃ ps, Samples.lc.listPositions Rt.binary64 (some ((3 : ℕ) : ℤ)) .none = .ok ps ∧ 3 ≤ ps.length := by
  obtain ⟨ps, h1, -, h2, -⟩ := C131_list_positions false Samples.rows Samples.wf 3 (by norm_num)
  exact ⟨ps, h1, h2⟩

/-- Fifty computed positions are not all exact. -/
example : (linspace Rt.binary64 0 1 50).map (fun l => decide (l = (List.range 50).map fun i : ℕ => (i : ℚ) / 49)) = .ok false := by
  decide +kernel

end BeamDesign
