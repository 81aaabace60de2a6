import Verif.Lemmas.Rounding
import Verif.Lemmas.Positions
import Verif.Spec.Samples

/-!
# C78: interpolated loads are accurate
-/

set_option linter.unusedSectionVars false
set_option exponentiation.threshold 2000

namespace BeamDesign

open Spec

section
variable {K : Type} [Field K] [LinearOrder K] [IsStrictOrderedRing K]

theorem interpVal_near {rt : Rt K} {F : K → Prop} {u η : K} (hr : Rounds rt F u η) (hu0 : 0 ≤ u) (hu : u ≤ 1 / 64)
    (hη : 0 ≤ η) {rows : List (LRow K)} (hwf : WellFormed rows) (hne : rows ≠ []) (hF : Machine F rows) {p : K} (hFp : F p)
    (hp : p ∉ rows.map (·.pos)) (c : LComp) : NearCurve (16 * u) (4 * η) rows c p (interpVal rt rows c p) := by
  rcases interpVal_form rt hne c p hp with h | ⟨pre, a, b, post, he, h1, h2, h3⟩
  · refine ⟨_, h, ?_⟩
    intro M hM
    have hM0 : 0 ≤ M := by
      obtain ⟨r, hr'⟩ := List.exists_mem_of_ne_nil rows hne
      exact (abs_nonneg _).trans (hM r hr')
    rw [sub_self, abs_zero]
    positivity
  · refine ⟨_, Or.inr (Or.inr ⟨pre, a, b, post, he, h1, h2, rfl⟩), ?_⟩
    intro M hM
    have ha : a ∈ rows := by rw [he]; simp
    have hb : b ∈ rows := by rw [he]; simp
    obtain ⟨fa, fa'⟩ := hF a ha
    obtain ⟨fb, fb'⟩ := hF b hb
    have wa := hwf.2 a ha
    have wb := hwf.2 b hb
    have d1 := hr.sub _ _ (fb' c) (fa' c)
    have d2 := hr.sub _ _ fb fa
    have hX : 0 < b.pos - a.pos := by linarith
    have d2' : rt.sub b.pos a.pos ≠ 0 := by
      intro h0
      have := d2.2
      rw [h0, zero_sub, abs_neg, abs_of_pos hX] at this
      have := mul_le_mul_of_nonneg_right hu hX.le
      linarith
    have d3 := hr.div _ _ d1.1 d2.1 d2'
    have d4 := hr.sub _ _ hFp fa
    have d5 := hr.mul _ _ d3.1 d4.1
    have d6 := hr.add _ _ d5.1 (fa' c)
    rw [h3]
    exact interp_error hu0 hu hη hX (by linarith) (by linarith) (by linarith [wa.1, wb.2]) d1.2 d2.2 d3.2 d4.2 d5.2 d6.2
      (hM a ha) (hM b hb)

/-- C78: for every arithmetic with the error bounds of the standard model, and tables and positions of machine numbers,
stored rows are returned exactly and interpolated values are within `16 u` of the exact curve, relative to the largest
magnitude in the table (plus `4 η` for underflow). -/
theorem C78_get_load {rt : Rt K} (hs : rt.SortOK) {F : K → Prop} {u η : K} (hr : Rounds rt F u η) (hu0 : 0 ≤ u)
    (hu : u ≤ 1 / 64) (hη : 0 ≤ η) (isInt : Bool) (rows : List (LRow K)) (hwf : WellFormed rows) (hne : rows ≠ [])
    (hF : Machine F rows) (position : PosArg K) (xs : List K) (hreq : Requested position xs) (hxs : xs ≠ [])
    (hFx : ∀ x ∈ xs, F x) (component : CompArg) (cs : List LComp) (hc : Asks component cs) (hcs : cs ≠ []) :
    ∃ ps blocks dt, Distinct xs ps ∧ List.Forall₂ (NearAnswerAt (16 * u) (4 * η) rows cs) ps blocks ∧
      (⟨some ⟨isInt, rows⟩⟩ : LoadCase K).getLoad rt position none component
        = .ok (some ⟨dt, cs.length, cells blocks.flatten⟩) := by
  rw [asks_iff] at hc
  obtain ⟨ps, hps, hd⟩ := requested_listPositions rt (⟨some ⟨isInt, rows⟩⟩ : LoadCase K) hreq
  have hps0 : ps ≠ [] := by
    rintro rfl
    obtain ⟨x, hx'⟩ := List.exists_mem_of_ne_nil xs hxs
    simpa using (hd.2 x).2 hx'
  refine ⟨ps.map (·.val), (ps.map (·.val)).map (block rt rows cs),
    answerDType isInt (rows.map (·.pos)) (ps.map (·.val)), hd, ?_, ?_⟩
  · rw [List.forall₂_map_right_iff, List.forall₂_same]
    intro p hp
    have hFp := hFx p ((hd.2 p).1 hp)
    unfold block
    split_ifs with h
    · refine Or.inl ⟨h, ?_⟩
      apply List.map_congr_left
      intro r hr'
      have := (List.mem_filter.1 hr').2
      rw [of_decide_eq_true this, entry_eq]
    · refine Or.inr ⟨h, _, rfl, ?_⟩
      rw [List.forall₂_map_right_iff]
      exact List.forall₂_same.2 fun c _ => interpVal_near hr hu0 hu hη hwf hne hF hFp h c
  · rw [getLoad_eq hs hwf hne hps hd.1 hps0 hc hcs, List.flatMap_def]

end

/-- C78: IEEE double precision, round to nearest, ties to even, with gradual underflow, meets the standard model. -/
theorem C78_binary64_rounds : Rounds Rt.binary64 IsDouble (2 ^ (-53 : ℤ)) (2 ^ (-1075 : ℤ)) where
  add := by
    intro a b ha hb
    refine ⟨isDouble_rnd64 _, ?_⟩
    obtain ⟨n, rfl⟩ := isDouble_multiple ha
    obtain ⟨m, rfl⟩ := isDouble_multiple hb
    exact rnd64_error_multiple (n + m) (by push_cast; ring)
  sub := by
    intro a b ha hb
    refine ⟨isDouble_rnd64 _, ?_⟩
    obtain ⟨n, rfl⟩ := isDouble_multiple ha
    obtain ⟨m, rfl⟩ := isDouble_multiple hb
    exact rnd64_error_multiple (n - m) (by push_cast; ring)
  mul := fun a b _ _ => ⟨isDouble_rnd64 _, rnd64_error _⟩
  div := fun a b _ _ _ => ⟨isDouble_rnd64 _, rnd64_error _⟩

theorem binary64_sortOK : Rt.binary64.SortOK := Rt.exact_sortOK ℚ

/-- C78: in double precision interpolated loads are within `2 ^ -49` of the exact curve, relative to the largest magnitude
of the component in the table, plus `2 ^ -1073`. -/
theorem C78_binary64 (isInt : Bool) (rows : List (LRow ℚ)) (hwf : WellFormed rows) (hne : rows ≠ [])
    (hF : Machine IsDouble rows) (position : PosArg ℚ) (xs : List ℚ) (hreq : Requested position xs) (hxs : xs ≠ [])
    (hFx : ∀ x ∈ xs, IsDouble x) (component : CompArg) (cs : List LComp) (hc : Asks component cs) (hcs : cs ≠ []) :
    ∃ ps blocks dt, Distinct xs ps ∧
      List.Forall₂ (NearAnswerAt (2 ^ (-49 : ℤ)) (2 ^ (-1073 : ℤ)) rows cs) ps blocks ∧
      (⟨some ⟨isInt, rows⟩⟩ : LoadCase ℚ).getLoad Rt.binary64 position none component
        = .ok (some ⟨dt, cs.length, cells blocks.flatten⟩) := by
  have := C78_get_load binary64_sortOK C78_binary64_rounds (two_zpow_pos _).le
    (by norm_num) (two_zpow_pos _).le isInt rows hwf hne hF position xs hreq hxs hFx component cs hc hcs
  rwa [show (16 : ℚ) * 2 ^ (-53 : ℤ) = 2 ^ (-49 : ℤ) by norm_num,
    show (4 : ℚ) * 2 ^ (-1075 : ℤ) = 2 ^ (-1073 : ℤ) by
      rw [show (-1073 : ℤ) = -1075 + 2 by norm_num, zpow_add₀ (by norm_num)]; norm_num] at this

/-! ## Cases meeting the hypotheses -/

theorem samples_machine : Machine IsDouble Samples.rows := by
  have hi : ∀ n : ℤ, |n| < 2 ^ 53 → IsDouble (n : ℚ) := fun n hn => ⟨n, 0, hn, by norm_num, by simp⟩
  have h0 := hi 0 (by norm_num)
  have h1 := hi 1 (by norm_num)
  have h2 := hi 2 (by norm_num)
  have h3 := hi 3 (by norm_num)
  have h4 := hi 4 (by norm_num)
  have h5 := hi 5 (by norm_num)
  have h6 := hi 6 (by norm_num)
  have h7 := hi (-10) (by norm_num)
  have hh : IsDouble (1 / 2) := ⟨1, -1, by norm_num, by norm_num, by norm_num⟩
  push_cast at *
  intro r hr
  simp only [Samples.rows, List.mem_cons, List.not_mem_nil, or_false] at hr
  rcases hr with rfl | rfl | rfl | rfl
  all_goals
    refine ⟨by assumption, fun c => ?_⟩
    cases c <;> simp only [entry] <;> assumption

example : ∃ ps blocks dt, Distinct [1 / 4] ps ∧
      List.Forall₂ (NearAnswerAt (2 ^ (-49 : ℤ)) (2 ^ (-1073 : ℤ)) Samples.rows [.N]) ps blocks ∧
      Samples.lc.getLoad Rt.binary64 (.scalar (Num.flt (1 / 4))) none (.name "N")
        = .ok (some ⟨dt, 1, cells blocks.flatten⟩) :=
  C78_binary64 false Samples.rows Samples.wf (by simp [Samples.rows]) samples_machine _ _ (Or.inl ⟨_, rfl, rfl⟩) (by simp)
    (by
      intro x hx
      rw [List.mem_singleton.1 hx]
      exact ⟨1, -2, by norm_num, by norm_num, by norm_num⟩) _ _ ⟨.N, rfl, by simp⟩ (by simp)

end BeamDesign
