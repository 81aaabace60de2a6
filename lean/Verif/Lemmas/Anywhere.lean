import Verif.Props.Sound
import Verif.Spec.Anywhere

/-!
# Lemmas for C135
-/

set_option linter.unusedSectionVars false

namespace BeamDesign

open Spec

section
variable {K : Type} [Field K] [LinearOrder K] [IsStrictOrderedRing K]

/-- The curve through rows at least `g` apart with axial loads up to `W` is not steeper than `2 W / g`. -/
theorem onCurve_lipschitz {rows : List (LRow K)} {g W : K} (hg : 0 < g) (hp : rows.Pairwise fun r s => r.pos + g ≤ s.pos)
    (hW : ∀ r ∈ rows, |r.n| ≤ W) {r : LRow K} (hr : r ∈ rows) {q w : K} (hc : OnCurve rows .N q w) :
    |w - r.n| ≤ 2 * W / g * |q - r.pos| := by
  have hW0 : 0 ≤ W := (abs_nonneg _).trans (hW r hr)
  have hfar : ∀ v : K, |v| ≤ W → g ≤ |q - r.pos| → |v - r.n| ≤ 2 * W / g * |q - r.pos| := by
    intro v hv hq
    have h1 : |v - r.n| ≤ 2 * W := by
      have h2 := abs_sub v r.n
      have := hW r hr
      linarith
    refine h1.trans ?_
    rw [div_mul_eq_mul_div, le_div_iff₀ hg]
    exact mul_le_mul_of_nonneg_left hq (by linarith)
  have hzero : |r.n - r.n| ≤ 2 * W / g * |q - r.pos| := by
    rw [sub_self, abs_zero]; positivity
  rcases hc with ⟨first, rest, rfl, h1, rfl⟩ | ⟨init, last, rfl, h1, rfl⟩ | ⟨pre, a, b, post, rfl, h1, h2, rfl⟩
  · rcases List.mem_cons.1 hr with rfl | hr
    · exact hzero
    · refine hfar _ (hW first (by simp)) ?_
      have := (List.pairwise_cons.1 hp).1 r hr
      rw [abs_sub_comm, abs_of_nonneg (by linarith)]
      linarith
  · rcases List.mem_append.1 hr with hr | hr
    · refine hfar _ (hW last (by simp)) ?_
      have := (List.pairwise_append.1 hp).2.2 r hr last (by simp)
      rw [abs_of_nonneg (by linarith)]
      linarith
    · rw [List.mem_singleton] at hr
      subst hr
      exact hzero
  · obtain ⟨-, p2, p3⟩ := List.pairwise_append.1 hp
    obtain ⟨p4, p5⟩ := List.pairwise_cons.1 p2
    obtain ⟨p6, -⟩ := List.pairwise_cons.1 p5
    have hab := p4 b (by simp)
    have hd : 0 < b.pos - a.pos := by linarith
    set s := (q - a.pos) / (b.pos - a.pos) with hs
    have hs0 : 0 ≤ s := div_nonneg (by linarith) hd.le
    have hs1 : s ≤ 1 := (div_le_one hd).2 (by linarith)
    have ha := abs_le.1 (hW a (by simp))
    have hb := abs_le.1 (hW b (by simp))
    have hv : |a.n + (b.n - a.n) * s| ≤ W := by
      rw [abs_le]
      constructor <;> nlinarith
    have hsg : ∀ z : K, 0 ≤ z → z / (b.pos - a.pos) ≤ z / g := fun z hz =>
      div_le_div_of_nonneg_left hz hg (by linarith)
    have hba : |b.n - a.n| ≤ 2 * W := by rw [abs_le]; constructor <;> linarith
    rcases List.mem_append.1 hr with hr | hr
    · refine hfar _ hv ?_
      have := p3 r hr a (by simp)
      rw [abs_of_nonneg (by linarith)]
      linarith
    · rcases List.mem_cons.1 hr with rfl | hr
      · show |r.n + (b.n - r.n) * s - r.n| ≤ _
        rw [add_sub_cancel_left, abs_mul, abs_of_nonneg hs0, abs_of_nonneg (by linarith : 0 ≤ q - r.pos), div_mul_eq_mul_div,
          mul_div_assoc]
        exact mul_le_mul hba (hsg _ (by linarith)) hs0 (by linarith)
      · rcases List.mem_cons.1 hr with rfl | hr
        · show |a.n + (r.n - a.n) * s - r.n| ≤ _
          have e : a.n + (r.n - a.n) * s - r.n = -((r.n - a.n) * ((r.pos - q) / (r.pos - a.pos))) := by
            rw [hs]; field_simp; ring
          rw [e, abs_neg, abs_mul, abs_of_nonneg (div_nonneg (by linarith) hd.le : 0 ≤ (r.pos - q) / (r.pos - a.pos)),
            abs_sub_comm q, abs_of_nonneg (by linarith : 0 ≤ r.pos - q), div_mul_eq_mul_div, mul_div_assoc]
          exact mul_le_mul hba (hsg _ (by linarith)) (div_nonneg (by linarith) hd.le) (by linarith)
        · refine hfar _ hv ?_
          have := p6 r hr
          rw [abs_sub_comm, abs_of_nonneg (by linarith)]
          linarith

end

theorem interpGo_double (x : ℚ) : ∀ (l : List (ℚ × ℚ)) (p : ℚ × ℚ), IsDouble p.2 → (∀ q ∈ l, IsDouble q.2) →
    IsDouble (interpGo Rt.binary64 x p l) := by
  intro l
  induction l with
  | nil => rintro ⟨a, b⟩ hp _; exact hp
  | cons q l ih =>
    rintro ⟨a, b⟩ hp hl
    obtain ⟨c, d⟩ := q
    simp only [interpGo]
    split_ifs
    · exact ih (c, d) (hl (c, d) (by simp)) fun q hq => hl q (List.mem_cons_of_mem _ hq)
    · exact hp
    · exact isDouble_rnd64 _

theorem interpVal_double {rows : List (LRow ℚ)} (hF : Machine IsDouble rows) (hne : rows ≠ []) (c : LComp) (p : ℚ) :
    IsDouble (interpVal Rt.binary64 rows c p) := by
  have hall : ∀ q ∈ rows.map fun r => (r.pos, r.get c), IsDouble q.2 := by
    intro q hq
    obtain ⟨r, hr, rfl⟩ := List.mem_map.1 hq
    exact (hF r hr).2 c
  have hok := npInterp_ok Rt.binary64 hne c p
  generalize hl : rows.map (fun r => (r.pos, r.get c)) = l at hall hok
  cases l with
  | nil => simp only [npInterp] at hok; cases hok
  | cons a l =>
    obtain ⟨x0, y0⟩ := a
    simp only [npInterp] at hok
    split_ifs at hok
    · injection hok with hok
      rw [← hok]; exact hall (x0, y0) (by simp)
    · injection hok with hok
      rw [← hok]; exact hall _ (List.getLast_mem _)
    · injection hok with hok
      rw [← hok]
      exact interpGo_double p l (x0, y0) (hall (x0, y0) (by simp)) fun q hq => hall q (List.mem_cons_of_mem _ hq)

/-- The rows reported next to a stored row of a gentle table. -/
theorem block_gentle {rows : List (LRow ℚ)} (hwf : WellFormed rows) (hne : rows ≠ []) (hF : Machine IsDouble rows) {g W : ℚ}
    (hg : 0 < g) (hp : rows.Pairwise fun r s => r.pos + g ≤ s.pos) (hW : ∀ r ∈ rows, |r.n| ≤ W) {r : LRow ℚ} (hr : r ∈ rows)
    {q : ℚ} (hq : IsDouble q) :
    ∃ m, (q, [m]) ∈ block Rt.binary64 rows [.N] q ∧ IsDouble m ∧ m ≤ W + (2 ^ (-49 : ℤ) * W + 2 ^ (-1073 : ℤ)) ∧
      |m - r.n| ≤ 2 * W / g * |q - r.pos| + (2 ^ (-49 : ℤ) * W + 2 ^ (-1073 : ℤ)) := by
  have hW0 : 0 ≤ W := (abs_nonneg _).trans (hW r hr)
  have hsmall : (0 : ℚ) ≤ 2 ^ (-49 : ℤ) * W + 2 ^ (-1073 : ℤ) :=
    add_nonneg (mul_nonneg (two_zpow_pos _).le hW0) (two_zpow_pos _).le
  by_cases hmem : q ∈ rows.map (·.pos)
  · obtain ⟨s, hs, rfl⟩ := List.mem_map.1 hmem
    refine ⟨s.n, ?_, (hF s hs).2 .N, ((le_abs_self _).trans (hW s hs)).trans (le_add_of_nonneg_right hsmall), ?_⟩
    · unfold block
      rw [if_pos hmem]
      exact List.mem_map.2 ⟨s, List.mem_filter.2 ⟨hs, by simp⟩, rfl⟩
    · refine le_trans ?_ (le_add_of_nonneg_right hsmall)
      -- two stored rows: equal, or at least `g` apart
      have hsr : s = r ∨ g ≤ |s.pos - r.pos| := by
        by_contra hcon
        rw [not_or] at hcon
        obtain ⟨h1, h2⟩ := hcon
        have : Std.Symm fun a b : LRow ℚ => a = b ∨ g ≤ |a.pos - b.pos| :=
          ⟨fun a b hab => hab.imp Eq.symm fun h => by rwa [abs_sub_comm]⟩
        have := List.Pairwise.forall_of_forall (R := fun a b : LRow ℚ => a = b ∨ g ≤ |a.pos - b.pos|) (l := rows)
          (fun a _ => Or.inl rfl)
          (hp.imp fun {a b} hab => Or.inr (by rw [abs_sub_comm, abs_of_nonneg (by linarith)]; linarith)) hs hr
        exact this.elim h1 h2
      rcases hsr with rfl | h
      · rw [sub_self, abs_zero]; positivity
      · have h1 : |s.n - r.n| ≤ 2 * W := by
          have h2 := abs_sub s.n r.n
          have := hW r hr
          have := hW s hs
          linarith
        refine h1.trans ?_
        rw [div_mul_eq_mul_div, le_div_iff₀ hg]
        exact mul_le_mul_of_nonneg_left h (by linarith)
  · obtain ⟨w, hw, hnear⟩ := interpVal_near C78_binary64_rounds (two_zpow_pos _).le (by norm_num) (two_zpow_pos _).le hwf hne hF
      hq hmem .N
    have h1 := hnear W hW
    have h3 : (16 : ℚ) * 2 ^ (-53 : ℤ) = 2 ^ (-49 : ℤ) := by norm_num
    have h4 : (4 : ℚ) * 2 ^ (-1075 : ℤ) = 2 ^ (-1073 : ℤ) := by
      rw [show (-1073 : ℤ) = -1075 + 2 by norm_num, zpow_add₀ (by norm_num), mul_comm]; norm_num
    rw [h3, h4] at h1
    have hwW : w ≤ W := by
      obtain ⟨-, -, a, ha, -, h⟩ := onCurve_bounds hw
      exact h.trans ((le_abs_self _).trans (hW a ha))
    refine ⟨interpVal Rt.binary64 rows .N q, ?_, interpVal_double hF hne _ _, ?_, ?_⟩
    · unfold block
      rw [if_neg hmem]
      simp
    · have := (abs_le.1 h1).2
      linarith
    · have h2 := onCurve_lipschitz hg hp hW hr hw
      exact (abs_sub_le _ w r.n).trans (by rw [add_comm]; exact add_le_add h2 h1)

/-- The utilisation of some axial load reported next to a stored row is at most the overall one. -/
theorem anywhere_covers {one : ℚ → ℚ → Py ℚ} {o : AS4100 ℚ} {b : Beam ℚ (Sect ℚ)} (hb : o.beam = some b)
    {ls : List (Num ℚ)} (h : HasLengths b ls) (hm : Marks rnd64 ls) {n : ℕ} (hn : o.assessmentPoints = n)
    {loadCase : CaseArg} {c : ℤ} {cs : List ℤ} (hcs : CasesOf o loadCase (c :: cs))
    (hc : ∀ k ∈ c :: cs, LoadedFloat b k) {v : ℚ} (hv : o.tensionUtilisationWith one Rt.binary64 loadCase .none = .ok v) {k : ℤ}
    (hk : k ∈ c :: cs) (hst : StationsOf b c k) {i : ℕ} {l : Num ℚ} {t : Table ℚ} {r : LRow ℚ} (hl : ls[i]? = some l)
    (ht : HasTable b k i t) (hrow : r ∈ t.rows) (hF : Machine IsDouble t.rows) {g W : ℚ} (hg : 0 < g)
    (hp : t.rows.Pairwise fun r s => r.pos + g ≤ s.pos) (hW : ∀ r ∈ t.rows, |r.n| ≤ W) {X q : ℚ}
    (hX : X = rnd64 (startOf ls i + rnd64 (r.pos * l.val))) (hq : q = rnd64 (rnd64 (X - startOf ls i) / l.val)) :
    InElement ls X i ∧
    ∃ m cap w, o.phiNt Rt.binary64 (.scalar (Num.flt X)) = .ok cap ∧ IsDouble m ∧
      m ≤ W + (2 ^ (-49 : ℤ) * W + 2 ^ (-1073 : ℤ)) ∧
      |m - r.n| ≤ 2 * W / g * |q - r.pos| + (2 ^ (-49 : ℤ) * W + 2 ^ (-1073 : ℤ)) ∧
      one cap (max m 0) = .ok w ∧ w ≤ v := by
  have hr := C83_binary64_rounds
  have hs := binary64_sortOK
  obtain ⟨-, hpos, hml⟩ := hm.1 l (List.mem_of_getElem? hl)
  have hilt : i < ls.length := (List.getElem?_eq_some_iff.1 hl).1
  have hstep := startOf_succ ls i l hl
  obtain ⟨e1, he1, he2, hwf, hne⟩ := id ht
  obtain ⟨x0, x1⟩ := hwf.2 r hrow
  have hA0 : 0 ≤ rnd64 (r.pos * l.val) := by
    rw [← rnd64_zero]; exact rnd64_mono (mul_nonneg x0 hpos.le)
  have hA1 : rnd64 (r.pos * l.val) ≤ l.val := by
    refine le_trans (rnd64_mono (mul_le_of_le_one_left hpos.le x1)) hml.le
  have hin : InElement ls X i := by
    refine ⟨hilt, ?_, ?_⟩
    · rw [hX]
      exact le_trans (hm.2 i).ge (rnd64_mono (by linarith))
    · rw [hX]
      exact le_trans (rnd64_mono (by linarith)) (hm.2 (i + 1)).le
  refine ⟨hin, ?_⟩
  obtain ⟨m, hmb, m1, m2, m3⟩ := block_gentle hwf hne hF hg hp hW hrow (q := q) (by rw [hq]; exact isDouble_rnd64 _)
  -- what is reported at `X`
  obtain ⟨out, h1, h2⟩ := C17_marks_partial hr b ls h hm (.scalar (Num.flt X)) [X] (Or.inl ⟨_, rfl, rfl⟩) (some k)
    (by simpa using inElement_range h.2 hin)
  obtain ⟨e, he, q1, q2, -, -, l', hl', q3⟩ := listing_ne h2 (List.mem_singleton_self _) hin
  rw [hl] at hl'; cases hl'
  rw [← hq] at q3
  obtain ⟨blocks, hf, hgl⟩ := getLoads_eq (component := .name "N") (cs := [.N]) hs (hc k hk) rfl (by simp)
    (List.ne_nil_of_mem he) h1
  obtain ⟨rows, hrows, t', e', ht', -, hre, -⟩ := forall₂_mem_left hf he
  obtain ⟨e2, he3, he4, -⟩ := ht'
  rw [q2, he1] at he3; cases he3
  rw [he2] at he4; cases he4
  have hin2 : (X, [m]) ∈ blocks.flatten := by
    refine List.mem_flatten.2 ⟨rows, hrows, ?_⟩
    rw [hre, q3, q1]
    exact List.mem_map.2 ⟨_, hmb, rfl⟩
  have hrt : (X, [some m]) ∈ cells blocks.flatten := by
    unfold cells
    exact List.mem_map.2 ⟨_, hin2, by simp⟩
  -- `X` is one of the positions checked
  obtain ⟨xs, locs, g1, g2, -, g6⟩ := C17_marks_min_partial hr b ls h hm (some c) (by
    rintro k' hk i hi
    cases hk
    obtain ⟨t, ht, -⟩ := hc c List.mem_cons_self i hi
    exact ⟨t, ht⟩) n
  obtain ⟨t', r', ht', hr', hrr⟩ := hst i t r ht hrow
  have hmem := g6 i l c t' r' hl rfl ht' hr'
  rw [hrr, ← hX] at hmem
  obtain ⟨e, he, q1, -⟩ := listing_ne g2 hmem hin
  obtain ⟨ps, hps, hpm⟩ := listPositions_pos g1
  have hfl := positionList_flt h (fun l hl => (hm.1 l hl).1) hps e.pos (hpm e he)
  have hpe : e.pos = Num.flt X := by
    rw [← q1]
    generalize e.pos = p at hfl
    cases p
    simp only at hfl
    rw [hfl]
    rfl
  obtain ⟨cap, tab', a1, a2, a3⟩ := utilisation_covers hb hcs (by rw [hn]; exact g1) hv hk he
  rw [hpe] at a1 a2
  simp only [AS4100.getTension, hb, hgl, bind, Except.bind, pure, Except.pure] at a2
  split at a2
  · cases a2
  next rows hrows =>
  cases a2
  obtain ⟨x, hx, hrx⟩ := forall₂_mem_left ((mapM_ok_iff _ _ _).1 hrows) hrt
  obtain ⟨n', rest, w, b1, b2, b3⟩ := a3 x hx
  refine ⟨m, cap, w, a1, m1, m2, m3, ?_, b3⟩
  simp only [clampRow] at hrx
  cases hrx
  cases b1
  rw [← b2]
  congr 1
  split_ifs with h0
  · exact max_eq_right h0.le
  · exact max_eq_left (not_lt.1 h0)

end BeamDesign
