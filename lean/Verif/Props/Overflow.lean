import Verif.Model.Overflow
import Verif.Spec.Overflow
import Verif.Props.Special
import Verif.Props.LoadSingle
import Verif.Props.Rounding
import Verif.Lemmas.Fast64

/-!
# C122: interpolation does not overflow
-/

namespace BeamDesign

open Spec

theorem rnd64_le_two {x : ℚ} {k : ℤ} (hk : -1074 ≤ k) (h : |x| ≤ 2 ^ k) : |rnd64 x| ≤ 2 ^ k := by
  have h1 : rnd64 (2 ^ k) = 2 ^ k := by
    have := rnd64_of_small (e := k) (n := 1) hk (by norm_num)
    simpa using this
  obtain ⟨hl, hu⟩ := abs_le.1 h
  refine abs_le.2 ⟨?_, ?_⟩
  · have := rnd64_mono hl
    rwa [rnd64_neg, h1] at this
  · have := rnd64_mono hu
    rwa [h1] at this

theorem two_le_rnd64 {x : ℚ} {k : ℤ} (hk : -1074 ≤ k) (h : 2 ^ k ≤ x) : 2 ^ k ≤ rnd64 x := by
  have h1 : rnd64 (2 ^ k) = 2 ^ k := by
    have := rnd64_of_small (e := k) (n := 1) hk (by norm_num)
    simpa using this
  have := rnd64_mono h
  rwa [h1] at this

theorem cap_fin {x : ℚ} {k : ℤ} (hk : k ≤ 1023) (h : |x| ≤ 2 ^ k) : Val.cap x = .fin x := by
  have h1 : (2 : ℚ) ^ k ≤ 2 ^ (1023 : ℤ) := zpow_le_zpow_right₀ (by norm_num) hk
  have h2 : (2 : ℚ) ^ (1023 : ℤ) < 2 ^ 1024 := by
    rw [← zpow_natCast]
    exact zpow_lt_zpow_right₀ (by norm_num) (by norm_num)
  obtain ⟨hl, hu⟩ := abs_le.1 h
  unfold Val.cap
  rw [if_neg (not_le.2 (hu.trans_lt (h1.trans_lt h2))),
    if_neg (not_le.2 ((neg_lt_neg (h1.trans_lt h2)).trans_le hl))]

/-- one line of the interpolation -/
theorem overLine {a b : ℤ} (ha : 0 ≤ a) (hb : 0 ≤ b) (hab : a + b ≤ 1022) {x0 x1 y0 y1 x : ℚ} (h0 : x0 < x) (h1 : x < x1)
    (hg : 2 ^ (-b) ≤ x1 - x0) (hs : x1 - x0 ≤ 1) (hy0 : |y0| ≤ 2 ^ a) (hy1 : |y1| ≤ 2 ^ a) :
    (Val.add Rt.binary64 (Val.mul Rt.binary64 (Val.div Rt.binary64 (Val.cap (Rt.binary64.sub y1 y0)) (Rt.binary64.sub x1 x0)).over
      (Rt.binary64.sub x x0)).over (.fin y0)).over
    = .fin (Rt.binary64.add (Rt.binary64.mul (Rt.binary64.div (Rt.binary64.sub y1 y0) (Rt.binary64.sub x1 x0)) (Rt.binary64.sub x x0)) y0) := by
  have dbl : ∀ k : ℤ, (2 : ℚ) ^ (k + 1) = 2 ^ k + 2 ^ k := fun k => by rw [zpow_add_one₀ (by norm_num)]; ring
  have hd : |Rt.binary64.sub y1 y0| ≤ 2 ^ (a + 1) := by
    refine rnd64_le_two (by omega) ((abs_sub _ _).trans ?_)
    rw [dbl]
    exact add_le_add hy1 hy0
  have hb' : 2 ^ (-b) ≤ Rt.binary64.sub x1 x0 := two_le_rnd64 (by omega) hg
  have hb0 : 0 < Rt.binary64.sub x1 x0 := lt_of_lt_of_le (zpow_pos (by norm_num) _) hb'
  have hq : |Rt.binary64.div (Rt.binary64.sub y1 y0) (Rt.binary64.sub x1 x0)| ≤ 2 ^ (a + b + 1) := by
    refine rnd64_le_two (by omega) ?_
    rw [abs_div, abs_of_pos hb0, div_le_iff₀ hb0]
    calc |Rt.binary64.sub y1 y0| ≤ 2 ^ (a + 1) := hd
      _ = 2 ^ (a + b + 1) * 2 ^ (-b) := by rw [← zpow_add₀ (by norm_num), show a + b + 1 + -b = a + 1 by ring]
      _ ≤ _ := mul_le_mul_of_nonneg_left hb' (zpow_pos (by norm_num) _).le
  have hx : |Rt.binary64.sub x x0| ≤ 2 ^ (0 : ℤ) := by
    refine rnd64_le_two (by norm_num) ?_
    rw [abs_of_pos (by linarith)]
    norm_num
    linarith
  have hm : |Rt.binary64.mul (Rt.binary64.div (Rt.binary64.sub y1 y0) (Rt.binary64.sub x1 x0)) (Rt.binary64.sub x x0)| ≤ 2 ^ (a + b + 1) := by
    refine rnd64_le_two (by omega) ?_
    rw [abs_mul]
    calc _ ≤ 2 ^ (a + b + 1) * 2 ^ (0 : ℤ) := mul_le_mul hq hx (abs_nonneg _) (zpow_pos (by norm_num) _).le
      _ = _ := by rw [zpow_zero, mul_one]
  have ha' : Val.cap (Rt.binary64.add (Rt.binary64.mul (Rt.binary64.div (Rt.binary64.sub y1 y0) (Rt.binary64.sub x1 x0))
      (Rt.binary64.sub x x0)) y0) = .fin (Rt.binary64.add (Rt.binary64.mul (Rt.binary64.div (Rt.binary64.sub y1 y0) (Rt.binary64.sub x1 x0))
      (Rt.binary64.sub x x0)) y0) := by
    have h3 : rnd64 (3 * 2 ^ (a + b)) = 3 * 2 ^ (a + b) := by
      have := rnd64_of_small (e := a + b) (n := 3) (by omega) (by norm_num)
      simpa using this
    have hle : |Rt.binary64.mul (Rt.binary64.div (Rt.binary64.sub y1 y0) (Rt.binary64.sub x1 x0)) (Rt.binary64.sub x x0) + y0| ≤
        3 * 2 ^ (a + b) := by
      refine (abs_add_le _ _).trans ?_
      have e1 : (2 : ℚ) ^ a ≤ 2 ^ (a + b) := zpow_le_zpow_right₀ (by norm_num) (by omega)
      have e2 := dbl (a + b)
      linarith
    have hlt : (3 : ℚ) * 2 ^ (a + b) < 2 ^ 1024 := by
      have e1 : (2 : ℚ) ^ (a + b) ≤ 2 ^ (1022 : ℤ) := zpow_le_zpow_right₀ (by norm_num) hab
      have e2 : (2 : ℚ) ^ 1024 = 4 * 2 ^ (1022 : ℤ) := by
        rw [← zpow_natCast, show ((1024 : ℕ) : ℤ) = 1022 + 2 by norm_num, zpow_add₀ (by norm_num), mul_comm]; rfl
      have e3 : (0 : ℚ) < 2 ^ (1022 : ℤ) := zpow_pos (by norm_num) _
      rw [e2]
      clear hle h3 hm hq hx dbl hg hy0 hy1 hd hb'
      generalize (2 : ℚ) ^ (1022 : ℤ) = w at e1 e3 ⊢
      generalize (2 : ℚ) ^ (a + b) = v at e1 ⊢
      linarith
    obtain ⟨hl, hu⟩ := abs_le.1 hle
    have r1 := rnd64_mono hl
    have r2 := rnd64_mono hu
    rw [rnd64_neg, h3] at r1
    rw [h3] at r2
    unfold Val.cap
    have r2' : Rt.binary64.add (Rt.binary64.mul (Rt.binary64.div (Rt.binary64.sub y1 y0) (Rt.binary64.sub x1 x0))
      (Rt.binary64.sub x x0)) y0 < 2 ^ 1024 := r2.trans_lt hlt
    have r1' : -2 ^ 1024 < Rt.binary64.add (Rt.binary64.mul (Rt.binary64.div (Rt.binary64.sub y1 y0) (Rt.binary64.sub x1 x0))
      (Rt.binary64.sub x x0)) y0 := (neg_lt_neg hlt).trans_le r1
    rw [if_neg (not_le.2 r2'), if_neg (not_le.2 r1')]
  rw [cap_fin (by omega) hd]
  simp only [Val.div, if_neg hb0.ne', Val.over, cap_fin (show a + b + 1 ≤ 1023 by omega) hq, Val.mul,
    cap_fin (show a + b + 1 ≤ 1023 by omega) hm, Val.add, ha']

theorem overInterpGo_eq {e g : ℤ} (he : 0 ≤ e) (hg0 : 0 ≤ g) (heg : e + g ≤ 1022) {x : ℚ} (rest : List (ℚ × ℚ)) (p : ℚ × ℚ) (hp : p.1 ≤ x)
    (hb : ∀ q ∈ p :: rest, 0 ≤ q.1 ∧ q.1 ≤ 1 ∧ |q.2| ≤ 2 ^ e)
    (hg : ∀ a ∈ p :: rest, ∀ b ∈ p :: rest, a.1 < b.1 → 2 ^ (-g) ≤ b.1 - a.1) :
    overInterpGo Rt.binary64 x p rest = .fin (interpGo Rt.binary64 x p rest) := by
  induction rest generalizing p with
  | nil => rfl
  | cons q rest ih =>
    obtain ⟨x0, y0⟩ := p
    obtain ⟨x1, y1⟩ := q
    rw [overInterpGo, interpGo]
    split_ifs with h1 h2
    · exact ih _ h1 (fun r hr => hb r (List.mem_cons_of_mem _ hr))
        (fun a ha b hb' => hg a (List.mem_cons_of_mem _ ha) b (List.mem_cons_of_mem _ hb'))
    · rfl
    · have h0 : x0 < x := lt_of_le_of_ne hp h2
      have b0 := hb (x0, y0) (by simp)
      have b1 := hb (x1, y1) (by simp)
      exact overLine he hg0 heg h0 (not_le.1 h1) (hg (x0, y0) (by simp) (x1, y1) (by simp) (h0.trans (not_le.1 h1)))
        (by have := b0.1; have := b1.2.1; simp only at *; linarith) b0.2.2 b1.2.2

theorem overInterp_eq {e g : ℤ} (he : 0 ≤ e) (hg0 : 0 ≤ g) (heg : e + g ≤ 1022) {x : ℚ} {l : List (ℚ × ℚ)} (hb : ∀ q ∈ l, 0 ≤ q.1 ∧ q.1 ≤ 1 ∧ |q.2| ≤ 2 ^ e)
    (hg : ∀ a ∈ l, ∀ b ∈ l, a.1 < b.1 → 2 ^ (-g) ≤ b.1 - a.1) :
    overInterp Rt.binary64 x l = (npInterp Rt.binary64 none none x l).map Val.fin := by
  cases l with
  | nil => rfl
  | cons p rest =>
    obtain ⟨x0, y0⟩ := p
    rw [overInterp, npInterp]
    split_ifs with h1
    · rfl
    · simp only
      split_ifs
      · rfl
      · rw [overInterpGo_eq he hg0 heg rest _ (not_lt.1 h1) hb hg]; rfl

/-- C122: in double precision with overflow, a load reported by `get_load` is never an infinity or nan, and is the number of the arithmetic
without overflow, when the loads are at most `2 ^ e` and different positions at least `2 ^ -g` apart with `e + g ≤ 1022`: for instance
loads up to 10³⁰ and positions at least 10^-270 apart. -/
theorem C122_finite_partial (isInt : Bool) (rows : List (LRow ℚ)) (hne : rows ≠ []) (hwf : WellFormed rows) (c : LComp)
    {e g : ℤ} (he : 0 ≤ e) (hg : 0 ≤ g) (heg : e + g ≤ 1022) (hm : Moderate (2 ^ (-g)) (2 ^ e) c rows) (x : ℚ) :
    ∃ tab, (⟨some ⟨isInt, rows⟩⟩ : LoadCase ℚ).getLoad Rt.binary64 (.scalar (Num.flt x)) none (.comp c) = .ok (some tab) ∧
      (⟨some ⟨isInt, rows⟩⟩ : LoadCase ℚ).loadOver Rt.binary64 c (Num.flt x)
        = .ok (tab.rows.flatMap fun r => r.2.map (Option.map Val.fin)) := by
  have hsort : Rt.binary64.SortOK := binary64_sortOK
  refine ⟨_, getLoad_eq hsort hwf hne (ps := [Num.flt x]) rfl (by simp) (by simp) rfl (by simp), ?_⟩
  have hover : (⟨some ⟨isInt, rows⟩⟩ : LoadCase ℚ).loadOver Rt.binary64 c (Num.flt x)
      = if x ∈ rows.map (·.pos) then
          .ok ((rows.filter fun r => decide (r.pos = x)).map fun r => some (.fin (r.get c)))
        else (overInterp Rt.binary64 x (rows.map fun r => (r.pos, r.get c))).map fun v => [some v] := by
    show (if x ∈ rows.map (·.pos) then _ else _) = _
    split_ifs
    · rfl
    · show Except.bind (overInterp Rt.binary64 x (rows.map fun r => (r.pos, r.get c))) _ = _
      cases overInterp Rt.binary64 x (rows.map fun r => (r.pos, r.get c)) <;> rfl
  rw [hover]
  show _ = Except.ok (List.flatMap _ (cells (block Rt.binary64 rows [c] x ++ [])))
  rw [List.append_nil, block, cells]
  by_cases h : x ∈ rows.map (·.pos)
  · rw [if_pos h, if_pos h, List.map_map, List.flatMap_map, List.map_eq_flatMap]
    rfl
  · have hent : ∀ r : LRow ℚ, r.get c = entry r c := fun r => by cases c <;> rfl
    rw [if_neg h, if_neg h, overInterp_eq he hg heg, npInterp_ok _ hne]
    · rfl
    · intro q hq
      obtain ⟨r, hr, rfl⟩ := List.mem_map.1 hq
      exact ⟨(hwf.2 r hr).1, (hwf.2 r hr).2, by rw [hent]; exact hm.sizes r hr⟩
    · intro a ha b hb
      obtain ⟨r, hr, rfl⟩ := List.mem_map.1 ha
      obtain ⟨s, hs, rfl⟩ := List.mem_map.1 hb
      exact hm.gaps r hr s hs

/-- C122: a load case without loads answers None at every float position. -/
theorem C122_unloaded {K : Type} [Field K] [LinearOrder K] (rt : Rt K) (c : LComp) (x : K) :
    (⟨none⟩ : LoadCase K).loadOver rt c (Num.flt x) = .ok [none] := rfl

/-- C122 needs the distance: between loads of 0 at position 0 and of 1000 at position `2 ^ -1070` the reported load is infinite. -/
theorem C122_counterexample :
    (⟨some ⟨false, [⟨0, 0, 0, 0, 0, 0, 0⟩, ⟨2 ^ (-1070 : ℤ), 0, 0, 1000, 0, 0, 0⟩]⟩⟩ : LoadCase ℚ).loadOver Rt.binary64 .N
      (Num.flt (2 ^ (-1071 : ℤ))) = .ok [some .posInf] := by
  rw [binary64_eq]
  decide +kernel

/-- C122 is false for every larger sum of the exponents: from `-2 ^ e` to `2 ^ e` over a distance of `2 ^ -g` with `e + g = 1023` the
slope overflows, and half way the reported load is infinite instead of 0. -/
theorem C122_large_counterexample {e g : ℤ} (hg : 0 ≤ g) (hg' : g ≤ 1073) (heg : e + g = 1023) (isInt : Bool) :
    WellFormed [⟨0, 0, 0, -2 ^ e, 0, 0, 0⟩, (⟨2 ^ (-g), 0, 0, 2 ^ e, 0, 0, 0⟩ : LRow ℚ)] ∧
    Moderate (2 ^ (-g)) (2 ^ e) .N [⟨0, 0, 0, -2 ^ e, 0, 0, 0⟩, (⟨2 ^ (-g), 0, 0, 2 ^ e, 0, 0, 0⟩ : LRow ℚ)] ∧
    (⟨some ⟨isInt, [⟨0, 0, 0, -2 ^ e, 0, 0, 0⟩, ⟨2 ^ (-g), 0, 0, 2 ^ e, 0, 0, 0⟩]⟩⟩ : LoadCase ℚ).loadOver Rt.binary64 .N
      (Num.flt (2 ^ (-g - 1))) = .ok [some .posInf] := by
  have g0 : (0 : ℚ) < 2 ^ (-g) := zpow_pos (by norm_num) _
  have e0 : (0 : ℚ) < 2 ^ e := zpow_pos (by norm_num) _
  have x0 : (0 : ℚ) < 2 ^ (-g - 1) := zpow_pos (by norm_num) _
  have hx : (2 : ℚ) ^ (-g - 1) < 2 ^ (-g) := zpow_lt_zpow_right₀ (by norm_num) (by omega)
  have pow : ∀ k : ℤ, -1074 ≤ k → rnd64 (2 ^ k) = 2 ^ k := fun k hk => by
    have := rnd64_of_small (e := k) (n := 1) hk (by norm_num)
    simpa using this
  refine ⟨?_, ⟨?_, ?_⟩, ?_⟩
  · refine ⟨by simp only [List.pairwise_cons, List.mem_singleton, forall_eq, g0.le, List.not_mem_nil, IsEmpty.forall_iff, implies_true, List.Pairwise.nil, and_self], ?_⟩
    intro r hr
    simp only [List.mem_cons, List.not_mem_nil, or_false] at hr
    rcases hr with rfl | rfl
    · norm_num
    · exact ⟨g0.le, by have : (2 : ℚ) ^ (-g) ≤ 2 ^ (0 : ℤ) := zpow_le_zpow_right₀ (by norm_num) (by omega); simpa using this⟩
  · intro a ha b hb hlt
    simp only [List.mem_cons, List.not_mem_nil, or_false] at ha hb
    rcases ha with rfl | rfl <;> rcases hb with rfl | rfl <;> simp only at hlt ⊢ <;> linarith
  · intro r hr
    simp only [List.mem_cons, List.not_mem_nil, or_false] at hr
    rcases hr with rfl | rfl
    · show |-(2 : ℚ) ^ e| ≤ _
      rw [abs_neg, abs_of_pos e0]
    · show |(2 : ℚ) ^ e| ≤ _
      rw [abs_of_pos e0]
  · have hs : Rt.binary64.sub (2 ^ e) (-2 ^ e) = 2 ^ (e + 1) := by
      show rnd64 _ = _
      rw [show (2 : ℚ) ^ e - -2 ^ e = 2 ^ (e + 1) by rw [zpow_add_one₀ (by norm_num)]; ring, pow _ (by omega)]
    have hs' : Rt.binary64.sub (2 ^ (-g)) 0 = 2 ^ (-g) := by
      show rnd64 _ = _
      rw [sub_zero, pow _ (by omega)]
    have hs'' : Rt.binary64.sub (2 ^ (-g - 1)) 0 = 2 ^ (-g - 1) := by
      show rnd64 _ = _
      rw [sub_zero, pow _ (by omega)]
    have hq : Rt.binary64.div (2 ^ (e + 1)) (2 ^ (-g)) = 2 ^ (1024 : ℤ) := by
      show rnd64 _ = _
      rw [← zpow_sub₀ (by norm_num), show e + 1 - -g = 1024 by omega, pow _ (by norm_num)]
    have hbig : Val.cap ((2 : ℚ) ^ (1024 : ℤ)) = .posInf := by
      unfold Val.cap
      have : (2 : ℚ) ^ (1024 : ℕ) ≤ 2 ^ (1024 : ℤ) := (zpow_natCast 2 1024).symm.le
      rw [if_pos this]
    have hslope : (Val.div Rt.binary64 (Val.cap ((2 : ℚ) ^ (e + 1))) (2 ^ (-g))).over = .posInf := by
      by_cases h0 : g = 0
      · subst h0
        rw [show e + 1 = 1024 by omega, hbig]
        norm_num [Val.div, Val.signed, Val.over]
      · rw [cap_fin (k := e + 1) (by omega) (by rw [abs_of_pos (zpow_pos (by norm_num) _)])]
        simp only [Val.div, if_neg g0.ne', Val.over, hq, hbig]
    have hpos : ¬ (Num.flt ((2 : ℚ) ^ (-g - 1))).val ∈ List.map (·.pos) [⟨0, 0, 0, -2 ^ e, 0, 0, 0⟩, (⟨2 ^ (-g), 0, 0, 2 ^ e, 0, 0, 0⟩ : LRow ℚ)] := by
      simp only [List.map_cons, List.map_nil, List.mem_cons, List.not_mem_nil, or_false]
      rintro (h | h)
      · exact x0.ne' h
      · exact hx.ne h
    have hgo : overInterp Rt.binary64 (2 ^ (-g - 1)) [((0 : ℚ), -2 ^ e), (2 ^ (-g), 2 ^ e)] = .ok .posInf := by
      simp only [overInterp, if_neg (not_lt.2 x0.le), List.getLast_cons_cons, List.getLast_singleton, if_neg (not_lt.2 hx.le), overInterpGo,
        if_neg (not_le.2 hx), if_neg x0.ne, hs, hs', hs'', hslope]
      simp only [Val.mul, if_neg x0.ne', Val.signed, decide_eq_true x0, if_true, Val.over, Val.add]
    show (if _ ∈ _ then _ else _) = _
    rw [if_neg hpos]
    show Except.bind (overInterp Rt.binary64 (2 ^ (-g - 1)) [((0 : ℚ), -2 ^ e), (2 ^ (-g), 2 ^ e)]) _ = _
    rw [hgo]
    rfl

example : (0 : ℤ) ≤ 923 ∧ (923 : ℤ) ≤ 1073 ∧ (100 : ℤ) + 923 = 1023 := by norm_num

example : ∃ tab, Samples.lc.getLoad Rt.binary64 (.scalar (Num.flt (1/3))) none (.comp .N) = .ok (some tab) ∧
    Samples.lc.loadOver Rt.binary64 .N (Num.flt (1/3)) = .ok (tab.rows.flatMap fun r => r.2.map (Option.map Val.fin)) := by
  refine C122_finite_partial false Samples.rows (by decide) Samples.wf .N (e := 100) (g := 900) (by norm_num) (by norm_num) (by norm_num)
    ⟨?_, ?_⟩ (1/3)
  · have h : (2 : ℚ) ^ (-900 : ℤ) ≤ 1 / 16 := by
      have : (2 : ℚ) ^ (-900 : ℤ) ≤ 2 ^ (-4 : ℤ) := zpow_le_zpow_right₀ (by norm_num) (by norm_num)
      exact this.trans (by norm_num)
    have : ∀ a ∈ Samples.rows, ∀ b ∈ Samples.rows, a.pos < b.pos → 1 / 16 ≤ b.pos - a.pos := by decide +kernel
    exact fun a ha b hb hlt => h.trans (this a ha b hb hlt)
  · decide +kernel

end BeamDesign
