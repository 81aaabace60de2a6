import Verif.Props.UtilRound
import Verif.Lemmas.UtilHuge
import Verif.Spec.UtilWide

/-!
# C139: utilisations of any size in double precision
-/

namespace BeamDesign

open Spec

/-- A list of calculations that all succeed or fail with the same error. -/
theorem mapM_or {α β : Type} {f : α → Py β} {e : PyErr} (l : List α) (h : ∀ x ∈ l, (∃ v, f x = .ok v) ∨ f x = .error e) :
    (∃ vs, l.mapM f = .ok vs ∧ ∀ x ∈ l, ∃ v, f x = .ok v) ∨ l.mapM f = .error e ∧ ∃ x ∈ l, f x = .error e := by
  induction l with
  | nil => exact Or.inl ⟨[], rfl, by simp⟩
  | cons a l ih =>
    rw [List.mapM_cons]
    rcases h a List.mem_cons_self with ⟨v, hv⟩ | he
    · rcases ih (fun x hx => h x (List.mem_cons_of_mem _ hx)) with ⟨vs, hvs, hall⟩ | ⟨he, x, hx, hxe⟩
      · refine Or.inl ⟨v :: vs, by simp only [hv, hvs, bind, Except.bind, pure, Except.pure], ?_⟩
        intro x hx
        rcases List.mem_cons.1 hx with rfl | hx
        · exact ⟨v, hv⟩
        · exact hall x hx
      · exact Or.inr ⟨by simp only [hv, he, bind, Except.bind], x, List.mem_cons_of_mem _ hx, hxe⟩
    · exact Or.inr ⟨by simp only [he, bind, Except.bind], a, List.mem_cons_self, he⟩

section
variable {rt : Rt ℚ} {o : AS4100 ℚ} {e : PyErr} {one : ℚ → ℚ → Py ℚ}

theorem utilAtWith_or {c : ℤ} {p : Num ℚ} (h : Defined rt o c p)
    (ho : ∀ cap t, o.phiNt rt (.scalar p) = .ok cap → Reported rt o c p t →
      (∃ v, one cap t = .ok v) ∨ one cap t = .error e) :
    ((∃ l, o.utilAtWith one rt c p = .ok l) ∧ ∀ cap t, o.phiNt rt (.scalar p) = .ok cap → Reported rt o c p t →
        ∃ v, one cap t = .ok v) ∨
      o.utilAtWith one rt c p = .error e ∧ ∃ cap t, o.phiNt rt (.scalar p) = .ok cap ∧ Reported rt o c p t ∧
        one cap t = .error e := by
  obtain ⟨cap, dt, rows, hcap, -, -, hten⟩ := h
  have hrep := reported_iff hten
  have key := mapM_or (e := e) (f := fun r : ℚ × ℚ => (do return (c, p, ← one cap r.2) : Py (ℤ × Num ℚ × ℚ))) rows
    (by
      intro r hr
      rcases ho cap r.2 hcap ((hrep _).2 ⟨r, hr, rfl⟩) with ⟨v, hv⟩ | he
      · exact Or.inl ⟨(c, p, v), by simp only [hv, bind, Except.bind, pure, Except.pure]⟩
      · exact Or.inr (by simp only [he, bind, Except.bind]))
  have hat : o.utilAtWith one rt c p = rows.mapM fun r : ℚ × ℚ => (do return (c, p, ← one cap r.2) : Py (ℤ × Num ℚ × ℚ)) := by
    simp only [AS4100.utilAtWith, AS4100.tensionCapacity, hcap, hten, bind, Except.bind]
    rw [List.mapM_map]
    rfl
  rcases key with ⟨vs, hvs, hall⟩ | ⟨he, r, hr, hre⟩
  · refine Or.inl ⟨⟨vs, hat.trans hvs⟩, ?_⟩
    intro cap' t hcap' ht
    rw [hcap] at hcap'
    cases hcap'
    obtain ⟨r, hr, rfl⟩ := (hrep t).1 ht
    obtain ⟨v, hv⟩ := hall r hr
    rcases ho cap r.2 hcap ht with h | h
    · exact h
    · simp only [h, bind, Except.bind] at hv
      cases hv
  · refine Or.inr ⟨hat.trans he, cap, r.2, hcap, (hrep _).2 ⟨r, hr, rfl⟩, ?_⟩
    rcases ho cap r.2 hcap ((hrep _).2 ⟨r, hr, rfl⟩) with ⟨v, hv⟩ | h
    · simp only [hv, bind, Except.bind, pure, Except.pure] at hre
      cases hre
    · exact h

theorem utilLoopWith_or (cs : List ℤ) (ps : List (Num ℚ)) (h : ∀ c ∈ cs, ∀ p ∈ ps, Defined rt o c p)
    (ho : ∀ c ∈ cs, ∀ p ∈ ps, ∀ cap t, o.phiNt rt (.scalar p) = .ok cap → Reported rt o c p t →
      (∃ v, one cap t = .ok v) ∨ one cap t = .error e) :
    (∀ c ∈ cs, ∀ p ∈ ps, ∀ cap t, o.phiNt rt (.scalar p) = .ok cap → Reported rt o c p t →
        ∃ v, one cap t = .ok v) ∨
      o.utilLoopWith one rt (some ps) cs = .error e ∧ ∃ c ∈ cs, ∃ p ∈ ps, ∃ cap t, o.phiNt rt (.scalar p) = .ok cap ∧
        Reported rt o c p t ∧ one cap t = .error e := by
  induction cs with
  | nil => exact Or.inl (by simp)
  | cons c cs ih =>
    have hat := fun p hp => utilAtWith_or (e := e) (h c List.mem_cons_self p hp) (ho c List.mem_cons_self p hp)
    have hm := mapM_or (e := e) (f := fun p => o.utilAtWith one rt c p) ps (fun p hp => (hat p hp).imp (fun x => x.1) (fun x => x.1))
    rcases hm with ⟨vs, hvs, hall⟩ | ⟨he, p, hp, hpe⟩
    · rcases ih (fun c hc => h c (List.mem_cons_of_mem _ hc)) (fun c hc => ho c (List.mem_cons_of_mem _ hc)) with
        hok | ⟨he, c', hc', rest⟩
      · left
        intro c' hc' p hp
        rcases List.mem_cons.1 hc' with rfl | hc'
        · rcases hat p hp with h1 | h1
          · exact h1.2
          · obtain ⟨v, hv⟩ := hall p hp
            rw [h1.1] at hv
            cases hv
        · exact hok c' hc' p hp
      · refine Or.inr ⟨?_, c', List.mem_cons_of_mem _ hc', rest⟩
        simp only [AS4100.utilLoopWith, AS4100.utilPositions, bind, Except.bind] at he ⊢
        rw [hvs]
        simp only [he]
    · refine Or.inr ⟨?_, c, List.mem_cons_self, p, hp, ?_⟩
      · simp only [AS4100.utilLoopWith, AS4100.utilPositions, bind, Except.bind] at he ⊢
        rw [he]
      · rcases hat p hp with h1 | h1
        · obtain ⟨l, hl⟩ := h1.1
          rw [hpe] at hl
          cases hl
        · exact h1.2

end

/-- If every single utilisation is right or, where `Q`, refused, so is the greatest. -/
theorem utilWith_cases {one : ℚ → ℚ → Py ℚ} {Q : ℚ → ℚ → Prop} (o : AS4100 ℚ) (loadCase : CaseArg) (cs : List ℤ)
    (hcs : CasesOf o loadCase cs) (position : PosArg ℚ) (ps : List (Num ℚ)) (hps : PositionsOf position ps)
    (hcne : cs ≠ []) (hpne : ps ≠ []) (h : ∀ c ∈ cs, ∀ p ∈ ps, Defined Rt.binary64 o c p)
    (hone : ∀ c ∈ cs, ∀ p ∈ ps, ∀ cap t, o.phiNt Rt.binary64 (.scalar p) = .ok cap → Reported Rt.binary64 o c p t →
      ((0 < t → 4 / 10 ^ 15 * cap < t) ∧
        ∃ v, one cap t = .ok v ∧ |v - utilOf cap t| ≤ 2 ^ (-43 : ℤ) * utilOf cap t) ∨
      one cap t = .error .valueError ∧ Q cap t) :
    (¬ Slight o cs ps (4 / 10 ^ 15) ∧ ∃ v V, o.tensionUtilisationWith one Rt.binary64 loadCase position = .ok v ∧
      IsGreatest {w | ∃ c ∈ cs, ∃ p ∈ ps, ∃ cap t, o.phiNt Rt.binary64 (.scalar p) = .ok cap ∧
        Reported Rt.binary64 o c p t ∧ w = if t ≤ 0 then 0 else t / cap} V ∧ |v - V| ≤ 2 ^ (-43 : ℤ) * V) ∨
    ((∃ c ∈ cs, ∃ p ∈ ps, ∃ cap t, o.phiNt Rt.binary64 (.scalar p) = .ok cap ∧ Reported Rt.binary64 o c p t ∧ Q cap t) ∧
      o.tensionUtilisationWith one Rt.binary64 loadCase position = .error .valueError) := by
  rcases utilLoopWith_or (rt := Rt.binary64) (one := one) (e := .valueError) cs ps h
    (fun c hc p hp cap t hcap ht => (hone c hc p hp cap t hcap ht).imp
      (fun x => ⟨x.2.choose, x.2.choose_spec.1⟩) (fun x => x.1)) with hall | ⟨he, c, hc, p, hp, cap, t, hcap, ht, hut⟩
  · left
    have hok : ∀ c ∈ cs, ∀ p ∈ ps, ∀ cap t, o.phiNt Rt.binary64 (.scalar p) = .ok cap → Reported Rt.binary64 o c p t →
      ((0 < t → 4 / 10 ^ 15 * cap < t) ∧
        ∃ v, one cap t = .ok v ∧ |v - utilOf cap t| ≤ 2 ^ (-43 : ℤ) * utilOf cap t) := by
      intro c hc p hp cap t hcap ht
      rcases hone c hc p hp cap t hcap ht with h | h
      · exact h
      · obtain ⟨v, hv⟩ := hall c hc p hp cap t hcap ht
        rw [h.1] at hv
        cases hv
    refine ⟨?_, utilWith_of_each (two_zpow_pos _).le o loadCase cs hcs position ps hps hcne hpne h
      fun c hc p hp cap t hcap ht => (hok c hc p hp cap t hcap ht).2⟩
    rintro ⟨c, hc, p, hp, cap, t, hcap, ht, h0, hlt⟩
    exact absurd ((hok c hc p hp cap t hcap ht).1 h0) (not_lt.2 hlt.le)
  · right
    refine ⟨⟨c, hc, p, hp, cap, t, hcap, ht, ?_⟩, ?_⟩
    · rcases hone c hc p hp cap t hcap ht with ⟨-, v, hv, -⟩ | ⟨-, h0⟩
      · rw [hut] at hv
        cases hv
      · exact h0
    · simp only [AS4100.tensionUtilisationWith, given_ok hps, utilCases_ok hcs, he, bind, Except.bind]

/-- C139: whatever the size of the tensions, the utilisation in double precision is the largest `t / φNt` (0 for no
tension) with a relative error below `2 ^ -43`, or there is a `ValueError`.  There is one only if one of the tensions is
less than a ten thousandth of the capacity, and there always is one if one is less than 4/10¹⁵ of the capacity. -/
theorem C139_utilisation (o : AS4100 ℚ) (loadCase : CaseArg) (cs : List ℤ)
    (hcs : CasesOf o loadCase cs) (position : PosArg ℚ) (ps : List (Num ℚ)) (hps : PositionsOf position ps)
    (hcne : cs ≠ []) (hpne : ps ≠ []) (h : ∀ c ∈ cs, ∀ p ∈ ps, Defined Rt.binary64 o c p)
    (ho : ∀ c ∈ cs, ∀ p ∈ ps, Doubles o c p) :
    (¬ Slight o cs ps (4 / 10 ^ 15) ∧ ∃ v V, o.tensionUtilisation Rt.binary64 loadCase position = .ok v ∧
      IsGreatest {w | ∃ c ∈ cs, ∃ p ∈ ps, ∃ cap t, o.phiNt Rt.binary64 (.scalar p) = .ok cap ∧
        Reported Rt.binary64 o c p t ∧ w = if t ≤ 0 then 0 else t / cap} V ∧ |v - V| ≤ 2 ^ (-43 : ℤ) * V) ∨
    (Slight o cs ps (1 / 10 ^ 4) ∧ o.tensionUtilisation Rt.binary64 loadCase position = .error .valueError) := by
  have hone : ∀ c ∈ cs, ∀ p ∈ ps, ∀ cap t, o.phiNt Rt.binary64 (.scalar p) = .ok cap → Reported Rt.binary64 o c p t →
      ((0 < t → 4 / 10 ^ 15 * cap < t) ∧
        ∃ v, utilOne Rt.binary64 cap t = .ok v ∧ |v - utilOf cap t| ≤ 2 ^ (-43 : ℤ) * utilOf cap t) ∨
      utilOne Rt.binary64 cap t = .error .valueError ∧ 0 < t ∧ t < 1 / 10 ^ 4 * cap := by
    intro c hc p hp cap t hcap ht
    obtain ⟨hF, hlo, hd⟩ := ho c hc p hp cap t hcap ht
    unfold utilOf
    by_cases h0 : t ≤ 0
    · rw [if_pos h0]
      exact Or.inl ⟨fun h => absurd h (not_lt.2 h0), 0, by rw [utilOne, if_pos h0], by simp⟩
    · rw [if_neg h0]
      obtain ⟨hFt, hhi⟩ := hd.resolve_left h0
      rcases utilOne_double hFt hF hlo (not_le.1 h0) hhi with h | h
      · exact Or.inl ⟨fun _ => h.1, h.2⟩
      · exact Or.inr ⟨h.1, not_le.1 h0, by linarith [h.2]⟩
  simp only [← tensionUtilisationWith_eq]
  exact utilWith_cases o loadCase cs hcs position ps hps hcne hpne h hone

/-- C139: the utilisation is found, and a load beyond the capacity is never reported as within it, if there are no tensions
below a ten thousandth of the capacity. -/
theorem C139_found (o : AS4100 ℚ) (loadCase : CaseArg) (cs : List ℤ)
    (hcs : CasesOf o loadCase cs) (position : PosArg ℚ) (ps : List (Num ℚ)) (hps : PositionsOf position ps)
    (hcne : cs ≠ []) (hpne : ps ≠ []) (h : ∀ c ∈ cs, ∀ p ∈ ps, Defined Rt.binary64 o c p)
    (ho : ∀ c ∈ cs, ∀ p ∈ ps, Doubles o c p) (hs : ¬ Slight o cs ps (1 / 10 ^ 4)) :
    ∃ v, o.tensionUtilisation Rt.binary64 loadCase position = .ok v ∧
      ((∃ c ∈ cs, ∃ p ∈ ps, ∃ cap t, o.phiNt Rt.binary64 (.scalar p) = .ok cap ∧ Reported Rt.binary64 o c p t ∧
        (1 + 2 ^ (-42 : ℤ)) * cap ≤ t) → 1 < v) := by
  rcases C139_utilisation o loadCase cs hcs position ps hps hcne hpne h ho with ⟨-, v, V, hv, hV, he⟩ | ⟨h1, -⟩
  · refine ⟨v, hv, ?_⟩
    rintro ⟨c, hc, p, hp, cap, t, hcap, ht, hbig⟩
    obtain ⟨cap', -, -, hcap', hpos, -⟩ := h c hc p hp
    rw [hcap] at hcap'
    cases hcap'
    have ht0 : ¬ t ≤ 0 := by
      intro h0
      have : 0 < (1 + 2 ^ (-42 : ℤ)) * cap := by positivity
      linarith
    have hle : t / cap ≤ V := hV.2 ⟨c, hc, p, hp, cap, t, hcap, ht, by rw [if_neg ht0]⟩
    have h2 : 1 + 2 ^ (-42 : ℤ) ≤ t / cap := by rwa [le_div_iff₀ hpos]
    have h3 := (abs_le.1 he).1
    norm_num at h2 h3
    linarith
  · exact absurd h1 hs

/-! ## Cases meeting the hypotheses -/

/-- The rod of the samples at 0.1 with its tension multiplied by `k`. -/
def scaledObj (k : ℚ) : AS4100 ℚ :=
  ⟨some ⟨[⟨[(1, ⟨some ⟨false, [Samples.axial 0 (12345 * k), Samples.axial 1 (12345 * k)]⟩⟩)],
    some (Num.flt (fastRnd (7/10))), .circle (fastRnd (1/100)) (some doubleSteel)⟩]⟩,
    none, 20, [⟨fastRnd (1/100), doubleSteel⟩], fastRnd (9/10), fastRnd (85/100), 1⟩

theorem scaledObj_cap (k : ℚ) (hk : k = 2 ^ 60 ∨ k = 1 / 2 ^ 20 ∨ k = 1 / 2 ^ 60) :
    (scaledObj k).phiNt Rt.binary64 (.scalar (Num.flt (fastRnd (7/10)))) = .ok (2428746786813963 / 34359738368) := by
  rw [binary64_eq]
  rcases hk with rfl | rfl | rfl <;> decide +kernel

theorem scaledObj_tension (k : ℚ) (hk : k = 2 ^ 60 ∨ k = 1 / 2 ^ 20 ∨ k = 1 / 2 ^ 60) :
    (scaledObj k).getTension Rt.binary64 1 (.scalar (Num.flt (fastRnd (7/10)))) none =
      .ok ⟨.flt, 1, [(fastRnd (7/10), 12345 * k)].map fun r => (r.1, [some r.2])⟩ := by
  rw [binary64_eq]
  rcases hk with rfl | rfl | rfl <;> decide +kernel

theorem scaledObj_meets (k : ℚ) (hk : k = 2 ^ 60 ∨ k = 1 / 2 ^ 20 ∨ k = 1 / 2 ^ 60) :
    (∀ c ∈ [(1 : ℤ)], ∀ p ∈ [Num.flt (fastRnd (7/10))], Defined Rt.binary64 (scaledObj k) c p) ∧
      ∀ c ∈ [(1 : ℤ)], ∀ p ∈ [Num.flt (fastRnd (7/10))], Doubles (scaledObj k) c p := by
  constructor
  · intro c hc p hp
    obtain rfl := List.mem_singleton.1 hc
    obtain rfl := List.mem_singleton.1 hp
    exact ⟨_, _, _, scaledObj_cap k hk, by norm_num, by simp, scaledObj_tension k hk⟩
  · intro c hc p hp cap t hcap ht
    obtain rfl := List.mem_singleton.1 hc
    obtain rfl := List.mem_singleton.1 hp
    rw [scaledObj_cap k hk] at hcap
    cases hcap
    obtain ⟨r, hr, rfl⟩ := (reported_iff (scaledObj_tension k hk) t).1 ht
    obtain rfl := List.mem_singleton.1 hr
    have h1 : (2 : ℚ) ^ (-900 : ℤ) ≤ 2 ^ (0 : ℤ) := zpow_le_zpow_right₀ (by norm_num) (by norm_num)
    have h2 : (2 : ℚ) ^ (60 : ℤ) ≤ 2 ^ (1000 : ℤ) := zpow_le_zpow_right₀ (by norm_num) (by norm_num)
    have h3 : (2 : ℚ) ^ (60 : ℤ) * (2428746786813963 / 34359738368) ≤ 2 ^ (1000 : ℤ) * (2428746786813963 / 34359738368) :=
      mul_le_mul_of_nonneg_right h2 (by norm_num)
    refine ⟨⟨2428746786813963, -35, by norm_num, by norm_num, by norm_num⟩, h1.trans (by norm_num), Or.inr ⟨?_, ?_⟩⟩
    · rcases hk with rfl | rfl | rfl
      · exact ⟨12345, 60, by norm_num, by norm_num, by norm_num⟩
      · exact ⟨12345, -20, by norm_num, by norm_num, by norm_num⟩
      · exact ⟨12345, -60, by norm_num, by norm_num, by norm_num⟩
    · refine le_trans ?_ h3
      rcases hk with rfl | rfl | rfl <;> norm_num

/-- A tension of 2 · 10¹⁷ times the capacity, one of 1.7 · 10⁻⁷ times the capacity, where the answer is right too, and one of
1.5 · 10⁻¹⁹ times the capacity. -/
example : (scaledObj (2 ^ 60)).tensionUtilisation Rt.binary64 (.one 1) (.list [Num.flt (fastRnd (7/10))]) =
      .ok 201353157016757280 ∧
    (scaledObj (1 / 2 ^ 20)).tensionUtilisation Rt.binary64 (.one 1) (.list [Num.flt (fastRnd (7/10))]) =
      .ok (6292286156773665 / 2 ^ 75) ∧
    (scaledObj (1 / 2 ^ 60)).tensionUtilisation Rt.binary64 (.one 1) (.list [Num.flt (fastRnd (7/10))]) =
      .error .valueError := by
  rw [binary64_eq]
  refine ⟨?_, ?_, ?_⟩ <;> decide +kernel

example : ∃ v, (scaledObj (2 ^ 60)).tensionUtilisation Rt.binary64 (.one 1) (.list [Num.flt (fastRnd (7/10))]) = .ok v ∧
    1 < v := by
  obtain ⟨hd, hD⟩ := scaledObj_meets (2 ^ 60) (Or.inl rfl)
  obtain ⟨v, hv, h1⟩ := C139_found (scaledObj (2 ^ 60)) (.one 1) [1] (Or.inr (Or.inl ⟨1, rfl, rfl⟩)) _
    [Num.flt (fastRnd (7/10))] (Or.inl rfl) (by simp) (by simp) hd hD (by
      rintro ⟨c, hc, p, hp, cap, t, hcap, ht, h0, hlt⟩
      obtain rfl := List.mem_singleton.1 hc
      obtain rfl := List.mem_singleton.1 hp
      rw [scaledObj_cap _ (Or.inl rfl)] at hcap
      cases hcap
      obtain ⟨r, hr, rfl⟩ := (reported_iff (scaledObj_tension _ (Or.inl rfl)) t).1 ht
      obtain rfl := List.mem_singleton.1 hr
      norm_num at hlt)
  refine ⟨v, hv, h1 ⟨1, by simp, _, List.mem_singleton_self _, _, _, scaledObj_cap _ (Or.inl rfl),
    (reported_iff (scaledObj_tension _ (Or.inl rfl)) _).2 ⟨_, List.mem_singleton_self _, rfl⟩, by norm_num⟩⟩

end BeamDesign
