import Verif.Lemmas.Util64
import Verif.Spec.Util64
import Verif.Props.UtilWide

/-!
# C140: the utilisation when numbers overflow
-/

namespace BeamDesign

open Spec

/-- C140: on doubles that overflow, with infinities and nan and the tolerances rounded, whatever the size of the tensions and of the
capacity: the utilisation is the largest `t / φNt` (0 for no tension) with a relative error below `2 ^ -43`, or there is a `ValueError`.
There is one only if a tension is less than a ten thousandth of the capacity, or if numbers above `2 ^ 900` occur; there always is one
if a tension is less than 4/10¹⁵ of the capacity. -/
theorem C140_utilisation (o : AS4100 ℚ) (loadCase : CaseArg) (cs : List ℤ)
    (hcs : CasesOf o loadCase cs) (position : PosArg ℚ) (ps : List (Num ℚ)) (hps : PositionsOf position ps)
    (hcne : cs ≠ []) (hpne : ps ≠ []) (h : ∀ c ∈ cs, ∀ p ∈ ps, Defined Rt.binary64 o c p)
    (ho : ∀ c ∈ cs, ∀ p ∈ ps, AnyDoubles o c p) :
    (¬ Slight o cs ps (4 / 10 ^ 15) ∧ ∃ v V, o.tensionUtilisation64 loadCase position = .ok v ∧
      IsGreatest {w | ∃ c ∈ cs, ∃ p ∈ ps, ∃ cap t, o.phiNt Rt.binary64 (.scalar p) = .ok cap ∧
        Reported Rt.binary64 o c p t ∧ w = if t ≤ 0 then 0 else t / cap} V ∧ |v - V| ≤ 2 ^ (-43 : ℤ) * V) ∨
    ((Slight o cs ps (1 / 10 ^ 4) ∨ Enormous o cs ps) ∧ o.tensionUtilisation64 loadCase position = .error .valueError) := by
  refine (utilWith_cases (one := F64.utilNum) (Q := fun cap t => 0 < t ∧
    (t < 1 / 10 ^ 4 * cap ∨ 2 ^ (1000 : ℤ) < cap ∨ 2 ^ (1000 : ℤ) < t ∨ 2 ^ (900 : ℤ) * cap < t))
    o loadCase cs hcs position ps hps hcne hpne h ?_).imp id ?_
  · intro c hc p hp cap t hcap ht
    obtain ⟨hF, hlo, hd⟩ := ho c hc p hp cap t hcap ht
    unfold utilOf
    by_cases h0 : t ≤ 0
    · rw [if_pos h0]
      refine Or.inl ⟨fun h => absurd h (not_lt.2 h0), 0, ?_, by simp⟩
      unfold F64.utilNum F64.utilOne
      rw [le_fin, decide_eq_true h0]
      rfl
    · rw [if_neg h0]
      rcases utilNum_cases (hd.resolve_left h0) hF hlo (not_le.1 h0) with h | h
      · exact Or.inl ⟨fun _ => h.1, h.2⟩
      · exact Or.inr ⟨h.1, not_le.1 h0, h.2⟩
  · rintro ⟨⟨c, hc, p, hp, cap, t, hcap, ht, h0, hs | hb⟩, he⟩
    · exact ⟨Or.inl ⟨c, hc, p, hp, cap, t, hcap, ht, h0, hs⟩, he⟩
    · exact ⟨Or.inr ⟨c, hc, p, hp, cap, t, hcap, ht, h0, hb⟩, he⟩

/-- C140: a load beyond the capacity is never reported as within it, whatever the sizes. -/
theorem C140_safe (o : AS4100 ℚ) (loadCase : CaseArg) (cs : List ℤ)
    (hcs : CasesOf o loadCase cs) (position : PosArg ℚ) (ps : List (Num ℚ)) (hps : PositionsOf position ps)
    (hcne : cs ≠ []) (hpne : ps ≠ []) (h : ∀ c ∈ cs, ∀ p ∈ ps, Defined Rt.binary64 o c p)
    (ho : ∀ c ∈ cs, ∀ p ∈ ps, AnyDoubles o c p)
    (hbig : ∃ c ∈ cs, ∃ p ∈ ps, ∃ cap t, o.phiNt Rt.binary64 (.scalar p) = .ok cap ∧ Reported Rt.binary64 o c p t ∧
      (1 + 2 ^ (-42 : ℤ)) * cap ≤ t) :
    (∃ v, o.tensionUtilisation64 loadCase position = .ok v ∧ 1 < v) ∨ o.tensionUtilisation64 loadCase position = .error .valueError := by
  rcases C140_utilisation o loadCase cs hcs position ps hps hcne hpne h ho with ⟨-, v, V, hv, hV, he⟩ | ⟨-, he⟩
  · refine Or.inl ⟨v, hv, ?_⟩
    obtain ⟨c, hc, p, hp, cap, t, hcap, ht, hbig⟩ := hbig
    obtain ⟨cap', -, -, hcap', hpos, -⟩ := h c hc p hp
    rw [hcap] at hcap'
    cases hcap'
    have ht0 : ¬ t ≤ 0 := by
      intro h0
      have : 0 < (1 + 2 ^ (-42 : ℤ)) * cap := by positivity
      linarith
    have hle : t / cap ≤ V := hV.2 ⟨c, hc, p, hp, cap, t, hcap, ht, by rw [if_neg ht0]⟩
    have h2 : 1 + 2 ^ (-42 : ℤ) ≤ t / cap := by rwa [le_div_iff₀ hpos]
    have h3 := (abs_le.1 he).1
    norm_num at h2 h3
    linarith
  · exact Or.inr he

/-! ## Cases meeting the hypotheses -/

theorem overObj_cap : (scaledObj (2 ^ 1010)).phiNt Rt.binary64 (.scalar (Num.flt (fastRnd (7/10)))) =
    .ok (2428746786813963 / 34359738368) := by
  rw [binary64_eq]
  decide +kernel

theorem overObj_tension : (scaledObj (2 ^ 1010)).getTension Rt.binary64 1 (.scalar (Num.flt (fastRnd (7/10)))) none =
    .ok ⟨.flt, 1, [(fastRnd (7/10), 12345 * 2 ^ 1010)].map fun r => (r.1, [some r.2])⟩ := by
  rw [binary64_eq]
  decide +kernel

/-- A tension close to the largest double meets the hypotheses, and is refused. -/
example : (∀ c ∈ [(1 : ℤ)], ∀ p ∈ [Num.flt (fastRnd (7/10))], Defined Rt.binary64 (scaledObj (2 ^ 1010)) c p) ∧
    (∀ c ∈ [(1 : ℤ)], ∀ p ∈ [Num.flt (fastRnd (7/10))], AnyDoubles (scaledObj (2 ^ 1010)) c p) ∧
    (scaledObj (2 ^ 1010)).tensionUtilisation64 (.one 1) (.list [Num.flt (fastRnd (7/10))]) = .error .valueError := by
  refine ⟨?_, ?_, ?_⟩
  · intro c hc p hp
    obtain rfl := List.mem_singleton.1 hc
    obtain rfl := List.mem_singleton.1 hp
    exact ⟨_, _, _, overObj_cap, by norm_num, by simp, overObj_tension⟩
  · intro c hc p hp cap t hcap ht
    obtain rfl := List.mem_singleton.1 hc
    obtain rfl := List.mem_singleton.1 hp
    rw [overObj_cap] at hcap
    cases hcap
    obtain ⟨r, hr, rfl⟩ := (reported_iff overObj_tension t).1 ht
    obtain rfl := List.mem_singleton.1 hr
    have h1 : (2 : ℚ) ^ (-900 : ℤ) ≤ 2 ^ (0 : ℤ) := zpow_le_zpow_right₀ (by norm_num) (by norm_num)
    refine ⟨⟨2428746786813963, -35, by norm_num, by norm_num, by norm_num⟩, h1.trans (by norm_num),
      Or.inr ⟨12345, 1010, by norm_num, by norm_num, ?_⟩⟩
    rw [← zpow_natCast]
    norm_num
  · decide +kernel

/-- The tensions of C139 give the same answers. -/
example : (scaledObj (2 ^ 60)).tensionUtilisation64 (.one 1) (.list [Num.flt (fastRnd (7/10))]) = .ok 201353157016757280 ∧
    (scaledObj (1 / 2 ^ 20)).tensionUtilisation64 (.one 1) (.list [Num.flt (fastRnd (7/10))]) = .ok (6292286156773665 / 2 ^ 75) ∧
    (scaledObj (1 / 2 ^ 60)).tensionUtilisation64 (.one 1) (.list [Num.flt (fastRnd (7/10))]) = .error .valueError := by
  refine ⟨?_, ?_, ?_⟩ <;> decide +kernel

end BeamDesign
