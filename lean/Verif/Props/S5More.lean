import Verif.Props.S5
import Verif.Lemmas.Positions

/-!
# C66 (member and section moment capacity) and C67 (the shear capacities agree with each other)
-/

namespace BeamDesign

open S5 S5Shear

/-! ## C66 -/

/-- C66, part: exactly when the member moment capacity with the slenderness factor of `s5_6_α_s` does not exceed the
section moment capacity.  Missing: the other members, for which the claim is false (`C66_counterexample`): the code
does not apply the limit `M_b ≤ M_s` of S5.6.1.1. -/
theorem C66_iff_partial {Ms Mo am : ℝ} (hs : 0 < Ms) (ho : 0 < Mo) (ha : 0 < am) :
    ∃ a, alphaS Ms Mo = .ok a ∧
      (Mb Ms am a ≤ Ms ↔ 108 / 100 * am ^ 2 ≤ 1 + 12 / 10 * am * (Ms / Mo)) := by
  obtain ⟨a, hok, -⟩ := C44_bounds hs ho
  obtain ⟨hpos, heq⟩ := (C44_equation hs.le ho a).1 hok
  refine ⟨a, hok, ?_⟩
  have hx : 0 < Ms / Mo := by positivity
  set x := Ms / Mo
  have h1 : Mb Ms am a ≤ Ms ↔ am * a ≤ 1 := by
    rw [Mb]
    constructor
    · intro h
      by_contra hc
      have : 1 * Ms < am * a * Ms := mul_lt_mul_of_pos_right (not_le.1 hc) hs
      linarith
    · intro h
      have : am * a * Ms ≤ 1 * Ms := mul_le_mul_of_nonneg_right h hs.le
      linarith
  rw [h1]
  have hama : 0 < am * a := by positivity
  have hmx : 0 < am * x := by positivity
  have key : (am * a) ^ 2 + 12 / 10 * (am * x) * (am * a) = 108 / 100 * am ^ 2 := by
    rw [← heq]; ring
  rw [← key]
  constructor
  · intro h
    nlinarith
  · intro h
    by_contra hc
    have hc := not_le.1 hc
    nlinarith

/-- C66, part: a uniform moment (`α_m = 1`, the default) and `M_s ≥ M_o / 15`: not above the section capacity. -/
theorem C66_uniform_partial {Ms Mo : ℝ} (ho : 0 < Mo) (h : Mo ≤ 15 * Ms) :
    ∃ a, alphaS Ms Mo = .ok a ∧ Mb Ms 1 a ≤ Ms := by
  have hs : 0 < Ms := by linarith
  obtain ⟨a, hok, hiff⟩ := C66_iff_partial hs ho one_pos
  refine ⟨a, hok, hiff.2 ?_⟩
  have : 1 / 15 ≤ Ms / Mo := by
    rw [div_le_div_iff₀ (by norm_num) ho]; linarith
  linarith

/-- C66 is false: `M_s = M_o = 100 Nm` with `α_m = 2.5` gives a member capacity of 150 Nm; and even for a uniform
moment, with `M_o` thirty times `M_s`, the member capacity is above the section capacity. -/
theorem C66_counterexample :
    (∃ a, alphaS 100 100 = .ok a ∧ Mb 100 (5 / 2) a = 150) ∧
    (∃ a, alphaS 1 30 = .ok a ∧ 1 < Mb 1 1 a) := by
  constructor
  · refine ⟨6 / 10, (C44_equation (by norm_num) (by norm_num) _).2 ⟨by norm_num, by norm_num⟩, ?_⟩
    norm_num [Mb]
  · obtain ⟨a, hok, hiff⟩ := C66_iff_partial (Ms := 1) (Mo := 30) (am := 1) one_pos (by norm_num) one_pos
    refine ⟨a, hok, not_le.1 fun h => ?_⟩
    have := hiff.1 h
    norm_num at this

example : ∃ a, alphaS 100 200 = .ok a ∧ Mb 100 1 a ≤ 100 := C66_uniform_partial (by norm_num) (by norm_num)

/-! ## C67 -/

/-- C67: the interface capacity is the capacity of a weld as strong as the interface: one weld whose strength per metre is
the shear yield capacity of a metre of the interface (as a float or in a list).  Both raise `ZeroDivisionError` together. -/
theorem C67_interface (t fy Q I ratio : ℝ) {rt : Rt ℝ} (hx : rt.Exact) :
    VwInterface t fy Q I ratio = VwWeld rt (.list [VwGeneric t fy ratio]) Q I ∧
    VwInterface t fy Q I ratio = VwWeld rt (.scalar (.flt (VwGeneric t fy ratio))) Q I := by
  have h := C49_weld hx [VwGeneric t fy ratio] Q I
  have h2 : VwInterface t fy Q I ratio = VwWeld rt (.list [VwGeneric t fy ratio]) Q I := by
    by_cases hQ : Q = 0
    · rw [h.2.2.2 hQ, VwInterface, rdiv, if_pos hQ]
    · rw [h.2.2.1 hQ, VwInterface, rdiv, if_neg hQ]
      congr 1
      simp only [List.sum_cons, List.sum_nil, add_zero, VwGeneric]
      ring
  refine ⟨h2, ?_⟩
  rw [h2, h.1]
  simp

/-- C67: the capacity of a circular hollow section is that of a plate of `area` (0.6) times its effective area. -/
theorem C67_CHS (Ae fy ratio area : ℝ) :
    VwCHS Ae fy ratio area = VwGeneric (area * Ae) fy ratio := by
  simp only [VwCHS, VwGeneric]; ring

/-- C67: shear capacities add: the web split into parts, or the welds into groups. -/
theorem C67_additive {K : Type} [Field K] [LinearOrder K] [IsStrictOrderedRing K] {rt : Rt K}
    (hx : rt.Exact) (vs ws : List K) (Q I : K)
    (hQ : Q ≠ 0) (A B fy ratio : ℝ) :
    VwGeneric (A + B) fy ratio = VwGeneric A fy ratio + VwGeneric B fy ratio ∧
    ∃ v w, VwWeld rt (.list vs) Q I = .ok v ∧ VwWeld rt (.list ws) Q I = .ok w ∧
      VwWeld rt (.list (vs ++ ws)) Q I = .ok (v + w) := by
  refine ⟨by simp only [VwGeneric]; ring, _, _, (C49_weld hx vs Q I).2.2.1 hQ, (C49_weld hx ws Q I).2.2.1 hQ, ?_⟩
  rw [(C49_weld hx (vs ++ ws) Q I).2.2.1 hQ, List.sum_append]
  congr 1
  ring

/-- an interface 10 mm thick of grade 250: 1.5 MN/m; with `I / Q = 2 m` 3 MN -/
example : VwInterface (1 / 100) 250000000 1 2 (6 / 10) = .ok 3000000 := by
  rw [(C67_interface _ _ _ _ _ (Rt.exact_exact ℝ)).1, (C49_weld (Rt.exact_exact ℝ) _ 1 2).2.2.1 one_ne_zero]
  norm_num [VwGeneric]

end BeamDesign
