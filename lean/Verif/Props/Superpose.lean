import Verif.Props.Worse
import Verif.Props.Combination

/-!
# C123: the utilisation of a load combination is bounded by the combination of the utilisations
-/

set_option linter.unusedSectionVars false

namespace BeamDesign

open Spec

variable {K : Type} [Field K] [LinearOrder K] [IsStrictOrderedRing K] [FloorRing K]

variable {rt : Rt K} {o : AS4100 K} {b : Beam K (Sect K)} {c₁ c₂ c₃ : ℤ} {a k : K}

theorem comb_loaded (hcomb : IsCombination b c₁ c₂ c₃ a k) :
    LoadedFloat b c₁ ∧ LoadedFloat b c₂ ∧ LoadedFloat b c₃ := by
  refine ⟨?_, ?_, ?_⟩ <;> intro i hi <;> obtain ⟨rs, -, h1, h2, h3⟩ := hcomb i hi
  · exact ⟨_, h1, rfl⟩
  · exact ⟨_, h2, rfl⟩
  · exact ⟨_, h3, rfl⟩

theorem comb_loadPositions (hcomb : IsCombination b c₁ c₂ c₃ a k) : ∀ e ∈ b.elements,
    e.loadPositions c₁ = e.loadPositions c₂ ∧ e.loadPositions c₁ = e.loadPositions c₃ := by
  intro e he
  obtain ⟨i, hi, rfl⟩ := List.getElem_of_mem he
  obtain ⟨rs, hpos, ⟨e1, he1, hl1, -⟩, ⟨e2, he2, hl2, -⟩, ⟨e3, he3, hl3, -⟩⟩ := hcomb i hi
  rw [List.getElem?_eq_getElem hi, Option.some.injEq] at he1 he2 he3
  subst he1
  rw [← he2] at hl2
  rw [← he3] at hl3
  simp only [Element.loadPositions, Element.case, hl1, hl2, hl3, LoadCase.loadPositions, bind, Except.bind,
    List.map_map]
  constructor
  · congr 1
    apply List.map_congr_left
    intro r hr
    simp only [Function.comp, hpos r hr]
  · rfl

/-- Cells of rows with a single value. -/
theorem cells_single {out : List (Row K)} {rows : List (K × K)}
    (h : cells out = rows.map fun r => (r.1, [some r.2])) : out = rows.map fun r => (r.1, [r.2]) := by
  induction out generalizing rows with
  | nil => cases rows with
    | nil => rfl
    | cons => simp [cells] at h
  | cons r out ih => cases rows with
    | nil => simp [cells] at h
    | cons q rows =>
      simp only [cells, List.map_cons, List.cons.injEq, Prod.mk.injEq] at h
      obtain ⟨⟨h1, h2⟩, h3⟩ := h
      rw [List.map_cons, ← ih h3]
      congr 1
      obtain ⟨p, vs⟩ := r
      simp only at h1 h2 ⊢
      rw [h1]
      congr 1
      match vs, h2 with
      | [v], h2 => simpa using h2

theorem combine_single (a k : K) : ∀ (r₁ r₂ : List (K × K)),
    combineAnswers a k (r₁.map fun r => (r.1, [r.2])) (r₂.map fun r => (r.1, [r.2])) =
      (List.zipWith (fun r s => (r.1, a * r.2 + k * s.2)) r₁ r₂).map fun r => (r.1, [r.2])
  | [], _ => by simp [combineAnswers]
  | _ :: _, [] => by simp [combineAnswers]
  | r :: r₁, s :: r₂ => by
    have := combine_single a k r₁ r₂
    unfold combineAnswers at this ⊢
    simp only [List.map_cons, List.zipWith_cons_cons, List.zipWith_nil_right]
    rw [this]

theorem zipWith_mem {α β γ : Type} {f : α → β → γ} : ∀ {l : List α} {m : List β} {z : γ},
    z ∈ List.zipWith f l m → ∃ x ∈ l, ∃ y ∈ m, z = f x y
  | [], _, _, h => by simp at h
  | _ :: _, [], _, h => by simp at h
  | x :: l, y :: m, z, h => by
    rw [List.zipWith_cons_cons] at h
    rcases List.mem_cons.1 h with rfl | h
    · exact ⟨x, List.mem_cons_self, y, List.mem_cons_self, rfl⟩
    · obtain ⟨x', hx, y', hy, rfl⟩ := zipWith_mem h
      exact ⟨x', List.mem_cons_of_mem _ hx, y', List.mem_cons_of_mem _ hy, rfl⟩

/-- The utilisation as a quotient of a maximum. -/
theorem clampUtil {cap : K} (t : K) :
    (if (if t < 0 then 0 else t) ≤ 0 then 0 else (if t < 0 then 0 else t) / cap) = max t 0 / cap := by
  by_cases h : t ≤ 0
  · rw [max_eq_right h, zero_div, if_pos]
    split_ifs
    · exact le_rfl
    · exact h
  · have h := not_le.1 h
    rw [if_neg (not_lt.2 h.le), if_neg (not_le.2 h), max_eq_left h.le]

/-- At one position. -/
theorem utilAt_comb (hx : rt.Exact) (hs : rt.SortOK) (hb : o.beam = some b)
    (ha : Aligned o) {ls : List (Num K)} (h : HasLengths b ls) (hls : ls ≠ []) (hphi : 0 < o.phiSteel)
    (hcap : ∀ d ∈ o.dsects, ∃ n, SectionCapacity rt o.kt o.alphaU d n ∧ 0 < n)
    (hcomb : IsCombination b c₁ c₂ c₃ a k) (ha0 : 0 ≤ a) (hk0 : 0 ≤ k) {q : K}
    (hin : 0 ≤ q ∧ q ≤ total ls) {v : K} (hv : UtilAt rt o c₃ (Num.flt q) v) :
    ∃ v₁ v₂, UtilAt rt o c₁ (Num.flt q) v₁ ∧ UtilAt rt o c₂ (Num.flt q) v₂ ∧ v ≤ a * v₁ + k * v₂ := by
  obtain ⟨hl1, hl2, hl3⟩ := comb_loaded hcomb
  obtain ⟨⟨cap, -, -, hcp, hcpos, -⟩, -⟩ := defined_of_beam hx hs o b hb ha ls h hls c₁ hl1 hphi hcap (Num.flt q) rfl hin
  have hq : ∀ x ∈ [q], 0 ≤ x ∧ x ≤ total ls := by simpa using hin
  obtain ⟨dt₁, r₁, -, -, -, -, -, -, g₁, t₁⟩ := C31_beam hx hs o b hb ls h hls c₁ hl1
    (.scalar (Num.flt q)) [q] (Or.inl ⟨q, rfl, rfl⟩) (by simp) hq
  obtain ⟨dt₂, r₂, -, -, -, -, -, -, g₂, t₂⟩ := C31_beam hx hs o b hb ls h hls c₂ hl2
    (.scalar (Num.flt q)) [q] (Or.inl ⟨q, rfl, rfl⟩) (by simp) hq
  obtain ⟨dt₃, r₃, -, -, -, -, -, -, g₃, t₃⟩ := C31_beam hx hs o b hb ls h hls c₃ hl3
    (.scalar (Num.flt q)) [q] (Or.inl ⟨q, rfl, rfl⟩) (by simp) hq
  have hgl : ∀ c, o.getLoads rt c (.scalar (Num.flt q)) none (.name "N") =
      b.getLoads rt c (.scalar (Num.flt q)) none (.name "N") := by
    intro c
    simp [AS4100.getLoads, hb]
  rw [hgl] at g₁ g₂ g₃
  rcases C65_beam hx hs b c₁ c₂ c₃ a k hcomb (.scalar (Num.flt q)) none (.name "N") [.N] ⟨_, rfl, by simp⟩ (by simp) with
    ⟨out₁, out₂, -, e₁, e₂, e₃⟩ | ⟨r, hr, e₁, -⟩
  · rw [g₁] at e₁
    rw [g₂] at e₂
    rw [g₃] at e₃
    simp only [Except.ok.injEq, Option.some.injEq] at e₁ e₂ e₃
    have f₁ := cells_single (congrArg (·.rows) e₁).symm
    have f₂ := cells_single (congrArg (·.rows) e₂).symm
    have f₃ := cells_single (congrArg (·.rows) e₃).symm
    rw [f₁, f₂, combine_single] at f₃
    have hr₃ : r₃ = List.zipWith (fun r s => (r.1, a * r.2 + k * s.2)) r₁ r₂ := by
      refine (List.map_injective_iff.2 ?_ f₃).symm
      rintro ⟨x, y⟩ ⟨x', y'⟩ he
      simpa using he
    have conv : ∀ {c : ℤ} {dt : DType} {rows : List (K × K)}, o.getTension rt c (.scalar (Num.flt q)) none =
        .ok ⟨dt, 1, rows.map fun r => (r.1, [some (if r.2 < 0 then 0 else r.2)])⟩ →
        o.getTension rt c (.scalar (Num.flt q)) none =
        .ok ⟨dt, 1, (rows.map fun r => (r.1, if r.2 < 0 then 0 else r.2)).map fun r => (r.1, [some r.2])⟩ := by
      intro c dt rows h
      rw [h, List.map_map]
      rfl
    obtain ⟨cap', t, hcp', ht, rfl⟩ := hv
    rw [hcp] at hcp'
    cases hcp'
    obtain ⟨x, hxm, rfl⟩ := (reported_iff (conv t₃) t).1 ht
    obtain ⟨y, hy, rfl⟩ := List.mem_map.1 hxm
    rw [hr₃] at hy
    obtain ⟨s₁, hs₁, s₂, hs₂, rfl⟩ := zipWith_mem hy
    refine ⟨_, _, ⟨_, _, hcp, (reported_iff (conv t₁) _).2 ⟨_, List.mem_map_of_mem hs₁, rfl⟩, rfl⟩,
      ⟨_, _, hcp, (reported_iff (conv t₂) _).2 ⟨_, List.mem_map_of_mem hs₂, rfl⟩, rfl⟩, ?_⟩
    simp only [clampUtil]
    rw [← mul_div_assoc, ← mul_div_assoc, ← add_div]
    refine div_le_div_of_nonneg_right (max_le ?_ ?_) hcpos.le
    · exact add_le_add (mul_le_mul_of_nonneg_left (le_max_left _ _) ha0) (mul_le_mul_of_nonneg_left (le_max_left _ _) hk0)
    · exact add_nonneg (mul_nonneg ha0 (le_max_right _ _)) (mul_nonneg hk0 (le_max_right _ _))
  · rw [g₁] at e₁
    subst e₁
    rcases hr with hr | ⟨e, hr⟩ <;> cases hr

/-- C123, at given positions: if the loads of one load case are `a` times those of a second plus `k` times those of a
third, its utilisation is at most `a` times that of the second plus `k` times that of the third. -/
theorem C123_positions (hx : rt.Exact) (hs : rt.SortOK) (o : AS4100 K) (b : Beam K (Sect K))
    (hb : o.beam = some b) (ha : Aligned o) (ls : List (Num K)) (h : HasLengths b ls) (hls : ls ≠ [])
    (hphi : 0 < o.phiSteel) (hcap : ∀ d ∈ o.dsects, ∃ n, SectionCapacity rt o.kt o.alphaU d n ∧ 0 < n)
    (c₁ c₂ c₃ : ℤ) (a k : K) (hcomb : IsCombination b c₁ c₂ c₃ a k) (ha0 : 0 ≤ a) (hk0 : 0 ≤ k)
    (position : PosArg K) (ps : List K)
    (hps : PositionsOf position (ps.map Num.flt)) (hpne : ps ≠ []) (hin : ∀ p ∈ ps, 0 ≤ p ∧ p ≤ total ls)
    (u₁ u₂ u₃ : K) (hu₁ : o.tensionUtilisation rt (.one c₁) position = .ok u₁)
    (hu₂ : o.tensionUtilisation rt (.one c₂) position = .ok u₂)
    (hu₃ : o.tensionUtilisation rt (.one c₃) position = .ok u₃) : u₃ ≤ a * u₁ + k * u₂ := by
  obtain ⟨hl1, hl2, hl3⟩ := comb_loaded hcomb
  have key : ∀ c u, LoadedFloat b c → o.tensionUtilisation rt (.one c) position = .ok u →
      IsGreatest {v | ∃ c' ∈ [c], ∃ p ∈ ps.map Num.flt, UtilAt rt o c' p v} u := by
    intro c u hc hu
    have hcs : CasesOf o (.one c) [c] := Or.inr (Or.inl ⟨c, rfl, rfl⟩)
    have hd : ∀ c' ∈ [c], ∀ p ∈ ps.map Num.flt, Defined rt o c' p := by
      intro c' hcm p hp1
      rw [List.mem_singleton.1 hcm]
      obtain ⟨q, hq, rfl⟩ := List.mem_map.1 hp1
      exact (defined_of_beam hx hs o b hb ha ls h hls c hc hphi hcap _ rfl (hin q hq)).1
    have hnt : ∀ c' ∈ [c], ∀ p ∈ ps.map Num.flt, ¬ Tiny rt o c' p := by
      intro c' hcm p hp ht
      have := C32_too_small hx o (.one c) [c] hcs position _ hps hd ⟨c', hcm, p, hp, ht⟩
      rw [hu] at this
      cases this
    obtain ⟨v, hv, hg⟩ := C32_utilisation hx o (.one c) [c] hcs position _ hps (by simp) (by simpa using hpne) hd hnt
    rw [hu] at hv
    cases hv
    exact hg
  obtain ⟨c, hcm, p, hpm, hut⟩ := (key c₃ u₃ hl3 hu₃).1
  rw [List.mem_singleton.1 hcm] at hut
  obtain ⟨q, hq, rfl⟩ := List.mem_map.1 hpm
  obtain ⟨v₁, v₂, h1, h2, hle⟩ := utilAt_comb hx hs hb ha h hls hphi hcap hcomb ha0 hk0 (hin q hq) hut
  exact hle.trans (add_le_add
    (mul_le_mul_of_nonneg_left ((key c₁ u₁ hl1 hu₁).2 ⟨c₁, by simp, _, hpm, h1⟩) ha0)
    (mul_le_mul_of_nonneg_left ((key c₂ u₂ hl2 hu₂).2 ⟨c₂, by simp, _, hpm, h2⟩) hk0))

/-- C123, overall: the same without positions. -/
theorem C123_overall (hx : rt.Exact) (hs : rt.SortOK) (o : AS4100 K) (b : Beam K (Sect K))
    (hb : o.beam = some b) (ha : Aligned o) (ls : List (Num K)) (h : HasLengths b ls) (hls : ls ≠ [])
    (hflt : ∀ l ∈ ls, l.isInt = false) (n : ℕ) (hn : o.assessmentPoints = n)
    (hphi : 0 < o.phiSteel) (hcap : ∀ d ∈ o.dsects, ∃ n, SectionCapacity rt o.kt o.alphaU d n ∧ 0 < n)
    (c₁ c₂ c₃ : ℤ) (a k : K) (hcomb : IsCombination b c₁ c₂ c₃ a k) (ha0 : 0 ≤ a) (hk0 : 0 ≤ k)
    (u₁ u₂ u₃ : K) (hu₁ : o.tensionUtilisation rt (.one c₁) .none = .ok u₁)
    (hu₂ : o.tensionUtilisation rt (.one c₂) .none = .ok u₂)
    (hu₃ : o.tensionUtilisation rt (.one c₃) .none = .ok u₃) : u₃ ≤ a * u₁ + k * u₂ := by
  obtain ⟨hl1, hl2, hl3⟩ := comb_loaded hcomb
  have hL2 := listPositions_case (rt := rt) (b := b) (fun e he => (comb_loadPositions hcomb e he).1) .none (some (n : ℤ))
  have hL3 := listPositions_case (rt := rt) (b := b) (fun e he => (comb_loadPositions hcomb e he).2) .none (some (n : ℤ))
  obtain ⟨x₁, G₁, -, -, -, locs₁, L₁, m₁⟩ := overall_ok hx hs hb ha h hls hflt hn hphi hcap
    (cs := []) (Or.inr (Or.inl ⟨c₁, rfl, rfl⟩)) (by simpa using hl1) hu₁
  obtain ⟨x₂, G₂, -, -, -, locs₂, L₂, m₂⟩ := overall_ok hx hs hb ha h hls hflt hn hphi hcap
    (cs := []) (Or.inr (Or.inl ⟨c₂, rfl, rfl⟩)) (by simpa using hl2) hu₂
  obtain ⟨x₃, G₃, -, -, hin, locs₃, L₃, m₃⟩ := overall_ok hx hs hb ha h hls hflt hn hphi hcap
    (cs := []) (Or.inr (Or.inl ⟨c₃, rfl, rfl⟩)) (by simpa using hl3) hu₃
  rw [← hL2, L₁] at L₂
  rw [← hL3, L₁] at L₃
  cases L₂
  cases L₃
  obtain ⟨c, hcm, x, hxm, hut⟩ := G₃.1
  rw [List.mem_singleton.1 hcm] at hut
  obtain ⟨v₁, v₂, h1, h2, hle⟩ := utilAt_comb hx hs hb ha h hls hphi hcap hcomb ha0 hk0 (hin x hxm) hut
  exact hle.trans (add_le_add
    (mul_le_mul_of_nonneg_left (G₁.2 ⟨c₁, by simp, x, (m₁ x).2 ((m₃ x).1 hxm), h1⟩) ha0)
    (mul_le_mul_of_nonneg_left (G₂.2 ⟨c₂, by simp, x, (m₂ x).2 ((m₃ x).1 hxm), h2⟩) hk0))

/-! ## Examples -/

namespace Samples

/-- dead and wind load at the two ends of a rod: the wind lifts one end -/
def superPairs : List (LRow ℚ × LRow ℚ) :=
  [(⟨0, 0, 0, 1000, 0, 0, 0⟩, ⟨0, 0, 0, -500, 0, 0, 0⟩), (⟨1, 0, 0, 1000, 0, 0, 0⟩, ⟨1, 0, 0, 200, 0, 0, 0⟩)]

/-- a rod with the two load cases and 1.2 times the first plus 1.5 times the second -/
def superObj : AS4100 ℚ :=
  ⟨some ⟨[⟨[(1, ⟨some ⟨false, superPairs.map (·.1)⟩⟩), (2, ⟨some ⟨false, superPairs.map (·.2)⟩⟩),
    (3, ⟨some ⟨false, superPairs.map fun r => combine (6/5) (3/2) r.1 r.2⟩⟩)], some (Num.flt 1), rod (1/100)⟩]⟩,
    none, 20, [⟨1/100, steel⟩], 90/100, 85/100, 1⟩

end Samples

/-- the overall utilisations, and that of the combination at the end the wind lifts: there the bound is not reached -/
example : Samples.superObj.tensionUtilisation Samples.rt (.one 1) .none = .ok (1000 / Samples.thinCap) ∧
    Samples.superObj.tensionUtilisation Samples.rt (.one 2) .none = .ok (200 / Samples.thinCap) ∧
    Samples.superObj.tensionUtilisation Samples.rt (.one 3) .none = .ok (1500 / Samples.thinCap) ∧
    Samples.superObj.tensionUtilisation Samples.rt (.one 3) (.scalar (Num.flt 0)) = .ok (450 / Samples.thinCap) := by
  decide +kernel

theorem superObj_combination {b : Beam ℚ (Sect ℚ)} (hb : Samples.superObj.beam = some b) :
    IsCombination b 1 2 3 (6/5) (3/2) := by
  cases hb
  intro i hi
  obtain rfl : i = 0 := by simpa using hi
  have hw : WellFormed (Samples.superPairs.map (·.1)) := by unfold WellFormed; decide +kernel
  have hp : ∀ r ∈ Samples.superPairs, r.1.pos = r.2.pos := by decide +kernel
  obtain ⟨h2, h3⟩ := comb_wf (a := 6/5) (k := 3/2) hp hw
  exact ⟨Samples.superPairs, hp, ⟨_, rfl, rfl, hw, by simp [Samples.superPairs]⟩,
    ⟨_, rfl, rfl, h2, by simp [Samples.superPairs]⟩, ⟨_, rfl, rfl, h3, by simp [Samples.superPairs]⟩⟩

theorem superObj_capacity : ∀ d ∈ Samples.superObj.dsects,
    ∃ n, SectionCapacity Samples.rt Samples.superObj.kt Samples.superObj.alphaU d n ∧ 0 < n := by
  intro d hd
  have h : d = ⟨1/100, Samples.steel⟩ := by simpa [Samples.superObj] using hd
  subst h
  refine ⟨Samples.thinCap / (90/100), ⟨250000000, 410000000, strengths_iff.2 ⟨by decide +kernel, by decide +kernel⟩,
    by decide +kernel⟩, by decide +kernel⟩

example : (1500 / Samples.thinCap : ℚ) ≤ 6/5 * (1000 / Samples.thinCap) + 3/2 * (200 / Samples.thinCap) :=
  C123_overall (Rt.exact_exact ℚ) (Rt.exact_sortOK ℚ) Samples.superObj _ rfl (.cons ⟨rfl, rfl⟩ .nil) [Num.flt 1]
    ⟨.cons rfl .nil, by decide +kernel⟩ (by simp) (by decide +kernel) 20 rfl (by decide +kernel) superObj_capacity
    1 2 3 (6/5) (3/2) (superObj_combination rfl) (by norm_num) (by norm_num) _ _ _ (by decide +kernel) (by decide +kernel)
    (by decide +kernel)

example : (450 / Samples.thinCap : ℚ) ≤ 6/5 * (1000 / Samples.thinCap) + 3/2 * 0 :=
  C123_positions (Rt.exact_exact ℚ) (Rt.exact_sortOK ℚ) Samples.superObj _ rfl (.cons ⟨rfl, rfl⟩ .nil) [Num.flt 1]
    ⟨.cons rfl .nil, by decide +kernel⟩ (by simp) (by decide +kernel) superObj_capacity
    1 2 3 (6/5) (3/2) (superObj_combination rfl) (by norm_num) (by norm_num) (.scalar (Num.flt 0)) [0]
    (Or.inr ⟨0, rfl, rfl⟩) (by simp) (by simp [total]) _ _ _ (by decide +kernel) (by decide +kernel) (by decide +kernel)

end BeamDesign
