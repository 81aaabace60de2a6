import Verif.Lemmas.Together
import Verif.Spec.SamplesAS

/-!
# C157: sections and capacities at several positions are those at single positions put together

In every arithmetic: the run-time `rt` may round as it likes.
-/

set_option linter.unusedSectionVars false

namespace BeamDesign

open Spec

variable {K : Type} [Field K] [LinearOrder K] [IsStrictOrderedRing K]

/-- Positions, sections and design sections listed for several positions are those for the distinct positions, in ascending order, one
after the other; the listing for all answers iff each of them does. -/
theorem C157_lists (rt : Rt K) (xs : List K) : ∃ qs, Distinct xs qs ∧
    (∀ (S : Type) (b : Beam K S) (c : Option ℤ) (out : List (Loc K)), b.listPositions rt (.list (xs.map Num.flt)) none c = .ok out ↔
      ∃ outs, List.Forall₂ (fun q r => b.listPositions rt (.scalar (Num.flt q)) none c = .ok r) qs outs ∧ out = outs.flatten) ∧
    (∀ (S : Type) (b : Beam K S) (c : Option ℤ) (out : List (Num K × S)), b.getSection rt (.list (xs.map Num.flt)) none c = .ok out ↔
      ∃ outs, List.Forall₂ (fun q r => b.getSection rt (.scalar (Num.flt q)) none c = .ok r) qs outs ∧ out = outs.flatten) ∧
    (∀ (o : AS4100 K) (b : Beam K (Sect K)), o.beam = some b → ∀ (c : Option ℤ) (out : List (Num K × DSect K)),
      (o.getDSection rt (.list (xs.map Num.flt)) none c = .ok out ↔
        ∃ outs, List.Forall₂ (fun q r => o.getDSection rt (.scalar (Num.flt q)) none c = .ok r) qs outs ∧ out = outs.flatten)) := by
  obtain ⟨qs, hd, hq⟩ := sortedSet_floats xs
  exact ⟨qs, hd, fun S b c out => list_each hq hd, fun S b c out => query_each hq hd, fun o b hb c out => dsection_each hb hq hd⟩

/-- If each single call answers, the call for all positions does, with the smallest of their answers: for the capacity and for its two
parts, yielding and fracture. -/
theorem C157_smallest (rt : Rt K) (o : AS4100 K) (b : Beam K (Sect K)) (hb : o.beam = some b) (xs : List K) (hne : xs ≠ []) :
    ((∀ x ∈ xs, ∃ w, o.Nt rt (.scalar (Num.flt x)) = .ok w) → ∃ v, o.Nt rt (.list (xs.map Num.flt)) = .ok v ∧
      IsLeast {w | ∃ x ∈ xs, o.Nt rt (.scalar (Num.flt x)) = .ok w} v) ∧
    ((∀ x ∈ xs, ∃ w, o.Nty rt (.scalar (Num.flt x)) = .ok w) → ∃ v, o.Nty rt (.list (xs.map Num.flt)) = .ok v ∧
      IsLeast {w | ∃ x ∈ xs, o.Nty rt (.scalar (Num.flt x)) = .ok w} v) ∧
    ((∀ x ∈ xs, ∃ w, o.Ntu rt (.scalar (Num.flt x)) = .ok w) → ∃ v, o.Ntu rt (.list (xs.map Num.flt)) = .ok v ∧
      IsLeast {w | ∃ x ∈ xs, o.Ntu rt (.scalar (Num.flt x)) = .ok w} v) := by
  refine ⟨fun h => ?_, fun h => least_all hb hne h, fun h => least_all hb hne h⟩
  obtain ⟨y, hy, hly⟩ := least_all (rt := rt) (g := fun s => do return s7Nty rt (s.Ag rt) (← s.minFy)) hb hne fun x hx => by
    obtain ⟨w, hw⟩ := h x hx
    obtain ⟨y, u, hy, -, -⟩ := Nt_iff.1 hw
    exact ⟨y, hy⟩
  obtain ⟨u, hu, hlu⟩ := least_all (rt := rt) (g := fun s => do return s7Ntu rt (s.An rt) (← s.minFu) o.kt o.alphaU) hb hne
    fun x hx => by
      obtain ⟨w, hw⟩ := h x hx
      obtain ⟨y, u, -, hu, -⟩ := Nt_iff.1 hw
      exact ⟨u, hu⟩
  refine ⟨min y u, Nt_iff.2 ⟨y, u, hy, hu, rfl⟩, ?_, ?_⟩
  · rcases le_total y u with hle | hle
    · obtain ⟨x, hx, hyx⟩ := hly.1
      obtain ⟨w, hw⟩ := h x hx
      obtain ⟨y', u', hy', hu', rfl⟩ := Nt_iff.1 hw
      have e : y = y' := Except.ok.inj (hyx.symm.trans hy')
      have hu0 : u ≤ u' := hlu.2 ⟨x, hx, hu'⟩
      refine ⟨x, hx, hw.trans ?_⟩
      rw [← e, min_eq_left hle, min_eq_left (hle.trans hu0)]
    · obtain ⟨x, hx, hux⟩ := hlu.1
      obtain ⟨w, hw⟩ := h x hx
      obtain ⟨y', u', hy', hu', rfl⟩ := Nt_iff.1 hw
      have e : u = u' := Except.ok.inj (hux.symm.trans hu')
      have hy0 : y ≤ y' := hly.2 ⟨x, hx, hy'⟩
      refine ⟨x, hx, hw.trans ?_⟩
      rw [← e, min_eq_right hle, min_eq_right (hle.trans hy0)]
  · rintro w ⟨x, hx, hw⟩
    obtain ⟨y', u', hy', hu', rfl⟩ := Nt_iff.1 hw
    exact min_le_min (hly.2 ⟨x, hx, hy'⟩) (hlu.2 ⟨x, hx, hu'⟩)

/-- If the call for several positions answers, each single call answers with no less, unless it finds no section at its position (between
two elements, through rounding) and raises a `ValueError`. -/
theorem C157_single (rt : Rt K) (o : AS4100 K) (b : Beam K (Sect K)) (hb : o.beam = some b) (xs : List K) (v : K)
    (h : o.Nt rt (.list (xs.map Num.flt)) = .ok v) (x : K) (hx : x ∈ xs) :
    (∃ w, o.Nt rt (.scalar (Num.flt x)) = .ok w ∧ v ≤ w) ∨
      (o.getDSection rt (.scalar (Num.flt x)) none none = .ok [] ∧ o.Nt rt (.scalar (Num.flt x)) = .error .valueError) := by
  obtain ⟨y, u, hy, hu, rfl⟩ := Nt_iff.1 h
  rcases least_single hb hy hx with ⟨y', hy', hle⟩ | ⟨h₁, h₂⟩
  · rcases least_single hb hu hx with ⟨u', hu', hle'⟩ | ⟨h₁, h₂⟩
    · exact .inl ⟨min y' u', Nt_iff.2 ⟨y', u', hy', hu', rfl⟩, min_le_min hle hle'⟩
    · refine .inr ⟨h₁, ?_⟩
      have hy'' : o.Nty rt (.scalar (Num.flt x)) = .ok y' := hy'
      have hu'' : o.Ntu rt (.scalar (Num.flt x)) = .error .valueError := h₂
      unfold AS4100.Nt
      rw [hy'', hu'']
      rfl
  · refine .inr ⟨h₁, ?_⟩
    have hy'' : o.Nty rt (.scalar (Num.flt x)) = .error .valueError := h₂
    unfold AS4100.Nt
    rw [hy'']
    rfl

/-- The design capacity for several positions is the one at one of them, and no larger than at any of them where multiplying by the
capacity factor keeps the order. -/
theorem C157_design (rt : Rt K) (o : AS4100 K) (b : Beam K (Sect K)) (hb : o.beam = some b) (xs : List K) (hne : xs ≠ [])
    (h : ∀ x ∈ xs, ∃ w, o.tensionCapacity rt (.scalar (Num.flt x)) = .ok w) :
    ∃ x ∈ xs, ∃ v, o.tensionCapacity rt (.list (xs.map Num.flt)) = .ok v ∧ o.tensionCapacity rt (.scalar (Num.flt x)) = .ok v ∧
      ((∀ s t : K, s ≤ t → rt.mul o.phiSteel s ≤ rt.mul o.phiSteel t) →
        ∀ x' ∈ xs, ∀ w, o.tensionCapacity rt (.scalar (Num.flt x')) = .ok w → v ≤ w) := by
  have hiff : ∀ (position : PosArg K) (w : K), o.tensionCapacity rt position = .ok w ↔
      ∃ n, o.Nt rt position = .ok n ∧ w = rt.mul o.phiSteel n := by
    intro position w
    unfold AS4100.tensionCapacity AS4100.phiNt
    rw [bind_ok]
    simp only [pure, Except.pure, Except.ok.injEq, eq_comm]
  obtain ⟨n, hn, ⟨x, hx, hnx⟩, hl⟩ := (C157_smallest rt o b hb xs hne).1 fun x hx => by
    obtain ⟨w, hw⟩ := h x hx
    obtain ⟨n, hn, -⟩ := (hiff _ _).1 hw
    exact ⟨n, hn⟩
  refine ⟨x, hx, rt.mul o.phiSteel n, (hiff _ _).2 ⟨n, hn, rfl⟩, (hiff _ _).2 ⟨n, hnx, rfl⟩, fun hmono x' hx' w hw => ?_⟩
  obtain ⟨n', hn', rfl⟩ := (hiff _ _).1 hw
  exact hmono _ _ (hl ⟨x', hx', hn'⟩)

/-- Neither the order nor the repetition of the positions matters. -/
theorem C157_order (rt : Rt K) (xs ys : List K) (h : ∀ x, x ∈ xs ↔ x ∈ ys) :
    (∀ (S : Type) (b : Beam K S) (c : Option ℤ) (out : List (Num K × S)),
      b.getSection rt (.list (xs.map Num.flt)) none c = .ok out ↔ b.getSection rt (.list (ys.map Num.flt)) none c = .ok out) ∧
    (∀ (o : AS4100 K) (b : Beam K (Sect K)), o.beam = some b → ∀ v : K,
      (o.Nt rt (.list (xs.map Num.flt)) = .ok v ↔ o.Nt rt (.list (ys.map Num.flt)) = .ok v)) := by
  obtain ⟨qs, hd, hq⟩ := sortedSet_floats xs
  obtain ⟨qs', hd', hq'⟩ := sortedSet_floats ys
  have hqs : qs = qs' := eq_of_strict_sorted hd.1 hd'.1 fun v => by rw [hd.2, hd'.2, h]
  subst hqs
  refine ⟨fun S b c out => (query_each hq hd).trans (query_each hq' hd').symm, fun o b hb v => ?_⟩
  have hc : ∀ ds, o.considered rt (.list (xs.map Num.flt)) = .ok ds ↔ o.considered rt (.list (ys.map Num.flt)) = .ok ds :=
    fun ds => (considered_each hb hq hd).trans (considered_each hb hq' hd').symm
  simp only [Nt_iff, Nty_least, Ntu_least, leastOf_iff, hc]

/-- The capacity of the whole beam is at most the capacity at any positions. -/
theorem C157_whole (rt : Rt K) (o : AS4100 K) (position : PosArg K) (v v₀ : K) (h : o.Nt rt position = .ok v)
    (h₀ : o.Nt rt .none = .ok v₀) : v₀ ≤ v := by
  obtain ⟨y, u, hy, hu, rfl⟩ := Nt_iff.1 h
  obtain ⟨y₀, u₀, hy₀, hu₀, rfl⟩ := Nt_iff.1 h₀
  have key : ∀ (g : DSect K → Py K) (a a₀ : K), o.leastOf rt g position = .ok a → o.leastOf rt g .none = .ok a₀ → a₀ ≤ a := by
    intro g a a₀ ha ha₀
    obtain ⟨ds, ns, h₁, h₂, h₃⟩ := leastOf_iff.1 ha
    obtain ⟨ds₀, ns₀, h₁₀, h₂₀, h₃₀⟩ := leastOf_iff.1 ha₀
    cases h₁₀
    have hsub := considered_sub h₁
    obtain ⟨d, hd, hda⟩ := forall₂_of_right ((mapM_ok_iff _ _ _).1 h₂) a h₃.1
    obtain ⟨n, hn, hdn⟩ := forall₂_of_left ((mapM_ok_iff _ _ _).1 h₂₀) d (hsub d hd)
    rw [hda] at hdn
    cases hdn
    exact h₃₀.2 hn
  exact min_le_min (key _ _ _ hy hy₀) (key _ _ _ hu hu₀)

/-- The two rods of the sample, from 0 to 2 and from 2 to 5: at 4 the capacity is that of the thicker one, at 1 and 4 that of the
thinner one. -/
example : (∃ v w, Samples.obj.Nt Samples.rt (.list ([4, 1, 4].map Num.flt)) = .ok v ∧
      Samples.obj.Nt Samples.rt (.scalar (Num.flt 4)) = .ok w ∧ v < w ∧ Samples.obj.Nt Samples.rt (.scalar (Num.flt 1)) = .ok v ∧
      Samples.obj.Nt Samples.rt .none = .ok v) ∧
    (Samples.obj.getDSection Samples.rt (.list ([4, 1, 4].map Num.flt)) none none).map List.length = .ok 2 := by
  exact ⟨⟨Samples.thinCap * 10 / 9, 4 * (Samples.thinCap * 10 / 9), by decide +kernel, by decide +kernel, by decide +kernel,
    by decide +kernel, by decide +kernel⟩, by decide +kernel⟩

end BeamDesign
