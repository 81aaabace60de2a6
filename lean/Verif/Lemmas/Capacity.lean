import Verif.Props.AS4100
import Verif.Props.Grid
import Verif.Props.Peak
import Verif.Spec.Capacity

/-!
# Capacities in floating point arithmetic
-/

set_option linter.unusedSectionVars false

namespace BeamDesign

open Spec

section
variable {K : Type} [Field K] [LinearOrder K] [IsStrictOrderedRing K]
variable {rt : Rt K} {rnd : K → K} {F : K → Prop} {u η σ : K}

/-- A product with a factor that is known exactly. -/
theorem mul_rel {a A y p ε L : K} (hu0 : 0 ≤ u) (hη : η * 100 ≤ u * L) (hA : 0 < A) (hy : 0 < y) (hL : L ≤ A * y)
    (hε : ε ≤ 1 / 100) (h : |a - A| ≤ ε * A) (hp : |p - a * y| ≤ u * |a * y| + η) :
    |p - A * y| ≤ (ε + 102 / 100 * u) * (A * y) := by
  have h1 := mul_near (y := y) hu0 h hp
  rw [abs_of_pos hA, abs_of_pos hy] at h1
  have h2 : u * L ≤ u * (A * y) := mul_le_mul_of_nonneg_left hL hu0
  have h3 : u * ε * (A * y) ≤ u * (1 / 100) * (A * y) :=
    mul_le_mul_of_nonneg_right (mul_le_mul_of_nonneg_left hε hu0) (by positivity)
  nlinarith

theorem min_rel {a A b B ε : K} (hε1 : ε ≤ 1) (h1 : |a - A| ≤ ε * A) (h2 : |b - B| ≤ ε * B) :
    |min a b - min A B| ≤ ε * min A B := by
  rw [abs_le] at *
  have key : ∀ X, min A B ≤ X → (1 - ε) * min A B ≤ (1 - ε) * X := fun X h =>
    mul_le_mul_of_nonneg_left h (by linarith)
  constructor
  · have : (1 - ε) * min A B ≤ min a b :=
      le_min ((key A (min_le_left _ _)).trans (by linarith)) ((key B (min_le_right _ _)).trans (by linarith))
    linarith
  · rcases le_total A B with h | h
    · rw [min_eq_left h]; linarith [min_le_left a b]
    · rw [min_eq_right h]; linarith [min_le_right a b]

/-- The least of values close to exact ones. -/
theorem least_rel {D : Type} {P : D → Prop} {f g : D → K → Prop} {m M ε : K} (hε1 : ε ≤ 1)
    (hm : IsLeast {n | ∃ d, P d ∧ f d n} m) (hM : IsLeast {n | ∃ d, P d ∧ g d n} M)
    (hfg : ∀ d, P d → ∀ n N, f d n → g d N → |n - N| ≤ ε * N) (hf : ∀ d, P d → ∃ n, f d n) (hg : ∀ d, P d → ∃ n, g d n) :
    |m - M| ≤ ε * M := by
  obtain ⟨d, hd, hfd⟩ := hm.1
  obtain ⟨d', hd', hgd⟩ := hM.1
  obtain ⟨N, hN⟩ := hg d hd
  obtain ⟨n, hn⟩ := hf d' hd'
  have h1 := abs_le.1 (hfg d hd m N hfd hN)
  have h2 := abs_le.1 (hfg d' hd' n M hn hgd)
  have h3 : m ≤ n := hm.2 ⟨d', hd', hn⟩
  have h4 : M ≤ N := hM.2 ⟨d, hd, hN⟩
  rw [abs_le]
  constructor
  · have := mul_le_mul_of_nonneg_left h4 (show 0 ≤ 1 - ε by linarith)
    linarith [h1.1]
  · linarith [h2.2]

theorem piD_gt : (3 : K) < piD := by unfold piD; norm_num
theorem piD_lt : (piD : K) < 4 := by unfold piD; norm_num

/-- The S7.1 capacity of one section, rounded. -/
theorem sectionCapacity_rel (hr : Rounds rt F u η) (hu0 : 0 ≤ u) (hu : u ≤ 1 / 1000) (hσ0 : 0 < σ)
    (hσ1 : σ ≤ 1) (hη : η * 100 ≤ u * σ ^ 6) (hpi : F piD) {kt au : K} (hkt : F kt ∧ σ ≤ kt) (hau : F au ∧ σ ≤ au)
    {d : DSect K} (hrad : F d.radius ∧ σ ≤ d.radius) {fy fu : K} (hs : Strengths d fy fu) (hfy : F fy ∧ σ ≤ fy)
    (hfu : F fu ∧ σ ≤ fu) {n N : K} (hn : SectionCapacity rt kt au d n) (hN : SectionCapacity (Rt.exact K) kt au d N) :
    F n ∧ |n - N| ≤ 51 / 10 * u * N ∧ σ ^ 5 ≤ N := by
  have hn' : n = min (rt.mul (rt.mul piD (rt.mul d.radius d.radius)) fy)
      (rt.mul (rt.mul (rt.mul (rt.mul piD (rt.mul d.radius d.radius)) fu) kt) au) :=
    sectionCapacity_unique hn ⟨fy, fu, hs, rfl⟩
  have hN' : N = min (piD * (d.radius * d.radius) * fy) (piD * (d.radius * d.radius) * fu * kt * au) :=
    sectionCapacity_unique hN ⟨fy, fu, hs, rfl⟩
  set r := d.radius with hrd
  have r0 : 0 < r := hσ0.trans_le hrad.2
  have fy0 : 0 < fy := hσ0.trans_le hfy.2
  have fu0 : 0 < fu := hσ0.trans_le hfu.2
  have kt0 : 0 < kt := hσ0.trans_le hkt.2
  have au0 : 0 < au := hσ0.trans_le hau.2
  have pi0 : (0 : K) < piD := by linarith [piD_gt (K := K)]
  have pi1 : (1 : K) ≤ piD := by linarith [piD_gt (K := K)]
  -- lower bounds
  have l1 : σ ^ 2 ≤ r * r := by rw [pow_two]; exact mul_le_mul hrad.2 hrad.2 hσ0.le r0.le
  have l2 : σ ^ 2 ≤ r * r * piD := by nlinarith [mul_pos r0 r0]
  have l3 : σ ^ 3 ≤ r * r * piD * fy := by
    rw [pow_succ]; exact mul_le_mul l2 hfy.2 hσ0.le (by positivity)
  have l4 : σ ^ 3 ≤ r * r * piD * fu := by
    rw [pow_succ]; exact mul_le_mul l2 hfu.2 hσ0.le (by positivity)
  have l5 : σ ^ 4 ≤ r * r * piD * fu * kt := by
    rw [pow_succ]; exact mul_le_mul l4 hkt.2 hσ0.le (by positivity)
  have l6 : σ ^ 5 ≤ r * r * piD * fu * kt * au := by
    rw [pow_succ]; exact mul_le_mul l5 hau.2 hσ0.le (by positivity)
  have small : ∀ k, k ≤ 6 → ∀ X, σ ^ k ≤ X → η * 100 ≤ u * X := fun k hk X h =>
    hη.trans (mul_le_mul_of_nonneg_left ((pow_le_pow_of_le_one hσ0.le hσ1 hk).trans h) hu0)
  -- the products
  obtain ⟨F1, e1⟩ := hr.mul _ _ hrad.1 hrad.1
  have d1 := mul_rel (L := r * r) (ε := 0) hu0 (small 2 (by norm_num) _ l1) r0 r0 le_rfl (by norm_num) (by simp) e1
  obtain ⟨F2, e2⟩ := hr.mul _ _ hpi F1
  have e2' : |rt.mul piD (rt.mul r r) - rt.mul r r * piD| ≤ u * |rt.mul r r * piD| + η := by
    rw [mul_comm (rt.mul r r)]; exact e2
  have d2 := mul_rel hu0 (small 2 (by norm_num) _ l2) (mul_pos r0 r0) pi0 le_rfl (by linarith) d1 e2'
  obtain ⟨F3, e3⟩ := hr.mul _ _ F2 hfy.1
  have d3 := mul_rel hu0 (small 3 (by norm_num) _ l3) (by positivity) fy0 le_rfl (by linarith) d2 e3
  obtain ⟨F4, e4⟩ := hr.mul _ _ F2 hfu.1
  have d4 := mul_rel hu0 (small 3 (by norm_num) _ l4) (by positivity) fu0 le_rfl (by linarith) d2 e4
  obtain ⟨F5, e5⟩ := hr.mul _ _ F4 hkt.1
  have d5 := mul_rel hu0 (small 4 (by norm_num) _ l5) (by positivity) kt0 le_rfl (by linarith) d4 e5
  obtain ⟨F6, e6⟩ := hr.mul _ _ F5 hau.1
  have d6 := mul_rel hu0 (small 5 (by norm_num) _ l6) (by positivity) au0 le_rfl (by linarith) d5 e6
  have hN2 : N = min (r * r * piD * fy) (r * r * piD * fu * kt * au) := by
    rw [hN', mul_comm piD]
  refine ⟨?_, ?_, ?_⟩
  · rw [hn']
    rcases min_choice (rt.mul (rt.mul piD (rt.mul r r)) fy) (rt.mul (rt.mul (rt.mul (rt.mul piD (rt.mul r r)) fu) kt) au)
      with h | h <;> rw [h]
    · exact F3
    · exact F6
  · rw [hn', hN2]
    refine min_rel (by linarith) (d3.trans ?_) (d6.trans ?_)
    · exact mul_le_mul_of_nonneg_right (by linarith) (by positivity)
    · exact mul_le_mul_of_nonneg_right (by linarith) (by positivity)
  · rw [hN2]
    exact le_min ((pow_le_pow_of_le_one hσ0.le hσ1 (by norm_num)).trans l3) l6

theorem aligned_get {o : AS4100 K} {b : Beam K (Sect K)} (hb : o.beam = some b) (ha : Aligned o) {i : ℕ}
    {e : Element K (Sect K)} (he : b.elements[i]? = some e) :
    ∃ d, o.dsects[i]? = some d ∧ e.sect = .circle d.radius (some d.material) := by
  unfold Aligned at ha
  simp only [hb] at ha
  have hi : i < (b.elements.map fun e => e.sect).length := by
    rw [List.length_map]; exact (List.getElem?_eq_some_iff.1 he).1
  have := ha.get hi (by rw [← ha.length_eq]; exact hi)
  simp only [List.get_eq_getElem, List.getElem_map] at this
  refine ⟨_, List.getElem?_eq_getElem (by rw [← ha.length_eq]; exact hi), ?_⟩
  rw [← this.1]
  rw [(List.getElem?_eq_some_iff.1 he).2]

theorem dsect_eq {d d' : DSect K} (h : Sect.circle d.radius (some d.material) = Sect.circle d'.radius (some d'.material)) :
    d = d' := by
  obtain ⟨r, m⟩ := d
  obtain ⟨r', m'⟩ := d'
  simp only [Sect.circle.injEq, Option.some.injEq] at h
  rw [h.1, h.2]

/-- The design sections considered at positions on a beam whose element ends are machine numbers. -/
theorem fconsidered (hr : RoundsTo rt rnd) {o : AS4100 K} {b : Beam K (Sect K)} (hb : o.beam = some b)
    (ha : Aligned o) {ls : List (Num K)} (h : HasLengths b ls) (hm : Marks rnd ls) {position : PosArg K} {xs : List K}
    (hreq : Requested position xs) (hin : ∀ x ∈ xs, 0 ≤ x ∧ x ≤ total ls) :
    ∃ ds, o.considered rt position = .ok ds ∧ ∀ d, d ∈ ds ↔ ∃ p ∈ xs, AtPosition b ls p d := by
  obtain ⟨hreq', hcons⟩ := requested_wrap hreq
  obtain ⟨out, hout, pairs, hp, hf⟩ := C17_marks_partial hr b ls h hm position.wrap xs hreq' none hin
  have hall : ∀ l ∈ out, ∃ y, (do
      let d ← pyIndex o.dsects (l.elem : ℤ)
      return (l.pos, d) : Py (Num K × DSect K)) = .ok y ∧ AtPosition b ls l.pos.val y.2 ∧
        (∀ e, b.elements[l.elem]? = some e → e.sect = .circle y.2.radius (some y.2.material)) := by
    intro l hl
    obtain ⟨pi, hpi, h1, h2, -⟩ := forall₂_mem_right hf hl
    have hi := ((hp.2 pi.1 pi.2).1 hpi).2
    have hlt : pi.2 < b.elements.length := by rw [hasLengths_length h]; exact hi.1
    obtain ⟨d, hd, hs⟩ := aligned_get hb ha (List.getElem?_eq_getElem hlt)
    refine ⟨(l.pos, d), ?_, ⟨pi.2, _, by rw [h1]; exact hi, List.getElem?_eq_getElem hlt, hs⟩, ?_⟩
    · rw [h2, pyIndex_nat _ _ _ hd]; rfl
    · intro e he
      rw [h2, List.getElem?_eq_getElem hlt] at he
      cases he
      exact hs
  obtain ⟨ys, hys, hfy⟩ := mapM_all_ok (fun l : Loc K => (do
      let d ← pyIndex o.dsects (l.elem : ℤ)
      return (l.pos, d) : Py (Num K × DSect K))) out fun l hl => ⟨_, (hall l hl).choose_spec.1⟩
  refine ⟨ys.map (·.2), ?_, ?_⟩
  · rw [hcons]
    simp only [AS4100.getDSection, hb, hout, bind, Except.bind] at hys ⊢
    rw [hys]
    rfl
  · intro d
    rw [List.mem_map]
    constructor
    · rintro ⟨y, hy, rfl⟩
      obtain ⟨l, hl, hly⟩ := forall₂_mem_right hfy hy
      obtain ⟨y', h3, h4, -⟩ := hall l hl
      rw [hly] at h3
      cases h3
      obtain ⟨pi, hpi, h1, h2, -⟩ := forall₂_mem_right hf hl
      exact ⟨pi.1, ((hp.2 pi.1 pi.2).1 hpi).1, by rw [← h1]; exact h4⟩
    · rintro ⟨p, hpx, i, e, hi, he, hes⟩
      obtain ⟨l, hl, h1, h2, -⟩ := forall₂_mem_left hf ((hp.2 p i).2 ⟨hpx, hi⟩)
      obtain ⟨y, hy, hly⟩ := forall₂_mem_left hfy hl
      obtain ⟨y', h3, -, h5⟩ := hall l hl
      rw [hly] at h3
      cases h3
      refine ⟨y, hy, ?_⟩
      have := h5 e (by rw [h2]; exact he)
      rw [hes] at this
      exact (dsect_eq this).symm

end

end BeamDesign
