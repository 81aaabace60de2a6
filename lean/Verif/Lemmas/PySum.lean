import Verif.Spec.PySum
import Verif.Model.AS4100
import Verif.Lemmas.Congr

/-! # What depends on the version of Python -/

set_option linter.unusedSectionVars false

namespace BeamDesign

open Spec

section
variable {K S : Type} [Field K] [LinearOrder K] [IsStrictOrderedRing K] {rt : Rt K} {rnd : K → K}

theorem take_prefix_sum (a : List (Num K)) (l : Num K) (b : List (Num K)) (j : ℕ) :
    startOf a j = startOf (a ++ l :: b) (min j a.length) := by
  simp only [startOf, List.take_append, List.map_append, List.sum_append]
  have e1 : min j a.length - a.length = 0 := by omega
  rw [e1, List.take_zero, List.map_nil, List.sum_nil, add_zero,
    show List.take j a = List.take (min j a.length) a from List.take_eq_take_iff.2 (by omega)]

theorem foldl_exactSums (hr : RoundsTo rt rnd) (t : List (Num K)) : ∀ a : Num K,
    (∀ j, rnd (a.val + startOf t j) = a.val + startOf t j) → (t.foldl (Num.padd rt) a).val = a.val + total t := by
  induction t with
  | nil => intro a _; simp [total]
  | cons l t ih =>
    intro a hj
    have hv : (a.padd rt l).val = a.val + l.val := by
      unfold Num.padd
      split_ifs
      · rfl
      · simp only [hr.add]
        simpa [startOf] using hj 1
    rw [List.foldl_cons, ih _ (fun j => by
      have := hj (j + 1)
      rw [hv]
      simpa [startOf, add_assoc] using this), hv]
    simp [total, add_assoc]

/-- Nothing to correct: every version of `sum` gives the same. -/
theorem pySum_exactSums (hr : RoundsTo rt rnd) {ls : List (Num K)} (he : ExactSums rnd ls) :
    pySum rt ls = ls.foldl (Num.padd rt) (Num.int 0) := by
  refine pySum_of (by rw [hr.add, add_zero, hr.zero]) ls fun a l b hab => ?_
  have hl := he.1 l (by rw [hab]; simp)
  have ha : (a.foldl (Num.padd rt) (Num.int 0)).val = startOf ls a.length := by
    rw [foldl_exactSums hr a (Num.int 0) (fun j => ?_)]
    · simp [Num.int, startOf, total, hab]
    · rw [take_prefix_sum a l b j, ← hab]; simpa [Num.int] using he.2 (min j a.length)
  have hs : startOf ls a.length + l.val = startOf ls (a.length + 1) := by
    rw [startOf_succ ls a.length l (by rw [hab]; simp)]
  have hs0 := he.2 a.length
  simp only [ha, hr.add, hr.sub, hs, he.2 (a.length + 1)]
  rw [show startOf ls a.length - startOf ls (a.length + 1) = -l.val by rw [← hs]; ring,
    show l.val - startOf ls (a.length + 1) = -startOf ls a.length by rw [← hs]; ring, hr.neg, hr.neg, hl, hs0,
    neg_add_cancel, neg_add_cancel, hr.zero]
  exact ⟨rfl, rfl⟩

theorem withSum_roundsTo (hr : RoundsTo rt rnd) (v : PySum) : RoundsTo (rt.withSum v) rnd :=
  ⟨hr.add, hr.sub, hr.mul, hr.div, hr.mono, hr.idem, hr.zero, hr.one, hr.neg⟩

theorem length_exactSums (hr : RoundsTo rt rnd) {b : Beam K S} {ls : List (Num K)} (h : HasLengths b ls)
    (he : ExactSums rnd ls) (v : PySum) : b.length (rt.withSum v) = b.length rt := by
  unfold Beam.length
  rw [lengths_ok h]
  simp only [bind, Except.bind, pure, Except.pure, pySum_exactSums hr he, pySum_exactSums (withSum_roundsTo hr v) he]
  rfl

/-! ## Only the length of a beam depends on the version -/

section
set_option smartUnfolding false
variable (rt : Rt K) (v : PySum)

theorem elementEnds_withSum (b : Beam K S) : b.elementEnds (rt.withSum v) = b.elementEnds rt := by with_unfolding_all rfl
theorem inElements_withSum (b : Beam K S) (p) : b.inElements (rt.withSum v) p = b.inElements rt p := by with_unfolding_all rfl
theorem locate_withSum (b : Beam K S) (c p i) : b.locate (rt.withSum v) c p i = b.locate rt c p i := by with_unfolding_all rfl
theorem realPositions_withSum (b : Beam K S) (c i e) : b.realPositions (rt.withSum v) c i e = b.realPositions rt c i e := by
  with_unfolding_all rfl
theorem linspace_withSum (a b : K) (n) : linspace (rt.withSum v) a b n = linspace rt a b n := by with_unfolding_all rfl
theorem s7Nty_withSum (s : DSect K) (a : K) : s7Nty (rt.withSum v) (s.Ag (rt.withSum v)) a = s7Nty rt (s.Ag rt) a := by
  with_unfolding_all rfl
theorem s7Ntu_withSum (s : DSect K) (a k u : K) :
    s7Ntu (rt.withSum v) (s.An (rt.withSum v)) a k u = s7Ntu rt (s.An rt) a k u := by with_unfolding_all rfl
theorem isclose_withSum (t : K) (x y) : isclose (rt.withSum v) t x y = isclose rt t x y := by with_unfolding_all rfl
theorem bisection_withSum {A : Type} (f : SolveFun K A) (as) (x y : Val K) (t m fb n) :
    bisection (rt.withSum v) f as x y t m fb n = bisection rt f as x y t m fb n := by with_unfolding_all rfl
theorem secantLoop_withSum {A : Type} (f : SolveFun K A) (as) (t : K) (m om n i x y z) :
    secantLoop (rt.withSum v) f as t m om n i x y z = secantLoop rt f as t m om n i x y z := by with_unfolding_all rfl
theorem utilFunc_withSum : utilFunc (rt.withSum v) = utilFunc rt := by with_unfolding_all rfl
variable [FloorRing K]
theorem loadStep_withSum (b : Beam K S) (c k acc l) : b.loadStep (rt.withSum v) c k acc l = b.loadStep rt c k acc l := by
  with_unfolding_all rfl
end

theorem secant_withSum {A : Type} (rt : Rt K) (v : PySum) (f : SolveFun K A) (as) (x y : Val K) (t m fb n) :
    secant (rt.withSum v) f as x y t m fb n = secant rt f as x y t m fb n := by
  unfold secant secantFallback
  simp only [isclose_withSum, bisection_withSum, secantLoop_withSum]

theorem utilOne_withSum (v : PySum) (cap t : K) : utilOne (rt.withSum v) cap t = utilOne rt cap t := by
  unfold utilOne
  rw [secant_withSum, utilFunc_withSum]
  rfl

section
variable {v : PySum} {b : Beam K S}

theorem checkPositions_withSum (h : b.length (rt.withSum v) = b.length rt) (ps : List (Num K)) :
    b.checkPositions (rt.withSum v) ps = b.checkPositions rt ps := by
  induction ps with
  | nil => rfl
  | cons p ps ih => unfold Beam.checkPositions; rw [h, ih]

theorem positionList_withSum (h : b.length (rt.withSum v) = b.length rt) (position : PosArg K) (n c : Option ℤ) :
    b.positionList (rt.withSum v) position n c = b.positionList rt position n c := by
  unfold Beam.positionList
  simp only [h, checkPositions_withSum h, elementEnds_withSum, realPositions_withSum, linspace_withSum]

theorem listPositions_of (position : PosArg K) (n c : Option ℤ)
    (h : b.positionList (rt.withSum v) position n c = b.positionList rt position n c) :
    b.listPositions (rt.withSum v) position n c = b.listPositions rt position n c := by
  unfold Beam.listPositions
  simp only [h, inElements_withSum, locate_withSum]

theorem listPositions_withSum (h : b.length (rt.withSum v) = b.length rt) (position : PosArg K) (n c : Option ℤ) :
    b.listPositions (rt.withSum v) position n c = b.listPositions rt position n c :=
  listPositions_of _ _ _ (positionList_withSum h _ _ _)

theorem getSection_of (position : PosArg K) (n c : Option ℤ)
    (h : b.listPositions (rt.withSum v) position n c = b.listPositions rt position n c) :
    b.getSection (rt.withSum v) position n c = b.getSection rt position n c := by
  unfold Beam.getSection
  rw [h]

variable [FloorRing K]

theorem getLoads_of (c : ℤ) (position : PosArg K) (n : Option ℤ) (k : CompArg)
    (h : b.listPositions (rt.withSum v) position n (some c) = b.listPositions rt position n (some c)) :
    b.getLoads (rt.withSum v) c position n k = b.getLoads rt c position n k := by
  unfold Beam.getLoads
  rw [h, show b.loadStep (rt.withSum v) c k = b.loadStep rt c k from funext₂ fun _ _ => loadStep_withSum ..]

end

section
variable {v : PySum} {o : AS4100 K} {b : Beam K (Sect K)} (hb : o.beam = some b) (h : b.length (rt.withSum v) = b.length rt)
include hb h

theorem considered_withSum (position : PosArg K) : o.considered (rt.withSum v) position = o.considered rt position := by
  have : ∀ p n c, o.getDSection (rt.withSum v) p n c = o.getDSection rt p n c := by
    intro p n c
    unfold AS4100.getDSection
    rw [hb]
    simp only [listPositions_withSum h]
  unfold AS4100.considered
  cases position <;> simp only [this]

theorem phiNt_withSum (position : PosArg K) : o.phiNt (rt.withSum v) position = o.phiNt rt position := by
  unfold AS4100.phiNt AS4100.Nt AS4100.Nty AS4100.Ntu
  simp only [considered_withSum hb h, s7Nty_withSum, s7Ntu_withSum]
  rfl

variable [FloorRing K]

theorem getTension_withSum (c : ℤ) (position : PosArg K) (n : Option ℤ) :
    o.getTension (rt.withSum v) c position n = o.getTension rt c position n := by
  unfold AS4100.getTension
  rw [hb]
  simp only [getLoads_of _ _ _ _ (listPositions_withSum h _ _ _)]

theorem utilLoop_withSum (cs : List ℤ) (pos : Option (List (Num K))) :
    o.utilLoop (rt.withSum v) pos cs = o.utilLoop rt pos cs := by
  have h1 : ∀ c p, o.utilAt (rt.withSum v) c p = o.utilAt rt c p := by
    intro c p
    unfold AS4100.utilAt AS4100.tensionCapacity
    simp only [phiNt_withSum hb h, getTension_withSum hb h, utilOne_withSum]
  have h2 : ∀ pos c, o.utilPositions (rt.withSum v) pos c = o.utilPositions rt pos c := by
    intro pos c
    unfold AS4100.utilPositions
    rw [hb]
    cases pos <;> simp only [listPositions_withSum h]
  induction cs generalizing pos with
  | nil => rfl
  | cons c cs ih =>
    unfold AS4100.utilLoop
    simp only [h1, h2, ih]

theorem tensionUtilisation_withSum (c : CaseArg) (position : PosArg K) :
    o.tensionUtilisation (rt.withSum v) c position = o.tensionUtilisation rt c position := by
  unfold AS4100.tensionUtilisation
  simp only [utilLoop_withSum hb h]

end

end

end BeamDesign

namespace BeamDesign

open Spec

/-! ## How far the versions are apart -/

section
variable {K S : Type} [Field K] [LinearOrder K] [IsStrictOrderedRing K] {rt : Rt K} {rnd : K → K}

/-- one correction is small -/
theorem correction_small {F : K → Prop} {u η T f x : K} (hR : Rounds rt F u η) (hu0 : 0 ≤ u) (hu : u ≤ 1 / 4) (hf : F f)
    (hx : F x) (hx0 : 0 ≤ x) (hft : f ≤ rt.add f x) (ht : rt.add f x ≤ T) (hf0 : 0 ≤ f) (hxT : x ≤ T) :
    F (rt.add (rt.sub f (rt.add f x)) x) ∧ |rt.add (rt.sub f (rt.add f x)) x| ≤ 4 * u * T := by
  have h1 := hR.add f x hf hx
  have h2 := hR.sub f _ hf h1.1
  have h3 := hR.add _ x h2.1 hx
  refine ⟨h3.1, ?_⟩
  set t := rt.add f x with htdef
  set d := rt.sub f t with hd
  have hT : 0 ≤ T := hf0.trans (hft.trans ht)
  have e1 : |t - (f + x)| ≤ 2 * u * T := by
    refine h1.2.trans ?_
    rw [abs_of_nonneg (by linarith)]
    nlinarith [mul_le_mul_of_nonneg_left (show f + x ≤ 2 * T by linarith) hu0]
  have e2 : |d - (f - t)| ≤ u * T := by
    refine h2.2.trans (mul_le_mul_of_nonneg_left ?_ hu0)
    rw [abs_le]; constructor <;> linarith
  have e3 : |d + x| ≤ 3 * u * T := by
    rw [abs_le] at e1 e2 ⊢
    constructor <;> linarith [e1.1, e1.2, e2.1, e2.2]
  have e4 : |rt.add d x| ≤ (1 + u) * |d + x| := by
    have := abs_sub_abs_le_abs_sub (rt.add d x) (d + x)
    linarith [h3.2]
  calc |rt.add d x| ≤ (1 + u) * |d + x| := e4
    _ ≤ (1 + u) * (3 * u * T) := mul_le_mul_of_nonneg_left e3 (by linarith)
    _ ≤ 4 * u * T := by nlinarith [mul_nonneg hu0 hT]

/-- `sum` with corrections stays near the plain sum. -/
theorem sumFloats_near {F : K → Prop} {u η : K} (hr : RoundsAdd rt rnd) (hF : ∀ x, F x → rnd x = x)
    (hcomm : ∀ a b, rt.add a b = rt.add b a) (hR : Rounds rt F u η) (hu0 : 0 ≤ u) (hu : u ≤ 1 / 4) (xs : List (Num K)) :
    ∀ (f c : K) (k : ℕ), F f → F c → 0 ≤ f → (∀ x ∈ xs, x.isInt = false ∧ 0 ≤ x.val ∧ F x.val) →
      2 * ((k + xs.length : ℕ) : K) * u ≤ 1 →
      ∀ T, (xs.foldl (Num.padd rt) ⟨f, false⟩).val = T → |c| ≤ 8 * k * u * T →
      f ≤ T ∧ |sumFloats rt f c xs - T| ≤ (8 * ((k + xs.length : ℕ) : K) + 5) * u * T := by
  induction xs with
  | nil =>
    intro f c k hf hc hf0 _ hk T hT hcT
    simp only [List.foldl_nil] at hT
    subst hT
    refine ⟨le_rfl, ?_⟩
    simp only [sumFloats, List.length_nil, Nat.add_zero] at hk ⊢
    split_ifs with h0
    · rw [sub_self, abs_zero]; positivity
    · have h1 := (hR.add f c hf hc).2
      have h2 : |f + c| ≤ f + 8 * k * u * f := (abs_add_le _ _).trans (by rw [abs_of_nonneg hf0]; linarith)
      have h3 : |rt.add f c - f| ≤ |rt.add f c - (f + c)| + |c| := by
        have := abs_add_le (rt.add f c - (f + c)) c
        rwa [show rt.add f c - (f + c) + c = rt.add f c - f by ring] at this
      have h4 : u * |f + c| ≤ u * (f + 8 * k * u * f) := mul_le_mul_of_nonneg_left h2 hu0
      have h5 : 0 ≤ u * f := mul_nonneg hu0 hf0
      nlinarith [mul_le_mul_of_nonneg_right hk h5]
  | cons x xs ih =>
    intro f c k hf hc hf0 hx hk T hT hcT
    obtain ⟨hxi, hx0, hxF⟩ := hx x List.mem_cons_self
    have hlen : (k + (x :: xs).length : ℕ) = k + 1 + xs.length := by simp; omega
    rw [hlen] at hk ⊢
    have hpadd : (⟨f, false⟩ : Num K).padd rt x = ⟨rt.add f x.val, false⟩ := by unfold Num.padd; rfl
    rw [List.foldl_cons, hpadd] at hT
    have htF := (hR.add f x.val hf hxF).1
    have hft : f ≤ rt.add f x.val := by
      rw [hr.add]
      calc f = rnd f := (hF f hf).symm
        _ ≤ _ := hr.mono (by linarith)
    have hxt : x.val ≤ rt.add f x.val := by
      rw [hr.add]
      calc x.val = rnd x.val := (hF _ hxF).symm
        _ ≤ _ := hr.mono (by linarith)
    have ht0 := hf0.trans hft
    have hrest : ∀ y ∈ xs, y.isInt = false ∧ 0 ≤ y.val ∧ F y.val := fun y hy => hx y (List.mem_cons_of_mem _ hy)
    have hFz : F 0 := by
      have h1 := (hR.sub f f hf hf)
      have : rt.sub f f = 0 := by simpa using h1.2
      rw [← this]; exact h1.1
    have htT : rt.add f x.val ≤ T := (ih (rt.add f x.val) 0 (k + 1) htF hFz ht0 hrest hk T hT (by
      rw [abs_zero]
      have : 0 ≤ T := by
        have : ∀ (l : List (Num K)) (a : Num K), 0 ≤ a.val → a.isInt = false → F a.val → (∀ y ∈ l, y.isInt = false ∧ 0 ≤ y.val ∧ F y.val) →
            0 ≤ (l.foldl (Num.padd rt) a).val := by
          intro l
          induction l with
          | nil => intro a h _ _ _; exact h
          | cons y l ihl =>
            intro a ha hai haF hy
            obtain ⟨hyi, hy0, hyF⟩ := hy y List.mem_cons_self
            have e : a.padd rt y = ⟨rt.add a.val y.val, false⟩ := by unfold Num.padd; rw [hai]; rfl
            rw [List.foldl_cons, e]
            refine ihl _ ?_ rfl (hR.add _ _ haF hyF).1 (fun z hz => hy z (List.mem_cons_of_mem _ hz))
            simp only [hr.add]
            calc 0 ≤ a.val := ha
              _ = rnd a.val := (hF _ haF).symm
              _ ≤ _ := hr.mono (by linarith)
        rw [← hT]
        exact this xs _ ht0 rfl htF hrest
      positivity)).1
    refine ⟨hft.trans htT, ?_⟩
    have hT0 : 0 ≤ T := ht0.trans htT
    have hstep : ∀ e, F e → |e| ≤ 4 * u * T → F (rt.add c e) ∧ |rt.add c e| ≤ 8 * ((k + 1 : ℕ) : K) * u * T := by
      intro e he hb
      have h1 := hR.add c e hc he
      refine ⟨h1.1, ?_⟩
      have h2 : |c + e| ≤ (8 * k + 4) * u * T := (abs_add_le _ _).trans (by linarith)
      have h3 : |rt.add c e| ≤ (1 + u) * |c + e| := by
        have := abs_sub_abs_le_abs_sub (rt.add c e) (c + e)
        linarith [h1.2]
      have h4 : (1 + u) * |c + e| ≤ (1 + u) * ((8 * k + 4) * u * T) := mul_le_mul_of_nonneg_left h2 (by linarith)
      have h5 : 0 ≤ u * T := mul_nonneg hu0 hT0
      have h6 : (2 * (k : K) + 1) * u ≤ 1 := by
        push_cast at hk
        have : (0 : K) ≤ (xs.length : K) := Nat.cast_nonneg _
        nlinarith
      push_cast
      nlinarith [mul_le_mul_of_nonneg_right h6 h5]
    simp only [sumFloats, hxi, Bool.false_eq_true, false_and, if_false]
    split_ifs with hcmp
    · obtain ⟨e1, e2⟩ := correction_small hR hu0 hu hf hxF hx0 hft htT hf0 (hxt.trans htT)
      obtain ⟨e3, e4⟩ := hstep _ e1 e2
      exact (ih _ _ (k + 1) htF e3 ht0 hrest hk T hT e4).2
    · have hsw : rt.add f x.val = rt.add x.val f := hcomm _ _
      obtain ⟨e1, e2⟩ := correction_small hR hu0 hu hxF hf hf0 (by rw [← hsw]; exact hxt) (by rw [← hsw]; exact htT) hx0
        (hft.trans htT)
      rw [← hsw] at e1 e2
      obtain ⟨e3, e4⟩ := hstep _ e1 e2
      exact (ih _ _ (k + 1) htF e3 ht0 hrest hk T hT e4).2

end

end BeamDesign
