import Verif.Lemmas.Solvers64
import Mathlib.Topology.Order.IntermediateValue
import Mathlib.Topology.Instances.Real.Lemmas

/-!
# C137: bisection on doubles
-/

namespace BeamDesign

open Spec

variable {A : Type}

/-- What one pass through the loop can end with. -/
theorem body_cases {f : SolveFun64 A} {args : List A} {tol lo hi : Flt} :
    (∃ e, F64.bisectBody f args tol lo hi = .error e ∧ e ≠ .exceeded) ∨
    F64.bisectBody f args tol lo hi = .ok (.ret lo) ∨ F64.bisectBody f args tol lo hi = .ok (.ret hi) ∨
    F64.bisectBody f args tol lo hi = .ok (.next (F64.mid lo hi) hi) ∨
    F64.bisectBody f args tol lo hi = .ok (.next lo (F64.mid lo hi)) := by
  have hcall : ∀ x, (∃ v, F64.call f x args = .ok v) ∨ ∃ e, F64.call f x args = .error e ∧ e ≠ .exceeded := by
    intro x
    unfold F64.call
    cases f x args with
    | ok v => exact Or.inl ⟨v, rfl⟩
    | error e => exact Or.inr ⟨_, rfl, by simp⟩
  have hclose : ∀ a b, (∃ v, F64.isclose tol a b = .ok v) ∨ ∃ e, F64.isclose tol a b = .error e ∧ e ≠ .exceeded := by
    intro a b
    unfold F64.isclose
    split_ifs
    · exact Or.inr ⟨_, rfl, by simp⟩
    · exact Or.inl ⟨_, rfl⟩
    · exact Or.inl ⟨_, rfl⟩
    · exact Or.inl ⟨_, rfl⟩
  unfold F64.bisectBody
  rcases hcall lo with ⟨y, h⟩ | ⟨e, h, he⟩
  swap
  · left; exact ⟨e, by rw [h]; rfl, he⟩
  rcases hcall hi with ⟨z, h'⟩ | ⟨e, h', he⟩
  swap
  · left; exact ⟨e, by rw [h, h']; rfl, he⟩
  simp only [h, h', bind, Except.bind]
  rcases hclose y (.fin 0) with ⟨c, h1⟩ | ⟨e, h1, he⟩
  swap
  · left; exact ⟨e, by rw [h1], he⟩
  simp only [h1]
  cases c with
  | true => right; left; rfl
  | false =>
    rcases hclose z (.fin 0) with ⟨c, h2⟩ | ⟨e, h2, he⟩
    swap
    · left; exact ⟨e, by rw [h2]; rfl, he⟩
    simp only [h2, Bool.false_eq_true, if_false]
    cases c with
    | true => right; right; left; rfl
    | false =>
      simp only [Bool.false_eq_true, if_false]
      by_cases h3 : (y.isInf || z.isInf) = true
      · left; exact ⟨_, by rw [if_pos h3]; rfl, by simp⟩
      rw [if_neg h3]
      by_cases h4 : (y.isNan || z.isNan) = true
      · left; exact ⟨_, by simp only [pure, Except.pure]; rw [if_pos h4]; rfl, by simp⟩
      simp only [pure, Except.pure]
      rw [if_neg h4]
      by_cases h5 : F64.lt (.fin 0) (F64.mul y z) = true
      · left; exact ⟨_, by rw [if_pos h5]; rfl, by simp⟩
      rw [if_neg h5]
      rcases hcall (F64.mid lo hi) with ⟨m, h6⟩ | ⟨e, h6, he⟩
      swap
      · left; exact ⟨e, by simp only [h6], he⟩
      right; right; right
      simp only [h6]
      by_cases h7 : F64.lt (.fin 0) (F64.mul y m) = true
      · left; rw [if_pos h7]
      · right; rw [if_neg h7]

theorem loop64_any {f : SolveFun64 A} {args : List A} {lo hi t : ℚ} (hlo : |lo| ≤ maxDouble / 2) (hhi : |hi| ≤ maxDouble / 2)
    (ht : 2 ^ (-1000 : ℤ) ≤ t) (hd : IsDouble t) {maxIts : Option ℤ} {failOn : Bool} :
    ∀ (N fuel i : ℕ) (a b : ℚ), N ≤ fuel → FiniteDouble a → FiniteDouble b → InBracket lo hi a → InBracket lo hi b →
      |b - a| ≤ t * (1999 / 1000) ^ N → (∀ m, maxIts = some m → (i : ℤ) + N < m) →
      (∃ e, F64.bisectLoop f args (.fin t) maxIts failOn fuel i (.fin a) (.fin b) = some (.error e) ∧ e ≠ .exceeded) ∨
      ∃ x n, F64.bisectLoop f args (.fin t) maxIts failOn fuel i (.fin a) (.fin b) = some (.ok (.fin x, n)) ∧ n ≤ i + N ∧
        FiniteDouble x ∧ InBracket lo hi x := by
  have ht0 : 0 ≤ t := (two_zpow_pos _).le.trans ht
  have hM : max |lo| |hi| ≤ maxDouble / 2 := max_le hlo hhi
  have hp := maxDouble_pos
  have hmid : ∀ a b : ℚ, FiniteDouble a → FiniteDouble b → InBracket lo hi a → InBracket lo hi b →
      FiniteDouble (rnd64 (rnd64 (a + b) / 2)) ∧ InBracket lo hi (rnd64 (rnd64 (a + b) / 2)) := by
    intro a b ha hb ia ib
    have im : InBracket lo hi (rnd64 (rnd64 (a + b) / 2)) :=
      inBracket_trans (midBetween_binary64 a b (isDouble_iff.1 ha.1) (isDouble_iff.1 hb.1)).2 ia ib
    refine ⟨⟨isDouble_rnd64 _, ?_⟩, im⟩
    have := abs_bracket im
    linarith
  intro N
  induction N with
  | zero =>
    intro fuel i a b _ ha hb ia ib hw hmax
    have ba := (abs_bracket ia).trans hM
    have bb := (abs_bracket ib).trans hM
    have hc : CloseR t b a := by
      refine Or.inr (Or.inr (Or.inr ?_))
      rw [rnd64_abs, abs_sub_comm, ← isDouble_iff.1 hd]
      refine rnd64_mono ?_
      simpa using hw
    obtain ⟨dm, im⟩ := hmid a b ha hb ia ib
    refine Or.inr ⟨_, i, ?_, by omega, dm, im⟩
    unfold F64.bisectLoop
    rw [loopCond64 ht0 ba bb]
    simp only [hc, not_true, decide_false, mid64_fin ba bb]
  | succ N ih =>
    intro fuel i a b hfuel ha hb ia ib hw hmax
    have ba := (abs_bracket ia).trans hM
    have bb := (abs_bracket ib).trans hM
    obtain ⟨dm, im⟩ := hmid a b ha hb ia ib
    obtain ⟨fuel, rfl⟩ : ∃ k, fuel = k + 1 := ⟨fuel - 1, by omega⟩
    by_cases hc : CloseR t b a
    · refine Or.inr ⟨_, i, ?_, by omega, dm, im⟩
      unfold F64.bisectLoop
      rw [loopCond64 ht0 ba bb]
      simp only [hc, not_true, decide_false, mid64_fin ba bb]
    have hc' : ¬ CloseR t a b := fun h => hc (closeR_comm.1 h)
    have hany : maxIts.any (fun m => decide (m ≤ ((i : ℤ) + 1))) = false := by
      cases maxIts with
      | none => rfl
      | some m =>
        have := hmax m rfl
        push_cast at this
        simp
        omega
    obtain ⟨w1, w2⟩ := halved ht ha.1 hb.1 hc'
    have hpow : ∀ w : ℚ, w ≤ 1000 / 1999 * |b - a| → w ≤ t * (1999 / 1000) ^ N := by
      intro w hw'
      rw [pow_succ] at hw
      have : 1000 / 1999 * |b - a| ≤ 1000 / 1999 * (t * ((1999 / 1000) ^ N * (1999 / 1000))) :=
        mul_le_mul_of_nonneg_left hw (by norm_num)
      refine hw'.trans (this.trans (le_of_eq ?_))
      ring
    have hloop : F64.bisectLoop f args (.fin t) maxIts failOn (fuel + 1) i (.fin a) (.fin b) =
        match F64.bisectBody f args (.fin t) (.fin a) (.fin b) with
        | .error e => some (.error e)
        | .ok (.ret x) => some (.ok (x, i + 1))
        | .ok (.next lo' hi') => F64.bisectLoop f args (.fin t) maxIts failOn fuel (i + 1) lo' hi' := by
      rw [F64.bisectLoop, loopCond64 ht0 ba bb]
      simp only [hc, not_false_eq_true, decide_true, hany]
      rfl
    rw [hloop]
    have hmax' : ∀ m, maxIts = some m → ((i + 1 : ℕ) : ℤ) + N < m := by
      intro m hm
      have := hmax m hm
      push_cast at this ⊢
      omega
    rcases body_cases (f := f) (args := args) (tol := .fin t) (lo := .fin a) (hi := .fin b) with ⟨e, h, he⟩ | h | h | h | h
    · rw [h]
      exact Or.inl ⟨e, rfl, he⟩
    · rw [h]
      exact Or.inr ⟨a, i + 1, rfl, by omega, ha, ia⟩
    · rw [h]
      exact Or.inr ⟨b, i + 1, rfl, by omega, hb, ib⟩
    · rw [h, mid64_fin ba bb]
      rcases ih fuel (i + 1) _ b (by omega) dm hb im ib (hpow _ w1) hmax' with h1 | ⟨x, n, h1, h2, h3⟩
      · exact Or.inl h1
      · exact Or.inr ⟨x, n, h1, by omega, h3⟩
    · rw [h, mid64_fin ba bb]
      rcases ih fuel (i + 1) a _ (by omega) ha dm ia im (hpow _ w2) hmax' with h1 | ⟨x, n, h1, h2, h3⟩
      · exact Or.inl h1
      · exact Or.inr ⟨x, n, h1, by omega, h3⟩

theorem enter64 {f : SolveFun64 A} {args : List A} {lo hi t : ℚ} (hlo : |lo| ≤ maxDouble / 2) (hhi : |hi| ≤ maxDouble / 2) (ht : 0 ≤ t)
    {maxIts : Option ℤ} (hm : ∀ m, maxIts = some m → 1 < m) {failOn : Bool} {fuel : ℕ} :
    F64.bisection f args (.fin lo) (.fin hi) (.fin t) maxIts failOn fuel =
      if CloseR t hi lo then some (.error .guessSame) else F64.bisectLoop f args (.fin t) maxIts failOn fuel 0 (.fin lo) (.fin hi) := by
  have hp := maxDouble_pos
  have hany : maxIts.any (fun m => decide (m ≤ 1)) = false := by
    cases maxIts with
    | none => rfl
    | some m =>
      have := hm m rfl
      simp [this]
  unfold F64.bisection F64.checkGuesses
  rw [isclose64_fin ht (by linarith) (by linarith) ((abs_sub lo hi).trans (by linarith))]
  simp only [Val.isInf, Val.isNan, Bool.or_self, Bool.false_eq_true, if_false, hany]
  by_cases hc : CloseR t hi lo
  · simp [hc]
  · simp [hc]

/-- C137, every function: started from doubles of at most half the largest one with a tolerance of at least 2⁻¹⁰⁰⁰, `bisection` always
ends, the limit of iterations is never the reason when it is above `N`, and an answer is a double in the bracket. -/
theorem C137_ends_partial (f : SolveFun64 A) (args : List A) {lo hi t : ℚ} (dlo : IsDouble lo) (dhi : IsDouble hi)
    (hlo : |lo| ≤ maxDouble / 2) (hhi : |hi| ≤ maxDouble / 2) (dt : IsDouble t) (ht : 2 ^ (-1000 : ℤ) ≤ t)
    (N : ℕ) (hN : |hi - lo| ≤ t * (1999 / 1000) ^ N) (maxIts : Option ℤ) (hm : ∀ m, maxIts = some m → (N : ℤ) < m ∧ 1 < m)
    (failOn : Bool) (fuel : ℕ) (hfuel : N ≤ fuel) :
    (∃ e, F64.bisection f args (.fin lo) (.fin hi) (.fin t) maxIts failOn fuel = some (.error e) ∧ e ≠ .exceeded) ∨
    ∃ x n, F64.bisection f args (.fin lo) (.fin hi) (.fin t) maxIts failOn fuel = some (.ok (.fin x, n)) ∧ n ≤ N ∧
      FiniteDouble x ∧ InBracket lo hi x := by
  have hp := maxDouble_pos
  rw [enter64 hlo hhi ((two_zpow_pos _).le.trans ht) fun m h => (hm m h).2]
  split_ifs with hc
  · exact Or.inl ⟨_, rfl, by simp⟩
  · have := loop64_any (f := f) (args := args) hlo hhi ht dt (maxIts := maxIts) (failOn := failOn) N fuel 0 lo hi hfuel ⟨dlo, by linarith⟩
      ⟨dhi, by linarith⟩ ⟨min_le_left _ _, le_max_left _ _⟩ ⟨min_le_right _ _, le_max_right _ _⟩ hN (fun m h => by simpa using (hm m h).1)
    simpa using this

/-- C137: a function that gives finite doubles, with different signs at the ends of the bracket. -/
theorem C137_bisection_partial {f : SolveFun64 A} {args : List A} {g : ℚ → ℚ} {lo hi t : ℚ} (dlo : IsDouble lo) (dhi : IsDouble hi)
    (hlo : |lo| ≤ maxDouble / 2) (hhi : |hi| ≤ maxDouble / 2) (dt : IsDouble t) (ht : 2 ^ (-500 : ℤ) ≤ t)
    (hf : Computes f args g lo hi) (hs : g lo * g hi ≤ 0)
    (N : ℕ) (hN : |hi - lo| ≤ t * (1999 / 1000) ^ N) (maxIts : Option ℤ) (hm : ∀ m, maxIts = some m → (N : ℤ) < m ∧ 1 < m)
    (failOn : Bool) (fuel : ℕ) (hfuel : N ≤ fuel) :
    (F64.bisection f args (.fin lo) (.fin hi) (.fin t) maxIts failOn fuel = some (.error .guessSame) ∧ |hi - lo| ≤ lastWidth t lo) ∨
    ∃ x n, F64.bisection f args (.fin lo) (.fin hi) (.fin t) maxIts failOn fuel = some (.ok (.fin x, n)) ∧ n ≤ N ∧
      FiniteDouble x ∧ InBracket lo hi x ∧ Solves g t lo hi x := by
  have hp := maxDouble_pos
  have ht0 : 0 ≤ t := (two_zpow_pos _).le.trans ht
  rw [enter64 hlo hhi ht0 fun m h => (hm m h).2]
  split_ifs with hc
  · exact Or.inl ⟨rfl, near_point ht0 ⟨min_le_left _ _, le_max_left _ _⟩
      (near (tol_1000 ht) dlo dhi (le_max_left _ _) (le_max_right _ _) (closeR_comm.1 hc))⟩
  · have := loop64 hlo hhi ht dt hf (maxIts := maxIts) (failOn := failOn) N fuel 0 lo hi hfuel ⟨dlo, by linarith⟩
      ⟨dhi, by linarith⟩ ⟨min_le_left _ _, le_max_left _ _⟩ ⟨min_le_right _ _, le_max_right _ _⟩ (Or.inl hs) hN
      (fun m h => by simpa using (hm m h).1)
    right
    simpa using this

/-- C137: if the Python function computes a continuous real function `G` with an absolute error of at most `e`, the answer lies within
the tolerance of a point at which `G` is within `tol + e` of zero. -/
theorem C137_root_partial {f : SolveFun64 A} {args : List A} {g : ℚ → ℚ} {lo hi t : ℚ} (dlo : IsDouble lo) (dhi : IsDouble hi)
    (hlo : |lo| ≤ maxDouble / 2) (hhi : |hi| ≤ maxDouble / 2) (dt : IsDouble t) (ht : 2 ^ (-500 : ℤ) ≤ t)
    (hf : Computes f args g lo hi) (hs : g lo * g hi ≤ 0)
    (G : ℝ → ℝ) (hG : Continuous G) (e : ℝ) (he : ∀ x : ℚ, IsDouble x → InBracket lo hi x → |(g x : ℝ) - G x| ≤ e)
    (N : ℕ) (hN : |hi - lo| ≤ t * (1999 / 1000) ^ N) (maxIts : Option ℤ) (hm : ∀ m, maxIts = some m → (N : ℤ) < m ∧ 1 < m)
    (failOn : Bool) (fuel : ℕ) (hfuel : N ≤ fuel) {x : Flt} {n : ℕ}
    (h : F64.bisection f args (.fin lo) (.fin hi) (.fin t) maxIts failOn fuel = some (.ok (x, n))) :
    ∃ (x' : ℚ) (r : ℝ), x = .fin x' ∧ r ∈ Set.uIcc (lo : ℝ) hi ∧ |G r| ≤ t + e ∧ |(x' : ℝ) - r| ≤ (lastWidth t x' : ℚ) := by
  have ht0 : 0 ≤ t := (two_zpow_pos _).le.trans ht
  have hmem : ∀ x : ℚ, InBracket lo hi x → (x : ℝ) ∈ Set.uIcc (lo : ℝ) hi := by
    intro x hx
    rw [Set.mem_uIcc]
    obtain ⟨h1, h2⟩ := hx
    rcases le_total lo hi with hab | hab
    · rw [min_eq_left hab] at h1
      rw [max_eq_right hab] at h2
      exact Or.inl ⟨by exact_mod_cast h1, by exact_mod_cast h2⟩
    · rw [min_eq_right hab] at h1
      rw [max_eq_left hab] at h2
      exact Or.inr ⟨by exact_mod_cast h1, by exact_mod_cast h2⟩
  have hw : ∀ x, 0 ≤ lastWidth t x := fun x => mul_nonneg (by norm_num) (ht0.trans (le_max_left _ _))
  rcases C137_bisection_partial dlo dhi hlo hhi dt ht hf hs N hN maxIts hm failOn fuel hfuel with ⟨h', -⟩ | ⟨x', n', h', -, dx, ix, hsol⟩
  · rw [h'] at h
    cases h
  rw [h'] at h
  cases h
  refine ⟨x', ?_⟩
  have hsmall : ∀ y : ℚ, IsDouble y → InBracket lo hi y → |g y| ≤ t → |G y| ≤ t + e := by
    intro y dy iy hy
    have h1 := he y dy iy
    have h2 : |(g y : ℝ)| ≤ t := by exact_mod_cast hy
    rw [abs_le] at h1 h2 ⊢
    constructor <;> linarith
  rcases hsol with hg | ⟨a, b, da, db, ia, ib, ixab, hab, hg⟩
  · refine ⟨x', rfl, hmem x' ix, hsmall x' dx.1 ix hg, ?_⟩
    rw [sub_self, abs_zero]
    exact_mod_cast hw x'
  · have hdist : ∀ r : ℝ, r ∈ Set.uIcc (a : ℝ) b → |(x' : ℝ) - r| ≤ (lastWidth t x' : ℚ) := by
      intro r hr
      have hx' : (x' : ℝ) ∈ Set.uIcc (a : ℝ) b := by
        rw [Set.mem_uIcc]
        obtain ⟨h1, h2⟩ := ixab
        rcases le_total a b with hab | hab
        · rw [min_eq_left hab] at h1
          rw [max_eq_right hab] at h2
          exact Or.inl ⟨by exact_mod_cast h1, by exact_mod_cast h2⟩
        · rw [min_eq_right hab] at h1
          rw [max_eq_left hab] at h2
          exact Or.inr ⟨by exact_mod_cast h1, by exact_mod_cast h2⟩
      have h1 := Set.abs_sub_le_of_uIcc_subset_uIcc (a := (a : ℝ)) (b := (b : ℝ)) (c := (x' : ℝ)) (d := r)
        (Set.uIcc_subset_uIcc hx' hr)
      have h2 : |(b : ℝ) - a| ≤ (lastWidth t x' : ℚ) := by exact_mod_cast hab
      rw [abs_sub_comm]
      exact h1.trans h2
    rcases hg with hg | hg
    · have hga := he a da.1 ia
      have hgb := he b db.1 ib
      have hsub : Set.uIcc (a : ℝ) b ⊆ Set.uIcc (lo : ℝ) hi := Set.uIcc_subset_uIcc (hmem a ia) (hmem b ib)
      have he0 : 0 ≤ e := (abs_nonneg _).trans hga
      have ht0' : (0 : ℝ) ≤ t := by exact_mod_cast ht0
      -- a point between the ends at which `G` is within `e` of zero
      have : ∃ r ∈ Set.uIcc (a : ℝ) b, |G r| ≤ e := by
        by_contra hc
        push Not at hc
        have h1 := hc a Set.left_mem_uIcc
        have h2 := hc b Set.right_mem_uIcc
        have hivt := intermediate_value_uIcc (a := (a : ℝ)) (b := b) hG.continuousOn
        have h0 : (0 : ℝ) ∈ Set.uIcc (G a) (G b) := by
          have hgR : (g a : ℝ) * g b ≤ 0 := by exact_mod_cast hg
          rw [Set.mem_uIcc]
          rw [abs_le] at hga hgb
          rcases lt_abs.1 h1 with h1 | h1 <;> rcases lt_abs.1 h2 with h2 | h2
          · exfalso
            have : 0 < (g a : ℝ) * g b := mul_pos (by linarith) (by linarith)
            linarith
          · exact Or.inr ⟨by linarith, by linarith⟩
          · exact Or.inl ⟨by linarith, by linarith⟩
          · exfalso
            have : 0 < (g a : ℝ) * g b := mul_pos_of_neg_of_neg (by linarith) (by linarith)
            linarith
        obtain ⟨r, hr, hr0⟩ := hivt h0
        have := hc r hr
        rw [hr0, abs_zero] at this
        linarith
      obtain ⟨r, hr, hr0⟩ := this
      exact ⟨r, rfl, hsub hr, hr0.trans (by linarith), hdist r hr⟩
    · exact ⟨b, rfl, hmem b ib, hsmall b db.1 ib hg, hdist b Set.right_mem_uIcc⟩

/-- x ↦ x² - 2 on the doubles, rounded -/
def square64 : SolveFun64 Unit := fun x _ =>
  match x with
  | .fin x => .ok (.fin (rnd64 (rnd64 (x * x) - 2)))
  | v => .ok v

/-- The hypotheses are met: the root of two is found between 1 and 2 with the tolerance 2⁻³⁰, within 31 iterations. -/
example : ∃ x n, F64.bisection square64 [] (.fin 1) (.fin 2) (.fin (2 ^ (-30 : ℤ))) (some 20000) true 20000 = some (.ok (.fin x, n)) ∧
    n ≤ 31 ∧ FiniteDouble x ∧ InBracket 1 2 x ∧ Solves (fun x => rnd64 (rnd64 (x * x) - 2)) (2 ^ (-30 : ℤ)) 1 2 x := by
  have one : IsDouble 1 := ⟨1, 0, by norm_num, by norm_num, by norm_num⟩
  have two : IsDouble 2 := ⟨2, 0, by norm_num, by norm_num, by norm_num⟩
  have hmax : (8 : ℚ) ≤ maxDouble := by linarith [maxDouble_eight, maxDouble_pos]
  have hsq : ∀ x : ℚ, 1 ≤ x → x ≤ 2 → |rnd64 (x * x) - 2| ≤ 8 := by
    intro x h1 h2
    have l := rnd64_mono (show (1 : ℚ) ≤ x * x by nlinarith)
    have u := rnd64_mono (show x * x ≤ (4 : ℚ) by nlinarith)
    rw [isDouble_iff.1 one] at l
    rw [isDouble_iff.1 (⟨4, 0, by norm_num, by norm_num, by norm_num⟩ : IsDouble 4)] at u
    rw [abs_le]
    constructor <;> linarith
  have hf : Computes square64 [] (fun x => rnd64 (rnd64 (x * x) - 2)) 1 2 := by
    intro x _ hx
    refine ⟨rfl, finiteDouble_rnd ((hsq x ?_ ?_).trans hmax)⟩
    · simpa using hx.1
    · simpa using hx.2
  rcases C137_bisection_partial one two (by rw [abs_of_pos (by norm_num)]; linarith) (by rw [abs_of_pos (by norm_num)]; linarith)
      (t := 2 ^ (-30 : ℤ)) ⟨1, -30, by norm_num, by norm_num, by norm_num⟩ (zpow_le_zpow_right₀ (by norm_num) (by norm_num)) hf
      (by rw [← fastRnd_eq, ← fastRnd_eq, ← fastRnd_eq, ← fastRnd_eq]; decide +kernel) 31 (by norm_num) (some 20000)
      (by intro m hm; cases hm; norm_num) true 20000 (by norm_num) with ⟨-, h⟩ | h
  · exfalso
    unfold lastWidth at h
    norm_num at h
  · exact h

/-- C137 does not hold for a tolerance that is nan: the middle of the bracket is reported as the root of any function, which is not even
called. -/
theorem C137_nan_counterexample (f : SolveFun64 A) (args : List A) (failOn : Bool) (fuel : ℕ) :
    F64.bisection f args (.fin 0) (.fin 1) .nan (some 20000) failOn fuel = some (.ok (.fin (1 / 2), 0)) := by
  have hp := maxDouble_pos
  have one : rnd64 1 = 1 := isDouble_iff.1 ⟨1, 0, by norm_num, by norm_num, by norm_num⟩
  have half : rnd64 (1 / 2) = 1 / 2 := isDouble_iff.1 ⟨1, -1, by norm_num, by norm_num, by norm_num⟩
  have h1 : (1 : ℚ) ≤ maxDouble / 2 := by linarith [maxDouble_eight]
  have hclose : F64.isclose .nan (.fin 1) (.fin 0) = .ok false := by
    unfold F64.isclose
    rw [sub_fin (by norm_num; linarith), mul_fin (relTol_mul (by norm_num; linarith)), mul_fin (relTol_mul (by norm_num; linarith))]
    have e : rnd64 (F64.relTol * 1) = F64.relTol := by rw [mul_one]; exact rnd64_idem _
    rw [e, mul_zero, zero_sub, rnd64_neg, one, rnd64_zero, relTol_val]
    simp only [F64.abs, F64.lt, F64.eq, F64.le]
    norm_num
  unfold F64.bisection F64.checkGuesses
  rw [hclose]
  simp only [Val.isInf, Val.isNan, Bool.or_self, Bool.false_eq_true, if_false, Option.any]
  unfold F64.bisectLoop
  rw [mid64_fin (by norm_num; linarith) (by norm_num; linarith), zero_add, one, half]
  rfl

/-- the sign of a float -/
def sign64 : SolveFun64 Unit := fun x _ => .ok (.fin (if F64.lt x (.fin 0) then -1 else 1))

theorem sign64_neg {x : ℚ} (h : x < 0) : sign64 (.fin x) [] = .ok (.fin (-1)) := by
  simp [sign64, F64.lt, h]

theorem sign64_pos {x : ℚ} (h : 0 ≤ x) : sign64 (.fin x) [] = .ok (.fin 1) := by
  simp [sign64, F64.lt, not_lt.2 h]

theorem rnd64_half_least : rnd64 (-(2 : ℚ) ^ (-1074 : ℤ) / 2) = 0 := by
  rw [← fastRnd_eq]
  decide +kernel

theorem sign64_loop (failOn : Bool) : ∀ (fuel i j : ℕ), j ≤ 1074 →
    F64.bisectLoop sign64 [] (.fin 0) none failOn fuel i (.fin (-(2 : ℚ) ^ (-(j : ℤ)))) (.fin 0) = none := by
  intro fuel
  induction fuel with
  | zero =>
    intro i j hj
    have hp : (0 : ℚ) < 2 ^ (-(j : ℤ)) := two_zpow_pos _
    have hle : (2 : ℚ) ^ (-(j : ℤ)) ≤ 1 := zpow_le_one_of_nonpos₀ (by norm_num) (by omega)
    have dl : FiniteDouble (-(2 : ℚ) ^ (-(j : ℤ))) :=
      ⟨isDouble_iff.2 (by rw [rnd64_neg, rnd64_pow (by omega)]), small_max (by rw [abs_neg, abs_of_pos hp]; linarith)⟩
    have hc : ¬ CloseR 0 0 (-(2 : ℚ) ^ (-(j : ℤ))) := by
      rw [closeR_comm, closeR_zero le_rfl dl, abs_neg, abs_of_pos hp]
      linarith
    unfold F64.bisectLoop
    rw [loopCond64 le_rfl (small_half (by rw [abs_neg, abs_of_pos hp]; linarith)) (small_half (by norm_num))]
    simp only [hc, not_false_eq_true, decide_true]
  | succ fuel ih =>
    intro i j hj
    have hp : (0 : ℚ) < 2 ^ (-(j : ℤ)) := two_zpow_pos _
    have hle : (2 : ℚ) ^ (-(j : ℤ)) ≤ 1 := zpow_le_one_of_nonpos₀ (by norm_num) (by omega)
    have hsm := small_half (x := -(2 : ℚ) ^ (-(j : ℤ))) (by rw [abs_neg, abs_of_pos hp]; linarith)
    have dl : FiniteDouble (-(2 : ℚ) ^ (-(j : ℤ))) :=
      ⟨isDouble_iff.2 (by rw [rnd64_neg, rnd64_pow (by omega)]), small_max (by rw [abs_neg, abs_of_pos hp]; linarith)⟩
    have hc : ¬ CloseR 0 0 (-(2 : ℚ) ^ (-(j : ℤ))) := by
      rw [closeR_comm, closeR_zero le_rfl dl, abs_neg, abs_of_pos hp]
      linarith
    have hmid : F64.mid (.fin (-(2 : ℚ) ^ (-(j : ℤ)))) (.fin 0) = .fin (rnd64 (-(2 : ℚ) ^ (-(j : ℤ)) / 2)) := by
      rw [mid64_fin hsm (small_half (by norm_num)), add_zero, isDouble_iff.1 dl.1]
    have hlo := sign64_neg (neg_neg_of_pos hp)
    have hhi := sign64_pos le_rfl
    rw [F64.bisectLoop, loopCond64 le_rfl hsm (small_half (by norm_num))]
    simp only [hc, not_false_eq_true, decide_true]
    by_cases hj' : j = 1074
    · subst hj'
      have h0 : rnd64 (-(2 : ℚ) ^ (-((1074 : ℕ) : ℤ)) / 2) = 0 := rnd64_half_least
      rw [h0] at hmid
      rw [body_values (ym := 1) le_rfl hlo hhi (by rw [hmid]; exact hhi) neg_one_double one_double (by norm_num) (by norm_num) rnd64_signs,
        if_neg rnd64_signs, hmid]
      exact ih (i + 1) 1074 le_rfl
    · have h2 : -(2 : ℚ) ^ (-(j : ℤ)) / 2 = -2 ^ (-((j + 1 : ℕ) : ℤ)) := by
        push_cast
        rw [show -((j : ℤ) + 1) = -j - 1 by ring, zpow_sub_one₀ (by norm_num)]
        ring
      have hp' : (0 : ℚ) < 2 ^ (-((j + 1 : ℕ) : ℤ)) := two_zpow_pos _
      have hlo' := sign64_neg (neg_neg_of_pos hp')
      rw [h2, rnd64_neg, rnd64_pow (by push_cast; omega)] at hmid
      have hpp : (0 : ℚ) < rnd64 (-1 * -1) := by
        norm_num [rnd64_unit]
      rw [body_values (ym := -1) le_rfl hlo hhi (by rw [hmid]; exact hlo') neg_one_double one_double (by norm_num) (by norm_num)
        rnd64_signs, if_pos hpp, hmid]
      exact ih (i + 1) (j + 1) (by omega)

/-- C137 does not hold for the tolerance zero without a limit of iterations: looking for the change of sign of the sign of x, between -1
and 1, the bracket ends up between the smallest double below zero and zero and the loop never ends. -/
theorem C137_endless_counterexample (failOn : Bool) (fuel : ℕ) :
    F64.bisection sign64 [] (.fin (-1)) (.fin 1) (.fin 0) none failOn fuel = none := by
  have hr2 : rnd64 (-2) = -2 := isDouble_iff.1 ⟨-2, 0, by norm_num, by norm_num, by norm_num⟩
  have hrt : rnd64 F64.relTol = F64.relTol := rnd64_idem _
  have hc : ¬ CloseR 0 1 (-1) := by
    unfold CloseR
    norm_num
    rw [hr2, rnd64_neg, hrt, relTol_val]
    norm_num
  rw [enter64 (small_half (by norm_num)) (small_half (by norm_num)) le_rfl (by simp), if_neg hc]
  cases fuel with
  | zero =>
    unfold F64.bisectLoop
    rw [loopCond64 le_rfl (small_half (by norm_num)) (small_half (by norm_num))]
    simp [hc]
  | succ fuel =>
    have hmid : F64.mid (.fin (-1)) (.fin 1) = .fin 0 := by
      rw [mid64_fin (small_half (by norm_num)) (small_half (by norm_num))]
      norm_num [rnd64_zero]
    rw [F64.bisectLoop, loopCond64 le_rfl (small_half (by norm_num)) (small_half (by norm_num))]
    simp only [hc, not_false_eq_true, decide_true]
    rw [body_values le_rfl (sign64_neg (by norm_num)) (sign64_pos (by norm_num)) (by rw [hmid]; exact sign64_pos le_rfl) neg_one_double
      one_double (by norm_num) (by norm_num) rnd64_signs, if_neg rnd64_signs, hmid]
    have := sign64_loop failOn fuel (0 + 1) 0 (by norm_num)
    simpa using this

/-- 1.5 · 2¹⁰²³, in the outer half of the range of doubles -/
def step64 : ℚ := 3 * 2 ^ 1022

theorem step64_pos : 0 < step64 := mul_pos (by norm_num) (pow_pos (by norm_num) _)

theorem step64_le : step64 ≤ maxDouble := by
  unfold step64 maxDouble
  have h : (2 : ℚ) ^ 971 ≤ 2 ^ 1022 := pow_le_pow_right₀ (by norm_num) (by norm_num)
  rw [show (1024 : ℕ) = 1022 + 2 by norm_num, pow_add]
  generalize (2 : ℚ) ^ 1022 = k at *
  generalize (2 : ℚ) ^ 971 = l at *
  linarith

theorem half_lt_step64 : maxDouble / 2 < step64 := by
  unfold step64
  have h := maxDouble_lt
  have hk : (0 : ℚ) < 2 ^ 1022 := pow_pos (by norm_num) _
  rw [show (1024 : ℕ) = 1022 + 2 by norm_num, pow_add] at h
  generalize (2 : ℚ) ^ 1022 = k at *
  linarith

theorem maxDouble_sum : (2 : ℚ) ^ 1024 ≤ maxDouble / 2 + maxDouble := by
  have hk : (0 : ℚ) < 2 ^ 1022 := pow_pos (by norm_num) _
  have h : (2 : ℚ) ^ 971 ≤ 2 ^ 1022 := pow_le_pow_right₀ (by norm_num) (by norm_num)
  unfold maxDouble
  rw [show (1024 : ℕ) = 1022 + 2 by norm_num, pow_add]
  generalize (2 : ℚ) ^ 1022 = k at *
  generalize (2 : ℚ) ^ 971 = l at *
  linarith

/-- -1 below `step64`, 1 above -/
def high64 : SolveFun64 Unit := fun x _ => .ok (.fin (if F64.lt x (.fin step64) then -1 else 1))

theorem relTol_small : F64.relTol < 1 ∧ 0 ≤ F64.relTol ∧ 2 ^ (-500 : ℤ) ≤ F64.relTol := by
  refine ⟨by rw [relTol_val]; norm_num, by rw [relTol_val]; norm_num, ?_⟩
  refine (zpow_le_zpow_right₀ (n := -40) (by norm_num) (by norm_num)).trans ?_
  rw [relTol_val]
  norm_num

theorem mid_inf (a : ℚ) : F64.mid (.fin a) .posInf = .posInf := by
  simp [F64.mid, F64.add, Val.add, Val.over, Val.div, Val.signed]

/-- The bracket between a finite number and infinity stays as it is. -/
theorem high64_stuck {a : ℚ} (ha : a < step64) (failOn : Bool) (maxIts : Option ℤ) :
    ∀ fuel i : ℕ, (∀ m, maxIts = some m → (i : ℤ) < m ∧ m ≤ i + fuel) →
      F64.bisectLoop high64 [] (.fin F64.relTol) maxIts failOn fuel i (.fin a) .posInf =
        maxIts.map fun m => if failOn then .error .exceeded else .ok (.posInf, m.toNat) := by
  obtain ⟨t1, t0, -⟩ := relTol_small
  have hcond : F64.loopCond (.fin F64.relTol) (F64.sub .posInf (.fin a)) .posInf (.fin a) = .ok true := by
    simp [F64.loopCond, F64.sub, Val.sub, Val.over, F64.abs, F64.lt, F64.isclose, F64.eq, Val.isInf, not_lt.2 t0, bind, Except.bind, pure, Except.pure]
  have hlo : high64 (.fin a) [] = .ok (.fin (-1)) := by
    simp only [high64]
    rw [if_pos (show F64.lt (.fin a) (.fin step64) = true from decide_eq_true ha)]
  have hhi : high64 .posInf [] = .ok (.fin 1) := rfl
  have hbody : F64.bisectBody high64 [] (.fin F64.relTol) (.fin a) .posInf = .ok (.next (.fin a) .posInf) := by
    rw [body_values t0 hlo hhi (by rw [mid_inf]; exact hhi) neg_one_double one_double (by norm_num; exact t1) (by norm_num; exact t1)
      rnd64_signs, if_neg rnd64_signs, mid_inf]
  intro fuel
  induction fuel with
  | zero =>
    intro i hm
    cases maxIts with
    | none =>
      unfold F64.bisectLoop
      rw [hcond]
      rfl
    | some m =>
      have := hm m rfl
      push_cast at this
      omega
  | succ fuel ih =>
    intro i hm
    rw [F64.bisectLoop, hcond]
    simp only [hbody, mid_inf]
    cases maxIts with
    | none =>
      simp only [Option.any, Bool.false_eq_true, if_false]
      exact ih (i + 1) (by simp)
    | some m =>
      obtain ⟨h1, h2⟩ := hm m rfl
      by_cases h : m ≤ (i : ℤ) + 1
      · have e : m = i + 1 := by omega
        subst e
        have : ((i : ℤ) + 1).toNat = i + 1 := by omega
        simp only [Option.any, le_refl, decide_true, if_true, Option.map, this]
        split_ifs <;> rfl
      · simp only [Option.any, h, decide_false, Bool.false_eq_true, if_false]
        refine ih (i + 1) ?_
        intro m' hm'
        cases hm'
        push_cast at h2 ⊢
        omega

/-- The first pass with the default guesses: the difference overflows, the middle is zero. -/
theorem default_start {t : ℚ} (ht : 0 ≤ t) :
    F64.isclose (.fin t) (.fin maxDouble) (.fin (-maxDouble)) = .ok false ∧
    F64.loopCond (.fin t) (F64.sub (.fin maxDouble) (.fin (-maxDouble))) (.fin maxDouble) (.fin (-maxDouble)) = .ok true ∧
    F64.mid (.fin (-maxDouble)) (.fin maxDouble) = .fin 0 := by
  have hp := maxDouble_pos
  have hbig : (2 : ℚ) ^ 1024 ≤ rnd64 (maxDouble - -maxDouble) := by
    have h1 : (2 : ℚ) ^ 1024 ≤ maxDouble - -maxDouble := by
      have h := maxDouble_big
      have e : (2 : ℚ) ^ 1024 = 2 * 2 ^ 1023 := by rw [← pow_succ']
      rw [e]
      generalize (2 : ℚ) ^ 1023 = k at *
      linarith
    have h2 := rnd64_mono h1
    have h3 : rnd64 ((2 : ℚ) ^ 1024) = 2 ^ 1024 := by
      have := rnd64_pow (e := 1024) (by norm_num)
      rw [show (2 : ℚ) ^ (1024 : ℤ) = 2 ^ 1024 by rw [← zpow_natCast]; norm_num] at this
      exact this
    rwa [h3] at h2
  have hs1 : F64.sub (.fin maxDouble) (.fin (-maxDouble)) = .posInf := by
    show Val.cap (rnd64 (maxDouble - -maxDouble)) = _
    unfold Val.cap
    rw [if_pos hbig]
  have hs2 : F64.sub (.fin (-maxDouble)) (.fin maxDouble) = .negInf := by
    show Val.cap (rnd64 (-maxDouble - maxDouble)) = _
    have e : -maxDouble - maxDouble = -(maxDouble - -maxDouble) := by ring
    rw [e, rnd64_neg]
    unfold Val.cap
    have hq : (0 : ℚ) < 2 ^ 1024 := pow_pos (by norm_num) _
    rw [if_neg (not_le.2 ((neg_nonpos.2 (hq.le.trans hbig)).trans_lt hq)), if_pos (neg_le_neg hbig)]
  have hne : ¬ maxDouble = -maxDouble := by
    intro h
    linarith
  have hc : F64.isclose (.fin t) (.fin maxDouble) (.fin (-maxDouble)) = .ok false := by
    unfold F64.isclose
    rw [hs2, mul_fin (relTol_mul (by rw [abs_neg, abs_of_pos hp])), mul_fin (relTol_mul (by rw [abs_of_pos hp]))]
    simp [F64.lt, F64.le, F64.eq, F64.abs, ht, hne, Val.isInf]
  refine ⟨hc, ?_, ?_⟩
  · unfold F64.loopCond
    rw [hs1, hc]
    simp [F64.lt, F64.abs, bind, Except.bind, pure, Except.pure]
  · rw [mid_sum (by rw [neg_add_cancel, abs_zero]; exact hp.le), neg_add_cancel, rnd64_zero, zero_div, rnd64_zero]

/-- `bisection` with the default guesses and tolerance starts its loop. -/
theorem default_enter {f : SolveFun64 A} {args : List A} {t : ℚ} (ht : 0 ≤ t) {maxIts : Option ℤ} (hm : ∀ m, maxIts = some m → 1 < m)
    {failOn : Bool} {fuel : ℕ} :
    F64.bisection f args (.fin (-maxDouble)) (.fin maxDouble) (.fin t) maxIts failOn fuel =
      F64.bisectLoop f args (.fin t) maxIts failOn fuel 0 (.fin (-maxDouble)) (.fin maxDouble) := by
  have hany : maxIts.any (fun m => decide (m ≤ 1)) = false := by
    cases maxIts with
    | none => rfl
    | some m =>
      have := hm m rfl
      simp [this]
  unfold F64.bisection F64.checkGuesses
  rw [(default_start ht).1]
  simp only [Val.isInf, Val.isNan, Bool.or_self, Bool.false_eq_true, if_false, hany]

theorem maxDouble_apart {t : ℚ} (ht : t ≤ 1) (ht' : 2 ^ (-1000 : ℤ) ≤ t) : ¬ CloseR t maxDouble 0 ∧ ¬ CloseR t maxDouble (maxDouble / 2) := by
  have h8 := maxDouble_eight
  have hp := maxDouble_pos
  constructor
  · intro h
    have := near (lo := maxDouble) (hi := 0) ht' maxDouble_finite.1 ⟨0, 0, by norm_num, by norm_num, by norm_num⟩ (le_max_left _ _)
      (le_max_right _ _) h
    rw [zero_sub, abs_neg, abs_zero, abs_of_pos hp, max_eq_left hp.le] at this
    rcases max_cases t (maxDouble / 10 ^ 9) with ⟨e, -⟩ | ⟨e, -⟩ <;> rw [e] at this <;> norm_num at this <;> linarith
  · intro h
    have := near (lo := maxDouble) (hi := maxDouble / 2) ht' maxDouble_finite.1 half_max_finite.1 (le_max_left _ _) (le_max_right _ _) h
    clear ht'
    have h2 : 0 < maxDouble / 2 := by linarith
    rw [abs_sub_comm, show maxDouble - maxDouble / 2 = maxDouble / 2 by ring, abs_of_pos hp, abs_of_pos h2,
      max_eq_left (show maxDouble / 2 ≤ maxDouble by linarith)] at this
    rcases max_cases t (maxDouble / 10 ^ 9) with ⟨e, -⟩ | ⟨e, -⟩ <;> rw [e] at this <;> norm_num at this <;> linarith

/-- one pass through the loop of `bisection` that goes on -/
theorem loop_step {f : SolveFun64 A} {args : List A} {tol lo hi lo' hi' : Flt} {maxIts : Option ℤ} {failOn : Bool} {fuel i : ℕ}
    (h1 : F64.loopCond tol (F64.sub hi lo) hi lo = .ok true) (h2 : F64.bisectBody f args tol lo hi = .ok (.next lo' hi'))
    (h3 : ∀ m, maxIts = some m → (i : ℤ) + 1 < m) :
    F64.bisectLoop f args tol maxIts failOn (fuel + 1) i lo hi = F64.bisectLoop f args tol maxIts failOn fuel (i + 1) lo' hi' := by
  have hany : maxIts.any (fun m => decide (m ≤ ((i : ℤ) + 1))) = false := by
    cases maxIts with
    | none => rfl
    | some m =>
      have := h3 m rfl
      simp
      omega
  rw [F64.bisectLoop, h1]
  simp only [h2, hany]
  rfl

/-- C137 does not hold with the default guesses, ± the largest double, for a function that changes sign in the outer half of the range:
the sum of the ends of the bracket overflows, the upper end becomes infinite and stays there.  Whatever the limit of iterations it is
reached, infinity is returned if this is allowed, and without a limit the loop never ends. -/
theorem C137_overflow_counterexample (fuel : ℕ) :
    (∀ m : ℤ, 4 ≤ m → m ≤ fuel →
      F64.bisection high64 [] (.fin (-maxDouble)) (.fin maxDouble) (.fin F64.relTol) (some m) true fuel = some (.error .exceeded) ∧
      F64.bisection high64 [] (.fin (-maxDouble)) (.fin maxDouble) (.fin F64.relTol) (some m) false fuel = some (.ok (.posInf, m.toNat))) ∧
    ∀ failOn, F64.bisection high64 [] (.fin (-maxDouble)) (.fin maxDouble) (.fin F64.relTol) none failOn (fuel + 3) = none := by
  obtain ⟨t1, t0, t5⟩ := relTol_small
  have hp := maxDouble_pos
  have h0 := step64_pos
  have h31 := step64_le
  have h32 := half_lt_step64
  obtain ⟨-, hc1, hm1⟩ := default_start t0
  obtain ⟨hc2, hc3⟩ := maxDouble_apart t1.le (tol_1000 t5)
  clear t5
  have neg : ∀ x : ℚ, x < step64 → high64 (.fin x) [] = .ok (.fin (-1)) := by
    intro x hx
    simp only [high64]
    rw [if_pos (show F64.lt (.fin x) (.fin step64) = true from decide_eq_true hx)]
  have pos : high64 (.fin maxDouble) [] = .ok (.fin 1) := by
    simp only [high64]
    rw [if_neg (by simpa [F64.lt] using h31)]
  have hpp : (0 : ℚ) < rnd64 (-1 * -1) := by
    norm_num [rnd64_unit]
  have b1 : F64.bisectBody high64 [] (.fin F64.relTol) (.fin (-maxDouble)) (.fin maxDouble) = .ok (.next (.fin 0) (.fin maxDouble)) := by
    rw [body_values t0 (neg _ (by linarith)) pos (by rw [hm1]; exact neg 0 (by linarith)) neg_one_double one_double (by norm_num; exact t1)
      (by norm_num; exact t1) rnd64_signs, if_pos hpp, hm1]
  have hm2 : F64.mid (.fin 0) (.fin maxDouble) = .fin (maxDouble / 2) := by
    rw [mid_sum (by rw [zero_add, abs_of_pos hp]), zero_add, maxDouble_double, half_max_double]
  have b2 : F64.bisectBody high64 [] (.fin F64.relTol) (.fin 0) (.fin maxDouble) = .ok (.next (.fin (maxDouble / 2)) (.fin maxDouble)) := by
    rw [body_values t0 (neg _ (by linarith)) pos (by rw [hm2]; exact neg _ h32) neg_one_double one_double (by norm_num; exact t1)
      (by norm_num; exact t1) rnd64_signs, if_pos hpp, hm2]
  have hm3 : F64.mid (.fin (maxDouble / 2)) (.fin maxDouble) = .posInf := by
    have h : (2 : ℚ) ^ 1024 ≤ rnd64 (maxDouble / 2 + maxDouble) := by
      have h3 : rnd64 ((2 : ℚ) ^ 1024) = 2 ^ 1024 := by
        have := rnd64_pow (e := 1024) (by norm_num)
        rw [show (2 : ℚ) ^ (1024 : ℤ) = 2 ^ 1024 by rw [← zpow_natCast]; norm_num] at this
        exact this
      rw [← h3]
      exact rnd64_mono maxDouble_sum
    have hadd : F64.add (.fin (maxDouble / 2)) (.fin maxDouble) = .posInf := by
      show Val.cap (rnd64 (maxDouble / 2 + maxDouble)) = _
      unfold Val.cap
      rw [if_pos h]
    unfold F64.mid
    rw [hadd]
    simp [Val.div, Val.signed, Val.over]
  have b3 : F64.bisectBody high64 [] (.fin F64.relTol) (.fin (maxDouble / 2)) (.fin maxDouble) =
      .ok (.next (.fin (maxDouble / 2)) .posInf) := by
    rw [body_values (ym := 1) t0 (neg _ h32) pos (by rw [hm3]; rfl) neg_one_double one_double (by norm_num; exact t1)
      (by norm_num; exact t1) rnd64_signs, if_neg rnd64_signs, hm3]
  have c2 : F64.loopCond (.fin F64.relTol) (F64.sub (.fin maxDouble) (.fin 0)) (.fin maxDouble) (.fin 0) = .ok true := by
    rw [loopCond_sum t0 (small_max (by norm_num)) (abs_of_pos hp).le (by rw [sub_zero, abs_of_pos hp])]
    simp [hc2]
  have c3 : F64.loopCond (.fin F64.relTol) (F64.sub (.fin maxDouble) (.fin (maxDouble / 2))) (.fin maxDouble) (.fin (maxDouble / 2)) =
      .ok true := by
    rw [loopCond_sum t0 (by rw [abs_of_pos (by linarith)]; linarith) (abs_of_pos hp).le (by
      rw [show maxDouble - maxDouble / 2 = maxDouble / 2 by ring, abs_of_pos (by linarith)]; linarith)]
    simp [hc3]
  have key : ∀ (maxIts : Option ℤ) (failOn : Bool) (n : ℕ), (∀ m, maxIts = some m → 4 ≤ m ∧ m ≤ n + 3) →
      F64.bisection high64 [] (.fin (-maxDouble)) (.fin maxDouble) (.fin F64.relTol) maxIts failOn (n + 3) =
        maxIts.map fun m => if failOn then .error .exceeded else .ok (.posInf, m.toNat) := by
    intro maxIts failOn n hm
    rw [default_enter t0 (fun m h => by have := hm m h; omega),
      loop_step hc1 b1 (fun m h => by have := hm m h; push_cast; omega), loop_step c2 b2 (fun m h => by have := hm m h; push_cast; omega),
      loop_step c3 b3 (fun m h => by have := hm m h; push_cast; omega)]
    exact high64_stuck h32 failOn maxIts n _ (fun m h => by have := hm m h; push_cast; omega)
  refine ⟨?_, fun failOn => key none failOn fuel (by simp)⟩
  intro m h4 hf
  obtain ⟨n, rfl⟩ : ∃ n, fuel = n + 3 := ⟨fuel - 3, by omega⟩
  have h := fun failOn => key (some m) failOn n (by intro m' h; cases h; push_cast at hf; omega)
  exact ⟨h true, h false⟩

/-- the width of the bracket after two passes, compared with the default tolerance -/
theorem default_width : maxDouble / 2 ≤ F64.relTol * (1999 / 1000) ^ 1060 := by
  have h1 : maxDouble / 2 ≤ 2 ^ 1023 := by
    have := maxDouble_lt
    rw [pow_succ] at this
    generalize (2 : ℚ) ^ 1023 = k at *
    linarith
  refine h1.trans ?_
  rw [relTol_val, div_pow, div_mul_div_comm, le_div_iff₀ (by positivity)]
  have h : 2 ^ 1023 * (4835703278458516698824704 * 1000 ^ 1060) ≤ 4835703278458517 * 1999 ^ 1060 := by decide +kernel
  exact_mod_cast h

/-- A good answer in a part of the bracket is a good answer in the bracket. -/
theorem solves_mono {g : ℚ → ℚ} {t lo hi lo' hi' x : ℚ} (h1 : InBracket lo hi lo') (h2 : InBracket lo hi hi') (h : Solves g t lo' hi' x) :
    Solves g t lo hi x := by
  rcases h with h | ⟨a, b, da, db, ia, ib, h⟩
  · exact Or.inl h
  · exact Or.inr ⟨a, b, da, db, inBracket_trans ia h1 h2, inBracket_trans ib h1 h2, h⟩

/-- C137 with the default guesses, ± the largest double, and the default tolerance: a function that keeps one sign in the lower
quarter of the doubles' range and the other in the upper quarter is solved within 1062 iterations. -/
theorem C137_default_partial {f : SolveFun64 A} {args : List A} {g : ℚ → ℚ} (hf : Computes f args g (-maxDouble) maxDouble)
    (s : ℚ) (hs : s = 1 ∨ s = -1) (hlow : ∀ x, FiniteDouble x → x ≤ -(maxDouble / 2) → F64.relTol < -(s * g x))
    (hhigh : ∀ x, FiniteDouble x → maxDouble / 2 ≤ x → F64.relTol < s * g x)
    (maxIts : Option ℤ) (hm : ∀ m, maxIts = some m → 1062 < m) (failOn : Bool) (fuel : ℕ) (hfuel : 1062 ≤ fuel) :
    ∃ x n, F64.bisection f args (.fin (-maxDouble)) (.fin maxDouble) (.fin F64.relTol) maxIts failOn fuel = some (.ok (.fin x, n)) ∧
      n ≤ 1062 ∧ FiniteDouble x ∧ Solves g F64.relTol (-maxDouble) maxDouble x := by
  obtain ⟨t1, t0, t5⟩ := relTol_small
  have tn := tol_1000 t5
  have hp := maxDouble_pos
  have hd : IsDouble F64.relTol := isDouble_rnd64 _
  obtain ⟨-, hc1, hm1⟩ := default_start t0
  obtain ⟨hc2, -⟩ := maxDouble_apart t1.le tn
  have zd : FiniteDouble 0 := ⟨⟨0, 0, by norm_num, by norm_num, by norm_num⟩, small_max (by norm_num)⟩
  have inAll : ∀ x, |x| ≤ maxDouble → InBracket (-maxDouble) maxDouble x := by
    intro x hx
    have := abs_le.1 hx
    exact ⟨(min_le_left _ _).trans this.1, this.2.trans (le_max_right _ _)⟩
  have hfin : ∀ x, FiniteDouble x → f (.fin x) args = .ok (.fin (g x)) ∧ FiniteDouble (g x) := fun x hx => hf x hx (inAll x hx.2)
  have hs1 : |s| = 1 := by rcases hs with h | h <;> rw [h] <;> norm_num
  have hss : s * s = 1 := by rcases hs with h | h <;> rw [h] <;> norm_num
  have habs : ∀ y : ℚ, |y| = |s * y| := fun y => by rw [abs_mul, hs1, one_mul]
  have l0 := hlow _ (neg_finite maxDouble_finite) (by linarith)
  have l1 := hlow _ (neg_finite half_max_finite) le_rfl
  have u0 := hhigh _ maxDouble_finite (by linarith)
  have u1 := hhigh _ half_max_finite le_rfl
  have n0 : F64.relTol < |g (-maxDouble)| := by rw [habs]; exact l0.trans_le (neg_le_abs _)
  have n1 : F64.relTol < |g maxDouble| := by rw [habs]; exact u0.trans_le (le_abs_self _)
  have prod : ∀ y z : ℚ, y * z = (s * y) * (s * z) := fun y z => by
    calc y * z = (s * s) * (y * z) := by rw [hss, one_mul]
      _ = _ := by ring
  have p1 : ¬ 0 < rnd64 (g (-maxDouble) * g maxDouble) := by
    refine not_lt.2 (rnd64_nonpos ?_)
    rw [prod]
    exact mul_nonpos_of_nonpos_of_nonneg (by linarith) (by linarith)
  have b1 := body_values t0 (hfin _ (neg_finite maxDouble_finite)).1 (hfin _ maxDouble_finite).1
    (by rw [hm1]; exact (hfin 0 zd).1) (hfin _ (neg_finite maxDouble_finite)).2 (hfin _ maxDouble_finite).2 n0 n1 p1
  rw [hm1] at b1
  obtain ⟨fuel, rfl⟩ : ∃ k, fuel = k + 2 := ⟨fuel - 2, by omega⟩
  rw [default_enter t0 fun m h => by have := hm m h; omega]
  have hret : ∀ lo hi : Flt, F64.loopCond (.fin F64.relTol) (F64.sub hi lo) hi lo = .ok true →
      F64.bisectBody f args (.fin F64.relTol) lo hi = .ok (.ret (.fin 0)) →
      F64.bisectLoop f args (.fin F64.relTol) maxIts failOn (fuel + 1) (0 + 1) lo hi = some (.ok (.fin 0, 2)) := by
    intro lo hi h1 h2
    rw [F64.bisectLoop, h1]
    simp only [h2]
  by_cases hz : 0 < rnd64 (g (-maxDouble) * g 0)
  · rw [if_pos hz] at b1
    rw [loop_step hc1 b1 fun m h => by have := hm m h; push_cast; omega]
    have c2 : F64.loopCond (.fin F64.relTol) (F64.sub (.fin maxDouble) (.fin 0)) (.fin maxDouble) (.fin 0) = .ok true := by
      rw [loopCond_sum t0 (small_max (by norm_num)) (abs_of_pos hp).le (by rw [sub_zero, abs_of_pos hp])]
      simp [hc2]
    by_cases hg : |g 0| ≤ F64.relTol
    · exact ⟨0, 2, hret _ _ c2 (body_ret_low t0 (hfin 0 zd).1 (hfin _ maxDouble_finite).1 (hfin 0 zd).2 hg), by norm_num, zd, Or.inl hg⟩
    have g0 : s * g 0 ≤ 0 := by
      by_contra hc
      push Not at hc
      refine absurd hz (not_lt.2 (rnd64_nonpos ?_))
      rw [prod]
      exact mul_nonpos_of_nonpos_of_nonneg (by linarith) hc.le
    have hle : ∀ z, 0 ≤ s * z → g 0 * z ≤ 0 := fun z h => by
      rw [prod]
      exact mul_nonpos_of_nonpos_of_nonneg g0 h
    have hm2 : F64.mid (.fin 0) (.fin maxDouble) = .fin (maxDouble / 2) := by
      rw [mid_sum (by rw [zero_add, abs_of_pos hp]), zero_add, maxDouble_double, half_max_double]
    have q1 := hle (g maxDouble) (by linarith)
    have q2 := hle (g (maxDouble / 2)) (by linarith)
    have b2 := body_values t0 (hfin 0 zd).1 (hfin _ maxDouble_finite).1 (by rw [hm2]; exact (hfin _ half_max_finite).1) (hfin 0 zd).2
      (hfin _ maxDouble_finite).2 (not_le.1 hg) n1 (not_lt.2 (rnd64_nonpos q1))
    rw [if_neg (not_lt.2 (rnd64_nonpos q2)), hm2] at b2
    rw [loop_step c2 b2 fun m h => by have := hm m h; push_cast; omega]
    have h2 : |maxDouble / 2| = maxDouble / 2 := abs_of_pos (by linarith)
    obtain ⟨x, n, h, hn, dx, -, hx⟩ := loop64 (f := f) (args := args) (g := g) (lo := 0) (hi := maxDouble / 2) (small_half (by norm_num)) h2.le
      t5 hd (fun x hx _ => hfin x hx) (maxIts := maxIts) (failOn := failOn) 1060 fuel (0 + 1 + 1) 0 (maxDouble / 2) (by omega) zd
      half_max_finite ⟨min_le_left _ _, le_max_left _ _⟩ ⟨min_le_right _ _, le_max_right _ _⟩ (Or.inl q2)
      (by rw [sub_zero, h2]; exact default_width) (fun m h => by have := hm m h; push_cast; omega)
    exact ⟨x, n, h, by omega, dx, solves_mono (inAll 0 zd.2) (inAll _ half_max_finite.2) hx⟩
  · rw [if_neg hz] at b1
    rw [loop_step hc1 b1 fun m h => by have := hm m h; push_cast; omega]
    have hc4 : ¬ CloseR F64.relTol 0 (-maxDouble) := by
      rw [closeR_comm, closeR_zero t0 (neg_finite maxDouble_finite), abs_neg, abs_of_pos hp]
      linarith [maxDouble_eight]
    have c2 : F64.loopCond (.fin F64.relTol) (F64.sub (.fin 0) (.fin (-maxDouble))) (.fin 0) (.fin (-maxDouble)) = .ok true := by
      rw [loopCond_sum t0 (by rw [abs_neg, abs_of_pos hp]) (small_max (by norm_num)) (by rw [sub_neg_eq_add, zero_add, abs_of_pos hp])]
      simp [hc4]
    by_cases hg : |g 0| ≤ F64.relTol
    · exact ⟨0, 2, hret _ _ c2 (body_ret_high t0 (hfin _ (neg_finite maxDouble_finite)).1 (hfin 0 zd).1
        (hfin _ (neg_finite maxDouble_finite)).2 (hfin 0 zd).2 n0 hg), by norm_num, zd, Or.inl hg⟩
    have q0 : g (-maxDouble) * g 0 ≤ 0 := (not_pos_product t5 n0 hz).resolve_right hg
    have g0 : 0 ≤ s * g 0 := by
      by_contra hc
      push Not at hc
      rw [prod] at q0
      have := mul_pos_of_neg_of_neg (show s * g (-maxDouble) < 0 by linarith) hc
      linarith
    have hm2 : F64.mid (.fin (-maxDouble)) (.fin 0) = .fin (-(maxDouble / 2)) := by
      rw [mid_sum (by rw [add_zero, abs_neg, abs_of_pos hp]), add_zero, rnd64_neg, maxDouble_double, neg_div, rnd64_neg, half_max_double]
    have b2 := body_values t0 (hfin _ (neg_finite maxDouble_finite)).1 (hfin 0 zd).1
      (by rw [hm2]; exact (hfin _ (neg_finite half_max_finite)).1) (hfin _ (neg_finite maxDouble_finite)).2 (hfin 0 zd).2 n0 (not_le.1 hg) hz
    have q2 : 0 < rnd64 (g (-maxDouble) * g (-(maxDouble / 2))) := by
      by_contra hc
      rcases not_pos_product t5 n0 hc with h | h
      · rw [prod] at h
        have := mul_pos_of_neg_of_neg (show s * g (-maxDouble) < 0 by linarith) (show s * g (-(maxDouble / 2)) < 0 by linarith)
        linarith
      · rw [habs] at h
        have := neg_le_abs (s * g (-(maxDouble / 2)))
        linarith
    rw [if_pos q2, hm2] at b2
    rw [loop_step c2 b2 fun m h => by have := hm m h; push_cast; omega]
    have h2 : |-(maxDouble / 2)| = maxDouble / 2 := by rw [abs_neg]; exact abs_of_pos (by linarith)
    have q3 : g (-(maxDouble / 2)) * g 0 ≤ 0 := by
      rw [prod]
      exact mul_nonpos_of_nonpos_of_nonneg (by linarith) g0
    obtain ⟨x, n, h, hn, dx, -, hx⟩ := loop64 (f := f) (args := args) (g := g) (lo := -(maxDouble / 2)) (hi := 0) h2.le
      (small_half (by norm_num)) t5 hd (fun x hx _ => hfin x hx) (maxIts := maxIts) (failOn := failOn) 1060 fuel (0 + 1 + 1)
      (-(maxDouble / 2)) 0 (by omega) (neg_finite half_max_finite) zd ⟨min_le_left _ _, le_max_left _ _⟩
      ⟨min_le_right _ _, le_max_right _ _⟩ (Or.inl q3) (by rw [zero_sub, neg_neg, abs_of_pos (by linarith)]; exact default_width)
      (fun m h => by have := hm m h; push_cast; omega)
    exact ⟨x, n, h, by omega, dx, solves_mono (inAll _ (neg_finite half_max_finite).2) (inAll 0 zd.2) hx⟩

/-- x ↦ x / 2 - 1 on the doubles, rounded once -/
def line64 : SolveFun64 Unit := fun x _ =>
  match x with
  | .fin x => .ok (.fin (rnd64 (x / 2 - 1)))
  | v => .ok v

/-- The hypotheses are met: the root of x / 2 - 1 is found with all the default arguments. -/
example : ∃ x n, F64.bisection line64 [] (.fin (-maxDouble)) (.fin maxDouble) (.fin F64.relTol) (some 20000) true 20000 =
    some (.ok (.fin x, n)) ∧ n ≤ 1062 ∧ FiniteDouble x ∧ Solves (fun x => rnd64 (x / 2 - 1)) F64.relTol (-maxDouble) maxDouble x := by
  have t1 := relTol_small.1
  have h8 := maxDouble_eight
  refine C137_default_partial (f := line64) (args := []) ?_ 1 (Or.inl rfl) ?_ ?_ (some 20000) (by intro m h; cases h; norm_num) true 20000
    (by norm_num)
  · intro x hx _
    refine ⟨rfl, finiteDouble_rnd ?_⟩
    have := abs_le.1 hx.2
    rw [abs_le]
    constructor <;> linarith
  · intro x _ hx
    have := rnd64_mono (show x / 2 - 1 ≤ -1 by linarith)
    rw [rnd64_neg, rnd64_unit] at this
    linarith
  · intro x _ hx
    have := rnd64_mono (show 1 ≤ x / 2 - 1 by linarith)
    rw [rnd64_unit] at this
    linarith

/-- x ↦ (x - 7/4) · 2⁻⁵⁴⁰ on the doubles, rounded once -/
def tiny64 : SolveFun64 Unit := fun x _ =>
  match x with
  | .fin x => .ok (.fin (rnd64 ((x - 7 / 4) * 2 ^ (-540 : ℤ))))
  | v => .ok v

theorem tiny_pow {k : ℕ} {e : ℤ} (h : e = -540 - k) : (2 : ℚ) ^ e = 2 ^ (-540 : ℤ) / 2 ^ k := by
  rw [h, zpow_sub₀ (by norm_num), zpow_natCast]

/-- The value of `tiny64` is above 2⁻⁵⁴⁵ at a distance of a quarter from 7/4 on. -/
theorem tiny64_large {x : ℚ} (h : 1 / 4 ≤ |x - 7 / 4|) : 2 ^ (-545 : ℤ) < |rnd64 ((x - 7 / 4) * 2 ^ (-540 : ℤ))| := by
  have h1 : (2 : ℚ) ^ (-542 : ℤ) ≤ |(x - 7 / 4) * 2 ^ (-540 : ℤ)| := by
    have hu := two_zpow_pos (-540)
    rw [abs_mul, abs_of_pos hu, tiny_pow (k := 2) (by norm_num)]
    generalize (2 : ℚ) ^ (-540 : ℤ) = u at *
    nlinarith
  have h2 := rnd64_mono h1
  rw [rnd64_pow (by norm_num), ← rnd64_abs] at h2
  exact lt_of_lt_of_le (zpow_lt_zpow_right₀ (by norm_num) (by norm_num)) h2

theorem tiny64_small {x : ℚ} (h : |x - 7 / 4| ≤ 1) : |rnd64 ((x - 7 / 4) * 2 ^ (-540 : ℤ))| ≤ 2 ^ (-540 : ℤ) := by
  have hu := two_zpow_pos (-540)
  have h1 : |(x - 7 / 4) * 2 ^ (-540 : ℤ)| ≤ (2 : ℚ) ^ (-540 : ℤ) := by
    rw [abs_mul, abs_of_pos hu]
    generalize (2 : ℚ) ^ (-540 : ℤ) = u at *
    nlinarith
  have h2 := rnd64_mono h1
  rwa [rnd64_pow (by norm_num), ← rnd64_abs] at h2

/-- The products of two values underflow. -/
theorem tiny64_product {y z : ℚ} (hy : |y| ≤ 2 ^ (-540 : ℤ)) (hz : |z| ≤ 2 ^ (-540 : ℤ)) : ¬ 0 < rnd64 (y * z) := by
  have h : y * z ≤ 2 ^ (-1080 : ℤ) := by
    refine (le_abs_self _).trans ?_
    rw [abs_mul, show (-1080 : ℤ) = -540 + -540 by norm_num, zpow_add₀ (by norm_num)]
    exact mul_le_mul hy hz (abs_nonneg _) (two_zpow_pos _).le
  have h0 : rnd64 ((2 : ℚ) ^ (-1080 : ℤ)) = 0 := by
    rw [← fastRnd_eq]
    decide +kernel
  have := rnd64_mono h
  rw [h0] at this
  exact not_lt.2 this

/-- the numbers on the way -/
theorem tiny64_points : ∀ k : ℕ, k < 32 → rnd64 (rnd64 (1 + (1 + (2 : ℚ) ^ (-(k : ℤ)))) / 2) = 1 + (2 : ℚ) ^ (-((k + 1 : ℕ) : ℤ)) ∧
    1 / 4 ≤ |1 + (2 : ℚ) ^ (-(k : ℤ)) - 7 / 4| ∧ |1 + (2 : ℚ) ^ (-(k : ℤ)) - 7 / 4| ≤ 1 ∧ |1 + (2 : ℚ) ^ (-(k : ℤ))| ≤ 8 := by
  simp only [← fastRnd_eq]
  decide +kernel

theorem tiny64_close : ∀ k : ℕ, k < 31 → (CloseR (2 ^ (-545 : ℤ)) (1 + (2 : ℚ) ^ (-(k : ℤ))) 1 ↔ ¬ k < 30) := by
  unfold CloseR
  rw [relTol_val]
  simp only [← fastRnd_eq]
  decide +kernel

theorem tiny64_body {k : ℕ} (hk : k ≤ 30) :
    F64.bisectBody tiny64 [] (.fin (2 ^ (-545 : ℤ))) (.fin 1) (.fin (1 + 2 ^ (-(k : ℤ)))) =
      .ok (.next (.fin 1) (.fin (1 + (2 : ℚ) ^ (-((k + 1 : ℕ) : ℤ))))) ∧
    F64.mid (.fin 1) (.fin (1 + 2 ^ (-(k : ℤ)))) = .fin (1 + 2 ^ (-((k + 1 : ℕ) : ℤ))) := by
  obtain ⟨h1, h2, h3, h4⟩ := tiny64_points k (by omega)
  obtain ⟨-, h5, h6, -⟩ := tiny64_points (k + 1) (by omega)
  have ht := two_zpow_pos (-545)
  have hu : (2 : ℚ) ^ (-540 : ℤ) ≤ maxDouble := (zpow_le_one_of_nonpos₀ (by norm_num) (by norm_num)).trans (by linarith [maxDouble_eight, maxDouble_pos])
  have fd : ∀ x : ℚ, |x - 7 / 4| ≤ 1 → FiniteDouble (rnd64 ((x - 7 / 4) * 2 ^ (-540 : ℤ))) := fun x hx =>
    ⟨isDouble_rnd64 _, (tiny64_small hx).trans hu⟩
  have e1 : |(1 : ℚ) - 7 / 4| ≤ 1 ∧ 1 / 4 ≤ |(1 : ℚ) - 7 / 4| := by
    rw [show (1 : ℚ) - 7 / 4 = -(3 / 4) by norm_num, abs_neg, abs_of_pos (by norm_num)]
    norm_num
  have hm : F64.mid (.fin 1) (.fin (1 + 2 ^ (-(k : ℤ)))) = .fin (1 + 2 ^ (-((k + 1 : ℕ) : ℤ))) := by
    rw [mid64_fin (small_half (by norm_num)) (small_half h4), h1]
  refine ⟨?_, hm⟩
  rw [body_values (f := tiny64) (args := []) ht.le rfl rfl (by rw [hm]; rfl) (fd _ e1.1) (fd _ h3) (tiny64_large e1.2) (tiny64_large h2)
    (tiny64_product (tiny64_small e1.1) (tiny64_small h3)), if_neg (tiny64_product (tiny64_small e1.1) (tiny64_small h6)), hm]

theorem tiny64_cond {k : ℕ} (hk : k ≤ 30) :
    F64.loopCond (.fin (2 ^ (-545 : ℤ))) (F64.sub (.fin (1 + 2 ^ (-(k : ℤ)))) (.fin 1)) (.fin (1 + 2 ^ (-(k : ℤ)))) (.fin 1) =
      .ok (decide (k < 30)) := by
  rw [loopCond64 (two_zpow_pos _).le (small_half (by norm_num)) (small_half (tiny64_points k (by omega)).2.2.2)]
  simp only [tiny64_close k (by omega), not_not]

theorem tiny64_loop : ∀ (j fuel i k : ℕ), k + j = 30 → j ≤ fuel → i + j < 20000 →
    F64.bisectLoop tiny64 [] (.fin (2 ^ (-545 : ℤ))) (some 20000) true fuel i (.fin 1) (.fin (1 + 2 ^ (-(k : ℤ)))) =
      some (.ok (.fin (1 + 2 ^ (-31 : ℤ)), i + j)) := by
  intro j
  induction j with
  | zero =>
    intro fuel i k hk _ _
    obtain rfl : k = 30 := by omega
    unfold F64.bisectLoop
    rw [tiny64_cond le_rfl, (tiny64_body le_rfl).2]
    rfl
  | succ j ih =>
    intro fuel i k hk hf hi
    obtain ⟨fuel, rfl⟩ : ∃ n, fuel = n + 1 := ⟨fuel - 1, by omega⟩
    rw [loop_step (by rw [tiny64_cond (by omega)]; simp; omega) (tiny64_body (by omega)).1 (by intro m h; cases h; omega),
      ih fuel (i + 1) (k + 1) (by omega) (by omega) (by omega)]
    congr 3
    omega

/-- C137 does not hold for tolerances below 2⁻⁵⁰⁰: the product of two values of the function underflows to zero, and the sign is read
wrongly.  The function is zero at 7/4 and nowhere else, the answer between 1 and 2 is 1 + 2⁻³¹, where the function is more than the
tolerance away from zero, and it has the same sign all the way from 1 to 3/2. -/
theorem C137_underflow_counterexample :
    F64.bisection tiny64 [] (.fin 1) (.fin 2) (.fin (2 ^ (-545 : ℤ))) (some 20000) true 20000 = some (.ok (.fin (1 + 2 ^ (-31 : ℤ)), 30)) ∧
    (∀ x : ℚ, x ≤ 3 / 2 → rnd64 ((x - 7 / 4) * 2 ^ (-540 : ℤ)) < -2 ^ (-545 : ℤ)) ∧
    tiny64 (.fin (7 / 4)) [] = .ok (.fin 0) := by
  have ht := two_zpow_pos (-545)
  refine ⟨?_, ?_, ?_⟩
  · have hc := tiny64_close 0 (by norm_num)
    have h := tiny64_loop 30 20000 0 0 rfl (by norm_num) (by norm_num)
    have e : (1 : ℚ) + 2 ^ (-((0 : ℕ) : ℤ)) = 2 := by norm_num
    rw [e] at hc h
    rw [enter64 (small_half (by norm_num)) (small_half (by norm_num)) ht.le (by intro m h; cases h; norm_num),
      if_neg (fun h => hc.1 h (by norm_num))]
    exact h
  · intro x hx
    have h1 : 2 ^ (-542 : ℤ) ≤ -((x - 7 / 4) * (2 : ℚ) ^ (-540 : ℤ)) := by
      have hu := two_zpow_pos (-540)
      rw [tiny_pow (k := 2) (by norm_num)]
      generalize (2 : ℚ) ^ (-540 : ℤ) = u at *
      nlinarith
    have h2 := rnd64_mono h1
    rw [rnd64_pow (by norm_num), rnd64_neg] at h2
    exact lt_neg_of_lt_neg (lt_of_lt_of_le (zpow_lt_zpow_right₀ (by norm_num) (by norm_num)) h2)
  · simp [tiny64, rnd64_zero]

end BeamDesign
