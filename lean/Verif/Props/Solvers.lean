import Verif.Lemmas.Solvers
import Verif.Lemmas.Float64
import Verif.Lemmas.Positions
import Mathlib.Topology.Order.IntermediateValue
import Mathlib.Topology.Instances.Real.Lemmas

/-! # Properties C35 - C40: the equation solvers -/

set_option linter.unusedSectionVars false

namespace BeamDesign

open Spec

section
variable {K A : Type} [Field K] [LinearOrder K] [IsStrictOrderedRing K]

/-! ## C35 -/

/-- C35: a returned point lies in the initial bracket, and the reported number of iterations is at most
`max_its`; for any arithmetic whose midpoints lie between their ends, any function, any tolerance. -/
theorem C35_bracket {rt : Rt K} {Rep : K → Prop} (hm : MidBetween rt Rep) (f : SolveFun K A) (args : List A)
    (lo hi tol : K) (hlo : Rep lo) (hhi : Rep hi) (maxIts : Option ℤ) (failOn : Bool) (fuel : ℕ) (x : K) (n : ℕ)
    (h : bisection rt f args (.fin lo) (.fin hi) tol maxIts failOn fuel = some (.ok (x, n))) :
    InBracket lo hi x ∧ ∀ m, maxIts = some m → (n : ℤ) ≤ m := by
  unfold bisection at h
  simp only [checkGuesses, Val.isInf, Bool.or_self, Bool.false_eq_true, if_false] at h
  split at h
  · cases h
  · cases h
  · split_ifs at h with hmx
    · cases h
    have hm1 : ∀ m, maxIts = some m → 1 < m := by
      intro m hmm
      subst hmm
      simpa using hmx
    have := bisectLoop_inv
      (fun i a b => Rep a ∧ Rep b ∧ InBracket lo hi a ∧ InBracket lo hi b ∧
        ∀ m, maxIts = some m → (i : ℤ) < m)
      (fun r => ∀ x n, r = .ok (x, n) → InBracket lo hi x ∧ ∀ m, maxIts = some m → (n : ℤ) ≤ m)
      (fun _ _ _ _ _ _ _ _ h => by cases h) ?_ (fun _ _ _ _ _ _ _ _ _ h => by cases h) ?_ ?_ ?_ fuel 0 lo hi
      ⟨hlo, hhi, inBracket_left _ _, inBracket_right _ _, fun m hmm => by have := hm1 m hmm; push_cast; omega⟩ _ h
    · exact this x n rfl
    · rintro i a b ⟨ra, rb, ia, ib, hi'⟩ - x n hr
      cases hr
      exact ⟨inBracket_trans (hm a b ra rb).2 ia ib, fun m hmm => (hi' m hmm).le⟩
    · rintro i a b y ⟨ra, rb, ia, ib, hi'⟩ - hb x n hr
      cases hr
      refine ⟨?_, fun m hmm => by have := hi' m hmm; push_cast; omega⟩
      rcases body_ret hb with rfl | rfl <;> assumption
    · rintro i a b a' b' m ⟨ra, rb, ia, ib, hi'⟩ - hb hmm hle x n hr
      have hmid := hm a b ra rb
      have imid := inBracket_trans hmid.2 ia ib
      split_ifs at hr
      cases hr
      refine ⟨?_, fun m hmm => by have := hi' m hmm; push_cast; omega⟩
      rcases body_next hb with ⟨rfl, rfl⟩ | ⟨rfl, rfl⟩
      · exact inBracket_trans (hm _ _ hmid.1 rb).2 imid ib
      · exact inBracket_trans (hm _ _ ra hmid.1).2 ia imid
    · rintro i a b a' b' ⟨ra, rb, ia, ib, hi'⟩ - hb hnm
      have hmid := hm a b ra rb
      have imid := inBracket_trans hmid.2 ia ib
      rcases body_next hb with ⟨rfl, rfl⟩ | ⟨rfl, rfl⟩
      · exact ⟨hmid.1, rb, imid, ib, fun m hmm => by push_cast; exact hnm m hmm⟩
      · exact ⟨ra, hmid.1, ia, imid, fun m hmm => by push_cast; exact hnm m hmm⟩

/-- Exact arithmetic has midpoints between their ends. -/
theorem midBetween_exact {rt : Rt K} (hx : rt.Exact) : MidBetween rt (fun _ => True) := by
  intro a b _ _
  refine ⟨trivial, ?_⟩
  rw [hx.div, hx.add]
  rcases le_total a b with h | h
  · exact ⟨by rw [min_eq_left h]; linarith, by rw [max_eq_right h]; linarith⟩
  · exact ⟨by rw [min_eq_right h]; linarith, by rw [max_eq_left h]; linarith⟩

/-- C35: with an iteration limit `bisection` ends within `max_its` passes, and more fuel changes nothing. -/
theorem C35_ends (rt : Rt K) (f : SolveFun K A) (args : List A) (xLow xHigh : Val K) (tol : K) (m : ℤ)
    (failOn : Bool) :
    ∃ r, ∀ fuel : ℕ, m ≤ fuel → bisection rt f args xLow xHigh tol (some m) failOn fuel = some r := by
  unfold bisection
  split
  · exact ⟨_, fun _ _ => rfl⟩
  · split
    · exact ⟨_, fun _ _ => rfl⟩
    · exact ⟨_, fun _ _ => rfl⟩
    · simp only [Option.any_some, decide_eq_true_eq]
      split_ifs with h1
      · exact ⟨_, fun _ _ => rfl⟩
      · next lo hi _ _ _ =>
        have h2 := bisectLoop_ends (rt := rt) (f := f) (args := args) (tol := tol) (m := m) (failOn := failOn)
          m.toNat 0 lo hi (by push_cast; omega) (by push_cast; omega)
        obtain ⟨r, hr⟩ := Option.ne_none_iff_exists'.1 h2
        exact ⟨r, fun fuel hf => bisectLoop_mono _ _ _ _ _ hr fuel (by omega)⟩

/-- C35: which errors `bisection` raises before and in its first pass, and exactly when. -/
theorem C35_errors_iff {rt : Rt K} (hx : rt.Exact) (f : SolveFun K A) (args : List A) (tol : K)
    (maxIts : Option ℤ) (failOn : Bool) (fuel : ℕ) (hfuel : 0 < fuel) :
    (∀ xLow xHigh, xLow.isInf = true ∨ xHigh.isInf = true →
      bisection rt f args xLow xHigh tol maxIts failOn fuel = some (.error .guessInf)) ∧
    (∀ xLow xHigh, ¬ (xLow.isInf = true ∨ xHigh.isInf = true) → xLow.isNan = true ∨ xHigh.isNan = true →
      bisection rt f args xLow xHigh tol maxIts failOn fuel = some (.error .guessNan)) ∧
    ∀ lo hi,
      (bisection rt f args (.fin lo) (.fin hi) tol maxIts failOn fuel = some (.error .tolNegative) ↔ tol < 0) ∧
      (bisection rt f args (.fin lo) (.fin hi) tol maxIts failOn fuel = some (.error .guessSame) ↔
        0 ≤ tol ∧ Close tol hi lo) ∧
      (bisection rt f args (.fin lo) (.fin hi) tol maxIts failOn fuel = some (.error .maxItsSmall) ↔
        0 ≤ tol ∧ ¬ Close tol hi lo ∧ ∃ m, maxIts = some m ∧ m ≤ 1) ∧
      (bisection rt f args (.fin lo) (.fin hi) tol maxIts failOn fuel = some (.error .notBracketed) ↔
        0 ≤ tol ∧ ¬ Close tol hi lo ∧ (∀ m, maxIts = some m → 1 < m) ∧
        ∃ yl yh, Value f args lo yl ∧ Value f args hi yh ∧ tol < |yl| ∧ tol < |yh| ∧ 0 < yl * yh) := by
  refine ⟨?_, ?_, ?_⟩
  · intro xl xh h
    unfold bisection checkGuesses
    rw [if_pos (by rw [Bool.or_eq_true]; exact h)]
  · intro xl xh h1 h2
    unfold bisection checkGuesses
    rw [if_neg (by rw [Bool.or_eq_true]; exact h1)]
    cases xl <;> cases xh <;> simp [Val.isNan] at h2 <;> rfl
  · intro lo hi
    by_cases ht : tol < 0
    · have : bisection rt f args (.fin lo) (.fin hi) tol maxIts failOn fuel = some (.error .tolNegative) := by
        unfold bisection checkGuesses isclose
        simp [Val.isInf, ht]
      rw [this]
      have h0 : ¬ 0 ≤ tol := not_le.2 ht
      simp [ht, h0]
    · have h0 : 0 ≤ tol := not_lt.1 ht
      by_cases hc : Close tol hi lo
      · have : bisection rt f args (.fin lo) (.fin hi) tol maxIts failOn fuel = some (.error .guessSame) := by
          unfold bisection checkGuesses
          simp [Val.isInf, isclose_fin hx h0, hc]
        rw [this]
        simp [hc, h0]
      · have e1 : bisection rt f args (.fin lo) (.fin hi) tol maxIts failOn fuel =
            if maxIts.any (fun m => decide (m ≤ 1)) then some (.error .maxItsSmall)
            else bisectLoop rt f args tol maxIts failOn fuel 0 lo hi := by
          unfold bisection checkGuesses
          simp [Val.isInf, isclose_fin hx h0, hc]
        by_cases hm : ∃ m, maxIts = some m ∧ m ≤ 1
        · obtain ⟨m, rfl, hm⟩ := hm
          rw [e1]
          have : ¬ 1 < m := by omega
          simp [hm, hc, h0]
        · have hm' : maxIts.any (fun m => decide (m ≤ 1)) = false := by
            cases maxIts with
            | none => rfl
            | some m =>
              simp only [Option.any_some, decide_eq_false_iff_not]
              intro h; exact hm ⟨m, rfl, h⟩
          have hm1 : ∀ m, maxIts = some m → 1 < m := by
            intro m hmm
            by_contra hcc
            exact hm ⟨m, hmm, by omega⟩
          rw [e1, hm']
          simp only [Bool.false_eq_true, if_false, h0, hc, not_false_eq_true, true_and, and_false,
            iff_false, ht, hm]
          have hloop : ∀ e, bisectLoop rt f args tol maxIts failOn fuel 0 lo hi = some (.error e) →
              e ≠ .tolNegative ∧ e ≠ .guessSame ∧ e ≠ .maxItsSmall := by
            intro e he
            refine bisectLoop_inv (fun _ _ _ => True)
              (fun r => ∀ e, r = .error e → e ≠ .tolNegative ∧ e ≠ .guessSame ∧ e ≠ .maxItsSmall)
              ?_ ?_ ?_ ?_ ?_ ?_ fuel 0 lo hi trivial _ he e rfl
            · intro i a b e _ h
              rw [loopCond_exact hx h0 _ _ _ (by rw [hx.sub, abs_sub_comm])] at h
              cases h
            · intros; contradiction
            · intro i a b e _ _ h e' he'
              cases he'
              rcases bisectBody_cases hx (f := f) (args := args) (lo := a) (hi := b) h0 with
                ⟨e', h', -⟩ | ⟨h', -⟩ | ⟨h', -⟩ | ⟨h', -⟩ | ⟨h', -⟩ |
                ⟨yl, yh, h1, h2, -, -, ⟨-, h'⟩ | ⟨h3, v, hv, ⟨hp, h'⟩ | ⟨hp, h'⟩⟩⟩ <;>
                rw [h] at h' <;> cases h' <;> simp
            · intros; contradiction
            · intro i a b a' b' m _ _ _ _ _ e he
              split_ifs at he
              cases he
              simp
            · intros; trivial
          refine ⟨fun h => (hloop _ h).1 rfl, fun h => (hloop _ h).2.1 rfl, fun h => (hloop _ h).2.2 rfl, ?_⟩
          constructor
          · intro h
            refine ⟨hm1, ?_⟩
            by_contra hcon
            refine notBracketed_only_first hx h0 fuel 0 lo hi ?_ h
            intro yl yh h1 h2 hpos
            apply hcon
            refine ⟨yl, yh, h1, h2, ?_, ?_, hpos⟩
            · by_contra hle
              have : bisectLoop rt f args tol maxIts failOn fuel 0 lo hi = some (.ok (lo, 1)) := by
                obtain ⟨fuel, rfl⟩ : ∃ k, fuel = k + 1 := ⟨fuel - 1, by omega⟩
                unfold bisectLoop
                rw [loopCond_exact hx h0 _ _ _ (by rw [hx.sub, abs_sub_comm]), decide_eq_true hc]
                simp [bisectBody, callFunc, show f lo args = _ from h1, show f hi args = _ from h2, bind,
                  Except.bind, pure, Except.pure, isclose_zero hx h0, not_lt.1 hle]
              rw [this] at h
              cases h
            · by_contra hle
              have : ∃ x, bisectLoop rt f args tol maxIts failOn fuel 0 lo hi = some (.ok (x, 1)) := by
                obtain ⟨fuel, rfl⟩ : ∃ k, fuel = k + 1 := ⟨fuel - 1, by omega⟩
                unfold bisectLoop
                rw [loopCond_exact hx h0 _ _ _ (by rw [hx.sub, abs_sub_comm]), decide_eq_true hc]
                by_cases hl : |yl| ≤ tol
                · exact ⟨lo, by simp [bisectBody, callFunc, show f lo args = _ from h1,
                    show f hi args = _ from h2, bind, Except.bind, pure, Except.pure, isclose_zero hx h0, hl]⟩
                · exact ⟨hi, by simp [bisectBody, callFunc, show f lo args = _ from h1,
                    show f hi args = _ from h2, bind, Except.bind, pure, Except.pure, isclose_zero hx h0, hl,
                    not_lt.1 hle]⟩
              obtain ⟨x, hx'⟩ := this
              rw [hx'] at h
              cases h
          · rintro ⟨-, yl, yh, h1, h2, h3, h4, h5⟩
            obtain ⟨fuel, rfl⟩ : ∃ k, fuel = k + 1 := ⟨fuel - 1, by omega⟩
            unfold bisectLoop
            rw [loopCond_exact hx h0 _ _ _ (by rw [hx.sub, abs_sub_comm]), decide_eq_true hc]
            simp [bisectBody, callFunc, show f lo args = _ from h1, show f hi args = _ from h2, bind,
              Except.bind, isclose_zero hx h0, not_le.2 h3, not_le.2 h4, Val.isInf, hx.mul,
              h5, throw, throwThe, MonadExceptOf.throw]

/-- C35: the remaining errors: an infinite or nan function value, or an exception of the function, at a point of the
bracket; or too many iterations, only with `fail_on_max_its`.  There are no others. -/
theorem C35_errors {rt : Rt K} (hx : rt.Exact) (f : SolveFun K A) (args : List A) (lo hi tol : K)
    (maxIts : Option ℤ) (failOn : Bool) (fuel : ℕ) (e : SolverErr)
    (h : bisection rt f args (.fin lo) (.fin hi) tol maxIts failOn fuel = some (.error e)) :
    e = .tolNegative ∨ e = .guessSame ∨ e = .maxItsSmall ∨ e = .notBracketed ∨
    (e = .yInf ∧ ∃ x v, InBracket lo hi x ∧ f x args = .ok v ∧ v.isInf = true) ∨
    (e = .yNan ∧ ∃ x, InBracket lo hi x ∧ f x args = .ok .nan) ∨
    (∃ e' x, e = .func e' ∧ InBracket lo hi x ∧ f x args = .error e') ∨
    (e = .exceeded ∧ failOn = true ∧ maxIts ≠ none) := by
  unfold bisection checkGuesses at h
  simp only [Val.isInf, Bool.or_self, Bool.false_eq_true, if_false] at h
  by_cases ht : tol < 0
  · simp [isclose, ht] at h
    exact Or.inl h.symm
  have h0 := not_lt.1 ht
  rw [isclose_fin hx h0] at h
  by_cases hc : Close tol hi lo
  · simp [hc] at h
    exact Or.inr (Or.inl h.symm)
  simp only [decide_eq_false hc] at h
  split_ifs at h with hm
  · simp at h
    exact Or.inr (Or.inr (Or.inl h.symm))
  right; right; right
  refine bisectLoop_inv (fun _ a b => InBracket lo hi a ∧ InBracket lo hi b)
    (fun r => ∀ e, r = .error e → e = .notBracketed ∨
      (e = .yInf ∧ ∃ x v, InBracket lo hi x ∧ f x args = .ok v ∧ v.isInf = true) ∨
      (e = .yNan ∧ ∃ x, InBracket lo hi x ∧ f x args = .ok .nan) ∨
      (∃ e' x, e = .func e' ∧ InBracket lo hi x ∧ f x args = .error e') ∨
      (e = .exceeded ∧ failOn = true ∧ maxIts ≠ none))
    ?_ ?_ ?_ ?_ ?_ ?_ fuel 0 lo hi ⟨inBracket_left _ _, inBracket_right _ _⟩ _ h e rfl
  · intro i a b e _ h
    rw [loopCond_exact hx h0 _ _ _ (by rw [hx.sub, abs_sub_comm])] at h
    cases h
  · intros; contradiction
  · rintro i a b e ⟨ia, ib⟩ - h e' he'
    cases he'
    have im : InBracket lo hi ((a + b) / 2) := by
      have := (midBetween_exact hx a b trivial trivial).2
      rw [hx.div, hx.add] at this
      exact inBracket_trans this ia ib
    rcases bisectBody_cases hx (f := f) (args := args) (lo := a) (hi := b) h0 with
      ⟨e', h', h1 | h1 | h1⟩ | ⟨h', v, hv, h1 | h1⟩ | ⟨h', h1 | h1⟩ | ⟨h', -⟩ | ⟨h', -⟩ |
      ⟨yl, yh, h1, h2, -, -, ⟨-, h'⟩ | ⟨h3, v, hv, ⟨hp, h'⟩ | ⟨hp, h'⟩⟩⟩ <;>
      rw [h] at h' <;> cases h'
    · exact Or.inr (Or.inr (Or.inr (Or.inl ⟨e', a, rfl, ia, h1⟩)))
    · exact Or.inr (Or.inr (Or.inr (Or.inl ⟨e', b, rfl, ib, h1⟩)))
    · exact Or.inr (Or.inr (Or.inr (Or.inl ⟨e', _, rfl, im, h1⟩)))
    · exact Or.inr (Or.inl ⟨rfl, a, v, ia, h1, hv⟩)
    · exact Or.inr (Or.inl ⟨rfl, b, v, ib, h1, hv⟩)
    · exact Or.inr (Or.inr (Or.inl ⟨rfl, a, ia, h1⟩))
    · exact Or.inr (Or.inr (Or.inl ⟨rfl, b, ib, h1⟩))
    · exact Or.inl rfl
  · intros; contradiction
  · intro i a b a' b' m _ _ _ hm _ e he
    split_ifs at he with hf
    cases he
    exact Or.inr (Or.inr (Or.inr (Or.inr ⟨rfl, hf, by rw [hm]; simp⟩)))
  · rintro i a b a' b' ⟨ia, ib⟩ - hb -
    have im : InBracket lo hi (mid rt a b) := inBracket_trans (midBetween_exact hx a b trivial trivial).2 ia ib
    rcases body_next hb with ⟨rfl, rfl⟩ | ⟨rfl, rfl⟩
    · exact ⟨im, ib⟩
    · exact ⟨ia, im⟩

end

/-- binary64 midpoints lie between their ends (without overflow). -/
theorem midBetween_binary64 : MidBetween Rt.binary64 (fun x => rnd64 x = x) := by
  have key : ∀ a b : ℚ, a ≤ b → rnd64 a = a → rnd64 b = b →
      a ≤ rnd64 (rnd64 (a + b) / 2) ∧ rnd64 (rnd64 (a + b) / 2) ≤ b := by
    intro a b hab ha hb
    have h1 : 2 * a ≤ rnd64 (a + b) := by
      rw [← rnd64_double ha]; exact rnd64_mono (by linarith)
    have h2 : rnd64 (a + b) ≤ 2 * b := by
      rw [← rnd64_double hb]; exact rnd64_mono (by linarith)
    constructor
    · calc a = rnd64 a := ha.symm
        _ ≤ _ := rnd64_mono (by linarith)
    · calc rnd64 (rnd64 (a + b) / 2) ≤ rnd64 b := rnd64_mono (by linarith)
        _ = b := hb
  intro a b ha hb
  refine ⟨rnd64_idem _, ?_⟩
  show InBracket a b (rnd64 (rnd64 (a + b) / 2))
  rcases le_total a b with h | h
  · have := key a b h ha hb
    exact ⟨by rw [min_eq_left h]; exact this.1, by rw [max_eq_right h]; exact this.2⟩
  · have := key b a h hb ha
    rw [add_comm b a] at this
    exact ⟨by rw [min_eq_right h]; exact this.1, by rw [max_eq_left h]; exact this.2⟩

/-- C35 in binary64: guesses that are doubles, any function. -/
theorem C35_bracket_binary64 {A : Type} (f : SolveFun ℚ A) (args : List A) (lo hi tol : ℚ)
    (hlo : rnd64 lo = lo) (hhi : rnd64 hi = hi) (maxIts : Option ℤ) (failOn : Bool) (fuel : ℕ) (x : ℚ) (n : ℕ)
    (h : bisection Rt.binary64 f args (.fin lo) (.fin hi) tol maxIts failOn fuel = some (.ok (x, n))) :
    InBracket lo hi x ∧ ∀ m, maxIts = some m → (n : ℤ) ≤ m :=
  C35_bracket midBetween_binary64 f args lo hi tol hlo hhi maxIts failOn fuel x n h

/-- x ↦ x² - 2 -/
def sq2 : SolveFun ℚ Unit := fun x _ => .ok (.fin (x * x - 2))

example : bisection (Rt.exact ℚ) sq2 [] (.fin 0) (.fin 2) (1/10) (some 100) true 100
    = some (.ok (45/32, 5)) := by decide +kernel
example : bisection (Rt.exact ℚ) sq2 [] (.fin 2) (.fin 3) (1/10) (some 100) true 100
    = some (.error .notBracketed) := by decide +kernel
example : bisection (Rt.exact ℚ) sq2 [] (.fin 0) (.fin 2) (1/10) (some 3) true 100
    = some (.error .exceeded) := by decide +kernel

section
variable {K A : Type} [Field K] [LinearOrder K] [IsStrictOrderedRing K]

/-- The largest error of a returned midpoint: half of the larger of the absolute tolerance and 10⁻⁹ times the size of
the bracket ends. -/
theorem close_half {tol a b lo hi : K} (h : Close tol b a) (ha : InBracket lo hi a) (hb : InBracket lo hi b)
    (ht : 0 ≤ tol) {r : K} (hr : InBracket a b r) :
    |(a + b) / 2 - r| ≤ max tol (max |lo| |hi| / 10 ^ 9) / 2 := by
  have hM : ∀ c, InBracket lo hi c → |c| ≤ max |lo| |hi| := by
    intro c hc
    rw [abs_le]
    constructor
    · have h1 : -max |lo| |hi| ≤ min lo hi := by
        refine le_min ?_ ?_
        · have := neg_abs_le lo; have := le_max_left |lo| |hi|; linarith
        · have := neg_abs_le hi; have := le_max_right |lo| |hi|; linarith
      exact h1.trans hc.1
    · refine hc.2.trans (max_le ?_ ?_)
      · exact (le_abs_self lo).trans (le_max_left _ _)
      · exact (le_abs_self hi).trans (le_max_right _ _)
  have hw : |a - b| ≤ max tol (max |lo| |hi| / 10 ^ 9) := by
    rcases h with h | h | h | h
    · rw [h, sub_self, abs_zero]; exact ht.trans (le_max_left _ _)
    · refine h.trans ((div_le_div_of_nonneg_right (hM a ha) (by positivity)).trans (le_max_right _ _))
    · refine h.trans ((div_le_div_of_nonneg_right (hM b hb) (by positivity)).trans (le_max_right _ _))
    · exact h.trans (le_max_left _ _)
  refine le_trans ?_ (div_le_div_of_nonneg_right hw (by norm_num))
  obtain ⟨h1, h2⟩ := hr
  rcases le_total a b with hab | hab
  · rw [min_eq_left hab] at h1
    rw [max_eq_right hab] at h2
    rw [abs_sub_comm a b, abs_of_nonneg (by linarith : 0 ≤ b - a), abs_le]
    constructor <;> linarith
  · rw [min_eq_right hab] at h1
    rw [max_eq_left hab] at h2
    rw [abs_of_nonneg (by linarith : 0 ≤ a - b), abs_le]
    constructor <;> linarith

theorem inBracket_mid {lo hi : K} : InBracket lo hi ((lo + hi) / 2) := by
  have := (midBetween_exact (Rt.exact_exact K) lo hi trivial trivial).2
  exact this

/-- Entry of `bisection` for good arguments. -/
theorem bisection_enter {rt : Rt K} (hx : rt.Exact) {f : SolveFun K A} {args : List A} {lo hi tol : K}
    (ht : 0 ≤ tol) (hc : ¬ Close tol hi lo) {maxIts : Option ℤ} (hm : ∀ m, maxIts = some m → 1 < m)
    {failOn : Bool} {fuel : ℕ} :
    bisection rt f args (.fin lo) (.fin hi) tol maxIts failOn fuel
      = bisectLoop rt f args tol maxIts failOn fuel 0 lo hi := by
  unfold bisection checkGuesses
  have : maxIts.any (fun m => decide (m ≤ 1)) = false := by
    cases maxIts with
    | none => rfl
    | some m =>
      have := hm m rfl
      simp [this]
  simp [Val.isInf, isclose_fin hx ht, hc, this]

/-! ## C36 -/

end

/-- C36: a continuous function with a sign change over the bracket.  If `N` halvings bring the bracket below the
tolerance and `max_its` is `None` or larger than `N` (and than 1), `bisection` returns after at most `N`
iterations: a point where `|f| ≤ tol`, or one within half of max(tol, 10⁻⁹ size of the bracket ends) of a
root. -/
theorem C36_continuous {A : Type} {rt : Rt ℝ} (hx : rt.Exact) (g : ℝ → ℝ) (f : SolveFun ℝ A) (args : List A)
    (lo hi tol : ℝ) (ht : 0 ≤ tol) (hcont : ContinuousOn g (Set.uIcc lo hi))
    (hf : ∀ x ∈ Set.uIcc lo hi, f x args = .ok (.fin (g x))) (hsign : g lo * g hi ≤ 0)
    (hc : ¬ Close tol hi lo) (N : ℕ) (hN : |hi - lo| ≤ tol * 2 ^ N) (maxIts : Option ℤ)
    (hm : ∀ m, maxIts = some m → (N : ℤ) < m ∧ 1 < m) (failOn : Bool) (fuel : ℕ) (hfuel : N ≤ fuel) :
    ∃ x n, bisection rt f args (.fin lo) (.fin hi) tol maxIts failOn fuel = some (.ok (x, n)) ∧ n ≤ N ∧
      x ∈ Set.uIcc lo hi ∧
      (|g x| ≤ tol ∨ ∃ r ∈ Set.uIcc lo hi, g r = 0 ∧ |x - r| ≤ max tol (max |lo| |hi| / 10 ^ 9) / 2) := by
  rw [bisection_enter hx ht hc fun m h => (hm m h).2]
  have hu : ∀ x, InBracket lo hi x ↔ x ∈ Set.uIcc lo hi := fun x => Iff.rfl
  have key := bisectLoop_finds hx (f := f) (args := args) ht
    (maxIts := maxIts) (failOn := failOn) g
    (fun a b => InBracket lo hi a ∧ InBracket lo hi b ∧ g a * g b ≤ 0) ?_ ?_ ?_ ?_ N 0 lo hi
    ⟨inBracket_left _ _, inBracket_right _ _, hsign⟩ hN (fun m h => by
      have := (hm m h).1; push_cast; omega) fuel hfuel
  · obtain ⟨x, n, h1, h2, a, b, ⟨ia, ib, hs⟩, h3⟩ := key
    refine ⟨x, n, h1, by omega, ?_, ?_⟩
    · rcases h3 with ⟨rfl, -⟩ | ⟨rfl, -⟩ | ⟨rfl, -⟩
      · exact ia
      · exact ib
      · exact inBracket_trans inBracket_mid ia ib
    · rcases h3 with ⟨rfl, h⟩ | ⟨rfl, h⟩ | ⟨rfl, h⟩
      · exact Or.inl h
      · exact Or.inl h
      · right
        have hsub : Set.uIcc a b ⊆ Set.uIcc lo hi := fun c hc => inBracket_trans hc ia ib
        have h0 : (0 : ℝ) ∈ Set.uIcc (g a) (g b) := by
          rw [Set.mem_uIcc]
          rcases mul_nonpos_iff.1 hs with ⟨p, q⟩ | ⟨p, q⟩
          · exact Or.inr ⟨q, p⟩
          · exact Or.inl ⟨p, q⟩
        obtain ⟨r, hr, hr0⟩ := intermediate_value_uIcc (hcont.mono hsub) h0
        exact ⟨r, hsub hr, hr0, close_half h ia ib ht hr⟩
  · rintro a b ⟨ia, ib, -⟩
    exact ⟨hf a ia, hf b ib, hf _ (inBracket_trans inBracket_mid ia ib)⟩
  · rintro a b ⟨-, -, h⟩
    exact not_lt.2 h
  · rintro a b ⟨ia, ib, h⟩ hp
    refine ⟨inBracket_trans inBracket_mid ia ib, ib, ?_⟩
    by_contra hcc
    have h1 := mul_pos hp (not_le.1 hcc)
    have h2 : g a * g ((a + b) / 2) * (g ((a + b) / 2) * g b) = g a * g b * (g ((a + b) / 2)) ^ 2 := by ring
    rw [h2] at h1
    exact absurd h1 (not_lt.2 (mul_nonpos_of_nonpos_of_nonneg h (sq_nonneg _)))
  · rintro a b ⟨ia, ib, h⟩ - hp
    exact ⟨ia, inBracket_trans inBracket_mid ia ib, not_lt.1 hp⟩

/-- The hypotheses of C36 are met by x² - 2 on [0, 2]. -/
example : ∃ x n, bisection (Rt.exact ℝ) (fun x (_ : List Unit) => .ok (.fin (x * x - 2))) [] (.fin 0) (.fin 2)
      (1 / 4) none true 3 = some (.ok (x, n)) ∧ n ≤ 3 ∧ x ∈ Set.uIcc (0 : ℝ) 2 ∧
      (|x * x - 2| ≤ 1 / 4 ∨ ∃ r ∈ Set.uIcc (0 : ℝ) 2, r * r - 2 = 0 ∧
        |x - r| ≤ max (1 / 4) (max |0| |2| / 10 ^ 9) / 2) := by
  refine C36_continuous (Rt.exact_exact ℝ) (fun x => x * x - 2) _ [] 0 2 (1 / 4) (by norm_num) (by fun_prop)
    (fun x _ => rfl) (by norm_num) ?_ 3 (by norm_num) none (by simp) true 3 le_rfl
  unfold Close
  norm_num

/-! ## C63 -/

/-- C63, part: if 10⁻⁹ times the size of the bracket ends does not exceed `tol`, a returned point is within `tol / 2` of
a root or `|f| ≤ tol` there.  Missing: larger brackets, for which it is false (`C63_counterexample`). -/
theorem C63_absolute_partial {A : Type} {rt : Rt ℝ} (hx : rt.Exact) (g : ℝ → ℝ) (f : SolveFun ℝ A) (args : List A)
    (lo hi tol : ℝ) (ht : 0 ≤ tol) (hcont : ContinuousOn g (Set.uIcc lo hi))
    (hf : ∀ x ∈ Set.uIcc lo hi, f x args = .ok (.fin (g x))) (hsign : g lo * g hi ≤ 0)
    (hc : ¬ Close tol hi lo) (N : ℕ) (hN : |hi - lo| ≤ tol * 2 ^ N) (maxIts : Option ℤ)
    (hm : ∀ m, maxIts = some m → (N : ℤ) < m ∧ 1 < m) (failOn : Bool) (fuel : ℕ) (hfuel : N ≤ fuel)
    (hsize : max |lo| |hi| / 10 ^ 9 ≤ tol) :
    ∃ x n, bisection rt f args (.fin lo) (.fin hi) tol maxIts failOn fuel = some (.ok (x, n)) ∧
      (|g x| ≤ tol ∨ ∃ r ∈ Set.uIcc lo hi, g r = 0 ∧ |x - r| ≤ tol / 2) := by
  obtain ⟨x, n, h1, -, -, h2⟩ := C36_continuous hx g f args lo hi tol ht hcont hf hsign hc N hN maxIts hm failOn
    fuel hfuel
  rw [max_eq_left hsize] at h2
  exact ⟨x, n, h1, h2⟩

example : max |(0 : ℝ)| |2| / 10 ^ 9 ≤ 1 / 4 := by norm_num

/-- C63 is false: for x - 10¹² - 1 between 10¹² and 10¹² + 4000 with `tol = 10⁻⁹` the answer is 499 away from the
only root, and the function value there is 499. -/
theorem C63_counterexample :
    bisection (Rt.exact ℚ) (fun x (_ : List Unit) => .ok (.fin (x - 10 ^ 12 - 1))) [] (.fin (10 ^ 12))
      (.fin (10 ^ 12 + 4000)) (1 / 10 ^ 9) (some 20000) true 20000 = some (.ok (10 ^ 12 + 500, 2)) := by
  decide +kernel

section
variable {K A : Type} [Field K] [LinearOrder K] [IsStrictOrderedRing K]

/-! ## C37 -/

/-- C37, part: for a function that is monotone between the guesses (continuous or not) a root between the guesses is
found: the answer is within half of max(tol, 10⁻⁹ size of the bracket ends) of a root, or `|f| ≤ tol` there.
Missing: functions which are not monotone, for which the claim is false (`C37_counterexample`); with a sign change
and continuity see C36. -/
theorem C37_monotone_partial {rt : Rt K} (hx : rt.Exact) (g : K → K) (f : SolveFun K A) (args : List A)
    (lo hi tol : K) (hle : lo ≤ hi) (ht : 0 ≤ tol) (hmono : MonotoneOn g (Set.Icc lo hi))
    (hf : ∀ x ∈ Set.Icc lo hi, f x args = .ok (.fin (g x))) (r : K) (hr : r ∈ Set.Icc lo hi) (hr0 : g r = 0)
    (hc : ¬ Close tol hi lo) (N : ℕ) (hN : |hi - lo| ≤ tol * 2 ^ N) (maxIts : Option ℤ)
    (hm : ∀ m, maxIts = some m → (N : ℤ) < m ∧ 1 < m) (failOn : Bool) (fuel : ℕ) (hfuel : N ≤ fuel) :
    ∃ x n, bisection rt f args (.fin lo) (.fin hi) tol maxIts failOn fuel = some (.ok (x, n)) ∧ n ≤ N ∧
      (|g x| ≤ tol ∨ ∃ r ∈ Set.Icc lo hi, g r = 0 ∧ |x - r| ≤ max tol (max |lo| |hi| / 10 ^ 9) / 2) := by
  rw [bisection_enter hx ht hc fun m h => (hm m h).2]
  have key := bisectLoop_finds hx (f := f) (args := args)
    ht (maxIts := maxIts) (failOn := failOn) g
    (fun a b => a ∈ Set.Icc lo hi ∧ b ∈ Set.Icc lo hi ∧ a ≤ b ∧ ∃ r, a ≤ r ∧ r ≤ b ∧ g r = 0)
    ?_ ?_ ?_ ?_ N 0 lo hi ⟨⟨le_rfl, hle⟩, ⟨hle, le_rfl⟩, hle, r, hr.1, hr.2, hr0⟩ hN (fun m h => by
      have := (hm m h).1; push_cast; omega) fuel hfuel
  · obtain ⟨x, n, h1, h2, a, b, ⟨ia, ib, hab, r', hr1, hr2, hr3⟩, h3⟩ := key
    refine ⟨x, n, h1, by omega, ?_⟩
    rcases h3 with ⟨rfl, h⟩ | ⟨rfl, h⟩ | ⟨rfl, h⟩
    · exact Or.inl h
    · exact Or.inl h
    · right
      have cv : ∀ c, c ∈ Set.Icc lo hi → InBracket lo hi c := fun c hc =>
        ⟨by rw [min_eq_left hle]; exact hc.1, by rw [max_eq_right hle]; exact hc.2⟩
      refine ⟨r', ⟨ia.1.trans hr1, hr2.trans ib.2⟩, hr3, close_half h (cv a ia) (cv b ib) ht ?_⟩
      exact ⟨by rw [min_eq_left hab]; exact hr1, by rw [max_eq_right hab]; exact hr2⟩
  · rintro a b ⟨ia, ib, hab, -⟩
    refine ⟨hf a ia, hf b ib, hf _ ⟨?_, ?_⟩⟩
    · have := ia.1; have := ib.1; linarith
    · have := ia.2; have := ib.2; linarith
  · rintro a b ⟨ia, ib, hab, r, h1, h2, h3⟩
    have hir : r ∈ Set.Icc lo hi := ⟨ia.1.trans h1, h2.trans ib.2⟩
    have e1 : g a ≤ 0 := by rw [← h3]; exact hmono ia hir h1
    have e2 : 0 ≤ g b := by rw [← h3]; exact hmono hir ib h2
    exact not_lt.2 (mul_nonpos_of_nonpos_of_nonneg e1 e2)
  · rintro a b ⟨ia, ib, hab, r, h1, h2, h3⟩ hp
    have hir : r ∈ Set.Icc lo hi := ⟨ia.1.trans h1, h2.trans ib.2⟩
    have im : (a + b) / 2 ∈ Set.Icc lo hi :=
      ⟨by have := ia.1; have := ib.1; linarith, by have := ia.2; have := ib.2; linarith⟩
    have e1 : g a ≤ 0 := by rw [← h3]; exact hmono ia hir h1
    have e2 : g ((a + b) / 2) < 0 := by
      by_contra hcc
      exact absurd hp (not_lt.2 (mul_nonpos_of_nonpos_of_nonneg e1 (not_lt.1 hcc)))
    refine ⟨im, ib, by linarith, r, ?_, h2, h3⟩
    by_contra hcc
    have := hmono hir im (not_le.1 hcc).le
    linarith
  · rintro a b ⟨ia, ib, hab, r, h1, h2, h3⟩ htol hp
    have hir : r ∈ Set.Icc lo hi := ⟨ia.1.trans h1, h2.trans ib.2⟩
    have im : (a + b) / 2 ∈ Set.Icc lo hi :=
      ⟨by have := ia.1; have := ib.1; linarith, by have := ia.2; have := ib.2; linarith⟩
    have e1 : g a ≤ 0 := by rw [← h3]; exact hmono ia hir h1
    have e1' : g a < 0 := by
      refine lt_of_le_of_ne e1 fun h => ?_
      rw [h, abs_zero] at htol
      linarith
    have e2 : 0 ≤ g ((a + b) / 2) := by
      by_contra hcc
      exact hp (mul_pos_of_neg_of_neg e1' (not_le.1 hcc))
    refine ⟨ia, im, by linarith, ?_⟩
    rcases le_total r ((a + b) / 2) with hle | hle
    · exact ⟨r, h1, hle, h3⟩
    · refine ⟨(a + b) / 2, by linarith, le_rfl, le_antisymm ?_ e2⟩
      rw [← h3]
      exact hmono im hir hle

example : MonotoneOn (fun x : ℚ => if x < 1 then x - 1 else x) (Set.Icc 0 2) := by
  intro a _ b _ hab
  simp only
  split_ifs <;> linarith

/-- C37 is false: x² - 1 has the root 1 between -2 and 2, but `bisection` raises `ValueError`. -/
theorem C37_counterexample :
    bisection (Rt.exact ℚ) (fun x (_ : List Unit) => .ok (.fin (x * x - 1))) [] (.fin (-2)) (.fin 2)
      (1 / 10 ^ 9) (some 20000) true 20000 = some (.error .notBracketed) ∧
    ((1 : ℚ) * 1 - 1 = 0 ∧ (-2 : ℚ) ≤ 1 ∧ (1 : ℚ) ≤ 2) := by
  decide +kernel

/-! ## C38 -/

/-- `bisection`'s answer as an answer of `secant`. -/
def asFallback (r : Except SolverErr (K × ℕ)) : Except SolverErr (K × ℕ × Bool) :=
  match r with
  | .ok (x, i) => .ok (x, i, true)
  | .error e => .error e

theorem secantFallback_nil (rt : Rt K) (f : SolveFun K A) (lo hi tol : K) :
    secantFallback rt f [] lo hi tol
      = (bisection rt f [] (.fin lo) (.fin hi) tol (some 20000) true 20000).map asFallback := rfl

theorem onMax_flag {rt : Rt K} {f : SolveFun K A} {args : List A} {lo hi tol : K} {fallback : Bool} (x : K)
    (n : ℕ) : (if fallback then secantFallback rt f args lo hi tol else some (.error .exceeded))
      ≠ some (.ok (x, n, false)) := by
  cases fallback with
  | false => simp
  | true =>
    cases args with
    | cons a t => simp [secantFallback]
    | nil =>
      rw [if_pos rfl, secantFallback_nil]
      cases bisection rt f [] (.fin lo) (.fin hi) tol (some 20000) true 20000 with
      | none => simp
      | some r => cases r <;> simp [asFallback]

theorem isclose_false {rt : Rt K} (hx : rt.Exact) {tol lo hi : K}
    (h : isclose rt tol (.fin hi) (.fin lo) = .ok false) : 0 ≤ tol ∧ ¬ Close tol hi lo := by
  by_cases ht : tol < 0
  · simp [isclose, ht] at h
  · rw [isclose_fin hx (not_lt.1 ht)] at h
    simpa [not_lt.1 ht] using h

/-- C38: when `secant` answers without falling back, the answer is an iterate of the secant rule from the guesses,
it agrees with the iterate before it within the tolerance, no two earlier consecutive iterates did, at
least one iteration was made, and fewer than `max_its`. -/
theorem C38_agreement {rt : Rt K} (hx : rt.Exact) (f : SolveFun K A) (args : List A) (lo hi tol : K)
    (maxIts : Option ℤ) (fallback : Bool) (fuel : ℕ) (x : K) (n : ℕ)
    (h : secant rt f args (.fin lo) (.fin hi) tol maxIts fallback fuel = some (.ok (x, n, false))) :
    ∃ s : ℕ → K, s 0 = lo ∧ s 1 = hi ∧ SecantSeq f args s n ∧ x = s (n + 1) ∧ 1 ≤ n ∧
      Close tol (s n) (s (n + 1)) ∧ (∀ j < n, ¬ Close tol (s j) (s (j + 1))) ∧
      ∀ m, maxIts = some m → (n : ℤ) < m := by
  unfold secant checkGuesses at h
  simp only [Val.isInf, Bool.or_self, Bool.false_eq_true, if_false] at h
  split at h
  · cases h
  · cases h
  next hcl =>
    obtain ⟨ht, -⟩ := isclose_false hx hcl
    set s : ℕ → K := fun j => if j = 0 then lo else hi with hs
    have := secantLoop_seq hx ht (fun x n => onMax_flag x n) fuel 0 s none (fun j hj => by omega)
      (fun j hj => by omega) (by simp) (fun m _ hi => by omega) x n h
    simpa [hs] using this

/-- C38: `secant` never reads an undefined variable and never divides by zero, and with an iteration limit it
ends. -/
theorem C38_defined {rt : Rt K} (hx : rt.Exact) (f : SolveFun K A) (args : List A) (xLow xHigh : Val K) (tol : K)
    (maxIts : Option ℤ) (fallback : Bool) (fuel : ℕ) :
    secant rt f args xLow xHigh tol maxIts fallback fuel ≠ some (.error .unbound) ∧
    secant rt f args xLow xHigh tol maxIts fallback fuel ≠ some (.error .zeroDiv) ∧
    (∀ m, maxIts = some m → m ≤ fuel → 0 < fuel →
      secant rt f args xLow xHigh tol maxIts fallback fuel ≠ none) := by
  have hfall : ∀ lo hi, (if fallback then secantFallback rt f args lo hi tol else some (.error .exceeded)) ≠ none ∧
      (if fallback then secantFallback rt f args lo hi tol else some (.error .exceeded)) ≠ some (.error .unbound) ∧
      (if fallback then secantFallback rt f args lo hi tol else some (.error .exceeded)) ≠ some (.error .zeroDiv) := by
    intro lo hi
    cases fallback with
    | false => simp
    | true =>
      cases args with
      | cons a t => simp [secantFallback]
      | nil =>
        rw [if_pos rfl, secantFallback_nil]
        obtain ⟨r, hr⟩ := C35_ends rt f [] (.fin lo) (.fin hi) tol 20000 true
        have hr' := hr 20000 (by norm_num)
        rw [hr']
        refine ⟨by simp, ?_, ?_⟩
        · intro hc
          cases r with
          | ok v => simp [asFallback] at hc
          | error e =>
            simp [asFallback] at hc
            subst hc
            have := C35_errors hx f [] lo hi tol (some 20000) true 20000 _ hr'
            simp at this
        · intro hc
          cases r with
          | ok v => simp [asFallback] at hc
          | error e =>
            simp [asFallback] at hc
            subst hc
            have := C35_errors hx f [] lo hi tol (some 20000) true 20000 _ hr'
            simp at this
  have hbody : ∀ tol x1 x2 e, secantBody rt f args tol x1 x2 = .error e → 0 ≤ tol → e ≠ .unbound ∧ e ≠ .zeroDiv := by
    intro tol x1 x2 e h ht
    unfold secantBody callFunc at h
    cases hc : f x2 args with
    | error e' =>
      rw [hc] at h
      cases h; simp
    | ok c =>
      cases hd : f x1 args with
      | error e' =>
        rw [hc, hd] at h
        cases h; simp
      | ok d =>
        rw [hc, hd] at h
        cases c <;> cases d <;>
          simp only [mulVal, bind, Except.bind, pure, Except.pure, throw, throwThe, MonadExceptOf.throw,
            Val.isInf, Bool.or_true, Bool.true_or, if_true, isclose, not_lt.2 ht, if_false,
            Bool.or_self, Bool.false_eq_true, hx.sub] at h
        case fin.fin c d =>
          split_ifs at h with h1 h2
          · cases h; simp
          · exfalso
            apply h1
            have : c = d := sub_eq_zero.1 h2
            simp [this]
        all_goals (cases h; simp)
  have hloop : ∀ lo hi, 0 ≤ tol → ∀ fuel i x1 x2 x3, (x3 = none → ¬ Close tol x1 x2) →
      secantLoop rt f args tol maxIts
        (if fallback then secantFallback rt f args lo hi tol else some (.error .exceeded)) fuel i x1 x2 x3
        ≠ some (.error .unbound) ∧
      secantLoop rt f args tol maxIts
        (if fallback then secantFallback rt f args lo hi tol else some (.error .exceeded)) fuel i x1 x2 x3
        ≠ some (.error .zeroDiv) := by
    intro lo hi ht fuel
    induction fuel with
    | zero =>
      intro i x1 x2 x3 hn
      unfold secantLoop
      rw [loopCond_exact hx ht _ _ _ (by rw [hx.sub])]
      by_cases hc : Close tol x1 x2
      · rw [decide_eq_false (not_not.2 hc)]
        cases x3 with
        | none => exact absurd hc (hn rfl)
        | some x => simp
      · rw [decide_eq_true hc]; simp
    | succ fuel ih =>
      intro i x1 x2 x3 hn
      unfold secantLoop
      rw [loopCond_exact hx ht _ _ _ (by rw [hx.sub])]
      by_cases hc : Close tol x1 x2
      · rw [decide_eq_false (not_not.2 hc)]
        cases x3 with
        | none => exact absurd hc (hn rfl)
        | some x => simp
      · rw [decide_eq_true hc]
        simp only
        cases hb : secantBody rt f args tol x1 x2 with
        | error e =>
          have := hbody tol x1 x2 e hb ht
          simp only
          exact ⟨fun h => this.1 (by simpa using h), fun h => this.2 (by simpa using h)⟩
        | ok x' =>
          simp only
          by_cases hm : maxIts.any (fun m => decide (m ≤ (i + 1 : ℤ))) = true
          · rw [if_pos hm]
            exact ⟨(hfall lo hi).2.1, (hfall lo hi).2.2⟩
          · rw [if_neg hm]
            exact ih _ _ _ _ (by simp)
  unfold secant
  cases hg : checkGuesses xLow xHigh with
  | error e =>
    simp only
    have he : e = .guessInf ∨ e = .guessNan := by
      unfold checkGuesses at hg
      split_ifs at hg
      · cases hg; exact Or.inl rfl
      · split at hg
        · cases hg
        · cases hg; exact Or.inr rfl
    rcases he with rfl | rfl <;> simp
  | ok lh =>
    obtain ⟨lo, hi⟩ := lh
    simp only
    cases hcl : isclose rt tol (.fin hi) (.fin lo) with
    | error e =>
      have he : e = .tolNegative := by
        unfold isclose at hcl
        split_ifs at hcl
        cases hcl; rfl
      subst he
      simp
    | ok c =>
      cases c with
      | true => simp
      | false =>
        obtain ⟨ht, hnc⟩ := isclose_false hx hcl
        have := hloop lo hi ht fuel 0 lo hi none (fun _ h => hnc ((close_comm _ _ _).1 h))
        refine ⟨this.1, this.2, ?_⟩
        intro m hm h1 h2
        subst hm
        exact secantLoop_ends (hfall lo hi).1 fuel 0 lo hi none (by push_cast; omega) h2

example : secant (Rt.exact ℚ) sq2 [] (.fin 1) (.fin 2) (1/1000) (some 100) false 100
    = some (.ok (816/577, 4, false)) := by decide +kernel

/-! ## C39 -/

/-- C39: for `m x + c` with `m ≠ 0`, guesses which are not close and `max_its` above 2 (or `None`), the answer is the
exact root -c/m after one or two iterations, or the documented `ValueError` when the function values at two
consecutive guesses agree within the tolerance. -/
theorem C39_linear {rt : Rt K} (hx : rt.Exact) (m c : K) (hm : m ≠ 0) (f : SolveFun K A) (args : List A)
    (hf : ∀ x, f x args = .ok (.fin (m * x + c))) (lo hi tol : K) (ht : 0 ≤ tol) (hnc : ¬ Close tol hi lo)
    (maxIts : Option ℤ) (hmax : ∀ k, maxIts = some k → 2 < k) (fallback : Bool) (fuel : ℕ) (hfuel : 2 ≤ fuel) :
    (secant rt f args (.fin lo) (.fin hi) tol maxIts fallback fuel = some (.error .sameValue) ∧
      (Close tol (m * hi + c) (m * lo + c) ∨ Close tol 0 (m * hi + c) ∧ ¬ Close tol hi (-c / m))) ∨
    (¬ Close tol (m * hi + c) (m * lo + c) ∧ ∃ n, (n = 1 ∨ n = 2) ∧
      secant rt f args (.fin lo) (.fin hi) tol maxIts fallback fuel = some (.ok (-c / m, n, false))) := by
  obtain ⟨fuel, rfl⟩ : ∃ k, fuel = k + 2 := ⟨fuel - 2, by omega⟩
  have hany : ∀ j : ℕ, j < 3 → ¬ (maxIts.any (fun k => decide (k ≤ (j : ℤ))) = true) := by
    intro j hj
    cases maxIts with
    | none => simp
    | some k =>
      have := hmax k rfl
      simp only [Option.any_some, decide_eq_true_eq]
      omega
  have h1 := hany 1 (by norm_num)
  have h2 := hany 2 (by norm_num)
  push_cast at h1 h2
  have hlc : ∀ x y, loopCond rt tol (rt.sub y x) x y = .ok (decide (¬ Close tol x y)) := fun x y =>
    loopCond_exact hx ht _ _ _ (by rw [hx.sub])
  have hne : lo ≠ hi := fun h => hnc (Or.inl h.symm)
  have hroot : ∀ x y : K, x ≠ y →
      (x * (m * y + c) - y * (m * x + c)) / (m * y + c - (m * x + c)) = -c / m := by
    intro x y hxy
    have : y - x ≠ 0 := sub_ne_zero.2 (Ne.symm hxy)
    have e : m * y + c - (m * x + c) = m * (y - x) := by ring
    rw [e]
    field_simp
    ring
  unfold secant checkGuesses
  simp only [Val.isInf, Bool.or_self, Bool.false_eq_true, if_false, isclose_fin hx ht, decide_eq_false hnc]
  unfold secantLoop
  rw [hlc, decide_eq_true (show ¬ Close tol lo hi from fun h => hnc ((close_comm _ _ _).1 h))]
  simp only [secantBody_fin hx ht (hf lo) (hf hi)]
  by_cases hc1 : Close tol (m * hi + c) (m * lo + c)
  · left
    rw [if_pos hc1]
    exact ⟨rfl, Or.inl hc1⟩
  · rw [if_neg hc1, hroot lo hi hne]
    simp only [CharP.cast_eq_zero, zero_add, if_neg h1]
    unfold secantLoop
    rw [hlc]
    by_cases hc2 : Close tol hi (-c / m)
    · right
      rw [decide_eq_false (not_not.2 hc2)]
      exact ⟨hc1, 1, Or.inl rfl, rfl⟩
    · rw [decide_eq_true hc2]
      have hz : m * (-c / m) + c = 0 := by field_simp; ring
      have hfr : Value f args (-c / m) 0 := by
        have := hf (-c / m)
        rw [hz] at this
        exact this
      simp only [secantBody_fin hx ht (hf hi) hfr]
      by_cases hc3 : Close tol 0 (m * hi + c)
      · left
        rw [if_pos hc3]
        exact ⟨rfl, Or.inr ⟨hc3, hc2⟩⟩
      · right
        rw [if_neg hc3]
        have hne2 : hi ≠ -c / m := fun h => hc2 (Or.inl h)
        have e3 : (hi * 0 - -c / m * (m * hi + c)) / (0 - (m * hi + c)) = -c / m := by
          have := hroot hi (-c / m) hne2
          rw [hz] at this
          exact this
        rw [e3]
        simp only [Nat.cast_one, one_add_one_eq_two, if_neg h2]
        unfold secantLoop
        rw [hlc, decide_eq_false (not_not.2 (show Close tol (-c / m) (-c / m) from Or.inl rfl))]
        exact ⟨hc1, 2, Or.inr rfl, rfl⟩

example : secant (Rt.exact ℚ) (fun x (_ : List Unit) => .ok (.fin (3 * x - 5))) [] (.fin 0) (.fin 1) (1/10^9)
    (some 20000) false 20000 = some (.ok (5/3, 2, false)) := by decide +kernel
example : secant (Rt.exact ℚ) (fun x (_ : List Unit) => .ok (.fin (1/10^10 * x - 5))) [] (.fin 0) (.fin 1)
    (1/10^9) (some 20000) false 20000 = some (.error .sameValue) := by decide +kernel

/-! ## C40 -/

theorem secantLoop_onMax {rt : Rt K} {f : SolveFun K A} {args : List A} {tol : K} {maxIts : Option ℤ}
    (onMax : Option (Except SolverErr (K × ℕ × Bool))) (fuel : ℕ) : ∀ i x1 x2 x3,
      (secantLoop rt f args tol maxIts (some (.error .exceeded)) fuel i x1 x2 x3 = some (.error .exceeded) ∧
        secantLoop rt f args tol maxIts onMax fuel i x1 x2 x3 = onMax) ∨
      (secantLoop rt f args tol maxIts (some (.error .exceeded)) fuel i x1 x2 x3 ≠ some (.error .exceeded) ∧
        secantLoop rt f args tol maxIts onMax fuel i x1 x2 x3 =
        secantLoop rt f args tol maxIts (some (.error .exceeded)) fuel i x1 x2 x3) := by
  have hcond : ∀ d x y e, loopCond rt tol d x y = .error e → e ≠ .exceeded := by
    intro d x y e h
    unfold loopCond isclose at h
    split_ifs at h <;> simp [bind, Except.bind, pure, Except.pure] at h
    rw [← h]; simp
  have hbody : ∀ x1 x2 e, secantBody rt f args tol x1 x2 = .error e → e ≠ .exceeded := by
    intro x1 x2 e h
    have hcf : ∀ x e, callFunc f x args = .error e → e ≠ .exceeded := by
      intro x e h
      unfold callFunc at h
      split at h
      · cases h
      · cases h; simp
    have hic : ∀ a b e, isclose rt tol a b = .error e → e ≠ .exceeded := by
      intro a b e h
      unfold isclose at h
      split_ifs at h
      · cases h; simp
      · split at h <;> cases h
    unfold secantBody at h
    simp only [bind, Except.bind, pure, Except.pure, throw, throwThe, MonadExceptOf.throw] at h
    split at h
    next he => cases h; exact hcf _ _ he
    split at h
    next he => cases h; exact hcf _ _ he
    split at h
    · cases h; simp
    split at h
    next he => cases h; exact hic _ _ _ he
    split at h
    · cases h; simp
    split at h
    · split at h
      · cases h; simp
      · cases h
    · cases h; simp
  induction fuel with
  | zero =>
    intro i x1 x2 x3
    right
    unfold secantLoop
    cases hl : loopCond rt tol (rt.sub x2 x1) x1 x2 with
    | error e =>
      have := hcond _ _ _ _ hl
      simp only
      exact ⟨fun h => this (by simpa using h), by trivial⟩
    | ok b =>
      cases b with
      | false => cases x3 <;> simp
      | true => simp
  | succ fuel ih =>
    intro i x1 x2 x3
    unfold secantLoop
    cases hl : loopCond rt tol (rt.sub x2 x1) x1 x2 with
    | error e =>
      have := hcond _ _ _ _ hl
      right
      simp only
      exact ⟨fun h => this (by simpa using h), by trivial⟩
    | ok b =>
      cases b with
      | false => right; cases x3 <;> simp
      | true =>
        simp only
        cases hb : secantBody rt f args tol x1 x2 with
        | error e =>
          have := hbody _ _ _ hb
          right
          simp only
          exact ⟨fun h => this (by simpa using h), by trivial⟩
        | ok x' =>
          simp only
          split_ifs with hm
          · left; exact ⟨rfl, rfl⟩
          · exact ih _ _ _ _

/-- C40, part: without extra positional arguments (keyword arguments are handed on).  `secant(..., fallback=True)`
behaves like `secant(..., fallback=False)`, except that where the latter raises because `max_its` is exhausted it
answers what `bisection` answers for the original guesses, marked `True`.
Missing: extra positional arguments, for which the claim is false (`C40_args_counterexample`). -/
theorem C40_fallback_partial (rt : Rt K) (f : SolveFun K A) (lo hi tol : K) (maxIts : Option ℤ) (fuel : ℕ) :
    (secant rt f [] (.fin lo) (.fin hi) tol maxIts false fuel = some (.error .exceeded) →
      ∃ r, bisection rt f [] (.fin lo) (.fin hi) tol (some 20000) true 20000 = some r ∧
      secant rt f [] (.fin lo) (.fin hi) tol maxIts true fuel = some (asFallback r)) ∧
    (secant rt f [] (.fin lo) (.fin hi) tol maxIts false fuel ≠ some (.error .exceeded) →
      secant rt f [] (.fin lo) (.fin hi) tol maxIts true fuel
        = secant rt f [] (.fin lo) (.fin hi) tol maxIts false fuel) := by
  unfold secant checkGuesses
  simp only [Val.isInf, Bool.or_self, Bool.false_eq_true, if_false, if_true]
  cases hcl : isclose rt tol (.fin hi) (.fin lo) with
  | error e =>
    simp only
    have he : e = .tolNegative := by
      unfold isclose at hcl
      split_ifs at hcl
      cases hcl; rfl
    subst he
    simp
  | ok c =>
    cases c with
    | true => simp
    | false =>
      simp only
      obtain ⟨r, hr⟩ := C35_ends rt f [] (.fin lo) (.fin hi) tol 20000 true
      have hr' := hr 20000 (by norm_num)
      have hfb : secantFallback rt f [] lo hi tol = some (asFallback r) := by
        rw [secantFallback_nil, hr']; rfl
      rcases secantLoop_onMax (rt := rt) (f := f) (args := []) (tol := tol) (maxIts := maxIts)
        (secantFallback rt f [] lo hi tol) fuel 0 lo hi none with ⟨h1, h2⟩ | ⟨h1, h2⟩
      · refine ⟨fun _ => ⟨r, hr', by rw [h2, hfb]⟩, fun h => absurd h1 h⟩
      · exact ⟨fun h => absurd h h1, fun _ => h2⟩

/-- C40 is false with extra positional arguments: whenever the fall back is needed, `TypeError` is raised instead. -/
theorem C40_args_counterexample (rt : Rt K) (f : SolveFun K A) (a : A) (args : List A) (lo hi tol : K)
    (maxIts : Option ℤ) (fuel : ℕ)
    (h : secant rt f (a :: args) (.fin lo) (.fin hi) tol maxIts false fuel = some (.error .exceeded)) :
    secant rt f (a :: args) (.fin lo) (.fin hi) tol maxIts true fuel = some (.error .fallbackArgs) ∧
    SolverErr.fallbackArgs.toPy = .typeError := by
  refine ⟨?_, rfl⟩
  unfold secant checkGuesses at h ⊢
  simp only [Val.isInf, Bool.or_self, Bool.false_eq_true, if_false, if_true] at h ⊢
  cases hcl : isclose rt tol (.fin hi) (.fin lo) with
  | error e => rw [hcl] at h; exact absurd h (by
      have he : e = .tolNegative := by
        unfold isclose at hcl
        split_ifs at hcl
        cases hcl; rfl
      subst he; simp)
  | ok c =>
    rw [hcl] at h
    cases c with
    | true => simp at h
    | false =>
      simp only at h ⊢
      rcases secantLoop_onMax (rt := rt) (f := f) (args := a :: args) (tol := tol) (maxIts := maxIts)
        (secantFallback rt f (a :: args) lo hi tol) fuel 0 lo hi none with ⟨h1, h2⟩ | ⟨h1, h2⟩
      · rw [h2]; rfl
      · exact absurd h h1

/-- A function for which the limit is reached, with a needed extra argument: x² - a. -/
example : secant (Rt.exact ℚ) (fun x (a : List ℚ) => .ok (.fin (x * x - a.headD 0))) [2] (.fin 1) (.fin 2)
    (1/1000) (some 3) false 100 = some (.error .exceeded) := by decide +kernel
example : secant (Rt.exact ℚ) sq2 [] (.fin 1) (.fin 2) (1/10) (some 1) true 100
    = some (.ok (45/32, 4, true)) := by decide +kernel
/-- and `bisection` would have found the root -/
example : bisection (Rt.exact ℚ) (fun x (a : List ℚ) => .ok (.fin (x * x - a.headD 0))) [2] (.fin 1) (.fin 2)
    (1/10) (some 20000) true 20000 = some (.ok (45/32, 4)) := by decide +kernel

end

end BeamDesign
