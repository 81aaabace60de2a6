import Verif.Spec.Solvers
import Mathlib.Tactic.Ring
import Mathlib.Tactic.Linarith
import Mathlib.Tactic.FieldSimp
import Mathlib.Tactic.NormNum
import Mathlib.Tactic.Tauto

/-! # Lemmas about the solvers -/

set_option linter.unusedSectionVars false

namespace BeamDesign

open Spec

section
variable {K A : Type} [Field K] [LinearOrder K] [IsStrictOrderedRing K]

instance (tol a b : K) : Decidable (Close tol a b) := by unfold Close; infer_instance

theorem close_comm (tol a b : K) : Close tol a b ↔ Close tol b a := by
  unfold Close
  rw [abs_sub_comm b a, eq_comm]
  tauto

theorem isclose_fin {rt : Rt K} (hx : rt.Exact) {tol : K} (ht : 0 ≤ tol) (x y : K) :
    isclose rt tol (.fin x) (.fin y) = .ok (decide (Close tol x y)) := by
  unfold isclose
  rw [if_neg (not_lt.2 ht)]
  have h : ∀ z : K, |rt.mul relTol z| = |z| / 10 ^ 9 := by
    intro z
    rw [hx.mul, abs_mul, relTol, abs_of_pos (by positivity)]
    ring
  simp only [h, hx.sub, Close]
  congr 1
  rw [Bool.or_assoc, Bool.or_assoc, ← Bool.decide_or, ← Bool.decide_or, ← Bool.decide_or]

theorem close_zero {tol : K} (ht : 0 ≤ tol) (x : K) : Close tol x 0 ↔ |x| ≤ tol := by
  unfold Close
  simp only [zero_sub, abs_neg, abs_zero, zero_div]
  constructor
  · rintro (h | h | h | h)
    · rw [h]; simpa using ht
    · have : x = 0 := by rwa [abs_nonpos_iff] at h
      rw [this]; simpa using ht
    · have h0 : 0 ≤ |x| := abs_nonneg x
      have : |x| = 0 := by
        have : |x| * 10 ^ 9 ≤ |x| := by rwa [le_div_iff₀ (by positivity)] at h
        nlinarith
      rw [this]; exact ht
    · exact h
  · intro h
    exact Or.inr (Or.inr (Or.inr h))

theorem isclose_zero {rt : Rt K} (hx : rt.Exact) {tol : K} (ht : 0 ≤ tol) (x : K) :
    isclose rt tol (.fin x) (.fin 0) = .ok (decide (|x| ≤ tol)) := by
  rw [isclose_fin hx ht]
  congr 1
  exact decide_eq_decide.2 (close_zero ht x)

theorem loopCond_exact {rt : Rt K} (hx : rt.Exact) {tol : K} (ht : 0 ≤ tol) (x y d : K)
    (hd : |d| = |y - x|) : loopCond rt tol d x y = .ok (decide (¬ Close tol x y)) := by
  unfold loopCond
  rw [isclose_fin hx ht, hd]
  split_ifs with h
  · simp [bind, Except.bind, pure, Except.pure]
  · have : Close tol x y := Or.inr (Or.inr (Or.inr (not_lt.1 h)))
    simp [this]

/-! ### bisection -/

theorem body_next {rt : Rt K} {f : SolveFun K A} {args : List A} {tol lo hi lo' hi' : K}
    (h : bisectBody rt f args tol lo hi = .ok (.next lo' hi')) :
    (lo' = mid rt lo hi ∧ hi' = hi) ∨ (lo' = lo ∧ hi' = mid rt lo hi) := by
  unfold bisectBody at h
  simp only [bind, Except.bind, pure, Except.pure, throw, throwThe, MonadExceptOf.throw] at h
  repeat' split at h
  all_goals cases h
  all_goals simp_all

theorem body_ret {rt : Rt K} {f : SolveFun K A} {args : List A} {tol lo hi x : K}
    (h : bisectBody rt f args tol lo hi = .ok (.ret x)) : x = lo ∨ x = hi := by
  unfold bisectBody at h
  simp only [bind, Except.bind, pure, Except.pure, throw, throwThe, MonadExceptOf.throw] at h
  repeat' split at h
  all_goals cases h
  all_goals simp_all

theorem inBracket_left (lo hi : K) : InBracket lo hi lo := ⟨min_le_left _ _, le_max_left _ _⟩
theorem inBracket_right (lo hi : K) : InBracket lo hi hi := ⟨min_le_right _ _, le_max_right _ _⟩

theorem inBracket_trans {a b c d x : K} (h : InBracket c d x) (hc : InBracket a b c) (hd : InBracket a b d) :
    InBracket a b x :=
  ⟨(le_min hc.1 hd.1).trans h.1, h.2.trans (max_le hc.2 hd.2)⟩

/-- Induction over the passes of the loop of `bisection`: an invariant `I` of the state gives a property `Q` of
the outcome. -/
theorem bisectLoop_inv {rt : Rt K} {f : SolveFun K A} {args : List A} {tol : K} {maxIts : Option ℤ}
    {failOn : Bool} (I : ℕ → K → K → Prop) (Q : Except SolverErr (K × ℕ) → Prop)
    (hcond : ∀ i lo hi e, I i lo hi → loopCond rt tol (rt.sub hi lo) hi lo = .error e → Q (.error e))
    (hexit : ∀ i lo hi, I i lo hi → loopCond rt tol (rt.sub hi lo) hi lo = .ok false →
      Q (.ok (mid rt lo hi, i)))
    (herr : ∀ i lo hi e, I i lo hi → loopCond rt tol (rt.sub hi lo) hi lo = .ok true →
      bisectBody rt f args tol lo hi = .error e → Q (.error e))
    (hret : ∀ i lo hi x, I i lo hi → loopCond rt tol (rt.sub hi lo) hi lo = .ok true →
      bisectBody rt f args tol lo hi = .ok (.ret x) → Q (.ok (x, i + 1)))
    (hbrk : ∀ i lo hi lo' hi' m, I i lo hi → loopCond rt tol (rt.sub hi lo) hi lo = .ok true →
      bisectBody rt f args tol lo hi = .ok (.next lo' hi') → maxIts = some m → m ≤ (i + 1 : ℤ) →
      Q (if failOn then .error .exceeded else .ok (mid rt lo' hi', i + 1)))
    (hnext : ∀ i lo hi lo' hi', I i lo hi → loopCond rt tol (rt.sub hi lo) hi lo = .ok true →
      bisectBody rt f args tol lo hi = .ok (.next lo' hi') → (∀ m, maxIts = some m → (i + 1 : ℤ) < m) →
      I (i + 1) lo' hi')
    (fuel : ℕ) : ∀ i lo hi, I i lo hi → ∀ r,
      bisectLoop rt f args tol maxIts failOn fuel i lo hi = some r → Q r := by
  induction fuel with
  | zero =>
    intro i lo hi hI r h
    unfold bisectLoop at h
    split at h
    next e he => cases h; exact hcond i lo hi e hI he
    next he => cases h; exact hexit i lo hi hI he
    · cases h
  | succ fuel ih =>
    intro i lo hi hI r h
    unfold bisectLoop at h
    split at h
    next e he => cases h; exact hcond i lo hi e hI he
    next he => cases h; exact hexit i lo hi hI he
    next he =>
      simp only at h
      split at h
      next e hb => cases h; exact herr i lo hi e hI he hb
      next x hb => cases h; exact hret i lo hi x hI he hb
      next lo' hi' hb =>
        cases maxIts with
        | none =>
          simp only [Option.any_none, Bool.false_eq_true, if_false] at h
          exact ih _ _ _ (hnext i lo hi lo' hi' hI he hb (by simp)) r h
        | some m =>
          simp only [Option.any_some, decide_eq_true_eq] at h
          split_ifs at h with h1 h2
          · cases h
            have := hbrk i lo hi lo' hi' m hI he hb rfl h1
            rwa [if_pos h2] at this
          · cases h
            have := hbrk i lo hi lo' hi' m hI he hb rfl h1
            rwa [if_neg h2] at this
          · exact ih _ _ _ (hnext i lo hi lo' hi' hI he hb (by
              intro m' hm'; cases hm'; omega)) r h

/-- With an iteration limit the loop ends. -/
theorem bisectLoop_ends {rt : Rt K} {f : SolveFun K A} {args : List A} {tol : K} {m : ℤ}
    {failOn : Bool} (fuel : ℕ) : ∀ (i : ℕ) lo hi, m ≤ i + fuel → (i : ℤ) < m →
      bisectLoop rt f args tol (some m) failOn fuel i lo hi ≠ none := by
  induction fuel with
  | zero => intro i lo hi h1 h2; omega
  | succ fuel ih =>
    intro i lo hi h1 h2
    unfold bisectLoop
    split
    · simp
    · simp
    · simp only [Option.any_some, decide_eq_true_eq]
      split
      · simp
      · simp
      · split_ifs with h3 h4
        · simp
        · simp
        · exact ih _ _ _ (by push_cast at h1 ⊢; omega) (by push_cast; omega)

/-- More fuel does not change an outcome. -/
theorem bisectLoop_mono {rt : Rt K} {f : SolveFun K A} {args : List A} {tol : K} {maxIts : Option ℤ}
    {failOn : Bool} (fuel : ℕ) : ∀ i lo hi r, bisectLoop rt f args tol maxIts failOn fuel i lo hi = some r →
      ∀ fuel', fuel ≤ fuel' → bisectLoop rt f args tol maxIts failOn fuel' i lo hi = some r := by
  induction fuel with
  | zero =>
    intro i lo hi r h fuel' _
    unfold bisectLoop at h ⊢
    split at h
    · exact h
    · exact h
    · cases h
  | succ fuel ih =>
    intro i lo hi r h fuel' hf
    obtain ⟨fuel'', rfl⟩ : ∃ k, fuel' = k + 1 := ⟨fuel' - 1, by omega⟩
    unfold bisectLoop at h ⊢
    split at h
    · exact h
    · exact h
    · simp only at h ⊢
      split at h
      · exact h
      · exact h
      · split_ifs at h ⊢ with h3 h4
        · exact h
        · exact h
        · exact ih _ _ _ _ h _ (by omega)

/-- The invariant version with progress: if the function has finite values along the way and the ends never have
the same sign, the loop returns, in at most `N` passes if the tolerance is reached after `N` halvings. -/
theorem bisectLoop_finds {rt : Rt K} (hx : rt.Exact) {f : SolveFun K A} {args : List A} {tol : K}
    (ht : 0 ≤ tol) {maxIts : Option ℤ} {failOn : Bool} (g : K → K) (I : K → K → Prop)
    (hval : ∀ lo hi, I lo hi → Value f args lo (g lo) ∧ Value f args hi (g hi) ∧
      Value f args ((lo + hi) / 2) (g ((lo + hi) / 2)))
    (hsign : ∀ lo hi, I lo hi → ¬ 0 < g lo * g hi)
    (hleft : ∀ lo hi, I lo hi → 0 < g lo * g ((lo + hi) / 2) → I ((lo + hi) / 2) hi)
    (hright : ∀ lo hi, I lo hi → tol < |g lo| → ¬ 0 < g lo * g ((lo + hi) / 2) → I lo ((lo + hi) / 2))
    (N : ℕ) : ∀ (i : ℕ) lo hi, I lo hi → |hi - lo| ≤ tol * 2 ^ N → (∀ m, maxIts = some m → (i + N : ℤ) < m) →
      ∀ fuel, N ≤ fuel →
      ∃ x n, bisectLoop rt f args tol maxIts failOn fuel i lo hi = some (.ok (x, n)) ∧ n ≤ i + N ∧
        ∃ a b, I a b ∧ ((x = a ∧ |g a| ≤ tol) ∨ (x = b ∧ |g b| ≤ tol) ∨ (x = (a + b) / 2 ∧ Close tol b a)) := by
  have hmid : ∀ lo hi, mid rt lo hi = (lo + hi) / 2 := fun lo hi => by unfold mid; rw [hx.div, hx.add]
  have hc : ∀ lo hi, loopCond rt tol (rt.sub hi lo) hi lo = .ok (decide (¬ Close tol hi lo)) := by
    intro lo hi
    exact loopCond_exact hx ht hi lo _ (by rw [hx.sub, abs_sub_comm])
  induction N with
  | zero =>
    intro i lo hi hI hN hm fuel _
    have hcl : Close tol hi lo := Or.inr (Or.inr (Or.inr (by rw [abs_sub_comm]; simpa using hN)))
    refine ⟨mid rt lo hi, i, ?_, by simp, lo, hi, hI, Or.inr (Or.inr ⟨hmid _ _, hcl⟩)⟩
    unfold bisectLoop
    rw [hc, decide_eq_false (not_not.2 hcl)]
  | succ N ih =>
    intro i lo hi hI hN hm fuel hfuel
    by_cases hcl : Close tol hi lo
    · refine ⟨mid rt lo hi, i, ?_, by omega, lo, hi, hI, Or.inr (Or.inr ⟨hmid _ _, hcl⟩)⟩
      unfold bisectLoop
      rw [hc, decide_eq_false (not_not.2 hcl)]
    · obtain ⟨fuel, rfl⟩ : ∃ k, fuel = k + 1 := ⟨fuel - 1, by omega⟩
      obtain ⟨v1, v2, v3⟩ := hval lo hi hI
      have hbody : bisectBody rt f args tol lo hi =
          if |g lo| ≤ tol then .ok (.ret lo) else if |g hi| ≤ tol then .ok (.ret hi) else
          if 0 < g lo * g ((lo + hi) / 2) then .ok (.next ((lo + hi) / 2) hi)
          else .ok (.next lo ((lo + hi) / 2)) := by
        unfold bisectBody
        simp only [callFunc, hmid, show f lo args = _ from v1, show f hi args = _ from v2,
          show f ((lo + hi) / 2) args = _ from v3, bind, Except.bind, pure, Except.pure,
          isclose_zero hx ht, Val.isInf, Bool.or_self, Bool.false_eq_true, if_false, hx.mul,
          if_neg (hsign lo hi hI), prodPos, decide_eq_true_eq]
      have hw1 : |hi - (lo + hi) / 2| ≤ tol * 2 ^ N := by
        have : hi - (lo + hi) / 2 = (hi - lo) / 2 := by ring
        rw [this, abs_div, abs_of_pos (by norm_num : (0 : K) < 2), div_le_iff₀ (by norm_num)]
        rw [pow_succ] at hN; linarith
      have hw2 : |(lo + hi) / 2 - lo| ≤ tol * 2 ^ N := by
        have : (lo + hi) / 2 - lo = (hi - lo) / 2 := by ring
        rw [this, abs_div, abs_of_pos (by norm_num : (0 : K) < 2), div_le_iff₀ (by norm_num)]
        rw [pow_succ] at hN; linarith
      have hmx : ¬ (maxIts.any (fun m => decide (m ≤ (i + 1 : ℤ))) = true) := by
        cases maxIts with
        | none => simp
        | some m =>
          have := hm m rfl
          push_cast at this
          simp only [Option.any_some, decide_eq_true_eq]
          omega
      have hm' : ∀ m, maxIts = some m → ((i + 1 : ℕ) + N : ℤ) < m := by
        intro m h
        have := hm m h
        push_cast at this ⊢
        omega
      unfold bisectLoop
      rw [hc, decide_eq_true hcl]
      simp only [hbody, if_neg hmx]
      split_ifs with h1 h2 h3
      · exact ⟨lo, i + 1, rfl, by omega, lo, hi, hI, Or.inl ⟨rfl, h1⟩⟩
      · exact ⟨hi, i + 1, rfl, by omega, lo, hi, hI, Or.inr (Or.inl ⟨rfl, h2⟩)⟩
      · obtain ⟨x, n, e1, e2, e3⟩ := ih (i + 1) _ _ (hleft lo hi hI h3) hw1 hm' fuel (by omega)
        exact ⟨x, n, e1, by omega, e3⟩
      · obtain ⟨x, n, e1, e2, e3⟩ := ih (i + 1) _ _ (hright lo hi hI (not_le.1 h1) h3) hw2 hm' fuel (by omega)
        exact ⟨x, n, e1, by omega, e3⟩

/-- All that one pass of `bisection` can do, when the tolerance is not negative. -/
theorem bisectBody_cases {rt : Rt K} (hx : rt.Exact) {f : SolveFun K A} {args : List A} {tol lo hi : K}
    (ht : 0 ≤ tol) :
    (∃ e, bisectBody rt f args tol lo hi = .error (.func e) ∧
      (f lo args = .error e ∨ f hi args = .error e ∨ f ((lo + hi) / 2) args = .error e)) ∨
    (bisectBody rt f args tol lo hi = .error .yInf ∧
      ∃ v, v.isInf = true ∧ (f lo args = .ok v ∨ f hi args = .ok v)) ∨
    (bisectBody rt f args tol lo hi = .error .yNan ∧ (f lo args = .ok .nan ∨ f hi args = .ok .nan)) ∨
    (bisectBody rt f args tol lo hi = .ok (.ret lo) ∧ ∃ y, Value f args lo y ∧ |y| ≤ tol) ∨
    (bisectBody rt f args tol lo hi = .ok (.ret hi) ∧ ∃ y, Value f args hi y ∧ |y| ≤ tol) ∨
    ∃ yl yh, Value f args lo yl ∧ Value f args hi yh ∧ tol < |yl| ∧ tol < |yh| ∧
      ((0 < yl * yh ∧ bisectBody rt f args tol lo hi = .error .notBracketed) ∨
       (¬ 0 < yl * yh ∧ ∃ v, f ((lo + hi) / 2) args = .ok v ∧
         ((prodPos rt yl v = true ∧ bisectBody rt f args tol lo hi = .ok (.next ((lo + hi) / 2) hi)) ∨
          (prodPos rt yl v = false ∧ bisectBody rt f args tol lo hi = .ok (.next lo ((lo + hi) / 2)))))) := by
  have hmid : mid rt lo hi = (lo + hi) / 2 := by unfold mid; rw [hx.div, hx.add]
  have htn : ¬ tol < 0 := not_lt.2 ht
  cases hl : f lo args with
  | error e =>
    left
    exact ⟨e, by simp [bisectBody, callFunc, hl, bind, Except.bind], Or.inl rfl⟩
  | ok vl =>
    cases hh : f hi args with
    | error e =>
      left
      exact ⟨e, by simp [bisectBody, callFunc, hl, hh, bind, Except.bind], Or.inr (Or.inl rfl)⟩
    | ok vh =>
      have key : bisectBody rt f args tol lo hi = (do
          let c1 ← isclose rt tol vl (.fin 0)
          if c1 then return .ret lo
          let c2 ← isclose rt tol vh (.fin 0)
          if c2 then return .ret hi
          if vl.isInf || vh.isInf then throw .yInf
          match vl, vh with
          | .fin yl, .fin yh =>
            if 0 < rt.mul yl yh then throw .notBracketed
            let xMid := mid rt lo hi
            let yMid ← callFunc f xMid args
            if prodPos rt yl yMid then return .next xMid hi
            else return .next lo xMid
          | _, _ => throw .yNan) := by
        unfold bisectBody callFunc
        rw [hl, hh]
        rfl
      have hc : ∀ v : Val K, (∃ y, v = .fin y ∧ isclose rt tol v (.fin 0) = .ok (decide (|y| ≤ tol))) ∨
          ((∀ y, v ≠ .fin y) ∧ isclose rt tol v (.fin 0) = .ok false) := by
        intro v
        cases v with
        | fin y => exact Or.inl ⟨y, rfl, isclose_zero hx ht y⟩
        | posInf => right; simp [isclose, htn]
        | negInf => right; simp [isclose, htn]
        | nan => right; simp [isclose, htn]
      by_cases c1 : ∃ y, vl = .fin y ∧ |y| ≤ tol
      · obtain ⟨y, rfl, hy⟩ := c1
        right; right; right; left
        refine ⟨?_, y, hl, hy⟩
        rw [key, isclose_zero hx ht, decide_eq_true hy]
        rfl
      have k1 : isclose rt tol vl (.fin 0) = .ok false := by
        rcases hc vl with ⟨y, rfl, h⟩ | ⟨_, h⟩
        · rw [h, decide_eq_false]
          intro hy; exact c1 ⟨y, rfl, hy⟩
        · exact h
      by_cases c2 : ∃ y, vh = .fin y ∧ |y| ≤ tol
      · obtain ⟨y, rfl, hy⟩ := c2
        right; right; right; right; left
        refine ⟨?_, y, hh, hy⟩
        rw [key, k1, isclose_zero hx ht, decide_eq_true hy]
        rfl
      have k2 : isclose rt tol vh (.fin 0) = .ok false := by
        rcases hc vh with ⟨y, rfl, h⟩ | ⟨_, h⟩
        · rw [h, decide_eq_false]
          intro hy; exact c2 ⟨y, rfl, hy⟩
        · exact h
      rw [key, k1, k2]
      simp only [bind, Except.bind, pure, Except.pure, throw, throwThe, MonadExceptOf.throw,
        Bool.false_eq_true, if_false]
      by_cases hinf : (vl.isInf || vh.isInf) = true
      · right; left
        rw [if_pos hinf]
        refine ⟨rfl, ?_⟩
        rw [Bool.or_eq_true] at hinf
        rcases hinf with h | h
        · exact ⟨vl, h, Or.inl rfl⟩
        · exact ⟨vh, h, Or.inr rfl⟩
      · rw [if_neg hinf]
        cases vl with
        | posInf => simp [Val.isInf] at hinf
        | negInf => simp [Val.isInf] at hinf
        | nan => right; right; left; exact ⟨rfl, Or.inl rfl⟩
        | fin yl =>
          cases vh with
          | posInf => simp [Val.isInf] at hinf
          | negInf => simp [Val.isInf] at hinf
          | nan => right; right; left; exact ⟨rfl, Or.inr rfl⟩
          | fin yh =>
            have t1 : tol < |yl| := by
              by_contra h; exact c1 ⟨yl, rfl, not_lt.1 h⟩
            have t2 : tol < |yh| := by
              by_contra h; exact c2 ⟨yh, rfl, not_lt.1 h⟩
            simp only [hx.mul, hmid, callFunc]
            by_cases hp : 0 < yl * yh
            · right; right; right; right; right
              exact ⟨yl, yh, hl, hh, t1, t2, Or.inl ⟨hp, by rw [if_pos hp]⟩⟩
            · rw [if_neg hp]
              cases hmv : f ((lo + hi) / 2) args with
              | error e => left; exact ⟨e, rfl, Or.inr (Or.inr rfl)⟩
              | ok v =>
                right; right; right; right; right
                refine ⟨yl, yh, hl, hh, t1, t2, Or.inr ⟨hp, v, rfl, ?_⟩⟩
                cases hpp : prodPos rt yl v with
                | true => left; simp [hpp]
                | false => right; simp [hpp]

/-- Once the ends do not have the same sign they never will. -/
theorem notBracketed_only_first {rt : Rt K} (hx : rt.Exact) {f : SolveFun K A} {args : List A} {tol : K}
    (ht : 0 ≤ tol) {maxIts : Option ℤ} {failOn : Bool} (fuel : ℕ) (i : ℕ) (lo hi : K)
    (hI : ∀ yl yh, Value f args lo yl → Value f args hi yh → ¬ 0 < yl * yh) :
    bisectLoop rt f args tol maxIts failOn fuel i lo hi ≠ some (.error .notBracketed) := by
  intro h
  refine bisectLoop_inv (fun _ lo hi => ∀ yl yh, Value f args lo yl → Value f args hi yh → ¬ 0 < yl * yh)
    (fun r => r ≠ .error .notBracketed) ?_ ?_ ?_ ?_ ?_ ?_ fuel i lo hi hI _ h rfl
  · intro i lo hi e _ he
    rw [loopCond_exact hx ht _ _ _ (by rw [hx.sub, abs_sub_comm])] at he
    cases he
  · intros; simp
  · intro i lo hi e hI _ he
    rcases bisectBody_cases hx (f := f) (args := args) (lo := lo) (hi := hi) ht with
      ⟨e', h, -⟩ | ⟨h, -⟩ | ⟨h, -⟩ | ⟨h, -⟩ | ⟨h, -⟩ | ⟨yl, yh, h1, h2, -, -, ⟨h3, h⟩ | ⟨-, v, -, ⟨-, h⟩ | ⟨-, h⟩⟩⟩ <;>
      rw [he] at h <;> cases h
    · simp
    · simp
    · simp
    · exact absurd h3 (hI yl yh h1 h2)
  · intros; simp
  · intros; split <;> simp
  · intro i lo hi lo' hi' hI _ he _
    rcases bisectBody_cases hx (f := f) (args := args) (lo := lo) (hi := hi) ht with
      ⟨e', h, -⟩ | ⟨h, -⟩ | ⟨h, -⟩ | ⟨h, -⟩ | ⟨h, -⟩ | ⟨yl, yh, h1, h2, -, -, ⟨-, h⟩ | ⟨h3, v, hv, ⟨hp, h⟩ | ⟨hp, h⟩⟩⟩ <;>
      rw [he] at h <;> cases h
    · intro ym yh' hm hh'
      have : yh' = yh := by
        have := hh'.symm.trans h2
        simpa using this
      subst this
      have hvm : v = .fin ym := by
        have := hv.symm.trans hm
        simpa using this
      subst hvm
      simp only [prodPos, hx.mul, decide_eq_true_eq] at hp
      intro hc
      apply h3
      have := mul_pos hp hc
      have h4 : yl * ym * (ym * yh') = yl * yh' * (ym * ym) := by ring
      rw [h4] at this
      rcases lt_trichotomy (yl * yh') 0 with h | h | h
      · exact absurd this (not_lt.2 (mul_nonpos_of_nonpos_of_nonneg h.le (mul_self_nonneg ym)))
      · rw [h, zero_mul] at this; exact absurd this (lt_irrefl _)
      · exact h
    · intro yl' ym hl' hm
      have : yl' = yl := by
        have := hl'.symm.trans h1
        simpa using this
      subst this
      have hvm : v = .fin ym := by
        have := hv.symm.trans hm
        simpa using this
      subst hvm
      simpa [prodPos, hx.mul] using hp

/-! ### secant -/

theorem secantLoop_mono {rt : Rt K} {f : SolveFun K A} {args : List A} {tol : K} {maxIts : Option ℤ}
    {onMax : Option (Except SolverErr (K × ℕ × Bool))} (fuel : ℕ) : ∀ i x1 x2 x3 r,
      secantLoop rt f args tol maxIts onMax fuel i x1 x2 x3 = some r →
      ∀ fuel', fuel ≤ fuel' → secantLoop rt f args tol maxIts onMax fuel' i x1 x2 x3 = some r := by
  induction fuel with
  | zero =>
    intro i x1 x2 x3 r h fuel' _
    unfold secantLoop at h ⊢
    split at h
    · exact h
    · exact h
    · cases h
  | succ fuel ih =>
    intro i x1 x2 x3 r h fuel' hf
    obtain ⟨fuel'', rfl⟩ : ∃ k, fuel' = k + 1 := ⟨fuel' - 1, by omega⟩
    unfold secantLoop at h ⊢
    split at h
    · exact h
    · exact h
    · simp only at h ⊢
      split at h
      · exact h
      · split_ifs at h ⊢ with h3
        · exact h
        · exact ih _ _ _ _ _ h _ (by omega)

/-- With an iteration limit the loop ends. -/
theorem secantLoop_ends {rt : Rt K} {f : SolveFun K A} {args : List A} {tol : K} {m : ℤ}
    {onMax : Option (Except SolverErr (K × ℕ × Bool))} (hmax : onMax ≠ none) (fuel : ℕ) :
    ∀ (i : ℕ) x1 x2 x3, m ≤ i + fuel → 0 < fuel →
      secantLoop rt f args tol (some m) onMax fuel i x1 x2 x3 ≠ none := by
  induction fuel with
  | zero => intro i x1 x2 x3 h1 h2; omega
  | succ fuel ih =>
    intro i x1 x2 x3 h1 h2
    unfold secantLoop
    split
    · simp
    · split <;> simp
    · simp only [Option.any_some, decide_eq_true_eq]
      split
      · simp
      · split_ifs with h3
        · exact hmax
        · exact ih _ _ _ _ (by push_cast at h1 ⊢; omega) (by push_cast at h1; omega)

/-- What one pass of `secant` computes. -/
theorem secantBody_ok {rt : Rt K} (hx : rt.Exact) {f : SolveFun K A} {args : List A} {tol x1 x2 x : K}
    (h : secantBody rt f args tol x1 x2 = .ok x) :
    ∃ d c, Value f args x1 d ∧ Value f args x2 c ∧ c ≠ d ∧ x = (x1 * c - x2 * d) / (c - d) := by
  unfold secantBody at h
  simp only [bind, Except.bind, pure, Except.pure, throw, throwThe, MonadExceptOf.throw] at h
  unfold callFunc at h
  cases hc : f x2 args with
  | error e => rw [hc] at h; cases h
  | ok c =>
    cases hd : f x1 args with
    | error e => rw [hc, hd] at h; cases h
    | ok d =>
      rw [hc, hd] at h
      simp only at h
      split_ifs at h with h1
      split at h
      · cases h
      · split_ifs at h with h2
        cases c <;> cases d <;> simp only [mulVal] at h <;> (try (split_ifs at h)) <;> try cases h
        rename_i y1 y0 _ hne
        refine ⟨y0, y1, hd, hc, ?_, ?_⟩
        · rintro rfl
          exact hne (by rw [hx.sub, sub_self])
        · rw [hx.div, hx.sub, hx.sub, hx.mul, hx.mul]

/-- One pass of `secant` when the function has finite values. -/
theorem secantBody_fin {rt : Rt K} (hx : rt.Exact) {f : SolveFun K A} {args : List A} {tol x1 x2 c d : K}
    (ht : 0 ≤ tol) (hd : Value f args x1 d) (hc : Value f args x2 c) :
    secantBody rt f args tol x1 x2 =
      if Close tol c d then .error .sameValue else .ok ((x1 * c - x2 * d) / (c - d)) := by
  unfold secantBody callFunc
  simp only [show f x2 args = _ from hc, show f x1 args = _ from hd, bind, Except.bind, pure, Except.pure, throw,
    throwThe, MonadExceptOf.throw, mulVal, Val.isInf, Bool.or_self, Bool.false_eq_true, if_false,
    isclose_fin hx ht, decide_eq_true_eq, hx.sub, hx.mul, hx.div]
  split_ifs with h1 h2
  · rfl
  · exact absurd (Or.inl (sub_eq_zero.1 h2)) h1
  · rfl

theorem secantLoop_seq {rt : Rt K} (hx : rt.Exact) {f : SolveFun K A} {args : List A} {tol : K} (ht : 0 ≤ tol)
    {maxIts : Option ℤ} {onMax : Option (Except SolverErr (K × ℕ × Bool))}
    (hmax : ∀ x n, onMax ≠ some (.ok (x, n, false))) (fuel : ℕ) :
    ∀ (i : ℕ) (s : ℕ → K) x3, SecantSeq f args s i → (∀ j < i, ¬ Close tol (s j) (s (j + 1))) →
      (x3 = if i = 0 then none else some (s (i + 1))) → (∀ m : ℤ, maxIts = some m → 0 < i → (i : ℤ) < m) →
      ∀ x n, secantLoop rt f args tol maxIts onMax fuel i (s i) (s (i + 1)) x3 = some (.ok (x, n, false)) →
      ∃ s' : ℕ → K, s' 0 = s 0 ∧ s' 1 = s 1 ∧ SecantSeq f args s' n ∧ x = s' (n + 1) ∧ 1 ≤ n ∧
        Close tol (s' n) (s' (n + 1)) ∧ (∀ j < n, ¬ Close tol (s' j) (s' (j + 1))) ∧
        ∀ m : ℤ, maxIts = some m → (n : ℤ) < m := by
  induction fuel with
  | zero =>
    intro i s x3 hs hc h3 hm x n h
    unfold secantLoop at h
    rw [loopCond_exact hx ht _ _ _ (by rw [hx.sub])] at h
    split at h
    next e he => cases he
    next he =>
      simp only [Except.ok.injEq, decide_eq_false_iff_not, not_not] at he
      subst h3
      split_ifs at h with hi
      · cases h
      · cases h
        exact ⟨s, rfl, rfl, hs, rfl, by omega, he, hc, fun m hmm => hm m hmm (by omega)⟩
    · cases h
  | succ fuel ih =>
    intro i s x3 hs hc h3 hm x n h
    unfold secantLoop at h
    rw [loopCond_exact hx ht _ _ _ (by rw [hx.sub])] at h
    split at h
    next e he => cases he
    next he =>
      simp only [Except.ok.injEq, decide_eq_false_iff_not, not_not] at he
      subst h3
      split_ifs at h with hi
      · cases h
      · cases h
        exact ⟨s, rfl, rfl, hs, rfl, by omega, he, hc, fun m hmm => hm m hmm (by omega)⟩
    next he =>
      simp only [Except.ok.injEq, decide_eq_true_eq] at he
      simp only at h
      split at h
      · cases h
      next x' hb =>
        split_ifs at h with hmx
        · exact absurd h (hmax x n)
        · obtain ⟨d, c, hd, hcv, hne, hx'⟩ := secantBody_ok hx hb
          set s2 := Function.update s (i + 2) x' with hs2
          have e0 : ∀ j, j ≤ i + 1 → s2 j = s j := fun j hj => by
            rw [hs2, Function.update_of_ne (by omega)]
          have e1 : s2 (i + 1 + 1) = x' := by rw [hs2, show i + 1 + 1 = i + 2 from rfl, Function.update_self]
          have := ih (i + 1) s2 (some x') ?_ ?_ (by simp [e1]) ?_ x n (by
            rw [e1, e0 (i + 1) le_rfl]; exact h)
          · obtain ⟨s', h1, h2, h3⟩ := this
            exact ⟨s', by rw [h1, e0 0 (by omega)], by rw [h2, e0 1 (by omega)], h3⟩
          · intro j hj
            rcases Nat.lt_succ_iff_lt_or_eq.1 hj with hj' | rfl
            · obtain ⟨y, y', a1, a2, a3, a4⟩ := hs j hj'
              refine ⟨y, y', ?_, ?_, a3, ?_⟩
              · rw [e0 j (by omega)]; exact a1
              · rw [e0 (j + 1) (by omega)]; exact a2
              · rw [e0 j (by omega), e0 (j + 1) (by omega), e0 (j + 2) (by omega)]; exact a4
            · refine ⟨d, c, ?_, ?_, hne, ?_⟩
              · rw [e0 j (by omega)]; exact hd
              · rw [e0 (j + 1) (by omega)]; exact hcv
              · rw [e0 j (by omega), e0 (j + 1) (by omega), show j + 2 = j + 1 + 1 from rfl, e1]; exact hx'
          · intro j hj
            rcases Nat.lt_succ_iff_lt_or_eq.1 hj with hj' | rfl
            · rw [e0 j (by omega), e0 (j + 1) (by omega)]; exact hc j hj'
            · rw [e0 j (by omega), e0 (j + 1) (by omega)]; exact he
          · intro m hmm _
            subst hmm
            simp only [Option.any_some, decide_eq_true_eq] at hmx
            push_cast
            omega

end
end BeamDesign
