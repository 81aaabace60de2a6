import Verif.Props.Solvers64

/-!
# C138: the secant method on doubles
-/

namespace BeamDesign

open Spec

variable {A : Type}

/-- neither of the two errors that are not the solver's own -/
def OwnError (e : SolverErr) : Prop := e ≠ .zeroDiv ∧ e ≠ .unbound

theorem isclose_own {tol a b : Flt} {e : SolverErr} (h : F64.isclose tol a b = .error e) : OwnError e := by
  unfold F64.isclose at h
  split_ifs at h
  cases h
  exact ⟨by simp, by simp⟩

theorem call_own {f : SolveFun64 A} {x : Flt} {args : List A} {e : SolverErr} (h : F64.call f x args = .error e) : OwnError e := by
  unfold F64.call at h
  split at h
  · cases h
  · cases h
    exact ⟨by simp, by simp⟩

theorem call_ok {f : SolveFun64 A} {x : Flt} {args : List A} {v : Flt} (h : F64.call f x args = .ok v) : f x args = .ok v := by
  unfold F64.call at h
  split at h
  · cases h
    assumption
  · cases h

theorem checkGuesses_own {lo hi : Flt} {e : SolverErr} (h : F64.checkGuesses lo hi = .error e) : OwnError e := by
  unfold F64.checkGuesses at h
  split_ifs at h <;> cases h <;> exact ⟨by simp, by simp⟩

theorem loopCond_own {tol d a b : Flt} {e : SolverErr} (h : F64.loopCond tol d a b = .error e) : OwnError e := by
  unfold F64.loopCond at h
  split_ifs at h
  cases hc : F64.isclose tol a b with
  | error e' =>
    rw [hc] at h
    cases h
    exact isclose_own hc
  | ok c =>
    rw [hc] at h
    cases h

theorem body_own {f : SolveFun64 A} {args : List A} {tol lo hi : Flt} {e : SolverErr} (h : F64.bisectBody f args tol lo hi = .error e) :
    OwnError e := by
  unfold F64.bisectBody at h
  cases h1 : F64.call f lo args with
  | error e' => rw [h1] at h; cases h; exact call_own h1
  | ok y =>
  cases h2 : F64.call f hi args with
  | error e' => rw [h1, h2] at h; cases h; exact call_own h2
  | ok z =>
  simp only [h1, h2, bind, Except.bind] at h
  cases h3 : F64.isclose tol y (.fin 0) with
  | error e' => rw [h3] at h; cases h; exact isclose_own h3
  | ok c1 =>
  simp only [h3] at h
  cases c1 with
  | true => cases h
  | false =>
  cases h4 : F64.isclose tol z (.fin 0) with
  | error e' => rw [h4] at h; cases h; exact isclose_own h4
  | ok c2 =>
  simp only [h4, Bool.false_eq_true, if_false] at h
  cases c2 with
  | true => cases h
  | false =>
  simp only [Bool.false_eq_true, if_false, pure, Except.pure] at h
  by_cases h5 : (y.isInf || z.isInf) = true
  · rw [if_pos h5] at h; cases h; exact ⟨by simp, by simp⟩
  rw [if_neg h5] at h
  by_cases h6 : (y.isNan || z.isNan) = true
  · rw [if_pos h6] at h; cases h; exact ⟨by simp, by simp⟩
  rw [if_neg h6] at h
  by_cases h7 : F64.lt (.fin 0) (F64.mul y z) = true
  · rw [if_pos h7] at h; cases h; exact ⟨by simp, by simp⟩
  rw [if_neg h7] at h
  cases h8 : F64.call f (F64.mid lo hi) args with
  | error e' => simp only [h8] at h; cases h; exact call_own h8
  | ok m =>
  simp only [h8] at h
  split_ifs at h

theorem bisectLoop_own {f : SolveFun64 A} {args : List A} {tol : Flt} {maxIts : Option ℤ} {failOn : Bool} :
    ∀ (fuel i : ℕ) (lo hi : Flt) (e : SolverErr), F64.bisectLoop f args tol maxIts failOn fuel i lo hi = some (.error e) → OwnError e := by
  intro fuel
  induction fuel with
  | zero =>
    intro i lo hi e h
    unfold F64.bisectLoop at h
    cases hc : F64.loopCond tol (F64.sub hi lo) hi lo with
    | error e' => rw [hc] at h; cases h; exact loopCond_own hc
    | ok c => rw [hc] at h; cases c <;> cases h
  | succ fuel ih =>
    intro i lo hi e h
    rw [F64.bisectLoop] at h
    cases hc : F64.loopCond tol (F64.sub hi lo) hi lo with
    | error e' => rw [hc] at h; cases h; exact loopCond_own hc
    | ok c =>
      rw [hc] at h
      cases c with
      | false => cases h
      | true =>
        cases hb : F64.bisectBody f args tol lo hi with
        | error e' => simp only [hb] at h; cases h; exact body_own hb
        | ok r =>
          simp only [hb] at h
          cases r with
          | ret x => cases h
          | next lo' hi' =>
            simp only at h
            split_ifs at h
            · cases h
              exact ⟨by simp, by simp⟩
            · cases h
            · exact ih _ _ _ _ h

theorem bisection_own {f : SolveFun64 A} {args : List A} {tol lo hi : Flt} {maxIts : Option ℤ} {failOn : Bool} {fuel : ℕ} {e : SolverErr}
    (h : F64.bisection f args lo hi tol maxIts failOn fuel = some (.error e)) : OwnError e := by
  unfold F64.bisection at h
  cases h1 : F64.checkGuesses lo hi with
  | error e' => rw [h1] at h; cases h; exact checkGuesses_own h1
  | ok u =>
    rw [h1] at h
    cases h2 : F64.isclose tol hi lo with
    | error e' => simp only [h2] at h; cases h; exact isclose_own h2
    | ok c =>
      simp only [h2] at h
      cases c with
      | true => cases h; exact ⟨by simp, by simp⟩
      | false =>
        simp only at h
        split_ifs at h
        · cases h
          exact ⟨by simp, by simp⟩
        · exact bisectLoop_own _ _ _ _ _ h

theorem cap_eq_fin {x y : ℚ} (h : Val.cap x = .fin y) : y = x ∧ |x| < 2 ^ 1024 := by
  unfold Val.cap at h
  split_ifs at h with h1 h2
  cases h
  exact ⟨rfl, abs_lt.2 ⟨not_le.1 h2, not_le.1 h1⟩⟩

theorem int_bound {m : ℤ} {k : ℚ} (hk : 0 < k) (h : |(m : ℚ)| * k < 2 ^ 53 * k) : |(m : ℚ)| * k ≤ (2 ^ 53 - 1) * k := by
  have h1 : |(m : ℚ)| < 2 ^ 53 := lt_of_mul_lt_mul_right h hk.le
  have h2 : |m| < 2 ^ 53 := by exact_mod_cast h1
  have h3 : |m| ≤ 2 ^ 53 - 1 := Int.le_sub_one_of_lt h2
  have h4 : |(m : ℚ)| ≤ 2 ^ 53 - 1 := by exact_mod_cast h3
  exact mul_le_mul_of_nonneg_right h4 hk.le

/-- A double below 2¹⁰²⁴ is at most the largest one. -/
theorem double_lt {x : ℚ} (hx : IsDouble x) (h : |x| < 2 ^ 1024) : |x| ≤ maxDouble := by
  have h971 : (2 : ℚ) ^ (971 : ℤ) = 2 ^ 971 := zpow_natCast _ 971
  have hp : (0 : ℚ) < 2 ^ 971 := pow_pos (by norm_num) _
  have e1 : (2 : ℚ) ^ 1024 = 2 ^ 53 * 2 ^ 971 := by rw [← pow_add]
  obtain ⟨n, e, hn, he, hx⟩ := hx
  have hx' : |x| = |(n : ℚ)| * 2 ^ e := by rw [hx, abs_mul, abs_of_pos (two_zpow_pos e)]
  have e2 : maxDouble = (2 ^ 53 - 1) * 2 ^ 971 := by
    unfold maxDouble
    rw [e1, sub_mul, one_mul]
  rcases le_or_gt e 970 with h' | h'
  · have hn' : |(n : ℚ)| ≤ 2 ^ 53 := by exact_mod_cast hn.le
    refine le_trans ?_ maxDouble_big
    rw [hx', show (1023 : ℕ) = 53 + 970 by norm_num, pow_add]
    refine mul_le_mul hn' ?_ (two_zpow_pos e).le (by positivity)
    have : (2 : ℚ) ^ e ≤ 2 ^ (970 : ℤ) := zpow_le_zpow_right₀ (by norm_num) h'
    exact this.trans_eq (zpow_natCast _ 970)
  · obtain ⟨j, hj⟩ : ∃ j : ℕ, e = j + 971 := ⟨(e - 971).toNat, by omega⟩
    have hm : |x| = |((n * 2 ^ j : ℤ) : ℚ)| * 2 ^ 971 := by
      rw [hx', hj, zpow_add₀ (by norm_num), h971, zpow_natCast]
      push_cast
      rw [abs_mul, abs_of_pos (show (0 : ℚ) < 2 ^ j by positivity), mul_assoc]
    rw [hm, e1] at h
    rw [hm, e2]
    exact int_bound hp h

/-- Two numbers whose difference is zero are close, whatever the tolerance. -/
theorem zero_sub_close {tol c d : Flt} (h : F64.sub c d = .fin 0) (hc : F64.isclose tol c d = .ok false) : False := by
  have hfin : ∃ x y, c = .fin x ∧ d = .fin y := by
    cases c <;> cases d <;> first | exact ⟨_, _, rfl, rfl⟩ | cases h
  obtain ⟨x, y, rfl, rfl⟩ := hfin
  have h0 : rnd64 (x - y) = 0 := (cap_eq_fin h).1.symm
  have h1 : F64.sub (.fin y) (.fin x) = .fin 0 := by
    show Val.cap (rnd64 (y - x)) = _
    rw [← neg_sub, rnd64_neg, h0, neg_zero]
    exact cap_double (small_max (by norm_num))
  have h2 : F64.le (.fin 0) (F64.abs (F64.mul (.fin F64.relTol) (.fin y))) = true := by
    show F64.le (.fin 0) (F64.abs (Val.cap (rnd64 (F64.relTol * y)))) = true
    unfold Val.cap
    split_ifs
    · rfl
    · rfl
    · rw [F64.abs, le_fin]
      exact decide_eq_true (abs_nonneg _)
  have h3 : F64.abs (.fin 0) = .fin 0 := by simp [F64.abs]
  unfold F64.isclose at hc
  rw [h1, h3] at hc
  simp only [h2, Bool.true_or, Val.isInf, Bool.or_self, Bool.false_eq_true, if_false] at hc
  split_ifs at hc <;> cases hc

/-- A quotient that is a number is a finite double. -/
theorem div_finite {n m : Flt} {q : ℚ} (h : F64.div n m = .ok (.fin q)) : FiniteDouble q := by
  have zd : FiniteDouble 0 := ⟨⟨0, 0, by norm_num, by norm_num, by norm_num⟩, small_max (by norm_num)⟩
  cases m with
  | fin b =>
    have h' : (if b = 0 then .error .zeroDiv else .ok (Val.div Rt.binary64 n b).over : Except SolverErr Flt) = .ok (.fin q) := h
    split_ifs at h' with hz
    have h7 := Except.ok.inj h'
    cases n with
    | fin a =>
      have h8 : Val.cap (rnd64 (a / b)) = .fin q := by
        simpa [Val.div, hz, Val.over, Rt.binary64] using h7
      obtain ⟨rfl, h9⟩ := cap_eq_fin h8
      exact ⟨isDouble_rnd64 _, double_lt (isDouble_rnd64 _) h9⟩
    | posInf => simp only [Val.div, hz, if_false, Val.signed] at h7; split_ifs at h7 <;> cases h7
    | negInf => simp only [Val.div, hz, if_false, Val.signed] at h7; split_ifs at h7 <;> cases h7
    | nan => cases h7
  | posInf => cases n <;> cases h; exact zd
  | negInf => cases n <;> cases h; exact zd
  | nan => cases n <;> cases h

/-- The secant formula: what can go wrong, and what the guess is like. -/
theorem secantBody_cases {f : SolveFun64 A} {args : List A} {tol x1 x2 : Flt} :
    (∃ e, F64.secantBody f args tol x1 x2 = .error e ∧ OwnError e) ∨
    ∃ q, FiniteDouble q ∧ F64.secantBody f args tol x1 x2 = .ok (.fin q) ∧ ∃ c d, f x2 args = .ok c ∧ f x1 args = .ok d ∧
      F64.div (F64.sub (F64.mul x1 c) (F64.mul x2 d)) (F64.sub c d) = .ok (.fin q) := by
  unfold F64.secantBody
  cases h1 : F64.call f x2 args with
  | error e => exact Or.inl ⟨e, rfl, call_own h1⟩
  | ok c =>
  cases h2 : F64.call f x1 args with
  | error e => exact Or.inl ⟨e, rfl, call_own h2⟩
  | ok d =>
  simp only [bind, Except.bind, pure, Except.pure]
  by_cases h3 : ((F64.mul x1 c).isInf || (F64.mul x2 d).isInf || c.isInf || d.isInf) = true
  · rw [if_pos h3]
    exact Or.inl ⟨_, rfl, by simp, by simp⟩
  rw [if_neg h3]
  cases h4 : F64.isclose tol c d with
  | error e => exact Or.inl ⟨e, rfl, isclose_own h4⟩
  | ok cl =>
  simp only
  cases cl with
  | true => exact Or.inl ⟨_, rfl, by simp, by simp⟩
  | false =>
  simp only [Bool.false_eq_true, if_false]
  obtain ⟨n, hn⟩ : ∃ n, n = F64.sub (F64.mul x1 c) (F64.mul x2 d) := ⟨_, rfl⟩
  rw [← hn]
  cases h5 : F64.div n (F64.sub c d) with
  | error e =>
    exfalso
    unfold F64.div at h5
    split at h5
    · rename_i b hb
      split_ifs at h5 with hz
      exact zero_sub_close (by rw [hb, hz]) h4
    all_goals cases h5
  | ok x3 =>
    simp only
    by_cases h6 : (x3.isNan || x3.isInf) = true
    · rw [if_pos h6]
      exact Or.inl ⟨_, rfl, by simp, by simp⟩
    rw [if_neg h6]
    refine Or.inr ?_
    cases x3 with
    | fin q => exact ⟨q, div_finite h5, rfl, c, d, call_ok h1, call_ok h2, hn ▸ h5⟩
    | posInf => simp [Val.isNan, Val.isInf] at h6
    | negInf => simp [Val.isNan, Val.isInf] at h6
    | nan => simp [Val.isNan, Val.isInf] at h6

/-- The loop of `secant`: it ends with errors of its own or with the last guess, close to the one before it. -/
theorem secantLoop_cases {f : SolveFun64 A} {args : List A} {tol lo hi : Flt} {maxIts : Option ℤ}
    {onMax : Option (Except SolverErr (Flt × ℕ × Bool))}
    (hmax : ∀ e, onMax = some (.error e) → OwnError e) (hmax' : ∀ x n b, onMax = some (.ok (x, n, b)) → b = true) :
    ∀ (fuel i : ℕ) (p q : ℚ) (x3 : Option Flt) (s : ℕ → Flt), FiniteDouble p → FiniteDouble q →
      SecantGuesses f args lo hi s i → s i = .fin p → s (i + 1) = .fin q →
      (x3 = some (.fin q) ∧ 0 < i ∨ F64.loopCond tol (F64.sub (.fin q) (.fin p)) (.fin p) (.fin q) ≠ .ok false) →
      (∀ e, F64.secantLoop f args tol maxIts onMax fuel i (.fin p) (.fin q) x3 = some (.error e) → OwnError e) ∧
      ∀ x n, F64.secantLoop f args tol maxIts onMax fuel i (.fin p) (.fin q) x3 = some (.ok (x, n, false)) →
        0 < n ∧ ∃ (s : ℕ → Flt) (p' q' : ℚ), FiniteDouble p' ∧ FiniteDouble q' ∧ SecantGuesses f args lo hi s n ∧ s n = .fin p' ∧
          s (n + 1) = .fin q' ∧ x = .fin q' ∧ F64.loopCond tol (F64.sub (.fin q') (.fin p')) (.fin p') (.fin q') = .ok false := by
  intro fuel
  induction fuel with
  | zero =>
    intro i p q x3 s dp dq hs sp sq h3
    unfold F64.secantLoop
    cases hc : F64.loopCond tol (F64.sub (.fin q) (.fin p)) (.fin p) (.fin q) with
    | error e' =>
      refine ⟨?_, ?_⟩
      · intro e h; cases h; exact loopCond_own hc
      · intro x n h; cases h
    | ok c =>
      cases c with
      | true => exact ⟨fun e h => (by cases h), fun x n h => (by cases h)⟩
      | false =>
        rcases h3 with ⟨h3, hi⟩ | h3
        · subst h3
          refine ⟨fun e h => (by cases h), fun x n h => ?_⟩
          cases h
          exact ⟨hi, s, p, q, dp, dq, hs, sp, sq, rfl, hc⟩
        · exact absurd hc h3
  | succ fuel ih =>
    intro i p q x3 s dp dq hs sp sq h3
    unfold F64.secantLoop
    cases hc : F64.loopCond tol (F64.sub (.fin q) (.fin p)) (.fin p) (.fin q) with
    | error e' =>
      refine ⟨?_, ?_⟩
      · intro e h; cases h; exact loopCond_own hc
      · intro x n h; cases h
    | ok c =>
      cases c with
      | true =>
        simp only
        rcases secantBody_cases (f := f) (args := args) (tol := tol) (x1 := .fin p) (x2 := .fin q) with ⟨e', h, ho⟩ | ⟨r, dr, h, c, d, h1, h2, h4⟩
        · rw [h]
          exact ⟨fun e h => (by cases h; exact ho), fun x n h => (by cases h)⟩
        · rw [h]
          simp only
          split_ifs with hm
          · refine ⟨hmax, fun x n h => ?_⟩
            have := hmax' _ _ _ h
            cases this
          · refine ih (i + 1) q r (some (.fin r)) (fun k => if k = i + 2 then .fin r else s k) dq dr ?_ ?_ ?_ (Or.inl ⟨rfl, by omega⟩)
            · obtain ⟨s0, s1, hk⟩ := hs
              refine ⟨?_, ?_, ?_⟩
              · simp only; rw [if_neg (by omega)]; exact s0
              · simp only; rw [if_neg (by omega)]; exact s1
              · intro k hki
                simp only
                rw [if_neg (by omega), if_neg (by omega)]
                by_cases e : k = i
                · subst e
                  rw [if_pos rfl, sp, sq]
                  exact ⟨c, d, h1, h2, h4⟩
                · rw [if_neg (by omega)]
                  exact hk k (by omega)
            · rw [if_neg (by omega)]; exact sq
            · simp
      | false =>
        rcases h3 with ⟨h3, hi⟩ | h3
        · subst h3
          refine ⟨fun e h => (by cases h), fun x n h => ?_⟩
          cases h
          exact ⟨hi, s, p, q, dp, dq, hs, sp, sq, rfl, hc⟩
        · exact absurd hc h3

theorem abs_sub_cap (p q : ℚ) : F64.abs (F64.sub (.fin p) (.fin q)) = F64.abs (F64.sub (.fin q) (.fin p)) := by
  have hq : (0 : ℚ) < 2 ^ 1024 := pow_pos (by norm_num) _
  show F64.abs (Val.cap (rnd64 (p - q))) = F64.abs (Val.cap (rnd64 (q - p)))
  rw [← neg_sub q p, rnd64_neg]
  generalize rnd64 (q - p) = x
  unfold Val.cap
  generalize (2 : ℚ) ^ 1024 = M at *
  by_cases h1 : M ≤ x
  · have h2 : ¬ M ≤ -x := by linarith
    have h3 : -x ≤ -M := by linarith
    rw [if_pos h1, if_neg h2, if_pos h3]
    rfl
  · by_cases h2 : x ≤ -M
    · have h3 : M ≤ -x := by linarith
      rw [if_neg h1, if_pos h2, if_pos h3]
      rfl
    · have h3 : ¬ M ≤ -x := by linarith
      have h4 : ¬ -x ≤ -M := by linarith
      rw [if_neg h1, if_neg h2, if_neg h3, if_neg h4]
      simp [F64.abs]

theorem isclose_comm64 (tol : Flt) (p q : ℚ) : F64.isclose tol (.fin p) (.fin q) = F64.isclose tol (.fin q) (.fin p) := by
  have he : F64.eq (.fin p) (.fin q) = F64.eq (.fin q) (.fin p) := by
    simp only [F64.eq]
    rw [decide_eq_decide]
    exact eq_comm
  unfold F64.isclose
  rw [he, abs_sub_cap, Bool.or_comm (Val.isInf _)]
  simp only [Bool.or_comm (F64.le _ (F64.abs (F64.mul _ (.fin q))))]

theorem abs_sub_not_nan (p q : ℚ) : F64.abs (F64.sub (.fin p) (.fin q)) ≠ .nan := by
  show F64.abs (Val.cap (rnd64 (p - q))) ≠ .nan
  unfold Val.cap
  split_ifs <;> simp [F64.abs]

theorem lt_of_not_le64 {a b : Flt} (ha : a ≠ .nan) (hb : b ≠ .nan) (h : F64.le a b = false) : F64.lt b a = true := by
  cases a <;> cases b <;> simp_all [F64.le, F64.lt, F64.eq]
  rename_i x y
  exact lt_of_le_of_ne h.1 (fun e => h.2 e.symm)

/-- The first pass through the loop is always made, unless the tolerance is nan. -/
theorem first_pass {tol : Flt} {p q : ℚ} (ht : tol ≠ .nan) (h : F64.isclose tol (.fin q) (.fin p) = .ok false) :
    F64.loopCond tol (F64.sub (.fin q) (.fin p)) (.fin p) (.fin q) ≠ .ok false := by
  unfold F64.loopCond
  rw [isclose_comm64, h]
  have hlt : F64.lt tol (F64.abs (F64.sub (.fin q) (.fin p))) = true := by
    refine lt_of_not_le64 (abs_sub_not_nan _ _) ht ?_
    rw [abs_sub_cap]
    unfold F64.isclose at h
    split_ifs at h with h1 h2 h3
    · cases h
    · simp [Val.isInf] at h3
    · have := Except.ok.inj h
      simp only [Bool.or_eq_false_iff] at this
      exact this.2
  rw [if_pos hlt]
  simp [bind, Except.bind, pure, Except.pure]

theorem secant_enter {f : SolveFun64 A} {args : List A} {p q : ℚ} {tol : Flt} (ht : tol ≠ .nan) (dp : FiniteDouble p) (dq : FiniteDouble q)
    {maxIts : Option ℤ} {fallback : Bool} {fuel : ℕ} :
    (∀ e, F64.secant f args (.fin p) (.fin q) tol maxIts fallback fuel = some (.error e) → OwnError e) ∧
    ∀ x n, F64.secant f args (.fin p) (.fin q) tol maxIts fallback fuel = some (.ok (x, n, false)) →
        0 < n ∧ ∃ (s : ℕ → Flt) (p' q' : ℚ), FiniteDouble p' ∧ FiniteDouble q' ∧ SecantGuesses f args (.fin p) (.fin q) s n ∧ s n = .fin p' ∧
          s (n + 1) = .fin q' ∧ x = .fin q' ∧ F64.loopCond tol (F64.sub (.fin q') (.fin p')) (.fin p') (.fin q') = .ok false := by
  have hfb : ∀ e, F64.secantFallback f args (.fin p) (.fin q) tol = some (.error e) → OwnError e := by
    intro e h
    unfold F64.secantFallback at h
    cases args with
    | cons a as =>
      cases h
      exact ⟨by simp, by simp⟩
    | nil =>
      simp only at h
      cases hb : F64.bisection f [] (.fin p) (.fin q) tol (some 20000) true 20000 with
      | none => rw [hb] at h; cases h
      | some r =>
        rw [hb] at h
        cases r with
        | ok r => cases h
        | error e' => cases h; exact bisection_own hb
  have hfb' : ∀ x n b, F64.secantFallback f args (.fin p) (.fin q) tol = some (.ok (x, n, b)) → b = true := by
    intro x n b h
    unfold F64.secantFallback at h
    cases args with
    | cons a as => cases h
    | nil =>
      simp only at h
      cases hb : F64.bisection f [] (.fin p) (.fin q) tol (some 20000) true 20000 with
      | none => rw [hb] at h; cases h
      | some r =>
        rw [hb] at h
        cases r with
        | ok r => cases h; rfl
        | error e' => cases h
  unfold F64.secant
  have hg : F64.checkGuesses (.fin p) (.fin q) = .ok () := rfl
  rw [hg]
  simp only
  cases h2 : F64.isclose tol (.fin q) (.fin p) with
  | error e' => exact ⟨fun e h => (by cases h; exact isclose_own h2), fun x n h => (by cases h)⟩
  | ok c =>
    cases c with
    | true => exact ⟨fun e h => (by cases h; exact ⟨by simp, by simp⟩), fun x n h => (by cases h)⟩
    | false =>
      refine secantLoop_cases ?_ ?_ fuel 0 p q none (fun k => if k = 0 then .fin p else .fin q) dp dq
        ⟨rfl, rfl, fun k hk => absurd hk (Nat.not_lt_zero k)⟩ rfl rfl (Or.inr (first_pass ht h2))
      · intro e h
        split_ifs at h
        · exact hfb e h
        · cases h
          exact ⟨by simp, by simp⟩
      · intro x n b h
        split_ifs at h
        · exact hfb' x n b h
        · cases h

/-- C138: from finite guesses and with a tolerance that is not nan, `secant` on doubles never divides by zero and never reads `x_3`
before it is set; an answer found without `bisection` is a finite double. -/
theorem C138_errors_partial (f : SolveFun64 A) (args : List A) {lo hi : ℚ} (dlo : FiniteDouble lo) (dhi : FiniteDouble hi) {tol : Flt}
    (ht : tol ≠ .nan) (maxIts : Option ℤ) (fallback : Bool) (fuel : ℕ) :
    F64.secant f args (.fin lo) (.fin hi) tol maxIts fallback fuel ≠ some (.error .zeroDiv) ∧
    F64.secant f args (.fin lo) (.fin hi) tol maxIts fallback fuel ≠ some (.error .unbound) ∧
    ∀ x n, F64.secant f args (.fin lo) (.fin hi) tol maxIts fallback fuel = some (.ok (x, n, false)) → ∃ q, FiniteDouble q ∧ x = .fin q := by
  obtain ⟨h1, h2⟩ := secant_enter (f := f) (args := args) ht dlo dhi (maxIts := maxIts) (fallback := fallback) (fuel := fuel)
  refine ⟨fun h => (h1 _ h).1 rfl, fun h => (h1 _ h).2 rfl, fun x n h => ?_⟩
  obtain ⟨-, -, p', q', -, dq, -, -, -, hx, -⟩ := h2 x n h
  exact ⟨q', dq, hx⟩

/-- When the loop ends the last two guesses are close. -/
theorem close_of_cond {t p q : ℚ} (ht : 0 ≤ t) (hp : |p| ≤ maxDouble) (hq : |q| ≤ maxDouble)
    (hc : F64.loopCond (.fin t) (F64.sub (.fin q) (.fin p)) (.fin p) (.fin q) = .ok false) : CloseR t p q := by
  have hcases : F64.abs (F64.sub (.fin q) (.fin p)) = .posInf ∨ F64.abs (F64.sub (.fin q) (.fin p)) = .fin |rnd64 (q - p)| := by
    show F64.abs (Val.cap (rnd64 (q - p))) = _ ∨ F64.abs (Val.cap (rnd64 (q - p))) = _
    unfold Val.cap
    split_ifs
    · exact Or.inl rfl
    · exact Or.inl rfl
    · exact Or.inr rfl
  unfold F64.loopCond F64.isclose at hc
  rw [mul_fin (relTol_mul hp), mul_fin (relTol_mul hq), if_neg (show ¬ F64.lt (.fin t) (.fin 0) = true by simp [F64.lt, ht])] at hc
  simp only [Val.isInf, Bool.or_self, Bool.false_eq_true, if_false] at hc
  rcases hcases with h | h <;> rw [h] at hc
  · by_cases e : F64.eq (.fin p) (.fin q) = true
    · exact Or.inl (by simpa [F64.eq] using e)
    · rw [if_neg e] at hc
      simp [F64.lt, F64.le, F64.eq, F64.abs, bind, Except.bind, pure, Except.pure] at hc
  · by_cases e : F64.eq (.fin p) (.fin q) = true
    · exact Or.inl (by simpa [F64.eq] using e)
    · rw [if_neg e] at hc
      by_cases h1 : F64.lt (.fin t) (.fin |rnd64 (q - p)|) = true
      · rw [if_pos h1] at hc
        simp only [F64.abs, le_fin, bind, Except.bind, pure, Except.pure, Except.ok.injEq, Bool.not_eq_false', Bool.or_eq_true,
          decide_eq_true_eq] at hc
        right
        tauto
      · right; right; right
        simpa [F64.lt] using h1

/-- C138: the answer is the guess reached after the reported number of secant steps, at least one, and agrees with the guess before it, to
within the tolerance or 10⁻⁹ of its size, give or take rounding. -/
theorem C138_agree_partial (f : SolveFun64 A) (args : List A) {lo hi t : ℚ} (dlo : FiniteDouble lo) (dhi : FiniteDouble hi)
    (ht : 2 ^ (-1000 : ℤ) ≤ t) (maxIts : Option ℤ) (fallback : Bool) (fuel : ℕ) {x : Flt} {n : ℕ}
    (h : F64.secant f args (.fin lo) (.fin hi) (.fin t) maxIts fallback fuel = some (.ok (x, n, false))) :
    0 < n ∧ ∃ s, SecantGuesses f args (.fin lo) (.fin hi) s n ∧
      ∃ p q : ℚ, FiniteDouble p ∧ FiniteDouble q ∧ s n = .fin p ∧ s (n + 1) = .fin q ∧ x = .fin q ∧ |p - q| ≤ lastWidth t q := by
  have ht0 : 0 ≤ t := (two_zpow_pos _).le.trans ht
  obtain ⟨-, h2⟩ := secant_enter (f := f) (args := args) (tol := .fin t) (by simp) dlo dhi (maxIts := maxIts) (fallback := fallback)
    (fuel := fuel)
  obtain ⟨hn, s, p, q, dp, dq, hs, sp, sq, hx, hc⟩ := h2 x n h
  refine ⟨hn, s, hs, p, q, dp, dq, sp, sq, hx, ?_⟩
  have hclose := close_of_cond ht0 dp.2 dq.2 hc
  rw [abs_sub_comm]
  exact near_point ht0 ⟨min_le_right _ _, le_max_right _ _⟩ (near ht dp.1 dq.1 (le_max_left _ _) (le_max_right _ _) hclose)

/-- The hypotheses are met: with the default tolerance the root of x / 2 - 1 is found from the guesses 0 and 1 in two iterations. -/
example : F64.secant line64 [] (.fin 0) (.fin 1) (.fin F64.relTol) (some 20000) true 20000 = some (.ok (.fin 2, 2, false)) ∧
    FiniteDouble 0 ∧ FiniteDouble 1 ∧ (2 : ℚ) ^ (-1000 : ℤ) ≤ F64.relTol :=
  ⟨by decide +kernel, ⟨⟨0, 0, by norm_num, by norm_num, by norm_num⟩, small_max (by norm_num)⟩, one_double, tol_1000 relTol_small.2.2⟩

/-- C138 does not hold for a tolerance that is nan: the loop is left before it starts and `x_3` is read without having been set, for every
function. -/
theorem C138_nan_counterexample (f : SolveFun64 A) (args : List A) (maxIts : Option ℤ) (fallback : Bool) (fuel : ℕ) :
    F64.secant f args (.fin 0) (.fin 1) .nan maxIts fallback fuel = some (.error .unbound) ∧
    SolverErr.unbound.toPy = .unboundLocal := by
  refine ⟨?_, rfl⟩
  have hclose : F64.isclose .nan (.fin 1) (.fin 0) = .ok false := by decide +kernel
  unfold F64.secant F64.checkGuesses
  rw [hclose]
  simp only [Val.isInf, Val.isNan, Bool.or_self, Bool.false_eq_true, if_false]
  unfold F64.secantLoop
  rfl

/-- x ↦ 1 + 10²⁰ (1 - x)² on the doubles, rounded once -/
def parabola64 : SolveFun64 Unit := fun x _ =>
  match x with
  | .fin x => .ok (.fin (rnd64 (1 + 10 ^ 20 * (1 - x) ^ 2)))
  | v => .ok v

/-- Agreement of the last two guesses does not make a root: 1 + 10²⁰ (1 - x)² is nowhere below 1, but from the guesses 0 and 1 `secant`
reports the root 1 after one iteration. -/
theorem C138_no_root_counterexample :
    F64.secant parabola64 [] (.fin 0) (.fin 1) (.fin F64.relTol) (some 20000) true 20000 = some (.ok (.fin 1, 1, false)) ∧
    ∀ x : ℚ, ∃ y, parabola64 (.fin x) [] = .ok (.fin y) ∧ 1 ≤ y := by
  refine ⟨by decide +kernel, fun x => ⟨_, rfl, ?_⟩⟩
  have h := rnd64_mono (show (1 : ℚ) ≤ 1 + 10 ^ 20 * (1 - x) ^ 2 by nlinarith [sq_nonneg (1 - x)])
  rwa [rnd64_unit] at h

end BeamDesign
