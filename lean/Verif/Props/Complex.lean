import Verif.Spec.Complex

/-!
# C136: roots of negative numbers
-/

set_option linter.unusedSectionVars false

namespace BeamDesign

open Spec PyVal

theorem div_flt (a b : ℝ) : div (.flt a) (.flt b) = (rdiv a b).map .flt := by
  simp only [PyVal.div, rdiv]
  split_ifs <;> rfl

theorem add_flt (a b : ℝ) : PyVal.add (.flt a) (.flt b) = .flt (a + b) := rfl

theorem sub_flt (a b : ℝ) : PyVal.sub (.flt a) (.flt b) = .flt (a - b) := rfl

theorem mul_flt (a b : ℝ) : PyVal.mul (.flt a) (.flt b) = .flt (a * b) := rfl

theorem sq_flt (a : ℝ) : PyVal.sq (.flt a) = .flt (a ^ 2) := rfl

theorem pymin_flt (a b : ℝ) : pymin (.flt a) (.flt b) = .ok (.flt (min a b)) := by
  unfold pymin less
  simp only [bind, Except.bind, pure, Except.pure, decide_eq_true_eq]
  congr 1
  split_ifs with h
  · rw [min_eq_right h.le]
  · rw [min_eq_left (not_lt.1 h)]

theorem pymax_flt (a b : ℝ) : pymax (.flt a) (.flt b) = .ok (.flt (max a b)) := by
  unfold pymax less
  simp only [bind, Except.bind, pure, Except.pure, decide_eq_true_eq]
  congr 1
  split_ifs with h
  · rw [max_eq_right h.le]
  · rw [max_eq_left (not_lt.1 h)]

theorem root_nonneg {x : ℝ} (h : 0 ≤ x) : root (.flt x) = .flt (Real.sqrt x) := by
  simp only [root, h.not_gt, if_false]

theorem root_neg {x : ℝ} (h : x < 0) : root (.flt x) = .cplx ((Real.sqrt (-x) : ℂ) * Complex.I) := by
  simp only [root, h, if_true]
  rw [Complex.ofReal_cpow_of_nonpos h.le]
  congr 1
  rw [show (-(x : ℂ)) = ((-x : ℝ) : ℂ) by push_cast; ring]
  rw [show (1 / 2 : ℂ) = ((1 / 2 : ℝ) : ℂ) by push_cast; ring, ← Complex.ofReal_cpow (by linarith), ← Real.sqrt_eq_rpow]
  congr 1
  rw [show (Real.pi : ℂ) * Complex.I * ((1 / 2 : ℝ) : ℂ) = Real.pi / 2 * Complex.I by push_cast; ring, Complex.exp_pi_div_two_mul_I]

/-- `α_c` of a float is the float of the formula. -/
theorem alphaC_flt (ln ab : ℝ) : Cx.alphaC (.flt ln) ab = (S6.alphaC ln ab).map floatsC := by
  unfold Cx.alphaC S6.alphaC
  simp only [mul_flt, sub_flt, add_flt, div_flt]
  generalize rdiv _ _ = q
  cases q with
  | error e => rfl
  | ok aa =>
    simp only [Except.map, bind, Except.bind, pure, Except.pure, mul_flt, sub_flt, add_flt, pymax_flt, div_flt]
    generalize ln + aa * ab = lam
    have h90 : rdiv lam 90 = .ok (lam / 90) := by unfold rdiv; rw [if_neg (by norm_num)]
    simp only [h90, Except.map, sq_flt, add_flt, mul_flt, div_flt]
    generalize he : max (326 / 100000 * (lam - 27 / 2)) 0 = eta
    have he0 : 0 ≤ eta := he ▸ le_max_right _ _
    unfold rdiv
    by_cases h0 : 2 * (lam / 90) ^ 2 = 0
    · simp [h0]
    · simp only [h0, if_false, div_flt, mul_flt]
      generalize hxi : ((lam / 90) ^ 2 + 1 + eta) / (2 * (lam / 90) ^ 2) = xi
      unfold rdiv
      by_cases h1 : xi * lam = 0
      · simp [h1, Except.map]
      · simp only [h1, if_false, Except.map, sq_flt, sub_flt]
        have hlam : lam ≠ 0 := by rintro rfl; simp at h0
        have ht : (90 / (xi * lam)) ^ 2 ≤ 1 := by
          have e : 90 / (xi * lam) = 2 * (lam / 90) / ((lam / 90) ^ 2 + 1 + eta) := by
            have : (lam / 90) ^ 2 + 1 + eta ≠ 0 := by positivity
            rw [← hxi]; field_simp
            try ring
          rw [e, sq_le_one_iff_abs_le_one, abs_div, abs_of_pos (by positivity : 0 < (lam / 90) ^ 2 + 1 + eta),
            div_le_one (by positivity), abs_mul, abs_two]
          nlinarith [sq_nonneg (|lam / 90| - 1), sq_abs (lam / 90)]
        have hr : (0 : ℝ) ≤ 1 - (90 / (xi * lam)) ^ 2 := by linarith
        simp only [root_nonneg hr, rsqrt, hr.not_gt, if_false, sub_flt, mul_flt]
        rfl

theorem rsqrt_nonneg {x : ℝ} (h : 0 ≤ x) : rsqrt x = .ok (Real.sqrt x) := by
  simp only [rsqrt, h.not_gt, if_false]

theorem rsqrt_neg {x : ℝ} (h : x < 0) : rsqrt x = .error .outsideModel := by
  simp only [rsqrt, h, if_true]

theorem rdiv_zero' (a : ℝ) : rdiv a 0 = .error .zeroDivision := by simp [rdiv]

theorem rdiv_ok' (a : ℝ) {b : ℝ} (h : b ≠ 0) : rdiv a b = .ok (a / b) := by simp [rdiv, h]

theorem never_map {α β : Type} (f : α → β) (r : Py α) (h : r ≠ .error .outsideModel) : NeverComplex f r (r.map f) := by
  unfold NeverComplex
  match r with
  | .ok v => rfl
  | .error e => cases e <;> first | rfl | exact absurd rfl h

theorem never_out {α β : Type} {f : α → β} {r : Py α} {c : Py β} (hr : r = .error .outsideModel)
    (hc : c = .error .typeError ∨ c = .error .zeroDivision) : NeverComplex f r c := by
  subst hr
  exact hc

theorem rdiv_inside {a b : ℝ} {e : PyErr} (h : rdiv a b = .error e) : e = .zeroDivision := by
  unfold rdiv at h
  split_ifs at h
  cases h; rfl

theorem alphaC_inside (ln ab : ℝ) : S6.alphaC ln ab ≠ .error .outsideModel := by
  intro h
  have h1 := alphaC_flt ln ab
  rw [h] at h1
  unfold Cx.alphaC at h1
  simp only [mul_flt, sub_flt, add_flt, div_flt] at h1
  rcases h2 : rdiv (2100 * (ln - 27 / 2)) (ln * ln - 153 / 10 * ln + 2050) with e | aa
  · cases rdiv_inside h2
    simp [h2, Except.map, bind, Except.bind] at h1
  · simp only [h2, Except.map, bind, Except.bind, pure, Except.pure, mul_flt, sub_flt, add_flt, pymax_flt, div_flt,
      rdiv_ok' _ (by norm_num : (90 : ℝ) ≠ 0), sq_flt] at h1
    generalize ln + aa * ab = lam at h1
    rcases h3 : rdiv ((lam / 90) ^ 2 + 1 + max (326 / 100000 * (lam - 27 / 2)) 0) (2 * (lam / 90) ^ 2) with e | xi
    · cases rdiv_inside h3
      simp [h3] at h1
    · simp only [h3, mul_flt, div_flt] at h1
      rcases h4 : rdiv 90 (xi * lam) with e | t
      · cases rdiv_inside h4
        simp [h4, Except.map] at h1
      · simp [h4, Except.map] at h1

/-- `λ_n` as a complex number stops at the comparison. -/
theorem alphaC_cplx (z : ℂ) (ab : ℝ) (hz : z * z - 153 / 10 * z + 2050 ≠ 0) : Cx.alphaC (.cplx z) ab = .error .typeError := by
  unfold Cx.alphaC
  have e : (PyVal.add (PyVal.sub (PyVal.mul (.cplx z) (.cplx z)) (PyVal.mul (.flt (153 / 10)) (.cplx z))) (.flt 2050)).toC
      = z * z - 153 / 10 * z + 2050 := by
    simp [PyVal.add, PyVal.sub, PyVal.mul, toC]
  have e2 : PyVal.div (PyVal.mul (.flt 2100) (PyVal.sub (.cplx z) (.flt (27 / 2))))
      (PyVal.add (PyVal.sub (PyVal.mul (.cplx z) (.cplx z)) (PyVal.mul (.flt (153 / 10)) (.cplx z))) (.flt 2050))
      = .ok (.cplx (2100 * (z - 27 / 2) / (z * z - 153 / 10 * z + 2050))) := by
    simp only [PyVal.add, PyVal.sub, PyVal.mul, toC] at e ⊢
    simp only [PyVal.div, toC, e, hz, if_false]
    push_cast
    simp
  rw [e2]
  simp [bind, Except.bind, PyVal.add, PyVal.mul, PyVal.sub, pymax, less]

theorem never_bind {α β γ δ : Type} {f : α → β} {g : γ → δ} {r : Py α} {c : Py β} {k : α → Py γ} {k' : β → Py δ}
    (h : NeverComplex f r c) (hk : ∀ v, r = .ok v → NeverComplex g (k v) (k' (f v))) : NeverComplex g (r >>= k) (c >>= k') := by
  unfold NeverComplex at h
  match r with
  | .ok v =>
    subst h
    exact hk v rfl
  | .error e =>
    cases e
    case outsideModel =>
      rcases h with rfl | rfl
      · exact Or.inl rfl
      · exact Or.inr rfl
    all_goals subst h; rfl

theorem never_ok {α β : Type} {f : α → β} {v : α} {w : β} (h : w = f v) : NeverComplex f (.ok v) (.ok w) := by
  subst h; rfl

theorem rdiv_never (a b : ℝ) : NeverComplex PyVal.flt (rdiv a b) (PyVal.div (.flt a) (.flt b)) := by
  rw [div_flt]
  refine never_map _ _ fun h => ?_
  cases rdiv_inside h

/-- A number on one of the two axes is no root of the denominator of `α_a`. -/
theorem denominator_ne {z : ℂ} (h : z.re = 0 ∨ z.im = 0) : z * z - 153 / 10 * z + 2050 ≠ 0 := by
  intro h0
  have hre := congrArg Complex.re h0
  have him := congrArg Complex.im h0
  have e : (153 / 10 : ℂ) = ((153 / 10 : ℝ) : ℂ) := by push_cast; ring
  have e2 : (2050 : ℂ) = ((2050 : ℝ) : ℂ) := by push_cast; ring
  rw [e, e2] at hre him
  simp only [Complex.add_re, Complex.sub_re, Complex.mul_re, Complex.ofReal_re, Complex.ofReal_im, Complex.zero_re,
    Complex.add_im, Complex.sub_im, Complex.mul_im, Complex.zero_im] at hre him
  rcases h with h | h
  · rw [h] at hre him
    have : z.im = 0 := by linarith
    rw [this] at hre
    norm_num at hre
  · rw [h] at hre
    nlinarith [sq_nonneg (z.re - 153 / 20)]

theorem lambdaN_never {kf le r fy fref ab : ℝ} : NeverComplex floatsC (S6.lambdaN kf le r fy fref >>= fun ln => S6.alphaC ln ab)
    (Cx.lambdaN kf le r fy fref >>= fun ln => Cx.alphaC ln ab) ∧
    (∀ v, S6.lambdaN kf le r fy fref = .ok v → Cx.lambdaN kf le r fy fref = .ok (.flt v)) := by
  unfold S6.lambdaN Cx.lambdaN
  simp only [div_flt]
  by_cases hr : r = 0
  · subst hr
    simp only [rdiv_zero', Except.map, bind, Except.bind]
    exact ⟨rfl, fun v h => nomatch h⟩
  simp only [rdiv_ok' _ hr, Except.map, bind, Except.bind, pure, Except.pure]
  generalize le / r = s
  by_cases hf : fref = 0
  · subst hf
    simp only [rdiv_zero']
    rcases lt_or_ge kf 0 with hk | hk
    · simp only [rsqrt_neg hk]
      exact ⟨Or.inr rfl, fun v h => nomatch h⟩
    · simp only [rsqrt_nonneg hk]
      exact ⟨rfl, fun v h => nomatch h⟩
  simp only [rdiv_ok' _ hf]
  generalize fy / fref = q
  rcases lt_or_ge kf 0 with hk | hk <;> rcases lt_or_ge q 0 with hq | hq
  · simp only [rsqrt_neg hk, root_neg hk, root_neg hq, PyVal.mul, toC]
    refine ⟨Or.inl (alphaC_cplx _ _ (denominator_ne (Or.inr ?_))), fun v h => nomatch h⟩
    simp
  · simp only [rsqrt_neg hk, root_neg hk, root_nonneg hq, PyVal.mul, toC]
    refine ⟨Or.inl (alphaC_cplx _ _ (denominator_ne (Or.inl ?_))), fun v h => nomatch h⟩
    simp
  · simp only [rsqrt_nonneg hk, rsqrt_neg hq, root_nonneg hk, root_neg hq, PyVal.mul, toC]
    refine ⟨Or.inl (alphaC_cplx _ _ (denominator_ne (Or.inl ?_))), fun v h => nomatch h⟩
    simp
  · simp only [rsqrt_nonneg hk, rsqrt_nonneg hq, root_nonneg hk, root_nonneg hq, mul_flt]
    refine ⟨?_, fun v h => by cases h; rfl⟩
    rw [alphaC_flt]
    exact never_map _ _ (alphaC_inside _ _)

/-- C136: `s6_3_3_N_c` never gives a complex number, whatever floats it is called with. -/
theorem C136_flexural_partial (An kf le r fy fref alphaB : ℝ) :
    NeverComplex floatsF (S6.NcFlexural An kf le r fy fref alphaB) (Cx.NcFlexural An kf le r fy fref alphaB) := by
  obtain ⟨h1, h2⟩ := lambdaN_never (kf := kf) (le := le) (r := r) (fy := fy) (fref := fref) (ab := alphaB)
  unfold S6.NcFlexural Cx.NcFlexural
  rcases hl : S6.lambdaN kf le r fy fref with e | ln
  · rw [hl] at h1
    rcases hc : Cx.lambdaN kf le r fy fref with e' | z
    · rw [hc] at h1
      cases e
      case outsideModel =>
        rcases h1 with h1 | h1 <;> cases h1
        · exact Or.inl rfl
        · exact Or.inr rfl
      all_goals (cases h1; rfl)
    · rw [hc] at h1
      simp only [bind, Except.bind] at h1 ⊢
      cases e
      case outsideModel =>
        rcases h1 with h1 | h1 <;> rw [h1]
        · exact Or.inl rfl
        · exact Or.inr rfl
      all_goals (unfold NeverComplex at h1; simp only at h1; rw [h1]; rfl)
  · rw [hl, h2 ln hl] at h1
    rw [h2 ln hl]
    simp only [bind, Except.bind, pure, Except.pure] at h1 ⊢
    refine never_bind h1 fun v _ => never_ok ?_
    rfl

theorem discriminant_nonneg (a b : ℝ) {q : ℝ} (hq : q ^ 2 ≤ 1) : 0 ≤ (a + b) ^ 2 - 4 * (1 - q ^ 2) * a * b := by
  rcases le_or_gt 0 (a * b) with h | h
  · nlinarith [sq_nonneg (a - b), mul_nonneg (sq_nonneg q) h]
  · nlinarith [sq_nonneg (a + b), mul_nonneg (sub_nonneg.2 hq) (neg_pos.2 h).le]

theorem rol_real (rx ry xo yo : ℝ) : S6.rol rx ry xo yo = .ok (Real.sqrt (rx * rx + ry * ry + xo * xo + yo * yo)) :=
  rsqrt_nonneg (by nlinarith [mul_self_nonneg rx, mul_self_nonneg ry, mul_self_nonneg xo, mul_self_nonneg yo])

theorem fEuler_inside {E l r : ℝ} {e : PyErr} (h : S6.fEuler E l r = .error e) : e = .zeroDivision := by
  unfold S6.fEuler at h
  rcases h1 : rdiv l r with e' | s
  · rw [h1] at h
    cases h
    exact rdiv_inside h1
  · rw [h1] at h
    exact rdiv_inside h

theorem fEulerTorsion_inside {A l rx ry xo yo J Iw E G : ℝ} {e : PyErr} (h : S6.fEulerTorsion A l rx ry xo yo J Iw E G = .error e) :
    e = .zeroDivision := by
  unfold S6.fEulerTorsion at h
  rw [rol_real] at h
  simp only [bind, Except.bind, pure, Except.pure] at h
  generalize Real.sqrt _ = ro at h
  rcases h1 : rdiv (G * J) (A * ro * ro) with e' | s
  · rw [h1] at h
    cases h
    exact rdiv_inside h1
  · rw [h1] at h
    simp only at h
    rcases h2 : rdiv (piD * piD * E * Iw) (G * J * (l * l)) with e' | s
    · rw [h2] at h
      cases h
      exact rdiv_inside h2
    · rw [h2] at h
      cases h

/-- In exact arithmetic the root in `f_oxz` is that of a number that is not negative, whatever the data. -/
theorem foxz_flt (An lex lez rx ry xo yo J Iw E G : ℝ) :
    Cx.foxz An lex lez rx ry xo yo J Iw E G = (S6.foxz An lex lez rx ry xo yo J Iw E G).map (fun f => .flt f.foxz) ∧
    S6.foxz An lex lez rx ry xo yo J Iw E G ≠ .error .outsideModel := by
  unfold Cx.foxz S6.foxz
  rw [rol_real]
  simp only [bind, Except.bind, pure, Except.pure]
  have hS : (0 : ℝ) ≤ rx * rx + ry * ry + xo * xo + yo * yo := by
    nlinarith [mul_self_nonneg rx, mul_self_nonneg ry, mul_self_nonneg xo, mul_self_nonneg yo]
  generalize hro : Real.sqrt (rx * rx + ry * ry + xo * xo + yo * yo) = ro
  by_cases h0 : ro = 0
  · simp [h0, rdiv_zero', Except.map]
  have hq : (xo / ro) ^ 2 ≤ 1 := by
    have hS' : 0 < rx * rx + ry * ry + xo * xo + yo * yo := by
      rcases hS.lt_or_eq with h | h
      · exact h
      · rw [← h, Real.sqrt_zero] at hro
        exact absurd hro.symm h0
    rw [div_pow, ← hro, Real.sq_sqrt hS, div_le_one hS']
    nlinarith [mul_self_nonneg rx, mul_self_nonneg ry, mul_self_nonneg xo, mul_self_nonneg yo]
  simp only [rdiv_ok' _ h0]
  rcases h1 : S6.fEuler E lex rx with e | fox
  · cases fEuler_inside h1
    exact ⟨rfl, by simp⟩
  rcases h2 : S6.fEulerTorsion An lez rx ry xo yo J Iw E G with e | foz
  · cases fEulerTorsion_inside h2
    exact ⟨rfl, by simp⟩
  simp only
  rcases h3 : rdiv 1 (2 * (1 - (xo / ro) ^ 2)) with e | h
  · cases rdiv_inside h3
    exact ⟨rfl, by simp⟩
  have hd := discriminant_nonneg fox foz hq
  simp only [rsqrt_nonneg hd, root_nonneg hd, sub_flt, mul_flt, Except.map]
  exact ⟨trivial, by simp⟩

theorem foc_flt (roots : S6.Roots) (m : Member) (sym : Symmetry) (hs : KnownSymmetry sym) :
    NeverComplex PyVal.flt (S6.foc roots m sym) (Cx.foc m sym) := by
  have hf : ∀ An lex lez rx ry xo yo J Iw E G, NeverComplex (fun f : S6.Foxz => PyVal.flt f.foxz)
      (S6.foxz An lex lez rx ry xo yo J Iw E G) (Cx.foxz An lex lez rx ry xo yo J Iw E G) := by
    intro An lex lez rx ry xo yo J Iw E G
    obtain ⟨h1, h2⟩ := foxz_flt An lex lez rx ry xo yo J Iw E G
    rw [h1]
    exact never_map _ _ h2
  have ht : ∀ A l rx ry xo yo J Iw E G, NeverComplex (id : ℝ → ℝ) (S6.fEulerTorsion A l rx ry xo yo J Iw E G)
      (S6.fEulerTorsion A l rx ry xo yo J Iw E G) := by
    intro A l rx ry xo yo J Iw E G
    have := never_map id (S6.fEulerTorsion A l rx ry xo yo J Iw E G) (fun h => by cases fEulerTorsion_inside h)
    simpa using this
  unfold S6.foc Cx.foc
  rcases h : sym.symmetry with e | k
  · have : e = .typeError := by
      unfold Symmetry.symmetry at h
      split at h <;> cases h
      rfl
    subst this
    rfl
  cases k
  · show NeverComplex _ (S6.focDouble m) (Cx.focDouble m)
    unfold S6.focDouble Cx.focDouble
    refine never_bind (hf _ _ _ _ _ _ _ _ _ _ _) fun f _ => never_bind (ht _ _ _ _ _ _ _ _ _ _) fun z _ => ?_
    simp only [id, pymin_flt]
    exact never_ok rfl
  · show NeverComplex _ (S6.focSingle m sym) (Cx.focSingle m sym)
    unfold S6.focSingle Cx.focSingle
    rcases hn : sym.symcount with e | n
    · have : e = .typeError := by
        unfold Symmetry.symcount at hn
        split at hn <;> cases hn
        rfl
      subst this
      rfl
    simp only [bind, Except.bind]
    split_ifs
    · rfl
    · have := never_bind (g := PyVal.flt) (k := fun f : S6.Foxz => .ok f.foxz) (k' := fun f => .ok f)
        (hf m.An m.lex m.lez m.rx m.ry m.xo m.yo m.J m.Iw m.E m.G) (fun v _ => never_ok rfl)
      generalize Cx.foxz _ _ _ _ _ _ _ _ _ _ _ = c at this ⊢
      cases c <;> exact this
    · have := never_bind (g := PyVal.flt) (k := fun f : S6.Foxz => .ok f.foxz) (k' := fun f => .ok f)
        (hf m.An m.ley m.lez m.ry m.rx m.yo m.xo m.J m.Iw m.E m.G) (fun v _ => never_ok rfl)
      generalize Cx.foxz _ _ _ _ _ _ _ _ _ _ _ = c at this ⊢
      cases c <;> exact this
  · have := never_bind (g := PyVal.flt) (k := fun z : ℝ => .ok z) (k' := fun z => .ok (PyVal.flt z))
      (ht m.An m.lez m.rx m.ry m.xo m.yo m.J m.Iw m.E m.G) (fun v _ => never_ok rfl)
    show NeverComplex _ (S6.focPoint m) (S6.focPoint m >>= fun z => .ok (PyVal.flt z))
    unfold S6.focPoint
    generalize S6.fEulerTorsion _ _ _ _ _ _ _ _ _ _ = c at this ⊢
    cases c <;> exact this
  · exact absurd h hs

theorem root_flt_neg {x : ℝ} (h : x < 0) : ∃ z, root (.flt x) = .cplx z ∧ z ≠ 0 := by
  refine ⟨_, root_neg h, ?_⟩
  have := Real.sqrt_pos.2 (neg_pos.2 h)
  simp [this.ne']

/-- C136: `s6_3_3_N_c_torsion` never gives a complex number for a section with an axis or point of symmetry. -/
theorem C136_torsion_partial (roots : S6.Roots) (m : Member) (kf fy : ℝ) (sym : Symmetry) (uncertainty : ℝ) (hs : KnownSymmetry sym) :
    NeverComplex floatsT (S6.NcTorsion roots m kf fy sym uncertainty) (Cx.NcTorsion m kf fy sym uncertainty) := by
  unfold S6.NcTorsion Cx.NcTorsion
  refine never_bind (foc_flt roots m sym hs) fun f _ => ?_
  unfold S6.columnCurve
  by_cases hf : f = 0
  · subst hf
    simp only [div_flt, rdiv_zero', Except.map, bind, Except.bind]
    rfl
  simp only [div_flt, rdiv_ok' _ hf, Except.map, bind, Except.bind, pure, Except.pure]
  rcases lt_or_ge (fy / f) 0 with hq | hq
  · rw [rsqrt_neg hq, root_neg hq]
    exact Or.inl rfl
  · rw [rsqrt_nonneg hq, root_nonneg hq]
    generalize Real.sqrt (fy / f) = lc
    simp only [lessEq, mul_flt]
    by_cases hl : lc ≤ 3 / 2
    · simp only [hl, decide_true, if_true]
      rfl
    · have : lc * lc ≠ 0 := by nlinarith [not_le.1 hl]
      simp only [hl, decide_false, if_false, div_flt, rdiv_ok' _ this, Except.map]
      rfl

/-- C136: `s6_1_1_Nc` never gives a complex number, whatever floats it is called with. -/
theorem C136_compression_partial (roots : S6.Roots) (a : S6.NcArgs) (hs : a.calcTorsion = true → KnownSymmetry a.sym) :
    NeverComplex floatsN (S6.Nc roots a) (Cx.Nc a) := by
  unfold S6.Nc Cx.Nc
  rcases hb : a.calcBuckling with _ | _
  · exact never_ok rfl
  simp only [if_true]
  refine never_bind (C136_flexural_partial _ _ _ _ _ _ _) fun bx _ => never_bind (C136_flexural_partial _ _ _ _ _ _ _) fun by' _ => ?_
  simp only [floatsF, pymin_flt, mul_flt, bind, Except.bind]
  rcases ht : a.calcTorsion with _ | _
  · exact never_ok rfl
  · simp only [if_true]
    refine never_bind (C136_torsion_partial roots a.member a.kf a.fy a.sym a.uncertainty (hs ht)) fun t _ => ?_
    simp only [floatsT, pymin_flt, mul_flt]
    exact never_ok rfl

/-- A negative yield stress takes the root of a negative number, so that the capacity call raises. -/
example : Cx.NcFlexural 1 1 1 1 (-1) 1 0 = .error .typeError ∨ Cx.NcFlexural 1 1 1 1 (-1) 1 0 = .error .zeroDivision := by
  have h := C136_flexural_partial 1 1 1 1 (-1) 1 0
  have : S6.NcFlexural 1 1 1 1 (-1) 1 0 = .error .outsideModel := by
    unfold S6.NcFlexural S6.lambdaN
    simp only [rdiv_ok' _ one_ne_zero, bind, Except.bind, rsqrt_nonneg zero_le_one, rsqrt_neg (show (-1 : ℝ) / 1 < 0 by norm_num)]
  rw [this] at h
  exact h

/-- The hypothesis is met by a section with two axes of symmetry. -/
example : KnownSymmetry ⟨some [.str "x", .str "y"]⟩ := by
  unfold KnownSymmetry
  decide

/-- C136: `s5_11_5_α_v` never gives a complex number. -/
theorem C136_shear_partial (dp tw fy slendernessLimit fref : ℝ) :
    NeverComplex PyVal.flt (S5Shear.alphaV dp tw fy slendernessLimit fref) (Cx.alphaV dp tw fy slendernessLimit fref) := by
  unfold S5Shear.alphaV Cx.alphaV
  refine never_bind (rdiv_never _ _) fun q _ => ?_
  rcases lt_or_ge q 0 with hq | hq
  · obtain ⟨z, hz, h0⟩ := root_flt_neg hq
    rw [rsqrt_neg hq, hz]
    simp only [PyVal.div, toC, h0, if_false, bind, Except.bind]
    split_ifs
    · exact Or.inr rfl
    · exact Or.inl rfl
  rw [rsqrt_nonneg hq, root_nonneg hq]
  show NeverComplex _ (rdiv slendernessLimit (Real.sqrt q) >>= _) _
  refine never_bind (rdiv_never _ _) fun lim _ => never_bind (rdiv_never _ _) fun t _ => ?_
  simp only [less, bind, Except.bind]
  by_cases hl : lim < t
  · simp only [hl, decide_true, if_true]
    exact never_bind (rdiv_never _ _) fun u _ => never_ok rfl
  · simp only [hl, decide_false, if_false]
    exact never_ok rfl

/-- C136: `s5_6_1_α_m` and, for a reference buckling moment that is a float, `s5_6_α_s` never give a complex number. -/
theorem C136_moment_factors_partial (Mmax M2 M3 M4 cap Ms Mo : ℝ) :
    NeverComplex PyVal.flt (S5.alphaM Mmax M2 M3 M4 cap) (Cx.alphaM Mmax M2 M3 M4 cap) ∧
    S5.alphaM Mmax M2 M3 M4 cap ≠ .error .outsideModel ∧
    NeverComplex PyVal.flt (S5.alphaS Ms Mo) (Cx.alphaS (.flt Ms) (.flt Mo)) ∧ S5.alphaS Ms Mo ≠ .error .outsideModel := by
  have h : 0 ≤ M2 * M2 + M3 * M3 + M4 * M4 := by nlinarith [mul_self_nonneg M2, mul_self_nonneg M3, mul_self_nonneg M4]
  unfold S5.alphaM Cx.alphaM S5.alphaS Cx.alphaS
  rw [rsqrt_nonneg h, root_nonneg h]
  refine ⟨?_, ?_, ?_, ?_⟩
  · show NeverComplex _ (rdiv _ _ >>= _) _
    refine never_bind (rdiv_never _ _) fun a _ => ?_
    rw [pymin_flt]
    exact never_ok rfl
  · simp only [bind, Except.bind]
    rcases h1 : rdiv (17 / 10 * |Mmax|) (Real.sqrt (M2 * M2 + M3 * M3 + M4 * M4)) with e | v
    · cases rdiv_inside h1
      simp
    · simp [pure, Except.pure]
  · by_cases h0 : Mo = 0
    · subst h0
      simp only [div_flt, rdiv_zero', Except.map, bind, Except.bind]
      rfl
    · have h3 : 0 ≤ (Ms / Mo) ^ 2 + 3 := by positivity
      simp only [div_flt, rdiv_ok' _ h0, Except.map, bind, Except.bind, sq_flt, add_flt, root_nonneg h3, rsqrt_nonneg h3, sub_flt,
        mul_flt]
      exact never_ok rfl
  · by_cases h0 : Mo = 0
    · subst h0
      simp [rdiv_zero', bind, Except.bind]
    · have h3 : 0 ≤ (Ms / Mo) ^ 2 + 3 := by positivity
      simp [rdiv_ok' _ h0, bind, Except.bind, rsqrt_nonneg h3, pure, Except.pure]

/-- C136: `s6_2_d_e_CHS` and `s6_2_A_e_flatplate` never give a complex number. -/
theorem C136_plates_partial (d le ley b t fy fref : ℝ) :
    NeverComplex PyVal.flt (Effective.dCHS d le ley) (Cx.dCHS d le ley) ∧
    NeverComplex PyVal.flt (Effective.aPlate b t fy ley fref) (Cx.aPlate b t fy ley fref) := by
  constructor
  · unfold Effective.dCHS Cx.dCHS
    by_cases h0 : le = 0
    · subst h0
      simp only [div_flt, rdiv_zero', Except.map, bind, Except.bind]
      rfl
    simp only [div_flt, rdiv_ok' _ h0, Except.map, bind, Except.bind]
    rcases lt_or_ge (ley / le) 0 with hq | hq
    · rw [rsqrt_neg hq, root_neg hq]
      exact Or.inl rfl
    · rw [rsqrt_nonneg hq, root_nonneg hq]
      simp only [mul_flt, sq_flt, pymin_flt]
      exact never_ok rfl
  · unfold Effective.aPlate Cx.aPlate Effective.lambdaPlate Cx.lambdaPlate Effective.bPlate Cx.bPlate
    by_cases ht : t = 0
    · subst ht
      simp only [div_flt, rdiv_zero', Except.map, bind, Except.bind]
      rfl
    by_cases hf : fref = 0
    · subst hf
      simp only [div_flt, rdiv_zero', rdiv_ok' _ ht, Except.map, bind, Except.bind]
      rfl
    simp only [div_flt, rdiv_ok' _ ht, rdiv_ok' _ hf, Except.map, bind, Except.bind, pure, Except.pure]
    rcases lt_or_ge (fy / fref) 0 with hq | hq
    · rw [rsqrt_neg hq, root_neg hq]
      simp only [PyVal.mul, PyVal.div]
      split_ifs
      · exact Or.inr rfl
      · exact Or.inl rfl
    · rw [rsqrt_nonneg hq, root_nonneg hq]
      simp only [mul_flt, div_flt]
      by_cases h0 : b / t * Real.sqrt (fy / fref) = 0
      · rw [h0]
        simp only [rdiv_zero', Except.map]
        rfl
      · simp only [rdiv_ok' _ h0, Except.map, mul_flt, pymin_flt]
        exact never_ok rfl

/-- C136: `s5_6_1_M_o` gives the floats of the formula unless the root of a negative number is taken, and then it gives a complex
number. -/
theorem C136_reference_moment (le Iy J Iw betaX E G : ℝ) :
    match S5.Mo le Iy J Iw betaX E G with
    | .ok v => Cx.Mo le Iy J Iw betaX E G = .ok (.flt v)
    | .error .outsideModel => ∃ z, Cx.Mo le Iy J Iw betaX E G = .ok (.cplx z)
    | .error e => Cx.Mo le Iy J Iw betaX E G = .error e := by
  unfold S5.Mo Cx.Mo
  by_cases h0 : le * le = 0
  · simp only [h0, div_flt, rdiv_zero', Except.map, bind, Except.bind]
  simp only [div_flt, rdiv_ok' _ h0, Except.map, bind, Except.bind, pure, Except.pure, mul_flt, add_flt]
  generalize piD * piD * E * Iy / (le * le) = a
  generalize G * J + _ + _ = b
  generalize betaX / 2 = d
  rcases lt_or_ge a 0 with ha | ha
  · rw [rsqrt_neg ha, root_neg ha]
    exact ⟨_, rfl⟩
  rw [rsqrt_nonneg ha, root_nonneg ha]
  rcases lt_or_ge b 0 with hb | hb
  · simp only [rsqrt_neg hb, root_neg hb]
    exact ⟨_, rfl⟩
  · simp only [rsqrt_nonneg hb, root_nonneg hb]
    rfl

theorem cpow_half_im (x : ℝ) : 0 ≤ ((x : ℂ) ^ (1 / 2 : ℂ)).im := by
  rcases lt_or_ge x 0 with h | h
  · have h1 := root_neg h
    simp only [root, h, if_true, PyVal.cplx.injEq] at h1
    rw [h1]
    simp [Real.sqrt_nonneg]
  · have : ((x : ℂ) ^ (1 / 2 : ℂ)) = ((x ^ (1 / 2 : ℝ) : ℝ) : ℂ) := by
      rw [Complex.ofReal_cpow h]
      norm_num
    rw [this]
    simp

/-- C136 does not hold of the bending capacity: with a negative `I_y` every positive section capacity gives a complex `M_b`, whose
imaginary part is not 0, and no exception. -/
theorem C136_counterexample {le Iy J Iw E G Ms am : ℝ} (hle : le ≠ 0) (hI : E * Iy < 0) (hb : 0 < G * J + piD * piD * E * Iw / (le * le))
    (hMs : 0 < Ms) (ham : 0 < am) :
    ∃ mo αs mb, Cx.Mo le Iy J Iw 0 E G = .ok (.cplx mo) ∧ Cx.alphaS (.flt Ms) (.cplx mo) = .ok (.cplx αs) ∧
      Cx.Mb (.flt Ms) (.flt am) (.cplx αs) = .cplx mb ∧ mb.im ≠ 0 := by
  have hl : 0 < le * le := mul_self_pos.2 hle
  have hpi : (0 : ℝ) < piD * piD := by
    have : (piD : ℝ) ≠ 0 := by unfold piD; norm_num
    exact mul_self_pos.2 this
  have ha : piD * piD * E * Iy / (le * le) < 0 := div_neg_of_neg_of_pos (by nlinarith) hl
  unfold Cx.Mo
  simp only [div_flt, rdiv_ok' _ hl.ne', Except.map, bind, Except.bind, pure, Except.pure, mul_flt, add_flt, zero_div, mul_zero, zero_mul,
    add_zero, root_neg ha, root_nonneg hb.le]
  have hy : 0 < Real.sqrt (-(piD * piD * E * Iy / (le * le))) := Real.sqrt_pos.2 (neg_pos.2 ha)
  have hz : 0 < Real.sqrt (G * J + piD * piD * E * Iw / (le * le)) := Real.sqrt_pos.2 hb
  generalize Real.sqrt (-(piD * piD * E * Iy / (le * le))) = y at hy
  generalize Real.sqrt (G * J + piD * piD * E * Iw / (le * le)) = z at hz
  have hm : (y : ℂ) * Complex.I * ((z : ℂ) + ((0 : ℝ) : ℂ) * (y * Complex.I)) = ((y * z : ℝ) : ℂ) * Complex.I := by
    push_cast; ring
  have hm0 : ((y * z : ℝ) : ℂ) * Complex.I ≠ 0 := by
    have := (mul_pos hy hz).ne'
    simp [hy.ne', hz.ne']
  have hx : (Ms : ℂ) / (((y * z : ℝ) : ℂ) * Complex.I) = ((-(Ms / (y * z)) : ℝ) : ℂ) * Complex.I := by
    rw [div_eq_iff hm0]
    have e : ((-(Ms / (y * z)) : ℝ) : ℂ) * Complex.I * (((y * z : ℝ) : ℂ) * Complex.I) = ((Ms / (y * z) * (y * z) : ℝ) : ℂ) := by
      rw [show ∀ a b : ℂ, a * Complex.I * (b * Complex.I) = a * b * Complex.I ^ 2 from fun a b => by ring, Complex.I_sq]
      push_cast
      ring
    rw [e, div_mul_cancel₀ _ (mul_pos hy hz).ne']
  have hw : 0 < Ms / (y * z) := by positivity
  have has : ∃ w, Cx.alphaS (.flt Ms) (.cplx (((y * z : ℝ) : ℂ) * Complex.I)) = .ok (.cplx w) ∧
      w = ((6 / 10 : ℝ) : ℂ) * ((((Ms : ℂ) / (((y * z : ℝ) : ℂ) * Complex.I)) ^ 2 + ((3 : ℝ) : ℂ)) ^ (1 / 2 : ℂ) -
        (Ms : ℂ) / (((y * z : ℝ) : ℂ) * Complex.I)) := by
    simp only [Cx.alphaS, PyVal.div, toC, hm0, if_false, bind, Except.bind, pure, Except.pure, PyVal.sq, PyVal.add, PyVal.root,
      PyVal.sub, PyVal.mul]
    exact ⟨_, rfl, rfl⟩
  obtain ⟨v, hv, hv'⟩ := has
  refine ⟨((y * z : ℝ) : ℂ) * Complex.I, v, (am : ℂ) * v * Ms, ?_, hv, rfl, ?_⟩
  · simp only [PyVal.mul, PyVal.add, toC]
    rw [hm]
  · rw [hv']
    rw [hx]
    generalize Ms / (y * z) = w at hw
    have e : (((-w : ℝ) : ℂ) * Complex.I) ^ 2 + ((3 : ℝ) : ℂ) = ((3 - w ^ 2 : ℝ) : ℂ) := by
      rw [mul_pow, Complex.I_sq]
      push_cast
      ring
    rw [e]
    have hr := cpow_half_im (3 - w ^ 2)
    generalize (((3 - w ^ 2 : ℝ) : ℂ) ^ (1 / 2 : ℂ)) = r at hr ⊢
    simp only [Complex.mul_im, Complex.sub_im, Complex.mul_re, Complex.sub_re, Complex.ofReal_re, Complex.ofReal_im, Complex.I_re,
      Complex.I_im]
    have : 0 < am * Ms * (6 / 10) * (r.im + w) := by positivity
    intro h
    nlinarith

/-- The hypotheses are met: I_y = -1. -/
example : (1 : ℝ) ≠ 0 ∧ (1 : ℝ) * (-1) < 0 ∧ (0 : ℝ) < 1 * 1 + piD * piD * 1 * 0 / (1 * 1) := by
  norm_num

/-- C136 does not hold of the slenderness itself: for a negative yield stress `s6_3_3_λ_n` and `s6_2_λ_e_flatplate` give a complex
number. -/
theorem C136_slenderness_counterexample {kf le r fy fref : ℝ} (hk : 0 < kf) (hl : 0 < le) (hr : 0 < r) (hf : fy < 0) (hr' : 0 < fref) :
    (∃ z, Cx.lambdaN kf le r fy fref = .ok (.cplx z) ∧ z.im ≠ 0) ∧ ∃ z, Cx.lambdaPlate le r fy fref = .ok (.cplx z) ∧ z.im ≠ 0 := by
  have hq : fy / fref < 0 := div_neg_of_neg_of_pos hf hr'
  have hy : 0 < Real.sqrt (-(fy / fref)) := Real.sqrt_pos.2 (neg_pos.2 hq)
  have h2 := Real.sqrt_pos.2 hk
  unfold Cx.lambdaN Cx.lambdaPlate
  simp only [div_flt, rdiv_ok' _ hr.ne', rdiv_ok' _ hr'.ne', Except.map, bind, Except.bind, pure, Except.pure, root_neg hq,
    root_nonneg hk.le, PyVal.mul, toC]
  refine ⟨⟨_, rfl, ?_⟩, ⟨_, rfl, ?_⟩⟩
  · simp [h2.ne', hy.ne', hl.ne', hr.ne']
  · simp [hy.ne', hl.ne', hr.ne']

end BeamDesign
