import Verif.Lemmas.TorsionRound2
import Verif.Props.BendingRound
import Verif.Props.S6
import Verif.Props.WebRound

/-!
# C106: the torsional buckling capacity in floating point
-/

namespace BeamDesign

open Spec

/-- with exact arithmetic `f_oxz` operation by operation is the `f_oxz` of `Model/S6` -/
theorem C106_exact_foxz {An lex lez rx ry xo yo J Iw E G : ℝ} {f : S6.Foxz}
    (h : S6.foxz An lex lez rx ry xo yo J Iw E G = .ok f) :
    S6R.foxz .exact An lex lez rx ry xo yo J Iw E G = .ok (.real f.foxz) := by
  have hq : ∀ a b, Arith.exact.quot a b = rdiv a b := fun _ _ => rfl
  have e1 : S6R.rol .exact rx ry xo yo = S6.rol rx ry xo yo := rfl
  have e2 : S6R.fEuler .exact E lex rx = S6.fEuler E lex rx := rfl
  have e3 : S6R.fEulerTorsion .exact An lez rx ry xo yo J Iw E G = S6.fEulerTorsion An lez rx ry xo yo J Iw E G := rfl
  simp only [S6R.foxz, S6R.solveFoxz, e1, e2, e3, hq]
  simp only [S6.foxz] at h
  cases h1 : S6.rol rx ry xo yo with
  | error e => rw [h1] at h; cases h
  | ok ro =>
  rw [h1] at h
  simp only [Except.bind_ok'] at h ⊢
  cases h2 : rdiv xo ro with
  | error e => rw [h2] at h; cases h
  | ok q =>
  rw [h2] at h
  simp only [Except.bind_ok'] at h ⊢
  cases h3 : S6.fEuler E lex rx with
  | error e => rw [h3] at h; cases h
  | ok fox =>
  rw [h3] at h
  simp only [Except.bind_ok'] at h ⊢
  cases h4 : S6.fEulerTorsion An lez rx ry xo yo J Iw E G with
  | error e => rw [h4] at h; cases h
  | ok foz =>
  rw [h4] at h
  simp only [Except.bind_ok', Arith.exact] at h ⊢
  cases h5 : rdiv 1 (2 * (1 - q ^ 2)) with
  | error e => rw [h5] at h; cases h
  | ok v =>
  rw [h5] at h
  simp only [Except.bind_ok', rsqrt] at h ⊢
  split_ifs at h with hd
  · cases h
  · injection h with h
    subst h
    exact congrArg Except.ok (if_neg hd)

/-- the choice of the clause with exact arithmetic -/
theorem exact_foc {roots : S6.Roots} {m : Member} {sym : Symmetry} {k : S6R.Sym} (hk : Sym.Of sym k) {f : ℝ}
    (h : S6.foc roots m sym = .ok f) : S6R.foc .exact (Bar.of m) k = .ok f := by
  have e3 : S6R.fEulerTorsion .exact m.An m.lez m.rx m.ry m.xo m.yo m.J m.Iw m.E m.G =
    S6.fEulerTorsion m.An m.lez m.rx m.ry m.xo m.yo m.J m.Iw m.E m.G := rfl
  cases k with
  | double =>
    simp only [Sym.Of] at hk
    simp only [S6.foc, hk, Except.bind_ok', S6.focDouble] at h
    cases h1 : S6.foxz m.An m.lex m.lez m.rx m.ry m.xo m.yo m.J m.Iw m.E m.G with
    | error e => rw [h1] at h; cases h
    | ok g =>
    rw [h1, Except.bind_ok'] at h
    simp only [S6R.foc, S6R.focDouble, Bar.of, C106_exact_foxz h1, Except.bind_ok', e3]
    exact h
  | point =>
    simp only [Sym.Of] at hk
    simp only [S6.foc, hk, Except.bind_ok', S6.focPoint] at h
    exact h
  | single x =>
    have hs : sym.symmetry = .ok .single := by
      cases x with
      | true =>
        simp only [Sym.Of] at hk
        simp [Symmetry.symmetry, hk, Axis.isStr]
      | false => exact hk.1
    have hc : sym.symcount = .ok 1 := by
      obtain ⟨_ | axes⟩ := sym
      · cases hs
      · simp only [Symmetry.symmetry, Except.ok.injEq] at hs
        simp only [Symmetry.symcount, Except.ok.injEq]
        by_contra hne
        split_ifs at hs
    simp only [S6.foc, hs, Except.bind_ok', S6.focSingle, hc, ne_eq, not_true_eq_false, if_false] at h
    obtain ⟨axes⟩ := sym
    cases axes with
    | none => cases hc
    | some l =>
    simp only [Symmetry.symcount, Except.ok.injEq] at hc
    obtain ⟨a, rfl⟩ := List.length_eq_one_iff.1 hc
    cases x with
    | true =>
      simp only [Sym.Of, Option.some.injEq, List.cons.injEq, and_true] at hk
      subst hk
      simp only [Option.getD_some, List.any_cons, Axis.isStr, beq_self_eq_true, List.any_nil, Bool.or_false, if_true] at h
      cases h1 : S6.foxz m.An m.lex m.lez m.rx m.ry m.xo m.yo m.J m.Iw m.E m.G with
      | error e => rw [h1] at h; cases h
      | ok g =>
      rw [h1, Except.bind_ok'] at h
      simp only [S6R.foc, S6R.focSingle, Bar.of, if_true, C106_exact_foxz h1, Except.bind_ok']
      exact h
    | false =>
      have hx : Axis.isStr "x" a = false := by
        have := hk.2
        cases a with
        | str s => simp only [Axis.isStr, beq_eq_false_iff_ne]; intro e; exact this (by rw [e])
        | angle _ => rfl
      simp only [Option.getD_some, List.any_cons, hx, List.any_nil, Bool.or_false, Bool.false_eq_true, if_false] at h
      cases h1 : S6.foxz m.An m.ley m.lez m.ry m.rx m.yo m.xo m.J m.Iw m.E m.G with
      | error e => rw [h1] at h; cases h
      | ok g =>
      rw [h1, Except.bind_ok'] at h
      simp only [S6R.foc, S6R.focSingle, Bar.of, Bool.false_eq_true, if_false, C106_exact_foxz h1, Except.bind_ok']
      exact h

/-- with exact arithmetic the torsional capacity operation by operation is the one of `Model/S6` -/
theorem C106_exact {roots : S6.Roots} {m : Member} {kf fy unc : ℝ} {sym : Symmetry} {k : S6R.Sym} (hk : Sym.Of sym k) {t : S6.Torsional}
    (h : S6.NcTorsion roots m kf fy sym unc = .ok t) : S6R.NcTorsion .exact rpow (Bar.of m) kf fy k unc = .ok t.Ncz := by
  have hc : ∀ f, S6R.columnCurve .exact rpow fy f = S6.columnCurve fy f := by
    intro f
    have hq : ∀ a b, Arith.exact.quot a b = rdiv a b := fun _ _ => rfl
    have hr : ∀ a, Arith.exact.root a = rsqrt a := fun _ => rfl
    simp only [S6R.columnCurve, S6.columnCurve, hq, hr]
    simp only [Arith.exact]
    norm_num
  simp only [S6.NcTorsion] at h
  cases h1 : S6.foc roots m sym with
  | error e => rw [h1] at h; cases h
  | ok f =>
  rw [h1, Except.bind_ok'] at h
  simp only [S6R.NcTorsion, exact_foc hk h1, Except.bind_ok', hc]
  cases h2 : S6.columnCurve fy f with
  | error e => rw [h2] at h; cases h
  | ok p =>
  rw [h2, Except.bind_ok'] at h
  injection h with h
  subst h
  rfl

/-- the numbers of a member, with lengths that may be rounded -/
structure BarNear (s : ℝ) (b : S6R.Bar ℝ) (m : Member) : Prop where
  An : b.An = m.An
  lex : Acc s b.lex m.lex
  ley : Acc s b.ley m.ley
  lez : Acc s b.lez m.lez
  rx : b.rx = m.rx
  ry : b.ry = m.ry
  xo : b.xo = m.xo
  yo : b.yo = m.yo
  J : b.J = m.J
  Iw : b.Iw = m.Iw
  E : b.E = m.E
  G : b.G = m.G

theorem barNear_of (m : Member) : BarNear 0 (Bar.of m) m :=
  ⟨rfl, Acc.refl le_rfl _, Acc.refl le_rfl _, Acc.refl le_rfl _, rfl, rfl, rfl, rfl, rfl, rfl, rfl, rfl⟩

/-- what has to hold of the stresses of a section and of their errors -/
theorem stress_acc {A : Arith ℝ} {u u0 s : ℝ} (hA : Rounded A u0) (huw : u0 ≤ u) (hs0 : 0 ≤ s) (hsw : 38 * u0 + 2 * s ≤ 38 * u)
    {m : Member} (hm : m.Positive) {b : S6R.Bar ℝ} (hb : BarNear s b m) {roots : S6.Roots} {sym : Symmetry}
    {k : S6R.Sym} (hk : Sym.Of sym k) {f : S6.Foxz} (hf : Foxz.Of m f k) (hD : 0 < Foxz.disc f)
    (hu : 1100 * u * Foxz.cond f ≤ 1) {F : ℝ} (h : S6.foc roots m sym = .ok F) :
    ∃ x, S6R.foc A b k = .ok x ∧ Acc (515 * u * Foxz.cond f) x F ∧ 0 < F ∧ 4 ≤ Foxz.cond f := by
  have h0 := (hA.mono huw).nonneg
  have he := exact_foc hk h
  cases k with
  | point => exact hf.elim
  | double =>
    simp only [Foxz.Of] at hf
    obtain ⟨x, z, e, a, p, e2, a2, p2, k4⟩ := foxz_acc hA huw hs0 hsw hm.An hm.lex hm.lez hb.lex hb.lez hm.rx hm.J hm.Iw hm.E hm.G hf hD hu
    obtain ⟨-, -, ez, -⟩ := foxz_shape hm.rx hf
    have hle : 38 * u ≤ 515 * u * Foxz.cond f := by
      have := mul_le_mul_of_nonneg_left k4 (show 0 ≤ 515 * u by positivity)
      linarith
    have hF : F = min f.foxz f.foz := by
      have e3 : S6R.fEulerTorsion .exact m.An m.lez m.rx m.ry m.xo m.yo m.J m.Iw m.E m.G =
        S6.fEulerTorsion m.An m.lez m.rx m.ry m.xo m.yo m.J m.Iw m.E m.G := rfl
      simp only [S6R.foc, S6R.focDouble, Bar.of, C106_exact_foxz hf, Except.bind_ok', e3, ez] at he
      exact (Except.ok_inj'.1 he).symm
    refine ⟨min x z, ?_, ?_, ?_, k4⟩
    · simp only [S6R.foc, S6R.focDouble, hb.An, hb.rx, hb.ry, hb.xo, hb.yo, hb.J, hb.Iw, hb.E, hb.G, e, Except.bind_ok', e2]
      rfl
    · rw [hF]
      exact Acc.min p p2 a (a2.mono hle)
    · rw [hF]; exact lt_min p p2
  | single x =>
    cases x with
    | true =>
      simp only [Foxz.Of] at hf
      obtain ⟨x, z, e, a, p, -, -, -, k4⟩ := foxz_acc hA huw hs0 hsw hm.An hm.lex hm.lez hb.lex hb.lez hm.rx hm.J hm.Iw hm.E hm.G hf hD hu
      have hF : F = f.foxz := by
        simp only [S6R.foc, S6R.focSingle, Bar.of, if_true, C106_exact_foxz hf, Except.bind_ok'] at he
        exact (Except.ok_inj'.1 he).symm
      refine ⟨x, ?_, hF ▸ a, hF ▸ p, k4⟩
      simp only [S6R.foc, S6R.focSingle, hb.An, hb.rx, hb.ry, hb.xo, hb.yo, hb.J, hb.Iw, hb.E, hb.G, if_true, e, Except.bind_ok']
      rfl
    | false =>
      simp only [Foxz.Of] at hf
      obtain ⟨x, z, e, a, p, -, -, -, k4⟩ := foxz_acc hA huw hs0 hsw hm.An hm.ley hm.lez hb.ley hb.lez hm.ry hm.J hm.Iw hm.E hm.G hf hD hu
      have hF : F = f.foxz := by
        simp only [S6R.foc, S6R.focSingle, Bar.of, Bool.false_eq_true, if_false, C106_exact_foxz hf, Except.bind_ok'] at he
        exact (Except.ok_inj'.1 he).symm
      refine ⟨x, ?_, hF ▸ a, hF ▸ p, k4⟩
      simp only [S6R.foc, S6R.focSingle, hb.An, hb.rx, hb.ry, hb.xo, hb.yo, hb.J, hb.Iw, hb.E, hb.G, Bool.false_eq_true, if_false, e,
        Except.bind_ok']
      rfl

/-- from the stress to the capacity -/
theorem capacity_acc {A : Arith ℝ} {u s : ℝ} (hA : Rounded A u) {pw : ℝ → ℝ → ℝ} (hpw : RoundedPow pw (2 * u)) {m : Member}
    {b : S6R.Bar ℝ} (hb : b.An = m.An) {kf fy unc : ℝ} (hAn : 0 < m.An) (hkf : 0 < kf) (hfy : 0 < fy) (hunc : 0 < unc) {roots : S6.Roots} {sym : Symmetry}
    {k : S6R.Sym} {t : S6.Torsional} (h : S6.NcTorsion roots m kf fy sym unc = .ok t) (hs : 0 ≤ s) (hu : 54 * (u + s) ≤ 1)
    (hx : ∀ F, S6.foc roots m sym = .ok F → ∃ x, S6R.foc A b k = .ok x ∧ Acc s x F ∧ 0 < F)
    (hl : 9 * (u + s) < |t.lambdaC - 3 / 2|) :
    ∃ N', S6R.NcTorsion A pw b kf fy k unc = .ok N' ∧ Acc (40 * u + 3 * s) N' t.Ncz ∧ 0 < t.Ncz := by
  have h0 := hA.nonneg
  have h1 : u ≤ 1 / 2 := by linarith
  have rr := fun y => Acc.refl le_rfl y
  simp only [S6.NcTorsion] at h
  cases e1 : S6.foc roots m sym with
  | error e => rw [e1] at h; cases h
  | ok F =>
  obtain ⟨x, ex, ax, pF⟩ := hx F e1
  rw [e1, Except.bind_ok'] at h
  have hcc := columnCurve_ok hfy pF
  have hlc : t.lambdaC = √(fy / F) := by
    rw [hcc, Except.bind_ok'] at h
    injection h with h
    rw [← h]
  rw [hlc] at hl
  obtain ⟨lc, fn, lc', fn', c1, -, pfn, c2, afn⟩ := curve_acc hA hpw hfy pF hs hu ax hl
  rw [c1, Except.bind_ok'] at h
  injection h with h
  refine ⟨A.mul (A.mul unc (A.mul m.An kf)) fn', ?_, ?_, ?_⟩
  · simp only [S6R.NcTorsion, ex, Except.bind_ok', c2, hb]
    rfl
  · rw [← h]
    exact (hA.accMul h1 (hA.accMul h1 (rr unc) (hA.accMul h1 (rr m.An) (rr kf))) afn).mono (by linarith)
  · rw [← h]
    show 0 < unc * (m.An * kf) * fn
    positivity

/-- C106, partial: in every arithmetic with relative errors of at most `u`, as long as `1100 u κ` is not above 1, the stress of
flexural-torsional buckling is a number, not a complex one, with a relative error of at most `1100 u κ`.  `κ = (f_ox + f_oz)⁴ / (β f_ox
f_oz ((f_ox + f_oz)² - 4 β f_ox f_oz))` is a condition number made of the exact intermediate values. -/
theorem C106_foxz_partial {A : Arith ℝ} {u : ℝ} (hA : Rounded A u) {An lex lez rx ry xo yo J Iw E G : ℝ} (hAn : 0 < An)
    (hlx : 0 < lex) (hlz : 0 < lez) (hr : 0 < rx) (hJ : 0 < J) (hIw : 0 ≤ Iw) (hE : 0 < E) (hG : 0 < G) {f : S6.Foxz}
    (h : S6.foxz An lex lez rx ry xo yo J Iw E G = .ok f) (hD : 0 < Foxz.disc f) (hu : 1100 * u * Foxz.cond f ≤ 1) :
    ∃ x, S6R.foxz A An lex lez rx ry xo yo J Iw E G = .ok (.real x) ∧ Within (1100 * u * Foxz.cond f) x f.foxz := by
  have h0 := hA.nonneg
  obtain ⟨x, -, e, a, p, -, -, -, k4⟩ := foxz_acc hA le_rfl le_rfl (by linarith) hAn hlx hlz (Acc.refl le_rfl lex)
    (Acc.refl le_rfl lez) hr hJ hIw hE hG h hD hu
  have hk : 0 ≤ u * Foxz.cond f := mul_nonneg h0 (by linarith)
  exact ⟨x, e, a.within p (by linarith) (by linarith) (by linarith)⟩

/-- C106, partial: the capacity has a relative error of at most `4000 u κ`, as long as that is below 1/7 and the slenderness `λ_c` is
further than `5000 u κ` from 1.5, where the column curve has a step. -/
theorem C106_capacity_partial {A : Arith ℝ} {u : ℝ} (hA : Rounded A u) {pw : ℝ → ℝ → ℝ} (hpw : RoundedPow pw (2 * u))
    {m : Member} (hm : m.Positive) {kf fy unc : ℝ} (hkf : 0 < kf) (hfy : 0 < fy) (hunc : 0 < unc) {roots : S6.Roots}
    {sym : Symmetry} {k : S6R.Sym} (hk : Sym.Of sym k) {f : S6.Foxz} (hf : Foxz.Of m f k) (hD : 0 < Foxz.disc f)
    {t : S6.Torsional} (h : S6.NcTorsion roots m kf fy sym unc = .ok t) (hu : 28000 * u * Foxz.cond f ≤ 1)
    (hl : 5000 * u * Foxz.cond f < |t.lambdaC - 3 / 2|) :
    ∃ N', S6R.NcTorsion A pw (Bar.of m) kf fy k unc = .ok N' ∧ Within (4000 * u * Foxz.cond f) N' t.Ncz := by
  have h0 := hA.nonneg
  have h' := h
  simp only [S6.NcTorsion] at h'
  cases e1 : S6.foc roots m sym with
  | error e => rw [e1] at h'; cases h'
  | ok F =>
  have hpos : 0 ≤ u * Foxz.cond f := by
    by_contra hc
    push Not at hc
    have : Foxz.cond f < 0 := by
      by_contra hc'
      push Not at hc'
      exact absurd (mul_nonneg h0 hc') (by linarith)
    obtain ⟨-, -, -, k4⟩ := stress_acc hA le_rfl le_rfl (by linarith) hm (barNear_of m) hk hf hD (by linarith) e1
    linarith
  have hst := fun F (hF : S6.foc roots m sym = .ok F) => stress_acc hA le_rfl le_rfl (by linarith) hm (barNear_of m) hk hf hD (by linarith) hF
  obtain ⟨-, -, -, -, k4⟩ := hst F e1
  have hu4 : 4 * u ≤ u * Foxz.cond f := by
    have := mul_le_mul_of_nonneg_left k4 h0
    linarith
  obtain ⟨N', e, a, p⟩ := capacity_acc hA hpw (b := Bar.of m) rfl hm.An hkf hfy hunc (k := k) h (s := 515 * u * Foxz.cond f) (by linarith)
    (by linarith) (fun F hF => by obtain ⟨x, a, b, c, -⟩ := hst F hF; exact ⟨x, a, b, c⟩) (by linarith)
  exact ⟨N', e, a.within p (by linarith) (by linarith) (by linarith)⟩

/-- C106, partial: for a point symmetric section the relative error of the capacity is at most `400 u`, as long as `2200 u` is not above 1
and `λ_c` is further than `400 u` from 1.5. -/
theorem C106_point_partial {A : Arith ℝ} {u : ℝ} (hA : Rounded A u) (hu : 2200 * u ≤ 1) {pw : ℝ → ℝ → ℝ}
    (hpw : RoundedPow pw (2 * u)) {m : Member} (hm : m.Positive) {kf fy unc : ℝ} (hkf : 0 < kf) (hfy : 0 < fy) (hunc : 0 < unc)
    {roots : S6.Roots} {sym : Symmetry} (hk : sym.symmetry = .ok .point) {t : S6.Torsional}
    (h : S6.NcTorsion roots m kf fy sym unc = .ok t) (hl : 400 * u < |t.lambdaC - 3 / 2|) :
    ∃ N', S6R.NcTorsion A pw (Bar.of m) kf fy .point unc = .ok N' ∧ Within (400 * u) N' t.Ncz := by
  have h0 := hA.nonneg
  obtain ⟨N', e, a, p⟩ := capacity_acc hA hpw (b := Bar.of m) rfl hm.An hkf hfy hunc (k := .point) h (s := 38 * u) (by linarith) (by linarith)
    (fun F hF => by
      have he := exact_foc (k := .point) hk hF
      obtain ⟨x, e, a, p⟩ := fEulerTorsion_acc hA (by linarith) hm.An hm.lez le_rfl (Acc.refl le_rfl m.lez) hm.rx hm.J hm.Iw hm.E hm.G he
      exact ⟨x, e, a.mono (by linarith), p⟩) (by linarith)
  exact ⟨N', e, a.within p (by linarith) (by linarith) (by linarith)⟩

/-- a power rounded to the nearest double is accurate enough -/
theorem C106_pow : RoundedPow (fun a b => fl53 (a ^ b)) (2 * 2 ^ (-53 : ℤ)) := by
  intro a b ha
  have p := Real.rpow_pos_of_pos ha b
  have := fl53_error (a ^ b)
  rw [abs_of_pos p] at this
  have h2 : (0 : ℝ) < 2 ^ (-53 : ℤ) * a ^ b := by positivity
  show |fl53 (a ^ b) - a ^ b| ≤ _
  linarith

/-- the condition number of the usual sections -/
theorem cond_usual {m : Member} (hm : m.Positive) {k : S6R.Sym} {f : S6.Foxz} (hf : Foxz.Of m f k) (hb : 1 / 10 ≤ f.beta)
    (hx : 0 < f.fox) (h1 : f.fox ≤ 100 * f.foz) (h2 : f.foz ≤ 100 * f.fox)
    (h3 : f.beta ≤ 99 / 100 ∨ (f.fox + f.foz) / 10 ≤ |f.fox - f.foz|) :
    0 < Foxz.disc f ∧ 0 ≤ Foxz.cond f ∧ Foxz.cond f ≤ 104000 := by
  have hz : 0 < f.foz := by linarith
  set S := f.fox + f.foz with hS
  set P := f.fox * f.foz with hP
  have pS : 0 < S := by positivity
  have pP : 0 < P := by positivity
  have hSP : S ^ 2 ≤ 104 * P := by
    have := mul_nonneg (sub_nonneg.2 h1) (sub_nonneg.2 h2)
    rw [hS, hP]
    nlinarith
  have h4 : 4 * P ≤ S ^ 2 := by rw [hS, hP]; nlinarith [sq_nonneg (f.fox - f.foz)]
  have hDv : Foxz.disc f = S ^ 2 - 4 * f.beta * P := by unfold Foxz.disc; rw [hS, hP]; ring
  have hD : S ^ 2 / 100 ≤ Foxz.disc f := by
    rw [hDv]
    have hb1 : f.beta ≤ 1 := by
      have hb : ∀ rx ry xo yo : ℝ, 1 - (xo / √(roSq rx ry xo yo)) ^ 2 ≤ 1 := fun rx ry xo yo => by
        linarith [sq_nonneg (xo / √(roSq rx ry xo yo))]
      rcases k with _ | ⟨_ | _⟩ | _ <;> simp only [Foxz.Of] at hf
      · rw [(foxz_shape hm.rx hf).1]; exact hb _ _ _ _
      · rw [(foxz_shape hm.ry hf).1]; exact hb _ _ _ _
      · rw [(foxz_shape hm.rx hf).1]; exact hb _ _ _ _
    rcases h3 with h3 | h5
    · have := mul_le_mul_of_nonneg_right h3 (show 0 ≤ 4 * P by positivity)
      linarith
    · have h6 := pow_le_pow_left₀ (by positivity) h5 2
      rw [sq_abs] at h6
      have := mul_le_mul_of_nonneg_right hb1 (show 0 ≤ 4 * P by positivity)
      have : (f.fox - f.foz) ^ 2 = S ^ 2 - 4 * P := by rw [hS, hP]; ring
      linarith
  have pD : 0 < Foxz.disc f := lt_of_lt_of_le (by positivity) hD
  have hκ : Foxz.cond f ≤ 104000 := by
    have e : f.beta * f.fox * f.foz = f.beta * P := by rw [hP]; ring
    unfold Foxz.cond
    have hb0 : 0 < f.beta := by linarith
    rw [e, ← hS, div_le_iff₀ (by positivity)]
    have a1 := mul_le_mul_of_nonneg_right hb pP.le
    have a2 := mul_le_mul a1 hD (by positivity) (by positivity)
    have a3 := mul_le_mul_of_nonneg_right hSP (sq_nonneg S)
    nlinarith
  have hκ0 : 0 ≤ Foxz.cond f := by
    unfold Foxz.cond
    have hb0 : 0 < f.beta := by linarith
    positivity
  exact ⟨pD, hκ0, hκ⟩

/-- C106, partial: in double precision the error is at most 10⁻⁷ for the usual sections: the shear centre not further from the
centroid than three polar radii, the two stresses within a factor of 100 and either the shear centre at least a tenth of `r_o1` away from the centroid
or the stresses apart by a tenth of their sum; and the slenderness not within 10⁻⁷ of 1.5. -/
theorem C106_usual_partial {pw : ℝ → ℝ → ℝ} (hpw : RoundedPow pw (2 * 2 ^ (-53 : ℤ)))
    {m : Member} (hm : m.Positive) {kf fy unc : ℝ} (hkf : 0 < kf) (hfy : 0 < fy) (hunc : 0 < unc) {roots : S6.Roots}
    {sym : Symmetry} {k : S6R.Sym} (hk : Sym.Of sym k) {f : S6.Foxz} (hf : Foxz.Of m f k) (hb : 1 / 10 ≤ f.beta)
    (hx : 0 < f.fox) (h1 : f.fox ≤ 100 * f.foz) (h2 : f.foz ≤ 100 * f.fox)
    (h3 : f.beta ≤ 99 / 100 ∨ (f.fox + f.foz) / 10 ≤ |f.fox - f.foz|)
    {t : S6.Torsional} (h : S6.NcTorsion roots m kf fy sym unc = .ok t) (hl : 1 / 10 ^ 7 ≤ |t.lambdaC - 3 / 2|) :
    ∃ N', S6R.NcTorsion .double pw (Bar.of m) kf fy k unc = .ok N' ∧ Within (1 / 10 ^ 7) N' t.Ncz := by
  obtain ⟨pD, hκ0, hκ⟩ := cond_usual hm hf hb hx h1 h2 h3
  have hu : (2 : ℝ) ^ (-53 : ℤ) * Foxz.cond f ≤ 2 ^ (-53 : ℤ) * 104000 := mul_le_mul_of_nonneg_left hκ (by positivity)
  have n1 : (28000 : ℝ) * (2 ^ (-53 : ℤ) * 104000) ≤ 1 := by norm_num
  have n2 : (5000 : ℝ) * (2 ^ (-53 : ℤ) * 104000) < 1 / 10 ^ 7 := by norm_num
  obtain ⟨N', e, w⟩ := C106_capacity_partial C102_double hpw hm hkf hfy hunc hk hf pD h (by linarith) (by linarith)
  refine ⟨N', e, w.1, w.2.trans (mul_le_mul_of_nonneg_right ?_ w.1.le)⟩
  linarith

/-- a doubly symmetric member of 2.2479407 m without warping stiffness, whose two buckling stresses nearly coincide -/
def closeBar : S6R.Bar ℚ where
  An := rnd64 (4 / 1000)
  lex := rnd64 (22479407 / 10000000)
  ley := 3
  lez := 3
  rx := rnd64 (4 / 100)
  ry := rnd64 (4 / 100)
  xo := 0
  yo := 0
  J := rnd64 (1 / 10 ^ 7)
  Iw := 0
  E := 200000000000
  G := 80000000000

/-- the same member as real numbers -/
def closeMember : Member where
  An := (closeBar.An : ℚ)
  lex := (closeBar.lex : ℚ)
  ley := 3
  lez := 3
  rx := (closeBar.rx : ℚ)
  ry := (closeBar.ry : ℚ)
  xo := 0
  yo := 0
  J := (closeBar.J : ℚ)
  Iw := 0
  E := 200000000000
  G := 80000000000

/-- C106, the counterexample: without a bound on the condition number the claim fails.  For the member above the discriminant is rounded
to a negative number, its root is complex and the capacity is a `TypeError`, although it exists. -/
theorem C106_complex_counterexample :
    (∀ (pw : ℚ → ℚ → ℚ) (kf fy unc : ℚ), S6R.NcTorsion .binary64 pw closeBar kf fy .double unc = .error .typeError) ∧
    ∀ (roots : S6.Roots) (kf fy unc : ℝ) (sym : Symmetry), sym.symmetry = .ok .double → 0 < kf → 0 < fy → 0 < unc →
      ∃ t, S6.NcTorsion roots closeMember kf fy sym unc = .ok t ∧ 0 < t.Ncz := by
  constructor
  · intro pw kf fy unc
    have h : S6R.foc .binary64 closeBar .double = .error .typeError := by decide +kernel
    simp only [S6R.NcTorsion, h]
    rfl
  · intro roots kf fy unc sym hs hk hf hu
    have c1 : (0 : ℝ) < closeMember.An := (Rat.cast_pos (K := ℝ)).2 (show 0 < closeBar.An by decide +kernel)
    have c2 : (0 : ℝ) < closeMember.lex := (Rat.cast_pos (K := ℝ)).2 (show 0 < closeBar.lex by decide +kernel)
    have c3 : (0 : ℝ) < closeMember.rx := (Rat.cast_pos (K := ℝ)).2 (show 0 < closeBar.rx by decide +kernel)
    have c4 : (0 : ℝ) < closeMember.J := (Rat.cast_pos (K := ℝ)).2 (show 0 < closeBar.J by decide +kernel)
    obtain ⟨f, e, -, ez, p, -, hz, -⟩ := C52_foxz (lez := closeMember.lez) (ry := closeMember.ry) (xo := closeMember.xo)
      (yo := closeMember.yo) (Iw := closeMember.Iw) (E := closeMember.E) (G := closeMember.G) c1 c2 (by norm_num [closeMember]) c3 c4
      (by norm_num [closeMember]) (by norm_num [closeMember]) (by norm_num [closeMember])
    have pz := p.trans_le hz
    have hfoc : S6.foc roots closeMember sym = .ok (min f.foxz f.foz) := by
      simp only [S6.foc, hs, Except.bind_ok', S6.focDouble, e, ez]
      rfl
    obtain ⟨t, ht, -, hc, hN⟩ := C53_capacity (kf := kf) (unc := unc) hf hfoc (lt_min p pz)
    refine ⟨t, ht, ?_⟩
    obtain ⟨lc, fn, hc', -, -, pfn, -⟩ := C53_curve hf (lt_min p pz)
    rw [hc] at hc'
    injection hc' with hc'
    injection hc' with _ hfn
    rw [hN, hfn]
    positivity

/-- C106, the counterexample: with one stress 2⁶⁰ times the other the difference cancels, the stress is 0 and the slenderness a division
by zero. -/
theorem C106_cancel_counterexample : S6R.solveFoxz .binary64 1 1 (2 ^ 60) = .ok (.real 0) ∧
    ∀ (pw : ℚ → ℚ → ℚ) (fy : ℚ), S6R.columnCurve .binary64 pw fy 0 = .error .zeroDivision := by
  refine ⟨by decide +kernel, fun pw fy => ?_⟩
  simp only [S6R.columnCurve, Arith.quot, if_pos]
  rfl

/-- C106, the counterexample: a yield stress of 300 MPa and the double nearest to 300/2.25 MPa.  The slenderness is above 1.5 and is rounded to
1.5, so that the computed stress is that of the other branch of the column curve, with an error of 0.04 percent for every power function. -/
theorem C106_step_counterexample :
    (∀ pw : ℚ → ℚ → ℚ, S6R.columnCurve .binary64 pw 300000000 (rnd64 (400000000 / 3)) =
      .ok (3 / 2, Arith.binary64.mul 300000000 (pw (Arith.binary64.lit (658 / 1000)) (9 / 4)))) ∧
    (∃ lc : ℝ, S6.columnCurve 300000000 (rnd64 (400000000 / 3) : ℚ) = .ok (lc, 877 / 1000 * (rnd64 (400000000 / 3) : ℚ)) ∧ 3 / 2 < lc) ∧
    877 / 1000 * ((rnd64 (400000000 / 3) : ℚ) : ℝ) * (1 + 4 / 10000) < 300000000 * (658 / 1000 : ℝ) ^ (3 / 2 * (3 / 2) : ℝ) := by
  have b1 : (0 : ℝ) < (rnd64 (400000000 / 3) : ℚ) := by
    have : (0 : ℚ) < rnd64 (400000000 / 3) := by decide +kernel
    exact_mod_cast this
  have b2 : ((rnd64 (400000000 / 3) : ℚ) : ℝ) < 400000000 / 3 := by
    have := (Rat.cast_lt (K := ℝ)).2 (show rnd64 (400000000 / 3) < 400000000 / 3 by decide +kernel)
    push_cast at this
    exact this
  refine ⟨fun pw => ?_, ?_, ?_⟩
  · have h : (Arith.binary64.quot 300000000 (rnd64 (400000000 / 3))).bind Arith.binary64.root = .ok (3 / 2) := by decide +kernel
    simp only [S6R.columnCurve]
    cases e : Arith.binary64.quot 300000000 (rnd64 (400000000 / 3)) with
    | error e' => rw [e] at h; cases h
    | ok q =>
      rw [e] at h
      simp only [Except.bind] at h
      have hm : Arith.binary64.mul (3 / 2) (3 / 2) = 9 / 4 := by decide +kernel
      rw [Except.bind_ok', h, Except.bind_ok', if_pos le_rfl, hm]
      rfl
  · have hq : (9 / 4 : ℝ) < 300000000 / (rnd64 (400000000 / 3) : ℚ) := by
      rw [lt_div_iff₀ b1]; linarith
    refine ⟨√(300000000 / (rnd64 (400000000 / 3) : ℚ)), ?_, ?_⟩
    · rw [columnCurve_ok (by norm_num) b1, if_neg (not_le.2 hq)]
    · rw [Real.lt_sqrt (by norm_num)]; linarith
  · have h : (38994 / 100000 : ℝ) ^ 4 < ((658 / 1000 : ℝ) ^ (3 / 2 * (3 / 2) : ℝ)) ^ 4 := by
      rw [← Real.rpow_natCast ((658 / 1000 : ℝ) ^ (3 / 2 * (3 / 2) : ℝ)), ← Real.rpow_mul (by norm_num)]
      have : (3 / 2 * (3 / 2) : ℝ) * ((4 : ℕ) : ℝ) = ((9 : ℕ) : ℝ) := by norm_num
      rw [this, Real.rpow_natCast]
      norm_num
    have := lt_of_pow_lt_pow_left₀ 4 (by positivity) h
    linarith

/-- a channel of 8 m -/
noncomputable def channel : Member where
  An := 4 / 1000
  lex := 8
  ley := 4
  lez := 4
  rx := 6 / 100
  ry := 3 / 100
  xo := 4 / 100
  yo := 0
  J := 1 / 10 ^ 7
  Iw := 1 / 10 ^ 9
  E := 200000000000
  G := 80000000000

/-- the hypotheses are met by the channel in steel of 350 MPa -/
example (roots : S6.Roots) : ∃ t N', S6.NcTorsion roots channel 1 350000000 ⟨some [.str "x"]⟩ 1 = .ok t ∧
    S6R.NcTorsion .double (fun a b => fl53 (a ^ b)) (Bar.of channel) 1 350000000 (.single true) 1 = .ok N' ∧
    Within (1 / 10 ^ 7) N' t.Ncz := by
  have hm : channel.Positive := by constructor <;> norm_num [channel]
  have hk : Sym.Of ⟨some [.str "x"]⟩ (.single true) := rfl
  obtain ⟨f, e, ex, ez, p, px, -, -, -⟩ := C52_foxz (ry := channel.ry) (xo := channel.xo) (yo := channel.yo) hm.An hm.lex hm.lez
    hm.rx hm.J hm.Iw hm.E hm.G
  have hfoc : S6.foc roots channel ⟨some [.str "x"]⟩ = .ok f.foxz := by
    simp [S6.foc, Symmetry.symmetry, Symmetry.symcount, S6.focSingle, Axis.isStr, e, Except.bind_ok', pure, Except.pure]
  obtain ⟨t, ht, -, hc, -⟩ := C53_capacity (kf := 1) (unc := 1) (show (0 : ℝ) < 350000000 by norm_num) hfoc p
  rw [fEuler_ok hm.rx.ne' hm.lex.ne', Except.ok_inj'] at ex
  rw [fEulerTorsion_ok hm.An hm.lez hm.rx hm.J hm.G, Except.ok_inj'] at ez
  have hb := (foxz_shape hm.rx e).1
  rw [div_pow, Real.sq_sqrt (roSq_pos _ _ _ hm.rx).le] at hb
  simp only [channel, roSq, piD] at ex ez hb
  norm_num at ex ez hb
  rw [columnCurve_ok (by norm_num) p, Except.ok_inj', Prod.mk.injEq] at hc
  have hl : 17 / 10 < t.lambdaC := by
    rw [← hc.1, Real.lt_sqrt (by norm_num), lt_div_iff₀ p]
    have : f.fox < 115000000 := by rw [← ex]; norm_num
    linarith
  obtain ⟨N', e', w⟩ := C106_usual_partial C106_pow hm (k := .single true) (f := f) one_pos (by norm_num) one_pos hk e
    (by rw [hb]; norm_num) (by rw [← ex]; norm_num) (by rw [← ex, ← ez]; norm_num) (by rw [← ex, ← ez]; norm_num)
    (Or.inl (by rw [hb]; norm_num)) ht (by rw [abs_of_pos (by linarith)]; norm_num; linarith)
  exact ⟨t, N', ht, e', w⟩

/-- the hypotheses of the point symmetric case are met -/
example (roots : S6.Roots) : ∃ t N', S6.NcTorsion roots channel 1 350000000 ⟨some [.str "point"]⟩ 1 = .ok t ∧
    S6R.NcTorsion .double (fun a b => fl53 (a ^ b)) (Bar.of channel) 1 350000000 .point 1 = .ok N' ∧
    Within (400 * 2 ^ (-53 : ℤ)) N' t.Ncz := by
  have hm : channel.Positive := by constructor <;> norm_num [channel]
  have hs : (⟨some [.str "point"]⟩ : Symmetry).symmetry = .ok .point := by simp [Symmetry.symmetry, Axis.isStr]
  obtain ⟨f, e, -, ez, p, -, pz, -⟩ := C52_foxz (ry := channel.ry) (xo := channel.xo) (yo := channel.yo) hm.An hm.lex hm.lez
    hm.rx hm.J hm.Iw hm.E hm.G
  have p := p.trans_le pz
  have hfoc : S6.foc roots channel ⟨some [.str "point"]⟩ = .ok f.foz := by
    rw [← ez]
    simp only [S6.foc, hs, Except.bind_ok', S6.focPoint]
  obtain ⟨t, ht, -, hc, -⟩ := C53_capacity (kf := 1) (unc := 1) (show (0 : ℝ) < 350000000 by norm_num) hfoc p
  rw [fEulerTorsion_ok hm.An hm.lez hm.rx hm.J hm.G, Except.ok_inj'] at ez
  simp only [channel, roSq, piD] at ez
  norm_num at ez
  rw [columnCurve_ok (by norm_num) p, Except.ok_inj', Prod.mk.injEq] at hc
  have hl : t.lambdaC < 14 / 10 := by
    rw [← hc.1, Real.sqrt_lt' (by norm_num), div_lt_iff₀ p, ← ez]
    norm_num
  obtain ⟨N', e', w⟩ := C106_point_partial C102_double (by norm_num) C106_pow hm one_pos (show (0 : ℝ) < 350000000 by norm_num)
    one_pos hs ht (by rw [abs_of_neg (by linarith)]; norm_num; linarith)
  exact ⟨t, N', ht, e', w⟩

end BeamDesign
