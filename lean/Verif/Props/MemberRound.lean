import Verif.Spec.RoundedMember
import Verif.Props.ColumnRound
import Verif.Props.TorsionRound
import Verif.Lemmas.Float64

/-!
# C114: the member capacity in floating point
-/

namespace BeamDesign

open Spec

/-- with exact arithmetic the function operation by operation is that of `Model/S6` -/
theorem C114_exact {roots : S6.Roots} {a : S6.NcArgs} {k : S6R.Sym} (hk : a.calcTorsion = true → Sym.Of a.sym k) {r : S6.NcResult}
    (h : S6.Nc roots a = .ok r) : S6R.Nc .exact rpow (Args.of a k) = .ok (Result.of r) := by
  have e1 : ∀ An kf le r fy fref ab x, S6.NcFlexural An kf le r fy fref ab = .ok x →
      ∃ l f, S6R.NcFlexural .exact An kf le r fy fref ab = .ok (x.Nc, l, f) := by
    intro An kf le r fy fref ab x hx
    rw [C104_exact, hx]
    exact ⟨_, _, rfl⟩
  have hl : ∀ l ke, S6R.le .exact l ke = S6.le l ke := fun _ _ => rfl
  simp only [S6.Nc] at h
  have eb : (Args.of a k).bar .exact = Bar.of a.member := rfl
  simp only [S6R.Nc, S6R.NcWith, eb]
  simp only [Args.of, hl]
  cases hb : a.calcBuckling with
  | false =>
    simp only [hb, Bool.false_eq_true, if_false] at h ⊢
    injection h with h
    rw [← h]
    rfl
  | true =>
    simp only [hb, if_true] at h ⊢
    cases hx : S6.NcFlexural a.An a.kf (S6.le a.l a.kex) a.rx a.fy a.fref a.alphaB with
    | error e => rw [hx] at h; cases h
    | ok x =>
    rw [hx, Except.bind_ok'] at h
    obtain ⟨l1, f1, x1⟩ := e1 _ _ _ _ _ _ _ _ hx
    rw [x1, Except.bind_ok']
    cases hy : S6.NcFlexural a.An a.kf (S6.le a.l a.key) a.ry a.fy a.fref a.alphaB with
    | error e => rw [hy] at h; cases h
    | ok y =>
    rw [hy, Except.bind_ok'] at h
    obtain ⟨l2, f2, y1⟩ := e1 _ _ _ _ _ _ _ _ hy
    rw [y1, Except.bind_ok']
    rcases Bool.eq_false_or_eq_true a.calcTorsion with ht | ht
    swap
    · simp only [ht, Bool.false_eq_true, if_false] at h ⊢
      injection h with h
      rw [← h]
      rfl
    · simp only [ht, if_true] at h ⊢
      cases hz : S6.NcTorsion roots a.member a.kf a.fy a.sym a.uncertainty with
      | error e => rw [hz] at h; cases h
      | ok t =>
      rw [hz, Except.bind_ok'] at h
      have := C106_exact (hk ht) hz
      rw [this, Except.bind_ok']
      injection h with h
      rw [← h]
      rfl

/-- the member capacity is the smallest of the capacities computed, whatever the torsional capacity -/
theorem governs_with {torsion : Py ℚ} {a : S6R.Args ℚ} (hphi : 0 ≤ a.phi) {r : S6R.Result ℚ} (h : S6R.NcWith .binary64 torsion a = .ok r) :
    r.Nc ≤ r.Ns ∧ (∀ x ∈ r.Ncx, r.Nc ≤ x) ∧ (∀ y ∈ r.Ncy, r.Nc ≤ y) ∧ (∀ z ∈ r.Ncz, r.Nc ≤ z) ∧
    (r.Nc = r.Ns ∨ r.Ncx = some r.Nc ∨ r.Ncy = some r.Nc ∨ r.Ncz = some r.Nc) ∧ r.phiNc = Arith.binary64.mul a.phi r.Nc := by
  have mono : Monotone (Arith.binary64.mul a.phi) := fun x y hxy => rnd64_mono (mul_le_mul_of_nonneg_left hxy hphi)
  simp only [S6R.NcWith] at h
  cases hb : a.calcBuckling with
  | false =>
    simp only [hb, Bool.false_eq_true, if_false] at h
    injection h with h
    rw [← h]
    simp
  | true =>
    simp only [hb, if_true] at h
    cases hx : S6R.NcFlexural .binary64 a.An a.kf (S6R.le .binary64 a.l a.kex) a.rx a.fy a.fref a.alphaB with
    | error e => rw [hx] at h; cases h
    | ok x =>
    rw [hx, Except.bind_ok'] at h
    cases hy : S6R.NcFlexural .binary64 a.An a.kf (S6R.le .binary64 a.l a.key) a.ry a.fy a.fref a.alphaB with
    | error e => rw [hy] at h; cases h
    | ok y =>
    rw [hy, Except.bind_ok'] at h
    generalize S6R.Ns .binary64 (S6R.Ae .binary64 a.An a.kf) a.fy = ns at h
    have pick : ∀ p q s : ℚ, min (min p q) s = p ∨ min (min p q) s = q ∨ min (min p q) s = s := by
      intro p q s
      rcases min_choice (min p q) s with e | e
      · rcases min_choice p q with e' | e'
        · left; rw [e, e']
        · right; left; rw [e, e']
      · right; right; exact e
    cases ht : a.calcTorsion with
    | false =>
      simp only [ht, Bool.false_eq_true, if_false] at h
      injection h with h
      rw [← h]
      simp only [Option.mem_def, Option.some.injEq, forall_eq', reduceCtorEq, false_implies, implies_true, or_false, true_and]
      refine ⟨(min_le_left _ _).trans (min_le_left _ _), (min_le_left _ _).trans (min_le_right _ _), min_le_right _ _, ?_, ?_⟩
      · rcases pick ns (min x.1 ns) (min y.1 ns) with e | e | e
        · exact .inl e
        · exact .inr (.inl e.symm)
        · exact .inr (.inr e.symm)
      · simp only [mono.map_min]
    | true =>
      simp only [ht, if_true] at h
      cases hz : torsion with
      | error e => rw [hz] at h; cases h
      | ok t =>
      rw [hz, Except.bind_ok'] at h
      injection h with h
      rw [← h]
      simp only [Option.mem_def, Option.some.injEq, forall_eq', and_true]
      refine ⟨(min_le_left _ _).trans ((min_le_left _ _).trans (min_le_left _ _)),
        (min_le_left _ _).trans ((min_le_left _ _).trans (min_le_right _ _)), (min_le_left _ _).trans (min_le_right _ _),
        min_le_right _ _, ?_⟩
      rcases min_choice (min (min ns (min x.1 ns)) (min y.1 ns)) (min ns t) with e | e
      · rcases pick ns (min x.1 ns) (min y.1 ns) with e' | e' | e'
        · exact .inl (e.trans e')
        · exact .inr (.inl (e.trans e').symm)
        · exact .inr (.inr (.inl (e.trans e').symm))
      · exact .inr (.inr (.inr e.symm))

/-- C114: in double precision the member capacity is exactly the smallest of the capacities computed, and `φ N_c` is exactly the product
`φ * N_c`, whichever checks are asked for. -/
theorem C114_governs {pw : ℚ → ℚ → ℚ} {a : S6R.Args ℚ} (hphi : 0 ≤ a.phi) {r : S6R.Result ℚ} (h : S6R.Nc .binary64 pw a = .ok r) :
    r.Nc ≤ r.Ns ∧ (∀ x ∈ r.Ncx, r.Nc ≤ x) ∧ (∀ y ∈ r.Ncy, r.Nc ≤ y) ∧ (∀ z ∈ r.Ncz, r.Nc ≤ z) ∧
    (r.Nc = r.Ns ∨ r.Ncx = some r.Nc ∨ r.Ncy = some r.Nc ∨ r.Ncz = some r.Nc) ∧ r.phiNc = Arith.binary64.mul a.phi r.Nc :=
  governs_with hphi h

section
variable {A : Arith ℝ} {u : ℝ}

/-- a column of the member -/
theorem member_column (hA : Rounded A u) {a : S6.NcArgs} (ha : Args.Sensible a) {ke rr κ : ℝ} (hke : 0 < ke) (hrr : 0 < rr)
    (hu : (10 * κ + 12) * u ≤ 1) {x : S6.Flexural} (h : S6.NcFlexural a.An a.kf (S6.le a.l ke) rr a.fy a.fref a.alphaB = .ok x)
    (hc : Flexural.cond x ≤ κ) :
    ∃ N' l' f', S6R.NcFlexural A a.An a.kf (S6R.le A a.l ke) rr a.fy a.fref a.alphaB = .ok (N', l', f') ∧ Acc ((κ + 4) * u) N' x.Nc ∧
      0 < x.Nc ∧ 0 ≤ κ := by
  have h0 := hA.nonneg
  have ple : 0 < S6.le a.l ke := mul_pos ha.l hke
  have hn : 0 ≤ x.lambdaN := by
    have pk := ha.kf
    have pf := ha.fy
    have pr := ha.fref
    rw [(NcFlexural_inv ha.kf.le hrr.ne' (by positivity) ha.fref.ne' h).2.1]
    positivity
  have c0 : 0 ≤ Flexural.cond x := by unfold Flexural.cond; positivity
  have k0 : 0 ≤ κ := c0.trans hc
  have ku : 0 ≤ κ * u := mul_nonneg k0 h0
  have cu := mul_le_mul_of_nonneg_right hc h0
  have h1 : u ≤ 1 / 2 := by linarith
  have al : Acc (2 * u) (S6R.le A a.l ke) (S6.le a.l ke) :=
    (hA.accMul h1 (Acc.refl le_rfl a.l) (Acc.refl le_rfl ke)).mono (by linarith)
  have e : 410000 * (6 / 5 * u) * (x.lambdaN + 40) / |x.factors.lambda| + 100 * (6 / 5 * u) * (x.factors.xi * x.factors.lambda / 90) ^ 2 =
      6 / 5 * (Flexural.cond x * u) := by unfold Flexural.cond; ring
  obtain ⟨N', l', f', e', b, p⟩ := column_near hA (show u ≤ 6 / 5 * u by linarith) (by linarith) ha.An ha.kf ple al hrr ha.fy ha.fref
    ha.alphaB h (by rw [e]; linarith)
  rw [e] at b
  exact ⟨N', l', f', e', b.mono (by linarith), p, k0⟩

/-- the torsional capacity of the member -/
theorem member_torsion (hA : Rounded A u) {pw : ℝ → ℝ → ℝ} (hpw : RoundedPow pw (2 * u)) {a : S6.NcArgs} (ha : Args.Sensible a)
    {κ : ℝ} {k : S6R.Sym} (hu : (10 * κ + 12) * u ≤ 1) {roots : S6.Roots} {t : S6.Torsional}
    (h : S6.NcTorsion roots a.member a.kf a.fy a.sym a.uncertainty = .ok t) (hk0 : 0 ≤ κ) (hk : Twist a κ k)
    (hl : 2 * κ * u ≤ |t.lambdaC - 3 / 2|) (hl0 : t.lambdaC ≠ 3 / 2) :
    ∃ N', S6R.NcTorsion A pw ((Args.of a k).bar A) a.kf a.fy k a.uncertainty = .ok N' ∧ Acc ((κ + 4) * u) N' t.Ncz ∧ 0 < t.Ncz := by
  have h0 := hA.nonneg
  have ku : 0 ≤ κ * u := mul_nonneg hk0 h0
  have h1 : u ≤ 1 / 2 := by linarith
  have hm : a.member.Positive :=
    ⟨ha.An, mul_pos ha.l ha.kex, mul_pos ha.l ha.key, mul_pos ha.l ha.kez, ha.rx, ha.ry, ha.J, ha.Iw, ha.E, ha.G⟩
  have al : ∀ ke, Acc (2 * u) (S6R.le A a.l ke) (S6.le a.l ke) := fun ke =>
    (hA.accMul h1 (Acc.refl le_rfl a.l) (Acc.refl le_rfl ke)).mono (by linarith)
  have hb : BarNear (2 * u) ((Args.of a k).bar A) a.member :=
    ⟨rfl, al _, al _, al _, rfl, rfl, rfl, rfl, rfl, rfl, rfl, rfl⟩
  have hA' := hA.mono (show u ≤ 6 / 5 * u by linarith)
  have hpw' : RoundedPow pw (2 * (6 / 5 * u)) := fun x y hx =>
    (hpw x y hx).trans (mul_le_mul_of_nonneg_right (by linarith) (Real.rpow_nonneg hx.le _))
  have pl := abs_pos.2 (sub_ne_zero.2 hl0)
  have main : ∀ s, 0 ≤ s → 54 * (6 / 5 * u + s) ≤ 1 → (9 * (6 / 5 * u + s) < |t.lambdaC - 3 / 2|) →
      40 * (6 / 5 * u) + 3 * s ≤ (κ + 4) * u →
      (∀ F, S6.foc roots a.member a.sym = .ok F → ∃ x, S6R.foc A ((Args.of a k).bar A) k = .ok x ∧ Acc s x F ∧ 0 < F) →
      ∃ N', S6R.NcTorsion A pw ((Args.of a k).bar A) a.kf a.fy k a.uncertainty = .ok N' ∧ Acc ((κ + 4) * u) N' t.Ncz ∧ 0 < t.Ncz := by
    intro s hs g1 g2 g3 g4
    obtain ⟨N', e, b, p⟩ := capacity_acc hA' hpw' (m := a.member) (b := (Args.of a k).bar A) rfl ha.An ha.kf ha.fy ha.uncertainty h hs g1
      g4 g2
    exact ⟨N', e, b.mono g3, p⟩
  by_cases hkp : k = .point
  · subst hkp
    obtain ⟨hs, hk4⟩ := hk
    have hk4u := mul_le_mul_of_nonneg_right hk4 h0
    refine main (42 * u) (by linarith) (by linarith) ?_ (by linarith) ?_
    · rcases h0.eq_or_lt with e | e
      · rw [← e]; linarith
      · linarith
    · intro F hF
      have he := exact_foc (k := .point) hs hF
      obtain ⟨x, e, b, p⟩ := fEulerTorsion_acc hA h1 hm.An hm.lez (by linarith) (al a.kez) hm.rx hm.J hm.Iw hm.E hm.G he
      exact ⟨x, e, b.mono (by linarith), p⟩
  · have hk' : Sym.Of a.sym k ∧ ∃ f, Foxz.Of a.member f k ∧ 0 < Foxz.disc f ∧ 4000 * Foxz.cond f ≤ κ := by
      cases k with
      | point => exact absurd rfl hkp
      | double => exact hk
      | single x => exact hk
    obtain ⟨hs, f, hf, hD, hc⟩ := hk'
    have cu := mul_le_mul_of_nonneg_right hc h0
    have hst := fun F (hF : S6.foc roots a.member a.sym = .ok F) => stress_acc hA (show u ≤ 6 / 5 * u by linarith)
      (show 0 ≤ 2 * u by linarith) (by linarith) hm hb hs hf hD (by linarith) hF
    have h' := h
    simp only [S6.NcTorsion] at h'
    cases e1 : S6.foc roots a.member a.sym with
    | error e => rw [e1] at h'; cases h'
    | ok F =>
    obtain ⟨-, -, -, -, k4⟩ := hst F e1
    have hu4 : 4 * u ≤ Foxz.cond f * u := mul_le_mul_of_nonneg_right k4 h0
    refine main (515 * (6 / 5 * u) * Foxz.cond f) (by linarith) (by linarith) ?_ (by linarith) ?_
    · rcases h0.eq_or_lt with e | e
      · rw [← e]; linarith
      · have : 4 * u ≤ Foxz.cond f * u := hu4
        linarith
    · intro F hF
      obtain ⟨x, g1, g2, g3, -⟩ := hst F hF
      exact ⟨x, g1, g2, g3⟩

/-- the numbers of the dictionary, from those of the torsional capacity -/
theorem member_with (hA : Rounded A u) {a : S6.NcArgs} (ha : Args.Sensible a) {κ : ℝ} (hκ : 0 ≤ κ) {k : S6R.Sym} (hu : (10 * κ + 12) * u ≤ 1)
    {roots : S6.Roots} {r : S6.NcResult} (h : S6.Nc roots a = .ok r) (hc : a.calcBuckling = true → Columns a κ) {torsion : Py ℝ}
    (ht : ∀ t, a.calcBuckling = true → a.calcTorsion = true → S6.NcTorsion roots a.member a.kf a.fy a.sym a.uncertainty = .ok t →
      ∃ N', torsion = .ok N' ∧ Acc ((κ + 4) * u) N' t.Ncz ∧ 0 < t.Ncz) :
    ∃ r', S6R.NcWith A torsion (Args.of a k) = .ok r' ∧ ResultWithin ((2 * κ + 12) * u) r' r := by
  have h0 := hA.nonneg
  have ku : 0 ≤ κ * u := mul_nonneg hκ h0
  have h1 : u ≤ 1 / 2 := by linarith
  have rr := fun y => Acc.refl le_rfl y
  have pNs : 0 < S6.Ns (S6.Ae a.An a.kf) a.fy := mul_pos (mul_pos ha.An ha.kf) ha.fy
  have aNs : Acc ((κ + 4) * u) (S6R.Ns A (S6R.Ae A a.An a.kf) a.fy) (S6.Ns (S6.Ae a.An a.kf) a.fy) :=
    (hA.accMul h1 (hA.accMul h1 (rr a.An) (rr a.kf)) (rr a.fy)).mono (by linarith)
  have wi : ∀ {x y : ℝ}, 0 < y → Acc ((κ + 4) * u) x y → Within ((2 * κ + 12) * u) x y := fun p b =>
    b.within p (by positivity) (by linarith) (by linarith)
  have wa : ∀ {x y : ℝ}, Acc ((κ + 4) * u) x y → Acc ((κ + 6) * u) (A.mul a.phi x) (a.phi * y) := fun b =>
    (hA.accMul h1 (rr a.phi) b).mono (by linarith)
  have wj : ∀ {x y : ℝ}, 0 < y → Acc ((κ + 6) * u) x y → Within ((2 * κ + 12) * u) x y := fun p b =>
    b.within p (by positivity) (by linarith) (by linarith)
  have pp : ∀ {y : ℝ}, 0 < y → 0 < a.phi * y := fun p => mul_pos ha.phi p
  simp only [S6.Nc] at h
  generalize eNs : S6.Ns (S6.Ae a.An a.kf) a.fy = ns at *
  cases hb : a.calcBuckling with
  | false =>
    simp only [hb, Bool.false_eq_true, if_false] at h
    injection h with h
    rw [← h]
    refine ⟨_, by simp only [S6R.NcWith, Args.of, hb, Bool.false_eq_true, if_false]; rfl, ?_⟩
    exact ⟨wi pNs aNs, wj (pp pNs) (wa aNs), trivial, trivial, trivial, trivial, trivial, trivial, trivial, wi pNs aNs,
      wj (pp pNs) (wa aNs)⟩
  | true =>
    simp only [hb, if_true] at h
    cases hx : S6.NcFlexural a.An a.kf (S6.le a.l a.kex) a.rx a.fy a.fref a.alphaB with
    | error e => rw [hx] at h; cases h
    | ok x =>
    rw [hx, Except.bind_ok'] at h
    obtain ⟨X, l1, f1, ex, ax, px, -⟩ := member_column hA ha ha.kex ha.rx hu hx ((hc hb).x x hx)
    cases hy : S6.NcFlexural a.An a.kf (S6.le a.l a.key) a.ry a.fy a.fref a.alphaB with
    | error e => rw [hy] at h; cases h
    | ok y =>
    rw [hy, Except.bind_ok'] at h
    obtain ⟨Y, l2, f2, ey, ay, py, -⟩ := member_column hA ha ha.key ha.ry hu hy ((hc hb).y y hy)
    have mx := ax.min px pNs aNs
    have my := ay.min py pNs aNs
    have qx := lt_min px pNs
    have qy := lt_min py pNs
    have mc := (aNs.min pNs qx mx).min (lt_min pNs qx) qy my
    have qc := lt_min (lt_min pNs qx) qy
    have fc := ((wa aNs).min (pp pNs) (pp qx) (wa mx)).min (lt_min (pp pNs) (pp qx)) (pp qy) (wa my)
    cases hz : a.calcTorsion with
    | false =>
      simp only [hz, Bool.false_eq_true, if_false] at h
      injection h with h
      rw [← h]
      refine ⟨_, by simp only [S6R.NcWith, Args.of, hb, hz, ex, ey, Except.bind_ok', if_true, Bool.false_eq_true, if_false]; rfl, ?_⟩
      exact ⟨wi pNs aNs, wj (pp pNs) (wa aNs), wi qx mx, wj (pp qx) (wa mx), wi qy my, wj (pp qy) (wa my), trivial, trivial, trivial,
        wi qc mc, wj (lt_min (lt_min (pp pNs) (pp qx)) (pp qy)) fc⟩
    | true =>
      simp only [hz, if_true] at h
      cases hq : S6.NcTorsion roots a.member a.kf a.fy a.sym a.uncertainty with
      | error e => rw [hq] at h; cases h
      | ok t =>
      rw [hq, Except.bind_ok'] at h
      injection h with h
      obtain ⟨Z, ez, az, pz⟩ := ht t hb hz hq
      have mz := aNs.min pNs pz az
      have qz := lt_min pNs pz
      have mm := mc.min qc qz mz
      have qm := lt_min qc qz
      rw [← h]
      have e1 : S6R.NcFlexural A (Args.of a k).An (Args.of a k).kf (S6R.le A (Args.of a k).l (Args.of a k).kex) (Args.of a k).rx
        (Args.of a k).fy (Args.of a k).fref (Args.of a k).alphaB = .ok (X, l1, f1) := ex
      have e2 : S6R.NcFlexural A (Args.of a k).An (Args.of a k).kf (S6R.le A (Args.of a k).l (Args.of a k).key) (Args.of a k).ry
        (Args.of a k).fy (Args.of a k).fref (Args.of a k).alphaB = .ok (Y, l2, f2) := ey
      have e4 : (Args.of a k).calcBuckling = true := hb
      have e5 : (Args.of a k).calcTorsion = true := hz
      refine ⟨_, by simp only [S6R.NcWith]; rw [if_pos e4, e1, Except.bind_ok', e2, Except.bind_ok', if_pos e5, ez]; rfl, ?_⟩
      exact ⟨wi pNs aNs, wj (pp pNs) (wa aNs), wi qx mx, wj (pp qx) (wa mx), wi qy my, wj (pp qy) (wa my), wi pz az, wi qz mz,
        wj (pp qz) (wa mz), wi qm mm, wj (pp qm) (wa mm)⟩

/-- C114, partial: every number in the dictionary of the member capacity is close to its exact value: with a number `κ` that bounds the
condition numbers of the checks asked for, the relative errors are at most `(2 κ + 12) u`, as long as `(10 κ + 12) u` is not above 1 and
the slenderness `λ_c` is not closer than `2 κ u` to 1.5, where the column curve has a step. -/
theorem C114_member_partial (hA : Rounded A u) {pw : ℝ → ℝ → ℝ} (hpw : RoundedPow pw (2 * u)) {a : S6.NcArgs} (ha : Args.Sensible a)
    {κ : ℝ} (hκ : 0 ≤ κ) {k : S6R.Sym} (hu : (10 * κ + 12) * u ≤ 1) {roots : S6.Roots} {r : S6.NcResult} (h : S6.Nc roots a = .ok r)
    (hc : a.calcBuckling = true → Columns a κ) (ht : a.calcBuckling = true → a.calcTorsion = true → Twist a κ k)
    (hl : ∀ t, a.calcBuckling = true → a.calcTorsion = true → S6.NcTorsion roots a.member a.kf a.fy a.sym a.uncertainty = .ok t →
      2 * κ * u ≤ |t.lambdaC - 3 / 2| ∧ t.lambdaC ≠ 3 / 2) :
    ∃ r', S6R.Nc A pw (Args.of a k) = .ok r' ∧ ResultWithin ((2 * κ + 12) * u) r' r := by
  exact member_with hA ha hκ hu h hc fun t hb hz hq =>
    member_torsion hA hpw ha hu hq hκ (ht hb hz) (hl t hb hz hq).1 (hl t hb hz hq).2

end

/-- the member capacity of the usual members -/
theorem member_usual {A : Arith ℝ} {u : ℝ} (hA : Rounded A u) (hu : u ≤ 2 ^ (-52 : ℤ)) {pw : ℝ → ℝ → ℝ} (hpw : RoundedPow pw (2 * u)) {a : S6.NcArgs}
    (ha : Args.Sensible a)
    {k : S6R.Sym} (hk : Sym.Of a.sym k) {f : S6.Foxz} (hf : Foxz.Of a.member f k) (hb : 1 / 10 ≤ f.beta)
    (hx : 0 < f.fox) (h1 : f.fox ≤ 100 * f.foz) (h2 : f.foz ≤ 100 * f.fox)
    (h3 : f.beta ≤ 99 / 100 ∨ (f.fox + f.foz) / 10 ≤ |f.fox - f.foz|) {roots : S6.Roots}
    (hcx : ∀ c, S6.NcFlexural a.An a.kf (S6.le a.l a.kex) a.rx a.fy a.fref a.alphaB = .ok c → 27 / 2 ≤ c.lambdaN ∧ c.lambdaN ≤ 1000)
    (hcy : ∀ c, S6.NcFlexural a.An a.kf (S6.le a.l a.key) a.ry a.fy a.fref a.alphaB = .ok c → 27 / 2 ≤ c.lambdaN ∧ c.lambdaN ≤ 1000)
    {ε : ℝ} (hε : 840000000 * u ≤ ε) (hε0 : 0 < ε)
    (hl : ∀ t, S6.NcTorsion roots a.member a.kf a.fy a.sym a.uncertainty = .ok t → ε ≤ |t.lambdaC - 3 / 2|)
    {r : S6.NcResult} (h : S6.Nc roots a = .ok r) :
    ∃ r', S6R.Nc A pw (Args.of a k) = .ok r' ∧ ResultWithin ε r' r := by
  have h0 := hA.nonneg
  have hu' : u ≤ 1 / 10 ^ 15 := hu.trans (by norm_num)
  have hm : a.member.Positive :=
    ⟨ha.An, mul_pos ha.l ha.kex, mul_pos ha.l ha.key, mul_pos ha.l ha.kez, ha.rx, ha.ry, ha.J, ha.Iw, ha.E, ha.G⟩
  obtain ⟨pD, hκ0, hκ⟩ := cond_usual hm hf hb hx h1 h2 h3
  have col : ∀ {le rr : ℝ} {c : S6.Flexural}, 0 < rr → S6.NcFlexural a.An a.kf le rr a.fy a.fref a.alphaB = .ok c → 27 / 2 ≤ c.lambdaN →
      c.lambdaN ≤ 1000 → Flexural.cond c ≤ 416000000 := fun hr e g1 g2 =>
    (column_usual ha.kf hr ha.fy ha.fref ha.alphaB e g1 g2).trans (by norm_num)
  obtain ⟨r', e, w⟩ := C114_member_partial hA hpw ha (κ := 416000000) (by norm_num) (k := k) (by linarith) h
    (fun _ => ⟨fun c e => col ha.rx e (hcx c e).1 (hcx c e).2, fun c e => col ha.ry e (hcy c e).1 (hcy c e).2⟩)
    (fun _ _ => by
      cases k with
      | point => exact hf.elim
      | double => exact ⟨hk, f, hf, pD, by linarith⟩
      | single x => exact ⟨hk, f, hf, pD, by linarith⟩)
    (fun t _ _ e => by
      have g := hl t e
      refine ⟨le_trans (by linarith) g, ?_⟩
      intro h0
      rw [h0, sub_self, abs_zero] at g
      linarith)
  have wi : ∀ {x y : ℝ}, Within ((2 * 416000000 + 12) * u) x y → Within ε x y := fun w =>
    ⟨w.1, w.2.trans (mul_le_mul_of_nonneg_right (by linarith) w.1.le)⟩
  have wo : ∀ {x y : Option ℝ}, WithinOpt ((2 * 416000000 + 12) * u) x y → WithinOpt ε x y := by
    intro x y w
    match x, y, w with
    | some _, some _, w => exact wi w
    | none, none, _ => trivial
  exact ⟨r', e, wi w.Ns, wi w.phiNs, wo w.Ncx, wo w.phiNcx, wo w.Ncy, wo w.phiNcy, wo w.NczBuckling, wo w.Ncz, wo w.phiNcz, wi w.Nc,
    wi w.phiNc⟩

/-- C114, partial: in double precision every number of the dictionary has an error of at most 10⁻⁷ for the usual members: nominal
slendernesses between 13.5 and 1000; the shear centre not further from the centroid than three polar radii, the two stresses within a
factor of 100 and either the shear centre at least a tenth of `r_o1` away from the centroid or the stresses apart by a tenth of their sum;
and the slenderness `λ_c` not within 10⁻⁷ of 1.5. -/
theorem C114_usual_partial {pw : ℝ → ℝ → ℝ} (hpw : RoundedPow pw (2 * 2 ^ (-53 : ℤ))) {a : S6.NcArgs} (ha : Args.Sensible a)
    {k : S6R.Sym} (hk : Sym.Of a.sym k) {f : S6.Foxz} (hf : Foxz.Of a.member f k) (hb : 1 / 10 ≤ f.beta)
    (hx : 0 < f.fox) (h1 : f.fox ≤ 100 * f.foz) (h2 : f.foz ≤ 100 * f.fox)
    (h3 : f.beta ≤ 99 / 100 ∨ (f.fox + f.foz) / 10 ≤ |f.fox - f.foz|) {roots : S6.Roots}
    (hcx : ∀ c, S6.NcFlexural a.An a.kf (S6.le a.l a.kex) a.rx a.fy a.fref a.alphaB = .ok c → 27 / 2 ≤ c.lambdaN ∧ c.lambdaN ≤ 1000)
    (hcy : ∀ c, S6.NcFlexural a.An a.kf (S6.le a.l a.key) a.ry a.fy a.fref a.alphaB = .ok c → 27 / 2 ≤ c.lambdaN ∧ c.lambdaN ≤ 1000)
    (hl : ∀ t, S6.NcTorsion roots a.member a.kf a.fy a.sym a.uncertainty = .ok t → 1 / 10 ^ 7 ≤ |t.lambdaC - 3 / 2|)
    {r : S6.NcResult} (h : S6.Nc roots a = .ok r) :
    ∃ r', S6R.Nc .double pw (Args.of a k) = .ok r' ∧ ResultWithin (1 / 10 ^ 7) r' r :=
  member_usual C102_double (by norm_num) hpw ha hk hf hb hx h1 h2 h3 hcx hcy (by norm_num) (by norm_num) hl h

/-- a stout column 6.92815493 m long with radii of gyration of 1 m -/
def stout : S6R.Args ℚ :=
  ⟨1 / 8, 1, rnd64 (692815493 / 100000000), 1, 1, 1, 1, 1, 0, 0, 1, 1, 250000000, 200000000000, 80000000000, .double, 250000000, 1, 1, 1,
    true, false⟩

/-- the same in exact arithmetic -/
noncomputable def stoutExact : S6.NcArgs :=
  ⟨1 / 8, 1, (rnd64 (692815493 / 100000000) : ℚ), 1, 1, 1, 1, 1, 0, 0, 1, 1, 250000000, 200000000000, 80000000000, ⟨some [.str "x", .str "y"]⟩, 250000000, 1, 1,
    1, true, false⟩

/-- C114 is false for stout columns: the capacity of this one is computed as 0, though it is the squash load. -/
theorem C114_counterexample (pw : ℚ → ℚ → ℚ) (roots : S6.Roots) :
    (∃ r, S6R.Nc .binary64 pw stout = .ok r ∧ r.Nc = 0 ∧ r.phiNc = 0 ∧ r.Ns = 31250000) ∧
    ∃ r, S6.Nc roots stoutExact = .ok r ∧ r.Nc = 31250000 ∧ r.phiNc = 31250000 := by
  constructor
  · have e : S6R.Nc .binary64 pw stout = S6R.Nc .binary64 (fun _ _ => 0) stout := by
      have h : stout.calcTorsion = false := rfl
      simp only [S6R.Nc, S6R.NcWith, h, Bool.false_eq_true, if_false]
    rw [e]
    have : (match S6R.Nc .binary64 (fun _ _ => 0) stout with
      | .ok r => decide (r.Nc = 0 ∧ r.phiNc = 0 ∧ r.Ns = 31250000)
      | .error _ => false) = true := by decide +kernel
    cases h : S6R.Nc .binary64 (fun _ _ => 0) stout with
    | error _ => rw [h] at this; cases this
    | ok r => rw [h] at this; exact ⟨r, rfl, of_decide_eq_true this⟩
  · obtain ⟨-, -, ⟨c, hc, h1⟩, -⟩ := C104_counterexample
    have hn : S6.lambdaN 1 ((rnd64 (692815493 / 100000000) : ℚ) * 1) 1 250000000 250000000 = .ok ((rnd64 (692815493 / 100000000) : ℚ) : ℝ) := by
      simp only [S6.lambdaN, rdiv_ok one_ne_zero, rsqrt_ok zero_le_one, rdiv_ok (show (250000000 : ℝ) ≠ 0 by norm_num), Except.bind_ok']
      rw [div_self (by norm_num), rsqrt_ok zero_le_one, Except.bind_ok']
      simp [pure, Except.pure]
    have hx : ∃ x, S6.NcFlexural (1 / 8) 1 ((rnd64 (692815493 / 100000000) : ℚ) * 1) 1 250000000 250000000 1 = .ok x ∧ x.Nc = 31250000 := by
      simp only [S6.NcFlexural, hn, Except.bind_ok', hc]
      refine ⟨_, rfl, ?_⟩
      simp only [S6.Ns, S6.Ae, h1]
      norm_num
    obtain ⟨x, ex, hN⟩ := hx
    refine ⟨_, by
      simp only [S6.Nc, stoutExact, S6.le, ex, Except.bind_ok', if_true, Bool.false_eq_true, if_false]
      rfl, ?_, ?_⟩
    · simp only [S6.Ns, S6.Ae, hN]
      norm_num
    · simp only [S6.Ns, S6.Ae, hN]
      norm_num

/-- the channel of C106 as a call -/
noncomputable def channelCall : S6.NcArgs :=
  ⟨4 / 1000, 1, 4, 2, 1, 1, 6 / 100, 3 / 100, 4 / 100, 0, 1 / 10 ^ 7, 1 / 10 ^ 9, 350000000, 200000000000, 80000000000, ⟨some [.str "x"]⟩,
    250000000, 0, 1, 9 / 10, true, true⟩

/-- the hypotheses are met by the channel in steel of 350 MPa -/
example (roots : S6.Roots) : ∃ r r', S6.Nc roots channelCall = .ok r ∧
    S6R.Nc .double (fun a b => fl53 (a ^ b)) (Args.of channelCall (.single true)) = .ok r' ∧ ResultWithin (1 / 10 ^ 7) r' r := by
  have em : channelCall.member = channel := by
    simp only [S6.NcArgs.member, channelCall, channel, S6.le]
    norm_num
  have ha : Args.Sensible channelCall := by constructor <;> norm_num [channelCall]
  have hm : channel.Positive := by constructor <;> norm_num [channel]
  have hk : Sym.Of channelCall.sym (.single true) := rfl
  obtain ⟨f, e, ex, ez, p, px, -, -, -⟩ := C52_foxz (ry := channel.ry) (xo := channel.xo) (yo := channel.yo) hm.An hm.lex hm.lez
    hm.rx hm.J hm.Iw hm.E hm.G
  have hfoc : S6.foc roots channel ⟨some [.str "x"]⟩ = .ok f.foxz := by
    simp [S6.foc, Symmetry.symmetry, Symmetry.symcount, S6.focSingle, Axis.isStr, e, Except.bind_ok', pure, Except.pure]
  obtain ⟨t, ht, -, hc, -⟩ := C53_capacity (kf := 1) (unc := 1) (show (0 : ℝ) < 350000000 by norm_num) hfoc p
  rw [fEuler_ok hm.rx.ne' hm.lex.ne', Except.ok_inj'] at ex
  rw [fEulerTorsion_ok hm.An hm.lez hm.rx hm.J hm.G, Except.ok_inj'] at ez
  have hb := (foxz_shape hm.rx e).1
  rw [div_pow, Real.sq_sqrt (roSq_pos _ _ _ hm.rx).le] at hb
  simp only [channel, roSq, piD] at ex ez hb
  norm_num at ex ez hb
  rw [columnCurve_ok (by norm_num) p, Except.ok_inj', Prod.mk.injEq] at hc
  have hl : 17 / 10 < t.lambdaC := by
    rw [← hc.1, Real.lt_sqrt (by norm_num), lt_div_iff₀ p]
    have : f.fox < 115000000 := by rw [← ex]; norm_num
    linarith
  have g1 : (1 : ℝ) ≤ √(350000000 / 250000000) := Real.one_le_sqrt.2 (by norm_num)
  have g2 : √(350000000 / 250000000 : ℝ) ≤ 2 := Real.sqrt_le_iff.2 ⟨by norm_num, by norm_num⟩
  have col : ∀ ke r : ℝ, 10 ≤ 4 * ke / r → 4 * ke / r ≤ 400 → 0 < r → 0 < ke → (∃ x, S6.NcFlexural (4 / 1000) 1 (S6.le 4 ke) r 350000000 250000000 0 = .ok x) := by
    intro ke r h1 h2 hr hke
    refine NcFlexural_ok (by norm_num) hr.ne' (by norm_num) (by norm_num) ?_
    unfold lamOf S6.le
    rw [mul_zero, add_zero, Real.sqrt_one]
    positivity
  have rng : ∀ ke r : ℝ, 20 ≤ 4 * ke / r → 4 * ke / r ≤ 400 → 0 < r →
      ∀ x, S6.NcFlexural (4 / 1000) 1 (S6.le 4 ke) r 350000000 250000000 0 = .ok x → 27 / 2 ≤ x.lambdaN ∧ x.lambdaN ≤ 1000 := by
    intro ke r h1 h2 hr x hx
    obtain ⟨-, hln, -⟩ := NcFlexural_inv (by norm_num) hr.ne' (by norm_num) (by norm_num) hx
    rw [hln, Real.sqrt_one, mul_one]
    unfold S6.le
    constructor <;> nlinarith
  obtain ⟨x, hx⟩ := col 2 (6 / 100) (by norm_num) (by norm_num) (by norm_num) (by norm_num)
  obtain ⟨y, hy⟩ := col 1 (3 / 100) (by norm_num) (by norm_num) (by norm_num) (by norm_num)
  have hN : ∃ r, S6.Nc roots channelCall = .ok r := by
    have e1 : S6.NcFlexural channelCall.An channelCall.kf (S6.le channelCall.l channelCall.kex) channelCall.rx channelCall.fy
      channelCall.fref channelCall.alphaB = .ok x := hx
    have e2 : S6.NcFlexural channelCall.An channelCall.kf (S6.le channelCall.l channelCall.key) channelCall.ry channelCall.fy
      channelCall.fref channelCall.alphaB = .ok y := hy
    have e3 : S6.NcTorsion roots channelCall.member channelCall.kf channelCall.fy channelCall.sym channelCall.uncertainty = .ok t := by
      rw [em]; exact ht
    have e4 : channelCall.calcBuckling = true := rfl
    have e5 : channelCall.calcTorsion = true := rfl
    simp only [S6.Nc, e4, e5, e1, e2, e3, Except.bind_ok', if_true]
    exact ⟨_, rfl⟩
  obtain ⟨r, hr⟩ := hN
  obtain ⟨r', e', w⟩ := C114_usual_partial C106_pow ha (k := .single true) hk (f := f) (by rw [em]; exact e) (by rw [hb]; norm_num)
    (by rw [← ex]; norm_num) (by rw [← ex, ← ez]; norm_num) (by rw [← ex, ← ez]; norm_num) (Or.inl (by rw [hb]; norm_num)) (roots := roots)
    (rng 2 (6 / 100) (by norm_num) (by norm_num) (by norm_num)) (rng 1 (3 / 100) (by norm_num) (by norm_num) (by norm_num))
    (fun t' h' => by
      rw [em] at h'
      have : t' = t := Except.ok_inj'.1 (h'.symm.trans ht)
      rw [this, abs_of_pos (by linarith)]
      norm_num
      linarith) hr
  exact ⟨r, r', hr, e', w⟩

end BeamDesign
