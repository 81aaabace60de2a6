import Verif.Props.MemberRound
import Verif.Props.UnsymRound

/-!
# C118: the member capacity of unsymmetric sections in floating point
-/

namespace BeamDesign

open Spec S6

theorem exact_columnCurve (fy f : ℝ) : S6R.columnCurve .exact rpow fy f = S6.columnCurve fy f := by
  have hq : ∀ a b, Arith.exact.quot a b = rdiv a b := fun _ _ => rfl
  have hr : ∀ a, Arith.exact.root a = rsqrt a := fun _ => rfl
  simp only [S6R.columnCurve, S6.columnCurve, hq, hr]
  simp only [Arith.exact]
  norm_num

/-- with exact arithmetic the function operation by operation is that of `Model/S6` -/
theorem C118_member_exact {roots : Roots} {a : NcArgs} (hs : a.calcTorsion = true → a.sym.symmetry = .ok .none) {r : NcResult}
    (h : S6.Nc roots a = .ok r) (k : S6R.Sym) :
    S6R.NcUnsym .exact rpow (S6R.pick roots) (Args.of a k) = .ok (Result.of r) := by
  have e1 : ∀ An kf le r fy fref ab x, S6.NcFlexural An kf le r fy fref ab = .ok x →
      ∃ l f, S6R.NcFlexural .exact An kf le r fy fref ab = .ok (x.Nc, l, f) := by
    intro An kf le r fy fref ab x hx
    rw [C104_exact, hx]
    exact ⟨_, _, rfl⟩
  have hl : ∀ l ke, S6R.le .exact l ke = S6.le l ke := fun _ _ => rfl
  simp only [S6.Nc] at h
  have eb : (Args.of a k).bar .exact = Bar.of a.member := rfl
  simp only [S6R.NcUnsym, S6R.NcWith, eb]
  simp only [Args.of, hl]
  cases hb : a.calcBuckling with
  | false =>
    simp only [hb, Bool.false_eq_true, if_false] at h ⊢
    injection h with h
    rw [← h]
    rfl
  | true =>
    simp only [hb, if_true] at h ⊢
    cases hx : S6.NcFlexural a.An a.kf (S6.le a.l a.kex) a.rx a.fy a.fref a.alphaB with
    | error e => rw [hx] at h; cases h
    | ok x =>
    rw [hx, Except.bind_ok'] at h
    obtain ⟨l1, f1, x1⟩ := e1 _ _ _ _ _ _ _ _ hx
    rw [x1, Except.bind_ok']
    cases hy : S6.NcFlexural a.An a.kf (S6.le a.l a.key) a.ry a.fy a.fref a.alphaB with
    | error e => rw [hy] at h; cases h
    | ok y =>
    rw [hy, Except.bind_ok'] at h
    obtain ⟨l2, f2, y1⟩ := e1 _ _ _ _ _ _ _ _ hy
    rw [y1, Except.bind_ok']
    rcases Bool.eq_false_or_eq_true a.calcTorsion with ht | ht
    swap
    · simp only [ht, Bool.false_eq_true, if_false] at h ⊢
      injection h with h
      rw [← h]
      rfl
    · simp only [ht, if_true] at h ⊢
      cases hz : S6.NcTorsion roots a.member a.kf a.fy a.sym a.uncertainty with
      | error e => rw [hz] at h; cases h
      | ok t =>
      rw [hz, Except.bind_ok'] at h
      have ez : S6R.NcTorsionUnsym .exact rpow (S6R.pick roots) (Bar.of a.member) a.kf a.fy a.uncertainty = .ok t.Ncz := by
        simp only [S6.NcTorsion, S6.foc, hs ht, Except.bind_ok'] at hz
        have ef := C118_exact roots a.member
        simp only [S6R.focUnsym] at ef
        cases e2 : S6.focUnsym roots a.member with
        | error e => rw [e2] at hz; cases hz
        | ok F =>
        rw [e2, Except.bind_ok'] at hz
        rw [e2] at ef
        cases e3 : S6R.cubic .exact (Bar.of a.member) with
        | error e => rw [e3] at ef; cases ef
        | ok q =>
        rw [e3, Except.bind_ok'] at ef
        simp only [S6R.NcTorsionUnsym, e3, ef, Except.bind_ok', exact_columnCurve]
        cases e4 : S6.columnCurve a.fy F with
        | error e => rw [e4] at hz; cases hz
        | ok p =>
        rw [e4, Except.bind_ok'] at hz
        injection hz with hz
        rw [← hz]
        rfl
      rw [ez, Except.bind_ok']
      injection h with h
      rw [← h]
      rfl

/-- C118: in double precision the member capacity of an unsymmetric section is exactly the smallest of the capacities computed, and `φ N_c` is
exactly the product `φ * N_c`, whichever checks are asked for and whatever the root finder returns. -/
theorem C118_governs {pw : ℚ → ℚ → ℚ} {find : S6R.Cubic ℚ → Py ℚ} {a : S6R.Args ℚ} (hphi : 0 ≤ a.phi) {r : S6R.Result ℚ}
    (h : S6R.NcUnsym .binary64 pw find a = .ok r) :
    r.Nc ≤ r.Ns ∧ (∀ x ∈ r.Ncx, r.Nc ≤ x) ∧ (∀ y ∈ r.Ncy, r.Nc ≤ y) ∧ (∀ z ∈ r.Ncz, r.Nc ≤ z) ∧
    (r.Nc = r.Ns ∨ r.Ncx = some r.Nc ∨ r.Ncy = some r.Nc ∨ r.Ncz = some r.Nc) ∧ r.phiNc = Arith.binary64.mul a.phi r.Nc :=
  governs_with hphi h

/-- the torsional capacity of the member -/
theorem unsym_torsion {A : Arith ℝ} {u : ℝ} (hA : Rounded A u) {pw : ℝ → ℝ → ℝ} (hpw : RoundedPow pw (2 * u)) {a : NcArgs} (ha : Args.Sensible a)
    {roots : Roots} (hr : roots.Exact) (hs : a.sym.symmetry = .ok .none) (hn : NearAxis a.member) {t : Torsional}
    (h : S6.NcTorsion roots a.member a.kf a.fy a.sym a.uncertainty = .ok t) {g : ℝ} (hg : 0 < g) (hsep : Separated a.member t.foc g)
    {find : S6R.Cubic ℝ → Py ℝ} {ρ κ : ℝ} (hρ : 0 ≤ ρ) (k : S6R.Sym)
    (hf : ∀ q, S6R.cubic A ((Args.of a k).bar A) = .ok q → Finds find (ρ * u) q) (hκ : 8000 * unsymCond a.member g + 12 * ρ ≤ κ)
    (hu : (20 * κ + 12) * u ≤ 1) (hgap : κ * u ≤ 3 * g) (hl : 3 * κ * u ≤ |t.lambdaC - 3 / 2|) (hl0 : t.lambdaC ≠ 3 / 2) :
    ∃ N', S6R.NcTorsionUnsym A pw find ((Args.of a k).bar A) a.kf a.fy a.uncertainty = .ok N' ∧ Acc ((κ + 4) * u) N' t.Ncz ∧ 0 < t.Ncz := by
  have h0 := hA.nonneg
  have hm : a.member.Positive :=
    ⟨ha.An, mul_pos ha.l ha.kex, mul_pos ha.l ha.key, mul_pos ha.l ha.kez, ha.rx, ha.ry, ha.J, ha.Iw, ha.E, ha.G⟩
  have c0 : 0 ≤ unsymCond a.member g := by unfold unsymCond polar; positivity
  have ku := mul_le_mul_of_nonneg_right hκ h0
  have cu : 0 ≤ unsymCond a.member g * u := mul_nonneg c0 h0
  have ru : 0 ≤ ρ * u := mul_nonneg hρ h0
  have u1 : u ≤ 1 / 2 := by linarith
  have al : ∀ ke, Acc (2 * u) (S6R.le A a.l ke) (S6.le a.l ke) := fun ke =>
    (hA.accMul u1 (Acc.refl le_rfl a.l) (Acc.refl le_rfl ke)).mono (by linarith)
  have hb : BarNear (2 * u) ((Args.of a k).bar A) a.member :=
    ⟨rfl, al _, al _, al _, rfl, rfl, rfl, rfl, rfl, rfl, rfl, rfl⟩
  simp only [S6.NcTorsion, S6.foc, hs, Except.bind_ok'] at h
  cases e1 : S6.focUnsym roots a.member with
  | error e => rw [e1] at h; cases h
  | ok F =>
  have hF := focUnsym_pos hr hm hn e1
  rw [e1, Except.bind_ok'] at h
  have hfoc : t.foc = F ∧ t.lambdaC = √(a.fy / F) := by
    rw [columnCurve_ok ha.fy hF, Except.bind_ok'] at h
    injection h with h
    rw [← h]
    exact ⟨rfl, rfl⟩
  rw [hfoc.1] at hsep
  rw [hfoc.2] at hl hl0
  have pl := abs_pos.2 (sub_ne_zero.2 hl0)
  obtain ⟨q', v', ec, hlr, n, a0, hmean, κ9⟩ := computed_least (u := 6 / 5 * u) (s := 2 * u) hA (by linarith) (by linarith) (by linarith) hm hn hb hF
    hg hsep (by linarith) (by linarith)
  have hu9 : 9 * u ≤ unsymCond a.member g * u := mul_le_mul_of_nonneg_right κ9 h0
  have v0 : 0 < v' := by
    have := (abs_le.1 n).1
    have : 0 < F * (1 - 1050 * (6 / 5 * u) * unsymCond a.member g) := mul_pos hF (by linarith)
    linarith
  obtain ⟨x, ex, nx⟩ := hf q' ec v' v0 hlr
  have ax : |x - F| ≤ (1260 * (unsymCond a.member g * u) + 2 * (ρ * u)) * F := by
    have l1 := abs_le.1 n
    have l2 := abs_le.1 nx
    have : ρ * u * v' ≤ ρ * u * (2 * F) := by
      apply mul_le_mul_of_nonneg_left _ ru
      have : 1050 * (6 / 5 * u) * unsymCond a.member g * F ≤ 1 * F := mul_le_mul_of_nonneg_right (by linarith) hF.le
      linarith [l1.2]
    rw [abs_le]
    constructor <;> linarith [l1.1, l1.2, l2.1, l2.2]
  have acc : Acc (2 * (1260 * (unsymCond a.member g * u) + 2 * (ρ * u))) x F :=
    Acc.of_rel (by positivity) (by linarith) (by rwa [abs_of_pos hF])
  have rr := fun y => Acc.refl le_rfl y
  have hlt : 9 * (u + 2 * (1260 * (unsymCond a.member g * u) + 2 * (ρ * u))) < |√(a.fy / F) - 3 / 2| := by
    rcases h0.eq_or_lt with e | e
    · rw [← e]; simpa using pl
    · linarith
  obtain ⟨lc, fn, lc', fn', c1, -, pfn, c2, afn⟩ := curve_acc hA hpw ha.fy hF (by positivity) (by linarith) acc hlt
  rw [c1, Except.bind_ok'] at h
  injection h with h
  have pN : 0 < a.uncertainty * (a.An * a.kf) * fn := by
    have := ha.An; have := ha.kf; have := ha.uncertainty; positivity
  refine ⟨A.mul (A.mul a.uncertainty (A.mul a.An a.kf)) fn', ?_, ?_, ?_⟩
  · simp only [S6R.NcTorsionUnsym, ec, ex, Except.bind_ok', c2]
    rfl
  · rw [← h]
    exact (hA.accMul u1 (hA.accMul u1 (rr a.uncertainty) (hA.accMul u1 (rr a.An) (rr a.kf))) afn).mono (by linarith)
  · rw [← h]
    exact pN

/-- C118, partial: every number in the dictionary `s6_1_1_Nc` returns for an unsymmetric section is close to its exact value.  With a root finder of
relative error `ρ u` and a number `κ` that bounds the condition numbers of the checks asked for, the relative errors are at most `(2 κ + 12) u`, as
long as `(20 κ + 12) u` is not above 1, `κ u` at most three times the gap `g`, and the slenderness `λ_c` not closer than `3 κ u` to 1.5. -/
theorem C118_member_partial {A : Arith ℝ} {u : ℝ} (hA : Rounded A u) {pw : ℝ → ℝ → ℝ} (hpw : RoundedPow pw (2 * u)) {a : NcArgs}
    (ha : Args.Sensible a) {roots : Roots} (hr : roots.Exact) (hs : a.sym.symmetry = .ok .none) (hn : NearAxis a.member) {r : NcResult}
    (h : S6.Nc roots a = .ok r) {κ g ρ : ℝ} (hg : 0 < g) (hρ : 0 ≤ ρ) (hκ : 8000 * unsymCond a.member g + 12 * ρ ≤ κ)
    (hu : (20 * κ + 12) * u ≤ 1) (hgap : κ * u ≤ 3 * g) (hc : a.calcBuckling = true → Columns a κ) {find : S6R.Cubic ℝ → Py ℝ} {k : S6R.Sym}
    (hf : ∀ q, S6R.cubic A ((Args.of a k).bar A) = .ok q → Finds find (ρ * u) q)
    (hl : ∀ t, a.calcBuckling = true → a.calcTorsion = true → S6.NcTorsion roots a.member a.kf a.fy a.sym a.uncertainty = .ok t →
      Separated a.member t.foc g ∧ 3 * κ * u ≤ |t.lambdaC - 3 / 2| ∧ t.lambdaC ≠ 3 / 2) :
    ∃ r', S6R.NcUnsym A pw find (Args.of a k) = .ok r' ∧ ResultWithin ((2 * κ + 12) * u) r' r := by
  have c0 : 0 ≤ unsymCond a.member g := by unfold unsymCond polar; positivity
  have k0 : 0 ≤ κ := by linarith
  have := mul_nonneg k0 hA.nonneg
  exact member_with hA ha k0 (by linarith) h hc fun t hb hz hq =>
    unsym_torsion hA hpw ha hr hs hn hq hg (hl t hb hz hq).1 hρ k hf hκ hu hgap (hl t hb hz hq).2.1 (hl t hb hz hq).2.2

/-- the section of C118 as a call -/
noncomputable def skewCall : NcArgs :=
  ⟨9, 1, 1, 2, 1, 1, 4, 2, 2, 1, 241, 0, 1, 1 / (piD * piD), 1, ⟨some []⟩, 1 / 40000, 0, 1, 9 / 10, true, true⟩

/-- the hypotheses are met in double precision, with an error below 10⁻⁷ -/
example : ∃ roots find r r', S6.Nc roots skewCall = .ok r ∧
    S6R.NcUnsym .double (fun a b => fl53 (a ^ b)) find (Args.of skewCall .double) = .ok r' ∧ ResultWithin ((2 * 416000000 + 12) * 2 ^ (-53 : ℤ)) r' r := by
  obtain ⟨roots, hr⟩ := exists_exact_roots
  obtain ⟨find, hf⟩ := exists_finds
  have hs : (Symmetry.mk (some [])).symmetry = .ok .none := by decide +kernel
  have em : skewCall.member = skew := by
    simp only [NcArgs.member, skewCall, skew, S6.le]
    norm_num
  have pp : (0 : ℝ) < 1 / (piD * piD) := by norm_num [piD]
  have ha : Args.Sensible skewCall := by constructor <;> first | exact pp | norm_num [skewCall]
  have ht : ∃ t, S6.NcTorsion roots skew 1 1 (Symmetry.mk (some [])) 1 = .ok t ∧ t.foc = 1 ∧ t.lambdaC = √(1 / 1) := by
    simp only [S6.NcTorsion, S6.foc, hs, Except.bind_ok', skew_stress hr, columnCurve_ok one_pos one_pos]
    exact ⟨_, rfl, rfl, rfl⟩
  obtain ⟨t, ht, h1, h2⟩ := ht
  have sq : √((1 : ℝ) / (1 / 40000)) = 200 := by rw [show (1 : ℝ) / (1 / 40000) = 200 ^ 2 by norm_num, Real.sqrt_sq (by norm_num)]
  have col : ∀ le r : ℝ, 0 < r → le / r = 1 / 2 → ∃ x, S6.NcFlexural 9 1 le r 1 (1 / 40000) 0 = .ok x ∧ Flexural.cond x ≤ 416000000 := by
    intro le r hr' e
    obtain ⟨x, hx⟩ : ∃ x, S6.NcFlexural 9 1 le r 1 (1 / 40000) 0 = .ok x := by
      refine NcFlexural_ok (by norm_num) hr'.ne' (by norm_num) (by norm_num) ?_
      unfold lamOf
      rw [mul_zero, add_zero, Real.sqrt_one, e, sq]
      norm_num
    obtain ⟨-, hln, -⟩ := NcFlexural_inv (by norm_num) hr'.ne' (by norm_num) (by norm_num) hx
    rw [Real.sqrt_one, e, sq] at hln
    exact ⟨x, hx, (column_usual (by norm_num) hr' (by norm_num) (by norm_num) (by norm_num) hx (by rw [hln]; norm_num)
      (by rw [hln]; norm_num)).trans (by norm_num)⟩
  obtain ⟨x, hx, cx⟩ := col (S6.le 1 2) 4 (by norm_num) (by norm_num [S6.le])
  obtain ⟨y, hy, cy⟩ := col (S6.le 1 1) 2 (by norm_num) (by norm_num [S6.le])
  have e1 : S6.NcFlexural skewCall.An skewCall.kf (S6.le skewCall.l skewCall.kex) skewCall.rx skewCall.fy
    skewCall.fref skewCall.alphaB = .ok x := hx
  have e2 : S6.NcFlexural skewCall.An skewCall.kf (S6.le skewCall.l skewCall.key) skewCall.ry skewCall.fy
    skewCall.fref skewCall.alphaB = .ok y := hy
  have e3 : S6.NcTorsion roots skewCall.member skewCall.kf skewCall.fy skewCall.sym skewCall.uncertainty = .ok t := by
    rw [em]; exact ht
  obtain ⟨r, hN⟩ : ∃ r, S6.Nc roots skewCall = .ok r := by
    have e4 : skewCall.calcBuckling = true := rfl
    have e5 : skewCall.calcTorsion = true := rfl
    simp only [S6.Nc, e4, e5, e1, e2, e3, Except.bind_ok', if_true]
    exact ⟨_, rfl⟩
  obtain ⟨r', e', w⟩ := C118_member_partial C102_double C106_pow ha hr (by exact hs) (by rw [em]; exact Or.inr (by norm_num [skew])) hN
    (κ := 416000000) (g := 1 / 10) (ρ := 0) (by norm_num) le_rfl (by rw [em]; norm_num [unsymCond, skew, polar]) (by norm_num) (by norm_num)
    (fun _ => ⟨fun c hc => by rw [e1, Except.ok_inj'] at hc; rw [← hc]; exact cx, fun c hc => by rw [e2, Except.ok_inj'] at hc; rw [← hc]; exact cy⟩)
    (find := find) (k := .double) (fun q _ => by rw [zero_mul]; exact hf q) (fun t' _ _ h' => by
      rw [e3, Except.ok_inj'] at h'
      rw [← h', em, h1, h2]
      exact ⟨skew_separated, by norm_num, by norm_num⟩)
  exact ⟨roots, find, r, r', hN, e', w⟩

end BeamDesign
