import Verif.Spec.RoundedEffective
import Verif.Lemmas.Acc
import Verif.Lemmas.Float64
import Verif.Props.WebRound

/-!
# C113: the effective sections in floating point
-/

namespace BeamDesign

open Spec

/-- with exact arithmetic the formulas operation by operation are the formulas of `Model/Effective` -/
theorem C113_exact :
    (∀ b t fy fref : ℝ, EffectiveR.lambdaPlate .exact b t fy fref = Effective.lambdaPlate b t fy fref) ∧
    (∀ d t fy fref : ℝ, EffectiveR.lambdaCHS .exact d t fy fref = Effective.lambdaCHS d t fy fref) ∧
    (∀ b le ley : ℝ, EffectiveR.bPlate .exact b le ley = Effective.bPlate b le ley) ∧
    (∀ d le ley : ℝ, EffectiveR.dCHS .exact d le ley = Effective.dCHS d le ley) ∧
    (∀ b t fy ley fref : ℝ, EffectiveR.aPlate .exact b t fy ley fref = Effective.aPlate b t fy ley fref) ∧
    (∀ An Ae : ℝ, EffectiveR.kf .exact An Ae = Effective.kf An Ae) :=
  ⟨fun _ _ _ _ => rfl, fun _ _ _ _ => rfl, fun _ _ _ => rfl, fun _ _ _ => rfl, fun _ _ _ _ _ => rfl, fun _ _ => rfl⟩

section
variable {A : Arith ℝ} {u : ℝ}

theorem lambdaPlate_acc (hA : Rounded A u) (h1 : u ≤ 1 / 2) {b t fy fref : ℝ} (hb : 0 < b) (ht : 0 < t) (hf : 0 < fy) (hr : 0 < fref) :
    ∃ x, EffectiveR.lambdaPlate A b t fy fref = .ok x ∧ Acc (7 * u) x (b / t * √(fy / fref)) ∧ 0 < b / t * √(fy / fref) := by
  have h0 := hA.nonneg
  have rr := fun y => Acc.refl le_rfl y
  have p : 0 < fy / fref := by positivity
  have ps := Real.sqrt_pos.2 p
  have a := hA.accDiv h1 (rr b) (rr t)
  have q := hA.accDiv h1 (rr fy) (rr fref)
  have s := hA.accSqrt h1 p.le q
  refine ⟨_, ?_, (hA.accMul h1 a s).mono (by linarith), by positivity⟩
  simp only [EffectiveR.lambdaPlate, Arith.quot_ok _ ht.ne', Arith.quot_ok _ hr.ne', Except.bind_ok', Arith.root_ok _ (q.nonneg p.le)]
  rfl

/-- the width for a slenderness that is itself rounded -/
theorem bPlate_acc (hA : Rounded A u) (h1 : u ≤ 1 / 2) {b le le' ley s : ℝ} (hb : 0 < b) (hl : 0 < le) (hy : 0 < ley) (hs : 0 ≤ s)
    (al : Acc s le' le) : ∃ x, EffectiveR.bPlate A b le' ley = .ok x ∧ Acc (4 * u + s) x (min (b * (ley / le)) b) ∧
      0 < min (b * (ley / le)) b := by
  have h0 := hA.nonneg
  have rr := fun y => Acc.refl le_rfl y
  have pq : 0 < b * (ley / le) := by positivity
  have a := (hA.accMul h1 (rr b) (hA.accDiv h1 (rr ley) al)).mono (t' := 4 * u + s) (by linarith)
  refine ⟨_, ?_, a.min pq hb (Acc.refl (by linarith) b), lt_min pq hb⟩
  simp only [EffectiveR.bPlate, Arith.quot_ok _ (al.pos hl).ne', Except.bind_ok']
  rfl

theorem aPlate_acc (hA : Rounded A u) (h1 : u ≤ 1 / 2) {b t fy ley fref a : ℝ} (hb : 0 < b) (ht : 0 < t) (hf : 0 < fy) (hy : 0 < ley)
    (hr : 0 < fref) (h : Effective.aPlate b t fy ley fref = .ok a) :
    ∃ x, EffectiveR.aPlate A b t fy ley fref = .ok x ∧ Acc (13 * u) x a ∧ 0 < a := by
  have h0 := hA.nonneg
  have rr := fun y => Acc.refl le_rfl y
  have p : 0 < fy / fref := by positivity
  obtain ⟨l', e1, a1, p1⟩ := lambdaPlate_acc hA h1 hb ht hf hr
  obtain ⟨b', e2, a2, p2⟩ := bPlate_acc hA h1 hb p1 hy (by linarith) a1
  simp only [Effective.aPlate, Effective.lambdaPlate, Effective.bPlate, rdiv_ok ht.ne', rdiv_ok hr.ne', Except.bind_ok', rsqrt_ok p.le,
    pure, Except.pure, rdiv_ok p1.ne'] at h
  injection h with h
  rw [← h]
  refine ⟨A.mul b' t, ?_, (hA.accMul h1 a2 (rr t)).mono (by linarith), by positivity⟩
  simp only [EffectiveR.aPlate, e1, e2, Except.bind_ok']
  rfl

/-- C113: for positive numbers the slenderness of a plate has a relative error of at most `14 u`, its effective width for a given
slenderness one of at most `8 u` and its effective area one of at most `26 u`. -/
theorem C113_plate (hA : Rounded A u) (hu : 26 * u ≤ 1) {b t fy ley fref : ℝ} (hb : 0 < b) (ht : 0 < t) (hf : 0 < fy) (hy : 0 < ley)
    (hr : 0 < fref) :
    (∀ l, Effective.lambdaPlate b t fy fref = .ok l → ∃ l', EffectiveR.lambdaPlate A b t fy fref = .ok l' ∧ Within (14 * u) l' l) ∧
    (∀ le w, 0 < le → Effective.bPlate b le ley = .ok w → ∃ w', EffectiveR.bPlate A b le ley = .ok w' ∧ Within (8 * u) w' w) ∧
    (∀ a, Effective.aPlate b t fy ley fref = .ok a → ∃ a', EffectiveR.aPlate A b t fy ley fref = .ok a' ∧ Within (26 * u) a' a) := by
  have h0 := hA.nonneg
  have h1 : u ≤ 1 / 2 := by linarith
  have p : 0 < fy / fref := by positivity
  refine ⟨?_, ?_, ?_⟩
  · intro l hl
    obtain ⟨x, e, a, q⟩ := lambdaPlate_acc hA h1 hb ht hf hr
    simp only [Effective.lambdaPlate, rdiv_ok ht.ne', rdiv_ok hr.ne', Except.bind_ok', rsqrt_ok p.le, pure, Except.pure] at hl
    injection hl with hl
    exact ⟨x, e, hl ▸ a.within q (by linarith) (by linarith) (by linarith)⟩
  · intro le w pl hw
    obtain ⟨x, e, a, q⟩ := bPlate_acc hA h1 hb pl hy le_rfl (Acc.refl le_rfl le)
    simp only [Effective.bPlate, rdiv_ok pl.ne', Except.bind_ok', pure, Except.pure] at hw
    injection hw with hw
    exact ⟨x, e, hw ▸ a.within q (by linarith) (by linarith) (by linarith)⟩
  · intro a ha
    obtain ⟨x, e, a, q⟩ := aPlate_acc hA h1 hb ht hf hy hr ha
    exact ⟨x, e, a.within q (by linarith) (by linarith) (by linarith)⟩

/-- C113: the slenderness of a tube has a relative error of at most `12 u` and its effective diameter one of at most `24 u`. -/
theorem C113_tube (hA : Rounded A u) (hu : 24 * u ≤ 1) {d t fy ley fref : ℝ} (hd : 0 < d) (ht : 0 < t) (hf : 0 < fy) (hy : 0 < ley)
    (hr : 0 < fref) :
    (∀ l, Effective.lambdaCHS d t fy fref = .ok l → ∃ l', EffectiveR.lambdaCHS A d t fy fref = .ok l' ∧ Within (12 * u) l' l) ∧
    (∀ le w, 0 < le → Effective.dCHS d le ley = .ok w → ∃ w', EffectiveR.dCHS A d le ley = .ok w' ∧ Within (24 * u) w' w) := by
  have h0 := hA.nonneg
  have h1 : u ≤ 1 / 2 := by linarith
  have rr := fun y => Acc.refl le_rfl y
  refine ⟨?_, ?_⟩
  · intro l hl
    have a := (hA.accMul h1 (hA.accDiv h1 (rr d) (rr t)) (hA.accDiv h1 (rr fy) (rr fref))).mono (t' := 6 * u) (by linarith)
    simp only [Effective.lambdaCHS, rdiv_ok ht.ne', rdiv_ok hr.ne', Except.bind_ok', pure, Except.pure] at hl
    injection hl with hl
    refine ⟨_, ?_, hl ▸ a.within (by positivity) (by linarith) (by linarith) (by linarith)⟩
    simp only [EffectiveR.lambdaCHS, Arith.quot_ok _ ht.ne', Arith.quot_ok _ hr.ne', Except.bind_ok']
    rfl
  · intro le w pl hw
    have p : 0 < ley / le := by positivity
    have ps := Real.sqrt_pos.2 p
    have q := hA.accDiv h1 (rr ley) (rr le)
    have a := (hA.accMul h1 (rr d) (hA.accSqrt h1 p.le q)).mono (t' := 12 * u) (by linarith)
    have a3 := (hA.accMul h1 (rr d) (hA.accSq h1 (hA.accDiv h1 (hA.accMul h1 (rr 3) (rr ley)) (rr le)))).mono (t' := 12 * u) (by linarith)
    have am := (a.min (by positivity) (by positivity) a3).min (lt_min (by positivity) (by positivity)) hd
      (Acc.refl (by linarith) d)
    simp only [Effective.dCHS, rdiv_ok pl.ne', Except.bind_ok', rsqrt_ok p.le, pure, Except.pure] at hw
    injection hw with hw
    refine ⟨_, ?_, hw ▸ am.within (lt_min (lt_min (by positivity) (by positivity)) hd) (by linarith) (by linarith) (by linarith)⟩
    simp only [EffectiveR.dCHS, Arith.quot_ok _ pl.ne', Except.bind_ok', Arith.root_ok _ (q.nonneg p.le)]
    rfl

theorem Acc.zero {t : ℝ} (ht : 0 ≤ t) : Acc t 0 0 := Acc.refl ht 0

/-- the sums of the effective areas -/
theorem areas_acc (hA : Rounded A u) (h1 : u ≤ 1 / 2) {fy fref : ℝ} (hf : 0 < fy) (hr : 0 < fref) (ps : List (Flat ℝ))
    (hp : ∀ p ∈ ps, p.Positive) {aes : List ℝ} (h : ps.mapM (fun p => Effective.aPlate p.b p.t fy p.ley fref) = .ok aes) :
    ∃ aes', ps.mapM (fun p => EffectiveR.aPlate A p.b p.t fy p.ley fref) = .ok aes' ∧ 0 ≤ aes.sum ∧ (ps ≠ [] → 0 < aes.sum) ∧
      ∀ t x y, 13 * u ≤ t → 0 ≤ y → Acc t x y → Acc (t + 2 * u * ps.length) (aes'.foldl A.add x) (y + aes.sum) := by
  have h0 := hA.nonneg
  induction ps generalizing aes with
  | nil =>
    rw [List.mapM_nil] at h
    injection h with h
    subst h
    refine ⟨[], rfl, by simp, by simp, ?_⟩
    intro t x y _ _ a
    simpa using a
  | cons p ps ih =>
    have pp := hp p (List.mem_cons_self ..)
    rw [List.mapM_cons] at h
    cases e : Effective.aPlate p.b p.t fy p.ley fref with
    | error er => rw [e] at h; cases h
    | ok a =>
    rw [e, Except.bind_ok'] at h
    cases e2 : ps.mapM (fun p => Effective.aPlate p.b p.t fy p.ley fref) with
    | error er => rw [e2] at h; cases h
    | ok as =>
    rw [e2, Except.bind_ok'] at h
    injection h with h
    subst h
    obtain ⟨x, ex, ax, px⟩ := aPlate_acc hA h1 pp.b pp.t hf pp.ley hr e
    obtain ⟨as', es, n, -, hs⟩ := ih (fun q hq => hp q (List.mem_cons_of_mem _ hq)) e2
    refine ⟨x :: as', ?_, ?_, ?_, ?_⟩
    · rw [List.mapM_cons, ex, Except.bind_ok', es]
      rfl
    · rw [List.sum_cons]; linarith
    · intro _; rw [List.sum_cons]; linarith
    · intro t z y ht hy az
      have b := hA.accAdd h1 hy px.le az (ax.mono ht)
      have := hs (2 * u + t) _ _ (by linarith) (by linarith) b
      rw [List.foldl_cons, List.sum_cons, List.length_cons, ← add_assoc]
      refine this.mono (le_of_eq ?_)
      push_cast
      ring

/-- the sum of the gross areas -/
theorem gross_acc (hA : Rounded A u) (h1 : u ≤ 1 / 2) (ps : List (Flat ℝ)) (hp : ∀ p ∈ ps, p.Positive) :
    0 ≤ (ps.map (fun p => p.b * p.t)).sum ∧ (ps ≠ [] → 0 < (ps.map (fun p => p.b * p.t)).sum) ∧
      ∀ t x y, 2 * u ≤ t → 0 ≤ y → Acc t x y →
        Acc (t + 2 * u * ps.length) ((ps.map (fun p => A.mul p.b p.t)).foldl A.add x) (y + (ps.map (fun p => p.b * p.t)).sum) := by
  have h0 := hA.nonneg
  have rr := fun y => Acc.refl le_rfl y
  induction ps with
  | nil => refine ⟨by simp, by simp, fun t x y _ _ a => by simpa using a⟩
  | cons p ps ih =>
    have pp := hp p (List.mem_cons_self ..)
    have pa : 0 < p.b * p.t := mul_pos pp.b pp.t
    obtain ⟨n, -, hs⟩ := ih (fun q hq => hp q (List.mem_cons_of_mem _ hq))
    refine ⟨?_, ?_, ?_⟩
    · rw [List.map_cons, List.sum_cons]; linarith
    · intro _; rw [List.map_cons, List.sum_cons]; linarith
    · intro t z y ht hy az
      have b := hA.accAdd h1 hy pa.le az ((hA.accMul h1 (rr p.b) (rr p.t)).mono (by linarith))
      have := hs (2 * u + t) _ _ (by linarith) (by linarith) b
      rw [List.map_cons, List.map_cons, List.foldl_cons, List.sum_cons, List.length_cons, ← add_assoc]
      refine this.mono (le_of_eq ?_)
      push_cast
      ring

/-- C113: the form factor of a section built up of any number `n` of plates has a relative error of at most `(34 + 8 n) u`. -/
theorem C113_form_factor (hA : Rounded A u) (ps : List (Flat ℝ)) (hne : ps ≠ []) (hp : ∀ p ∈ ps, p.Positive)
    (hu : (34 + 8 * ps.length) * u ≤ 1) {fy fref k : ℝ} (hf : 0 < fy) (hr : 0 < fref) (h : FormFactor ps fy fref k) :
    ∃ k', FormFactorComputed A ps fy fref k' ∧ Within ((34 + 8 * ps.length) * u) k' k := by
  have h0 := hA.nonneg
  have hn : (0 : ℝ) ≤ u * ps.length := by positivity
  have h1 : u ≤ 1 / 2 := by linarith
  obtain ⟨aes, e, hk⟩ := h
  obtain ⟨aes', e', -, pn, ha⟩ := areas_acc hA h1 hf hr ps hp e
  obtain ⟨-, pg, hg⟩ := gross_acc hA h1 ps hp
  have a1 := ha (13 * u) 0 0 le_rfl le_rfl (Acc.zero (by linarith))
  have a2 := hg (2 * u) 0 0 le_rfl le_rfl (Acc.zero (by linarith))
  rw [zero_add] at a1 a2
  have p1 := pn hne
  have p2 := pg hne
  rw [Effective.kf, rdiv_ok p2.ne'] at hk
  injection hk with hk
  subst hk
  refine ⟨_, ⟨aes', e', Arith.quot_ok _ (a2.pos p2).ne'⟩, ?_⟩
  exact ((hA.accDiv h1 a1 a2).mono (t' := (17 + 4 * ps.length) * u) (by linarith)).within (by positivity) (by positivity) (by linarith)
    (by linarith)

end

/-- C113: in double precision all of them have an error below 10⁻¹⁴, the form factor with up to seven plates. -/
theorem C113_double {b t fy ley fref : ℝ} (hb : 0 < b) (ht : 0 < t) (hf : 0 < fy) (hy : 0 < ley) (hr : 0 < fref) :
    (∀ a, Effective.aPlate b t fy ley fref = .ok a →
      ∃ a', EffectiveR.aPlate .double b t fy ley fref = .ok a' ∧ Within (1 / 10 ^ 14) a' a) ∧
    (∀ le w, 0 < le → Effective.dCHS b le ley = .ok w →
      ∃ w', EffectiveR.dCHS .double b le ley = .ok w' ∧ Within (1 / 10 ^ 14) w' w) ∧
    (∀ (ps : List (Flat ℝ)) (k : ℝ), ps ≠ [] → ps.length ≤ 7 → (∀ p ∈ ps, p.Positive) → FormFactor ps fy fref k →
      ∃ k', FormFactorComputed .double ps fy fref k' ∧ Within (1 / 10 ^ 14) k' k) := by
  have wk : ∀ {c x y : ℝ}, c ≤ 90 → Within (c * 2 ^ (-53 : ℤ)) x y → Within (1 / 10 ^ 14) x y := by
    rintro c x y hc ⟨p, e⟩
    refine ⟨p, e.trans (mul_le_mul_of_nonneg_right ?_ p.le)⟩
    exact (mul_le_mul_of_nonneg_right hc (by positivity)).trans (by norm_num)
  refine ⟨?_, ?_, ?_⟩
  · intro a ha
    obtain ⟨a', e, w⟩ := (C113_plate C102_double (by norm_num) hb ht hf hy hr).2.2 a ha
    exact ⟨a', e, wk (by norm_num) w⟩
  · intro le w pl hw
    obtain ⟨a', e, w⟩ := (C113_tube C102_double (by norm_num) hb ht hf hy hr).2 le w pl hw
    exact ⟨a', e, wk (by norm_num) w⟩
  · intro ps k hne hl hp hk
    have hl' : (ps.length : ℝ) ≤ 7 := by exact_mod_cast hl
    have h2 : (34 + 8 * (ps.length : ℝ)) ≤ 90 := by linarith
    obtain ⟨k', e, w⟩ := C113_form_factor C102_double ps hne hp
      ((mul_le_mul_of_nonneg_right h2 (by positivity)).trans (by norm_num)) hf hr hk
    exact ⟨k', e, wk h2 w⟩

theorem rnd64_one : rnd64 1 = 1 := by decide +kernel

/-- the double nearest to the root of a number not below 1 is not below 1 -/
theorem one_le_sqrt64 {x : ℚ} (hx : 1 ≤ x) : 1 ≤ sqrt64 x := by
  have h0 : (0 : ℚ) < x := by linarith
  have hl : 0 ≤ Int.log 2 x := by rw [Int.log_of_one_le_right 2 hx]; positivity
  set k : ℤ := 60 - Int.log 2 |x| / 2 with hk
  rw [abs_of_pos h0] at hk
  have hk60 : k ≤ 60 := by omega
  have hx2 : (2 : ℚ) ^ Int.log 2 x ≤ x := by exact_mod_cast Int.zpow_log_le_self (b := 2) (by norm_num) h0
  have hm : (4 : ℚ) ^ (60 : ℕ) ≤ x * 4 ^ k := by
    have e : (4 : ℚ) ^ k = 2 ^ (2 * k) := by rw [zpow_mul]; norm_num
    calc (4 : ℚ) ^ (60 : ℕ) = 2 ^ (120 : ℤ) := by norm_num
      _ ≤ 2 ^ (Int.log 2 x + 2 * k) := zpow_le_zpow_right₀ (by norm_num) (by omega)
      _ = 2 ^ Int.log 2 x * 2 ^ (2 * k) := zpow_add₀ (by norm_num) _ _
      _ ≤ x * 4 ^ k := by rw [e]; exact mul_le_mul_of_nonneg_right hx2 (by positivity)
  have hn : 2 ^ 60 ≤ Nat.sqrt ⌊x * 4 ^ k⌋.toNat := by
    rw [Nat.le_sqrt]
    have : ((4 ^ 60 : ℕ) : ℤ) ≤ ⌊x * 4 ^ k⌋ := by
      rw [Int.le_floor]
      push_cast
      exact hm
    have h2 : (2 : ℕ) ^ 60 * 2 ^ 60 = 4 ^ 60 := by norm_num
    omega
  have hn' : (2 : ℚ) ^ 60 ≤ (Nat.sqrt ⌊x * 4 ^ k⌋.toNat : ℚ) := by exact_mod_cast hn
  have h2k : (2 : ℚ) ^ k ≤ 2 ^ 60 := by
    have := zpow_le_zpow_right₀ (show (1 : ℚ) ≤ 2 by norm_num) hk60
    exact_mod_cast this
  rw [← rnd64_one]
  apply rnd64_mono
  rw [one_le_div (by positivity)]
  rw [← abs_of_pos h0] at hk
  split <;> linarith

/-- C113: rounding makes no effective section larger than the section, and a plate or tube within its limit counts in full: in double
precision the effective width and diameter are not above the width and diameter, they are equal to them whenever the slenderness is not
above the limit, and the effective area is not above the product of width and thickness.  The form factor is not above 1. -/
theorem C113_stocky {b le ley : ℚ} (hb : 0 < b) (db : rnd64 b = b) (hl : 0 < le) (hy : 0 < ley) (dy : rnd64 ley = ley) :
    (∃ w, EffectiveR.bPlate .binary64 b le ley = .ok w ∧ w ≤ b ∧ (le ≤ ley → w = b)) ∧
    (∃ w, EffectiveR.dCHS .binary64 b le ley = .ok w ∧ w ≤ b ∧ (le ≤ ley → w = b)) ∧
    (∀ t fy fref a, 0 < t → EffectiveR.aPlate .binary64 b t fy ley fref = .ok a → a ≤ Arith.binary64.mul b t) ∧
    (∀ An Ae k : ℚ, 0 < An → Ae ≤ An → EffectiveR.kf .binary64 An Ae = .ok k → k ≤ 1) := by
  have full : ∀ q, 1 ≤ q → b ≤ rnd64 (b * q) := fun q hq =>
    calc b = rnd64 b := db.symm
      _ ≤ _ := rnd64_mono (le_mul_of_one_le_right hb.le hq)
  have one : ∀ q : ℚ, 1 ≤ q → 1 ≤ rnd64 q := fun q hq => by rw [← rnd64_one]; exact rnd64_mono hq
  have quo : ∀ q, ley ≤ q → le ≤ ley → 1 ≤ rnd64 (q / le) := fun q hq hle => one _ ((one_le_div hl).2 (hle.trans hq))
  refine ⟨?_, ?_, ?_, ?_⟩
  · refine ⟨min (rnd64 (b * rnd64 (ley / le))) b, ?_, min_le_right _ _, ?_⟩
    · simp only [EffectiveR.bPlate, Arith.quot_ok _ hl.ne', Except.bind_ok']
      rfl
    · intro hle
      exact min_eq_right (full _ (quo _ le_rfl hle))
  · have hq : 0 ≤ Arith.binary64.div ley le := rnd64_nonneg (by positivity)
    refine ⟨min (min (rnd64 (b * sqrt64 (rnd64 (ley / le)))) (rnd64 (b * rnd64 (rnd64 (rnd64 (3 * ley) / le) ^ 2)))) b, ?_,
      min_le_right _ _, ?_⟩
    · simp only [EffectiveR.dCHS, Arith.quot_ok _ hl.ne', Except.bind_ok', Arith.root_ok _ hq]
      rfl
    · intro hle
      apply min_eq_right
      refine le_min (full _ (one_le_sqrt64 (quo _ le_rfl hle))) (full _ (one _ ?_))
      have h3 : ley ≤ rnd64 (3 * ley) := by
        calc ley = rnd64 ley := dy.symm
          _ ≤ _ := rnd64_mono (by linarith)
      exact one_le_pow₀ (quo _ h3 hle)
  · intro t fy fref a ht ha
    simp only [EffectiveR.aPlate] at ha
    cases e1 : EffectiveR.lambdaPlate .binary64 b t fy fref with
    | error e => rw [e1] at ha; cases ha
    | ok l =>
    rw [e1, Except.bind_ok'] at ha
    simp only [EffectiveR.bPlate] at ha
    cases e2 : Arith.binary64.quot ley l with
    | error e => rw [e2] at ha; cases ha
    | ok q =>
    rw [e2, Except.bind_ok'] at ha
    injection ha with ha
    rw [← ha]
    exact rnd64_mono (mul_le_mul_of_nonneg_right (min_le_right _ _) ht.le)
  · intro An Ae k pA hle hk
    rw [EffectiveR.kf, Arith.quot_ok _ pA.ne'] at hk
    injection hk with hk
    rw [← hk, ← rnd64_one]
    exact rnd64_mono ((div_le_one pA).2 hle)

/-- an I section of three plates: two slender outstands of flange and a slender web -/
example : ∃ k k', FormFactor [⟨200, 10, 16⟩, ⟨600, 6, 45⟩, ⟨200, 10, 16⟩] 350 250 k ∧
    FormFactorComputed .double [⟨200, 10, 16⟩, ⟨600, 6, 45⟩, ⟨200, 10, 16⟩] 350 250 k' ∧ Within (1 / 10 ^ 14) k' k := by
  have hp : ∀ p ∈ ([⟨200, 10, 16⟩, ⟨600, 6, 45⟩, ⟨200, 10, 16⟩] : List (Flat ℝ)), p.Positive := by
    intro p hp
    simp only [List.mem_cons, List.not_mem_nil, or_false] at hp
    rcases hp with rfl | rfl | rfl <;> constructor <;> norm_num
  have hq : (0 : ℝ) < 350 / 250 := by norm_num
  have hs := Real.sqrt_pos.2 hq
  have ha : ∀ b t ley : ℝ, 0 < b → 0 < t → ∃ a, Effective.aPlate b t 350 ley 250 = .ok a := by
    intro b t ley hb ht
    simp only [Effective.aPlate, Effective.lambdaPlate, Effective.bPlate, rdiv_ok ht.ne', rdiv_ok (show (250 : ℝ) ≠ 0 by norm_num),
      Except.bind_ok', rsqrt_ok hq.le, pure, Except.pure, rdiv_ok (show b / t * √(350 / 250) ≠ 0 by positivity)]
    exact ⟨_, rfl⟩
  obtain ⟨a1, e1⟩ := ha 200 10 16 (by norm_num) (by norm_num)
  obtain ⟨a2, e2⟩ := ha 600 6 45 (by norm_num) (by norm_num)
  have hk : FormFactor [⟨200, 10, 16⟩, ⟨600, 6, 45⟩, ⟨200, 10, 16⟩] 350 250
      ([a1, a2, a1].sum / ([200 * 10, 600 * 6, 200 * 10] : List ℝ).sum) := by
    refine ⟨[a1, a2, a1], ?_, rdiv_ok (by norm_num)⟩
    simp only [List.mapM_cons, List.mapM_nil, e1, e2, Except.bind_ok', pure, Except.pure]
  obtain ⟨k', c, w⟩ := (C113_double (b := 1) (t := 1) (ley := 1) (by norm_num) (by norm_num) (by norm_num) (by norm_num)
    (by norm_num)).2.2 _ _ (by simp) (by simp) hp hk
  exact ⟨_, k', hk, c, w⟩

/-- 300 by 10 mm of grade 350 with the limit 45 is within it, and counts in full in double precision; a limit of 16 reduces it -/
example : EffectiveR.aPlate .binary64 300 10 350 45 250 = .ok 3000 ∧
    (∃ a, EffectiveR.aPlate .binary64 300 10 350 16 250 = .ok a ∧ a < 1353 ∧ 1352 < a) := by
  refine ⟨by decide +kernel, ?_⟩
  have : (match EffectiveR.aPlate .binary64 300 10 350 16 250 with
    | .ok a => decide (a < 1353 ∧ 1352 < a)
    | .error _ => false) = true := by decide +kernel
  cases e : EffectiveR.aPlate .binary64 300 10 350 16 250 with
  | error _ => rw [e] at this; cases this
  | ok a => rw [e] at this; exact ⟨a, rfl, of_decide_eq_true this⟩

end BeamDesign
