import Verif.Props.OrderRound
import Verif.Lemmas.Special
import Verif.Spec.PowerFormulas
import Mathlib.Algebra.Order.Field.Power

/-!
# C153: capacities in units which differ by powers of two have the same digits
-/

set_option linter.unusedSectionVars false
set_option linter.unusedSimpArgs false

namespace BeamDesign

open Spec

section
variable {K : Type} [Field K] [LinearOrder K] [IsStrictOrderedRing K] {A : Arith K}

/-- `b` is `2 ^ j` times `a` -/
def Sc (j : ℤ) (a b : K) : Prop := b = 2 ^ j * a

theorem two_zpow (j : ℤ) : (0 : K) < 2 ^ j := zpow_pos (by norm_num) j

theorem Sc.self (a : K) : Sc 0 a a := by simp [Sc]

theorem Sc.cast {i j : ℤ} {a b : K} (h : Sc i a b) (e : i = j) : Sc j a b := e ▸ h

theorem Sc.mul (h : Binary A) {i j : ℤ} {a a' b b' : K} (ha : Sc i a a') (hb : Sc j b b') :
    Sc (i + j) (A.mul a b) (A.mul a' b') := by
  rw [ha, hb]; exact h.mul i j a b

theorem Sc.div (h : Binary A) {i j : ℤ} {a a' b b' : K} (ha : Sc i a a') (hb : Sc j b b') :
    Sc (i - j) (A.div a b) (A.div a' b') := by
  rw [ha, hb]; exact h.div i j a b

theorem Sc.add (h : Binary A) {j : ℤ} {a a' b b' : K} (ha : Sc j a a') (hb : Sc j b b') : Sc j (A.add a b) (A.add a' b') := by
  rw [ha, hb]; exact h.add j a b

theorem Sc.sub (h : Binary A) {j : ℤ} {a a' b b' : K} (ha : Sc j a a') (hb : Sc j b b') : Sc j (A.sub a b) (A.sub a' b') := by
  rw [ha, hb]; exact h.sub j a b

theorem Sc.sq (h : Binary A) {j : ℤ} {a a' : K} (ha : Sc j a a') : Sc (2 * j) (A.sq a) (A.sq a') := by
  rw [ha]; exact h.sq j a

theorem Sc.min {j : ℤ} {a a' b b' : K} (ha : Sc j a a') (hb : Sc j b b') : Sc j (min a b) (min a' b') := by
  rw [ha, hb]
  exact (mul_min_of_nonneg _ _ (two_zpow j).le).symm

theorem Sc.zero_iff {j : ℤ} {a a' : K} (ha : Sc j a a') : a' = 0 ↔ a = 0 := by
  rw [ha]
  simp [(two_zpow (K := K) j).ne']

theorem Sc.neg_iff {j : ℤ} {a a' : K} (ha : Sc j a a') : a' < 0 ↔ a < 0 := by
  rw [ha]
  exact ⟨fun h => by
    by_contra hn
    exact absurd h (not_lt.2 (mul_nonneg (two_zpow j).le (not_lt.1 hn))), fun h => mul_neg_of_pos_of_neg (two_zpow j) h⟩

theorem Sc.le_iff {j : ℤ} {a a' b b' : K} (ha : Sc j a a') (hb : Sc j b b') : a' ≤ b' ↔ a ≤ b := by
  rw [ha, hb]
  exact mul_le_mul_iff_right₀ (two_zpow j)

theorem Sc.quot (h : Binary A) {i j : ℤ} {a a' b b' : K} (ha : Sc i a a') (hb : Sc j b b') :
    PRel (Sc (i - j)) (A.quot a b) (A.quot a' b') := by
  unfold Arith.quot
  by_cases h0 : b = 0
  · rw [if_pos h0, if_pos (hb.zero_iff.2 h0)]; rfl
  · rw [if_neg h0, if_neg (fun e => h0 (hb.zero_iff.1 e))]
    exact ha.div h hb

theorem Sc.root (h : Binary A) {j : ℤ} {a a' : K} (ha : Sc (2 * j) a a') : PRel (Sc j) (A.root a) (A.root a') := by
  unfold Arith.root
  by_cases h0 : a < 0
  · rw [if_pos h0, if_pos (ha.neg_iff.2 h0)]; rfl
  · rw [if_neg h0, if_neg (fun e => h0 (ha.neg_iff.1 e))]
    rw [ha]
    exact h.sqrt j a (not_lt.1 h0)

theorem PRel.imp {α β : Type} {S T : α → β → Prop} {x : Py α} {y : Py β} (h : PRel S x y) (hst : ∀ a b, S a b → T a b) :
    PRel T x y := by
  cases x <;> cases y <;> simp_all [PRel]

theorem PRel.cast {i j : ℤ} {x y : Py K} (h : PRel (Sc i) x y) (e : i = j) : PRel (Sc j) x y := e ▸ h

theorem times_of {j : ℤ} {x y : Py K} (h : PRel (Sc j) x y) : Times j x y := by
  cases x <;> cases y
  · exact congrArg Except.error h.symm
  · exact h.elim
  · exact h.elim
  · exact congrArg Except.ok h

/-! ## Columns -/

theorem lambdaN_sc (h : Binary A) {k s : ℤ} {kf l l' r r' fy fy' fr fr' : K} (hl : Sc k l l') (hr : Sc k r r') (hf : Sc s fy fy')
    (hfr : Sc s fr fr') : PRel (Sc 0) (S6R.lambdaN A kf l r fy fr) (S6R.lambdaN A kf l' r' fy' fr') :=
  ((hl.quot h hr).cast (sub_self k)).bind fun _ _ hs =>
    (((Sc.self kf).cast (by ring : (0 : ℤ) = 2 * 0)).root h).bind fun _ _ ha =>
    ((hf.quot h hfr).cast (show s - s = 2 * 0 by ring)).bind fun _ _ hq => (hq.root h).bind fun _ _ hb =>
    ((hs.mul h ha).mul h hb).cast (by ring)

theorem sc_zero {a b : K} : Sc 0 a b ↔ b = a := by simp [Sc]

theorem prel_zero {x y : Py K} (h : PRel (Sc 0) x y) : x = y :=
  PRel.eq (h.imp fun _ _ hab => (sc_zero.1 hab).symm)

theorem flexural_sc (h : Binary A) {k s : ℤ} {An An' kf l l' r r' fy fy' fr fr' ab : K} (hA : Sc (2 * k) An An') (hl : Sc k l l')
    (hr : Sc k r r') (hf : Sc s fy fy') (hfr : Sc s fr fr') :
    PRel (fun x y => Sc (2 * k + s) x.1 y.1 ∧ x.2 = y.2) (S6R.NcFlexural A An kf l r fy fr ab)
      (S6R.NcFlexural A An' kf l' r' fy' fr' ab) := by
  unfold S6R.NcFlexural
  rw [prel_zero (lambdaN_sc h (kf := kf) hl hr hf hfr)]
  refine (PRel.refl _).bind fun a b hab => ?_
  subst hab
  refine (PRel.refl _).bind fun a b hab => ?_
  subst hab
  exact ⟨((((hA.mul h (Sc.self kf)).mul h hf)).mul h (Sc.self _)).cast (by ring), rfl⟩

/-- C153.  A column: the slenderness and the factors are the same, the capacity has the same digits. -/
theorem C153_column (h : Binary A) (k m : ℤ) (An kf le r fy fref alphaB : K) :
    S6R.NcFlexural A (2 ^ (2 * k) * An) kf (2 ^ k * le) (2 ^ k * r) (2 ^ (m - 2 * k) * fy) (2 ^ (m - 2 * k) * fref) alphaB =
    (S6R.NcFlexural A An kf le r fy fref alphaB).map fun p => (2 ^ m * p.1, p.2) := by
  have := flexural_sc h (k := k) (s := m - 2 * k) (An := An) (kf := kf) (l := le) (r := r) (fy := fy) (fr := fref) (ab := alphaB)
    rfl rfl rfl rfl rfl
  rw [show 2 * k + (m - 2 * k) = m by ring] at this
  revert this
  generalize S6R.NcFlexural A An kf le r fy fref alphaB = x
  generalize S6R.NcFlexural A _ kf _ _ _ _ alphaB = y
  intro h
  cases x <;> cases y
  · exact congrArg Except.error h.symm
  · exact h.elim
  · exact h.elim
  · exact congrArg Except.ok (Prod.ext h.1 h.2.symm)

/-! ## Torsion -/

/-- the members given to the torsional check in the two units -/
structure BarSc (k s : ℤ) (a b : S6R.Bar K) : Prop where
  An : Sc (2 * k) a.An b.An
  lex : Sc k a.lex b.lex
  ley : Sc k a.ley b.ley
  lez : Sc k a.lez b.lez
  rx : Sc k a.rx b.rx
  ry : Sc k a.ry b.ry
  xo : Sc k a.xo b.xo
  yo : Sc k a.yo b.yo
  J : Sc (4 * k) a.J b.J
  Iw : Sc (6 * k) a.Iw b.Iw
  E : Sc s a.E b.E
  G : Sc s a.G b.G

theorem fEuler_sc (h : Binary A) {k s : ℤ} {E E' l l' r r' : K} (hE : Sc s E E') (hl : Sc k l l') (hr : Sc k r r') :
    PRel (Sc s) (S6R.fEuler A E l r) (S6R.fEuler A E' l' r') :=
  ((hl.quot h hr).cast (sub_self k)).bind fun _ _ hs =>
    ((((Sc.self _).mul h (Sc.self _)).mul h hE).quot h (hs.mul h hs)).cast (by ring)

theorem rol_sc (h : Binary A) {k : ℤ} {rx rx' ry ry' xo xo' yo yo' : K} (h1 : Sc k rx rx') (h2 : Sc k ry ry') (h3 : Sc k xo xo')
    (h4 : Sc k yo yo') : PRel (Sc k) (S6R.rol A rx ry xo yo) (S6R.rol A rx' ry' xo' yo') :=
  Sc.root h ((((h1.mul h h1).add h (h2.mul h h2)).add h (h3.mul h h3)).add h (h4.mul h h4) |>.cast (by ring))

theorem fEulerTorsion_sc (h : Binary A) {k s : ℤ} {An An' l l' rx rx' ry ry' xo xo' yo yo' J J' Iw Iw' E E' G G' : K}
    (hA : Sc (2 * k) An An') (hl : Sc k l l') (h1 : Sc k rx rx') (h2 : Sc k ry ry') (h3 : Sc k xo xo') (h4 : Sc k yo yo')
    (hJ : Sc (4 * k) J J') (hIw : Sc (6 * k) Iw Iw') (hE : Sc s E E') (hG : Sc s G G') :
    PRel (Sc s) (S6R.fEulerTorsion A An l rx ry xo yo J Iw E G) (S6R.fEulerTorsion A An' l' rx' ry' xo' yo' J' Iw' E' G') := by
  refine (rol_sc h h1 h2 h3 h4).bind fun o o' ho => ?_
  refine ((hG.mul h hJ).quot h ((hA.mul h ho).mul h ho)).bind fun a a' ha => ?_
  refine (((((Sc.self _).mul h (Sc.self _)).mul h hE).mul h hIw).quot h ((hG.mul h hJ).mul h (hl.mul h hl))).bind fun b b' hb => ?_
  exact (ha.mul h ((Sc.self 1).add h (hb.cast (by ring)))).cast (by ring)

theorem foxz_sc (h : Binary A) {k s : ℤ} {An An' lx lx' l l' rx rx' ry ry' xo xo' yo yo' J J' Iw Iw' E E' G G' : K}
    (hA : Sc (2 * k) An An') (hlx : Sc k lx lx') (hl : Sc k l l') (h1 : Sc k rx rx') (h2 : Sc k ry ry') (h3 : Sc k xo xo')
    (h4 : Sc k yo yo') (hJ : Sc (4 * k) J J') (hIw : Sc (6 * k) Iw Iw') (hE : Sc s E E') (hG : Sc s G G') :
    PRel (fun x y => (∃ a b, x = .real a ∧ y = .real b ∧ Sc s a b) ∨ (x = .complex ∧ y = .complex))
      (S6R.foxz A An lx l rx ry xo yo J Iw E G) (S6R.foxz A An' lx' l' rx' ry' xo' yo' J' Iw' E' G') := by
  refine (rol_sc h h1 h2 h3 h4).bind fun o o' ho => ((h3.quot h ho).cast (sub_self k)).bind fun q q' hq => ?_
  refine (fEuler_sc h hE hlx h1).bind fun x x' hx => (fEulerTorsion_sc h hA hl h1 h2 h3 h4 hJ hIw hE hG).bind fun z z' hz => ?_
  have hβ : Sc 0 (A.sub 1 (A.sq q)) (A.sub 1 (A.sq q')) := (Sc.self 1).sub h ((hq.sq h).cast (by ring))
  refine ((Sc.self 1).quot h ((Sc.self 2).mul h hβ)).bind fun g g' hg => ?_
  have hs := hx.add h hz
  have hd : Sc (2 * s) _ _ := (hs.sq h).sub h ((((Sc.self 4).mul h hβ).mul h hx).mul h hz |>.cast (by ring))
  show _ ∨ _
  by_cases h0 : A.sub (A.sq (A.add x z)) (A.mul (A.mul (A.mul 4 (A.sub 1 (A.sq q))) x) z) < 0
  · rw [if_pos h0, if_pos (hd.neg_iff.2 h0)]
    exact Or.inr ⟨rfl, rfl⟩
  · rw [if_neg h0, if_neg (fun e => h0 (hd.neg_iff.1 e))]
    refine Or.inl ⟨_, _, rfl, rfl, ?_⟩
    have hr : Sc s (A.sqrt (A.sub (A.sq (A.add x z)) (A.mul (A.mul (A.mul 4 (A.sub 1 (A.sq q))) x) z)))
        (A.sqrt (A.sub (A.sq (A.add x' z')) (A.mul (A.mul (A.mul 4 (A.sub 1 (A.sq q'))) x') z'))) := by
      have e := h.sqrt s _ (not_lt.1 h0)
      rw [← show _ = _ from hd] at e
      exact e
    exact (hg.mul h (hs.sub h hr)).cast (by ring)

theorem foc_sc (h : Binary A) {k s : ℤ} {a b : S6R.Bar K} (hb : BarSc k s a b) (y : S6R.Sym) :
    PRel (Sc s) (S6R.foc A a y) (S6R.foc A b y) := by
  have hz := fEulerTorsion_sc h hb.An hb.lez hb.rx hb.ry hb.xo hb.yo hb.J hb.Iw hb.E hb.G
  have hx := foxz_sc h hb.An hb.lex hb.lez hb.rx hb.ry hb.xo hb.yo hb.J hb.Iw hb.E hb.G
  have hy := foxz_sc h hb.An hb.ley hb.lez hb.ry hb.rx hb.yo hb.xo hb.J hb.Iw hb.E hb.G
  cases y with
  | double =>
    refine hx.bind fun f f' hf => hz.bind fun z z' hz => ?_
    rcases hf with ⟨u, v, rfl, rfl, huv⟩ | ⟨rfl, rfl⟩
    · exact huv.min hz
    · rfl
  | point => exact hz
  | single x =>
    have : PRel (fun x y => (∃ a b, x = .real a ∧ y = .real b ∧ Sc s a b) ∨ (x = .complex ∧ y = .complex))
        (S6R.focSingle A a x) (S6R.focSingle A b x) := by
      cases x
      · exact hy
      · exact hx
    refine this.bind fun f f' hf => ?_
    rcases hf with ⟨u, v, rfl, rfl, huv⟩ | ⟨rfl, rfl⟩
    · exact huv
    · rfl

theorem columnCurve_sc (h : Binary A) (pw : K → K → K) {s : ℤ} {fy fy' f f' : K} (hf : Sc s fy fy') (hc : Sc s f f') :
    PRel (fun x y => x.1 = y.1 ∧ Sc s x.2 y.2) (S6R.columnCurve A pw fy f) (S6R.columnCurve A pw fy' f') := by
  unfold S6R.columnCurve
  rw [prel_zero ((hf.quot h hc).cast (sub_self s))]
  refine (PRel.refl _).bind fun q q' hq => ?_
  subst hq
  refine (PRel.refl _).bind fun c c' hcc => ?_
  subst hcc
  split_ifs
  · exact ⟨rfl, (hf.mul h (Sc.self _)).cast (by ring)⟩
  · refine (PRel.refl _).bind fun v v' hv => ?_
    subst hv
    exact ⟨rfl, (hf.mul h (Sc.self _)).cast (by ring)⟩

theorem torsion_sc (h : Binary A) (pw : K → K → K) {k s : ℤ} {a b : S6R.Bar K} (hb : BarSc k s a b) {kf fy fy' u : K}
    (hf : Sc s fy fy') (y : S6R.Sym) :
    PRel (Sc (2 * k + s)) (S6R.NcTorsion A pw a kf fy y u) (S6R.NcTorsion A pw b kf fy' y u) :=
  (foc_sc h hb y).bind fun _ _ hc => (columnCurve_sc h pw hf hc).bind fun _ _ hp =>
    (((Sc.self u).mul h (hb.An.mul h (Sc.self kf))).mul h hp.2).cast (by ring)

/-- C153.  The member capacity: every number of the dictionary has the same digits, and the same calls raise the same exceptions. -/
theorem C153_member (h : Binary A) (pw : K → K → K) (k m : ℤ) (a : S6R.Args K) :
    S6R.Nc A pw (inUnits k m a) = (S6R.Nc A pw a).map (forces m) := by
  have hm : 2 * k + (m - 2 * k) = m := by ring
  have hl : ∀ x : K, Sc k (A.mul a.l x) (A.mul (2 ^ k * a.l) x) := fun x =>
    (Sc.mul h (show Sc k a.l (2 ^ k * a.l) from rfl) (Sc.self x)).cast (by ring)
  have hbar : BarSc k (m - 2 * k) (a.bar A) ((inUnits k m a).bar A) :=
    ⟨rfl, hl _, hl _, hl _, rfl, rfl, rfl, rfl, rfl, rfl, rfl, rfl⟩
  have ht := (torsion_sc h pw hbar (kf := a.kf) (fy := a.fy) (u := a.uncertainty) rfl a.sym).cast hm
  have hx := flexural_sc h (k := k) (s := m - 2 * k) (An := a.An) (kf := a.kf) (r := a.rx) (fy := a.fy) (fr := a.fref)
    (ab := a.alphaB) rfl (hl a.kex) rfl rfl rfl
  have hy := flexural_sc h (k := k) (s := m - 2 * k) (An := a.An) (kf := a.kf) (r := a.ry) (fy := a.fy) (fr := a.fref)
    (ab := a.alphaB) rfl (hl a.key) rfl rfl rfl
  rw [hm] at hx hy
  have hns : Sc m (A.mul (A.mul a.An a.kf) a.fy) (A.mul (A.mul (2 ^ (2 * k) * a.An) a.kf) (2 ^ (m - 2 * k) * a.fy)) :=
    (Sc.mul h (Sc.mul h (show Sc (2 * k) a.An _ from rfl) (Sc.self a.kf)) (show Sc (m - 2 * k) a.fy _ from rfl)).cast (by ring)
  have phi : ∀ {x y : K}, Sc m x y → Sc m (A.mul a.phi x) (A.mul a.phi y) := fun hxy =>
    ((Sc.self a.phi).mul h hxy).cast (by ring)
  have key : PRel (fun x y => y = forces m x) (S6R.Nc A pw a) (S6R.Nc A pw (inUnits k m a)) := by
    unfold S6R.Nc S6R.NcWith
    by_cases hb : a.calcBuckling = true
    · rw [if_pos hb, if_pos (show (inUnits k m a).calcBuckling = true from hb)]
      refine hx.bind fun x x' hxx => hy.bind fun y y' hyy => ?_
      have h1 := hxx.1.min hns
      have h2 := hyy.1.min hns
      have h3 := (hns.min h1).min h2
      by_cases hc : a.calcTorsion = true
      · rw [if_pos hc, if_pos (show (inUnits k m a).calcTorsion = true from hc)]
        refine ht.bind fun t t' htt => ?_
        have h4 := hns.min htt
        have h5 := h3.min h4
        show S6R.Result.mk _ _ _ _ _ _ _ _ _ _ _ = forces m _
        simp only [forces, Option.map_some, Option.map_none, S6R.Result.mk.injEq, Option.some.injEq]
        exact ⟨hns, phi hns, h1, phi h1, h2, phi h2, htt, h4, phi h4, h5, phi h5⟩
      · rw [if_neg hc, if_neg (show ¬ (inUnits k m a).calcTorsion = true from hc)]
        show S6R.Result.mk _ _ _ _ _ _ _ _ _ _ _ = forces m _
        simp only [forces, Option.map_some, Option.map_none, S6R.Result.mk.injEq, Option.some.injEq]
        exact ⟨hns, phi hns, h1, phi h1, h2, phi h2, trivial, trivial, trivial, h3, ((phi hns).min (phi h1)).min (phi h2)⟩
    · rw [if_neg hb, if_neg (show ¬ (inUnits k m a).calcBuckling = true from hb)]
      show S6R.Result.mk _ _ _ _ _ _ _ _ _ _ _ = forces m _
      simp only [forces, Option.map_some, Option.map_none, S6R.Result.mk.injEq, Option.some.injEq]
      exact ⟨hns, phi hns, trivial, trivial, trivial, trivial, trivial, trivial, trivial, hns, phi hns⟩
  revert key
  generalize S6R.Nc A pw a = x
  generalize S6R.Nc A pw (inUnits k m a) = y
  intro h
  cases x <;> cases y
  · exact congrArg Except.error h.symm
  · exact h.elim
  · exact h.elim
  · exact congrArg Except.ok h

/-! ## Bending -/

/-- C153.  Bending, for units of force which differ by a power of four: the reference buckling moment, and so the slenderness reduction factor
and the capacity, have the same digits. -/
theorem C153_bending_partial (h : Binary A) (k n : ℤ) (le Iy J Iw betaX E G : K) :
    Times (2 * n + k) (S5R.Mo A le Iy J Iw betaX E G)
      (S5R.Mo A (2 ^ k * le) (2 ^ (4 * k) * Iy) (2 ^ (4 * k) * J) (2 ^ (6 * k) * Iw) (2 ^ k * betaX) (2 ^ (2 * n - 2 * k) * E)
        (2 ^ (2 * n - 2 * k) * G)) := by
  apply times_of
  have hl : Sc k le (2 ^ k * le) := rfl
  have hI : Sc (4 * k) Iy (2 ^ (4 * k) * Iy) := rfl
  have hJ : Sc (4 * k) J (2 ^ (4 * k) * J) := rfl
  have hw : Sc (6 * k) Iw (2 ^ (6 * k) * Iw) := rfl
  have hb : Sc k betaX (2 ^ k * betaX) := rfl
  have hE : Sc (2 * n - 2 * k) E (2 ^ (2 * n - 2 * k) * E) := rfl
  have hG : Sc (2 * n - 2 * k) G (2 ^ (2 * n - 2 * k) * G) := rfl
  have hd : Sc k (A.div betaX 2) (A.div (2 ^ k * betaX) 2) := (hb.div h (Sc.self 2)).cast (by ring)
  refine (((((((Sc.self _).mul h (Sc.self _)).mul h hE).mul h hI).quot h (hl.mul h hl))).cast
    (show _ = 2 * n by ring)).bind fun a a' ha => ?_
  refine (((((((Sc.self _).mul h (Sc.self _)).mul h hE).mul h hw).quot h (hl.mul h hl))).cast
    (show _ = 2 * (n + k) by ring)).bind fun c c' hc => ?_
  refine (ha.root h).bind fun r r' hr => ?_
  refine (Sc.root h (j := n + k) ((((hG.mul h hJ).cast (by ring)).add h hc).add h (((hd.mul h hd).mul h ha).cast (by ring)))).bind
    fun t t' ht => ?_
  exact (hr.mul h (ht.add h ((hd.mul h hr).cast (by ring)))).cast (by ring)

/-- C153.  The factors of section 5 do not depend on the units of moment and length; the section and member moment capacities and the
effective length have the same digits. -/
theorem C153_bending_factors (h : Binary A) (i j k : ℤ) (Ms Mo Mmax M2 M3 M4 cap d1 l tf tw nw am as' fy Ze kt kl kr : K)
    (r : S5.Restraint) :
    S5R.alphaS A (2 ^ i * Ms) (2 ^ i * Mo) = S5R.alphaS A Ms Mo ∧
    S5R.alphaM A (2 ^ i * Mmax) (2 ^ i * M2) (2 ^ i * M3) (2 ^ i * M4) cap = S5R.alphaM A Mmax M2 M3 M4 cap ∧
    S5R.kt A (2 ^ k * d1) (2 ^ k * l) (2 ^ k * tf) (2 ^ k * tw) nw r = S5R.kt A d1 l tf tw nw r ∧
    S5R.Mb A (2 ^ i * Ms) am as' = 2 ^ i * S5R.Mb A Ms am as' ∧
    S5R.Ms A (2 ^ i * fy) (2 ^ j * Ze) = 2 ^ (i + j) * S5R.Ms A fy Ze ∧
    S5R.le A kt kl kr (2 ^ k * l) = 2 ^ k * S5R.le A kt kl kr l := by
  have sc : ∀ (j : ℤ) (x : K), Sc j x (2 ^ j * x) := fun _ _ => rfl
  have habs : Sc i (max Mmax (-Mmax)) (max (2 ^ i * Mmax) (-(2 ^ i * Mmax))) := by
    unfold Sc
    rw [mul_max_of_nonneg _ _ (two_zpow i).le, mul_neg]
  refine ⟨?_, ?_, ?_, ?_, ?_, ?_⟩
  · unfold S5R.alphaS
    rw [← prel_zero (((sc i Ms).quot h (sc i Mo)).cast (sub_self _))]
  · refine (prel_zero ?_).symm
    have hr : Sc (2 * i) (A.add (A.add (A.mul M2 M2) (A.mul M3 M3)) (A.mul M4 M4))
        (A.add (A.add (A.mul (2 ^ i * M2) (2 ^ i * M2)) (A.mul (2 ^ i * M3) (2 ^ i * M3))) (A.mul (2 ^ i * M4) (2 ^ i * M4))) :=
      ((((sc i M2).mul h (sc i M2)).add h ((sc i M3).mul h (sc i M3))).add h ((sc i M4).mul h (sc i M4))).cast (by ring)
    refine (hr.root h).bind fun x y hxy => ?_
    refine ((((Sc.self (A.lit (17 / 10))).mul h habs).quot h hxy).cast (show _ = (0 : ℤ) by ring)).bind fun u v huv => ?_
    exact huv.min (Sc.self cap)
  · have hx := prel_zero (((sc k d1).quot h (sc k l)).cast (sub_self _))
    have hy := prel_zero (((sc k tf).quot h ((Sc.self 2).mul h (sc k tw))).cast (by ring))
    cases r <;> simp only [S5R.kt, S5R.ktRest, ← hx, ← hy]
  · exact (((Sc.self am).mul h (Sc.self as')).mul h (sc i Ms)).cast (by ring)
  · exact h.mul i j fy Ze
  · exact ((((Sc.self kt).mul h (Sc.self kl)).mul h (Sc.self kr)).mul h (sc k l)).cast (by ring)

/-! ## Shear -/

/-- C153.  Shear: the factors are the same, the capacities have the same digits. -/
theorem C153_shear (h : Binary A) (k m : ℤ) (Aw fy ratio dp tw lim fref area fvm fva t Q I : K) (vs : List K) :
    S5ShearR.VwGeneric A (2 ^ (2 * k) * Aw) (2 ^ (m - 2 * k) * fy) ratio = 2 ^ m * S5ShearR.VwGeneric A Aw fy ratio ∧
    S5ShearR.VwCHS A (2 ^ (2 * k) * Aw) (2 ^ (m - 2 * k) * fy) ratio area = 2 ^ m * S5ShearR.VwCHS A Aw fy ratio area ∧
    S5ShearR.alphaV A (2 ^ k * dp) (2 ^ k * tw) (2 ^ (m - 2 * k) * fy) lim (2 ^ (m - 2 * k) * fref) =
      S5ShearR.alphaV A dp tw fy lim fref ∧
    S5ShearR.alphaVma A (2 ^ (m - 2 * k) * fvm) (2 ^ (m - 2 * k) * fva) = S5ShearR.alphaVma A fvm fva ∧
    Times m (S5ShearR.VwWeld A vs Q I) (S5ShearR.VwWeld A (vs.map (2 ^ (m - k) * ·)) (2 ^ (3 * k) * Q) (2 ^ (4 * k) * I)) ∧
    Times m (S5ShearR.VwInterface A t fy Q I ratio)
      (S5ShearR.VwInterface A (2 ^ k * t) (2 ^ (m - 2 * k) * fy) (2 ^ (3 * k) * Q) (2 ^ (4 * k) * I) ratio) := by
  have hA : Sc (2 * k) Aw (2 ^ (2 * k) * Aw) := rfl
  have hf : Sc (m - 2 * k) fy (2 ^ (m - 2 * k) * fy) := rfl
  have hr : Sc (m - 2 * k) fref (2 ^ (m - 2 * k) * fref) := rfl
  have hd : Sc k dp (2 ^ k * dp) := rfl
  have ht : Sc k tw (2 ^ k * tw) := rfl
  have hi : Sc k t (2 ^ k * t) := rfl
  have hQ : Sc (3 * k) Q (2 ^ (3 * k) * Q) := rfl
  have hI : Sc (4 * k) I (2 ^ (4 * k) * I) := rfl
  have hm : Sc (m - 2 * k) fvm (2 ^ (m - 2 * k) * fvm) := rfl
  have ha : Sc (m - 2 * k) fva (2 ^ (m - 2 * k) * fva) := rfl
  refine ⟨?_, ?_, ?_, ?_, times_of ?_, times_of ?_⟩
  · exact (((Sc.self ratio).mul h hf).mul h hA).cast (by ring)
  · exact (((Sc.self area).mul h ((Sc.self ratio).mul h hf)).mul h hA).cast (by ring)
  · unfold S5ShearR.alphaV
    rw [← prel_zero ((hf.quot h hr).cast (sub_self _)), ← prel_zero ((hd.quot h ht).cast (sub_self _))]
  · unfold S5ShearR.alphaVma
    rw [← prel_zero ((hm.quot h ha).cast (sub_self _))]
  · have hs : ∀ (vs : List K) {a a' : K}, Sc (m - k) a a' → Sc (m - k) (vs.foldl A.add a) ((vs.map (2 ^ (m - k) * ·)).foldl A.add a') := by
      intro vs
      induction vs with
      | nil => intro a a' ha; exact ha
      | cons v vs ih => intro a a' ha; exact ih (ha.add h rfl)
    exact ((((hs vs (show Sc (m - k) 0 0 by simp [Sc])).mul h hI).quot h hQ)).cast (by ring)
  · exact ((((hf.mul h (Sc.self ratio)).mul h hi).mul h hI).quot h hQ).cast (by ring)

/-! ## Effective sections -/

/-- C153.  Effective widths, diameters and areas and the form factor. -/
theorem C153_effective (h : Binary A) (k s : ℤ) (b t fy ley fref le An Ae : K) :
    EffectiveR.lambdaPlate A (2 ^ k * b) (2 ^ k * t) (2 ^ s * fy) (2 ^ s * fref) = EffectiveR.lambdaPlate A b t fy fref ∧
    EffectiveR.lambdaCHS A (2 ^ k * b) (2 ^ k * t) (2 ^ s * fy) (2 ^ s * fref) = EffectiveR.lambdaCHS A b t fy fref ∧
    Times k (EffectiveR.bPlate A b le ley) (EffectiveR.bPlate A (2 ^ k * b) le ley) ∧
    Times k (EffectiveR.dCHS A b le ley) (EffectiveR.dCHS A (2 ^ k * b) le ley) ∧
    Times (2 * k) (EffectiveR.aPlate A b t fy ley fref)
      (EffectiveR.aPlate A (2 ^ k * b) (2 ^ k * t) (2 ^ s * fy) ley (2 ^ s * fref)) ∧
    EffectiveR.kf A (2 ^ (2 * k) * An) (2 ^ (2 * k) * Ae) = EffectiveR.kf A An Ae := by
  have hb : Sc k b (2 ^ k * b) := rfl
  have ht : Sc k t (2 ^ k * t) := rfl
  have hf : Sc s fy (2 ^ s * fy) := rfl
  have hr : Sc s fref (2 ^ s * fref) := rfl
  have hq := prel_zero ((hf.quot h hr).cast (sub_self _))
  have hs := prel_zero ((hb.quot h ht).cast (sub_self _))
  have hp : EffectiveR.lambdaPlate A (2 ^ k * b) (2 ^ k * t) (2 ^ s * fy) (2 ^ s * fref) = EffectiveR.lambdaPlate A b t fy fref := by
    unfold EffectiveR.lambdaPlate
    rw [← hq, ← hs]
  have hw : ∀ x, PRel (Sc k) (EffectiveR.bPlate A b x ley) (EffectiveR.bPlate A (2 ^ k * b) x ley) := by
    intro x
    refine (PRel.refl _).bind fun q q' hq => ?_
    subst hq
    exact ((hb.mul h (Sc.self q)).cast (by ring)).min hb
  refine ⟨hp, ?_, times_of (hw le), times_of ?_, times_of ?_, ?_⟩
  · unfold EffectiveR.lambdaCHS
    rw [← hq, ← hs]
  · refine (PRel.refl _).bind fun q q' hq => ?_
    subst hq
    refine (PRel.refl _).bind fun r r' hr => ?_
    subst hr
    refine (PRel.refl _).bind fun p p' hp => ?_
    subst hp
    exact (((hb.mul h (Sc.self _)).cast (by ring)).min ((hb.mul h (Sc.self _)).cast (by ring))).min hb
  · unfold EffectiveR.aPlate
    rw [hp]
    refine (PRel.refl _).bind fun q q' hq => ?_
    subst hq
    exact (hw q).bind fun x x' hx => (hx.mul h ht).cast (by ring)
  · exact (prel_zero ((Sc.quot h (show Sc (2 * k) Ae _ from rfl) (show Sc (2 * k) An _ from rfl)).cast (sub_self _))).symm

end

/-! ## Double precision -/

theorem log_two_mulR (k : ℤ) {x : ℝ} (hx : 0 < x) : Int.log 2 ((2 : ℝ) ^ k * x) = k + Int.log 2 x := by
  have h2 : (0 : ℝ) < 2 ^ k := by positivity
  have hp : 0 < (2 : ℝ) ^ k * x := mul_pos h2 hx
  have h1 := Int.zpow_log_le_self (b := 2) (R := ℝ) (by norm_num) hx
  have h3 := Int.lt_zpow_succ_log_self (b := 2) (R := ℝ) (by norm_num) x
  push_cast at h1 h3
  apply le_antisymm
  · have : Int.log 2 ((2 : ℝ) ^ k * x) < k + Int.log 2 x + 1 := by
      rw [← Int.lt_zpow_iff_log_lt (by norm_num) hp]
      push_cast
      rw [add_assoc, zpow_add₀ (by norm_num : (2 : ℝ) ≠ 0)]
      exact mul_lt_mul_of_pos_left h3 h2
    omega
  · rw [← Int.zpow_le_iff_le_log (by norm_num) hp]
    push_cast
    rw [zpow_add₀ (by norm_num : (2 : ℝ) ≠ 0)]
    exact mul_le_mul_of_nonneg_left h1 h2.le

theorem fl53_two_mul (k : ℤ) (x : ℝ) : fl53 (2 ^ k * x) = 2 ^ k * fl53 x := by
  have h2 : (2 : ℝ) ^ k ≠ 0 := by positivity
  rcases eq_or_ne x 0 with rfl | hx
  · simp [fl53_zero]
  unfold fl53
  rw [abs_mul, abs_of_pos (by positivity : (0 : ℝ) < 2 ^ k), log_two_mulR k (abs_pos.2 hx), add_sub_assoc,
    zpow_add₀ (by norm_num : (2 : ℝ) ≠ 0), mul_div_mul_left _ _ h2]
  ring

/-- C153.  Double precision with correctly rounded powers passes on powers of two, as long as nothing overflows or underflows. -/
theorem C153_double : Binary Arith.double where
  add j a b := by
    show fl53 _ = 2 ^ j * fl53 _
    rw [← mul_add, fl53_two_mul]
  sub j a b := by
    show fl53 _ = 2 ^ j * fl53 _
    rw [← mul_sub, fl53_two_mul]
  mul i j a b := by
    show fl53 _ = 2 ^ (i + j) * fl53 _
    rw [← fl53_two_mul, zpow_add₀ (by norm_num)]
    congr 1
    ring
  div i j a b := by
    show fl53 _ = 2 ^ (i - j) * fl53 _
    rw [← fl53_two_mul, zpow_sub₀ (by norm_num)]
    congr 1
    rw [mul_div_mul_comm]
  sq j a := by
    show fl53 _ = 2 ^ (2 * j) * fl53 _
    rw [← fl53_two_mul, mul_pow, ← zpow_natCast (2 ^ j : ℝ), ← zpow_mul]
    congr 3
    push_cast
    ring
  sqrt j a ha := by
    show fl53 _ = 2 ^ j * fl53 _
    rw [← fl53_two_mul, Real.sqrt_mul (by positivity)]
    congr 2
    rw [show (2 : ℝ) ^ (2 * j) = (2 ^ j) ^ 2 by rw [← zpow_natCast (2 ^ j : ℝ), ← zpow_mul]; congr 1; push_cast; ring,
      Real.sqrt_sq (by positivity)]

/-- C153 is false for bending when the unit of force differs by a factor of two: twice the moduli do not give exactly twice the reference
buckling moment of a segment of 4 m. -/
theorem C153_counterexample : ∃ M M', S5R.Mo Arith.binary64 4 (1/2^16) (1/2^20) (1/2^24) 0 200000000000 80000000000 = .ok M ∧
    S5R.Mo Arith.binary64 4 (1/2^16) (1/2^20) (1/2^24) 0 400000000000 160000000000 = .ok M' ∧ M' ≠ 2 * M := by
  rw [← fastArith_eq]
  exact both_ok (P := fun M M' => M' ≠ 2 * M) (by decide +kernel)

/-! ## Concrete cases -/

/-- four times the moduli do give exactly four times the moment -/
example : ∃ M M', S5R.Mo Arith.binary64 4 (1/2^16) (1/2^20) (1/2^24) 0 200000000000 80000000000 = .ok M ∧
    S5R.Mo Arith.binary64 4 (1/2^16) (1/2^20) (1/2^24) 0 800000000000 320000000000 = .ok M' ∧ M' = 4 * M ∧ M ≠ 0 := by
  rw [← fastArith_eq]
  exact both_ok (P := fun M M' => M' = 4 * M ∧ M ≠ 0) (by decide +kernel)

/-- a member of 3 m, with two axes of symmetry, in doubles -/
def unitBar : S6R.Args ℚ where
  An := 1/128
  kf := 1
  l := 3
  kex := 1
  key := 1
  kez := 1
  rx := 1/8
  ry := 1/16
  xo := 0
  yo := 0
  J := 1/2^20
  Iw := 1/2^24
  fy := 250000000
  E := 200000000000
  G := 80000000000
  sym := .double
  fref := 250000000
  alphaB := 1/2
  uncertainty := 1
  phi := fastRnd (9/10)
  calcBuckling := true
  calcTorsion := true

/-- in units of length an eighth and of force a half as large; the power is replaced by a rational function, which does not matter -/
example : ∃ r r', S6R.Nc Arith.binary64 (fun a b => rnd64 (a / (1 + b))) unitBar = .ok r ∧
    S6R.Nc Arith.binary64 (fun a b => rnd64 (a / (1 + b))) (inUnits 3 1 unitBar) = .ok r' ∧ r' = forces 1 r ∧ 0 < r.Nc ∧ r.Nc < r.Ns := by
  rw [← fastArith_eq, ← funext fastRnd_eq]
  exact both_ok (P := fun r r' => r' = forces 1 r ∧ 0 < r.Nc ∧ r.Nc < r.Ns) (by decide +kernel)

end BeamDesign
