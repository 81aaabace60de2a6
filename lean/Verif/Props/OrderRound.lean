import Verif.Lemmas.FastArith
import Verif.Lemmas.Float64
import Verif.Model.RoundedTorsion
import Verif.Model.RoundedEffective
import Verif.Model.RoundedUnsym
import Verif.Spec.OrderRound

/-!
# C152: rounding keeps members in order
-/

set_option linter.unusedSectionVars false

namespace BeamDesign

open Spec

section
variable {K : Type} [Field K] [LinearOrder K] [IsStrictOrderedRing K] {A : Arith K} {rnd : K → K}

theorem Spec.Least.refl {a : K} (h : 0 ≤ a) : Least a a := ⟨h, le_rfl⟩

theorem Spec.Least.nonneg {a b : K} (h : Least a b) : 0 ≤ b := h.1.trans h.2

theorem Spec.Least.min {a a' b b' : K} (ha : Least a a') (hb : Least b b') : Least (min a b) (min a' b') :=
  ⟨le_min ha.1 hb.1, min_le_min ha.2 hb.2⟩

theorem Spec.Orderly.round (h : Orderly A rnd) {a b : K} (hab : Least a b) : Least (rnd a) (rnd b) :=
  ⟨h.zero ▸ h.mono 0 a le_rfl hab.1, h.mono a b hab.1 hab.2⟩

theorem Spec.Orderly.amul (h : Orderly A rnd) {a a' b b' : K} (ha : Least a a') (hb : Least b b') :
    Least (A.mul a b) (A.mul a' b') := by
  rw [h.mul, h.mul]
  exact h.round ⟨mul_nonneg ha.1 hb.1, mul_le_mul ha.2 hb.2 hb.1 ha.nonneg⟩

theorem Spec.Orderly.aadd (h : Orderly A rnd) {a a' b b' : K} (ha : Least a a') (hb : Least b b') :
    Least (A.add a b) (A.add a' b') := by
  rw [h.add, h.add]
  exact h.round ⟨add_nonneg ha.1 hb.1, add_le_add ha.2 hb.2⟩

theorem Spec.Orderly.asq (h : Orderly A rnd) {a a' : K} (ha : Least a a') : Least (A.sq a) (A.sq a') := by
  rw [h.sq, h.sq]
  exact h.round ⟨sq_nonneg _, pow_le_pow_left₀ ha.1 ha.2 2⟩

theorem Spec.Orderly.adiv (h : Orderly A rnd) {a a' b b' : K} (ha : Least a a') (hb : Least b' b) (h0 : b' ≠ 0) :
    Least (A.div a b) (A.div a' b') := by
  rw [h.div, h.div]
  have : 0 < b' := lt_of_le_of_ne hb.1 h0.symm
  exact h.round ⟨div_nonneg ha.1 hb.nonneg, div_le_div₀ ha.nonneg ha.2 this hb.2⟩

theorem bind_ok_inv {x : Py K} {f : K → Py K} {b : K} (h : (x >>= f) = .ok b) : ∃ a, x = .ok a ∧ f a = .ok b := by
  cases x with
  | error e => cases h
  | ok a => exact ⟨a, rfl, h⟩

theorem Spec.InOrder.ok {a b : K} (h : Least a b) : InOrder (.ok a) (.ok b) := by
  intro x y hx hy
  cases hx; cases hy
  exact h

theorem Spec.InOrder.bind {x y : Py K} {f g : K → Py K} (h : InOrder x y) (hfg : ∀ a b, Least a b → InOrder (f a) (g b)) :
    InOrder (x >>= f) (y >>= g) := by
  intro a b ha hb
  cases x with
  | error e => cases ha
  | ok u =>
    cases y with
    | error e => cases hb
    | ok v => exact hfg u v (h u v rfl rfl) a b ha hb

/-- As `bind`, when the first results are in the opposite order. -/
theorem Spec.InOrder.bind' {x y : Py K} {f g : K → Py K} (h : InOrder y x) (hfg : ∀ a b, Least b a → InOrder (f a) (g b)) :
    InOrder (x >>= f) (y >>= g) := by
  intro a b ha hb
  cases x with
  | error e => cases ha
  | ok u =>
    cases y with
    | error e => cases hb
    | ok v => exact hfg u v (h v u rfl rfl) a b ha hb

theorem Spec.Orderly.quot (h : Orderly A rnd) {a a' b b' : K} (ha : Least a a') (hb : Least b' b) :
    InOrder (A.quot a b) (A.quot a' b') := by
  unfold Arith.quot
  split_ifs with h1 h2 h2
  · intro x y hx; cases hx
  · intro x y hx; cases hx
  · intro x y _ hy; cases hy
  · exact .ok (h.adiv ha hb h2)

theorem Spec.Orderly.root (h : Orderly A rnd) {a a' : K} (ha : Least a a') : InOrder (A.root a) (A.root a') := by
  unfold Arith.root
  rw [if_neg ha.1.not_gt, if_neg ha.nonneg.not_gt]
  exact .ok (h.sqrt _ _ ha.1 ha.2)

theorem Spec.Orderly.pi2 (h : Orderly A rnd) : Least (A.mul (piD : K) piD) (A.mul piD piD) := by
  have : (0 : K) ≤ piD := by unfold piD; positivity
  exact h.amul ⟨this, le_rfl⟩ ⟨this, le_rfl⟩

/-! ## Shear -/

/-- C152, part.  With no smaller areas, strengths and ratios the shear yield capacities of flat webs and of tubes are no smaller. -/
theorem C152_yield_partial (h : Orderly A rnd) {a a' fy fy' q q' c c' : K} (ha : Least a a') (hf : Least fy fy')
    (hq : Least q q') (hc : Least c c') :
    S5ShearR.VwGeneric A a fy q ≤ S5ShearR.VwGeneric A a' fy' q' ∧
    S5ShearR.VwCHS A a fy q c ≤ S5ShearR.VwCHS A a' fy' q' c' :=
  ⟨(h.amul (h.amul hq hf) ha).2, (h.amul (h.amul hc (h.amul hq hf)) ha).2⟩

theorem foldl_least (h : Orderly A rnd) {vs vs' : List K} (hv : List.Forall₂ Least vs vs') :
    ∀ {a a' : K}, Least a a' → Least (vs.foldl A.add a) (vs'.foldl A.add a') := by
  induction hv with
  | nil => intro a a' ha; exact ha
  | cons h1 _ ih => intro a a' ha; exact ih (h.aadd ha h1)

/-- C152, part.  The shear capacities limited by welds and by an interface are no smaller for no weaker welds, no thinner or weaker
interfaces, no smaller `I` and no larger `Q`. -/
theorem C152_welds_partial (h : Orderly A rnd) {vs vs' : List K} {Q Q' I I' t t' fy fy' q q' : K}
    (hv : List.Forall₂ Least vs vs') (hQ : Least Q' Q) (hI : Least I I') (ht : Least t t') (hf : Least fy fy') (hq : Least q q') :
    InOrder (S5ShearR.VwWeld A vs Q I) (S5ShearR.VwWeld A vs' Q' I') ∧
    InOrder (S5ShearR.VwInterface A t fy Q I q) (S5ShearR.VwInterface A t' fy' Q' I' q') :=
  ⟨h.quot (h.amul (foldl_least h hv (.refl le_rfl)) hI) hQ, h.quot (h.amul (h.amul (h.amul hf hq) ht) hI) hQ⟩

/-- C152, part.  A larger maximum and a smaller average shear stress never raise the factor for non-uniform shear. -/
theorem C152_nonuniform_partial (h : Orderly A rnd) {m m' v v' : K} (hm : Least m' m) (hv : Least v v') :
    InOrder (S5ShearR.alphaVma A m v) (S5ShearR.alphaVma A m' v') := by
  refine InOrder.bind' (h.quot hm hv) fun a b hab => ?_
  refine InOrder.bind (h.quot (.refl (by norm_num)) (h.aadd (.refl (h.lit _ (by norm_num))) hab)) fun x y hxy => ?_
  exact .ok (hxy.min (.refl zero_le_one))

/-- The limit of slenderness: no larger for stronger steel. -/
theorem limit_order (h : Orderly A rnd) {fy fy' lim lim' fr fr' : K} (hf : Least fy' fy) (hl : Least lim lim') (hr : Least fr fr') :
    InOrder (do let q ← A.quot fy fr; let r ← A.root q; A.quot lim r)
      (do let q ← A.quot fy' fr'; let r ← A.root q; A.quot lim' r) :=
  InOrder.bind' (h.quot hf hr) fun _ _ hab => InOrder.bind' (h.root hab) fun _ _ hxy => h.quot hl hxy

/-- C152, part.  The shear buckling coefficient of a web is at most 1, and a thicker and shallower web of steel with no larger
yield strength never has a smaller one. -/
theorem C152_buckling_coefficient_partial (h : Orderly A rnd) {d d' t t' fy fy' lim lim' fr fr' : K} (hd : Least d' d)
    (ht : Least t t') (hf : Least fy' fy) (hl : Least lim lim') (hr : Least fr fr') :
    InOrder (S5ShearR.alphaV A d t fy lim fr) (S5ShearR.alphaV A d' t' fy' lim' fr') ∧
    ∀ a, S5ShearR.alphaV A d t fy lim fr = .ok a → a ≤ 1 := by
  have reassoc : ∀ d t fy lim fr : K, S5ShearR.alphaV A d t fy lim fr =
      (do let q ← A.quot fy fr; let r ← A.root q; A.quot lim r) >>= fun l => do
        let s ← A.quot d t
        if s > l then do
          let u ← A.quot l s
          return A.sq u
        else return 1 := by
    intro d t fy lim fr
    simp only [S5ShearR.alphaV, bind_assoc]
  have small : ∀ l s : K, 0 ≤ l → s > l → Least (A.sq (A.div l s)) 1 := by
    intro l s hl hs
    have h1 : Least (A.div l s) 1 := by
      rw [h.div]
      have := h.round (a := l / s) (b := 1) ⟨div_nonneg hl (hl.trans hs.le), div_le_one_of_le₀ hs.le (hl.trans hs.le)⟩
      rwa [h.one] at this
    have := h.asq h1
    rwa [h.sq 1, one_pow, h.one] at this
  have key : InOrder (S5ShearR.alphaV A d t fy lim fr) (S5ShearR.alphaV A d' t' fy' lim' fr') := by
    rw [reassoc, reassoc]
    refine InOrder.bind (limit_order h hf hl hr) fun l l' hll => InOrder.bind' (h.quot hd ht) fun s s' hss => ?_
    by_cases h1 : s' > l'
    · have h2 : s > l := lt_of_le_of_lt hll.2 (lt_of_lt_of_le h1 hss.2)
      rw [if_pos h1, if_pos h2]
      exact InOrder.bind (h.quot hll hss) fun u u' huu => .ok (h.asq huu)
    · rw [if_neg h1]
      by_cases h2 : s > l
      · rw [if_pos h2]
        have hs0 : s ≠ 0 := (lt_of_le_of_lt hll.1 h2).ne'
        simp only [Arith.quot, if_neg hs0]
        exact .ok (small l s hll.1 h2)
      · rw [if_neg h2]
        exact .ok (.refl zero_le_one)
  refine ⟨key, fun a ha => ?_⟩
  rw [reassoc] at ha
  obtain ⟨l, e1, ha⟩ := bind_ok_inv ha
  obtain ⟨s, -, ha⟩ := bind_ok_inv ha
  have hl0 : 0 ≤ l := (limit_order h (.refl hf.nonneg) (.refl hl.1) (.refl hr.1) l l e1 e1).1
  split_ifs at ha with h2
  · have hs0 : s ≠ 0 := (lt_of_le_of_lt hl0 h2).ne'
    simp only [Arith.quot, if_neg hs0] at ha
    cases ha
    exact (small l s hl0 h2).2
  · cases ha
    exact le_rfl

/-- C152, part.  A thicker web of the same steel and depth is never weaker in shear: `s5_11_5_α_v(...)` times
`s5_11_4_V_w_Generic(A_w=d_p * t_w, ...)`. -/
theorem C152_web_partial (h : Orderly A rnd) {d t t' fy lim fr q a a' : K} (hd : 0 ≤ d) (ht : Least t t') (hf : 0 ≤ fy)
    (hl : 0 ≤ lim) (hr : 0 ≤ fr) (hq : 0 ≤ q) (e : S5ShearR.alphaV A d t fy lim fr = .ok a)
    (e' : S5ShearR.alphaV A d t' fy lim fr = .ok a') :
    A.mul a (S5ShearR.VwGeneric A (A.mul d t) fy q) ≤ A.mul a' (S5ShearR.VwGeneric A (A.mul d t') fy q) :=
  (h.amul ((C152_buckling_coefficient_partial h (.refl hd) ht (.refl hf) (.refl hl) (.refl hr)).1 a a' e e')
    (h.amul (h.amul (.refl hq) (.refl hf)) (h.amul (.refl hd) ht))).2

/-! ## Bending -/

theorem euler_order (h : Orderly A rnd) {l l' I I' E E' : K} (hl : Least l' l) (hI : Least I I') (hE : Least E E') :
    InOrder (S5R.euler A l I E) (S5R.euler A l' I' E') :=
  h.quot (h.amul (h.amul h.pi2 hE) hI) (h.amul hl hl)

/-- C152, part.  A longer segment never has a larger reference buckling moment, nor one with smaller section properties. -/
theorem C152_reference_moment_partial (h : Orderly A rnd) {l l' Iy Iy' J J' Iw Iw' b b' E E' G G' : K} (hl : Least l' l)
    (hIy : Least Iy Iy') (hJ : Least J J') (hIw : Least Iw Iw') (hb : Least b b') (hE : Least E E') (hG : Least G G') :
    InOrder (S5R.Mo A l Iy J Iw b E G) (S5R.Mo A l' Iy' J' Iw' b' E' G') := by
  have hd : Least (A.div b 2) (A.div b' 2) := h.adiv hb (.refl (by norm_num)) (by norm_num)
  refine InOrder.bind (euler_order h hl hIy hE) fun a a' ha => InOrder.bind (euler_order h hl hIw hE) fun c c' hc => ?_
  refine InOrder.bind (h.root ha) fun r r' hr => InOrder.bind (h.root ?_) fun s s' hs => ?_
  · exact h.aadd (h.aadd (h.amul hG hJ) hc) (h.amul (h.amul hd hd) ha)
  · exact .ok (h.amul hr (h.aadd hs (h.amul hd hr)))

/-- C152, part.  Section moment capacity, effective length and member moment capacity as functions of the factors. -/
theorem C152_products_partial (h : Orderly A rnd) {a a' b b' c c' d d' : K} (ha : Least a a') (hb : Least b b') (hc : Least c c')
    (hd : Least d d') :
    S5R.Ms A a b ≤ S5R.Ms A a' b' ∧ S5R.le A a b c d ≤ S5R.le A a' b' c' d' ∧ S5R.Mb A a b c ≤ S5R.Mb A a' b' c' ∧
    S6R.Ae A a b ≤ S6R.Ae A a' b' ∧ S6R.Ns A a b ≤ S6R.Ns A a' b' :=
  ⟨(h.amul ha hb).2, (h.amul (h.amul (h.amul ha hb) hc) hd).2, (h.amul (h.amul hb hc) ha).2, (h.amul ha hb).2, (h.amul ha hb).2⟩

/-! ## Compression -/

/-- C152, part.  A longer column never has a smaller modified slenderness. -/
theorem C152_slenderness_partial (h : Orderly A rnd) {kf kf' l l' r r' fy fy' fr fr' : K} (hk : Least kf kf') (hl : Least l l')
    (hr : Least r' r) (hf : Least fy fy') (hfr : Least fr' fr) :
    InOrder (S6R.lambdaN A kf l r fy fr) (S6R.lambdaN A kf' l' r' fy' fr') :=
  InOrder.bind (h.quot hl hr) fun _ _ hs => InOrder.bind (h.root hk) fun _ _ ha => InOrder.bind (h.quot hf hfr) fun _ _ hq =>
    InOrder.bind (h.root hq) fun _ _ hb => .ok (h.amul (h.amul hs ha) hb)

/-- C152, part.  The elastic buckling load and stress of a longer column are never larger. -/
theorem C152_euler_partial (h : Orderly A rnd) {E E' I I' l l' r r' : K} (hE : Least E E') (hI : Least I I') (hl : Least l' l)
    (hr : Least r r') :
    InOrder (S6R.NEuler A E I l) (S6R.NEuler A E' I' l') ∧ InOrder (S6R.fEuler A E l r) (S6R.fEuler A E' l' r') :=
  ⟨h.quot (h.amul (h.amul h.pi2 hE) hI) (h.amul hl hl),
    InOrder.bind' (h.quot hl hr) fun _ _ hs => h.quot (h.amul h.pi2 hE) (h.amul hs hs)⟩

theorem mul_self_least (h : Orderly A rnd) (x : K) : Least (A.mul x x) (A.mul x x) := by
  rw [h.mul]
  exact h.round (.refl (mul_self_nonneg x))

/-- C152, part.  The torsional buckling stress of a longer member is never larger, nor that of a member with a smaller warping
constant or a larger area. -/
theorem C152_torsion_partial (h : Orderly A rnd) {An An' l l' rx ry xo yo J Iw Iw' E E' G : K} (hA : Least An' An) (hl : Least l' l)
    (hJ : 0 ≤ J) (hG : 0 ≤ G) (hIw : Least Iw Iw') (hE : Least E E') :
    InOrder (S6R.fEulerTorsion A An l rx ry xo yo J Iw E G) (S6R.fEulerTorsion A An' l' rx ry xo yo J Iw' E' G) := by
  have hGJ := h.amul (Least.refl hG) (Least.refl hJ)
  refine InOrder.bind' (h.root (h.aadd (h.aadd (h.aadd (mul_self_least h _) (mul_self_least h _)) (mul_self_least h _))
    (mul_self_least h _))) fun o o' ho => ?_
  refine InOrder.bind (h.quot hGJ (h.amul (h.amul hA ho) ho)) fun a a' ha => ?_
  refine InOrder.bind (h.quot (h.amul (h.amul h.pi2 hE) hIw) (h.amul hGJ (h.amul hl hl))) fun b b' hb => ?_
  exact .ok (h.amul ha (h.aadd (.refl zero_le_one) hb))

/-- C152, part.  A plate or tube of steel with no larger yield strength and no smaller thickness is never more slender, and keeps no
smaller effective width, area or diameter. -/
theorem C152_effective_partial (h : Orderly A rnd) {b t t' fy fy' ley ley' fr fr' : K} (hb : 0 ≤ b) (ht : Least t t')
    (hf : Least fy' fy) (hl : Least ley ley') (hr : Least fr fr') :
    InOrder (EffectiveR.lambdaPlate A b t' fy' fr') (EffectiveR.lambdaPlate A b t fy fr) ∧
    InOrder (EffectiveR.lambdaCHS A b t' fy' fr') (EffectiveR.lambdaCHS A b t fy fr) ∧
    InOrder (EffectiveR.aPlate A b t fy ley fr) (EffectiveR.aPlate A b t' fy' ley' fr') ∧
    InOrder (EffectiveR.lambdaCHS A b t fy fr >>= fun le => EffectiveR.dCHS A b le ley)
      (EffectiveR.lambdaCHS A b t' fy' fr' >>= fun le => EffectiveR.dCHS A b le ley') := by
  have hp : InOrder (EffectiveR.lambdaPlate A b t' fy' fr') (EffectiveR.lambdaPlate A b t fy fr) :=
    InOrder.bind (h.quot (.refl hb) ht) fun _ _ hs => InOrder.bind (h.quot hf hr) fun _ _ hq =>
      InOrder.bind (h.root hq) fun _ _ hx => .ok (h.amul hs hx)
  have hc : InOrder (EffectiveR.lambdaCHS A b t' fy' fr') (EffectiveR.lambdaCHS A b t fy fr) :=
    InOrder.bind (h.quot (.refl hb) ht) fun _ _ hs => InOrder.bind (h.quot hf hr) fun _ _ hq => .ok (h.amul hs hq)
  refine ⟨hp, hc, InOrder.bind' hp fun s s' hs => ?_, InOrder.bind' hc fun s s' hs => ?_⟩
  · refine InOrder.bind (InOrder.bind (h.quot hl hs) fun _ _ hq => .ok ((h.amul (.refl hb) hq).min (.refl hb))) fun x y hx => ?_
    exact .ok (h.amul hx ht)
  · refine InOrder.bind (h.quot hl hs) fun q q' hq => InOrder.bind (h.root hq) fun r r' hr => ?_
    refine InOrder.bind (h.quot (h.amul (.refl (by norm_num)) hl) hs) fun p p' hp => ?_
    exact .ok (((h.amul (.refl hb) hr).min (h.amul (.refl hb) (h.asq hp))).min (.refl hb))

end

/-! ## Double precision -/

theorem roundEvenR_cases (q : ℝ) : roundEvenR q = ⌊q⌋ ∨ roundEvenR q = ⌊q⌋ + 1 := by
  unfold roundEvenR
  split_ifs <;> simp

theorem roundEvenR_intCast (n : ℤ) : roundEvenR (n : ℝ) = n := by
  unfold roundEvenR
  rw [Int.floor_intCast, if_pos (by norm_num)]

theorem roundEvenR_mono : Monotone roundEvenR := by
  intro a b hab
  have hf : ⌊a⌋ ≤ ⌊b⌋ := Int.floor_le_floor hab
  rcases hf.lt_or_eq with hlt | heq
  · have h1 : roundEvenR a ≤ ⌊a⌋ + 1 := by rcases roundEvenR_cases a with h | h <;> omega
    have h2 : ⌊b⌋ ≤ roundEvenR b := by rcases roundEvenR_cases b with h | h <;> omega
    omega
  · unfold roundEvenR
    rw [heq]
    split_ifs with h1 h2 h3 h4 h5 h6 h7 h8 h9 h10 <;> first | omega | skip
    all_goals exfalso; linarith

theorem pow2_pos (e : ℤ) : (0 : ℝ) < 2 ^ e := zpow_pos (by norm_num) e

theorem fl53_zero : fl53 0 = 0 := by
  have : roundEvenR (0 : ℝ) = 0 := by simpa using roundEvenR_intCast 0
  simp [fl53, this]

theorem fl53_nonneg {x : ℝ} (hx : 0 ≤ x) : 0 ≤ fl53 x := by
  unfold fl53
  refine mul_nonneg ?_ (pow2_pos _).le
  have h1 := roundEvenR_mono (show ((0 : ℤ) : ℝ) ≤ x / 2 ^ (Int.log 2 |x| - 52) by
    simpa using div_nonneg hx (pow2_pos _).le)
  rw [roundEvenR_intCast] at h1
  exact_mod_cast h1

theorem fl53_mono {x y : ℝ} (hx : 0 ≤ x) (hxy : x ≤ y) : fl53 x ≤ fl53 y := by
  rcases hx.eq_or_lt with rfl | hx
  · rw [fl53_zero]
    exact fl53_nonneg hxy
  have hy : 0 < y := hx.trans_le hxy
  have hlog : Int.log 2 x ≤ Int.log 2 y := Int.log_mono_right hx hxy
  unfold fl53
  rw [abs_of_pos hx, abs_of_pos hy]
  rcases hlog.eq_or_lt with he | he
  · rw [he]
    apply mul_le_mul_of_nonneg_right _ (pow2_pos _).le
    exact_mod_cast roundEvenR_mono (div_le_div_of_nonneg_right hxy (pow2_pos (Int.log 2 y - 52)).le)
  · have hB1 : (2 : ℝ) ^ Int.log 2 y ≤ y := by
      have := Int.zpow_log_le_self (b := 2) (by norm_num) hy
      exact_mod_cast this
    have hB2 : x ≤ (2 : ℝ) ^ (Int.log 2 x + 1) := by
      have h1 := Int.lt_zpow_succ_log_self (b := 2) (by norm_num) x
      push_cast at h1
      exact h1.le
    refine le_trans (b := (2 : ℝ) ^ Int.log 2 y) (le_trans (b := (2 : ℝ) ^ (Int.log 2 x + 1)) ?_
      (zpow_le_zpow_right₀ (by norm_num) (by omega))) ?_
    · have h1 : (2 : ℝ) ^ (Int.log 2 x + 1) / 2 ^ (Int.log 2 x - 52) = ((2 ^ 53 : ℤ) : ℝ) := by
        rw [← zpow_sub₀ (by norm_num), show Int.log 2 x + 1 - (Int.log 2 x - 52) = (53 : ℕ) by push_cast; ring, zpow_natCast]
        norm_num
      have h2 := roundEvenR_mono (div_le_div_of_nonneg_right hB2 (pow2_pos (Int.log 2 x - 52)).le)
      rw [h1, roundEvenR_intCast] at h2
      rw [← le_div_iff₀ (pow2_pos _), h1]
      exact_mod_cast h2
    · have h1 : (2 : ℝ) ^ Int.log 2 y / 2 ^ (Int.log 2 y - 52) = ((2 ^ 52 : ℤ) : ℝ) := by
        rw [← zpow_sub₀ (by norm_num), show Int.log 2 y - (Int.log 2 y - 52) = (52 : ℕ) by push_cast; ring, zpow_natCast]
        norm_num
      have h2 := roundEvenR_mono (div_le_div_of_nonneg_right hB1 (pow2_pos (Int.log 2 y - 52)).le)
      rw [h1, roundEvenR_intCast] at h2
      rw [← div_le_iff₀ (pow2_pos _), h1]
      exact_mod_cast h2

theorem fl53_one : fl53 1 = 1 := by
  have h : Int.log 2 |(1 : ℝ)| = 0 := by simp
  unfold fl53
  rw [h, show (1 : ℝ) / 2 ^ ((0 : ℤ) - 52) = ((2 ^ 52 : ℤ) : ℝ) by norm_num, roundEvenR_intCast]
  norm_num

/-- C152.  Double precision with correctly rounded powers, as long as nothing overflows or underflows, is such an arithmetic. -/
theorem C152_double : Orderly Arith.double fl53 where
  add _ _ := rfl
  mul _ _ := rfl
  div _ _ := rfl
  sq _ := rfl
  sqrt a b ha hab := ⟨fl53_nonneg (Real.sqrt_nonneg a), fl53_mono (Real.sqrt_nonneg a) (Real.sqrt_le_sqrt hab)⟩
  lit q hq := fl53_nonneg (by exact_mod_cast hq)
  mono _ _ := fl53_mono
  zero := fl53_zero
  one := fl53_one

/-- What `sqrt64` rounds. -/
def root64 (x : ℚ) : ℚ :=
  let k : ℤ := 60 - Int.log 2 |x| / 2
  let n := Nat.sqrt ⌊x * 4 ^ k⌋.toNat
  (if (n : ℚ) ^ 2 = x * 4 ^ k then (n : ℚ) else n + 1 / 2) / 2 ^ k

theorem root64_nonneg (x : ℚ) : 0 ≤ root64 x := by
  unfold root64
  refine div_nonneg ?_ (by positivity)
  split_ifs <;> positivity

/-- The part of the root before scaling: nondecreasing for a fixed scale. -/
def half (X : ℚ) : ℚ :=
  let n := Nat.sqrt ⌊X⌋.toNat
  if (n : ℚ) ^ 2 = X then (n : ℚ) else n + 1 / 2

theorem half_sq_le {X : ℚ} (hX : 0 ≤ X) : ((Nat.sqrt ⌊X⌋.toNat : ℕ) : ℚ) ^ 2 ≤ X := by
  have h1 : (Nat.sqrt ⌊X⌋.toNat) ^ 2 ≤ ⌊X⌋.toNat := by rw [sq]; exact Nat.sqrt_le _
  have h2 : ((⌊X⌋.toNat : ℕ) : ℚ) ≤ X := by
    have h3 : ((⌊X⌋.toNat : ℕ) : ℤ) = ⌊X⌋ := Int.toNat_of_nonneg (Int.floor_nonneg.2 hX)
    have h4 : ((⌊X⌋.toNat : ℕ) : ℚ) = (⌊X⌋ : ℚ) := by exact_mod_cast congrArg (Int.cast : ℤ → ℚ) h3
    rw [h4]
    exact Int.floor_le X
  exact le_trans (by exact_mod_cast h1) h2

theorem half_mono {X Y : ℚ} (hX : 0 ≤ X) (hXY : X ≤ Y) : half X ≤ half Y := by
  have hn : Nat.sqrt ⌊X⌋.toNat ≤ Nat.sqrt ⌊Y⌋.toNat :=
    Nat.sqrt_le_sqrt (Int.toNat_le_toNat (Int.floor_le_floor hXY))
  have h1 := half_sq_le hX
  unfold half
  simp only
  rcases hn.lt_or_eq with h | h
  · have : ((Nat.sqrt ⌊X⌋.toNat : ℕ) : ℚ) + 1 ≤ (Nat.sqrt ⌊Y⌋.toNat : ℕ) := by exact_mod_cast h
    split_ifs <;> linarith
  · rw [h] at h1 ⊢
    split_ifs with g1 g2 g2
    · exact le_rfl
    · linarith
    · exact absurd (le_antisymm h1 (hXY.trans g2.ge)) g1
    · exact le_rfl

theorem half_lower {X : ℚ} (hX : 4 ^ 60 ≤ X) : (2 : ℚ) ^ 60 ≤ half X := by
  have := half_mono (by norm_num) hX
  have h : half (4 ^ 60) = 2 ^ 60 := by decide +kernel
  rwa [h] at this

theorem half_upper {X : ℚ} (h0 : 0 ≤ X) (hX : X < 4 ^ 61) : half X ≤ (2 : ℚ) ^ 61 := by
  have := half_mono h0 hX.le
  have h : half (4 ^ 61) = 2 ^ 61 := by decide +kernel
  rwa [h] at this

theorem root64_mono {x y : ℚ} (hx : 0 < x) (hxy : x ≤ y) : root64 x ≤ root64 y := by
  have hy : 0 < y := hx.trans_le hxy
  have e : ∀ z : ℚ, root64 z = half (z * 4 ^ (60 - Int.log 2 |z| / 2)) / 2 ^ (60 - Int.log 2 |z| / 2) := fun z => rfl
  rw [e, e, abs_of_pos hx, abs_of_pos hy]
  have hlog : Int.log 2 x ≤ Int.log 2 y := Int.log_mono_right hx hxy
  have four : ∀ j : ℤ, (4 : ℚ) ^ j = 2 ^ (2 * j) := fun j => by rw [zpow_mul]; norm_num
  rcases (show Int.log 2 x / 2 ≤ Int.log 2 y / 2 by omega).eq_or_lt with he | he
  · rw [he]
    have hp : (0 : ℚ) < 4 ^ (60 - Int.log 2 y / 2) := by positivity
    exact div_le_div_of_nonneg_right (half_mono (by positivity) (mul_le_mul_of_nonneg_right hxy hp.le)) (by positivity)
  · set j := Int.log 2 x / 2 with hj
    set j' := Int.log 2 y / 2 with hj'
    have hx1 : x < (4 : ℚ) ^ (j + 1) := by
      have h1 := Int.lt_zpow_succ_log_self (b := 2) (by norm_num) x
      push_cast at h1
      rw [four]
      exact h1.trans_le (zpow_le_zpow_right₀ (by norm_num) (by omega))
    have hy1 : (4 : ℚ) ^ j' ≤ y := by
      have h1 := Int.zpow_log_le_self (b := 2) (by norm_num) hy
      push_cast at h1
      rw [four]
      exact le_trans (zpow_le_zpow_right₀ (by norm_num) (by omega)) h1
    have h1 : half (x * 4 ^ (60 - j)) ≤ 2 ^ 61 := by
      refine half_upper (by positivity) ?_
      refine lt_of_lt_of_eq (mul_lt_mul_of_pos_right hx1 (by positivity)) ?_
      rw [← zpow_add₀ (by norm_num), show j + 1 + (60 - j) = (61 : ℕ) by push_cast; ring, zpow_natCast]
    have h2 : (2 : ℚ) ^ 60 ≤ half (y * 4 ^ (60 - j')) := by
      refine half_lower ?_
      refine le_of_eq_of_le ?_ (mul_le_mul_of_nonneg_right hy1 (by positivity))
      rw [← zpow_add₀ (by norm_num), show j' + (60 - j') = (60 : ℕ) by push_cast; ring, zpow_natCast]
    refine le_trans (b := (2 : ℚ) ^ j') ?_ ?_
    · rw [div_le_iff₀ (by positivity), ← zpow_add₀ (by norm_num)]
      refine h1.trans ?_
      rw [← zpow_natCast]
      exact zpow_le_zpow_right₀ (by norm_num) (by push_cast; omega)
    · rw [le_div_iff₀ (by positivity), ← zpow_add₀ (by norm_num), show j' + (60 - j') = (60 : ℕ) by push_cast; ring, zpow_natCast]
      exact h2

theorem sqrt64_root64 (x : ℚ) : sqrt64 x = rnd64 (root64 x) := rfl

/-- C152.  Double precision with underflow, as evaluated in the examples, is such an arithmetic too. -/
theorem C152_binary64 : Orderly Arith.binary64 rnd64 where
  add _ _ := rfl
  mul _ _ := rfl
  div _ _ := rfl
  sq _ := rfl
  sqrt a b ha hab := by
    refine ⟨rnd64_nonneg (root64_nonneg a), rnd64_mono ?_⟩
    show root64 a ≤ root64 b
    rcases ha.eq_or_lt with rfl | ha
    · have : root64 0 = 0 := by simp [root64]
      rw [this]
      exact root64_nonneg b
    · exact root64_mono ha hab
  lit q hq := rnd64_nonneg (by exact_mod_cast hq)
  mono _ _ _ := fun h => rnd64_mono h
  zero := rnd64_zero
  one := by decide +kernel

/-! ## What rounding does put out of order -/

theorem both_ok {α β : Type} {x : Py α} {y : Py β} {P : α → β → Prop} [∀ a b, Decidable (P a b)]
    (h : (match x, y with | .ok a, .ok b => decide (P a b) | _, _ => false) = true) : ∃ a b, x = .ok a ∧ y = .ok b ∧ P a b := by
  cases x with
  | error e => cases h
  | ok a =>
    cases y with
    | error e => cases h
    | ok b => exact ⟨a, b, rfl, rfl, of_decide_eq_true h⟩

/-- C152 is false for stronger steel: in doubles a slender web of 253 MPa has a smaller shear capacity than one of 252 MPa. -/
theorem C152_web_counterexample : ∃ a a', S5ShearR.alphaV Arith.binary64 (3/2) (1/64) 252000000 82 250000000 = .ok a ∧
    S5ShearR.alphaV Arith.binary64 (3/2) (1/64) 253000000 82 250000000 = .ok a' ∧
    Arith.binary64.mul a' (S5ShearR.VwGeneric Arith.binary64 (Arith.binary64.mul (3/2) (1/64)) 253000000
      (Arith.binary64.lit (6/10))) <
    Arith.binary64.mul a (S5ShearR.VwGeneric Arith.binary64 (Arith.binary64.mul (3/2) (1/64)) 252000000
      (Arith.binary64.lit (6/10))) := by
  rw [← fastArith_eq]
  exact both_ok (by decide +kernel)

/-- C152 is false for columns: in doubles a column of `2 + 2⁻⁵¹` m has a larger capacity than one of 2 m. -/
theorem C152_column_counterexample : ∃ r r', S6R.NcFlexural Arith.binary64 (1/128) 1 2 (1/16) 250000000 250000000 (1/2) = .ok r ∧
    S6R.NcFlexural Arith.binary64 (1/128) 1 (2 + 1 / 2^51) (1/16) 250000000 250000000 (1/2) = .ok r' ∧ r.1 < r'.1 := by
  rw [← fastArith_eq]
  exact both_ok (by decide +kernel)

/-- C152 is false for segments in bending: in doubles a segment longer than 4.5 m by one unit in the last place has a smaller reference
buckling moment but a larger capacity. -/
theorem C152_segment_counterexample : ∃ M M' a a',
    S5R.Mo Arith.binary64 (9/2) (1/2^16) (1/2^20) (1/2^24) 0 200000000000 80000000000 = .ok M ∧
    S5R.Mo Arith.binary64 (9/2 + 1/2^50) (1/2^16) (1/2^20) (1/2^24) 0 200000000000 80000000000 = .ok M' ∧
    S5R.alphaS Arith.binary64 (2^18) M = .ok a ∧ S5R.alphaS Arith.binary64 (2^18) M' = .ok a' ∧
    M' < M ∧ S5R.Mb Arith.binary64 (2^18) 1 a < S5R.Mb Arith.binary64 (2^18) 1 a' := by
  rw [← fastArith_eq]
  obtain ⟨x, y, h1, h2, h3⟩ := both_ok (P := fun x y : ℚ × ℚ => y.1 < x.1 ∧ S5R.Mb fastArith (2^18) 1 x.2 < S5R.Mb fastArith (2^18) 1 y.2)
    (x := do let M ← S5R.Mo fastArith (9/2) (1/2^16) (1/2^20) (1/2^24) 0 200000000000 80000000000
             let a ← S5R.alphaS fastArith (2^18) M; return (M, a))
    (y := do let M ← S5R.Mo fastArith (9/2 + 1/2^50) (1/2^16) (1/2^20) (1/2^24) 0 200000000000 80000000000
             let a ← S5R.alphaS fastArith (2^18) M; return (M, a)) (by decide +kernel)
  have inv : ∀ {m : Py ℚ} {f : ℚ → Py ℚ} {z : ℚ × ℚ}, (do let M ← m; let a ← f M; return (M, a)) = Except.ok z →
      m = .ok z.1 ∧ f z.1 = .ok z.2 := by
    intro m f z h
    cases m with
    | error e => cases h
    | ok M =>
      change (f M >>= fun a => pure (M, a)) = .ok z at h
      cases hf : f M with
      | error e => rw [hf] at h; cases h
      | ok a => rw [hf] at h; cases h; exact ⟨rfl, hf⟩
  exact ⟨x.1, y.1, x.2, y.2, (inv h1).1, (inv h2).1, (inv h1).2, (inv h2).2, h3.1, h3.2⟩

/-! ## Concrete cases -/

/-- webs of 10 and 12 mm in doubles: both coefficients exist, so the thicker web is no weaker, and here it is stronger -/
example : ∃ a a', S5ShearR.alphaV Arith.binary64 (3/2) (Arith.binary64.lit (1/100)) 250000000 82 250000000 = .ok a ∧
    S5ShearR.alphaV Arith.binary64 (3/2) (Arith.binary64.lit (12/1000)) 250000000 82 250000000 = .ok a' ∧ a < a' ∧ a' < 1 := by
  rw [← fastArith_eq]
  exact both_ok (P := fun a a' => a < a' ∧ a' < 1) (by decide +kernel)

/-- reference buckling moments of segments of 6 and 4 m in doubles -/
example : ∃ a a', S5R.Mo Arith.binary64 6 (1/2^16) (1/2^20) (1/2^24) 0 200000000000 80000000000 = .ok a ∧
    S5R.Mo Arith.binary64 4 (1/2^16) (1/2^20) (1/2^24) 0 200000000000 80000000000 = .ok a' ∧ 0 < a ∧ a < a' := by
  rw [← fastArith_eq]
  exact both_ok (P := fun a a' => 0 < a ∧ a < a') (by decide +kernel)

/-- the torsional buckling stresses of members of 6 and 4 m in doubles -/
example : ∃ a a', S6R.fEulerTorsion Arith.binary64 (1/128) 6 (1/8) (1/16) 0 0 (1/2^20) (1/2^24) 200000000000 80000000000 = .ok a ∧
    S6R.fEulerTorsion Arith.binary64 (1/128) 4 (1/8) (1/16) 0 0 (1/2^20) (1/2^24) 200000000000 80000000000 = .ok a' ∧
    0 < a ∧ a < a' := by
  rw [← fastArith_eq]
  exact both_ok (P := fun a a' => 0 < a ∧ a < a') (by decide +kernel)

/-- effective areas of plates of 8 and 10 mm in doubles -/
example : ∃ a a', EffectiveR.aPlate Arith.binary64 (1/2) (Arith.binary64.lit (8/1000)) 250000000 45 250000000 = .ok a ∧
    EffectiveR.aPlate Arith.binary64 (1/2) (Arith.binary64.lit (1/100)) 250000000 45 250000000 = .ok a' ∧ 0 < a ∧ a < a' := by
  rw [← fastArith_eq]
  exact both_ok (P := fun a a' => 0 < a ∧ a < a') (by decide +kernel)

/-- welds: `[1, 2]` and `[1, 3]` -/
example : List.Forall₂ Least [(1 : ℚ), 2] [1, 3] := by
  refine .cons ⟨?_, ?_⟩ (.cons ⟨?_, ?_⟩ .nil) <;> norm_num

end BeamDesign
