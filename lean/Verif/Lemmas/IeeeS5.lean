import Verif.Lemmas.Ieee

/-!
# Ranges in the section 5 formulas and the effective sections
-/

namespace BeamDesign

open Spec

section
variable {A : Arith ℝ} {u : ℝ}

theorem two_v : V .pos 1 1 (2 : ℝ) 2 := (Rg.nat 2 1 1).v
theorem one_v : V .pos 0 0 (1 : ℝ) 1 := by simpa using (Rg.nat 1 0 0).v
theorem three_v : V .pos 1 2 (3 : ℝ) 3 := (Rg.nat 3 1 2).v

theorem ktRest_w (hA : Ieee A u) (hu : u ≤ 1 / 2) {x y tf tw nw : ℝ} (hx : V .pos (-45) 45 x y) (htf : Rg .pos (-20) 20 tf)
    (htw : Rg .pos (-20) 20 tw) (hnw : Rg .pos 0 10 nw) :
    W (Rg .pos (-1) 180) (S5R.ktRest A.patch x tf tw nw) (S5R.ktRest A y tf tw nw) := by
  refine W.bind (htf.v.quot hA hu (two_v.mul hA hu htw.v)) fun y' hy => ?_
  refine W.bind ((hx.mul hA hu (hy.v.cube hA hu)).quot hA hu hnw.v) fun z hz => ?_
  have := one_v.add hA hu hz.v
  exact W.pure this.eq this.rg.mono

theorem kt_w (hA : Ieee A u) (hu : u ≤ 1 / 2) {d1 l tf tw nw : ℝ} (hd : Rg .pos (-20) 20 d1) (hl : Rg .pos (-20) 20 l)
    (htf : Rg .pos (-20) 20 tf) (htw : Rg .pos (-20) 20 tw) (hnw : Rg .pos 0 10 nw) (r : S5.Restraint) :
    W (Rg .pos (-1) 180) (S5R.kt A.patch d1 l tf tw nw r) (S5R.kt A d1 l tf tw nw r) := by
  have q := hd.v.quot hA hu hl.v
  have one : W (Rg .pos (-1) 180) (.ok (1 : ℝ) : Py ℝ) (.ok 1) := W.pure rfl one_v.rg.mono
  have h1 : W (Rg .pos (-1) 180) (A.patch.quot d1 l >>= fun x => S5R.ktRest A.patch x tf tw nw) (A.quot d1 l >>= fun x => S5R.ktRest A x tf tw nw) :=
    W.bind q fun v hv => ktRest_w hA hu hv.v.mono htf htw hnw
  have h2 : W (Rg .pos (-1) 180) (A.patch.quot d1 l >>= fun x => S5R.ktRest A.patch (A.patch.mul 2 x) tf tw nw)
      (A.quot d1 l >>= fun x => S5R.ktRest A (A.mul 2 x) tf tw nw) :=
    W.bind q fun v hv => ktRest_w hA hu (two_v.mul hA hu hv.v).mono htf htw hnw
  cases r
  all_goals first | exact one | exact h1 | exact h2

theorem euler_w (hA : Ieee A u) (hu : u ≤ 1 / 2) {le le' I E : ℝ} {s : Sgn} {lo hi : ℤ} (hl : V .pos (-50) 225 le le') (hI : Rg s lo hi I)
    (hE : Rg .pos (-10) 40 E) (h1 : -80 ≤ lo) (h2 : hi ≤ 80) :
    W (Rg ((Sgn.pos.mul s).div .pos) (-546) 240) (S5R.euler A.patch le I E) (S5R.euler A le' I E) := by
  have hI' : Rg s (-80) 80 I := hI.mono h1 h2
  exact (((((piD_rg.v.mul hA hu piD_rg.v).mul hA hu hE.v).mul hA hu hI'.v).quot hA hu (hl.self hA hu))).mono fun v hv => hv.mono

theorem Mo_w (hA : Ieee A u) (hu : u ≤ 1 / 2) {le le' Iy J Iw betaX E G : ℝ} (hl : V .pos (-50) 225 le le') (hy : Rg .pos (-60) 60 Iy)
    (hJ : Rg .pos (-60) 60 J) (hw : Rg .nonneg (-80) 80 Iw) (hb : Rg .any (-60) 20 betaX) (hE : Rg .pos (-10) 40 E)
    (hG : Rg .pos (-10) 40 G) :
    W (Rg .any (-400) 300) (S5R.Mo A.patch le Iy J Iw betaX E G) (S5R.Mo A le' Iy J Iw betaX E G) := by
  refine W.bind (euler_w hA hu hl hy hE (by decide) (by decide)) fun a ha => ?_
  refine W.bind (euler_w hA hu hl hw hE (by decide) (by decide)) fun c hc => ?_
  have b := hG.v.mul hA hu hJ.v
  have d := hb.v.div hA hu two_v two_ne_zero
  refine W.bind (ha.v.root hA hu) fun ra hra => ?_
  refine W.bind (((b.add hA hu hc.v).add hA hu ((d.self hA hu).mul hA hu ha.v)).root hA hu) fun rb hrb => ?_
  have := hra.v.mul hA hu (hrb.v.add hA hu (d.mul hA hu hra.v))
  exact W.pure this.eq this.rg.mono

theorem alphaS_w (hA : Ieee A u) (hu : u ≤ 1 / 2) {Ms Ms' Mo : ℝ} (hM : V .pos (-75) 105 Ms Ms') (ho : Rg .any (-400) 300 Mo) :
    W (Rg .any (-60) 600) (S5R.alphaS A.patch Ms Mo) (S5R.alphaS A Ms' Mo) := by
  refine W.bind (hM.quot hA hu ho.v) fun x hx => ?_
  refine W.bind (((hx.v.sq hA hu).add hA hu three_v).root hA hu) fun r hr => ?_
  have := (V.lit hA hu (6 / 10) (l := -1) (h := 0) (by norm_num) (by norm_num)).mul hA hu (hr.v.sub hA hu hx.v)
  exact W.pure this.eq this.rg.mono

theorem le_v (hA : Ieee A u) (hu : u ≤ 1 / 2) {k kl kr l : ℝ} (hk : Rg .pos (-1) 180 k) (h1 : Rg .pos (-10) 10 kl) (h2 : Rg .pos (-10) 10 kr)
    (hl : Rg .pos (-20) 20 l) : V .pos (-50) 225 (S5R.le A.patch k kl kr l) (S5R.le A k kl kr l) :=
  (((hk.v.mul hA hu h1.v).mul hA hu h2.v).mul hA hu hl.v).mono

theorem segment_iff (hA : Ieee A u) (hu : u ≤ 1 / 2) {s : Segment} (hs : s.InRange) (M : ℝ) : s.Computed A M ↔ s.Computed A.patch M := by
  have w := kt_w hA hu hs.d1.rg hs.l.rg hs.tf.rg hs.tw.rg hs.nw.rg s.code
  have vM : V .pos (-75) 105 (S5R.Ms A.patch s.fy s.Ze) (S5R.Ms A s.fy s.Ze) := (hs.fy.rg.v.mul hA hu hs.Ze.rg.v).mono
  unfold Segment.Computed
  rw [w.eq]
  have key : ∀ k, S5R.kt A s.d1 s.l s.tf s.tw s.nw s.code = .ok k →
      W (Rg .any (-400) 300) (S5R.Mo A.patch (S5R.le A.patch k s.kl s.kr s.l) s.Iy s.J s.Iw s.betaX s.E s.G)
        (S5R.Mo A (S5R.le A k s.kl s.kr s.l) s.Iy s.J s.Iw s.betaX s.E s.G) := fun k hk =>
    Mo_w hA hu (le_v hA hu (w.rg k hk) hs.kl.rg hs.kr.rg hs.l.rg) hs.Iy.rg hs.J.rg (SizedOrZero.rgN hs.Iw) hs.betaX.rg hs.E.rg hs.G.rg
  have fin : ∀ a, Rg .any (-60) 600 a → S5R.Mb A.patch (S5R.Ms A.patch s.fy s.Ze) s.alphaM a = S5R.Mb A (S5R.Ms A s.fy s.Ze) s.alphaM a :=
    fun a ha => ((hs.alphaM.rg.v.mul hA hu ha.v).mul hA hu vM).eq
  constructor
  · rintro ⟨k, Mo, a, h1, h2, h3, h4⟩
    have w2 := key k h1
    have w3 := alphaS_w hA hu vM (w2.rg Mo h2)
    exact ⟨k, Mo, a, h1, by rw [w2.eq]; exact h2, by rw [w3.eq]; exact h3, by rw [fin a (w3.rg a h3)]; exact h4⟩
  · rintro ⟨k, Mo, a, h1, h2, h3, h4⟩
    have w2 := key k h1
    rw [w2.eq] at h2
    have w3 := alphaS_w hA hu vM (w2.rg Mo h2)
    rw [w3.eq] at h3
    exact ⟨k, Mo, a, h1, h2, h3, by rw [← fin a (w3.rg a h3)]; exact h4⟩

theorem alphaV_w (hA : Ieee A u) (hu : u ≤ 1 / 2) {dp tw fy lim fref : ℝ} (hd : Rg .pos (-20) 20 dp) (ht : Rg .pos (-20) 20 tw)
    (hf : Rg .pos (-10) 40 fy) (hl : Rg .pos (-10) 20 lim) (hr : Rg .pos (-10) 40 fref) :
    W (Rg .pos (-200) 200) (S5ShearR.alphaV A.patch dp tw fy lim fref) (S5ShearR.alphaV A dp tw fy lim fref) := by
  refine W.bind (hf.v.quot hA hu hr.v) fun q hq => ?_
  refine W.bind (hq.v.root hA hu) fun r hr' => ?_
  refine W.bind (hl.v.quot hA hu hr'.v) fun m hm => ?_
  refine W.bind (hd.v.quot hA hu ht.v) fun s hs => ?_
  by_cases h : s > m
  · rw [if_pos h, if_pos h]
    refine W.bind (hm.v.quot hA hu hs.v) fun v hv => ?_
    have := hv.v.sq hA hu
    exact W.pure this.eq this.rg.mono
  · rw [if_neg h, if_neg h]
    exact W.pure rfl one_v.rg.mono

theorem web_iff (hA : Ieee A u) (hu : u ≤ 1 / 2) {dp tw fy lim fref ratio : ℝ} (hd : Rg .pos (-20) 20 dp) (ht : Rg .pos (-20) 20 tw)
    (hf : Rg .pos (-10) 40 fy) (hl : Rg .pos (-10) 20 lim) (hr : Rg .pos (-10) 40 fref) (hq : Rg .pos (-10) 10 ratio) (v : ℝ) :
    WebComputed A dp tw fy lim fref ratio v ↔ WebComputed A.patch dp tw fy lim fref ratio v := by
  have w := alphaV_w hA hu hd ht hf hl hr
  unfold WebComputed
  rw [w.eq]
  have fin : ∀ a, Rg .pos (-200) 200 a → A.patch.mul a (S5ShearR.VwGeneric A.patch (A.patch.mul dp tw) fy ratio) =
      A.mul a (S5ShearR.VwGeneric A (A.mul dp tw) fy ratio) := fun a ha =>
    (ha.v.mul hA hu ((hq.v.mul hA hu hf.v).mul hA hu (hd.v.mul hA hu ht.v))).eq
  constructor
  · rintro ⟨a, h1, h2⟩
    exact ⟨a, h1, by rw [fin a (w.rg a h1)]; exact h2⟩
  · rintro ⟨a, h1, h2⟩
    exact ⟨a, h1, by rw [← fin a (w.rg a h1)]; exact h2⟩

theorem aPlate_w (hA : Ieee A u) (hu : u ≤ 1 / 2) {b t fy ley fref : ℝ} (hb : Rg .pos (-20) 20 b) (ht : Rg .pos (-20) 20 t)
    (hf : Rg .pos (-10) 40 fy) (hl : Rg .pos (-10) 20 ley) (hr : Rg .pos (-10) 40 fref) :
    W (Rg .pos (-200) 200) (EffectiveR.aPlate A.patch b t fy ley fref) (EffectiveR.aPlate A b t fy ley fref) := by
  have w1 : W (Rg .pos (-80) 80) (EffectiveR.lambdaPlate A.patch b t fy fref) (EffectiveR.lambdaPlate A b t fy fref) := by
    refine W.bind (hb.v.quot hA hu ht.v) fun s hs => ?_
    refine W.bind (hf.v.quot hA hu hr.v) fun q hq => ?_
    refine W.bind (hq.v.root hA hu) fun r hr' => ?_
    have := hs.v.mul hA hu hr'.v
    exact W.pure this.eq this.rg.mono
  refine W.bind w1 fun le hle => ?_
  have w2 : W (Rg .pos (-130) 140) (EffectiveR.bPlate A.patch b le ley) (EffectiveR.bPlate A b le ley) := by
    refine W.bind (hl.v.quot hA hu hle.v) fun q hq => ?_
    have := (hb.v.mul hA hu hq.v).min hb.v
    exact W.pure this.eq this.rg.mono
  refine W.bind w2 fun be hbe => ?_
  have := hbe.v.mul hA hu ht.v
  exact W.pure this.eq this.rg.mono

theorem dCHS_w (hA : Ieee A u) (hu : u ≤ 1 / 2) {d le ley : ℝ} (hd : Rg .pos (-20) 20 d) (hl : Rg .pos (-60) 60 le) (hy : Rg .pos (-10) 20 ley) :
    W (Rg .pos (-300) 300) (EffectiveR.dCHS A.patch d le ley) (EffectiveR.dCHS A d le ley) := by
  refine W.bind (hy.v.quot hA hu hl.v) fun q hq => ?_
  refine W.bind (hq.v.root hA hu) fun r hr => ?_
  refine W.bind ((three_v.mul hA hu hy.v).quot hA hu hl.v) fun q3 hq3 => ?_
  have := ((hd.v.mul hA hu hr.v).min (hd.v.mul hA hu (hq3.v.sq hA hu))).min hd.v
  exact W.pure this.eq this.rg.mono

end

end BeamDesign
