import Verif.Lemmas.IeeeS5

/-!
# Ranges in the section 6 formulas
-/

namespace BeamDesign

open Spec

section
variable {A : Arith ℝ} {u : ℝ}

/-- a quotient whose size is known -/
theorem V.quot' (hA : Ieee A u) (hu : u ≤ 1 / 2) {s s' : Sgn} {l h l' h' : ℤ} {x x' y y' : ℝ} (hx : V s l h x x') (hy : V s' l' h' y y')
    {m n : ℤ} (hb : y' ≠ 0 → (2 : ℝ) ^ m ≤ |x' / y'| ∧ |x' / y'| ≤ 2 ^ n) (h1 : -1022 ≤ m := by decide) (h2 : n ≤ 1022 := by decide) :
    W (Rg (s.div s') (m - 1) (n + 1)) (A.patch.quot x y) (A.quot x' y') := by
  obtain ⟨rfl, hx⟩ := hx
  obtain ⟨rfl, hy⟩ := hy
  unfold Arith.quot
  rcases eq_or_ne y 0 with h0 | h0
  · rw [if_pos h0, if_pos h0]
    exact ⟨rfl, fun v hv => by cases hv⟩
  · rw [if_neg h0, if_neg h0]
    have z : x / y = 0 ∨ ((2 : ℝ) ^ m ≤ |x / y| ∧ |x / y| ≤ 2 ^ n) := Or.inr (hb h0)
    have nn := normal_of z h1 h2
    exact W.pure (if_pos ⟨hx.flt, hy.flt, h0, nn⟩)
      (Rg.of_near hu (hA.div _ _ hx.flt hy.flt h0 nn) (sgn_div hx.sgn hy.sgn h0) z)

theorem V.max0 {s : Sgn} {l h : ℤ} {x x' : ℝ} (hx : V s l h x x') : V .nonneg l h (max x 0) (max x' 0) := by
  obtain ⟨rfl, hx⟩ := hx
  refine ⟨rfl, ?_⟩
  rcases le_total x 0 with h0 | h0
  · rw [max_eq_right h0]
    exact ⟨⟨0, 0, by norm_num, by norm_num, by norm_num, by simp⟩, le_rfl, Or.inl rfl⟩
  · rw [max_eq_left h0]
    exact ⟨hx.flt, h0, hx.size⟩

theorem le6_v (hA : Ieee A u) (hu : u ≤ 1 / 2) {l ke : ℝ} (hl : Rg .pos (-20) 20 l) (hk : Rg .pos (-10) 10 ke) :
    V .pos (-31) 31 (S6R.le A.patch l ke) (S6R.le A l ke) := (hl.v.mul hA hu hk.v).mono

theorem ns_v (hA : Ieee A u) (hu : u ≤ 1 / 2) {An kf fy : ℝ} (hAn : Rg .pos (-40) 40 An) (hk : Rg .pos (-10) 1 kf) (hf : Rg .pos (-10) 40 fy) :
    V .pos (-70) 90 (S6R.Ns A.patch (S6R.Ae A.patch An kf) fy) (S6R.Ns A (S6R.Ae A An kf) fy) :=
  ((hAn.v.mul hA hu hk.v).mul hA hu hf.v).mono

/-- the quotient of the rounded effective length and the radius -/
theorem slender {le r x : ℝ} (hr : 0 < r) (hx : 0 < x) (hle : |le - x| ≤ u * |x|) (hu : u ≤ 1 / 2)
    (h : (2 : ℝ) ^ (-16 : ℤ) ≤ x / r ∧ x / r ≤ 2 ^ (16 : ℤ)) : (2 : ℝ) ^ (-17 : ℤ) ≤ |le / r| ∧ |le / r| ≤ 2 ^ (17 : ℤ) := by
  have h1 : |le - x| ≤ 1 / 2 * x := by
    rw [abs_of_pos hx] at hle
    exact hle.trans (mul_le_mul_of_nonneg_right hu hx.le)
  rw [abs_le] at h1
  have p : 0 < le := by linarith
  rw [abs_of_pos (by positivity)]
  have a : x / r / 2 ≤ le / r := by rw [div_div, div_le_div_iff₀ (by positivity) hr]; nlinarith
  have b : le / r ≤ 2 * (x / r) := by rw [← mul_div_assoc, div_le_div_iff_of_pos_right hr]; linarith
  constructor
  · refine le_trans (le_of_eq ?_) (le_trans (div_le_div_of_nonneg_right h.1 (by norm_num : (0:ℝ) ≤ 2)) a)
    norm_num
  · refine b.trans ((mul_le_mul_of_nonneg_left h.2 (by norm_num : (0:ℝ) ≤ 2)).trans (le_of_eq ?_))
    norm_num

theorem alphaC_w (hA : Ieee A u) (hu : u ≤ 1 / 2) {ln ab : ℝ} (hl : Rg .pos (-33) 33 ln) (hb : Rg .any (-20) 1 ab) :
    W (fun c => Rg .any (-900) 900 c.alphaC) (S6R.alphaC A.patch ln ab) (S6R.alphaC A ln ab) := by
  have v2100 : V .pos 11 12 (2100 : ℝ) 2100 := (Rg.nat 2100 11 12).v
  have v2050 : V .pos 11 12 (2050 : ℝ) 2050 := (Rg.nat 2050 11 12).v
  have v90 : V .pos 6 7 (90 : ℝ) 90 := (Rg.nat 90 6 7).v
  have l135 := V.lit hA hu (27 / 2) (l := 3) (h := 4) (by norm_num) (by norm_num)
  have l153 := V.lit hA hu (153 / 10) (l := 3) (h := 4) (by norm_num) (by norm_num)
  have l326 := V.lit hA hu (326 / 100000) (l := -9) (h := 0) (by norm_num) (by norm_num)
  refine W.bind ((v2100.mul hA hu (hl.v.sub hA hu l135)).quot hA hu
    (((hl.v.self hA hu).sub hA hu (l153.mul hA hu hl.v)).add hA hu v2050)) fun aa haa => ?_
  have lam := hl.v.add hA hu (haa.v.mul hA hu hb.v)
  have eta := (l326.mul hA hu (lam.sub hA hu l135)).max0
  have uu := (lam.div hA hu v90 (by norm_num)).sq hA hu
  refine W.bind (P := Rg .pos (-205) 397) (((uu.add hA hu one_v).add hA hu eta).quot hA hu (two_v.mul hA hu uu) |>.mono fun v hv => hv.mono) fun xi hxi => ?_
  refine W.bind (P := Rg .any (-900) 900) ?_ fun ac hac => W.pure ?_ hac
  · refine W.bind (v90.quot hA hu (hxi.v.mul hA hu lam)) fun t ht => ?_
    refine W.bind ((one_v.sub hA hu (ht.v.sq hA hu)).root hA hu) fun r hr => ?_
    have := hxi.v.mul hA hu (one_v.sub hA hu hr.v)
    exact W.pure this.eq this.rg.mono
  · simp only [S6R.AlphaC.mk.injEq, true_and, and_true]
    exact ⟨lam.eq, eta.eq⟩

theorem column_w (hA : Ieee A u) (hu : u ≤ 1 / 2) {An kf l ke r fy fref ab : ℝ} (hAn : Rg .pos (-40) 40 An) (hk : Rg .pos (-10) 1 kf)
    (hl : Rg .pos (-20) 20 l) (hke : Rg .pos (-10) 10 ke) (hr : Rg .pos (-20) 20 r) (hf : Rg .pos (-10) 40 fy) (hfr : Rg .pos (-10) 40 fref)
    (hb : Rg .any (-20) 1 ab) (hs : (2 : ℝ) ^ (-16 : ℤ) ≤ l * ke / r ∧ l * ke / r ≤ 2 ^ (16 : ℤ))
    (hg : (2 : ℝ) ^ (-8 : ℤ) ≤ fy / fref ∧ fy / fref ≤ 2 ^ (8 : ℤ)) :
    W (fun x => Rg .any (-980) 1000 x.1) (S6R.NcFlexural A.patch An kf (S6R.le A.patch l ke) r fy fref ab)
      (S6R.NcFlexural A An kf (S6R.le A l ke) r fy fref ab) := by
  have pr : 0 < r := hr.sgn
  have px : 0 < l * ke := mul_pos hl.sgn hke.sgn
  have nl : Near u (A.mul l ke) (l * ke) := hA.mul _ _ hl.flt hke.flt (normal_of (size_mul hl hke) (by decide) (by decide))
  have w1 : W (Rg .pos (-33) 33) (S6R.lambdaN A.patch kf (S6R.le A.patch l ke) r fy fref) (S6R.lambdaN A kf (S6R.le A l ke) r fy fref) := by
    refine W.bind ((le6_v hA hu hl hke).quot' hA hu hr.v (fun _ => slender pr px nl.2 hu hs)) fun s hs' => ?_
    refine W.bind (hk.v.root hA hu) fun a ha => ?_
    refine W.bind (hf.v.quot' hA hu hfr.v (m := -8) (n := 8) (fun _ => ?_)) fun q hq => ?_
    · rw [abs_of_pos (div_pos hf.sgn hfr.sgn)]; exact hg
    refine W.bind (hq.v.root hA hu) fun b hb' => ?_
    have := (hs'.v.mul hA hu ha.v).mul hA hu hb'.v
    exact W.pure this.eq this.rg.mono
  refine W.bind w1 fun ln hln => ?_
  refine W.bind (alphaC_w hA hu hln hb) fun ac hac => ?_
  have := (ns_v hA hu hAn hk hf).mul hA hu hac.v
  exact W.pure (by rw [this.eq]) this.rg.mono

/-! ## Torsion -/

theorem fEuler_w (hA : Ieee A u) (hu : u ≤ 1 / 2) {E le le' r : ℝ} (hE : Rg .pos (-10) 40 E) (hl : V .pos (-31) 31 le le')
    (hr : Rg .pos (-20) 20 r) : W (Rg .pos (-120) 160) (S6R.fEuler A.patch E le r) (S6R.fEuler A E le' r) := by
  refine W.bind (hl.quot hA hu hr.v) fun s hs => ?_
  exact (((piD_rg.v.mul hA hu piD_rg.v).mul hA hu hE.v).quot hA hu (hs.v.self hA hu)).mono fun v hv => hv.mono

theorem rol_w (hA : Ieee A u) (hu : u ≤ 1 / 2) {rx ry xo yo : ℝ} (hx : Rg .pos (-20) 20 rx) (hy : Rg .pos (-20) 20 ry)
    (hxo : Rg .any (-60) 20 xo) (hyo : Rg .any (-60) 20 yo) :
    W (Rg .pos (-24) 26) (S6R.rol A.patch rx ry xo yo) (S6R.rol A rx ry xo yo) :=
  (((((hx.v.self hA hu).add hA hu (hy.v.self hA hu)).add hA hu (hxo.v.self hA hu)).add hA hu (hyo.v.self hA hu)).root hA hu).mono
    fun v hv => hv.mono

theorem fEulerTorsion_w (hA : Ieee A u) (hu : u ≤ 1 / 2) {An lez lez' rx ry xo yo J Iw E G : ℝ} (hAn : Rg .pos (-40) 40 An)
    (hl : V .pos (-31) 31 lez lez') (hx : Rg .pos (-20) 20 rx) (hy : Rg .pos (-20) 20 ry) (hxo : Rg .any (-60) 20 xo)
    (hyo : Rg .any (-60) 20 yo) (hJ : Rg .pos (-60) 60 J) (hw : Rg .nonneg (-80) 80 Iw) (hE : Rg .pos (-10) 40 E)
    (hG : Rg .pos (-10) 40 G) :
    W (Rg .pos (-180) 470) (S6R.fEulerTorsion A.patch An lez rx ry xo yo J Iw E G) (S6R.fEulerTorsion A An lez' rx ry xo yo J Iw E G) := by
  refine W.bind (rol_w hA hu hx hy hxo hyo) fun ro hro => ?_
  have gj := hG.v.mul hA hu hJ.v
  refine W.bind (gj.quot hA hu ((hAn.v.mul hA hu hro.v).mul hA hu hro.v)) fun a ha => ?_
  refine W.bind ((((piD_rg.v.mul hA hu piD_rg.v).mul hA hu hE.v).mul hA hu hw.v).quot hA hu (gj.mul hA hu (hl.self hA hu))) fun b hb => ?_
  have := ha.v.mul hA hu (one_v.add hA hu hb.v)
  exact W.pure this.eq this.rg.mono

/-- a stress in the range, or a complex number -/
def Stress.Rg (l h : ℤ) : S6R.Stress ℝ → Prop
  | .real x => BeamDesign.Rg .any l h x
  | .complex => True

theorem foxz_w (hA : Ieee A u) (hu : u ≤ 1 / 2) {An lex lex' lez lez' rx ry xo yo J Iw E G : ℝ} (hAn : Rg .pos (-40) 40 An)
    (hlx : V .pos (-31) 31 lex lex') (hl : V .pos (-31) 31 lez lez') (hx : Rg .pos (-20) 20 rx) (hy : Rg .pos (-20) 20 ry)
    (hxo : Rg .any (-60) 20 xo) (hyo : Rg .any (-60) 20 yo) (hJ : Rg .pos (-60) 60 J) (hw : Rg .nonneg (-80) 80 Iw)
    (hE : Rg .pos (-10) 40 E) (hG : Rg .pos (-10) 40 G) :
    W (Stress.Rg (-400) 600) (S6R.foxz A.patch An lex lez rx ry xo yo J Iw E G) (S6R.foxz A An lex' lez' rx ry xo yo J Iw E G) := by
  refine W.bind (rol_w hA hu hx hy hxo hyo) fun ro hro => ?_
  refine W.bind (hxo.v.quot hA hu hro.v) fun q hq => ?_
  refine W.bind (fEuler_w hA hu hE hlx hx) fun fox hfox => ?_
  refine W.bind (fEulerTorsion_w hA hu hAn hl hx hy hxo hyo hJ hw hE hG) fun foz hfoz => ?_
  have be := one_v.sub hA hu (hq.v.sq hA hu)
  unfold S6R.solveFoxz
  refine W.bind (one_v.quot hA hu (two_v.mul hA hu be)) fun h hh => ?_
  have s := hfox.v.add hA hu hfoz.v
  have four : V .pos 2 2 (4 : ℝ) 4 := (Rg.nat 4 2 2).v
  have d := (s.sq hA hu).sub hA hu (((four.mul hA hu be).mul hA hu hfox.v).mul hA hu hfoz.v)
  dsimp only
  rw [d.eq]
  rcases lt_or_ge (A.sub (A.sq (A.add fox foz)) (A.mul (A.mul (A.mul 4 (A.sub 1 (A.sq q))) fox) foz)) 0 with g | g
  · rw [if_pos g, if_pos g]
    exact W.pure rfl trivial
  · rw [if_neg (not_lt.2 g), if_neg (not_lt.2 g)]
    have r := d.sqrt hA hu g
    rw [d.eq] at r
    have := hh.v.mul hA hu (s.sub hA hu r)
    exact W.pure (by rw [this.eq]) this.rg.mono

/-- the sizes of the member given to the torsional check -/
structure BarRange (m : S6R.Bar ℝ) (m' : S6R.Bar ℝ) : Prop where
  eq : m.An = m'.An ∧ m.rx = m'.rx ∧ m.ry = m'.ry ∧ m.xo = m'.xo ∧ m.yo = m'.yo ∧ m.J = m'.J ∧ m.Iw = m'.Iw ∧ m.E = m'.E ∧ m.G = m'.G
  An : Rg .pos (-40) 40 m'.An
  lex : V .pos (-31) 31 m.lex m'.lex
  ley : V .pos (-31) 31 m.ley m'.ley
  lez : V .pos (-31) 31 m.lez m'.lez
  rx : Rg .pos (-20) 20 m'.rx
  ry : Rg .pos (-20) 20 m'.ry
  xo : Rg .any (-60) 20 m'.xo
  yo : Rg .any (-60) 20 m'.yo
  J : Rg .pos (-60) 60 m'.J
  Iw : Rg .nonneg (-80) 80 m'.Iw
  E : Rg .pos (-10) 40 m'.E
  G : Rg .pos (-10) 40 m'.G

theorem foc_w (hA : Ieee A u) (hu : u ≤ 1 / 2) {m m' : S6R.Bar ℝ} (hm : BarRange m m') (k : S6R.Sym) :
    W (Rg .any (-400) 600) (S6R.foc A.patch m k) (S6R.foc A m' k) := by
  obtain ⟨⟨e1, e2, e3, e4, e5, e6, e7, e8, e9⟩, g1, g2, g3, g4, g5, g6, g7, g8, g9, g10, g11, g12⟩ := hm
  have wx := foxz_w hA hu g1 g2 g4 g5 g6 g7 g8 g9 g10 g11 g12
  have wy := foxz_w hA hu g1 g3 g4 g6 g5 g8 g7 g9 g10 g11 g12
  have wz := fEulerTorsion_w hA hu g1 g4 g5 g6 g7 g8 g9 g10 g11 g12
  cases k with
  | double =>
    unfold S6R.foc S6R.focDouble
    rw [e1, e2, e3, e4, e5, e6, e7, e8, e9]
    refine W.bind wx fun f hf => W.bind wz fun z hz => ?_
    cases f with
    | real x =>
      have hf' : Rg .any (-400) 600 x := hf
      exact W.pure rfl (hf'.min hz.toAny).mono
    | complex => exact ⟨rfl, fun v hv => by cases hv⟩
  | point =>
    unfold S6R.foc S6R.focPoint
    rw [e1, e2, e3, e4, e5, e6, e7, e8, e9]
    exact wz.mono fun v hv => hv.toAny.mono
  | single x =>
    unfold S6R.foc S6R.focSingle
    rw [e1, e2, e3, e4, e5, e6, e7, e8, e9]
    have w : W (Stress.Rg (-400) 600)
        (if x then S6R.foxz A.patch m'.An m.lex m.lez m'.rx m'.ry m'.xo m'.yo m'.J m'.Iw m'.E m'.G
          else S6R.foxz A.patch m'.An m.ley m.lez m'.ry m'.rx m'.yo m'.xo m'.J m'.Iw m'.E m'.G)
        (if x then S6R.foxz A m'.An m'.lex m'.lez m'.rx m'.ry m'.xo m'.yo m'.J m'.Iw m'.E m'.G
          else S6R.foxz A m'.An m'.ley m'.lez m'.ry m'.rx m'.yo m'.xo m'.J m'.Iw m'.E m'.G) := by
      cases x
      · exact wy
      · exact wx
    refine W.bind w fun f hf => ?_
    cases f with
    | real x => exact W.pure rfl hf
    | complex => exact ⟨rfl, fun v hv => by cases hv⟩

theorem curve_w (hA : Ieee A u) (hu : u ≤ 1 / 2) {pw : ℝ → ℝ → ℝ} (hp : IeeePow pw u) {fy foc : ℝ} (hf : Rg .pos (-10) 40 fy)
    (hc : Rg .any (-400) 600 foc) :
    W (fun x => Rg .any (-600) 800 x.2) (S6R.columnCurve A.patch (patchPow pw) fy foc) (S6R.columnCurve A pw fy foc) := by
  have l658 := V.lit hA hu (658 / 1000) (l := -1) (h := 0) (by norm_num) (by norm_num)
  have l877 := V.lit hA hu (877 / 1000) (l := -1) (h := 0) (by norm_num) (by norm_num)
  refine W.bind (hf.v.quot hA hu hc.v) fun q hq => ?_
  refine W.bind (hq.v.root hA hu) fun lc hlc => ?_
  have sq := hlc.v.self hA hu
  by_cases h : lc ≤ 3 / 2
  · rw [if_pos h, if_pos h]
    have n0 : 0 ≤ lc := hlc.sgn
    have a0 : 0 < A.lit (658 / 1000) := l658.rg.sgn
    have a1 : |A.lit (658 / 1000) - ((658 / 1000 : ℚ) : ℝ)| ≤ 1 / 2 * |((658 / 1000 : ℚ) : ℝ)| :=
      (hA.lit _ (normal_of (m := -1) (n := 0) (Or.inr (by norm_num [abs_of_pos])) (by decide) (by decide))).2.trans (mul_le_mul_of_nonneg_right hu (abs_nonneg _))
    have b0 : 0 ≤ A.mul lc lc := sq.rg.sgn
    have b1 : |A.mul lc lc - lc * lc| ≤ 1 / 2 * |lc * lc| :=
      (hA.mul _ _ hlc.flt hlc.flt (normal_of (size_mul hlc hlc) (by decide) (by decide))).2.trans
        (mul_le_mul_of_nonneg_right hu (abs_nonneg _))
    rw [abs_of_nonneg (mul_nonneg n0 n0), abs_le] at b1
    have b2 : A.mul lc lc ≤ 4 := by nlinarith [b1.2]
    norm_num [abs_le] at a1
    have lo : (2 : ℝ) ^ (-8 : ℤ) ≤ A.lit (658 / 1000) ^ A.mul lc lc := by
      have c1 : (1 / 4 : ℝ) ^ (4 : ℝ) ≤ A.lit (658 / 1000) ^ (4 : ℝ) :=
        Real.rpow_le_rpow (by norm_num) (by linarith [a1.1]) (by norm_num)
      have c2 := Real.rpow_le_rpow_of_exponent_ge a0 (by norm_num; linarith [a1.2]) b2
      refine le_trans ?_ (c1.trans c2)
      norm_num
    have hi : A.lit (658 / 1000) ^ A.mul lc lc ≤ (2 : ℝ) ^ (0 : ℤ) := by
      rw [zpow_zero]
      exact Real.rpow_le_one a0.le (by norm_num; linarith [a1.2]) b0
    have pp := Real.rpow_pos_of_pos a0 (A.mul lc lc)
    have z : A.lit (658 / 1000) ^ A.mul lc lc = 0 ∨ ((2 : ℝ) ^ (-8 : ℤ) ≤ |A.lit (658 / 1000) ^ A.mul lc lc| ∧
        |A.lit (658 / 1000) ^ A.mul lc lc| ≤ 2 ^ (0 : ℤ)) := Or.inr (by rw [abs_of_pos pp]; exact ⟨lo, hi⟩)
    have nn := normal_of z (by decide) (by decide)
    have vp : V .pos (-8 - 1) (0 + 1) (patchPow pw (A.patch.lit (658 / 1000)) (A.patch.mul lc lc)) (pw (A.lit (658 / 1000)) (A.mul lc lc)) := by
      rw [l658.eq, sq.eq]
      exact ⟨if_pos ⟨l658.rg.flt, sq.rg.flt, a0, nn⟩, Rg.of_near hu (hp _ _ l658.rg.flt sq.rg.flt a0 nn) pp z⟩
    have := hf.v.mul hA hu vp
    exact W.pure (by rw [this.eq]) this.rg.toAny.mono
  · rw [if_neg h, if_neg h]
    refine W.bind (l877.quot hA hu sq) fun v hv => ?_
    have := hf.v.mul hA hu hv.v
    exact W.pure (by rw [this.eq]) this.rg.toAny.mono

theorem torsion_w (hA : Ieee A u) (hu : u ≤ 1 / 2) {pw : ℝ → ℝ → ℝ} (hp : IeeePow pw u) {m m' : S6R.Bar ℝ} (hm : BarRange m m')
    {kf fy unc : ℝ} (hk : Rg .pos (-10) 1 kf) (hf : Rg .pos (-10) 40 fy) (hn : Rg .pos (-10) 10 unc) (k : S6R.Sym) :
    W (Rg .any (-700) 900) (S6R.NcTorsion A.patch (patchPow pw) m kf fy k unc) (S6R.NcTorsion A pw m' kf fy k unc) := by
  have hAn := hm.An
  refine W.bind (foc_w hA hu hm k) fun f hf' => ?_
  refine W.bind (curve_w hA hu hp hf hf') fun p hp' => ?_
  unfold S6R.Ae
  rw [hm.eq.1]
  have := (hn.v.mul hA hu (hAn.v.mul hA hu hk.v)).mul hA hu hp'.v
  exact W.pure this.eq this.rg.mono

theorem ncMember_eq (hA : Ieee A u) (hu : u ≤ 1 / 2) {pw : ℝ → ℝ → ℝ} (hp : IeeePow pw u) {a : S6R.Args ℝ} (ha : Args.InRange a) :
    S6R.Nc A.patch (patchPow pw) a = S6R.Nc A pw a := by
  have ns := ns_v hA hu ha.An.rg ha.kf.rg ha.fy.rg
  have ph := ha.phi.rg
  have wx := column_w hA hu ha.An.rg ha.kf.rg ha.l.rg ha.kex.rg ha.rx.rg ha.fy.rg ha.fref.rg ha.alphaB.rg ha.slenderX ha.grade
  have wy := column_w hA hu ha.An.rg ha.kf.rg ha.l.rg ha.key.rg ha.ry.rg ha.fy.rg ha.fref.rg ha.alphaB.rg ha.slenderY ha.grade
  have bar : BarRange (a.bar A.patch) (a.bar A) :=
    ⟨⟨rfl, rfl, rfl, rfl, rfl, rfl, rfl, rfl, rfl⟩, ha.An.rg, le6_v hA hu ha.l.rg ha.kex.rg, le6_v hA hu ha.l.rg ha.key.rg,
      le6_v hA hu ha.l.rg ha.kez.rg, ha.rx.rg, ha.ry.rg, ha.xo.rg, ha.yo.rg, ha.J.rg, SizedOrZero.rgN ha.Iw, ha.E.rg, ha.G.rg⟩
  have wt := torsion_w hA hu hp bar ha.kf.rg ha.fy.rg ha.uncertainty.rg a.sym
  unfold S6R.Nc S6R.NcWith
  have e0 := (ph.v.mul hA hu ns).eq
  rw [ns.eq] at e0
  cases hb : a.calcBuckling with
  | false => simp only [Bool.false_eq_true, if_false, ns.eq, e0]
  | true =>
    simp only [if_true]
    rw [ns.eq, e0]
    refine (W.bind (Q := fun _ => True) wx fun bx hbx => W.bind wy fun by' hby => ?_).eq
    have nsA : Rg .any (-980) 1000 (S6R.Ns A (S6R.Ae A a.An a.kf) a.fy) := ns.rg.toAny.mono
    have mx : Rg .any (-980) 1000 (min bx.1 (S6R.Ns A (S6R.Ae A a.An a.kf) a.fy)) := (hbx.min nsA).mono
    have my : Rg .any (-980) 1000 (min by'.1 (S6R.Ns A (S6R.Ae A a.An a.kf) a.fy)) := (hby.min nsA).mono
    rw [(ph.v.mul hA hu mx.v).eq, (ph.v.mul hA hu my.v).eq]
    cases ht : a.calcTorsion with
    | false => exact W.pure rfl trivial
    | true =>
      simp only [if_true]
      refine W.bind wt fun t htt => ?_
      have mt : Rg .any (-980) 1000 (min (S6R.Ns A (S6R.Ae A a.An a.kf) a.fy) t) := (nsA.min htt).mono
      have mn := ((nsA.min mx).min my).min mt
      rw [(ph.v.mul hA hu mt.v).eq, (ph.v.mul hA hu mn.v).eq]
      exact W.pure rfl trivial

end

end BeamDesign
