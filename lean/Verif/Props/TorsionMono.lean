import Verif.Spec.TorsionMono
import Verif.Props.S6
import Verif.Props.Torsion
import Verif.Props.Yield

/-!
# C107, C108: what makes a member weaker against torsional buckling
-/

namespace BeamDesign

open Spec

/-- the smaller root of `(a - f) (b - f) = g f²` grows with `a` and `b` and falls with `g` -/
theorem root_mono {a b g f a' b' g' f' : ℝ} (hg : 0 ≤ g') (hf : 0 < f) (ha : f ≤ a) (hb : f ≤ b)
    (h : (a - f) * (b - f) = g * f ^ 2) (hf' : 0 < f') (ha' : f' ≤ a') (hb' : f' ≤ b') (h' : (a' - f') * (b' - f') = g' * f' ^ 2)
    (la : a' ≤ a) (lb : b' ≤ b) (lg : g ≤ g') : f' ≤ f := by
  by_contra hc
  push Not at hc
  have e1 : (a' - f') * (b' - f') ≤ (a - f') * (b - f') := by
    apply mul_le_mul <;> linarith
  have e2 : (a - f') * (b - f') ≤ (a - f) * (b - f) := by
    apply mul_le_mul <;> linarith
  have e3 : f ^ 2 < f' ^ 2 := by nlinarith
  have e4 : g * f ^ 2 ≤ g' * f ^ 2 := mul_le_mul_of_nonneg_right lg (sq_nonneg f)
  have e5 : g' * f ^ 2 ≤ g' * f' ^ 2 := mul_le_mul_of_nonneg_left e3.le hg
  -- all are equalities, so the two factors vanish
  have z : (a - f') * (b - f') = (a - f) * (b - f) := by linarith
  have ga : 0 ≤ a - f' := by linarith
  have gb : 0 ≤ b - f' := by linarith
  nlinarith

/-- the flexural-torsional stress falls with the lengths and the distance of the shear centre and grows with the stiffnesses -/
theorem foxz_mono {An lex lez rx ry xo yo J Iw E G lex' lez' xo' J' Iw' E' G' : ℝ} (hA : 0 < An) (hlx : 0 < lex) (hlz : 0 < lez)
    (hrx : 0 < rx) (hJ : 0 < J') (hIw : 0 ≤ Iw') (hE : 0 < E') (hG : 0 < G') (gx : lex ≤ lex') (gz : lez ≤ lez')
    (go : |xo| ≤ |xo'|) (gJ : J' ≤ J) (gI : Iw' ≤ Iw) (gE : E' ≤ E) (gG : G' ≤ G) :
    ∃ f f', S6.foxz An lex lez rx ry xo yo J Iw E G = .ok f ∧ S6.foxz An lex' lez' rx ry xo' yo J' Iw' E' G' = .ok f' ∧
      0 < f'.foxz ∧ f'.foxz ≤ f.foxz ∧ 0 < f'.foz ∧ f'.foz ≤ f.foz ∧
      S6.fEulerTorsion An lez rx ry xo yo J Iw E G = .ok f.foz ∧
      S6.fEulerTorsion An lez' rx ry xo' yo J' Iw' E' G' = .ok f'.foz := by
  have hp : (0 : ℝ) < piD := piD_pos
  have hJ' := hJ.trans_le gJ
  have hIw' := hIw.trans gI
  have hE' := hE.trans_le gE
  have hG' := hG.trans_le gG
  have hlx' := hlx.trans_le gx
  have hlz' := hlz.trans_le gz
  obtain ⟨f, e, ex, ez, p, px, pz, q, -⟩ := C52_foxz (ry := ry) (xo := xo) (yo := yo) hA hlx hlz hrx hJ' hIw' hE' hG'
  obtain ⟨f', e', ex', ez', p', px', pz', q', -⟩ := C52_foxz (ry := ry) (xo := xo') (yo := yo) hA hlx' hlz' hrx hJ hIw hE hG
  have go2 : xo ^ 2 ≤ xo' ^ 2 := sq_le_sq.2 go
  set R := rx ^ 2 + ry ^ 2 + yo ^ 2 with hR
  have pR : 0 < R := by positivity
  have r1 : rx ^ 2 + ry ^ 2 + xo ^ 2 + yo ^ 2 = R + xo ^ 2 := by rw [hR]; ring
  have r2 : rx ^ 2 + ry ^ 2 + xo' ^ 2 + yo ^ 2 = R + xo' ^ 2 := by rw [hR]; ring
  rw [r1] at q
  rw [r2] at q'
  have lz : f'.foz ≤ f.foz := by
    have c1 : f.foz = (G * J + piD * piD * E * Iw / (lez * lez)) / (An * (R + xo ^ 2)) := by
      rw [fEulerTorsion_ok hA hlz hrx hJ' hG', Except.ok_inj'] at ez
      rw [← ez, show roSq rx ry xo yo = R + xo ^ 2 by unfold roSq; rw [hR]; ring]
      field_simp
    have c2 : f'.foz = (G' * J' + piD * piD * E' * Iw' / (lez' * lez')) / (An * (R + xo' ^ 2)) := by
      rw [fEulerTorsion_ok hA hlz' hrx hJ hG, Except.ok_inj'] at ez'
      rw [← ez', show roSq rx ry xo' yo = R + xo' ^ 2 by unfold roSq; rw [hR]; ring]
      field_simp
    rw [c1, c2]
    gcongr
  have lx : f'.fox ≤ f.fox := by
    rw [fEuler_ok hrx.ne' hlx.ne', Except.ok_inj'] at ex
    rw [fEuler_ok hrx.ne' hlx'.ne', Except.ok_inj'] at ex'
    rw [← ex, ← ex']
    gcongr
  have lg : xo ^ 2 / (R + xo ^ 2) ≤ xo' ^ 2 / (R + xo' ^ 2) := by
    rw [div_le_div_iff₀ (by positivity) (by positivity)]
    nlinarith
  refine ⟨f, f', e, e', p', ?_, p'.trans_le pz', lz, ez, ez'⟩
  exact root_mono (g := xo ^ 2 / (R + xo ^ 2)) (g' := xo' ^ 2 / (R + xo' ^ 2)) (by positivity) p px pz (by linarith) p' px' pz'
    (by linarith) lx lz lg

/-- the buckling stress of a symmetric section -/
theorem foc_mono {m m' : Member} (hm : m.Positive) (hm' : m'.Positive) (h : NotStiffer m m') (roots : S6.Roots) {sym : Symmetry}
    (hs : HasSymmetry sym) : ∃ f f', S6.foc roots m sym = .ok f ∧ S6.foc roots m' sym = .ok f' ∧ 0 < f' ∧ f' ≤ f := by
  obtain ⟨k, hk, hn⟩ := hs
  obtain ⟨f, f', e, e', p, l, pz, lz, ez, ez'⟩ := foxz_mono (ry := m.ry) (xo := m.xo) (xo' := m.xo) (yo := m.yo) hm.An hm.lex hm.lez
    hm.rx hm'.J hm'.Iw hm'.E hm'.G h.lex h.lez le_rfl h.J h.Iw h.E h.G
  obtain ⟨g, g', d, d', c, i, -⟩ := foxz_mono (ry := m.rx) (xo := m.yo) (xo' := m.yo) (yo := m.xo) hm.An hm.ley hm.lez
    hm.ry hm'.J hm'.Iw hm'.E hm'.G h.ley h.lez le_rfl h.J h.Iw h.E h.G
  obtain ⟨An, lex, ley, lez, rx, ry, xo, yo, J, Iw, E, G⟩ := m
  obtain ⟨An', lex', ley', lez', rx', ry', xo', yo', J', Iw', E', G'⟩ := m'
  obtain ⟨e1, e2, e3, e4, e5, -⟩ := h
  simp only at e1 e2 e3 e4 e5 e e' ez ez' d d'
  subst e1 e2 e3 e4 e5
  cases k with
  | none => exact absurd rfl hn
  | double =>
    refine ⟨min f.foxz f.foz, min f'.foxz f'.foz, ?_, ?_, lt_min p pz, min_le_min l lz⟩
    · simp only [S6.foc, hk, Except.bind_ok', S6.focDouble, e, ez]; rfl
    · simp only [S6.foc, hk, Except.bind_ok', S6.focDouble, e', ez']; rfl
  | point =>
    refine ⟨f.foz, f'.foz, ?_, ?_, pz, lz⟩
    · simp only [S6.foc, hk, Except.bind_ok', S6.focPoint, ez]
    · simp only [S6.foc, hk, Except.bind_ok', S6.focPoint, ez']
  | single =>
    have hc : sym.symcount = .ok 1 := by
      obtain ⟨_ | axes⟩ := sym
      · cases hk
      · simp only [Symmetry.symmetry, Except.ok.injEq] at hk
        simp only [Symmetry.symcount, Except.ok.injEq]
        by_contra hne
        split_ifs at hk
    simp only [S6.foc, hk, Except.bind_ok', S6.focSingle, hc, ne_eq, not_true_eq_false, if_false]
    split_ifs
    · simp only [e, e', Except.bind_ok']
      exact ⟨_, _, rfl, rfl, p, l⟩
    · simp only [d, d', Except.bind_ok']
      exact ⟨_, _, rfl, rfl, c, i⟩

/-- C107: of two symmetric members with the same area and geometry the one that is longer between its restraints or has smaller
torsion and warping constants or moduli has no larger torsional buckling capacity, also with a smaller form factor or uncertainty factor. -/
theorem C107_capacity {m m' : Member} (hm : m.Positive) (hm' : m'.Positive) (h : NotStiffer m m') (roots : S6.Roots)
    {sym : Symmetry} (hs : HasSymmetry sym) {kf kf' fy unc unc' : ℝ} (hf : 0 < fy) (hk : 0 ≤ kf') (hkk : kf' ≤ kf)
    (hu : 0 ≤ unc') (huu : unc' ≤ unc) :
    ∃ t t', S6.NcTorsion roots m kf fy sym unc = .ok t ∧ S6.NcTorsion roots m' kf' fy sym unc' = .ok t' ∧
      t'.foc ≤ t.foc ∧ t'.Ncz ≤ t.Ncz := by
  obtain ⟨f, f', e, e', p, l⟩ := foc_mono hm hm' h roots hs
  obtain ⟨t, ht, h1, hc, hN⟩ := C53_capacity (kf := kf) (unc := unc) hf e (p.trans_le l)
  obtain ⟨t', ht', h1', hc', hN'⟩ := C53_capacity (kf := kf') (unc := unc') hf e' p
  refine ⟨t, t', ht, ht', by rw [h1, h1']; exact l, ?_⟩
  obtain ⟨lc, fn, g, -, -, pf, -, -, -, hmono⟩ := C53_curve hf (p.trans_le l)
  obtain ⟨lc', fn', g', hle⟩ := hmono f' p l
  obtain ⟨lc2, fn2, g2, -, -, pf2, -⟩ := C53_curve hf p
  rw [hc] at g
  rw [hc'] at g' g2
  injection g with g
  injection g with _ g
  injection g' with g'
  injection g' with _ g'
  injection g2 with g2
  injection g2 with _ g2
  rw [hN, hN', h.An, g, g']
  have := hm.An
  have : 0 < fn' := by rw [← g', g2]; exact pf2
  have := hk.trans hkk
  have := hu.trans huu
  gcongr

/-- C107: a shear centre further from the centroid, along the axis of symmetry, does not raise the capacity of a section symmetric about x or
about both axes. -/
theorem C107_centre {m : Member} (hm : m.Positive) {xo' : ℝ} (ho : |m.xo| ≤ |xo'|) (roots : S6.Roots) {sym : Symmetry}
    (hs : sym.symmetry = .ok .double ∨ sym.axes = some [.str "x"]) {kf fy unc : ℝ} (hf : 0 < fy) (hk : 0 ≤ kf) (hu : 0 ≤ unc) :
    ∃ t t', S6.NcTorsion roots m kf fy sym unc = .ok t ∧ S6.NcTorsion roots { m with xo := xo' } kf fy sym unc = .ok t' ∧
      t'.Ncz ≤ t.Ncz := by
  obtain ⟨f, f', e, e', p, l, pz, lz, ez, ez'⟩ := foxz_mono (ry := m.ry) (yo := m.yo) hm.An hm.lex hm.lez
    hm.rx hm.J hm.Iw hm.E hm.G le_rfl le_rfl ho le_rfl le_rfl le_rfl le_rfl
  have key : ∃ F F', S6.foc roots m sym = .ok F ∧ S6.foc roots { m with xo := xo' } sym = .ok F' ∧ 0 < F' ∧ F' ≤ F := by
    rcases hs with hs | hs
    · refine ⟨min f.foxz f.foz, min f'.foxz f'.foz, ?_, ?_, lt_min p pz, min_le_min l lz⟩
      · simp only [S6.foc, hs, Except.bind_ok', S6.focDouble, e, ez]; rfl
      · simp only [S6.foc, hs, Except.bind_ok', S6.focDouble, e', ez']; rfl
    · have h1 : sym.symmetry = .ok .single := by simp [Symmetry.symmetry, hs, Axis.isStr]
      have h2 : sym.symcount = .ok 1 := by simp [Symmetry.symcount, hs]
      have h3 : (sym.axes.getD []).any (Axis.isStr "x") = true := by simp [hs, Axis.isStr]
      refine ⟨f.foxz, f'.foxz, ?_, ?_, p, l⟩
      · simp only [S6.foc, h1, Except.bind_ok', S6.focSingle, h2, ne_eq, not_true_eq_false, if_false, h3, if_true, e]; rfl
      · simp only [S6.foc, h1, Except.bind_ok', S6.focSingle, h2, ne_eq, not_true_eq_false, if_false, h3, if_true, e']; rfl
  obtain ⟨F, F', c, c', q, r⟩ := key
  obtain ⟨t, ht, h1, hc, hN⟩ := C53_capacity (kf := kf) (unc := unc) hf c (q.trans_le r)
  obtain ⟨t', ht', h1', hc', hN'⟩ := C53_capacity (kf := kf) (unc := unc) hf c' q
  refine ⟨t, t', ht, ht', ?_⟩
  obtain ⟨lc, fn, g, -, -, pf, -, -, -, hmono⟩ := C53_curve hf (q.trans_le r)
  obtain ⟨lc', fn', g', hle⟩ := hmono F' q r
  rw [hc] at g
  rw [hc'] at g'
  injection g with g
  injection g with _ g
  injection g' with g'
  injection g' with _ g'
  rw [hN, hN', g, g']
  have := hm.An
  gcongr

/-- C107: the same for a section symmetric about y. -/
theorem C107_centre_y {m : Member} (hm : m.Positive) {yo' : ℝ} (ho : |m.yo| ≤ |yo'|) (roots : S6.Roots) {sym : Symmetry}
    (hs : sym.axes = some [.str "y"]) {kf fy unc : ℝ} (hf : 0 < fy) (hk : 0 ≤ kf) (hu : 0 ≤ unc) :
    ∃ t t', S6.NcTorsion roots m kf fy sym unc = .ok t ∧ S6.NcTorsion roots { m with yo := yo' } kf fy sym unc = .ok t' ∧
      t'.Ncz ≤ t.Ncz := by
  obtain ⟨f, f', e, e', p, l, -⟩ := foxz_mono (ry := m.rx) (yo := m.xo) hm.An hm.ley hm.lez
    hm.ry hm.J hm.Iw hm.E hm.G le_rfl le_rfl ho le_rfl le_rfl le_rfl le_rfl
  have h1 : sym.symmetry = .ok .single := by simp [Symmetry.symmetry, hs, Axis.isStr]
  have h2 : sym.symcount = .ok 1 := by simp [Symmetry.symcount, hs]
  have h3 : (sym.axes.getD []).any (Axis.isStr "x") = false := by simp [hs, Axis.isStr]
  have c : S6.foc roots m sym = .ok f.foxz := by
    simp only [S6.foc, h1, Except.bind_ok', S6.focSingle, h2, ne_eq, not_true_eq_false, if_false, h3, Bool.false_eq_true, e]; rfl
  have c' : S6.foc roots { m with yo := yo' } sym = .ok f'.foxz := by
    simp only [S6.foc, h1, Except.bind_ok', S6.focSingle, h2, ne_eq, not_true_eq_false, if_false, h3, Bool.false_eq_true, e']; rfl
  obtain ⟨t, ht, -, hc, hN⟩ := C53_capacity (kf := kf) (unc := unc) hf c (p.trans_le l)
  obtain ⟨t', ht', -, hc', hN'⟩ := C53_capacity (kf := kf) (unc := unc) hf c' p
  refine ⟨t, t', ht, ht', ?_⟩
  obtain ⟨lc, fn, g, -, -, pf, -, -, -, hmono⟩ := C53_curve hf (p.trans_le l)
  obtain ⟨lc', fn', g', hle⟩ := hmono f'.foxz p l
  rw [hc, Except.ok_inj', Prod.mk.injEq] at g
  rw [hc', Except.ok_inj', Prod.mk.injEq] at g'
  rw [hN, hN', g.2, g'.2]
  have := hm.An
  gcongr

/-- the governing capacity of a member is the smallest of those of its parts -/
theorem Nc_parts {roots : S6.Roots} {a : S6.NcArgs} {r : S6.NcResult} (h : S6.Nc roots a = .ok r) {c : ℝ} :
    c ≤ r.Nc ↔ c ≤ a.An * a.kf * a.fy ∧
      (a.calcBuckling = true → ∀ bx bY, S6.NcFlexural a.An a.kf (a.l * a.kex) a.rx a.fy a.fref a.alphaB = .ok bx →
        S6.NcFlexural a.An a.kf (a.l * a.key) a.ry a.fy a.fref a.alphaB = .ok bY → c ≤ bx.Nc ∧ c ≤ bY.Nc) ∧
      (a.calcBuckling = true → a.calcTorsion = true → ∀ t, S6.NcTorsion roots a.member a.kf a.fy a.sym a.uncertainty = .ok t → c ≤ t.Ncz) := by
  obtain ⟨e1, -, hmem, hmin, hle, -, hfl, htor, hn1, hn2⟩ := C54_minimum h
  rw [← e1]
  constructor
  · intro hc
    refine ⟨hc.trans hle, ?_, ?_⟩
    · intro hb bx bY hx hy
      obtain ⟨bx', bY', hx', hy', cx, cy, -⟩ := hfl hb
      rw [hx, Except.ok_inj'] at hx'
      rw [hy, Except.ok_inj'] at hy'
      subst hx' hy'
      have l1 := hmin (min bx.Nc r.Ns) (by simp [S6.NcResult.computed, cx])
      have l2 := hmin (min bY.Nc r.Ns) (by
        simp only [S6.NcResult.computed, List.filterMap_cons, id, cx, cy, List.mem_cons]
        simp)
      exact ⟨hc.trans (l1.trans (min_le_left _ _)), hc.trans (l2.trans (min_le_left _ _))⟩
    · intro hb ht t htt
      obtain ⟨bx', bY', hx', hy', cx, cy, -⟩ := hfl hb
      obtain ⟨t', e, -, cz, -⟩ := htor hb ht
      have e' : S6.NcTorsion roots a.member a.kf a.fy a.sym a.uncertainty = .ok t' := e
      rw [htt, Except.ok_inj'] at e'
      subst e'
      have l3 := hmin (min r.Ns t.Ncz) (by
        simp only [S6.NcResult.computed, List.filterMap_cons, id, cx, cy, cz, List.mem_cons]
        simp)
      exact hc.trans (l3.trans (min_le_right _ _))
  · rintro ⟨h1, h2, h3⟩
    simp only [S6.NcResult.computed, List.mem_cons, List.mem_filterMap, id] at hmem
    cases hb : a.calcBuckling with
    | false =>
      obtain ⟨n1, n2⟩ := hn1 hb
      have n3 := hn2 (Or.inl hb)
      rw [n1, n2, n3] at hmem
      simp at hmem
      rw [hmem]; exact h1
    | true =>
      obtain ⟨bx', bY', hx', hy', cx, cy, -⟩ := hfl hb
      obtain ⟨g1, g2⟩ := h2 hb _ _ hx' hy'
      cases ht : a.calcTorsion with
      | false =>
        have n3 := hn2 (Or.inr ht)
        rw [cx, cy, n3] at hmem
        simp at hmem
        rcases hmem with e | e | e <;> rw [e]
        · exact h1
        · exact le_min g1 h1
        · exact le_min g2 h1
      | true =>
        obtain ⟨t', e, -, cz, -⟩ := htor hb ht
        have g3 := h3 hb ht t' e
        rw [cx, cy, cz] at hmem
        simp at hmem
        rcases hmem with e | e | e | e <;> rw [e]
        · exact h1
        · exact le_min g1 h1
        · exact le_min g2 h1
        · exact le_min h1 g3

/-- C107: a longer member, or one with larger effective length factors, carries no more in compression: the governing capacity of
`s6_1_1_Nc` does not increase, with and without the torsional check, for member constants `α_b` from -796591/840000 (about -0.948323) to 1 (see C51). -/
theorem C107_compression {roots : S6.Roots} {a : S6.NcArgs} {l' kex' key' kez' : ℝ} {r r' : S6.NcResult} (hm : a.member.Positive)
    (hs : HasSymmetry a.sym) (hkf : 0 < a.kf) (hfy : 0 < a.fy) (hfr : 0 < a.fref) (hu : 0 ≤ a.uncertainty) (hφ : 0 ≤ a.phi)
    (hab : -(796591 / 840000) ≤ a.alphaB) (hab1 : a.alphaB ≤ 1) (gx : a.l * a.kex ≤ l' * kex') (gy : a.l * a.key ≤ l' * key')
    (gz : a.l * a.kez ≤ l' * kez') (h : S6.Nc roots a = .ok r)
    (h' : S6.Nc roots { a with l := l', kex := kex', key := key', kez := kez' } = .ok r') :
    r'.Nc ≤ r.Nc ∧ r'.phiNc ≤ r.phiNc := by
  have key : r'.Nc ≤ r.Nc := by
    obtain ⟨l1, l2, l3⟩ := (Nc_parts h').1 le_rfl
    obtain ⟨-, -, -, -, -, -, hfl, htor, -, -⟩ := C54_minimum h'
    refine (Nc_parts h).2 ⟨l1, ?_, ?_⟩
    · intro hb bx bY hx hy
      obtain ⟨bx', bY', hx', hy', -⟩ := hfl hb
      obtain ⟨m1, m2⟩ := l2 hb _ _ hx' hy'
      exact ⟨m1.trans (C51_longer_partial hm.An hkf hm.rx hfy hfr hab hab1 hm.lex.le gx hx hx'),
        m2.trans (C51_longer_partial hm.An hkf hm.ry hfy hfr hab hab1 hm.ley.le gy hy hy')⟩
    · intro hb ht t e
      obtain ⟨t', e', -⟩ := htor hb ht
      refine (l3 hb ht t' e').trans ?_
      have hm' : (S6.NcArgs.member { a with l := l', kex := kex', key := key', kez := kez' }).Positive :=
        ⟨hm.An, hm.lex.trans_le gx, hm.ley.trans_le gy, hm.lez.trans_le gz, hm.rx, hm.ry, hm.J, hm.Iw, hm.E, hm.G⟩
      have hn : NotStiffer a.member (S6.NcArgs.member { a with l := l', kex := kex', key := key', kez := kez' }) :=
        ⟨rfl, rfl, rfl, rfl, rfl, gx, gy, gz, le_rfl, le_rfl, le_rfl, le_rfl⟩
      obtain ⟨t1, t2, e1, e2, -, hle⟩ := C107_capacity hm hm' hn roots hs hfy hkf.le le_rfl hu le_rfl
      rw [e, Except.ok_inj'] at e1
      have e3 := e'.symm.trans e2
      rw [Except.ok_inj'] at e3
      rw [e1, e3]
      exact hle
  obtain ⟨-, -, -, -, -, p, -⟩ := C54_minimum h
  obtain ⟨-, -, -, -, -, p', -⟩ := C54_minimum h'
  refine ⟨key, ?_⟩
  rw [p hφ, p' hφ]
  exact mul_le_mul_of_nonneg_left key hφ

/-- the inelastic branch grows with the yield stress -/
theorem curve_branch {x y : ℝ} (hx : 0 < x) (hxy : x ≤ y) (hy : y ≤ 9 / 4) :
    x * (658 / 1000 : ℝ) ^ x ≤ y * (658 / 1000 : ℝ) ^ y := by
  have py : 0 < y := hx.trans_le hxy
  have hlog : -(4 / 9) ≤ Real.log (658 / 1000) := by
    rw [Real.le_log_iff_exp_le (by norm_num), Real.exp_neg, inv_le_comm₀ (Real.exp_pos _) (by norm_num)]
    have := Real.quadratic_le_exp_of_nonneg (x := 4 / 9) (by norm_num)
    linarith
  have h1 : 1 - x / y ≤ Real.log (y / x) := by
    have := Real.one_sub_inv_le_log_of_pos (show 0 < y / x by positivity)
    rwa [inv_div] at this
  have h2 : (y - x) * (4 / 9) ≤ 1 - x / y := by
    rw [show 1 - x / y = (y - x) * (1 / y) by field_simp]
    apply mul_le_mul_of_nonneg_left _ (by linarith)
    rw [div_le_div_iff₀ (by norm_num) py]
    linarith
  have h3 : -Real.log (y / x) ≤ Real.log (658 / 1000) * (y - x) := by
    have := mul_le_mul_of_nonneg_right hlog (show 0 ≤ y - x by linarith)
    linarith
  have h4 : x / y ≤ (658 / 1000 : ℝ) ^ (y - x) := by
    rw [Real.rpow_def_of_pos (by norm_num)]
    calc x / y = Real.exp (-Real.log (y / x)) := by rw [Real.exp_neg, Real.exp_log (by positivity), inv_div]
      _ ≤ _ := Real.exp_le_exp.2 h3
  have e : (658 / 1000 : ℝ) ^ y = (658 / 1000 : ℝ) ^ (y - x) * (658 / 1000 : ℝ) ^ x := by
    rw [← Real.rpow_add (by norm_num)]; congr 1; ring
  rw [e, ← mul_assoc]
  apply mul_le_mul_of_nonneg_right _ (by positivity)
  rw [div_le_iff₀ py] at h4
  linarith

theorem curve_step : (9 / 4 : ℝ) * (658 / 1000 : ℝ) ^ (9 / 4 : ℝ) ≤ 8774 / 10000 := by
  have h : ((658 / 1000 : ℝ) ^ (9 / 4 : ℝ)) ^ 4 ≤ (8774 / 10000 * (4 / 9)) ^ 4 := by
    rw [← Real.rpow_natCast ((658 / 1000 : ℝ) ^ (9 / 4 : ℝ)), ← Real.rpow_mul (by norm_num)]
    have : (9 / 4 : ℝ) * ((4 : ℕ) : ℝ) = ((9 : ℕ) : ℝ) := by norm_num
    rw [this, Real.rpow_natCast]
    norm_num
  have := le_of_pow_le_pow_left₀ (by norm_num) (by positivity) h
  linarith

/-- the column curve as a function of the yield stress -/
theorem curve_fy {fy fy' foc lc fn lc' fn' : ℝ} (hf : 0 < fy) (hff : fy ≤ fy') (ho : 0 < foc)
    (h : S6.columnCurve fy foc = .ok (lc, fn)) (h' : S6.columnCurve fy' foc = .ok (lc', fn')) :
    9995 / 10000 * fn ≤ fn' ∧ ((lc ≤ 3 / 2 ↔ lc' ≤ 3 / 2) → fn ≤ fn') := by
  have hf' := hf.trans_le hff
  rw [columnCurve_ok hf ho, Except.ok_inj', Prod.mk.injEq] at h
  rw [columnCurve_ok hf' ho, Except.ok_inj', Prod.mk.injEq] at h'
  have iff1 : ∀ q, √q ≤ 3 / 2 ↔ q ≤ 9 / 4 := fun q => by rw [Real.sqrt_le_left (by norm_num)]; norm_num
  rw [← h.1, ← h'.1, iff1, iff1, ← h.2, ← h'.2]
  set x := fy / foc with hx
  set y := fy' / foc with hy
  have ex : fy = x * foc := by rw [hx]; field_simp
  have ey : fy' = y * foc := by rw [hy]; field_simp
  have px : 0 < x := by positivity
  have lxy : x ≤ y := by rw [hx, hy]; gcongr
  rw [ex, ey]
  by_cases c1 : x ≤ 9 / 4
  · rw [if_pos c1]
    by_cases c2 : y ≤ 9 / 4
    · rw [if_pos c2]
      have := mul_le_mul_of_nonneg_right (curve_branch px lxy c2) ho.le
      have p : 0 < x * (658 / 1000 : ℝ) ^ x * foc := by positivity
      constructor
      · linarith
      · intro _; linarith
    · rw [if_neg c2]
      have := mul_le_mul_of_nonneg_right ((curve_branch px c1 le_rfl).trans curve_step) ho.le
      exact ⟨by linarith, fun hc => absurd (hc.1 c1) c2⟩
  · have c2 : ¬ y ≤ 9 / 4 := fun hc => c1 (lxy.trans hc)
    rw [if_neg c1, if_neg c2]
    exact ⟨by linarith, fun _ => le_rfl⟩

/-- C108, partial: with stronger steel the torsional buckling capacity of a member falls by at most 0.05 percent, and not at all if the
slenderness `λ_c` does not pass from below to above 1.5. -/
theorem C108_stronger_partial {m : Member} {roots : S6.Roots} {sym : Symmetry} {F kf fy fy' unc : ℝ} (hA : 0 < m.An)
    (hF : S6.foc roots m sym = .ok F) (pF : 0 < F) (hf : 0 < fy) (hff : fy ≤ fy') (hk : 0 ≤ kf) (hu : 0 ≤ unc) :
    ∃ t t', S6.NcTorsion roots m kf fy sym unc = .ok t ∧ S6.NcTorsion roots m kf fy' sym unc = .ok t' ∧
      9995 / 10000 * t.Ncz ≤ t'.Ncz ∧ ((t.lambdaC ≤ 3 / 2 ↔ t'.lambdaC ≤ 3 / 2) → t.Ncz ≤ t'.Ncz) := by
  obtain ⟨t, ht, -, hc, hN⟩ := C53_capacity (kf := kf) (unc := unc) hf hF pF
  obtain ⟨t', ht', -, hc', hN'⟩ := C53_capacity (kf := kf) (unc := unc) (hf.trans_le hff) hF pF
  obtain ⟨h1, h2⟩ := curve_fy hf hff pF hc hc'
  refine ⟨t, t', ht, ht', ?_, fun h => ?_⟩
  · rw [hN, hN']
    have := mul_le_mul_of_nonneg_left h1 (show 0 ≤ unc * (m.An * kf) by positivity)
    linarith
  · rw [hN, hN']
    exact mul_le_mul_of_nonneg_left (h2 h) (by positivity)

/-- C108, partial: the governing capacity of `s6_1_1_Nc` falls by at most 0.05 percent with stronger steel. -/
theorem C108_compression_partial {roots : S6.Roots} {a : S6.NcArgs} {fy' : ℝ} {r r' : S6.NcResult} (hm : a.member.Positive)
    (hs : HasSymmetry a.sym) (hkf : 0 < a.kf) (hfy : 0 < a.fy) (hff : a.fy ≤ fy') (hfr : 0 < a.fref) (hu : 0 ≤ a.uncertainty)
    (hab : -1 ≤ a.alphaB) (hab1 : a.alphaB ≤ 1) (h : S6.Nc roots a = .ok r) (h' : S6.Nc roots { a with fy := fy' } = .ok r') :
    9995 / 10000 * r.Nc ≤ r'.Nc ∧ ((a.calcTorsion = false) → r.Nc ≤ r'.Nc) := by
  obtain ⟨l1, l2, l3⟩ := (Nc_parts h).1 le_rfl
  have hA := hm.An
  have hA' : 0 < a.An := hA
  obtain ⟨-, -, -, -, -, -, hfl, htor, -, -⟩ := C54_minimum h
  have hns : a.An * a.kf * a.fy ≤ a.An * a.kf * fy' := mul_le_mul_of_nonneg_left hff (by positivity)
  have flex : a.calcBuckling = true → ∀ bx' bY', S6.NcFlexural a.An a.kf (a.l * a.kex) a.rx fy' a.fref a.alphaB = .ok bx' →
      S6.NcFlexural a.An a.kf (a.l * a.key) a.ry fy' a.fref a.alphaB = .ok bY' → r.Nc ≤ bx'.Nc ∧ r.Nc ≤ bY'.Nc := by
    intro hb bx' bY' hx' hy'
    obtain ⟨bx, bY, hx, hy, -⟩ := hfl hb
    obtain ⟨m1, m2⟩ := l2 hb _ _ hx hy
    exact ⟨m1.trans (C93_stronger hA'.le le_rfl hkf le_rfl hfy hff hm.lex.le hm.rx hfr hab hab1 hx hx'),
      m2.trans (C93_stronger hA'.le le_rfl hkf le_rfl hfy hff hm.ley.le hm.ry hfr hab hab1 hy hy')⟩
  obtain ⟨F, F', eF, -, pF, leF⟩ := foc_mono hm hm ⟨rfl, rfl, rfl, rfl, rfl, le_rfl, le_rfl, le_rfl, le_rfl, le_rfl, le_rfl, le_rfl⟩
    roots hs
  have pF := pF.trans_le leF
  have pos : 0 ≤ r.Nc := by
    refine (Nc_parts h).2 ⟨by positivity, fun hb bx bY hx hy => ?_, fun hb ht t e => ?_⟩
    · obtain ⟨-, -, n1, al1⟩ := NcFlexural_inv hkf.le hm.rx.ne' (by positivity) hfr.ne' hx
      obtain ⟨-, -, n2, al2⟩ := NcFlexural_inv hkf.le hm.ry.ne' (by positivity) hfr.ne' hy
      have q1 := al1.pos
      have q2 := al2.pos
      rw [n1, n2]
      exact ⟨by positivity, by positivity⟩
    · obtain ⟨t1, e1, -, hc, hN⟩ := C53_capacity (kf := a.kf) (unc := a.uncertainty) hfy eF pF
      rw [e, Except.ok_inj'] at e1
      obtain ⟨lc, fn, g, -, -, pf, -⟩ := C53_curve hfy pF
      rw [hc, Except.ok_inj', Prod.mk.injEq] at g
      rw [e1, hN, g.2]
      have : 0 < a.member.An := hA
      positivity
  have small : 9995 / 10000 * r.Nc ≤ r.Nc := by linarith
  refine ⟨(Nc_parts h').2 ⟨small.trans (l1.trans hns), ?_, ?_⟩, fun ht => (Nc_parts h').2 ⟨l1.trans hns, flex, ?_⟩⟩
  · intro hb bx' bY' hx' hy'
    obtain ⟨m1, m2⟩ := flex hb bx' bY' hx' hy'
    exact ⟨small.trans m1, small.trans m2⟩
  · intro hb ht t' e'
    obtain ⟨t1, t2, e1, e2, hle, -⟩ := C108_stronger_partial (kf := a.kf) (unc := a.uncertainty) hA eF pF hfy hff hkf.le hu
    have e3 : t' = t2 := Except.ok_inj'.1 (e'.symm.trans e2)
    have := l3 hb ht t1 e1
    rw [e3]
    linarith
  · intro _ ht'
    exact absurd (ht.symm.trans ht') (by decide)

/-- a thin walled section, symmetric about its centroid, of unit area -/
noncomputable def zed : Member where
  An := 1
  lex := 1
  ley := 1
  lez := 1
  rx := 1
  ry := 1
  xo := 0
  yo := 0
  J := 1
  Iw := 0
  E := 1
  G := 2

theorem zed_foc (roots : S6.Roots) : S6.foc roots zed ⟨some [.str "point"]⟩ = .ok 1 := by
  have hs : (⟨some [.str "point"]⟩ : Symmetry).symmetry = .ok .point := by simp [Symmetry.symmetry, Axis.isStr]
  simp only [S6.foc, hs, Except.bind_ok', S6.focPoint]
  rw [fEulerTorsion_ok (by norm_num [zed]) (by norm_num [zed]) (by norm_num [zed]) (by norm_num [zed]) (by norm_num [zed]),
    Except.ok_inj']
  norm_num [zed, roSq]

/-- C108: stronger steel can lower the torsional buckling capacity: with a yield stress of 2.25 times the elastic buckling stress the
slenderness is 1.5 and the curve gives 0.87735 of the buckling stress, but with any larger yield stress 0.877. -/
theorem C108_counterexample (roots : S6.Roots) : ∃ m : Member, m.Positive ∧ ∃ sym fy t, HasSymmetry sym ∧ 0 < fy ∧
    S6.NcTorsion roots m 1 fy sym 1 = .ok t ∧
    ∀ fy' > fy, ∃ t', S6.NcTorsion roots m 1 fy' sym 1 = .ok t' ∧ t'.Ncz < t.Ncz := by
  have hm : zed.Positive := by constructor <;> norm_num [zed]
  have hs : (⟨some [.str "point"]⟩ : Symmetry).symmetry = .ok .point := by simp [Symmetry.symmetry, Axis.isStr]
  obtain ⟨t, ht, -, hc, hN⟩ := C53_capacity (kf := 1) (unc := 1) (show (0 : ℝ) < 9 / 4 by norm_num) (zed_foc roots) one_pos
  refine ⟨zed, hm, _, 9 / 4, t, ⟨_, hs, by decide⟩, by norm_num, ht, fun fy' hfy => ?_⟩
  have hfy : (9 / 4 : ℝ) < fy' := hfy
  obtain ⟨t', ht', -, hc', hN'⟩ := C53_capacity (kf := 1) (unc := 1) (show (0 : ℝ) < fy' by linarith) (zed_foc roots) one_pos
  refine ⟨t', ht', ?_⟩
  rw [columnCurve_ok (by norm_num) one_pos, Except.ok_inj', Prod.mk.injEq] at hc
  rw [columnCurve_ok (by linarith) one_pos, Except.ok_inj', Prod.mk.injEq] at hc'
  have h1 := hc.2
  have h2 := hc'.2
  rw [div_one, if_pos le_rfl] at h1
  rw [div_one, if_neg (by linarith)] at h2
  have := curve_switch
  rw [hN, hN', ← h1, ← h2]
  have hA : zed.An = 1 := rfl
  rw [hA]
  linarith

/-- a channel of 4 m, and the same channel over 8 m, meet the hypotheses: both capacities are numbers -/
example (roots : S6.Roots) : ∃ m m' : Member, m.Positive ∧ m'.Positive ∧ NotStiffer m m' ∧ m.xo ≠ 0 ∧ m.lex < m'.lex ∧
    ∃ t t', S6.NcTorsion roots m 1 350000000 ⟨some [.str "x"]⟩ 1 = .ok t ∧
      S6.NcTorsion roots m' 1 350000000 ⟨some [.str "x"]⟩ 1 = .ok t' ∧ t'.Ncz ≤ t.Ncz := by
  have hm : (⟨4 / 1000, 4, 2, 2, 6 / 100, 3 / 100, 4 / 100, 0, 1 / 10 ^ 7, 1 / 10 ^ 9, 200000000000, 80000000000⟩ : Member).Positive := by
    constructor <;> norm_num
  have hm' : (⟨4 / 1000, 8, 4, 4, 6 / 100, 3 / 100, 4 / 100, 0, 1 / 10 ^ 7, 1 / 10 ^ 9, 200000000000, 80000000000⟩ : Member).Positive := by
    constructor <;> norm_num
  have hn : NotStiffer ⟨4 / 1000, 4, 2, 2, 6 / 100, 3 / 100, 4 / 100, 0, 1 / 10 ^ 7, 1 / 10 ^ 9, 200000000000, 80000000000⟩
      ⟨4 / 1000, 8, 4, 4, 6 / 100, 3 / 100, 4 / 100, 0, 1 / 10 ^ 7, 1 / 10 ^ 9, 200000000000, 80000000000⟩ := by
    constructor <;> norm_num
  obtain ⟨t, t', e, e', -, hle⟩ := C107_capacity hm hm' hn roots (sym := ⟨some [.str "x"]⟩) (kf := 1) (unc := 1)
    ⟨.single, by simp [Symmetry.symmetry, Axis.isStr], by decide⟩
    (show (0 : ℝ) < 350000000 by norm_num) zero_le_one le_rfl zero_le_one le_rfl
  exact ⟨_, _, hm, hm', hn, by norm_num, by norm_num, t, t', e, e', hle⟩

/-- every member of this kind with `α_b` zero has a compression capacity, so that C107 and C108 speak about all of them, of any length and
in any steel -/
example (roots : S6.Roots) (a : S6.NcArgs) (hm : a.member.Positive) (hs : HasSymmetry a.sym) (hkf : 0 < a.kf) (hfy : 0 < a.fy)
    (hfr : 0 < a.fref) (hab : a.alphaB = 0) : ∃ r, S6.Nc roots a = .ok r := by
  obtain ⟨F, F', eF, -, pF, leF⟩ := foc_mono hm hm ⟨rfl, rfl, rfl, rfl, rfl, le_rfl, le_rfl, le_rfl, le_rfl, le_rfl, le_rfl, le_rfl⟩
    roots hs
  have pF := pF.trans_le leF
  have sl : ∀ x : ℝ, 0 < x → lamOf x 0 ≠ 0 := fun x hx => by unfold lamOf; simp; exact hx.ne'
  have hrx : 0 < a.rx := hm.rx
  have hry : 0 < a.ry := hm.ry
  have hlx : 0 < a.l * a.kex := hm.lex
  have hly : 0 < a.l * a.key := hm.ley
  obtain ⟨bx, hx⟩ := NcFlexural_ok (An := a.An) (kf := a.kf) (le := a.l * a.kex) (r := a.rx) (fy := a.fy) (fref := a.fref) (ab := a.alphaB)
    hkf.le hrx.ne' (by positivity) hfr.ne' (by rw [hab]; exact sl _ (by positivity))
  obtain ⟨bY, hy⟩ := NcFlexural_ok (An := a.An) (kf := a.kf) (le := a.l * a.key) (r := a.ry) (fy := a.fy) (fref := a.fref) (ab := a.alphaB)
    hkf.le hry.ne' (by positivity) hfr.ne' (by rw [hab]; exact sl _ (by positivity))
  obtain ⟨t, ht, -⟩ := C53_capacity (kf := a.kf) (unc := a.uncertainty) hfy eF pF
  simp only [S6.Nc, S6.le, hx, hy, ht, Except.bind_ok']
  cases a.calcBuckling <;> cases a.calcTorsion <;> exact ⟨_, rfl⟩

end BeamDesign
