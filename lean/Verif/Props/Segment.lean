import Verif.Spec.Segment
import Verif.Props.S5

/-!
# C88: a longer segment is never stronger in bending
-/

namespace BeamDesign

open S5 Spec

/-- the member capacity for `αm = 1` -/
noncomputable def member (Ms Mo : ℝ) : ℝ := 6 / 10 * (√((Ms / Mo) ^ 2 + 3) - Ms / Mo) * Ms

theorem member_eq {Ms Mo : ℝ} (hs : 0 < Ms) (ho : 0 < Mo) :
    member Ms Mo = 18 / 10 / (√(1 / Mo ^ 2 + 3 / Ms ^ 2) + 1 / Mo) := by
  have h1 : √((Ms / Mo) ^ 2 + 3) = Ms * √(1 / Mo ^ 2 + 3 / Ms ^ 2) := by
    rw [show (Ms / Mo) ^ 2 + 3 = Ms ^ 2 * (1 / Mo ^ 2 + 3 / Ms ^ 2) by field_simp, Real.sqrt_mul (by positivity),
      Real.sqrt_sq hs.le]
  unfold member
  rw [sqrt_sub_eq _ (by positivity), h1]
  have : 0 < √(1 / Mo ^ 2 + 3 / Ms ^ 2) := Real.sqrt_pos.2 (by positivity)
  field_simp
  norm_num

theorem member_pos {Ms Mo : ℝ} (hs : 0 < Ms) (ho : 0 < Mo) : 0 < member Ms Mo := by
  rw [member_eq hs ho]
  positivity

theorem member_lt {Ms Mo Ms' Mo' : ℝ} (hs : 0 < Ms) (ho : 0 < Mo) (h1 : Ms ≤ Ms') (h2 : Mo ≤ Mo')
    (h : Ms < Ms' ∨ Mo < Mo') : member Ms Mo < member Ms' Mo' := by
  have hs' := hs.trans_le h1
  have ho' := ho.trans_le h2
  rw [member_eq hs ho, member_eq hs' ho']
  have e1 : 1 / Mo' ≤ 1 / Mo := one_div_le_one_div_of_le ho h2
  have e2 : 1 / Mo' ^ 2 ≤ 1 / Mo ^ 2 := one_div_le_one_div_of_le (by positivity) (by gcongr)
  have e3 : 3 / Ms' ^ 2 ≤ 3 / Ms ^ 2 := by gcongr
  have e4 : √(1 / Mo' ^ 2 + 3 / Ms' ^ 2) ≤ √(1 / Mo ^ 2 + 3 / Ms ^ 2) := Real.sqrt_le_sqrt (by linarith)
  apply div_lt_div_of_pos_left (by norm_num) (by positivity)
  rcases h with h | h
  · have e5 : √(1 / Mo' ^ 2 + 3 / Ms' ^ 2) < √(1 / Mo ^ 2 + 3 / Ms ^ 2) := by
      apply Real.sqrt_lt_sqrt (by positivity)
      have : 3 / Ms' ^ 2 < 3 / Ms ^ 2 := by gcongr
      linarith
    linarith
  · have : 1 / Mo' < 1 / Mo := one_div_lt_one_div_of_lt ho h
    linarith

/-- the twist restraint factor times the length -/
theorem kt_value (v : PyVersion) {d1 l tf tw nw : ℝ} (hd : 0 < d1) (hl : 0 < l) (hf : 0 < tf) (hw : 0 < tw)
    (hn : 0 < nw) (r : Restraint) :
    kt v d1 l tf tw nw (.code r) = .ok (1 + partialEnds r * (d1 * tf ^ 3 / (nw * l * (8 * tw ^ 3)))) := by
  obtain ⟨h1, h2⟩ := C46_values v
  obtain ⟨e, he, h3, h4, h5⟩ := h2 d1 l tf tw nw hd hl hf hw hn
  have ee : e = d1 * tf ^ 3 / (nw * l * (8 * tw ^ 3)) := by
    rw [eq_div_iff (by positivity), ← h3]; ring
  rw [← ee]
  cases r
  · rw [h1 _ _ _ _ _ _ (by simp)]; simp [partialEnds]
  · rw [h4 _ (by simp)]; simp [partialEnds]
  · rw [h1 _ _ _ _ _ _ (by simp)]; simp [partialEnds]
  · rw [h1 _ _ _ _ _ _ (by simp)]; simp [partialEnds]
  · rw [h5]; simp [partialEnds]
  · rw [h4 _ (by simp)]; simp [partialEnds]
  · rw [h4 _ (by simp)]; simp [partialEnds]
  · rw [h1 _ _ _ _ _ _ (by simp)]; simp [partialEnds]

/-- the effective length: `k_t l` is `l` plus a term that does not depend on `l` -/
theorem le_value {k kl kr l n c : ℝ} (hl : 0 < l) (h : k = 1 + n * (c / l)) : le k kl kr l = kl * kr * (l + n * c) := by
  unfold le
  rw [h]
  field_simp

/-- the effective length of a segment -/
noncomputable def effLen (s : Segment) : ℝ :=
  s.kl * s.kr * (s.l + partialEnds s.code * (s.d1 * s.tf ^ 3 / (s.nw * (8 * s.tw ^ 3))))

theorem effLen_pos {s : Segment} (h : s.Positive) : 0 < effLen s := by
  obtain ⟨h1, h2, h3, h4, h5, h6, h7⟩ := h
  unfold effLen
  positivity

theorem capacity_iff (v : PyVersion) {s : Segment} (h : s.Positive) :
    ∃ Mo, S5.Mo (effLen s) s.Iy s.J s.Iw s.betaX s.E s.G = .ok Mo ∧ 0 < Mo ∧
      ∀ M, s.Capacity v M ↔ M = s.alphaM * member (s.fy * s.Ze) Mo := by
  have hp := effLen_pos h
  obtain ⟨h1, h2, h3, h4, h5, h6, h7, h8, h9, h10, h11, h12, h13, h14, h15⟩ := h
  obtain ⟨Mo, hMo, hpos, -⟩ := C47_monotone s.betaX hp h10 h11 h12 h13 h14
  have hk := kt_value v h4 h1 h5 h6 h7 s.code
  have hle : le (1 + partialEnds s.code * (s.d1 * s.tf ^ 3 / (s.nw * s.l * (8 * s.tw ^ 3)))) s.kl s.kr s.l = effLen s := by
    rw [le_value h1 (n := partialEnds s.code) (c := s.d1 * s.tf ^ 3 / (s.nw * (8 * s.tw ^ 3)))]
    · rfl
    · congr 2; field_simp
  refine ⟨Mo, hMo, hpos, fun M => ?_⟩
  constructor
  · rintro ⟨k, Mo', a, e1, e2, e3, rfl⟩
    rw [hk] at e1
    obtain rfl := Except.ok.inj e1
    rw [hle, hMo] at e2
    obtain rfl := Except.ok.inj e2
    rw [alphaS_ok hpos.ne'] at e3
    obtain rfl := Except.ok.inj e3
    unfold Mb member Ms
    ring
  · rintro rfl
    refine ⟨_, Mo, _, hk, by rw [hle]; exact hMo, alphaS_ok hpos.ne', ?_⟩
    unfold Mb member Ms
    ring

/-- C88: the chain of functions gives every segment with positive data one capacity, which is positive. -/
theorem C88_defined (v : PyVersion) {s : Segment} (h : s.Positive) :
    ∃ M, 0 < M ∧ ∀ M', s.Capacity v M' ↔ M' = M := by
  obtain ⟨Mo, -, hpos, hc⟩ := capacity_iff v h
  exact ⟨_, mul_pos h.alphaM (member_pos (mul_pos h.fy h.Ze) hpos), hc⟩

/-- the capacity falls when the effective length grows or the section becomes weaker -/
theorem capacity_lt (v : PyVersion) {s s' : Segment} (h : s.Positive) (h' : s'.Positive) {M M' : ℝ}
    (hM : s.Capacity v M) (hM' : s'.Capacity v M') (hb : s'.betaX = s.betaX) (hE : s'.E = s.E) (hG : s'.G = s.G)
    (ham : s'.alphaM = s.alphaM)
    (hl : effLen s ≤ effLen s') (hs : s'.fy * s'.Ze ≤ s.fy * s.Ze) (hIy : s'.Iy ≤ s.Iy) (hJ : s'.J ≤ s.J)
    (hIw : s'.Iw ≤ s.Iw)
    (hlt : effLen s < effLen s' ∨ s'.fy * s'.Ze < s.fy * s.Ze ∨ s'.Iy < s.Iy ∨ s'.J < s.J ∨ s'.Iw < s.Iw) : M' < M := by
  obtain ⟨Mo, e, p, hc⟩ := capacity_iff v h
  obtain ⟨Mo', e', p', hc'⟩ := capacity_iff v h'
  rw [(hc M).1 hM, (hc' M').1 hM', ham]
  apply mul_lt_mul_of_pos_left _ h.alphaM
  rw [hb, hE, hG] at e'
  have hE0 := h.E
  have hG0 := h.G
  -- the buckling moment of the weaker section at the shorter length
  obtain ⟨Mm, em, pm, m1, m2⟩ := C47_monotone s.betaX (effLen_pos h) h'.Iy h'.J h'.Iw hE0 hG0
  have k1 : Mm ≤ Mo ∧ (s'.Iy < s.Iy ∨ s'.J < s.J ∨ s'.Iw < s.Iw → Mm < Mo) := by
    by_cases hw : s'.Iy < s.Iy ∨ s'.J < s.J ∨ s'.Iw < s.Iw
    · obtain ⟨X, x1, x2⟩ := m2 s.Iy s.J s.Iw hIy hJ hIw hw
      rw [e] at x1
      obtain rfl := Except.ok.inj x1
      exact ⟨x2.le, fun _ => x2⟩
    · rw [not_or, not_or] at hw
      rw [hIy.antisymm (not_lt.1 hw.1), hJ.antisymm (not_lt.1 hw.2.1), hIw.antisymm (not_lt.1 hw.2.2), e] at em
      obtain rfl := Except.ok.inj em
      refine ⟨le_rfl, fun hh => ?_⟩
      rcases hh with hh | hh | hh
      · exact absurd hh hw.1
      · exact absurd hh hw.2.1
      · exact absurd hh hw.2.2
  have k2 : Mo' ≤ Mm ∧ (effLen s < effLen s' → Mo' < Mm) := by
    rcases hl.eq_or_lt with q | q
    · rw [← q, em] at e'
      obtain rfl := Except.ok.inj e'
      exact ⟨le_rfl, fun hh => absurd hh (by rw [q]; exact lt_irrefl _)⟩
    · obtain ⟨X, x1, x2⟩ := m1 _ q
      rw [e'] at x1
      obtain rfl := Except.ok.inj x1
      exact ⟨x2.le, fun _ => x2⟩
  apply member_lt (mul_pos h'.fy h'.Ze) p' hs (k2.1.trans k1.1)
  rcases hlt with q | q | q
  · exact Or.inr ((k2.2 q).trans_le k1.1)
  · exact Or.inl q
  · exact Or.inr (k2.1.trans_lt (k1.2 q))

/-- C88: of two segments that differ in length only, the longer is weaker, whatever the restraints (the twist restraint
factor falls with the length, but its product with the length grows). -/
theorem C88_longer (v : PyVersion) {s : Segment} (h : s.Positive) {l' M M' : ℝ} (hl : s.l < l') (hM : s.Capacity v M)
    (hM' : ({ s with l := l' } : Segment).Capacity v M') : M' < M := by
  have h' : ({ s with l := l' } : Segment).Positive := { h with l := h.l.trans hl }
  have : effLen s < effLen { s with l := l' } := by
    have := mul_pos h.kl h.kr
    unfold effLen
    apply mul_lt_mul_of_pos_left _ this
    simp only
    linarith
  exact capacity_lt v h h' hM hM' rfl rfl rfl rfl this.le le_rfl le_rfl le_rfl le_rfl (Or.inl this)

/-- C88: larger load height or rotation restraint factors make a segment weaker. -/
theorem C88_factors (v : PyVersion) {s : Segment} (h : s.Positive) {kl' kr' M M' : ℝ} (hl : s.kl ≤ kl')
    (hr : s.kr ≤ kr') (hlt : s.kl < kl' ∨ s.kr < kr') (hM : s.Capacity v M)
    (hM' : ({ s with kl := kl', kr := kr' } : Segment).Capacity v M') : M' < M := by
  have h' : ({ s with kl := kl', kr := kr' } : Segment).Positive :=
    { h with kl := h.kl.trans_le hl, kr := h.kr.trans_le hr }
  have : effLen s < effLen { s with kl := kl', kr := kr' } := by
    obtain ⟨h1, h2, h3, h4, h5, h6, h7⟩ := h
    unfold effLen
    apply mul_lt_mul_of_pos_right _ (by positivity)
    have hk := h'.kl
    have hk' := h'.kr
    simp only at hk hk' ⊢
    rcases hlt with q | q
    · exact mul_lt_mul q hr h3 hk.le
    · exact mul_lt_mul' hl q h3.le hk
  exact capacity_lt v h h' hM hM' rfl rfl rfl rfl this.le le_rfl le_rfl le_rfl le_rfl (Or.inl this)

/-- C88: the fewer ends are only partially restrained against twist, the stronger the segment; otherwise the restraint
code does not matter. -/
theorem C88_restraints (v : PyVersion) {s : Segment} (h : s.Positive) {r : Restraint} {M M' : ℝ} (hM : s.Capacity v M)
    (hM' : ({ s with code := r } : Segment).Capacity v M') :
    (partialEnds s.code < partialEnds r → M' < M) ∧ (partialEnds s.code = partialEnds r → M' = M) := by
  have h' : ({ s with code := r } : Segment).Positive := { h with }
  constructor
  · intro hr
    have : effLen s < effLen { s with code := r } := by
      obtain ⟨h1, h2, h3, h4, h5, h6, h7⟩ := h
      unfold effLen
      apply mul_lt_mul_of_pos_left _ (mul_pos h2 h3)
      have : (partialEnds s.code : ℝ) < partialEnds r := by exact_mod_cast hr
      simp only
      gcongr
    exact capacity_lt v h h' hM hM' rfl rfl rfl rfl this.le le_rfl le_rfl le_rfl le_rfl (Or.inl this)
  · intro hr
    obtain ⟨Mo, e, -, hc⟩ := capacity_iff v h
    obtain ⟨Mo', e', -, hc'⟩ := capacity_iff v h'
    have hq : effLen { s with code := r } = effLen s := by unfold effLen; simp only [hr]
    rw [hq] at e'
    simp only at e'
    rw [e] at e'
    obtain rfl := Except.ok.inj e'
    rw [(hc M).1 hM, (hc' M').1 hM']

/-- C88: a higher yield stress, a larger section modulus, second moment of area, torsion or warping constant make a
segment stronger. -/
theorem C88_section (v : PyVersion) {s : Segment} (h : s.Positive) {fy Ze Iy J Iw M M' : ℝ} (hf : s.fy ≤ fy)
    (hZ : s.Ze ≤ Ze) (hI : s.Iy ≤ Iy) (hJ : s.J ≤ J) (hw : s.Iw ≤ Iw)
    (hlt : s.fy < fy ∨ s.Ze < Ze ∨ s.Iy < Iy ∨ s.J < J ∨ s.Iw < Iw) (hM : s.Capacity v M)
    (hM' : ({ s with fy := fy, Ze := Ze, Iy := Iy, J := J, Iw := Iw } : Segment).Capacity v M') : M < M' := by
  have h' : ({ s with fy := fy, Ze := Ze, Iy := Iy, J := J, Iw := Iw } : Segment).Positive :=
    { h with fy := h.fy.trans_le hf, Ze := h.Ze.trans_le hZ, Iy := h.Iy.trans_le hI, J := h.J.trans_le hJ
             Iw := h.Iw.trans hw }
  have g1 := h.fy
  have g2 := h.Ze
  have g3 := h'.fy
  have g4 := h'.Ze
  simp only at g3 g4
  refine capacity_lt v h' h hM' hM rfl rfl rfl rfl le_rfl ?_ hI hJ hw ?_
  · exact mul_le_mul hf hZ g2.le g3.le
  · simp only
    rcases hlt with q | q | q
    · exact Or.inr (Or.inl (mul_lt_mul q hZ g2 g3.le))
    · exact Or.inr (Or.inl (mul_lt_mul' hf q g2.le g3))
    · exact Or.inr (Or.inr q)

/-- a 4 m segment of a 250UB-like section, partially restrained at one end -/
noncomputable def sampleSegment : Segment :=
  ⟨4, 1, 1, .FP, 23/100, 1/100, 6/1000, 1, 300000000, 35/100000, 255/100000000, 67/1000000000, 36/1000000000, 0,
    200000000000, 80000000000, 1⟩

theorem sampleSegment_pos : sampleSegment.Positive := by
  constructor <;> norm_num [sampleSegment]

example : ∃ M M', 0 < M' ∧ M' < M ∧ sampleSegment.Capacity .from312 M ∧
    ({ sampleSegment with l := 5 } : Segment).Capacity .from312 M' := by
  obtain ⟨M, -, h⟩ := C88_defined .from312 sampleSegment_pos
  have h5 : ({ sampleSegment with l := 5 } : Segment).Positive := { sampleSegment_pos with l := by norm_num }
  obtain ⟨M', hp, h'⟩ := C88_defined .from312 h5
  exact ⟨M, M', hp, C88_longer _ sampleSegment_pos (by norm_num [sampleSegment]) ((h M).2 rfl) ((h' M').2 rfl),
    (h M).2 rfl, (h' M').2 rfl⟩

example : partialEnds sampleSegment.code < partialEnds .PP := by decide

end BeamDesign
