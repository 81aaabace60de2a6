import Verif.Lemmas.Acc
import Verif.Props.Segment

/-!
# Lemmas about the section 5 formulas in floating point
-/

namespace BeamDesign

open Spec

variable {A : Arith ℝ} {u : ℝ}

theorem kt_acc (v : S5.PyVersion) (hA : Rounded A u) (h1 : u ≤ 1 / 2) {d1 l tf tw nw k : ℝ} (hd : 0 < d1) (hl : 0 < l) (hf : 0 < tf)
    (hw : 0 < tw) (hn : 0 < nw) {r : S5.Restraint} (h : S5.kt v d1 l tf tw nw (.code r) = .ok k) :
    ∃ k', S5R.kt A d1 l tf tw nw r = .ok k' ∧ Acc (24 * u) k' k ∧ 0 < k := by
  have h0 := hA.nonneg
  have rr := fun y => Acc.refl le_rfl y
  have hx := hA.accDiv h1 (rr d1) (rr l)
  have hw2 := hA.accMul h1 (rr 2) (rr tw)
  have hw2' : A.mul 2 tw ≠ 0 := hw2.ne_zero (by positivity)
  have hy := hA.accCube h1 (hA.accDiv h1 (rr tf) hw2)
  have rest : ∀ x' x : ℝ, 0 < x → Acc (4 * u) x' x → ∃ k', S5R.ktRest A x' tf tw nw = .ok k' ∧
      Acc (24 * u) k' (1 + x * (tf / (2 * tw)) ^ 3 / nw) := by
    intro x' x hx0 hx
    have hz := hA.accDiv h1 (hA.accMul h1 hx hy) (rr nw)
    refine ⟨_, by simp only [S5R.ktRest, Arith.quot_ok _ hw2', Arith.quot_ok _ hn.ne', Except.bind_ok']; rfl, ?_⟩
    have := hA.accAdd h1 zero_le_one (show 0 ≤ x * (tf / (2 * tw)) ^ 3 / nw by positivity)
      (Acc.refl (t := 22 * u) (by linarith) 1) (hz.mono (by linarith))
    exact this.mono (by linarith)
  have ex : ∀ f, S5.ktExcess f d1 l tf tw nw = .ok (f * (d1 / l) * (tf / (2 * tw)) ^ 3 / nw) := by
    intro f
    simp only [S5.ktExcess, rdiv_ok hl.ne', rdiv_ok (show 2 * tw ≠ 0 by positivity), rdiv_ok hn.ne', Except.bind_ok']
  have p1 : 0 < d1 / l := by positivity
  cases r <;> simp only [S5.kt, ex, Except.bind_ok', reduceCtorEq, or_self, or_false, false_or, if_true, if_false,
    pure, Except.pure] at h <;> injection h with h <;> subst h <;> simp only [S5R.kt, Arith.quot_ok _ hl.ne', Except.bind_ok']
  all_goals first
    | exact ⟨1, rfl, Acc.refl (by linarith) 1, one_pos⟩
    | (obtain ⟨k', e, a⟩ := rest (A.div d1 l) (d1 / l) p1 (hx.mono (by linarith))
       exact ⟨k', e, by rw [one_mul]; exact a, by positivity⟩)
    | (obtain ⟨k', e, a⟩ := rest (A.mul 2 (A.div d1 l)) (2 * (d1 / l)) (by positivity)
        ((hA.accMul h1 (rr 2) hx).mono (by linarith))
       exact ⟨k', e, a, by positivity⟩)

theorem euler_acc (hA : Rounded A u) (h1 : u ≤ 1 / 2) {L' L t : ℝ} (hL : 0 < L) (h : Acc t L' L) (I E : ℝ) :
    ∃ a, S5R.euler A L' I E = .ok a ∧ Acc (10 * u + 2 * t) a (piD * piD * E * I / (L * L)) := by
  have rr := fun y => Acc.refl le_rfl y
  have hLL := hA.accMul h1 h h
  have hn : A.mul L' L' ≠ 0 := hLL.ne_zero (by positivity)
  refine ⟨_, Arith.quot_ok _ hn, ?_⟩
  exact (hA.accDiv h1 (hA.accMul h1 (hA.accMul h1 (hA.accMul h1 (rr piD) (rr piD)) (rr E)) (rr I)) hLL).mono (by linarith)

/-- the sum of a root and a possibly negative term smaller than it -/
theorem root_sub {s y : ℝ} (hs : 0 < s) : 0 < √(s + y ^ 2) - |y| ∧
    (√(s + y ^ 2) + |y|) = (√(s + y ^ 2) + |y|) ^ 2 / s * (√(s + y ^ 2) - |y|) := by
  have hq := Real.sq_sqrt (show 0 ≤ s + y ^ 2 by positivity)
  have hy := sq_abs y
  have hr := Real.sqrt_nonneg (s + y ^ 2)
  have ha := abs_nonneg y
  constructor
  · have : |y| < √(s + y ^ 2) := by
      apply Real.lt_sqrt_of_sq_lt
      rw [hy]; linarith
    linarith
  · rw [div_mul_eq_mul_div, eq_div_iff hs.ne']
    have e : (√(s + y ^ 2) + |y|) * (√(s + y ^ 2) - |y|) = s := by nlinarith
    calc (√(s + y ^ 2) + |y|) * s = (√(s + y ^ 2) + |y|) * ((√(s + y ^ 2) + |y|) * (√(s + y ^ 2) - |y|)) := by rw [e]
      _ = _ := by ring

theorem magnify {s r y κ : ℝ} (hs : 0 < s) (hr : r ^ 2 = s + y ^ 2) (hy : y ^ 2 ≤ κ * s) :
    (r + |y|) ^ 2 / s ≤ 2 + 4 * κ := by
  rw [div_le_iff₀ hs]
  have g2 := sq_abs y
  nlinarith [sq_nonneg (r - |y|)]

theorem Mo_acc (hA : Rounded A u) {L' L Iy J Iw betaX E G Mo κ : ℝ} (hL : 0 < L) (hLa : Acc (30 * u) L' L)
    (hIy : 0 < Iy) (hJ : 0 < J) (hIw : 0 ≤ Iw) (hE : 0 < E) (hG : 0 < G) (hκ : 0 ≤ κ)
    (hb : betaX < 0 → (betaX / 2) ^ 2 * (piD * piD * E * Iy / (L * L)) ≤ κ * (G * J + piD * piD * E * Iw / (L * L)))
    (hu : 400 * u * (1 + 2 * κ) ≤ 1) (h : S5.Mo L Iy J Iw betaX E G = .ok Mo) :
    ∃ Mo', S5R.Mo A L' Iy J Iw betaX E G = .ok Mo' ∧ Acc (400 * u * (1 + 2 * κ)) Mo' Mo ∧ 0 < Mo := by
  have h0 := hA.nonneg
  have hκu : 0 ≤ u * κ := by positivity
  have hexp : 400 * u * (1 + 2 * κ) = 400 * u + 800 * (u * κ) := by ring
  rw [hexp] at hu ⊢
  have h1 : u ≤ 1 / 2 := by linarith
  have rr := fun y => Acc.refl le_rfl y
  have hpi := piD_pos
  obtain ⟨a', ea, aa⟩ := euler_acc hA h1 hL hLa Iy E
  obtain ⟨c', ec, ac⟩ := euler_acc hA h1 hL hLa Iw E
  set a := piD * piD * E * Iy / (L * L) with hadef
  set c := piD * piD * E * Iw / (L * L) with hcdef
  have pa : 0 < a := by positivity
  have pc : 0 ≤ c := by positivity
  have pb : 0 < G * J := by positivity
  have ab := hA.accMul h1 (rr G) (rr J)
  have ad := hA.accDiv h1 (rr betaX) (rr 2)
  set d := betaX / 2 with hd
  have pda : 0 ≤ d * d * a := mul_nonneg (mul_self_nonneg d) pa.le
  have ara := hA.accSqrt h1 pa.le aa
  have adda := hA.accMul h1 (hA.accMul h1 ad ad) aa
  have abc := hA.accAdd h1 pb.le pc (ab.mono (t' := 70 * u) (by linarith)) (ac.mono (by linarith))
  have asum := hA.accAdd h1 (add_nonneg pb.le pc) pda (abc.mono (t' := 78 * u) (by linarith)) (adda.mono (by linarith))
  have psum : 0 < G * J + c + d * d * a := by linarith
  have arb := hA.accSqrt h1 psum.le asum
  have adr := hA.accMul h1 ad ara
  -- the exact value
  have hMo : Mo = √a * (√(G * J + c + d * d * a) + d * √a) := by
    simp only [S5.Mo, rdiv_ok (show L * L ≠ 0 by positivity), Except.bind_ok'] at h
    rw [← hadef, ← hcdef, ← hd, rsqrt_ok pa.le, Except.bind_ok', rsqrt_ok psum.le] at h
    injection h with h
    exact h.symm
  set y := d * √a with hy
  have hy2 : y ^ 2 = d * d * a := by rw [hy, mul_pow, Real.sq_sqrt pa.le]; ring
  have pra := Real.sqrt_pos.2 pa
  have hs : 0 < G * J + c := by linarith
  rw [← hy2] at hMo arb psum asum
  obtain ⟨q1, q2⟩ := root_sub (y := y) hs
  have prb := Real.sqrt_pos.2 psum
  refine ⟨A.mul (A.sqrt a') (A.add (A.sqrt (A.add (A.add (A.mul G J) c')
    (A.mul (A.mul (A.div betaX 2) (A.div betaX 2)) a'))) (A.mul (A.div betaX 2) (A.sqrt a'))), ?_, ?_, ?_⟩
  · simp only [S5R.Mo, ea, ec, Except.bind_ok', Arith.root_ok _ (aa.nonneg pa.le), Arith.root_ok _ (asum.nonneg psum.le)]
    rfl
  · rw [hMo]
    rcases le_or_gt 0 betaX with hβ | hβ
    · have pd : 0 ≤ d := by rw [hd]; positivity
      have := hA.accMul h1 ara (hA.accAdd h1 prb.le (mul_nonneg pd pra.le) (arb.mono (t' := 42 * u) (by linarith))
        (adr.mono (by linarith)))
      exact this.mono (by linarith)
    · have hκ' := hb hβ
      rw [pow_two, ← hy2] at hκ'
      have hd0 : d < 0 := by rw [hd]; linarith
      have hyn : y < 0 := mul_neg_of_neg_of_pos hd0 pra
      have hyabs : |y| = -y := abs_of_neg hyn
      have e1 := arb.rel (by linarith) (by linarith)
      have e2 := adr.rel (by linarith) (by linarith)
      rw [abs_of_pos prb] at e1
      have hsum : |(A.sqrt (A.add (A.add (A.mul G J) c') (A.mul (A.mul (A.div betaX 2) (A.div betaX 2)) a')) +
          A.mul (A.div betaX 2) (A.sqrt a')) - (√(G * J + c + y ^ 2) + y)| ≤ 84 * u * (√(G * J + c + y ^ 2) + |y|) := by
        have f1 : 2 * (2 * u + (2 * u + 78 * u) / 2) * √(G * J + c + y ^ 2) ≤ 84 * u * √(G * J + c + y ^ 2) := by
          apply mul_le_mul_of_nonneg_right _ prb.le; linarith
        have f2 : 2 * (2 * u + (2 * u + (0 + 0) + (2 * u + (10 * u + 2 * (30 * u)) / 2))) * |y| ≤ 84 * u * |y| := by
          apply mul_le_mul_of_nonneg_right _ (abs_nonneg y); linarith
        rw [abs_le] at e1 e2 ⊢
        constructor <;> linarith [e1.1, e1.2, e2.1, e2.2]
      have hmag : (√(G * J + c + y ^ 2) + |y|) ^ 2 / (G * J + c) ≤ 2 + 4 * κ := by
        exact magnify hs (Real.sq_sqrt psum.le) hκ'
      have e3 : √(G * J + c + y ^ 2) + y = √(G * J + c + y ^ 2) - |y| := by rw [hyabs]; ring
      have hrel : |(A.sqrt (A.add (A.add (A.mul G J) c') (A.mul (A.mul (A.div betaX 2) (A.div betaX 2)) a')) +
          A.mul (A.div betaX 2) (A.sqrt a')) - (√(G * J + c + y ^ 2) + y)| ≤
          84 * u * (2 + 4 * κ) * |√(G * J + c + y ^ 2) + y| := by
        refine hsum.trans ?_
        rw [e3, abs_of_pos q1, mul_assoc (84 * u)]
        apply mul_le_mul_of_nonneg_left _ (by linarith)
        calc _ = _ := q2
          _ ≤ _ := mul_le_mul_of_nonneg_right hmag q1.le
      have hexp2 : 84 * u * (2 + 4 * κ) = 168 * u + 336 * (u * κ) := by ring
      rw [hexp2] at hrel
      have hacc := Acc.of_rel (by linarith) (by linarith) hrel
      have hadd := (Acc.of_rel h0 h1 (hA.add (A.sqrt (A.add (A.add (A.mul G J) c') (A.mul (A.mul (A.div betaX 2) (A.div betaX 2)) a')))
        (A.mul (A.div betaX 2) (A.sqrt a')))).trans hacc
      exact (hA.accMul h1 ara hadd).mono (by linarith)
  · rw [hMo]
    apply mul_pos pra
    have := neg_abs_le y
    linarith

theorem alphaS_acc (hA : Rounded A u) {Ms' Ms Mo' Mo a T : ℝ} (hs : 0 < Ms) (ho : 0 < Mo) (hsa : Acc (2 * u) Ms' Ms)
    (hoa : Acc T Mo' Mo) (hT : 0 ≤ T) (hu : 4 * (T + 8 * u) * (1 + (Ms / Mo) ^ 2) ≤ 1 / 2)
    (h : S5.alphaS Ms Mo = .ok a) :
    ∃ a', S5R.alphaS A Ms' Mo' = .ok a' ∧ Acc (8 * (T + 9 * u) * (1 + (Ms / Mo) ^ 2)) a' a ∧ 0 < a := by
  have h0 := hA.nonneg
  have hx2 := sq_nonneg (Ms / Mo)
  have hbig : T + 8 * u ≤ 1 / 8 := by nlinarith
  have h1 : u ≤ 1 / 2 := by linarith
  have ax := hA.accDiv h1 hsa hoa
  have px : 0 < Ms / Mo := by positivity
  set x := Ms / Mo with hxdef
  have ar2 := hA.accAdd h1 (sq_nonneg x) (by norm_num : (0 : ℝ) ≤ 3) (hA.accSq h1 ax) (Acc.refl (by linarith) 3)
  have pr : 0 < x ^ 2 + 3 := by positivity
  have ar := hA.accSqrt h1 pr.le ar2
  rw [alphaS_ok ho.ne', ← hxdef] at h
  injection h with h
  have e1 := (ar.mono (t' := T + 8 * u) (by linarith)).rel (by linarith) (by linarith)
  have e2 := (ax.mono (t' := T + 8 * u) (by linarith)).rel (by linarith) (by linarith)
  have hd := sub_rel e1 e2
  have prs := Real.sqrt_pos.2 pr
  rw [abs_of_pos prs, abs_of_pos px] at hd
  obtain ⟨q1, q2⟩ := root_sub (s := 3) (y := x) (by norm_num)
  rw [abs_of_pos px, add_comm 3 (x ^ 2)] at q1 q2
  have hmag : (√(x ^ 2 + 3) + x) ^ 2 / 3 ≤ 2 * (1 + x ^ 2) := by
    have g1 := Real.sq_sqrt pr.le
    rw [div_le_iff₀ (by norm_num)]
    nlinarith [sq_nonneg (√(x ^ 2 + 3) - x)]
  have hrel : |(A.sqrt (A.add (A.sq (A.div Ms' Mo')) 3) - A.div Ms' Mo') - (√(x ^ 2 + 3) - x)| ≤
      4 * (T + 8 * u) * (1 + x ^ 2) * |√(x ^ 2 + 3) - x| := by
    refine hd.trans ?_
    rw [abs_of_pos q1]
    calc 2 * (T + 8 * u) * (√(x ^ 2 + 3) + x) = 2 * (T + 8 * u) * ((√(x ^ 2 + 3) + x) ^ 2 / 3 * (√(x ^ 2 + 3) - x)) := by rw [← q2]
      _ ≤ 2 * (T + 8 * u) * (2 * (1 + x ^ 2) * (√(x ^ 2 + 3) - x)) := by
        apply mul_le_mul_of_nonneg_left _ (by linarith)
        exact mul_le_mul_of_nonneg_right hmag q1.le
      _ = _ := by ring
  have hacc := Acc.of_rel (by positivity) hu hrel
  have hsub := (Acc.of_rel h0 h1 (hA.sub (A.sqrt (A.add (A.sq (A.div Ms' Mo')) 3)) (A.div Ms' Mo'))).trans hacc
  have hfin := hA.accMul h1 (hA.accLit h1 (6 / 10)) hsub
  refine ⟨A.mul (A.lit (6 / 10)) (A.sub (A.sqrt (A.add (A.sq (A.div Ms' Mo')) 3)) (A.div Ms' Mo')), ?_, ?_, ?_⟩
  · simp only [S5R.alphaS, Arith.quot_ok _ (hoa.ne_zero ho.ne'), Except.bind_ok', Arith.root_ok _ (ar2.nonneg pr.le)]
    rfl
  · rw [← h]
    have e : ((6 / 10 : ℚ) : ℝ) = 6 / 10 := by norm_num
    rw [e] at hfin
    refine hfin.mono ?_
    nlinarith
  · rw [← h]
    positivity

end BeamDesign
