import Verif.Spec.Shear
import Verif.Props.Web
import Verif.Props.BendingRound

/-!
# C103: the shear capacities in floating point
-/

namespace BeamDesign

open Spec

/-- with exact arithmetic the formulas operation by operation are the formulas of `Model/S5` -/
theorem C103_exact :
    (∀ dp tw fy lim fref : ℝ, S5ShearR.alphaV .exact dp tw fy lim fref = S5Shear.alphaV dp tw fy lim fref) ∧
    (∀ Aw fy ratio : ℝ, S5ShearR.VwGeneric .exact Aw fy ratio = S5Shear.VwGeneric Aw fy ratio) ∧
    (∀ Ae fy ratio area : ℝ, S5ShearR.VwCHS .exact Ae fy ratio area = S5Shear.VwCHS Ae fy ratio area) ∧
    (∀ fvm fva : ℝ, S5ShearR.alphaVma .exact fvm fva = S5Shear.alphaVma fvm fva) ∧
    (∀ (vs : List ℝ) (Q I : ℝ), S5ShearR.VwWeld .exact vs Q I = S5Shear.VwWeld (.exact ℝ) (.list vs) Q I) ∧
    (∀ t fy Q I ratio : ℝ, S5ShearR.VwInterface .exact t fy Q I ratio = S5Shear.VwInterface t fy Q I ratio) := by
  refine ⟨fun _ _ _ _ _ => rfl, fun _ _ _ => rfl, fun _ _ _ _ => rfl, ?_, fun _ _ _ => rfl, fun _ _ _ _ _ => rfl⟩
  intro fvm fva
  have hq : ∀ a b, Arith.exact.quot a b = rdiv a b := fun _ _ => rfl
  simp only [S5ShearR.alphaVma, S5Shear.alphaVma, hq]
  simp only [Arith.exact]
  norm_num

/-- from a factor to a relative error -/
theorem Acc.within {t ε x y : ℝ} (h : Acc t x y) (hy : 0 < y) (h0 : 0 ≤ t) (h1 : t ≤ 1) (he : 2 * t ≤ ε) : Within ε x y := by
  refine ⟨hy, ?_⟩
  have := h.rel h0 h1
  rw [abs_of_pos hy] at this
  exact this.trans (mul_le_mul_of_nonneg_right he hy.le)

theorem Acc.bounds_one {t x : ℝ} (h0 : Real.exp (-t) ≤ x) (h1 : x ≤ Real.exp t) : Acc t x 1 := ⟨x, by ring, h0, h1⟩

theorem Acc.symm {t x y : ℝ} (h : Acc t x y) : Acc t y x := by
  obtain ⟨ρ, rfl, a, b⟩ := h
  have p := (Real.exp_pos (-t)).trans_le a
  refine ⟨ρ⁻¹, by field_simp, ?_, ?_⟩
  · rw [Real.exp_neg]; exact inv_anti₀ p b
  · have := inv_anti₀ (Real.exp_pos _) a
    rwa [Real.exp_neg, inv_inv] at this

/-- the buckling factor, whichever side of the limit rounding puts the web -/
theorem alphaV_acc {A : Arith ℝ} {u : ℝ} (hA : Rounded A u) (h1 : u ≤ 1 / 2) {dp tw fy lim fref a : ℝ} (hd : 0 < dp) (ht : 0 < tw)
    (hf : 0 < fy) (hl : 0 < lim) (hr : 0 < fref) (h : S5Shear.alphaV dp tw fy lim fref = .ok a) :
    ∃ a', S5ShearR.alphaV A dp tw fy lim fref = .ok a' ∧ Acc (22 * u) a' a ∧ 0 < a := by
  have h0 := hA.nonneg
  have rr := fun y => Acc.refl le_rfl y
  have p1 : 0 < fy / fref := by positivity
  have p2 := Real.sqrt_pos.2 p1
  have p3 : 0 < lim / √(fy / fref) := by positivity
  have p4 : 0 < dp / tw := by positivity
  have a1 := hA.accDiv h1 (rr fy) (rr fref)
  have a2 := hA.accSqrt h1 p1.le a1
  have a3 := hA.accDiv h1 (rr lim) a2
  have a4 := hA.accDiv h1 (rr dp) (rr tw)
  have q1 := a1.pos p1
  have q2 := a2.pos p2
  have q3 := a3.pos p3
  have q4 := a4.pos p4
  simp only [S5Shear.alphaV, rdiv_ok hr.ne', Except.bind_ok', rsqrt_ok p1.le, rdiv_ok p2.ne', rdiv_ok ht.ne', rdiv_ok p4.ne'] at h
  simp only [S5ShearR.alphaV, Arith.quot_ok _ hr.ne', Except.bind_ok', Arith.root_ok _ q1.le, Arith.quot_ok _ q2.ne',
    Arith.quot_ok _ ht.ne', Arith.quot_ok _ q4.ne']
  generalize A.div fy fref = q' at *
  generalize A.sqrt q' = r' at *
  generalize A.div lim r' = L' at *
  generalize A.div dp tw = s' at *
  generalize lim / √(fy / fref) = L at *
  generalize dp / tw = s at *
  have a5 : Acc (8 * u) (L' / s') (L / s) := (a3.div a4).mono (by linarith)
  have a6 : Acc (20 * u) (A.sq (A.div L' s')) ((L / s) ^ 2) := (hA.accSq h1 (hA.accDiv h1 a3 a4)).mono (by linarith)
  have a7 : Acc (6 * u) (A.sq (A.div L' s')) ((L' / s') ^ 2) := (hA.accSq h1 (hA.accDiv h1 (rr L') (rr s'))).mono (by linarith)
  have a8 : Acc (16 * u) ((L' / s') ^ 2) ((L / s) ^ 2) := by
    have := a5.pow 2
    push_cast at this
    exact this.mono (by linarith)
  by_cases c : s > L
  · rw [if_pos c] at h
    injection h with h
    subst h
    by_cases c' : s' > L'
    · rw [if_pos c']
      exact ⟨_, rfl, a6.mono (by linarith), by positivity⟩
    · rw [if_neg c']
      refine ⟨_, rfl, ?_, by positivity⟩
      have hle : (L / s) ^ 2 ≤ 1 := pow_le_one₀ (by positivity) ((div_le_one p4).2 c.le)
      have hge : 1 ≤ (L' / s') ^ 2 := one_le_pow₀ ((one_le_div q4).2 (not_lt.1 c'))
      rw [Acc.iff (by positivity)]
      have a9 := (Acc.iff (by positivity)).1 a8
      have e1 : Real.exp (16 * u) ≤ Real.exp (22 * u) := Real.exp_le_exp.2 (by linarith)
      have e2 : Real.exp (-(22 * u)) ≤ 1 := Real.exp_le_one_iff.2 (by linarith)
      constructor
      · exact (mul_le_mul hle e2 (Real.exp_pos _).le zero_le_one).trans (by norm_num)
      · exact hge.trans (a9.2.trans (mul_le_mul_of_nonneg_left e1 (by positivity)))
  · rw [if_neg c] at h
    injection h with h
    subst h
    by_cases c' : s' > L'
    · rw [if_pos c']
      refine ⟨_, rfl, ?_, zero_lt_one⟩
      have hge : 1 ≤ (L / s) ^ 2 := one_le_pow₀ ((one_le_div p4).2 (not_lt.1 c))
      have hle : (L' / s') ^ 2 ≤ 1 := pow_le_one₀ (by positivity) ((div_le_one q4).2 c'.le)
      have a9 := (Acc.iff (by positivity)).1 a8
      have : Acc (16 * u) ((L' / s') ^ 2) 1 := by
        apply Acc.bounds_one
        · have := Real.exp_pos (-(16 * u))
          nlinarith [a9.1]
        · exact hle.trans (Real.one_le_exp (by linarith))
      exact (a7.trans this).mono (by linarith)
    · rw [if_neg c']
      exact ⟨_, rfl, Acc.refl (by linarith) 1, zero_lt_one⟩

/-- a sum of non-negative numbers -/
theorem sum_acc {A : Arith ℝ} {u : ℝ} (hA : Rounded A u) (h1 : u ≤ 1 / 2) (vs : List ℝ) (hv : ∀ v ∈ vs, 0 ≤ v) {t x y : ℝ} (ht : 0 ≤ t) (hy : 0 ≤ y)
    (h : Acc t x y) : Acc (t + 2 * u * vs.length) (vs.foldl A.add x) (y + vs.sum) := by
  have h0 := hA.nonneg
  induction vs generalizing t x y with
  | nil => simpa using h
  | cons v vs ih =>
    have hv0 := hv v (List.mem_cons_self ..)
    have := ih (fun w hw => hv w (List.mem_cons_of_mem _ hw)) (t := 2 * u + t) (by linarith) (add_nonneg hy hv0)
      (hA.accAdd h1 hy hv0 h (Acc.refl ht v))
    rw [List.foldl_cons, List.sum_cons, ← add_assoc]
    refine this.mono ?_
    rw [List.length_cons]
    push_cast
    linarith

/-- C103: in every arithmetic with relative errors of at most `u`, with no further bound on the inputs, the shear capacity of a web has
a relative error of at most `60 u`, even if rounding puts the web on the other side of the slenderness limit. -/
theorem C103_web {A : Arith ℝ} {u : ℝ} (hA : Rounded A u) (hu : 60 * u ≤ 1) {dp tw fy lim fref ratio v : ℝ} (hd : 0 < dp) (ht : 0 < tw)
    (hf : 0 < fy) (hl : 0 < lim) (hr : 0 < fref) (hq : 0 < ratio) (h : WebCapacity dp tw fy lim fref ratio v) :
    ∃ v', WebComputed A dp tw fy lim fref ratio v' ∧ Within (60 * u) v' v := by
  have h0 := hA.nonneg
  have h1 : u ≤ 1 / 2 := by linarith
  have rr := fun y => Acc.refl le_rfl y
  obtain ⟨a, ea, rfl⟩ := h
  obtain ⟨a', ea', acc, pa⟩ := alphaV_acc hA h1 hd ht hf hl hr ea
  have b := hA.accMul h1 (hA.accMul h1 (rr ratio) (rr fy)) (hA.accMul h1 (rr dp) (rr tw))
  refine ⟨_, ⟨a', ea', rfl⟩, ?_⟩
  have pv : 0 < S5Shear.VwGeneric (dp * tw) fy ratio := by unfold S5Shear.VwGeneric; positivity
  exact ((hA.accMul h1 acc b).mono (t' := 30 * u) (by linarith)).within (mul_pos pa pv) (by linarith) (by linarith) (by linarith)

/-- C103: the other shear capacities: circular hollow sections, non-uniform stress, welds and interfaces.  The error for welds grows
with their number. -/
theorem C103_others {A : Arith ℝ} {u : ℝ} (hA : Rounded A u) (hu : 16 * u ≤ 1) :
    (∀ {Ae fy ratio area : ℝ}, 0 < Ae → 0 < fy → 0 < ratio → 0 < area →
      Within (16 * u) (S5ShearR.VwCHS A Ae fy ratio area) (S5Shear.VwCHS Ae fy ratio area)) ∧
    (∀ {fvm fva a : ℝ}, 0 ≤ fvm → 0 < fva → S5Shear.alphaVma fvm fva = .ok a →
      ∃ a', S5ShearR.alphaVma A fvm fva = .ok a' ∧ Within (16 * u) a' a) ∧
    (∀ {t fy Q I ratio v : ℝ}, 0 < t → 0 < fy → 0 < Q → 0 < I → 0 < ratio → S5Shear.VwInterface t fy Q I ratio = .ok v →
      ∃ v', S5ShearR.VwInterface A t fy Q I ratio = .ok v' ∧ Within (16 * u) v' v) ∧
    (∀ {vs : List ℝ} {Q I v : ℝ}, (∀ w ∈ vs, 0 < w) → vs ≠ [] → 0 < Q → 0 < I → 4 * (vs.length + 2) * u ≤ 1 →
      S5Shear.VwWeld (.exact ℝ) (.list vs) Q I = .ok v →
      ∃ v', S5ShearR.VwWeld A vs Q I = .ok v' ∧ Within (4 * (vs.length + 2) * u) v' v) := by
  have h0 := hA.nonneg
  have h1 : u ≤ 1 / 2 := by linarith
  have rr := fun y => Acc.refl le_rfl y
  refine ⟨?_, ?_, ?_, ?_⟩
  · intro Ae fy ratio area pA pf pr pa
    have := hA.accMul h1 (hA.accMul h1 (rr area) (hA.accMul h1 (rr ratio) (rr fy))) (rr Ae)
    exact this.within (by positivity) (by linarith) (by linarith) (by linarith)
  · intro fvm fva a pm pv h
    have q := hA.accDiv h1 (rr fvm) (rr fva)
    have e9 : ((9 / 10 : ℚ) : ℝ) = 9 / 10 := by norm_num
    have l9 := hA.accLit h1 (9 / 10)
    rw [e9] at l9
    have pq : 0 ≤ fvm / fva := by positivity
    have s := hA.accAdd h1 (by norm_num) pq l9 (q.mono (t' := 2 * u) (by linarith))
    have ps : 0 < 9 / 10 + fvm / fva := by positivity
    have d := hA.accDiv h1 (rr 2) s
    have m := Acc.min (by positivity) zero_lt_one d (Acc.refl (t := 2 * u + (0 + (2 * u + 2 * u))) (by linarith) 1)
    simp only [S5Shear.alphaVma, rdiv_ok pv.ne', Except.bind_ok', rdiv_ok ps.ne'] at h
    injection h with h
    rw [h] at m
    refine ⟨min (A.div 2 (A.add (A.lit (9 / 10)) (A.div fvm fva))) 1, ?_, ?_⟩
    · simp only [S5ShearR.alphaVma, Arith.quot_ok _ pv.ne', Except.bind_ok', Arith.quot_ok _ (s.pos ps).ne']
      rfl
    · exact m.within (by rw [← h]; positivity) (by linarith) (by linarith) (by linarith)
  · intro t fy Q I ratio v pt pf pQ pI pr h
    have m := hA.accDiv h1 (hA.accMul h1 (hA.accMul h1 (hA.accMul h1 (rr fy) (rr ratio)) (rr t)) (rr I)) (rr Q)
    rw [S5Shear.VwInterface, rdiv_ok pQ.ne'] at h
    injection h with h
    rw [h] at m
    refine ⟨_, Arith.quot_ok _ pQ.ne', ?_⟩
    exact m.within (by rw [← h]; positivity) (by linarith) (by linarith) (by linarith)
  · intro vs Q I v hv hne pQ pI hn h
    have s := sum_acc hA h1 vs (fun w hw => (hv w hw).le) le_rfl le_rfl (rr 0)
    rw [zero_add, zero_add] at s
    have pS : 0 < vs.sum := List.sum_pos vs hv hne
    have m := hA.accDiv h1 (hA.accMul h1 s (rr I)) (rr Q)
    have hsum : ∀ (l : List ℝ) (z : ℝ), l.foldl (Rt.exact ℝ).add z = z + l.sum := by
      intro l
      induction l with
      | nil => intro z; simp
      | cons w l ih =>
        intro z
        rw [List.foldl_cons, ih, List.sum_cons, ← add_assoc]
        rfl
    have hv' : v = vs.sum * I / Q := by
      simp only [S5Shear.VwWeld, hsum, zero_add, pyDiv, if_neg pQ.ne'] at h
      injection h with h
      exact h.symm
    rw [← hv'] at m
    refine ⟨_, Arith.quot_ok _ pQ.ne', ?_⟩
    have n0 : (0 : ℝ) ≤ u * vs.length := by positivity
    exact m.within (by rw [hv']; positivity) (by linarith) (by linarith) (by linarith)

/-- C103 in double precision: a web's capacity is right to 14 digits -/
theorem C103_double {dp tw fy lim fref ratio v : ℝ} (hd : 0 < dp) (ht : 0 < tw) (hf : 0 < fy) (hl : 0 < lim) (hr : 0 < fref)
    (hq : 0 < ratio) (h : WebCapacity dp tw fy lim fref ratio v) :
    ∃ v', WebComputed Arith.double dp tw fy lim fref ratio v' ∧ Within (1 / 10 ^ 14) v' v := by
  obtain ⟨v', c, p, e⟩ := C103_web C102_double (by norm_num) hd ht hf hl hr hq h
  exact ⟨v', c, p, e.trans (mul_le_mul_of_nonneg_right (by norm_num) p.le)⟩

/-- a slender web: 1 m deep and 10 mm thick of grade 250 -/
example : ∃ v v', WebCapacity 1 (1 / 100) 250000000 82 250000000 (6 / 10) v ∧
    WebComputed Arith.double 1 (1 / 100) 250000000 82 250000000 (6 / 10) v' ∧ Within (1 / 10 ^ 14) v' v := by
  have h := (webCapacity_iff (dp := 1) (tw := 1 / 100) (fy := 250000000) (lim := 82) (fref := 250000000) (ratio := 6 / 10)
    (by norm_num) (by norm_num) (by norm_num) (by norm_num) (by norm_num) (by norm_num)).2 rfl
  obtain ⟨v', c, e⟩ := C103_double (by norm_num) (by norm_num) (by norm_num) (by norm_num) (by norm_num) (by norm_num) h
  exact ⟨_, v', h, c, e⟩

/-- two welds of 1 MN/m on a 310UB -/
example : ∃ v, S5Shear.VwWeld (.exact ℝ) (.list [1000000, 1000000]) (3 / 10000) (1 / 10000) = .ok v := by
  simp only [S5Shear.VwWeld, pyDiv]
  rw [if_neg (by norm_num)]
  exact ⟨_, rfl⟩

end BeamDesign
