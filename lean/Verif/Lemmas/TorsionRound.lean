import Verif.Spec.RoundedTorsion
import Verif.Lemmas.Acc
import Verif.Lemmas.S6
import Verif.Props.S6
import Verif.Props.WebRound

/-!
# Relative errors of the torsional formulas
-/

namespace BeamDesign

open Spec

variable {A : Arith ℝ} {u : ℝ}

/-- the length may be rounded already -/
theorem fEuler_acc (hA : Rounded A u) (h1 : u ≤ 1 / 2) {E le le' r F s : ℝ} (hE : 0 < E) (hl : 0 < le) (hr : 0 < r) (al : Acc s le' le)
    (h : S6.fEuler E le r = .ok F) : ∃ x, S6R.fEuler A E le' r = .ok x ∧ Acc (12 * u + 2 * s) x F ∧ 0 < F := by
  have h0 := hA.nonneg
  have rr := fun y => Acc.refl le_rfl y
  have hp : (0 : ℝ) < piD := piD_pos
  rw [fEuler_ok hr.ne' hl.ne'] at h
  injection h with h
  have a1 := hA.accDiv h1 al (rr r)
  have a2 := hA.accMul h1 a1 a1
  have a3 := hA.accMul h1 (hA.accMul h1 (rr piD) (rr piD)) (rr E)
  have p : 0 < le / r * (le / r) := by positivity
  refine ⟨_, ?_, (hA.accDiv h1 a3 a2).mono ?_ |> fun x => h ▸ x, ?_⟩
  · simp only [S6R.fEuler, Arith.quot_ok _ hr.ne', Except.bind_ok', Arith.quot_ok _ (a2.ne_zero p.ne')]
  · linarith
  · rw [← h]; positivity

theorem rol_acc (hA : Rounded A u) (h1 : u ≤ 1 / 2) {rx : ℝ} (ry xo yo : ℝ) (hr : 0 < rx) :
    ∃ x, S6R.rol A rx ry xo yo = .ok x ∧ Acc (6 * u) x (√(roSq rx ry xo yo)) := by
  have h0 := hA.nonneg
  have rr := fun y => Acc.refl le_rfl y
  have sq := fun y => hA.accMul h1 (rr y) (rr y)
  have a1 := hA.accAdd h1 (mul_self_nonneg rx) (mul_self_nonneg ry) (sq rx) (sq ry)
  have a2 := hA.accAdd h1 (by nlinarith [mul_self_nonneg rx, mul_self_nonneg ry]) (mul_self_nonneg xo) a1
    ((sq xo).mono (t' := 2 * u + (2 * u + (0 + 0))) (by linarith))
  have a3 := hA.accAdd h1 (by nlinarith [mul_self_nonneg rx, mul_self_nonneg ry, mul_self_nonneg xo]) (mul_self_nonneg yo) a2
    ((sq yo).mono (t' := 2 * u + (2 * u + (2 * u + (0 + 0)))) (by linarith))
  have hp := (roSq_pos ry xo yo hr).le
  refine ⟨_, Arith.root_ok _ (a3.nonneg hp), (hA.accSqrt h1 hp a3).mono (by linarith)⟩

theorem fEulerTorsion_acc (hA : Rounded A u) (h1 : u ≤ 1 / 2) {An lez lez' rx ry xo yo J Iw E G F s : ℝ} (hAn : 0 < An) (hl : 0 < lez)
    (hs0 : 0 ≤ s) (al : Acc s lez' lez) (hr : 0 < rx) (hJ : 0 < J) (hIw : 0 ≤ Iw) (hE : 0 < E) (hG : 0 < G)
    (h : S6.fEulerTorsion An lez rx ry xo yo J Iw E G = .ok F) :
    ∃ x, S6R.fEulerTorsion A An lez' rx ry xo yo J Iw E G = .ok x ∧ Acc (38 * u + 2 * s) x F ∧ 0 < F := by
  have h0 := hA.nonneg
  have rr := fun y => Acc.refl le_rfl y
  have hp : (0 : ℝ) < piD := piD_pos
  have hq := roSq_pos ry xo yo hr
  have hs := Real.sqrt_pos.2 hq
  rw [fEulerTorsion_ok hAn hl hr hJ hG] at h
  injection h with h
  obtain ⟨ro, er, ar⟩ := rol_acc hA h1 ry xo yo hr
  have d1 := hA.accMul h1 (hA.accMul h1 (rr An) ar) ar
  have gj := hA.accMul h1 (rr G) (rr J)
  have a := hA.accDiv h1 gj d1
  have n2 := hA.accMul h1 (hA.accMul h1 (hA.accMul h1 (rr piD) (rr piD)) (rr E)) (rr Iw)
  have d2 := hA.accMul h1 gj (hA.accMul h1 al al)
  have b := hA.accDiv h1 n2 d2
  have pb : 0 ≤ piD * piD * E * Iw / (G * J * (lez * lez)) := by positivity
  have c := hA.accAdd h1 zero_le_one pb (Acc.refl (t := 2 * u + (2 * u + (2 * u + (2 * u + (0 + 0) + 0) + 0) +
    (2 * u + (2 * u + (0 + 0) + (2 * u + (s + s)))))) (by linarith) 1) b
  have e : An * √(roSq rx ry xo yo) * √(roSq rx ry xo yo) = An * roSq rx ry xo yo := by
    rw [mul_assoc, Real.mul_self_sqrt hq.le]
  have fin := (hA.accMul h1 a c).mono (t' := 38 * u + 2 * s) (by linarith)
  rw [e, h] at fin
  refine ⟨_, ?_, fin, ?_⟩
  · simp only [S6R.fEulerTorsion, er, Except.bind_ok']
    rw [Arith.quot_ok _ (d1.ne_zero (by positivity)), Except.bind_ok', Arith.quot_ok _ (d2.ne_zero (by positivity)), Except.bind_ok']
    rfl
  · rw [← h]; positivity

set_option maxHeartbeats 1600000 in
/-- the steps of `f_oxz` after the two stresses -/
theorem solve_acc (hA : Rounded A u) {F1 F2 f1 f2 b b' : ℝ} (p1 : 0 < F1) (p2 : 0 < F2) (b0 : 0 < b) (b1 : b ≤ 1)
    (a1 : Acc (38 * u) f1 F1) (a2 : Acc (38 * u) f2 F2) (ab : |b' - b| ≤ 38 * u) {D κ : ℝ}
    (hD : D = (F1 + F2) ^ 2 - 4 * b * F1 * F2) (pD : 0 < D) (hκ : κ = (F1 + F2) ^ 4 / (b * F1 * F2 * D))
    (hu : 1100 * u * κ ≤ 1) :
    ∃ x, S6R.solveFoxz A b' f1 f2 = .ok (.real x) ∧ Acc (515 * u * κ) x (1 / (2 * b) * (F1 + F2 - √D)) ∧
      0 < 1 / (2 * b) * (F1 + F2 - √D) := by
  have h0 := hA.nonneg
  have rr := fun y => Acc.refl le_rfl y
  set S := F1 + F2 with hS
  set P := F1 * F2 with hP
  have pS : 0 < S := by positivity
  have pP : 0 < P := by positivity
  have hPS : 4 * P ≤ S ^ 2 := by rw [hS, hP]; nlinarith [sq_nonneg (F1 - F2)]
  have hDS : D ≤ S ^ 2 := by rw [hD]; nlinarith [mul_pos b0 pP]
  have hbP : 0 < b * P := mul_pos b0 pP
  have hbP1 : b * P ≤ P := by nlinarith
  have hD' : D = S ^ 2 - 4 * (b * P) := by rw [hD, hP]; ring
  set d := √D with hd
  have pd : 0 < d := Real.sqrt_pos.2 pD
  have dd : d ^ 2 = D := Real.sq_sqrt pD.le
  have dS : d ≤ S := Real.sqrt_le_iff.2 ⟨pS.le, hDS⟩
  have S4 : S ^ 4 = S ^ 2 * S ^ 2 := by ring
  -- the condition number
  have pbPD : 0 < b * P * D := by positivity
  have eκ : κ * (b * P * D) = S ^ 4 := by
    rw [hκ, show b * F1 * F2 * D = b * P * D by rw [hP]; ring]
    field_simp
  have kD : 4 * S ^ 2 ≤ κ * D := by
    have : κ * D * (b * P) = S ^ 4 := by linarith
    have h2 : 4 * S ^ 2 * (b * P) ≤ S ^ 4 := by
      rw [S4]
      have := mul_le_mul_of_nonneg_left ((show 4 * (b * P) ≤ 4 * P by linarith).trans hPS) (sq_nonneg S)
      linarith
    by_contra hc
    push Not at hc
    have := mul_lt_mul_of_pos_right hc hbP
    linarith
  have pκ : 0 < κ := by
    rw [hκ]
    positivity
  have k4 : 4 ≤ κ := by
    by_contra hc
    push Not at hc
    have := mul_lt_mul_of_pos_right hc pD
    linarith
  have kb : 4 ≤ κ * b := by
    have h1 : κ * b * (P * D) = S ^ 4 := by linarith
    have h2 : 4 * (P * D) ≤ S ^ 4 := by
      rw [S4]
      have := mul_le_mul hPS hDS pD.le (sq_nonneg S)
      linarith
    by_contra hc
    push Not at hc
    have := mul_lt_mul_of_pos_right hc (mul_pos pP pD)
    linarith
  have hu4 : 4400 * u ≤ 1 := by
    have := mul_le_mul_of_nonneg_left k4 (show 0 ≤ 1100 * u by positivity)
    linarith
  have h1 : u ≤ 1 / 2 := by linarith
  -- the root does not become complex, and a bound for `1 / δ`
  have huD : 4400 * u * S ^ 2 ≤ D := by
    have := mul_le_mul_of_nonneg_right hu pD.le
    have k2 := mul_le_mul_of_nonneg_left kD (show 0 ≤ 1100 * u by positivity)
    linarith
  -- the sum and the product
  have as : Acc (40 * u) (A.add f1 f2) S := (hA.accAdd h1 p1.le p2.le a1 a2).mono (by linarith)
  have aq : Acc (82 * u) (A.sq (A.add f1 f2)) (S ^ 2) := (hA.accSq h1 as).mono (by linarith)
  have am : Acc (82 * u) (A.mul (A.mul (A.mul 4 b') f1) f2) (4 * b' * F1 * F2) :=
    (hA.accMul h1 (hA.accMul h1 (hA.accMul h1 (rr 4) (rr b')) a1) a2).mono (by linarith)
  set s' := A.add f1 f2 with hs'
  set q' := A.sq s' with hq'
  set m' := A.mul (A.mul (A.mul 4 b') f1) f2 with hm'
  have es := as.rel (by linarith) (by linarith)
  rw [abs_of_pos pS] at es
  have eq := aq.rel (by linarith) (by linarith)
  rw [abs_of_pos (by positivity : 0 < S ^ 2)] at eq
  have hb' : |b'| ≤ 101 / 100 := by
    rw [abs_le] at ab ⊢
    constructor <;> linarith [ab.1, ab.2]
  have em := am.rel (by linarith) (by linarith)
  have em2 : |4 * b' * F1 * F2| ≤ 101 / 100 * S ^ 2 := by
    rw [show 4 * b' * F1 * F2 = b' * (4 * P) by rw [hP]; ring, abs_mul, abs_of_pos (by positivity : 0 < 4 * P)]
    exact mul_le_mul hb' hPS (by positivity) (by norm_num)
  have em3 : |4 * b' * F1 * F2 - 4 * (b * P)| ≤ 38 * u * S ^ 2 := by
    rw [show 4 * b' * F1 * F2 - 4 * (b * P) = (b' - b) * (4 * P) by rw [hP]; ring, abs_mul, abs_of_pos (by positivity : 0 < 4 * P)]
    exact mul_le_mul ab hPS (by positivity) (by positivity)
  have uS : 0 ≤ u * S ^ 2 := by positivity
  have em4 : |m' - 4 * (b * P)| ≤ 204 * u * S ^ 2 := by
    have t := abs_sub_le m' (4 * b' * F1 * F2) (4 * (b * P))
    have := mul_le_mul_of_nonneg_left em2 (show 0 ≤ 2 * (82 * u) by positivity)
    linarith
  have ed0 : |(q' - m') - D| ≤ 368 * u * S ^ 2 := by
    rw [hD', show q' - m' - (S ^ 2 - 4 * (b * P)) = (q' - S ^ 2) - (m' - 4 * (b * P)) by ring]
    exact (abs_sub _ _).trans (by linarith)
  have ed1 : |q' - m'| ≤ 2 * S ^ 2 := by
    have t := abs_sub_abs_le_abs_sub (q' - m') D
    rw [abs_of_pos pD] at t
    have := mul_le_mul_of_nonneg_right (show 368 * u ≤ 1 by linarith) (sq_nonneg S)
    linarith
  have ed : |A.sub q' m' - D| ≤ 370 * u * S ^ 2 := by
    have t := abs_sub_le (A.sub q' m') (q' - m') D
    have r := hA.sub q' m'
    have := mul_le_mul_of_nonneg_left ed1 h0
    linarith
  set D' := A.sub q' m' with hD''
  have pD' : 0 ≤ D' := by
    rw [abs_le] at ed
    linarith [ed.1]
  -- the root, with `w = u S² / d`
  set w := u * S ^ 2 / d with hw
  have w0 : 0 ≤ w := by positivity
  have wd : w * d = u * S ^ 2 := by rw [hw]; field_simp
  have wS : u * S ≤ w := by
    rw [hw, le_div_iff₀ pd]
    have := mul_le_mul_of_nonneg_left dS (mul_nonneg h0 pS.le)
    linarith
  have wd2 : 4400 * w ≤ d := by
    by_contra hc
    push Not at hc
    have := mul_lt_mul_of_pos_right hc pd
    linarith
  have er0 : |√D' - d| ≤ 370 * w := by
    have hsd := Real.sq_sqrt pD'
    have hsn := Real.sqrt_nonneg D'
    have e1 : (√D' - d) * (√D' + d) = D' - D := by
      rw [show (√D' - d) * (√D' + d) = √D' ^ 2 - d ^ 2 by ring, hsd, dd]
    have e2 : |√D' - d| * (√D' + d) = |D' - D| := by
      rw [← e1, abs_mul, abs_of_pos (show 0 < √D' + d by linarith)]
    have e3 : |√D' - d| * d ≤ 370 * w * d := by
      have : |√D' - d| * d ≤ |√D' - d| * (√D' + d) := mul_le_mul_of_nonneg_left (by linarith) (abs_nonneg _)
      linarith
    exact le_of_mul_le_mul_right e3 pd
  have er1 : √D' ≤ 2 * S := by
    rw [abs_le] at er0
    linarith [er0.2]
  have er : |A.sqrt D' - d| ≤ 372 * w := by
    have t := abs_sub_le (A.sqrt D') (√D') d
    have r := hA.sqrt D' pD'
    have := mul_le_mul_of_nonneg_left er1 h0
    linarith
  set r' := A.sqrt D' with hr'
  have eg0 : |(s' - r') - (S - d)| ≤ 452 * w := by
    rw [show s' - r' - (S - d) = (s' - S) - (r' - d) by ring]
    exact (abs_sub _ _).trans (by linarith)
  have eg1 : |s' - r'| ≤ 2 * S := by
    have t := abs_sub_abs_le_abs_sub (s' - r') (S - d)
    rw [abs_of_nonneg (show 0 ≤ S - d by linarith)] at t
    linarith
  have eg : |A.sub s' r' - (S - d)| ≤ 454 * w := by
    have t := abs_sub_le (A.sub s' r') (s' - r') (S - d)
    have r := hA.sub s' r'
    have := mul_le_mul_of_nonneg_left eg1 h0
    linarith
  -- what remains after the cancellation
  have hg : (S - d) * (S + d) = 4 * (b * P) := by
    have : (S - d) * (S + d) = S ^ 2 - d ^ 2 := by ring
    rw [this, dd, hD']; ring
  have pg : 0 < S - d := by
    by_contra hc
    push Not at hc
    have := mul_nonpos_of_nonpos_of_nonneg hc (show 0 ≤ S + d by linarith)
    linarith
  have hgS : 2 * (b * P) ≤ (S - d) * S := by
    have := mul_le_mul_of_nonneg_left (show S + d ≤ 2 * S by linarith) pg.le
    linarith
  have hwg : 2 * w ≤ u * κ * (S - d) := by
    -- `2 w = 2 u S² / d ≤ 2 u S³ / D = 2 u κ b P / S ≤ u κ (S - d)`
    have e1 : 2 * w * (S * D) ≤ u * κ * (S - d) * (S * D) := by
      have l1 : w * D = u * S ^ 2 * d := by rw [← dd, ← wd]; ring
      have l2 : 2 * w * (S * D) = 2 * u * S ^ 3 * d := by
        have : 2 * w * (S * D) = 2 * S * (w * D) := by ring
        rw [this, l1]; ring
      have l3 : 2 * u * S ^ 3 * d ≤ 2 * u * S ^ 4 := by
        have := mul_le_mul_of_nonneg_left dS (show 0 ≤ 2 * u * S ^ 3 by positivity)
        linarith [this]
      have l4 : 2 * u * S ^ 4 = u * κ * D * (2 * (b * P)) := by rw [← eκ]; ring
      have l5 := mul_le_mul_of_nonneg_left hgS (show 0 ≤ u * κ * D by positivity)
      calc 2 * w * (S * D) ≤ u * κ * D * (2 * (b * P)) := by rw [l2, ← l4]; exact l3
        _ ≤ u * κ * D * ((S - d) * S) := l5
        _ = _ := by ring
    exact le_of_mul_le_mul_right e1 (by positivity)
  have ag : Acc (2 * (227 * (u * κ))) (A.sub s' r') (S - d) := by
    apply Acc.of_rel (by positivity) (by linarith)
    rw [abs_of_pos pg]
    linarith
  -- the factor in front
  have ukb : u ≤ u * κ * b / 4 := by
    have := mul_le_mul_of_nonneg_left kb h0
    linarith
  have abr : Acc (2 * (10 * (u * κ))) b' b := by
    apply Acc.of_rel (by positivity) (by linarith)
    rw [abs_of_pos b0]
    linarith
  have ah := hA.accDiv h1 (rr 1) (hA.accMul h1 (rr 2) abr)
  have fin := hA.accMul h1 ah ag
  have uκ : 4 * u ≤ u * κ := by
    have := mul_le_mul_of_nonneg_left k4 h0
    linarith
  refine ⟨A.mul (A.div 1 (A.mul 2 b')) (A.sub s' r'), ?_, fin.mono (by linarith), by positivity⟩
  have hne : A.mul 2 b' ≠ 0 := (hA.accMul h1 (rr 2) abr).ne_zero (by positivity)
  simp only [S6R.solveFoxz, Arith.quot_ok _ hne, Except.bind_ok']
  rw [← hs', ← hq', ← hm', ← hD'', if_neg (not_lt.2 pD')]
  rfl

end BeamDesign
