import Verif.Spec.CombineRound
import Verif.Props.Combination
import Verif.Props.Rounding
import Verif.Props.Local

/-! # Property C127: load combinations in floating point -/

set_option linter.unusedSectionVars false
set_option linter.unusedSimpArgs false

namespace BeamDesign

open Spec

section
variable {K : Type} [Field K] [LinearOrder K] [IsStrictOrderedRing K]

theorem combineRt_entry (rt : Rt K) (a k : K) (r s : LRow K) (c : LComp) :
    entry (combineRt rt a k r s) c = comb2 rt a k (entry r c) (entry s c) := by
  cases c <;> rfl

/-- the error of one rounded combination -/
theorem comb2_error {rt : Rt K} {F : K → Prop} {u η : K} (hr : Rounds rt F u η) (hu0 : 0 ≤ u) (hu : u ≤ 1 / 64)
    (hη : 0 ≤ η) {a k x y X Y : K} (ha : F a) (hk : F k) (hx : F x) (hy : F y) (hX : |x| ≤ X) (hY : |y| ≤ Y) :
    F (comb2 rt a k x y) ∧ |comb2 rt a k x y - (a * x + k * y)| ≤ 3 * u * (|a| * X + |k| * Y) + 3 * η := by
  obtain ⟨f1, e1⟩ := hr.mul a x ha hx
  obtain ⟨f2, e2⟩ := hr.mul k y hk hy
  obtain ⟨f3, e3⟩ := hr.add _ _ f1 f2
  refine ⟨f3, ?_⟩
  unfold comb2
  set p := rt.mul a x
  set q := rt.mul k y
  set s := rt.add p q
  have hA : |a * x| ≤ |a| * X := by rw [abs_mul]; exact mul_le_mul_of_nonneg_left hX (abs_nonneg _)
  have hB : |k * y| ≤ |k| * Y := by rw [abs_mul]; exact mul_le_mul_of_nonneg_left hY (abs_nonneg _)
  set A := |a| * X
  set B := |k| * Y
  have hA0 : 0 ≤ A := (abs_nonneg _).trans hA
  have hB0 : 0 ≤ B := (abs_nonneg _).trans hB
  have e1' : |p - a * x| ≤ u * A + η := e1.trans (by have := mul_le_mul_of_nonneg_left hA hu0; linarith)
  have e2' : |q - k * y| ≤ u * B + η := e2.trans (by have := mul_le_mul_of_nonneg_left hB hu0; linarith)
  have h4 : |p + q| ≤ (1 + u) * (A + B) + 2 * η := by
    have : p + q = (p - a * x) + (q - k * y) + (a * x + k * y) := by ring
    rw [this]
    refine (abs_add_three _ _ _).trans ?_
    have := abs_add_le (a * x) (k * y)
    linarith
  have h5 : |s - (a * x + k * y)| ≤ |s - (p + q)| + (|p - a * x| + |q - k * y|) := by
    have : s - (a * x + k * y) = (s - (p + q)) + ((p - a * x) + (q - k * y)) := by ring
    rw [this]
    exact (abs_add_le _ _).trans (by have := abs_add_le (p - a * x) (q - k * y); linarith)
  have h6 : |s - (p + q)| ≤ u * ((1 + u) * (A + B) + 2 * η) := e3.trans (mul_le_mul_of_nonneg_left h4 hu0)
  have h7 : u * (u * (A + B)) ≤ 1 * (u * (A + B)) :=
    mul_le_mul_of_nonneg_right (by linarith) (mul_nonneg hu0 (add_nonneg hA0 hB0))
  have h8 : u * η ≤ 1 / 64 * η := mul_le_mul_of_nonneg_right hu hη
  have h9 : u * ((1 + u) * (A + B) + 2 * η) = u * (A + B) + u * (u * (A + B)) + 2 * (u * η) := by ring
  rw [h9] at h6
  have : 3 * u * (A + B) = 3 * (u * (A + B)) := by ring
  rw [this]
  have h10 : u * (A + B) = u * A + u * B := by ring
  linarith

/-- the value computed between two knots -/
def between (rt : Rt K) (P0 P1 p y0 y1 : K) : K :=
  rt.add (rt.mul (rt.div (rt.sub y1 y0) (rt.sub P1 P0)) (rt.sub p P0)) y0

theorem interpGo_place {α : Type} (rt : Rt K) (P : α → K) (p : K) (rest : List α) : ∀ r0 : α, P r0 < p →
    (∀ r ∈ rest, P r ≠ p) →
    (∃ r ∈ r0 :: rest, ∀ g : α → K, interpGo rt p (P r0, g r0) (rest.map fun r => (P r, g r)) = g r) ∨
    (∃ r ∈ r0 :: rest, ∃ s ∈ r0 :: rest, P r < p ∧ p < P s ∧ ∀ g : α → K,
      interpGo rt p (P r0, g r0) (rest.map fun r => (P r, g r)) = between rt (P r) (P s) p (g r) (g s)) := by
  induction rest with
  | nil => intro r0 _ _; exact Or.inl ⟨r0, by simp, fun g => rfl⟩
  | cons q rest ih =>
    intro r0 h0 hne
    by_cases h : P q ≤ p
    · have h1 : P q < p := lt_of_le_of_ne h (hne q (by simp))
      rcases ih q h1 (fun r hr => hne r (List.mem_cons_of_mem _ hr)) with ⟨r, hr, e⟩ | ⟨r, hr, s, hs, l1, l2, e⟩
      · refine Or.inl ⟨r, List.mem_cons_of_mem _ hr, fun g => ?_⟩
        rw [List.map_cons, interpGo, if_pos h, e]
      · refine Or.inr ⟨r, List.mem_cons_of_mem _ hr, s, List.mem_cons_of_mem _ hs, l1, l2, fun g => ?_⟩
        rw [List.map_cons, interpGo, if_pos h, e]
    · refine Or.inr ⟨r0, by simp, q, by simp, h0, not_le.1 h, fun g => ?_⟩
      rw [List.map_cons, interpGo, if_neg h, if_neg (ne_of_lt h0)]
      rfl

/-- Where a position lies does not depend on the values. -/
theorem npInterp_place {α : Type} (rt : Rt K) (P : α → K) (p : K) {l : List α} (hne : l ≠ []) (hp : ∀ r ∈ l, P r ≠ p) :
    (∃ r ∈ l, ∀ g : α → K, npInterp rt none none p (l.map fun r => (P r, g r)) = .ok (g r)) ∨
    (∃ r ∈ l, ∃ s ∈ l, P r < p ∧ p < P s ∧ ∀ g : α → K,
      npInterp rt none none p (l.map fun r => (P r, g r)) = .ok (between rt (P r) (P s) p (g r) (g s))) := by
  obtain ⟨r0, rest, rfl⟩ := List.exists_cons_of_ne_nil hne
  have hlast : ∀ g : α → K, ((P r0, g r0) :: rest.map fun r => (P r, g r)).getLast (by simp)
      = (P ((r0 :: rest).getLast (by simp)), g ((r0 :: rest).getLast (by simp))) := by
    intro g
    have := List.getLast_map (f := fun r => (P r, g r)) (l := r0 :: rest) (by simp)
    simpa using this
  by_cases h1 : p < P r0
  · refine Or.inl ⟨r0, by simp, fun g => ?_⟩
    simp only [List.map_cons, npInterp]
    rw [if_pos h1]
    rfl
  have h1' : P r0 < p := lt_of_le_of_ne (not_lt.1 h1) (hp r0 (by simp))
  by_cases h2 : P ((r0 :: rest).getLast (by simp)) < p
  · refine Or.inl ⟨_, List.getLast_mem (by simp), fun g => ?_⟩
    simp only [List.map_cons, npInterp]
    rw [if_neg h1, if_pos (by rw [hlast]; exact h2), hlast]
    rfl
  have key : ∀ g : α → K, npInterp rt none none p ((r0 :: rest).map fun r => (P r, g r))
      = .ok (interpGo rt p (P r0, g r0) (rest.map fun r => (P r, g r))) := by
    intro g
    simp only [List.map_cons, npInterp]
    rw [if_neg h1, if_neg (by rw [hlast]; exact h2)]
  simp only [key, Except.ok.injEq]
  exact interpGo_place rt P p rest r0 h1' fun r hr => hp r (List.mem_cons_of_mem _ hr)

/-- interpolated values and their combination -/
theorem interpVal_combRt {rt : Rt K} {F : K → Prop} {u η : K} (hr : Rounds rt F u η) (hu0 : 0 ≤ u) (hu : u ≤ 1 / 64)
    (hη : 0 ≤ η) {a k : K} (ha : F a) (hk : F k) {rs : List (LRow K × LRow K)} (hpos : ∀ r ∈ rs, r.1.pos = r.2.pos)
    (hwf : WellFormed (rs.map (·.1))) (hne : rs ≠ []) (hF1 : Machine F (rs.map (·.1))) (hF2 : Machine F (rs.map (·.2)))
    {M₁ M₂ : LComp → K} (hM : ∀ r ∈ rs, ∀ c, |entry r.1 c| ≤ M₁ c ∧ |entry r.2 c| ≤ M₂ c) {p : K} (hFp : F p)
    (hp : p ∉ (rs.map (·.1)).map (·.pos)) (c : LComp) :
    |interpVal rt (rs.map fun r => combineRt rt a k r.1 r.2) c p
      - comb2 rt a k (interpVal rt (rs.map (·.1)) c p) (interpVal rt (rs.map (·.2)) c p)| ≤ combError u η a k M₁ M₂ c := by
  have hM0 : 0 ≤ M₁ c ∧ 0 ≤ M₂ c := by
    obtain ⟨r, hr'⟩ := List.exists_mem_of_ne_nil rs hne
    exact ⟨(abs_nonneg _).trans (hM r hr' c).1, (abs_nonneg _).trans (hM r hr' c).2⟩
  have hb0 : 0 ≤ combError u η a k M₁ M₂ c := by
    unfold combError
    have := hM0.1
    have := hM0.2
    positivity
  have hp' : ∀ r ∈ rs, r.1.pos ≠ p := by
    intro r hr' h
    exact hp (List.mem_map.2 ⟨r.1, List.mem_map.2 ⟨r, hr', rfl⟩, h⟩)
  have e1 : (rs.map (·.1)).map (fun r => (r.pos, r.get c)) = rs.map fun r => (r.1.pos, entry r.1 c) := by
    rw [List.map_map]
    exact List.map_congr_left fun r _ => by simp only [Function.comp, entry_eq]
  have e2 : (rs.map (·.2)).map (fun r => (r.pos, r.get c)) = rs.map fun r => (r.1.pos, entry r.2 c) := by
    rw [List.map_map]
    exact List.map_congr_left fun r hr' => by simp only [Function.comp, entry_eq, hpos r hr']
  have e3 : (rs.map fun r => combineRt rt a k r.1 r.2).map (fun r => (r.pos, r.get c))
      = rs.map fun r => (r.1.pos, comb2 rt a k (entry r.1 c) (entry r.2 c)) := by
    rw [List.map_map]
    refine List.map_congr_left fun r hr' => ?_
    simp only [Function.comp, ← entry_eq, combineRt_entry]
    rfl
  unfold interpVal
  rw [e1, e2, e3]
  rcases npInterp_place rt (fun r : LRow K × LRow K => r.1.pos) p hne hp' with
    ⟨r, hr', e⟩ | ⟨r, hr', s, hs', l1, l2, e⟩
  · rw [e (fun r => entry r.1 c), e (fun r => entry r.2 c), e (fun r => comb2 rt a k (entry r.1 c) (entry r.2 c))]
    simpa using hb0
  rw [e (fun r => entry r.1 c), e (fun r => entry r.2 c), e (fun r => comb2 rt a k (entry r.1 c) (entry r.2 c))]
  simp only
  have hm : ∀ r ∈ rs, F r.1.pos ∧ F (entry r.1 c) ∧ F (entry r.2 c) ∧ 0 ≤ r.1.pos ∧ r.1.pos ≤ 1 := by
    intro r h
    have h1 := hF1 r.1 (List.mem_map.2 ⟨r, h, rfl⟩)
    have h2 := hF2 r.2 (List.mem_map.2 ⟨r, h, rfl⟩)
    have h3 := hwf.2 r.1 (List.mem_map.2 ⟨r, h, rfl⟩)
    exact ⟨h1.1, h1.2 c, h2.2 c, h3.1, h3.2⟩
  obtain ⟨fr, fr1, fr2, r0, r1⟩ := hm r hr'
  obtain ⟨fs, fs1, fs2, s0, s1⟩ := hm s hs'
  obtain ⟨br1, br2⟩ := hM r hr' c
  obtain ⟨bs1, bs2⟩ := hM s hs' c
  obtain ⟨g1, c1⟩ := comb2_error hr hu0 hu hη ha hk fr1 fr2 br1 br2
  obtain ⟨g2, c2⟩ := comb2_error hr hu0 hu hη ha hk fs1 fs2 bs1 bs2
  have hX : 0 < s.1.pos - r.1.pos := by linarith
  obtain ⟨fX, eX⟩ := hr.sub s.1.pos r.1.pos fs fr
  have fX0 : rt.sub s.1.pos r.1.pos ≠ 0 := by
    intro h0
    rw [h0, zero_sub, abs_neg, abs_of_pos hX] at eX
    have : u * (s.1.pos - r.1.pos) ≤ 1 / 64 * (s.1.pos - r.1.pos) := mul_le_mul_of_nonneg_right hu hX.le
    linarith
  obtain ⟨ft, et⟩ := hr.sub p r.1.pos hFp fr
  -- one interpolation: the error, and the result is a machine number
  have one : ∀ y0 y1 M : K, F y0 → F y1 → |y0| ≤ M → |y1| ≤ M →
      F (between rt r.1.pos s.1.pos p y0 y1) ∧
      |between rt r.1.pos s.1.pos p y0 y1 - (y0 + (y1 - y0) * ((p - r.1.pos) / (s.1.pos - r.1.pos)))|
        ≤ 16 * u * M + 4 * η := by
    intro y0 y1 M f0 f1 b0 b1
    obtain ⟨fd, ed⟩ := hr.sub y1 y0 f1 f0
    obtain ⟨fq, eq⟩ := hr.div _ _ fd fX fX0
    obtain ⟨fm, em⟩ := hr.mul _ _ fq ft
    obtain ⟨fv, ev⟩ := hr.add _ _ fm f0
    refine ⟨fv, interp_error hu0 hu hη hX (by linarith) (by linarith) (by linarith) ed eX eq et em ev b0 b1⟩
  obtain ⟨F1, E1⟩ := one _ _ _ fr1 fs1 br1 bs1
  obtain ⟨F2, E2⟩ := one _ _ _ fr2 fs2 br2 bs2
  set lam := (p - r.1.pos) / (s.1.pos - r.1.pos) with hlam
  have hl0 : 0 ≤ lam := div_nonneg (by linarith) hX.le
  have hl1 : lam ≤ 1 := (div_le_one hX).2 (by linarith)
  set P := |a| * M₁ c + |k| * M₂ c with hP
  have hP0 : 0 ≤ P := by
    have := hM0.1
    have := hM0.2
    positivity
  have hcomb : ∀ x y z : K, |x| ≤ M₁ c → |y| ≤ M₂ c → |z - (a * x + k * y)| ≤ 3 * u * P + 3 * η →
      |z| ≤ (1 + 3 * u) * P + 3 * η := by
    intro x y z hx hy hz
    have h1 : |a * x + k * y| ≤ P := by
      refine (abs_add_le _ _).trans ?_
      rw [abs_mul, abs_mul]
      exact add_le_add (mul_le_mul_of_nonneg_left hx (abs_nonneg _)) (mul_le_mul_of_nonneg_left hy (abs_nonneg _))
    have h2 : z = (z - (a * x + k * y)) + (a * x + k * y) := by ring
    rw [h2]
    refine (abs_add_le _ _).trans ?_
    linarith
  obtain ⟨F3, E3⟩ := one _ _ _ g1 g2 (hcomb _ _ _ br1 br2 c1) (hcomb _ _ _ bs1 bs2 c2)
  set v1 := between rt r.1.pos s.1.pos p (entry r.1 c) (entry s.1 c)
  set v2 := between rt r.1.pos s.1.pos p (entry r.2 c) (entry s.2 c)
  set v3 := between rt r.1.pos s.1.pos p (comb2 rt a k (entry r.1 c) (entry r.2 c))
    (comb2 rt a k (entry s.1 c) (entry s.2 c))
  set z0 := comb2 rt a k (entry r.1 c) (entry r.2 c)
  set z1 := comb2 rt a k (entry s.1 c) (entry s.2 c)
  set w1 := entry r.1 c + (entry s.1 c - entry r.1 c) * lam with hw1
  set w2 := entry r.2 c + (entry s.2 c - entry r.2 c) * lam with hw2
  have uη : u * η ≤ 1 / 64 * η := mul_le_mul_of_nonneg_right hu hη
  have uP : 0 ≤ u * P := mul_nonneg hu0 hP0
  have uuP : u * (u * P) ≤ 1 / 64 * (u * P) := mul_le_mul_of_nonneg_right hu uP
  -- the exact curve of the combined entries
  have W : |(z0 + (z1 - z0) * lam) - (a * w1 + k * w2)| ≤ 3 * u * P + 3 * η := by
    have : (z0 + (z1 - z0) * lam) - (a * w1 + k * w2)
        = (1 - lam) * (z0 - (a * entry r.1 c + k * entry r.2 c)) + lam * (z1 - (a * entry s.1 c + k * entry s.2 c)) := by
      rw [hw1, hw2]; ring
    rw [this]
    refine (abs_add_le _ _).trans ?_
    rw [abs_mul, abs_mul, abs_of_nonneg hl0, abs_of_nonneg (by linarith : (0:K) ≤ 1 - lam)]
    have h1 := mul_le_mul_of_nonneg_left c1 (by linarith : (0:K) ≤ 1 - lam)
    have h2 := mul_le_mul_of_nonneg_left c2 hl0
    calc _ ≤ (1 - lam) * (3 * u * P + 3 * η) + lam * (3 * u * P + 3 * η) := add_le_add h1 h2
      _ = _ := by ring
  -- the combination of the answers
  have wb : ∀ y0 y1 M : K, |y0| ≤ M → |y1| ≤ M → |y0 + (y1 - y0) * lam| ≤ M := by
    intro y0 y1 M h0 h1
    have : y0 + (y1 - y0) * lam = (1 - lam) * y0 + lam * y1 := by ring
    rw [this]
    refine (abs_add_le _ _).trans ?_
    rw [abs_mul, abs_mul, abs_of_nonneg hl0, abs_of_nonneg (by linarith : (0:K) ≤ 1 - lam)]
    have g1 := mul_le_mul_of_nonneg_left h0 (by linarith : (0:K) ≤ 1 - lam)
    have g2 := mul_le_mul_of_nonneg_left h1 hl0
    calc _ ≤ (1 - lam) * M + lam * M := add_le_add g1 g2
      _ = M := by ring
  have vb : ∀ v w M : K, 0 ≤ M → |w| ≤ M → |v - w| ≤ 16 * u * M + 4 * η → |v| ≤ 5 / 4 * M + 4 * η := by
    intro v w M h0 h1 h2
    have h3 : v = (v - w) + w := by ring
    rw [h3]
    refine (abs_add_le _ _).trans ?_
    have : u * M ≤ 1 / 64 * M := mul_le_mul_of_nonneg_right hu h0
    linarith
  have b1 := vb v1 w1 _ hM0.1 (wb _ _ _ br1 bs1) E1
  have b2 := vb v2 w2 _ hM0.2 (wb _ _ _ br2 bs2) E2
  obtain ⟨-, C⟩ := comb2_error hr hu0 hu hη ha hk F1 F2 b1 b2
  have hA := mul_le_mul_of_nonneg_left E1 (abs_nonneg a)
  have hB := mul_le_mul_of_nonneg_left E2 (abs_nonneg k)
  rw [← abs_mul] at hA hB
  have hsplit : v3 - comb2 rt a k v1 v2 = (v3 - (z0 + (z1 - z0) * lam)) + ((z0 + (z1 - z0) * lam) - (a * w1 + k * w2))
      + (-(a * (v1 - w1)) + -(k * (v2 - w2))) + -(comb2 rt a k v1 v2 - (a * v1 + k * v2)) := by ring
  rw [hsplit]
  have t1 := abs_add_le (v3 - (z0 + (z1 - z0) * lam) + ((z0 + (z1 - z0) * lam) - (a * w1 + k * w2))
      + (-(a * (v1 - w1)) + -(k * (v2 - w2)))) (-(comb2 rt a k v1 v2 - (a * v1 + k * v2)))
  have t2 := abs_add_three (v3 - (z0 + (z1 - z0) * lam)) ((z0 + (z1 - z0) * lam) - (a * w1 + k * w2))
      (-(a * (v1 - w1)) + -(k * (v2 - w2)))
  have t3 := abs_add_le (-(a * (v1 - w1))) (-(k * (v2 - w2)))
  rw [abs_neg, abs_neg] at t3
  rw [abs_neg] at t1
  refine t1.trans ?_
  have s1 : 16 * u * ((1 + 3 * u) * P + 3 * η) = 16 * (u * P) + 48 * (u * (u * P)) + 48 * (u * η) := by ring
  rw [s1] at E3
  have s2 : 3 * u * (|a| * (5 / 4 * M₁ c + 4 * η) + |k| * (5 / 4 * M₂ c + 4 * η)) + 3 * η
      = 15 / 4 * (u * P) + 12 * ((|a| + |k|) * (u * η)) + 3 * η := by rw [hP]; ring
  rw [s2] at C
  have s3 : (|a| + |k|) * (u * η) ≤ (|a| + |k|) * (1 / 64 * η) :=
    mul_le_mul_of_nonneg_left uη (by positivity)
  have s4 : |a| * (16 * u * M₁ c + 4 * η) + |k| * (16 * u * M₂ c + 4 * η)
      = 16 * (u * P) + 4 * ((|a| + |k|) * η) := by rw [hP]; ring
  have s5 : combError u η a k M₁ M₂ c = 40 * (u * P) + 11 * η + 5 * ((|a| + |k|) * η) := by
    unfold combError; rw [hP]; ring
  rw [s5]
  have s6 : 0 ≤ (|a| + |k|) * η := by positivity
  have s7 : (|a| + |k|) * (1 / 64 * η) = 1 / 64 * ((|a| + |k|) * η) := by ring
  rw [s7] at s3
  have s8 : 3 * u * P = 3 * (u * P) := by ring
  rw [s8] at W
  linarith

/-! ## Answers -/

theorem close_nil (rt : Rt K) (a k : K) (ε : LComp → K) (cs : List LComp) : CloseAnswers rt a k ε cs [] [] [] :=
  ⟨rfl, rfl, by simp⟩

theorem close_append {rt : Rt K} {a k : K} {ε : LComp → K} {cs : List LComp} {x x' y y' z z' : List (Row K)}
    (h : CloseAnswers rt a k ε cs x y z) (h' : CloseAnswers rt a k ε cs x' y' z') :
    CloseAnswers rt a k ε cs (x ++ x') (y ++ y') (z ++ z') := by
  obtain ⟨h1, h2, h3⟩ := h
  obtain ⟨h1', h2', h3'⟩ := h'
  refine ⟨by simp [h1, h1'], by simp [h2, h2'], ?_⟩
  intro i u v w hu hv hw
  by_cases hi : i < z.length
  · rw [List.getElem?_append_left (by omega)] at hu hv hw
    exact h3 i u v w hu hv hw
  · rw [List.getElem?_append_right (by omega)] at hu hv hw
    rw [h1] at hu
    rw [h2] at hv
    exact h3' _ u v w hu hv hw

theorem close_setPos {rt : Rt K} {a k : K} {ε : LComp → K} {cs : List LComp} {x y z : List (Row K)} (p : K)
    (h : CloseAnswers rt a k ε cs x y z) :
    CloseAnswers rt a k ε cs (x.map fun r => ((p, r.2) : Row K)) (y.map fun r => ((p, r.2) : Row K))
      (z.map fun r => ((p, r.2) : Row K)) := by
  obtain ⟨h1, h2, h3⟩ := h
  refine ⟨by simp [h1], by simp [h2], ?_⟩
  intro i u v w hu hv hw
  rw [List.getElem?_map, Option.map_eq_some_iff] at hu hv hw
  obtain ⟨u', hu, rfl⟩ := hu
  obtain ⟨v', hv, rfl⟩ := hv
  obtain ⟨w', hw, rfl⟩ := hw
  obtain ⟨-, -, g⟩ := h3 i u' v' w' hu hv hw
  exact ⟨rfl, rfl, g⟩

theorem close_maps {α : Type} {rt : Rt K} {a k : K} {ε : LComp → K} {cs : List LComp} (l : List α) (f g h : α → Row K)
    (hc : ∀ r ∈ l, CloseRow rt a k ε cs (f r) (g r) (h r)) : CloseAnswers rt a k ε cs (l.map f) (l.map g) (l.map h) := by
  refine ⟨by simp, by simp, ?_⟩
  intro i u v w hu hv hw
  rw [List.getElem?_map, Option.map_eq_some_iff] at hu hv hw
  obtain ⟨q, hq, rfl⟩ := hu
  obtain ⟨q', hq', rfl⟩ := hv
  obtain ⟨q'', hq'', rfl⟩ := hw
  rw [hq] at hq' hq''
  cases hq'
  cases hq''
  exact hc q (List.mem_of_getElem? hq)

theorem closeRow_map {rt : Rt K} {a k : K} {ε : LComp → K} {cs : List LComp} (p : K) (f g h : LComp → K)
    (hc : ∀ c ∈ cs, |h c - comb2 rt a k (f c) (g c)| ≤ ε c) :
    CloseRow rt a k ε cs (p, cs.map f) (p, cs.map g) (p, cs.map h) := by
  refine ⟨rfl, rfl, by simp, by simp, by simp, ?_⟩
  intro j c hj
  refine ⟨f c, g c, h c, by simp [hj], by simp [hj], by simp [hj], hc c (List.mem_of_getElem? hj)⟩

section
variable {rt : Rt K} {a k : K} {cs : List LComp} {rs : List (LRow K × LRow K)}

theorem posRt_eq (hpos : ∀ r ∈ rs, r.1.pos = r.2.pos) :
    (rs.map fun r => combineRt rt a k r.1 r.2).map (fun r => r.pos) = (rs.map (·.1)).map (fun r => r.pos) ∧
    (rs.map (·.2)).map (fun r => r.pos) = (rs.map (·.1)).map fun r => r.pos := by
  constructor
  · rw [List.map_map, List.map_map]; rfl
  · rw [List.map_map, List.map_map]
    exact List.map_congr_left fun r hr => (hpos r hr).symm

theorem combRt_wf (hpos : ∀ r ∈ rs, r.1.pos = r.2.pos) (h : WellFormed (rs.map (·.1))) :
    WellFormed (rs.map (·.2)) ∧ WellFormed (rs.map fun r => combineRt rt a k r.1 r.2) := by
  refine ⟨(comb_wf (a := a) (k := k) hpos h).1, ?_, ?_⟩
  · have := h.1
    rw [List.pairwise_map] at this ⊢
    exact this
  · intro r hr
    obtain ⟨q, hq, rfl⟩ := List.mem_map.1 hr
    exact h.2 q.1 (List.mem_map.2 ⟨q, hq, rfl⟩)

/-- stored positions: the combination, bit for bit -/
theorem block_stored {ε : LComp → K} (hε : ∀ c, 0 ≤ ε c) (hpos : ∀ r ∈ rs, r.1.pos = r.2.pos) {p : K}
    (hp : p ∈ (rs.map (·.1)).map (·.pos)) :
    CloseAnswers rt a k ε cs (block rt (rs.map (·.1)) cs p) (block rt (rs.map (·.2)) cs p)
      (block rt (rs.map fun r => combineRt rt a k r.1 r.2) cs p) := by
  unfold block
  obtain ⟨hp3, hp2⟩ := posRt_eq (rt := rt) (a := a) (k := k) hpos
  rw [hp3, hp2, if_pos hp, if_pos hp, if_pos hp]
  simp only [List.filter_map, List.map_map]
  have hf : rs.filter ((fun r : LRow K => decide (r.pos = p)) ∘ fun r => r.2)
      = rs.filter ((fun r : LRow K => decide (r.pos = p)) ∘ fun r => r.1) := by
    apply List.filter_congr
    intro r hr
    simp only [Function.comp, hpos r hr]
  rw [hf]
  refine close_maps _ _ _ _ ?_
  intro r hr
  simp only [Function.comp, ← hpos r (List.mem_of_mem_filter hr)]
  refine closeRow_map r.1.pos _ _ _ ?_
  intro c _
  rw [← entry_eq, ← entry_eq, ← entry_eq, combineRt_entry, sub_self, abs_zero]
  exact hε c

theorem block_close {F : K → Prop} {u η : K} (hr : Rounds rt F u η) (hu0 : 0 ≤ u) (hu : u ≤ 1 / 64)
    (hη : 0 ≤ η) (ha : F a) (hk : F k) (hpos : ∀ r ∈ rs, r.1.pos = r.2.pos) (hwf : WellFormed (rs.map (·.1)))
    (hne : rs ≠ []) (hF1 : Machine F (rs.map (·.1))) (hF2 : Machine F (rs.map (·.2))) {M₁ M₂ : LComp → K}
    (hM : ∀ r ∈ rs, ∀ c, |entry r.1 c| ≤ M₁ c ∧ |entry r.2 c| ≤ M₂ c) {p : K} (hFp : F p) :
    CloseAnswers rt a k (combError u η a k M₁ M₂) cs (block rt (rs.map (·.1)) cs p) (block rt (rs.map (·.2)) cs p)
      (block rt (rs.map fun r => combineRt rt a k r.1 r.2) cs p) := by
  by_cases hp : p ∈ (rs.map (·.1)).map (·.pos)
  · refine block_stored ?_ hpos hp
    intro c
    obtain ⟨r, hr'⟩ := List.exists_mem_of_ne_nil rs hne
    have := (abs_nonneg _).trans (hM r hr' c).1
    have := (abs_nonneg _).trans (hM r hr' c).2
    unfold combError
    positivity
  · unfold block
    obtain ⟨hp3, hp2⟩ := posRt_eq (rt := rt) (a := a) (k := k) hpos
    rw [hp3, hp2, if_neg hp, if_neg hp, if_neg hp]
    refine close_maps [()] (fun _ => (p, cs.map fun c => interpVal rt (rs.map (·.1)) c p))
      (fun _ => (p, cs.map fun c => interpVal rt (rs.map (·.2)) c p))
      (fun _ => (p, cs.map fun c => interpVal rt (rs.map fun r => combineRt rt a k r.1 r.2) c p)) ?_
    intro _ _
    refine closeRow_map p _ _ _ ?_
    intro c _
    exact interpVal_combRt hr hu0 hu hη ha hk hpos hwf hne hF1 hF2 hM hFp hp c

theorem close_flatMap {ε : LComp → K} (f g h : K → List (Row K)) (ps : List K)
    (hc : ∀ p ∈ ps, CloseAnswers rt a k ε cs (f p) (g p) (h p)) :
    CloseAnswers rt a k ε cs (ps.flatMap f) (ps.flatMap g) (ps.flatMap h) := by
  induction ps with
  | nil => exact close_nil ..
  | cons p ps ih =>
    simp only [List.flatMap_cons]
    exact close_append (hc p (by simp)) (ih fun q hq => hc q (List.mem_cons_of_mem _ hq))

/-- the three answers of a load case -/
theorem answers_three (hs : rt.SortOK) (hpos : ∀ r ∈ rs, r.1.pos = r.2.pos) (hwf : WellFormed (rs.map (·.1)))
    (hne : rs ≠ []) (b₁ b₂ b₃ : Bool) {position : PosArg K} {xs : List K} (hreq : Requested position xs) (hxs : xs ≠ [])
    {component : CompArg} (hc : Asks component cs) (hcs : cs ≠ []) :
    ∃ (ps : List K) (d₁ d₂ d₃ : DType), (∀ x, x ∈ ps ↔ x ∈ xs) ∧
      (⟨some ⟨b₁, rs.map (·.1)⟩⟩ : LoadCase K).getLoad rt position none component
        = .ok (some ⟨d₁, cs.length, cells (ps.flatMap (block rt (rs.map (·.1)) cs))⟩) ∧
      (⟨some ⟨b₂, rs.map (·.2)⟩⟩ : LoadCase K).getLoad rt position none component
        = .ok (some ⟨d₂, cs.length, cells (ps.flatMap (block rt (rs.map (·.2)) cs))⟩) ∧
      (⟨some ⟨b₃, rs.map fun r => combineRt rt a k r.1 r.2⟩⟩ : LoadCase K).getLoad rt position none component
        = .ok (some ⟨d₃, cs.length, cells (ps.flatMap (block rt (rs.map fun r => combineRt rt a k r.1 r.2) cs))⟩) := by
  rw [asks_iff] at hc
  obtain ⟨hwf2, hwf3⟩ := combRt_wf (rt := rt) (a := a) (k := k) hpos hwf
  obtain ⟨ps, g1, g2, g3⟩ := requested_listPositions rt (⟨some ⟨b₁, rs.map (·.1)⟩⟩ : LoadCase K) hreq
  have hps0 : ps ≠ [] := by
    rintro rfl
    obtain ⟨x0, hx0⟩ := List.exists_mem_of_ne_nil xs hxs
    simpa using (g3 x0).2 hx0
  have hl : ∀ (b : Bool) (rows : List (LRow K)),
      (⟨some ⟨b, rows⟩⟩ : LoadCase K).listPositions rt none position = .ok ps := by
    intro b rows
    rw [← g1]
    rcases hreq with ⟨x, rfl, -⟩ | ⟨l, rfl, -⟩ <;> rfl
  refine ⟨ps.map (·.val), _, _, _, g3, getLoad_eq hs hwf (by simpa using hne) (hl _ _) g2 hps0 hc hcs,
    getLoad_eq hs hwf2 (by simpa using hne) (hl _ _) g2 hps0 hc hcs,
    getLoad_eq hs hwf3 (by simpa using hne) (hl _ _) g2 hps0 hc hcs⟩

/-! ## C127 -/

/-- C127, stored positions: at positions stored in the tables, the load case whose table is the combination of two others,
computed by the machine, answers the combination of their answers, bit for bit.  For every arithmetic. -/
theorem C127_stored (hs : rt.SortOK) (a k : K) (rs : List (LRow K × LRow K)) (hpos : ∀ r ∈ rs, r.1.pos = r.2.pos)
    (hwf : WellFormed (rs.map (·.1))) (hne : rs ≠ []) (b₁ b₂ b₃ : Bool) (position : PosArg K) (xs : List K)
    (hreq : Requested position xs) (hxs : xs ≠ []) (hst : ∀ x ∈ xs, x ∈ rs.map (·.1.pos)) (component : CompArg)
    (cs : List LComp) (hc : Asks component cs) (hcs : cs ≠ []) :
    ∃ out₁ out₂ out₃ d₁ d₂ d₃,
      (⟨some ⟨b₁, rs.map (·.1)⟩⟩ : LoadCase K).getLoad rt position none component
        = .ok (some ⟨d₁, cs.length, cells out₁⟩) ∧
      (⟨some ⟨b₂, rs.map (·.2)⟩⟩ : LoadCase K).getLoad rt position none component
        = .ok (some ⟨d₂, cs.length, cells out₂⟩) ∧
      (⟨some ⟨b₃, rs.map fun r => combineRt rt a k r.1 r.2⟩⟩ : LoadCase K).getLoad rt position none component
        = .ok (some ⟨d₃, cs.length, cells out₃⟩) ∧
      CloseAnswers rt a k (fun _ => 0) cs out₁ out₂ out₃ := by
  obtain ⟨ps, d₁, d₂, d₃, hps, g1, g2, g3⟩ :=
    answers_three (rt := rt) (a := a) (k := k) hs hpos hwf hne b₁ b₂ b₃ hreq hxs hc hcs
  refine ⟨_, _, _, d₁, d₂, d₃, g1, g2, g3, close_flatMap _ _ _ ps ?_⟩
  intro p hp
  exact block_stored (fun _ => le_rfl) hpos (by simpa using hst p ((hps p).1 hp))

/-- C127, one load case: if the table of a load case is `a` times one table plus `k` times another with the same positions,
computed by the machine, every answer of `get_load` is `a` times the one answer plus `k` times the other, computed by the
machine, up to 40 units of rounding of the combined magnitudes (and some underflows). -/
theorem C127_load_case (hs : rt.SortOK) {F : K → Prop} {u η : K} (hr : Rounds rt F u η) (hu0 : 0 ≤ u) (hu : u ≤ 1 / 64)
    (hη : 0 ≤ η) (a k : K) (ha : F a) (hk : F k) (rs : List (LRow K × LRow K)) (hpos : ∀ r ∈ rs, r.1.pos = r.2.pos)
    (hwf : WellFormed (rs.map (·.1))) (hne : rs ≠ []) (hF1 : Machine F (rs.map (·.1))) (hF2 : Machine F (rs.map (·.2)))
    (M₁ M₂ : LComp → K) (hM : ∀ r ∈ rs, ∀ c, |entry r.1 c| ≤ M₁ c ∧ |entry r.2 c| ≤ M₂ c) (b₁ b₂ b₃ : Bool)
    (position : PosArg K) (xs : List K) (hreq : Requested position xs) (hxs : xs ≠ []) (hFx : ∀ x ∈ xs, F x)
    (component : CompArg) (cs : List LComp) (hc : Asks component cs) (hcs : cs ≠ []) :
    ∃ out₁ out₂ out₃ d₁ d₂ d₃,
      (⟨some ⟨b₁, rs.map (·.1)⟩⟩ : LoadCase K).getLoad rt position none component
        = .ok (some ⟨d₁, cs.length, cells out₁⟩) ∧
      (⟨some ⟨b₂, rs.map (·.2)⟩⟩ : LoadCase K).getLoad rt position none component
        = .ok (some ⟨d₂, cs.length, cells out₂⟩) ∧
      (⟨some ⟨b₃, rs.map fun r => combineRt rt a k r.1 r.2⟩⟩ : LoadCase K).getLoad rt position none component
        = .ok (some ⟨d₃, cs.length, cells out₃⟩) ∧
      CloseAnswers rt a k (combError u η a k M₁ M₂) cs out₁ out₂ out₃ := by
  obtain ⟨ps, d₁, d₂, d₃, hps, g1, g2, g3⟩ :=
    answers_three (rt := rt) (a := a) (k := k) hs hpos hwf hne b₁ b₂ b₃ hreq hxs hc hcs
  refine ⟨_, _, _, d₁, d₂, d₃, g1, g2, g3, close_flatMap _ _ _ ps ?_⟩
  intro p hp
  exact block_close hr hu0 hu hη ha hk hpos hwf hne hF1 hF2 hM (hFx p ((hps p).1 hp))

end

section
variable {S : Type} {rt : Rt K}

/-- the local positions listed for the elements are machine numbers -/
theorem listed_machine {F : K → Prop} (hadd : ∀ x y, F (rt.add x y)) (hdiv : ∀ x y, F (rt.div x y)) {b : Beam K S}
    {c : ℤ} (hb : ∀ e ∈ b.elements, ∀ lp, e.loadPositions c = .ok lp → ∀ l ∈ lp, F l.val) {position : PosArg K}
    {n : Option ℤ} {locs : List (Loc K)} (h : b.listPositions rt position n (some c) = .ok locs) :
    ∀ l ∈ locs, F l.loc.val := by
  intro l hl
  unfold Beam.listPositions at h
  simp only [bind, Except.bind] at h
  split at h
  · cases h
  rename_i ps hps
  split at h
  · cases h
  rename_i blocks hblocks
  obtain rfl := Except.ok.inj h
  obtain ⟨bl, hbl, hlb⟩ := List.mem_flatten.1 hl
  obtain ⟨p, hp, hbp⟩ := mapM_out hblocks hbl
  split at hbp
  · cases hbp
  rename_i is his
  split at hbp
  · cases hbp
  rename_i ls hls
  obtain rfl := Except.ok.inj hbp
  obtain ⟨l2, hl2, hll⟩ := List.mem_flatten.1 hlb
  obtain ⟨i, hi, hloc⟩ := mapM_out hls hl2
  unfold Beam.locate at hloc
  simp only [bind, Except.bind] at hloc
  split at hloc
  · cases hloc
  rename_i e he
  split at hloc
  · cases hloc
  rename_i len hlen
  have hee : e ∈ b.elements := by
    obtain ⟨j, hj, -⟩ := (pyIndex_ok_iff _ _ _).1 he
    exact List.mem_of_getElem? hj
  split_ifs at hloc
  · split at hloc
    · cases hloc
    rename_i lp0 hlp0
    split at hloc
    · cases hloc
    rename_i lp hlp
    obtain rfl := Except.ok.inj hloc
    obtain ⟨q, hq, rfl⟩ := List.mem_map.1 hll
    simp only
    have h0 := hb e hee lp0 hlp0
    unfold zeroLengthPositions at hlp
    split at hlp
    · rename_i z w hz hw
      generalize hlp1 : (if z.val ≠ 0 then lp0.map (fun l => (⟨rt.add 0 l.val, false⟩ : Num K)) else lp0) = lp1 at hlp
      have h1 : ∀ q ∈ lp1, F q.val := by
        intro q hq
        rw [← hlp1] at hq
        split_ifs at hq
        · obtain ⟨q', -, rfl⟩ := List.mem_map.1 hq
          exact hadd _ _
        · exact h0 q hq
      simp only at hlp
      split at hlp
      · obtain rfl := Except.ok.inj hlp
        split_ifs at hq
        · obtain ⟨q', -, rfl⟩ := List.mem_map.1 hq
          exact hadd _ _
        · exact h1 q hq
      · cases hlp
    · cases hlp
  · split at hloc
    · cases hloc
    rename_i lo hlo
    obtain rfl := Except.ok.inj hloc
    obtain rfl := List.mem_singleton.1 hll
    simp only
    unfold Beam.beamToLocal at hlo
    simp only [bind, Except.bind] at hlo
    split at hlo
    · cases hlo
    split at hlo
    · cases hlo
    split at hlo
    · cases hlo
    split_ifs at hlo
    obtain rfl := Except.ok.inj hlo
    exact hdiv _ _

variable [FloorRing K]

/-- C127, whole beams: if on every element load case `c₃` is `a` times `c₁` plus `k` times `c₂`, computed by the machine,
then for every request (explicit positions or `min_positions`, any components) the three load cases are answered at the
same rows, and the answer for `c₃` is the combination of the other two, computed by the machine, up to 40 units of rounding
of the combined magnitudes (and some underflows).  A request that lists no position or raises, does so for all three. -/
theorem C127_beam (hs : rt.SortOK) {F : K → Prop} {u η : K} (hr : Rounds rt F u η) (hu0 : 0 ≤ u) (hu : u ≤ 1 / 64)
    (hη : 0 ≤ η) (hadd : ∀ x y, F (rt.add x y)) (hdiv : ∀ x y, F (rt.div x y)) (b : Beam K S) (c₁ c₂ c₃ : ℤ) (a k : K)
    (ha : F a) (hk : F k) (M₁ M₂ : LComp → K) (hb : IsCombinationRt rt F b c₁ c₂ c₃ a k M₁ M₂) (position : PosArg K)
    (n : Option ℤ) (component : CompArg) (cs : List LComp) (hc : Asks component cs) (hcs : cs ≠ []) :
    (∃ out₁ out₂ out₃, CloseAnswers rt a k (combError u η a k M₁ M₂) cs out₁ out₂ out₃ ∧
      b.getLoads rt c₁ position n component = .ok (some ⟨.flt, cs.length, cells out₁⟩) ∧
      b.getLoads rt c₂ position n component = .ok (some ⟨.flt, cs.length, cells out₂⟩) ∧
      b.getLoads rt c₃ position n component = .ok (some ⟨.flt, cs.length, cells out₃⟩)) ∨
    (∃ r, (r = .ok none ∨ ∃ e, r = .error e) ∧ b.getLoads rt c₁ position n component = r ∧
      b.getLoads rt c₂ position n component = r ∧ b.getLoads rt c₃ position n component = r) := by
  rw [asks_iff] at hc
  have hlp : ∀ e ∈ b.elements, e.loadPositions c₁ = e.loadPositions c₂ ∧ e.loadPositions c₁ = e.loadPositions c₃ ∧
      ∀ lp, e.loadPositions c₁ = .ok lp → ∀ l ∈ lp, F l.val := by
    intro e he
    obtain ⟨i, hi, rfl⟩ := List.getElem_of_mem he
    obtain ⟨rs, hpos, hF1, -, -, ⟨e1, he1, hl1, -⟩, ⟨e2, he2, hl2, -⟩, ⟨e3, he3, hl3, -⟩⟩ := hb i hi
    rw [List.getElem?_eq_getElem hi, Option.some.injEq] at he1 he2 he3
    subst he1
    rw [← he2] at hl2
    rw [← he3] at hl3
    simp only [Element.loadPositions, Element.case, hl1, hl2, hl3, LoadCase.loadPositions, bind, Except.bind,
      List.map_map]
    refine ⟨?_, rfl, ?_⟩
    · congr 1
      apply List.map_congr_left
      intro r hr
      simp only [Function.comp, hpos r hr]
    · intro lp h l hl
      obtain rfl := Except.ok.inj h
      obtain ⟨r, hr', rfl⟩ := List.mem_map.1 hl
      exact (hF1 r.1 (List.mem_map.2 ⟨r, hr', rfl⟩)).1
  have hL2 := listPositions_case (rt := rt) (b := b) (fun e he => (hlp e he).1) position n
  have hL3 := listPositions_case (rt := rt) (b := b) (fun e he => (hlp e he).2.1) position n
  cases hL : b.listPositions rt position n (some c₁) with
  | error e =>
    right
    refine ⟨.error e, Or.inr ⟨e, rfl⟩, ?_⟩
    rw [hL] at hL2 hL3
    simp only [Beam.getLoads, hL, ← hL2, ← hL3, bind, Except.bind, and_self]
  | ok locs =>
    have hmach := listed_machine hadd hdiv (fun e he => (hlp e he).2.2) hL
    rw [hL] at hL2 hL3
    by_cases hne : locs = []
    · subst hne
      right
      refine ⟨.ok none, Or.inl rfl, ?_⟩
      simp only [Beam.getLoads, hL, ← hL2, ← hL3, bind, Except.bind]
      exact ⟨rfl, rfl, rfl⟩
    · left
      have hf1 : LoadedFloat b c₁ := fun i hi => by
        obtain ⟨rs, -, -, -, -, h1, -, -⟩ := hb i hi
        exact ⟨_, h1, rfl⟩
      have hf2 : LoadedFloat b c₂ := fun i hi => by
        obtain ⟨rs, -, -, -, -, -, h2, -⟩ := hb i hi
        exact ⟨_, h2, rfl⟩
      have hf3 : LoadedFloat b c₃ := fun i hi => by
        obtain ⟨rs, -, -, -, -, -, -, h3⟩ := hb i hi
        exact ⟨_, h3, rfl⟩
      obtain ⟨bl1, B1, G1⟩ := getLoads_eq hs hf1 hc hcs hne hL
      obtain ⟨bl2, B2, G2⟩ := getLoads_eq hs hf2 hc hcs hne hL2.symm
      obtain ⟨bl3, B3, G3⟩ := getLoads_eq hs hf3 hc hcs hne hL3.symm
      refine ⟨_, _, _, ?_, G1, G2, G3⟩
      clear G1 G2 G3 hL hL2 hL3 hne
      induction locs generalizing bl1 bl2 bl3 with
      | nil => cases B1; cases B2; cases B3; exact close_nil ..
      | cons l locs ih =>
        cases B1 with
        | @cons _ x1 _ xs1 h1 t1 =>
        cases B2 with
        | @cons _ x2 _ xs2 h2 t2 =>
        cases B3 with
        | @cons _ x3 _ xs3 h3 t3 =>
        obtain ⟨u1, e1, U1, E1, rfl, -⟩ := h1
        obtain ⟨u2, e2, U2, E2, rfl, -⟩ := h2
        obtain ⟨u3, e3, U3, E3, rfl, -⟩ := h3
        have hi : l.elem < b.elements.length := by
          by_contra hcon
          rw [List.getElem?_eq_none (not_lt.1 hcon)] at E1
          cases E1
        obtain ⟨rs, hpos, hF1, hF2, hM, T1, T2, T3⟩ := hb l.elem hi
        have hwf := T1.choose_spec.2.2.1
        have hrs : rs ≠ [] := by
          have := T1.choose_spec.2.2.2
          simpa using this
        obtain rfl := hasTable_unique T1 U1
        obtain rfl := hasTable_unique T2 U2
        obtain rfl := hasTable_unique T3 U3
        simp only [List.flatten_cons]
        exact close_append (close_setPos _ (block_close hr hu0 hu hη ha hk hpos hwf hrs hF1 hF2 hM
          (hmach l (by simp)))) (ih (fun l' hl' => hmach l' (List.mem_cons_of_mem _ hl')) _ t1 _ t2 _ t3)

end

end

/-- C127 in double precision: load cases combined in double precision are answered with the combination of the answers, up
to 40 times 2^-53 of the combined magnitudes (and some underflows). -/
theorem C127_binary64 {S : Type} (b : Beam ℚ S) (c₁ c₂ c₃ : ℤ) (a k : ℚ) (ha : IsDouble a) (hk : IsDouble k)
    (M₁ M₂ : LComp → ℚ) (hb : IsCombinationRt Rt.binary64 IsDouble b c₁ c₂ c₃ a k M₁ M₂) (position : PosArg ℚ)
    (n : Option ℤ) (component : CompArg) (cs : List LComp) (hc : Asks component cs) (hcs : cs ≠ []) :
    (∃ out₁ out₂ out₃,
      CloseAnswers Rt.binary64 a k (combError (2 ^ (-53 : ℤ)) (2 ^ (-1075 : ℤ)) a k M₁ M₂) cs out₁ out₂ out₃ ∧
      b.getLoads Rt.binary64 c₁ position n component = .ok (some ⟨.flt, cs.length, cells out₁⟩) ∧
      b.getLoads Rt.binary64 c₂ position n component = .ok (some ⟨.flt, cs.length, cells out₂⟩) ∧
      b.getLoads Rt.binary64 c₃ position n component = .ok (some ⟨.flt, cs.length, cells out₃⟩)) ∨
    (∃ r, (r = .ok none ∨ ∃ e, r = .error e) ∧ b.getLoads Rt.binary64 c₁ position n component = r ∧
      b.getLoads Rt.binary64 c₂ position n component = r ∧ b.getLoads Rt.binary64 c₃ position n component = r) :=
  C127_beam binary64_sortOK C78_binary64_rounds (two_zpow_pos _).le (by norm_num) (two_zpow_pos _).le
    (fun _ _ => isDouble_rnd64 _) (fun _ _ => isDouble_rnd64 _) b c₁ c₂ c₃ a k ha hk M₁ M₂ hb position n component cs hc hcs

/-! ## Cases meeting the hypotheses -/

namespace Samples

/-- an element with two load cases and their combination 1.25 times the first plus 1.5 times the second, computed in double
precision -/
noncomputable def combElem64 (l : ℚ) : Element ℚ String :=
  ⟨[(1, ⟨some ⟨false, pairs.map (·.1)⟩⟩), (2, ⟨some ⟨false, pairs.map (·.2)⟩⟩),
    (3, ⟨some ⟨false, pairs.map fun r => combineRt Rt.binary64 (5/4) (3/2) r.1 r.2⟩⟩)], some (Num.flt l), "A"⟩

/-- two such elements, and one of zero length between them -/
noncomputable def combBeam64 : Beam ℚ String := ⟨[combElem64 2, combElem64 0, combElem64 3]⟩

theorem pairs_machine : Machine IsDouble (pairs.map (·.1)) ∧ Machine IsDouble (pairs.map (·.2)) := by
  have hi : ∀ n : ℤ, |n| < 2 ^ 53 → IsDouble (n : ℚ) := fun n hn => ⟨n, 0, hn, by norm_num, by simp⟩
  have h0 := hi 0 (by norm_num)
  have h1 := hi 1 (by norm_num)
  have h2 := hi 2 (by norm_num)
  have h3 := hi 3 (by norm_num)
  have h4 := hi 4 (by norm_num)
  have h5 := hi 5 (by norm_num)
  have h6 := hi 6 (by norm_num)
  have h7 := hi (-10) (by norm_num)
  have h8 := hi 10 (by norm_num)
  have h9 := hi (-2) (by norm_num)
  have h10 := hi 7 (by norm_num)
  have hh : IsDouble (1 / 2) := ⟨1, -1, by norm_num, by norm_num, by norm_num⟩
  push_cast at *
  constructor <;>
  · intro r hr
    simp only [pairs, List.map_cons, List.map_nil, List.mem_cons, List.not_mem_nil, or_false] at hr
    rcases hr with rfl | rfl | rfl | rfl
    all_goals
      refine ⟨by assumption, fun c => ?_⟩
      cases c <;> simp only [entry] <;> assumption

theorem combBeam64_is : IsCombinationRt Rt.binary64 IsDouble combBeam64 1 2 3 (5/4) (3/2) (fun _ => 10) (fun _ => 10) := by
  have h : ∀ (b : Beam ℚ String) (i : ℕ) (l : ℚ), b.elements[i]? = some (combElem64 l) →
      ∃ rs : List (LRow ℚ × LRow ℚ), (∀ r ∈ rs, r.1.pos = r.2.pos) ∧
        Machine IsDouble (rs.map (·.1)) ∧ Machine IsDouble (rs.map (·.2)) ∧
        (∀ r ∈ rs, ∀ c, |entry r.1 c| ≤ 10 ∧ |entry r.2 c| ≤ 10) ∧
        HasTable b 1 i ⟨false, rs.map (·.1)⟩ ∧ HasTable b 2 i ⟨false, rs.map (·.2)⟩ ∧
        HasTable b 3 i ⟨false, rs.map fun r => combineRt Rt.binary64 (5/4) (3/2) r.1 r.2⟩ := by
    intro b i l hi
    have hw : WellFormed (pairs.map (·.1)) := by unfold WellFormed; decide +kernel
    have hp : ∀ r ∈ pairs, r.1.pos = r.2.pos := by decide +kernel
    obtain ⟨h2, h3⟩ := combRt_wf (rt := Rt.binary64) (a := 5/4) (k := 3/2) hp hw
    refine ⟨pairs, hp, pairs_machine.1, pairs_machine.2, ?_, ⟨_, hi, rfl, hw, by simp [pairs]⟩,
      ⟨_, hi, rfl, h2, by simp [pairs]⟩, ⟨_, hi, rfl, h3, by simp [pairs]⟩⟩
    intro r hr c
    simp only [pairs, List.mem_cons, List.not_mem_nil, or_false] at hr
    rcases hr with rfl | rfl | rfl | rfl <;> cases c <;> simp only [entry] <;> norm_num
  intro i hi
  have : i = 0 ∨ i = 1 ∨ i = 2 := by
    have : combBeam64.elements.length = 3 := rfl
    omega
  rcases this with rfl | rfl | rfl
  · exact h _ _ 2 rfl
  · exact h _ _ 0 rfl
  · exact h _ _ 3 rfl

end Samples

/-- whatever is asked of the sample beam -/
example (position : PosArg ℚ) (n : Option ℤ) :
    (∃ out₁ out₂ out₃, CloseAnswers Rt.binary64 (5/4) (3/2)
        (combError (2 ^ (-53 : ℤ)) (2 ^ (-1075 : ℤ)) (5/4) (3/2) (fun _ => 10) (fun _ => 10)) [.N, .MX] out₁ out₂ out₃ ∧
      Samples.combBeam64.getLoads Rt.binary64 1 position n (.list [.N, .MX]) = .ok (some ⟨.flt, 2, cells out₁⟩) ∧
      Samples.combBeam64.getLoads Rt.binary64 2 position n (.list [.N, .MX]) = .ok (some ⟨.flt, 2, cells out₂⟩) ∧
      Samples.combBeam64.getLoads Rt.binary64 3 position n (.list [.N, .MX]) = .ok (some ⟨.flt, 2, cells out₃⟩)) ∨
    (∃ r, (r = .ok none ∨ ∃ e, r = .error e) ∧
      Samples.combBeam64.getLoads Rt.binary64 1 position n (.list [.N, .MX]) = r ∧
      Samples.combBeam64.getLoads Rt.binary64 2 position n (.list [.N, .MX]) = r ∧
      Samples.combBeam64.getLoads Rt.binary64 3 position n (.list [.N, .MX]) = r) :=
  C127_binary64 Samples.combBeam64 1 2 3 (5/4) (3/2) ⟨5, -2, by norm_num, by norm_num, by norm_num⟩
    ⟨3, -1, by norm_num, by norm_num, by norm_num⟩ _ _ Samples.combBeam64_is position n _ [.N, .MX]
    (by rw [asks_iff]; rfl) (by simp)

end BeamDesign
