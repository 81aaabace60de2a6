import Verif.Spec.Rounding
import Verif.Lemmas.Load
import Verif.Lemmas.Float64

/-! # Lemmas about rounding -/

set_option linter.unusedSectionVars false
set_option exponentiation.threshold 2000

namespace BeamDesign

open Spec

/-! ## Doubles -/

theorem isDouble_rnd64 (x : ℚ) : IsDouble (rnd64 x) := by
  set e := exp64 x with he
  set n := roundEven (x / 2 ^ e) with hn
  have hr : rnd64 x = n * 2 ^ e := rfl
  have he0 : -1074 ≤ e := le_max_right _ _
  have hq : |x / 2 ^ e| ≤ ((2 ^ 53 : ℤ) : ℚ) := by
    rw [abs_div, abs_of_pos (two_zpow_pos e), div_le_iff₀ (two_zpow_pos e)]
    have h1 := Int.lt_zpow_succ_log_self (b := 2) (by norm_num) |x|
    push_cast at h1
    refine h1.le.trans ?_
    have : (2 : ℚ) ^ (Int.log 2 |x| + 1) ≤ 2 ^ (53 + e) :=
      zpow_le_zpow_right₀ (by norm_num) (by rw [he]; unfold exp64; omega)
    refine this.trans (le_of_eq ?_)
    rw [zpow_add₀ (by norm_num)]
    norm_num
  have hub : n ≤ 2 ^ 53 := by
    have := roundEven_mono ((le_abs_self _).trans hq)
    rwa [roundEven_int] at this
  have hlb : -2 ^ 53 ≤ n := by
    have h1 : ((-2 ^ 53 : ℤ) : ℚ) ≤ x / 2 ^ e := by
      push_cast at hq ⊢
      linarith [neg_abs_le (x / 2 ^ e)]
    have := roundEven_mono h1
    rwa [roundEven_int] at this
  rw [hr]
  by_cases h1 : |n| < 2 ^ 53
  · exact ⟨n, e, h1, he0, rfl⟩
  · have h2 : n = 2 * 2 ^ 52 ∨ n = 2 * (-2 ^ 52) := by
      rcases abs_cases n with ⟨h, _⟩ | ⟨h, _⟩ <;> rw [h] at h1 <;> norm_num at * <;> omega
    rcases h2 with h2 | h2
    · refine ⟨2 ^ 52, e + 1, by norm_num, by omega, ?_⟩
      rw [h2, zpow_add_one₀ (by norm_num)]; push_cast; ring
    · refine ⟨-2 ^ 52, e + 1, by norm_num, by omega, ?_⟩
      rw [h2, zpow_add_one₀ (by norm_num)]; push_cast; ring

theorem isDouble_iff {x : ℚ} : IsDouble x ↔ rnd64 x = x := by
  constructor
  · rintro ⟨n, e, hn, he, rfl⟩
    exact rnd64_of_small he hn
  · intro h
    rw [← h]
    exact isDouble_rnd64 x

theorem roundEven_error (q : ℚ) : |(roundEven q : ℚ) - q| ≤ 1 / 2 := by
  have h1 := Int.floor_le q
  have h2 := Int.lt_floor_add_one q
  rw [abs_le]
  rcases roundEven_cases q with ⟨h, h3⟩ | ⟨h, h3⟩ <;> rw [h] <;> push_cast <;> constructor <;> linarith

theorem rnd64_abs_error (x : ℚ) : |rnd64 x - x| ≤ 2 ^ exp64 x / 2 := by
  have h := roundEven_error (x / 2 ^ exp64 x)
  have h0 := two_zpow_pos (exp64 x)
  have : rnd64 x - x = ((roundEven (x / 2 ^ exp64 x) : ℚ) - x / 2 ^ exp64 x) * 2 ^ exp64 x := by
    unfold rnd64
    rw [sub_mul, div_mul_cancel₀ _ h0.ne']
  rw [this, abs_mul, abs_of_pos h0]
  have := mul_le_mul_of_nonneg_right h h0.le
  linarith

/-- Relative error above the smallest numbers, absolute error below. -/
theorem rnd64_error_cases (x : ℚ) :
    |rnd64 x - x| ≤ 2 ^ (-53 : ℤ) * |x| ∨ (exp64 x = -1074 ∧ |rnd64 x - x| ≤ 2 ^ (-1075 : ℤ)) := by
  by_cases h0 : x = 0
  · left
    subst h0
    simp [rnd64_zero]
  have hpos : 0 < |x| := abs_pos.2 h0
  have he := rnd64_abs_error x
  by_cases h : exp64 x = -1074
  · right
    refine ⟨h, he.trans (le_of_eq ?_)⟩
    rw [h, show (-1074 : ℤ) = -1075 + 1 by norm_num, zpow_add_one₀ (by norm_num)]
    ring
  · left
    have h1 : exp64 x = Int.log 2 |x| - 52 := by
      unfold exp64 at h ⊢
      omega
    refine he.trans ?_
    have h2 := Int.zpow_log_le_self (b := 2) (by norm_num) hpos
    push_cast at h2
    have h3 : (2 : ℚ) ^ exp64 x / 2 = 2 ^ (-53 : ℤ) * 2 ^ Int.log 2 |x| := by
      rw [h1, ← zpow_add₀ (by norm_num), show (-53 : ℤ) + Int.log 2 |x| = (Int.log 2 |x| - 52) - 1 by ring,
        zpow_sub_one₀ (by norm_num)]
      ring
    rw [h3]
    exact mul_le_mul_of_nonneg_left h2 (two_zpow_pos _).le

theorem rnd64_error (x : ℚ) : |rnd64 x - x| ≤ 2 ^ (-53 : ℤ) * |x| + 2 ^ (-1075 : ℤ) := by
  rcases rnd64_error_cases x with h | ⟨-, h⟩
  · exact h.trans (le_add_of_nonneg_right (two_zpow_pos _).le)
  · exact h.trans (le_add_of_nonneg_left (mul_nonneg (two_zpow_pos _).le (abs_nonneg _)))

/-- A multiple of the smallest double has no absolute error. -/
theorem rnd64_error_multiple {x : ℚ} (n : ℤ) (hx : x = n * 2 ^ (-1074 : ℤ)) : |rnd64 x - x| ≤ 2 ^ (-53 : ℤ) * |x| := by
  rcases rnd64_error_cases x with h | ⟨h, -⟩
  · exact h
  · rw [rnd64_of_multiple (e := -1074) (by omega) hx, sub_self, abs_zero]
    exact mul_nonneg (two_zpow_pos _).le (abs_nonneg _)

theorem isDouble_multiple {x : ℚ} (h : IsDouble x) : ∃ n : ℤ, x = n * 2 ^ (-1074 : ℤ) := by
  obtain ⟨n, e, -, he, rfl⟩ := h
  refine ⟨n * 2 ^ (e + 1074).toNat, ?_⟩
  push_cast
  rw [← zpow_natCast, Int.toNat_of_nonneg (by omega), mul_assoc, ← zpow_add₀ (by norm_num)]
  congr 2
  ring

/-! ## Interpolation -/

section
variable {K : Type} [Field K] [LinearOrder K] [IsStrictOrderedRing K]

theorem interpGo_form (rt : Rt K) (x : K) (k : K × K) (rest : List (K × K)) (hk : k.1 < x) (hne : ∀ q ∈ rest, q.1 ≠ x)
    (hlast : x < ((k :: rest).getLast (by simp)).1) :
    ∃ pre a b post, k :: rest = pre ++ a :: b :: post ∧ a.1 < x ∧ x < b.1 ∧
      interpGo rt x k rest = rt.add (rt.mul (rt.div (rt.sub b.2 a.2) (rt.sub b.1 a.1)) (rt.sub x a.1)) a.2 := by
  induction rest generalizing k with
  | nil =>
    simp only [List.getLast_singleton] at hlast
    exact absurd hk (not_lt.2 hlast.le)
  | cons q rest ih =>
    obtain ⟨x1, y1⟩ := q
    obtain ⟨xj, yj⟩ := k
    by_cases h : x1 ≤ x
    · have h1 : x1 < x := lt_of_le_of_ne h (hne _ List.mem_cons_self)
      obtain ⟨pre, a, b, post, h2, h3, h4, h5⟩ := ih (x1, y1) h1 (fun q hq => hne q (List.mem_cons_of_mem _ hq)) (by
        rwa [List.getLast_cons (by simp)] at hlast)
      refine ⟨(xj, yj) :: pre, a, b, post, by rw [h2]; rfl, h3, h4, ?_⟩
      rw [interpGo, if_pos h, h5]
    · refine ⟨[], (xj, yj), (x1, y1), rest, rfl, hk, not_le.1 h, ?_⟩
      rw [interpGo, if_neg h, if_neg (ne_of_lt hk)]

/-- What is computed between two stored rows, for every kind of rounding. -/
theorem interpVal_form (rt : Rt K) {rows : List (LRow K)} (hne : rows ≠ []) (c : LComp) (p : K)
    (hp : p ∉ rows.map (·.pos)) :
    (OnCurve rows c p (interpVal rt rows c p)) ∨
    ∃ pre a b post, rows = pre ++ a :: b :: post ∧ a.pos < p ∧ p < b.pos ∧
      interpVal rt rows c p = rt.add (rt.mul (rt.div (rt.sub (entry b c) (entry a c)) (rt.sub b.pos a.pos))
        (rt.sub p a.pos)) (entry a c) := by
  cases rows with
  | nil => exact absurd rfl hne
  | cons r t =>
    have hpos : ∀ q ∈ r :: t, q.pos ≠ p := fun q hq h => hp (List.mem_map.2 ⟨q, hq, h⟩)
    have happ := List.dropLast_append_getLast (l := r :: t) (by simp)
    have hlast : ((r.pos, r.get c) :: t.map fun r => (r.pos, r.get c)).getLast (by simp)
        = (((r :: t).getLast (by simp)).pos, ((r :: t).getLast (by simp)).get c) := by
      have := List.getLast_map (f := fun r : LRow K => (r.pos, r.get c)) (l := r :: t) (by simp)
      simpa using this
    unfold interpVal
    simp only [List.map_cons, npInterp]
    by_cases h1 : p < r.pos
    · left
      rw [if_pos h1]
      exact Or.inl ⟨r, t, rfl, h1, rfl⟩
    · rw [if_neg h1]
      have h1' : r.pos < p := lt_of_le_of_ne (not_lt.1 h1) (hpos r List.mem_cons_self)
      by_cases h2 : ((r :: t).getLast (by simp)).pos < p
      · left
        rw [if_pos (by rw [hlast]; exact h2)]
        refine Or.inr (Or.inl ⟨_, _, happ.symm, h2, ?_⟩)
        simp only [Option.getD_none, hlast, entry_eq]
      · right
        rw [if_neg (by rw [hlast]; exact h2)]
        have h2' : p < ((r :: t).getLast (by simp)).pos :=
          lt_of_le_of_ne (not_lt.1 h2) (hpos _ (List.getLast_mem _)).symm
        obtain ⟨pre, a, b, post, h3, h4, h5, h6⟩ := interpGo_form rt p (r.pos, r.get c) (t.map fun r => (r.pos, r.get c))
          h1' (by
            intro q hq
            obtain ⟨s, hs, rfl⟩ := List.mem_map.1 hq
            exact hpos s (List.mem_cons_of_mem _ hs)) (by rw [hlast]; exact h2')
        have h3' : (r :: t).map (fun r => (r.pos, r.get c)) = pre ++ a :: b :: post := h3
        obtain ⟨l1, l2, h7, rfl, h8⟩ := List.map_eq_append_iff.1 h3'
        obtain ⟨a', l3, rfl, rfl, h9⟩ := List.map_eq_cons_iff.1 h8
        obtain ⟨b', l4, rfl, rfl, rfl⟩ := List.map_eq_cons_iff.1 h9
        exact ⟨l1, a', b', l4, h7, h4, h5, h6⟩

/-- The error of one interpolated value. -/
theorem interp_error {u η a b X t d' X' s t' p v M : K} (hu0 : 0 ≤ u) (hu : u ≤ 1 / 64) (hη : 0 ≤ η)
    (hX : 0 < X) (ht0 : 0 < t) (htX : t ≤ X) (hX1 : X ≤ 1)
    (h1 : |d' - (b - a)| ≤ u * |b - a|) (h2 : |X' - X| ≤ u * |X|) (h3 : |s - d' / X'| ≤ u * |d' / X'| + η)
    (h4 : |t' - t| ≤ u * |t|) (h5 : |p - s * t'| ≤ u * |s * t'| + η) (h6 : |v - (p + a)| ≤ u * |p + a|)
    (ha : |a| ≤ M) (hb : |b| ≤ M) :
    |v - (a + (b - a) * (t / X))| ≤ 16 * u * M + 4 * η := by
  set D := b - a with hD
  rw [abs_of_pos hX] at h2
  rw [abs_of_pos ht0] at h4
  have hX'1 : (1 - u) * X ≤ X' := by have := (abs_le.1 h2).1; linarith
  have hX'0 : 0 < X' := lt_of_lt_of_le (mul_pos (by linarith) hX) hX'1
  have ht'1 : t' ≤ (1 + u) * t := by have := (abs_le.1 h4).2; linarith
  have ht'0 : 0 ≤ t' := by
    have := (abs_le.1 h4).1
    have : u * t ≤ 1 * t := mul_le_mul_of_nonneg_right (by linarith) ht0.le
    linarith
  set r := D * (t / X) with hr
  set R := |r| with hR
  have hRD : R = |D| * (t / X) := by
    rw [hR, hr, abs_mul, abs_of_pos (div_pos ht0 hX)]
  have hR0 : 0 ≤ R := abs_nonneg _
  -- the quotient times the distance
  set q0 := d' / X' * t' with hq0
  have hq : |q0 - r| ≤ 13 / 4 * u * R := by
    have e : q0 - r = ((d' - D) * t' * X + D * (t' - t) * X + D * t * (X - X')) / (X * X') := by
      rw [hq0, hr]
      field_simp
      ring
    rw [e, abs_div, abs_of_pos (mul_pos hX hX'0), div_le_iff₀ (mul_pos hX hX'0)]
    have b1 : |(d' - D) * t' * X| ≤ u * |D| * ((1 + u) * t) * X := by
      rw [abs_mul, abs_mul, abs_of_pos hX, abs_of_nonneg ht'0]
      exact mul_le_mul_of_nonneg_right (mul_le_mul h1 ht'1 ht'0 (mul_nonneg hu0 (abs_nonneg _))) hX.le
    have b2 : |D * (t' - t) * X| ≤ |D| * (u * t) * X := by
      rw [abs_mul, abs_mul, abs_of_pos hX]
      exact mul_le_mul_of_nonneg_right (mul_le_mul_of_nonneg_left h4 (abs_nonneg _)) hX.le
    have b3 : |D * t * (X - X')| ≤ |D| * t * (u * X) := by
      rw [abs_mul, abs_mul, abs_of_pos ht0, abs_sub_comm X X']
      exact mul_le_mul_of_nonneg_left h2 (mul_nonneg (abs_nonneg _) ht0.le)
    have b4 := abs_add_le ((d' - D) * t' * X + D * (t' - t) * X) (D * t * (X - X'))
    have b5 := abs_add_le ((d' - D) * t' * X) (D * (t' - t) * X)
    have b6 : |(d' - D) * t' * X + D * (t' - t) * X + D * t * (X - X')| ≤ u * (3 + u) * (|D| * t * X) := by
      have : u * |D| * ((1 + u) * t) * X + |D| * (u * t) * X + |D| * t * (u * X) = u * (3 + u) * (|D| * t * X) := by ring
      linarith
    refine b6.trans ?_
    have hDt : |D| * t = R * X := by rw [hRD]; field_simp
    rw [hDt]
    have c1 : R * X * X * (1 - u) ≤ R * (X * X') := by
      have := mul_le_mul_of_nonneg_left hX'1 (mul_nonneg hR0 hX.le)
      linarith
    have c2 : (3 + u) ≤ 13 / 4 * (1 - u) := by linarith
    have c3 : 0 ≤ R * X * X := mul_nonneg (mul_nonneg hR0 hX.le) hX.le
    calc u * (3 + u) * (R * X * X) ≤ u * (13 / 4 * (1 - u)) * (R * X * X) :=
          mul_le_mul_of_nonneg_right (mul_le_mul_of_nonneg_left c2 hu0) c3
      _ = 13 / 4 * u * (R * X * X * (1 - u)) := by ring
      _ ≤ 13 / 4 * u * (R * (X * X')) := mul_le_mul_of_nonneg_left c1 (by linarith)
      _ = 13 / 4 * u * R * (X * X') := by ring
  have huR : 0 ≤ u * R := mul_nonneg hu0 hR0
  have huu : u * (u * R) ≤ 1 / 64 * (u * R) := mul_le_mul_of_nonneg_right hu huR
  have huη : u * η ≤ 1 / 64 * η := mul_le_mul_of_nonneg_right hu hη
  have hq0R : |q0| ≤ R + 13 / 4 * u * R := by
    have := abs_add_le (q0 - r) r
    rw [sub_add_cancel] at this
    linarith
  -- the slope is rounded
  have hst : |s * t' - r| ≤ 9 / 2 * (u * R) + 65 / 64 * η := by
    have e : s * t' - q0 = (s - d' / X') * t' := by rw [hq0]; ring
    have c1 : |s * t' - q0| ≤ u * |q0| + η * t' := by
      rw [e, abs_mul, abs_of_nonneg ht'0]
      have : |q0| = |d' / X'| * t' := by rw [hq0, abs_mul, abs_of_nonneg ht'0]
      rw [this]
      have := mul_le_mul_of_nonneg_right h3 ht'0
      linarith
    have c2 : η * t' ≤ 65 / 64 * η := by
      have : t' ≤ 65 / 64 := by
        have : (1 + u) * t ≤ (1 + u) * 1 := mul_le_mul_of_nonneg_left (htX.trans hX1) (by linarith)
        linarith
      have := mul_le_mul_of_nonneg_left this hη
      linarith
    have c3 : u * |q0| ≤ u * (R + 13 / 4 * u * R) := mul_le_mul_of_nonneg_left hq0R hu0
    have c4 : u * (R + 13 / 4 * u * R) = u * R + 13 / 4 * (u * (u * R)) := by ring
    have c5 := abs_add_le (s * t' - q0) (q0 - r)
    rw [sub_add_sub_cancel] at c5
    linarith
  -- the product is rounded
  have hp : |p - r| ≤ 23 / 4 * (u * R) + 25 / 8 * η := by
    have c1 : |s * t'| ≤ R + 9 / 2 * (u * R) + 65 / 64 * η := by
      have := abs_add_le (s * t' - r) r
      rw [sub_add_cancel] at this
      linarith
    have c2 := mul_le_mul_of_nonneg_left c1 hu0
    have c3 : u * (R + 9 / 2 * (u * R) + 65 / 64 * η) = u * R + 9 / 2 * (u * (u * R)) + 65 / 64 * (u * η) := by ring
    have c4 := abs_add_le (p - s * t') (s * t' - r)
    rw [sub_add_sub_cancel] at c4
    linarith
  -- the sum is rounded
  have hRM : R ≤ 2 * M := by
    rw [hRD]
    have : t / X ≤ 1 := (div_le_one hX).2 htX
    have c1 : |D| * (t / X) ≤ |D| * 1 := mul_le_mul_of_nonneg_left this (abs_nonneg _)
    have c2 : |D| ≤ |b| + |a| := abs_sub _ _
    linarith
  have heM : |a + r| ≤ M := by
    have c1 : t / X ≤ 1 := (div_le_one hX).2 htX
    have c2 : 0 < t / X := div_pos ht0 hX
    have e : a + r = a * (1 - t / X) + b * (t / X) := by rw [hr, hD]; ring
    rw [e]
    have c3 := abs_add_le (a * (1 - t / X)) (b * (t / X))
    rw [abs_mul, abs_mul, abs_of_pos c2, abs_of_nonneg (by linarith : 0 ≤ 1 - t / X)] at c3
    have c4 := mul_le_mul_of_nonneg_right ha (by linarith : 0 ≤ 1 - t / X)
    have c5 := mul_le_mul_of_nonneg_right hb c2.le
    have c6 : M * (1 - t / X) + M * (t / X) = M := by ring
    linarith
  have hpa : |p + a| ≤ M + 23 / 4 * (u * R) + 25 / 8 * η := by
    have c1 := abs_add_le (p - r) (a + r)
    rw [show p - r + (a + r) = p + a by ring] at c1
    linarith
  have c1 := mul_le_mul_of_nonneg_left hpa hu0
  have c2 : u * (M + 23 / 4 * (u * R) + 25 / 8 * η) = u * M + 23 / 4 * (u * (u * R)) + 25 / 8 * (u * η) := by ring
  have c3 := abs_add_le (v - (p + a)) (p - r)
  rw [show v - (p + a) + (p - r) = v - (a + r) by ring] at c3
  have c4 := mul_le_mul_of_nonneg_left hRM hu0
  linarith

end

end BeamDesign
