import Verif.Float64
import Mathlib.Tactic.Linarith
import Mathlib.Tactic.Positivity
import Mathlib.Tactic.NormNum
import Mathlib.Tactic.Ring
import Mathlib.Tactic.FieldSimp

/-!
# Double precision the kernel can evaluate

`rnd64` again, with `Nat.log2` for the exponent, so that `decide +kernel` can run the model on doubles.
-/

namespace BeamDesign

/-- `2 ^ e` in natural numbers. -/
def two64 (e : ℤ) : ℚ := if 0 ≤ e then ((2 ^ e.toNat : ℕ) : ℚ) else mkRat 1 (2 ^ (-e).toNat)

theorem two64_eq (e : ℤ) : two64 e = 2 ^ e := by
  unfold two64
  split_ifs with h
  · obtain ⟨n, rfl⟩ := Int.eq_ofNat_of_zero_le h
    simp
  · obtain ⟨n, hn⟩ := Int.eq_ofNat_of_zero_le (show 0 ≤ -e by omega)
    obtain rfl : e = -(n : ℤ) := by omega
    rw [Rat.mkRat_eq_div]
    simp

/-- The exponent of the first binary digit. -/
def log64 (x : ℚ) : ℤ :=
  let k : ℤ := (Nat.log2 x.num.natAbs : ℤ) - Nat.log2 x.den
  if two64 k ≤ |x| then k else k - 1

theorem log64_eq {x : ℚ} (hx : x ≠ 0) : log64 x = Int.log 2 |x| := by
  have hn : x.num.natAbs ≠ 0 := by simpa using hx
  have hd : x.den ≠ 0 := x.den_nz
  have hax : |x| = (x.num.natAbs : ℚ) / x.den := by
    rw [Nat.cast_natAbs, Int.cast_abs]
    conv_lhs => rw [← Rat.num_div_den x]
    rw [abs_div, abs_of_nonneg (a := (x.den : ℚ)) (by positivity)]
  have hpos : 0 < |x| := abs_pos.2 hx
  have key : ∀ e : ℤ, (2 : ℚ) ^ e ≤ |x| → |x| < 2 ^ (e + 1) → e = Int.log 2 |x| := by
    intro e h1 h2
    have a := (Int.zpow_le_iff_le_log (b := 2) (by norm_num) hpos (x := e)).1 (by exact_mod_cast h1)
    have b := (Int.lt_zpow_iff_log_lt (b := 2) (by norm_num) hpos (x := e + 1)).1 (by exact_mod_cast h2)
    omega
  have n1 : (2 : ℚ) ^ (Nat.log2 x.num.natAbs) ≤ x.num.natAbs := by exact_mod_cast Nat.log2_self_le hn
  have n2 : (x.num.natAbs : ℚ) < 2 ^ (Nat.log2 x.num.natAbs + 1) := by exact_mod_cast Nat.lt_log2_self
  have d1 : (2 : ℚ) ^ (Nat.log2 x.den) ≤ x.den := by exact_mod_cast Nat.log2_self_le hd
  have d2 : (x.den : ℚ) < 2 ^ (Nat.log2 x.den + 1) := by exact_mod_cast Nat.lt_log2_self
  have hd0 : (0 : ℚ) < x.den := by positivity
  unfold log64
  simp only [two64_eq]
  generalize Nat.log2 x.num.natAbs = a at *
  generalize Nat.log2 x.den = b at *
  have hup : |x| < 2 ^ ((a : ℤ) - b + 1) := by
    rw [hax, div_lt_iff₀ hd0]
    calc (x.num.natAbs : ℚ) < 2 ^ (a + 1) := n2
      _ = 2 ^ ((a : ℤ) - b + 1) * 2 ^ b := by
        rw [← zpow_natCast, ← zpow_natCast, ← zpow_add₀ (by norm_num)]
        congr 1; push_cast; ring
      _ ≤ _ := mul_le_mul_of_nonneg_left d1 (zpow_pos (by norm_num) _).le
  have hlo : 2 ^ ((a : ℤ) - b - 1) ≤ |x| := by
    rw [hax, le_div_iff₀ hd0]
    calc 2 ^ ((a : ℤ) - b - 1) * (x.den : ℚ) ≤ 2 ^ ((a : ℤ) - b - 1) * 2 ^ (b + 1) :=
          mul_le_mul_of_nonneg_left d2.le (zpow_pos (by norm_num) _).le
      _ = 2 ^ a := by
        rw [← zpow_natCast, ← zpow_natCast, ← zpow_add₀ (by norm_num)]
        congr 1; push_cast; ring
      _ ≤ _ := n1
  split_ifs with h
  · exact key _ h hup
  · exact key _ hlo (by rw [sub_add_cancel]; exact lt_of_not_ge h)

/-- `roundEven` in integers. -/
def roundDiv (n : ℤ) (d : ℕ) : ℤ :=
  let f := n / d
  let r := 2 * (n % d)
  if r < d then f else if (d : ℤ) < r then f + 1 else if f % 2 = 0 then f else f + 1

theorem roundDiv_eq (q : ℚ) : roundDiv q.num q.den = roundEven q := by
  have hd0 : (0 : ℚ) < q.den := by exact_mod_cast q.den_pos
  have hdz : (0 : ℤ) < q.den := by exact_mod_cast q.den_pos
  have hf : ⌊q⌋ = q.num / q.den := Rat.floor_def'
  have hfr : q - ⌊q⌋ = ((q.num % q.den : ℤ) : ℚ) / q.den := by
    rw [hf, eq_div_iff hd0.ne', sub_mul]
    have h1 : q * q.den = q.num := Rat.mul_den_eq_num q
    rw [h1, Int.emod_def]
    push_cast
    ring
  unfold roundDiv roundEven
  simp only [hfr]
  have e1 : ((q.num % q.den : ℤ) : ℚ) / q.den < 1 / 2 ↔ 2 * (q.num % q.den) < q.den := by
    rw [div_lt_div_iff₀ hd0 (by norm_num), one_mul, mul_comm]
    exact_mod_cast Iff.rfl
  have e2 : (1 : ℚ) / 2 < ((q.num % q.den : ℤ) : ℚ) / q.den ↔ (q.den : ℤ) < 2 * (q.num % q.den) := by
    rw [div_lt_div_iff₀ (by norm_num) hd0, one_mul, mul_comm _ (2 : ℚ)]
    exact_mod_cast Iff.rfl
  simp only [e1, e2, hf, Int.even_iff]

/-- `rnd64` for the kernel. -/
def fastRnd (x : ℚ) : ℚ :=
  if x.num = 0 then 0
  else
    let e := max (log64 x - 52) (-1074)
    let q := x * two64 (-e)
    (roundDiv q.num q.den : ℚ) * two64 e

theorem fastRnd_eq (x : ℚ) : fastRnd x = rnd64 x := by
  unfold fastRnd
  split_ifs with h
  · rw [Rat.num_eq_zero] at h
    rw [h]
    simp [rnd64, roundEven]
  · have hx : x ≠ 0 := fun h0 => h (by rw [h0]; rfl)
    simp only [log64_eq hx, two64_eq, roundDiv_eq]
    unfold rnd64 exp64
    rw [zpow_neg, ← div_eq_mul_inv]

/-- `Rt.binary64` for the kernel. -/
def Rt.fast64 : Rt ℚ where
  add := fun a b => fastRnd (a + b)
  sub := fun a b => fastRnd (a - b)
  mul := fun a b => fastRnd (a * b)
  div := fun a b => fastRnd (a / b)
  qsort := fun l => l.insertionSort (fun a b => a.1 ≤ b.1)

theorem binary64_eq : Rt.binary64 = Rt.fast64 := by
  unfold Rt.binary64 Rt.fast64
  simp only [fastRnd_eq]

example : fastRnd (1 / 10) = 3602879701896397 / 2 ^ 55 := by decide +kernel
example : Rt.fast64.add (fastRnd (1 / 10)) (fastRnd (2/10)) ≠ fastRnd (3 / 10) := by decide +kernel

end BeamDesign
