import Verif.Model.Rounded
import Verif.Lemmas.Fast64

/-!
# The arithmetic of double precision the kernel can evaluate

`Arith.binary64` again, with `fastRnd` for the rounding.
-/

namespace BeamDesign

/-- `sqrt64` for the kernel -/
def fastSqrt (x : ℚ) : ℚ :=
  if x.num = 0 then 0
  else
    let k : ℤ := 60 - log64 x / 2
    let y := x * two64 (2 * k)
    let n := Nat.sqrt (y.num / y.den).toNat
    fastRnd ((if ((n * n : ℕ) : ℚ) = y then (n : ℚ) else mkRat (2 * n + 1) 2) * two64 (-k))

theorem fastSqrt_eq (x : ℚ) : fastSqrt x = sqrt64 x := by
  unfold fastSqrt
  split_ifs with h
  · rw [Rat.num_eq_zero] at h
    subst h
    simp [sqrt64, rnd64, roundEven]
  · have hx : x ≠ 0 := fun h0 => h (by rw [h0]; rfl)
    have h4 : ∀ k : ℤ, (2 : ℚ) ^ (2 * k) = 4 ^ k := fun k => by rw [zpow_mul]; norm_num
    have hm : ∀ n : ℕ, mkRat (2 * n + 1) 2 = (n : ℚ) + 1 / 2 := fun n => by
      rw [Rat.mkRat_eq_div]; push_cast; ring
    unfold sqrt64
    simp only [log64_eq hx, two64_eq, fastRnd_eq, h4, hm, Rat.floor_def', Nat.cast_mul, zpow_neg, ← div_eq_mul_inv, sq]

/-- `Arith.binary64` for the kernel -/
def fastArith : Arith ℚ where
  add := fun a b => fastRnd (a + b)
  sub := fun a b => fastRnd (a - b)
  mul := fun a b => fastRnd (a * b)
  div := fun a b => fastRnd (a / b)
  sqrt := fastSqrt
  sq := fun a => fastRnd (a * a)
  cube := fun a => fastRnd (a * a * a)
  lit := fastRnd

theorem fastArith_eq : fastArith = Arith.binary64 := by
  have h3 : ∀ a : ℚ, a * a * a = a ^ 3 := fun a => by ring
  unfold Arith.binary64 fastArith
  simp only [funext fastRnd_eq, funext fastSqrt_eq, h3, sq]

example : fastSqrt 2 = 6369051672525773 / 2 ^ 52 := by decide +kernel

end BeamDesign
