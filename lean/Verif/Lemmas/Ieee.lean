import Verif.Spec.Ieee
import Verif.Lemmas.Acc
import Mathlib.Tactic.Linarith
import Mathlib.Tactic.NormNum
import Mathlib.Tactic.Positivity

/-!
# Ranges of floating point numbers

`V s l h x y`: the two values agree, and the second is a double of the sign `s`, zero or between `2 ^ l` and `2 ^ h`.  One value is
calculated with the machine's arithmetic, the other with one that has relative errors everywhere.
-/

namespace BeamDesign

open Spec

/-- what is known of the sign -/
inductive Sgn
  | pos | nonneg | any
  deriving DecidableEq

namespace Sgn

def ok : Sgn → ℝ → Prop
  | pos, x => 0 < x
  | nonneg, x => 0 ≤ x
  | any, _ => True

/-- the sign of a product or, as the divisor is not zero, of a quotient -/
def mul : Sgn → Sgn → Sgn
  | pos, pos => pos
  | any, _ | _, any => any
  | _, _ => nonneg

def div : Sgn → Sgn → Sgn
  | any, _ | _, any => any
  | s, _ => s

def add : Sgn → Sgn → Sgn
  | any, _ | _, any => any
  | nonneg, nonneg => nonneg
  | _, _ => pos

def addLo : Sgn → Sgn → ℤ → ℤ → ℤ
  | pos, pos, l, _ | pos, nonneg, l, _ => l
  | nonneg, pos, _, l' => l'
  | nonneg, nonneg, l, l' => min l l'
  | pos, any, l, _ => l - 54
  | any, pos, _, l' => l' - 54
  | _, _, l, l' => min l l' - 54

/-- the sign of a square or of a root -/
def sq : Sgn → Sgn
  | pos => pos
  | _ => nonneg

def subLo : Sgn → Sgn → ℤ → ℤ → ℤ
  | pos, _, l, _ => l - 54
  | _, pos, _, l' => l' - 54
  | _, _, l, l' => min l l' - 54

end Sgn

/-- a double, its sign and its size -/
structure Rg (s : Sgn) (l h : ℤ) (x : ℝ) : Prop where
  flt : IsFloat x
  sgn : s.ok x
  size : x = 0 ∨ ((2 : ℝ) ^ l ≤ |x| ∧ |x| ≤ 2 ^ h)

theorem two_pos' (n : ℤ) : (0 : ℝ) < 2 ^ n := by positivity

theorem two_le {m n : ℤ} (h : m ≤ n) : (2 : ℝ) ^ m ≤ 2 ^ n := zpow_le_zpow_right₀ (by norm_num) h

theorem two_lt {m n : ℤ} (h : m < n) : (2 : ℝ) ^ m < 2 ^ n := zpow_lt_zpow_right₀ (by norm_num) h

theorem two_add (m n : ℤ) : (2 : ℝ) ^ (m + n) = 2 ^ m * 2 ^ n := zpow_add₀ (by norm_num) m n

theorem two_succ (n : ℤ) : (2 : ℝ) ^ (n + 1) = 2 * 2 ^ n := by rw [two_add]; norm_num; ring

theorem two_pred (n : ℤ) : (2 : ℝ) ^ (n - 1) = 2 ^ n / 2 := by
  have := two_succ (n - 1)
  rw [sub_add_cancel] at this
  linarith

/-- the sum of two doubles, one of them not zero, is zero or not much smaller -/
theorem float_gap {x y : ℝ} (hx : IsFloat x) (hy : IsFloat y) {l : ℤ} (hl : (2 : ℝ) ^ l ≤ |x|) :
    x + y = 0 ∨ (2 : ℝ) ^ (l - 54) ≤ |x + y| := by
  have p54 : (2 : ℝ) ^ (l - 54) = 2 ^ l * 2 ^ (-54 : ℤ) := by rw [sub_eq_add_neg, two_add]
  rcases le_or_gt |y| (|x| / 2) with hs | hs
  · right
    have h1 := abs_sub_abs_le_abs_sub x (-y)
    rw [abs_neg, sub_neg_eq_add] at h1
    have : (2 : ℝ) ^ (l - 54) ≤ 2 ^ l / 2 := by
      rw [← two_pred]; exact two_le (by omega)
    linarith
  · obtain ⟨m, e, hm, -, -, ex⟩ := hx
    obtain ⟨n, f, hn, -, -, ey⟩ := hy
    have bx : |x| ≤ 2 ^ (53 : ℤ) * 2 ^ e := by
      rw [ex, abs_mul, abs_of_pos (two_pos' e)]
      have : (|(m : ℝ)|) ≤ 2 ^ (53 : ℤ) := by exact_mod_cast hm.le
      exact mul_le_mul_of_nonneg_right this (two_pos' e).le
    have by' : |y| ≤ 2 ^ (53 : ℤ) * 2 ^ f := by
      rw [ey, abs_mul, abs_of_pos (two_pos' f)]
      have : (|(n : ℝ)|) ≤ 2 ^ (53 : ℤ) := by exact_mod_cast hn.le
      exact mul_le_mul_of_nonneg_right this (two_pos' f).le
    have ge : l - 54 ≤ e := by
      by_contra hc
      have : (2 : ℝ) ^ (53 + e) < 2 ^ l := two_lt (by omega)
      rw [two_add] at this
      linarith
    have gf : l - 54 ≤ f := by
      by_contra hc
      have : (2 : ℝ) ^ (53 + f) < 2 ^ (l - 1) := two_lt (by omega)
      rw [two_add, two_pred] at this
      linarith
    have key : x + y = ((m * 2 ^ (e - (l - 54)).toNat + n * 2 ^ (f - (l - 54)).toNat : ℤ) : ℝ) * 2 ^ (l - 54) := by
      have c : ∀ g : ℤ, l - 54 ≤ g → (2 : ℝ) ^ (g - (l - 54)).toNat * 2 ^ (l - 54) = 2 ^ g := by
        intro g hg
        rw [← zpow_natCast, Int.toNat_of_nonneg (by omega), ← two_add]
        congr 1; ring
      push_cast
      rw [add_mul, mul_assoc, mul_assoc, c e ge, c f gf, ← ex, ← ey]
    rw [key]
    set k : ℤ := m * 2 ^ (e - (l - 54)).toNat + n * 2 ^ (f - (l - 54)).toNat
    rcases eq_or_ne k 0 with h0 | h0
    · left; rw [h0]; simp
    · right
      rw [abs_mul, abs_of_pos (two_pos' _)]
      have : (1 : ℝ) ≤ |(k : ℝ)| := by exact_mod_cast Int.one_le_abs h0
      nlinarith [two_pos' (l - 54)]

theorem Spec.IsFloat.neg {x : ℝ} (h : IsFloat x) : IsFloat (-x) := by
  obtain ⟨m, e, hm, h1, h2, rfl⟩ := h
  exact ⟨-m, e, by rwa [abs_neg], h1, h2, by push_cast; ring⟩

/-- rounding keeps sign and size -/
theorem Rg.of_near {u r x : ℝ} (hu : u ≤ 1 / 2) (hn : Near u r x) {s : Sgn} {l h : ℤ} (hs : s.ok x)
    (hz : x = 0 ∨ ((2 : ℝ) ^ l ≤ |x| ∧ |x| ≤ 2 ^ h)) : Rg s (l - 1) (h + 1) r := by
  obtain ⟨hf, he⟩ := hn
  have he' : |r - x| ≤ 1 / 2 * |x| := he.trans (mul_le_mul_of_nonneg_right hu (abs_nonneg x))
  refine ⟨hf, ?_, ?_⟩
  · cases s with
    | pos =>
      have hs : 0 < x := hs
      rw [abs_of_pos hs] at he'
      show 0 < r
      linarith [(abs_le.1 he').1]
    | nonneg =>
      have hs : 0 ≤ x := hs
      rw [abs_of_nonneg hs] at he'
      show 0 ≤ r
      linarith [(abs_le.1 he').1]
    | any => trivial
  · rcases hz with h0 | ⟨h1, h2⟩
    · left
      rw [h0, abs_zero, mul_zero, sub_zero] at he'
      exact abs_eq_zero.1 (le_antisymm he' (abs_nonneg r))
    · right
      have a1 := abs_sub_abs_le_abs_sub x r
      have a2 := abs_sub_abs_le_abs_sub r x
      rw [abs_sub_comm x r] at a1
      rw [two_pred, two_succ]
      constructor <;> linarith

open Classical in
/-- the machine's arithmetic where it is good, the exact one elsewhere -/
noncomputable def Arith.patch (A : Arith ℝ) : Arith ℝ where
  add a b := if IsFloat a ∧ IsFloat b ∧ |a + b| < 2 ^ (1023 : ℤ) then A.add a b else a + b
  sub a b := if IsFloat a ∧ IsFloat b ∧ |a - b| < 2 ^ (1023 : ℤ) then A.sub a b else a - b
  mul a b := if IsFloat a ∧ IsFloat b ∧ Normal (a * b) then A.mul a b else a * b
  div a b := if IsFloat a ∧ IsFloat b ∧ b ≠ 0 ∧ Normal (a / b) then A.div a b else a / b
  sqrt a := if IsFloat a ∧ 0 ≤ a then A.sqrt a else √a
  sq a := if IsFloat a ∧ Normal (a ^ 2) then A.sq a else a ^ 2
  cube a := if IsFloat a ∧ Normal (a ^ 3) then A.cube a else a ^ 3
  lit q := if Normal (q : ℝ) then A.lit q else q

open Classical in
/-- the same for the power function -/
noncomputable def patchPow (pw : ℝ → ℝ → ℝ) (a b : ℝ) : ℝ :=
  if IsFloat a ∧ IsFloat b ∧ 0 < a ∧ Normal (a ^ b) then pw a b else a ^ b

theorem patch_rounded {A : Arith ℝ} {u : ℝ} (hA : Ieee A u) (hu : 0 ≤ u) : Rounded A.patch u where
  add a b := by
    dsimp only [Arith.patch]
    split_ifs with h
    · exact (hA.add a b h.1 h.2.1 h.2.2).2
    · rw [sub_self, abs_zero]; positivity
  sub a b := by
    dsimp only [Arith.patch]
    split_ifs with h
    · exact (hA.sub a b h.1 h.2.1 h.2.2).2
    · rw [sub_self, abs_zero]; positivity
  mul a b := by
    dsimp only [Arith.patch]
    split_ifs with h
    · exact (hA.mul a b h.1 h.2.1 h.2.2).2
    · rw [sub_self, abs_zero]; positivity
  div a b := by
    dsimp only [Arith.patch]
    split_ifs with h
    · exact (hA.div a b h.1 h.2.1 h.2.2.1 h.2.2.2).2
    · rw [sub_self, abs_zero]; positivity
  sqrt a h0 := by
    dsimp only [Arith.patch]
    split_ifs with h
    · have := (hA.sqrt a h.1 h.2).2
      rwa [abs_of_nonneg (Real.sqrt_nonneg a)] at this
    · rw [sub_self, abs_zero]; positivity
  sq a := by
    dsimp only [Arith.patch]
    split_ifs with h
    · have := (hA.sq a h.1 h.2).2
      rwa [abs_of_nonneg (sq_nonneg a)] at this
    · rw [sub_self, abs_zero]; positivity
  cube a := by
    dsimp only [Arith.patch]
    split_ifs with h
    · exact (hA.cube a h.1 h.2).2
    · rw [sub_self, abs_zero]; positivity
  lit q := by
    dsimp only [Arith.patch]
    split_ifs with h
    · exact (hA.lit q h).2
    · rw [sub_self, abs_zero]; positivity

theorem patchPow_rounded {pw : ℝ → ℝ → ℝ} {u : ℝ} (hp : IeeePow pw u) (hu : 0 ≤ u) : RoundedPow (patchPow pw) u := by
  intro a b ha
  have p := Real.rpow_pos_of_pos ha b
  unfold patchPow
  split_ifs with h
  · have := (hp a b h.1 h.2.1 h.2.2.1 h.2.2.2).2
    rwa [abs_of_pos p] at this
  · rw [sub_self, abs_zero]; positivity

/-! ## The operations -/

/-- the two values agree, and the second is in the range -/
structure V (s : Sgn) (l h : ℤ) (x y : ℝ) : Prop where
  eq : x = y
  rg : Rg s l h y

/-- the same for calculations that may fail -/
structure W {α : Type} (P : α → Prop) (p q : Py α) : Prop where
  eq : p = q
  rg : ∀ v, q = .ok v → P v

theorem W.bind {α β : Type} {P : α → Prop} {Q : β → Prop} {p q : Py α} {f g : α → Py β} (h : W P p q)
    (k : ∀ v, P v → W Q (f v) (g v)) : W Q (p >>= f) (q >>= g) := by
  obtain ⟨rfl, hp⟩ := h
  cases p with
  | error e => exact ⟨rfl, fun v hv => by cases hv⟩
  | ok a => exact ⟨(k a (hp a rfl)).eq, (k a (hp a rfl)).rg⟩

theorem W.pure {α : Type} {P : α → Prop} {x y : α} (e : x = y) (h : P y) : W P (.ok x : Py α) (.ok y) :=
  ⟨by rw [e], fun v hv => by injection hv with hv; rwa [← hv]⟩

theorem W.mono {α : Type} {P Q : α → Prop} {p q : Py α} (h : W P p q) (k : ∀ v, P v → Q v) : W Q p q :=
  ⟨h.eq, fun v hv => k v (h.rg v hv)⟩

theorem Rg.v {s : Sgn} {l h : ℤ} {x : ℝ} (hx : Rg s l h x) : V s l h x x := ⟨rfl, hx⟩

theorem Rg.mono {s : Sgn} {l h : ℤ} {x : ℝ} (hx : Rg s l h x) {l' h' : ℤ} (h1 : l' ≤ l := by decide) (h2 : h ≤ h' := by decide) :
    Rg s l' h' x :=
  ⟨hx.flt, hx.sgn, hx.size.imp id fun ⟨a, b⟩ => ⟨(two_le h1).trans a, b.trans (two_le h2)⟩⟩

theorem V.mono {s : Sgn} {l h : ℤ} {x y : ℝ} (hx : V s l h x y) {l' h' : ℤ} (h1 : l' ≤ l := by decide) (h2 : h ≤ h' := by decide) :
    V s l' h' x y := ⟨hx.eq, hx.rg.mono h1 h2⟩

theorem Rg.toAny {s : Sgn} {l h : ℤ} {x : ℝ} (hx : Rg s l h x) : Rg .any l h x := ⟨hx.flt, trivial, hx.size⟩

theorem Rg.toNonneg {l h : ℤ} {x : ℝ} (hx : Rg .pos l h x) : Rg .nonneg l h x := ⟨hx.flt, le_of_lt hx.sgn, hx.size⟩

theorem Spec.Sized.rg {l h : ℤ} {x : ℝ} (hx : Sized l h x) : Rg .pos l h x := by
  have p : 0 < x := (two_pos' l).trans_le hx.2.1
  exact ⟨hx.1, p, Or.inr (by rw [abs_of_pos p]; exact hx.2)⟩

theorem Spec.SizedOrZero.rg {l h : ℤ} {x : ℝ} (hx : SizedOrZero l h x) : Rg .any l h x := ⟨hx.1, trivial, hx.2⟩

theorem Spec.SizedOrZero.rgN {l h : ℤ} {x : ℝ} (hx : SizedOrZero l h x ∧ 0 ≤ x) : Rg .nonneg l h x := ⟨hx.1.1, hx.2, hx.1.2⟩

theorem sgn_mul {s s' : Sgn} {x y : ℝ} (hx : s.ok x) (hy : s'.ok y) : (s.mul s').ok (x * y) := by
  cases s <;> cases s' <;> simp only [Sgn.mul, Sgn.ok] at * <;> first | positivity | trivial

theorem sgn_div {s s' : Sgn} {x y : ℝ} (hx : s.ok x) (hy : s'.ok y) (h : y ≠ 0) : (s.div s').ok (x / y) := by
  cases s <;> cases s' <;> simp only [Sgn.div, Sgn.ok] at * <;> first | positivity | trivial

theorem sgn_add {s s' : Sgn} {x y : ℝ} (hx : s.ok x) (hy : s'.ok y) : (s.add s').ok (x + y) := by
  cases s <;> cases s' <;> simp only [Sgn.add, Sgn.ok] at * <;> first | positivity | trivial

section
variable {s s' : Sgn} {l h l' h' : ℤ} {x y x' y' : ℝ}

theorem size_mul (hx : Rg s l h x) (hy : Rg s' l' h' y) : x * y = 0 ∨ ((2 : ℝ) ^ (l + l') ≤ |x * y| ∧ |x * y| ≤ 2 ^ (h + h')) := by
  rcases hx.size with h0 | ⟨a, b⟩
  · left; rw [h0, zero_mul]
  rcases hy.size with h0 | ⟨c, d⟩
  · left; rw [h0, mul_zero]
  right
  rw [abs_mul, two_add, two_add]
  exact ⟨mul_le_mul a c (two_pos' _).le (abs_nonneg _), mul_le_mul b d (abs_nonneg _) (two_pos' _).le⟩

theorem size_div (hx : Rg s l h x) (hy : Rg s' l' h' y) (h0 : y ≠ 0) :
    x / y = 0 ∨ ((2 : ℝ) ^ (l - h') ≤ |x / y| ∧ |x / y| ≤ 2 ^ (h - l')) := by
  rcases hx.size with h1 | ⟨a, b⟩
  · left; rw [h1, zero_div]
  obtain ⟨c, d⟩ := hy.size.resolve_left h0
  right
  have p := abs_pos.2 h0
  rw [abs_div, zpow_sub₀ (by norm_num), zpow_sub₀ (by norm_num)]
  exact ⟨div_le_div₀ (abs_nonneg _) a p d, div_le_div₀ (two_pos' _).le b (two_pos' _) c⟩

theorem size_le (hx : Rg s l h x) : |x| ≤ 2 ^ h := by
  rcases hx.size with h0 | ⟨-, b⟩
  · rw [h0, abs_zero]; exact (two_pos' h).le
  · exact b

theorem size_add_le (hx : Rg s l h x) (hy : Rg s' l' h' y) : |x + y| ≤ 2 ^ (max h h' + 1) := by
  have a := size_le hx
  have b := size_le hy
  have c := abs_add_le x y
  have d := two_le (le_max_left h h')
  have e := two_le (le_max_right h h')
  rw [two_succ]
  linarith

theorem size_ge (hx : Rg .pos l h x) : (2 : ℝ) ^ l ≤ x := by
  have p : 0 < x := hx.sgn
  have := (hx.size.resolve_left p.ne').1
  rwa [abs_of_pos p] at this

theorem size_add (hx : Rg s l h x) (hy : Rg s' l' h' y) :
    x + y = 0 ∨ ((2 : ℝ) ^ (Sgn.addLo s s' l l') ≤ |x + y| ∧ |x + y| ≤ 2 ^ (max h h' + 1)) := by
  have up := size_add_le hx hy
  have gl : (2 : ℝ) ^ l ≤ |x| → x + y = 0 ∨ ((2 : ℝ) ^ (l - 54) ≤ |x + y| ∧ |x + y| ≤ 2 ^ (max h h' + 1)) := fun h =>
    (float_gap hx.flt hy.flt h).imp id fun g => ⟨g, up⟩
  have gr : (2 : ℝ) ^ l' ≤ |y| → x + y = 0 ∨ ((2 : ℝ) ^ (l' - 54) ≤ |x + y| ∧ |x + y| ≤ 2 ^ (max h h' + 1)) := fun h => by
    have := float_gap hy.flt hx.flt h
    rw [add_comm] at this
    exact this.imp id fun g => ⟨g, up⟩
  have gm : x + y = 0 ∨ ((2 : ℝ) ^ (min l l' - 54) ≤ |x + y| ∧ |x + y| ≤ 2 ^ (max h h' + 1)) := by
    rcases hx.size with h0 | ⟨a, -⟩
    · rcases hy.size with h1 | ⟨b, -⟩
      · left; rw [h0, h1, add_zero]
      · exact (gr b).imp id fun g => ⟨(two_le (by omega)).trans g.1, g.2⟩
    · exact (gl a).imp id fun g => ⟨(two_le (by omega)).trans g.1, g.2⟩
  have pl : s = .pos → (2 : ℝ) ^ l ≤ x := fun e => by subst e; exact size_ge hx
  have pr : s' = .pos → (2 : ℝ) ^ l' ≤ y := fun e => by subst e; exact size_ge hy
  have ab : ∀ {n : ℤ} {z : ℝ}, (2 : ℝ) ^ n ≤ z → (2 : ℝ) ^ n ≤ |z| := fun g => g.trans (le_abs_self _)
  have hsx := hx.sgn
  have hsy := hy.sgn
  cases s <;> cases s' <;> simp only [Sgn.addLo, Sgn.ok] at *
  · exact Or.inr ⟨ab (by linarith [pl trivial]), up⟩
  · exact Or.inr ⟨ab (by linarith [pl trivial]), up⟩
  · exact gl (ab (pl trivial))
  · exact Or.inr ⟨ab (by linarith [pr trivial]), up⟩
  · rcases hx.size with h0 | ⟨a, -⟩
    · rcases hy.size with h1 | ⟨b, -⟩
      · left; rw [h0, h1, add_zero]
      · right
        refine ⟨?_, up⟩
        rw [abs_of_nonneg hsy] at b
        exact ab ((two_le (min_le_right l l')).trans (by linarith))
    · right
      refine ⟨?_, up⟩
      rw [abs_of_nonneg hsx] at a
      exact ab ((two_le (min_le_left l l')).trans (by linarith))
  · exact gm
  · exact gr (ab (pr trivial))
  · exact gm
  · exact gm

theorem Rg.neg (hx : Rg s l h x) : Rg .any l h (-x) :=
  ⟨hx.flt.neg, trivial, by rw [abs_neg, neg_eq_zero]; exact hx.size⟩

theorem size_sub (hx : Rg s l h x) (hy : Rg s' l' h' y) :
    x - y = 0 ∨ ((2 : ℝ) ^ (Sgn.subLo s s' l l') ≤ |x - y| ∧ |x - y| ≤ 2 ^ (max h h' + 1)) := by
  have key : ∀ t t' : Sgn, Rg t l h x → Rg t' l' h' (-y) → Sgn.subLo s s' l l' ≤ Sgn.addLo t t' l l' →
      x - y = 0 ∨ ((2 : ℝ) ^ (Sgn.subLo s s' l l') ≤ |x - y| ∧ |x - y| ≤ 2 ^ (max h h' + 1)) := fun t t' a b c => by
    have := size_add a b
    rw [← sub_eq_add_neg] at this
    exact this.imp id fun g => ⟨(two_le c).trans g.1, g.2⟩
  cases s <;> cases s'
  · exact key .pos .any hx hy.neg le_rfl
  · exact key .pos .any hx hy.neg le_rfl
  · exact key .pos .any hx hy.neg le_rfl
  · have b := size_add hy hx.neg
    rw [show y + -x = -(x - y) by ring, neg_eq_zero, abs_neg, max_comm] at b
    exact b
  · exact key .any .any hx.toAny hy.neg le_rfl
  · exact key .any .any hx.toAny hy.neg le_rfl
  · have b := size_add hy hx.neg
    rw [show y + -x = -(x - y) by ring, neg_eq_zero, abs_neg, max_comm] at b
    exact b
  · exact key .any .any hx.toAny hy.neg le_rfl
  · exact key .any .any hx.toAny hy.neg le_rfl

theorem normal_of {z : ℝ} {m n : ℤ} (hz : z = 0 ∨ ((2 : ℝ) ^ m ≤ |z| ∧ |z| ≤ 2 ^ n)) (h1 : -1022 ≤ m) (h2 : n ≤ 1022) : Normal z :=
  hz.imp id fun ⟨a, b⟩ => ⟨(two_le h1).trans a, b.trans_lt (two_lt (by omega))⟩

variable {A : Arith ℝ} {u : ℝ}

theorem V.mul (hA : Ieee A u) (hu : u ≤ 1 / 2) (hx : V s l h x x') (hy : V s' l' h' y y') (h1 : -1022 ≤ l + l' := by decide)
    (h2 : h + h' ≤ 1022 := by decide) : V (s.mul s') (l + l' - 1) (h + h' + 1) (A.patch.mul x y) (A.mul x' y') := by
  obtain ⟨rfl, hx⟩ := hx
  obtain ⟨rfl, hy⟩ := hy
  have z := size_mul hx hy
  have n := normal_of z h1 h2
  exact ⟨if_pos ⟨hx.flt, hy.flt, n⟩, Rg.of_near hu (hA.mul _ _ hx.flt hy.flt n) (sgn_mul hx.sgn hy.sgn) z⟩

theorem V.self (hA : Ieee A u) (hu : u ≤ 1 / 2) (hx : V s l h x x') (h1 : -1022 ≤ l + l := by decide) (h2 : h + h ≤ 1022 := by decide) :
    V s.sq (l + l - 1) (h + h + 1) (A.patch.mul x x) (A.mul x' x') := by
  obtain ⟨rfl, hx⟩ := hx
  have z := size_mul hx hx
  have n := normal_of z h1 h2
  refine ⟨if_pos ⟨hx.flt, hx.flt, n⟩, Rg.of_near hu (hA.mul _ _ hx.flt hx.flt n) ?_ z⟩
  have := hx.sgn
  cases s <;> simp only [Sgn.sq, Sgn.ok] at *
  · positivity
  · positivity
  · exact mul_self_nonneg x

theorem V.div (hA : Ieee A u) (hu : u ≤ 1 / 2) (hx : V s l h x x') (hy : V s' l' h' y y') (h0 : y' ≠ 0)
    (h1 : -1022 ≤ l - h' := by decide) (h2 : h - l' ≤ 1022 := by decide) :
    V (s.div s') (l - h' - 1) (h - l' + 1) (A.patch.div x y) (A.div x' y') := by
  obtain ⟨rfl, hx⟩ := hx
  obtain ⟨rfl, hy⟩ := hy
  have z := size_div hx hy h0
  have n := normal_of z h1 h2
  exact ⟨if_pos ⟨hx.flt, hy.flt, h0, n⟩, Rg.of_near hu (hA.div _ _ hx.flt hy.flt h0 n) (sgn_div hx.sgn hy.sgn h0) z⟩

theorem V.quot (hA : Ieee A u) (hu : u ≤ 1 / 2) (hx : V s l h x x') (hy : V s' l' h' y y')
    (h1 : -1022 ≤ l - h' := by decide) (h2 : h - l' ≤ 1022 := by decide) :
    W (Rg (s.div s') (l - h' - 1) (h - l' + 1)) (A.patch.quot x y) (A.quot x' y') := by
  rcases eq_or_ne y' 0 with h0 | h0
  · have := hy.eq
    unfold Arith.quot
    rw [this, if_pos h0, if_pos h0]
    exact ⟨rfl, fun v hv => by cases hv⟩
  · have := hx.div hA hu hy h0 h1 h2
    unfold Arith.quot
    rw [hy.eq, if_neg h0, if_neg h0]
    rw [hy.eq] at this
    exact W.pure this.eq this.rg

theorem V.root (hA : Ieee A u) (hu : u ≤ 1 / 2) (hx : V s l h x x') :
    W (Rg s.sq (l / 2 - 1) (h / 2 + 1 + 1)) (A.patch.root x) (A.root x') := by
  obtain ⟨rfl, hx⟩ := hx
  unfold Arith.root
  rcases lt_or_ge x 0 with h0 | p
  · rw [if_pos h0, if_pos h0]
    exact ⟨rfl, fun v hv => by cases hv⟩
  · rw [if_neg (not_lt.2 p), if_neg (not_lt.2 p)]
    have e : A.patch.sqrt x = A.sqrt x := if_pos ⟨hx.flt, p⟩
    have z : √x = 0 ∨ ((2 : ℝ) ^ (l / 2) ≤ |√x| ∧ |√x| ≤ 2 ^ (h / 2 + 1)) := by
      rcases hx.size with g | ⟨a, b⟩
      · left; rw [g, Real.sqrt_zero]
      · right
        rw [abs_of_nonneg p] at a b
        rw [abs_of_nonneg (Real.sqrt_nonneg x)]
        constructor
        · apply Real.le_sqrt_of_sq_le
          rw [← zpow_natCast, ← zpow_mul]
          exact (two_le (by push_cast; omega)).trans a
        · rw [Real.sqrt_le_left (two_pos' _).le, ← zpow_natCast, ← zpow_mul]
          exact b.trans (two_le (by push_cast; omega))
    refine W.pure e (Rg.of_near hu (hA.sqrt x hx.flt p) ?_ z)
    cases s with
    | pos => exact Real.sqrt_pos.2 hx.sgn
    | nonneg => exact Real.sqrt_nonneg x
    | any => exact Real.sqrt_nonneg x

theorem V.sqrt (hA : Ieee A u) (hu : u ≤ 1 / 2) (hx : V s l h x x') (p : 0 ≤ x') :
    V .nonneg (l / 2 - 1) (h / 2 + 1 + 1) (A.patch.sqrt x) (A.sqrt x') := by
  have := hx.root hA hu
  have e := hx.eq
  unfold Arith.root at this
  rw [e, if_neg (not_lt.2 p), if_neg (not_lt.2 p)] at this
  obtain ⟨h1, h2⟩ := this
  injection h1 with h1
  have g := h2 _ rfl
  refine ⟨by rw [e]; exact h1, ?_⟩
  cases s with
  | pos => exact Rg.toNonneg g
  | nonneg => exact g
  | any => exact g

theorem V.add (hA : Ieee A u) (hu : u ≤ 1 / 2) (hx : V s l h x x') (hy : V s' l' h' y y') (h2 : max h h' + 1 ≤ 1022 := by decide) :
    V (s.add s') (Sgn.addLo s s' l l' - 1) (max h h' + 1 + 1) (A.patch.add x y) (A.add x' y') := by
  obtain ⟨rfl, hx⟩ := hx
  obtain ⟨rfl, hy⟩ := hy
  have z := size_add hx hy
  have n := (size_add_le hx hy).trans_lt (two_lt (show max h h' + 1 < 1023 by omega))
  exact ⟨if_pos ⟨hx.flt, hy.flt, n⟩, Rg.of_near hu (hA.add _ _ hx.flt hy.flt n) (sgn_add hx.sgn hy.sgn) z⟩

theorem V.sub (hA : Ieee A u) (hu : u ≤ 1 / 2) (hx : V s l h x x') (hy : V s' l' h' y y') (h2 : max h h' + 1 ≤ 1022 := by decide) :
    V .any (Sgn.subLo s s' l l' - 1) (max h h' + 1 + 1) (A.patch.sub x y) (A.sub x' y') := by
  obtain ⟨rfl, hx⟩ := hx
  obtain ⟨rfl, hy⟩ := hy
  have z := size_sub hx hy
  have n : |x - y| < 2 ^ (1023 : ℤ) := by
    have := size_add_le hx hy.neg
    rw [← sub_eq_add_neg] at this
    exact this.trans_lt (two_lt (by omega))
  exact ⟨if_pos ⟨hx.flt, hy.flt, n⟩, Rg.of_near hu (hA.sub _ _ hx.flt hy.flt n) trivial z⟩

theorem V.sq (hA : Ieee A u) (hu : u ≤ 1 / 2) (hx : V s l h x x') (h1 : -1022 ≤ l + l := by decide) (h2 : h + h ≤ 1022 := by decide) :
    V s.sq (l + l - 1) (h + h + 1) (A.patch.sq x) (A.sq x') := by
  obtain ⟨rfl, hx⟩ := hx
  have z := size_mul hx hx
  rw [← pow_two] at z
  have n := normal_of z h1 h2
  refine ⟨if_pos ⟨hx.flt, n⟩, Rg.of_near hu (hA.sq _ hx.flt n) ?_ z⟩
  have := hx.sgn
  cases s <;> simp only [Sgn.sq, Sgn.ok] at * <;> positivity

theorem V.cube (hA : Ieee A u) (hu : u ≤ 1 / 2) (hx : V s l h x x') (h1 : -1022 ≤ l + l + l := by decide)
    (h2 : h + h + h ≤ 1022 := by decide) : V s (l + l + l - 1) (h + h + h + 1) (A.patch.cube x) (A.cube x') := by
  obtain ⟨rfl, hx⟩ := hx
  have z : x ^ 3 = 0 ∨ ((2 : ℝ) ^ (l + l + l) ≤ |x ^ 3| ∧ |x ^ 3| ≤ 2 ^ (h + h + h)) := by
    rcases hx.size with g | ⟨a, b⟩
    · left; rw [g]; norm_num
    · right
      rw [abs_pow, two_add, two_add, two_add, two_add, ← pow_two, ← pow_two, ← pow_succ, ← pow_succ]
      exact ⟨pow_le_pow_left₀ (two_pos' _).le a 3, pow_le_pow_left₀ (abs_nonneg _) b 3⟩
  have n := normal_of z h1 h2
  refine ⟨if_pos ⟨hx.flt, n⟩, Rg.of_near hu (hA.cube _ hx.flt n) ?_ z⟩
  have := hx.sgn
  cases s <;> simp only [Sgn.ok] at * <;> positivity

theorem V.lit (hA : Ieee A u) (hu : u ≤ 1 / 2) (q : ℚ) {l h : ℤ} (hl : (2 : ℝ) ^ l ≤ q) (hh : (q : ℝ) ≤ 2 ^ h)
    (h1 : -1022 ≤ l := by decide) (h2 : h ≤ 1022 := by decide) : V .pos (l - 1) (h + 1) (A.patch.lit q) (A.lit q) := by
  have p : (0 : ℝ) < q := (two_pos' l).trans_le hl
  have z : (q : ℝ) = 0 ∨ ((2 : ℝ) ^ l ≤ |(q : ℝ)| ∧ |(q : ℝ)| ≤ 2 ^ h) := Or.inr (by rw [abs_of_pos p]; exact ⟨hl, hh⟩)
  have n := normal_of z h1 h2
  exact ⟨if_pos n, Rg.of_near hu (hA.lit q n) p z⟩

theorem Rg.min (hx : Rg s l h x) (hy : Rg s l' h' y) : Rg s (Min.min l l') (Max.max h h') (Min.min x y) := by
  rcases min_choice x y with e | e <;> rw [e]
  · exact hx.mono (min_le_left _ _) (le_max_left _ _)
  · exact hy.mono (min_le_right _ _) (le_max_right _ _)

theorem Rg.max (hx : Rg s l h x) (hy : Rg s l' h' y) : Rg s (Min.min l l') (Max.max h h') (Max.max x y) := by
  rcases max_choice x y with e | e <;> rw [e]
  · exact hx.mono (min_le_left _ _) (le_max_left _ _)
  · exact hy.mono (min_le_right _ _) (le_max_right _ _)

theorem V.min (hx : V s l h x x') (hy : V s l' h' y y') : V s (Min.min l l') (Max.max h h') (Min.min x y) (Min.min x' y') :=
  ⟨by rw [hx.eq, hy.eq], hx.rg.min hy.rg⟩

/-- integers that occur in the formulas -/
theorem Rg.nat (n : ℕ) (l h : ℤ) (hn : n < 2 ^ 53 := by norm_num) (h0 : (2 : ℝ) ^ l ≤ n := by norm_num)
    (h1 : (n : ℝ) ≤ 2 ^ h := by norm_num) : Rg .pos l h (n : ℝ) := by
  have p : (0 : ℝ) < n := (two_pos' l).trans_le h0
  refine ⟨⟨n, 0, ?_, by norm_num, by norm_num, by simp⟩, p, Or.inr ?_⟩
  · rw [abs_of_nonneg (by positivity)]; exact_mod_cast hn
  · rw [abs_of_pos p]
    exact ⟨h0, h1⟩

theorem piD_rg : Rg .pos 1 2 (piD : ℝ) := by
  refine ⟨⟨884279719003555, -48, by norm_num, by norm_num, by norm_num, by norm_num [piD]⟩, piD_pos, Or.inr ?_⟩
  rw [abs_of_pos piD_pos]
  constructor <;> norm_num [piD]

end

end BeamDesign
