import Verif.FloatWide
import Verif.Props.UnitChange
import Verif.Lemmas.Fast64
import Mathlib.Algebra.Order.Field.Power

/-! # Property C150: units which differ by powers of two give the same digits -/

namespace BeamDesign

open Spec

/-! ## Rounding to 53 digits commutes with powers of two -/

theorem log_two_mul (k : ℤ) {x : ℚ} (hx : 0 < x) : Int.log 2 ((2 : ℚ) ^ k * x) = k + Int.log 2 x := by
  have h2 : (0 : ℚ) < 2 ^ k := by positivity
  have hp : 0 < (2 : ℚ) ^ k * x := mul_pos h2 hx
  have h1 := Int.zpow_log_le_self (b := 2) (R := ℚ) (by norm_num) hx
  have h3 := Int.lt_zpow_succ_log_self (b := 2) (R := ℚ) (by norm_num) x
  push_cast at h1 h3
  apply le_antisymm
  · have : Int.log 2 ((2 : ℚ) ^ k * x) < k + Int.log 2 x + 1 := by
      rw [← Int.lt_zpow_iff_log_lt (by norm_num) hp]
      push_cast
      rw [add_assoc, zpow_add₀ (by norm_num : (2 : ℚ) ≠ 0)]
      exact mul_lt_mul_of_pos_left h3 h2
    omega
  · rw [← Int.zpow_le_iff_le_log (by norm_num) hp]
    push_cast
    rw [zpow_add₀ (by norm_num : (2 : ℚ) ≠ 0)]
    exact mul_le_mul_of_nonneg_left h1 h2.le

theorem roundEven_zero : roundEven 0 = 0 := by
  unfold roundEven
  simp

theorem rnd53_two_mul (k : ℤ) (x : ℚ) : rnd53 (2 ^ k * x) = 2 ^ k * rnd53 x := by
  have h2 : (2 : ℚ) ^ k ≠ 0 := by positivity
  rcases eq_or_ne x 0 with rfl | hx
  · simp [rnd53, roundEven_zero]
  have he : exp53 (2 ^ k * x) = k + exp53 x := by
    unfold exp53
    rw [abs_mul, abs_of_pos (by positivity : (0 : ℚ) < 2 ^ k), log_two_mul k (abs_pos.2 hx)]
    ring
  unfold rnd53
  rw [he, zpow_add₀ (by norm_num : (2 : ℚ) ≠ 0), mul_div_mul_left _ _ h2]
  ring

theorem rnd53_normal {x : ℚ} (hx : x = 0 ∨ 2 ^ (-1022 : ℤ) ≤ |x|) : rnd64 x = rnd53 x := by
  rcases hx with rfl | hx
  · simp [rnd64, rnd53, roundEven_zero]
  have : exp64 x = exp53 x := by
    unfold exp64 exp53
    have h0 : (0 : ℚ) < |x| := lt_of_lt_of_le (by positivity) hx
    have := (Int.zpow_le_iff_le_log (b := 2) (R := ℚ) (by norm_num) (x := -1022) h0).1 (by exact_mod_cast hx)
    omega
  unfold rnd64 rnd53
  rw [this]

/-! ## The property -/

/-- **C150.**  Rounding to 53 binary digits passes on every power of two. -/
theorem C150_scales {rt : Rt ℚ} (hw : rt.Wide) (k : ℤ) : Scales rt (2 ^ k) where
  add a b := by rw [hw.add, hw.add, ← mul_add, rnd53_two_mul]
  sub a b := by rw [hw.sub, hw.sub, ← mul_sub, rnd53_two_mul]
  mulLeft a b := by rw [hw.mul, hw.mul, mul_assoc, rnd53_two_mul]
  mulRight a b := by rw [hw.mul, hw.mul, mul_left_comm, rnd53_two_mul]
  divTop a b := by rw [hw.div, hw.div, mul_div_assoc, rnd53_two_mul]
  divBoth a b := by rw [hw.div, hw.div, mul_div_mul_left _ _ (by positivity)]

/-- **C150.**  The operations on doubles are those operations unless the result underflows. -/
theorem C150_doubles {rt : Rt ℚ} (hw : rt.Wide) (a b : ℚ) :
    (a + b = 0 ∨ 2 ^ (-1022 : ℤ) ≤ |a + b| → Rt.binary64.add a b = rt.add a b) ∧
    (a - b = 0 ∨ 2 ^ (-1022 : ℤ) ≤ |a - b| → Rt.binary64.sub a b = rt.sub a b) ∧
    (a * b = 0 ∨ 2 ^ (-1022 : ℤ) ≤ |a * b| → Rt.binary64.mul a b = rt.mul a b) ∧
    (a / b = 0 ∨ 2 ^ (-1022 : ℤ) ≤ |a / b| → Rt.binary64.div a b = rt.div a b) := by
  rw [hw.add, hw.sub, hw.mul, hw.div]
  exact ⟨rnd53_normal, rnd53_normal, rnd53_normal, rnd53_normal⟩

/-- **C150.**  The design tension capacity has the same digits. -/
theorem C150_capacity {rt : Rt ℚ} (hw : rt.Wide) (k m : ℤ) (o : AS4100 ℚ) (position : PosArg ℚ) :
    (objectIn (2 ^ k) (2 ^ m) o).tensionCapacity rt (positionIn (2 ^ k) position)
      = (o.tensionCapacity rt position).map (2 ^ m * ·) :=
  capacity_in (C150_scales hw k) (C150_scales hw m) (by positivity) (by positivity) o position

/-- **C150.**  The loads reported have the same digits, in tables which were not entered with whole numbers only. -/
theorem C150_loads {rt : Rt ℚ} (hw : rt.Wide) (k m : ℤ) {b : Beam ℚ (Sect ℚ)} (hb : FloatTables b) (c : ℤ) (position : PosArg ℚ)
    (n : Option ℤ) {component : CompArg} {cs : List LComp} (hc : component.resolve = .ok cs) :
    (beamIn (2 ^ k) (2 ^ m) b).getLoads rt c (positionIn (2 ^ k) position) n component
      = (b.getLoads rt c position n component).map (Option.map (tableIn (2 ^ k) (2 ^ m) cs)) :=
  loads_in (C150_scales hw k) (C150_scales hw m) (by positivity) hb c position n hc

/-- **C150.**  So has the tension. -/
theorem C150_tension {rt : Rt ℚ} (hw : rt.Wide) (k m : ℤ) (o : AS4100 ℚ) (ho : ∀ b, o.beam = some b → FloatTables b) (c : ℤ)
    (position : PosArg ℚ) (n : Option ℤ) :
    (objectIn (2 ^ k) (2 ^ m) o).getTension rt c (positionIn (2 ^ k) position) n
      = (o.getTension rt c position n).map (tableIn (2 ^ k) (2 ^ m) [.N]) :=
  tension_in (C150_scales hw k) (C150_scales hw m) (by positivity) (by positivity) o ho c position n

/-- **C150.**  The tension utilisation is the same number. -/
theorem C150_utilisation {rt : Rt ℚ} (hw : rt.Wide) (k m : ℤ) (o : AS4100 ℚ) (loadCase : CaseArg) (position : PosArg ℚ) :
    (objectIn (2 ^ k) (2 ^ m) o).tensionUtilisation rt loadCase (positionIn (2 ^ k) position)
      = o.tensionUtilisation rt loadCase position :=
  utilisation_in (C150_scales hw k) (C150_scales hw m) (by positivity) (by positivity) o loadCase position

/-! ## A rod -/

/-- `rnd53` for the kernel. -/
def fastRnd53 (x : ℚ) : ℚ :=
  if x.num = 0 then 0
  else
    let e := log64 x - 52
    let q := x * two64 (-e)
    (roundDiv q.num q.den : ℚ) * two64 e

theorem fastRnd53_eq (x : ℚ) : fastRnd53 x = rnd53 x := by
  unfold fastRnd53
  split_ifs with h
  · rw [Rat.num_eq_zero] at h
    rw [h]
    simp [rnd53, roundEven]
  · have hx : x ≠ 0 := fun h0 => h (by rw [h0]; rfl)
    simp only [log64_eq hx, two64_eq, roundDiv_eq]
    unfold rnd53 exp53
    rw [zpow_neg, ← div_eq_mul_inv]

/-- Rounding to 53 digits with a stable sort. -/
def Rt.fast53 : Rt ℚ where
  add := fun a b => fastRnd53 (a + b)
  sub := fun a b => fastRnd53 (a - b)
  mul := fun a b => fastRnd53 (a * b)
  div := fun a b => fastRnd53 (a / b)
  qsort := fun l => l.insertionSort (fun a b => a.1 ≤ b.1)

theorem fast53_wide : Rt.fast53.Wide :=
  ⟨fun _ _ => fastRnd53_eq _, fun _ _ => fastRnd53_eq _, fun _ _ => fastRnd53_eq _, fun _ _ => fastRnd53_eq _⟩

/-- Steel with one column of strengths, all of them doubles in metres and in millimetres. -/
def dyadicSteel : Material ℚ :=
  ⟨.mat .steel, .str "250", .str "AS3678-2016", [("strengths", .table [[1/8], [250000000], [410000000]])]⟩

/-- A rod of 3 m, 46.875 mm across, pulled with 1 MN. -/
def dyadicRod : AS4100 ℚ :=
  ⟨some ⟨[⟨[(1, ⟨some ⟨false, [Samples.axial 0 1000000, Samples.axial 1 1000000]⟩⟩)], some (Num.flt 3),
      .circle (3/128) (some dyadicSteel)⟩]⟩,
    none, 20, [⟨3/128, dyadicSteel⟩], fastRnd (9/10), fastRnd (85/100), 1⟩

/-- In units of 1/1024 m and 1/16 N the capacity is 16 times the number and the utilisation the same number, above 2.5. -/
example :
    (objectIn (2 ^ (10 : ℤ)) (2 ^ (4 : ℤ)) dyadicRod).tensionUtilisation Rt.fast53 (.one 1) .none
      = dyadicRod.tensionUtilisation Rt.fast53 (.one 1) .none ∧
    (objectIn (2 ^ (10 : ℤ)) (2 ^ (4 : ℤ)) dyadicRod).tensionCapacity Rt.fast53 .none
      = (dyadicRod.tensionCapacity Rt.fast53 .none).map (2 ^ (4 : ℤ) * ·) ∧
    (dyadicRod.tensionUtilisation Rt.fast53 (.one 1) .none).toOption = some (5799289883026175 / 2251799813685248) :=
  ⟨C150_utilisation fast53_wide 10 4 dyadicRod (.one 1) .none, C150_capacity fast53_wide 10 4 dyadicRod .none,
    by decide +kernel⟩

/-- The tension and the loads of the rod, at the given position 1 m, that is 1024 units. -/
example :
    (objectIn (2 ^ (10 : ℤ)) (2 ^ (4 : ℤ)) dyadicRod).getTension Rt.fast53 1 (positionIn (2 ^ (10 : ℤ)) (.scalar (Num.flt 1))) none
      = (dyadicRod.getTension Rt.fast53 1 (.scalar (Num.flt 1)) none).map (tableIn (2 ^ (10 : ℤ)) (2 ^ (4 : ℤ)) [.N]) ∧
    (dyadicRod.getTension Rt.fast53 1 (.scalar (Num.flt 1)) none).toOption.map (·.rows) = some [(1, [some 1000000])] := by
  refine ⟨C150_tension fast53_wide 10 4 dyadicRod ?_ 1 (.scalar (Num.flt 1)) none, by decide +kernel⟩
  intro b hb e he c lc t hl ht
  cases hb
  simp only [List.mem_singleton] at he
  subst he
  simp only [List.lookup_cons, List.lookup_nil] at hl
  split at hl
  · cases hl; cases ht; rfl
  · cases hl

example :
    (beamIn (2 ^ (10 : ℤ)) (2 ^ (4 : ℤ)) Samples.rods).getLoads Rt.fast53 7 .none (some 5) .none
      = (Samples.rods.getLoads Rt.fast53 7 .none (some 5) .none).map (Option.map (tableIn (2 ^ (10 : ℤ)) (2 ^ (4 : ℤ)) LComp.all)) ∧
    ((Samples.rods.getLoads Rt.fast53 7 .none (some 5) .none).map fun t => t.map fun t => t.rows.length).toOption
      = some (some 11) :=
  ⟨C150_loads fast53_wide 10 4 rods_float 7 .none (some 5) rfl, by decide +kernel⟩

/-- Not so from metres to millimetres: the utilisations computed in doubles differ in the last digits. -/
theorem C150_counterexample :
    (dyadicRod.tensionUtilisation Rt.binary64 (.one 1) .none).toOption = some (5799289883026175 / 2 ^ 51) ∧
    ((objectIn 1000 1 dyadicRod).tensionUtilisation Rt.binary64 (.one 1) .none).toOption = some (22653476105571 / 2 ^ 43) := by
  rw [binary64_eq]
  exact ⟨by decide +kernel, by decide +kernel⟩

end BeamDesign
