import Verif.Lemmas.AnyLength
import Verif.Props.Full64

/-!
# C146: a design that passes on IEEE doubles, for elements of any lengths
-/

set_option linter.unusedSectionVars false

namespace BeamDesign

open Spec

theorem floatLens_of {ls : List (Num ℚ)} (hf : ∀ l ∈ ls, l.isInt = false ∧ IsDouble l.val) {R : ℚ} (hR : NotTiny ls R) :
    FloatLens rnd64 ls := fun l hl =>
  ⟨(hf l hl).1, lt_of_lt_of_le (two_zpow_pos _) (hR l hl).2, isDouble_iff.1 (hf l hl).2⟩

/-- C146: on doubles that overflow, with infinities and nan, for up to `2 ^ 50` elements whose lengths are any doubles that are not
shorter than the beam divided by `R` (the ends of the elements need not be doubles, so they are rounded), with loads up to `W`
stored at any positions that are at least `g` apart, in the first load case and in every load case whose stations are among its
stations: if there is an overall utilisation, the true axial load is nowhere above `1 + 2 ^ -42` times it times the true design
capacity, by more than `2 ^ -49 * W * (1 + R / g)` and two steps of underflow. -/
theorem C146_anywhere (o : AS4100 ℚ) (b : Beam ℚ (Sect ℚ)) (hb : o.beam = some b) (ha : Aligned o)
    (ls : List (Num ℚ)) (h : HasLengths b ls) (hf : ∀ l ∈ ls, l.isInt = false ∧ IsDouble l.val) (R : ℚ) (hR : NotTiny ls R)
    (hlen : ls.length ≤ 2 ^ 50) (hd : UsualData IsDouble (2 ^ (-100 : ℤ)) o)
    (loadCase : CaseArg) (c : ℤ) (cs : List ℤ) (hcs : CasesOf o loadCase (c :: cs))
    (hc : ∀ k ∈ c :: cs, LoadedFloat b k) (v : ℚ) (hv : o.tensionUtilisation64 loadCase .none = .ok v)
    (k : ℤ) (hk : k ∈ c :: cs) (hst : StationsOf b c k) (hml : MachineLoads IsDouble b k)
    (g W : ℚ) (hg : 0 < g) (hgl : GentleLoads b k g W) :
    TrulyNowhereAboveBy o b k (v * (1 + 2 ^ (-42 : ℤ))) (2 ^ (-49 : ℤ) * W * (1 + R / g) + 2 ^ (-1073 : ℤ)) := by
  have hm := floatLens_of hf hR
  rintro i t e d C x a ht he hes hC - - hax
  obtain ⟨r, hr, har⟩ := axialAt_le hax
  have hi : i < ls.length := by
    rw [← hasLengths_length h]
    exact (List.getElem?_eq_some_iff.1 he).1
  have hl : ls[i]? = some ls[i] := List.getElem?_eq_getElem hi
  obtain ⟨hp, hW⟩ := hgl i t ht
  have hW0 : 0 ≤ W := (abs_nonneg _).trans (hW r hr)
  obtain ⟨X, hX⟩ : ∃ X, X = rnd64 (gstart rnd64 0 ls i + rnd64 (r.pos * (ls[i]).val)) := ⟨_, rfl⟩
  obtain ⟨q, hq⟩ : ∃ q, q = rnd64 (rnd64 (X - gstart rnd64 0 ls i) / (ls[i]).val) := ⟨_, rfl⟩
  obtain ⟨hX1, hX2, hD1, m, cap, w, hcap, hmF, hmr, hw, hwv⟩ := ganywhere_covers hb h hm hcs hc hv hk hst hl ht hr (hml i t ht)
    hg hp hW hX hq
  obtain ⟨x0, x1⟩ := (by obtain ⟨-, -, -, hwf, -⟩ := id ht; exact hwf.2 r hr : 0 ≤ r.pos ∧ r.pos ≤ 1)
  have hdrift := gdrift hm hR hlen hl x0 x1 hX hq hD1
  obtain ⟨ds, hds⟩ : ∃ ds, o.considered Rt.binary64 (.scalar (Num.flt X)) = .ok ds := by
    simp only [AS4100.phiNt, AS4100.Nt, AS4100.Nty, bind, Except.bind] at hcap
    cases hh : o.considered Rt.binary64 (.scalar (Num.flt X)) with
    | error e => rw [hh] at hcap; cases hcap
    | ok ds => exact ⟨ds, rfl⟩
  obtain ⟨hsub, hmem⟩ := gconsidered C83_binary64_rounds hb ha h hm hds
  have hdm := hmem i e d he hes hX1 hX2
  obtain ⟨cap', M, h1, h2, h3, h4, h5⟩ := phiNt_near C78_binary64_rounds (two_zpow_pos _).le
    (by norm_num) (two_zpow_pos _) (by norm_num) underflow_small piD_double hd hds (List.ne_nil_of_mem hdm) hsub
  rw [hcap] at h1
  cases h1
  obtain ⟨N, hN⟩ := trueCapacity_section hC
  have hphi : 0 ≤ o.phiSteel := (two_zpow_pos _).le.trans hd.1.2
  have hMN : o.phiSteel * M ≤ o.phiSteel * N := mul_le_mul_of_nonneg_left (h3.2 ⟨d, hdm, hN⟩) hphi
  have hX0 : (0 : ℚ) < o.phiSteel * M := lt_of_lt_of_le (pow_pos (two_zpow_pos _) _) h5
  obtain ⟨k1, -⟩ := pi_ratio
  obtain ⟨hv0, hmain⟩ := sound_one64 hmF h2 hw hwv h5 h4 hMN
  have hrm : r.n ≤ m + (2 ^ (-49 : ℤ) * W * (1 + R / g) + 2 ^ (-1073 : ℤ)) := by
    generalize (2 : ℚ) ^ (-1073 : ℤ) = τ at hmr ⊢
    have h6 : 2 * W / g * |q - r.pos| ≤ 2 * W / g * (8 * 2 ^ (-53 : ℤ) * R) :=
      mul_le_mul_of_nonneg_left hdrift (by positivity)
    have h7 : 2 * W / g * (8 * 2 ^ (-53 : ℤ) * R) = 2 ^ (-49 : ℤ) * W * (R / g) := by norm_num; ring
    have h8 := (abs_le.1 hmr).1
    clear h5
    rw [mul_add, mul_one]
    linarith
  have hr' : (a : ℝ) ≤ (v * (1 + 2 ^ (-42 : ℤ)) * (o.phiSteel * N) + (2 ^ (-49 : ℤ) * W * (1 + R / g) + 2 ^ (-1073 : ℤ)) : ℚ) := by
    exact_mod_cast har.trans (hrm.trans (add_le_add hmain le_rfl))
  refine hr'.trans ?_
  rw [trueCapacity_eq hN hC]
  have h0 : (0 : ℝ) < ((o.phiSteel * N : ℚ) : ℝ) := by exact_mod_cast hX0.trans_le hMN
  have h6 : ((o.phiSteel * N : ℚ) : ℝ) ≤ Real.pi / ((piD : ℚ) : ℝ) * ((o.phiSteel * N : ℚ) : ℝ) := le_mul_of_one_le_left h0.le k1
  have hv0' : (0 : ℝ) ≤ v := by exact_mod_cast hv0
  rw [Rat.cast_add, Rat.cast_mul]
  push_cast at h6 ⊢
  refine add_le_add (mul_le_mul_of_nonneg_left h6 (by positivity)) le_rfl

/-- C146: a utilisation of at most 1 means that no element is overloaded anywhere in the load case, by more than rounding. -/
theorem C146_passes (o : AS4100 ℚ) (b : Beam ℚ (Sect ℚ)) (hb : o.beam = some b) (ha : Aligned o)
    (ls : List (Num ℚ)) (h : HasLengths b ls) (hf : ∀ l ∈ ls, l.isInt = false ∧ IsDouble l.val) (R : ℚ) (hR : NotTiny ls R)
    (hlen : ls.length ≤ 2 ^ 50) (hd : UsualData IsDouble (2 ^ (-100 : ℤ)) o) (c : ℤ) (hc : LoadedFloat b c)
    (hml : MachineLoads IsDouble b c) (g W : ℚ) (hg : 0 < g) (hgl : GentleLoads b c g W)
    (v : ℚ) (hv : o.tensionUtilisation64 (.one c) .none = .ok v) (hv1 : v ≤ 1) :
    TrulyNowhereAboveBy o b c (1 + 2 ^ (-42 : ℤ)) (2 ^ (-49 : ℤ) * W * (1 + R / g) + 2 ^ (-1073 : ℤ)) := by
  have hmain := C146_anywhere o b hb ha ls h hf R hR hlen hd (.one c) c [] (Or.inr (Or.inl ⟨c, rfl, rfl⟩))
    (by simpa using hc) v hv c List.mem_cons_self (fun i t r ht hr => ⟨t, r, ht, hr, rfl⟩) hml g W hg hgl
  intro i t e d C x a ht he hes hC h0 h1 hax
  have hi : i < ls.length := by
    rw [← hasLengths_length h]
    exact (List.getElem?_eq_some_iff.1 he).1
  have hC0 : 0 ≤ C := (trueCapacity_pos (two_zpow_pos _) hd (atPosition_mem hb ha (ls := ls) (p := startOf ls i)
    ⟨i, e, ⟨hi, le_rfl, startOf_mono h.2 (Nat.le_succ i)⟩, he, hes⟩) hC).le
  refine (hmain i t e d C x a ht he hes hC h0 h1 hax).trans ?_
  refine add_le_add (mul_le_mul_of_nonneg_right ?_ hC0) le_rfl
  have : (v : ℝ) ≤ 1 := by exact_mod_cast hv1
  exact mul_le_of_le_one_left (by positivity) this

/-- C146: the same when every operation of the check, not only the solver, can overflow, with loads and data of at most `2 ^ 100`
and different stations at least `2 ^ -900` apart. -/
theorem C146_full (o : AS4100 ℚ) (b : Beam ℚ (Sect ℚ)) (hb : o.beam = some b) (ha : Aligned o)
    (ls : List (Num ℚ)) (h : HasLengths b ls) (hf : ∀ l ∈ ls, l.isInt = false ∧ IsDouble l.val) (R : ℚ) (hR : NotTiny ls R)
    (hlen : ls.length ≤ 2 ^ 50) (hd : UsualData IsDouble (2 ^ (-100 : ℤ)) o) (hB : DataUpTo (2 ^ (100 : ℤ)) o)
    (hl : LoadsUpTo IsDouble (2 ^ (-900 : ℤ)) (2 ^ (100 : ℤ)) b) (c : ℤ) (hc : LoadedFloat b c)
    (g W : ℚ) (hg : 0 < g) (hgl : GentleLoads b c g W)
    (u : Flt) (hu : o.tensionUtilisationFull (.one c) .none = .ok u) (hu1 : F64.le u (.fin 1) = true) :
    TrulyNowhereAboveBy o b c (1 + 2 ^ (-42 : ℤ)) (2 ^ (-49 : ℤ) * W * (1 + R / g) + 2 ^ (-1073 : ℤ)) := by
  rw [C142_same o hd hB (fun b' hb' => by rw [hb] at hb'; cases hb'; exact hl)] at hu
  cases hv : o.tensionUtilisation64 (.one c) .none with
  | error => rw [hv] at hu; cases hu
  | ok v =>
    rw [hv] at hu
    cases hu
    rw [le_fin] at hu1
    refine C146_passes o b hb ha ls h hf R hR hlen hd c hc ?_ g W hg hgl v hv (of_decide_eq_true hu1)
    intro i t ht
    obtain ⟨e, he, hlk, -⟩ := ht
    exact (hl e (List.mem_of_getElem? he) c t hlk).2.1

/-! ## A case meeting the hypotheses, and one that is refused -/

def tenthLens (y : ℚ) : List (Num ℚ) := [Num.flt (fastRnd (1/10)), Num.flt (fastRnd y)]

/-- The two rods of C135, the first a tenth and the second `y` long. -/
def tenthBeam (y : ℚ) : Beam ℚ (Sect ℚ) :=
  ⟨[⟨[(1, ⟨some tableA⟩)], some (Num.flt (fastRnd (1/10))), .circle (fastRnd (1/100)) (some doubleSteel)⟩,
    ⟨[(1, ⟨some tableB⟩)], some (Num.flt (fastRnd y)), .circle (fastRnd (2/100)) (some doubleSteel)⟩]⟩

def tenthObj (y : ℚ) : AS4100 ℚ := { pairObj with beam := some (tenthBeam y) }

theorem tenth_table {y : ℚ} {k : ℤ} {i : ℕ} {t : Table ℚ} (h : HasTable (tenthBeam y) k i t) : HasTable gentleBeam k i t := by
  obtain ⟨e, he, hl, h1, h2⟩ := h
  have hi : i < 2 := (List.getElem?_eq_some_iff.1 he).1
  obtain rfl | rfl : i = 0 ∨ i = 1 := by omega
  · cases he; exact ⟨_, rfl, hl, h1, h2⟩
  · cases he; exact ⟨_, rfl, hl, h1, h2⟩

theorem tenth_loaded (y : ℚ) : LoadedFloat (tenthBeam y) 1 := by
  intro i hi
  obtain ⟨t, ⟨e, he, hl, h1, h2⟩, h3⟩ := gentle_loaded i hi
  have hi : i < 2 := hi
  obtain rfl | rfl : i = 0 ∨ i = 1 := by omega
  · cases he; exact ⟨t, ⟨_, rfl, hl, h1, h2⟩, h3⟩
  · cases he; exact ⟨t, ⟨_, rfl, hl, h1, h2⟩, h3⟩

/-- The end of the second rod is not a double. -/
example : ¬ Marks rnd64 (tenthLens (7/10)) := by
  intro h
  have := h.2 2
  rw [← fastRnd_eq] at this
  revert this
  decide +kernel

/-- C146, concretely: rods of 0.1 and 0.7 pass on doubles, so they are nowhere overloaded by more than a millionth. -/
example : TrulyNowhereAboveBy (tenthObj (7/10)) (tenthBeam (7/10)) 1 (1 + 2 ^ (-42 : ℤ)) (1 / 10 ^ 6) := by
  have h : (match (tenthObj (7/10)).tensionUtilisationWith F64.utilNum Rt.fast64 (.one 1) .none with
    | .ok v => decide (v ≤ 1) | .error _ => false) = true := by decide +kernel
  split at h
  next v hv =>
    rw [← binary64_eq] at hv
    have := C146_passes (tenthObj (7/10)) (tenthBeam (7/10)) rfl (.cons ⟨rfl, rfl⟩ (.cons ⟨rfl, rfl⟩ .nil)) (tenthLens (7/10))
      ⟨.cons rfl (.cons rfl .nil), by decide +kernel⟩ (fun l hl => by
        rcases List.mem_pair.1 hl with rfl | rfl <;> exact ⟨rfl, fast_double _⟩) 9 (by unfold NotTiny; decide +kernel) (by decide)
      (by obtain ⟨h1, h2, h3, h4⟩ := pairObj_usual; exact ⟨h1, h2, h3, h4⟩) 1 (tenth_loaded _)
      (fun i t ht => gentle_machine i t (tenth_table ht)) (1/20) 60000 (by norm_num)
      (fun i t ht => gentle_gentle i t (tenth_table ht)) v hv (of_decide_eq_true h)
    intro i t e d C x a h1 h2 h3 h4 h5 h6 h7
    refine (this i t e d C x a h1 h2 h3 h4 h5 h6 h7).trans (add_le_add le_rfl ?_)
    have : (2 : ℝ) ^ (-1073 : ℤ) ≤ 2 ^ (-100 : ℤ) := zpow_le_zpow_right₀ (by norm_num) (by norm_num)
    generalize (2 : ℝ) ^ (-1073 : ℤ) = z at *
    norm_num at this ⊢
    linarith
  next => cases h

/-- C146: there need not be a utilisation.  With a second rod of 0.2 the rounded end of the beam is further from the start of the
rod than the rod is long, and the check raises an exception. -/
theorem C146_refused :
    (∀ l ∈ tenthLens (2/10), l.isInt = false ∧ IsDouble l.val) ∧ NotTiny (tenthLens (2/10)) 4 ∧ LoadedFloat (tenthBeam (2/10)) 1 ∧
    HasLengths (tenthBeam (2/10)) (tenthLens (2/10)) ∧ (tenthObj (2/10)).beam = some (tenthBeam (2/10)) ∧
    (tenthObj (2/10)).tensionUtilisation64 (.one 1) .none = .error .positionNotInElement := by
  refine ⟨fun l hl => ?_, by unfold NotTiny; decide +kernel, tenth_loaded _, ⟨.cons rfl (.cons rfl .nil), by decide +kernel⟩, rfl, ?_⟩
  · rcases List.mem_pair.1 hl with rfl | rfl <;> exact ⟨rfl, fast_double _⟩
  · unfold AS4100.tensionUtilisation64
    rw [binary64_eq]
    decide +kernel

end BeamDesign
