import Verif.Props.S6
import Mathlib.Analysis.Complex.Polynomial.Basic
import Mathlib.Tactic.LinearCombination

/-!
# Symmetry and torsional buckling: C57, C58
-/

set_option linter.unusedSimpArgs false

namespace BeamDesign

open S6

/-! ## C57 -/

theorem Axis.isStr_iff (t : String) (a : Axis) : a.isStr t = true ↔ a = .str t := by
  cases a <;> simp [Axis.isStr]

theorem any_isStr (t : String) (l : List Axis) : l.any (Axis.isStr t) = true ↔ Axis.str t ∈ l := by
  rw [List.any_eq_true]
  constructor
  · rintro ⟨a, ha, h⟩
    rw [Axis.isStr_iff] at h
    exact h ▸ ha
  · intro h
    exact ⟨_, h, (Axis.isStr_iff t _).2 rfl⟩

theorem perm_xy (l : List Axis) :
    l.Perm [.str "x", .str "y"] ↔ l.length = 2 ∧ Axis.str "x" ∈ l ∧ Axis.str "y" ∈ l := by
  constructor
  · intro h
    exact ⟨h.length_eq, h.mem_iff.2 (by simp), h.mem_iff.2 (by simp)⟩
  · rintro ⟨h, hx, hy⟩
    match l, h with
    | [a, b], _ =>
      simp only [List.mem_cons, List.not_mem_nil, or_false] at hx hy
      have hne : (Axis.str "x") ≠ .str "y" := by simp
      rcases hx with rfl | rfl <;> rcases hy with h | h
      · exact absurd h.symm hne
      · rw [h]
      · rw [h]; exact List.Perm.swap _ _ _
      · exact absurd h.symm hne

/-- C57, partial (an axes list is given): every list is classified as exactly one of the four kinds, by
the documented rule. -/
theorem C57_classification_partial (axes : List Axis) :
    (∃ k, (Symmetry.mk (some axes)).symmetry = .ok k) ∧
    ((Symmetry.mk (some axes)).symmetry = .ok .double ↔ axes.Perm [.str "x", .str "y"]) ∧
    ((Symmetry.mk (some axes)).symmetry = .ok .point ↔ ∃ a, axes = [a] ∧ a.isPoint) ∧
    ((Symmetry.mk (some axes)).symmetry = .ok .single ↔ ∃ a, axes = [a] ∧ ¬ a.isPoint) ∧
    ((Symmetry.mk (some axes)).symmetry = .ok .none ↔
      axes.length ≠ 1 ∧ ¬ axes.Perm [.str "x", .str "y"]) := by
  classical
  simp only [perm_xy, Symmetry.symmetry, any_isStr, Except.ok_inj']
  refine ⟨⟨_, rfl⟩, ?_⟩
  match axes with
  | [] => simp
  | [a] =>
    have hp : (Axis.str "point" ∈ [a] ∨ Axis.str "Point" ∈ [a] ∨ Axis.str "POINT" ∈ [a]) ↔ a.isPoint := by
      simp [Axis.isPoint, eq_comm]
    by_cases h : a.isPoint
    · simp only [hp]
      simp [h]
    · simp only [hp]
      simp [h]
  | a :: b :: l =>
    have h1 : (a :: b :: l).length ≠ 1 := by simp
    have h0 : (a :: b :: l).length ≠ 0 := by simp
    have h3 : ∀ p : Axis → Prop, ¬ ∃ c, a :: b :: l = [c] ∧ p c := by simp
    simp only [h0, h1, h3, if_false, false_and, ne_eq, not_false_eq_true, true_and]
    split
    · rename_i h
      simp only [iff_true_left h, reduceCtorEq, not_true_eq_false, true_iff, h, and_self, iff_self]
    · rename_i h
      simp only [h, reduceCtorEq, not_false_eq_true, iff_self, and_self]

theorem symmetry_perm {axes axes' : List Axis} (h : axes.Perm axes') :
    (Symmetry.mk (some axes)).symmetry = (Symmetry.mk (some axes')).symmetry := by
  have e : ∀ t, axes.any (Axis.isStr t) = axes'.any (Axis.isStr t) := fun t => by
    rw [Bool.eq_iff_iff, any_isStr, any_isStr, h.mem_iff]
  simp only [Symmetry.symmetry, h.length_eq, e]

/-- C57, partial: the order of the axes does not matter, neither for the kind nor for the buckling
stress. -/
theorem C57_order_partial {axes axes' : List Axis} (h : axes.Perm axes') (roots : Roots) (m : Member) :
    (Symmetry.mk (some axes)).symmetry = (Symmetry.mk (some axes')).symmetry ∧
    foc roots m ⟨some axes⟩ = foc roots m ⟨some axes'⟩ := by
  refine ⟨symmetry_perm h, ?_⟩
  have e : ∀ t, axes.any (Axis.isStr t) = axes'.any (Axis.isStr t) := fun t => by
    rw [Bool.eq_iff_iff, any_isStr, any_isStr, h.mem_iff]
  simp only [foc, symmetry_perm h, focSingle, Symmetry.symcount, h.length_eq, Option.getD_some, e]

/-- the flexural-torsional stress about the x axis, and about the y axis -/
noncomputable def foxzX (m : Member) : Py ℝ := do
  return (← foxz m.An m.lex m.lez m.rx m.ry m.xo m.yo m.J m.Iw m.E m.G).foxz

/-- about the y axis -/
noncomputable def foxzY (m : Member) : Py ℝ := do
  return (← foxz m.An m.ley m.lez m.ry m.rx m.yo m.xo m.J m.Iw m.E m.G).foxz

/-- C57, partial: the torsional check uses the clause of the kind of symmetry: for two axes the smaller of
the flexural-torsional and torsional stress, for one axis the flexural-torsional stress about that axis
(about `y` unless the axis is `x`), for point symmetry the torsional stress, otherwise the cubic. -/
theorem C57_dispatch_partial (roots : Roots) (m : Member) (axes : List Axis) :
    (axes.Perm [.str "x", .str "y"] → foc roots m ⟨some axes⟩ = (do
      let f ← foxzX m
      let z ← fEulerTorsion m.An m.lez m.rx m.ry m.xo m.yo m.J m.Iw m.E m.G
      return min f z)) ∧
    (axes = [.str "x"] → foc roots m ⟨some axes⟩ = foxzX m) ∧
    (∀ a, axes = [a] → a ≠ .str "x" → ¬ a.isPoint → foc roots m ⟨some axes⟩ = foxzY m) ∧
    (∀ a, axes = [a] → a.isPoint →
      foc roots m ⟨some axes⟩ = fEulerTorsion m.An m.lez m.rx m.ry m.xo m.yo m.J m.Iw m.E m.G) ∧
    (axes.length ≠ 1 → ¬ axes.Perm [.str "x", .str "y"] → foc roots m ⟨some axes⟩ = focUnsym roots m) := by
  obtain ⟨_, hd, hp, hs, hn⟩ := C57_classification_partial axes
  refine ⟨?_, ?_, ?_, ?_, ?_⟩
  · intro h
    simp only [foc, hd.2 h, Except.bind_ok', focDouble, foxzX]
    cases foxz m.An m.lex m.lez m.rx m.ry m.xo m.yo m.J m.Iw m.E m.G <;> rfl
  · intro h
    have hsingle := hs.2 ⟨_, h, by simp [Axis.isPoint]⟩
    subst h
    simp only [foc, hsingle, Except.bind_ok', focSingle, Symmetry.symcount, foxzX]
    simp [Axis.isStr]
  · intro a h hx hpt
    have hsingle := hs.2 ⟨_, h, hpt⟩
    have : a.isStr "x" = false := by
      rw [Bool.eq_false_iff, Ne, Axis.isStr_iff]; exact hx
    subst h
    simp only [foc, hsingle, Except.bind_ok', focSingle, Symmetry.symcount, foxzY]
    simp [this]
  · intro a h hpt
    simp only [foc, hp.2 ⟨a, h, hpt⟩, Except.bind_ok', focPoint]
  · intro h1 h2
    simp only [foc, hn.2 ⟨h1, h2⟩, Except.bind_ok']

/-- C57: the number of axes counts what was given, whatever it is; without axes `TypeError`. -/
theorem C57_count (s : Symmetry) (axes : List Axis) :
    (s.axes = some axes → s.symcount = .ok axes.length) ∧ (s.axes = none → s.symcount = .error .typeError) := by
  constructor <;> intro h <;> simp [Symmetry.symcount, h]

/-- C57 is false for a symmetry object without axes, the default of `s6_3_3_N_c_torsion` and of
`s6_1_1_Nc`: it is not treated as unsymmetric, every torsional check with it raises `TypeError`. -/
theorem C57_no_axes_counterexample (roots : Roots) (m : Member) (kf fy unc : ℝ) :
    (Symmetry.mk none).symmetry = .error .typeError ∧
    NcTorsion roots m kf fy ⟨none⟩ unc = .error .typeError ∧
    ∀ a : NcArgs, a.sym = ⟨none⟩ → a.calcBuckling = true → a.calcTorsion = true → ∀ r, Nc roots a ≠ .ok r := by
  refine ⟨rfl, rfl, ?_⟩
  intro a hs hb ht r h
  obtain ⟨_, _, _, _, _, _, _, htor, _, _⟩ := C54_minimum h
  obtain ⟨t, e, _⟩ := htor hb ht
  rw [hs] at e
  cases e

/-- the four kinds are met -/
example : (Symmetry.mk (some [.str "y", .str "x"])).symmetry = .ok .double ∧
    (Symmetry.mk (some [.str "Point"])).symmetry = .ok .point ∧
    (Symmetry.mk (some [.angle 1])).symmetry = .ok .single ∧
    (Symmetry.mk (some [.str "x", .str "x"])).symmetry = .ok .none := by
  refine ⟨?_, ?_, ?_, ?_⟩ <;> simp [Symmetry.symmetry, Axis.isStr]

/-! ## C58 -/

/-- exact root finders exist -/
theorem exists_exact_roots : ∃ roots : Roots, roots.Exact := by
  have key : ∀ p q r s : ℝ, p ≠ 0 → ∃ l : List ℂ, ∃ z1 z2 z3 : ℂ, l = [z1, z2, z3] ∧
      ∀ x : ℂ, p * x ^ 3 + q * x ^ 2 + r * x + s = p * (x - z1) * (x - z2) * (x - z3) := by
    intro p q r s hp
    have hpc : (p : ℂ) ≠ 0 := by exact_mod_cast hp
    obtain ⟨z1, h1⟩ := IsAlgClosed.exists_root
      (Polynomial.C (p : ℂ) * Polynomial.X ^ 3 + Polynomial.C (q : ℂ) * Polynomial.X ^ 2 +
        Polynomial.C (r : ℂ) * Polynomial.X + Polynomial.C (s : ℂ))
      (by rw [Polynomial.degree_cubic hpc]; decide)
    simp only [Polynomial.IsRoot, Polynomial.eval_add, Polynomial.eval_mul, Polynomial.eval_C,
      Polynomial.eval_pow, Polynomial.eval_X] at h1
    obtain ⟨z2, h2⟩ := IsAlgClosed.exists_root
      (Polynomial.C (p : ℂ) * Polynomial.X ^ 2 + Polynomial.C (q + p * z1 : ℂ) * Polynomial.X +
        Polynomial.C (r + (q + p * z1) * z1 : ℂ))
      (by rw [Polynomial.degree_quadratic hpc]; decide)
    simp only [Polynomial.IsRoot, Polynomial.eval_add, Polynomial.eval_mul, Polynomial.eval_C,
      Polynomial.eval_pow, Polynomial.eval_X] at h2
    refine ⟨_, z1, z2, -((q + p * z1) / p) - z2, rfl, ?_⟩
    intro x
    have e : (p : ℂ) * (x - z1) * (x - z2) * (x - (-((q + p * z1) / p) - z2)) =
        (x - z1) * ((x - z2) * (p * x + (q + p * z1) + p * z2)) := by
      field_simp
      ring
    rw [e]
    linear_combination h1 + (x - z1) * h2
  choose l z1 z2 z3 h using key
  classical
  refine ⟨fun p q r s => if hp : p = 0 then [] else l p q r s hp, ?_⟩
  intro p q r s hp
  refine ⟨z1 p q r s hp, z2 p q r s hp, z3 p q r s hp, ?_, (h p q r s hp).2⟩
  show (if hp : p = 0 then [] else l p q r s hp) = _
  rw [dif_neg hp]
  exact (h p q r s hp).1

theorem clt_irrefl (a : ℂ) : ¬ clt a a := by
  rintro (h | ⟨_, h⟩) <;> exact lt_irrefl _ h

theorem clt_asymm {a b : ℂ} (h : clt a b) : ¬ clt b a := by
  rcases h with h | ⟨h1, h2⟩ <;> rintro (g | ⟨g1, g2⟩) <;> linarith

/-- when one root comes before all the others and none is negative it is selected -/
theorem minStress_eq {l : List ℂ} {z : ℂ} (hz : z ∈ l) (hpos : ∀ w ∈ l, ¬ clt w 0)
    (hmin : ∀ w ∈ l, w = z ∨ clt z w) : minStress l = some z := by
  classical
  -- the accumulator holds nothing, an element of the list, or already `z`
  have key : ∀ (l : List ℂ), (∀ w ∈ l, ¬ clt w 0) → (∀ w ∈ l, w = z ∨ clt z w) → ∀ acc : Option ℂ,
      (∀ m, acc = some m → m = z ∨ clt z m) →
      (z ∈ l ∨ acc = some z) →
      l.foldl (fun acc i => if clt i 0 then acc
        else match acc with
          | Option.none => some i
          | some m => some (if clt i m then i else m)) acc = some z := by
    intro l
    induction l with
    | nil =>
      intro _ _ acc _ h
      rcases h with h | h
      · cases h
      · exact h
    | cons w l ih =>
      intro hp hm acc hacc h
      rw [List.foldl_cons, if_neg (hp w List.mem_cons_self)]
      have hw := hm w List.mem_cons_self
      apply ih (fun v hv => hp v (List.mem_cons_of_mem _ hv)) (fun v hv => hm v (List.mem_cons_of_mem _ hv))
      · intro m hmm
        cases acc with
        | none => simp only [Option.some.injEq] at hmm; rw [← hmm]; exact hw
        | some m' =>
          simp only [Option.some.injEq] at hmm
          rw [← hmm]
          split
          · exact hw
          · exact hacc m' rfl
      · rcases h with h | h
        · rcases List.mem_cons.1 h with h | h
          · right
            subst h
            cases acc with
            | none => rfl
            | some m' =>
              simp only [Option.some.injEq]
              rcases hacc m' rfl with h | h
              · rw [h]; split <;> rfl
              · rw [if_pos h]
          · left; exact h
        · right
          rw [h]
          simp only [Option.some.injEq]
          rcases hw with h | h
          · rw [h]; split <;> rfl
          · rw [if_neg (clt_asymm h)]
  have := key l hpos hmin Option.none (by simp) (Or.inl hz)
  unfold minStress
  exact this

/-- the selected stress is one of the roots -/
theorem minStress_mem {l : List ℂ} {z : ℂ} (h : minStress l = some z) : z ∈ l := by
  classical
  have key : ∀ (l : List ℂ) (acc : Option ℂ),
      l.foldl (fun acc i => if clt i 0 then acc
        else match acc with
          | Option.none => some i
          | some m => some (if clt i m then i else m)) acc = some z → z ∈ l ∨ acc = some z := by
    intro l
    induction l with
    | nil => intro acc h; exact Or.inr h
    | cons w l ih =>
      intro acc h
      rw [List.foldl_cons] at h
      rcases ih _ h with h | h
      · exact Or.inl (List.mem_cons_of_mem _ h)
      · split at h
        · exact Or.inr h
        · cases acc with
          | none =>
            simp only [Option.some.injEq] at h
            exact Or.inl (h ▸ List.mem_cons_self)
          | some m =>
            simp only [Option.some.injEq] at h
            split at h
            · exact Or.inl (h ▸ List.mem_cons_self)
            · exact Or.inr (by rw [h])
  unfold minStress at h
  rcases key l Option.none h with h | h
  · exact h
  · cases h

/-- the coefficients for positive section properties -/
theorem cubic_ok {m : Member} (h : m.Positive) :
    ∃ fox foy foz, 0 < fox ∧ 0 < foy ∧ 0 < foz ∧ fEuler m.E m.lex m.rx = .ok fox ∧
      fEuler m.E m.ley m.ry = .ok foy ∧
      fEulerTorsion m.An m.lez m.rx m.ry m.xo m.yo m.J m.Iw m.E m.G = .ok foz ∧
      cubic m = .ok ⟨roSq m.rx m.ry m.xo m.yo - m.xo ^ 2 * m.yo ^ 2,
        roSq m.rx m.ry m.xo m.yo * (fox + foy + foz) - (foy * m.xo ^ 2 + fox * m.yo ^ 2),
        roSq m.rx m.ry m.xo m.yo * (fox * foy + foy * foz + fox * foz),
        roSq m.rx m.ry m.xo m.yo * fox * foy * foz, fox, foy, foz⟩ := by
  have hpi : (0 : ℝ) < piD := piD_pos
  obtain ⟨hAn, hlex, hley, hlez, hrx, hry, hJ, hIw, hE, hG⟩ := h
  have e1 := fEuler_ok (E := m.E) hrx.ne' hlex.ne'
  have e2 := fEuler_ok (E := m.E) hry.ne' hley.ne'
  have e3 := fEulerTorsion_ok (ry := m.ry) (xo := m.xo) (yo := m.yo) (Iw := m.Iw) (E := m.E) hAn hlez hrx hJ hG
  have p3 := fEulerTorsion_pos (ry := m.ry) (xo := m.xo) (yo := m.yo) hAn hlez hrx hJ hG hE hIw
  refine ⟨_, _, _, ?_, ?_, p3, e1, e2, e3, ?_⟩
  · positivity
  · positivity
  · have hp := roSq_pos m.ry m.xo m.yo hrx
    simp only [cubic, e1, e2, e3, rol_ok m.ry m.xo m.yo hrx, Except.bind_ok', Real.sq_sqrt hp.le]
    rfl

theorem ofReal_clt {a b : ℝ} : clt (a : ℂ) (b : ℂ) ↔ a < b := by
  simp [clt]

/-- C58, partial: with the shear centre at the centroid the unsymmetric calculation returns the smallest
of the three buckling stresses. -/
theorem C58_centroid_partial {roots : Roots} (hr : roots.Exact) {m : Member} (h : m.Positive) (hx : m.xo = 0)
    (hy : m.yo = 0) :
    ∃ fox foy foz, fEuler m.E m.lex m.rx = .ok fox ∧ fEuler m.E m.ley m.ry = .ok foy ∧
      fEulerTorsion m.An m.lez m.rx m.ry m.xo m.yo m.J m.Iw m.E m.G = .ok foz ∧
      focUnsym roots m = .ok (min fox (min foy foz)) := by
  obtain ⟨fox, foy, foz, p1, p2, p3, e1, e2, e3, ec⟩ := cubic_ok h
  refine ⟨fox, foy, foz, e1, e2, e3, ?_⟩
  have hp := roSq_pos m.ry m.xo m.yo h.rx
  set R := roSq m.rx m.ry m.xo m.yo
  have ha : R - m.xo ^ 2 * m.yo ^ 2 ≠ 0 := by rw [hx]; simp [hp.ne']
  simp only [focUnsym, ec, Except.bind_ok']
  obtain ⟨z1, z2, z3, hl, hpoly⟩ := hr (R - m.xo ^ 2 * m.yo ^ 2)
    (-(R * (fox + foy + foz) - (foy * m.xo ^ 2 + fox * m.yo ^ 2))) (R * (fox * foy + foy * foz + fox * foz))
    (-(R * fox * foy * foz)) ha
  rw [hl]
  have hpoly' : ∀ x : ℂ, (x - fox) * (x - foy) * (x - foz) = (x - z1) * (x - z2) * (x - z3) := by
    intro x
    have := hpoly x
    rw [hx, hy] at this
    push_cast at this
    have hR : (R : ℂ) ≠ 0 := by exact_mod_cast hp.ne'
    apply mul_left_cancel₀ hR
    linear_combination this
  have mem1 : ∀ w ∈ [z1, z2, z3], w = (fox : ℂ) ∨ w = (foy : ℂ) ∨ w = (foz : ℂ) := by
    intro w hw
    have : (w - fox) * (w - foy) * (w - foz) = 0 := by
      rw [hpoly']
      simp only [List.mem_cons, List.not_mem_nil, or_false] at hw
      rcases hw with rfl | rfl | rfl <;> simp
    rcases mul_eq_zero.1 this with h | h
    · rcases mul_eq_zero.1 h with h | h
      · exact Or.inl (sub_eq_zero.1 h)
      · exact Or.inr (Or.inl (sub_eq_zero.1 h))
    · exact Or.inr (Or.inr (sub_eq_zero.1 h))
  have mem2 : ∀ f : ℝ, f = fox ∨ f = foy ∨ f = foz → (f : ℂ) ∈ [z1, z2, z3] := by
    intro f hf
    have : ((f : ℂ) - z1) * (f - z2) * (f - z3) = 0 := by
      rw [← hpoly']
      rcases hf with rfl | rfl | rfl <;> simp
    simp only [List.mem_cons, List.not_mem_nil, or_false]
    rcases mul_eq_zero.1 this with h | h
    · rcases mul_eq_zero.1 h with h | h
      · exact Or.inl (sub_eq_zero.1 h)
      · exact Or.inr (Or.inl (sub_eq_zero.1 h))
    · exact Or.inr (Or.inr (sub_eq_zero.1 h))
  have hmin : min fox (min foy foz) = fox ∨ min fox (min foy foz) = foy ∨ min fox (min foy foz) = foz := by
    rcases min_choice fox (min foy foz) with e | e
    · exact Or.inl e
    · rw [e]; exact Or.inr (min_choice foy foz)
  have hsel : minStress [z1, z2, z3] = some ((min fox (min foy foz) : ℝ) : ℂ) := by
    apply minStress_eq (mem2 _ hmin)
    · intro w hw hc
      have h0 : ((0 : ℝ) : ℂ) = 0 := by simp
      rw [← h0] at hc
      rcases mem1 w hw with rfl | rfl | rfl <;> rw [ofReal_clt] at hc <;> linarith
    · intro w hw
      have l1 : min fox (min foy foz) ≤ fox := min_le_left _ _
      have l2 : min fox (min foy foz) ≤ foy := (min_le_right _ _).trans (min_le_left _ _)
      have l3 : min fox (min foy foz) ≤ foz := (min_le_right _ _).trans (min_le_right _ _)
      rcases mem1 w hw with rfl | rfl | rfl
      · rw [ofReal_clt]
        rcases l1.lt_or_eq with h | h
        · exact Or.inr h
        · left; rw [h]
      · rw [ofReal_clt]
        rcases l2.lt_or_eq with h | h
        · exact Or.inr h
        · left; rw [h]
      · rw [ofReal_clt]
        rcases l3.lt_or_eq with h | h
        · exact Or.inr h
        · left; rw [h]
  rw [hsel]
  simp

/-- C58 is false for singly symmetric sections: for no section with `y_o = 0` and a shear centre off the
centroid is the result the smaller of `f_oy` and `f_oxz`, whatever the (exact) root finder. -/
theorem C58_single_counterexample {roots : Roots} (hr : roots.Exact) {m : Member} (h : m.Positive)
    (hx : m.xo ≠ 0) (hy : m.yo = 0) {foy v : ℝ} {f : Foxz} (hfoy : fEuler m.E m.ley m.ry = .ok foy)
    (hf : foxz m.An m.lex m.lez m.rx m.ry m.xo m.yo m.J m.Iw m.E m.G = .ok f)
    (hv : focUnsym roots m = .ok v) : v ≠ min foy f.foxz := by
  intro hvm
  obtain ⟨fox, foy', foz, p1, p2, p3, e1, e2, e3, ec⟩ := cubic_ok h
  obtain rfl : foy' = foy := Except.ok_inj'.1 (e2.symm.trans hfoy)
  have hp := roSq_pos m.ry m.xo m.yo h.rx
  obtain ⟨f', ef, ea, eb, q0, q1, q2, q3, _⟩ := C52_foxz (ry := m.ry) (xo := m.xo) (yo := m.yo) h.An h.lex h.lez h.rx h.J h.Iw h.E h.G
  obtain rfl : f' = f := Except.ok_inj'.1 (ef.symm.trans hf)
  have hfx : f'.fox = fox := Except.ok_inj'.1 (ea.symm.trans e1)
  have hfz : f'.foz = foz := Except.ok_inj'.1 (eb.symm.trans e3)
  rw [hfx, hfz] at q3
  have hR' : m.rx ^ 2 + m.ry ^ 2 + m.xo ^ 2 + m.yo ^ 2 = roSq m.rx m.ry m.xo m.yo := by
    unfold roSq; ring
  rw [hR'] at q3
  set R := roSq m.rx m.ry m.xo m.yo
  have ha : R - m.xo ^ 2 * m.yo ^ 2 ≠ 0 := by rw [hy]; simp [hp.ne']
  simp only [focUnsym, ec, Except.bind_ok'] at hv
  obtain ⟨z1, z2, z3, hl, hpoly⟩ := hr (R - m.xo ^ 2 * m.yo ^ 2)
    (-(R * (fox + foy' + foz) - (foy' * m.xo ^ 2 + fox * m.yo ^ 2))) (R * (fox * foy' + foy' * foz + fox * foz))
    (-(R * fox * foy' * foz)) ha
  rw [hl] at hv
  cases hms : minStress [z1, z2, z3] with
  | none => rw [hms] at hv; cases hv
  | some z =>
    rw [hms] at hv
    simp only at hv
    split at hv
    · rename_i him
      injection hv with hv
      have hz : z = (v : ℂ) := Complex.ext (by simpa using hv) (by simpa using him)
      have hroot : (((R - m.xo ^ 2 * m.yo ^ 2) * v ^ 3 +
          -(R * (fox + foy' + foz) - (foy' * m.xo ^ 2 + fox * m.yo ^ 2)) * v ^ 2 +
          (R * (fox * foy' + foy' * foz + fox * foz)) * v + -(R * fox * foy' * foz) : ℝ) : ℂ) = 0 := by
        have hmem := minStress_mem hms
        have := hpoly z
        have h0 : (z - z1) * (z - z2) * (z - z3) = 0 := by
          simp only [List.mem_cons, List.not_mem_nil, or_false] at hmem
          rcases hmem with h | h | h <;> rw [h] <;> simp
        have h1 : ((R - m.xo ^ 2 * m.yo ^ 2 : ℝ) : ℂ) * (z - z1) * (z - z2) * (z - z3) = 0 := by
          linear_combination ((R - m.xo ^ 2 * m.yo ^ 2 : ℝ) : ℂ) * h0
        rw [h1, hz] at this
        exact_mod_cast this
      have hroot' : R * v ^ 3 - (R * (fox + foy' + foz) - foy' * m.xo ^ 2) * v ^ 2 +
          R * (fox * foy' + foy' * foz + fox * foz) * v - R * fox * foy' * foz = 0 := by
        have := Complex.ofReal_eq_zero.1 hroot
        rw [hy] at this
        linear_combination this
      -- the true cubic of AS4600 vanishes at both candidates
      have htrue : (v - foy') * (R * (v - fox) * (v - foz) - m.xo ^ 2 * v ^ 2) = 0 := by
        rcases min_choice foy' f'.foxz with e | e
        · rw [hvm, e]; ring
        · have : R * (v - fox) * (v - foz) - m.xo ^ 2 * v ^ 2 = 0 := by
            rw [hvm, e]
            have : R * ((1 - m.xo ^ 2 / R) * f'.foxz ^ 2 - (fox + foz) * f'.foxz + fox * foz) = 0 := by
              rw [q3, mul_zero]
            field_simp at this
            linear_combination this
          rw [this, mul_zero]
      have hzero : m.xo ^ 2 * v ^ 3 = 0 := by linear_combination hroot' - htrue
      have hv0 : v ≠ 0 := by
        rw [hvm]
        exact (lt_min p2 q0).ne'
      rcases mul_eq_zero.1 hzero with h | h
      · exact hx (pow_eq_zero_iff (by norm_num) |>.1 h)
      · exact hv0 (pow_eq_zero_iff (by norm_num) |>.1 h)
    · cases hv

/-- a member with the three given stresses: `f_ox = 1`, `f_oy = 2`, `f_oz = 13/18`, `x_o = 1` -/
noncomputable def angleMember : Member :=
  ⟨1, piD, piD / √2, 1, 1, 1, 1, 0, 13 / 6, 0, 1, 1⟩

theorem angleMember_positive : angleMember.Positive := by
  have hpi : (0 : ℝ) < piD := piD_pos
  constructor <;> simp only [angleMember] <;> positivity

/-- For that member the code returns 1/2, so `C58_single_counterexample` is about results that exist. -/
theorem C58_witness {roots : Roots} (hr : roots.Exact) : focUnsym roots angleMember = .ok (1 / 2) := by
  have hpi : (0 : ℝ) < piD := piD_pos
  obtain ⟨fox, foy, foz, p1, p2, p3, e1, e2, e3, ec⟩ := cubic_ok angleMember_positive
  have hR : roSq angleMember.rx angleMember.ry angleMember.xo angleMember.yo = 3 := by
    unfold roSq angleMember; norm_num
  have v1 : fox = 1 := by
    have := fEuler_ok (E := 1) (le := piD) (r := 1) one_ne_zero hpi.ne'
    rw [show fEuler angleMember.E angleMember.lex angleMember.rx = fEuler 1 piD 1 from rfl, this] at e1
    rw [← Except.ok_inj'.1 e1]; field_simp
  have v2 : foy = 2 := by
    have hs : √(2 : ℝ) ≠ 0 := (Real.sqrt_pos.2 (by norm_num)).ne'
    have := fEuler_ok (E := 1) (le := piD / √2) (r := 1) one_ne_zero (div_ne_zero hpi.ne' hs)
    rw [show fEuler angleMember.E angleMember.ley angleMember.ry = fEuler 1 (piD / √2) 1 from rfl, this] at e2
    rw [← Except.ok_inj'.1 e2]
    have h2 : √(2 : ℝ) ^ 2 = 2 := Real.sq_sqrt (by norm_num)
    field_simp
    exact h2
  have v3 : foz = 13 / 18 := by
    have := fEulerTorsion_ok (A := 1) (lez := 1) (rx := 1) (ry := 1) (xo := 1) (yo := 0) (J := 13 / 6) (Iw := 0)
      (E := 1) (G := 1) one_pos one_pos one_pos (by norm_num) one_pos
    rw [show fEulerTorsion angleMember.An angleMember.lez angleMember.rx angleMember.ry angleMember.xo
      angleMember.yo angleMember.J angleMember.Iw angleMember.E angleMember.G =
      fEulerTorsion 1 1 1 1 1 0 (13 / 6) 0 1 1 from rfl, this] at e3
    rw [← Except.ok_inj'.1 e3]
    unfold roSq; norm_num
  have ec' : cubic angleMember = .ok ⟨3, 55 / 6, 25 / 2, 13 / 3, 1, 2, 13 / 18⟩ := by
    rw [ec, hR, v1, v2, v3]
    simp only [angleMember]
    norm_num
  simp only [focUnsym, ec', Except.bind_ok']
  obtain ⟨z1, z2, z3, hl, hpoly⟩ := hr 3 (-(55 / 6)) (25 / 2) (-(13 / 3)) (by norm_num)
  rw [hl]
  have hpoly' : ∀ x : ℂ, (x - (1 / 2 : ℝ)) * (x ^ 2 - 23 / 9 * x + 26 / 9) = (x - z1) * (x - z2) * (x - z3) := by
    intro x
    have := hpoly x
    push_cast at this ⊢
    linear_combination this / 3
  have mem1 : ∀ w ∈ [z1, z2, z3], w = ((1 / 2 : ℝ) : ℂ) ∨ w.re = 23 / 18 := by
    intro w hw
    have : (w - (1 / 2 : ℝ)) * (w ^ 2 - 23 / 9 * w + 26 / 9) = 0 := by
      rw [hpoly']
      simp only [List.mem_cons, List.not_mem_nil, or_false] at hw
      rcases hw with rfl | rfl | rfl <;> simp
    rcases mul_eq_zero.1 this with h | h
    · exact Or.inl (sub_eq_zero.1 h)
    · right
      have hre := congrArg Complex.re h
      have him := congrArg Complex.im h
      simp [sq, Complex.add_re, Complex.mul_re] at hre him
      have h1 : w.im * (2 * w.re - 23 / 9) = 0 := by linear_combination him
      rcases mul_eq_zero.1 h1 with h | h
      · rw [h] at hre
        nlinarith [sq_nonneg (w.re - 23 / 18)]
      · linarith
  have mem2 : ((1 / 2 : ℝ) : ℂ) ∈ [z1, z2, z3] := by
    have : (((1 / 2 : ℝ) : ℂ) - z1) * (((1 / 2 : ℝ) : ℂ) - z2) * (((1 / 2 : ℝ) : ℂ) - z3) = 0 := by
      rw [← hpoly']; simp
    simp only [List.mem_cons, List.not_mem_nil, or_false]
    rcases mul_eq_zero.1 this with h | h
    · rcases mul_eq_zero.1 h with h | h
      · exact Or.inl (sub_eq_zero.1 h)
      · exact Or.inr (Or.inl (sub_eq_zero.1 h))
    · exact Or.inr (Or.inr (sub_eq_zero.1 h))
  have hsel : minStress [z1, z2, z3] = some ((1 / 2 : ℝ) : ℂ) := by
    apply minStress_eq mem2
    · intro w hw hc
      have hge : 0 < w.re := by
        rcases mem1 w hw with h | h
        · rw [h]; norm_num
        · rw [h]; norm_num
      rcases hc with h | ⟨h, _⟩ <;> simp at h <;> linarith
    · intro w hw
      rcases mem1 w hw with h | h
      · exact Or.inl h
      · right; left; rw [h]; norm_num
  rw [hsel]
  simp

/-- the statement about that member: the code's answer 1/2 is not the smaller of the two stresses -/
example {roots : Roots} (hr : roots.Exact) {f : Foxz}
    (hf : foxz angleMember.An angleMember.lex angleMember.lez angleMember.rx angleMember.ry angleMember.xo
      angleMember.yo angleMember.J angleMember.Iw angleMember.E angleMember.G = .ok f) {foy : ℝ}
    (hfoy : fEuler angleMember.E angleMember.ley angleMember.ry = .ok foy) : (1 / 2 : ℝ) ≠ min foy f.foxz :=
  C58_single_counterexample hr angleMember_positive (by simp [angleMember]) rfl hfoy hf (C58_witness hr)

end BeamDesign
