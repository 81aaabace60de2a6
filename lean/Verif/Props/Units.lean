import Verif.Spec.Units
import Verif.Props.Torsion

/-!
# C43: the formulas are unit independent, except for unsymmetric sections
-/

set_option linter.unusedSimpArgs false

namespace BeamDesign

theorem scaled_eq (c : ℝ) (x : Py ℝ) : scaled c x = x >>= fun v => .ok (c * v) := by
  cases x <;> rfl

theorem map_eq {α β : Type} (f : α → β) (x : Py α) : x.map f = x >>= fun v => .ok (f v) := by
  cases x <;> rfl

theorem rdiv_scale {a b a' b' d : ℝ} (k : ℝ) (hd : d ≠ 0) (hb : b' = d * b) (ha : a' = k * d * a) :
    rdiv a' b' = rdiv a b >>= fun v => .ok (k * v) := by
  subst hb ha
  by_cases h : b = 0
  · subst h; rw [mul_zero, rdiv_zero, rdiv_zero]; rfl
  · rw [rdiv_ok h, rdiv_ok (mul_ne_zero hd h), Except.bind_ok', Except.ok_inj']
    field_simp

theorem rdiv_same {a b a' b' d : ℝ} (hd : d ≠ 0) (hb : b' = d * b) (ha : a' = d * a) :
    rdiv a' b' = rdiv a b := by
  rw [rdiv_scale 1 hd hb (by rw [ha, one_mul])]
  simp only [one_mul]
  cases rdiv a b <;> rfl

theorem rsqrt_scale {x x' : ℝ} (k : ℝ) (hk : 0 < k) (h : x' = k ^ 2 * x) :
    rsqrt x' = rsqrt x >>= fun v => .ok (k * v) := by
  subst h
  by_cases hx : x < 0
  · have : k ^ 2 * x < 0 := mul_neg_of_pos_of_neg (by positivity) hx
    unfold rsqrt
    rw [if_pos this, if_pos hx]
    rfl
  · have hx' : 0 ≤ x := not_lt.1 hx
    have : 0 ≤ k ^ 2 * x := by positivity
    rw [rsqrt_ok this, rsqrt_ok hx', Except.bind_ok', Real.sqrt_mul (by positivity), Real.sqrt_sq hk.le]

theorem bind_congr' {α β : Type} {x : Py α} {f g : α → Py β} (h : ∀ a, x = .ok a → f a = g a) :
    x >>= f = x >>= g := by
  cases x with
  | error e => rfl
  | ok a => exact h a rfl

theorem bind_assoc' {α β γ : Type} (x : Py α) (f : α → Py β) (g : β → Py γ) :
    x >>= f >>= g = x >>= fun a => f a >>= g := by
  cases x <;> rfl

variable {L F : ℝ}

section S5
open S5 S5Shear

/-- C43.  Section 5 (bending). -/
theorem C43_bending_partial (hL : 0 < L) (hF : 0 < F) :
    (∀ fy Ze, Ms (F / L ^ 2 * fy) (L ^ 3 * Ze) = F * L * Ms fy Ze) ∧
    (∀ le Iy J Iw bx E G, Mo (L * le) (L ^ 4 * Iy) (L ^ 4 * J) (L ^ 6 * Iw) (L * bx) (F / L ^ 2 * E) (F / L ^ 2 * G) =
      scaled (F * L) (Mo le Iy J Iw bx E G)) ∧
    (∀ M M2 M3 M4 cap, alphaM (F * L * M) (F * L * M2) (F * L * M3) (F * L * M4) cap = alphaM M M2 M3 M4 cap) ∧
    (∀ M Mo, alphaS (F * L * M) (F * L * Mo) = alphaS M Mo) ∧
    (∀ v d1 l tf tw nw code, kt v (L * d1) (L * l) (L * tf) (L * tw) nw code = kt v d1 l tf tw nw code) ∧
    (∀ kt kl kr l, S5.le kt kl kr (L * l) = L * S5.le kt kl kr l) ∧
    (∀ M am as, Mb (F * L * M) am as = F * L * Mb M am as) := by
  obtain ⟨g, hg, rfl⟩ : ∃ g, 0 < g ∧ F = g ^ 2 := ⟨√F, Real.sqrt_pos.2 hF, (Real.sq_sqrt hF.le).symm⟩
  refine ⟨?_, ?_, ?_, ?_, ?_, ?_, ?_⟩
  · intro fy Ze; unfold Ms; field_simp
  · intro le Iy J Iw bx E G
    unfold Mo
    rw [rdiv_scale (a := piD * piD * E * Iy) (b := le * le) (d := L ^ 2) (g ^ 2) (by positivity) (by ring) (by field_simp),
      scaled_eq]
    simp only [bind_assoc', Except.bind_ok']
    refine bind_congr' fun a _ => ?_
    rw [rdiv_scale (a := piD * piD * E * Iw) (b := le * le) (d := L ^ 2) (g ^ 2 * L ^ 2) (by positivity) (by ring) (by field_simp)]
    simp only [bind_assoc', Except.bind_ok']
    refine bind_congr' fun c _ => ?_
    rw [rsqrt_scale (x := a) g hg (by ring)]
    simp only [bind_assoc', Except.bind_ok']
    refine bind_congr' fun ra _ => ?_
    rw [rsqrt_scale (x := G * J + c + bx / 2 * (bx / 2) * a) (g * L) (by positivity) (by field_simp)]
    simp only [bind_assoc', Except.bind_ok']
    refine bind_congr' fun rb _ => ?_
    show Except.ok _ = Except.ok _
    congr 1; ring
  · intro M M2 M3 M4 cap
    unfold alphaM
    rw [rsqrt_scale (x := M2 * M2 + M3 * M3 + M4 * M4) (g ^ 2 * L) (by positivity) (by ring)]
    simp only [bind_assoc', Except.bind_ok']
    refine bind_congr' fun r _ => ?_
    rw [rdiv_same (a := 17 / 10 * |M|) (b := r) (d := g ^ 2 * L) (by positivity) rfl
      (by rw [abs_mul, abs_of_pos (show 0 < g ^ 2 * L by positivity)]; ring)]
  · intro M Mo
    unfold alphaS
    rw [rdiv_same (a := M) (b := Mo) (d := g ^ 2 * L) (by positivity) rfl rfl]
  · intro v d1 l tf tw nw code
    have : ∀ f, ktExcess f (L * d1) (L * l) (L * tf) (L * tw) nw = ktExcess f d1 l tf tw nw := by
      intro f
      unfold ktExcess
      rw [rdiv_same (a := d1) (b := l) (d := L) hL.ne' rfl rfl,
        rdiv_same (a := tf) (b := 2 * tw) (d := L) hL.ne' (by ring) rfl]
    unfold kt
    simp only [this]
  · intro kt kl kr l; unfold S5.le; ring
  · intro M am as; unfold Mb; ring

/-- C43.  Section 5 (shear). -/
theorem C43_shear_partial (hL : 0 < L) (hF : 0 < F) :
    (∀ A fy ratio, VwGeneric (L ^ 2 * A) (F / L ^ 2 * fy) ratio = F * VwGeneric A fy ratio) ∧
    (∀ A fy ratio area, VwCHS (L ^ 2 * A) (F / L ^ 2 * fy) ratio area = F * VwCHS A fy ratio area) ∧
    (∀ dp tw fy lim fref, alphaV (L * dp) (L * tw) (F / L ^ 2 * fy) lim (F / L ^ 2 * fref) =
      alphaV dp tw fy lim fref) ∧
    (∀ fm fa, alphaVma (F / L ^ 2 * fm) (F / L ^ 2 * fa) = alphaVma fm fa) ∧
    (∀ vs Q I, VwWeld (Rt.exact ℝ) (.list (vs.map (F / L * ·))) (L ^ 3 * Q) (L ^ 4 * I) =
      scaled F (VwWeld (Rt.exact ℝ) (.list vs) Q I)) ∧
    (∀ (v : Num ℝ) Q I, VwWeld (Rt.exact ℝ) (.scalar ⟨F / L * v.val, v.isInt⟩) (L ^ 3 * Q) (L ^ 4 * I) =
      scaled F (VwWeld (Rt.exact ℝ) (.scalar v) Q I)) ∧
    (∀ t fy Q I ratio, VwInterface (L * t) (F / L ^ 2 * fy) (L ^ 3 * Q) (L ^ 4 * I) ratio =
      scaled F (VwInterface t fy Q I ratio)) := by
  have hS : F / L ^ 2 ≠ 0 := by positivity
  have hpy : ∀ a b : ℝ, pyDiv (Rt.exact ℝ) a b = rdiv a b := fun a b => rfl
  refine ⟨?_, ?_, ?_, ?_, ?_, ?_, ?_⟩
  · intro A fy ratio; unfold VwGeneric; field_simp
  · intro A fy ratio area; unfold VwCHS; field_simp
  · intro dp tw fy lim fref
    unfold alphaV
    rw [rdiv_same (a := fy) (b := fref) hS rfl rfl, rdiv_same (a := dp) (b := tw) hL.ne' rfl rfl]
  · intro fm fa
    unfold alphaVma
    rw [rdiv_same (a := fm) (b := fa) hS rfl rfl]
  · intro vs Q I
    have hsum : ∀ (vs : List ℝ) (x : ℝ), (vs.map (F / L * ·)).foldl (Rt.exact ℝ).add (F / L * x) =
        F / L * vs.foldl (Rt.exact ℝ).add x := by
      intro vs
      induction vs with
      | nil => intro x; rfl
      | cons v vs ih =>
        intro x
        rw [List.map_cons, List.foldl_cons, List.foldl_cons, ← ih]
        congr 1
        show F / L * x + F / L * v = F / L * (x + v)
        ring
    have h0 := hsum vs 0
    rw [mul_zero] at h0
    simp only [VwWeld, h0, hpy]
    rw [rdiv_scale (a := (Rt.exact ℝ).mul (vs.foldl (Rt.exact ℝ).add 0) I) (b := Q) (d := L ^ 3) F (by positivity) rfl,
      scaled_eq]
    show F / L * _ * (L ^ 4 * I) = F * L ^ 3 * (_ * I)
    field_simp
  · intro v Q I
    simp only [VwWeld]
    split
    · rfl
    · rw [hpy, rdiv_scale (a := (Rt.exact ℝ).mul ((Rt.exact ℝ).add 0 v.val) I) (b := Q) (d := L ^ 3) F
        (by positivity) rfl, scaled_eq]
      · rfl
      · show (0 + F / L * v.val) * (L ^ 4 * I) = F * L ^ 3 * ((0 + v.val) * I)
        field_simp
        ring
  · intro t fy Q I ratio
    unfold VwInterface
    rw [rdiv_scale (a := fy * ratio * t * I) (b := Q) (d := L ^ 3) F (by positivity) rfl (by field_simp), scaled_eq]

end S5

/-- C43.  Section 7. -/
theorem C43_tension_partial (hL : 0 < L) (hF : 0 < F) :
    (∀ Ag An fy fu kt phi au,
      S7.Nt (Rt.exact ℝ) (L ^ 2 * Ag) (L ^ 2 * An) (F / L ^ 2 * fy) (F / L ^ 2 * fu) kt phi au =
        let r := S7.Nt (Rt.exact ℝ) Ag An fy fu kt phi au
        ⟨F * r.Nty, F * r.Ntu, F * r.N, F * r.phiNty, F * r.phiNtu, F * r.phiN⟩) ∧
    (∀ N fy fu kt phi au,
      S7.AReqd (Rt.exact ℝ) (F * N) (F / L ^ 2 * fy) (F / L ^ 2 * fu) kt phi au =
        (S7.AReqd (Rt.exact ℝ) N fy fu kt phi au).map fun r =>
          ⟨L ^ 2 * r.Ag, L ^ 2 * r.An, L ^ 2 * r.A, L ^ 2 * r.phiAg, L ^ 2 * r.phiAn, L ^ 2 * r.phiA⟩) := by
  have hpy : ∀ a b : ℝ, pyDiv (Rt.exact ℝ) a b = rdiv a b := fun a b => rfl
  constructor
  · intro Ag An fy fu kt phi au
    have e1 : L ^ 2 * Ag * (F / L ^ 2 * fy) = F * (Ag * fy) := by field_simp
    have e2 : L ^ 2 * An * (F / L ^ 2 * fu) * kt * au = F * (An * fu * kt * au) := by field_simp
    have e3 : min (F * (Ag * fy)) (F * (An * fu * kt * au)) = F * min (Ag * fy) (An * fu * kt * au) :=
      (mul_min_of_nonneg _ _ hF.le).symm
    simp only [S7.Nt, S7.NtYield, S7.NtUltimate, Rt.exact, e1, e2, e3]
    simp only [mul_assoc]
  · intro N fy fu kt phi au
    have h2 : 0 < L ^ 2 := by positivity
    have hS : F / L ^ 2 ≠ 0 := by positivity
    simp only [S7.AReqd, S7.Ag, S7.An, hpy, map_eq]
    rw [rdiv_scale (a := N) (b := fy) (d := F / L ^ 2) (L ^ 2) hS rfl (by field_simp)]
    simp only [bind_assoc', Except.bind_ok']
    refine bind_congr' fun ag _ => ?_
    rw [rdiv_scale (a := N) (b := au) (d := 1) F one_ne_zero (by ring) (by ring)]
    simp only [bind_assoc', Except.bind_ok']
    refine bind_congr' fun a1 _ => ?_
    rw [rdiv_scale (a := a1) (b := kt) (d := 1) F one_ne_zero (by ring) (by ring)]
    simp only [bind_assoc', Except.bind_ok']
    refine bind_congr' fun a2 _ => ?_
    rw [rdiv_scale (a := a2) (b := fu) (d := F / L ^ 2) (L ^ 2) hS rfl (by field_simp)]
    simp only [bind_assoc', Except.bind_ok']
    refine bind_congr' fun an _ => ?_
    have e3 : max (L ^ 2 * ag) (L ^ 2 * an) = L ^ 2 * max ag an := (mul_max_of_nonneg _ _ h2.le).symm
    have e4 : ∀ x, rdiv (L ^ 2 * x) phi = rdiv x phi >>= fun v => .ok (L ^ 2 * v) := fun x =>
      rdiv_scale (d := 1) (L ^ 2) one_ne_zero (by ring) (by ring)
    simp only [e3, e4, bind_assoc', Except.bind_ok']
    rfl

section Effective
open Effective

/-- C43.  Local buckling. -/
theorem C43_local_partial (hL : 0 < L) (hF : 0 < F) :
    (∀ b t fy fref, lambdaPlate (L * b) (L * t) (F / L ^ 2 * fy) (F / L ^ 2 * fref) = lambdaPlate b t fy fref) ∧
    (∀ d t fy fref, lambdaCHS (L * d) (L * t) (F / L ^ 2 * fy) (F / L ^ 2 * fref) = lambdaCHS d t fy fref) ∧
    (∀ b le ley, bPlate (L * b) le ley = scaled L (bPlate b le ley)) ∧
    (∀ d le ley, dCHS (L * d) le ley = scaled L (dCHS d le ley)) ∧
    (∀ b t fy ley fref, aPlate (L * b) (L * t) (F / L ^ 2 * fy) ley (F / L ^ 2 * fref) =
      scaled (L ^ 2) (aPlate b t fy ley fref)) ∧
    (∀ An Ae, kf (L ^ 2 * An) (L ^ 2 * Ae) = kf An Ae) := by
  have hS : F / L ^ 2 ≠ 0 := by positivity
  have h1 : ∀ b t fy fref, lambdaPlate (L * b) (L * t) (F / L ^ 2 * fy) (F / L ^ 2 * fref) =
      lambdaPlate b t fy fref := by
    intro b t fy fref
    unfold lambdaPlate
    rw [rdiv_same (a := fy) (b := fref) hS rfl rfl, rdiv_same (a := b) (b := t) hL.ne' rfl rfl]
  have h3 : ∀ b le ley, bPlate (L * b) le ley = scaled L (bPlate b le ley) := by
    intro b le ley
    unfold bPlate
    rw [scaled_eq, bind_assoc']
    refine bind_congr' fun q _ => ?_
    show Except.ok _ = Except.ok _
    rw [mul_min_of_nonneg _ _ hL.le, mul_assoc]
  refine ⟨h1, ?_, h3, ?_, ?_, ?_⟩
  · intro b t fy fref
    unfold lambdaCHS
    rw [rdiv_same (a := fy) (b := fref) hS rfl rfl, rdiv_same (a := b) (b := t) hL.ne' rfl rfl]
  · intro d le ley
    unfold dCHS
    simp only [scaled_eq, bind_assoc']
    refine bind_congr' fun q _ => bind_congr' fun r _ => bind_congr' fun q3 _ => ?_
    show Except.ok _ = Except.ok _
    rw [mul_min_of_nonneg _ _ hL.le, mul_min_of_nonneg _ _ hL.le, mul_assoc, mul_assoc]
  · intro b t fy ley fref
    simp only [aPlate, h1, h3, scaled_eq, bind_assoc', Except.bind_ok']
    refine bind_congr' fun q _ => bind_congr' fun r _ => ?_
    show Except.ok _ = Except.ok _
    congr 1; ring
  · intro An Ae
    unfold kf
    rw [rdiv_same (a := Ae) (b := An) (d := L ^ 2) (by positivity) rfl rfl]

end Effective

section S6
open S6

theorem fEuler_units (hL : 0 < L) (E le r : ℝ) :
    fEuler (F / L ^ 2 * E) (L * le) (L * r) = fEuler E le r >>= fun v => .ok (F / L ^ 2 * v) := by
  unfold fEuler
  rw [rdiv_same (a := le) (b := r) hL.ne' rfl rfl, bind_assoc']
  refine bind_congr' fun s _ => ?_
  rw [rdiv_scale (a := piD * piD * E) (b := s * s) (d := 1) (F / L ^ 2) one_ne_zero (by ring) (by ring)]

theorem rol_units (hL : 0 < L) (rx ry xo yo : ℝ) :
    rol (L * rx) (L * ry) (L * xo) (L * yo) = rol rx ry xo yo >>= fun v => .ok (L * v) := by
  unfold rol
  exact rsqrt_scale L hL (by ring)

theorem fEulerTorsion_units (hL : 0 < L) (hF : 0 < F) (A lez rx ry xo yo J Iw E G : ℝ) :
    fEulerTorsion (L ^ 2 * A) (L * lez) (L * rx) (L * ry) (L * xo) (L * yo) (L ^ 4 * J) (L ^ 6 * Iw)
      (F / L ^ 2 * E) (F / L ^ 2 * G) =
      fEulerTorsion A lez rx ry xo yo J Iw E G >>= fun v => .ok (F / L ^ 2 * v) := by
  unfold fEulerTorsion
  rw [rol_units hL, rdiv_same (a := piD * piD * E * Iw) (b := G * J * (lez * lez)) (d := F * L ^ 4) (by positivity)
    (by field_simp) (by field_simp)]
  simp only [bind_assoc', Except.bind_ok']
  refine bind_congr' fun ro _ => ?_
  rw [rdiv_scale (a := G * J) (b := A * ro * ro) (d := L ^ 4) (F / L ^ 2) (by positivity) (by ring) (by ring)]
  simp only [bind_assoc', Except.bind_ok']
  refine bind_congr' fun a _ => bind_congr' fun b _ => ?_
  show Except.ok _ = Except.ok _
  congr 1; ring

theorem lambdaN_units (hL : 0 < L) (hF : 0 < F) (kf le r fy fref : ℝ) :
    lambdaN kf (L * le) (L * r) (F / L ^ 2 * fy) (F / L ^ 2 * fref) = lambdaN kf le r fy fref := by
  unfold lambdaN
  rw [rdiv_same (a := le) (b := r) hL.ne' rfl rfl,
    rdiv_same (a := fy) (b := fref) (d := F / L ^ 2) (by positivity) rfl rfl]

theorem Ns_units (hL : 0 < L) (An kf fy : ℝ) :
    Ns (Ae (L ^ 2 * An) kf) (F / L ^ 2 * fy) = F * Ns (Ae An kf) fy := by
  unfold Ns Ae; field_simp

theorem NcFlexural_units (hL : 0 < L) (hF : 0 < F) (An kf le r fy fref ab : ℝ) :
    NcFlexural (L ^ 2 * An) kf (L * le) (L * r) (F / L ^ 2 * fy) (F / L ^ 2 * fref) ab =
      NcFlexural An kf le r fy fref ab >>= fun x => .ok (x.units L F) := by
  unfold NcFlexural
  rw [lambdaN_units hL hF, Ns_units hL]
  simp only [bind_assoc']
  refine bind_congr' fun ln _ => bind_congr' fun ac _ => ?_
  show Except.ok _ = Except.ok _
  simp only [Flexural.units, mul_assoc]

theorem foxz_units (hL : 0 < L) (hF : 0 < F) (An lex lez rx ry xo yo J Iw E G : ℝ) :
    foxz (L ^ 2 * An) (L * lex) (L * lez) (L * rx) (L * ry) (L * xo) (L * yo) (L ^ 4 * J) (L ^ 6 * Iw)
      (F / L ^ 2 * E) (F / L ^ 2 * G) =
      foxz An lex lez rx ry xo yo J Iw E G >>= fun f => .ok (f.units L F) := by
  unfold foxz
  rw [rol_units hL, fEuler_units hL, fEulerTorsion_units hL hF]
  simp only [bind_assoc', Except.bind_ok']
  refine bind_congr' fun ro _ => ?_
  rw [rdiv_same (a := xo) (b := ro) hL.ne' rfl rfl]
  refine bind_congr' fun q _ => bind_congr' fun fox _ => bind_congr' fun foz _ => bind_congr' fun h _ => ?_
  rw [rsqrt_scale (x := (fox + foz) ^ 2 - 4 * (1 - q ^ 2) * fox * foz) (F / L ^ 2) (by positivity) (by ring)]
  simp only [bind_assoc', Except.bind_ok']
  refine bind_congr' fun s _ => ?_
  show Except.ok _ = Except.ok _
  simp only [Foxz.units]
  congr 2
  ring

/-- C43.  Section 6, the single formulas. -/
theorem C43_compression_partial (hL : 0 < L) (hF : 0 < F) :
    (∀ An kf fy, Ns (Ae (L ^ 2 * An) kf) (F / L ^ 2 * fy) = F * Ns (Ae An kf) fy) ∧
    (∀ l ke, S6.le (L * l) ke = L * S6.le l ke) ∧
    (∀ E I le, NEuler (F / L ^ 2 * E) (L ^ 4 * I) (L * le) = scaled F (NEuler E I le)) ∧
    (∀ E le r, fEuler (F / L ^ 2 * E) (L * le) (L * r) = scaled (F / L ^ 2) (fEuler E le r)) ∧
    (∀ rx ry xo yo, rol (L * rx) (L * ry) (L * xo) (L * yo) = scaled L (rol rx ry xo yo)) ∧
    (∀ A lez rx ry xo yo J Iw E G,
      fEulerTorsion (L ^ 2 * A) (L * lez) (L * rx) (L * ry) (L * xo) (L * yo) (L ^ 4 * J) (L ^ 6 * Iw)
        (F / L ^ 2 * E) (F / L ^ 2 * G) = scaled (F / L ^ 2) (fEulerTorsion A lez rx ry xo yo J Iw E G)) ∧
    (∀ kf le r fy fref,
      lambdaN kf (L * le) (L * r) (F / L ^ 2 * fy) (F / L ^ 2 * fref) = lambdaN kf le r fy fref) ∧
    (∀ An kf le r fy fref ab,
      NcFlexural (L ^ 2 * An) kf (L * le) (L * r) (F / L ^ 2 * fy) (F / L ^ 2 * fref) ab =
        (NcFlexural An kf le r fy fref ab).map (·.units L F)) ∧
    (∀ An lex lez rx ry xo yo J Iw E G,
      foxz (L ^ 2 * An) (L * lex) (L * lez) (L * rx) (L * ry) (L * xo) (L * yo) (L ^ 4 * J) (L ^ 6 * Iw)
        (F / L ^ 2 * E) (F / L ^ 2 * G) = (foxz An lex lez rx ry xo yo J Iw E G).map (·.units L F)) := by
  refine ⟨Ns_units hL, ?_, ?_, ?_, ?_, ?_, lambdaN_units hL hF, ?_, ?_⟩
  · intro l ke; unfold S6.le; ring
  · intro E I le
    unfold NEuler
    rw [scaled_eq, rdiv_scale (a := piD * piD * E * I) (b := le * le) (d := L ^ 2) F (by positivity) (by ring)
      (by field_simp)]
  · intro E le r; rw [scaled_eq, fEuler_units hL]
  · intro rx ry xo yo; rw [scaled_eq, rol_units hL]
  · intro A lez rx ry xo yo J Iw E G; rw [scaled_eq, fEulerTorsion_units hL hF]
  · intro An kf le r fy fref ab; rw [map_eq, NcFlexural_units hL hF]
  · intro An lex lez rx ry xo yo J Iw E G; rw [map_eq, foxz_units hL hF]

/-! The root selection depends on the set of roots only. -/

theorem clt_trans {a b c : ℂ} (h : clt a b) (h' : clt b c) : clt a c := by
  rcases h with h | ⟨h1, h2⟩ <;> rcases h' with g | ⟨g1, g2⟩
  · exact Or.inl (h.trans g)
  · exact Or.inl (by rw [← g1]; exact h)
  · exact Or.inl (by rw [h1]; exact g)
  · exact Or.inr ⟨h1.trans g1, h2.trans g2⟩

theorem clt_total (a b : ℂ) : clt a b ∨ a = b ∨ clt b a := by
  rcases lt_trichotomy a.re b.re with h | h | h
  · exact Or.inl (Or.inl h)
  · rcases lt_trichotomy a.im b.im with g | g | g
    · exact Or.inl (Or.inr ⟨h, g⟩)
    · exact Or.inr (Or.inl (Complex.ext h g))
    · exact Or.inr (Or.inr (Or.inr ⟨h.symm, g⟩))
  · exact Or.inr (Or.inr (Or.inl h))

/-- `minStress` is the first of the roots that are not negative, in the order of numpy -/
theorem minStress_spec (l : List ℂ) :
    (minStress l = none ↔ ∀ w ∈ l, clt w 0) ∧
    (∀ z, minStress l = some z ↔ z ∈ l ∧ ¬ clt z 0 ∧ ∀ w ∈ l, ¬ clt w 0 → w = z ∨ clt z w) := by
  classical
  have key : ∀ (l : List ℂ) (acc : Option ℂ), (∀ a, acc = some a → ¬ clt a 0) →
      ((l.foldl (fun acc i => if clt i 0 then acc
        else match acc with
          | Option.none => some i
          | some m => some (if clt i m then i else m)) acc = none → acc = none ∧ ∀ w ∈ l, clt w 0) ∧
      (∀ z, l.foldl (fun acc i => if clt i 0 then acc
        else match acc with
          | Option.none => some i
          | some m => some (if clt i m then i else m)) acc = some z →
        (z ∈ l ∨ acc = some z) ∧ ¬ clt z 0 ∧ (∀ w ∈ l, ¬ clt w 0 → w = z ∨ clt z w) ∧
          ∀ a, acc = some a → a = z ∨ clt z a)) := by
    intro l
    induction l with
    | nil =>
      intro acc hacc
      refine ⟨fun h => ⟨h, by simp⟩, fun z h => ⟨Or.inr h, hacc z h, by simp, ?_⟩⟩
      intro a ha
      rw [List.foldl_nil] at h
      rw [h] at ha
      exact Or.inl (Option.some.inj ha).symm
    | cons w l ih =>
      intro acc hacc
      rw [List.foldl_cons]
      by_cases hw : clt w 0
      · rw [if_pos hw]
        obtain ⟨i1, i2⟩ := ih acc hacc
        refine ⟨fun h => ?_, fun z h => ?_⟩
        · obtain ⟨a, b⟩ := i1 h
          refine ⟨a, fun v hv => ?_⟩
          rcases List.mem_cons.1 hv with rfl | hv
          · exact hw
          · exact b v hv
        · obtain ⟨a, b, c, d⟩ := i2 z h
          refine ⟨a.imp (List.mem_cons_of_mem _) id, b, fun v hv hv0 => ?_, d⟩
          rcases List.mem_cons.1 hv with rfl | hv
          · exact absurd hw hv0
          · exact c v hv hv0
      · rw [if_neg hw]
        cases acc with
        | none =>
          obtain ⟨i1, i2⟩ := ih (some w) (by intro a ha; rw [← Option.some.inj ha]; exact hw)
          refine ⟨fun h => (by have := (i1 h).1; cases this), fun z h => ?_⟩
          obtain ⟨a, b, c, d⟩ := i2 z h
          refine ⟨Or.inl ?_, b, fun v hv hv0 => ?_, by simp⟩
          · rcases a with a | a
            · exact List.mem_cons_of_mem _ a
            · rw [Option.some.inj a]; exact List.mem_cons_self
          · rcases List.mem_cons.1 hv with rfl | hv
            · exact d v rfl
            · exact c v hv hv0
        | some m =>
          have hm := hacc m rfl
          obtain ⟨i1, i2⟩ := ih (some (if clt w m then w else m)) (by
            intro a ha; rw [← Option.some.inj ha]; split
            · exact hw
            · exact hm)
          refine ⟨fun h => (by have := (i1 h).1; cases this), fun z h => ?_⟩
          obtain ⟨a, b, c, d⟩ := i2 z h
          have d' := d _ rfl
          by_cases hwm : clt w m
          · rw [if_pos hwm] at d' a
            refine ⟨Or.inl ?_, b, fun v hv hv0 => ?_, ?_⟩
            · rcases a with a | a
              · exact List.mem_cons_of_mem _ a
              · rw [Option.some.inj a]; exact List.mem_cons_self
            · rcases List.mem_cons.1 hv with rfl | hv
              · exact d'
              · exact c v hv hv0
            · intro x hx
              rw [← Option.some.inj hx]
              right
              rcases d' with d' | d'
              · rw [← d']; exact hwm
              · exact clt_trans d' hwm
          · rw [if_neg hwm] at d' a
            refine ⟨a.imp (List.mem_cons_of_mem _) id, b, fun v hv hv0 => ?_, ?_⟩
            · rcases List.mem_cons.1 hv with rfl | hv
              · rcases clt_total v m with g | g | g
                · exact absurd g hwm
                · rw [g]; exact d'
                · right
                  rcases d' with d' | d'
                  · rw [← d']; exact g
                  · exact clt_trans d' g
              · exact c v hv hv0
            · intro x hx
              rw [← Option.some.inj hx]
              exact d'
  obtain ⟨k1, k2⟩ := key l none (by simp)
  have f1 : minStress l = none → ∀ w ∈ l, clt w 0 := fun h => (k1 (by unfold minStress at h; exact h)).2
  have f2 : ∀ z, minStress l = some z → z ∈ l ∧ ¬ clt z 0 ∧ ∀ w ∈ l, ¬ clt w 0 → w = z ∨ clt z w := by
    intro z h
    obtain ⟨a, b, c, _⟩ := k2 z (by unfold minStress at h; exact h)
    exact ⟨a.resolve_right (by simp), b, c⟩
  constructor
  · refine ⟨f1, fun h => ?_⟩
    cases hm : minStress l with
    | none => rfl
    | some z =>
      obtain ⟨a, b, _⟩ := f2 z hm
      exact absurd (h z a) b
  · intro z
    refine ⟨f2 z, ?_⟩
    rintro ⟨hz, hz0, hmin⟩
    cases hm : minStress l with
    | none => exact absurd (f1 hm z hz) hz0
    | some y =>
      obtain ⟨a, b, c⟩ := f2 y hm
      rcases hmin y a b with h | h
      · rw [h]
      · rcases c z hz hz0 with h' | h'
        · rw [h']
        · exact absurd h' (clt_asymm h)

theorem clt_smul {c : ℝ} (hc : 0 < c) (a b : ℂ) : clt (c * a) (c * b) ↔ clt a b := by
  simp only [clt, Complex.mul_re, Complex.ofReal_re, Complex.ofReal_im, zero_mul, sub_zero, Complex.mul_im,
    add_zero, mul_lt_mul_iff_right₀ hc, mul_right_inj' hc.ne']

/-- scaled roots give the scaled stress -/
theorem minStress_scale {c : ℝ} (hc : 0 < c) {l l' : List ℂ} (h : ∀ w, w ∈ l' ↔ ∃ v ∈ l, w = c * v) :
    minStress l' = (minStress l).map (fun z => (c : ℂ) * z) := by
  have h0 : ∀ v : ℂ, clt (c * v) 0 ↔ clt v 0 := by
    intro v
    rw [← clt_smul hc v 0, mul_zero]
  cases hm : minStress l with
  | none =>
    rw [(minStress_spec l).1] at hm
    show minStress l' = none
    rw [(minStress_spec l').1]
    intro w hw
    obtain ⟨v, hv, rfl⟩ := (h w).1 hw
    rw [h0]; exact hm v hv
  | some z =>
    rw [(minStress_spec l).2] at hm
    obtain ⟨a, b, d⟩ := hm
    show minStress l' = some (c * z)
    rw [(minStress_spec l').2]
    refine ⟨(h _).2 ⟨z, a, rfl⟩, fun hcc => b ((h0 z).1 hcc), ?_⟩
    intro w hw hw0
    obtain ⟨v, hv, rfl⟩ := (h w).1 hw
    rw [h0] at hw0
    rcases d v hv hw0 with e | e
    · left; rw [e]
    · right; rw [clt_smul hc]; exact e

/-- the roots are the points where the polynomial vanishes -/
theorem roots_mem {roots : Roots} (hr : roots.Exact) {p q r s : ℝ} (hp : p ≠ 0) (w : ℂ) :
    w ∈ roots p q r s ↔ p * w ^ 3 + q * w ^ 2 + r * w + s = 0 := by
  obtain ⟨z1, z2, z3, hl, hpoly⟩ := hr p q r s hp
  have hpc : (p : ℂ) ≠ 0 := by exact_mod_cast hp
  rw [hl, hpoly]
  simp only [List.mem_cons, List.not_mem_nil, or_false, mul_eq_zero, hpc, false_or, sub_eq_zero]
  tauto

theorem cubic_units (hL : 0 < L) (hF : 0 < F) (m : Member) (h0 : m.xo = 0 ∨ m.yo = 0) :
    cubic (m.units L F) = cubic m >>= fun q => .ok ⟨L ^ 2 * q.a, L ^ 2 * (F / L ^ 2) * q.b,
      L ^ 2 * (F / L ^ 2) ^ 2 * q.c, L ^ 2 * (F / L ^ 2) ^ 3 * q.d, F / L ^ 2 * q.fox, F / L ^ 2 * q.foy,
      F / L ^ 2 * q.foz⟩ := by
  unfold cubic
  simp only [Member.units]
  rw [fEuler_units hL, fEuler_units hL, rol_units hL, fEulerTorsion_units hL hF]
  simp only [bind_assoc', Except.bind_ok']
  refine bind_congr' fun fox _ => bind_congr' fun foy _ => bind_congr' fun ro _ => bind_congr' fun foz _ => ?_
  show Except.ok _ = Except.ok _
  rw [Except.ok_inj', Cubic.mk.injEq]
  refine ⟨?_, by ring, by ring, by ring, rfl, rfl, rfl⟩
  rcases h0 with h | h <;> rw [h] <;> ring

theorem focUnsym_units (hL : 0 < L) (hF : 0 < F) {roots : Roots} (hr : roots.Exact) (m : Member)
    (h0 : m.xo = 0 ∨ m.yo = 0) (hrx : 0 < m.rx) :
    focUnsym roots (m.units L F) = focUnsym roots m >>= fun v => .ok (F / L ^ 2 * v) := by
  unfold focUnsym
  rw [cubic_units hL hF m h0]
  simp only [bind_assoc', Except.bind_ok']
  refine bind_congr' fun q hq => ?_
  have hS : 0 < F / L ^ 2 := by positivity
  have ha : q.a ≠ 0 := by
    unfold cubic at hq
    cases h1 : fEuler m.E m.lex m.rx with
    | error e => rw [h1] at hq; cases hq
    | ok fox =>
      cases h2 : fEuler m.E m.ley m.ry with
      | error e => rw [h1, h2] at hq; cases hq
      | ok foy =>
        cases h3 : fEulerTorsion m.An m.lez m.rx m.ry m.xo m.yo m.J m.Iw m.E m.G with
        | error e => rw [h1, h2, rol_ok m.ry m.xo m.yo hrx, h3] at hq; cases hq
        | ok foz =>
          rw [h1, h2, rol_ok m.ry m.xo m.yo hrx, h3] at hq
          injection hq with hq
          rw [← hq]
          have hp := roSq_pos m.ry m.xo m.yo hrx
          show √(roSq m.rx m.ry m.xo m.yo) ^ 2 - m.xo ^ 2 * m.yo ^ 2 ≠ 0
          rw [Real.sq_sqrt hp.le]
          rcases h0 with h | h
          · have : m.xo ^ 2 * m.yo ^ 2 = 0 := by rw [h]; ring
            rw [this, sub_zero]; exact hp.ne'
          · have : m.xo ^ 2 * m.yo ^ 2 = 0 := by rw [h]; ring
            rw [this, sub_zero]; exact hp.ne'
  have hmem : ∀ w, w ∈ roots (L ^ 2 * q.a) (-(L ^ 2 * (F / L ^ 2) * q.b)) (L ^ 2 * (F / L ^ 2) ^ 2 * q.c)
      (-(L ^ 2 * (F / L ^ 2) ^ 3 * q.d)) ↔ ∃ v ∈ roots q.a (-q.b) q.c (-q.d), w = ((F / L ^ 2 : ℝ) : ℂ) * v := by
    intro w
    have hL2 : L ^ 2 * q.a ≠ 0 := mul_ne_zero (by positivity) ha
    have hSc : ((F / L ^ 2 : ℝ) : ℂ) ≠ 0 := by exact_mod_cast hS.ne'
    have hLc : ((L : ℝ) : ℂ) ≠ 0 := by exact_mod_cast hL.ne'
    rw [roots_mem hr hL2]
    generalize F / L ^ 2 = S at hS hSc ⊢
    constructor
    · intro h
      refine ⟨w / S, ?_, by field_simp⟩
      rw [roots_mem hr ha]
      push_cast at h ⊢
      have : (L : ℂ) ^ 2 * (S : ℂ) ^ 3 *
          (q.a * (w / S) ^ 3 + -q.b * (w / S) ^ 2 + q.c * (w / S) + -q.d) = 0 := by
        field_simp
        field_simp at h
        linear_combination h
      exact (mul_eq_zero.1 this).resolve_left (by positivity)
    · rintro ⟨v, hv, rfl⟩
      rw [roots_mem hr ha] at hv
      push_cast at hv ⊢
      linear_combination (L : ℂ) ^ 2 * (S : ℂ) ^ 3 * hv
  rw [minStress_scale hS hmem]
  cases minStress (roots q.a (-q.b) q.c (-q.d)) with
  | none => rfl
  | some z =>
    simp only [Option.map_some]
    have him : (((F / L ^ 2 : ℝ) : ℂ) * z).im = F / L ^ 2 * z.im := Complex.im_ofReal_mul _ _
    have hre : (((F / L ^ 2 : ℝ) : ℂ) * z).re = F / L ^ 2 * z.re := Complex.re_ofReal_mul _ _
    rw [him, hre]
    by_cases hz : z.im = 0
    · rw [if_pos hz, if_pos (by rw [hz, mul_zero])]; rfl
    · rw [if_neg hz, if_neg (mul_ne_zero hS.ne' hz)]; rfl

theorem foc_units (hL : 0 < L) (hF : 0 < F) {roots : Roots} (hr : roots.Exact) (m : Member) (sym : Symmetry)
    (h : sym.symmetry ≠ .ok .none ∨ (0 < m.rx ∧ (m.xo = 0 ∨ m.yo = 0))) :
    foc roots (m.units L F) sym = foc roots m sym >>= fun v => .ok (F / L ^ 2 * v) := by
  have hS : 0 < F / L ^ 2 := by positivity
  unfold foc
  simp only [bind_assoc']
  refine bind_congr' fun k hk => ?_
  cases k with
  | double =>
    simp only [focDouble, Member.units, foxz_units hL hF, fEulerTorsion_units hL hF, bind_assoc', Except.bind_ok']
    refine bind_congr' fun f _ => bind_congr' fun z _ => ?_
    show Except.ok _ = Except.ok _
    rw [mul_min_of_nonneg _ _ hS.le]
    rfl
  | single =>
    simp only [focSingle, bind_assoc']
    refine bind_congr' fun n _ => ?_
    split
    · rfl
    · split
      · simp only [Member.units, foxz_units hL hF, bind_assoc', Except.bind_ok']
        refine bind_congr' fun f _ => rfl
      · simp only [Member.units, foxz_units hL hF, bind_assoc', Except.bind_ok']
        refine bind_congr' fun f _ => rfl
  | point =>
    simp only [focPoint, Member.units, fEulerTorsion_units hL hF]
  | none =>
    obtain ⟨h1, h2⟩ := h.resolve_left (fun hc => hc hk)
    exact focUnsym_units hL hF hr m h2 h1

theorem columnCurve_units (hL : 0 < L) (hF : 0 < F) (fy f : ℝ) :
    columnCurve (F / L ^ 2 * fy) (F / L ^ 2 * f) = columnCurve fy f >>= fun p => .ok (p.1, F / L ^ 2 * p.2) := by
  unfold columnCurve
  rw [rdiv_same (a := fy) (b := f) (d := F / L ^ 2) (by positivity) rfl rfl]
  simp only [bind_assoc']
  refine bind_congr' fun q _ => bind_congr' fun lc _ => ?_
  split
  · show Except.ok _ = Except.ok _
    rw [mul_assoc]
  · simp only [bind_assoc']
    refine bind_congr' fun u _ => ?_
    show Except.ok _ = Except.ok _
    rw [mul_assoc]

theorem NcTorsion_units (hL : 0 < L) (hF : 0 < F) {roots : Roots} (hr : roots.Exact) (m : Member) (kf fy : ℝ)
    (sym : Symmetry) (unc : ℝ) (h : sym.symmetry ≠ .ok .none ∨ (0 < m.rx ∧ (m.xo = 0 ∨ m.yo = 0))) :
    NcTorsion roots (m.units L F) kf (F / L ^ 2 * fy) sym unc =
      NcTorsion roots m kf fy sym unc >>= fun t => .ok (t.units L F) := by
  unfold NcTorsion
  rw [foc_units hL hF hr m sym h]
  simp only [bind_assoc', Except.bind_ok', columnCurve_units hL hF]
  refine bind_congr' fun f _ => bind_congr' fun p _ => ?_
  show Except.ok _ = Except.ok _
  rw [Except.ok_inj', Torsional.units, Torsional.mk.injEq]
  refine ⟨?_, rfl, rfl, rfl⟩
  simp only [Member.units, Ae]
  field_simp

/-- C43.  The torsional check and the whole of `s6_1_1_Nc`: for every symmetric section, and for an
unsymmetric one whose shear centre is on an axis, every number scales with its units and every failure is
the same. -/
theorem C43_member_partial (hL : 0 < L) (hF : 0 < F) {roots : Roots} (hr : roots.Exact) :
    (∀ m kf fy sym unc, (sym.symmetry ≠ .ok .none ∨ (0 < m.rx ∧ (m.xo = 0 ∨ m.yo = 0))) →
      foc roots (m.units L F) sym = scaled (F / L ^ 2) (foc roots m sym) ∧
      NcTorsion roots (m.units L F) kf (F / L ^ 2 * fy) sym unc =
        (NcTorsion roots m kf fy sym unc).map (·.units L F)) ∧
    (∀ a : NcArgs, (a.calcBuckling = false ∨ a.calcTorsion = false ∨ a.sym.symmetry ≠ .ok .none ∨
        (0 < a.rx ∧ (a.xo = 0 ∨ a.yo = 0))) →
      Nc roots (a.units L F) = (Nc roots a).map (·.units F)) := by
  constructor
  · intro m kf fy sym unc h
    rw [scaled_eq, map_eq, foc_units hL hF hr m sym h, NcTorsion_units hL hF hr m kf fy sym unc h]
    exact ⟨rfl, rfl⟩
  · intro a h
    have hle : ∀ k, S6.le (L * a.l) k = L * S6.le a.l k := by intro k; unfold S6.le; ring
    have hns := Ns_units (F := F) hL a.An a.kf a.fy
    have hphi : ∀ x, a.phi * (F * x) = F * (a.phi * x) := fun x => by ring
    have hmin : ∀ x y, min (F * x) (F * y) = F * min x y := fun x y => (mul_min_of_nonneg _ _ hF.le).symm
    have hmem : (a.units L F).member = a.member.units L F := by
      simp only [NcArgs.member, NcArgs.units, Member.units, hle]
    rw [map_eq]
    unfold Nc
    rw [hmem]
    simp only [NcArgs.units, hns, hle, NcFlexural_units hL hF]
    cases hb : a.calcBuckling
    · simp only [Bool.false_eq_true, if_false]
      show Except.ok _ = Except.ok _
      rw [Except.ok_inj', NcResult.units, NcResult.mk.injEq]
      simp only [hphi]
      simp
    · simp only [if_true, bind_assoc', Except.bind_ok']
      refine bind_congr' fun bx _ => bind_congr' fun bY _ => ?_
      simp only [Flexural.units, hmin, hphi]
      cases ht : a.calcTorsion
      · simp only [Bool.false_eq_true, if_false]
        rfl
      · simp only [if_true]
        rw [hb, ht] at h
        have h' : a.sym.symmetry ≠ .ok .none ∨ (0 < a.member.rx ∧ (a.member.xo = 0 ∨ a.member.yo = 0)) := by
          have h2 : a.sym.symmetry ≠ .ok .none ∨ (0 < a.rx ∧ (a.xo = 0 ∨ a.yo = 0)) := by simpa using h
          exact h2
        rw [NcTorsion_units hL hF hr a.member a.kf a.fy a.sym a.uncertainty h']
        simp only [bind_assoc', Except.bind_ok']
        refine bind_congr' fun t _ => ?_
        simp only [Torsional.units, hmin, hphi]
        rfl

/-- C43 is false for unsymmetric sections: whenever both coordinates of the shear centre are non-zero, no
change of the unit of length gives the matching result. -/
theorem C43_unsymmetric_counterexample (hL : 0 < L) (hL1 : L ≠ 1) (hF : 0 < F) {roots : Roots} (hr : roots.Exact)
    {m : Member} (hm : m.Positive) (hx : m.xo ≠ 0) (hy : m.yo ≠ 0) {v : ℝ}
    (ha : m.rx ^ 2 + m.ry ^ 2 + m.xo ^ 2 + m.yo ^ 2 ≠ m.xo ^ 2 * m.yo ^ 2)
    (ha' : m.rx ^ 2 + m.ry ^ 2 + m.xo ^ 2 + m.yo ^ 2 ≠ L ^ 2 * (m.xo ^ 2 * m.yo ^ 2))
    (hv : focUnsym roots m = .ok v) : focUnsym roots (m.units L F) ≠ .ok (F / L ^ 2 * v) := by
  have hm' : (m.units L F).Positive := by
    obtain ⟨a, b, c, d, e, f, g, h, i, j⟩ := hm
    constructor <;> simp only [Member.units] <;> positivity
  -- a result is a root of the polynomial
  have root : ∀ {n : Member} {q : Cubic} {u : ℝ}, cubic n = .ok q → q.a ≠ 0 → focUnsym roots n = .ok u →
      q.a * u ^ 3 - q.b * u ^ 2 + q.c * u - q.d = 0 := by
    intro n q u hq hqa hu
    simp only [focUnsym, hq, Except.bind_ok'] at hu
    cases hms : minStress (roots q.a (-q.b) q.c (-q.d)) with
    | none => rw [hms] at hu; cases hu
    | some z =>
      rw [hms] at hu
      simp only at hu
      split at hu
      · rename_i him
        injection hu with hu
        have hz : z = (u : ℂ) := Complex.ext (by simpa using hu) (by simpa using him)
        have := (roots_mem hr hqa z).1 (minStress_mem hms)
        rw [hz] at this
        have h2 : ((q.a * u ^ 3 - q.b * u ^ 2 + q.c * u - q.d : ℝ) : ℂ) = 0 := by
          push_cast at this ⊢
          linear_combination this
        exact Complex.ofReal_eq_zero.1 h2
      · cases hu
  intro hv'
  obtain ⟨fox, foy, foz, p1, p2, p3, e1, e2, e3, ec⟩ := cubic_ok hm
  obtain ⟨fox', foy', foz', _, _, _, e1', e2', e3', ec'⟩ := cubic_ok hm'
  simp only [Member.units] at e1' e2' e3'
  rw [fEuler_units hL, e1, Except.bind_ok', Except.ok_inj'] at e1'
  rw [fEuler_units hL, e2, Except.bind_ok', Except.ok_inj'] at e2'
  rw [fEulerTorsion_units hL hF, e3, Except.bind_ok', Except.ok_inj'] at e3'
  subst e1' e2' e3'
  have hR : roSq (m.units L F).rx (m.units L F).ry (m.units L F).xo (m.units L F).yo =
      L ^ 2 * roSq m.rx m.ry m.xo m.yo := by
    simp only [Member.units, roSq]; ring
  have hR2 : m.rx ^ 2 + m.ry ^ 2 + m.xo ^ 2 + m.yo ^ 2 = roSq m.rx m.ry m.xo m.yo := by
    unfold roSq; ring
  rw [hR2] at ha ha'
  have r1 := root ec (sub_ne_zero.2 ha) hv
  have r2 := root ec' (by
    rw [hR]
    simp only [Member.units]
    have : L ^ 2 * roSq m.rx m.ry m.xo m.yo - (L * m.xo) ^ 2 * (L * m.yo) ^ 2 =
      L ^ 2 * (roSq m.rx m.ry m.xo m.yo - L ^ 2 * (m.xo ^ 2 * m.yo ^ 2)) := by ring
    rw [this]
    exact mul_ne_zero (by positivity) (sub_ne_zero.2 ha')) hv'
  simp only [hR] at r2
  simp only [Member.units] at r2
  simp only at r1
  have hRp := roSq_pos m.ry m.xo m.yo hm.rx
  have hv0 : v ≠ 0 := by
    rintro rfl
    have : roSq m.rx m.ry m.xo m.yo * fox * foy * foz = 0 := by linear_combination -r1
    have : 0 < roSq m.rx m.ry m.xo m.yo * fox * foy * foz := by positivity
    linarith
  have hS : F / L ^ 2 ≠ 0 := by positivity
  generalize roSq m.rx m.ry m.xo m.yo = R at *
  generalize F / L ^ 2 = S at *
  have key : L ^ 2 * S ^ 3 * ((1 - L ^ 2) * (m.xo ^ 2 * m.yo ^ 2 * v ^ 3)) = 0 := by
    linear_combination r2 - L ^ 2 * S ^ 3 * r1
  have h1 : (1 - L ^ 2) ≠ 0 := by
    intro h
    have : (L - 1) * (L + 1) = 0 := by linear_combination -h
    rcases mul_eq_zero.1 this with h | h
    · exact hL1 (by linarith)
    · linarith
  have h2 : L ^ 2 * S ^ 3 * ((1 - L ^ 2) * (m.xo ^ 2 * m.yo ^ 2 * v ^ 3)) ≠ 0 :=
    mul_ne_zero (mul_ne_zero (by positivity) (pow_ne_zero _ hS))
      (mul_ne_zero h1 (mul_ne_zero (mul_ne_zero (pow_ne_zero _ hx) (pow_ne_zero _ hy)) (pow_ne_zero _ hv0)))
  exact h2 key

/-- a member with `x_o = y_o = 1` and stresses 1, 1 and 7/8 -/
noncomputable def unsymMember : Member :=
  ⟨1, piD, piD, 1, 1, 1, 1, 1, 7 / 2, 0, 1, 1⟩

theorem unsymMember_positive : unsymMember.Positive := by
  have hpi : (0 : ℝ) < piD := piD_pos
  constructor <;> simp only [unsymMember] <;> positivity

/-- the code's result for that member is 1/2 -/
theorem C43_witness {roots : Roots} (hr : roots.Exact) : focUnsym roots unsymMember = .ok (1 / 2) := by
  have hpi : (0 : ℝ) < piD := piD_pos
  obtain ⟨fox, foy, foz, p1, p2, p3, e1, e2, e3, ec⟩ := cubic_ok unsymMember_positive
  have hR : roSq unsymMember.rx unsymMember.ry unsymMember.xo unsymMember.yo = 4 := by
    unfold roSq unsymMember; norm_num
  have he := fEuler_ok (E := 1) (le := piD) (r := 1) one_ne_zero hpi.ne'
  have v1 : fox = 1 := by
    rw [show fEuler unsymMember.E unsymMember.lex unsymMember.rx = fEuler 1 piD 1 from rfl, he] at e1
    rw [← Except.ok_inj'.1 e1]; field_simp
  have v2 : foy = 1 := by
    rw [show fEuler unsymMember.E unsymMember.ley unsymMember.ry = fEuler 1 piD 1 from rfl, he] at e2
    rw [← Except.ok_inj'.1 e2]; field_simp
  have v3 : foz = 7 / 8 := by
    have := fEulerTorsion_ok (A := 1) (lez := 1) (rx := 1) (ry := 1) (xo := 1) (yo := 1) (J := 7 / 2) (Iw := 0)
      (E := 1) (G := 1) one_pos one_pos one_pos (by norm_num) one_pos
    rw [show fEulerTorsion unsymMember.An unsymMember.lez unsymMember.rx unsymMember.ry unsymMember.xo
      unsymMember.yo unsymMember.J unsymMember.Iw unsymMember.E unsymMember.G =
      fEulerTorsion 1 1 1 1 1 1 (7 / 2) 0 1 1 from rfl, this] at e3
    rw [← Except.ok_inj'.1 e3]
    unfold roSq; norm_num
  have ec' : cubic unsymMember = .ok ⟨3, 19 / 2, 11, 7 / 2, 1, 1, 7 / 8⟩ := by
    rw [ec, hR, v1, v2, v3]
    simp only [unsymMember]
    norm_num
  have hmem : ∀ w : ℂ, w ∈ roots 3 (-(19 / 2)) 11 (-(7 / 2)) ↔ w = ((1 / 2 : ℝ) : ℂ) ∨ w ^ 2 - 8 / 3 * w + 7 / 3 = 0 := by
    intro w
    rw [roots_mem hr (by norm_num), ← sub_eq_zero (b := ((1 / 2 : ℝ) : ℂ)), ← mul_eq_zero]
    push_cast
    constructor
    · intro h; linear_combination h / 3
    · intro h; linear_combination 3 * h
  have hsel : minStress (roots 3 (-(19 / 2)) 11 (-(7 / 2))) = some ((1 / 2 : ℝ) : ℂ) := by
    have hq : ∀ w : ℂ, w ^ 2 - 8 / 3 * w + 7 / 3 = 0 → w.re = 4 / 3 := by
      intro w h
      have hre := congrArg Complex.re h
      have him := congrArg Complex.im h
      simp [sq, Complex.add_re, Complex.mul_re] at hre him
      have h1 : w.im * (2 * w.re - 8 / 3) = 0 := by linear_combination him
      rcases mul_eq_zero.1 h1 with h | h
      · rw [h] at hre
        nlinarith [sq_nonneg (w.re - 4 / 3)]
      · linarith
    rw [(minStress_spec _).2]
    refine ⟨(hmem _).2 (Or.inl rfl), ?_, ?_⟩
    · rintro (h | ⟨h, _⟩) <;> norm_num at h
    · intro w hw _
      rcases (hmem w).1 hw with h | h
      · exact Or.inl h
      · right; left; rw [hq w h]; norm_num
  simp only [focUnsym, ec', Except.bind_ok', hsel]
  simp

/-- Tripling the unit of length changes the physical answer for that member. -/
example {roots : Roots} (hr : roots.Exact) :
    focUnsym roots (unsymMember.units 3 1) ≠ .ok (1 / 3 ^ 2 * (1 / 2)) :=
  C43_unsymmetric_counterexample (by norm_num) (by norm_num) one_pos hr unsymMember_positive
    (by simp [unsymMember]) (by simp [unsymMember]) (by simp only [unsymMember]; norm_num)
    (by simp only [unsymMember]; norm_num) (C43_witness hr)

end S6

end BeamDesign
