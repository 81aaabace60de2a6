import Verif.Props.MaterialEq
import Verif.Props.Worse
import Verif.Props.S7
import Verif.Props.Grid
import Verif.Spec.MonoRound
import Verif.Lemmas.Fast64
import Verif.Spec.SamplesAS

/-!
# C151: rounding never makes more material weaker
-/

set_option linter.unusedSectionVars false

namespace BeamDesign

open Spec

section
variable {K : Type} [Field K] [LinearOrder K] [IsStrictOrderedRing K]

/-- Nonnegative and not larger. -/
def Upto (a b : K) : Prop := 0 ≤ a ∧ a ≤ b

theorem Upto.mul {rt : Rt K} {rnd : K → K} (h : RoundsTo rt rnd) {a a' b b' : K} (ha : Upto a a') (hb : Upto b b') :
    Upto (rt.mul a b) (rt.mul a' b') := by
  rw [h.mul, h.mul]
  refine ⟨?_, h.mono (mul_le_mul ha.2 hb.2 hb.1 (ha.1.trans ha.2))⟩
  rw [← h.zero]
  exact h.mono (mul_nonneg ha.1 hb.1)

theorem Upto.min {a a' b b' : K} (ha : Upto a a') (hb : Upto b b') : Upto (min a b) (min a' b') :=
  ⟨le_min ha.1 hb.1, min_le_min ha.2 hb.2⟩

theorem Upto.max {a a' b b' : K} (ha : Upto a a') (hb : Upto b b') : Upto (max a b) (max a' b') :=
  ⟨ha.1.trans (le_max_left _ _), max_le_max ha.2 hb.2⟩

/-- A larger dividend and a smaller divisor give a quotient not smaller. -/
theorem Upto.div {rt : Rt K} {rnd : K → K} (h : RoundsTo rt rnd) {a a' b b' : K} (ha : Upto a a') (hb' : 0 < b')
    (hb : b' ≤ b) : Upto (rt.div a b) (rt.div a' b') := by
  rw [h.div, h.div]
  refine ⟨?_, h.mono (div_le_div₀ (ha.1.trans ha.2) ha.2 hb' hb)⟩
  rw [← h.zero]
  exact h.mono (div_nonneg ha.1 (hb'.le.trans hb))

theorem pyRel_min {xs ys : List K} (h : List.Forall₂ Upto xs ys) : PyRel Upto (pyMin xs) (pyMin ys) := by
  cases h with
  | nil => rfl
  | cons h t =>
    rename_i x y xs ys
    show Upto (xs.foldl Min.min x) (ys.foldl Min.min y)
    induction t generalizing x y with
    | nil => exact h
    | cons g _ ih => exact ih (h.min g)

/-- C151.  However the operations are rounded, as long as the rounding is monotone: with no smaller areas, strengths
and factors all six numbers `s7_1_N_t` returns are no smaller. -/
theorem C151_section {rt : Rt K} {rnd : K → K} (hr : RoundsTo rt rnd)
    {Ag Ag' An An' fy fy' fu fu' kt kt' phi phi' au au' : K} (hAg : 0 ≤ Ag) (hAn : 0 ≤ An)
    (hfy : 0 ≤ fy) (hfu : 0 ≤ fu) (hkt : 0 ≤ kt) (hphi : 0 ≤ phi) (hau : 0 ≤ au)
    (gAg : Ag ≤ Ag') (gAn : An ≤ An') (gfy : fy ≤ fy') (gfu : fu ≤ fu') (gkt : kt ≤ kt')
    (gphi : phi ≤ phi') (gau : au ≤ au') :
    let c := S7.Nt rt Ag An fy fu kt phi au
    let c' := S7.Nt rt Ag' An' fy' fu' kt' phi' au'
    c.Nty ≤ c'.Nty ∧ c.Ntu ≤ c'.Ntu ∧ c.N ≤ c'.N ∧ c.phiNty ≤ c'.phiNty ∧ c.phiNtu ≤ c'.phiNtu ∧ c.phiN ≤ c'.phiN := by
  have hy : Upto (rt.mul Ag fy) (rt.mul Ag' fy') := Upto.mul hr ⟨hAg, gAg⟩ ⟨hfy, gfy⟩
  have hu : Upto (rt.mul (rt.mul (rt.mul An fu) kt) au) (rt.mul (rt.mul (rt.mul An' fu') kt') au') :=
    Upto.mul hr (Upto.mul hr (Upto.mul hr ⟨hAn, gAn⟩ ⟨hfu, gfu⟩) ⟨hkt, gkt⟩) ⟨hau, gau⟩
  have hp : Upto phi phi' := ⟨hphi, gphi⟩
  exact ⟨hy.2, hu.2, (hy.min hu).2, (hy.mul hr hp).2, (hu.mul hr hp).2, ((hy.min hu).mul hr hp).2⟩

/-- C151.  The areas `s7_1_A_reqd` requires are no larger for a smaller load and for larger strengths and factors. -/
theorem C151_areas {rt : Rt K} {rnd : K → K} (hr : RoundsTo rt rnd) {N N' fy fy' fu fu' kt kt' phi phi' au au' : K}
    (hN : 0 ≤ N) (hfy : 0 < fy) (hfu : 0 < fu) (hkt : 0 < kt) (hphi : 0 < phi) (hau : 0 < au)
    (gN : N ≤ N') (gfy : fy ≤ fy') (gfu : fu ≤ fu') (gkt : kt ≤ kt') (gphi : phi ≤ phi') (gau : au ≤ au') :
    ∃ less more : S7.Areas K,
      S7.AReqd rt N fy' fu' kt' phi' au' = .ok less ∧ S7.AReqd rt N' fy fu kt phi au = .ok more ∧
      less.Ag ≤ more.Ag ∧ less.An ≤ more.An ∧ less.A ≤ more.A ∧
      less.phiAg ≤ more.phiAg ∧ less.phiAn ≤ more.phiAn ∧ less.phiA ≤ more.phiA := by
  have ok : ∀ {N fy fu kt phi au : K}, 0 < fy → 0 < fu → 0 < kt → 0 < phi → 0 < au → S7.AReqd rt N fy fu kt phi au =
      .ok ⟨rt.div N fy, rt.div (rt.div (rt.div N au) kt) fu, max (rt.div N fy) (rt.div (rt.div (rt.div N au) kt) fu),
        rt.div (rt.div N fy) phi, rt.div (rt.div (rt.div (rt.div N au) kt) fu) phi,
        rt.div (max (rt.div N fy) (rt.div (rt.div (rt.div N au) kt) fu)) phi⟩ := by
    intro N fy fu kt phi au h1 h2 h3 h4 h5
    simp [S7.AReqd, S7.Ag, S7.An, pyDiv, bind, Except.bind, pure, Except.pure, h1.ne', h2.ne', h3.ne', h4.ne', h5.ne']
  have hn : Upto N N' := ⟨hN, gN⟩
  have hy : Upto (rt.div N fy') (rt.div N' fy) := hn.div hr hfy gfy
  have hu : Upto (rt.div (rt.div (rt.div N au') kt') fu') (rt.div (rt.div (rt.div N' au) kt) fu) :=
    ((hn.div hr hau gau).div hr hkt gkt).div hr hfu gfu
  exact ⟨_, _, ok (hfy.trans_le gfy) (hfu.trans_le gfu) (hkt.trans_le gkt) (hphi.trans_le gphi) (hau.trans_le gau),
    ok hfy hfu hkt hphi hau, hy.2, hu.2, (hy.max hu).2, (hy.div hr hphi gphi).2, (hu.div hr hphi gphi).2,
    ((hy.max hu).div hr hphi gphi).2⟩

theorem circleArea_upto {rt : Rt K} {rnd : K → K} (hr : RoundsTo rt rnd) {r r' : K} (h : Upto r r') :
    Upto (circleArea rt r) (circleArea rt r') :=
  Upto.mul hr ⟨by unfold piD; positivity, le_rfl⟩ (h.mul hr h)

theorem notLess_of {x y : Py K} (h : PyRel Upto x y) : NotLess x y := by
  cases x <;> cases y
  · exact Or.inr ⟨_, rfl, by rw [show _ = _ from h]⟩
  · exact h.elim
  · exact h.elim
  · exact Or.inl ⟨_, _, rfl, rfl, h.2⟩

end

section
variable {K : Type} [Field K] [LinearOrder K] [IsStrictOrderedRing K] [FloorRing K]
variable {rt : Rt K} {rnd : K → K}

theorem sameLayout_positions {b b' : Beam K (Sect K)}
    (h : List.Forall₂ (fun e e' => e.length = e'.length ∧ e.loads = e'.loads) b.elements b'.elements)
    (position : PosArg K) (n c : Option ℤ) : b'.listPositions rt position n c = b.listPositions rt position n c := by
  apply noLess_listPositions
  refine h.imp fun e e' he => ⟨he.1, ?_⟩
  rw [← he.2]
  refine List.forall₂_same.2 fun l _ => ⟨rfl, ?_⟩
  rcases hl : l.2.loads with _ | t
  · exact Or.inl ⟨rfl, rfl⟩
  · exact Or.inr ⟨t, t, rfl, rfl, rfl, List.forall₂_same.2 fun r _ => ⟨rfl, le_rfl⟩⟩

theorem considered_noWeaker {o o' : AS4100 K} (h : NoWeaker o o') (p : PosArg K) :
    PyRel (List.Forall₂ NoWeakerSection) (o.considered rt p) (o'.considered rt p) := by
  obtain ⟨-, -, -, hd, hb⟩ := h
  have key : ∀ q : PosArg K, PyRel (List.Forall₂ NoWeakerSection)
      (do let l ← o.getDSection rt q none none; return l.map (·.2))
      (do let l ← o'.getDSection rt q none none; return l.map (·.2)) := by
    intro q
    refine pyRel_bind (R := List.Forall₂ fun x y => NoWeakerSection x.2 y.2) ?_ fun a b hab => ?_
    · unfold AS4100.getDSection
      unfold SameLayout at hb
      generalize o.beam = b at hb ⊢
      generalize o'.beam = b' at hb ⊢
      cases hb with
      | none => exact rfl
      | some hb =>
        simp only [sameLayout_positions hb]
        refine pyRel_bind (R := Eq) (pyRel_eq.2 rfl) fun x y hxy => ?_
        subst hxy
        refine pyRel_mapM (R := Eq) (List.forall₂_eq_eq_eq ▸ rfl) fun l l' hl => ?_
        subst hl
        exact pyRel_bind (pyRel_index hd _) fun d d' hdd => hdd
    · show List.Forall₂ NoWeakerSection (a.map _) (b.map _)
      rw [List.forall₂_map_left_iff, List.forall₂_map_right_iff]
      exact hab
  cases p with
  | none => exact hd
  | scalar x => exact key _
  | list xs => exact key _

theorem Nty_upto (hr : RoundsTo rt rnd) {o o' : AS4100 K} (h : NoWeaker o o') (p : PosArg K) :
    PyRel Upto (o.Nty rt p) (o'.Nty rt p) := by
  refine pyRel_bind (considered_noWeaker h p) fun ds ds' hds => ?_
  refine pyRel_bind (R := List.Forall₂ Upto) (pyRel_mapM hds fun d d' hd => ?_) fun a b hab => pyRel_min hab
  obtain ⟨h0, h1, fy, fu, fy', fu', hs, hs', g1, g2, g3, g4⟩ := hd
  rw [(strengths_iff.1 hs).1, (strengths_iff.1 hs').1]
  exact (circleArea_upto hr ⟨h0, h1⟩).mul hr ⟨g1, g2⟩

theorem Ntu_upto (hr : RoundsTo rt rnd) {o o' : AS4100 K} (h : NoWeaker o o') (p : PosArg K) :
    PyRel Upto (o.Ntu rt p) (o'.Ntu rt p) := by
  refine pyRel_bind (considered_noWeaker h p) fun ds ds' hds => ?_
  refine pyRel_bind (R := List.Forall₂ Upto) (pyRel_mapM hds fun d d' hd => ?_) fun a b hab => pyRel_min hab
  obtain ⟨h0, h1, fy, fu, fy', fu', hs, hs', g1, g2, g3, g4⟩ := hd
  rw [(strengths_iff.1 hs).2, (strengths_iff.1 hs').2]
  exact (((circleArea_upto hr ⟨h0, h1⟩).mul hr ⟨g3, g4⟩).mul hr h.2.2.1).mul hr h.2.1

/-- C151.  However the operations are rounded, as long as the rounding is monotone: for an object with no smaller factors
and no weaker sections the capacities at any position are no smaller, and they exist if and only if the first ones do. -/
theorem C151_object (hr : RoundsTo rt rnd) {o o' : AS4100 K} (h : NoWeaker o o') (p : PosArg K) :
    NotLess (o.Nty rt p) (o'.Nty rt p) ∧ NotLess (o.Ntu rt p) (o'.Ntu rt p) ∧ NotLess (o.Nt rt p) (o'.Nt rt p) ∧
    NotLess (o.phiNty rt p) (o'.phiNty rt p) ∧ NotLess (o.phiNt rt p) (o'.phiNt rt p) ∧
    NotLess (o.tensionCapacity rt p) (o'.tensionCapacity rt p) := by
  have hy := Nty_upto hr h p
  have hu := Ntu_upto hr h p
  have hn : PyRel Upto (o.Nt rt p) (o'.Nt rt p) :=
    pyRel_bind hy fun a b hab => pyRel_bind hu fun c d hcd => hab.min hcd
  have hpy : PyRel Upto (o.phiNty rt p) (o'.phiNty rt p) := pyRel_bind hy fun a b hab => Upto.mul hr h.1 hab
  have hp : PyRel Upto (o.phiNt rt p) (o'.phiNt rt p) := pyRel_bind hn fun a b hab => Upto.mul hr h.1 hab
  exact ⟨notLess_of hy, notLess_of hu, notLess_of hn, notLess_of hpy, notLess_of hp, notLess_of hp⟩

/-- C151.  In doubles thicker rods of the same material, in the same band of its strength table, never have a smaller
capacity, whatever the position. -/
theorem C151_thicker {o o' : AS4100 ℚ} (hd : List.Forall₂ ThickerInBand o.dsects o'.dsects) (hb : SameLayout o.beam o'.beam)
    (heq : o'.phiSteel = o.phiSteel ∧ o'.alphaU = o.alphaU ∧ o'.kt = o.kt)
    (hf : 0 ≤ o.phiSteel ∧ 0 ≤ o.alphaU ∧ 0 ≤ o.kt)
    (hs : ∀ d ∈ o.dsects, ∃ fy fu, Strengths d fy fu ∧ 0 ≤ fy ∧ 0 ≤ fu) (p : PosArg ℚ) :
    NotLess (o.tensionCapacity Rt.binary64 p) (o'.tensionCapacity Rt.binary64 p) := by
  refine (C151_object C83_binary64_rounds ⟨⟨hf.1, heq.1.ge⟩, ⟨hf.2.1, heq.2.1.ge⟩, ⟨hf.2.2, heq.2.2.ge⟩, ?_, hb⟩ p).2.2.2.2.2
  clear hb heq
  generalize o'.dsects = ds' at hd
  generalize o.dsects = ds at hd hs
  induction hd with
  | nil => exact .nil
  | cons h _ ih =>
    refine .cons ?_ (ih fun d hd => hs d (List.mem_cons_of_mem _ hd))
    obtain ⟨fy, fu, hst, h1, h2⟩ := hs _ List.mem_cons_self
    have h0 := hst
    obtain ⟨ts, fys, fus, rest, -, -, h0, -⟩ := h0
    exact ⟨by linarith, h.2.1, fy, fu, fy, fu, hst, thicker_strengths h hst, h1, le_rfl, h2, le_rfl⟩

/-! ## Concrete cases -/

/-- The rod of 20 mm, and one of 21 mm. -/
def thickerRod : AS4100 ℚ := { Samples.constObj (Num.flt 1) 1000 with dsects := [⟨105/10000, Samples.steel⟩] }

theorem thickerRod_noWeaker : NoWeaker (Samples.constObj (Num.flt 1) 1000) thickerRod := by
  have h : Strengths (⟨1/100, Samples.steel⟩ : DSect ℚ) 250000000 410000000 :=
    strengths_iff.2 ⟨by decide +kernel, by decide +kernel⟩
  have h' : Strengths (⟨105/10000, Samples.steel⟩ : DSect ℚ) 250000000 410000000 :=
    strengths_iff.2 ⟨by decide +kernel, by decide +kernel⟩
  exact ⟨by decide +kernel, by decide +kernel, by decide +kernel,
    .cons ⟨by norm_num, by norm_num, _, _, _, _, h, h', by norm_num, le_rfl, by norm_num, le_rfl⟩ .nil,
    .some (List.forall₂_same.2 fun _ _ => ⟨rfl, rfl⟩)⟩

/-- in doubles, at the middle of the beam -/
example : NotLess ((Samples.constObj (Num.flt 1) 1000).tensionCapacity Rt.binary64 (.scalar (Num.flt (1/2))))
    (thickerRod.tensionCapacity Rt.binary64 (.scalar (Num.flt (1/2)))) :=
  (C151_object C83_binary64_rounds thickerRod_noWeaker _).2.2.2.2.2

/-- both capacities exist and differ -/
example : (match (Samples.constObj (Num.flt 1) 1000).tensionCapacity Rt.fast64 (.scalar (Num.flt (1/2))),
      thickerRod.tensionCapacity Rt.fast64 (.scalar (Num.flt (1/2))) with
    | .ok c, .ok c' => decide (c < c')
    | _, _ => false) = true := by decide +kernel

/-- rods of 22 and 24 mm: one band -/
example : List.Forall₂ ThickerInBand [(⟨11/1000, Samples.steel⟩ : DSect ℚ)] [⟨12/1000, Samples.steel⟩] := by
  refine .cons ⟨rfl, by norm_num, ?_⟩ .nil
  intro ts rows h x hx h1
  simp only [Samples.steel, List.lookup] at h
  cases h
  simp only [List.mem_cons, List.not_mem_nil, or_false] at hx
  rcases hx with rfl | rfl | rfl | rfl | rfl | rfl | rfl <;>
    first | (norm_num; done) | exact absurd h1 (by norm_num)

/-- a larger area with the same capacity in doubles: no smaller is all there is -/
example : (S7.Nt Rt.binary64 (2^53 - 2) (2^53 - 2) (5/4) (5/4) 1 1 1).phiN =
    (S7.Nt Rt.binary64 (2^53 - 1) (2^53 - 1) (5/4) (5/4) 1 1 1).phiN := by
  rw [binary64_eq]
  decide +kernel

/-- areas required for 1 and 2 N in doubles -/
example : ∃ less more, S7.AReqd Rt.binary64 1 250 410 1 (9/10) (85/100) = .ok less ∧
    S7.AReqd Rt.binary64 2 250 410 1 (9/10) (85/100) = .ok more ∧ less.phiA ≤ more.phiA := by
  obtain ⟨less, more, h1, h2, -, -, -, -, -, h3⟩ := C151_areas C83_binary64_rounds (N := 1) (N' := 2) (fy := 250) (fu := 410)
    (kt := 1) (phi := 9/10) (au := 85/100) (by norm_num) (by norm_num) (by norm_num) (by norm_num) (by norm_num) (by norm_num)
    (by norm_num) le_rfl le_rfl le_rfl le_rfl le_rfl
  exact ⟨less, more, h1, h2, h3⟩

end

end BeamDesign
