import Verif.Model.Calls
import Verif.Props.S7
import Verif.Props.AS4100
import Verif.Props.Defaults
import Verif.Spec.SamplesAS
import Verif.Float64

/-!
# C94: pin connections; C95: a rod sized with section 7 passes the check
-/

set_option linter.unusedSectionVars false

namespace BeamDesign

variable {K : Type} [Field K] [LinearOrder K] [IsStrictOrderedRing K]

theorem S7.phi_pos : (0 : K) < S7.phi := by unfold S7.phi; norm_num
theorem S7.alphaU_pos : (0 : K) < S7.alphaU := by unfold S7.alphaU; norm_num

/-- C94, partial: at a pin, the area beyond the hole and the area across it that S7.5 asks for carry exactly the safety
factor times the load, where the safety factor is the one given or 1.00 and 1.33; and the thickness asked for is the
edge distance times the factor, if the factor is given (`C94_counterexample`: it cannot be left out). -/
theorem C94_pins_partial {rt : Rt K} (hx : rt.Exact) {N fy fu kt : K} (phi au sb sp : Option K) (hN : 0 < N)
    (hfy : 0 < fy) (hfu : 0 < fu) (hkt : 0 < kt) (hphi : ∀ p, phi = some p → 0 < p) (hau : ∀ p, au = some p → 0 < p)
    (hsb : ∀ s, sb = some s → 0 < s) (hsp : ∀ s, sp = some s → 0 < s) :
    ∃ r : S7.Areas K, S7.AReqdCall rt N fy fu kt phi au = .ok r ∧ 0 < r.phiA ∧
      (∀ A, A = S7.ABeyondCall rt r.phiA sb → (S7.NtCall rt A A fy fu kt phi au).phiN = sb.getD 1 * N) ∧
      (∀ A, A = S7.APerpCall rt r.phiA sp → (S7.NtCall rt A A fy fu kt phi au).phiN = sp.getD (133 / 100) * N) ∧
      ∀ ae s, S7.minThicknessCall rt ae (some s) = .ok (ae * s) := by
  have hp : 0 < phi.getD S7.phi := by
    cases phi with
    | none => exact S7.phi_pos
    | some p => exact hphi p rfl
  have ha : 0 < au.getD S7.alphaU := by
    cases au with
    | none => exact S7.alphaU_pos
    | some p => exact hau p rfl
  obtain ⟨r, hr, hpos, hN', -⟩ := C41_inverse hx hN hfy hfu hkt hp ha
  have scale : ∀ s : K, 0 < s →
      (S7.Nt rt (r.phiA * s) (r.phiA * s) fy fu kt (phi.getD S7.phi) (au.getD S7.alphaU)).phiN = s * N := by
    intro s hs
    rw [← hN', Nt_eq hx, Nt_eq hx]
    simp only
    have e1 : r.phiA * s * fy = s * (r.phiA * fy) := by ring
    have e2 : r.phiA * s * fu * kt * au.getD S7.alphaU = s * (r.phiA * fu * kt * au.getD S7.alphaU) := by ring
    rw [e1, e2, ← mul_min_of_nonneg _ _ hs.le]
    ring
  refine ⟨r, hr, hpos, ?_, ?_, ?_⟩
  · rintro _ rfl
    simp only [S7.ABeyondCall, S7.ABeyond, S7.NtCall, hx.mul]
    cases sb with
    | none => exact scale 1 one_pos
    | some s => exact scale s (hsb s rfl)
  · rintro _ rfl
    simp only [S7.APerpCall, S7.APerp, S7.NtCall, hx.mul]
    cases sp with
    | none => exact scale (133 / 100) (by norm_num)
    | some s => exact scale s (hsp s rfl)
  · intro ae s
    simp only [S7.minThicknessCall, S7.minThickness, hx.mul]

/-- `s7_5_a_min_thickness` documents a default safety factor of 0.25; without the argument it always raises -/
theorem C94_counterexample (rt : Rt K) (ae : K) : S7.minThicknessCall rt ae none = .error .typeError := rfl

/-- 500 kN on a grade 300 plate, every optional argument left out -/
example : S7.AReqdCall (Rt.exact ℚ) 500000 300000000 440000000 1 none none =
      .ok ⟨1 / 600, 1 / 748, 1 / 600, 1 / 540, 5 / 3366, 1 / 540⟩ ∧
    S7.APerpCall (Rt.exact ℚ) (1 / 540) none = 133 / 54000 ∧
    (S7.NtCall (Rt.exact ℚ) (133 / 54000) (133 / 54000) 300000000 440000000 1 none none).phiN = 665000 := by
  decide +kernel

/-- the required net area and the ultimate capacity are inverse to each other with the same uncertainty factor, given or not -/
theorem C94_net {rt : Rt K} (hx : rt.Exact) {N fu kt : K} (au : Option K) (hfu : 0 < fu) (hkt : 0 < kt)
    (hau : ∀ p, au = some p → 0 < p) :
    ∃ A, S7.AnCall rt N fu kt au = .ok A ∧ S7.NtUltimateCall rt A fu kt au = N ∧
      au.getD (85 / 100) * (A * fu * kt) = N := by
  have ha : 0 < au.getD S7.alphaU := by
    cases au with
    | none => exact S7.alphaU_pos
    | some p => exact hau p rfl
  refine ⟨N / au.getD S7.alphaU / kt / fu, ?_, ?_, ?_⟩
  · simp only [S7.AnCall, S7.An, pyDiv_ok hx ha.ne', pyDiv_ok hx hkt.ne', pyDiv_ok hx hfu.ne', bind, Except.bind]
  · simp only [S7.NtUltimateCall, S7.NtUltimate, hx.mul]
    field_simp
  · show au.getD S7.alphaU * _ = N
    field_simp

example : S7.AnCall (Rt.exact ℚ) 374 440 1 none = .ok 1 ∧ S7.NtUltimateCall (Rt.exact ℚ) 1 440 1 none = 374 := by
  decide +kernel

/-! ## C95 -/

/-- C95: for a steel rod, the checker with the shipped factors and `s7_1_N_t` with its default factors and `k_t = 1`
report the same capacities, in any arithmetic with a commutative multiplication. -/
theorem C95_same {rt : Rt K} (hc : ∀ a b, rt.mul a b = rt.mul b a) (r fy fu : K) (m : Material K)
    (hs : m.type = .mat .steel) (hst : Spec.Strengths ⟨r, m⟩ fy fu) :
    ∃ o : AS4100 K, AS4100.defaultFrom shippedDefaults none (some (.circle r (some m))) = .ok o ∧
      ∀ c, c = S7.NtCall rt (circleArea rt r) (circleArea rt r) fy fu 1 none none →
        o.Nty rt .none = .ok c.Nty ∧ o.Ntu rt .none = .ok c.Ntu ∧ o.Nt rt .none = .ok c.N ∧
        o.phiNty rt .none = .ok c.phiNty ∧ o.phiNt rt .none = .ok c.phiN ∧
        o.tensionCapacity rt .none = .ok c.phiN := by
  obtain ⟨hfy, hfu⟩ := strengths_iff.1 hst
  have hf : DSect.factory (.circle r (some m)) = .ok ⟨r, m⟩ := by simp [DSect.factory, hs]
  have hphi : (90 / 100 : K) = S7.phi := by unfold S7.phi; norm_num
  refine ⟨⟨none, some (.circle r (some m)), 20, [⟨r, m⟩], 90 / 100, 85 / 100, 1⟩, ?_, ?_⟩
  · rw [(C69_shipped none _).1]
    simp [AS4100.new, defaultAssessmentPoints, sectionsOf, hf, bind, Except.bind, pure, Except.pure, List.mapM_cons]
  · rintro _ rfl
    simp only [AS4100.tensionCapacity, AS4100.phiNt, AS4100.phiNty, AS4100.Nt, AS4100.Nty, AS4100.Ntu,
      AS4100.considered, List.mapM_cons, List.mapM_nil, hfy, hfu, bind, Except.bind, pure, Except.pure, pyMin]
    simp only [S7.NtCall, S7.Nt, S7.NtYield, S7.NtUltimate, Option.getD_none, s7Nty, s7Ntu, DSect.Ag, DSect.An]
    refine ⟨rfl, rfl, rfl, ?_, ?_, ?_⟩ <;> rw [hc, hphi] <;> rfl

/-- C95: sized with `s7_1_A_reqd`, all factors left out, a rod passes exactly when it has the required area. -/
theorem C95_sized {rt : Rt K} (hx : rt.Exact) (r fy fu N : K) (m : Material K)
    (hs : m.type = .mat .steel) (hst : Spec.Strengths ⟨r, m⟩ fy fu)
    (hN : 0 < N) (py : 0 < fy) (pu : 0 < fu) :
    ∃ (o : AS4100 K) (cap : K) (a : S7.Areas K),
      AS4100.defaultFrom shippedDefaults none (some (.circle r (some m))) = .ok o ∧
      o.tensionCapacity rt .none = .ok cap ∧ S7.AReqdCall rt N fy fu 1 none none = .ok a ∧
      (N ≤ cap ↔ a.phiA ≤ circleArea rt r) := by
  obtain ⟨o, ho, hcaps⟩ := C95_same (rt := rt) (fun a b => by rw [hx.mul, hx.mul, mul_comm]) r fy fu m hs hst
  have hcap := (hcaps _ rfl).2.2.2.2.2
  obtain ⟨a, ha, hpos, hN', hlt⟩ := C41_inverse hx hN py pu one_pos S7.phi_pos S7.alphaU_pos
  refine ⟨o, _, a, ho, hcap, ha, ?_⟩
  constructor
  · intro h
    by_contra hc
    exact absurd (hlt _ (not_le.1 hc)) (not_lt.2 h)
  · intro h
    have := (C41_capacity_monotone hx hpos hpos py pu one_pos S7.phi_pos S7.alphaU_pos h h le_rfl le_rfl le_rfl
      le_rfl le_rfl).2.2.2.2.2.1
    rw [hN'] at this
    exact this

/-- a rod of diameter 20 mm meets the hypotheses, in exact and in double precision arithmetic -/
example : Samples.steel.type = .mat .steel ∧ Spec.Strengths ⟨1 / 100, Samples.steel⟩ 250000000 410000000 ∧
    (∀ a b, Rt.binary64.mul a b = Rt.binary64.mul b a) := by
  refine ⟨rfl, strengths_iff.2 (by decide +kernel), fun a b => ?_⟩
  show rnd64 (a * b) = rnd64 (b * a)
  rw [mul_comm]

end BeamDesign
