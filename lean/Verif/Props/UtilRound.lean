import Verif.Props.Tension
import Verif.Props.Rounding
import Verif.Lemmas.UtilRound
import Verif.Model.Util64
import Verif.Lemmas.Fast64
import Verif.Spec.UtilRound

/-!
# C82: utilisations computed in floating point
-/

namespace BeamDesign

open Spec

section
variable {K : Type} [Field K] [LinearOrder K] [IsStrictOrderedRing K] [FloorRing K]
variable {rt : Rt K} {F : K → Prop} {u η τ : K} {one : K → K → Py K}

theorem utilAtWith_near {o : AS4100 K} {c : ℤ} {p : Num K} (h : Defined rt o c p)
    (hone : ∀ cap t, o.phiNt rt (.scalar p) = .ok cap → Reported rt o c p t →
      ∃ v, one cap t = .ok v ∧ |v - utilOf cap t| ≤ u * utilOf cap t) :
    ∃ l : List (K × K), o.utilAtWith one rt c p = .ok (l.map fun x => (c, p, x.1)) ∧ l ≠ [] ∧
      (∀ x ∈ l, |x.1 - x.2| ≤ u * x.2) ∧ ∀ w, UtilAt rt o c p w ↔ ∃ x ∈ l, x.2 = w := by
  obtain ⟨cap, dt, rows, hcap, hpos, hne, hten⟩ := h
  have hrep := reported_iff hten
  have hs : ∀ r ∈ rows, ∃ v, one cap r.2 = .ok v ∧ |v - utilOf cap r.2| ≤ u * utilOf cap r.2 := by
    intro r hr
    exact hone cap r.2 hcap ((hrep _).2 ⟨r, hr, rfl⟩)
  choose! f hf1 hf2 using hs
  refine ⟨rows.map fun r => (f r, utilOf cap r.2), ?_, by simpa using hne, ?_, ?_⟩
  · simp only [AS4100.utilAtWith, AS4100.tensionCapacity, hcap, hten, bind, Except.bind]
    rw [mapM_ok_iff, List.map_map]
    clear hten hne hrep hf2
    induction rows with
    | nil => exact .nil
    | cons r rows ih =>
      refine .cons ?_ (ih fun r h => hf1 r (List.mem_cons_of_mem _ h))
      simp only [hf1 r List.mem_cons_self, pure, Except.pure, Function.comp]
  · intro x hx
    obtain ⟨q, hq, rfl⟩ := List.mem_map.1 hx
    exact hf2 q hq
  · intro w
    constructor
    · rintro ⟨cap', t, hcap', ht, rfl⟩
      rw [hcap] at hcap'
      cases hcap'
      obtain ⟨q, hq, rfl⟩ := (hrep t).1 ht
      exact ⟨_, List.mem_map_of_mem hq, rfl⟩
    · rintro ⟨x, hx, rfl⟩
      obtain ⟨q, hq, rfl⟩ := List.mem_map.1 hx
      exact ⟨cap, q.2, hcap, (hrep _).2 ⟨q, hq, rfl⟩, rfl⟩

theorem utilLoopWith_near {o : AS4100 K} (cs : List ℤ) (ps : List (Num K)) (h : ∀ c ∈ cs, ∀ p ∈ ps, Defined rt o c p)
    (ho : ∀ c ∈ cs, ∀ p ∈ ps, ∀ cap t, o.phiNt rt (.scalar p) = .ok cap → Reported rt o c p t →
      ∃ v, one cap t = .ok v ∧ |v - utilOf cap t| ≤ u * utilOf cap t) :
    ∃ l : List ((ℤ × Num K × K) × K), o.utilLoopWith one rt (some ps) cs = .ok (l.map fun x => x.1) ∧
      (cs ≠ [] → ps ≠ [] → l ≠ []) ∧ (∀ x ∈ l, x.1.1 ∈ cs ∧ x.1.2.1 ∈ ps ∧ |x.1.2.2 - x.2| ≤ u * x.2) ∧
      ∀ w, (∃ c ∈ cs, ∃ p ∈ ps, UtilAt rt o c p w) ↔ ∃ x ∈ l, x.2 = w := by
  induction cs with
  | nil => exact ⟨[], rfl, fun h => absurd rfl h, by simp, by simp⟩
  | cons c cs ih =>
    obtain ⟨ret, hret, -, hr1, hr2⟩ := ih (fun c hc => h c (List.mem_cons_of_mem _ hc))
      (fun c hc => ho c (List.mem_cons_of_mem _ hc))
    have hp := fun p hp => utilAtWith_near (h c List.mem_cons_self p hp) (ho c List.mem_cons_self p hp)
    choose! l hl1 hl2 hl3 hl4 using hp
    have hm : ps.mapM (fun p => o.utilAtWith one rt c p) = .ok (ps.map fun p => (l p).map fun x => (c, p, x.1)) := by
      rw [mapM_ok_iff]
      clear hl2 hl3 hl4 hr1 hr2 hret ih h ho
      induction ps with
      | nil => exact .nil
      | cons p ps ih => exact .cons (hl1 p List.mem_cons_self) (ih fun p hp => hl1 p (List.mem_cons_of_mem _ hp))
    refine ⟨(ps.flatMap fun p => (l p).map fun x => ((c, p, x.1), x.2)) ++ ret, ?_, ?_, ?_, ?_⟩
    · simp only [AS4100.utilLoopWith, AS4100.utilPositions, bind, Except.bind, pure, Except.pure] at hret ⊢
      rw [hm]
      simp only [hret, List.map_append, List.flatMap_def, List.map_flatten, List.map_map, Function.comp_def]
    · intro _ hps
      obtain ⟨p, hp⟩ := List.exists_mem_of_ne_nil ps hps
      obtain ⟨x, hx⟩ := List.exists_mem_of_ne_nil _ (hl2 p hp)
      exact List.ne_nil_of_mem (List.mem_append_left _ (List.mem_flatMap.2 ⟨p, hp, List.mem_map_of_mem hx⟩))
    · intro r hr
      rcases List.mem_append.1 hr with hr | hr
      · obtain ⟨p, hp, hr⟩ := List.mem_flatMap.1 hr
        obtain ⟨x, hx, rfl⟩ := List.mem_map.1 hr
        exact ⟨List.mem_cons_self, hp, hl3 p hp x hx⟩
      · obtain ⟨h1, h2⟩ := hr1 r hr
        exact ⟨List.mem_cons_of_mem _ h1, h2⟩
    · intro w
      constructor
      · rintro ⟨c', hc', p, hp, hw⟩
        rcases List.mem_cons.1 hc' with rfl | hc'
        · obtain ⟨x, hx, hxw⟩ := (hl4 p hp w).1 hw
          exact ⟨_, List.mem_append_left _ (List.mem_flatMap.2 ⟨p, hp, List.mem_map_of_mem hx⟩), hxw⟩
        · obtain ⟨x, hx, h⟩ := (hr2 w).1 ⟨c', hc', p, hp, hw⟩
          exact ⟨x, List.mem_append_right _ hx, h⟩
      · rintro ⟨x, hx, rfl⟩
        rcases List.mem_append.1 hx with hx | hx
        · obtain ⟨p, hp, hx⟩ := List.mem_flatMap.1 hx
          obtain ⟨y, hy, rfl⟩ := List.mem_map.1 hx
          exact ⟨c, List.mem_cons_self, p, hp, (hl4 p hp _).2 ⟨y, hy, rfl⟩⟩
        · obtain ⟨c', hc', h⟩ := (hr2 _).2 ⟨x, hx, rfl⟩
          exact ⟨c', List.mem_cons_of_mem _ hc', h⟩

/-- If every single utilisation is near the tension over the capacity, so is the greatest. -/
theorem utilWith_of_each {k : K} (hk : 0 ≤ k) (o : AS4100 K) (loadCase : CaseArg) (cs : List ℤ)
    (hcs : CasesOf o loadCase cs) (position : PosArg K) (ps : List (Num K)) (hps : PositionsOf position ps)
    (hcne : cs ≠ []) (hpne : ps ≠ []) (h : ∀ c ∈ cs, ∀ p ∈ ps, Defined rt o c p)
    (ho : ∀ c ∈ cs, ∀ p ∈ ps, ∀ cap t, o.phiNt rt (.scalar p) = .ok cap → Reported rt o c p t →
      ∃ v, one cap t = .ok v ∧ |v - utilOf cap t| ≤ k * utilOf cap t) :
    ∃ v V, o.tensionUtilisationWith one rt loadCase position = .ok v ∧
      IsGreatest {w | ∃ c ∈ cs, ∃ p ∈ ps, ∃ cap t, o.phiNt rt (.scalar p) = .ok cap ∧
        Reported rt o c p t ∧ w = if t ≤ 0 then 0 else t / cap} V ∧ |v - V| ≤ k * V := by
  obtain ⟨l, hret, hne, hm1, hm2⟩ := utilLoopWith_near cs ps h ho
  have hf := utilFilter_id hcs (some ps) (l.map fun x => x.1) fun r hr => by
    obtain ⟨x, hx, rfl⟩ := List.mem_map.1 hr
    exact ⟨(hm1 x hx).1, fun ps' hps' => by cases hps'; exact (hm1 x hx).2.1⟩
  obtain ⟨v, hv⟩ := pyMax_ne (xs := (l.map fun x => x.1).map fun r => r.2.2) (by simpa using hne hcne hpne)
  obtain ⟨V, hV⟩ := pyMax_ne (xs := l.map fun x => x.2) (by simpa using hne hcne hpne)
  have hgv := pyMax_ok hv
  have hgV := pyMax_ok hV
  refine ⟨v, V, ?_, ⟨?_, ?_⟩, ?_⟩
  · simp only [AS4100.tensionUtilisationWith, given_ok hps, utilCases_ok hcs, hret, bind, Except.bind, hf, hv]
  · obtain ⟨x, hx, rfl⟩ := List.mem_map.1 hgV.1
    exact (hm2 _).2 ⟨x, hx, rfl⟩
  · intro w hw
    obtain ⟨x, hx, rfl⟩ := (hm2 w).1 hw
    exact hgV.2 (List.mem_map_of_mem hx)
  · rw [List.map_map] at hgv
    obtain ⟨x, hx, hxv⟩ := List.mem_map.1 hgv.1
    obtain ⟨y, hy, hyV⟩ := List.mem_map.1 hgV.1
    have h1 := abs_le.1 (hm1 x hx).2.2
    have h2 := abs_le.1 (hm1 y hy).2.2
    have h3 : x.2 ≤ V := hgV.2 (List.mem_map_of_mem hx)
    have h4 : y.1.2.2 ≤ v := hgv.2 (List.mem_map.2 ⟨y, hy, rfl⟩)
    have h5 : k * x.2 ≤ k * V := mul_le_mul_of_nonneg_left h3 hk
    simp only [Function.comp] at hxv
    rw [hxv] at h1
    rw [hyV] at h2
    exact abs_le.2 ⟨by linarith [h2.1], by linarith [h1.2]⟩

omit [IsStrictOrderedRing K] in
theorem utilLoopWith_eq (o : AS4100 K) (pos : Option (List (Num K))) (cs : List ℤ) :
    o.utilLoopWith (utilOne rt) rt pos cs = o.utilLoop rt pos cs := by
  induction cs generalizing pos with
  | nil => rfl
  | cons c cs ih =>
    unfold AS4100.utilLoopWith AS4100.utilLoop
    simp only [ih]
    rfl

omit [IsStrictOrderedRing K] in
/-- The two models of `tension_utilisation` agree. -/
theorem tensionUtilisationWith_eq (o : AS4100 K) (loadCase : CaseArg) (position : PosArg K) :
    o.tensionUtilisationWith (utilOne rt) rt loadCase position = o.tensionUtilisation rt loadCase position := by
  unfold AS4100.tensionUtilisationWith AS4100.tensionUtilisation
  simp only [utilLoopWith_eq]

theorem util_of_each {k : K} (hk : 0 ≤ k) (o : AS4100 K) (loadCase : CaseArg) (cs : List ℤ)
    (hcs : CasesOf o loadCase cs) (position : PosArg K) (ps : List (Num K)) (hps : PositionsOf position ps)
    (hcne : cs ≠ []) (hpne : ps ≠ []) (h : ∀ c ∈ cs, ∀ p ∈ ps, Defined rt o c p)
    (ho : ∀ c ∈ cs, ∀ p ∈ ps, ∀ cap t, o.phiNt rt (.scalar p) = .ok cap → Reported rt o c p t →
      ∃ v, utilOne rt cap t = .ok v ∧ |v - utilOf cap t| ≤ k * utilOf cap t) :
    ∃ v V, o.tensionUtilisation rt loadCase position = .ok v ∧
      IsGreatest {w | ∃ c ∈ cs, ∃ p ∈ ps, ∃ cap t, o.phiNt rt (.scalar p) = .ok cap ∧
        Reported rt o c p t ∧ w = if t ≤ 0 then 0 else t / cap} V ∧ |v - V| ≤ k * V := by
  simp only [← tensionUtilisationWith_eq]
  exact utilWith_of_each hk o loadCase cs hcs position ps hps hcne hpne h ho

/-- C82: in floating point arithmetic with relative error `u` and underflow error `η`, at given positions and load cases
with ordinary tensions, the utilisation is the largest `t / φNt` (0 for no tension) with a relative error of at most
`27 u`. -/
theorem C82_utilisation (hr : Rounds rt F u η) (hu0 : 0 ≤ u) (hu : u ≤ 1 / (2 * 10 ^ 15)) (hη0 : 0 ≤ η)
    (hη : η ≤ u / 10 ^ 9) (hτ : η * 10 ^ 5 ≤ u * τ)
    (hrel : ∀ y, F y → |rt.mul relTol y - relTol * y| ≤ u * |relTol * y| + η)
    (h1 : F 1) (hX : F 100000) (hX' : F (-100000)) (o : AS4100 K) (loadCase : CaseArg) (cs : List ℤ)
    (hcs : CasesOf o loadCase cs) (position : PosArg K) (ps : List (Num K)) (hps : PositionsOf position ps)
    (hcne : cs ≠ []) (hpne : ps ≠ []) (h : ∀ c ∈ cs, ∀ p ∈ ps, Defined rt o c p)
    (ho : ∀ c ∈ cs, ∀ p ∈ ps, Ordinary rt F τ o c p) :
    ∃ v V, o.tensionUtilisation rt loadCase position = .ok v ∧
      IsGreatest {w | ∃ c ∈ cs, ∃ p ∈ ps, ∃ cap t, o.phiNt rt (.scalar p) = .ok cap ∧
        Reported rt o c p t ∧ w = if t ≤ 0 then 0 else t / cap} V ∧ |v - V| ≤ 27 * u * V := by
  have hone : ∀ cap t, 0 < cap → F cap → t ≤ 0 ∨ F t ∧ τ ≤ t ∧ cap / 10 ^ 4 ≤ t ∧ t ≤ 10 ^ 4 * cap →
      ∃ v, utilOne rt cap t = .ok v ∧ |v - utilOf cap t| ≤ 27 * u * utilOf cap t := by
    intro cap t hc0 hF ht
    unfold utilOf
    by_cases h0 : t ≤ 0
    · rw [if_pos h0]
      exact ⟨0, by rw [utilOne, if_pos h0], by simp⟩
    · rw [if_neg h0]
      obtain ⟨hFt, htau, hlo, hhi⟩ := ht.resolve_left h0
      refine utilOne_near hr hu0 hu hη0 hrel h1 hX hX' hFt hF hc0 ?_ ?_ ?_ hη
      · rw [le_div_iff₀ hc0]; linarith
      · rw [div_le_iff₀ hc0]; linarith
      · rw [le_div_iff₀ (by positivity)]
        exact hτ.trans (mul_le_mul_of_nonneg_left htau hu0)
  refine util_of_each (by positivity) o loadCase cs hcs position ps hps hcne hpne h ?_
  intro c hc p hp cap t hcap ht
  obtain ⟨cap', -, -, hcap', hpos, -⟩ := h c hc p hp
  rw [hcap] at hcap'
  cases hcap'
  have := ho c hc p hp cap t hcap ht
  exact hone cap t hpos this.1 this.2

end

/-- C82 in double precision: the relative error is below `2 ^ -48`. -/
theorem C82_binary64 (o : AS4100 ℚ) (loadCase : CaseArg) (cs : List ℤ)
    (hcs : CasesOf o loadCase cs) (position : PosArg ℚ) (ps : List (Num ℚ)) (hps : PositionsOf position ps)
    (hcne : cs ≠ []) (hpne : ps ≠ []) (h : ∀ c ∈ cs, ∀ p ∈ ps, Defined Rt.binary64 o c p)
    (ho : ∀ c ∈ cs, ∀ p ∈ ps, Ordinary Rt.binary64 IsDouble (2 ^ (-1000 : ℤ)) o c p) :
    ∃ v V, o.tensionUtilisation Rt.binary64 loadCase position = .ok v ∧
      IsGreatest {w | ∃ c ∈ cs, ∃ p ∈ ps, ∃ cap t, o.phiNt Rt.binary64 (.scalar p) = .ok cap ∧
        Reported Rt.binary64 o c p t ∧ w = if t ≤ 0 then 0 else t / cap} V ∧ |v - V| ≤ 2 ^ (-48 : ℤ) * V := by
  obtain ⟨v, V, hv, hV, hn⟩ := C82_utilisation C78_binary64_rounds (two_zpow_pos _).le (by norm_num) (two_zpow_pos _).le
    (by
      rw [show (2 : ℚ) ^ (-1075 : ℤ) = 2 ^ (-53 : ℤ) * 2 ^ (-1022 : ℤ) by rw [← zpow_add₀ (by norm_num)]; norm_num,
        div_eq_mul_inv]
      refine mul_le_mul_of_nonneg_left ?_ (two_zpow_pos _).le
      calc (2 : ℚ) ^ (-1022 : ℤ) ≤ 2 ^ (-40 : ℤ) := zpow_le_zpow_right₀ (by norm_num) (by norm_num)
        _ ≤ _ := by norm_num)
    (by
      rw [show (2 : ℚ) ^ (-1075 : ℤ) = 2 ^ (-53 : ℤ) * (2 ^ (-1000 : ℤ) * 2 ^ (-22 : ℤ)) by
        rw [← zpow_add₀ (by norm_num), ← zpow_add₀ (by norm_num)]; norm_num, mul_assoc, mul_assoc]
      refine mul_le_mul_of_nonneg_left ?_ (two_zpow_pos _).le
      refine mul_le_of_le_one_right (two_zpow_pos _).le ?_
      norm_num)
    (fun y _ => rnd64_error _) ⟨1, 0, by norm_num, by norm_num, by norm_num⟩
    ⟨100000, 0, by norm_num, by norm_num, by norm_num⟩ ⟨-100000, 0, by norm_num, by norm_num, by norm_num⟩
    o loadCase cs hcs position ps hps hcne hpne h ho
  refine ⟨v, V, hv, hV, hn.trans (mul_le_mul_of_nonneg_right (by norm_num) ?_)⟩
  obtain ⟨c, hc, p, hp, cap, t, hcap, -, hVe⟩ := hV.1
  obtain ⟨cap', -, -, hcap', hpos, -⟩ := h c hc p hp
  rw [hcap] at hcap'
  cases hcap'
  rw [hVe]
  split_ifs with h0
  · exact le_rfl
  · exact div_nonneg (le_of_not_ge h0) hpos.le

/-! ## A case meeting the hypotheses -/

/-- The steel of the samples, in doubles. -/
def doubleSteel : Material ℚ :=
  ⟨.mat .steel, .str "250", .str "AS3678-2016", [("E", .num 200000000000), ("strengths", .table [
    [1/125, 3/250, 1/50, 1/20, 2/25, 3/20, 1/5].map fastRnd,
    [280000000, 260000000, 250000000, 250000000, 240000000, 230000000, 220000000],
    [410000000, 410000000, 410000000, 410000000, 410000000, 410000000, 400000000]])]⟩

/-- A rod of length 0.7 and radius 0.01, in doubles, with tensions up to 60 kN. -/
def doubleObj : AS4100 ℚ :=
  ⟨some ⟨[⟨[(1, ⟨some ⟨false, [Samples.axial 0 12345, Samples.axial (fastRnd (3/10)) 60000,
      Samples.axial 1 (-20000)]⟩⟩)], some (Num.flt (fastRnd (7/10))), .circle (fastRnd (1/100)) (some doubleSteel)⟩]⟩,
    none, 20, [⟨fastRnd (1/100), doubleSteel⟩], fastRnd (9/10), fastRnd (85/100), 1⟩

theorem doubleObj_cap (q : Num ℚ) (hq : q = Num.flt (fastRnd (1/10)) ∨ q = Num.flt (fastRnd (7/10))) :
    doubleObj.phiNt Rt.binary64 (.scalar q) = .ok (2428746786813963 / 34359738368) := by
  rw [binary64_eq]
  rcases hq with rfl | rfl <;> decide +kernel

theorem doubleObj_tension : doubleObj.getTension Rt.binary64 1 (.scalar (Num.flt (fastRnd (1/10)))) none =
    .ok ⟨.flt, 1, [(3602879701896397 / 36028797018963968, 2407783208807863 / 68719476736)].map
      fun r => (r.1, [some r.2])⟩ := by
  rw [binary64_eq]; decide +kernel

theorem doubleObj_tension' : doubleObj.getTension Rt.binary64 1 (.scalar (Num.flt (fastRnd (7/10)))) none =
    .ok ⟨.flt, 1, [(fastRnd (7/10), (0 : ℚ))].map fun r => (r.1, [some r.2])⟩ := by
  rw [binary64_eq]; decide +kernel

/-- The rod at 0.1, where the tension is interpolated, and at its end, where there is none. -/
example : ∃ v V, doubleObj.tensionUtilisation Rt.binary64 (.one 1)
      (.list [Num.flt (fastRnd (1/10)), Num.flt (fastRnd (7/10))]) = .ok v ∧
    IsGreatest {w | ∃ c ∈ [(1 : ℤ)], ∃ p ∈ [Num.flt (fastRnd (1/10)), Num.flt (fastRnd (7/10))], ∃ cap t,
      doubleObj.phiNt Rt.binary64 (.scalar p) = .ok cap ∧ Reported Rt.binary64 doubleObj c p t ∧
        w = if t ≤ 0 then 0 else t / cap} V ∧ |v - V| ≤ 2 ^ (-48 : ℤ) * V := by
  refine C82_binary64 doubleObj _ [1] (Or.inr (Or.inl ⟨1, rfl, rfl⟩)) _ _ (Or.inl rfl) (by simp) (by simp) ?_ ?_
  · intro c hc p hp
    obtain rfl := List.mem_singleton.1 hc
    rcases List.mem_pair.1 hp with rfl | rfl
    · exact ⟨_, _, _, doubleObj_cap _ (Or.inl rfl), by norm_num, by simp, doubleObj_tension⟩
    · exact ⟨_, _, _, doubleObj_cap _ (Or.inr rfl), by norm_num, by simp, doubleObj_tension'⟩
  · intro c hc p hp cap t hcap ht
    obtain rfl := List.mem_singleton.1 hc
    rcases List.mem_pair.1 hp with rfl | rfl
    · rw [doubleObj_cap _ (Or.inl rfl)] at hcap
      cases hcap
      obtain ⟨r, hr, rfl⟩ := (reported_iff doubleObj_tension t).1 ht
      obtain rfl := List.mem_singleton.1 hr
      refine ⟨⟨2428746786813963, -35, by norm_num, by norm_num, by norm_num⟩,
        Or.inr ⟨⟨2407783208807863, -36, by norm_num, by norm_num, by norm_num⟩, ?_, by norm_num, by norm_num⟩⟩
      calc (2 : ℚ) ^ (-1000 : ℤ) ≤ 2 ^ (0 : ℤ) := zpow_le_zpow_right₀ (by norm_num) (by norm_num)
        _ ≤ _ := by norm_num
    · rw [doubleObj_cap _ (Or.inr rfl)] at hcap
      cases hcap
      obtain ⟨r, hr, rfl⟩ := (reported_iff doubleObj_tension' t).1 ht
      obtain rfl := List.mem_singleton.1 hr
      exact ⟨⟨2428746786813963, -35, by norm_num, by norm_num, by norm_num⟩, Or.inl le_rfl⟩

end BeamDesign
