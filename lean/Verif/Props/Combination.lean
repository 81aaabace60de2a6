import Verif.Spec.Combination
import Verif.Props.Scaling

/-! # Property C65: load combinations -/

set_option linter.unusedSectionVars false
set_option linter.unusedSimpArgs false

namespace BeamDesign

open Spec

section
variable {K : Type} [Field K] [LinearOrder K] [IsStrictOrderedRing K]

theorem combine_get (a k : K) (r s : LRow K) (c : LComp) :
    (combine a k r s).get c = a * r.get c + k * s.get c := by
  cases c <;> rfl

theorem interpGo_comb {rt : Rt K} (hx : rt.Exact) (a k x : K) (l : List (K × K × K)) : ∀ p : K × K × K,
    interpGo rt x (p.1, a * p.2.1 + k * p.2.2) (l.map fun r => (r.1, a * r.2.1 + k * r.2.2))
      = a * interpGo rt x (p.1, p.2.1) (l.map fun r => (r.1, r.2.1))
        + k * interpGo rt x (p.1, p.2.2) (l.map fun r => (r.1, r.2.2)) := by
  induction l with
  | nil => intro p; rfl
  | cons r l ih =>
    intro p
    simp only [List.map_cons, interpGo]
    split_ifs
    · exact ih r
    · rfl
    · simp only [hx.add, hx.mul, hx.div, hx.sub]; ring

theorem npInterp_comb {rt : Rt K} (hx : rt.Exact) (a k x : K) (p : K × K × K) (l : List (K × K × K)) :
    ∃ v w, npInterp rt none none x ((p :: l).map fun r => (r.1, r.2.1)) = .ok v ∧
      npInterp rt none none x ((p :: l).map fun r => (r.1, r.2.2)) = .ok w ∧
      npInterp rt none none x ((p :: l).map fun r => (r.1, a * r.2.1 + k * r.2.2)) = .ok (a * v + k * w) := by
  have hl1 := List.getLast_map (f := fun r : K × K × K => (r.1, r.2.1)) (l := p :: l) (by simp)
  have hl2 := List.getLast_map (f := fun r : K × K × K => (r.1, r.2.2)) (l := p :: l) (by simp)
  have hl3 := List.getLast_map (f := fun r : K × K × K => (r.1, a * r.2.1 + k * r.2.2)) (l := p :: l) (by simp)
  simp only [List.map_cons] at hl1 hl2 hl3
  simp only [List.map_cons, npInterp, hl1, hl2, hl3]
  by_cases h1 : x < p.1
  · simp only [h1, if_true]
    exact ⟨_, _, rfl, rfl, rfl⟩
  · simp only [h1, if_false]
    by_cases h2 : ((p :: l).getLast (by simp)).1 < x
    · simp only [h2, if_true]
      exact ⟨_, _, rfl, rfl, rfl⟩
    · simp only [h2, if_false]
      exact ⟨_, _, rfl, rfl, by rw [interpGo_comb hx]⟩

theorem interpVal_comb {rt : Rt K} (hx : rt.Exact) (a k x : K) (c : LComp) {rs : List (LRow K × LRow K)}
    (hpos : ∀ r ∈ rs, r.1.pos = r.2.pos) (hne : rs ≠ []) :
    interpVal rt (rs.map fun r => combine a k r.1 r.2) c x
      = a * interpVal rt (rs.map (·.1)) c x + k * interpVal rt (rs.map (·.2)) c x := by
  obtain ⟨r0, rt0, rfl⟩ := List.exists_cons_of_ne_nil hne
  obtain ⟨v, w, h1, h2, h3⟩ := npInterp_comb hx a k x (r0.1.pos, r0.1.get c, r0.2.get c)
    (rt0.map fun r => (r.1.pos, r.1.get c, r.2.get c))
  have e1 : ((r0.1.pos, r0.1.get c, r0.2.get c) :: rt0.map fun r => (r.1.pos, r.1.get c, r.2.get c))
      = (r0 :: rt0).map fun r => (r.1.pos, r.1.get c, r.2.get c) := rfl
  rw [e1, List.map_map] at h1 h2 h3
  have f1 : (((r0 :: rt0).map (·.1)).map fun r => (r.pos, r.get c))
      = (r0 :: rt0).map ((fun r : K × K × K => (r.1, r.2.1)) ∘ fun r => (r.1.pos, r.1.get c, r.2.get c)) := by
    rw [List.map_map]; rfl
  have f2 : (((r0 :: rt0).map (·.2)).map fun r => (r.pos, r.get c))
      = (r0 :: rt0).map ((fun r : K × K × K => (r.1, r.2.2)) ∘ fun r => (r.1.pos, r.1.get c, r.2.get c)) := by
    rw [List.map_map]
    apply List.map_congr_left
    intro r hr
    simp only [Function.comp, hpos r hr]
  have f3 : (((r0 :: rt0).map fun r => combine a k r.1 r.2).map fun r => (r.pos, r.get c))
      = (r0 :: rt0).map ((fun r : K × K × K => (r.1, a * r.2.1 + k * r.2.2)) ∘
          fun r => (r.1.pos, r.1.get c, r.2.get c)) := by
    rw [List.map_map]
    apply List.map_congr_left
    intro r _
    simp only [Function.comp, combine_get]
    rfl
  simp only [interpVal, f1, f2, f3, h1, h2, h3]

theorem block_comb {rt : Rt K} (hx : rt.Exact) (a k x : K) (cs : List LComp) {rs : List (LRow K × LRow K)}
    (hpos : ∀ r ∈ rs, r.1.pos = r.2.pos) (hne : rs ≠ []) :
    block rt (rs.map fun r => combine a k r.1 r.2) cs x
      = combineAnswers a k (block rt (rs.map (·.1)) cs x) (block rt (rs.map (·.2)) cs x) ∧
    (block rt (rs.map (·.1)) cs x).map (·.1) = (block rt (rs.map (·.2)) cs x).map (·.1) := by
  have hp3 : (rs.map fun r => combine a k r.1 r.2).map (fun r => r.pos) = (rs.map (·.1)).map fun r => r.pos := by
    rw [List.map_map, List.map_map]; rfl
  have hp2 : (rs.map (·.2)).map (fun r => r.pos) = (rs.map (·.1)).map fun r => r.pos := by
    rw [List.map_map, List.map_map]
    apply List.map_congr_left
    intro r hr
    exact (hpos r hr).symm
  unfold block
  rw [hp3, hp2]
  split_ifs
  · simp only [List.filter_map, List.map_map]
    have hf : rs.filter ((fun r : LRow K => decide (r.pos = x)) ∘ fun r => r.2)
        = rs.filter ((fun r : LRow K => decide (r.pos = x)) ∘ fun r => r.1) := by
      apply List.filter_congr
      intro r hr
      simp only [Function.comp, hpos r hr]
    rw [hf]
    constructor
    · unfold combineAnswers
      rw [List.zipWith_map]
      have : ∀ l : List (LRow K × LRow K), l.map ((fun r : LRow K => ((r.pos, cs.map r.get) : Row K)) ∘
            fun r => combine a k r.1 r.2)
          = List.zipWith (fun (r s : LRow K × LRow K) =>
              ((r.1.pos, List.zipWith (fun x y => a * x + k * y) (cs.map r.1.get) (cs.map s.2.get)) : Row K)) l l := by
        intro l
        rw [List.zipWith_self]
        apply List.map_congr_left
        intro r _
        simp only [Function.comp, combine_get]
        rw [List.zipWith_map, List.zipWith_self]
        exact Prod.ext rfl (List.map_congr_left fun c _ => combine_get a k r.1 r.2 c)
      exact this _
    · apply List.map_congr_left
      intro r hr
      simp only [Function.comp]
      exact hpos r (List.mem_of_mem_filter hr)
  · simp only [combineAnswers, List.zipWith_cons_cons, List.zipWith_nil_left, List.map_cons, List.map_nil, and_true]
    rw [List.zipWith_map, List.zipWith_self]
    congr 2
    apply List.map_congr_left
    intro c _
    exact interpVal_comb hx a k x c hpos hne

theorem combineAnswers_append (a k : K) {x x' y y' : List (Row K)} (h : x.length = y.length) :
    combineAnswers a k (x ++ x') (y ++ y') = combineAnswers a k x y ++ combineAnswers a k x' y' := by
  unfold combineAnswers
  exact List.zipWith_append h

theorem combineAnswers_flatten (a k : K) : ∀ {bl₁ bl₂ : List (List (Row K))},
    List.Forall₂ (fun x y => x.length = y.length) bl₁ bl₂ →
    (List.zipWith (combineAnswers a k) bl₁ bl₂).flatten = combineAnswers a k bl₁.flatten bl₂.flatten
  | _, _, .nil => rfl
  | _, _, .cons h hs => by
    simp only [List.zipWith_cons_cons, List.flatten_cons]
    rw [combineAnswers_flatten a k hs, combineAnswers_append a k h]

theorem comb_wf {a k : K} {rs : List (LRow K × LRow K)} (hpos : ∀ r ∈ rs, r.1.pos = r.2.pos)
    (h : WellFormed (rs.map (·.1))) :
    WellFormed (rs.map (·.2)) ∧ WellFormed (rs.map fun r => combine a k r.1 r.2) := by
  refine ⟨⟨?_, ?_⟩, ⟨?_, ?_⟩⟩
  · have := h.1
    rw [List.pairwise_map] at this ⊢
    exact this.imp_of_mem (fun {x y} hx hy hxy => by rw [← hpos x hx, ← hpos y hy]; exact hxy)
  · intro r hr
    obtain ⟨q, hq, rfl⟩ := List.mem_map.1 hr
    rw [← hpos q hq]
    exact h.2 _ (List.mem_map.2 ⟨q, hq, rfl⟩)
  · have := h.1
    rw [List.pairwise_map] at this ⊢
    exact this
  · intro r hr
    obtain ⟨q, hq, rfl⟩ := List.mem_map.1 hr
    exact h.2 q.1 (List.mem_map.2 ⟨q, hq, rfl⟩)

/-! ## C65 -/

/-- C65, one load case: if the table of a load case is `a` times one table plus `k` times another with the same
positions, every answer of `get_load` is `a` times the one answer plus `k` times the other, row by row. -/
theorem C65_load_case {rt : Rt K} (hx : rt.Exact) (hs : rt.SortOK) (a k : K) (rs : List (LRow K × LRow K))
    (hpos : ∀ r ∈ rs, r.1.pos = r.2.pos) (hwf : WellFormed (rs.map (·.1))) (hne : rs ≠ []) (b₁ b₂ b₃ : Bool)
    (position : PosArg K) (xs : List K) (hreq : Requested position xs) (hxs : xs ≠ []) (component : CompArg)
    (cs : List LComp) (hc : Asks component cs) (hcs : cs ≠ []) :
    ∃ out₁ out₂ d₁ d₂ d₃,
      (⟨some ⟨b₁, rs.map (·.1)⟩⟩ : LoadCase K).getLoad rt position none component
        = .ok (some ⟨d₁, cs.length, cells out₁⟩) ∧
      (⟨some ⟨b₂, rs.map (·.2)⟩⟩ : LoadCase K).getLoad rt position none component
        = .ok (some ⟨d₂, cs.length, cells out₂⟩) ∧
      (⟨some ⟨b₃, rs.map fun r => combine a k r.1 r.2⟩⟩ : LoadCase K).getLoad rt position none component
        = .ok (some ⟨d₃, cs.length, cells (combineAnswers a k out₁ out₂)⟩) ∧
      out₁.map (·.1) = out₂.map (·.1) := by
  rw [asks_iff] at hc
  obtain ⟨hwf2, hwf3⟩ := comb_wf (a := a) (k := k) hpos hwf
  have key : ∀ (b : Bool) (rows : List (LRow K)), WellFormed rows → rows ≠ [] → ∃ ps : List (Num K),
      ps.map (·.val) = ((requested_listPositions rt (⟨some ⟨b₁, rs.map (·.1)⟩⟩ : LoadCase K) hreq).choose).map (·.val) ∧
      (⟨some ⟨b, rows⟩⟩ : LoadCase K).getLoad rt position none component
      = .ok (some ⟨answerDType b (rows.map (·.pos)) (ps.map (·.val)), cs.length,
          cells ((ps.map (·.val)).flatMap (block rt rows cs))⟩) := by
    intro b rows hw hn
    obtain ⟨hl0, hd0⟩ := (requested_listPositions rt (⟨some ⟨b₁, rs.map (·.1)⟩⟩ : LoadCase K) hreq).choose_spec
    generalize (requested_listPositions rt (⟨some ⟨b₁, rs.map (·.1)⟩⟩ : LoadCase K) hreq).choose = ps0 at *
    obtain ⟨ps, hl, hd⟩ := requested_listPositions rt (⟨some ⟨b, rows⟩⟩ : LoadCase K) hreq
    have hps0 : ps ≠ [] := by
      rintro rfl
      obtain ⟨x, hx⟩ := List.exists_mem_of_ne_nil xs hxs
      have := (hd.2 x).2 hx
      simp at this
    refine ⟨ps, ?_, getLoad_eq hs hw hn hl hd.1 hps0 hc hcs⟩
    have : (⟨some ⟨b, rows⟩⟩ : LoadCase K).listPositions rt none position
        = (⟨some ⟨b₁, rs.map (·.1)⟩⟩ : LoadCase K).listPositions rt none position := by
      rcases hreq with ⟨x, rfl, rfl⟩ | ⟨l, rfl, rfl⟩ <;> rfl
    rw [hl, hl0] at this
    cases this
    rfl
  obtain ⟨ps1, e1, g1⟩ := key b₁ _ hwf (by simpa using hne)
  obtain ⟨ps2, e2, g2⟩ := key b₂ _ hwf2 (by simpa using hne)
  obtain ⟨ps3, e3, g3⟩ := key b₃ _ hwf3 (by simpa using hne)
  rw [← e1] at e2 e3
  rw [e2] at g2
  rw [e3] at g3
  refine ⟨_, _, _, _, answerDType b₃ ((rs.map fun r => combine a k r.1 r.2).map (·.pos)) (ps1.map (·.val)), g1, g2,
    ?_, ?_⟩
  · rw [g3]
    congr 4
    generalize ps1.map (·.val) = ps
    induction ps with
    | nil => rfl
    | cons p ps ih =>
      have hb := block_comb hx a k p cs hpos hne
      simp only [List.flatMap_cons]
      rw [ih, hb.1, combineAnswers_append]
      have := congrArg List.length hb.2
      simpa using this
  · generalize ps1.map (·.val) = ps
    induction ps with
    | nil => rfl
    | cons p ps ih =>
      simp only [List.flatMap_cons, List.map_append]
      rw [ih, (block_comb hx a k p cs hpos hne).2]

section
variable {S : Type} {rt : Rt K}

/-- load cases with the same positions are listed alike -/
theorem listPositions_case {b : Beam K S} {c c' : ℤ}
    (h : ∀ e ∈ b.elements, e.loadPositions c = e.loadPositions c') (position : PosArg K) (n : Option ℤ) :
    b.listPositions rt position n (some c) = b.listPositions rt position n (some c') := by
  have h10 : b.positionList rt position n (some c) = b.positionList rt position n (some c') := by
    unfold Beam.positionList
    have hz : (b.elements.zipIdx).mapM (fun ei => b.realPositions rt (some c) ei.2 ei.1) =
        (b.elements.zipIdx).mapM fun ei => b.realPositions rt (some c') ei.2 ei.1 := by
      refine mapM_congr' _ ?_
      rintro ⟨e, i⟩ hx
      simp only [Beam.realPositions, h e (List.fst_mem_of_mem_zipIdx hx)]
    simp only [hz]
  have h11 : ∀ p i, b.locate rt (some c) p i = b.locate rt (some c') p i := by
    intro p i
    unfold Beam.locate
    simp only [bind, Except.bind]
    rcases hp : pyIndex b.elements (i : ℤ) with e | e
    · rfl
    · obtain ⟨j, hj, -⟩ := (pyIndex_ok_iff _ _ _).1 hp
      simp only [h e (List.mem_of_getElem? hj)]
  unfold Beam.listPositions
  simp only [h10, h11]

variable [FloorRing K]

/-- C65, whole beams: if on every element load case `c₃` is `a` times `c₁` plus `k` times `c₂`, then for every request
(explicit positions or `min_positions`, any components) the three load cases are answered at the same rows and
the answer for `c₃` is `a` times the answer for `c₁` plus `k` times the answer for `c₂`.  A request that lists no
position or raises, does so for all three. -/
theorem C65_beam (hx : rt.Exact) (hs : rt.SortOK) (b : Beam K S) (c₁ c₂ c₃ : ℤ) (a k : K)
    (hb : IsCombination b c₁ c₂ c₃ a k) (position : PosArg K) (n : Option ℤ) (component : CompArg)
    (cs : List LComp) (hc : Asks component cs) (hcs : cs ≠ []) :
    (∃ out₁ out₂, out₁.map (·.1) = out₂.map (·.1) ∧
      b.getLoads rt c₁ position n component = .ok (some ⟨.flt, cs.length, cells out₁⟩) ∧
      b.getLoads rt c₂ position n component = .ok (some ⟨.flt, cs.length, cells out₂⟩) ∧
      b.getLoads rt c₃ position n component = .ok (some ⟨.flt, cs.length, cells (combineAnswers a k out₁ out₂)⟩)) ∨
    (∃ r, (r = .ok none ∨ ∃ e, r = .error e) ∧ b.getLoads rt c₁ position n component = r ∧
      b.getLoads rt c₂ position n component = r ∧ b.getLoads rt c₃ position n component = r) := by
  rw [asks_iff] at hc
  have hlp : ∀ e ∈ b.elements, e.loadPositions c₁ = e.loadPositions c₂ ∧ e.loadPositions c₁ = e.loadPositions c₃ := by
    intro e he
    obtain ⟨i, hi, rfl⟩ := List.getElem_of_mem he
    obtain ⟨rs, hpos, ⟨e1, he1, hl1, -⟩, ⟨e2, he2, hl2, -⟩, ⟨e3, he3, hl3, -⟩⟩ := hb i hi
    rw [List.getElem?_eq_getElem hi, Option.some.injEq] at he1 he2 he3
    subst he1
    rw [← he2] at hl2
    rw [← he3] at hl3
    simp only [Element.loadPositions, Element.case, hl1, hl2, hl3, LoadCase.loadPositions, bind, Except.bind,
      List.map_map]
    constructor
    · congr 1
      apply List.map_congr_left
      intro r hr
      simp only [Function.comp, hpos r hr]
    · rfl
  have hL2 := listPositions_case (rt := rt) (b := b) (fun e he => (hlp e he).1) position n
  have hL3 := listPositions_case (rt := rt) (b := b) (fun e he => (hlp e he).2) position n
  cases hL : b.listPositions rt position n (some c₁) with
  | error e =>
    right
    refine ⟨.error e, Or.inr ⟨e, rfl⟩, ?_⟩
    rw [hL] at hL2 hL3
    simp only [Beam.getLoads, hL, ← hL2, ← hL3, bind, Except.bind, and_self]
  | ok locs =>
    rw [hL] at hL2 hL3
    by_cases hne : locs = []
    · subst hne
      right
      refine ⟨.ok none, Or.inl rfl, ?_⟩
      simp only [Beam.getLoads, hL, ← hL2, ← hL3, bind, Except.bind]
      exact ⟨rfl, rfl, rfl⟩
    · left
      have hf1 : LoadedFloat b c₁ := fun i hi => by
        obtain ⟨rs, -, h1, -, -⟩ := hb i hi
        exact ⟨_, h1, rfl⟩
      have hf2 : LoadedFloat b c₂ := fun i hi => by
        obtain ⟨rs, -, -, h2, -⟩ := hb i hi
        exact ⟨_, h2, rfl⟩
      have hf3 : LoadedFloat b c₃ := fun i hi => by
        obtain ⟨rs, -, -, -, h3⟩ := hb i hi
        exact ⟨_, h3, rfl⟩
      obtain ⟨bl1, B1, G1⟩ := getLoads_eq hs hf1 hc hcs hne hL
      obtain ⟨bl2, B2, G2⟩ := getLoads_eq hs hf2 hc hcs hne hL2.symm
      obtain ⟨bl3, B3, G3⟩ := getLoads_eq hs hf3 hc hcs hne hL3.symm
      have key : ∀ (locs : List (Loc K)) (bl1 bl2 bl3 : List (List (Row K))),
          List.Forall₂ (StepRows rt b c₁ component cs) locs bl1 →
          List.Forall₂ (StepRows rt b c₂ component cs) locs bl2 →
          List.Forall₂ (StepRows rt b c₃ component cs) locs bl3 →
          bl1.flatten.map (·.1) = bl2.flatten.map (·.1) ∧
          bl3.flatten = combineAnswers a k bl1.flatten bl2.flatten := by
        intro locs
        induction locs with
        | nil => intro _ _ _ h1 h2 h3; cases h1; cases h2; cases h3; exact ⟨rfl, rfl⟩
        | cons l locs ih =>
          intro bl1 bl2 bl3 h1 h2 h3
          cases h1 with
          | @cons _ x1 _ xs1 h1 t1 =>
          cases h2 with
          | @cons _ x2 _ xs2 h2 t2 =>
          cases h3 with
          | @cons _ x3 _ xs3 h3 t3 =>
          obtain ⟨u1, e1, U1, E1, rfl, -⟩ := h1
          obtain ⟨u2, e2, U2, E2, rfl, -⟩ := h2
          obtain ⟨u3, e3, U3, E3, rfl, -⟩ := h3
          have hi : l.elem < b.elements.length := by
            by_contra hcon
            rw [List.getElem?_eq_none (not_lt.1 hcon)] at E1
            cases E1
          obtain ⟨rs, hpos, T1, T2, T3⟩ := hb l.elem hi
          obtain rfl := hasTable_unique T1 U1
          obtain rfl := hasTable_unique T2 U2
          obtain rfl := hasTable_unique T3 U3
          have hrs : rs ≠ [] := by
            have := T1.choose_spec.2.2.2
            simpa using this
          have hbc := block_comb hx a k l.loc.val cs hpos hrs
          have hlen : (block rt (rs.map (·.1)) cs l.loc.val).length
              = (block rt (rs.map (·.2)) cs l.loc.val).length := by
            simpa using congrArg List.length hbc.2
          obtain ⟨i1, i2⟩ := ih _ _ _ t1 t2 t3
          constructor
          · simp only [List.flatten_cons, List.map_append, i1, List.map_map]
            congr 1
            have : ∀ l' : List (Row K), l'.map ((fun r : Row K => r.1) ∘ fun r => ((l.pos.val, r.2) : Row K))
                = List.replicate l'.length l.pos.val := by
              intro l'
              rw [← List.map_const']
              rfl
            rw [this, this, hlen]
          · simp only [List.flatten_cons]
            rw [combineAnswers_append a k (by simpa using hlen), ← i2]
            congr 1
            rw [hbc.1]
            unfold combineAnswers
            rw [List.map_zipWith, List.zipWith_map]
      obtain ⟨k1, k2⟩ := key locs bl1 bl2 bl3 B1 B2 B3
      exact ⟨_, _, k1, G1, G2, by rw [G3, k2]⟩

end

end

/-! ## Examples -/

namespace Samples

/-- pairs of rows of two load cases with the same positions -/
def pairs : List (LRow ℚ × LRow ℚ) :=
  [(⟨0, 1, 2, 3, 4, 5, 6⟩, ⟨0, 0, 0, 10, 0, 0, 0⟩), (⟨1/2, 1, 2, 3, 4, 5, 6⟩, ⟨1/2, 0, 0, -2, 0, 0, 0⟩),
    (⟨1/2, 1, 2, 4, 4, 5, 6⟩, ⟨1/2, 0, 0, -2, 0, 7, 0⟩), (⟨1, 1, 2, -10, 4, 5, 6⟩, ⟨1, 0, 0, 0, 0, 0, 0⟩)]

/-- an element with two load cases and their combination 1.2 times the first plus 1.5 times the second -/
def combElem (l : ℚ) : Element ℚ String :=
  ⟨[(1, ⟨some ⟨false, pairs.map (·.1)⟩⟩), (2, ⟨some ⟨false, pairs.map (·.2)⟩⟩),
    (3, ⟨some ⟨false, pairs.map fun r => combine (6/5) (3/2) r.1 r.2⟩⟩)], some (Num.flt l), "A"⟩

/-- two such elements -/
def combBeam : Beam ℚ String := ⟨[combElem 2, combElem 3]⟩

theorem combBeam_isCombination : IsCombination combBeam 1 2 3 (6/5) (3/2) := by
  have h : ∀ (b : Beam ℚ String) (i : ℕ) (l : ℚ), b.elements[i]? = some (combElem l) →
      ∃ rs : List (LRow ℚ × LRow ℚ), (∀ r ∈ rs, r.1.pos = r.2.pos) ∧
        HasTable b 1 i ⟨false, rs.map (·.1)⟩ ∧ HasTable b 2 i ⟨false, rs.map (·.2)⟩ ∧
        HasTable b 3 i ⟨false, rs.map fun r => combine (6/5) (3/2) r.1 r.2⟩ := by
    intro b i l hi
    have hw : WellFormed (pairs.map (·.1)) := by unfold WellFormed; decide +kernel
    have hp : ∀ r ∈ pairs, r.1.pos = r.2.pos := by decide +kernel
    obtain ⟨h2, h3⟩ := comb_wf (a := 6/5) (k := 3/2) hp hw
    exact ⟨pairs, hp, ⟨_, hi, rfl, hw, by simp [pairs]⟩, ⟨_, hi, rfl, h2, by simp [pairs]⟩,
      ⟨_, hi, rfl, h3, by simp [pairs]⟩⟩
  intro i hi
  have : i = 0 ∨ i = 1 := by
    have : combBeam.elements.length = 2 := rfl
    omega
  rcases this with rfl | rfl
  · exact h _ _ 2 rfl
  · exact h _ _ 3 rfl

end Samples

example : ∃ out₁ out₂ d₁ d₂ d₃,
    (⟨some ⟨false, Samples.pairs.map (·.1)⟩⟩ : LoadCase ℚ).getLoad (Rt.exact ℚ) (.scalar (Num.flt (1/4))) none (.name "N")
      = .ok (some ⟨d₁, 1, cells out₁⟩) ∧
    (⟨some ⟨false, Samples.pairs.map (·.2)⟩⟩ : LoadCase ℚ).getLoad (Rt.exact ℚ) (.scalar (Num.flt (1/4))) none (.name "N")
      = .ok (some ⟨d₂, 1, cells out₂⟩) ∧
    (⟨some ⟨false, Samples.pairs.map fun r => combine 2 3 r.1 r.2⟩⟩ : LoadCase ℚ).getLoad (Rt.exact ℚ)
      (.scalar (Num.flt (1/4))) none (.name "N") = .ok (some ⟨d₃, 1, cells (combineAnswers 2 3 out₁ out₂)⟩) ∧
    out₁.map (·.1) = out₂.map (·.1) :=
  C65_load_case (Rt.exact_exact ℚ) (Rt.exact_sortOK ℚ) 2 3 Samples.pairs (by decide +kernel)
    (by unfold WellFormed; decide +kernel) (by simp [Samples.pairs]) false false false _ [1/4]
    (Or.inl ⟨_, rfl, rfl⟩) (by simp) _ [.N] ⟨_, rfl, by simp⟩ (by simp)

/-- the rows really are combined: 1.2 · 3 + 1.5 · 4 at 0.5 on the first element -/
example : (Samples.combBeam.getLoads (Rt.exact ℚ) 3 (.scalar (Num.flt (1/2))) none (.name "N")
      = .ok (some ⟨.flt, 1, [(1/2, [some (48/5)])]⟩)) ∧
    IsCombination Samples.combBeam 1 2 3 (6/5) (3/2) :=
  ⟨by decide +kernel, Samples.combBeam_isCombination⟩

end BeamDesign
