import Verif.Spec.Special
import Verif.Lemmas.BeamList

/-! # Lemmas about loads that are not finite -/

set_option linter.unusedSectionVars false
set_option linter.unusedSimpArgs false

namespace BeamDesign

open Spec

/-! ## Computations with related results -/

/-- both raise the same exception, or return related results -/
def PRel {α β : Type} (S : α → β → Prop) : Py α → Py β → Prop
  | .ok a, .ok b => S a b
  | .error e, .error e' => e = e'
  | _, _ => False

theorem PRel.eq {α : Type} {x y : Py α} (h : PRel (· = ·) x y) : x = y := by
  cases x <;> cases y <;> simp_all [PRel]

theorem PRel.bind {α β γ δ : Type} {S : α → β → Prop} {T : γ → δ → Prop} {x : Py α} {y : Py β} {f : α → Py γ} {g : β → Py δ}
    (h : PRel S x y) (hf : ∀ a b, S a b → PRel T (f a) (g b)) : PRel T (x >>= f) (y >>= g) := by
  cases x <;> cases y <;> simp_all [PRel, Bind.bind, Except.bind]

theorem PRel.mapM {α β γ δ : Type} {R : α → β → Prop} {S : γ → δ → Prop} {f : α → Py γ} {g : β → Py δ}
    (hf : ∀ a b, R a b → PRel S (f a) (g b)) {l : List α} {l' : List β} (h : List.Forall₂ R l l') :
    PRel (List.Forall₂ S) (l.mapM f) (l'.mapM g) := by
  induction h with
  | nil => exact List.Forall₂.nil
  | cons h1 _ ih =>
    rw [List.mapM_cons, List.mapM_cons]
    exact (hf _ _ h1).bind fun a b hab => ih.bind fun as bs habs => List.Forall₂.cons hab habs

theorem PRel.refl {α : Type} (x : Py α) : PRel (· = ·) x x := by cases x <;> rfl

/-! ## Agreement with the model of finite loads -/

section
variable {K : Type} [LinearOrder K] [Field K]

theorem valInterpGo_fin {rt : Rt K} (x : K) (l : List (K × K)) : ∀ p : K × K, p.1 ≤ x →
    (∀ a ∈ p :: l, ∀ b ∈ p :: l, rt.sub a.1 b.1 = 0 → a.1 = b.1) →
    valInterpGo rt retry x (p.1, .fin p.2) (l.map fun q => (q.1, .fin q.2)) = .fin (interpGo rt x p l) := by
  induction l with
  | nil => intro p _ _; rfl
  | cons q l ih =>
    intro p hp hsub
    simp only [List.map_cons, valInterpGo, interpGo]
    split_ifs with h1 h2
    · exact ih q h1 fun a ha b hb => hsub a (List.mem_cons_of_mem _ ha) b (List.mem_cons_of_mem _ hb)
    · rfl
    · have : rt.sub q.1 p.1 ≠ 0 := fun h0 => h1 (by rw [hsub q (by simp) p (by simp) h0]; exact hp)
      simp only [valLine, Val.sub, Val.div, this, if_false, Val.mul, Val.add, reduceCtorEq, and_false]

theorem valInterp_fin {rt : Rt K} (x : K) (l : List (K × K)) (hsub : ∀ a ∈ l, ∀ b ∈ l, rt.sub a.1 b.1 = 0 → a.1 = b.1) :
    PRel (fun v w => v = Val.fin w) (valInterp rt retry x (l.map fun q => (q.1, .fin q.2))) (npInterp rt none none x l) := by
  cases l with
  | nil => rfl
  | cons p l =>
    have hl := List.getLast_map (f := fun q : K × K => (q.1, Val.fin q.2)) (l := p :: l) (by simp)
    simp only [List.map_cons] at hl
    simp only [List.map_cons, valInterp, npInterp, hl]
    by_cases h1 : x < p.1
    · simp only [h1, if_true]; rfl
    · simp only [h1, if_false]
      by_cases h2 : ((p :: l).getLast (by simp)).1 < x
      · simp only [h2, if_true]; rfl
      · simp only [h2, if_false]
        exact valInterpGo_fin x l p (not_lt.1 h1) hsub

/-- the second column of an array with two columns -/
def Col (v : Option (Val K)) (r : K × List (Option K)) : Prop := ∃ o : Option K, r.2 = [o] ∧ v = o.map Val.fin

theorem getLoad_axial {rt : Rt K} (lc : LoadCase K) (p : Num K) (hsub : ∀ t, lc.loads = some t → Separate rt t.rows) :
    PRel (fun vs t => ∃ tab : Tab K, t = some tab ∧ tab.width = 1 ∧ List.Forall₂ Col vs tab.rows)
      (lc.axial rt retry Val.fin p) (lc.getLoad rt (.scalar p) none (.name "N")) := by
  have hN : LComp.ofName "N" = .ok LComp.N := rfl
  unfold LoadCase.axial LoadCase.getLoad LoadCase.listPositions
  cases hp : p.isInt
  · simp only [hp, sortedSet_singleton, bind, Except.bind, Bool.false_eq_true, if_false, List.map_cons, List.map_nil]
    cases hl : lc.loads with
    | none => exact ⟨_, rfl, rfl, List.Forall₂.cons ⟨none, rfl, rfl⟩ .nil⟩
    | some t =>
      simp only [CompArg.resolve, hN, bind, Except.bind, pure, Except.pure]
      by_cases hm : p.val ∈ t.rows.map (·.pos)
      · simp only [hm, if_true]
        have hf1 : [p.val].filter (fun q => decide (q ∈ t.rows.map (·.pos))) = [p.val] := by
          rw [List.filter_cons_of_pos (by exact decide_eq_true hm), List.filter_nil]
        have hf2 : [p.val].filter (fun q => decide (q ∉ t.rows.map (·.pos))) = [] := by
          rw [List.filter_cons_of_neg (by simpa using hm), List.filter_nil]
        rw [hf1, hf2]
        by_cases hq : [p.val] = (sortedSet ((t.rows.map (·.pos)).map Num.flt)).map (·.val)
        · simp only [← hq, if_true]
          refine ⟨_, rfl, rfl, ?_⟩
          have hall : ∀ r ∈ t.rows, r.pos = p.val := by
            intro r hr
            have h1 : r.pos ∈ (sortedSet ((t.rows.map (·.pos)).map Num.flt)).map (·.val) := by
              have := (sortedSet_vals ((t.rows.map (·.pos)).map Num.flt) r.pos).2
                (by simpa [Num.flt] using ⟨r, hr, rfl⟩)
              exact this
            rw [← hq] at h1
            simpa using h1
          rw [List.filter_eq_self.2 (by simpa using hall)]
          simp only [cells, List.map_map, List.forall₂_map_left_iff, List.forall₂_map_right_iff, List.forall₂_same]
          intro r _
          exact ⟨some r.n, rfl, rfl⟩
        · rw [if_neg hq, if_pos rfl, if_neg (by simp)]
          refine ⟨_, rfl, rfl, ?_⟩
          simp only [List.mem_singleton, cells, List.map_map, List.forall₂_map_left_iff, List.forall₂_map_right_iff,
            List.forall₂_same]
          intro r _
          exact ⟨some r.n, rfl, rfl⟩
      · simp only [hm, if_false]
        have hf1 : [p.val].filter (fun q => decide (q ∈ t.rows.map (·.pos))) = [] := by
          rw [List.filter_cons_of_neg (by simpa using hm), List.filter_nil]
        have hf2 : [p.val].filter (fun q => decide (q ∉ t.rows.map (·.pos))) = [p.val] := by
          rw [List.filter_cons_of_pos (by exact decide_eq_true hm), List.filter_nil]
        rw [hf1, hf2]
        have hq : ¬ [p.val] = (sortedSet ((t.rows.map (·.pos)).map Num.flt)).map (·.val) := by
          intro hq
          apply hm
          have h1 : p.val ∈ (sortedSet ((t.rows.map (·.pos)).map Num.flt)).map (·.val) := by rw [← hq]; simp
          have := (sortedSet_vals ((t.rows.map (·.pos)).map Num.flt) p.val).1 h1
          simpa [Num.flt] using this
        rw [if_neg hq, if_neg (by simp)]
        have hz : (t.rows.map (·.pos)).zip (t.rows.map fun r => r.get LComp.N) = t.rows.map fun r => (r.pos, r.n) := by
          rw [List.zip_map']
          rfl
        have hv := valInterp_fin (retry := retry) p.val (t.rows.map fun r => (r.pos, r.n)) (by
          intro a ha b hb
          obtain ⟨r, hr, rfl⟩ := List.mem_map.1 ha
          obtain ⟨q, hq, rfl⟩ := List.mem_map.1 hb
          exact hsub t hl r hr q hq)
        rw [List.map_map] at hv
        simp only [multiInterp, List.map_cons, List.map_nil, if_false, List.mapM_cons, List.mapM_nil, hz, bind, Except.bind,
          pure, Except.pure, reduceCtorEq]
        simp only [Function.comp_def] at hv
        revert hv
        cases valInterp rt retry p.val (t.rows.map fun r => (r.pos, Val.fin r.n)) <;>
          cases npInterp rt none none p.val (t.rows.map fun r => (r.pos, r.n)) <;> simp only [PRel, imp_self, false_implies]
        · intro hv
          subst hv
          simp only [if_true]
          exact ⟨_, rfl, rfl, List.Forall₂.cons ⟨some _, rfl, rfl⟩ .nil⟩
  · simp only [hp, if_true, bind, Except.bind]
    rfl

variable [FloorRing K] {S : Type}

theorem setPos_col {vs : List (Option (Val K))} {tab : Tab K} (h : List.Forall₂ Col vs tab.rows) (p : K) :
    List.Forall₂ Col vs (tab.setPos p).rows := by
  unfold Tab.setPos
  simp only [List.forall₂_map_right_iff]
  exact h.imp fun v r h => h

theorem step_axial {rt : Rt K} (b : Beam K S) (hsub : SeparateIn rt b) (c : ℤ) (l : Loc K) :
    PRel (fun vs t => ∃ tab : Tab K, t = some tab ∧ tab.width = 1 ∧ List.Forall₂ Col vs tab.rows)
      (b.axialOf rt retry Val.fin c l) (b.loadStep rt c (.name "N") none l) := by
  unfold Beam.axialOf Beam.loadStep
  refine PRel.bind (S := fun a a' => a = a' ∧ a ∈ b.elements) (by
    cases h : pyIndex b.elements (l.elem : ℤ) with
    | error => rfl
    | ok e =>
      obtain ⟨m, hm, -⟩ := (pyIndex_ok_iff _ _ _).1 h
      exact ⟨rfl, List.mem_of_getElem? hm⟩) fun e e' he => ?_
  obtain ⟨rfl, he⟩ := he
  unfold Element.getLoads
  have h : PRel (fun vs t => ∃ tab : Tab K, t = some tab ∧ tab.width = 1 ∧ List.Forall₂ Col vs tab.rows)
      (do let lc ← e.case c; lc.axial rt retry Val.fin l.loc) (do let lc ← e.case c; lc.getLoad rt (.scalar l.loc) none (.name "N")) :=
    PRel.bind (S := fun a b => a = b ∧ e.case c = .ok a) (by cases h : e.case c <;> simp [PRel]) fun lc lc' hl => by
      obtain ⟨rfl, hl⟩ := hl
      refine getLoad_axial lc l.loc fun t ht => ?_
      unfold Element.case at hl
      split at hl
      · cases hl
        rename_i hlk
        exact hsub e he c t (by rw [hlk, ← ht])
      · cases hl
  revert h
  generalize (do let lc ← e.case c; lc.axial rt retry Val.fin l.loc) = x
  generalize (do let lc ← e.case c; lc.getLoad rt (.scalar l.loc) none (.name "N")) = y
  intro h
  cases x <;> cases y <;> simp only [PRel] at h
  · subst h; rfl
  · obtain ⟨tab, rfl, hw, hr⟩ := h
    exact ⟨_, rfl, hw, setPos_col hr _⟩

theorem step_more (rt : Rt K) (b : Beam K S) (c : ℤ) (l : Loc K) (acc : Tab K) (hacc : acc.width = 1)
    (hw : ∀ t, b.loadStep rt c (.name "N") none l = .ok t → ∃ tab, t = some tab ∧ tab.width = 1) :
    b.loadStep rt c (.name "N") (some acc) l = (b.loadStep rt c (.name "N") none l).map
      fun t => t.map fun tab => ⟨acc.dt.join tab.dt, 1, acc.rows ++ tab.rows⟩ := by
  unfold Beam.loadStep at hw ⊢
  cases he : pyIndex b.elements (l.elem : ℤ) with
  | error => rfl
  | ok e =>
    simp only [he, bind, Except.bind] at hw ⊢
    cases hg : e.getLoads rt c (.scalar l.loc) none (.name "N") with
    | error => rfl
    | ok v =>
      cases v with
      | none => rfl
      | some t =>
        simp only [hg] at hw ⊢
        obtain ⟨tab, ht, htw⟩ := hw _ rfl
        cases ht
        simp only [Tab.vstack, hacc, htw, if_true, pure, Except.pure, Except.map]
        rfl

theorem fold_axial {rt : Rt K} (b : Beam K S) (hsub : SeparateIn rt b) (c : ℤ) (locs : List (Loc K)) :
    ∀ (acc : Tab K) (avs : List (Option (Val K))), acc.width = 1 → List.Forall₂ Col avs acc.rows →
    PRel (fun vs t => ∃ tab : Tab K, t = some tab ∧ List.Forall₂ Col (avs ++ vs.flatten) tab.rows)
      (locs.mapM (b.axialOf rt retry Val.fin c)) (locs.foldlM (b.loadStep rt c (.name "N")) (some acc)) := by
  induction locs with
  | nil => intro acc avs _ h; exact ⟨acc, rfl, by simpa using h⟩
  | cons l locs ih =>
    intro acc avs hw h
    have hstep := step_axial (retry := retry) b hsub c l
    rw [List.mapM_cons, List.foldlM_cons, step_more rt b c l acc hw (by
      intro t ht
      rw [ht] at hstep
      revert hstep
      cases b.axialOf rt retry Val.fin c l <;> simp only [PRel, false_implies]
      rintro ⟨tab, rfl, hw, -⟩
      exact ⟨tab, rfl, hw⟩)]
    revert hstep
    cases b.axialOf rt retry Val.fin c l <;> cases b.loadStep rt c (.name "N") none l <;> simp only [PRel, false_implies]
    · intro he; subst he; rfl
    · rintro ⟨tab, rfl, htw, hr⟩
      simp only [Except.map, Option.map, bind, Except.bind]
      have := ih ⟨acc.dt.join tab.dt, 1, acc.rows ++ tab.rows⟩ _ rfl (List.rel_append h hr)
      revert this
      cases locs.mapM (b.axialOf rt retry Val.fin c) <;>
        cases locs.foldlM (b.loadStep rt c (.name "N")) (some ⟨acc.dt.join tab.dt, 1, acc.rows ++ tab.rows⟩) <;>
        simp only [PRel, imp_self, pure, Except.pure]
      rintro ⟨tab', rfl, hr'⟩
      exact ⟨tab', rfl, by simpa using hr'⟩

theorem clamp_rel (v : Option (Val K)) (r : K × List (Option K)) (h : Col v r) :
    PRel (fun w s => ∃ x : K, s.2 = [some x] ∧ w = Val.fin x) (clampVal v) (clampRow r) := by
  obtain ⟨o, hr, rfl⟩ := h
  unfold clampRow
  rw [hr]
  cases o with
  | none => rfl
  | some x => exact ⟨_, rfl, rfl⟩

theorem tension_rel {rt : Rt K} (o : AS4100 K) (b : Beam K (Sect K)) (hsub : SeparateIn rt b) (hb : o.beam = some b) (c : ℤ)
    (p : Num K) :
    PRel (fun ts (tab : Tab K) => List.Forall₂ (fun w s => ∃ x : K, s.2 = [some x] ∧ w = Val.fin x) ts tab.rows)
      (b.tensionVals rt retry Val.fin c p) (o.getTension rt c (.scalar p) none) := by
  unfold AS4100.getTension Beam.tensionVals Beam.getLoads
  simp only [hb]
  cases hl : b.listPositions rt (.scalar p) none (some c) with
  | error e => rfl
  | ok locs =>
    simp only [bind, Except.bind]
    cases locs with
    | nil => rfl
    | cons l locs =>
      have hstep := step_axial (retry := retry) b hsub c l
      simp only [List.mapM_cons, List.foldlM_cons, reduceCtorEq, if_false, bind, Except.bind]
      revert hstep
      cases b.axialOf rt retry Val.fin c l <;> cases b.loadStep rt c (.name "N") none l <;> simp only [PRel, false_implies]
      · intro he; subst he; rfl
      · rename_i avs _
        rintro ⟨tab, rfl, htw, hr⟩
        have hfold := fold_axial (retry := retry) b hsub c locs tab avs htw hr
        revert hfold
        show PRel _ (locs.mapM (b.axialOf rt retry Val.fin c)) _ → _
        cases hm : locs.mapM (b.axialOf rt retry Val.fin c) <;>
          cases hn : locs.foldlM (b.loadStep rt c (.name "N")) (some tab) <;> simp only [PRel, false_implies]
        · intro he; subst he
          simp only [pure, Except.pure]
        · rintro ⟨tab', rfl, hr'⟩
          simp only [pure, Except.pure, List.flatten_cons]
          have hc := PRel.mapM clamp_rel hr'
          revert hc
          cases (avs ++ List.flatten _).mapM clampVal <;> cases tab'.rows.mapM clampRow <;> simp only [PRel, imp_self]

end

section
variable {K : Type} [LinearOrder K] [Field K]

theorem secantBody_congr {A B : Type} (rt : Rt K) {f : SolveFun K A} {g : SolveFun K B} {as : List A} {bs : List B}
    (h : ∀ x, f x as = g x bs) (tol x1 x2 : K) : secantBody rt f as tol x1 x2 = secantBody rt g bs tol x1 x2 := by
  unfold secantBody callFunc
  rw [h, h]

theorem secantLoop_congr {A B : Type} (rt : Rt K) {f : SolveFun K A} {g : SolveFun K B} {as : List A} {bs : List B}
    (h : ∀ x, f x as = g x bs) (tol : K) (m om) (n : ℕ) : ∀ (i : ℕ) (x1 x2 : K) (x3 : Option K),
    secantLoop rt f as tol m om n i x1 x2 x3 = secantLoop rt g bs tol m om n i x1 x2 x3 := by
  induction n with
  | zero => intro i x1 x2 x3; unfold secantLoop; rfl
  | succ n ih =>
    intro i x1 x2 x3
    unfold secantLoop
    simp only [secantBody_congr rt h, ih]

theorem secant_congr {A B : Type} (rt : Rt K) {f : SolveFun K A} {g : SolveFun K B} {as : List A} {bs : List B}
    (h : ∀ x, f x as = g x bs) (lo hi : Val K) (tol : K) (m) (n : ℕ) :
    secant rt f as lo hi tol m false n = secant rt g bs lo hi tol m false n := by
  unfold secant
  simp only [secantLoop_congr rt h]
  rfl

theorem utilOneVal_fin (rt : Rt K) (cap t : K) : utilOneVal rt cap (.fin t) = utilOne rt cap t := by
  unfold utilOneVal utilOne
  have h : ∀ x, utilFuncVal rt x [(Val.fin t, cap)] = utilFunc rt x [(t, cap)] := by
    intro x
    simp only [utilFuncVal, utilFunc, mulVal, Val.div]
    by_cases hc : cap = 0
    · simp only [hc, if_true]
      split_ifs <;> rfl
    · simp only [hc, if_false]
      rfl
  rw [secant_congr rt h]
  simp only [Val.le, decide_eq_true_eq]
  generalize secant rt (utilFunc rt) _ _ _ _ _ _ _ = r
  rfl

variable [FloorRing K]

theorem utilAtVal_fin {rt : Rt K} (o : AS4100 K) (hsub : ∀ b, o.beam = some b → SeparateIn rt b) (c : ℤ) (p : Num K) :
    o.utilAtVal rt retry Val.fin c p = o.utilAt rt c p := by
  unfold AS4100.utilAtVal AS4100.utilAt
  refine congrArg _ (funext fun cap => ?_)
  cases hb : o.beam with
  | none => simp only [AS4100.getTension, hb]; rfl
  | some b =>
    refine PRel.eq ((tension_rel o b (hsub b hb) hb c p).bind fun ts tab h => ?_)
    have he : (fun x y : List (ℤ × Num K × K) => x = y) = List.Forall₂ (· = ·) := by rw [List.forall₂_eq_eq_eq]
    rw [he]
    refine PRel.mapM ?_ h
    rintro w s ⟨x, hs, rfl⟩
    simp only [hs, utilOneVal_fin]
    exact PRel.refl _

theorem utilLoopVal_fin {rt : Rt K} (o : AS4100 K) (hsub : ∀ b, o.beam = some b → SeparateIn rt b) (cs : List ℤ) : ∀ pos : Option (List (Num K)),
    o.utilLoopVal rt retry Val.fin pos cs = o.utilLoop rt pos cs := by
  induction cs with
  | nil => intro pos; cases pos <;> rfl
  | cons c cs ih =>
    intro pos
    simp only [AS4100.utilLoopVal, AS4100.utilLoop, utilAtVal_fin o hsub, ih]

/-! ## nan and infinity are not rated -/

theorem secantLoop_first {A : Type} (rt : Rt K) {f : SolveFun K A} {as : List A} {tol x1 x2 : K} {m om} (n i : ℕ)
    (h : ∀ x, secantBody rt f as tol x1 x2 ≠ .ok x) (r : K × ℕ × Bool) :
    secantLoop rt f as tol m om n i x1 x2 none ≠ some (.ok r) := by
  unfold secantLoop
  split
  · simp
  · simp
  · cases n with
    | zero => simp
    | succ n =>
      simp only
      cases hb : secantBody rt f as tol x1 x2 with
      | error => simp
      | ok x => exact absurd hb (h x)

theorem isclose_nan (rt : Rt K) {tol : K} (h : ¬ tol < 0) : isclose rt tol (Val.nan : Val K) .nan = .ok false := by
  simp [isclose, h]

variable [IsStrictOrderedRing K]

theorem secantBody_special (rt : Rt K) {t : Val K} (ht : t = .nan ∨ t = .posInf) (cap : K) :
    ∃ e, e.toPy = .valueError ∧
    secantBody rt (utilFuncVal rt) [(t, cap)] (1 / 10 ^ 9) (-100000) 100000 = .error e := by
  have h0 : ¬ (1 / 10 ^ 9 : K) < 0 := not_lt.2 (by positivity)
  have hp : (0 : K) < 100000 := by norm_num
  rcases ht with rfl | rfl
  · refine ⟨.guessBad, rfl, ?_⟩
    have hf : ∀ x, utilFuncVal rt x [(Val.nan, cap)] = .ok .nan := fun x => rfl
    unfold secantBody callFunc
    simp only [hf, bind, Except.bind, mulVal, Val.isInf, Bool.or_self, Bool.false_eq_true, if_false, isclose_nan rt h0]
    rfl
  · refine ⟨.secantInf, rfl, ?_⟩
    have hf : utilFuncVal rt 100000 [(Val.posInf, cap)] = .ok .posInf ∨ utilFuncVal rt 100000 [(Val.posInf, cap)] = .ok .negInf := by
      simp only [utilFuncVal, mulVal, if_pos hp, Val.div, Val.signed]
      by_cases hc : cap = 0
      · simp [hc, Val.sub]
      · by_cases hc' : 0 < cap <;> simp [hc, hc', Val.sub]
    obtain ⟨y, hy⟩ : ∃ y, utilFuncVal rt (-100000) [(Val.posInf, cap)] = .ok y := ⟨_, rfl⟩
    unfold secantBody callFunc
    rcases hf with hf | hf <;>
    · simp only [hf, hy, bind, Except.bind]
      simp only [Val.isInf, Bool.or_true, Bool.true_or, if_true]
      rfl

theorem utilOneVal_special (rt : Rt K) {t : Val K} (ht : t = .nan ∨ t = .posInf) (cap u : K) : utilOneVal rt cap t ≠ .ok u := by
  have hle : t.le 0 = false := by rcases ht with rfl | rfl <;> rfl
  obtain ⟨e, -, hb⟩ := secantBody_special rt ht cap
  have h : ∀ r, secant rt (utilFuncVal rt) [(t, cap)] (.fin (-100000)) (.fin 100000) (1 / 10 ^ 9) (some 20000) false 20000 ≠ some (.ok r) := by
    intro r
    unfold secant checkGuesses
    simp only [Val.isInf, Bool.or_self, Bool.false_eq_true, if_false]
    cases isclose rt (1 / 10 ^ 9) (Val.fin 100000) (Val.fin (-100000)) with
    | error => simp
    | ok c =>
      cases c
      · exact secantLoop_first rt _ _ (by rw [hb]; simp) r
      · simp
  unfold utilOneVal
  rw [hle]
  simp only [Bool.false_eq_true, if_false]
  generalize hr : secant rt (utilFuncVal rt) [(t, cap)] (.fin (-100000)) (.fin 100000) (1 / 10 ^ 9) (some 20000) false 20000 = r at h
  match r, h with
  | none, _ => simp
  | some (.error _), _ => simp
  | some (.ok q), h => exact absurd rfl (h q)

end

end BeamDesign
