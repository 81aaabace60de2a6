import Verif.Spec.Unloaded
import Verif.Spec.SamplesAS
import Verif.Props.Tension

/-!
# C133: a member without loads is not passed
-/

set_option linter.unusedSectionVars false

namespace BeamDesign

open Spec

section
variable {K S : Type} [Field K] [LinearOrder K] [IsStrictOrderedRing K] [FloorRing K]

theorem mapM_mem_ok {α β : Type} {f : α → Py β} {l : List α} {ys : List β} (h : l.mapM f = .ok ys) {x : α} (hx : x ∈ l) :
    ∃ y ∈ ys, f x = .ok y := by
  rw [mapM_eq_ok_iff] at h
  obtain ⟨y, hy, h⟩ := forall₂_mem_left h hx
  exact ⟨y, hy, h⟩

theorem sortedSet_one (x : Num K) : sortedSet [x] = [x] := rfl

theorem zeroLength_ne_nil {rt : Rt K} {lp ps : List (Num K)} (h : zeroLengthPositions rt lp = .ok ps) : ps ≠ [] := by
  rcases lp with _ | ⟨a, lp⟩
  · simp [zeroLengthPositions] at h
  · unfold zeroLengthPositions at h
    have h1 : (a :: lp).getLast? = some ((a :: lp).getLast (by simp)) := List.getLast?_eq_getLast_of_ne_nil (by simp)
    simp only [List.head?_cons, h1] at h
    by_cases h0 : a.val = 0
    · simp only [h0, ne_eq, not_true_eq_false, if_false, h1] at h
      cases h
      split_ifs <;> simp
    · simp only [ne_eq, h0, not_false_eq_true, if_true] at h
      rcases hl : ((a :: lp).map fun l : Num K => (⟨rt.add 0 l.val, false⟩ : Num K)).getLast? with _ | z
      · simp [List.getLast?_eq_none_iff] at hl
      · simp only [hl] at h
        cases h
        split_ifs <;> simp

theorem locate_some {rt : Rt K} {b : Beam K S} {c : Option ℤ} {p : Num K} {i : ℕ} {ls : List (Loc K)}
    (h : b.locate rt c p i = .ok ls) : ∃ l ∈ ls, l.pos = p ∧ l.elem = i := by
  unfold Beam.locate at h
  simp only [bind, Except.bind, pure, Except.pure] at h
  rcases he : pyIndex b.elements (i : ℤ) with e | e
  · simp [he] at h
  simp only [he] at h
  rcases hl : e.len with x | l
  · simp [hl] at h
  simp only [hl] at h
  by_cases h0 : l.val = 0
  · simp only [h0, if_true] at h
    rcases c with _ | c
    · cases h
      exact ⟨_, List.mem_map_of_mem List.mem_cons_self, rfl, rfl⟩
    · simp only at h
      rcases hp : e.loadPositions c with x | lp
      · simp [hp] at h
      simp only [hp] at h
      rcases hz : zeroLengthPositions rt lp with x | ps
      · simp [hz] at h
      simp only [hz] at h
      cases h
      obtain ⟨q, hq⟩ := List.exists_mem_of_ne_nil _ (zeroLength_ne_nil hz)
      exact ⟨_, List.mem_map_of_mem hq, rfl, rfl⟩
  · simp only [h0, if_false] at h
    rcases hq : b.beamToLocal rt p (i : ℤ) with x | q
    · simp [hq] at h
    simp only [hq] at h
    cases h
    exact ⟨_, List.mem_singleton_self _, rfl, rfl⟩

/-- Every listed position has an entry for every element containing it. -/
theorem listed_elem {rt : Rt K} (hx : rt.Exact) {b : Beam K S} {ls : List (Num K)} (h : HasLengths b ls) {position : PosArg K}
    {minPos : Option ℤ} {c : Option ℤ} {locs : List (Loc K)} (hl : b.listPositions rt position minPos c = .ok locs) :
    ∃ ps, b.positionList rt position minPos c = .ok ps ∧
      ∀ p ∈ ps, ∀ i, InElement ls p.val i → ∃ l ∈ locs, l.pos = p ∧ l.elem = i := by
  unfold Beam.listPositions at hl
  simp only [bind, Except.bind, pure, Except.pure] at hl
  rcases hp : b.positionList rt position minPos c with x | ps
  · simp [hp] at hl
  simp only [hp] at hl
  refine ⟨ps, rfl, fun p hpm i hi => ?_⟩
  generalize hm : List.mapM (m := Except PyErr) _ ps = r at hl
  rcases r with x | blocks
  · simp at hl
  cases hl
  obtain ⟨blk, hblk, hf⟩ := mapM_mem_ok hm hpm
  obtain ⟨is, his, hel⟩ := inElements_ok hx h p
  simp only [his] at hf
  generalize hm2 : List.mapM (m := Except PyErr) _ is = r at hf
  rcases r with x | lls
  · simp at hf
  cases hf
  obtain ⟨ll, hll, hloc⟩ := mapM_mem_ok hm2 ((hel.2 i).2 hi)
  obtain ⟨l, hl, h1, h2⟩ := locate_some hloc
  exact ⟨l, List.mem_flatten.2 ⟨_, hblk, List.mem_flatten.2 ⟨_, hll, hl⟩⟩, h1, h2⟩

/-- What the loop of `get_loads` has read is kept in the array. -/
theorem fold_kept {rt : Rt K} {b : Beam K S} {c : ℤ} {k : CompArg} {locs : List (Loc K)} {acc : Option (Tab K)} {r : Option (Tab K)}
    (h : locs.foldlM (b.loadStep rt c k) acc = .ok r) :
    (∀ a, acc = some a → ∃ t, r = some t ∧ ∀ q ∈ a.rows, q ∈ t.rows) ∧
    ∀ l ∈ locs, ∃ e t t', pyIndex b.elements (l.elem : ℤ) = .ok e ∧ e.getLoads rt c (.scalar l.loc) none k = .ok (some t) ∧
      r = some t' ∧ ∀ q ∈ t.rows, ∃ q' ∈ t'.rows, q'.2 = q.2 := by
  induction locs generalizing acc with
  | nil =>
    cases h
    exact ⟨fun a ha => ⟨a, ha, fun q hq => hq⟩, by simp⟩
  | cons l locs ih =>
    rw [List.foldlM_cons] at h
    simp only [bind, Except.bind] at h
    rcases hst : b.loadStep rt c k acc l with x | acc'
    · simp [hst] at h
    simp only [hst] at h
    obtain ⟨i1, i2⟩ := ih h
    unfold Beam.loadStep at hst
    simp only [bind, Except.bind, pure, Except.pure] at hst
    rcases he : pyIndex b.elements (l.elem : ℤ) with x | e
    · simp [he] at hst
    simp only [he] at hst
    rcases hg : e.getLoads rt c (.scalar l.loc) none k with x | v
    · simp [hg] at hst
    simp only [hg] at hst
    rcases v with _ | t
    · simp at hst
    simp only at hst
    have key : ∃ a', acc' = some a' ∧ (∀ a, acc = some a → ∀ q ∈ a.rows, q ∈ a'.rows) ∧ ∀ q ∈ t.rows, ∃ q' ∈ a'.rows, q'.2 = q.2 := by
      rcases acc with _ | a
      · cases hst
        refine ⟨_, rfl, by simp, fun q hq => ⟨_, List.mem_map_of_mem hq, rfl⟩⟩
      · simp only [Tab.vstack] at hst
        by_cases hw : a.width = (t.setPos l.pos.val).width
        · simp only [hw, if_true] at hst
          cases hst
          refine ⟨_, rfl, ?_, fun q hq => ⟨_, List.mem_append_right _ (List.mem_map_of_mem hq), rfl⟩⟩
          rintro a' ha' q hq
          cases ha'
          exact List.mem_append_left _ hq
        · simp [hw] at hst
    obtain ⟨a', rfl, k1, k2⟩ := key
    obtain ⟨tf, rfl, hk⟩ := i1 a' rfl
    refine ⟨fun a ha => ⟨tf, rfl, fun q hq => hk q (k1 a ha q hq)⟩, ?_⟩
    intro l' hl'
    rcases List.mem_cons.1 hl' with rfl | hl'
    · refine ⟨e, t, tf, he, hg, rfl, fun q hq => ?_⟩
      obtain ⟨q', hq', hqq⟩ := k2 q hq
      exact ⟨q', hk _ hq', hqq⟩
    · exact i2 l' hl'

/-- A load case without loads answers None, one without rows raises. -/
theorem answer_stored {rt : Rt K} {e : Element K S} {c : ℤ} {x : Num K} {t : Tab K}
    (h : e.getLoads rt c (.scalar x) none (.name "N") = .ok (some t)) :
    (∃ tab, e.loads.lookup c = some ⟨some tab⟩ ∧ tab.rows ≠ []) ∨ ∃ q ∈ t.rows, q.2 = [none] := by
  unfold Element.getLoads Element.case at h
  simp only [bind, Except.bind] at h
  rcases hlk : e.loads.lookup c with _ | ⟨_ | tab⟩
  · simp [hlk] at h
  · right
    simp only [hlk] at h
    unfold LoadCase.getLoad LoadCase.listPositions at h
    simp only [bind, Except.bind, pure, Except.pure] at h
    by_cases hi : x.isInt = true
    · simp [hi] at h
    · simp only [hi] at h
      cases h
      exact ⟨_, List.mem_map_of_mem (by rw [sortedSet_one]; simp : x ∈ sortedSet [x]), rfl⟩
  · left
    refine ⟨tab, rfl, fun hr => ?_⟩
    obtain ⟨ii, rows⟩ := tab
    simp only at hr
    subst hr
    simp only [hlk] at h
    unfold LoadCase.getLoad LoadCase.listPositions at h
    simp only [bind, Except.bind, pure, Except.pure] at h
    by_cases hi : x.isInt = true
    · simp [hi] at h
    · have hs1 : sortedSet [x] = [x] := sortedSet_one x
      have hs2 : sortedSet ([] : List (Num K)) = [] := rfl
      simp [hi, hs1, hs2, multiInterp, npInterp, CompArg.resolve, LComp.ofName, bind, Except.bind, pure, Except.pure] at h

theorem tension_stored {rt : Rt K} (hx : rt.Exact) {o : AS4100 K} {b : Beam K (Sect K)} (hb : o.beam = some b) {ls : List (Num K)}
    (h : HasLengths b ls) {c : ℤ} {p : Num K} {tab : Tab K} (ht : o.getTension rt c (.scalar p) none = .ok tab) {i : ℕ}
    (hi : InElement ls p.val i) : HasRows b c i := by
  unfold AS4100.getTension at ht
  simp only [hb, bind, Except.bind, pure, Except.pure] at ht
  rcases hg : b.getLoads rt c (.scalar p) none (.name "N") with x | v
  · simp [hg] at ht
  rcases v with _ | t
  · simp [hg] at ht
  simp only [hg] at ht
  unfold Beam.getLoads at hg
  simp only [bind, Except.bind] at hg
  rcases hl : b.listPositions rt (.scalar p) none (some c) with x | locs
  · simp [hl] at hg
  simp only [hl] at hg
  obtain ⟨ps, hps, hmem⟩ := listed_elem hx h hl
  have hpp : p ∈ ps := by
    unfold Beam.positionList at hps
    by_cases hint : p.isInt = true
    · simp [hint] at hps
    · simp only [hint, bind, Except.bind, pure, Except.pure] at hps
      generalize b.checkPositions rt [p] = r at hps
      rcases r with x | _
      · simp at hps
      · cases hps
        rw [sortedSet_one]; simp
  obtain ⟨l, hlm, hlp, rfl⟩ := hmem p hpp i hi
  obtain ⟨e, t1, t', he, hg1, hr, hk⟩ := (fold_kept hg).2 l hlm
  cases hr
  have hee : b.elements[l.elem]? = some e := by
    have hlen : l.elem < b.elements.length := by rw [h.1.length_eq]; exact hi.1
    rw [pyIndex_nat _ _ _ (List.getElem?_eq_getElem hlen)] at he
    cases he
    exact List.getElem?_eq_getElem hlen
  rcases answer_stored hg1 with ⟨tab, hlk, hne⟩ | ⟨q, hq, hqn⟩
  · exact ⟨e, tab, hee, hlk, hne⟩
  · exfalso
    obtain ⟨q', hq', hqq⟩ := hk q hq
    generalize hm : t.rows.mapM clampRow = r at ht
    rcases r with x | rows
    · simp at ht
    obtain ⟨y, -, hy⟩ := mapM_mem_ok hm hq'
    simp [clampRow, hqq, hqn] at hy

theorem loop_all {rt : Rt K} {o : AS4100 K} {ps : List (Num K)} {cs : List ℤ} {ret : List (ℤ × Num K × K)}
    (h : o.utilLoop rt (some ps) cs = .ok ret) : ∀ c ∈ cs, ∀ p ∈ ps, ∃ r, o.utilAt rt c p = .ok r := by
  induction cs generalizing ret with
  | nil => simp
  | cons c cs ih =>
    unfold AS4100.utilLoop at h
    simp only [AS4100.utilPositions, bind, Except.bind, pure, Except.pure] at h
    generalize hm : List.mapM (m := Except PyErr) (fun p => o.utilAt rt c p) ps = r at h
    rcases r with x | here
    · simp at h
    simp only at h
    rcases hr : o.utilLoop rt (some ps) cs with x | rest
    · simp [hr] at h
    intro k hk p hp
    rcases List.mem_cons.1 hk with rfl | hk
    · obtain ⟨y, -, hy⟩ := mapM_mem_ok hm hp
      exact ⟨y, hy⟩
    · exact ih hr k hk p hp

theorem loop_first {rt : Rt K} {o : AS4100 K} {b : Beam K (Sect K)} (hb : o.beam = some b) {c : ℤ} {cs : List ℤ}
    {ret : List (ℤ × Num K × K)} (h : o.utilLoop rt none (c :: cs) = .ok ret) :
    ∃ locs, b.listPositions rt .none (some o.assessmentPoints) (some c) = .ok locs ∧
      ∀ k ∈ c :: cs, ∀ l ∈ locs, ∃ r, o.utilAt rt k l.pos = .ok r := by
  unfold AS4100.utilLoop at h
  simp only [AS4100.utilPositions, hb, bind, Except.bind, pure, Except.pure] at h
  rcases hl : b.listPositions rt .none (some o.assessmentPoints) (some c) with x | locs
  · simp [hl] at h
  simp only [hl] at h
  generalize hm : List.mapM (m := Except PyErr) (fun p => o.utilAt rt c p) _ = r at h
  rcases r with x | here
  · simp at h
  simp only at h
  rcases hr : o.utilLoop rt (some (locs.map fun l => l.pos)) cs with x | rest
  · simp [hr] at h
  refine ⟨locs, rfl, fun k hk l hlm => ?_⟩
  rcases List.mem_cons.1 hk with rfl | hk
  · obtain ⟨y, -, hy⟩ := mapM_mem_ok hm (List.mem_map_of_mem (f := fun l : Loc K => l.pos) hlm)
    exact ⟨y, hy⟩
  · exact loop_all hr k hk _ (List.mem_map_of_mem (f := fun l : Loc K => l.pos) hlm)

theorem utilAt_tension {rt : Rt K} {o : AS4100 K} {c : ℤ} {p : Num K} {r : List (ℤ × Num K × K)} (h : o.utilAt rt c p = .ok r) :
    ∃ tab, o.getTension rt c (.scalar p) none = .ok tab := by
  unfold AS4100.utilAt at h
  simp only [bind, Except.bind] at h
  rcases hc : o.tensionCapacity rt (.scalar p) with x | cap
  · simp [hc] at h
  simp only [hc] at h
  rcases ht : o.getTension rt c (.scalar p) none with x | tab
  · simp [ht] at h
  exact ⟨tab, rfl⟩

theorem cases_ok {o : AS4100 K} {loadCase : CaseArg} {cs : List ℤ} (h : CasesOf o loadCase cs) : o.utilCases loadCase = .ok cs := by
  rcases h with rfl | ⟨c, rfl, rfl⟩ | ⟨rfl, b, e, rest, hb, he, rfl⟩
  · rfl
  · rfl
  · simp [AS4100.utilCases, hb, Beam.loadCases, he, Element.loadCases]

theorem ends_listed {rt : Rt K} (hx : rt.Exact) {b : Beam K S} {ls : List (Num K)} (h : HasLengths b ls) {n : ℤ} {c : Option ℤ}
    {ps : List (Num K)} (hp : b.positionList rt .none (some n) c = .ok ps) {i : ℕ} (hi : i < ls.length) :
    ∃ p ∈ ps, p.val = startOf ls i := by
  unfold Beam.positionList at hp
  simp only [bind, Except.bind, pure, Except.pure, elementEnds_ok rt h] at hp
  rcases hl : b.length rt with x | l
  · simp [hl] at hp
  simp only [hl] at hp
  rcases hn : linspace rt 0 l.val n with x | lin
  · simp [hn] at hp
  simp only [hn] at hp
  generalize hm : List.mapM (m := Except PyErr) _ b.elements.zipIdx = r at hp
  rcases r with x | real
  · simp at hp
  cases hp
  obtain ⟨se, hse, h1, -⟩ := endsOf_get hx ls i hi
  have hmem : startOf ls i ∈ (sortedSet ((endsOf rt ls).flatMap (fun se => [se.1, se.2]) ++ real.flatten ++ lin.map Num.flt)).map
      (·.val) := by
    rw [sortedSet_vals, ← h1]
    refine List.mem_map_of_mem (f := fun q : Num K => q.val) (a := se.1) (List.mem_append_left _ (List.mem_append_left _ (List.mem_flatMap.2 ?_)))
    exact ⟨se, List.mem_of_getElem? hse, by simp⟩
  obtain ⟨p, hp, hv⟩ := List.mem_map.1 hmem
  exact ⟨p, hp, hv⟩

theorem tension_range {rt : Rt K} (hx : rt.Exact) {o : AS4100 K} {b : Beam K (Sect K)} (hb : o.beam = some b) {ls : List (Num K)}
    (h : HasLengths b ls) {c : ℤ} {p : Num K} {tab : Tab K} (ht : o.getTension rt c (.scalar p) none = .ok tab) :
    0 ≤ p.val ∧ p.val ≤ total ls := by
  unfold AS4100.getTension at ht
  simp only [hb, bind, Except.bind, Beam.getLoads, Beam.listPositions, Beam.positionList] at ht
  by_cases hint : p.isInt = true
  · simp [hint] at ht
  simp only [hint] at ht
  obtain ⟨l, hl, hlv⟩ := length_ok hx h
  have hchk : b.checkPositions rt [p] = if p.val < 0 then .error .positionNotInBeam else
      if l.val < p.val then .error .positionNotInBeam else .ok () := by
    simp only [Beam.checkPositions, hl, bind, Except.bind]
  by_cases h0 : p.val < 0
  · simp [hchk, h0] at ht
  by_cases h1 : l.val < p.val
  · simp [hchk, h0, h1] at ht
  exact ⟨not_lt.1 h0, hlv ▸ not_lt.1 h1⟩

theorem loop_nil {rt : Rt K} {o : AS4100 K} (cs : List ℤ) : o.utilLoop rt (some []) cs = .ok [] := by
  induction cs with
  | nil => rfl
  | cons c cs ih =>
    unfold AS4100.utilLoop
    simp [AS4100.utilPositions, bind, Except.bind, pure, Except.pure, ih]

theorem filter_nil (loadCase : CaseArg) (given : Option (List (Num K))) : utilFilter loadCase given [] = ([] : List (ℤ × Num K × K)) := by
  rcases loadCase with _ | _ | _ <;> rcases given with _ | _ <;> rfl

/-- C133: whenever `tension_utilisation` returns a number for given positions, loads are stored in every load case asked
about on every element at these positions. -/
theorem C133_positions {rt : Rt K} (hx : rt.Exact) (o : AS4100 K) (b : Beam K (Sect K)) (hb : o.beam = some b)
    (ls : List (Num K)) (h : HasLengths b ls) (loadCase : CaseArg) (cs : List ℤ) (hcs : CasesOf o loadCase cs)
    (position : PosArg K) (ps : List (Num K)) (hps : PositionsOf position ps) (u : K)
    (hu : o.tensionUtilisation rt loadCase position = .ok u) :
    ∀ c ∈ cs, ∀ p ∈ ps, ∀ i, InElement ls p.val i → HasRows b c i := by
  intro c hc p hp i hi
  unfold AS4100.tensionUtilisation at hu
  have hg : position.given = .ok (some ps) := by
    rcases hps with rfl | ⟨x, rfl, rfl⟩ <;> rfl
  simp only [hg, cases_ok hcs, bind, Except.bind] at hu
  rcases hl : o.utilLoop rt (some ps) cs with x | ret
  · simp [hl] at hu
  obtain ⟨r, hr⟩ := loop_all hl c hc p hp
  obtain ⟨tab, ht⟩ := utilAt_tension hr
  exact tension_stored hx hb h ht hi

/-- C133: whenever `tension_utilisation` returns a number for the whole beam, loads are stored in every load case asked
about on every element. -/
theorem C133_overall {rt : Rt K} (hx : rt.Exact) (o : AS4100 K) (b : Beam K (Sect K)) (hb : o.beam = some b)
    (ls : List (Num K)) (h : HasLengths b ls) (loadCase : CaseArg) (cs : List ℤ) (hcs : CasesOf o loadCase cs) (u : K)
    (hu : o.tensionUtilisation rt loadCase .none = .ok u) :
    ∀ c ∈ cs, ∀ i, i < ls.length → HasRows b c i := by
  intro c hc i hi
  rcases cs with _ | ⟨c0, cs⟩
  · simp at hc
  unfold AS4100.tensionUtilisation at hu
  simp only [PosArg.given, cases_ok hcs, bind, Except.bind] at hu
  rcases hl : o.utilLoop rt none (c0 :: cs) with x | ret
  · simp [hl] at hu
  obtain ⟨locs, hlocs, hall⟩ := loop_first hb hl
  obtain ⟨ps, hps, hmem⟩ := listed_elem hx h hlocs
  obtain ⟨p, hp, hpv⟩ := ends_listed hx h hps hi
  have hin : InElement ls p.val i := by
    refine ⟨hi, hpv.ge, ?_⟩
    rw [hpv, startOf_succ ls i _ (List.getElem?_eq_getElem hi)]
    exact le_add_of_nonneg_right (h.2 _ (List.getElem_mem hi))
  obtain ⟨l, hlm, hlp, -⟩ := hmem p hp i hin
  obtain ⟨r, hr⟩ := hall c hc l hlm
  obtain ⟨tab, ht⟩ := utilAt_tension hr
  rw [hlp] at ht
  exact tension_stored hx hb h ht hin

/-- A check of a beam without loads in tension never returns a number. -/
theorem unloaded_never {rt : Rt K} (hx : rt.Exact) {o : AS4100 K} {b : Beam K (Sect K)} (hb : o.beam = some b)
    {ls : List (Num K)} (h : HasLengths b ls) (hls : ls ≠ []) (hn : ∀ c i, ¬ HasRows b c i)
    (loadCase : CaseArg) (position : PosArg K) (u : K) : o.tensionUtilisation rt loadCase position ≠ .ok u := by
  intro hu
  obtain ⟨cs, hcs⟩ : ∃ cs, CasesOf o loadCase cs := by
    rcases loadCase with _ | c | cs
    · obtain ⟨es⟩ := b
      rcases es with _ | ⟨e, rest⟩
      · exact absurd (List.length_eq_zero_iff.1 h.1.length_eq.symm) hls
      · exact ⟨_, Or.inr (Or.inr ⟨rfl, _, e, rest, hb, rfl, rfl⟩)⟩
    · exact ⟨_, Or.inr (Or.inl ⟨c, rfl, rfl⟩)⟩
    · exact ⟨cs, Or.inl rfl⟩
  have h0 : 0 < ls.length := List.length_pos_iff.2 hls
  have hu' := hu
  unfold AS4100.tensionUtilisation at hu'
  simp only [cases_ok hcs, bind, Except.bind] at hu'
  rcases cs with _ | ⟨c, cs⟩
  · rcases hg : position.given with x | g
    · simp [hg] at hu'
    · simp [hg, AS4100.utilLoop, filter_nil, pyMax] at hu'
  have key : ∀ ps, PositionsOf position ps → False := by
    intro ps hps
    have hg : position.given = .ok (some ps) := by
      rcases hps with rfl | ⟨x, rfl, rfl⟩ <;> rfl
    simp only [hg] at hu'
    rcases ps with _ | ⟨p, ps⟩
    · simp [loop_nil, filter_nil, pyMax] at hu'
    rcases hl : o.utilLoop rt (some (p :: ps)) (c :: cs) with x | ret
    · simp [hl] at hu'
    obtain ⟨r, hr⟩ := loop_all hl c List.mem_cons_self p List.mem_cons_self
    obtain ⟨tab, ht⟩ := utilAt_tension hr
    obtain ⟨i, hi⟩ := exists_inElement h.2 hls (tension_range hx hb h ht).1 (tension_range hx hb h ht).2
    exact hn c i (tension_stored hx hb h ht hi)
  rcases position with _ | x | ps
  · exact hn c 0 (C133_overall hx o b hb ls h loadCase _ hcs u hu c List.mem_cons_self 0 h0)
  · by_cases hi : x.isInt = true
    · simp [PosArg.given, hi] at hu'
    · obtain ⟨v, ii⟩ := x
      simp only [Bool.not_eq_true] at hi
      subst hi
      exact key [Num.flt v] (Or.inr ⟨v, rfl, rfl⟩)
  · exact key ps (Or.inl rfl)

/-- C133: a beam made by `empty_beam` has one element with the length, the section and the load case 0; a check of it in
tension never returns a number, whatever is asked. -/
theorem C133_empty {rt : Rt K} (hx : rt.Exact) (length : Num K) (radius : K) (material : Option (Material K))
    (s : Sect K) (hs : Sect.newCircle radius material = .ok s) (b : Beam K (Sect K)) (hb : Beam.emptyBeam length s = .ok b)
    (o : AS4100 K) (ho : AS4100.default (some b) none = .ok o) :
    (0 ≤ radius ∧ s = .circle radius material) ∧ 0 ≤ length.val ∧ b.noElements = 1 ∧ (∃ l, b.length rt = .ok l ∧ l.val = length.val) ∧ b.loadCases = .ok [0] ∧ b.sections = [s] ∧ o.sections = [s] ∧
    ∀ loadCase position u, o.tensionUtilisation rt loadCase position ≠ .ok u := by
  have hb' : 0 ≤ length.val ∧ b = ⟨[⟨[(0, ⟨none⟩)], some length, s⟩]⟩ := by
    unfold Beam.emptyBeam Element.emptyElement Element.new at hb
    by_cases hl : length.val < 0
    · simp [hl, bind, Except.bind] at hb
    · simp [hl, bind, Except.bind, Beam.new, Beam.checkElements, pure, Except.pure] at hb
      exact ⟨not_lt.1 hl, hb.symm⟩
  obtain ⟨hl, rfl⟩ := hb'
  have h : HasLengths (⟨[⟨[(0, ⟨none⟩)], some length, s⟩]⟩ : Beam K (Sect K)) [length] :=
    ⟨.cons rfl .nil, by simpa using hl⟩
  have hob : o.beam = some ⟨[⟨[(0, ⟨none⟩)], some length, s⟩]⟩ := by
    unfold AS4100.default AS4100.new at ho
    simp only [bind, Except.bind, pure, Except.pure] at ho
    generalize List.mapM (m := Except PyErr) _ _ = r at ho
    rcases r with x | ds
    · simp at ho
    · cases ho
      rfl
  refine ⟨?_, hl, rfl, ?_, rfl, rfl, ?_, ?_⟩
  · unfold Sect.newCircle at hs
    by_cases hr : 0 ≤ radius
    · simp only [hr, if_true] at hs
      cases hs
      exact ⟨hr, rfl⟩
    · simp [hr] at hs
  · obtain ⟨l, h1, h2⟩ := length_ok hx h
    exact ⟨l, h1, by simpa [total] using h2⟩
  · simp [AS4100.sections, hob, sectionsOf, Beam.sections]
  · refine fun loadCase position u => unloaded_never hx hob h (by simp) ?_ loadCase position u
    rintro c i ⟨e, t, he, hlk, -⟩
    rcases i with _ | i
    · simp only [List.getElem?_cons_zero, Option.some.injEq] at he
      subst he
      by_cases hc : c = 0
      · subst hc
        simp at hlk
      · simp [List.lookup, beq_eq_false_iff_ne.2 hc] at hlk
    · simp at he

end

/-! ## Cases meeting the hypotheses -/

/-- Two rods, in tension in load case 1; in load case 2 only the first has loads. -/
def halfObj : AS4100 ℚ :=
  ⟨some ⟨[⟨[(1, ⟨some ⟨false, [Samples.axial 0 1000]⟩⟩), (2, ⟨some ⟨false, [Samples.axial 0 2000]⟩⟩)], some (Num.flt 2), Samples.rod (1/100)⟩,
    ⟨[(1, ⟨some ⟨false, [Samples.axial 0 3000]⟩⟩), (2, ⟨none⟩)], some (Num.flt 3), Samples.rod (1/100)⟩]⟩, none, 3,
    [⟨1/100, Samples.steel⟩, ⟨1/100, Samples.steel⟩], 90/100, 85/100, 1⟩

def halfBeam : Beam ℚ (Sect ℚ) := halfObj.beam.getD ⟨[]⟩

theorem half_lengths : HasLengths halfBeam [Num.flt 2, Num.flt 3] :=
  ⟨.cons rfl (.cons rfl .nil), by simp⟩

/-- The hypotheses can be met, and without loads the check raises. -/
example : HasRows halfBeam 1 1 :=
  C133_overall (Rt.exact_exact ℚ) halfObj halfBeam rfl _ half_lengths (.one 1) [1] (Or.inr (Or.inl ⟨1, rfl, rfl⟩))
    (3000 / Samples.thinCap) (by decide +kernel) 1 (by simp) 1 (by simp)

example : halfObj.tensionUtilisation Samples.rt (.one 2) .none = .error .typeError ∧
    halfObj.tensionUtilisation Samples.rt .none .none = .error .typeError ∧
    halfObj.tensionUtilisation Samples.rt (.one 2) (.scalar (Num.flt 4)) = .error .typeError ∧
    halfObj.tensionUtilisation Samples.rt (.one 2) (.scalar (Num.flt 2)) = .error .typeError := by
  decide +kernel

example : HasRows halfBeam 2 0 :=
  C133_positions (Rt.exact_exact ℚ) halfObj halfBeam rfl _ half_lengths (.one 2) [2] (Or.inr (Or.inl ⟨2, rfl, rfl⟩))
    (.scalar (Num.flt 1)) [Num.flt 1] (Or.inr ⟨1, rfl, rfl⟩) (2000 / Samples.thinCap) (by decide +kernel) 2 (by simp) _
    List.mem_cons_self 0 ⟨by simp, by simp [startOf, Num.flt], by simp [startOf, Num.flt]⟩

example : ∃ s b o, Sect.newCircle (1/100) (some Samples.steel) = .ok s ∧ Beam.emptyBeam (Num.flt (2 : ℚ)) s = .ok b ∧
    AS4100.default (some b) none = .ok o ∧ o.tensionUtilisation Samples.rt .none .none = .error .typeError :=
  ⟨Samples.rod (1/100), ⟨[⟨[(0, ⟨none⟩)], some (Num.flt 2), Samples.rod (1/100)⟩]⟩,
    ⟨some ⟨[⟨[(0, ⟨none⟩)], some (Num.flt 2), Samples.rod (1/100)⟩]⟩, none, defaultAssessmentPoints, [⟨1/100, Samples.steel⟩],
      90/100, 85/100, 1⟩, by decide +kernel, by decide +kernel, by decide +kernel, by decide +kernel⟩

end BeamDesign
