import Verif.Lemmas.Cases
import Verif.Spec.Retyped
import Verif.Spec.SamplesAS

/-!
# C119: entering loads as whole numbers or as floats
-/

set_option linter.unusedSectionVars false

namespace BeamDesign

open Spec

variable {K : Type} [Field K] [LinearOrder K] [IsStrictOrderedRing K] [FloorRing K]

section
variable {S : Type} {rt : Rt K} {b : Beam K S}

theorem lookup_float (l : List (ℤ × LoadCase K)) (c : ℤ) :
    (l.map fun x => (x.1, floatCase x.2)).lookup c = (l.lookup c).map floatCase := by
  induction l with
  | nil => rfl
  | cons a l ih =>
    rcases a with ⟨k, lc⟩
    simp only [List.map_cons, List.lookup_cons]
    rcases hc : (c == k) with _ | _ <;> simp [ih]

theorem float_case (e : Element K S) (c : ℤ) : (floatElement e).case c = (e.case c).map floatCase := by
  unfold Element.case
  simp only [floatElement, lookup_float]
  rcases e.loads.lookup c with _ | lc <;> rfl

/-- A load position, as a float. -/
def asFloat (x : Num K) : Num K := ⟨x.val, false⟩

theorem float_loadPositions (e : Element K S) (c : ℤ) :
    (floatElement e).loadPositions c = (e.loadPositions c).map (List.map asFloat) := by
  unfold Element.loadPositions
  rw [float_case]
  rcases e.case c with er | ⟨_ | t⟩
  · rfl
  · rfl
  · simp [LoadCase.loadPositions, floatCase, asFloat, bind, Except.bind, Except.map, Function.comp_def]

theorem float_len (e : Element K S) : (floatElement e).len = e.len := rfl

theorem float_lengths (b : Beam K S) : (floatTables b).lengths = b.lengths := mapM_map_congr _ fun _ _ => rfl

theorem float_ends (b : Beam K S) : (floatTables b).elementEnds rt = b.elementEnds rt := by
  unfold Beam.elementEnds; rw [float_lengths]

theorem float_length (b : Beam K S) : (floatTables b).length rt = b.length rt := by
  unfold Beam.length; rw [float_lengths]

theorem float_in (b : Beam K S) (p : Num K) : (floatTables b).inElements rt p = b.inElements rt p := by
  unfold Beam.inElements; rw [float_ends]

theorem float_startEnd (b : Beam K S) (i : ℤ) : (floatTables b).getElementStartEnd rt i = b.getElementStartEnd rt i := by
  unfold Beam.getElementStartEnd; rw [float_ends]

theorem float_beamToLocal (b : Beam K S) (p : Num K) (i : ℤ) : (floatTables b).beamToLocal rt p i = b.beamToLocal rt p i := by
  unfold Beam.beamToLocal
  rw [float_startEnd]
  simp only [floatTables, pyIndex_map, bind, Except.bind]
  split
  · rfl
  rcases pyIndex b.elements i with e | e
  · rfl
  · simp only [float_len]

theorem float_localToBeam (b : Beam K S) (p : Num K) (i : ℤ) : (floatTables b).localToBeam rt p i = b.localToBeam rt p i := by
  unfold Beam.localToBeam
  rw [float_startEnd]
  simp only [floatTables, pyIndex_map, bind, Except.bind]
  split_ifs
  · rfl
  split
  · rfl
  rcases pyIndex b.elements i with e | e
  · rfl
  · simp only [float_len]

theorem float_check (b : Beam K S) (ps : List (Num K)) : (floatTables b).checkPositions rt ps = b.checkPositions rt ps := by
  induction ps with
  | nil => rfl
  | cons p ps ih => simp only [Beam.checkPositions, float_length, ih]

theorem mem_of_pyIndex {α : Type} {l : List α} {i : ℤ} {x : α} (h : pyIndex l i = .ok x) : x ∈ l := by
  obtain ⟨j, hj, -⟩ := (pyIndex_ok_iff _ _ _).1 h
  exact List.mem_of_getElem? hj

theorem localToBeam_asFloat (hf : FloatLengths b) (p : Num K) (i : ℤ) :
    b.localToBeam rt (asFloat p) i = b.localToBeam rt p i := by
  unfold Beam.localToBeam
  by_cases h : p.val < 0 ∨ 1 < p.val
  · rw [if_pos h, if_pos (show (asFloat p).val < 0 ∨ 1 < (asFloat p).val from h)]
  rw [if_neg h, if_neg (show ¬ ((asFloat p).val < 0 ∨ 1 < (asFloat p).val) from h)]
  simp only [bind, Except.bind]
  split
  · rfl
  rcases he : pyIndex b.elements i with er | e
  · rfl
  simp only
  rcases hl : e.len with er | l
  · rfl
  have : l.isInt = false := by
    refine hf e (mem_of_pyIndex he) l ?_
    unfold Element.len at hl
    split at hl <;> cases hl
    assumption
  simp [Num.pmul, asFloat, this]

theorem float_real (hf : FloatLengths b) (c : Option ℤ) (i : ℕ) (e : Element K S) :
    (floatTables b).realPositions rt c i (floatElement e) = b.realPositions rt c i e := by
  unfold Beam.realPositions
  simp only [float_localToBeam]
  rcases c with _ | c
  · rfl
  simp only [float_loadPositions]
  rcases e.loadPositions c with er | lp
  · rfl
  simp only [Except.map, bind, Except.bind]
  exact mapM_map_congr _ fun p _ => localToBeam_asFloat hf p i

theorem float_positionList (position : PosArg K) (n : Option ℤ) (c : Option ℤ)
    (hf : position = .none → FloatLengths b) :
    (floatTables b).positionList rt position n c = b.positionList rt position n c := by
  unfold Beam.positionList
  rcases position with _ | x | xs <;> rcases n with _ | n <;> simp only [float_check, float_length, float_ends]
  have hz : ((floatTables b).elements.zipIdx).mapM (fun ei => (floatTables b).realPositions rt c ei.2 ei.1) =
      (b.elements.zipIdx).mapM fun ei => b.realPositions rt c ei.2 ei.1 := by
    simp only [floatTables]
    rw [List.zipIdx_map]
    refine mapM_map_congr _ ?_
    rintro ⟨e, i⟩ -
    exact float_real (hf rfl) c i e
  rw [hz]

theorem float_locate {c : ℤ} (hz : NoIntAtPoint b c) (p : Num K) (i : ℕ) :
    (floatTables b).locate rt (some c) p i = b.locate rt (some c) p i := by
  unfold Beam.locate
  simp only [float_beamToLocal]
  simp only [floatTables, pyIndex_map, bind, Except.bind]
  rcases he : pyIndex b.elements (i : ℤ) with er | e
  · rfl
  simp only [float_len]
  rcases hl : e.len with er | l
  · rfl
  simp only
  split_ifs with h0
  · have hl' : e.length = some l := by
      unfold Element.len at hl
      split at hl <;> cases hl
      assumption
    have : (floatElement e).loadPositions c = e.loadPositions c := by
      rw [float_loadPositions]
      have hz' := hz e (mem_of_pyIndex he) l hl' h0
      unfold Element.loadPositions Element.case
      rcases hk : e.loads.lookup c with _ | ⟨_ | t⟩
      · rfl
      · rfl
      · have ht := hz' t hk
        simp [LoadCase.loadPositions, asFloat, bind, Except.bind, Except.map, Function.comp_def, ht]
    rw [this]
  · rfl

/-- The listing does not depend on how loads were entered. -/
theorem float_positions {c : ℤ} (hz : NoIntAtPoint b c) (position : PosArg K) (n : Option ℤ)
    (hf : position = .none → FloatLengths b) :
    (floatTables b).listPositions rt position n (some c) = b.listPositions rt position n (some c) := by
  unfold Beam.listPositions
  simp only [float_positionList position n (some c) hf, float_in, float_locate hz]

theorem float_getLoad (lc : LoadCase K) (position : PosArg K) (hp : position ≠ .none) (component : CompArg) :
    ((floatCase lc).getLoad rt position none component).map (Option.map loadsOnly)
      = (lc.getLoad rt position none component).map (Option.map loadsOnly) := by
  rcases lc with ⟨_ | t⟩
  · rfl
  have hps : (floatCase (⟨some t⟩ : LoadCase K)).listPositions rt none position = (⟨some t⟩ : LoadCase K).listPositions rt none position := by
    rcases position with _ | x | xs
    · exact absurd rfl hp
    · rfl
    · rfl
  unfold LoadCase.getLoad
  rw [hps]
  rcases (⟨some t⟩ : LoadCase K).listPositions rt none position with er | ps
  · rfl
  simp only [floatCase, Option.map_some, bind, Except.bind]
  rcases component.resolve with er | comps
  · rfl
  simp only
  split_ifs <;> try rfl

theorem float_step {c : ℤ} (component : CompArg) {acc acc' : Option (Tab K)} (h : acc'.map loadsOnly = acc.map loadsOnly)
    (l : Loc K) :
    ((floatTables b).loadStep rt c component acc' l).map (Option.map loadsOnly)
      = (b.loadStep rt c component acc l).map (Option.map loadsOnly) := by
  unfold Beam.loadStep Element.getLoads
  simp only [floatTables, pyIndex_map, bind, Except.bind]
  rcases pyIndex b.elements (l.elem : ℤ) with er | e
  · rfl
  simp only [float_case]
  rcases e.case c with er | lc
  · rfl
  simp only [Except.map]
  have hg := float_getLoad (rt := rt) lc (.scalar l.loc) (by simp) component
  rcases hA : (floatCase lc).getLoad rt (.scalar l.loc) none component with er | A <;>
    rcases hB : lc.getLoad rt (.scalar l.loc) none component with er' | B <;>
    rw [hA, hB] at hg <;> simp only [Except.map, reduceCtorEq, Except.error.injEq, Except.ok.injEq] at hg
  · simp [hg]
  rcases A with _ | A <;> rcases B with _ | B <;> simp only [Option.map_some, Option.map_none, reduceCtorEq, Option.some.injEq] at hg
  · rfl
  have hset : ∀ (T : Tab K) (x : K), loadsOnly (T.setPos x) = loadsOnly T := by
    intro T x
    simp [loadsOnly, Tab.setPos, Function.comp_def]
  rcases acc with _ | a <;> rcases acc' with _ | a' <;> simp only [Option.map_some, Option.map_none, reduceCtorEq, Option.some.injEq] at h
  · simp only [pure, Except.pure, Option.map_some, hset, hg]
  · simp only [pure, Except.pure, Tab.vstack]
    have h1 : a'.width = a.width := congrArg Prod.fst h
    have h2 : (A.setPos l.pos.val).width = (B.setPos l.pos.val).width := by
      have := congrArg Prod.fst ((hset A l.pos.val).trans (hg.trans (hset B l.pos.val).symm))
      exact this
    rw [h1, h2]
    split_ifs
    · have e1 : a'.rows.map (·.2) = a.rows.map (·.2) := congrArg Prod.snd h
      have e2 : (A.setPos l.pos.val).rows.map (·.2) = (B.setPos l.pos.val).rows.map (·.2) :=
        congrArg Prod.snd ((hset A l.pos.val).trans (hg.trans (hset B l.pos.val).symm))
      simp only [Option.map_some, loadsOnly, List.map_append, e1, e2]
    · rfl

theorem float_fold {c : ℤ} (component : CompArg) (locs : List (Loc K)) :
    ∀ {acc acc' : Option (Tab K)}, acc'.map loadsOnly = acc.map loadsOnly →
    (locs.foldlM ((floatTables b).loadStep rt c component) acc').map (Option.map loadsOnly)
      = (locs.foldlM (b.loadStep rt c component) acc).map (Option.map loadsOnly) := by
  induction locs with
  | nil =>
    intro acc acc' h
    simp [List.foldlM_nil, pure, Except.pure, Except.map, h]
  | cons l locs ih =>
    intro acc acc' h
    have hs := float_step (rt := rt) (b := b) (c := c) component h l
    simp only [List.foldlM_cons, bind, Except.bind]
    rcases hA : (floatTables b).loadStep rt c component acc' l with er | A <;>
      rcases hB : b.loadStep rt c component acc l with er' | B <;>
      rw [hA, hB] at hs <;> simp only [Except.map, reduceCtorEq, Except.error.injEq, Except.ok.injEq] at hs
    · simp [hs, Except.map]
    · exact ih hs

theorem float_getLoads {c : ℤ} (hz : NoIntAtPoint b c) (position : PosArg K) (n : Option ℤ)
    (hf : position = .none → FloatLengths b) (component : CompArg) :
    ((floatTables b).getLoads rt c position n component).map (Option.map loadsOnly)
      = (b.getLoads rt c position n component).map (Option.map loadsOnly) := by
  unfold Beam.getLoads
  rw [float_positions hz position n hf]
  rcases b.listPositions rt position n (some c) with er | locs
  · rfl
  exact float_fold component locs rfl

/-! ## Statements -/

/-- C119: loads are accepted or rejected alike, entered as whole numbers or as floats, and give the same table but for its type. -/
theorem C119_constructor (raw : RawLoads K) : LoadCase.new (floatRaw raw) = (LoadCase.new raw).map floatCase := by
  have hcheck : ∀ (i i' : Bool) (rows : List (LRow K)), (i' = false) →
      LoadCase.checkAndSet i' rows = (LoadCase.checkAndSet i rows).map floatCase := by
    intro i i' rows h
    subst h
    simp only [LoadCase.checkAndSet]
    split_ifs <;> rfl
  have hrow : ∀ r : List (Num K), LRow.ofList (r.map fun x => Num.flt x.val) = LRow.ofList r := by
    intro r
    rcases r with _ | ⟨a, _ | ⟨b, _ | ⟨c, _ | ⟨d, _ | ⟨e, _ | ⟨f, _ | ⟨g, _ | ⟨h, r⟩⟩⟩⟩⟩⟩⟩⟩ <;> rfl
  have hint : ∀ r : List (Num K), allInt (r.map fun x => Num.flt x.val) = false := by
    intro r
    rcases r with _ | ⟨a, r⟩
    · rfl
    · simp [allInt, Num.flt]
  rcases raw with _ | x | r | ⟨n, rows⟩
  · rfl
  · rfl
  · simp only [floatRaw, LoadCase.new, hrow]
    rcases LRow.ofList r with _ | row
    · rfl
    · exact hcheck _ _ _ (hint r)
  · have hfl : (rows.map fun r => r.map fun x : Num K => Num.flt x.val).flatten = rows.flatten.map fun x => Num.flt x.val := by
      rw [List.map_flatten]
    simp only [floatRaw, LoadCase.new, List.all_map, Function.comp_def, List.length_map, List.filterMap_map, hrow, hfl]
    split_ifs
    · rfl
    · exact hcheck _ _ _ (hint _)
    · rfl
    · rfl

variable {b' : Beam K S}

theorem sameNumbers_floatLengths (h : SameNumbers b b') (hf : FloatLengths b) : FloatLengths b' := by
  intro e he l hl
  have hm : floatElement e ∈ (floatTables b).elements := by
    rw [h]; exact List.mem_map_of_mem he
  obtain ⟨e0, he0, h0⟩ := List.mem_map.1 hm
  exact hf e0 he0 l ((congrArg Element.length h0).trans hl)

/-- C119: the same positions are listed. -/
theorem C119_positions {c : ℤ} (h : SameNumbers b b') (hz : NoIntAtPoint b c) (hz' : NoIntAtPoint b' c) (position : PosArg K)
    (n : Option ℤ) (hf : position = .none → FloatLengths b) :
    b'.listPositions rt position n (some c) = b.listPositions rt position n (some c) := by
  rw [← float_positions hz position n hf, ← float_positions hz' position n fun hp => sameNumbers_floatLengths h (hf hp), h]

/-- C119: the same loads are reported, in the same order, with the same exceptions. -/
theorem C119_loads {c : ℤ} (h : SameNumbers b b') (hz : NoIntAtPoint b c) (hz' : NoIntAtPoint b' c) (position : PosArg K)
    (n : Option ℤ) (hf : position = .none → FloatLengths b) (component : CompArg) :
    (b'.getLoads rt c position n component).map (Option.map loadsOnly)
      = (b.getLoads rt c position n component).map (Option.map loadsOnly) := by
  rw [← float_getLoads hz position n hf, ← float_getLoads hz' position n fun hp => sameNumbers_floatLengths h (hf hp), h]

end

section
variable {rt : Rt K} {o : AS4100 K} {b b' : Beam K (Sect K)}

/-- `clampRow` on the loads of a row. -/
def clampLoads : List (Option K) → Py (List (Option K))
  | some x :: rest => .ok (some (if x < 0 then 0 else x) :: rest)
  | none :: _ => .error .typeError
  | [] => .error .indexError

theorem mapM_clamp (rows : List (K × List (Option K))) :
    (rows.mapM clampRow).map (List.map (·.2)) = (rows.map (·.2)).mapM clampLoads := by
  rw [mapM_map_congr (g' := fun r => (clampRow r).map (·.2)) rows fun r _ => ?_]
  · exact (mapM_map_out _ rows fun _ _ => rfl).symm
  · rcases r with ⟨p, _ | ⟨_ | x, rest⟩⟩ <;> rfl

/-- C119: the same tension is found. -/
theorem C119_tension {c : ℤ} (hb : o.beam = some b) (h : SameNumbers b b') (hz : NoIntAtPoint b c) (hz' : NoIntAtPoint b' c)
    (position : PosArg K) (n : Option ℤ) (hf : position = .none → FloatLengths b) :
    (({o with beam := some b'} : AS4100 K).getTension rt c position n).map loadsOnly
      = (o.getTension rt c position n).map loadsOnly := by
  have hl := C119_loads (rt := rt) h hz hz' position n hf (.name "N")
  unfold AS4100.getTension
  simp only [hb, bind, Except.bind]
  rcases hA : b'.getLoads rt c position n (.name "N") with er | A <;>
    rcases hB : b.getLoads rt c position n (.name "N") with er' | B <;>
    rw [hA, hB] at hl <;> simp only [Except.map, reduceCtorEq, Except.error.injEq, Except.ok.injEq] at hl
  · simp [hl, Except.map]
  rcases A with _ | A <;> rcases B with _ | B <;> simp only [Option.map_some, Option.map_none, reduceCtorEq, Option.some.injEq] at hl
  · rfl
  have hw : A.width = B.width := congrArg Prod.fst hl
  have hrows : (A.rows.mapM clampRow).map (List.map (·.2)) = (B.rows.mapM clampRow).map (List.map (·.2)) := by
    rw [mapM_clamp, mapM_clamp, show A.rows.map (·.2) = B.rows.map (·.2) from congrArg Prod.snd hl]
  simp only
  rcases hC : A.rows.mapM clampRow with er | C <;> rcases hD : B.rows.mapM clampRow with er' | D <;>
    rw [hC, hD] at hrows <;> simp only [Except.map, reduceCtorEq, Except.error.injEq, Except.ok.injEq] at hrows
  · simp [hrows, Except.map]
  · simp [Except.map, pure, Except.pure, loadsOnly, hw, hrows]

theorem float_utilAt {c : ℤ} (hb : o.beam = some b) (h : SameNumbers b b') (hz : NoIntAtPoint b c) (hz' : NoIntAtPoint b' c)
    (p : Num K) : ({o with beam := some b'} : AS4100 K).utilAt rt c p = o.utilAt rt c p := by
  have hlen : List.Forall₂ (fun e e' => e.length = e'.length) b.elements b'.elements := by
    have : b.elements.map floatElement = b'.elements.map floatElement := congrArg Beam.elements h
    rw [← List.forall₂_eq_eq_eq, List.forall₂_map_left_iff, List.forall₂_map_right_iff] at this
    exact this.imp fun e e' he => congrArg Element.length he
  have ht := C119_tension (rt := rt) hb h hz hz' (.scalar p) none (by simp)
  unfold AS4100.utilAt
  rw [capacity_beam hb hlen]
  rcases o.tensionCapacity rt (.scalar p) with er | cap
  · rfl
  simp only [bind, Except.bind]
  rcases hA : ({o with beam := some b'} : AS4100 K).getTension rt c (.scalar p) none with er | A <;>
    rcases hB : o.getTension rt c (.scalar p) none with er' | B <;>
    rw [hA, hB] at ht <;> simp only [Except.map, reduceCtorEq, Except.error.injEq, Except.ok.injEq] at ht
  · simp [ht]
  have hr : A.rows.map (·.2) = B.rows.map (·.2) := congrArg Prod.snd ht
  let g : List (Option K) → Py (ℤ × Num K × K) := fun vs =>
    match vs with
    | some t :: _ => (match utilOne rt cap t with | .error e => .error e | .ok v => pure (c, p, v))
    | _ => .error .typeError
  have hg : ∀ rows : List (K × List (Option K)), rows.mapM (fun r => g r.2) = (rows.map (·.2)).mapM g := by
    intro rows
    exact (mapM_map_congr rows fun _ _ => rfl).symm
  have hgr := (hg A.rows).trans ((congrArg (fun l => l.mapM g) hr).trans (hg B.rows).symm)
  dsimp only
  refine (mapM_congr' (g' := fun r => g r.2) A.rows ?_).trans (hgr.trans (mapM_congr' (g' := fun r => g r.2) B.rows ?_).symm)
  · rintro ⟨x, _ | ⟨_ | t, rest⟩⟩ -
    · rfl
    · rfl
    · simp only [g]; rcases utilOne rt cap t with er | v <;> rfl
  · rintro ⟨x, _ | ⟨_ | t, rest⟩⟩ -
    · rfl
    · rfl
    · simp only [g]; rcases utilOne rt cap t with er | v <;> rfl

theorem float_utilLoop (hb : o.beam = some b) (h : SameNumbers b b') (cs : List ℤ) (hz : ∀ c ∈ cs, NoIntAtPoint b c)
    (hz' : ∀ c ∈ cs, NoIntAtPoint b' c) :
    ∀ pos : Option (List (Num K)), (pos = none → FloatLengths b) →
      ({o with beam := some b'} : AS4100 K).utilLoop rt pos cs = o.utilLoop rt pos cs := by
  induction cs with
  | nil => intro pos _; rfl
  | cons c cs ih =>
    intro pos hf
    have hp : ({o with beam := some b'} : AS4100 K).utilPositions rt pos c = o.utilPositions rt pos c := by
      unfold AS4100.utilPositions
      rcases pos with _ | ps
      · simp only [hb]
        rw [C119_positions h (hz c List.mem_cons_self) (hz' c List.mem_cons_self) .none _ fun _ => hf rfl]
      · rfl
    rw [AS4100.utilLoop, AS4100.utilLoop, hp]
    rcases o.utilPositions rt pos c with er | ps
    · rfl
    simp only [bind, Except.bind]
    rw [mapM_congr' ps fun p _ => float_utilAt hb h (hz c List.mem_cons_self) (hz' c List.mem_cons_self) p,
      ih (fun k hk => hz k (List.mem_cons_of_mem _ hk)) (fun k hk => hz' k (List.mem_cons_of_mem _ hk)) (some ps) (by simp)]

/-- C119: the utilisation is the same, at given positions and (with element lengths that are floats) overall; also its exceptions. -/
theorem C119_utilisation (hb : o.beam = some b) (h : SameNumbers b b') (loadCase : CaseArg) (position : PosArg K)
    (hz : ∀ c, NoIntAtPoint b c) (hz' : ∀ c, NoIntAtPoint b' c) (hf : position = .none → FloatLengths b) :
    ({o with beam := some b'} : AS4100 K).tensionUtilisation rt loadCase position = o.tensionUtilisation rt loadCase position := by
  have hcases : ({o with beam := some b'} : AS4100 K).utilCases loadCase = o.utilCases loadCase := by
    rcases loadCase with _ | c | cs
    · simp only [AS4100.utilCases, hb, Beam.loadCases]
      have he : b.elements.map floatElement = b'.elements.map floatElement := congrArg Beam.elements h
      rcases hA : b.elements with _ | ⟨e, es⟩ <;> rcases hB : b'.elements with _ | ⟨e', es'⟩ <;> rw [hA, hB] at he <;>
        simp only [List.map_cons, List.map_nil, reduceCtorEq, List.cons.injEq] at he
      · have hk : ∀ e : Element K (Sect K), (floatElement e).loadCases = e.loadCases := by
          intro e; simp [Element.loadCases, floatElement]
        simp only
        rw [← hk e, ← hk e', he.1]
    · rfl
    · rfl
  unfold AS4100.tensionUtilisation
  rw [hcases]
  rcases hg : position.given with er | given
  · rfl
  simp only [bind, Except.bind]
  rcases o.utilCases loadCase with er | cs
  · rfl
  simp only
  rw [float_utilLoop hb h cs (fun c _ => hz c) (fun c _ => hz' c) given fun hn => hf ?_]
  subst hn
  rcases position with _ | x | xs
  · rfl
  · simp only [PosArg.given] at hg
    split_ifs at hg <;> cases hg
  · cases hg

end

/-! ## Example -/

/-- A rod of two pieces, the first 2 m, the second 3 m, pulled by 10 kN and 20 kN; the loads entered as ints or as floats. -/
def typedRod (int1 int2 : Bool) : Beam ℚ (Sect ℚ) :=
  ⟨[⟨[(1, ⟨some ⟨int1, [Samples.axial 0 10000, Samples.axial 1 20000]⟩⟩)], some (Num.flt 2), Samples.rod (1 / 100)⟩,
    ⟨[(1, ⟨some ⟨int2, [Samples.axial 0 20000]⟩⟩)], some (Num.flt 3), Samples.rod (1 / 100)⟩]⟩

example : SameNumbers (typedRod true false) (typedRod false false) ∧ (∀ c, NoIntAtPoint (typedRod true false) c) ∧
    (∀ c, NoIntAtPoint (typedRod false false) c) ∧ FloatLengths (typedRod true false) ∧
    ((typedRod true false).getLoads Samples.rt 1 (.list [Num.flt (1 / 2), Num.flt 2]) none (.name "N")).toOption
      = some (some ⟨.flt, 1, [(1 / 2, [some 12500]), (2, [some 20000]), (2, [some 20000])]⟩) := by
  have hz : ∀ i j c, NoIntAtPoint (typedRod i j) c := by
    intro i j c e he l hl h0
    exfalso
    simp only [typedRod, List.mem_cons, List.not_mem_nil, or_false] at he
    rcases he with rfl | rfl <;> (simp only [Option.some.injEq] at hl; subst hl; norm_num [Num.flt] at h0)
  refine ⟨rfl, hz _ _, hz _ _, ?_, by decide +kernel⟩
  intro e he l hl
  simp only [typedRod, List.mem_cons, List.not_mem_nil, or_false] at he
  rcases he with rfl | rfl <;> (simp only [Option.some.injEq] at hl; subst hl; rfl)

/-- Not every pair of beams is one of these: other numbers are other loads. -/
example : ¬ SameNumbers (typedRod true false) ⟨[]⟩ := by
  intro h
  have := congrArg (fun b : Beam ℚ (Sect ℚ) => b.elements.length) h
  simp [floatTables, typedRod] at this

end BeamDesign
