import Verif.Lemmas.Cases
import Verif.Props.Local
import Verif.Spec.Columns
import Verif.Spec.SamplesAS

/-!
# C126: components do not influence each other
-/

set_option linter.unusedSectionVars false

namespace BeamDesign

open Spec

variable {K : Type} [Field K] [LinearOrder K] [IsStrictOrderedRing K] [FloorRing K]

/-! ## Helpers -/

section
variable {rt : Rt K} {a a' : LoadCase K} {cs : List LComp}

theorem columns_positions (h : SameColumns cs a a') : a'.loadPositions = a.loadPositions := by
  unfold LoadCase.loadPositions
  rcases h with ⟨h1, h2⟩ | ⟨t, t', h1, h2, hi, h3⟩
  · rw [h1, h2]
  · rw [h1, h2]
    simp only [hi]
    congr 1
    generalize t.rows = l at h3 ⊢
    generalize t'.rows = l' at h3 ⊢
    induction h3 with
    | nil => rfl
    | cons hr _ ih => simp [hr.1, ih]

theorem columns_list (h : SameColumns cs a a') (n : Option ℤ) (position : PosArg K) :
    a'.listPositions rt n position = a.listPositions rt n position := by
  unfold LoadCase.listPositions
  simp only [columns_positions h]

theorem forall₂_filter_map {α β : Type} {R : α → α → Prop} {l l' : List α} (h : List.Forall₂ R l l') (p : α → Bool)
    (hp : ∀ x y, R x y → p x = p y) (f : α → β) (hf : ∀ x y, R x y → f x = f y) :
    (l.filter p).map f = (l'.filter p).map f := by
  induction h with
  | nil => rfl
  | @cons x y l l' hr _ ih =>
    by_cases hx : p x = true
    · rw [List.filter_cons_of_pos hx, List.filter_cons_of_pos (hp x y hr ▸ hx), List.map_cons, List.map_cons, ih, hf x y hr]
    · rw [List.filter_cons_of_neg hx, List.filter_cons_of_neg (hp x y hr ▸ hx), ih]

theorem forall₂_map_eq {α β : Type} {R : α → α → Prop} {l l' : List α} (h : List.Forall₂ R l l') (f : α → β)
    (hf : ∀ x y, R x y → f x = f y) : l.map f = l'.map f := by
  have := forall₂_filter_map h (fun _ => true) (fun _ _ _ => rfl) f hf
  simpa using this

/-- C126, one load case: the answer for some components depends only on these components, in any arithmetic and errors
included. -/
theorem C126_load_case (rt : Rt K) (cs : List LComp) (a a' : LoadCase K) (h : SameColumns cs a a') (position : PosArg K)
    (n : Option ℤ) (component : CompArg) (hc : Asks component cs) :
    a'.getLoad rt position n component = a.getLoad rt position n component := by
  rw [asks_iff] at hc
  unfold LoadCase.getLoad
  rw [columns_list h]
  rcases a.listPositions rt n position with e | ps
  · rfl
  simp only [bind, Except.bind]
  rcases h with ⟨h1, h2⟩ | ⟨t, t', h1, h2, hi, h3⟩
  · rw [h1, h2]
  rw [h1, h2]
  have e1 : t'.rows.map (·.pos) = t.rows.map (·.pos) := (forall₂_map_eq h3 _ fun _ _ hr => hr.1).symm
  have e2 : t'.rows.map (fun r => ((r.pos, cs.map r.get) : Row K)) = t.rows.map fun r => (r.pos, cs.map r.get) := by
    refine (forall₂_map_eq h3 _ fun r r' hr => ?_).symm
    rw [hr.1, List.map_congr_left (g := r'.get)]
    intro c hcc
    have := hr.2 c hcc
    rwa [entry_eq, entry_eq] at this
  have e3 : ∀ D : List K, (t'.rows.filter fun r => decide (r.pos ∈ D)).map (fun r => ((r.pos, cs.map r.get) : Row K))
      = (t.rows.filter fun r => decide (r.pos ∈ D)).map fun r => (r.pos, cs.map r.get) := by
    intro D
    refine (forall₂_filter_map h3 _ (fun r r' hr => by rw [hr.1]) _ fun r r' hr => ?_).symm
    rw [hr.1, List.map_congr_left (g := r'.get)]
    intro c hcc
    have := hr.2 c hcc
    rwa [entry_eq, entry_eq] at this
  have e4 : (cs.map fun c => t'.rows.map fun r => r.get c) = cs.map fun c => t.rows.map fun r => r.get c := by
    refine List.map_congr_left fun c hcc => ?_
    refine (forall₂_map_eq h3 _ fun r r' hr => ?_).symm
    have := hr.2 c hcc
    rwa [entry_eq, entry_eq] at this
  simp only [hc, e1, e2, e3, e4, hi]

end

section
variable {S : Type} {rt : Rt K}

/-- C126, beams: positions and the loads of some components depend only on these components. -/
theorem C126_beam (rt : Rt K) (cs : List LComp) (k : ℤ) (b b' : Beam K S) (h : SameComponents cs k b b')
    (position : PosArg K) (n : Option ℤ) (component : CompArg) (hc : Asks component cs) :
    b'.listPositions rt position n (some k) = b.listPositions rt position n (some k) ∧
    b'.getLoads rt k position n component = b.getLoads rt k position n component := by
  obtain ⟨B, h1, h2, h3⟩ := common_source h
  have hpos : ∀ e ∈ B, e.sect.2.loadPositions k = e.sect.1.loadPositions k := by
    intro e he
    unfold Element.loadPositions Element.case
    rcases (h3 e he).1.2 with ⟨g1, g2⟩ | ⟨a, a', g1, g2, g3⟩
    · rw [g1, g2]
    · rw [g1, g2]
      exact columns_positions g3
  have hlist : b'.listPositions rt position n (some k) = b.listPositions rt position n (some k) := by
    have g1 := listPositions_rename (rt := rt) (b := ⟨B⟩) (f := fun e => e.sect.1)
      (fun e he => by simp only [Element.len, (h3 e he).2.1]) (some k) (some k) (by simp) (by
        intro e he i i' hk hk'
        obtain rfl := Option.some.inj hk
        obtain rfl := Option.some.inj hk'
        unfold Element.loadPositions Element.case
        rw [(h3 e he).2.2]) position n
    have g2 := listPositions_rename (rt := rt) (b := ⟨B⟩) (f := fun e => e.sect.2)
      (fun e he => by simp only [Element.len, (h3 e he).2.1, (h3 e he).1.1]) (some k) (some k) (by simp) (by
        intro e he i i' hk hk'
        obtain rfl := Option.some.inj hk
        obtain rfl := Option.some.inj hk'
        rw [hpos e he]
        unfold Element.loadPositions Element.case
        rw [(h3 e he).2.2]) position n
    simp only [h1] at g1
    simp only [h2] at g2
    exact g2.trans g1.symm
  refine ⟨hlist, ?_⟩
  unfold Beam.getLoads
  rw [hlist]
  have : b'.loadStep rt k component = b.loadStep rt k component := by
    funext acc l
    unfold Beam.loadStep
    rw [← h1, ← h2, pyIndex_map, pyIndex_map]
    rcases hB : pyIndex B (l.elem : ℤ) with e | e
    · rfl
    · have he : e ∈ B := by
        obtain ⟨j, hj, -⟩ := (pyIndex_ok_iff _ _ _).1 hB
        exact List.mem_of_getElem? hj
      have hg : e.sect.2.getLoads rt k (.scalar l.loc) none component = e.sect.1.getLoads rt k (.scalar l.loc) none component := by
        unfold Element.getLoads Element.case
        rcases (h3 e he).1.2 with ⟨g1, g2⟩ | ⟨a, a', g1, g2, g3⟩
        · rw [g1, g2]
        · rw [g1, g2]
          exact C126_load_case rt cs a a' g3 _ none component hc
      simp only [bind, Except.bind, hg]
  rw [this]

end

section
variable {rt : Rt K} {o : AS4100 K} {b b' : Beam K (Sect K)}

/-- C126, the check: tension and its utilisation depend only on the axial loads, at explicit positions and overall, in any
arithmetic and errors included. -/
theorem C126_check (rt : Rt K) (o : AS4100 K) (b b' : Beam K (Sect K)) (hb : o.beam = some b)
    (loadCase : CaseArg) (cs : List ℤ) (hcs : CasesOf o loadCase cs)
    (hcs' : CasesOf ({o with beam := some b'} : AS4100 K) loadCase cs)
    (h : ∀ k ∈ cs, SameComponents [.N] k b b') (position : PosArg K) :
    (∀ k ∈ cs, ∀ n, ({o with beam := some b'} : AS4100 K).getTension rt k position n = o.getTension rt k position n) ∧
    ({o with beam := some b'} : AS4100 K).tensionUtilisation rt loadCase position
      = o.tensionUtilisation rt loadCase position := by
  have hten : ∀ k ∈ cs, ∀ position n,
      ({o with beam := some b'} : AS4100 K).getTension rt k position n = o.getTension rt k position n := by
    intro k hk position n
    unfold AS4100.getTension
    simp only [hb, (C126_beam rt [.N] k b b' (h k hk) position n (.name "N") ⟨.N, rfl, by simp⟩).2]
  refine ⟨fun k hk n => hten k hk position n, ?_⟩
  have hat : ∀ k ∈ cs, ∀ p, ({o with beam := some b'} : AS4100 K).utilAt rt k p = o.utilAt rt k p := by
    intro k hk p
    unfold AS4100.utilAt
    rw [capacity_beam hb ((h k hk).imp fun _ _ g => g.1), hten k hk]
  have hloop : ∀ ks : List ℤ, (∀ k ∈ ks, k ∈ cs) → ∀ pos,
      ({o with beam := some b'} : AS4100 K).utilLoop rt pos ks = o.utilLoop rt pos ks := by
    intro ks
    induction ks with
    | nil => intro _ pos; rfl
    | cons k ks ih =>
      intro hk pos
      have hk0 := hk k List.mem_cons_self
      have hp : ({o with beam := some b'} : AS4100 K).utilPositions rt pos k = o.utilPositions rt pos k := by
        unfold AS4100.utilPositions
        rcases pos with _ | ps
        · simp only [hb, (C126_beam rt [.N] k b b' (h k hk0) .none (some o.assessmentPoints) (.name "N") ⟨.N, rfl, by simp⟩).1]
        · rfl
      simp only [AS4100.utilLoop, hp, hat k hk0, ih fun j hj => hk j (List.mem_cons_of_mem _ hj)]
  unfold AS4100.tensionUtilisation
  rw [casesOf_utilCases hcs, casesOf_utilCases hcs']
  simp only [bind, Except.bind, hloop cs fun k hk => hk]

end

/-! ### A case of C126 -/

section
open Samples

/-- the loads of `Samples.rows` with shears, moments and torques of their own -/
def otherRows : List (LRow ℚ) := rows.map fun r => ⟨r.pos, r.n + 1, 2 * r.vx, r.n, -r.my, r.pos, 3⟩

/-- the beam `Samples.rods` with these loads -/
def otherRods : Beam ℚ (Sect ℚ) :=
  ⟨[⟨[(7, ⟨some ⟨false, otherRows⟩⟩)], some (Num.flt 2), rod (1/100)⟩,
    ⟨[(7, ⟨some ⟨false, otherRows⟩⟩)], some (Num.flt 3), rod (1/50)⟩]⟩

theorem otherRods_same : SameComponents [.N] 7 rods otherRods := by
  have h : SameColumns [.N] lc ⟨some ⟨false, otherRows⟩⟩ := by
    refine Or.inr ⟨⟨false, rows⟩, ⟨false, otherRows⟩, rfl, rfl, rfl, ?_⟩
    rw [otherRows, List.forall₂_map_right_iff, List.forall₂_same]
    intro r _
    refine ⟨rfl, fun c hc => ?_⟩
    rw [List.mem_singleton.1 hc]
    rfl
  exact .cons ⟨rfl, Or.inr ⟨_, _, rfl, rfl, h⟩⟩ (.cons ⟨rfl, Or.inr ⟨_, _, rfl, rfl, h⟩⟩ .nil)

example : ({obj with beam := some otherRods} : AS4100 ℚ).tensionUtilisation Samples.rt .none .none
    = obj.tensionUtilisation Samples.rt .none .none :=
  (C126_check Samples.rt obj rods otherRods rfl .none [7] (Or.inr (Or.inr ⟨rfl, _, _, _, rfl, rfl, rfl⟩))
    (Or.inr (Or.inr ⟨rfl, _, _, _, rfl, rfl, rfl⟩)) (fun k hk => by rw [List.mem_singleton.1 hk]; exact otherRods_same) .none).2

/-- the other components do differ -/
example : otherRods.getLoads Samples.rt 7 (.scalar (Num.flt 1)) none (.name "VX")
    ≠ rods.getLoads Samples.rt 7 (.scalar (Num.flt 1)) none (.name "VX") := by decide +kernel

end

end BeamDesign
