import Verif.Lemmas.Congr
import Verif.Spec.Cases

/-!
# Loads depend on one load case only
-/

set_option linter.unusedSectionVars false

namespace BeamDesign

open Spec

variable {K : Type} [Field K] [LinearOrder K] [IsStrictOrderedRing K] [FloorRing K]

section
variable {S S' : Type} {rt : Rt K}

/-- Two lists of elements as two views of one list. -/
theorem common_source {es : List (Element K S)} {es' : List (Element K S')}
    {R : Element K S → Element K S' → Prop} (h : List.Forall₂ R es es') :
    ∃ B : List (Element K (Element K S × Element K S')),
      B.map (fun e => e.sect.1) = es ∧ B.map (fun e => e.sect.2) = es' ∧
      ∀ e ∈ B, R e.sect.1 e.sect.2 ∧ e.length = e.sect.1.length ∧ e.loads = e.sect.1.loads := by
  induction h with
  | nil => exact ⟨[], rfl, rfl, by simp⟩
  | @cons a a' l l' ha _ ih =>
    obtain ⟨B, h1, h2, h3⟩ := ih
    refine ⟨⟨a.loads, a.length, (a, a')⟩ :: B, by simp [h1], by simp [h2], ?_⟩
    intro e he
    rcases List.mem_cons.1 he with rfl | he
    · exact ⟨ha, rfl, rfl⟩
    · exact h3 e he

variable {b : Beam K S} {b' : Beam K S'}

/-- The two beams agree on lengths, and the load case `c` of the one is the load case `c'` of the other. -/
def CaseAs (c c' : ℤ) (b : Beam K S) (b' : Beam K S') : Prop :=
  List.Forall₂ (fun e e' => e.length = e'.length ∧ e.loads.lookup c = e'.loads.lookup c') b.elements b'.elements

theorem caseAs_positions {c c' : ℤ} (h : CaseAs c c' b b') (position : PosArg K) (n : Option ℤ) :
    b'.listPositions rt position n (some c') = b.listPositions rt position n (some c) := by
  obtain ⟨B, h1, h2, h3⟩ := common_source h
  have g1 := listPositions_rename (rt := rt) (b := ⟨B⟩) (f := fun e => e.sect.1)
    (fun e he => by simp only [Element.len, (h3 e he).2.1]) (some c) (some c) (by simp) (by
      intro e he k k' hk hk'
      obtain rfl := Option.some.inj hk
      obtain rfl := Option.some.inj hk'
      unfold Element.loadPositions Element.case
      rw [(h3 e he).2.2]) position n
  have g2 := listPositions_rename (rt := rt) (b := ⟨B⟩) (f := fun e => e.sect.2)
    (fun e he => by simp only [Element.len, (h3 e he).2.1, (h3 e he).1.1]) (some c) (some c') (by simp) (by
      intro e he k k' hk hk'
      obtain rfl := Option.some.inj hk
      obtain rfl := Option.some.inj hk'
      unfold Element.loadPositions Element.case
      rw [(h3 e he).2.2, (h3 e he).1.2]) position n
  simp only [h1] at g1
  simp only [h2] at g2
  exact g2.trans g1.symm

theorem lengths_positions
    (h : List.Forall₂ (fun e e' => e.length = e'.length) b.elements b'.elements) (position : PosArg K) (n : Option ℤ) :
    b'.listPositions rt position n none = b.listPositions rt position n none := by
  obtain ⟨B, h1, h2, h3⟩ := common_source h
  have g1 := listPositions_rename (rt := rt) (b := ⟨B⟩) (f := fun e => e.sect.1)
    (fun e he => by simp only [Element.len, (h3 e he).2.1]) none none (by simp) (by
      intro e he k k' hk; simp at hk) position n
  have g2 := listPositions_rename (rt := rt) (b := ⟨B⟩) (f := fun e => e.sect.2)
    (fun e he => by simp only [Element.len, (h3 e he).2.1, (h3 e he).1]) none none (by simp) (by
      intro e he k k' hk; simp at hk) position n
  simp only [h1] at g1
  simp only [h2] at g2
  exact g2.trans g1.symm

theorem caseAs_loads {c c' : ℤ} (h : CaseAs c c' b b') (position : PosArg K) (n : Option ℤ) (component : CompArg) :
    b'.getLoads rt c' position n component = b.getLoads rt c position n component := by
  obtain ⟨B, h1, h2, h3⟩ := common_source h
  have g1 := getLoads_rename (rt := rt) (b := ⟨B⟩) (f := fun e => e.sect.1)
    (fun e he => by simp only [Element.len, (h3 e he).2.1]) c c (by
      intro e he
      unfold Element.case
      rw [(h3 e he).2.2]) position n component
  have g2 := getLoads_rename (rt := rt) (b := ⟨B⟩) (f := fun e => e.sect.2)
    (fun e he => by simp only [Element.len, (h3 e he).2.1, (h3 e he).1.1]) c c' (by
      intro e he
      unfold Element.case
      rw [(h3 e he).2.2, (h3 e he).1.2]) position n component
  simp only [h1] at g1
  simp only [h2] at g2
  exact g2.trans g1.symm

theorem lengths_section {b b' : Beam K S} {c c' : Option ℤ}
    (h : List.Forall₂ (fun e e' => e.length = e'.length ∧ e.sect = e'.sect) b.elements b'.elements)
    {position : PosArg K} {n : Option ℤ}
    (hp : b'.listPositions rt position n c' = b.listPositions rt position n c) :
    b'.getSection rt position n c' = b.getSection rt position n c := by
  unfold Beam.getSection
  rw [hp]
  obtain ⟨B, h1, h2, h3⟩ := common_source h
  have : ∀ i, (do let e ← pyIndex b'.elements i; return e.sect : Py S) = (do let e ← pyIndex b.elements i; return e.sect) := by
    intro i
    rw [← h1, ← h2, pyIndex_map, pyIndex_map]
    rcases hB : pyIndex B i with e | e
    · rfl
    · have he : e ∈ B := by
        obtain ⟨j, hj, -⟩ := (pyIndex_ok_iff _ _ _).1 hB
        exact List.mem_of_getElem? hj
      simp only [bind, Except.bind, pure, Except.pure, (h3 e he).1.2]
  congr 1
  funext locs
  congr 1
  funext l
  have h' := this (l.elem : ℤ)
  revert h'
  rcases pyIndex b'.elements (l.elem : ℤ) with e | e <;> rcases pyIndex b.elements (l.elem : ℤ) with e' | e' <;>
    simp [bind, Except.bind, pure, Except.pure]

end

/-! ## Renumbering -/

section
variable {S : Type} {rt : Rt K}

theorem lookup_renumber {ρ : ℤ → ℤ} (hρ : Function.Injective ρ) (l : List (ℤ × LoadCase K)) (c : ℤ) :
    (l.map fun x => (ρ x.1, x.2)).lookup (ρ c) = l.lookup c := by
  induction l with
  | nil => rfl
  | cons a l ih =>
    rcases a with ⟨k, lc⟩
    simp only [List.map_cons, List.lookup_cons]
    by_cases h : c = k
    · subst h; simp
    · have h' : ρ c ≠ ρ k := fun e => h (hρ e)
      simp only [beq_eq_false_iff_ne.2 h, beq_eq_false_iff_ne.2 h', ih]

theorem renumber_caseAs {ρ : ℤ → ℤ} (hρ : Function.Injective ρ) (b : Beam K S) (c : ℤ) :
    CaseAs c (ρ c) b (renumber ρ b) := by
  unfold CaseAs renumber
  rw [List.forall₂_map_right_iff, List.forall₂_same]
  intro e _
  exact ⟨rfl, (lookup_renumber hρ _ _).symm⟩

theorem renumber_plain (ρ : ℤ → ℤ) (b : Beam K S) :
    List.Forall₂ (fun e e' => e.length = e'.length ∧ e.sect = e'.sect) b.elements (renumber ρ b).elements := by
  unfold renumber
  rw [List.forall₂_map_right_iff, List.forall₂_same]
  intro e _
  exact ⟨rfl, rfl⟩

/-- Positions under the new number. -/
theorem renumber_positions {ρ : ℤ → ℤ} (hρ : Function.Injective ρ) (b : Beam K S) (position : PosArg K) (n c : Option ℤ) :
    (renumber ρ b).listPositions rt position n (c.map ρ) = b.listPositions rt position n c := by
  cases c with
  | none => exact lengths_positions ((renumber_plain ρ b).imp fun _ _ h => h.1) position n
  | some c => exact caseAs_positions (renumber_caseAs hρ b c) position n

end

/-! ## Checks -/

section
variable {rt : Rt K} {o : AS4100 K} {b b' : Beam K (Sect K)}

theorem considered_beam (hb : o.beam = some b)
    (h : List.Forall₂ (fun e e' => e.length = e'.length) b.elements b'.elements) (position : PosArg K) :
    ({o with beam := some b'} : AS4100 K).considered rt position = o.considered rt position := by
  cases position <;> simp only [AS4100.considered, AS4100.getDSection, hb, lengths_positions h]

theorem capacity_beam (hb : o.beam = some b)
    (h : List.Forall₂ (fun e e' => e.length = e'.length) b.elements b'.elements) (position : PosArg K) :
    ({o with beam := some b'} : AS4100 K).tensionCapacity rt position = o.tensionCapacity rt position := by
  unfold AS4100.tensionCapacity AS4100.phiNt AS4100.Nt AS4100.Nty AS4100.Ntu
  rw [considered_beam hb h]

theorem tension_beam {c c' : ℤ} (hb : o.beam = some b) (h : CaseAs c c' b b') (position : PosArg K) (n : Option ℤ) :
    ({o with beam := some b'} : AS4100 K).getTension rt c' position n = o.getTension rt c position n := by
  unfold AS4100.getTension
  simp only [hb, caseAs_loads h]

/-- The outcome with the load case number replaced. -/
def relabel (ρ : ℤ → ℤ) (r : ℤ × Num K × K) : ℤ × Num K × K := (ρ r.1, r.2)

theorem mapM_map_out {α β γ : Type} (g : β → γ) {f : α → Py β} {f' : α → Py γ} (l : List α)
    (h : ∀ x ∈ l, f' x = (f x).map g) : l.mapM f' = (l.mapM f).map (List.map g) := by
  induction l with
  | nil => rfl
  | cons a l ih =>
    rw [List.mapM_cons, List.mapM_cons, h a List.mem_cons_self, ih fun x hx => h x (List.mem_cons_of_mem _ hx)]
    rcases f a with e | y
    · rfl
    · rcases l.mapM f with e | ys <;> rfl

theorem utilAt_beam {ρ : ℤ → ℤ} {c : ℤ} (hb : o.beam = some b) (h : CaseAs c (ρ c) b b') (p : Num K) :
    ({o with beam := some b'} : AS4100 K).utilAt rt (ρ c) p = (o.utilAt rt c p).map (List.map (relabel ρ)) := by
  unfold AS4100.utilAt
  rw [capacity_beam hb (h.imp fun _ _ h => h.1), tension_beam hb h]
  rcases o.tensionCapacity rt (.scalar p) with e | cap
  · rfl
  rcases o.getTension rt c (.scalar p) none with e | tab
  · rfl
  simp only [bind, Except.bind]
  refine mapM_map_out _ _ ?_
  rintro ⟨x, vs⟩ -
  rcases vs with _ | ⟨_ | t, rest⟩
  · rfl
  · rfl
  · simp only
    rcases utilOne rt cap t with e | u <;> rfl

theorem utilPositions_beam {c c' : ℤ} (hb : o.beam = some b) (h : CaseAs c c' b b') (pos : Option (List (Num K))) :
    ({o with beam := some b'} : AS4100 K).utilPositions rt pos c' = o.utilPositions rt pos c := by
  unfold AS4100.utilPositions
  rcases pos with _ | ps
  · simp only [hb, caseAs_positions h]
  · rfl

theorem utilLoop_beam {ρ : ℤ → ℤ} (hb : o.beam = some b) (cs : List ℤ) (h : ∀ c ∈ cs, CaseAs c (ρ c) b b') :
    ∀ pos, ({o with beam := some b'} : AS4100 K).utilLoop rt pos (cs.map ρ)
      = (o.utilLoop rt pos cs).map (List.map (relabel ρ)) := by
  induction cs with
  | nil => intro pos; rfl
  | cons c cs ih =>
    intro pos
    have hc := h c List.mem_cons_self
    rw [List.map_cons, AS4100.utilLoop, AS4100.utilLoop, utilPositions_beam hb hc]
    rcases o.utilPositions rt pos c with e | ps
    · rfl
    simp only [bind, Except.bind]
    rw [mapM_map_out (List.map (relabel ρ)) ps fun p _ => utilAt_beam hb hc p]
    rcases ps.mapM fun p => o.utilAt rt c p with e | here
    · rfl
    simp only [Except.map]
    rw [ih (fun c' hc' => h c' (List.mem_cons_of_mem _ hc'))]
    rcases o.utilLoop rt (some ps) cs with e | rest
    · rfl
    · simp only [Except.map, pure, Except.pure, List.map_append, List.map_flatten]

end

end BeamDesign
