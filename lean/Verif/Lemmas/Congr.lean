import Verif.Lemmas.Positions
import Verif.Lemmas.Beam

set_option linter.unusedSectionVars false
set_option linter.unusedSimpArgs false

/-! # What positions and loads depend on -/

namespace BeamDesign

variable {K : Type} [Field K] [LinearOrder K] [IsStrictOrderedRing K] [FloorRing K]

/-! ## Positions do not depend on load values -/

theorem mapM_map_congr {α β γ : Type} {f : α → β} {g : β → Py γ} {g' : α → Py γ} (l : List α)
    (h : ∀ x ∈ l, g (f x) = g' x) : (l.map f).mapM g = l.mapM g' := by
  induction l with
  | nil => rfl
  | cons a l ih =>
    rw [List.map_cons, List.mapM_cons, List.mapM_cons, h a List.mem_cons_self,
      ih fun x hx => h x (List.mem_cons_of_mem _ hx)]

theorem mapM_congr' {α γ : Type} {g g' : α → Py γ} (l : List α) (h : ∀ x ∈ l, g x = g' x) :
    l.mapM g = l.mapM g' := by
  have := mapM_map_congr (f := id) l h
  rwa [List.map_id] at this

theorem pyIndex_map {α β : Type} (f : α → β) (l : List α) (i : ℤ) :
    pyIndex (l.map f) i = (match pyIndex l i with | .error e => .error e | .ok x => .ok (f x)) := by
  unfold pyIndex
  simp only [List.length_map, List.getElem?_map]
  generalize (if i < 0 then i + (l.length : ℤ) else i) = j
  by_cases hj : j < 0
  · simp only [if_pos hj]
  · simp only [if_neg hj]
    rcases l[j.toNat]? with _ | x <;> rfl

section
variable {S S' : Type} {rt : Rt K} {b : Beam K S} {f : Element K S → Element K S'}

/-- Same lengths and same load positions give the same listing, whatever number the load case goes by. -/
theorem listPositions_rename (hlen : ∀ e ∈ b.elements, (f e).len = e.len) (c c' : Option ℤ)
    (hc : c = none ↔ c' = none)
    (hpos : ∀ e ∈ b.elements, ∀ k k', c = some k → c' = some k' → (f e).loadPositions k' = e.loadPositions k)
    (position : PosArg K) (n : Option ℤ) :
    (⟨b.elements.map f⟩ : Beam K S').listPositions rt position n c' = b.listPositions rt position n c := by
  have h1 : (⟨b.elements.map f⟩ : Beam K S').lengths = b.lengths := mapM_map_congr _ hlen
  have h2 : (⟨b.elements.map f⟩ : Beam K S').elementEnds rt = b.elementEnds rt := by
    unfold Beam.elementEnds; rw [h1]
  have h3 : (⟨b.elements.map f⟩ : Beam K S').length rt = b.length rt := by
    unfold Beam.length; rw [h1]
  have h4 : ∀ p, (⟨b.elements.map f⟩ : Beam K S').inElements rt p = b.inElements rt p := by
    intro p; unfold Beam.inElements; rw [h2]
  have h5 : ∀ i, (⟨b.elements.map f⟩ : Beam K S').getElementStartEnd rt i = b.getElementStartEnd rt i := by
    intro i; unfold Beam.getElementStartEnd; rw [h2]
  have hidx : ∀ {e i}, pyIndex b.elements i = .ok e → e ∈ b.elements := by
    intro e i h
    obtain ⟨j, hj, -⟩ := (pyIndex_ok_iff _ _ _).1 h
    exact List.mem_of_getElem? hj
  have h6 : ∀ p i, (⟨b.elements.map f⟩ : Beam K S').localToBeam rt p i = b.localToBeam rt p i := by
    intro p i
    unfold Beam.localToBeam
    rw [h5]
    simp only [pyIndex_map]
    split_ifs
    · rfl
    simp only [bind, Except.bind]
    split
    · rfl
    rcases hp : pyIndex b.elements i with e | e
    · rfl
    · simp only [hlen e (hidx hp)]
  have h7 : ∀ p i, (⟨b.elements.map f⟩ : Beam K S').beamToLocal rt p i = b.beamToLocal rt p i := by
    intro p i
    unfold Beam.beamToLocal
    rw [h5]
    simp only [pyIndex_map, bind, Except.bind]
    split
    · rfl
    rcases hp : pyIndex b.elements i with e | e
    · rfl
    · simp only [hlen e (hidx hp)]
  have h8 : ∀ e ∈ b.elements, ∀ i,
      (⟨b.elements.map f⟩ : Beam K S').realPositions rt c' i (f e) = b.realPositions rt c i e := by
    intro e he i
    unfold Beam.realPositions
    rcases c with _ | k <;> rcases c' with _ | k'
    · simp only [h6]
    · simp at hc
    · simp at hc
    · simp only [h6, hpos e he k k' rfl rfl]
  have h9 : ∀ ps, (⟨b.elements.map f⟩ : Beam K S').checkPositions rt ps = b.checkPositions rt ps := by
    intro ps
    induction ps with
    | nil => rfl
    | cons p ps ih => simp only [Beam.checkPositions, h3, ih]
  have h10 : (⟨b.elements.map f⟩ : Beam K S').positionList rt position n c' = b.positionList rt position n c := by
    unfold Beam.positionList
    have hz : ((b.elements.map f).zipIdx).mapM
          (fun ei => (⟨b.elements.map f⟩ : Beam K S').realPositions rt c' ei.2 ei.1) =
        (b.elements.zipIdx).mapM fun ei => b.realPositions rt c ei.2 ei.1 := by
      rw [List.zipIdx_map]
      refine mapM_map_congr _ ?_
      rintro ⟨e, i⟩ hx
      exact h8 e (List.fst_mem_of_mem_zipIdx hx) i
    simp only [h2, h3, h9, hz]
  have h11 : ∀ p i, (⟨b.elements.map f⟩ : Beam K S').locate rt c' p i = b.locate rt c p i := by
    intro p i
    unfold Beam.locate
    simp only [pyIndex_map, bind, Except.bind]
    rcases hp : pyIndex b.elements (i : ℤ) with e | e
    · rfl
    · simp only [hlen e (hidx hp), h7]
      rcases c with _ | k <;> rcases c' with _ | k'
      · rfl
      · simp at hc
      · simp at hc
      · simp only [hpos e (hidx hp) k k' rfl rfl]
  unfold Beam.listPositions
  simp only [h4, h10, h11]

theorem listPositions_congr (hlen : ∀ e ∈ b.elements, (f e).len = e.len) (c : Option ℤ)
    (hpos : ∀ e ∈ b.elements, ∀ k, c = some k → (f e).loadPositions k = e.loadPositions k) (position : PosArg K)
    (n : Option ℤ) :
    (⟨b.elements.map f⟩ : Beam K S').listPositions rt position n c = b.listPositions rt position n c := by
  refine listPositions_rename hlen c c Iff.rfl ?_ position n
  intro e he k k' h h'
  obtain rfl : k = k' := by rw [h] at h'; exact Option.some.inj h'
  exact hpos e he k h

/-- Same lengths and the same load case under another number give the same loads. -/
theorem getLoads_rename (hlen : ∀ e ∈ b.elements, (f e).len = e.len) (c c' : ℤ)
    (hcase : ∀ e ∈ b.elements, (f e).case c' = e.case c) (position : PosArg K) (n : Option ℤ)
    (component : CompArg) :
    (⟨b.elements.map f⟩ : Beam K S').getLoads rt c' position n component = b.getLoads rt c position n component := by
  unfold Beam.getLoads
  rw [listPositions_rename hlen (some c) (some c') (by simp) fun e he k k' h h' => by
    obtain rfl := Option.some.inj h
    obtain rfl := Option.some.inj h'
    unfold Element.loadPositions; rw [hcase e he]]
  have : (⟨b.elements.map f⟩ : Beam K S').loadStep rt c' component = b.loadStep rt c component := by
    funext acc l
    unfold Beam.loadStep
    simp only [pyIndex_map, bind, Except.bind]
    rcases hp : pyIndex b.elements (l.elem : ℤ) with e | e
    · rfl
    · have he : e ∈ b.elements := by
        obtain ⟨j, hj, -⟩ := (pyIndex_ok_iff _ _ _).1 hp
        exact List.mem_of_getElem? hj
      have hg : (f e).getLoads rt c' (.scalar l.loc) none component = e.getLoads rt c (.scalar l.loc) none component := by
        unfold Element.getLoads
        rw [hcase e he]
      simp only [hg]
  rw [this]

/-- Same lengths and same load cases give the same loads. -/
theorem getLoads_congr (hlen : ∀ e ∈ b.elements, (f e).len = e.len)
    (hcase : ∀ e ∈ b.elements, ∀ k, (f e).case k = e.case k) (c : ℤ) (position : PosArg K) (n : Option ℤ)
    (component : CompArg) :
    (⟨b.elements.map f⟩ : Beam K S').getLoads rt c position n component = b.getLoads rt c position n component :=
  getLoads_rename hlen c c (fun e he => hcase e he c) position n component

end


end BeamDesign
