import Verif.Lemmas.TogetherLoads

/-!
# Lemmas for C159
-/

set_option linter.unusedSectionVars false

namespace BeamDesign

open Spec

variable {K : Type} [Field K] [LinearOrder K] [IsStrictOrderedRing K]
variable {rt : Rt K} {S : Type}

/-- the entries for a position carry it -/
theorem entriesAt_pos {b : Beam K S} {c : Option ℤ} {p : Num K} {block : List (Loc K)} (h : b.entriesAt rt c p = .ok block) :
    ∀ l ∈ block, l.pos = p := by
  unfold Beam.entriesAt at h
  obtain ⟨es, -, h⟩ := bind_ok.1 h
  obtain ⟨ls, hls, he⟩ := bind_ok.1 h
  cases he
  intro l hl
  obtain ⟨ll, hll, hl⟩ := List.mem_flatten.1 hl
  obtain ⟨i, -, hi⟩ := forall₂_of_right ((mapM_ok_iff _ _ _).1 hls) ll hll
  unfold Beam.locate at hi
  obtain ⟨e, -, hi⟩ := bind_ok.1 hi
  obtain ⟨len, -, hi⟩ := bind_ok.1 hi
  split at hi
  · simp only at hi
    split at hi
    · obtain ⟨lp, -, hi⟩ := bind_ok.1 hi
      cases hi
      obtain ⟨z, -, rfl⟩ := List.mem_map.1 hl
      rfl
    · obtain ⟨lp', -, hi⟩ := bind_ok.1 hi
      obtain ⟨lp, -, hi⟩ := bind_ok.1 hi
      cases hi
      obtain ⟨z, -, rfl⟩ := List.mem_map.1 hl
      rfl
  · obtain ⟨z, -, hi⟩ := bind_ok.1 hi
    cases hi
    obtain rfl := List.mem_singleton.1 hl
    rfl

/-- positions without entries can be left out -/
theorem drop_empty {R : Num K → List (Loc K) → Prop} (hR : ∀ p block, R p block → ∀ l ∈ block, l.pos = p) {ps : List (Num K)}
    {blocks : List (List (Loc K))} (h : List.Forall₂ R ps blocks) :
    ∃ ps' blocks', List.Forall₂ R ps' blocks' ∧ blocks'.flatten = blocks.flatten ∧ ps'.Sublist ps ∧
      ∀ p, p ∈ ps' ↔ p ∈ blocks.flatten.map (·.pos) := by
  induction h with
  | nil => exact ⟨[], [], .nil, rfl, .refl _, by simp⟩
  | @cons p block ps blocks hp _ ih =>
    obtain ⟨ps', blocks', h₁, h₂, h₃, h₄⟩ := ih
    cases block with
    | nil => exact ⟨ps', blocks', h₁, by simpa using h₂, h₃.cons _, by simpa using h₄⟩
    | cons l block =>
      refine ⟨p :: ps', (l :: block) :: blocks', .cons hp h₁, by simp [h₂], h₃.cons_cons _, fun q => ?_⟩
      rw [List.flatten_cons, List.map_append, List.mem_append, List.mem_cons, h₄]
      refine or_congr_left ?_
      constructor
      · rintro rfl
        exact List.mem_map.2 ⟨l, List.mem_cons_self, hR _ _ hp l List.mem_cons_self⟩
      · intro hq
        obtain ⟨l', hl', rfl⟩ := List.mem_map.1 hq
        exact hR _ _ hp l' hl'

theorem eq_of_vals : ∀ {l₁ l₂ : List (Num K)}, l₁.map (·.val) = l₂.map (·.val) → (∀ x ∈ l₁, ∀ y ∈ l₂, x.val = y.val → x = y) → l₁ = l₂ := by
  intro l₁
  induction l₁ with
  | nil =>
    intro l₂ h _
    exact (List.map_eq_nil_iff.1 h.symm).symm
  | cons x l₁ ih =>
    intro l₂ h hinj
    cases l₂ with
    | nil => simp at h
    | cons y l₂ =>
      rw [List.map_cons, List.map_cons, List.cons.injEq] at h
      rw [hinj x List.mem_cons_self y List.mem_cons_self h.1,
        ih h.2 fun x' hx' y' hy' => hinj x' (List.mem_cons_of_mem _ hx') y' (List.mem_cons_of_mem _ hy')]

/-- in a strictly ascending list a value belongs to one entry -/
theorem strict_inj {ps : List (Num K)} (h : (ps.map (·.val)).Pairwise (· < ·)) : ∀ x ∈ ps, ∀ y ∈ ps, x.val = y.val → x = y := by
  have hnd : (ps.map (·.val)).Nodup := h.imp fun h => ne_of_lt h
  exact fun x hx y hy hxy => List.inj_on_of_nodup_map hnd hx hy hxy

/-- the positions of a listing, sorted and without repetition -/
theorem sorted_again {ps ps' : List (Num K)} (h : (ps.map (·.val)).Pairwise (· < ·)) (hs : ps'.Sublist ps) {qs : List (Num K)}
    (hm : ∀ p, p ∈ ps' ↔ p ∈ qs) : sortedSet qs = ps' := by
  have hsub : ∀ p ∈ sortedSet qs, p ∈ ps := fun p hp => hs.subset ((hm p).2 (mem_of_mem_sortedSet hp))
  refine eq_of_vals (eq_of_strict_sorted (sortedSet_sorted qs) (h.sublist (hs.map _)) fun v => ?_)
    fun x hx y hy => strict_inj h x (hsub x hx) y (hs.subset hy)
  rw [sortedSet_vals]
  simp only [List.mem_map, hm]

theorem check_cases {b : Beam K S} {l : Num K} (hl : b.length rt = .ok l) : ∀ (ps : List (Num K)),
    b.checkPositions rt ps = .ok () ∨ (b.checkPositions rt ps = .error .positionNotInBeam ∧ ∃ p ∈ ps, p.val < 0 ∨ l.val < p.val) := by
  intro ps
  induction ps with
  | nil => exact .inl rfl
  | cons p ps ih =>
    unfold Beam.checkPositions
    by_cases h0 : p.val < 0
    · rw [if_pos h0]
      exact .inr ⟨rfl, p, List.mem_cons_self, .inl h0⟩
    · rw [if_neg h0, hl]
      simp only [bind, Except.bind]
      by_cases h1 : l.val < p.val
      · rw [if_pos h1]
        exact .inr ⟨rfl, p, List.mem_cons_self, .inr h1⟩
      · rw [if_neg h1]
        rcases ih with ih | ⟨ih, q, hq, hq'⟩
        · exact .inl ih
        · exact .inr ⟨ih, q, List.mem_cons_of_mem _ hq, hq'⟩

/-- a listing by a number of positions -/
theorem list_number {b : Beam K S} {n : ℤ} {c : Option ℤ} {locs : List (Loc K)}
    (h : b.listPositions rt .none (some n) c = .ok locs) :
    ∃ l ps blocks, b.length rt = .ok l ∧ (ps.map (·.val)).Pairwise (· < ·) ∧
      List.Forall₂ (fun q block => b.entriesAt rt c q = .ok block) ps blocks ∧ locs = blocks.flatten := by
  unfold Beam.listPositions Beam.positionList at h
  simp only at h
  obtain ⟨ps, hps, h⟩ := bind_ok.1 h
  obtain ⟨blocks, hb, he⟩ := bind_ok.1 h
  cases he
  obtain ⟨l, hl, hps⟩ := bind_ok.1 hps
  obtain ⟨lin, -, hps⟩ := bind_ok.1 hps
  obtain ⟨ends, -, hps⟩ := bind_ok.1 hps
  obtain ⟨real, -, hps⟩ := bind_ok.1 hps
  cases hps
  exact ⟨l, _, blocks, hl, sortedSet_sorted _, (mapM_ok_iff _ _ _).1 hb, rfl⟩

end BeamDesign
