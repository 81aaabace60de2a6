import Verif.Props.Load
import Verif.Lemmas.Mesh
import Verif.Spec.Again

/-!
# Entering reported loads again: lemmas for C130
-/

set_option linter.unusedSectionVars false

namespace BeamDesign

open Spec

section
variable {K : Type} [Field K] [LinearOrder K] [IsStrictOrderedRing K] [FloorRing K]

/-- The rows reported for one position, as rows of a table. -/
def rowsAt (rt : Rt K) (rows : List (LRow K)) (p : K) : List (LRow K) :=
  if p ∈ rows.map (·.pos) then rows.filter (fun r => decide (r.pos = p))
  else [⟨p, interpVal rt rows .VX p, interpVal rt rows .VY p, interpVal rt rows .N p, interpVal rt rows .MX p,
    interpVal rt rows .MY p, interpVal rt rows .T p⟩]

theorem block_rowsAt (rt : Rt K) (rows : List (LRow K)) (p : K) (cs : List LComp) :
    block rt rows cs p = (rowsAt rt rows p).map fun r => (r.pos, cs.map r.get) := by
  unfold block rowsAt
  split_ifs
  · rfl
  · simp only [List.map_cons, List.map_nil]
    congr 2
    apply List.map_congr_left
    intro c _
    cases c <;> rfl

theorem rowsAt_pos (rt : Rt K) (rows : List (LRow K)) (p : K) : ∀ r ∈ rowsAt rt rows p, r.pos = p := by
  intro r hr
  unfold rowsAt at hr
  split_ifs at hr
  · simpa using (List.mem_filter.1 hr).2
  · rw [List.mem_singleton.1 hr]

theorem rowsAt_ne (rt : Rt K) (rows : List (LRow K)) (p : K) : rowsAt rt rows p ≠ [] := by
  unfold rowsAt
  split_ifs with h
  · obtain ⟨r, hr, he⟩ := List.mem_map.1 h
    exact List.ne_nil_of_mem (List.mem_filter.2 ⟨hr, by simpa using he⟩)
  · simp

theorem whole_injective : Function.Injective fun r : LRow K => (r.pos, LComp.all.map r.get) := by
  rintro ⟨a1, a2, a3, a4, a5, a6, a7⟩ ⟨b1, b2, b3, b4, b5, b6, b7⟩ h
  simp [LComp.all, LRow.get] at h
  simp [h]

theorem rowsAt_congr {rt : Rt K} {rows rows' : List (LRow K)} {p : K}
    (h : block rt rows LComp.all p = block rt rows' LComp.all p) : rowsAt rt rows p = rowsAt rt rows' p := by
  rw [block_rowsAt, block_rowsAt] at h
  exact List.map_injective_iff.2 whole_injective h

/-- Entering the rows reported at ascending positions that cover the stored ones again changes no answer. -/
theorem block_refine {rt : Rt K} (hx : rt.Exact) : ∀ (ps : List K) (A B : List (LRow K)), ps.Pairwise (· < ·) →
    (∀ p ∈ ps, 0 ≤ p ∧ p ≤ 1) → WellFormed (A ++ B) → A ++ B ≠ [] → (∀ a ∈ A, ∀ p ∈ ps, a.pos < p) →
    (∀ r ∈ B, r.pos ∈ ps) →
    WellFormed (A ++ ps.flatMap (rowsAt rt (A ++ B))) ∧
      ∀ cs x, block rt (A ++ ps.flatMap (rowsAt rt (A ++ B))) cs x = block rt (A ++ B) cs x := by
  intro ps
  induction ps with
  | nil =>
    intro A B _ _ hw _ _ hB
    have : B = [] := List.eq_nil_iff_forall_not_mem.2 fun r hr => by simpa using hB r hr
    subst this
    exact ⟨by simpa using hw, fun cs x => by simp⟩
  | cons p ps ih =>
    intro A B hps h01 hw hne hA hB
    obtain ⟨hp, hps'⟩ := List.pairwise_cons.1 hps
    have hAp : ∀ a ∈ A, a.pos < p := fun a ha => hA a ha p (by simp)
    have hBp : ∀ r ∈ B, p ≤ r.pos := by
      intro r hr
      rcases List.mem_cons.1 (hB r hr) with h | h
      · exact h.ge
      · exact (hp _ h).le
    have h01' : ∀ q ∈ ps, 0 ≤ q ∧ q ≤ 1 := fun q hq => h01 q (List.mem_cons_of_mem _ hq)
    by_cases hin : p ∈ (A ++ B).map (·.pos)
    · have hBs : B.Pairwise fun a b => a.pos ≤ b.pos := (List.pairwise_append.1 hw.1).2.1
      have hsplit : B = B.filter (fun r => decide (r.pos = p)) ++ B.filter (fun r => !decide (r.pos = p)) := by
        clear ih hw hne hB hin
        induction B with
        | nil => rfl
        | cons b t iht =>
          by_cases hb : b.pos = p
          · simp only [List.filter_cons, hb, decide_true, if_true, Bool.not_true, Bool.false_eq_true, if_false,
              List.cons_append]
            congr 1
            exact iht (fun r hr => hBp r (List.mem_cons_of_mem _ hr)) (List.pairwise_cons.1 hBs).2
          · have hlt : p < b.pos := lt_of_le_of_ne (hBp b (by simp)) (Ne.symm hb)
            have hall : ∀ r ∈ b :: t, r.pos ≠ p := by
              intro r hr
              rcases List.mem_cons.1 hr with rfl | hr
              · exact hb
              · exact (hlt.trans_le ((List.pairwise_cons.1 hBs).1 r hr)).ne'
            have e1 : (b :: t).filter (fun r => decide (r.pos = p)) = [] :=
              List.filter_eq_nil_iff.2 fun r hr => by simpa using hall r hr
            have e2 : (b :: t).filter (fun r => !decide (r.pos = p)) = b :: t :=
              List.filter_eq_self.2 fun r hr => by simpa using hall r hr
            rw [e1, e2]
            rfl
      set F := B.filter (fun r => decide (r.pos = p)) with hF
      set B' := B.filter (fun r => !decide (r.pos = p)) with hB'
      have hat : rowsAt rt (A ++ B) p = F := by
        unfold rowsAt
        rw [if_pos hin, List.filter_append]
        have : A.filter (fun r => decide (r.pos = p)) = [] :=
          List.filter_eq_nil_iff.2 fun r hr => by simpa using (hAp r hr).ne
        rw [this, List.nil_append]
      have hAB : A ++ B = (A ++ F) ++ B' := by rw [List.append_assoc, ← hsplit]
      have := ih (A ++ F) B' hps' h01' (hAB ▸ hw) (hAB ▸ hne)
        (by
          intro a ha q hq
          rcases List.mem_append.1 ha with ha | ha
          · exact hA a ha q (List.mem_cons_of_mem _ hq)
          · have : a.pos = p := by simpa using (List.mem_filter.1 ha).2
            rw [this]
            exact hp q hq)
        (by
          intro r hr
          obtain ⟨h1, h2⟩ := List.mem_filter.1 hr
          have h2 : r.pos ≠ p := by simpa using h2
          exact (List.mem_cons.1 (hB r h1)).resolve_left h2)
      rw [← hAB] at this
      rw [List.flatMap_cons, hat, ← List.append_assoc]
      exact this
    · set m : LRow K := ⟨p, interpVal rt (A ++ B) .VX p, interpVal rt (A ++ B) .VY p, interpVal rt (A ++ B) .N p,
        interpVal rt (A ++ B) .MX p, interpVal rt (A ++ B) .MY p, interpVal rt (A ++ B) .T p⟩ with hm
      have hat : rowsAt rt (A ++ B) p = [m] := by
        unfold rowsAt
        rw [if_neg hin]
      have hBlt : ∀ r ∈ B, p < r.pos := fun r hr => lt_of_le_of_ne (hBp r hr) fun h =>
        hin (List.mem_map.2 ⟨r, List.mem_append_right _ hr, h.symm⟩)
      have hred : Redundant A m B := by
        refine ⟨(h01 p (by simp)).1, (h01 p (by simp)).2, hAp, hBlt, fun c => ?_⟩
        have := interpVal_onCurve hx hne c p hin
        cases c <;> exact this
      have hAB : A ++ m :: B = (A ++ [m]) ++ B := by simp
      have hblk : ∀ cs x, block rt (A ++ m :: B) cs x = block rt (A ++ B) cs x := block_insert hx hred hw.1 hne
      have := ih (A ++ [m]) B hps' h01' (hAB ▸ insert_wf hred hw) (by simp)
        (by
          intro a ha q hq
          rcases List.mem_append.1 ha with ha | ha
          · exact hA a ha q (List.mem_cons_of_mem _ hq)
          · rw [List.mem_singleton.1 ha]
            exact hp q hq)
        (by
          intro r hr
          exact (List.mem_cons.1 (hB r hr)).resolve_left (hBlt r hr).ne')
      rw [← hAB] at this
      rw [List.flatMap_cons, hat, ← List.append_assoc]
      have hfm : ps.flatMap (rowsAt rt (A ++ m :: B)) = ps.flatMap (rowsAt rt (A ++ B)) := by
        congr 1
        funext q
        exact rowsAt_congr (hblk _ _)
      rw [hfm] at this
      exact ⟨this.1, fun cs x => (this.2 cs x).trans (hblk cs x)⟩

/-- What the reported rows become when they are entered again. -/
theorem entered_rows (rt : Rt K) (rows : List (LRow K)) (dt : DType) (ps : List K) :
    ∃ rs, entered ⟨dt, 6, cells (ps.flatMap (block rt rows LComp.all))⟩ = .table 7 rs ∧
      List.Forall₂ (fun r row => r.map (·.val) = rowList row) rs (ps.flatMap (rowsAt rt rows)) ∧
      ∀ r ∈ rs, r ≠ [] ∧ ∀ x ∈ r, x.isInt = decide (dt = .int) := by
  have : ps.flatMap (block rt rows LComp.all)
      = (ps.flatMap (rowsAt rt rows)).map fun r => (r.pos, LComp.all.map r.get) := by
    rw [List.map_flatMap]
    congr 1
    funext p
    exact block_rowsAt rt rows p _
  refine ⟨_, rfl, ?_, ?_⟩
  · rw [this]
    simp only [cells, List.map_map]
    rw [List.forall₂_map_left_iff]
    refine List.forall₂_same.2 fun r _ => ?_
    simp [LComp.all, LRow.get, rowList]
  · intro r hr
    obtain ⟨q, -, rfl⟩ := List.mem_map.1 hr
    refine ⟨by simp, ?_⟩
    intro x hx
    rcases List.mem_cons.1 hx with rfl | hx
    · rfl
    · obtain ⟨v, -, rfl⟩ := List.mem_map.1 hx
      rfl

theorem rows_unique {rs : List (List (Num K))} {a b : List (LRow K)}
    (h : List.Forall₂ (fun r row => r.map (·.val) = rowList row) rs a)
    (h' : List.Forall₂ (fun r row => r.map (·.val) = rowList row) rs b) : a = b := by
  induction h generalizing b with
  | nil => cases h'; rfl
  | @cons r x _ _ h1 _ ih =>
    cases h' with
    | @cons _ y _ _ h2 h3 =>
      rw [ih h3]
      congr 1
      have := h1.symm.trans h2
      obtain ⟨a1, a2, a3, a4, a5, a6, a7⟩ := x
      obtain ⟨b1, b2, b3, b4, b5, b6, b7⟩ := y
      simp [rowList] at this
      simp [this]

theorem entered_new (rt : Rt K) (rows : List (LRow K)) (dt : DType) (ps : List K) (hps : ps ≠ []) (lc : LoadCase K) :
    LoadCase.new (entered ⟨dt, 6, cells (ps.flatMap (block rt rows LComp.all))⟩) = .ok lc ↔
      WellFormed (ps.flatMap (rowsAt rt rows)) ∧ lc.loads = some ⟨decide (dt = .int), ps.flatMap (rowsAt rt rows)⟩ := by
  obtain ⟨rs, h1, h2, h3⟩ := entered_rows rt rows dt ps
  have hrs : rs ≠ [] := by
    rintro rfl
    have h2 := List.forall₂_nil_left_iff.1 h2
    obtain ⟨p, hp⟩ := List.exists_mem_of_ne_nil ps hps
    exact rowsAt_ne rt rows p (List.flatMap_eq_nil_iff.1 h2 p hp)
  have hint : ∀ b : Bool, (b = true ↔ rs ≠ [] ∧ ∀ r ∈ rs, ∀ x ∈ r, x.isInt) ↔ b = decide (dt = .int) := by
    intro b
    have : (rs ≠ [] ∧ ∀ r ∈ rs, ∀ x ∈ r, x.isInt = true) ↔ decide (dt = .int) = true := by
      constructor
      · rintro ⟨-, h⟩
        obtain ⟨r, hr⟩ := List.exists_mem_of_ne_nil rs hrs
        obtain ⟨x, hx⟩ := List.exists_mem_of_ne_nil r (h3 r hr).1
        rw [← (h3 r hr).2 x hx]
        exact h r hr x hx
      · intro h
        exact ⟨hrs, fun r hr x hx => ((h3 r hr).2 x hx).trans h⟩
    rw [this]
    exact Bool.eq_iff_iff.symm
  rw [C01_accepts_iff, h1]
  constructor
  · rintro (⟨h, -⟩ | ⟨_, _, _, h, -⟩ | ⟨rs', rows', b, h, h4, h5, h6, h7⟩)
    · cases h
    · cases h
    · cases h
      have := rows_unique h4 h2
      subst this
      exact ⟨h5, by rw [h6, (hint b).1 h7]⟩
  · rintro ⟨h4, h5⟩
    exact Or.inr (Or.inr ⟨rs, _, _, rfl, h2, h4, h5, (hint _).2 rfl⟩)

theorem mem_refined (rt : Rt K) (rows : List (LRow K)) (ps : List K) (x : K) :
    x ∈ (ps.flatMap (rowsAt rt rows)).map (·.pos) ↔ x ∈ ps := by
  constructor
  · intro h
    obtain ⟨r, hr, rfl⟩ := List.mem_map.1 h
    obtain ⟨p, hp, hr⟩ := List.mem_flatMap.1 hr
    rw [rowsAt_pos rt rows p r hr]
    exact hp
  · intro h
    obtain ⟨r, hr⟩ := List.exists_mem_of_ne_nil _ (rowsAt_ne rt rows x)
    exact List.mem_map.2 ⟨r, List.mem_flatMap.2 ⟨x, h, hr⟩, rowsAt_pos rt rows x r hr⟩

/-- At the positions that were reported the entered table holds what was reported, whatever the arithmetic. -/
theorem block_reported (rt : Rt K) (rows : List (LRow K)) (ps : List K) (hps : ps.Pairwise (· < ·)) (cs : List LComp) (x : K)
    (hx : x ∈ ps) : block rt (ps.flatMap (rowsAt rt rows)) cs x = block rt rows cs x := by
  rw [block_rowsAt rt rows]
  unfold block
  rw [if_pos ((mem_refined rt rows ps x).2 hx)]
  congr 1
  clear cs
  have key : ∀ l : List K, l.Pairwise (· < ·) →
      (l.flatMap (rowsAt rt rows)).filter (fun r => decide (r.pos = x)) = if x ∈ l then rowsAt rt rows x else [] := by
    intro l
    induction l with
    | nil => intro _; simp
    | cons p t ih =>
      intro hl
      obtain ⟨h1, h2⟩ := List.pairwise_cons.1 hl
      rw [List.flatMap_cons, List.filter_append, ih h2]
      by_cases hpx : p = x
      · subst hpx
        have : p ∉ t := fun h => lt_irrefl _ (h1 p h)
        rw [if_neg this, if_pos (by simp), List.append_nil, List.filter_eq_self]
        intro r hr
        simpa using rowsAt_pos rt rows p r hr
      · have e : (rowsAt rt rows p).filter (fun r => decide (r.pos = x)) = [] :=
          List.filter_eq_nil_iff.2 fun r hr => by simpa [rowsAt_pos rt rows p r hr] using hpx
        rw [e, List.nil_append]
        simp only [List.mem_cons, Ne.symm hpx, false_or]
  rw [key ps hps, if_pos hx]

end

end BeamDesign
