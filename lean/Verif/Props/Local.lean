import Verif.Lemmas.Cases
import Verif.Lemmas.Load
import Verif.Spec.Local
import Verif.Spec.SamplesAS

/-!
# C125: loads are local
-/

set_option linter.unusedSectionVars false

namespace BeamDesign

open Spec

variable {K : Type} [Field K] [LinearOrder K] [IsStrictOrderedRing K] [FloorRing K]

/-! ## Helpers: one table -/

section
variable {rt : Rt K}

/-- Knots not beyond `x` before one not beyond `x` do not matter. -/
theorem interpGo_past (x : K) (m : K × K) (rest : List (K × K)) (hm : m.1 ≤ x) :
    ∀ (A : List (K × K)) (k : K × K), (∀ a ∈ A, a.1 ≤ x) → interpGo rt x k (A ++ m :: rest) = interpGo rt x m rest
  | [], k, _ => by simp [interpGo, hm]
  | a :: A, k, h => by
    rw [List.cons_append]
    have := interpGo_past x m rest hm A a fun b hb => h b (List.mem_cons_of_mem _ hb)
    simp only [interpGo, h a List.mem_cons_self, if_true]
    exact this

/-- Knots after one beyond `x` do not matter. -/
theorem interpGo_stop (x : K) (B : List (K × K)) :
    ∀ (M : List (K × K)) (k : K × K), (∃ a ∈ M, x < a.1) → interpGo rt x k (M ++ B) = interpGo rt x k M
  | [], k, h => by simp at h
  | a :: M, k, h => by
    rw [List.cons_append]
    simp only [interpGo]
    by_cases ha : a.1 ≤ x
    · rw [if_pos ha, if_pos ha]
      refine interpGo_stop x B M a ?_
      obtain ⟨a', h1, h2⟩ := h
      rcases List.mem_cons.1 h1 with rfl | h1
      · exact absurd h2 (not_lt.2 ha)
      · exact ⟨a', h1, h2⟩
    · rw [if_neg ha, if_neg ha]

/-- The rows of a table from `lo` to `hi`, and the others. -/
theorem wf_split {T : List (LRow K)} (hw : WellFormed T) (lo hi : K) :
    ∃ A B, T = A ++ T.filter (fun r => decide (lo ≤ r.pos ∧ r.pos ≤ hi)) ++ B ∧ (∀ r ∈ A, r.pos < lo) ∧ ∀ r ∈ B, hi < r.pos := by
  have h := hw.1
  clear hw
  induction T with
  | nil => exact ⟨[], [], by simp, by simp, by simp⟩
  | cons a T ih =>
    obtain ⟨h1, h2⟩ := List.pairwise_cons.1 h
    by_cases hlo : lo ≤ a.pos
    · by_cases hhi : a.pos ≤ hi
      · obtain ⟨A, B, e, hA, hB⟩ := ih h2
        refine ⟨[], B, ?_, by simp, hB⟩
        rcases A with _ | ⟨x, A⟩
        · conv_lhs => rw [e]
          simp [hlo, hhi]
        · have hx : x ∈ T := by rw [e]; simp
          exact absurd (hlo.trans (h1 x hx)) (not_le.2 (hA x (by simp)))
      · refine ⟨[], a :: T, ?_, by simp, ?_⟩
        · have : (a :: T).filter (fun r => decide (lo ≤ r.pos ∧ r.pos ≤ hi)) = [] := by
            rw [List.filter_eq_nil_iff]
            intro r hr
            have : hi < r.pos := by
              rcases List.mem_cons.1 hr with rfl | hr
              · exact not_le.1 hhi
              · exact (not_le.1 hhi).trans_le (h1 r hr)
            simp [not_le.2 this]
          rw [this]; rfl
        · intro r hr
          rcases List.mem_cons.1 hr with rfl | hr
          · exact not_le.1 hhi
          · exact (not_le.1 hhi).trans_le (h1 r hr)
    · obtain ⟨A, B, e, hA, hB⟩ := ih h2
      refine ⟨a :: A, B, ?_, ?_, hB⟩
      · rw [List.filter_cons_of_neg (by simp [hlo])]
        conv_lhs => rw [e]
        simp
      · intro r hr
        rcases List.mem_cons.1 hr with rfl | hr
        · exact not_le.1 hlo
        · exact hA r hr

theorem npInterp_middle {A M B : List (K × K)} {x : K} {m : K × K} (hm : m.1 ≤ x) (hA : ∀ a ∈ A, a.1 ≤ x)
    (hM : ∃ a ∈ M, x < a.1) (hl : ∀ a ∈ (A ++ m :: M ++ B).getLast?, x ≤ a.1) :
    npInterp rt none none x (A ++ m :: M ++ B) = .ok (interpGo rt x m M) := by
  have key : ∀ l : List (K × K), ∀ k, ∀ rest, l = k :: rest → k.1 ≤ x → (∀ a ∈ l.getLast?, x ≤ a.1) →
      npInterp rt none none x l = .ok (interpGo rt x k rest) := by
    rintro l k rest rfl hk hlast
    rw [npInterp, if_neg (not_lt.2 hk)]
    have : x ≤ ((k :: rest).getLast (by simp)).1 := hlast _ (by rw [List.getLast?_eq_some_getLast (by simp)]; rfl)
    simp only
    rw [if_neg (not_lt.2 this)]
  rcases A with _ | ⟨a, A⟩
  · rw [List.nil_append] at hl ⊢
    refine (key (m :: M ++ B) m (M ++ B) rfl hm hl).trans ?_
    rw [interpGo_stop x B M m hM]
  · refine (key (a :: A ++ m :: M ++ B) a (A ++ m :: M ++ B) rfl (hA a List.mem_cons_self) hl).trans ?_
    rw [List.append_assoc, List.cons_append,
      interpGo_past x m (M ++ B) hm A a (fun b hb => hA b (List.mem_cons_of_mem _ hb)), interpGo_stop x B M m hM]

/-- The interpolated value only depends on the rows around the position. -/
theorem interpVal_local {lo hi : K} {T : List (LRow K)} (hw : WellFormed T) (hlo : lo ∈ T.map (·.pos))
    (hhi : hi ∈ T.map (·.pos)) (c : LComp) {p : K} (h1 : lo < p) (h2 : p < hi) :
    interpVal rt T c p = interpVal rt (T.filter fun r => decide (lo ≤ r.pos ∧ r.pos ≤ hi)) c p := by
  obtain ⟨A, B, e, hA, hB⟩ := wf_split hw lo hi
  obtain ⟨r, hr, rfl⟩ := List.mem_map.1 hlo
  obtain ⟨s, hs, rfl⟩ := List.mem_map.1 hhi
  set F := T.filter fun q => decide (r.pos ≤ q.pos ∧ q.pos ≤ s.pos) with hF
  have hrF : r ∈ F := List.mem_filter.2 ⟨hr, by simp [(h1.trans h2).le]⟩
  have hsF : s ∈ F := List.mem_filter.2 ⟨hs, by simp [(h1.trans h2).le]⟩
  have hsort : F.Pairwise (fun a b => a.pos ≤ b.pos) := hw.1.sublist List.filter_sublist
  have hmem : ∀ q ∈ F, r.pos ≤ q.pos := fun q hq => (of_decide_eq_true (List.mem_filter.1 hq).2).1
  rcases hFc : F with _ | ⟨m, M⟩
  · rw [hFc] at hrF; simp at hrF
  rw [hFc] at hrF hsF hsort hmem
  have hm : m.pos = r.pos := by
    refine le_antisymm ?_ (hmem m List.mem_cons_self)
    rcases List.mem_cons.1 hrF with rfl | h
    · exact le_rfl
    · exact (List.pairwise_cons.1 hsort).1 r h
  have hsM : s ∈ M := by
    rcases List.mem_cons.1 hsF with rfl | h
    · rw [hm] at h2; exact absurd (h1.trans h2) (lt_irrefl _)
    · exact h
  have hlast : ∀ l : List (LRow K), (∀ q ∈ l, s.pos < q.pos) → ∀ l0 : List (LRow K), (l0 ++ m :: M).Pairwise (fun a b => a.pos ≤ b.pos) →
      ∀ a ∈ ((l0 ++ m :: M ++ l).map fun q => (q.pos, q.get c)).getLast?, p ≤ a.1 := by
    intro l hl l0 hp a ha
    rw [List.getLast?_map] at ha
    obtain ⟨q, hq, rfl⟩ := Option.mem_map.1 ha
    rcases List.eq_nil_or_concat l with rfl | ⟨l', z, rfl⟩
    · rw [List.append_nil] at hq
      have hq' : (l0 ++ m :: M).getLast? = some q := hq
      obtain ⟨init, hinit⟩ : ∃ init, m :: M = init ++ [q] := by
        rw [List.getLast?_append_of_ne_nil _ (by simp)] at hq'
        exact ⟨_, (List.dropLast_append_getLast? q hq').symm⟩
      rw [hinit] at hsF
      rcases List.mem_append.1 hsF with h | h
      · have := hsort
        rw [hinit, List.pairwise_append] at this
        exact h2.le.trans (this.2.2 s h q (by simp))
      · rw [List.mem_singleton.1 h] at h2; exact h2.le
    · have : (l0 ++ m :: M ++ l'.concat z).getLast? = some z := by
        rw [List.getLast?_append_of_ne_nil _ (by simp)]; simp
      rw [this] at hq
      obtain rfl := Option.some.inj hq
      exact (h2.trans (hl z (by simp))).le
  have hMx : ∃ a ∈ M.map (fun q => (q.pos, q.get c)), p < a.1 := ⟨_, List.mem_map.2 ⟨s, hsM, rfl⟩, h2⟩
  have e1 : npInterp rt none none p (T.map fun q => (q.pos, q.get c))
      = .ok (interpGo rt p (m.pos, m.get c) (M.map fun q => (q.pos, q.get c))) := by
    have hp : (A ++ m :: M).Pairwise (fun a b => a.pos ≤ b.pos) := by
      have := hw.1
      rw [e, hFc] at this
      exact (List.pairwise_append.1 this).1
    have hl := hlast B hB A hp
    rw [e, hFc]
    rw [List.map_append, List.map_append, List.map_cons] at hl ⊢
    refine npInterp_middle (by rw [hm]; exact h1.le) ?_ hMx hl
    intro a ha
    obtain ⟨q, hq, rfl⟩ := List.mem_map.1 ha
    exact ((hA q hq).trans h1).le
  have e2 : npInterp rt none none p ((m :: M).map fun q => (q.pos, q.get c))
      = .ok (interpGo rt p (m.pos, m.get c) (M.map fun q => (q.pos, q.get c))) := by
    have hl := hlast [] (by simp) [] hsort
    have := npInterp_middle (rt := rt) (A := []) (B := []) (m := (m.pos, m.get c)) (x := p) (by rw [hm]; exact h1.le)
      (by simp) hMx (by simpa using hl)
    simpa using this
  simp only [interpVal, e1, e2]

theorem same_mem {lo hi : K} {T T' : List (LRow K)} (h : SameRows lo hi T T') {p : K} (h1 : lo ≤ p) (h2 : p ≤ hi) :
    p ∈ T.map (·.pos) ↔ p ∈ T'.map (·.pos) := by
  have key : ∀ U : List (LRow K), p ∈ U.map (·.pos) ↔ p ∈ (U.filter fun r => decide (lo ≤ r.pos ∧ r.pos ≤ hi)).map (·.pos) := by
    intro U
    constructor
    · intro hp
      obtain ⟨r, hr, rfl⟩ := List.mem_map.1 hp
      exact List.mem_map.2 ⟨r, List.mem_filter.2 ⟨hr, by simp [h1, h2]⟩, rfl⟩
    · intro hp
      obtain ⟨r, hr, rfl⟩ := List.mem_map.1 hp
      exact List.mem_map.2 ⟨r, (List.mem_filter.1 hr).1, rfl⟩
  rw [key T, h.2.2, ← key T']

theorem block_local {lo hi : K} {T T' : List (LRow K)} (hw : WellFormed T) (hw' : WellFormed T') (h : SameRows lo hi T T')
    (cs : List LComp) {p : K} (h1 : lo ≤ p) (h2 : p ≤ hi) : block rt T cs p = block rt T' cs p := by
  have hmem := same_mem h h1 h2
  have key : ∀ U : List (LRow K), U.filter (fun r => decide (r.pos = p))
      = (U.filter fun r => decide (lo ≤ r.pos ∧ r.pos ≤ hi)).filter (fun r => decide (r.pos = p)) := by
    intro U
    rw [List.filter_filter]
    apply List.filter_congr
    intro r _
    by_cases hr : r.pos = p
    · simp [hr, h1, h2]
    · simp [hr]
  have hlh : lo ≤ hi := h1.trans h2
  unfold block
  by_cases hp : p ∈ T.map (·.pos)
  · rw [if_pos hp, if_pos (hmem.1 hp), key T, h.2.2, ← key T']
  · rw [if_neg hp, if_neg (fun hq => hp (hmem.2 hq))]
    have hlo : lo < p := lt_of_le_of_ne h1 (fun e => hp (e ▸ h.1))
    have hhi : p < hi := lt_of_le_of_ne h2 (fun e => hp (e ▸ h.2.1))
    congr 2
    apply List.map_congr_left
    intro c _
    rw [interpVal_local hw h.1 h.2.1 c hlo hhi, h.2.2, ← interpVal_local hw' ((same_mem h le_rfl hlh).1 h.1)
      ((same_mem h hlh le_rfl).1 h.2.1) c hlo hhi]

end

/-! ## C125 -/

section
variable {rt : Rt K}

/-- C125, one load case: the answer for positions between two stored ones depends only on the rows stored there, in any
arithmetic. -/
theorem C125_load_case (hs : rt.SortOK) (isInt : Bool) (T T' : List (LRow K)) (hw : WellFormed T) (hw' : WellFormed T')
    (lo hi : K) (h : SameRows lo hi T T') (position : PosArg K) (xs : List K) (hreq : Requested position xs) (hxs : xs ≠ [])
    (hin : ∀ x ∈ xs, lo ≤ x ∧ x ≤ hi) (component : CompArg) (cs : List LComp) (hc : Asks component cs) (hcs : cs ≠ []) :
    ∃ tab, (⟨some ⟨isInt, T⟩⟩ : LoadCase K).getLoad rt position none component = .ok (some tab) ∧
      (⟨some ⟨isInt, T'⟩⟩ : LoadCase K).getLoad rt position none component = .ok (some tab) := by
  rw [asks_iff] at hc
  obtain ⟨x0, hx0⟩ := List.exists_mem_of_ne_nil xs hxs
  have hlh : lo ≤ hi := (hin x0 hx0).1.trans (hin x0 hx0).2
  have hT : T ≠ [] := by rintro rfl; simpa using h.1
  have hT' : T' ≠ [] := by
    rintro rfl
    simpa using (same_mem h le_rfl hlh).1 h.1
  obtain ⟨ps, g1, g2, g3⟩ := requested_listPositions rt (⟨some ⟨isInt, T⟩⟩ : LoadCase K) hreq
  have g1' : (⟨some ⟨isInt, T'⟩⟩ : LoadCase K).listPositions rt none position = .ok ps := by
    rw [← g1]
    rcases hreq with ⟨x, rfl, -⟩ | ⟨l, rfl, -⟩ <;> rfl
  have hps0 : ps ≠ [] := by
    rintro rfl
    simpa using (g3 x0).2 hx0
  refine ⟨_, getLoad_eq hs hw hT g1 g2 hps0 hc hcs, ?_⟩
  rw [getLoad_eq hs hw' hT' g1' g2 hps0 hc hcs]
  have hin' : ∀ p ∈ ps.map (·.val), lo ≤ p ∧ p ≤ hi := fun p hp => hin p ((g3 p).1 hp)
  congr 3
  · unfold answerDType
    congr 1
    refine propext ⟨fun hh p hp => ?_, fun hh p hp => ?_⟩
    · exact (same_mem h (hin' p hp).1 (hin' p hp).2).2 (hh p hp)
    · exact (same_mem h (hin' p hp).1 (hin' p hp).2).1 (hh p hp)
  · congr 1
    refine List.flatMap_congr fun p hp => ?_
    exact (block_local hw hw' h cs (hin' p hp).1 (hin' p hp).2).symm

end

/-! ## Helpers: beams -/

section
variable {S : Type} {rt : Rt K} {b b' : Beam K S}

theorem sameLengths_lengths (h : SameLengths b b') : b'.lengths = b.lengths := by
  have : ∀ l l' : List (Element K S), List.Forall₂ (fun e e' => e.length = e'.length) l l' →
      l'.mapM Element.len = l.mapM Element.len := by
    intro l l' h
    induction h with
    | nil => rfl
    | cons ha _ ih =>
      rw [List.mapM_cons, List.mapM_cons, ih]
      simp only [Element.len, ha]
  exact this _ _ h

theorem pyIndex_cases {α : Type} (l : List α) (i : ℕ) :
    pyIndex l (i : ℤ) = match l[i]? with | some x => .ok x | none => .error .indexError := by
  unfold pyIndex
  simp only [not_lt.2 (Int.natCast_nonneg i), if_false, Int.toNat_natCast]
  cases l[i]? <;> rfl

theorem sameLengths_index (h : SameLengths b b') (i : ℕ) :
    (b.elements[i]? = none ∧ b'.elements[i]? = none) ∨
      ∃ e e', b.elements[i]? = some e ∧ b'.elements[i]? = some e' ∧ e.length = e'.length := by
  have hl := List.Forall₂.length_eq h
  by_cases hi : i < b.elements.length
  · have hi' : i < b'.elements.length := hl ▸ hi
    refine Or.inr ⟨b.elements[i], b'.elements[i], List.getElem?_eq_getElem hi, List.getElem?_eq_getElem hi', ?_⟩
    exact (List.forall₂_iff_get.1 h).2 i hi hi'
  · exact Or.inl ⟨List.getElem?_eq_none (not_lt.1 hi), List.getElem?_eq_none (hl ▸ not_lt.1 hi)⟩

theorem sameLengths_inElements (h : SameLengths b b') (p : Num K) : b'.inElements rt p = b.inElements rt p := by
  unfold Beam.inElements Beam.elementEnds
  rw [sameLengths_lengths h]

theorem sameLengths_local (h : SameLengths b b') (p : Num K) (i : ℕ) :
    b'.beamToLocal rt p (i : ℤ) = b.beamToLocal rt p (i : ℤ) := by
  unfold Beam.beamToLocal Beam.getElementStartEnd Beam.elementEnds
  rw [sameLengths_lengths h, pyIndex_cases b.elements, pyIndex_cases b'.elements]
  rcases sameLengths_index h i with ⟨h1, h2⟩ | ⟨e, e', h1, h2, h3⟩
  · rw [h1, h2]
  · simp only [h1, h2, Element.len, h3, bind, Except.bind]

theorem sameLengths_list (h : SameLengths b b') (position : PosArg K) (hpos : position ≠ .none) (c : Option ℤ) :
    b'.positionList rt position none c = b.positionList rt position none c := by
  have hl : b'.length rt = b.length rt := by unfold Beam.length; rw [sameLengths_lengths h]
  have hc : ∀ ps, b'.checkPositions rt ps = b.checkPositions rt ps := by
    intro ps
    induction ps with
    | nil => rfl
    | cons p ps ih => simp only [Beam.checkPositions, hl, ih]
  rcases position with _ | x | xs
  · exact absurd rfl hpos
  · simp only [Beam.positionList, hc]
  · simp only [Beam.positionList, hc]

theorem sameNear_locate {c : ℤ} (h : SameLengths b b') {x : Num K} (hn : SameNear rt c b b' x) {is : List ℕ}
    (his : b.inElements rt x = .ok is) {i : ℕ} (hi : i ∈ is) :
    b'.locate rt (some c) x i = b.locate rt (some c) x i := by
  unfold Beam.locate
  rw [sameLengths_local h, pyIndex_cases b.elements, pyIndex_cases b'.elements]
  rcases sameLengths_index h i with ⟨h1, h2⟩ | ⟨e, e', h1, h2, h3⟩
  · rw [h1, h2]
  · simp only [h1, h2, bind, Except.bind, Element.len, ← h3]
    rcases hl : e.length with _ | n
    · rfl
    by_cases h0 : n.val = 0
    · have hs : SameLoads c e e' := by
        rcases hn is his i hi e e' h1 h2 with hs | ⟨l, -, m, isInt, T, T', lo, hi', hm, hm0, -⟩
        · exact hs
        · rw [hl] at hm; obtain rfl := Option.some.inj hm; exact absurd h0 hm0
      unfold SameLoads at hs
      simp only [h0, if_true, Element.loadPositions, Element.case, hs]
    · simp only [h0, if_false]

theorem foldlM_congr' {α β : Type} {f g : β → α → Py β} (l : List α) (h : ∀ a ∈ l, ∀ s, f s a = g s a) :
    ∀ s, l.foldlM f s = l.foldlM g s := by
  induction l with
  | nil => intro s; rfl
  | cons a l ih =>
    intro s
    rw [List.foldlM_cons, List.foldlM_cons, h a List.mem_cons_self]
    congr 1
    funext s'
    exact ih (fun x hx => h x (List.mem_cons_of_mem _ hx)) s'

theorem mapM_out {α β : Type} {f : α → Py β} {l : List α} {out : List β} (h : l.mapM f = .ok out) {y : β} (hy : y ∈ out) :
    ∃ x ∈ l, f x = .ok y := by
  induction l generalizing out with
  | nil =>
    rw [List.mapM_nil] at h
    obtain rfl : ([] : List β) = out := Except.ok.inj h
    simp at hy
  | cons a l ih =>
    rw [List.mapM_cons] at h
    rcases ha : f a with e | z
    · rw [ha] at h; cases h
    rcases hl : l.mapM f with e | zs
    · rw [ha, hl] at h; cases h
    rw [ha, hl] at h
    obtain rfl : z :: zs = out := Except.ok.inj h
    rcases List.mem_cons.1 hy with rfl | hy
    · exact ⟨a, List.mem_cons_self, ha⟩
    · obtain ⟨x, hx, hfx⟩ := ih hl hy
      exact ⟨x, List.mem_cons_of_mem _ hx, hfx⟩

/-- Where the entries of the listing come from. -/
theorem listed_entry {position : PosArg K} {n c : Option ℤ} {locs : List (Loc K)}
    (h : b.listPositions rt position n c = .ok locs) {l : Loc K} (hl : l ∈ locs) :
    ∃ ps x is ys, b.positionList rt position n c = .ok ps ∧ x ∈ ps ∧ b.inElements rt x = .ok is ∧ l.elem ∈ is ∧
      b.locate rt c x l.elem = .ok ys ∧ l ∈ ys ∧ l.pos = x := by
  unfold Beam.listPositions at h
  rcases hp : b.positionList rt position n c with e | ps
  · rw [hp] at h; cases h
  simp only [hp, bind, Except.bind] at h
  split at h
  · cases h
  rename_i blocks hblocks
  obtain rfl : blocks.flatten = locs := Except.ok.inj h
  obtain ⟨blk, hblk, hlb⟩ := List.mem_flatten.1 hl
  obtain ⟨x, hx, hfx⟩ := mapM_out hblocks hblk
  rcases his : b.inElements rt x with e | is
  · rw [his] at hfx; cases hfx
  simp only [his] at hfx
  split at hfx
  · cases hfx
  rename_i zs hzs
  obtain rfl : zs.flatten = blk := Except.ok.inj hfx
  obtain ⟨ys, hys, hly⟩ := List.mem_flatten.1 hlb
  obtain ⟨i, hi, hloc⟩ := mapM_out hzs hys
  have hel : l.elem = i ∧ l.pos = x := by
    unfold Beam.locate at hloc
    simp only [bind, Except.bind] at hloc
    split at hloc
    · cases hloc
    split at hloc
    · cases hloc
    split_ifs at hloc
    · rcases c with _ | c
      · obtain rfl := Except.ok.inj hloc
        obtain ⟨z, -, rfl⟩ := List.mem_map.1 hly
        exact ⟨rfl, rfl⟩
      simp only at hloc
      split at hloc
      · cases hloc
      split at hloc
      · cases hloc
      · obtain rfl := Except.ok.inj hloc
        obtain ⟨z, -, rfl⟩ := List.mem_map.1 hly
        exact ⟨rfl, rfl⟩
    · split at hloc
      · cases hloc
      · obtain rfl := Except.ok.inj hloc
        rw [List.mem_singleton.1 hly]
        exact ⟨rfl, rfl⟩
  exact ⟨ps, x, is, ys, rfl, hx, his, hel.1 ▸ hi, hel.1 ▸ hloc, hly, hel.2⟩

end

/-! ## C125, beams -/

section
variable {S : Type} {rt : Rt K}

/-- C125, beams: what is reported at explicit positions depends only on the load case in the elements that contain them,
and there only on the rows around them; errors included. -/
theorem C125_beam (hs : rt.SortOK) (c : ℤ) (b b' : Beam K S) (h : SameLengths b b') (position : PosArg K)
    (xs : List (Num K)) (hreq : PositionsOf position xs) (hn : ∀ x ∈ xs, SameNear rt c b b' x) (component : CompArg)
    (cs : List LComp) (hc : Asks component cs) (hcs : cs ≠ []) :
    b'.listPositions rt position none (some c) = b.listPositions rt position none (some c) ∧
    b'.getLoads rt c position none component = b.getLoads rt c position none component := by
  have hp0 : position ≠ .none := by
    rcases hreq with rfl | ⟨x, rfl, -⟩ <;> simp
  have hmem : ∀ ps, b.positionList rt position none (some c) = .ok ps → ∀ x ∈ ps, x ∈ xs := by
    intro ps hps x hx
    rcases hreq with rfl | ⟨y, rfl, rfl⟩
    · simp only [Beam.positionList, bind, Except.bind] at hps
      split at hps
      · cases hps
      · obtain rfl := Except.ok.inj hps
        exact mem_of_mem_sortedSet hx
    · simp only [Beam.positionList, Num.flt, bind, Except.bind, Bool.false_eq_true, if_false] at hps
      split at hps
      · cases hps
      · obtain rfl := Except.ok.inj hps
        exact mem_of_mem_sortedSet hx
  have hlist : b'.listPositions rt position none (some c) = b.listPositions rt position none (some c) := by
    unfold Beam.listPositions
    rw [sameLengths_list h position hp0]
    rcases hps : b.positionList rt position none (some c) with e | ps
    · rfl
    simp only [bind, Except.bind]
    rw [mapM_congr' ps]
    intro x hx
    rw [sameLengths_inElements h]
    rcases his : b.inElements rt x with e | is
    · rfl
    simp only
    rw [mapM_congr' is]
    exact fun i hi => sameNear_locate h (hn x (hmem ps hps x hx)) his hi
  refine ⟨hlist, ?_⟩
  unfold Beam.getLoads
  rw [hlist]
  rcases hlocs : b.listPositions rt position none (some c) with e | locs
  · rfl
  simp only [bind, Except.bind]
  refine foldlM_congr' locs (fun l hl acc => ?_) none
  obtain ⟨ps, x, is, ys, hps, hx, his, hi, hloc, hly, -⟩ := listed_entry hlocs hl
  have hget : ∀ e e', b.elements[l.elem]? = some e → b'.elements[l.elem]? = some e' →
      e'.getLoads rt c (.scalar l.loc) none component = e.getLoads rt c (.scalar l.loc) none component := by
    intro e e' h1 h2
    rcases hn x (hmem ps hps x hx) is his l.elem hi e e' h1 h2 with hsame | ⟨loc, hb, n, isInt, T, T', lo, hi', hlen, hn0, hw, hw',
      hrows, hlo, hhi, ht, ht'⟩
    · unfold SameLoads at hsame
      simp only [Element.getLoads, Element.case, hsame]
    · have hll : l.loc = loc := by
        unfold Beam.locate at hloc
        rw [pyIndex_cases, h1] at hloc
        simp only [bind, Except.bind, Element.len, hlen, hn0, if_false, hb] at hloc
        obtain rfl := Except.ok.inj hloc
        rw [List.mem_singleton.1 hly]
      simp only [Element.getLoads, Element.case, ht, ht', bind, Except.bind, hll]
      rcases loc with ⟨v, _ | _⟩
      · obtain ⟨tab, g1, g2⟩ := C125_load_case hs isInt T T' hw hw' lo hi' hrows (.scalar ⟨v, false⟩) [v] (Or.inl ⟨v, rfl, rfl⟩)
          (by simp) (by simpa using ⟨hlo, hhi⟩) component cs hc hcs
        rw [g1, g2]
      · rfl
  unfold Beam.loadStep
  rw [pyIndex_cases b.elements, pyIndex_cases b'.elements]
  rcases sameLengths_index h l.elem with ⟨h1, h2⟩ | ⟨e, e', h1, h2, -⟩
  · rw [h1, h2]
  · simp only [h1, h2, bind, Except.bind, hget e e' h1 h2]

end

/-! ## C125, checks -/

section
variable {rt : Rt K} {o o' : AS4100 K} {b b' : Beam K (Sect K)}

theorem considered_local (hb : o.beam = some b) (hb' : o'.beam = some b') (h : SameLengths b b') (x : Num K)
    (hd : ∀ is, b.inElements rt x = .ok is → ∀ i ∈ is, o'.dsects[i]? = o.dsects[i]?) :
    o'.considered rt (.scalar x) = o.considered rt (.scalar x) := by
  have hl := lengths_positions (rt := rt) (b := b) (b' := b') h (PosArg.wrap (.scalar x)) none
  simp only [AS4100.considered, AS4100.getDSection, hb, hb', hl]
  rcases hlocs : b.listPositions rt (PosArg.wrap (.scalar x)) none none with e | locs
  · rfl
  simp only [bind, Except.bind]
  rw [mapM_congr' locs]
  intro l hl
  obtain ⟨ps, y, is, ys, hps, hy, his, hi, -, -, -⟩ := listed_entry hlocs hl
  have hyx : y = x := by
    rcases x with ⟨v, _ | _⟩
    · simp only [PosArg.wrap, Bool.false_eq_true, if_false, Beam.positionList, bind, Except.bind] at hps
      split at hps
      · cases hps
      · obtain rfl := Except.ok.inj hps
        exact List.mem_singleton.1 (mem_of_mem_sortedSet hy)
    · simp [PosArg.wrap, Beam.positionList] at hps
  subst hyx
  rw [pyIndex_cases, pyIndex_cases, hd is his l.elem hi]

/-- C125, tension at a position. -/
theorem C125_tension (hs : rt.SortOK) (o o' : AS4100 K) (b b' : Beam K (Sect K)) (hb : o.beam = some b)
    (hb' : o'.beam = some b') (h : SameLengths b b') (c : ℤ) (position : PosArg K) (xs : List (Num K))
    (hreq : PositionsOf position xs) (hn : ∀ x ∈ xs, SameNear rt c b b' x) :
    o'.getTension rt c position none = o.getTension rt c position none := by
  unfold AS4100.getTension
  simp only [hb, hb', (C125_beam hs c b b' h position xs hreq hn (.name "N") [.N] ⟨.N, rfl, by simp⟩ (by simp)).2]

theorem casesOf_utilCases {loadCase : CaseArg} {cs : List ℤ} (h : CasesOf o loadCase cs) : o.utilCases loadCase = .ok cs := by
  rcases h with rfl | ⟨c, rfl, rfl⟩ | ⟨rfl, b, e, rest, hb, he, rfl⟩
  · rfl
  · rfl
  · simp only [AS4100.utilCases, hb, Beam.loadCases, he]
    rfl

/-- C125, the check: the utilisation at explicit positions depends only on the elements that contain the positions: their
design sections and their loads around the positions, errors included. -/
theorem C125_utilisation (hs : rt.SortOK) (o o' : AS4100 K) (b b' : Beam K (Sect K)) (hb : o.beam = some b)
    (hb' : o'.beam = some b') (h : SameLengths b b')
    (hval : o'.phiSteel = o.phiSteel ∧ o'.alphaU = o.alphaU ∧ o'.kt = o.kt) (loadCase : CaseArg) (cs : List ℤ)
    (hcs : CasesOf o loadCase cs) (hcs' : CasesOf o' loadCase cs) (position : PosArg K) (xs : List (Num K))
    (hreq : PositionsOf position xs) (hn : ∀ c ∈ cs, ∀ x ∈ xs, SameNear rt c b b' x)
    (hd : ∀ x ∈ xs, ∀ is, b.inElements rt x = .ok is → ∀ i ∈ is, o'.dsects[i]? = o.dsects[i]?) :
    o'.tensionUtilisation rt loadCase position = o.tensionUtilisation rt loadCase position := by
  have hcap : ∀ x ∈ xs, o'.tensionCapacity rt (.scalar x) = o.tensionCapacity rt (.scalar x) := by
    intro x hx
    unfold AS4100.tensionCapacity AS4100.phiNt AS4100.Nt AS4100.Nty AS4100.Ntu
    rw [considered_local hb hb' h x (hd x hx), hval.1, hval.2.1, hval.2.2]
  have hat : ∀ c ∈ cs, ∀ x ∈ xs, o'.utilAt rt c x = o.utilAt rt c x := by
    intro c hc x hx
    unfold AS4100.utilAt
    have ht : o'.getTension rt c (.scalar x) none = o.getTension rt c (.scalar x) none := by
      rcases x with ⟨v, _ | _⟩
      · exact C125_tension hs o o' b b' hb hb' h c _ [⟨v, false⟩] (Or.inr ⟨v, rfl, rfl⟩) (by simpa using hn c hc _ hx)
      · unfold AS4100.getTension
        simp only [hb, hb', Beam.getLoads, Beam.listPositions, Beam.positionList, if_true, bind, Except.bind]
    rw [hcap x hx, ht]
  have hloop : ∀ ks : List ℤ, (∀ c ∈ ks, c ∈ cs) → o'.utilLoop rt (some xs) ks = o.utilLoop rt (some xs) ks := by
    intro ks
    induction ks with
    | nil => intro _; rfl
    | cons c ks ih =>
      intro hk
      simp only [AS4100.utilLoop, AS4100.utilPositions, bind, Except.bind]
      rw [mapM_congr' xs (fun x hx => hat c (hk c List.mem_cons_self) x hx),
        ih fun k hk' => hk k (List.mem_cons_of_mem _ hk')]
  have hg : position.given = .ok (some xs) := by
    rcases hreq with rfl | ⟨x, rfl, rfl⟩ <;> rfl
  unfold AS4100.tensionUtilisation
  rw [casesOf_utilCases hcs, casesOf_utilCases hcs', hg]
  simp only [bind, Except.bind]
  rw [hloop cs fun c hc => hc]

end

/-! ### A case of C125: the second half of the first element, and all of the second, are changed -/

section
open Samples

/-- a table of axial loads -/
def nearT : List (LRow ℚ) := [axial 0 1, axial (1/2) 3, axial 1 2]

/-- the same up to the middle -/
def nearT' : List (LRow ℚ) := [axial 0 1, axial (1/2) 3, axial (3/4) 100, axial 1 (-7)]

/-- a beam of two elements -/
def nearBeam : Beam ℚ (Sect ℚ) :=
  ⟨[⟨[(7, ⟨some ⟨false, nearT⟩⟩)], some (Num.flt 2), rod (1/100)⟩, ⟨[(7, slack)], some (Num.flt 3), rod (1/50)⟩]⟩

/-- the same, except for the loads of the second half of the first element and all of the second element -/
def nearBeam' : Beam ℚ (Sect ℚ) :=
  ⟨[⟨[(7, ⟨some ⟨false, nearT'⟩⟩)], some (Num.flt 2), rod (1/100)⟩, ⟨[(7, peak)], some (Num.flt 3), rod (1/1000)⟩]⟩

/-- their checks -/
def nearObj : AS4100 ℚ := ⟨some nearBeam, none, 20, [⟨1/100, steel⟩, ⟨1/50, steel⟩], 9/10, 85/100, 1⟩

/-- their checks -/
def nearObj' : AS4100 ℚ := ⟨some nearBeam', none, 20, [⟨1/100, steel⟩, ⟨1/1000, steel⟩], 9/10, 85/100, 1⟩

theorem nearT_wf : WellFormed nearT ∧ WellFormed nearT' := by
  constructor <;> refine ⟨?_, ?_⟩ <;> decide +kernel

theorem nearT_same : SameRows 0 (1/2) nearT nearT' := by
  refine ⟨?_, ?_, ?_⟩ <;> decide +kernel

theorem nearBeam_lengths : SameLengths nearBeam nearBeam' := .cons rfl (.cons rfl .nil)

theorem nearBeam_in : nearBeam.inElements Samples.rt (Num.flt (1/2)) = .ok [0] := by decide +kernel

theorem nearBeam_same : SameNear Samples.rt 7 nearBeam nearBeam' (Num.flt (1/2)) := by
  intro is his i hi e e' he he'
  rw [nearBeam_in] at his
  obtain rfl := Except.ok.inj his
  obtain rfl := List.mem_singleton.1 hi
  obtain rfl := Option.some.inj he
  obtain rfl := Option.some.inj he'
  refine Or.inr ⟨Num.flt (1/4), by decide +kernel, Num.flt 2, false, nearT, nearT', 0, 1/2, rfl, by decide +kernel, nearT_wf.1,
    nearT_wf.2, nearT_same, by decide +kernel, by decide +kernel, rfl, rfl⟩

example : nearObj'.tensionUtilisation Samples.rt .none (.scalar (Num.flt (1/2)))
      = nearObj.tensionUtilisation Samples.rt .none (.scalar (Num.flt (1/2))) := by
  refine C125_utilisation (Rt.exact_sortOK ℚ) nearObj nearObj' nearBeam nearBeam' rfl rfl nearBeam_lengths ⟨rfl, rfl, rfl⟩ .none [7]
    (Or.inr (Or.inr ⟨rfl, _, _, _, rfl, rfl, rfl⟩)) (Or.inr (Or.inr ⟨rfl, _, _, _, rfl, rfl, rfl⟩)) _ [Num.flt (1/2)]
    (Or.inr ⟨_, rfl, rfl⟩) ?_ ?_
  · intro c hc x hx
    rw [List.mem_singleton.1 hc, List.mem_singleton.1 hx]
    exact nearBeam_same
  · intro x hx is his i hi
    rw [List.mem_singleton.1 hx, nearBeam_in] at his
    obtain rfl := Except.ok.inj his
    rw [List.mem_singleton.1 hi]
    rfl

/-- what is reported there, and elsewhere -/
example : nearObj'.getTension Samples.rt 7 (.scalar (Num.flt (1/2))) none = .ok ⟨.flt, 1, [(1/2, [some 2])]⟩ ∧
    nearObj'.getTension Samples.rt 7 (.scalar (Num.flt (3/2))) none
      ≠ nearObj.getTension Samples.rt 7 (.scalar (Num.flt (3/2))) none := by
  decide +kernel

end

end BeamDesign
