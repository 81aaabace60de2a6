import Verif.Lemmas.Special
import Verif.Props.Beam
import Verif.Props.Tension
import Verif.Spec.SamplesAS
import Verif.Lemmas.Float64

/-! # Property C120: loads that are nan or infinite -/

set_option linter.unusedSectionVars false
set_option linter.unusedSimpArgs false

namespace BeamDesign

open Spec

section
variable {K : Type} [Field K] [LinearOrder K] [IsStrictOrderedRing K]

/-- C120: positions that are nan or infinite are rejected, and the others are accepted exactly when the finite ones are (C01). -/
theorem C120_positions (pos : List (Val K)) :
    LoadCase.checkFloats pos = .ok () ↔
      ∃ xs : List K, pos = xs.map Val.fin ∧ xs.Pairwise (· ≤ ·) ∧ ∀ x ∈ xs, 0 ≤ x ∧ x ≤ 1 := by
  have hall : (pos.all (·.le 1) && pos.all (·.ge 0)) = true ↔ ∃ xs : List K, pos = xs.map Val.fin ∧ ∀ x ∈ xs, 0 ≤ x ∧ x ≤ 1 := by
    induction pos with
    | nil => simp
    | cons v pos ih =>
      simp only [Bool.and_eq_true, List.all_cons] at ih ⊢
      constructor
      · rintro ⟨⟨h1, h2⟩, h3, h4⟩
        obtain ⟨xs, rfl, hxs⟩ := ih.1 ⟨h2, h4⟩
        cases v with
        | fin x => exact ⟨x :: xs, rfl, by simpa [Val.le, Val.ge] using ⟨⟨by simpa [Val.ge] using h3, by simpa [Val.le] using h1⟩, hxs⟩⟩
        | _ => simp [Val.le, Val.ge] at h1 h3
      · rintro ⟨xs, he, hxs⟩
        cases xs with
        | nil => simp at he
        | cons x xs =>
          simp only [List.map_cons, List.cons.injEq] at he
          obtain ⟨rfl, rfl⟩ := he
          obtain ⟨h1, h2⟩ := ih.2 ⟨xs, rfl, fun y hy => hxs y (List.mem_cons_of_mem _ hy)⟩
          have := hxs x (by simp)
          exact ⟨⟨by simpa [Val.le] using this.2, h1⟩, by simpa [Val.ge] using this.1, h2⟩
  have hord : ∀ xs : List K, LoadCase.checkFloats.ordered (xs.map Val.fin) = true ↔ xs.Pairwise (· ≤ ·) := by
    intro xs
    rw [← List.isChain_iff_pairwise]
    induction xs with
    | nil => simp [LoadCase.checkFloats.ordered]
    | cons x xs ih =>
      cases xs with
      | nil => simp [LoadCase.checkFloats.ordered]
      | cons y xs =>
        simp only [List.map_cons] at ih
        simp [LoadCase.checkFloats.ordered, Val.diffNonneg, ih]
  unfold LoadCase.checkFloats
  by_cases h : (pos.all (·.le 1) && pos.all (·.ge 0)) = true
  · obtain ⟨xs, rfl, hxs⟩ := hall.1 h
    simp only [h, Bool.not_true, Bool.false_eq_true, if_false]
    have hinj : ∀ ys : List K, xs.map Val.fin = ys.map Val.fin → xs = ys := fun ys hy =>
      List.map_injective_iff.2 (fun a b hab => by injection hab) hy
    by_cases ho : LoadCase.checkFloats.ordered (xs.map Val.fin) = true
    · simp only [ho, Bool.not_true, Bool.false_eq_true, if_false, true_iff]
      exact ⟨xs, rfl, (hord xs).1 ho, hxs⟩
    · simp only [ho, Bool.not_false, if_true, reduceCtorEq, false_iff]
      rintro ⟨ys, hy, hp, -⟩
      rw [← hinj ys hy] at hp
      exact ho ((hord xs).2 hp)
  · have : ¬ ∃ xs : List K, pos = xs.map Val.fin ∧ xs.Pairwise (· ≤ ·) ∧ ∀ x ∈ xs, 0 ≤ x ∧ x ≤ 1 := by
      rintro ⟨xs, h1, -, h3⟩
      exact h (hall.2 ⟨xs, h1, h3⟩)
    simp only [this, iff_false]
    rw [Bool.not_eq_true] at h
    rw [h]
    split_ifs with h1 h2
    · simp
    · simp
    · simp at h2

theorem valInterpGo_skip {rt : Rt K} {x : K} (A B : List (K × Val K)) (r s : K × Val K) (hr : r.1 ≤ x) :
    ∀ p : K × Val K, (∀ q ∈ A, q.1 ≤ x) → valInterpGo rt retry x p (A ++ r :: s :: B) = valInterpGo rt retry x r (s :: B) := by
  induction A with
  | nil => rintro ⟨a, v⟩ -; obtain ⟨b, w⟩ := r; simp only [List.nil_append, valInterpGo] at hr ⊢; simp [hr]
  | cons q A ih =>
    rintro ⟨a, v⟩ h
    obtain ⟨b, w⟩ := q
    have hb : b ≤ x := h (b, w) (by simp)
    simp only [List.cons_append]
    rw [valInterpGo, if_pos hb]
    exact ih (b, w) fun q hq => h q (List.mem_cons_of_mem _ hq)

theorem line_unusable {rt : Rt K} (retry : Bool) {v w : Val K} {a b x : K} (hd : 0 < rt.sub b a) (he : 0 < rt.sub x a)
    (hf : rt.sub x b ≤ 0) (h : Unusable v ∨ Unusable w) : Unusable (valLine rt retry x (a, v) (b, w)) := by
  unfold Unusable at *
  by_cases h0 : rt.sub x b = 0 <;> cases v <;> cases w <;> cases retry <;>
    simp_all [valLine, Val.sub, Val.div, Val.mul, Val.add, Val.signed, hd.ne', he.ne', hf.not_gt]

/-- the axial load strictly between two neighbouring stored positions -/
theorem axial_line {rt : Rt K} (retry : Bool) (view : K → Val K) (A B : List (LRow K)) (r s : LRow K) (isInt : Bool) (x : K)
    (hwf : WellFormed (A ++ r :: s :: B)) (h1 : r.pos < x) (h2 : x < s.pos) :
    (⟨some ⟨isInt, A ++ r :: s :: B⟩⟩ : LoadCase K).axial rt retry view (Num.flt x)
      = .ok [some (valLine rt retry x (r.pos, view r.n) (s.pos, view s.n))] := by
  have hord := hwf.1
  rw [List.pairwise_append] at hord
  obtain ⟨-, hord, hA⟩ := hord
  rw [List.pairwise_cons, List.pairwise_cons] at hord
  obtain ⟨-, hB, -⟩ := hord
  have hA' : ∀ q ∈ A, q.pos ≤ x := fun q hq => (hA q hq r (by simp)).trans h1.le
  have hB' : ∀ q ∈ B, x < q.pos := fun q hq => h2.trans_le (hB q hq)
  have hmem : x ∉ (A ++ r :: s :: B).map (·.pos) := by
    simp only [List.mem_map, List.mem_append, List.mem_cons, not_exists, not_and]
    rintro q (hq | rfl | rfl | hq) rfl
    · exact absurd (hA q hq r (by simp)) (not_le.2 h1)
    · exact lt_irrefl _ h1
    · exact lt_irrefl _ h2
    · exact lt_irrefl _ (hB' q hq)
  unfold LoadCase.axial
  simp only [Num.flt, Bool.false_eq_true, if_false, hmem, bind, Except.bind]
  set f := fun r : LRow K => (r.pos, view r.n) with hf
  have hgo : ∀ p : K × Val K, ∀ A : List (LRow K), (∀ q ∈ A, q.pos ≤ x) → valInterpGo rt retry x p (A.map f ++ f r :: f s :: B.map f)
      = valLine rt retry x (r.pos, view r.n) (s.pos, view s.n) := by
    intro p A hA'
    rw [valInterpGo_skip (A.map f) (B.map f) (f r) (f s) h1.le p (by
      intro q hq
      obtain ⟨y, hy, rfl⟩ := List.mem_map.1 hq
      exact hA' y hy)]
    simp only [hf, valInterpGo, if_neg (not_le.2 h2), if_neg h1.ne]
  have hlast : ∀ (l : List (K × Val K)) (hl : l ≠ []), (∃ C : List (K × Val K), l = C ++ f r :: f s :: B.map f) → ¬ (l.getLast hl).1 < x := by
    rintro l hl ⟨C, rfl⟩
    rw [List.getLast_append_of_ne_nil _ (by simp), List.getLast_cons (by simp)]
    have := List.getLast_mem (l := f s :: B.map f) (by simp)
    rw [not_lt]
    rcases List.mem_cons.1 this with h | h
    · rw [h]; exact h2.le
    · obtain ⟨q, hq, he⟩ := List.mem_map.1 h
      rw [← he]
      exact (hB' q hq).le
  cases A with
  | nil =>
    simp only [List.nil_append, List.map_cons, valInterp]
    rw [show f r = (r.pos, view r.n) from rfl] at hlast ⊢
    simp only
    rw [if_neg (not_lt.2 h1.le)]
    rw [if_neg (hlast ((r.pos, view r.n) :: f s :: B.map f) (by simp) ⟨[], rfl⟩)]
    have := hgo (f r) [] (by simp)
    simp only [List.map_nil, List.nil_append] at this
    rw [show f r = (r.pos, view r.n) from rfl] at this
    rw [valInterpGo, if_pos h1.le] at this
    rw [this]
    rfl
  | cons a A =>
    simp only [List.cons_append, List.map_cons, List.map_append, valInterp]
    rw [show f a = (a.pos, view a.n) from rfl]
    simp only
    rw [if_neg (not_lt.2 (hA' a (by simp)))]
    rw [if_neg (hlast ((a.pos, view a.n) :: (A.map f ++ f r :: f s :: B.map f)) (by simp) ⟨(a.pos, view a.n) :: A.map f, by simp⟩)]
    rw [hgo _ A fun q hq => hA' q (List.mem_cons_of_mem _ hq)]
    rfl

/-- C120: at a position strictly between two neighbouring stored positions, one of which has an unusable axial load, the axial load is
unusable. -/
theorem C120_between {rt : Rt K} (retry : Bool) (view : K → Val K) (A B : List (LRow K)) (r s : LRow K) (isInt : Bool) (x : K)
    (hwf : WellFormed (A ++ r :: s :: B)) (h1 : r.pos < x) (h2 : x < s.pos)
    (hs1 : 0 < rt.sub x r.pos) (hs2 : 0 < rt.sub s.pos r.pos) (hs3 : rt.sub x s.pos ≤ 0)
    (hbad : Unusable (view r.n) ∨ Unusable (view s.n)) :
    ∃ v, Unusable v ∧ (⟨some ⟨isInt, A ++ r :: s :: B⟩⟩ : LoadCase K).axial rt retry view (Num.flt x) = .ok [some v] :=
  ⟨_, line_unusable retry hs2 hs1 hs3 hbad, axial_line retry view A B r s isInt x hwf h1 h2⟩

/-- C120: strictly between two neighbouring stored positions that both have an infinite axial load the axial load is nan; so also between two
rows with an infinite compression it is not passed as one without tension.  Later versions of numpy give the common value instead where both
infinities have the same sign. -/
theorem C120_infinite {rt : Rt K} (retry : Bool) (view : K → Val K) (A B : List (LRow K)) (r s : LRow K) (isInt : Bool) (x : K)
    (hwf : WellFormed (A ++ r :: s :: B)) (h1 : r.pos < x) (h2 : x < s.pos)
    (hs1 : 0 < rt.sub x r.pos) (hs2 : 0 < rt.sub s.pos r.pos) (hs3 : rt.sub x s.pos ≤ 0)
    (hr : view r.n = .posInf ∨ view r.n = .negInf) (hs : view s.n = .posInf ∨ view s.n = .negInf) :
    (⟨some ⟨isInt, A ++ r :: s :: B⟩⟩ : LoadCase K).axial rt retry view (Num.flt x)
      = .ok [some (if retry = true ∧ view r.n = view s.n then view r.n else .nan)] := by
  rw [axial_line retry view A B r s isInt x hwf h1 h2]
  by_cases h0 : rt.sub x s.pos = 0 <;> rcases hr with hr | hr <;> rcases hs with hs | hs <;> cases retry <;>
    simp [valLine, hr, hs, h0, Val.sub, Val.div, Val.mul, Val.add, Val.signed, hs1, hs2, hs1.ne', hs2.ne', hs3.not_gt]

variable [FloorRing K]

/-- C120: with finite loads nothing changes. -/
theorem C120_agrees {rt : Rt K} (retry : Bool) (o : AS4100 K) (hsub : ∀ b, o.beam = some b → SeparateIn rt b) (loadCase : CaseArg) (position : PosArg K) :
    o.tensionUtilisationVal rt retry Val.fin loadCase position = o.tensionUtilisation rt loadCase position := by
  unfold AS4100.tensionUtilisationVal AS4100.tensionUtilisation
  simp only [utilLoopVal_fin o hsub]

theorem listing_mem {ls : List (Num K)} {c : Option ℤ} {xs : List K} {out : List (Loc K)} (h : Listing ls c xs out) {v : K} {i : ℕ}
    (hv : v ∈ xs) (hi : InElement ls v i) {l : Num K} (hl : ls[i]? = some l) :
    ∃ e ∈ out, e.pos.val = v ∧ e.elem = i ∧ v = startOf ls i + e.loc.val * l.val := by
  obtain ⟨pairs, blocks, hp, hf, rfl⟩ := h
  obtain ⟨j, hj, hje⟩ := List.getElem_of_mem ((hp.2 v i).2 ⟨hv, hi⟩)
  have hb := (List.forall₂_iff_get.1 hf).2 j hj (by rw [← hf.length_eq]; exact hj)
  simp only [List.get_eq_getElem, hje] at hb
  obtain ⟨l', hl', h1, -, -, hne⟩ := hb
  rw [hl] at hl'
  cases hl'
  obtain ⟨e, he⟩ := List.exists_mem_of_ne_nil _ hne
  exact ⟨e, List.mem_flatten.2 ⟨_, List.getElem_mem _, he⟩, h1 e he⟩

theorem mapM_mem {α β : Type} {f : α → Py β} {l : List α} {ys : List β} (h : l.mapM f = .ok ys) {x : α} (hx : x ∈ l) :
    ∃ y ∈ ys, f x = .ok y := by
  rw [mapM_eq_ok_iff] at h
  exact List.forall₂_iff_get.1 h |> fun ⟨hl, hg⟩ => by
    obtain ⟨i, hi, rfl⟩ := List.getElem_of_mem hx
    exact ⟨ys[i], List.getElem_mem _, hg i hi (hl ▸ hi)⟩

/-- a load case and position that were rated have finite tensions only -/
theorem utilAtVal_ok {rt : Rt K} {retry : Bool} {view : K → Val K} {o : AS4100 K} {b : Beam K (Sect K)} (hb : o.beam = some b) {c : ℤ} {p : Num K}
    {here : List (ℤ × Num K × K)} (h : o.utilAtVal rt retry view c p = .ok here) :
    ∃ ts, b.tensionVals rt retry view c p = .ok ts ∧ ∀ t ∈ ts, ¬ Unusable t := by
  unfold AS4100.utilAtVal at h
  simp only [hb, bind, Except.bind] at h
  split at h
  · cases h
  next cap hcap =>
  split at h
  · cases h
  next ts hts =>
  refine ⟨ts, hts, fun t ht hbad => ?_⟩
  obtain ⟨y, -, hy⟩ := mapM_mem h ht
  cases hu : utilOneVal rt cap t with
  | error => rw [hu] at hy; cases hy
  | ok u => exact utilOneVal_special rt hbad cap u hu

theorem clampVal_ok {v : Option (Val K)} {t : Val K} (h : clampVal v = .ok t) : t ≠ .negInf ∧ ∀ x, t = .fin x → 0 ≤ x := by
  unfold clampVal at h
  split at h
  · cases h
  · cases h
    refine ⟨by simp, fun x hx => ?_⟩
    cases hx
    split_ifs with h0
    · exact le_refl _
    · exact not_lt.1 h0
  · cases h
    exact ⟨by simp, fun x hx => by cases hx; exact le_refl _⟩
  · rename_i v hv1 hv2
    cases h
    exact ⟨fun h => hv2 h, fun x hx => absurd hx (hv1 x)⟩

theorem tensionVals_clamped {S : Type} {rt : Rt K} {retry : Bool} {view : K → Val K} {b : Beam K S} {c : ℤ} {p : Num K} {ts : List (Val K)}
    (h : b.tensionVals rt retry view c p = .ok ts) : ∀ t ∈ ts, t ≠ .negInf ∧ ∀ x, t = .fin x → 0 ≤ x := by
  unfold Beam.tensionVals at h
  simp only [bind, Except.bind] at h
  split at h
  · cases h
  split at h
  · cases h
  split_ifs at h
  rw [mapM_eq_ok_iff] at h
  intro t ht
  obtain ⟨i, hi, rfl⟩ := List.getElem_of_mem ht
  exact clampVal_ok ((List.forall₂_iff_get.1 h).2 i (by rw [h.length_eq]; exact hi) hi)

theorem utilLoopVal_ok {rt : Rt K} {retry : Bool} {view : K → Val K} {o : AS4100 K} {ps : List (Num K)} {cs : List ℤ} {ret : List (ℤ × Num K × K)}
    (h : o.utilLoopVal rt retry view (some ps) cs = .ok ret) : ∀ c ∈ cs, ∀ p ∈ ps, ∃ here, o.utilAtVal rt retry view c p = .ok here := by
  induction cs generalizing ret with
  | nil => simp
  | cons c cs ih =>
    unfold AS4100.utilLoopVal AS4100.utilPositions at h
    simp only [bind, Except.bind] at h
    split at h
    · cases h
    next hs hhs =>
    split at h
    · cases h
    next rest hrest =>
    intro k hk p hp
    rcases List.mem_cons.1 hk with rfl | hk
    · obtain ⟨y, -, hy⟩ := mapM_mem hhs hp
      exact ⟨y, hy⟩
    · exact ih hrest k hk p hp

/-- C120: if a utilisation is returned, every tension at every position and in every load case asked for is a number. -/
theorem C120_rated {rt : Rt K} (retry : Bool) (view : K → Val K) (o : AS4100 K) (b : Beam K (Sect K)) (hb : o.beam = some b) (cs : List ℤ)
    (ps : List (Num K)) (u : K) (h : o.tensionUtilisationVal rt retry view (.list cs) (.list ps) = .ok u) :
    ∀ c ∈ cs, ∀ p ∈ ps, ∃ ts, b.tensionVals rt retry view c p = .ok ts ∧ ∀ t ∈ ts, ∃ x, 0 ≤ x ∧ t = .fin x := by
  intro c hc p hp
  have hloop : ∃ ret, o.utilLoopVal rt retry view (some ps) cs = .ok ret := by
    unfold AS4100.tensionUtilisationVal at h
    simp only [PosArg.given, AS4100.utilCases, bind, Except.bind] at h
    split at h
    · cases h
    · exact ⟨_, by assumption⟩
  obtain ⟨ret, hret⟩ := hloop
  obtain ⟨here, hh⟩ := utilLoopVal_ok hret c hc p hp
  obtain ⟨ts, hts, hu⟩ := utilAtVal_ok hb hh
  refine ⟨ts, hts, fun t ht => ?_⟩
  obtain ⟨hneg, hcl⟩ := tensionVals_clamped hts t ht
  cases t with
  | fin x => exact ⟨x, hcl x rfl, rfl⟩
  | posInf => exact absurd (Or.inr rfl) (hu _ ht)
  | nan => exact absurd (Or.inl rfl) (hu _ ht)
  | negInf => exact absurd rfl hneg

/-- C120: a load case with an axial load that is nan or plus infinity anywhere on an element with a length gets no utilisation. -/
theorem C120_rows {rt : Rt K} (hx : rt.Exact) (retry : Bool) (view : K → Val K) (o : AS4100 K) (b : Beam K (Sect K)) (hb : o.beam = some b)
    (ls : List (Num K)) (hls : HasLengths b ls) (c : ℤ) (hc : Loaded b c) (i : ℕ) (l : Num K) (hl : ls[i]? = some l) (hl0 : l.val ≠ 0)
    (t : Table K) (ht : HasTable b c i t) (r : LRow K) (hr : r ∈ t.rows) (hbad : Unusable (view r.n)) (u : K) :
    o.tensionUtilisationVal rt retry view (.one c) .none ≠ .ok u := by
  intro h
  -- the points that were rated
  have hloop : ∃ locs, b.listPositions rt .none (some o.assessmentPoints) (some c) = .ok locs ∧
      ∀ q ∈ locs, ∃ here, o.utilAtVal rt retry view c q.pos = .ok here := by
    unfold AS4100.tensionUtilisationVal at h
    simp only [PosArg.given, AS4100.utilCases, AS4100.utilLoopVal, AS4100.utilPositions, hb, bind, Except.bind] at h
    cases hlp : b.listPositions rt .none (some o.assessmentPoints) (some c) with
    | error => simp [hlp] at h
    | ok locs =>
      simp only [hlp, pure, Except.pure] at h
      cases hm : (locs.map fun l => l.pos).mapM fun p => o.utilAtVal rt retry view c p with
      | error => simp [hm] at h
      | ok hs =>
        refine ⟨locs, rfl, fun q hq => ?_⟩
        obtain ⟨y, -, hy⟩ := mapM_mem hm (List.mem_map_of_mem hq)
        exact ⟨y, hy⟩
  obtain ⟨locs, hlocs, hrated⟩ := hloop
  -- one of them is the position of the row
  have hi : i < ls.length := by
    by_contra hcc
    rw [List.getElem?_eq_none (by omega)] at hl
    cases hl
  have hrange : 0 ≤ r.pos ∧ r.pos ≤ 1 := by
    obtain ⟨e, -, -, hwf, -⟩ := ht
    exact hwf.2 r hr
  have hl1 : 0 < l.val := lt_of_le_of_ne (hls.2 l (List.mem_of_getElem? hl)) (Ne.symm hl0)
  have hnext : startOf ls (i + 1) = startOf ls i + l.val := startOf_succ ls i l hl
  set v := startOf ls i + r.pos * l.val with hv
  have hin : InElement ls v i := ⟨hi, by rw [hv]; nlinarith [hrange.1], by rw [hnext, hv]; nlinarith [hrange.2]⟩
  have hpoint : ∃ q ∈ locs, q.pos.val = v := by
    have hn : 0 ≤ o.assessmentPoints := by
      by_contra hneg
      unfold Beam.listPositions Beam.positionList at hlocs
      simp only [bind, Except.bind] at hlocs
      cases hL : b.length rt with
      | error => simp [hL] at hlocs
      | ok L => simp [hL, linspace, not_le.1 hneg] at hlocs
    obtain ⟨n, hn⟩ := Int.eq_ofNat_of_zero_le hn
    obtain ⟨xs, out, ho, hlist, -, hmem, -, -⟩ := C16_min_positions hx b ls hls (some c) (by rintro k hk; cases hk; exact hc) n
    rw [hn] at hlocs
    rw [hlocs] at ho
    cases ho
    obtain ⟨e, he, hev, -⟩ := listing_mem hlist ((hmem v).2 (Or.inr (Or.inl ⟨i, l, c, t, r, hl, rfl, ht, hr, rfl⟩))) hin hl
    exact ⟨e, he, hev⟩
  obtain ⟨q, hq, hqv⟩ := hpoint
  obtain ⟨here, hh⟩ := hrated q hq
  obtain ⟨ts, hts, hok⟩ := utilAtVal_ok hb hh
  -- the tensions reported there include the load of the row
  refine hok (view r.n) ?_ hbad
  unfold Beam.tensionVals at hts
  simp only [bind, Except.bind] at hts
  split at hts
  · cases hts
  next locs2 hlocs2 =>
  split at hts
  · cases hts
  next vals hvals =>
  split_ifs at hts with hne
  have hflt : q.pos.isInt = false := by
    by_contra hint
    rw [Bool.not_eq_false] at hint
    unfold Beam.listPositions Beam.positionList at hlocs2
    simp [hint, bind, Except.bind] at hlocs2
  obtain ⟨out, ho, hlist⟩ := C15_listing hx b ls hls (.scalar q.pos) [v] (Or.inl ⟨v, by rw [← hqv]; cases hq' : q.pos; simp_all [Num.flt], rfl⟩)
    (some c) (by
      intro k hk j lj hlj _
      cases hk
      refine hc j ?_
      rw [hasLengths_length hls]
      exact (List.getElem?_eq_some_iff.1 hlj).1) (by simpa using inElement_range hls.2 hin)
  rw [hlocs2] at ho
  cases ho
  obtain ⟨e, he, -, hei, hev⟩ := listing_mem hlist (List.mem_singleton_self v) hin hl
  have hloc : e.loc.val = r.pos := by
    have : r.pos * l.val = e.loc.val * l.val := by rw [hv] at hev; linarith
    exact (mul_right_cancel₀ hl0 this).symm
  obtain ⟨vs, hvs, hax⟩ := mapM_mem hvals he
  obtain ⟨el, hel, hlk, -, -⟩ := ht
  unfold Beam.axialOf at hax
  rw [hei, pyIndex_nat _ _ _ hel] at hax
  simp only [Element.case, hlk, LoadCase.axial, bind, Except.bind] at hax
  split_ifs at hax with h1 h2
  · cases hax
    have hin2 : some (view r.n) ∈ vals.flatten := List.mem_flatten.2 ⟨_, hvs, List.mem_map.2 ⟨r, List.mem_filter.2
      ⟨hr, by simp [hloc]⟩, rfl⟩⟩
    obtain ⟨y, hy, hcl⟩ := mapM_mem hts hin2
    have : clampVal (some (view r.n)) = .ok (view r.n) := by rcases hbad with h | h <;> rw [h] <;> rfl
    rw [this] at hcl
    cases hcl
    exact hy
  · exact absurd (List.mem_map.2 ⟨r, hr, hloc.symm⟩) h2

end

/-! ## The hypotheses are met -/

/-- In exact arithmetic different positions have a difference. -/
theorem separate_exact {K : Type} [Field K] {rt : Rt K} (hx : rt.Exact) (rows : List (LRow K)) : Separate rt rows := by
  intro r _ s _ h
  rw [hx.sub] at h
  exact sub_eq_zero.1 h

theorem rnd64_grid (x : ℚ) : ∃ n : ℤ, rnd64 x = n * 2 ^ (-1074 : ℤ) := by
  have he : -1074 ≤ exp64 x := le_max_right _ _
  obtain ⟨k, hk⟩ := Int.eq_ofNat_of_zero_le (sub_nonneg.2 he)
  refine ⟨roundEven (x / 2 ^ exp64 x) * 2 ^ k, ?_⟩
  have : exp64 x = k + (-1074) := by rw [← hk]; ring
  unfold rnd64
  rw [this, zpow_add₀ (by norm_num)]
  push_cast
  rw [zpow_natCast, mul_assoc]

/-- The difference of two doubles is rounded to zero only if they are equal. -/
theorem rnd64_sub_pos {a b : ℚ} (ha : rnd64 a = a) (hb : rnd64 b = b) (h : b < a) : 0 < rnd64 (a - b) := by
  obtain ⟨m, hm⟩ := rnd64_grid a
  obtain ⟨n, hn⟩ := rnd64_grid b
  rw [ha] at hm
  rw [hb] at hn
  have hp := two_zpow_pos (-1074)
  have hmn : n < m := by
    rw [hm, hn] at h
    exact_mod_cast lt_of_mul_lt_mul_right h hp.le
  have h1 : (2 : ℚ) ^ (-1074 : ℤ) ≤ a - b := by
    have h2 : (n : ℚ) + 1 ≤ m := by exact_mod_cast hmn
    have h3 := mul_le_mul_of_nonneg_right h2 hp.le
    rw [hm, hn]
    linarith
  have h4 : rnd64 ((2 : ℚ) ^ (-1074 : ℤ)) = 2 ^ (-1074 : ℤ) := by
    have := rnd64_of_small (e := -1074) (n := 1) (le_refl _) (by norm_num)
    simpa using this
  exact hp.trans_le (h4 ▸ rnd64_mono h1)

/-- So the positions of every table of doubles are kept apart. -/
theorem separate_binary64 (rows : List (LRow ℚ)) (h : ∀ r ∈ rows, rnd64 r.pos = r.pos) : Separate Rt.binary64 rows := by
  intro r hr s hs h0
  change rnd64 (r.pos - s.pos) = 0 at h0
  rcases lt_trichotomy r.pos s.pos with hlt | heq | hlt
  · have := rnd64_sub_pos (h s hs) (h r hr) hlt
    rw [← neg_sub, rnd64_neg, h0] at this
    simp at this
  · exact heq
  · exact absurd h0 (rnd64_sub_pos (h r hr) (h s hs) hlt).ne'

namespace Samples

/-- the axial load 4 of the sample table is nan -/
def nanView : ℚ → Val ℚ := fun x => if x = 4 then .nan else .fin x

example (retry : Bool) (u : ℚ) : obj.tensionUtilisationVal rt retry nanView (.one 7) .none ≠ .ok u :=
  C120_rows (Rt.exact_exact ℚ) retry nanView obj rods rfl rodLens rods_lens 7
    (fun i hi => (rods_loaded i hi).imp fun _ h => h.1) 1 (Num.flt 3) rfl (by decide +kernel)
    ⟨false, rows⟩ ⟨rodElem 3 (1/50), rfl, rfl, wf, by simp [rows]⟩ ⟨1/2, 1, 2, 4, 4, 5, 6⟩ (by simp [rows]) (Or.inl rfl) u

/-- at a position with finite loads only there is a utilisation, and halfway to the nan there is none -/
example : obj.tensionUtilisationVal rt false nanView (.one 7) (.list [Num.flt 0])
      = obj.tensionUtilisation rt (.one 7) (.list [Num.flt 0]) ∧
    obj.tensionUtilisationVal rt false nanView (.one 7) (.list [Num.flt 0, Num.flt (3/2)]) = .error .valueError := by
  decide +kernel

example : LoadCase.checkFloats [Val.fin (0 : ℚ), .fin (1/2), .nan] = .error .assertionError ∧
    LoadCase.checkFloats [Val.fin (0 : ℚ), .posInf] = .error .assertionError ∧
    LoadCase.checkFloats [Val.fin (0 : ℚ), .fin (1/2)] = .ok () := by decide +kernel

example : (⟨some ⟨false, rows⟩⟩ : LoadCase ℚ).axial rt false nanView (Num.flt (3/4)) = .ok [some .nan] := by decide +kernel

/-- an infinite compression throughout: rated as zero at the rows, refused in between (and rated as zero by later versions of numpy) -/
example : obj.tensionUtilisationVal rt false (fun _ => .negInf) (.one 7) (.list [Num.flt 0]) = .ok 0 ∧
    obj.tensionUtilisationVal rt false (fun _ => .negInf) (.one 7) (.list [Num.flt (1/4)]) = .error .valueError ∧
    obj.tensionUtilisationVal rt true (fun _ => .negInf) (.one 7) (.list [Num.flt (1/4)]) = .ok 0 := by decide +kernel

end Samples

end BeamDesign
