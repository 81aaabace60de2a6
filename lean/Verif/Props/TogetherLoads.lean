import Verif.Lemmas.TogetherLoads
import Verif.Spec.SamplesAS

/-!
# C158: the loads of a beam at several positions are those at single positions put together

In every arithmetic: the run-time `rt` may round as it likes.
-/

set_option linter.unusedSectionVars false

namespace BeamDesign

open Spec

variable {K : Type} [Field K] [LinearOrder K] [IsStrictOrderedRing K] [FloorRing K] {S : Type}

/-- The call for several positions answers iff each single call does and their tables have as many columns as each other; its rows are
theirs, for the distinct positions in ascending order. -/
theorem C158_loads (rt : Rt K) (xs : List K) : ∃ qs, Distinct xs qs ∧
    ∀ (b : Beam K S) (k : ℤ) (component : CompArg),
      (∀ a, b.getLoads rt k (.list (xs.map Num.flt)) none component = .ok a →
        ∃ as, List.Forall₂ (fun q r => b.getLoads rt k (.scalar (Num.flt q)) none component = .ok r) qs as ∧ OneWidth as ∧
          rowsOf a = (as.map rowsOf).flatten) ∧
      (∀ as, List.Forall₂ (fun q r => b.getLoads rt k (.scalar (Num.flt q)) none component = .ok r) qs as → OneWidth as →
        ∃ a, b.getLoads rt k (.list (xs.map Num.flt)) none component = .ok a) := by
  obtain ⟨qs, hd, hq⟩ := sortedSet_floats xs
  refine ⟨qs, hd, fun b k component => ⟨fun a h => ?_, fun as h hw => ?_⟩⟩
  · obtain ⟨ts, hts, hs⟩ := getLoads_iff.1 h
    obtain ⟨tss, htss, rfl⟩ := (query_each hq hd).1 hts
    obtain ⟨hrows, -, hwid⟩ := stack_ok hs
    have hsame : ∀ ts ∈ tss, ∃ r, ts.foldlM stackOn none = .ok r := by
      intro ts hts
      cases ts with
      | nil => exact ⟨_, rfl⟩
      | cons t ts =>
        obtain ⟨u, hu, -⟩ := hwid t (List.mem_flatten.2 ⟨_, hts, List.mem_cons_self⟩)
        refine stack_of (w := u.width) fun t' ht' => ?_
        obtain ⟨u', hu', hw'⟩ := hwid t' (List.mem_flatten.2 ⟨_, hts, ht'⟩)
        rw [hu] at hu'
        cases hu'
        exact hw'
    obtain ⟨as, has⟩ := mapM_of_each tss hsame
    replace has := (mapM_ok_iff _ _ _).1 has
    refine ⟨as, (forall₂_chain.1 ⟨tss, htss, has⟩).imp fun q r h => getLoads_iff.2 h, ?_, ?_⟩
    · have key : ∀ t, some t ∈ as → ∃ u, a = some u ∧ t.width = u.width := by
        intro t ht
        obtain ⟨ts, hts, hr⟩ := forall₂_of_right has _ ht
        cases ts with
        | nil => cases hr
        | cons t₀ ts =>
          obtain ⟨v, hv, hw⟩ := (stack_ok hr).2.2 t₀ List.mem_cons_self
          cases hv
          obtain ⟨u, hu, hwu⟩ := hwid t₀ (List.mem_flatten.2 ⟨_, hts, List.mem_cons_self⟩)
          exact ⟨u, hu, hw.symm.trans hwu⟩
      intro t t' ht ht'
      obtain ⟨u, hu, hw⟩ := key t ht
      obtain ⟨u', hu', hw'⟩ := key t' ht'
      rw [hu] at hu'
      cases hu'
      exact hw.trans hw'.symm
    · rw [hrows]
      clear hrows hwid hsame htss hs hts h
      induction has with
      | nil => rfl
      | cons h _ ih => rw [List.flatten_cons, List.map_append, List.flatten_append, ih, List.map_cons, List.flatten_cons, (stack_ok h).1]
  · obtain ⟨tss, htss, has⟩ := forall₂_chain.2 (h.imp fun q r h => getLoads_iff.1 h)
    have hts := (query_each hq hd).2 ⟨tss, htss, rfl⟩
    have key : ∀ t ∈ tss.flatten, ∃ u, some u ∈ as ∧ t.width = u.width := by
      intro t ht
      obtain ⟨ts, hts, ht⟩ := List.mem_flatten.1 ht
      obtain ⟨r, hr, hst⟩ := forall₂_of_left has ts hts
      obtain ⟨u, rfl, hu⟩ := (stack_ok hst).2.2 t ht
      exact ⟨u, hr, hu⟩
    obtain ⟨a, ha⟩ : ∃ a, tss.flatten.foldlM stackOn none = .ok a := by
      cases hfl : tss.flatten with
      | nil => exact ⟨_, rfl⟩
      | cons t ts =>
        obtain ⟨u, hu, -⟩ := key t (by rw [hfl]; exact List.mem_cons_self)
        rw [← hfl]
        refine stack_of (w := u.width) fun t' ht' => ?_
        obtain ⟨u', hu', hw'⟩ := key t' ht'
        exact hw'.trans (hw u' u hu' hu)
    exact ⟨a, getLoads_iff.2 ⟨_, hts, ha⟩⟩

/-- Neither the order nor the repetition of the positions matters. -/
theorem C158_order (rt : Rt K) (b : Beam K S) (k : ℤ) (component : CompArg) (xs ys : List K) (h : ∀ x, x ∈ xs ↔ x ∈ ys)
    (a : Option (Tab K)) : b.getLoads rt k (.list (xs.map Num.flt)) none component = .ok a ↔
      b.getLoads rt k (.list (ys.map Num.flt)) none component = .ok a := by
  obtain ⟨qs, hd, hq⟩ := sortedSet_floats xs
  obtain ⟨qs', hd', hq'⟩ := sortedSet_floats ys
  have hqs : qs = qs' := eq_of_strict_sorted hd.1 hd'.1 fun v => by rw [hd.2, hd'.2, h]
  subst hqs
  rw [getLoads_iff, getLoads_iff]
  refine exists_congr fun ts => and_congr_left fun _ => ?_
  exact (query_each hq hd).trans (query_each hq' hd').symm

/-- A call for some of the positions answers too, with some of the rows. -/
theorem C158_fewer (rt : Rt K) (b : Beam K S) (k : ℤ) (component : CompArg) (xs ys : List K) (h : ys ⊆ xs) (a : Option (Tab K))
    (ha : b.getLoads rt k (.list (xs.map Num.flt)) none component = .ok a) :
    ∃ a', b.getLoads rt k (.list (ys.map Num.flt)) none component = .ok a' ∧ rowsOf a' ⊆ rowsOf a := by
  obtain ⟨qs, hd, hx⟩ := C158_loads (S := S) rt xs
  obtain ⟨qs', hd', hy⟩ := C158_loads (S := S) rt ys
  obtain ⟨as, has, hw, hrows⟩ := (hx b k component).1 a ha
  obtain ⟨as', has'⟩ : ∃ as', List.Forall₂ (fun q r => b.getLoads rt k (.scalar (Num.flt q)) none component = .ok r) qs' as' := by
    obtain ⟨as', h'⟩ := mapM_of_each (f := fun q => b.getLoads rt k (.scalar (Num.flt q)) none component) qs' fun q hq => by
      obtain ⟨r, -, hr⟩ := forall₂_of_left has q ((hd.2 q).2 (h ((hd'.2 q).1 hq)))
      exact ⟨r, hr⟩
    exact ⟨as', (mapM_ok_iff _ _ _).1 h'⟩
  have hsub : as' ⊆ as := by
    intro r hr
    obtain ⟨q, hq, hqr⟩ := forall₂_of_right has' r hr
    obtain ⟨r', hr', hqr'⟩ := forall₂_of_left has q ((hd.2 q).2 (h ((hd'.2 q).1 hq)))
    rw [hqr] at hqr'
    cases hqr'
    exact hr'
  obtain ⟨a', ha'⟩ := (hy b k component).2 as' has' fun t t' ht ht' => hw t t' (hsub ht) (hsub ht')
  obtain ⟨as'', has'', -, hrows'⟩ := (hy b k component).1 a' ha'
  refine ⟨a', ha', fun r hr => ?_⟩
  rw [hrows'] at hr
  obtain ⟨l, hl, hrl⟩ := List.mem_flatten.1 hr
  obtain ⟨t, ht, rfl⟩ := List.mem_map.1 hl
  obtain ⟨q, hq, hqt⟩ := forall₂_of_right has'' t ht
  obtain ⟨t', ht', hqt'⟩ := forall₂_of_left has q ((hd.2 q).2 (h ((hd'.2 q).1 hq)))
  rw [hqt] at hqt'
  cases hqt'
  rw [hrows]
  exact List.mem_flatten.2 ⟨_, List.mem_map.2 ⟨t, ht', rfl⟩, hrl⟩

/-- Tensions: each row for several positions is one for a single position, and if the call for all answers, each single call answers with
some of its rows, unless it finds no element at its position (between two elements, through rounding) and raises a `TypeError`. -/
theorem C158_tension (rt : Rt K) (o : AS4100 K) (b : Beam K (Sect K)) (hb : o.beam = some b) (k : ℤ) (xs : List K) (tab : Tab K)
    (h : o.getTension rt k (.list (xs.map Num.flt)) none = .ok tab) :
    (∀ r ∈ tab.rows, ∃ x ∈ xs, ∃ t, o.getTension rt k (.scalar (Num.flt x)) none = .ok t ∧ r ∈ t.rows) ∧
    ∀ x ∈ xs, (∃ t, o.getTension rt k (.scalar (Num.flt x)) none = .ok t ∧ t.rows ⊆ tab.rows) ∨
      (b.getLoads rt k (.scalar (Num.flt x)) none (.name "N") = .ok none ∧
        o.getTension rt k (.scalar (Num.flt x)) none = .error .typeError) := by
  obtain ⟨qs, hd, hx⟩ := C158_loads (S := Sect K) rt xs
  obtain ⟨a, ha, rows, hrows, htab⟩ := (getTension_iff hb).1 h
  obtain ⟨as, has, -, hfl⟩ := (hx b k (.name "N")).1 (some a) ha
  rw [show a.rows = (as.map rowsOf).flatten from hfl] at hrows
  obtain ⟨outs, ho, rfl⟩ := mapM_flatten_ok.1 hrows
  rw [List.forall₂_map_left_iff] at ho
  have htab' : tab.rows = outs.flatten := by rw [htab]
  constructor
  · intro r hr
    rw [htab'] at hr
    obtain ⟨out, hout, hr⟩ := List.mem_flatten.1 hr
    obtain ⟨a', ha', hm⟩ := forall₂_of_right ho out hout
    cases a' with
    | none => cases hm; cases hr
    | some t =>
      obtain ⟨q, hq, hqt⟩ := forall₂_of_right has _ ha'
      exact ⟨q, (hd.2 q).1 hq, { t with rows := out }, (getTension_iff hb).2 ⟨t, hqt, out, hm, rfl⟩, hr⟩
  · intro x hx'
    obtain ⟨a', ha', hqa⟩ := forall₂_of_left has x ((hd.2 x).2 hx')
    obtain ⟨out, hout, hm⟩ := forall₂_of_left ho a' ha'
    cases a' with
    | none =>
      refine .inr ⟨hqa, ?_⟩
      unfold AS4100.getTension
      rw [hb]
      simp only [hqa, bind, Except.bind]
    | some t =>
      refine .inl ⟨{ t with rows := out }, (getTension_iff hb).2 ⟨t, hqa, out, hm, rfl⟩, fun r hr => ?_⟩
      rw [htab']
      exact List.mem_flatten.2 ⟨out, hout, hr⟩

/-- Two rods, from 0 to 2 and from 2 to 5: at 2 both report; at 1 the first one does, with the two rows stored there. -/
example : (Samples.rods.getLoads Samples.rt 7 (.list ([2, 1, 2].map Num.flt)) none (.name "N")).map (fun a => (rowsOf a).length) =
      ((Samples.rods.getLoads Samples.rt 7 (.scalar (Num.flt 1)) none (.name "N")).bind fun a =>
        (Samples.rods.getLoads Samples.rt 7 (.scalar (Num.flt 2)) none (.name "N")).map fun a' => (rowsOf a).length + (rowsOf a').length) ∧
    (Samples.rods.getLoads Samples.rt 7 (.list ([2, 1, 2].map Num.flt)) none (.name "N")).map (fun a => (rowsOf a).length) =
      .ok 4 := by
  refine ⟨by decide +kernel, by decide +kernel⟩

example : (Samples.obj.getTension Samples.rt 7 (.list ([2, 1, 2].map Num.flt)) none).map (fun t => t.rows.length) = .ok 4 ∧
    (Samples.obj.getTension Samples.rt 7 (.scalar (Num.flt 1)) none).map (fun t => t.rows.length) = .ok 2 := by
  refine ⟨by decide +kernel, by decide +kernel⟩

end BeamDesign
