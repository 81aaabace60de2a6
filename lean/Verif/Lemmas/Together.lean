import Verif.Lemmas.OneByOne
import Verif.Lemmas.Lists
import Verif.Spec.Load

/-!
# Lemmas for C157
-/

set_option linter.unusedSectionVars false

namespace BeamDesign

open Spec

variable {K : Type} [Field K] [LinearOrder K] [IsStrictOrderedRing K]
variable {rt : Rt K} {S : Type}

theorem bind_ok {α β : Type} {x : Py α} {f : α → Py β} {b : β} : (x >>= f) = .ok b ↔ ∃ a, x = .ok a ∧ f a = .ok b := by
  cases x with
  | error e => simp [bind, Except.bind]
  | ok a => simp [bind, Except.bind]

theorem mapM_append_iff {α β : Type} {f : α → Py β} {xs ys : List α} {out : List β} :
    (xs ++ ys).mapM f = .ok out ↔ ∃ o₁ o₂, xs.mapM f = .ok o₁ ∧ ys.mapM f = .ok o₂ ∧ out = o₁ ++ o₂ := by
  rw [List.mapM_append]
  cases xs.mapM f with
  | error e => simp [bind, Except.bind]
  | ok a =>
    cases ys.mapM f with
    | error e => simp [bind, Except.bind]
    | ok b => simp [bind, Except.bind, pure, Except.pure, eq_comm]

theorem mapM_flatten_ok {α β : Type} {f : α → Py β} : ∀ {blocks : List (List α)} {out : List β},
    blocks.flatten.mapM f = .ok out ↔ ∃ outs, List.Forall₂ (fun b o => b.mapM f = .ok o) blocks outs ∧ out = outs.flatten := by
  intro blocks
  induction blocks with
  | nil =>
    intro out
    constructor
    · intro h
      cases h
      exact ⟨[], .nil, rfl⟩
    · rintro ⟨outs, h, rfl⟩
      cases h
      rfl
  | cons b blocks ih =>
    intro out
    rw [List.flatten_cons, mapM_append_iff]
    constructor
    · rintro ⟨o₁, o₂, h₁, h₂, rfl⟩
      obtain ⟨outs, h, rfl⟩ := ih.1 h₂
      exact ⟨o₁ :: outs, .cons h₁ h, rfl⟩
    · rintro ⟨outs, h, rfl⟩
      cases h with
      | cons h₁ h => exact ⟨_, _, h₁, ih.2 ⟨_, h, rfl⟩, rfl⟩

theorem forall₂_chain {α β γ : Type} {R : α → β → Prop} {T : β → γ → Prop} {xs : List α} : ∀ {zs : List γ},
    (∃ ys, List.Forall₂ R xs ys ∧ List.Forall₂ T ys zs) ↔ List.Forall₂ (fun x z => ∃ y, R x y ∧ T y z) xs zs := by
  induction xs with
  | nil =>
    intro zs
    constructor
    · rintro ⟨ys, h₁, h₂⟩
      cases h₁
      cases h₂
      exact .nil
    · intro h
      cases h
      exact ⟨[], .nil, .nil⟩
  | cons x xs ih =>
    intro zs
    constructor
    · rintro ⟨ys, h₁, h₂⟩
      cases h₁ with
      | cons r h₁ =>
        cases h₂ with
        | cons t h₂ => exact .cons ⟨_, r, t⟩ (ih.1 ⟨_, h₁, h₂⟩)
    · intro h
      cases h with
      | cons h₀ h =>
        obtain ⟨y, r, t⟩ := h₀
        obtain ⟨ys, h₁, h₂⟩ := ih.2 h
        exact ⟨y :: ys, .cons r h₁, .cons t h₂⟩

theorem check_each {b : Beam K S} : ∀ (ps : List (Num K)),
    b.checkPositions rt ps = .ok () ↔ ∀ p ∈ ps, b.checkPositions rt [p] = .ok () := by
  intro ps
  induction ps with
  | nil => simp [Beam.checkPositions]
  | cons p ps ih =>
    rw [List.forall_mem_cons, ← ih]
    simp only [Beam.checkPositions]
    split_ifs
    · simp
    · cases b.length rt with
      | error e => simp [bind, Except.bind]
      | ok l =>
        simp only [bind, Except.bind]
        split_ifs <;> simp

/-- the entries listed for one position -/
def Beam.entriesAt (rt : Rt K) (b : Beam K S) (c : Option ℤ) (p : Num K) : Py (List (Loc K)) := do
  let es ← b.inElements rt p
  let ls ← es.mapM fun i => b.locate rt c p i
  return ls.flatten

theorem list_eq {b : Beam K S} {ps : List (Num K)} {c : Option ℤ} {locs : List (Loc K)} :
    b.listPositions rt (.list ps) none c = .ok locs ↔ b.checkPositions rt ps = .ok () ∧
      ∃ blocks, List.Forall₂ (fun q block => b.entriesAt rt c q = .ok block) (sortedSet ps) blocks ∧ locs = blocks.flatten := by
  unfold Beam.listPositions Beam.positionList
  simp only
  rw [bind_ok]
  constructor
  · rintro ⟨a, h, h'⟩
    obtain ⟨u, hu, ha⟩ := bind_ok.1 h
    cases ha
    obtain ⟨blocks, hb, hl⟩ := bind_ok.1 h'
    cases hl
    exact ⟨hu, blocks, (mapM_ok_iff _ _ _).1 hb, rfl⟩
  · rintro ⟨hu, blocks, hb, rfl⟩
    exact ⟨_, bind_ok.2 ⟨(), hu, rfl⟩, bind_ok.2 ⟨blocks, (mapM_ok_iff _ _ _).2 hb, rfl⟩⟩

theorem list_one {b : Beam K S} {p : Num K} {c : Option ℤ} {block : List (Loc K)} :
    b.listPositions rt (.list [p]) none c = .ok block ↔ b.checkPositions rt [p] = .ok () ∧ b.entriesAt rt c p = .ok block := by
  rw [list_eq, sortedSet_singleton]
  refine and_congr_right fun _ => ⟨?_, fun h => ⟨[block], .cons h .nil, by simp⟩⟩
  rintro ⟨blocks, h, rfl⟩
  cases h with
  | cons h h' => cases h'; simpa using h

/-- the distinct positions -/
theorem sortedSet_floats (xs : List K) : ∃ qs, Distinct xs qs ∧ sortedSet (xs.map Num.flt) = qs.map Num.flt := by
  refine ⟨(sortedSet (xs.map Num.flt)).map (·.val), ⟨sortedSet_sorted _, fun v => ?_⟩, ?_⟩
  · rw [sortedSet_vals, List.map_map]
    exact Iff.of_eq (congrArg (v ∈ ·) (List.map_id xs))
  · rw [List.map_map]
    conv_lhs => rw [← List.map_id (sortedSet _)]
    refine List.map_congr_left fun p hp => ?_
    obtain ⟨x, -, rfl⟩ := List.mem_map.1 (mem_of_mem_sortedSet hp)
    rfl

theorem list_each {b : Beam K S} {xs qs : List K} (hq : sortedSet (xs.map Num.flt) = qs.map Num.flt) (hd : Distinct xs qs) {c : Option ℤ}
    {locs : List (Loc K)} : b.listPositions rt (.list (xs.map Num.flt)) none c = .ok locs ↔
      ∃ blocks, List.Forall₂ (fun q block => b.listPositions rt (.list [Num.flt q]) none c = .ok block) qs blocks ∧
        locs = blocks.flatten := by
  rw [list_eq, hq, check_each]
  constructor
  · rintro ⟨hc, blocks, h, rfl⟩
    refine ⟨blocks, ?_, rfl⟩
    rw [List.forall₂_map_left_iff] at h
    rw [List.forall₂_iff_get] at h ⊢
    refine ⟨h.1, fun i h₁ h₂ => list_one.2 ⟨hc _ (List.mem_map_of_mem ((hd.2 _).1 (List.get_mem _ _))), h.2 i h₁ h₂⟩⟩
  · rintro ⟨blocks, h, rfl⟩
    refine ⟨fun p hp => ?_, blocks, ?_, rfl⟩
    · obtain ⟨x, hx, rfl⟩ := List.mem_map.1 hp
      obtain ⟨block, -, hb⟩ := forall₂_of_left h x ((hd.2 x).2 hx)
      exact (list_one.1 hb).1
    · rw [List.forall₂_map_left_iff]
      exact h.imp fun _ _ h => (list_one.1 h).2

/-- a query that looks something up for every entry -/
theorem query_each {α : Type} {b : Beam K S} {f : Loc K → Py α} {xs qs : List K} (hq : sortedSet (xs.map Num.flt) = qs.map Num.flt)
    (hd : Distinct xs qs) {c : Option ℤ} {out : List α} :
    (b.listPositions rt (.list (xs.map Num.flt)) none c >>= fun locs => locs.mapM f) = .ok out ↔
      ∃ outs, List.Forall₂ (fun q o => (b.listPositions rt (.list [Num.flt q]) none c >>= fun locs => locs.mapM f) = .ok o) qs outs ∧
        out = outs.flatten := by
  rw [bind_ok]
  constructor
  · rintro ⟨locs, h, h'⟩
    obtain ⟨blocks, hb, rfl⟩ := (list_each hq hd).1 h
    obtain ⟨outs, ho, rfl⟩ := mapM_flatten_ok.1 h'
    exact ⟨outs, (forall₂_chain.1 ⟨blocks, hb, ho⟩).imp fun _ _ h => bind_ok.2 h, rfl⟩
  · rintro ⟨outs, h, rfl⟩
    obtain ⟨blocks, hb, ho⟩ := forall₂_chain.2 (h.imp fun _ _ h => bind_ok.1 h)
    exact ⟨blocks.flatten, (list_each hq hd).2 ⟨blocks, hb, rfl⟩, mapM_flatten_ok.2 ⟨outs, ho, rfl⟩⟩

theorem pyMin_iff {xs : List K} {m : K} : pyMin xs = .ok m ↔ IsLeast {y | y ∈ xs} m := by
  constructor
  · exact pyMin_ok
  · intro h
    obtain ⟨m', hm⟩ := pyMin_ne (List.ne_nil_of_mem h.1)
    rw [hm, (pyMin_ok hm).unique h]

theorem dsection_each {o : AS4100 K} {b : Beam K (Sect K)} (hb : o.beam = some b) {xs qs : List K}
    (hq : sortedSet (xs.map Num.flt) = qs.map Num.flt) (hd : Distinct xs qs) {c : Option ℤ} {out : List (Num K × DSect K)} :
    o.getDSection rt (.list (xs.map Num.flt)) none c = .ok out ↔
      ∃ outs, List.Forall₂ (fun q r => o.getDSection rt (.list [Num.flt q]) none c = .ok r) qs outs ∧ out = outs.flatten := by
  unfold AS4100.getDSection
  rw [hb]
  exact query_each hq hd

theorem considered_iff {o : AS4100 K} {ps : List (Num K)} {ds : List (DSect K)} :
    o.considered rt (.list ps) = .ok ds ↔ ∃ l, o.getDSection rt (.list ps) none none = .ok l ∧ ds = l.map (·.2) := by
  unfold AS4100.considered
  refine bind_ok.trans ?_
  simp only [PosArg.wrap, pure, Except.pure, Except.ok.injEq, eq_comm]

theorem considered_each {o : AS4100 K} {b : Beam K (Sect K)} (hb : o.beam = some b) {xs qs : List K}
    (hq : sortedSet (xs.map Num.flt) = qs.map Num.flt) (hd : Distinct xs qs) {ds : List (DSect K)} :
    o.considered rt (.list (xs.map Num.flt)) = .ok ds ↔
      ∃ dss, List.Forall₂ (fun q r => o.considered rt (.list [Num.flt q]) = .ok r) qs dss ∧ ds = dss.flatten := by
  rw [considered_iff]
  constructor
  · rintro ⟨l, h, rfl⟩
    obtain ⟨outs, ho, rfl⟩ := (dsection_each hb hq hd).1 h
    refine ⟨outs.map fun l => l.map (·.2), ?_, by rw [List.map_flatten]⟩
    rw [List.forall₂_map_right_iff]
    exact ho.imp fun _ _ h => considered_iff.2 ⟨_, h, rfl⟩
  · rintro ⟨dss, h, rfl⟩
    obtain ⟨outs, ho, hm⟩ := forall₂_chain.2 (h.imp fun _ _ h => considered_iff.1 h)
    have : dss = outs.map fun l => l.map (·.2) := by
      clear ho h
      induction hm with
      | nil => rfl
      | cons h _ ih => rw [List.map_cons, h, ih]
    exact ⟨outs.flatten, (dsection_each hb hq hd).2 ⟨outs, ho, rfl⟩, by rw [List.map_flatten, this]⟩

/-- the smallest of a number calculated for every section considered -/
def AS4100.leastOf (rt : Rt K) (o : AS4100 K) (g : DSect K → Py K) (position : PosArg K) : Py K := do
  let ds ← o.considered rt position
  let ns ← ds.mapM g
  pyMin ns

theorem leastOf_iff {o : AS4100 K} {g : DSect K → Py K} {position : PosArg K} {v : K} :
    o.leastOf rt g position = .ok v ↔
      ∃ ds ns, o.considered rt position = .ok ds ∧ ds.mapM g = .ok ns ∧ IsLeast {y | y ∈ ns} v := by
  unfold AS4100.leastOf
  rw [bind_ok]
  refine exists_congr fun ds => ?_
  rw [bind_ok, ← exists_and_left]
  simp only [pyMin_iff]

theorem least_each {o : AS4100 K} {b : Beam K (Sect K)} (hb : o.beam = some b) {g : DSect K → Py K} {xs qs : List K}
    (hq : sortedSet (xs.map Num.flt) = qs.map Num.flt) (hd : Distinct xs qs) {ns : List K} :
    (∃ ds, o.considered rt (.list (xs.map Num.flt)) = .ok ds ∧ ds.mapM g = .ok ns) ↔
      ∃ nss, List.Forall₂ (fun q r => ∃ ds, o.considered rt (.list [Num.flt q]) = .ok ds ∧ ds.mapM g = .ok r) qs nss ∧
        ns = nss.flatten := by
  constructor
  · rintro ⟨ds, h, h'⟩
    obtain ⟨dss, hs, rfl⟩ := (considered_each hb hq hd).1 h
    obtain ⟨nss, hn, rfl⟩ := mapM_flatten_ok.1 h'
    exact ⟨nss, forall₂_chain.1 ⟨dss, hs, hn⟩, rfl⟩
  · rintro ⟨nss, h, rfl⟩
    obtain ⟨dss, hs, hn⟩ := forall₂_chain.2 h
    exact ⟨dss.flatten, (considered_each hb hq hd).2 ⟨dss, hs, rfl⟩, mapM_flatten_ok.2 ⟨nss, hn, rfl⟩⟩

/-- if every single call answers, the call for all does, with the smallest answer -/
theorem least_all {o : AS4100 K} {b : Beam K (Sect K)} (hb : o.beam = some b) {g : DSect K → Py K} {xs : List K} (hne : xs ≠ [])
    (h : ∀ x ∈ xs, ∃ w, o.leastOf rt g (.list [Num.flt x]) = .ok w) :
    ∃ v, o.leastOf rt g (.list (xs.map Num.flt)) = .ok v ∧ IsLeast {w | ∃ x ∈ xs, o.leastOf rt g (.list [Num.flt x]) = .ok w} v := by
  obtain ⟨qs, hd, hq⟩ := sortedSet_floats xs
  have hsingle : ∀ q ∈ qs, ∃ r, ∃ ds, o.considered rt (.list [Num.flt q]) = .ok ds ∧ ds.mapM g = .ok r := by
    intro q hq'
    obtain ⟨w, hw⟩ := h q ((hd.2 q).1 hq')
    obtain ⟨ds, ns, h₁, h₂, -⟩ := leastOf_iff.1 hw
    exact ⟨ns, ds, h₁, h₂⟩
  obtain ⟨nss, hn⟩ : ∃ nss, List.Forall₂ (fun q r => ∃ ds, o.considered rt (.list [Num.flt q]) = .ok ds ∧ ds.mapM g = .ok r) qs nss := by
    clear hd hq
    induction qs with
    | nil => exact ⟨[], .nil⟩
    | cons q qs ih =>
      obtain ⟨r, hr⟩ := hsingle q List.mem_cons_self
      obtain ⟨nss, hn⟩ := ih fun q' h' => hsingle q' (List.mem_cons_of_mem _ h')
      exact ⟨r :: nss, .cons hr hn⟩
  obtain ⟨ds, h₁, h₂⟩ := (least_each hb hq hd).2 ⟨nss, hn, rfl⟩
  obtain ⟨x, hx⟩ := List.exists_mem_of_ne_nil _ hne
  obtain ⟨w, hw⟩ := h x hx
  obtain ⟨ds', ns', h₁', h₂', hl'⟩ := leastOf_iff.1 hw
  obtain ⟨r, hr, ds'', h₃, h₄⟩ := forall₂_of_left hn x ((hd.2 x).2 hx)
  rw [h₁'] at h₃
  cases h₃
  rw [h₂'] at h₄
  cases h₄
  have hne' : nss.flatten ≠ [] := List.ne_nil_of_mem (List.mem_flatten.2 ⟨ns', hr, hl'.1⟩)
  obtain ⟨v, hv⟩ := pyMin_ne hne'
  have hv := pyMin_ok hv
  refine ⟨v, leastOf_iff.2 ⟨ds, nss.flatten, h₁, h₂, hv⟩, ?_, ?_⟩
  · obtain ⟨r, hr, hvr⟩ := List.mem_flatten.1 hv.1
    obtain ⟨q, hq', ds', h₃, h₄⟩ := forall₂_of_right hn r hr
    exact ⟨q, (hd.2 q).1 hq', leastOf_iff.2 ⟨ds', r, h₃, h₄, hvr, fun y hy => hv.2 (List.mem_flatten.2 ⟨r, hr, hy⟩)⟩⟩
  · rintro w ⟨x, hx, hw⟩
    obtain ⟨ds', ns', h₁', h₂', hl'⟩ := leastOf_iff.1 hw
    obtain ⟨r, hr, ds'', h₃, h₄⟩ := forall₂_of_left hn x ((hd.2 x).2 hx)
    rw [h₁'] at h₃
    cases h₃
    rw [h₂'] at h₄
    cases h₄
    exact hv.2 (List.mem_flatten.2 ⟨ns', hr, hl'.1⟩)

/-- if the call for all answers, so does every single call, with no less, unless it finds no section -/
theorem least_single {o : AS4100 K} {b : Beam K (Sect K)} (hb : o.beam = some b) {g : DSect K → Py K} {xs : List K} {v : K}
    (h : o.leastOf rt g (.list (xs.map Num.flt)) = .ok v) {x : K} (hx : x ∈ xs) :
    (∃ w, o.leastOf rt g (.list [Num.flt x]) = .ok w ∧ v ≤ w) ∨
      (o.getDSection rt (.list [Num.flt x]) none none = .ok [] ∧ o.leastOf rt g (.list [Num.flt x]) = .error .valueError) := by
  obtain ⟨qs, hd, hq⟩ := sortedSet_floats xs
  obtain ⟨ds, ns, h₁, h₂, hl⟩ := leastOf_iff.1 h
  obtain ⟨nss, hn, rfl⟩ := (least_each hb hq hd).1 ⟨ds, h₁, h₂⟩
  obtain ⟨r, hr, ds', h₃, h₄⟩ := forall₂_of_left hn x ((hd.2 x).2 hx)
  by_cases hr0 : r = []
  · right
    subst hr0
    have hds : ds' = [] := by
      have := ((mapM_ok_iff _ _ _).1 h₄).length_eq
      exact List.length_eq_zero_iff.1 this
    subst hds
    obtain ⟨l, hl', hm⟩ := considered_iff.1 h₃
    have : l = [] := List.map_eq_nil_iff.1 hm.symm
    subst this
    refine ⟨hl', ?_⟩
    unfold AS4100.leastOf
    rw [h₃]
    rfl
  · left
    obtain ⟨w, hw⟩ := pyMin_ne hr0
    have hw := pyMin_ok hw
    exact ⟨w, leastOf_iff.2 ⟨ds', r, h₃, h₄, hw⟩, hl.2 (List.mem_flatten.2 ⟨r, hr, hw.1⟩)⟩

theorem Nty_least (o : AS4100 K) (position : PosArg K) :
    o.Nty rt position = o.leastOf rt (fun s => do return s7Nty rt (s.Ag rt) (← s.minFy)) position := rfl

theorem Ntu_least (o : AS4100 K) (position : PosArg K) :
    o.Ntu rt position = o.leastOf rt (fun s => do return s7Ntu rt (s.An rt) (← s.minFu) o.kt o.alphaU) position := rfl

theorem Nt_iff {o : AS4100 K} {position : PosArg K} {v : K} :
    o.Nt rt position = .ok v ↔ ∃ y u, o.Nty rt position = .ok y ∧ o.Ntu rt position = .ok u ∧ v = min y u := by
  unfold AS4100.Nt
  rw [bind_ok]
  refine exists_congr fun y => ?_
  rw [bind_ok, ← exists_and_left]
  simp only [pure, Except.pure, Except.ok.injEq, eq_comm]

/-- the sections considered are those of the object -/
theorem considered_sub {o : AS4100 K} {position : PosArg K} {ds : List (DSect K)} (h : o.considered rt position = .ok ds) :
    ∀ d ∈ ds, d ∈ o.dsects := by
  have key : ∀ p : PosArg K, (o.getDSection rt p none none >>= fun l => pure (l.map (·.2))) = .ok ds → ∀ d ∈ ds, d ∈ o.dsects := by
    intro p h d hd
    obtain ⟨l, hl, he⟩ := bind_ok.1 h
    cases he
    unfold AS4100.getDSection at hl
    cases hb : o.beam with
    | none => rw [hb] at hl; cases hl
    | some b =>
      rw [hb] at hl
      obtain ⟨locs, -, hm⟩ := bind_ok.1 hl
      obtain ⟨r, hr, rfl⟩ := List.mem_map.1 hd
      obtain ⟨loc, -, hx⟩ := forall₂_of_right ((mapM_ok_iff _ _ _).1 hm) r hr
      obtain ⟨d, hd', he⟩ := bind_ok.1 hx
      cases he
      obtain ⟨j, hj, -⟩ := (pyIndex_ok_iff _ _ _).1 hd'
      exact List.mem_of_getElem? hj
  cases position with
  | none => cases h; exact fun d hd => hd
  | scalar x => exact key _ h
  | list xs => exact key _ h

end BeamDesign
