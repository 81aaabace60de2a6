import Verif.Lemmas.Together
import Verif.Spec.TogetherLoads

/-!
# Lemmas for C158
-/

set_option linter.unusedSectionVars false

namespace BeamDesign

open Spec

variable {K : Type} [Field K] [LinearOrder K] [IsStrictOrderedRing K] [FloorRing K]
variable {rt : Rt K} {S : Type}

/-- the table for one entry of the listing -/
def Beam.tableAt (rt : Rt K) (b : Beam K S) (c : ℤ) (component : CompArg) (l : Loc K) : Py (Tab K) := do
  let e ← pyIndex b.elements (l.elem : ℤ)
  let val ← e.getLoads rt c (.scalar l.loc) none component
  match val with
  | none => .error .typeError
  | some t => .ok (t.setPos l.pos.val)

/-- one table below another -/
def stackOn : Option (Tab K) → Tab K → Py (Option (Tab K))
  | none, t => .ok (some t)
  | some a, t => do return some (← a.vstack t)

theorem loadStep_eq {b : Beam K S} {c : ℤ} {component : CompArg} {acc a : Option (Tab K)} {l : Loc K} :
    b.loadStep rt c component acc l = .ok a ↔ ∃ t, b.tableAt rt c component l = .ok t ∧ stackOn acc t = .ok a := by
  unfold Beam.loadStep Beam.tableAt
  simp only [bind_ok]
  constructor
  · rintro ⟨e, he, val, hv, h⟩
    cases val with
    | none => cases h
    | some t => exact ⟨t.setPos l.pos.val, ⟨e, he, some t, hv, rfl⟩, by cases acc <;> exact h⟩
  · rintro ⟨t, ⟨e, he, val, hv, h⟩, hs⟩
    refine ⟨e, he, val, hv, ?_⟩
    cases val with
    | none => cases h
    | some t' =>
      cases h
      cases acc <;> exact hs

theorem fold_iff {b : Beam K S} {c : ℤ} {component : CompArg} : ∀ {locs : List (Loc K)} {acc a : Option (Tab K)},
    locs.foldlM (b.loadStep rt c component) acc = .ok a ↔
      ∃ ts, locs.mapM (b.tableAt rt c component) = .ok ts ∧ ts.foldlM stackOn acc = .ok a := by
  intro locs
  induction locs with
  | nil =>
    intro acc a
    constructor
    · intro h; exact ⟨[], rfl, h⟩
    · rintro ⟨ts, h, h'⟩; cases h; exact h'
  | cons l locs ih =>
    intro acc a
    rw [List.foldlM_cons, bind_ok]
    constructor
    · rintro ⟨x, hx, h⟩
      obtain ⟨t, ht, hs⟩ := loadStep_eq.1 hx
      obtain ⟨ts, hts, hf⟩ := ih.1 h
      refine ⟨t :: ts, (mapM_ok_iff _ _ _).2 (.cons ht ((mapM_ok_iff _ _ _).1 hts)), ?_⟩
      rw [List.foldlM_cons]
      exact bind_ok.2 ⟨x, hs, hf⟩
    · rintro ⟨ts, hts, hf⟩
      cases (mapM_ok_iff _ _ _).1 hts with
      | cons ht hts' =>
        rw [List.foldlM_cons] at hf
        obtain ⟨x, hs, hf⟩ := bind_ok.1 hf
        exact ⟨x, loadStep_eq.2 ⟨_, ht, hs⟩, ih.2 ⟨_, (mapM_ok_iff _ _ _).2 hts', hf⟩⟩

theorem stackOn_some {a t : Tab K} {r : Option (Tab K)} (h : stackOn (some a) t = .ok r) :
    a.width = t.width ∧ ∃ u, r = some u ∧ u.width = a.width ∧ u.rows = a.rows ++ t.rows := by
  unfold stackOn Tab.vstack at h
  simp only [bind, Except.bind] at h
  by_cases hw : a.width = t.width
  · rw [if_pos hw] at h
    cases h
    exact ⟨hw, _, rfl, rfl, rfl⟩
  · rw [if_neg hw] at h
    cases h

/-- what stacking onto a table gives -/
theorem stack_some : ∀ {ts : List (Tab K)} {a : Tab K} {r : Option (Tab K)}, ts.foldlM stackOn (some a) = .ok r →
    (∀ t ∈ ts, t.width = a.width) ∧ ∃ u, r = some u ∧ u.width = a.width ∧ u.rows = a.rows ++ (ts.map (·.rows)).flatten := by
  intro ts
  induction ts with
  | nil => intro a r h; cases h; exact ⟨by simp, a, rfl, rfl, by simp⟩
  | cons t ts ih =>
    intro a r h
    rw [List.foldlM_cons] at h
    obtain ⟨x, hx, h⟩ := bind_ok.1 h
    obtain ⟨hw, u, rfl, hu, hr⟩ := stackOn_some hx
    obtain ⟨hall, v, rfl, hv, hvr⟩ := ih h
    refine ⟨fun t' ht' => ?_, v, rfl, hv.trans hu, by rw [hvr, hr]; simp⟩
    rcases List.mem_cons.1 ht' with rfl | ht'
    · exact hw.symm
    · exact (hall t' ht').trans hu

/-- what stacking gives -/
theorem stack_ok {ts : List (Tab K)} {r : Option (Tab K)} (h : ts.foldlM stackOn none = .ok r) :
    rowsOf r = (ts.map (·.rows)).flatten ∧ (ts = [] → r = none) ∧ ∀ t ∈ ts, ∃ u, r = some u ∧ t.width = u.width := by
  cases ts with
  | nil => cases h; exact ⟨rfl, fun _ => rfl, by simp⟩
  | cons t ts =>
    rw [List.foldlM_cons] at h
    obtain ⟨x, hx, h⟩ := bind_ok.1 h
    cases hx
    obtain ⟨hall, u, rfl, hu, hr⟩ := stack_some h
    refine ⟨by rw [List.map_cons, List.flatten_cons]; exact hr, by simp, fun t' ht' => ⟨u, rfl, ?_⟩⟩
    rcases List.mem_cons.1 ht' with rfl | ht'
    · exact hu.symm
    · exact (hall t' ht').trans hu.symm

theorem stack_some_of : ∀ {ts : List (Tab K)} {a : Tab K}, (∀ t ∈ ts, t.width = a.width) → ∃ r, ts.foldlM stackOn (some a) = .ok r := by
  intro ts
  induction ts with
  | nil => intro a _; exact ⟨_, rfl⟩
  | cons t ts ih =>
    intro a h
    obtain ⟨r, hr⟩ := ih (a := ⟨a.dt.join t.dt, a.width, a.rows ++ t.rows⟩) fun t' ht' => h t' (List.mem_cons_of_mem _ ht')
    refine ⟨r, ?_⟩
    rw [List.foldlM_cons]
    refine bind_ok.2 ⟨_, ?_, hr⟩
    simp only [stackOn, Tab.vstack, (h t List.mem_cons_self).symm, if_true, bind, Except.bind, pure, Except.pure]

/-- tables of the same width can be stacked -/
theorem stack_of {ts : List (Tab K)} {w : ℕ} (h : ∀ t ∈ ts, t.width = w) : ∃ r, ts.foldlM stackOn none = .ok r := by
  cases ts with
  | nil => exact ⟨_, rfl⟩
  | cons t ts =>
    obtain ⟨r, hr⟩ := stack_some_of (ts := ts) (a := t) fun t' ht' =>
      (h t' (List.mem_cons_of_mem _ ht')).trans (h t List.mem_cons_self).symm
    refine ⟨r, ?_⟩
    rw [List.foldlM_cons]
    exact bind_ok.2 ⟨_, rfl, hr⟩

/-- `get_loads` by tables -/
theorem getLoads_iff {b : Beam K S} {c : ℤ} {position : PosArg K} {n : Option ℤ} {component : CompArg} {a : Option (Tab K)} :
    b.getLoads rt c position n component = .ok a ↔
      ∃ ts, (b.listPositions rt position n (some c) >>= fun locs => locs.mapM (b.tableAt rt c component)) = .ok ts ∧
        ts.foldlM stackOn none = .ok a := by
  unfold Beam.getLoads
  rw [bind_ok]
  simp only [fold_iff]
  constructor
  · rintro ⟨locs, hl, ts, hts, h⟩
    exact ⟨ts, bind_ok.2 ⟨locs, hl, hts⟩, h⟩
  · rintro ⟨ts, hts, h⟩
    obtain ⟨locs, hl, hts⟩ := bind_ok.1 hts
    exact ⟨locs, hl, ts, hts, h⟩

theorem getTension_iff {o : AS4100 K} {b : Beam K (Sect K)} (hb : o.beam = some b) {k : ℤ} {position : PosArg K} {n : Option ℤ}
    {tab : Tab K} : o.getTension rt k position n = .ok tab ↔
      ∃ t, b.getLoads rt k position n (.name "N") = .ok (some t) ∧ ∃ rows, t.rows.mapM clampRow = .ok rows ∧ tab = { t with rows := rows } := by
  unfold AS4100.getTension
  rw [hb]
  simp only [bind_ok]
  constructor
  · rintro ⟨a, ha, h⟩
    cases a with
    | none => cases h
    | some t =>
      obtain ⟨rows, hr, he⟩ := bind_ok.1 h
      cases he
      exact ⟨t, ha, rows, hr, rfl⟩
  · rintro ⟨t, ht, rows, hr, rfl⟩
    exact ⟨some t, ht, bind_ok.2 ⟨rows, hr, rfl⟩⟩

end BeamDesign
