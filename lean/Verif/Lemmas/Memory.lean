import Verif.Spec.Memory
import Verif.Lemmas.Load

/-! # Lemmas about arrays in memory -/

set_option linter.unusedSectionVars false
set_option linter.unusedSimpArgs false

namespace BeamDesign

section
variable {K : Type}

/-- The buffers of `m` are unchanged in `m'`. -/
def Keep (m m' : Mem K) : Prop := ∀ (b : ℕ) (rows : Buf K), m[b]? = some rows → m'[b]? = some rows

theorem Keep.refl (m : Mem K) : Keep m m := fun _ _ h => h

theorem Keep.trans {m m' m'' : Mem K} (h : Keep m m') (h' : Keep m' m'') : Keep m m'' :=
  fun b rows hb => h' b rows (h b rows hb)

theorem Keep.length {m m' : Mem K} (h : Keep m m') : m.length ≤ m'.length := by
  by_contra hc
  push Not at hc
  have h1 := h (m'.length) _ (List.getElem?_eq_getElem hc)
  rw [List.getElem?_eq_none (le_refl _)] at h1
  cases h1

theorem Keep.append (m : Mem K) (x : List (Buf K)) : Keep m (m ++ x) := by
  intro b rows h
  have hb : b < m.length := by
    by_contra hc
    rw [List.getElem?_eq_none (by omega)] at h; cases h
  rw [List.getElem?_append_left hb]; exact h

theorem Keep.cell {m m' : Mem K} (h : Keep m m') {b : ℕ} (hb : b < m.length) (pl : ℕ × ℕ) :
    m'.cell b pl = m.cell b pl := by
  unfold Mem.cell
  rw [h b _ (List.getElem?_eq_getElem hb), List.getElem?_eq_getElem hb]

theorem Keep.read {m m' : Mem K} (h : Keep m m') {a : Arr} (hb : a.buf < m.length) : a.read m' = a.read m := by
  unfold Arr.read
  congr 1
  funext r
  congr 1
  funext pl
  exact h.cell hb pl

theorem Keep.store {m m' : Mem K} (h : Keep m m') {b : ℕ} (hb : m.length ≤ b) (f : ℕ × ℕ → Option (Option K)) :
    Keep m (m'.store b f) := by
  intro c rows hc
  have hlt : c < m.length := by
    by_contra hn
    rw [List.getElem?_eq_none (by omega)] at hc; cases hc
  unfold Mem.store
  rw [List.getElem?_modify]
  have : ¬ b = c := by omega
  simp [this]
  exact h c rows hc

/-- A place in range. -/
def InRange (m : Mem K) (b : ℕ) (pl : ℕ × ℕ) : Prop :=
  ∃ (rows : Buf K) (row : List (Option K)), m[b]? = some rows ∧ rows[pl.1]? = some row ∧ pl.2 < row.length

theorem cell_store {m : Mem K} {b : ℕ} {pl : ℕ × ℕ} (h : InRange m b pl) (f : ℕ × ℕ → Option (Option K)) :
    (m.store b f).cell b pl = (f pl).getD (m.cell b pl) := by
  obtain ⟨rows, row, h1, h2, h3⟩ := h
  obtain ⟨c, hc⟩ : ∃ c, row[pl.2]? = some c := ⟨_, List.getElem?_eq_getElem h3⟩
  unfold Mem.cell Mem.store
  simp [h1, h2, hc]

theorem InRange.store {m : Mem K} {b : ℕ} {pl : ℕ × ℕ} (h : InRange m b pl) (f : ℕ × ℕ → Option (Option K)) :
    InRange (m.store b f) b pl := by
  obtain ⟨rows, row, h1, h2, h3⟩ := h
  unfold Mem.store
  refine ⟨_, _, by simp [h1]; rfl, by simp [h2]; rfl, by simpa using h3⟩

/-- The array shows rows `rs`, columns from `k`, of its buffer. -/
structure Grid (m : Mem K) (a : Arr) (rs : List ℕ) (k : ℕ) : Prop where
  cells : a.cells = rs.map fun i => (List.range a.ncols).map fun j => (i, j + k)
  inRange : ∀ i ∈ rs, ∀ j < a.ncols, InRange m a.buf (i, j + k)
  buf : a.buf < m.length

theorem InRange.keep {m m' : Mem K} (h : Keep m m') {b : ℕ} {pl : ℕ × ℕ} (hr : InRange m b pl) : InRange m' b pl := by
  obtain ⟨rows, row, h1, h2, h3⟩ := hr
  exact ⟨rows, row, h b rows h1, h2, h3⟩

theorem Grid.keep {m m' : Mem K} {a : Arr} {rs : List ℕ} {k : ℕ} (h : Grid m a rs k) (hk : Keep m m') : Grid m' a rs k :=
  ⟨h.cells, fun i hi j hj => (h.inRange i hi j hj).keep hk, lt_of_lt_of_le h.buf hk.length⟩

theorem Grid.store {m : Mem K} {a : Arr} {rs : List ℕ} {k : ℕ} (h : Grid m a rs k) (f : ℕ × ℕ → Option (Option K)) :
    Grid (m.store a.buf f) a rs k :=
  ⟨h.cells, fun i hi j hj => (h.inRange i hi j hj).store f, by simpa [Mem.store] using h.buf⟩

theorem Grid.read {m : Mem K} {a : Arr} {rs : List ℕ} {k : ℕ} (h : Grid m a rs k) :
    a.read m = rs.map fun i => (List.range a.ncols).map fun j => m.cell a.buf (i, j + k) := by
  unfold Arr.read
  rw [h.cells]
  simp [Function.comp_def]

theorem Grid.mem_col {m : Mem K} {a : Arr} {rs : List ℕ} {k : ℕ} (h : Grid m a rs k) (c : ℕ) (pl : ℕ × ℕ) :
    pl ∈ a.col c ↔ c < a.ncols ∧ ∃ i ∈ rs, pl = (i, c + k) := by
  unfold Arr.col
  rw [h.cells]
  simp only [List.mem_flatMap, List.mem_map, Option.mem_toList]
  constructor
  · rintro ⟨r, ⟨i, hi, rfl⟩, hr⟩
    rw [List.getElem?_map, Option.map_eq_some_iff] at hr
    obtain ⟨j, hj, rfl⟩ := hr
    rw [List.getElem?_eq_some_iff] at hj
    obtain ⟨hj, rfl⟩ := hj
    simp at hj
    exact ⟨hj, i, hi, by simp⟩
  · rintro ⟨hc, i, hi, rfl⟩
    exact ⟨_, ⟨i, hi, rfl⟩, by simp [hc]⟩

/-- The contents are those of the table. -/
structure Shows (m : Mem K) (a : Arr) (t : Tab K) : Prop where
  grid : ∃ rs k, Grid m a rs k
  dt : a.dt = t.dt
  ncols : a.ncols = t.width + 1
  read : a.read m = t.rows.map fun r => some r.1 :: r.2

theorem Shows.buf {m : Mem K} {a : Arr} {t : Tab K} (h : Shows m a t) : a.buf < m.length := by
  obtain ⟨rs, k, hg⟩ := h.grid
  exact hg.buf

theorem Shows.keep {m m' : Mem K} {a : Arr} {t : Tab K} (h : Shows m a t) (hk : Keep m m') : Shows m' a t := by
  obtain ⟨rs, k, hg⟩ := h.grid
  exact ⟨⟨rs, k, hg.keep hk⟩, h.dt, h.ncols, by rw [hk.read hg.buf]; exact h.read⟩

theorem Shows.width {m : Mem K} {a : Arr} {t : Tab K} (h : Shows m a t) : ∀ r ∈ t.rows, r.2.length = t.width := by
  obtain ⟨rs, k, hg⟩ := h.grid
  intro r hr
  have h1 : (some r.1 :: r.2) ∈ a.read m := by rw [h.read]; exact List.mem_map_of_mem hr
  rw [hg.read] at h1
  obtain ⟨i, -, hi⟩ := List.mem_map.1 h1
  have := congrArg List.length hi
  simp [h.ncols] at this
  omega

/-- reading and writing through a grid: the cell `(i, j)` becomes `g i j` of the old one -/
theorem read_store_grid {m : Mem K} {a : Arr} {rs : List ℕ} {k : ℕ} (h : Grid m a rs k)
    (f : ℕ × ℕ → Option (Option K)) :
    a.read (m.store a.buf f) = rs.map fun i => (List.range a.ncols).map fun j =>
      (f (i, j + k)).getD (m.cell a.buf (i, j + k)) := by
  rw [(h.store f).read]
  apply List.map_congr_left
  intro i hi
  apply List.map_congr_left
  intro j hj
  exact cell_store (h.inRange i hi j (List.mem_range.1 hj)) f

/-- The outcome `x m` is the outcome `y` of the value model, and the base memory `m0` is kept. -/
def Does (m0 m : Mem K) {α β : Type} (x : Heap K α) (y : Py β) (R : Mem K → α → β → Prop) : Prop :=
  Keep m0 (x m).2 ∧
    match (x m).1, y with
    | .ok a, .ok b => R (x m).2 a b
    | .error e, .error e' => e = e'
    | _, _ => False

theorem Does.bind {m0 m : Mem K} {α β α' β' : Type} {x : Heap K α} {y : Py β} {R : Mem K → α → β → Prop}
    {f : α → Heap K α'} {g : β → Py β'} {R' : Mem K → α' → β' → Prop} (h : Does m0 m x y R)
    (h' : ∀ a b m', Keep m0 m' → R m' a b → Does m0 m' (f a) (g b) R') :
    Does m0 m (x >>= f) (y >>= g) R' := by
  obtain ⟨h1, h2⟩ := h
  show Does m0 m (Heap.andThen x f) (Except.bind y g) R'
  rcases hx : x m with ⟨o, m'⟩
  rw [hx] at h1 h2
  cases o with
  | error e =>
    cases y with
    | error e' =>
      simp only at h2
      refine ⟨by simp [Heap.andThen, hx]; exact h1, ?_⟩
      simp [Heap.andThen, hx, Except.bind, h2]
    | ok b => exact h2.elim
  | ok a =>
    cases y with
    | error e' => exact h2.elim
    | ok b =>
      have := h' a b m' h1 h2
      unfold Does at this ⊢
      simp only [Heap.andThen, hx, Except.bind]
      exact this

theorem Does.ret {m0 m : Mem K} {α β : Type} {a : α} {b : β} {R : Mem K → α → β → Prop} (hk : Keep m0 m) (h : R m a b) :
    Does m0 m (pure a : Heap K α) (pure b : Py β) R := ⟨hk, h⟩

theorem Does.ret' {m0 m : Mem K} {α β : Type} {a : α} {b : β} {R : Mem K → α → β → Prop} (hk : Keep m0 m) (h : R m a b) :
    Does m0 m (pure a : Heap K α) (.ok b : Py β) R := ⟨hk, h⟩

theorem Does.lift {m0 m : Mem K} {α : Type} (y : Py α) (hk : Keep m0 m) :
    Does m0 m (Heap.lift y : Heap K α) y (fun m' a b => m' = m ∧ a = b) := by
  cases y with
  | error e => exact ⟨hk, rfl⟩
  | ok b => exact ⟨hk, rfl, rfl⟩

theorem Does.err {m0 m : Mem K} {α β : Type} (e : PyErr) (hk : Keep m0 m) {R : Mem K → α → β → Prop} :
    Does m0 m (Heap.lift (.error e) : Heap K α) (.error e : Py β) R := ⟨hk, rfl⟩

theorem Does.look {m0 m : Mem K} {α β γ : Type} {g : Mem K → γ} {f : γ → Heap K α} {y : Py β}
    {R : Mem K → α → β → Prop} (h : Does m0 m (f (g m)) y R) : Does m0 m (Heap.look g >>= f) y R := h

theorem Does.bindLift {m0 m : Mem K} {α β γ : Type} {x : Py γ} {f : γ → Heap K α} {g : γ → Py β}
    {R : Mem K → α → β → Prop} (hk : Keep m0 m) (h : ∀ c, Does m0 m (f c) (g c) R) :
    Does m0 m (Heap.lift x >>= f) (x >>= g) R := by
  cases x with
  | error e => exact ⟨hk, rfl⟩
  | ok c => exact h c

theorem Does.weaken {m0 m : Mem K} {α β : Type} {x : Heap K α} {y : Py β} {R R' : Mem K → α → β → Prop}
    (h : Does m0 m x y R) (h' : ∀ m' a b, Keep m0 m' → R m' a b → R' m' a b) : Does m0 m x y R' := by
  obtain ⟨h1, h2⟩ := h
  refine ⟨h1, ?_⟩
  revert h2
  rcases (x m).1 with e | a <;> rcases y with e' | b <;> simp
  exact h' _ a b h1

theorem Does.base {m0 m1 m : Mem K} {α β : Type} {x : Heap K α} {y : Py β} {R : Mem K → α → β → Prop}
    (h : Does m1 m x y R) (hk : Keep m0 m1) : Does m0 m x y R := ⟨hk.trans h.1, h.2⟩

theorem Does.eqOk {m0 m m' : Mem K} {α α' β : Type} {x : Heap K α} {a : α} {f : α → Heap K α'} {y : Py β}
    {R : Mem K → α' → β → Prop} (hx : x m = (.ok a, m')) (h : Does m0 m' (f a) y R) : Does m0 m (x >>= f) y R := by
  show Does m0 m (Heap.andThen x f) y R
  unfold Does at h ⊢
  simp only [Heap.andThen, hx]
  exact h

theorem Heap.pure_bind' {α β : Type} (a : α) (f : α → Heap K β) : ((pure a : Heap K α) >>= f) = f a := rfl

theorem Heap.liftOk_bind {α β : Type} (a : α) (f : α → Heap K β) : ((Heap.lift (.ok a) : Heap K α) >>= f) = f a := rfl

theorem Heap.liftError_bind {α β : Type} (e : PyErr) (f : α → Heap K β) :
    ((Heap.lift (.error e) : Heap K α) >>= f) = Heap.lift (.error e) := rfl

/-- A new array: fresh, and with the contents given. -/
theorem alloc_shows (m : Mem K) (dt : DType) (t : Tab K) (rows : List (List (Option K))) (hdt : dt = t.dt)
    (hr : rows = t.rows.map fun r => some r.1 :: r.2) (hw : ∀ r ∈ t.rows, r.2.length = t.width) :
    ∃ a, alloc dt (t.width + 1) rows m = (.ok a, m ++ [rows]) ∧ a.buf = m.length ∧ Shows (m ++ [rows]) a t ∧
      Grid (m ++ [rows]) a (List.range rows.length) 0 := by
  have hlen : ∀ r ∈ rows, r.length = t.width + 1 := by
    rw [hr]
    intro r hr
    obtain ⟨x, hx, rfl⟩ := List.mem_map.1 hr
    simp [hw x hx]
  have hg : Grid (m ++ [rows]) ⟨m.length, dt, t.width + 1, places rows⟩ (List.range rows.length) 0 := by
    refine ⟨?_, ?_, by simp⟩
    · unfold places
      apply List.ext_getElem
      · simp
      · intro i h1 h2
        have hi : i < rows.length := by simpa using h1
        simp only [List.getElem_mapIdx, List.getElem_map, List.getElem_range]
        apply List.ext_getElem
        · simp [hlen _ (List.getElem_mem hi)]
        · intro j h3 h4
          simp
    · intro i hi j hj
      have hi : i < rows.length := by simpa using hi
      refine ⟨rows, rows[i], by simp, by simp [hi], ?_⟩
      rw [hlen _ (List.getElem_mem hi)]
      exact hj
  refine ⟨_, rfl, rfl, ⟨⟨_, _, hg⟩, hdt, rfl, ?_⟩, hg⟩
  rw [← hr, hg.read]
  apply List.ext_getElem
  · simp
  · intro i h1 h2
    simp only [List.getElem_map, List.getElem_range]
    apply List.ext_getElem
    · simp [hlen _ (List.getElem_mem h2)]
    · intro j h3 h4
      simp [Mem.cell, h2, h4]

theorem alloc_does {m : Mem K} {dt : DType} {n : ℕ} {rows : List (List (Option K))} {t : Tab K} (hn : n = t.width + 1)
    (hdt : dt = t.dt) (hr : rows = t.rows.map fun r => some r.1 :: r.2) (hw : ∀ r ∈ t.rows, r.2.length = t.width) :
    Does m m (alloc dt n rows) (.ok t) (fun m' a t => Shows m' a t ∧ m.length ≤ a.buf) := by
  subst hn
  obtain ⟨a, h1, h2, h3, -⟩ := alloc_shows m dt t rows hdt hr hw
  unfold Does
  rw [h1]
  exact ⟨Keep.append _ _, h3, h2.ge⟩

theorem vstackArr_does {m : Mem K} {a b : Arr} {s t : Tab K} (ha : Shows m a s) (hb : Shows m b t) :
    Does m m (vstackArr a b) (s.vstack t) (fun m' c u => Shows m' c u ∧ m.length ≤ c.buf) := by
  unfold vstackArr Tab.vstack
  by_cases h : s.width = t.width
  · have h' : a.ncols = b.ncols := by rw [ha.ncols, hb.ncols, h]
    rw [if_pos h, if_pos h']
    apply Does.look
    apply Does.look
    apply alloc_does
    · exact ha.ncols
    · rw [ha.dt, hb.dt]
    · rw [ha.read, hb.read]; simp
    · intro r hr
      rcases List.mem_append.1 hr with hr | hr
      · exact ha.width r hr
      · simp only; rw [h]; exact hb.width r hr
  · have h' : ¬ a.ncols = b.ncols := by rw [ha.ncols, hb.ncols]; omega
    rw [if_neg h, if_neg h']
    exact Does.err _ (Keep.refl m)

end

section
variable {K : Type} [Field K] [LinearOrder K] [FloorRing K]

theorem setPos_does {m0 m : Mem K} (hk : Keep m0 m) {a : Arr} {t : Tab K} (ha : Shows m a t) (hf : m0.length ≤ a.buf)
    (p : K) : ∃ m', a.setPos p m = (.ok (), m') ∧ Keep m0 m' ∧ Shows m' a (t.setPos p) := by
  obtain ⟨rs, k, hg⟩ := ha.grid
  refine ⟨_, rfl, hk.store hf _, ⟨⟨rs, k, hg.store _⟩, ?_, ?_, ?_⟩⟩
  · exact ha.dt
  · exact ha.ncols
  · rw [read_store_grid hg]
    have hr := ha.read
    rw [hg.read] at hr
    simp only [ha.dt, Tab.setPos, List.map_map]
    have : (fun r : K × List (Option K) => some (if t.dt = DType.int then truncK p else p) :: r.2)
        = (fun r => some (if t.dt = DType.int then truncK p else p) :: r.tail) ∘ fun r : K × List (Option K) => some r.1 :: r.2 := by
      funext r; simp
    simp only [Function.comp_def] at this ⊢
    rw [this]
    rw [← Function.comp_def (f := fun r : List (Option K) => some (if t.dt = DType.int then truncK p else p) :: r.tail), ← List.map_map, ← hr, List.map_map]
    apply List.map_congr_left
    intro i hi
    simp only [Function.comp]
    rw [ha.ncols, List.range_succ_eq_map]
    simp only [List.map_cons, List.map_map, List.tail_cons]
    congr 1
    · have : (i, 0 + k) ∈ a.col 0 := by rw [hg.mem_col]; exact ⟨by rw [ha.ncols]; omega, i, hi, rfl⟩
      rw [if_pos this]; rfl
    · apply List.map_congr_left
      intro j hj
      have : (i, j.succ + k) ∉ a.col 0 := by
        rw [hg.mem_col]
        rintro ⟨-, i', -, he⟩
        have := congrArg Prod.snd he
        simp at this
      simp [this]

theorem mapM_error_of_forall {α β : Type} {f : α → Py β} {e : PyErr} {l : List α} (hne : l ≠ [])
    (hf : ∀ x ∈ l, (∃ y, f x = .ok y) ∨ f x = .error e) (he : ∃ x ∈ l, f x = .error e) : l.mapM f = .error e := by
  induction l with
  | nil => exact (hne rfl).elim
  | cons x xs ih =>
    rw [List.mapM_cons]
    rcases hf x (List.mem_cons_self ..) with ⟨y, hy⟩ | hy
    · obtain ⟨z, hz, hze⟩ := he
      rcases List.mem_cons.1 hz with rfl | hz
      · rw [hy] at hze; cases hze
      · rw [hy, ih (by intro h; rw [h] at hz; cases hz) (fun w hw => hf w (List.mem_cons_of_mem _ hw)) ⟨z, hz, hze⟩]
        rfl
    · rw [hy]; rfl

theorem mapM_ok_map {α β : Type} {f : α → Py β} {g : α → β} {l : List α} (hf : ∀ x ∈ l, f x = .ok (g x)) :
    l.mapM f = .ok (l.map g) := by
  induction l with
  | nil => rfl
  | cons x xs ih =>
    rw [List.mapM_cons, hf x (List.mem_cons_self ..), ih (fun y hy => hf y (List.mem_cons_of_mem _ hy))]
    rfl

theorem clamp_does {m0 m : Mem K} (hk : Keep m0 m) {a : Arr} {t : Tab K} (ha : Shows m a t) (hf : m0.length ≤ a.buf) :
    Does m0 m a.clamp (t.rows.mapM clampRow) (fun m' _ rows => Shows m' a { t with rows := rows }) := by
  obtain ⟨rs, k, hg⟩ := ha.grid
  have hr := ha.read
  rw [hg.read] at hr
  have hcells : ∀ r ∈ a.cells, r.length = t.width + 1 := by
    rw [hg.cells]
    intro r hr
    obtain ⟨i, -, rfl⟩ := List.mem_map.1 hr
    simp [ha.ncols]
  have hlen : rs.length = t.rows.length := by simpa using congrArg List.length hr
  by_cases hne : t.rows = []
  · have hrs : rs = [] := by rw [← List.length_eq_zero_iff, hlen, hne]; rfl
    have hc : a.cells = [] := by rw [hg.cells, hrs]; rfl
    have hcol : a.col 1 = [] := by unfold Arr.col; rw [hc]; rfl
    unfold Does Arr.clamp
    simp only [hc, hcol, hne, List.any_nil, Bool.false_eq_true, if_false]
    refine ⟨hk.store hf _, ⟨⟨rs, k, ?_⟩, ha.dt, ha.ncols, ?_⟩⟩
    · exact hg.store _
    unfold Arr.read
    rw [hc]; rfl
  have hcne : a.cells ≠ [] := by
    rw [hg.cells]
    intro h
    have := congrArg List.length h
    simp at this
    rw [this] at hlen
    exact hne (List.length_eq_zero_iff.1 hlen.symm)
  by_cases hw : t.width = 0
  · have h1 : (a.cells.any fun r => decide (r.length ≤ 1)) = true := by
      rw [List.any_eq_true]
      obtain ⟨r, hr⟩ := List.exists_mem_of_ne_nil _ hcne
      exact ⟨r, hr, by simp [hcells r hr, hw]⟩
    have h2 : t.rows.mapM clampRow = .error .indexError := by
      apply mapM_error_of_forall hne
      · intro r hr
        right
        have := ha.width r hr
        rw [hw, List.length_eq_zero_iff] at this
        simp [clampRow, this]
      · obtain ⟨r, hr⟩ := List.exists_mem_of_ne_nil _ hne
        have := ha.width r hr
        rw [hw, List.length_eq_zero_iff] at this
        exact ⟨r, hr, by simp [clampRow, this]⟩
    unfold Does Arr.clamp
    rw [h2, if_pos h1]
    exact ⟨hk, rfl⟩
  have h1 : ¬ (a.cells.any fun r => decide (r.length ≤ 1)) = true := by
    rw [List.any_eq_true]
    rintro ⟨r, hr, h⟩
    rw [hcells r hr] at h
    simp at h
    exact hw h
  -- the rows, one by one
  have hrow : ∀ r ∈ t.rows, ∃ x xs, r.2 = x :: xs := by
    intro r hr
    have := ha.width r hr
    cases h : r.2 with
    | nil => rw [h] at this; exact (hw this.symm).elim
    | cons x xs => exact ⟨x, xs, rfl⟩
  have hnth : ∀ i, (h : i < rs.length) → ∃ r, t.rows[i]? = some r ∧ r ∈ t.rows ∧
      (List.range a.ncols).map (fun j => m.cell a.buf (rs[i], j + k)) = some r.1 :: r.2 := by
    intro i h
    have h' : i < t.rows.length := by omega
    refine ⟨t.rows[i], List.getElem?_eq_getElem h', List.getElem_mem h', ?_⟩
    have := congrArg (·[i]?) hr
    simpa [h, h'] using this
  have hcell1 : ∀ i, (h : i < rs.length) → ∀ r, t.rows[i]? = some r → ∀ x xs, r.2 = x :: xs →
      m.cell a.buf (rs[i], 1 + k) = x := by
    intro i h r hi x xs hx
    obtain ⟨r', hi', -, he⟩ := hnth i h
    rw [hi] at hi'; cases hi'
    have := congrArg (·[1]?) he
    simpa [ha.ncols, hx, Nat.pos_of_ne_zero hw] using this
  by_cases hnone : ∃ r ∈ t.rows, ∃ xs, r.2 = none :: xs
  · obtain ⟨r, hr', xs, hx⟩ := hnone
    obtain ⟨i, hi, hri⟩ := List.getElem_of_mem hr'
    have hi' : i < rs.length := by omega
    have h2 : (a.col 1).any (fun pl => decide (m.cell a.buf pl = none)) = true := by
      rw [List.any_eq_true]
      refine ⟨(rs[i], 1 + k), ?_, ?_⟩
      · rw [hg.mem_col]
        exact ⟨by rw [ha.ncols]; omega, _, List.getElem_mem hi', rfl⟩
      · simp [hcell1 i hi' r (by rw [List.getElem?_eq_getElem hi, hri]) none xs hx]
    have h3 : t.rows.mapM clampRow = .error .typeError := by
      apply mapM_error_of_forall hne
      · intro q hq
        obtain ⟨y, ys, hy⟩ := hrow q hq
        cases y with
        | none => right; simp [clampRow, hy]
        | some y => left; exact ⟨_, by simp [clampRow, hy]; rfl⟩
      · exact ⟨r, hr', by simp [clampRow, hx]⟩
    unfold Does Arr.clamp
    rw [h3, if_neg h1, if_pos h2]
    exact ⟨hk, rfl⟩
  · have h2 : ¬ (a.col 1).any (fun pl => decide (m.cell a.buf pl = none)) = true := by
      rw [List.any_eq_true]
      rintro ⟨pl, hpl, hn⟩
      rw [hg.mem_col] at hpl
      obtain ⟨-, i, hi, rfl⟩ := hpl
      obtain ⟨n, hn', rfl⟩ := List.getElem_of_mem hi
      obtain ⟨r, hrn, hrm, -⟩ := hnth n hn'
      obtain ⟨y, ys, hy⟩ := hrow r hrm
      rw [hcell1 n hn' r hrn y ys hy] at hn
      simp at hn
      subst hn
      exact hnone ⟨r, hrm, ys, hy⟩
    let g : K × List (Option K) → K × List (Option K) := fun r =>
      (r.1, match r.2 with | some x :: rest => some (if x < 0 then 0 else x) :: rest | l => l)
    have h3 : t.rows.mapM clampRow = .ok (t.rows.map g) := by
      apply mapM_ok_map
      intro r hr
      obtain ⟨y, ys, hy⟩ := hrow r hr
      cases y with
      | none => exact (hnone ⟨r, hr, ys, hy⟩).elim
      | some y => simp [clampRow, hy, g]
    unfold Does Arr.clamp
    rw [h3, if_neg h1, if_neg h2]
    generalize hF : (fun pl => if pl ∈ a.col 1 then (m.cell a.buf pl).bind fun x => if x < 0 then some (some (0 : K)) else none else none) = F
    refine ⟨hk.store hf F, ⟨⟨rs, k, hg.store F⟩, ha.dt, ha.ncols, ?_⟩⟩
    dsimp only
    rw [read_store_grid hg, ← hF]
    apply List.ext_getElem
    · simp [hlen]
    · intro i hi1 hi2
      have hi : i < rs.length := by simpa using hi1
      have hi' : i < t.rows.length := by omega
      obtain ⟨r, hri, hrm, he⟩ := hnth i hi
      obtain ⟨y, ys, hy⟩ := hrow r hrm
      have hc1 := hcell1 i hi r hri y ys hy
      have hr0 : t.rows[i] = r := by rw [List.getElem?_eq_getElem hi'] at hri; exact Option.some.inj hri
      simp only [List.getElem_map, hr0]
      cases y with
      | none => exact (hnone ⟨r, hrm, ys, hy⟩).elim
      | some y =>
        obtain ⟨w, hw'⟩ : ∃ w, a.ncols = w + 2 := ⟨t.width - 1, by rw [ha.ncols]; omega⟩
        rw [hw', List.range_succ_eq_map, List.map_cons, List.range_succ_eq_map, hy] at he
        simp only [List.map_cons, List.map_map, List.cons.injEq] at he
        obtain ⟨he0, -, het⟩ := he
        have hcol : ∀ j, (rs[i], j + k) ∈ a.col 1 ↔ j = 1 := by
          intro j
          rw [hg.mem_col]
          constructor
          · rintro ⟨-, i', -, he⟩
            have := congrArg Prod.snd he
            simp at this
            omega
          · rintro rfl
            exact ⟨by omega, _, List.getElem_mem hi, rfl⟩
        conv_lhs => arg 2; rw [hw', List.range_succ_eq_map, List.range_succ_eq_map]
        simp only [List.map_cons, List.map_map, g, hy]
        congr 1
        · simp only [hcol]; simpa using he0
        · congr 1
          · have h01 : Nat.succ 0 + k = 1 + k := by omega
            rw [if_pos ((hcol _).2 rfl), h01, hc1]
            simp only [Option.bind_some]
            by_cases hy0 : y < 0 <;> simp [hy0]
          · rw [← het]
            apply List.map_congr_left
            intro j hj
            simp only [Function.comp, hcol]
            simp

theorem dropCols_shows {m : Mem K} {a : Arr} {t : Tab K} (ha : Shows m a t) {u : Tab K} (hdt : u.dt = t.dt)
    (hw : t.width = u.width + 1) (hr : (t.rows.map fun r => r.2) = u.rows.map fun r => some r.1 :: r.2) :
    Shows m (a.dropCols 1) u := by
  obtain ⟨rs, k, hg⟩ := ha.grid
  have hn : a.ncols = u.width + 1 + 1 := by rw [ha.ncols, hw]
  refine ⟨⟨rs, k + 1, ?_, ?_, hg.buf⟩, ?_, ?_, ?_⟩
  · simp only [Arr.dropCols, hg.cells, hn, List.map_map, Nat.add_sub_cancel]
    apply List.map_congr_left
    intro i hi
    simp only [Function.comp]
    rw [List.range_succ_eq_map]
    simp only [List.map_cons, List.drop_succ_cons, List.drop_zero, List.map_map]
    apply List.map_congr_left
    intro j hj
    simp; omega
  · intro i hi j hj
    simp only [Arr.dropCols, hn, Nat.add_sub_cancel] at hj
    have := hg.inRange i hi (j + 1) (by omega)
    simpa [Arr.dropCols, Nat.add_comm, Nat.add_left_comm, Nat.add_assoc] using this
  · rw [hdt]; exact ha.dt
  · simp [Arr.dropCols, hn]
  · rw [← hr]
    have h2 : (a.dropCols 1).read m = (a.read m).map (List.drop 1) := by
      simp [Arr.read, Arr.dropCols, List.map_drop]
    rw [h2, ha.read]
    simp [Function.comp_def]

/-- A load case object whose stored array is a load table. -/
def GoodLc (m : Mem K) (lc : Option Arr) : Prop :=
  ∀ a, lc = some a → a.buf < m.length ∧ ∃ t : Table K, a.dt = (if t.isInt then .int else .flt) ∧
    a.read m = t.rows.map LRow.cells

theorem GoodLc.keep {m m' : Mem K} {lc : Option Arr} (h : GoodLc m lc) (hk : Keep m m') : GoodLc m' lc := by
  intro a ha
  obtain ⟨h1, t, h2, h3⟩ := h a ha
  exact ⟨lt_of_lt_of_le h1 hk.length, t, h2, by rw [hk.read h1, h3]⟩

theorem ofCells_cells (r : LRow K) : LRow.ofCells r.cells = r := by
  cases r; simp [LRow.ofCells, LRow.cells]

theorem ofMem_keep {m m' : Mem K} {lc : Option Arr} (h : GoodLc m lc) (hk : Keep m m') :
    LoadCase.ofMem m' lc = LoadCase.ofMem m lc := by
  cases lc with
  | none => rfl
  | some a => simp [LoadCase.ofMem, hk.read (h a rfl).1]

theorem ofMem_some {m : Mem K} {a : Arr} {t : Table K} (h2 : a.dt = (if t.isInt then .int else .flt))
    (h3 : a.read m = t.rows.map LRow.cells) : LoadCase.ofMem m (some a) = ⟨some t⟩ := by
  have h4 : (t.rows.map LRow.cells).map LRow.ofCells = t.rows := by
    rw [List.map_map]
    conv_rhs => rw [← List.map_id t.rows]
    apply List.map_congr_left
    intro r _
    exact ofCells_cells r
  rcases t with ⟨isInt, rows⟩
  simp only at h2 h4
  simp only [LoadCase.ofMem, Option.map_some, h3, h4]
  cases isInt <;> simp_all

theorem cells_cols (r : LRow K) (comps : List LComp) :
    ((0 :: comps.map LComp.value).map fun c => (r.cells[c]?).getD none) = some r.pos :: (comps.map r.get).map some := by
  simp only [List.map_cons, List.map_map]
  congr 1
  apply List.map_congr_left
  intro c _
  cases c <;> rfl

/-- What `get_load` returns: `None`, or a new array with the contents the value model gives. -/
def Fresh (m0 : Mem K) (m : Mem K) : Option Arr → Option (Tab K) → Prop
  | none, none => True
  | some a, some t => Shows m a t ∧ m0.length ≤ a.buf
  | _, _ => False

theorem takeCols_does {m : Mem K} {a : Arr} {t : Table K} (hdt : a.dt = (if t.isInt then .int else .flt))
    (hr : a.read m = t.rows.map LRow.cells) (comps : List LComp) :
    Does m m (a.takeCols (0 :: comps.map LComp.value))
      (.ok ⟨if t.isInt then .int else .flt, comps.length, cells (t.rows.map fun r => (r.pos, comps.map r.get))⟩)
      (fun m' a t => Shows m' a t ∧ m.length ≤ a.buf) := by
  unfold Arr.takeCols
  apply Does.look
  apply alloc_does
  · simp
  · exact hdt
  · rw [hr]
    simp only [cells, List.map_map]
    apply List.map_congr_left
    intro r _
    exact cells_cols r comps
  · intro r hr
    simp only [cells, List.map_map, List.mem_map] at hr
    obtain ⟨x, -, rfl⟩ := hr
    simp

theorem takeIx_does {m : Mem K} {a : Arr} {t : Table K} (hdt : a.dt = (if t.isInt then .int else .flt))
    (hr : a.read m = t.rows.map LRow.cells) (comps : List LComp) (ps : List K) :
    Does m m (a.takeIx (fun r => decide (((r[0]?).getD none) ∈ ps.map some)) (0 :: comps.map LComp.value))
      (.ok ⟨if t.isInt then .int else .flt, comps.length,
        cells ((t.rows.filter (fun r => decide (r.pos ∈ ps))).map fun r => (r.pos, comps.map r.get))⟩)
      (fun m' a t => Shows m' a t ∧ m.length ≤ a.buf) := by
  unfold Arr.takeIx
  apply Does.look
  apply alloc_does
  · simp
  · exact hdt
  · rw [hr, List.filter_map]
    have : ((fun r : List (Option K) => decide (((r[0]?).getD none) ∈ ps.map some)) ∘ LRow.cells)
        = fun r : LRow K => decide (r.pos ∈ ps) := by
      funext r
      simp [LRow.cells]
    rw [this]
    simp only [cells, List.map_map]
    apply List.map_congr_left
    intro r _
    exact cells_cols r comps
  · intro r hr
    simp only [cells, List.map_map, List.mem_map] at hr
    obtain ⟨x, -, rfl⟩ := hr
    simp

theorem rowOf_cells (rows : List (Row K)) :
    ((cells rows).map fun r => some r.1 :: r.2).map
      (fun (r : List (Option K)) => ((((r[0]?).getD none).getD 0, (r.drop 1).map (Option.getD · 0)) : Row K)) = rows := by
  simp only [cells, List.map_map]
  conv_rhs => rw [← List.map_id rows]
  apply List.map_congr_left
  intro r _
  simp [Function.comp_def]

theorem Does.mapOk {m0 m : Mem K} {α α' β β' : Type} {x : Heap K α} {b : β} {R : Mem K → α → β → Prop}
    {f : α → Heap K α'} {y : Py β'} {R' : Mem K → α' → β' → Prop} (h : Does m0 m x (.ok b) R)
    (h' : ∀ a m', Keep m0 m' → R m' a b → Does m0 m' (f a) y R') : Does m0 m (x >>= f) y R' := by
  have h2 : y = (Except.ok b : Py β) >>= fun _ => y := rfl
  rw [h2]
  apply Does.bind (R := fun m' a b' => R m' a b' ∧ b' = b)
  · refine ⟨h.1, ?_⟩
    have := h.2
    revert this
    rcases (x m).1 with e | a <;> simp
  · rintro a b' m' hk ⟨hr, rfl⟩
    exact h' a m' hk hr

theorem multiInterp_length {rt : Rt K} {xs xp : List K} {fp : List (List K)} {vals : List (List K)}
    (h : multiInterp rt (some xs) xp fp none none = .ok vals) : ∀ v ∈ vals, v.length = fp.length := by
  unfold multiInterp at h
  split at h
  · cases h
  · cases h
  next heq =>
    split_ifs at h
    rw [mapM_eq_ok_iff] at h
    intro v hv
    obtain ⟨i, hi, rfl⟩ := List.getElem_of_mem hv
    have hr := h.get (by rw [h.length_eq]; exact hi) hi
    simp only [List.get_eq_getElem] at hr
    rw [mapM_eq_ok_iff] at hr
    exact hr.length_eq.symm

theorem getLoadH_does {rt : Rt K} (hs : rt.SortOK) {m : Mem K} {lc : Option Arr} (h : GoodLc m lc) (position : PosArg K)
    (minPos : Option ℤ) (component : CompArg) :
    Does m m (getLoadH rt lc position minPos component) ((LoadCase.ofMem m lc).getLoad rt position minPos component)
      (Fresh m) := by
  unfold getLoadH LoadCase.getLoad
  apply Does.look
  apply Does.bindLift (Keep.refl m)
  intro ps
  cases lc with
  | none =>
    simp only [LoadCase.ofMem, Option.map_none]
    refine Does.mapOk (alloc_does (t := ⟨.obj, 1, ps.map fun p => (p.val, [none])⟩) rfl rfl (by simp) (by simp)) ?_
    rintro a m' hk ⟨h1, h2⟩
    exact Does.ret hk ⟨h1, h2⟩
  | some a =>
    obtain ⟨hb, t, hdt, hr⟩ := h a rfl
    rw [ofMem_some hdt hr]
    simp only
    apply Does.bindLift (Keep.refl m)
    intro comps
    generalize hD : (ps.map (·.val)).filter (fun p => decide (p ∈ t.rows.map (·.pos))) = posDirect
    generalize hI : (ps.map (·.val)).filter (fun p => decide (p ∉ t.rows.map (·.pos))) = posInterp
    generalize hS : (sortedSet ((t.rows.map (·.pos)).map Num.flt)).map (·.val) = short
    generalize hV : ps.map (·.val) = psv
    by_cases h1 : psv = short
    · rw [if_pos h1, if_pos h1]
      refine Does.mapOk (takeCols_does hdt hr comps) ?_
      rintro b m' hk ⟨h1, h2⟩
      exact Does.ret hk ⟨h1, h2⟩
    rw [if_neg h1, if_neg h1]
    by_cases hi : posInterp = []
    · rw [if_pos hi]
      by_cases hd : posDirect = []
      · rw [if_pos hd, if_pos hd]
        simp only [if_pos hi]
        exact Does.ret (Keep.refl m) trivial
      · rw [if_neg hd, if_neg hd]
        simp only [if_pos hi]
        refine Does.mapOk (takeIx_does hdt hr comps posDirect) ?_
        rintro b m' hk ⟨h1, h2⟩
        exact Does.ret hk ⟨h1, h2⟩
    · rw [if_neg hi]
      have hcols : (0 :: comps.map LComp.value).length = comps.length + 1 := by simp
      rcases hv : multiInterp rt (some posInterp) (t.rows.map (·.pos))
        (comps.map fun c => t.rows.map fun r => r.get c) none none with e | vals
      · by_cases hd : posDirect = []
        · rw [if_pos hd]
          simp only [if_neg hi, Heap.pure_bind', hv, Heap.liftError_bind]
          exact ⟨Keep.refl m, rfl⟩
        · rw [if_neg hd]
          simp only [if_neg hi, Heap.pure_bind', hv, Heap.liftError_bind]
          refine Does.mapOk (takeIx_does hdt hr comps posDirect) ?_
          rintro b m' hk ⟨h1, h2⟩
          exact ⟨hk, rfl⟩
      have hl := multiInterp_length hv
      have hlen : ∀ r ∈ posInterp.zip vals, r.2.length = comps.length := by
        intro r hr'
        simp [hl r.2 (List.of_mem_zip hr').2]
      have hlen' : ∀ r ∈ cells (posInterp.zip vals), r.2.length = comps.length := by
        intro r hr'
        obtain ⟨x, hx, rfl⟩ := List.mem_map.1 hr'
        simp [hlen x hx]
      have hread : ((posInterp.zip vals).map fun r => some r.1 :: r.2.map some)
          = (cells (posInterp.zip vals)).map fun r => some r.1 :: r.2 := by simp [cells]
      by_cases hd : posDirect = []
      · rw [if_pos hd]
        simp only [if_neg hi, Heap.pure_bind', hv, Heap.liftOk_bind]
        refine Does.mapOk (alloc_does (t := ⟨.flt, comps.length, cells (posInterp.zip vals)⟩) hcols rfl hread hlen') ?_
        rintro b m' hk ⟨h1, h2⟩
        simp only [bind, Except.bind, if_pos hd]
        exact Does.ret hk ⟨h1, h2⟩
      · rw [if_neg hd]
        simp only [if_neg hi, Heap.pure_bind', hv, Heap.liftOk_bind]
        refine Does.mapOk (takeIx_does hdt hr comps posDirect) ?_
        rintro d m' hk ⟨hd1, hd2⟩
        refine Does.mapOk (((alloc_does (t := ⟨.flt, comps.length, cells (posInterp.zip vals)⟩) hcols rfl hread
          hlen').weaken (R' := fun m'' a t => Keep m' m'' ∧ Shows m'' a t)
            (fun _ _ _ h1 h2 => ⟨h1, h2.1⟩)).base hk) ?_
        rintro i m'' hk'' ⟨hk', hi1⟩
        have hd3 : d.reshape.read m'' = _ := (hd1.keep hk').read
        apply Does.look
        apply Does.look
        simp only [hd3, hi1.read, rowOf_cells]
        generalize hin : (_ ++ _ : List (ℕ × Row K)) = input
        generalize hsd : (rt.qsort input).insertionSort (fun a b => a.2.1 ≤ b.2.1) = sorted
        have hperm := ((List.perm_insertionSort (fun a b : ℕ × Row K => a.2.1 ≤ b.2.1) (rt.qsort input)).trans
          (hs input).1).symm
        rw [hsd, ← hin] at hperm
        have hsl : ∀ r ∈ sorted, r.2.2.length = comps.length := by
          intro r hr'
          have hm := hperm.mem_iff.2 hr'
          rcases List.mem_append.1 hm with hm | hm
          · obtain ⟨x, hx, rfl⟩ := List.mem_map.1 hm
            have := List.mem_zipIdx' hx
            have := List.mem_of_getElem? (List.mem_zipIdx_iff_getElem?.1 hx)
            obtain ⟨y, -, hy⟩ := List.mem_map.1 this
            simp only
            rw [← hy]
            simp
          · obtain ⟨x, hx, rfl⟩ := List.mem_map.1 hm
            have := List.mem_of_getElem? (List.mem_zipIdx_iff_getElem?.1 hx)
            exact hlen _ this
        refine Does.mapOk ((alloc_does (t := ⟨.flt, comps.length + 1,
          sorted.map fun r => ((r.1 : K), some r.2.1 :: r.2.2.map some)⟩) (by simp) rfl (by simp) ?_).base hk'') ?_
        · intro r hr'
          obtain ⟨x, hx, rfl⟩ := List.mem_map.1 hr'
          simp [hsl x hx]
        · rintro c m3 hk3 ⟨hc1, hc2⟩
          simp only [bind, Except.bind, if_neg hd]
          refine Does.ret hk3 ⟨dropCols_shows hc1 rfl rfl ?_, ?_⟩
          · simp only [combineRows, hin, hsd, cells, List.map_map]
            rfl
          · exact le_trans hk''.length hc2

variable {S : Type}

/-- Every stored array of the beam is a load table. -/
def GoodBeam (m : Mem K) (es : List (HElement K S)) : Prop := ∀ e ∈ es, ∀ p ∈ e.loads, GoodLc m p.2

theorem GoodBeam.keep {m m' : Mem K} {es : List (HElement K S)} (h : GoodBeam m es) (hk : Keep m m') : GoodBeam m' es :=
  fun e he p hp => (h e he p hp).keep hk

theorem now_keep {m m' : Mem K} {e : HElement K S} (h : ∀ p ∈ e.loads, GoodLc m p.2) (hk : Keep m m') :
    e.now m' = e.now m := by
  unfold HElement.now
  congr 1
  apply List.map_congr_left
  intro p hp
  rw [ofMem_keep (h p hp) hk]

theorem hbeamNow_keep {m m' : Mem K} {es : List (HElement K S)} (h : GoodBeam m es) (hk : Keep m m') :
    hbeamNow m' es = hbeamNow m es := by
  unfold hbeamNow
  congr 1
  apply List.map_congr_left
  intro e he
  exact now_keep (h e he) hk

theorem lookup_now (m : Mem K) (e : HElement K S) (c : ℤ) :
    (e.now m).loads.lookup c = (e.loads.lookup c).map (LoadCase.ofMem m) := by
  unfold HElement.now
  simp only
  induction e.loads with
  | nil => rfl
  | cons p ps ih =>
    rw [List.map_cons, List.lookup_cons, List.lookup_cons, ih]
    cases c == p.1 <;> rfl

theorem lookup_mem {α : Type} {l : List (ℤ × α)} {c : ℤ} {a : α} (h : l.lookup c = some a) : (c, a) ∈ l := by
  induction l with
  | nil => cases h
  | cons p ps ih =>
    rw [List.lookup_cons] at h
    rcases hc : c == p.1 with _ | _
    · rw [hc] at h; exact List.mem_cons_of_mem _ (ih h)
    · rw [hc] at h
      cases h
      rw [beq_iff_eq] at hc
      subst hc
      exact List.mem_cons_self ..

theorem elementLoads_does {rt : Rt K} (hs : rt.SortOK) {m : Mem K} {e : HElement K S}
    (h : ∀ p ∈ e.loads, GoodLc m p.2) (c : ℤ) (position : PosArg K) (minPos : Option ℤ) (component : CompArg) :
    Does m m (e.getLoads rt c position minPos component) ((e.now m).getLoads rt c position minPos component)
      (Fresh m) := by
  unfold HElement.getLoads Element.getLoads Element.case
  rw [lookup_now]
  rcases hl : e.loads.lookup c with _ | lc
  · exact Does.err _ (Keep.refl m)
  · exact getLoadH_does hs (h _ (lookup_mem hl)) position minPos component

theorem pyIndex_mapH {α β : Type} (f : α → β) (l : List α) (i : ℤ) : pyIndex (l.map f) i = (pyIndex l i).map f := by
  unfold pyIndex
  simp only [List.length_map, List.getElem?_map]
  generalize (if i < 0 then i + (l.length : ℤ) else i) = j
  by_cases hj : j < 0
  · rw [if_pos hj, if_pos hj]; rfl
  · rw [if_neg hj, if_neg hj]
    cases l[j.toNat]? <;> rfl

theorem pyIndex_mem {α : Type} {l : List α} {i : ℤ} {a : α} (h : pyIndex l i = .ok a) : a ∈ l := by
  unfold pyIndex at h
  generalize (if i < 0 then i + (l.length : ℤ) else i) = j at h
  simp only at h
  by_cases hj : j < 0
  · rw [if_pos hj] at h; cases h
  · rw [if_neg hj] at h
    rcases hl : l[j.toNat]? with _ | x
    · rw [hl] at h; cases h
    · rw [hl] at h; cases h
      exact List.mem_of_getElem? hl

/-- indexing a list of objects and a list of their contents -/
theorem Does.index {m0 m : Mem K} {es : List (HElement K S)} {i : ℤ} {α β : Type} {f : HElement K S → Heap K α}
    {g : Element K S → Py β} {R : Mem K → α → β → Prop} (hk : Keep m0 m)
    (h : ∀ e ∈ es, Does m0 m (f e) (g (e.now m)) R) :
    Does m0 m (Heap.lift (pyIndex es i) >>= f) (pyIndex (hbeamNow m es).elements i >>= g) R := by
  unfold hbeamNow
  rw [pyIndex_mapH]
  rcases he : pyIndex es i with x | e
  · exact ⟨hk, rfl⟩
  · exact h e (pyIndex_mem he)

/-- The accumulator: nothing yet, or an array newer than `m0`. -/
theorem loadStepH_does {rt : Rt K} (hs : rt.SortOK) {m0 m : Mem K} {es : List (HElement K S)} (hk : Keep m0 m)
    (h : GoodBeam m0 es) (c : ℤ) (component : CompArg) {acc : Option Arr} {acc' : Option (Tab K)}
    (ha : Fresh m0 m acc acc') (l : Loc K) :
    Does m0 m (loadStepH rt es c component acc l) ((hbeamNow m0 es).loadStep rt c component acc' l) (Fresh m0) := by
  unfold loadStepH Beam.loadStep
  rw [← hbeamNow_keep h hk]
  have h' := h.keep hk
  apply Does.index hk
  intro e he
  apply Does.bind (R := fun m' a b => Keep m m' ∧ Fresh m m' a b)
  · exact ((elementLoads_does hs (h' e he) c (.scalar l.loc) none component).weaken
      (fun _ _ _ h1 h2 => ⟨h1, h2⟩)).base hk
  · rintro a b m' hk' ⟨hk1, hf⟩
    cases a with
    | none =>
      cases b with
      | none => exact Does.err _ hk'
      | some t => exact hf.elim
    | some a =>
      cases b with
      | none => exact hf.elim
      | some t =>
        obtain ⟨hsh, hbuf⟩ := hf
        obtain ⟨m2, he2, hk2, hsh2⟩ := setPos_does hk1 hsh hbuf l.pos.val
        refine Does.eqOk he2 ?_
        have hk02 : Keep m0 m2 := hk.trans hk2
        cases acc with
        | none =>
          cases acc' with
          | some u => exact ha.elim
          | none => exact Does.ret hk02 ⟨hsh2, le_trans hk.length hbuf⟩
        | some x =>
          cases acc' with
          | none => exact ha.elim
          | some u =>
            obtain ⟨ha1, ha2⟩ := ha
            refine Does.bind ((vstackArr_does (ha1.keep hk2) hsh2).base hk02) ?_
            rintro y z m3 hk3 ⟨h3, h4⟩
            exact Does.ret hk3 ⟨h3, le_trans hk02.length h4⟩

theorem foldl_does {rt : Rt K} (hs : rt.SortOK) {m0 : Mem K} {es : List (HElement K S)}
    (h : GoodBeam m0 es) (c : ℤ) (component : CompArg) (locs : List (Loc K)) :
    ∀ (m : Mem K), Keep m0 m → ∀ (acc : Option Arr) (acc' : Option (Tab K)), Fresh m0 m acc acc' →
    Does m0 m (locs.foldlM (loadStepH rt es c component) acc)
      (locs.foldlM ((hbeamNow m0 es).loadStep rt c component) acc') (Fresh m0) := by
  induction locs with
  | nil => intro m hk acc acc' ha; exact Does.ret hk ha
  | cons l ls ih =>
    intro m hk acc acc' ha
    rw [List.foldlM_cons, List.foldlM_cons]
    refine Does.bind (loadStepH_does hs hk h c component ha l) ?_
    intro a b m' hk' hf
    exact ih m' hk' a b hf

theorem getLoadsH_does {rt : Rt K} (hs : rt.SortOK) {m0 m : Mem K} {es : List (HElement K S)} (hk : Keep m0 m)
    (h : GoodBeam m0 es) (c : ℤ) (position : PosArg K) (minPos : Option ℤ) (component : CompArg) :
    Does m0 m (getLoadsH rt es c position minPos component)
      ((hbeamNow m0 es).getLoads rt c position minPos component) (Fresh m0) := by
  unfold getLoadsH Beam.getLoads
  apply Does.look
  rw [hbeamNow_keep h hk]
  apply Does.bindLift hk
  intro locs
  exact foldl_does hs h c component locs m hk none none trivial

end

section
variable {K : Type} [Field K] [LinearOrder K] [FloorRing K]

theorem getTensionH_does {rt : Rt K} (hs : rt.SortOK) {m0 m : Mem K} {o : HObj K} (hk : Keep m0 m)
    (h : GoodBeam m0 o.elements) (c : ℤ) (position : PosArg K) (minPos : Option ℤ) :
    Does m0 m (getTensionH rt o.elements c position minPos) ((o.now m0).getTension rt c position minPos)
      (fun m' a t => Shows m' a t ∧ m0.length ≤ a.buf) := by
  unfold getTensionH AS4100.getTension HObj.now
  simp only
  refine Does.bind (getLoadsH_does hs hk h c position minPos (.name "N")) ?_
  intro a b m' hk' hf
  cases a with
  | none =>
    cases b with
    | none => exact Does.err _ hk'
    | some t => exact hf.elim
  | some a =>
    cases b with
    | none => exact hf.elim
    | some t =>
      obtain ⟨hsh, hbuf⟩ := hf
      refine Does.bind (clamp_does hk' hsh hbuf) ?_
      intro _ rows m2 hk2 h2
      exact Does.ret hk2 ⟨h2, hbuf⟩

theorem hobjNow_keep {m m' : Mem K} {o : HObj K} (h : GoodBeam m o.elements) (hk : Keep m m') : o.now m' = o.now m := by
  unfold HObj.now
  rw [hbeamNow_keep h hk]

/-- same value -/
def Same {α : Type} (_ : Mem K) (a b : α) : Prop := a = b

theorem Does.liftEq {m0 m : Mem K} {α : Type} {x y : Py α} (hk : Keep m0 m) (h : x = y) :
    Does m0 m (Heap.lift x : Heap K α) y Same := by
  subst h
  exact (Does.lift x hk).weaken fun _ _ _ _ h => h.2

theorem utilAt_does {rt : Rt K} (hs : rt.SortOK) {m0 m : Mem K} {o : HObj K} (hk : Keep m0 m)
    (h : GoodBeam m0 o.elements) (c : ℤ) (p : Num K) :
    Does m0 m (o.utilAt rt c p) ((o.now m0).utilAt rt c p) Same := by
  unfold HObj.utilAt AS4100.utilAt
  apply Does.look
  rw [hobjNow_keep h hk]
  apply Does.bindLift hk
  intro cap
  refine Does.bind (getTensionH_does hs hk h c (.scalar p) none) ?_
  rintro a t m' hk' ⟨hsh, hbuf⟩
  apply Does.look
  apply Does.liftEq hk'
  rw [hsh.read, List.mapM_map]
  congr 1
  funext r
  rcases hr : r.2 with _ | ⟨x, xs⟩
  · simp [hr]
  · cases x <;> simp [hr]

theorem utilPass_does {rt : Rt K} (hs : rt.SortOK) {m0 : Mem K} {o : HObj K}
    (h : GoodBeam m0 o.elements) (c : ℤ) (ps : List (Num K)) : ∀ m, Keep m0 m →
    Does m0 m (o.utilPass rt c ps) (ps.mapM fun p => (o.now m0).utilAt rt c p) Same := by
  induction ps with
  | nil => intro m hk; exact Does.ret hk rfl
  | cons p ps ih =>
    intro m hk
    rw [List.mapM_cons]
    refine Does.bind (utilAt_does hs hk h c p) ?_
    rintro a b m' hk' rfl
    refine Does.bind (ih m' hk') ?_
    rintro x y m2 hk2 rfl
    exact Does.ret hk2 rfl

theorem utilLoop_does {rt : Rt K} (hs : rt.SortOK) {m0 : Mem K} {o : HObj K}
    (h : GoodBeam m0 o.elements) (cs : List ℤ) : ∀ m pos, Keep m0 m →
    Does m0 m (o.utilLoop rt pos cs) ((o.now m0).utilLoop rt pos cs) Same := by
  induction cs with
  | nil => intro m pos hk; exact Does.ret hk rfl
  | cons c cs ih =>
    intro m pos hk
    unfold HObj.utilLoop AS4100.utilLoop
    apply Does.look
    rw [hobjNow_keep h hk]
    apply Does.bindLift hk
    intro ps
    refine Does.bind (utilPass_does hs h c ps m hk) ?_
    rintro a b m' hk' rfl
    refine Does.bind (ih m' (some ps) hk') ?_
    rintro x y m2 hk2 rfl
    exact Does.ret hk2 rfl

theorem tensionUtilisation_does {rt : Rt K} (hs : rt.SortOK) {m0 m : Mem K} {o : HObj K} (hk : Keep m0 m)
    (h : GoodBeam m0 o.elements) (lc : CaseArg) (position : PosArg K) :
    Does m0 m (o.tensionUtilisation rt lc position) ((o.now m0).tensionUtilisation rt lc position) Same := by
  unfold HObj.tensionUtilisation AS4100.tensionUtilisation
  apply Does.bindLift hk
  intro given
  apply Does.look
  rw [hobjNow_keep h hk]
  apply Does.bindLift hk
  intro cases
  refine Does.bind (utilLoop_does hs h cases m given hk) ?_
  rintro a b m' hk' rfl
  exact Does.liftEq hk' rfl

theorem query_does {rt : Rt K} (hs : rt.SortOK) {m0 m : Mem K} {o : HObj K} (hk : Keep m0 m)
    (h : GoodBeam m0 o.elements) (q : Query K) :
    Does m0 m (q.run rt o) (q.answer rt o.attrs (hbeamNow m0 o.elements))
      (fun m' r a => r.look m' = a ∧ ∀ x ∈ r.arrays, m0.length ≤ x.buf) := by
  have arr : ∀ {m' : Mem K} {a : Option Arr} {t : Option (Tab K)}, Fresh m0 m' a t →
      (Returned.ofOption a : Returned K).look m' = Answer.ofTab? t ∧
        ∀ x ∈ (Returned.ofOption a : Returned K).arrays, m0.length ≤ x.buf := by
    intro m' a t hf
    cases a with
    | none =>
      cases t with
      | none => exact ⟨rfl, fun x hx => (by cases hx)⟩
      | some t => exact hf.elim
    | some a =>
      cases t with
      | none => exact hf.elim
      | some t =>
        obtain ⟨h1, h2⟩ := hf
        refine ⟨?_, ?_⟩
        · simp [Returned.ofOption, Returned.look, Answer.ofTab?, Answer.ofTab, h1.read, h1.dt, h1.ncols]
        · intro x hx
          simp [Returned.ofOption, Returned.arrays] at hx
          subst hx
          exact h2
  cases q with
  | elementLoads i c position minPos component =>
    unfold Query.run Query.answer
    rw [← hbeamNow_keep h hk]
    apply Does.index hk
    intro e he
    refine Does.bind (((elementLoads_does hs ((h.keep hk) e he) c position minPos component).weaken
      (R' := Fresh m0) ?_).base hk) ?_
    · intro m' a t _ hf
      cases a <;> cases t <;> try exact hf
      exact ⟨hf.1, le_trans hk.length hf.2⟩
    · intro a t m' hk' hf
      exact Does.ret hk' (arr hf)
  | getLoads c position minPos component =>
    unfold Query.run Query.answer
    refine Does.bind (getLoadsH_does hs hk h c position minPos component) ?_
    intro a t m' hk' hf
    exact Does.ret hk' (arr hf)
  | getTension c position minPos =>
    unfold Query.run Query.answer
    refine Does.bind (getTensionH_does hs hk h c position minPos) ?_
    rintro a t m' hk' ⟨h1, h2⟩
    refine Does.ret hk' ⟨?_, ?_⟩
    · simp [Returned.look, Answer.ofTab, h1.read, h1.dt, h1.ncols]
    · intro x hx
      simp [Returned.arrays] at hx
      subst hx
      exact h2
  | utilisation loadCase position =>
    unfold Query.run Query.answer
    refine Does.bind (tensionUtilisation_does hs hk h loadCase position) ?_
    rintro a b m' hk' rfl
    exact Does.ret hk' ⟨rfl, fun x hx => (by cases hx)⟩

/-- The invariant of a program: old memory kept, only newer arrays in the caller's hands, all answers right. -/
theorem program_inv {rt : Rt K} (hs : rt.SortOK) {m0 : Mem K} {o : HObj K} (h : GoodBeam m0 o.elements)
    (steps : List (Step K)) : ∀ (s : Program K), Keep m0 s.mem → (∀ a ∈ s.got, m0.length ≤ a.buf) →
    Keep m0 (steps.foldl (Step.exec rt o) s).mem ∧
      (steps.foldl (Step.exec rt o) s).seen =
        s.seen ++ (queriesOf steps).map (Query.answer rt o.attrs (hbeamNow m0 o.elements)) := by
  induction steps with
  | nil => intro s hk _; exact ⟨hk, by simp [queriesOf]⟩
  | cons x xs ih =>
    intro s hk hg
    rw [List.foldl_cons]
    cases x with
    | query q =>
      have hd := query_does hs hk h q
      unfold Does at hd
      have hq : queriesOf (Step.query q :: xs) = q :: queriesOf xs := by simp [queriesOf]
      rw [hq, List.map_cons]
      rcases hr : q.run rt o s.mem with ⟨out, m'⟩
      rw [hr] at hd
      obtain ⟨hk', hd⟩ := hd
      simp only at hk' hd
      rcases out with e | r
      · rcases ha : q.answer rt o.attrs (hbeamNow m0 o.elements) with e' | a
        · rw [ha] at hd
          simp only at hd
          subst hd
          have := ih ⟨m', s.got, s.seen ++ [.error e]⟩ hk' hg
          simp only [Step.exec, hr]
          refine ⟨this.1, ?_⟩
          rw [this.2]; simp
        · rw [ha] at hd; exact hd.elim
      · rcases ha : q.answer rt o.attrs (hbeamNow m0 o.elements) with e' | a
        · rw [ha] at hd; exact hd.elim
        · rw [ha] at hd
          obtain ⟨h1, h2⟩ := hd
          have := ih ⟨m', s.got ++ r.arrays, s.seen ++ [.ok (r.look m')]⟩ hk' (by
            intro a ha
            rcases List.mem_append.1 ha with ha | ha
            · exact hg a ha
            · exact h2 a ha)
          simp only [Step.exec, hr]
          refine ⟨this.1, ?_⟩
          rw [this.2, h1]; simp
    | write k i j x =>
      have hq : queriesOf (Step.write k i j x :: xs) = queriesOf xs := by simp [queriesOf]
      rw [hq]
      unfold Step.exec
      simp only
      rcases hgk : s.got[k]? with _ | a
      · exact ih s hk hg
      · simp only
        rcases hc : (a.cells[i]?).bind (·[j]?) with _ | pl
        · exact ih s hk hg
        · simp only
          generalize (fun p => if p = pl then some (some (if a.dt = DType.int then truncK x else x)) else none) = f
          exact ih ⟨s.mem.store a.buf f, s.got, s.seen⟩ (hk.store (hg a (List.mem_of_getElem? hgk)) f) hg

/-- Storing puts every load table into memory. -/
theorem storeLoads_spec {S : Type} (es : List (Element K S)) : ∀ (m : Mem K),
    Keep m (storeLoads es m).2 ∧ GoodBeam (storeLoads es m).2 (storeLoads es m).1 ∧
      hbeamNow (storeLoads es m).2 (storeLoads es m).1 = ⟨es⟩ := by
  -- the load cases of one element
  have inner : ∀ (ls : List (ℤ × LoadCase K)) (acc : List (ℤ × Option Arr) × Mem K),
      let r := ls.foldl (fun (acc : List (ℤ × Option Arr) × Mem K) p =>
        match p.2.loads with
        | none => (acc.1 ++ [(p.1, none)], acc.2)
        | some t =>
          let rows := t.rows.map LRow.cells
          (acc.1 ++ [(p.1, some ⟨acc.2.length, if t.isInt then .int else .flt, 7, places rows⟩)], acc.2 ++ [rows])) acc
      Keep acc.2 r.2 ∧ ∃ new, r.1 = acc.1 ++ new ∧ (∀ p ∈ new, GoodLc r.2 p.2) ∧
        new.map (fun p => (p.1, LoadCase.ofMem r.2 p.2)) = ls := by
    intro ls
    induction ls with
    | nil => intro acc; exact ⟨Keep.refl _, [], by simp, by simp, rfl⟩
    | cons p ls ih =>
      intro acc
      rw [List.foldl_cons]
      rcases hl : p.2.loads with _ | t
      · obtain ⟨h1, new, h2, h3, h4⟩ := ih (acc.1 ++ [(p.1, none)], acc.2)
        refine ⟨h1, (p.1, none) :: new, by rw [h2]; simp, ?_, ?_⟩
        · intro q hq
          rcases List.mem_cons.1 hq with rfl | hq
          · intro a ha; cases ha
          · exact h3 q hq
        · rw [List.map_cons, h4]
          rcases p with ⟨c, ⟨l⟩⟩
          simp only at hl
          subst hl
          rfl
      · simp only
        obtain ⟨h1, new, h2, h3, h4⟩ := ih (acc.1 ++ [(p.1, some ⟨acc.2.length, if t.isInt then .int else .flt, 7,
          places (t.rows.map LRow.cells)⟩)], acc.2 ++ [t.rows.map LRow.cells])
        have hsh := alloc_shows acc.2 (if t.isInt then .int else .flt)
          ⟨if t.isInt then .int else .flt, 6, t.rows.map fun r => (r.pos, r.cells.tail)⟩ (t.rows.map LRow.cells) rfl
          (by simp [LRow.cells]) (by simp [LRow.cells])
        obtain ⟨a, ha, hb, hsh, -⟩ := hsh
        simp only [alloc] at ha
        have ha' : (⟨acc.2.length, if t.isInt then .int else .flt, 7, places (t.rows.map LRow.cells)⟩ : Arr) = a := by
          simpa using ha
        have hread := (hsh.keep h1).read
        have hread' : a.read (List.foldl (fun (acc : List (ℤ × Option Arr) × Mem K) p =>
            match p.2.loads with
            | none => (acc.1 ++ [(p.1, none)], acc.2)
            | some t =>
              let rows := t.rows.map LRow.cells
              (acc.1 ++ [(p.1, some ⟨acc.2.length, if t.isInt then .int else .flt, 7, places rows⟩)], acc.2 ++ [rows]))
            (acc.1 ++ [(p.1, some ⟨acc.2.length, if t.isInt then .int else .flt, 7,
              places (t.rows.map LRow.cells)⟩)], acc.2 ++ [t.rows.map LRow.cells]) ls).2 = t.rows.map LRow.cells := by
          refine hread.trans ?_
          simp [LRow.cells]
        have hdt : a.dt = if t.isInt then .int else .flt := hsh.dt
        refine ⟨(Keep.append _ _).trans h1, (p.1, some a) :: new, by rw [h2, ← ha']; simp, ?_, ?_⟩
        · intro q hq
          rcases List.mem_cons.1 hq with rfl | hq
          · intro a' ha2
            cases ha2
            exact ⟨(hsh.keep h1).buf, t, hdt, hread'⟩
          · exact h3 q hq
        · rw [List.map_cons, h4]
          congr 1
          rw [ofMem_some hdt hread']
          rcases p with ⟨c, ⟨l⟩⟩
          simp only at hl
          subst hl
          rfl
  induction es with
  | nil => intro m; exact ⟨Keep.refl m, fun e he => (by cases he), rfl⟩
  | cons e es ih =>
    intro m
    obtain ⟨h1, new, h2, h3, h4⟩ := inner e.loads ([], m)
    unfold storeLoads
    generalize hr : List.foldl _ _ e.loads = r at h1 h2 h3 h4
    obtain ⟨k1, k2, k3⟩ := ih r.2
    simp only [List.nil_append] at h2
    refine ⟨h1.trans k1, ?_, ?_⟩
    · intro x hx
      rcases List.mem_cons.1 hx with rfl | hx
      · intro p hp
        simp only [h2] at hp
        exact (h3 p hp).keep k1
      · exact k2 x hx
    · unfold hbeamNow at k3 ⊢
      simp only [Beam.mk.injEq] at k3
      simp only [List.map_cons, Beam.mk.injEq, k3, List.cons.injEq, and_true]
      have := now_keep (e := (⟨r.1, e.length, e.sect⟩ : HElement K S)) (m := r.2) (by rw [h2]; exact h3) k1
      rw [this]
      unfold HElement.now
      simp only [h2, h4]

end

end BeamDesign
