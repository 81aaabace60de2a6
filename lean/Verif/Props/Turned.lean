import Verif.Lemmas.Cases
import Verif.Props.Columns
import Verif.Spec.Turned
import Verif.Spec.Grid
import Verif.Props.Grid
import Verif.Props.AS4100

/-!
# C149: reversing the sign of loads reverses what is reported, to the last bit
-/

set_option linter.unusedSectionVars false

namespace BeamDesign

open Spec

variable {K : Type} [Field K] [LinearOrder K] [IsStrictOrderedRing K] [FloorRing K]

/-! ## Interpolation -/

section
variable {rt : Rt K} {s : K} (hr : Respects rt s)
include hr

theorem turned_interpGo (x : K) (l : List (K × K)) : ∀ xj yj,
    interpGo rt x (xj, s * yj) (l.map fun q => (q.1, s * q.2)) = s * interpGo rt x (xj, yj) l := by
  induction l with
  | nil => intro xj yj; rfl
  | cons q l ih =>
    intro xj yj
    obtain ⟨x1, y1⟩ := q
    simp only [List.map_cons, interpGo, ih, hr.sub, hr.div, hr.mul, hr.add]
    split_ifs <;> rfl

theorem turned_npInterp (x : K) (l : List (K × K)) :
    npInterp rt none none x (l.map fun q => (q.1, s * q.2)) = (npInterp rt none none x l).map (s * ·) := by
  rcases l with _ | ⟨⟨x0, y0⟩, l⟩
  · rfl
  · have hl : ∀ h, ((x0, s * y0) :: l.map fun q => (q.1, s * q.2)).getLast h
        = ((((x0, y0) :: l).getLast (by simp)).1, s * (((x0, y0) :: l).getLast (by simp)).2) := by
      intro h
      have := List.getLast_map (f := fun q : K × K => (q.1, s * q.2)) (l := (x0, y0) :: l) (by simp)
      simpa using this
    simp only [List.map_cons, npInterp, hl, turned_interpGo hr]
    split_ifs <;> rfl

end

section
variable {rt : Rt K} {σ : LComp → K} {a a' : LoadCase K} {cs : List LComp}

/-- the numbers for the components `cs`, multiplied -/
def turnNums (σ : LComp → K) (cs : List LComp) (l : List K) : List K := List.zipWith (fun c x => σ c * x) cs l

theorem mapM_turned {α β γ : Type} (f : α → Py β) (g : β → γ) (h : α → Py γ) :
    (∀ x, h x = (f x).map g) → ∀ l : List α, l.mapM h = (l.mapM f).map (List.map g) := by
  intro hh l
  induction l with
  | nil => rfl
  | cons x l ih =>
    rw [List.mapM_cons, List.mapM_cons, ih, hh]
    rcases f x with e | y
    · rfl
    · rcases List.mapM f l with e | ys <;> rfl

/-- the values for all components at one position -/
theorem turned_comps (hσ : ∀ c, Respects rt (σ c)) (xi : K) (xp : List K) (f f' : LComp → List K) (hf : ∀ c, f' c = (f c).map (σ c * ·)) :
    ∀ cs : List LComp, (cs.map f').mapM (fun f => npInterp rt none none xi (xp.zip f))
      = ((cs.map f).mapM fun f => npInterp rt none none xi (xp.zip f)).map (turnNums σ cs) := by
  intro cs
  induction cs with
  | nil => rfl
  | cons c cs ih =>
    have h0 : xp.zip (f' c) = (xp.zip (f c)).map fun q => (q.1, σ c * q.2) := by
      rw [hf, List.zip_map_right]
      rfl
    rw [List.map_cons, List.map_cons, List.mapM_cons, List.mapM_cons, ih, h0, turned_npInterp (hσ c)]
    rcases npInterp rt none none xi (xp.zip (f c)) with e | y
    · rfl
    · rcases List.mapM (fun f => npInterp rt none none xi (xp.zip f)) (cs.map f) with e | ys <;> rfl

theorem turned_multiInterp (hσ : ∀ c, Respects rt (σ c)) (xs : Option (List K)) (xp : List K) (f f' : LComp → List K)
    (hf : ∀ c, f' c = (f c).map (σ c * ·)) (cs : List LComp) :
    multiInterp rt xs xp (cs.map f') none none = (multiInterp rt xs xp (cs.map f) none none).map (List.map (turnNums σ cs)) := by
  unfold multiInterp
  rcases xs with _ | _ | ⟨x, xs⟩
  · rfl
  · rfl
  · rcases cs with _ | ⟨c, cs⟩
    · rfl
    · simp only [List.map_cons, reduceCtorEq, if_false]
      rw [← List.map_cons (f := f), ← List.map_cons (f := f')]
      exact mapM_turned _ _ _ (fun xi => turned_comps hσ xi xp f f' hf (c :: cs)) (x :: xs)

theorem turned_positions (h : TurnedCase σ a a') : a'.loadPositions = a.loadPositions := by
  refine columns_positions (cs := []) ?_
  rcases h with h | ⟨t, t', h1, h2, hi, h3⟩
  · exact Or.inl h
  · exact Or.inr ⟨t, t', h1, h2, hi, h3.imp fun _ _ hr => ⟨hr.1, by simp⟩⟩

theorem turned_list (h : TurnedCase σ a a') (n : Option ℤ) (position : PosArg K) :
    a'.listPositions rt n position = a.listPositions rt n position := by
  unfold LoadCase.listPositions
  simp only [turned_positions h]

/-- the rows of the table with each number multiplied -/
theorem turned_rows {l l' : List (LRow K)} (h : List.Forall₂ (fun r r' => r.pos = r'.pos ∧ ∀ c, entry r' c = σ c * entry r c) l l') :
    l' = l.map fun r => ⟨r.pos, σ .VX * r.vx, σ .VY * r.vy, σ .N * r.n, σ .MX * r.mx, σ .MY * r.my, σ .T * r.t⟩ := by
  induction h with
  | nil => rfl
  | @cons r r' l l' hr _ ih =>
    rw [List.map_cons, ← ih]
    congr 1
    obtain ⟨h0, h⟩ := hr
    cases r'
    have h1 := h .VX; have h2 := h .VY; have h3 := h .N; have h4 := h .MX; have h5 := h .MY; have h6 := h .T
    simp only [entry] at h0 h1 h2 h3 h4 h5 h6
    rw [h0, h1, h2, h3, h4, h5, h6]

/-- one row -/
def turnRow (σ : LComp → K) (r : LRow K) : LRow K :=
  ⟨r.pos, σ .VX * r.vx, σ .VY * r.vy, σ .N * r.n, σ .MX * r.mx, σ .MY * r.my, σ .T * r.t⟩

theorem turnRow_get (r : LRow K) (c : LComp) : (turnRow σ r).get c = σ c * r.get c := by cases c <;> rfl

theorem turn_cells (rows rows' : List (Row K)) (dt : DType) (w : ℕ)
    (h : rows' = rows.map fun r => (r.1, turnNums σ cs r.2)) :
    (⟨dt, w, cells rows'⟩ : Tab K) = turnedTab σ cs ⟨dt, w, cells rows⟩ := by
  subst h
  simp only [turnedTab, cells, List.map_map, turnNums]
  congr 1
  refine List.map_congr_left fun r _ => ?_
  simp only [Function.comp, List.zipWith_map_right, List.map_zipWith, Option.map_some]

theorem turn_project (r : LRow K) : (((turnRow σ r).pos, cs.map (turnRow σ r).get) : Row K)
    = ((r.pos, cs.map r.get).1, turnNums σ cs (r.pos, cs.map r.get).2) := by
  refine Prod.ext rfl ?_
  simp only [turnNums]
  induction cs with
  | nil => rfl
  | cons c cs ih => rw [List.map_cons, List.map_cons, List.zipWith_cons_cons, ← ih, turnRow_get]

/-- one kind of position only: nothing has to be sorted -/
theorem turned_simple (hσ : ∀ c, Respects rt (σ c)) (h : TurnedCase σ a a') (position : PosArg K) (n : Option ℤ) (component : CompArg)
    (hc : component.resolve = .ok cs) (hcs : cs ≠ [])
    (hp : ∀ ps t, a.listPositions rt n position = .ok ps → a.loads = some t →
      (ps.map (·.val)).filter (fun p => decide (p ∈ t.rows.map (·.pos))) = [] ∨
      (ps.map (·.val)).filter (fun p => decide (p ∉ t.rows.map (·.pos))) = []) :
    a'.getLoad rt position n component = (a.getLoad rt position n component).map (Option.map (turnedTab σ cs)) := by
  unfold LoadCase.getLoad
  rw [turned_list h]
  rcases hl : a.listPositions rt n position with e | ps
  · rfl
  simp only [bind, Except.bind]
  rcases h with ⟨h1, h2⟩ | ⟨t, t', h1, h2, hi, h3⟩
  · rw [h1, h2]
    simp only [pure, Except.pure, Except.map, Option.map_some, turnedTab, List.map_map]
    congr 2
    rcases cs with _ | ⟨c, cs⟩
    · exact absurd rfl hcs
    · simp [Function.comp_def]
  have hps := hp ps t hl h1
  have h4 : t' = ⟨t.isInt, t.rows.map (turnRow σ)⟩ := by
    cases t'
    simp only at hi h3
    rw [turned_rows h3, hi]
    rfl
  subst h4
  rw [h1, h2]
  have e1 : (t.rows.map (turnRow σ)).map (·.pos) = t.rows.map (·.pos) := by rw [List.map_map]; rfl
  have e2 : ∀ l : List (LRow K), (l.map (turnRow σ)).map (fun r => ((r.pos, cs.map r.get) : Row K))
      = (l.map fun r => ((r.pos, cs.map r.get) : Row K)).map fun r => (r.1, turnNums σ cs r.2) := by
    intro l
    rw [List.map_map, List.map_map]
    exact List.map_congr_left fun r _ => turn_project r
  have e3 : ∀ D : List K, ((t.rows.map (turnRow σ)).filter fun r => decide (r.pos ∈ D))
      = (t.rows.filter fun r => decide (r.pos ∈ D)).map (turnRow σ) := by
    intro D
    rw [List.filter_map]
    rfl
  have e4 : (cs.map fun c => (t.rows.map (turnRow σ)).map fun r => r.get c)
      = cs.map fun c => (t.rows.map fun r => r.get c).map (σ c * ·) := by
    refine List.map_congr_left fun c _ => ?_
    rw [List.map_map, List.map_map]
    exact List.map_congr_left fun r _ => turnRow_get r c
  simp only [hc, e1, e2, e3]
  rw [turned_multiInterp hσ _ _ (fun c => t.rows.map fun r => r.get c) (fun c => (t.rows.map (turnRow σ)).map fun r => r.get c)
    (fun c => by rw [List.map_map, List.map_map]; exact List.map_congr_left fun r _ => turnRow_get r c)]
  generalize (if t.isInt = true then DType.int else DType.flt) = dt
  split_ifs with g1 g2 g3 g4
  · simp only [pure, Except.pure, Except.map, Option.map_some]
    rw [turn_cells _ _ _ _ rfl]
  · rfl
  · simp only [pure, Except.pure, Except.map, Option.map_some]
    rw [turn_cells _ _ _ _ rfl]
  · generalize multiInterp rt _ _ _ none none = m
    rcases m with e | vals
    · rfl
    · simp only [pure, Except.pure, Except.map, Option.map_some]
      rw [turn_cells _ _ _ _ (by rw [List.zip_map_right]; rfl)]
  · rcases hps with hps | hps
    · exact absurd hps g4
    · exact absurd hps g2

theorem turned_sorted {n : Option ℤ} {position : PosArg K} {ps : List (Num K)} (h : a.listPositions rt n position = .ok ps) :
    (ps.map (·.val)).Pairwise (· < ·) := by
  unfold LoadCase.listPositions at h
  split at h
  · cases h
  · cases h
  · cases h
  · split_ifs at h
    rw [← Except.ok.inj h]
    exact sortedSet_sorted _
  · rw [← Except.ok.inj h]
    exact sortedSet_sorted _
  · simp only [bind, Except.bind] at h
    split at h
    · cases h
    split at h
    · cases h
    split_ifs at h
    rw [← Except.ok.inj h]
    exact sortedSet_sorted _

/-- C149, one load case: with every component multiplied by its factor, the answer has every number multiplied by the factor of its
component, at the same positions, in every arithmetic that respects the factors; the errors are the same. -/
theorem C149_load_case (rt : Rt K) (hs : rt.SortOK) (σ : LComp → K) (hσ : ∀ c, Respects rt (σ c)) (a a' : LoadCase K)
    (h : TurnedCase σ a a') (hwf : ∀ t, a.loads = some t → WellFormed t.rows) (position : PosArg K) (n : Option ℤ)
    (component : CompArg) (cs : List LComp) (hc : Asks component cs) (hcs : cs ≠ []) :
    a'.getLoad rt position n component = (a.getLoad rt position n component).map (Option.map (turnedTab σ cs)) := by
  rw [asks_iff] at hc
  by_cases hp : ∀ ps t, a.listPositions rt n position = .ok ps → a.loads = some t →
      (ps.map (·.val)).filter (fun p => decide (p ∈ t.rows.map (·.pos))) = [] ∨
      (ps.map (·.val)).filter (fun p => decide (p ∉ t.rows.map (·.pos))) = []
  · exact turned_simple hσ h position n component hc hcs hp
  push Not at hp
  obtain ⟨ps, t, hl, ht, hd, hi⟩ := hp
  have hl' := turned_list (rt := rt) h n position
  rw [hl] at hl'
  rcases h with ⟨h1, -⟩ | ⟨t0, t', h1, h2, hi', h3⟩
  · rw [h1] at ht; cases ht
  obtain rfl : t0 = t := Option.some.inj (h1.symm.trans ht)
  have h4 : t' = ⟨t0.isInt, t0.rows.map (turnRow σ)⟩ := by
    cases t'
    simp only at hi' h3
    rw [turned_rows h3, hi']
    rfl
  obtain ⟨al⟩ := a
  obtain ⟨al'⟩ := a'
  simp only at ht h1 h2
  subst ht h2
  obtain ⟨isInt, rows⟩ := t0
  subst h4
  have hne : rows ≠ [] := by
    rintro rfl
    simp at hd
  have hps0 : ps ≠ [] := by
    rintro rfl
    simp at hd
  have hsort : (ps.map (·.val)).Pairwise (· < ·) := turned_sorted hl
  have hwf0 := hwf _ rfl
  have hwf' : WellFormed (rows.map (turnRow σ)) := by
    refine ⟨List.pairwise_map.2 hwf0.1, ?_⟩
    intro r hr
    obtain ⟨r0, hr0, rfl⟩ := List.mem_map.1 hr
    exact hwf0.2 r0 hr0
  rw [getLoad_eq hs hwf0 hne hl hsort hps0 hc hcs, getLoad_eq hs hwf' (by simpa using hne) hl' hsort hps0 hc hcs]
  simp only [Except.map, Option.map_some]
  have e1 : (rows.map (turnRow σ)).map (·.pos) = rows.map (·.pos) := by rw [List.map_map]; rfl
  rw [e1, turn_cells]
  rw [List.map_flatMap]
  refine List.flatMap_congr fun p _ => ?_
  unfold block
  rw [e1]
  split_ifs
  · rw [List.filter_map, List.map_map, List.map_map]
    exact List.map_congr_left fun r _ => turn_project r
  · simp only [List.map_cons, List.map_nil, turnNums]
    congr 2
    rw [List.zipWith_map_right]
    have : ∀ c, interpVal rt (rows.map (turnRow σ)) c p = σ c * interpVal rt rows c p := by
      intro c
      have g := npInterp_ok rt (rows := rows.map (turnRow σ)) (by simpa using hne) c p
      have g0 := npInterp_ok rt hne c p
      have e : ((rows.map (turnRow σ)).map fun r => (r.pos, r.get c)) = (rows.map fun r => (r.pos, r.get c)).map fun q => (q.1, σ c * q.2) := by
        rw [List.map_map, List.map_map]
        exact List.map_congr_left fun r _ => by simp only [Function.comp, turnRow_get]; rfl
      rw [e, turned_npInterp (hσ c), g0] at g
      exact (Except.ok.inj g).symm
    simp only [this]
    clear hc hcs
    induction cs with
    | nil => rfl
    | cons c cs ih => rw [List.map_cons, List.zipWith_cons_cons, ← ih]
end

section
variable {S : Type} {rt : Rt K} {σ : LComp → K}

/-- a single position -/
theorem turned_scalar (hσ : ∀ c, Respects rt (σ c)) {a a' : LoadCase K} (h : TurnedCase σ a a') (x : Num K) {component : CompArg}
    {cs : List LComp} (hc : component.resolve = .ok cs) (hcs : cs ≠ []) :
    a'.getLoad rt (.scalar x) none component = (a.getLoad rt (.scalar x) none component).map (Option.map (turnedTab σ cs)) := by
  refine turned_simple hσ h _ none component hc hcs ?_
  intro ps t hl _
  simp only [LoadCase.listPositions] at hl
  split_ifs at hl
  rw [← Except.ok.inj hl, sortedSet_singleton, List.map_singleton]
  by_cases hx : x.val ∈ t.rows.map (·.pos)
  · right; simpa using hx
  · left; simpa using hx

theorem turned_vstack (cs : List LComp) (a t : Tab K) :
    (turnedTab σ cs a).vstack (turnedTab σ cs t) = (a.vstack t).map (turnedTab σ cs) := by
  unfold Tab.vstack
  by_cases h : a.width = t.width
  · rw [if_pos h, if_pos (by exact h)]
    simp only [turnedTab, Except.map, List.map_append]
  · rw [if_neg h, if_neg (by exact h)]
    rfl

theorem turned_setPos (cs : List LComp) (t : Tab K) (p : K) : (turnedTab σ cs t).setPos p = turnedTab σ cs (t.setPos p) := by
  simp only [Tab.setPos, turnedTab, List.map_map]
  rfl

/-- C149, beams: with every component of a load case multiplied by its factor on all elements, `list_positions` is unchanged and
`get_loads` has every number multiplied by the factor of its component, in every arithmetic that respects the factors; for all arguments,
tables of whole numbers, elements without loads and errors included. -/
theorem C149_beam (rt : Rt K) (σ : LComp → K) (hσ : ∀ c, Respects rt (σ c)) (k : ℤ) (b b' : Beam K S) (h : TurnedBeam σ k b b')
    (position : PosArg K) (n : Option ℤ) (component : CompArg) (cs : List LComp) (hc : Asks component cs) (hcs : cs ≠ []) :
    b'.listPositions rt position n (some k) = b.listPositions rt position n (some k) ∧
    b'.getLoads rt k position n component = (b.getLoads rt k position n component).map (Option.map (turnedTab σ cs)) := by
  have hsame : SameComponents [] k b b' := by
    refine h.imp fun e e' g => ⟨g.1, ?_⟩
    rcases g.2 with g | ⟨a, a', g1, g2, g3⟩
    · exact Or.inl g
    · refine Or.inr ⟨a, a', g1, g2, ?_⟩
      rcases g3 with g3 | ⟨t, t', h1, h2, hi, h3⟩
      · exact Or.inl g3
      · exact Or.inr ⟨t, t', h1, h2, hi, h3.imp fun _ _ hr => ⟨hr.1, by simp⟩⟩
  have hlist := (C126_beam rt [] k b b' hsame position n (.list []) rfl).1
  refine ⟨hlist, ?_⟩
  rw [asks_iff] at hc
  unfold Beam.getLoads
  rw [hlist]
  rcases b.listPositions rt position n (some k) with e | locs
  · rfl
  simp only [bind, Except.bind]
  have hstep : ∀ acc l, b'.loadStep rt k component (acc.map (turnedTab σ cs)) l
      = (b.loadStep rt k component acc l).map (Option.map (turnedTab σ cs)) := by
    intro acc l
    obtain ⟨B, h1, h2, h3⟩ := common_source h
    unfold Beam.loadStep
    rw [← h1, ← h2, pyIndex_map, pyIndex_map]
    rcases hB : pyIndex B (l.elem : ℤ) with e | e
    · rfl
    have he : e ∈ B := by
      obtain ⟨j, hj, -⟩ := (pyIndex_ok_iff _ _ _).1 hB
      exact List.mem_of_getElem? hj
    have hg : e.sect.2.getLoads rt k (.scalar l.loc) none component
        = (e.sect.1.getLoads rt k (.scalar l.loc) none component).map (Option.map (turnedTab σ cs)) := by
      unfold Element.getLoads Element.case
      rcases (h3 e he).1.2 with ⟨g1, g2⟩ | ⟨a, a', g1, g2, g3⟩
      · rw [g1, g2]; rfl
      · rw [g1, g2]
        exact turned_scalar hσ g3 l.loc hc hcs
    simp only [bind, Except.bind, hg]
    rcases e.sect.1.getLoads rt k (.scalar l.loc) none component with e1 | _ | t
    · rfl
    · rfl
    · simp only [Except.map, Option.map_some, turned_setPos]
      rcases acc with _ | acc
      · rfl
      · simp only [Option.map_some, turned_vstack]
        rcases acc.vstack (t.setPos l.pos.val) with e2 | r <;> rfl
  have hfold : ∀ (locs : List (Loc K)) acc, locs.foldlM (b'.loadStep rt k component) (acc.map (turnedTab σ cs))
      = (locs.foldlM (b.loadStep rt k component) acc).map (Option.map (turnedTab σ cs)) := by
    intro locs
    induction locs with
    | nil => intro acc; rfl
    | cons l locs ih =>
      intro acc
      rw [List.foldlM_cons, List.foldlM_cons, hstep]
      rcases b.loadStep rt k component acc l with e | acc'
      · rfl
      · exact ih acc'
  exact hfold locs none

/-! ## The signs -/

/-- An arithmetic that rounds without preferring a sign respects a change of sign. -/
theorem respects_neg {rnd : K → K} (hr : RoundsTo rt rnd) : Respects rt (-1) where
  add a b := by rw [hr.add, hr.add, ← mul_add, neg_one_mul, neg_one_mul, hr.neg]
  sub a b := by rw [hr.sub, hr.sub, ← mul_sub, neg_one_mul, neg_one_mul, hr.neg]
  mul a b := by rw [hr.mul, hr.mul, neg_one_mul, neg_one_mul, neg_mul, hr.neg]
  div a b := by rw [hr.div, hr.div, neg_one_mul, neg_one_mul, neg_div, hr.neg]

theorem respects_one : Respects rt 1 := ⟨by simp, by simp, by simp, by simp⟩

/-- C149, the tension: if the axial loads reported are `rows`, then with all loads reversed the tensions reported are the compressions of
before and none where there was tension. -/
theorem C149_tension (rt : Rt K) {rnd : K → K} (hr : RoundsTo rt rnd) (o : AS4100 K) (b b' : Beam K (Sect K)) (hb : o.beam = some b)
    (c : ℤ) (h : TurnedBeam (fun _ => -1) c b b') (position : PosArg K) (n : Option ℤ) (dt : DType) (rows : List (K × K))
    (hl : b.getLoads rt c position n (.name "N") = .ok (some ⟨dt, 1, rows.map fun r => (r.1, [some r.2])⟩)) :
    o.getTension rt c position n = .ok ⟨dt, 1, rows.map fun r => (r.1, [some (if r.2 < 0 then 0 else r.2)])⟩ ∧
    ({o with beam := some b'} : AS4100 K).getTension rt c position n
      = .ok ⟨dt, 1, rows.map fun r => (r.1, [some (if r.2 ≤ 0 then -r.2 else 0)])⟩ := by
  have h1 : o.getLoads rt c position n (.name "N") = .ok (some ⟨dt, 1, rows.map fun r => (r.1, [some r.2])⟩) := by
    rw [← hl]; simp only [AS4100.getLoads, hb]
  refine ⟨C31_get_tension rt o c position n dt rows h1, ?_⟩
  have h2 := (C149_beam rt _ (fun _ => respects_neg hr) c b b' h position n (.name "N") [.N] ⟨.N, rfl, by simp⟩ (by simp)).2
  rw [hl] at h2
  have h3 := C31_get_tension rt ({o with beam := some b'} : AS4100 K) c position n dt (rows.map fun r => (r.1, -r.2)) (by
    simp only [AS4100.getLoads, h2, Except.map, Option.map_some, turnedTab, List.map_map]
    congr 3
    refine List.map_congr_left fun r _ => ?_
    simp)
  rw [h3, List.map_map]
  congr 2
  refine List.map_congr_left fun r _ => ?_
  simp only [Function.comp, Prod.mk.injEq, true_and]
  congr 2
  by_cases hz : r.2 ≤ 0
  · rw [if_neg (by linarith), if_pos hz]
  · rw [if_pos (by linarith [not_le.1 hz]), if_neg hz]

end

/-- C149 on doubles: reversing the sign of any of the components of a load case on all elements of a beam reverses the sign of these
components in what is reported, exactly. -/
theorem C149_doubles {S : Type} (σ : LComp → ℚ) (hσ : ∀ c, σ c = 1 ∨ σ c = -1) (k : ℤ) (b b' : Beam ℚ S) (h : TurnedBeam σ k b b')
    (position : PosArg ℚ) (n : Option ℤ) (component : CompArg) (cs : List LComp) (hc : Asks component cs) (hcs : cs ≠ []) :
    b'.getLoads Rt.binary64 k position n component
      = (b.getLoads Rt.binary64 k position n component).map (Option.map (turnedTab σ cs)) := by
  refine (C149_beam Rt.binary64 σ (fun c => ?_) k b b' h position n component cs hc hcs).2
  rcases hσ c with e | e <;> rw [e]
  · exact respects_one
  · exact respects_neg C83_binary64_rounds

/-! ### A case of C149 -/

section
open Samples

/-- the beam `Samples.rods` with all of its loads reversed -/
def reversedRods : Beam ℚ (Sect ℚ) :=
  ⟨[⟨[(7, ⟨some ⟨false, rows.map (turnRow fun _ => -1)⟩⟩)], some (Num.flt 2), rod (1/100)⟩,
    ⟨[(7, ⟨some ⟨false, rows.map (turnRow fun _ => -1)⟩⟩)], some (Num.flt 3), rod (1/50)⟩]⟩

theorem reversedRods_turned : TurnedBeam (fun _ => -1) 7 rods reversedRods := by
  have h : TurnedCase (fun _ => -1) lc ⟨some ⟨false, rows.map (turnRow fun _ => -1)⟩⟩ := by
    refine Or.inr ⟨⟨false, rows⟩, ⟨false, rows.map (turnRow fun _ => -1)⟩, rfl, rfl, rfl, ?_⟩
    rw [List.forall₂_map_right_iff, List.forall₂_same]
    intro r _
    exact ⟨rfl, fun c => by cases c <;> rfl⟩
  exact .cons ⟨rfl, Or.inr ⟨_, _, rfl, rfl, h⟩⟩ (.cons ⟨rfl, Or.inr ⟨_, _, rfl, rfl, h⟩⟩ .nil)

/-- a compression in the second half of the first rod, and the same number as a tension -/
example : rods.getLoads Rt.binary64 7 (.scalar (Num.flt (11/8))) none (.name "N") = .ok (some ⟨.flt, 1, [(11/8, [some (-5/4)])]⟩) ∧
    reversedRods.getLoads Rt.binary64 7 (.scalar (Num.flt (11/8))) none (.name "N") = .ok (some ⟨.flt, 1, [(11/8, [some (5/4)])]⟩) ∧
    ({obj with beam := some reversedRods} : AS4100 ℚ).getTension Rt.binary64 7 (.scalar (Num.flt (11/8))) none
      = .ok ⟨.flt, 1, [(11/8, [some (5/4)])]⟩ := by
  have h1 : rods.getLoads Rt.binary64 7 (.scalar (Num.flt (11/8))) none (.name "N") = .ok (some ⟨.flt, 1, [(11/8, [some (-5/4)])]⟩) := by
    rw [binary64_eq]
    decide +kernel
  refine ⟨h1, ?_, ?_⟩
  · rw [C149_doubles _ (fun _ => Or.inr rfl) 7 rods reversedRods reversedRods_turned _ none (.name "N") [.N] ⟨.N, rfl, by simp⟩ (by simp), h1]
    decide +kernel
  · rw [(C149_tension Rt.binary64 C83_binary64_rounds obj rods reversedRods rfl 7 reversedRods_turned _ none .flt [(11/8, -5/4)] h1).2]
    decide +kernel

end

end BeamDesign
