import Verif.Spec.MaterialEq
import Verif.Props.Material
import Verif.Lemmas.Congr
import Verif.Spec.SamplesAS

set_option linter.unusedSectionVars false
set_option linter.unusedSimpArgs false

/-! # C68: equal materials -/

namespace BeamDesign

open Spec

section eq
variable {K : Type} [DecidableEq K]

theorem tvalEq_iff {a b : TVal K} (h : PlainVal a) : a.eq b = true ↔ a = b := by
  cases a <;> cases b <;> simp_all [TVal.eq, PlainVal]

theorem typeEq_iff {a b : TypeVal K} (h : a ≠ .raw .other) : a.eq b = true ↔ a = b := by
  cases a with
  | mat a => cases b <;> simp [TypeVal.eq]
  | raw a =>
    cases b with
    | mat b => simp [TypeVal.eq]
    | raw b =>
      have : PlainVal a := fun e => h (by rw [e])
      simp [TypeVal.eq, tvalEq_iff this]

theorem lookup_of_mem {d : List (String × TVal K)} (hd : (d.map (·.1)).Nodup) {k : String} {v : TVal K}
    (h : (k, v) ∈ d) : d.lookup k = some v := by
  induction d with
  | nil => simp at h
  | cons a d ih =>
    rw [List.map_cons, List.nodup_cons] at hd
    rcases List.mem_cons.1 h with rfl | h
    · simp
    · have hne : k ≠ a.1 := by
        rintro rfl
        exact hd.1 (List.mem_map.2 ⟨_, h, rfl⟩)
      rw [List.lookup_cons, beq_false_of_ne hne]
      exact ih hd.2 h

theorem mem_of_lookup {d : List (String × TVal K)} {k : String} {v : TVal K} (h : d.lookup k = some v) :
    (k, v) ∈ d := by
  induction d with
  | nil => simp at h
  | cons a d ih =>
    rw [List.lookup_cons] at h
    by_cases e : k = a.1
    · subst e
      simp only [beq_self_eq_true] at h
      injection h with h
      subst h
      exact List.mem_cons_self
    · rw [beq_false_of_ne e] at h
      exact List.mem_cons_of_mem _ (ih h)

theorem dictEq_iff {a b : List (String × TVal K)} (ha : PlainDict a) (hb : PlainDict b) :
    dictEq a b = true ↔ ∀ k, a.lookup k = b.lookup k := by
  have hall : dictEq a b = true ↔ a.length = b.length ∧ ∀ kv ∈ a, b.lookup kv.1 = some kv.2 := by
    unfold dictEq
    rw [Bool.and_eq_true, beq_iff_eq, List.all_eq_true]
    refine and_congr Iff.rfl (forall₂_congr fun kv hkv => ?_)
    cases hl : b.lookup kv.1 with
    | none => simp
    | some v =>
      simp only [tvalEq_iff (ha.2 kv hkv), Option.some.injEq]
      exact eq_comm
  rw [hall]
  constructor
  · rintro ⟨hlen, hsub⟩
    have hss : a.map (·.1) ⊆ b.map (·.1) := by
      intro k hk
      obtain ⟨kv, hkv, rfl⟩ := List.mem_map.1 hk
      exact List.mem_map.2 ⟨_, mem_of_lookup (hsub kv hkv), rfl⟩
    have hperm : (a.map (·.1)).Perm (b.map (·.1)) :=
      (List.subperm_of_subset ha.1 hss).perm_of_length_le (by simp [hlen])
    intro k
    cases hl : a.lookup k with
    | some v => exact (hsub _ (mem_of_lookup hl)).symm
    | none =>
      cases hl' : b.lookup k with
      | none => rfl
      | some w =>
        have : k ∈ a.map (·.1) := hperm.mem_iff.2 (List.mem_map.2 ⟨_, mem_of_lookup hl', rfl⟩)
        obtain ⟨kv, hkv, rfl⟩ := List.mem_map.1 this
        rw [lookup_of_mem ha.1 hkv] at hl
        cases hl
  · intro h
    refine ⟨?_, fun kv hkv => by rw [← h, lookup_of_mem ha.1 hkv]⟩
    have hiff : ∀ k, k ∈ a.map (·.1) ↔ k ∈ b.map (·.1) := by
      intro k
      constructor
      · intro hk
        obtain ⟨kv, hkv, rfl⟩ := List.mem_map.1 hk
        have := lookup_of_mem ha.1 hkv
        rw [h] at this
        exact List.mem_map.2 ⟨_, mem_of_lookup this, rfl⟩
      · intro hk
        obtain ⟨kv, hkv, rfl⟩ := List.mem_map.1 hk
        have := lookup_of_mem hb.1 hkv
        rw [← h] at this
        exact List.mem_map.2 ⟨_, mem_of_lookup this, rfl⟩
    have := (List.perm_ext_iff_of_nodup ha.1 hb.1).2 hiff
    simpa using this.length_eq

theorem property_iff {a b : Material K} :
    (∀ k, a.property k = b.property k) ↔ ∀ k, a.properties.lookup k = b.properties.lookup k := by
  refine forall_congr' fun k => ?_
  unfold Material.property
  cases a.properties.lookup k <;> cases b.properties.lookup k <;> simp

/-- C68: two materials are equal iff they have the same type, name and standard and the same value for each
property. -/
theorem C68_eq_iff (m m' : Material K) (h : PlainMaterial m) (h' : PlainMaterial m') :
    m.eq m' = true ↔ SameMaterial m m' := by
  simp only [Material.eq, SameMaterial, Bool.and_eq_true, typeEq_iff h.1, tvalEq_iff h.2.1, tvalEq_iff h.2.2.1,
    dictEq_iff h.2.2.2 h'.2.2.2, property_iff, and_assoc]

/-- C68: equality is an equivalence relation. -/
theorem C68_equivalence (m₁ m₂ m₃ : Material K) (h₁ : PlainMaterial m₁) (h₂ : PlainMaterial m₂)
    (h₃ : PlainMaterial m₃) :
    m₁.eq m₁ = true ∧ (m₁.eq m₂ = true → m₂.eq m₁ = true) ∧
      (m₁.eq m₂ = true → m₂.eq m₃ = true → m₁.eq m₃ = true) := by
  rw [C68_eq_iff m₁ m₁ h₁ h₁, C68_eq_iff m₁ m₂ h₁ h₂, C68_eq_iff m₂ m₁ h₂ h₁, C68_eq_iff m₂ m₃ h₂ h₃,
    C68_eq_iff m₁ m₃ h₁ h₃]
  refine ⟨⟨rfl, rfl, rfl, fun _ => rfl⟩, fun h => ⟨h.1.symm, h.2.1.symm, h.2.2.1.symm, fun k => (h.2.2.2 k).symm⟩,
    fun h h' => ⟨h.1.trans h'.1, h.2.1.trans h'.2.1, h.2.2.1.trans h'.2.2.1,
      fun k => (h.2.2.2 k).trans (h'.2.2.2 k)⟩⟩

theorem lookup_perm {d d' : List (String × TVal K)} (h : d.Perm d') (hd : (d.map (·.1)).Nodup) (k : String) :
    d.lookup k = d'.lookup k := by
  have hd' : (d'.map (·.1)).Nodup := (h.map _).nodup_iff.1 hd
  cases hl : d.lookup k with
  | some v => exact (lookup_of_mem hd' (h.mem_iff.1 (mem_of_lookup hl))).symm
  | none =>
    cases hl' : d'.lookup k with
    | none => rfl
    | some w =>
      rw [lookup_of_mem hd (h.mem_iff.2 (mem_of_lookup hl'))] at hl
      cases hl

theorem plain_filter {d : List (String × TVal K)} (h : PlainDict d) (p : String × TVal K → Bool) :
    PlainDict (d.filter p) :=
  ⟨h.1.sublist (List.filter_sublist.map _), fun kv hkv => h.2 kv (List.mem_of_mem_filter hkv)⟩

theorem plain_perm {d d' : List (String × TVal K)} (h : PlainDict d) (hp : d.Perm d') : PlainDict d' :=
  ⟨(hp.map _).nodup_iff.1 h.1, fun kv hkv => h.2 kv (hp.mem_iff.2 hkv)⟩

/-- C68: the order of the entries of a table in the file does not matter: both orders give equal materials, or raise the
same exception. -/
theorem C68_table_order (d d' : List (String × TVal K)) (h : PlainDict d) (hp : d.Perm d') :
    (∃ m m', Material.ofTable d = .ok m ∧ Material.ofTable d' = .ok m' ∧ PlainMaterial m ∧ PlainMaterial m' ∧
      m.eq m' = true) ∨
    ∃ e, Material.ofTable d = .error e ∧ Material.ofTable d' = .error e := by
  have hl := lookup_perm hp h.1
  have hl1 : ∀ k, (d.filter fun kv => kv.1 != "type").lookup k = (d'.filter fun kv => kv.1 != "type").lookup k :=
    fun k => lookup_perm (hp.filter _) (plain_filter h _).1 k
  have hl2 : ∀ k, ((d.filter fun kv => kv.1 != "type").filter fun kv => kv.1 != "name").lookup k =
      ((d'.filter fun kv => kv.1 != "type").filter fun kv => kv.1 != "name").lookup k :=
    fun k => lookup_perm ((hp.filter _).filter _) (plain_filter (plain_filter h _) _).1 k
  unfold Material.ofTable dictPop
  simp only [← hl, bind, Except.bind]
  cases ht : d.lookup "type" with
  | none => exact Or.inr ⟨_, rfl, rfl⟩
  | some ty =>
    simp only [← hl1]
    cases hn : (d.filter fun kv => kv.1 != "type").lookup "name" with
    | none => exact Or.inr ⟨_, rfl, rfl⟩
    | some nm =>
      simp only [← hl2]
      cases hs : ((d.filter fun kv => kv.1 != "type").filter fun kv => kv.1 != "name").lookup "standard" with
      | none => exact Or.inr ⟨_, rfl, rfl⟩
      | some st =>
        simp only [Material.new, bind, Except.bind]
        cases hty : TypeVal.ofArg ty with
        | error e => exact Or.inr ⟨e, rfl, rfl⟩
        | ok tv =>
          left
          have pty : PlainVal ty := h.2 _ (mem_of_lookup ht)
          have pnm : PlainVal nm := (plain_filter h _).2 _ (mem_of_lookup hn)
          have pst : PlainVal st := (plain_filter (plain_filter h _) _).2 _ (mem_of_lookup hs)
          have ptv : tv ≠ .raw .other := by
            rintro rfl
            cases ty with
            | str s =>
              simp only [TypeVal.ofArg, bind, Except.bind] at hty
              split at hty <;> cases hty
            | num x => cases hty
            | table t => cases hty
            | other => exact pty rfl
          have p1 := plain_filter (plain_filter (plain_filter h fun kv => kv.1 != "type") fun kv => kv.1 != "name")
            fun kv => kv.1 != "standard"
          have hperm := ((hp.filter fun kv => kv.1 != "type").filter fun kv => kv.1 != "name").filter
            fun kv => kv.1 != "standard"
          have p2 := plain_perm p1 hperm
          refine ⟨_, _, rfl, rfl, ⟨ptv, pnm, pst, p1⟩, ⟨ptv, pnm, pst, p2⟩, ?_⟩
          rw [C68_eq_iff _ _ ⟨ptv, pnm, pst, p1⟩ ⟨ptv, pnm, pst, p2⟩]
          exact ⟨rfl, rfl, rfl, property_iff.2 fun k => lookup_perm hperm p1.1 k⟩

end eq

/-! ## Same materials give the same answers -/

section alike
variable {K : Type} [Field K] [LinearOrder K] [IsStrictOrderedRing K] [FloorRing K]

/-- Both values and related, or the same exception. -/
def PyRel {α β : Type} (R : α → β → Prop) : Py α → Py β → Prop
  | .ok a, .ok b => R a b
  | .error e, .error e' => e = e'
  | _, _ => False

theorem pyRel_eq {α : Type} {x y : Py α} : PyRel Eq x y ↔ x = y := by
  cases x <;> cases y <;> simp [PyRel]

theorem pyRel_bind {α β γ δ : Type} {R : α → β → Prop} {Q : γ → δ → Prop} {x : Py α} {y : Py β} (h : PyRel R x y)
    {f : α → Py γ} {g : β → Py δ} (hfg : ∀ a b, R a b → PyRel Q (f a) (g b)) : PyRel Q (x >>= f) (y >>= g) := by
  cases x <;> cases y
  · exact h
  · exact absurd h (by simp [PyRel])
  · exact absurd h (by simp [PyRel])
  · exact hfg _ _ h

theorem pyRel_mapM {α β γ δ : Type} {R : α → β → Prop} {Q : γ → δ → Prop} {f : α → Py γ} {g : β → Py δ}
    {xs : List α} {ys : List β} (h : List.Forall₂ R xs ys) (hfg : ∀ a b, R a b → PyRel Q (f a) (g b)) :
    PyRel (List.Forall₂ Q) (xs.mapM f) (ys.mapM g) := by
  induction h with
  | nil => exact List.Forall₂.nil
  | cons hab _ ih =>
    rw [List.mapM_cons, List.mapM_cons]
    exact pyRel_bind (hfg _ _ hab) fun c d hcd => pyRel_bind ih fun cs ds hcs => List.Forall₂.cons hcd hcs

theorem pyRel_index {α β : Type} {R : α → β → Prop} {xs : List α} {ys : List β} (h : List.Forall₂ R xs ys) (i : ℤ) :
    PyRel R (pyIndex xs i) (pyIndex ys i) := by
  unfold pyIndex
  rw [h.length_eq]
  generalize (if i < 0 then i + (ys.length : ℤ) else i) = j
  by_cases hj : j < 0
  · simp only [if_pos hj]; rfl
  · simp only [if_neg hj]
    have : ∀ n : ℕ, PyRel R (match xs[n]? with | some x => .ok x | none => (.error PyErr.indexError : Py α))
        (match ys[n]? with | some x => .ok x | none => (.error PyErr.indexError : Py β)) := by
      intro n
      induction h generalizing n with
      | nil => simp [PyRel]
      | cons hab _ ih =>
        cases n with
        | zero => exact hab
        | succ n => simpa using ih n
    exact this _

/-- The same radius and material. -/
def SameDSect (d d' : DSect K) : Prop := d.radius = d'.radius ∧ SameMaterial d.material d'.material

theorem factory_same {s s' : Sect K} (h : SameSect s s') : PyRel SameDSect (DSect.factory s) (DSect.factory s') := by
  unfold SameSect at h
  split at h
  · simp [DSect.factory, PyRel]
  · rename_i r m r' m'
    obtain ⟨rfl, hm⟩ := h
    simp only [DSect.factory, hm.1]
    split_ifs
    · exact ⟨rfl, hm⟩
    · rfl
  · simp [DSect.factory, PyRel]
  · simp [DSect.factory, PyRel]
  · exact h.elim

theorem minFy_same {d d' : DSect K} (h : SameDSect d d') : d.minFy = d'.minFy ∧ d.minFu = d'.minFu := by
  have hs : d.strengths = d'.strengths := by
    unfold DSect.strengths DSect.mat
    rw [h.2.2.2.2]
  unfold DSect.minFy DSect.minFu
  rw [hs, h.1]
  exact ⟨rfl, rfl⟩

/-- What positions and loads depend on. -/
def stripE {S : Type} (e : Element K S) : Element K Unit := ⟨e.loads, e.length, ()⟩

theorem strip_eq {b b' : Beam K (Sect K)} (h : SameBeam b b') : b.elements.map stripE = b'.elements.map stripE := by
  unfold SameBeam at h
  generalize b.elements = es at h
  generalize b'.elements = es' at h
  induction h with
  | nil => rfl
  | cons hab _ ih => rw [List.map_cons, List.map_cons, ih, stripE, stripE, hab.1, hab.2.1]

theorem listPositions_same {b b' : Beam K (Sect K)} (h : SameBeam b b') (rt : Rt K) (position : PosArg K)
    (n c : Option ℤ) : b.listPositions rt position n c = b'.listPositions rt position n c := by
  rw [← listPositions_congr (f := stripE) (b := b) (fun _ _ => rfl) c (fun _ _ _ _ => rfl),
    ← listPositions_congr (f := stripE) (b := b') (fun _ _ => rfl) c (fun _ _ _ _ => rfl), strip_eq h]

theorem getLoads_same {b b' : Beam K (Sect K)} (h : SameBeam b b') (rt : Rt K) (c : ℤ) (position : PosArg K)
    (n : Option ℤ) (component : CompArg) :
    b.getLoads rt c position n component = b'.getLoads rt c position n component := by
  rw [← getLoads_congr (f := stripE) (b := b) (fun _ _ => rfl) (fun _ _ _ => rfl),
    ← getLoads_congr (f := stripE) (b := b') (fun _ _ => rfl) (fun _ _ _ => rfl), strip_eq h]

theorem loadCases_same {b b' : Beam K (Sect K)} (h : SameBeam b b') : b.loadCases = b'.loadCases := by
  unfold SameBeam at h
  unfold Beam.loadCases
  cases h' : b.elements <;> cases h'' : b'.elements
  · rfl
  · rw [h', h''] at h; cases h
  · rw [h', h''] at h; cases h
  · rw [h', h''] at h
    cases h with
    | cons hab _ =>
      simp only [Element.loadCases, hab.1]

/-- Objects which differ in the identity of their materials only. -/
structure SameObj (o o' : AS4100 K) : Prop where
  beam : SameOption SameBeam o.beam o'.beam
  ds : List.Forall₂ SameDSect o.dsects o'.dsects
  pts : o.assessmentPoints = o'.assessmentPoints
  phi : o.phiSteel = o'.phiSteel
  au : o.alphaU = o'.alphaU
  kt : o.kt = o'.kt

theorem considered_same {o o' : AS4100 K} (h : SameObj o o') (rt : Rt K) (position : PosArg K) :
    PyRel (List.Forall₂ SameDSect) (o.considered rt position) (o'.considered rt position) := by
  have key : ∀ p n c, PyRel (List.Forall₂ SameDSect) ((o.getDSection rt p n c).map (·.map (·.2)))
      ((o'.getDSection rt p n c).map (·.map (·.2))) := by
    intro p n c
    have hb := h.beam
    unfold AS4100.getDSection
    cases e1 : o.beam <;> cases e2 : o'.beam
    · rfl
    · rw [e1, e2] at hb; exact hb.elim
    · rw [e1, e2] at hb; exact hb.elim
    · rename_i b b'
      rw [e1, e2] at hb
      simp only [listPositions_same hb rt p n c]
      cases b'.listPositions rt p n c with
      | error e => rfl
      | ok locs =>
        have : PyRel (List.Forall₂ fun x y : Num K × DSect K => SameDSect x.2 y.2)
            (locs.mapM fun l => do let d ← pyIndex o.dsects (l.elem : ℤ); return (l.pos, d))
            (locs.mapM fun l => do let d ← pyIndex o'.dsects (l.elem : ℤ); return (l.pos, d)) := by
          refine pyRel_mapM (R := Eq) (List.forall₂_same.2 fun _ _ => rfl) ?_
          rintro l _ rfl
          exact pyRel_bind (pyRel_index h.ds _) fun d d' hd => hd
        simp only [bind, Except.bind] at this ⊢
        revert this
        generalize (locs.mapM fun l => _ : Py (List (Num K × DSect K))) = x
        generalize (locs.mapM fun l => _ : Py (List (Num K × DSect K))) = y
        intro this
        cases x <;> cases y
        · exact this
        · exact this.elim
        · exact this.elim
        · simp only [Except.map, PyRel] at this ⊢
          rw [List.forall₂_map_left_iff, List.forall₂_map_right_iff]
          exact this
  have key' : ∀ p, PyRel (List.Forall₂ SameDSect)
      (do let l ← o.getDSection rt p none none; return l.map (·.2) : Py (List (DSect K)))
      (do let l ← o'.getDSection rt p none none; return l.map (·.2)) := by
    intro p
    have := key p none none
    revert this
    generalize o.getDSection rt p none none = x
    generalize o'.getDSection rt p none none = y
    cases x <;> cases y <;> exact fun h => h
  cases position with
  | none => exact h.ds
  | scalar x => exact key' _
  | list xs => exact key' _

theorem Nty_same {o o' : AS4100 K} (h : SameObj o o') (rt : Rt K) (position : PosArg K) :
    o.Nty rt position = o'.Nty rt position := by
  rw [← pyRel_eq]
  refine pyRel_bind (considered_same h rt position) fun ds ds' hds => ?_
  refine pyRel_bind (R := Eq) ?_ fun a b hab => by rw [hab]; exact pyRel_eq.2 rfl
  have := pyRel_mapM (Q := Eq) (f := fun s : DSect K => (do return s7Nty rt (s.Ag rt) (← s.minFy) : Py K))
    (g := fun s : DSect K => (do return s7Nty rt (s.Ag rt) (← s.minFy) : Py K)) hds ?_
  · rw [List.forall₂_eq_eq_eq] at this
    exact this
  · intro d d' hd
    rw [pyRel_eq]
    simp only [(minFy_same hd).1, DSect.Ag, hd.1]

theorem Ntu_same {o o' : AS4100 K} (h : SameObj o o') (rt : Rt K) (position : PosArg K) :
    o.Ntu rt position = o'.Ntu rt position := by
  rw [← pyRel_eq]
  refine pyRel_bind (considered_same h rt position) fun ds ds' hds => ?_
  refine pyRel_bind (R := Eq) ?_ fun a b hab => by rw [hab]; exact pyRel_eq.2 rfl
  have := pyRel_mapM (Q := Eq) (f := fun s : DSect K => (do return s7Ntu rt (s.An rt) (← s.minFu) o.kt o.alphaU : Py K))
    (g := fun s : DSect K => (do return s7Ntu rt (s.An rt) (← s.minFu) o'.kt o'.alphaU : Py K)) hds ?_
  · rw [List.forall₂_eq_eq_eq] at this
    exact this
  · intro d d' hd
    rw [pyRel_eq]
    simp only [(minFy_same hd).2, DSect.An, hd.1, h.kt, h.au]

theorem alike_of_same {o o' : AS4100 K} (h : SameObj o o') : AnswerAlike o o' := by
  intro rt
  have hNt : ∀ position, o.Nt rt position = o'.Nt rt position := by
    intro position
    unfold AS4100.Nt
    rw [Nty_same h, Ntu_same h]
  have hphi : ∀ position, o.phiNt rt position = o'.phiNt rt position := by
    intro position
    unfold AS4100.phiNt
    rw [hNt, h.phi]
  have hcap : ∀ position, o.tensionCapacity rt position = o'.tensionCapacity rt position := hphi
  have hb := h.beam
  have hten : ∀ c position n, o.getTension rt c position n = o'.getTension rt c position n := by
    intro c position n
    unfold AS4100.getTension
    cases e1 : o.beam <;> cases e2 : o'.beam
    · rfl
    · rw [e1, e2] at hb; exact hb.elim
    · rw [e1, e2] at hb; exact hb.elim
    · rw [e1, e2] at hb
      simp only [getLoads_same hb]
  have hat : ∀ c p, o.utilAt rt c p = o'.utilAt rt c p := by
    intro c p
    unfold AS4100.utilAt
    rw [hcap, hten]
  have hpos : ∀ ps c, o.utilPositions rt ps c = o'.utilPositions rt ps c := by
    intro ps c
    unfold AS4100.utilPositions
    cases ps with
    | some ps => rfl
    | none =>
      cases e1 : o.beam <;> cases e2 : o'.beam
      · rfl
      · rw [e1, e2] at hb; exact hb.elim
      · rw [e1, e2] at hb; exact hb.elim
      · rw [e1, e2] at hb
        simp only [listPositions_same hb, h.pts]
  have hloop : ∀ cs ps, o.utilLoop rt ps cs = o'.utilLoop rt ps cs := by
    intro cs
    induction cs with
    | nil => intro ps; rfl
    | cons c cs ih => intro ps; simp only [AS4100.utilLoop, hpos, hat, ih]
  refine ⟨fun position => ⟨hNt position, Nty_same h rt position, Ntu_same h rt position, hphi position, ?_, ?_,
    hcap position⟩, ?_, hten, ?_⟩
  · unfold AS4100.phiNty; rw [Nty_same h, h.phi]
  · unfold AS4100.phiNtu; rw [Nty_same h, h.phi]
  · intro c position n component
    unfold AS4100.getLoads
    cases e1 : o.beam <;> cases e2 : o'.beam
    · rfl
    · rw [e1, e2] at hb; exact hb.elim
    · rw [e1, e2] at hb; exact hb.elim
    · rw [e1, e2] at hb
      simp only [getLoads_same hb]
  · intro cases' position
    unfold AS4100.tensionUtilisation
    have : o.utilCases cases' = o'.utilCases cases' := by
      unfold AS4100.utilCases
      cases cases' with
      | one c => rfl
      | list cs => rfl
      | none =>
        cases e1 : o.beam <;> cases e2 : o'.beam
        · rfl
        · rw [e1, e2] at hb; exact hb.elim
        · rw [e1, e2] at hb; exact hb.elim
        · rw [e1, e2] at hb
          simp only [loadCases_same hb]
    simp only [this, hloop]

/-- C68: replacing materials by equal ones changes no answer of an AS4100 check: either both objects can be built and
answer alike, or both raise the same exception. -/
theorem C68_same_answers (phi alphaU kt : K) (beam beam' : Option (Beam K (Sect K))) (sect sect' : Option (Sect K))
    (hb : SameOption SameBeam beam beam') (hs : SameOption SameSect sect sect') :
    (∃ o o', AS4100.new phi alphaU kt beam sect = .ok o ∧ AS4100.new phi alphaU kt beam' sect' = .ok o' ∧
      AnswerAlike o o') ∨
    ∃ e, AS4100.new phi alphaU kt beam sect = .error e ∧ AS4100.new phi alphaU kt beam' sect' = .error e := by
  have hsects : List.Forall₂ SameSect (sectionsOf beam sect) (sectionsOf beam' sect') := by
    cases beam <;> cases beam'
    · cases sect <;> cases sect'
      · exact List.Forall₂.nil
      · exact hs.elim
      · exact hs.elim
      · exact List.Forall₂.cons hs List.Forall₂.nil
    · exact hb.elim
    · exact hb.elim
    · simp only [sectionsOf, Beam.sections]
      rw [List.forall₂_map_left_iff, List.forall₂_map_right_iff]
      exact List.Forall₂.imp (fun _ _ h => h.2.2) hb
  have hds := pyRel_mapM hsects fun a b => factory_same
  have main : ∀ r r' : Py (AS4100 K),
      r = (do let ds ← (sectionsOf beam sect).mapM DSect.factory
              return ⟨beam, sect, defaultAssessmentPoints, ds, phi, alphaU, kt⟩) →
      r' = (do let ds ← (sectionsOf beam' sect').mapM DSect.factory
               return ⟨beam', sect', defaultAssessmentPoints, ds, phi, alphaU, kt⟩) →
      (∃ o o', r = .ok o ∧ r' = .ok o' ∧ AnswerAlike o o') ∨ ∃ e, r = .error e ∧ r' = .error e := by
    rintro _ _ rfl rfl
    revert hds
    generalize (sectionsOf beam sect).mapM DSect.factory = x
    generalize (sectionsOf beam' sect').mapM DSect.factory = y
    intro hds
    cases x <;> cases y
    · obtain rfl := (show _ = _ from hds)
      exact Or.inr ⟨_, rfl, rfl⟩
    · exact hds.elim
    · exact hds.elim
    · exact Or.inl ⟨_, _, rfl, rfl, alike_of_same ⟨hb, hds, rfl, rfl, rfl, rfl⟩⟩
  cases beam <;> cases beam'
  · cases sect <;> cases sect'
    · exact Or.inr ⟨_, rfl, rfl⟩
    · exact hs.elim
    · exact hs.elim
    · exact main _ _ rfl rfl
  · exact hb.elim
  · exact hb.elim
  · exact main _ _ rfl rfl

end alike

/-! ## A concrete case -/

namespace Samples

/-- The steel of the samples with its properties in another order. -/
def steel' : Material ℚ := { steel with properties := steel.properties.reverse }

/-- The two rods, the second made of the other object. -/
def rods' : Beam ℚ (Sect ℚ) :=
  ⟨[rodElem 2 (1/100), ⟨[(7, lc)], some (Num.flt 3), .circle (1/50) (some steel')⟩]⟩

theorem steel_plain : PlainMaterial steel ∧ PlainMaterial steel' := by
  refine ⟨⟨by simp [steel], by simp [steel, PlainVal], by simp [steel, PlainVal], by simp [steel], ?_⟩,
    ⟨by simp [steel, steel'], by simp [steel, steel', PlainVal], by simp [steel, steel', PlainVal], by simp [steel, steel'], ?_⟩⟩
  · intro kv hkv
    simp only [steel, List.mem_cons, List.not_mem_nil, or_false] at hkv
    rcases hkv with rfl | rfl <;> simp [PlainVal]
  · intro kv hkv
    simp only [steel', steel, List.reverse_cons, List.reverse_nil, List.nil_append, List.mem_append, List.mem_cons,
      List.not_mem_nil, or_false] at hkv
    rcases hkv with rfl | rfl <;> simp [PlainVal]

theorem steel_same : SameMaterial steel steel' :=
  (C68_eq_iff _ _ steel_plain.1 steel_plain.2).1 (by decide +kernel)

end Samples

open Samples in
/-- Two different objects, equal materials, alike answers. -/
example : steel ≠ steel' ∧ steel.eq steel' = true ∧
    ∃ o o', AS4100.default (some rods) none = .ok o ∧ AS4100.default (some rods') none = .ok o' ∧ AnswerAlike o o' := by
  refine ⟨by decide +kernel, by decide +kernel, ?_⟩
  have hrefl : SameMaterial steel steel := ⟨rfl, rfl, rfl, fun _ => rfl⟩
  have h := C68_same_answers (90 / 100) (85 / 100) 1 (some rods) (some rods') none none
    (.cons ⟨rfl, rfl, rfl, hrefl⟩ (.cons ⟨rfl, rfl, rfl, steel_same⟩ .nil)) trivial
  rcases h with h | ⟨e, he, -⟩
  · exact h
  · have : AS4100.new (90 / 100) (85 / 100) 1 (some rods) none = .ok obj := by decide +kernel
    rw [this] at he
    cases he

/-- A changed strength makes the materials different. -/
example : Samples.steel.eq { Samples.steel with properties := [("E", .num 1)] } = false := by decide +kernel

end BeamDesign
