import Verif.Spec.UnitChange
import Verif.Spec.Scales
import Verif.Lemmas.Congr
import Verif.Lemmas.Special
import Verif.Lemmas.Cases
import Verif.Spec.SamplesAS

/-! # Property C128: the tension check does not depend on the units -/

set_option linter.unusedSectionVars false
set_option linter.unusedSimpArgs false

namespace BeamDesign

open Spec

section
variable {K : Type} [Field K] [LinearOrder K] [IsStrictOrderedRing K]

@[simp] theorem lengthIn_val (L : K) (x : Num K) : (lengthIn L x).val = L * x.val := rfl
@[simp] theorem lengthIn_isInt (L : K) (x : Num K) : (lengthIn L x).isInt = x.isInt := rfl

/-! ## Numbers and lists -/

theorem mul_neg_iff_of_pos' {L : K} (hL : 0 < L) (x : K) : L * x < 0 ↔ x < 0 := by
  rw [mul_neg_iff]
  exact ⟨fun h => h.elim (·.2) fun h => absurd h.1 hL.not_gt, fun h => .inl ⟨hL, h⟩⟩

theorem pySet_in {L : K} (hL : 0 < L) (xs : List (Num K)) : pySet (xs.map (lengthIn L)) = (pySet xs).map (lengthIn L) := by
  induction xs with
  | nil => rfl
  | cons x xs ih =>
    simp only [List.map_cons, pySet, ih, List.filter_map, lengthIn_val]
    congr 2
    apply List.filter_congr
    intro y _
    simp only [Function.comp, lengthIn_val, ne_eq, mul_right_inj' hL.ne']

theorem pySorted_in {L : K} (hL : 0 < L) (xs : List (Num K)) :
    pySorted (xs.map (lengthIn L)) = (pySorted xs).map (lengthIn L) := by
  have hins : ∀ (x : Num K) (l : List (Num K)),
      List.orderedInsert (fun a b : Num K => a.val ≤ b.val) (lengthIn L x) (l.map (lengthIn L))
        = (List.orderedInsert (fun a b : Num K => a.val ≤ b.val) x l).map (lengthIn L) := by
    intro x l
    induction l with
    | nil => rfl
    | cons y l ih =>
      simp only [List.map_cons, List.orderedInsert, lengthIn_val, mul_le_mul_iff_right₀ hL]
      split_ifs
      · rfl
      · rw [ih]; rfl
  unfold pySorted
  induction xs with
  | nil => rfl
  | cons x xs ih => simp only [List.map_cons, List.insertionSort_cons, ih, hins]

theorem sortedSet_in {L : K} (hL : 0 < L) (xs : List (Num K)) :
    sortedSet (xs.map (lengthIn L)) = (sortedSet xs).map (lengthIn L) := by
  unfold sortedSet
  rw [pySet_in hL, pySorted_in hL]

/-- mapping inside and outside -/
theorem mapM_in {α α' β β' : Type} {g : α → α'} {h : β → β'} {f : α → Py β} {f' : α' → Py β'} (l : List α)
    (hf : ∀ x ∈ l, f' (g x) = (f x).map h) : (l.map g).mapM f' = (l.mapM f).map (List.map h) := by
  rw [← mapM_map_out h l hf]
  exact mapM_map_congr l fun _ _ => rfl

/-! ## Factors every operation passes on -/

theorem Rt.Exact.scales {rt : Rt K} (hx : rt.Exact) {s : K} (hs : s ≠ 0) : Scales rt s where
  add a b := by rw [hx.add, hx.add, mul_add]
  sub a b := by rw [hx.sub, hx.sub, mul_sub]
  mulLeft a b := by rw [hx.mul, hx.mul, mul_assoc]
  mulRight a b := by rw [hx.mul, hx.mul, mul_left_comm]
  divTop a b := by rw [hx.div, hx.div, mul_div_assoc]
  divBoth a b := by rw [hx.div, hx.div, mul_div_mul_left _ _ hs]

namespace Spec.Scales

variable {rt : Rt K} {s t : K}

theorem mul (hs : Scales rt s) (ht : Scales rt t) : Scales rt (s * t) where
  add a b := by rw [mul_assoc, mul_assoc, hs.add, ht.add, mul_assoc]
  sub a b := by rw [mul_assoc, mul_assoc, hs.sub, ht.sub, mul_assoc]
  mulLeft a b := by rw [mul_assoc, hs.mulLeft, ht.mulLeft, mul_assoc]
  mulRight a b := by rw [mul_assoc, hs.mulRight, ht.mulRight, mul_assoc]
  divTop a b := by rw [mul_assoc, hs.divTop, ht.divTop, mul_assoc]
  divBoth a b := by rw [mul_assoc, mul_assoc, hs.divBoth, ht.divBoth]

theorem inv (hs : Scales rt s) (h0 : s ≠ 0) : Scales rt s⁻¹ where
  add a b := by
    have := hs.add (s⁻¹ * a) (s⁻¹ * b)
    rw [mul_inv_cancel_left₀ h0, mul_inv_cancel_left₀ h0] at this
    rw [this, inv_mul_cancel_left₀ h0]
  sub a b := by
    have := hs.sub (s⁻¹ * a) (s⁻¹ * b)
    rw [mul_inv_cancel_left₀ h0, mul_inv_cancel_left₀ h0] at this
    rw [this, inv_mul_cancel_left₀ h0]
  mulLeft a b := by
    have := hs.mulLeft (s⁻¹ * a) b
    rw [mul_inv_cancel_left₀ h0] at this
    rw [this, inv_mul_cancel_left₀ h0]
  mulRight a b := by
    have := hs.mulRight a (s⁻¹ * b)
    rw [mul_inv_cancel_left₀ h0] at this
    rw [this, inv_mul_cancel_left₀ h0]
  divTop a b := by
    have := hs.divTop (s⁻¹ * a) b
    rw [mul_inv_cancel_left₀ h0] at this
    rw [this, inv_mul_cancel_left₀ h0]
  divBoth a b := by
    have := hs.divBoth (s⁻¹ * a) (s⁻¹ * b)
    rw [mul_inv_cancel_left₀ h0, mul_inv_cancel_left₀ h0] at this
    rw [this]

theorem stress (hs : Scales rt s) (ht : Scales rt t) (h0 : s ≠ 0) : Scales rt (t / s ^ 2) := by
  rw [div_eq_mul_inv, pow_two, mul_inv]
  exact ht.mul ((hs.inv h0).mul (hs.inv h0))

theorem factor (hs : Scales rt s) (ht : Scales rt t) (c : LComp) : Scales rt (factorIn s t c) := by
  cases c <;> first | exact ht | exact ht.mul hs

end Spec.Scales

theorem padd_in {rt : Rt K} {L : K} (hx : Scales rt L) (a b : Num K) :
    (lengthIn L a).padd rt (lengthIn L b) = lengthIn L (a.padd rt b) := by
  unfold Num.padd
  simp only [lengthIn_isInt, lengthIn_val, hx.add, ← mul_add]
  split_ifs <;> rfl

theorem psub_in {rt : Rt K} {L : K} (hx : Scales rt L) (a b : Num K) :
    (lengthIn L a).psub rt (lengthIn L b) = lengthIn L (a.psub rt b) := by
  unfold Num.psub
  simp only [lengthIn_isInt, lengthIn_val, hx.sub, ← mul_sub]
  split_ifs <;> rfl

theorem sumFloats_in {rt : Rt K} {L : K} (hx : Scales rt L) (hL : 0 < L) (xs : List (Num K)) : ∀ f c : K,
    sumFloats rt (L * f) (L * c) (xs.map (lengthIn L)) = L * sumFloats rt f c xs := by
  induction xs with
  | nil =>
    intro f c
    simp only [List.map_nil, sumFloats, mul_eq_zero, hL.ne', false_or, hx.add]
    split_ifs <;> rfl
  | cons x xs ih =>
    intro f c
    simp only [List.map_cons, sumFloats, lengthIn_val, lengthIn_isInt, hx.add, hx.sub, abs_mul, abs_of_pos hL,
      mul_le_mul_iff_right₀ hL, ← mul_add, ← mul_sub, ih]
    split_ifs <;> rfl

theorem sumInts_in {rt : Rt K} {L : K} (hx : Scales rt L) (hL : 0 < L) (xs : List (Num K)) : ∀ r : K,
    sumInts rt (L * r) (xs.map (lengthIn L)) = lengthIn L (sumInts rt r xs) := by
  induction xs with
  | nil => intro r; rfl
  | cons x xs ih =>
    intro r
    simp only [List.map_cons, sumInts, lengthIn_val, lengthIn_isInt, hx.add, ← mul_add, ih]
    split_ifs
    · rfl
    · have := sumFloats_in hx hL xs (rt.add r x.val) 0
      rw [mul_zero] at this
      rw [this]; rfl

theorem pySum_in {rt : Rt K} {L : K} (hx : Scales rt L) (hL : 0 < L) (xs : List (Num K)) :
    pySum rt (xs.map (lengthIn L)) = lengthIn L (pySum rt xs) := by
  have hfold : ∀ (xs : List (Num K)) (a : Num K), (xs.map (lengthIn L)).foldl (Num.padd rt) (lengthIn L a)
      = lengthIn L (xs.foldl (Num.padd rt) a) := by
    intro xs
    induction xs with
    | nil => intro a; rfl
    | cons x xs ih => intro a; simp only [List.map_cons, List.foldl_cons, padd_in hx, ih]
  have h0 : (Num.int 0 : Num K) = lengthIn L (Num.int 0) := by unfold lengthIn; simp [Num.int]
  have h1 := sumInts_in hx hL xs 0
  rw [mul_zero] at h1
  unfold pySum
  split
  · rw [h0, hfold, ← h0]
  · exact h1

theorem endsFrom_in {rt : Rt K} {L : K} (hx : Scales rt L) (ls : List (Num K)) : ∀ p : Num K,
    endsFrom rt (lengthIn L p) (ls.map (lengthIn L)) = (endsFrom rt p ls).map fun se => (lengthIn L se.1, lengthIn L se.2) := by
  induction ls with
  | nil => intro p; rfl
  | cons l ls ih => intro p; simp only [List.map_cons, endsFrom, padd_in hx, ih]

theorem endsOf_in {rt : Rt K} {L : K} (hx : Scales rt L) (ls : List (Num K)) :
    endsOf rt (ls.map (lengthIn L)) = (endsOf rt ls).map fun se => (lengthIn L se.1, lengthIn L se.2) := by
  cases ls with
  | nil => rfl
  | cons l ls =>
    simp only [List.map_cons, endsOf, endsFrom_in hx]
    congr 2
    unfold lengthIn; simp [Num.flt]

theorem inEnds_in {L : K} (hL : 0 < L) (p : K) (ends : List (Num K × Num K)) :
    inEnds (L * p) (ends.map fun se => (lengthIn L se.1, lengthIn L se.2)) = inEnds p ends := by
  unfold inEnds
  rw [List.length_map]
  apply List.filter_congr
  intro i _
  rw [List.getElem?_map]
  rcases ends[i]? with _ | se
  · rfl
  · simp only [Option.map_some, lengthIn_val, mul_le_mul_iff_right₀ hL]

theorem linspace_in {rt : Rt K} {L : K} (hx : Scales rt L) (hL : 0 < L) (l : K) (n : ℤ) :
    linspace rt 0 (L * l) n = (linspace rt 0 l n).map (List.map (L * ·)) := by
  unfold linspace
  split_ifs with h0
  · rfl
  have hs : rt.sub (L * l) 0 = L * rt.sub l 0 := by rw [← hx.sub, mul_zero]
  have ha : ∀ a, rt.add (L * a) 0 = L * rt.add a 0 := fun a => by rw [← hx.add, mul_zero]
  simp only [hs, ha, hx.mulRight, hx.divTop, Except.map, List.map_map, mul_eq_zero, hL.ne', false_or]
  congr 1
  apply List.map_congr_left
  intro i _
  simp only [Function.comp]
  split_ifs <;> rfl

/-! ## Positions -/

section
variable {S S' : Type} {rt : Rt K} {b : Beam K S} {f : Element K S → Element K S'} {L : K}

/-- the located positions in other units -/
def locIn (L : K) (l : Loc K) : Loc K := ⟨lengthIn L l.pos, l.elem, l.loc⟩

theorem listPositions_in (hx : Scales rt L) (hL : 0 < L) (hlen : ∀ e ∈ b.elements, (f e).len = e.len.map (lengthIn L))
    (c : Option ℤ) (hpos : ∀ e ∈ b.elements, ∀ k, c = some k → (f e).loadPositions k = e.loadPositions k)
    (position : PosArg K) (n : Option ℤ) :
    (⟨b.elements.map f⟩ : Beam K S').listPositions rt (positionIn L position) n c
      = (b.listPositions rt position n c).map (List.map (locIn L)) := by
  have h1 : (⟨b.elements.map f⟩ : Beam K S').lengths = b.lengths.map (List.map (lengthIn L)) := mapM_in _ hlen
  have h2 : (⟨b.elements.map f⟩ : Beam K S').elementEnds rt
      = (b.elementEnds rt).map (List.map fun se => (lengthIn L se.1, lengthIn L se.2)) := by
    unfold Beam.elementEnds; rw [h1]
    rcases b.lengths with e | ls
    · rfl
    · simp only [Except.map, bind, Except.bind, endsOf_in hx]; rfl
  have h3 : (⟨b.elements.map f⟩ : Beam K S').length rt = (b.length rt).map (lengthIn L) := by
    unfold Beam.length; rw [h1]
    rcases b.lengths with e | ls
    · rfl
    · simp only [Except.map, bind, Except.bind, pySum_in hx hL]; rfl
  have h4 : ∀ p, (⟨b.elements.map f⟩ : Beam K S').inElements rt (lengthIn L p) = b.inElements rt p := by
    intro p; unfold Beam.inElements; rw [h2]
    rcases b.elementEnds rt with e | ls
    · rfl
    · simp only [Except.map, bind, Except.bind, lengthIn_val, inEnds_in hL]
  have h5 : ∀ i, (⟨b.elements.map f⟩ : Beam K S').getElementStartEnd rt i
      = (b.getElementStartEnd rt i).map fun se => (lengthIn L se.1, lengthIn L se.2) := by
    intro i; unfold Beam.getElementStartEnd; rw [h2]
    rcases b.elementEnds rt with e | ls
    · rfl
    · simp only [Except.map, bind, Except.bind, pyIndex_map]
      rcases pyIndex ls i with e | se <;> rfl
  have hidx : ∀ {e i}, pyIndex b.elements i = .ok e → e ∈ b.elements := by
    intro e i h
    obtain ⟨j, hj, -⟩ := (pyIndex_ok_iff _ _ _).1 h
    exact List.mem_of_getElem? hj
  have h6 : ∀ p i, (⟨b.elements.map f⟩ : Beam K S').localToBeam rt p i = (b.localToBeam rt p i).map (lengthIn L) := by
    intro p i
    unfold Beam.localToBeam
    rw [h5]
    simp only [pyIndex_map]
    split_ifs
    · rfl
    rcases b.getElementStartEnd rt i with e | se
    · rfl
    simp only [Except.map, bind, Except.bind]
    rcases hp : pyIndex b.elements i with e | e
    · rfl
    · simp only [hlen e (hidx hp)]
      rcases e.len with e' | l
      · rfl
      · simp only [Except.map]
        have : p.pmul rt (lengthIn L l) = lengthIn L (p.pmul rt l) := by
          unfold Num.pmul
          simp only [lengthIn_isInt, lengthIn_val, hx.mulRight, mul_left_comm p.val L]
          split_ifs <;> rfl
        rw [this, padd_in hx]
        rfl
  have h7 : ∀ p i, (⟨b.elements.map f⟩ : Beam K S').beamToLocal rt (lengthIn L p) i = b.beamToLocal rt p i := by
    intro p i
    unfold Beam.beamToLocal
    rw [h5]
    simp only [pyIndex_map, bind, Except.bind]
    rcases b.getElementStartEnd rt i with e | se
    · rfl
    simp only [Except.map]
    rcases hp : pyIndex b.elements i with e | e
    · rfl
    · simp only [hlen e (hidx hp)]
      rcases e.len with e' | l
      · rfl
      · simp only [Except.map, psub_in hx, lengthIn_val, mul_lt_mul_iff_right₀ hL, mul_eq_zero, hL.ne', false_or,
          mul_neg_iff_of_pos' hL]
        have : ((lengthIn L (p.psub rt se.1)).pdiv rt (lengthIn L l)) = (p.psub rt se.1).pdiv rt l := by
          unfold Num.pdiv
          simp only [lengthIn_val, hx.divBoth]
        rw [this]
  have h8 : ∀ e ∈ b.elements, ∀ i,
      (⟨b.elements.map f⟩ : Beam K S').realPositions rt c i (f e) = (b.realPositions rt c i e).map (List.map (lengthIn L)) := by
    intro e he i
    unfold Beam.realPositions
    rcases c with _ | k
    · exact mapM_map_out _ _ fun p _ => h6 p i
    · simp only [hpos e he k rfl, bind, Except.bind]
      rcases e.loadPositions k with e' | lp
      · rfl
      · exact mapM_map_out _ _ fun p _ => h6 p i
  have h9 : ∀ ps, (⟨b.elements.map f⟩ : Beam K S').checkPositions rt (ps.map (lengthIn L)) = b.checkPositions rt ps := by
    intro ps
    induction ps with
    | nil => rfl
    | cons p ps ih =>
      simp only [List.map_cons, Beam.checkPositions, h3, ih, lengthIn_val, mul_neg_iff_of_pos' hL]
      split_ifs
      · rfl
      rcases b.length rt with e | l
      · rfl
      · simp only [Except.map, bind, Except.bind, lengthIn_val, mul_lt_mul_iff_right₀ hL]
  have h10 : (⟨b.elements.map f⟩ : Beam K S').positionList rt (positionIn L position) n c
      = (b.positionList rt position n c).map (List.map (lengthIn L)) := by
    have hz : ((b.elements.map f).zipIdx).mapM
          (fun ei => (⟨b.elements.map f⟩ : Beam K S').realPositions rt c ei.2 ei.1) =
        ((b.elements.zipIdx).mapM fun ei => b.realPositions rt c ei.2 ei.1).map (List.map (List.map (lengthIn L))) := by
      rw [List.zipIdx_map]
      refine mapM_in _ ?_
      rintro ⟨e, i⟩ hx
      exact h8 e (List.fst_mem_of_mem_zipIdx hx) i
    rcases position with _ | x | xs <;> rcases n with _ | n
    · rfl
    · simp only [positionIn, Beam.positionList, h2, h3, hz, bind, Except.bind]
      rcases b.length rt with e | l
      · rfl
      simp only [Except.map, lengthIn_val, linspace_in hx hL]
      rcases linspace rt 0 l.val n with e | lin
      · rfl
      simp only [Except.map]
      rcases b.elementEnds rt with e | ends
      · rfl
      simp only [Except.map]
      generalize (b.elements.zipIdx).mapM (fun ei => b.realPositions rt c ei.2 ei.1) = real
      rcases real with e | real
      · rfl
      simp only [Except.map, pure, Except.pure]
      rw [← sortedSet_in hL]
      congr 2
      simp only [List.map_append, List.map_flatten, List.map_map, List.flatMap_map, List.map_flatMap]
      rfl
    · simp only [positionIn, Beam.positionList, lengthIn_isInt]
      by_cases hi : x.isInt = true
      · simp only [hi, if_true]; rfl
      simp only [hi, if_false, Bool.false_eq_true]
      have := h9 [x]
      rw [List.map_cons, List.map_nil] at this
      rw [this]
      rcases b.checkPositions rt [x] with e | _
      · rfl
      · simp only [bind, Except.bind, Except.map, pure, Except.pure]
        rw [← sortedSet_in hL]; rfl
    · rfl
    · simp only [positionIn, Beam.positionList]
      rw [h9]
      rcases b.checkPositions rt xs with e | _
      · rfl
      · simp only [bind, Except.bind, Except.map, pure, Except.pure]
        rw [← sortedSet_in hL]
    · rfl
  have h11 : ∀ p i, (⟨b.elements.map f⟩ : Beam K S').locate rt c (lengthIn L p) i
      = (b.locate rt c p i).map (List.map (locIn L)) := by
    intro p i
    unfold Beam.locate
    simp only [pyIndex_map, bind, Except.bind]
    rcases hp : pyIndex b.elements (i : ℤ) with e | e
    · rfl
    · simp only [hlen e (hidx hp), h7]
      rcases e.len with e' | l
      · rfl
      simp only [Except.map, lengthIn_val, mul_eq_zero, hL.ne', false_or]
      split_ifs
      · rcases c with _ | k
        · simp only [List.map_cons, List.map_nil]; rfl
        · simp only [hpos e (hidx hp) k rfl]
          rcases e.loadPositions k with e' | lp
          · rfl
          simp only
          rcases zeroLengthPositions rt lp with e' | lp
          · rfl
          · simp only [pure, Except.pure, List.map_map]; rfl
      · rcases b.beamToLocal rt p i with e' | l
        · rfl
        · rfl
  unfold Beam.listPositions
  rw [h10]
  rcases b.positionList rt position n c with e | ps
  · rfl
  simp only [Except.map, bind, Except.bind]
  have := mapM_in (g := lengthIn L) (h := List.map (locIn L)) (f := fun p => do
      let es ← b.inElements rt p
      let ls ← es.mapM fun i => b.locate rt c p i
      return ls.flatten) (f' := fun p => do
      let es ← (⟨b.elements.map f⟩ : Beam K S').inElements rt p
      let ls ← es.mapM fun i => (⟨b.elements.map f⟩ : Beam K S').locate rt c p i
      return ls.flatten) ps (by
    intro p _
    simp only [h4]
    rcases b.inElements rt p with e | es
    · rfl
    simp only [bind, Except.bind]
    rw [mapM_map_out (List.map (locIn L)) (f := fun i => b.locate rt c p i) es fun i _ => h11 p i]
    generalize es.mapM (fun i => b.locate rt c p i) = ls
    rcases ls with e | ls
    · rfl
    · simp only [Except.map, pure, Except.pure, List.map_flatten])
  simp only [bind, Except.bind] at this
  rw [this]
  generalize (List.mapM _ ps : Py (List (List (Loc K)))) = r
  rcases r with e | r
  · rfl
  · simp only [Except.map, pure, Except.pure, List.map_flatten]

end

/-! ## Loads -/

@[simp] theorem rowIn_pos (L F : K) (r : LRow K) : (rowIn L F r).pos = r.pos := rfl

theorem rowIn_get (L F : K) (r : LRow K) (c : LComp) : (rowIn L F r).get c = factorIn L F c * r.get c := by cases c <;> rfl

/-- the values of a result array in other units, positions as they are -/
def valuesIn (L F : K) (cs : List LComp) (t : Tab K) : Tab K :=
  { t with rows := t.rows.map fun r => (r.1, cellsIn L F cs r.2) }

theorem cellsIn_none (L F : K) (cs : List LComp) : cellsIn L F cs [none] = [none] := by
  cases cs with
  | nil => rfl
  | cons c cs => cases cs <;> rfl

theorem cellsIn_some (L F : K) (cs : List LComp) (g : LComp → K) :
    cellsIn L F cs (cs.map fun c => some (g c)) = cs.map fun c => some (factorIn L F c * g c) := by
  induction cs with
  | nil => rfl
  | cons c cs ih => simp only [List.map_cons, cellsIn, ih, Option.map_some]

theorem npInterp_in {rt : Rt K} {k : K} (hx : Scales rt k) (x : K) (l : List (K × K)) :
    npInterp rt none none x (l.map fun r => (r.1, k * r.2)) = (npInterp rt none none x l).map (k * ·) := by
  have hgo : ∀ (l : List (K × K)) (a : K × K),
      interpGo rt x (a.1, k * a.2) (l.map fun r => (r.1, k * r.2)) = k * interpGo rt x a l := by
    intro l
    induction l with
    | nil => intro a; rfl
    | cons r l ih =>
      intro a
      simp only [List.map_cons, interpGo]
      split_ifs
      · exact ih r
      · rfl
      · simp only [hx.sub, hx.divTop, hx.mulLeft, hx.add]
  cases l with
  | nil => rfl
  | cons a l =>
    have hlast : (((a.1, k * a.2) :: l.map fun r => (r.1, k * r.2)).getLast (by simp)) =
        (((a :: l).getLast (by simp)).1, k * ((a :: l).getLast (by simp)).2) :=
      List.getLast_map (f := fun r : K × K => (r.1, k * r.2)) (l := a :: l) (by simp)
    simp only [List.map_cons, npInterp, hlast, Option.getD_none]
    split_ifs
    · rfl
    · rfl
    · simp only [Except.map, hgo l a]

theorem interps_in {rt : Rt K} {L F : K} (hx : Scales rt L) (hf : Scales rt F) (x : K) (rows : List (LRow K)) (cs : List LComp) :
    (cs.map fun c => (rows.map (rowIn L F)).map fun r => r.get c).mapM
        (fun f => npInterp rt none none x (((rows.map (rowIn L F)).map (·.pos)).zip f))
      = ((cs.map fun c => rows.map fun r => r.get c).mapM fun f => npInterp rt none none x ((rows.map (·.pos)).zip f)).map
          fun vs => List.zipWith (fun c v => factorIn L F c * v) cs vs := by
  have hpos : (rows.map (rowIn L F)).map (·.pos) = rows.map (·.pos) := by rw [List.map_map]; rfl
  induction cs with
  | nil => rfl
  | cons c cs ih =>
    have h1 : (rows.map (·.pos)).zip ((rows.map (rowIn L F)).map fun r => r.get c)
        = ((rows.map (·.pos)).zip (rows.map fun r => r.get c)).map fun r => (r.1, factorIn L F c * r.2) := by
      rw [List.map_map, show ((fun r : LRow K => r.get c) ∘ rowIn L F) = (fun v => factorIn L F c * v) ∘ (fun r => r.get c) from
        funext fun r => rowIn_get L F r c, ← List.map_map, List.zip_map_right]
      rfl
    rw [hpos] at ih ⊢
    simp only [List.map_cons, List.mapM_cons, bind, Except.bind, h1, npInterp_in (hx.factor hf c), ih]
    generalize npInterp rt none none x ((rows.map (·.pos)).zip (rows.map fun r => r.get c)) = v
    rcases v with e | v
    · rfl
    simp only [Except.map]
    generalize (List.mapM _ _ : Py (List K)) = r
    rcases r with e | vs <;> rfl

theorem mapM_length' {α β : Type} {f : α → Py β} : ∀ (l : List α) {bs : List β}, l.mapM f = .ok bs → bs.length = l.length
  | [], bs, h => by cases h; rfl
  | a :: l, bs, h => by
    simp only [List.mapM_cons, bind, Except.bind] at h
    rcases hfa : f a with e | v
    · rw [hfa] at h; cases h
    rw [hfa] at h
    simp only at h
    rcases hm : l.mapM f with e | vs
    · rw [hm] at h; cases h
    rw [hm] at h
    cases h
    simp [mapM_length' l hm]

theorem cellsIn_zip (L F : K) : ∀ (cs : List LComp) (vs : List K), vs.length = cs.length →
    cellsIn L F cs (vs.map some) = (List.zipWith (fun c v => factorIn L F c * v) cs vs).map some
  | [], [], _ => rfl
  | c :: cs, v :: vs, h => by
    simp only [List.map_cons, cellsIn, List.zipWith_cons_cons, Option.map_some,
      cellsIn_zip L F cs vs (by simpa using h)]

/-- `get_load` at one position -/
theorem getLoad_in {rt : Rt K} {L F : K} (hx : Scales rt L) (hf : Scales rt F) (lc : LoadCase K) (x : Num K) {component : CompArg} {cs : List LComp}
    (hc : component.resolve = .ok cs) :
    (loadsIn L F lc).getLoad rt (.scalar x) none component
      = (lc.getLoad rt (.scalar x) none component).map (Option.map (valuesIn L F cs)) := by
  unfold LoadCase.getLoad LoadCase.listPositions
  simp only
  by_cases hi : x.isInt = true
  · simp only [hi, if_true]; rfl
  simp only [hi, if_false, Bool.false_eq_true, bind, Except.bind, sortedSet_singleton]
  rcases lc with ⟨_ | ⟨isInt, rows⟩⟩
  · simp only [loadsIn, Option.map_none, pure, Except.pure, Except.map, Option.map_some, valuesIn, List.map_cons, List.map_nil,
      cellsIn_none]
  have hpos : (rows.map (rowIn L F)).map (·.pos) = rows.map (·.pos) := by rw [List.map_map]; rfl
  have hcells : ∀ rs : List (LRow K), cells ((rs.map (rowIn L F)).map fun r => ((r.pos, cs.map r.get) : Row K))
      = (cells (rs.map fun r => ((r.pos, cs.map r.get) : Row K))).map fun r => (r.1, cellsIn L F cs r.2) := by
    intro rs
    unfold cells
    simp only [List.map_map]
    apply List.map_congr_left
    intro r _
    simp only [Function.comp, List.map_map, rowIn_pos]
    congr 1
    rw [show (some ∘ r.get) = fun c => some (r.get c) from rfl, cellsIn_some]
    apply List.map_congr_left
    intro c _
    simp only [Function.comp, rowIn_get]
  have hfil : ∀ ps : List K, (rows.map (rowIn L F)).filter (fun r => decide (r.pos ∈ ps))
      = (rows.filter fun r => decide (r.pos ∈ ps)).map (rowIn L F) := by
    intro ps; rw [List.filter_map]; rfl
  simp only [loadsIn, Option.map_some, hc, hpos, hfil, hcells, List.map_cons, List.map_nil, List.filter_cons, List.filter_nil]
  by_cases hs : [x.val] = (sortedSet ((rows.map (·.pos)).map Num.flt)).map (·.val)
  · simp only [hs, if_true]; rfl
  simp only [hs, if_false]
  by_cases hm : x.val ∈ rows.map (·.pos)
  · simp only [hm, decide_true, if_true, not_true, decide_false, if_false, Bool.false_eq_true]
    rfl
  · simp only [hm, decide_true, if_true, not_false_eq_true, decide_false, if_false, Bool.false_eq_true]
    unfold multiInterp
    by_cases hcs : cs = []
    · subst hcs
      simp only [List.map_nil, if_true, List.cons_ne_nil, if_false]
      rfl
    have hn : ∀ g : LComp → List K, cs.map g ≠ [] := fun g h => hcs (List.map_eq_nil_iff.1 h)
    simp only [hn, if_false, List.mapM_cons, List.mapM_nil, bind, Except.bind, pure, Except.pure, List.cons_ne_nil, if_true]
    have := interps_in hx hf x.val rows cs
    rw [hpos] at this
    rw [this]
    rcases hv : (cs.map fun c => rows.map fun r => r.get c).mapM fun f =>
        npInterp rt none none x.val ((rows.map (·.pos)).zip f) with e | vs
    · simp only [hv]; rfl
    simp only [hv, Except.map, Option.map_some, valuesIn, cells, List.zip_cons_cons, List.zip_nil_left, List.zip_nil_right,
      List.map_cons, List.map_nil]
    rw [cellsIn_zip]
    rw [mapM_length' _ hv, List.length_map]

theorem lookup_map {β γ : Type} (g : β → γ) (l : List (ℤ × β)) (c : ℤ) :
    (l.map fun p => (p.1, g p.2)).lookup c = (l.lookup c).map g := by
  induction l with
  | nil => rfl
  | cons p l ih =>
    obtain ⟨k, v⟩ := p
    simp only [List.map_cons, List.lookup_cons]
    split <;> simp_all

theorem case_in (L F : K) (e : Element K (Sect K)) (c : ℤ) : (elementIn L F e).case c = (e.case c).map (loadsIn L F) := by
  unfold Element.case elementIn
  simp only [lookup_map]
  cases e.loads.lookup c <;> rfl

theorem loadPositions_in (L F : K) (e : Element K (Sect K)) (c : ℤ) : (elementIn L F e).loadPositions c = e.loadPositions c := by
  unfold Element.loadPositions
  rw [case_in]
  rcases e.case c with er | lc
  · rfl
  · rcases lc with ⟨_ | t⟩
    · rfl
    · simp only [Except.map, bind, Except.bind, LoadCase.loadPositions, loadsIn, Option.map_some, List.map_map]; rfl

theorem len_in (L F : K) (e : Element K (Sect K)) : (elementIn L F e).len = e.len.map (lengthIn L) := by
  unfold Element.len elementIn
  simp only
  cases e.length <;> rfl

theorem listPositions_units {rt : Rt K} {L : K} (hx : Scales rt L) (hL : 0 < L) (F : K) (b : Beam K (Sect K)) (c : Option ℤ)
    (position : PosArg K) (n : Option ℤ) :
    (beamIn L F b).listPositions rt (positionIn L position) n c = (b.listPositions rt position n c).map (List.map (locIn L)) :=
  listPositions_in hx hL (fun e _ => len_in L F e) c (fun e _ k _ => loadPositions_in L F e k) position n

end

section
variable {K : Type} [Field K] [LinearOrder K] [IsStrictOrderedRing K] [FloorRing K]

/-- two results: the same values, and the same positions if `P` -/
def SameIn (P : Prop) (L F : K) (cs : List LComp) (t t' : Tab K) : Prop :=
  t'.dt = t.dt ∧ t'.width = t.width ∧ t'.rows.map (·.2) = t.rows.map (fun r => cellsIn L F cs r.2) ∧
    (P → t'.rows.map (·.1) = t.rows.map fun r => L * r.1)

/-- the same for what may be `None` -/
def SameOpt (P : Prop) (L F : K) (cs : List LComp) : Option (Tab K) → Option (Tab K) → Prop
  | none, none => True
  | some t, some t' => SameIn P L F cs t t'
  | _, _ => False

/-- the same for what may be an exception -/
def SamePy {α β : Type} (R : α → β → Prop) : Py α → Py β → Prop
  | .error e, .error e' => e = e'
  | .ok a, .ok b => R a b
  | _, _ => False

theorem getLoad_notInt {rt : Rt K} {lc : LoadCase K} {x : Num K} {component : CompArg} {t : Tab K}
    (h : lc.getLoad rt (.scalar x) none component = .ok (some t)) (hf : ∀ tb, lc.loads = some tb → tb.isInt = false) :
    t.dt ≠ .int := by
  unfold LoadCase.getLoad at h
  simp only [bind, Except.bind] at h
  generalize LoadCase.listPositions rt lc none (.scalar x) = ps at h
  rcases ps with e | ps
  · cases h
  simp only at h
  rcases lc with ⟨_ | ⟨isInt, rows⟩⟩
  · cases h; simp
  have hi : isInt = false := hf _ rfl
  subst hi
  simp only at h
  generalize component.resolve = cs at h
  rcases cs with e | cs
  · cases h
  simp only [Bool.false_eq_true, if_false] at h
  split_ifs at h
  · cases h; simp
  · cases h
  · cases h; simp
  · generalize multiInterp rt _ _ _ none none = v at h
    rcases v with e | v
    · cases h
    · cases h; simp
  · generalize multiInterp rt _ _ _ none none = v at h
    rcases v with e | v
    · cases h
    · cases h; simp

theorem getLoads_in {rt : Rt K} {L F : K} (hx : Scales rt L) (hf : Scales rt F) (hL : 0 < L) (b : Beam K (Sect K)) (c : ℤ) {P : Prop}
    (hP : P → FloatTables b) (position : PosArg K) (n : Option ℤ) {component : CompArg} {cs : List LComp}
    (hc : component.resolve = .ok cs) :
    SamePy (SameOpt P L F cs) (b.getLoads rt c position n component)
      ((beamIn L F b).getLoads rt c (positionIn L position) n component) := by
  unfold Beam.getLoads
  rw [listPositions_units hx hL]
  rcases b.listPositions rt position n (some c) with e | locs
  · exact rfl
  simp only [Except.map, bind, Except.bind]
  have hfold : ∀ (locs : List (Loc K)) (a a' : Option (Tab K)), SameOpt P L F cs a a' →
      SamePy (SameOpt P L F cs) (locs.foldlM (b.loadStep rt c component) a)
        ((locs.map (locIn L)).foldlM ((beamIn L F b).loadStep rt c component) a') := by
    intro locs
    induction locs with
    | nil => intro a a' h; exact h
    | cons l locs ih =>
      intro a a' h
      simp only [List.map_cons, List.foldlM_cons]
      have hstep : SamePy (SameOpt P L F cs) (b.loadStep rt c component a l)
          ((beamIn L F b).loadStep rt c component a' (locIn L l)) := by
        unfold Beam.loadStep
        simp only [beamIn, pyIndex_map, locIn, bind, Except.bind]
        rcases hp : pyIndex b.elements (l.elem : ℤ) with er | e
        · exact rfl
        simp only [Except.map, Element.getLoads, case_in, bind, Except.bind]
        rcases hcase : e.case c with er | lc
        · exact rfl
        simp only [Except.map, getLoad_in hx hf lc l.loc hc]
        rcases hg : lc.getLoad rt (.scalar l.loc) none component with er | (_ | t)
        · exact rfl
        · exact rfl
        simp only [Except.map, Option.map_some]
        have hset : SameIn P L F cs (t.setPos l.pos.val) ((valuesIn L F cs t).setPos (lengthIn L l.pos).val) := by
          refine ⟨rfl, rfl, ?_, ?_⟩
          · simp only [Tab.setPos, valuesIn, List.map_map]; rfl
          · intro hp'
            have he : e ∈ b.elements := by
              obtain ⟨j, hj, -⟩ := (pyIndex_ok_iff _ _ _).1 hp
              exact List.mem_of_getElem? hj
            have hl : e.loads.lookup c = some lc := by
              unfold Element.case at hcase
              split at hcase
              · rename_i h; rw [h]; cases hcase; rfl
              · cases hcase
            have hdt := getLoad_notInt hg fun tb htb => hP hp' e he c lc tb hl htb
            simp only [Tab.setPos, valuesIn, List.map_map, hdt, if_false]; rfl
        rcases a with _ | a <;> rcases a' with _ | a'
        · exact hset
        · exact h.elim
        · exact h.elim
        · simp only [Tab.vstack]
          obtain ⟨s1, s2, s3, s4⟩ := h
          obtain ⟨u1, u2, u3, u4⟩ := hset
          rw [s1, s2, u1, u2]
          split_ifs with hw
          · refine ⟨rfl, rfl, ?_, fun hp => ?_⟩
            · simp only [List.map_append, s3, u3]
            · simp only [List.map_append, s4 hp, u4 hp]
          · exact rfl
      revert hstep
      generalize b.loadStep rt c component a l = r1
      generalize (beamIn L F b).loadStep rt c component a' (locIn L l) = r2
      intro hstep
      rcases r1 with e1 | r1 <;> rcases r2 with e2 | r2
      · exact hstep
      · exact hstep.elim
      · exact hstep.elim
      · exact ih r1 r2 hstep
  exact hfold locs none none trivial

theorem sameIn_eq {L F : K} {cs : List LComp} {t t' : Tab K} (h : SameIn True L F cs t t') : t' = tableIn L F cs t := by
  obtain ⟨h1, h2, h3, h4⟩ := h
  obtain ⟨d, w, rows⟩ := t
  obtain ⟨d', w', rows'⟩ := t'
  simp only at h1 h2 h3 h4
  subst h1 h2
  simp only [tableIn, Tab.mk.injEq, true_and]
  replace h4 := h4 trivial
  induction rows generalizing rows' with
  | nil => simpa using h3
  | cons r rows ih =>
    rcases rows' with _ | ⟨r', rows'⟩
    · simp at h3
    · simp only [List.map_cons, List.cons.injEq] at h3 h4 ⊢
      exact ⟨Prod.ext h4.1 h3.1, ih rows' h3.2 h4.2⟩

/-! ## Capacity -/

theorem property_in (L F : K) (m : Material K) (key : String) :
    (materialIn L F m).property key = (m.property key).map fun v => (propertyIn L F (key, v)).2 := by
  have h : ∀ l : List (String × TVal K), (l.map (propertyIn L F)).lookup key
      = (l.lookup key).map fun v => (propertyIn L F (key, v)).2 := by
    intro l
    induction l with
    | nil => rfl
    | cons p l ih =>
      obtain ⟨k, v⟩ := p
      have hk : propertyIn L F (k, v) = (k, (propertyIn L F (k, v)).2) := rfl
      rw [List.map_cons, hk, List.lookup_cons, List.lookup_cons]
      by_cases hkk : key = k
      · subst hkk; simp
      · have : (key == k) = false := by simpa using hkk
        simp only [this, ih]
  unfold Material.property materialIn
  simp only [h]
  cases m.properties.lookup key <;> rfl

theorem strengths_in (L F : K) (d : DSect K) :
    (⟨L * d.radius, materialIn L F d.material⟩ : DSect K).strengths = d.strengths.map (strengthsIn L F) := by
  unfold DSect.strengths DSect.mat
  simp only [property_in]
  rcases d.material.property "strengths" with e | v
  · rfl
  · cases v <;> simp [Except.map, bind, Except.bind, propertyIn]

theorem ascending_in {L : K} (hL : 0 < L) : ∀ ts : List K, ascending (ts.map (L * ·)) = ascending ts
  | [] => rfl
  | [_] => rfl
  | s :: l :: rest => by
    have := ascending_in hL (l :: rest)
    simp only [List.map_cons] at this
    simp only [List.map_cons, ascending, mul_le_mul_iff_right₀ hL, this]

theorem bandIndex_in {L : K} (hL : 0 < L) (t : K) : ∀ (ts : List K) (i : ℕ), bandIndex (L * t) (ts.map (L * ·)) i = bandIndex t ts i
  | [], _ => rfl
  | s :: ts, i => by simp only [List.map_cons, bandIndex, mul_le_mul_iff_right₀ hL, bandIndex_in hL t ts]

theorem listGet_map' {α β : Type} (g : α → β) (xs : List α) (i : ℕ) : listGet (xs.map g) i = (listGet xs i).map g := by
  unfold listGet
  rw [List.getElem?_map]
  cases xs[i]? <;> rfl

theorem getF_in {L : K} (hL : 0 < L) (F t : K) (yu : YU) (st : List (List K)) :
    getF (L * t) yu (strengthsIn L F st) = (getF t yu st).map (F / L ^ 2 * ·) := by
  rcases st with _ | ⟨ts, fs⟩
  · rfl
  unfold getF
  have h0 : ∀ (x : List K) xs, listGet (x :: xs) 0 = .ok x := fun _ _ => rfl
  simp only [strengthsIn, h0, bind, Except.bind, mul_neg_iff_of_pos' hL, ascending_in hL, bandIndex_in hL, List.getLast?_map]
  by_cases h1 : t < 0
  · simp only [h1, if_true]; rfl
  simp only [h1, if_false, pure, Except.pure]
  by_cases h2 : (!ascending ts) = true
  · simp only [h2, if_true]; rfl
  simp only [h2, if_false, Bool.false_eq_true]
  rcases ts.getLast? with _ | last
  · rfl
  simp only [Option.map_some, mul_lt_mul_iff_right₀ hL]
  by_cases h3 : last < t
  · simp only [h3, if_true]; rfl
  simp only [h3, if_false]
  rcases hr : yu.row with e | row
  · rfl
  simp only
  rcases bandIndex t ts 0 with _ | i
  · rfl
  simp only
  have hrow : ∃ j, row = j + 1 := by
    unfold YU.row at hr
    split at hr
    · exact ⟨0, by cases hr; rfl⟩
    · exact ⟨1, by cases hr; rfl⟩
    · split_ifs at hr
      · exact ⟨0, by cases hr; rfl⟩
      · exact ⟨1, by cases hr; rfl⟩
  obtain ⟨j, rfl⟩ := hrow
  have hs : ∀ (x : List K) xs, listGet (x :: xs) (j + 1) = listGet xs j := fun _ _ => by simp [listGet]
  simp only [hs, listGet_map']
  rcases listGet fs j with e | vs
  · rfl
  simp only [Except.map, listGet_map']

theorem circleArea_in {rt : Rt K} {L : K} (hx : Scales rt L) (r : K) : circleArea rt (L * r) = L ^ 2 * circleArea rt r := by
  unfold circleArea; simp only [hx.mulLeft, hx.mulRight]; ring

/-- a design section in other units -/
def dsectIn (L F : K) (d : DSect K) : DSect K := ⟨L * d.radius, materialIn L F d.material⟩

theorem areaStress_in {rt : Rt K} {L F : K} (hx : Scales rt L) (hf : Scales rt F) (hL : 0 < L) (A f : K) :
    rt.mul (L ^ 2 * A) (F / L ^ 2 * f) = F * rt.mul A f := by
  rw [(hx.stress hf hL.ne').mulRight, pow_two, mul_assoc L L A, hx.mulLeft, hx.mulLeft]
  generalize rt.mul A f = m
  field_simp

theorem nty_in {rt : Rt K} {L F : K} (hx : Scales rt L) (hf : Scales rt F) (hL : 0 < L) (d : DSect K) :
    (do return s7Nty rt ((dsectIn L F d).Ag rt) (← (dsectIn L F d).minFy) : Py K)
      = (do return s7Nty rt (d.Ag rt) (← d.minFy) : Py K).map (F * ·) := by
  unfold DSect.minFy dsectIn
  simp only [strengths_in, mul_assoc L, DSect.Ag, circleArea_in hx]
  rcases d.strengths with e | st
  · rfl
  simp only [Except.map, bind, Except.bind, getF_in hL]
  rcases getF (d.radius * 2) (.str "Y") st with e | f
  · rfl
  simp only [Except.map, pure, Except.pure, s7Nty, areaStress_in hx hf hL]

theorem ntu_in {rt : Rt K} {L F : K} (hx : Scales rt L) (hf : Scales rt F) (hL : 0 < L) (kt au : K) (d : DSect K) :
    (do return s7Ntu rt ((dsectIn L F d).An rt) (← (dsectIn L F d).minFu) kt au : Py K)
      = (do return s7Ntu rt (d.An rt) (← d.minFu) kt au : Py K).map (F * ·) := by
  unfold DSect.minFu dsectIn
  simp only [strengths_in, mul_assoc L, DSect.An, circleArea_in hx]
  rcases d.strengths with e | st
  · rfl
  simp only [Except.map, bind, Except.bind, getF_in hL]
  rcases getF (d.radius * 2) (.str "U") st with e | f
  · rfl
  simp only [Except.map, pure, Except.pure, s7Ntu, areaStress_in hx hf hL, hf.mulLeft]

theorem pyMin_in {F : K} (hF : 0 < F) (xs : List K) : pyMin (xs.map (F * ·)) = (pyMin xs).map (F * ·) := by
  rcases xs with _ | ⟨x, xs⟩
  · rfl
  have : ∀ (xs : List K) (a : K), (xs.map (F * ·)).foldl min (F * a) = F * xs.foldl min a := by
    intro xs
    induction xs with
    | nil => intro a; rfl
    | cons y ys ih => intro a; simp only [List.map_cons, List.foldl_cons, ← mul_min_of_nonneg _ _ hF.le, ih]
  simp only [List.map_cons, pyMin, Except.map, this]

theorem considered_in {rt : Rt K} {L : K} (hx : Scales rt L) (hL : 0 < L) (F : K) (o : AS4100 K) (position : PosArg K) :
    (objectIn L F o).considered rt (positionIn L position) = (o.considered rt position).map (List.map (dsectIn L F)) := by
  have hwrap : ∀ p : PosArg K, (positionIn L p).wrap = positionIn L p.wrap := by
    intro p
    rcases p with _ | x | xs
    · rfl
    · by_cases hi : x.isInt = true <;> simp [positionIn, PosArg.wrap, hi]
    · rfl
  have hget : ∀ p : PosArg K, (objectIn L F o).getDSection rt (positionIn L p) none none
      = (o.getDSection rt p none none).map (List.map fun r => (lengthIn L r.1, dsectIn L F r.2)) := by
    intro p
    unfold AS4100.getDSection objectIn
    simp only
    rcases o.beam with _ | b
    · rfl
    simp only [Option.map_some, listPositions_units hx hL]
    rcases b.listPositions rt p none none with e | locs
    · rfl
    simp only [Except.map, bind, Except.bind]
    refine mapM_in _ ?_
    intro l _
    simp only [locIn, pyIndex_map]
    rcases pyIndex o.dsects (l.elem : ℤ) with e | d <;> rfl
  have hmain : ∀ p : PosArg K, p ≠ .none → (objectIn L F o).considered rt (positionIn L p)
      = (o.considered rt p).map (List.map (dsectIn L F)) := by
    intro p hp
    have h1 : ∀ (o : AS4100 K) (p : PosArg K), p ≠ .none → o.considered rt p = (do
        let l ← o.getDSection rt p.wrap none none
        return l.map (·.2)) := by
      intro o p hp
      unfold AS4100.considered
      split
      · exact absurd rfl hp
      · rfl
    rw [h1 _ p hp, h1 _ (positionIn L p) (by cases p <;> simp_all [positionIn]), hwrap, hget]
    rcases o.getDSection rt p.wrap none none with e | l
    · rfl
    · simp only [Except.map, bind, Except.bind, pure, Except.pure, List.map_map]; rfl
  by_cases hp : position = .none
  · subst hp; rfl
  · exact hmain position hp


theorem capacity_in {rt : Rt K} {L F : K} (hx : Scales rt L) (hf : Scales rt F) (hL : 0 < L) (hF : 0 < F) (o : AS4100 K) (position : PosArg K) :
    (objectIn L F o).tensionCapacity rt (positionIn L position) = (o.tensionCapacity rt position).map (F * ·) := by
  unfold AS4100.tensionCapacity AS4100.phiNt AS4100.Nt AS4100.Nty AS4100.Ntu
  rw [considered_in hx hL]
  rcases o.considered rt position with e | ds
  · rfl
  simp only [Except.map, bind, Except.bind]
  have h1 := mapM_in (g := dsectIn L F) (h := (F * ·)) (f' := fun s => (do return s7Nty rt (s.Ag rt) (← s.minFy) : Py K)) ds
    fun d _ => nty_in hx hf hL d
  have h2 := mapM_in (g := dsectIn L F) (h := (F * ·))
    (f' := fun s => (do return s7Ntu rt (s.An rt) (← s.minFu) o.kt o.alphaU : Py K)) ds
    fun d _ => ntu_in hx hf hL o.kt o.alphaU d
  simp only [bind, Except.bind] at h1 h2
  rw [h1, show (objectIn L F o).kt = o.kt from rfl, show (objectIn L F o).alphaU = o.alphaU from rfl, h2]
  generalize (List.mapM _ ds : Py (List K)) = r1
  rcases r1 with e | r1
  · rfl
  simp only [Except.map, pyMin_in hF]
  rcases pyMin r1 with e | m1
  · rfl
  simp only [Except.map]
  generalize (List.mapM _ ds : Py (List K)) = r2
  rcases r2 with e | r2
  · rfl
  simp only [Except.map, pyMin_in hF]
  rcases pyMin r2 with e | m2
  · rfl
  simp only [Except.map, pure, Except.pure, ← mul_min_of_nonneg _ _ hF.le, hf.mulRight,
    show (objectIn L F o).phiSteel = o.phiSteel from rfl]

/-! ## Loads of a beam, tension -/

theorem loads_in {rt : Rt K} {L F : K} (hx : Scales rt L) (hf : Scales rt F) (hL : 0 < L) {b : Beam K (Sect K)} (hb : FloatTables b) (c : ℤ)
    (position : PosArg K) (n : Option ℤ) {component : CompArg} {cs : List LComp} (hc : component.resolve = .ok cs) :
    (beamIn L F b).getLoads rt c (positionIn L position) n component
      = (b.getLoads rt c position n component).map (Option.map (tableIn L F cs)) := by
  have h := getLoads_in hx hf hL b c (P := True) (fun _ => hb) position n hc
  revert h
  generalize b.getLoads rt c position n component = r1
  generalize (beamIn L F b).getLoads rt c (positionIn L position) n component = r2
  intro h
  rcases r1 with e1 | (_ | t1) <;> rcases r2 with e2 | (_ | t2)
  · exact congrArg Except.error (Eq.symm h)
  · exact h.elim
  · exact h.elim
  · exact h.elim
  · rfl
  · exact h.elim
  · exact h.elim
  · exact h.elim
  · rw [sameIn_eq h]; rfl

theorem getTension_in {rt : Rt K} {L F : K} (hx : Scales rt L) (hf : Scales rt F) (hL : 0 < L) (hF : 0 < F) (o : AS4100 K) (c : ℤ) {P : Prop}
    (hP : P → ∀ b, o.beam = some b → FloatTables b) (position : PosArg K) (n : Option ℤ) :
    SamePy (SameIn P L F [.N]) (o.getTension rt c position n) ((objectIn L F o).getTension rt c (positionIn L position) n) := by
  unfold AS4100.getTension objectIn
  simp only
  rcases hb : o.beam with _ | b
  · exact rfl
  simp only [Option.map_some]
  have h := getLoads_in hx hf hL b c (P := P) (fun p => hP p b hb) position n
    (component := .name "N") (cs := [.N]) rfl
  revert h
  generalize b.getLoads rt c position n (.name "N") = r1
  generalize (beamIn L F b).getLoads rt c (positionIn L position) n (.name "N") = r2
  intro h
  rcases r1 with e1 | (_ | t1) <;> rcases r2 with e2 | (_ | t2)
  · exact h
  · exact h.elim
  · exact h.elim
  · exact h.elim
  · exact rfl
  · exact h.elim
  · exact h.elim
  · exact h.elim
  · obtain ⟨h1, h2, h3, h4⟩ := h
    simp only [bind, Except.bind]
    have key : ∀ (l1 l2 : List (K × List (Option K))), l2.map (·.2) = l1.map (fun r => cellsIn L F [.N] r.2) →
        (P → l2.map (·.1) = l1.map fun r => L * r.1) →
        SamePy (fun m1 m2 => m2.map (·.2) = m1.map (fun r => cellsIn L F [.N] r.2) ∧
          (P → m2.map (·.1) = m1.map fun r => L * r.1)) (l1.mapM clampRow) (l2.mapM clampRow) := by
      intro l1
      induction l1 with
      | nil =>
        intro l2 h _
        have : l2 = [] := by simpa using h
        subst this
        exact ⟨rfl, fun _ => rfl⟩
      | cons r l1 ih =>
        intro l2 h hp
        rcases l2 with _ | ⟨r', l2⟩
        · simp at h
        simp only [List.map_cons, List.cons.injEq] at h hp
        have ih := ih l2 h.2 fun p => (hp p).2
        obtain ⟨q, cs1⟩ := r
        obtain ⟨q', cs2⟩ := r'
        obtain ⟨hr, -⟩ := h
        simp only at hr
        subst hr
        have hp' : P → q' = L * q := fun p => (hp p).1
        simp only [List.mapM_cons, bind, Except.bind]
        rcases cs1 with _ | ⟨_ | v, rest⟩
        · exact rfl
        · exact rfl
        simp only [cellsIn, clampRow, Option.map_some, factorIn, mul_neg_iff_of_pos' hF]
        revert ih
        generalize l1.mapM clampRow = s1
        generalize l2.mapM clampRow = s2
        intro ih
        rcases s1 with e1 | s1 <;> rcases s2 with e2 | s2
        · exact ih
        · exact ih.elim
        · exact ih.elim
        · refine ⟨?_, fun p => ?_⟩
          · simp only [List.map_cons, ih.1, cellsIn, Option.map_some, factorIn]
            split_ifs <;> simp
          · simp only [List.map_cons, ih.2 p, hp' p]
    have := key t1.rows t2.rows h3 h4
    revert this
    generalize t1.rows.mapM clampRow = s1
    generalize t2.rows.mapM clampRow = s2
    intro this
    rcases s1 with e1 | s1 <;> rcases s2 with e2 | s2
    · exact this
    · exact this.elim
    · exact this.elim
    · exact ⟨h1, h2, this.1, this.2⟩

theorem tension_in {rt : Rt K} {L F : K} (hx : Scales rt L) (hf : Scales rt F) (hL : 0 < L) (hF : 0 < F) (o : AS4100 K)
    (ho : ∀ b, o.beam = some b → FloatTables b) (c : ℤ) (position : PosArg K) (n : Option ℤ) :
    (objectIn L F o).getTension rt c (positionIn L position) n = (o.getTension rt c position n).map (tableIn L F [.N]) := by
  have h := getTension_in hx hf hL hF o c (P := True) (fun _ => ho) position n
  revert h
  generalize o.getTension rt c position n = r1
  generalize (objectIn L F o).getTension rt c (positionIn L position) n = r2
  intro h
  rcases r1 with e1 | t1 <;> rcases r2 with e2 | t2
  · exact congrArg Except.error (Eq.symm h)
  · exact h.elim
  · exact h.elim
  · rw [sameIn_eq h]; rfl

/-! ## Utilisation -/

theorem utilOne_in {rt : Rt K} {F : K} (hf : Scales rt F) (hF : 0 < F) (cap t : K) :
    utilOne rt (F * cap) (F * t) = utilOne rt cap t := by
  unfold utilOne
  have h : ∀ x, utilFunc rt x [(F * t, F * cap)] = utilFunc rt x [(t, cap)] := by
    intro x
    have h2 : ∀ y, (0 : K) < F * y ↔ 0 < y := fun y => by rw [mul_pos_iff_of_pos_left hF]
    simp only [utilFunc, hf.mulRight, hf.divBoth, mul_eq_zero, hF.ne', false_or, h2, mul_neg_iff_of_pos' hF]
  have h0 : F * t ≤ 0 ↔ t ≤ 0 := by
    rw [← not_lt, ← not_lt, mul_pos_iff_of_pos_left hF]
  simp only [h0, secant_congr rt h]

theorem utilAt_in {rt : Rt K} {L F : K} (hx : Scales rt L) (hf : Scales rt F) (hL : 0 < L) (hF : 0 < F) (o : AS4100 K) (c : ℤ) (p : Num K) :
    (objectIn L F o).utilAt rt c (lengthIn L p) = (o.utilAt rt c p).map (List.map fun r => (r.1, lengthIn L r.2.1, r.2.2)) := by
  unfold AS4100.utilAt
  have h1 := capacity_in hx hf hL hF o (.scalar p)
  rw [positionIn] at h1
  rw [h1]
  rcases o.tensionCapacity rt (.scalar p) with e | cap
  · rfl
  simp only [Except.map, bind, Except.bind]
  have h2 := getTension_in hx hf hL hF o c (P := False) (fun h => h.elim) (.scalar p) none
  rw [positionIn] at h2
  revert h2
  generalize o.getTension rt c (.scalar p) none = r1
  generalize (objectIn L F o).getTension rt c (.scalar (lengthIn L p)) none = r2
  intro h
  rcases r1 with e1 | t1 <;> rcases r2 with e2 | t2
  · exact congrArg Except.error (Eq.symm h)
  · exact h.elim
  · exact h.elim
  obtain ⟨-, -, h3, -⟩ := h
  simp only
  have key : ∀ (l1 l2 : List (K × List (Option K))), l2.map (·.2) = l1.map (fun r => cellsIn L F [.N] r.2) →
      l2.mapM (fun r => match r.2 with
        | some t :: _ => (do return (c, lengthIn L p, ← utilOne rt (F * cap) t) : Py (ℤ × Num K × K))
        | _ => .error .typeError) =
      (l1.mapM (fun r : K × List (Option K) => match r.2 with
        | some t :: _ => (do return (c, p, ← utilOne rt cap t) : Py (ℤ × Num K × K))
        | _ => .error .typeError)).map (List.map fun r : ℤ × Num K × K => (r.1, lengthIn L r.2.1, r.2.2)) := by
    intro l1
    induction l1 with
    | nil =>
      intro l2 h
      have : l2 = [] := by simpa using h
      subst this
      rfl
    | cons r l1 ih =>
      intro l2 h
      rcases l2 with _ | ⟨r', l2⟩
      · simp at h
      simp only [List.map_cons, List.cons.injEq] at h
      have ih := ih l2 h.2
      obtain ⟨q, cs1⟩ := r
      obtain ⟨q', cs2⟩ := r'
      obtain ⟨hr, -⟩ := h
      simp only at hr
      subst hr
      simp only [List.mapM_cons, ih]
      rcases cs1 with _ | ⟨_ | v, rest⟩
      · rfl
      · rfl
      simp only [cellsIn, Option.map_some, factorIn, utilOne_in hf hF]
      rcases utilOne rt cap v with e | u
      · rfl
      simp only [bind, Except.bind, pure, Except.pure]
      generalize (List.mapM _ l1 : Py (List (ℤ × Num K × K))) = s
      rcases s with e | s <;> rfl
  exact key _ _ h3

theorem utilLoop_in {rt : Rt K} {L F : K} (hx : Scales rt L) (hf : Scales rt F) (hL : 0 < L) (hF : 0 < F) (o : AS4100 K) :
    ∀ (cs : List ℤ) (pos : Option (List (Num K))),
    (objectIn L F o).utilLoop rt (pos.map (List.map (lengthIn L))) cs
      = (o.utilLoop rt pos cs).map (List.map fun r => (r.1, lengthIn L r.2.1, r.2.2)) := by
  intro cs
  induction cs with
  | nil => intro pos; rfl
  | cons c cs ih =>
    intro pos
    have hpos : (objectIn L F o).utilPositions rt (pos.map (List.map (lengthIn L))) c
        = (o.utilPositions rt pos c).map (List.map (lengthIn L)) := by
      unfold AS4100.utilPositions objectIn
      rcases pos with _ | ps
      · simp only [Option.map_none]
        rcases o.beam with _ | b
        · rfl
        simp only [Option.map_some]
        have := listPositions_units hx hL F b (some c) .none (some o.assessmentPoints)
        rw [positionIn] at this
        rw [this]
        rcases b.listPositions rt .none (some o.assessmentPoints) (some c) with e | locs
        · rfl
        · simp only [Except.map, bind, Except.bind, pure, Except.pure, List.map_map]; rfl
      · rfl
    simp only [AS4100.utilLoop, hpos]
    rcases o.utilPositions rt pos c with e | ps
    · rfl
    simp only [Except.map, bind, Except.bind]
    rw [mapM_in (h := List.map fun r : ℤ × Num K × K => (r.1, lengthIn L r.2.1, r.2.2)) (f := fun p => o.utilAt rt c p) ps
      fun p _ => utilAt_in hx hf hL hF o c p]
    generalize ps.mapM (fun p => o.utilAt rt c p) = s
    rcases s with e | s
    · rfl
    have := ih (some ps)
    rw [Option.map_some] at this
    simp only [Except.map, this]
    rcases o.utilLoop rt (some ps) cs with e | s'
    · rfl
    · simp only [Except.map, pure, Except.pure, List.map_append, List.map_flatten]

theorem utilisation_in {rt : Rt K} {L F : K} (hx : Scales rt L) (hf : Scales rt F) (hL : 0 < L) (hF : 0 < F) (o : AS4100 K) (loadCase : CaseArg)
    (position : PosArg K) :
    (objectIn L F o).tensionUtilisation rt loadCase (positionIn L position) = o.tensionUtilisation rt loadCase position := by
  unfold AS4100.tensionUtilisation
  have hgiven : (positionIn L position).given = position.given.map (Option.map (List.map (lengthIn L))) := by
    rcases position with _ | x | xs
    · rfl
    · by_cases hi : x.isInt = true <;> simp [positionIn, PosArg.given, hi, Except.map]
    · rfl
  have hcases : (objectIn L F o).utilCases loadCase = o.utilCases loadCase := by
    unfold AS4100.utilCases objectIn
    rcases loadCase with _ | c | cs
    · simp only
      rcases o.beam with _ | b
      · rfl
      simp only [Option.map_some, Beam.loadCases, beamIn]
      rcases b.elements with _ | ⟨e, es⟩
      · rfl
      · simp only [List.map_cons, Element.loadCases, elementIn, List.map_map]; rfl
    · rfl
    · rfl
  rw [hgiven, hcases]
  rcases position.given with e | given
  · rfl
  simp only [Except.map, bind, Except.bind]
  rcases o.utilCases loadCase with e | cases
  · rfl
  simp only [utilLoop_in hx hf hL hF]
  rcases o.utilLoop rt given cases with e | ret
  · rfl
  simp only [Except.map]
  congr 1
  unfold utilFilter
  rcases loadCase with _ | c | cs <;> rcases given with _ | ps
  · simp only [Option.map_none, List.map_map]; rfl
  · simp only [Option.map_some, List.filter_map, List.map_map]
    have : ((fun r : ℤ × Num K × K => decide (r.2.1.val ∈ ps.map ((fun p : Num K => p.val) ∘ lengthIn L))) ∘
        fun r : ℤ × Num K × K => (r.1, lengthIn L r.2.1, r.2.2))
          = fun r : ℤ × Num K × K => decide (r.2.1.val ∈ ps.map fun p => p.val) := by
      funext r
      simp only [Function.comp, lengthIn_val, List.mem_map, mul_right_inj' hL.ne']
    rw [this]; rfl
  · simp only [Option.map_none, List.filter_map, List.map_map]; rfl
  · simp only [Option.map_some, List.map_map]; rfl
  · simp only [Option.map_none, List.filter_map, List.map_map]; rfl
  · simp only [Option.map_some, List.map_map]; rfl

/-! ## The property -/

/-- **C128.**  The design tension capacity is a force. -/
theorem C128_capacity {rt : Rt K} (hx : rt.Exact) {L F : K} (hL : 0 < L) (hF : 0 < F) (o : AS4100 K) (position : PosArg K) :
    (objectIn L F o).tensionCapacity rt (positionIn L position) = (o.tensionCapacity rt position).map (F * ·) :=
  capacity_in (hx.scales hL.ne') (hx.scales hF.ne') hL hF o position

/-- **C128.**  Load tables entered with decimals: the loads reported are the same quantities in other units. -/
theorem C128_loads_partial {rt : Rt K} (hx : rt.Exact) {L F : K} (hL : 0 < L) (hF : 0 < F) {b : Beam K (Sect K)} (hb : FloatTables b) (c : ℤ)
    (position : PosArg K) (n : Option ℤ) {component : CompArg} {cs : List LComp} (hc : component.resolve = .ok cs) :
    (beamIn L F b).getLoads rt c (positionIn L position) n component
      = (b.getLoads rt c position n component).map (Option.map (tableIn L F cs)) :=
  loads_in (hx.scales hL.ne') (hx.scales hF.ne') hL hb c position n hc

/-- **C128.**  Load tables entered with decimals: the tension reported is the same in other units. -/
theorem C128_tension_partial {rt : Rt K} (hx : rt.Exact) {L F : K} (hL : 0 < L) (hF : 0 < F) (o : AS4100 K)
    (ho : ∀ b, o.beam = some b → FloatTables b) (c : ℤ) (position : PosArg K) (n : Option ℤ) :
    (objectIn L F o).getTension rt c (positionIn L position) n = (o.getTension rt c position n).map (tableIn L F [.N]) :=
  tension_in (hx.scales hL.ne') (hx.scales hF.ne') hL hF o ho c position n

/-- **C128.**  The tension utilisation, a ratio, does not depend on the units. -/
theorem C128_utilisation {rt : Rt K} (hx : rt.Exact) {L F : K} (hL : 0 < L) (hF : 0 < F) (o : AS4100 K) (loadCase : CaseArg)
    (position : PosArg K) :
    (objectIn L F o).tensionUtilisation rt loadCase (positionIn L position) = o.tensionUtilisation rt loadCase position :=
  utilisation_in (hx.scales hL.ne') (hx.scales hF.ne') hL hF o loadCase position

/-- **C128.**  An `AS4100` object made of a beam or a section in other units is the object in other units. -/
theorem C128_new (L F phi au kt : K) (beam : Option (Beam K (Sect K))) (sect : Option (Sect K)) :
    AS4100.new phi au kt (beam.map (beamIn L F)) (sect.map (sectIn L F)) = (AS4100.new phi au kt beam sect).map (objectIn L F) := by
  have hsec : sectionsOf (beam.map (beamIn L F)) (sect.map (sectIn L F)) = (sectionsOf beam sect).map (sectIn L F) := by
    rcases beam with _ | b <;> rcases sect with _ | s
    · rfl
    · rfl
    · simp only [Option.map_some, sectionsOf, Beam.sections, beamIn, List.map_map]; rfl
    · simp only [Option.map_some, sectionsOf, Beam.sections, beamIn, List.map_map]; rfl
  have hf : ∀ s : Sect K, DSect.factory (sectIn L F s) = (DSect.factory s).map (dsectIn L F) := by
    intro s
    rcases s with ⟨r, _ | m⟩ | m
    · rfl
    · simp only [sectIn, Option.map_some, DSect.factory, materialIn]
      split_ifs <;> rfl
    · rfl
  have hmain : (do
      let ds ← (sectionsOf (beam.map (beamIn L F)) (sect.map (sectIn L F))).mapM DSect.factory
      return ⟨beam.map (beamIn L F), sect.map (sectIn L F), defaultAssessmentPoints, ds, phi, au, kt⟩ : Py (AS4100 K)) =
      (do
      let ds ← (sectionsOf beam sect).mapM DSect.factory
      return ⟨beam, sect, defaultAssessmentPoints, ds, phi, au, kt⟩ : Py (AS4100 K)).map (objectIn L F) := by
    rw [hsec, mapM_in (h := dsectIn L F) (f := DSect.factory) _ fun s _ => hf s]
    rcases (sectionsOf beam sect).mapM DSect.factory with e | ds <;> rfl
  rcases beam with _ | b <;> rcases sect with _ | s
  · rfl
  · exact hmain
  · exact hmain
  · exact hmain

end

/-! ## From metres and newtons to millimetres and kilonewtons -/

theorem rods_float : FloatTables Samples.rods := by
  intro e he c lc t hl ht
  have : e = Samples.rodElem 2 (1/100) ∨ e = Samples.rodElem 3 (1/50) := by simpa [Samples.rods] using he
  have hl' : lc = Samples.lc := by
    rcases this with rfl | rfl <;>
    · simp only [Samples.rodElem, List.lookup_cons, List.lookup_nil] at hl
      split at hl
      · simpa using hl.symm
      · cases hl
  subst hl'
  cases ht
  rfl

/-- The two rods at 2 m, that is 2000 mm: the tension and the utilisation at the joint. -/
example :
    (objectIn 1000 (1/1000) Samples.obj).dsects.map (·.radius) = [10, 20] ∧
    (objectIn 1000 (1/1000) Samples.obj).getTension Samples.rt 7 (.scalar (Num.flt 2000)) none
      = (Samples.obj.getTension Samples.rt 7 (.scalar (Num.flt 2)) none).map (tableIn 1000 (1/1000) [.N]) ∧
    (objectIn 1000 (1/1000) Samples.obj).tensionCapacity Samples.rt (.scalar (Num.flt 2000))
      = (Samples.obj.tensionCapacity Samples.rt (.scalar (Num.flt 2))).map (1/1000 * ·) ∧
    (objectIn 1000 (1/1000) Samples.obj).tensionUtilisation Samples.rt .none (.scalar (Num.flt 2000))
      = Samples.obj.tensionUtilisation Samples.rt .none (.scalar (Num.flt 2)) ∧
    (Samples.obj.tensionCapacity Samples.rt (.scalar (Num.flt 2))).toOption.isSome = true ∧
    (Samples.obj.tensionUtilisation Samples.rt .none (.scalar (Num.flt 2))).toOption.isSome = true := by
  have hp : (.scalar (Num.flt 2000) : PosArg ℚ) = positionIn 1000 (.scalar (Num.flt 2)) := by decide +kernel
  rw [hp]
  refine ⟨by decide +kernel, C128_tension_partial (Rt.exact_exact ℚ) (by norm_num) (by norm_num) _ ?_ _ _ _,
    C128_capacity (Rt.exact_exact ℚ) (by norm_num) (by norm_num) _ _,
    C128_utilisation (Rt.exact_exact ℚ) (by norm_num) (by norm_num) _ _ _, by decide +kernel, by decide +kernel⟩
  intro b hb
  cases hb
  exact rods_float

/-- All six components of the two rods, with 5 points at least. -/
example :
    (beamIn 1000 (1/1000) Samples.rods).getLoads Samples.rt 7 .none (some 5) .none
      = (Samples.rods.getLoads Samples.rt 7 .none (some 5) .none).map (Option.map (tableIn 1000 (1/1000) LComp.all)) ∧
    ((Samples.rods.getLoads Samples.rt 7 .none (some 5) .none).map fun t => t.map fun t => t.rows.length).toOption
      = some (some 11) :=
  ⟨C128_loads_partial (F := 1/1000) (Rt.exact_exact ℚ) (by norm_num) (by norm_num) rods_float 7 .none (some 5) rfl, by decide +kernel⟩

/-- A rod of 1.5 m whose loads were entered with whole numbers. -/
def wholeRod : Beam ℚ (Sect ℚ) :=
  ⟨[⟨[(7, ⟨some ⟨true, [Samples.axial 0 10, Samples.axial 1 20]⟩⟩)], some (Num.flt (3/2)), Samples.rod (1/100)⟩]⟩

/-- Whole numbers only: in metres the load at the end, 1.5, is reported at 1, in millimetres at 1500. -/
theorem C128_counterexample :
    (wholeRod.getLoads Samples.rt 7 (.scalar (Num.flt (3/2))) none (.name "N")).toOption
      = some (some ⟨.int, 1, [(1, [some 20])]⟩) ∧
    ((beamIn 1000 1 wholeRod).getLoads Samples.rt 7 (.scalar (Num.flt 1500)) none (.name "N")).toOption
      = some (some ⟨.int, 1, [(1500, [some 20])]⟩) := by
  decide +kernel

end BeamDesign
