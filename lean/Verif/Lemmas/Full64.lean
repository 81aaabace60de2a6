import Verif.Model.Full64
import Verif.Spec.Full64
import Verif.Props.Sound64
import Verif.Props.Overflow

/-!
# Lemmas for C142
-/

namespace BeamDesign

open Spec

/-! ## Capacities -/

theorem mul_up {a b : ℚ} {i j : ℤ} (ha : |a| ≤ 2 ^ i) (hb : |b| ≤ 2 ^ j) (h0 : -1074 ≤ i + j) (h1 : i + j ≤ 1023) :
    F64.mul (.fin a) (.fin b) = .fin (Rt.binary64.mul a b) ∧ |Rt.binary64.mul a b| ≤ 2 ^ (i + j) := by
  have h2 : |Rt.binary64.mul a b| ≤ 2 ^ (i + j) := by
    refine rnd64_le_two h0 ?_
    rw [abs_mul, zpow_add₀ (by norm_num)]
    exact mul_le_mul ha hb (abs_nonneg _) (two_zpow_pos _).le
  exact ⟨cap_fin h1 h2, h2⟩

/-- a float that is a number of at most `2 ^ k` -/
def UpTo (k : ℤ) (v : Flt) (w : ℚ) : Prop := v = .fin w ∧ |w| ≤ 2 ^ k

theorem UpTo.mul {i j k : ℤ} {v w : Flt} {a b : ℚ} (ha : UpTo i v a) (hb : UpTo j w b) (hk : i + j = k) (h0 : -1074 ≤ k)
    (h1 : k ≤ 1023) : UpTo k (F64.mul v w) (Rt.binary64.mul a b) := by
  subst hk
  obtain ⟨rfl, ha⟩ := ha
  obtain ⟨rfl, hb⟩ := hb
  exact mul_up ha hb h0 h1

theorem UpTo.min {k : ℤ} {v w : Flt} {a b : ℚ} (ha : UpTo k v a) (hb : UpTo k w b) : UpTo k (F64.min2 v w) (min a b) := by
  obtain ⟨rfl, ha⟩ := ha
  obtain ⟨rfl, hb⟩ := hb
  by_cases h : b < a
  · simp only [F64.min2, F64.lt, h, decide_true, if_true, min_eq_right h.le]
    exact ⟨rfl, hb⟩
  · simp only [F64.min2, F64.lt, h, decide_false, Bool.false_eq_true, if_false, min_eq_left (not_lt.1 h)]
    exact ⟨rfl, ha⟩

theorem UpTo.minList {k : ℤ} {vs : List Flt} {ws : List ℚ} (h : List.Forall₂ (UpTo k) vs ws) :
    PRel (UpTo k) (F64.minList vs) (pyMin ws) := by
  cases h with
  | nil => rfl
  | cons h hs =>
    show UpTo k (List.foldl F64.min2 _ _) (List.foldl Min.min _ _)
    rename_i a b as bs
    revert a b
    induction hs with
    | nil => intro a b h; exact h
    | cons h' _ ih => intro a b h; exact ih (h.min h')

theorem circleArea_up {r : ℚ} (h : |r| ≤ 2 ^ (100 : ℤ)) :
    ∃ v, F64.circleArea r = .ok v ∧ UpTo 202 v (circleArea Rt.binary64 r) := by
  have h1 := UpTo.mul (k := 200) (v := .fin r) (w := .fin r) ⟨rfl, h⟩ ⟨rfl, h⟩ (by norm_num) (by norm_num) (by norm_num)
  have hpi : UpTo 2 (.fin (piD : ℚ)) piD := ⟨rfl, by unfold piD; norm_num⟩
  have h2 := hpi.mul (k := 202) h1 (by norm_num) (by norm_num) (by norm_num)
  refine ⟨_, ?_, h2⟩
  unfold F64.circleArea
  rw [h1.1]

theorem considered_mem {rt : Rt ℚ} {o : AS4100 ℚ} {position : PosArg ℚ} {ds : List (DSect ℚ)}
    (h : o.considered rt position = .ok ds) : ∀ d ∈ ds, d ∈ o.dsects := by
  have hd : ∀ p l, o.getDSection rt p none none = .ok l → ∀ x ∈ l, x.2 ∈ o.dsects := by
    intro p l hl x hx
    unfold AS4100.getDSection at hl
    cases hb : o.beam with
    | none => rw [hb] at hl; cases hl
    | some b =>
      simp only [hb, bind, Except.bind] at hl
      split at hl
      · cases hl
      next locs _ =>
      obtain ⟨y, -, hy⟩ := forall₂_mem_right ((mapM_ok_iff _ _ _).1 hl) hx
      simp only [pure, Except.pure] at hy
      split at hy
      · cases hy
      next d hd =>
      cases hy
      obtain ⟨j, hj, -⟩ := (pyIndex_ok_iff _ _ _).1 hd
      exact List.mem_of_getElem? hj
  intro d hdm
  unfold AS4100.considered at h
  cases position with
  | none => cases h; exact hdm
  | scalar x =>
    simp only [bind, Except.bind, pure, Except.pure] at h
    split at h
    · cases h
    next l hl =>
    cases h
    obtain ⟨x, hx, rfl⟩ := List.mem_map.1 hdm
    exact hd _ _ hl x hx
  | list xs =>
    simp only [bind, Except.bind, pure, Except.pure] at h
    split at h
    · cases h
    next l hl =>
    cases h
    obtain ⟨x, hx, rfl⟩ := List.mem_map.1 hdm
    exact hd _ _ hl x hx

/-- all the sections have strengths, and the data are at most `2 ^ 100` -/
def Rated (o : AS4100 ℚ) : Prop :=
  (∀ d ∈ o.dsects, ∃ fy fu, Strengths d fy fu) ∧ DataUpTo (2 ^ (100 : ℤ)) o

theorem rated_of {o : AS4100 ℚ} {F : ℚ → Prop} {σ : ℚ} (h : UsualData F σ o) (hB : DataUpTo (2 ^ (100 : ℤ)) o) : Rated o := by
  refine ⟨fun d hd => ?_, hB⟩
  obtain ⟨-, fy, fu, hs, -⟩ := h.2.2.2 d hd
  exact ⟨fy, fu, hs⟩

theorem considered_rel (o : AS4100 ℚ) (position : PosArg ℚ) :
    PRel (fun as bs => as = bs ∧ ∀ d ∈ as, d ∈ o.dsects) (o.considered Rt.binary64 position) (o.considered Rt.binary64 position) := by
  cases h : o.considered Rt.binary64 position with
  | error => rfl
  | ok ds => exact ⟨rfl, considered_mem h⟩

theorem forall₂_self {α : Type} {P : α → Prop} {l : List α} (h : ∀ x ∈ l, P x) : List.Forall₂ (fun a b => a = b ∧ P a) l l :=
  List.forall₂_same.2 fun x hx => ⟨rfl, h x hx⟩

theorem Nty64_rel {o : AS4100 ℚ} (h : Rated o) (position : PosArg ℚ) : PRel (UpTo 502) (o.Nty64 position) (o.Nty Rt.binary64 position) := by
  unfold AS4100.Nty64 AS4100.Nty
  refine (considered_rel o position).bind fun as bs hab => ?_
  obtain ⟨rfl, hm⟩ := hab
  refine PRel.bind (PRel.mapM ?_ (forall₂_self hm)) fun vs ws hvw => UpTo.minList hvw
  rintro d _ ⟨rfl, hd⟩
  obtain ⟨fy, fu, hs⟩ := h.1 d hd
  obtain ⟨hr, hf⟩ := h.2.2.2.2 d hd
  obtain ⟨v, hv, hup⟩ := circleArea_up hr
  obtain ⟨h1, -⟩ := strengths_iff.1 hs
  rw [hv, h1]
  have := hup.mul (k := 302) (w := .fin fy) ⟨rfl, (hf fy fu hs).1⟩ (by norm_num) (by norm_num) (by norm_num)
  exact ⟨this.1, this.2.trans (zpow_le_zpow_right₀ (by norm_num) (by norm_num))⟩

theorem Ntu64_rel {o : AS4100 ℚ} (h : Rated o) (position : PosArg ℚ) : PRel (UpTo 502) (o.Ntu64 position) (o.Ntu Rt.binary64 position) := by
  unfold AS4100.Ntu64 AS4100.Ntu
  refine (considered_rel o position).bind fun as bs hab => ?_
  obtain ⟨rfl, hm⟩ := hab
  refine PRel.bind (PRel.mapM ?_ (forall₂_self hm)) fun vs ws hvw => UpTo.minList hvw
  rintro d _ ⟨rfl, hd⟩
  obtain ⟨fy, fu, hs⟩ := h.1 d hd
  obtain ⟨hr, hf⟩ := h.2.2.2.2 d hd
  obtain ⟨v, hv, hup⟩ := circleArea_up hr
  obtain ⟨-, h1⟩ := strengths_iff.1 hs
  rw [hv, h1]
  have h2 := hup.mul (k := 302) (w := .fin fu) ⟨rfl, (hf fy fu hs).2⟩ (by norm_num) (by norm_num) (by norm_num)
  have h3 := h2.mul (k := 402) (w := .fin o.kt) ⟨rfl, h.2.2.1⟩ (by norm_num) (by norm_num) (by norm_num)
  exact h3.mul (k := 502) (w := .fin o.alphaU) ⟨rfl, h.2.2.2.1⟩ (by norm_num) (by norm_num) (by norm_num)

theorem phiNt64_rel {o : AS4100 ℚ} (h : Rated o) (position : PosArg ℚ) :
    PRel (UpTo 602) (o.phiNt64 position) (o.phiNt Rt.binary64 position) := by
  unfold AS4100.phiNt64 AS4100.phiNt AS4100.Nt64 AS4100.Nt
  refine PRel.bind (S := UpTo 502) ?_ fun v w hvw => ?_
  · exact (Nty64_rel h position).bind fun v w hvw => (Ntu64_rel h position).bind fun v' w' hvw' => hvw.min hvw'
  · exact UpTo.mul (i := 100) (k := 602) ⟨rfl, h.2.1⟩ hvw (by norm_num) (by norm_num) (by norm_num)

theorem phiNt64_ok {o : AS4100 ℚ} (h : Rated o) {position : PosArg ℚ} {cap : ℚ} (hc : o.phiNt Rt.binary64 position = .ok cap) :
    o.phiNt64 position = .ok (.fin cap) := by
  have := phiNt64_rel h position
  rw [hc] at this
  cases hp : o.phiNt64 position with
  | error => rw [hp] at this; exact this.elim
  | ok v => rw [hp] at this; rw [this.1]

/-! ## Greatest of floats -/

theorem max2_fold {v : ℚ} : ∀ (xs : List Flt) (x : Flt), xs.foldl F64.max2 x = .fin v →
    (∀ w, Val.fin w ∈ x :: xs → w ≤ v) ∧ .posInf ∉ x :: xs := by
  intro xs
  induction xs with
  | nil =>
    rintro x rfl
    constructor
    · intro w hw
      simp only [List.mem_singleton, Val.fin.injEq] at hw
      exact hw.le
    · simp
  | cons y ys ih =>
    intro x hx
    obtain ⟨h1, h2⟩ := ih (F64.max2 x y) hx
    have hnan : ∀ zs : List Flt, zs.foldl F64.max2 .nan = .nan := by
      intro zs
      induction zs with
      | nil => rfl
      | cons z zs ihz => rw [List.foldl_cons]; exact ihz
    have hxn : x ≠ .nan := by
      rintro rfl
      rw [hnan] at hx
      cases hx
    have hle : ∀ w, (x = .fin w ∨ y = .fin w) → w ≤ v := by
      intro w hw
      have h3 : (∃ z, F64.max2 x y = .fin z ∧ w ≤ z) ∨ F64.max2 x y = .posInf := by
        rcases hw with rfl | rfl
        · cases y <;> simp only [F64.max2, F64.lt, decide_eq_true_eq, Bool.false_eq_true, if_false, if_true, Val.fin.injEq,
            exists_eq_left', le_refl, true_or, or_true]
          split_ifs with h
          · exact Or.inl ⟨_, rfl, h.le⟩
          · exact Or.inl ⟨_, rfl, le_rfl⟩
        · cases x <;> simp only [F64.max2, F64.lt, decide_eq_true_eq, Bool.false_eq_true, if_false, if_true, Val.fin.injEq,
            exists_eq_left', le_refl, true_or, or_true]
          · split_ifs with h
            · exact Or.inl ⟨_, rfl, le_rfl⟩
            · exact Or.inl ⟨_, rfl, not_lt.1 h⟩
          · exact absurd rfl hxn
      rcases h3 with ⟨z, hz, hwz⟩ | hz
      · exact hwz.trans (h1 z (by rw [hz]; exact List.mem_cons_self))
      · exact absurd (by rw [hz]; exact List.mem_cons_self) h2
    refine ⟨?_, ?_⟩
    · intro w hw
      rcases List.mem_cons.1 hw with h | hw
      · exact hle w (Or.inl h.symm)
      · rcases List.mem_cons.1 hw with h | hw
        · exact hle w (Or.inr h.symm)
        · exact h1 w (List.mem_cons_of_mem _ hw)
    · intro hm
      rcases List.mem_cons.1 hm with rfl | hm
      · refine h2 ?_
        have : F64.max2 .posInf y = .posInf := by cases y <;> rfl
        rw [this]; exact List.mem_cons_self
      · rcases List.mem_cons.1 hm with rfl | hm
        · have : F64.max2 x .posInf = .posInf := by
            cases x
            · rfl
            · rfl
            · rfl
            · exact absurd rfl hxn
          exact h2 (by rw [this]; exact List.mem_cons_self)
        · exact h2 (List.mem_cons_of_mem _ hm)

theorem maxList_fin {xs : List Flt} {v : ℚ} (h : F64.maxList xs = .ok (.fin v)) {w : ℚ} (hw : Val.fin w ∈ xs) : w ≤ v := by
  cases xs with
  | nil => cases hw
  | cons x xs =>
    simp only [F64.maxList, Except.ok.injEq] at h
    exact (max2_fold xs x h).1 w hw

/-- A greatest float is not minus infinity if there is a number. -/
theorem maxList_negInf {xs : List Flt} (h : F64.maxList xs = .ok .negInf) (w : ℚ) : Val.fin w ∉ xs := by
  cases xs with
  | nil => cases h
  | cons x xs =>
    simp only [F64.maxList, Except.ok.injEq] at h
    revert x
    induction xs with
    | nil => rintro x rfl; simp
    | cons y ys ih =>
      intro x hx hw
      have h1 := ih _ hx
      have h2 : F64.max2 x y = .negInf := by
        clear hw
        have key : ∀ (zs : List Flt) (z : Flt), zs.foldl F64.max2 z = .negInf → z = .negInf := by
          intro zs
          induction zs with
          | nil => exact fun z h => h
          | cons a zs ihz =>
            intro z hz
            have := ihz _ hz
            revert this
            cases z <;> cases a <;> simp [F64.max2, F64.lt]
            split_ifs <;> simp
        exact key _ _ hx
      have h3 : ∀ z, x ≠ .fin z ∧ (y ≠ .fin z) := by
        intro z
        revert h2
        cases x <;> cases y <;> simp [F64.max2, F64.lt]
        split_ifs <;> simp
      rcases List.mem_cons.1 hw with h | hw
      · exact (h3 w).1 h.symm
      · rcases List.mem_cons.1 hw with h | hw
        · exact (h3 w).2 h.symm
        · exact h1 (List.mem_cons_of_mem _ hw)

/-! ## Stored loads are reported -/

theorem utilLoopFull_covers {o : AS4100 ℚ} {b : Beam ℚ (Sect ℚ)} (hb : o.beam = some b) {ps : List (Num ℚ)} :
    ∀ {cs : List ℤ} {ret : List (ℤ × Num ℚ × Flt)}, o.utilLoopFull (some ps) cs = .ok ret → ∀ k ∈ cs, ∀ p ∈ ps,
      ∃ cap ts, o.phiNt64 (.scalar p) = .ok cap ∧ b.tension64 k p = .ok ts ∧
        ∀ t ∈ ts, ∃ w, F64.utilOne cap t = .ok w ∧ (k, p, w) ∈ ret := by
  intro cs
  induction cs with
  | nil => intro ret _ k hk; cases hk
  | cons c cs ih =>
    intro ret h k hk p hp
    simp only [AS4100.utilLoopFull, AS4100.utilPositions, bind, Except.bind, pure, Except.pure] at h
    split at h
    · cases h
    next here hhere =>
    split at h
    · cases h
    next rest hrest =>
    cases h
    rcases List.mem_cons.1 hk with rfl | hk
    · obtain ⟨out, hout, hat⟩ := forall₂_mem_left ((mapM_ok_iff _ _ _).1 hhere) hp
      simp only [AS4100.utilAtFull, hb, bind, Except.bind, pure, Except.pure] at hat
      split at hat
      · cases hat
      next cap hcap =>
      split at hat
      · cases hat
      next ts hts =>
      refine ⟨cap, ts, hcap, hts, ?_⟩
      intro t ht
      obtain ⟨x, hx, hrx⟩ := forall₂_mem_left ((mapM_ok_iff _ _ _).1 hat) ht
      split at hrx
      · cases hrx
      next w hw =>
      cases hrx
      exact ⟨w, hw, List.mem_append_left _ (List.mem_flatten.2 ⟨out, hout, hx⟩)⟩
    · obtain ⟨cap, ts, h1, h2, h3⟩ := ih hrest k hk p hp
      refine ⟨cap, ts, h1, h2, fun t ht => ?_⟩
      obtain ⟨w, h4, h5⟩ := h3 t ht
      exact ⟨w, h4, List.mem_append_right _ h5⟩

theorem utilLoopFull_first {o : AS4100 ℚ} {b : Beam ℚ (Sect ℚ)} (hb : o.beam = some b) (c : ℤ) (cs : List ℤ)
    (locs : List (Loc ℚ)) (hl : b.listPositions Rt.binary64 .none (some o.assessmentPoints) (some c) = .ok locs) :
    o.utilLoopFull none (c :: cs) = o.utilLoopFull (some (locs.map fun l => l.pos)) (c :: cs) := by
  simp only [AS4100.utilLoopFull, AS4100.utilPositions, hb, hl, bind, Except.bind, pure, Except.pure]

/-- A result of the whole check comes from utilisations for every tension reported at every position checked. -/
theorem utilisationFull_covers {o : AS4100 ℚ} {b : Beam ℚ (Sect ℚ)} (hb : o.beam = some b) {loadCase : CaseArg} {c : ℤ}
    {cs : List ℤ} (hcs : CasesOf o loadCase (c :: cs)) {locs : List (Loc ℚ)}
    (hl : b.listPositions Rt.binary64 .none (some o.assessmentPoints) (some c) = .ok locs) {u : Flt}
    (hu : o.tensionUtilisationFull loadCase .none = .ok u) {k : ℤ} (hk : k ∈ c :: cs) {l : Loc ℚ} (hlm : l ∈ locs) :
    ∃ cap ts, o.phiNt64 (.scalar l.pos) = .ok cap ∧ b.tension64 k l.pos = .ok ts ∧
      ∀ t ∈ ts, ∃ w ws, F64.utilOne cap t = .ok w ∧ w ∈ ws ∧ F64.maxList ws = .ok u := by
  simp only [AS4100.tensionUtilisationFull, PosArg.given, utilCases_ok hcs, bind, Except.bind,
    utilLoopFull_first hb c cs locs hl] at hu
  split at hu
  · cases hu
  next ret hret =>
  obtain ⟨cap, ts, h1, h2, h3⟩ := utilLoopFull_covers hb hret k hk l.pos (List.mem_map_of_mem hlm)
  refine ⟨cap, ts, h1, h2, fun t ht => ?_⟩
  obtain ⟨w, h5, h6⟩ := h3 t ht
  refine ⟨w, _, h5, List.mem_map.2 ⟨(k, l.pos, w), ?_, rfl⟩, hu⟩
  rcases hcs with rfl | ⟨c', rfl, he⟩ | ⟨rfl, -⟩
  · exact List.mem_filter.2 ⟨h6, by simpa using hk⟩
  · exact List.mem_filter.2 ⟨h6, by rw [he] at hk; simpa using hk⟩
  · exact h6

/-- A stored axial load on the grid is among the tensions reported at its position on the beam, if there are any. -/
theorem fullStored {b : Beam ℚ (Sect ℚ)} {ls : List (Num ℚ)} (h : HasLengths b ls) (hm : Marks rnd64 ls) {k : ℤ} {i : ℕ} {l : Num ℚ}
    {t : Table ℚ} {r : LRow ℚ} (hl : ls[i]? = some l) (ht : HasTable b k i t) (hrow : r ∈ t.rows) (hg : OnGrid rnd64 ls i r.pos)
    {ts : List Flt} (hts : b.tension64 k (Num.flt (startOf ls i + r.pos * l.val)) = .ok ts) : Val.fin (max r.n 0) ∈ ts := by
  obtain ⟨g1, l', hl', g2, g3⟩ := hg
  rw [hl] at hl'; cases hl'
  obtain ⟨-, hpos, -⟩ := hm.1 l (List.mem_of_getElem? hl)
  have hilt : i < ls.length := (List.getElem?_eq_some_iff.1 hl).1
  have hstep := startOf_succ ls i l hl
  obtain ⟨e1, he1, he2, hwf, hne⟩ := id ht
  obtain ⟨x0, x1⟩ := hwf.2 r hrow
  have hx0 : 0 ≤ r.pos * l.val := mul_nonneg x0 hpos.le
  have hx1 : r.pos * l.val ≤ l.val := mul_le_of_le_one_left hpos.le x1
  have hin : InElement ls (startOf ls i + r.pos * l.val) i := ⟨hilt, by linarith, by linarith⟩
  obtain ⟨out, h1, h2⟩ := C17_marks_partial C83_binary64_rounds b ls h hm (.scalar (Num.flt (startOf ls i + r.pos * l.val)))
    [startOf ls i + r.pos * l.val] (Or.inl ⟨_, rfl, rfl⟩) (some k) (by simpa using inElement_range h.2 hin)
  obtain ⟨e, he, q1, q2, -, -, l', hl', q3⟩ := listing_ne h2 (List.mem_singleton_self _) hin
  rw [hl] at hl'; cases hl'
  rw [add_sub_cancel_left, g2, mul_div_assoc, div_self hpos.ne', mul_one, g1] at q3
  simp only [Beam.tension64, h1, bind, Except.bind] at hts
  split at hts
  · cases hts
  next vals hvals =>
  split_ifs at hts
  obtain ⟨vs, hvs, hev⟩ := forall₂_mem_left ((mapM_ok_iff _ _ _).1 hvals) he
  have hmem : some (Val.fin r.n) ∈ vs := by
    have hidx : pyIndex b.elements (e.elem : ℤ) = .ok e1 := (pyIndex_ok_iff _ _ _).2 ⟨i, he1, Or.inl (by rw [q2])⟩
    have hcase : e1.case k = .ok ⟨some t⟩ := by
      unfold Element.case
      rw [he2]
    simp only [Beam.axialOver, hidx, hcase, bind, Except.bind, LoadCase.loadOver, q3] at hev
    split_ifs at hev with h3 h4
    · cases hev
      exact List.mem_map.2 ⟨r, List.mem_filter.2 ⟨hrow, by simp⟩, rfl⟩
    · exact absurd (List.mem_map_of_mem hrow) h4
  obtain ⟨w, hw, hcl⟩ := forall₂_mem_left ((mapM_ok_iff _ _ _).1 hts) (List.mem_flatten.2 ⟨vs, hvs, hmem⟩)
  simp only [clampVal, Except.ok.injEq] at hcl
  rw [← hcl] at hw
  convert hw using 2
  split_ifs with h0
  · exact max_eq_right h0.le
  · exact max_eq_left (not_lt.1 h0)

/-- The utilisation of a stored axial load on the grid is among those of which the largest is returned. -/
theorem fullCovers {o : AS4100 ℚ} (ho : Rated o) {b : Beam ℚ (Sect ℚ)} (hb : o.beam = some b)
    {ls : List (Num ℚ)} (h : HasLengths b ls) (hm : Marks rnd64 ls) {n : ℕ} (hn : o.assessmentPoints = n)
    {loadCase : CaseArg} {c : ℤ} {cs : List ℤ} (hcs : CasesOf o loadCase (c :: cs))
    (hc : LoadedFloat b c) {u : Flt} (hu : o.tensionUtilisationFull loadCase .none = .ok u) {k : ℤ}
    (hk : k ∈ c :: cs) (hst : StationsOf b c k) {i : ℕ} {l : Num ℚ} {t : Table ℚ} {r : LRow ℚ} (hl : ls[i]? = some l)
    (ht : HasTable b k i t) (hrow : r ∈ t.rows) (hg : OnGrid rnd64 ls i r.pos)
    {cap : ℚ} (hcap : o.phiNt Rt.binary64 (.scalar (Num.flt (startOf ls i + r.pos * l.val))) = .ok cap) :
    ∃ w ws, F64.utilOne (.fin cap) (.fin (max r.n 0)) = .ok w ∧ w ∈ ws ∧ F64.maxList ws = .ok u := by
  have hilt : i < ls.length := (List.getElem?_eq_some_iff.1 hl).1
  obtain ⟨-, hpos, -⟩ := hm.1 l (List.mem_of_getElem? hl)
  have hstep := startOf_succ ls i l hl
  obtain ⟨e1, he1, he2, hwf, hne⟩ := id ht
  obtain ⟨x0, x1⟩ := hwf.2 r hrow
  have hx0 : 0 ≤ r.pos * l.val := mul_nonneg x0 hpos.le
  have hx1 : r.pos * l.val ≤ l.val := mul_le_of_le_one_left hpos.le x1
  have hin : InElement ls (startOf ls i + r.pos * l.val) i := ⟨hilt, by linarith, by linarith⟩
  have hgrid : rnd64 (startOf ls i + rnd64 (r.pos * l.val)) = startOf ls i + r.pos * l.val := by
    obtain ⟨g1, l', hl', g2, g3⟩ := hg
    rw [hl] at hl'; cases hl'
    rw [g2, g3]
  obtain ⟨xs, locs, h1, h2, -, h6⟩ := C17_marks_min_partial C83_binary64_rounds b ls h hm (some c) (by
    rintro k' hk i hi
    cases hk
    obtain ⟨t, ht, -⟩ := hc i hi
    exact ⟨t, ht⟩) n
  obtain ⟨t', r', ht', hr', hrr⟩ := hst i t r ht hrow
  have hmem := h6 i l c t' r' hl rfl ht' hr'
  rw [hrr, hgrid] at hmem
  obtain ⟨e, he, q1, -⟩ := listing_ne h2 hmem hin
  obtain ⟨ps, hps, hpm⟩ := listPositions_pos h1
  have hfl := positionList_flt h (fun l hl => (hm.1 l hl).1) hps e.pos (hpm e he)
  have hpe : e.pos = Num.flt (startOf ls i + r.pos * l.val) := by
    rw [← q1]
    generalize e.pos = p at hfl
    cases p
    simp only at hfl
    rw [hfl]
    rfl
  obtain ⟨cap', ts, a1, a2, a3⟩ := utilisationFull_covers hb hcs (by rw [hn]; exact h1) hu hk he
  rw [hpe] at a1 a2
  rw [phiNt64_ok ho hcap] at a1
  cases a1
  exact a3 _ (fullStored h hm hl ht hrow hg a2)

/-- A utilisation that is found is a number. -/
theorem utilOne_num {cap t : ℚ} (dt : IsDouble t) (dc : IsDouble cap) (hcap : 2 ^ (-900 : ℤ) ≤ cap) {w : Flt}
    (h : F64.utilOne (.fin cap) (.fin t) = .ok w) : ∃ v, w = .fin v ∧ F64.utilNum cap t = .ok v := by
  by_cases hw : ∃ v, w = .fin v
  · obtain ⟨v, rfl⟩ := hw
    refine ⟨v, rfl, ?_⟩
    unfold F64.utilNum
    rw [h]
    rfl
  · have hn : F64.utilNum cap t = .error .outsideModel := by
      unfold F64.utilNum
      rw [h]
      cases w with
      | fin v => exact absurd ⟨v, rfl⟩ hw
      | _ => rfl
    rcases le_or_gt t 0 with h0 | h0
    · rw [utilNum_zero h0] at hn
      cases hn
    · rcases utilNum_cases dt dc hcap h0 with ⟨-, v, hv, -⟩ | ⟨hv, -⟩
      · rw [hv] at hn
        cases hn
      · rw [hv] at hn
        cases hn

/-! ## Without overflow -/

theorem separate_of {b : Beam ℚ (Sect ℚ)} {F : ℚ → Prop} {size : ℚ} (h : LoadsUpTo F (2 ^ (-900 : ℤ)) size b) :
    SeparateIn Rt.binary64 b := by
  intro e he c t ht r hr s hs h0
  have hm := (h e he c t ht).2.2
  have key : ∀ a ∈ t.rows, ∀ b ∈ t.rows, a.pos < b.pos → rnd64 (b.pos - a.pos) ≠ 0 := by
    intro a ha b hb hlt h0
    have := two_le_rnd64 (k := -900) (by norm_num) (hm.gaps a ha b hb hlt)
    rw [h0] at this
    exact absurd this (not_le.2 (two_zpow_pos _))
  rcases lt_trichotomy r.pos s.pos with hlt | heq | hlt
  · refine absurd ?_ (key r hr s hs hlt)
    have : rnd64 (r.pos - s.pos) = 0 := h0
    rw [← neg_sub, rnd64_neg, this, neg_zero]
  · exact heq
  · exact absurd h0 (key s hs r hr hlt)

/-- a load that is a double, if there is one -/
def MaybeDouble : Option Flt → Prop
  | none => True
  | some v => ∃ x, v = .fin x ∧ IsDouble x

theorem loadOver_axial {isInt : Bool} {rows : List (LRow ℚ)} (hwf : WellFormed rows) (hM : Machine IsDouble rows)
    (hm : Moderate (2 ^ (-900 : ℤ)) (2 ^ (100 : ℤ)) .N rows) (hs : Separate Rt.binary64 rows) (p : Num ℚ) :
    (⟨some ⟨isInt, rows⟩⟩ : LoadCase ℚ).loadOver Rt.binary64 .N p
      = (⟨some ⟨isInt, rows⟩⟩ : LoadCase ℚ).axial Rt.binary64 false Val.fin p ∧
    ∀ vs, (⟨some ⟨isInt, rows⟩⟩ : LoadCase ℚ).loadOver Rt.binary64 .N p = .ok vs → ∀ v ∈ vs, MaybeDouble v := by
  have h1 : overInterp Rt.binary64 p.val (rows.map fun r => (r.pos, r.n)) =
      (npInterp Rt.binary64 none none p.val (rows.map fun r => (r.pos, r.n))).map Val.fin := by
    apply overInterp_eq (e := 100) (g := 900) (by norm_num) (by norm_num) (by norm_num)
    · intro q hq
      obtain ⟨r, hr, rfl⟩ := List.mem_map.1 hq
      exact ⟨(hwf.2 r hr).1, (hwf.2 r hr).2, hm.sizes r hr⟩
    · intro a ha b hb
      obtain ⟨r, hr, rfl⟩ := List.mem_map.1 ha
      obtain ⟨s, hs, rfl⟩ := List.mem_map.1 hb
      exact hm.gaps r hr s hs
  have h2 := valInterp_fin (rt := Rt.binary64) (retry := false) p.val (rows.map fun r => (r.pos, r.n)) (by
    intro a ha b hb
    obtain ⟨r, hr, rfl⟩ := List.mem_map.1 ha
    obtain ⟨s, hs', rfl⟩ := List.mem_map.1 hb
    exact hs r hr s hs')
  rw [List.map_map] at h2
  have h3 : ∀ x, npInterp Rt.binary64 none none p.val (rows.map fun r => (r.pos, r.n)) = .ok x → IsDouble x := by
    intro x hx
    have hne : rows ≠ [] := by rintro rfl; cases hx
    have := npInterp_ok Rt.binary64 hne .N p.val
    have h4 := interpVal_double hM hne .N p.val
    rw [show (fun r : LRow ℚ => (r.pos, r.get .N)) = fun r => (r.pos, r.n) from rfl, hx] at this
    cases this
    exact h4
  unfold LoadCase.loadOver LoadCase.axial
  by_cases hi : p.isInt = true
  · simp [hi]
  · simp only [hi, Bool.false_eq_true, if_false]
    by_cases hmem : p.val ∈ rows.map (·.pos)
    · simp only [hmem, if_true]
      refine ⟨rfl, ?_⟩
      intro vs hvs v hv
      cases hvs
      obtain ⟨r, hr, rfl⟩ := List.mem_map.1 hv
      exact ⟨_, rfl, (hM r (List.mem_filter.1 hr).1).2 .N⟩
    · simp only [hmem, if_false]
      simp only [show (fun r : LRow ℚ => (r.pos, r.get .N)) = fun r => (r.pos, r.n) from rfl, h1]
      simp only [Function.comp_def] at h2
      revert h2 h3
      cases npInterp Rt.binary64 none none p.val (rows.map fun r => (r.pos, r.n)) <;>
        cases valInterp Rt.binary64 false p.val (rows.map fun r => (r.pos, Val.fin r.n)) <;>
        simp only [PRel, false_implies]
      · rintro rfl -
        exact ⟨rfl, fun vs hvs => by cases hvs⟩
      · rintro rfl h3
        refine ⟨rfl, ?_⟩
        intro vs hvs v hv
        cases hvs
        obtain rfl := List.mem_singleton.1 hv
        exact ⟨_, rfl, h3 _ rfl⟩

theorem axialOver_eq {b : Beam ℚ (Sect ℚ)} (h : LoadsUpTo IsDouble (2 ^ (-900 : ℤ)) (2 ^ (100 : ℤ)) b) (c : ℤ) (l : Loc ℚ) :
    b.axialOver c l = b.axialOf Rt.binary64 false Val.fin c l ∧ ∀ vs, b.axialOver c l = .ok vs → ∀ v ∈ vs, MaybeDouble v := by
  unfold Beam.axialOver Beam.axialOf
  cases he : pyIndex b.elements (l.elem : ℤ) with
  | error => exact ⟨rfl, fun vs hvs => by cases hvs⟩
  | ok e =>
    obtain ⟨m, hm, -⟩ := (pyIndex_ok_iff _ _ _).1 he
    simp only [bind, Except.bind]
    unfold Element.case
    cases hl : e.loads.lookup c with
    | none => exact ⟨rfl, fun vs hvs => by cases hvs⟩
    | some lc =>
      simp only
      obtain ⟨loads⟩ := lc
      cases loads with
      | none =>
        refine ⟨rfl, ?_⟩
        unfold LoadCase.loadOver
        split_ifs
        · intro vs hvs; cases hvs
        · intro vs hvs v hv
          cases hvs
          obtain rfl := List.mem_singleton.1 hv
          trivial
      | some t =>
        obtain ⟨h1, h2, h3⟩ := h e (List.mem_of_getElem? hm) c t hl
        exact loadOver_axial h1 h2 h3 (separate_of h e (List.mem_of_getElem? hm) c t hl) l.loc

theorem tension64_eq {b : Beam ℚ (Sect ℚ)} (h : LoadsUpTo IsDouble (2 ^ (-900 : ℤ)) (2 ^ (100 : ℤ)) b) (c : ℤ) (p : Num ℚ) :
    b.tension64 c p = b.tensionVals Rt.binary64 false Val.fin c p ∧
      ∀ ts, b.tension64 c p = .ok ts → ∀ v ∈ ts, ∃ x, v = .fin x ∧ IsDouble x := by
  have he : b.axialOver c = b.axialOf Rt.binary64 false Val.fin c := funext fun l => (axialOver_eq h c l).1
  refine ⟨by simp only [Beam.tension64, Beam.tensionVals, he], ?_⟩
  intro ts hts v hv
  simp only [Beam.tension64, bind, Except.bind] at hts
  split at hts
  · cases hts
  next locs _ =>
  split at hts
  · cases hts
  next vals hvals =>
  split_ifs at hts
  obtain ⟨y, hy, hcl⟩ := forall₂_mem_right ((mapM_ok_iff _ _ _).1 hts) hv
  obtain ⟨vs, hvs, hy⟩ := List.mem_flatten.1 hy
  obtain ⟨l, -, hl⟩ := forall₂_mem_right ((mapM_ok_iff _ _ _).1 hvals) hvs
  have hd := (axialOver_eq h c l).2 vs hl y hy
  cases y with
  | none => cases hcl
  | some y =>
    obtain ⟨x, rfl, hx⟩ := hd
    simp only [clampVal, Except.ok.injEq] at hcl
    refine ⟨_, hcl.symm, ?_⟩
    split_ifs
    · exact ⟨0, 0, by norm_num, by norm_num, by simp⟩
    · exact hx

theorem phiNt_usual {o : AS4100 ℚ} (hd : UsualData IsDouble (2 ^ (-100 : ℤ)) o) {position : PosArg ℚ} {cap : ℚ}
    (h : o.phiNt Rt.binary64 position = .ok cap) : IsDouble cap ∧ 2 ^ (-900 : ℤ) ≤ cap := by
  cases hc : o.considered Rt.binary64 position with
  | error e =>
    simp only [AS4100.phiNt, AS4100.Nt, AS4100.Nty, hc, bind, Except.bind] at h
    cases h
  | ok ds =>
    have hne : ds ≠ [] := by
      rintro rfl
      simp only [AS4100.phiNt, AS4100.Nt, AS4100.Nty, hc, bind, Except.bind, List.mapM_nil, pure, Except.pure, pyMin] at h
      cases h
    obtain ⟨cap', M, h1, h2, -, h4, h5⟩ := phiNt_near C78_binary64_rounds (two_zpow_pos _).le (by norm_num) (two_zpow_pos _)
      (by norm_num) underflow_small piD_double hd hc hne (considered_mem hc)
    rw [h] at h1
    cases h1
    refine ⟨h2, ?_⟩
    have h0 : (0 : ℚ) < o.phiSteel * M := lt_of_lt_of_le (pow_pos (two_zpow_pos _) _) h5
    have h6 : (2 : ℚ) ^ (-900 : ℤ) * 2 ≤ o.phiSteel * M := by
      refine le_trans ?_ h5
      rw [← zpow_natCast, ← zpow_mul, ← zpow_add_one₀ (by norm_num)]
      exact zpow_le_zpow_right₀ (by norm_num) (by norm_num)
    generalize (2 : ℚ) ^ (-900 : ℤ) = z at h6 ⊢
    clear h5
    obtain ⟨c1, -⟩ := abs_le.1 h4
    norm_num at c1
    linarith

theorem utilOne_rel {cap t : ℚ} (dt : IsDouble t) (dc : IsDouble cap) (hcap : 2 ^ (-900 : ℤ) ≤ cap) :
    PRel (fun v w => v = Val.fin w) (F64.utilOne (.fin cap) (.fin t)) (F64.utilNum cap t) := by
  cases h : F64.utilOne (.fin cap) (.fin t) with
  | ok w =>
    obtain ⟨v, rfl, hv⟩ := utilOne_num dt dc hcap h
    rw [hv]
    rfl
  | error e =>
    have : F64.utilNum cap t = .error e := by
      unfold F64.utilNum
      rw [h]
      rfl
    rw [this]
    rfl

/-- the same load case and position, and the same utilisation -/
def SameRow (x : ℤ × Num ℚ × Flt) (y : ℤ × Num ℚ × ℚ) : Prop := x.1 = y.1 ∧ x.2.1 = y.2.1 ∧ x.2.2 = Val.fin y.2.2

theorem forall₂_with {α β : Type} {R : α → β → Prop} {xs : List α} {ys : List β} (h : List.Forall₂ R xs ys) :
    List.Forall₂ (fun a b => R a b ∧ a ∈ xs) xs ys := by
  induction h with
  | nil => exact .nil
  | cons h _ ih => exact .cons ⟨h, List.mem_cons_self⟩ (ih.imp fun a b hab => ⟨hab.1, List.mem_cons_of_mem _ hab.2⟩)

theorem utilAtFull_rel {o : AS4100 ℚ} (ho : Rated o) (hd : UsualData IsDouble (2 ^ (-100 : ℤ)) o)
    (hl : ∀ b, o.beam = some b → LoadsUpTo IsDouble (2 ^ (-900 : ℤ)) (2 ^ (100 : ℤ)) b) (c : ℤ) (p : Num ℚ) :
    PRel (List.Forall₂ SameRow) (o.utilAtFull c p)
      (o.utilAtWith F64.utilNum Rt.binary64 c p) := by
  unfold AS4100.utilAtFull AS4100.utilAtWith
  refine PRel.bind (S := fun v w => v = Val.fin w ∧ o.phiNt Rt.binary64 (.scalar p) = .ok w) ?_ fun v cap hv => ?_
  · have := phiNt64_rel ho (.scalar p)
    unfold AS4100.tensionCapacity
    revert this
    cases o.phiNt64 (.scalar p) <;> cases o.phiNt Rt.binary64 (.scalar p) <;> simp only [PRel, imp_self]
    rintro ⟨h, -⟩
    exact ⟨h, trivial⟩
  · obtain ⟨rfl, hcap⟩ := hv
    obtain ⟨dc, hlo⟩ := phiNt_usual hd hcap
    cases hb : o.beam with
    | none =>
      simp only [AS4100.getTension, hb]
      rfl
    | some b =>
      simp only
      obtain ⟨h1, h2⟩ := tension64_eq (hl b hb) c p
      have h3 := tension_rel (retry := false) o b (separate_of (hl b hb)) hb c p
      rw [← h1] at h3
      revert h2 h3
      cases b.tension64 c p <;> cases o.getTension Rt.binary64 c (.scalar p) none <;>
        simp only [PRel, implies_true, false_implies]
      · rintro - rfl
        rfl
      · intro h2 h3
        rename_i ts tab
        refine PRel.mapM (R := fun (w : Flt) s => (∃ x : ℚ, s.2 = [some x] ∧ w = Val.fin x) ∧ w ∈ ts) ?_ ?_
        · rintro w s ⟨⟨x, hs, rfl⟩, hw⟩
          obtain ⟨x', hx', dx⟩ := h2 ts rfl _ hw
          cases hx'
          rw [hs]
          exact (utilOne_rel dx dc hlo).bind fun v w' hvw => ⟨rfl, rfl, hvw⟩
        · exact forall₂_with h3

theorem flatten_rel {α β : Type} {R : α → β → Prop} {xs : List (List α)} {ys : List (List β)}
    (h : List.Forall₂ (List.Forall₂ R) xs ys) : List.Forall₂ R xs.flatten ys.flatten := by
  induction h with
  | nil => exact .nil
  | cons h _ ih => exact List.rel_append h ih

theorem utilLoopFull_rel {o : AS4100 ℚ} (ho : Rated o) (hd : UsualData IsDouble (2 ^ (-100 : ℤ)) o)
    (hl : ∀ b, o.beam = some b → LoadsUpTo IsDouble (2 ^ (-900 : ℤ)) (2 ^ (100 : ℤ)) b) (cs : List ℤ) : ∀ pos : Option (List (Num ℚ)),
    PRel (List.Forall₂ SameRow) (o.utilLoopFull pos cs)
      (o.utilLoopWith F64.utilNum Rt.binary64 pos cs) := by
  induction cs with
  | nil => intro pos; cases pos <;> exact List.Forall₂.nil
  | cons c cs ih =>
    intro pos
    simp only [AS4100.utilLoopFull, AS4100.utilLoopWith]
    refine PRel.bind (PRel.refl _) fun ps ps' hps => ?_
    subst hps
    refine PRel.bind (PRel.mapM (R := (· = ·)) (S := List.Forall₂ SameRow) ?_ (List.forall₂_same.2 fun _ _ => rfl)) fun xs ys hxy => ?_
    · rintro p _ rfl
      exact utilAtFull_rel ho hd hl c p
    · exact (ih (some ps)).bind fun as bs hab => List.rel_append (flatten_rel hxy) hab

theorem filter_rel {α β : Type} {R : α → β → Prop} {p : α → Bool} {q : β → Bool} (hpq : ∀ a b, R a b → p a = q b)
    {xs : List α} {ys : List β} (h : List.Forall₂ R xs ys) : List.Forall₂ R (xs.filter p) (ys.filter q) := by
  induction h with
  | nil => exact .nil
  | cons h _ ih =>
    rename_i a b _ _ _
    have := hpq _ _ h
    cases hp : p a
    · rw [List.filter_cons_of_neg (by simp [hp]), List.filter_cons_of_neg (by simp [← this, hp])]
      exact ih
    · rw [List.filter_cons_of_pos hp, List.filter_cons_of_pos (by rw [← this, hp])]
      exact .cons h ih

theorem maxList_map (ws : List ℚ) : F64.maxList (ws.map Val.fin) = (pyMax ws).map Val.fin := by
  cases ws with
  | nil => rfl
  | cons x xs =>
    show Except.ok (List.foldl F64.max2 (Val.fin x) (xs.map Val.fin)) = Except.ok (Val.fin (xs.foldl max x))
    congr 1
    revert x
    induction xs with
    | nil => intro x; rfl
    | cons y ys ih =>
      intro x
      rw [List.map_cons, List.foldl_cons, List.foldl_cons, ← ih]
      congr 1
      by_cases h : x < y
      · simp only [F64.max2, F64.lt, h, decide_true, if_true, max_eq_right h.le]
      · simp only [F64.max2, F64.lt, h, decide_false, Bool.false_eq_true, if_false, max_eq_left (not_lt.1 h)]

end BeamDesign
