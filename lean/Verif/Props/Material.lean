import Verif.Lemmas.Material
import Verif.Model.Shipped
import Mathlib.Algebra.Order.Field.Rat

set_option linter.unusedSectionVars false
set_option linter.unusedSimpArgs false

/-! # Materials and strength tables: C24 to C28 -/

namespace BeamDesign

open Spec

section lookup
variable {K : Type} [LinearOrder K] [Zero K]

/-- C24: for a thickness between 0 and the largest tabulated one the look-up gives the yield strength beside
the smallest tabulated thickness not below it. -/
theorem C24_yield (ts fy fu : List K) (rest : List (List K)) (yu : YU) (hyu : AsksYield yu)
    (hasc : ts.Pairwise (· < ·)) (hlen : ts.length ≤ fy.length) (t m : K) (hm : ts.getLast? = some m)
    (ht0 : 0 ≤ t) (ht : t ≤ m) :
    ∃ v, getF t yu (ts :: fy :: fu :: rest) = .ok v ∧ BandValue ts fy t v :=
  getF_lookup (asksYield_row hyu) rfl rfl hasc hlen hm ht0 ht

/-- C24: the same for the ultimate strength. -/
theorem C24_ultimate (ts fy fu : List K) (rest : List (List K)) (yu : YU) (hyu : AsksUltimate yu)
    (hasc : ts.Pairwise (· < ·)) (hlen : ts.length ≤ fu.length) (t m : K) (hm : ts.getLast? = some m)
    (ht0 : 0 ≤ t) (ht : t ≤ m) :
    ∃ v, getF t yu (ts :: fy :: fu :: rest) = .ok v ∧ BandValue ts fu t v :=
  getF_lookup (asksUltimate_row hyu) rfl rfl hasc hlen hm ht0 ht

/-- C24: and only then: whatever the table, a strength is answered exactly for a thickness which is not negative, from a
strictly ascending column of thicknesses, as the entry beside the smallest of them not below the thickness. -/
theorem C24_iff (ts fy fu : List K) (rest : List (List K)) (yu : YU) (t v : K) :
    (AsksYield yu → (getF t yu (ts :: fy :: fu :: rest) = .ok v ↔
      ts.Pairwise (· < ·) ∧ 0 ≤ t ∧ BandValue ts fy t v)) ∧
    (AsksUltimate yu → (getF t yu (ts :: fy :: fu :: rest) = .ok v ↔
      ts.Pairwise (· < ·) ∧ 0 ≤ t ∧ BandValue ts fu t v)) := by
  constructor <;> intro h <;> rw [getF_iff]
  · simp [asksYield_row h]
  · simp [asksUltimate_row h]

/-- C24: the strengths a design section reports (`min_fy`, `min_fu`) are those of its material at its diameter. -/
theorem C24_section {K : Type} [Field K] [LinearOrder K] (d : DSect K) (fy fu : K) :
    d.minFy = .ok fy ∧ d.minFu = .ok fu ↔ Strengths d fy fu := strengths_iff.symm

/-- C24: the errors.  A negative thickness is always refused; a table that is not strictly ascending raises
`InvalidMaterialError`; a thickness above the table raises `InvalidThicknessError`. -/
theorem C24_errors (ts : List K) (rows : List (List K)) (yu : YU) (t : K) :
    (t < 0 → getF t yu (ts :: rows) = .error .invalidThickness) ∧
    (0 ≤ t → ¬ ts.Pairwise (· < ·) → getF t yu (ts :: rows) = .error .invalidMaterial) ∧
    (0 ≤ t → ts.Pairwise (· < ·) → ts ≠ [] → (∀ x ∈ ts, x < t) →
      getF t yu (ts :: rows) = .error .invalidThickness) := by
  refine ⟨fun h => ?_, fun h0 h => ?_, fun h0 hasc hne h => ?_⟩
  · simp [getF, listGet, bind, Except.bind, h, throw, throwThe, MonadExceptOf.throw]
  · have : ascending ts = false := by
      rw [← ascending_iff] at h
      simpa using h
    simp [getF, listGet, bind, Except.bind, not_lt.2 h0, throw, throwThe, MonadExceptOf.throw, this, pure,
      Except.pure]
  · obtain ⟨m, hm⟩ : ∃ m, ts.getLast? = some m := ⟨ts.getLast hne, List.getLast?_eq_some_getLast hne⟩
    simp [getF, listGet, bind, Except.bind, not_lt.2 h0, throw, throwThe, MonadExceptOf.throw,
      (ascending_iff ts).2 hasc, pure, Except.pure, hm, h m (List.mem_of_getLast? hm)]

/-- C24: the last error message of the look-up ("unknown error") cannot be reached, whatever the arguments. -/
theorem C24_no_unknown (t : K) (yu : YU) (strengths : List (List K)) :
    getF t yu strengths ≠ .error .materialError := by
  intro h
  simp only [getF, listGet, bind, Except.bind, throw, throwThe, MonadExceptOf.throw, pure, Except.pure] at h
  split at h
  · rename_i e he
    split at he <;> simp_all
  · split at h
    · simp at h
    · split at h
      · simp at h
      · split at h
        · simp at h
        · rename_i last hlast
          split at h
          · simp at h
          · rename_i hnot
            split at h
            · rename_i e he
              unfold YU.row at he
              repeat' split at he
              all_goals simp_all
            · split at h
              · rename_i hb
                exact hnot (bandIndex_none _ _ _ hb last (List.mem_of_getLast? hlast))
              · split at h
                · rename_i e he
                  split at he <;> simp_all
                · split at h <;> simp_all

/-- C24: a table without thicknesses, without the row asked for, or with too short a row raises `IndexError`. -/
theorem C24_short (ts : List K) (rows : List (List K)) (yu : YU) (t : K) :
    getF t yu [] = .error .indexError ∧
    (0 ≤ t → getF t yu ([] :: rows) = .error .indexError) ∧
    (∀ row m, 0 ≤ t → ts.Pairwise (· < ·) → ts.getLast? = some m → t ≤ m → yu.row = .ok (row + 1) →
      (rows[row]? = none ∨ rows[row]? = some []) → getF t yu (ts :: rows) = .error .indexError) := by
  refine ⟨rfl, fun h0 => ?_, fun row m h0 hasc hm ht hrow hr => ?_⟩
  · simp [getF, listGet, bind, Except.bind, not_lt.2 h0, throw, throwThe, MonadExceptOf.throw, pure, Except.pure, ascending]
  · have hunk := C24_no_unknown t yu (ts :: rows)
    simp only [getF, listGet, bind, Except.bind, not_lt.2 h0, throw, throwThe, MonadExceptOf.throw, pure, Except.pure, hrow,
      (ascending_iff ts).2 hasc, Bool.not_true, Bool.false_eq_true, if_false, hm, not_lt.2 ht, List.getElem?_cons_zero,
      List.getElem?_cons_succ] at hunk ⊢
    rcases hb : bandIndex t ts 0 with _ | i
    · rw [hb] at hunk
      exact absurd rfl hunk
    · rcases hr with hr | hr <;> simp [hr]

/-- a table with thicknesses only -/
example : getF (1 : ℚ) (.str "Y") [[2]] = .error .indexError := by decide +kernel

/-- C24: a single number in place of the table of strengths has no rows: `TypeError`, not a strength. -/
theorem C24_number {K : Type} [Field K] [LinearOrder K] (d : DSect K) (x : K) (h : d.material.properties.lookup "strengths" = some (.num x)) :
    d.minFy = .error .typeError ∧ d.minFu = .error .typeError := by
  simp only [DSect.minFy, DSect.minFu, DSect.strengths, DSect.mat, Material.property, h, bind, Except.bind, and_self]

/-- a steel with one strength for all thicknesses -/
example : (⟨1, ⟨.mat .steel, .str "steel", .str "AS 3678", [("strengths", .num 250)]⟩⟩ : DSect ℚ).minFy = .error .typeError :=
  (C24_number _ 250 rfl).1

/-- C25: if the tabulated strengths do not increase with thickness, neither does the looked-up strength. -/
theorem C25_antitone (ts fy fu : List K) (rest : List (List K)) (yu : YU) (vals : List K)
    (hyu : AsksYield yu ∧ vals = fy ∨ AsksUltimate yu ∧ vals = fu) (hlen : ts.length ≤ vals.length)
    (hdown : vals.Pairwise (· ≥ ·)) (t₁ t₂ v₁ v₂ : K) (h12 : t₁ ≤ t₂)
    (h₁ : getF t₁ yu (ts :: fy :: fu :: rest) = .ok v₁) (h₂ : getF t₂ yu (ts :: fy :: fu :: rest) = .ok v₂) :
    v₂ ≤ v₁ := by
  have err := fun t => C24_errors ts (fy :: fu :: rest) yu t
  have key : ∀ t v, getF t yu (ts :: fy :: fu :: rest) = .ok v →
      ts.Pairwise (· < ·) ∧ BandValue ts vals t v := by
    intro t v h
    have h0 : 0 ≤ t := by
      by_contra hlt
      rw [(err t).1 (not_le.1 hlt)] at h
      cases h
    have hasc : ts.Pairwise (· < ·) := by
      by_contra hn
      rw [(err t).2.1 h0 hn] at h
      cases h
    have hne : ts ≠ [] := by
      rintro rfl
      simp [getF, listGet, bind, Except.bind, not_lt.2 h0, ascending, throw, throwThe, MonadExceptOf.throw,
        pure, Except.pure] at h
    have hm := List.getLast?_eq_some_getLast hne
    have hle : t ≤ ts.getLast hne := by
      by_contra hn
      rw [(err t).2.2 h0 hasc hne] at h
      · cases h
      · intro x hx
        refine lt_of_le_of_lt ?_ (not_le.1 hn)
        obtain ⟨i, hi, rfl⟩ := List.mem_iff_getElem.1 hx
        rw [List.getLast_eq_getElem]
        rcases Nat.lt_or_ge i (ts.length - 1) with hlt | hge
        · exact le_of_lt (List.pairwise_iff_getElem.1 hasc i _ _ _ hlt)
        · have : i = ts.length - 1 := by omega
          subst this
          exact le_rfl
    refine ⟨hasc, ?_⟩
    rcases hyu with ⟨hy, rfl⟩ | ⟨hy, rfl⟩
    · obtain ⟨v', hv', hb⟩ := C24_yield ts vals fu rest yu hy hasc hlen t _ hm h0 hle
      rw [hv'] at h
      cases h
      exact hb
    · obtain ⟨v', hv', hb⟩ := C24_ultimate ts fy vals rest yu hy hasc hlen t _ hm h0 hle
      rw [hv'] at h
      cases h
      exact hb
  obtain ⟨hasc, i, x, hi, hvi, hleast⟩ := key t₁ v₁ h₁
  obtain ⟨-, j, y, hj, hvj, hleast'⟩ := key t₂ v₂ h₂
  have hxy : x ≤ y := hleast.2 ⟨hleast'.1.1, le_trans h12 hleast'.1.2⟩
  obtain ⟨hil, rfl⟩ := List.getElem?_eq_some_iff.1 hi
  obtain ⟨hjl, rfl⟩ := List.getElem?_eq_some_iff.1 hj
  obtain ⟨hil', rfl⟩ := List.getElem?_eq_some_iff.1 hvi
  obtain ⟨hjl', rfl⟩ := List.getElem?_eq_some_iff.1 hvj
  rcases Nat.lt_trichotomy i j with h | h | h
  · exact List.pairwise_iff_getElem.1 hdown i j _ _ h
  · subst h
    exact le_rfl
  · exact absurd hxy (not_le.2 (List.pairwise_iff_getElem.1 hasc j i _ _ h))

end lookup

/-- C24/C25: the hypotheses are met by a shipped table. -/
example : getF (13/1000 : ℚ) (.str "Y") [[1/100, 2/100], [300, 250], [400, 400]] = .ok 250 := by decide +kernel
example : getF (1/100 : ℚ) (.bool false) [[1/100, 2/100], [300, 250], [400, 390]] = .ok 400 := by decide +kernel
example : getF (21/1000 : ℚ) (.str "Y") [[1/100, 2/100], [300, 250], [400, 400]] = .error .invalidThickness := by
  decide +kernel
example : getF (1/1000 : ℚ) (.str "Y") [[2/100, 2/100], [300, 250], [400, 400]] = .error .invalidMaterial := by
  decide +kernel

section shipped

/-- What C26 needs to know of a table. -/
def goodTable (ts fy fu : List ℚ) : Bool :=
  decide (ts.Pairwise (· < ·)) && decide (fy.Pairwise (· ≥ ·)) && decide (ts.length = fy.length) &&
    decide (ts.length = fu.length) && decide (∀ p ∈ fy.zip fu, 0 < p.1 ∧ p.1 < p.2) &&
    decide (∀ t ∈ ts, 0 < t) && !ts.isEmpty

/-- What C26 needs to know of a loaded material. -/
def goodMaterial (m : Material ℚ) : Bool :=
  match m.properties.lookup "strengths" with
  | some (.table [ts, fy, fu]) => goodTable ts fy fu
  | some _ => false
  | none => true

theorem shipped_good : ∃ ms, Material.loadAll shippedFile = .ok ms ∧
    ms.map (·.1) = ["AS3678-2016-250", "AS3678-2016-300", "AS3678-2016-350", "AS3678-2016-400",
      "AS3679.1-1996-250", "AS3679.1-2016-300", "AS3679.1-2016-350", "test_propertyless"] ∧
    ∀ km ∈ ms, goodMaterial km.2 = true := by
  rcases h : Material.loadAll shippedFile with e | ms
  · have : (Material.loadAll shippedFile).isOk = true := by decide +kernel
    rw [h] at this
    cases this
  · refine ⟨ms, rfl, ?_, ?_⟩
    · have : (Material.loadAll shippedFile).map (List.map (·.1)) = .ok ["AS3678-2016-250", "AS3678-2016-300",
          "AS3678-2016-350", "AS3678-2016-400", "AS3679.1-1996-250", "AS3679.1-2016-300", "AS3679.1-2016-350",
          "test_propertyless"] := by decide +kernel
      rw [h] at this
      exact Except.ok.inj this
    · have : (Material.loadAll shippedFile).map (fun l => l.all fun km => goodMaterial km.2) = .ok true := by
        decide +kernel
      rw [h] at this
      exact List.all_eq_true.1 (Except.ok.inj this)

/-- C26: the shipped file loads; every material in it other than `test_propertyless` is steel and has a table of
strengths up to a thickness `tmax > 0`.  For every thickness in `[0, tmax]` there is a yield and an ultimate
strength with `0 < fy < fu`, and the yield strength does not increase with thickness.  Above `tmax` the
thickness is refused. -/
theorem C26_shipped : ∃ ms, Material.loadAll shippedFile = .ok ms ∧ ms.length = 8 ∧
    ∀ name m, (name, m) ∈ ms → name ≠ "test_propertyless" →
      m.type = .mat .steel ∧ ∃ rows tmax, m.property "strengths" = .ok (.table rows) ∧ 0 < tmax ∧
      (∀ t, 0 ≤ t → t ≤ tmax → ∃ fy fu, getF t (.str "Y") rows = .ok fy ∧ getF t (.str "U") rows = .ok fu ∧
        0 < fy ∧ fy < fu) ∧
      (∀ t, tmax < t → getF t (.str "Y") rows = .error .invalidThickness ∧
        getF t (.str "U") rows = .error .invalidThickness) ∧
      (∀ t₁ t₂ f₁ f₂, t₁ ≤ t₂ → getF t₁ (.str "Y") rows = .ok f₁ → getF t₂ (.str "Y") rows = .ok f₂ → f₂ ≤ f₁) := by
  obtain ⟨ms, hms, hnames, hgood⟩ := shipped_good
  refine ⟨ms, hms, by simpa using congrArg List.length hnames, ?_⟩
  intro name m hm hname
  have hsteel : ms.all (fun km => decide (km.2.type = .mat .steel) &&
      (km.1 == "test_propertyless" || (km.2.properties.lookup "strengths").isSome)) = true := by
    have : (Material.loadAll shippedFile).map (fun l => l.all (fun km => decide (km.2.type = .mat .steel) &&
      (km.1 == "test_propertyless" || (km.2.properties.lookup "strengths").isSome))) = .ok true := by
      decide +kernel
    rw [hms] at this
    exact Except.ok.inj this
  have h1 := List.all_eq_true.1 hsteel _ hm
  simp only [Bool.and_eq_true, decide_eq_true_eq, Bool.or_eq_true, beq_iff_eq] at h1
  obtain ⟨hty, h1⟩ := h1
  rcases h1 with h1 | h1
  · exact absurd h1 hname
  have hg := hgood _ hm
  unfold goodMaterial at hg
  simp only at hg
  split at hg
  · rename_i ts fy fu heq
    simp only [goodTable, Bool.and_eq_true, decide_eq_true_eq, Bool.not_eq_true', List.isEmpty_eq_false_iff] at hg
    obtain ⟨⟨⟨⟨⟨⟨hasc, hdown⟩, hl1⟩, hl2⟩, hpos⟩, htpos⟩, hne⟩ := hg
    have hlast := List.getLast?_eq_some_getLast hne
    refine ⟨hty, [ts, fy, fu], ts.getLast hne, by simp [Material.property, heq], htpos _ (List.getLast_mem _),
      ?_, ?_, ?_⟩
    · intro t h0 ht
      obtain ⟨f, hf, i, ti, hti, hfi, hle⟩ :=
        C24_yield ts fy fu [] (.str "Y") (Or.inr (Or.inr rfl)) hasc hl1.le t _ hlast h0 ht
      obtain ⟨g, hg, j, tj, htj, hgj, hle'⟩ :=
        C24_ultimate ts fy fu [] (.str "U") (Or.inr (Or.inr rfl)) hasc hl2.le t _ hlast h0 ht
      refine ⟨f, g, hf, hg, ?_⟩
      have hij : i = j := by
        have hne' : ti = tj := hle.unique hle'
        obtain ⟨hi, rfl⟩ := List.getElem?_eq_some_iff.1 hti
        obtain ⟨hj, hj'⟩ := List.getElem?_eq_some_iff.1 htj
        exact (List.Nodup.getElem_inj_iff (hasc.imp ne_of_lt)).1 (hne'.trans hj'.symm)
      subst hij
      refine hpos (f, g) ?_
      obtain ⟨hi, rfl⟩ := List.getElem?_eq_some_iff.1 hfi
      obtain ⟨hj, rfl⟩ := List.getElem?_eq_some_iff.1 hgj
      rw [List.mem_iff_getElem]
      exact ⟨i, by simp [List.length_zip]; omega, by simp⟩
    · intro t ht
      have h0 : 0 ≤ t := le_of_lt (lt_trans (htpos _ (List.getLast_mem hne)) ht)
      have hall : ∀ x ∈ ts, x < t := by
        intro x hx
        refine lt_of_le_of_lt ?_ ht
        obtain ⟨i, hi, rfl⟩ := List.mem_iff_getElem.1 hx
        rw [List.getLast_eq_getElem]
        rcases Nat.lt_or_ge i (ts.length - 1) with hlt | hge
        · exact le_of_lt (List.pairwise_iff_getElem.1 hasc i _ _ _ hlt)
        · have : i = ts.length - 1 := by omega
          subst this
          exact le_rfl
      exact ⟨(C24_errors ts [fy, fu] (.str "Y") t).2.2 h0 hasc hne hall,
        (C24_errors ts [fy, fu] (.str "U") t).2.2 h0 hasc hne hall⟩
    · intro t₁ t₂ f₁ f₂ h12 h₁ h₂
      exact C25_antitone ts fy fu [] (.str "Y") fy (Or.inl ⟨Or.inr (Or.inr rfl), rfl⟩) hl1.le hdown t₁ t₂ f₁ f₂ h12
        h₁ h₂
  · cases hg
  · rename_i heq
    rw [heq] at h1
    cases h1

end shipped

section loading
variable {K : Type} [LinearOrder K]

theorem lookup_filter_ne (d : List (String × TVal K)) (k key : String) (h : k ≠ key) :
    (d.filter fun kv => kv.1 != key).lookup k = d.lookup k := by
  induction d with
  | nil => rfl
  | cons a t ih =>
    by_cases ha : a.1 = key
    · rw [List.filter_cons_of_neg (by simp [ha]), ih, List.lookup_cons]
      have : (k == a.1) = false := by simp [ha, h]
      rw [this]
    · rw [List.filter_cons_of_pos (by simp [ha]), List.lookup_cons, List.lookup_cons, ih]

theorem filter_three (d : List (String × TVal K)) :
    ((d.filter fun kv => kv.1 != "type").filter fun kv => kv.1 != "name").filter (fun kv => kv.1 != "standard") =
      d.filter fun kv => decide (kv.1 ∉ ["type", "name", "standard"]) := by
  rw [List.filter_filter, List.filter_filter]
  congr 1
  funext kv
  by_cases h1 : kv.1 = "type" <;> by_cases h2 : kv.1 = "name" <;> by_cases h3 : kv.1 = "standard" <;>
    simp [h1, h2, h3]

theorem ofTable_eq (d : List (String × TVal K)) : Material.ofTable d =
    match d.lookup "type", d.lookup "name", d.lookup "standard" with
    | some ty, some n, some st => do
        return ⟨← TypeVal.ofArg ty, n, st, d.filter fun kv => decide (kv.1 ∉ ["type", "name", "standard"])⟩
    | _, _, _ => .error .keyError := by
  rw [← filter_three]
  unfold Material.ofTable dictPop
  simp only [bind, Except.bind]
  rcases h1 : d.lookup "type" with _ | ty
  · simp
  · simp only [lookup_filter_ne _ "name" "type" (by decide)]
    rcases h2 : d.lookup "name" with _ | n
    · simp
    · simp only [lookup_filter_ne _ "standard" "name" (by decide), lookup_filter_ne _ "standard" "type" (by decide)]
      rcases h3 : d.lookup "standard" with _ | st
      · simp
      · simp [Material.new, bind, Except.bind]

/-- C27: a table loads as the material `m` iff it describes `m`. -/
theorem C27_table_iff (d : List (String × TVal K)) (m : Material K) :
    Material.ofTable d = .ok m ↔ Describes d m := by
  rw [ofTable_eq]
  unfold Describes Without
  rcases m with ⟨ty, n, st, ps⟩
  rcases h1 : d.lookup "type" with _ | ty'
  · simp
  rcases h2 : d.lookup "name" with _ | n'
  · simp
  rcases h3 : d.lookup "standard" with _ | st'
  · simp
  simp only [Option.some.injEq, bind, Except.bind, pure, Except.pure]
  constructor
  · intro h
    split at h
    · cases h
    · rename_i tv htv
      cases h
      refine ⟨⟨ty', rfl, ?_⟩, rfl, rfl, rfl⟩
      cases ty' with
      | str s =>
        simp only [TypeVal.ofArg, bind, Except.bind, pure, Except.pure, MatType.ofValue] at htv
        split_ifs at htv with hs hc
        · left; cases htv; exact ⟨by rw [hs], rfl⟩
        · right; left; cases htv; exact ⟨by rw [hc], rfl⟩
      | num x => right; right; cases htv; exact ⟨by simp, rfl⟩
      | table x => right; right; cases htv; exact ⟨by simp, rfl⟩
      | other => right; right; cases htv; exact ⟨by simp, rfl⟩
  · rintro ⟨⟨ty'', rfl, h⟩, rfl, rfl, rfl⟩
    rcases h with ⟨rfl, rfl⟩ | ⟨rfl, rfl⟩ | ⟨hs, rfl⟩
    · rfl
    · rfl
    · cases ty' with
      | str s => exact absurd rfl (hs s)
      | num x => rfl
      | table x => rfl
      | other => rfl

/-- C27: a missing type, name or standard raises `KeyError`; an unknown type name `ValueError`. -/
theorem C27_errors (d : List (String × TVal K)) :
    (d.lookup "type" = none ∨ d.lookup "name" = none ∨ d.lookup "standard" = none →
      Material.ofTable d = .error .keyError) ∧
    (∀ s n st, d.lookup "type" = some (.str s) → s ≠ "steel" → s ≠ "concrete" → d.lookup "name" = some n →
      d.lookup "standard" = some st → Material.ofTable d = .error .valueError) := by
  rw [ofTable_eq]
  constructor
  · rintro (h | h | h)
    · simp [h]
    · rcases d.lookup "type" <;> simp [h]
    · rcases d.lookup "type" <;> rcases d.lookup "name" <;> simp [h]
  · intro s n st h1 hs hc h2 h3
    simp [h1, h2, h3, TypeVal.ofArg, MatType.ofValue, hs, hc, bind, Except.bind]

/-- C27: `load_material()` succeeds iff every table of the file describes a material, and then gives those
materials under their keys, in file order. -/
theorem C27_load_all (f : MatFile K) (ms : List (String × Material K)) :
    Material.loadAll f = .ok ms ↔
      List.Forall₂ (fun kv km => kv.1 = km.1 ∧ ∃ d, kv.2 = some d ∧ Describes d km.2) f ms := by
  unfold Material.loadAll Material.ofFile
  induction f generalizing ms with
  | nil => cases ms <;> simp [pure, Except.pure]
  | cons kv f ih =>
    obtain ⟨k, v⟩ := kv
    simp only [List.mapM_cons, bind, Except.bind, pure, Except.pure]
    cases v with
    | none => cases ms <;> simp
    | some d =>
      simp only [Option.some.injEq, exists_eq_left']
      rcases hd : Material.ofTable d with e | m
      · simp only [reduceCtorEq, false_iff]
        intro h
        cases h with
        | cons h _ =>
          obtain ⟨-, d', hd', h⟩ := h
          cases hd'
          rw [(C27_table_iff d _).2 h] at hd
          cases hd
      · have hm := (C27_table_iff d m).1 hd
        simp only
        split
        · rename_i e he
          simp only [reduceCtorEq, false_iff]
          intro h
          cases h with
          | cons _ h =>
            have := (ih _).2 h
            simp only [bind, Except.bind, pure, Except.pure] at this
            rw [this] at he
            cases he
        · rename_i ms' he
          have := (ih ms').1 (by simpa only [bind, Except.bind, pure, Except.pure] using he)
          constructor
          · intro h
            cases h
            exact .cons ⟨rfl, d, rfl, hm⟩ this
          · intro h
            cases h with
            | @cons _ km _ l h h' =>
              have e1 := (ih _).2 h'
              simp only [bind, Except.bind, pure, Except.pure] at e1
              rw [e1] at he
              cases he
              obtain ⟨h1, d', hd', h⟩ := h
              cases hd'
              have e2 := (C27_table_iff d _).2 h
              rw [e2] at hd
              cases hd
              simp only at h1
              simp [h1]

/-- C27: `load_list()` gives the keys of the file, which are the keys of `load_material()`. -/
theorem C27_load_list (f : MatFile K) :
    Material.loadList f = f.map (·.1) ∧
    ∀ ms, Material.loadAll f = .ok ms → ms.map (·.1) = Material.loadList f := by
  refine ⟨rfl, fun ms h => ?_⟩
  have := (C27_load_all f ms).1 h
  unfold Material.loadList
  clear h
  induction this with
  | nil => rfl
  | cons h _ ih => simp [h.1, ih]

/-- C27: `load_material(name=n)` is `load_material()[n]`, including the exceptions. -/
theorem C27_load_one (f : MatFile K) (name : String) :
    (∀ e, Material.loadAll f = .error e → Material.loadOne f name = .error e) ∧
    (∀ ms, Material.loadAll f = .ok ms → (∀ m, ms.lookup name = some m → Material.loadOne f name = .ok m) ∧
      (name ∉ Material.loadList f → Material.loadOne f name = .error .keyError)) := by
  unfold Material.loadOne
  refine ⟨fun e h => ?_, fun ms h => ⟨fun m hm => ?_, fun hn => ?_⟩⟩
  · rw [show Material.ofFile f = .error e from h]; rfl
  · rw [show Material.ofFile f = .ok ms from h]
    simp [bind, Except.bind, hm]
  · rw [show Material.ofFile f = .ok ms from h]
    have : ms.lookup name = none := by
      rw [← (C27_load_list f).2 ms h] at hn
      rw [List.lookup_eq_none_iff]
      intro p hp
      simp only [bne_iff_ne, ne_eq, beq_eq_false_iff_ne]
      rintro rfl
      exact hn (List.mem_map_of_mem hp)
    simp [bind, Except.bind, this]

/-- C27: a concrete table. -/
example : Describes ([("type", .str "steel"), ("name", .str "250"), ("E", .num 3), ("standard", .str "S")] :
      List (String × TVal ℚ)) ⟨.mat .steel, .str "250", .str "S", [("E", .num 3)]⟩ :=
  (C27_table_iff _ _).1 (by decide +kernel)

end loading

section factory
variable {K : Type} [Field K] [LinearOrder K]

/-- C28: a design section is built iff the section is a circle with a steel material; it then has that radius and
material. -/
theorem C28_factory_iff (s : Sect K) (d : DSect K) :
    DSect.factory s = .ok d ↔ s = .circle d.radius (some d.material) ∧ d.material.type = .mat .steel := by
  unfold DSect.factory
  obtain ⟨r, m⟩ := d
  cases s with
  | other m' => simp
  | circle r' m' =>
    cases m' with
    | none => simp
    | some m' =>
      simp only [Sect.circle.injEq, Option.some.injEq]
      constructor
      · intro h
        split_ifs at h with hs
        cases h
        exact ⟨⟨rfl, rfl⟩, hs⟩
      · rintro ⟨⟨rfl, rfl⟩, hs⟩
        rw [if_pos hs]

/-- C28: the errors: another section type raises `NotImplementedError`, another material
`InvalidMaterialError`. -/
theorem C28_errors :
    (∀ m : Option (Material K), DSect.factory (.other m) = .error .notImplemented) ∧
    (∀ (r : K) (m : Material K), m.type ≠ .mat .steel →
      DSect.factory (.circle r (some m)) = .error .invalidMaterial) := by
  refine ⟨fun m => rfl, fun r m h => ?_⟩
  simp [DSect.factory, h]

/-- C28: a circle is built for every radius that is not negative, zero included, and refused for a negative one. -/
theorem C28_circle (r : K) (m : Option (Material K)) (s : Sect K) :
    (Sect.newCircle r m = .ok s ↔ 0 ≤ r ∧ s = .circle r m) ∧ (r < 0 → Sect.newCircle r m = .error .assertionError) := by
  unfold Sect.newCircle
  constructor
  · split_ifs with h
    · simp [h, eq_comm]
    · simp [h]
  · intro h
    rw [if_neg (not_le.2 h)]

/-- C28: the modulus of a design section is what its material has under `"E"`; without it `KeyError`. -/
theorem C28_modulus (r : K) (m : Material K) (d : DSect K) (hd : DSect.factory (.circle r (some m)) = .ok d) :
    (∀ pre v post, m.properties = pre ++ ("E", v) :: post → "E" ∉ pre.map (·.1) → d.E = .ok v) ∧
    ("E" ∉ m.properties.map (·.1) → d.E = .error .keyError) := by
  obtain ⟨h, -⟩ := (C28_factory_iff _ d).1 hd
  cases h
  unfold DSect.E DSect.mat Material.property
  constructor
  · intro pre v post hp hno
    have : d.material.properties.lookup "E" = some v := by
      refine List.lookup_eq_some_iff.2 ⟨pre, post, hp, fun p hpp => ?_⟩
      simp only [bne_iff_ne, ne_eq, beq_eq_false_iff_ne]
      intro e
      exact hno (List.mem_map.2 ⟨p, hpp, e.symm⟩)
    rw [this]
  · intro hno
    cases hl : d.material.properties.lookup "E" with
    | none => rfl
    | some v =>
      obtain ⟨l1, l2, e, -⟩ := List.lookup_eq_some_iff.1 hl
      exact absurd (List.mem_map.2 ⟨("E", v), by rw [e]; simp, rfl⟩) hno

end factory

end BeamDesign
