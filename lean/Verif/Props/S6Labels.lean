import Verif.Lemmas.S6Labels
import Verif.Spec.S6Labels
import Verif.Props.S6Cache

/-!
# What the intermediate results say: C105
-/

set_option linter.unusedSimpArgs false

namespace BeamDesign

open S6

/-- everything the dictionary tells when a call returns; `b` says that only library code wrote to dictionaries -/
def S6.Dict.Tells (d : Dict) (b : Bool) (m : Member) (sym : Symmetry) (k : SymKind) : Prop :=
  d.Labelled sym k ∧
  (b = true → k = .double ∨ (k = .single ∧ sym.axes = some [.str "x"]) → d.ShowsX m) ∧
  (b = true → k = .single → sym.axes ≠ some [.str "x"] → d.ShowsSwapped m) ∧
  (k = .none → d.ShowsCubic m)

/-- later entries that are not about the section do no harm -/
theorem tells_set {d : Dict} {b : Bool} {m : Member} {sym : Symmetry} {k : SymKind} (h : d.Tells b m sym k) {key : String}
    (v : S6.Val) (hk : key ∉ ["AS4600 Clause", "Symmetry", "Axis of Symmetry", "r_x", "r_y", "x_o", "y_o", "f_ox", "f_oy",
      "f_oz", "Equation"]) : (Dict.set key v d).Tells b m sym k := by
  simp only [List.mem_cons, List.not_mem_nil, or_false, not_or] at hk
  obtain ⟨k1, k2, k3, k4, k5, k6, k7, k8, k9, k10, k11⟩ := hk
  have g : ∀ x, x ≠ key → Dict.get x (Dict.set key v d) = Dict.get x d := by
    intro x hx
    rw [Dict.get_set, if_neg hx]
  simp only [Dict.Tells, Dict.Labelled, Dict.ShowsX, Dict.ShowsSwapped, Dict.ShowsCubic, g _ (Ne.symm k1),
    g _ (Ne.symm k2), g _ (Ne.symm k3), g _ (Ne.symm k4), g _ (Ne.symm k5), g _ (Ne.symm k6), g _ (Ne.symm k7),
    g _ (Ne.symm k8), g _ (Ne.symm k9), g _ (Ne.symm k10), g _ (Ne.symm k11)]
  exact h

theorem foxz_fields {k : FKey} {f : Foxz} (h : k.value = .ok f) :
    f.rx = k.rx ∧ f.ry = k.ry ∧ f.xo = k.xo ∧ f.yo = k.yo ∧ fEuler k.E k.lex k.rx = .ok f.fox := by
  simp only [FKey.value, foxz] at h
  cases e1 : rol k.rx k.ry k.xo k.yo with
  | error e => rw [e1] at h; cases h
  | ok ro =>
  rw [e1, Except.bind_ok'] at h
  cases e2 : rdiv k.xo ro with
  | error e => rw [e2] at h; cases h
  | ok q =>
  rw [e2, Except.bind_ok'] at h
  cases e3 : fEuler k.E k.lex k.rx with
  | error e => rw [e3] at h; cases h
  | ok fox =>
  rw [e3, Except.bind_ok'] at h
  cases e4 : fEulerTorsion k.An k.lez k.rx k.ry k.xo k.yo k.J k.Iw k.E k.G with
  | error e => rw [e4] at h; cases h
  | ok foz =>
  rw [e4, Except.bind_ok'] at h
  cases e5 : rdiv 1 (2 * (1 - q ^ 2)) with
  | error e => rw [e5] at h; cases h
  | ok h' =>
  rw [e5, Except.bind_ok'] at h
  cases e6 : rsqrt ((fox + foz) ^ 2 - 4 * (1 - q ^ 2) * fox * foz) with
  | error e => rw [e6] at h; cases h
  | ok r =>
  rw [e6, Except.bind_ok'] at h
  injection h with h
  subst h
  exact ⟨rfl, rfl, rfl, rfl, rfl⟩

theorem single_axis {sym : Symmetry} (h : sym.symcount = .ok 1) :
    (sym.axes.getD []).any (Axis.isStr "x") = true ↔ sym.axes = some [.str "x"] := by
  obtain ⟨_ | axes⟩ := sym
  · cases h
  · simp only [Symmetry.symcount, Except.ok.injEq] at h
    obtain ⟨a, rfl⟩ := List.length_eq_one_iff.1 h
    cases a <;> simp [Axis.isStr]

/-- what the choice of the clause leaves behind -/
theorem focM_ends {b : Bool} (roots : Roots) (m : Member) (sym : Symmetry) {s : St} (hi : Inv b s) :
    Ends (focM roots m sym) s fun r s' => ∃ k, sym.symmetry = .ok k ∧ r.inter < s'.inner.length ∧
      (s'.dict r.inter).Tells b m sym k := by
  unfold focM
  refine Ends.bind (Ends.lift fun k hk => ?_)
  cases k with
  | double =>
    refine Ends.bind ((ends_foxz hi).mono ?_)
    rintro o s1 ⟨h1, f, a, hf, ho, ha, hd⟩
    refine Ends.bind ((ends_tor h1).mono ?_)
    rintro z s2 ⟨h2, hz, e1, e2⟩
    refine Ends.bind (ends_readOuter (p := (a, f.foxz)) (by rw [e2]; exact ho) ?_)
    refine Ends.bind (ends_update ?_)
    refine Ends.bind (ends_update ?_)
    refine Ends.bind (ends_update ?_)
    refine Ends.bind (Ends.lift fun k' hk' => ?_)
    refine Ends.bind (ends_update ?_)
    refine Ends.ret ⟨.double, hk, ?_, ?_⟩
    · simp only [List.length_modify, e1]; exact ha
    · rw [hk, Except.ok_inj'] at hk'
      subst hk'
      have ha2 : a < s2.inner.length := by rw [e1]; exact ha
      have hd2 : b = true → (s2.dict a).Describes f := by
        intro hb
        have : s2.dict a = s1.dict a := by unfold St.dict; rw [e1]
        rw [this]; exact hd hb
      rw [dict_update (by simpa using ha2), dict_update (by simpa using ha2), dict_update (by simpa using ha2),
        dict_update ha2]
      obtain ⟨g1, g2, g3, g4, g5⟩ := foxz_fields hf
      refine ⟨⟨by simp [Dict.get_set, SymKind.clause], by simp [Dict.get_set], by simp⟩, ?_, by simp, by simp⟩
      intro hb _
      obtain ⟨_, d2, _, d4, d5, d6, d7, _⟩ := hd2 hb
      refine ⟨?_, ?_, ?_, ?_, f.fox, g5, ?_⟩ <;> simp [Dict.get_set, d2, d4, d5, d6, d7, g1, g2, g3, g4, Member.keyX]
  | single =>
    refine Ends.bind (Ends.lift fun n hn => ?_)
    split_ifs with hn1 hx
    · exact Ends.lift fun a ha => by cases ha
    · push Not at hn1
      subst hn1
      have hax := (single_axis hn).1 hx
      refine Ends.bind ((ends_foxz hi).mono ?_)
      rintro o s1 ⟨h1, f, a, hf, ho, ha, hd⟩
      refine Ends.bind (ends_readOuter ho ?_)
      refine Ends.bind (ends_update ?_)
      refine Ends.bind (ends_update ?_)
      refine Ends.bind (Ends.lift fun k' hk' => ?_)
      refine Ends.bind (ends_update ?_)
      refine Ends.bind (ends_update ?_)
      refine Ends.ret ⟨.single, hk, by simpa using ha, ?_⟩
      rw [hk, Except.ok_inj'] at hk'
      subst hk'
      rw [dict_update (by simpa using ha), dict_update (by simpa using ha), dict_update (by simpa using ha),
        dict_update ha]
      obtain ⟨g1, g2, g3, g4, g5⟩ := foxz_fields hf
      refine ⟨⟨by simp [Dict.get_set, SymKind.clause], by simp [Dict.get_set], by simp [Dict.get_set, hax]⟩, ?_,
        by simp [hax], by simp⟩
      intro hb _
      obtain ⟨_, d2, _, d4, d5, d6, d7, _⟩ := hd hb
      refine ⟨?_, ?_, ?_, ?_, f.fox, g5, ?_⟩ <;> simp [Dict.get_set, d2, d4, d5, d6, d7, g1, g2, g3, g4, Member.keyX]
    · push Not at hn1
      subst hn1
      have hax : ¬ sym.axes = some [.str "x"] := fun h => hx ((single_axis hn).2 h)
      refine Ends.bind ((ends_foxz hi).mono ?_)
      rintro o s1 ⟨h1, f, a, hf, ho, ha, hd⟩
      refine Ends.bind (ends_readOuter ho ?_)
      refine Ends.bind (ends_update ?_)
      refine Ends.bind (ends_update ?_)
      refine Ends.bind (Ends.lift fun k' hk' => ?_)
      refine Ends.bind (ends_update ?_)
      refine Ends.bind (ends_update ?_)
      refine Ends.ret ⟨.single, hk, by simpa using ha, ?_⟩
      rw [hk, Except.ok_inj'] at hk'
      subst hk'
      rw [dict_update (by simpa using ha), dict_update (by simpa using ha), dict_update (by simpa using ha),
        dict_update ha]
      obtain ⟨g1, g2, g3, g4, g5⟩ := foxz_fields hf
      refine ⟨⟨by simp [Dict.get_set, SymKind.clause], by simp [Dict.get_set], by simp [Dict.get_set, hax]⟩,
        by simp [hax], ?_, by simp⟩
      intro hb _ _
      obtain ⟨_, d2, _, d4, d5, d6, d7, _⟩ := hd hb
      refine ⟨?_, ?_, ?_, ?_, f.fox, g5, ?_⟩ <;> simp [Dict.get_set, d2, d4, d5, d6, d7, g1, g2, g3, g4, Member.keyY]
  | point =>
    refine Ends.bind ((ends_tor hi).mono ?_)
    rintro z s1 ⟨h1, hz, e1, e2⟩
    refine Ends.bind (ends_allocInner ?_)
    refine Ends.ret ⟨.point, hk, by simp, ?_⟩
    rw [dict_append, if_pos rfl]
    exact ⟨⟨by simp [Dict.get, SymKind.clause], by simp, by simp⟩, by simp, by simp, by simp⟩
  | none =>
    refine Ends.bind (Ends.lift fun fox hfox => ?_)
    refine Ends.bind (Ends.lift fun foy hfoy => ?_)
    refine Ends.bind ((ends_rol hi).mono ?_)
    rintro ro s1 ⟨h1, hro⟩
    refine Ends.bind ((ends_tor h1).mono ?_)
    rintro foz s2 ⟨h2, hfoz, e1, e2⟩
    refine Ends.bind (Ends.lift fun x hx => ?_)
    refine Ends.bind (ends_allocInner ?_)
    refine Ends.ret ⟨.none, hk, by simp, ?_⟩
    rw [dict_append, if_pos rfl]
    refine ⟨⟨by simp [Dict.get, SymKind.clause], by simp, by simp⟩, by simp, by simp, fun _ => ?_⟩
    exact ⟨fox, foy, foz, ro, hfox, hfoy, hfoz, hro, by simp [Dict.get], by simp [Dict.get], by simp [Dict.get],
      by simp [Dict.get]⟩

theorem NcTorsionM_ends {b : Bool} (roots : Roots) (m : Member) (kf fy : ℝ) (sym : Symmetry) (unc : ℝ) {s : St}
    (hi : Inv b s) :
    Ends (NcTorsionM roots m kf fy sym unc) s fun r s' => ∃ k, sym.symmetry = .ok k ∧ r.inter < s'.inner.length ∧
      (s'.dict r.inter).Tells b m sym k := by
  unfold NcTorsionM
  refine Ends.bind ((focM_ends roots m sym hi).mono ?_)
  rintro r s1 ⟨k, hk, hl, ht⟩
  refine Ends.bind (Ends.lift fun p _ => ?_)
  refine Ends.bind (ends_update ?_)
  refine Ends.bind (ends_update ?_)
  refine Ends.bind (ends_update ?_)
  refine Ends.ret ⟨k, hk, by simpa using hl, ?_⟩
  rw [dict_update (by simpa using hl), dict_update (by simpa using hl), dict_update hl]
  exact tells_set (tells_set (tells_set ht _ (by decide)) _ (by decide)) _ (by decide)

theorem NcM_ends {b : Bool} (roots : Roots) (a : NcArgs) {s : St} (hi : Inv b s) :
    Ends (NcM roots a) s fun r s' => ∀ i, r.2 = some i → (∃ k, a.sym.symmetry = .ok k ∧
      (s'.dict i).Tells b a.member a.sym k) ∧ ∃ v, r.1.NczBuckling = some v ∧
        (s'.dict i).get "N_cz_buckling" = some (.num v) := by
  unfold NcM
  simp only
  split_ifs with h1 h2
  · refine Ends.bind (Ends.lift fun _ _ => Ends.bind (Ends.lift fun _ _ => ?_))
    refine Ends.bind ((NcTorsionM_ends roots a.member a.kf a.fy a.sym a.uncertainty hi).mono ?_)
    rintro t s1 ⟨k, hk, hl, ht⟩
    refine Ends.bind (ends_update (Ends.ret ?_))
    rintro i hii
    simp only [Option.some.injEq] at hii
    subst hii
    rw [dict_update hl]
    exact ⟨⟨k, hk, tells_set ht _ (by decide)⟩, t.Ncz, rfl, by simp [Dict.get_set]⟩
  · refine Ends.bind (Ends.lift fun _ _ => Ends.bind (Ends.lift fun _ _ => Ends.ret ?_))
    rintro i hii; cases hii
  · refine Ends.ret ?_
    rintro i hii; cases hii

/-! ## C105 -/

/-- C105, the labels.  Whatever was called before and whatever callers wrote into dictionaries: when
`s6_3_3_N_c_torsion` returns, its intermediate results name the clause that was used, the kind of symmetry when the
section has axes of symmetry, and for one axis which axis it was. -/
theorem C105_labels (roots : Roots) (es : List Event) (he : ∀ e ∈ es, e.isFair) {m : Member} {kf fy unc : ℝ}
    {sym : Symmetry} {r : Answer} {s : St}
    (hr : (Call.ncTorsion m kf fy sym unc).exec roots (runEvents roots es St.init) = (.ok r, s)) :
    ∃ k a, sym.symmetry = .ok k ∧ r.inter = some a ∧ (s.dict a).Labelled sym k ∧
      (k = .none → (s.dict a).ShowsCubic m) := by
  have hi := inv_run roots es he inv_init
  have h : Ends ((Call.ncTorsion m kf fy sym unc).exec roots) (runEvents roots es St.init) fun r s =>
      ∃ k a, sym.symmetry = .ok k ∧ r.inter = some a ∧ (s.dict a).Labelled sym k ∧
        (k = .none → (s.dict a).ShowsCubic m) := by
    simp only [Call.exec]
    refine Ends.bind ((NcTorsionM_ends roots m kf fy sym unc hi).mono ?_)
    rintro t s1 ⟨k, hk, _, ht⟩
    exact Ends.ret ⟨k, t.inter, hk, rfl, ht.1, ht.2.2.2⟩
  exact h r s hr

/-- C105, the labels of `s6_1_1_Nc`: the same entries under `"N_cz Intermediate"`, and the torsional capacity before
it is limited to the section capacity, which is also returned. -/
theorem C105_capacity (roots : Roots) (es : List Event) (he : ∀ e ∈ es, e.isFair) {g : NcArgs} {r : Answer} {s : St}
    (hr : (Call.nc g).exec roots (runEvents roots es St.init) = (.ok r, s)) {a : ℕ} (ha : r.inter = some a) :
    ∃ k n v, g.sym.symmetry = .ok k ∧ (s.dict a).Labelled g.sym k ∧ r.numbers = .nc n ∧ n.NczBuckling = some v ∧
      (s.dict a).get "N_cz_buckling" = some (.num v) := by
  have hi := inv_run roots es he inv_init
  have h : Ends ((Call.nc g).exec roots) (runEvents roots es St.init) fun r s => ∀ a, r.inter = some a →
      ∃ k n v, g.sym.symmetry = .ok k ∧ (s.dict a).Labelled g.sym k ∧ r.numbers = .nc n ∧ n.NczBuckling = some v ∧
        (s.dict a).get "N_cz_buckling" = some (.num v) := by
    simp only [Call.exec]
    refine Ends.bind ((NcM_ends roots g hi).mono ?_)
    rintro t s1 ht
    refine Ends.ret fun i hii => ?_
    obtain ⟨⟨k, hk, hl⟩, v, hv, hg⟩ := ht i hii
    exact ⟨k, t.1, v, hk, hl.1, rfl, hv, hg⟩
  exact h r s hr a ha

theorem labels_calls (roots : Roots) (cs : List Call) {m : Member} {kf fy unc : ℝ} {sym : Symmetry} {r : Answer} {s : St}
    (hr : (Call.ncTorsion m kf fy sym unc).exec roots (runEvents roots (cs.map .call) St.init) = (.ok r, s)) :
    ∃ k a, sym.symmetry = .ok k ∧ r.inter = some a ∧ (s.dict a).Tells true m sym k := by
  obtain ⟨hi, _⟩ := call_run roots cs (inv_init (b := true)) (Eff.refl _ _)
  have h : Ends ((Call.ncTorsion m kf fy sym unc).exec roots) (runEvents roots (cs.map .call) St.init) fun r s =>
      ∃ k a, sym.symmetry = .ok k ∧ r.inter = some a ∧ (s.dict a).Tells true m sym k := by
    simp only [Call.exec]
    refine Ends.bind ((NcTorsionM_ends roots m kf fy sym unc hi).mono ?_)
    rintro t s1 ⟨k, hk, _, ht⟩
    exact Ends.ret ⟨k, t.inter, hk, rfl, ht⟩
  exact h r s hr

/-- C105, the section data, for sections symmetric about both axes or about x, when no caller writes into
dictionaries: the radii, shear centre position and Euler stress under `r_x`, `r_y`, `x_o`, `y_o` and `f_ox` are those
of the member.  What is missing: sections symmetric about y, see `C105_swapped_counterexample`. -/
theorem C105_section_partial (roots : Roots) (cs : List Call) {m : Member} {kf fy unc : ℝ} {sym : Symmetry} {r : Answer}
    {s : St} (hs : sym.symmetry = .ok .double ∨ sym.axes = some [.str "x"])
    (hr : (Call.ncTorsion m kf fy sym unc).exec roots (runEvents roots (cs.map .call) St.init) = (.ok r, s)) :
    ∃ a, r.inter = some a ∧ (s.dict a).ShowsX m := by
  obtain ⟨k, a, hk, ha, _, h, _⟩ := labels_calls roots cs hr
  refine ⟨a, ha, h rfl ?_⟩
  rcases hs with hs | hs
  · rw [hs, Except.ok_inj'] at hk
    exact Or.inl hk.symm
  · right
    refine ⟨?_, hs⟩
    have : sym.symmetry = .ok .single := by
      obtain ⟨axes⟩ := sym
      simp only at hs
      subst hs
      rfl
    rw [this, Except.ok_inj'] at hk
    exact hk.symm

/-- C105 fails for every section with one axis of symmetry that is not `"x"`: the entries `r_x`, `r_y`, `x_o`, `y_o`
and `f_ox` are those of the other axis. -/
theorem C105_swapped_counterexample (roots : Roots) (cs : List Call) {m : Member} {kf fy unc : ℝ} {sym : Symmetry}
    {r : Answer} {s : St} (hs : sym.symmetry = .ok .single) (hx : sym.axes ≠ some [.str "x"])
    (hr : (Call.ncTorsion m kf fy sym unc).exec roots (runEvents roots (cs.map .call) St.init) = (.ok r, s)) :
    ∃ a, r.inter = some a ∧ (s.dict a).ShowsSwapped m ∧ (m.rx ≠ m.ry → ¬ (s.dict a).ShowsX m) := by
  obtain ⟨k, a, hk, ha, _, _, h, _⟩ := labels_calls roots cs hr
  rw [hs, Except.ok_inj'] at hk
  have h' := h rfl hk.symm hx
  refine ⟨a, ha, h', fun hne hc => hne ?_⟩
  have e := hc.1.symm.trans h'.1
  simpa using e

/-- a call returns when its formula has a value, whatever was called before -/
theorem returns_of_value (roots : Roots) (cs : List Call) {c : Call} {n : Numbers} (h : c.value roots = .ok n) :
    ∃ r s, c.exec roots (runEvents roots (cs.map .call) St.init) = (.ok r, s) ∧ r.numbers = n := by
  have h5 := C55_cache_invisible roots (cs.map .call) (fun e he => by
    obtain ⟨c, _, rfl⟩ := List.mem_map.1 he
    trivial) c
  rw [h] at h5
  unfold Call.numbersIn at h5
  rcases hx : c.exec roots (runEvents roots (cs.map .call) St.init) with ⟨e | r, s⟩ <;> rw [hx] at h5
  · cases h5
  · refine ⟨r, s, rfl, ?_⟩
    have h6 : (.ok r.numbers : Py Numbers) = .ok n := h5
    exact Except.ok_inj'.1 h6

/-- C105 fails for every member with positive properties and different radii that is symmetric about y only: whatever
was called before, the call returns, and the entry `r_x` of its intermediate results is not the radius of gyration about
x but that about y. -/
theorem C105_counterexample (roots : Roots) (cs : List Call) {m : Member} (hm : m.Positive) (hne : m.rx ≠ m.ry)
    (kf unc : ℝ) {fy : ℝ} (hfy : 0 < fy) :
    ∃ r s a, (Call.ncTorsion m kf fy ⟨some [.str "y"]⟩ unc).exec roots (runEvents roots (cs.map .call) St.init) =
      (.ok r, s) ∧ r.inter = some a ∧ (s.dict a).get "r_x" = some (.num m.ry) ∧
      (s.dict a).get "r_x" ≠ some (.num m.rx) := by
  obtain ⟨f, hf, _, _, p1, _, p2, _⟩ := C52_foxz (ry := m.rx) (xo := m.yo) (yo := m.xo) hm.An hm.ley hm.lez hm.ry hm.J
    hm.Iw hm.E hm.G
  have hfoc : foc roots m ⟨some [.str "y"]⟩ = .ok f.foxz := by
    have e1 : (⟨some [.str "y"]⟩ : Symmetry).symmetry = .ok .single := rfl
    have e2 : (⟨some [.str "y"]⟩ : Symmetry).symcount = .ok 1 := rfl
    simp only [foc, e1, Except.bind_ok', focSingle, e2, ne_eq, not_true_eq_false, if_false]
    rw [if_neg (by simp [Axis.isStr]), hf]
    rfl
  obtain ⟨t, ht, _⟩ := C53_capacity (kf := kf) (unc := unc) hfy hfoc p1
  have hv : (Call.ncTorsion m kf fy ⟨some [.str "y"]⟩ unc).value roots = .ok (.num t.Ncz) := by
    simp only [Call.value, ht]; rfl
  obtain ⟨r, s, hr, _⟩ := returns_of_value roots cs hv
  obtain ⟨a, ha, hs, _⟩ := C105_swapped_counterexample roots cs rfl (by simp) hr
  refine ⟨r, s, a, hr, ha, hs.1, ?_⟩
  rw [hs.1]
  intro hc
  simp only [Option.some.injEq, Val.num.injEq] at hc
  exact hne hc.symm

/-- C105 fails for doubly symmetric sections in one more way: after a call for the same member as a section symmetric
about x, the intermediate results of a doubly symmetric section name a single axis of symmetry. -/
theorem C105_axis_counterexample (roots : Roots) {m : Member} (hm : m.Positive) (kf unc : ℝ) {fy : ℝ} (hfy : 0 < fy) :
    (∃ r s a, (Call.ncTorsion m kf fy ⟨some [.str "x", .str "y"]⟩ unc).exec roots St.init = (.ok r, s) ∧
      r.inter = some a ∧ (s.dict a).get "Axis of Symmetry" = none) ∧
    ∃ r s a, (Call.ncTorsion m kf fy ⟨some [.str "x", .str "y"]⟩ unc).exec roots
        (runEvents roots [.call (.focSingle m ⟨some [.str "x"]⟩)] St.init) = (.ok r, s) ∧ r.inter = some a ∧
      (s.dict a).get "Axis of Symmetry" = some (.str "x") := by
  obtain ⟨f, hf, _, _, p1, _, p2, _⟩ := C52_foxz (ry := m.ry) (xo := m.xo) (yo := m.yo) hm.An hm.lex hm.lez hm.rx hm.J
    hm.Iw hm.E hm.G
  have hk : (Member.keyX m).value = .ok f := hf
  have hfoc : 0 < min f.foxz f.foz := lt_min p1 (p1.trans_le p2)
  have c1 := columnCurve_ok hfy hfoc
  have hs : (⟨some [.str "x", .str "y"]⟩ : Symmetry).symmetry = .ok .double := by decide
  constructor
  · refine ⟨_, _, 0, ncTorsion_of_foxz roots hs (foxzM_first hk) kf unc c1, rfl, ?_⟩
    show Dict.get "Axis of Symmetry" (torsionDict _ _ _ (doubleDict f (foxzDict f))) = _
    simp [torsionDict, doubleDict, Dict.get_set, foxzDict, Dict.get]
  · have e1 : (Call.focSingle m ⟨some [.str "x"]⟩).exec roots St.init = (.ok ⟨.num f.foxz, some 0⟩,
        afterFoxz (Member.keyX m) f (Dict.set "AS4600 Clause" (.str "AS4600 S3.4.3") (Dict.set "Symmetry" (.str "Single")
          (Dict.set "f_oxz" (.num f.foxz) (Dict.set "Axis of Symmetry" (.str "x") (foxzDict f)))))) := by
      have g1 : (⟨some [.str "x"]⟩ : Symmetry).symmetry = .ok .single := rfl
      have g2 : (⟨some [.str "x"]⟩ : Symmetry).symcount = .ok 1 := rfl
      have g3 : ((⟨some [.str "x"]⟩ : Symmetry).axes.getD []).any (Axis.isStr "x") = true := by simp [Axis.isStr]
      simp only [Call.exec, focSingleM, M.bind_eq, M.lift, g2, ne_eq, not_true_eq_false, if_false, g3, if_true,
        foxzM_first hk, readOuter_after, update_after, g1, M.pure_eq]
      rfl
    simp only [runEvents, Event.step, e1]
    refine ⟨_, _, 0, ncTorsion_of_foxz roots hs (foxzM_again (Member.keyX m) f _) kf unc c1, rfl, ?_⟩
    show Dict.get "Axis of Symmetry" (torsionDict _ _ _ (doubleDict f _)) = _
    simp [torsionDict, doubleDict, Dict.get_set, foxzDict, Dict.get]

/-- a member that meets the hypotheses of the counterexamples -/
example (roots : Roots) : ∃ r s a,
    (Call.ncTorsion ⟨1, 2, 2, 2, 1, 3, 0, 0, 1, 1, 1, 1⟩ 1 1 ⟨some [.str "y"]⟩ 1).exec roots
      (runEvents roots (([.foxz (Member.keyX ⟨1, 2, 2, 2, 1, 3, 0, 0, 1, 1, 1, 1⟩)] : List Call).map .call) St.init) =
      (.ok r, s) ∧ r.inter = some a ∧ (s.dict a).get "r_x" = some (.num 3) ∧ (s.dict a).get "r_x" ≠ some (.num 1) :=
  C105_counterexample roots _ (by constructor <;> norm_num) (by norm_num) 1 1 one_pos

/-- calls about which `C105_labels` and `C105_section_partial` speak do return -/
example (roots : Roots) (cs : List Call) : ∃ r s,
    (Call.ncTorsion ⟨1, 2, 2, 2, 1, 3, 0, 0, 1, 1, 1, 1⟩ 1 1 ⟨some [.str "x"]⟩ 1).exec roots
      (runEvents roots (cs.map .call) St.init) = (.ok r, s) := by
  obtain ⟨f, hf, _, _, p1, _, p2, _⟩ := C52_foxz (An := 1) (lex := 2) (lez := 2) (rx := 1) (ry := 3) (xo := 0) (yo := 0)
    (J := 1) (Iw := 1) (E := 1) (G := 1) one_pos two_pos two_pos one_pos one_pos zero_le_one one_pos one_pos
  have hfoc : foc roots ⟨1, 2, 2, 2, 1, 3, 0, 0, 1, 1, 1, 1⟩ ⟨some [.str "x"]⟩ = .ok f.foxz := by
    have e1 : (⟨some [.str "x"]⟩ : Symmetry).symmetry = .ok .single := rfl
    have e2 : (⟨some [.str "x"]⟩ : Symmetry).symcount = .ok 1 := rfl
    simp only [foc, e1, Except.bind_ok', focSingle, e2, ne_eq, not_true_eq_false, if_false]
    rw [if_pos (by simp [Axis.isStr]), hf]
    rfl
  obtain ⟨t, ht, _⟩ := C53_capacity (kf := 1) (unc := 1) one_pos hfoc p1
  obtain ⟨r, s, hr, _⟩ := returns_of_value roots cs (c := .ncTorsion ⟨1, 2, 2, 2, 1, 3, 0, 0, 1, 1, 1, 1⟩ 1 1
    ⟨some [.str "x"]⟩ 1) (n := .num t.Ncz) (by simp only [Call.value, ht]; rfl)
  exact ⟨r, s, hr⟩

end BeamDesign
