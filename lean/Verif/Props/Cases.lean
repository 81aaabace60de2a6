import Verif.Lemmas.Cases
import Verif.Spec.SamplesAS

/-!
# C79, C80: load case numbers are labels, and load cases are independent
-/

set_option linter.unusedSectionVars false

namespace BeamDesign

open Spec

variable {K : Type} [Field K] [LinearOrder K] [IsStrictOrderedRing K] [FloorRing K]

section
variable {S : Type} {rt : Rt K}

theorem check_renumber {ρ : ℤ → ℤ} (hρ : Function.Injective ρ) (es : List (Option (Element K S))) :
    Beam.checkElements (es.map (Option.map (renumberElement ρ)))
      = (Beam.checkElements es).map (List.map (renumberElement ρ)) := by
  have h1 : (es.map (Option.map (renumberElement ρ))).all Option.isSome = es.all Option.isSome := by
    rw [List.all_map]
    congr 1
    funext e
    cases e <;> rfl
  have h2 : (es.map (Option.map (renumberElement ρ))).filterMap id = (es.filterMap id).map (renumberElement ρ) := by
    rw [List.filterMap_map, List.map_filterMap]
    congr 1
  unfold Beam.checkElements
  rw [h1, h2]
  split_ifs with h
  · generalize es.filterMap id = l
    rcases l with _ | ⟨first, l⟩
    · rfl
    have hn : ∀ e : Element K S, (renumberElement ρ e).noLoadCases = e.noLoadCases := by
      intro e; simp [Element.noLoadCases, Element.loadCases, renumberElement]
    have hc : ∀ e : Element K S, (renumberElement ρ e).loadCases = e.loadCases.map ρ := by
      intro e; simp [Element.loadCases, renumberElement]
    have hi : ∀ l l' : List ℤ, (l.map ρ = l'.map ρ) = (l = l') := by
      intro l l'; exact propext (List.map_injective_iff.2 hρ).eq_iff
    simp only [List.map_cons, List.all_cons, List.all_map, Function.comp_def, hn, hc, hi]
    split_ifs <;> rfl
  · rfl

/-- C79: a beam is accepted or rejected whatever its load cases are numbered. -/
theorem C79_constructor {ρ : ℤ → ℤ} (hρ : Function.Injective ρ) (arg : ElementsArg K S) :
    Beam.new (renumberElements ρ arg) = (Beam.new arg).map (renumber ρ) := by
  rcases arg with _ | e | es
  · rfl
  · have := check_renumber hρ [some e]
    simp only [List.map_cons, List.map_nil, Option.map_some] at this
    simp only [Beam.new, renumberElements, this]
    rcases Beam.checkElements [some e] with e | l <;> rfl
  · rcases es with _ | ⟨e, es⟩
    · rfl
    · have := check_renumber hρ (e :: es)
      simp only [List.map_cons] at this
      simp only [Beam.new, renumberElements, List.map_cons, this]
      rcases Beam.checkElements (e :: es) with e | l <;> rfl

/-- C79: positions are the same under the new number. -/
theorem C79_positions {ρ : ℤ → ℤ} (hρ : Function.Injective ρ) (b : Beam K S) (position : PosArg K) (n c : Option ℤ) :
    (renumber ρ b).listPositions rt position n (c.map ρ) = b.listPositions rt position n c :=
  renumber_positions hρ b position n c

/-- C79: sections are the same under the new number. -/
theorem C79_sections {ρ : ℤ → ℤ} (hρ : Function.Injective ρ) (b : Beam K S) (position : PosArg K) (n c : Option ℤ) :
    (renumber ρ b).getSection rt position n (c.map ρ) = b.getSection rt position n c :=
  lengths_section (renumber_plain ρ b) (renumber_positions hρ b position n c)

/-- C79: loads are the same under the new number. -/
theorem C79_loads {ρ : ℤ → ℤ} (hρ : Function.Injective ρ) (b : Beam K S) (c : ℤ) (position : PosArg K) (n : Option ℤ)
    (component : CompArg) :
    (renumber ρ b).getLoads rt (ρ c) position n component = b.getLoads rt c position n component :=
  caseAs_loads (renumber_caseAs hρ b c) position n component

end

section
variable {rt : Rt K}

theorem relabel_vals (ρ : ℤ → ℤ) (l : List (ℤ × Num K × K)) :
    (l.map (relabel ρ)).map (fun r => r.2.2) = l.map fun r => r.2.2 := by
  rw [List.map_map]; rfl

theorem filter_relabel {ρ : ℤ → ℤ} (hρ : Function.Injective ρ) (loadCase : CaseArg) (given : Option (List (Num K)))
    (ret : List (ℤ × Num K × K)) :
    utilFilter (renumberArg ρ loadCase) given (ret.map (relabel ρ)) = (utilFilter loadCase given ret).map (relabel ρ) := by
  rcases loadCase with _ | c | cs <;> rcases given with _ | ps <;>
    simp only [utilFilter, renumberArg, List.filter_map]
  · rfl
  · congr 1
    apply List.filter_congr
    intro r _
    simp [relabel, hρ.eq_iff]
  · congr 1
    apply List.filter_congr
    intro r _
    simp [relabel, hρ.eq_iff]

/-- C79: the check is built from the renumbered beam exactly when it is from the beam. -/
theorem C79_check (ρ : ℤ → ℤ) (b : Beam K (Sect K)) (phiSteel alphaU kt : K) (sect : Option (Sect K)) :
    AS4100.new phiSteel alphaU kt (some (renumber ρ b)) sect
      = (AS4100.new phiSteel alphaU kt (some b) sect).map fun o => {o with beam := some (renumber ρ b)} := by
  have h : (renumber ρ b).sections = b.sections := by
    simp only [Beam.sections, renumber, List.map_map]; rfl
  rcases sect with _ | s <;> simp only [AS4100.new, sectionsOf, h] <;>
    rcases b.sections.mapM DSect.factory with e | ds <;> rfl

/-- C79: so are capacity, tension, and overall utilisation. -/
theorem C79_utilisation {ρ : ℤ → ℤ} (hρ : Function.Injective ρ) (o : AS4100 K) (b : Beam K (Sect K))
    (hb : o.beam = some b) (loadCase : CaseArg) (position : PosArg K) :
    ({o with beam := some (renumber ρ b)} : AS4100 K).tensionUtilisation rt (renumberArg ρ loadCase) position
      = o.tensionUtilisation rt loadCase position := by
  have hcases : ({o with beam := some (renumber ρ b)} : AS4100 K).utilCases (renumberArg ρ loadCase)
      = (o.utilCases loadCase).map (List.map ρ) := by
    rcases loadCase with _ | c | cs
    · simp only [AS4100.utilCases, renumberArg, hb, Beam.loadCases, renumber]
      rcases b.elements with _ | ⟨e, es⟩
      · rfl
      · simp [Element.loadCases, renumberElement, Except.map]
    · rfl
    · rfl
  unfold AS4100.tensionUtilisation
  rw [hcases]
  rcases position.given with e | given
  · rfl
  simp only [bind, Except.bind]
  rcases o.utilCases loadCase with e | cs
  · rfl
  simp only [Except.map]
  rw [utilLoop_beam hb cs (fun c _ => renumber_caseAs hρ b c)]
  rcases o.utilLoop rt given cs with e | ret
  · rfl
  simp only [Except.map]
  rw [filter_relabel hρ, relabel_vals]

/-- C79: the tension under the new number. -/
theorem C79_tension {ρ : ℤ → ℤ} (hρ : Function.Injective ρ) (o : AS4100 K) (b : Beam K (Sect K))
    (hb : o.beam = some b) (c : ℤ) (position : PosArg K) (n : Option ℤ) :
    ({o with beam := some (renumber ρ b)} : AS4100 K).getTension rt (ρ c) position n = o.getTension rt c position n :=
  tension_beam hb (renumber_caseAs hρ b c) position n

/-! ## C80 -/

theorem sameCase_as {S : Type} {c : ℤ} {b b' : Beam K S} (h : SameCase c b b') : CaseAs c c b b' :=
  List.Forall₂.imp (fun _ _ h => ⟨h.1, h.2.2⟩) h

theorem sameCase_plain {S : Type} {c : ℤ} {b b' : Beam K S} (h : SameCase c b b') :
    List.Forall₂ (fun e e' => e.length = e'.length ∧ e.sect = e'.sect) b.elements b'.elements :=
  List.Forall₂.imp (fun _ _ h => ⟨h.1, h.2.1⟩) h

/-- C80: what is reported for a load case depends on that load case only. -/
theorem C80_beam {S : Type} (c : ℤ) (b b' : Beam K S) (h : SameCase c b b') (position : PosArg K) (n : Option ℤ)
    (component : CompArg) :
    b'.listPositions rt position n (some c) = b.listPositions rt position n (some c) ∧
    b'.getSection rt position n (some c) = b.getSection rt position n (some c) ∧
    b'.getLoads rt c position n component = b.getLoads rt c position n component :=
  ⟨caseAs_positions (sameCase_as h) position n,
    lengths_section (sameCase_plain h) (caseAs_positions (sameCase_as h) position n),
    caseAs_loads (sameCase_as h) position n component⟩

/-- C80: the utilisation in some load cases depends on those load cases only. -/
theorem C80_utilisation (o : AS4100 K) (b b' : Beam K (Sect K)) (hb : o.beam = some b) (cs : List ℤ)
    (h : ∀ c ∈ cs, SameCase c b b') (position : PosArg K) :
    ({o with beam := some b'} : AS4100 K).tensionUtilisation rt (.list cs) position
      = o.tensionUtilisation rt (.list cs) position := by
  unfold AS4100.tensionUtilisation
  rcases position.given with e | given
  · rfl
  simp only [bind, Except.bind, AS4100.utilCases]
  have := utilLoop_beam (rt := rt) (ρ := id) (b' := b') hb cs (fun c hc => sameCase_as (h c hc)) given
  rw [List.map_id] at this
  rw [this]
  rcases o.utilLoop rt given cs with e | ret
  · rfl
  simp only [Except.map]
  have hid : ret.map (relabel id) = ret := by
    rw [show (relabel id : ℤ × Num K × K → _) = id from rfl, List.map_id]
  rw [hid]

/-- C80: the same for one load case given by its number. -/
theorem C80_one (o : AS4100 K) (b b' : Beam K (Sect K)) (hb : o.beam = some b) (c : ℤ)
    (h : SameCase c b b') (position : PosArg K) :
    ({o with beam := some b'} : AS4100 K).tensionUtilisation rt (.one c) position
      = o.tensionUtilisation rt (.one c) position ∧
    ({o with beam := some b'} : AS4100 K).getTension rt c position none = o.getTension rt c position none := by
  refine ⟨?_, tension_beam hb (sameCase_as h) position none⟩
  have hl := C80_utilisation (rt := rt) o b b' hb [c] (by simpa using h) position
  have hone : ∀ o : AS4100 K, o.tensionUtilisation rt (.one c) position = o.tensionUtilisation rt (.list [c]) position := by
    intro o
    unfold AS4100.tensionUtilisation
    rcases position.given with e | _ | ps <;> rfl
  rw [hone, hone, hl]

end

/-! ## Examples -/

/-- Two rods with two load cases each. -/
def twoCases : List (Element ℚ (Sect ℚ)) :=
  [⟨[(1, Samples.slack), (2, Samples.peak)], some (Num.flt 1), Samples.rod (1/100)⟩,
    ⟨[(1, Samples.peak), (2, Samples.lc)], some (Num.flt 2), Samples.rod (1/50)⟩]

theorem shift_injective : Function.Injective fun c : ℤ => 10 - c := fun a b h => by
  simp only at h; omega

/-- The constructor accepts the renumbered beam. -/
example : ∃ b, Beam.new (.list (twoCases.map some)) = .ok b ∧
    Beam.new (renumberElements (fun c => 10 - c) (.list (twoCases.map some))) = .ok (renumber (fun c => 10 - c) b) ∧
    (renumber (fun c => 10 - c) b).loadCases = .ok [9, 8] :=
  ⟨⟨twoCases⟩, by decide +kernel, by rw [C79_constructor shift_injective]; decide +kernel, by decide +kernel⟩

/-- There is something to report. -/
example : (renumber (fun c => 10 - c) (⟨twoCases⟩ : Beam ℚ (Sect ℚ))).getLoads Samples.rt 8
    (.list [Num.flt (1/2), Num.flt 1]) none (.name "N") = .ok (some ⟨.flt, 1, [(1/2, [some 1000]), (1, [some 0]), (1, [some 3])]⟩) := by
  have := C79_loads (rt := Samples.rt) shift_injective (⟨twoCases⟩ : Beam ℚ (Sect ℚ)) 2
    (.list [Num.flt (1/2), Num.flt 1]) none (.name "N")
  rw [show (10 : ℤ) - 2 = 8 from rfl] at this
  rw [this]
  decide +kernel

/-- The utilisation of a renumbered check is a number. -/
example : ({Samples.peakObj with beam := some (renumber (fun c => 10 - c)
    ⟨[⟨[(1, Samples.slack), (2, Samples.peak)], some (Num.flt 1), Samples.rod (1/100)⟩]⟩)} : AS4100 ℚ).tensionUtilisation
      Samples.rt (.one 8) (.list [Num.flt (1/2)]) = .ok (1000 / Samples.thinCap) := by
  have := C79_utilisation (rt := Samples.rt) shift_injective Samples.peakObj _ rfl (.one 2) (.list [Num.flt (1/2)])
  simp only [renumberArg] at this
  rw [show (10 : ℤ) - 2 = 8 from rfl] at this
  rw [this]
  decide +kernel

/-- Two beams that differ in load case 1 only. -/
example : SameCase 2 (⟨twoCases⟩ : Beam ℚ (Sect ℚ))
    ⟨[⟨[(2, Samples.peak), (5, Samples.lc)], some (Num.flt 1), Samples.rod (1/100)⟩,
      ⟨[(2, Samples.lc)], some (Num.flt 2), Samples.rod (1/50)⟩]⟩ :=
  .cons ⟨rfl, rfl, by decide +kernel⟩ (.cons ⟨rfl, rfl, by decide +kernel⟩ .nil)

end BeamDesign
