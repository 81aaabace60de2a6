import Verif.Model.Defaults
import Verif.Props.MaterialEq

/-! # C69: default values from a configuration file -/

set_option linter.unusedSectionVars false

namespace BeamDesign

open Spec

variable {K : Type} [Field K] [LinearOrder K]

/-- C69: when the table `defaults` holds exactly the three parameters as numbers, in any order, the object is the one built
from these numbers; other tables of the file do not matter. -/
theorem C69_values (cfg : MatFile K) (d : List (String × TVal K)) (phi au kt : K)
    (hcfg : cfg.lookup "defaults" = some (some d))
    (hd : d.Perm [("φ_steel", .num phi), ("αu", .num au), ("kt", .num kt)]) (beam : Option (Beam K (Sect K)))
    (sect : Option (Sect K)) :
    AS4100.defaultFrom cfg beam sect = AS4100.new phi au kt beam sect := by
  have hk : (d.map (·.1)).Nodup := by
    rw [(hd.map (·.1)).nodup_iff]
    simp
  have hany : (d.any fun kv => decide (kv.1 ∉ as4100Params)) = false := by
    rw [List.any_eq_false]
    intro kv hkv
    have := hd.mem_iff.1 hkv
    simp only [List.mem_cons, List.not_mem_nil, or_false] at this
    rcases this with rfl | rfl | rfl <;> simp [as4100Params]
  have l1 : d.lookup "φ_steel" = some (.num phi) := lookup_of_mem hk (hd.mem_iff.2 (by simp))
  have l2 : d.lookup "αu" = some (.num au) := lookup_of_mem hk (hd.mem_iff.2 (by simp))
  have l3 : d.lookup "kt" = some (.num kt) := lookup_of_mem hk (hd.mem_iff.2 (by simp))
  simp only [AS4100.defaultFrom, hcfg, AS4100.ofDefaults, hany, l1, l2, l3]
  simp

/-- C69: without the table `KeyError`; with a missing parameter or a name that is not one of the three `TypeError`,
whatever the beam and the section. -/
theorem C69_errors (cfg : MatFile K) (beam : Option (Beam K (Sect K))) (sect : Option (Sect K)) :
    (cfg.lookup "defaults" = none → AS4100.defaultFrom cfg beam sect = .error .keyError) ∧
    (∀ d, cfg.lookup "defaults" = some (some d) →
      (∃ name ∈ ["φ_steel", "αu", "kt"], name ∉ d.map (·.1)) ∨
      (∃ name ∈ d.map (·.1), name ∉ ["φ_steel", "αu", "kt"]) →
      AS4100.defaultFrom cfg beam sect = .error .typeError) := by
  constructor
  · intro h
    simp only [AS4100.defaultFrom, h]
  · intro d hcfg h
    simp only [AS4100.defaultFrom, hcfg, AS4100.ofDefaults]
    by_cases hany : (d.any fun kv => decide (kv.1 ∉ as4100Params)) = true
    · rw [if_pos hany]
    · rw [if_neg hany]
      rcases h with ⟨name, hname, hno⟩ | ⟨name, hname, hno⟩
      · have hnone : d.lookup name = none := by
          cases hl : d.lookup name with
          | none => rfl
          | some v => exact absurd (List.mem_map.2 ⟨_, mem_of_lookup hl, rfl⟩) hno
        simp only [List.mem_cons, List.not_mem_nil, or_false] at hname
        rcases hname with rfl | rfl | rfl
        · simp only [hnone]
        · cases d.lookup "φ_steel" <;> simp only [hnone]
        · cases d.lookup "φ_steel" <;> cases d.lookup "αu" <;> simp only [hnone]
      · obtain ⟨kv, hkv, rfl⟩ := List.mem_map.1 hname
        refine absurd (List.any_eq_true.2 ⟨kv, hkv, ?_⟩) hany
        simpa [as4100Params] using hno

/-- C69: the shipped file gives φ = 0.9, α_u = 0.85 and k_t = 1. -/
theorem C69_shipped (beam : Option (Beam K (Sect K))) (sect : Option (Sect K)) :
    AS4100.defaultFrom shippedDefaults beam sect = AS4100.new (90 / 100) (85 / 100) 1 beam sect ∧
    AS4100.defaultFrom shippedDefaults beam sect = AS4100.default beam sect := by
  have h := C69_values (K := K) shippedDefaults [("φ_steel", .num (90 / 100)), ("kt", .num 1), ("αu", .num (85 / 100))]
    (90 / 100) (85 / 100) 1 rfl (List.Perm.cons _ (List.Perm.swap _ _ _)) beam sect
  exact ⟨h, h⟩

/-- a file with the parameters in another order and another table -/
example : AS4100.defaultFrom [("other", none), ("defaults", some [("kt", .num (3/4)), ("αu", .num (85/100)), ("φ_steel", .num (9/10))])]
    (some Samples.rods) none = AS4100.new (9/10) (85/100) (3/4) (some Samples.rods) none :=
  C69_values _ _ _ _ _ rfl (by decide +kernel) _ _

/-- a misspelled parameter -/
example : AS4100.defaultFrom [("defaults", some [("kt", .num 1), ("αu", .num (85/100)), ("phi_steel", .num (9/10))])]
    (some Samples.rods) none = .error .typeError :=
  (C69_errors _ _ _).2 _ rfl (Or.inr ⟨"phi_steel", by simp, by simp⟩)

end BeamDesign
