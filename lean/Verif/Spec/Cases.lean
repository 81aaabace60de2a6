import Verif.Model.AS4100

/-!
# Specification of what load case numbers mean
-/

namespace BeamDesign.Spec

variable {K S : Type}

/-- The element with every load case filed under a new number. -/
def renumberElement (ρ : ℤ → ℤ) (e : Element K S) : Element K S :=
  ⟨e.loads.map fun l => (ρ l.1, l.2), e.length, e.sect⟩

/-- The beam with every load case filed under a new number. -/
def renumber (ρ : ℤ → ℤ) (b : Beam K S) : Beam K S := ⟨b.elements.map (renumberElement ρ)⟩

/-- What is given to `Beam(...)`, with every load case filed under a new number. -/
def renumberElements (ρ : ℤ → ℤ) : ElementsArg K S → ElementsArg K S
  | .none => .none
  | .single e => .single (renumberElement ρ e)
  | .list es => .list (es.map (Option.map (renumberElement ρ)))

/-- The question about load cases, in the new numbers. -/
def renumberArg (ρ : ℤ → ℤ) : CaseArg → CaseArg
  | .none => .none
  | .one c => .one (ρ c)
  | .list cs => .list (cs.map ρ)

/-- The two beams have the same lengths and sections, and under the number `c` the same load case in each element (or
none in either).  Nothing is said about other load cases. -/
def SameCase (c : ℤ) (b b' : Beam K S) : Prop :=
  List.Forall₂ (fun e e' => e.length = e'.length ∧ e.sect = e'.sect ∧ e.loads.lookup c = e'.loads.lookup c)
    b.elements b'.elements

end BeamDesign.Spec
