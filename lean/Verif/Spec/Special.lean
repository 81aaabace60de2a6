import Verif.Model.Special
import Verif.Spec.Beam

/-! # What is meant by loads that are not finite -/

namespace BeamDesign.Spec

/-- a tension that cannot be rated: nan or plus infinity -/
def Unusable {K : Type} (v : Val K) : Prop := v = .nan ∨ v = .posInf

/-- the difference of two stored positions is not rounded to zero -/
def Separate {K : Type} [Zero K] (rt : Rt K) (rows : List (LRow K)) : Prop :=
  ∀ r ∈ rows, ∀ s ∈ rows, rt.sub r.pos s.pos = 0 → r.pos = s.pos

/-- in all the tables of the beam -/
def SeparateIn {K S : Type} [Zero K] (rt : Rt K) (b : Beam K S) : Prop :=
  ∀ e ∈ b.elements, ∀ c t, e.loads.lookup c = some ⟨some t⟩ → Separate rt t.rows


end BeamDesign.Spec
