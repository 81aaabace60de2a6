import Verif.Spec.AS4100

/-!
# Specification of a safe design
-/

namespace BeamDesign.Spec

variable {K : Type} [Field K] [LinearOrder K]

/-- `v` is an axial load at the local position `x` of a load table: a stored one, or the value of the piecewise linear
curve at a position that is not stored. -/
def AxialAt (rows : List (LRow K)) (x v : K) : Prop :=
  (∃ r ∈ rows, r.pos = x ∧ v = r.n) ∨ (x ∉ rows.map (·.pos) ∧ OnCurve rows .N x v)

/-- Element `i` of the beam is a circle with the design capacity `φ n` in tension. -/
def ElementCapacity (rt : Rt K) (o : AS4100 K) (b : Beam K (Sect K)) (i : ℕ) (cap : K) : Prop :=
  ∃ e d n, b.elements[i]? = some e ∧ e.sect = .circle d.radius (some d.material) ∧
    SectionCapacity rt o.kt o.alphaU d n ∧ cap = o.phiSteel * n

/-- In load case `k` the axial load is nowhere, on any element, above `f` times the design capacity of the element. -/
def NowhereAbove (rt : Rt K) (o : AS4100 K) (b : Beam K (Sect K)) (k : ℤ) (f : K) : Prop :=
  ∀ i t cap x v, HasTable b k i t → ElementCapacity rt o b i cap → 0 ≤ x → x ≤ 1 → AxialAt t.rows x v → v ≤ f * cap

/-- On every element, every stored position of load case `k` is a stored position of load case `c`. -/
def StationsOf (b : Beam K (Sect K)) (c k : ℤ) : Prop :=
  ∀ i t r, HasTable b k i t → r ∈ t.rows → ∃ t' r', HasTable b c i t' ∧ r' ∈ t'.rows ∧ r'.pos = r.pos

end BeamDesign.Spec
