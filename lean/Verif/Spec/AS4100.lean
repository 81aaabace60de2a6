import Verif.Model.AS4100
import Verif.Spec.Beam
import Verif.Spec.Material

/-!
# Specification of the AS4100 tension checks
-/

namespace BeamDesign.Spec

variable {K : Type} [Field K] [LinearOrder K]

/-- The design sections belong to the sections, one for one: each section is a steel circle and its design
section has the same radius and material. -/
def Aligned (o : AS4100 K) : Prop :=
  List.Forall₂ (fun s d => s = Sect.circle d.radius (some d.material) ∧ d.material.type = .mat .steel)
    (match o.beam, o.sect with
      | some b, _ => b.elements.map fun e => e.sect
      | none, some s => [s]
      | none, none => []) o.dsects

/-- `n` is the as4100 S7.1 tension capacity of a solid circle: the lesser of yielding of the gross section and
fracture of the net section, both of area π r². -/
def SectionCapacity (rt : Rt K) (kt alphaU : K) (d : DSect K) (n : K) : Prop :=
  ∃ fy fu, Strengths d fy fu ∧
    n = min (rt.mul (rt.mul piD (rt.mul d.radius d.radius)) fy)
      (rt.mul (rt.mul (rt.mul (rt.mul piD (rt.mul d.radius d.radius)) fu) kt) alphaU)

/-- `d` is the design section of an element containing the beam position `p`. -/
def AtPosition (b : Beam K (Sect K)) (ls : List (Num K)) (p : K) (d : DSect K) : Prop :=
  ∃ (i : ℕ) (e : Element K (Sect K)), InElement ls p i ∧ b.elements[i]? = some e ∧
    e.sect = .circle d.radius (some d.material)

/-- The smallest utilisation the solver can report: below it the two starting values of the solver are taken to be
equal. -/
def minUtil : K := 1 / 10 ^ 9 / (2 * 10 ^ 5 - 1 / 10 ^ 4)

/-- The utilisation of a tension `t` (compression and no load: 0). -/
def utilOf (cap t : K) : K := if t ≤ 0 then 0 else t / cap

/-- `get_tension` reports the tension `t` at position `p` in load case `c`. -/
def Reported [FloorRing K] (rt : Rt K) (o : AS4100 K) (c : ℤ) (p : Num K) (t : K) : Prop :=
  ∃ tab r, o.getTension rt c (.scalar p) none = .ok tab ∧ r ∈ tab.rows ∧ r.2 = [some t]

/-- At position `p` in load case `c` there is a positive capacity and a table of axial loads. -/
def Defined [FloorRing K] (rt : Rt K) (o : AS4100 K) (c : ℤ) (p : Num K) : Prop :=
  ∃ cap dt, ∃ rows : List (K × K), o.phiNt rt (.scalar p) = .ok cap ∧ 0 < cap ∧ rows ≠ [] ∧
    o.getTension rt c (.scalar p) none = .ok ⟨dt, 1, rows.map fun r => (r.1, [some r.2])⟩

/-- At position `p` in load case `c` there is a tension so small that the solver gives up. -/
def Tiny [FloorRing K] (rt : Rt K) (o : AS4100 K) (c : ℤ) (p : Num K) : Prop :=
  ∃ cap t, o.phiNt rt (.scalar p) = .ok cap ∧ Reported rt o c p t ∧ 0 < t ∧ t / cap ≤ minUtil

/-- `v` is the utilisation of a tension reported at `p` in load case `c`: the tension over the capacity there, 0 if
there is no tension. -/
def UtilAt [FloorRing K] (rt : Rt K) (o : AS4100 K) (c : ℤ) (p : Num K) (v : K) : Prop :=
  ∃ cap t, o.phiNt rt (.scalar p) = .ok cap ∧ Reported rt o c p t ∧ v = if t ≤ 0 then 0 else t / cap

/-- The argument `loadCase` stands for the load cases `cs`; leaving it out means all load cases of the beam. -/
def CasesOf (o : AS4100 K) (loadCase : CaseArg) (cs : List ℤ) : Prop :=
  loadCase = .list cs ∨ (∃ c, loadCase = .one c ∧ cs = [c]) ∨
  (loadCase = .none ∧ ∃ b e rest, o.beam = some b ∧ b.elements = e :: rest ∧ cs = e.loads.map fun l => l.1)

/-- The argument `position` stands for the positions `ps`. -/
def PositionsOf (position : PosArg K) (ps : List (Num K)) : Prop :=
  position = .list ps ∨ ∃ x, position = .scalar (Num.flt x) ∧ ps = [Num.flt x]

/-- The beam with all axial loads multiplied by `k`. -/
def scaleN {S : Type} (k : K) (b : Beam K S) : Beam K S :=
  ⟨b.elements.map fun e => ⟨e.loads.map fun l => (l.1, ⟨l.2.loads.map fun t =>
    ⟨t.isInt, t.rows.map fun r => ⟨r.pos, r.vx, r.vy, k * r.n, r.mx, r.my, r.t⟩⟩⟩), e.length, e.sect⟩⟩

end BeamDesign.Spec
