import Verif.Model.AS4100

/-!
# What the caller asks for one by one (C156)
-/

namespace BeamDesign.Spec

variable {K : Type} [Field K] [LinearOrder K] [FloorRing K]

/-- The utilisation of one load case at one position, asked for on its own. -/
def alone (rt : Rt K) (o : AS4100 K) (c : ℤ) (p : Num K) : Py K := o.tensionUtilisation rt (.one c) (.list [p])

/-- All pairs of a load case and a position, the positions of one load case after those of the one before. -/
def pairsInOrder (cs : List ℤ) (ps : List (Num K)) : List (ℤ × Num K) := cs.flatMap fun c => ps.map fun p => (c, p)

end BeamDesign.Spec
