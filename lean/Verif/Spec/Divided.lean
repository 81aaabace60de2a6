import Verif.Spec.AS4100
import Verif.Spec.Mesh

/-!
# Specification of checked beams that are described in different ways
-/

namespace BeamDesign.Spec

variable {K : Type} [Field K] [LinearOrder K]

/-- An object with a beam of elements with the positive lengths `ls`, given as floats, whose sections are steel circles of
positive capacity, and with loads given as floats on every element in load case `c`. -/
structure Checked (rt : Rt K) (o : AS4100 K) (b : Beam K (Sect K)) (ls : List (Num K)) (c : ℤ) : Prop where
  beam : o.beam = some b
  aligned : Aligned o
  lengths : HasLengths b ls
  some : ls ≠ []
  float : ∀ l ∈ ls, l.isInt = false
  positive : ∀ l ∈ ls, 0 < l.val
  phi : 0 < o.phiSteel
  capacity : ∀ d ∈ o.dsects, ∃ n, SectionCapacity rt o.kt o.alphaU d n ∧ 0 < n
  points : ∃ n : ℕ, o.assessmentPoints = n
  loaded : LoadedFloat b c

/-- The two objects check with the same capacity factor, `kt` and `αu`. -/
def SameFactors (o o' : AS4100 K) : Prop := o'.phiSteel = o.phiSteel ∧ o'.kt = o.kt ∧ o'.alphaU = o.alphaU

end BeamDesign.Spec
