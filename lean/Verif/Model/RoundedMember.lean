import Verif.Model.RoundedTorsion

/-!
# The member capacity of section 6 operation by operation, over a floating point arithmetic

The counterpart of `Model/Rounded` for S6.py 71-80 and 895-1046.  Unsymmetric sections are in `Model/RoundedUnsym`.
-/

namespace BeamDesign.S6R

variable {K : Type} [Field K] [LinearOrder K]

/-- S6.py 71-80 `s6_3_2_l_e` -/
def le (A : Arith K) (l ke : K) : K := A.mul l ke

/-- S6.py 895-919: the arguments of `s6_1_1_Nc` -/
structure Args (K : Type) where
  An : K
  kf : K
  l : K
  kex : K
  key : K
  kez : K
  rx : K
  ry : K
  xo : K
  yo : K
  J : K
  Iw : K
  fy : K
  E : K
  G : K
  sym : Sym
  fref : K
  alphaB : K
  uncertainty : K
  phi : K
  calcBuckling : Bool
  calcTorsion : Bool

/-- the numbers in the dictionary returned by `s6_1_1_Nc`; keys that are not set are `none` -/
structure Result (K : Type) where
  Ns : K
  phiNs : K
  Ncx : Option K
  phiNcx : Option K
  Ncy : Option K
  phiNcy : Option K
  NczBuckling : Option K
  Ncz : Option K
  phiNcz : Option K
  Nc : K
  phiNc : K
  deriving DecidableEq

/-- S6.py 975-976, 1004: the member given to the torsional check -/
def Args.bar (A : Arith K) (a : Args K) : Bar K :=
  ⟨a.An, le A a.l a.kex, le A a.l a.key, le A a.l a.kez, a.rx, a.ry, a.xo, a.yo, a.J, a.Iw, a.E, a.G⟩

/-- S6.py 895-1046 `s6_1_1_Nc`, with the value of `s6_3_3_N_c_torsion` in S6.py 1003-1021 as the argument `torsion` -/
def NcWith (A : Arith K) (torsion : Py K) (a : Args K) : Py (Result K) := do
  let ae := Ae A a.An a.kf
  let ns := Ns A ae a.fy
  let phiNs := A.mul a.phi ns
  if a.calcBuckling then do
    let bx ← NcFlexural A a.An a.kf (le A a.l a.kex) a.rx a.fy a.fref a.alphaB
    let by' ← NcFlexural A a.An a.kf (le A a.l a.key) a.ry a.fy a.fref a.alphaB
    let ncx := min bx.1 ns
    let phiNcx := A.mul a.phi ncx
    let ncy := min by'.1 ns
    let phiNcy := A.mul a.phi ncy
    let nc := min (min ns ncx) ncy
    let phiNc := min (min phiNs phiNcx) phiNcy
    if a.calcTorsion then do
      let t ← torsion
      let ncz := min ns t
      let nc' := min nc ncz
      return ⟨ns, phiNs, some ncx, some phiNcx, some ncy, some phiNcy, some t, some ncz, some (A.mul a.phi ncz), nc', A.mul a.phi nc'⟩
    else
      return ⟨ns, phiNs, some ncx, some phiNcx, some ncy, some phiNcy, none, none, none, nc, phiNc⟩
  else
    return ⟨ns, phiNs, none, none, none, none, none, none, none, ns, phiNs⟩

/-- S6.py 895-1046 `s6_1_1_Nc`, of a section with a symmetry -/
def Nc (A : Arith K) (pw : K → K → K) (a : Args K) : Py (Result K) :=
  NcWith A (NcTorsion A pw (a.bar A) a.kf a.fy a.sym a.uncertainty) a

end BeamDesign.S6R
