import Verif.Model.S5

/-!
# The bending capacity of a segment

The library has no function for it: a caller chains `s5_6_3_k_t`, `s5_6_3_l_e`, `s5_6_1_M_o`, `s5_2_M_s`, `s5_6_α_s`
and `s5_6_1_Mb`.
-/

namespace BeamDesign.Spec

open S5

/-- The data of a segment: length, load height and rotation restraint factors, restraint code, web depth, thicknesses of
flange and web, number of webs, yield stress, effective section modulus, second moment of area about the minor axis,
torsion and warping constants, monosymmetry constant, moduli, moment modification factor. -/
structure Segment where
  l : ℝ
  kl : ℝ
  kr : ℝ
  code : Restraint
  d1 : ℝ
  tf : ℝ
  tw : ℝ
  nw : ℝ
  fy : ℝ
  Ze : ℝ
  Iy : ℝ
  J : ℝ
  Iw : ℝ
  betaX : ℝ
  E : ℝ
  G : ℝ
  alphaM : ℝ

/-- All positive, except that warping may be absent and the section monosymmetric either way -/
structure Segment.Positive (s : Segment) : Prop where
  l : 0 < s.l
  kl : 0 < s.kl
  kr : 0 < s.kr
  d1 : 0 < s.d1
  tf : 0 < s.tf
  tw : 0 < s.tw
  nw : 0 < s.nw
  fy : 0 < s.fy
  Ze : 0 < s.Ze
  Iy : 0 < s.Iy
  J : 0 < s.J
  Iw : 0 ≤ s.Iw
  E : 0 < s.E
  G : 0 < s.G
  alphaM : 0 < s.alphaM

/-- `M` is the value a caller gets for the segment by chaining the functions of `S5.py`. -/
def Segment.Capacity (v : PyVersion) (s : Segment) (M : ℝ) : Prop :=
  ∃ k Mo a, kt v s.d1 s.l s.tf s.tw s.nw (.code s.code) = .ok k ∧
    S5.Mo (le k s.kl s.kr s.l) s.Iy s.J s.Iw s.betaX s.E s.G = .ok Mo ∧
    alphaS (Ms s.fy s.Ze) Mo = .ok a ∧ M = Mb (Ms s.fy s.Ze) s.alphaM a

/-- The number of ends that are only partially restrained against twist. -/
def partialEnds : Restraint → ℕ
  | .FF | .FL | .LL | .FU => 0
  | .FP | .PL | .PU => 1
  | .PP => 2

end BeamDesign.Spec
