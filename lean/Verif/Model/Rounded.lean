import Verif.Model.S6
import Verif.Model.S5
import Verif.Float64

/-!
# The section 5 and section 6 formulas operation by operation, over a floating point arithmetic

`Model/S5` and `Model/S6` give the values of the formulas in exact arithmetic.  Here every operation of the source is one operation of
an arithmetic `A`, in the order Python evaluates it, and decimal literals are converted by `A.lit`.  Integers such as `2` and `2100` are
exact.  `max`, `min`, `abs`, comparison and negation do not round.
-/

namespace BeamDesign

/-- Float arithmetic: the operations the formulas use.  `sqrt` is `x ** 0.5`, `sq` is `x ** 2`, `cube` is `x ** 3`. -/
structure Arith (K : Type) where
  add : K → K → K
  sub : K → K → K
  mul : K → K → K
  div : K → K → K
  sqrt : K → K
  sq : K → K
  cube : K → K
  lit : ℚ → K

variable {K : Type} [Field K] [LinearOrder K]

/-- `a / b`: `ZeroDivisionError` when `b` is zero -/
def Arith.quot (A : Arith K) (a b : K) : Py K := if b = 0 then .error .zeroDivision else .ok (A.div a b)

/-- `x ** 0.5`.  Python gives a complex number for a negative `x`: outside the model. -/
def Arith.root (A : Arith K) (x : K) : Py K := if x < 0 then .error .outsideModel else .ok (A.sqrt x)

/-- exact arithmetic on the reals -/
noncomputable def Arith.exact : Arith ℝ where
  add := (· + ·)
  sub := (· - ·)
  mul := (· * ·)
  div := (· / ·)
  sqrt := Real.sqrt
  sq := (· ^ 2)
  cube := (· ^ 3)
  lit := fun q => q

open Classical in
/-- the nearest integer, ties to even, as `roundEven` for rationals -/
noncomputable def roundEvenR (q : ℝ) : ℤ :=
  if q - ⌊q⌋ < 1 / 2 then ⌊q⌋
  else if 1 / 2 < q - ⌊q⌋ then ⌊q⌋ + 1
  else if Even ⌊q⌋ then ⌊q⌋ else ⌊q⌋ + 1

/-- the nearest number with 53 significant binary digits: a double, as long as nothing overflows or underflows -/
noncomputable def fl53 (x : ℝ) : ℝ := roundEvenR (x / 2 ^ (Int.log 2 |x| - 52)) * 2 ^ (Int.log 2 |x| - 52)

/-- double precision on the reals, with correctly rounded powers -/
noncomputable def Arith.double : Arith ℝ where
  add := fun a b => fl53 (a + b)
  sub := fun a b => fl53 (a - b)
  mul := fun a b => fl53 (a * b)
  div := fun a b => fl53 (a / b)
  sqrt := fun a => fl53 (Real.sqrt a)
  sq := fun a => fl53 (a ^ 2)
  cube := fun a => fl53 (a ^ 3)
  lit := fun q => fl53 q

/-- The correctly rounded square root of a rational.  The integer part of `√x · 2^k` has more than 60 digits; a half is added to it if it is
not exact, which rounds to the same double as the root does. -/
def sqrt64 (x : ℚ) : ℚ :=
  let k : ℤ := 60 - Int.log 2 |x| / 2
  let m := ⌊x * 4 ^ k⌋.toNat
  let n := Nat.sqrt m
  rnd64 ((if (n : ℚ) ^ 2 = x * 4 ^ k then (n : ℚ) else n + 1 / 2) / 2 ^ k)

/-- double precision on the rationals, with underflow -/
def Arith.binary64 : Arith ℚ where
  add := fun a b => rnd64 (a + b)
  sub := fun a b => rnd64 (a - b)
  mul := fun a b => rnd64 (a * b)
  div := fun a b => rnd64 (a / b)
  sqrt := sqrt64
  sq := fun a => rnd64 (a ^ 2)
  cube := fun a => rnd64 (a ^ 3)
  lit := rnd64

namespace S5R

/-- S5.py 55-65 `s5_2_M_s` -/
def Ms (A : Arith K) (fy Ze : K) : K := A.mul fy Ze

/-- S5.py 105, 107: `math.pi * math.pi`, then `E`, the property and the length -/
def euler (A : Arith K) (le I E : K) : Py K := A.quot (A.mul (A.mul (A.mul piD piD) E) I) (A.mul le le)

/-- S5.py 77-110 `s5_6_1_M_o` -/
def Mo (A : Arith K) (le Iy J Iw betaX E G : K) : Py K := do
  let a ← euler A le Iy E
  let b := A.mul G J
  let c ← euler A le Iw E
  let d := A.div betaX 2
  let ra ← A.root a
  let rb ← A.root (A.add (A.add b c) (A.mul (A.mul d d) a))
  return A.mul ra (A.add rb (A.mul d ra))

/-- S5.py 113-136 `s5_6_1_α_m` -/
def alphaM (A : Arith K) (Mmax M2 M3 M4 cap : K) : Py K := do
  let r ← A.root (A.add (A.add (A.mul M2 M2) (A.mul M3 M3)) (A.mul M4 M4))
  let a ← A.quot (A.mul (A.lit (17 / 10)) (max Mmax (-Mmax))) r
  return min a cap

/-- S5.py 139-152 `s5_6_α_s` -/
def alphaS (A : Arith K) (Ms Mo : K) : Py K := do
  let x ← A.quot Ms Mo
  let r ← A.root (A.add (A.sq x) 3)
  return A.mul (A.lit (6 / 10)) (A.sub r x)

/-- S5.py 185, 187: `(d_1 / l) * (t_f / (2 * t_w)) ** 3`, with a factor 2 in front for two ends -/
def ktRest (A : Arith K) (x tf tw nw : K) : Py K := do
  let y ← A.quot tf (A.mul 2 tw)
  let z ← A.quot (A.mul x (A.cube y)) nw
  return A.add 1 z

/-- S5.py 155-197 `s5_6_3_k_t` for a member of the enumeration -/
def kt (A : Arith K) (d1 l tf tw nw : K) (r : S5.Restraint) : Py K :=
  match r with
  | .FF | .FL | .LL | .FU => .ok 1
  | .FP | .PL | .PU => do
    let x ← A.quot d1 l
    ktRest A x tf tw nw
  | .PP => do
    let x ← A.quot d1 l
    ktRest A (A.mul 2 x) tf tw nw

/-- S5.py 200-211 `s5_6_3_l_e` -/
def le (A : Arith K) (kt kl kr lact : K) : K := A.mul (A.mul (A.mul kt kl) kr) lact

/-- S5.py 214-224 `s5_6_1_Mb` -/
def Mb (A : Arith K) (Ms alphaM alphaS : K) : K := A.mul (A.mul alphaM alphaS) Ms

end S5R

namespace S5ShearR

/-- S5_Shear.py 29-57 `s5_11_4_V_w_Generic`; `ratio` is the argument or the literal 0.6 -/
def VwGeneric (A : Arith K) (Aw fy ratio : K) : K := A.mul (A.mul ratio fy) Aw

/-- S5_Shear.py 88-125 `s5_11_5_α_v` -/
def alphaV (A : Arith K) (dp tw fy slendernessLimit fref : K) : Py K := do
  let q ← A.quot fy fref
  let r ← A.root q
  let lim ← A.quot slendernessLimit r
  let s ← A.quot dp tw
  if s > lim then do
    let u ← A.quot lim s
    return A.sq u
  else
    return 1

/-- S5_Shear.py 60-85 `s5_11_4_V_w_CHS` -/
def VwCHS (A : Arith K) (Ae fy ratio area : K) : K := A.mul (A.mul area (A.mul ratio fy)) Ae

/-- S5_Shear.py 128-147 `s5_11_3_α_vma` -/
def alphaVma (A : Arith K) (fvm fva : K) : Py K := do
  let q ← A.quot fvm fva
  let a ← A.quot 2 (A.add (A.lit (9 / 10)) q)
  return min a 1

/-- S5_Shear.py 150-185 `s5_11_4_V_w_Weld` for a list of floats (a float is wrapped in a list): `sum` starts from 0 and
adds one number after the other (Python up to 3.11; later versions correct rounding errors, see `Model/WeldSum`) -/
def VwWeld (A : Arith K) (vs : List K) (Q I : K) : Py K := A.quot (A.mul (vs.foldl A.add 0) I) Q

/-- S5_Shear.py 188-217 `s5_11_4_V_w_Interface` -/
def VwInterface (A : Arith K) (t fy Q I ratio : K) : Py K := A.quot (A.mul (A.mul (A.mul fy ratio) t) I) Q

end S5ShearR

namespace S6R

/-- S6.py 39-49 `s6_2_A_e` -/
def Ae (A : Arith K) (An kf : K) : K := A.mul An kf

/-- S6.py 52-61 `s6_2_N_s` -/
def Ns (A : Arith K) (Ae fy : K) : K := A.mul Ae fy

/-- S6.py 185-201 `s6_3_3_λ_n` -/
def lambdaN (A : Arith K) (kf le r fy fref : K) : Py K := do
  let s ← A.quot le r
  let a ← A.root kf
  let q ← A.quot fy fref
  let b ← A.root q
  return A.mul (A.mul s a) b

/-- the dictionary returned by `s6_3_3_α_c` -/
structure AlphaC (K : Type) where
  alphaA : K
  lambda : K
  eta : K
  xi : K
  alphaC : K
  deriving DecidableEq

/-- S6.py 234: `ξ` from `λ` and `η` -/
def xi (A : Arith K) (lam eta : K) : Py K :=
  let u := A.sq (A.div lam 90)
  A.quot (A.add (A.add u 1) eta) (A.mul 2 u)

/-- S6.py 235: `ξ * (1 - (1 - (90 / (ξ * λ)) ** 2) ** 0.5)` -/
def fromXi (A : Arith K) (xi lam : K) : Py K := do
  let t ← A.quot 90 (A.mul xi lam)
  let r ← A.root (A.sub 1 (A.sq t))
  return A.mul xi (A.sub 1 r)

/-- S6.py 204-237 `s6_3_3_α_c` -/
def alphaC (A : Arith K) (ln alphaB : K) : Py (AlphaC K) := do
  let aa ← A.quot (A.mul 2100 (A.sub ln (A.lit (27 / 2))))
    (A.add (A.sub (A.mul ln ln) (A.mul (A.lit (153 / 10)) ln)) 2050)
  let lam := A.add ln (A.mul aa alphaB)
  let eta := max (A.mul (A.lit (326 / 100000)) (A.sub lam (A.lit (27 / 2)))) 0
  let xi ← xi A lam eta
  let ac ← fromXi A xi lam
  return ⟨aa, lam, eta, xi, ac⟩

/-- S6.py 240-286 `s6_3_3_N_c`: the capacity, the slenderness and the factors -/
def NcFlexural (A : Arith K) (An kf le r fy fref alphaB : K) : Py (K × K × AlphaC K) := do
  let ns := Ns A (Ae A An kf) fy
  let ln ← lambdaN A kf le r fy fref
  let ac ← alphaC A ln alphaB
  return (A.mul ns ac.alphaC, ln, ac)

end S6R

end BeamDesign
