import Verif.Lemmas.S6
import Mathlib.Tactic.Positivity
import Mathlib.Tactic.Linarith
import Mathlib.Tactic.Ring

/-!
# Polynomial inequalities behind the monotonicity of the column capacity in the yield stress

Generated: every polynomial is written in the Bernstein basis of an interval, where all its
coefficients are non-negative.
-/

namespace BeamDesign

/-- `K(λ) ≥ 28` for `100 ≤ λ ≤ 143` -/
theorem slope_f0 {x : ℝ} (h1 : 100 ≤ x) (h2 : x ≤ 143) : 0 ≤ (((x / 90) ^ 2 + 1 + 326 / 100000 * (x - 27 / 2)) * (2 * x + 326 / 100000 * x * (x - 27) - 28 * (2 * (x / 90) ^ 2 + 326 / 100000 * x)) * (2 * (x - 28)) - (2 * x + 326 / 100000 * x * (x - 27) - 28 * (2 * (x / 90) ^ 2 + 326 / 100000 * x)) ^ 2 - (x / 90) ^ 2 * (2 * (x - 28)) ^ 2) := by
  have key : ∀ u v : ℝ, 0 ≤ u → 0 ≤ v → 0 ≤ 48872160280309 / 1205652993153750000 * (u ^ 0 * v ^ 5) + 30533008184307547 / 120565299315375000000 * (u ^ 1 * v ^ 4) + 346791568602437849 / 602826496576875000000 * (u ^ 2 * v ^ 3) + 1372267149303430819 / 2411305986307500000000 * (u ^ 3 * v ^ 2) + 508510001149620619 / 2411305986307500000000 * (u ^ 4 * v ^ 1) + 1039749899917157 / 301413248288437500000 * (u ^ 5 * v ^ 0) := by
    intro u v hu hv; positivity
  exact (key (x - 100) (143 - x) (by linarith) (by linarith)).trans_eq (by ring)

/-- a tangent below `K`, `143 ≤ λ ≤ 213` -/
theorem slope_f1 {x : ℝ} (h1 : 143 ≤ x) (h2 : x ≤ 213) : 0 ≤ (((x / 90) ^ 2 + 1 + 326 / 100000 * (x - 27 / 2)) * (2 * x + 326 / 100000 * x * (x - 27) - (4391 / 125 - 41 / 500 * x) * (2 * (x / 90) ^ 2 + 326 / 100000 * x)) * (2 * (x - (4391 / 125 - 41 / 500 * x))) - (2 * x + 326 / 100000 * x * (x - 27) - (4391 / 125 - 41 / 500 * x) * (2 * (x / 90) ^ 2 + 326 / 100000 * x)) ^ 2 - (x / 90) ^ 2 * (2 * (x - (4391 / 125 - 41 / 500 * x))) ^ 2) := by
  rcases le_total x (178) with k0 | k0
  · have key : ∀ u v : ℝ, 0 ≤ u → 0 ≤ v → 0 ≤ 374683600094803411841 / 67303910522460937500000000 * (u ^ 0 * v ^ 6) + 34605929666507198184671 / 1076862568359375000000000000 * (u ^ 1 * v ^ 5) + 999764602998150421123 / 13460782104492187500000000 * (u ^ 2 * v ^ 4) + 18766476019584047769779 / 215372513671875000000000000 * (u ^ 3 * v ^ 3) + 5820630745944237731689 / 107686256835937500000000000 * (u ^ 4 * v ^ 2) + 4468799740782485958709 / 269215642089843750000000000 * (u ^ 5 * v ^ 1) + 89019954955567303009 / 44869273681640625000000000 * (u ^ 6 * v ^ 0) := by
      intro u v hu hv; positivity
    exact (key (x - 143) (178 - x) (by linarith) (by linarith)).trans_eq (by ring)
  rcases le_total x (195) with k1 | k1
  · have key : ∀ u v : ℝ, 0 ≤ u → 0 ≤ v → 0 ≤ 623139684688971121063 / 4124129953359375000000000 * (u ^ 0 * v ^ 6) + 18135152016703945986959 / 24744779720156250000000000 * (u ^ 1 * v ^ 5) + 23303646086373267367321 / 16496519813437500000000000 * (u ^ 2 * v ^ 4) + 15041236605491174489357 / 10997679875625000000000000 * (u ^ 3 * v ^ 3) + 635686805907438700159 / 916473322968750000000000 * (u ^ 4 * v ^ 2) + 216489455971792972621 / 1221964430625000000000000 * (u ^ 5 * v ^ 1) + 414912403567447409 / 20366073843750000000000 * (u ^ 6 * v ^ 0) := by
      intro u v hu hv; positivity
    exact (key (x - 178) (195 - x) (by linarith) (by linarith)).trans_eq (by ring)
  have key : ∀ u v : ℝ, 0 ≤ u → 0 ≤ v → 0 ≤ 414912403567447409 / 28697814000000000000000 * (u ^ 0 * v ^ 6) + 4349954501495306687 / 95659380000000000000000 * (u ^ 1 * v ^ 5) + 3211318645006819373 / 31886460000000000000000 * (u ^ 2 * v ^ 4) + 39197618947832794739 / 143489070000000000000000 * (u ^ 3 * v ^ 3) + 5474664058878306109 / 11957422500000000000000 * (u ^ 4 * v ^ 2) + 3812044169854275943 / 10628820000000000000000 * (u ^ 5 * v ^ 1) + 29928799404401764937 / 286978140000000000000000 * (u ^ 6 * v ^ 0) := by
    intro u v hu hv; positivity
  exact (key (x - 195) (213 - x) (by linarith) (by linarith)).trans_eq (by ring)

/-- the tangent is above the growth of the slenderness, `143 ≤ λ_n ≤ 227` -/
theorem slope_g1 {x : ℝ} (h1 : 143 ≤ x) (h2 : x ≤ 227) : 0 ≤ ((4391 / 125 - 41 / 500 * x) * (x * x - 153 / 10 * x + 2050) ^ 2 + 41 / 500 * (2100 * (x - 27 / 2) * (x * x - 153 / 10 * x + 2050)) - 2100 * (-(27 / 2) * (x * x - 153 / 10 * x + 2050) + x * (x - 27 / 2) * (2 * x - 153 / 10))) := by
  have key : ∀ u v : ℝ, 0 ≤ u → 0 ≤ v → 0 ≤ 7791144878521 / 209105971200000 * (u ^ 0 * v ^ 5) + 72693586124417 / 209105971200000 * (u ^ 1 * v ^ 4) + 132554729379869 / 104552985600000 * (u ^ 2 * v ^ 3) + 208199228692433 / 104552985600000 * (u ^ 3 * v ^ 2) + 237028589164541 / 209105971200000 * (u ^ 4 * v ^ 1) + 3690459655117 / 209105971200000 * (u ^ 5 * v ^ 0) := by
    intro u v hu hv; positivity
  exact (key (x - 143) (227 - x) (by linarith) (by linarith)).trans_eq (by ring)

/-- a tangent below `K`, `213 ≤ λ ≤ 303` -/
theorem slope_f2 {x : ℝ} (h1 : 213 ≤ x) (h2 : x ≤ 303) : 0 ≤ (((x / 90) ^ 2 + 1 + 326 / 100000 * (x - 27 / 2)) * (2 * x + 326 / 100000 * x * (x - 27) - (5673 / 200 - 1 / 20 * x) * (2 * (x / 90) ^ 2 + 326 / 100000 * x)) * (2 * (x - (5673 / 200 - 1 / 20 * x))) - (2 * x + 326 / 100000 * x * (x - 27) - (5673 / 200 - 1 / 20 * x) * (2 * (x / 90) ^ 2 + 326 / 100000 * x)) ^ 2 - (x / 90) ^ 2 * (2 * (x - (5673 / 200 - 1 / 20 * x))) ^ 2) := by
  rcases le_total x (235) with k0 | k0
  · have key : ∀ u v : ℝ, 0 ≤ u → 0 ≤ v → 0 ≤ 1077607737537293261 / 51020956800000000000000 * (u ^ 0 * v ^ 6) + 12831995524130985601 / 153062870400000000000000 * (u ^ 1 * v ^ 5) + 29059392267562199711 / 229594305600000000000000 * (u ^ 2 * v ^ 4) + 2665668323838837271 / 25510478400000000000000 * (u ^ 3 * v ^ 3) + 321586422302564369873 / 4132697500800000000000000 * (u ^ 4 * v ^ 2) + 695717755943146621829 / 12398092502400000000000000 * (u ^ 5 * v ^ 1) + 35225529376072581917 / 1859713875360000000000000 * (u ^ 6 * v ^ 0) := by
      intro u v hu hv; positivity
    exact (key (x - 213) (235 - x) (by linarith) (by linarith)).trans_eq (by ring)
  rcases le_total x (258) with k1 | k1
  · have key : ∀ u v : ℝ, 0 ≤ u → 0 ≤ v → 0 ≤ 35225529376072581917 / 2428158669322500000000000 * (u ^ 0 * v ^ 6) + 4309494953658025013503 / 32375448924300000000000000 * (u ^ 1 * v ^ 5) + 2784564713390553529763 / 5395908154050000000000000 * (u ^ 2 * v ^ 4) + 626309534207725889743 / 599545350450000000000000 * (u ^ 3 * v ^ 3) + 345880443687818734841 / 299772675225000000000000 * (u ^ 4 * v ^ 2) + 263617495400272408487 / 399696900300000000000000 * (u ^ 5 * v ^ 1) + 10187604311209689671 / 66616150050000000000000 * (u ^ 6 * v ^ 0) := by
      intro u v hu hv; positivity
    exact (key (x - 235) (258 - x) (by linarith) (by linarith)).trans_eq (by ring)
  have key : ∀ u v : ℝ, 0 ≤ u → 0 ≤ v → 0 ≤ 10187604311209689671 / 3736694531250000000000000 * (u ^ 0 * v ^ 6) + 21057114429676428233 / 830376562500000000000000 * (u ^ 1 * v ^ 5) + 2993601471555259367 / 31139121093750000000000 * (u ^ 2 * v ^ 4) + 141990808652371498319 / 747338906250000000000000 * (u ^ 3 * v ^ 3) + 1907751410455391203 / 9226406250000000000000 * (u ^ 4 * v ^ 2) + 293338467482384099059 / 2491129687500000000000000 * (u ^ 5 * v ^ 1) + 51335523955851658153 / 1868347265625000000000000 * (u ^ 6 * v ^ 0) := by
    intro u v hu hv; positivity
  exact (key (x - 258) (303 - x) (by linarith) (by linarith)).trans_eq (by ring)

/-- the tangent is above the growth of the slenderness, `213 ≤ λ_n ≤ 317` -/
theorem slope_g2 {x : ℝ} (h1 : 213 ≤ x) (h2 : x ≤ 317) : 0 ≤ ((5673 / 200 - 1 / 20 * x) * (x * x - 153 / 10 * x + 2050) ^ 2 + 1 / 20 * (2100 * (x - 27 / 2) * (x * x - 153 / 10 * x + 2050)) - 2100 * (-(27 / 2) * (x * x - 153 / 10 * x + 2050) + x * (x - 27 / 2) * (2 * x - 153 / 10))) := by
  have key : ∀ u v : ℝ, 0 ≤ u → 0 ≤ v → 0 ≤ 1477814956143 / 243330580480000 * (u ^ 0 * v ^ 5) + 81674345413483 / 243330580480000 * (u ^ 1 * v ^ 4) + 181534764752267 / 121665290240000 * (u ^ 2 * v ^ 3) + 280045211263627 / 121665290240000 * (u ^ 3 * v ^ 2) + 295636470076523 / 243330580480000 * (u ^ 4 * v ^ 1) + 6252517572463 / 243330580480000 * (u ^ 5 * v ^ 0) := by
    intro u v hu hv; positivity
  exact (key (x - 213) (317 - x) (by linarith) (by linarith)).trans_eq (by ring)

/-- a tangent below `K`, `303 ≤ λ ≤ 340` -/
theorem slope_f3 {x : ℝ} (h1 : 303 ≤ x) (h2 : x ≤ 340) : 0 ≤ (((x / 90) ^ 2 + 1 + 326 / 100000 * (x - 27 / 2)) * (2 * x + 326 / 100000 * x * (x - 27) - (2449 / 125 - 2 / 125 * x) * (2 * (x / 90) ^ 2 + 326 / 100000 * x)) * (2 * (x - (2449 / 125 - 2 / 125 * x))) - (2 * x + 326 / 100000 * x * (x - 27) - (2449 / 125 - 2 / 125 * x) * (2 * (x / 90) ^ 2 + 326 / 100000 * x)) ^ 2 - (x / 90) ^ 2 * (2 * (x - (2449 / 125 - 2 / 125 * x))) ^ 2) := by
  have key : ∀ u v : ℝ, 0 ≤ u → 0 ≤ v → 0 ≤ 8429564681720999261 / 2706039571992187500000000 * (u ^ 0 * v ^ 6) + 150673730786033956613 / 8118118715976562500000000 * (u ^ 1 * v ^ 5) + 645924451625973124057 / 12177178073964843750000000 * (u ^ 2 * v ^ 4) + 1345893348979150892909 / 14612613688757812500000000 * (u ^ 3 * v ^ 3) + 21362857735676400382051 / 219189205331367187500000000 * (u ^ 4 * v ^ 2) + 4661715747282874124897 / 82195951999262695312500000 * (u ^ 5 * v ^ 1) + 113090781188822887501 / 8219595199926269531250000 * (u ^ 6 * v ^ 0) := by
    intro u v hu hv; positivity
  exact (key (x - 303) (340 - x) (by linarith) (by linarith)).trans_eq (by ring)

/-- the tangent is above the growth of the slenderness, `303 ≤ λ_n ≤ 354` -/
theorem slope_g3 {x : ℝ} (h1 : 303 ≤ x) (h2 : x ≤ 354) : 0 ≤ ((2449 / 125 - 2 / 125 * x) * (x * x - 153 / 10 * x + 2050) ^ 2 + 2 / 125 * (2100 * (x - 27 / 2) * (x * x - 153 / 10 * x + 2050)) - 2100 * (-(27 / 2) * (x * x - 153 / 10 * x + 2050) + x * (x - 27 / 2) * (2 * x - 153 / 10))) := by
  have key : ∀ u v : ℝ, 0 ≤ u → 0 ≤ v → 0 ≤ 149483334620323 / 4312815637500 * (u ^ 0 * v ^ 5) + 193962959313511 / 862563127500 * (u ^ 1 * v ^ 4) + 2463041290571089 / 4312815637500 * (u ^ 2 * v ^ 3) + 3073051041675949 / 4312815637500 * (u ^ 3 * v ^ 2) + 472117267414814 / 1078203909375 * (u ^ 4 * v ^ 1) + 114514712889241 / 1078203909375 * (u ^ 5 * v ^ 0) := by
    intro u v hu hv; positivity
  exact (key (x - 303) (354 - x) (by linarith) (by linarith)).trans_eq (by ring)

/-- `K(λ) ≥ 12.9` for `340 ≤ λ` -/
theorem slope_f4 {x : ℝ} (h1 : 340 ≤ x) : 0 ≤ (((x / 90) ^ 2 + 1 + 326 / 100000 * (x - 27 / 2)) * (2 * x + 326 / 100000 * x * (x - 27) - (129 / 10) * (2 * (x / 90) ^ 2 + 326 / 100000 * x)) * (2 * (x - (129 / 10))) - (2 * x + 326 / 100000 * x * (x - 27) - (129 / 10) * (2 * (x / 90) ^ 2 + 326 / 100000 * x)) ^ 2 - (x / 90) ^ 2 * (2 * (x - (129 / 10))) ^ 2) := by
  rcases le_total x (540) with k0 | k0
  · have key : ∀ u v : ℝ, 0 ≤ u → 0 ≤ v → 0 ≤ 9943986832013738173 / 8748000000000000000000000 * (u ^ 0 * v ^ 5) + 473517693923470013 / 64800000000000000000000 * (u ^ 1 * v ^ 4) + 198584407861110409 / 10800000000000000000000 * (u ^ 2 * v ^ 3) + 9042509988161361 / 400000000000000000000 * (u ^ 3 * v ^ 2) + 2175004392542931 / 160000000000000000000 * (u ^ 4 * v ^ 1) + 12891056351641749 / 4000000000000000000000 * (u ^ 5 * v ^ 0) := by
      intro u v hu hv; positivity
    exact (key (x - 340) (540 - x) (by linarith) (by linarith)).trans_eq (by ring)
  have key : ∀ u : ℝ, 0 ≤ u → 0 ≤ 12891056351641749 / 12500000000 * u ^ 0 + 1008017194463547 / 250000000000 * u ^ 1 + 917612071869 / 250000000000 * u ^ 2 + 650402309 / 168750000000 * u ^ 3 + 3645689 / 202500000000 * u ^ 4 + 101 / 5467500000 * u ^ 5 := by
    intro u hu; positivity
  exact (key (x - 540) (by linarith)).trans_eq (by ring)

/-- the slenderness grows slowly for `340 ≤ λ_n` -/
theorem slope_g4 {x : ℝ} (h1 : 340 ≤ x) : 0 ≤ (129 / 10 * (x * x - 153 / 10 * x + 2050) ^ 2 - 2100 * (-(27 / 2) * (x * x - 153 / 10 * x + 2050) + x * (x - 27 / 2) * (2 * x - 153 / 10))) := by
  have key : ∀ u : ℝ, 0 ≤ u → 0 ≤ 56735509908 / 5 * u ^ 0 + 13766371962 / 25 * u ^ 1 + 4433894961 / 1000 * u ^ 2 + 647463 / 50 * u ^ 3 + 129 / 10 * u ^ 4 := by
    intro u hu; positivity
  exact (key (x - 340) (by linarith)).trans_eq (by ring)

/-- the slenderness grows by less than 28 -/
theorem slope_h {x : ℝ} (h1 : 18 ≤ x) : 0 ≤ (28 * (x * x - 153 / 10 * x + 2050) ^ 2 - 2100 * (-(27 / 2) * (x * x - 153 / 10 * x + 2050) + x * (x - 27 / 2) * (2 * x - 153 / 10))) := by
  rcases le_total x (68) with k0 | k0
  · have key : ∀ u v : ℝ, 0 ≤ u → 0 ≤ v → 0 ≤ 1120560343 / 39062500 * (u ^ 0 * v ^ 4) + 5013887347 / 39062500 * (u ^ 1 * v ^ 3) + 4314613429 / 19531250 * (u ^ 2 * v ^ 2) + 4323408047 / 39062500 * (u ^ 3 * v ^ 1) + 681258193 / 39062500 * (u ^ 4 * v ^ 0) := by
      intro u v hu hv; positivity
    exact (key (x - 18) (68 - x) (by linarith) (by linarith)).trans_eq (by ring)
  rcases le_total x (93) with k1 | k1
  · have key : ∀ u v : ℝ, 0 ≤ u → 0 ≤ v → 0 ≤ 2725032772 / 9765625 * (u ^ 0 * v ^ 4) + 7703380538 / 9765625 * (u ^ 1 * v ^ 3) + 6506496857 / 9765625 * (u ^ 2 * v ^ 2) + 1802670688 / 9765625 * (u ^ 3 * v ^ 1) + 547959097 / 9765625 * (u ^ 4 * v ^ 0) := by
      intro u v hu hv; positivity
    exact (key (x - 68) (93 - x) (by linarith) (by linarith)).trans_eq (by ring)
  rcases le_total x (118) with k2 | k2
  · have key : ∀ u v : ℝ, 0 ≤ u → 0 ≤ v → 0 ≤ 547959097 / 9765625 * (u ^ 0 * v ^ 4) + 2581002088 / 9765625 * (u ^ 1 * v ^ 3) + 8841491057 / 9765625 * (u ^ 2 * v ^ 2) + 14225249738 / 9765625 * (u ^ 3 * v ^ 1) + 7690239172 / 9765625 * (u ^ 4 * v ^ 0) := by
      intro u v hu hv; positivity
    exact (key (x - 93) (118 - x) (by linarith) (by linarith)).trans_eq (by ring)
  have key : ∀ u : ℝ, 0 ≤ u → 0 ≤ 7690239172 / 25 * u ^ 0 + 661428278 / 25 * u ^ 1 + 19691483 / 25 * u ^ 2 + 40796 / 5 * u ^ 3 + 28 * u ^ 4 := by
    intro u hu; positivity
  exact (key (x - 118) (by linarith)).trans_eq (by ring)

/-- the slenderness falls by less than 28 -/
theorem slope_h' {x : ℝ} (h1 : 18 ≤ x) : 0 ≤ (28 * (x * x - 153 / 10 * x + 2050) ^ 2 + 2100 * (-(27 / 2) * (x * x - 153 / 10 * x + 2050) + x * (x - 27 / 2) * (2 * x - 153 / 10))) := by
  have key : ∀ u : ℝ, 0 ≤ u → 0 ≤ 1683529372 / 25 * u ^ 0 + 79103178 / 25 * u ^ 1 + 5978483 / 25 * u ^ 2 + 26796 / 5 * u ^ 3 + 28 * u ^ 4 := by
    intro u hu; positivity
  exact (key (x - 18) (by linarith)).trans_eq (by ring)

/-- the slenderness ratio falls from 40 on -/
theorem slope_y {x : ℝ} (h1 : 40 ≤ x) : 0 ≤ (-(27 / 2) * (x * x - 153 / 10 * x + 2050) + x * (x - 27 / 2) * (2 * x - 153 / 10)) := by
  have key : ∀ u : ℝ, 0 ≤ u → 0 ≤ 27569 * u ^ 0 + 55491 / 10 * u ^ 1 + 921 / 5 * u ^ 2 + 2 * u ^ 3 := by
    intro u hu; positivity
  exact (key (x - 40) (by linarith)).trans_eq (by ring)

end BeamDesign
