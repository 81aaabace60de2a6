import Verif.Conformance.Tables
import Verif.Model.S7

/-!
# The tests that read `tests/Excel/AS4100 Verification.xlsx` run on the model

`tests/test_AS4100_5_Shear.py` and `test_AS4100_s7_Nt` of `tests/test_AS4100.py`.

Written by tools/conformance.py.
-/

namespace BeamDesign.Conformance

/-- test_s5_11_4_V_w_Generic, 150 rows: columns Aw, fy_web, Vyield -/
def tVw : List (List ℚ) := table [20, 0, 11] [
  [1792000000000000000, 300000000, 322559999999999950], [1792000000000000000, 300000000, 322559999999999950],
  [1792000000000000000, 300000000, 322559999999999950], [1792000000000000000, 300000000, 322559999999999950],
  [1792000000000000000, 300000000, 322559999999999950], [1792000000000000000, 300000000, 322559999999999950],
  [1792000000000000000, 300000000, 322559999999999950], [1536000000000000000, 300000000, 276480000000000000],
  [1536000000000000000, 300000000, 276480000000000000], [1536000000000000000, 300000000, 276480000000000000],
  [1536000000000000000, 300000000, 276480000000000000], [1032000000000000100, 310000000, 191952000000000020],
  [1032000000000000000, 310000000, 191952000000000000], [1032000000000000000, 310000000, 191952000000000000],
  [1032000000000000000, 310000000, 191952000000000000], [759999999999999900, 310000000, 141359999999999980],
  [760000000000000000, 310000000, 141360000000000000], [760000000000000000, 310000000, 141360000000000000],
  [760000000000000000, 310000000, 141360000000000000], [659999999999999900, 310000000, 122759999999999980],
  [659999999999999900, 310000000, 122759999999999980], [659999999999999900, 310000000, 122759999999999980],
  [659999999999999900, 310000000, 122759999999999980], [1792000000000000000, 380000000, 408575999999999900],
  [1792000000000000000, 380000000, 408575999999999900], [1792000000000000000, 380000000, 408575999999999900],
  [1792000000000000000, 380000000, 408575999999999900], [1792000000000000000, 380000000, 408575999999999900],
  [1792000000000000000, 380000000, 408575999999999900], [1792000000000000000, 380000000, 408575999999999900],
  [1536000000000000000, 380000000, 350208000000000000], [1536000000000000000, 380000000, 350208000000000000],
  [1536000000000000000, 380000000, 350208000000000000], [1536000000000000000, 380000000, 350208000000000000],
  [1032000000000000100, 400000000, 247680000000000000], [1032000000000000000, 400000000, 247679999999999950],
  [1032000000000000000, 400000000, 247679999999999950], [1032000000000000000, 400000000, 247679999999999950],
  [759999999999999900, 400000000, 182399999999999980], [760000000000000000, 400000000, 182400000000000000],
  [760000000000000000, 400000000, 182400000000000000], [760000000000000000, 400000000, 182400000000000000],
  [659999999999999900, 400000000, 158399999999999980], [659999999999999900, 400000000, 158399999999999980],
  [659999999999999900, 400000000, 158399999999999980], [659999999999999900, 400000000, 158399999999999980],
  [1600000000000000000, 280000000, 268800000000000000], [1279999999999999900, 280000000, 215039999999999950],
  [1279999999999999900, 280000000, 215039999999999950], [1125000000000000100, 280000000, 189000000000000020],
  [900000000000000100, 300000000, 162000000000000020], [900000000000000100, 300000000, 162000000000000020],
  [900000000000000100, 300000000, 162000000000000020], [1399999999999999900, 280000000, 235199999999999950],
  [980000000000000000, 280000000, 164640000000000000], [980000000000000000, 280000000, 164640000000000000],
  [874999999999999900, 280000000, 146999999999999980], [700000000000000100, 300000000, 126000000000000020],
  [700000000000000100, 300000000, 126000000000000020], [560000000000000000, 300000000, 100800000000000000],
  [769999999999999900, 280000000, 129360000000000000], [769999999999999900, 280000000, 129360000000000000],
  [687500000000000100, 280000000, 115500000000000000], [550000000000000050, 300000000, 99000000000000010],
  [1600000000000000000, 360000000, 345600000000000000], [1279999999999999900, 360000000, 276480000000000000],
  [1279999999999999900, 360000000, 276480000000000000], [1125000000000000100, 360000000, 243000000000000000],
  [900000000000000100, 380000000, 205200000000000020], [900000000000000100, 380000000, 205200000000000020],
  [900000000000000100, 380000000, 205200000000000020], [1399999999999999900, 360000000, 302399999999999950],
  [980000000000000000, 360000000, 211680000000000000], [980000000000000000, 360000000, 211680000000000000],
  [874999999999999900, 360000000, 188999999999999950], [700000000000000100, 380000000, 159600000000000020],
  [700000000000000100, 380000000, 159600000000000020], [560000000000000000, 380000000, 127680000000000000],
  [769999999999999900, 360000000, 166320000000000000], [769999999999999900, 360000000, 166320000000000000],
  [687500000000000100, 360000000, 148500000000000020], [550000000000000050, 380000000, 125400000000000000],
  [728280000000000100, 300000000, 131090400000000000], [679840000000000000, 300000000, 122371199999999980],
  [638120000000000000, 320000000, 122519040000000000], [543660000000000000, 320000000, 104382720000000000],
  [506880000000000000, 320000000, 97320960000000000], [455400000000000100, 320000000, 87436800000000010],
  [415870000000000000, 320000000, 79847040000000010], [385900000000000050, 320000000, 74092800000000010],
  [316680000000000000, 320000000, 60802560000000000], [306280000000000000, 320000000, 58805760000000000],
  [287200000000000000, 320000000, 55142400000000000], [259880000000000000, 320000000, 49896960000000000],
  [242880000000000000, 320000000, 46632960000000000], [205690000000000000, 320000000, 39492480000000000],
  [185439999999999980, 320000000, 35604479999999993], [163899999999999980, 320000000, 31468800000000000],
  [163840000000000010, 320000000, 31457280000000000], [153719999999999990, 320000000, 29514239999999997],
  [124000000000000000, 320000000, 23808000000000000], [130409999999999990, 320000000, 25038719999999995],
  [117740000000000000, 320000000, 22606080000000002], [101000000000000000, 320000000, 19392000000000000],
  [89100000000000000, 320000000, 17107200000000000], [107400000000000000, 320000000, 20620800000000000],
  [87499999999999990, 320000000, 16800000000000000], [77849999999999990, 320000000, 14947199999999997],
  [93000000000000000, 320000000, 17856000000000000], [75000000000000000, 320000000, 14400000000000000],
  [304920000000000000, 320000000, 58544640000000000], [513389999999999900, 300000000, 92410199999999990],
  [442980000000000000, 300000000, 79736400000000000], [374850000000000000, 300000000, 67473000000000000],
  [273000000000000020, 320000000, 52416000000000006], [218440000000000000, 320000000, 41940480000000000],
  [195300000000000000, 320000000, 37497600000000000], [164800000000000000, 320000000, 31641600000000000],
  [148190000000000020, 320000000, 28452480000000005], [131220000000000000, 320000000, 25194240000000000],
  [104280000000000000, 320000000, 20021760000000000], [92719999999999990, 320000000, 17802239999999997],
  [48500000000000000, 320000000, 9312000000000000], [651900000000000050, 280000000, 109519200000000000],
  [612500000000000000, 280000000, 102900000000000000], [575000000000000100, 280000000, 96600000000000010],
  [471240000000000000, 300000000, 84823200000000000], [363220000000000000, 300000000, 65379600000000000],
  [331890000000000000, 300000000, 59740200000000000], [261819999999999980, 320000000, 50269439999999990],
  [380000000000000000, 320000000, 72960000000000000], [240000000000000000, 320000000, 46079999999999994],
  [200000000000000000, 320000000, 38400000000000000], [149500000000000000, 320000000, 28704000000000000],
  [120000000000000010, 320000000, 23040000000000003], [108000000000000000, 320000000, 20736000000000000],
  [90000000000000000, 320000000, 17280000000000000], [58750000000000000, 320000000, 11280000000000000],
  [42000000000000007, 320000000, 8064000000000001], [28500000000000000, 320000000, 5472000000000000],
  [1920000000000000000, 320000000, 368639999999999950], [1920000000000000000, 320000000, 368639999999999950],
  [1920000000000000000, 320000000, 368639999999999950], [1920000000000000000, 320000000, 368639999999999950],
  [1920000000000000000, 320000000, 368639999999999950], [920000000000000000, 320000000, 176640000000000000],
  [920000000000000000, 320000000, 176640000000000000], [920000000000000000, 320000000, 176640000000000000],
  [920000000000000000, 320000000, 176640000000000000], [920000000000000000, 320000000, 176640000000000000]]

example : tVw.all (fun row => match row with
  | [a, fy, v] => near v (S5ShearR.VwGeneric ar a fy (ar.lit (6 / 10)))
  | _ => false) = true := by decide +kernel

/-- test_s5_11_4_V_w_CHS, 87 rows: columns Ag, fy, Vyield -/
def tVwCHS : List (List ℚ) := table [6, 0, 11] [
  [24700, 350000000, 311220000000000000], [19500, 350000000, 245700000000000000], [15600, 350000000, 196560000000000000],
  [22200, 350000000, 279720000000000000], [17500, 350000000, 220500000000000050], [14000, 350000000, 176400000000000000],
  [19600, 350000000, 246960000000000000], [15500, 350000000, 195300000000000000], [12500, 350000000, 157500000000000000],
  [10000, 350000000, 126000000000000000], [17100, 350000000, 215460000000000000], [13500, 350000000, 170100000000000000],
  [10900, 350000000, 137340000000000000], [8740, 350000000, 110124000000000000], [12200, 350000000, 153720000000000000],
  [9860, 350000000, 124236000000000020], [7940, 350000000, 100043999999999980], [5990, 350000000, 75473999999999990],
  [10200, 350000000, 128520000000000020], [8270, 350000000, 104202000000000000], [6660, 350000000, 83916000000000000],
  [5030, 350000000, 63378000000000000], [4210, 350000000, 53046000000000000], [8110, 350000000, 102185999999999980],
  [6570, 350000000, 82782000000000000], [5310, 350000000, 66905999999999990], [4020, 350000000, 50652000000000000],
  [3360, 350000000, 42336000000000000], [5770, 350000000, 72702000000000000], [4670, 350000000, 58842000000000000],
  [3540, 350000000, 44604000000000000], [2960, 350000000, 37296000000000000], [4970, 350000000, 62621999999999990],
  [4030, 350000000, 50778000000000000], [3060, 350000000, 38556000000000000], [2570, 350000000, 32381999999999994],
  [2060, 350000000, 25956000000000003], [1780, 350000000, 22428000000000000], [1530, 350000000, 19278000000000000],
  [1500, 350000000, 18900000000000000], [1290, 350000000, 16253999999999997], [1250, 350000000, 15750000000000000],
  [1120, 350000000, 14111999999999997], [989, 350000000, 12461400000000000], [809, 350000000, 10193400000000000],
  [862, 350000000, 10861200000000000], [705, 350000000, 8883000000000000], [733, 350000000, 9235800000000000], [533, 350000000, 6715800000000001],
  [523, 350000000, 6589800000000000], [419, 350000000, 5279400000000000], [414, 350000000, 5216400000000000], [332, 350000000, 4183200000000000],
  [325, 350000000, 4095000000000000], [254, 350000000, 3200400000000000], [254, 350000000, 3200400000000000], [199, 350000000, 2507400000000000],
  [178, 350000000, 2242800000000000], [156, 350000000, 1965600000000000], [2710, 250000000, 24390000000000000], [2510, 250000000, 22590000000000000],
  [2280, 250000000, 20520000000000000], [2120, 250000000, 19080000000000000], [1850, 250000000, 16650000000000000],
  [1550, 250000000, 13950000000000000], [1520, 250000000, 13680000000000000], [1230, 250000000, 11070000000000000],
  [1540, 250000000, 13860000000000000], [1320, 250000000, 11880000000000000], [1070, 250000000, 9630000000000000],
  [1300, 250000000, 11700000000000000], [1010, 250000000, 9090000000000000], [820, 250000000, 7380000000000000], [931, 250000000, 8379000000000000],
  [789, 250000000, 7101000000000000], [641, 250000000, 5769000000000000], [557, 250000000, 5013000000000000], [453, 250000000, 4077000000000000],
  [483, 250000000, 4347000000000000], [394, 250000000, 3546000000000000], [373, 250000000, 3357000000000000], [307, 250000000, 2763000000000000],
  [288, 250000000, 2592000000000000], [238, 250000000, 2142000000000000], [198, 250000000, 1782000000000000], [182, 250000000, 1638000000000000],
  [153, 250000000, 1377000000000000]]

example : tVwCHS.all (fun row => match row with
  | [a, fy, v] => near v (S5ShearR.VwCHS ar a fy (ar.lit (6 / 10)) (ar.lit (6 / 10)))
  | _ => false) = true := by decide +kernel

/-- test_s5_11_5_α_v, 150 rows: columns d1, tw, fy_web, αv -/
def tAlphaV : List (List ℚ) := table [17, 19, 0, 16] [
  [111999999999999990, 160000000000000000, 300000000, 10000000000000000], [111999999999999990, 160000000000000000, 300000000, 10000000000000000],
  [111999999999999990, 160000000000000000, 300000000, 10000000000000000], [111999999999999990, 160000000000000000, 300000000, 10000000000000000],
  [111999999999999990, 160000000000000000, 300000000, 10000000000000000], [111999999999999990, 160000000000000000, 300000000, 10000000000000000],
  [111999999999999990, 160000000000000000, 300000000, 10000000000000000], [96000000000000000, 160000000000000000, 300000000, 10000000000000000],
  [96000000000000000, 160000000000000000, 300000000, 10000000000000000], [96000000000000000, 160000000000000000, 300000000, 10000000000000000],
  [96000000000000000, 160000000000000000, 300000000, 10000000000000000], [86000000000000010, 120000000000000000, 310000000, 10000000000000000],
  [86000000000000000, 120000000000000000, 310000000, 10000000000000000], [86000000000000000, 120000000000000000, 310000000, 10000000000000000],
  [86000000000000000, 120000000000000000, 310000000, 10000000000000000], [75999999999999990, 100000000000000000, 310000000, 9388124385667058],
  [76000000000000000, 100000000000000000, 310000000, 9388124385667052], [76000000000000000, 100000000000000000, 310000000, 9388124385667052],
  [76000000000000000, 100000000000000000, 310000000, 9388124385667052], [65999999999999990, 100000000000000000, 310000000, 10000000000000000],
  [65999999999999990, 100000000000000000, 310000000, 10000000000000000], [65999999999999990, 100000000000000000, 310000000, 10000000000000000],
  [65999999999999990, 100000000000000000, 310000000, 10000000000000000], [111999999999999990, 160000000000000000, 380000000, 9027926960257792],
  [111999999999999990, 160000000000000000, 380000000, 9027926960257792], [111999999999999990, 160000000000000000, 380000000, 9027926960257792],
  [111999999999999990, 160000000000000000, 380000000, 9027926960257792], [111999999999999990, 160000000000000000, 380000000, 9027926960257792],
  [111999999999999990, 160000000000000000, 380000000, 9027926960257792], [111999999999999990, 160000000000000000, 380000000, 9027926960257792],
  [96000000000000000, 160000000000000000, 380000000, 10000000000000000], [96000000000000000, 160000000000000000, 380000000, 10000000000000000],
  [96000000000000000, 160000000000000000, 380000000, 10000000000000000], [96000000000000000, 160000000000000000, 380000000, 10000000000000000],
  [86000000000000010, 120000000000000000, 400000000, 8182260681449430], [86000000000000000, 120000000000000000, 400000000, 8182260681449433],
  [86000000000000000, 120000000000000000, 400000000, 8182260681449433], [86000000000000000, 120000000000000000, 400000000, 8182260681449433],
  [75999999999999990, 100000000000000000, 400000000, 7275796398891968], [76000000000000000, 100000000000000000, 400000000, 7275796398891966],
  [76000000000000000, 100000000000000000, 400000000, 7275796398891966], [76000000000000000, 100000000000000000, 400000000, 7275796398891966],
  [65999999999999990, 100000000000000000, 400000000, 9647612488521584], [65999999999999990, 100000000000000000, 400000000, 9647612488521584],
  [65999999999999990, 100000000000000000, 400000000, 9647612488521584], [65999999999999990, 100000000000000000, 400000000, 9647612488521584],
  [39999999999999997, 400000000000000000, 280000000, 10000000000000000], [39999999999999997, 320000000000000000, 280000000, 10000000000000000],
  [39999999999999997, 320000000000000000, 280000000, 10000000000000000], [45000000000000000, 250000000000000000, 280000000, 10000000000000000],
  [45000000000000000, 200000000000000000, 300000000, 10000000000000000], [45000000000000000, 200000000000000000, 300000000, 10000000000000000],
  [45000000000000000, 200000000000000000, 300000000, 10000000000000000], [35000000000000000, 400000000000000000, 280000000, 10000000000000000],
  [35000000000000000, 280000000000000000, 280000000, 10000000000000000], [35000000000000000, 280000000000000000, 280000000, 10000000000000000],
  [35000000000000000, 250000000000000000, 280000000, 10000000000000000], [35000000000000003, 200000000000000000, 300000000, 10000000000000000],
  [35000000000000003, 200000000000000000, 300000000, 10000000000000000], [35000000000000000, 160000000000000000, 300000000, 10000000000000000],
  [27499999999999997, 280000000000000000, 280000000, 10000000000000000], [27499999999999997, 280000000000000000, 280000000, 10000000000000000],
  [27500000000000000, 250000000000000000, 280000000, 10000000000000000], [27500000000000000, 200000000000000000, 300000000, 10000000000000000],
  [39999999999999997, 400000000000000000, 360000000, 10000000000000000], [39999999999999997, 320000000000000000, 360000000, 10000000000000000],
  [39999999999999997, 320000000000000000, 360000000, 10000000000000000], [45000000000000000, 250000000000000000, 360000000, 10000000000000000],
  [45000000000000000, 200000000000000000, 380000000, 10000000000000000], [45000000000000000, 200000000000000000, 380000000, 10000000000000000],
  [45000000000000000, 200000000000000000, 380000000, 10000000000000000], [35000000000000000, 400000000000000000, 360000000, 10000000000000000],
  [35000000000000000, 280000000000000000, 360000000, 10000000000000000], [35000000000000000, 280000000000000000, 360000000, 10000000000000000],
  [35000000000000000, 250000000000000000, 360000000, 10000000000000000], [35000000000000003, 200000000000000000, 380000000, 10000000000000000],
  [35000000000000003, 200000000000000000, 380000000, 10000000000000000], [35000000000000000, 160000000000000000, 380000000, 10000000000000000],
  [27499999999999997, 280000000000000000, 360000000, 10000000000000000], [27499999999999997, 280000000000000000, 360000000, 10000000000000000],
  [27500000000000000, 250000000000000000, 360000000, 10000000000000000], [27500000000000000, 200000000000000000, 380000000, 10000000000000000],
  [57280000000000000, 119000000000000000, 300000000, 10000000000000000], [57240000000000000, 112000000000000000, 300000000, 10000000000000000],
  [57240000000000000, 106000000000000000, 320000000, 10000000000000000], [50180000000000000, 101999999999999990, 320000000, 10000000000000000],
  [50160000000000000, 96000000000000000, 320000000, 10000000000000000], [42800000000000005, 99000000000000000, 320000000, 10000000000000000],
  [42800000000000000, 91000000000000000, 320000000, 10000000000000000], [42860000000000004, 85000000000000000, 320000000, 10000000000000000],
  [38040000000000000, 78000000000000000, 320000000, 10000000000000000], [38120000000000004, 76000000000000000, 320000000, 10000000000000000],
  [33299999999999996, 80000000000000000, 320000000, 10000000000000000], [33299999999999996, 73000000000000000, 320000000, 10000000000000000],
  [33260000000000000, 69000000000000010, 320000000, 10000000000000000], [28340000000000000, 67000000000000000, 320000000, 10000000000000000],
  [28360000000000000, 60999999999999995, 320000000, 10000000000000000], [28200000000000000, 55000000000000000, 320000000, 10000000000000000],
  [23420000000000002, 64000000000000000, 320000000, 10000000000000000], [23480000000000000, 60999999999999995, 320000000, 10000000000000000],
  [23199999999999998, 50000000000000000, 320000000, 10000000000000000], [18780000000000000, 63000000000000000, 320000000, 10000000000000000],
  [18740000000000000, 58000000000000000, 320000000, 10000000000000000], [18800000000000000, 50000000000000000, 320000000, 10000000000000000],
  [18400000000000000, 45000000000000000, 320000000, 10000000000000000], [15900000000000000, 60000000000000000, 320000000, 10000000000000000],
  [15899999999999997, 50000000000000000, 320000000, 10000000000000000], [15899999999999997, 45000000000000000, 320000000, 10000000000000000],
  [13600000000000000, 60000000000000000, 320000000, 10000000000000000], [13599999999999998, 50000000000000000, 320000000, 10000000000000000],
  [27720000000000000, 99000000000000000, 320000000, 10000000000000000], [27700000000000000, 157000000000000000, 300000000, 10000000000000000],
  [27760000000000000, 138000000000000020, 300000000, 10000000000000000], [27760000000000000, 119000000000000000, 300000000, 10000000000000000],
  [22540000000000002, 105000000000000000, 320000000, 10000000000000000], [22560000000000000, 86000000000000000, 320000000, 10000000000000000],
  [18159999999999998, 93000000000000010, 320000000, 10000000000000000], [18100000000000000, 80000000000000000, 320000000, 10000000000000000],
  [18100000000000002, 73000000000000000, 320000000, 10000000000000000], [13900000000000000, 81000000000000000, 320000000, 10000000000000000],
  [13920000000000000, 66000000000000000, 320000000, 10000000000000000], [13840000000000000, 60999999999999995, 320000000, 10000000000000000],
  [8300000000000000, 50000000000000000, 320000000, 10000000000000000], [27660000000000000, 205000000000000000, 280000000, 10000000000000000],
  [18100000000000000, 250000000000000000, 280000000, 10000000000000000], [18000000000000000, 250000000000000000, 280000000, 10000000000000000],
  [27720000000000000, 153000000000000010, 300000000, 10000000000000000], [22540000000000000, 143000000000000000, 300000000, 10000000000000000],
  [27680000000000000, 111000000000000000, 300000000, 10000000000000000], [22580000000000000, 106000000000000000, 320000000, 10000000000000000],
  [34500000000000000, 100000000000000000, 320000000, 10000000000000000], [26800000000000000, 80000000000000000, 320000000, 10000000000000000],
  [22000000000000000, 80000000000000000, 320000000, 10000000000000000], [20600000000000002, 65000000000000000, 320000000, 10000000000000000],
  [17600000000000002, 60000000000000000, 320000000, 10000000000000000], [15800000000000000, 60000000000000000, 320000000, 10000000000000000],
  [13100000000000000, 60000000000000000, 320000000, 10000000000000000], [11000000000000000, 47000000000000000, 320000000, 10000000000000000],
  [8660000000000001, 42000000000000010, 320000000, 10000000000000000], [6280000000000000, 38000000000000000, 320000000, 10000000000000000],
  [96000000000000000, 100000000000000000, 320000000, 5700005425347222], [96000000000000000, 100000000000000000, 320000000, 5700005425347222],
  [96000000000000000, 100000000000000000, 320000000, 5700005425347222], [96000000000000000, 100000000000000000, 320000000, 5700005425347222],
  [96000000000000000, 100000000000000000, 320000000, 5700005425347222], [46000000000000000, 100000000000000000, 320000000, 10000000000000000],
  [46000000000000000, 100000000000000000, 320000000, 10000000000000000], [46000000000000000, 100000000000000000, 320000000, 10000000000000000],
  [46000000000000000, 100000000000000000, 320000000, 10000000000000000], [46000000000000000, 100000000000000000, 320000000, 10000000000000000]]

example : tAlphaV.all (fun row => match row with
  | [d1, tw, fy, a] => passes (S5ShearR.alphaV ar d1 tw fy 82 250000000) (near a ·)
  | _ => false) = true := by decide +kernel

/-- test_s5_11_3_α_vma, 21 rows: columns fvm, fva, αvma -/
def tAlphaVma : List (List ℚ) := table [0, 0, 17] [
  [0, 250000000, 100000000000000000], [50000000, 250000000, 100000000000000000], [100000000, 250000000, 100000000000000000],
  [150000000, 250000000, 100000000000000000], [200000000, 250000000, 100000000000000000], [250000000, 250000000, 100000000000000000],
  [300000000, 250000000, 95238095238095230], [350000000, 250000000, 86956521739130440], [400000000, 250000000, 80000000000000000],
  [450000000, 250000000, 74074074074074070], [500000000, 250000000, 68965517241379310], [550000000, 250000000, 64516129032258060],
  [600000000, 250000000, 60606060606060610], [650000000, 250000000, 57142857142857140], [700000000, 250000000, 54054054054054060],
  [750000000, 250000000, 51282051282051290], [800000000, 250000000, 48780487804878040], [850000000, 250000000, 46511627906976744],
  [900000000, 250000000, 44444444444444440], [950000000, 250000000, 42553191489361700], [1000000000, 250000000, 40816326530612240]]

example : tAlphaVma.all (fun row => match row with
  | [m, v, a] => passes (S5ShearR.alphaVma ar m v) (near a ·)
  | _ => false) = true := by decide +kernel

/-- test_s5_11_4_V_w_Weld, 82 rows: columns vw, Qflange, Ix, Vweld -/
def tWeld : List (List ℚ) := table [0, 19, 6, 10] [
  [6880000, 116000000000000000, 15300, 90744827586206900], [6880000, 104039999999999980, 13900, 91918492887351030],
  [6880000, 92160000000000000, 12500, 93315972222222220], [6880000, 73728000000000000, 10400, 97048611111111120],
  [6880000, 64288000000000000, 9250, 98992035838725730], [6880000, 50093750000000000, 7610, 104517629444791000],
  [6880000, 39359375000000000, 6380, 111522096069868990], [6880000, 63488000000000000, 7480, 81058467741935480],
  [6880000, 55328000000000010, 6650, 82692307692307680], [6880000, 43093750000000000, 5430, 86690993473531550],
  [6880000, 29400000000000000, 4060, 95009523809523820], [5160000, 57088000000000000, 5730, 51791619955156950],
  [5160000, 49728000000000010, 5050, 52401061776061770], [5160000, 38718749999999994, 4060, 54107118644067810],
  [5160000, 26400000000000000, 2960, 57854545454545460], [4300000, 33095999999999993, 2970, 38587744742567083],
  [4300000, 26984375000000003, 2480, 39519166184134334], [4300000, 21450000000000000, 2040, 40895104895104890],
  [4300000, 15520000000000000, 1570, 43498711340206180], [4300000, 26488000000000000, 2060, 33441558441558440],
  [4300000, 21406249999999997, 1710, 34349781021897816], [4300000, 17000000000000000, 1400, 35411764705882357],
  [4300000, 13520000000000000, 1150, 36575443786982250], [7680000, 116000000000000000, 15300, 101296551724137940],
  [7680000, 104039999999999980, 13900, 102606689734717440], [7680000, 92160000000000000, 12500, 104166666666666660],
  [7680000, 73728000000000000, 10400, 108333333333333340], [7680000, 64288000000000000, 9250, 110502737680438030],
  [7680000, 50093750000000000, 7610, 116670842170929500], [7680000, 39359375000000000, 6380, 124489781659388640],
  [7680000, 63488000000000000, 7480, 90483870967741930], [7680000, 55328000000000010, 6650, 92307692307692300],
  [7680000, 43093750000000000, 5430, 96771341551849170], [7680000, 29400000000000000, 4060, 106057142857142870],
  [5760000, 57088000000000000, 5730, 57813901345291470], [5760000, 49728000000000010, 5050, 58494208494208480],
  [5760000, 38718749999999994, 4060, 60398644067796630], [5760000, 26400000000000000, 2960, 64581818181818170],
  [4800000, 33095999999999993, 2970, 43074691805656280], [4800000, 26984375000000003, 2480, 44114418066010420],
  [4800000, 21450000000000000, 2040, 45650349650349645], [4800000, 15520000000000000, 1570, 48556701030927830],
  [4800000, 26488000000000000, 2060, 37330111748716403], [4800000, 21406249999999997, 1710, 38343941605839420],
  [4800000, 17000000000000000, 1400, 39529411764705884], [4800000, 13520000000000000, 1150, 40828402366863910],
  [6880000, 44000000000000000, 2150, 33618181818181816], [6880000, 44000000000000000, 2110, 32992727272727270],
  [6880000, 39239999999999995, 1890, 33137614678899082], [6880000, 38560000000000000, 2050, 36576763485477185],
  [6880000, 33460000000000000, 1750, 35983263598326360], [6880000, 29687500000000000, 1560, 36152589473684207],
  [6880000, 23500000000000000, 1260, 36888510638297875], [6880000, 31200000000000004, 1360, 29989743589743590],
  [6880000, 31200000000000004, 1320, 29107692307692305], [6880000, 27792000000000000, 1180, 29211283822682790],
  [6880000, 24448000000000000, 1030, 28985602094240840], [6880000, 18750000000000004, 776, 28474026666666660],
  [6880000, 14800000000000000, 620, 28821621621621624], [6880000, 11712000000000000, 486, 28549180327868850],
  [6880000, 22050000000000000, 747, 23307755102040820], [6880000, 19592999999999998, 661, 23210738529066510],
  [6880000, 17192000000000004, 573, 22930665425779430], [6880000, 14846999999999998, 486, 22520913315821380],
  [7680000, 44000000000000000, 2150, 37527272727272725], [7680000, 44000000000000000, 2110, 36829090909090904],
  [7680000, 39239999999999995, 1890, 36990825688073398], [7680000, 38560000000000000, 2050, 40829875518672206],
  [7680000, 33460000000000000, 1750, 40167364016736400], [7680000, 29687500000000000, 1560, 40356378947368420],
  [7680000, 23500000000000000, 1260, 41177872340425537], [7680000, 31200000000000004, 1360, 33476923076923075],
  [7680000, 31200000000000004, 1320, 32492307692307690], [7680000, 27792000000000000, 1180, 32607944732297063],
  [7680000, 24448000000000000, 1030, 32356020942408377], [7680000, 18750000000000004, 776, 31784959999999995],
  [7680000, 14800000000000000, 620, 32172972972972975], [7680000, 11712000000000000, 486, 31868852459016390],
  [7680000, 22050000000000000, 747, 26017959183673470], [7680000, 19592999999999998, 661, 25909661613841685],
  [7680000, 17192000000000004, 573, 25597021870637503], [7680000, 14846999999999998, 486, 25139624166498287]]

example : tWeld.all (fun row => match row with
  | [vw, q, ix, v] => passes (S5ShearR.VwWeld ar [vw] q ix) (near v ·)
  | _ => false) = true := by decide +kernel

/-- test_s5_11_4_V_w_Interface, 140 rows: columns tw, fy_web, fy_flange, Qflange, Ix, Vinterface -/
def tInterface : List (List ℚ) := table [19, 0, 0, 21, 9, 11] [
  [160000000000000000, 300000000, 280000000, 11600000000000000000, 15300000, 354537931034482800],
  [160000000000000000, 300000000, 280000000, 10403999999999998000, 13900000, 359123414071510970],
  [160000000000000000, 300000000, 280000000, 9216000000000000000, 12500000, 364583333333333300],
  [160000000000000000, 300000000, 280000000, 7372800000000000000, 10400000, 379166666666666650],
  [160000000000000000, 300000000, 280000000, 6428800000000000000, 9250000, 386759581881533100],
  [160000000000000000, 300000000, 280000000, 5009375000000000000, 7610000, 408347947598253300],
  [160000000000000000, 300000000, 280000000, 3935937500000000000, 6380000, 435714235807860300],
  [160000000000000000, 300000000, 280000000, 6348800000000000000, 7480000, 316693548387096730],
  [160000000000000000, 300000000, 280000000, 5532800000000001000, 6650000, 323076923076923050],
  [160000000000000000, 300000000, 280000000, 4309375000000000000, 5430000, 338699695431472100],
  [160000000000000000, 300000000, 300000000, 2940000000000000000, 4060000, 397714285714285770],
  [120000000000000000, 310000000, 280000000, 5708800000000000000, 5730000, 202348654708520180],
  [120000000000000000, 310000000, 280000000, 4972800000000001000, 5050000, 204729729729729660],
  [120000000000000000, 310000000, 280000000, 3871874999999999400, 4060000, 211395254237288140],
  [120000000000000000, 310000000, 300000000, 2640000000000000000, 2960000, 242181818181818160],
  [100000000000000000, 310000000, 280000000, 3309599999999999300, 2970000, 150761421319797000],
  [100000000000000000, 310000000, 280000000, 2698437500000000300, 2480000, 154400463231036440],
  [100000000000000000, 310000000, 300000000, 2145000000000000000, 2040000, 171188811188811200],
  [100000000000000000, 310000000, 300000000, 1552000000000000000, 1570000, 182087628865979380],
  [100000000000000000, 310000000, 280000000, 2648800000000000000, 2060000, 130655391120507400],
  [100000000000000000, 310000000, 280000000, 2140624999999999700, 1710000, 134203795620437970],
  [100000000000000000, 310000000, 300000000, 1700000000000000000, 1400000, 148235294117647060],
  [100000000000000000, 310000000, 300000000, 1352000000000000000, 1150000, 153106508875739670],
  [160000000000000000, 380000000, 360000000, 11600000000000000000, 15300000, 455834482758620700],
  [160000000000000000, 380000000, 360000000, 10403999999999998000, 13900000, 461730103806228400],
  [160000000000000000, 380000000, 360000000, 9216000000000000000, 12500000, 468750000000000000],
  [160000000000000000, 380000000, 360000000, 7372800000000000000, 10400000, 487500000000000000],
  [160000000000000000, 380000000, 360000000, 6428800000000000000, 9250000, 497262319561971200],
  [160000000000000000, 380000000, 360000000, 5009375000000000000, 7610000, 525018789769182800],
  [160000000000000000, 380000000, 360000000, 3935937500000000000, 6380000, 560204017467248900],
  [160000000000000000, 380000000, 360000000, 6348800000000000000, 7480000, 407177419354838700],
  [160000000000000000, 380000000, 360000000, 5532800000000001000, 6650000, 415384615384615260],
  [160000000000000000, 380000000, 360000000, 4309375000000000000, 5430000, 435471036983321200],
  [160000000000000000, 380000000, 380000000, 2940000000000000000, 4060000, 503771428571428600],
  [120000000000000000, 400000000, 360000000, 5708800000000000000, 5730000, 260162556053811640],
  [120000000000000000, 400000000, 360000000, 4972800000000001000, 5050000, 263223938223938200],
  [120000000000000000, 400000000, 360000000, 3871874999999999400, 4060000, 271793898305084800],
  [120000000000000000, 400000000, 380000000, 2640000000000000000, 2960000, 306763636363636330],
  [100000000000000000, 400000000, 360000000, 3309599999999999300, 2970000, 193836113125453260],
  [100000000000000000, 400000000, 360000000, 2698437500000000300, 2480000, 198514881297046880],
  [100000000000000000, 400000000, 380000000, 2145000000000000000, 2040000, 216839160839160860],
  [100000000000000000, 400000000, 380000000, 1552000000000000000, 1570000, 230644329896907230],
  [100000000000000000, 400000000, 360000000, 2648800000000000000, 2060000, 167985502869223800],
  [100000000000000000, 400000000, 360000000, 2140624999999999700, 1710000, 172547737226277380],
  [100000000000000000, 400000000, 380000000, 1700000000000000000, 1400000, 187764705882352960],
  [100000000000000000, 400000000, 380000000, 1352000000000000000, 1150000, 193934911242603560],
  [400000000000000000, 280000000, 280000000, 4400000000000000000, 2150000, 328363636363636330],
  [320000000000000000, 280000000, 280000000, 4400000000000000000, 2110000, 257803636363636330],
  [320000000000000000, 280000000, 280000000, 3923999999999999500, 1890000, 258935779816513800],
  [250000000000000000, 280000000, 280000000, 3856000000000000000, 2050000, 223288381742738600],
  [200000000000000000, 300000000, 280000000, 3346000000000000000, 1750000, 175732217573221750],
  [200000000000000000, 300000000, 280000000, 2968750000000000000, 1560000, 176559157894736830],
  [200000000000000000, 300000000, 300000000, 2350000000000000000, 1260000, 193021276595744680],
  [400000000000000000, 280000000, 280000000, 3120000000000000400, 1360000, 292923076923076900],
  [280000000000000000, 280000000, 280000000, 3120000000000000400, 1320000, 199015384615384580],
  [280000000000000000, 280000000, 280000000, 2779200000000000000, 1180000, 199723661485319540],
  [250000000000000000, 280000000, 280000000, 2444800000000000000, 1030000, 176946989528795820],
  [200000000000000000, 300000000, 280000000, 1875000000000000400, 776000, 139059199999999980],
  [200000000000000000, 300000000, 300000000, 1480000000000000000, 620000, 150810810810810820],
  [160000000000000000, 300000000, 300000000, 1171200000000000000, 486000, 119508196721311470],
  [280000000000000000, 280000000, 280000000, 2205000000000000000, 747000, 159360000000000020],
  [280000000000000000, 280000000, 280000000, 1959299999999999800, 661000, 158696677384780300],
  [250000000000000000, 280000000, 280000000, 1719200000000000400, 573000, 139983713355048860],
  [200000000000000000, 300000000, 280000000, 1484699999999999800, 486000, 109985855728430000],
  [400000000000000000, 360000000, 360000000, 4400000000000000000, 2150000, 422181818181818200],
  [320000000000000000, 360000000, 360000000, 4400000000000000000, 2110000, 331461818181818160],
  [320000000000000000, 360000000, 360000000, 3923999999999999500, 1890000, 332917431192660600],
  [250000000000000000, 360000000, 360000000, 3856000000000000000, 2050000, 287085062240663960],
  [200000000000000000, 380000000, 360000000, 3346000000000000000, 1750000, 225941422594142240],
  [200000000000000000, 380000000, 360000000, 2968750000000000000, 1560000, 227004631578947370],
  [200000000000000000, 380000000, 380000000, 2350000000000000000, 1260000, 244493617021276600],
  [400000000000000000, 360000000, 360000000, 3120000000000000400, 1360000, 376615384615384600],
  [280000000000000000, 360000000, 360000000, 3120000000000000400, 1320000, 255876923076923050],
  [280000000000000000, 360000000, 360000000, 2779200000000000000, 1180000, 256787564766839400],
  [250000000000000000, 360000000, 360000000, 2444800000000000000, 1030000, 227503272251308940],
  [200000000000000000, 380000000, 360000000, 1875000000000000400, 776000, 178790399999999980],
  [200000000000000000, 380000000, 380000000, 1480000000000000000, 620000, 191027027027027000],
  [160000000000000000, 380000000, 380000000, 1171200000000000000, 486000, 151377049180327840],
  [280000000000000000, 360000000, 360000000, 2205000000000000000, 747000, 204891428571428610],
  [280000000000000000, 360000000, 360000000, 1959299999999999800, 661000, 204038585209003250],
  [250000000000000000, 360000000, 360000000, 1719200000000000400, 573000, 179979060027919940],
  [200000000000000000, 380000000, 360000000, 1484699999999999800, 486000, 141410385936552840],
  [119000000000000000, 300000000, 280000000, 1329464080000000400, 986000, 148271113876201860],
  [112000000000000000, 300000000, 280000000, 1163006340000000000, 875000, 141564146589261080],
  [106000000000000000, 320000000, 300000000, 990723839999999900, 761000, 146558298223650300],
  [101999999999999990, 320000000, 300000000, 843465480000000100, 554000, 120591064378829100],
  [96000000000000000, 320000000, 300000000, 710115120000000000, 477000, 116073574098802430],
  [99000000000000000, 320000000, 300000000, 678432000000000100, 372000, 97711192868260930],
  [91000000000000000, 320000000, 300000000, 609543750000000000, 335000, 90023070534313590],
  [85000000000000000, 320000000, 300000000, 532428450000000000, 296000, 85059316420826130],
  [78000000000000000, 320000000, 300000000, 447933440000000050, 216000, 67702915861785180],
  [76000000000000000, 320000000, 320000000, 380376210000000000, 188000, 72120598709367230],
  [80000000000000000, 320000000, 300000000, 386827999999999900, 161000, 59933613905922020],
  [73000000000000000, 320000000, 300000000, 338729624999999960, 142000, 55084641622355900],
  [69000000000000010, 320000000, 320000000, 283886505000000000, 121000, 56466509389025040],
  [67000000000000000, 320000000, 300000000, 289118880000000100, 100000, 41712945207867420],
  [60999999999999995, 320000000, 320000000, 247232700000000000, 86400, 40929731382620500],
  [55000000000000000, 320000000, 320000000, 172839999999999980, 63200, 38613283962045830],
  [64000000000000000, 320000000, 320000000, 195026070000000020, 55700, 35094877315632720],
  [60999999999999995, 320000000, 320000000, 152806520000000000, 44500, 34107445153518310],
  [50000000000000000, 320000000, 320000000, 119040000000000000, 35400, 28548387096774194],
  [63000000000000000, 320000000, 320000000, 126967679999999990, 29100, 27723086694188630],
  [58000000000000000, 320000000, 320000000, 101250240000000000, 23600, 25956442177322245],
  [50000000000000000, 320000000, 320000000, 90772500000000010, 21000, 22209369577790628],
  [45000000000000000, 320000000, 320000000, 66181500000000000, 15800, 20626912354661047],
  [60000000000000000, 320000000, 320000000, 76049999999999990, 15300, 23176331360946747],
  [50000000000000000, 320000000, 320000000, 60119999999999990, 12100, 19321357285429144],
  [45000000000000000, 320000000, 320000000, 52289999999999996, 10600, 17514629948364890],
  [60000000000000000, 320000000, 320000000, 51834374999999990, 9050, 20113293543136193],
  [50000000000000000, 320000000, 320000000, 37537500000000000, 6660, 17032567432567434],
  [99000000000000000, 320000000, 300000000, 687171099999999900, 223000, 57829265520625070],
  [157000000000000000, 300000000, 280000000, 1174025000000000000, 388000, 87169251080683970],
  [138000000000000020, 300000000, 280000000, 1003448145000000000, 329000, 76013255273893590],
  [119000000000000000, 300000000, 280000000, 850514334999999900, 277000, 65111001333093360],
  [105000000000000000, 320000000, 280000000, 537434880000000000, 143000, 46936291146566445],
  [86000000000000000, 320000000, 300000000, 432455320000000000, 114000, 40806990188026824],
  [93000000000000010, 320000000, 300000000, 284986899999999970, 61300, 36007339284718010],
  [80000000000000000, 320000000, 300000000, 246712500000000000, 52800, 30818057455540360],
  [73000000000000000, 320000000, 320000000, 214368000000000020, 45900, 30010747872816835],
  [81000000000000000, 320000000, 300000000, 133267750000000000, 22200, 24287646486115362],
  [66000000000000000, 320000000, 320000000, 106858260000000000, 17600, 20871311211692946],
  [60999999999999995, 320000000, 320000000, 75039360000000000, 12600, 19665839367499933],
  [50000000000000000, 320000000, 320000000, 31185000000000000, 3180, 9789321789321790],
  [205000000000000000, 280000000, 280000000, 972349380000000000, 330000, 116883912652877930],
  [250000000000000000, 280000000, 280000000, 742944000000000000, 173000, 97800103372528740],
  [250000000000000000, 280000000, 280000000, 563750000000000100, 129000, 96106430155210620],
  [153000000000000010, 300000000, 300000000, 698436200000000000, 236000, 93057032267227830],
  [143000000000000000, 300000000, 300000000, 445602300000000000, 123000, 71050351400789460],
  [111000000000000000, 300000000, 300000000, 488940570000000000, 165000, 67425372371942880],
  [106000000000000000, 320000000, 320000000, 320747520000000000, 88100, 55901015228426400],
  [100000000000000000, 320000000, 280000000, 317187500000000030, 152000, 80507586206896540],
  [80000000000000000, 320000000, 300000000, 204479999999999970, 72400, 50985915492957755],
  [80000000000000000, 320000000, 300000000, 158624999999999970, 45100, 40941843971631216],
  [65000000000000000, 320000000, 300000000, 98100000000000000, 26800, 31963302752293580],
  [60000000000000000, 320000000, 300000000, 84600000000000000, 19100, 24382978723404257],
  [60000000000000000, 320000000, 320000000, 69712499999999980, 14100, 23300268961807434],
  [60000000000000000, 320000000, 320000000, 50053124999999990, 8340, 19194965349316355],
  [47000000000000000, 320000000, 320000000, 28640624999999997, 3970, 12508553846153847],
  [42000000000000010, 320000000, 320000000, 15627750000000003, 1740, 8978490185727311],
  [38000000000000000, 320000000, 320000000, 8405800000000000, 683, 5928249541982916]]

example : tInterface.all (fun row => match row with
  | [tw, fw, ff, q, ix, v] => passes (S5ShearR.VwInterface ar tw (min fw ff) q ix (ar.lit (6 / 10))) (near v ·)
  | _ => false) = true := by decide +kernel

/-- test_s5_11_4_V_w_Interface_2, 10 rows: columns tw, fy_web, fy_flange, Qflange, Ix, Vinterface -/
def tInterface2 : List (List ℚ) := table [2, 0, 0, 18, 19, 10] [
  [1, 320000000, 280000000, 3263400000000000, 46731360000000040, 48114656370656410],
  [1, 320000000, 280000000, 6526800000000000, 78717120000000030, 40523613899613917],
  [1, 320000000, 280000000, 9800000000000000, 110798933333333400, 37988205714285740],
  [1, 320000000, 280000000, 13063400000000000, 142784693333333400, 36725245311327850],
  [1, 320000000, 280000000, 16326800000000002, 174770453333333300, 35967165837763664],
  [1, 320000000, 280000000, 1598400000000000, 9299026666666667, 19547503503503504],
  [1, 320000000, 280000000, 3196800000000000, 16975786666666670, 17842418418418420],
  [1, 320000000, 280000000, 4800000000000000, 24675599999999993, 17272919999999998],
  [1, 320000000, 280000000, 6398399999999999, 32352360000000003, 16989236309077272],
  [1, 320000000, 280000000, 7968000000000000, 39890799999999990, 16821421686746986]]

example : tInterface2.all (fun row => match row with
  | [tw, fw, ff, q, ix, v] => passes (S5ShearR.VwInterface ar (ar.mul tw 2) (min ff fw) q ix (ar.lit (6 / 10))) (near v ·)
  | _ => false) = true := by decide +kernel

/-- test_AS4100_s7_Nt, 130 rows: columns Ag, An, fy, fu, kt, αu, Nty, Ntu, Nt -/
def tNtIs : List (List ℚ) := table [5, 19, 0, 0, 2, 2, 10, 10, 10] [
  [5790, 550050000000000000, 280000000, 430000000, 100, 85, 162120000000000000, 201043275000000000, 162120000000000000],
  [5390, 539000000000000000, 280000000, 430000000, 85, 85, 150920000000000020, 167453825000000000, 150920000000000020],
  [4990, 479039999999999950, 280000000, 430000000, 90, 85, 139720000000000000, 157580207999999970, 139720000000000000],
  [4350, 395849999999999950, 280000000, 430000000, 100, 85, 121800000000000000, 144683174999999980, 121800000000000000],
  [4030, 386880000000000000, 280000000, 430000000, 100, 85, 112840000000000000, 141404640000000000, 112840000000000000],
  [3540, 322140000000000000, 280000000, 430000000, 75, 85, 99120000000000000, 88306627499999980, 88306627499999980],
  [3170, 310660000000000000, 280000000, 430000000, 85, 85, 88760000000000000, 96514295499999990, 88760000000000000],
  [4100, 385400000000000000, 280000000, 430000000, 75, 85, 114800000000000000, 105647774999999980, 105647774999999980],
  [3780, 347760000000000000, 280000000, 430000000, 100, 85, 105840000000000000, 127106280000000000, 105840000000000000],
  [3290, 296100000000000000, 280000000, 430000000, 75, 85, 92120000000000000, 81168412500000000, 81168412500000000],
  [2740, 249340000000000000, 300000000, 430000000, 90, 85, 82200000000000000, 82020393000000020, 82020393000000020],
  [3590, 341049999999999960, 280000000, 430000000, 85, 85, 100520000000000000, 105955708749999980, 100520000000000000],
  [3270, 320460000000000000, 280000000, 430000000, 75, 85, 91560000000000000, 87846097500000000, 87846097500000000],
  [2780, 266879999999999960, 280000000, 430000000, 75, 85, 77839999999999990, 73158479999999990, 73158479999999990],
  [2230, 205160000000000000, 300000000, 430000000, 100, 85, 66900000000000000, 74985979999999990, 66900000000000000],
  [2440, 226920000000000000, 280000000, 430000000, 75, 85, 68320000000000000, 62204444999999990, 62204444999999990],
  [2140, 211860000000000000, 280000000, 430000000, 85, 85, 59920000000000000, 65819605499999990, 59920000000000000],
  [1860, 180420000000000000, 300000000, 430000000, 100, 85, 55800000000000000, 65943510000000000, 55800000000000000],
  [1560, 145079999999999980, 300000000, 430000000, 85, 85, 46800000000000000, 45072728999999990, 45072728999999990],
  [2200, 220000000000000000, 280000000, 430000000, 100, 85, 61600000000000000, 80409999999999990, 61600000000000000],
  [1910, 175720000000000000, 280000000, 430000000, 85, 85, 53480000000000000, 54591811000000000, 53480000000000000],
  [1660, 152720000000000000, 300000000, 430000000, 75, 85, 49800000000000000, 41864370000000000, 41864370000000000],
  [1460, 146000000000000000, 300000000, 430000000, 90, 85, 43800000000000000, 48026700000000000, 43800000000000000],
  [5790, 521100000000000040, 360000000, 480000000, 90, 85, 208440000000000000, 191347920000000000, 191347920000000000],
  [5390, 533610000000000060, 360000000, 480000000, 100, 85, 194040000000000000, 217712880000000040, 194040000000000000],
  [4990, 474049999999999960, 360000000, 480000000, 75, 85, 179640000000000000, 145059299999999980, 145059299999999980],
  [4350, 435000000000000000, 360000000, 480000000, 100, 85, 156599999999999980, 177479999999999960, 156599999999999980],
  [4030, 378820000000000000, 360000000, 480000000, 90, 85, 145080000000000000, 139102703999999990, 139102703999999990],
  [3540, 343380000000000000, 360000000, 480000000, 90, 85, 127440000000000000, 126089136000000010, 126089136000000010],
  [3170, 291640000000000000, 360000000, 480000000, 75, 85, 114120000000000000, 89241840000000000, 89241840000000000],
  [4100, 405900000000000000, 360000000, 480000000, 90, 85, 147600000000000000, 149046480000000000, 147600000000000000],
  [3780, 370440000000000000, 360000000, 480000000, 75, 85, 136080000000000000, 113354640000000000, 113354640000000000],
  [3290, 315840000000000000, 360000000, 480000000, 85, 85, 118440000000000000, 109533312000000000, 109533312000000000],
  [2740, 249340000000000000, 380000000, 480000000, 100, 85, 104120000000000000, 101730720000000000, 101730720000000000],
  [3590, 351820000000000000, 360000000, 480000000, 100, 85, 129240000000000000, 143542559999999980, 129240000000000000],
  [3270, 294300000000000000, 360000000, 480000000, 75, 85, 117720000000000000, 90055800000000000, 90055800000000000],
  [2780, 250200000000000000, 360000000, 480000000, 90, 85, 100080000000000000, 91873440000000020, 91873440000000020],
  [2230, 205160000000000000, 380000000, 480000000, 100, 85, 84740000000000000, 83705279999999990, 83705279999999990],
  [2440, 239120000000000030, 360000000, 480000000, 75, 85, 87840000000000000, 73170720000000010, 73170720000000010],
  [2140, 192600000000000000, 360000000, 480000000, 90, 85, 77040000000000000, 70722720000000000, 70722720000000000],
  [1860, 180420000000000000, 380000000, 480000000, 90, 85, 70679999999999990, 66250223999999990, 66250223999999990],
  [1560, 143520000000000000, 380000000, 480000000, 100, 85, 59280000000000000, 58556160000000000, 58556160000000000],
  [2200, 197999999999999980, 360000000, 480000000, 90, 85, 79200000000000000, 72705599999999990, 72705599999999990],
  [1910, 177629999999999980, 360000000, 480000000, 100, 85, 68760000000000000, 72473039999999980, 68760000000000000],
  [1660, 166000000000000000, 380000000, 480000000, 85, 85, 63080000000000000, 57568799999999990, 57568799999999990],
  [1460, 140159999999999990, 380000000, 480000000, 75, 85, 55480000000000000, 42888960000000000, 42888960000000000],
  [5600, 532000000000000000, 280000000, 430000000, 90, 85, 156800000000000000, 175001400000000000, 156800000000000000],
  [5280, 485760000000000000, 280000000, 430000000, 90, 85, 147840000000000000, 159790752000000010, 147840000000000000],
  [4880, 478240000000000050, 280000000, 430000000, 90, 85, 136640000000000000, 157317048000000030, 136640000000000000],
  [4320, 419040000000000040, 280000000, 430000000, 90, 85, 120960000000000000, 137843208000000030, 120960000000000000],
  [3700, 340400000000000000, 280000000, 430000000, 85, 85, 103600000000000000, 105753770000000000, 103600000000000000],
  [3400, 333200000000000000, 280000000, 430000000, 85, 85, 95200000000000000, 103516910000000000, 95200000000000000],
  [2900, 272600000000000000, 300000000, 430000000, 85, 85, 87000000000000000, 84690004999999980, 84690004999999980],
  [4600, 414000000000000000, 280000000, 430000000, 85, 85, 128800000000000000, 128619449999999980, 128619449999999980],
  [4180, 409639999999999930, 280000000, 430000000, 75, 85, 117040000000000000, 112292564999999960, 112292564999999960],
  [3860, 374420000000000000, 280000000, 430000000, 75, 85, 108080000000000000, 102637882500000000, 102637882500000000],
  [3440, 337120000000000000, 280000000, 430000000, 100, 85, 96320000000000000, 123217360000000000, 96320000000000000],
  [2700, 259200000000000000, 280000000, 430000000, 75, 85, 75600000000000000, 71053199999999990, 71053199999999990],
  [2300, 230000000000000000, 300000000, 430000000, 75, 85, 69000000000000000, 63048749999999990, 63048749999999990],
  [1840, 174800000000000000, 300000000, 430000000, 75, 85, 55200000000000000, 47917049999999990, 47917049999999990],
  [3570, 357000000000000000, 280000000, 430000000, 100, 85, 99960000000000000, 130483500000000000, 99960000000000000],
  [3290, 329000000000000000, 280000000, 430000000, 90, 85, 92120000000000000, 108224550000000000, 92120000000000000],
  [2930, 275419999999999970, 280000000, 430000000, 90, 85, 82040000000000000, 90599409000000000, 82040000000000000],
  [2510, 233430000000000000, 280000000, 430000000, 85, 85, 70280000000000000, 72520865249999985, 70280000000000000],
  [5600, 543200000000000000, 360000000, 480000000, 100, 85, 201600000000000000, 221625600000000000, 201600000000000000],
  [5280, 512160000000000000, 360000000, 480000000, 85, 85, 190080000000000000, 177617087999999970, 177617087999999970],
  [4880, 468480000000000000, 360000000, 480000000, 85, 85, 175680000000000000, 162468863999999990, 162468863999999990],
  [4320, 406080000000000000, 360000000, 480000000, 90, 85, 155520000000000000, 149112576000000000, 149112576000000000],
  [3700, 344099999999999960, 360000000, 480000000, 75, 85, 133200000000000000, 105294599999999980, 105294599999999980],
  [3400, 312800000000000000, 360000000, 480000000, 85, 85, 122400000000000000, 108479040000000000, 108479040000000000],
  [2900, 284200000000000000, 380000000, 480000000, 85, 85, 110200000000000000, 98560560000000000, 98560560000000000],
  [4600, 450799999999999950, 360000000, 480000000, 85, 85, 165600000000000000, 156337439999999940, 156337439999999940],
  [4180, 409639999999999930, 360000000, 480000000, 75, 85, 150479999999999980, 125349839999999960, 125349839999999960],
  [3860, 358980000000000000, 360000000, 480000000, 75, 85, 138960000000000000, 109847880000000000, 109847880000000000],
  [3440, 330240000000000000, 360000000, 480000000, 100, 85, 123840000000000000, 134737920000000000, 123840000000000000],
  [2700, 253800000000000000, 360000000, 480000000, 85, 85, 97200000000000000, 88017839999999980, 88017839999999980],
  [2300, 223100000000000000, 380000000, 480000000, 75, 85, 87400000000000000, 68268600000000000, 68268600000000000],
  [1840, 174800000000000000, 380000000, 480000000, 75, 85, 69920000000000000, 53488799999999990, 53488799999999990],
  [3570, 328440000000000050, 360000000, 480000000, 85, 85, 128520000000000000, 113902992000000010, 113902992000000010],
  [3290, 315840000000000000, 360000000, 480000000, 75, 85, 118440000000000000, 96647039999999980, 96647039999999980],
  [2930, 263700000000000000, 360000000, 480000000, 85, 85, 105480000000000000, 91451160000000000, 91451160000000000],
  [2510, 243470000000000000, 360000000, 480000000, 90, 85, 90360000000000000, 89402184000000000, 89402184000000000],
  [1600, 145600000000000000, 280000000, 440000000, 90, 85, 44800000000000000, 49008960000000000, 44800000000000000],
  [1450, 137750000000000000, 280000000, 440000000, 100, 85, 40600000000000000, 51518500000000000, 40600000000000000],
  [1300, 123499999999999980, 300000000, 440000000, 75, 85, 39000000000000000, 34641749999999990, 34641749999999990],
  [1180, 118000000000000000, 300000000, 440000000, 75, 85, 35400000000000000, 33099000000000000, 33099000000000000],
  [1050, 96600000000000000, 300000000, 440000000, 90, 85, 31500000000000000, 32515560000000000, 31500000000000000],
  [1050, 94500000000000000, 300000000, 440000000, 85, 85, 31500000000000000, 30041550000000000, 30041550000000000],
  [952, 92344000000000000, 300000000, 440000000, 90, 85, 28560000000000000, 31082990400000000, 28560000000000000],
  [858, 81510000000000000, 300000000, 440000000, 100, 85, 25740000000000005, 30484740000000000, 25740000000000005],
  [764, 74872000000000000, 300000000, 440000000, 75, 85, 22920000000000000, 21001596000000000, 21001596000000000],
  [689, 64766000000000000, 320000000, 440000000, 85, 85, 22048000000000000, 20589111400000000, 20589111400000000],
  [724, 68779999999999996, 300000000, 440000000, 90, 85, 21720000000000000, 23151348000000000, 21720000000000000],
  [647, 58877000000000000, 300000000, 440000000, 75, 85, 19410000000000000, 16514998499999999, 16514998499999999],
  [572, 56628000000000000, 320000000, 440000000, 75, 85, 18304000000000000, 15884154000000000, 15884154000000000],
  [593, 58707000000000000, 300000000, 440000000, 90, 85, 17790000000000000, 19760776200000000, 17790000000000000],
  [521, 48453000000000000, 320000000, 440000000, 100, 85, 16672000000000000, 18121422000000000, 16672000000000000],
  [408, 36720000000000004, 320000000, 440000000, 90, 85, 13056000000000000, 12359952000000002, 12359952000000002],
  [475, 43700000000000000, 320000000, 440000000, 100, 85, 15200000000000000, 16343799999999998, 15200000000000000],
  [401, 36090000000000000, 320000000, 440000000, 75, 85, 12832000000000000, 10123245000000000, 10123245000000000],
  [327, 32045999999999997, 320000000, 440000000, 75, 85, 10464000000000000, 8988902999999998, 8988902999999998],
  [382, 35144000000000000, 320000000, 440000000, 75, 85, 12224000000000000, 9857892000000000, 9857892000000000],
  [323, 31007999999999995, 320000000, 440000000, 85, 85, 10335999999999999, 9857443199999997, 9857443199999997],
  [287, 26690999999999998, 320000000, 440000000, 85, 85, 9184000000000000, 8485068899999998, 8485068899999998],
  [232, 22272000000000000, 320000000, 440000000, 85, 85, 7424000000000000, 7080268799999999, 7080268799999999],
  [282, 25380000000000000, 320000000, 440000000, 90, 85, 9024000000000000, 8542907999999999, 8542907999999999],
  [230, 22770000000000000, 320000000, 440000000, 100, 85, 7360000000000000, 8515979999999999, 7360000000000000],
  [204, 19176000000000000, 320000000, 440000000, 90, 85, 6528000000000000, 6454641600000000, 6454641600000000],
  [230, 21850000000000000, 320000000, 440000000, 90, 85, 7360000000000000, 7354710000000000, 7354710000000000],
  [178, 17800000000000000, 320000000, 440000000, 85, 85, 5696000000000000, 5658619999999999, 5658619999999999],
  [1240, 121520000000000000, 300000000, 440000000, 75, 85, 37200000000000000, 34086359999999995, 34086359999999995],
  [2010, 182910000000000000, 280000000, 440000000, 75, 85, 56280000000000000, 51306255000000010, 51306255000000010],
  [1750, 164500000000000000, 280000000, 440000000, 90, 85, 49000000000000010, 55370700000000000, 49000000000000010],
  [1500, 140999999999999980, 280000000, 440000000, 90, 85, 42000000000000000, 47460600000000000, 42000000000000000],
  [1140, 112860000000000010, 280000000, 440000000, 85, 85, 31920000000000000, 35878194000000000, 31920000000000000],
  [932, 92268000000000000, 300000000, 440000000, 75, 85, 27960000000000000, 25881174000000000, 25881174000000000],
  [762, 74676000000000000, 300000000, 440000000, 75, 85, 22860000000000000, 20946617999999998, 20946617999999998],
  [666, 61937999999999990, 300000000, 440000000, 85, 85, 19980000000000000, 19690090199999998, 19690090199999998],
  [590, 56050000000000000, 320000000, 440000000, 90, 85, 18880000000000000, 18866429999999998, 18866429999999998],
  [473, 43043000000000000, 300000000, 440000000, 75, 85, 14190000000000000, 12073561500000000, 12073561500000000],
  [386, 34740000000000000, 320000000, 440000000, 85, 85, 12352000000000000, 11043845999999999, 11043845999999999],
  [298, 27416000000000003, 320000000, 440000000, 75, 85, 9536000000000000, 7690188000000000, 7690188000000000],
  [189, 18522000000000000, 320000000, 440000000, 75, 85, 6048000000000000, 5195421000000000, 5195421000000000],
  [1900, 174800000000000000, 280000000, 440000000, 90, 85, 53200000000000000, 58837680000000000, 53200000000000000],
  [1860, 174839999999999960, 280000000, 440000000, 75, 85, 52080000000000000, 49042619999999980, 49042619999999980],
  [1560, 148199999999999980, 280000000, 440000000, 75, 85, 43680000000000000, 41570099999999990, 41570099999999990],
  [1400, 135800000000000000, 300000000, 440000000, 85, 85, 42000000000000000, 43170819999999990, 42000000000000000],
  [1080, 98280000000000020, 300000000, 440000000, 75, 85, 32400000000000000, 27567540000000000, 27567540000000000],
  [1010, 95950000000000000, 300000000, 440000000, 75, 85, 30300000000000000, 26913974999999995, 26913974999999995],
  [799, 77503000000000010, 320000000, 440000000, 75, 85, 25568000000000000, 21739591500000004, 21739591500000004]]

example : tNtIs.all (fun row => match row with
  | [ag, an, fy, fu, kt, u, y, t, n] => near (S7.NtYield rt ag fy) y && near (S7.NtUltimate rt an fu kt u) t && near (S7.Nt rt ag an fy fu kt 1 u).N n
  | _ => false) = true := by decide +kernel

/-- test_AS4100_s7_Nt, 107 rows: columns Ag, An, fy, fu, kt, αu, Nty, Ntu, Nt -/
def tNtOthers : List (List ℚ) := table [18, 20, 0, 0, 2, 2, 11, 12, 12] [
  [7030000000000000, 667849999999999950, 280000000, 440000000, 85, 85, 196840000000000000, 2123095149999999400, 1968400000000000000],
  [5110000000000000, 470120000000000000, 300000000, 440000000, 75, 85, 153300000000000000, 1318686599999999900, 1318686599999999900],
  [4520000000000000, 424880000000000000, 300000000, 440000000, 75, 85, 135600000000000000, 1191788400000000000, 1191788400000000000],
  [3200000000000000, 297600000000000000, 300000000, 440000000, 75, 85, 96000000000000000, 834767999999999900, 834767999999999900],
  [2920000000000000, 280319999999999960, 300000000, 440000000, 75, 85, 87600000000000000, 786297599999999900, 786297599999999900],
  [2660000000000000, 263340000000000000, 320000000, 440000000, 100, 85, 85120000000000000, 984891600000000100, 851200000000000000],
  [2250000000000000, 204750000000000000, 320000000, 440000000, 75, 85, 72000000000000000, 574323749999999900, 574323749999999900],
  [1520000000000000, 141359999999999990, 320000000, 440000000, 90, 85, 48640000000000000, 475817760000000000, 475817760000000000],
  [1060000000000000, 101760000000000000, 320000000, 440000000, 90, 85, 33920000000000000, 342524160000000000, 339200000000000000],
  [754000000000000, 67860000000000000, 320000000, 440000000, 75, 85, 24128000000000000, 190347300000000000, 190347300000000000],
  [24700000000000000, 2371200000000000000, 350000000, 430000000, 75, 85, 864500000000000000, 6500051999999999000, 6500051999999999000],
  [19500000000000000, 1833000000000000000, 350000000, 430000000, 75, 85, 682500000000000000, 5024711249999999000, 5024711249999999000],
  [15600000000000000, 1419600000000000000, 350000000, 430000000, 75, 85, 546000000000000000, 3891478499999999500, 3891478499999999500],
  [22200000000000000, 2131200000000000000, 350000000, 430000000, 75, 85, 777000000000000000, 5842152000000000000, 5842152000000000000],
  [17500000000000000, 1645000000000000000, 350000000, 430000000, 100, 85, 612500000000000100, 6012474999999999000, 6012474999999999000],
  [14000000000000000, 1274000000000000100, 350000000, 430000000, 90, 85, 490000000000000000, 4190823000000000500, 4190823000000000500],
  [19600000000000000, 1881600000000000000, 350000000, 430000000, 90, 85, 686000000000000000, 6189523199999999000, 6189523199999999000],
  [15500000000000000, 1426000000000000000, 350000000, 430000000, 100, 85, 542500000000000000, 5212030000000000000, 5212030000000000000],
  [12500000000000000, 1137500000000000100, 350000000, 430000000, 100, 85, 437500000000000000, 4157562500000000000, 4157562500000000000],
  [10000000000000000, 970000000000000000, 350000000, 430000000, 100, 85, 350000000000000000, 3545350000000000500, 3500000000000000000],
  [17100000000000000, 1590300000000000000, 350000000, 430000000, 90, 85, 598500000000000000, 5231291850000000000, 5231291850000000000],
  [13500000000000000, 1323000000000000000, 350000000, 430000000, 100, 85, 472500000000000000, 4835565000000000000, 4725000000000000000],
  [10900000000000000, 1035500000000000000, 350000000, 430000000, 100, 85, 381500000000000000, 3784752499999999500, 3784752499999999500],
  [8740000000000000, 821559999999999800, 350000000, 430000000, 100, 85, 305900000000000000, 3002801799999999300, 3002801799999999300],
  [12200000000000000, 1098000000000000000, 350000000, 430000000, 100, 85, 427000000000000000, 4013189999999999500, 4013189999999999500],
  [9860000000000000, 966280000000000100, 350000000, 430000000, 90, 85, 345100000000000050, 3178578060000000000, 3178578060000000000],
  [7940000000000000, 794000000000000000, 350000000, 430000000, 75, 85, 277899999999999950, 2176552499999999500, 2176552499999999500],
  [5990000000000000, 593010000000000000, 350000000, 430000000, 85, 85, 209649999999999980, 1842333817499999700, 1842333817499999700],
  [10200000000000000, 918000000000000000, 350000000, 430000000, 75, 85, 357000000000000050, 2516467500000000000, 2516467500000000000],
  [8270000000000000, 827000000000000000, 350000000, 430000000, 90, 85, 289450000000000000, 2720416499999999500, 2720416499999999500],
  [6660000000000000, 599400000000000000, 350000000, 430000000, 85, 85, 233100000000000000, 1862185950000000000, 1862185950000000000],
  [5030000000000000, 457730000000000000, 350000000, 430000000, 75, 85, 176050000000000000, 1254752362500000000, 1254752362500000000],
  [4210000000000000, 416790000000000000, 350000000, 430000000, 90, 85, 147350000000000000, 1371030705000000000, 1371030705000000000],
  [8110000000000000, 778559999999999900, 350000000, 430000000, 90, 85, 283849999999999950, 2561073119999999600, 2561073119999999600],
  [6570000000000000, 657000000000000000, 350000000, 430000000, 85, 85, 229950000000000000, 2041134749999999800, 2041134749999999800],
  [5310000000000000, 477899999999999900, 350000000, 430000000, 90, 85, 185849999999999980, 1572052049999999800, 1572052049999999800],
  [4020000000000000, 397980000000000000, 350000000, 430000000, 90, 85, 140700000000000000, 1309155210000000200, 1309155210000000200],
  [3360000000000000, 322560000000000000, 350000000, 430000000, 90, 85, 117600000000000000, 1061061120000000000, 1061061120000000000],
  [5770000000000000, 577000000000000000, 350000000, 430000000, 90, 85, 201950000000000000, 1898041500000000000, 1898041500000000000],
  [4670000000000000, 424969999999999950, 350000000, 430000000, 75, 85, 163450000000000000, 1164949012499999700, 1164949012499999700],
  [3540000000000000, 339840000000000000, 350000000, 430000000, 75, 85, 123900000000000000, 931586400000000000, 931586400000000000],
  [2960000000000000, 287120000000000000, 350000000, 430000000, 100, 85, 103600000000000000, 1049423599999999900, 1036000000000000000],
  [4970000000000000, 447299999999999950, 350000000, 430000000, 75, 85, 173949999999999980, 1226161124999999800, 1226161124999999800],
  [4030000000000000, 398970000000000000, 350000000, 430000000, 90, 85, 141050000000000000, 1312411815000000000, 1312411815000000000],
  [3060000000000000, 287639999999999940, 350000000, 430000000, 85, 85, 107100000000000000, 893625569999999700, 893625569999999700],
  [2570000000000000, 244149999999999970, 350000000, 430000000, 85, 85, 89949999999999990, 758513012499999800, 758513012499999800],
  [2060000000000000, 201880000000000030, 350000000, 430000000, 100, 85, 72100000000000010, 737871400000000100, 721000000000000100],
  [1780000000000000, 178000000000000000, 350000000, 430000000, 100, 85, 62300000000000000, 650589999999999900, 623000000000000000],
  [1530000000000000, 140760000000000000, 350000000, 430000000, 75, 85, 53550000000000000, 385858350000000000, 385858350000000000],
  [1500000000000000, 145500000000000000, 350000000, 430000000, 90, 85, 52500000000000000, 478622250000000000, 478622250000000000],
  [1290000000000000, 118680000000000000, 350000000, 430000000, 85, 85, 45149999999999994, 368709089999999970, 368709089999999970],
  [1250000000000000, 115000000000000000, 350000000, 430000000, 85, 85, 43750000000000000, 357276249999999940, 357276249999999940],
  [1120000000000000, 112000000000000000, 350000000, 430000000, 100, 85, 39199999999999994, 409360000000000000, 391999999999999940],
  [989000000000000, 89010000000000010, 350000000, 430000000, 90, 85, 34615000000000000, 292798395000000000, 292798395000000000],
  [809000000000000, 73619000000000010, 350000000, 430000000, 75, 85, 28315000000000000, 201808083750000020, 201808083750000020],
  [862000000000000, 80165999999999990, 350000000, 430000000, 90, 85, 30170000000000000, 263706057000000000, 263706057000000000],
  [705000000000000, 64155000000000010, 350000000, 430000000, 85, 85, 24675000000000000, 199313546249999980, 199313546249999980],
  [733000000000000, 72567000000000000, 350000000, 430000000, 100, 85, 25655000000000000, 265232385000000000, 256550000000000000],
  [533000000000000, 47970000000000006, 350000000, 430000000, 90, 85, 18655000000000003, 157797315000000030, 157797315000000030],
  [523000000000000, 48639000000000000, 350000000, 430000000, 85, 85, 18305000000000000, 151109213249999970, 151109213249999970],
  [419000000000000, 38129000000000000, 350000000, 430000000, 90, 85, 14665000000000000, 125425345500000000, 125425345500000000],
  [414000000000000, 38915999999999994, 350000000, 430000000, 85, 85, 14490000000000000, 120902282999999970, 120902282999999970],
  [332000000000000, 31539999999999997, 350000000, 430000000, 100, 85, 11620000000000000, 115278699999999980, 115278699999999980],
  [325000000000000, 29250000000000000, 350000000, 430000000, 85, 85, 11375000000000000, 90872437500000000, 90872437500000000],
  [254000000000000, 23621999999999998, 350000000, 430000000, 90, 85, 8890000000000000, 77704568999999990, 77704568999999990],
  [254000000000000, 23368000000000000, 350000000, 430000000, 90, 85, 8890000000000000, 76869036000000010, 76869036000000010],
  [199000000000000, 17910000000000002, 350000000, 430000000, 90, 85, 6965000000000000, 58914945000000010, 58914945000000010],
  [178000000000000, 17622000000000000, 350000000, 430000000, 90, 85, 6230000000000000, 57967568999999990, 57967568999999990],
  [156000000000000, 15131999999999998, 350000000, 430000000, 85, 85, 5460000000000000, 47011340999999986, 47011340999999986],
  [2710000000000000, 265580000000000030, 250000000, 320000000, 75, 85, 67750000000000000, 541783200000000100, 541783200000000100],
  [2510000000000000, 240960000000000000, 250000000, 320000000, 100, 85, 62750000000000000, 655411200000000000, 627500000000000000],
  [2280000000000000, 209760000000000000, 250000000, 320000000, 100, 85, 57000000000000000, 570547200000000000, 570000000000000000],
  [2120000000000000, 199280000000000000, 250000000, 320000000, 90, 85, 53000000000000000, 487837439999999940, 487837439999999940],
  [1850000000000000, 175750000000000000, 250000000, 320000000, 100, 85, 46250000000000000, 478040000000000000, 462500000000000000],
  [1550000000000000, 141050000000000000, 250000000, 320000000, 85, 85, 38750000000000000, 326107600000000000, 326107600000000000],
  [1520000000000000, 150480000000000010, 250000000, 320000000, 85, 85, 38000000000000000, 347909760000000000, 347909760000000000],
  [1230000000000000, 115619999999999980, 250000000, 320000000, 85, 85, 30750000000000000, 267313439999999940, 267313439999999940],
  [1540000000000000, 154000000000000000, 250000000, 320000000, 100, 85, 38500000000000000, 418879999999999940, 385000000000000000],
  [1320000000000000, 122760000000000000, 250000000, 320000000, 100, 85, 33000000000000000, 333907200000000000, 330000000000000000],
  [1070000000000000, 99509999999999980, 250000000, 320000000, 85, 85, 26750000000000000, 230067119999999940, 230067119999999940],
  [1300000000000000, 130000000000000000, 250000000, 320000000, 100, 85, 32500000000000000, 353599999999999940, 325000000000000000],
  [1010000000000000, 93930000000000000, 250000000, 320000000, 90, 85, 25250000000000000, 229940640000000000, 229940640000000000],
  [820000000000000, 76259999999999990, 250000000, 320000000, 85, 85, 20500000000000000, 176313119999999970, 176313119999999970],
  [931000000000000, 92169000000000000, 250000000, 320000000, 85, 85, 23275000000000000, 213094727999999970, 213094727999999970],
  [789000000000000, 76532999999999990, 250000000, 320000000, 85, 85, 19725000000000000, 176944295999999940, 176944295999999940],
  [641000000000000, 62818000000000000, 250000000, 320000000, 85, 85, 16025000000000000, 145235216000000000, 145235216000000000],
  [557000000000000, 51244000000000000, 250000000, 320000000, 100, 85, 13925000000000000, 139383680000000000, 139250000000000000],
  [453000000000000, 41223000000000003, 250000000, 320000000, 100, 85, 11325000000000000, 112126560000000000, 112126560000000000],
  [483000000000000, 46850999999999994, 250000000, 320000000, 75, 85, 12075000000000000, 95576040000000000, 95576040000000000],
  [394000000000000, 37430000000000000, 250000000, 320000000, 85, 85, 9850000000000000, 86538159999999990, 86538159999999990],
  [373000000000000, 34689000000000000, 250000000, 320000000, 100, 85, 9325000000000000, 94354079999999990, 93250000000000000],
  [307000000000000, 28244000000000000, 250000000, 320000000, 100, 85, 7675000000000000, 76823680000000010, 76750000000000000],
  [288000000000000, 27648000000000000, 250000000, 320000000, 85, 85, 7200000000000000, 63922176000000000, 63922176000000000],
  [238000000000000, 22372000000000000, 250000000, 320000000, 90, 85, 5950000000000000, 54766656000000000, 54766656000000000],
  [198000000000000, 19007999999999997, 250000000, 320000000, 75, 85, 4950000000000000, 38776319999999990, 38776319999999990],
  [182000000000000, 17290000000000000, 250000000, 320000000, 85, 85, 4550000000000000, 39974479999999996, 39974479999999996],
  [153000000000000, 13770000000000000, 250000000, 320000000, 75, 85, 3825000000000000, 28090800000000003, 28090800000000003],
  [32520000000000050, 3219480000000005000, 280000000, 440000000, 100, 85, 910560000000001300, 12040855200000018000, 9105600000000013000],
  [45839999999999990, 4308959999999999000, 280000000, 440000000, 75, 85, 1283519999999999800, 12086632799999997000, 12086632799999997000],
  [59200000000000030, 5328000000000003000, 280000000, 440000000, 90, 85, 1657600000000001000, 17934048000000010000, 16576000000000010000],
  [72520000000000140, 6671840000000014000, 280000000, 440000000, 100, 85, 2030560000000004000, 24952681600000050000, 20305600000000040000],
  [85840000000000140, 8584000000000014000, 280000000, 440000000, 85, 85, 2403520000000003700, 27288536000000040000, 24035200000000037000],
  [22520000000000012, 2252000000000001200, 280000000, 440000000, 75, 85, 630560000000000400, 6316860000000003000, 6305600000000004000],
  [35839999999999980, 3225599999999998600, 280000000, 440000000, 75, 85, 1003519999999999400, 9047807999999996000, 9047807999999996000],
  [49199999999999966, 4919999999999996600, 280000000, 440000000, 90, 85, 1377599999999999000, 16560719999999990000, 13775999999999990000],
  [62520000000000020, 6252000000000002000, 280000000, 440000000, 90, 85, 1750560000000000700, 21044232000000007000, 17505600000000007000],
  [75600000000000000, 6955200000000000000, 280000000, 440000000, 100, 85, 2116800000000000000, 26012448000000000000, 21168000000000000000]]

example : tNtOthers.all (fun row => match row with
  | [ag, an, fy, fu, kt, u, y, t, n] => near (S7.NtYield rt ag fy) y && near (S7.NtUltimate rt an fu kt u) t && near (S7.Nt rt ag an fy fu kt 1 u).N n
  | _ => false) = true := by decide +kernel

end BeamDesign.Conformance
