import Verif.Conformance.Tables

/-!
# `tests/test_AS4100_6.py` run on the model, in double precision: the member capacity

Written by tools/conformance.py.
-/

namespace BeamDesign.Conformance

/-- test_s6_3_3_N_c_torsion, line 7521; the axes are 0 for none, 1 for x, 2 for y, 3 for both, 4 for a point: columns axis, An, kf, lex, ley, lez, rx, ry, xo, yo, J, Iw, fy, E, G, Ncexp -/
def tTorsionDouble : List (List ℚ) := table [0, 5, 3, 1, 1, 1, 4, 4, 0, 0, 10, 10, 0, 0, 0, 3] [
  [3, 5790, 837, 800, 800, 800, 5150, 1200, 0, 0, 220000, 2800000, 280000000, 200000000000, 80000000000, 2955199200],
  [3, 5790, 837, 400, 400, 400, 5150, 1200, 0, 0, 220000, 2800000, 280000000, 200000000000, 80000000000, 4683790500],
  [3, 5790, 837, 200, 200, 200, 5150, 1200, 0, 0, 220000, 2800000, 280000000, 200000000000, 80000000000, 6305155600],
  [3, 5790, 837, 100, 100, 100, 5150, 1200, 0, 0, 220000, 2800000, 280000000, 200000000000, 80000000000, 8889923600],
  [3, 5790, 837, 50, 50, 50, 5150, 1200, 0, 0, 220000, 2800000, 280000000, 200000000000, 80000000000, 10652616000],
  [3, 5790, 837, 10, 10, 10, 5150, 1200, 0, 0, 220000, 2800000, 280000000, 200000000000, 80000000000, 11494624000],
  [3, 2510, 1000, 400, 400, 400, 1390, 893, 0, 0, 57500, 46000, 280000000, 200000000000, 80000000000, 445996650],
  [3, 2510, 1000, 200, 200, 200, 1390, 893, 0, 0, 57500, 46000, 280000000, 200000000000, 80000000000, 1783986600],
  [3, 2510, 1000, 100, 100, 100, 1390, 893, 0, 0, 57500, 46000, 280000000, 200000000000, 80000000000, 4393361600],
  [3, 2510, 1000, 50, 50, 50, 1390, 893, 0, 0, 57500, 46000, 280000000, 200000000000, 80000000000, 5418653800],
  [3, 2510, 1000, 10, 10, 10, 1390, 893, 0, 0, 57500, 46000, 280000000, 200000000000, 80000000000, 5923733800],
  [3, 1600, 950, 400, 400, 400, 2490, 496, 0, 0, 15600, 34500, 280000000, 200000000000, 80000000000, 866703520],
  [3, 1600, 950, 200, 200, 200, 2490, 496, 0, 0, 15600, 34500, 280000000, 200000000000, 80000000000, 1542729600],
  [3, 1600, 950, 100, 100, 100, 2490, 496, 0, 0, 15600, 34500, 280000000, 200000000000, 80000000000, 1933264300],
  [3, 1600, 950, 50, 50, 50, 2490, 496, 0, 0, 15600, 34500, 280000000, 200000000000, 80000000000, 2668463400],
  [3, 1600, 950, 10, 10, 10, 2490, 496, 0, 0, 15600, 34500, 280000000, 200000000000, 80000000000, 3555092900],
  [3, 189, 1000, 100, 100, 100, 411, 245, 0, 0, 349, 23, 320000000, 200000000000, 80000000000, 46977912],
  [3, 189, 1000, 50, 50, 50, 411, 245, 0, 0, 349, 23, 320000000, 200000000000, 80000000000, 187911650],
  [3, 189, 1000, 10, 10, 10, 411, 245, 0, 0, 349, 23, 320000000, 200000000000, 80000000000, 475009530],
  [3, 189, 1000, 5, 5, 5, 411, 245, 0, 0, 349, 23, 320000000, 200000000000, 80000000000, 500054970]]

example : tTorsionDouble.all (fun row => match row with
  | [s, a, k, lx, ly, lz, rx, ry, xo, yo, j, iw, fy, e, g, x] => result 100000 (torsion s ⟨a, lx, ly, lz, rx, ry, xo, yo, j, iw, e, g⟩ k fy) x
  | _ => false) = true := by decide +kernel

/-- test_s6_3_3_N_c_torsion, line 8067; the axes are 0 for none, 1 for x, 2 for y, 3 for both, 4 for a point: columns axis, An, kf, lex, ley, lez, rx, ry, xo, yo, J, Iw, fy, E, G, Ncexp -/
def tTorsionSingle : List (List ℚ) := table [0, 6, 3, 1, 1, 1, 10, 13, 13, 11, 14, 15, 0, 0, 0, 5] [
  [1, 2790, 958, 200, 200, 200, 587000000, 298000000000, 0, 0, 8890000, 0, 320000000, 200000000000, 80000000000, 3387928100],
  [1, 2790, 958, 100, 100, 100, 587000000, 298000000000, 0, 0, 8890000, 0, 320000000, 200000000000, 80000000000, 13551712000],
  [1, 2790, 958, 50, 50, 50, 587000000, 298000000000, 0, 0, 8890000, 0, 320000000, 200000000000, 80000000000, 44435953000],
  [1, 2790, 958, 10, 10, 10, 587000000, 298000000000, 0, 0, 8890000, 0, 320000000, 200000000000, 80000000000, 57895888000],
  [1, 2790, 958, 5, 5, 5, 587000000, 298000000000, 0, 0, 8890000, 0, 320000000, 200000000000, 80000000000, 57895888000],
  [1, 2790, 958, 1, 1, 1, 587000000, 298000000000, 0, 0, 8890000, 0, 320000000, 200000000000, 80000000000, 57895888000],
  [1, 143, 1000, 100, 100, 100, 92200000, 47300000000, 0, 0, 51500, 0, 320000000, 200000000000, 80000000000, 17887356],
  [1, 143, 1000, 50, 50, 50, 92200000, 47300000000, 0, 0, 51500, 0, 320000000, 200000000000, 80000000000, 71549422],
  [1, 143, 1000, 10, 10, 10, 92200000, 47300000000, 0, 0, 51500, 0, 320000000, 200000000000, 80000000000, 1750876700],
  [1, 143, 1000, 5, 5, 5, 92200000, 47300000000, 0, 0, 51500, 0, 320000000, 200000000000, 80000000000, 3185976700],
  [1, 143, 1000, 1, 1, 1, 92200000, 47300000000, 0, 0, 51500, 0, 320000000, 200000000000, 80000000000, 3700202000],
  [1, 7030, 1000, 200, 200, 200, 1470000000, 304000000000, 567000000000, 0, 47200000, 151000000, 280000000, 200000000000, 80000000000, 50624462000],
  [1, 7030, 1000, 100, 100, 100, 1470000000, 304000000000, 567000000000, 0, 47200000, 151000000, 280000000, 200000000000, 80000000000, 93741242000],
  [1, 7030, 1000, 50, 50, 50, 1470000000, 304000000000, 567000000000, 0, 47200000, 151000000, 280000000, 200000000000, 80000000000, 108088800000],
  [1, 7030, 1000, 10, 10, 10, 1470000000, 304000000000, 567000000000, 0, 47200000, 151000000, 280000000, 200000000000, 80000000000, 157016030000],
  [1, 7030, 1000, 5, 5, 5, 1470000000, 304000000000, 567000000000, 0, 47200000, 151000000, 280000000, 200000000000, 80000000000, 164438570000],
  [1, 754, 1000, 100, 100, 100, 301000000, 126000000000, 272000000000, 0, 813000, 106000, 320000000, 200000000000, 80000000000, 989732520],
  [1, 754, 1000, 50, 50, 50, 301000000, 126000000000, 272000000000, 0, 813000, 106000, 320000000, 200000000000, 80000000000, 3771960600],
  [1, 754, 1000, 10, 10, 10, 301000000, 126000000000, 272000000000, 0, 813000, 106000, 320000000, 200000000000, 80000000000, 15983155000],
  [1, 754, 1000, 5, 5, 5, 301000000, 126000000000, 272000000000, 0, 813000, 106000, 320000000, 200000000000, 80000000000, 17992248000],
  [1, 754, 1000, 1, 1, 1, 301000000, 126000000000, 272000000000, 0, 813000, 106000, 320000000, 200000000000, 80000000000, 20329710000],
  [2, 11000, 1000, 100, 100, 100, 2100000000, 369790000000, 0, 15428504787, 91838801, 402909070, 300000000, 200000000000, 80000000000, 20081785000],
  [2, 11000, 1000, 50, 50, 50, 2100000000, 369790000000, 0, 15428504787, 91838801, 402909070, 300000000, 200000000000, 80000000000, 62334799000],
  [2, 11000, 1000, 10, 10, 10, 2100000000, 369790000000, 0, 15428504787, 91838801, 402909070, 300000000, 200000000000, 80000000000, 246065850000],
  [2, 11000, 1000, 5, 5, 5, 2100000000, 369790000000, 0, 15428504787, 91838801, 402909070, 300000000, 200000000000, 80000000000, 270980310000],
  [1, 13000, 1000, 100, 100, 100, 1271003036, 453280830003, 220614080619, 0, 158475560, 30634424, 300000000, 200000000000, 80000000000, 220368610000],
  [1, 13000, 1000, 50, 50, 50, 1271003036, 453280830003, 220614080619, 0, 158475560, 30634424, 300000000, 200000000000, 80000000000, 260644220000],
  [1, 13000, 1000, 10, 10, 10, 1271003036, 453280830003, 220614080619, 0, 158475560, 30634424, 300000000, 200000000000, 80000000000, 281615550000],
  [1, 13000, 1000, 5, 5, 5, 1271003036, 453280830003, 220614080619, 0, 158475560, 30634424, 300000000, 200000000000, 80000000000, 305155310000]]

example : tTorsionSingle.all (fun row => match row with
  | [s, a, k, lx, ly, lz, rx, ry, xo, yo, j, iw, fy, e, g, x] => result 100000 (torsion s ⟨a, lx, ly, lz, rx, ry, xo, yo, j, iw, e, g⟩ k fy) x
  | _ => false) = true := by decide +kernel

/-- test_s6_3_3_N_c_torsion, line 8933; the axes are 0 for none, 1 for x, 2 for y, 3 for both, 4 for a point: columns axis, An, kf, lex, ley, lez, rx, ry, xo, yo, J, Iw, fy, E, G, Ncexp -/
def tTorsionPoint : List (List ℚ) := table [0, 6, 3, 1, 1, 1, 10, 13, 13, 11, 17, 19, 0, 0, 0, 10] [
  [4, 1890, 1000, 100, 100, 100, 411000000, 245000000000, 0, 0, 3490000000, 23000000000, 320000000, 200000000000, 80000000000, 4191061557464960],
  [4, 1890, 1000, 50, 50, 50, 411000000, 245000000000, 0, 0, 3490000000, 23000000000, 320000000, 200000000000, 80000000000, 4230455122558540],
  [4, 1890, 1000, 10, 10, 10, 411000000, 245000000000, 0, 0, 3490000000, 23000000000, 320000000, 200000000000, 80000000000, 4750095334256870],
  [4, 1890, 1000, 5, 5, 5, 411000000, 245000000000, 0, 0, 3490000000, 23000000000, 320000000, 200000000000, 80000000000, 5000549749575110],
  [4, 57900, 837, 800, 800, 800, 5150000000, 1200000000000, 0, 0, 2200000000000, 2800000000000000, 280000000, 200000000000, 80000000000, 41198759230399700],
  [4, 57900, 837, 400, 400, 400, 5150000000, 1200000000000, 0, 0, 2200000000000, 2800000000000000, 280000000, 200000000000, 80000000000, 46837904780149700],
  [4, 57900, 837, 200, 200, 200, 5150000000, 1200000000000, 0, 0, 2200000000000, 2800000000000000, 280000000, 200000000000, 80000000000, 63051556427146100],
  [4, 57900, 837, 100, 100, 100, 5150000000, 1200000000000, 0, 0, 2200000000000, 2800000000000000, 280000000, 200000000000, 80000000000, 88899236290362000],
  [4, 57900, 837, 50, 50, 50, 5150000000, 1200000000000, 0, 0, 2200000000000, 2800000000000000, 280000000, 200000000000, 80000000000, 106526157056175000],
  [4, 57900, 837, 10, 10, 10, 5150000000, 1200000000000, 0, 0, 2200000000000, 2800000000000000, 280000000, 200000000000, 80000000000, 114946243483393000],
  [4, 2790, 958, 200, 200, 200, 587000000, 298000000000, 0, 0, 8890000000, 0, 320000000, 200000000000, 80000000000, 5789588840959360],
  [4, 2790, 958, 100, 100, 100, 587000000, 298000000000, 0, 0, 8890000000, 0, 320000000, 200000000000, 80000000000, 5789588840959360],
  [4, 2790, 958, 50, 50, 50, 587000000, 298000000000, 0, 0, 8890000000, 0, 320000000, 200000000000, 80000000000, 5789588840959360],
  [4, 2790, 958, 10, 10, 10, 587000000, 298000000000, 0, 0, 8890000000, 0, 320000000, 200000000000, 80000000000, 5789588840959360],
  [4, 2790, 958, 5, 5, 5, 587000000, 298000000000, 0, 0, 8890000000, 0, 320000000, 200000000000, 80000000000, 5789588840959360],
  [4, 2790, 958, 1, 1, 1, 587000000, 298000000000, 0, 0, 8890000000, 0, 320000000, 200000000000, 80000000000, 5789588840959360],
  [4, 143, 1000, 100, 100, 100, 92200000, 47300000000, 0, 0, 51500000, 0, 320000000, 200000000000, 80000000000, 370020197682433],
  [4, 143, 1000, 50, 50, 50, 92200000, 47300000000, 0, 0, 51500000, 0, 320000000, 200000000000, 80000000000, 370020197682433],
  [4, 143, 1000, 10, 10, 10, 92200000, 47300000000, 0, 0, 51500000, 0, 320000000, 200000000000, 80000000000, 370020197682433],
  [4, 143, 1000, 5, 5, 5, 92200000, 47300000000, 0, 0, 51500000, 0, 320000000, 200000000000, 80000000000, 370020197682433],
  [4, 143, 1000, 1, 1, 1, 92200000, 47300000000, 0, 0, 51500000, 0, 320000000, 200000000000, 80000000000, 370020197682433],
  [4, 25100, 1000, 400, 400, 400, 1390000000, 893000000000, 0, 0, 575000000000, 46000000000000, 280000000, 200000000000, 80000000000, 50277035652674100],
  [4, 25100, 1000, 200, 200, 200, 1390000000, 893000000000, 0, 0, 575000000000, 46000000000000, 280000000, 200000000000, 80000000000, 50583718688275300],
  [4, 25100, 1000, 100, 100, 100, 1390000000, 893000000000, 0, 0, 575000000000, 46000000000000, 280000000, 200000000000, 80000000000, 51634789145961200],
  [4, 25100, 1000, 50, 50, 50, 1390000000, 893000000000, 0, 0, 575000000000, 46000000000000, 280000000, 200000000000, 80000000000, 54186537553265800],
  [4, 25100, 1000, 10, 10, 10, 1390000000, 893000000000, 0, 0, 575000000000, 46000000000000, 280000000, 200000000000, 80000000000, 59237337888396800],
  [4, 7030, 1000, 200, 200, 200, 1470000000, 304000000000, 567000000000, 0, 47200000000, 1510000000000, 280000000, 200000000000, 80000000000, 9644325797078190],
  [4, 7030, 1000, 100, 100, 100, 1470000000, 304000000000, 567000000000, 0, 47200000000, 1510000000000, 280000000, 200000000000, 80000000000, 9940317434226230],
  [4, 7030, 1000, 50, 50, 50, 1470000000, 304000000000, 567000000000, 0, 47200000000, 1510000000000, 280000000, 200000000000, 80000000000, 10916905084164000],
  [4, 7030, 1000, 10, 10, 10, 1470000000, 304000000000, 567000000000, 0, 47200000000, 1510000000000, 280000000, 200000000000, 80000000000, 15707201932925600],
  [4, 7030, 1000, 5, 5, 5, 1470000000, 304000000000, 567000000000, 0, 47200000000, 1510000000000, 280000000, 200000000000, 80000000000, 16445318310679600],
  [4, 16000, 950, 400, 400, 400, 2490000000, 496000000000, 0, 0, 156000000000, 34500000000000, 280000000, 200000000000, 80000000000, 14179768830167300],
  [4, 16000, 950, 200, 200, 200, 2490000000, 496000000000, 0, 0, 156000000000, 34500000000000, 280000000, 200000000000, 80000000000, 15427295918957700],
  [4, 16000, 950, 100, 100, 100, 2490000000, 496000000000, 0, 0, 156000000000, 34500000000000, 280000000, 200000000000, 80000000000, 19332643390188300],
  [4, 16000, 950, 50, 50, 50, 2490000000, 496000000000, 0, 0, 156000000000, 34500000000000, 280000000, 200000000000, 80000000000, 26684633720975600],
  [4, 16000, 950, 10, 10, 10, 2490000000, 496000000000, 0, 0, 156000000000, 34500000000000, 280000000, 200000000000, 80000000000, 35550928857030000],
  [4, 754, 1000, 100, 100, 100, 301000000, 126000000000, 272000000000, 0, 813000000, 1060000000, 320000000, 200000000000, 80000000000, 1551101142798860],
  [4, 754, 1000, 50, 50, 50, 301000000, 126000000000, 272000000000, 0, 813000000, 1060000000, 320000000, 200000000000, 80000000000, 1555234648472910],
  [4, 754, 1000, 10, 10, 10, 301000000, 126000000000, 272000000000, 0, 813000000, 1060000000, 320000000, 200000000000, 80000000000, 1659087793427380],
  [4, 754, 1000, 5, 5, 5, 301000000, 126000000000, 272000000000, 0, 813000000, 1060000000, 320000000, 200000000000, 80000000000, 1814371734918660],
  [4, 754, 1000, 1, 1, 1, 301000000, 126000000000, 272000000000, 0, 813000000, 1060000000, 320000000, 200000000000, 80000000000, 2033628386935710],
  [4, 11000, 1000, 100, 100, 100, 2100000000, 369790000000, 0, 15428504787, 91838800792, 4029090743700, 300000000, 200000000000, 80000000000, 8762302816130510],
  [4, 11000, 1000, 50, 50, 50, 2100000000, 369790000000, 0, 15428504787, 91838800792, 4029090743700, 300000000, 200000000000, 80000000000, 11304677774941400],
  [4, 11000, 1000, 10, 10, 10, 2100000000, 369790000000, 0, 15428504787, 91838800792, 4029090743700, 300000000, 200000000000, 80000000000, 25124888475214700],
  [4, 11000, 1000, 5, 5, 5, 2100000000, 369790000000, 0, 15428504787, 91838800792, 4029090743700, 300000000, 200000000000, 80000000000, 27237417649110200],
  [4, 13000, 1000, 100, 100, 100, 1271003036, 453280830003, 220614080619, 0, 158475561880, 306344239388, 300000000, 200000000000, 80000000000, 26087845717596500],
  [4, 13000, 1000, 50, 50, 50, 1271003036, 453280830003, 220614080619, 0, 158475561880, 306344239388, 300000000, 200000000000, 80000000000, 26175749553862000],
  [4, 13000, 1000, 10, 10, 10, 1271003036, 453280830003, 220614080619, 0, 158475561880, 306344239388, 300000000, 200000000000, 80000000000, 28164511177296300],
  [4, 13000, 1000, 5, 5, 5, 1271003036, 453280830003, 220614080619, 0, 158475561880, 306344239388, 300000000, 200000000000, 80000000000, 30516322083760900]]

example : tTorsionPoint.all (fun row => match row with
  | [s, a, k, lx, ly, lz, rx, ry, xo, yo, j, iw, fy, e, g, x] => result 100000 (torsion s ⟨a, lx, ly, lz, rx, ry, xo, yo, j, iw, e, g⟩ k fy) x
  | _ => false) = true := by decide +kernel

/-- test_s6_3_3_N_c_torsion, line 9897; the axes are 0 for none, 1 for x, 2 for y, 3 for both, 4 for a point: columns axis, An, kf, lex, ley, lez, rx, ry, xo, yo, J, Iw, fy, E, G, Ncexp -/
def tTorsionNone : List (List ℚ) := table [0, 6, 3, 1, 1, 1, 10, 13, 13, 11, 17, 19, 0, 0, 0, 8] [
  [0, 1890, 1000, 100, 100, 100, 411000000, 245000000000, 0, 0, 3490000000, 23000000000, 320000000, 200000000000, 80000000000, 1669330134000],
  [0, 1890, 1000, 50, 50, 50, 411000000, 245000000000, 0, 0, 3490000000, 23000000000, 320000000, 200000000000, 80000000000, 6677320534000],
  [0, 1890, 1000, 10, 10, 10, 411000000, 245000000000, 0, 0, 3490000000, 23000000000, 320000000, 200000000000, 80000000000, 45913209230000],
  [0, 1890, 1000, 5, 5, 5, 411000000, 245000000000, 0, 0, 3490000000, 23000000000, 320000000, 200000000000, 80000000000, 49975534040000],
  [0, 57900, 837, 800, 800, 800, 5150000000, 1200000000000, 0, 0, 2200000000000, 2800000000000000, 280000000, 200000000000, 80000000000, 16044818180000],
  [0, 57900, 837, 400, 400, 400, 5150000000, 1200000000000, 0, 0, 2200000000000, 2800000000000000, 280000000, 200000000000, 80000000000, 64179272710000],
  [0, 57900, 837, 200, 200, 200, 5150000000, 1200000000000, 0, 0, 2200000000000, 2800000000000000, 280000000, 200000000000, 80000000000, 256717090800000],
  [0, 57900, 837, 100, 100, 100, 5150000000, 1200000000000, 0, 0, 2200000000000, 2800000000000000, 280000000, 200000000000, 80000000000, 763697367600000],
  [0, 57900, 837, 50, 50, 50, 5150000000, 1200000000000, 0, 0, 2200000000000, 2800000000000000, 280000000, 200000000000, 80000000000, 1040437645000000],
  [0, 57900, 837, 10, 10, 10, 5150000000, 1200000000000, 0, 0, 2200000000000, 2800000000000000, 280000000, 200000000000, 80000000000, 1148657049000000],
  [0, 1170, 824, 200, 200, 200, 425000000, 164000000000, 0, 0, 1480000000, 0, 320000000, 200000000000, 80000000000, 95386966670],
  [0, 1170, 824, 100, 100, 100, 425000000, 164000000000, 0, 0, 1480000000, 0, 320000000, 200000000000, 80000000000, 381547866700],
  [0, 1170, 824, 50, 50, 50, 425000000, 164000000000, 0, 0, 1480000000, 0, 320000000, 200000000000, 80000000000, 1526191467000],
  [0, 1170, 824, 10, 10, 10, 425000000, 164000000000, 0, 0, 1480000000, 0, 320000000, 200000000000, 80000000000, 19925034060000],
  [0, 1170, 824, 5, 5, 5, 425000000, 164000000000, 0, 0, 1480000000, 0, 320000000, 200000000000, 80000000000, 19925034060000],
  [0, 1170, 824, 1, 1, 1, 425000000, 164000000000, 0, 0, 1480000000, 0, 320000000, 200000000000, 80000000000, 19925034060000],
  [0, 2790, 958, 200, 200, 200, 587000000, 298000000000, 0, 0, 8890000000, 0, 320000000, 200000000000, 80000000000, 873153319300],
  [0, 2790, 958, 100, 100, 100, 587000000, 298000000000, 0, 0, 8890000000, 0, 320000000, 200000000000, 80000000000, 3492613277000],
  [0, 2790, 958, 50, 50, 50, 587000000, 298000000000, 0, 0, 8890000000, 0, 320000000, 200000000000, 80000000000, 13970453110000],
  [0, 2790, 958, 10, 10, 10, 587000000, 298000000000, 0, 0, 8890000000, 0, 320000000, 200000000000, 80000000000, 57895888410000],
  [0, 2790, 958, 5, 5, 5, 587000000, 298000000000, 0, 0, 8890000000, 0, 320000000, 200000000000, 80000000000, 57895888410000],
  [0, 2790, 958, 1, 1, 1, 587000000, 298000000000, 0, 0, 8890000000, 0, 320000000, 200000000000, 80000000000, 57895888410000],
  [0, 143, 1000, 100, 100, 100, 92200000, 47300000000, 0, 0, 51500000, 0, 320000000, 200000000000, 80000000000, 4707676148],
  [0, 143, 1000, 50, 50, 50, 92200000, 47300000000, 0, 0, 51500000, 0, 320000000, 200000000000, 80000000000, 18830704590],
  [0, 143, 1000, 10, 10, 10, 92200000, 47300000000, 0, 0, 51500000, 0, 320000000, 200000000000, 80000000000, 470767614800],
  [0, 143, 1000, 5, 5, 5, 92200000, 47300000000, 0, 0, 51500000, 0, 320000000, 200000000000, 80000000000, 1822306529000],
  [0, 143, 1000, 1, 1, 1, 92200000, 47300000000, 0, 0, 51500000, 0, 320000000, 200000000000, 80000000000, 3700201977000],
  [0, 25100, 1000, 400, 400, 400, 1390000000, 893000000000, 0, 0, 575000000000, 46000000000000, 280000000, 200000000000, 80000000000, 18407928410000],
  [0, 25100, 1000, 200, 200, 200, 1390000000, 893000000000, 0, 0, 575000000000, 46000000000000, 280000000, 200000000000, 80000000000, 73631713650000],
  [0, 25100, 1000, 100, 100, 100, 1390000000, 893000000000, 0, 0, 575000000000, 46000000000000, 280000000, 200000000000, 80000000000, 283734535100000],
  [0, 25100, 1000, 50, 50, 50, 1390000000, 893000000000, 0, 0, 575000000000, 46000000000000, 280000000, 200000000000, 80000000000, 495925064900000],
  [0, 25100, 1000, 10, 10, 10, 1390000000, 893000000000, 0, 0, 575000000000, 46000000000000, 280000000, 200000000000, 80000000000, 592373378900000],
  [0, 7030, 1000, 200, 200, 200, 1470000000, 304000000000, 567000000000, 0, 47200000000, 1510000000000, 280000000, 200000000000, 80000000000, 2389668692000],
  [0, 7030, 1000, 100, 100, 100, 1470000000, 304000000000, 567000000000, 0, 47200000000, 1510000000000, 280000000, 200000000000, 80000000000, 9555144229000],
  [0, 7030, 1000, 50, 50, 50, 1470000000, 304000000000, 567000000000, 0, 47200000000, 1510000000000, 280000000, 200000000000, 80000000000, 38162498680000],
  [0, 7030, 1000, 10, 10, 10, 1470000000, 304000000000, 567000000000, 0, 47200000000, 1510000000000, 280000000, 200000000000, 80000000000, 156238690300000],
  [0, 7030, 1000, 5, 5, 5, 1470000000, 304000000000, 567000000000, 0, 47200000000, 1510000000000, 280000000, 200000000000, 80000000000, 164324683900000],
  [0, 16000, 950, 400, 400, 400, 2490000000, 496000000000, 0, 0, 156000000000, 34500000000000, 280000000, 200000000000, 80000000000, 3439024093000],
  [0, 16000, 950, 200, 200, 200, 2490000000, 496000000000, 0, 0, 156000000000, 34500000000000, 280000000, 200000000000, 80000000000, 13756096370000],
  [0, 16000, 950, 100, 100, 100, 2490000000, 496000000000, 0, 0, 156000000000, 34500000000000, 280000000, 200000000000, 80000000000, 55024385490000],
  [0, 16000, 950, 50, 50, 50, 2490000000, 496000000000, 0, 0, 156000000000, 34500000000000, 280000000, 200000000000, 80000000000, 197878688600000],
  [0, 16000, 950, 10, 10, 10, 2490000000, 496000000000, 0, 0, 156000000000, 34500000000000, 280000000, 200000000000, 80000000000, 353134122300000],
  [0, 754, 1000, 100, 100, 100, 301000000, 126000000000, 272000000000, 0, 813000000, 1060000000, 320000000, 200000000000, 80000000000, 176040302400],
  [0, 754, 1000, 50, 50, 50, 301000000, 126000000000, 272000000000, 0, 813000000, 1060000000, 320000000, 200000000000, 80000000000, 702941631800],
  [0, 754, 1000, 10, 10, 10, 301000000, 126000000000, 272000000000, 0, 813000000, 1060000000, 320000000, 200000000000, 80000000000, 12961143070000],
  [0, 754, 1000, 5, 5, 5, 301000000, 126000000000, 272000000000, 0, 813000000, 1060000000, 320000000, 200000000000, 80000000000, 17680002220000],
  [0, 754, 1000, 1, 1, 1, 301000000, 126000000000, 272000000000, 0, 813000000, 1060000000, 320000000, 200000000000, 80000000000, 20324222710000],
  [0, 11000, 1000, 100, 100, 100, 2100000000, 369790000000, 0, 15428504787, 91838800792, 4029090743700, 300000000, 200000000000, 80000000000, 20034044660000],
  [0, 11000, 1000, 50, 50, 50, 2100000000, 369790000000, 0, 15428504787, 91838800792, 4029090743700, 300000000, 200000000000, 80000000000, 62089731680000],
  [0, 11000, 1000, 10, 10, 10, 2100000000, 369790000000, 0, 15428504787, 91838800792, 4029090743700, 300000000, 200000000000, 80000000000, 246020188200000],
  [0, 11000, 1000, 5, 5, 5, 2100000000, 369790000000, 0, 15428504787, 91838800792, 4029090743700, 300000000, 200000000000, 80000000000, 270968352000000],
  [0, 13000, 1000, 100, 100, 100, 1271003036, 453280830003, 220614080619, 0, 158475561880, 306344239388, 300000000, 200000000000, 80000000000, 39290559720000],
  [0, 13000, 1000, 50, 50, 50, 1271003036, 453280830003, 220614080619, 0, 158475561880, 306344239388, 300000000, 200000000000, 80000000000, 152678624100000],
  [0, 13000, 1000, 10, 10, 10, 1271003036, 453280830003, 220614080619, 0, 158475561880, 306344239388, 300000000, 200000000000, 80000000000, 281608625900000],
  [0, 13000, 1000, 5, 5, 5, 1271003036, 453280830003, 220614080619, 0, 158475561880, 306344239388, 300000000, 200000000000, 80000000000, 305154493200000]]

example : tTorsionNone.all (fun row => match row with
  | [s, a, k, lx, ly, lz, rx, ry, xo, yo, j, iw, fy, e, g, x] => result 100000 (torsion s ⟨a, lx, ly, lz, rx, ry, xo, yo, j, iw, e, g⟩ k fy) x
  | _ => false) = true := by decide +kernel

/-- test_s6_1_1_Nc, line 11390; the axes are numbered as above, the switches are 0 or 1: columns axis, An, kf, l, kex, key, kez, rx, ry, xo, yo, J, Iw, fy, E, G, fref, αb, buckling, torsion, φNs, φNcx, φNcy, φNcz, φNc -/
def tMember : List (List ℚ) := table [0, 6, 3, 0, 4, 4, 4, 10, 9, 11, 10, 16, 12, 0, 0, 0, 0, 1, 0, 0, 2, 7, 8, 7, 8] [

  [3, 1890, 1000, 10, 10000, 10000, 10000, 411000000, 24500000, 0, 0, 349000000, 2300, 320000000, 200000000000, 80000000000, 250000000, 0, 1, 1, 54432000, 528461614200, 1955008852000, 422801206100, 1955008852000],
  [3, 1890, 1000, 10, 5000, 5000, 5000, 411000000, 24500000, 0, 0, 349000000, 2300, 320000000, 200000000000, 80000000000, 250000000, 0, 1, 1, 54432000, 1844614689000, 7354648092000, 1691204824000, 7354648092000],
  [3, 1890, 1000, 10, 1000, 1000, 1000, 411000000, 24500000, 0, 0, 349000000, 2300, 320000000, 200000000000, 80000000000, 250000000, 0, 1, 1, 54432000, 5183009481000, 47807215540000, 4275085801000, 42750858010000],
  [3, 1890, 1000, 10, 500, 500, 500, 411000000, 24500000, 0, 0, 349000000, 2300, 320000000, 200000000000, 80000000000, 250000000, 0, 1, 1, 54432000, 5438414112000, 52673382210000, 4500494775000, 45004947750000],
  [3, 57900, 837, 80, 10000, 10000, 10000, 5150000000, 120000000, 0, 0, 220000000000, 280000000, 280000000, 200000000000, 80000000000, 250000000, 5, 1, 1, 1221249960, 33202817940000, 22699512580000, 26596793130000, 22699512580000],
  [3, 57900, 837, 80, 5000, 5000, 5000, 5150000000, 120000000, 0, 0, 220000000000, 280000000, 280000000, 200000000000, 80000000000, 250000000, 5, 1, 1, 1221249960, 78749092070000, 85932763720000, 42154114300000, 85932763720000],
  [3, 57900, 837, 80, 2500, 2500, 2500, 5150000000, 120000000, 0, 0, 220000000000, 280000000, 280000000, 200000000000, 80000000000, 250000000, 5, 1, 1, 1221249960, 107160806100000, 296184149600000, 56746400780000, 296184149600000],
  [3, 57900, 837, 80, 1250, 1250, 1250, 5150000000, 120000000, 0, 0, 220000000000, 280000000, 280000000, 200000000000, 80000000000, 250000000, 5, 1, 1, 1221249960, 118872167000000, 742216654100000, 80009312660000, 742216654100000],
  [3, 57900, 837, 80, 625, 625, 625, 5150000000, 120000000, 0, 0, 220000000000, 280000000, 280000000, 200000000000, 80000000000, 250000000, 5, 1, 1, 1221249960, 122124996000000, 1053573536000000, 95873541350000, 958735413500000],
  [3, 57900, 837, 80, 125, 125, 125, 5150000000, 120000000, 0, 0, 220000000000, 280000000, 280000000, 200000000000, 80000000000, 250000000, 5, 1, 1, 1221249960, 122124996000000, 1221249960000000, 103451619100000, 1034516191000000],
  [0, 1170, 824, 20, 10000, 10000, 10000, 425000000, 16400000, 0, 0, 148000000, 0, 320000000, 200000000000, 80000000000, 250000000, 5, 1, 1, 27765504, 90486047370, 140247768500, 8584827001, 85848270010],
  [0, 1170, 824, 20, 5000, 5000, 5000, 425000000, 16400000, 0, 0, 148000000, 0, 320000000, 200000000000, 80000000000, 250000000, 5, 1, 1, 27765504, 333558984500, 547476182900, 34339308000, 343393080000],
  [0, 1170, 824, 20, 2500, 2500, 2500, 425000000, 16400000, 0, 0, 148000000, 0, 320000000, 200000000000, 80000000000, 250000000, 5, 1, 1, 27765504, 1051817775000, 2067912255000, 137357232000, 1373572320000],
  [0, 1170, 824, 20, 500, 500, 500, 425000000, 16400000, 0, 0, 148000000, 0, 320000000, 200000000000, 80000000000, 250000000, 5, 1, 1, 27765504, 2628108684000, 20245942520000, 1793253065000, 17932530650000],
  [0, 1170, 824, 20, 250, 250, 250, 425000000, 16400000, 0, 0, 148000000, 0, 320000000, 200000000000, 80000000000, 250000000, 5, 1, 1, 27765504, 2776550400000, 25276147230000, 1793253065000, 17932530650000],
  [0, 1170, 824, 20, 50, 50, 50, 425000000, 16400000, 0, 0, 148000000, 0, 320000000, 200000000000, 80000000000, 250000000, 5, 1, 1, 27765504, 2776550400000, 27765504000000, 1793253065000, 17932530650000],
  [1, 2790, 958, 20, 10000, 10000, 10000, 587000000, 29800000, 0, 0, 889000000, 0, 320000000, 200000000000, 80000000000, 250000000, 5, 1, 1, 76977216, 403174566300, 1086232506000, 304913528100, 1086232506000],
  [1, 2790, 958, 20, 5000, 5000, 5000, 587000000, 29800000, 0, 0, 889000000, 0, 320000000, 200000000000, 80000000000, 250000000, 5, 1, 1, 76977216, 1434418660000, 4150049053000, 1219654112000, 4150049053000],
  [1, 2790, 958, 20, 2500, 2500, 2500, 587000000, 29800000, 0, 0, 889000000, 0, 320000000, 200000000000, 80000000000, 250000000, 5, 1, 1, 76977216, 3998646917000, 14725018990000, 3999235785000, 14725018990000],
  [1, 2790, 958, 20, 500, 500, 500, 587000000, 29800000, 0, 0, 889000000, 0, 320000000, 200000000000, 80000000000, 250000000, 5, 1, 1, 76977216, 7490212041000, 67725770100000, 5210629957000, 52106299570000],
  [1, 2790, 958, 20, 250, 250, 250, 587000000, 29800000, 0, 0, 889000000, 0, 320000000, 200000000000, 80000000000, 250000000, 5, 1, 1, 76977216, 7697721600000, 75011782360000, 5210629957000, 52106299570000],
  [1, 2790, 958, 20, 50, 50, 50, 587000000, 29800000, 0, 0, 889000000, 0, 320000000, 200000000000, 80000000000, 250000000, 5, 1, 1, 76977216, 7697721600000, 76977216000000, 5210629957000, 52106299570000],
  [1, 143, 1000, 10, 10000, 10000, 10000, 92200000, 4730000, 0, 0, 5150000, 0, 320000000, 200000000000, 80000000000, 250000000, 5, 1, 1, 4118400, 2166069395, 5765263862, 1609862000, 5765263862],
  [1, 143, 1000, 10, 5000, 5000, 5000, 92200000, 4730000, 0, 0, 5150000, 0, 320000000, 200000000000, 80000000000, 250000000, 5, 1, 1, 4118400, 8450598658, 22788974650, 6439447999, 22788974650],
  [1, 143, 1000, 10, 1000, 1000, 1000, 92200000, 4730000, 0, 0, 5150000, 0, 320000000, 200000000000, 80000000000, 250000000, 5, 1, 1, 4118400, 152609413700, 504004982500, 157578906500, 504004982500],
  [1, 143, 1000, 10, 500, 500, 500, 92200000, 4730000, 0, 0, 5150000, 0, 320000000, 200000000000, 80000000000, 250000000, 5, 1, 1, 4118400, 303702658400, 1582803866000, 286737905600, 1582803866000],
  [1, 143, 1000, 10, 100, 100, 100, 92200000, 4730000, 0, 0, 5150000, 0, 320000000, 200000000000, 80000000000, 250000000, 5, 1, 1, 4118400, 411840000000, 3903288554000, 333018177900, 3330181779000],
  [3, 25100, 1000, 40, 10000, 10000, 10000, 1390000000, 89300000, 0, 0, 57500000000, 4600000, 280000000, 200000000000, 80000000000, 250000000, 0, 1, 1, 632520000, 5067489518000, 21589767330000, 4013969876000, 21589767330000],
  [3, 25100, 1000, 40, 5000, 5000, 5000, 1390000000, 89300000, 0, 0, 57500000000, 4600000, 280000000, 200000000000, 80000000000, 250000000, 0, 1, 1, 632520000, 18091374530000, 81384683320000, 16055879510000, 81384683320000],
  [3, 25100, 1000, 40, 2500, 2500, 2500, 1390000000, 89300000, 0, 0, 57500000000, 4600000, 280000000, 200000000000, 80000000000, 250000000, 0, 1, 1, 632520000, 44745999880000, 271111487600000, 39540254530000, 271111487600000],
  [3, 25100, 1000, 40, 1250, 1250, 1250, 1390000000, 89300000, 0, 0, 57500000000, 4600000, 280000000, 200000000000, 80000000000, 250000000, 0, 1, 1, 632520000, 57726276720000, 514115111200000, 48767883800000, 487678838000000],
  [3, 25100, 1000, 40, 250, 250, 250, 1390000000, 89300000, 0, 0, 57500000000, 4600000, 280000000, 200000000000, 80000000000, 250000000, 0, 1, 1, 632520000, 63252000000000, 632520000000000, 53313604100000, 533136041000000],
  [1, 7030, 1000, 20, 10000, 10000, 10000, 1470000000, 30400000, 5670000000, 0, 4720000000, 151000, 280000000, 200000000000, 80000000000, 250000000, 5, 1, 1, 177156000, 5161027046000, 2840240111000, 4556201536000, 2840240111000],
  [1, 7030, 1000, 20, 5000, 5000, 5000, 1470000000, 30400000, 5670000000, 0, 4720000000, 151000, 280000000, 200000000000, 80000000000, 250000000, 5, 1, 1, 177156000, 11808933060000, 10807998230000, 8436711752000, 10807998230000],
  [1, 7030, 1000, 20, 2500, 2500, 2500, 1470000000, 30400000, 5670000000, 0, 4720000000, 151000, 280000000, 200000000000, 80000000000, 250000000, 5, 1, 1, 177156000, 15695557020000, 37871288050000, 9727991554000, 37871288050000],
  [1, 7030, 1000, 20, 500, 500, 500, 1470000000, 30400000, 5670000000, 0, 4720000000, 151000, 280000000, 200000000000, 80000000000, 250000000, 5, 1, 1, 177156000, 17715600000000, 158057766800000, 14131442270000, 141314422700000],
  [1, 7030, 1000, 20, 250, 250, 250, 1470000000, 30400000, 5670000000, 0, 4720000000, 151000, 280000000, 200000000000, 80000000000, 250000000, 5, 1, 1, 177156000, 17715600000000, 173673313300000, 14799471570000, 147994715700000],
  [3, 16000, 950, 40, 10000, 10000, 10000, 2490000000, 49600000, 0, 0, 15600000000, 3450000, 280000000, 200000000000, 80000000000, 250000000, 0, 1, 1, 383040000, 9460669662000, 4346354761000, 7800331666000, 4346354761000],
  [3, 16000, 950, 40, 5000, 5000, 5000, 2490000000, 49600000, 0, 0, 15600000000, 3450000, 280000000, 200000000000, 80000000000, 250000000, 0, 1, 1, 383040000, 25305259930000, 16851788650000, 13884566330000, 16851788650000],
  [3, 16000, 950, 40, 2500, 2500, 2500, 2490000000, 49600000, 0, 0, 15600000000, 3450000, 280000000, 200000000000, 80000000000, 250000000, 0, 1, 1, 383040000, 34431952090000, 62816878300000, 17399379050000, 62816878300000],
  [3, 16000, 950, 40, 1250, 1250, 1250, 2490000000, 49600000, 0, 0, 15600000000, 3450000, 280000000, 200000000000, 80000000000, 250000000, 0, 1, 1, 383040000, 37377206180000, 197166917800000, 24016170350000, 197166917800000],
  [3, 16000, 950, 40, 250, 250, 250, 2490000000, 49600000, 0, 0, 15600000000, 3450000, 280000000, 200000000000, 80000000000, 250000000, 0, 1, 1, 383040000, 38304000000000, 373663489900000, 31995835970000, 319958359700000],
  [1, 754, 1000, 10, 10000, 10000, 10000, 301000000, 12600000, 2720000000, 0, 81300000, 106, 320000000, 200000000000, 80000000000, 250000000, 5, 1, 1, 21715200, 114555340600, 211419341600, 89075926840, 211419341600],
  [1, 754, 1000, 10, 5000, 5000, 5000, 301000000, 12600000, 2720000000, 0, 81300000, 106, 320000000, 200000000000, 80000000000, 250000000, 5, 1, 1, 21715200, 407293983800, 815583378800, 339476457300, 815583378800],
  [1, 754, 1000, 10, 1000, 1000, 1000, 301000000, 12600000, 2720000000, 0, 81300000, 106, 320000000, 200000000000, 80000000000, 250000000, 5, 1, 1, 21715200, 1905596218000, 11897535610000, 1438483979000, 11897535610000],
  [1, 754, 1000, 10, 500, 500, 500, 301000000, 12600000, 2720000000, 0, 81300000, 106, 320000000, 200000000000, 80000000000, 250000000, 5, 1, 1, 21715200, 2113754361000, 18185465320000, 1619302357000, 16193023570000],
  [1, 754, 1000, 10, 100, 100, 100, 301000000, 12600000, 2720000000, 0, 81300000, 106, 320000000, 200000000000, 80000000000, 250000000, 5, 1, 1, 21715200, 2171520000000, 21715200000000, 1829673872000, 18296738720000],
  [2, 11000, 1000, 10, 10000, 10000, 10000, 2100000000, 36979000, 0, 1542850479, 9183880079, 402900, 300000000, 200000000000, 80000000000, 250000000, 5, 1, 1, 297000000, 23611900080000, 24530978620000, 1807360629000, 18073606290000],
  [2, 11000, 1000, 10, 5000, 5000, 5000, 2100000000, 36979000, 0, 1542850479, 9183880079, 402900, 300000000, 200000000000, 80000000000, 250000000, 5, 1, 1, 297000000, 27826085120000, 82743189850000, 5610131898000, 56101318980000],
  [2, 11000, 1000, 10, 1000, 1000, 1000, 2100000000, 36979000, 0, 1542850479, 9183880079, 402900, 300000000, 200000000000, 80000000000, 250000000, 5, 1, 1, 297000000, 29700000000000, 272935444000000, 22145926420000, 221459264200000],
  [2, 11000, 1000, 10, 500, 500, 500, 2100000000, 36979000, 0, 1542850479, 9183880079, 402900, 300000000, 200000000000, 80000000000, 250000000, 5, 1, 1, 297000000, 29700000000000, 295032021600000, 24388227470000, 243882274700000],
  [1, 13000, 1000, 10, 10000, 10000, 10000, 1271003036, 45328083, 2206140806, 0, 15847556190, 30630, 300000000, 200000000000, 80000000000, 250000000, 5, 1, 1, 351000000, 20049497550000, 42159465670000, 19833174840000, 42159465670000],
  [1, 13000, 1000, 10, 5000, 5000, 5000, 1271003036, 45328083, 2206140806, 0, 15847556190, 30630, 300000000, 200000000000, 80000000000, 250000000, 5, 1, 1, 351000000, 29749346410000, 132947523800000, 23457979460000, 132947523800000],
  [1, 13000, 1000, 10, 1000, 1000, 1000, 1271003036, 45328083, 2206140806, 0, 15847556190, 30630, 300000000, 200000000000, 80000000000, 250000000, 5, 1, 1, 351000000, 35100000000000, 332230342900000, 25345399180000, 253453991800000],
  [1, 13000, 1000, 10, 500, 500, 500, 1271003036, 45328083, 2206140806, 0, 15847556190, 30630, 300000000, 200000000000, 80000000000, 250000000, 5, 1, 1, 351000000, 35100000000000, 351000000000000, 27463977790000, 274639777900000]]

example : tMember.all (fun row => match row with
  | [s, a, k, l, kx, ky, kz, rx, ry, xo, yo, j, iw, fy, e, g, fr, ab, cb, ct, ns, ncx, ncy, ncz, nc] => memberGives s a k l kx ky kz rx ry xo yo j iw fy e g fr ab cb ct ns ncx ncy ncz nc
  | _ => false) = true := by decide +kernel

end BeamDesign.Conformance
