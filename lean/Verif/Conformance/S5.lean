import Verif.Conformance.Tables

/-!
# `tests/test_AS4100_5.py` run on the model, in double precision

Written by tools/conformance.py.
-/

namespace BeamDesign.Conformance

/-- test_s5_2_M_s, line 315: columns Zex, Zey, fy, Msx, Msy -/
def tMs : List (List ℚ) := table [8, 9, 0, 1, 2] [
  [319, 1550, 320000000, 10208, 49600], [15500, 72300, 300000000, 465000, 2169000], [230000, 1040000, 280000000, 6440000, 29120000],
  [1700, 5930, 320000000, 54400, 189760], [639000, 1060000, 280000000, 17892000, 29680000], [684000, 946000, 280000000, 19152000, 26488000],
  [341000, 1510000, 300000000, 10230000, 45300000], [60200, 267000, 280000000, 1685600, 7476000], [63300, 139000, 320000000, 2025600, 4448000],
  [268000, 1210000, 280000000, 7504000, 33880000], [529, 2330, 320000000, 16928, 74560], [1980000, 2560000, 280000000, 55440000, 71680000],
  [15700, 32500, 320000000, 502400, 1040000], [670000, 2970000, 280000000, 18760000, 83160000], [170000, 764000, 280000000, 4760000, 21392000],
  [1920, 8590, 320000000, 61440, 274880], [74700, 318000, 320000000, 2390400, 10176000], [147, 642, 320000000, 4704, 20544],
  [56400, 77200, 340000000, 1917600, 2624800], [494000, 2450000, 360000000, 17784000, 88200000], [195000, 878000, 340000000, 6630000, 29852000],
  [10900, 49600, 340000000, 370600, 1686400], [6760, 20300, 340000000, 229840, 690200], [31900, 61700, 360000000, 1148400, 2221200],
  [107000, 474000, 340000000, 3638000, 16116000], [6990, 31100, 340000000, 237660, 1057400], [1410, 5860, 360000000, 50760, 210960],
  [12900, 38500, 360000000, 464400, 1386000], [22100, 44500, 340000000, 751400, 1513000], [97700, 448000, 340000000, 3321800, 15232000],
  [155000, 684000, 340000000, 5270000, 23256000], [241000, 1070000, 380000000, 9158000, 40660000], [532, 2440, 360000000, 19152, 87840],
  [710000, 3200000, 360000000, 25560000, 115200000], [368000, 515000, 340000000, 12512000, 17510000], [3050, 13600, 360000000, 109800, 489600],
  [18000, 34400, 360000000, 648000, 1238400], [46900, 214000, 340000000, 1594600, 7276000], [759, 3170, 360000000, 27324, 114120],
  [434000, 486000, 380000000, 16492000, 18468000], [866, 3020, 360000000, 31176, 108720], [4290, 20000, 360000000, 154440, 720000],
  [8030, 15600, 360000000, 289080, 561600], [2810000, 5000000, 360000000, 101160000, 180000000], [72900, 163000, 340000000, 2478600, 5542000],
  [1840, 8700, 360000000, 66240, 313200]]

example : tMs.all (fun row => match row with
  | [zx, zy, fy, mx, my] => within 10000 (S5R.Ms ar fy zx) mx && within 10000 (S5R.Ms ar fy zy) my
  | _ => false) = true := by decide +kernel

/-- test_s5_6_1_M_o, line 734: columns le, Iy, J, Iw, E, G, Mo0 -/
def tMo : List (List ℚ) := table [6, 11, 12, 11, 0, 0, 3] [
  [6717480, 2060, 875, 0, 200000000000, 80000000000, 251154], [5001750, 306000, 174000, 0, 200000000000, 80000000000, 57972700],
  [8394800, 10700000, 2520000, 239000, 200000000000, 80000000000, 897126000], [7880960, 10600, 19500, 0, 200000000000, 80000000000, 2292460],
  [8158900, 9710000, 4020000, 1150000, 200000000000, 80000000000, 1381250000],
  [4441180, 8670000, 2990000, 1340000, 200000000000, 80000000000, 3702840000],
  [3398380, 21400000, 3080000, 731000, 200000000000, 80000000000, 7396700000], [7706700, 1490000, 2250000, 0, 200000000000, 80000000000, 298556000],
  [1607490, 765000, 157000, 16500, 200000000000, 80000000000, 899975000],
  [967610, 12500000, 3810000, 286000, 200000000000, 80000000000, 40857900000], [4398610, 2650, 5600, 0, 200000000000, 80000000000, 1100550],
  [3693120, 34200000, 9960000, 11300000, 200000000000, 80000000000, 29135700000], [8878800, 97500, 44800, 680, 200000000000, 80000000000, 9573600],
  [2649630, 52100000, 6370000, 2940000, 200000000000, 80000000000, 35854400000],
  [9018570, 5550000, 5980000, 63000, 200000000000, 80000000000, 815457000], [5865950, 15400, 20000, 0, 200000000000, 80000000000, 3759650],
  [1859710, 2970000, 345000, 41500, 200000000000, 80000000000, 2117280000], [3195890, 469, 1660, 0, 200000000000, 80000000000, 346944],
  [9195540, 404000, 290000, 5820, 200000000000, 80000000000, 48126100],
  [2271020, 28600000, 16500000, 710000, 200000000000, 80000000000, 21022000000],
  [1021590, 9020000, 1630000, 198000, 200000000000, 80000000000, 25712600000], [9135010, 173000, 141000, 0, 200000000000, 80000000000, 21484900],
  [7775460, 58500, 110000, 0, 200000000000, 80000000000, 12964600], [3731830, 255000, 67400, 3670, 200000000000, 80000000000, 61878300],
  [7005310, 4200000, 827000, 60300, 200000000000, 80000000000, 390824000], [6788140, 85700, 110000, 0, 200000000000, 80000000000, 17974000],
  [7903510, 9360, 17600, 0, 200000000000, 80000000000, 2040720], [1086150, 129000, 54900, 459, 200000000000, 80000000000, 161422000],
  [9584500, 165000, 101000, 1060, 200000000000, 80000000000, 17162500], [5636790, 3880000, 586000, 55700, 200000000000, 80000000000, 443184000],
  [2368820, 7290000, 928000, 156000, 200000000000, 80000000000, 3997080000],
  [1186240, 17100000, 1580000, 572000, 200000000000, 80000000000, 44215500000], [7149420, 3030, 2960, 0, 200000000000, 80000000000, 526388],
  [928371, 42700000, 19200000, 1620000, 200000000000, 80000000000, 194387000000],
  [8314830, 3930000, 1560000, 345000, 200000000000, 80000000000, 500557000], [4033200, 28200, 41900, 0, 200000000000, 80000000000, 10710000],
  [8684490, 114000, 38600, 1040, 200000000000, 80000000000, 10012800], [3605360, 1180000, 1060000, 0, 200000000000, 80000000000, 389812000],
  [8109430, 5870, 3870, 0, 200000000000, 80000000000, 738574], [3043440, 4170000, 921000, 628000, 200000000000, 80000000000, 3542300000],
  [4539650, 6660, 4320, 0, 200000000000, 80000000000, 1484790], [9004730, 58200, 31700, 0, 200000000000, 80000000000, 5994190],
  [1058090, 33700, 40200, 114, 200000000000, 80000000000, 55723900], [8294480, 83400000, 22000000, 28000000, 200000000000, 80000000000, 15308400000],
  [2889270, 901000, 233000, 19700, 200000000000, 80000000000, 372767000], [6178740, 18700, 11200, 0, 200000000000, 80000000000, 2943340]]

example : tMo.all (fun row => match row with
  | [le, iy, j, iw, e, g, m] => result 10000 (S5R.Mo ar le iy j iw 0 e g) m
  | _ => false) = true := by decide +kernel

/-- test_s5_6_1_M_o_β_x_rand, line 1202: columns le, Iy, J, Iw, βx, E, G, Mo -/
def tMoBeta : List (List ℚ) := table [6, 11, 12, 11, 8, 0, 0, 3] [
  [6717480, 2060, 875, 0, 12817300, 200000000000, 80000000000, 315458], [5001750, 306000, 174000, 0, -14231400, 200000000000, 80000000000, 43284700],
  [8394800, 10700000, 2520000, 239000, 17844900, 200000000000, 80000000000, 1203540000],
  [7880960, 10600, 19500, 0, 24570300, 200000000000, 80000000000, 2743380],
  [8158900, 9710000, 4020000, 1150000, -14881700, 200000000000, 80000000000, 1183520000],
  [4441180, 8670000, 2990000, 1340000, 19001600, 200000000000, 80000000000, 4617840000],
  [3398380, 21400000, 3080000, 731000, -3089970, 200000000000, 80000000000, 6853160000],
  [7706700, 1490000, 2250000, 0, 22741200, 200000000000, 80000000000, 360126000],
  [1607490, 765000, 157000, 16500, -4318230, 200000000000, 80000000000, 782603000],
  [967610, 12500000, 3810000, 286000, 23283000, 200000000000, 80000000000, 81773600000],
  [4398610, 2650, 5600, 0, 7815510, 200000000000, 80000000000, 1211260],
  [3693120, 34200000, 9960000, 11300000, -18119500, 200000000000, 80000000000, 24994600000],
  [8878800, 97500, 44800, 680, -20392700, 200000000000, 80000000000, 7402670],
  [2649630, 52100000, 6370000, 2940000, 6993280, 200000000000, 80000000000, 41340600000],
  [9018570, 5550000, 5980000, 63000, -17301800, 200000000000, 80000000000, 707217000],
  [5865950, 15400, 20000, 0, 16142300, 200000000000, 80000000000, 4539700],
  [1859710, 2970000, 345000, 41500, -17862000, 200000000000, 80000000000, 1088940000],
  [3195890, 469, 1660, 0, -11678100, 200000000000, 80000000000, 298032],
  [9195540, 404000, 290000, 5820, 4826820, 200000000000, 80000000000, 50455900],
  [2271020, 28600000, 16500000, 710000, -12280800, 200000000000, 80000000000, 15349100000],
  [1021590, 9020000, 1630000, 198000, 4071380, 200000000000, 80000000000, 29419000000],
  [9135010, 173000, 141000, 0, 6114560, 200000000000, 80000000000, 22772400],
  [7775460, 58500, 110000, 0, 21295200, 200000000000, 80000000000, 15156800],
  [3731830, 255000, 67400, 3670, -12592300, 200000000000, 80000000000, 43173800],
  [7005310, 4200000, 827000, 60300, -3829460, 200000000000, 80000000000, 359813000],
  [6788140, 85700, 110000, 0, 11489500, 200000000000, 80000000000, 20206400], [7903510, 9360, 17600, 0, -874274, 200000000000, 80000000000, 2027840],
  [1086150, 129000, 54900, 459, -17345000, 200000000000, 80000000000, 59987800],
  [9584500, 165000, 101000, 1060, 23509100, 200000000000, 80000000000, 21828800],
  [5636790, 3880000, 586000, 55700, 1894660, 200000000000, 80000000000, 466607000],
  [2368820, 7290000, 928000, 156000, 14839400, 200000000000, 80000000000, 6329590000],
  [1186240, 17100000, 1580000, 572000, -24494900, 200000000000, 80000000000, 23707400000],
  [7149420, 3030, 2960, 0, 13268400, 200000000000, 80000000000, 609709],
  [928371, 42700000, 19200000, 1620000, 8937090, 200000000000, 80000000000, 242938000000],
  [8314830, 3930000, 1560000, 345000, 4729890, 200000000000, 80000000000, 527796000],
  [4033200, 28200, 41900, 0, -4300830, 200000000000, 80000000000, 9999430],
  [8684490, 114000, 38600, 1040, -14461900, 200000000000, 80000000000, 8085130],
  [3605360, 1180000, 1060000, 0, 4548350, 200000000000, 80000000000, 432687000],
  [8109430, 5870, 3870, 0, -13133700, 200000000000, 80000000000, 631879],
  [3043440, 4170000, 921000, 628000, 5143910, 200000000000, 80000000000, 3778220000],
  [4539650, 6660, 4320, 0, -13004500, 200000000000, 80000000000, 1126860], [9004730, 58200, 31700, 0, -8562070, 200000000000, 80000000000, 5418260],
  [1058090, 33700, 40200, 114, -13883800, 200000000000, 80000000000, 28081600],
  [8294480, 83400000, 22000000, 28000000, 8208540, 200000000000, 80000000000, 16321900000],
  [2889270, 901000, 233000, 19700, 11020700, 200000000000, 80000000000, 508213000],
  [6178740, 18700, 11200, 0, 18629700, 200000000000, 80000000000, 3978680]]

example : tMoBeta.all (fun row => match row with
  | [le, iy, j, iw, b, e, g, m] => result 10000 (S5R.Mo ar le iy j iw b e g) m
  | _ => false) = true := by decide +kernel

/-- test_s5_6_1_α_m, line 1515: columns Mmax, M2, M3, M4, αm_max, αm -/
def tAlphaM : List (List ℚ) := table [1, 1, 1, 2, 1, 5] [
  [4674690, -4674690, 3098320, -36754000, 25, 118518], [3495100, -1429410, 3495100, -27233300, 25, 127622],
  [3476640, 337893, 399423, 13466500, 25, 250000], [2672630, -793088, -2672630, -17120700, 25, 138878],
  [2328840, 2328840, 1521220, -8345850, 25, 136323], [3445660, -3303260, 3445660, 5793560, 25, 121823],
  [2729600, -2255690, 2729600, -16950700, 25, 118200], [1647260, 1486580, -1511860, 2335000, 25, 131280],
  [2004720, 1853360, -2004720, 13510600, 25, 111879], [4208640, 2997740, 253132, -42086400, 25, 138300],
  [4261300, -1661700, -4261300, -36653400, 25, 123594], [4244650, 1845040, 375895, -24035300, 25, 236334],
  [4078990, -2841700, -3498680, -40789900, 25, 114069], [2878670, -2878670, 2329650, -16689200, 25, 120478],
  [4147630, -4147630, 3545720, -23191300, 25, 118923], [2829950, 2785030, -2829950, 2201480, 25, 120980],
  [4789690, 4789690, -3358970, 23488100, 25, 129163], [4003840, -1982910, 1651040, -40038400, 25, 142896],
  [992535, 992535, -946127, -426201, 25, 122991], [1893870, 657249, -10143, 18938700, 25, 160601],
  [4607240, 4320010, -3458960, 46072400, 25, 108768], [4868890, 3280030, 4868890, -12729700, 25, 137789],
  [2911280, 1451760, -2885770, 29112800, 25, 113809], [3045590, -3045590, 1609390, -6424440, 25, 147757],
  [4676000, -4438040, -3100010, 42775900, 25, 115213], [3603350, 3603350, 285896, 3945250, 25, 168467],
  [4886520, -4886520, -1608570, -13363500, 25, 156289], [4967920, 1884320, -4967920, -21838200, 25, 147017],
  [3865040, -3508440, -2976850, -38650400, 25, 109344], [4576670, 4576670, -355650, -22425000, 25, 152289],
  [4396450, -2794320, -708319, -24660800, 25, 197015], [3930750, 563936, 2239770, 39307500, 25, 146570],
  [903782, 285457, 425752, 9037820, 25, 147872], [3932860, -354995, 347805, -14994100, 25, 250000],
  [4408490, -2143870, -4408490, 16564700, 25, 144836], [3289200, 1908450, 3289200, 23278100, 25, 125411],
  [4567750, 4567750, -2314850, 42541100, 25, 116641], [4129640, -1898780, -3962100, -41296400, 25, 116430],
  [4015560, -1258640, 1415390, -36455100, 25, 166167], [4612760, -1910550, 4612760, -44443500, 25, 117315],
  [4659650, 3612560, -1166950, 18759700, 25, 187065], [4856490, -2806880, 4856490, -22944300, 25, 136229],
  [2697580, 2697580, 448760, 25347900, 25, 122988], [2766270, 1458440, 2766270, -12399000, 25, 139793],
  [4302860, 493166, 3959370, -43028600, 25, 124655], [4855660, -3663160, -2529890, 30597100, 25, 152809]]

example : tAlphaM.all (fun row => match row with
  | [m, m2, m3, m4, cap, a] => result 10000 (S5R.alphaM ar m m2 m3 m4 cap) a
  | _ => false) = true := by decide +kernel

/-- test_s5_6_α_s, line 1729: columns Mo, Ms, αs -/
def tAlphaS : List (List ℚ) := table [3, 1, 6] [
  [315458, 10208, 260634], [43284700, 465000, 578325], [1203540000, 6440000, 766640], [2743380, 54400, 389961], [1183520000, 17892000, 472346],
  [4617840000, 19152000, 819764], [6853160000, 10230000, 953518], [360126000, 1685600, 795673], [782603000, 2025600, 895473],
  [81773600000, 7504000, 1033740], [1211260, 16928, 496810], [24994600000, 55440000, 914632], [7402670, 502400, 130520],
  [41340600000, 18760000, 1012360], [707217000, 4760000, 711100], [4539700, 61440, 506828], [1088940000, 2390400, 915833], [298032, 4704, 458986],
  [50455900, 1917600, 225644], [15349100000, 17784000, 972035], [29419000000, 6630000, 1025800], [22772400, 370600, 449544],
  [15156800, 229840, 471391], [43173800, 1148400, 308530], [359813000, 3638000, 596690], [20206400, 237660, 550490], [2027840, 50760, 324491],
  [59987800, 464400, 673818], [21828800, 751400, 246721], [466607000, 3321800, 696445], [6329590000, 5270000, 990475],
  [23707400000, 9158000, 1016310], [609709, 19152, 267530], [242938000000, 25560000, 1032940], [527796000, 12512000, 339203],
  [9999430, 109800, 571637], [8085130, 648000, 111012], [432687000, 1594600, 841374], [631879, 27324, 200390], [3778220000, 16492000, 809823],
  [1126860, 31176, 298472], [5418260, 154440, 290993], [28081600, 289080, 591268], [16321900000, 101160000, 731892], [508213000, 2478600, 787018],
  [3978680, 66240, 442550]]

example : tAlphaS.all (fun row => match row with
  | [mo, ms, a] => result 10000 (S5R.alphaS ar ms mo) a
  | _ => false) = true := by decide +kernel

/-- test_s5_6_3_k_t, line 2411; restraints are numbered: columns code, d1, l, tf, tw, nw, kt -/
def tKt : List (List ℚ) := table [0, 4, 4, 4, 4, 0, 5] [
  [5, 2776, 21300, 217, 138, 1, 106333], [5, 6600, 67380, 280, 100, 1, 126878], [1, 7600, 20000, 250, 100, 1, 174204],
  [1, 3500, 88520, 200, 200, 1, 100494], [0, 2836, 64650, 102, 61, 1, 100000], [6, 2770, 49290, 250, 157, 1, 102836],
  [4, 11200, 34660, 320, 160, 1, 164627], [4, 1590, 47260, 80, 50, 1, 103445], [4, 4500, 7918, 250, 200, 1, 127751],
  [0, 1810, 49550, 320, 250, 1, 100000], [7, 2258, 9534, 106, 106, 1, 100000], [5, 2680, 24010, 160, 80, 1, 111161],
  [0, 2750, 89970, 400, 280, 1, 100000], [5, 2776, 43740, 187, 119, 1, 103078], [5, 2320, 44720, 80, 50, 1, 102656],
  [5, 2254, 91180, 143, 143, 1, 100309], [3, 1310, 58710, 95, 60, 1, 100000], [6, 1760, 56140, 120, 60, 1, 103135],
  [1, 2256, 58430, 142, 86, 1, 102173], [7, 2772, 49300, 154, 99, 1, 100000], [2, 3500, 75370, 160, 160, 1, 100000],
  [1, 3500, 74590, 400, 280, 1, 101710], [5, 5728, 8461, 196, 119, 1, 137812], [7, 1840, 3416, 70, 45, 1, 100000],
  [3, 7600, 59720, 160, 100, 1, 100000], [2, 1080, 10490, 85, 50, 1, 100000], [2, 11200, 53480, 400, 160, 1, 100000],
  [5, 2834, 67450, 118, 67, 1, 102869], [5, 1810, 46710, 110, 73, 1, 101657], [5, 2348, 19610, 86, 61, 1, 104194],
  [3, 4500, 2604, 320, 250, 1, 100000], [4, 4280, 90170, 160, 99, 1, 105009], [0, 880, 29310, 60, 40, 1, 100000],
  [1, 2254, 58980, 173, 105, 1, 102137], [5, 4280, 78740, 145, 91, 1, 102749], [7, 866, 81990, 67, 42, 1, 100000],
  [0, 2342, 45050, 109, 64, 1, 100000], [6, 3500, 22960, 250, 200, 1, 103722], [6, 1590, 3582, 70, 45, 1, 120887],
  [1, 11200, 35980, 250, 160, 1, 114845], [4, 3326, 18250, 97, 69, 1, 112661], [7, 2750, 27400, 360, 280, 1, 100000],
  [5, 2776, 21300, 217, 138, 3, 102111], [5, 6600, 67380, 280, 100, 1, 126878], [1, 7600, 20000, 250, 100, 2, 137102],
  [1, 3500, 88520, 200, 200, 1, 100494], [0, 2836, 64650, 102, 61, 2, 100000], [6, 2770, 49290, 250, 157, 3, 100945],
  [4, 1590, 47260, 80, 50, 3, 101148], [4, 4500, 7918, 250, 200, 3, 109250], [0, 1810, 49550, 320, 250, 3, 100000],
  [7, 2258, 9534, 106, 106, 1, 100000], [5, 2680, 24010, 160, 80, 3, 103720], [0, 2750, 89970, 400, 280, 3, 100000],
  [5, 2776, 43740, 187, 119, 2, 101539], [5, 2254, 91180, 143, 143, 3, 100103], [3, 1310, 58710, 95, 60, 2, 100000],
  [6, 1760, 56140, 120, 60, 3, 101045], [1, 2256, 58430, 142, 86, 1, 102173], [7, 2772, 49300, 154, 99, 1, 100000],
  [2, 3500, 75370, 160, 160, 1, 100000], [5, 5728, 8461, 196, 119, 2, 118906], [7, 1840, 3416, 70, 45, 2, 100000],
  [3, 7600, 59720, 160, 100, 1, 100000], [2, 1080, 10490, 85, 50, 3, 100000], [2, 11200, 53480, 400, 160, 2, 100000],
  [5, 2834, 67450, 118, 67, 1, 102869], [5, 1810, 46710, 110, 73, 3, 100552], [5, 2348, 19610, 86, 61, 3, 101398],
  [3, 4500, 2604, 320, 250, 3, 100000], [0, 880, 29310, 60, 40, 1, 100000], [1, 2254, 58980, 173, 105, 2, 101068],
  [5, 4280, 78740, 145, 91, 2, 101374], [7, 866, 81990, 67, 42, 2, 100000], [0, 2342, 45050, 109, 64, 1, 100000],
  [6, 3500, 22960, 250, 200, 3, 101241], [6, 1590, 3582, 70, 45, 1, 120887], [1, 11200, 35980, 250, 160, 1, 114845],
  [7, 1360, 80260, 70, 50, 3, 100000], [7, 2750, 27400, 360, 280, 3, 100000]]

example : tKt.all (fun row => match row with
  | [c, d1, l, tf, tw, nw, k] => result 10000 (S5R.kt ar d1 l tf tw nw (restraint c)) k
  | _ => false) = true := by decide +kernel

/-- test_s5_6_3_l_e, line 2935: columns l, kt, kl, kr, le -/
def tLe : List (List ℚ) := table [6, 4, 1, 2, 6] [
  [2130340, 10633, 10, 100, 2265260], [6737950, 12688, 20, 100, 17098000], [2000410, 17420, 14, 85, 4146900], [8851610, 10049, 20, 100, 17790700],
  [6464650, 10000, 14, 85, 7692930], [4929360, 10284, 20, 85, 8617580], [3466030, 16463, 14, 85, 6790170], [4725630, 10345, 14, 85, 5817250],
  [791790, 12775, 20, 85, 1719580], [4954950, 10000, 20, 70, 6936920], [953414, 10000, 10, 100, 953414], [2401150, 11116, 14, 85, 3176280],
  [8996750, 10000, 20, 100, 17993500], [4374330, 10308, 20, 85, 7665280], [4471630, 10266, 20, 85, 7803700], [9118400, 10031, 14, 70, 8963640],
  [5871250, 10000, 20, 85, 9981130], [5614250, 10313, 20, 85, 9843430], [5843140, 10217, 10, 100, 5970080], [4930050, 10000, 14, 85, 5866760],
  [7537310, 10000, 20, 100, 15074600], [7459130, 10171, 14, 85, 9028150], [846077, 13781, 14, 70, 1142680], [341592, 10000, 10, 100, 341592],
  [5971920, 10000, 10, 100, 5971920], [1049030, 10000, 14, 70, 1028050], [5347570, 10000, 20, 85, 9090870], [6745150, 10287, 10, 85, 5897870],
  [4670740, 10166, 20, 85, 8071860], [1961180, 10419, 20, 85, 3473830], [260397, 10000, 10, 70, 182278], [9017460, 10501, 10, 85, 8048770],
  [2931180, 10000, 14, 85, 3488100], [5897880, 10214, 10, 85, 5120310], [7873510, 10275, 14, 85, 9627040], [8198910, 10000, 14, 70, 8034940],
  [4504960, 10000, 10, 85, 3829220], [2295880, 10372, 20, 100, 4762660], [358172, 12089, 14, 70, 424323], [3597500, 11485, 14, 70, 4048930],
  [1824580, 11266, 20, 70, 2877820], [2739990, 10000, 10, 100, 2739990], [2130340, 10211, 14, 85, 2588630], [6737950, 12688, 14, 70, 8378010],
  [2000410, 13710, 20, 100, 5485200], [8851610, 10049, 20, 100, 17790700], [6464650, 10000, 14, 85, 7692930], [4929360, 10095, 10, 100, 4975960],
  [4725630, 10115, 10, 85, 4062910], [791790, 10925, 14, 85, 1029390], [4954950, 10000, 14, 100, 6936920], [953414, 10000, 10, 70, 667390],
  [2401150, 10372, 20, 70, 3486670], [8996750, 10000, 14, 70, 8816820], [4374330, 10154, 14, 100, 6218330], [9118400, 10010, 20, 100, 18255600],
  [5871250, 10000, 20, 85, 9981130], [5614250, 10104, 10, 100, 5672920], [5843140, 10217, 20, 85, 10149100], [4930050, 10000, 10, 85, 4190540],
  [7537310, 10000, 20, 100, 15074600], [846077, 11891, 20, 100, 2012070], [341592, 10000, 10, 70, 239114], [5971920, 10000, 14, 85, 7106590],
  [1049030, 10000, 20, 100, 2098060], [5347570, 10000, 14, 85, 6363610], [6745150, 10287, 10, 70, 4857070], [4670740, 10055, 10, 100, 4696550],
  [1961180, 10140, 10, 85, 1690310], [260397, 10000, 14, 70, 255189], [2931180, 10000, 20, 85, 4983000], [5897880, 10107, 14, 70, 5841670],
  [7873510, 10137, 14, 70, 7822100], [8198910, 10000, 20, 70, 11478500], [4504960, 10000, 14, 100, 6306950], [2295880, 10124, 20, 100, 4648730],
  [358172, 12089, 14, 100, 606176], [3597500, 11485, 10, 100, 4131560], [8025500, 10000, 20, 100, 16051000], [2739990, 10000, 10, 100, 2739990]]

example : tLe.all (fun row => match row with
  | [l, kt, kl, kr, le] => within 10000 (S5R.le ar kt kl kr l) le
  | _ => false) = true := by decide +kernel

/-- test_s5_6_1_Mb, line 3194: columns αs, αm, Ms, Mb -/
def tMb : List (List ℚ) := table [6, 5, 1, 3] [
  [260634, 118518, 10208, 315323], [578325, 127622, 465000, 34320100], [766640, 250000, 6440000, 1234290000], [389961, 138878, 54400, 2946130],
  [472346, 136323, 17892000, 1152090000], [819764, 121823, 19152000, 1912640000], [953518, 118200, 10230000, 1152980000],
  [795673, 131280, 1685600, 176071000], [895473, 111879, 2025600, 202933000], [1033740, 138300, 7504000, 1072820000],
  [496810, 123594, 16928, 1039430], [914632, 236334, 55440000, 11983800000], [130520, 114069, 502400, 7479890],
  [1012360, 120478, 18760000, 2288100000], [711100, 118923, 4760000, 402535000], [506828, 120980, 61440, 3767260],
  [915833, 129163, 2390400, 282765000], [458986, 142896, 4704, 308524], [225644, 122991, 1917600, 53217600], [972035, 160601, 17784000, 2776270000],
  [1025800, 108768, 6630000, 739734000], [449544, 137789, 370600, 22955800], [471391, 113809, 229840, 12330600], [308530, 147757, 1148400, 52352700],
  [596690, 115213, 3638000, 250099000], [550490, 168467, 237660, 22040500], [324491, 156289, 50760, 2574270], [673818, 147017, 464400, 46004600],
  [246721, 109344, 751400, 20270800], [696445, 152289, 3321800, 352313000], [990475, 197015, 5270000, 1028380000],
  [1016310, 146570, 9158000, 1364180000], [267530, 147872, 19152, 757658], [1032940, 250000, 25560000, 6600470000],
  [339203, 144836, 12512000, 614697000], [571637, 125411, 109800, 7871480], [111012, 116641, 648000, 8390640], [841374, 116430, 1594600, 156208000],
  [200390, 166167, 27324, 909840], [809823, 117315, 16492000, 1566810000], [298472, 187065, 31176, 1740670], [290993, 136229, 154440, 6122270],
  [591268, 122988, 289080, 21021500], [731892, 139793, 101160000, 10350000000], [787018, 124655, 2478600, 243165000],
  [442550, 152809, 66240, 4479520]]

example : tMb.all (fun row => match row with
  | [s, m, ms, mb] => within 10000 (S5R.Mb ar ms m s) mb
  | _ => false) = true := by decide +kernel

end BeamDesign.Conformance
