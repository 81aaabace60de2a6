import Verif.Conformance.Tables

/-!
# `tests/test_AS4100_6.py` run on the model, in double precision: all but the member capacity

Written by tools/conformance.py.
-/

namespace BeamDesign.Conformance

/-- test_s6_2_A_e, line 191: columns An, kf, Ae -/
def tAe : List (List ℚ) := table [6, 3, 8] [
  [1890, 1000, 189000], [1890, 1000, 189000], [1890, 1000, 189000], [1890, 1000, 189000], [57900, 837, 4846230], [57900, 837, 4846230],
  [57900, 837, 4846230], [57900, 837, 4846230], [57900, 837, 4846230], [57900, 837, 4846230], [1170, 824, 96408], [1170, 824, 96408],
  [1170, 824, 96408], [1170, 824, 96408], [1170, 824, 96408], [1170, 824, 96408], [2790, 958, 267282], [2790, 958, 267282], [2790, 958, 267282],
  [2790, 958, 267282], [2790, 958, 267282], [2790, 958, 267282], [143, 1000, 14300], [143, 1000, 14300], [143, 1000, 14300], [143, 1000, 14300],
  [143, 1000, 14300], [25100, 1000, 2510000], [25100, 1000, 2510000], [25100, 1000, 2510000], [25100, 1000, 2510000], [25100, 1000, 2510000],
  [7030, 1000, 703000], [7030, 1000, 703000], [7030, 1000, 703000], [7030, 1000, 703000], [7030, 1000, 703000], [16000, 950, 1520000],
  [16000, 950, 1520000], [16000, 950, 1520000], [16000, 950, 1520000], [16000, 950, 1520000], [754, 1000, 75400], [754, 1000, 75400],
  [754, 1000, 75400], [754, 1000, 75400], [754, 1000, 75400], [11000, 1000, 1100000], [11000, 1000, 1100000], [11000, 1000, 1100000],
  [11000, 1000, 1100000], [13000, 1000, 1300000], [13000, 1000, 1300000], [13000, 1000, 1300000], [13000, 1000, 1300000]]

example : tAe.all (fun row => match row with
  | [a, k, ae] => within 100000 (S6R.Ae ar a k) ae
  | _ => false) = true := by decide +kernel

/-- test_s6_2_N_s, line 437: columns An, kf, fy, Ns -/
def tNs : List (List ℚ) := table [6, 3, 0, 1] [
  [1890, 1000, 320000000, 6048000], [1890, 1000, 320000000, 6048000], [1890, 1000, 320000000, 6048000], [1890, 1000, 320000000, 6048000],
  [57900, 837, 280000000, 135694440], [57900, 837, 280000000, 135694440], [57900, 837, 280000000, 135694440], [57900, 837, 280000000, 135694440],
  [57900, 837, 280000000, 135694440], [57900, 837, 280000000, 135694440], [1170, 824, 320000000, 3085056], [1170, 824, 320000000, 3085056],
  [1170, 824, 320000000, 3085056], [1170, 824, 320000000, 3085056], [1170, 824, 320000000, 3085056], [1170, 824, 320000000, 3085056],
  [2790, 958, 320000000, 8553024], [2790, 958, 320000000, 8553024], [2790, 958, 320000000, 8553024], [2790, 958, 320000000, 8553024],
  [2790, 958, 320000000, 8553024], [2790, 958, 320000000, 8553024], [143, 1000, 320000000, 457600], [143, 1000, 320000000, 457600],
  [143, 1000, 320000000, 457600], [143, 1000, 320000000, 457600], [143, 1000, 320000000, 457600], [25100, 1000, 280000000, 70280000],
  [25100, 1000, 280000000, 70280000], [25100, 1000, 280000000, 70280000], [25100, 1000, 280000000, 70280000], [25100, 1000, 280000000, 70280000],
  [7030, 1000, 280000000, 19684000], [7030, 1000, 280000000, 19684000], [7030, 1000, 280000000, 19684000], [7030, 1000, 280000000, 19684000],
  [7030, 1000, 280000000, 19684000], [16000, 950, 280000000, 42560000], [16000, 950, 280000000, 42560000], [16000, 950, 280000000, 42560000],
  [16000, 950, 280000000, 42560000], [16000, 950, 280000000, 42560000], [754, 1000, 320000000, 2412800], [754, 1000, 320000000, 2412800],
  [754, 1000, 320000000, 2412800], [754, 1000, 320000000, 2412800], [754, 1000, 320000000, 2412800], [11000, 1000, 300000000, 33000000],
  [11000, 1000, 300000000, 33000000], [11000, 1000, 300000000, 33000000], [11000, 1000, 300000000, 33000000], [13000, 1000, 300000000, 39000000],
  [13000, 1000, 300000000, 39000000], [13000, 1000, 300000000, 39000000], [13000, 1000, 300000000, 39000000]]

example : tNs.all (fun row => match row with
  | [a, k, fy, n] => within 100000 (S6R.Ns ar (S6R.Ae ar a k) fy) n
  | _ => false) = true := by decide +kernel

/-- test_N_euler, line 903: columns E, Ix, lex, Iy, ley, Neuler_x, Neuler_y -/
def tEuler : List (List ℚ) := table [0, 12, 1, 13, 1, 6, 7] [
  [200000000000, 3180000, 100, 11400000, 100, 62770684000, 225026980000], [200000000000, 3180000, 50, 11400000, 50, 251082736000, 900107921000],
  [200000000000, 3180000, 10, 11400000, 10, 6277068400000, 22502698000000], [200000000000, 3180000, 5, 11400000, 5, 25108273600000, 90010792100000],
  [200000000000, 15300000000, 800, 8340000000, 800, 4718904600000, 2572265650000],
  [200000000000, 15300000000, 400, 8340000000, 400, 18875618400000, 10289062600000],
  [200000000000, 15300000000, 200, 8340000000, 200, 75502473700000, 41156250400000],
  [200000000000, 15300000000, 100, 8340000000, 100, 302009895000000, 164625001000000],
  [200000000000, 15300000000, 50, 8340000000, 50, 1208039580000000, 658500006000000],
  [200000000000, 15300000000, 10, 8340000000, 10, 30200989500000000, 16462500100000000],
  [200000000000, 2100000, 200, 3150000, 200, 10363084600, 15544626900], [200000000000, 2100000, 100, 3150000, 100, 41452338500, 62178507700],
  [200000000000, 2100000, 50, 3150000, 50, 165809354000, 248714031000], [200000000000, 2100000, 10, 3150000, 10, 4145233850000, 6217850770000],
  [200000000000, 2100000, 5, 3150000, 5, 16580935400000, 24871403100000], [200000000000, 2100000, 1, 3150000, 1, 414523385000000, 621785077000000],
  [200000000000, 9610000, 200, 24800000, 200, 47423449100, 122383095000], [200000000000, 9610000, 100, 24800000, 100, 189693797000, 489532378000],
  [200000000000, 9610000, 50, 24800000, 50, 758775186000, 1958129510000], [200000000000, 9610000, 10, 24800000, 10, 18969379700000, 48953237800000],
  [200000000000, 9610000, 5, 24800000, 5, 75877518600000, 195812951000000],
  [200000000000, 9610000, 1, 24800000, 1, 1896937970000000, 4895323780000000], [200000000000, 12100, 100, 31900, 100, 238844427, 629680761],
  [200000000000, 12100, 50, 31900, 50, 955377706, 2518723040], [200000000000, 12100, 10, 31900, 10, 23884442700, 62968076100],
  [200000000000, 12100, 5, 31900, 5, 95537770600, 251872304000], [200000000000, 12100, 1, 31900, 1, 2388444270000, 6296807610000],
  [200000000000, 486000000, 400, 2000000000, 400, 599578467000, 2467401100000],
  [200000000000, 486000000, 200, 2000000000, 200, 2398313870000, 9869604400000],
  [200000000000, 486000000, 100, 2000000000, 100, 9593255480000, 39478417600000],
  [200000000000, 486000000, 50, 2000000000, 50, 38373021900000, 157913670000000],
  [200000000000, 486000000, 10, 2000000000, 10, 959325548000000, 3947841760000000],
  [200000000000, 152000000, 200, 64800000, 200, 750089934000, 319775183000],
  [200000000000, 152000000, 100, 64800000, 100, 3000359740000, 1279100730000],
  [200000000000, 152000000, 50, 64800000, 50, 12001439000000, 5116402920000],
  [200000000000, 152000000, 10, 64800000, 10, 300035974000000, 127910073000000],
  [200000000000, 152000000, 5, 64800000, 5, 1200143900000000, 511640292000000],
  [200000000000, 986000000, 400, 393000000, 400, 1216428740000, 484844316000],
  [200000000000, 986000000, 200, 393000000, 200, 4865714970000, 1939377260000],
  [200000000000, 986000000, 100, 393000000, 100, 19462859900000, 7757509060000],
  [200000000000, 986000000, 50, 393000000, 50, 77851439500000, 31030036200000],
  [200000000000, 986000000, 10, 393000000, 10, 1946285990000000, 775750906000000],
  [200000000000, 683000, 100, 1200000, 100, 13481879600, 23687050600], [200000000000, 683000, 50, 1200000, 50, 53927518400, 94748202300],
  [200000000000, 683000, 10, 1200000, 10, 1348187960000, 2368705060000], [200000000000, 683000, 5, 1200000, 5, 5392751840000, 9474820230000],
  [200000000000, 683000, 1, 1200000, 1, 134818796000000, 236870506000000],
  [200000000000, 485384848, 100, 150416667, 100, 9581112870000, 2969105990000],
  [200000000000, 485384848, 50, 150416667, 50, 38324451500000, 11876424000000],
  [200000000000, 485384848, 10, 150416667, 10, 958111287000000, 296910599000000],
  [200000000000, 485384848, 5, 150416667, 5, 3832445150000000, 1187642400000000],
  [200000000000, 210008333, 100, 267102564, 100, 4145398340000, 5272393280000],
  [200000000000, 210008333, 50, 267102564, 50, 16581593400000, 21089573100000],
  [200000000000, 210008333, 10, 267102564, 10, 414539834000000, 527239328000000],
  [200000000000, 210008333, 5, 267102564, 5, 1658159340000000, 2108957310000000]]

example : tEuler.all (fun row => match row with
  | [e, ix, lx, iy, ly, nx, ny] => result 100000 (S6R.NEuler ar e ix lx) nx && result 100000 (S6R.NEuler ar e iy ly) ny
  | _ => false) = true := by decide +kernel

/-- test_f_euler, line 1329: columns E, lex, rx, ley, ry, feuler_x, feuler_y -/
def tFEuler : List (List ℚ) := table [0, 1, 9, 1, 9, 2, 3] [
  [200000000000, 100, 41100000, 100, 24500000, 3334366890, 11848460100], [200000000000, 50, 41100000, 50, 24500000, 13337467600, 47393840300],
  [200000000000, 10, 41100000, 10, 24500000, 333436689000, 1184846010000], [200000000000, 5, 41100000, 5, 24500000, 1333746760000, 4739384030000],
  [200000000000, 800, 515000000, 800, 120000000, 8180205710, 4441321980], [200000000000, 400, 515000000, 400, 120000000, 32720822800, 17765287900],
  [200000000000, 200, 515000000, 200, 120000000, 130883291000, 71061151700],
  [200000000000, 100, 515000000, 100, 120000000, 523533165000, 284244607000],
  [200000000000, 50, 515000000, 50, 120000000, 2094132660000, 1136978430000],
  [200000000000, 10, 515000000, 10, 120000000, 52353316500000, 28424460700000], [200000000000, 200, 42500000, 200, 16400000, 891348647, 1327264400],
  [200000000000, 100, 42500000, 100, 16400000, 3565394590, 5309057600], [200000000000, 50, 42500000, 50, 16400000, 14261578400, 21236230400],
  [200000000000, 10, 42500000, 10, 16400000, 356539459000, 530905760000], [200000000000, 5, 42500000, 5, 16400000, 1426157840000, 2123623040000],
  [200000000000, 1, 42500000, 1, 16400000, 35653945900000, 53090576000000], [200000000000, 200, 58700000, 200, 29800000, 1700379860, 4382301750],
  [200000000000, 100, 58700000, 100, 29800000, 6801519440, 17529207000], [200000000000, 50, 58700000, 50, 29800000, 27206077800, 70116827900],
  [200000000000, 10, 58700000, 10, 29800000, 680151944000, 1752920700000], [200000000000, 5, 58700000, 5, 29800000, 2720607780000, 7011682790000],
  [200000000000, 1, 58700000, 1, 29800000, 68015194400000, 175292070000000], [200000000000, 100, 9220000, 100, 4730000, 167799856, 441623345],
  [200000000000, 50, 9220000, 50, 4730000, 671199423, 1766493380], [200000000000, 10, 9220000, 10, 4730000, 16779985600, 44162334500],
  [200000000000, 5, 9220000, 5, 4730000, 67119942300, 176649338000], [200000000000, 1, 9220000, 1, 4730000, 1677998560000, 4416233450000],
  [200000000000, 400, 139000000, 400, 89300000, 2383632830, 9838132700], [200000000000, 200, 139000000, 200, 89300000, 9534531330, 39352530800],
  [200000000000, 100, 139000000, 100, 89300000, 38138125300, 157410123000], [200000000000, 50, 139000000, 50, 89300000, 152552501000, 629640493000],
  [200000000000, 10, 139000000, 10, 89300000, 3813812530000, 15741012300000], [200000000000, 200, 147000000, 200, 30400000, 10663614100, 4560546800],
  [200000000000, 100, 147000000, 100, 30400000, 42654456300, 18242187200], [200000000000, 50, 147000000, 50, 30400000, 170617825000, 72968748800],
  [200000000000, 10, 147000000, 10, 30400000, 4265445630000, 1824218720000],
  [200000000000, 5, 147000000, 5, 30400000, 17061782500000, 7296874880000], [200000000000, 400, 249000000, 400, 49600000, 7649066780, 3035100750],
  [200000000000, 200, 249000000, 200, 49600000, 30596267100, 12140403000], [200000000000, 100, 249000000, 100, 49600000, 122385068000, 48561611900],
  [200000000000, 50, 249000000, 50, 49600000, 489540274000, 194246448000],
  [200000000000, 10, 249000000, 10, 49600000, 12238506800000, 4856161190000], [200000000000, 100, 30100000, 100, 12600000, 1788392060, 3133796790],
  [200000000000, 50, 30100000, 50, 12600000, 7153568230, 12535187200], [200000000000, 10, 30100000, 10, 12600000, 178839206000, 313379679000],
  [200000000000, 5, 30100000, 5, 12600000, 715356823000, 1253518720000], [200000000000, 1, 30100000, 1, 12600000, 17883920600000, 31337967900000],
  [200000000000, 100, 210000000, 100, 36979000, 87049910800, 26992310800], [200000000000, 50, 210000000, 50, 36979000, 348199643000, 107969243000],
  [200000000000, 10, 210000000, 10, 36979000, 8704991080000, 2699231080000],
  [200000000000, 5, 210000000, 5, 36979000, 34819964300000, 10796924300000], [200000000000, 100, 127100304, 100, 45328083, 31887679500, 40556871400],
  [200000000000, 50, 127100304, 50, 45328083, 127550718000, 162227486000], [200000000000, 10, 127100304, 10, 45328083, 3188767950000, 4055687140000],
  [200000000000, 5, 127100304, 5, 45328083, 12755071800000, 16222748600000]]

example : tFEuler.all (fun row => match row with
  | [e, lx, rx, ly, ry, fx, fy] => result 100000 (S6R.fEuler ar e lx rx) fx && result 100000 (S6R.fEuler ar e ly ry) fy
  | _ => false) = true := by decide +kernel

/-- test_r_ol, line 1639: columns rx, ry, xo, yo, rol -/
def tRol : List (List ℚ) := table [9, 9, 10, 9, 10] [
  [41100000, 24500000, 0, 0, 478483020], [41100000, 24500000, 0, 0, 478483020], [41100000, 24500000, 0, 0, 478483020],
  [41100000, 24500000, 0, 0, 478483020], [515000000, 120000000, 0, 0, 5287958020], [515000000, 120000000, 0, 0, 5287958020],
  [515000000, 120000000, 0, 0, 5287958020], [515000000, 120000000, 0, 0, 5287958020], [515000000, 120000000, 0, 0, 5287958020],
  [515000000, 120000000, 0, 0, 5287958020], [42500000, 16400000, 0, 0, 455544729], [42500000, 16400000, 0, 0, 455544729],
  [42500000, 16400000, 0, 0, 455544729], [42500000, 16400000, 0, 0, 455544729], [42500000, 16400000, 0, 0, 455544729],
  [42500000, 16400000, 0, 0, 455544729], [58700000, 29800000, 0, 0, 658310717], [58700000, 29800000, 0, 0, 658310717],
  [58700000, 29800000, 0, 0, 658310717], [58700000, 29800000, 0, 0, 658310717], [58700000, 29800000, 0, 0, 658310717],
  [58700000, 29800000, 0, 0, 658310717], [9220000, 4730000, 0, 0, 103624949], [9220000, 4730000, 0, 0, 103624949],
  [9220000, 4730000, 0, 0, 103624949], [9220000, 4730000, 0, 0, 103624949], [9220000, 4730000, 0, 0, 103624949],
  [139000000, 89300000, 0, 0, 1652134680], [139000000, 89300000, 0, 0, 1652134680], [139000000, 89300000, 0, 0, 1652134680],
  [139000000, 89300000, 0, 0, 1652134680], [139000000, 89300000, 0, 0, 1652134680], [147000000, 30400000, 567000000, 0, 1604619890],
  [147000000, 30400000, 567000000, 0, 1604619890], [147000000, 30400000, 567000000, 0, 1604619890], [147000000, 30400000, 567000000, 0, 1604619890],
  [147000000, 30400000, 567000000, 0, 1604619890], [249000000, 49600000, 0, 0, 2538920240], [249000000, 49600000, 0, 0, 2538920240],
  [249000000, 49600000, 0, 0, 2538920240], [249000000, 49600000, 0, 0, 2538920240], [249000000, 49600000, 0, 0, 2538920240],
  [30100000, 12600000, 272000000, 0, 424807015], [30100000, 12600000, 272000000, 0, 424807015], [30100000, 12600000, 272000000, 0, 424807015],
  [30100000, 12600000, 272000000, 0, 424807015], [30100000, 12600000, 272000000, 0, 424807015], [210000000, 36979000, 0, 154285048, 2631944570],
  [210000000, 36979000, 0, 154285048, 2631944570], [210000000, 36979000, 0, 154285048, 2631944570], [210000000, 36979000, 0, 154285048, 2631944570],
  [127100304, 45328083, 220614081, 0, 1367326880], [127100304, 45328083, 220614081, 0, 1367326880], [127100304, 45328083, 220614081, 0, 1367326880],
  [127100304, 45328083, 220614081, 0, 1367326880]]

example : tRol.all (fun row => match row with
  | [rx, ry, xo, yo, r] => result 100000 (S6R.rol ar rx ry xo yo) r
  | _ => false) = true := by decide +kernel

/-- test_f_euler_torsion, line 2291: columns An, lez, rx, ry, xo, yo, J, Iw, E, G, Foz -/
def tFTorsion : List (List ℚ) := table [6, 1, 9, 9, 10, 9, 15, 16, 0, 0, 0] [
  [1890, 100, 41100000, 24500000, 0, 0, 34900000, 23000000, 200000000000, 80000000000, 655731018],
  [1890, 50, 41100000, 24500000, 0, 0, 34900000, 23000000, 200000000000, 80000000000, 687207339],
  [1890, 10, 41100000, 24500000, 0, 0, 34900000, 23000000, 200000000000, 80000000000, 1694449620],
  [1890, 5, 41100000, 24500000, 0, 0, 34900000, 23000000, 200000000000, 80000000000, 4842081730],
  [57900, 800, 515000000, 120000000, 0, 0, 22000000000, 2800000000000, 200000000000, 80000000000, 114041152],
  [57900, 400, 515000000, 120000000, 0, 0, 22000000000, 2800000000000, 200000000000, 80000000000, 130043160],
  [57900, 200, 515000000, 120000000, 0, 0, 22000000000, 2800000000000, 200000000000, 80000000000, 194051194],
  [57900, 100, 515000000, 120000000, 0, 0, 22000000000, 2800000000000, 200000000000, 80000000000, 450083327],
  [57900, 50, 515000000, 120000000, 0, 0, 22000000000, 2800000000000, 200000000000, 80000000000, 1474211860],
  [57900, 10, 515000000, 120000000, 0, 0, 22000000000, 2800000000000, 200000000000, 80000000000, 34246324900],
  [1170, 200, 42500000, 16400000, 0, 0, 14800000, 0, 200000000000, 80000000000, 487645015],
  [1170, 100, 42500000, 16400000, 0, 0, 14800000, 0, 200000000000, 80000000000, 487645015],
  [1170, 50, 42500000, 16400000, 0, 0, 14800000, 0, 200000000000, 80000000000, 487645015],
  [1170, 10, 42500000, 16400000, 0, 0, 14800000, 0, 200000000000, 80000000000, 487645015],
  [1170, 5, 42500000, 16400000, 0, 0, 14800000, 0, 200000000000, 80000000000, 487645015],
  [1170, 1, 42500000, 16400000, 0, 0, 14800000, 0, 200000000000, 80000000000, 487645015],
  [2790, 200, 58700000, 29800000, 0, 0, 88900000, 0, 200000000000, 80000000000, 588200913],
  [2790, 100, 58700000, 29800000, 0, 0, 88900000, 0, 200000000000, 80000000000, 588200913],
  [2790, 50, 58700000, 29800000, 0, 0, 88900000, 0, 200000000000, 80000000000, 588200913],
  [2790, 10, 58700000, 29800000, 0, 0, 88900000, 0, 200000000000, 80000000000, 588200913],
  [2790, 5, 58700000, 29800000, 0, 0, 88900000, 0, 200000000000, 80000000000, 588200913],
  [2790, 1, 58700000, 29800000, 0, 0, 88900000, 0, 200000000000, 80000000000, 588200913],
  [143, 100, 9220000, 4730000, 0, 0, 515000, 0, 200000000000, 80000000000, 2683073200],
  [143, 50, 9220000, 4730000, 0, 0, 515000, 0, 200000000000, 80000000000, 2683073200],
  [143, 10, 9220000, 4730000, 0, 0, 515000, 0, 200000000000, 80000000000, 2683073200],
  [143, 5, 9220000, 4730000, 0, 0, 515000, 0, 200000000000, 80000000000, 2683073200],
  [143, 1, 9220000, 4730000, 0, 0, 515000, 0, 200000000000, 80000000000, 2683073200],
  [25100, 400, 139000000, 89300000, 0, 0, 5750000000, 46000000000, 200000000000, 80000000000, 679701656],
  [25100, 200, 139000000, 89300000, 0, 0, 5750000000, 46000000000, 200000000000, 80000000000, 704551532],
  [25100, 100, 139000000, 89300000, 0, 0, 5750000000, 46000000000, 200000000000, 80000000000, 803951036],
  [25100, 50, 139000000, 89300000, 0, 0, 5750000000, 46000000000, 200000000000, 80000000000, 1201549050],
  [25100, 10, 139000000, 89300000, 0, 0, 5750000000, 46000000000, 200000000000, 80000000000, 13924685600],
  [7030, 200, 147000000, 30400000, 567000000, 0, 472000000, 1510000000, 200000000000, 80000000000, 212725331],
  [7030, 100, 147000000, 30400000, 567000000, 0, 472000000, 1510000000, 200000000000, 80000000000, 225075369],
  [7030, 50, 147000000, 30400000, 567000000, 0, 472000000, 1510000000, 200000000000, 80000000000, 274475520],
  [7030, 10, 147000000, 30400000, 567000000, 0, 472000000, 1510000000, 200000000000, 80000000000, 1855280340],
  [7030, 5, 147000000, 30400000, 567000000, 0, 472000000, 1510000000, 200000000000, 80000000000, 6795295420],
  [16000, 400, 249000000, 49600000, 0, 0, 1560000000, 34500000000, 200000000000, 80000000000, 125129872],
  [16000, 200, 249000000, 49600000, 0, 0, 1560000000, 34500000000, 200000000000, 80000000000, 137510196],
  [16000, 100, 249000000, 49600000, 0, 0, 1560000000, 34500000000, 200000000000, 80000000000, 187031491],
  [16000, 50, 249000000, 49600000, 0, 0, 1560000000, 34500000000, 200000000000, 80000000000, 385116675],
  [16000, 10, 249000000, 49600000, 0, 0, 1560000000, 34500000000, 200000000000, 80000000000, 6723842540],
  [754, 100, 30100000, 12600000, 272000000, 0, 8130000, 1060000, 200000000000, 80000000000, 479535455],
  [754, 50, 30100000, 12600000, 272000000, 0, 8130000, 1060000, 200000000000, 80000000000, 484148654],
  [754, 10, 30100000, 12600000, 272000000, 0, 8130000, 1060000, 200000000000, 80000000000, 631771010],
  [754, 5, 30100000, 12600000, 272000000, 0, 8130000, 1060000, 200000000000, 80000000000, 1093090870],
  [754, 1, 30100000, 12600000, 272000000, 0, 8130000, 1060000, 200000000000, 80000000000, 15855326500],
  [11000, 100, 210000000, 36979000, 0, 154285048, 918388008, 4029090740, 200000000000, 80000000000, 106858003],
  [11000, 50, 210000000, 36979000, 0, 154285048, 918388008, 4029090740, 200000000000, 80000000000, 138170080],
  [11000, 10, 210000000, 36979000, 0, 154285048, 918388008, 4029090740, 200000000000, 80000000000, 1140156550],
  [11000, 5, 210000000, 36979000, 0, 154285048, 918388008, 4029090740, 200000000000, 80000000000, 4271364290],
  [13000, 100, 127100304, 45328083, 220614081, 0, 1584755620, 306344239, 200000000000, 80000000000, 524120012],
  [13000, 50, 127100304, 45328083, 220614081, 0, 1584755620, 306344239, 200000000000, 80000000000, 531584030],
  [13000, 10, 127100304, 45328083, 220614081, 0, 1584755620, 306344239, 200000000000, 80000000000, 770432594],
  [13000, 5, 127100304, 45328083, 220614081, 0, 1584755620, 306344239, 200000000000, 80000000000, 1516834360]]

example : tFTorsion.all (fun row => match row with
  | [a, lz, rx, ry, xo, yo, j, iw, e, g, x] => result 100000 (S6R.fEulerTorsion ar a lz rx ry xo yo j iw e g) x
  | _ => false) = true := by decide +kernel

/-- test_s6_3_3_λ_n, line 2670: columns kf, lex, rx, fy, fref, λnx -/
def tLambdaX : List (List ℚ) := table [3, 1, 10, 0, 0, 14] [
  [1000, 100, 411000000, 320000000, 250000000, 27527271287067500], [1000, 50, 411000000, 320000000, 250000000, 13763635643533800],
  [1000, 10, 411000000, 320000000, 250000000, 2752727128706750], [1000, 5, 411000000, 320000000, 250000000, 1376363564353380],
  [837, 800, 5150000000, 280000000, 250000000, 15040230713620600], [837, 400, 5150000000, 280000000, 250000000, 7520115356810310],
  [837, 200, 5150000000, 280000000, 250000000, 3760057678405150], [837, 100, 5150000000, 280000000, 250000000, 1880028839202580],
  [837, 50, 5150000000, 280000000, 250000000, 940014419601288], [837, 10, 5150000000, 280000000, 250000000, 188002883920258],
  [824, 200, 425000000, 320000000, 250000000, 48329205566889300], [824, 100, 425000000, 320000000, 250000000, 24164602783444600],
  [824, 50, 425000000, 320000000, 250000000, 12082301391722300], [824, 10, 425000000, 320000000, 250000000, 2416460278344460],
  [824, 5, 425000000, 320000000, 250000000, 1208230139172230], [824, 1, 425000000, 320000000, 250000000, 241646027834447],
  [958, 200, 587000000, 320000000, 250000000, 37729376976895700], [958, 100, 587000000, 320000000, 250000000, 18864688488447900],
  [958, 50, 587000000, 320000000, 250000000, 9432344244223930], [958, 10, 587000000, 320000000, 250000000, 1886468848844790],
  [958, 5, 587000000, 320000000, 250000000, 943234424422393], [958, 1, 587000000, 320000000, 250000000, 188646884884479],
  [1000, 100, 92200000, 320000000, 250000000, 122708335129987000], [1000, 50, 92200000, 320000000, 250000000, 61354167564993300],
  [1000, 10, 92200000, 320000000, 250000000, 12270833512998700], [1000, 5, 92200000, 320000000, 250000000, 6135416756499330],
  [1000, 1, 92200000, 320000000, 250000000, 1227083351299870], [1000, 400, 1390000000, 280000000, 250000000, 30454691350383800],
  [1000, 200, 1390000000, 280000000, 250000000, 15227345675191900], [1000, 100, 1390000000, 280000000, 250000000, 7613672837595940],
  [1000, 50, 1390000000, 280000000, 250000000, 3806836418797970], [1000, 10, 1390000000, 280000000, 250000000, 761367283759594],
  [1000, 200, 1470000000, 280000000, 250000000, 14398646590827700], [1000, 100, 1470000000, 280000000, 250000000, 7199323295413850],
  [1000, 50, 1470000000, 280000000, 250000000, 3599661647706930], [1000, 10, 1470000000, 280000000, 250000000, 719932329541385],
  [1000, 5, 1470000000, 280000000, 250000000, 359966164770693], [950, 400, 2490000000, 280000000, 250000000, 16570341472421000],
  [950, 200, 2490000000, 280000000, 250000000, 8285170736210520], [950, 100, 2490000000, 280000000, 250000000, 4142585368105260],
  [950, 50, 2490000000, 280000000, 250000000, 2071292684052630], [950, 10, 2490000000, 280000000, 250000000, 414258536810526],
  [1000, 100, 301000000, 320000000, 250000000, 37587071425198500], [1000, 50, 301000000, 320000000, 250000000, 18793535712599300],
  [1000, 10, 301000000, 320000000, 250000000, 3758707142519850], [1000, 5, 301000000, 320000000, 250000000, 1879353571259930],
  [1000, 1, 301000000, 320000000, 250000000, 375870714251985], [1000, 100, 2100000000, 300000000, 250000000, 5216405309573010],
  [1000, 50, 2100000000, 300000000, 250000000, 2608202654786510], [1000, 10, 2100000000, 300000000, 250000000, 521640530957301],
  [1000, 5, 2100000000, 300000000, 250000000, 260820265478650], [1000, 100, 1271003036, 300000000, 250000000, 8618745069703610],
  [1000, 50, 1271003036, 300000000, 250000000, 4309372534851810], [1000, 10, 1271003036, 300000000, 250000000, 861874506970361],
  [1000, 5, 1271003036, 300000000, 250000000, 430937253485181]]

example : tLambdaX.all (fun row => match row with
  | [k, l, r, fy, fr, x] => result 100000 (S6R.lambdaN ar k l r fy fr) x
  | _ => false) = true := by decide +kernel

/-- test_s6_3_3_λ_n, line 2854: columns kf, ley, ry, fy, fref, λny -/
def tLambdaY : List (List ℚ) := table [3, 1, 9, 0, 0, 9] [
  [1000, 100, 24500000, 320000000, 250000000, 461784020400], [1000, 50, 24500000, 320000000, 250000000, 230892010200],
  [1000, 10, 24500000, 320000000, 250000000, 46178402040], [1000, 5, 24500000, 320000000, 250000000, 23089201020],
  [837, 800, 120000000, 280000000, 250000000, 645476568100], [837, 400, 120000000, 280000000, 250000000, 322738284100],
  [837, 200, 120000000, 280000000, 250000000, 161369142000], [837, 100, 120000000, 280000000, 250000000, 80684571020],
  [837, 50, 120000000, 280000000, 250000000, 40342285510], [837, 10, 120000000, 280000000, 250000000, 8068457102],
  [824, 200, 16400000, 320000000, 250000000, 1252433681000], [824, 100, 16400000, 320000000, 250000000, 626216840400],
  [824, 50, 16400000, 320000000, 250000000, 313108420200], [824, 10, 16400000, 320000000, 250000000, 62621684040],
  [824, 5, 16400000, 320000000, 250000000, 31310842020], [824, 1, 16400000, 320000000, 250000000, 6262168404],
  [958, 200, 29800000, 320000000, 250000000, 743192761300], [958, 100, 29800000, 320000000, 250000000, 371596380600],
  [958, 50, 29800000, 320000000, 250000000, 185798190300], [958, 10, 29800000, 320000000, 250000000, 37159638060],
  [958, 5, 29800000, 320000000, 250000000, 18579819030], [958, 1, 29800000, 320000000, 250000000, 3715963806],
  [1000, 100, 4730000, 320000000, 250000000, 2391904545000], [1000, 50, 4730000, 320000000, 250000000, 1195952273000],
  [1000, 10, 4730000, 320000000, 250000000, 239190454500], [1000, 5, 4730000, 320000000, 250000000, 119595227300],
  [1000, 1, 4730000, 320000000, 250000000, 23919045450], [1000, 400, 89300000, 280000000, 250000000, 474042788100],
  [1000, 200, 89300000, 280000000, 250000000, 237021394000], [1000, 100, 89300000, 280000000, 250000000, 118510697000],
  [1000, 50, 89300000, 280000000, 250000000, 59255348510], [1000, 10, 89300000, 280000000, 250000000, 11851069700],
  [1000, 200, 30400000, 280000000, 250000000, 696250345000], [1000, 100, 30400000, 280000000, 250000000, 348125172500],
  [1000, 50, 30400000, 280000000, 250000000, 174062586300], [1000, 10, 30400000, 280000000, 250000000, 34812517250],
  [1000, 5, 30400000, 280000000, 250000000, 17406258630], [950, 400, 49600000, 280000000, 250000000, 831857868300],
  [950, 200, 49600000, 280000000, 250000000, 415928934100], [950, 100, 49600000, 280000000, 250000000, 207964467100],
  [950, 50, 49600000, 280000000, 250000000, 103982233500], [950, 10, 49600000, 280000000, 250000000, 20796446710],
  [1000, 100, 12600000, 320000000, 250000000, 897913372900], [1000, 50, 12600000, 320000000, 250000000, 448956686500],
  [1000, 10, 12600000, 320000000, 250000000, 89791337290], [1000, 5, 12600000, 320000000, 250000000, 44895668650],
  [1000, 1, 12600000, 320000000, 250000000, 8979133729], [1000, 100, 36979000, 300000000, 250000000, 296234380300],
  [1000, 50, 36979000, 300000000, 250000000, 148117190200], [1000, 10, 36979000, 300000000, 250000000, 29623438030],
  [1000, 5, 36979000, 300000000, 250000000, 14811719020], [1000, 100, 45328083, 300000000, 250000000, 241670294100],
  [1000, 50, 45328083, 300000000, 250000000, 120835147100], [1000, 10, 45328083, 300000000, 250000000, 24167029410],
  [1000, 5, 45328083, 300000000, 250000000, 12083514710]]

example : tLambdaY.all (fun row => match row with
  | [k, l, r, fy, fr, x] => result 100000 (S6R.lambdaN ar k l r fy fr) x
  | _ => false) = true := by decide +kernel

/-- test_s6_3_3_α_c, line 3159: columns λnx, λny, αb, αcx, αcy -/
def tAlphaC : List (List ℚ) := table [9, 9, 1, 12, 12] [
  [275272712900, 461784020400, 0, 97086569340, 35916535340], [137636356400, 230892010200, 0, 338884238900, 135116256800],
  [27527271290, 46178402040, 0, 952198978700, 878292466700], [13763635640, 23089201020, 0, 999120758400, 967691472100],
  [150402307100, 645476568100, 5, 271875693200, 18587114290], [75201153570, 322738284100, 5, 644823702400, 70364599000],
  [37600576780, 161369142000, 5, 877468246800, 242525411900], [18800288390, 80684571020, 5, 973364756300, 607751630200],
  [9400144196, 40342285510, 5, 1000000000000, 862700978700], [1880028839, 8068457102, 5, 1000000000000, 1000000000000],
  [483292055700, 1252433681000, 5, 32589376870, 5051151548], [241646027800, 626216840400, 5, 120134316500, 19717855040],
  [120823013900, 313108420200, 5, 378821783500, 74477749600], [24164602780, 62621684040, 5, 946537359500, 729176121500],
  [12082301390, 31310842020, 5, 1000000000000, 910343540900], [2416460278, 6262168404, 5, 1000000000000, 1000000000000],
  [377293769800, 743192761300, 5, 52375831100, 14111091070], [188646884900, 371596380600, 5, 186343275900, 53912693510],
  [94323442440, 185798190300, 5, 519458500200, 191290615000], [18864688490, 37159638060, 5, 973042730100, 879815789900],
  [9432344244, 18579819030, 5, 1000000000000, 974467332800], [1886468849, 3715963806, 5, 1000000000000, 1000000000000],
  [1227083351000, 2391904545000, 5, 5259492508, 1399879531], [613541675600, 1195952273000, 5, 20519130390, 5533453441],
  [122708335100, 239190454500, 5, 370555103300, 122378832200], [61354167560, 119595227300, 5, 737428754800, 384324948100],
  [12270833510, 23919045450, 5, 1000000000000, 947768199800], [304546913500, 474042788100, 0, 80115878050, 34132940200],
  [152273456800, 237021394000, 0, 286020592800, 128667367500], [76136728380, 118510697000, 0, 707424269200, 428621209800],
  [38068364190, 59255348510, 0, 912639548500, 812804514100], [7613672838, 11851069700, 0, 1000000000000, 1000000000000],
  [143986465900, 696250345000, 5, 291326686400, 16032424030], [71993232950, 348125172500, 5, 666583861700, 61008366790],
  [35996616480, 174062586300, 5, 885973775700, 213773668700], [7199323295, 34812517250, 5, 1000000000000, 892195391400],
  [3599661648, 17406258630, 5, 1000000000000, 980341130600], [165703414700, 831857868300, 0, 246989078500, 11346999690],
  [82851707360, 415928934100, 0, 660642750800, 43994853400], [41425853680, 207964467100, 0, 898912700800, 163995609600],
  [20712926840, 103982233500, 0, 975804254800, 514742371100], [4142585368, 20796446710, 0, 1000000000000, 975520807000],
  [375870714300, 897913372900, 5, 52753527750, 9736007110], [187935357100, 448956686500, 5, 187561700500, 37558179470],
  [37587071430, 89791337290, 5, 877540256700, 547889755200], [18793535710, 44895668650, 5, 973398523400, 837453273100],
  [3758707143, 8979133729, 5, 1000000000000, 1000000000000], [52164053100, 296234380300, 5, 795013470800, 82595887610],
  [26082026550, 148117190200, 5, 936905222800, 278596598800], [5216405310, 29623438030, 5, 1000000000000, 918974558900],
  [2608202655, 14811719020, 5, 1000000000000, 993373810000], [86187450700, 241670294100, 5, 571210756300, 120112437800],
  [43093725350, 120835147100, 5, 847559726700, 378767874100], [8618745070, 24167029410, 5, 1000000000000, 946525193500],
  [4309372535, 12083514710, 5, 1000000000000, 1000000000000]]

example : tAlphaC.all (fun row => match row with
  | [lx, ly, b, x, y] => result 100000 ((S6R.alphaC ar lx b).map (·.alphaC)) x && result 100000 ((S6R.alphaC ar ly b).map (·.alphaC)) y
  | _ => false) = true := by decide +kernel

/-- test_s6_3_3_N_c, line 3818: columns An, kf, lex, rx, ley, ry, fy, fref, αb, Ncx, Ncy -/
def tNcFlex : List (List ℚ) := table [6, 3, 1, 10, 1, 9, 0, 0, 1, 7, 8] [
  [1890, 1000, 100, 411000000, 100, 24500000, 320000000, 250000000, 0, 587179571300, 2172232058000],
  [1890, 1000, 50, 411000000, 50, 24500000, 320000000, 250000000, 0, 2049571877000, 8171831213000],
  [1890, 1000, 10, 411000000, 10, 24500000, 320000000, 250000000, 0, 5758899423000, 53119128380000],
  [1890, 1000, 5, 411000000, 5, 24500000, 320000000, 250000000, 0, 6042682347000, 58525980230000],
  [57900, 837, 800, 5150000000, 800, 120000000, 280000000, 250000000, 5, 36892019930000, 25221680640000],
  [57900, 837, 400, 5150000000, 400, 120000000, 280000000, 250000000, 5, 87498991190000, 95480848580000],
  [57900, 837, 200, 5150000000, 200, 120000000, 280000000, 250000000, 5, 119067562400000, 329093499600000],
  [57900, 837, 100, 5150000000, 100, 120000000, 280000000, 250000000, 5, 132080185500000, 824685171200000],
  [57900, 837, 50, 5150000000, 50, 120000000, 280000000, 250000000, 5, 135694440000000, 1170637262000000],
  [57900, 837, 10, 5150000000, 10, 120000000, 280000000, 250000000, 5, 135694440000000, 1356944400000000],
  [1170, 824, 200, 425000000, 200, 16400000, 320000000, 250000000, 5, 100540052600, 155830853900],
  [1170, 824, 100, 425000000, 100, 16400000, 320000000, 250000000, 5, 370621093900, 608306869800],
  [1170, 824, 50, 425000000, 50, 16400000, 320000000, 250000000, 5, 1168686416000, 2297680283000],
  [1170, 824, 10, 425000000, 10, 16400000, 320000000, 250000000, 5, 2920120760000, 22495491690000],
  [1170, 824, 5, 425000000, 5, 16400000, 320000000, 250000000, 5, 3085056000000, 28084608030000],
  [1170, 824, 1, 425000000, 1, 16400000, 320000000, 250000000, 5, 3085056000000, 30850560000000],
  [2790, 958, 200, 587000000, 200, 29800000, 320000000, 250000000, 5, 447971740400, 1206925006000],
  [2790, 958, 100, 587000000, 100, 29800000, 320000000, 250000000, 5, 1593798511000, 4611165615000],
  [2790, 958, 50, 587000000, 50, 29800000, 320000000, 250000000, 5, 4442941019000, 16361132210000],
  [2790, 958, 10, 587000000, 10, 29800000, 320000000, 250000000, 5, 8322457824000, 75250855670000],
  [2790, 958, 5, 587000000, 5, 29800000, 320000000, 250000000, 5, 8553024000000, 83346424850000],
  [2790, 958, 1, 587000000, 1, 29800000, 320000000, 250000000, 5, 8553024000000, 85530240000000],
  [143, 1000, 100, 92200000, 100, 4730000, 320000000, 250000000, 5, 2406743772, 6405848735],
  [143, 1000, 50, 92200000, 50, 4730000, 320000000, 250000000, 5, 9389554064, 25321082940],
  [143, 1000, 10, 92200000, 10, 4730000, 320000000, 250000000, 5, 169566015300, 560005536100],
  [143, 1000, 5, 92200000, 5, 4730000, 320000000, 250000000, 5, 337447398200, 1758670963000],
  [143, 1000, 1, 92200000, 1, 4730000, 320000000, 250000000, 5, 457600000000, 4336987282000],
  [25100, 1000, 400, 1390000000, 400, 89300000, 280000000, 250000000, 0, 5630543909000, 23988630370000],
  [25100, 1000, 200, 1390000000, 200, 89300000, 280000000, 250000000, 0, 20101527260000, 90427425910000],
  [25100, 1000, 100, 1390000000, 100, 89300000, 280000000, 250000000, 0, 49717777640000, 301234986200000],
  [25100, 1000, 50, 1390000000, 50, 89300000, 280000000, 250000000, 0, 64140307470000, 571239012500000],
  [25100, 1000, 10, 1390000000, 10, 89300000, 280000000, 250000000, 0, 70280000000000, 702800000000000],
  [7030, 1000, 200, 1470000000, 200, 30400000, 280000000, 250000000, 5, 5734474495000, 3155822346000],
  [7030, 1000, 100, 1470000000, 100, 30400000, 280000000, 250000000, 5, 13121036730000, 12008886920000],
  [7030, 1000, 50, 1470000000, 50, 30400000, 280000000, 250000000, 5, 17439507800000, 42079208950000],
  [7030, 1000, 10, 1470000000, 10, 30400000, 280000000, 250000000, 5, 19684000000000, 175619740800000],
  [7030, 1000, 5, 1470000000, 5, 30400000, 280000000, 250000000, 5, 19684000000000, 192970348100000],
  [16000, 950, 400, 2490000000, 400, 49600000, 280000000, 250000000, 0, 10511855180000, 4829283067000],
  [16000, 950, 200, 2490000000, 200, 49600000, 280000000, 250000000, 0, 28116955480000, 18724209610000],
  [16000, 950, 100, 2490000000, 100, 49600000, 280000000, 250000000, 0, 38257724550000, 69796531440000],
  [16000, 950, 50, 2490000000, 50, 49600000, 280000000, 250000000, 0, 41530229080000, 219074353100000],
  [16000, 950, 10, 2490000000, 10, 49600000, 280000000, 250000000, 0, 42560000000000, 415181655400000],
  [754, 1000, 100, 301000000, 100, 12600000, 320000000, 250000000, 5, 127283711800, 234910379600],
  [754, 1000, 50, 301000000, 50, 12600000, 320000000, 250000000, 5, 452548870900, 906203754200],
  [754, 1000, 10, 301000000, 10, 12600000, 320000000, 250000000, 5, 2117329131000, 13219484010000],
  [754, 1000, 5, 301000000, 5, 12600000, 320000000, 250000000, 5, 2348615957000, 20206072570000],
  [754, 1000, 1, 301000000, 1, 12600000, 320000000, 250000000, 5, 2412800000000, 24128000000000],
  [11000, 1000, 100, 2100000000, 100, 36979000, 300000000, 250000000, 5, 26235444540000, 27256642910000],
  [11000, 1000, 50, 2100000000, 50, 36979000, 300000000, 250000000, 5, 30917872350000, 91936877610000],
  [11000, 1000, 10, 2100000000, 10, 36979000, 300000000, 250000000, 5, 33000000000000, 303261604400000],
  [11000, 1000, 5, 2100000000, 5, 36979000, 300000000, 250000000, 5, 33000000000000, 327813357300000],
  [13000, 1000, 100, 1271003036, 100, 45328083, 300000000, 250000000, 5, 22277219500000, 46843850750000],
  [13000, 1000, 50, 1271003036, 50, 45328083, 300000000, 250000000, 5, 33054829340000, 147719470900000],
  [13000, 1000, 10, 1271003036, 10, 45328083, 300000000, 250000000, 5, 39000000000000, 369144825500000],
  [13000, 1000, 5, 1271003036, 5, 45328083, 300000000, 250000000, 5, 39000000000000, 390000000000000]]

example : tNcFlex.all (fun row => match row with
  | [a, k, lx, rx, ly, ry, fy, fr, b, x, y] => result 100000 ((S6R.NcFlexural ar a k lx rx fy fr b).map (·.1)) x && result 100000 ((S6R.NcFlexural ar a k ly ry fy fr b).map (·.1)) y
  | _ => false) = true := by decide +kernel

/-- test_f_oxz, line 4544: columns An, lex, lez, rx, ry, xo, yo, J, Iw, E, G, expected -/
def tFoxz : List (List ℚ) := table [6, 1, 1, 10, 13, 13, 11, 12, 14, 0, 0, 0] [
  [1890, 100, 100, 411000000, 245000000000, 0, 0, 34900, 230000, 200000000000, 80000000000, 33343670],
  [1890, 50, 50, 411000000, 245000000000, 0, 0, 34900, 230000, 200000000000, 80000000000, 133374700],
  [1890, 10, 10, 411000000, 245000000000, 0, 0, 34900, 230000, 200000000000, 80000000000, 1694450000],
  [1890, 5, 5, 411000000, 245000000000, 0, 0, 34900, 230000, 200000000000, 80000000000, 4842082000],
  [57900, 800, 800, 5150000000, 1200000000000, 0, 0, 22000000, 28000000000, 200000000000, 80000000000, 81802060],
  [57900, 400, 400, 5150000000, 1200000000000, 0, 0, 22000000, 28000000000, 200000000000, 80000000000, 130043200],
  [57900, 200, 200, 5150000000, 1200000000000, 0, 0, 22000000, 28000000000, 200000000000, 80000000000, 194051200],
  [57900, 100, 100, 5150000000, 1200000000000, 0, 0, 22000000, 28000000000, 200000000000, 80000000000, 450083300],
  [57900, 50, 50, 5150000000, 1200000000000, 0, 0, 22000000, 28000000000, 200000000000, 80000000000, 1474212000],
  [57900, 10, 10, 5150000000, 1200000000000, 0, 0, 22000000, 28000000000, 200000000000, 80000000000, 34246320000],
  [1170, 200, 200, 425000000, 164000000000, 0, 0, 14800, 0, 200000000000, 80000000000, 8913486],
  [1170, 100, 100, 425000000, 164000000000, 0, 0, 14800, 0, 200000000000, 80000000000, 35653950],
  [1170, 50, 50, 425000000, 164000000000, 0, 0, 14800, 0, 200000000000, 80000000000, 142615800],
  [1170, 10, 10, 425000000, 164000000000, 0, 0, 14800, 0, 200000000000, 80000000000, 487645000],
  [1170, 5, 5, 425000000, 164000000000, 0, 0, 14800, 0, 200000000000, 80000000000, 487645000],
  [1170, 1, 1, 425000000, 164000000000, 0, 0, 14800, 0, 200000000000, 80000000000, 487645000],
  [2790, 200, 200, 587000000, 298000000000, 0, 0, 88900, 0, 200000000000, 80000000000, 17003800],
  [2790, 100, 100, 587000000, 298000000000, 0, 0, 88900, 0, 200000000000, 80000000000, 68015190],
  [2790, 50, 50, 587000000, 298000000000, 0, 0, 88900, 0, 200000000000, 80000000000, 272060800],
  [2790, 10, 10, 587000000, 298000000000, 0, 0, 88900, 0, 200000000000, 80000000000, 588200900],
  [2790, 5, 5, 587000000, 298000000000, 0, 0, 88900, 0, 200000000000, 80000000000, 588200900],
  [2790, 1, 1, 587000000, 298000000000, 0, 0, 88900, 0, 200000000000, 80000000000, 588200900],
  [143, 100, 100, 92200000, 47300000000, 0, 0, 515, 0, 200000000000, 80000000000, 1677999],
  [143, 50, 50, 92200000, 47300000000, 0, 0, 515, 0, 200000000000, 80000000000, 6711994],
  [143, 10, 10, 92200000, 47300000000, 0, 0, 515, 0, 200000000000, 80000000000, 167799900],
  [143, 5, 5, 92200000, 47300000000, 0, 0, 515, 0, 200000000000, 80000000000, 671199400],
  [143, 1, 1, 92200000, 47300000000, 0, 0, 515, 0, 200000000000, 80000000000, 2683073000],
  [25100, 400, 400, 1390000000, 893000000000, 0, 0, 5750000, 460000000, 200000000000, 80000000000, 23836330],
  [25100, 200, 200, 1390000000, 893000000000, 0, 0, 5750000, 460000000, 200000000000, 80000000000, 95345310],
  [25100, 100, 100, 1390000000, 893000000000, 0, 0, 5750000, 460000000, 200000000000, 80000000000, 381381300],
  [25100, 50, 50, 1390000000, 893000000000, 0, 0, 5750000, 460000000, 200000000000, 80000000000, 1201549000],
  [25100, 10, 10, 1390000000, 893000000000, 0, 0, 5750000, 460000000, 200000000000, 80000000000, 13924690000],
  [7030, 200, 200, 1470000000, 304000000000, 567000000000, 0, 472000, 15100000, 200000000000, 80000000000, 96602100],
  [7030, 100, 100, 1470000000, 304000000000, 567000000000, 0, 472000, 15100000, 200000000000, 80000000000, 202291100],
  [7030, 50, 50, 1470000000, 304000000000, 567000000000, 0, 472000, 15100000, 200000000000, 80000000000, 268228300],
  [7030, 10, 10, 1470000000, 304000000000, 567000000000, 0, 472000, 15100000, 200000000000, 80000000000, 1844867000],
  [7030, 5, 5, 1470000000, 304000000000, 567000000000, 0, 472000, 15100000, 200000000000, 80000000000, 6760469000],
  [16000, 400, 400, 2490000000, 496000000000, 0, 0, 1560000, 345000000, 200000000000, 80000000000, 76490670],
  [16000, 200, 200, 2490000000, 496000000000, 0, 0, 1560000, 345000000, 200000000000, 80000000000, 137510200],
  [16000, 100, 100, 2490000000, 496000000000, 0, 0, 1560000, 345000000, 200000000000, 80000000000, 187031500],
  [16000, 50, 50, 2490000000, 496000000000, 0, 0, 1560000, 345000000, 200000000000, 80000000000, 385116700],
  [16000, 10, 10, 2490000000, 496000000000, 0, 0, 1560000, 345000000, 200000000000, 80000000000, 6723843000],
  [754, 100, 100, 301000000, 126000000000, 272000000000, 0, 8130, 10600, 200000000000, 80000000000, 17608730],
  [754, 50, 50, 301000000, 126000000000, 272000000000, 0, 8130, 10600, 200000000000, 80000000000, 67108460],
  [754, 10, 10, 301000000, 126000000000, 272000000000, 0, 8130, 10600, 200000000000, 80000000000, 537208500],
  [754, 5, 5, 301000000, 126000000000, 272000000000, 0, 8130, 10600, 200000000000, 80000000000, 1023092000],
  [754, 1, 1, 301000000, 126000000000, 272000000000, 0, 8130, 10600, 200000000000, 80000000000, 15270830000],
  [11000, 100, 100, 2100000000, 369790000000, 0, 15428504787, 918388, 40290910, 200000000000, 80000000000, 106858000],
  [11000, 50, 50, 2100000000, 369790000000, 0, 15428504787, 918388, 40290910, 200000000000, 80000000000, 138170100],
  [11000, 10, 10, 2100000000, 369790000000, 0, 15428504787, 918388, 40290910, 200000000000, 80000000000, 1140157000],
  [11000, 5, 5, 2100000000, 369790000000, 0, 15428504787, 918388, 40290910, 200000000000, 80000000000, 4271364000],
  [13000, 100, 100, 1271003036, 453280830003, 220614080619, 0, 1584756, 3063442, 200000000000, 80000000000, 307511800],
  [13000, 50, 50, 1271003036, 453280830003, 220614080619, 0, 1584756, 3063442, 200000000000, 80000000000, 522162100],
  [13000, 10, 10, 1271003036, 453280830003, 220614080619, 0, 1584756, 3063442, 200000000000, 80000000000, 769936700],
  [13000, 5, 5, 1271003036, 453280830003, 220614080619, 0, 1584756, 3063442, 200000000000, 80000000000, 1516359000]]

example : tFoxz.all (fun row => match row with
  | [a, lx, lz, rx, ry, xo, yo, j, iw, e, g, x] => stress 100000 (S6R.foxz ar a lx lz rx ry xo yo j iw e g) x
  | _ => false) = true := by decide +kernel

/-- test_f_oc_double_symmetric, line 4808: columns An, lex, lez, rx, ry, xo, yo, J, Iw, E, G, expected -/
def tDouble : List (List ℚ) := table [5, 1, 1, 4, 4, 0, 0, 10, 10, 0, 0, 0] [
  [5790, 800, 800, 5150, 1200, 0, 0, 220000, 2800000, 200000000000, 80000000000, 81802057],
  [5790, 400, 400, 5150, 1200, 0, 0, 220000, 2800000, 200000000000, 80000000000, 130043160],
  [5790, 200, 200, 5150, 1200, 0, 0, 220000, 2800000, 200000000000, 80000000000, 194051190],
  [5790, 100, 100, 5150, 1200, 0, 0, 220000, 2800000, 200000000000, 80000000000, 450083330],
  [5790, 50, 50, 5150, 1200, 0, 0, 220000, 2800000, 200000000000, 80000000000, 1474211900],
  [5790, 10, 10, 5150, 1200, 0, 0, 220000, 2800000, 200000000000, 80000000000, 34246325000],
  [2510, 400, 400, 1390, 893, 0, 0, 57500, 46000, 200000000000, 80000000000, 23836328],
  [2510, 200, 200, 1390, 893, 0, 0, 57500, 46000, 200000000000, 80000000000, 95345313],
  [2510, 100, 100, 1390, 893, 0, 0, 57500, 46000, 200000000000, 80000000000, 381381250],
  [2510, 50, 50, 1390, 893, 0, 0, 57500, 46000, 200000000000, 80000000000, 1201549100],
  [2510, 10, 10, 1390, 893, 0, 0, 57500, 46000, 200000000000, 80000000000, 13924686000],
  [1600, 400, 400, 2490, 496, 0, 0, 15600, 34500, 200000000000, 80000000000, 76490668],
  [1600, 200, 200, 2490, 496, 0, 0, 15600, 34500, 200000000000, 80000000000, 137510200],
  [1600, 100, 100, 2490, 496, 0, 0, 15600, 34500, 200000000000, 80000000000, 187031490],
  [1600, 50, 50, 2490, 496, 0, 0, 15600, 34500, 200000000000, 80000000000, 385116670],
  [1600, 10, 10, 2490, 496, 0, 0, 15600, 34500, 200000000000, 80000000000, 6723842500],
  [189, 100, 100, 411, 245, 0, 0, 349, 23, 200000000000, 80000000000, 33343669],
  [189, 50, 50, 411, 245, 0, 0, 349, 23, 200000000000, 80000000000, 133374680],
  [189, 10, 10, 411, 245, 0, 0, 349, 23, 200000000000, 80000000000, 1694449600],
  [189, 5, 5, 411, 245, 0, 0, 349, 23, 200000000000, 80000000000, 4842081700]]

example : tDouble.all (fun row => match row with
  | [a, lx, lz, rx, ry, xo, yo, j, iw, e, g, x] => result 100000 (S6R.focDouble ar ⟨a, lx, 0, lz, rx, ry, xo, yo, j, iw, e, g⟩) x
  | _ => false) = true := by decide +kernel

/-- test_f_oc_single_symmetric, line 5345; the axis is 1 for x, 2 for y: columns axis, An, lex, ley, lez, rx, ry, xo, yo, J, Iw, E, G, expected -/
def tSingle : List (List ℚ) := table [0, 6, 1, 1, 1, 10, 13, 13, 11, 14, 15, 0, 0, 1] [
  [1, 2790, 200, 200, 200, 587000000, 298000000000, 0, 0, 8890000, 0, 200000000000, 80000000000, 170037990],
  [1, 2790, 100, 100, 100, 587000000, 298000000000, 0, 0, 8890000, 0, 200000000000, 80000000000, 680151940],
  [1, 2790, 50, 50, 50, 587000000, 298000000000, 0, 0, 8890000, 0, 200000000000, 80000000000, 2720607800],
  [1, 2790, 10, 10, 10, 587000000, 298000000000, 0, 0, 8890000, 0, 200000000000, 80000000000, 5882009100],
  [1, 2790, 5, 5, 5, 587000000, 298000000000, 0, 0, 8890000, 0, 200000000000, 80000000000, 5882009100],
  [1, 2790, 1, 1, 1, 587000000, 298000000000, 0, 0, 8890000, 0, 200000000000, 80000000000, 5882009100],
  [1, 143, 100, 100, 100, 92200000, 47300000000, 0, 0, 51500, 0, 200000000000, 80000000000, 16779986],
  [1, 143, 50, 50, 50, 92200000, 47300000000, 0, 0, 51500, 0, 200000000000, 80000000000, 67119942],
  [1, 143, 10, 10, 10, 92200000, 47300000000, 0, 0, 51500, 0, 200000000000, 80000000000, 1677998600],
  [1, 143, 5, 5, 5, 92200000, 47300000000, 0, 0, 51500, 0, 200000000000, 80000000000, 6711994200],
  [1, 143, 1, 1, 1, 92200000, 47300000000, 0, 0, 51500, 0, 200000000000, 80000000000, 26830732000],
  [1, 7030, 200, 200, 200, 1470000000, 304000000000, 567000000000, 0, 47200000, 151000000, 200000000000, 80000000000, 966021010],
  [1, 7030, 100, 100, 100, 1470000000, 304000000000, 567000000000, 0, 47200000, 151000000, 200000000000, 80000000000, 2022910600],
  [1, 7030, 50, 50, 50, 1470000000, 304000000000, 567000000000, 0, 47200000, 151000000, 200000000000, 80000000000, 2682282900],
  [1, 7030, 10, 10, 10, 1470000000, 304000000000, 567000000000, 0, 47200000, 151000000, 200000000000, 80000000000, 18448670000],
  [1, 7030, 5, 5, 5, 1470000000, 304000000000, 567000000000, 0, 47200000, 151000000, 200000000000, 80000000000, 67604689000],
  [1, 754, 100, 100, 100, 301000000, 126000000000, 272000000000, 0, 813000, 106000, 200000000000, 80000000000, 176087280],
  [1, 754, 50, 50, 50, 301000000, 126000000000, 272000000000, 0, 813000, 106000, 200000000000, 80000000000, 671084620],
  [1, 754, 10, 10, 10, 301000000, 126000000000, 272000000000, 0, 813000, 106000, 200000000000, 80000000000, 5372084700],
  [1, 754, 5, 5, 5, 301000000, 126000000000, 272000000000, 0, 813000, 106000, 200000000000, 80000000000, 10230922000],
  [1, 754, 1, 1, 1, 301000000, 126000000000, 272000000000, 0, 813000, 106000, 200000000000, 80000000000, 152708320000],
  [2, 11000, 100, 100, 100, 2100000000, 369790000000, 0, 15428504787, 91838801, 402909070, 200000000000, 80000000000, 244901310],
  [2, 11000, 50, 50, 50, 2100000000, 369790000000, 0, 15428504787, 91838801, 402909070, 200000000000, 80000000000, 760185110],
  [2, 11000, 10, 10, 10, 2100000000, 369790000000, 0, 15428504787, 91838801, 402909070, 200000000000, 80000000000, 9586985300],
  [2, 11000, 5, 5, 5, 2100000000, 369790000000, 0, 15428504787, 91838801, 402909070, 200000000000, 80000000000, 36366609000],
  [1, 13000, 100, 100, 100, 1271003036, 453280830003, 220614080619, 0, 158475560, 30634424, 200000000000, 80000000000, 3075117700],
  [1, 13000, 50, 50, 50, 1271003036, 453280830003, 220614080619, 0, 158475560, 30634424, 200000000000, 80000000000, 5221621300],
  [1, 13000, 10, 10, 10, 1271003036, 453280830003, 220614080619, 0, 158475560, 30634424, 200000000000, 80000000000, 7699366600],
  [1, 13000, 5, 5, 5, 1271003036, 453280830003, 220614080619, 0, 158475560, 30634424, 200000000000, 80000000000, 15163594000]]

example : tSingle.all (fun row => match row with
  | [s, a, lx, ly, lz, rx, ry, xo, yo, j, iw, e, g, x] => decide (s = 1 ∨ s = 2) &&
    stress 100000 (S6R.focSingle ar ⟨a, lx, ly, lz, rx, ry, xo, yo, j, iw, e, g⟩ (decide (s = 1))) x
  | _ => false) = true := by decide +kernel

/-- test_f_oc_point_symmetric, line 5946: columns An, lez, rx, ry, xo, yo, J, Iw, E, G, expected -/
def tPoint : List (List ℚ) := table [6, 1, 10, 13, 13, 11, 17, 19, 0, 0, 6] [
  [1890, 100, 411000000, 245000000000, 0, 0, 3490000000, 23000000000, 200000000000, 80000000000, 655731018073070],
  [1890, 50, 411000000, 245000000000, 0, 0, 3490000000, 23000000000, 200000000000, 80000000000, 687207339199749],
  [1890, 10, 411000000, 245000000000, 0, 0, 3490000000, 23000000000, 200000000000, 80000000000, 1694449615253440],
  [1890, 5, 411000000, 245000000000, 0, 0, 3490000000, 23000000000, 200000000000, 80000000000, 4842081727921240],
  [57900, 800, 5150000000, 1200000000000, 0, 0, 2200000000000, 2800000000000000, 200000000000, 80000000000, 114041152049309],
  [57900, 400, 5150000000, 1200000000000, 0, 0, 2200000000000, 2800000000000000, 200000000000, 80000000000, 130043160384776],
  [57900, 200, 5150000000, 1200000000000, 0, 0, 2200000000000, 2800000000000000, 200000000000, 80000000000, 194051193726641],
  [57900, 100, 5150000000, 1200000000000, 0, 0, 2200000000000, 2800000000000000, 200000000000, 80000000000, 450083327094101],
  [57900, 50, 5150000000, 1200000000000, 0, 0, 2200000000000, 2800000000000000, 200000000000, 80000000000, 1474211860563940],
  [57900, 10, 5150000000, 1200000000000, 0, 0, 2200000000000, 2800000000000000, 200000000000, 80000000000, 34246324931598900],
  [2790, 200, 587000000, 298000000000, 0, 0, 8890000000, 0, 200000000000, 80000000000, 588200912990041],
  [2790, 100, 587000000, 298000000000, 0, 0, 8890000000, 0, 200000000000, 80000000000, 588200912990041],
  [2790, 50, 587000000, 298000000000, 0, 0, 8890000000, 0, 200000000000, 80000000000, 588200912990041],
  [2790, 10, 587000000, 298000000000, 0, 0, 8890000000, 0, 200000000000, 80000000000, 588200912990041],
  [2790, 5, 587000000, 298000000000, 0, 0, 8890000000, 0, 200000000000, 80000000000, 588200912990041],
  [2790, 1, 587000000, 298000000000, 0, 0, 8890000000, 0, 200000000000, 80000000000, 588200912990041],
  [143, 100, 92200000, 47300000000, 0, 0, 51500000, 0, 200000000000, 80000000000, 2683073199075520],
  [143, 50, 92200000, 47300000000, 0, 0, 51500000, 0, 200000000000, 80000000000, 2683073199075520],
  [143, 10, 92200000, 47300000000, 0, 0, 51500000, 0, 200000000000, 80000000000, 2683073199075520],
  [143, 5, 92200000, 47300000000, 0, 0, 51500000, 0, 200000000000, 80000000000, 2683073199075520],
  [143, 1, 92200000, 47300000000, 0, 0, 51500000, 0, 200000000000, 80000000000, 2683073199075520],
  [25100, 400, 1390000000, 893000000000, 0, 0, 575000000000, 46000000000000, 200000000000, 80000000000, 679701655557604],
  [25100, 200, 1390000000, 893000000000, 0, 0, 575000000000, 46000000000000, 200000000000, 80000000000, 704551531690738],
  [25100, 100, 1390000000, 893000000000, 0, 0, 575000000000, 46000000000000, 200000000000, 80000000000, 803951036223273],
  [25100, 50, 1390000000, 893000000000, 0, 0, 575000000000, 46000000000000, 200000000000, 80000000000, 1201549054353410],
  [25100, 10, 1390000000, 893000000000, 0, 0, 575000000000, 46000000000000, 200000000000, 80000000000, 13924685634517900],
  [7030, 200, 1470000000, 304000000000, 567000000000, 0, 47200000000, 1510000000000, 200000000000, 80000000000, 212725331257086],
  [7030, 100, 1470000000, 304000000000, 567000000000, 0, 47200000000, 1510000000000, 200000000000, 80000000000, 225075368944878],
  [7030, 50, 1470000000, 304000000000, 567000000000, 0, 47200000000, 1510000000000, 200000000000, 80000000000, 274475519696047],
  [7030, 10, 1470000000, 304000000000, 567000000000, 0, 47200000000, 1510000000000, 200000000000, 80000000000, 1855280343733460],
  [7030, 5, 1470000000, 304000000000, 567000000000, 0, 47200000000, 1510000000000, 200000000000, 80000000000, 6795295418850390],
  [16000, 400, 2490000000, 496000000000, 0, 0, 156000000000, 34500000000000, 200000000000, 80000000000, 125129871710703],
  [16000, 200, 2490000000, 496000000000, 0, 0, 156000000000, 34500000000000, 200000000000, 80000000000, 137510195666545],
  [16000, 100, 2490000000, 496000000000, 0, 0, 156000000000, 34500000000000, 200000000000, 80000000000, 187031491489911],
  [16000, 50, 2490000000, 496000000000, 0, 0, 156000000000, 34500000000000, 200000000000, 80000000000, 385116674783376],
  [16000, 10, 2490000000, 496000000000, 0, 0, 156000000000, 34500000000000, 200000000000, 80000000000, 6723842540174250],
  [754, 100, 301000000, 126000000000, 272000000000, 0, 813000000, 1060000000, 200000000000, 80000000000, 479535455101110],
  [754, 50, 301000000, 126000000000, 272000000000, 0, 813000000, 1060000000, 200000000000, 80000000000, 484148653743465],
  [754, 10, 301000000, 126000000000, 272000000000, 0, 813000000, 1060000000, 200000000000, 80000000000, 631771010298818],
  [754, 5, 301000000, 126000000000, 272000000000, 0, 813000000, 1060000000, 200000000000, 80000000000, 1093090874534300],
  [754, 1, 301000000, 126000000000, 272000000000, 0, 813000000, 1060000000, 200000000000, 80000000000, 15855326530069600],
  [11000, 100, 2100000000, 369790000000, 0, 15428504787, 91838800792, 4029090743700, 200000000000, 80000000000, 106858002989415],
  [11000, 50, 2100000000, 369790000000, 0, 15428504787, 91838800792, 4029090743700, 200000000000, 80000000000, 138170080303502],
  [11000, 10, 2100000000, 369790000000, 0, 15428504787, 91838800792, 4029090743700, 200000000000, 80000000000, 1140156554354290],
  [11000, 5, 2100000000, 369790000000, 0, 15428504787, 91838800792, 4029090743700, 200000000000, 80000000000, 4271364285763010],
  [13000, 100, 1271003036, 453280830003, 220614080619, 0, 158475561880, 306344239388, 200000000000, 80000000000, 524120011944884],
  [13000, 50, 1271003036, 453280830003, 220614080619, 0, 158475561880, 306344239388, 200000000000, 80000000000, 531584029590048],
  [13000, 10, 1271003036, 453280830003, 220614080619, 0, 158475561880, 306344239388, 200000000000, 80000000000, 770432594235289],
  [13000, 5, 1271003036, 453280830003, 220614080619, 0, 158475561880, 306344239388, 200000000000, 80000000000, 1516834358751670]]

example : tPoint.all (fun row => match row with
  | [a, lz, rx, ry, xo, yo, j, iw, e, g, x] => result 100000 (S6R.focPoint ar ⟨a, 0, 0, lz, rx, ry, xo, yo, j, iw, e, g⟩) x
  | _ => false) = true := by decide +kernel

/-- test_f_oc_unsymmetric, line 7187: columns An, lex, ley, lez, rx, ry, xo, yo, J, Iw, E, G, aexp, bexp, cexp, dexp, focexp -/
def tUnsym : List (List ℚ) := table [6, 1, 1, 1, 10, 13, 13, 11, 17, 19, 0, 0, 11, 4, 0, 0, 4] [

  [1890, 100, 100, 100, 411000000, 245000000000, 0, 0, 3490000000, 23000000000, 200000000000, 80000000000, 228946000, 16047355080, 68750084170000, 593108410300000000000, 118484600800],
  [1890, 50, 50, 50, 411000000, 245000000000, 0, 0, 3490000000, 23000000000, 200000000000, 80000000000, 228946000, 19871960010, 298881193500000, 9945259657000000000000, 473938403300],
  [1890, 10, 10, 10, 411000000, 245000000000, 0, 0, 3490000000, 23000000000, 200000000000, 80000000000, 228946000, 142259317800, 26576715300000000, 15326289130000000000000000, 11848460080000],
  [1890, 5, 5, 5, 411000000, 245000000000, 0, 0, 3490000000, 23000000000, 200000000000, 80000000000, 228946000, 524719810800, 345115429400000000, 700745718500000000000000000, 47393840330000],
  [57900, 800, 800, 800, 5150000000, 1200000000000, 0, 0, 2200000000000, 2800000000000000, 200000000000, 80000000000, 27962500000, 560045620200, 2851784526000000, 11585481210000000000000, 44413219800],
  [57900, 400, 400, 400, 5150000000, 1200000000000, 0, 0, 2200000000000, 2800000000000000, 200000000000, 80000000000, 27962500000, 1328265382000, 14169827620000000, 211378095000000000000000, 177652879200],
  [57900, 200, 200, 200, 5150000000, 1200000000000, 0, 0, 2200000000000, 2800000000000000, 200000000000, 80000000000, 27962500000, 4401144431000, 100882342700000000, 5046714833000000000000000, 710611516900],
  [57900, 100, 100, 100, 5150000000, 1200000000000, 0, 0, 2200000000000, 2800000000000000, 200000000000, 80000000000, 27962500000, 16692660620000, 1110777886000000000, 187286017400000000000000000, 2842446068000],
  [57900, 50, 50, 50, 5150000000, 1200000000000, 0, 0, 2200000000000, 2800000000000000, 200000000000, 80000000000, 27962500000, 65858725400000, 15759087790000000000, 9815045404000000000000000000, 11369784270000],
  [57900, 10, 10, 10, 5150000000, 1200000000000, 0, 0, 2200000000000, 2800000000000000, 200000000000, 80000000000, 27962500000, 1639172798000000, 9446758189000000000000, 142503785900000000000000000000000, 284244606800000],
  [1170, 200, 200, 200, 425000000, 164000000000, 0, 0, 1480000000, 0, 200000000000, 80000000000, 207521000, 10332175210, 10387840660000, 11972115450000000000, 13272644000],
  [1170, 100, 100, 100, 425000000, 164000000000, 0, 0, 1480000000, 0, 200000000000, 80000000000, 207521000, 10969726460, 41845973220000, 191553847200000000000, 53090575990],
  [1170, 50, 50, 50, 425000000, 164000000000, 0, 0, 1480000000, 0, 200000000000, 80000000000, 207521000, 13519931500, 172097662300000, 3064861556000000000000, 212362304000],
  [1170, 10, 10, 10, 425000000, 164000000000, 0, 0, 1480000000, 0, 200000000000, 80000000000, 207521000, 95126492610, 8073457104000000, 1915538472000000000000000, 4876450152000],
  [1170, 5, 5, 5, 425000000, 164000000000, 0, 0, 1480000000, 0, 200000000000, 80000000000, 207521000, 350146996100, 79431522750000000, 30648615560000000000000000, 4876450152000],
  [1170, 1, 1, 1, 425000000, 164000000000, 0, 0, 1480000000, 0, 200000000000, 80000000000, 207521000, 8510803107000, 39695943530000000000, 19155384720000000000000000000, 4876450152000],
  [2790, 200, 200, 200, 587000000, 298000000000, 0, 0, 8890000000, 0, 200000000000, 80000000000, 433373000, 26417855270, 54838323950000, 189948459100000000000, 43823017460],
  [2790, 100, 100, 100, 587000000, 298000000000, 0, 0, 8890000000, 0, 200000000000, 80000000000, 433373000, 29198302810, 223228470900000, 3039175345000000000000, 175292069800],
  [2790, 50, 50, 50, 587000000, 298000000000, 0, 0, 8890000000, 0, 200000000000, 80000000000, 433373000, 40320092970, 954916684400000, 48626805530000000000000, 701168279400],
  [2790, 10, 10, 10, 587000000, 298000000000, 0, 0, 8890000000, 0, 200000000000, 80000000000, 433373000, 396217377900, 73475157890000000, 30391753450000000000000000, 5882009130000],
  [2790, 5, 5, 5, 587000000, 298000000000, 0, 0, 8890000000, 0, 200000000000, 80000000000, 433373000, 1508396393000, 913928641400000000, 486268055300000000000000000, 5882009130000],
  [2790, 1, 1, 1, 587000000, 298000000000, 0, 0, 8890000000, 0, 200000000000, 80000000000, 433373000, 37098124890000, 518870623900000000000, 303917534500000000000000000000, 5882009130000],
  [143, 100, 100, 100, 92200000, 47300000000, 0, 0, 51500000, 0, 200000000000, 80000000000, 10738130, 2883394959, 610767842500, 213503394500000000, 4416233446],
  [143, 50, 50, 50, 92200000, 47300000000, 0, 0, 51500000, 0, 200000000000, 80000000000, 10738130, 2890223191, 2444026260000, 3416054312000000000, 17664933780],
  [143, 10, 10, 10, 92200000, 47300000000, 0, 0, 51500000, 0, 200000000000, 80000000000, 10738130, 3108726636, 61864568800000, 2135033945000000000000, 441623344600],
  [143, 5, 5, 5, 92200000, 47300000000, 0, 0, 51500000, 0, 200000000000, 80000000000, 10738130, 3791549903, 257007178800000, 34160543120000000000000, 1766493378000],
  [143, 1, 1, 1, 92200000, 47300000000, 0, 0, 51500000, 0, 200000000000, 80000000000, 10738130, 25641894420, 14064302350000000, 21350339450000000000000000, 26830731990000],
  [25100, 400, 400, 400, 1390000000, 893000000000, 0, 0, 575000000000, 46000000000000, 200000000000, 80000000000, 2729549000, 194719506600, 631156123000000, 4350721238000000000000, 98381327000],
  [25100, 200, 200, 200, 1390000000, 893000000000, 0, 0, 575000000000, 46000000000000, 200000000000, 80000000000, 2729549000, 229077229400, 2692799765000000, 72156536030000000000000, 393525308000],
  [25100, 100, 100, 100, 1390000000, 893000000000, 0, 0, 575000000000, 46000000000000, 200000000000, 80000000000, 2729549000, 366508121000, 13462003430000000, 1317384334000000000000000, 1574101232000],
  [25100, 50, 50, 50, 1390000000, 893000000000, 0, 0, 575000000000, 46000000000000, 200000000000, 80000000000, 2729549000, 916231687100, 96900883710000000, 31502453850000000000000000, 6296404928000],
  [25100, 10, 10, 10, 1390000000, 893000000000, 0, 0, 575000000000, 46000000000000, 200000000000, 80000000000, 2729549000, 18507385800000, 36864818070000000000, 228175123700000000000000000000, 139246856300000],
  [7030, 200, 200, 200, 1470000000, 304000000000, 567000000000, 0, 47200000000, 1510000000000, 200000000000, 80000000000, 2574805000, 83256986800, 621575211800000, 2663697411000000000000, 45599895730],
  [7030, 100, 100, 100, 1470000000, 304000000000, 567000000000, 0, 47200000000, 1510000000000, 200000000000, 80000000000, 2574805000, 171889967100, 2777999539000000, 45093467640000000000000, 182332212800],
  [7030, 50, 50, 50, 1470000000, 304000000000, 567000000000, 0, 47200000000, 1510000000000, 200000000000, 80000000000, 2574805000, 526421888400, 15779177220000000, 879851262100000000000000, 728220596700],
  [7030, 10, 10, 10, 1470000000, 304000000000, 567000000000, 0, 47200000000, 1510000000000, 200000000000, 80000000000, 2574805000, 11871443370000, 4128222685000000000, 3717022637000000000000000000, 17111779350000],
  [7030, 5, 5, 5, 1470000000, 304000000000, 567000000000, 0, 47200000000, 1510000000000, 200000000000, 80000000000, 2574805000, 47324635500000, 63184681420000000000, 217828142100000000000000000000, 65006579930000],
  [16000, 400, 400, 400, 2490000000, 496000000000, 0, 0, 156000000000, 34500000000000, 200000000000, 80000000000, 6446116000, 131923399700, 656421277700000, 1872581290000000000000, 30351007450],
  [16000, 200, 200, 200, 2490000000, 496000000000, 0, 0, 156000000000, 34500000000000, 200000000000, 80000000000, 6446116000, 293693598900, 3059128507000000, 32925665610000000000000, 121404029800],
  [16000, 100, 100, 100, 2490000000, 496000000000, 0, 0, 156000000000, 34500000000000, 200000000000, 80000000000, 6446116000, 940774395500, 19171608360000000, 716530007600000000000000, 485616119300],
  [16000, 50, 50, 50, 2490000000, 496000000000, 0, 0, 156000000000, 34500000000000, 200000000000, 80000000000, 6446116000, 3529097582000, 187647942800000000, 23606519030000000000000000, 1942464477000],
  [16000, 10, 10, 10, 2490000000, 496000000000, 0, 0, 156000000000, 34500000000000, 200000000000, 80000000000, 6446116000, 86355439550000, 93460406040000000000, 257594852500000000000000000000, 48561611930000],
  [754, 100, 100, 100, 301000000, 126000000000, 272000000000, 0, 813000000, 1060000000, 200000000000, 80000000000, 180461000, 9009847523, 18289334770000, 48499542960000000000, 31320035160],
  [754, 50, 50, 50, 301000000, 126000000000, 272000000000, 0, 813000000, 1060000000, 200000000000, 80000000000, 180461000, 10161406010, 75070894300000, 783457846300000000000, 125063160700],
  [754, 10, 10, 10, 301000000, 126000000000, 272000000000, 0, 813000000, 1060000000, 200000000000, 80000000000, 180461000, 47011277530, 3407616517000000, 638964333700000000000000, 2918645540000],
  [754, 5, 5, 5, 301000000, 126000000000, 272000000000, 0, 813000000, 1060000000, 200000000000, 80000000000, 180461000, 162167126000, 32766018060000000, 17688588320000000000000000, 9024135560000],
  [754, 1, 1, 1, 301000000, 126000000000, 272000000000, 0, 813000000, 1060000000, 200000000000, 80000000000, 180461000, 3847154278000, 16127592040000000000, 160358547400000000000000000000, 148148754100000],
  [11000, 100, 100, 100, 2100000000, 369790000000, 0, 15428504787, 91838800792, 4029090743700, 200000000000, 80000000000, 6927132244, 488513598200, 8271059853000000, 173927770200000000000000, 244319107600],
  [11000, 50, 50, 50, 2100000000, 369790000000, 0, 15428504787, 91838800792, 4029090743700, 200000000000, 80000000000, 6927132244, 1753678828000, 60402817450000000, 3598287567000000000000000, 757196466800],
  [11000, 10, 10, 10, 2100000000, 369790000000, 0, 15428504787, 91838800792, 4029090743700, 200000000000, 80000000000, 6927132244, 42238966170000, 23364932860000000000, 18557794610000000000000000000, 9573420497000],
  [11000, 5, 5, 5, 2100000000, 369790000000, 0, 15428504787, 91838800792, 4029090743700, 200000000000, 80000000000, 6927132244, 168755489100000, 366645511800000000000, 1112367958000000000000000000000, 36320206790000],
  [13000, 100, 100, 100, 1271003036, 453280830003, 220614080619, 0, 158475561880, 306344239388, 200000000000, 80000000000, 1869582801, 164990283500, 3763825828000000, 126725148600000000000000, 405439767600],
  [13000, 50, 50, 50, 1271003036, 453280830003, 220614080619, 0, 158475561880, 306344239388, 200000000000, 80000000000, 1869582801, 367390866100, 18157371540000000, 2056477558000000000000000, 1619583437000],
  [13000, 10, 10, 10, 1271003036, 453280830003, 220614080619, 0, 158475561880, 306344239388, 200000000000, 80000000000, 1869582801, 6844209508000, 2935588873000000000, 1862802083000000000000000000, 7698206587000],
  [13000, 5, 5, 5, 1271003036, 453280830003, 220614080619, 0, 158475561880, 306344239388, 200000000000, 80000000000, 1869582801, 27084267760000, 42763037790000000000, 58680013780000000000000000000, 15163104860000]]

example : tUnsym.all (fun row => match row with
  | [a, lx, ly, lz, rx, ry, xo, yo, j, iw, e, g, ca, cb, cc, cd, x] => passes (S6R.cubic ar ⟨a, lx, ly, lz, rx, ry, xo, yo, j, iw, e, g⟩) fun q =>
    within 100000 q.a ca && within 100000 q.b cb && within 100000 q.c cc && within 100000 q.d cd && within 100000 (smallestRoot q) x
  | _ => false) = true := by decide +kernel

end BeamDesign.Conformance
