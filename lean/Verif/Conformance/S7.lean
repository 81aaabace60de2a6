import Verif.Conformance.Tables
import Verif.Model.S7

/-!
# `tests/test_AS4100_7.py` run on the model

Written by tools/conformance.py.
-/

namespace BeamDesign.Conformance

/-- test_s_7_2_N_t_yield, line 264: columns Ag, fy, Nt_yield -/
def tNty : List (List ℚ) := table [6, 0, 0] [
  [6200, 300000000, 1860000], [1020, 320000000, 326400], [31700, 280000000, 8876000], [31700, 360000000, 11412000], [1170, 320000000, 374400],
  [53900, 280000000, 15092000], [2300, 320000000, 736000], [2200, 320000000, 704000], [2750, 300000000, 825000], [57900, 360000000, 20844000],
  [2300, 320000000, 736000], [2040, 320000000, 652800], [15600, 280000000, 4368000], [2790, 320000000, 892800], [210, 320000000, 67200],
  [5110, 300000000, 1533000], [18600, 280000000, 5208000], [5900, 340000000, 2006000], [6660, 300000000, 1998000], [6660, 340000000, 2264400],
  [7030, 280000000, 1968400], [4010, 360000000, 1443600], [11400, 340000000, 3876000], [446, 320000000, 142720], [263, 320000000, 84160],
  [506, 320000000, 161920], [19000, 340000000, 6460000], [10100, 340000000, 3434000], [723, 320000000, 231360], [15000, 280000000, 4200000],
  [658, 320000000, 210560], [17500, 280000000, 4900000], [754, 320000000, 241280], [25100, 360000000, 9036000], [29300, 280000000, 8204000],
  [1350, 320000000, 432000], [3480, 340000000, 1183200], [2260, 340000000, 768400], [1500, 360000000, 540000], [2300, 360000000, 828000],
  [2300, 360000000, 828000], [3550, 340000000, 1207000], [1820, 360000000, 655200], [2660, 340000000, 904400], [2920, 340000000, 992800],
  [35700, 280000000, 9996000], [23000, 300000000, 6900000], [4520, 340000000, 1536800], [38600, 280000000, 10808000], [46000, 360000000, 16560000],
  [143, 360000000, 51480], [256, 360000000, 92160], [326, 360000000, 117360], [7640, 340000000, 2597600], [34000, 280000000, 9520000],
  [446, 360000000, 160560], [37000, 280000000, 10360000], [263, 360000000, 94680], [506, 360000000, 182160], [295, 360000000, 106200],
  [489, 360000000, 176040], [43200, 360000000, 15552000], [658, 360000000, 236880], [840, 360000000, 302400], [1150, 360000000, 414000],
  [957, 360000000, 344520], [921, 360000000, 331560], [1050, 360000000, 378000], [1350, 360000000, 486000], [52800, 360000000, 19008000],
  [16000, 280000000, 4480000], [16000, 340000000, 5440000], [14600, 300000000, 4380000], [14600, 380000000, 5548000], [16600, 380000000, 6308000],
  [19100, 360000000, 6876000], [15600, 300000000, 4680000], [27800, 360000000, 10008000], [32700, 280000000, 9156000], [11000, 300000000, 3300000],
  [13000, 300000000, 3900000]]

example : tNty.all (fun row => match row with
  | [ag, fy, n] => within 10000 (S7.NtYield rt ag fy) n
  | _ => false) = true := by decide +kernel

/-- test_s_7_2_Ag, line 531: columns N, fy, Ag -/
def tAg : List (List ℚ) := table [0, 0, 9] [
  [13191000, 300000000, 43969000], [83582000, 320000000, 261190000], [46018000, 280000000, 164350000], [7345000, 360000000, 20403000],
  [95848000, 320000000, 299520000], [87720000, 280000000, 313280000], [21216000, 320000000, 66301000], [4590600, 320000000, 14346000],
  [80520000, 300000000, 268400000], [69149000, 360000000, 192080000], [70874000, 320000000, 221480000], [68051000, 320000000, 212660000],
  [85261000, 280000000, 304500000], [53045000, 320000000, 165770000], [2679200, 320000000, 8372400], [67893000, 300000000, 226310000],
  [82003000, 280000000, 292870000], [22734000, 340000000, 66864000], [13699000, 300000000, 45664000], [50739000, 340000000, 149230000],
  [75123000, 280000000, 268300000], [62957000, 360000000, 174880000], [50145000, 340000000, 147490000], [24943000, 320000000, 77946000],
  [21384000, 320000000, 66824000], [59801000, 320000000, 186880000], [44651000, 340000000, 131330000], [27659000, 340000000, 81349000],
  [58245000, 320000000, 182020000], [90376000, 280000000, 322770000], [7089900, 320000000, 22156000], [52320000, 280000000, 186860000],
  [83850000, 320000000, 262030000], [19274000, 360000000, 53540000], [19794000, 280000000, 70693000], [65242000, 320000000, 203880000],
  [55099000, 340000000, 162060000], [28284000, 340000000, 83188000], [17653000, 360000000, 49037000], [13954000, 360000000, 38761000],
  [78713000, 360000000, 218650000], [54069000, 340000000, 159030000], [7223300, 360000000, 20065000], [69659000, 340000000, 204880000],
  [88965000, 340000000, 261660000], [21902000, 280000000, 78221000], [61541000, 300000000, 205140000], [80159000, 340000000, 235760000],
  [23130000, 280000000, 82608000], [63143000, 360000000, 175400000], [42660000, 360000000, 118500000], [32691000, 360000000, 90808000],
  [43230000, 360000000, 120080000], [54363000, 340000000, 159890000], [92368000, 280000000, 329890000], [80999000, 360000000, 225000000],
  [92070000, 280000000, 328820000], [44452000, 360000000, 123480000], [92600000, 360000000, 257220000], [48561000, 360000000, 134890000],
  [15419000, 360000000, 42832000], [20879000, 360000000, 57996000], [10682000, 360000000, 29672000], [17346000, 360000000, 48182000],
  [55065000, 360000000, 152960000], [84534000, 360000000, 234820000], [30406, 360000000, 84461], [50311000, 360000000, 139750000],
  [19320000, 360000000, 53668000], [14486000, 360000000, 40238000], [31642000, 280000000, 113010000], [67732000, 340000000, 199210000],
  [31865000, 300000000, 106220000], [35200000, 380000000, 92632000], [54068000, 380000000, 142290000], [5198800, 360000000, 14441000],
  [93418000, 300000000, 311390000], [83923000, 360000000, 233120000], [27601000, 280000000, 98575000], [49255000, 300000000, 164180000],
  [17400000, 300000000, 57999000]]

example : tAg.all (fun row => match row with
  | [n, fy, ag] => result 10000 (S7.Ag rt n fy) ag
  | _ => false) = true := by decide +kernel

/-- test_s_7_2_N_t_ultimate, line 963: columns An, kt, fu, UU, Nt_ultimate -/
def tNtu : List (List ℚ) := table [8, 2, 0, 2, 0] [
  [569980, 85, 440000000, 85, 1812000], [92752, 75, 440000000, 85, 260170], [3115300, 100, 430000000, 85, 11386000],
  [3146100, 100, 480000000, 85, 12836000], [114240, 85, 440000000, 85, 363160], [5136800, 100, 430000000, 85, 18775000],
  [207240, 85, 440000000, 85, 658800], [218470, 75, 440000000, 85, 612810], [247510, 75, 440000000, 85, 694260],
  [5783600, 100, 480000000, 85, 23597000], [219150, 100, 440000000, 85, 819620], [195860, 100, 440000000, 85, 732520],
  [1456600, 100, 440000000, 85, 5447600], [277650, 85, 440000000, 85, 882650], [19625, 85, 440000000, 85, 62388],
  [465260, 85, 440000000, 85, 1479100], [1758100, 100, 440000000, 85, 6575400], [583860, 100, 480000000, 85, 2382200],
  [608250, 100, 440000000, 85, 2274800], [649920, 100, 480000000, 85, 2651700], [646460, 100, 440000000, 85, 2417800],
  [392470, 100, 480000000, 85, 1601300], [1077700, 100, 480000000, 85, 4397000], [40835, 85, 440000000, 85, 129820],
  [24077, 85, 440000000, 85, 76540], [47574, 85, 440000000, 85, 151240], [1841700, 100, 480000000, 85, 7514100],
  [933990, 100, 480000000, 85, 3810700], [68943, 85, 440000000, 85, 219170], [1473000, 100, 440000000, 85, 5509100],
  [60023, 75, 440000000, 85, 168360], [1749500, 100, 440000000, 85, 6543000], [72372, 85, 440000000, 85, 230070],
  [2351500, 100, 480000000, 85, 9594000], [2671300, 100, 430000000, 85, 9763700], [122840, 85, 440000000, 85, 390500],
  [344520, 85, 480000000, 85, 1194800], [211980, 75, 480000000, 85, 648650], [135330, 75, 480000000, 85, 414100],
  [214520, 75, 480000000, 85, 656420], [216770, 85, 480000000, 85, 751750], [343060, 75, 480000000, 85, 1049800],
  [170300, 75, 480000000, 85, 521120], [248550, 100, 480000000, 85, 1014100], [291370, 85, 480000000, 85, 1010500],
  [3512300, 100, 430000000, 85, 12838000], [2269000, 100, 430000000, 85, 8293200], [422280, 100, 480000000, 85, 1722900],
  [3513500, 100, 430000000, 85, 12842000], [4450200, 100, 480000000, 85, 18157000], [13700, 85, 480000000, 85, 47510],
  [23916, 85, 480000000, 85, 82941], [32077, 85, 480000000, 85, 111240], [754930, 100, 480000000, 85, 3080100],
  [3288200, 100, 430000000, 85, 12018000], [40213, 85, 480000000, 85, 139460], [3365800, 100, 430000000, 85, 12302000],
  [24772, 85, 480000000, 85, 85910], [48185, 85, 480000000, 85, 167110], [28492, 85, 480000000, 85, 98809], [45910, 85, 480000000, 85, 159210],
  [4269400, 100, 480000000, 85, 17419000], [62059, 75, 480000000, 85, 189900], [77315, 75, 480000000, 85, 236580],
  [104380, 85, 480000000, 85, 361980], [86525, 85, 480000000, 85, 300070], [83812, 75, 480000000, 85, 256470], [97862, 85, 480000000, 85, 339380],
  [129880, 85, 480000000, 85, 450420], [4871000, 100, 480000000, 85, 19874000], [1496400, 100, 440000000, 85, 5596500],
  [1596000, 100, 480000000, 85, 6511600], [1405100, 100, 430000000, 85, 5135500], [1393500, 100, 480000000, 85, 5685500],
  [1518500, 100, 480000000, 85, 6195400], [1830300, 100, 480000000, 85, 7467800], [1537500, 100, 430000000, 85, 5619600],
  [2642500, 100, 480000000, 85, 10781000], [3016200, 100, 430000000, 85, 11024000], [1003100, 100, 430000000, 85, 3666200],
  [1198100, 100, 430000000, 85, 4379200]]

example : tNtu.all (fun row => match row with
  | [an, kt, fu, u, n] => within 10000 (S7.NtUltimate rt an fu kt u) n
  | _ => false) = true := by decide +kernel

/-- test_s7_2_An, line 1397: columns N, kt, fu, UltUncert, An -/
def tAn : List (List ℚ) := table [0, 2, 0, 2, 8] [
  [17613000, 85, 440000000, 85, 5540300], [28600000, 75, 440000000, 85, 10196000], [93857000, 100, 430000000, 85, 25679000],
  [44896000, 100, 480000000, 85, 11004000], [72065000, 85, 440000000, 85, 22669000], [90972000, 100, 430000000, 85, 24890000],
  [14775000, 85, 440000000, 85, 4647800], [66052000, 75, 440000000, 85, 23548000], [55121000, 75, 440000000, 85, 19651000],
  [89543000, 100, 480000000, 85, 21947000], [56491000, 100, 440000000, 85, 15105000], [10425000, 100, 440000000, 85, 2787400],
  [82686000, 100, 440000000, 85, 22108000], [93053000, 85, 440000000, 85, 29271000], [41959000, 85, 440000000, 85, 13199000],
  [31521000, 85, 440000000, 85, 9915300], [52393000, 100, 440000000, 85, 14009000], [94061000, 100, 480000000, 85, 23054000],
  [85550000, 100, 440000000, 85, 22874000], [16767000, 100, 480000000, 85, 4109700], [3980100, 100, 440000000, 85, 1064200],
  [15151000, 100, 480000000, 85, 3713400], [62579000, 100, 480000000, 85, 15338000], [60992000, 85, 440000000, 85, 19186000],
  [82825000, 85, 440000000, 85, 26054000], [97674000, 85, 440000000, 85, 30725000], [57936000, 100, 480000000, 85, 14200000],
  [54954000, 100, 480000000, 85, 13469000], [60548000, 85, 440000000, 85, 19046000], [91749000, 100, 440000000, 85, 24532000],
  [56339000, 75, 440000000, 85, 20085000], [35131000, 100, 440000000, 85, 9393400], [25081000, 85, 440000000, 85, 7889500],
  [50686000, 100, 480000000, 85, 12423000], [34886000, 100, 430000000, 85, 9544600], [39763000, 85, 440000000, 85, 12508000],
  [52969000, 85, 480000000, 85, 15274000], [12430000, 75, 480000000, 85, 4062300], [4180700, 75, 480000000, 85, 1366200],
  [87540000, 75, 480000000, 85, 28608000], [81913000, 85, 480000000, 85, 23620000], [74723000, 75, 480000000, 85, 24419000],
  [41143000, 75, 480000000, 85, 13446000], [52960000, 100, 480000000, 85, 12980000], [37325000, 85, 480000000, 85, 10763000],
  [76040000, 100, 430000000, 85, 20804000], [901650, 100, 430000000, 85, 246690], [97281000, 100, 480000000, 85, 23843000],
  [111460, 100, 430000000, 85, 30495], [7872300, 100, 480000000, 85, 1929500], [47939000, 85, 480000000, 85, 13823000],
  [33217000, 85, 480000000, 85, 9578000], [29002000, 85, 480000000, 85, 8362800], [11072000, 100, 480000000, 85, 2713700],
  [83104000, 100, 430000000, 85, 22737000], [59847000, 85, 480000000, 85, 17257000], [83911000, 100, 430000000, 85, 22958000],
  [66635000, 85, 480000000, 85, 19214000], [92777000, 85, 480000000, 85, 26752000], [78346000, 85, 480000000, 85, 22591000],
  [2137800, 85, 480000000, 85, 616440], [14271000, 100, 480000000, 85, 3497700], [22024000, 75, 480000000, 85, 7197300],
  [66159000, 75, 480000000, 85, 21621000], [12612000, 85, 480000000, 85, 3636800], [58950000, 85, 480000000, 85, 16998000],
  [31517000, 75, 480000000, 85, 10300000], [47056000, 85, 480000000, 85, 13569000], [87609000, 85, 480000000, 85, 25262000],
  [68011000, 100, 480000000, 85, 16669000], [62368000, 100, 440000000, 85, 16676000], [93457000, 100, 480000000, 85, 22906000],
  [22272000, 100, 430000000, 85, 6093700], [13364000, 100, 480000000, 85, 3275500], [12258000, 100, 480000000, 85, 3004400],
  [28642000, 100, 480000000, 85, 7020000], [15632000, 100, 430000000, 85, 4276800], [96564000, 100, 480000000, 85, 23668000],
  [16424000, 100, 430000000, 85, 4493600], [33694000, 100, 430000000, 85, 9218700], [7183500, 100, 430000000, 85, 1965400]]

example : tAn.all (fun row => match row with
  | [n, kt, fu, u, an] => result 10000 (S7.An rt n fu kt u) an
  | _ => false) = true := by decide +kernel

/-- test_s7_5_a_min_thickness, line 1662: columns a_e_perp, sft, t_min -/
def tMin : List (List ℚ) := table [0, 2, 2] [
  [83, 25, 2075], [69, 25, 1725], [59, 25, 1475], [33, 25, 825], [234, 25, 5850], [78, 25, 1950], [216, 25, 5400], [38, 25, 950], [51, 25, 1275],
  [170, 25, 4250], [27, 25, 675], [187, 25, 4675], [95, 25, 2375], [249, 25, 6225], [247, 25, 6175], [139, 25, 3475], [82, 25, 2050], [38, 25, 950],
  [237, 25, 5925], [158, 25, 3950], [150, 25, 3750], [188, 25, 4700], [138, 25, 3450], [92, 25, 2300], [65, 25, 1625], [114, 25, 2850],
  [86, 25, 2150], [64, 25, 1600], [127, 25, 3175], [36, 25, 900], [236, 25, 5900], [246, 25, 6150], [105, 25, 2625], [79, 25, 1975], [64, 25, 1600],
  [85, 25, 2125], [201, 25, 5025], [59, 25, 1475], [55, 25, 1375], [48, 25, 1200], [19, 25, 475], [103, 25, 2575], [160, 25, 4000], [234, 25, 5850],
  [3, 25, 75], [249, 25, 6225], [197, 25, 4925], [107, 25, 2675], [131, 25, 3275], [31, 25, 775], [212, 25, 5300], [140, 25, 3500], [187, 25, 4675],
  [88, 25, 2200], [120, 25, 3000], [218, 25, 5450], [157, 25, 3925], [48, 25, 1200], [204, 25, 5100], [224, 25, 5600], [211, 25, 5275],
  [92, 25, 2300], [49, 25, 1225], [166, 25, 4150], [70, 25, 1750], [202, 25, 5050], [5, 25, 125], [53, 25, 1325], [210, 25, 5250], [166, 25, 4150],
  [79, 25, 1975], [143, 25, 3575], [60, 25, 1500], [115, 25, 2875], [143, 25, 3575], [129, 25, 3225], [64, 25, 1600], [224, 25, 5600],
  [144, 25, 3600], [7, 25, 175], [192, 25, 4800]]

example : tMin.all (fun row => match row with
  | [ae, sf, tm] => within 10000 (S7.minThickness rt ae sf) tm
  | _ => false) = true := by decide +kernel

/-- test_s7_5_b_A_beyond, line 1927: columns Areqd, sf, Abeyond -/
def tBeyond : List (List ℚ) := table [8, 0, 8] [
  [893750, 1, 893750], [1308600, 1, 1308600], [1452700, 1, 1452700], [902540, 1, 902540], [1322300, 1, 1322300], [582190, 1, 582190],
  [62745, 1, 62745], [1392200, 1, 1392200], [744280, 1, 744280], [1789000, 1, 1789000], [1465600, 1, 1465600], [213890, 1, 213890],
  [83184, 1, 83184], [203670, 1, 203670], [165420, 1, 165420], [160730, 1, 160730], [10983, 1, 10983], [1472700, 1, 1472700], [913000, 1, 913000],
  [792650, 1, 792650], [1055300, 1, 1055300], [1419700, 1, 1419700], [658970, 1, 658970], [873920, 1, 873920], [1357000, 1, 1357000],
  [1699900, 1, 1699900], [883720, 1, 883720], [234010, 1, 234010], [690290, 1, 690290], [205200, 1, 205200], [1937100, 1, 1937100],
  [348640, 1, 348640], [325670, 1, 325670], [1439600, 1, 1439600], [1881900, 1, 1881900], [253720, 1, 253720], [421920, 1, 421920],
  [1758400, 1, 1758400], [1025800, 1, 1025800], [410570, 1, 410570], [656700, 1, 656700], [1833500, 1, 1833500], [867120, 1, 867120],
  [1425400, 1, 1425400], [941440, 1, 941440], [1870500, 1, 1870500], [367380, 1, 367380], [1083800, 1, 1083800], [1299000, 1, 1299000],
  [1135100, 1, 1135100], [962000, 1, 962000], [1449100, 1, 1449100], [129080, 1, 129080], [1643600, 1, 1643600], [811310, 1, 811310],
  [1358700, 1, 1358700], [1955700, 1, 1955700], [626020, 1, 626020], [313540, 1, 313540], [96718, 1, 96718], [1721500, 1, 1721500],
  [93495, 1, 93495], [1234400, 1, 1234400], [1690900, 1, 1690900], [1618000, 1, 1618000], [305160, 1, 305160], [1942100, 1, 1942100],
  [1410400, 1, 1410400], [1206500, 1, 1206500], [546800, 1, 546800], [1997300, 1, 1997300], [1325700, 1, 1325700], [1740500, 1, 1740500],
  [1321600, 1, 1321600], [1227500, 1, 1227500], [1848700, 1, 1848700], [1837900, 1, 1837900], [47420, 1, 47420], [1336200, 1, 1336200],
  [16818, 1, 16818], [1675900, 1, 1675900]]

example : tBeyond.all (fun row => match row with
  | [a, sf, b] => within 10000 (S7.ABeyond rt a sf) b
  | _ => false) = true := by decide +kernel

/-- test_s7_5_c_A_perp, line 2192: columns Areqd, sf, Aperp -/
def tPerp : List (List ℚ) := table [8, 2, 8] [
  [893750, 133, 1188700], [1308600, 133, 1740400], [1452700, 133, 1932100], [902540, 133, 1200400], [1322300, 133, 1758700], [582190, 133, 774310],
  [62745, 133, 83451], [1392200, 133, 1851700], [744280, 133, 989890], [1789000, 133, 2379300], [1465600, 133, 1949200], [213890, 133, 284470],
  [83184, 133, 110630], [203670, 133, 270890], [165420, 133, 220010], [160730, 133, 213770], [10983, 133, 14608], [1472700, 133, 1958700],
  [913000, 133, 1214300], [792650, 133, 1054200], [1055300, 133, 1403600], [1419700, 133, 1888300], [658970, 133, 876440], [873920, 133, 1162300],
  [1357000, 133, 1804900], [1699900, 133, 2260800], [883720, 133, 1175300], [234010, 133, 311230], [690290, 133, 918090], [205200, 133, 272920],
  [1937100, 133, 2576400], [348640, 133, 463690], [325670, 133, 433140], [1439600, 133, 1914600], [1881900, 133, 2502900], [253720, 133, 337450],
  [421920, 133, 561150], [1758400, 133, 2338700], [1025800, 133, 1364400], [410570, 133, 546060], [656700, 133, 873410], [1833500, 133, 2438500],
  [867120, 133, 1153300], [1425400, 133, 1895700], [941440, 133, 1252100], [1870500, 133, 2487800], [367380, 133, 488620], [1083800, 133, 1441400],
  [1299000, 133, 1727700], [1135100, 133, 1509700], [962000, 133, 1279500], [1449100, 133, 1927300], [129080, 133, 171680], [1643600, 133, 2186000],
  [811310, 133, 1079000], [1358700, 133, 1807000], [1955700, 133, 2601100], [626020, 133, 832610], [313540, 133, 417010], [96718, 133, 128640],
  [1721500, 133, 2289600], [93495, 133, 124350], [1234400, 133, 1641800], [1690900, 133, 2248900], [1618000, 133, 2151900], [305160, 133, 405860],
  [1942100, 133, 2582900], [1410400, 133, 1875900], [1206500, 133, 1604700], [546800, 133, 727250], [1997300, 133, 2656400], [1325700, 133, 1763100],
  [1740500, 133, 2314900], [1321600, 133, 1757800], [1227500, 133, 1632600], [1848700, 133, 2458800], [1837900, 133, 2444400], [47420, 133, 63069],
  [1336200, 133, 1777100], [16818, 133, 22368], [1675900, 133, 2228900]]

example : tPerp.all (fun row => match row with
  | [a, sf, b] => within 10000 (S7.APerp rt a sf) b
  | _ => false) = true := by decide +kernel

/-- test_s7_1_Tension_Capacity, line 3297: columns Ag, An, kt, fy, fu, UU, φ, Nty, φNty, Ntu, φNtu, Nt, φNt -/
def tCap : List (List ℚ) := table [6, 9, 2, 0, 0, 2, 1, 0, 0, 1, 1, 1, 1] [
  [6200, 6162600, 85, 300000000, 440000000, 85, 9, 1860000, 1674000, 19590900, 17631800, 18600000, 16740000],
  [1020, 998826, 75, 320000000, 440000000, 85, 9, 326400, 293760, 2801710, 2521540, 2801710, 2521540],
  [31700, 30321800, 100, 280000000, 430000000, 85, 9, 8876000, 7988400, 110826000, 99743500, 88760000, 79884000],
  [31700, 30441100, 100, 360000000, 480000000, 85, 9, 11412000, 10270800, 124200000, 111780000, 114120000, 102708000],
  [1170, 1107880, 85, 320000000, 440000000, 85, 9, 374400, 336960, 3521960, 3169770, 3521960, 3169770],
  [53900, 50299100, 100, 280000000, 430000000, 85, 9, 15092000, 13582800, 183843000, 165459000, 150920000, 135828000],
  [2300, 2213580, 85, 320000000, 440000000, 85, 9, 736000, 662400, 7036970, 6333270, 7036970, 6333270],
  [2200, 2068780, 75, 320000000, 440000000, 85, 9, 704000, 633600, 5802920, 5222630, 5802920, 5222630],
  [2750, 2527440, 75, 300000000, 440000000, 85, 9, 825000, 742500, 7089460, 6380510, 7089460, 6380510],
  [57900, 56530200, 100, 360000000, 480000000, 85, 9, 20844000, 18759600, 230643000, 207579000, 208440000, 187596000],
  [2300, 2164770, 100, 320000000, 440000000, 85, 9, 736000, 662400, 8096240, 7286620, 7360000, 6624000],
  [2040, 1971370, 100, 320000000, 440000000, 85, 9, 652800, 587520, 7372910, 6635620, 6528000, 5875200],
  [15600, 15051300, 100, 280000000, 440000000, 85, 9, 4368000, 3931200, 56292000, 50662800, 43680000, 39312000],
  [2790, 2569920, 85, 320000000, 440000000, 85, 9, 892800, 803520, 8169760, 7352780, 8169760, 7352780],
  [210, 191198, 85, 320000000, 440000000, 85, 9, 67200, 60480, 607820, 547038, 607820, 547038],
  [5110, 4966860, 85, 300000000, 440000000, 85, 9, 1533000, 1379700, 15789600, 14210700, 15330000, 13797000],
  [18600, 17636800, 100, 280000000, 440000000, 85, 9, 5208000, 4687200, 65961500, 59365300, 52080000, 46872000],
  [5900, 5516180, 100, 340000000, 480000000, 85, 9, 2006000, 1805400, 22506000, 20255400, 20060000, 18054000],
  [6660, 6625610, 100, 300000000, 440000000, 85, 9, 1998000, 1798200, 24779800, 22301800, 19980000, 17982000],
  [6660, 6277600, 100, 340000000, 480000000, 85, 9, 2264400, 2037960, 25612600, 23051300, 22644000, 20379600],
  [7030, 6912640, 100, 280000000, 440000000, 85, 9, 1968400, 1771560, 25853300, 23267900, 19684000, 17715600],
  [4010, 3746260, 100, 360000000, 480000000, 85, 9, 1443600, 1299240, 15284700, 13756300, 14436000, 12992400],
  [11400, 11295200, 100, 340000000, 480000000, 85, 9, 3876000, 3488400, 46084300, 41475800, 38760000, 34884000],
  [446, 404455, 85, 320000000, 440000000, 85, 9, 142720, 128448, 1285760, 1157190, 1285760, 1157190],
  [263, 241085, 85, 320000000, 440000000, 85, 9, 84160, 75744, 766408, 689767, 766408, 689767],
  [506, 502051, 85, 320000000, 440000000, 85, 9, 161920, 145728, 1596020, 1436420, 1596020, 1436420],
  [19000, 17684900, 100, 340000000, 480000000, 85, 9, 6460000, 5814000, 72154500, 64939000, 64600000, 58140000],
  [10100, 9267520, 100, 340000000, 480000000, 85, 9, 3434000, 3090600, 37811500, 34030300, 34340000, 30906000],
  [723, 706048, 85, 320000000, 440000000, 85, 9, 231360, 208224, 2244530, 2020070, 2244530, 2020070],
  [15000, 14907600, 100, 280000000, 440000000, 85, 9, 4200000, 3780000, 55754500, 50179100, 42000000, 37800000],
  [658, 632751, 75, 320000000, 440000000, 85, 9, 210560, 189504, 1774870, 1597380, 1774870, 1597380],
  [17500, 15864900, 100, 280000000, 440000000, 85, 9, 4900000, 4410000, 59334700, 53401300, 49000000, 44100000],
  [754, 751996, 85, 320000000, 440000000, 85, 9, 241280, 217152, 2390600, 2151540, 2390600, 2151540],
  [25100, 24418200, 100, 360000000, 480000000, 85, 9, 9036000, 8132400, 99626100, 89663500, 90360000, 81324000],
  [29300, 29053600, 100, 280000000, 430000000, 85, 9, 8204000, 7383600, 106191000, 95571800, 82040000, 73836000],
  [1350, 1303480, 85, 320000000, 440000000, 85, 9, 432000, 388800, 4143750, 3729380, 4143750, 3729380],
  [3480, 3153790, 85, 340000000, 480000000, 85, 9, 1183200, 1064880, 10937400, 9843620, 10937400, 9843620],
  [2260, 2082160, 75, 340000000, 480000000, 85, 9, 768400, 691560, 6371420, 5734280, 6371420, 5734280],
  [1500, 1362490, 75, 360000000, 480000000, 85, 9, 540000, 486000, 4169220, 3752300, 4169220, 3752300],
  [2300, 2154910, 75, 360000000, 480000000, 85, 9, 828000, 745200, 6594040, 5934630, 6594040, 5934630],
  [2300, 2138910, 85, 360000000, 480000000, 85, 9, 828000, 745200, 7417750, 6675970, 7417750, 6675970],
  [3550, 3329830, 75, 340000000, 480000000, 85, 9, 1207000, 1086300, 10189300, 9170350, 10189300, 9170350],
  [1820, 1707050, 75, 360000000, 480000000, 85, 9, 655200, 589680, 5223570, 4701210, 5223570, 4701210],
  [2660, 2447980, 100, 340000000, 480000000, 85, 9, 904400, 813960, 9987780, 8989000, 9044000, 8139600],
  [2920, 2841280, 85, 340000000, 480000000, 85, 9, 992800, 893520, 9853550, 8868190, 9853550, 8868190],
  [35700, 34675700, 100, 280000000, 430000000, 85, 9, 9996000, 8996400, 126740000, 114066000, 99960000, 89964000],
  [23000, 21384300, 100, 300000000, 430000000, 85, 9, 6900000, 6210000, 78159400, 70343500, 69000000, 62100000],
  [4520, 4257300, 100, 340000000, 480000000, 85, 9, 1536800, 1383120, 17369800, 15632800, 15368000, 13831200],
  [38600, 35201200, 100, 280000000, 430000000, 85, 9, 10808000, 9727200, 128660000, 115794000, 108080000, 97272000],
  [46000, 44147100, 100, 360000000, 480000000, 85, 9, 16560000, 14904000, 180120000, 162108000, 165600000, 149040000],
  [143, 133205, 85, 360000000, 480000000, 85, 9, 51480, 46332, 461954, 415759, 461954, 415759],
  [256, 233816, 85, 360000000, 480000000, 85, 9, 92160, 82944, 810874, 729787, 810874, 729787],
  [326, 317235, 85, 360000000, 480000000, 85, 9, 117360, 105624, 1100170, 990154, 1100170, 990154],
  [7640, 6975730, 100, 340000000, 480000000, 85, 9, 2597600, 2337840, 28461000, 25614900, 25976000, 23378400],
  [34000, 32498100, 100, 280000000, 430000000, 85, 9, 9520000, 8568000, 118781000, 106903000, 95200000, 85680000],
  [446, 442194, 85, 360000000, 480000000, 85, 9, 160560, 144504, 1533530, 1380170, 1533530, 1380170],
  [37000, 34283400, 100, 280000000, 430000000, 85, 9, 10360000, 9324000, 125306000, 112775000, 103600000, 93240000],
  [263, 262700, 85, 360000000, 480000000, 85, 9, 94680, 85212, 911043, 819938, 911043, 819938],
  [506, 491524, 85, 360000000, 480000000, 85, 9, 182160, 163944, 1704600, 1534140, 1704600, 1534140],
  [295, 290974, 85, 360000000, 480000000, 85, 9, 106200, 95580, 1009100, 908189, 1009100, 908189],
  [489, 471057, 85, 360000000, 480000000, 85, 9, 176040, 158436, 1633630, 1470260, 1633630, 1470260],
  [43200, 39110600, 100, 360000000, 480000000, 85, 9, 15552000, 13996800, 159571000, 143614000, 155520000, 139968000],
  [658, 648310, 75, 360000000, 480000000, 85, 9, 236880, 213192, 1983830, 1785450, 1983830, 1785450],
  [840, 839960, 75, 360000000, 480000000, 85, 9, 302400, 272160, 2570280, 2313250, 2570280, 2313250],
  [1150, 1075310, 85, 360000000, 480000000, 85, 9, 414000, 372600, 3729180, 3356260, 3729180, 3356260],
  [957, 895880, 85, 360000000, 480000000, 85, 9, 344520, 310068, 3106910, 2796220, 3106910, 2796220],
  [921, 866116, 75, 360000000, 480000000, 85, 9, 331560, 298404, 2650310, 2385280, 2650310, 2385280],
  [1050, 1035890, 85, 360000000, 480000000, 85, 9, 378000, 340200, 3592480, 3233230, 3592480, 3233230],
  [1350, 1279640, 85, 360000000, 480000000, 85, 9, 486000, 437400, 4437810, 3994030, 4437810, 3994030],
  [52800, 50838200, 100, 360000000, 480000000, 85, 9, 19008000, 17107200, 207420000, 186678000, 190080000, 171072000],
  [16000, 15076000, 100, 280000000, 440000000, 85, 9, 4480000, 4032000, 56384400, 50745900, 44800000, 40320000],
  [16000, 14443300, 100, 340000000, 480000000, 85, 9, 5440000, 4896000, 58928700, 53035900, 54400000, 48960000],
  [14600, 14155000, 100, 300000000, 430000000, 85, 9, 4380000, 3942000, 51736300, 46562700, 43800000, 39420000],
  [14600, 13730900, 100, 380000000, 480000000, 85, 9, 5548000, 4993200, 56022100, 50419900, 55480000, 49932000],
  [16600, 15862000, 100, 380000000, 480000000, 85, 9, 6308000, 5677200, 64716900, 58245200, 63080000, 56772000],
  [19100, 19089500, 100, 360000000, 480000000, 85, 9, 6876000, 6188400, 77885200, 70096700, 68760000, 61884000],
  [15600, 14535600, 100, 300000000, 430000000, 85, 9, 4680000, 4212000, 53127700, 47814900, 46800000, 42120000],
  [27800, 25300400, 100, 360000000, 480000000, 85, 9, 10008000, 9007200, 103226000, 92903100, 100080000, 90072000],
  [32700, 31791500, 100, 280000000, 430000000, 85, 9, 9156000, 8240400, 116198000, 104578000, 91560000, 82404000],
  [11000, 10586400, 100, 300000000, 430000000, 85, 9, 3300000, 2970000, 38693200, 34823900, 33000000, 29700000],
  [13000, 12703600, 100, 300000000, 430000000, 85, 9, 3900000, 3510000, 46431500, 41788400, 39000000, 35100000]]

example : tCap.all (fun row => match row with
  | [ag, an, kt, fy, fu, u, phi, a, b, c, e, g, h] => 
    let r := S7.Nt rt ag an fy fu kt phi u
    within 10000 r.Nty a && within 10000 r.phiNty b && within 10000 r.Ntu c && within 10000 r.phiNtu e &&
      within 10000 r.N g && within 10000 r.phiN h
  | _ => false) = true := by decide +kernel

/-- test_s7_1_Area_Reqd, line 4344: columns F, kt, fy, fu, UU, φ, Ag, An, A, φAg, φAn, φA -/
def tAreas : List (List ℚ) := table [0, 2, 0, 0, 2, 1, 6, 6, 6, 6, 6, 6] [
  [87835000, 85, 300000000, 440000000, 85, 9, 292780, 276300, 292780, 325310, 307000, 325310],
  [25614000, 75, 320000000, 440000000, 85, 9, 80043, 91315, 91315, 88937, 101460, 101460],
  [80307000, 100, 280000000, 430000000, 85, 9, 286810, 219720, 286810, 318680, 244130, 318680],
  [73173000, 100, 360000000, 480000000, 85, 9, 203260, 179340, 203260, 225840, 199270, 225840],
  [58406000, 85, 320000000, 440000000, 85, 9, 182520, 183720, 183720, 202800, 204140, 204140],
  [79700000, 100, 280000000, 430000000, 85, 9, 284640, 218060, 284640, 316270, 242290, 316270],
  [11871000, 85, 320000000, 440000000, 85, 9, 37097, 37342, 37342, 41219, 41491, 41491],
  [79376000, 75, 320000000, 440000000, 85, 9, 248050, 282980, 282980, 275610, 314420, 314420],
  [17109000, 75, 300000000, 440000000, 85, 9, 57029, 60994, 60994, 63366, 67771, 67771],
  [16029000, 100, 360000000, 480000000, 85, 9, 44524, 39286, 44524, 49471, 43651, 49471],
  [11388000, 100, 320000000, 440000000, 85, 9, 35587, 30449, 35587, 39541, 33832, 39541],
  [81808000, 100, 320000000, 440000000, 85, 9, 255650, 218740, 255650, 284050, 243040, 284050],
  [33041000, 100, 280000000, 440000000, 85, 9, 118000, 88345, 118000, 131110, 98161, 131110],
  [73486000, 85, 320000000, 440000000, 85, 9, 229640, 231160, 231160, 255160, 256850, 256850],
  [40617000, 85, 320000000, 440000000, 85, 9, 126930, 127770, 127770, 141030, 141960, 141960],
  [99299000, 85, 300000000, 440000000, 85, 9, 331000, 312360, 331000, 367780, 347070, 367780],
  [35843000, 100, 280000000, 440000000, 85, 9, 128010, 95837, 128010, 142230, 106490, 142230],
  [10297000, 100, 340000000, 480000000, 85, 9, 30284, 25237, 30284, 33649, 28041, 33649],
  [91571000, 100, 300000000, 440000000, 85, 9, 305240, 244840, 305240, 339150, 272050, 339150],
  [99730000, 100, 340000000, 480000000, 85, 9, 293320, 244440, 293320, 325910, 271590, 325910],
  [62006000, 100, 280000000, 440000000, 85, 9, 221450, 165790, 221450, 246050, 184210, 246050],
  [84545000, 100, 360000000, 480000000, 85, 9, 234850, 207220, 234850, 260940, 230240, 260940],
  [73756000, 100, 340000000, 480000000, 85, 9, 216930, 180780, 216930, 241030, 200860, 241030],
  [57379000, 85, 320000000, 440000000, 85, 9, 179310, 180490, 180490, 199230, 200550, 200550],
  [36114000, 85, 320000000, 440000000, 85, 9, 112860, 113600, 113600, 125400, 126230, 126230],
  [36143000, 85, 320000000, 440000000, 85, 9, 112950, 113690, 113690, 125500, 126320, 126320],
  [74431000, 100, 340000000, 480000000, 85, 9, 218910, 182430, 218910, 243240, 202700, 243240],
  [21338000, 100, 340000000, 480000000, 85, 9, 62758, 52298, 62758, 69731, 58109, 69731],
  [43905000, 85, 320000000, 440000000, 85, 9, 137200, 138110, 138110, 152450, 153450, 153450],
  [65457000, 100, 280000000, 440000000, 85, 9, 233780, 175020, 233780, 259750, 194470, 259750],
  [65336000, 75, 320000000, 440000000, 85, 9, 204180, 232930, 232930, 226860, 258810, 258810],
  [84041000, 100, 280000000, 440000000, 85, 9, 300150, 224710, 300150, 333500, 249680, 333500],
  [70117000, 85, 320000000, 440000000, 85, 9, 219120, 220560, 220560, 243460, 245070, 245070],
  [31153000, 100, 360000000, 480000000, 85, 9, 86536, 76355, 86536, 96151, 84839, 96151],
  [81707000, 100, 280000000, 430000000, 85, 9, 291810, 223550, 291810, 324240, 248390, 324240],
  [94180000, 85, 320000000, 440000000, 85, 9, 294310, 296260, 296260, 327020, 329180, 329180],
  [43662000, 85, 340000000, 480000000, 85, 9, 128420, 125900, 128420, 142690, 139890, 142690],
  [6864500, 75, 340000000, 480000000, 85, 9, 20190, 22433, 22433, 22433, 24926, 24926],
  [26445000, 75, 360000000, 480000000, 85, 9, 73459, 86423, 86423, 81621, 96025, 96025],
  [74706000, 75, 360000000, 480000000, 85, 9, 207520, 244140, 244140, 230580, 271270, 271270],
  [12751000, 85, 360000000, 480000000, 85, 9, 35419, 36767, 36767, 39355, 40852, 40852],
  [16247000, 75, 340000000, 480000000, 85, 9, 47787, 53096, 53096, 53096, 58996, 58996],
  [53498000, 75, 360000000, 480000000, 85, 9, 148600, 174830, 174830, 165120, 194250, 194250],
  [90084000, 100, 340000000, 480000000, 85, 9, 264950, 220790, 264950, 294390, 245330, 294390],
  [5619900, 85, 340000000, 480000000, 85, 9, 16529, 16205, 16529, 18366, 18006, 18366],
  [57250000, 100, 280000000, 430000000, 85, 9, 204460, 156630, 204460, 227180, 174040, 227180],
  [5856600, 100, 300000000, 430000000, 85, 9, 19522, 16023, 19522, 21691, 17804, 21691],
  [93975000, 100, 340000000, 480000000, 85, 9, 276400, 230330, 276400, 307110, 255920, 307110],
  [81399000, 100, 280000000, 430000000, 85, 9, 290710, 222710, 290710, 323010, 247450, 323010],
  [77221000, 100, 360000000, 480000000, 85, 9, 214500, 189270, 214500, 238340, 210300, 238340],
  [82956000, 85, 360000000, 480000000, 85, 9, 230430, 239200, 239200, 256040, 265780, 265780],
  [7181200, 85, 360000000, 480000000, 85, 9, 19948, 20707, 20707, 22164, 23008, 23008],
  [73070000, 85, 360000000, 480000000, 85, 9, 202970, 210700, 210700, 225520, 234110, 234110],
  [15288000, 100, 340000000, 480000000, 85, 9, 44964, 37470, 44964, 49960, 41633, 49960],
  [53201000, 100, 280000000, 430000000, 85, 9, 190000, 145560, 190000, 211110, 161730, 211110],
  [12924000, 85, 360000000, 480000000, 85, 9, 35900, 37266, 37266, 39889, 41407, 41407],
  [32446000, 100, 280000000, 430000000, 85, 9, 115880, 88773, 115880, 128760, 98636, 128760],
  [38754000, 85, 360000000, 480000000, 85, 9, 107650, 111750, 111750, 119610, 124170, 124170],
  [93924000, 85, 360000000, 480000000, 85, 9, 260900, 270830, 270830, 289890, 300920, 300920],
  [23999000, 85, 360000000, 480000000, 85, 9, 66664, 69202, 69202, 74071, 76891, 76891],
  [91604000, 85, 360000000, 480000000, 85, 9, 254460, 264140, 264140, 282730, 293490, 293490],
  [22048000, 100, 360000000, 480000000, 85, 9, 61245, 54040, 61245, 68050, 60044, 68050],
  [32138000, 75, 360000000, 480000000, 85, 9, 89273, 105030, 105030, 99192, 116700, 116700],
  [6405900, 75, 360000000, 480000000, 85, 9, 17794, 20934, 20934, 19771, 23260, 23260],
  [70914000, 85, 360000000, 480000000, 85, 9, 196980, 204480, 204480, 218870, 227200, 227200],
  [99618000, 85, 360000000, 480000000, 85, 9, 276720, 287250, 287250, 307460, 319170, 319170],
  [54638000, 75, 360000000, 480000000, 85, 9, 151770, 178560, 178560, 168640, 198400, 198400],
  [36056000, 85, 360000000, 480000000, 85, 9, 100160, 103970, 103970, 111290, 115520, 115520],
  [57715000, 85, 360000000, 480000000, 85, 9, 160320, 166420, 166420, 178130, 184910, 184910],
  [46032000, 100, 360000000, 480000000, 85, 9, 127870, 112820, 127870, 142080, 125360, 142080],
  [88558000, 100, 280000000, 440000000, 85, 9, 316280, 236790, 316280, 351420, 263100, 351420],
  [17602000, 100, 340000000, 480000000, 85, 9, 51771, 43143, 51771, 57524, 47936, 57524],
  [76586000, 100, 300000000, 430000000, 85, 9, 255290, 209540, 255290, 283650, 232820, 283650],
  [26728000, 100, 380000000, 480000000, 85, 9, 70337, 65510, 70337, 78152, 72788, 78152],
  [36139000, 100, 380000000, 480000000, 85, 9, 95102, 88576, 95102, 105670, 98417, 105670],
  [74192000, 100, 360000000, 480000000, 85, 9, 206090, 181840, 206090, 228990, 202050, 228990],
  [77728000, 100, 300000000, 430000000, 85, 9, 259090, 212660, 259090, 287880, 236290, 287880],
  [51499000, 100, 360000000, 480000000, 85, 9, 143050, 126220, 143050, 158950, 140250, 158950],
  [82874000, 100, 280000000, 430000000, 85, 9, 295980, 226740, 295980, 328860, 251930, 328860],
  [64163000, 100, 300000000, 430000000, 85, 9, 213880, 175550, 213880, 237640, 195050, 237640],
  [65250000, 100, 300000000, 430000000, 85, 9, 217500, 178520, 217500, 241670, 198360, 241670]]

example : tAreas.all (fun row => match row with
  | [n, kt, fy, fu, u, phi, a, b, c, e, g, h] => passes (S7.AReqd rt n fy fu kt phi u) fun r =>
    within 10000 r.Ag a && within 10000 r.An b && within 10000 r.A c && within 10000 r.phiAg e &&
      within 10000 r.phiAn g && within 10000 r.phiA h
  | _ => false) = true := by decide +kernel

end BeamDesign.Conformance
