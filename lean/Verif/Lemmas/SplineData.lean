import Verif.Lemmas.SplineCert

/-!
Approximate second derivatives and radii `(m, w, e)`, standing for `m / 10 ^ e` and `w / 10 ^ e`, of the cubic splines through the shipped stars and
response curves.  Nothing is assumed of these numbers: `rowsOK` checks them (`Lemmas/StarSplines.lean`).
-/

namespace KC

def cert_sun_0 : List (Int × Nat × Nat) :=
  [(0, 4691, 55), (0, 988, 55), (0, 148, 54), (0, 222, 54), (0, 333, 54), (0, 500, 54), (0, 750, 54), (0, 113, 53), (0, 169, 53), (0, 253, 53),
   (0, 380, 53), (0, 570, 53), (0, 855, 53), (0, 128, 52), (0, 192, 52), (0, 288, 52), (0, 433, 52), (0, 649, 52), (0, 974, 52), (0, 146, 51),
   (0, 219, 51), (0, 329, 51), (0, 493, 51), (0, 739, 51), (0, 111, 50), (0, 166, 50), (0, 250, 50), (0, 374, 50), (0, 561, 50), (0, 842, 50),
   (0, 126, 49), (0, 189, 49), (0, 284, 49), (0, 426, 49), (0, 639, 49), (0, 959, 49), (0, 144, 48), (0, 216, 48), (0, 324, 48), (0, 486, 48),
   (0, 728, 48), (0, 109, 47), (0, 164, 47), (0, 246, 47), (0, 369, 47), (0, 553, 47), (0, 830, 47), (0, 124, 46), (0, 187, 46), (0, 280, 46),
   (0, 420, 46), (0, 630, 46), (0, 945, 46), (0, 142, 45), (0, 213, 45), (0, 319, 45), (0, 478, 45), (0, 718, 45), (0, 108, 44), (0, 161, 44),
   (0, 242, 44), (0, 363, 44), (0, 545, 44), (0, 817, 44), (0, 123, 43), (0, 184, 43), (0, 276, 43), (0, 414, 43), (0, 621, 43), (0, 931, 43),
   (0, 140, 42), (0, 210, 42), (0, 314, 42), (0, 471, 42), (0, 707, 42), (0, 106, 41), (0, 159, 41), (0, 239, 41), (0, 358, 41), (0, 537, 41),
   (0, 805, 41), (0, 121, 40), (0, 181, 40), (0, 272, 40), (0, 408, 40), (0, 612, 40), (0, 917, 40), (0, 138, 39), (0, 206, 39), (0, 310, 39),
   (0, 464, 39), (0, 697, 39), (0, 105, 38), (0, 157, 38), (0, 235, 38), (0, 353, 38), (0, 529, 38), (0, 794, 38), (0, 119, 37), (0, 179, 37),
   (0, 268, 37), (0, 402, 37), (0, 603, 37), (0, 904, 37), (0, 136, 36), (0, 203, 36), (1, 305, 36), (-5, 458, 36), (20, 686, 36), (-7, 103, 35),
   (27, 154, 35), (-102, 232, 35), (382, 347, 35), (-1427, 521, 35), (5324, 782, 35), (-1987, 117, 34), (7416, 176, 34), (-27677, 264, 34),
   (103292, 396, 34), (-385491, 594, 34)]

def cert_sun_1 : List (Int × Nat × Nat) :=
  [(1438672, 891, 34), (-536920, 134, 33), (2003812, 200, 33), (-1559145, 156, 33), (671449, 213, 33), (264979, 320, 33), (584212, 480, 33),
   (-380348, 720, 33), (154190, 108, 32), (-19662, 162, 32), (294898, 243, 32), (261085, 365, 32), (-984209, 547, 32), (2289271, 820, 32),
   (-53088, 123, 31), (-30762, 185, 31), (199957, 277, 31), (-198528, 415, 31), (1169345, 623, 31), (-3788825, 934, 31), (1401677, 140, 30),
   (-5583145, 934, 31), (1881669, 751, 31), (505335, 113, 30), (221224, 169, 30), (-1079420, 253, 30), (2044559, 380, 30), (-123352, 570, 30),
   (191103, 855, 30), (-741379, 128, 29), (1298207, 192, 29), (-2886058, 289, 29), (4204229, 420, 29), (-736503, 280, 29), (-393141, 187, 29),
   (-25976, 125, 29), (-1013943, 120, 29), (1807377, 181, 29), (-1534831, 154, 29), (2315214, 232, 29), (-3455588, 346, 29), (4764090, 476, 29),
   (-4448929, 445, 29), (2319524, 297, 29), (823931, 198, 29), (482048, 207, 29), (-2090047, 311, 29), (842272, 466, 29), (903722, 700, 29),
   (-93247, 105, 28), (582649, 157, 28), (-409504, 236, 28), (507017, 354, 28), (-1048744, 531, 28), (5156810, 797, 28), (-1195198, 120, 27),
   (8478615, 848, 28), (-592322, 565, 28), (-528490, 534, 28), (-1318770, 801, 28), (302565, 120, 27), (472152, 180, 27), (-2342104, 270, 27),
   (2756193, 406, 27), (6085006, 609, 27), (588561, 692, 27), (-1038056, 104, 26), (1481127, 148, 26), (-1607183, 161, 26), (2075338, 208, 26),
   (-1239080, 167, 26), (215408, 251, 26), (-172886, 376, 26), (-14662, 564, 26), (446300, 846, 26), (-99595, 127, 25), (455946, 190, 25),
   (-1102485, 285, 25), (1847369, 428, 25), (-3467883, 642, 25), (9631924, 963, 25), (-7760341, 776, 25), (2205595, 517, 25), (-758527, 345, 25),
   (-483245, 230, 25), (1276046, 153, 25), (-527218, 140, 25), (587706, 209, 25), (1966440, 314, 25), (-4711543, 471, 25), (2523543, 314, 25),
   (1748294, 209, 25), (-533999, 179, 25), (-1264875, 269, 25), (-2857482, 403, 25), (6050295, 605, 25), (-1649666, 759, 25), (-1031695, 114, 24),
   (1706691, 171, 24), (-736286, 114, 24), (839176, 759, 25), (-3540637, 775, 25), (1161923, 116, 24), (-1519849, 152, 24), (904648, 175, 24),
   (50493, 263, 24), (-2845363, 395, 24), (5921565, 592, 24), (-4700974, 470, 24), (3188522, 319, 24), (-3707734, 371, 24), (4181870, 418, 24),
   (-2147397, 465, 24), (-612013, 697, 24), (257652, 105, 23), (-517565, 157, 23), (688417, 235, 23), (-225302, 353, 23), (-365986, 529, 23),
   (1165507, 794, 23)]

def cert_sun_2 : List (Int × Nat × Nat) :=
  [(-442620, 119, 22), (1786004, 179, 22), (-1493470, 149, 22), (-716116, 996, 23), (104624, 664, 23), (2285286, 443, 23), (-3397440, 340, 23),
   (1229456, 226, 23), (3244610, 324, 23), (-4176519, 418, 23), (126403, 278, 23), (73359, 374, 23), (5607155, 561, 23), (-7037741, 704, 23),
   (4012426, 469, 23), (-5520193, 552, 23), (6631953, 663, 23), (1338251, 442, 23), (-4818188, 482, 23), (-3043384, 321, 23), (3471257, 467, 23),
   (-1022960, 700, 23), (959155, 105, 22), (-1575901, 158, 22), (1459097, 146, 22), (-1172270, 117, 22), (3742200, 782, 23), (1240662, 717, 23),
   (-616953, 108, 22), (1613266, 161, 22), (-1987938, 199, 22), (1575147, 158, 22), (-1218739, 122, 22), (9177600, 918, 23), (-3544094, 612, 23),
   (-486930, 653, 23), (9791322, 979, 23), (-1202828, 120, 22), (6989833, 802, 23), (-1313374, 551, 23), (-8271538, 827, 23), (6949314, 705, 23),
   (-1058077, 106, 22), (1262439, 126, 22), (704680, 189, 22), (-2842391, 284, 22), (2312041, 231, 22), (-71659, 154, 22), (1136688, 138, 22),
   (-1672852, 208, 22), (3115770, 312, 22), (-4231109, 423, 22), (3375273, 338, 22), (-2272019, 227, 22), (750522, 151, 22), (-324805, 101, 22),
   (241882, 121, 22), (248259, 181, 22), (2062650, 272, 22), (-1934499, 408, 22), (3828451, 612, 22), (-9182790, 918, 22), (6743365, 674, 22),
   (186428, 450, 22), (-5341964, 534, 22), (6238064, 624, 22), (-5186866, 519, 22), (1111186, 346, 22), (3620466, 362, 22), (-5285305, 529, 22),
   (4631331, 463, 22), (-790405, 309, 22), (-496119, 206, 22), (-2342514, 234, 22), (1106597, 156, 22), (837291, 148, 22), (2221164, 222, 22),
   (-250343, 160, 22), (-2406901, 241, 22), (-1249495, 256, 22), (-434883, 384, 22), (5755500, 576, 22), (-437516, 389, 22), (-5839501, 584, 22),
   (5407510, 541, 22), (-795944, 361, 22), (-1548541, 240, 22), (470159, 160, 22), (300226, 107, 22), (-2187811, 712, 23), (-777710, 475, 23),
   (2405844, 316, 23), (-1789794, 384, 23), (131959, 576, 23), (-6237277, 864, 23), (1295707, 130, 22), (-1065459, 107, 22), (705736, 710, 23),
   (961570, 103, 22), (-1547700, 155, 22), (1725580, 173, 22), (-1932721, 193, 22), (2326335, 233, 22), (-859234, 155, 22), (-685533, 103, 22),
   (1290206, 689, 23), (2447993, 722, 23), (155000, 108, 22), (-1624687, 162, 22), (2335208, 234, 22), (-1128132, 156, 22), (253410, 104, 22),
   (3354528, 692, 23), (-4242053, 461, 23), (3118274, 517, 23), (-389844, 775, 23), (-957059, 116, 22), (1744715, 174, 22), (-2359733, 236, 22),
   (1524045, 157, 22)]

def cert_sun_3 : List (Int × Nat × Nat) :=
  [(284602, 105, 22), (-6040597, 815, 23), (12699, 122, 22), (1832810, 183, 22), (-912051, 122, 22), (-900593, 130, 22), (1774318, 195, 22),
   (-2930971, 293, 22), (2706812, 271, 22), (67889, 180, 22), (-1070623, 172, 22), (903064, 259, 22), (-3879465, 388, 22), (5639150, 564, 22),
   (-3369590, 376, 22), (1492253, 282, 22), (1299490, 424, 22), (-6354403, 635, 22), (8738993, 874, 22), (-8097811, 810, 22), (8592367, 859, 22),
   (-5557784, 573, 22), (1142196, 382, 22), (-563355, 255, 22), (-331504, 170, 22), (1910717, 191, 22), (-1999974, 200, 22), (936480, 133, 22),
   (-4269247, 889, 23), (4236441, 593, 23), (-8634420, 863, 23), (9535592, 954, 23), (-8807087, 881, 23), (850471, 104, 22), (-977773, 156, 22),
   (825920, 234, 22), (-2199872, 351, 22), (5270150, 527, 22), (-4740170, 474, 22), (2916126, 316, 22), (-2692937, 269, 22), (2001403, 200, 22),
   (-287486, 133, 22), (-7999781, 890, 23), (9466514, 947, 23), (-992819, 111, 22), (1617106, 166, 22), (-2494944, 249, 22), (1725463, 173, 22),
   (107108, 115, 22), (-1320141, 132, 22), (1186607, 119, 22), (-7104571, 791, 23), (3825666, 527, 23), (1323935, 352, 23), (-4107195, 411, 23),
   (-1422249, 508, 23), (7617238, 762, 23), (-4217396, 508, 23), (-116630, 339, 23), (-166244, 353, 23), (-1855824, 529, 23), (4758382, 793, 23),
   (-624300, 119, 22), (-904041, 178, 22), (2677156, 268, 22), (-1719172, 178, 22), (79714, 119, 22), (5708727, 793, 23), (-2586006, 529, 23),
   (-5917044, 592, 23), (1194815, 640, 23), (9605314, 961, 23), (-8759924, 876, 23), (8094111, 809, 23), (-1049615, 105, 22), (8374384, 837, 23),
   (-5928638, 593, 23), (2661708, 533, 23), (-7996746, 800, 23), (9512171, 951, 23), (5890734, 667, 23), (-1000276, 100, 22), (961218, 139, 22),
   (-2083278, 208, 22), (2531301, 253, 22), (-889480, 169, 22), (-1339625, 134, 22), (2002130, 200, 22), (-1234659, 133, 22), (4108841, 890, 23),
   (-4363954, 593, 23), (6005584, 601, 23), (-892080, 400, 23), (-3676859, 368, 23), (3106671, 311, 23), (-2009200, 207, 23), (1198606, 142, 23),
   (921524, 214, 23), (-3205650, 321, 23), (441550, 289, 23), (4338127, 434, 23), (-3708557, 371, 23), (2040424, 260, 23), (-3896277, 390, 23),
   (5504735, 550, 23), (-6349262, 665, 23), (9980257, 998, 23), (-1115973, 112, 22), (7424619, 744, 23), (-5605548, 561, 23), (4844540, 484, 23),
   (-698413, 323, 23), (-3720101, 426, 23), (5045760, 639, 23), (-9585893, 959, 23), (1335792, 134, 22), (-8067857, 891, 23), (2313390, 594, 23),
   (-377599, 396, 23)]

def cert_sun_4 : List (Int × Nat × Nat) :=
  [(-684438, 264, 23), (-530997, 176, 23), (1518802, 152, 23), (658831, 101, 23), (-1393049, 139, 23), (-1662299, 198, 23), (2889885, 297, 23),
   (-4461464, 446, 23), (6354563, 635, 23), (-6586617, 659, 23), (8117642, 812, 23), (-5192341, 541, 23), (-156082, 361, 23), (-1412324, 380, 23),
   (5703781, 570, 23), (-3492637, 380, 23), (-1802441, 254, 23), (2782769, 278, 23), (-701622, 186, 23), (-737200, 157, 23), (1831724, 235, 23),
   (-3525173, 353, 23), (3886153, 389, 23), (-2613970, 261, 23), (1162344, 220, 23), (-1287017, 330, 23), (2833009, 496, 23), (-2327895, 744, 23),
   (65166, 112, 22), (-1173325, 167, 22), (2509720, 251, 22), (-1526364, 167, 22), (190322, 112, 22), (246784, 744, 23), (-1477857, 496, 23),
   (3039650, 330, 23), (-3975027, 398, 23), (3755016, 376, 23), (-2667940, 267, 23), (1515815, 178, 23), (-846172, 119, 23), (46023, 119, 23),
   (1232450, 179, 23), (-2678973, 268, 23), (2949103, 295, 23), (-1204273, 197, 23), (-372579, 131, 23), (4613529, 874, 24), (-1692598, 750, 24),
   (6296, 113, 23), (586740, 169, 23), (-2532115, 253, 23), (3474642, 347, 23), (-1395508, 232, 23), (-434244, 154, 23), (213663, 103, 23),
   (6191269, 776, 24), (-1163603, 116, 23), (520229, 108, 23), (790610, 163, 23), (-2440796, 244, 23), (3578247, 358, 23), (-2201102, 239, 23),
   (877278, 159, 23), (-163064, 141, 23), (-1993745, 212, 23), (3180706, 318, 23), (-1850344, 212, 23), (670637, 141, 23), (625858, 942, 24),
   (-1283406, 128, 23), (-256934, 193, 23), (2888165, 289, 23), (-2060053, 206, 23), (1115655, 137, 23), (-1356203, 136, 23), (9270293, 927, 24),
   (-2811858, 618, 24), (3837678, 609, 24), (-9128803, 913, 24), (5931550, 609, 24), (-1864126, 715, 24), (292119, 107, 23), (186049, 161, 23),
   (-2142001, 241, 23), (3621880, 362, 23), (-2953674, 295, 23), (1768726, 197, 23), (-1458852, 146, 23), (1618284, 162, 23), (-815984, 108, 23),
   (-1034582, 719, 24), (-1482301, 479, 24), (489536, 582, 24), (8728091, 873, 24), (-8657983, 866, 24), (-1491104, 577, 24), (-1809495, 385, 24),
   (5665258, 567, 24), (7459844, 746, 24), (-6673164, 667, 24), (-7819049, 782, 24), (1036620, 104, 23), (-9173919, 924, 24), (1386545, 139, 23),
   (-1941103, 194, 23), (1920936, 192, 23), (-737655, 128, 23), (-3705938, 864, 24), (749963, 130, 23), (-1942893, 194, 23), (2196769, 220, 23),
   (-938969, 146, 23), (6019060, 976, 24), (122820, 651, 24), (-3978015, 454, 24), (-6815690, 682, 24), (6572151, 657, 24), (2691000, 733, 24),
   (278978, 110, 23)]

def cert_sun_5 : List (Int × Nat × Nat) :=
  [(-1649362, 165, 23), (2414002, 241, 23), (-2417927, 242, 23), (1938959, 194, 23), (-1484958, 195, 23), (1819559, 293, 23), (-3989879, 440, 23),
   (6597395, 660, 23), (-8334351, 833, 23), (9173113, 917, 23), (-6731960, 673, 23), (2671154, 449, 23), (-231413, 299, 23), (695632, 337, 23),
   (-5055410, 506, 23), (7178520, 718, 23), (-3299717, 479, 23), (613183, 319, 23), (-1711050, 213, 23), (2747966, 275, 23), (-1755790, 183, 23),
   (-591285, 122, 23), (1755617, 176, 23), (-607243, 154, 23), (-1874103, 230, 23), (3455248, 346, 23), (-1861348, 230, 23), (-684194, 154, 23),
   (1096169, 110, 23), (-507806, 148, 23), (934568, 222, 23), (-3323742, 332, 23), (4489369, 449, 23), (-1539579, 299, 23), (-977382, 200, 23),
   (-316838, 133, 23), (1547002, 155, 23), (-89126, 103, 23), (-7747519, 775, 24), (1046992, 517, 24), (5771691, 765, 24), (-1147137, 115, 23),
   (-415295, 139, 23), (2083788, 208, 23), (-798507, 139, 23), (-644413, 926, 24), (357221, 617, 24), (-4109663, 521, 24), (4010725, 782, 24),
   (-497531, 117, 23), (1045866, 176, 23), (-2640035, 264, 23), (3821721, 382, 23), (-2950743, 295, 23), (1866268, 197, 23), (-784048, 131, 23),
   (-343321, 110, 23), (763408, 165, 23), (-2418580, 247, 23), (3705750, 371, 23), (-1657453, 247, 23), (-326645, 165, 23), (78606, 110, 23),
   (2844195, 732, 24), (-2708931, 488, 24), (6260157, 626, 24), (-6628647, 663, 24), (3785982, 442, 24), (-5451336, 545, 24), (6371282, 637, 24),
   (-4981227, 498, 24), (5729187, 573, 24), (-5089905, 509, 24), (3413737, 341, 24), (-4184984, 418, 24), (3179373, 318, 24), (-1380471, 230, 24),
   (3451625, 345, 24), (-3419793, 342, 24), (1095555, 228, 24), (-1081369, 152, 24), (256827, 101, 24), (-924597, 143, 24), (2142183, 214, 24),
   (-1919502, 192, 24), (1078343, 128, 24), (-1098819, 853, 25), (-7168455, 717, 25), (4927813, 493, 25), (3910261, 629, 25), (-9441255, 944, 25),
   (1032708, 103, 24), (-7927110, 793, 25), (4945345, 737, 25), (-1060585, 111, 24), (1658100, 166, 24), (-988706, 111, 24), (-1719172, 737, 25),
   (8325575, 833, 25), (-1096949, 110, 24), (1076460, 108, 24), (1384599, 718, 25), (-4465825, 478, 25), (-1745443, 343, 25), (-1051533, 514, 25),
   (6472530, 771, 25), (-1156703, 116, 24), (1099487, 110, 24), (-3003140, 733, 25), (-5584738, 856, 25), (1284601, 128, 24), (-9849510, 985, 25),
   (1221320, 657, 25), (-1978473, 438, 25), (2949543, 640, 25), (6432274, 961, 25), (-1440984, 144, 24), (1110805, 111, 24), (-766086, 120, 24),
   (1631854, 180, 24)]

def cert_sun_6 : List (Int × Nat × Nat) :=
  [(-2699394, 270, 24), (2628321, 263, 24), (-1624408, 175, 24), (869184, 117, 24), (-1095843, 779, 25), (-2688957, 519, 25), (-1021123, 346, 25),
   (2656729, 266, 25), (-981687, 177, 25), (-1283038, 221, 25), (3312322, 331, 25), (-3595784, 360, 25), (1802055, 391, 25), (240846, 586, 25),
   (-1862937, 879, 25), (241647, 132, 24), (441311, 198, 24), (-2799054, 297, 24), (4451136, 445, 24), (-2804106, 297, 24), (1057025, 198, 24),
   (-828120, 132, 24), (7864419, 879, 25), (-7486966, 749, 25), (3283302, 499, 25), (4463572, 549, 25), (-8235968, 824, 25), (7317005, 732, 25),
   (-5089111, 509, 25), (4746592, 475, 25), (-4027849, 403, 25), (2511205, 296, 25), (-4440698, 444, 25), (5593682, 559, 25), (-2815317, 373, 25),
   (564323, 249, 25), (280414, 166, 25), (193362, 110, 25), (-93470, 116, 25), (-499877, 173, 25), (932640, 260, 25), (-3259608, 390, 25),
   (5855473, 586, 25), (-7137671, 714, 25), (8379242, 838, 25), (-8501087, 850, 25), (2683472, 567, 25), (4633091, 616, 25), (-106372, 924, 25),
   (-1338581, 139, 24), (2078609, 208, 24), (-1809543, 181, 24), (1278285, 128, 24), (-5777618, 852, 25), (2955473, 568, 25), (-4944143, 494, 25),
   (3441616, 428, 25), (1835918, 641, 25), (-8531163, 962, 25), (1443155, 144, 24), (-1099128, 110, 24), (-2055151, 733, 25), (6750056, 675, 25),
   (2022267, 450, 25), (-3406197, 341, 25), (-3141066, 384, 25), (5761275, 576, 25), (-4711919, 471, 25), (2639315, 314, 25), (-859911, 209, 25),
   (343489, 221, 25), (-1563044, 332, 25), (-297609, 498, 25), (6461620, 746, 25), (-1119590, 112, 24), (1176724, 118, 24), (-1349054, 135, 24),
   (1583562, 158, 24), (-1696560, 170, 24), (1610788, 161, 24), (-643377, 107, 24), (-703840, 716, 25), (-379462, 477, 25), (1485715, 318, 25),
   (-1493084, 212, 25), (14654, 141, 25), (1493217, 149, 25), (-1110615, 111, 25), (-226191, 114, 25), (-512039, 171, 25), (2563394, 256, 25),
   (-2632493, 263, 25), (1349574, 175, 25), (-421302, 121, 25), (-1311998, 182, 25), (2723579, 272, 25), (-1391843, 182, 25), (100663, 121, 25),
   (-818370, 807, 26), (2204248, 538, 26), (-2216515, 608, 26), (2758990, 912, 26), (-1332572, 137, 25), (2050934, 205, 25), (-768303, 137, 25),
   (-3963486, 912, 26), (558020, 110, 25), (-155683, 165, 25), (-1775906, 247, 25), (3702727, 370, 25), (-3121257, 312, 25), (2076788, 208, 25),
   (-1265268, 139, 25), (4348477, 925, 26), (-29876, 111, 25), (-1214538, 166, 25), (2494185, 249, 25), (-1647563, 166, 25), (334969, 111, 25),
   (1058397, 739, 26)]

def cert_sun_7 : List (Int × Nat × Nat) :=
  [(-1163220, 493, 26), (1081085, 328, 26), (223191, 219, 26), (-2530035, 253, 26), (287074, 301, 26), (4516313, 452, 26), (-3972185, 397, 26),
   (-95662, 265, 26), (1943456, 194, 26), (-402496, 162, 26), (-1959408, 244, 26), (3654595, 365, 26), (-2759116, 276, 26), (908030, 220, 26),
   (543010, 330, 26), (-1043843, 495, 26), (2744401, 742, 26), (-1092497, 111, 25), (1669569, 167, 25), (-981700, 111, 25), (4016127, 742, 26),
   (-4124604, 495, 26), (3935761, 394, 26), (-2322908, 262, 26), (829077, 175, 26), (-113208, 117, 26), (-1135390, 777, 27), (-1197455, 651, 27),
   (9772241, 977, 27), (-1210803, 121, 26), (-172324, 130, 26), (1954981, 195, 26), (-1268834, 130, 26), (-1300501, 144, 26), (2164315, 216, 26),
   (773361, 288, 26), (-4316834, 432, 26), (5186551, 519, 26), (-2241022, 346, 26), (-2175207, 286, 26), (4294825, 429, 26), (-2132811, 286, 26),
   (-1157293, 191, 26), (2325108, 233, 26), (-1246519, 155, 26), (281662, 112, 26), (-895999, 167, 26), (2510968, 251, 26), (-2315893, 232, 26),
   (-96902, 154, 26), (1848908, 185, 26), (-324836, 123, 26), (-1677746, 168, 26), (1855779, 186, 26), (-920888, 124, 26), (33432, 825, 27),
   (2379541, 878, 27), (-505606, 132, 26), (1768090, 198, 26), (-2962689, 296, 26), (3008460, 301, 26), (-1636875, 218, 26), (988918, 326, 26),
   (-4196189, 490, 26), (7343945, 734, 26), (-4921874, 492, 26), (1869508, 328, 26), (-1473726, 219, 26), (1451231, 146, 26), (-3071265, 972, 27),
   (-4492336, 648, 27), (3131661, 432, 27), (-2584687, 288, 27), (1958164, 279, 27), (-682486, 419, 27), (2834236, 629, 27), (-9430378, 943, 27),
   (1000059, 100, 26), (-1550375, 667, 27), (-1111507, 444, 27), (1666292, 296, 27), (-2876542, 288, 27), (2548631, 255, 27), (-2337224, 234, 27),
   (3408051, 341, 27), (-4908422, 491, 27), (4689337, 469, 27), (-1585874, 654, 27), (-6803594, 981, 27), (1471345, 147, 26), (-8892933, 981, 27),
   (1558511, 654, 27), (110073, 436, 27), (-2375124, 321, 27), (4816002, 482, 27), (-4651447, 465, 27), (3642988, 364, 27), (-1307816, 243, 27),
   (-208415, 162, 27), (382459, 113, 27), (-1023382, 170, 27), (1329284, 255, 27), (18123, 382, 27), (846113, 574, 27), (-8410286, 860, 27),
   (1290582, 129, 26), (-4469530, 860, 27), (-2042449, 574, 27), (3207376, 382, 27), (-3536242, 354, 27), (1657777, 291, 27), (2212439, 436, 27),
   (-6545696, 655, 27), (8070026, 807, 27), (-3850515, 538, 27), (717360, 359, 27), (-1867304, 239, 27), (2753051, 275, 27), (-1087456, 184, 27),
   (-19600, 122, 27)]

def cert_sun_8 : List (Int × Nat × Nat) :=
  [(7637670, 816, 28), (-1077894, 108, 27), (7663403, 766, 28), (-4426201, 709, 28), (611940, 106, 27), (-1539447, 160, 27), (2393465, 239, 27),
   (-1487350, 160, 27), (807126, 106, 27), (-5146163, 709, 28), (1906039, 473, 28), (-950484, 315, 28), (4675111, 468, 28), (-2303074, 312, 28),
   (-701386, 208, 28), (1307297, 139, 28), (433594, 153, 28), (-1889608, 229, 28), (3434067, 343, 28), (-2309452, 231, 28), (909478, 154, 28),
   (2097071, 210, 28), (-1371372, 140, 28), (-1458756, 168, 28), (2526271, 253, 28), (-3141852, 339, 28), (3258713, 508, 28), (2078385, 762, 28),
   (-967856, 114, 27), (1714327, 171, 27), (-1232767, 123, 27), (5219396, 822, 28), (-1582206, 548, 28), (708250, 365, 28), (-1633841, 244, 28),
   (1455410, 162, 28), (502108, 118, 28), (107638, 177, 28), (-2320424, 266, 28), (3987708, 399, 28), (-4379493, 438, 28), (3665344, 387, 28),
   (1607114, 581, 28), (-8711708, 871, 28), (1263706, 126, 27), (-7497741, 842, 28), (2272787, 562, 28), (-249764, 374, 28), (-844628, 250, 28),
   (564775, 166, 28), (789187, 227, 28), (-2431348, 341, 28), (5115408, 512, 28), (-4973180, 497, 28), (4217834, 435, 28), (-6528430, 653, 28),
   (1853073, 472, 28), (7087394, 709, 28), (-1044586, 104, 27), (6350815, 696, 28), (3818210, 743, 28), (-1113820, 111, 27), (1160273, 116, 27),
   (-2468933, 774, 28), (-7674821, 774, 28), (1161568, 116, 27), (-6192820, 774, 28), (-2307816, 516, 28), (6217496, 622, 28), (-1093174, 414, 28),
   (-6072852, 607, 28), (8452004, 845, 28), (-4701196, 563, 28), (-93055, 376, 28), (2528044, 253, 28), (-805073, 169, 28), (-1238037, 168, 28),
   (2524619, 252, 28), (-2623717, 262, 28), (754807, 175, 28), (1141314, 172, 28), (-2512590, 258, 28), (3867944, 387, 28), (-3085712, 309, 28),
   (888607, 206, 28), (354082, 137, 28), (-2463735, 914, 29), (1522016, 610, 29), (-2118298, 406, 29), (2309467, 296, 29), (506164, 444, 29),
   (3119248, 666, 29), (277960, 999, 29), (-1499123, 150, 28), (1978085, 198, 28), (-388405, 132, 28), (-9088487, 909, 29), (6792056, 679, 29),
   (560060, 866, 29), (918405, 130, 28), (-1949364, 195, 28), (1379535, 138, 28), (-6522746, 920, 29), (7899241, 790, 29), (111302, 106, 28),
   (-1591690, 159, 28), (1887352, 189, 28), (-1076552, 126, 28), (6439976, 839, 29), (-3517205, 559, 29), (1690886, 472, 29), (1279302, 707, 29),
   (-903938, 106, 28), (1591330, 159, 28), (-1154541, 115, 28), (4220917, 770, 29), (42074, 701, 29), (582043, 105, 28), (-1578270, 158, 28),
   (2037840, 204, 28)]

def cert_sun_9 : List (Int × Nat × Nat) :=
  [(-1822246, 182, 28), (1260309, 126, 28), (-7377220, 840, 29), (8070083, 807, 29), (-4414528, 538, 29), (-4878545, 682, 29), (1023299, 102, 28),
   (-6671734, 682, 29), (2281641, 455, 29), (-1357403, 303, 29), (2874813, 287, 29), (-3246590, 325, 29), (2648714, 265, 29), (350362, 205, 29),
   (-3080089, 308, 29), (2040264, 242, 29), (-969668, 363, 29), (5440648, 544, 29), (-7449115, 745, 29), (6927791, 693, 29), (-4089788, 462, 29),
   (1036140, 308, 29), (440551, 205, 29), (-659909, 137, 29), (199875, 113, 29), (753062, 169, 29), (-1929857, 254, 29), (3806357, 381, 29),
   (-2020732, 254, 29), (264119, 169, 29), (183911, 130, 29), (586130, 194, 29), (-2915663, 292, 29), (3742462, 374, 29), (-1581472, 249, 29),
   (1412015, 173, 29), (-2559799, 260, 29), (3902939, 390, 29), (-3281224, 328, 29), (2070504, 219, 29), (-1295740, 146, 29), (8723324, 972, 30),
   (-3705709, 648, 30), (2687209, 432, 30), (1622316, 288, 30), (83644, 192, 30), (-796005, 169, 30), (2538113, 254, 30), (-569097, 169, 30),
   (-112623, 189, 30), (2841513, 284, 30), (-1311245, 189, 30), (1541824, 154, 30), (-85841, 103, 30), (279374, 132, 30), (1974852, 197, 30),
   (-2174667, 228, 30), (3412886, 341, 30), (-1113551, 228, 30), (660794, 152, 30), (327270, 101, 30), (5703084, 741, 31), (-135295, 111, 30),
   (1667654, 167, 30), (-1359734, 136, 30), (1833098, 183, 30), (-259830, 236, 30), (-2742971, 354, 30), (5315489, 532, 30), (-899434, 354, 30),
   (185856, 236, 30), (-599784, 157, 30), (846348, 105, 30), (-2642195, 700, 31), (7671516, 767, 31), (2494279, 511, 31), (-337437, 341, 31),
   (3469996, 347, 31), (3165389, 317, 31), (162450, 409, 31), (6128163, 613, 31), (-3166940, 409, 31), (4168188, 491, 31), (7362278, 736, 31),
   (-7571634, 757, 31), (8661958, 866, 31), (3984183, 577, 31), (-5470988, 604, 31), (9058289, 906, 31), (-6624365, 662, 31), (8599894, 860, 31),
   (1078414, 573, 31), (-687819, 382, 31), (3129930, 313, 31), (18957, 215, 31), (3224543, 322, 31), (-1520833, 260, 31), (3895069, 390, 31),
   (1997304, 260, 31), (-1176216, 223, 31), (3349126, 335, 31), (-1823662, 297, 31), (4461839, 446, 31), (-1148709, 345, 31), (5180162, 518, 31),
   (-5237253, 524, 31), (6507714, 651, 31), (2490766, 498, 31), (-7470842, 747, 31), (9018596, 902, 31), (-1575041, 601, 31), (1389719, 401, 31),
   (48279, 267, 31), (2374942, 237, 31), (-1327186, 158, 31), (2375021, 238, 31), (-165760, 158, 31), (1892826, 189, 31), (324494, 126, 31),
   (214788, 144, 31)]

def cert_sun_10 : List (Int × Nat × Nat) :=
  [(2160967, 216, 31), (-1487679, 193, 31), (2896415, 290, 31), (1109157, 327, 31), (-4351347, 491, 31), (7367027, 737, 31), (-2441837, 491, 31),
   (1211095, 327, 31), (313255, 218, 31), (204833, 146, 31), (1490491, 149, 31), (1764072, 994, 32), (2780479, 662, 32), (-215936, 442, 32),
   (64584, 294, 32), (-16995, 196, 32), (4597, 131, 32), (-12153, 872, 33), (3070, 582, 33), (9, 388, 33), (-3053, 1360, 33)]

/-- sun -/
def cert_sun : List (Int × Nat × Nat) :=
  cert_sun_0 ++ cert_sun_1 ++ cert_sun_2 ++ cert_sun_3 ++ cert_sun_4 ++ cert_sun_5 ++ cert_sun_6 ++ cert_sun_7 ++ cert_sun_8 ++ cert_sun_9 ++ cert_sun_10

def cert_vega_0 : List (Int × Nat × Nat) :=
  [(0, 5511, 47), (0, 116, 46), (0, 174, 46), (0, 261, 46), (0, 392, 46), (0, 588, 46), (0, 882, 46), (0, 132, 45), (0, 199, 45), (0, 298, 45),
   (0, 447, 45), (0, 670, 45), (0, 100, 44), (0, 151, 44), (0, 226, 44), (0, 339, 44), (0, 509, 44), (0, 763, 44), (0, 114, 43), (0, 172, 43),
   (0, 258, 43), (0, 386, 43), (0, 580, 43), (0, 869, 43), (0, 130, 42), (0, 196, 42), (0, 293, 42), (0, 440, 42), (0, 660, 42), (0, 990, 42),
   (0, 149, 41), (0, 223, 41), (0, 334, 41), (0, 501, 41), (0, 752, 41), (0, 113, 40), (0, 169, 40), (0, 254, 40), (0, 381, 40), (0, 571, 40),
   (0, 856, 40), (0, 128, 39), (0, 193, 39), (0, 289, 39), (0, 434, 39), (0, 650, 39), (0, 976, 39), (0, 146, 38), (0, 220, 38), (0, 329, 38),
   (0, 494, 38), (0, 741, 38), (0, 111, 37), (0, 167, 37), (0, 250, 37), (0, 375, 37), (0, 563, 37), (0, 844, 37), (0, 127, 36), (0, 190, 36),
   (0, 285, 36), (0, 427, 36), (0, 641, 36), (0, 961, 36), (0, 144, 35), (0, 216, 35), (0, 324, 35), (1, 487, 35), (-5, 730, 35), (2, 109, 34),
   (-8, 164, 34), (31, 246, 34), (-115, 370, 34), (374, 554, 34), (-1444, 831, 34), (568, 125, 33), (-2029, 187, 33), (7548, 281, 33),
   (-28162, 421, 33), (105102, 631, 33), (-71482, 947, 33), (4553, 142, 32), (4584, 213, 32), (9812, 320, 32), (19594, 479, 32), (36849, 719, 32),
   (6893, 108, 31), (12393, 162, 31), (22397, 243, 31), (38440, 364, 31), (65553, 546, 31), (109666, 819, 31), (17927, 123, 30), (28836, 184, 30),
   (45850, 276, 30), (70654, 415, 30), (102233, 622, 30), (133513, 933, 30), (20206, 140, 29), (29636, 210, 29), (43725, 315, 29), (62527, 472, 29),
   (92302, 709, 29), (13099, 106, 28), (17237, 159, 28), (24729, 239, 28), (32389, 359, 28), (44652, 538, 28), (60042, 807, 28), (7790, 121, 27),
   (10536, 182, 27), (13273, 272, 27), (18096, 409, 27), (21417, 613, 27), (31007, 919, 27), (2902, 138, 26), (7218, 207, 26), (-4281, 310, 26),
   (44227, 465, 26), (-129914, 698, 26)]

def cert_vega_1 : List (Int × Nat × Nat) :=
  [(52791, 105, 25), (-191761, 157, 25), (2356133, 236, 25), (-1546739, 184, 25), (1865261, 276, 25), (-1168923, 415, 25), (2872911, 622, 25),
   (-9144380, 933, 25), (1399364, 140, 24), (-957397, 205, 24), (412231, 307, 24), (375180, 461, 24), (-2435495, 691, 24), (396211, 104, 23),
   (-202280, 156, 23), (27740, 233, 23), (24569, 350, 23), (-170708, 525, 23), (828246, 787, 23), (-318718, 118, 22), (1185279, 177, 22),
   (2657718, 266, 22), (-3584622, 358, 22), (1280454, 239, 22), (-3521328, 352, 22), (1681881, 235, 22), (-527551, 157, 22), (-249539, 104, 22),
   (1149795, 115, 22), (-29075, 114, 22), (267959, 172, 22), (-318966, 258, 22), (442116, 386, 22), (176128, 580, 22), (-872588, 869, 22),
   (465561, 130, 21), (-526838, 196, 21), (2722068, 293, 21), (178335, 440, 21), (1328041, 660, 21), (-9903156, 990, 21), (1466226, 147, 20),
   (-7361849, 977, 21), (-4203351, 680, 21), (1020103, 102, 20), (-1015754, 102, 20), (2079591, 677, 21), (4188302, 451, 21), (-5667623, 567, 21),
   (5055436, 506, 21), (-2959271, 337, 21), (-2480906, 437, 21), (6555868, 656, 21), (-9357448, 936, 21), (1223161, 122, 20), (-2686994, 815, 21),
   (-6361178, 636, 21), (-2606134, 424, 21), (2953459, 295, 21), (1445928, 369, 21), (-713131, 553, 21), (2049717, 829, 21), (-1010169, 124, 20),
   (1866091, 187, 20), (-1765646, 177, 20), (330445, 118, 20), (1121947, 112, 20), (-1207572, 121, 20), (737686, 805, 21), (8385067, 839, 21),
   (-5647766, 565, 21), (3569321, 411, 21), (-6159208, 616, 21), (4018985, 440, 21), (-4780993, 660, 21), (5738744, 990, 21), (256492, 149, 20),
   (-1725240, 223, 20), (3057953, 334, 20), (-4893692, 501, 20), (7521039, 752, 20), (-3842323, 501, 20), (217190, 334, 20), (91342, 223, 20),
   (169439, 149, 20), (-2205783, 990, 21), (3854842, 660, 21), (-5412292, 541, 21), (7496095, 750, 21), (-1120246, 112, 20), (1165269, 117, 20),
   (-7721327, 777, 21), (6016279, 602, 21), (-5416107, 542, 21), (2217808, 361, 21), (-1254133, 241, 21), (1271378, 222, 21), (-3081172, 333, 21),
   (4993761, 499, 21), (-2600649, 333, 21), (1373830, 222, 21), (-1647662, 165, 21), (1476420, 169, 21), (-2534047, 253, 21), (3236979, 324, 21),
   (-1187656, 216, 21), (-2450863, 317, 21), (4760857, 476, 21), (-3789098, 379, 21), (2180185, 253, 21), (-2088403, 209, 21), (937808, 139, 21),
   (-4120635, 928, 22), (3131636, 619, 22), (-420919, 632, 22), (-3172121, 948, 22), (1421926, 142, 21), (-3136, 124, 21), (-1865926, 187, 21),
   (828520, 124, 21)]

def cert_vega_2 : List (Int × Nat × Nat) :=
  [(955921, 172, 21), (835465, 259, 21), (-3877562, 388, 21), (731999, 259, 21), (-355237, 172, 21), (483108, 224, 21), (1482587, 336, 21),
   (-5033901, 503, 21), (6593958, 659, 21), (-3306036, 440, 21), (-587901, 293, 21), (1108754, 195, 21), (-204216, 130, 21), (1416922, 151, 21),
   (-2269401, 227, 21), (-128754, 151, 21), (537019, 227, 21), (3199336, 341, 21), (-5107757, 511, 21), (2715322, 341, 21), (-522648, 227, 21),
   (1030281, 151, 21), (-108764, 148, 21), (-1873983, 222, 21), (1209908, 333, 21), (969140, 499, 21), (-6772400, 748, 21), (1122513, 112, 20),
   (-9447916, 945, 21), (8657313, 866, 21), (-8893405, 889, 21), (7596409, 760, 21), (-7372343, 737, 21), (7126733, 713, 21), (-4653640, 475, 21),
   (1874963, 317, 21), (1615503, 246, 21), (-3689221, 369, 21), (3608789, 361, 21), (-3083556, 308, 21), (1875804, 206, 21), (-1752109, 175, 21),
   (2436859, 244, 21), (-2979453, 318, 21), (4776752, 478, 21), (-7084519, 708, 21), (6619963, 662, 21), (-4400355, 441, 21), (2232583, 294, 21),
   (-552952, 196, 21), (1644486, 164, 21), (-2146819, 215, 21), (1939072, 194, 21), (-1439245, 144, 21), (528801, 959, 22), (-3390673, 640, 22),
   (3208234, 930, 22), (1394971, 139, 21), (-1829598, 183, 21), (2608607, 261, 21), (-2265173, 227, 21), (-970186, 151, 21), (2184618, 218, 21),
   (-908018, 146, 21), (-833380, 107, 21), (1598163, 160, 21), (-1666063, 167, 21), (815287, 214, 21), (1842768, 322, 21), (-4823532, 482, 21),
   (4178146, 418, 21), (-842465, 279, 21), (189739, 377, 21), (670307, 566, 21), (-8485551, 849, 21), (9858868, 986, 21), (2529976, 657, 21),
   (-5888669, 589, 21), (690370, 393, 21), (-27102, 262, 21), (-408270, 174, 21), (1830374, 183, 21), (-1995129, 200, 21), (1384046, 138, 21),
   (-1360133, 136, 21), (1539022, 154, 21), (-1039521, 104, 21), (4027399, 693, 22), (-746896, 462, 22), (158210, 308, 22), (425515, 205, 22),
   (-1064554, 137, 22), (5123109, 913, 23), (-4665220, 704, 23), (1056509, 106, 22), (-1374206, 137, 22), (8410910, 916, 23), (599712, 945, 23),
   (136173, 142, 22), (-1970804, 213, 22), (3189183, 319, 22), (-2654384, 265, 22), (1888876, 189, 22), (-864469, 126, 22), (2683027, 840, 23),
   (620249, 560, 23), (-6660755, 666, 23), (1584015, 444, 23), (4827845, 483, 23), (-4659425, 486, 23), (7288281, 729, 23), (-6275621, 628, 23),
   (2249873, 418, 23), (-3886920, 389, 23), (3456547, 346, 23), (2726362, 273, 23), (-3341605, 334, 23), (2028211, 397, 23), (-5951901, 595, 23),
   (5339157, 785, 23)]

def cert_vega_3 : List (Int × Nat × Nat) :=
  [(-219905, 118, 22), (356824, 177, 22), (-968781, 265, 22), (3975617, 398, 22), (-3206024, 562, 22), (-4033997, 844, 22), (1265521, 127, 21),
   (-1088177, 122, 21), (1831918, 183, 21), (-1844411, 184, 21), (1505848, 248, 21), (951204, 371, 21), (-5570528, 557, 21), (6792791, 679, 21),
   (-410340, 782, 21), (-1172691, 117, 20), (1757856, 176, 20), (-1190762, 119, 20), (6135398, 794, 21), (-1166975, 117, 20), (1637243, 164, 20),
   (-821181, 109, 20), (669522, 728, 21), (-375427, 485, 21), (172273, 323, 21), (-2230956, 385, 21), (-830065, 578, 21), (8672015, 867, 21),
   (-6466290, 647, 21), (1110537, 431, 21), (-418471, 287, 21), (180977, 192, 21), (-186046, 128, 21), (1595428, 852, 22), (-1384714, 758, 22),
   (74077, 114, 21), (101437, 171, 21), (-2440159, 256, 21), (872745, 384, 21), (5759619, 576, 21), (-4993366, 499, 21), (1031812, 333, 21),
   (-367411, 222, 21), (162345, 148, 21), (-1031221, 986, 22), (-1012591, 658, 22), (2033492, 438, 22), (-1017179, 292, 22), (-865596, 195, 22),
   (2307425, 231, 22), (-2219194, 222, 22), (2088724, 209, 22), (-2453562, 245, 22), (2286568, 229, 22), (-1238708, 152, 22), (142390, 194, 22),
   (-1792033, 290, 22), (4357146, 436, 22), (-3084592, 308, 22), (672055, 386, 22), (-5203, 579, 22), (-1042331, 868, 22), (171898, 130, 21),
   (-1452893, 195, 21), (-16476, 293, 21), (4394646, 439, 21), (-3301506, 330, 21), (443706, 220, 21), (-84467, 147, 21), (-252599, 978, 22),
   (-151865, 652, 22), (-436018, 435, 22), (1049395, 290, 22), (-1208269, 193, 22), (1277340, 129, 22), (-8043475, 859, 23), (2167961, 573, 23),
   (-796787, 382, 23), (857561, 412, 23), (-6181815, 618, 23), (7499012, 750, 23), (4189011, 824, 23), (-1236397, 124, 22), (1521024, 152, 22),
   (-1689453, 169, 22), (1626442, 163, 22), (-1108581, 111, 22), (3145098, 739, 23), (4228997, 493, 23), (-6601830, 660, 23), (5170061, 517, 23),
   (-4375477, 438, 23), (3884964, 388, 23), (-1108660, 259, 23), (-218293, 173, 23), (229693, 115, 23), (75698, 101, 23), (-1253559, 152, 23),
   (2272833, 227, 23), (-1678620, 168, 23), (800690, 112, 23), (1947527, 746, 24), (-3723474, 497, 24), (1117727, 375, 24), (-2912231, 562, 24),
   (8428216, 843, 24), (-5044931, 562, 24), (4778511, 478, 24), (-7176396, 718, 24), (8006465, 801, 24), (-4381837, 586, 24), (2733713, 879, 24),
   (14415, 132, 23), (-115011, 198, 23), (658553, 297, 23), (-3615295, 445, 23), (6676858, 668, 23), (-4304900, 445, 23), (799192, 297, 23),
   (458977, 198, 23)]

def cert_vega_4 : List (Int × Nat × Nat) :=
  [(-744847, 132, 23), (6115564, 879, 24), (1664403, 586, 24), (-2704576, 470, 24), (2641621, 705, 24), (-202221, 106, 23), (-95080, 159, 23),
   (759882, 238, 23), (-3168719, 357, 23), (5350681, 535, 23), (-2998599, 357, 23), (445732, 238, 23), (194251, 159, 23), (-1450721, 180, 23),
   (2697926, 270, 23), (-1511638, 180, 23), (-344018, 149, 23), (1526180, 223, 23), (-3352083, 335, 23), (3458208, 346, 23), (107595, 287, 23),
   (-1946764, 431, 23), (1554085, 647, 23), (-2298676, 970, 23), (272521, 146, 22), (-231759, 218, 22), (-10576, 327, 22), (-60178, 491, 22),
   (-2222547, 737, 22), (-424670, 110, 21), (1657410, 166, 21), (-1085749, 110, 21), (1627033, 737, 22), (-701344, 491, 22), (119076, 327, 22),
   (-39750, 218, 22), (14514, 146, 22), (-765325, 970, 23), (688838, 647, 23), (-226699, 431, 23), (-12967, 287, 23), (52234, 192, 23),
   (-94354, 128, 23), (1039961, 852, 24), (1009295, 568, 24), (-919916, 378, 24), (440876, 252, 24), (111911, 168, 24), (55387, 176, 24),
   (599027, 265, 24), (1557370, 397, 24), (-5953649, 595, 24), (7859127, 786, 24), (-3209287, 583, 24), (-283522, 875, 24), (517681, 131, 23),
   (-1960016, 197, 23), (2952912, 295, 23), (-1754684, 197, 23), (584578, 131, 23), (-2133438, 875, 24), (529869, 583, 24), (780944, 389, 24),
   (-2895581, 390, 24), (5843161, 584, 24), (-5483412, 548, 24), (2616405, 366, 24), (1417426, 244, 24), (-1987326, 199, 24), (1624952, 162, 24),
   (-1051732, 165, 24), (-2249952, 247, 24), (2569122, 370, 24), (3635177, 556, 24), (-8334585, 833, 24), (8771392, 877, 24), (-1890593, 585, 24),
   (-677800, 390, 24), (-163773, 260, 24), (-723012, 173, 24), (1035208, 146, 24), (-196114, 219, 24), (332966, 329, 24), (-558467, 493, 24),
   (-91278, 740, 24), (151495, 111, 23), (-31061, 167, 23), (-226997, 250, 23), (1244713, 375, 23), (-5199886, 562, 23), (8430346, 843, 23),
   (-5363507, 562, 23), (1398570, 375, 23), (-423686, 250, 23), (106440, 167, 23), (-188677, 111, 23), (7057021, 740, 24), (-1799279, 768, 24),
   (-908063, 115, 23), (1717502, 173, 23), (-2593654, 259, 23), (3046591, 305, 23), (-1793107, 203, 23), (410652, 135, 23), (-372294, 903, 24),
   (141736, 602, 24), (233664, 401, 24), (-652525, 267, 24), (526519, 379, 24), (1242116, 569, 24), (-5084193, 853, 24), (1279243, 128, 23),
   (-1001168, 100, 23), (3011056, 667, 24), (523407, 445, 24), (-2584226, 404, 24), (1385761, 606, 24), (-9091498, 909, 24), (299668, 128, 23),
   (215572, 192, 23)]

def cert_vega_5 : List (Int × Nat × Nat) :=
  [(-1092026, 288, 23), (599174, 432, 23), (-141361, 649, 23), (3857398, 973, 23), (-1124187, 146, 22), (2189088, 219, 22), (-3138219, 314, 22),
   (4272569, 427, 22), (-5753704, 575, 22), (6942753, 694, 22), (-5896417, 590, 22), (1924409, 393, 22), (2765691, 277, 22), (-3206695, 321, 22),
   (-2386198, 464, 22), (6961407, 696, 22), (-4016367, 464, 22), (376557, 313, 22), (-4051005, 470, 22), (7044272, 704, 22), (-2462602, 470, 22),
   (-597585, 313, 22), (-263410, 209, 22), (-952569, 274, 22), (-1405902, 411, 22), (6165809, 617, 22), (-3714354, 411, 22), (272547, 274, 22),
   (-189724, 183, 22), (-267545, 141, 22), (292360, 212, 22), (-3174272, 317, 22), (4563955, 456, 22), (176460, 304, 22), (-1568513, 203, 22),
   (-23459, 135, 22), (1238929, 902, 23), (-1468194, 601, 23), (-253618, 816, 23), (-19089, 122, 22), (-233490, 184, 22), (107166, 276, 22),
   (-3063643, 413, 22), (6199778, 620, 22), (-2659216, 413, 22), (86080, 276, 22), (-381211, 184, 22), (23270, 122, 22), (-236205, 816, 23),
   (-134928, 544, 23), (110600, 363, 23), (-1134346, 242, 23), (2085939, 309, 23), (-1423668, 464, 23), (82996, 696, 23), (-21503, 104, 22),
   (-167887, 157, 22), (-179689, 235, 22), (-2105666, 352, 22), (5285817, 529, 22), (-2625822, 352, 22), (74520, 235, 22), (-249978, 157, 22),
   (142726, 104, 22), (-1918490, 696, 23), (1425806, 464, 23), (-558450, 309, 23), (-141878, 206, 23), (29377, 137, 23), (458527, 917, 24),
   (-343456, 611, 24), (-451449, 407, 24), (799924, 272, 24), (-975711, 192, 24), (1762597, 288, 24), (-4318441, 432, 24), (4978455, 524, 24),
   (-3089433, 786, 24), (148054, 118, 23), (-411440, 177, 23), (616641, 265, 23), (-3977637, 398, 23), (2060585, 265, 23), (2516462, 252, 23),
   (-2521811, 252, 23), (550334, 168, 23), (-205694, 112, 23), (571558, 747, 24), (-67403, 498, 24), (79600, 332, 24), (-320735, 221, 24),
   (480677, 148, 24), (-136282, 155, 24), (416958, 233, 24), (-1613021, 349, 24), (1955466, 524, 24), (-158407, 786, 24), (-205282, 118, 23),
   (581641, 177, 23), (-2653598, 265, 23), (3784368, 378, 23), (-1127130, 252, 23), (-428799, 168, 23), (56899, 112, 23), (-468585, 748, 24),
   (429043, 498, 24), (-1147467, 332, 24), (1049642, 221, 24), (470131, 148, 24), (-7988753, 984, 25), (3887635, 656, 25), (-1151209, 438, 25),
   (-259128, 439, 25), (-548317, 659, 25), (-3758645, 988, 25), (1482000, 148, 24), (-2134224, 213, 24), (2077987, 208, 24), (-1416650, 142, 24),
   (1252594, 125, 24)]

def cert_vega_6 : List (Int × Nat × Nat) :=
  [(-1145177, 115, 24), (8625280, 863, 25), (-5594236, 575, 25), (2797602, 383, 25), (49256, 256, 25), (-720918, 170, 25), (239486, 186, 25),
   (421407, 279, 25), (301896, 419, 25), (548683, 628, 25), (-1921736, 942, 25), (307691, 141, 24), (-363710, 212, 24), (288661, 318, 24),
   (27611, 477, 24), (-645171, 715, 24), (127565, 107, 23), (-1232214, 161, 23), (2413585, 241, 23), (-1401220, 161, 23), (223224, 107, 23),
   (-678249, 715, 24), (85688, 477, 24), (-50317, 318, 24), (-121868, 212, 24), (306014, 141, 24), (-2306555, 942, 25), (1069029, 628, 25),
   (-191269, 419, 25), (95690, 279, 25), (201835, 186, 25), (-515903, 124, 25), (9308189, 931, 26), (-2082670, 961, 26), (252300, 144, 25),
   (-1739690, 216, 25), (3242282, 324, 25), (-1967871, 216, 25), (1135811, 144, 25), (-1004988, 100, 25), (7096389, 710, 26), (-2729559, 473, 26),
   (6913915, 691, 26), (-9765933, 977, 26), (1091994, 109, 25), (-690000, 105, 25), (756235, 157, 25), (-870367, 236, 25), (1821807, 354, 25),
   (-4976973, 531, 25), (7963763, 796, 25), (-7007855, 701, 25), (5403292, 540, 25), (-2541207, 360, 25), (839233, 240, 25), (-34835, 160, 25),
   (-1258762, 133, 25), (1989945, 199, 25), (-2073455, 207, 25), (2162404, 216, 25), (-2014041, 201, 25), (734000, 134, 25), (-6621378, 895, 26),
   (1114591, 132, 25), (-1431586, 198, 25), (1720166, 296, 25), (-1034858, 445, 25), (-1480419, 667, 25), (824379, 100, 24), (-1500209, 150, 24),
   (1750344, 175, 24), (-642981, 197, 24), (-1881802, 295, 24), (4430439, 443, 24), (-4467396, 447, 24), (956687, 298, 24), (3148364, 315, 24),
   (-2216852, 291, 24), (-3766439, 436, 24), (6547183, 655, 24), (-2104612, 436, 24), (-1137900, 291, 24), (-150767, 194, 24), (1227304, 129, 24),
   (-1144173, 114, 24), (86689, 763, 25), (1060603, 106, 24), (-8148367, 815, 25), (-287603, 543, 25), (-2346893, 713, 25), (1070103, 107, 24),
   (-8138085, 814, 25), (1440690, 543, 25), (1441130, 669, 25), (-931594, 100, 24), (1504962, 150, 24), (-769115, 100, 24), (946411, 669, 25),
   (-349998, 446, 25), (150252, 297, 25), (-355091, 307, 25), (1356534, 460, 25), (-6828265, 691, 25), (1036099, 104, 24), (-4139783, 691, 25),
   (-292048, 460, 25), (-391593, 331, 25), (1398950, 496, 25), (-6683347, 744, 25), (1115438, 112, 24), (-6391598, 744, 25), (1336350, 496, 25),
   (-427605, 331, 25), (-268157, 288, 25), (1105075, 433, 25), (-5624237, 649, 25), (9735741, 974, 25), (-5622203, 649, 25), (1056124, 433, 25),
   (-332625, 288, 25)]

def cert_vega_7 : List (Int × Nat × Nat) :=
  [(88631, 192, 25), (-5716, 128, 25), (100346, 855, 26), (99664, 570, 26), (81875, 380, 26), (140317, 253, 26), (54771, 169, 26), (37482, 113, 26),
   (184005, 100, 26), (25282, 150, 26), (79812, 226, 26), (149706, 338, 26), (-195518, 508, 26), (165731, 761, 26), (80919, 114, 25),
   (-255378, 171, 25), (723421, 257, 25), (-3495192, 385, 25), (5780834, 578, 25), (-3066558, 385, 25), (463219, 257, 25), (-211666, 171, 25),
   (45730, 114, 25), (305134, 761, 26), (-204240, 508, 26), (146246, 338, 26), (-20473, 226, 26), (170205, 150, 26), (-79340, 100, 26),
   (2509066, 668, 27), (-1320962, 446, 27), (1393095, 297, 27), (64618, 198, 27), (329073, 132, 27), (5634706, 880, 28), (4264384, 587, 28),
   (-4137018, 591, 28), (8866267, 887, 28), (-1307135, 131, 27), (1879943, 188, 27), (-1216198, 154, 27), (1593331, 231, 27), (-1314850, 346, 27),
   (2281741, 520, 27), (2073034, 779, 27), (-800332, 117, 26), (1740367, 175, 26), (-1907819, 263, 26), (760002, 395, 26), (2971063, 592, 26),
   (-8444307, 888, 26), (1331587, 133, 25), (-9492760, 949, 26), (-3843325, 756, 26), (1134664, 113, 25), (-5257171, 756, 26), (-181587, 643, 26),
   (-6866530, 964, 26), (1445949, 145, 25), (-8200711, 964, 26), (1223247, 643, 26), (-2815727, 491, 26), (-452056, 736, 26), (-299447, 110, 25),
   (1656794, 166, 25), (-1092494, 110, 25), (256473, 736, 26), (565914, 787, 26), (-936279, 118, 25), (1770265, 177, 25), (-937549, 118, 25),
   (1076744, 787, 26), (-531032, 525, 26), (129564, 350, 26), (-722879, 401, 26), (1882448, 601, 26), (-9020389, 902, 26), (1282491, 128, 25),
   (-2916813, 855, 26), (-2067714, 570, 26), (240099, 380, 26), (-236065, 253, 26), (76049, 169, 26), (-1063, 124, 26), (69439, 187, 26),
   (-138040, 280, 26), (-122444, 420, 26), (-332327, 630, 26), (-5701182, 945, 26), (1417370, 142, 25), (-9020324, 945, 26), (1876000, 630, 26),
   (-897838, 420, 26), (339410, 280, 26), (-124237, 187, 26), (68664, 124, 26), (-296478, 830, 27), (311258, 553, 27), (235132, 493, 27),
   (-89034, 740, 27), (-8354, 111, 26), (156324, 166, 26), (-571387, 250, 26), (1250066, 375, 26), (-5618218, 562, 26), (6964531, 696, 26),
   (279575, 464, 26), (-2589867, 310, 26), (456134, 206, 26), (-295480, 138, 26), (1269932, 917, 27), (-478711, 611, 27), (394527, 408, 27),
   (-106204, 272, 27), (392109, 181, 27), (-494850, 121, 27), (7183701, 805, 28), (-2153111, 537, 28), (-1287005, 629, 28), (4654465, 944, 28)]

def cert_vega_8 : List (Int × Nat × Nat) :=
  [(-216577, 142, 27), (127410, 212, 27), (242449, 319, 27), (-580797, 478, 27), (2518744, 717, 27), (-1075244, 108, 26), (1558438, 156, 26),
   (-617490, 104, 26), (-258785, 693, 27), (-92838, 462, 27), (191199, 308, 27), (-48937, 205, 27), (92053, 137, 27), (223530, 912, 28),
   (244279, 608, 28), (807731, 405, 28), (-284361, 270, 28), (995922, 180, 28), (573955, 218, 28), (-1524954, 326, 28), (4896566, 490, 28),
   (-7014483, 723, 28), (1083836, 108, 27), (-1409079, 141, 27), (2089733, 209, 27), (-2760385, 276, 27), (3202467, 320, 27), (-3515785, 352, 27),
   (259872, 377, 27), (5654554, 565, 27), (-4284134, 428, 27), (-584256, 286, 27), (1236173, 190, 27), (853943, 127, 27), (-1217114, 129, 27),
   (333176, 194, 27), (-2097314, 291, 27), (4369825, 437, 27), (-2541603, 291, 27), (271720, 194, 27), (378951, 129, 27), (-1888219, 189, 27),
   (2132990, 234, 27), (-2667679, 351, 27), (5264702, 526, 27), (-3546956, 355, 27), (647820, 236, 27), (-330645, 158, 27), (481426, 225, 27),
   (-2827374, 337, 27), (5059859, 506, 27), (-2765324, 337, 27), (429684, 225, 27), (-176303, 150, 27), (839331, 999, 28), (-161087, 666, 28),
   (388077, 699, 28), (-81970, 105, 27), (425103, 157, 27), (-2357693, 236, 27), (3495740, 350, 27), (-1106540, 233, 27), (-327368, 155, 27),
   (-30830, 104, 27), (2664140, 691, 28), (-2378987, 460, 28), (475265, 307, 28), (172914, 205, 28), (1338, 263, 28), (237994, 394, 28),
   (173395, 591, 28), (-1255156, 887, 28), (382914, 133, 27), (-1994835, 199, 27), (1889649, 189, 27), (1256419, 126, 27), (-1359396, 136, 27),
   (622236, 906, 28), (-886196, 604, 28), (541900, 403, 28), (-303956, 269, 28), (321694, 179, 28), (-27445, 119, 28), (789732, 796, 29),
   (-26807, 530, 29), (2125063, 354, 29), (558057, 236, 29), (-1748764, 319, 29), (2828796, 479, 29), (-825852, 719, 29), (294995, 108, 28),
   (-251689, 162, 28), (343703, 243, 28), (-295114, 364, 28), (470368, 546, 28), (-775489, 819, 28), (168800, 123, 27), (-1436433, 184, 27),
   (2762969, 276, 27), (-1618147, 184, 27), (298319, 123, 27), (-1235770, 819, 28), (470379, 546, 28), (93527, 364, 28), (-120837, 243, 28),
   (18003, 162, 28), (222542, 108, 28), (-2052611, 719, 29), (2307100, 479, 29), (-279784, 319, 29), (363109, 213, 29), (353853, 142, 29),
   (-276112, 149, 29), (2229369, 223, 29), (-2135694, 214, 29), (2659312, 266, 29), (-2113863, 211, 29), (2172349, 217, 29), (-302579, 145, 29),
   (3142272, 965, 30)]

def cert_vega_9 : List (Int × Nat × Nat) :=
  [(3023691, 916, 30), (-286204, 137, 29), (2061102, 206, 29), (-2025721, 203, 29), (2458016, 246, 29), (-1976025, 198, 29), (1894574, 189, 29),
   (128555, 271, 29), (-1359616, 406, 29), (1806652, 609, 29), (-280422, 913, 29), (31800, 137, 28), (-337, 206, 28), (508241, 308, 28),
   (-1066086, 462, 28), (1220836, 694, 28), (-803000, 104, 27), (1560665, 156, 27), (-923406, 104, 27), (1606220, 694, 28), (-526644, 462, 28),
   (157883, 308, 28), (-24815, 206, 28), (20314, 137, 28), (213815, 913, 29), (-291130, 609, 29), (1707204, 406, 29), (-1773785, 271, 29),
   (2079275, 208, 29), (-1851895, 185, 29), (2052206, 205, 29), (-1736310, 174, 29), (1649139, 165, 29), (-308794, 110, 29), (2139908, 733, 30),
   (722360, 489, 30), (1080617, 326, 30), (982430, 217, 30), (935569, 145, 30), (1141178, 152, 30), (286882, 228, 30), (3421017, 342, 30),
   (1176932, 228, 30), (1000064, 182, 30), (-19964, 273, 30), (4102491, 410, 30), (-2836363, 284, 30), (3243580, 324, 30), (2962237, 296, 30),
   (-2412816, 241, 30), (2452837, 245, 30), (792337, 164, 30), (710092, 109, 30), (9240823, 924, 31), (8173775, 817, 31), (8861373, 886, 31),
   (5782609, 591, 31), (8448770, 850, 31), (733465, 128, 30), (785145, 191, 30), (566412, 287, 30), (542609, 431, 30), (764682, 646, 30),
   (522519, 969, 30), (115926, 145, 29), (-194813, 218, 29), (976393, 327, 29), (-4903994, 490, 29), (4347029, 435, 29), (4081825, 408, 29),
   (-4629532, 463, 29), (802060, 309, 29), (-160372, 206, 29), (98187, 137, 29), (200738, 914, 30), (678386, 610, 30), (108885, 406, 30),
   (605902, 271, 30), (363967, 181, 30), (160659, 120, 30), (5680086, 803, 31), (2859799, 535, 31), (3557448, 357, 31), (3099384, 310, 31),
   (3759406, 376, 31), (1115558, 332, 31), (4977126, 498, 31), (3000325, 332, 31), (960558, 349, 31), (5238383, 524, 31), (702196, 349, 31),
   (3339722, 334, 31), (2384263, 238, 31), (3193581, 319, 31), (546490, 322, 31), (4827881, 483, 31), (334140, 322, 31), (3452775, 345, 31),
   (282608, 304, 31), (4567457, 457, 31), (237710, 304, 31), (3100349, 310, 31), (633164, 207, 31), (2568897, 257, 31), (1869960, 187, 31),
   (2449377, 245, 31), (556986, 178, 31), (2671087, 267, 31), (537036, 178, 31), (2175083, 218, 31), (2115089, 212, 31), (472124, 164, 31),
   (2453674, 245, 31), (424605, 164, 31), (1994472, 199, 31), (1930329, 193, 31), (397321, 144, 31), (2152993, 215, 31), (751205, 159, 31),
   (241713, 239, 31)]

def cert_vega_10 : List (Int × Nat × Nat) :=
  [(3584767, 358, 31), (-1200531, 239, 31), (2145257, 215, 31), (1597050, 160, 31), (257450, 135, 31), (2028841, 203, 31), (122142, 135, 31),
   (1913561, 191, 31), (435045, 128, 31), (5630500, 971, 32), (1457058, 146, 31), (1447086, 145, 31), (4334550, 965, 32), (-331574, 643, 32),
   (99387, 429, 32), (-26146, 286, 32), (7073, 191, 32), (-1870, 127, 32), (4724, 847, 33), (13, 565, 33), (-4697, 1979, 33)]

/-- vega -/
def cert_vega : List (Int × Nat × Nat) :=
  cert_vega_0 ++ cert_vega_1 ++ cert_vega_2 ++ cert_vega_3 ++ cert_vega_4 ++ cert_vega_5 ++ cert_vega_6 ++ cert_vega_7 ++ cert_vega_8 ++ cert_vega_9 ++ cert_vega_10

def cert_galex_FUV_0 : List (Int × Nat × Nat) :=
  [(3624, 1338, 8), (0, 382, 8), (-3624, 573, 8), (14497, 860, 8), (-5436, 129, 7), (20296, 194, 7), (-75748, 290, 7), (282695, 435, 7),
   (-1055033, 653, 7), (3937438, 980, 7), (-1469472, 147, 6), (3937438, 980, 7), (-1055033, 653, 7), (282695, 435, 7), (-75748, 290, 7),
   (20297, 194, 7), (-5439, 129, 7), (14574, 860, 8), (-3912, 573, 8), (1072, 382, 8), (-377, 255, 8), (437, 170, 8), (-1370, 198, 8), (5045, 297, 8),
   (-18809, 446, 8), (70192, 669, 8), (-26196, 100, 7), (97764, 151, 7), (-364860, 226, 7), (1361677, 339, 7), (-5081847, 508, 7), (1361710, 339, 7),
   (-364995, 226, 7), (98268, 151, 7), (-28077, 100, 7), (140383, 669, 8), (-28077, 100, 7), (98268, 151, 7), (-364995, 226, 7), (1361710, 339, 7),
   (-5081847, 508, 7), (1361677, 339, 7), (-364860, 226, 7), (97764, 151, 7), (-26196, 100, 7), (70191, 669, 8), (-18806, 446, 8), (5034, 297, 8),
   (-1331, 198, 8), (290, 161, 8), (169, 242, 8), (-967, 363, 8), (3701, 544, 8), (-13835, 817, 8), (5164, 122, 7), (-19273, 184, 7), (71927, 276, 7),
   (-268434, 413, 7), (1001809, 620, 7), (-3738803, 930, 7), (1395340, 140, 6), (-3738803, 930, 7), (1001809, 620, 7), (-268434, 413, 7),
   (71927, 276, 7), (-19273, 184, 7), (5164, 122, 7), (-13837, 817, 8), (3706, 544, 8), (-986, 363, 8), (238, 242, 8), (32, 161, 8), (-367, 108, 8),
   (14377, 852, 9), (-5383, 128, 8), (20095, 192, 8), (-74998, 287, 8), (279897, 431, 8), (-1044589, 647, 8), (3898461, 970, 8), (-1454925, 145, 7),
   (3898557, 970, 8), (-1044974, 647, 8), (281339, 431, 8), (-80383, 287, 8), (40191, 192, 8), (-80383, 287, 8), (281339, 431, 8), (-1044974, 647, 8),
   (3898557, 970, 8), (-1454925, 145, 7), (3898461, 970, 8), (-1044589, 647, 8), (279897, 431, 8), (-74998, 287, 8), (20096, 192, 8), (-5385, 128, 8),
   (14443, 852, 9), (-3921, 568, 9), (1241, 465, 9), (-1044, 697, 9), (294, 105, 8), (-1070, 157, 8), (3985, 235, 8), (-14872, 353, 8), (55502, 529, 8),
   (-207137, 794, 8), (77305, 119, 7), (-288505, 179, 7), (1076716, 268, 7), (-4018358, 402, 7), (1076716, 268, 7), (-288505, 179, 7), (77305, 119, 7),
   (-207137, 794, 8), (55502, 529, 8), (-14872, 353, 8), (3986, 235, 8), (-1070, 157, 8), (296, 105, 8)]

def cert_galex_FUV_1 : List (Int × Nat × Nat) :=
  [(-1129, 697, 9), (1557, 494, 9), (-5099, 741, 9), (1884, 111, 8), (-7026, 167, 8), (26220, 250, 8), (-97855, 375, 8), (365199, 562, 8),
   (-1362941, 844, 8), (508656, 127, 7), (-1898331, 190, 7), (508669, 127, 7), (-1363442, 844, 8), (367081, 562, 8), (-104880, 375, 8), (52440, 250, 8),
   (-104880, 375, 8), (367081, 562, 8), (-1363442, 844, 8), (508669, 127, 7), (-1898331, 190, 7), (508656, 127, 7), (-1362941, 844, 8),
   (365199, 562, 8), (-97855, 375, 8), (26220, 250, 8), (-7026, 167, 8), (1882, 111, 8), (-5024, 741, 9), (1278, 494, 9), (-86, 329, 9), (-934, 377, 9),
   (3822, 565, 9), (-14352, 847, 9), (5359, 127, 8), (-20000, 191, 8), (74641, 286, 8), (-278564, 429, 8), (1039613, 644, 8), (-3879890, 965, 8),
   (1447994, 145, 7), (-3879890, 965, 8), (1039613, 644, 8), (-278564, 429, 8), (74641, 286, 8), (-20000, 191, 8), (5359, 127, 8), (-14349, 847, 9),
   (3809, 565, 9), (-886, 377, 9), (-263, 490, 9), (1939, 735, 9), (-749, 110, 8), (2803, 165, 8), (-10461, 248, 8), (39043, 372, 8), (-145711, 558, 8),
   (543800, 838, 8), (-202949, 126, 7), (757415, 188, 7), (-2826712, 283, 7), (757434, 188, 7), (-203024, 126, 7), (546602, 838, 8), (-156172, 558, 8),
   (78086, 372, 8), (-156172, 558, 8), (546602, 838, 8), (-203024, 126, 7), (757434, 188, 7), (-2826712, 283, 7), (757415, 188, 7), (-202949, 126, 7),
   (543800, 838, 8), (-145711, 558, 8), (39043, 372, 8), (-10461, 248, 8), (2801, 165, 8), (-743, 110, 8), (1723, 735, 9), (542, 983, 9),
   (-389, 147, 8), (1503, 221, 8), (-5621, 332, 8), (20983, 498, 8), (-78309, 747, 8), (29225, 112, 7), (-109071, 168, 7), (407057, 252, 7),
   (-1519159, 378, 7), (5669579, 567, 7), (-1521158, 378, 7), (409054, 252, 7), (-109057, 168, 7), (27173, 112, 7), (-56348, 747, 8), (13665, 498, 8),
   (1688, 332, 8), (-20417, 221, 8), (19981, 147, 8), (4922, 983, 9), (-219501, 655, 9), (273081, 437, 9), (-272821, 291, 9), (218205, 194, 9),
   (0, 129, 9), (-2182072, 863, 10), (2728283, 575, 10), (-2731059, 384, 10), (2195954, 256, 10), (-52757, 171, 10), (-1984925, 198, 10),
   (1992458, 199, 10), (15091, 137, 10), (-2052824, 205, 10), (2196205, 220, 10), (-731998, 146, 10), (731785, 146, 10), (-2195143, 220, 10),
   (2048786, 205, 10)]

def cert_galex_FUV_2 : List (Int × Nat × Nat) :=
  [(0, 137, 10), (-2048786, 205, 10), (2195143, 220, 10), (-731785, 146, 10), (731998, 146, 10), (-2196205, 220, 10), (2052824, 205, 10),
   (-15091, 137, 10), (-1992458, 199, 10), (1984925, 198, 10), (52757, 146, 10), (-2195954, 220, 10), (2731059, 273, 10), (-2728283, 406, 10),
   (2182073, 608, 10), (-9, 913, 10), (-218204, 137, 9), (272815, 205, 9), (-273058, 308, 9), (219415, 462, 9), (-4603, 693, 9), (-20100, 104, 8),
   (20862, 156, 8), (-3347, 234, 8), (-7473, 351, 8), (33238, 526, 8), (-185481, 789, 8), (76869, 118, 7), (-288926, 178, 7), (1072836, 266, 7),
   (-3996418, 400, 7), (1070837, 266, 7), (-286930, 178, 7), (76883, 118, 7), (-206006, 789, 8), (55199, 526, 8), (-14791, 351, 8), (3963, 234, 8),
   (-1062, 156, 8), (285, 104, 8), (-762, 693, 9), (204, 462, 9), (-55, 308, 9), (15, 205, 9), (-4, 137, 9), (11, 913, 10), (-3, 608, 10), (1, 406, 10),
   (0, 270, 10), (0, 180, 10), (0, 120, 10), (0, 130, 10), (0, 195, 10), (-1, 293, 10), (2, 439, 10), (-8, 658, 10), (28, 987, 10), (-11, 148, 9),
   (39, 222, 9), (-147, 333, 9), (550, 500, 9), (-2052, 750, 9), (766, 112, 8), (-2858, 169, 8), (10667, 253, 8), (-39809, 380, 8), (148567, 569, 8),
   (-554461, 854, 8), (206928, 128, 7), (-772265, 192, 7), (2882133, 288, 7), (-772265, 192, 7), (206928, 128, 7), (-554461, 854, 8), (148567, 569, 8),
   (-39809, 380, 8), (10667, 253, 8), (-2858, 169, 8), (766, 112, 8), (-2052, 750, 9), (550, 500, 9), (-147, 333, 9), (39, 222, 9), (-11, 148, 9),
   (28, 987, 10), (-8, 658, 10), (2, 439, 10), (-1, 293, 10), (0, 195, 10), (0, 130, 10), (0, 867, 11), (0, 578, 11), (0, 385, 11), (0, 257, 11),
   (0, 171, 11), (0, 114, 11), (0, 761, 12), (0, 642, 12), (0, 963, 12), (0, 144, 11), (0, 217, 11), (0, 325, 11), (0, 488, 11), (-1, 731, 11),
   (1, 110, 10), (-2, 165, 10), (7, 247, 10), (-26, 370, 10), (99, 555, 10), (-368, 833, 10), (137, 125, 9), (-513, 187, 9), (1915, 281, 9),
   (-7145, 422, 9), (26667, 633, 9), (-99521, 949, 9), (37142, 142, 8), (-138615, 213, 8), (517320, 320, 8), (-1930663, 480, 8)]

def cert_galex_FUV_3 : List (Int × Nat × Nat) :=
  [(7205331, 721, 8), (-1930663, 480, 8), (517320, 320, 8), (-138615, 213, 8), (37142, 142, 8), (-99521, 949, 9), (26667, 633, 9), (-7145, 422, 9),
   (1915, 281, 9), (-513, 187, 9), (137, 125, 9), (-368, 833, 10), (99, 555, 10), (-26, 370, 10), (7, 247, 10), (-2, 165, 10), (1, 110, 10),
   (-1, 731, 11), (0, 488, 11), (0, 325, 11), (0, 217, 11), (0, 144, 11), (0, 963, 12), (0, 642, 12), (0, 720, 12), (0, 108, 11), (0, 162, 11),
   (0, 243, 11), (0, 364, 11), (0, 547, 11), (0, 820, 11), (0, 123, 10), (0, 184, 10), (1, 277, 10), (-2, 415, 10), (7, 623, 10), (-27, 934, 10),
   (10, 140, 9), (-37, 210, 9), (139, 315, 9), (-520, 473, 9), (1941, 709, 9), (-724, 106, 8), (2704, 160, 8), (-10090, 239, 8), (37655, 359, 8),
   (-140532, 539, 8), (524472, 808, 8), (-195736, 121, 7), (730496, 182, 7), (-2726248, 273, 7), (730496, 182, 7), (-195736, 121, 7), (524472, 808, 8),
   (-140532, 539, 8), (37655, 359, 8), (-10090, 239, 8), (2704, 160, 8), (-724, 106, 8), (1941, 709, 9), (-520, 473, 9), (139, 315, 9), (-37, 210, 9),
   (10, 140, 9), (-27, 934, 10), (7, 623, 10), (-2, 415, 10), (1, 277, 10), (0, 184, 10), (0, 123, 10), (0, 820, 11), (0, 547, 11), (0, 364, 11),
   (0, 243, 11), (0, 162, 11), (0, 108, 11), (0, 899, 12), (0, 135, 11), (0, 202, 11), (0, 303, 11), (0, 455, 11), (0, 683, 11), (0, 102, 10),
   (0, 154, 10), (1, 230, 10), (-4, 346, 10), (15, 519, 10), (-56, 778, 10), (21, 117, 9), (-77, 175, 9), (289, 263, 9), (-1078, 394, 9),
   (4022, 591, 9), (-15012, 886, 9), (5603, 133, 8), (-20909, 199, 8), (78034, 299, 8), (-291226, 449, 8), (1086868, 673, 8), (-405625, 101, 7),
   (1513812, 151, 7), (-405625, 101, 7), (1086868, 673, 8), (-291225, 449, 8), (78033, 299, 8), (-20908, 199, 8), (5600, 133, 8), (-14935, 886, 9),
   (3734, 591, 9), (0, 394, 9), (-3734, 1380, 9)]

/-- galex_FUV -/
def cert_galex_FUV : List (Int × Nat × Nat) :=
  cert_galex_FUV_0 ++ cert_galex_FUV_1 ++ cert_galex_FUV_2 ++ cert_galex_FUV_3

def cert_galex_NUV_0 : List (Int × Nat × Nat) :=
  [(9714, 3585, 9), (0, 102, 8), (-971, 154, 8), (3886, 231, 8), (-14572, 346, 8), (54400, 519, 8), (-203030, 778, 8), (75772, 117, 7),
   (-282785, 175, 7), (1055367, 263, 7), (-3938684, 394, 7), (1055367, 263, 7), (-282785, 175, 7), (75772, 117, 7), (-203030, 778, 8), (54402, 519, 8),
   (-14577, 346, 8), (3906, 231, 8), (-1047, 154, 8), (280, 102, 8), (-751, 683, 9), (201, 455, 9), (-54, 304, 9), (14, 202, 9), (-4, 135, 9),
   (10, 899, 10), (-3, 600, 10), (1, 400, 10), (0, 267, 10), (0, 178, 10), (0, 118, 10), (0, 790, 11), (0, 526, 11), (0, 351, 11), (0, 234, 11),
   (0, 156, 11), (0, 123, 11), (0, 185, 11), (0, 277, 11), (0, 415, 11), (0, 623, 11), (0, 934, 11), (0, 140, 10), (0, 210, 10), (1, 315, 10),
   (-5, 473, 10), (20, 710, 10), (-8, 106, 9), (28, 160, 9), (-106, 239, 9), (395, 359, 9), (-1475, 539, 9), (5504, 808, 9), (-2054, 121, 8),
   (7667, 182, 8), (-28612, 273, 8), (106783, 409, 8), (-398519, 614, 8), (1487294, 921, 8), (-555066, 138, 7), (2071533, 207, 7), (-555066, 138, 7),
   (1487294, 921, 8), (-398519, 614, 8), (106783, 409, 8), (-28612, 273, 8), (7667, 182, 8), (-2054, 121, 8), (5504, 808, 9), (-1475, 539, 9),
   (395, 359, 9), (-106, 239, 9), (28, 160, 9), (-8, 106, 9), (20, 710, 10), (-5, 473, 10), (1, 315, 10), (0, 210, 10), (0, 140, 10), (0, 934, 11),
   (0, 623, 11), (0, 415, 11), (0, 277, 11), (0, 185, 11), (0, 123, 11), (0, 820, 12), (0, 547, 12), (0, 365, 12), (0, 250, 12), (0, 375, 12),
   (0, 563, 12), (0, 844, 12), (0, 127, 11), (0, 190, 11), (1, 285, 11), (-5, 427, 11), (18, 641, 11), (-69, 961, 11), (26, 144, 10), (-96, 216, 10),
   (357, 324, 10), (-1332, 487, 10), (4971, 730, 10), (-1855, 109, 9), (6923, 164, 9), (-25837, 246, 9), (96426, 370, 9), (-359867, 554, 9),
   (1343041, 831, 9), (-501230, 125, 8), (1870615, 187, 8), (-501230, 125, 8), (1343041, 831, 9), (-359867, 554, 9), (96426, 370, 9), (-25837, 246, 9),
   (6923, 164, 9), (-1855, 109, 9), (4971, 730, 10), (-1332, 487, 10)]

def cert_galex_NUV_1 : List (Int × Nat × Nat) :=
  [(357, 324, 10), (-96, 216, 10), (26, 144, 10), (-69, 961, 11), (18, 641, 11), (-5, 427, 11), (1, 285, 11), (0, 190, 11), (0, 127, 11), (0, 844, 12),
   (0, 563, 12), (0, 375, 12), (0, 250, 12), (0, 167, 12), (0, 155, 12), (0, 233, 12), (0, 350, 12), (0, 525, 12), (0, 787, 12), (0, 118, 11),
   (0, 177, 11), (0, 266, 11), (0, 398, 11), (-1, 598, 11), (4, 897, 11), (-2, 134, 10), (6, 202, 10), (-22, 303, 10), (81, 454, 10), (-301, 681, 10),
   (112, 102, 9), (-419, 153, 9), (1565, 230, 9), (-5840, 345, 9), (21795, 517, 9), (-81340, 776, 9), (30356, 116, 8), (-113291, 174, 8),
   (422809, 262, 8), (-1577945, 393, 8), (5888973, 589, 8), (-1577945, 393, 8), (422809, 262, 8), (-113291, 174, 8), (30356, 116, 8), (-81340, 776, 9),
   (21795, 517, 9), (-5840, 345, 9), (1565, 230, 9), (-419, 153, 9), (112, 102, 9), (-301, 681, 10), (81, 454, 10), (-22, 303, 10), (6, 202, 10),
   (-2, 134, 10), (4, 897, 11), (-1, 598, 11), (0, 398, 11), (0, 266, 11), (0, 177, 11), (0, 118, 11), (0, 787, 12), (0, 525, 12), (0, 350, 12),
   (0, 332, 12), (0, 498, 12), (0, 747, 12), (0, 112, 11), (0, 168, 11), (0, 252, 11), (0, 378, 11), (0, 567, 11), (2, 851, 11), (-1, 128, 10),
   (2, 191, 10), (-8, 287, 10), (31, 431, 10), (-115, 646, 10), (429, 969, 10), (-160, 145, 9), (597, 218, 9), (-2228, 327, 9), (8313, 491, 9),
   (-31026, 736, 9), (11579, 110, 8), (-43213, 166, 8), (161274, 248, 8), (-601881, 373, 8), (2246252, 559, 8), (-8383126, 838, 8), (2246252, 559, 8),
   (-601881, 373, 8), (161274, 248, 8), (-43213, 166, 8), (11579, 110, 8), (-31026, 736, 9), (8313, 491, 9), (-2228, 327, 9), (597, 218, 9),
   (-160, 145, 9), (429, 969, 10), (-115, 646, 10), (31, 431, 10), (-8, 287, 10), (2, 191, 10), (-1, 128, 10), (2, 851, 11), (0, 567, 11), (0, 378, 11),
   (0, 252, 11), (0, 168, 11), (0, 112, 11), (0, 747, 12), (0, 498, 12), (0, 669, 12), (0, 100, 11), (0, 151, 11), (0, 226, 11), (0, 339, 11)]

def cert_galex_NUV_2 : List (Int × Nat × Nat) :=
  [(0, 508, 11), (0, 763, 11), (0, 114, 10), (0, 172, 10), (1, 257, 10), (-4, 386, 10), (17, 579, 10), (-62, 869, 10), (23, 130, 9), (-86, 195, 9),
   (323, 293, 9), (-1204, 440, 9), (4492, 660, 9), (-16764, 989, 9), (6256, 148, 8), (-23349, 223, 8), (87141, 334, 8), (-325213, 501, 8),
   (1213711, 751, 8), (-452963, 113, 7), (1690482, 169, 7), (-452963, 113, 7), (1213711, 751, 8), (-325213, 501, 8), (87141, 334, 8), (-23349, 223, 8),
   (6256, 148, 8), (-16764, 989, 9), (4492, 660, 9), (-1204, 440, 9), (323, 293, 9), (-86, 195, 9), (23, 130, 9), (-62, 869, 10), (17, 579, 10),
   (-4, 386, 10), (1, 257, 10), (0, 172, 10), (0, 114, 10), (0, 763, 11), (0, 508, 11), (0, 339, 11), (0, 226, 11), (0, 151, 11), (0, 100, 11),
   (0, 129, 11), (0, 193, 11), (0, 290, 11), (0, 434, 11), (0, 651, 11), (0, 977, 11), (0, 147, 10), (0, 220, 10), (1, 330, 10), (-2, 495, 10),
   (9, 742, 10), (-3, 111, 9), (12, 167, 9), (-45, 250, 9), (166, 376, 9), (-620, 563, 9), (2313, 845, 9), (-863, 127, 8), (3222, 190, 8),
   (-12026, 285, 8), (44880, 428, 8), (-167496, 642, 8), (625102, 963, 8), (-233291, 144, 7), (870655, 217, 7), (-3249327, 325, 7), (870655, 217, 7),
   (-233291, 144, 7), (625102, 963, 8), (-167496, 642, 8), (44880, 428, 8), (-12026, 285, 8), (3222, 190, 8), (-863, 127, 8), (2313, 845, 9),
   (-620, 563, 9), (166, 376, 9), (-45, 250, 9), (12, 167, 9), (-3, 111, 9), (9, 742, 10), (-2, 495, 10), (1, 330, 10), (0, 220, 10), (0, 147, 10),
   (0, 977, 11), (0, 651, 11), (0, 434, 11), (0, 290, 11), (0, 193, 11), (0, 129, 11), (0, 858, 12), (0, 102, 11), (0, 153, 11), (0, 230, 11),
   (0, 345, 11), (0, 517, 11), (1, 776, 11), (0, 116, 10), (1, 175, 10), (-3, 262, 10), (11, 393, 10), (-42, 589, 10), (157, 884, 10), (-59, 133, 9),
   (219, 199, 9), (-816, 298, 9), (3047, 447, 9), (-11371, 671, 9), (4244, 101, 8), (-15837, 151, 8), (59106, 226, 8), (-220585, 340, 8),
   (823234, 510, 8), (-3072353, 764, 8)]

def cert_galex_NUV_3 : List (Int × Nat × Nat) :=
  [(1146618, 115, 7), (-3072353, 764, 8), (823234, 510, 8), (-220585, 340, 8), (59106, 226, 8), (-15837, 151, 8), (4244, 101, 8), (-11371, 671, 9),
   (3047, 447, 9), (-816, 298, 9), (219, 199, 9), (-59, 133, 9), (157, 884, 10), (-42, 589, 10), (11, 393, 10), (-3, 262, 10), (1, 175, 10),
   (0, 116, 10), (1, 776, 11), (0, 517, 11), (0, 345, 11), (0, 230, 11), (0, 153, 11), (0, 102, 11), (0, 681, 12), (0, 454, 12), (0, 303, 12),
   (0, 435, 12), (0, 653, 12), (0, 979, 12), (0, 147, 11), (0, 220, 11), (0, 330, 11), (-1, 496, 11), (3, 744, 11), (-1, 112, 10), (5, 167, 10),
   (-18, 251, 10), (67, 376, 10), (-250, 565, 10), (932, 847, 10), (-348, 127, 9), (1298, 191, 9), (-4844, 286, 9), (18077, 429, 9), (-67464, 643, 9),
   (251779, 965, 9), (-93965, 145, 8), (350683, 217, 8), (-1308767, 326, 8), (4884383, 488, 8), (-1308767, 326, 8), (350683, 217, 8), (-93965, 145, 8),
   (251779, 965, 9), (-67464, 643, 9), (18077, 429, 9), (-4844, 286, 9), (1298, 191, 9), (-348, 127, 9), (932, 847, 10), (-250, 565, 10), (67, 376, 10),
   (-18, 251, 10), (5, 167, 10), (-1, 112, 10), (3, 744, 11), (-1, 496, 11), (0, 330, 11), (0, 220, 11), (0, 147, 11), (0, 979, 12), (0, 653, 12),
   (0, 435, 12), (0, 434, 12), (0, 650, 12), (0, 975, 12), (0, 146, 11), (0, 219, 11), (0, 329, 11), (0, 494, 11), (0, 741, 11), (0, 111, 10),
   (0, 167, 10), (-1, 250, 10), (4, 375, 10), (-16, 562, 10), (60, 844, 10), (-22, 127, 9), (84, 190, 9), (-313, 285, 9), (1169, 427, 9),
   (-4363, 641, 9), (16283, 961, 9), (-6077, 144, 8), (22679, 216, 8), (-84641, 324, 8), (315883, 487, 8), (-1178892, 730, 8), (439968, 109, 7),
   (-1641984, 164, 7), (439968, 109, 7), (-1178892, 730, 8), (315883, 487, 8), (-84641, 324, 8), (22679, 216, 8), (-6077, 144, 8), (16283, 961, 9),
   (-4363, 641, 9), (1169, 427, 9), (-313, 285, 9), (84, 190, 9), (-22, 127, 9), (60, 844, 10), (-16, 562, 10), (4, 375, 10), (-1, 250, 10),
   (0, 167, 10), (0, 111, 10), (0, 741, 11)]

def cert_galex_NUV_4 : List (Int × Nat × Nat) :=
  [(0, 494, 11), (0, 329, 11), (0, 219, 11), (0, 146, 11), (0, 975, 12), (0, 102, 11), (0, 152, 11), (0, 228, 11), (0, 343, 11), (0, 514, 11),
   (0, 771, 11), (0, 116, 10), (0, 173, 10), (0, 260, 10), (-2, 390, 10), (7, 585, 10), (-25, 878, 10), (9, 132, 9), (-35, 198, 9), (131, 296, 9),
   (-489, 445, 9), (1825, 667, 9), (-681, 100, 8), (2542, 150, 8), (-9487, 225, 8), (35407, 338, 8), (-132139, 506, 8), (493151, 760, 8),
   (-184046, 114, 7), (686870, 171, 7), (-2563435, 256, 7), (686870, 171, 7), (-184046, 114, 7), (493151, 760, 8), (-132139, 506, 8), (35407, 338, 8),
   (-9487, 225, 8), (2542, 150, 8), (-681, 100, 8), (1825, 667, 9), (-489, 445, 9), (131, 296, 9), (-35, 198, 9), (9, 132, 9), (-25, 878, 10),
   (7, 585, 10), (-2, 390, 10), (0, 260, 10), (0, 173, 10), (0, 116, 10), (0, 771, 11), (0, 514, 11), (0, 343, 11), (0, 228, 11), (0, 152, 11),
   (0, 102, 11), (0, 677, 12), (0, 580, 12), (0, 870, 12), (0, 131, 11), (0, 196, 11), (0, 294, 11), (0, 441, 11), (-1, 661, 11), (5, 991, 11),
   (-2, 149, 10), (6, 223, 10), (-24, 335, 10), (89, 502, 10), (-333, 753, 10), (124, 113, 9), (-464, 169, 9), (1730, 254, 9), (-6458, 381, 9),
   (24103, 572, 9), (-89952, 858, 9), (33571, 129, 8), (-125287, 193, 8), (467577, 289, 8), (-1745022, 434, 8), (6512511, 651, 8), (-1745022, 434, 8),
   (467577, 289, 8), (-125287, 193, 8), (33571, 129, 8), (-89952, 858, 9), (24103, 572, 9), (-6458, 381, 9), (1730, 254, 9), (-464, 169, 9),
   (124, 113, 9), (-333, 753, 10), (89, 502, 10), (-24, 335, 10), (6, 223, 10), (-2, 149, 10), (5, 991, 11), (-1, 661, 11), (0, 441, 11), (0, 294, 11),
   (0, 196, 11), (0, 131, 11), (0, 870, 12), (0, 580, 12), (0, 387, 12), (0, 281, 12), (0, 422, 12), (0, 633, 12), (0, 949, 12), (0, 142, 11),
   (0, 214, 11), (0, 320, 11), (0, 481, 11), (1, 721, 11), (-1, 108, 10), (2, 162, 10), (-7, 243, 10), (26, 365, 10), (-97, 547, 10), (363, 821, 10)]

def cert_galex_NUV_5 : List (Int × Nat × Nat) :=
  [(-135, 123, 9), (506, 185, 9), (-1887, 277, 9), (7042, 416, 9), (-26282, 623, 9), (98086, 935, 9), (-36606, 140, 8), (136616, 210, 8),
   (-509858, 316, 8), (1902817, 473, 8), (-7101408, 710, 8), (1902817, 473, 8), (-509858, 316, 8), (136616, 210, 8), (-36606, 140, 8), (98086, 935, 9),
   (-26282, 623, 9), (7042, 416, 9), (-1887, 277, 9), (506, 185, 9), (-135, 123, 9), (363, 821, 10), (-97, 547, 10), (26, 365, 10), (-7, 243, 10),
   (2, 162, 10), (-1, 108, 10), (1, 721, 11), (0, 481, 11), (0, 320, 11), (0, 214, 11), (0, 142, 11), (0, 949, 12), (0, 633, 12), (0, 776, 12),
   (0, 116, 11), (0, 175, 11), (0, 262, 11), (0, 393, 11), (0, 590, 11), (0, 884, 11), (0, 133, 10), (0, 199, 10), (-1, 299, 10), (2, 448, 10),
   (-8, 672, 10), (3, 101, 9), (-11, 151, 9), (40, 227, 9), (-150, 340, 9), (561, 510, 9), (-2094, 765, 9), (781, 115, 8), (-2917, 172, 8),
   (10885, 258, 8), (-40622, 387, 8), (151603, 581, 8), (-565791, 871, 8), (211156, 131, 7), (-788045, 196, 7), (2941022, 294, 7), (-788045, 196, 7),
   (211156, 131, 7), (-565791, 871, 8), (151603, 581, 8), (-40622, 387, 8), (10885, 258, 8), (-2917, 172, 8), (781, 115, 8), (-2094, 765, 9),
   (561, 510, 9), (-150, 340, 9), (40, 227, 9), (-11, 151, 9), (3, 101, 9), (-8, 672, 10), (2, 448, 10), (-1, 299, 10), (0, 199, 10), (0, 133, 10),
   (0, 884, 11), (0, 590, 11), (0, 393, 11), (0, 262, 11), (0, 175, 11), (0, 116, 11), (0, 776, 12), (0, 518, 12), (0, 345, 12), (0, 236, 12),
   (0, 354, 12), (0, 531, 12), (-1, 797, 12), (0, 120, 11), (-1, 179, 11), (3, 269, 11), (-12, 403, 11), (43, 605, 11), (-161, 908, 11), (60, 136, 10),
   (-225, 204, 10), (839, 306, 10), (-3130, 460, 10), (11680, 689, 10), (-4359, 103, 9), (16268, 155, 9), (-60713, 233, 9), (226583, 349, 9),
   (-845618, 523, 9), (3155891, 785, 9), (-1177795, 118, 8), (3155891, 785, 9), (-845618, 523, 9), (226583, 349, 9), (-60713, 233, 9), (16268, 155, 9),
   (-4359, 103, 9), (11680, 689, 10), (-3130, 460, 10), (839, 306, 10)]

def cert_galex_NUV_6 : List (Int × Nat × Nat) :=
  [(-225, 204, 10), (60, 136, 10), (-161, 908, 11), (43, 605, 11), (-12, 403, 11), (3, 269, 11), (-1, 179, 11), (0, 120, 11), (-1, 797, 12),
   (0, 531, 12), (0, 354, 12), (0, 236, 12), (0, 157, 12), (0, 226, 12), (0, 338, 12), (0, 508, 12), (0, 761, 12), (0, 114, 11), (0, 171, 11),
   (0, 257, 11), (0, 385, 11), (0, 578, 11), (-1, 867, 11), (0, 130, 10), (-1, 195, 10), (3, 293, 10), (-13, 439, 10), (47, 659, 10), (-176, 988, 10),
   (66, 148, 9), (-245, 222, 9), (913, 333, 9), (-3406, 500, 9), (12710, 750, 9), (-4744, 113, 8), (17703, 169, 8), (-66070, 253, 8), (246575, 380, 8),
   (-920232, 570, 8), (3434352, 854, 8), (-1281718, 128, 7), (3434352, 854, 8), (-920232, 570, 8), (246575, 380, 8), (-66070, 253, 8), (17703, 169, 8),
   (-4744, 113, 8), (12710, 750, 9), (-3406, 500, 9), (913, 333, 9), (-245, 222, 9), (66, 148, 9), (-176, 988, 10), (47, 659, 10), (-13, 439, 10),
   (3, 293, 10), (-1, 195, 10), (0, 130, 10), (-1, 867, 11), (0, 578, 11), (0, 385, 11), (0, 257, 11), (0, 171, 11), (0, 114, 11), (0, 761, 12),
   (0, 508, 12), (0, 338, 12), (0, 226, 12), (0, 150, 12), (0, 100, 12), (0, 833, 13), (0, 125, 12), (0, 188, 12), (-1, 281, 12), (2, 422, 12),
   (-7, 633, 12), (27, 949, 12), (-10, 142, 11), (38, 214, 11), (-142, 320, 11), (529, 481, 11), (-1973, 721, 11), (736, 108, 10), (-2748, 162, 10),
   (10256, 243, 10), (-38277, 365, 10), (142853, 547, 10), (-533136, 821, 10), (198969, 123, 9), (-742563, 185, 9), (2771281, 277, 9),
   (-742563, 185, 9), (198969, 123, 9), (-533136, 821, 10), (142853, 547, 10), (-38277, 365, 10), (10256, 243, 10), (-2748, 162, 10), (736, 108, 10),
   (-1973, 721, 11), (529, 481, 11), (-142, 320, 11), (38, 214, 11), (-10, 142, 11), (27, 949, 12), (-7, 633, 12), (2, 422, 12), (-1, 281, 12),
   (0, 188, 12), (0, 125, 12), (0, 833, 13), (0, 556, 13), (0, 370, 13), (0, 415, 13), (0, 622, 13), (0, 933, 13), (0, 140, 12), (0, 210, 12),
   (0, 315, 12), (0, 472, 12)]

def cert_galex_NUV_7 : List (Int × Nat × Nat) :=
  [(0, 708, 12), (0, 106, 11), (0, 159, 11), (0, 239, 11), (-2, 359, 11), (6, 538, 11), (-23, 807, 11), (9, 121, 10), (-32, 182, 10), (120, 272, 10),
   (-449, 408, 10), (1677, 613, 10), (-6259, 919, 10), (2336, 138, 9), (-8718, 207, 9), (32536, 310, 9), (-121425, 465, 9), (453166, 698, 9),
   (-169124, 105, 8), (631178, 157, 8), (-2355589, 236, 8), (631178, 157, 8), (-169124, 105, 8), (453166, 698, 9), (-121425, 465, 9), (32536, 310, 9),
   (-8718, 207, 9), (2336, 138, 9), (-6259, 919, 10), (1677, 613, 10), (-449, 408, 10), (120, 272, 10), (-32, 182, 10), (9, 121, 10), (-23, 807, 11),
   (6, 538, 11), (-2, 359, 11), (0, 239, 11), (0, 159, 11), (0, 106, 11), (0, 708, 12), (0, 472, 12), (0, 315, 12), (0, 210, 12), (0, 258, 12),
   (0, 387, 12), (0, 580, 12), (0, 870, 12), (0, 131, 11), (0, 196, 11), (0, 294, 11), (0, 441, 11), (0, 661, 11), (2, 991, 11), (-1, 149, 10),
   (3, 223, 10), (-10, 335, 10), (36, 502, 10), (-134, 753, 10), (50, 113, 9), (-186, 169, 9), (696, 254, 9), (-2596, 381, 9), (9687, 572, 9),
   (-36154, 858, 9), (13493, 129, 8), (-50356, 193, 8), (187930, 289, 8), (-701366, 434, 8), (2617533, 651, 8), (-9768767, 977, 8), (2617533, 651, 8),
   (-701366, 434, 8), (187930, 289, 8), (-50356, 193, 8), (13493, 129, 8), (-36154, 858, 9), (9687, 572, 9), (-2596, 381, 9), (696, 254, 9),
   (-186, 169, 9), (50, 113, 9), (-134, 753, 10), (36, 502, 10), (-10, 335, 10), (3, 223, 10), (-1, 149, 10), (2, 991, 11), (0, 661, 11), (0, 441, 11),
   (0, 294, 11), (0, 196, 11), (0, 131, 11), (0, 870, 12), (0, 580, 12), (0, 510, 12), (0, 765, 12), (0, 115, 11), (0, 172, 11), (0, 258, 11),
   (0, 388, 11), (0, 581, 11), (-1, 872, 11), (0, 131, 10), (-1, 196, 10), (3, 294, 10), (-13, 441, 10), (47, 662, 10), (-177, 993, 10), (66, 149, 9),
   (-246, 223, 9), (917, 335, 9), (-3424, 503, 9), (12779, 754, 9), (-4769, 113, 8), (17799, 170, 8), (-66427, 255, 8), (247908, 382, 8),
   (-925206, 573, 8), (3452916, 859, 8)]

def cert_galex_NUV_8 : List (Int × Nat × Nat) :=
  [(-1288646, 129, 7), (3452916, 859, 8), (-925206, 573, 8), (247908, 382, 8), (-66427, 255, 8), (17799, 170, 8), (-4769, 113, 8), (12779, 754, 9),
   (-3424, 503, 9), (917, 335, 9), (-246, 223, 9), (66, 149, 9), (-177, 993, 10), (47, 662, 10), (-13, 441, 10), (3, 294, 10), (-1, 196, 10),
   (0, 131, 10), (-1, 872, 11), (0, 581, 11), (0, 388, 11), (0, 258, 11), (0, 172, 11), (0, 115, 11), (0, 765, 12), (0, 630, 12), (0, 945, 12),
   (0, 142, 11), (0, 213, 11), (0, 319, 11), (0, 478, 11), (0, 717, 11), (0, 108, 10), (0, 161, 10), (-1, 242, 10), (4, 363, 10), (-16, 545, 10),
   (58, 817, 10), (-22, 123, 9), (81, 184, 9), (-303, 276, 9), (1132, 414, 9), (-4225, 620, 9), (15768, 931, 9), (-5885, 140, 8), (21962, 209, 8),
   (-81962, 314, 8), (305887, 471, 8), (-1141585, 707, 8), (426045, 106, 7), (-1590023, 159, 7), (426045, 106, 7), (-1141585, 707, 8), (305887, 471, 8),
   (-81962, 314, 8), (21962, 209, 8), (-5885, 140, 8), (15768, 931, 9), (-4225, 620, 9), (1132, 414, 9), (-303, 276, 9), (81, 184, 9), (-22, 123, 9),
   (58, 817, 10), (-16, 545, 10), (4, 363, 10), (-1, 242, 10), (0, 161, 10), (0, 108, 10), (0, 717, 11), (0, 478, 11), (0, 319, 11), (0, 213, 11),
   (0, 142, 11), (0, 945, 12), (0, 630, 12), (0, 420, 12), (0, 426, 12), (0, 639, 12), (0, 958, 12), (0, 144, 11), (0, 216, 11), (0, 323, 11),
   (1, 485, 11), (-3, 728, 11), (1, 109, 10), (-5, 164, 10), (18, 246, 10), (-65, 368, 10), (244, 553, 10), (-912, 829, 10), (340, 124, 9),
   (-1270, 187, 9), (4741, 280, 9), (-17692, 420, 9), (66029, 630, 9), (-246422, 944, 9), (91966, 142, 8), (-343222, 212, 8), (1280920, 319, 8),
   (-4780460, 478, 8), (1280920, 319, 8), (-343222, 212, 8), (91966, 142, 8), (-246422, 944, 9), (66029, 630, 9), (-17692, 420, 9), (4741, 280, 9),
   (-1270, 187, 9), (340, 124, 9), (-912, 829, 10), (244, 553, 10), (-65, 368, 10), (18, 246, 10), (-5, 164, 10), (1, 109, 10), (-3, 728, 11),
   (1, 485, 11), (0, 323, 11), (0, 216, 11)]

def cert_galex_NUV_9 : List (Int × Nat × Nat) :=
  [(0, 144, 11), (0, 958, 12), (0, 639, 12), (0, 426, 12), (0, 612, 12), (0, 918, 12), (0, 138, 11), (0, 206, 11), (0, 310, 11), (0, 465, 11),
   (0, 697, 11), (0, 105, 10), (0, 157, 10), (0, 235, 10), (2, 353, 10), (-6, 529, 10), (23, 794, 10), (-9, 119, 9), (32, 179, 9), (-118, 268, 9),
   (442, 402, 9), (-1650, 603, 9), (6158, 904, 9), (-2298, 136, 8), (8577, 203, 8), (-32010, 305, 8), (119461, 458, 8), (-445835, 687, 8),
   (166388, 103, 7), (-620968, 154, 7), (2317484, 232, 7), (-620968, 154, 7), (166388, 103, 7), (-445835, 687, 8), (119461, 458, 8), (-32010, 305, 8),
   (8577, 203, 8), (-2298, 136, 8), (6158, 904, 9), (-1650, 603, 9), (442, 402, 9), (-118, 268, 9), (32, 179, 9), (-9, 119, 9), (23, 794, 10),
   (-6, 529, 10), (2, 353, 10), (0, 235, 10), (0, 157, 10), (0, 105, 10), (0, 697, 11), (0, 465, 11), (0, 310, 11), (0, 206, 11), (0, 138, 11),
   (0, 918, 12), (0, 107, 11), (0, 160, 11), (0, 240, 11), (0, 360, 11), (0, 540, 11), (0, 809, 11), (0, 121, 10), (0, 182, 10), (1, 273, 10),
   (-5, 410, 10), (18, 615, 10), (-66, 922, 10), (25, 138, 9), (-92, 207, 9), (342, 311, 9), (-1278, 467, 9), (4768, 700, 9), (-1779, 105, 8),
   (6641, 158, 8), (-24785, 236, 8), (92498, 354, 8), (-345206, 532, 8), (1288325, 798, 8), (-480809, 120, 7), (1794405, 179, 7), (-480809, 120, 7),
   (1288325, 798, 8), (-345206, 532, 8), (92498, 354, 8), (-24785, 236, 8), (6641, 158, 8), (-1779, 105, 8), (4768, 700, 9), (-1278, 467, 9),
   (342, 311, 9), (-92, 207, 9), (25, 138, 9), (-66, 922, 10), (18, 615, 10), (-5, 410, 10), (1, 273, 10), (0, 182, 10), (0, 121, 10), (0, 809, 11),
   (0, 540, 11), (0, 360, 11), (0, 240, 11), (0, 160, 11), (0, 107, 11), (0, 711, 12), (0, 475, 12), (0, 713, 12), (0, 107, 11), (0, 160, 11),
   (0, 241, 11), (0, 361, 11), (0, 541, 11), (-2, 812, 11), (1, 122, 10), (-2, 183, 10), (8, 274, 10), (-29, 411, 10), (110, 617, 10), (-409, 925, 10)]

def cert_galex_NUV_10 : List (Int × Nat × Nat) :=
  [(153, 139, 9), (-570, 208, 9), (2126, 312, 9), (-7935, 468, 9), (29615, 703, 9), (-11053, 105, 8), (41249, 158, 8), (-153943, 237, 8),
   (574523, 356, 8), (-2144149, 533, 8), (8002075, 800, 8), (-2144149, 533, 8), (574523, 356, 8), (-153943, 237, 8), (41249, 158, 8), (-11053, 105, 8),
   (29615, 703, 9), (-7935, 468, 9), (2126, 312, 9), (-570, 208, 9), (153, 139, 9), (-409, 925, 10), (110, 617, 10), (-29, 411, 10), (8, 274, 10),
   (-2, 183, 10), (1, 122, 10), (-2, 812, 11), (0, 541, 11), (0, 361, 11), (0, 241, 11), (0, 160, 11), (0, 107, 11), (0, 713, 12), (0, 475, 12),
   (0, 317, 12), (0, 211, 12), (0, 141, 12), (0, 176, 12), (0, 264, 12), (0, 396, 12), (0, 594, 12), (1, 891, 12), (0, 134, 11), (1, 200, 11),
   (-3, 301, 11), (13, 451, 11), (-48, 676, 11), (18, 101, 10), (-67, 152, 10), (251, 228, 10), (-937, 342, 10), (3498, 514, 10), (-13054, 770, 10),
   (4872, 116, 9), (-18182, 173, 9), (67855, 260, 9), (-253240, 390, 9), (945103, 585, 9), (-3527172, 878, 9), (1316359, 132, 8), (-3527172, 878, 9),
   (945103, 585, 9), (-253240, 390, 9), (67855, 260, 9), (-18182, 173, 9), (4872, 116, 9), (-13054, 770, 10), (3498, 514, 10), (-937, 342, 10),
   (251, 228, 10), (-67, 152, 10), (18, 101, 10), (-48, 676, 11), (13, 451, 11), (-3, 301, 11), (1, 200, 11), (0, 134, 11), (1, 891, 12), (0, 594, 12),
   (0, 396, 12), (0, 264, 12), (0, 396, 12), (0, 594, 12), (0, 891, 12), (0, 134, 11), (0, 200, 11), (0, 301, 11), (0, 451, 11), (0, 676, 11),
   (0, 101, 10), (0, 152, 10), (0, 228, 10), (1, 342, 10), (-2, 514, 10), (9, 771, 10), (-3, 116, 9), (12, 173, 9), (-46, 260, 9), (172, 390, 9),
   (-644, 585, 9), (2402, 878, 9), (-897, 132, 8), (3346, 197, 8), (-12487, 296, 8), (46603, 444, 8), (-173924, 666, 8), (649093, 1000, 8),
   (-242245, 150, 7), (904070, 225, 7), (-3374035, 337, 7), (904070, 225, 7), (-242245, 150, 7), (649093, 1000, 8), (-173924, 666, 8), (46602, 444, 8),
   (-12483, 296, 8), (3329, 197, 8), (-832, 132, 8), (0, 878, 9)]

def cert_galex_NUV_11 : List (Int × Nat × Nat) :=
  [(8322, 3079, 9)]

/-- galex_NUV -/
def cert_galex_NUV : List (Int × Nat × Nat) :=
  cert_galex_NUV_0 ++ cert_galex_NUV_1 ++ cert_galex_NUV_2 ++ cert_galex_NUV_3 ++ cert_galex_NUV_4 ++ cert_galex_NUV_5 ++ cert_galex_NUV_6 ++ cert_galex_NUV_7 ++ cert_galex_NUV_8 ++ cert_galex_NUV_9 ++ cert_galex_NUV_10 ++ cert_galex_NUV_11

def cert_sdss_u0_0 : List (Int × Nat × Nat) :=
  [(6398278, 2525, 13), (4800000, 721, 13), (320172, 108, 12), (1119311, 162, 12), (1922583, 243, 12), (1750358, 365, 12), (5475984, 548, 12),
   (1305706, 365, 12), (821192, 243, 12), (-750474, 162, 12), (260705, 108, 12), (-1252344, 125, 12), (-513281, 948, 13), (-1422343, 142, 12),
   (-979298, 156, 12), (-2340464, 234, 12), (741152, 170, 12), (-2544146, 254, 12), (-164569, 170, 12), (2242422, 224, 12), (-165120, 169, 12),
   (-2541941, 254, 12), (-2147116, 215, 12), (-1349594, 143, 12), (8254904, 954, 13), (-323682, 882, 13), (263982, 132, 12), (-1983562, 198, 12),
   (-2889736, 289, 12), (-3737493, 374, 12), (-2320292, 249, 12), (-3301341, 330, 12), (-3674345, 367, 12), (-2161279, 245, 12), (-1120541, 208, 12),
   (-1996558, 312, 12), (-2413225, 468, 12), (3009460, 702, 12), (1053538, 105, 11), (5729000, 702, 12), (1108614, 468, 12), (1356544, 312, 12),
   (1145212, 208, 12), (782610, 139, 12), (-4356526, 925, 13), (0, 617, 13), (4356526, 2160, 13)]

/-- sdss_u0 -/
def cert_sdss_u0 : List (Int × Nat × Nat) :=
  cert_sdss_u0_0

def cert_sdss_g0_0 : List (Int × Nat × Nat) :=
  [(217363, 767, 12), (80000, 219, 12), (-57363, 328, 12), (1349452, 492, 12), (7379554, 738, 12), (5372332, 537, 12), (3291119, 358, 12),
   (-536809, 300, 12), (-4503882, 450, 12), (-3527662, 353, 12), (-2025471, 235, 12), (-1570455, 157, 12), (-572710, 105, 12), (-4587057, 698, 13),
   (-2324675, 465, 13), (-5314245, 531, 13), (-7618345, 762, 13), (-2612374, 565, 13), (8467842, 847, 13), (-2458995, 709, 13), (-1063186, 106, 12),
   (-7813551, 781, 13), (-1313933, 521, 13), (1069282, 713, 13), (423680, 107, 12), (-121650, 160, 12), (62920, 241, 12), (-370029, 361, 12),
   (-262805, 541, 12), (-1218752, 812, 12), (-158219, 122, 11), (130750, 183, 11), (-2740783, 274, 11), (-1287620, 183, 11), (259263, 122, 11),
   (1210567, 148, 11), (2218467, 222, 11), (115563, 148, 11), (1512812, 986, 12), (713122, 657, 12), (194699, 438, 12), (-51920, 292, 12),
   (12980, 195, 12), (0, 130, 12), (-129800, 4551, 13)]

/-- sdss_g0 -/
def cert_sdss_g0 : List (Int × Nat × Nat) :=
  cert_sdss_g0_0

def cert_sdss_r0_0 : List (Int × Nat × Nat) :=
  [(881481, 1310, 12), (-680000, 374, 12), (-2241481, 561, 12), (5325923, 841, 12), (1261779, 126, 11), (1140292, 114, 11), (1017053, 102, 11),
   (-965036, 805, 12), (-1207039, 121, 11), (-9073424, 907, 12), (-6115919, 612, 12), (-3902900, 408, 12), (-1792483, 272, 12), (-687170, 181, 12),
   (221162, 121, 12), (-677480, 106, 12), (-1591242, 159, 12), (-397550, 106, 12), (1261443, 126, 12), (6317773, 841, 13), (-188553, 108, 12),
   (-597567, 162, 12), (-1261179, 243, 12), (-357718, 364, 12), (532052, 546, 12), (-570489, 819, 12), (-233009, 123, 11), (125087, 184, 11),
   (-2763338, 276, 11), (-1527735, 184, 11), (-485721, 124, 11), (494619, 185, 11), (2779245, 278, 11), (1420402, 185, 11), (35149, 124, 11),
   (710032, 823, 12), (648384, 549, 12), (296431, 366, 12), (-154108, 244, 12), (80000, 163, 12), (314108, 571, 12)]

/-- sdss_r0 -/
def cert_sdss_r0 : List (Int × Nat × Nat) :=
  cert_sdss_r0_0

def cert_sdss_i0_0 : List (Int × Nat × Nat) :=
  [(21905, 3606, 13), (-80000, 103, 12), (-162190, 154, 12), (248762, 231, 12), (847143, 347, 12), (682666, 520, 12), (6982191, 781, 12),
   (1170857, 117, 11), (5943533, 781, 12), (1011730, 101, 11), (-153273, 115, 11), (-1718640, 172, 11), (67832, 144, 11), (-1552687, 215, 11),
   (-3193085, 323, 11), (4845025, 485, 11), (-3131016, 323, 11), (1943038, 215, 11), (-1233138, 196, 11), (253513, 293, 11), (171087, 440, 11),
   (-1297862, 660, 11), (4060362, 990, 11), (-1419959, 149, 10), (2228198, 223, 10), (-1411235, 149, 10), (3735413, 990, 11), (-1021304, 660, 11),
   (349802, 440, 11), (174095, 293, 11), (201817, 196, 11), (-189365, 130, 11), (-476359, 101, 11), (-449199, 151, 11), (-2262845, 226, 11),
   (-51421, 151, 11), (1316530, 132, 11), (1001302, 100, 11), (8702613, 870, 12), (56525, 580, 12), (911288, 387, 12), (378323, 258, 12),
   (-264581, 172, 12), (-40000, 115, 12), (1845808, 4023, 13)]

/-- sdss_i0 -/
def cert_sdss_i0 : List (Int × Nat × Nat) :=
  cert_sdss_i0_0

def cert_sdss_z0_0 : List (Int × Nat × Nat) :=
  [(-592436, 541, 13), (0, 154, 13), (592436, 232, 13), (1303723, 348, 13), (5213078, 521, 13), (7231720, 723, 13), (9941675, 994, 13),
   (6879130, 993, 13), (662344, 149, 12), (-2235247, 224, 12), (-170337, 149, 12), (-6344253, 993, 13), (-4756351, 662, 13), (-4018096, 586, 13),
   (-4885549, 879, 13), (-215399, 132, 12), (125663, 198, 12), (-2858680, 297, 12), (4451913, 445, 12), (-2459175, 297, 12), (2201113, 220, 12),
   (-1569769, 286, 12), (-3636324, 429, 12), (6441597, 644, 12), (-3272921, 429, 12), (1384779, 286, 12), (427680, 191, 12), (333071, 150, 12),
   (-2249760, 225, 12), (1563927, 156, 12), (-822276, 104, 12), (1333382, 695, 13), (440248, 463, 13), (579096, 309, 13), (916836, 206, 13),
   (651517, 137, 13), (1375053, 138, 13), (-292803, 917, 14), (1191048, 119, 13), (1630482, 794, 14), (6057389, 606, 14), (-1370242, 404, 14),
   (-576422, 269, 14), (3675929, 368, 14), (-1882396, 257, 14), (3853656, 385, 14), (-1287331, 257, 14), (1295669, 260, 14), (-3895346, 390, 14),
   (2040816, 532, 14), (7976979, 1456, 14)]

/-- sdss_z0 -/
def cert_sdss_z0 : List (Int × Nat × Nat) :=
  cert_sdss_z0_0

def cert_twomass_J_0 : List (Int × Nat × Nat) :=
  [(2758159, 1388, 16), (581920, 396, 16), (-1594318, 594, 16), (4178377, 891, 16), (-197881, 134, 15), (1673585, 201, 15), (-1307260, 301, 15),
   (1848528, 451, 15), (-2149794, 677, 15), (163475, 102, 14), (-751016, 152, 14), (2284758, 228, 14), (-1900635, 190, 14), (-1206477, 156, 14),
   (-68997, 234, 14), (763711, 351, 14), (-5259251, 526, 14), (7213649, 721, 14), (-1145035, 481, 14), (-21223, 684, 14), (-134677, 103, 13),
   (1538949, 154, 13), (-2252294, 225, 13), (2249228, 225, 13), (-2501451, 250, 13), (2821109, 282, 13), (-1542632, 188, 13), (571790, 125, 13),
   (-3525479, 836, 14), (5024974, 557, 14), (-4618316, 462, 14), (1945794, 308, 14), (-461039, 205, 14), (-504671, 137, 14), (1179799, 120, 14),
   (-1807326, 181, 14), (1029911, 120, 14), (621466, 803, 15), (-2094778, 771, 15), (-1156897, 116, 14), (9133819, 913, 15), (-275924, 609, 15),
   (1543737, 406, 15), (-1478868, 387, 15), (3301972, 580, 15), (-6766797, 870, 15), (1305435, 131, 14), (-7924074, 870, 15), (101964, 580, 15),
   (-667602, 387, 15), (-2157721, 258, 15), (547481, 247, 15), (-3283651, 371, 15), (3895410, 556, 15), (-8338634, 834, 15), (7570606, 757, 15),
   (-3628886, 505, 15), (3285947, 336, 15), (-688493, 224, 15), (1078394, 213, 15), (-364447, 320, 15), (722784, 479, 15), (2551241, 719, 15),
   (-420722, 108, 14), (819911, 162, 14), (-1114336, 243, 14), (-1353744, 364, 14), (5461418, 546, 14), (-5914207, 591, 14), (1518736, 414, 14),
   (2432752, 620, 14), (-4884119, 931, 14), (630737, 140, 13), (-2094160, 209, 13), (1201783, 140, 13), (1679328, 168, 13), (-1345161, 135, 13),
   (4970692, 897, 14), (-3886161, 598, 14), (2000353, 399, 14), (1091339, 266, 14), (599848, 177, 14), (-782281, 118, 14), (2533291, 787, 15),
   (3218276, 571, 15), (-8568801, 857, 15), (411555, 124, 14), (-138376, 187, 14), (123981, 280, 14), (-300908, 420, 14), (980288, 630, 14),
   (-2984191, 945, 14), (1417262, 142, 13), (-1753565, 175, 13), (1074968, 117, 13), (-6584128, 779, 14), (5560299, 556, 14), (-7205535, 721, 14),
   (3907969, 480, 14), (-1182310, 320, 14), (215523, 213, 14), (-122274, 142, 14), (642295, 949, 15), (-74779, 633, 15), (18316, 422, 15),
   (-3697, 281, 15), (1807, 187, 15), (2750, 268, 15)]

/-- twomass_J -/
def cert_twomass_J : List (Int × Nat × Nat) :=
  cert_twomass_J_0

def cert_twomass_H_0 : List (Int × Nat × Nat) :=
  [(234, 787, 17), (46, 322, 17), (-280, 483, 17), (1056, 724, 17), (-382, 109, 16), (1672, 163, 16), (36872, 244, 16), (2173, 367, 16),
   (507305, 550, 16), (8249274, 825, 16), (-2968998, 769, 16), (1153091, 115, 15), (-3603935, 769, 16), (-4828629, 512, 16), (-950545, 342, 16),
   (-3960308, 396, 16), (-4957233, 542, 16), (1002918, 813, 16), (-1218820, 122, 15), (8904574, 890, 16), (1185074, 119, 15), (-2991554, 790, 16),
   (292427, 879, 16), (-1319133, 132, 15), (1092120, 109, 15), (-7051774, 728, 16), (3871842, 485, 16), (-2711033, 324, 16), (4172682, 417, 16),
   (-2627074, 278, 16), (1839567, 341, 16), (4827195, 512, 16), (-7679867, 768, 16), (-912719, 512, 16), (-91485, 372, 16), (4268902, 558, 16),
   (-3625729, 838, 16), (87076, 126, 15), (-283715, 188, 15), (847670, 283, 15), (-4240155, 424, 15), (4648661, 465, 15), (-1682401, 397, 15),
   (1375475, 595, 15), (-5442808, 893, 15), (1339765, 134, 14), (-1818360, 182, 14), (925034, 121, 14), (-987065, 808, 15), (-3346077, 539, 15),
   (6351739, 635, 15), (-1853676, 423, 15), (755652, 282, 15), (-124798, 188, 15), (27383, 125, 15), (-65069, 836, 16), (0, 558, 16), (65069, 1953, 16)]

/-- twomass_H -/
def cert_twomass_H : List (Int × Nat × Nat) :=
  cert_twomass_H_0

def cert_twomass_Ks_0 : List (Int × Nat × Nat) :=
  [(-45738, 1185, 16), (5717, 249, 16), (40021, 374, 16), (-100427, 561, 16), (619430, 841, 16), (-21488, 126, 15), (82858, 189, 15), (83928, 284, 15),
   (369070, 426, 15), (-169611, 638, 15), (4306410, 958, 15), (-1436520, 144, 14), (1313165, 131, 14), (-3829652, 875, 15), (3448494, 584, 15),
   (-6473329, 647, 15), (6703922, 670, 15), (-2804906, 447, 15), (-659238, 298, 15), (-823740, 199, 15), (1850229, 231, 15), (-3458848, 346, 15),
   (5077332, 508, 15), (-2272290, 338, 15), (-23650, 226, 15), (562964, 150, 15), (-537376, 100, 15), (652934, 669, 16), (12417, 446, 16),
   (-395055, 331, 16), (69539, 497, 16), (-3145362, 746, 16), (712263, 112, 15), (-1677552, 168, 15), (1737902, 174, 15), (-825843, 116, 15),
   (1887592, 772, 16), (-2891440, 515, 16), (-1817593, 757, 16), (441742, 114, 15), (-256427, 170, 15), (-240358, 256, 15), (522284, 383, 15),
   (2161919, 575, 15), (-8623718, 862, 15), (6302611, 901, 15), (-253711, 135, 14), (-1141188, 203, 14), (3040866, 304, 14), (-3305765, 331, 14),
   (1291110, 220, 14), (478001, 147, 14), (-1102782, 110, 14), (4988737, 735, 15), (-4259179, 490, 15), (-3001793, 334, 15), (5006353, 501, 15),
   (-1646321, 334, 15), (-299533, 223, 15), (556104, 151, 15), (2263517, 226, 15), (-2582736, 258, 15), (2016860, 202, 15), (-818221, 134, 15),
   (6103219, 896, 16), (-3038198, 598, 16), (3787478, 398, 16), (-4996248, 500, 16), (6279441, 628, 16), (-2458515, 419, 16), (431630, 279, 16),
   (1123, 186, 16), (11098, 124, 16), (-5057, 827, 17), (-179114, 3930, 17)]

/-- twomass_Ks -/
def cert_twomass_Ks : List (Int × Nat × Nat) :=
  cert_twomass_Ks_0

def cert_iras_60_0 : List (Int × Nat × Nat) :=
  [(6201566, 1993, 17), (1777778, 569, 17), (-2646010, 854, 17), (1280626, 128, 16), (754295, 854, 17), (7509890, 853, 17), (-1279386, 128, 16),
   (-334463, 853, 17), (-5201626, 743, 17), (1114097, 111, 16), (-6028902, 743, 17), (1641309, 880, 17), (-1320300, 132, 16), (517070, 163, 16),
   (-281312, 244, 16), (-3658490, 366, 16), (2981937, 325, 16), (-4869257, 487, 16), (4828425, 483, 16), (888889, 322, 16), (-3050648, 1129, 16)]

/-- iras_60 -/
def cert_iras_60 : List (Int × Nat × Nat) :=
  cert_iras_60_0

end KC
