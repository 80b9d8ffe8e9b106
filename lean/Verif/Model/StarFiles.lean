import Verif.Model.BandFiles

/-!
The spectra of the Sun and of Vega that `Response.set_solar_magnitude` and `Response.set_vega2ab` read (response.py:483–552), as they are in
`data/basel/lcbsun.ori` and `data/basel/lcbvega.ori`: every one of the 1221 wavelengths and fluxes, in the order of the file.  And the response
curve of `data/responses/iras_60.dat`.
-/

namespace KC

/-- one row: the wavelength in tenths of a nanometre, and the flux `mantissa / 10 ^ exponent` (the file has `0.7786E-05` for `(7786, 9)`) -/
structure StarFile where
  rows : List (Nat × Nat × Nat)

def rows_sun_0 : List (Nat × Nat × Nat) :=
  [(91, 0, 4), (94, 0, 4), (96, 0, 4), (98, 0, 4), (100, 0, 4), (102, 0, 4), (104, 0, 4), (106, 0, 4), (108, 0, 4), (110, 0, 4), (114, 0, 4),
   (118, 0, 4), (121, 0, 4), (125, 0, 4), (127, 0, 4), (128, 0, 4), (131, 0, 4), (132, 0, 4), (134, 0, 4), (137, 0, 4), (140, 0, 4), (143, 0, 4),
   (147, 0, 4), (151, 0, 4), (155, 0, 4), (159, 0, 4), (162, 0, 4), (166, 0, 4), (170, 0, 4), (173, 0, 4), (177, 0, 4), (180, 0, 4), (182, 0, 4),
   (186, 0, 4), (191, 0, 4), (194, 0, 4), (198, 0, 4), (202, 0, 4), (205, 0, 4), (210, 0, 4), (216, 0, 4), (220, 0, 4), (223, 0, 4), (227, 0, 4),
   (230, 0, 4), (234, 0, 4), (240, 0, 4), (246, 0, 4), (252, 0, 4), (257, 0, 4), (260, 0, 4), (264, 0, 4), (269, 0, 4), (274, 0, 4), (279, 0, 4),
   (284, 0, 4), (290, 0, 4), (296, 0, 4), (301, 0, 4), (308, 0, 4), (318, 0, 4), (328, 0, 4), (338, 0, 4), (348, 0, 4), (357, 0, 4), (366, 0, 4),
   (375, 0, 4), (385, 0, 4), (395, 0, 4), (405, 0, 4), (414, 0, 4), (422, 0, 4), (430, 0, 4), (441, 0, 4), (451, 0, 4), (460, 0, 4), (470, 0, 4),
   (480, 0, 4), (490, 0, 4), (500, 0, 4), (506, 0, 4), (512, 0, 4), (520, 0, 4), (530, 0, 4), (540, 0, 4), (550, 0, 4), (560, 0, 4), (570, 0, 4),
   (580, 0, 4), (590, 0, 4), (600, 0, 4), (610, 0, 4), (620, 0, 4), (630, 0, 4), (640, 0, 4), (650, 0, 4), (658, 0, 4), (665, 0, 4), (675, 0, 4),
   (685, 0, 4), (695, 0, 4), (705, 0, 4), (716, 0, 4), (726, 0, 4), (735, 0, 4), (745, 0, 4), (755, 0, 4), (765, 0, 4), (775, 0, 4), (785, 0, 4),
   (795, 0, 4), (805, 0, 4), (815, 0, 4), (825, 0, 4), (835, 0, 4), (845, 0, 4), (855, 0, 4), (865, 0, 4), (875, 0, 4), (885, 0, 4)]

def rows_sun_1 : List (Nat × Nat × Nat) :=
  [(895, 0, 4), (905, 0, 4), (915, 0, 4), (925, 8441, 23), (935, 1206, 22), (945, 1790, 22), (955, 2750, 22), (965, 4094, 22), (975, 5588, 22),
   (985, 8045, 22), (995, 1121, 21), (1005, 1689, 21), (1015, 2340, 21), (1025, 2773, 21), (1035, 4586, 21), (1045, 6442, 21), (1055, 8411, 21),
   (1065, 1153, 20), (1075, 1587, 20), (1085, 2172, 20), (1095, 2784, 20), (1105, 1292, 19), (1115, 2209, 19), (1125, 3306, 19), (1135, 4963, 19),
   (1145, 6745, 19), (1155, 8131, 19), (1165, 1114, 18), (1175, 1465, 18), (1185, 1669, 18), (1195, 1487, 18), (1205, 1677, 18), (1215, 3862, 19),
   (1225, 2352, 18), (1235, 4602, 18), (1245, 6321, 18), (1255, 7697, 18), (1265, 8508, 18), (1275, 1061, 17), (1285, 1222, 17), (1295, 1507, 17),
   (1305, 1609, 17), (1315, 2035, 17), (1325, 2160, 17), (1335, 2456, 17), (1345, 2944, 17), (1355, 3466, 17), (1365, 3784, 17), (1375, 4179, 17),
   (1385, 4697, 17), (1395, 5326, 17), (1405, 6573, 17), (1415, 7671, 17), (1425, 8991, 17), (1435, 1085, 16), (1442, 1415, 16), (1447, 1291, 16),
   (1455, 1529, 16), (1465, 1981, 16), (1475, 2299, 16), (1485, 2523, 16), (1495, 3330, 16), (1505, 4101, 16), (1512, 3169, 16), (1517, 4030, 16),
   (1525, 1091, 15), (1535, 1838, 15), (1545, 1565, 15), (1555, 2606, 15), (1565, 2501, 15), (1575, 4648, 15), (1585, 5733, 15), (1595, 6611, 15),
   (1605, 7299, 15), (1615, 8096, 15), (1625, 9252, 15), (1635, 1089, 14), (1645, 1537, 14), (1655, 1034, 14), (1665, 1821, 14), (1672, 1339, 14),
   (1677, 4929, 14), (1685, 5615, 14), (1695, 6956, 14), (1705, 7692, 14), (1715, 7750, 14), (1725, 9838, 14), (1735, 1185, 13), (1745, 1583, 13),
   (1755, 2182, 13), (1765, 2049, 13), (1775, 2287, 13), (1785, 3007, 13), (1795, 3654, 13), (1805, 3856, 13), (1815, 3697, 13), (1825, 4627, 13),
   (1835, 4967, 13), (1845, 3847, 13), (1855, 5603, 13), (1865, 6727, 13), (1875, 7432, 13), (1885, 8050, 13), (1895, 1034, 12), (1905, 1025, 12),
   (1915, 1147, 12), (1925, 1164, 12), (1935, 8436, 13), (1945, 1534, 12), (1955, 1621, 12), (1967, 2105, 12), (1976, 2008, 12), (1984, 2401, 12),
   (1995, 2551, 12), (2005, 2532, 12), (2015, 2818, 12), (2025, 2341, 12), (2035, 3242, 12), (2045, 3757, 12), (2055, 3913, 12)]

def rows_sun_2 : List (Nat × Nat × Nat) :=
  [(2065, 3979, 12), (2074, 4310, 12), (2078, 1496, 11), (2085, 2050, 11), (2095, 1919, 11), (2105, 1932, 11), (2115, 2381, 11), (2125, 2080, 11),
   (2135, 2135, 11), (2145, 2960, 11), (2155, 2768, 11), (2165, 2291, 11), (2175, 2280, 11), (2185, 3499, 11), (2195, 3252, 11), (2205, 3283, 11),
   (2215, 2379, 11), (2225, 3302, 11), (2235, 4838, 11), (2245, 4639, 11), (2255, 3290, 11), (2265, 2756, 11), (2275, 2986, 11), (2285, 5098, 11),
   (2295, 3836, 11), (2305, 5286, 11), (2315, 4210, 11), (2325, 3519, 11), (2335, 3046, 11), (2345, 1895, 11), (2355, 4281, 11), (2365, 2267, 11),
   (2375, 3127, 11), (2385, 1743, 11), (2395, 2341, 11), (2405, 2420, 11), (2415, 2918, 11), (2425, 6036, 11), (2435, 6109, 11), (2445, 7639, 11),
   (2455, 8537, 11), (2465, 6669, 11), (2475, 5683, 11), (2485, 2339, 11), (2495, 3813, 11), (2505, 6606, 11), (2513, 2407, 11), (2518, 1711, 11),
   (2525, 2051, 11), (2535, 4837, 11), (2545, 5034, 11), (2555, 1237, 10), (2565, 8380, 11), (2575, 1206, 10), (2585, 1027, 10), (2595, 8906, 11),
   (2605, 7173, 11), (2615, 6428, 11), (2625, 9458, 11), (2635, 2013, 10), (2645, 2881, 10), (2655, 4255, 10), (2665, 2553, 10), (2675, 2969, 10),
   (2685, 3649, 10), (2695, 2530, 10), (2705, 3153, 10), (2715, 2139, 10), (2725, 1466, 10), (2735, 2068, 10), (2745, 1060, 10), (2755, 1612, 10),
   (2765, 2296, 10), (2775, 2333, 10), (2785, 1238, 10), (2795, 5074, 11), (2805, 6418, 11), (2815, 2029, 10), (2825, 3278, 10), (2835, 3054, 10),
   (2845, 1769, 10), (2855, 8415, 11), (2865, 2931, 10), (2875, 4797, 10), (2885, 4138, 10), (2895, 5564, 10), (2910, 7550, 10), (2930, 7086, 10),
   (2950, 6974, 10), (2970, 7711, 10), (2990, 8077, 10), (3010, 8276, 10), (3030, 8910, 10), (3050, 9272, 10), (3070, 9170, 10), (3090, 8308, 10),
   (3110, 9674, 10), (3130, 9182, 10), (3150, 8793, 10), (3170, 9979, 10), (3190, 8816, 10), (3210, 9972, 10), (3230, 8596, 10), (3250, 1177, 9),
   (3270, 1374, 9), (3290, 1325, 9), (3310, 1280, 9), (3330, 1327, 9), (3350, 1318, 9), (3370, 1005, 9), (3390, 1189, 9), (3410, 1228, 9),
   (3430, 1285, 9), (3450, 1436, 9), (3470, 1506, 9), (3490, 1641, 9), (3510, 1713, 9), (3530, 1610, 9), (3550, 1812, 9), (3570, 1494, 9)]

def rows_sun_3 : List (Nat × Nat × Nat) :=
  [(3590, 1514, 9), (3610, 1713, 9), (3630, 1730, 9), (3640, 1754, 9), (3650, 1921, 9), (3670, 2016, 9), (3690, 1864, 9), (3710, 2008, 9),
   (3730, 1483, 9), (3750, 1693, 9), (3770, 2088, 9), (3790, 2174, 9), (3810, 2132, 9), (3830, 1211, 9), (3850, 1783, 9), (3870, 1733, 9),
   (3890, 2075, 9), (3910, 2458, 9), (3930, 1265, 9), (3950, 2180, 9), (3970, 1531, 9), (3990, 3067, 9), (4010, 3294, 9), (4030, 3357, 9),
   (4050, 3263, 9), (4070, 3169, 9), (4090, 3665, 9), (4110, 3590, 9), (4130, 3663, 9), (4150, 3697, 9), (4170, 3778, 9), (4190, 3617, 9),
   (4210, 3697, 9), (4230, 3573, 9), (4250, 3632, 9), (4270, 3420, 9), (4290, 3219, 9), (4310, 2679, 9), (4330, 3896, 9), (4350, 3776, 9),
   (4370, 4192, 9), (4390, 3863, 9), (4410, 4179, 9), (4430, 4507, 9), (4450, 4505, 9), (4470, 4768, 9), (4490, 4846, 9), (4510, 5329, 9),
   (4530, 4912, 9), (4550, 5110, 9), (4570, 5427, 9), (4590, 5189, 9), (4610, 5331, 9), (4630, 5293, 9), (4650, 5391, 9), (4670, 5563, 9),
   (4690, 5495, 9), (4710, 5393, 9), (4730, 5659, 9), (4750, 5788, 9), (4770, 5845, 9), (4790, 5862, 9), (4810, 5835, 9), (4830, 5977, 9),
   (4850, 5662, 9), (4870, 5094, 9), (4890, 5805, 9), (4910, 5865, 9), (4930, 5791, 9), (4950, 6059, 9), (4970, 6157, 9), (4990, 5840, 9),
   (5010, 5659, 9), (5030, 5995, 9), (5050, 6041, 9), (5070, 6312, 9), (5090, 6146, 9), (5110, 6274, 9), (5130, 6181, 9), (5150, 6028, 9),
   (5170, 5519, 9), (5190, 5647, 9), (5210, 6194, 9), (5230, 6302, 9), (5250, 6551, 9), (5270, 5907, 9), (5290, 6587, 9), (5310, 6832, 9),
   (5330, 6276, 9), (5350, 6748, 9), (5370, 6741, 9), (5390, 6728, 9), (5410, 6571, 9), (5430, 6780, 9), (5450, 6967, 9), (5470, 6907, 9),
   (5490, 6981, 9), (5510, 6980, 9), (5530, 7054, 9), (5550, 7163, 9), (5570, 7036, 9), (5590, 6967, 9), (5610, 7192, 9), (5630, 7241, 9),
   (5650, 7302, 9), (5670, 7191, 9), (5690, 7332, 9), (5710, 7259, 9), (5730, 7675, 9), (5750, 7496, 9), (5770, 7601, 9), (5790, 7480, 9),
   (5810, 7651, 9), (5830, 7786, 9), (5850, 7682, 9), (5870, 7734, 9), (5890, 7325, 9), (5910, 7743, 9), (5930, 7777, 9), (5950, 7830, 9)]

def rows_sun_4 : List (Nat × Nat × Nat) :=
  [(5970, 7886, 9), (5990, 7855, 9), (6010, 7792, 9), (6030, 7878, 9), (6050, 8032, 9), (6070, 8026, 9), (6090, 7892, 9), (6110, 7891, 9),
   (6130, 7674, 9), (6150, 7816, 9), (6170, 7658, 9), (6190, 8026, 9), (6210, 8069, 9), (6230, 7925, 9), (6250, 7776, 9), (6270, 8094, 9),
   (6290, 8150, 9), (6310, 7996, 9), (6330, 8070, 9), (6350, 8124, 9), (6370, 8129, 9), (6390, 8217, 9), (6410, 8076, 9), (6430, 8192, 9),
   (6450, 8159, 9), (6470, 8146, 9), (6490, 8100, 9), (6510, 8271, 9), (6530, 8278, 9), (6550, 7957, 9), (6570, 7022, 9), (6590, 8200, 9),
   (6610, 8400, 9), (6630, 8385, 9), (6650, 8411, 9), (6670, 8359, 9), (6690, 8506, 9), (6710, 8381, 9), (6730, 8507, 9), (6750, 8470, 9),
   (6770, 8510, 9), (6790, 8494, 9), (6810, 8495, 9), (6830, 8567, 9), (6850, 8435, 9), (6870, 8550, 9), (6890, 8595, 9), (6910, 8569, 9),
   (6930, 8584, 9), (6950, 8592, 9), (6970, 8614, 9), (6990, 8630, 9), (7010, 8447, 9), (7030, 8590, 9), (7050, 8650, 9), (7070, 8613, 9),
   (7090, 8610, 9), (7110, 8658, 9), (7130, 8587, 9), (7150, 8573, 9), (7170, 8601, 9), (7190, 8443, 9), (7210, 8618, 9), (7230, 8643, 9),
   (7250, 8708, 9), (7270, 8711, 9), (7290, 8538, 9), (7310, 8679, 9), (7330, 8694, 9), (7350, 8741, 9), (7370, 8775, 9), (7390, 8615, 9),
   (7410, 8474, 9), (7430, 8671, 9), (7450, 8713, 9), (7470, 8794, 9), (7490, 8749, 9), (7510, 8781, 9), (7530, 8820, 9), (7550, 8872, 9),
   (7570, 8822, 9), (7590, 8820, 9), (7610, 8823, 9), (7630, 8871, 9), (7650, 8876, 9), (7670, 8694, 9), (7690, 8880, 9), (7710, 8813, 9),
   (7730, 8851, 9), (7750, 8791, 9), (7770, 8899, 9), (7790, 8937, 9), (7810, 8919, 9), (7830, 8874, 9), (7850, 8866, 9), (7870, 8968, 9),
   (7890, 8957, 9), (7910, 8877, 9), (7930, 8783, 9), (7950, 8807, 9), (7970, 8953, 9), (7990, 8985, 9), (8010, 8899, 9), (8030, 8917, 9),
   (8050, 8881, 9), (8070, 8961, 9), (8090, 8847, 9), (8110, 8951, 9), (8130, 8994, 9), (8150, 8972, 9), (8170, 8980, 9), (8190, 8772, 9),
   (8210, 8827, 9), (8230, 8839, 9), (8250, 8918, 9), (8270, 9009, 9), (8290, 8997, 9), (8310, 8871, 9), (8330, 8846, 9), (8350, 8914, 9)]

def rows_sun_5 : List (Nat × Nat × Nat) :=
  [(8370, 8970, 9), (8390, 8843, 9), (8410, 8978, 9), (8430, 8862, 9), (8450, 8928, 9), (8470, 8890, 9), (8490, 8938, 9), (8510, 8622, 9),
   (8530, 8985, 9), (8550, 8495, 9), (8570, 9059, 9), (8590, 8886, 9), (8610, 8895, 9), (8630, 9025, 9), (8650, 9031, 9), (8670, 8418, 9),
   (8690, 8824, 9), (8710, 8960, 9), (8730, 8967, 9), (8750, 8796, 9), (8770, 9009, 9), (8790, 8973, 9), (8810, 8814, 9), (8830, 8956, 9),
   (8850, 8966, 9), (8870, 8732, 9), (8890, 9027, 9), (8910, 9077, 9), (8930, 8941, 9), (8950, 8974, 9), (8970, 9007, 9), (8990, 9035, 9),
   (9010, 8637, 9), (9030, 8947, 9), (9050, 9115, 9), (9070, 8968, 9), (9090, 8781, 9), (9110, 8912, 9), (9130, 9067, 9), (9150, 9051, 9),
   (9170, 9047, 9), (9190, 9114, 9), (9210, 8931, 9), (9230, 8705, 9), (9250, 8883, 9), (9270, 8995, 9), (9290, 9049, 9), (9310, 9084, 9),
   (9330, 9049, 9), (9350, 9054, 9), (9370, 9027, 9), (9390, 9061, 9), (9410, 8759, 9), (9430, 9029, 9), (9450, 8937, 9), (9470, 9067, 9),
   (9490, 9101, 9), (9510, 9051, 9), (9530, 9018, 9), (9550, 8668, 9), (9570, 8971, 9), (9590, 9077, 9), (9610, 9006, 9), (9630, 8951, 9),
   (9650, 8954, 9), (9670, 8946, 9), (9690, 9036, 9), (9710, 9023, 9), (9730, 9029, 9), (9750, 8961, 9), (9770, 8988, 9), (9790, 8965, 9),
   (9810, 9024, 9), (9830, 9011, 9), (9850, 9026, 9), (9870, 8975, 9), (9890, 8970, 9), (9910, 8972, 9), (9930, 9033, 9), (9950, 9034, 9),
   (9970, 9034, 9), (9990, 9014, 9), (10025, 8963, 9), (10075, 8853, 9), (10125, 8984, 9), (10175, 8924, 9), (10225, 8961, 9), (10275, 8994, 9),
   (10325, 8916, 9), (10375, 8909, 9), (10425, 8951, 9), (10475, 8885, 9), (10525, 8927, 9), (10575, 8892, 9), (10625, 8861, 9), (10675, 8729, 9),
   (10725, 8813, 9), (10775, 8778, 9), (10825, 8700, 9), (10875, 8721, 9), (10925, 8618, 9), (10975, 8680, 9), (11025, 8802, 9), (11075, 8832, 9),
   (11125, 8797, 9), (11175, 8763, 9), (11225, 8797, 9), (11275, 8678, 9), (11325, 8713, 9), (11375, 8712, 9), (11425, 8642, 9), (11475, 8767, 9),
   (11525, 8753, 9), (11575, 8699, 9), (11625, 8622, 9), (11675, 8635, 9), (11725, 8729, 9), (11775, 8592, 9), (11825, 8582, 9), (11875, 8552, 9)]

def rows_sun_6 : List (Nat × Nat × Nat) :=
  [(11925, 8702, 9), (11975, 8463, 9), (12025, 8592, 9), (12075, 8540, 9), (12125, 8593, 9), (12175, 8656, 9), (12225, 8639, 9), (12275, 8595, 9),
   (12325, 8604, 9), (12375, 8596, 9), (12425, 8569, 9), (12475, 8595, 9), (12525, 8560, 9), (12575, 8549, 9), (12625, 8543, 9), (12675, 8504, 9),
   (12725, 8546, 9), (12775, 8534, 9), (12825, 8089, 9), (12875, 8479, 9), (12925, 8477, 9), (12975, 8516, 9), (13025, 8451, 9), (13075, 8496, 9),
   (13125, 8406, 9), (13175, 8387, 9), (13225, 8461, 9), (13275, 8380, 9), (13325, 8415, 9), (13375, 8388, 9), (13425, 8434, 9), (13475, 8413, 9),
   (13525, 8403, 9), (13575, 8318, 9), (13625, 8348, 9), (13675, 8338, 9), (13725, 8325, 9), (13775, 8326, 9), (13825, 8334, 9), (13875, 8336, 9),
   (13925, 8328, 9), (13975, 8319, 9), (14025, 8258, 9), (14075, 8303, 9), (14125, 8229, 9), (14175, 8303, 9), (14225, 8184, 9), (14275, 8121, 9),
   (14325, 8237, 9), (14375, 8275, 9), (14425, 8028, 9), (14475, 8228, 9), (14525, 8089, 9), (14570, 8163, 9), (14620, 8179, 9), (14675, 8208, 9),
   (14725, 8107, 9), (14775, 8101, 9), (14825, 8115, 9), (14875, 7964, 9), (14925, 8165, 9), (14975, 8073, 9), (15025, 7862, 9), (15075, 7903, 9),
   (15125, 8053, 9), (15175, 8063, 9), (15225, 7974, 9), (15275, 8031, 9), (15325, 7986, 9), (15375, 7989, 9), (15425, 7987, 9), (15475, 7974, 9),
   (15525, 7898, 9), (15575, 7858, 9), (15625, 7963, 9), (15675, 7797, 9), (15725, 7859, 9), (15775, 7648, 9), (15825, 7777, 9), (15875, 7530, 9),
   (15925, 7713, 9), (15975, 7788, 9), (16050, 7732, 9), (16150, 7638, 9), (16250, 7719, 9), (16350, 7601, 9), (16450, 7481, 9), (16550, 7579, 9),
   (16650, 7531, 9), (16750, 7362, 9), (16850, 7201, 9), (16950, 7375, 9), (17050, 7231, 9), (17150, 7197, 9), (17250, 7079, 9), (17350, 6809, 9),
   (17450, 6947, 9), (17550, 6946, 9), (17650, 6888, 9), (17750, 6827, 9), (17850, 6794, 9), (17950, 6738, 9), (18050, 6655, 9), (18150, 6404, 9),
   (18250, 6485, 9), (18350, 6487, 9), (18450, 6386, 9), (18550, 6378, 9), (18650, 6262, 9), (18750, 5934, 9), (18850, 6185, 9), (18950, 6039, 9),
   (19050, 6126, 9), (19150, 6058, 9), (19250, 6015, 9), (19350, 5914, 9), (19450, 5659, 9), (19550, 5851, 9), (19650, 5804, 9), (19750, 5742, 9)]

def rows_sun_7 : List (Nat × Nat × Nat) :=
  [(19850, 5720, 9), (19950, 5680, 9), (20050, 5661, 9), (20150, 5637, 9), (20250, 5546, 9), (20350, 5474, 9), (20450, 5500, 9), (20550, 5445, 9),
   (20650, 5371, 9), (20750, 5347, 9), (20850, 5310, 9), (20950, 5238, 9), (21050, 5237, 9), (21150, 5187, 9), (21250, 5146, 9), (21350, 5119, 9),
   (21450, 5084, 9), (21550, 5040, 9), (21650, 4805, 9), (21750, 4928, 9), (21850, 4905, 9), (21950, 4898, 9), (22050, 4821, 9), (22150, 4818, 9),
   (22250, 4777, 9), (22350, 4742, 9), (22450, 4708, 9), (22550, 4667, 9), (22650, 4628, 9), (22750, 4610, 9), (22850, 4556, 9), (22950, 4501, 9),
   (23050, 4501, 9), (23150, 4461, 9), (23250, 4381, 9), (23350, 4373, 9), (23450, 4373, 9), (23550, 4268, 9), (23650, 4293, 9), (23750, 4262, 9),
   (23850, 4167, 9), (23950, 4193, 9), (24050, 4167, 9), (24150, 4097, 9), (24250, 4093, 9), (24350, 4065, 9), (24450, 4026, 9), (24550, 3978, 9),
   (24650, 3998, 9), (24750, 3948, 9), (24850, 3888, 9), (24950, 3899, 9), (25050, 3898, 9), (25150, 3842, 9), (25250, 3836, 9), (25350, 3810, 9),
   (25450, 3776, 9), (25550, 3746, 9), (25650, 3715, 9), (25750, 3723, 9), (25850, 3652, 9), (25950, 3663, 9), (26050, 3645, 9), (26150, 3605, 9),
   (26250, 3467, 9), (26350, 3561, 9), (26450, 3534, 9), (26550, 3519, 9), (26650, 3473, 9), (26750, 3474, 9), (26850, 3472, 9), (26950, 3448, 9),
   (27050, 3430, 9), (27150, 3405, 9), (27250, 3385, 9), (27350, 3367, 9), (27450, 3350, 9), (27550, 3301, 9), (27650, 3288, 9), (27750, 3278, 9),
   (27850, 3262, 9), (27950, 3249, 9), (28050, 3226, 9), (28150, 3209, 9), (28250, 3187, 9), (28350, 3173, 9), (28450, 3143, 9), (28550, 3129, 9),
   (28650, 3103, 9), (28750, 3057, 9), (28850, 3070, 9), (28950, 3056, 9), (29050, 3038, 9), (29150, 3019, 9), (29250, 2993, 9), (29350, 2984, 9),
   (29450, 2960, 9), (29550, 2948, 9), (29650, 2933, 9), (29750, 2915, 9), (29850, 2897, 9), (29950, 2875, 9), (30050, 2859, 9), (30150, 2846, 9),
   (30250, 2825, 9), (30350, 2773, 9), (30450, 2780, 9), (30550, 2776, 9), (30650, 2757, 9), (30750, 2749, 9), (30850, 2726, 9), (30950, 2711, 9),
   (31050, 2702, 9), (31150, 2667, 9), (31250, 2667, 9), (31350, 2656, 9), (31450, 2640, 9), (31550, 2617, 9), (31650, 2607, 9), (31750, 2594, 9)]

def rows_sun_8 : List (Nat × Nat × Nat) :=
  [(31850, 2580, 9), (31950, 2569, 9), (32100, 2543, 9), (32300, 2517, 9), (32500, 2487, 9), (32700, 2459, 9), (32900, 2407, 9), (33100, 2401, 9),
   (33300, 2374, 9), (33500, 2355, 9), (33700, 2327, 9), (33900, 2299, 9), (34100, 2272, 9), (34300, 2256, 9), (34500, 2235, 9), (34700, 2210, 9),
   (34900, 2188, 9), (35100, 2166, 9), (35300, 2140, 9), (35500, 2121, 9), (35700, 2097, 9), (35900, 2075, 9), (36100, 2059, 9), (36300, 2038, 9),
   (36500, 2012, 9), (36700, 1990, 9), (36900, 1961, 9), (37100, 1942, 9), (37300, 1924, 9), (37500, 1887, 9), (37700, 1893, 9), (37900, 1873, 9),
   (38100, 1859, 9), (38300, 1844, 9), (38500, 1828, 9), (38700, 1807, 9), (38900, 1790, 9), (39100, 1776, 9), (39300, 1760, 9), (39500, 1738, 9),
   (39700, 1725, 9), (39900, 1701, 9), (40100, 1689, 9), (40300, 1678, 9), (40500, 1644, 9), (40700, 1647, 9), (40900, 1633, 9), (41100, 1620, 9),
   (41300, 1607, 9), (41500, 1590, 9), (41700, 1575, 9), (41900, 1561, 9), (42100, 1542, 9), (42300, 1538, 9), (42500, 1521, 9), (42700, 1510, 9),
   (42900, 1474, 9), (43100, 1447, 9), (43300, 1444, 9), (43500, 1405, 9), (43700, 1389, 9), (43900, 1386, 9), (44100, 1345, 9), (44300, 1346, 9),
   (44500, 1339, 9), (44700, 1303, 9), (44900, 1310, 9), (45100, 1296, 9), (45300, 1269, 9), (45500, 1271, 9), (45700, 1267, 9), (45900, 1239, 9),
   (46100, 1243, 9), (46300, 1232, 9), (46500, 1217, 9), (46700, 1215, 9), (46900, 1210, 9), (47100, 1200, 9), (47300, 1199, 9), (47500, 1187, 9),
   (47700, 1177, 9), (47900, 1171, 9), (48100, 1157, 9), (48300, 1158, 9), (48500, 1147, 9), (48700, 1137, 9), (48900, 1130, 9), (49100, 1122, 9),
   (49300, 1114, 9), (49500, 1105, 9), (49700, 1097, 9), (49900, 1090, 9), (50100, 1085, 9), (50300, 1078, 9), (50500, 1064, 9), (50700, 1060, 9),
   (50900, 1055, 9), (51100, 1044, 9), (51300, 1036, 9), (51500, 1031, 9), (51700, 1029, 9), (51900, 1017, 9), (52100, 1010, 9), (52300, 1002, 9),
   (52500, 9986, 10), (52700, 9944, 10), (52900, 9819, 10), (53100, 9783, 10), (53300, 9712, 10), (53500, 9661, 10), (53700, 9597, 10),
   (53900, 9540, 10), (54100, 9477, 10), (54300, 9375, 10), (54500, 9356, 10), (54700, 9284, 10), (54900, 9221, 10), (55100, 9177, 10),
   (55300, 9147, 10), (55500, 9040, 10)]

def rows_sun_9 : List (Nat × Nat × Nat) :=
  [(55700, 9029, 10), (55900, 8934, 10), (56100, 8889, 10), (56300, 8824, 10), (56500, 8801, 10), (56700, 8746, 10), (56900, 8660, 10),
   (57100, 8636, 10), (57300, 8580, 10), (57500, 8525, 10), (57700, 8468, 10), (57900, 8425, 10), (58100, 8364, 10), (58300, 8319, 10),
   (58500, 8275, 10), (58700, 8207, 10), (58900, 8147, 10), (59100, 8094, 10), (59300, 8071, 10), (59500, 8006, 10), (59700, 7978, 10),
   (59900, 7929, 10), (60100, 7880, 10), (60300, 7835, 10), (60500, 7784, 10), (60700, 7734, 10), (60900, 7686, 10), (61100, 7629, 10),
   (61300, 7599, 10), (61500, 7558, 10), (61700, 7514, 10), (61900, 7473, 10), (62100, 7430, 10), (62300, 7367, 10), (62500, 7330, 10),
   (62700, 7289, 10), (62900, 7251, 10), (63100, 7199, 10), (63300, 7172, 10), (63500, 7125, 10), (63700, 7087, 10), (63900, 7042, 10),
   (64200, 6983, 10), (64600, 6897, 10), (65000, 6817, 10), (65400, 6744, 10), (65800, 6669, 10), (66200, 6590, 10), (66600, 6518, 10),
   (67000, 6443, 10), (67400, 6367, 10), (67800, 6300, 10), (68200, 6229, 10), (68600, 6161, 10), (69000, 6092, 10), (69400, 6024, 10),
   (69800, 5961, 10), (70200, 5891, 10), (70600, 5832, 10), (71000, 5770, 10), (71400, 5708, 10), (71800, 5647, 10), (72200, 5587, 10),
   (72600, 5527, 10), (73000, 5472, 10), (73400, 5412, 10), (73800, 5358, 10), (74200, 5299, 10), (74600, 5229, 10), (75000, 5183, 10),
   (75400, 5138, 10), (75800, 5090, 10), (76200, 5038, 10), (76600, 4988, 10), (77000, 4937, 10), (77400, 4889, 10), (77800, 4842, 10),
   (78200, 4794, 10), (78600, 4747, 10), (79000, 4701, 10), (79400, 4655, 10), (79800, 4611, 10), (80200, 4565, 10), (80600, 4521, 10),
   (81000, 4480, 10), (81400, 4435, 10), (81800, 4394, 10), (82200, 4355, 10), (82600, 4313, 10), (83000, 4274, 10), (83400, 4232, 10),
   (83800, 4194, 10), (84200, 4157, 10), (84600, 4119, 10), (85000, 4082, 10), (85400, 4045, 10), (85800, 4009, 10), (86200, 3972, 10),
   (86600, 3937, 10), (87000, 3903, 10), (87400, 3868, 10), (87800, 3834, 10), (88200, 3799, 10), (88600, 3766, 10), (89000, 3733, 10),
   (89400, 3702, 10), (89800, 3668, 10), (90200, 3638, 10), (90600, 3609, 10), (91000, 3575, 10), (91400, 3546, 10), (91800, 3517, 10),
   (92200, 3488, 10), (92600, 3459, 10), (93000, 3431, 10), (93400, 3402, 10), (93800, 3374, 10), (94200, 3346, 10), (94600, 3319, 10), (95000, 3292, 10)]

def rows_sun_10 : List (Nat × Nat × Nat) :=
  [(95400, 3265, 10), (95800, 3239, 10), (96200, 3212, 10), (96600, 3187, 10), (97000, 3162, 10), (97400, 3134, 10), (97800, 3111, 10),
   (98200, 3087, 10), (98600, 3063, 10), (99000, 3039, 10), (99400, 3015, 10), (99800, 2992, 10), (100200, 2969, 10), (200000, 7639, 11),
   (400000, 1916, 11), (600000, 8469, 12), (800000, 4735, 12), (1000000, 3013, 12), (1200000, 2081, 12), (1400000, 1522, 12), (1600000, 1160, 12)]

/-- data/basel/lcbsun.ori -/
def sunFile : StarFile := ⟨
  rows_sun_0 ++ rows_sun_1 ++ rows_sun_2 ++ rows_sun_3 ++ rows_sun_4 ++ rows_sun_5 ++ rows_sun_6 ++ rows_sun_7 ++ rows_sun_8 ++ rows_sun_9 ++ rows_sun_10⟩

def rows_vega_0 : List (Nat × Nat × Nat) :=
  [(91, 0, 4), (94, 0, 4), (96, 0, 4), (98, 0, 4), (100, 0, 4), (102, 0, 4), (104, 0, 4), (106, 0, 4), (108, 0, 4), (110, 0, 4), (114, 0, 4),
   (118, 0, 4), (121, 0, 4), (125, 0, 4), (127, 0, 4), (128, 0, 4), (131, 0, 4), (132, 0, 4), (134, 0, 4), (137, 0, 4), (140, 0, 4), (143, 0, 4),
   (147, 0, 4), (151, 0, 4), (155, 0, 4), (159, 0, 4), (162, 0, 4), (166, 0, 4), (170, 0, 4), (173, 0, 4), (177, 0, 4), (180, 0, 4), (182, 0, 4),
   (186, 0, 4), (191, 0, 4), (194, 0, 4), (198, 0, 4), (202, 0, 4), (205, 0, 4), (210, 0, 4), (216, 0, 4), (220, 0, 4), (223, 0, 4), (227, 0, 4),
   (230, 0, 4), (234, 0, 4), (240, 0, 4), (246, 0, 4), (252, 0, 4), (257, 0, 4), (260, 0, 4), (264, 0, 4), (269, 0, 4), (274, 0, 4), (279, 0, 4),
   (284, 0, 4), (290, 0, 4), (296, 0, 4), (301, 0, 4), (308, 0, 4), (318, 0, 4), (328, 0, 4), (338, 0, 4), (348, 0, 4), (357, 0, 4), (366, 0, 4),
   (375, 0, 4), (385, 0, 4), (395, 0, 4), (405, 0, 4), (414, 0, 4), (422, 0, 4), (430, 0, 4), (441, 0, 4), (451, 0, 4), (460, 0, 4), (470, 0, 4),
   (480, 0, 4), (490, 0, 4), (500, 0, 4), (506, 6792, 25), (512, 1178, 24), (520, 2316, 24), (530, 5238, 24), (540, 1146, 23), (550, 2444, 23),
   (560, 5068, 23), (570, 1024, 22), (580, 2019, 22), (590, 3896, 22), (600, 7348, 22), (610, 1357, 21), (620, 2457, 21), (630, 4364, 21),
   (640, 7612, 21), (650, 1305, 20), (658, 1984, 20), (665, 2840, 20), (675, 4676, 20), (685, 7586, 20), (695, 1213, 19), (705, 1914, 19),
   (716, 3113, 19), (726, 4781, 19), (735, 6962, 19), (745, 1045, 18), (755, 1553, 18), (765, 2281, 18), (775, 3317, 18), (785, 4777, 18),
   (795, 6811, 18), (805, 9626, 18), (815, 1348, 17), (825, 1873, 17), (835, 2579, 17), (845, 3525, 17), (855, 4781, 17), (865, 6436, 17),
   (875, 8602, 17), (885, 1142, 16)]

def rows_vega_1 : List (Nat × Nat × Nat) :=
  [(895, 1506, 16), (905, 1973, 16), (915, 2537, 15), (925, 1594, 14), (935, 2706, 14), (945, 4571, 14), (955, 6523, 14), (965, 8737, 14),
   (975, 7916, 14), (985, 1308, 13), (995, 1512, 13), (1005, 1903, 13), (1015, 2219, 13), (1025, 1600, 13), (1035, 2989, 13), (1045, 3730, 13),
   (1055, 4374, 13), (1065, 4956, 13), (1075, 5885, 13), (1085, 6758, 13), (1095, 7525, 13), (1105, 1524, 11), (1115, 4731, 11), (1125, 5859, 11),
   (1135, 6599, 11), (1145, 4932, 11), (1155, 3799, 11), (1165, 2471, 11), (1175, 1009, 11), (1185, 5071, 12), (1195, 2975, 12), (1205, 2558, 12),
   (1215, 7338, 13), (1225, 2914, 12), (1235, 5862, 12), (1245, 1237, 11), (1255, 5185, 11), (1265, 1214, 10), (1275, 4787, 10), (1285, 9783, 10),
   (1295, 1370, 9), (1305, 1103, 9), (1315, 2020, 9), (1325, 2409, 9), (1335, 2394, 9), (1345, 3175, 9), (1355, 3111, 9), (1365, 3117, 9),
   (1375, 3537, 9), (1385, 3539, 9), (1395, 3916, 9), (1405, 3998, 9), (1415, 3870, 9), (1425, 4224, 9), (1435, 3947, 9), (1442, 4484, 9),
   (1447, 4855, 9), (1455, 4895, 9), (1465, 4533, 9), (1475, 4546, 9), (1485, 4853, 9), (1495, 5191, 9), (1505, 5438, 9), (1512, 5101, 9),
   (1517, 5410, 9), (1525, 4860, 9), (1535, 4508, 9), (1545, 5582, 9), (1555, 5218, 9), (1565, 4813, 9), (1575, 5580, 9), (1585, 5920, 9),
   (1595, 6372, 9), (1605, 6102, 9), (1615, 6047, 9), (1625, 5577, 9), (1635, 6018, 9), (1645, 6412, 9), (1655, 5177, 9), (1665, 6504, 9),
   (1672, 4739, 9), (1677, 6437, 9), (1685, 6903, 9), (1695, 6443, 9), (1705, 6335, 9), (1715, 6492, 9), (1725, 6489, 9), (1735, 6876, 9),
   (1745, 6748, 9), (1755, 7302, 9), (1765, 6535, 9), (1775, 7203, 9), (1785, 7183, 9), (1795, 7748, 9), (1805, 7595, 9), (1815, 7558, 9),
   (1825, 7434, 9), (1835, 7348, 9), (1845, 6915, 9), (1855, 7291, 9), (1865, 7440, 9), (1875, 7664, 9), (1885, 7670, 9), (1895, 7778, 9),
   (1905, 7559, 9), (1915, 7898, 9), (1925, 7998, 9), (1935, 7710, 9), (1945, 8222, 9), (1955, 8220, 9), (1967, 8471, 9), (1976, 8351, 9),
   (1984, 8293, 9), (1995, 8176, 9), (2005, 8121, 9), (2015, 8052, 9), (2025, 7988, 9), (2035, 8292, 9), (2045, 8569, 9), (2055, 8383, 9)]

def rows_vega_2 : List (Nat × Nat × Nat) :=
  [(2065, 8363, 9), (2074, 8680, 9), (2078, 8865, 9), (2085, 8802, 9), (2095, 8667, 9), (2105, 8513, 9), (2115, 8583, 9), (2125, 8757, 9),
   (2135, 8017, 9), (2145, 8645, 9), (2155, 8725, 9), (2165, 8450, 9), (2175, 8456, 9), (2185, 8597, 9), (2195, 8996, 9), (2205, 8770, 9),
   (2215, 8355, 9), (2225, 8362, 9), (2235, 9053, 9), (2245, 8536, 9), (2255, 8452, 9), (2265, 8507, 9), (2275, 8863, 9), (2285, 9113, 9),
   (2295, 8805, 9), (2305, 8839, 9), (2315, 8722, 9), (2325, 7260, 9), (2335, 8378, 9), (2345, 7873, 9), (2355, 8864, 9), (2365, 8070, 9),
   (2375, 8589, 9), (2385, 7716, 9), (2395, 8403, 9), (2405, 8174, 9), (2415, 8374, 9), (2425, 9032, 9), (2435, 8758, 9), (2445, 9242, 9),
   (2455, 9045, 9), (2465, 9114, 9), (2475, 8908, 9), (2485, 9214, 9), (2495, 9036, 9), (2505, 9800, 9), (2513, 9120, 9), (2518, 9184, 9),
   (2525, 8851, 9), (2535, 8792, 9), (2545, 8911, 9), (2555, 9453, 9), (2565, 9454, 9), (2575, 9915, 9), (2585, 9963, 9), (2595, 9835, 9),
   (2605, 9593, 9), (2615, 9613, 9), (2625, 1010, 8), (2635, 1021, 8), (2645, 1106, 8), (2655, 1105, 8), (2665, 1057, 8), (2675, 1090, 8),
   (2685, 1096, 8), (2695, 1070, 8), (2705, 1091, 8), (2715, 1060, 8), (2725, 1071, 8), (2735, 1124, 8), (2745, 1011, 8), (2755, 1036, 8),
   (2765, 1074, 8), (2775, 1120, 8), (2785, 1094, 8), (2795, 7627, 9), (2805, 8656, 9), (2815, 1156, 8), (2825, 1180, 8), (2835, 1162, 8),
   (2845, 1146, 8), (2855, 1132, 8), (2865, 1185, 8), (2875, 1173, 8), (2885, 1191, 8), (2895, 1174, 8), (2910, 1249, 8), (2930, 1232, 8),
   (2950, 1243, 8), (2970, 1261, 8), (2990, 1281, 8), (3010, 1306, 8), (3030, 1311, 8), (3050, 1319, 8), (3070, 1325, 8), (3090, 1346, 8),
   (3110, 1344, 8), (3130, 1355, 8), (3150, 1374, 8), (3170, 1384, 8), (3190, 1363, 8), (3210, 1397, 8), (3230, 1393, 8), (3250, 1417, 8),
   (3270, 1432, 8), (3290, 1449, 8), (3310, 1465, 8), (3330, 1463, 8), (3350, 1464, 8), (3370, 1477, 8), (3390, 1485, 8), (3410, 1507, 8),
   (3430, 1517, 8), (3450, 1526, 8), (3470, 1527, 8), (3490, 1538, 8), (3510, 1558, 8), (3530, 1571, 8), (3550, 1583, 8), (3570, 1581, 8)]

def rows_vega_3 : List (Nat × Nat × Nat) :=
  [(3590, 1590, 8), (3610, 1599, 8), (3630, 1610, 8), (3640, 1613, 8), (3650, 1642, 8), (3670, 1596, 8), (3690, 1488, 8), (3710, 1705, 8),
   (3730, 1810, 8), (3750, 2329, 8), (3770, 2476, 8), (3790, 3117, 8), (3810, 3746, 8), (3830, 2966, 8), (3850, 4263, 8), (3870, 4930, 8),
   (3890, 2610, 8), (3910, 4999, 8), (3930, 4974, 8), (3950, 5048, 8), (3970, 2583, 8), (3990, 4908, 8), (4010, 5585, 8), (4030, 5635, 8),
   (4050, 5613, 8), (4070, 5378, 8), (4090, 4069, 8), (4110, 3085, 8), (4130, 5196, 8), (4150, 5501, 8), (4170, 5528, 8), (4190, 5510, 8),
   (4210, 5505, 8), (4230, 5451, 8), (4250, 5433, 8), (4270, 5375, 8), (4290, 5347, 8), (4310, 5075, 8), (4330, 3699, 8), (4350, 3156, 8),
   (4370, 5011, 8), (4390, 5206, 8), (4410, 5244, 8), (4430, 5246, 8), (4450, 5271, 8), (4470, 5249, 8), (4490, 5185, 8), (4510, 5202, 8),
   (4530, 5179, 8), (4550, 5125, 8), (4570, 5155, 8), (4590, 5122, 8), (4610, 5140, 8), (4630, 5080, 8), (4650, 5097, 8), (4670, 5077, 8),
   (4690, 5020, 8), (4710, 4922, 8), (4730, 5009, 8), (4750, 4987, 8), (4770, 4958, 8), (4790, 4922, 8), (4810, 4847, 8), (4830, 4635, 8),
   (4850, 3532, 8), (4870, 2865, 8), (4890, 4460, 8), (4910, 4736, 8), (4930, 4755, 8), (4950, 4787, 8), (4970, 4786, 8), (4990, 4763, 8),
   (5010, 4725, 8), (5030, 4729, 8), (5050, 4690, 8), (5070, 4703, 8), (5090, 4686, 8), (5110, 4668, 8), (5130, 4649, 8), (5150, 4623, 8),
   (5170, 4567, 8), (5190, 4560, 8), (5210, 4574, 8), (5230, 4533, 8), (5250, 4549, 8), (5270, 4498, 8), (5290, 4515, 8), (5310, 4485, 8),
   (5330, 4465, 8), (5350, 4470, 8), (5370, 4442, 8), (5390, 4432, 8), (5410, 4405, 8), (5430, 4397, 8), (5450, 4387, 8), (5470, 4373, 8),
   (5490, 4360, 8), (5510, 4345, 8), (5530, 4324, 8), (5550, 4315, 8), (5570, 4298, 8), (5590, 4284, 8), (5610, 4272, 8), (5630, 4257, 8),
   (5650, 4241, 8), (5670, 4224, 8), (5690, 4212, 8), (5710, 4198, 8), (5730, 4185, 8), (5750, 4168, 8), (5770, 4155, 8), (5790, 4140, 8),
   (5810, 4126, 8), (5830, 4112, 8), (5850, 4098, 8), (5870, 4081, 8), (5890, 4047, 8), (5910, 4056, 8), (5930, 4042, 8), (5950, 4026, 8)]

def rows_vega_4 : List (Nat × Nat × Nat) :=
  [(5970, 4014, 8), (5990, 3997, 8), (6010, 3984, 8), (6030, 3973, 8), (6050, 3960, 8), (6070, 3948, 8), (6090, 3934, 8), (6110, 3920, 8),
   (6130, 3905, 8), (6150, 3873, 8), (6170, 3879, 8), (6190, 3869, 8), (6210, 3856, 8), (6230, 3842, 8), (6250, 3820, 8), (6270, 3818, 8),
   (6290, 3806, 8), (6310, 3790, 8), (6330, 3780, 8), (6350, 3747, 8), (6370, 3742, 8), (6390, 3742, 8), (6410, 3725, 8), (6430, 3713, 8),
   (6450, 3687, 8), (6470, 3678, 8), (6490, 3650, 8), (6510, 3612, 8), (6530, 3503, 8), (6550, 3015, 8), (6570, 2445, 8), (6590, 3350, 8),
   (6610, 3531, 8), (6630, 3566, 8), (6650, 3570, 8), (6670, 3566, 8), (6690, 3561, 8), (6710, 3554, 8), (6730, 3540, 8), (6750, 3531, 8),
   (6770, 3521, 8), (6790, 3510, 8), (6810, 3499, 8), (6830, 3487, 8), (6850, 3476, 8), (6870, 3466, 8), (6890, 3455, 8), (6910, 3444, 8),
   (6930, 3433, 8), (6950, 3422, 8), (6970, 3412, 8), (6990, 3402, 8), (7010, 3387, 8), (7030, 3379, 8), (7050, 3369, 8), (7070, 3359, 8),
   (7090, 3349, 8), (7110, 3324, 8), (7130, 3326, 8), (7150, 3316, 8), (7170, 3307, 8), (7190, 3297, 8), (7210, 3287, 8), (7230, 3277, 8),
   (7250, 3265, 8), (7270, 3258, 8), (7290, 3246, 8), (7310, 3236, 8), (7330, 3228, 8), (7350, 3218, 8), (7370, 3209, 8), (7390, 3198, 8),
   (7410, 3184, 8), (7430, 3174, 8), (7450, 3167, 8), (7470, 3152, 8), (7490, 3146, 8), (7510, 3140, 8), (7530, 3132, 8), (7550, 3123, 8),
   (7570, 3113, 8), (7590, 3104, 8), (7610, 3095, 8), (7630, 3086, 8), (7650, 3076, 8), (7670, 3066, 8), (7690, 3058, 8), (7710, 3049, 8),
   (7730, 3041, 8), (7750, 3031, 8), (7770, 2976, 8), (7790, 3014, 8), (7810, 3005, 8), (7830, 2995, 8), (7850, 2984, 8), (7870, 2972, 8),
   (7890, 2960, 8), (7910, 2958, 8), (7930, 2952, 8), (7950, 2937, 8), (7970, 2936, 8), (7990, 2911, 8), (8010, 2919, 8), (8030, 2911, 8),
   (8050, 2902, 8), (8070, 2894, 8), (8090, 2886, 8), (8110, 2878, 8), (8130, 2869, 8), (8150, 2861, 8), (8170, 2853, 8), (8190, 2842, 8),
   (8210, 2847, 8), (8230, 2841, 8), (8250, 2836, 8), (8270, 2832, 8), (8290, 2824, 8), (8310, 2813, 8), (8330, 2787, 8), (8350, 2763, 8)]

def rows_vega_5 : List (Nat × Nat × Nat) :=
  [(8370, 2739, 8), (8390, 2698, 8), (8410, 2662, 8), (8430, 2644, 8), (8450, 2645, 8), (8470, 2554, 8), (8490, 2678, 8), (8510, 2509, 8),
   (8530, 2736, 8), (8550, 2390, 8), (8570, 2830, 8), (8590, 2550, 8), (8610, 2493, 8), (8630, 2921, 8), (8650, 2732, 8), (8670, 2251, 8),
   (8690, 2845, 8), (8710, 3003, 8), (8730, 2829, 8), (8750, 2205, 8), (8770, 2686, 8), (8790, 2996, 8), (8810, 3044, 8), (8830, 2957, 8),
   (8850, 2583, 8), (8870, 2184, 8), (8890, 2811, 8), (8910, 2998, 8), (8930, 3037, 8), (8950, 3036, 8), (8970, 2983, 8), (8990, 2807, 8),
   (9010, 2205, 8), (9030, 2427, 8), (9050, 2853, 8), (9070, 2947, 8), (9090, 2957, 8), (9110, 2985, 8), (9130, 2986, 8), (9150, 2972, 8),
   (9170, 2939, 8), (9190, 2858, 8), (9210, 2614, 8), (9230, 2030, 8), (9250, 2529, 8), (9270, 2783, 8), (9290, 2884, 8), (9310, 2904, 8),
   (9330, 2906, 8), (9350, 2903, 8), (9370, 2896, 8), (9390, 2884, 8), (9410, 2858, 8), (9430, 2866, 8), (9450, 2853, 8), (9470, 2832, 8),
   (9490, 2796, 8), (9510, 2707, 8), (9530, 2436, 8), (9550, 1961, 8), (9570, 2484, 8), (9590, 2696, 8), (9610, 2751, 8), (9630, 2758, 8),
   (9650, 2773, 8), (9670, 2758, 8), (9690, 2763, 8), (9710, 2762, 8), (9730, 2754, 8), (9750, 2746, 8), (9770, 2739, 8), (9790, 2731, 8),
   (9810, 2722, 8), (9830, 2714, 8), (9850, 2705, 8), (9870, 2697, 8), (9890, 2682, 8), (9910, 2675, 8), (9930, 2664, 8), (9950, 2652, 8),
   (9970, 2634, 8), (9990, 2603, 8), (10025, 2341, 8), (10075, 2245, 8), (10125, 2557, 8), (10175, 2572, 8), (10225, 2564, 8), (10275, 2546, 8),
   (10325, 2528, 8), (10375, 2511, 8), (10425, 2493, 8), (10475, 2471, 8), (10525, 2455, 8), (10575, 2440, 8), (10625, 2424, 8), (10675, 2388, 8),
   (10725, 2380, 8), (10775, 2368, 8), (10825, 2343, 8), (10875, 2291, 8), (10925, 1927, 8), (10975, 2126, 8), (11025, 2270, 8), (11075, 2274, 8),
   (11125, 2265, 8), (11175, 2251, 8), (11225, 2237, 8), (11275, 2206, 8), (11325, 2193, 8), (11375, 2191, 8), (11425, 2176, 8), (11475, 2164, 8),
   (11525, 2151, 8), (11575, 2136, 8), (11625, 2117, 8), (11675, 2097, 8), (11725, 2096, 8), (11775, 2066, 8), (11825, 2063, 8), (11875, 2046, 8)]

def rows_vega_6 : List (Nat × Nat × Nat) :=
  [(11925, 2043, 8), (11975, 2025, 8), (12025, 2017, 8), (12075, 2002, 8), (12125, 1990, 8), (12175, 1979, 8), (12225, 1966, 8), (12275, 1953, 8),
   (12325, 1941, 8), (12375, 1930, 8), (12425, 1919, 8), (12475, 1905, 8), (12525, 1895, 8), (12575, 1879, 8), (12625, 1868, 8), (12675, 1855, 8),
   (12725, 1833, 8), (12775, 1757, 8), (12825, 1516, 8), (12875, 1756, 8), (12925, 1793, 8), (12975, 1790, 8), (13025, 1784, 8), (13075, 1775, 8),
   (13125, 1764, 8), (13175, 1751, 8), (13225, 1744, 8), (13275, 1733, 8), (13325, 1723, 8), (13375, 1713, 8), (13425, 1703, 8), (13475, 1693, 8),
   (13525, 1682, 8), (13575, 1673, 8), (13625, 1664, 8), (13675, 1654, 8), (13725, 1641, 8), (13775, 1635, 8), (13825, 1626, 8), (13875, 1618, 8),
   (13925, 1608, 8), (13975, 1599, 8), (14025, 1590, 8), (14075, 1582, 8), (14125, 1572, 8), (14175, 1564, 8), (14225, 1555, 8), (14275, 1547, 8),
   (14325, 1538, 8), (14375, 1530, 8), (14425, 1513, 8), (14475, 1513, 8), (14525, 1500, 8), (14570, 1497, 8), (14620, 1490, 8), (14675, 1483, 8),
   (14725, 1476, 8), (14775, 1466, 8), (14825, 1460, 8), (14875, 1450, 8), (14925, 1444, 8), (14975, 1433, 8), (15025, 1422, 8), (15075, 1410, 8),
   (15125, 1400, 8), (15175, 1387, 8), (15225, 1378, 8), (15275, 1365, 8), (15325, 1353, 8), (15375, 1357, 8), (15425, 1327, 8), (15475, 1345, 8),
   (15525, 1336, 8), (15575, 1289, 8), (15625, 1357, 8), (15675, 1298, 8), (15725, 1264, 8), (15775, 1347, 8), (15825, 1332, 8), (15875, 1204, 8),
   (15925, 1289, 8), (15975, 1343, 8), (16050, 1296, 8), (16150, 1225, 8), (16250, 1311, 8), (16350, 1250, 8), (16450, 1185, 8), (16550, 1275, 8),
   (16650, 1264, 8), (16750, 1198, 8), (16850, 1135, 8), (16950, 1225, 8), (17050, 1218, 8), (17150, 1206, 8), (17250, 1183, 8), (17350, 1055, 8),
   (17450, 1143, 8), (17550, 1157, 8), (17650, 1149, 8), (17750, 1139, 8), (17850, 1128, 8), (17950, 1117, 8), (18050, 1096, 8), (18150, 9887, 9),
   (18250, 1048, 8), (18350, 1072, 8), (18450, 1064, 8), (18550, 1053, 8), (18650, 1033, 8), (18750, 9293, 9), (18850, 1010, 8), (18950, 1014, 8),
   (19050, 1009, 8), (19150, 9998, 9), (19250, 9878, 9), (19350, 9662, 9), (19450, 8705, 9), (19550, 9491, 9), (19650, 9539, 9), (19750, 9474, 9)]

def rows_vega_7 : List (Nat × Nat × Nat) :=
  [(19850, 9394, 9), (19950, 9312, 9), (20050, 9232, 9), (20150, 9152, 9), (20250, 9073, 9), (20350, 8995, 9), (20450, 8919, 9), (20550, 8843, 9),
   (20650, 8767, 9), (20750, 8694, 9), (20850, 8621, 9), (20950, 8549, 9), (21050, 8478, 9), (21150, 8401, 9), (21250, 8331, 9), (21350, 8265, 9),
   (21450, 8180, 9), (21550, 8026, 9), (21650, 7284, 9), (21750, 7833, 9), (21850, 7912, 9), (21950, 7877, 9), (22050, 7813, 9), (22150, 7747, 9),
   (22250, 7691, 9), (22350, 7630, 9), (22450, 7570, 9), (22550, 7510, 9), (22650, 7453, 9), (22750, 7395, 9), (22850, 7342, 9), (22950, 7286, 9),
   (23050, 7232, 9), (23150, 7178, 9), (23250, 7124, 9), (23350, 7071, 9), (23450, 7018, 9), (23550, 6963, 9), (23650, 6908, 9), (23750, 6849, 9),
   (23850, 6793, 9), (23950, 6734, 9), (24050, 6677, 9), (24150, 6617, 9), (24250, 6565, 9), (24350, 6514, 9), (24450, 6449, 9), (24550, 6425, 9),
   (24650, 6348, 9), (24750, 6311, 9), (24850, 6316, 9), (24950, 6139, 9), (25050, 6328, 9), (25150, 6219, 9), (25250, 5964, 9), (25350, 6093, 9),
   (25450, 6117, 9), (25550, 6001, 9), (25650, 5738, 9), (25750, 5943, 9), (25850, 5960, 9), (25950, 5908, 9), (26050, 5736, 9), (26150, 5474, 9),
   (26250, 5255, 9), (26350, 5638, 9), (26450, 5713, 9), (26550, 5679, 9), (26650, 5563, 9), (26750, 5216, 9), (26850, 5489, 9), (26950, 5539, 9),
   (27050, 5521, 9), (27150, 5491, 9), (27250, 5451, 9), (27350, 5399, 9), (27450, 5318, 9), (27550, 4965, 9), (27650, 5108, 9), (27750, 5241, 9),
   (27850, 5234, 9), (27950, 5209, 9), (28050, 5175, 9), (28150, 5141, 9), (28250, 5108, 9), (28350, 5076, 9), (28450, 5035, 9), (28550, 4980, 9),
   (28650, 4826, 9), (28750, 4546, 9), (28850, 4844, 9), (28950, 4866, 9), (29050, 4854, 9), (29150, 4822, 9), (29250, 4794, 9), (29350, 4764, 9),
   (29450, 4735, 9), (29550, 4705, 9), (29650, 4676, 9), (29750, 4648, 9), (29850, 4619, 9), (29950, 4591, 9), (30050, 4563, 9), (30150, 4521, 9),
   (30250, 4460, 9), (30350, 4179, 9), (30450, 4242, 9), (30550, 4391, 9), (30650, 4391, 9), (30750, 4374, 9), (30850, 4347, 9), (30950, 4322, 9),
   (31050, 4296, 9), (31150, 4271, 9), (31250, 4246, 9), (31350, 4222, 9), (31450, 4196, 9), (31550, 4173, 9), (31650, 4149, 9), (31750, 4124, 9)]

def rows_vega_8 : List (Nat × Nat × Nat) :=
  [(31850, 4101, 9), (31950, 4077, 9), (32100, 4042, 9), (32300, 3996, 9), (32500, 3951, 9), (32700, 3895, 9), (32900, 3657, 9), (33100, 3744, 9),
   (33300, 3763, 9), (33500, 3727, 9), (33700, 3686, 9), (33900, 3648, 9), (34100, 3609, 9), (34300, 3571, 9), (34500, 3533, 9), (34700, 3495, 9),
   (34900, 3458, 9), (35100, 3420, 9), (35300, 3384, 9), (35500, 3348, 9), (35700, 3310, 9), (35900, 3280, 9), (36100, 3238, 9), (36300, 3214, 9),
   (36500, 3167, 9), (36700, 3156, 9), (36900, 3092, 9), (37100, 3086, 9), (37300, 2981, 9), (37500, 2903, 9), (37700, 2999, 9), (37900, 2981, 9),
   (38100, 2910, 9), (38300, 2888, 9), (38500, 2899, 9), (38700, 2873, 9), (38900, 2826, 9), (39100, 2740, 9), (39300, 2784, 9), (39500, 2771, 9),
   (39700, 2746, 9), (39900, 2719, 9), (40100, 2637, 9), (40300, 2596, 9), (40500, 2518, 9), (40700, 2602, 9), (40900, 2595, 9), (41100, 2573, 9),
   (41300, 2548, 9), (41500, 2508, 9), (41700, 2400, 9), (41900, 2461, 9), (42100, 2457, 9), (42300, 2438, 9), (42500, 2416, 9), (42700, 2395, 9),
   (42900, 2374, 9), (43100, 2353, 9), (43300, 2333, 9), (43500, 2303, 9), (43700, 2202, 9), (43900, 2234, 9), (44100, 2250, 9), (44300, 2234, 9),
   (44500, 2215, 9), (44700, 2206, 9), (44900, 2188, 9), (45100, 2169, 9), (45300, 2151, 9), (45500, 2133, 9), (45700, 2116, 9), (45900, 2098, 9),
   (46100, 2078, 9), (46300, 2049, 9), (46500, 1937, 9), (46700, 1922, 9), (46900, 1988, 9), (47100, 1994, 9), (47300, 1982, 9), (47500, 1966, 9),
   (47700, 1951, 9), (47900, 1935, 9), (48100, 1920, 9), (48300, 1905, 9), (48500, 1890, 9), (48700, 1875, 9), (48900, 1861, 9), (49100, 1847, 9),
   (49300, 1832, 9), (49500, 1818, 9), (49700, 1804, 9), (49900, 1791, 9), (50100, 1777, 9), (50300, 1764, 9), (50500, 1750, 9), (50700, 1737, 9),
   (50900, 1722, 9), (51100, 1692, 9), (51300, 1612, 9), (51500, 1672, 9), (51700, 1672, 9), (51900, 1662, 9), (52100, 1649, 9), (52300, 1637, 9),
   (52500, 1626, 9), (52700, 1614, 9), (52900, 1602, 9), (53100, 1591, 9), (53300, 1579, 9), (53500, 1568, 9), (53700, 1557, 9), (53900, 1546, 9),
   (54100, 1535, 9), (54300, 1524, 9), (54500, 1514, 9), (54700, 1503, 9), (54900, 1493, 9), (55100, 1482, 9), (55300, 1472, 9), (55500, 1462, 9)]

def rows_vega_9 : List (Nat × Nat × Nat) :=
  [(55700, 1452, 9), (55900, 1442, 9), (56100, 1432, 9), (56300, 1423, 9), (56500, 1413, 9), (56700, 1404, 9), (56900, 1394, 9), (57100, 1385, 9),
   (57300, 1376, 9), (57500, 1366, 9), (57700, 1357, 9), (57900, 1348, 9), (58100, 1339, 9), (58300, 1331, 9), (58500, 1325, 9), (58700, 1313, 9),
   (58900, 1291, 9), (59100, 1233, 9), (59300, 1280, 9), (59500, 1281, 9), (59700, 1274, 9), (59900, 1266, 9), (60100, 1258, 9), (60300, 1250, 9),
   (60500, 1242, 9), (60700, 1234, 9), (60900, 1226, 9), (61100, 1219, 9), (61300, 1211, 9), (61500, 1204, 9), (61700, 1196, 9), (61900, 1189, 9),
   (62100, 1181, 9), (62300, 1174, 9), (62500, 1167, 9), (62700, 1160, 9), (62900, 1153, 9), (63100, 1146, 9), (63300, 1139, 9), (63500, 1132, 9),
   (63700, 1125, 9), (63900, 1118, 9), (64200, 1108, 9), (64600, 1095, 9), (65000, 1082, 9), (65400, 1069, 9), (65800, 1057, 9), (66200, 1044, 9),
   (66600, 1032, 9), (67000, 1021, 9), (67400, 1009, 9), (67800, 9975, 10), (68200, 9863, 10), (68600, 9752, 10), (69000, 9643, 10), (69400, 9536, 10),
   (69800, 9431, 10), (70200, 9327, 10), (70600, 9225, 10), (71000, 9125, 10), (71400, 9027, 10), (71800, 8930, 10), (72200, 8834, 10),
   (72600, 8740, 10), (73000, 8648, 10), (73400, 8557, 10), (73800, 8467, 10), (74200, 8356, 10), (74600, 8029, 10), (75000, 7942, 10),
   (75400, 8095, 10), (75800, 8041, 10), (76200, 7960, 10), (76600, 7880, 10), (77000, 7801, 10), (77400, 7723, 10), (77800, 7647, 10),
   (78200, 7571, 10), (78600, 7497, 10), (79000, 7424, 10), (79400, 7351, 10), (79800, 7280, 10), (80200, 7210, 10), (80600, 7141, 10),
   (81000, 7073, 10), (81400, 7006, 10), (81800, 6939, 10), (82200, 6874, 10), (82600, 6810, 10), (83000, 6746, 10), (83400, 6684, 10),
   (83800, 6622, 10), (84200, 6561, 10), (84600, 6501, 10), (85000, 6442, 10), (85400, 6383, 10), (85800, 6326, 10), (86200, 6269, 10),
   (86600, 6213, 10), (87000, 6157, 10), (87400, 6103, 10), (87800, 6049, 10), (88200, 5996, 10), (88600, 5943, 10), (89000, 5891, 10),
   (89400, 5840, 10), (89800, 5790, 10), (90200, 5740, 10), (90600, 5691, 10), (91000, 5642, 10), (91400, 5594, 10), (91800, 5547, 10),
   (92200, 5500, 10), (92600, 5454, 10), (93000, 5408, 10), (93400, 5363, 10), (93800, 5319, 10), (94200, 5275, 10), (94600, 5232, 10), (95000, 5189, 10)]

def rows_vega_10 : List (Nat × Nat × Nat) :=
  [(95400, 5146, 10), (95800, 5105, 10), (96200, 5063, 10), (96600, 5022, 10), (97000, 4982, 10), (97400, 4942, 10), (97800, 4903, 10),
   (98200, 4864, 10), (98600, 4826, 10), (99000, 4788, 10), (99400, 4750, 10), (99800, 4713, 10), (100200, 4677, 10), (200000, 1197, 10),
   (400000, 2992, 11), (600000, 1322, 11), (800000, 7390, 12), (1000000, 4703, 12), (1200000, 3249, 12), (1400000, 2375, 12), (1600000, 1810, 12)]

/-- data/basel/lcbvega.ori -/
def vegaFile : StarFile := ⟨
  rows_vega_0 ++ rows_vega_1 ++ rows_vega_2 ++ rows_vega_3 ++ rows_vega_4 ++ rows_vega_5 ++ rows_vega_6 ++ rows_vega_7 ++ rows_vega_8 ++ rows_vega_9 ++ rows_vega_10⟩

/-- data/responses/iras_60.dat -/
def file_iras_60 : BandFile := ⟨"iras_60".toList, 0, 3,
  [(270000, 0), (300000, 10), (330000, 36), (360000, 68), (390000, 174), (420000, 315), (450000, 483), (480000, 585), (510000, 658), (540000, 716),
   (570000, 824), (600000, 915), (630000, 987), (660000, 990), (690000, 1000), (720000, 946), (750000, 713), (780000, 531), (810000, 174), (840000, 47),
   (870000, 0)]⟩

end KC
