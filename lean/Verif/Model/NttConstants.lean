/-!
# Tables of `src/internal/transforms/ntt/ntt_constants.go`

Generated from the Go source by a script that copies the literals. The Go element type is `int16`; every entry is in
`[0, 12289)`, so the entries are kept as natural numbers (each use in `ntt.go` converts them to `int` or uses them as index).
-/

namespace Falcon

/-- ntt_constants.go:7 `phi4_roots_Zq`. -/
@[irreducible] def phi4_roots_Zq : List Nat :=
  [1479, 10810]

/-- ntt_constants.go:10 `phi8_roots_Zq`. -/
@[irreducible] def phi8_roots_Zq : List Nat :=
  [4043, 8246, 5146, 7143]

/-- ntt_constants.go:13 `phi16_roots_Zq`. -/
@[irreducible] def phi16_roots_Zq : List Nat :=
  [5736, 6553, 4134, 8155, 722, 11567, 1305, 10984]

/-- ntt_constants.go:16 `phi32_roots_Zq`. -/
@[irreducible] def phi32_roots_Zq : List Nat :=
  [1646, 10643, 1212, 11077, 5860, 6429, 3195, 9094, 2545, 9744, 3621, 8668, 3504, 8785, 3542, 8747]

/-- ntt_constants.go:19 `phi64_roots_Zq`. -/
@[irreducible] def phi64_roots_Zq : List Nat :=
  [4591, 7698, 5728, 6561, 5023, 7266, 5828, 6461, 4978, 7311, 1351, 10938, 3328, 8961, 5777, 6512, 2975, 9314,
   563, 11726, 3006, 9283, 2744, 9545, 949, 11340, 2625, 9664, 4821, 7468, 2639, 9650]

/-- ntt_constants.go:22 `phi128_roots_Zq`. -/
@[irreducible] def phi128_roots_Zq : List Nat :=
  [1000, 11289, 4320, 7969, 3091, 9198, 81, 12208, 2963, 9326, 4896, 7393, 3051, 9238, 2366, 9923, 1853, 10436,
   140, 12149, 4611, 7678, 726, 11563, 4255, 8034, 1177, 11112, 2768, 9521, 1635, 10654, 3712, 8577, 3135,
   9154, 2747, 9542, 4846, 7443, 3553, 8736, 4805, 7484, 2294, 9995, 1062, 11227, 1326, 10963, 5086, 7203,
   3014, 9275, 3201, 9088, 1170, 11119, 2319, 9970, 955, 11334, 790, 11499]

/-- ntt_constants.go:25 `phi256_roots_Zq`. -/
@[irreducible] def phi256_roots_Zq : List Nat :=
  [544, 11745, 5791, 6498, 339, 11950, 2468, 9821, 2842, 9447, 480, 11809, 9, 12280, 1022, 11267, 4278, 8011,
   1673, 10616, 4989, 7300, 5331, 6958, 3584, 8705, 4177, 8112, 1381, 10908, 2525, 9764, 2396, 9893, 4452,
   7837, 3296, 8993, 3949, 8340, 130, 12159, 4354, 7935, 5374, 6915, 2837, 9452, 5767, 6522, 827, 11462, 3748,
   8541, 953, 11336, 5067, 7222, 2197, 10092, 118, 12171, 2476, 9813, 2548, 9741, 4231, 8058, 355, 11934, 3382,
   8907, 3707, 8582, 1759, 10530, 3694, 8595, 5179, 7110, 5542, 6747, 145, 12144, 3637, 8652, 3459, 8830, 5911,
   6378, 4890, 7399, 3932, 8357, 2731, 9558, 2089, 10200, 5092, 7197, 2881, 9408, 3284, 9005, 729, 11560, 3241,
   9048, 3289, 9000, 2013, 10276, 5755, 6534, 4632, 7657, 1260, 11029, 4388, 7901, 334, 11955, 2426, 9863,
   1696, 10593, 1428, 10861]

/-- ntt_constants.go:28 `phi512_roots_Zq`, entries 0 to 127. -/
def phi512_roots_Zq_0 : List Nat :=
  [1663, 10626, 1777, 10512, 1426, 10863, 4654, 7635, 5291, 6998, 2704, 9585, 4938, 7351, 3636, 8653, 3915,
   8374, 2166, 10123, 113, 12176, 4919, 7370, 3, 12286, 4437, 7852, 160, 12129, 3149, 9140, 4057, 8232, 3271,
   9018, 1689, 10600, 3364, 8925, 4372, 7917, 2174, 10115, 4414, 7875, 2847, 9442, 2645, 9644, 4053, 8236,
   2305, 9984, 5042, 7247, 5195, 7094, 2780, 9509, 1484, 10805, 4895, 7394, 3016, 9273, 243, 12046, 3000, 9289,
   671, 11618, 3136, 9153, 5191, 7098, 2399, 9890, 3400, 8889, 2178, 10111, 1544, 10745, 420, 11869, 5559,
   6730, 476, 11813, 3531, 8758, 3985, 8304, 4905, 7384, 5332, 6957, 3510, 8779, 2370, 9919, 2865, 9424, 2969,
   9320, 3978, 8311, 2686, 9603, 3247, 9042, 4048, 8241, 2249, 10040, 1153, 11136, 2884, 9405, 5407, 6882,
   3186, 9103, 1630, 10659, 2126, 10163]

/-- ntt_constants.go:28 `phi512_roots_Zq`, entries 128 to 255. -/
def phi512_roots_Zq_1 : List Nat :=
  [2187, 10102, 2566, 9723, 2422, 9867, 6039, 6250, 2987, 9302, 6022, 6267, 2437, 9852, 3646, 8643, 875, 11414,
   3780, 8509, 1607, 10682, 4976, 7313, 5011, 7278, 1002, 11287, 4284, 8005, 5088, 7201, 3248, 9041, 1207,
   11082, 1168, 11121, 5277, 7012, 1065, 11224, 2143, 10146, 404, 11885, 4645, 7644, 1912, 10377, 1378, 10911,
   435, 11854, 4337, 7952, 2381, 9908, 5444, 6845, 4096, 8193, 493, 11796, 545, 11744, 5019, 7270, 3704, 8585,
   2678, 9611, 1537, 10752, 242, 12047, 4714, 7575, 4143, 8146, 27, 12262, 3066, 9223, 3763, 8526, 1440, 10849,
   5084, 7205, 1632, 10657, 1017, 11272, 4885, 7404, 3778, 8511, 3833, 8456, 390, 11899, 773, 11516, 2401,
   9888, 442, 11847, 5101, 7188, 1067, 11222, 2912, 9377, 5698, 6591, 354, 11935, 4861, 7428, 2859, 9430, 1045,
   11244, 5012, 7277, 2481, 9808]

/-- ntt_constants.go:28 `phi512_roots_Zq`: the 256 entries. -/
@[irreducible] def phi512_roots_Zq : List Nat :=
  List.flatten [phi512_roots_Zq_0, phi512_roots_Zq_1]

/-- ntt_constants.go:31 `phi1024_roots_Zq`, entries 0 to 127. -/
def phi1024_roots_Zq_0 : List Nat :=
  [3957, 8332, 2839, 9450, 2127, 10162, 151, 12138, 431, 11858, 1579, 10710, 5906, 6383, 2505, 9784, 1323,
   10966, 2766, 9523, 52, 12237, 3174, 9115, 6055, 6234, 3336, 8953, 677, 11612, 5874, 6415, 4169, 8120, 3127,
   9162, 5241, 7048, 2920, 9369, 1010, 11279, 5468, 6821, 787, 11502, 3482, 8807, 1321, 10968, 192, 12097,
   4912, 7377, 2049, 10240, 4698, 7591, 5057, 7232, 4780, 7509, 3445, 8844, 1956, 10333, 5009, 7280, 6008,
   6281, 885, 11404, 3532, 8757, 1003, 11286, 58, 12231, 241, 12048, 975, 11314, 4212, 8077, 2844, 9445, 3438,
   8851, 1105, 11184, 142, 12147, 5681, 6608, 3477, 8812, 2302, 9987, 605, 11684, 4213, 8076, 504, 11785, 5886,
   6403, 4782, 7507, 5594, 6695, 3029, 9260, 421, 11868, 4080, 8209, 6068, 6221, 3602, 8687, 6077, 6212, 4624,
   7665, 3263, 9026, 3600, 8689]

/-- ntt_constants.go:31 `phi1024_roots_Zq`, entries 128 to 255. -/
def phi1024_roots_Zq_1 : List Nat :=
  [4948, 7341, 6137, 6152, 400, 11889, 1728, 10561, 5862, 6427, 6136, 6153, 5415, 6874, 3643, 8646, 56, 12233,
   3199, 9090, 5206, 7083, 5529, 6760, 3565, 8724, 654, 11635, 1987, 10302, 1702, 10587, 3988, 8301, 468,
   11821, 316, 11973, 382, 11907, 3710, 8579, 6093, 6196, 5446, 6843, 5339, 6950, 973, 11316, 1254, 11035,
   1359, 10930, 5435, 6854, 2033, 10256, 3998, 8291, 3879, 8410, 1922, 10367, 3860, 8429, 5445, 6844, 4536,
   7753, 1050, 11239, 3818, 8471, 6118, 6171, 1190, 11099, 2683, 9606, 3789, 8500, 147, 12142, 5456, 6833,
   4449, 7840, 4749, 7540, 5537, 6752, 4789, 7500, 4467, 7822, 1018, 11271, 5925, 6364, 1041, 11248, 3514,
   8775, 2344, 9945, 1278, 11011, 5574, 6715, 1973, 10316, 4324, 7965, 4916, 7373, 4075, 8214, 5315, 6974,
   5079, 7210, 3262, 9027, 522, 11767, 2169, 10120]

/-- ntt_constants.go:31 `phi1024_roots_Zq`, entries 256 to 383. -/
def phi1024_roots_Zq_2 : List Nat :=
  [1200, 11089, 5184, 7105, 2555, 9734, 6122, 6167, 5297, 6992, 6119, 6170, 3956, 8333, 1360, 10929, 1962,
   10327, 1594, 10695, 5961, 6328, 5106, 7183, 4298, 7991, 3329, 8960, 168, 12121, 2692, 9597, 4049, 8240,
   3728, 8561, 1159, 11130, 5990, 6299, 948, 11341, 1146, 11143, 1404, 10885, 325, 11964, 5766, 6523, 652,
   11637, 295, 11994, 6099, 6190, 2919, 9370, 3762, 8527, 4016, 8273, 4077, 8212, 6065, 6224, 835, 11454, 3570,
   8719, 4240, 8049, 4046, 8243, 709, 11580, 3150, 9139, 1319, 10970, 1058, 11231, 4079, 8210, 922, 11367, 441,
   11848, 4322, 7967, 1958, 10331, 2078, 10211, 1112, 11177, 3834, 8455, 5257, 7032, 4433, 7856, 5919, 6370,
   5486, 6803, 3054, 9235, 1747, 10542, 3123, 9166, 2948, 9341, 2503, 9786, 5782, 6507, 1566, 10723, 64, 12225,
   3656, 8633, 2459, 9830, 683, 11606]

/-- ntt_constants.go:31 `phi1024_roots_Zq`, entries 384 to 511. -/
def phi1024_roots_Zq_3 : List Nat :=
  [1293, 10996, 4737, 7552, 5429, 6860, 4774, 7515, 5908, 6381, 453, 11836, 418, 11871, 3772, 8517, 3991, 8298,
   3969, 8320, 2767, 9522, 156, 12133, 2281, 10008, 5876, 6413, 5333, 6956, 2031, 10258, 3963, 8326, 576,
   11713, 2447, 9842, 6142, 6147, 2051, 10238, 1954, 10335, 1805, 10484, 2882, 9407, 3529, 8760, 3434, 8855,
   2908, 9381, 218, 12071, 3030, 9259, 4115, 8174, 1843, 10446, 2361, 9928, 3202, 9087, 4493, 7796, 2057,
   10232, 5369, 6920, 1512, 10777, 350, 11939, 1815, 10474, 5383, 6906, 49, 12240, 1263, 11026, 5915, 6374,
   1483, 10806, 1489, 10800, 2500, 9789, 5942, 6347, 1583, 10706, 1693, 10596, 3009, 9280, 174, 12115, 723,
   11566, 2738, 9551, 5868, 6421, 5735, 6554, 2655, 9634, 3315, 8974, 426, 11863, 4754, 7535, 1858, 10431,
   1975, 10314, 3757, 8532, 2925, 9364, 347, 11942]

/-- ntt_constants.go:31 `phi1024_roots_Zq`: the 512 entries. -/
@[irreducible] def phi1024_roots_Zq : List Nat :=
  List.flatten [phi1024_roots_Zq_0, phi1024_roots_Zq_1, phi1024_roots_Zq_2, phi1024_roots_Zq_3]

/-- ntt_constants.go:34 `phi2048_roots_Zq`, entries 0 to 127. -/
def phi2048_roots_Zq_0 : List Nat :=
  [1826, 10463, 2926, 9363, 3171, 9118, 4489, 7800, 3238, 9051, 3708, 8581, 1136, 11153, 3449, 8840, 1092,
   11197, 5209, 7080, 3359, 8930, 3205, 9084, 1928, 10361, 464, 11825, 4265, 8024, 3678, 8611, 3163, 9126,
   4032, 8257, 4840, 7449, 6127, 6162, 2068, 10221, 1389, 10900, 4404, 7885, 346, 11943, 1526, 10763, 4222,
   8067, 125, 12164, 540, 11749, 3368, 8921, 4227, 8062, 612, 11677, 4238, 8051, 1866, 10423, 5211, 7078, 4727,
   7562, 1208, 11081, 3448, 8841, 343, 11946, 1908, 10381, 4538, 7751, 416, 11873, 814, 11475, 2450, 9839,
   1705, 10584, 2164, 10125, 5416, 6873, 2110, 10179, 716, 11573, 2429, 9860, 4103, 8186, 1721, 10568, 1536,
   10753, 1373, 10916, 2982, 9307, 3589, 8700, 717, 11572, 3278, 9011, 5993, 6296, 5412, 6877, 4209, 8080,
   3515, 8774, 438, 11851, 5061, 7228, 1218, 11071]

/-- ntt_constants.go:34 `phi2048_roots_Zq`, entries 128 to 255. -/
def phi2048_roots_Zq_1 : List Nat :=
  [2275, 10014, 2461, 9828, 5653, 6636, 4267, 8022, 3765, 8524, 1518, 10771, 4176, 8113, 5063, 7226, 3534,
   8755, 3961, 8328, 4145, 8144, 1756, 10533, 5826, 6463, 2065, 10224, 4564, 7725, 3495, 8794, 3114, 9175,
   2769, 9520, 5966, 6323, 212, 12077, 5596, 6693, 5987, 6302, 579, 11710, 3889, 8400, 1131, 11158, 1445,
   10844, 4860, 7429, 1125, 11164, 5734, 6555, 1176, 11113, 1275, 11014, 5508, 6781, 5102, 7187, 412, 11877,
   5845, 6444, 5588, 6701, 4963, 7326, 3744, 8545, 2528, 9761, 3056, 9233, 4505, 7784, 2257, 10032, 1417,
   10872, 5676, 6613, 3087, 9202, 5835, 6454, 4883, 7406, 3975, 8314, 4781, 7508, 4924, 7365, 448, 11841, 1014,
   11275, 3942, 8347, 5232, 7057, 1327, 10962, 3607, 8682, 5836, 6453, 4566, 7723, 68, 12221, 2260, 10029,
   3200, 9089, 1535, 10754, 60, 12229, 2717, 9572]

/-- ntt_constants.go:34 `phi2048_roots_Zq`, entries 256 to 383. -/
def phi2048_roots_Zq_2 : List Nat :=
  [3343, 8946, 4119, 8170, 2151, 10138, 1522, 10767, 20, 12269, 5002, 7287, 5163, 7126, 4608, 7681, 3654, 8635,
   2894, 9395, 1314, 10975, 1744, 10545, 2455, 9834, 5690, 6599, 338, 11951, 3947, 8342, 4939, 7350, 5115,
   7174, 2442, 9847, 1248, 11041, 3959, 8330, 5797, 6492, 2148, 10141, 5959, 6330, 1892, 10397, 3624, 8665,
   5598, 6691, 3344, 8945, 1029, 11260, 1945, 10344, 5724, 6565, 1325, 10964, 923, 11366, 1038, 11251, 6085,
   6204, 4167, 8122, 2231, 10058, 6092, 6197, 193, 12096, 2800, 9489, 1836, 10453, 425, 11864, 2185, 10104,
   392, 11897, 375, 11914, 1620, 10669, 4578, 7711, 377, 11912, 2776, 9513, 1178, 11111, 3511, 8778, 5478,
   6811, 3408, 8881, 1942, 10347, 1165, 11124, 2575, 9714, 1255, 11034, 506, 11783, 5784, 6505, 1392, 10897,
   3276, 9013, 3338, 8951, 2212, 10077, 2674, 9615]

/-- ntt_constants.go:34 `phi2048_roots_Zq`, entries 384 to 511. -/
def phi2048_roots_Zq_3 : List Nat :=
  [1236, 11053, 3017, 9272, 5246, 7043, 4475, 7814, 4705, 7584, 3121, 9168, 2600, 9689, 1057, 11232, 1226,
   11063, 5518, 6771, 4739, 7550, 4251, 8038, 3028, 9261, 5216, 7073, 2360, 9929, 364, 11925, 2054, 10235,
   2483, 9806, 3042, 9247, 1344, 10945, 463, 11826, 3407, 8882, 1468, 10821, 3981, 8308, 204, 12085, 5509,
   6780, 5219, 7070, 1409, 10880, 2689, 9600, 4605, 7684, 4138, 8151, 180, 12109, 4499, 7790, 5672, 6617, 622,
   11667, 1737, 10552, 5609, 6680, 636, 11653, 3982, 8307, 2947, 9342, 4335, 7954, 3393, 8896, 2291, 9998,
   3375, 8914, 4235, 8054, 3825, 8464, 4913, 7376, 3528, 8761, 2900, 9389, 239, 12050, 994, 11295, 4554, 7735,
   512, 11777, 4670, 7619, 5464, 6825, 4906, 7383, 406, 11883, 1687, 10602, 5268, 7021, 146, 12143, 5189, 7100,
   6094, 6195, 1403, 10886, 1804, 10485]

/-- ntt_constants.go:34 `phi2048_roots_Zq`, entries 512 to 639. -/
def phi2048_roots_Zq_4 : List Nat :=
  [1842, 10447, 3840, 8449, 72, 12217, 4113, 8176, 4352, 7937, 2828, 9461, 2712, 9577, 4834, 7455, 2643, 9646,
   1095, 11194, 3045, 9244, 5781, 6508, 1241, 11048, 4378, 7911, 3451, 8838, 4094, 8195, 3020, 9269, 5673,
   6616, 5406, 6883, 4665, 7624, 4770, 7519, 944, 11345, 3669, 8620, 5287, 7002, 1251, 11038, 5410, 6879, 5275,
   7014, 1790, 10499, 1040, 11249, 2035, 10254, 1882, 10407, 6125, 6164, 3815, 8474, 1734, 10555, 1350, 10939,
   5832, 6457, 3869, 8420, 4423, 7866, 1530, 10759, 1694, 10595, 2209, 10080, 1763, 10526, 3116, 9173, 189,
   12100, 1279, 11010, 865, 11424, 5170, 7119, 2672, 9617, 2730, 9559, 5411, 6878, 2253, 10036, 1868, 10421,
   4518, 7771, 3094, 9195, 1160, 11129, 4820, 7469, 4974, 7315, 4565, 7724, 5078, 7211, 1783, 10506, 2840,
   9449, 2478, 9811, 4194, 8095, 3019, 9270]

/-- ntt_constants.go:34 `phi2048_roots_Zq`, entries 640 to 767. -/
def phi2048_roots_Zq_5 : List Nat :=
  [5118, 7171, 502, 11787, 1901, 10388, 2602, 9687, 6063, 6226, 3793, 8496, 1573, 10716, 3846, 8443, 1030,
   11259, 466, 11823, 3821, 8468, 1681, 10608, 5969, 6320, 4649, 7640, 2929, 9360, 6026, 6263, 2434, 9855, 791,
   11498, 2827, 9462, 2873, 9416, 1120, 11169, 2535, 9754, 21, 12268, 5808, 6481, 170, 12119, 5650, 6639, 874,
   11415, 2301, 9988, 648, 11641, 150, 12139, 2307, 9982, 4289, 8000, 3317, 8972, 2532, 9757, 3332, 8957, 139,
   12150, 2940, 9349, 2046, 10243, 1481, 10808, 2957, 9332, 1701, 10588, 3466, 8823, 4697, 7592, 3578, 8711,
   2626, 9663, 530, 11759, 778, 11511, 4504, 7785, 4390, 7899, 4218, 8071, 3758, 8531, 3454, 8835, 982, 11307,
   2276, 10013, 2593, 9696, 879, 11410, 8, 12281, 457, 11832, 4301, 7988, 4523, 7766, 1849, 10440, 5776, 6513,
   3268, 9021, 3795, 8494]

/-- ntt_constants.go:34 `phi2048_roots_Zq`, entries 768 to 895. -/
def phi2048_roots_Zq_6 : List Nat :=
  [4719, 7570, 751, 11538, 910, 11379, 5900, 6389, 3065, 9224, 1506, 10783, 4483, 7806, 5703, 6586, 5043, 7246,
   826, 11463, 1398, 10891, 3090, 9199, 5789, 6500, 3502, 8787, 5618, 6671, 1658, 10631, 4684, 7605, 3360,
   8929, 63, 12226, 5135, 7154, 2373, 9916, 4987, 7302, 3670, 8619, 3808, 8481, 578, 11711, 5368, 6921, 450,
   11839, 1944, 10345, 2622, 9667, 5386, 6903, 510, 11779, 4661, 7628, 1280, 11009, 614, 11675, 24, 12265,
   1371, 10918, 5039, 7250, 5547, 6742, 904, 11385, 2485, 9804, 1927, 10362, 1015, 11274, 881, 11408, 365,
   11924, 4510, 7779, 2637, 9652, 2946, 9343, 5461, 6828, 2334, 9955, 1223, 11066, 4411, 7878, 1590, 10699,
   1802, 10487, 1555, 10734, 5103, 7186, 1891, 10398, 3469, 8820, 6138, 6151, 4443, 7846, 3418, 8871, 417,
   11872, 2293, 9996, 4693, 7596, 2338, 9951]

/-- ntt_constants.go:34 `phi2048_roots_Zq`, entries 896 to 1023. -/
def phi2048_roots_Zq_7 : List Nat :=
  [3572, 8717, 1282, 11007, 2021, 10268, 2832, 9457, 3929, 8360, 1706, 10583, 3229, 9060, 4730, 7559, 3120,
   9169, 6105, 6184, 6086, 6203, 5646, 6643, 3753, 8536, 3941, 8348, 3536, 8753, 5370, 6919, 7, 12282, 1936,
   10353, 845, 11444, 3723, 8566, 3154, 9135, 5054, 7235, 3285, 9004, 4360, 7929, 769, 11520, 5526, 6763, 50,
   12239, 216, 12073, 4153, 8136, 2213, 10076, 3805, 8484, 767, 11522, 2633, 9656, 1406, 10883, 5349, 6940,
   2945, 9344, 3232, 9057, 293, 11996, 4855, 7434, 3769, 8520, 4099, 8190, 3944, 8345, 5530, 6759, 5604, 6685,
   3480, 8809, 2171, 10118, 1265, 11024, 3007, 9282, 5207, 7082, 4050, 8239, 5202, 7087, 844, 11445, 4590,
   7699, 5082, 7207, 980, 11309, 682, 11607, 567, 11722, 2941, 9348, 5289, 7000, 5662, 6627, 3221, 9068, 4273,
   8016, 3837, 8452, 2595, 9694]

/-- ntt_constants.go:34 `phi2048_roots_Zq`: the 1024 entries. -/
@[irreducible] def phi2048_roots_Zq : List Nat :=
  List.flatten [phi2048_roots_Zq_0, phi2048_roots_Zq_1, phi2048_roots_Zq_2, phi2048_roots_Zq_3,
    phi2048_roots_Zq_4, phi2048_roots_Zq_5, phi2048_roots_Zq_6, phi2048_roots_Zq_7]

/-- ntt_constants.go:55-63 `inv_mod_q`, entries 0 to 127. -/
def inv_mod_q_0 : List Nat :=
  [0, 1, 6145, 8193, 9217, 2458, 10241, 8778, 10753, 2731, 1229, 5586, 11265, 2836, 4389, 9012, 11521, 6506,
   7510, 3234, 6759, 2926, 2793, 6946, 11777, 7865, 1418, 9103, 8339, 10594, 4506, 7532, 11905, 1862, 3253,
   9129, 3755, 7307, 1617, 9138, 9524, 4496, 1463, 6859, 7541, 3004, 3473, 8367, 12033, 1254, 10077, 6265, 709,
   8811, 10696, 3575, 10314, 1078, 5297, 10831, 2253, 7454, 3766, 9168, 12097, 3025, 931, 10088, 7771, 10508,
   10709, 10212, 8022, 5892, 9798, 6718, 6953, 798, 4569, 10889, 4762, 11227, 2248, 4886, 6876, 3759, 9574,
   11724, 9915, 5247, 1502, 9183, 7881, 6607, 10328, 10478, 12161, 6968, 627, 4717, 11183, 5962, 9277, 8829,
   6499, 3043, 10550, 9992, 5348, 8343, 7932, 6532, 5157, 11854, 539, 3847, 8793, 3046, 11560, 2685, 7271,
   1625, 3727, 5595, 1883, 1573, 4584, 6967]

/-- ntt_constants.go:55-63 `inv_mod_q`, entries 128 to 255. -/
def inv_mod_q_1 : List Nat :=
  [12193, 10479, 7657, 1970, 6610, 462, 5044, 9194, 10030, 11392, 5254, 3448, 11499, 2789, 5106, 1375, 4011,
   11950, 2946, 418, 4899, 10557, 3359, 1058, 9621, 10281, 399, 6422, 8429, 5714, 11589, 2937, 2381, 6259,
   11758, 2111, 1124, 5288, 2443, 3385, 3438, 5890, 8024, 8552, 4787, 10229, 5862, 11657, 11102, 11803, 8768,
   1785, 751, 10999, 10736, 6581, 10085, 6377, 9448, 3943, 5164, 3056, 5239, 3024, 12225, 9169, 3484, 9201,
   6458, 1310, 8503, 4014, 11736, 7459, 2981, 3269, 10783, 3357, 10559, 7599, 9394, 294, 7666, 5300, 5275,
   3404, 4996, 11203, 2674, 1076, 10316, 1964, 3966, 5227, 3266, 3582, 8723, 10432, 5927, 11098, 6414, 6225,
   8068, 266, 10541, 8808, 1523, 6589, 5780, 7726, 7487, 7250, 9780, 6170, 6957, 11935, 8008, 10082, 8942,
   4030, 7086, 5725, 6931, 11065, 2292, 3983, 9628, 1253]

/-- ntt_constants.go:55-63 `inv_mod_q`, entries 256 to 383. -/
def inv_mod_q_2 : List Nat :=
  [12241, 8368, 11384, 4555, 9973, 3908, 985, 8364, 3305, 4220, 231, 1749, 2522, 868, 4597, 2222, 5015, 3061,
   5696, 715, 2627, 8030, 1724, 10395, 11894, 656, 7539, 6861, 2553, 7589, 6832, 5909, 8150, 4720, 5975, 6419,
   1473, 2894, 209, 4624, 8594, 9765, 11423, 11878, 7824, 4491, 529, 10180, 10955, 11322, 11285, 1361, 6344,
   2943, 3211, 5453, 10359, 10640, 2857, 9207, 11939, 1163, 7613, 6549, 7335, 7427, 9274, 1636, 5879, 605,
   7200, 2781, 562, 6462, 2644, 7314, 7366, 10370, 7837, 9391, 1719, 3209, 2945, 12144, 4012, 8505, 4276, 8957,
   8538, 9475, 11259, 7083, 2931, 1162, 11973, 9208, 5551, 8007, 12046, 6958, 4384, 895, 7037, 5922, 6520, 817,
   11644, 4638, 5368, 6094, 9435, 5592, 11187, 1865, 9333, 8281, 4724, 1845, 8116, 8717, 2582, 10268, 1528,
   8625, 8764, 10515, 1512, 1861]

/-- ntt_constants.go:55-63 `inv_mod_q`, entries 384 to 511. -/
def inv_mod_q_3 : List Nat :=
  [12257, 7533, 10729, 3493, 1742, 7961, 10745, 4023, 3229, 4753, 655, 12009, 10396, 11608, 2007, 154, 5868,
   10818, 9874, 2470, 7635, 7161, 7779, 5133, 11536, 1292, 7823, 11990, 11424, 6814, 9944, 3435, 4697, 9342,
   147, 7391, 3833, 9370, 2650, 5026, 8782, 10583, 1702, 4576, 2498, 8651, 11746, 1112, 1337, 11693, 538,
   12176, 5158, 11361, 982, 8202, 1983, 8332, 8758, 9404, 1633, 5965, 1791, 3519, 10506, 7773, 5216, 8229,
   9108, 4449, 5549, 9210, 3207, 1721, 9257, 3427, 4034, 5678, 133, 7246, 11415, 6237, 4404, 1421, 6906, 10219,
   9439, 6001, 2890, 9561, 3863, 9469, 9888, 979, 3625, 2309, 4890, 3398, 3085, 10279, 9623, 8767, 12112,
   11103, 4004, 4800, 5041, 876, 4471, 7852, 2015, 5859, 3543, 4970, 9007, 2709, 9610, 9321, 11677, 11043,
   1146, 6108, 8136, 10156, 4814, 6060, 6771, 7864]

/-- ntt_constants.go:55-63 `inv_mod_q`, entries 512 to 639. -/
def inv_mod_q_4 : List Nat :=
  [12265, 6947, 4184, 11597, 5692, 2995, 8422, 7506, 11131, 10803, 1954, 4112, 6637, 7982, 4182, 6949, 7797,
   302, 2110, 12127, 6260, 6963, 7019, 6914, 1261, 595, 434, 114, 8443, 9177, 1111, 11859, 8652, 9042, 7675,
   9301, 2848, 6290, 6502, 11553, 7458, 12089, 4015, 6222, 862, 8075, 11342, 10926, 5947, 9507, 328, 5828,
   9914, 12202, 9575, 5115, 7421, 1771, 9939, 5897, 3416, 1008, 9099, 5685, 4075, 10074, 2360, 11249, 9132,
   698, 9354, 801, 6881, 3067, 1447, 9379, 6249, 1690, 2312, 4533, 4297, 11315, 11027, 537, 11856, 1338, 5939,
   2585, 3912, 7218, 8390, 10679, 6409, 325, 5090, 10062, 11622, 5186, 5661, 11042, 11787, 9322, 6825, 1119,
   3172, 2410, 7616, 11614, 7750, 2533, 8871, 11283, 11324, 7688, 5320, 98, 7573, 5490, 10748, 11101, 12114,
   5863, 6726, 6309, 9951, 4823, 9419, 5231]

/-- ntt_constants.go:55-63 `inv_mod_q`, entries 640 to 767. -/
def inv_mod_q_5 : List Nat :=
  [9812, 9049, 9858, 7339, 4637, 11927, 818, 3077, 9084, 3219, 6447, 4455, 3600, 10727, 7535, 394, 281, 4751,
   3231, 3655, 1322, 1320, 3657, 9935, 3683, 5008, 5185, 11681, 10063, 1194, 10840, 2912, 7004, 11376, 7749,
   11670, 7617, 835, 6072, 2751, 2006, 11892, 10397, 7377, 2138, 7194, 10623, 2075, 4269, 4459, 10882, 5691,
   11774, 4185, 9686, 8063, 7610, 3156, 581, 2936, 12131, 5715, 4604, 11380, 8920, 10389, 10148, 7874, 6023,
   52, 3479, 10768, 2192, 2999, 6592, 275, 9663, 6513, 2961, 8751, 3260, 6528, 6553, 6153, 5822, 2390, 2319,
   10007, 2684, 12171, 3047, 3295, 10862, 7645, 2796, 7457, 11738, 6503, 7077, 10809, 10811, 9536, 10285,
   11247, 2362, 7027, 7067, 10101, 4058, 3183, 10503, 180, 1291, 11881, 5134, 7585, 764, 7776, 10457, 5424,
   4382, 6960, 11402, 4703, 756, 4514, 7075, 6505]

/-- ntt_constants.go:55-63 `inv_mod_q`, entries 768 to 895. -/
def inv_mod_q_6 : List Nat :=
  [12273, 9013, 9911, 10982, 11509, 2178, 7891, 6200, 871, 9711, 10125, 2177, 11517, 10983, 8156, 5399, 7759,
   10974, 8521, 3123, 6472, 2788, 12149, 3449, 5198, 2464, 5804, 5503, 7148, 5335, 77, 7721, 2934, 583, 5409,
   2770, 4937, 11083, 1235, 8482, 9962, 6304, 9725, 8622, 10034, 4837, 8711, 2880, 5768, 361, 646, 9213, 10056,
   8981, 5995, 7242, 5712, 8431, 3407, 9005, 4972, 7323, 7862, 6773, 8493, 10917, 4671, 677, 6218, 3465, 9840,
   6020, 8061, 9688, 4685, 4315, 1325, 1178, 2513, 9010, 4391, 2287, 11436, 852, 851, 11439, 2288, 6626, 1249,
   8446, 10470, 5794, 5873, 6066, 556, 4215, 6813, 11877, 11991, 9766, 269, 7693, 6088, 776, 2579, 6236, 11825,
   7247, 491, 7819, 4101, 5061, 7136, 5189, 4166, 8754, 4379, 9734, 4702, 11527, 6961, 6262, 9127, 3255, 7040,
   10789, 7904, 357]

/-- ntt_constants.go:55-63 `inv_mod_q`, entries 896 to 1023. -/
def inv_mod_q_7 : List Nat :=
  [5253, 12152, 10031, 1531, 2608, 8470, 10259, 1497, 4554, 12031, 8369, 5799, 8919, 11586, 4605, 1295, 7748,
   11616, 7005, 3774, 10773, 2037, 7858, 5857, 2017, 4550, 2839, 8348, 6211, 6191, 3623, 981, 11852, 5159,
   9263, 66, 2202, 5914, 6855, 8162, 3453, 4210, 11254, 7643, 10864, 1097, 9145, 2867, 1445, 3069, 10925,
   11731, 8076, 8961, 10879, 4484, 4944, 10200, 6634, 10436, 7957, 2183, 7299, 3383, 2445, 5000, 1699, 6572,
   7687, 11665, 11284, 11984, 10956, 8738, 10528, 3569, 6056, 11026, 11696, 4298, 2002, 1044, 2400, 477, 8665,
   927, 438, 4088, 8380, 262, 3926, 2154, 7152, 10450, 9074, 8172, 7916, 2438, 2485, 10634, 10648, 5029, 7499,
   7553, 4805, 1952, 10805, 1360, 11983, 11323, 11666, 8872, 573, 3191, 3054, 5166, 4068, 6745, 5078, 10485,
   2407, 4048, 3030, 8864, 9530, 10628, 3932, 2835]

/-- ntt_constants.go:55-63 `inv_mod_q`, entries 1024 to 1151. -/
def inv_mod_q_8 : List Nat :=
  [12277, 5587, 9618, 11236, 2092, 7082, 11943, 9476, 2846, 9303, 7642, 11351, 4211, 3330, 3753, 9131, 11710,
   2361, 11546, 10286, 977, 9890, 2056, 8580, 9463, 7357, 3991, 7343, 2091, 11262, 9619, 1060, 10043, 8929,
   151, 2669, 1055, 2247, 12208, 4763, 3130, 10512, 9626, 3985, 9654, 1368, 3457, 8491, 6775, 1947, 6442, 9614,
   217, 1974, 57, 6993, 10366, 2501, 10733, 8465, 6700, 2673, 12074, 4997, 4326, 1546, 4521, 8662, 9982, 9748,
   10795, 10224, 1424, 941, 3145, 6083, 3251, 1864, 11921, 5593, 3729, 5961, 12189, 4718, 8152, 8056, 3111,
   542, 431, 10953, 10182, 5632, 5671, 6139, 5463, 615, 9118, 3804, 10898, 10177, 164, 7002, 2914, 9672, 4957,
   10493, 6101, 7519, 10932, 3037, 8702, 9593, 9855, 2875, 7030, 9268, 11114, 10835, 9093, 3505, 1708, 1245,
   504, 6182, 10694, 8813, 8987, 2808]

/-- ntt_constants.go:55-63 `inv_mod_q`, entries 1152 to 1279. -/
def inv_mod_q_9 : List Nat :=
  [8182, 7205, 5037, 2511, 1180, 10802, 11769, 7507, 4566, 9357, 349, 317, 4677, 9135, 6545, 6750, 9585, 11017,
   7678, 10400, 6868, 1341, 10834, 11149, 9269, 10963, 845, 9777, 1156, 1488, 8411, 2597, 8293, 4003, 11802,
   12113, 11658, 10749, 6413, 12062, 5928, 2225, 669, 1450, 9114, 8244, 7437, 4110, 1956, 6651, 3609, 3606,
   4195, 1234, 11484, 4938, 9349, 9016, 6307, 6728, 2545, 7497, 5031, 2387, 5811, 10017, 2593, 1986, 8975,
   1711, 5521, 2291, 12038, 6932, 4661, 4527, 9557, 10, 6704, 4682, 1586, 8093, 1205, 806, 3808, 1669, 5807,
   10464, 3875, 3961, 7411, 3312, 10580, 1145, 11786, 11678, 5662, 856, 3844, 3114, 2660, 255, 49, 2213, 9931,
   6560, 2745, 8043, 5374, 536, 11695, 11316, 6057, 8170, 9076, 6838, 3363, 9868, 9299, 7677, 11120, 9586,
   8556, 7624, 10854, 9402, 8760, 7187]

/-- ntt_constants.go:55-63 `inv_mod_q`, entries 1280 to 1407. -/
def inv_mod_q_10 : List Nat :=
  [4906, 9718, 10669, 5747, 4929, 9047, 9814, 6980, 8463, 10735, 12108, 752, 409, 4467, 7683, 911, 4542, 8319,
   7754, 7994, 9368, 3835, 8372, 9337, 1800, 8155, 11508, 11518, 9912, 5830, 197, 3787, 6285, 10857, 8520,
   11504, 7760, 2734, 7972, 10966, 661, 8633, 660, 10970, 7973, 844, 11112, 9270, 7986, 7231, 2504, 7968, 8737,
   11321, 11985, 10181, 11176, 432, 597, 6351, 5420, 1173, 1456, 10038, 3502, 7547, 5688, 2591, 10019, 5065,
   5835, 4821, 9953, 2743, 6562, 5360, 3036, 11157, 7520, 1483, 1003, 307, 5946, 11730, 11343, 3070, 9833,
   2634, 1069, 8833, 3597, 4670, 11456, 8494, 7182, 143, 8279, 9335, 8374, 8965, 5441, 5179, 8990, 5989, 5887,
   1606, 8237, 6778, 4843, 10608, 10176, 11167, 3805, 2329, 1578, 2079, 6435, 10688, 1468, 4761, 12210, 4570,
   9002, 1927, 2302, 2589, 5690, 11599]

/-- ntt_constants.go:55-63 `inv_mod_q`, entries 1408 to 1535. -/
def inv_mod_q_11 : List Nat :=
  [4460, 4483, 11339, 8962, 5074, 10193, 3937, 3830, 9156, 4423, 26, 3187, 7884, 467, 5384, 2064, 1096, 11349,
   7644, 11557, 3296, 6166, 6282, 8519, 10976, 6286, 9401, 11013, 7625, 4866, 10520, 8335, 1630, 5765, 3264,
   5229, 9421, 944, 9221, 586, 2911, 11619, 1195, 3176, 7304, 9092, 11148, 11115, 1342, 2252, 12230, 5298,
   7668, 3701, 7792, 42, 5431, 10410, 9967, 1600, 1398, 7529, 9873, 11888, 5869, 292, 9396, 10756, 9683, 9535,
   11549, 10810, 11550, 7078, 4768, 1359, 11287, 1953, 11768, 11132, 1181, 3879, 9658, 5753, 9678, 10223,
   11195, 9749, 2029, 903, 7736, 7903, 11396, 7041, 90, 3107, 6790, 3356, 12085, 3270, 2567, 3681, 9937, 1773,
   382, 10429, 3888, 2036, 11373, 3775, 2712, 7176, 2191, 11578, 3480, 234, 5701, 7180, 8496, 2020, 378, 3665,
   2257, 899, 9682, 10814, 9397, 2730]

/-- ntt_constants.go:55-63 `inv_mod_q`, entries 1536 to 1663. -/
def inv_mod_q_12 : List Nat :=
  [12281, 8779, 10651, 6412, 11100, 11659, 5491, 4022, 11899, 7962, 1089, 7769, 10090, 9187, 3100, 9191, 6580,
   12107, 11000, 8464, 11207, 2502, 7233, 3492, 11903, 7534, 11636, 3601, 4078, 2128, 8844, 7662, 10024, 5467,
   5487, 9426, 10405, 125, 7706, 6757, 3236, 9959, 1394, 10211, 12219, 10509, 7869, 8291, 2599, 7606, 1232,
   4197, 2902, 3341, 8896, 4171, 3574, 12235, 8812, 11141, 6183, 2801, 10005, 2321, 1467, 10892, 6436, 6156,
   8849, 6401, 1385, 4053, 8613, 6408, 11686, 8391, 6762, 8952, 4241, 2785, 4981, 38, 3152, 5746, 11007, 9719,
   4311, 3059, 5017, 121, 8563, 6322, 10500, 3953, 1440, 6525, 2884, 444, 6325, 3014, 323, 6411, 10751, 8780,
   5028, 11293, 10635, 3852, 9142, 6208, 3621, 6193, 2856, 11976, 10360, 9989, 7848, 3851, 10647, 11294, 2486,
   9849, 9806, 8126, 3931, 11268, 9531, 10146]

/-- ntt_constants.go:55-63 `inv_mod_q`, entries 1664 to 1791. -/
def inv_mod_q_13 : List Nat :=
  [10391, 2074, 11603, 7195, 8480, 1237, 6483, 6788, 3109, 8058, 7877, 4336, 4920, 3642, 3010, 3462, 10175,
   10900, 4844, 3169, 8487, 10473, 8302, 2637, 6807, 6039, 589, 9978, 7401, 5415, 4505, 12260, 8340, 6684,
   7288, 962, 5718, 1705, 426, 7714, 6570, 1701, 11864, 8783, 1144, 11045, 3313, 1221, 6769, 6062, 4223, 6707,
   5235, 4688, 2897, 336, 9081, 457, 3033, 4258, 278, 1895, 8252, 3871, 9551, 7598, 12083, 3358, 12140, 4900,
   4883, 8790, 6279, 7846, 9991, 12183, 3044, 8795, 388, 4329, 7434, 5148, 3118, 8807, 12057, 267, 9768, 2688,
   6390, 8875, 10054, 9215, 8195, 8603, 8675, 8705, 3568, 11319, 8739, 4963, 2083, 6517, 4377, 8756, 8334,
   10851, 4867, 569, 2351, 1511, 11908, 8765, 9625, 11224, 3131, 7868, 10708, 12220, 7772, 11841, 3520, 179,
   11539, 3184, 3952, 10661, 6323, 446]

/-- ntt_constants.go:55-63 `inv_mod_q`, entries 1792 to 1919. -/
def inv_mod_q_14 : List Nat :=
  [8771, 6895, 6076, 6100, 11160, 4958, 6910, 2951, 1304, 4135, 4235, 2406, 11274, 5079, 6893, 8773, 2277,
   7656, 12160, 12194, 10329, 7673, 9044, 8301, 10604, 8488, 5793, 11431, 8447, 3354, 6792, 7941, 3874, 11050,
   5808, 5825, 9647, 4710, 1887, 5423, 11531, 7777, 7163, 6034, 3929, 8128, 9073, 11300, 7153, 4706, 2275,
   8775, 7564, 373, 4174, 7239, 9250, 3589, 9240, 8996, 7956, 11334, 6635, 4114, 5926, 12064, 8724, 3887,
   10776, 383, 33, 9037, 1101, 369, 2957, 6885, 9572, 3761, 4081, 8289, 7871, 5098, 2105, 6659, 5627, 6318,
   9966, 10824, 5432, 4129, 6693, 124, 10717, 9427, 7578, 1830, 6867, 11118, 7679, 7376, 11607, 11893, 12010,
   1725, 4038, 2073, 10625, 10147, 11584, 8921, 2242, 7633, 2472, 2103, 5100, 7385, 3317, 8227, 5218, 5704,
   10123, 9713, 7236, 2830, 9794, 5840, 7836, 11956]

/-- ntt_constants.go:55-63 `inv_mod_q`, entries 1920 to 2047. -/
def inv_mod_q_15 : List Nat :=
  [7367, 8649, 2500, 11209, 6994, 8880, 3286, 1403, 9988, 10639, 11977, 5454, 5642, 2721, 5992, 8072, 5478,
   3648, 4369, 9925, 5264, 5122, 7929, 7128, 3028, 4050, 5513, 1073, 5848, 9067, 2149, 7483, 1001, 1485, 522,
   8178, 1200, 5639, 6383, 7672, 10477, 12195, 6608, 1972, 219, 8324, 2044, 7116, 4190, 4631, 131, 5680, 1963,
   12071, 1077, 12233, 3576, 9411, 5225, 3968, 4537, 9758, 4086, 440, 3958, 9695, 1219, 3315, 7387, 7408, 5317,
   7703, 5324, 5272, 8659, 9862, 9894, 4123, 9921, 9123, 8547, 7990, 976, 11246, 11547, 9537, 680, 398, 12136,
   9622, 11806, 3086, 5833, 5067, 4436, 494, 6431, 920, 7740, 3792, 1527, 11912, 2583, 5941, 2034, 3890, 9517,
   7354, 2539, 1496, 11387, 8471, 7348, 6347, 2024, 8400, 1515, 917, 4432, 3128, 4765, 8002, 5314, 3964, 1966,
   5174, 7562, 8777]

/-- ntt_constants.go:55-63 `inv_mod_q`, entries 2048 to 2175. -/
def inv_mod_q_16 : List Nat :=
  [12283, 2459, 8938, 2169, 4809, 2119, 5618, 2398, 1046, 3710, 3541, 5861, 12116, 4788, 4738, 6904, 1423,
   11194, 10796, 9679, 3821, 9438, 11820, 6907, 8250, 1897, 1665, 687, 8021, 12218, 10710, 1395, 5855, 7860,
   7325, 1764, 5773, 6784, 5143, 3692, 6633, 11336, 4945, 1052, 1028, 5208, 4290, 3936, 10876, 5075, 9823,
   6487, 8140, 6978, 9816, 1905, 7190, 1874, 5631, 11175, 10954, 11986, 530, 163, 11166, 10899, 10609, 3463,
   6220, 4017, 7479, 2053, 6672, 6721, 7268, 9771, 6104, 9490, 8526, 8210, 1565, 3446, 5256, 5242, 4813, 11782,
   8137, 3373, 4827, 4911, 684, 5096, 7873, 11583, 10390, 10626, 9532, 4188, 7118, 6445, 3221, 1950, 4807,
   2171, 6253, 8362, 987, 5138, 6173, 2917, 9641, 5470, 5183, 5010, 7395, 2176, 11511, 9712, 10377, 5705, 3350,
   2051, 7481, 2151, 6037, 6809, 8643, 4893]

/-- ntt_constants.go:55-63 `inv_mod_q`, entries 2176 to 2303. -/
def inv_mod_q_17 : List Nat :=
  [2163, 779, 773, 4399, 8405, 7432, 4331, 957, 4991, 4730, 4874, 4057, 11542, 7068, 5112, 1520, 712, 9291,
   6615, 6556, 7717, 3289, 9186, 10741, 7770, 12222, 932, 6376, 12105, 6582, 8941, 12044, 8009, 8545, 9125,
   6264, 12239, 1255, 2359, 11712, 4076, 3603, 4028, 8944, 7700, 7691, 271, 7275, 6360, 1193, 11621, 11682,
   5091, 3749, 2816, 5646, 8980, 11469, 9214, 10535, 8876, 5933, 6452, 7470, 4559, 3367, 1902, 4657, 5449,
   8928, 11233, 1061, 82, 7404, 3501, 10946, 1457, 60, 4836, 11477, 8623, 1530, 11391, 12153, 9195, 7256, 9904,
   2965, 5466, 10721, 7663, 3697, 4351, 5064, 10941, 2592, 11072, 5812, 7582, 1842, 3515, 1808, 4634, 9636,
   5557, 2683, 11562, 2320, 10691, 2802, 7897, 849, 854, 5664, 6767, 1223, 252, 8307, 3091, 5601, 5347, 12182,
   10551, 7847, 10638, 10361, 1404, 9701]

/-- ntt_constants.go:55-63 `inv_mod_q`, entries 2304 to 2431. -/
def inv_mod_q_18 : List Nat :=
  [4091, 8509, 9747, 11197, 8663, 479, 7400, 10598, 590, 7757, 5401, 3907, 12029, 4556, 9898, 726, 2283, 1599,
   10823, 10411, 6319, 6163, 6303, 11481, 8483, 1393, 10712, 3237, 9417, 4825, 3375, 2742, 10937, 4822, 11653,
   6310, 3839, 2462, 5200, 3661, 3434, 11875, 6815, 4503, 5417, 5896, 11719, 1772, 10779, 3682, 11626, 3658,
   6567, 6559, 11033, 2214, 578, 1041, 744, 5263, 10350, 4370, 7443, 9122, 10291, 4124, 8146, 9599, 5901, 5246,
   12201, 11725, 5829, 10981, 11519, 9014, 9351, 160, 6031, 8576, 2964, 10027, 7257, 1215, 6479, 6466, 725,
   9971, 4557, 7472, 4122, 10293, 9863, 6670, 2055, 11244, 978, 11813, 9470, 8387, 7949, 8053, 1803, 1016,
   8242, 9116, 617, 4674, 5742, 5541, 2469, 11887, 10819, 7530, 4508, 7158, 9298, 11020, 3364, 7557, 7417,
   6669, 9893, 10294, 8660, 4523, 7338, 11647]

/-- ntt_constants.go:55-63 `inv_mod_q`, entries 2432 to 2559. -/
def inv_mod_q_19 : List Nat :=
  [9050, 2874, 11153, 9594, 7441, 4372, 993, 9805, 10632, 2487, 7000, 166, 8905, 960, 7290, 7965, 6019, 11451,
   3466, 8313, 8475, 2560, 8408, 2633, 10923, 3071, 5, 2049, 3352, 8449, 2341, 7090, 793, 6486, 10191, 5076,
   6747, 2414, 403, 4655, 1904, 10187, 6979, 11003, 9048, 11649, 5232, 3594, 8082, 7098, 8125, 10631, 9850,
   994, 1656, 2441, 5290, 5278, 6717, 12215, 5893, 6354, 5839, 10373, 2831, 7712, 428, 3639, 1922, 1081, 1557,
   5057, 1330, 4322, 6272, 7843, 6169, 12049, 7251, 1155, 11110, 846, 3280, 9582, 7517, 6103, 10166, 7269,
   2687, 10539, 268, 11422, 11992, 8595, 5658, 7139, 9173, 9631, 4085, 10308, 4538, 621, 3419, 4489, 7826,
   2824, 4934, 2028, 10794, 11196, 9983, 8510, 5560, 1212, 4793, 8955, 4278, 3746, 3812, 9731, 5427, 284, 4701,
   11404, 4380, 5426, 9738, 3813]

/-- ntt_constants.go:55-63 `inv_mod_q`, entries 2560 to 2687. -/
def inv_mod_q_20 : List Nat :=
  [2453, 3882, 4859, 8621, 11479, 6305, 9018, 1508, 8609, 4310, 10668, 11008, 4907, 8086, 3490, 7235, 10376,
   10124, 11512, 872, 6054, 3571, 376, 2022, 6349, 599, 8378, 4090, 9986, 1405, 6600, 1347, 2271, 1218, 10304,
   3959, 3877, 1183, 3997, 1584, 4684, 11448, 8062, 11595, 4186, 9534, 10813, 10757, 900, 3820, 10222, 10797,
   5754, 4355, 5759, 5738, 4956, 11162, 2915, 6175, 6243, 4262, 8038, 4746, 9287, 6512, 11573, 276, 4260, 6245,
   5752, 10799, 3880, 2455, 1367, 11221, 3986, 1687, 5483, 4978, 6475, 4709, 10461, 5826, 330, 4976, 5485,
   5469, 10131, 2918, 422, 7264, 5556, 10010, 4635, 7341, 3993, 4084, 9760, 9174, 1252, 12035, 3984, 11223,
   10513, 8766, 11805, 10280, 12137, 1059, 11235, 11263, 5588, 1085, 216, 11214, 6443, 7120, 9320, 11789, 2710,
   3777, 6731, 2281, 728, 119, 5019, 2520]

/-- ntt_constants.go:55-63 `inv_mod_q`, entries 2688 to 2815. -/
def inv_mod_q_21 : List Nat :=
  [1751, 5900, 9918, 8147, 2844, 9478, 7440, 9854, 11154, 8703, 8677, 8264, 9062, 4477, 8555, 11016, 11121,
   6751, 7516, 9774, 3281, 499, 2680, 8513, 1518, 5114, 11723, 12203, 3760, 10421, 6886, 8384, 6646, 1933,
   6298, 6404, 2973, 6724, 5865, 3862, 11816, 2891, 1535, 9, 11061, 4528, 1317, 4318, 6679, 7597, 10561, 3872,
   7943, 8913, 2335, 1353, 5728, 1258, 4247, 9238, 3591, 6710, 6216, 679, 10284, 11548, 10812, 9684, 4187,
   10145, 10627, 11269, 8865, 7709, 8734, 5613, 4495, 12249, 9139, 5445, 9088, 6879, 803, 7353, 10263, 3891,
   3389, 6160, 8566, 6337, 5304, 6925, 5088, 327, 11728, 5948, 8047, 1615, 7309, 5816, 789, 141, 7184, 8859,
   9362, 22, 5344, 4643, 734, 4833, 8525, 10164, 6105, 1597, 2285, 4393, 4501, 6817, 7108, 3301, 1151, 4108,
   7439, 9596, 2845, 11258, 11944, 8539]

/-- ntt_constants.go:55-63 `inv_mod_q`, entries 2816 to 2943. -/
def inv_mod_q_22 : List Nat :=
  [2230, 6644, 8386, 9887, 11814, 3864, 4481, 4462, 2537, 7356, 11241, 8581, 8113, 5052, 1915, 2496, 4578,
   3557, 8356, 1023, 13, 7901, 7738, 922, 3942, 12103, 6378, 4141, 2692, 2812, 1032, 2987, 548, 6000, 11819,
   10220, 3822, 5591, 11923, 6095, 1648, 314, 3083, 3400, 3141, 7577, 10404, 10718, 5488, 7575, 3143, 943,
   10845, 5230, 11651, 4824, 9957, 3238, 2433, 1137, 5260, 5224, 10312, 3577, 815, 6522, 9027, 5763, 1632,
   11846, 8759, 11012, 10855, 6287, 472, 2729, 10755, 10815, 293, 12081, 7600, 1718, 11954, 7838, 6742, 8091,
   1588, 8949, 3652, 7513, 4546, 7009, 5574, 6248, 11702, 1448, 671, 5286, 1126, 2618, 6115, 2157, 2649, 11868,
   3834, 10989, 7995, 6937, 3896, 5529, 21, 9497, 8860, 8257, 5205, 348, 11128, 4567, 800, 11707, 699, 159,
   9909, 9015, 11081, 4939, 5944, 309]

/-- ntt_constants.go:55-63 `inv_mod_q`, entries 2944 to 3071. -/
def inv_mod_q_23 : List Nat :=
  [9079, 338, 146, 11872, 4698, 5459, 5378, 1799, 10986, 8373, 10912, 8280, 11919, 1866, 5405, 6782, 5775, 718,
   3539, 3712, 2384, 2263, 6824, 11676, 11788, 9611, 7121, 8223, 5884, 2724, 5566, 5023, 6735, 7096, 8084,
   4909, 4829, 202, 9021, 8709, 4839, 7641, 11256, 2847, 11742, 7676, 11019, 9869, 7159, 7637, 6596, 517, 3868,
   6614, 10096, 713, 5698, 6511, 9665, 4747, 45, 8817, 7698, 8946, 3395, 8646, 1678, 8828, 12187, 5963, 1635,
   11967, 7428, 3670, 7985, 10962, 11113, 11150, 7031, 7049, 191, 65, 11359, 5160, 1944, 8240, 1018, 3426,
   11831, 1722, 8032, 6928, 1356, 1133, 3588, 10441, 7240, 5997, 5789, 105, 1740, 3495, 117, 730, 8995, 10439,
   3590, 9542, 4248, 9097, 1010, 7124, 189, 7051, 7977, 1623, 7273, 273, 6594, 7639, 4841, 6780, 5407, 585,
   10843, 945, 1365, 2457]

/-- ntt_constants.go:55-63 `inv_mod_q`, entries 3072 to 3199. -/
def inv_mod_q_24 : List Nat :=
  [12285, 8194, 10534, 10055, 11470, 647, 3206, 11834, 5550, 11938, 11974, 2858, 8890, 482, 2011, 6457, 12094,
   3485, 3981, 2294, 6689, 7255, 10029, 12154, 5045, 6579, 10738, 3101, 1550, 3099, 10740, 10091, 3290, 7880,
   12198, 1503, 5500, 1672, 4232, 1110, 11748, 8444, 1251, 9630, 9761, 7140, 1746, 3483, 12096, 12226, 3767,
   787, 5818, 8911, 7945, 7856, 2039, 7525, 1064, 1778, 4422, 10873, 3831, 7393, 5012, 5931, 8878, 6996, 8888,
   2860, 4713, 2866, 11347, 1098, 6207, 10645, 3853, 5444, 9523, 12250, 1618, 6544, 11124, 4678, 697, 11709,
   11250, 3754, 12254, 3254, 11399, 6263, 10079, 8546, 10290, 9922, 7444, 1683, 3803, 11169, 616, 9880, 8243,
   11093, 1451, 4986, 7815, 6015, 4448, 11837, 8230, 749, 1787, 8338, 12262, 1419, 4406, 5684, 11715, 1009,
   9236, 4249, 7545, 3504, 11147, 10836, 7305, 3757]

/-- ntt_constants.go:55-63 `inv_mod_q`, entries 3200 to 3327. -/
def inv_mod_q_25 : List Nat :=
  [6878, 9521, 5446, 4159, 3218, 11641, 3078, 456, 10569, 337, 9345, 310, 6837, 11023, 8171, 11299, 10451,
   8129, 3204, 649, 5843, 2148, 10340, 5849, 3381, 7301, 4476, 9589, 8265, 392, 7537, 658, 8635, 4778, 19,
   5531, 1576, 2331, 2873, 9857, 11648, 9813, 11004, 4930, 8300, 10475, 7674, 11744, 8653, 6918, 6205, 1100,
   10426, 34, 3161, 891, 5250, 6369, 8121, 3537, 720, 5762, 9407, 6523, 1442, 7061, 222, 8708, 9307, 203, 1507,
   9723, 6306, 11080, 9350, 9910, 11520, 12274, 4390, 11442, 2514, 2708, 11791, 4971, 11462, 3408, 1926, 10887,
   4571, 2197, 3104, 4410, 7955, 10438, 9241, 731, 1428, 6124, 5988, 10907, 5180, 2807, 11139, 8814, 3924, 264,
   8070, 5994, 11468, 10057, 5647, 4877, 1243, 1710, 11069, 1987, 4903, 1908, 4063, 8616, 8110, 5669, 5634,
   5440, 10910, 8375, 5073, 10878]

/-- ntt_constants.go:55-63 `inv_mod_q`, entries 3328 to 3455. -/
def inv_mod_q_26 : List Nat :=
  [11340, 8077, 1037, 8537, 11946, 4277, 9742, 4794, 4240, 10676, 6763, 3651, 9386, 1589, 3394, 9282, 7699,
   10070, 4029, 12043, 10083, 6583, 2168, 10239, 2460, 3841, 1821, 5498, 1505, 205, 1731, 150, 11232, 10044,
   5450, 1268, 2422, 4733, 7729, 2241, 10388, 11585, 11381, 5800, 4151, 2135, 7463, 2334, 9548, 7944, 9164,
   5819, 6439, 3224, 4989, 959, 9845, 167, 8852, 7594, 8397, 2774, 6130, 5918, 4170, 10699, 3342, 3008, 3644,
   7398, 481, 9205, 2859, 9149, 6997, 7013, 213, 7294, 3857, 826, 3285, 10364, 6995, 9151, 5932, 10053, 10536,
   6391, 572, 11282, 11667, 2534, 7801, 8316, 6755, 7708, 9529, 11270, 3031, 459, 8256, 9361, 9498, 7185, 8762,
   8627, 2344, 415, 7593, 8903, 168, 6400, 10685, 6157, 6373, 5436, 7661, 10723, 2129, 7034, 139, 791, 7092,
   8144, 4126, 936, 8080, 3596]

/-- ntt_constants.go:55-63 `inv_mod_q`, entries 3456 to 3583. -/
def inv_mod_q_27 : List Nat :=
  [10920, 1070, 3799, 6498, 12186, 9278, 1679, 2115, 6070, 837, 2450, 3977, 8586, 4499, 4395, 7697, 9284, 46,
   3923, 8986, 11140, 10695, 12236, 710, 1522, 12056, 10542, 3119, 194, 3089, 8309, 7926, 3717, 4202, 2574,
   5055, 1559, 387, 10548, 3045, 12173, 3848, 6278, 10554, 4884, 2250, 1344, 4743, 3195, 1143, 10582, 11865,
   5027, 10650, 10752, 12282, 10242, 7563, 10446, 2276, 10482, 6894, 10497, 447, 1784, 12111, 11804, 9624,
   10514, 11909, 8626, 8857, 7186, 11011, 9403, 11847, 8333, 10522, 4378, 11406, 4167, 3259, 11570, 2962, 8578,
   2058, 6429, 496, 7320, 4926, 6900, 3721, 5954, 4962, 10527, 11320, 10957, 7969, 5612, 9527, 7710, 2833,
   3934, 4292, 5354, 8134, 6110, 7888, 3886, 10431, 12065, 3583, 1760, 971, 6234, 2581, 11914, 8117, 1592, 55,
   1976, 2879, 11475, 4838, 9306, 9022, 223, 3567]

/-- ntt_constants.go:55-63 `inv_mod_q`, entries 3584 to 3711. -/
def inv_mod_q_28 : List Nat :=
  [10530, 8676, 9592, 11155, 3038, 1849, 3050, 2748, 5580, 7056, 2479, 4208, 3455, 1370, 7620, 7833, 652, 1563,
   8212, 2217, 8262, 8679, 1203, 8095, 5637, 1202, 8684, 8263, 9591, 8704, 10531, 8604, 7283, 5307, 3828, 3939,
   6080, 1646, 6097, 926, 11309, 478, 9981, 11198, 4522, 9861, 10295, 5273, 5302, 6339, 4244, 6917, 9041,
   11745, 11860, 2499, 10368, 7368, 1677, 9280, 3396, 4892, 10115, 6810, 1937, 7921, 5525, 3339, 2904, 4777,
   9057, 659, 10968, 662, 2355, 5723, 7088, 2343, 8856, 8763, 11910, 1529, 10033, 11478, 9726, 4860, 3017,
   4305, 8109, 8970, 4064, 6407, 10681, 4054, 5650, 4309, 9721, 1509, 2353, 664, 7282, 8674, 10532, 8196, 3782,
   8015, 6331, 7145, 2087, 5657, 9764, 11993, 4625, 2267, 7939, 6794, 4620, 1461, 4498, 8821, 3978, 4365, 5667,
   8112, 9462, 11242, 2057, 8749]

/-- ntt_constants.go:55-63 `inv_mod_q`, entries 3712 to 3839. -/
def inv_mod_q_29 : List Nat :=
  [2963, 9906, 6032, 7165, 4362, 3488, 8088, 4071, 5388, 3547, 6336, 9513, 6161, 6321, 10663, 122, 6695, 1104,
   6329, 8017, 7623, 11015, 9587, 4478, 4786, 12118, 8025, 4253, 8185, 7989, 10289, 9124, 10080, 8010, 2549,
   8478, 7197, 2229, 9474, 11945, 8958, 1038, 3159, 36, 4983, 3199, 5412, 85, 2716, 1869, 8209, 10163, 9491,
   4834, 62, 3122, 11503, 10975, 10858, 6283, 3789, 5283, 915, 1517, 9578, 2681, 5559, 9746, 9984, 4092, 3688,
   4275, 11948, 4013, 12091, 1311, 6005, 3772, 7007, 4548, 2019, 10763, 7181, 10916, 11457, 6774, 11218, 3458,
   5792, 10472, 10605, 3170, 1121, 1392, 9961, 11482, 1236, 10621, 7196, 8542, 2550, 2559, 9837, 8314, 7803,
   7347, 10258, 11388, 2609, 2068, 2852, 6699, 11206, 10734, 11001, 6981, 3618, 8351, 1415, 3134, 4897, 420,
   2920, 1301, 3918, 6492, 5978, 2340]

/-- ntt_constants.go:55-63 `inv_mod_q`, entries 3840 to 3967. -/
def inv_mod_q_30 : List Nat :=
  [9828, 3353, 10469, 11432, 1250, 9176, 11749, 115, 3497, 6012, 4440, 1653, 1643, 3148, 6846, 7112, 4994,
   3406, 11464, 5713, 12133, 6423, 2727, 474, 2821, 7809, 7505, 11771, 2996, 5676, 4036, 1727, 2739, 4347,
   1824, 1240, 8329, 2596, 11107, 1489, 2632, 9835, 2561, 7431, 10109, 4400, 3564, 1859, 1514, 10254, 2025,
   2773, 8901, 7595, 6681, 5351, 2924, 6761, 10678, 11687, 7219, 7948, 9886, 9471, 6645, 9570, 6887, 2315, 261,
   11305, 4089, 9703, 600, 5072, 8964, 10911, 9336, 10987, 3836, 5798, 11383, 12032, 12242, 3474, 3304, 12026,
   986, 10136, 6254, 1836, 4162, 1660, 1022, 9455, 3558, 7998, 2095, 1414, 8460, 3619, 6210, 11366, 2840, 187,
   7126, 7931, 12180, 5349, 6683, 10593, 12261, 9104, 1788, 1629, 10850, 10521, 8757, 11848, 1984, 2595, 8413,
   1241, 4879, 6974, 2043, 10324, 220, 7063]

/-- ntt_constants.go:55-63 `inv_mod_q`, entries 3968 to 4095. -/
def inv_mod_q_31 : List Nat :=
  [1979, 7753, 10992, 4543, 6754, 8868, 7802, 8474, 9838, 3467, 3704, 7925, 8803, 3090, 9996, 253, 2662, 1067,
   2636, 10603, 10474, 9045, 4931, 1050, 4947, 2656, 8206, 4002, 11105, 2598, 10706, 7870, 10418, 4082, 3995,
   1185, 488, 7490, 5623, 4723, 11918, 9334, 10913, 144, 340, 3785, 199, 554, 6068, 2117, 4811, 5244, 5903,
   6797, 1543, 391, 9061, 9590, 8678, 8685, 2218, 3346, 247, 5204, 9360, 8861, 460, 6612, 3870, 10563, 1896,
   10217, 6908, 4960, 5956, 5146, 7436, 11092, 9115, 9881, 1017, 9260, 1945, 6777, 10903, 1607, 3677, 6640,
   7414, 2187, 748, 9107, 11838, 5217, 10380, 3318, 3674, 5883, 9318, 7122, 1012, 5545, 4200, 3719, 6902, 4740,
   6603, 576, 2216, 8687, 1564, 10162, 8527, 1870, 4001, 8295, 2657, 2530, 1982, 11850, 983, 3910, 2587, 2304,
   3781, 8602, 10533, 9216]

/-- ntt_constants.go:55-63 `inv_mod_q`, entries 4096 to 4223. -/
def inv_mod_q_32 : List Nat :=
  [12286, 6146, 7374, 7681, 4469, 878, 7229, 7988, 8549, 4254, 7204, 11137, 2809, 4851, 1199, 10334, 523, 5653,
   1855, 6364, 7915, 11298, 9075, 11024, 6058, 4816, 2394, 1997, 2369, 4144, 3452, 11354, 6856, 1881, 5597,
   7208, 5398, 11507, 10984, 1801, 8055, 11181, 4719, 12001, 5910, 2843, 9598, 9919, 4125, 8838, 7093, 4285,
   6977, 10189, 6488, 3372, 10155, 11783, 6109, 8728, 5355, 7630, 6842, 3203, 9072, 10452, 3930, 10630, 9807,
   7099, 882, 3536, 9031, 6370, 3392, 1591, 8716, 11915, 1846, 5051, 9461, 8582, 5668, 8969, 8617, 4306, 526,
   5341, 514, 693, 2604, 2756, 2145, 5172, 1968, 7659, 5438, 5636, 8682, 1204, 11056, 1587, 9388, 6743, 4070,
   8571, 3489, 9716, 4908, 9311, 7097, 9809, 3595, 8835, 937, 1036, 8960, 11341, 11732, 863, 5477, 10354, 5993,
   8983, 265, 12059, 6226, 1714]

/-- ntt_constants.go:55-63 `inv_mod_q`, entries 4224 to 4351. -/
def inv_mod_q_33 : List Nat :=
  [5583, 7609, 11594, 9687, 11449, 6021, 7876, 10616, 3110, 11180, 8153, 1802, 9884, 7950, 7171, 7494, 3336,
   1614, 9505, 5949, 3634, 5373, 11030, 2746, 3052, 3193, 4745, 9667, 4263, 3739, 4105, 5086, 6927, 9255, 1723,
   12012, 2628, 6045, 2621, 4252, 8551, 12119, 5891, 12217, 10213, 688, 7831, 7622, 8558, 6330, 8600, 3783,
   342, 3333, 2548, 8544, 10081, 12045, 11936, 5552, 5195, 4147, 5313, 10248, 4766, 7080, 2094, 8354, 3559,
   6936, 9367, 10990, 7755, 592, 975, 10288, 8548, 8186, 7230, 10961, 9271, 3671, 4181, 11764, 6638, 3679,
   2569, 1622, 9231, 7052, 7603, 843, 10965, 10971, 2735, 5611, 8736, 10958, 2505, 6018, 9842, 7291, 1088,
   10744, 11900, 1743, 4856, 2182, 11333, 10437, 8997, 4411, 1675, 7370, 7170, 8052, 9885, 8388, 7220, 7855,
   9163, 8912, 9549, 3873, 10466, 6793, 8591, 2268]

/-- ntt_constants.go:55-63 `inv_mod_q`, entries 4352 to 4479. -/
def inv_mod_q_34 : List Nat :=
  [7226, 5155, 6534, 2613, 6531, 12179, 8344, 7127, 10347, 5123, 3716, 8802, 8310, 3705, 6623, 5524, 8640,
   1938, 2365, 4847, 2437, 11297, 8173, 6365, 5771, 1766, 3534, 884, 2556, 6864, 760, 5330, 356, 11395, 10790,
   7737, 9452, 14, 3278, 848, 10003, 2803, 7789, 3470, 4593, 6199, 11515, 2179, 3885, 8726, 6111, 6051, 466,
   10869, 3188, 6606, 12197, 9184, 3291, 4335, 10615, 8059, 6022, 11582, 10149, 5097, 10417, 8290, 10707,
   10510, 3132, 1417, 12264, 11778, 6772, 11459, 7324, 10208, 5856, 11371, 2038, 9162, 7946, 7221, 2014, 11796,
   4472, 6276, 3850, 10637, 9990, 10552, 6280, 6168, 9782, 6273, 3180, 453, 6741, 9390, 11955, 10371, 5841,
   651, 8690, 7621, 8019, 689, 1408, 7807, 2823, 9753, 4490, 11989, 11879, 1293, 4607, 4100, 11412, 492, 4438,
   6014, 9111, 4987, 3226, 2701, 3735, 7504]

/-- ntt_constants.go:55-63 `inv_mod_q`, entries 4480 to 4607. -/
def inv_mod_q_35 : List Nat :=
  [8424, 2822, 7828, 1409, 951, 7346, 8473, 8315, 8869, 2535, 4464, 301, 11761, 6950, 6675, 2764, 41, 10827,
   3702, 3469, 7895, 2804, 5473, 2347, 6873, 1694, 30, 4758, 2418, 5132, 11883, 7162, 10456, 11532, 765, 5215,
   11840, 10507, 12221, 10089, 10742, 1090, 3628, 2429, 4952, 4864, 7627, 1227, 2733, 10973, 11505, 5400, 9976,
   591, 7993, 10991, 8320, 1980, 2532, 11669, 11615, 11377, 1296, 3971, 5536, 4775, 2906, 5281, 3791, 10271,
   921, 9451, 7902, 10791, 904, 259, 2317, 2392, 4818, 2240, 8923, 4734, 7486, 12052, 5781, 4781, 1160, 2933,
   11490, 78, 1401, 3288, 10093, 6557, 6569, 10586, 427, 9792, 2832, 8733, 9528, 8866, 6756, 10715, 126, 5323,
   10298, 5318, 7690, 10069, 8945, 9283, 8818, 4396, 6091, 6087, 11420, 270, 10068, 7701, 5319, 11664, 11325,
   6573, 702, 910, 10995, 4468]

/-- ntt_constants.go:55-63 `inv_mod_q`, entries 4608 to 4735. -/
def inv_mod_q_36 : List Nat :=
  [8190, 7375, 10399, 11119, 11018, 9300, 11743, 9043, 10476, 10330, 6384, 5494, 3700, 10829, 5299, 12079, 295,
   3696, 10023, 10722, 8845, 5437, 8098, 1969, 12159, 10480, 2278, 2654, 4949, 644, 363, 6922, 7286, 6686,
   6944, 2795, 11556, 10863, 11350, 11255, 9304, 4840, 9226, 6595, 9296, 7160, 11885, 2471, 10386, 2243, 6841,
   8132, 5356, 1226, 7763, 4865, 10853, 11014, 8557, 8018, 7832, 8691, 1371, 834, 11613, 11671, 2411, 6548,
   11971, 1164, 3155, 11593, 8064, 5584, 1231, 10704, 2600, 842, 7975, 7053, 1717, 9393, 12082, 10560, 9552,
   6680, 8396, 8902, 8853, 416, 2948, 6831, 12004, 2554, 886, 763, 11534, 5135, 1841, 10015, 5813, 2641, 1829,
   10403, 9428, 3142, 9424, 5489, 11661, 99, 1107, 4138, 289, 6315, 6665, 4007, 372, 10445, 8776, 10243, 5175,
   7297, 2185, 7416, 9866, 3365, 4561, 4804]

/-- ntt_constants.go:55-63 `inv_mod_q`, entries 4736 to 4863. -/
def inv_mod_q_37 : List Nat :=
  [11290, 7500, 2062, 5386, 4073, 5687, 10944, 3503, 9095, 4250, 2623, 3003, 12245, 6860, 12007, 657, 9059,
   393, 11635, 10728, 11904, 12258, 4507, 9872, 10820, 1399, 80, 1063, 9160, 2040, 4288, 5210, 1482, 10931,
   11158, 6102, 9773, 9583, 6752, 4545, 9384, 3653, 3233, 12271, 6507, 4565, 11130, 11770, 8423, 7810, 3736,
   172, 2061, 7552, 11291, 5030, 11076, 2546, 3335, 8050, 7172, 4870, 5622, 8284, 489, 7249, 12051, 7727, 4735,
   1000, 10338, 2150, 10119, 2052, 10171, 4018, 7046, 2132, 508, 6230, 4121, 9896, 4558, 10050, 6453, 1351,
   2337, 637, 2871, 2333, 8915, 2136, 7379, 2980, 12088, 11737, 11554, 2797, 3765, 12228, 2254, 813, 3579,
   2984, 4649, 3064, 5510, 1388, 1682, 9121, 9923, 4371, 9853, 9595, 9479, 4109, 11091, 8245, 5147, 10545,
   4330, 10108, 8406, 2562, 3669, 9273, 11968, 7336]

/-- ntt_constants.go:55-63 `inv_mod_q`, entries 4864 to 4991. -/
def inv_mod_q_38 : List Nat :=
  [4525, 4663, 1437, 1770, 11721, 5116, 4797, 6668, 9865, 7558, 2186, 8233, 6641, 3311, 11047, 3962, 5316,
   10300, 7388, 1734, 3500, 10040, 83, 5414, 10597, 9979, 480, 8892, 3645, 2175, 10127, 5011, 9154, 3832,
   11870, 148, 1733, 7407, 10301, 3316, 10382, 5101, 1280, 2572, 4204, 2979, 7461, 2137, 11606, 10398, 7680,
   8191, 6147, 7023, 7169, 7952, 1676, 8648, 10369, 11957, 7315, 4968, 3545, 5390, 6541, 1284, 3243, 3990,
   11240, 9464, 2538, 10262, 9518, 804, 1207, 2941, 6346, 10257, 8472, 7804, 952, 2090, 11238, 3992, 9634,
   4636, 11646, 9859, 4524, 7426, 11969, 6550, 2616, 1128, 1797, 5380, 4041, 6334, 3549, 1763, 10207, 7861,
   11460, 4973, 4925, 8745, 497, 3283, 828, 4967, 7365, 11958, 2645, 6805, 2639, 5815, 9503, 1616, 12252, 3756,
   9091, 10837, 3177, 4475, 9064, 3382, 11331, 2184]

/-- ntt_constants.go:55-63 `inv_mod_q`, entries 4992 to 5119. -/
def inv_mod_q_39 : List Nat :=
  [7560, 5176, 3856, 8884, 214, 1087, 7964, 9843, 961, 10591, 6685, 7649, 6923, 5306, 8673, 8605, 665, 7105,
   2161, 4895, 3136, 6359, 10066, 272, 9229, 1624, 12169, 2686, 9770, 10167, 6722, 2975, 5555, 9638, 423, 3508,
   1640, 997, 4791, 1214, 9903, 10028, 9196, 6690, 5083, 1154, 9779, 12050, 7488, 490, 11414, 11826, 134, 3096,
   5711, 11466, 5996, 9249, 10442, 4175, 2829, 10375, 9714, 3491, 10731, 2503, 10960, 7987, 8187, 879, 5154,
   7937, 2269, 1349, 6455, 2013, 7854, 7947, 8389, 11688, 3913, 3326, 1412, 2097, 2467, 5543, 1014, 1805, 5397,
   8158, 5598, 5036, 11136, 8183, 4255, 5363, 2780, 11963, 606, 2228, 8541, 8479, 10622, 11604, 2139, 4417,
   1873, 10185, 1906, 4905, 11010, 8761, 8858, 9499, 142, 10915, 8495, 10764, 5702, 5220, 2190, 10770, 2713,
   567, 4869, 7493, 8051, 7951]

/-- ntt_constants.go:55-63 `inv_mod_q`, entries 5120 to 5247. -/
def inv_mod_q_40 : List Nat :=
  [7371, 7024, 1941, 4361, 8574, 6033, 10455, 7778, 11884, 7636, 9297, 9870, 4509, 407, 754, 4705, 10449,
   11301, 2155, 6117, 5334, 11493, 5504, 2086, 8598, 6332, 4043, 4854, 1745, 9172, 9762, 5659, 5188, 11409,
   5062, 4353, 5756, 112, 436, 929, 3027, 10346, 7930, 8345, 188, 9234, 1011, 8222, 9319, 9612, 6444, 10143,
   4189, 10322, 2045, 4728, 4993, 8434, 6847, 1381, 3300, 9483, 6818, 2160, 7280, 666, 609, 6629, 5152, 881,
   8124, 9808, 8083, 9312, 6736, 4284, 8143, 8839, 792, 9826, 2342, 8629, 5724, 12041, 4031, 2930, 11942,
   11260, 2093, 8000, 4767, 10808, 11551, 6504, 11523, 4515, 450, 4061, 1910, 6586, 5111, 10100, 11543, 7028,
   2877, 1978, 8322, 221, 9024, 1443, 2869, 639, 2478, 8696, 5581, 1716, 7602, 7976, 9232, 190, 9266, 7032,
   2131, 7477, 4019, 6387, 2373, 89]

/-- ntt_constants.go:55-63 `inv_mod_q`, entries 5248 to 5375. -/
def inv_mod_q_41 : List Nat :=
  [10788, 11397, 3256, 5921, 11931, 896, 138, 8842, 2130, 7048, 9267, 11151, 2876, 7066, 11544, 2363, 1940,
   7168, 7372, 6148, 6828, 6913, 11755, 6964, 1993, 3631, 6988, 212, 8886, 6998, 2489, 5573, 9382, 4547, 8499,
   3773, 11375, 11617, 2913, 11164, 165, 9847, 2488, 7012, 8887, 9150, 8879, 10365, 11210, 58, 1459, 4622, 211,
   7015, 3632, 5951, 2778, 5365, 5005, 3617, 8462, 11002, 9815, 10188, 8141, 4286, 2042, 8326, 4880, 1990,
   4587, 4600, 626, 12192, 12162, 4585, 1992, 7018, 11756, 6261, 11401, 11528, 4383, 11934, 12047, 6171, 5140,
   797, 12213, 6719, 6674, 7796, 11762, 4183, 11776, 12266, 2794, 7647, 6687, 2296, 108, 3947, 5607, 3895,
   9366, 7996, 3560, 4156, 4660, 11064, 12039, 5726, 1355, 9254, 8033, 5087, 9510, 5305, 7285, 7650, 364, 6196,
   6204, 9040, 8654, 4245, 1260, 11754]

/-- ntt_constants.go:55-63 `inv_mod_q`, entries 5376 to 5503. -/
def inv_mod_q_42 : List Nat :=
  [7020, 6829, 2950, 10491, 4959, 8249, 10218, 11821, 1422, 10226, 4739, 8217, 3720, 8743, 4927, 5749, 5577,
   6075, 10496, 8772, 10483, 5080, 4132, 783, 4531, 2314, 8383, 9571, 10422, 2958, 5508, 3066, 11705, 802,
   9520, 9089, 3758, 12205, 4887, 1693, 7785, 2348, 6394, 5937, 1340, 11117, 10401, 1831, 759, 7908, 2557,
   2552, 12006, 7540, 12246, 1464, 1880, 8161, 11355, 5915, 3443, 4629, 4192, 6654, 3323, 1380, 7111, 8435,
   3149, 2767, 3202, 8131, 7631, 2244, 3362, 11022, 9077, 311, 1931, 6648, 5908, 12003, 7590, 2949, 6912, 7021,
   6149, 1118, 11675, 9323, 2264, 1569, 6803, 2647, 2159, 7107, 9484, 4502, 9943, 11876, 11425, 4216, 1936,
   8642, 10116, 6038, 10601, 2638, 7312, 2646, 6821, 1570, 2864, 4715, 629, 1542, 8268, 5904, 4619, 8590, 7940,
   10467, 3355, 10785, 3108, 10618, 6484, 795]

/-- ntt_constants.go:55-63 `inv_mod_q`, entries 5504 to 5631. -/
def inv_mod_q_43 : List Nat :=
  [5142, 10204, 5774, 9330, 5406, 9224, 4842, 10902, 8238, 1946, 11217, 8492, 11458, 7863, 11779, 6061, 10577,
   1222, 9999, 5665, 4367, 3650, 8951, 10677, 8392, 2925, 12269, 3235, 10714, 7707, 8867, 8317, 4544, 7515,
   9584, 11122, 6546, 2413, 9821, 5077, 11276, 4069, 8090, 9389, 7839, 454, 3080, 352, 4283, 7095, 9313, 5024,
   2652, 2280, 9607, 3778, 2544, 11078, 6308, 11655, 5864, 9564, 2974, 7267, 10168, 6673, 6952, 12214, 9799,
   5279, 2908, 6042, 6539, 5392, 6215, 9540, 3592, 5234, 10574, 4224, 4681, 11059, 11, 1025, 2672, 11205, 8466,
   2853, 367, 1103, 8561, 123, 10407, 4130, 5082, 7254, 9197, 2295, 6943, 7648, 7287, 10592, 8341, 5350, 8395,
   7596, 9553, 4319, 3554, 2763, 7795, 6951, 6720, 10169, 2054, 9892, 9864, 7418, 4798, 4006, 7567, 6316, 5629,
   1876, 5972, 5626, 10414, 2106]

/-- ntt_constants.go:55-63 `inv_mod_q`, entries 5632 to 5759. -/
def inv_mod_q_44 : List Nat :=
  [1115, 6619, 3322, 6850, 4193, 3608, 11088, 1957, 5907, 6834, 1932, 9569, 8385, 9472, 2231, 3310, 7413, 8234,
   3678, 7981, 11765, 4113, 10435, 11335, 10201, 3693, 2526, 5151, 7102, 610, 1248, 11434, 2289, 5523, 7923,
   3706, 4178, 3321, 6656, 1116, 6151, 6555, 10095, 9292, 3869, 8254, 461, 12157, 1971, 10327, 12196, 7882,
   3189, 575, 8215, 4741, 1346, 9699, 1406, 691, 516, 9295, 7638, 9227, 274, 11575, 3000, 5779, 12054, 1524,
   5110, 7070, 1911, 2167, 8940, 10084, 12106, 10737, 9192, 5046, 824, 3859, 157, 701, 7686, 11326, 1700,
   10585, 7715, 6558, 9933, 3659, 5202, 249, 5359, 10935, 2744, 11032, 9932, 6568, 7716, 10094, 6616, 6152,
   11567, 6529, 2615, 7334, 11970, 7614, 2412, 6749, 11123, 9136, 1619, 1283, 7361, 5391, 6713, 6043, 2630,
   1491, 2612, 7935, 5156, 12178, 7933, 2614]

/-- ntt_constants.go:55-63 `inv_mod_q`, entries 5760 to 5887. -/
def inv_mod_q_45 : List Nat :=
  [6552, 11568, 3261, 2883, 10658, 1441, 9026, 9408, 816, 11929, 5923, 4376, 10524, 2084, 5506, 2960, 11572,
   9664, 9288, 5699, 236, 4564, 7509, 12272, 11522, 7076, 11552, 11739, 6291, 3042, 12185, 8830, 3800, 1818,
   859, 6417, 5977, 8452, 3919, 907, 3371, 8139, 10190, 9824, 794, 6787, 10619, 1238, 1826, 6465, 9901, 1216,
   2273, 4708, 9649, 4979, 2787, 11501, 3124, 3379, 5851, 6135, 724, 9900, 6480, 1827, 2643, 11960, 563, 2376,
   1309, 12093, 9202, 2012, 7223, 1350, 7469, 10051, 5934, 2494, 1917, 4454, 11639, 3220, 10142, 7119, 9613,
   11215, 1948, 3223, 8909, 5820, 6155, 10687, 10893, 2080, 4430, 919, 10273, 495, 8747, 2059, 174, 633, 5564,
   2726, 8428, 12134, 400, 1472, 11998, 5976, 6494, 860, 6224, 12061, 11099, 10750, 10652, 324, 11685, 10680,
   8614, 4065, 2972, 9566, 6299, 1384]

/-- ntt_constants.go:55-63 `inv_mod_q`, entries 5888 to 6015. -/
def inv_mod_q_46 : List Nat :=
  [10684, 8850, 169, 4266, 73, 2492, 5936, 6871, 2349, 571, 8874, 10537, 2689, 2372, 7044, 4020, 5493, 7671,
   10331, 5640, 5456, 287, 4140, 9447, 12104, 10086, 933, 5435, 8847, 6158, 3391, 8120, 9032, 5251, 359, 5770,
   7914, 8174, 1856, 226, 1192, 10065, 7276, 3137, 3412, 2237, 5838, 9796, 5894, 5419, 10950, 598, 9705, 2023,
   10256, 7349, 2942, 11981, 1362, 560, 2783, 4243, 8656, 5303, 9512, 8567, 3548, 7328, 4042, 7144, 8599, 8016,
   8559, 1105, 101, 3013, 10655, 445, 10499, 10662, 8564, 6162, 9965, 10412, 5628, 6664, 7568, 290, 5871, 5796,
   3838, 9950, 11654, 6727, 11079, 9017, 9724, 11480, 9963, 6164, 3298, 1383, 6403, 9567, 1934, 4218, 3307,
   822, 5048, 3041, 6501, 11740, 2849, 471, 9400, 10856, 10977, 3788, 8518, 10859, 6167, 7845, 10553, 8791,
   3849, 7850, 4473, 3179]

/-- ntt_constants.go:55-63 `inv_mod_q`, entries 6016 to 6143. -/
def inv_mod_q_47 : List Nat :=
  [7842, 9783, 4323, 2448, 839, 4229, 4414, 708, 12238, 10078, 9126, 11400, 6962, 11757, 12128, 2382, 3714,
   5125, 1835, 8361, 10137, 2172, 5481, 1689, 11701, 9380, 5575, 5751, 9660, 4261, 9669, 6176, 6240, 6241,
   6177, 4403, 11824, 11416, 2580, 8719, 972, 1264, 4120, 7474, 509, 5519, 1713, 8067, 12060, 6415, 861, 11734,
   4016, 10173, 3464, 11453, 678, 9539, 6711, 5393, 1794, 6190, 11365, 8349, 3620, 10644, 9143, 1099, 9039,
   6919, 6197, 4595, 870, 11514, 7892, 4594, 6203, 6920, 365, 2855, 10642, 3622, 11364, 6212, 1795, 1130, 4771,
   2517, 2124, 2800, 10693, 11142, 505, 4154, 3562, 4402, 6239, 6242, 9670, 2916, 10133, 5139, 6956, 12048,
   9781, 7844, 6281, 10860, 3297, 6302, 9964, 6320, 8565, 9514, 3390, 6372, 8848, 10686, 6437, 5821, 11566,
   6554, 6617, 1117, 6827, 7022, 7373, 8192]

/-- ntt_constants.go:55-63 `inv_mod_q`, entries 6144 to 6271. -/
def inv_mod_q_48 : List Nat :=
  [12287, 2, 4097, 4916, 5267, 5462, 11172, 5672, 5735, 723, 6468, 5852, 1603, 3441, 5917, 8899, 2775, 3724,
   5969, 2325, 5987, 8992, 1429, 6008, 4445, 2508, 241, 5333, 7150, 2156, 9373, 2619, 6047, 6050, 7887, 8727,
   8135, 11784, 1147, 1596, 9489, 10165, 9772, 7518, 11159, 10494, 6077, 925, 8667, 1647, 9434, 11924, 5369,
   6086, 7695, 4397, 775, 11419, 7694, 6092, 5370, 3250, 11190, 3146, 1645, 8669, 3940, 924, 6099, 10495, 6896,
   5578, 2750, 11611, 836, 8825, 2116, 8273, 555, 11428, 5874, 229, 4222, 10576, 6770, 11780, 4815, 8169,
   11025, 11317, 3570, 9709, 873, 465, 7886, 6112, 6048, 6049, 6113, 2620, 8028, 2629, 6538, 6714, 2909, 588,
   10600, 6808, 10117, 2152, 3928, 10454, 7164, 8575, 9907, 161, 532, 5327, 889, 3163, 2211, 51, 11581, 7875,
   8060, 11450, 9841, 7966]

/-- ntt_constants.go:55-63 `inv_mod_q`, entries 6272 to 6399. -/
def inv_mod_q_49 : List Nat :=
  [2506, 4447, 9110, 7816, 4439, 8440, 3498, 1736, 4444, 6122, 1430, 3771, 8501, 1312, 1433, 2889, 11818, 9440,
   549, 5788, 9248, 7241, 11467, 8982, 8071, 10355, 2722, 5886, 10906, 8991, 6125, 2326, 809, 2565, 3272, 1210,
   5562, 635, 2339, 8451, 6493, 6418, 11999, 4721, 5625, 6661, 1877, 2324, 6127, 3725, 1627, 1790, 11844, 1634,
   9276, 12188, 11184, 3730, 4273, 3690, 5145, 8247, 4961, 8741, 3722, 2777, 6986, 3633, 8046, 9506, 11729,
   10927, 308, 9347, 4940, 2033, 10266, 2584, 11691, 1339, 6870, 6395, 2493, 6451, 10052, 8877, 9152, 5013,
   2224, 11097, 12063, 10433, 4115, 4375, 6519, 11930, 7038, 3257, 4169, 8898, 6131, 3442, 6854, 11356, 2203,
   185, 2842, 8149, 12002, 6833, 6649, 1958, 4618, 6796, 8269, 5245, 9917, 9600, 1752, 3415, 11718, 9940, 5418,
   6353, 9797, 12216, 8023, 12120]

/-- ntt_constants.go:55-63 `inv_mod_q`, entries 6400 to 6527. -/
def inv_mod_q_50 : List Nat :=
  [3439, 1605, 10905, 5990, 2723, 9317, 8224, 3675, 1609, 604, 11965, 1637, 1539, 1190, 228, 6065, 11429, 5795,
   6313, 291, 10817, 11889, 155, 3861, 9563, 6725, 11656, 12115, 10230, 3542, 11794, 2016, 11370, 7859, 10209,
   1396, 1602, 6134, 6469, 3380, 9066, 10341, 1074, 2676, 5170, 2147, 9069, 650, 7835, 10372, 9795, 6355, 2238,
   4820, 10939, 5066, 10277, 3087, 196, 10980, 9913, 11726, 329, 9646, 10462, 5809, 2389, 11565, 6154, 6438,
   8910, 9165, 788, 9502, 7310, 2640, 7581, 10016, 11073, 2388, 5824, 10463, 11051, 1670, 5502, 11495, 2465,
   2099, 4150, 8918, 11382, 8370, 3837, 6312, 5872, 11430, 10471, 8489, 3459, 104, 9247, 5998, 550, 737, 5213,
   767, 17, 4780, 7725, 12053, 6590, 3001, 2625, 717, 9329, 6783, 10205, 1765, 7913, 6366, 360, 11473, 2881,
   3263, 10848, 1631, 9406, 9028]

/-- ntt_constants.go:55-63 `inv_mod_q`, entries 6528 to 6655. -/
def inv_mod_q_51 : List Nat :=
  [721, 5737, 9675, 4356, 111, 7133, 4354, 9677, 10798, 9659, 6246, 5576, 6898, 4928, 11006, 10670, 3153, 1166,
   5540, 9877, 4675, 319, 4955, 9674, 5760, 722, 6137, 5673, 2195, 4573, 5721, 2357, 1257, 9545, 1354, 6930,
   12040, 7087, 8630, 2356, 5731, 4574, 1704, 10589, 963, 4603, 11588, 12132, 8430, 11465, 7243, 3097, 1552,
   183, 2205, 3349, 10122, 10378, 5219, 7179, 10765, 235, 6510, 9289, 714, 12015, 3062, 4651, 2994, 11773,
   11598, 10883, 2590, 10943, 7548, 4074, 11714, 9100, 4407, 93, 1962, 10318, 132, 11828, 4035, 8420, 2997,
   2194, 5734, 6138, 11173, 5633, 8968, 8111, 8583, 4366, 6766, 10000, 855, 11041, 11679, 5187, 7138, 9763,
   8596, 2088, 954, 1854, 8176, 524, 4308, 8611, 4055, 4876, 8979, 10058, 2817, 3904, 2720, 10357, 5455, 6382,
   10332, 1201, 8681, 8096, 5439, 8967]

/-- ntt_constants.go:55-63 `inv_mod_q`, entries 6656 to 6783. -/
def inv_mod_q_52 : List Nat :=
  [5670, 11174, 10183, 1875, 6663, 6317, 10413, 6660, 5973, 4722, 8283, 7491, 4871, 2425, 2397, 10235, 2120,
   5569, 5338, 4494, 9526, 8735, 7970, 2736, 4693, 3894, 6939, 3948, 1697, 5002, 4641, 5346, 9994, 3092, 5035,
   7207, 8159, 1882, 12166, 3728, 11186, 11922, 9436, 3823, 1084, 9617, 11264, 12278, 1230, 7608, 8065, 1715,
   7055, 8697, 2749, 6074, 6897, 5750, 6247, 9381, 7010, 2490, 75, 5337, 5616, 2121, 5022, 9315, 2725, 6425,
   634, 5981, 1211, 9745, 8511, 2682, 10009, 9637, 7265, 2976, 5194, 8006, 11937, 9209, 11835, 4450, 2900,
   4199, 8220, 1013, 7212, 2468, 9876, 5743, 1167, 2705, 4774, 7745, 3972, 3422, 4582, 1575, 9054, 20, 9364,
   3897, 1612, 3338, 8639, 7922, 6624, 2290, 11067, 1712, 6228, 510, 4426, 831, 3797, 1072, 10343, 4051, 1387,
   7447, 3065, 6883, 2959, 6515]

/-- ntt_constants.go:55-63 `inv_mod_q`, entries 6784 to 6911. -/
def inv_mod_q_53 : List Nat :=
  [2085, 7147, 11494, 5805, 1671, 9181, 1504, 8934, 1822, 4349, 3699, 7670, 6385, 4021, 10747, 11660, 7574,
   9425, 10719, 5468, 9643, 4977, 9651, 1688, 6251, 2173, 3647, 10353, 8073, 864, 413, 2346, 7787, 2805, 5182,
   10130, 9642, 5486, 10720, 10025, 2966, 614, 11171, 6140, 5268, 5377, 9340, 4699, 286, 6381, 5641, 10358,
   11978, 3212, 1267, 8927, 10045, 4658, 4158, 9087, 9522, 9140, 3854, 5178, 10909, 8966, 5635, 8097, 7660,
   8846, 6374, 934, 4128, 10409, 10825, 43, 4749, 283, 9737, 9732, 4381, 11530, 10458, 1888, 1172, 10949, 6352,
   5895, 9941, 4504, 10596, 7402, 84, 8531, 3200, 2769, 11487, 584, 9223, 6781, 9331, 1867, 2718, 3906, 9975,
   7758, 11506, 8157, 7209, 1806, 3517, 1793, 6214, 6712, 6540, 7362, 3546, 8569, 4072, 7550, 2063, 10867, 468,
   2071, 4040, 7330, 1798, 9339]

/-- ntt_constants.go:55-63 `inv_mod_q`, entries 6912 to 7039. -/
def inv_mod_q_54 : List Nat :=
  [5460, 5269, 535, 11029, 8044, 3635, 3249, 6085, 6093, 11925, 4639, 5004, 6984, 2779, 7202, 4256, 3035,
   10934, 6563, 250, 1225, 7629, 8133, 8729, 4293, 2923, 8394, 6682, 8342, 12181, 9993, 5602, 4642, 9495, 23,
   513, 8106, 527, 4493, 5615, 5570, 76, 11492, 7149, 6118, 242, 355, 7906, 761, 888, 6028, 533, 5271, 10297,
   7704, 127, 97, 11663, 7689, 7702, 10299, 7409, 3963, 10247, 8003, 4148, 2101, 2474, 1287, 3827, 8672, 7284,
   6924, 9511, 6338, 8657, 5274, 12078, 7667, 10830, 12231, 1079, 1924, 3410, 3139, 3402, 5277, 9801, 2442,
   12124, 1125, 9376, 672, 914, 8516, 3790, 7742, 2907, 6716, 9800, 5291, 3403, 12077, 5301, 8658, 10296, 5325,
   534, 5376, 5461, 6141, 4917, 5121, 10349, 9926, 745, 5223, 9413, 1138, 3022, 5241, 10159, 3447, 12151,
   11393, 358, 6368, 9033]

/-- ntt_constants.go:55-63 `inv_mod_q`, entries 7040 to 7167. -/
def inv_mod_q_55 : List Nat :=
  [892, 1501, 12200, 9916, 5902, 8270, 4812, 10158, 5257, 3023, 12099, 3057, 4313, 4687, 10573, 6708, 3593,
   9811, 11650, 9420, 10846, 3265, 12068, 3967, 10311, 9412, 5261, 746, 2189, 7178, 5703, 10379, 8228, 11839,
   7774, 766, 5785, 738, 1481, 7522, 4289, 10196, 1029, 347, 9359, 8258, 248, 6565, 3660, 9947, 2463, 11497,
   3450, 4146, 8005, 5553, 2977, 4206, 2481, 4165, 11408, 7137, 5660, 11680, 11623, 5009, 10129, 5471, 2806,
   8989, 10908, 5442, 3855, 7296, 7561, 10244, 1967, 8100, 2146, 5845, 2677, 2970, 4067, 11278, 3055, 12101,
   3944, 4359, 1943, 9262, 11360, 11853, 12177, 6533, 7936, 7227, 880, 7101, 6630, 2527, 3117, 10544, 7435,
   8246, 5957, 3691, 10203, 6785, 796, 6955, 6172, 10134, 988, 1840, 7584, 11535, 11882, 7780, 2419, 2992,
   4653, 405, 4511, 1834, 6256, 3715, 7928, 10348]

/-- ntt_constants.go:55-63 `inv_mod_q`, entries 7168 to 7295. -/
def inv_mod_q_56 : List Nat :=
  [5265, 4918, 4338, 4238, 4796, 7420, 11722, 9576, 1519, 10099, 7069, 6587, 1525, 3794, 1374, 12147, 2790,
   3431, 3528, 1279, 7384, 10383, 2104, 10416, 7872, 10150, 685, 1667, 3810, 3748, 10061, 11683, 326, 9509,
   6926, 8034, 4106, 1153, 7253, 6691, 4131, 6892, 10484, 11275, 6746, 9822, 10192, 10877, 8963, 8376, 601,
   3900, 4342, 4435, 10276, 5834, 10940, 10020, 4352, 7135, 11410, 4102, 4302, 1329, 9786, 1558, 8798, 2575,
   1914, 9460, 8114, 1847, 3040, 6293, 823, 6578, 9193, 12155, 463, 875, 11799, 4801, 239, 2510, 11135, 7206,
   5599, 3093, 2261, 2386, 11075, 7498, 11292, 10649, 8781, 11866, 2651, 6734, 9314, 5567, 2122, 2519, 9603,
   120, 10665, 3060, 12017, 2223, 5930, 9153, 7394, 10128, 5184, 11624, 3684, 3616, 6983, 5366, 4640, 5604,
   1698, 11328, 2446, 4325, 11202, 12075, 3405, 8433]

/-- ntt_constants.go:55-63 `inv_mod_q`, entries 7296 to 7423. -/
def inv_mod_q_57 : List Nat :=
  [7113, 4729, 10105, 958, 8907, 3225, 7814, 9112, 1452, 3198, 8533, 37, 10673, 2786, 6474, 9650, 5484, 9644,
   331, 4924, 7322, 11461, 9006, 11792, 3544, 7364, 7316, 829, 4428, 2082, 10526, 8740, 5955, 8248, 6909,
   10492, 11161, 9673, 5739, 320, 4863, 7765, 2430, 643, 7653, 2655, 8297, 1051, 10199, 11337, 4485, 3817,
   2032, 5943, 9348, 11082, 11485, 2771, 2027, 9751, 2825, 1049, 8299, 9046, 11005, 5748, 6899, 8744, 7321,
   4974, 332, 1920, 3641, 10613, 4337, 5120, 5266, 6142, 4098, 4609, 1891, 683, 10152, 4828, 9310, 8085, 9717,
   11009, 7188, 1907, 8973, 1988, 4882, 10556, 12141, 419, 8457, 3135, 7278, 2162, 10114, 8644, 3397, 11809,
   2310, 1692, 6875, 12206, 2249, 8789, 10555, 4901, 1989, 6973, 8327, 1242, 8978, 5648, 4056, 10103, 4731,
   2424, 5621, 7492, 7173, 568, 10519, 10852]

/-- ntt_constants.go:55-63 `inv_mod_q`, entries 7424 to 7551. -/
def inv_mod_q_58 : List Nat :=
  [7626, 7764, 4953, 321, 3016, 8620, 9727, 3883, 2181, 7959, 1744, 7142, 4044, 1198, 8180, 2810, 2694, 2436,
   7918, 2366, 3168, 10607, 10901, 6779, 9225, 7640, 9305, 8710, 11476, 10035, 61, 8524, 9492, 735, 552, 201,
   9309, 4910, 10153, 3374, 9956, 9418, 11652, 9952, 10938, 5836, 2239, 7731, 2393, 8168, 6059, 11781, 10157,
   5243, 8271, 2118, 10237, 2170, 10139, 1951, 11289, 7554, 4562, 238, 5040, 11800, 4005, 6667, 7419, 5117,
   4239, 8954, 9743, 1213, 7259, 998, 4737, 10228, 12117, 8553, 4479, 3866, 519, 1159, 7724, 5782, 18, 9056,
   8636, 2905, 7744, 5537, 2706, 2516, 6187, 1131, 1358, 10807, 7079, 8001, 10249, 3129, 11226, 12209, 10890,
   1469, 2417, 7782, 31, 385, 1561, 654, 11896, 3230, 11632, 282, 5429, 44, 9286, 9666, 8039, 3194, 8786, 1345,
   6602, 8216, 6903, 10227]

/-- ntt_constants.go:55-63 `inv_mod_q`, entries 7552 to 7679. -/
def inv_mod_q_59 : List Nat :=
  [4789, 999, 7485, 7728, 8924, 2423, 4873, 10104, 4992, 7114, 2046, 3513, 1844, 11917, 8282, 5624, 5974,
   12000, 8151, 11182, 12190, 628, 6800, 2865, 9147, 2861, 1886, 10460, 9648, 6476, 2274, 10448, 7154, 755,
   11526, 11403, 9735, 285, 5458, 9341, 11873, 3436, 3387, 3893, 5609, 2737, 1729, 207, 2896, 10572, 5236,
   4314, 11447, 9689, 1585, 11058, 6705, 4225, 696, 9134, 11125, 318, 5741, 9878, 618, 676, 11455, 10918, 3598,
   4457, 4271, 3732, 1275, 1436, 7424, 4526, 11063, 6933, 4157, 5448, 10046, 1903, 9818, 404, 5129, 2993, 5694,
   3063, 7449, 2985, 1034, 939, 1426, 733, 9494, 5345, 5603, 5003, 5367, 11926, 11645, 7340, 9635, 10011, 1809,
   130, 10320, 4191, 6852, 3444, 1567, 2266, 8593, 11994, 210, 6990, 1460, 8589, 6795, 5905, 1959, 1813, 3246,
   546, 2989, 1271, 1170, 1890]

/-- ntt_constants.go:55-63 `inv_mod_q`, entries 7680 to 7807. -/
def inv_mod_q_60 : List Nat :=
  [4914, 4099, 7821, 1294, 11379, 11587, 5716, 964, 625, 6970, 4588, 2221, 12019, 869, 6202, 6198, 7893, 3471,
   3006, 3344, 2220, 4599, 6971, 1991, 6966, 12163, 1574, 5533, 3423, 2761, 3556, 9457, 2497, 11862, 1703,
   5720, 5732, 2196, 9001, 10888, 12211, 799, 9356, 11129, 7508, 6508, 237, 4803, 7555, 3366, 10049, 7471,
   9897, 9972, 12030, 11385, 1498, 4387, 2838, 11368, 2018, 8498, 7008, 9383, 7514, 6753, 8318, 10993, 912,
   674, 620, 9757, 10309, 3969, 1298, 4296, 11698, 2313, 6889, 784, 1316, 9556, 11062, 4662, 7425, 7337, 9860,
   8661, 11199, 1547, 2200, 68, 1782, 449, 7074, 11524, 757, 1833, 5127, 406, 7157, 9871, 7531, 12259, 10595,
   5416, 9942, 6816, 9485, 4394, 8820, 8587, 1462, 12248, 9525, 5614, 5339, 528, 11988, 7825, 9754, 3420, 3974,
   3816, 4943, 11338, 10880, 4461]

/-- ntt_constants.go:55-63 `inv_mod_q`, entries 7808 to 7935. -/
def inv_mod_q_61 : List Nat :=
  [9467, 3865, 4785, 8554, 9588, 9063, 7302, 3178, 6275, 7851, 11797, 877, 8189, 7682, 10996, 410, 300, 7799,
   2536, 9466, 4482, 10881, 11600, 4270, 4668, 3599, 11638, 6448, 1918, 334, 2899, 5548, 11836, 9109, 6016,
   2507, 6121, 6009, 1737, 2299, 1652, 8439, 6013, 7817, 493, 10275, 5068, 4343, 3127, 10251, 918, 6433, 2081,
   4965, 830, 5517, 511, 25, 10872, 9157, 1779, 1582, 3999, 1872, 7192, 2140, 707, 6267, 4230, 1674, 7954,
   8998, 3105, 92, 5683, 9101, 1420, 11823, 6238, 6178, 3563, 8404, 10110, 774, 6090, 7696, 8819, 4500, 9486,
   2286, 11441, 9011, 12275, 2837, 4552, 1499, 894, 11933, 6959, 11529, 5425, 9733, 11405, 8755, 10523, 6518,
   5924, 4116, 992, 9852, 7442, 9924, 10351, 3649, 6765, 5666, 8584, 3979, 3487, 8573, 7166, 1942, 5162, 3945,
   110, 5758, 9676, 5755]

/-- ntt_constants.go:55-63 `inv_mod_q`, entries 7936 to 8063. -/
def inv_mod_q_62 : List Nat :=
  [7134, 5063, 10021, 3698, 5496, 1823, 8416, 2740, 3377, 3126, 4434, 5069, 3901, 2404, 4237, 5119, 4919,
   10614, 7878, 3292, 1852, 956, 10107, 7433, 10546, 389, 1545, 11201, 4998, 2447, 6271, 9784, 1331, 3553,
   6678, 9554, 1318, 1324, 11446, 4686, 5237, 3058, 10667, 9720, 8610, 5651, 525, 8108, 8618, 3018, 1328, 5059,
   4103, 3741, 2001, 11314, 11697, 4534, 1299, 2922, 5353, 8730, 3935, 10195, 5209, 7523, 2041, 6976, 8142,
   7094, 6737, 353, 244, 2208, 3745, 9741, 8956, 11947, 8506, 3689, 5959, 3731, 4667, 4458, 11601, 2076, 72,
   6398, 170, 3738, 8037, 9668, 6244, 9661, 277, 10566, 3034, 5362, 7203, 8184, 8550, 8026, 2622, 7544, 9096,
   9237, 9543, 1259, 6916, 8655, 6340, 2784, 10675, 8953, 4795, 5118, 4339, 2405, 10487, 4136, 1109, 9179,
   1673, 4413, 6268, 840, 2602, 695]

/-- ntt_constants.go:55-63 `inv_mod_q`, entries 8064 to 8191. -/
def inv_mod_q_63 : List Nat :=
  [4680, 6706, 10575, 6063, 230, 12024, 3306, 6296, 1935, 6812, 11426, 557, 948, 3329, 11253, 11352, 3454,
   8694, 2480, 5192, 2978, 7381, 2573, 8800, 3718, 8219, 5546, 2901, 10702, 1233, 11085, 3607, 6653, 6851,
   4630, 10321, 7117, 10144, 9533, 9685, 11596, 11775, 6948, 11763, 7983, 3672, 3320, 6621, 3707, 2828, 7238,
   10443, 374, 3573, 10698, 8897, 5919, 3258, 8753, 11407, 5190, 2482, 1659, 8359, 1837, 3217, 9086, 5447,
   4659, 6934, 3561, 6180, 506, 2134, 8917, 5801, 2100, 5312, 8004, 5196, 3451, 8164, 2370, 2691, 9446, 6379,
   288, 7570, 1108, 4234, 10488, 1305, 782, 6891, 5081, 6692, 10408, 5433, 935, 8837, 8145, 9920, 10292, 9895,
   7473, 6231, 1265, 3214, 991, 4374, 5925, 10434, 6636, 11766, 1955, 11090, 7438, 9480, 1152, 5085, 8035,
   3740, 4301, 5060, 11411, 7820, 4608, 4915]

/-- ntt_constants.go:55-63 `inv_mod_q`, entries 8192 to 8319. -/
def inv_mod_q_64 : List Nat :=
  [6143, 3, 3073, 1756, 3687, 8508, 9985, 9702, 8379, 11306, 439, 10307, 9759, 9632, 3994, 8288, 10419, 3762,
   2127, 10725, 3602, 10073, 11713, 5686, 7549, 5387, 8570, 8089, 6744, 11277, 5167, 2971, 6406, 8615, 8971,
   1909, 7072, 451, 3182, 11541, 10102, 4875, 5649, 8612, 10682, 1386, 5512, 10344, 3029, 11272, 2408, 3174,
   1197, 4853, 7143, 6333, 7329, 5381, 2072, 10393, 1726, 8419, 5677, 11829, 3428, 2929, 7085, 12042, 8943,
   10071, 3604, 3611, 2699, 3228, 11898, 10746, 5492, 6386, 7045, 7478, 10172, 6221, 11735, 12090, 8504, 11949,
   12145, 1376, 2955, 371, 7566, 6666, 4799, 11801, 11104, 8294, 8207, 1871, 4419, 1583, 9691, 1184, 8287,
   4083, 9633, 7342, 11239, 7358, 3244, 1815, 1686, 9653, 11222, 9627, 12036, 2293, 9199, 3486, 4364, 8585,
   8822, 2451, 3815, 4487, 3421, 5535, 7746, 1297]

/-- ntt_constants.go:55-63 `inv_mod_q`, entries 8320 to 8447. -/
def inv_mod_q_65 : List Nat :=
  [4536, 10310, 5226, 12069, 1965, 10246, 5315, 7410, 11048, 3876, 9694, 10305, 441, 3532, 1768, 1439, 10660,
   10501, 3185, 28, 1696, 5606, 6940, 109, 4358, 5163, 12102, 9449, 923, 6079, 8670, 3829, 10875, 10194, 4291,
   8731, 2834, 11267, 10629, 8127, 10453, 6035, 2153, 11303, 263, 8985, 8815, 47, 257, 906, 6491, 8453, 1302,
   2953, 1378, 3325, 7217, 11689, 2586, 8200, 984, 12028, 9974, 5402, 2719, 5644, 2818, 2403, 4341, 5070, 602,
   1611, 5528, 9365, 6938, 5608, 4694, 3388, 9516, 10264, 2035, 10775, 10430, 8725, 7889, 2180, 4858, 9728,
   2454, 9657, 10800, 1182, 9693, 3960, 11049, 10465, 7942, 9550, 10562, 8253, 6613, 9293, 518, 4784, 4480,
   9468, 11815, 9562, 5866, 156, 6576, 825, 8883, 7295, 5177, 5443, 9141, 10646, 10636, 7849, 6277, 8792,
   12174, 540, 3113, 11039, 857, 1820]

/-- ntt_constants.go:55-63 `inv_mod_q`, entries 8448 to 8575. -/
def inv_mod_q_66 : List Nat :=
  [8936, 2461, 9949, 6311, 5797, 8371, 10988, 9369, 11869, 7392, 9155, 10874, 3938, 8671, 5308, 1288, 1555,
   1083, 5590, 9437, 10221, 9680, 901, 2031, 4942, 4486, 3975, 2452, 9730, 9739, 3747, 5093, 1668, 11053, 807,
   2328, 10897, 11168, 9119, 1684, 1817, 6497, 8831, 1071, 5515, 832, 1373, 5108, 1526, 10270, 7741, 5282,
   8517, 6284, 10978, 198, 8276, 341, 8014, 8601, 8197, 2305, 2543, 6730, 9608, 2711, 10772, 11374, 7006, 8500,
   6006, 1431, 1314, 786, 9167, 12227, 7455, 2798, 2126, 4080, 10420, 9573, 12204, 6877, 9090, 7306, 12253,
   9130, 11251, 3331, 344, 2815, 10060, 5092, 3811, 9740, 4279, 2209, 3165, 2000, 4300, 4104, 8036, 4264, 171,
   7503, 7811, 2702, 1274, 4666, 4272, 5960, 11185, 5594, 12167, 1626, 5968, 6128, 2776, 5953, 8742, 6901,
   8218, 4201, 8801, 7927, 5124, 6257]

/-- ntt_constants.go:55-63 `inv_mod_q`, entries 8576 to 8703. -/
def inv_mod_q_67 : List Nat :=
  [2383, 9326, 3540, 10232, 1047, 2827, 4177, 6622, 7924, 8311, 3468, 7791, 10828, 7669, 5495, 4350, 10022,
   7664, 296, 2525, 6632, 10202, 5144, 5958, 4274, 8507, 4093, 1757, 3615, 5007, 11625, 9936, 10780, 2568,
   7980, 6639, 8235, 1608, 5882, 8225, 3319, 4180, 7984, 9272, 7429, 2563, 811, 2256, 10760, 379, 3526, 3433,
   9946, 5201, 6566, 9934, 11627, 1321, 11630, 3232, 7512, 9385, 8950, 6764, 4368, 10352, 5479, 2174, 7397,
   8893, 3009, 10612, 4921, 1921, 9790, 429, 544, 3248, 5372, 8045, 5950, 6987, 7016, 1994, 2428, 7767, 1091,
   2308, 11811, 980, 11363, 6192, 10643, 6209, 8350, 8461, 6982, 5006, 3685, 1758, 3585, 2698, 4026, 3605,
   11087, 6652, 4194, 11086, 3610, 4027, 10072, 4077, 10726, 11637, 4456, 4669, 10919, 8834, 8081, 9810, 5233,
   6709, 9541, 9239, 10440, 9251, 1134, 2697]

/-- ntt_constants.go:55-63 `inv_mod_q`, entries 8704 to 8831. -/
def inv_mod_q_68 : List Nat :=
  [3613, 1759, 8722, 12066, 3267, 2983, 7451, 814, 9410, 10313, 12234, 10697, 4172, 375, 9708, 6055, 11318,
   10529, 8706, 224, 1858, 8403, 4401, 6179, 4155, 6935, 7997, 8355, 9456, 4579, 2762, 6677, 4320, 1332, 969,
   1762, 7327, 6335, 8568, 5389, 7363, 4969, 11793, 5860, 10231, 3711, 9327, 719, 9030, 8122, 883, 7911, 1767,
   3956, 442, 2886, 1278, 5103, 3432, 3663, 380, 1775, 2665, 485, 178, 10505, 11842, 1792, 5395, 1807, 10013,
   1843, 4726, 2047, 7, 1537, 1639, 7262, 424, 1707, 11146, 9094, 7546, 10945, 10039, 7405, 1735, 6011, 8441,
   116, 9244, 1741, 11902, 10730, 7234, 9715, 8087, 8572, 4363, 3980, 9200, 12095, 9170, 1747, 233, 10767,
   11579, 53, 1594, 1149, 3303, 8366, 12243, 3005, 4592, 7894, 7790, 3703, 8312, 9839, 11452, 6219, 10174,
   10610, 3011, 103, 5791, 8490]

/-- ntt_constants.go:55-63 `inv_mod_q`, entries 8832 to 8959. -/
def inv_mod_q_69 : List Nat :=
  [11219, 1369, 8693, 4209, 11353, 8163, 4145, 5197, 11498, 12150, 5255, 10160, 1566, 4628, 6853, 5916, 6132,
   1604, 5889, 12121, 3386, 4696, 11874, 9945, 3662, 3527, 5104, 2791, 2928, 4033, 11830, 9258, 1019, 2760,
   4581, 5534, 3973, 4488, 9755, 622, 1007, 11717, 5898, 1753, 2236, 6357, 3138, 5294, 1925, 9004, 11463, 8432,
   4995, 12076, 5276, 5292, 3140, 9430, 3084, 11808, 4891, 8645, 9281, 8947, 1590, 8119, 6371, 6159, 9515,
   3892, 4695, 3437, 12122, 2444, 11330, 7300, 9065, 5850, 6470, 3125, 4345, 2741, 9955, 4826, 10154, 8138,
   6489, 908, 704, 1901, 10048, 4560, 7556, 9867, 11021, 6839, 2245, 1057, 12139, 10558, 12084, 10784, 6791,
   10468, 8448, 9829, 2050, 10121, 5706, 2206, 246, 8260, 2219, 4590, 3007, 8895, 10700, 2903, 8638, 5526,
   1613, 8049, 7495, 2547, 8012, 343, 3752, 11252]

/-- ntt_constants.go:55-63 `inv_mod_q`, entries 8960 to 9087. -/
def inv_mod_q_70 : List Nat :=
  [4212, 949, 1411, 7216, 3914, 1379, 6849, 6655, 6620, 4179, 3673, 8226, 10381, 7386, 10302, 1220, 10579,
   11046, 7412, 6642, 2232, 821, 6295, 4219, 12025, 8365, 3475, 1150, 9482, 7109, 1382, 6301, 6165, 10861,
   11558, 3048, 1851, 4334, 7879, 9185, 10092, 7718, 1402, 10363, 8881, 827, 7318, 498, 9581, 9775, 847, 7899,
   15, 769, 2379, 2939, 1209, 5983, 2566, 10782, 12086, 2982, 3581, 12067, 5228, 10847, 5766, 2882, 6527,
   11569, 8752, 4168, 5920, 7039, 11398, 9128, 12255, 1863, 11189, 6084, 5371, 3636, 545, 4615, 1814, 3989,
   7359, 1285, 2476, 641, 2432, 9416, 9958, 10713, 6758, 12270, 7511, 3654, 11631, 4752, 11897, 4024, 2700,
   7813, 4988, 8908, 6440, 1949, 10141, 6446, 11640, 9085, 4160, 1838, 990, 4118, 1266, 5452, 11979, 2944,
   11952, 1720, 11833, 9211, 648, 9071, 8130, 6843]

/-- ntt_constants.go:55-63 `inv_mod_q`, entries 9088 to 9215. -/
def inv_mod_q_71 : List Nat :=
  [2768, 5411, 8532, 4984, 1453, 1142, 8785, 4744, 8040, 3053, 11280, 574, 6605, 7883, 10870, 27, 3951, 10502,
   11540, 4059, 452, 7841, 6274, 4474, 7303, 10838, 1196, 4046, 2409, 11673, 1120, 8486, 10606, 4845, 2367,
   1999, 3743, 2210, 6026, 890, 9035, 35, 8535, 1039, 580, 11592, 7611, 1165, 5745, 10671, 39, 2766, 6845,
   8436, 1644, 6082, 11191, 942, 9423, 7576, 9429, 3401, 5293, 3411, 6358, 7277, 4896, 8458, 1416, 7867, 10511,
   11225, 4764, 10250, 4433, 4344, 3378, 6471, 11502, 8522, 63, 193, 8806, 10543, 5149, 2528, 2659, 11038,
   3845, 541, 11179, 8057, 10617, 6789, 10786, 91, 4409, 8999, 2198, 1549, 9190, 10739, 9188, 1551, 5710, 7244,
   135, 2260, 5034, 5600, 9995, 8308, 8804, 195, 5832, 10278, 11807, 3399, 9431, 315, 351, 6739, 455, 9083,
   11642, 819, 2234, 1755]

/-- ntt_constants.go:55-63 `inv_mod_q`, entries 9216 to 9343. -/
def inv_mod_q_72 : List Nat :=
  [4095, 4, 9832, 10924, 11344, 1446, 11704, 6882, 5509, 7448, 4650, 5695, 12016, 5016, 10666, 4312, 5238,
   12100, 5165, 11279, 3192, 8041, 2747, 8699, 1850, 3294, 11559, 12172, 8794, 10549, 12184, 6500, 6292, 5049,
   1848, 8701, 11156, 10933, 5361, 4257, 10567, 458, 8863, 11271, 4049, 10345, 7129, 930, 12224, 12098, 5240,
   5258, 1139, 1176, 1327, 4304, 8619, 4861, 322, 10654, 6326, 102, 3461, 10611, 3643, 8894, 3343, 4591, 3472,
   12244, 7542, 2624, 5778, 6591, 11576, 2193, 5675, 8421, 11772, 5693, 4652, 5130, 2420, 1270, 4613, 547,
   9442, 1033, 4648, 7450, 3580, 3268, 12087, 7460, 7380, 4205, 5193, 5554, 7266, 6723, 9565, 6405, 4066, 5168,
   2678, 501, 613, 5465, 10026, 9905, 8577, 8750, 11571, 6514, 5507, 6884, 10423, 370, 4009, 1377, 3916, 1303,
   10490, 6911, 6830, 7591, 417, 12143]

/-- ntt_constants.go:55-63 `inv_mod_q`, entries 9344 to 9471. -/
def inv_mod_q_73 : List Nat :=
  [11951, 3210, 11980, 6345, 7350, 1208, 3274, 2380, 12130, 11590, 582, 11489, 7722, 1161, 11941, 7084, 4032,
   3429, 2792, 12268, 6760, 8393, 5352, 4294, 1300, 8455, 421, 9640, 10132, 6174, 9671, 11163, 7003, 11618,
   10841, 587, 6041, 6715, 5280, 7743, 4776, 8637, 3340, 10701, 4198, 5547, 4451, 335, 10571, 4689, 208, 11996,
   1474, 1534, 9560, 11817, 6002, 1434, 1277, 3530, 443, 10657, 6526, 3262, 5767, 11474, 8712, 1977, 7065,
   7029, 11152, 9856, 9051, 2332, 7465, 638, 7059, 1444, 11346, 9146, 4714, 6801, 1571, 1885, 4712, 9148, 8889,
   9206, 11975, 10641, 6194, 366, 6698, 8467, 2069, 470, 6289, 11741, 9302, 11257, 9477, 9597, 8148, 5911, 186,
   8347, 11367, 4551, 4388, 12276, 11266, 3933, 8732, 7711, 9793, 10374, 7237, 4176, 3708, 1048, 4933, 9752,
   7827, 7808, 8425, 475, 2402, 3903]

/-- ntt_constants.go:55-63 `inv_mod_q`, entries 9472 to 9599. -/
def inv_mod_q_74 : List Nat :=
  [5645, 10059, 3750, 345, 1031, 9444, 2693, 4850, 8181, 11138, 8988, 5181, 5472, 7788, 7896, 10004, 10692,
   6184, 2125, 3764, 7456, 11555, 7646, 6945, 12267, 2927, 3430, 5105, 12148, 11500, 6473, 4980, 10674, 4242,
   6341, 561, 11962, 7201, 5364, 6985, 5952, 3723, 6129, 8900, 8398, 2026, 4936, 11486, 5410, 3201, 6844, 3150,
   40, 7794, 6676, 3555, 4580, 3424, 1020, 1662, 2144, 8102, 2605, 1477, 741, 2005, 11610, 6073, 5579, 8698,
   3051, 8042, 11031, 6561, 10936, 9954, 3376, 4346, 8417, 1728, 4692, 5610, 7971, 10972, 7761, 1228, 12280,
   10754, 9398, 473, 8427, 6424, 5565, 9316, 5885, 5991, 10356, 5643, 3905, 5403, 1868, 8529, 86, 566, 7175,
   10771, 3776, 9609, 11790, 9008, 2515, 4773, 5538, 1168, 1273, 3734, 7812, 3227, 4025, 3612, 3586, 1135,
   2435, 4849, 2811, 9445, 4142, 2371]

/-- ntt_constants.go:55-63 `inv_mod_q`, entries 9600 to 9727. -/
def inv_mod_q_75 : List Nat :=
  [6389, 10538, 9769, 7270, 12170, 11561, 10008, 5558, 8512, 9579, 500, 2969, 5169, 5846, 1075, 12073, 11204,
   6701, 1026, 1054, 11230, 152, 2009, 484, 3523, 1776, 1066, 8305, 254, 11037, 3115, 2529, 8205, 8296, 4948,
   7654, 2279, 6733, 5025, 11867, 9371, 2158, 6820, 6804, 7313, 11959, 6463, 1828, 7580, 5814, 7311, 6806,
   10602, 8303, 1068, 10922, 9834, 8409, 1490, 6537, 6044, 8029, 12013, 716, 5777, 3002, 7543, 4251, 8027,
   6046, 6114, 9374, 1127, 7333, 6551, 6530, 7934, 6535, 1492, 2067, 8469, 11389, 1532, 1476, 2755, 8103, 694,
   4227, 841, 7605, 10705, 8292, 11106, 8412, 8330, 1985, 11071, 10018, 10942, 5689, 10884, 2303, 8199, 3911,
   11690, 5940, 10267, 11913, 8718, 6235, 11417, 777, 2165, 1913, 5054, 8799, 4203, 7382, 1281, 1621, 7979,
   3680, 10781, 3271, 5984, 810, 3668, 7430]

/-- ntt_constants.go:55-63 `inv_mod_q`, entries 9728 to 9855. -/
def inv_mod_q_76 : List Nat :=
  [8407, 9836, 8476, 2551, 6863, 7909, 885, 7588, 12005, 6862, 2558, 8477, 8543, 8011, 3334, 7496, 11077, 6729,
   3779, 2306, 1093, 1495, 10261, 7355, 9465, 4463, 7800, 8870, 11668, 7751, 1981, 8204, 2658, 3116, 5150,
   6631, 3694, 297, 867, 12021, 1750, 9602, 5020, 2123, 6186, 4772, 2707, 9009, 11443, 1179, 11134, 5038, 240,
   6120, 4446, 6017, 7967, 10959, 7232, 10732, 11208, 10367, 8650, 11861, 4577, 9458, 1916, 6450, 5935, 6396,
   74, 5572, 7011, 6999, 9848, 10633, 11295, 2439, 1658, 4164, 5191, 4207, 8695, 7057, 640, 3241, 1286, 5310,
   2102, 10385, 7634, 11886, 9875, 5542, 7213, 2098, 5803, 11496, 5199, 9948, 3840, 8937, 10240, 12284, 9218,
   1366, 9656, 3881, 9729, 3814, 3976, 8823, 838, 6270, 4324, 4999, 11329, 3384, 12123, 5289, 9802, 1657, 2484,
   11296, 7917, 4848, 2695, 1136]

/-- ntt_constants.go:55-63 `inv_mod_q`, entries 9856 to 9983. -/
def inv_mod_q_77 : List Nat :=
  [9415, 3239, 642, 4951, 7766, 3629, 1995, 2396, 5620, 4872, 4732, 8925, 1269, 2991, 5131, 7781, 4759, 1470,
   402, 9820, 6748, 6547, 7615, 11672, 3173, 4047, 11273, 10486, 4236, 4340, 3902, 2819, 476, 11311, 1045,
   10234, 5619, 2426, 1996, 8167, 4817, 7732, 2318, 11564, 5823, 5810, 11074, 5032, 2262, 9325, 3713, 6258,
   12129, 2938, 3275, 770, 1308, 6460, 564, 88, 7043, 6388, 2690, 4143, 8165, 1998, 3167, 4846, 7919, 1939,
   7026, 11545, 11248, 11711, 10075, 1256, 5730, 5722, 8631, 663, 8607, 1510, 10517, 570, 6393, 6872, 7786,
   5474, 414, 8855, 8628, 7089, 9827, 8450, 5979, 636, 7467, 1352, 9547, 8914, 7464, 2872, 9052, 1577, 10896,
   3806, 808, 5986, 6126, 5970, 1878, 1466, 10690, 10006, 11563, 2391, 7733, 260, 8382, 6888, 4532, 11699,
   1691, 4889, 11810, 3626, 1092, 2542]

/-- ntt_constants.go:55-63 `inv_mod_q`, entries 9984 to 10111. -/
def inv_mod_q_78 : List Nat :=
  [3780, 8198, 2588, 10885, 1928, 1651, 4442, 1738, 107, 6942, 6688, 9198, 3982, 12037, 11066, 5522, 6625,
   11435, 11440, 4392, 9487, 1598, 9969, 727, 9606, 6732, 2653, 7655, 10481, 8774, 10447, 4707, 6477, 1217,
   9697, 1348, 7225, 7938, 8592, 4626, 1568, 6823, 9324, 2385, 5033, 3094, 136, 898, 10759, 3666, 812, 7453,
   12229, 10832, 1343, 8788, 4885, 12207, 11228, 1056, 3361, 6840, 7632, 10387, 8922, 7730, 4819, 5837, 6356,
   3413, 1754, 3075, 820, 3309, 6643, 9473, 8540, 7198, 607, 668, 11096, 5929, 5014, 12018, 4598, 4589, 3345,
   8261, 8686, 8213, 577, 9930, 11034, 50, 6025, 3164, 3744, 4280, 245, 3348, 5707, 184, 5913, 11357, 67, 4519,
   1548, 3103, 9000, 4572, 5733, 5674, 2998, 11577, 10769, 7177, 5221, 747, 8232, 7415, 7559, 7298, 11332,
   7958, 4857, 3884, 7890, 11516]

/-- ntt_constants.go:55-63 `inv_mod_q`, entries 10112 to 10239. -/
def inv_mod_q_79 : List Nat :=
  [11510, 10126, 7396, 3646, 5480, 6252, 10138, 4808, 10238, 8939, 6584, 1912, 2577, 778, 10113, 4894, 7279,
   7106, 6819, 2648, 9372, 6116, 7151, 11302, 3927, 6036, 10118, 7482, 10339, 9068, 5844, 5171, 8101, 2757,
   1663, 1899, 706, 4416, 7193, 11605, 7378, 7462, 8916, 4152, 507, 7476, 7047, 7033, 8843, 10724, 4079, 3763,
   2799, 6185, 2518, 5021, 5568, 5617, 10236, 4810, 8272, 6069, 8826, 1680, 1390, 1123, 12126, 11759, 303,
   1335, 1114, 6658, 10415, 5099, 10384, 2473, 5311, 4149, 5802, 2466, 7214, 1413, 8353, 7999, 7081, 11261,
   11237, 7344, 953, 5656, 8597, 7146, 5505, 6516, 10525, 4964, 4429, 6434, 10894, 1579, 71, 4268, 11602,
   10624, 10392, 4039, 5382, 469, 2851, 8468, 2610, 1493, 1095, 10866, 5385, 7551, 7501, 173, 6428, 8748, 8579,
   11243, 9891, 6671, 10170, 7480, 10120, 3351]

/-- ntt_constants.go:55-63 `inv_mod_q`, entries 10240 to 10367. -/
def inv_mod_q_80 : List Nat :=
  [9830, 6, 3512, 4727, 7115, 10323, 8325, 6975, 4287, 7524, 9161, 7857, 11372, 10774, 3889, 10265, 5942, 4941,
   3818, 902, 10793, 9750, 4935, 2772, 8399, 10255, 6348, 9706, 377, 10762, 8497, 4549, 11369, 5858, 11795,
   7853, 7222, 6456, 9203, 483, 2667, 153, 11891, 11609, 2752, 742, 1043, 11313, 4299, 3742, 3166, 2368, 8166,
   2395, 2427, 3630, 7017, 6965, 4586, 6972, 4881, 4902, 8974, 11070, 2594, 8331, 11849, 8203, 2531, 7752,
   8321, 7064, 2878, 8713, 56, 11212, 218, 10326, 6609, 12158, 7658, 8099, 5173, 10245, 3965, 12070, 10317,
   5681, 94, 1812, 4617, 5906, 6650, 11089, 4111, 11767, 10804, 11288, 4806, 10140, 3222, 6441, 11216, 6776,
   8239, 9261, 5161, 4360, 7167, 7025, 2364, 7920, 8641, 6811, 4217, 6297, 9568, 6647, 6835, 312, 1650, 2301,
   10886, 9003, 3409, 5295, 1080, 9789]

/-- ntt_constants.go:55-63 `inv_mod_q`, entries 10368 to 10495. -/
def inv_mod_q_81 : List Nat :=
  [3640, 4922, 333, 4453, 6449, 2495, 9459, 5053, 2576, 2166, 6585, 7071, 4062, 8972, 4904, 7189, 10186, 9817,
   4656, 10047, 3368, 705, 2142, 1664, 10216, 8251, 10564, 279, 396, 682, 4913, 4610, 1171, 5422, 10459, 4711,
   2862, 1572, 12165, 5596, 8160, 6857, 1465, 2323, 5971, 6662, 5630, 10184, 7191, 4418, 4000, 8208, 8528,
   2717, 5404, 9332, 11920, 11188, 3252, 12256, 11906, 1513, 8402, 3565, 225, 6363, 8175, 5654, 955, 4333,
   3293, 3049, 8700, 3039, 5050, 8115, 11916, 4725, 3514, 10014, 7583, 5136, 989, 3216, 4161, 8360, 6255, 5126,
   4512, 758, 6866, 10402, 7579, 2642, 6464, 6481, 1239, 8415, 4348, 5497, 8935, 3842, 858, 6496, 3801, 1685,
   3988, 3245, 4616, 1960, 95, 129, 4633, 10012, 3516, 5396, 7210, 1015, 9883, 8054, 8154, 10985, 9338, 5379,
   7331, 1129, 6189, 6213]

/-- ntt_constants.go:55-63 `inv_mod_q`, entries 10496 to 10623. -/
def inv_mod_q_82 : List Nat :=
  [5394, 3518, 11843, 5966, 1628, 8337, 9105, 750, 12110, 8769, 448, 4517, 69, 1581, 4421, 9158, 1065, 2664,
   3524, 381, 10778, 9938, 11720, 7422, 1438, 3955, 3533, 7912, 5772, 10206, 7326, 3550, 970, 8721, 3584, 3614,
   3686, 4094, 3074, 2235, 3414, 5899, 9601, 2521, 12022, 232, 3482, 9171, 7141, 4855, 7960, 11901, 3494, 9245,
   106, 2298, 4443, 6010, 3499, 7406, 7389, 149, 8931, 206, 4691, 2738, 8418, 4037, 10394, 12011, 8031, 9256,
   11832, 3208, 11953, 9392, 7601, 7054, 5582, 8066, 6227, 5520, 11068, 8976, 1244, 11145, 3506, 425, 10588,
   5719, 4575, 11863, 10584, 6571, 11327, 5001, 5605, 3949, 29, 7784, 6874, 4888, 2311, 11700, 6250, 5482,
   9652, 3987, 1816, 3802, 9120, 7445, 1389, 2114, 8827, 9279, 8647, 7369, 7953, 4412, 4231, 9180, 5501, 5806,
   11052, 3809, 5094, 686]

/-- ntt_constants.go:55-63 `inv_mod_q`, entries 10624 to 10751. -/
def inv_mod_q_83 : List Nat :=
  [10215, 1898, 2143, 2758, 1021, 8358, 4163, 2483, 2440, 9803, 995, 1642, 8438, 4441, 2300, 1929, 313, 9433,
   6096, 8668, 6081, 3147, 8437, 1654, 996, 7261, 3509, 1538, 5878, 11966, 9275, 5964, 11845, 9405, 5764,
   10849, 8336, 1789, 5967, 3726, 12168, 7272, 9230, 7978, 2570, 1282, 6543, 9137, 12251, 7308, 9504, 8048,
   3337, 5527, 3898, 603, 5881, 3676, 8236, 10904, 5888, 3440, 6133, 5853, 1397, 10822, 9968, 2284, 9488, 6106,
   1148, 3477, 54, 8715, 8118, 3393, 8948, 9387, 8092, 11057, 4683, 9690, 3998, 4420, 1780, 70, 2078, 10895,
   2330, 9053, 5532, 4583, 12164, 1884, 2863, 6802, 6822, 2265, 4627, 3445, 10161, 8211, 8688, 653, 4755, 386,
   8797, 5056, 9787, 1082, 3825, 1289, 182, 5709, 3098, 9189, 3102, 2199, 4520, 11200, 4327, 390, 8267, 6798,
   630, 1189, 5877, 1638]

/-- ntt_constants.go:55-63 `inv_mod_q`, entries 10752 to 10879. -/
def inv_mod_q_84 : List Nat :=
  [3510, 8, 9559, 2892, 1475, 2607, 11390, 10032, 8624, 11911, 10269, 3793, 5109, 6588, 12055, 8809, 711,
   10098, 5113, 9577, 8514, 916, 10253, 8401, 1860, 11907, 10516, 2352, 8608, 9722, 9019, 204, 8933, 5499,
   9182, 12199, 5248, 893, 4386, 4553, 11386, 10260, 2540, 1094, 2066, 2611, 6536, 2631, 8410, 11108, 1157,
   521, 10336, 1002, 10930, 7521, 5211, 739, 1479, 740, 2754, 2606, 1533, 2893, 11997, 6420, 401, 2416, 4760,
   10891, 10689, 2322, 1879, 6858, 12247, 4497, 8588, 4621, 6991, 59, 10037, 10947, 1174, 1141, 3197, 4985,
   9113, 11094, 670, 9378, 11703, 3068, 11345, 2868, 7060, 9025, 6524, 10659, 3954, 1769, 7423, 4664, 1276,
   2888, 6003, 1313, 3770, 6007, 6123, 8993, 732, 4645, 940, 11193, 10225, 6905, 11822, 4405, 9102, 12263,
   7866, 3133, 8459, 8352, 2096, 7215, 3327, 950]

/-- ntt_constants.go:55-63 `inv_mod_q`, entries 10880 to 11007. -/
def inv_mod_q_85 : List Nat :=
  [7806, 7829, 690, 6599, 9700, 9987, 10362, 3287, 7719, 79, 7528, 10821, 1601, 5854, 10210, 10711, 9960, 8484,
   1122, 2113, 1681, 7446, 5511, 4052, 10683, 6402, 6300, 3299, 7110, 6848, 3324, 3915, 2954, 4010, 12146,
   5107, 3795, 833, 7619, 8692, 3456, 11220, 9655, 2456, 9219, 946, 559, 6343, 11982, 11286, 10806, 4769, 1132,
   9253, 6929, 5727, 9546, 2336, 7468, 6454, 7224, 2270, 9698, 6601, 4742, 8787, 2251, 10833, 11116, 6869,
   5938, 11692, 11857, 1113, 2108, 304, 968, 3552, 4321, 9785, 5058, 4303, 3019, 1177, 11445, 4316, 1319,
   11629, 3656, 11628, 1323, 4317, 9555, 4529, 785, 3769, 1432, 6004, 8502, 12092, 6459, 2377, 771, 781, 4134,
   10489, 2952, 3917, 8454, 2921, 4295, 4535, 3970, 7747, 11378, 4606, 7822, 11880, 11537, 181, 1554, 3826,
   5309, 2475, 3242, 7360, 6542, 1620]

/-- ntt_constants.go:55-63 `inv_mod_q`, entries 11008 to 11135. -/
def inv_mod_q_86 : List Nat :=
  [2571, 7383, 5102, 3529, 2887, 1435, 4665, 3733, 2703, 1169, 4612, 2990, 2421, 8926, 5451, 3213, 4119, 6232,
   973, 594, 11753, 6915, 4246, 9544, 5729, 2358, 10076, 12240, 12034, 9629, 9175, 8445, 11433, 6627, 611, 503,
   11144, 1709, 8977, 4878, 8328, 8414, 1825, 6482, 10620, 8481, 11483, 11084, 4196, 10703, 7607, 5585, 12279,
   2732, 7762, 7628, 5357, 251, 9998, 6768, 10578, 3314, 10303, 9696, 2272, 6478, 9902, 7258, 4792, 9744, 5561,
   5982, 3273, 2940, 7351, 805, 11055, 8094, 8683, 8680, 5638, 10333, 8179, 4852, 4045, 3175, 10839, 11620,
   10064, 6361, 227, 5876, 1540, 631, 176, 487, 8286, 3996, 9692, 3878, 10801, 11133, 2512, 11444, 1326, 3020,
   1140, 1455, 10948, 5421, 1889, 4611, 1272, 2704, 5539, 5744, 3154, 7612, 11972, 11940, 2932, 7723, 4782,
   520, 1487, 11109, 9778, 7252]

/-- ntt_constants.go:55-63 `inv_mod_q`, entries 11136 to 11263. -/
def inv_mod_q_87 : List Nat :=
  [5084, 4107, 9481, 3302, 3476, 1595, 6107, 11785, 11044, 10581, 8784, 3196, 1454, 1175, 3021, 5259, 9414,
   2434, 2696, 3587, 9252, 1357, 4770, 6188, 1796, 7332, 2617, 9375, 5287, 12125, 2112, 1391, 8485, 3171,
   11674, 6826, 6150, 6618, 6657, 2107, 1336, 11858, 11747, 9178, 4233, 4137, 7571, 100, 6328, 8560, 6696, 368,
   10425, 9038, 6206, 9144, 11348, 10865, 2065, 1494, 2541, 2307, 3627, 7768, 10743, 7963, 7292, 215, 9616,
   5589, 3824, 1556, 9788, 1923, 5296, 12232, 10315, 12072, 2675, 5847, 10342, 5514, 3798, 8832, 10921, 2635,
   8304, 2663, 1777, 9159, 7526, 81, 10042, 11234, 9620, 12138, 3360, 2246, 11229, 2670, 1027, 10198, 4946,
   8298, 4932, 2826, 3709, 10233, 2399, 11312, 2003, 743, 9928, 579, 3158, 8536, 8959, 8078, 938, 4647, 2986,
   9443, 2813, 346, 5207, 10197, 1053, 2671]

/-- ntt_constants.go:55-63 `inv_mod_q`, entries 11264 to 11391. -/
def inv_mod_q_88 : List Nat :=
  [6702, 12, 9454, 8357, 1661, 2759, 3425, 9259, 8241, 9882, 1804, 7211, 5544, 8221, 7123, 9235, 9098, 11716,
   3417, 623, 966, 306, 10929, 1484, 10337, 7484, 4736, 4790, 7260, 1641, 1655, 9804, 9851, 4373, 4117, 3215,
   1839, 5137, 10135, 8363, 12027, 3909, 8201, 11851, 11362, 3624, 11812, 9889, 11245, 10287, 7991, 593, 1263,
   6233, 8720, 1761, 3551, 1333, 305, 1005, 624, 4602, 5717, 10590, 7289, 9844, 8906, 4990, 10106, 4332, 1853,
   5655, 2089, 7345, 7805, 1410, 3328, 4213, 558, 1364, 9220, 10844, 9422, 3144, 11192, 1425, 4646, 1035, 8079,
   8836, 4127, 5434, 6375, 10087, 12223, 3026, 7130, 437, 11308, 8666, 6098, 6078, 3941, 9450, 7739, 10272,
   6432, 4431, 10252, 1516, 8515, 5284, 673, 4541, 10994, 7684, 703, 3370, 6490, 3920, 258, 7735, 10792, 2030,
   3819, 9681, 10758, 2258]

/-- ntt_constants.go:55-63 `inv_mod_q`, entries 11392 to 11519. -/
def inv_mod_q_89 : List Nat :=
  [137, 7036, 11932, 4385, 1500, 5249, 9034, 3162, 6027, 5328, 762, 7587, 2555, 7910, 3535, 8123, 7100, 5153,
   7228, 8188, 4470, 11798, 5042, 464, 6053, 9710, 11513, 6201, 4596, 12020, 2523, 298, 412, 5476, 8074, 11733,
   6223, 6416, 6495, 1819, 3843, 11040, 5663, 10001, 850, 11438, 11437, 853, 10002, 7898, 3279, 9776, 11111,
   10964, 7974, 7604, 2601, 4228, 6269, 2449, 8824, 6071, 11612, 7618, 1372, 3796, 5516, 4427, 4966, 7317,
   3284, 8882, 3858, 6577, 5047, 6294, 3308, 2233, 3076, 11643, 11928, 6521, 9409, 3578, 7452, 2255, 3667,
   2564, 5985, 2327, 3807, 11054, 1206, 7352, 9519, 6880, 11706, 9355, 4568, 12212, 6954, 5141, 6786, 6485,
   9825, 7091, 8840, 140, 9501, 5817, 9166, 3768, 1315, 4530, 6890, 4133, 1306, 772, 10112, 2164, 2578, 11418,
   6089, 4398, 10111, 780, 1307, 2378]

/-- ntt_constants.go:55-63 `inv_mod_q`, entries 11520 to 11647. -/
def inv_mod_q_90 : List Nat :=
  [3276, 16, 5784, 5214, 7775, 11533, 7586, 887, 5329, 7907, 6865, 1832, 4513, 11525, 4704, 7155, 408, 10998,
   12109, 1786, 9106, 8231, 2188, 5222, 5262, 9927, 1042, 2004, 2753, 1478, 1480, 5212, 5786, 551, 4832, 9493,
   4644, 1427, 8994, 9242, 118, 9605, 2282, 9970, 9899, 6467, 6136, 5736, 5761, 9029, 3538, 9328, 5776, 2626,
   12014, 5697, 9290, 10097, 1521, 8810, 12237, 6266, 4415, 2141, 1900, 3369, 909, 7685, 6574, 158, 9353,
   11708, 9133, 4679, 4226, 2603, 8104, 515, 6598, 1407, 7830, 8020, 10214, 1666, 5095, 10151, 4912, 1892, 397,
   10283, 9538, 6217, 11454, 4672, 619, 4540, 913, 5285, 9377, 1449, 11095, 2226, 608, 7104, 7281, 8606, 2354,
   8632, 10969, 10967, 8634, 9058, 7538, 12008, 11895, 4754, 1562, 8689, 7834, 5842, 9070, 3205, 9212, 11471,
   362, 7652, 4950, 2431]

/-- ntt_constants.go:55-63 `inv_mod_q`, entries 11648 to 11775. -/
def inv_mod_q_91 : List Nat :=
  [3240, 2477, 7058, 2870, 7466, 2338, 5980, 5563, 6426, 175, 1188, 1541, 6799, 4716, 12191, 6969, 4601, 965,
   1006, 3418, 9756, 4539, 675, 4673, 9879, 9117, 11170, 5464, 2967, 502, 1247, 6628, 7103, 667, 2227, 7199,
   11964, 5880, 1610, 3899, 5071, 8377, 9704, 6350, 10951, 433, 11752, 1262, 974, 7992, 7756, 9977, 10599,
   6040, 2910, 10842, 9222, 5408, 11488, 2935, 11591, 3157, 1040, 9929, 2215, 8214, 6604, 3190, 11281, 8873,
   6392, 2350, 10518, 4868, 7174, 2714, 87, 2375, 6461, 11961, 2782, 6342, 1363, 947, 4214, 11427, 6067, 8274,
   200, 4831, 736, 5787, 5999, 9441, 2988, 4614, 3247, 3637, 430, 11178, 3112, 3846, 12175, 11855, 11694,
   11028, 5375, 5270, 5326, 6029, 162, 10179, 11987, 4492, 5340, 8107, 4307, 5652, 8177, 10335, 1486, 1158,
   4783, 3867, 9294, 6597, 692, 8105]

/-- ntt_constants.go:55-63 `inv_mod_q`, entries 11776 to 11903. -/
def inv_mod_q_92 : List Nat :=
  [5342, 24, 4425, 5518, 6229, 7475, 2133, 4153, 6181, 11143, 1246, 612, 2968, 2679, 9580, 3282, 7319, 8746,
   6430, 10274, 4437, 7818, 11413, 7248, 7489, 8285, 1186, 177, 3522, 2666, 2010, 9204, 8891, 7399, 9980, 8664,
   11310, 2401, 2820, 8426, 2728, 9399, 6288, 2850, 2070, 5383, 10868, 7885, 6052, 874, 5043, 12156, 6611,
   8255, 8862, 3032, 10568, 9082, 3079, 6740, 7840, 3181, 4060, 7073, 4516, 1783, 8770, 10498, 6324, 10656,
   2885, 3531, 3957, 10306, 4087, 11307, 928, 7131, 113, 11751, 596, 10952, 11177, 543, 3638, 9791, 7713,
   10587, 1706, 3507, 7263, 9639, 2919, 8456, 4898, 12142, 2947, 7592, 8854, 2345, 5475, 865, 299, 4466, 10997,
   753, 7156, 4510, 5128, 4654, 9819, 2415, 1471, 6421, 12135, 10282, 681, 1893, 280, 11634, 7536, 9060, 8266,
   1544, 4328, 10547, 8796, 1560]

/-- ntt_constants.go:55-63 `inv_mod_q`, entries 11904 to 12031. -/
def inv_mod_q_93 : List Nat :=
  [4756, 32, 10428, 10777, 1774, 3525, 3664, 10761, 2021, 9707, 3572, 4173, 10444, 7565, 4008, 2956, 10424,
   1102, 6697, 2854, 6195, 6921, 7651, 645, 11472, 5769, 6367, 5252, 11394, 7905, 5331, 243, 4282, 6738, 3081,
   316, 11127, 9358, 5206, 1030, 2814, 3751, 3332, 8013, 3784, 8277, 145, 9344, 9080, 10570, 2898, 4452, 1919,
   4923, 4975, 9645, 5827, 11727, 9508, 5089, 11684, 6410, 10653, 3015, 4862, 4954, 5740, 4676, 11126, 350,
   3082, 9432, 1649, 1930, 6836, 9078, 9346, 5945, 10928, 1004, 967, 1334, 2109, 11760, 7798, 4465, 411, 866,
   2524, 3695, 7665, 12080, 9395, 10816, 5870, 6314, 7569, 4139, 6380, 5457, 4700, 9736, 5428, 4750, 11633,
   395, 1894, 10565, 4259, 9662, 11574, 6593, 9228, 7274, 10067, 7692, 11421, 9767, 10540, 12058, 8069, 8984,
   3925, 11304, 8381, 2316, 7734, 905]

/-- ntt_constants.go:55-63 `inv_mod_q`, entries 12032 to 12159. -/
def inv_mod_q_94 : List Nat :=
  [3921, 48, 11036, 2661, 8306, 9997, 1224, 5358, 6564, 5203, 8259, 3347, 2207, 4281, 354, 5332, 6119, 2509,
   5039, 4802, 4563, 6509, 5700, 10766, 3481, 1748, 12023, 4221, 6064, 5875, 1191, 6362, 1857, 3566, 8707,
   9023, 7062, 8323, 10325, 1973, 11213, 9615, 1086, 7293, 8885, 7014, 6989, 4623, 11995, 2895, 4690, 1730,
   8932, 1506, 9020, 9308, 4830, 553, 8275, 3786, 10979, 5831, 3088, 8805, 3120, 64, 9265, 7050, 9233, 7125,
   8346, 2841, 5912, 2204, 5708, 1553, 1290, 11538, 10504, 3521, 486, 1187, 632, 6427, 2060, 7502, 3737, 4265,
   6399, 8851, 8904, 9846, 7001, 11165, 10178, 531, 6030, 9908, 9352, 700, 6575, 3860, 5867, 11890, 2008, 2668,
   11231, 8930, 1732, 7390, 11871, 9343, 339, 8278, 10914, 7183, 9500, 790, 8841, 7035, 897, 2259, 3095, 7245,
   11827, 5679, 10319, 4632]

/-- ntt_constants.go:55-63 `inv_mod_q`, entries 12160 to 12287. -/
def inv_mod_q_95 : List Nat :=
  [1810, 96, 5322, 7705, 10716, 10406, 6694, 8562, 10664, 5018, 9604, 729, 9243, 3496, 8442, 11750, 435, 7132,
   5757, 4357, 3946, 6941, 2297, 1739, 9246, 5790, 3460, 3012, 6327, 1106, 7572, 11662, 5321, 128, 1811, 1961,
   5682, 4408, 3106, 10787, 7042, 2374, 565, 2715, 8530, 5413, 7403, 10041, 1062, 7527, 1400, 7720, 11491,
   5336, 5571, 2491, 6397, 4267, 2077, 1580, 1781, 4518, 2201, 11358, 9264, 192, 3121, 8523, 4835, 10036, 1458,
   6992, 11211, 1975, 8714, 1593, 3478, 11580, 6024, 2212, 11035, 256, 3922, 8816, 9285, 4748, 5430, 10826,
   7793, 2765, 3151, 10672, 4982, 8534, 3160, 9036, 10427, 384, 4757, 7783, 1695, 3950, 3186, 10871, 4424, 512,
   5343, 9496, 9363, 5530, 9055, 4779, 5783, 768, 3277, 7900, 9453, 1024, 6703, 11060, 9558, 1536, 3511, 2048,
   9831, 3072, 4096, 6144]

/-- ntt_constants.go:55-63 `inv_mod_q`, entries 12288 to 12288. -/
def inv_mod_q_96 : List Nat :=
  [12288]

/-- ntt_constants.go:55-63 `inv_mod_q`: the 12289 entries. -/
@[irreducible] def inv_mod_q : List Nat :=
  List.flatten [inv_mod_q_0, inv_mod_q_1, inv_mod_q_2, inv_mod_q_3, inv_mod_q_4, inv_mod_q_5, inv_mod_q_6,
    inv_mod_q_7, inv_mod_q_8, inv_mod_q_9, inv_mod_q_10, inv_mod_q_11, inv_mod_q_12, inv_mod_q_13,
    inv_mod_q_14, inv_mod_q_15, inv_mod_q_16, inv_mod_q_17, inv_mod_q_18, inv_mod_q_19, inv_mod_q_20,
    inv_mod_q_21, inv_mod_q_22, inv_mod_q_23, inv_mod_q_24, inv_mod_q_25, inv_mod_q_26, inv_mod_q_27,
    inv_mod_q_28, inv_mod_q_29, inv_mod_q_30, inv_mod_q_31, inv_mod_q_32, inv_mod_q_33, inv_mod_q_34,
    inv_mod_q_35, inv_mod_q_36, inv_mod_q_37, inv_mod_q_38, inv_mod_q_39, inv_mod_q_40, inv_mod_q_41,
    inv_mod_q_42, inv_mod_q_43, inv_mod_q_44, inv_mod_q_45, inv_mod_q_46, inv_mod_q_47, inv_mod_q_48,
    inv_mod_q_49, inv_mod_q_50, inv_mod_q_51, inv_mod_q_52, inv_mod_q_53, inv_mod_q_54, inv_mod_q_55,
    inv_mod_q_56, inv_mod_q_57, inv_mod_q_58, inv_mod_q_59, inv_mod_q_60, inv_mod_q_61, inv_mod_q_62,
    inv_mod_q_63, inv_mod_q_64, inv_mod_q_65, inv_mod_q_66, inv_mod_q_67, inv_mod_q_68, inv_mod_q_69,
    inv_mod_q_70, inv_mod_q_71, inv_mod_q_72, inv_mod_q_73, inv_mod_q_74, inv_mod_q_75, inv_mod_q_76,
    inv_mod_q_77, inv_mod_q_78, inv_mod_q_79, inv_mod_q_80, inv_mod_q_81, inv_mod_q_82, inv_mod_q_83,
    inv_mod_q_84, inv_mod_q_85, inv_mod_q_86, inv_mod_q_87, inv_mod_q_88, inv_mod_q_89, inv_mod_q_90,
    inv_mod_q_91, inv_mod_q_92, inv_mod_q_93, inv_mod_q_94, inv_mod_q_95, inv_mod_q_96]

end Falcon
