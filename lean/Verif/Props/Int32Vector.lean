import Verif.Lemmas.Int32Eval
import Verif.Props.Int32
import Verif.Props.Vectors
/-!
# A signature of the repository on a 32-bit platform

Property C99. A signature of the repository, which `Verify` accepts (`honest_accepted`), is rejected when `int` has 32 bits.
-/

namespace Falcon
open Spec Check

set_option maxRecDepth 4000
set_option maxHeartbeats 1000000

/-- Part of the certificate. -/
def honestCert0000 : Cert :=
  .node [5560, 11327, 11635, 5957, 2955, 764, 12096, 11511, 9360, 6084, 2393, 8030, 6441, 237, 208, 11951, 1760, 8528, 11457, 12251,
  6628, 2432, 2579, 12199, 4330, 5497, 10053, 4622, 3281, 1804, 8473, 7244]
 (.node [2299, 8796, 8004, 5659, 7722, 11356, 3339, 12224, 5144, 11854, 4530, 7389, 11058, 1193, 8687, 1714]
 (.node [11692, 687, 9539, 1637, 8499, 12104, 12270, 11345]
 (.node [45, 5588, 4157, 5663]
 (.leaf 8961 4910 791 7154)
 (.leaf 12018 3549 1639 1521))
 (.node [6385, 11356, 7789, 7527]
 (.leaf 2726 7658 5192 6370)
 (.leaf 2153 3880 9161 5973)))
 (.node [7597, 3674, 9947, 4923, 9933, 9461, 9704, 5262]
 (.node [11780, 7435, 9697, 7483]
 (.leaf 3463 8590 12171 5238)
 (.leaf 2612 7497 11199 2336))
 (.node [10203, 10314, 3442, 6348]
 (.leaf 4114 4895 10649 2356)
 (.leaf 7996 1512 4754 8602))))
 (.node [11708, 3826, 8416, 11065, 709, 6803, 5420, 745, 6076, 11835, 2715, 5236, 4749, 6207, 171, 11053]
 (.node [7767, 3596, 3756, 9227, 2811, 10120, 5478, 5612]
 (.node [11826, 347, 321, 5545]
 (.leaf 12231 2933 7582 1873)
 (.leaf 8044 4981 368 3626))
 (.node [12046, 7781, 3237, 3946]
 (.leaf 3769 9736 608 6876)
 (.leaf 4348 5366 4857 6368)))
 (.node [8493, 1397, 11721, 10, 11330, 6325, 8685, 8073]
 (.node [4945, 12010, 2683, 8379]
 (.leaf 2333 5531 3932 1365)
 (.leaf 1396 5364 3380 1731))
 (.node [3417, 8703, 606, 10122]
 (.leaf 6060 5364 5712 3864)
 (.leaf 58 8179 10263 5887))))

/-- Part of the certificate. -/
def honestCert0001 : Cert :=
  .node [4079, 10173, 6159, 515, 9802, 9538, 7133, 50, 11653, 3310, 12217, 9953, 11039, 7076, 11989, 10296, 8883, 3290, 6422, 6982,
  2226, 8534, 10856, 466, 8665, 5580, 3805, 2102, 1728, 8605, 737, 12130]
 (.node [7126, 3337, 9670, 9736, 1337, 11085, 2913, 4998, 12231, 6702, 5380, 5661, 978, 9098, 11311, 289]
 (.node [11376, 9703, 6211, 10100, 3322, 11665, 5038, 5800]
 (.node [4395, 2011, 1349, 5419]
 (.leaf 3203 3384 9438 804)
 (.leaf 1309 10904 12251 9642))
 (.node [11066, 4360, 7356, 2318]
 (.leaf 7713 4837 6275 8867)
 (.leaf 4850 10931 1746 2482)))
 (.node [11029, 2038, 6595, 8121, 9047, 891, 5171, 890]
 (.node [389, 7358, 4969, 9175]
 (.leaf 10018 7072 8545 8932)
 (.leaf 3961 6338 11294 6296))
 (.node [1134, 5085, 10148, 4658]
 (.leaf 9254 7403 2184 3315)
 (.leaf 7463 6985 7224 12259))))
 (.node [6281, 6334, 789, 4924, 9706, 10159, 5463, 2275, 10961, 8201, 9631, 8335, 7686, 11732, 881, 8139]
 (.node [163, 9001, 3788, 3869, 9581, 8983, 9709, 4510]
 (.node [4582, 9973, 9282, 965]
 (.leaf 1133 11268 56 3691)
 (.leaf 11203 10339 10771 5192))
 (.node [9089, 8504, 1129, 2076]
 (.leaf 2652 7747 11344 6152)
 (.leaf 11295 2183 6739 230)))
 (.node [8500, 8572, 7745, 2984, 7941, 1476, 1041, 2414]
 (.node [8536, 11509, 10853, 7872]
 (.leaf 3878 3218 3548 4571)
 (.leaf 1682 8777 11374 5892))
 (.node [77, 10672, 10304, 2418]
 (.leaf 11519 6361 8940 3897)
 (.leaf 2382 2773 8722 4620))))

/-- Part of the certificate. -/
def honestCert000 : Cert :=
  .node [9273, 1847, 1784, 8581, 8791, 2190, 9249, 2665, 9587, 8612, 8374, 5443, 5085, 6818, 10323, 410, 5798, 633, 3328, 8840, 7186,
  9889, 8314, 7746, 6212, 6670, 2510, 10253, 517, 12188, 10757, 856, 7298, 8511, 4612, 155, 11288, 11626, 9276, 2937, 9753,
  3503, 2771, 2093, 6828, 10619, 2993, 9116, 9465, 11484, 1289, 9705, 4693, 3124, 4711, 4533, 8182, 10669, 6813, 9084, 12187,
  4759, 5008, 9480] honestCert0000 honestCert0001

/-- Part of the certificate. -/
def honestCert0010 : Cert :=
  .node [3189, 6440, 6620, 11677, 10648, 1235, 10972, 6845, 10759, 3266, 4167, 11608, 9846, 2859, 1892, 3261, 6756, 6669, 12009,
  3741, 11052, 12164, 762, 2028, 3077, 4830, 2688, 7911, 6134, 2131, 10242, 7585]
 (.node [10959, 3004, 12086, 2764, 868, 1743, 208, 8721, 568, 7875, 11608, 1395, 10098, 11444, 10277, 2769]
 (.node [837, 7425, 7450, 10609, 10366, 357, 10771, 6523]
 (.node [4131, 2885, 11506, 8647]
 (.leaf 3508 3932 3720 9253)
 (.leaf 10562 7934 9248 3917))
 (.node [8226, 9724, 4080, 11424]
 (.leaf 8975 7752 2219 11947)
 (.leaf 1974 4507 9385 8383)))
 (.node [11625, 11951, 11082, 8024, 3195, 7133, 4607, 5100]
 (.node [11788, 9553, 5164, 10998]
 (.leaf 4526 8081 159 5420)
 (.leaf 8506 7707 1962 8911))
 (.node [400, 10493, 280, 3311]
 (.leaf 11591 7940 3621 10948)
 (.leaf 9031 11701 10366 2564))))
 (.node [11474, 2919, 2846, 4451, 1082, 4812, 167, 7938, 4780, 453, 5018, 10639, 11952, 10109, 4998, 2616]
 (.node [1052, 9793, 2947, 10197, 8761, 1684, 4886, 3807]
 (.node [11567, 6572, 11367, 10491]
 (.leaf 2925 10929 6927 1918)
 (.leaf 10443 7903 9173 4874))
 (.node [12276, 6699, 6811, 11397]
 (.leaf 3343 9104 79 6018)
 (.leaf 1730 8364 5047 0)))
 (.node [8215, 8023, 5243, 10722, 3012, 1778, 11673, 5728]
 (.node [8119, 1838, 2395, 2556]
 (.leaf 11123 8620 3727 1513)
 (.leaf 1035 11149 6092 7932))
 (.node [8433, 712, 3875, 6915]
 (.leaf 10717 5395 8056 8183)
 (.leaf 9584 11941 4618 5132))))

/-- Part of the certificate. -/
def honestCert0011 : Cert :=
  .node [3773, 2236, 11518, 7170, 3643, 11627, 698, 12273, 6422, 8637, 2619, 5611, 9995, 1520, 6169, 882, 5672, 462, 11253, 9384,
  4900, 2374, 2788, 772, 3295, 9458, 9686, 8984, 3333, 643, 3611, 5190]
 (.node [9149, 9344, 7635, 341, 1385, 4115, 11902, 9670, 3067, 4174, 3637, 1780, 232, 9335, 1988, 10545]
 (.node [3102, 3988, 2750, 10786, 9765, 8853, 10928, 122]
 (.node [3545, 6768, 9309, 5525]
 (.leaf 11301 7417 9359 9894)
 (.leaf 7075 10434 2610 11957))
 (.node [4855, 11960, 1685, 1816]
 (.leaf 2263 7895 5079 5464)
 (.leaf 9077 10349 9713 4518)))
 (.node [8141, 2652, 8951, 4980, 2379, 9823, 7280, 7428]
 (.node [11541, 821, 6101, 7354]
 (.leaf 6181 583 3382 7390)
 (.leaf 1066 7669 10512 9135))
 (.node [8066, 4917, 8121, 8306]
 (.leaf 347 2069 1208 8420)
 (.leaf 10099 11789 10944 10671))))
 (.node [2383, 3442, 10961, 4623, 9827, 10217, 3431, 9531, 9732, 11342, 2544, 8434, 11184, 9317, 5008, 12220]
 (.node [9057, 7792, 10022, 6481, 10537, 5489, 4106, 8614]
 (.node [2280, 2107, 8013, 6360]
 (.leaf 8338 1042 4690 3092)
 (.leaf 4062 6157 11254 1066))
 (.node [1527, 7112, 172, 5847]
 (.leaf 10464 9154 9809 4248)
 (.leaf 2264 4804 3534 7415)))
 (.node [11513, 9694, 8110, 11939, 3449, 256, 2194, 4150]
 (.node [4459, 3880, 7997, 3172]
 (.leaf 10314 11729 4877 3136)
 (.leaf 8146 2985 11710 7823))
 (.node [10190, 3414, 1024, 6087]
 (.leaf 6802 9700 8251 6065)
 (.leaf 1962 6121 10186 9930))))

/-- Part of the certificate. -/
def honestCert001 : Cert :=
  .node [6956, 11711, 6736, 6144, 4688, 8552, 7937, 3128, 8241, 766, 498, 1972, 11416, 10528, 170, 1231, 5167, 4062, 9151, 9670,
  1015, 7319, 7950, 2977, 4517, 2886, 915, 4803, 10571, 5502, 3911, 2611, 3147, 10365, 3099, 10239, 4457, 7272, 5627, 1855,
  9241, 574, 11678, 361, 1733, 12080, 11552, 4793, 5956, 198, 4907, 4753, 11590, 6075, 3998, 11824, 8939, 3329, 3868, 394,
  1286, 6909, 10163, 5007] honestCert0010 honestCert0011

/-- Part of the certificate. -/
def honestCert00 : Cert :=
  .node [223, 6034, 7197, 8786, 840, 2728, 6341, 10821, 11003, 6579, 1273, 3107, 11556, 6942, 7783, 9836, 3830, 3055, 11371, 5853,
  8765, 7983, 1663, 9223, 10069, 101, 4203, 9433, 6215, 2142, 7484, 5625, 8837, 2759, 5571, 7984, 6361, 295, 11633, 6047,
  7426, 6946, 7698, 12080, 10399, 6229, 4195, 11297, 12128, 296, 2804, 10536, 10865, 6444, 3444, 4773, 2449, 10874, 6434,
  5653, 10284, 11230, 1177, 535, 5267, 9329, 4728, 5, 5223, 4001, 7321, 5278, 2503, 7784, 5836, 5127, 3848, 2415, 5931, 12232,
  10179, 9327, 1951, 5055, 2945, 2597, 5195, 11280, 4042, 9614, 8960, 12278, 2705, 3281, 11014, 7218, 1092, 5549, 9097, 1582,
  5026, 9841, 11708, 7702, 4366, 5020, 7734, 10803, 2584, 6838, 3622, 5444, 6847, 9517, 9153, 12185, 733, 604, 6934, 11234,
  3113, 8972, 2307, 7211, 7079, 2937, 8007, 10953] honestCert000 honestCert001

/-- Part of the certificate. -/
def honestCert0100 : Cert :=
  .node [3475, 736, 8088, 6305, 552, 12252, 11776, 6452, 714, 3186, 1140, 5442, 10811, 6907, 10446, 6881, 7591, 676, 10566, 12065,
  9499, 9471, 6105, 6170, 5623, 3553, 5513, 10117, 7709, 4288, 4253, 1272]
 (.node [8250, 1052, 6402, 9114, 1950, 3291, 8859, 2519, 10278, 5171, 9485, 12282, 4588, 7815, 12143, 8907]
 (.node [4651, 7758, 8765, 5689, 1580, 4739, 57, 10525]
 (.node [60, 7227, 9304, 5291]
 (.leaf 9788 1153 11615 5665)
 (.leaf 7971 1568 10914 11864))
 (.node [8875, 11037, 12065, 5359]
 (.leaf 9956 8712 9334 2562)
 (.leaf 7277 4399 5838 8725)))
 (.node [5952, 1108, 4983, 4341, 10047, 11331, 4626, 8871]
 (.node [3530, 4662, 10689, 604]
 (.leaf 4096 11791 1799 7444)
 (.leaf 1450 9333 11536 7280))
 (.node [5002, 2, 4346, 6953]
 (.leaf 2502 11794 7148 5979)
 (.leaf 11019 309 5664 7100))))
 (.node [11363, 10124, 4358, 4796, 7326, 10991, 1399, 970, 1926, 3043, 9460, 9127, 7961, 5910, 3768, 652]
 (.node [4599, 4577, 3014, 7329, 8629, 3149, 791, 2210]
 (.node [4588, 11316, 5889, 7645]
 (.leaf 7952 6767 1215 1844)
 (.leaf 10941 686 11958 8555))
 (.node [4347, 2608, 7733, 10140]
 (.leaf 9622 2792 6207 6537)
 (.leaf 6343 409 3376 11383)))
 (.node [8489, 5265, 2066, 4653, 8608, 5038, 1198, 2753]
 (.node [6877, 9504, 6823, 8120]
 (.leaf 2046 1327 7831 5289)
 (.leaf 11143 3409 7276 8064))
 (.node [718, 4908, 5231, 7268]
 (.leaf 2813 105 1459 7539)
 (.leaf 4292 1409 8995 11172))))

/-- Part of the certificate. -/
def honestCert0101 : Cert :=
  .node [4297, 866, 7371, 2564, 11775, 5376, 2076, 6494, 1776, 7488, 9265, 5839, 3793, 2695, 824, 8874, 3882, 2487, 6846, 8132, 1967,
  8688, 7831, 6515, 729, 11270, 7173, 9879, 6091, 8635, 691, 1665]
 (.node [8726, 11112, 2431, 4285, 4632, 7552, 3244, 4849, 9329, 7489, 11472, 7173, 12144, 8526, 7363, 1178]
 (.node [9919, 3358, 6092, 10191, 8409, 3178, 10335, 10415]
 (.node [494, 1997, 11938, 10375]
 (.leaf 7390 5012 6201 11398)
 (.leaf 1398 7220 4309 6779))
 (.node [1521, 2195, 6429, 4266]
 (.leaf 1858 11492 6675 6423)
 (.leaf 4151 8857 6504 3011)))
 (.node [2120, 3203, 9627, 3814, 752, 12215, 2076, 6700]
 (.node [8806, 576, 339, 4388]
 (.leaf 4691 8508 455 9486)
 (.leaf 9666 11681 4529 4688))
 (.node [10516, 9240, 7218, 10791]
 (.leaf 9878 2860 6369 6701)
 (.leaf 1729 5758 9888 2492))))
 (.node [4644, 9125, 12203, 4463, 3626, 7675, 6914, 8435, 8403, 10612, 10879, 11008, 7661, 3919, 7592, 11866]
 (.node [740, 8333, 11795, 1530, 3363, 4799, 5790, 9729]
 (.node [10681, 518, 4081, 1615]
 (.leaf 11744 2848 7296 8483)
 (.leaf 370 2114 1242 111))
 (.node [4210, 12081, 8830, 6538]
 (.leaf 2001 7684 10987 11119)
 (.leaf 8666 5417 897 5269)))
 (.node [10150, 6230, 11839, 3514, 7788, 4434, 3542, 9631]
 (.node [8190, 1532, 6111, 442]
 (.leaf 4861 9421 7141 8319)
 (.leaf 4236 7645 12085 10728))
 (.node [11286, 8921, 7595, 5412]
 (.leaf 3959 359 2159 5651)
 (.leaf 241 131 186 7352))))

/-- Part of the certificate. -/
def honestCert010 : Cert :=
  .node [5407, 1543, 6180, 7581, 8043, 8133, 2793, 9817, 4843, 8550, 9192, 3023, 12138, 11414, 1535, 11369, 645, 783, 11132, 7529,
  5630, 8939, 10766, 118, 9418, 12204, 10944, 2870, 5351, 3252, 6169, 7593, 11406, 3776, 6204, 7437, 5330, 3513, 2755, 9086,
  5394, 1315, 9578, 9364, 5846, 6364, 7789, 4551, 261, 10985, 3124, 3982, 10856, 170, 7460, 485, 6624, 8794, 8808, 12057,
  11383, 9412, 69, 2475] honestCert0100 honestCert0101

/-- Part of the certificate. -/
def honestCert0110 : Cert :=
  .node [6063, 1756, 6585, 3538, 8805, 3189, 9865, 4827, 3281, 8292, 6869, 3191, 3418, 9673, 11621, 10158, 8097, 1518, 3729, 1636,
  9898, 10341, 11686, 6866, 5089, 8954, 23, 656, 5471, 9181, 6645, 5377]
 (.node [10054, 11206, 5997, 7346, 11931, 5030, 401, 4745, 10952, 8827, 3975, 9276, 877, 6484, 7326, 6011]
 (.node [10630, 527, 2336, 2573, 3745, 481, 9825, 524]
 (.node [11723, 8599, 2113, 11319]
 (.leaf 10161 6716 2294 11806)
 (.leaf 7219 10779 8999 2973))
 (.node [4727, 7971, 7646, 5383]
 (.leaf 6349 370 9504 8828)
 (.leaf 2198 2094 2146 11789)))
 (.node [7701, 3317, 10265, 3656, 2753, 8406, 9748, 9551]
 (.node [5509, 816, 11724, 3505]
 (.leaf 9307 1470 11533 822)
 (.leaf 4930 8856 6893 7539))
 (.node [1946, 11080, 6486, 1012]
 (.leaf 6513 3749 5131 4331)
 (.leaf 3519 11508 1369 9259))))
 (.node [5357, 5979, 4790, 10310, 4787, 2008, 346, 5203, 1992, 1809, 8668, 8257, 11097, 7771, 3781, 9812]
 (.node [5668, 7550, 9542, 8919, 8045, 2318, 9434, 652]
 (.node [6609, 3086, 11326, 5043]
 (.leaf 10992 2040 6516 3938)
 (.leaf 5581 11668 2480 6919))
 (.node [11216, 6255, 3821, 11943]
 (.leaf 2591 7882 11381 11904)
 (.leaf 8984 10376 9680 4561)))
 (.node [446, 2946, 3919, 11592, 297, 7787, 12203, 11736]
 (.node [1696, 1611, 4042, 5825]
 (.leaf 7798 11078 9438 10174)
 (.leaf 11129 1406 123 8977))
 (.node [12031, 9134, 4870, 12227]
 (.leaf 4438 2404 3421 11984)
 (.leaf 10346 7613 2835 7485))))

/-- Part of the certificate. -/
def honestCert0111 : Cert :=
  .node [1949, 10206, 1643, 3530, 7915, 7814, 1149, 4103, 2795, 3027, 8494, 8692, 7962, 1495, 2325, 3323, 3812, 9790, 7135, 10885,
  6637, 7369, 8255, 10679, 4813, 891, 10649, 4010, 2407, 2018, 11833, 5958]
 (.node [12222, 8731, 1720, 2626, 2911, 8593, 10873, 2824, 6801, 9010, 7003, 9467, 2852, 1185, 8357, 2751]
 (.node [4332, 2173, 5752, 704, 1761, 8235, 8163, 5554]
 (.node [9397, 3228, 4998, 714]
 (.leaf 168 2856 1512 2249)
 (.leaf 6458 5208 5833 10414))
 (.node [6073, 6943, 3219, 5311]
 (.leaf 6508 4265 11531 4100)
 (.leaf 2355 6972 10808 7459)))
 (.node [9542, 10559, 1516, 10689, 7788, 4080, 871, 603]
 (.node [3906, 12247, 5934, 737]
 (.leaf 1932 9480 5706 5868)
 (.leaf 11956 8028 9992 3271))
 (.node [316, 10880, 5369, 3060]
 (.leaf 5598 10359 1834 11624)
 (.leaf 8411 9060 2591 5728))))
 (.node [11068, 6945, 8914, 1427, 12053, 655, 2720, 812, 7365, 5130, 10595, 11076, 4656, 9393, 12182, 5963]
 (.node [2862, 11315, 6354, 1766, 103, 4691, 880, 2928]
 (.node [944, 4060, 2397, 1904]
 (.leaf 2502 8295 11543 3767)
 (.leaf 1076 11346 6211 8682))
 (.node [1016, 2798, 819, 10579]
 (.leaf 1907 5699 3803 9432)
 (.leaf 5908 5156 5532 656)))
 (.node [2623, 8609, 11825, 1289, 7968, 8337, 3975, 5392]
 (.node [5616, 6557, 2008, 10828]
 (.leaf 12231 6418 3180 6021)
 (.leaf 2670 7256 4963 2968))
 (.node [898, 7840, 9716, 6006]
 (.leaf 4369 7861 6115 3180)
 (.leaf 11987 6974 3336 3994))))

/-- Part of the certificate. -/
def honestCert011 : Cert :=
  .node [12071, 55, 10403, 5398, 3704, 9466, 8365, 11000, 2379, 2942, 1335, 5043, 4502, 2939, 663, 8991, 3858, 2704, 10693, 5891,
  6316, 7422, 9157, 9514, 6816, 20, 10916, 8430, 1996, 8957, 10078, 10238, 8561, 7633, 4742, 10583, 10896, 8851, 6224, 9337,
  2540, 4967, 6371, 2022, 2952, 8131, 11948, 1784, 535, 9643, 4497, 1122, 5234, 7101, 10335, 3266, 6884, 4058, 611, 5462,
  2307, 10983, 8337, 2417] honestCert0110 honestCert0111

/-- Part of the certificate. -/
def honestCert01 : Cert :=
  .node [2072, 8742, 2386, 700, 9186, 3174, 4167, 10995, 565, 3232, 8966, 7300, 1272, 4314, 9717, 9917, 10527, 11448, 285, 4526,
  6217, 12167, 7782, 10553, 8132, 3855, 3046, 7493, 1658, 1412, 7659, 2790, 5949, 7630, 10796, 3059, 9991, 12273, 3762, 11296,
  3701, 7559, 11698, 6180, 6650, 2593, 9007, 3518, 8513, 10323, 6343, 5776, 7418, 2181, 1799, 3941, 1642, 9060, 4230, 2274,
  12274, 64, 2670, 227, 1758, 8765, 4712, 2840, 9187, 3221, 3545, 11329, 327, 10333, 10354, 8961, 2792, 2718, 3635, 2248,
  5039, 5749, 5997, 8922, 11879, 7277, 4143, 2296, 1719, 9973, 10947, 1781, 9837, 5741, 10211, 11180, 9330, 3481, 3849, 5832,
  8997, 9540, 8485, 11768, 12166, 9546, 2441, 10188, 3263, 11657, 418, 552, 3098, 10150, 2608, 2691, 5628, 11988, 2214, 9611,
  961, 9516, 5957, 578, 2602, 9825, 11573, 5666] honestCert010 honestCert011

/-- Part of the certificate. -/
def honestCert0 : Cert :=
  .node [5914, 6821, 11725, 343, 8714, 5680, 5426, 12146, 8187, 5782, 3293, 2163, 10199, 2483, 12221, 9421, 2430, 7287, 9741, 3417,
  933, 1613, 5374, 840, 11873, 11239, 5095, 8789, 4085, 11481, 12064, 7608, 11919, 8030, 96, 6014, 9665, 788, 3550, 8156, 777,
  4464, 11636, 4330, 1955, 1371, 11735, 6711, 9367, 10771, 6861, 5630, 7124, 1282, 626, 5951, 560, 11870, 8436, 8137, 11475,
  3493, 3803, 7447, 10237, 7437, 5007, 511, 10783, 359, 8250, 7718, 3327, 9395, 8147, 4732, 10765, 212, 7203, 4891, 12197,
  2655, 11170, 2722, 1504, 1603, 1543, 10328, 6090, 2419, 5881, 6577, 5075, 3315, 9976, 329, 8511, 3456, 8590, 4291, 6420,
  11477, 10456, 10616, 7798, 1643, 2700, 10188, 2642, 4246, 12027, 9808, 6434, 10753, 11039, 10709, 6076, 6792, 11048, 258,
  4902, 3377, 3547, 6624, 10375, 4268, 10822, 2537, 747, 9787, 3985, 2384, 6043, 3413, 6800, 5499, 5149, 5297, 10515, 9776,
  7319, 7323, 4628, 5928, 7645, 9650, 6305, 9263, 2534, 9138, 6371, 3883, 6342, 1354, 1672, 3158, 6040, 5822, 3759, 8416,
  7294, 775, 2140, 4225, 37, 3865, 270, 9840, 10395, 7784, 5862, 11621, 11639, 11040, 9954, 317, 6352, 1732, 9450, 9778,
  12134, 5786, 10024, 2243, 1768, 3642, 1553, 5009, 11536, 10492, 11970, 2466, 6237, 8236, 9256, 1842, 8144, 10050, 8288,
  7165, 10772, 11569, 262, 7131, 5202, 5925, 3107, 8, 2584, 6148, 3858, 6182, 11678, 3790, 4364, 4953, 11100, 6357, 859, 528,
  1986, 5258, 935, 9953, 9193, 4501, 7909, 11125, 2876, 3141, 5648, 6433, 11658, 2097, 1343, 12154, 3852, 10016, 381, 9798,
  4191, 2035, 1578, 4077, 8637, 8266, 11441, 2981, 7728, 6430, 7810, 10353, 5044, 10970, 7950, 1667] honestCert00 honestCert01

/-- Part of the certificate. -/
def honestCert1000 : Cert :=
  .node [1603, 2756, 9074, 1678, 2741, 2394, 3829, 3613, 2087, 6972, 5313, 621, 3561, 9788, 10188, 4793, 3041, 5904, 8819, 7660,
  10286, 8994, 11746, 643, 1937, 2011, 4166, 3301, 1031, 21, 7931, 9799]
 (.node [8324, 5376, 8712, 3721, 10674, 2967, 530, 1346, 10617, 2095, 9640, 50, 1974, 9878, 526, 8865]
 (.node [6850, 72, 676, 938, 6356, 4845, 5926, 10840]
 (.node [3461, 807, 11745, 8383]
 (.leaf 2134 10064 6099 9977)
 (.leaf 10509 1291 5900 10540))
 (.node [929, 5850, 10898, 4049]
 (.leaf 9534 1329 11576 7066)
 (.leaf 9250 6019 1490 6291)))
 (.node [11694, 3267, 9444, 2833, 10718, 9205, 7476, 10390]
 (.node [1336, 12283, 3817, 8933]
 (.leaf 665 6375 3520 363)
 (.leaf 2061 2101 2081 3665))
 (.node [7033, 9775, 5162, 5326]
 (.leaf 8404 5244 6824 2158)
 (.leaf 8847 11229 10038 3849))))
 (.node [4733, 10793, 7506, 11648, 335, 10103, 11638, 5634, 1286, 11221, 2292, 6126, 11198, 666, 9034, 2987]
 (.node [7763, 9577, 5219, 8636, 109, 4209, 5932, 12155]
 (.node [8670, 783, 2159, 2899]
 (.leaf 10871 2529 6700 596)
 (.leaf 7924 10289 2962 9711))
 (.node [294, 675, 8866, 9358]
 (.leaf 6629 9112 1726 9612)
 (.leaf 11085 9109 10097 5719)))
 (.node [10156, 5809, 5148, 2867, 2849, 3147, 3960, 4166]
 (.node [1838, 10152, 2998, 4063]
 (.leaf 5995 9675 7835 3016)
 (.leaf 7693 8089 7891 2173))
 (.node [1677, 3737, 2712, 5302]
 (.leaf 2707 4007 3357 646)
 (.leaf 702 3952 2327 1615))))

/-- Part of the certificate. -/
def honestCert1001 : Cert :=
  .node [11752, 1188, 10569, 1809, 9540, 7464, 11324, 1628, 9770, 7703, 685, 4291, 8359, 12102, 10312, 10074, 5656, 9799, 6671,
  12029, 6717, 7541, 1889, 3906, 6400, 1672, 522, 8149, 2483, 7897, 11542, 7499]
 (.node [6470, 6189, 8502, 6476, 2592, 2488, 4086, 10193, 1583, 9350, 7129, 9042, 4036, 10480, 5190, 3376]
 (.node [185, 7489, 2540, 995, 11611, 1941, 7258, 4283]
 (.node [3837, 7912, 6776, 11915]
 (.leaf 12019 3201 7610 2045)
 (.leaf 6588 10907 2603 1349))
 (.node [4878, 951, 1490, 5103]
 (.leaf 9059 9441 9250 4109)
 (.leaf 4519 10921 7720 5830)))
 (.node [94, 6754, 1488, 11964, 7082, 4197, 1986, 4268]
 (.node [3424, 6726, 11784, 3127]
 (.leaf 5075 1311 3193 9937)
 (.leaf 432 12139 141 3509))
 (.node [8303, 3503, 7838, 10975]
 (.leaf 5903 3262 10727 448)
 (.leaf 9883 6335 8109 5901))))
 (.node [2541, 8669, 3255, 11962, 3800, 11791, 4759, 11150, 6540, 7387, 11531, 991, 5391, 5942, 3884, 242]
 (.node [5605, 1464, 1651, 1810, 819, 6261, 11811, 2063]
 (.node [9679, 7875, 3540, 6937]
 (.leaf 8777 11383 10080 5729)
 (.leaf 1542 6498 4020 10492))
 (.node [10587, 8906, 6173, 9794]
 (.leaf 3602 1839 8865 4272)
 (.leaf 3240 7038 5139 1580)))
 (.node [8595, 5248, 8901, 4619, 1519, 7233, 6719, 4383]
 (.node [777, 6760, 4376, 5551]
 (.leaf 9913 11108 4366 5551)
 (.leaf 6475 5589 6032 2549))
 (.node [8145, 11443, 8051, 297]
 (.leaf 9794 4174 6984 3410)
 (.leaf 10724 4956 7840 7239))))

/-- Part of the certificate. -/
def honestCert100 : Cert :=
  .node [7820, 7675, 10103, 7698, 7291, 10857, 1508, 1848, 10570, 7201, 7230, 9847, 1703, 5955, 850, 6376, 11733, 4730, 1740, 12204,
  8124, 2502, 7277, 6254, 11019, 8392, 2275, 5012, 6111, 1976, 3448, 6138, 3460, 2622, 512, 11296, 7896, 9742, 4989, 10331,
  3378, 4905, 1217, 4482, 6432, 4771, 9729, 3846, 11028, 5135, 4699, 11612, 7229, 1103, 9879, 9012, 11323, 3028, 11285, 1046,
  11402, 4460, 6865, 444] honestCert1000 honestCert1001

/-- Part of the certificate. -/
def honestCert1010 : Cert :=
  .node [10761, 2734, 5414, 848, 2663, 3351, 11197, 6765, 2210, 9636, 5644, 2973, 3351, 779, 10901, 3581, 4490, 12108, 2615, 5931,
  9062, 6750, 2486, 3585, 10847, 1337, 5863, 6792, 1680, 12137, 8307, 4624]
 (.node [603, 3131, 3007, 8981, 5923, 10453, 2065, 7241, 8299, 4273, 7906, 9180, 6092, 183, 764, 321]
 (.node [1867, 5994, 8188, 4653, 6286, 8543, 9282, 6687]
 (.node [10075, 276, 1270, 1840]
 (.leaf 11320 1555 293 3833)
 (.leaf 6040 11189 2470 7881))
 (.node [10274, 11027, 5563, 9671]
 (.leaf 4506 7617 12206 5955)
 (.leaf 8460 7821 1996 1667)))
 (.node [1761, 140, 7727, 3035, 3604, 4341, 7052, 9992]
 (.node [7095, 5381, 10117, 8522]
 (.leaf 6238 3175 10851 3626)
 (.leaf 3463 10463 6963 5903))
 (.node [3923, 11346, 2938, 9912]
 (.leaf 1490 6425 10102 2444)
 (.leaf 10215 5507 7861 7799))))
 (.node [11097, 8939, 4865, 11767, 7446, 4642, 3195, 2356, 1565, 8050, 10499, 10993, 6949, 10815, 6454, 9577]
 (.node [10018, 8316, 6044, 8920, 10952, 10746, 8882, 1871]
 (.node [9167, 7482, 10849, 11521]
 (.leaf 2180 11185 538 3196)
 (.leaf 1243 283 763 10608))
 (.node [597, 9942, 1738, 8316]
 (.leaf 11414 5027 2076 11407)
 (.leaf 10947 9910 4284 10304)))
 (.node [1575, 7282, 8800, 596, 152, 9927, 5944, 5468]
 (.node [10573, 4698, 11184, 5706]
 (.leaf 1491 8445 4968 8753)
 (.leaf 9240 7305 2128 3979))
 (.node [5176, 5321, 3377, 7250]
 (.leaf 11393 11458 5281 3719)
 (.leaf 6537 132 9479 10385))))

/-- Part of the certificate. -/
def honestCert1011 : Cert :=
  .node [7007, 7902, 9334, 10862, 2095, 8610, 11882, 840, 4513, 10466, 3716, 6170, 5372, 10852, 8374, 4252, 5693, 2589, 4941, 5213,
  9048, 1304, 5098, 8135, 11357, 3387, 6337, 6250, 9213, 3638, 10272, 6776]
 (.node [1310, 10098, 11497, 6361, 1345, 4943, 8112, 6313, 4141, 5077, 5176, 472, 7372, 149, 281, 8524]
 (.node [5704, 8929, 3144, 1068, 4609, 2824, 9905, 10547]
 (.node [1172, 2106, 9861, 10226]
 (.leaf 1639 3899 2769 2327)
 (.leaf 8392 2963 11822 11609))
 (.node [11932, 4454, 3284, 2732]
 (.leaf 8193 3008 11745 2364)
 (.leaf 8410 1580 4995 6537)))
 (.node [3524, 10926, 7636, 5608, 7693, 2775, 481, 805]
 (.node [7225, 6622, 5234, 643]
 (.leaf 779 9083 4931 9507)
 (.leaf 8453 7888 2026 5897))
 (.node [2052, 9859, 3005, 754]
 (.leaf 12100 8024 10062 7100)
 (.leaf 2629 2414 8666 10920))))
 (.node [1929, 9270, 10534, 11239, 11285, 9780, 11178, 11799, 9306, 3503, 8875, 6086, 11235, 1962, 1752, 9779]
 (.node [11744, 4742, 4388, 5344, 260, 1336, 454, 11910]
 (.node [8243, 4866, 798, 6182]
 (.leaf 410 3490 1950 1464)
 (.leaf 9545 12007 10776 227))
 (.node [11436, 1574, 348, 3826]
 (.leaf 6505 2087 4296 6656)
 (.leaf 9719 8658 3044 4845)))
 (.node [10312, 2118, 2183, 1718, 3045, 6663, 6226, 9627]
 (.node [6215, 8095, 4854, 1782]
 (.leaf 7155 3318 11381 302)
 (.leaf 10486 3591 894 2818))
 (.node [1112, 7027, 8206, 8524]
 (.leaf 10214 8365 3145 4794)
 (.leaf 9393 5806 1455 7783))))

/-- Part of the certificate. -/
def honestCert101 : Cert :=
  .node [1083, 8150, 972, 4496, 8273, 2555, 9671, 4314, 8676, 8939, 2726, 3976, 9725, 380, 10007, 3523, 844, 3576, 11104, 8168, 5979,
  5309, 9028, 9207, 1217, 5485, 5700, 8147, 2136, 7377, 719, 6443, 5657, 3323, 6531, 5396, 6478, 11041, 10157, 1705, 3282,
  2553, 1879, 11621, 3961, 1011, 10388, 9071, 6474, 2931, 1988, 686, 5253, 6473, 591, 704, 9484, 6165, 6116, 5869, 7861, 8753,
  5467, 3781] honestCert1010 honestCert1011

/-- Part of the certificate. -/
def honestCert10 : Cert :=
  .node [8004, 7636, 6388, 8962, 3386, 4531, 9299, 6097, 7895, 6687, 2923, 6502, 476, 2540, 5889, 10096, 6250, 2601, 4905, 9497,
  2413, 12047, 1246, 6159, 11721, 3974, 11974, 12225, 8085, 5904, 8802, 3950, 4801, 6376, 6464, 2996, 9298, 6471, 3293, 8826,
  4780, 11468, 12196, 5097, 3582, 10972, 99, 120, 8120, 1629, 11703, 5081, 27, 4523, 2850, 7174, 7152, 5070, 12230, 4011,
  2334, 4562, 2108, 10168, 10513, 8696, 9867, 7666, 7729, 5584, 5912, 4391, 10402, 5390, 9462, 10022, 11952, 10315, 3678,
  4695, 10603, 8442, 8456, 1354, 4870, 9853, 5130, 3834, 8752, 4112, 7655, 1887, 4852, 2317, 2123, 5569, 8423, 1344, 1251,
  9019, 3652, 5746, 3246, 7689, 11465, 2993, 9659, 4836, 6184, 1285, 1900, 3835, 3400, 6957, 2074, 3982, 7037, 3244, 5839,
  8542, 723, 9792, 8839, 81, 702, 739, 4231, 8946] honestCert100 honestCert101

/-- Part of the certificate. -/
def honestCert1100 : Cert :=
  .node [7833, 9544, 9407, 8145, 5586, 6020, 525, 7986, 2129, 7247, 1604, 10888, 1878, 10915, 1089, 462, 11473, 1390, 10913, 6013,
  5779, 90, 4091, 4121, 12073, 3226, 5162, 5026, 6683, 1815, 6912, 4535]
 (.node [2544, 8776, 5803, 10400, 4688, 6246, 252, 6920, 287, 8463, 9079, 4106, 1505, 5094, 4249, 11868]
 (.node [5660, 1957, 5467, 3586, 4375, 448, 9444, 1914]
 (.node [9953, 10671, 8556, 5679]
 (.leaf 10312 973 11787 2276)
 (.leaf 1540 7454 4497 12031))
 (.node [10541, 10935, 6690, 419]
 (.leaf 10738 9699 4074 8825)
 (.leaf 2214 11988 7101 8967)))
 (.node [4638, 7875, 5657, 9538, 3671, 4297, 2577, 11568]
 (.node [112, 1453, 3984, 928]
 (.leaf 6927 2456 10836 11811)
 (.leaf 1735 8114 11069 7255))
 (.node [2638, 11429, 5441, 10512]
 (.leaf 889 1832 7505 7543)
 (.leaf 3924 2238 3081 4576))))
 (.node [9348, 5400, 3068, 11559, 4924, 11931, 5425, 6314, 12211, 4443, 8460, 103, 4427, 1749, 6915, 3495]
 (.node [7374, 1169, 2283, 12014, 8327, 10426, 3088, 5205]
 (.node [10416, 1004, 3232, 10291]
 (.leaf 5710 617 9308 7616)
 (.leaf 1687 10533 6110 5035))
 (.node [11414, 6561, 8449, 4397]
 (.leaf 2843 6423 4633 5474)
 (.leaf 121 528 6469 4163)))
 (.node [10107, 11087, 2741, 10116, 5813, 10422, 5288, 11804]
 (.node [10597, 284, 1973, 8546]
 (.leaf 11585 11404 5350 11485)
 (.leaf 6698 1584 4141 10520))
 (.node [585, 5709, 11891, 8817]
 (.leaf 3147 10354 606 1356)
 (.leaf 395 7634 10159 11394))))

/-- Part of the certificate. -/
def honestCert1101 : Cert :=
  .node [1756, 7537, 5064, 7005, 5346, 1327, 3560, 290, 324, 361, 4086, 4257, 9652, 4261, 5095, 5924, 1563, 8468, 4125, 9312, 7112,
  7937, 10501, 9303, 9698, 3997, 11637, 3842, 8925, 7024, 11363, 2736]
 (.node [10791, 12179, 9481, 1925, 6487, 10316, 812, 11654, 11160, 574, 1380, 9902, 703, 1595, 1830, 905]
 (.node [11485, 5703, 2257, 6233, 5867, 5641, 1149, 7512]
 (.node [8594, 4245, 5754, 10475]
 (.leaf 275 1970 7267 8224)
 (.leaf 615 11964 145 3522))
 (.node [7290, 4490, 5823, 2465]
 (.leaf 5890 4144 5017 10699)
 (.leaf 6545 5494 12164 12240)))
 (.node [9201, 5581, 7189, 5146, 12035, 1251, 7495, 5363]
 (.node [7391, 23, 6643, 6429]
 (.leaf 3707 6536 11266 11677)
 (.leaf 6690 3823 11401 9378))
 (.node [2300, 6216, 2759, 1465]
 (.leaf 4258 2112 3185 5568)
 (.leaf 11495 7623 9559 6479))))
 (.node [8172, 5254, 10104, 2841, 6479, 10438, 9945, 10357, 10900, 4506, 7682, 3522, 12222, 3024, 5273, 11543]
 (.node [6713, 328, 2314, 10151, 7703, 5602, 7623, 8408]
 (.node [9665, 88, 508, 1871]
 (.leaf 11021 7334 3033 10241)
 (.leaf 11080 5169 1980 8621))
 (.node [11890, 2869, 10393, 703]
 (.leaf 1235 5548 9536 9201)
 (.leaf 11620 807 69 12147)))
 (.node [6535, 4879, 1254, 553, 6147, 8419, 3159, 7522]
 (.node [5707, 7048, 7283, 11485]
 (.leaf 233 9384 10953 8840)
 (.leaf 1735 2135 1935 5131))
 (.node [3577, 5853, 11716, 3742]
 (.leaf 4715 7729 6222 3150)
 (.leaf 7554 8619 1942 10402))))

/-- Part of the certificate. -/
def honestCert110 : Cert :=
  .node [4562, 11104, 3504, 3295, 10845, 7969, 2572, 1429, 6346, 4826, 6182, 5858, 8924, 4415, 1640, 2043, 2830, 1428, 4676, 9818,
  5183, 10314, 5318, 4169, 10730, 5315, 7945, 1596, 9547, 4920, 11194, 2019, 3071, 7586, 10898, 4171, 2047, 7490, 10464, 1562,
  10897, 661, 1407, 11062, 3718, 4464, 3125, 5117, 607, 11250, 4726, 1726, 7947, 2377, 8529, 1523, 5407, 7959, 6282, 9637,
  8295, 5529, 12229, 9130] honestCert1100 honestCert1101

/-- Part of the certificate. -/
def honestCert1110 : Cert :=
  .node [5772, 11303, 11847, 6731, 3138, 11802, 6279, 12262, 5054, 7200, 4847, 11296, 519, 4968, 6266, 5768, 7341, 6971, 10833, 1611,
  9216, 3034, 11159, 10053, 4980, 972, 6572, 5968, 11054, 2322, 4292, 4830]
 (.node [2393, 9289, 7470, 3126, 6127, 1927, 8888, 6017, 7156, 6222, 6125, 10606, 2976, 6270, 6688, 4561]
 (.node [5841, 5298, 4027, 1308, 6689, 2221, 4623, 11769]
 (.node [11714, 8812, 4455, 8196]
 (.leaf 10263 181 5222 3443)
 (.leaf 10922 8901 3767 3164))
 (.node [345, 9948, 10201, 11323]
 (.leaf 11291 10762 4882 6604)
 (.leaf 8045 9609 8827 6191)))
 (.node [1440, 6793, 6061, 10220, 3384, 8708, 2050, 575]
 (.node [10261, 1996, 6046, 7457]
 (.leaf 12273 607 6440 7040)
 (.leaf 1409 6449 3929 9828))
 (.node [6957, 3141, 889, 9287]
 (.leaf 5049 5088 11213 9070)
 (.leaf 226 2773 7644 6447))))
 (.node [6440, 4295, 3148, 11127, 8705, 9032, 5535, 7051, 11591, 1502, 7907, 9055, 10357, 8406, 10186, 7360]
 (.node [11512, 993, 2724, 6293, 402, 8481, 3237, 8773]
 (.node [108, 10653, 10586, 6005]
 (.leaf 11525 2151 6838 8453)
 (.leaf 8142 10914 9528 1585))
 (.node [11378, 11158, 2507, 971]
 (.leaf 11268 1739 359 961)
 (.leaf 3440 7940 5690 2153)))
 (.node [8761, 1675, 8475, 12274, 4452, 9727, 1205, 501]
 (.node [5218, 4230, 945, 853]
 (.leaf 4724 899 8956 9176)
 (.leaf 7660 2980 5320 2590))
 (.node [7027, 8417, 9162, 5630]
 (.leaf 7722 7396 7559 11388)
 (.leaf 10837 2191 6514 3675))))

/-- Part of the certificate. -/
def honestCert1111 : Cert :=
  .node [8270, 1909, 117, 2210, 5847, 12003, 11006, 1767, 5497, 8808, 12137, 8184, 9862, 7148, 10357, 6680, 1548, 9711, 2835, 1329,
  9330, 10061, 2275, 9622, 6881, 4396, 10669, 7974, 5742, 7738, 7154, 2854]
 (.node [11234, 7308, 8925, 242, 1008, 4016, 8505, 2374, 11774, 2082, 3551, 12093, 11783, 3177, 6740, 5004]
 (.node [9271, 10728, 2512, 11584, 6928, 7822, 7480, 5872]
 (.node [3855, 7048, 7375, 6676]
 (.leaf 11596 881 94 9547)
 (.leaf 10531 11286 4764 7707))
 (.node [2329, 1615, 9473, 7408]
 (.leaf 1972 2296 2134 11711)
 (.leaf 457 6037 3247 5214)))
 (.node [7143, 1079, 4381, 5506, 9650, 9369, 11970, 10269]
 (.node [4111, 11088, 3365, 4975]
 (.leaf 1455 4170 8957 3782)
 (.leaf 7955 2226 11235 5357))
 (.node [9148, 3379, 9177, 849]
 (.leaf 119 5013 2566 2847)
 (.leaf 5523 1853 3688 4379))))
 (.node [1966, 5623, 360, 11014, 7072, 10108, 12224, 4112, 9962, 6403, 2155, 2763, 12270, 9421, 10433, 3561]
 (.node [9939, 5687, 8590, 8168, 2038, 2459, 4701, 6997]
 (.node [7813, 8379, 8393, 5849]
 (.leaf 8096 7121 1464 5660)
 (.leaf 725 1371 1048 9654))
 (.node [8720, 4362, 10047, 3046]
 (.leaf 6541 402 9616 5120)
 (.leaf 11483 6062 2628 5236)))
 (.node [8092, 6854, 4813, 11801, 1912, 2128, 3295, 4919]
 (.node [7473, 8307, 2020, 4107]
 (.leaf 7890 9208 8549 1668)
 (.leaf 8960 10935 3803 11975))
 (.node [9937, 849, 2364, 1086]
 (.leaf 5393 1725 3559 5858)
 (.leaf 1013 12146 435 8895))))

/-- Part of the certificate. -/
def honestCert111 : Cert :=
  .node [10584, 960, 12074, 10532, 1113, 10292, 8309, 5153, 2569, 3707, 10928, 387, 7245, 5313, 1801, 10434, 8485, 1623, 6084, 8316,
  5120, 4574, 6525, 3778, 11766, 1561, 11174, 11051, 8013, 4519, 9190, 2346, 7701, 6981, 10112, 3830, 6601, 2776, 2856, 366,
  10337, 8095, 33, 6035, 5239, 4790, 1318, 6499, 7281, 2679, 6161, 8072, 1427, 11717, 6118, 5818, 10232, 11876, 12271, 4662,
  7772, 812, 10412, 11537] honestCert1110 honestCert1111

/-- Part of the certificate. -/
def honestCert11 : Cert :=
  .node [5514, 3610, 8470, 1449, 260, 6748, 11828, 7051, 8695, 706, 3918, 12020, 1571, 3573, 6261, 8886, 7995, 4697, 8421, 1231,
  4940, 7424, 6812, 4904, 677, 4882, 4116, 4714, 5635, 9934, 2188, 1898, 9429, 8520, 8334, 6811, 4183, 5169, 6794, 553, 8351,
  2015, 7582, 757, 5916, 4720, 3091, 5247, 12082, 9378, 7001, 3629, 10971, 4919, 380, 2812, 557, 6248, 7672, 2168, 3951, 6148,
  5474, 10853, 5222, 920, 1441, 1442, 4396, 5111, 9498, 11133, 270, 3824, 6572, 8408, 9233, 11695, 4901, 10512, 51, 9454,
  11535, 2076, 10260, 4843, 10671, 11453, 11512, 8213, 4730, 4198, 5510, 740, 8570, 1664, 2333, 11170, 10806, 11694, 834,
  8618, 3316, 136, 5353, 10541, 3385, 1369, 3443, 1326, 10429, 4906, 9094, 1720, 796, 2833, 4177, 8387, 10526, 8748, 5970,
  10620, 3496, 7562, 4135, 8034, 11841, 6419] honestCert110 honestCert111

/-- Part of the certificate. -/
def honestCert1 : Cert :=
  .node [4906, 11102, 8113, 7159, 11916, 860, 9299, 8625, 7638, 11423, 8838, 224, 3433, 2876, 649, 11545, 1459, 2042, 752, 333, 233,
  5613, 4302, 8702, 12186, 1055, 8170, 9199, 2236, 9542, 2714, 5189, 11202, 1298, 7684, 9807, 5547, 4263, 8340, 10654, 7698,
  9417, 2659, 9146, 8215, 6566, 10378, 1940, 8583, 2570, 3078, 4870, 11131, 528, 5284, 6877, 6526, 9644, 8045, 3763, 6518,
  11086, 10685, 9504, 2007, 7595, 9060, 3692, 349, 290, 1939, 4053, 7296, 11300, 191, 462, 5015, 1571, 8809, 8843, 468, 9092,
  4103, 6544, 12015, 88, 2952, 7242, 6575, 589, 788, 8867, 5483, 7004, 2566, 9963, 223, 3728, 957, 2301, 4805, 6312, 7913,
  2249, 4469, 7874, 9836, 11499, 4633, 1067, 2572, 11776, 9740, 4564, 4550, 5590, 8524, 3647, 7125, 897, 11838, 5119, 7317,
  1807, 2732, 1484, 2016, 6031, 9968, 11058, 9174, 8218, 9893, 9841, 2193, 850, 1640, 1529, 10239, 929, 104, 11720, 9949,
  11122, 11875, 8929, 11362, 11707, 3949, 2686, 10511, 9533, 4035, 7580, 4307, 4034, 5576, 1780, 8988, 402, 11732, 9474, 9195,
  7689, 1289, 3334, 5445, 9552, 7666, 2074, 9759, 9947, 6390, 3870, 8692, 11265, 8937, 8567, 6357, 1867, 11279, 4031, 11934,
  4129, 11799, 10194, 11566, 5357, 6634, 9901, 4852, 6286, 4704, 12142, 8573, 6404, 3179, 11612, 1708, 4041, 2835, 4469, 1649,
  9843, 3262, 3230, 3958, 11420, 7756, 2885, 5918, 68, 8939, 10379, 5843, 3829, 6026, 6342, 2419, 151, 8658, 7431, 11731,
  8228, 11635, 7454, 1772, 12142, 10516, 5921, 1471, 6493, 6115, 7959, 6823, 11954, 11312, 366, 595, 4200, 10042, 3693, 6018,
  1277, 4832, 557, 3271, 9180, 9523, 4170, 8543, 5224, 11086, 9665, 3889, 1714] honestCert10 honestCert11

/-- Part of the certificate. -/
def honestCert : Cert :=
  .node [2143, 9685, 3939, 9703, 8443, 2718, 10498, 2477, 5301, 12127, 11830, 11819, 4223, 6629, 8176, 3827, 10693, 5681, 3423, 8141,
  4307, 2279, 1370, 2956, 2153, 5956, 9910, 7345, 4531, 7622, 4663, 1890, 7487, 9662, 4674, 9900, 7518, 11964, 10561, 8562,
  1843, 23, 10948, 4567, 11573, 11464, 1310, 370, 8873, 2584, 2200, 7989, 4562, 5628, 4199, 1090, 12286, 8173, 2496, 8177,
  875, 10964, 6823, 8393, 6610, 4939, 6488, 9572, 2602, 9879, 5532, 6496, 10174, 9156, 9483, 4382, 5946, 1154, 6616, 9696,
  6217, 7626, 3331, 5597, 3887, 7096, 1247, 7413, 7077, 9122, 11480, 3551, 5636, 5545, 7256, 6166, 4920, 1525, 4918, 4335,
  2469, 11253, 10484, 776, 10659, 3589, 5549, 9304, 3756, 9785, 11278, 624, 4765, 8644, 3657, 7794, 2708, 1875, 11192, 5082,
  6621, 4040, 8659, 10616, 4561, 3045, 9246, 5648, 4601, 3584, 569, 2016, 6012, 4002, 2724, 10587, 7246, 2031, 10712, 2295,
  7376, 9124, 8105, 7331, 5901, 753, 3366, 3135, 1898, 2107, 11791, 9962, 2110, 7131, 4312, 8401, 4580, 9826, 3761, 6021,
  9656, 2449, 5782, 11817, 7636, 2415, 2459, 2985, 9627, 5670, 9207, 6288, 5513, 9862, 4588, 3779, 6195, 5985, 3685, 1153,
  3818, 7944, 3834, 9320, 5697, 4453, 3733, 2897, 6485, 1178, 7364, 5583, 8, 4725, 7821, 11380, 10937, 6243, 9005, 11866,
  4665, 8175, 9860, 805, 5797, 2826, 69, 8874, 8575, 7021, 3530, 12045, 5381, 19, 10132, 10244, 1472, 3812, 3101, 5391, 10203,
  1562, 4066, 3261, 1112, 11756, 2677, 6540, 523, 9266, 8620, 509, 5583, 6569, 7037, 6547, 4388, 5419, 11262, 1543, 6468,
  3336, 10545, 8498, 11001, 8382, 5248, 8000, 3435, 5026, 5373, 3163, 2749, 6606, 9284, 8079, 7867, 5916, 5746, 1539, 775,
  7195, 8983, 8074, 8968, 3118, 7460, 11655, 6002, 7598, 2265, 8733, 7515, 2783, 4847, 5747, 4850, 3891, 9696, 9856, 11011,
  3627, 8443, 6203, 7476, 1780, 8833, 3023, 3105, 12185, 7351, 11949, 7528, 5082, 5322, 915, 10251, 7106, 2755, 3232, 7769,
  4973, 12218, 7837, 2793, 9891, 8106, 6891, 7018, 8615, 100, 6216, 1380, 10700, 619, 11025, 4396, 3122, 7717, 9115, 12122,
  2466, 5930, 7909, 6067, 10502, 5897, 2553, 10507, 1856, 8183, 11836, 3333, 9496, 5141, 2250, 616, 7885, 6918, 8650, 915,
  10809, 1944, 9009, 6653, 4336, 3146, 6645, 7863, 12045, 3831, 9092, 7462, 5242, 11329, 4424, 432, 6179, 9436, 10120, 1708,
  10271, 7960, 3612, 11995, 8053, 8758, 8017, 5106, 10719, 3937, 3347, 7951, 7444, 5267, 4751, 11912, 11160, 7679, 1016, 3387,
  8264, 3109, 1823, 11648, 826, 9026, 7446, 11402, 7110, 11407, 4566, 10927, 5361, 3516, 4295, 9470, 7106, 6100, 8230, 713,
  8542, 7196, 3653, 11822, 991, 2120, 12142, 4765, 5639, 1414, 10436, 11098, 7405, 11655, 650, 8310, 9147, 4818, 7478, 465,
  7251, 8857, 3507, 7008, 4059, 5335, 2245, 5122, 3606, 10030, 12165, 11990, 10210, 1649, 11065, 6512, 7495, 337, 719, 3462,
  510, 11067, 11738, 2645, 11514, 10584, 9322, 7381, 11005, 5020, 3982, 8134, 7684, 3378, 6583, 1109, 4643, 8625, 9946, 6651,
  4645, 330, 247, 8476, 2551, 11425, 5058, 11175, 3800, 3978, 8041, 12065, 7928, 2693, 5050, 11687, 1364, 10708, 8888, 11930,
  8741, 8245, 8114, 7051, 8394, 11108, 9335, 3349, 1636, 2734, 1509, 6495, 4098, 7515, 10736, 12070, 3386, 10144, 2716, 1027,
  2304, 7278, 1139, 7868, 2220, 11551, 10389, 7313, 8587, 7021, 8602] honestCert0 honestCert1

/-- The product of the vector of the signature and the public key, as computed with a 32-bit `int`. -/
def honest32 : List Nat :=
  [791, 6099, 11615, 11787, 3720, 293, 2294, 5222, 9438, 7610, 6201, 7267, 9359, 2769, 1512, 94, 7582, 6700, 1215, 9308, 6927,
   538, 6516, 6838, 56, 10080, 7296, 3033, 4690, 1950, 11543, 1464, 12171, 3520, 1799, 10836, 159, 10851, 11533, 6440, 8545,
   3193, 455, 11266, 3382, 4931, 5706, 8957, 3932, 7835, 7831, 5350, 3727, 4968, 9438, 8956, 3548, 4366, 7141, 10953, 4877,
   11381, 3180, 8549, 5192, 11576, 9334, 4074, 2219, 12206, 9504, 4882, 6275, 9250, 6675, 5017, 5079, 11745, 11531, 2134, 608,
   1726, 6207, 4633, 79, 2076, 11381, 359, 11344, 8865, 10987, 9536, 9809, 4296, 3803, 9616, 10649, 6824, 7148, 7505, 3621,
   10102, 5131, 11213, 2184, 10727, 6369, 3185, 1208, 10062, 1834, 2566, 5712, 3357, 1459, 606, 8056, 5281, 3421, 7559, 8940,
   6984, 2159, 6222, 8251, 3145, 6115, 3559, 1639, 5900, 10914, 4497, 9248, 2470, 8999, 3767, 12251, 2603, 4309, 145, 2610,
   11822, 5833, 4764, 368, 2962, 11958, 6110, 9173, 763, 2480, 9528, 10771, 4020, 1242, 1980, 11254, 10776, 6211, 1048, 11199,
   2081, 11536, 11069, 1962, 6963, 6893, 3929, 11294, 141, 4529, 11401, 10512, 2026, 9992, 11235, 3380, 7891, 7276, 4141, 6092,
   2128, 123, 5320, 11374, 6032, 12085, 1935, 11710, 894, 4963, 3803, 9161, 1490, 5838, 7101, 9385, 1996, 2146, 8827, 1746,
   7720, 6504, 12164, 9713, 4995, 10808, 3247, 4857, 10097, 3376, 6469, 5047, 4284, 9680, 5690, 6739, 5139, 897, 69, 3534,
   3044, 5532, 2628, 4754, 10038, 5664, 3081, 10366, 7861, 1369, 7644, 7224, 8109, 9888, 9559, 10944, 8666, 2591, 3688, 10263,
   2327, 8995, 10159, 4618, 9479, 2835, 6514, 8722, 7840, 186, 1942, 10186, 1455, 3336, 435, 7154, 9977, 5665, 2276, 9253,
   3833, 11806, 3443, 804, 2045, 11398, 8224, 9894, 2327, 2249, 9547, 1873, 596, 1844, 7616, 1918, 3196, 3938, 8453, 3691,
   5729, 8483, 10241, 3092, 1464, 3767, 5660, 5238, 363, 7444, 11811, 5420, 3626, 822, 7040, 8932, 9937, 9486, 11677, 7390,
   9507, 5868, 3782, 1365, 3016, 5289, 11485, 1513, 8753, 10174, 9176, 4571, 5551, 8319, 8840, 3136, 302, 6021, 1668, 6370,
   7066, 2562, 8825, 11947, 5955, 8828, 6604, 8867, 4109, 6423, 10699, 5464, 2364, 4100, 11711, 6876, 9612, 6537, 5474, 6018,
   11407, 11904, 961, 6152, 4272, 11119, 9201, 4248, 6656, 9432, 5120, 2356, 2158, 5979, 7543, 10948, 2444, 4331, 9070, 3315,
   448, 6701, 5568, 8420, 7100, 11624, 2847, 3864, 646, 7539, 1356, 8183, 3719, 11984, 11388, 3897, 3410, 5651, 3150, 6065,
   4794, 3180, 5858, 1521, 10540, 11864, 12031, 3917, 7881, 2973, 3164, 9642, 1349, 6779, 3522, 11957, 11609, 10414, 7707,
   3626, 9711, 8555, 5035, 4874, 10608, 6919, 1585, 5192, 10492, 111, 8621, 1066, 227, 8682, 9654, 2336, 3665, 7280, 7255,
   8911, 5903, 7539, 9828, 6296, 3509, 4688, 9378, 9135, 5897, 3271, 5357, 1731, 2173, 8064, 10520, 7932, 3979, 8977, 2590,
   5892, 2549, 10728, 5131, 7823, 2818, 2968, 11975, 5973, 6291, 8725, 8967, 8383, 1667, 11789, 6191, 2482, 5830, 3011, 12240,
   4518, 6537, 7459, 5214, 6368, 5719, 11383, 4163, 0, 10304, 4561, 2153, 230, 1580, 5269, 12147, 7415, 4845, 656, 5236, 8602,
   3849, 7100, 4576, 2564, 7799, 9259, 6447, 12259, 5901, 2492, 6479, 10671, 10920, 5728, 4379, 5887, 1615, 11172, 11394, 5132,
   10385, 7485, 3675, 4620, 7239, 7352, 10402, 9930, 7783, 3994, 8895]

/-- `Verify` over an arithmetic, on a signature of at least 41 bytes whose body decodes. -/
theorem VerifyOn_decoded {W : Int → Go Int} {xof : Xof} {fuel : Nat} {m sig : List UInt8} {c p pk r : List Int16} {s : List Int}
    (hs : 41 ≤ sig.length) (hd : Decodes (sig.drop 41) s) (hc : hashToPoint xof fuel m (saltOf sig) = .ok c)
    (hp : MulZq W (s.map Int16.ofInt) pk = .ok p) (hr : SubZq c p = .ok r) :
    VerifyOn W xof fuel pk m sig = .ok (!decide (addSquares (addSquares 0 (r.map centre)) (s.map Int16.ofInt) > 34034726)) := by
  have e : VerifyOn W xof fuel pk m sig = verifyBodyOn W xof fuel pk m (saltOf sig) (sig.drop 41) := by
    unfold VerifyOn slice HeadLen SaltLen saltOf
    rw [if_pos (by omega), if_pos (by omega)]
    simp
  rw [e]
  unfold verifyBodyOn
  obtain ⟨hp1, hp2⟩ := par512
  simp only [hp1, hp2]
  rw [(decodes_iff _ _).2 hd]
  simp only [Go.ok_bind, Go.pure_eq, hc, hp, hr]

theorem honestCert_ok : honestCert.ok 9 = true := by decide +kernel

theorem honestCert_val : honestCert.val =
    (level 9).map fun w => horner (natResidues (honestVec.map Int16.ofInt)) w * horner (natResidues key0) w % 12289 := by decide +kernel

theorem honestCert_out : honestCert.out = honest32 := by decide +kernel

/-- The product computed with a 32-bit `int`. -/
theorem honest_product : MulZq wrap32 (honestVec.map Int16.ofInt) key0 = .ok (toI16 honest32) := by
  rw [← honestCert_out]
  exact MulZq_cert 9 (by norm_num) (by norm_num) _ _ (by decide +kernel) (by decide +kernel) honestCert honestCert_ok honestCert_val

/-- The squared norm computed modulo 2^32 with a 32-bit `int`, far above the bound. -/
theorem honest_norm32 : ∃ r, SubZq honestHash (toI16 honest32) = .ok r ∧
    (addSquares (addSquares 0 (r.map centre)) (honestVec.map Int16.ofInt)).toNat = 1810216760 :=
  ⟨addLoop honestHash (negZq (toI16 honest32)), by decide +kernel, by decide +kernel⟩

/-- C99, violated on a signature of the repository: `Verify` accepts it with a 64-bit `int`, and rejects it with a 32-bit one. -/
theorem C99_violated_vector : Verify Shake.shake256 612 key0 honestMsg honestSig = .ok true ∧
    VerifyOn wrap32 Shake.shake256 612 key0 honestMsg honestSig = .ok false := by
  refine ⟨honest_accepted, ?_⟩
  obtain ⟨r, hr, hn⟩ := honest_norm32
  rw [VerifyOn_decoded (by decide +kernel) ⟨by decide +kernel, by decide +kernel, by decide +kernel, List.isPrefixOf_iff_prefix.1 honest_body⟩
    honest_hash honest_product hr]
  have : addSquares (addSquares 0 (r.map centre)) (honestVec.map Int16.ofInt) > 34034726 := by
    rw [gt_iff_lt, UInt32.lt_iff_toNat_lt, hn]
    decide
  simp [this]

end Falcon
