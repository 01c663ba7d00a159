import Verif.Props.Vectors
import Verif.Props.Ntt
import Mathlib.Tactic.Ring
import Mathlib.Tactic.LinearCombination
/-!
# C85: what a signature binds

`HashToPoint` takes the salt and the message (src/falcon.go:228-256) and not the public key, and `Verify` (src/falcon.go:475-512) checks
one linear equation in the key. This file asks whether an accepted signature determines the key and the message it is accepted for.

* The key is not determined. For a vector `s1` that is invertible, the accepting keys are exactly the quotients `(c - t) / s1` for the
  vectors `t` within the bound, so whoever is given an honest signature can compute further keys under which it verifies for the same
  message.
* The message is not determined. Under the first key of the repository and with SHAKE256 one signature is accepted for two messages.
* With norms that do not reach 2^32 the hash points of two messages with the same signature differ by a short vector.
-/

namespace Falcon
namespace Check
open Spec

set_option maxRecDepth 100000

/-- The ASCII string `other message 477`. -/
def otherMsg : List UInt8 :=
  [111, 116, 104, 101, 114, 32, 109, 101, 115, 115, 97, 103, 101, 32, 52, 55, 55]

set_option maxHeartbeats 1000000 in
/-- The first 1224 bytes of SHAKE256 of salt and message. -/
def otherStream : List UInt8 :=
  [6, 50, 190, 162, 143, 244, 80, 214, 157, 224, 80, 117, 184, 86, 192, 42, 227, 39, 205, 197, 217, 90, 236, 191, 82, 96, 82, 121, 181,
   223, 40, 42, 164, 173, 194, 168, 155, 145, 107, 79, 240, 238, 181, 190, 208, 193, 68, 179, 4, 123, 21, 220, 172, 223, 173, 237, 184,
   236, 120, 15, 222, 75, 140, 117, 111, 110, 123, 189, 34, 1, 115, 16, 208, 99, 198, 247, 108, 181, 140, 120, 180, 65, 107, 205, 199,
   124, 190, 136, 97, 17, 208, 146, 247, 53, 238, 231, 114, 106, 99, 121, 193, 208, 141, 176, 50, 73, 16, 100, 149, 186, 175, 255, 128,
   154, 210, 215, 222, 132, 79, 124, 244, 155, 164, 0, 224, 80, 51, 61, 13, 157, 45, 129, 11, 206, 30, 230, 83, 228, 220, 226, 109, 174,
   244, 188, 140, 139, 216, 26, 194, 149, 240, 171, 28, 202, 47, 30, 195, 254, 247, 37, 72, 61, 247, 216, 33, 194, 81, 98, 172, 74, 218,
   135, 80, 144, 74, 210, 127, 54, 50, 160, 229, 175, 155, 230, 22, 241, 251, 255, 47, 97, 74, 4, 87, 237, 79, 23, 105, 118, 205, 36, 93,
   43, 51, 119, 169, 22, 103, 246, 188, 98, 20, 38, 157, 229, 96, 110, 6, 3, 246, 148, 148, 167, 232, 125, 47, 27, 242, 221, 28, 55, 160,
   23, 96, 184, 211, 149, 180, 75, 239, 169, 17, 57, 148, 137, 81, 14, 37, 113, 92, 51, 55, 226, 249, 202, 190, 7, 82, 81, 6, 239, 127,
   49, 215, 253, 141, 196, 111, 237, 132, 182, 28, 145, 26, 224, 60, 210, 109, 17, 237, 183, 220, 112, 114, 141, 253, 81, 201, 235, 23,
   177, 45, 143, 181, 125, 231, 121, 6, 87, 227, 132, 140, 179, 108, 99, 171, 98, 161, 84, 209, 57, 180, 195, 104, 153, 123, 210, 224,
   79, 151, 153, 46, 204, 56, 197, 115, 7, 203, 158, 9, 188, 7, 26, 119, 15, 37, 220, 200, 57, 74, 250, 95, 25, 152, 44, 237, 48, 149,
   109, 196, 36, 111, 167, 133, 79, 207, 77, 205, 7, 133, 30, 165, 103, 10, 170, 245, 255, 210, 126, 234, 73, 138, 54, 214, 20, 6, 149,
   127, 225, 201, 224, 247, 181, 100, 55, 223, 204, 152, 205, 218, 4, 75, 146, 244, 172, 173, 166, 40, 153, 163, 47, 148, 112, 124, 183,
   37, 254, 95, 154, 156, 66, 228, 183, 65, 67, 19, 109, 46, 41, 26, 149, 44, 110, 232, 210, 187, 98, 179, 43, 31, 251, 101, 106, 131, 7,
   69, 12, 40, 111, 245, 47, 204, 83, 128, 39, 116, 202, 4, 210, 215, 131, 154, 121, 50, 35, 150, 7, 187, 149, 189, 61, 213, 18, 254,
   138, 195, 32, 176, 172, 101, 165, 119, 168, 238, 240, 165, 57, 57, 44, 222, 246, 101, 105, 244, 138, 31, 24, 33, 93, 239, 156, 22, 80,
   14, 95, 121, 198, 252, 136, 118, 56, 72, 59, 42, 208, 178, 67, 222, 203, 140, 13, 194, 202, 96, 194, 25, 129, 194, 196, 20, 211, 51,
   183, 198, 73, 106, 45, 136, 33, 243, 250, 102, 237, 228, 91, 103, 250, 236, 40, 92, 110, 178, 127, 125, 133, 179, 89, 216, 208, 27, 6,
   2, 197, 208, 151, 99, 233, 110, 157, 119, 91, 252, 216, 93, 237, 244, 253, 47, 151, 162, 85, 17, 214, 129, 26, 77, 49, 146, 197, 16,
   131, 30, 58, 203, 241, 129, 101, 20, 60, 127, 42, 170, 102, 250, 55, 135, 18, 194, 107, 168, 243, 189, 215, 167, 224, 183, 128, 172,
   97, 30, 189, 84, 111, 254, 97, 4, 194, 10, 204, 150, 91, 76, 37, 212, 109, 51, 17, 174, 226, 161, 24, 5, 157, 53, 105, 107, 77, 52,
   125, 0, 254, 53, 139, 189, 235, 232, 230, 227, 48, 66, 239, 81, 2, 213, 190, 71, 65, 31, 93, 157, 4, 67, 218, 19, 229, 12, 40, 30, 77,
   233, 38, 108, 113, 94, 218, 179, 197, 15, 166, 38, 203, 243, 104, 218, 43, 161, 217, 95, 124, 85, 116, 26, 230, 63, 25, 220, 175, 54,
   165, 129, 112, 249, 150, 52, 47, 247, 47, 78, 209, 210, 96, 152, 251, 113, 248, 76, 23, 153, 178, 154, 63, 56, 69, 38, 86, 181, 190,
   237, 52, 112, 115, 52, 224, 164, 92, 3, 80, 20, 48, 182, 226, 75, 150, 209, 198, 154, 75, 135, 153, 52, 222, 44, 138, 7, 194, 206,
   249, 200, 79, 179, 52, 123, 75, 27, 55, 63, 187, 66, 232, 142, 170, 255, 28, 0, 176, 211, 97, 221, 115, 235, 133, 178, 15, 77, 170,
   169, 211, 29, 103, 81, 155, 100, 45, 64, 137, 88, 53, 238, 246, 171, 75, 59, 56, 113, 178, 233, 27, 91, 189, 197, 214, 232, 94, 201,
   107, 166, 67, 183, 215, 204, 128, 137, 81, 84, 68, 51, 43, 136, 122, 157, 224, 69, 198, 130, 82, 242, 31, 25, 34, 171, 158, 13, 90,
   82, 204, 235, 104, 117, 204, 47, 117, 102, 12, 223, 247, 36, 120, 113, 68, 142, 170, 137, 77, 43, 13, 64, 37, 114, 37, 4, 16, 56, 38,
   110, 45, 129, 155, 108, 143, 20, 211, 171, 11, 67, 17, 172, 162, 48, 102, 66, 106, 66, 208, 137, 92, 224, 45, 56, 73, 16, 243, 66,
   214, 109, 72, 233, 98, 76, 147, 200, 219, 130, 163, 164, 122, 233, 53, 76, 163, 58, 111, 227, 47, 103, 83, 39, 146, 45, 130, 241, 244,
   91, 28, 172, 65, 44, 186, 43, 88, 68, 46, 125, 38, 81, 251, 170, 253, 124, 10, 185, 67, 193, 55, 207, 22, 107, 221, 76, 14, 112, 38,
   236, 3, 92, 154, 91, 23, 149, 56, 207, 143, 198, 208, 26, 194, 43, 194, 39, 14, 87, 134, 158, 172, 170, 5, 96, 107, 61, 231, 131, 1,
   194, 193, 92, 29, 9, 75, 74, 90, 100, 44, 107, 220, 3, 235, 118, 61, 142, 139, 245, 109, 56, 191, 174, 90, 127, 132, 185, 39, 59, 130,
   115, 218, 184, 29, 222, 139, 192, 170, 118, 98, 34, 17, 148, 32, 183, 239, 100, 177, 177, 244, 40, 245, 87, 107, 92, 148, 3, 190, 87,
   163, 96, 235, 205, 161, 214, 160, 5, 81, 42, 222, 251, 243, 9, 248, 212, 79, 34, 13, 117, 82, 220, 189, 179, 45, 179, 217, 130, 253,
   204, 247, 125, 130, 84, 19, 20, 251, 30, 26, 21, 165, 213, 2, 166, 62, 153, 145, 94, 219, 232, 149, 250, 12, 52, 238, 83, 166, 6, 116,
   133, 202, 84, 215, 194, 164, 183, 166, 218, 237, 147, 122, 118, 6, 130, 2, 198, 253, 187, 104, 90, 184, 65, 32, 144, 225, 19, 180, 66,
   193, 133, 3, 244, 157, 153, 192, 88, 81, 154, 174, 166, 143, 223, 120, 150, 38, 40, 238, 130, 41, 191, 122, 230, 163, 25, 105, 242,
   79, 30, 37, 145, 215, 94, 234, 37, 251, 182, 217, 35, 98, 124, 246, 59, 56, 254, 78, 53, 46, 244, 79, 190, 172, 201, 70, 14, 27, 202,
   190, 82, 13, 119, 84, 0, 98, 233, 98, 168, 203, 162, 87, 89, 71, 122, 193, 174, 85, 56, 231, 177, 21, 217, 199, 85, 147, 171, 198]

set_option maxHeartbeats 1000000 in
/-- The hash point. -/
def otherHash : List Int16 :=
  [1586, 11935, 12274, 8405, 3549, 8308, 10323, 38, 8995, 3521, 6486, 11451, 8799, 8824, 9692, 10282, 5290, 676, 2958, 2893, 9659, 4285,
   5298, 1147, 5596, 7388, 7658, 10473, 6157, 7751, 11379, 3948, 7099, 8705, 4878, 4191, 1779, 3251, 11382, 9278, 3019, 1912, 11909, 271,
   4238, 12003, 4712, 887, 460, 11694, 584, 4196, 1463, 8188, 8344, 4819, 7808, 8059, 5117, 8268, 828, 3485, 11649, 3022, 7910, 9187,
   7390, 3500, 11401, 6166, 657, 7370, 12062, 1018, 6204, 8642, 8545, 7239, 6787, 8335, 6865, 7988, 671, 9643, 3043, 5873, 12129, 6659,
   10220, 7958, 2420, 3360, 11562, 886, 6419, 2036, 11359, 5158, 3554, 108, 1539, 1188, 10361, 12059, 7223, 4116, 182, 5009, 9288, 12197,
   4409, 1158, 8461, 9585, 11314, 2017, 11780, 8784, 1775, 7983, 6137, 11714, 4075, 9396, 7313, 6880, 3281, 3343, 11699, 7276, 4747,
   2535, 6065, 11663, 9594, 10101, 1623, 9088, 11441, 3169, 7007, 4433, 4405, 9408, 2199, 7120, 8267, 1942, 11980, 2244, 4869, 2970,
   2492, 1818, 5901, 9692, 2101, 6905, 12056, 2089, 11564, 1386, 1056, 4005, 9549, 3913, 3331, 9500, 5476, 2730, 4730, 10821, 10804,
   5648, 1685, 8159, 2524, 1077, 8136, 2250, 6656, 7057, 7587, 10393, 4908, 1133, 7349, 9726, 12185, 3135, 9395, 4418, 4973, 11817, 6805,
   11374, 10446, 11103, 9000, 8187, 1384, 8965, 5387, 10351, 3151, 8229, 5320, 1234, 6015, 2678, 546, 1540, 11154, 11578, 5390, 796,
   8361, 1443, 6054, 12012, 5430, 2347, 7922, 1383, 7960, 8541, 12184, 5712, 3679, 6596, 5686, 6202, 10960, 8768, 7879, 11275, 710, 192,
   6529, 704, 5331, 950, 1605, 2603, 10271, 1771, 9303, 2040, 11300, 11373, 8828, 7555, 9046, 6348, 6918, 709, 4243, 999, 3739, 5977,
   11756, 12183, 4690, 4566, 8472, 7472, 706, 4227, 7738, 3053, 8547, 5180, 7976, 6755, 10000, 615, 6384, 11732, 6109, 10109, 7262, 7869,
   9326, 1218, 2764, 1624, 7204, 5225, 784, 7903, 4373, 1437, 1384, 2891, 1148, 254, 1418, 11752, 10466, 9004, 4846, 8449, 5562, 5952,
   8029, 3329, 5081, 5093, 3112, 7757, 10530, 3183, 11993, 9154, 4006, 9931, 6695, 4566, 12155, 9587, 6886, 3864, 7339, 1700, 8558, 1070,
   7888, 4700, 2296, 4598, 7190, 2479, 2620, 2116, 9814, 9659, 11568, 4209, 1247, 5209, 848, 5168, 9951, 7061, 4546, 2632, 10135, 1245,
   11402, 1986, 3829, 2123, 9009, 6985, 6967, 4026, 4839, 11944, 176, 4957, 7535, 11137, 8716, 7593, 6608, 7527, 8602, 1067, 4232, 10292,
   12018, 6984, 2871, 4528, 10519, 11196, 1490, 10330, 2407, 5696, 10196, 3196, 10575, 9283, 810, 10360, 3549, 5573, 8784, 6434, 7067,
   3418, 8907, 11108, 5578, 12149, 1546, 8179, 9336, 4418, 11944, 10571, 11021, 4132, 4643, 1040, 2085, 3627, 8601, 3213, 5331, 6920,
   4880, 7327, 101, 4713, 4815, 10586, 8233, 2120, 4339, 4821, 3398, 10590, 7314, 2263, 8865, 5239, 10545, 7330, 2670, 9003, 1873, 10130,
   11650, 11035, 7230, 11450, 11096, 5165, 7460, 8698, 6906, 7176, 10560, 307, 3858, 3035, 7181, 4132, 11263, 11417, 11030, 1333, 3979,
   1740, 6850, 11202, 9998, 10117, 3753, 6658, 105, 3558, 8959, 701, 11292, 2379, 6745, 1066, 3034, 1003, 5691, 11913, 2238, 7767, 8066,
   10532, 2945, 5080, 10266, 7815, 166, 5728, 8721, 1053, 10220, 1199, 8689, 10485, 10090, 11411, 958, 10146, 233, 3485, 5788, 1361,
   10974, 2552, 5195, 8717, 5456, 7353, 9002, 9174, 8955, 3315, 7552, 9234, 5371, 7706]

set_option maxHeartbeats 1000000 in
/-- The residual. -/
def otherRes : List Int :=
  [4141, 1963, -2010, 600, 4738, -2231, -4945, -5170, -6087, -4679, -2828, 1452, 3465, 3915, 5462, -5282, 1399, -4666, -87, -4698, 4387,
   -4724, -5058, 2006, 2128, -3386, 3147, -1583, -3702, 5025, -1616, 2659, 571, 1131, -5857, -5045, 4665, 618, 3655, -950, 1244, -3146,
   1883, -4724, -291, -6065, -5607, 5757, -8, -3537, -2034, 4361, -4731, 5396, -1364, -4950, -3866, 3440, 4832, -202, 2699, 2672, -4270,
   5366, 4715, 5480, -28, -3701, -3582, -4675, -4738, 245, 4063, 4905, -3452, -5333, -3273, 2751, -4550, 123, 1838, 93, 4541, -4282, 729,
   1470, 4070, -5699, -1735, -5695, 5461, 5615, 3972, 5640, 5392, -5218, 268, 4324, 758, 5684, 5866, -365, -2382, -4884, 1841, 3153,
   4413, -1127, -3792, -805, 5629, 4225, -5426, -1189, -4386, -4726, 1452, 3764, -4425, -4279, -197, 4553, -5253, -5348, 4433, -5024,
   5474, -3107, 4879, 992, 2146, -5667, -5728, -2856, 2926, 4339, -5609, 4409, 2911, -4204, 3747, 1201, 306, 5706, -4515, -408, 4374,
   4744, 6059, 992, -770, -1064, -4550, -4505, -5746, -4178, -2209, 1651, -328, -4074, 934, 1729, -1437, 5678, 4720, 2233, 63, 4423, 928,
   -4962, -3358, 5341, 1015, -555, 4938, -4269, -6072, 3086, -1291, 2793, -5358, -3863, -3378, -3710, -5997, -610, -4330, 5987, 5303,
   -5484, 5387, -2612, 5310, 274, 3225, -4347, 4748, -97, -958, -2541, 1050, -4372, 2087, -3038, 643, 4316, -5862, 183, 3007, 5356, 2343,
   -3913, -3755, 2378, 1058, 5739, 3670, 4006, -2690, -5358, 4593, -4311, -4389, -4215, 201, -6088, -5877, 1959, -1342, -5163, 2486,
   -1681, 176, 1960, 5854, -5426, -1711, 877, -1471, -4128, 2187, 5440, 4263, -1315, -5144, 2747, 586, 4063, 2891, 1987, 738, 2213,
   -4226, 2880, 4825, 3609, -2605, -2156, -529, 2846, 1102, 3513, -4354, 6081, 1756, -5557, 2709, 4302, -5268, -5146, -430, 3849, -2571,
   405, 464, 5391, 2564, 5964, -1382, -5297, 638, 4843, -964, -1351, 26, 4508, 4842, 5821, -3333, 2979, 4635, -3135, 261, 4475, 1005,
   2078, 241, 3425, -2981, -742, -2458, -4751, -2828, 4041, -1288, 2060, 3073, -5149, -1198, 5312, 5771, 2624, 2147, 3013, -3490, 5218,
   -5964, 4401, 2637, -103, 5231, 6012, 4186, -4380, 5023, -1639, 4961, -4678, 1119, 4610, -4191, 1480, -548, -5458, 4205, -166, -158,
   641, -2080, -726, -3704, -820, -4452, -1152, 4752, -489, -2928, -4125, -207, -5616, -6135, 5433, -1982, -4084, 5086, -5468, -3935,
   -4076, 5881, 4230, 5514, -2716, 3933, -3658, 1087, -2935, -6130, -1627, 4808, 178, 2547, -5379, -2761, -3026, 2685, 2452, 4041, -2964,
   -1402, 2894, 2338, 1155, -2055, -649, 958, 4009, -3781, 453, -3949, 2757, 329, -1585, 4527, 4006, 405, -2453, -970, -5380, -2084,
   -2279, 4941, -5388, -1494, 4849, -4729, 270, 3350, -4198, 2665, 2754, 4993, -5135, -5942, 3559, -4011, 296, -4055, 6088, 5275, -3200,
   -3590, 1933, 3806, -5963, 5351, 1179, 453, 3133, 3704, -1727, -3316, -4928, 988, -3056, 6088, 2977, -1999, -3226, 1994, 280, -254,
   2100, -3525, -3449, -6095, -1297, 4849, -5620, 1805, -4669, -1158, -962, -4055, 4193, 2291, -4468, 3518, 2055, -395, -86, 279, 6111,
   -4629, -5366, -5877, 2531, 1557, 5644, 277, -341, -3920, -115, 4710, -3119, -2016, 4037, 762, 2307, -5773, -438, -433, -5856, -4058,
   -4982, -5683, 2720, 5923, -2618, -2759, -893, 6105, 218, -3979, -5598, -5977, 3342, -1814, 514, 5142, -3921, -5954, -4571, -5926,
   -4468, 4058, -5136, 3957, -3446, -4168, -3255, -4839, 1801]

set_option maxHeartbeats 1000000 in
/-- Certificate: the multiple of 12289. -/
def otherK : List Int :=
  [-43968, -22903, -12695, -7028, 10336, -3148, -18639, -8875, -1275, -19225, -26847, -3380, 7191, -9950, -22779, -8975, -15270, 4435,
   -424, -5598, 5429, -2112, -6661, -14150, -12995, -19375, 2878, 6633, -7800, -16211, -20780, -18642, 4249, 18547, 1960, -10111, -6465,
   2208, -5364, 3689, -158, -13365, -19203, -5730, -12332, -15851, 9150, -1437, 6983, -674, -2297, 3954, 12853, 3219, 11501, -4300, 939,
   -1874, 378, -613, -4772, -13722, -18784, -18309, -2096, 6104, 18325, -2132, -2270, -11238, -21344, -9964, 14178, -4534, -15889,
   -15576, 9981, 5275, -606, 4647, -6314, 12732, 19155, 828, 5437, 14676, 11008, -7455, -4424, -5482, 13356, 18666, 8627, -7087, -13440,
   -4153, -6770, -2351, 7167, 2499, 9734, -6826, 10364, 5040, 7245, 19346, -3828, -12639, -6357, -9839, 8513, 12242, 140, 3033, -4679,
   2516, -6229, -3193, 1247, -6489, 261, 2892, 8333, 25449, 26875, 5249, 13886, 11007, 2905, 21023, 5768, 13627, 16550, 5808, 3523, 8171,
   2683, 10726, 23581, 10042, 5695, 18615, 29178, 4337, 18279, 5073, 14032, 32611, 13862, 11919, 28110, 16945, -799, 12368, 6502, 10493,
   15115, 1599, 18463, 16086, -3737, -11214, 7986, 4418, 21090, 7717, -2751, 6932, 5503, 24185, 25217, 30129, 22460, 5358, 21792, 17025,
   13595, 7620, 26278, 16618, 10199, 25003, 19118, 14062, 30412, 38168, 19596, 2878, 627, 22398, 29221, 4277, 3156, 13744, 26121, 7088,
   5657, 20981, 4025, -6707, 3655, 16348, 6891, -948, 19983, 14768, 2001, -252, -1313, 15135, 22450, 24456, 15028, 8045, 5463, 12438,
   31806, 34680, 29033, 31561, 11764, 25029, 18516, 6329, 19878, 15892, 14974, 9594, 20414, 7160, 4961, 25302, 21759, 5245, 29088, 44828,
   41256, 20478, 17683, 20987, 5221, 13939, 28869, 34691, 30092, 33873, 21380, 19218, 13258, 8415, 9429, 24175, 42567, 36033, 33560,
   41657, 28719, 26008, 41857, 35850, 31889, 37533, 14033, 4324, 32907, 21536, 33276, 21158, 17629, 28230, 41470, 45792, 38010, 33869,
   22037, 22705, 29395, 32187, 22288, 21087, 31957, 47021, 24213, 15938, 12481, 34669, 38973, 41327, 19480, 22699, 17347, 6625, 18548,
   16717, 7402, 10711, 15696, 18320, 18878, 30793, 38459, 32683, 26743, 23608, 24396, 17492, 34565, 43587, 38857, 46774, 53488, 25422,
   31369, 29364, 30533, 30112, 28274, 41406, 42537, 18393, 14180, 30841, 19694, 12595, 14752, 41054, 53156, 28407, 11178, 40309, 46378,
   23250, 20991, 22395, 27128, 41184, 39539, 28765, 24302, 45076, 52457, 37435, 24850, 21938, 42181, 50628, 40934, 38823, 26204, 20499,
   20231, 43563, 45300, 52076, 59040, 45451, 23891, 13919, 23526, 31686, 31878, 20392, 27460, 34028, 52338, 46733, 52991, 51145, 28399,
   40515, 50280, 34296, 33749, 53901, 48967, 28425, 42822, 51135, 35346, 22281, 43041, 46786, 53201, 40517, 28239, 48584, 39599, 36943,
   32482, 24546, 47815, 59404, 33403, 18053, 38888, 51569, 32731, 46702, 59603, 41094, 46642, 46842, 57150, 50972, 58605, 43877, 24496,
   26502, 49353, 64302, 59655, 32552, 28919, 48711, 46775, 28120, 25137, 27171, 51811, 38937, 46620, 34045, 24923, 36910, 33074, 39113,
   61441, 69017, 46962, 52806, 51405, 58078, 62820, 46619, 32109, 50481, 62848, 55681, 38033, 43024, 59939, 42585, 41802, 36140, 55800,
   47191, 36728, 60680, 58649, 63282, 44248, 30974, 30054, 56179, 54929, 44903, 39745, 29762, 28564, 45570, 47753, 45606, 40225, 34399,
   55497, 69155, 55236, 55924, 57415, 57932, 55415, 55947, 41154, 42563, 63139, 54641, 65039, 55610, 54817, 45363, 32972, 32416, 36711,
   57195, 61675, 61504, 51830, 57190, 67569, 75591, 47000, 40962, 39536, 46563, 55827, 66560, 68893, 46064, 53955, 57472, 42224, 39343,
   52579, 66974, 60837, 60515, 70679, 64274, 53377, 65772, 55533, 60698]

set_option maxHeartbeats 1000000 in
/-- The inverse of `honestVec` modulo 12289 and `x^512 + 1`. -/
def honestInv : List Int16 :=
  [3562, 9722, 4038, 9310, 5629, 5240, 3723, 2457, 2122, 2370, 8647, 231, 8959, 8208, 4268, 10292, 7434, 6885, 3441, 10318, 8662, 5611,
   6967, 10396, 8839, 9000, 5263, 10612, 9628, 4746, 1814, 6459, 11014, 10791, 11904, 6558, 9087, 11374, 5486, 1715, 9980, 5571, 482,
   2250, 2555, 10497, 2563, 987, 10595, 9003, 1298, 10197, 8994, 3333, 4308, 110, 11183, 5568, 3038, 145, 3444, 11074, 10895, 11573,
   11428, 10116, 3733, 3877, 2821, 1900, 11634, 5692, 667, 2278, 4024, 11166, 3696, 3241, 66, 4660, 2739, 12166, 4881, 9815, 4042, 3502,
   7227, 2642, 8513, 11822, 617, 5325, 3769, 8695, 7227, 4959, 2123, 6095, 8369, 10925, 6569, 2399, 6547, 4469, 3435, 437, 8800, 7222,
   9774, 4865, 3049, 8204, 9442, 10836, 11695, 3171, 1274, 7714, 1425, 11752, 10200, 6092, 4120, 9109, 12287, 2203, 1956, 11240, 9837,
   12146, 11352, 10065, 7413, 3087, 6578, 607, 5197, 2660, 6446, 11067, 8484, 4788, 3205, 9272, 6257, 5323, 4405, 5105, 1609, 10979,
   11680, 2653, 7873, 3469, 5599, 11608, 2472, 4996, 2532, 7005, 3381, 5784, 3833, 4975, 4152, 1709, 7993, 6357, 11867, 5628, 9302, 7080,
   12018, 6879, 4000, 2013, 10848, 9380, 11616, 7333, 1174, 9036, 4334, 10461, 8708, 1332, 2741, 3756, 7193, 2776, 1861, 8195, 8977,
   10434, 2932, 1443, 7044, 6807, 8200, 557, 6781, 5698, 3758, 7099, 2682, 6525, 472, 11277, 10841, 11014, 3732, 2174, 497, 8553, 8894,
   941, 11831, 1910, 9342, 8535, 7742, 3904, 275, 12250, 2583, 12109, 4289, 6559, 10586, 4279, 12199, 10350, 3205, 11063, 11057, 135,
   4093, 602, 4345, 5423, 2295, 831, 9992, 11599, 3429, 4601, 3936, 11935, 9768, 11028, 92, 1309, 2002, 6754, 3622, 8370, 4478, 6713,
   3897, 12174, 7359, 7476, 1622, 7354, 3744, 3340, 11499, 2747, 7124, 1638, 11672, 12137, 12028, 888, 4259, 10795, 5844, 2908, 9571,
   4928, 3075, 6435, 3182, 7893, 4351, 4709, 3572, 4916, 9698, 9892, 8705, 1646, 9690, 4591, 3099, 8608, 1225, 1630, 4192, 1823, 976,
   2670, 4736, 5936, 6668, 12035, 5802, 10965, 3666, 5669, 8149, 10842, 5001, 11484, 6663, 10189, 5601, 5043, 3814, 9213, 10047, 2418,
   7191, 6959, 6245, 7130, 6387, 4808, 9813, 11580, 9570, 11579, 3045, 10662, 5434, 7355, 1888, 11947, 850, 795, 432, 8344, 1378, 4074,
   8453, 8717, 2496, 647, 1, 5894, 7714, 3988, 12038, 10477, 5869, 2423, 689, 9050, 852, 4702, 10500, 8037, 3705, 6885, 2333, 1779, 6470,
   3229, 7469, 8055, 3416, 7349, 11384, 11634, 2530, 10495, 8541, 6407, 3842, 10256, 2651, 2389, 3631, 10178, 4810, 208, 3131, 10922,
   10102, 5226, 5455, 8917, 9344, 6465, 6459, 7538, 11463, 11978, 1780, 1820, 9781, 3627, 3007, 3132, 11313, 7982, 9673, 2842, 3020,
   6200, 12203, 2506, 9924, 6506, 2589, 9417, 7131, 7317, 7620, 2740, 7561, 8551, 1258, 12275, 5047, 5204, 7762, 7781, 3183, 4212, 8354,
   8185, 2199, 6374, 12282, 2972, 8357, 9191, 7410, 3428, 1193, 10865, 3033, 11213, 10416, 7399, 6316, 8948, 3752, 805, 3505, 9090, 2599,
   8555, 4761, 9551, 1042, 6258, 10959, 3337, 2017, 3828, 11084, 4548, 1049, 10956, 9636, 9082, 5837, 1031, 2011, 1308, 9057, 603, 12187,
   6906, 3966, 7309, 9705, 6788, 11076, 3414, 767, 2508, 1435, 7257, 8650, 3118, 5314, 4890, 4248, 8316, 3537, 7154, 11711, 4345, 4395,
   9457, 7882, 7816, 5412, 3290, 2264, 11031, 3579, 6738, 12061, 7526, 5313, 4319, 9146, 12215]

set_option maxHeartbeats 1000000 in
/-- Certificate: the multiple of 12289. -/
def invK : List Int :=
  [1237, -272, 448, -761, 2742, 3635, 1305, 2623, 2233, 603, 638, 2002, 1119, 1990, 1519, 2560, 1124, 2169, -281, 1149, -59, -1437, 1268,
   1078, -54, -172, 357, -658, 534, 963, 2689, 109, 1229, -120, 125, 544, -627, -407, 1762, -648, 735, -843, 1249, 719, -595, 799, 889,
   1114, -808, 8, -610, 2572, 1800, 2495, 1088, 2659, 122, -884, 1740, 180, -130, 1001, 1877, 1270, 1449, -913, 490, 1394, -305, -675,
   2224, -633, 1187, 1257, -1219, -497, 199, -276, -1542, 1167, -3316, 400, -499, -854, 777, 672, 2224, -1520, -446, -623, -73, -1952,
   1992, 1311, 1828, 201, 1252, 1814, 2068, -21, 780, 1319, 1087, -652, -681, -296, 167, 1012, -164, 881, 1024, 4044, 1287, 980, 1193,
   -694, 1628, 206, 73, 237, 860, 470, -656, -1015, 751, 1442, -586, -1580, -2246, 1412, -1623, -572, -173, 493, 1201, 182, -1245, -1366,
   -139, -2711, -317, 117, -20, 498, 671, 1533, -3598, -771, -464, 1574, -1066, -2910, 1355, -992, 410, -2118, 901, 2167, -1358, -702,
   -1245, -147, -566, 392, -1057, -931, -359, -198, 42, 712, -392, 287, -692, -706, -848, -2122, -1637, -2707, 233, -377, 1341, -1422,
   -1383, -1061, -2808, -34, -1919, 65, 10, -87, 400, 975, 1053, 1542, -1163, 1358, -564, -761, 1741, 476, 1414, -128, -772, -317, 1000,
   -155, -198, -722, -874, 1201, -593, 751, 20, 2584, -311, -1930, -124, -1837, 2080, -1160, 462, 757, -473, -1472, 1493, 2847, -842, 55,
   -1520, -275, 605, -1561, -1247, -586, 41, -1838, 678, 254, -698, -845, -1216, 527, -2235, -2194, -271, 1288, -641, -1485, 549, 643,
   -1393, 1012, -1457, 621, -1135, 48, -1009, -1414, -2621, -1313, -1175, -2377, -329, -1330, -16, -1662, -273, -2266, 377, -678, -1161,
   741, -1701, -1982, 289, 716, -708, -1149, -1196, 1455, 697, -1102, -1047, 331, 156, 1311, 255, -1147, 298, 103, 112, 1331, -989, 606,
   -799, 1347, -694, -929, 57, -334, 668, -382, -625, -212, -253, -2221, 728, 1517, 323, 535, -360, -226, 204, -117, 842, 1185, -562,
   -676, -1903, -977, -2428, -4345, -2116, -657, -2033, -664, -125, -2340, 91, -1543, -1051, 582, -810, -3037, -4648, -1160, -2354, -618,
   -1571, 13, -2227, -389, -2658, -470, -1049, -2713, -1918, -841, 495, -1832, -2791, -1108, -2220, -993, -2471, 525, -453, -3962, -585,
   -480, -631, -260, -1025, -538, -523, -499, -2679, 1469, -332, -1607, 49, -360, 999, 747, -486, 1731, 1249, -1764, -288, 93, -2947,
   -2064, -552, -1479, 4, 254, -1283, 740, 999, 1003, 1274, 699, 592, 1559, 1186, -1009, 3138, -630, -69, 334, 240, -984, -1394, -779,
   -620, -651, -1919, 1609, 496, -1604, -1037, 1959, 198, -1002, -1704, 254, 985, -284, -848, 805, 979, -1179, -2045, -1944, -752, -534,
   -976, 1052, 6, -1162, -2073, -728, -1733, -1896, -1894, -747, -920, 142, -929, -2068, 1083, -1065, -1077, -111, -1857, -653, -2266,
   -1554, -2067, -1796, -2724, -1527, -182, 29, -1627, -708, -1605, -619, 301, 328, -3807, -2649, -3522, -3381, -2553, -2834, -756, 769,
   -1870, -1214, -1430, 141, -205, -1966, -610, 838, 1155, -1374, -693, -1449, 182, -689, -684, 787, -1746, -85, -2584, 629, 63, 2461,
   320, -1324, -272, 1016, -2108, 157, 599, -1365, 582, -1148, 817, -223, 450, 12, 870, -2576, 124, -1667, -2102, -3032, -1643, -2278]

set_option maxHeartbeats 1000000 in
/-- Certificate: the multiple of `x^512 + 1`. -/
def invL : List Int :=
  [-15162312, 2840448, -6065602, 11565787, -33494741, -41967572, -17480803, -30240169, -30216192, -11552655, -11371080, -30678924,
   -15453438, -31785858, -20166534, -36125561, -12513691, -30748336, -459171, -14166889, -7775861, 13683275, -19492059, -15523169,
   -5525621, -533118, -8176565, 1161912, -14038679, -22819826, -40681322, -6742424, -29770353, -7798414, -8598155, -13432536, -2524826,
   108951, -22788396, -1730569, -11567377, -1781433, -17545568, -17051348, -1655737, -22683354, -23005780, -16269332, -91028, -4615915,
   4168635, -30840369, -26728107, -36103268, -22709003, -29538963, -6126522, -6061357, -23722622, -7751276, 343794, -21972921, -28231217,
   -14099827, -18934421, 5960755, -13469307, -19874406, -1154478, 473478, -34788815, 2184193, -17513550, -14426384, 10164204, -1125040,
   -8033186, -4138106, 9500088, -25957204, 21884738, -4662481, -2795386, 8849878, -12444806, -4867868, -21714208, 11977997, -3503231,
   -2138862, -9732980, 5275894, -30674662, -20070362, -33250642, -7265478, -23472057, -21516134, -24350057, -7032774, -11332585,
   -25613396, -14399815, 2720297, 5097670, -8146641, -3039012, -18846824, -5486144, -23372007, -16940094, -32839703, -23634464,
   -21439545, -31806091, 1383000, -26592097, -16254372, -11157577, 1496717, -19690741, -11500859, -2862965, 10103414, -12427463,
   -29245528, -5075599, 2186857, 5356795, -10056770, 13255361, -3984558, -9848202, -17597307, -15186459, -15428251, -3225629, -1388361,
   -9893264, 1830149, -11775251, -20795924, -5425967, -14988103, -11036250, -19350748, 29398064, -1571197, -10248415, -17217072, -975933,
   15519803, -27024580, -5547482, -14266625, 12607116, -24844651, -35907225, 11905374, -2392477, 91711, 391408, -3642021, -21610740,
   -4357108, -7083717, -11728932, -4619546, -9463953, -16362581, 8802711, -16840176, 319058, -2228180, -8554059, 12915914, -967626,
   23584226, -29566817, -975320, -17136201, 7820730, 2702685, -2439397, 9261125, -7784554, 11758637, -4420183, -9287577, -14520344,
   -9968867, -10004254, -19884115, -15548197, 906634, -27634717, -7479095, -8903043, -19932953, -6482374, -20397964, -20257213, -9111359,
   -5587375, -18064183, -4366305, -9205426, -2548785, -348692, -14287977, -10554060, -230523, -9466085, -31636331, -4751498, 3505908,
   8418379, 3055595, -19873051, -4531234, -4738263, -15539747, 3448862, 1490050, -29845607, -34506172, -19891369, -9019137, -1267064,
   4605848, -11716912, 5767958, 2409861, -1204330, -14285824, 1824698, -15782276, -16010445, -12718781, -10018752, -7633574, -5988553,
   -4593128, 7660448, -577645, -19895418, 9655465, -9821335, -11186653, -331273, -728537, -18656570, 5081469, -19737946, -13915763,
   -11536388, 459944, -2724907, 4924586, 872037, -2538390, 4196985, -7756607, 5335032, 782526, -142938, 3412968, 233191, -5158383,
   -8299772, -745117, -13077602, 309191, -1962319, -6373276, -14176323, -1723901, -4719122, 1111429, -7212150, 1519798, -5292795, 755030,
   -23179184, -9734631, -10953968, -18771768, -9491438, -7362699, 8357158, -7620017, -12627556, -3967201, -11252102, -3314211, -26308796,
   -443327, -6760674, -4677988, -12821403, -9324613, -2599483, -12462227, -2285430, -4509716, -446334, -19222137, -13494017, -12913886,
   1714704, -5175905, -5525992, -11353032, -34751, -20453845, -18749674, -14364325, -1853375, 5202719, -6295806, 4515940, 5786991,
   -2660457, -6869670, -23645, -199759, 2754986, -929130, -6541022, -820643, -3521381, -13364972, 1439194, 8037235, 7956758, 3909760,
   -4480239, 1093843, 5680059, -12790314, 2436771, -9108648, 2963745, -7844242, -9842658, -10343, 59165, -495018, -5219860, 5080574,
   11701537, 7131752, 993543, -6246137, 6639007, -4875097, -1596681, 4941729, -2520043, -7088010, -1141977, -7702286, -3086402, -3383626,
   4305815, -15696838, 8026652, -8038727, -8226837, -3468246, -11000288, 2353302, -6635444, -2842321, -6447228, -16475685, -18954408,
   -3391776, -1067865, -14372329, 2649465, 4503801, -15897826, -6030914, -14423788, -4417904, -8981678, -16225253, -14583342, -13277925,
   -5269539, -9004510, -8705586, -4437093, -3737927, 3833256, -32745444, -6624138, -3924307, -12699553, -6043061, -4594175, 1426287,
   -7659353, 821352, -5430342, -673831, -14333044, -13750617, -2681461, -8912078, -4421658, -4532403, -12014924, -5315202, -10297600,
   -9670495, -6433253, -4204077, -3585978, -11119296, -7468022, -4303298, -2794488, -12381584, -5769035, -6639147, -16510199, -12060350,
   -11921519, -117311, -1487772, -3533836, 1201374, 3806135, 1277470, -2724771, -4523753, -4787767, -11483849, -6120557, -4840513,
   2326811, -4827071, -8909301, -8357594, 800496, -2284645, 1684410, 1179, 2998621, 3558554, -1612373, -1309132, 12053029, 3140360,
   -6191610, -2340402, -7296303, -2706352, -903905, 5855801, 4365701, 7167066, 3245233, 3989875, 5157455, -744941, -1373463, -4150640,
   -12013288, -5278247, -9833432, -6865025, -163160, -8784266, -10824694, -2775851, -1899096, -2387580, -5747723, -8510970, -3801128,
   -3050169, -6516891, -3991013, -4236444, -7858671, -9369358, -11748540, -7592373, -5680182, -6279246, -6980850, -436672, -1703156,
   -2695198, -3737127, -6026186, -2944212, -3894542, -9333777, -5461323, -5617644, -2713045, -2386567, -3192262, 555534, 1554695,
   1564759, 1453585]


theorem other_stream : Shake.blocks 9 (Shake.state (saltOf forgedSig ++ otherMsg)) = otherStream := by decide +kernel

theorem other_pairs : hashPairs otherStream 512 = some otherHash := by decide +kernel

theorem other_hash : hashToPoint Shake.shake256 612 otherMsg (saltOf forgedSig) = .ok otherHash :=
  hash_of_stream _ _ otherStream _ (by decide +kernel) other_stream other_pairs

theorem other_certificate : Kronecker.certified 512 12289 forgedVec (key0.map Int16.toInt)
    (List.zipWith (· - ·) otherRes (otherHash.map Int16.toInt)) otherK forgedL = true := by decide +kernel

theorem inv_certificate : Kronecker.certified 512 12289 honestVec (honestInv.map Int16.toInt) [-1] invK invL = true := by
  decide +kernel

end Check

open Check Spec Polynomial

theorem dvd_of_quotient {M t s r c : Zq[X]} (h : M ∣ r * s - (c - t)) : M ∣ t + s * r - c := by
  have e : t + s * r - c = r * s - (c - t) := by ring
  rwa [e]

theorem dvd_cancel_factor {M t s r r' c u : Zq[X]} (h : M ∣ t + s * r - c) (h' : M ∣ t + s * r' - c) (hu : M ∣ s * u - 1) :
    M ∣ r - r' := by
  have h2 := dvd_sub (Dvd.dvd.mul_left (dvd_sub h h') u) (Dvd.dvd.mul_right hu (r - r'))
  have e : u * (t + s * r - c - (t + s * r' - c)) - (s * u - 1) * (r - r') = r - r' := by ring
  rwa [e] at h2

theorem dvd_difference {M a b x c d : Zq[X]} (h : M ∣ a + x - c) (h' : M ∣ b + x - d) : M ∣ a - b - (c - d) := by
  have h2 := dvd_sub h h'
  have e : a + x - c - (b + x - d) = a - b - (c - d) := by ring
  rwa [e] at h2

theorem sigEq_of_quotient {n : Nat} {c r : List Int16} {s t : List Int}
    (h : (X ^ n + 1 : Zq[X]) ∣ polyQ r * polyI s - (polyQ c - polyI t)) : SigEq n c r s t := dvd_of_quotient h

theorem sigEq_cancel {n : Nat} {c r r' : List Int16} {s t : List Int} (h : SigEq n c r s t) (h' : SigEq n c r' s t)
    (hu : ∃ u : Zq[X], (X ^ n + 1 : Zq[X]) ∣ polyI s * u - 1) : (X ^ n + 1 : Zq[X]) ∣ polyQ r - polyQ r' := by
  obtain ⟨u, hu⟩ := hu
  exact dvd_cancel_factor h h' hu

theorem sigEq_difference {n : Nat} {c c' r : List Int16} {s t t' : List Int} (h : SigEq n c r s t) (h' : SigEq n c' r s t') :
    (X ^ n + 1 : Zq[X]) ∣ polyI t - polyI t' - (polyQ c - polyQ c') := dvd_difference h h'

/-- A vector is invertible modulo `x^512+1` and `q`. -/
def Invertible (s : List Int) : Prop := ∃ u : Zq[X], (X ^ 512 + 1 : Zq[X]) ∣ polyI s * u - 1

theorem polyQ_keyFor {c : List Int16} {s0 : List Int} (h : c.length = s0.length) : polyQ (keyFor c s0) = polyQ c - polyI s0 := by
  unfold polyQ polyI
  rw [keyFor_zq, poly_sub _ _ (by simp [h])]

theorem div512 (f g : List Int16) (hf : f.length = 512) (hg : g.length = 512)
    (h : ∃ u : Zq[X], (X ^ 512 + 1 : Zq[X]) ∣ polyQ g * u - 1) :
    ∃ r, DivZq wrap64 f g = .ok (.ok r) ∧ r.length = 512 ∧ Reduced r ∧ (X ^ 512 + 1 : Zq[X]) ∣ polyQ r * polyQ g - polyQ f := by
  have key : ∀ n, n = 2 ^ 9 → f.length = n → g.length = n → (∃ u : Zq[X], (X ^ n + 1 : Zq[X]) ∣ polyQ g * u - 1) →
      ∃ r, DivZq wrap64 f g = .ok (.ok r) ∧ r.length = n ∧ Reduced r ∧ (X ^ n + 1 : Zq[X]) ∣ polyQ r * polyQ g - polyQ f := by
    rintro n rfl hf hg h
    exact (C12_divzq 9 (by decide) (by decide) f g hf hg).1 h
  exact key 512 (by norm_num) hf hg h

theorem key_of_residual {c : List Int16} {s t : List Int} (hc : c.length = 512) (hs : s.length = 512) (ht : t.length = 512)
    (hb : ∀ x ∈ t, -6144 ≤ x ∧ x ≤ 6144) (hi : Invertible (s.map narrow)) :
    ∃ pk : List Int16, pk.length = 512 ∧ Reduced pk ∧ IsResidual 512 c pk (s.map narrow) t ∧
      DivZq wrap64 (keyFor c t) (s.map Int16.ofInt) = .ok (.ok pk) := by
  have e : polyQ (s.map Int16.ofInt) = polyI (s.map narrow) := by rw [← map_narrow, polyI_toInt]
  have lk : (keyFor c t).length = 512 := by rw [keyFor, List.length_zipWith, hc, ht]; rfl
  obtain ⟨r, hr, lr, rr, hd⟩ := div512 (keyFor c t) (s.map Int16.ofInt) lk (by rw [List.length_map]; exact hs)
    (by rw [e]; exact hi)
  refine ⟨r, lr, rr, ⟨ht, hb, ?_⟩, hr⟩
  rw [e, polyQ_keyFor (hc.trans ht.symm)] at hd
  exact sigEq_of_quotient hd

/-- C85 is violated for the key, in general: for every message, salt, header and every body whose vector is invertible, and for every
vector `t` that fits the bound together with that of the body, the quotient `(c - t) / s1` computed by the ring operations is a key under
which the signature is accepted, with residual `t`. -/
theorem C85_violated_key (xof : Xof) (fuel : Nat) (m salt body : List UInt8) (hd : UInt8) (c : List Int16) (s t : List Int)
    (hs : salt.length = 40) (hc : hashToPoint xof fuel m salt = .ok c) (hb : Decodes body s) (hi : Invertible (s.map narrow))
    (ht : t.length = 512) (hr : ∀ x ∈ t, -6144 ≤ x ∧ x ≤ 6144)
    (hn : (normSq t + normSq (s.map narrow)) % 2 ^ 32 ≤ sigBound) :
    ∃ pk : List Int16, pk.length = 512 ∧ Reduced pk ∧ IsResidual 512 c pk (s.map narrow) t ∧
      DivZq wrap64 (keyFor c t) (s.map Int16.ofInt) = .ok (.ok pk) ∧
      Verify xof fuel pk m (hd :: (salt ++ body)) = .ok true := by
  have lc : c.length = 512 := (C16_hash_reduced _ _ _ _ _ hc).1
  obtain ⟨pk, l, r, h0, h1⟩ := key_of_residual lc hb.2.2.1 ht hr hi
  refine ⟨pk, l, r, h0, h1, ?_⟩
  have es : saltOf (hd :: (salt ++ body)) = salt := by simp [saltOf, hs]
  have ed : (hd :: (salt ++ body)).drop 41 = body := by simp [hs]
  refine (C19_verify_exact xof fuel pk m _ c l (by simp; omega) (by rw [es]; exact hc)).1.2 ⟨s, t, ?_, h0, hn⟩
  rw [ed]; exact hb

/-- C85, exactly: the reduced keys under which a signature with an invertible vector is accepted are these quotients and no others. -/
theorem C85_keys (xof : Xof) (fuel : Nat) (m salt body : List UInt8) (hd : UInt8) (c : List Int16) (s : List Int) (pk : List Int16)
    (hs : salt.length = 40) (hc : hashToPoint xof fuel m salt = .ok c) (hb : Decodes body s) (hi : Invertible (s.map narrow))
    (hl : pk.length = 512) (hpk : Reduced pk) :
    Verify xof fuel pk m (hd :: (salt ++ body)) = .ok true ↔
      ∃ t : List Int, t.length = 512 ∧ (∀ x ∈ t, -6144 ≤ x ∧ x ≤ 6144) ∧
        (normSq t + normSq (s.map narrow)) % 2 ^ 32 ≤ sigBound ∧
        DivZq wrap64 (keyFor c t) (s.map Int16.ofInt) = .ok (.ok pk) := by
  have lc : c.length = 512 := (C16_hash_reduced _ _ _ _ _ hc).1
  have es : saltOf (hd :: (salt ++ body)) = salt := by simp [saltOf, hs]
  have ed : (hd :: (salt ++ body)).drop 41 = body := by simp [hs]
  constructor
  · intro hv
    obtain ⟨s', t, h1, h0, hn⟩ := (C19_verify_exact xof fuel pk m _ c hl (by simp; omega) (by rw [es]; exact hc)).1.1 hv
    rw [ed] at h1
    have : s' = s := by
      have a := (decodes_iff _ _).2 hb
      rw [(decodes_iff _ _).2 h1] at a
      exact Except.ok.inj (Go.ok.inj a)
    subst this
    obtain ⟨pk', l', r', g0, g1⟩ := key_of_residual lc hb.2.2.1 h0.1 h0.2.1 hi
    refine ⟨t, h0.1, h0.2.1, hn, ?_⟩
    have : pk' = pk := by
      apply map_zq_inj r' hpk
      apply poly_injective (by simp [l', hl])
      refine sub_eq_zero_of_cyc (n := 512) (by decide) ?_ ?_ ?_
      · exact sigEq_cancel g0.2.2 h0.2.2 hi
      · have := poly_degree_lt (pk'.map zq); simpa [l'] using this
      · have := poly_degree_lt (pk.map zq); simpa [hl] using this
    rw [← this]; exact g1
  · rintro ⟨t, ht, hr, hn, hq⟩
    obtain ⟨pk', -, -, -, h1, h2⟩ := C85_violated_key xof fuel m salt body hd c s t hs hc hb hi ht hr hn
    rw [h1] at hq
    rw [← Except.ok.inj (Go.ok.inj hq)]
    exact h2

/-- Different vectors give different keys. -/
theorem C85_distinct (c pk : List Int16) (s t t' : List Int) (h : IsResidual 512 c pk (s.map narrow) t)
    (h' : IsResidual 512 c pk (s.map narrow) t') : t = t' := residual_unique (by decide) h h'

theorem normSq_zeros (k : Nat) : normSq (List.replicate k 0) = 0 := by simp [normSq]

/-- C85 is violated for the key: if the vector of an accepted signature is invertible and its squared norm is below the bound, the
signature is accepted for the same message under another key. -/
theorem C85_violated_second_key (xof : Xof) (fuel : Nat) (pk : List Int16) (m salt body : List UInt8) (hd : UInt8) (c : List Int16)
    (s : List Int) (hs : salt.length = 40) (hc : hashToPoint xof fuel m salt = .ok c) (hb : Decodes body s)
    (hi : Invertible (s.map narrow)) (hn : normSq (s.map narrow) < sigBound) :
    ∃ pk' : List Int16, pk'.length = 512 ∧ Reduced pk' ∧ pk' ≠ pk ∧ Verify xof fuel pk' m (hd :: (salt ++ body)) = .ok true := by
  have n0 : normSq (0 :: List.replicate 511 0) = 0 := normSq_zeros 512
  have n1 : normSq (1 :: List.replicate 511 0) = 1 := by
    have := normSq_zeros 511
    unfold normSq at this ⊢
    rw [List.map_cons, List.sum_cons, this]; rfl
  have small : ∀ a : Int, -6144 ≤ a → a ≤ 6144 → ∀ x ∈ a :: List.replicate 511 0, -6144 ≤ x ∧ x ≤ 6144 := by
    intro a h1 h2 x hx
    rcases List.mem_cons.1 hx with rfl | hx
    · exact ⟨h1, h2⟩
    · rw [List.eq_of_mem_replicate hx]; decide
  have len : ∀ a : Int, (a :: List.replicate 511 0).length = 512 := by
    intro a; rw [List.length_cons, List.length_replicate]
  have hb' : sigBound < 2 ^ 32 := by decide
  obtain ⟨p, l, r, h0, -, hv⟩ := C85_violated_key xof fuel m salt body hd c s (0 :: List.replicate 511 0) hs hc hb hi (len 0)
    (small 0 (by decide) (by decide)) (by rw [n0, Nat.mod_eq_of_lt (by omega)]; omega)
  obtain ⟨p', l', r', h0', -, hv'⟩ := C85_violated_key xof fuel m salt body hd c s (1 :: List.replicate 511 0) hs hc hb hi (len 1)
    (small 1 (by decide) (by decide)) (by rw [n1, Nat.mod_eq_of_lt (by omega)]; omega)
  by_cases hp : p = pk
  · refine ⟨p', l', r', ?_, hv'⟩
    rintro rfl
    rw [hp] at h0
    have := residual_unique (by decide) h0 h0'
    exact absurd (List.cons.inj this).1 (by decide)
  · exact ⟨p, l, r, hp, hv⟩

theorem dvd_of_certified {n : ℕ} {a b k l : List ℤ} (h : Kronecker.certified n 12289 a b [-1] k l = true) :
    ∃ u : Zq[X], (X ^ n + 1 : Zq[X]) ∣ polyI a * u - 1 := by
  have h := congrArg (Polynomial.map (Int.castRingHom Zq)) (Kronecker.certified_eq h)
  have q0 : (Polynomial.C ((Int.castRingHom Zq) 12289) : Zq[X]) = 0 := by
    rw [eq_intCast, show ((12289 : Int) : Zq) = 0 from rfl, Polynomial.C_0]
  rw [Polynomial.map_add, Polynomial.map_mul, Polynomial.map_add, Polynomial.map_mul, Polynomial.map_mul, Polynomial.map_C, q0, zero_mul,
    zero_add, Polynomial.map_add, Polynomial.map_pow, Polynomial.map_X, Polynomial.map_one, Kronecker.map_poly _ a] at h
  have e : polyI a = poly (a.map (Int.castRingHom Zq)) := rfl
  have m1 : (poly [(-1 : Int)]).map (Int.castRingHom Zq) = -1 := by simp [poly]
  rw [m1, ← e] at h
  exact ⟨(poly b).map (Int.castRingHom Zq), (poly l).map (Int.castRingHom Zq), by rw [← h, sub_eq_add_neg]⟩

theorem honest_narrow : honestVec.map narrow = honestVec := by decide +kernel

theorem honest_invertible : Invertible (honestVec.map narrow) := by
  rw [honest_narrow]
  exact dvd_of_certified inv_certificate

/-- C85 is violated in the concrete: with SHAKE256 the first signature of the repository, made by its own key for its own message, is
accepted for that message under another key. -/
theorem C85_violated_honest : ∃ pk : List Int16, pk.length = 512 ∧ Reduced pk ∧ pk ≠ key0 ∧
    Verify Shake.shake256 612 pk honestMsg honestSig = .ok true ∧ Verify Shake.shake256 612 key0 honestMsg honestSig = .ok true := by
  have hd : Decodes (honestSig.drop 41) honestVec :=
    ⟨by decide +kernel, by decide +kernel, by decide +kernel, List.isPrefixOf_iff_prefix.1 honest_body⟩
  obtain ⟨pk, l, r, h, hv⟩ := C85_violated_second_key Shake.shake256 612 key0 honestMsg (saltOf honestSig) (honestSig.drop 41)
    (honestSig.headD 0) honestHash honestVec (by decide +kernel) honest_hash hd honest_invertible
    (by rw [honest_narrow]; decide +kernel)
  have e : honestSig.headD 0 :: (saltOf honestSig ++ honestSig.drop 41) = honestSig := by decide +kernel
  rw [e] at hv
  exact ⟨pk, l, r, h, hv, honest_accepted⟩

/-- C85 is violated for the message: with SHAKE256 and under the first key of the repository one signature is accepted for two
messages. -/
theorem C85_violated_message : forgedMsg ≠ otherMsg ∧ Verify Shake.shake256 612 key0 forgedMsg forgedSig = .ok true ∧
    Verify Shake.shake256 612 key0 otherMsg forgedSig = .ok true := by
  refine ⟨by decide +kernel, C71_violated_shake256, ?_⟩
  have hn : forgedVec.map narrow = forgedVec := by decide +kernel
  refine (C19_verify_exact Shake.shake256 612 key0 otherMsg forgedSig otherHash (by decide +kernel) (by decide +kernel) other_hash).1.2
    ⟨forgedVec, otherRes, ⟨by decide +kernel, by decide +kernel, by decide +kernel, List.isPrefixOf_iff_prefix.1 forged_body⟩, ?_, ?_⟩
  · rw [hn]
    exact ⟨by decide +kernel, by decide +kernel, Kronecker.sigEq_of_certified other_certificate (by decide +kernel)⟩
  · rw [hn]
    decide +kernel

theorem normSq_sub : ∀ (a b : List Int), normSq (List.zipWith (· - ·) a b) ≤ 2 * normSq a + 2 * normSq b
  | [], b => by simp [normSq]
  | a :: as, [] => by simp [normSq]
  | a :: as, b :: bs => by
    have ih := normSq_sub as bs
    unfold normSq at ih ⊢
    simp only [List.zipWith_cons_cons, List.map_cons, List.sum_cons]
    have : (a - b).natAbs ^ 2 ≤ 2 * a.natAbs ^ 2 + 2 * b.natAbs ^ 2 := by
      zify
      simp only [sq_abs]
      nlinarith [sq_nonneg (a + b)]
    omega

/-- C85, what remains: if one signature is accepted under one key for two messages and neither sum of squares reaches 2^32, the two hash
points differ by a vector of squared norm at most `4 * sigBound - 4 * |s1|^2`. -/
theorem C85_message_partial (xof : Xof) (fuel : Nat) (pk : List Int16) (m m' sig : List UInt8) (c c' : List Int16)
    (hpk : pk.length = 512) (hc : hashToPoint xof fuel m (saltOf sig) = .ok c) (hc' : hashToPoint xof fuel m' (saltOf sig) = .ok c')
    (hv : Verify xof fuel pk m sig = .ok true) (hv' : Verify xof fuel pk m' sig = .ok true) :
    ∃ s1 s0 s0', Decodes (sig.drop 41) s1 ∧ IsResidual 512 c pk (s1.map narrow) s0 ∧ IsResidual 512 c' pk (s1.map narrow) s0' ∧
      (normSq s0 + normSq (s1.map narrow) < 2 ^ 32 → normSq s0' + normSq (s1.map narrow) < 2 ^ 32 →
        ∃ d : List Int, d.length = 512 ∧ polyI d = polyQ c - polyQ c' ∧ normSq d + 4 * normSq (s1.map narrow) ≤ 4 * sigBound) := by
  obtain ⟨s1, s0, h1, h0, hb⟩ := C20_verify_sound_partial xof fuel pk m sig c hpk hc hv
  obtain ⟨s1', s0', h1', h0', hb'⟩ := C20_verify_sound_partial xof fuel pk m' sig c' hpk hc' hv'
  have : s1' = s1 := by
    have a := (decodes_iff _ _).2 h1
    rw [(decodes_iff _ _).2 h1'] at a
    exact Except.ok.inj (Go.ok.inj a)
  subst this
  refine ⟨s1', s0, s0', h1, h0, h0', fun hn hn' => ⟨List.zipWith (· - ·) s0 s0', ?_, ?_, ?_⟩⟩
  · rw [List.length_zipWith, h0.1, h0'.1]; rfl
  · have lc := (C16_hash_reduced _ _ _ _ _ hc).1
    have lc' := (C16_hash_reduced _ _ _ _ _ hc').1
    have e : polyI (List.zipWith (· - ·) s0 s0') = polyI s0 - polyI s0' := by
      unfold polyI
      rw [← poly_sub _ _ (by simp [h0.1, h0'.1]), List.map_zipWith, List.zipWith_map]
      simp
    rw [e]
    refine sub_eq_zero_of_cyc (n := 512) (by decide) ?_ ?_ ?_
    · exact sigEq_difference h0.2.2 h0'.2.2
    · have a := polyI_degree s0; have b := polyI_degree s0'
      rw [h0.1] at a; rw [h0'.1] at b
      exact lt_of_le_of_lt (degree_sub_le _ _) (max_lt a b)
    · have a := poly_degree_lt (c.map zq); have b := poly_degree_lt (c'.map zq)
      rw [List.length_map, lc] at a; rw [List.length_map, lc'] at b
      exact lt_of_le_of_lt (degree_sub_le _ _) (max_lt a b)
  · have a := hb hn
    have b := hb' hn'
    have := normSq_sub s0 s0'
    omega

/-- The hypotheses are met by the two messages above. -/
example : ∃ (xof : Xof) (fuel : Nat) (pk : List Int16) (m m' sig : List UInt8) (c c' : List Int16), m ≠ m' ∧ pk.length = 512 ∧
    hashToPoint xof fuel m (saltOf sig) = .ok c ∧ hashToPoint xof fuel m' (saltOf sig) = .ok c' ∧
    Verify xof fuel pk m sig = .ok true ∧ Verify xof fuel pk m' sig = .ok true :=
  ⟨Shake.shake256, 612, key0, forgedMsg, otherMsg, forgedSig, forgedHash, otherHash, C85_violated_message.1, by decide +kernel,
    forged_hash, other_hash, C85_violated_message.2.1, C85_violated_message.2.2⟩

/-- The hypotheses of the statements about keys are met by the honest signature of the repository. -/
example : (saltOf honestSig).length = 40 ∧ hashToPoint Shake.shake256 612 honestMsg (saltOf honestSig) = .ok honestHash ∧
    Decodes (honestSig.drop 41) honestVec ∧ Invertible (honestVec.map narrow) ∧ normSq (honestVec.map narrow) < sigBound ∧
    Reduced key0 ∧ key0.length = 512 :=
  ⟨by decide +kernel, honest_hash,
    ⟨by decide +kernel, by decide +kernel, by decide +kernel, List.isPrefixOf_iff_prefix.1 honest_body⟩, honest_invertible,
    by rw [honest_narrow]; decide +kernel, by unfold Reduced; decide +kernel, by decide +kernel⟩

end Falcon
