import Verif.Model.GcbEnum
set_option maxRecDepth 10000
/-! GENERATED by tools/gen_ucd.py from src/u5e/props/GraphemeBreakProperty.txt (all 1327 entries, in order). -/
namespace U5e.Data
open U5e

/-- src/u5e/props/GraphemeBreakProperty.txt, entries of lines 21-140. -/
def gcbFile0 : List (Nat × Nat × GCB) := [
  (1536, 1541, .PREPEND),
  (1757, 1757, .PREPEND),
  (1807, 1807, .PREPEND),
  (2274, 2274, .PREPEND),
  (3406, 3406, .PREPEND),
  (69821, 69821, .PREPEND),
  (70082, 70083, .PREPEND),
  (13, 13, .CR),
  (10, 10, .LF),
  (0, 9, .CONTROL),
  (11, 12, .CONTROL),
  (14, 31, .CONTROL),
  (127, 159, .CONTROL),
  (173, 173, .CONTROL),
  (1564, 1564, .CONTROL),
  (6158, 6158, .CONTROL),
  (8203, 8203, .CONTROL),
  (8206, 8207, .CONTROL),
  (8232, 8232, .CONTROL),
  (8233, 8233, .CONTROL),
  (8234, 8238, .CONTROL),
  (8288, 8292, .CONTROL),
  (8293, 8293, .CONTROL),
  (8294, 8303, .CONTROL),
  (55296, 57343, .CONTROL),
  (65279, 65279, .CONTROL),
  (65520, 65528, .CONTROL),
  (65529, 65531, .CONTROL),
  (113824, 113827, .CONTROL),
  (119155, 119162, .CONTROL),
  (917504, 917504, .CONTROL),
  (917505, 917505, .CONTROL),
  (917506, 917535, .CONTROL),
  (917632, 917759, .CONTROL),
  (918000, 921599, .CONTROL),
  (768, 879, .EXTEND),
  (1155, 1159, .EXTEND),
  (1160, 1161, .EXTEND),
  (1425, 1469, .EXTEND),
  (1471, 1471, .EXTEND),
  (1473, 1474, .EXTEND),
  (1476, 1477, .EXTEND),
  (1479, 1479, .EXTEND),
  (1552, 1562, .EXTEND),
  (1611, 1631, .EXTEND),
  (1648, 1648, .EXTEND),
  (1750, 1756, .EXTEND),
  (1759, 1764, .EXTEND),
  (1767, 1768, .EXTEND),
  (1770, 1773, .EXTEND),
  (1809, 1809, .EXTEND),
  (1840, 1866, .EXTEND),
  (1958, 1968, .EXTEND),
  (2027, 2035, .EXTEND),
  (2070, 2073, .EXTEND),
  (2075, 2083, .EXTEND),
  (2085, 2087, .EXTEND),
  (2089, 2093, .EXTEND),
  (2137, 2139, .EXTEND),
  (2260, 2273, .EXTEND),
  (2275, 2306, .EXTEND),
  (2362, 2362, .EXTEND),
  (2364, 2364, .EXTEND),
  (2369, 2376, .EXTEND),
  (2381, 2381, .EXTEND),
  (2385, 2391, .EXTEND),
  (2402, 2403, .EXTEND),
  (2433, 2433, .EXTEND),
  (2492, 2492, .EXTEND),
  (2494, 2494, .EXTEND),
  (2497, 2500, .EXTEND),
  (2509, 2509, .EXTEND),
  (2519, 2519, .EXTEND),
  (2530, 2531, .EXTEND),
  (2561, 2562, .EXTEND),
  (2620, 2620, .EXTEND),
  (2625, 2626, .EXTEND),
  (2631, 2632, .EXTEND),
  (2635, 2637, .EXTEND),
  (2641, 2641, .EXTEND),
  (2672, 2673, .EXTEND),
  (2677, 2677, .EXTEND),
  (2689, 2690, .EXTEND),
  (2748, 2748, .EXTEND),
  (2753, 2757, .EXTEND),
  (2759, 2760, .EXTEND),
  (2765, 2765, .EXTEND),
  (2786, 2787, .EXTEND),
  (2817, 2817, .EXTEND),
  (2876, 2876, .EXTEND),
  (2878, 2878, .EXTEND),
  (2879, 2879, .EXTEND),
  (2881, 2884, .EXTEND),
  (2893, 2893, .EXTEND),
  (2902, 2902, .EXTEND),
  (2903, 2903, .EXTEND),
  (2914, 2915, .EXTEND),
  (2946, 2946, .EXTEND),
  (3006, 3006, .EXTEND),
  (3008, 3008, .EXTEND)]

/-- src/u5e/props/GraphemeBreakProperty.txt, entries of lines 141-240. -/
def gcbFile1 : List (Nat × Nat × GCB) := [
  (3021, 3021, .EXTEND),
  (3031, 3031, .EXTEND),
  (3072, 3072, .EXTEND),
  (3134, 3136, .EXTEND),
  (3142, 3144, .EXTEND),
  (3146, 3149, .EXTEND),
  (3157, 3158, .EXTEND),
  (3170, 3171, .EXTEND),
  (3201, 3201, .EXTEND),
  (3260, 3260, .EXTEND),
  (3263, 3263, .EXTEND),
  (3266, 3266, .EXTEND),
  (3270, 3270, .EXTEND),
  (3276, 3277, .EXTEND),
  (3285, 3286, .EXTEND),
  (3298, 3299, .EXTEND),
  (3329, 3329, .EXTEND),
  (3390, 3390, .EXTEND),
  (3393, 3396, .EXTEND),
  (3405, 3405, .EXTEND),
  (3415, 3415, .EXTEND),
  (3426, 3427, .EXTEND),
  (3530, 3530, .EXTEND),
  (3535, 3535, .EXTEND),
  (3538, 3540, .EXTEND),
  (3542, 3542, .EXTEND),
  (3551, 3551, .EXTEND),
  (3633, 3633, .EXTEND),
  (3636, 3642, .EXTEND),
  (3655, 3662, .EXTEND),
  (3761, 3761, .EXTEND),
  (3764, 3769, .EXTEND),
  (3771, 3772, .EXTEND),
  (3784, 3789, .EXTEND),
  (3864, 3865, .EXTEND),
  (3893, 3893, .EXTEND),
  (3895, 3895, .EXTEND),
  (3897, 3897, .EXTEND),
  (3953, 3966, .EXTEND),
  (3968, 3972, .EXTEND),
  (3974, 3975, .EXTEND),
  (3981, 3991, .EXTEND),
  (3993, 4028, .EXTEND),
  (4038, 4038, .EXTEND),
  (4141, 4144, .EXTEND),
  (4146, 4151, .EXTEND),
  (4153, 4154, .EXTEND),
  (4157, 4158, .EXTEND),
  (4184, 4185, .EXTEND),
  (4190, 4192, .EXTEND),
  (4209, 4212, .EXTEND),
  (4226, 4226, .EXTEND),
  (4229, 4230, .EXTEND),
  (4237, 4237, .EXTEND),
  (4253, 4253, .EXTEND),
  (4957, 4959, .EXTEND),
  (5906, 5908, .EXTEND),
  (5938, 5940, .EXTEND),
  (5970, 5971, .EXTEND),
  (6002, 6003, .EXTEND),
  (6068, 6069, .EXTEND),
  (6071, 6077, .EXTEND),
  (6086, 6086, .EXTEND),
  (6089, 6099, .EXTEND),
  (6109, 6109, .EXTEND),
  (6155, 6157, .EXTEND),
  (6277, 6278, .EXTEND),
  (6313, 6313, .EXTEND),
  (6432, 6434, .EXTEND),
  (6439, 6440, .EXTEND),
  (6450, 6450, .EXTEND),
  (6457, 6459, .EXTEND),
  (6679, 6680, .EXTEND),
  (6683, 6683, .EXTEND),
  (6742, 6742, .EXTEND),
  (6744, 6750, .EXTEND),
  (6752, 6752, .EXTEND),
  (6754, 6754, .EXTEND),
  (6757, 6764, .EXTEND),
  (6771, 6780, .EXTEND),
  (6783, 6783, .EXTEND),
  (6832, 6845, .EXTEND),
  (6846, 6846, .EXTEND),
  (6912, 6915, .EXTEND),
  (6964, 6964, .EXTEND),
  (6966, 6970, .EXTEND),
  (6972, 6972, .EXTEND),
  (6978, 6978, .EXTEND),
  (7019, 7027, .EXTEND),
  (7040, 7041, .EXTEND),
  (7074, 7077, .EXTEND),
  (7080, 7081, .EXTEND),
  (7083, 7085, .EXTEND),
  (7142, 7142, .EXTEND),
  (7144, 7145, .EXTEND),
  (7149, 7149, .EXTEND),
  (7151, 7153, .EXTEND),
  (7212, 7219, .EXTEND),
  (7222, 7223, .EXTEND),
  (7376, 7378, .EXTEND)]

/-- src/u5e/props/GraphemeBreakProperty.txt, entries of lines 241-340. -/
def gcbFile2 : List (Nat × Nat × GCB) := [
  (7380, 7392, .EXTEND),
  (7394, 7400, .EXTEND),
  (7405, 7405, .EXTEND),
  (7412, 7412, .EXTEND),
  (7416, 7417, .EXTEND),
  (7616, 7669, .EXTEND),
  (7675, 7679, .EXTEND),
  (8204, 8204, .EXTEND),
  (8400, 8412, .EXTEND),
  (8413, 8416, .EXTEND),
  (8417, 8417, .EXTEND),
  (8418, 8420, .EXTEND),
  (8421, 8432, .EXTEND),
  (11503, 11505, .EXTEND),
  (11647, 11647, .EXTEND),
  (11744, 11775, .EXTEND),
  (12330, 12333, .EXTEND),
  (12334, 12335, .EXTEND),
  (12441, 12442, .EXTEND),
  (42607, 42607, .EXTEND),
  (42608, 42610, .EXTEND),
  (42612, 42621, .EXTEND),
  (42654, 42655, .EXTEND),
  (42736, 42737, .EXTEND),
  (43010, 43010, .EXTEND),
  (43014, 43014, .EXTEND),
  (43019, 43019, .EXTEND),
  (43045, 43046, .EXTEND),
  (43204, 43205, .EXTEND),
  (43232, 43249, .EXTEND),
  (43302, 43309, .EXTEND),
  (43335, 43345, .EXTEND),
  (43392, 43394, .EXTEND),
  (43443, 43443, .EXTEND),
  (43446, 43449, .EXTEND),
  (43452, 43452, .EXTEND),
  (43493, 43493, .EXTEND),
  (43561, 43566, .EXTEND),
  (43569, 43570, .EXTEND),
  (43573, 43574, .EXTEND),
  (43587, 43587, .EXTEND),
  (43596, 43596, .EXTEND),
  (43644, 43644, .EXTEND),
  (43696, 43696, .EXTEND),
  (43698, 43700, .EXTEND),
  (43703, 43704, .EXTEND),
  (43710, 43711, .EXTEND),
  (43713, 43713, .EXTEND),
  (43756, 43757, .EXTEND),
  (43766, 43766, .EXTEND),
  (44005, 44005, .EXTEND),
  (44008, 44008, .EXTEND),
  (44013, 44013, .EXTEND),
  (64286, 64286, .EXTEND),
  (65024, 65039, .EXTEND),
  (65056, 65071, .EXTEND),
  (65438, 65439, .EXTEND),
  (66045, 66045, .EXTEND),
  (66272, 66272, .EXTEND),
  (66422, 66426, .EXTEND),
  (68097, 68099, .EXTEND),
  (68101, 68102, .EXTEND),
  (68108, 68111, .EXTEND),
  (68152, 68154, .EXTEND),
  (68159, 68159, .EXTEND),
  (68325, 68326, .EXTEND),
  (69633, 69633, .EXTEND),
  (69688, 69702, .EXTEND),
  (69759, 69761, .EXTEND),
  (69811, 69814, .EXTEND),
  (69817, 69818, .EXTEND),
  (69888, 69890, .EXTEND),
  (69927, 69931, .EXTEND),
  (69933, 69940, .EXTEND),
  (70003, 70003, .EXTEND),
  (70016, 70017, .EXTEND),
  (70070, 70078, .EXTEND),
  (70090, 70092, .EXTEND),
  (70191, 70193, .EXTEND),
  (70196, 70196, .EXTEND),
  (70198, 70199, .EXTEND),
  (70206, 70206, .EXTEND),
  (70367, 70367, .EXTEND),
  (70371, 70378, .EXTEND),
  (70400, 70401, .EXTEND),
  (70460, 70460, .EXTEND),
  (70462, 70462, .EXTEND),
  (70464, 70464, .EXTEND),
  (70487, 70487, .EXTEND),
  (70502, 70508, .EXTEND),
  (70512, 70516, .EXTEND),
  (70712, 70719, .EXTEND),
  (70722, 70724, .EXTEND),
  (70726, 70726, .EXTEND),
  (70832, 70832, .EXTEND),
  (70835, 70840, .EXTEND),
  (70842, 70842, .EXTEND),
  (70845, 70845, .EXTEND),
  (70847, 70848, .EXTEND),
  (70850, 70851, .EXTEND)]

/-- src/u5e/props/GraphemeBreakProperty.txt, entries of lines 341-450. -/
def gcbFile3 : List (Nat × Nat × GCB) := [
  (71087, 71087, .EXTEND),
  (71090, 71093, .EXTEND),
  (71100, 71101, .EXTEND),
  (71103, 71104, .EXTEND),
  (71132, 71133, .EXTEND),
  (71219, 71226, .EXTEND),
  (71229, 71229, .EXTEND),
  (71231, 71232, .EXTEND),
  (71339, 71339, .EXTEND),
  (71341, 71341, .EXTEND),
  (71344, 71349, .EXTEND),
  (71351, 71351, .EXTEND),
  (71453, 71455, .EXTEND),
  (71458, 71461, .EXTEND),
  (71463, 71467, .EXTEND),
  (72752, 72758, .EXTEND),
  (72760, 72765, .EXTEND),
  (72767, 72767, .EXTEND),
  (72850, 72871, .EXTEND),
  (72874, 72880, .EXTEND),
  (72882, 72883, .EXTEND),
  (72885, 72886, .EXTEND),
  (92912, 92916, .EXTEND),
  (92976, 92982, .EXTEND),
  (94095, 94098, .EXTEND),
  (113821, 113822, .EXTEND),
  (119141, 119141, .EXTEND),
  (119143, 119145, .EXTEND),
  (119150, 119154, .EXTEND),
  (119163, 119170, .EXTEND),
  (119173, 119179, .EXTEND),
  (119210, 119213, .EXTEND),
  (119362, 119364, .EXTEND),
  (121344, 121398, .EXTEND),
  (121403, 121452, .EXTEND),
  (121461, 121461, .EXTEND),
  (121476, 121476, .EXTEND),
  (121499, 121503, .EXTEND),
  (121505, 121519, .EXTEND),
  (122880, 122886, .EXTEND),
  (122888, 122904, .EXTEND),
  (122907, 122913, .EXTEND),
  (122915, 122916, .EXTEND),
  (122918, 122922, .EXTEND),
  (125136, 125142, .EXTEND),
  (125252, 125258, .EXTEND),
  (917536, 917631, .EXTEND),
  (917760, 917999, .EXTEND),
  (127462, 127487, .REGIONAL_INDICATOR),
  (2307, 2307, .SPACINGMARK),
  (2363, 2363, .SPACINGMARK),
  (2366, 2368, .SPACINGMARK),
  (2377, 2380, .SPACINGMARK),
  (2382, 2383, .SPACINGMARK),
  (2434, 2435, .SPACINGMARK),
  (2495, 2496, .SPACINGMARK),
  (2503, 2504, .SPACINGMARK),
  (2507, 2508, .SPACINGMARK),
  (2563, 2563, .SPACINGMARK),
  (2622, 2624, .SPACINGMARK),
  (2691, 2691, .SPACINGMARK),
  (2750, 2752, .SPACINGMARK),
  (2761, 2761, .SPACINGMARK),
  (2763, 2764, .SPACINGMARK),
  (2818, 2819, .SPACINGMARK),
  (2880, 2880, .SPACINGMARK),
  (2887, 2888, .SPACINGMARK),
  (2891, 2892, .SPACINGMARK),
  (3007, 3007, .SPACINGMARK),
  (3009, 3010, .SPACINGMARK),
  (3014, 3016, .SPACINGMARK),
  (3018, 3020, .SPACINGMARK),
  (3073, 3075, .SPACINGMARK),
  (3137, 3140, .SPACINGMARK),
  (3202, 3203, .SPACINGMARK),
  (3262, 3262, .SPACINGMARK),
  (3264, 3265, .SPACINGMARK),
  (3267, 3268, .SPACINGMARK),
  (3271, 3272, .SPACINGMARK),
  (3274, 3275, .SPACINGMARK),
  (3330, 3331, .SPACINGMARK),
  (3391, 3392, .SPACINGMARK),
  (3398, 3400, .SPACINGMARK),
  (3402, 3404, .SPACINGMARK),
  (3458, 3459, .SPACINGMARK),
  (3536, 3537, .SPACINGMARK),
  (3544, 3550, .SPACINGMARK),
  (3570, 3571, .SPACINGMARK),
  (3635, 3635, .SPACINGMARK),
  (3763, 3763, .SPACINGMARK),
  (3902, 3903, .SPACINGMARK),
  (3967, 3967, .SPACINGMARK),
  (4145, 4145, .SPACINGMARK),
  (4155, 4156, .SPACINGMARK),
  (4182, 4183, .SPACINGMARK),
  (4228, 4228, .SPACINGMARK),
  (6070, 6070, .SPACINGMARK),
  (6078, 6085, .SPACINGMARK),
  (6087, 6088, .SPACINGMARK),
  (6435, 6438, .SPACINGMARK)]

/-- src/u5e/props/GraphemeBreakProperty.txt, entries of lines 451-570. -/
def gcbFile4 : List (Nat × Nat × GCB) := [
  (6441, 6443, .SPACINGMARK),
  (6448, 6449, .SPACINGMARK),
  (6451, 6456, .SPACINGMARK),
  (6681, 6682, .SPACINGMARK),
  (6741, 6741, .SPACINGMARK),
  (6743, 6743, .SPACINGMARK),
  (6765, 6770, .SPACINGMARK),
  (6916, 6916, .SPACINGMARK),
  (6965, 6965, .SPACINGMARK),
  (6971, 6971, .SPACINGMARK),
  (6973, 6977, .SPACINGMARK),
  (6979, 6980, .SPACINGMARK),
  (7042, 7042, .SPACINGMARK),
  (7073, 7073, .SPACINGMARK),
  (7078, 7079, .SPACINGMARK),
  (7082, 7082, .SPACINGMARK),
  (7143, 7143, .SPACINGMARK),
  (7146, 7148, .SPACINGMARK),
  (7150, 7150, .SPACINGMARK),
  (7154, 7155, .SPACINGMARK),
  (7204, 7211, .SPACINGMARK),
  (7220, 7221, .SPACINGMARK),
  (7393, 7393, .SPACINGMARK),
  (7410, 7411, .SPACINGMARK),
  (43043, 43044, .SPACINGMARK),
  (43047, 43047, .SPACINGMARK),
  (43136, 43137, .SPACINGMARK),
  (43188, 43203, .SPACINGMARK),
  (43346, 43347, .SPACINGMARK),
  (43395, 43395, .SPACINGMARK),
  (43444, 43445, .SPACINGMARK),
  (43450, 43451, .SPACINGMARK),
  (43453, 43456, .SPACINGMARK),
  (43567, 43568, .SPACINGMARK),
  (43571, 43572, .SPACINGMARK),
  (43597, 43597, .SPACINGMARK),
  (43755, 43755, .SPACINGMARK),
  (43758, 43759, .SPACINGMARK),
  (43765, 43765, .SPACINGMARK),
  (44003, 44004, .SPACINGMARK),
  (44006, 44007, .SPACINGMARK),
  (44009, 44010, .SPACINGMARK),
  (44012, 44012, .SPACINGMARK),
  (69632, 69632, .SPACINGMARK),
  (69634, 69634, .SPACINGMARK),
  (69762, 69762, .SPACINGMARK),
  (69808, 69810, .SPACINGMARK),
  (69815, 69816, .SPACINGMARK),
  (69932, 69932, .SPACINGMARK),
  (70018, 70018, .SPACINGMARK),
  (70067, 70069, .SPACINGMARK),
  (70079, 70080, .SPACINGMARK),
  (70188, 70190, .SPACINGMARK),
  (70194, 70195, .SPACINGMARK),
  (70197, 70197, .SPACINGMARK),
  (70368, 70370, .SPACINGMARK),
  (70402, 70403, .SPACINGMARK),
  (70463, 70463, .SPACINGMARK),
  (70465, 70468, .SPACINGMARK),
  (70471, 70472, .SPACINGMARK),
  (70475, 70477, .SPACINGMARK),
  (70498, 70499, .SPACINGMARK),
  (70709, 70711, .SPACINGMARK),
  (70720, 70721, .SPACINGMARK),
  (70725, 70725, .SPACINGMARK),
  (70833, 70834, .SPACINGMARK),
  (70841, 70841, .SPACINGMARK),
  (70843, 70844, .SPACINGMARK),
  (70846, 70846, .SPACINGMARK),
  (70849, 70849, .SPACINGMARK),
  (71088, 71089, .SPACINGMARK),
  (71096, 71099, .SPACINGMARK),
  (71102, 71102, .SPACINGMARK),
  (71216, 71218, .SPACINGMARK),
  (71227, 71228, .SPACINGMARK),
  (71230, 71230, .SPACINGMARK),
  (71340, 71340, .SPACINGMARK),
  (71342, 71343, .SPACINGMARK),
  (71350, 71350, .SPACINGMARK),
  (71456, 71457, .SPACINGMARK),
  (71462, 71462, .SPACINGMARK),
  (72751, 72751, .SPACINGMARK),
  (72766, 72766, .SPACINGMARK),
  (72873, 72873, .SPACINGMARK),
  (72881, 72881, .SPACINGMARK),
  (72884, 72884, .SPACINGMARK),
  (94033, 94078, .SPACINGMARK),
  (119142, 119142, .SPACINGMARK),
  (119149, 119149, .SPACINGMARK),
  (4352, 4447, .L),
  (43360, 43388, .L),
  (4448, 4519, .V),
  (55216, 55238, .V),
  (4520, 4607, .T),
  (55243, 55291, .T),
  (44032, 44032, .LV),
  (44060, 44060, .LV),
  (44088, 44088, .LV),
  (44116, 44116, .LV),
  (44144, 44144, .LV)]

/-- src/u5e/props/GraphemeBreakProperty.txt, entries of lines 571-670. -/
def gcbFile5 : List (Nat × Nat × GCB) := [
  (44172, 44172, .LV),
  (44200, 44200, .LV),
  (44228, 44228, .LV),
  (44256, 44256, .LV),
  (44284, 44284, .LV),
  (44312, 44312, .LV),
  (44340, 44340, .LV),
  (44368, 44368, .LV),
  (44396, 44396, .LV),
  (44424, 44424, .LV),
  (44452, 44452, .LV),
  (44480, 44480, .LV),
  (44508, 44508, .LV),
  (44536, 44536, .LV),
  (44564, 44564, .LV),
  (44592, 44592, .LV),
  (44620, 44620, .LV),
  (44648, 44648, .LV),
  (44676, 44676, .LV),
  (44704, 44704, .LV),
  (44732, 44732, .LV),
  (44760, 44760, .LV),
  (44788, 44788, .LV),
  (44816, 44816, .LV),
  (44844, 44844, .LV),
  (44872, 44872, .LV),
  (44900, 44900, .LV),
  (44928, 44928, .LV),
  (44956, 44956, .LV),
  (44984, 44984, .LV),
  (45012, 45012, .LV),
  (45040, 45040, .LV),
  (45068, 45068, .LV),
  (45096, 45096, .LV),
  (45124, 45124, .LV),
  (45152, 45152, .LV),
  (45180, 45180, .LV),
  (45208, 45208, .LV),
  (45236, 45236, .LV),
  (45264, 45264, .LV),
  (45292, 45292, .LV),
  (45320, 45320, .LV),
  (45348, 45348, .LV),
  (45376, 45376, .LV),
  (45404, 45404, .LV),
  (45432, 45432, .LV),
  (45460, 45460, .LV),
  (45488, 45488, .LV),
  (45516, 45516, .LV),
  (45544, 45544, .LV),
  (45572, 45572, .LV),
  (45600, 45600, .LV),
  (45628, 45628, .LV),
  (45656, 45656, .LV),
  (45684, 45684, .LV),
  (45712, 45712, .LV),
  (45740, 45740, .LV),
  (45768, 45768, .LV),
  (45796, 45796, .LV),
  (45824, 45824, .LV),
  (45852, 45852, .LV),
  (45880, 45880, .LV),
  (45908, 45908, .LV),
  (45936, 45936, .LV),
  (45964, 45964, .LV),
  (45992, 45992, .LV),
  (46020, 46020, .LV),
  (46048, 46048, .LV),
  (46076, 46076, .LV),
  (46104, 46104, .LV),
  (46132, 46132, .LV),
  (46160, 46160, .LV),
  (46188, 46188, .LV),
  (46216, 46216, .LV),
  (46244, 46244, .LV),
  (46272, 46272, .LV),
  (46300, 46300, .LV),
  (46328, 46328, .LV),
  (46356, 46356, .LV),
  (46384, 46384, .LV),
  (46412, 46412, .LV),
  (46440, 46440, .LV),
  (46468, 46468, .LV),
  (46496, 46496, .LV),
  (46524, 46524, .LV),
  (46552, 46552, .LV),
  (46580, 46580, .LV),
  (46608, 46608, .LV),
  (46636, 46636, .LV),
  (46664, 46664, .LV),
  (46692, 46692, .LV),
  (46720, 46720, .LV),
  (46748, 46748, .LV),
  (46776, 46776, .LV),
  (46804, 46804, .LV),
  (46832, 46832, .LV),
  (46860, 46860, .LV),
  (46888, 46888, .LV),
  (46916, 46916, .LV),
  (46944, 46944, .LV)]

/-- src/u5e/props/GraphemeBreakProperty.txt, entries of lines 671-770. -/
def gcbFile6 : List (Nat × Nat × GCB) := [
  (46972, 46972, .LV),
  (47000, 47000, .LV),
  (47028, 47028, .LV),
  (47056, 47056, .LV),
  (47084, 47084, .LV),
  (47112, 47112, .LV),
  (47140, 47140, .LV),
  (47168, 47168, .LV),
  (47196, 47196, .LV),
  (47224, 47224, .LV),
  (47252, 47252, .LV),
  (47280, 47280, .LV),
  (47308, 47308, .LV),
  (47336, 47336, .LV),
  (47364, 47364, .LV),
  (47392, 47392, .LV),
  (47420, 47420, .LV),
  (47448, 47448, .LV),
  (47476, 47476, .LV),
  (47504, 47504, .LV),
  (47532, 47532, .LV),
  (47560, 47560, .LV),
  (47588, 47588, .LV),
  (47616, 47616, .LV),
  (47644, 47644, .LV),
  (47672, 47672, .LV),
  (47700, 47700, .LV),
  (47728, 47728, .LV),
  (47756, 47756, .LV),
  (47784, 47784, .LV),
  (47812, 47812, .LV),
  (47840, 47840, .LV),
  (47868, 47868, .LV),
  (47896, 47896, .LV),
  (47924, 47924, .LV),
  (47952, 47952, .LV),
  (47980, 47980, .LV),
  (48008, 48008, .LV),
  (48036, 48036, .LV),
  (48064, 48064, .LV),
  (48092, 48092, .LV),
  (48120, 48120, .LV),
  (48148, 48148, .LV),
  (48176, 48176, .LV),
  (48204, 48204, .LV),
  (48232, 48232, .LV),
  (48260, 48260, .LV),
  (48288, 48288, .LV),
  (48316, 48316, .LV),
  (48344, 48344, .LV),
  (48372, 48372, .LV),
  (48400, 48400, .LV),
  (48428, 48428, .LV),
  (48456, 48456, .LV),
  (48484, 48484, .LV),
  (48512, 48512, .LV),
  (48540, 48540, .LV),
  (48568, 48568, .LV),
  (48596, 48596, .LV),
  (48624, 48624, .LV),
  (48652, 48652, .LV),
  (48680, 48680, .LV),
  (48708, 48708, .LV),
  (48736, 48736, .LV),
  (48764, 48764, .LV),
  (48792, 48792, .LV),
  (48820, 48820, .LV),
  (48848, 48848, .LV),
  (48876, 48876, .LV),
  (48904, 48904, .LV),
  (48932, 48932, .LV),
  (48960, 48960, .LV),
  (48988, 48988, .LV),
  (49016, 49016, .LV),
  (49044, 49044, .LV),
  (49072, 49072, .LV),
  (49100, 49100, .LV),
  (49128, 49128, .LV),
  (49156, 49156, .LV),
  (49184, 49184, .LV),
  (49212, 49212, .LV),
  (49240, 49240, .LV),
  (49268, 49268, .LV),
  (49296, 49296, .LV),
  (49324, 49324, .LV),
  (49352, 49352, .LV),
  (49380, 49380, .LV),
  (49408, 49408, .LV),
  (49436, 49436, .LV),
  (49464, 49464, .LV),
  (49492, 49492, .LV),
  (49520, 49520, .LV),
  (49548, 49548, .LV),
  (49576, 49576, .LV),
  (49604, 49604, .LV),
  (49632, 49632, .LV),
  (49660, 49660, .LV),
  (49688, 49688, .LV),
  (49716, 49716, .LV),
  (49744, 49744, .LV)]

/-- src/u5e/props/GraphemeBreakProperty.txt, entries of lines 771-870. -/
def gcbFile7 : List (Nat × Nat × GCB) := [
  (49772, 49772, .LV),
  (49800, 49800, .LV),
  (49828, 49828, .LV),
  (49856, 49856, .LV),
  (49884, 49884, .LV),
  (49912, 49912, .LV),
  (49940, 49940, .LV),
  (49968, 49968, .LV),
  (49996, 49996, .LV),
  (50024, 50024, .LV),
  (50052, 50052, .LV),
  (50080, 50080, .LV),
  (50108, 50108, .LV),
  (50136, 50136, .LV),
  (50164, 50164, .LV),
  (50192, 50192, .LV),
  (50220, 50220, .LV),
  (50248, 50248, .LV),
  (50276, 50276, .LV),
  (50304, 50304, .LV),
  (50332, 50332, .LV),
  (50360, 50360, .LV),
  (50388, 50388, .LV),
  (50416, 50416, .LV),
  (50444, 50444, .LV),
  (50472, 50472, .LV),
  (50500, 50500, .LV),
  (50528, 50528, .LV),
  (50556, 50556, .LV),
  (50584, 50584, .LV),
  (50612, 50612, .LV),
  (50640, 50640, .LV),
  (50668, 50668, .LV),
  (50696, 50696, .LV),
  (50724, 50724, .LV),
  (50752, 50752, .LV),
  (50780, 50780, .LV),
  (50808, 50808, .LV),
  (50836, 50836, .LV),
  (50864, 50864, .LV),
  (50892, 50892, .LV),
  (50920, 50920, .LV),
  (50948, 50948, .LV),
  (50976, 50976, .LV),
  (51004, 51004, .LV),
  (51032, 51032, .LV),
  (51060, 51060, .LV),
  (51088, 51088, .LV),
  (51116, 51116, .LV),
  (51144, 51144, .LV),
  (51172, 51172, .LV),
  (51200, 51200, .LV),
  (51228, 51228, .LV),
  (51256, 51256, .LV),
  (51284, 51284, .LV),
  (51312, 51312, .LV),
  (51340, 51340, .LV),
  (51368, 51368, .LV),
  (51396, 51396, .LV),
  (51424, 51424, .LV),
  (51452, 51452, .LV),
  (51480, 51480, .LV),
  (51508, 51508, .LV),
  (51536, 51536, .LV),
  (51564, 51564, .LV),
  (51592, 51592, .LV),
  (51620, 51620, .LV),
  (51648, 51648, .LV),
  (51676, 51676, .LV),
  (51704, 51704, .LV),
  (51732, 51732, .LV),
  (51760, 51760, .LV),
  (51788, 51788, .LV),
  (51816, 51816, .LV),
  (51844, 51844, .LV),
  (51872, 51872, .LV),
  (51900, 51900, .LV),
  (51928, 51928, .LV),
  (51956, 51956, .LV),
  (51984, 51984, .LV),
  (52012, 52012, .LV),
  (52040, 52040, .LV),
  (52068, 52068, .LV),
  (52096, 52096, .LV),
  (52124, 52124, .LV),
  (52152, 52152, .LV),
  (52180, 52180, .LV),
  (52208, 52208, .LV),
  (52236, 52236, .LV),
  (52264, 52264, .LV),
  (52292, 52292, .LV),
  (52320, 52320, .LV),
  (52348, 52348, .LV),
  (52376, 52376, .LV),
  (52404, 52404, .LV),
  (52432, 52432, .LV),
  (52460, 52460, .LV),
  (52488, 52488, .LV),
  (52516, 52516, .LV),
  (52544, 52544, .LV)]

/-- src/u5e/props/GraphemeBreakProperty.txt, entries of lines 871-975. -/
def gcbFile8 : List (Nat × Nat × GCB) := [
  (52572, 52572, .LV),
  (52600, 52600, .LV),
  (52628, 52628, .LV),
  (52656, 52656, .LV),
  (52684, 52684, .LV),
  (52712, 52712, .LV),
  (52740, 52740, .LV),
  (52768, 52768, .LV),
  (52796, 52796, .LV),
  (52824, 52824, .LV),
  (52852, 52852, .LV),
  (52880, 52880, .LV),
  (52908, 52908, .LV),
  (52936, 52936, .LV),
  (52964, 52964, .LV),
  (52992, 52992, .LV),
  (53020, 53020, .LV),
  (53048, 53048, .LV),
  (53076, 53076, .LV),
  (53104, 53104, .LV),
  (53132, 53132, .LV),
  (53160, 53160, .LV),
  (53188, 53188, .LV),
  (53216, 53216, .LV),
  (53244, 53244, .LV),
  (53272, 53272, .LV),
  (53300, 53300, .LV),
  (53328, 53328, .LV),
  (53356, 53356, .LV),
  (53384, 53384, .LV),
  (53412, 53412, .LV),
  (53440, 53440, .LV),
  (53468, 53468, .LV),
  (53496, 53496, .LV),
  (53524, 53524, .LV),
  (53552, 53552, .LV),
  (53580, 53580, .LV),
  (53608, 53608, .LV),
  (53636, 53636, .LV),
  (53664, 53664, .LV),
  (53692, 53692, .LV),
  (53720, 53720, .LV),
  (53748, 53748, .LV),
  (53776, 53776, .LV),
  (53804, 53804, .LV),
  (53832, 53832, .LV),
  (53860, 53860, .LV),
  (53888, 53888, .LV),
  (53916, 53916, .LV),
  (53944, 53944, .LV),
  (53972, 53972, .LV),
  (54000, 54000, .LV),
  (54028, 54028, .LV),
  (54056, 54056, .LV),
  (54084, 54084, .LV),
  (54112, 54112, .LV),
  (54140, 54140, .LV),
  (54168, 54168, .LV),
  (54196, 54196, .LV),
  (54224, 54224, .LV),
  (54252, 54252, .LV),
  (54280, 54280, .LV),
  (54308, 54308, .LV),
  (54336, 54336, .LV),
  (54364, 54364, .LV),
  (54392, 54392, .LV),
  (54420, 54420, .LV),
  (54448, 54448, .LV),
  (54476, 54476, .LV),
  (54504, 54504, .LV),
  (54532, 54532, .LV),
  (54560, 54560, .LV),
  (54588, 54588, .LV),
  (54616, 54616, .LV),
  (54644, 54644, .LV),
  (54672, 54672, .LV),
  (54700, 54700, .LV),
  (54728, 54728, .LV),
  (54756, 54756, .LV),
  (54784, 54784, .LV),
  (54812, 54812, .LV),
  (54840, 54840, .LV),
  (54868, 54868, .LV),
  (54896, 54896, .LV),
  (54924, 54924, .LV),
  (54952, 54952, .LV),
  (54980, 54980, .LV),
  (55008, 55008, .LV),
  (55036, 55036, .LV),
  (55064, 55064, .LV),
  (55092, 55092, .LV),
  (55120, 55120, .LV),
  (55148, 55148, .LV),
  (55176, 55176, .LV),
  (44033, 44059, .LVT),
  (44061, 44087, .LVT),
  (44089, 44115, .LVT),
  (44117, 44143, .LVT),
  (44145, 44171, .LVT),
  (44173, 44199, .LVT)]

/-- src/u5e/props/GraphemeBreakProperty.txt, entries of lines 976-1075. -/
def gcbFile9 : List (Nat × Nat × GCB) := [
  (44201, 44227, .LVT),
  (44229, 44255, .LVT),
  (44257, 44283, .LVT),
  (44285, 44311, .LVT),
  (44313, 44339, .LVT),
  (44341, 44367, .LVT),
  (44369, 44395, .LVT),
  (44397, 44423, .LVT),
  (44425, 44451, .LVT),
  (44453, 44479, .LVT),
  (44481, 44507, .LVT),
  (44509, 44535, .LVT),
  (44537, 44563, .LVT),
  (44565, 44591, .LVT),
  (44593, 44619, .LVT),
  (44621, 44647, .LVT),
  (44649, 44675, .LVT),
  (44677, 44703, .LVT),
  (44705, 44731, .LVT),
  (44733, 44759, .LVT),
  (44761, 44787, .LVT),
  (44789, 44815, .LVT),
  (44817, 44843, .LVT),
  (44845, 44871, .LVT),
  (44873, 44899, .LVT),
  (44901, 44927, .LVT),
  (44929, 44955, .LVT),
  (44957, 44983, .LVT),
  (44985, 45011, .LVT),
  (45013, 45039, .LVT),
  (45041, 45067, .LVT),
  (45069, 45095, .LVT),
  (45097, 45123, .LVT),
  (45125, 45151, .LVT),
  (45153, 45179, .LVT),
  (45181, 45207, .LVT),
  (45209, 45235, .LVT),
  (45237, 45263, .LVT),
  (45265, 45291, .LVT),
  (45293, 45319, .LVT),
  (45321, 45347, .LVT),
  (45349, 45375, .LVT),
  (45377, 45403, .LVT),
  (45405, 45431, .LVT),
  (45433, 45459, .LVT),
  (45461, 45487, .LVT),
  (45489, 45515, .LVT),
  (45517, 45543, .LVT),
  (45545, 45571, .LVT),
  (45573, 45599, .LVT),
  (45601, 45627, .LVT),
  (45629, 45655, .LVT),
  (45657, 45683, .LVT),
  (45685, 45711, .LVT),
  (45713, 45739, .LVT),
  (45741, 45767, .LVT),
  (45769, 45795, .LVT),
  (45797, 45823, .LVT),
  (45825, 45851, .LVT),
  (45853, 45879, .LVT),
  (45881, 45907, .LVT),
  (45909, 45935, .LVT),
  (45937, 45963, .LVT),
  (45965, 45991, .LVT),
  (45993, 46019, .LVT),
  (46021, 46047, .LVT),
  (46049, 46075, .LVT),
  (46077, 46103, .LVT),
  (46105, 46131, .LVT),
  (46133, 46159, .LVT),
  (46161, 46187, .LVT),
  (46189, 46215, .LVT),
  (46217, 46243, .LVT),
  (46245, 46271, .LVT),
  (46273, 46299, .LVT),
  (46301, 46327, .LVT),
  (46329, 46355, .LVT),
  (46357, 46383, .LVT),
  (46385, 46411, .LVT),
  (46413, 46439, .LVT),
  (46441, 46467, .LVT),
  (46469, 46495, .LVT),
  (46497, 46523, .LVT),
  (46525, 46551, .LVT),
  (46553, 46579, .LVT),
  (46581, 46607, .LVT),
  (46609, 46635, .LVT),
  (46637, 46663, .LVT),
  (46665, 46691, .LVT),
  (46693, 46719, .LVT),
  (46721, 46747, .LVT),
  (46749, 46775, .LVT),
  (46777, 46803, .LVT),
  (46805, 46831, .LVT),
  (46833, 46859, .LVT),
  (46861, 46887, .LVT),
  (46889, 46915, .LVT),
  (46917, 46943, .LVT),
  (46945, 46971, .LVT),
  (46973, 46999, .LVT)]

/-- src/u5e/props/GraphemeBreakProperty.txt, entries of lines 1076-1175. -/
def gcbFile10 : List (Nat × Nat × GCB) := [
  (47001, 47027, .LVT),
  (47029, 47055, .LVT),
  (47057, 47083, .LVT),
  (47085, 47111, .LVT),
  (47113, 47139, .LVT),
  (47141, 47167, .LVT),
  (47169, 47195, .LVT),
  (47197, 47223, .LVT),
  (47225, 47251, .LVT),
  (47253, 47279, .LVT),
  (47281, 47307, .LVT),
  (47309, 47335, .LVT),
  (47337, 47363, .LVT),
  (47365, 47391, .LVT),
  (47393, 47419, .LVT),
  (47421, 47447, .LVT),
  (47449, 47475, .LVT),
  (47477, 47503, .LVT),
  (47505, 47531, .LVT),
  (47533, 47559, .LVT),
  (47561, 47587, .LVT),
  (47589, 47615, .LVT),
  (47617, 47643, .LVT),
  (47645, 47671, .LVT),
  (47673, 47699, .LVT),
  (47701, 47727, .LVT),
  (47729, 47755, .LVT),
  (47757, 47783, .LVT),
  (47785, 47811, .LVT),
  (47813, 47839, .LVT),
  (47841, 47867, .LVT),
  (47869, 47895, .LVT),
  (47897, 47923, .LVT),
  (47925, 47951, .LVT),
  (47953, 47979, .LVT),
  (47981, 48007, .LVT),
  (48009, 48035, .LVT),
  (48037, 48063, .LVT),
  (48065, 48091, .LVT),
  (48093, 48119, .LVT),
  (48121, 48147, .LVT),
  (48149, 48175, .LVT),
  (48177, 48203, .LVT),
  (48205, 48231, .LVT),
  (48233, 48259, .LVT),
  (48261, 48287, .LVT),
  (48289, 48315, .LVT),
  (48317, 48343, .LVT),
  (48345, 48371, .LVT),
  (48373, 48399, .LVT),
  (48401, 48427, .LVT),
  (48429, 48455, .LVT),
  (48457, 48483, .LVT),
  (48485, 48511, .LVT),
  (48513, 48539, .LVT),
  (48541, 48567, .LVT),
  (48569, 48595, .LVT),
  (48597, 48623, .LVT),
  (48625, 48651, .LVT),
  (48653, 48679, .LVT),
  (48681, 48707, .LVT),
  (48709, 48735, .LVT),
  (48737, 48763, .LVT),
  (48765, 48791, .LVT),
  (48793, 48819, .LVT),
  (48821, 48847, .LVT),
  (48849, 48875, .LVT),
  (48877, 48903, .LVT),
  (48905, 48931, .LVT),
  (48933, 48959, .LVT),
  (48961, 48987, .LVT),
  (48989, 49015, .LVT),
  (49017, 49043, .LVT),
  (49045, 49071, .LVT),
  (49073, 49099, .LVT),
  (49101, 49127, .LVT),
  (49129, 49155, .LVT),
  (49157, 49183, .LVT),
  (49185, 49211, .LVT),
  (49213, 49239, .LVT),
  (49241, 49267, .LVT),
  (49269, 49295, .LVT),
  (49297, 49323, .LVT),
  (49325, 49351, .LVT),
  (49353, 49379, .LVT),
  (49381, 49407, .LVT),
  (49409, 49435, .LVT),
  (49437, 49463, .LVT),
  (49465, 49491, .LVT),
  (49493, 49519, .LVT),
  (49521, 49547, .LVT),
  (49549, 49575, .LVT),
  (49577, 49603, .LVT),
  (49605, 49631, .LVT),
  (49633, 49659, .LVT),
  (49661, 49687, .LVT),
  (49689, 49715, .LVT),
  (49717, 49743, .LVT),
  (49745, 49771, .LVT),
  (49773, 49799, .LVT)]

/-- src/u5e/props/GraphemeBreakProperty.txt, entries of lines 1176-1275. -/
def gcbFile11 : List (Nat × Nat × GCB) := [
  (49801, 49827, .LVT),
  (49829, 49855, .LVT),
  (49857, 49883, .LVT),
  (49885, 49911, .LVT),
  (49913, 49939, .LVT),
  (49941, 49967, .LVT),
  (49969, 49995, .LVT),
  (49997, 50023, .LVT),
  (50025, 50051, .LVT),
  (50053, 50079, .LVT),
  (50081, 50107, .LVT),
  (50109, 50135, .LVT),
  (50137, 50163, .LVT),
  (50165, 50191, .LVT),
  (50193, 50219, .LVT),
  (50221, 50247, .LVT),
  (50249, 50275, .LVT),
  (50277, 50303, .LVT),
  (50305, 50331, .LVT),
  (50333, 50359, .LVT),
  (50361, 50387, .LVT),
  (50389, 50415, .LVT),
  (50417, 50443, .LVT),
  (50445, 50471, .LVT),
  (50473, 50499, .LVT),
  (50501, 50527, .LVT),
  (50529, 50555, .LVT),
  (50557, 50583, .LVT),
  (50585, 50611, .LVT),
  (50613, 50639, .LVT),
  (50641, 50667, .LVT),
  (50669, 50695, .LVT),
  (50697, 50723, .LVT),
  (50725, 50751, .LVT),
  (50753, 50779, .LVT),
  (50781, 50807, .LVT),
  (50809, 50835, .LVT),
  (50837, 50863, .LVT),
  (50865, 50891, .LVT),
  (50893, 50919, .LVT),
  (50921, 50947, .LVT),
  (50949, 50975, .LVT),
  (50977, 51003, .LVT),
  (51005, 51031, .LVT),
  (51033, 51059, .LVT),
  (51061, 51087, .LVT),
  (51089, 51115, .LVT),
  (51117, 51143, .LVT),
  (51145, 51171, .LVT),
  (51173, 51199, .LVT),
  (51201, 51227, .LVT),
  (51229, 51255, .LVT),
  (51257, 51283, .LVT),
  (51285, 51311, .LVT),
  (51313, 51339, .LVT),
  (51341, 51367, .LVT),
  (51369, 51395, .LVT),
  (51397, 51423, .LVT),
  (51425, 51451, .LVT),
  (51453, 51479, .LVT),
  (51481, 51507, .LVT),
  (51509, 51535, .LVT),
  (51537, 51563, .LVT),
  (51565, 51591, .LVT),
  (51593, 51619, .LVT),
  (51621, 51647, .LVT),
  (51649, 51675, .LVT),
  (51677, 51703, .LVT),
  (51705, 51731, .LVT),
  (51733, 51759, .LVT),
  (51761, 51787, .LVT),
  (51789, 51815, .LVT),
  (51817, 51843, .LVT),
  (51845, 51871, .LVT),
  (51873, 51899, .LVT),
  (51901, 51927, .LVT),
  (51929, 51955, .LVT),
  (51957, 51983, .LVT),
  (51985, 52011, .LVT),
  (52013, 52039, .LVT),
  (52041, 52067, .LVT),
  (52069, 52095, .LVT),
  (52097, 52123, .LVT),
  (52125, 52151, .LVT),
  (52153, 52179, .LVT),
  (52181, 52207, .LVT),
  (52209, 52235, .LVT),
  (52237, 52263, .LVT),
  (52265, 52291, .LVT),
  (52293, 52319, .LVT),
  (52321, 52347, .LVT),
  (52349, 52375, .LVT),
  (52377, 52403, .LVT),
  (52405, 52431, .LVT),
  (52433, 52459, .LVT),
  (52461, 52487, .LVT),
  (52489, 52515, .LVT),
  (52517, 52543, .LVT),
  (52545, 52571, .LVT),
  (52573, 52599, .LVT)]

/-- src/u5e/props/GraphemeBreakProperty.txt, entries of lines 1276-1380. -/
def gcbFile12 : List (Nat × Nat × GCB) := [
  (52601, 52627, .LVT),
  (52629, 52655, .LVT),
  (52657, 52683, .LVT),
  (52685, 52711, .LVT),
  (52713, 52739, .LVT),
  (52741, 52767, .LVT),
  (52769, 52795, .LVT),
  (52797, 52823, .LVT),
  (52825, 52851, .LVT),
  (52853, 52879, .LVT),
  (52881, 52907, .LVT),
  (52909, 52935, .LVT),
  (52937, 52963, .LVT),
  (52965, 52991, .LVT),
  (52993, 53019, .LVT),
  (53021, 53047, .LVT),
  (53049, 53075, .LVT),
  (53077, 53103, .LVT),
  (53105, 53131, .LVT),
  (53133, 53159, .LVT),
  (53161, 53187, .LVT),
  (53189, 53215, .LVT),
  (53217, 53243, .LVT),
  (53245, 53271, .LVT),
  (53273, 53299, .LVT),
  (53301, 53327, .LVT),
  (53329, 53355, .LVT),
  (53357, 53383, .LVT),
  (53385, 53411, .LVT),
  (53413, 53439, .LVT),
  (53441, 53467, .LVT),
  (53469, 53495, .LVT),
  (53497, 53523, .LVT),
  (53525, 53551, .LVT),
  (53553, 53579, .LVT),
  (53581, 53607, .LVT),
  (53609, 53635, .LVT),
  (53637, 53663, .LVT),
  (53665, 53691, .LVT),
  (53693, 53719, .LVT),
  (53721, 53747, .LVT),
  (53749, 53775, .LVT),
  (53777, 53803, .LVT),
  (53805, 53831, .LVT),
  (53833, 53859, .LVT),
  (53861, 53887, .LVT),
  (53889, 53915, .LVT),
  (53917, 53943, .LVT),
  (53945, 53971, .LVT),
  (53973, 53999, .LVT),
  (54001, 54027, .LVT),
  (54029, 54055, .LVT),
  (54057, 54083, .LVT),
  (54085, 54111, .LVT),
  (54113, 54139, .LVT),
  (54141, 54167, .LVT),
  (54169, 54195, .LVT),
  (54197, 54223, .LVT),
  (54225, 54251, .LVT),
  (54253, 54279, .LVT),
  (54281, 54307, .LVT),
  (54309, 54335, .LVT),
  (54337, 54363, .LVT),
  (54365, 54391, .LVT),
  (54393, 54419, .LVT),
  (54421, 54447, .LVT),
  (54449, 54475, .LVT),
  (54477, 54503, .LVT),
  (54505, 54531, .LVT),
  (54533, 54559, .LVT),
  (54561, 54587, .LVT),
  (54589, 54615, .LVT),
  (54617, 54643, .LVT),
  (54645, 54671, .LVT),
  (54673, 54699, .LVT),
  (54701, 54727, .LVT),
  (54729, 54755, .LVT),
  (54757, 54783, .LVT),
  (54785, 54811, .LVT),
  (54813, 54839, .LVT),
  (54841, 54867, .LVT),
  (54869, 54895, .LVT),
  (54897, 54923, .LVT),
  (54925, 54951, .LVT),
  (54953, 54979, .LVT),
  (54981, 55007, .LVT),
  (55009, 55035, .LVT),
  (55037, 55063, .LVT),
  (55065, 55091, .LVT),
  (55093, 55119, .LVT),
  (55121, 55147, .LVT),
  (55149, 55175, .LVT),
  (55177, 55203, .LVT),
  (9757, 9757, .E_BASE),
  (9977, 9977, .E_BASE),
  (9994, 9997, .E_BASE),
  (127877, 127877, .E_BASE),
  (127939, 127940, .E_BASE),
  (127946, 127947, .E_BASE),
  (128066, 128067, .E_BASE)]

/-- src/u5e/props/GraphemeBreakProperty.txt, entries of lines 1381-1427. -/
def gcbFile13 : List (Nat × Nat × GCB) := [
  (128070, 128080, .E_BASE),
  (128110, 128110, .E_BASE),
  (128112, 128120, .E_BASE),
  (128124, 128124, .E_BASE),
  (128129, 128131, .E_BASE),
  (128133, 128135, .E_BASE),
  (128170, 128170, .E_BASE),
  (128373, 128373, .E_BASE),
  (128378, 128378, .E_BASE),
  (128400, 128400, .E_BASE),
  (128405, 128406, .E_BASE),
  (128581, 128583, .E_BASE),
  (128587, 128591, .E_BASE),
  (128675, 128675, .E_BASE),
  (128692, 128694, .E_BASE),
  (128704, 128704, .E_BASE),
  (129304, 129310, .E_BASE),
  (129318, 129318, .E_BASE),
  (129328, 129328, .E_BASE),
  (129331, 129337, .E_BASE),
  (129340, 129342, .E_BASE),
  (127995, 127999, .E_MODIFIER),
  (8205, 8205, .ZWJ),
  (10084, 10084, .GLUE_AFTER_ZWJ),
  (128139, 128139, .GLUE_AFTER_ZWJ),
  (128488, 128488, .GLUE_AFTER_ZWJ),
  (128102, 128105, .E_BASE_GAZ)]

/-- All of it: src/u5e/props/GraphemeBreakProperty.txt (all 1327 entries, in order). -/
@[irreducible] def gcbFileRows : List (Nat × Nat × GCB) :=
  gcbFile0 ++ (gcbFile1 ++ (gcbFile2 ++ (gcbFile3 ++ (gcbFile4 ++ (gcbFile5 ++ (gcbFile6 ++ (gcbFile7 ++ (gcbFile8 ++ (gcbFile9 ++ (gcbFile10 ++ (gcbFile11 ++ (gcbFile12 ++ (gcbFile13)))))))))))))

end U5e.Data
