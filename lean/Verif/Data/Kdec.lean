set_option maxRecDepth 10000
/-! GENERATED by tools/gen_tables.py from src/u5e/props/compatibility_and_canonical_decomposition_mapping_data.hpp (all 2780 rows, verbatim, in order). -/
namespace U5e.Data

/-- src/u5e/props/compatibility_and_canonical_decomposition_mapping_data.hpp lines 1-100. -/
def kdec0 : List (List Nat) := [
  [168, 32, 776, 0],
  [175, 32, 772, 0],
  [180, 32, 769, 0],
  [181, 956, 0],
  [184, 32, 807, 0],
  [192, 65, 768, 0],
  [193, 65, 769, 0],
  [194, 65, 770, 0],
  [195, 65, 771, 0],
  [196, 65, 776, 0],
  [197, 65, 778, 0],
  [199, 67, 807, 0],
  [200, 69, 768, 0],
  [201, 69, 769, 0],
  [202, 69, 770, 0],
  [203, 69, 776, 0],
  [204, 73, 768, 0],
  [205, 73, 769, 0],
  [206, 73, 770, 0],
  [207, 73, 776, 0],
  [209, 78, 771, 0],
  [210, 79, 768, 0],
  [211, 79, 769, 0],
  [212, 79, 770, 0],
  [213, 79, 771, 0],
  [214, 79, 776, 0],
  [217, 85, 768, 0],
  [218, 85, 769, 0],
  [219, 85, 770, 0],
  [220, 85, 776, 0],
  [221, 89, 769, 0],
  [224, 97, 768, 0],
  [225, 97, 769, 0],
  [226, 97, 770, 0],
  [227, 97, 771, 0],
  [228, 97, 776, 0],
  [229, 97, 778, 0],
  [231, 99, 807, 0],
  [232, 101, 768, 0],
  [233, 101, 769, 0],
  [234, 101, 770, 0],
  [235, 101, 776, 0],
  [236, 105, 768, 0],
  [237, 105, 769, 0],
  [238, 105, 770, 0],
  [239, 105, 776, 0],
  [241, 110, 771, 0],
  [242, 111, 768, 0],
  [243, 111, 769, 0],
  [244, 111, 770, 0],
  [245, 111, 771, 0],
  [246, 111, 776, 0],
  [249, 117, 768, 0],
  [250, 117, 769, 0],
  [251, 117, 770, 0],
  [252, 117, 776, 0],
  [253, 121, 769, 0],
  [255, 121, 776, 0],
  [256, 65, 772, 0],
  [257, 97, 772, 0],
  [258, 65, 774, 0],
  [259, 97, 774, 0],
  [260, 65, 808, 0],
  [261, 97, 808, 0],
  [262, 67, 769, 0],
  [263, 99, 769, 0],
  [264, 67, 770, 0],
  [265, 99, 770, 0],
  [266, 67, 775, 0],
  [267, 99, 775, 0],
  [268, 67, 780, 0],
  [269, 99, 780, 0],
  [270, 68, 780, 0],
  [271, 100, 780, 0],
  [274, 69, 772, 0],
  [275, 101, 772, 0],
  [276, 69, 774, 0],
  [277, 101, 774, 0],
  [278, 69, 775, 0],
  [279, 101, 775, 0],
  [280, 69, 808, 0],
  [281, 101, 808, 0],
  [282, 69, 780, 0],
  [283, 101, 780, 0],
  [284, 71, 770, 0],
  [285, 103, 770, 0],
  [286, 71, 774, 0],
  [287, 103, 774, 0],
  [288, 71, 775, 0],
  [289, 103, 775, 0],
  [290, 71, 807, 0],
  [291, 103, 807, 0],
  [292, 72, 770, 0],
  [293, 104, 770, 0],
  [296, 73, 771, 0],
  [297, 105, 771, 0],
  [298, 73, 772, 0],
  [299, 105, 772, 0],
  [300, 73, 774, 0],
  [301, 105, 774, 0]]

/-- src/u5e/props/compatibility_and_canonical_decomposition_mapping_data.hpp lines 101-200. -/
def kdec1 : List (List Nat) := [
  [302, 73, 808, 0],
  [303, 105, 808, 0],
  [304, 73, 775, 0],
  [306, 73, 74, 0],
  [307, 105, 106, 0],
  [308, 74, 770, 0],
  [309, 106, 770, 0],
  [310, 75, 807, 0],
  [311, 107, 807, 0],
  [313, 76, 769, 0],
  [314, 108, 769, 0],
  [315, 76, 807, 0],
  [316, 108, 807, 0],
  [317, 76, 780, 0],
  [318, 108, 780, 0],
  [319, 76, 183, 0],
  [320, 108, 183, 0],
  [323, 78, 769, 0],
  [324, 110, 769, 0],
  [325, 78, 807, 0],
  [326, 110, 807, 0],
  [327, 78, 780, 0],
  [328, 110, 780, 0],
  [329, 700, 110, 0],
  [332, 79, 772, 0],
  [333, 111, 772, 0],
  [334, 79, 774, 0],
  [335, 111, 774, 0],
  [336, 79, 779, 0],
  [337, 111, 779, 0],
  [340, 82, 769, 0],
  [341, 114, 769, 0],
  [342, 82, 807, 0],
  [343, 114, 807, 0],
  [344, 82, 780, 0],
  [345, 114, 780, 0],
  [346, 83, 769, 0],
  [347, 115, 769, 0],
  [348, 83, 770, 0],
  [349, 115, 770, 0],
  [350, 83, 807, 0],
  [351, 115, 807, 0],
  [352, 83, 780, 0],
  [353, 115, 780, 0],
  [354, 84, 807, 0],
  [355, 116, 807, 0],
  [356, 84, 780, 0],
  [357, 116, 780, 0],
  [360, 85, 771, 0],
  [361, 117, 771, 0],
  [362, 85, 772, 0],
  [363, 117, 772, 0],
  [364, 85, 774, 0],
  [365, 117, 774, 0],
  [366, 85, 778, 0],
  [367, 117, 778, 0],
  [368, 85, 779, 0],
  [369, 117, 779, 0],
  [370, 85, 808, 0],
  [371, 117, 808, 0],
  [372, 87, 770, 0],
  [373, 119, 770, 0],
  [374, 89, 770, 0],
  [375, 121, 770, 0],
  [376, 89, 776, 0],
  [377, 90, 769, 0],
  [378, 122, 769, 0],
  [379, 90, 775, 0],
  [380, 122, 775, 0],
  [381, 90, 780, 0],
  [382, 122, 780, 0],
  [383, 115, 0],
  [416, 79, 795, 0],
  [417, 111, 795, 0],
  [431, 85, 795, 0],
  [432, 117, 795, 0],
  [452, 68, 90, 780, 0],
  [453, 68, 122, 780, 0],
  [454, 100, 122, 780, 0],
  [455, 76, 74, 0],
  [456, 76, 106, 0],
  [457, 108, 106, 0],
  [458, 78, 74, 0],
  [459, 78, 106, 0],
  [460, 110, 106, 0],
  [461, 65, 780, 0],
  [462, 97, 780, 0],
  [463, 73, 780, 0],
  [464, 105, 780, 0],
  [465, 79, 780, 0],
  [466, 111, 780, 0],
  [467, 85, 780, 0],
  [468, 117, 780, 0],
  [469, 85, 776, 772, 0],
  [470, 117, 776, 772, 0],
  [471, 85, 776, 769, 0],
  [472, 117, 776, 769, 0],
  [473, 85, 776, 780, 0],
  [474, 117, 776, 780, 0],
  [475, 85, 776, 768, 0]]

/-- src/u5e/props/compatibility_and_canonical_decomposition_mapping_data.hpp lines 201-300. -/
def kdec2 : List (List Nat) := [
  [476, 117, 776, 768, 0],
  [478, 65, 776, 772, 0],
  [479, 97, 776, 772, 0],
  [480, 65, 775, 772, 0],
  [481, 97, 775, 772, 0],
  [482, 198, 772, 0],
  [483, 230, 772, 0],
  [486, 71, 780, 0],
  [487, 103, 780, 0],
  [488, 75, 780, 0],
  [489, 107, 780, 0],
  [490, 79, 808, 0],
  [491, 111, 808, 0],
  [492, 79, 808, 772, 0],
  [493, 111, 808, 772, 0],
  [494, 439, 780, 0],
  [495, 658, 780, 0],
  [496, 106, 780, 0],
  [497, 68, 90, 0],
  [498, 68, 122, 0],
  [499, 100, 122, 0],
  [500, 71, 769, 0],
  [501, 103, 769, 0],
  [504, 78, 768, 0],
  [505, 110, 768, 0],
  [506, 65, 778, 769, 0],
  [507, 97, 778, 769, 0],
  [508, 198, 769, 0],
  [509, 230, 769, 0],
  [510, 216, 769, 0],
  [511, 248, 769, 0],
  [512, 65, 783, 0],
  [513, 97, 783, 0],
  [514, 65, 785, 0],
  [515, 97, 785, 0],
  [516, 69, 783, 0],
  [517, 101, 783, 0],
  [518, 69, 785, 0],
  [519, 101, 785, 0],
  [520, 73, 783, 0],
  [521, 105, 783, 0],
  [522, 73, 785, 0],
  [523, 105, 785, 0],
  [524, 79, 783, 0],
  [525, 111, 783, 0],
  [526, 79, 785, 0],
  [527, 111, 785, 0],
  [528, 82, 783, 0],
  [529, 114, 783, 0],
  [530, 82, 785, 0],
  [531, 114, 785, 0],
  [532, 85, 783, 0],
  [533, 117, 783, 0],
  [534, 85, 785, 0],
  [535, 117, 785, 0],
  [536, 83, 806, 0],
  [537, 115, 806, 0],
  [538, 84, 806, 0],
  [539, 116, 806, 0],
  [542, 72, 780, 0],
  [543, 104, 780, 0],
  [550, 65, 775, 0],
  [551, 97, 775, 0],
  [552, 69, 807, 0],
  [553, 101, 807, 0],
  [554, 79, 776, 772, 0],
  [555, 111, 776, 772, 0],
  [556, 79, 771, 772, 0],
  [557, 111, 771, 772, 0],
  [558, 79, 775, 0],
  [559, 111, 775, 0],
  [560, 79, 775, 772, 0],
  [561, 111, 775, 772, 0],
  [562, 89, 772, 0],
  [563, 121, 772, 0],
  [728, 32, 774, 0],
  [729, 32, 775, 0],
  [730, 32, 778, 0],
  [731, 32, 808, 0],
  [732, 32, 771, 0],
  [733, 32, 779, 0],
  [832, 768, 0],
  [833, 769, 0],
  [835, 787, 0],
  [836, 776, 769, 0],
  [884, 697, 0],
  [890, 32, 837, 0],
  [894, 59, 0],
  [900, 32, 769, 0],
  [901, 32, 776, 769, 0],
  [902, 913, 769, 0],
  [903, 183, 0],
  [904, 917, 769, 0],
  [905, 919, 769, 0],
  [906, 921, 769, 0],
  [908, 927, 769, 0],
  [910, 933, 769, 0],
  [911, 937, 769, 0],
  [912, 953, 776, 769, 0],
  [938, 921, 776, 0]]

/-- src/u5e/props/compatibility_and_canonical_decomposition_mapping_data.hpp lines 301-400. -/
def kdec3 : List (List Nat) := [
  [939, 933, 776, 0],
  [940, 945, 769, 0],
  [941, 949, 769, 0],
  [942, 951, 769, 0],
  [943, 953, 769, 0],
  [944, 965, 776, 769, 0],
  [970, 953, 776, 0],
  [971, 965, 776, 0],
  [972, 959, 769, 0],
  [973, 965, 769, 0],
  [974, 969, 769, 0],
  [976, 946, 0],
  [977, 952, 0],
  [978, 933, 0],
  [979, 933, 769, 0],
  [980, 933, 776, 0],
  [981, 966, 0],
  [982, 960, 0],
  [1008, 954, 0],
  [1009, 961, 0],
  [1010, 962, 0],
  [1012, 920, 0],
  [1013, 949, 0],
  [1017, 931, 0],
  [1024, 1045, 768, 0],
  [1025, 1045, 776, 0],
  [1027, 1043, 769, 0],
  [1031, 1030, 776, 0],
  [1036, 1050, 769, 0],
  [1037, 1048, 768, 0],
  [1038, 1059, 774, 0],
  [1049, 1048, 774, 0],
  [1081, 1080, 774, 0],
  [1104, 1077, 768, 0],
  [1105, 1077, 776, 0],
  [1107, 1075, 769, 0],
  [1111, 1110, 776, 0],
  [1116, 1082, 769, 0],
  [1117, 1080, 768, 0],
  [1118, 1091, 774, 0],
  [1142, 1140, 783, 0],
  [1143, 1141, 783, 0],
  [1217, 1046, 774, 0],
  [1218, 1078, 774, 0],
  [1232, 1040, 774, 0],
  [1233, 1072, 774, 0],
  [1234, 1040, 776, 0],
  [1235, 1072, 776, 0],
  [1238, 1045, 774, 0],
  [1239, 1077, 774, 0],
  [1242, 1240, 776, 0],
  [1243, 1241, 776, 0],
  [1244, 1046, 776, 0],
  [1245, 1078, 776, 0],
  [1246, 1047, 776, 0],
  [1247, 1079, 776, 0],
  [1250, 1048, 772, 0],
  [1251, 1080, 772, 0],
  [1252, 1048, 776, 0],
  [1253, 1080, 776, 0],
  [1254, 1054, 776, 0],
  [1255, 1086, 776, 0],
  [1258, 1256, 776, 0],
  [1259, 1257, 776, 0],
  [1260, 1069, 776, 0],
  [1261, 1101, 776, 0],
  [1262, 1059, 772, 0],
  [1263, 1091, 772, 0],
  [1264, 1059, 776, 0],
  [1265, 1091, 776, 0],
  [1266, 1059, 779, 0],
  [1267, 1091, 779, 0],
  [1268, 1063, 776, 0],
  [1269, 1095, 776, 0],
  [1272, 1067, 776, 0],
  [1273, 1099, 776, 0],
  [1415, 1381, 1410, 0],
  [1570, 1575, 1619, 0],
  [1571, 1575, 1620, 0],
  [1572, 1608, 1620, 0],
  [1573, 1575, 1621, 0],
  [1574, 1610, 1620, 0],
  [1653, 1575, 1652, 0],
  [1654, 1608, 1652, 0],
  [1655, 1735, 1652, 0],
  [1656, 1610, 1652, 0],
  [1728, 1749, 1620, 0],
  [1730, 1729, 1620, 0],
  [1747, 1746, 1620, 0],
  [2345, 2344, 2364, 0],
  [2353, 2352, 2364, 0],
  [2356, 2355, 2364, 0],
  [2392, 2325, 2364, 0],
  [2393, 2326, 2364, 0],
  [2394, 2327, 2364, 0],
  [2395, 2332, 2364, 0],
  [2396, 2337, 2364, 0],
  [2397, 2338, 2364, 0],
  [2398, 2347, 2364, 0],
  [2399, 2351, 2364, 0]]

/-- src/u5e/props/compatibility_and_canonical_decomposition_mapping_data.hpp lines 401-500. -/
def kdec4 : List (List Nat) := [
  [2507, 2503, 2494, 0],
  [2508, 2503, 2519, 0],
  [2524, 2465, 2492, 0],
  [2525, 2466, 2492, 0],
  [2527, 2479, 2492, 0],
  [2611, 2610, 2620, 0],
  [2614, 2616, 2620, 0],
  [2649, 2582, 2620, 0],
  [2650, 2583, 2620, 0],
  [2651, 2588, 2620, 0],
  [2654, 2603, 2620, 0],
  [2888, 2887, 2902, 0],
  [2891, 2887, 2878, 0],
  [2892, 2887, 2903, 0],
  [2908, 2849, 2876, 0],
  [2909, 2850, 2876, 0],
  [2964, 2962, 3031, 0],
  [3018, 3014, 3006, 0],
  [3019, 3015, 3006, 0],
  [3020, 3014, 3031, 0],
  [3144, 3142, 3158, 0],
  [3264, 3263, 3285, 0],
  [3271, 3270, 3285, 0],
  [3272, 3270, 3286, 0],
  [3274, 3270, 3266, 0],
  [3275, 3270, 3266, 3285, 0],
  [3402, 3398, 3390, 0],
  [3403, 3399, 3390, 0],
  [3404, 3398, 3415, 0],
  [3546, 3545, 3530, 0],
  [3548, 3545, 3535, 0],
  [3549, 3545, 3535, 3530, 0],
  [3550, 3545, 3551, 0],
  [3635, 3661, 3634, 0],
  [3763, 3789, 3762, 0],
  [3804, 3755, 3737, 0],
  [3805, 3755, 3745, 0],
  [3907, 3906, 4023, 0],
  [3917, 3916, 4023, 0],
  [3922, 3921, 4023, 0],
  [3927, 3926, 4023, 0],
  [3932, 3931, 4023, 0],
  [3945, 3904, 4021, 0],
  [3955, 3953, 3954, 0],
  [3957, 3953, 3956, 0],
  [3958, 4018, 3968, 0],
  [3959, 4018, 3953, 3968, 0],
  [3960, 4019, 3968, 0],
  [3961, 4019, 3953, 3968, 0],
  [3969, 3953, 3968, 0],
  [3987, 3986, 4023, 0],
  [3997, 3996, 4023, 0],
  [4002, 4001, 4023, 0],
  [4007, 4006, 4023, 0],
  [4012, 4011, 4023, 0],
  [4025, 3984, 4021, 0],
  [4134, 4133, 4142, 0],
  [6918, 6917, 6965, 0],
  [6920, 6919, 6965, 0],
  [6922, 6921, 6965, 0],
  [6924, 6923, 6965, 0],
  [6926, 6925, 6965, 0],
  [6930, 6929, 6965, 0],
  [6971, 6970, 6965, 0],
  [6973, 6972, 6965, 0],
  [6976, 6974, 6965, 0],
  [6977, 6975, 6965, 0],
  [6979, 6978, 6965, 0],
  [7680, 65, 805, 0],
  [7681, 97, 805, 0],
  [7682, 66, 775, 0],
  [7683, 98, 775, 0],
  [7684, 66, 803, 0],
  [7685, 98, 803, 0],
  [7686, 66, 817, 0],
  [7687, 98, 817, 0],
  [7688, 67, 807, 769, 0],
  [7689, 99, 807, 769, 0],
  [7690, 68, 775, 0],
  [7691, 100, 775, 0],
  [7692, 68, 803, 0],
  [7693, 100, 803, 0],
  [7694, 68, 817, 0],
  [7695, 100, 817, 0],
  [7696, 68, 807, 0],
  [7697, 100, 807, 0],
  [7698, 68, 813, 0],
  [7699, 100, 813, 0],
  [7700, 69, 772, 768, 0],
  [7701, 101, 772, 768, 0],
  [7702, 69, 772, 769, 0],
  [7703, 101, 772, 769, 0],
  [7704, 69, 813, 0],
  [7705, 101, 813, 0],
  [7706, 69, 816, 0],
  [7707, 101, 816, 0],
  [7708, 69, 807, 774, 0],
  [7709, 101, 807, 774, 0],
  [7710, 70, 775, 0],
  [7711, 102, 775, 0]]

/-- src/u5e/props/compatibility_and_canonical_decomposition_mapping_data.hpp lines 501-600. -/
def kdec5 : List (List Nat) := [
  [7712, 71, 772, 0],
  [7713, 103, 772, 0],
  [7714, 72, 775, 0],
  [7715, 104, 775, 0],
  [7716, 72, 803, 0],
  [7717, 104, 803, 0],
  [7718, 72, 776, 0],
  [7719, 104, 776, 0],
  [7720, 72, 807, 0],
  [7721, 104, 807, 0],
  [7722, 72, 814, 0],
  [7723, 104, 814, 0],
  [7724, 73, 816, 0],
  [7725, 105, 816, 0],
  [7726, 73, 776, 769, 0],
  [7727, 105, 776, 769, 0],
  [7728, 75, 769, 0],
  [7729, 107, 769, 0],
  [7730, 75, 803, 0],
  [7731, 107, 803, 0],
  [7732, 75, 817, 0],
  [7733, 107, 817, 0],
  [7734, 76, 803, 0],
  [7735, 108, 803, 0],
  [7736, 76, 803, 772, 0],
  [7737, 108, 803, 772, 0],
  [7738, 76, 817, 0],
  [7739, 108, 817, 0],
  [7740, 76, 813, 0],
  [7741, 108, 813, 0],
  [7742, 77, 769, 0],
  [7743, 109, 769, 0],
  [7744, 77, 775, 0],
  [7745, 109, 775, 0],
  [7746, 77, 803, 0],
  [7747, 109, 803, 0],
  [7748, 78, 775, 0],
  [7749, 110, 775, 0],
  [7750, 78, 803, 0],
  [7751, 110, 803, 0],
  [7752, 78, 817, 0],
  [7753, 110, 817, 0],
  [7754, 78, 813, 0],
  [7755, 110, 813, 0],
  [7756, 79, 771, 769, 0],
  [7757, 111, 771, 769, 0],
  [7758, 79, 771, 776, 0],
  [7759, 111, 771, 776, 0],
  [7760, 79, 772, 768, 0],
  [7761, 111, 772, 768, 0],
  [7762, 79, 772, 769, 0],
  [7763, 111, 772, 769, 0],
  [7764, 80, 769, 0],
  [7765, 112, 769, 0],
  [7766, 80, 775, 0],
  [7767, 112, 775, 0],
  [7768, 82, 775, 0],
  [7769, 114, 775, 0],
  [7770, 82, 803, 0],
  [7771, 114, 803, 0],
  [7772, 82, 803, 772, 0],
  [7773, 114, 803, 772, 0],
  [7774, 82, 817, 0],
  [7775, 114, 817, 0],
  [7776, 83, 775, 0],
  [7777, 115, 775, 0],
  [7778, 83, 803, 0],
  [7779, 115, 803, 0],
  [7780, 83, 769, 775, 0],
  [7781, 115, 769, 775, 0],
  [7782, 83, 780, 775, 0],
  [7783, 115, 780, 775, 0],
  [7784, 83, 803, 775, 0],
  [7785, 115, 803, 775, 0],
  [7786, 84, 775, 0],
  [7787, 116, 775, 0],
  [7788, 84, 803, 0],
  [7789, 116, 803, 0],
  [7790, 84, 817, 0],
  [7791, 116, 817, 0],
  [7792, 84, 813, 0],
  [7793, 116, 813, 0],
  [7794, 85, 804, 0],
  [7795, 117, 804, 0],
  [7796, 85, 816, 0],
  [7797, 117, 816, 0],
  [7798, 85, 813, 0],
  [7799, 117, 813, 0],
  [7800, 85, 771, 769, 0],
  [7801, 117, 771, 769, 0],
  [7802, 85, 772, 776, 0],
  [7803, 117, 772, 776, 0],
  [7804, 86, 771, 0],
  [7805, 118, 771, 0],
  [7806, 86, 803, 0],
  [7807, 118, 803, 0],
  [7808, 87, 768, 0],
  [7809, 119, 768, 0],
  [7810, 87, 769, 0],
  [7811, 119, 769, 0]]

/-- src/u5e/props/compatibility_and_canonical_decomposition_mapping_data.hpp lines 601-700. -/
def kdec6 : List (List Nat) := [
  [7812, 87, 776, 0],
  [7813, 119, 776, 0],
  [7814, 87, 775, 0],
  [7815, 119, 775, 0],
  [7816, 87, 803, 0],
  [7817, 119, 803, 0],
  [7818, 88, 775, 0],
  [7819, 120, 775, 0],
  [7820, 88, 776, 0],
  [7821, 120, 776, 0],
  [7822, 89, 775, 0],
  [7823, 121, 775, 0],
  [7824, 90, 770, 0],
  [7825, 122, 770, 0],
  [7826, 90, 803, 0],
  [7827, 122, 803, 0],
  [7828, 90, 817, 0],
  [7829, 122, 817, 0],
  [7830, 104, 817, 0],
  [7831, 116, 776, 0],
  [7832, 119, 778, 0],
  [7833, 121, 778, 0],
  [7834, 97, 702, 0],
  [7835, 115, 775, 0],
  [7840, 65, 803, 0],
  [7841, 97, 803, 0],
  [7842, 65, 777, 0],
  [7843, 97, 777, 0],
  [7844, 65, 770, 769, 0],
  [7845, 97, 770, 769, 0],
  [7846, 65, 770, 768, 0],
  [7847, 97, 770, 768, 0],
  [7848, 65, 770, 777, 0],
  [7849, 97, 770, 777, 0],
  [7850, 65, 770, 771, 0],
  [7851, 97, 770, 771, 0],
  [7852, 65, 803, 770, 0],
  [7853, 97, 803, 770, 0],
  [7854, 65, 774, 769, 0],
  [7855, 97, 774, 769, 0],
  [7856, 65, 774, 768, 0],
  [7857, 97, 774, 768, 0],
  [7858, 65, 774, 777, 0],
  [7859, 97, 774, 777, 0],
  [7860, 65, 774, 771, 0],
  [7861, 97, 774, 771, 0],
  [7862, 65, 803, 774, 0],
  [7863, 97, 803, 774, 0],
  [7864, 69, 803, 0],
  [7865, 101, 803, 0],
  [7866, 69, 777, 0],
  [7867, 101, 777, 0],
  [7868, 69, 771, 0],
  [7869, 101, 771, 0],
  [7870, 69, 770, 769, 0],
  [7871, 101, 770, 769, 0],
  [7872, 69, 770, 768, 0],
  [7873, 101, 770, 768, 0],
  [7874, 69, 770, 777, 0],
  [7875, 101, 770, 777, 0],
  [7876, 69, 770, 771, 0],
  [7877, 101, 770, 771, 0],
  [7878, 69, 803, 770, 0],
  [7879, 101, 803, 770, 0],
  [7880, 73, 777, 0],
  [7881, 105, 777, 0],
  [7882, 73, 803, 0],
  [7883, 105, 803, 0],
  [7884, 79, 803, 0],
  [7885, 111, 803, 0],
  [7886, 79, 777, 0],
  [7887, 111, 777, 0],
  [7888, 79, 770, 769, 0],
  [7889, 111, 770, 769, 0],
  [7890, 79, 770, 768, 0],
  [7891, 111, 770, 768, 0],
  [7892, 79, 770, 777, 0],
  [7893, 111, 770, 777, 0],
  [7894, 79, 770, 771, 0],
  [7895, 111, 770, 771, 0],
  [7896, 79, 803, 770, 0],
  [7897, 111, 803, 770, 0],
  [7898, 79, 795, 769, 0],
  [7899, 111, 795, 769, 0],
  [7900, 79, 795, 768, 0],
  [7901, 111, 795, 768, 0],
  [7902, 79, 795, 777, 0],
  [7903, 111, 795, 777, 0],
  [7904, 79, 795, 771, 0],
  [7905, 111, 795, 771, 0],
  [7906, 79, 795, 803, 0],
  [7907, 111, 795, 803, 0],
  [7908, 85, 803, 0],
  [7909, 117, 803, 0],
  [7910, 85, 777, 0],
  [7911, 117, 777, 0],
  [7912, 85, 795, 769, 0],
  [7913, 117, 795, 769, 0],
  [7914, 85, 795, 768, 0],
  [7915, 117, 795, 768, 0]]

/-- src/u5e/props/compatibility_and_canonical_decomposition_mapping_data.hpp lines 701-800. -/
def kdec7 : List (List Nat) := [
  [7916, 85, 795, 777, 0],
  [7917, 117, 795, 777, 0],
  [7918, 85, 795, 771, 0],
  [7919, 117, 795, 771, 0],
  [7920, 85, 795, 803, 0],
  [7921, 117, 795, 803, 0],
  [7922, 89, 768, 0],
  [7923, 121, 768, 0],
  [7924, 89, 803, 0],
  [7925, 121, 803, 0],
  [7926, 89, 777, 0],
  [7927, 121, 777, 0],
  [7928, 89, 771, 0],
  [7929, 121, 771, 0],
  [7936, 945, 787, 0],
  [7937, 945, 788, 0],
  [7938, 945, 787, 768, 0],
  [7939, 945, 788, 768, 0],
  [7940, 945, 787, 769, 0],
  [7941, 945, 788, 769, 0],
  [7942, 945, 787, 834, 0],
  [7943, 945, 788, 834, 0],
  [7944, 913, 787, 0],
  [7945, 913, 788, 0],
  [7946, 913, 787, 768, 0],
  [7947, 913, 788, 768, 0],
  [7948, 913, 787, 769, 0],
  [7949, 913, 788, 769, 0],
  [7950, 913, 787, 834, 0],
  [7951, 913, 788, 834, 0],
  [7952, 949, 787, 0],
  [7953, 949, 788, 0],
  [7954, 949, 787, 768, 0],
  [7955, 949, 788, 768, 0],
  [7956, 949, 787, 769, 0],
  [7957, 949, 788, 769, 0],
  [7960, 917, 787, 0],
  [7961, 917, 788, 0],
  [7962, 917, 787, 768, 0],
  [7963, 917, 788, 768, 0],
  [7964, 917, 787, 769, 0],
  [7965, 917, 788, 769, 0],
  [7968, 951, 787, 0],
  [7969, 951, 788, 0],
  [7970, 951, 787, 768, 0],
  [7971, 951, 788, 768, 0],
  [7972, 951, 787, 769, 0],
  [7973, 951, 788, 769, 0],
  [7974, 951, 787, 834, 0],
  [7975, 951, 788, 834, 0],
  [7976, 919, 787, 0],
  [7977, 919, 788, 0],
  [7978, 919, 787, 768, 0],
  [7979, 919, 788, 768, 0],
  [7980, 919, 787, 769, 0],
  [7981, 919, 788, 769, 0],
  [7982, 919, 787, 834, 0],
  [7983, 919, 788, 834, 0],
  [7984, 953, 787, 0],
  [7985, 953, 788, 0],
  [7986, 953, 787, 768, 0],
  [7987, 953, 788, 768, 0],
  [7988, 953, 787, 769, 0],
  [7989, 953, 788, 769, 0],
  [7990, 953, 787, 834, 0],
  [7991, 953, 788, 834, 0],
  [7992, 921, 787, 0],
  [7993, 921, 788, 0],
  [7994, 921, 787, 768, 0],
  [7995, 921, 788, 768, 0],
  [7996, 921, 787, 769, 0],
  [7997, 921, 788, 769, 0],
  [7998, 921, 787, 834, 0],
  [7999, 921, 788, 834, 0],
  [8000, 959, 787, 0],
  [8001, 959, 788, 0],
  [8002, 959, 787, 768, 0],
  [8003, 959, 788, 768, 0],
  [8004, 959, 787, 769, 0],
  [8005, 959, 788, 769, 0],
  [8008, 927, 787, 0],
  [8009, 927, 788, 0],
  [8010, 927, 787, 768, 0],
  [8011, 927, 788, 768, 0],
  [8012, 927, 787, 769, 0],
  [8013, 927, 788, 769, 0],
  [8016, 965, 787, 0],
  [8017, 965, 788, 0],
  [8018, 965, 787, 768, 0],
  [8019, 965, 788, 768, 0],
  [8020, 965, 787, 769, 0],
  [8021, 965, 788, 769, 0],
  [8022, 965, 787, 834, 0],
  [8023, 965, 788, 834, 0],
  [8025, 933, 788, 0],
  [8027, 933, 788, 768, 0],
  [8029, 933, 788, 769, 0],
  [8031, 933, 788, 834, 0],
  [8032, 969, 787, 0],
  [8033, 969, 788, 0]]

/-- src/u5e/props/compatibility_and_canonical_decomposition_mapping_data.hpp lines 801-900. -/
def kdec8 : List (List Nat) := [
  [8034, 969, 787, 768, 0],
  [8035, 969, 788, 768, 0],
  [8036, 969, 787, 769, 0],
  [8037, 969, 788, 769, 0],
  [8038, 969, 787, 834, 0],
  [8039, 969, 788, 834, 0],
  [8040, 937, 787, 0],
  [8041, 937, 788, 0],
  [8042, 937, 787, 768, 0],
  [8043, 937, 788, 768, 0],
  [8044, 937, 787, 769, 0],
  [8045, 937, 788, 769, 0],
  [8046, 937, 787, 834, 0],
  [8047, 937, 788, 834, 0],
  [8048, 945, 768, 0],
  [8049, 945, 769, 0],
  [8050, 949, 768, 0],
  [8051, 949, 769, 0],
  [8052, 951, 768, 0],
  [8053, 951, 769, 0],
  [8054, 953, 768, 0],
  [8055, 953, 769, 0],
  [8056, 959, 768, 0],
  [8057, 959, 769, 0],
  [8058, 965, 768, 0],
  [8059, 965, 769, 0],
  [8060, 969, 768, 0],
  [8061, 969, 769, 0],
  [8064, 945, 787, 837, 0],
  [8065, 945, 788, 837, 0],
  [8066, 945, 787, 768, 837, 0],
  [8067, 945, 788, 768, 837, 0],
  [8068, 945, 787, 769, 837, 0],
  [8069, 945, 788, 769, 837, 0],
  [8070, 945, 787, 834, 837, 0],
  [8071, 945, 788, 834, 837, 0],
  [8072, 913, 787, 837, 0],
  [8073, 913, 788, 837, 0],
  [8074, 913, 787, 768, 837, 0],
  [8075, 913, 788, 768, 837, 0],
  [8076, 913, 787, 769, 837, 0],
  [8077, 913, 788, 769, 837, 0],
  [8078, 913, 787, 834, 837, 0],
  [8079, 913, 788, 834, 837, 0],
  [8080, 951, 787, 837, 0],
  [8081, 951, 788, 837, 0],
  [8082, 951, 787, 768, 837, 0],
  [8083, 951, 788, 768, 837, 0],
  [8084, 951, 787, 769, 837, 0],
  [8085, 951, 788, 769, 837, 0],
  [8086, 951, 787, 834, 837, 0],
  [8087, 951, 788, 834, 837, 0],
  [8088, 919, 787, 837, 0],
  [8089, 919, 788, 837, 0],
  [8090, 919, 787, 768, 837, 0],
  [8091, 919, 788, 768, 837, 0],
  [8092, 919, 787, 769, 837, 0],
  [8093, 919, 788, 769, 837, 0],
  [8094, 919, 787, 834, 837, 0],
  [8095, 919, 788, 834, 837, 0],
  [8096, 969, 787, 837, 0],
  [8097, 969, 788, 837, 0],
  [8098, 969, 787, 768, 837, 0],
  [8099, 969, 788, 768, 837, 0],
  [8100, 969, 787, 769, 837, 0],
  [8101, 969, 788, 769, 837, 0],
  [8102, 969, 787, 834, 837, 0],
  [8103, 969, 788, 834, 837, 0],
  [8104, 937, 787, 837, 0],
  [8105, 937, 788, 837, 0],
  [8106, 937, 787, 768, 837, 0],
  [8107, 937, 788, 768, 837, 0],
  [8108, 937, 787, 769, 837, 0],
  [8109, 937, 788, 769, 837, 0],
  [8110, 937, 787, 834, 837, 0],
  [8111, 937, 788, 834, 837, 0],
  [8112, 945, 774, 0],
  [8113, 945, 772, 0],
  [8114, 945, 768, 837, 0],
  [8115, 945, 837, 0],
  [8116, 945, 769, 837, 0],
  [8118, 945, 834, 0],
  [8119, 945, 834, 837, 0],
  [8120, 913, 774, 0],
  [8121, 913, 772, 0],
  [8122, 913, 768, 0],
  [8123, 913, 769, 0],
  [8124, 913, 837, 0],
  [8125, 32, 787, 0],
  [8126, 953, 0],
  [8127, 32, 787, 0],
  [8128, 32, 834, 0],
  [8129, 32, 776, 834, 0],
  [8130, 951, 768, 837, 0],
  [8131, 951, 837, 0],
  [8132, 951, 769, 837, 0],
  [8134, 951, 834, 0],
  [8135, 951, 834, 837, 0],
  [8136, 917, 768, 0],
  [8137, 917, 769, 0]]

/-- src/u5e/props/compatibility_and_canonical_decomposition_mapping_data.hpp lines 901-1000. -/
def kdec9 : List (List Nat) := [
  [8138, 919, 768, 0],
  [8139, 919, 769, 0],
  [8140, 919, 837, 0],
  [8141, 32, 787, 768, 0],
  [8142, 32, 787, 769, 0],
  [8143, 32, 787, 834, 0],
  [8144, 953, 774, 0],
  [8145, 953, 772, 0],
  [8146, 953, 776, 768, 0],
  [8147, 953, 776, 769, 0],
  [8150, 953, 834, 0],
  [8151, 953, 776, 834, 0],
  [8152, 921, 774, 0],
  [8153, 921, 772, 0],
  [8154, 921, 768, 0],
  [8155, 921, 769, 0],
  [8157, 32, 788, 768, 0],
  [8158, 32, 788, 769, 0],
  [8159, 32, 788, 834, 0],
  [8160, 965, 774, 0],
  [8161, 965, 772, 0],
  [8162, 965, 776, 768, 0],
  [8163, 965, 776, 769, 0],
  [8164, 961, 787, 0],
  [8165, 961, 788, 0],
  [8166, 965, 834, 0],
  [8167, 965, 776, 834, 0],
  [8168, 933, 774, 0],
  [8169, 933, 772, 0],
  [8170, 933, 768, 0],
  [8171, 933, 769, 0],
  [8172, 929, 788, 0],
  [8173, 32, 776, 768, 0],
  [8174, 32, 776, 769, 0],
  [8175, 96, 0],
  [8178, 969, 768, 837, 0],
  [8179, 969, 837, 0],
  [8180, 969, 769, 837, 0],
  [8182, 969, 834, 0],
  [8183, 969, 834, 837, 0],
  [8184, 927, 768, 0],
  [8185, 927, 769, 0],
  [8186, 937, 768, 0],
  [8187, 937, 769, 0],
  [8188, 937, 837, 0],
  [8189, 32, 769, 0],
  [8190, 32, 788, 0],
  [8192, 32, 0],
  [8193, 32, 0],
  [8194, 32, 0],
  [8195, 32, 0],
  [8196, 32, 0],
  [8197, 32, 0],
  [8198, 32, 0],
  [8200, 32, 0],
  [8201, 32, 0],
  [8202, 32, 0],
  [8215, 32, 819, 0],
  [8228, 46, 0],
  [8229, 46, 46, 0],
  [8230, 46, 46, 46, 0],
  [8243, 8242, 8242, 0],
  [8244, 8242, 8242, 8242, 0],
  [8246, 8245, 8245, 0],
  [8247, 8245, 8245, 8245, 0],
  [8252, 33, 33, 0],
  [8254, 32, 773, 0],
  [8263, 63, 63, 0],
  [8264, 63, 33, 0],
  [8265, 33, 63, 0],
  [8279, 8242, 8242, 8242, 8242, 0],
  [8287, 32, 0],
  [8360, 82, 115, 0],
  [8448, 97, 47, 99, 0],
  [8449, 97, 47, 115, 0],
  [8451, 176, 67, 0],
  [8453, 99, 47, 111, 0],
  [8454, 99, 47, 117, 0],
  [8455, 400, 0],
  [8457, 176, 70, 0],
  [8470, 78, 111, 0],
  [8481, 84, 69, 76, 0],
  [8486, 937, 0],
  [8490, 75, 0],
  [8491, 65, 778, 0],
  [8501, 1488, 0],
  [8502, 1489, 0],
  [8503, 1490, 0],
  [8504, 1491, 0],
  [8507, 70, 65, 88, 0],
  [8544, 73, 0],
  [8545, 73, 73, 0],
  [8546, 73, 73, 73, 0],
  [8547, 73, 86, 0],
  [8548, 86, 0],
  [8549, 86, 73, 0],
  [8550, 86, 73, 73, 0],
  [8551, 86, 73, 73, 73, 0],
  [8552, 73, 88, 0],
  [8553, 88, 0]]

/-- src/u5e/props/compatibility_and_canonical_decomposition_mapping_data.hpp lines 1001-1100. -/
def kdec10 : List (List Nat) := [
  [8554, 88, 73, 0],
  [8555, 88, 73, 73, 0],
  [8556, 76, 0],
  [8557, 67, 0],
  [8558, 68, 0],
  [8559, 77, 0],
  [8560, 105, 0],
  [8561, 105, 105, 0],
  [8562, 105, 105, 105, 0],
  [8563, 105, 118, 0],
  [8564, 118, 0],
  [8565, 118, 105, 0],
  [8566, 118, 105, 105, 0],
  [8567, 118, 105, 105, 105, 0],
  [8568, 105, 120, 0],
  [8569, 120, 0],
  [8570, 120, 105, 0],
  [8571, 120, 105, 105, 0],
  [8572, 108, 0],
  [8573, 99, 0],
  [8574, 100, 0],
  [8575, 109, 0],
  [8602, 8592, 824, 0],
  [8603, 8594, 824, 0],
  [8622, 8596, 824, 0],
  [8653, 8656, 824, 0],
  [8654, 8660, 824, 0],
  [8655, 8658, 824, 0],
  [8708, 8707, 824, 0],
  [8713, 8712, 824, 0],
  [8716, 8715, 824, 0],
  [8740, 8739, 824, 0],
  [8742, 8741, 824, 0],
  [8748, 8747, 8747, 0],
  [8749, 8747, 8747, 8747, 0],
  [8751, 8750, 8750, 0],
  [8752, 8750, 8750, 8750, 0],
  [8769, 8764, 824, 0],
  [8772, 8771, 824, 0],
  [8775, 8773, 824, 0],
  [8777, 8776, 824, 0],
  [8800, 61, 824, 0],
  [8802, 8801, 824, 0],
  [8813, 8781, 824, 0],
  [8814, 60, 824, 0],
  [8815, 62, 824, 0],
  [8816, 8804, 824, 0],
  [8817, 8805, 824, 0],
  [8820, 8818, 824, 0],
  [8821, 8819, 824, 0],
  [8824, 8822, 824, 0],
  [8825, 8823, 824, 0],
  [8832, 8826, 824, 0],
  [8833, 8827, 824, 0],
  [8836, 8834, 824, 0],
  [8837, 8835, 824, 0],
  [8840, 8838, 824, 0],
  [8841, 8839, 824, 0],
  [8876, 8866, 824, 0],
  [8877, 8872, 824, 0],
  [8878, 8873, 824, 0],
  [8879, 8875, 824, 0],
  [8928, 8828, 824, 0],
  [8929, 8829, 824, 0],
  [8930, 8849, 824, 0],
  [8931, 8850, 824, 0],
  [8938, 8882, 824, 0],
  [8939, 8883, 824, 0],
  [8940, 8884, 824, 0],
  [8941, 8885, 824, 0],
  [9001, 12296, 0],
  [9002, 12297, 0],
  [9332, 40, 49, 41, 0],
  [9333, 40, 50, 41, 0],
  [9334, 40, 51, 41, 0],
  [9335, 40, 52, 41, 0],
  [9336, 40, 53, 41, 0],
  [9337, 40, 54, 41, 0],
  [9338, 40, 55, 41, 0],
  [9339, 40, 56, 41, 0],
  [9340, 40, 57, 41, 0],
  [9341, 40, 49, 48, 41, 0],
  [9342, 40, 49, 49, 41, 0],
  [9343, 40, 49, 50, 41, 0],
  [9344, 40, 49, 51, 41, 0],
  [9345, 40, 49, 52, 41, 0],
  [9346, 40, 49, 53, 41, 0],
  [9347, 40, 49, 54, 41, 0],
  [9348, 40, 49, 55, 41, 0],
  [9349, 40, 49, 56, 41, 0],
  [9350, 40, 49, 57, 41, 0],
  [9351, 40, 50, 48, 41, 0],
  [9352, 49, 46, 0],
  [9353, 50, 46, 0],
  [9354, 51, 46, 0],
  [9355, 52, 46, 0],
  [9356, 53, 46, 0],
  [9357, 54, 46, 0],
  [9358, 55, 46, 0],
  [9359, 56, 46, 0]]

/-- src/u5e/props/compatibility_and_canonical_decomposition_mapping_data.hpp lines 1101-1200. -/
def kdec11 : List (List Nat) := [
  [9360, 57, 46, 0],
  [9361, 49, 48, 46, 0],
  [9362, 49, 49, 46, 0],
  [9363, 49, 50, 46, 0],
  [9364, 49, 51, 46, 0],
  [9365, 49, 52, 46, 0],
  [9366, 49, 53, 46, 0],
  [9367, 49, 54, 46, 0],
  [9368, 49, 55, 46, 0],
  [9369, 49, 56, 46, 0],
  [9370, 49, 57, 46, 0],
  [9371, 50, 48, 46, 0],
  [9372, 40, 97, 41, 0],
  [9373, 40, 98, 41, 0],
  [9374, 40, 99, 41, 0],
  [9375, 40, 100, 41, 0],
  [9376, 40, 101, 41, 0],
  [9377, 40, 102, 41, 0],
  [9378, 40, 103, 41, 0],
  [9379, 40, 104, 41, 0],
  [9380, 40, 105, 41, 0],
  [9381, 40, 106, 41, 0],
  [9382, 40, 107, 41, 0],
  [9383, 40, 108, 41, 0],
  [9384, 40, 109, 41, 0],
  [9385, 40, 110, 41, 0],
  [9386, 40, 111, 41, 0],
  [9387, 40, 112, 41, 0],
  [9388, 40, 113, 41, 0],
  [9389, 40, 114, 41, 0],
  [9390, 40, 115, 41, 0],
  [9391, 40, 116, 41, 0],
  [9392, 40, 117, 41, 0],
  [9393, 40, 118, 41, 0],
  [9394, 40, 119, 41, 0],
  [9395, 40, 120, 41, 0],
  [9396, 40, 121, 41, 0],
  [9397, 40, 122, 41, 0],
  [10764, 8747, 8747, 8747, 8747, 0],
  [10868, 58, 58, 61, 0],
  [10869, 61, 61, 0],
  [10870, 61, 61, 61, 0],
  [10972, 10973, 824, 0],
  [11935, 27597, 0],
  [12019, 40863, 0],
  [12032, 19968, 0],
  [12033, 20008, 0],
  [12034, 20022, 0],
  [12035, 20031, 0],
  [12036, 20057, 0],
  [12037, 20101, 0],
  [12038, 20108, 0],
  [12039, 20128, 0],
  [12040, 20154, 0],
  [12041, 20799, 0],
  [12042, 20837, 0],
  [12043, 20843, 0],
  [12044, 20866, 0],
  [12045, 20886, 0],
  [12046, 20907, 0],
  [12047, 20960, 0],
  [12048, 20981, 0],
  [12049, 20992, 0],
  [12050, 21147, 0],
  [12051, 21241, 0],
  [12052, 21269, 0],
  [12053, 21274, 0],
  [12054, 21304, 0],
  [12055, 21313, 0],
  [12056, 21340, 0],
  [12057, 21353, 0],
  [12058, 21378, 0],
  [12059, 21430, 0],
  [12060, 21448, 0],
  [12061, 21475, 0],
  [12062, 22231, 0],
  [12063, 22303, 0],
  [12064, 22763, 0],
  [12065, 22786, 0],
  [12066, 22794, 0],
  [12067, 22805, 0],
  [12068, 22823, 0],
  [12069, 22899, 0],
  [12070, 23376, 0],
  [12071, 23424, 0],
  [12072, 23544, 0],
  [12073, 23567, 0],
  [12074, 23586, 0],
  [12075, 23608, 0],
  [12076, 23662, 0],
  [12077, 23665, 0],
  [12078, 24027, 0],
  [12079, 24037, 0],
  [12080, 24049, 0],
  [12081, 24062, 0],
  [12082, 24178, 0],
  [12083, 24186, 0],
  [12084, 24191, 0],
  [12085, 24308, 0],
  [12086, 24318, 0]]

/-- src/u5e/props/compatibility_and_canonical_decomposition_mapping_data.hpp lines 1201-1300. -/
def kdec12 : List (List Nat) := [
  [12087, 24331, 0],
  [12088, 24339, 0],
  [12089, 24400, 0],
  [12090, 24417, 0],
  [12091, 24435, 0],
  [12092, 24515, 0],
  [12093, 25096, 0],
  [12094, 25142, 0],
  [12095, 25163, 0],
  [12096, 25903, 0],
  [12097, 25908, 0],
  [12098, 25991, 0],
  [12099, 26007, 0],
  [12100, 26020, 0],
  [12101, 26041, 0],
  [12102, 26080, 0],
  [12103, 26085, 0],
  [12104, 26352, 0],
  [12105, 26376, 0],
  [12106, 26408, 0],
  [12107, 27424, 0],
  [12108, 27490, 0],
  [12109, 27513, 0],
  [12110, 27571, 0],
  [12111, 27595, 0],
  [12112, 27604, 0],
  [12113, 27611, 0],
  [12114, 27663, 0],
  [12115, 27668, 0],
  [12116, 27700, 0],
  [12117, 28779, 0],
  [12118, 29226, 0],
  [12119, 29238, 0],
  [12120, 29243, 0],
  [12121, 29247, 0],
  [12122, 29255, 0],
  [12123, 29273, 0],
  [12124, 29275, 0],
  [12125, 29356, 0],
  [12126, 29572, 0],
  [12127, 29577, 0],
  [12128, 29916, 0],
  [12129, 29926, 0],
  [12130, 29976, 0],
  [12131, 29983, 0],
  [12132, 29992, 0],
  [12133, 30000, 0],
  [12134, 30091, 0],
  [12135, 30098, 0],
  [12136, 30326, 0],
  [12137, 30333, 0],
  [12138, 30382, 0],
  [12139, 30399, 0],
  [12140, 30446, 0],
  [12141, 30683, 0],
  [12142, 30690, 0],
  [12143, 30707, 0],
  [12144, 31034, 0],
  [12145, 31160, 0],
  [12146, 31166, 0],
  [12147, 31348, 0],
  [12148, 31435, 0],
  [12149, 31481, 0],
  [12150, 31859, 0],
  [12151, 31992, 0],
  [12152, 32566, 0],
  [12153, 32593, 0],
  [12154, 32650, 0],
  [12155, 32701, 0],
  [12156, 32769, 0],
  [12157, 32780, 0],
  [12158, 32786, 0],
  [12159, 32819, 0],
  [12160, 32895, 0],
  [12161, 32905, 0],
  [12162, 33251, 0],
  [12163, 33258, 0],
  [12164, 33267, 0],
  [12165, 33276, 0],
  [12166, 33292, 0],
  [12167, 33307, 0],
  [12168, 33311, 0],
  [12169, 33390, 0],
  [12170, 33394, 0],
  [12171, 33400, 0],
  [12172, 34381, 0],
  [12173, 34411, 0],
  [12174, 34880, 0],
  [12175, 34892, 0],
  [12176, 34915, 0],
  [12177, 35198, 0],
  [12178, 35211, 0],
  [12179, 35282, 0],
  [12180, 35328, 0],
  [12181, 35895, 0],
  [12182, 35910, 0],
  [12183, 35925, 0],
  [12184, 35960, 0],
  [12185, 35997, 0],
  [12186, 36196, 0]]

/-- src/u5e/props/compatibility_and_canonical_decomposition_mapping_data.hpp lines 1301-1400. -/
def kdec13 : List (List Nat) := [
  [12187, 36208, 0],
  [12188, 36275, 0],
  [12189, 36523, 0],
  [12190, 36554, 0],
  [12191, 36763, 0],
  [12192, 36784, 0],
  [12193, 36789, 0],
  [12194, 37009, 0],
  [12195, 37193, 0],
  [12196, 37318, 0],
  [12197, 37324, 0],
  [12198, 37329, 0],
  [12199, 38263, 0],
  [12200, 38272, 0],
  [12201, 38428, 0],
  [12202, 38582, 0],
  [12203, 38585, 0],
  [12204, 38632, 0],
  [12205, 38737, 0],
  [12206, 38750, 0],
  [12207, 38754, 0],
  [12208, 38761, 0],
  [12209, 38859, 0],
  [12210, 38893, 0],
  [12211, 38899, 0],
  [12212, 38913, 0],
  [12213, 39080, 0],
  [12214, 39131, 0],
  [12215, 39135, 0],
  [12216, 39318, 0],
  [12217, 39321, 0],
  [12218, 39340, 0],
  [12219, 39592, 0],
  [12220, 39640, 0],
  [12221, 39647, 0],
  [12222, 39717, 0],
  [12223, 39727, 0],
  [12224, 39730, 0],
  [12225, 39740, 0],
  [12226, 39770, 0],
  [12227, 40165, 0],
  [12228, 40565, 0],
  [12229, 40575, 0],
  [12230, 40613, 0],
  [12231, 40635, 0],
  [12232, 40643, 0],
  [12233, 40653, 0],
  [12234, 40657, 0],
  [12235, 40697, 0],
  [12236, 40701, 0],
  [12237, 40718, 0],
  [12238, 40723, 0],
  [12239, 40736, 0],
  [12240, 40763, 0],
  [12241, 40778, 0],
  [12242, 40786, 0],
  [12243, 40845, 0],
  [12244, 40860, 0],
  [12245, 40864, 0],
  [12342, 12306, 0],
  [12344, 21313, 0],
  [12345, 21316, 0],
  [12346, 21317, 0],
  [12364, 12363, 12441, 0],
  [12366, 12365, 12441, 0],
  [12368, 12367, 12441, 0],
  [12370, 12369, 12441, 0],
  [12372, 12371, 12441, 0],
  [12374, 12373, 12441, 0],
  [12376, 12375, 12441, 0],
  [12378, 12377, 12441, 0],
  [12380, 12379, 12441, 0],
  [12382, 12381, 12441, 0],
  [12384, 12383, 12441, 0],
  [12386, 12385, 12441, 0],
  [12389, 12388, 12441, 0],
  [12391, 12390, 12441, 0],
  [12393, 12392, 12441, 0],
  [12400, 12399, 12441, 0],
  [12401, 12399, 12442, 0],
  [12403, 12402, 12441, 0],
  [12404, 12402, 12442, 0],
  [12406, 12405, 12441, 0],
  [12407, 12405, 12442, 0],
  [12409, 12408, 12441, 0],
  [12410, 12408, 12442, 0],
  [12412, 12411, 12441, 0],
  [12413, 12411, 12442, 0],
  [12436, 12358, 12441, 0],
  [12443, 32, 12441, 0],
  [12444, 32, 12442, 0],
  [12446, 12445, 12441, 0],
  [12460, 12459, 12441, 0],
  [12462, 12461, 12441, 0],
  [12464, 12463, 12441, 0],
  [12466, 12465, 12441, 0],
  [12468, 12467, 12441, 0],
  [12470, 12469, 12441, 0],
  [12472, 12471, 12441, 0],
  [12474, 12473, 12441, 0]]

/-- src/u5e/props/compatibility_and_canonical_decomposition_mapping_data.hpp lines 1401-1500. -/
def kdec14 : List (List Nat) := [
  [12476, 12475, 12441, 0],
  [12478, 12477, 12441, 0],
  [12480, 12479, 12441, 0],
  [12482, 12481, 12441, 0],
  [12485, 12484, 12441, 0],
  [12487, 12486, 12441, 0],
  [12489, 12488, 12441, 0],
  [12496, 12495, 12441, 0],
  [12497, 12495, 12442, 0],
  [12499, 12498, 12441, 0],
  [12500, 12498, 12442, 0],
  [12502, 12501, 12441, 0],
  [12503, 12501, 12442, 0],
  [12505, 12504, 12441, 0],
  [12506, 12504, 12442, 0],
  [12508, 12507, 12441, 0],
  [12509, 12507, 12442, 0],
  [12532, 12454, 12441, 0],
  [12535, 12527, 12441, 0],
  [12536, 12528, 12441, 0],
  [12537, 12529, 12441, 0],
  [12538, 12530, 12441, 0],
  [12542, 12541, 12441, 0],
  [12593, 4352, 0],
  [12594, 4353, 0],
  [12595, 4522, 0],
  [12596, 4354, 0],
  [12597, 4524, 0],
  [12598, 4525, 0],
  [12599, 4355, 0],
  [12600, 4356, 0],
  [12601, 4357, 0],
  [12602, 4528, 0],
  [12603, 4529, 0],
  [12604, 4530, 0],
  [12605, 4531, 0],
  [12606, 4532, 0],
  [12607, 4533, 0],
  [12608, 4378, 0],
  [12609, 4358, 0],
  [12610, 4359, 0],
  [12611, 4360, 0],
  [12612, 4385, 0],
  [12613, 4361, 0],
  [12614, 4362, 0],
  [12615, 4363, 0],
  [12616, 4364, 0],
  [12617, 4365, 0],
  [12618, 4366, 0],
  [12619, 4367, 0],
  [12620, 4368, 0],
  [12621, 4369, 0],
  [12622, 4370, 0],
  [12623, 4449, 0],
  [12624, 4450, 0],
  [12625, 4451, 0],
  [12626, 4452, 0],
  [12627, 4453, 0],
  [12628, 4454, 0],
  [12629, 4455, 0],
  [12630, 4456, 0],
  [12631, 4457, 0],
  [12632, 4458, 0],
  [12633, 4459, 0],
  [12634, 4460, 0],
  [12635, 4461, 0],
  [12636, 4462, 0],
  [12637, 4463, 0],
  [12638, 4464, 0],
  [12639, 4465, 0],
  [12640, 4466, 0],
  [12641, 4467, 0],
  [12642, 4468, 0],
  [12643, 4469, 0],
  [12644, 4448, 0],
  [12645, 4372, 0],
  [12646, 4373, 0],
  [12647, 4551, 0],
  [12648, 4552, 0],
  [12649, 4556, 0],
  [12650, 4558, 0],
  [12651, 4563, 0],
  [12652, 4567, 0],
  [12653, 4569, 0],
  [12654, 4380, 0],
  [12655, 4573, 0],
  [12656, 4575, 0],
  [12657, 4381, 0],
  [12658, 4382, 0],
  [12659, 4384, 0],
  [12660, 4386, 0],
  [12661, 4387, 0],
  [12662, 4391, 0],
  [12663, 4393, 0],
  [12664, 4395, 0],
  [12665, 4396, 0],
  [12666, 4397, 0],
  [12667, 4398, 0],
  [12668, 4399, 0],
  [12669, 4402, 0]]

/-- src/u5e/props/compatibility_and_canonical_decomposition_mapping_data.hpp lines 1501-1600. -/
def kdec15 : List (List Nat) := [
  [12670, 4406, 0],
  [12671, 4416, 0],
  [12672, 4423, 0],
  [12673, 4428, 0],
  [12674, 4593, 0],
  [12675, 4594, 0],
  [12676, 4439, 0],
  [12677, 4440, 0],
  [12678, 4441, 0],
  [12679, 4484, 0],
  [12680, 4485, 0],
  [12681, 4488, 0],
  [12682, 4497, 0],
  [12683, 4498, 0],
  [12684, 4500, 0],
  [12685, 4510, 0],
  [12686, 4513, 0],
  [12800, 40, 4352, 41, 0],
  [12801, 40, 4354, 41, 0],
  [12802, 40, 4355, 41, 0],
  [12803, 40, 4357, 41, 0],
  [12804, 40, 4358, 41, 0],
  [12805, 40, 4359, 41, 0],
  [12806, 40, 4361, 41, 0],
  [12807, 40, 4363, 41, 0],
  [12808, 40, 4364, 41, 0],
  [12809, 40, 4366, 41, 0],
  [12810, 40, 4367, 41, 0],
  [12811, 40, 4368, 41, 0],
  [12812, 40, 4369, 41, 0],
  [12813, 40, 4370, 41, 0],
  [12814, 40, 4352, 4449, 41, 0],
  [12815, 40, 4354, 4449, 41, 0],
  [12816, 40, 4355, 4449, 41, 0],
  [12817, 40, 4357, 4449, 41, 0],
  [12818, 40, 4358, 4449, 41, 0],
  [12819, 40, 4359, 4449, 41, 0],
  [12820, 40, 4361, 4449, 41, 0],
  [12821, 40, 4363, 4449, 41, 0],
  [12822, 40, 4364, 4449, 41, 0],
  [12823, 40, 4366, 4449, 41, 0],
  [12824, 40, 4367, 4449, 41, 0],
  [12825, 40, 4368, 4449, 41, 0],
  [12826, 40, 4369, 4449, 41, 0],
  [12827, 40, 4370, 4449, 41, 0],
  [12828, 40, 4364, 4462, 41, 0],
  [12829, 40, 4363, 4457, 4364, 4453, 4523, 41, 0],
  [12830, 40, 4363, 4457, 4370, 4462, 41, 0],
  [12832, 40, 19968, 41, 0],
  [12833, 40, 20108, 41, 0],
  [12834, 40, 19977, 41, 0],
  [12835, 40, 22235, 41, 0],
  [12836, 40, 20116, 41, 0],
  [12837, 40, 20845, 41, 0],
  [12838, 40, 19971, 41, 0],
  [12839, 40, 20843, 41, 0],
  [12840, 40, 20061, 41, 0],
  [12841, 40, 21313, 41, 0],
  [12842, 40, 26376, 41, 0],
  [12843, 40, 28779, 41, 0],
  [12844, 40, 27700, 41, 0],
  [12845, 40, 26408, 41, 0],
  [12846, 40, 37329, 41, 0],
  [12847, 40, 22303, 41, 0],
  [12848, 40, 26085, 41, 0],
  [12849, 40, 26666, 41, 0],
  [12850, 40, 26377, 41, 0],
  [12851, 40, 31038, 41, 0],
  [12852, 40, 21517, 41, 0],
  [12853, 40, 29305, 41, 0],
  [12854, 40, 36001, 41, 0],
  [12855, 40, 31069, 41, 0],
  [12856, 40, 21172, 41, 0],
  [12857, 40, 20195, 41, 0],
  [12858, 40, 21628, 41, 0],
  [12859, 40, 23398, 41, 0],
  [12860, 40, 30435, 41, 0],
  [12861, 40, 20225, 41, 0],
  [12862, 40, 36039, 41, 0],
  [12863, 40, 21332, 41, 0],
  [12864, 40, 31085, 41, 0],
  [12865, 40, 20241, 41, 0],
  [12866, 40, 33258, 41, 0],
  [12867, 40, 33267, 41, 0],
  [12992, 49, 26376, 0],
  [12993, 50, 26376, 0],
  [12994, 51, 26376, 0],
  [12995, 52, 26376, 0],
  [12996, 53, 26376, 0],
  [12997, 54, 26376, 0],
  [12998, 55, 26376, 0],
  [12999, 56, 26376, 0],
  [13000, 57, 26376, 0],
  [13001, 49, 48, 26376, 0],
  [13002, 49, 49, 26376, 0],
  [13003, 49, 50, 26376, 0],
  [13144, 48, 28857, 0],
  [13145, 49, 28857, 0],
  [13146, 50, 28857, 0],
  [13147, 51, 28857, 0]]

/-- src/u5e/props/compatibility_and_canonical_decomposition_mapping_data.hpp lines 1601-1700. -/
def kdec16 : List (List Nat) := [
  [13148, 52, 28857, 0],
  [13149, 53, 28857, 0],
  [13150, 54, 28857, 0],
  [13151, 55, 28857, 0],
  [13152, 56, 28857, 0],
  [13153, 57, 28857, 0],
  [13154, 49, 48, 28857, 0],
  [13155, 49, 49, 28857, 0],
  [13156, 49, 50, 28857, 0],
  [13157, 49, 51, 28857, 0],
  [13158, 49, 52, 28857, 0],
  [13159, 49, 53, 28857, 0],
  [13160, 49, 54, 28857, 0],
  [13161, 49, 55, 28857, 0],
  [13162, 49, 56, 28857, 0],
  [13163, 49, 57, 28857, 0],
  [13164, 50, 48, 28857, 0],
  [13165, 50, 49, 28857, 0],
  [13166, 50, 50, 28857, 0],
  [13167, 50, 51, 28857, 0],
  [13168, 50, 52, 28857, 0],
  [13280, 49, 26085, 0],
  [13281, 50, 26085, 0],
  [13282, 51, 26085, 0],
  [13283, 52, 26085, 0],
  [13284, 53, 26085, 0],
  [13285, 54, 26085, 0],
  [13286, 55, 26085, 0],
  [13287, 56, 26085, 0],
  [13288, 57, 26085, 0],
  [13289, 49, 48, 26085, 0],
  [13290, 49, 49, 26085, 0],
  [13291, 49, 50, 26085, 0],
  [13292, 49, 51, 26085, 0],
  [13293, 49, 52, 26085, 0],
  [13294, 49, 53, 26085, 0],
  [13295, 49, 54, 26085, 0],
  [13296, 49, 55, 26085, 0],
  [13297, 49, 56, 26085, 0],
  [13298, 49, 57, 26085, 0],
  [13299, 50, 48, 26085, 0],
  [13300, 50, 49, 26085, 0],
  [13301, 50, 50, 26085, 0],
  [13302, 50, 51, 26085, 0],
  [13303, 50, 52, 26085, 0],
  [13304, 50, 53, 26085, 0],
  [13305, 50, 54, 26085, 0],
  [13306, 50, 55, 26085, 0],
  [13307, 50, 56, 26085, 0],
  [13308, 50, 57, 26085, 0],
  [13309, 51, 48, 26085, 0],
  [13310, 51, 49, 26085, 0],
  [63744, 35912, 0],
  [63745, 26356, 0],
  [63746, 36554, 0],
  [63747, 36040, 0],
  [63748, 28369, 0],
  [63749, 20018, 0],
  [63750, 21477, 0],
  [63751, 40860, 0],
  [63752, 40860, 0],
  [63753, 22865, 0],
  [63754, 37329, 0],
  [63755, 21895, 0],
  [63756, 22856, 0],
  [63757, 25078, 0],
  [63758, 30313, 0],
  [63759, 32645, 0],
  [63760, 34367, 0],
  [63761, 34746, 0],
  [63762, 35064, 0],
  [63763, 37007, 0],
  [63764, 27138, 0],
  [63765, 27931, 0],
  [63766, 28889, 0],
  [63767, 29662, 0],
  [63768, 33853, 0],
  [63769, 37226, 0],
  [63770, 39409, 0],
  [63771, 20098, 0],
  [63772, 21365, 0],
  [63773, 27396, 0],
  [63774, 29211, 0],
  [63775, 34349, 0],
  [63776, 40478, 0],
  [63777, 23888, 0],
  [63778, 28651, 0],
  [63779, 34253, 0],
  [63780, 35172, 0],
  [63781, 25289, 0],
  [63782, 33240, 0],
  [63783, 34847, 0],
  [63784, 24266, 0],
  [63785, 26391, 0],
  [63786, 28010, 0],
  [63787, 29436, 0],
  [63788, 37070, 0],
  [63789, 20358, 0],
  [63790, 20919, 0],
  [63791, 21214, 0]]

/-- src/u5e/props/compatibility_and_canonical_decomposition_mapping_data.hpp lines 1701-1800. -/
def kdec17 : List (List Nat) := [
  [63792, 25796, 0],
  [63793, 27347, 0],
  [63794, 29200, 0],
  [63795, 30439, 0],
  [63796, 32769, 0],
  [63797, 34310, 0],
  [63798, 34396, 0],
  [63799, 36335, 0],
  [63800, 38706, 0],
  [63801, 39791, 0],
  [63802, 40442, 0],
  [63803, 30860, 0],
  [63804, 31103, 0],
  [63805, 32160, 0],
  [63806, 33737, 0],
  [63807, 37636, 0],
  [63808, 40575, 0],
  [63809, 35542, 0],
  [63810, 22751, 0],
  [63811, 24324, 0],
  [63812, 31840, 0],
  [63813, 32894, 0],
  [63814, 29282, 0],
  [63815, 30922, 0],
  [63816, 36034, 0],
  [63817, 38647, 0],
  [63818, 22744, 0],
  [63819, 23650, 0],
  [63820, 27155, 0],
  [63821, 28122, 0],
  [63822, 28431, 0],
  [63823, 32047, 0],
  [63824, 32311, 0],
  [63825, 38475, 0],
  [63826, 21202, 0],
  [63827, 32907, 0],
  [63828, 20956, 0],
  [63829, 20940, 0],
  [63830, 31260, 0],
  [63831, 32190, 0],
  [63832, 33777, 0],
  [63833, 38517, 0],
  [63834, 35712, 0],
  [63835, 25295, 0],
  [63836, 27138, 0],
  [63837, 35582, 0],
  [63838, 20025, 0],
  [63839, 23527, 0],
  [63840, 24594, 0],
  [63841, 29575, 0],
  [63842, 30064, 0],
  [63843, 21271, 0],
  [63844, 30971, 0],
  [63845, 20415, 0],
  [63846, 24489, 0],
  [63847, 19981, 0],
  [63848, 27852, 0],
  [63849, 25976, 0],
  [63850, 32034, 0],
  [63851, 21443, 0],
  [63852, 22622, 0],
  [63853, 30465, 0],
  [63854, 33865, 0],
  [63855, 35498, 0],
  [63856, 27578, 0],
  [63857, 36784, 0],
  [63858, 27784, 0],
  [63859, 25342, 0],
  [63860, 33509, 0],
  [63861, 25504, 0],
  [63862, 30053, 0],
  [63863, 20142, 0],
  [63864, 20841, 0],
  [63865, 20937, 0],
  [63866, 26753, 0],
  [63867, 31975, 0],
  [63868, 33391, 0],
  [63869, 35538, 0],
  [63870, 37327, 0],
  [63871, 21237, 0],
  [63872, 21570, 0],
  [63873, 22899, 0],
  [63874, 24300, 0],
  [63875, 26053, 0],
  [63876, 28670, 0],
  [63877, 31018, 0],
  [63878, 38317, 0],
  [63879, 39530, 0],
  [63880, 40599, 0],
  [63881, 40654, 0],
  [63882, 21147, 0],
  [63883, 26310, 0],
  [63884, 27511, 0],
  [63885, 36706, 0],
  [63886, 24180, 0],
  [63887, 24976, 0],
  [63888, 25088, 0],
  [63889, 25754, 0],
  [63890, 28451, 0],
  [63891, 29001, 0]]

/-- src/u5e/props/compatibility_and_canonical_decomposition_mapping_data.hpp lines 1801-1900. -/
def kdec18 : List (List Nat) := [
  [63892, 29833, 0],
  [63893, 31178, 0],
  [63894, 32244, 0],
  [63895, 32879, 0],
  [63896, 36646, 0],
  [63897, 34030, 0],
  [63898, 36899, 0],
  [63899, 37706, 0],
  [63900, 21015, 0],
  [63901, 21155, 0],
  [63902, 21693, 0],
  [63903, 28872, 0],
  [63904, 35010, 0],
  [63905, 35498, 0],
  [63906, 24265, 0],
  [63907, 24565, 0],
  [63908, 25467, 0],
  [63909, 27566, 0],
  [63910, 31806, 0],
  [63911, 29557, 0],
  [63912, 20196, 0],
  [63913, 22265, 0],
  [63914, 23527, 0],
  [63915, 23994, 0],
  [63916, 24604, 0],
  [63917, 29618, 0],
  [63918, 29801, 0],
  [63919, 32666, 0],
  [63920, 32838, 0],
  [63921, 37428, 0],
  [63922, 38646, 0],
  [63923, 38728, 0],
  [63924, 38936, 0],
  [63925, 20363, 0],
  [63926, 31150, 0],
  [63927, 37300, 0],
  [63928, 38584, 0],
  [63929, 24801, 0],
  [63930, 20102, 0],
  [63931, 20698, 0],
  [63932, 23534, 0],
  [63933, 23615, 0],
  [63934, 26009, 0],
  [63935, 27138, 0],
  [63936, 29134, 0],
  [63937, 30274, 0],
  [63938, 34044, 0],
  [63939, 36988, 0],
  [63940, 40845, 0],
  [63941, 26248, 0],
  [63942, 38446, 0],
  [63943, 21129, 0],
  [63944, 26491, 0],
  [63945, 26611, 0],
  [63946, 27969, 0],
  [63947, 28316, 0],
  [63948, 29705, 0],
  [63949, 30041, 0],
  [63950, 30827, 0],
  [63951, 32016, 0],
  [63952, 39006, 0],
  [63953, 20845, 0],
  [63954, 25134, 0],
  [63955, 38520, 0],
  [63956, 20523, 0],
  [63957, 23833, 0],
  [63958, 28138, 0],
  [63959, 36650, 0],
  [63960, 24459, 0],
  [63961, 24900, 0],
  [63962, 26647, 0],
  [63963, 29575, 0],
  [63964, 38534, 0],
  [63965, 21033, 0],
  [63966, 21519, 0],
  [63967, 23653, 0],
  [63968, 26131, 0],
  [63969, 26446, 0],
  [63970, 26792, 0],
  [63971, 27877, 0],
  [63972, 29702, 0],
  [63973, 30178, 0],
  [63974, 32633, 0],
  [63975, 35023, 0],
  [63976, 35041, 0],
  [63977, 37324, 0],
  [63978, 38626, 0],
  [63979, 21311, 0],
  [63980, 28346, 0],
  [63981, 21533, 0],
  [63982, 29136, 0],
  [63983, 29848, 0],
  [63984, 34298, 0],
  [63985, 38563, 0],
  [63986, 40023, 0],
  [63987, 40607, 0],
  [63988, 26519, 0],
  [63989, 28107, 0],
  [63990, 33256, 0],
  [63991, 31435, 0]]

/-- src/u5e/props/compatibility_and_canonical_decomposition_mapping_data.hpp lines 1901-2000. -/
def kdec19 : List (List Nat) := [
  [63992, 31520, 0],
  [63993, 31890, 0],
  [63994, 29376, 0],
  [63995, 28825, 0],
  [63996, 35672, 0],
  [63997, 20160, 0],
  [63998, 33590, 0],
  [63999, 21050, 0],
  [64000, 20999, 0],
  [64001, 24230, 0],
  [64002, 25299, 0],
  [64003, 31958, 0],
  [64004, 23429, 0],
  [64005, 27934, 0],
  [64006, 26292, 0],
  [64007, 36667, 0],
  [64008, 34892, 0],
  [64009, 38477, 0],
  [64010, 35211, 0],
  [64011, 24275, 0],
  [64012, 20800, 0],
  [64013, 21952, 0],
  [64016, 22618, 0],
  [64018, 26228, 0],
  [64021, 20958, 0],
  [64022, 29482, 0],
  [64023, 30410, 0],
  [64024, 31036, 0],
  [64025, 31070, 0],
  [64026, 31077, 0],
  [64027, 31119, 0],
  [64028, 38742, 0],
  [64029, 31934, 0],
  [64030, 32701, 0],
  [64032, 34322, 0],
  [64034, 35576, 0],
  [64037, 36920, 0],
  [64038, 37117, 0],
  [64042, 39151, 0],
  [64043, 39164, 0],
  [64044, 39208, 0],
  [64045, 40372, 0],
  [64046, 37086, 0],
  [64047, 38583, 0],
  [64048, 20398, 0],
  [64049, 20711, 0],
  [64050, 20813, 0],
  [64051, 21193, 0],
  [64052, 21220, 0],
  [64053, 21329, 0],
  [64054, 21917, 0],
  [64055, 22022, 0],
  [64056, 22120, 0],
  [64057, 22592, 0],
  [64058, 22696, 0],
  [64059, 23652, 0],
  [64060, 23662, 0],
  [64061, 24724, 0],
  [64062, 24936, 0],
  [64063, 24974, 0],
  [64064, 25074, 0],
  [64065, 25935, 0],
  [64066, 26082, 0],
  [64067, 26257, 0],
  [64068, 26757, 0],
  [64069, 28023, 0],
  [64070, 28186, 0],
  [64071, 28450, 0],
  [64072, 29038, 0],
  [64073, 29227, 0],
  [64074, 29730, 0],
  [64075, 30865, 0],
  [64076, 31038, 0],
  [64077, 31049, 0],
  [64078, 31048, 0],
  [64079, 31056, 0],
  [64080, 31062, 0],
  [64081, 31069, 0],
  [64082, 31117, 0],
  [64083, 31118, 0],
  [64084, 31296, 0],
  [64085, 31361, 0],
  [64086, 31680, 0],
  [64087, 32244, 0],
  [64088, 32265, 0],
  [64089, 32321, 0],
  [64090, 32626, 0],
  [64091, 32773, 0],
  [64092, 33261, 0],
  [64093, 33401, 0],
  [64094, 33401, 0],
  [64095, 33879, 0],
  [64096, 35088, 0],
  [64097, 35222, 0],
  [64098, 35585, 0],
  [64099, 35641, 0],
  [64100, 36051, 0],
  [64101, 36104, 0],
  [64102, 36790, 0],
  [64103, 36920, 0]]

/-- src/u5e/props/compatibility_and_canonical_decomposition_mapping_data.hpp lines 2001-2100. -/
def kdec20 : List (List Nat) := [
  [64104, 38627, 0],
  [64105, 38911, 0],
  [64106, 38971, 0],
  [64107, 24693, 0],
  [64108, 148206, 0],
  [64109, 33304, 0],
  [64112, 20006, 0],
  [64113, 20917, 0],
  [64114, 20840, 0],
  [64115, 20352, 0],
  [64116, 20805, 0],
  [64117, 20864, 0],
  [64118, 21191, 0],
  [64119, 21242, 0],
  [64120, 21917, 0],
  [64121, 21845, 0],
  [64122, 21913, 0],
  [64123, 21986, 0],
  [64124, 22618, 0],
  [64125, 22707, 0],
  [64126, 22852, 0],
  [64127, 22868, 0],
  [64128, 23138, 0],
  [64129, 23336, 0],
  [64130, 24274, 0],
  [64131, 24281, 0],
  [64132, 24425, 0],
  [64133, 24493, 0],
  [64134, 24792, 0],
  [64135, 24910, 0],
  [64136, 24840, 0],
  [64137, 24974, 0],
  [64138, 24928, 0],
  [64139, 25074, 0],
  [64140, 25140, 0],
  [64141, 25540, 0],
  [64142, 25628, 0],
  [64143, 25682, 0],
  [64144, 25942, 0],
  [64145, 26228, 0],
  [64146, 26391, 0],
  [64147, 26395, 0],
  [64148, 26454, 0],
  [64149, 27513, 0],
  [64150, 27578, 0],
  [64151, 27969, 0],
  [64152, 28379, 0],
  [64153, 28363, 0],
  [64154, 28450, 0],
  [64155, 28702, 0],
  [64156, 29038, 0],
  [64157, 30631, 0],
  [64158, 29237, 0],
  [64159, 29359, 0],
  [64160, 29482, 0],
  [64161, 29809, 0],
  [64162, 29958, 0],
  [64163, 30011, 0],
  [64164, 30237, 0],
  [64165, 30239, 0],
  [64166, 30410, 0],
  [64167, 30427, 0],
  [64168, 30452, 0],
  [64169, 30538, 0],
  [64170, 30528, 0],
  [64171, 30924, 0],
  [64172, 31409, 0],
  [64173, 31680, 0],
  [64174, 31867, 0],
  [64175, 32091, 0],
  [64176, 32244, 0],
  [64177, 32574, 0],
  [64178, 32773, 0],
  [64179, 33618, 0],
  [64180, 33775, 0],
  [64181, 34681, 0],
  [64182, 35137, 0],
  [64183, 35206, 0],
  [64184, 35222, 0],
  [64185, 35519, 0],
  [64186, 35576, 0],
  [64187, 35531, 0],
  [64188, 35585, 0],
  [64189, 35582, 0],
  [64190, 35565, 0],
  [64191, 35641, 0],
  [64192, 35722, 0],
  [64193, 36104, 0],
  [64194, 36664, 0],
  [64195, 36978, 0],
  [64196, 37273, 0],
  [64197, 37494, 0],
  [64198, 38524, 0],
  [64199, 38627, 0],
  [64200, 38742, 0],
  [64201, 38875, 0],
  [64202, 38911, 0],
  [64203, 38923, 0],
  [64204, 38971, 0],
  [64205, 39698, 0]]

/-- src/u5e/props/compatibility_and_canonical_decomposition_mapping_data.hpp lines 2101-2200. -/
def kdec21 : List (List Nat) := [
  [64206, 40860, 0],
  [64207, 141386, 0],
  [64208, 141380, 0],
  [64209, 144341, 0],
  [64210, 15261, 0],
  [64211, 16408, 0],
  [64212, 16441, 0],
  [64213, 152137, 0],
  [64214, 154832, 0],
  [64215, 163539, 0],
  [64216, 40771, 0],
  [64217, 40846, 0],
  [64256, 102, 102, 0],
  [64257, 102, 105, 0],
  [64258, 102, 108, 0],
  [64259, 102, 102, 105, 0],
  [64260, 102, 102, 108, 0],
  [64261, 115, 116, 0],
  [64262, 115, 116, 0],
  [64275, 1396, 1398, 0],
  [64276, 1396, 1381, 0],
  [64277, 1396, 1387, 0],
  [64278, 1406, 1398, 0],
  [64279, 1396, 1389, 0],
  [64285, 1497, 1460, 0],
  [64287, 1522, 1463, 0],
  [64298, 1513, 1473, 0],
  [64299, 1513, 1474, 0],
  [64300, 1513, 1468, 1473, 0],
  [64301, 1513, 1468, 1474, 0],
  [64302, 1488, 1463, 0],
  [64303, 1488, 1464, 0],
  [64304, 1488, 1468, 0],
  [64305, 1489, 1468, 0],
  [64306, 1490, 1468, 0],
  [64307, 1491, 1468, 0],
  [64308, 1492, 1468, 0],
  [64309, 1493, 1468, 0],
  [64310, 1494, 1468, 0],
  [64312, 1496, 1468, 0],
  [64313, 1497, 1468, 0],
  [64314, 1498, 1468, 0],
  [64315, 1499, 1468, 0],
  [64316, 1500, 1468, 0],
  [64318, 1502, 1468, 0],
  [64320, 1504, 1468, 0],
  [64321, 1505, 1468, 0],
  [64323, 1507, 1468, 0],
  [64324, 1508, 1468, 0],
  [64326, 1510, 1468, 0],
  [64327, 1511, 1468, 0],
  [64328, 1512, 1468, 0],
  [64329, 1513, 1468, 0],
  [64330, 1514, 1468, 0],
  [64331, 1493, 1465, 0],
  [64332, 1489, 1471, 0],
  [64333, 1499, 1471, 0],
  [64334, 1508, 1471, 0],
  [64335, 1488, 1500, 0],
  [65097, 32, 773, 0],
  [65098, 32, 773, 0],
  [65099, 32, 773, 0],
  [65100, 32, 773, 0],
  [65101, 95, 0],
  [65102, 95, 0],
  [65103, 95, 0],
  [69786, 69785, 69818, 0],
  [69788, 69787, 69818, 0],
  [69803, 69797, 69818, 0],
  [69934, 69937, 69927, 0],
  [69935, 69938, 69927, 0],
  [70475, 70471, 70462, 0],
  [70476, 70471, 70487, 0],
  [70843, 70841, 70842, 0],
  [70844, 70841, 70832, 0],
  [70846, 70841, 70845, 0],
  [71098, 71096, 71087, 0],
  [71099, 71097, 71087, 0],
  [119134, 119127, 119141, 0],
  [119135, 119128, 119141, 0],
  [119136, 119128, 119141, 119150, 0],
  [119137, 119128, 119141, 119151, 0],
  [119138, 119128, 119141, 119152, 0],
  [119139, 119128, 119141, 119153, 0],
  [119140, 119128, 119141, 119154, 0],
  [119227, 119225, 119141, 0],
  [119228, 119226, 119141, 0],
  [119229, 119225, 119141, 119150, 0],
  [119230, 119226, 119141, 119150, 0],
  [119231, 119225, 119141, 119151, 0],
  [119232, 119226, 119141, 119151, 0],
  [127232, 48, 46, 0],
  [127233, 48, 44, 0],
  [127234, 49, 44, 0],
  [127235, 50, 44, 0],
  [127236, 51, 44, 0],
  [127237, 52, 44, 0],
  [127238, 53, 44, 0],
  [127239, 54, 44, 0],
  [127240, 55, 44, 0]]

/-- src/u5e/props/compatibility_and_canonical_decomposition_mapping_data.hpp lines 2201-2300. -/
def kdec22 : List (List Nat) := [
  [127241, 56, 44, 0],
  [127242, 57, 44, 0],
  [127248, 40, 65, 41, 0],
  [127249, 40, 66, 41, 0],
  [127250, 40, 67, 41, 0],
  [127251, 40, 68, 41, 0],
  [127252, 40, 69, 41, 0],
  [127253, 40, 70, 41, 0],
  [127254, 40, 71, 41, 0],
  [127255, 40, 72, 41, 0],
  [127256, 40, 73, 41, 0],
  [127257, 40, 74, 41, 0],
  [127258, 40, 75, 41, 0],
  [127259, 40, 76, 41, 0],
  [127260, 40, 77, 41, 0],
  [127261, 40, 78, 41, 0],
  [127262, 40, 79, 41, 0],
  [127263, 40, 80, 41, 0],
  [127264, 40, 81, 41, 0],
  [127265, 40, 82, 41, 0],
  [127266, 40, 83, 41, 0],
  [127267, 40, 84, 41, 0],
  [127268, 40, 85, 41, 0],
  [127269, 40, 86, 41, 0],
  [127270, 40, 87, 41, 0],
  [127271, 40, 88, 41, 0],
  [127272, 40, 89, 41, 0],
  [127273, 40, 90, 41, 0],
  [127274, 12308, 83, 12309, 0],
  [127552, 12308, 26412, 12309, 0],
  [127553, 12308, 19977, 12309, 0],
  [127554, 12308, 20108, 12309, 0],
  [127555, 12308, 23433, 12309, 0],
  [127556, 12308, 28857, 12309, 0],
  [127557, 12308, 25171, 12309, 0],
  [127558, 12308, 30423, 12309, 0],
  [127559, 12308, 21213, 12309, 0],
  [127560, 12308, 25943, 12309, 0],
  [194560, 20029, 0],
  [194561, 20024, 0],
  [194562, 20033, 0],
  [194563, 131362, 0],
  [194564, 20320, 0],
  [194565, 20398, 0],
  [194566, 20411, 0],
  [194567, 20482, 0],
  [194568, 20602, 0],
  [194569, 20633, 0],
  [194570, 20711, 0],
  [194571, 20687, 0],
  [194572, 13470, 0],
  [194573, 132666, 0],
  [194574, 20813, 0],
  [194575, 20820, 0],
  [194576, 20836, 0],
  [194577, 20855, 0],
  [194578, 132380, 0],
  [194579, 13497, 0],
  [194580, 20839, 0],
  [194581, 20877, 0],
  [194582, 132427, 0],
  [194583, 20887, 0],
  [194584, 20900, 0],
  [194585, 20172, 0],
  [194586, 20908, 0],
  [194587, 20917, 0],
  [194588, 168415, 0],
  [194589, 20981, 0],
  [194590, 20995, 0],
  [194591, 13535, 0],
  [194592, 21051, 0],
  [194593, 21062, 0],
  [194594, 21106, 0],
  [194595, 21111, 0],
  [194596, 13589, 0],
  [194597, 21191, 0],
  [194598, 21193, 0],
  [194599, 21220, 0],
  [194600, 21242, 0],
  [194601, 21253, 0],
  [194602, 21254, 0],
  [194603, 21271, 0],
  [194604, 21321, 0],
  [194605, 21329, 0],
  [194606, 21338, 0],
  [194607, 21363, 0],
  [194608, 21373, 0],
  [194609, 21375, 0],
  [194610, 21375, 0],
  [194611, 21375, 0],
  [194612, 133676, 0],
  [194613, 28784, 0],
  [194614, 21450, 0],
  [194615, 21471, 0],
  [194616, 133987, 0],
  [194617, 21483, 0],
  [194618, 21489, 0],
  [194619, 21510, 0],
  [194620, 21662, 0],
  [194621, 21560, 0]]

/-- src/u5e/props/compatibility_and_canonical_decomposition_mapping_data.hpp lines 2301-2400. -/
def kdec23 : List (List Nat) := [
  [194622, 21576, 0],
  [194623, 21608, 0],
  [194624, 21666, 0],
  [194625, 21750, 0],
  [194626, 21776, 0],
  [194627, 21843, 0],
  [194628, 21859, 0],
  [194629, 21892, 0],
  [194630, 21892, 0],
  [194631, 21913, 0],
  [194632, 21931, 0],
  [194633, 21939, 0],
  [194634, 21954, 0],
  [194635, 22294, 0],
  [194636, 22022, 0],
  [194637, 22295, 0],
  [194638, 22097, 0],
  [194639, 22132, 0],
  [194640, 20999, 0],
  [194641, 22766, 0],
  [194642, 22478, 0],
  [194643, 22516, 0],
  [194644, 22541, 0],
  [194645, 22411, 0],
  [194646, 22578, 0],
  [194647, 22577, 0],
  [194648, 22700, 0],
  [194649, 136420, 0],
  [194650, 22770, 0],
  [194651, 22775, 0],
  [194652, 22790, 0],
  [194653, 22810, 0],
  [194654, 22818, 0],
  [194655, 22882, 0],
  [194656, 136872, 0],
  [194657, 136938, 0],
  [194658, 23020, 0],
  [194659, 23067, 0],
  [194660, 23079, 0],
  [194661, 23000, 0],
  [194662, 23142, 0],
  [194663, 14062, 0],
  [194664, 14076, 0],
  [194665, 23304, 0],
  [194666, 23358, 0],
  [194667, 23358, 0],
  [194668, 137672, 0],
  [194669, 23491, 0],
  [194670, 23512, 0],
  [194671, 23527, 0],
  [194672, 23539, 0],
  [194673, 138008, 0],
  [194674, 23551, 0],
  [194675, 23558, 0],
  [194676, 24403, 0],
  [194677, 23586, 0],
  [194678, 14209, 0],
  [194679, 23648, 0],
  [194680, 23662, 0],
  [194681, 23744, 0],
  [194682, 23693, 0],
  [194683, 138724, 0],
  [194684, 23875, 0],
  [194685, 138726, 0],
  [194686, 23918, 0],
  [194687, 23915, 0],
  [194688, 23932, 0],
  [194689, 24033, 0],
  [194690, 24034, 0],
  [194691, 14383, 0],
  [194692, 24061, 0],
  [194693, 24104, 0],
  [194694, 24125, 0],
  [194695, 24169, 0],
  [194696, 14434, 0],
  [194697, 139651, 0],
  [194698, 14460, 0],
  [194699, 24240, 0],
  [194700, 24243, 0],
  [194701, 24246, 0],
  [194702, 24266, 0],
  [194703, 172946, 0],
  [194704, 24318, 0],
  [194705, 140081, 0],
  [194706, 140081, 0],
  [194707, 33281, 0],
  [194708, 24354, 0],
  [194709, 24354, 0],
  [194710, 14535, 0],
  [194711, 144056, 0],
  [194712, 156122, 0],
  [194713, 24418, 0],
  [194714, 24427, 0],
  [194715, 14563, 0],
  [194716, 24474, 0],
  [194717, 24525, 0],
  [194718, 24535, 0],
  [194719, 24569, 0],
  [194720, 24705, 0],
  [194721, 14650, 0]]

/-- src/u5e/props/compatibility_and_canonical_decomposition_mapping_data.hpp lines 2401-2500. -/
def kdec24 : List (List Nat) := [
  [194722, 14620, 0],
  [194723, 24724, 0],
  [194724, 141012, 0],
  [194725, 24775, 0],
  [194726, 24904, 0],
  [194727, 24908, 0],
  [194728, 24910, 0],
  [194729, 24908, 0],
  [194730, 24954, 0],
  [194731, 24974, 0],
  [194732, 25010, 0],
  [194733, 24996, 0],
  [194734, 25007, 0],
  [194735, 25054, 0],
  [194736, 25074, 0],
  [194737, 25078, 0],
  [194738, 25104, 0],
  [194739, 25115, 0],
  [194740, 25181, 0],
  [194741, 25265, 0],
  [194742, 25300, 0],
  [194743, 25424, 0],
  [194744, 142092, 0],
  [194745, 25405, 0],
  [194746, 25340, 0],
  [194747, 25448, 0],
  [194748, 25475, 0],
  [194749, 25572, 0],
  [194750, 142321, 0],
  [194751, 25634, 0],
  [194752, 25541, 0],
  [194753, 25513, 0],
  [194754, 14894, 0],
  [194755, 25705, 0],
  [194756, 25726, 0],
  [194757, 25757, 0],
  [194758, 25719, 0],
  [194759, 14956, 0],
  [194760, 25935, 0],
  [194761, 25964, 0],
  [194762, 143370, 0],
  [194763, 26083, 0],
  [194764, 26360, 0],
  [194765, 26185, 0],
  [194766, 15129, 0],
  [194767, 26257, 0],
  [194768, 15112, 0],
  [194769, 15076, 0],
  [194770, 20882, 0],
  [194771, 20885, 0],
  [194772, 26368, 0],
  [194773, 26268, 0],
  [194774, 32941, 0],
  [194775, 17369, 0],
  [194776, 26391, 0],
  [194777, 26395, 0],
  [194778, 26401, 0],
  [194779, 26462, 0],
  [194780, 26451, 0],
  [194781, 144323, 0],
  [194782, 15177, 0],
  [194783, 26618, 0],
  [194784, 26501, 0],
  [194785, 26706, 0],
  [194786, 26757, 0],
  [194787, 144493, 0],
  [194788, 26766, 0],
  [194789, 26655, 0],
  [194790, 26900, 0],
  [194791, 15261, 0],
  [194792, 26946, 0],
  [194793, 27043, 0],
  [194794, 27114, 0],
  [194795, 27304, 0],
  [194796, 145059, 0],
  [194797, 27355, 0],
  [194798, 15384, 0],
  [194799, 27425, 0],
  [194800, 145575, 0],
  [194801, 27476, 0],
  [194802, 15438, 0],
  [194803, 27506, 0],
  [194804, 27551, 0],
  [194805, 27578, 0],
  [194806, 27579, 0],
  [194807, 146061, 0],
  [194808, 138507, 0],
  [194809, 146170, 0],
  [194810, 27726, 0],
  [194811, 146620, 0],
  [194812, 27839, 0],
  [194813, 27853, 0],
  [194814, 27751, 0],
  [194815, 27926, 0],
  [194816, 27966, 0],
  [194817, 28023, 0],
  [194818, 27969, 0],
  [194819, 28009, 0],
  [194820, 28024, 0],
  [194821, 28037, 0]]

/-- src/u5e/props/compatibility_and_canonical_decomposition_mapping_data.hpp lines 2501-2600. -/
def kdec25 : List (List Nat) := [
  [194822, 146718, 0],
  [194823, 27956, 0],
  [194824, 28207, 0],
  [194825, 28270, 0],
  [194826, 15667, 0],
  [194827, 28363, 0],
  [194828, 28359, 0],
  [194829, 147153, 0],
  [194830, 28153, 0],
  [194831, 28526, 0],
  [194832, 147294, 0],
  [194833, 147342, 0],
  [194834, 28614, 0],
  [194835, 28729, 0],
  [194836, 28702, 0],
  [194837, 28699, 0],
  [194838, 15766, 0],
  [194839, 28746, 0],
  [194840, 28797, 0],
  [194841, 28791, 0],
  [194842, 28845, 0],
  [194843, 132389, 0],
  [194844, 28997, 0],
  [194845, 148067, 0],
  [194846, 29084, 0],
  [194847, 148395, 0],
  [194848, 29224, 0],
  [194849, 29237, 0],
  [194850, 29264, 0],
  [194851, 149000, 0],
  [194852, 29312, 0],
  [194853, 29333, 0],
  [194854, 149301, 0],
  [194855, 149524, 0],
  [194856, 29562, 0],
  [194857, 29579, 0],
  [194858, 16044, 0],
  [194859, 29605, 0],
  [194860, 16056, 0],
  [194861, 16056, 0],
  [194862, 29767, 0],
  [194863, 29788, 0],
  [194864, 29809, 0],
  [194865, 29829, 0],
  [194866, 29898, 0],
  [194867, 16155, 0],
  [194868, 29988, 0],
  [194869, 150582, 0],
  [194870, 30014, 0],
  [194871, 150674, 0],
  [194872, 30064, 0],
  [194873, 139679, 0],
  [194874, 30224, 0],
  [194875, 151457, 0],
  [194876, 151480, 0],
  [194877, 151620, 0],
  [194878, 16380, 0],
  [194879, 16392, 0],
  [194880, 30452, 0],
  [194881, 151795, 0],
  [194882, 151794, 0],
  [194883, 151833, 0],
  [194884, 151859, 0],
  [194885, 30494, 0],
  [194886, 30495, 0],
  [194887, 30495, 0],
  [194888, 30538, 0],
  [194889, 16441, 0],
  [194890, 30603, 0],
  [194891, 16454, 0],
  [194892, 16534, 0],
  [194893, 152605, 0],
  [194894, 30798, 0],
  [194895, 30860, 0],
  [194896, 30924, 0],
  [194897, 16611, 0],
  [194898, 153126, 0],
  [194899, 31062, 0],
  [194900, 153242, 0],
  [194901, 153285, 0],
  [194902, 31119, 0],
  [194903, 31211, 0],
  [194904, 16687, 0],
  [194905, 31296, 0],
  [194906, 31306, 0],
  [194907, 31311, 0],
  [194908, 153980, 0],
  [194909, 154279, 0],
  [194910, 154279, 0],
  [194911, 31470, 0],
  [194912, 16898, 0],
  [194913, 154539, 0],
  [194914, 31686, 0],
  [194915, 31689, 0],
  [194916, 16935, 0],
  [194917, 154752, 0],
  [194918, 31954, 0],
  [194919, 17056, 0],
  [194920, 31976, 0],
  [194921, 31971, 0]]

/-- src/u5e/props/compatibility_and_canonical_decomposition_mapping_data.hpp lines 2601-2700. -/
def kdec26 : List (List Nat) := [
  [194922, 32000, 0],
  [194923, 155526, 0],
  [194924, 32099, 0],
  [194925, 17153, 0],
  [194926, 32199, 0],
  [194927, 32258, 0],
  [194928, 32325, 0],
  [194929, 17204, 0],
  [194930, 156200, 0],
  [194931, 156231, 0],
  [194932, 17241, 0],
  [194933, 156377, 0],
  [194934, 32634, 0],
  [194935, 156478, 0],
  [194936, 32661, 0],
  [194937, 32762, 0],
  [194938, 32773, 0],
  [194939, 156890, 0],
  [194940, 156963, 0],
  [194941, 32864, 0],
  [194942, 157096, 0],
  [194943, 32880, 0],
  [194944, 144223, 0],
  [194945, 17365, 0],
  [194946, 32946, 0],
  [194947, 33027, 0],
  [194948, 17419, 0],
  [194949, 33086, 0],
  [194950, 23221, 0],
  [194951, 157607, 0],
  [194952, 157621, 0],
  [194953, 144275, 0],
  [194954, 144284, 0],
  [194955, 33281, 0],
  [194956, 33284, 0],
  [194957, 36766, 0],
  [194958, 17515, 0],
  [194959, 33425, 0],
  [194960, 33419, 0],
  [194961, 33437, 0],
  [194962, 21171, 0],
  [194963, 33457, 0],
  [194964, 33459, 0],
  [194965, 33469, 0],
  [194966, 33510, 0],
  [194967, 158524, 0],
  [194968, 33509, 0],
  [194969, 33565, 0],
  [194970, 33635, 0],
  [194971, 33709, 0],
  [194972, 33571, 0],
  [194973, 33725, 0],
  [194974, 33767, 0],
  [194975, 33879, 0],
  [194976, 33619, 0],
  [194977, 33738, 0],
  [194978, 33740, 0],
  [194979, 33756, 0],
  [194980, 158774, 0],
  [194981, 159083, 0],
  [194982, 158933, 0],
  [194983, 17707, 0],
  [194984, 34033, 0],
  [194985, 34035, 0],
  [194986, 34070, 0],
  [194987, 160714, 0],
  [194988, 34148, 0],
  [194989, 159532, 0],
  [194990, 17757, 0],
  [194991, 17761, 0],
  [194992, 159665, 0],
  [194993, 159954, 0],
  [194994, 17771, 0],
  [194995, 34384, 0],
  [194996, 34396, 0],
  [194997, 34407, 0],
  [194998, 34409, 0],
  [194999, 34473, 0],
  [195000, 34440, 0],
  [195001, 34574, 0],
  [195002, 34530, 0],
  [195003, 34681, 0],
  [195004, 34600, 0],
  [195005, 34667, 0],
  [195006, 34694, 0],
  [195007, 17879, 0],
  [195008, 34785, 0],
  [195009, 34817, 0],
  [195010, 17913, 0],
  [195011, 34912, 0],
  [195012, 34915, 0],
  [195013, 161383, 0],
  [195014, 35031, 0],
  [195015, 35038, 0],
  [195016, 17973, 0],
  [195017, 35066, 0],
  [195018, 13499, 0],
  [195019, 161966, 0],
  [195020, 162150, 0],
  [195021, 18110, 0]]

/-- src/u5e/props/compatibility_and_canonical_decomposition_mapping_data.hpp lines 2701-2780. -/
def kdec27 : List (List Nat) := [
  [195022, 18119, 0],
  [195023, 35488, 0],
  [195024, 35565, 0],
  [195025, 35722, 0],
  [195026, 35925, 0],
  [195027, 162984, 0],
  [195028, 36011, 0],
  [195029, 36033, 0],
  [195030, 36123, 0],
  [195031, 36215, 0],
  [195032, 163631, 0],
  [195033, 133124, 0],
  [195034, 36299, 0],
  [195035, 36284, 0],
  [195036, 36336, 0],
  [195037, 133342, 0],
  [195038, 36564, 0],
  [195039, 36664, 0],
  [195040, 165330, 0],
  [195041, 165357, 0],
  [195042, 37012, 0],
  [195043, 37105, 0],
  [195044, 37137, 0],
  [195045, 165678, 0],
  [195046, 37147, 0],
  [195047, 37432, 0],
  [195048, 37591, 0],
  [195049, 37592, 0],
  [195050, 37500, 0],
  [195051, 37881, 0],
  [195052, 37909, 0],
  [195053, 166906, 0],
  [195054, 38283, 0],
  [195055, 18837, 0],
  [195056, 38327, 0],
  [195057, 167287, 0],
  [195058, 18918, 0],
  [195059, 38595, 0],
  [195060, 23986, 0],
  [195061, 38691, 0],
  [195062, 168261, 0],
  [195063, 168474, 0],
  [195064, 19054, 0],
  [195065, 19062, 0],
  [195066, 38880, 0],
  [195067, 168970, 0],
  [195068, 19122, 0],
  [195069, 169110, 0],
  [195070, 38923, 0],
  [195071, 38923, 0],
  [195072, 38953, 0],
  [195073, 169398, 0],
  [195074, 39138, 0],
  [195075, 19251, 0],
  [195076, 39209, 0],
  [195077, 39335, 0],
  [195078, 39362, 0],
  [195079, 39422, 0],
  [195080, 19406, 0],
  [195081, 170800, 0],
  [195082, 39698, 0],
  [195083, 40000, 0],
  [195084, 40189, 0],
  [195085, 19662, 0],
  [195086, 19693, 0],
  [195087, 40295, 0],
  [195088, 172238, 0],
  [195089, 19704, 0],
  [195090, 172293, 0],
  [195091, 172558, 0],
  [195092, 172689, 0],
  [195093, 40635, 0],
  [195094, 19798, 0],
  [195095, 40697, 0],
  [195096, 40702, 0],
  [195097, 40709, 0],
  [195098, 40719, 0],
  [195099, 40726, 0],
  [195100, 40763, 0],
  [195101, 173568, 0]]

/-- The whole table, src/u5e/props/compatibility_and_canonical_decomposition_mapping_data.hpp. -/
@[irreducible] def kdecTable : List (List Nat) :=
  kdec0 ++ (kdec1 ++ (kdec2 ++ (kdec3 ++ (kdec4 ++ (kdec5 ++ (kdec6 ++ (kdec7 ++ (kdec8 ++ (kdec9 ++ (kdec10 ++ (kdec11 ++ (kdec12 ++ (kdec13 ++ (kdec14 ++ (kdec15 ++ (kdec16 ++ (kdec17 ++ (kdec18 ++ (kdec19 ++ (kdec20 ++ (kdec21 ++ (kdec22 ++ (kdec23 ++ (kdec24 ++ (kdec25 ++ (kdec26 ++ (kdec27)))))))))))))))))))))))))))

end U5e.Data
