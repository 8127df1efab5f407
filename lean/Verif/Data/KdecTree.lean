import Verif.Proofs.Tree
set_option maxRecDepth 10000
/-! GENERATED by tools/gen_trees.py: the rows of Data/Kdec.lean as a search tree (proof aid). -/
namespace U5e.Data
open U5e

/-- Rows of Data/Kdec.lean (proof aid). -/
def kdecT0 : Tree (List Nat) := (.node (.node (.node (.node (.node (.node .leaf [168, 32, 776, 0] .leaf) [175, 32, 772, 0] .leaf) [180, 32, 769, 0] (.node (.node .leaf [181, 956, 0] .leaf) [184, 32, 807, 0] .leaf)) [192, 65, 768, 0] (.node (.node (.node .leaf [193, 65, 769, 0] .leaf) [194, 65, 770, 0] .leaf) [195, 65, 771, 0] (.node .leaf [196, 65, 776, 0] .leaf))) [197, 65, 778, 0] (.node (.node (.node (.node .leaf [199, 67, 807, 0] .leaf) [200, 69, 768, 0] .leaf) [201, 69, 769, 0] (.node (.node .leaf [202, 69, 770, 0] .leaf) [203, 69, 776, 0] .leaf)) [204, 73, 768, 0] (.node (.node (.node .leaf [205, 73, 769, 0] .leaf) [206, 73, 770, 0] .leaf) [207, 73, 776, 0] (.node .leaf [209, 78, 771, 0] .leaf)))) [210, 79, 768, 0] (.node (.node (.node (.node (.node .leaf [211, 79, 769, 0] .leaf) [212, 79, 770, 0] .leaf) [213, 79, 771, 0] (.node (.node .leaf [214, 79, 776, 0] .leaf) [217, 85, 768, 0] .leaf)) [218, 85, 769, 0] (.node (.node (.node .leaf [219, 85, 770, 0] .leaf) [220, 85, 776, 0] .leaf) [221, 89, 769, 0] (.node .leaf [224, 97, 768, 0] .leaf))) [225, 97, 769, 0] (.node (.node (.node (.node .leaf [226, 97, 770, 0] .leaf) [227, 97, 771, 0] .leaf) [228, 97, 776, 0] (.node (.node .leaf [229, 97, 778, 0] .leaf) [231, 99, 807, 0] .leaf)) [232, 101, 768, 0] (.node (.node (.node .leaf [233, 101, 769, 0] .leaf) [234, 101, 770, 0] .leaf) [235, 101, 776, 0] (.node .leaf [236, 105, 768, 0] .leaf)))))

/-- Rows of Data/Kdec.lean (proof aid). -/
def kdecT1 : Tree (List Nat) := (.node (.node (.node (.node (.node (.node .leaf [238, 105, 770, 0] .leaf) [239, 105, 776, 0] .leaf) [241, 110, 771, 0] (.node (.node .leaf [242, 111, 768, 0] .leaf) [243, 111, 769, 0] .leaf)) [244, 111, 770, 0] (.node (.node (.node .leaf [245, 111, 771, 0] .leaf) [246, 111, 776, 0] .leaf) [249, 117, 768, 0] (.node .leaf [250, 117, 769, 0] .leaf))) [251, 117, 770, 0] (.node (.node (.node (.node .leaf [252, 117, 776, 0] .leaf) [253, 121, 769, 0] .leaf) [255, 121, 776, 0] (.node (.node .leaf [256, 65, 772, 0] .leaf) [257, 97, 772, 0] .leaf)) [258, 65, 774, 0] (.node (.node (.node .leaf [259, 97, 774, 0] .leaf) [260, 65, 808, 0] .leaf) [261, 97, 808, 0] (.node .leaf [262, 67, 769, 0] .leaf)))) [263, 99, 769, 0] (.node (.node (.node (.node (.node .leaf [264, 67, 770, 0] .leaf) [265, 99, 770, 0] .leaf) [266, 67, 775, 0] (.node (.node .leaf [267, 99, 775, 0] .leaf) [268, 67, 780, 0] .leaf)) [269, 99, 780, 0] (.node (.node (.node .leaf [270, 68, 780, 0] .leaf) [271, 100, 780, 0] .leaf) [274, 69, 772, 0] (.node .leaf [275, 101, 772, 0] .leaf))) [276, 69, 774, 0] (.node (.node (.node (.node .leaf [277, 101, 774, 0] .leaf) [278, 69, 775, 0] .leaf) [279, 101, 775, 0] (.node .leaf [280, 69, 808, 0] .leaf)) [281, 101, 808, 0] (.node (.node (.node .leaf [282, 69, 780, 0] .leaf) [283, 101, 780, 0] .leaf) [284, 71, 770, 0] (.node .leaf [285, 103, 770, 0] .leaf)))))

/-- Rows of Data/Kdec.lean (proof aid). -/
def kdecT2 : Tree (List Nat) := (.node (.node (.node (.node (.node (.node .leaf [287, 103, 774, 0] .leaf) [288, 71, 775, 0] .leaf) [289, 103, 775, 0] (.node (.node .leaf [290, 71, 807, 0] .leaf) [291, 103, 807, 0] .leaf)) [292, 72, 770, 0] (.node (.node (.node .leaf [293, 104, 770, 0] .leaf) [296, 73, 771, 0] .leaf) [297, 105, 771, 0] (.node .leaf [298, 73, 772, 0] .leaf))) [299, 105, 772, 0] (.node (.node (.node (.node .leaf [300, 73, 774, 0] .leaf) [301, 105, 774, 0] .leaf) [302, 73, 808, 0] (.node (.node .leaf [303, 105, 808, 0] .leaf) [304, 73, 775, 0] .leaf)) [306, 73, 74, 0] (.node (.node (.node .leaf [307, 105, 106, 0] .leaf) [308, 74, 770, 0] .leaf) [309, 106, 770, 0] (.node .leaf [310, 75, 807, 0] .leaf)))) [311, 107, 807, 0] (.node (.node (.node (.node (.node .leaf [313, 76, 769, 0] .leaf) [314, 108, 769, 0] .leaf) [315, 76, 807, 0] (.node (.node .leaf [316, 108, 807, 0] .leaf) [317, 76, 780, 0] .leaf)) [318, 108, 780, 0] (.node (.node (.node .leaf [319, 76, 183, 0] .leaf) [320, 108, 183, 0] .leaf) [323, 78, 769, 0] (.node .leaf [324, 110, 769, 0] .leaf))) [325, 78, 807, 0] (.node (.node (.node (.node .leaf [326, 110, 807, 0] .leaf) [327, 78, 780, 0] .leaf) [328, 110, 780, 0] (.node (.node .leaf [329, 700, 110, 0] .leaf) [332, 79, 772, 0] .leaf)) [333, 111, 772, 0] (.node (.node (.node .leaf [334, 79, 774, 0] .leaf) [335, 111, 774, 0] .leaf) [336, 79, 779, 0] (.node .leaf [337, 111, 779, 0] .leaf)))))

/-- Rows of Data/Kdec.lean (proof aid). -/
def kdecT3 : Tree (List Nat) := (.node (.node (.node (.node (.node (.node .leaf [341, 114, 769, 0] .leaf) [342, 82, 807, 0] .leaf) [343, 114, 807, 0] (.node (.node .leaf [344, 82, 780, 0] .leaf) [345, 114, 780, 0] .leaf)) [346, 83, 769, 0] (.node (.node (.node .leaf [347, 115, 769, 0] .leaf) [348, 83, 770, 0] .leaf) [349, 115, 770, 0] (.node .leaf [350, 83, 807, 0] .leaf))) [351, 115, 807, 0] (.node (.node (.node (.node .leaf [352, 83, 780, 0] .leaf) [353, 115, 780, 0] .leaf) [354, 84, 807, 0] (.node (.node .leaf [355, 116, 807, 0] .leaf) [356, 84, 780, 0] .leaf)) [357, 116, 780, 0] (.node (.node (.node .leaf [360, 85, 771, 0] .leaf) [361, 117, 771, 0] .leaf) [362, 85, 772, 0] (.node .leaf [363, 117, 772, 0] .leaf)))) [364, 85, 774, 0] (.node (.node (.node (.node (.node .leaf [365, 117, 774, 0] .leaf) [366, 85, 778, 0] .leaf) [367, 117, 778, 0] (.node (.node .leaf [368, 85, 779, 0] .leaf) [369, 117, 779, 0] .leaf)) [370, 85, 808, 0] (.node (.node (.node .leaf [371, 117, 808, 0] .leaf) [372, 87, 770, 0] .leaf) [373, 119, 770, 0] (.node .leaf [374, 89, 770, 0] .leaf))) [375, 121, 770, 0] (.node (.node (.node (.node .leaf [376, 89, 776, 0] .leaf) [377, 90, 769, 0] .leaf) [378, 122, 769, 0] (.node .leaf [379, 90, 775, 0] .leaf)) [380, 122, 775, 0] (.node (.node (.node .leaf [381, 90, 780, 0] .leaf) [382, 122, 780, 0] .leaf) [383, 115, 0] (.node .leaf [416, 79, 795, 0] .leaf)))))

/-- Rows of Data/Kdec.lean (proof aid). -/
def kdecT4 : Tree (List Nat) := (.node (.node (.node (.node (.node (.node .leaf [431, 85, 795, 0] .leaf) [432, 117, 795, 0] .leaf) [452, 68, 90, 780, 0] (.node (.node .leaf [453, 68, 122, 780, 0] .leaf) [454, 100, 122, 780, 0] .leaf)) [455, 76, 74, 0] (.node (.node (.node .leaf [456, 76, 106, 0] .leaf) [457, 108, 106, 0] .leaf) [458, 78, 74, 0] (.node .leaf [459, 78, 106, 0] .leaf))) [460, 110, 106, 0] (.node (.node (.node (.node .leaf [461, 65, 780, 0] .leaf) [462, 97, 780, 0] .leaf) [463, 73, 780, 0] (.node (.node .leaf [464, 105, 780, 0] .leaf) [465, 79, 780, 0] .leaf)) [466, 111, 780, 0] (.node (.node (.node .leaf [467, 85, 780, 0] .leaf) [468, 117, 780, 0] .leaf) [469, 85, 776, 772, 0] (.node .leaf [470, 117, 776, 772, 0] .leaf)))) [471, 85, 776, 769, 0] (.node (.node (.node (.node (.node .leaf [472, 117, 776, 769, 0] .leaf) [473, 85, 776, 780, 0] .leaf) [474, 117, 776, 780, 0] (.node (.node .leaf [475, 85, 776, 768, 0] .leaf) [476, 117, 776, 768, 0] .leaf)) [478, 65, 776, 772, 0] (.node (.node (.node .leaf [479, 97, 776, 772, 0] .leaf) [480, 65, 775, 772, 0] .leaf) [481, 97, 775, 772, 0] (.node .leaf [482, 198, 772, 0] .leaf))) [483, 230, 772, 0] (.node (.node (.node (.node .leaf [486, 71, 780, 0] .leaf) [487, 103, 780, 0] .leaf) [488, 75, 780, 0] (.node (.node .leaf [489, 107, 780, 0] .leaf) [490, 79, 808, 0] .leaf)) [491, 111, 808, 0] (.node (.node (.node .leaf [492, 79, 808, 772, 0] .leaf) [493, 111, 808, 772, 0] .leaf) [494, 439, 780, 0] (.node .leaf [495, 658, 780, 0] .leaf)))))

/-- Rows of Data/Kdec.lean (proof aid). -/
def kdecT5 : Tree (List Nat) := (.node (.node (.node (.node (.node (.node .leaf [497, 68, 90, 0] .leaf) [498, 68, 122, 0] .leaf) [499, 100, 122, 0] (.node (.node .leaf [500, 71, 769, 0] .leaf) [501, 103, 769, 0] .leaf)) [504, 78, 768, 0] (.node (.node (.node .leaf [505, 110, 768, 0] .leaf) [506, 65, 778, 769, 0] .leaf) [507, 97, 778, 769, 0] (.node .leaf [508, 198, 769, 0] .leaf))) [509, 230, 769, 0] (.node (.node (.node (.node .leaf [510, 216, 769, 0] .leaf) [511, 248, 769, 0] .leaf) [512, 65, 783, 0] (.node (.node .leaf [513, 97, 783, 0] .leaf) [514, 65, 785, 0] .leaf)) [515, 97, 785, 0] (.node (.node (.node .leaf [516, 69, 783, 0] .leaf) [517, 101, 783, 0] .leaf) [518, 69, 785, 0] (.node .leaf [519, 101, 785, 0] .leaf)))) [520, 73, 783, 0] (.node (.node (.node (.node (.node .leaf [521, 105, 783, 0] .leaf) [522, 73, 785, 0] .leaf) [523, 105, 785, 0] (.node (.node .leaf [524, 79, 783, 0] .leaf) [525, 111, 783, 0] .leaf)) [526, 79, 785, 0] (.node (.node (.node .leaf [527, 111, 785, 0] .leaf) [528, 82, 783, 0] .leaf) [529, 114, 783, 0] (.node .leaf [530, 82, 785, 0] .leaf))) [531, 114, 785, 0] (.node (.node (.node (.node .leaf [532, 85, 783, 0] .leaf) [533, 117, 783, 0] .leaf) [534, 85, 785, 0] (.node .leaf [535, 117, 785, 0] .leaf)) [536, 83, 806, 0] (.node (.node (.node .leaf [537, 115, 806, 0] .leaf) [538, 84, 806, 0] .leaf) [539, 116, 806, 0] (.node .leaf [542, 72, 780, 0] .leaf)))))

/-- Rows of Data/Kdec.lean (proof aid). -/
def kdecT6 : Tree (List Nat) := (.node (.node (.node (.node (.node (.node .leaf [550, 65, 775, 0] .leaf) [551, 97, 775, 0] .leaf) [552, 69, 807, 0] (.node (.node .leaf [553, 101, 807, 0] .leaf) [554, 79, 776, 772, 0] .leaf)) [555, 111, 776, 772, 0] (.node (.node (.node .leaf [556, 79, 771, 772, 0] .leaf) [557, 111, 771, 772, 0] .leaf) [558, 79, 775, 0] (.node .leaf [559, 111, 775, 0] .leaf))) [560, 79, 775, 772, 0] (.node (.node (.node (.node .leaf [561, 111, 775, 772, 0] .leaf) [562, 89, 772, 0] .leaf) [563, 121, 772, 0] (.node (.node .leaf [728, 32, 774, 0] .leaf) [729, 32, 775, 0] .leaf)) [730, 32, 778, 0] (.node (.node (.node .leaf [731, 32, 808, 0] .leaf) [732, 32, 771, 0] .leaf) [733, 32, 779, 0] (.node .leaf [832, 768, 0] .leaf)))) [833, 769, 0] (.node (.node (.node (.node (.node .leaf [835, 787, 0] .leaf) [836, 776, 769, 0] .leaf) [884, 697, 0] (.node (.node .leaf [890, 32, 837, 0] .leaf) [894, 59, 0] .leaf)) [900, 32, 769, 0] (.node (.node (.node .leaf [901, 32, 776, 769, 0] .leaf) [902, 913, 769, 0] .leaf) [903, 183, 0] (.node .leaf [904, 917, 769, 0] .leaf))) [905, 919, 769, 0] (.node (.node (.node (.node .leaf [906, 921, 769, 0] .leaf) [908, 927, 769, 0] .leaf) [910, 933, 769, 0] (.node (.node .leaf [911, 937, 769, 0] .leaf) [912, 953, 776, 769, 0] .leaf)) [938, 921, 776, 0] (.node (.node (.node .leaf [939, 933, 776, 0] .leaf) [940, 945, 769, 0] .leaf) [941, 949, 769, 0] (.node .leaf [942, 951, 769, 0] .leaf)))))

/-- Rows of Data/Kdec.lean (proof aid). -/
def kdecT7 : Tree (List Nat) := (.node (.node (.node (.node (.node (.node .leaf [944, 965, 776, 769, 0] .leaf) [970, 953, 776, 0] .leaf) [971, 965, 776, 0] (.node (.node .leaf [972, 959, 769, 0] .leaf) [973, 965, 769, 0] .leaf)) [974, 969, 769, 0] (.node (.node (.node .leaf [976, 946, 0] .leaf) [977, 952, 0] .leaf) [978, 933, 0] (.node .leaf [979, 933, 769, 0] .leaf))) [980, 933, 776, 0] (.node (.node (.node (.node .leaf [981, 966, 0] .leaf) [982, 960, 0] .leaf) [1008, 954, 0] (.node (.node .leaf [1009, 961, 0] .leaf) [1010, 962, 0] .leaf)) [1012, 920, 0] (.node (.node (.node .leaf [1013, 949, 0] .leaf) [1017, 931, 0] .leaf) [1024, 1045, 768, 0] (.node .leaf [1025, 1045, 776, 0] .leaf)))) [1027, 1043, 769, 0] (.node (.node (.node (.node (.node .leaf [1031, 1030, 776, 0] .leaf) [1036, 1050, 769, 0] .leaf) [1037, 1048, 768, 0] (.node (.node .leaf [1038, 1059, 774, 0] .leaf) [1049, 1048, 774, 0] .leaf)) [1081, 1080, 774, 0] (.node (.node (.node .leaf [1104, 1077, 768, 0] .leaf) [1105, 1077, 776, 0] .leaf) [1107, 1075, 769, 0] (.node .leaf [1111, 1110, 776, 0] .leaf))) [1116, 1082, 769, 0] (.node (.node (.node (.node .leaf [1117, 1080, 768, 0] .leaf) [1118, 1091, 774, 0] .leaf) [1142, 1140, 783, 0] (.node .leaf [1143, 1141, 783, 0] .leaf)) [1217, 1046, 774, 0] (.node (.node (.node .leaf [1218, 1078, 774, 0] .leaf) [1232, 1040, 774, 0] .leaf) [1233, 1072, 774, 0] (.node .leaf [1234, 1040, 776, 0] .leaf)))))

/-- Rows of Data/Kdec.lean (proof aid). -/
def kdecT8 : Tree (List Nat) := (.node (.node (.node (.node (.node (.node .leaf [1238, 1045, 774, 0] .leaf) [1239, 1077, 774, 0] .leaf) [1242, 1240, 776, 0] (.node (.node .leaf [1243, 1241, 776, 0] .leaf) [1244, 1046, 776, 0] .leaf)) [1245, 1078, 776, 0] (.node (.node (.node .leaf [1246, 1047, 776, 0] .leaf) [1247, 1079, 776, 0] .leaf) [1250, 1048, 772, 0] (.node .leaf [1251, 1080, 772, 0] .leaf))) [1252, 1048, 776, 0] (.node (.node (.node (.node .leaf [1253, 1080, 776, 0] .leaf) [1254, 1054, 776, 0] .leaf) [1255, 1086, 776, 0] (.node (.node .leaf [1258, 1256, 776, 0] .leaf) [1259, 1257, 776, 0] .leaf)) [1260, 1069, 776, 0] (.node (.node (.node .leaf [1261, 1101, 776, 0] .leaf) [1262, 1059, 772, 0] .leaf) [1263, 1091, 772, 0] (.node .leaf [1264, 1059, 776, 0] .leaf)))) [1265, 1091, 776, 0] (.node (.node (.node (.node (.node .leaf [1266, 1059, 779, 0] .leaf) [1267, 1091, 779, 0] .leaf) [1268, 1063, 776, 0] (.node (.node .leaf [1269, 1095, 776, 0] .leaf) [1272, 1067, 776, 0] .leaf)) [1273, 1099, 776, 0] (.node (.node (.node .leaf [1415, 1381, 1410, 0] .leaf) [1570, 1575, 1619, 0] .leaf) [1571, 1575, 1620, 0] (.node .leaf [1572, 1608, 1620, 0] .leaf))) [1573, 1575, 1621, 0] (.node (.node (.node (.node .leaf [1574, 1610, 1620, 0] .leaf) [1653, 1575, 1652, 0] .leaf) [1654, 1608, 1652, 0] (.node (.node .leaf [1655, 1735, 1652, 0] .leaf) [1656, 1610, 1652, 0] .leaf)) [1728, 1749, 1620, 0] (.node (.node (.node .leaf [1730, 1729, 1620, 0] .leaf) [1747, 1746, 1620, 0] .leaf) [2345, 2344, 2364, 0] (.node .leaf [2353, 2352, 2364, 0] .leaf)))))

/-- Rows of Data/Kdec.lean (proof aid). -/
def kdecT9 : Tree (List Nat) := (.node (.node (.node (.node (.node (.node .leaf [2392, 2325, 2364, 0] .leaf) [2393, 2326, 2364, 0] .leaf) [2394, 2327, 2364, 0] (.node (.node .leaf [2395, 2332, 2364, 0] .leaf) [2396, 2337, 2364, 0] .leaf)) [2397, 2338, 2364, 0] (.node (.node (.node .leaf [2398, 2347, 2364, 0] .leaf) [2399, 2351, 2364, 0] .leaf) [2507, 2503, 2494, 0] (.node .leaf [2508, 2503, 2519, 0] .leaf))) [2524, 2465, 2492, 0] (.node (.node (.node (.node .leaf [2525, 2466, 2492, 0] .leaf) [2527, 2479, 2492, 0] .leaf) [2611, 2610, 2620, 0] (.node (.node .leaf [2614, 2616, 2620, 0] .leaf) [2649, 2582, 2620, 0] .leaf)) [2650, 2583, 2620, 0] (.node (.node (.node .leaf [2651, 2588, 2620, 0] .leaf) [2654, 2603, 2620, 0] .leaf) [2888, 2887, 2902, 0] (.node .leaf [2891, 2887, 2878, 0] .leaf)))) [2892, 2887, 2903, 0] (.node (.node (.node (.node (.node .leaf [2908, 2849, 2876, 0] .leaf) [2909, 2850, 2876, 0] .leaf) [2964, 2962, 3031, 0] (.node (.node .leaf [3018, 3014, 3006, 0] .leaf) [3019, 3015, 3006, 0] .leaf)) [3020, 3014, 3031, 0] (.node (.node (.node .leaf [3144, 3142, 3158, 0] .leaf) [3264, 3263, 3285, 0] .leaf) [3271, 3270, 3285, 0] (.node .leaf [3272, 3270, 3286, 0] .leaf))) [3274, 3270, 3266, 0] (.node (.node (.node (.node .leaf [3275, 3270, 3266, 3285, 0] .leaf) [3402, 3398, 3390, 0] .leaf) [3403, 3399, 3390, 0] (.node .leaf [3404, 3398, 3415, 0] .leaf)) [3546, 3545, 3530, 0] (.node (.node (.node .leaf [3548, 3545, 3535, 0] .leaf) [3549, 3545, 3535, 3530, 0] .leaf) [3550, 3545, 3551, 0] (.node .leaf [3635, 3661, 3634, 0] .leaf)))))

/-- Rows of Data/Kdec.lean (proof aid). -/
def kdecT10 : Tree (List Nat) := (.node (.node (.node (.node (.node (.node .leaf [3804, 3755, 3737, 0] .leaf) [3805, 3755, 3745, 0] .leaf) [3907, 3906, 4023, 0] (.node (.node .leaf [3917, 3916, 4023, 0] .leaf) [3922, 3921, 4023, 0] .leaf)) [3927, 3926, 4023, 0] (.node (.node (.node .leaf [3932, 3931, 4023, 0] .leaf) [3945, 3904, 4021, 0] .leaf) [3955, 3953, 3954, 0] (.node .leaf [3957, 3953, 3956, 0] .leaf))) [3958, 4018, 3968, 0] (.node (.node (.node (.node .leaf [3959, 4018, 3953, 3968, 0] .leaf) [3960, 4019, 3968, 0] .leaf) [3961, 4019, 3953, 3968, 0] (.node (.node .leaf [3969, 3953, 3968, 0] .leaf) [3987, 3986, 4023, 0] .leaf)) [3997, 3996, 4023, 0] (.node (.node (.node .leaf [4002, 4001, 4023, 0] .leaf) [4007, 4006, 4023, 0] .leaf) [4012, 4011, 4023, 0] (.node .leaf [4025, 3984, 4021, 0] .leaf)))) [4134, 4133, 4142, 0] (.node (.node (.node (.node (.node .leaf [6918, 6917, 6965, 0] .leaf) [6920, 6919, 6965, 0] .leaf) [6922, 6921, 6965, 0] (.node (.node .leaf [6924, 6923, 6965, 0] .leaf) [6926, 6925, 6965, 0] .leaf)) [6930, 6929, 6965, 0] (.node (.node (.node .leaf [6971, 6970, 6965, 0] .leaf) [6973, 6972, 6965, 0] .leaf) [6976, 6974, 6965, 0] (.node .leaf [6977, 6975, 6965, 0] .leaf))) [6979, 6978, 6965, 0] (.node (.node (.node (.node .leaf [7680, 65, 805, 0] .leaf) [7681, 97, 805, 0] .leaf) [7682, 66, 775, 0] (.node (.node .leaf [7683, 98, 775, 0] .leaf) [7684, 66, 803, 0] .leaf)) [7685, 98, 803, 0] (.node (.node (.node .leaf [7686, 66, 817, 0] .leaf) [7687, 98, 817, 0] .leaf) [7688, 67, 807, 769, 0] (.node .leaf [7689, 99, 807, 769, 0] .leaf)))))

/-- Rows of Data/Kdec.lean (proof aid). -/
def kdecT11 : Tree (List Nat) := (.node (.node (.node (.node (.node (.node .leaf [7691, 100, 775, 0] .leaf) [7692, 68, 803, 0] .leaf) [7693, 100, 803, 0] (.node (.node .leaf [7694, 68, 817, 0] .leaf) [7695, 100, 817, 0] .leaf)) [7696, 68, 807, 0] (.node (.node (.node .leaf [7697, 100, 807, 0] .leaf) [7698, 68, 813, 0] .leaf) [7699, 100, 813, 0] (.node .leaf [7700, 69, 772, 768, 0] .leaf))) [7701, 101, 772, 768, 0] (.node (.node (.node (.node .leaf [7702, 69, 772, 769, 0] .leaf) [7703, 101, 772, 769, 0] .leaf) [7704, 69, 813, 0] (.node (.node .leaf [7705, 101, 813, 0] .leaf) [7706, 69, 816, 0] .leaf)) [7707, 101, 816, 0] (.node (.node (.node .leaf [7708, 69, 807, 774, 0] .leaf) [7709, 101, 807, 774, 0] .leaf) [7710, 70, 775, 0] (.node .leaf [7711, 102, 775, 0] .leaf)))) [7712, 71, 772, 0] (.node (.node (.node (.node (.node .leaf [7713, 103, 772, 0] .leaf) [7714, 72, 775, 0] .leaf) [7715, 104, 775, 0] (.node (.node .leaf [7716, 72, 803, 0] .leaf) [7717, 104, 803, 0] .leaf)) [7718, 72, 776, 0] (.node (.node (.node .leaf [7719, 104, 776, 0] .leaf) [7720, 72, 807, 0] .leaf) [7721, 104, 807, 0] (.node .leaf [7722, 72, 814, 0] .leaf))) [7723, 104, 814, 0] (.node (.node (.node (.node .leaf [7724, 73, 816, 0] .leaf) [7725, 105, 816, 0] .leaf) [7726, 73, 776, 769, 0] (.node .leaf [7727, 105, 776, 769, 0] .leaf)) [7728, 75, 769, 0] (.node (.node (.node .leaf [7729, 107, 769, 0] .leaf) [7730, 75, 803, 0] .leaf) [7731, 107, 803, 0] (.node .leaf [7732, 75, 817, 0] .leaf)))))

/-- Rows of Data/Kdec.lean (proof aid). -/
def kdecT12 : Tree (List Nat) := (.node (.node (.node (.node (.node (.node .leaf [7734, 76, 803, 0] .leaf) [7735, 108, 803, 0] .leaf) [7736, 76, 803, 772, 0] (.node (.node .leaf [7737, 108, 803, 772, 0] .leaf) [7738, 76, 817, 0] .leaf)) [7739, 108, 817, 0] (.node (.node (.node .leaf [7740, 76, 813, 0] .leaf) [7741, 108, 813, 0] .leaf) [7742, 77, 769, 0] (.node .leaf [7743, 109, 769, 0] .leaf))) [7744, 77, 775, 0] (.node (.node (.node (.node .leaf [7745, 109, 775, 0] .leaf) [7746, 77, 803, 0] .leaf) [7747, 109, 803, 0] (.node (.node .leaf [7748, 78, 775, 0] .leaf) [7749, 110, 775, 0] .leaf)) [7750, 78, 803, 0] (.node (.node (.node .leaf [7751, 110, 803, 0] .leaf) [7752, 78, 817, 0] .leaf) [7753, 110, 817, 0] (.node .leaf [7754, 78, 813, 0] .leaf)))) [7755, 110, 813, 0] (.node (.node (.node (.node (.node .leaf [7756, 79, 771, 769, 0] .leaf) [7757, 111, 771, 769, 0] .leaf) [7758, 79, 771, 776, 0] (.node (.node .leaf [7759, 111, 771, 776, 0] .leaf) [7760, 79, 772, 768, 0] .leaf)) [7761, 111, 772, 768, 0] (.node (.node (.node .leaf [7762, 79, 772, 769, 0] .leaf) [7763, 111, 772, 769, 0] .leaf) [7764, 80, 769, 0] (.node .leaf [7765, 112, 769, 0] .leaf))) [7766, 80, 775, 0] (.node (.node (.node (.node .leaf [7767, 112, 775, 0] .leaf) [7768, 82, 775, 0] .leaf) [7769, 114, 775, 0] (.node (.node .leaf [7770, 82, 803, 0] .leaf) [7771, 114, 803, 0] .leaf)) [7772, 82, 803, 772, 0] (.node (.node (.node .leaf [7773, 114, 803, 772, 0] .leaf) [7774, 82, 817, 0] .leaf) [7775, 114, 817, 0] (.node .leaf [7776, 83, 775, 0] .leaf)))))

/-- Rows of Data/Kdec.lean (proof aid). -/
def kdecT13 : Tree (List Nat) := (.node (.node (.node (.node (.node (.node .leaf [7778, 83, 803, 0] .leaf) [7779, 115, 803, 0] .leaf) [7780, 83, 769, 775, 0] (.node (.node .leaf [7781, 115, 769, 775, 0] .leaf) [7782, 83, 780, 775, 0] .leaf)) [7783, 115, 780, 775, 0] (.node (.node (.node .leaf [7784, 83, 803, 775, 0] .leaf) [7785, 115, 803, 775, 0] .leaf) [7786, 84, 775, 0] (.node .leaf [7787, 116, 775, 0] .leaf))) [7788, 84, 803, 0] (.node (.node (.node (.node .leaf [7789, 116, 803, 0] .leaf) [7790, 84, 817, 0] .leaf) [7791, 116, 817, 0] (.node (.node .leaf [7792, 84, 813, 0] .leaf) [7793, 116, 813, 0] .leaf)) [7794, 85, 804, 0] (.node (.node (.node .leaf [7795, 117, 804, 0] .leaf) [7796, 85, 816, 0] .leaf) [7797, 117, 816, 0] (.node .leaf [7798, 85, 813, 0] .leaf)))) [7799, 117, 813, 0] (.node (.node (.node (.node (.node .leaf [7800, 85, 771, 769, 0] .leaf) [7801, 117, 771, 769, 0] .leaf) [7802, 85, 772, 776, 0] (.node (.node .leaf [7803, 117, 772, 776, 0] .leaf) [7804, 86, 771, 0] .leaf)) [7805, 118, 771, 0] (.node (.node (.node .leaf [7806, 86, 803, 0] .leaf) [7807, 118, 803, 0] .leaf) [7808, 87, 768, 0] (.node .leaf [7809, 119, 768, 0] .leaf))) [7810, 87, 769, 0] (.node (.node (.node (.node .leaf [7811, 119, 769, 0] .leaf) [7812, 87, 776, 0] .leaf) [7813, 119, 776, 0] (.node .leaf [7814, 87, 775, 0] .leaf)) [7815, 119, 775, 0] (.node (.node (.node .leaf [7816, 87, 803, 0] .leaf) [7817, 119, 803, 0] .leaf) [7818, 88, 775, 0] (.node .leaf [7819, 120, 775, 0] .leaf)))))

/-- Rows of Data/Kdec.lean (proof aid). -/
def kdecT14 : Tree (List Nat) := (.node (.node (.node (.node (.node (.node .leaf [7821, 120, 776, 0] .leaf) [7822, 89, 775, 0] .leaf) [7823, 121, 775, 0] (.node (.node .leaf [7824, 90, 770, 0] .leaf) [7825, 122, 770, 0] .leaf)) [7826, 90, 803, 0] (.node (.node (.node .leaf [7827, 122, 803, 0] .leaf) [7828, 90, 817, 0] .leaf) [7829, 122, 817, 0] (.node .leaf [7830, 104, 817, 0] .leaf))) [7831, 116, 776, 0] (.node (.node (.node (.node .leaf [7832, 119, 778, 0] .leaf) [7833, 121, 778, 0] .leaf) [7834, 97, 702, 0] (.node (.node .leaf [7835, 115, 775, 0] .leaf) [7840, 65, 803, 0] .leaf)) [7841, 97, 803, 0] (.node (.node (.node .leaf [7842, 65, 777, 0] .leaf) [7843, 97, 777, 0] .leaf) [7844, 65, 770, 769, 0] (.node .leaf [7845, 97, 770, 769, 0] .leaf)))) [7846, 65, 770, 768, 0] (.node (.node (.node (.node (.node .leaf [7847, 97, 770, 768, 0] .leaf) [7848, 65, 770, 777, 0] .leaf) [7849, 97, 770, 777, 0] (.node (.node .leaf [7850, 65, 770, 771, 0] .leaf) [7851, 97, 770, 771, 0] .leaf)) [7852, 65, 803, 770, 0] (.node (.node (.node .leaf [7853, 97, 803, 770, 0] .leaf) [7854, 65, 774, 769, 0] .leaf) [7855, 97, 774, 769, 0] (.node .leaf [7856, 65, 774, 768, 0] .leaf))) [7857, 97, 774, 768, 0] (.node (.node (.node (.node .leaf [7858, 65, 774, 777, 0] .leaf) [7859, 97, 774, 777, 0] .leaf) [7860, 65, 774, 771, 0] (.node (.node .leaf [7861, 97, 774, 771, 0] .leaf) [7862, 65, 803, 774, 0] .leaf)) [7863, 97, 803, 774, 0] (.node (.node (.node .leaf [7864, 69, 803, 0] .leaf) [7865, 101, 803, 0] .leaf) [7866, 69, 777, 0] (.node .leaf [7867, 101, 777, 0] .leaf)))))

/-- Rows of Data/Kdec.lean (proof aid). -/
def kdecT15 : Tree (List Nat) := (.node (.node (.node (.node (.node (.node .leaf [7869, 101, 771, 0] .leaf) [7870, 69, 770, 769, 0] .leaf) [7871, 101, 770, 769, 0] (.node (.node .leaf [7872, 69, 770, 768, 0] .leaf) [7873, 101, 770, 768, 0] .leaf)) [7874, 69, 770, 777, 0] (.node (.node (.node .leaf [7875, 101, 770, 777, 0] .leaf) [7876, 69, 770, 771, 0] .leaf) [7877, 101, 770, 771, 0] (.node .leaf [7878, 69, 803, 770, 0] .leaf))) [7879, 101, 803, 770, 0] (.node (.node (.node (.node .leaf [7880, 73, 777, 0] .leaf) [7881, 105, 777, 0] .leaf) [7882, 73, 803, 0] (.node (.node .leaf [7883, 105, 803, 0] .leaf) [7884, 79, 803, 0] .leaf)) [7885, 111, 803, 0] (.node (.node (.node .leaf [7886, 79, 777, 0] .leaf) [7887, 111, 777, 0] .leaf) [7888, 79, 770, 769, 0] (.node .leaf [7889, 111, 770, 769, 0] .leaf)))) [7890, 79, 770, 768, 0] (.node (.node (.node (.node (.node .leaf [7891, 111, 770, 768, 0] .leaf) [7892, 79, 770, 777, 0] .leaf) [7893, 111, 770, 777, 0] (.node (.node .leaf [7894, 79, 770, 771, 0] .leaf) [7895, 111, 770, 771, 0] .leaf)) [7896, 79, 803, 770, 0] (.node (.node (.node .leaf [7897, 111, 803, 770, 0] .leaf) [7898, 79, 795, 769, 0] .leaf) [7899, 111, 795, 769, 0] (.node .leaf [7900, 79, 795, 768, 0] .leaf))) [7901, 111, 795, 768, 0] (.node (.node (.node (.node .leaf [7902, 79, 795, 777, 0] .leaf) [7903, 111, 795, 777, 0] .leaf) [7904, 79, 795, 771, 0] (.node .leaf [7905, 111, 795, 771, 0] .leaf)) [7906, 79, 795, 803, 0] (.node (.node (.node .leaf [7907, 111, 795, 803, 0] .leaf) [7908, 85, 803, 0] .leaf) [7909, 117, 803, 0] (.node .leaf [7910, 85, 777, 0] .leaf)))))

/-- Rows of Data/Kdec.lean (proof aid). -/
def kdecT16 : Tree (List Nat) := (.node (.node (.node (.node (.node (.node .leaf [7912, 85, 795, 769, 0] .leaf) [7913, 117, 795, 769, 0] .leaf) [7914, 85, 795, 768, 0] (.node (.node .leaf [7915, 117, 795, 768, 0] .leaf) [7916, 85, 795, 777, 0] .leaf)) [7917, 117, 795, 777, 0] (.node (.node (.node .leaf [7918, 85, 795, 771, 0] .leaf) [7919, 117, 795, 771, 0] .leaf) [7920, 85, 795, 803, 0] (.node .leaf [7921, 117, 795, 803, 0] .leaf))) [7922, 89, 768, 0] (.node (.node (.node (.node .leaf [7923, 121, 768, 0] .leaf) [7924, 89, 803, 0] .leaf) [7925, 121, 803, 0] (.node (.node .leaf [7926, 89, 777, 0] .leaf) [7927, 121, 777, 0] .leaf)) [7928, 89, 771, 0] (.node (.node (.node .leaf [7929, 121, 771, 0] .leaf) [7936, 945, 787, 0] .leaf) [7937, 945, 788, 0] (.node .leaf [7938, 945, 787, 768, 0] .leaf)))) [7939, 945, 788, 768, 0] (.node (.node (.node (.node (.node .leaf [7940, 945, 787, 769, 0] .leaf) [7941, 945, 788, 769, 0] .leaf) [7942, 945, 787, 834, 0] (.node (.node .leaf [7943, 945, 788, 834, 0] .leaf) [7944, 913, 787, 0] .leaf)) [7945, 913, 788, 0] (.node (.node (.node .leaf [7946, 913, 787, 768, 0] .leaf) [7947, 913, 788, 768, 0] .leaf) [7948, 913, 787, 769, 0] (.node .leaf [7949, 913, 788, 769, 0] .leaf))) [7950, 913, 787, 834, 0] (.node (.node (.node (.node .leaf [7951, 913, 788, 834, 0] .leaf) [7952, 949, 787, 0] .leaf) [7953, 949, 788, 0] (.node (.node .leaf [7954, 949, 787, 768, 0] .leaf) [7955, 949, 788, 768, 0] .leaf)) [7956, 949, 787, 769, 0] (.node (.node (.node .leaf [7957, 949, 788, 769, 0] .leaf) [7960, 917, 787, 0] .leaf) [7961, 917, 788, 0] (.node .leaf [7962, 917, 787, 768, 0] .leaf)))))

/-- Rows of Data/Kdec.lean (proof aid). -/
def kdecT17 : Tree (List Nat) := (.node (.node (.node (.node (.node (.node .leaf [7964, 917, 787, 769, 0] .leaf) [7965, 917, 788, 769, 0] .leaf) [7968, 951, 787, 0] (.node (.node .leaf [7969, 951, 788, 0] .leaf) [7970, 951, 787, 768, 0] .leaf)) [7971, 951, 788, 768, 0] (.node (.node (.node .leaf [7972, 951, 787, 769, 0] .leaf) [7973, 951, 788, 769, 0] .leaf) [7974, 951, 787, 834, 0] (.node .leaf [7975, 951, 788, 834, 0] .leaf))) [7976, 919, 787, 0] (.node (.node (.node (.node .leaf [7977, 919, 788, 0] .leaf) [7978, 919, 787, 768, 0] .leaf) [7979, 919, 788, 768, 0] (.node (.node .leaf [7980, 919, 787, 769, 0] .leaf) [7981, 919, 788, 769, 0] .leaf)) [7982, 919, 787, 834, 0] (.node (.node (.node .leaf [7983, 919, 788, 834, 0] .leaf) [7984, 953, 787, 0] .leaf) [7985, 953, 788, 0] (.node .leaf [7986, 953, 787, 768, 0] .leaf)))) [7987, 953, 788, 768, 0] (.node (.node (.node (.node (.node .leaf [7988, 953, 787, 769, 0] .leaf) [7989, 953, 788, 769, 0] .leaf) [7990, 953, 787, 834, 0] (.node (.node .leaf [7991, 953, 788, 834, 0] .leaf) [7992, 921, 787, 0] .leaf)) [7993, 921, 788, 0] (.node (.node (.node .leaf [7994, 921, 787, 768, 0] .leaf) [7995, 921, 788, 768, 0] .leaf) [7996, 921, 787, 769, 0] (.node .leaf [7997, 921, 788, 769, 0] .leaf))) [7998, 921, 787, 834, 0] (.node (.node (.node (.node .leaf [7999, 921, 788, 834, 0] .leaf) [8000, 959, 787, 0] .leaf) [8001, 959, 788, 0] (.node .leaf [8002, 959, 787, 768, 0] .leaf)) [8003, 959, 788, 768, 0] (.node (.node (.node .leaf [8004, 959, 787, 769, 0] .leaf) [8005, 959, 788, 769, 0] .leaf) [8008, 927, 787, 0] (.node .leaf [8009, 927, 788, 0] .leaf)))))

/-- Rows of Data/Kdec.lean (proof aid). -/
def kdecT18 : Tree (List Nat) := (.node (.node (.node (.node (.node (.node .leaf [8011, 927, 788, 768, 0] .leaf) [8012, 927, 787, 769, 0] .leaf) [8013, 927, 788, 769, 0] (.node (.node .leaf [8016, 965, 787, 0] .leaf) [8017, 965, 788, 0] .leaf)) [8018, 965, 787, 768, 0] (.node (.node (.node .leaf [8019, 965, 788, 768, 0] .leaf) [8020, 965, 787, 769, 0] .leaf) [8021, 965, 788, 769, 0] (.node .leaf [8022, 965, 787, 834, 0] .leaf))) [8023, 965, 788, 834, 0] (.node (.node (.node (.node .leaf [8025, 933, 788, 0] .leaf) [8027, 933, 788, 768, 0] .leaf) [8029, 933, 788, 769, 0] (.node (.node .leaf [8031, 933, 788, 834, 0] .leaf) [8032, 969, 787, 0] .leaf)) [8033, 969, 788, 0] (.node (.node (.node .leaf [8034, 969, 787, 768, 0] .leaf) [8035, 969, 788, 768, 0] .leaf) [8036, 969, 787, 769, 0] (.node .leaf [8037, 969, 788, 769, 0] .leaf)))) [8038, 969, 787, 834, 0] (.node (.node (.node (.node (.node .leaf [8039, 969, 788, 834, 0] .leaf) [8040, 937, 787, 0] .leaf) [8041, 937, 788, 0] (.node (.node .leaf [8042, 937, 787, 768, 0] .leaf) [8043, 937, 788, 768, 0] .leaf)) [8044, 937, 787, 769, 0] (.node (.node (.node .leaf [8045, 937, 788, 769, 0] .leaf) [8046, 937, 787, 834, 0] .leaf) [8047, 937, 788, 834, 0] (.node .leaf [8048, 945, 768, 0] .leaf))) [8049, 945, 769, 0] (.node (.node (.node (.node .leaf [8050, 949, 768, 0] .leaf) [8051, 949, 769, 0] .leaf) [8052, 951, 768, 0] (.node (.node .leaf [8053, 951, 769, 0] .leaf) [8054, 953, 768, 0] .leaf)) [8055, 953, 769, 0] (.node (.node (.node .leaf [8056, 959, 768, 0] .leaf) [8057, 959, 769, 0] .leaf) [8058, 965, 768, 0] (.node .leaf [8059, 965, 769, 0] .leaf)))))

/-- Rows of Data/Kdec.lean (proof aid). -/
def kdecT19 : Tree (List Nat) := (.node (.node (.node (.node (.node (.node .leaf [8061, 969, 769, 0] .leaf) [8064, 945, 787, 837, 0] .leaf) [8065, 945, 788, 837, 0] (.node (.node .leaf [8066, 945, 787, 768, 837, 0] .leaf) [8067, 945, 788, 768, 837, 0] .leaf)) [8068, 945, 787, 769, 837, 0] (.node (.node (.node .leaf [8069, 945, 788, 769, 837, 0] .leaf) [8070, 945, 787, 834, 837, 0] .leaf) [8071, 945, 788, 834, 837, 0] (.node .leaf [8072, 913, 787, 837, 0] .leaf))) [8073, 913, 788, 837, 0] (.node (.node (.node (.node .leaf [8074, 913, 787, 768, 837, 0] .leaf) [8075, 913, 788, 768, 837, 0] .leaf) [8076, 913, 787, 769, 837, 0] (.node (.node .leaf [8077, 913, 788, 769, 837, 0] .leaf) [8078, 913, 787, 834, 837, 0] .leaf)) [8079, 913, 788, 834, 837, 0] (.node (.node (.node .leaf [8080, 951, 787, 837, 0] .leaf) [8081, 951, 788, 837, 0] .leaf) [8082, 951, 787, 768, 837, 0] (.node .leaf [8083, 951, 788, 768, 837, 0] .leaf)))) [8084, 951, 787, 769, 837, 0] (.node (.node (.node (.node (.node .leaf [8085, 951, 788, 769, 837, 0] .leaf) [8086, 951, 787, 834, 837, 0] .leaf) [8087, 951, 788, 834, 837, 0] (.node (.node .leaf [8088, 919, 787, 837, 0] .leaf) [8089, 919, 788, 837, 0] .leaf)) [8090, 919, 787, 768, 837, 0] (.node (.node (.node .leaf [8091, 919, 788, 768, 837, 0] .leaf) [8092, 919, 787, 769, 837, 0] .leaf) [8093, 919, 788, 769, 837, 0] (.node .leaf [8094, 919, 787, 834, 837, 0] .leaf))) [8095, 919, 788, 834, 837, 0] (.node (.node (.node (.node .leaf [8096, 969, 787, 837, 0] .leaf) [8097, 969, 788, 837, 0] .leaf) [8098, 969, 787, 768, 837, 0] (.node .leaf [8099, 969, 788, 768, 837, 0] .leaf)) [8100, 969, 787, 769, 837, 0] (.node (.node (.node .leaf [8101, 969, 788, 769, 837, 0] .leaf) [8102, 969, 787, 834, 837, 0] .leaf) [8103, 969, 788, 834, 837, 0] (.node .leaf [8104, 937, 787, 837, 0] .leaf)))))

/-- Rows of Data/Kdec.lean (proof aid). -/
def kdecT20 : Tree (List Nat) := (.node (.node (.node (.node (.node (.node .leaf [8106, 937, 787, 768, 837, 0] .leaf) [8107, 937, 788, 768, 837, 0] .leaf) [8108, 937, 787, 769, 837, 0] (.node (.node .leaf [8109, 937, 788, 769, 837, 0] .leaf) [8110, 937, 787, 834, 837, 0] .leaf)) [8111, 937, 788, 834, 837, 0] (.node (.node (.node .leaf [8112, 945, 774, 0] .leaf) [8113, 945, 772, 0] .leaf) [8114, 945, 768, 837, 0] (.node .leaf [8115, 945, 837, 0] .leaf))) [8116, 945, 769, 837, 0] (.node (.node (.node (.node .leaf [8118, 945, 834, 0] .leaf) [8119, 945, 834, 837, 0] .leaf) [8120, 913, 774, 0] (.node (.node .leaf [8121, 913, 772, 0] .leaf) [8122, 913, 768, 0] .leaf)) [8123, 913, 769, 0] (.node (.node (.node .leaf [8124, 913, 837, 0] .leaf) [8125, 32, 787, 0] .leaf) [8126, 953, 0] (.node .leaf [8127, 32, 787, 0] .leaf)))) [8128, 32, 834, 0] (.node (.node (.node (.node (.node .leaf [8129, 32, 776, 834, 0] .leaf) [8130, 951, 768, 837, 0] .leaf) [8131, 951, 837, 0] (.node (.node .leaf [8132, 951, 769, 837, 0] .leaf) [8134, 951, 834, 0] .leaf)) [8135, 951, 834, 837, 0] (.node (.node (.node .leaf [8136, 917, 768, 0] .leaf) [8137, 917, 769, 0] .leaf) [8138, 919, 768, 0] (.node .leaf [8139, 919, 769, 0] .leaf))) [8140, 919, 837, 0] (.node (.node (.node (.node .leaf [8141, 32, 787, 768, 0] .leaf) [8142, 32, 787, 769, 0] .leaf) [8143, 32, 787, 834, 0] (.node (.node .leaf [8144, 953, 774, 0] .leaf) [8145, 953, 772, 0] .leaf)) [8146, 953, 776, 768, 0] (.node (.node (.node .leaf [8147, 953, 776, 769, 0] .leaf) [8150, 953, 834, 0] .leaf) [8151, 953, 776, 834, 0] (.node .leaf [8152, 921, 774, 0] .leaf)))))

/-- Rows of Data/Kdec.lean (proof aid). -/
def kdecT21 : Tree (List Nat) := (.node (.node (.node (.node (.node (.node .leaf [8154, 921, 768, 0] .leaf) [8155, 921, 769, 0] .leaf) [8157, 32, 788, 768, 0] (.node (.node .leaf [8158, 32, 788, 769, 0] .leaf) [8159, 32, 788, 834, 0] .leaf)) [8160, 965, 774, 0] (.node (.node (.node .leaf [8161, 965, 772, 0] .leaf) [8162, 965, 776, 768, 0] .leaf) [8163, 965, 776, 769, 0] (.node .leaf [8164, 961, 787, 0] .leaf))) [8165, 961, 788, 0] (.node (.node (.node (.node .leaf [8166, 965, 834, 0] .leaf) [8167, 965, 776, 834, 0] .leaf) [8168, 933, 774, 0] (.node (.node .leaf [8169, 933, 772, 0] .leaf) [8170, 933, 768, 0] .leaf)) [8171, 933, 769, 0] (.node (.node (.node .leaf [8172, 929, 788, 0] .leaf) [8173, 32, 776, 768, 0] .leaf) [8174, 32, 776, 769, 0] (.node .leaf [8175, 96, 0] .leaf)))) [8178, 969, 768, 837, 0] (.node (.node (.node (.node (.node .leaf [8179, 969, 837, 0] .leaf) [8180, 969, 769, 837, 0] .leaf) [8182, 969, 834, 0] (.node (.node .leaf [8183, 969, 834, 837, 0] .leaf) [8184, 927, 768, 0] .leaf)) [8185, 927, 769, 0] (.node (.node (.node .leaf [8186, 937, 768, 0] .leaf) [8187, 937, 769, 0] .leaf) [8188, 937, 837, 0] (.node .leaf [8189, 32, 769, 0] .leaf))) [8190, 32, 788, 0] (.node (.node (.node (.node .leaf [8192, 32, 0] .leaf) [8193, 32, 0] .leaf) [8194, 32, 0] (.node .leaf [8195, 32, 0] .leaf)) [8196, 32, 0] (.node (.node (.node .leaf [8197, 32, 0] .leaf) [8198, 32, 0] .leaf) [8200, 32, 0] (.node .leaf [8201, 32, 0] .leaf)))))

/-- Rows of Data/Kdec.lean (proof aid). -/
def kdecT22 : Tree (List Nat) := (.node (.node (.node (.node (.node (.node .leaf [8215, 32, 819, 0] .leaf) [8228, 46, 0] .leaf) [8229, 46, 46, 0] (.node (.node .leaf [8230, 46, 46, 46, 0] .leaf) [8243, 8242, 8242, 0] .leaf)) [8244, 8242, 8242, 8242, 0] (.node (.node (.node .leaf [8246, 8245, 8245, 0] .leaf) [8247, 8245, 8245, 8245, 0] .leaf) [8252, 33, 33, 0] (.node .leaf [8254, 32, 773, 0] .leaf))) [8263, 63, 63, 0] (.node (.node (.node (.node .leaf [8264, 63, 33, 0] .leaf) [8265, 33, 63, 0] .leaf) [8279, 8242, 8242, 8242, 8242, 0] (.node (.node .leaf [8287, 32, 0] .leaf) [8360, 82, 115, 0] .leaf)) [8448, 97, 47, 99, 0] (.node (.node (.node .leaf [8449, 97, 47, 115, 0] .leaf) [8451, 176, 67, 0] .leaf) [8453, 99, 47, 111, 0] (.node .leaf [8454, 99, 47, 117, 0] .leaf)))) [8455, 400, 0] (.node (.node (.node (.node (.node .leaf [8457, 176, 70, 0] .leaf) [8470, 78, 111, 0] .leaf) [8481, 84, 69, 76, 0] (.node (.node .leaf [8486, 937, 0] .leaf) [8490, 75, 0] .leaf)) [8491, 65, 778, 0] (.node (.node (.node .leaf [8501, 1488, 0] .leaf) [8502, 1489, 0] .leaf) [8503, 1490, 0] (.node .leaf [8504, 1491, 0] .leaf))) [8507, 70, 65, 88, 0] (.node (.node (.node (.node .leaf [8544, 73, 0] .leaf) [8545, 73, 73, 0] .leaf) [8546, 73, 73, 73, 0] (.node (.node .leaf [8547, 73, 86, 0] .leaf) [8548, 86, 0] .leaf)) [8549, 86, 73, 0] (.node (.node (.node .leaf [8550, 86, 73, 73, 0] .leaf) [8551, 86, 73, 73, 73, 0] .leaf) [8552, 73, 88, 0] (.node .leaf [8553, 88, 0] .leaf)))))

/-- Rows of Data/Kdec.lean (proof aid). -/
def kdecT23 : Tree (List Nat) := (.node (.node (.node (.node (.node (.node .leaf [8555, 88, 73, 73, 0] .leaf) [8556, 76, 0] .leaf) [8557, 67, 0] (.node (.node .leaf [8558, 68, 0] .leaf) [8559, 77, 0] .leaf)) [8560, 105, 0] (.node (.node (.node .leaf [8561, 105, 105, 0] .leaf) [8562, 105, 105, 105, 0] .leaf) [8563, 105, 118, 0] (.node .leaf [8564, 118, 0] .leaf))) [8565, 118, 105, 0] (.node (.node (.node (.node .leaf [8566, 118, 105, 105, 0] .leaf) [8567, 118, 105, 105, 105, 0] .leaf) [8568, 105, 120, 0] (.node (.node .leaf [8569, 120, 0] .leaf) [8570, 120, 105, 0] .leaf)) [8571, 120, 105, 105, 0] (.node (.node (.node .leaf [8572, 108, 0] .leaf) [8573, 99, 0] .leaf) [8574, 100, 0] (.node .leaf [8575, 109, 0] .leaf)))) [8602, 8592, 824, 0] (.node (.node (.node (.node (.node .leaf [8603, 8594, 824, 0] .leaf) [8622, 8596, 824, 0] .leaf) [8653, 8656, 824, 0] (.node (.node .leaf [8654, 8660, 824, 0] .leaf) [8655, 8658, 824, 0] .leaf)) [8708, 8707, 824, 0] (.node (.node (.node .leaf [8713, 8712, 824, 0] .leaf) [8716, 8715, 824, 0] .leaf) [8740, 8739, 824, 0] (.node .leaf [8742, 8741, 824, 0] .leaf))) [8748, 8747, 8747, 0] (.node (.node (.node (.node .leaf [8749, 8747, 8747, 8747, 0] .leaf) [8751, 8750, 8750, 0] .leaf) [8752, 8750, 8750, 8750, 0] (.node .leaf [8769, 8764, 824, 0] .leaf)) [8772, 8771, 824, 0] (.node (.node (.node .leaf [8775, 8773, 824, 0] .leaf) [8777, 8776, 824, 0] .leaf) [8800, 61, 824, 0] (.node .leaf [8802, 8801, 824, 0] .leaf)))))

/-- Rows of Data/Kdec.lean (proof aid). -/
def kdecT24 : Tree (List Nat) := (.node (.node (.node (.node (.node (.node .leaf [8814, 60, 824, 0] .leaf) [8815, 62, 824, 0] .leaf) [8816, 8804, 824, 0] (.node (.node .leaf [8817, 8805, 824, 0] .leaf) [8820, 8818, 824, 0] .leaf)) [8821, 8819, 824, 0] (.node (.node (.node .leaf [8824, 8822, 824, 0] .leaf) [8825, 8823, 824, 0] .leaf) [8832, 8826, 824, 0] (.node .leaf [8833, 8827, 824, 0] .leaf))) [8836, 8834, 824, 0] (.node (.node (.node (.node .leaf [8837, 8835, 824, 0] .leaf) [8840, 8838, 824, 0] .leaf) [8841, 8839, 824, 0] (.node (.node .leaf [8876, 8866, 824, 0] .leaf) [8877, 8872, 824, 0] .leaf)) [8878, 8873, 824, 0] (.node (.node (.node .leaf [8879, 8875, 824, 0] .leaf) [8928, 8828, 824, 0] .leaf) [8929, 8829, 824, 0] (.node .leaf [8930, 8849, 824, 0] .leaf)))) [8931, 8850, 824, 0] (.node (.node (.node (.node (.node .leaf [8938, 8882, 824, 0] .leaf) [8939, 8883, 824, 0] .leaf) [8940, 8884, 824, 0] (.node (.node .leaf [8941, 8885, 824, 0] .leaf) [9001, 12296, 0] .leaf)) [9002, 12297, 0] (.node (.node (.node .leaf [9332, 40, 49, 41, 0] .leaf) [9333, 40, 50, 41, 0] .leaf) [9334, 40, 51, 41, 0] (.node .leaf [9335, 40, 52, 41, 0] .leaf))) [9336, 40, 53, 41, 0] (.node (.node (.node (.node .leaf [9337, 40, 54, 41, 0] .leaf) [9338, 40, 55, 41, 0] .leaf) [9339, 40, 56, 41, 0] (.node (.node .leaf [9340, 40, 57, 41, 0] .leaf) [9341, 40, 49, 48, 41, 0] .leaf)) [9342, 40, 49, 49, 41, 0] (.node (.node (.node .leaf [9343, 40, 49, 50, 41, 0] .leaf) [9344, 40, 49, 51, 41, 0] .leaf) [9345, 40, 49, 52, 41, 0] (.node .leaf [9346, 40, 49, 53, 41, 0] .leaf)))))

/-- Rows of Data/Kdec.lean (proof aid). -/
def kdecT25 : Tree (List Nat) := (.node (.node (.node (.node (.node (.node .leaf [9348, 40, 49, 55, 41, 0] .leaf) [9349, 40, 49, 56, 41, 0] .leaf) [9350, 40, 49, 57, 41, 0] (.node (.node .leaf [9351, 40, 50, 48, 41, 0] .leaf) [9352, 49, 46, 0] .leaf)) [9353, 50, 46, 0] (.node (.node (.node .leaf [9354, 51, 46, 0] .leaf) [9355, 52, 46, 0] .leaf) [9356, 53, 46, 0] (.node .leaf [9357, 54, 46, 0] .leaf))) [9358, 55, 46, 0] (.node (.node (.node (.node .leaf [9359, 56, 46, 0] .leaf) [9360, 57, 46, 0] .leaf) [9361, 49, 48, 46, 0] (.node (.node .leaf [9362, 49, 49, 46, 0] .leaf) [9363, 49, 50, 46, 0] .leaf)) [9364, 49, 51, 46, 0] (.node (.node (.node .leaf [9365, 49, 52, 46, 0] .leaf) [9366, 49, 53, 46, 0] .leaf) [9367, 49, 54, 46, 0] (.node .leaf [9368, 49, 55, 46, 0] .leaf)))) [9369, 49, 56, 46, 0] (.node (.node (.node (.node (.node .leaf [9370, 49, 57, 46, 0] .leaf) [9371, 50, 48, 46, 0] .leaf) [9372, 40, 97, 41, 0] (.node (.node .leaf [9373, 40, 98, 41, 0] .leaf) [9374, 40, 99, 41, 0] .leaf)) [9375, 40, 100, 41, 0] (.node (.node (.node .leaf [9376, 40, 101, 41, 0] .leaf) [9377, 40, 102, 41, 0] .leaf) [9378, 40, 103, 41, 0] (.node .leaf [9379, 40, 104, 41, 0] .leaf))) [9380, 40, 105, 41, 0] (.node (.node (.node (.node .leaf [9381, 40, 106, 41, 0] .leaf) [9382, 40, 107, 41, 0] .leaf) [9383, 40, 108, 41, 0] (.node .leaf [9384, 40, 109, 41, 0] .leaf)) [9385, 40, 110, 41, 0] (.node (.node (.node .leaf [9386, 40, 111, 41, 0] .leaf) [9387, 40, 112, 41, 0] .leaf) [9388, 40, 113, 41, 0] (.node .leaf [9389, 40, 114, 41, 0] .leaf)))))

/-- Rows of Data/Kdec.lean (proof aid). -/
def kdecT26 : Tree (List Nat) := (.node (.node (.node (.node (.node (.node .leaf [9391, 40, 116, 41, 0] .leaf) [9392, 40, 117, 41, 0] .leaf) [9393, 40, 118, 41, 0] (.node (.node .leaf [9394, 40, 119, 41, 0] .leaf) [9395, 40, 120, 41, 0] .leaf)) [9396, 40, 121, 41, 0] (.node (.node (.node .leaf [9397, 40, 122, 41, 0] .leaf) [10764, 8747, 8747, 8747, 8747, 0] .leaf) [10868, 58, 58, 61, 0] (.node .leaf [10869, 61, 61, 0] .leaf))) [10870, 61, 61, 61, 0] (.node (.node (.node (.node .leaf [10972, 10973, 824, 0] .leaf) [11935, 27597, 0] .leaf) [12019, 40863, 0] (.node (.node .leaf [12032, 19968, 0] .leaf) [12033, 20008, 0] .leaf)) [12034, 20022, 0] (.node (.node (.node .leaf [12035, 20031, 0] .leaf) [12036, 20057, 0] .leaf) [12037, 20101, 0] (.node .leaf [12038, 20108, 0] .leaf)))) [12039, 20128, 0] (.node (.node (.node (.node (.node .leaf [12040, 20154, 0] .leaf) [12041, 20799, 0] .leaf) [12042, 20837, 0] (.node (.node .leaf [12043, 20843, 0] .leaf) [12044, 20866, 0] .leaf)) [12045, 20886, 0] (.node (.node (.node .leaf [12046, 20907, 0] .leaf) [12047, 20960, 0] .leaf) [12048, 20981, 0] (.node .leaf [12049, 20992, 0] .leaf))) [12050, 21147, 0] (.node (.node (.node (.node .leaf [12051, 21241, 0] .leaf) [12052, 21269, 0] .leaf) [12053, 21274, 0] (.node (.node .leaf [12054, 21304, 0] .leaf) [12055, 21313, 0] .leaf)) [12056, 21340, 0] (.node (.node (.node .leaf [12057, 21353, 0] .leaf) [12058, 21378, 0] .leaf) [12059, 21430, 0] (.node .leaf [12060, 21448, 0] .leaf)))))

/-- Rows of Data/Kdec.lean (proof aid). -/
def kdecT27 : Tree (List Nat) := (.node (.node (.node (.node (.node (.node .leaf [12062, 22231, 0] .leaf) [12063, 22303, 0] .leaf) [12064, 22763, 0] (.node (.node .leaf [12065, 22786, 0] .leaf) [12066, 22794, 0] .leaf)) [12067, 22805, 0] (.node (.node (.node .leaf [12068, 22823, 0] .leaf) [12069, 22899, 0] .leaf) [12070, 23376, 0] (.node .leaf [12071, 23424, 0] .leaf))) [12072, 23544, 0] (.node (.node (.node (.node .leaf [12073, 23567, 0] .leaf) [12074, 23586, 0] .leaf) [12075, 23608, 0] (.node (.node .leaf [12076, 23662, 0] .leaf) [12077, 23665, 0] .leaf)) [12078, 24027, 0] (.node (.node (.node .leaf [12079, 24037, 0] .leaf) [12080, 24049, 0] .leaf) [12081, 24062, 0] (.node .leaf [12082, 24178, 0] .leaf)))) [12083, 24186, 0] (.node (.node (.node (.node (.node .leaf [12084, 24191, 0] .leaf) [12085, 24308, 0] .leaf) [12086, 24318, 0] (.node (.node .leaf [12087, 24331, 0] .leaf) [12088, 24339, 0] .leaf)) [12089, 24400, 0] (.node (.node (.node .leaf [12090, 24417, 0] .leaf) [12091, 24435, 0] .leaf) [12092, 24515, 0] (.node .leaf [12093, 25096, 0] .leaf))) [12094, 25142, 0] (.node (.node (.node (.node .leaf [12095, 25163, 0] .leaf) [12096, 25903, 0] .leaf) [12097, 25908, 0] (.node .leaf [12098, 25991, 0] .leaf)) [12099, 26007, 0] (.node (.node (.node .leaf [12100, 26020, 0] .leaf) [12101, 26041, 0] .leaf) [12102, 26080, 0] (.node .leaf [12103, 26085, 0] .leaf)))))

/-- Rows of Data/Kdec.lean (proof aid). -/
def kdecT28 : Tree (List Nat) := (.node (.node (.node (.node (.node (.node .leaf [12105, 26376, 0] .leaf) [12106, 26408, 0] .leaf) [12107, 27424, 0] (.node (.node .leaf [12108, 27490, 0] .leaf) [12109, 27513, 0] .leaf)) [12110, 27571, 0] (.node (.node (.node .leaf [12111, 27595, 0] .leaf) [12112, 27604, 0] .leaf) [12113, 27611, 0] (.node .leaf [12114, 27663, 0] .leaf))) [12115, 27668, 0] (.node (.node (.node (.node .leaf [12116, 27700, 0] .leaf) [12117, 28779, 0] .leaf) [12118, 29226, 0] (.node (.node .leaf [12119, 29238, 0] .leaf) [12120, 29243, 0] .leaf)) [12121, 29247, 0] (.node (.node (.node .leaf [12122, 29255, 0] .leaf) [12123, 29273, 0] .leaf) [12124, 29275, 0] (.node .leaf [12125, 29356, 0] .leaf)))) [12126, 29572, 0] (.node (.node (.node (.node (.node .leaf [12127, 29577, 0] .leaf) [12128, 29916, 0] .leaf) [12129, 29926, 0] (.node (.node .leaf [12130, 29976, 0] .leaf) [12131, 29983, 0] .leaf)) [12132, 29992, 0] (.node (.node (.node .leaf [12133, 30000, 0] .leaf) [12134, 30091, 0] .leaf) [12135, 30098, 0] (.node .leaf [12136, 30326, 0] .leaf))) [12137, 30333, 0] (.node (.node (.node (.node .leaf [12138, 30382, 0] .leaf) [12139, 30399, 0] .leaf) [12140, 30446, 0] (.node (.node .leaf [12141, 30683, 0] .leaf) [12142, 30690, 0] .leaf)) [12143, 30707, 0] (.node (.node (.node .leaf [12144, 31034, 0] .leaf) [12145, 31160, 0] .leaf) [12146, 31166, 0] (.node .leaf [12147, 31348, 0] .leaf)))))

/-- Rows of Data/Kdec.lean (proof aid). -/
def kdecT29 : Tree (List Nat) := (.node (.node (.node (.node (.node (.node .leaf [12149, 31481, 0] .leaf) [12150, 31859, 0] .leaf) [12151, 31992, 0] (.node (.node .leaf [12152, 32566, 0] .leaf) [12153, 32593, 0] .leaf)) [12154, 32650, 0] (.node (.node (.node .leaf [12155, 32701, 0] .leaf) [12156, 32769, 0] .leaf) [12157, 32780, 0] (.node .leaf [12158, 32786, 0] .leaf))) [12159, 32819, 0] (.node (.node (.node (.node .leaf [12160, 32895, 0] .leaf) [12161, 32905, 0] .leaf) [12162, 33251, 0] (.node (.node .leaf [12163, 33258, 0] .leaf) [12164, 33267, 0] .leaf)) [12165, 33276, 0] (.node (.node (.node .leaf [12166, 33292, 0] .leaf) [12167, 33307, 0] .leaf) [12168, 33311, 0] (.node .leaf [12169, 33390, 0] .leaf)))) [12170, 33394, 0] (.node (.node (.node (.node (.node .leaf [12171, 33400, 0] .leaf) [12172, 34381, 0] .leaf) [12173, 34411, 0] (.node (.node .leaf [12174, 34880, 0] .leaf) [12175, 34892, 0] .leaf)) [12176, 34915, 0] (.node (.node (.node .leaf [12177, 35198, 0] .leaf) [12178, 35211, 0] .leaf) [12179, 35282, 0] (.node .leaf [12180, 35328, 0] .leaf))) [12181, 35895, 0] (.node (.node (.node (.node .leaf [12182, 35910, 0] .leaf) [12183, 35925, 0] .leaf) [12184, 35960, 0] (.node .leaf [12185, 35997, 0] .leaf)) [12186, 36196, 0] (.node (.node (.node .leaf [12187, 36208, 0] .leaf) [12188, 36275, 0] .leaf) [12189, 36523, 0] (.node .leaf [12190, 36554, 0] .leaf)))))

/-- Rows of Data/Kdec.lean (proof aid). -/
def kdecT30 : Tree (List Nat) := (.node (.node (.node (.node (.node (.node .leaf [12192, 36784, 0] .leaf) [12193, 36789, 0] .leaf) [12194, 37009, 0] (.node (.node .leaf [12195, 37193, 0] .leaf) [12196, 37318, 0] .leaf)) [12197, 37324, 0] (.node (.node (.node .leaf [12198, 37329, 0] .leaf) [12199, 38263, 0] .leaf) [12200, 38272, 0] (.node .leaf [12201, 38428, 0] .leaf))) [12202, 38582, 0] (.node (.node (.node (.node .leaf [12203, 38585, 0] .leaf) [12204, 38632, 0] .leaf) [12205, 38737, 0] (.node (.node .leaf [12206, 38750, 0] .leaf) [12207, 38754, 0] .leaf)) [12208, 38761, 0] (.node (.node (.node .leaf [12209, 38859, 0] .leaf) [12210, 38893, 0] .leaf) [12211, 38899, 0] (.node .leaf [12212, 38913, 0] .leaf)))) [12213, 39080, 0] (.node (.node (.node (.node (.node .leaf [12214, 39131, 0] .leaf) [12215, 39135, 0] .leaf) [12216, 39318, 0] (.node (.node .leaf [12217, 39321, 0] .leaf) [12218, 39340, 0] .leaf)) [12219, 39592, 0] (.node (.node (.node .leaf [12220, 39640, 0] .leaf) [12221, 39647, 0] .leaf) [12222, 39717, 0] (.node .leaf [12223, 39727, 0] .leaf))) [12224, 39730, 0] (.node (.node (.node (.node .leaf [12225, 39740, 0] .leaf) [12226, 39770, 0] .leaf) [12227, 40165, 0] (.node .leaf [12228, 40565, 0] .leaf)) [12229, 40575, 0] (.node (.node (.node .leaf [12230, 40613, 0] .leaf) [12231, 40635, 0] .leaf) [12232, 40643, 0] (.node .leaf [12233, 40653, 0] .leaf)))))

/-- Rows of Data/Kdec.lean (proof aid). -/
def kdecT31 : Tree (List Nat) := (.node (.node (.node (.node (.node (.node .leaf [12235, 40697, 0] .leaf) [12236, 40701, 0] .leaf) [12237, 40718, 0] (.node (.node .leaf [12238, 40723, 0] .leaf) [12239, 40736, 0] .leaf)) [12240, 40763, 0] (.node (.node (.node .leaf [12241, 40778, 0] .leaf) [12242, 40786, 0] .leaf) [12243, 40845, 0] (.node .leaf [12244, 40860, 0] .leaf))) [12245, 40864, 0] (.node (.node (.node (.node .leaf [12342, 12306, 0] .leaf) [12344, 21313, 0] .leaf) [12345, 21316, 0] (.node (.node .leaf [12346, 21317, 0] .leaf) [12364, 12363, 12441, 0] .leaf)) [12366, 12365, 12441, 0] (.node (.node (.node .leaf [12368, 12367, 12441, 0] .leaf) [12370, 12369, 12441, 0] .leaf) [12372, 12371, 12441, 0] (.node .leaf [12374, 12373, 12441, 0] .leaf)))) [12376, 12375, 12441, 0] (.node (.node (.node (.node (.node .leaf [12378, 12377, 12441, 0] .leaf) [12380, 12379, 12441, 0] .leaf) [12382, 12381, 12441, 0] (.node (.node .leaf [12384, 12383, 12441, 0] .leaf) [12386, 12385, 12441, 0] .leaf)) [12389, 12388, 12441, 0] (.node (.node (.node .leaf [12391, 12390, 12441, 0] .leaf) [12393, 12392, 12441, 0] .leaf) [12400, 12399, 12441, 0] (.node .leaf [12401, 12399, 12442, 0] .leaf))) [12403, 12402, 12441, 0] (.node (.node (.node (.node .leaf [12404, 12402, 12442, 0] .leaf) [12406, 12405, 12441, 0] .leaf) [12407, 12405, 12442, 0] (.node .leaf [12409, 12408, 12441, 0] .leaf)) [12410, 12408, 12442, 0] (.node (.node (.node .leaf [12412, 12411, 12441, 0] .leaf) [12413, 12411, 12442, 0] .leaf) [12436, 12358, 12441, 0] (.node .leaf [12443, 32, 12441, 0] .leaf)))))

/-- Rows of Data/Kdec.lean (proof aid). -/
def kdecT32 : Tree (List Nat) := (.node (.node (.node (.node (.node (.node .leaf [12446, 12445, 12441, 0] .leaf) [12460, 12459, 12441, 0] .leaf) [12462, 12461, 12441, 0] (.node (.node .leaf [12464, 12463, 12441, 0] .leaf) [12466, 12465, 12441, 0] .leaf)) [12468, 12467, 12441, 0] (.node (.node (.node .leaf [12470, 12469, 12441, 0] .leaf) [12472, 12471, 12441, 0] .leaf) [12474, 12473, 12441, 0] (.node .leaf [12476, 12475, 12441, 0] .leaf))) [12478, 12477, 12441, 0] (.node (.node (.node (.node .leaf [12480, 12479, 12441, 0] .leaf) [12482, 12481, 12441, 0] .leaf) [12485, 12484, 12441, 0] (.node (.node .leaf [12487, 12486, 12441, 0] .leaf) [12489, 12488, 12441, 0] .leaf)) [12496, 12495, 12441, 0] (.node (.node (.node .leaf [12497, 12495, 12442, 0] .leaf) [12499, 12498, 12441, 0] .leaf) [12500, 12498, 12442, 0] (.node .leaf [12502, 12501, 12441, 0] .leaf)))) [12503, 12501, 12442, 0] (.node (.node (.node (.node (.node .leaf [12505, 12504, 12441, 0] .leaf) [12506, 12504, 12442, 0] .leaf) [12508, 12507, 12441, 0] (.node (.node .leaf [12509, 12507, 12442, 0] .leaf) [12532, 12454, 12441, 0] .leaf)) [12535, 12527, 12441, 0] (.node (.node (.node .leaf [12536, 12528, 12441, 0] .leaf) [12537, 12529, 12441, 0] .leaf) [12538, 12530, 12441, 0] (.node .leaf [12542, 12541, 12441, 0] .leaf))) [12593, 4352, 0] (.node (.node (.node (.node .leaf [12594, 4353, 0] .leaf) [12595, 4522, 0] .leaf) [12596, 4354, 0] (.node (.node .leaf [12597, 4524, 0] .leaf) [12598, 4525, 0] .leaf)) [12599, 4355, 0] (.node (.node (.node .leaf [12600, 4356, 0] .leaf) [12601, 4357, 0] .leaf) [12602, 4528, 0] (.node .leaf [12603, 4529, 0] .leaf)))))

/-- Rows of Data/Kdec.lean (proof aid). -/
def kdecT33 : Tree (List Nat) := (.node (.node (.node (.node (.node (.node .leaf [12605, 4531, 0] .leaf) [12606, 4532, 0] .leaf) [12607, 4533, 0] (.node (.node .leaf [12608, 4378, 0] .leaf) [12609, 4358, 0] .leaf)) [12610, 4359, 0] (.node (.node (.node .leaf [12611, 4360, 0] .leaf) [12612, 4385, 0] .leaf) [12613, 4361, 0] (.node .leaf [12614, 4362, 0] .leaf))) [12615, 4363, 0] (.node (.node (.node (.node .leaf [12616, 4364, 0] .leaf) [12617, 4365, 0] .leaf) [12618, 4366, 0] (.node (.node .leaf [12619, 4367, 0] .leaf) [12620, 4368, 0] .leaf)) [12621, 4369, 0] (.node (.node (.node .leaf [12622, 4370, 0] .leaf) [12623, 4449, 0] .leaf) [12624, 4450, 0] (.node .leaf [12625, 4451, 0] .leaf)))) [12626, 4452, 0] (.node (.node (.node (.node (.node .leaf [12627, 4453, 0] .leaf) [12628, 4454, 0] .leaf) [12629, 4455, 0] (.node (.node .leaf [12630, 4456, 0] .leaf) [12631, 4457, 0] .leaf)) [12632, 4458, 0] (.node (.node (.node .leaf [12633, 4459, 0] .leaf) [12634, 4460, 0] .leaf) [12635, 4461, 0] (.node .leaf [12636, 4462, 0] .leaf))) [12637, 4463, 0] (.node (.node (.node (.node .leaf [12638, 4464, 0] .leaf) [12639, 4465, 0] .leaf) [12640, 4466, 0] (.node .leaf [12641, 4467, 0] .leaf)) [12642, 4468, 0] (.node (.node (.node .leaf [12643, 4469, 0] .leaf) [12644, 4448, 0] .leaf) [12645, 4372, 0] (.node .leaf [12646, 4373, 0] .leaf)))))

/-- Rows of Data/Kdec.lean (proof aid). -/
def kdecT34 : Tree (List Nat) := (.node (.node (.node (.node (.node (.node .leaf [12648, 4552, 0] .leaf) [12649, 4556, 0] .leaf) [12650, 4558, 0] (.node (.node .leaf [12651, 4563, 0] .leaf) [12652, 4567, 0] .leaf)) [12653, 4569, 0] (.node (.node (.node .leaf [12654, 4380, 0] .leaf) [12655, 4573, 0] .leaf) [12656, 4575, 0] (.node .leaf [12657, 4381, 0] .leaf))) [12658, 4382, 0] (.node (.node (.node (.node .leaf [12659, 4384, 0] .leaf) [12660, 4386, 0] .leaf) [12661, 4387, 0] (.node (.node .leaf [12662, 4391, 0] .leaf) [12663, 4393, 0] .leaf)) [12664, 4395, 0] (.node (.node (.node .leaf [12665, 4396, 0] .leaf) [12666, 4397, 0] .leaf) [12667, 4398, 0] (.node .leaf [12668, 4399, 0] .leaf)))) [12669, 4402, 0] (.node (.node (.node (.node (.node .leaf [12670, 4406, 0] .leaf) [12671, 4416, 0] .leaf) [12672, 4423, 0] (.node (.node .leaf [12673, 4428, 0] .leaf) [12674, 4593, 0] .leaf)) [12675, 4594, 0] (.node (.node (.node .leaf [12676, 4439, 0] .leaf) [12677, 4440, 0] .leaf) [12678, 4441, 0] (.node .leaf [12679, 4484, 0] .leaf))) [12680, 4485, 0] (.node (.node (.node (.node .leaf [12681, 4488, 0] .leaf) [12682, 4497, 0] .leaf) [12683, 4498, 0] (.node (.node .leaf [12684, 4500, 0] .leaf) [12685, 4510, 0] .leaf)) [12686, 4513, 0] (.node (.node (.node .leaf [12800, 40, 4352, 41, 0] .leaf) [12801, 40, 4354, 41, 0] .leaf) [12802, 40, 4355, 41, 0] (.node .leaf [12803, 40, 4357, 41, 0] .leaf)))))

/-- Rows of Data/Kdec.lean (proof aid). -/
def kdecT35 : Tree (List Nat) := (.node (.node (.node (.node (.node (.node .leaf [12805, 40, 4359, 41, 0] .leaf) [12806, 40, 4361, 41, 0] .leaf) [12807, 40, 4363, 41, 0] (.node (.node .leaf [12808, 40, 4364, 41, 0] .leaf) [12809, 40, 4366, 41, 0] .leaf)) [12810, 40, 4367, 41, 0] (.node (.node (.node .leaf [12811, 40, 4368, 41, 0] .leaf) [12812, 40, 4369, 41, 0] .leaf) [12813, 40, 4370, 41, 0] (.node .leaf [12814, 40, 4352, 4449, 41, 0] .leaf))) [12815, 40, 4354, 4449, 41, 0] (.node (.node (.node (.node .leaf [12816, 40, 4355, 4449, 41, 0] .leaf) [12817, 40, 4357, 4449, 41, 0] .leaf) [12818, 40, 4358, 4449, 41, 0] (.node (.node .leaf [12819, 40, 4359, 4449, 41, 0] .leaf) [12820, 40, 4361, 4449, 41, 0] .leaf)) [12821, 40, 4363, 4449, 41, 0] (.node (.node (.node .leaf [12822, 40, 4364, 4449, 41, 0] .leaf) [12823, 40, 4366, 4449, 41, 0] .leaf) [12824, 40, 4367, 4449, 41, 0] (.node .leaf [12825, 40, 4368, 4449, 41, 0] .leaf)))) [12826, 40, 4369, 4449, 41, 0] (.node (.node (.node (.node (.node .leaf [12827, 40, 4370, 4449, 41, 0] .leaf) [12828, 40, 4364, 4462, 41, 0] .leaf) [12829, 40, 4363, 4457, 4364, 4453, 4523, 41, 0] (.node (.node .leaf [12830, 40, 4363, 4457, 4370, 4462, 41, 0] .leaf) [12832, 40, 19968, 41, 0] .leaf)) [12833, 40, 20108, 41, 0] (.node (.node (.node .leaf [12834, 40, 19977, 41, 0] .leaf) [12835, 40, 22235, 41, 0] .leaf) [12836, 40, 20116, 41, 0] (.node .leaf [12837, 40, 20845, 41, 0] .leaf))) [12838, 40, 19971, 41, 0] (.node (.node (.node (.node .leaf [12839, 40, 20843, 41, 0] .leaf) [12840, 40, 20061, 41, 0] .leaf) [12841, 40, 21313, 41, 0] (.node .leaf [12842, 40, 26376, 41, 0] .leaf)) [12843, 40, 28779, 41, 0] (.node (.node (.node .leaf [12844, 40, 27700, 41, 0] .leaf) [12845, 40, 26408, 41, 0] .leaf) [12846, 40, 37329, 41, 0] (.node .leaf [12847, 40, 22303, 41, 0] .leaf)))))

/-- Rows of Data/Kdec.lean (proof aid). -/
def kdecT36 : Tree (List Nat) := (.node (.node (.node (.node (.node (.node .leaf [12849, 40, 26666, 41, 0] .leaf) [12850, 40, 26377, 41, 0] .leaf) [12851, 40, 31038, 41, 0] (.node (.node .leaf [12852, 40, 21517, 41, 0] .leaf) [12853, 40, 29305, 41, 0] .leaf)) [12854, 40, 36001, 41, 0] (.node (.node (.node .leaf [12855, 40, 31069, 41, 0] .leaf) [12856, 40, 21172, 41, 0] .leaf) [12857, 40, 20195, 41, 0] (.node .leaf [12858, 40, 21628, 41, 0] .leaf))) [12859, 40, 23398, 41, 0] (.node (.node (.node (.node .leaf [12860, 40, 30435, 41, 0] .leaf) [12861, 40, 20225, 41, 0] .leaf) [12862, 40, 36039, 41, 0] (.node (.node .leaf [12863, 40, 21332, 41, 0] .leaf) [12864, 40, 31085, 41, 0] .leaf)) [12865, 40, 20241, 41, 0] (.node (.node (.node .leaf [12866, 40, 33258, 41, 0] .leaf) [12867, 40, 33267, 41, 0] .leaf) [12992, 49, 26376, 0] (.node .leaf [12993, 50, 26376, 0] .leaf)))) [12994, 51, 26376, 0] (.node (.node (.node (.node (.node .leaf [12995, 52, 26376, 0] .leaf) [12996, 53, 26376, 0] .leaf) [12997, 54, 26376, 0] (.node (.node .leaf [12998, 55, 26376, 0] .leaf) [12999, 56, 26376, 0] .leaf)) [13000, 57, 26376, 0] (.node (.node (.node .leaf [13001, 49, 48, 26376, 0] .leaf) [13002, 49, 49, 26376, 0] .leaf) [13003, 49, 50, 26376, 0] (.node .leaf [13144, 48, 28857, 0] .leaf))) [13145, 49, 28857, 0] (.node (.node (.node (.node .leaf [13146, 50, 28857, 0] .leaf) [13147, 51, 28857, 0] .leaf) [13148, 52, 28857, 0] (.node (.node .leaf [13149, 53, 28857, 0] .leaf) [13150, 54, 28857, 0] .leaf)) [13151, 55, 28857, 0] (.node (.node (.node .leaf [13152, 56, 28857, 0] .leaf) [13153, 57, 28857, 0] .leaf) [13154, 49, 48, 28857, 0] (.node .leaf [13155, 49, 49, 28857, 0] .leaf)))))

/-- Rows of Data/Kdec.lean (proof aid). -/
def kdecT37 : Tree (List Nat) := (.node (.node (.node (.node (.node (.node .leaf [13157, 49, 51, 28857, 0] .leaf) [13158, 49, 52, 28857, 0] .leaf) [13159, 49, 53, 28857, 0] (.node (.node .leaf [13160, 49, 54, 28857, 0] .leaf) [13161, 49, 55, 28857, 0] .leaf)) [13162, 49, 56, 28857, 0] (.node (.node (.node .leaf [13163, 49, 57, 28857, 0] .leaf) [13164, 50, 48, 28857, 0] .leaf) [13165, 50, 49, 28857, 0] (.node .leaf [13166, 50, 50, 28857, 0] .leaf))) [13167, 50, 51, 28857, 0] (.node (.node (.node (.node .leaf [13168, 50, 52, 28857, 0] .leaf) [13280, 49, 26085, 0] .leaf) [13281, 50, 26085, 0] (.node (.node .leaf [13282, 51, 26085, 0] .leaf) [13283, 52, 26085, 0] .leaf)) [13284, 53, 26085, 0] (.node (.node (.node .leaf [13285, 54, 26085, 0] .leaf) [13286, 55, 26085, 0] .leaf) [13287, 56, 26085, 0] (.node .leaf [13288, 57, 26085, 0] .leaf)))) [13289, 49, 48, 26085, 0] (.node (.node (.node (.node (.node .leaf [13290, 49, 49, 26085, 0] .leaf) [13291, 49, 50, 26085, 0] .leaf) [13292, 49, 51, 26085, 0] (.node (.node .leaf [13293, 49, 52, 26085, 0] .leaf) [13294, 49, 53, 26085, 0] .leaf)) [13295, 49, 54, 26085, 0] (.node (.node (.node .leaf [13296, 49, 55, 26085, 0] .leaf) [13297, 49, 56, 26085, 0] .leaf) [13298, 49, 57, 26085, 0] (.node .leaf [13299, 50, 48, 26085, 0] .leaf))) [13300, 50, 49, 26085, 0] (.node (.node (.node (.node .leaf [13301, 50, 50, 26085, 0] .leaf) [13302, 50, 51, 26085, 0] .leaf) [13303, 50, 52, 26085, 0] (.node .leaf [13304, 50, 53, 26085, 0] .leaf)) [13305, 50, 54, 26085, 0] (.node (.node (.node .leaf [13306, 50, 55, 26085, 0] .leaf) [13307, 50, 56, 26085, 0] .leaf) [13308, 50, 57, 26085, 0] (.node .leaf [13309, 51, 48, 26085, 0] .leaf)))))

/-- Rows of Data/Kdec.lean (proof aid). -/
def kdecT38 : Tree (List Nat) := (.node (.node (.node (.node (.node (.node .leaf [63744, 35912, 0] .leaf) [63745, 26356, 0] .leaf) [63746, 36554, 0] (.node (.node .leaf [63747, 36040, 0] .leaf) [63748, 28369, 0] .leaf)) [63749, 20018, 0] (.node (.node (.node .leaf [63750, 21477, 0] .leaf) [63751, 40860, 0] .leaf) [63752, 40860, 0] (.node .leaf [63753, 22865, 0] .leaf))) [63754, 37329, 0] (.node (.node (.node (.node .leaf [63755, 21895, 0] .leaf) [63756, 22856, 0] .leaf) [63757, 25078, 0] (.node (.node .leaf [63758, 30313, 0] .leaf) [63759, 32645, 0] .leaf)) [63760, 34367, 0] (.node (.node (.node .leaf [63761, 34746, 0] .leaf) [63762, 35064, 0] .leaf) [63763, 37007, 0] (.node .leaf [63764, 27138, 0] .leaf)))) [63765, 27931, 0] (.node (.node (.node (.node (.node .leaf [63766, 28889, 0] .leaf) [63767, 29662, 0] .leaf) [63768, 33853, 0] (.node (.node .leaf [63769, 37226, 0] .leaf) [63770, 39409, 0] .leaf)) [63771, 20098, 0] (.node (.node (.node .leaf [63772, 21365, 0] .leaf) [63773, 27396, 0] .leaf) [63774, 29211, 0] (.node .leaf [63775, 34349, 0] .leaf))) [63776, 40478, 0] (.node (.node (.node (.node .leaf [63777, 23888, 0] .leaf) [63778, 28651, 0] .leaf) [63779, 34253, 0] (.node (.node .leaf [63780, 35172, 0] .leaf) [63781, 25289, 0] .leaf)) [63782, 33240, 0] (.node (.node (.node .leaf [63783, 34847, 0] .leaf) [63784, 24266, 0] .leaf) [63785, 26391, 0] (.node .leaf [63786, 28010, 0] .leaf)))))

/-- Rows of Data/Kdec.lean (proof aid). -/
def kdecT39 : Tree (List Nat) := (.node (.node (.node (.node (.node (.node .leaf [63788, 37070, 0] .leaf) [63789, 20358, 0] .leaf) [63790, 20919, 0] (.node (.node .leaf [63791, 21214, 0] .leaf) [63792, 25796, 0] .leaf)) [63793, 27347, 0] (.node (.node (.node .leaf [63794, 29200, 0] .leaf) [63795, 30439, 0] .leaf) [63796, 32769, 0] (.node .leaf [63797, 34310, 0] .leaf))) [63798, 34396, 0] (.node (.node (.node (.node .leaf [63799, 36335, 0] .leaf) [63800, 38706, 0] .leaf) [63801, 39791, 0] (.node (.node .leaf [63802, 40442, 0] .leaf) [63803, 30860, 0] .leaf)) [63804, 31103, 0] (.node (.node (.node .leaf [63805, 32160, 0] .leaf) [63806, 33737, 0] .leaf) [63807, 37636, 0] (.node .leaf [63808, 40575, 0] .leaf)))) [63809, 35542, 0] (.node (.node (.node (.node (.node .leaf [63810, 22751, 0] .leaf) [63811, 24324, 0] .leaf) [63812, 31840, 0] (.node (.node .leaf [63813, 32894, 0] .leaf) [63814, 29282, 0] .leaf)) [63815, 30922, 0] (.node (.node (.node .leaf [63816, 36034, 0] .leaf) [63817, 38647, 0] .leaf) [63818, 22744, 0] (.node .leaf [63819, 23650, 0] .leaf))) [63820, 27155, 0] (.node (.node (.node (.node .leaf [63821, 28122, 0] .leaf) [63822, 28431, 0] .leaf) [63823, 32047, 0] (.node .leaf [63824, 32311, 0] .leaf)) [63825, 38475, 0] (.node (.node (.node .leaf [63826, 21202, 0] .leaf) [63827, 32907, 0] .leaf) [63828, 20956, 0] (.node .leaf [63829, 20940, 0] .leaf)))))

/-- Rows of Data/Kdec.lean (proof aid). -/
def kdecT40 : Tree (List Nat) := (.node (.node (.node (.node (.node (.node .leaf [63831, 32190, 0] .leaf) [63832, 33777, 0] .leaf) [63833, 38517, 0] (.node (.node .leaf [63834, 35712, 0] .leaf) [63835, 25295, 0] .leaf)) [63836, 27138, 0] (.node (.node (.node .leaf [63837, 35582, 0] .leaf) [63838, 20025, 0] .leaf) [63839, 23527, 0] (.node .leaf [63840, 24594, 0] .leaf))) [63841, 29575, 0] (.node (.node (.node (.node .leaf [63842, 30064, 0] .leaf) [63843, 21271, 0] .leaf) [63844, 30971, 0] (.node (.node .leaf [63845, 20415, 0] .leaf) [63846, 24489, 0] .leaf)) [63847, 19981, 0] (.node (.node (.node .leaf [63848, 27852, 0] .leaf) [63849, 25976, 0] .leaf) [63850, 32034, 0] (.node .leaf [63851, 21443, 0] .leaf)))) [63852, 22622, 0] (.node (.node (.node (.node (.node .leaf [63853, 30465, 0] .leaf) [63854, 33865, 0] .leaf) [63855, 35498, 0] (.node (.node .leaf [63856, 27578, 0] .leaf) [63857, 36784, 0] .leaf)) [63858, 27784, 0] (.node (.node (.node .leaf [63859, 25342, 0] .leaf) [63860, 33509, 0] .leaf) [63861, 25504, 0] (.node .leaf [63862, 30053, 0] .leaf))) [63863, 20142, 0] (.node (.node (.node (.node .leaf [63864, 20841, 0] .leaf) [63865, 20937, 0] .leaf) [63866, 26753, 0] (.node (.node .leaf [63867, 31975, 0] .leaf) [63868, 33391, 0] .leaf)) [63869, 35538, 0] (.node (.node (.node .leaf [63870, 37327, 0] .leaf) [63871, 21237, 0] .leaf) [63872, 21570, 0] (.node .leaf [63873, 22899, 0] .leaf)))))

/-- Rows of Data/Kdec.lean (proof aid). -/
def kdecT41 : Tree (List Nat) := (.node (.node (.node (.node (.node (.node .leaf [63875, 26053, 0] .leaf) [63876, 28670, 0] .leaf) [63877, 31018, 0] (.node (.node .leaf [63878, 38317, 0] .leaf) [63879, 39530, 0] .leaf)) [63880, 40599, 0] (.node (.node (.node .leaf [63881, 40654, 0] .leaf) [63882, 21147, 0] .leaf) [63883, 26310, 0] (.node .leaf [63884, 27511, 0] .leaf))) [63885, 36706, 0] (.node (.node (.node (.node .leaf [63886, 24180, 0] .leaf) [63887, 24976, 0] .leaf) [63888, 25088, 0] (.node (.node .leaf [63889, 25754, 0] .leaf) [63890, 28451, 0] .leaf)) [63891, 29001, 0] (.node (.node (.node .leaf [63892, 29833, 0] .leaf) [63893, 31178, 0] .leaf) [63894, 32244, 0] (.node .leaf [63895, 32879, 0] .leaf)))) [63896, 36646, 0] (.node (.node (.node (.node (.node .leaf [63897, 34030, 0] .leaf) [63898, 36899, 0] .leaf) [63899, 37706, 0] (.node (.node .leaf [63900, 21015, 0] .leaf) [63901, 21155, 0] .leaf)) [63902, 21693, 0] (.node (.node (.node .leaf [63903, 28872, 0] .leaf) [63904, 35010, 0] .leaf) [63905, 35498, 0] (.node .leaf [63906, 24265, 0] .leaf))) [63907, 24565, 0] (.node (.node (.node (.node .leaf [63908, 25467, 0] .leaf) [63909, 27566, 0] .leaf) [63910, 31806, 0] (.node .leaf [63911, 29557, 0] .leaf)) [63912, 20196, 0] (.node (.node (.node .leaf [63913, 22265, 0] .leaf) [63914, 23527, 0] .leaf) [63915, 23994, 0] (.node .leaf [63916, 24604, 0] .leaf)))))

/-- Rows of Data/Kdec.lean (proof aid). -/
def kdecT42 : Tree (List Nat) := (.node (.node (.node (.node (.node (.node .leaf [63918, 29801, 0] .leaf) [63919, 32666, 0] .leaf) [63920, 32838, 0] (.node (.node .leaf [63921, 37428, 0] .leaf) [63922, 38646, 0] .leaf)) [63923, 38728, 0] (.node (.node (.node .leaf [63924, 38936, 0] .leaf) [63925, 20363, 0] .leaf) [63926, 31150, 0] (.node .leaf [63927, 37300, 0] .leaf))) [63928, 38584, 0] (.node (.node (.node (.node .leaf [63929, 24801, 0] .leaf) [63930, 20102, 0] .leaf) [63931, 20698, 0] (.node (.node .leaf [63932, 23534, 0] .leaf) [63933, 23615, 0] .leaf)) [63934, 26009, 0] (.node (.node (.node .leaf [63935, 27138, 0] .leaf) [63936, 29134, 0] .leaf) [63937, 30274, 0] (.node .leaf [63938, 34044, 0] .leaf)))) [63939, 36988, 0] (.node (.node (.node (.node (.node .leaf [63940, 40845, 0] .leaf) [63941, 26248, 0] .leaf) [63942, 38446, 0] (.node (.node .leaf [63943, 21129, 0] .leaf) [63944, 26491, 0] .leaf)) [63945, 26611, 0] (.node (.node (.node .leaf [63946, 27969, 0] .leaf) [63947, 28316, 0] .leaf) [63948, 29705, 0] (.node .leaf [63949, 30041, 0] .leaf))) [63950, 30827, 0] (.node (.node (.node (.node .leaf [63951, 32016, 0] .leaf) [63952, 39006, 0] .leaf) [63953, 20845, 0] (.node (.node .leaf [63954, 25134, 0] .leaf) [63955, 38520, 0] .leaf)) [63956, 20523, 0] (.node (.node (.node .leaf [63957, 23833, 0] .leaf) [63958, 28138, 0] .leaf) [63959, 36650, 0] (.node .leaf [63960, 24459, 0] .leaf)))))

/-- Rows of Data/Kdec.lean (proof aid). -/
def kdecT43 : Tree (List Nat) := (.node (.node (.node (.node (.node (.node .leaf [63962, 26647, 0] .leaf) [63963, 29575, 0] .leaf) [63964, 38534, 0] (.node (.node .leaf [63965, 21033, 0] .leaf) [63966, 21519, 0] .leaf)) [63967, 23653, 0] (.node (.node (.node .leaf [63968, 26131, 0] .leaf) [63969, 26446, 0] .leaf) [63970, 26792, 0] (.node .leaf [63971, 27877, 0] .leaf))) [63972, 29702, 0] (.node (.node (.node (.node .leaf [63973, 30178, 0] .leaf) [63974, 32633, 0] .leaf) [63975, 35023, 0] (.node (.node .leaf [63976, 35041, 0] .leaf) [63977, 37324, 0] .leaf)) [63978, 38626, 0] (.node (.node (.node .leaf [63979, 21311, 0] .leaf) [63980, 28346, 0] .leaf) [63981, 21533, 0] (.node .leaf [63982, 29136, 0] .leaf)))) [63983, 29848, 0] (.node (.node (.node (.node (.node .leaf [63984, 34298, 0] .leaf) [63985, 38563, 0] .leaf) [63986, 40023, 0] (.node (.node .leaf [63987, 40607, 0] .leaf) [63988, 26519, 0] .leaf)) [63989, 28107, 0] (.node (.node (.node .leaf [63990, 33256, 0] .leaf) [63991, 31435, 0] .leaf) [63992, 31520, 0] (.node .leaf [63993, 31890, 0] .leaf))) [63994, 29376, 0] (.node (.node (.node (.node .leaf [63995, 28825, 0] .leaf) [63996, 35672, 0] .leaf) [63997, 20160, 0] (.node .leaf [63998, 33590, 0] .leaf)) [63999, 21050, 0] (.node (.node (.node .leaf [64000, 20999, 0] .leaf) [64001, 24230, 0] .leaf) [64002, 25299, 0] (.node .leaf [64003, 31958, 0] .leaf)))))

/-- Rows of Data/Kdec.lean (proof aid). -/
def kdecT44 : Tree (List Nat) := (.node (.node (.node (.node (.node (.node .leaf [64005, 27934, 0] .leaf) [64006, 26292, 0] .leaf) [64007, 36667, 0] (.node (.node .leaf [64008, 34892, 0] .leaf) [64009, 38477, 0] .leaf)) [64010, 35211, 0] (.node (.node (.node .leaf [64011, 24275, 0] .leaf) [64012, 20800, 0] .leaf) [64013, 21952, 0] (.node .leaf [64016, 22618, 0] .leaf))) [64018, 26228, 0] (.node (.node (.node (.node .leaf [64021, 20958, 0] .leaf) [64022, 29482, 0] .leaf) [64023, 30410, 0] (.node (.node .leaf [64024, 31036, 0] .leaf) [64025, 31070, 0] .leaf)) [64026, 31077, 0] (.node (.node (.node .leaf [64027, 31119, 0] .leaf) [64028, 38742, 0] .leaf) [64029, 31934, 0] (.node .leaf [64030, 32701, 0] .leaf)))) [64032, 34322, 0] (.node (.node (.node (.node (.node .leaf [64034, 35576, 0] .leaf) [64037, 36920, 0] .leaf) [64038, 37117, 0] (.node (.node .leaf [64042, 39151, 0] .leaf) [64043, 39164, 0] .leaf)) [64044, 39208, 0] (.node (.node (.node .leaf [64045, 40372, 0] .leaf) [64046, 37086, 0] .leaf) [64047, 38583, 0] (.node .leaf [64048, 20398, 0] .leaf))) [64049, 20711, 0] (.node (.node (.node (.node .leaf [64050, 20813, 0] .leaf) [64051, 21193, 0] .leaf) [64052, 21220, 0] (.node (.node .leaf [64053, 21329, 0] .leaf) [64054, 21917, 0] .leaf)) [64055, 22022, 0] (.node (.node (.node .leaf [64056, 22120, 0] .leaf) [64057, 22592, 0] .leaf) [64058, 22696, 0] (.node .leaf [64059, 23652, 0] .leaf)))))

/-- Rows of Data/Kdec.lean (proof aid). -/
def kdecT45 : Tree (List Nat) := (.node (.node (.node (.node (.node (.node .leaf [64061, 24724, 0] .leaf) [64062, 24936, 0] .leaf) [64063, 24974, 0] (.node (.node .leaf [64064, 25074, 0] .leaf) [64065, 25935, 0] .leaf)) [64066, 26082, 0] (.node (.node (.node .leaf [64067, 26257, 0] .leaf) [64068, 26757, 0] .leaf) [64069, 28023, 0] (.node .leaf [64070, 28186, 0] .leaf))) [64071, 28450, 0] (.node (.node (.node (.node .leaf [64072, 29038, 0] .leaf) [64073, 29227, 0] .leaf) [64074, 29730, 0] (.node (.node .leaf [64075, 30865, 0] .leaf) [64076, 31038, 0] .leaf)) [64077, 31049, 0] (.node (.node (.node .leaf [64078, 31048, 0] .leaf) [64079, 31056, 0] .leaf) [64080, 31062, 0] (.node .leaf [64081, 31069, 0] .leaf)))) [64082, 31117, 0] (.node (.node (.node (.node (.node .leaf [64083, 31118, 0] .leaf) [64084, 31296, 0] .leaf) [64085, 31361, 0] (.node (.node .leaf [64086, 31680, 0] .leaf) [64087, 32244, 0] .leaf)) [64088, 32265, 0] (.node (.node (.node .leaf [64089, 32321, 0] .leaf) [64090, 32626, 0] .leaf) [64091, 32773, 0] (.node .leaf [64092, 33261, 0] .leaf))) [64093, 33401, 0] (.node (.node (.node (.node .leaf [64094, 33401, 0] .leaf) [64095, 33879, 0] .leaf) [64096, 35088, 0] (.node .leaf [64097, 35222, 0] .leaf)) [64098, 35585, 0] (.node (.node (.node .leaf [64099, 35641, 0] .leaf) [64100, 36051, 0] .leaf) [64101, 36104, 0] (.node .leaf [64102, 36790, 0] .leaf)))))

/-- Rows of Data/Kdec.lean (proof aid). -/
def kdecT46 : Tree (List Nat) := (.node (.node (.node (.node (.node (.node .leaf [64104, 38627, 0] .leaf) [64105, 38911, 0] .leaf) [64106, 38971, 0] (.node (.node .leaf [64107, 24693, 0] .leaf) [64108, 148206, 0] .leaf)) [64109, 33304, 0] (.node (.node (.node .leaf [64112, 20006, 0] .leaf) [64113, 20917, 0] .leaf) [64114, 20840, 0] (.node .leaf [64115, 20352, 0] .leaf))) [64116, 20805, 0] (.node (.node (.node (.node .leaf [64117, 20864, 0] .leaf) [64118, 21191, 0] .leaf) [64119, 21242, 0] (.node (.node .leaf [64120, 21917, 0] .leaf) [64121, 21845, 0] .leaf)) [64122, 21913, 0] (.node (.node (.node .leaf [64123, 21986, 0] .leaf) [64124, 22618, 0] .leaf) [64125, 22707, 0] (.node .leaf [64126, 22852, 0] .leaf)))) [64127, 22868, 0] (.node (.node (.node (.node (.node .leaf [64128, 23138, 0] .leaf) [64129, 23336, 0] .leaf) [64130, 24274, 0] (.node (.node .leaf [64131, 24281, 0] .leaf) [64132, 24425, 0] .leaf)) [64133, 24493, 0] (.node (.node (.node .leaf [64134, 24792, 0] .leaf) [64135, 24910, 0] .leaf) [64136, 24840, 0] (.node .leaf [64137, 24974, 0] .leaf))) [64138, 24928, 0] (.node (.node (.node (.node .leaf [64139, 25074, 0] .leaf) [64140, 25140, 0] .leaf) [64141, 25540, 0] (.node .leaf [64142, 25628, 0] .leaf)) [64143, 25682, 0] (.node (.node (.node .leaf [64144, 25942, 0] .leaf) [64145, 26228, 0] .leaf) [64146, 26391, 0] (.node .leaf [64147, 26395, 0] .leaf)))))

/-- Rows of Data/Kdec.lean (proof aid). -/
def kdecT47 : Tree (List Nat) := (.node (.node (.node (.node (.node (.node .leaf [64149, 27513, 0] .leaf) [64150, 27578, 0] .leaf) [64151, 27969, 0] (.node (.node .leaf [64152, 28379, 0] .leaf) [64153, 28363, 0] .leaf)) [64154, 28450, 0] (.node (.node (.node .leaf [64155, 28702, 0] .leaf) [64156, 29038, 0] .leaf) [64157, 30631, 0] (.node .leaf [64158, 29237, 0] .leaf))) [64159, 29359, 0] (.node (.node (.node (.node .leaf [64160, 29482, 0] .leaf) [64161, 29809, 0] .leaf) [64162, 29958, 0] (.node (.node .leaf [64163, 30011, 0] .leaf) [64164, 30237, 0] .leaf)) [64165, 30239, 0] (.node (.node (.node .leaf [64166, 30410, 0] .leaf) [64167, 30427, 0] .leaf) [64168, 30452, 0] (.node .leaf [64169, 30538, 0] .leaf)))) [64170, 30528, 0] (.node (.node (.node (.node (.node .leaf [64171, 30924, 0] .leaf) [64172, 31409, 0] .leaf) [64173, 31680, 0] (.node (.node .leaf [64174, 31867, 0] .leaf) [64175, 32091, 0] .leaf)) [64176, 32244, 0] (.node (.node (.node .leaf [64177, 32574, 0] .leaf) [64178, 32773, 0] .leaf) [64179, 33618, 0] (.node .leaf [64180, 33775, 0] .leaf))) [64181, 34681, 0] (.node (.node (.node (.node .leaf [64182, 35137, 0] .leaf) [64183, 35206, 0] .leaf) [64184, 35222, 0] (.node .leaf [64185, 35519, 0] .leaf)) [64186, 35576, 0] (.node (.node (.node .leaf [64187, 35531, 0] .leaf) [64188, 35585, 0] .leaf) [64189, 35582, 0] (.node .leaf [64190, 35565, 0] .leaf)))))

/-- Rows of Data/Kdec.lean (proof aid). -/
def kdecT48 : Tree (List Nat) := (.node (.node (.node (.node (.node (.node .leaf [64192, 35722, 0] .leaf) [64193, 36104, 0] .leaf) [64194, 36664, 0] (.node (.node .leaf [64195, 36978, 0] .leaf) [64196, 37273, 0] .leaf)) [64197, 37494, 0] (.node (.node (.node .leaf [64198, 38524, 0] .leaf) [64199, 38627, 0] .leaf) [64200, 38742, 0] (.node .leaf [64201, 38875, 0] .leaf))) [64202, 38911, 0] (.node (.node (.node (.node .leaf [64203, 38923, 0] .leaf) [64204, 38971, 0] .leaf) [64205, 39698, 0] (.node (.node .leaf [64206, 40860, 0] .leaf) [64207, 141386, 0] .leaf)) [64208, 141380, 0] (.node (.node (.node .leaf [64209, 144341, 0] .leaf) [64210, 15261, 0] .leaf) [64211, 16408, 0] (.node .leaf [64212, 16441, 0] .leaf)))) [64213, 152137, 0] (.node (.node (.node (.node (.node .leaf [64214, 154832, 0] .leaf) [64215, 163539, 0] .leaf) [64216, 40771, 0] (.node (.node .leaf [64217, 40846, 0] .leaf) [64256, 102, 102, 0] .leaf)) [64257, 102, 105, 0] (.node (.node (.node .leaf [64258, 102, 108, 0] .leaf) [64259, 102, 102, 105, 0] .leaf) [64260, 102, 102, 108, 0] (.node .leaf [64261, 115, 116, 0] .leaf))) [64262, 115, 116, 0] (.node (.node (.node (.node .leaf [64275, 1396, 1398, 0] .leaf) [64276, 1396, 1381, 0] .leaf) [64277, 1396, 1387, 0] (.node (.node .leaf [64278, 1406, 1398, 0] .leaf) [64279, 1396, 1389, 0] .leaf)) [64285, 1497, 1460, 0] (.node (.node (.node .leaf [64287, 1522, 1463, 0] .leaf) [64298, 1513, 1473, 0] .leaf) [64299, 1513, 1474, 0] (.node .leaf [64300, 1513, 1468, 1473, 0] .leaf)))))

/-- Rows of Data/Kdec.lean (proof aid). -/
def kdecT49 : Tree (List Nat) := (.node (.node (.node (.node (.node (.node .leaf [64302, 1488, 1463, 0] .leaf) [64303, 1488, 1464, 0] .leaf) [64304, 1488, 1468, 0] (.node (.node .leaf [64305, 1489, 1468, 0] .leaf) [64306, 1490, 1468, 0] .leaf)) [64307, 1491, 1468, 0] (.node (.node (.node .leaf [64308, 1492, 1468, 0] .leaf) [64309, 1493, 1468, 0] .leaf) [64310, 1494, 1468, 0] (.node .leaf [64312, 1496, 1468, 0] .leaf))) [64313, 1497, 1468, 0] (.node (.node (.node (.node .leaf [64314, 1498, 1468, 0] .leaf) [64315, 1499, 1468, 0] .leaf) [64316, 1500, 1468, 0] (.node (.node .leaf [64318, 1502, 1468, 0] .leaf) [64320, 1504, 1468, 0] .leaf)) [64321, 1505, 1468, 0] (.node (.node (.node .leaf [64323, 1507, 1468, 0] .leaf) [64324, 1508, 1468, 0] .leaf) [64326, 1510, 1468, 0] (.node .leaf [64327, 1511, 1468, 0] .leaf)))) [64328, 1512, 1468, 0] (.node (.node (.node (.node (.node .leaf [64329, 1513, 1468, 0] .leaf) [64330, 1514, 1468, 0] .leaf) [64331, 1493, 1465, 0] (.node (.node .leaf [64332, 1489, 1471, 0] .leaf) [64333, 1499, 1471, 0] .leaf)) [64334, 1508, 1471, 0] (.node (.node (.node .leaf [64335, 1488, 1500, 0] .leaf) [65097, 32, 773, 0] .leaf) [65098, 32, 773, 0] (.node .leaf [65099, 32, 773, 0] .leaf))) [65100, 32, 773, 0] (.node (.node (.node (.node .leaf [65101, 95, 0] .leaf) [65102, 95, 0] .leaf) [65103, 95, 0] (.node .leaf [69786, 69785, 69818, 0] .leaf)) [69788, 69787, 69818, 0] (.node (.node (.node .leaf [69803, 69797, 69818, 0] .leaf) [69934, 69937, 69927, 0] .leaf) [69935, 69938, 69927, 0] (.node .leaf [70475, 70471, 70462, 0] .leaf)))))

/-- Rows of Data/Kdec.lean (proof aid). -/
def kdecT50 : Tree (List Nat) := (.node (.node (.node (.node (.node (.node .leaf [70843, 70841, 70842, 0] .leaf) [70844, 70841, 70832, 0] .leaf) [70846, 70841, 70845, 0] (.node (.node .leaf [71098, 71096, 71087, 0] .leaf) [71099, 71097, 71087, 0] .leaf)) [119134, 119127, 119141, 0] (.node (.node (.node .leaf [119135, 119128, 119141, 0] .leaf) [119136, 119128, 119141, 119150, 0] .leaf) [119137, 119128, 119141, 119151, 0] (.node .leaf [119138, 119128, 119141, 119152, 0] .leaf))) [119139, 119128, 119141, 119153, 0] (.node (.node (.node (.node .leaf [119140, 119128, 119141, 119154, 0] .leaf) [119227, 119225, 119141, 0] .leaf) [119228, 119226, 119141, 0] (.node (.node .leaf [119229, 119225, 119141, 119150, 0] .leaf) [119230, 119226, 119141, 119150, 0] .leaf)) [119231, 119225, 119141, 119151, 0] (.node (.node (.node .leaf [119232, 119226, 119141, 119151, 0] .leaf) [127232, 48, 46, 0] .leaf) [127233, 48, 44, 0] (.node .leaf [127234, 49, 44, 0] .leaf)))) [127235, 50, 44, 0] (.node (.node (.node (.node (.node .leaf [127236, 51, 44, 0] .leaf) [127237, 52, 44, 0] .leaf) [127238, 53, 44, 0] (.node (.node .leaf [127239, 54, 44, 0] .leaf) [127240, 55, 44, 0] .leaf)) [127241, 56, 44, 0] (.node (.node (.node .leaf [127242, 57, 44, 0] .leaf) [127248, 40, 65, 41, 0] .leaf) [127249, 40, 66, 41, 0] (.node .leaf [127250, 40, 67, 41, 0] .leaf))) [127251, 40, 68, 41, 0] (.node (.node (.node (.node .leaf [127252, 40, 69, 41, 0] .leaf) [127253, 40, 70, 41, 0] .leaf) [127254, 40, 71, 41, 0] (.node (.node .leaf [127255, 40, 72, 41, 0] .leaf) [127256, 40, 73, 41, 0] .leaf)) [127257, 40, 74, 41, 0] (.node (.node (.node .leaf [127258, 40, 75, 41, 0] .leaf) [127259, 40, 76, 41, 0] .leaf) [127260, 40, 77, 41, 0] (.node .leaf [127261, 40, 78, 41, 0] .leaf)))))

/-- Rows of Data/Kdec.lean (proof aid). -/
def kdecT51 : Tree (List Nat) := (.node (.node (.node (.node (.node (.node .leaf [127263, 40, 80, 41, 0] .leaf) [127264, 40, 81, 41, 0] .leaf) [127265, 40, 82, 41, 0] (.node (.node .leaf [127266, 40, 83, 41, 0] .leaf) [127267, 40, 84, 41, 0] .leaf)) [127268, 40, 85, 41, 0] (.node (.node (.node .leaf [127269, 40, 86, 41, 0] .leaf) [127270, 40, 87, 41, 0] .leaf) [127271, 40, 88, 41, 0] (.node .leaf [127272, 40, 89, 41, 0] .leaf))) [127273, 40, 90, 41, 0] (.node (.node (.node (.node .leaf [127274, 12308, 83, 12309, 0] .leaf) [127552, 12308, 26412, 12309, 0] .leaf) [127553, 12308, 19977, 12309, 0] (.node (.node .leaf [127554, 12308, 20108, 12309, 0] .leaf) [127555, 12308, 23433, 12309, 0] .leaf)) [127556, 12308, 28857, 12309, 0] (.node (.node (.node .leaf [127557, 12308, 25171, 12309, 0] .leaf) [127558, 12308, 30423, 12309, 0] .leaf) [127559, 12308, 21213, 12309, 0] (.node .leaf [127560, 12308, 25943, 12309, 0] .leaf)))) [194560, 20029, 0] (.node (.node (.node (.node (.node .leaf [194561, 20024, 0] .leaf) [194562, 20033, 0] .leaf) [194563, 131362, 0] (.node (.node .leaf [194564, 20320, 0] .leaf) [194565, 20398, 0] .leaf)) [194566, 20411, 0] (.node (.node (.node .leaf [194567, 20482, 0] .leaf) [194568, 20602, 0] .leaf) [194569, 20633, 0] (.node .leaf [194570, 20711, 0] .leaf))) [194571, 20687, 0] (.node (.node (.node (.node .leaf [194572, 13470, 0] .leaf) [194573, 132666, 0] .leaf) [194574, 20813, 0] (.node .leaf [194575, 20820, 0] .leaf)) [194576, 20836, 0] (.node (.node (.node .leaf [194577, 20855, 0] .leaf) [194578, 132380, 0] .leaf) [194579, 13497, 0] (.node .leaf [194580, 20839, 0] .leaf)))))

/-- Rows of Data/Kdec.lean (proof aid). -/
def kdecT52 : Tree (List Nat) := (.node (.node (.node (.node (.node (.node .leaf [194582, 132427, 0] .leaf) [194583, 20887, 0] .leaf) [194584, 20900, 0] (.node (.node .leaf [194585, 20172, 0] .leaf) [194586, 20908, 0] .leaf)) [194587, 20917, 0] (.node (.node (.node .leaf [194588, 168415, 0] .leaf) [194589, 20981, 0] .leaf) [194590, 20995, 0] (.node .leaf [194591, 13535, 0] .leaf))) [194592, 21051, 0] (.node (.node (.node (.node .leaf [194593, 21062, 0] .leaf) [194594, 21106, 0] .leaf) [194595, 21111, 0] (.node (.node .leaf [194596, 13589, 0] .leaf) [194597, 21191, 0] .leaf)) [194598, 21193, 0] (.node (.node (.node .leaf [194599, 21220, 0] .leaf) [194600, 21242, 0] .leaf) [194601, 21253, 0] (.node .leaf [194602, 21254, 0] .leaf)))) [194603, 21271, 0] (.node (.node (.node (.node (.node .leaf [194604, 21321, 0] .leaf) [194605, 21329, 0] .leaf) [194606, 21338, 0] (.node (.node .leaf [194607, 21363, 0] .leaf) [194608, 21373, 0] .leaf)) [194609, 21375, 0] (.node (.node (.node .leaf [194610, 21375, 0] .leaf) [194611, 21375, 0] .leaf) [194612, 133676, 0] (.node .leaf [194613, 28784, 0] .leaf))) [194614, 21450, 0] (.node (.node (.node (.node .leaf [194615, 21471, 0] .leaf) [194616, 133987, 0] .leaf) [194617, 21483, 0] (.node (.node .leaf [194618, 21489, 0] .leaf) [194619, 21510, 0] .leaf)) [194620, 21662, 0] (.node (.node (.node .leaf [194621, 21560, 0] .leaf) [194622, 21576, 0] .leaf) [194623, 21608, 0] (.node .leaf [194624, 21666, 0] .leaf)))))

/-- Rows of Data/Kdec.lean (proof aid). -/
def kdecT53 : Tree (List Nat) := (.node (.node (.node (.node (.node (.node .leaf [194626, 21776, 0] .leaf) [194627, 21843, 0] .leaf) [194628, 21859, 0] (.node (.node .leaf [194629, 21892, 0] .leaf) [194630, 21892, 0] .leaf)) [194631, 21913, 0] (.node (.node (.node .leaf [194632, 21931, 0] .leaf) [194633, 21939, 0] .leaf) [194634, 21954, 0] (.node .leaf [194635, 22294, 0] .leaf))) [194636, 22022, 0] (.node (.node (.node (.node .leaf [194637, 22295, 0] .leaf) [194638, 22097, 0] .leaf) [194639, 22132, 0] (.node (.node .leaf [194640, 20999, 0] .leaf) [194641, 22766, 0] .leaf)) [194642, 22478, 0] (.node (.node (.node .leaf [194643, 22516, 0] .leaf) [194644, 22541, 0] .leaf) [194645, 22411, 0] (.node .leaf [194646, 22578, 0] .leaf)))) [194647, 22577, 0] (.node (.node (.node (.node (.node .leaf [194648, 22700, 0] .leaf) [194649, 136420, 0] .leaf) [194650, 22770, 0] (.node (.node .leaf [194651, 22775, 0] .leaf) [194652, 22790, 0] .leaf)) [194653, 22810, 0] (.node (.node (.node .leaf [194654, 22818, 0] .leaf) [194655, 22882, 0] .leaf) [194656, 136872, 0] (.node .leaf [194657, 136938, 0] .leaf))) [194658, 23020, 0] (.node (.node (.node (.node .leaf [194659, 23067, 0] .leaf) [194660, 23079, 0] .leaf) [194661, 23000, 0] (.node .leaf [194662, 23142, 0] .leaf)) [194663, 14062, 0] (.node (.node (.node .leaf [194664, 14076, 0] .leaf) [194665, 23304, 0] .leaf) [194666, 23358, 0] (.node .leaf [194667, 23358, 0] .leaf)))))

/-- Rows of Data/Kdec.lean (proof aid). -/
def kdecT54 : Tree (List Nat) := (.node (.node (.node (.node (.node (.node .leaf [194669, 23491, 0] .leaf) [194670, 23512, 0] .leaf) [194671, 23527, 0] (.node (.node .leaf [194672, 23539, 0] .leaf) [194673, 138008, 0] .leaf)) [194674, 23551, 0] (.node (.node (.node .leaf [194675, 23558, 0] .leaf) [194676, 24403, 0] .leaf) [194677, 23586, 0] (.node .leaf [194678, 14209, 0] .leaf))) [194679, 23648, 0] (.node (.node (.node (.node .leaf [194680, 23662, 0] .leaf) [194681, 23744, 0] .leaf) [194682, 23693, 0] (.node (.node .leaf [194683, 138724, 0] .leaf) [194684, 23875, 0] .leaf)) [194685, 138726, 0] (.node (.node (.node .leaf [194686, 23918, 0] .leaf) [194687, 23915, 0] .leaf) [194688, 23932, 0] (.node .leaf [194689, 24033, 0] .leaf)))) [194690, 24034, 0] (.node (.node (.node (.node (.node .leaf [194691, 14383, 0] .leaf) [194692, 24061, 0] .leaf) [194693, 24104, 0] (.node (.node .leaf [194694, 24125, 0] .leaf) [194695, 24169, 0] .leaf)) [194696, 14434, 0] (.node (.node (.node .leaf [194697, 139651, 0] .leaf) [194698, 14460, 0] .leaf) [194699, 24240, 0] (.node .leaf [194700, 24243, 0] .leaf))) [194701, 24246, 0] (.node (.node (.node (.node .leaf [194702, 24266, 0] .leaf) [194703, 172946, 0] .leaf) [194704, 24318, 0] (.node (.node .leaf [194705, 140081, 0] .leaf) [194706, 140081, 0] .leaf)) [194707, 33281, 0] (.node (.node (.node .leaf [194708, 24354, 0] .leaf) [194709, 24354, 0] .leaf) [194710, 14535, 0] (.node .leaf [194711, 144056, 0] .leaf)))))

/-- Rows of Data/Kdec.lean (proof aid). -/
def kdecT55 : Tree (List Nat) := (.node (.node (.node (.node (.node (.node .leaf [194713, 24418, 0] .leaf) [194714, 24427, 0] .leaf) [194715, 14563, 0] (.node (.node .leaf [194716, 24474, 0] .leaf) [194717, 24525, 0] .leaf)) [194718, 24535, 0] (.node (.node (.node .leaf [194719, 24569, 0] .leaf) [194720, 24705, 0] .leaf) [194721, 14650, 0] (.node .leaf [194722, 14620, 0] .leaf))) [194723, 24724, 0] (.node (.node (.node (.node .leaf [194724, 141012, 0] .leaf) [194725, 24775, 0] .leaf) [194726, 24904, 0] (.node (.node .leaf [194727, 24908, 0] .leaf) [194728, 24910, 0] .leaf)) [194729, 24908, 0] (.node (.node (.node .leaf [194730, 24954, 0] .leaf) [194731, 24974, 0] .leaf) [194732, 25010, 0] (.node .leaf [194733, 24996, 0] .leaf)))) [194734, 25007, 0] (.node (.node (.node (.node (.node .leaf [194735, 25054, 0] .leaf) [194736, 25074, 0] .leaf) [194737, 25078, 0] (.node (.node .leaf [194738, 25104, 0] .leaf) [194739, 25115, 0] .leaf)) [194740, 25181, 0] (.node (.node (.node .leaf [194741, 25265, 0] .leaf) [194742, 25300, 0] .leaf) [194743, 25424, 0] (.node .leaf [194744, 142092, 0] .leaf))) [194745, 25405, 0] (.node (.node (.node (.node .leaf [194746, 25340, 0] .leaf) [194747, 25448, 0] .leaf) [194748, 25475, 0] (.node .leaf [194749, 25572, 0] .leaf)) [194750, 142321, 0] (.node (.node (.node .leaf [194751, 25634, 0] .leaf) [194752, 25541, 0] .leaf) [194753, 25513, 0] (.node .leaf [194754, 14894, 0] .leaf)))))

/-- Rows of Data/Kdec.lean (proof aid). -/
def kdecT56 : Tree (List Nat) := (.node (.node (.node (.node (.node (.node .leaf [194756, 25726, 0] .leaf) [194757, 25757, 0] .leaf) [194758, 25719, 0] (.node (.node .leaf [194759, 14956, 0] .leaf) [194760, 25935, 0] .leaf)) [194761, 25964, 0] (.node (.node (.node .leaf [194762, 143370, 0] .leaf) [194763, 26083, 0] .leaf) [194764, 26360, 0] (.node .leaf [194765, 26185, 0] .leaf))) [194766, 15129, 0] (.node (.node (.node (.node .leaf [194767, 26257, 0] .leaf) [194768, 15112, 0] .leaf) [194769, 15076, 0] (.node (.node .leaf [194770, 20882, 0] .leaf) [194771, 20885, 0] .leaf)) [194772, 26368, 0] (.node (.node (.node .leaf [194773, 26268, 0] .leaf) [194774, 32941, 0] .leaf) [194775, 17369, 0] (.node .leaf [194776, 26391, 0] .leaf)))) [194777, 26395, 0] (.node (.node (.node (.node (.node .leaf [194778, 26401, 0] .leaf) [194779, 26462, 0] .leaf) [194780, 26451, 0] (.node (.node .leaf [194781, 144323, 0] .leaf) [194782, 15177, 0] .leaf)) [194783, 26618, 0] (.node (.node (.node .leaf [194784, 26501, 0] .leaf) [194785, 26706, 0] .leaf) [194786, 26757, 0] (.node .leaf [194787, 144493, 0] .leaf))) [194788, 26766, 0] (.node (.node (.node (.node .leaf [194789, 26655, 0] .leaf) [194790, 26900, 0] .leaf) [194791, 15261, 0] (.node (.node .leaf [194792, 26946, 0] .leaf) [194793, 27043, 0] .leaf)) [194794, 27114, 0] (.node (.node (.node .leaf [194795, 27304, 0] .leaf) [194796, 145059, 0] .leaf) [194797, 27355, 0] (.node .leaf [194798, 15384, 0] .leaf)))))

/-- Rows of Data/Kdec.lean (proof aid). -/
def kdecT57 : Tree (List Nat) := (.node (.node (.node (.node (.node (.node .leaf [194800, 145575, 0] .leaf) [194801, 27476, 0] .leaf) [194802, 15438, 0] (.node (.node .leaf [194803, 27506, 0] .leaf) [194804, 27551, 0] .leaf)) [194805, 27578, 0] (.node (.node (.node .leaf [194806, 27579, 0] .leaf) [194807, 146061, 0] .leaf) [194808, 138507, 0] (.node .leaf [194809, 146170, 0] .leaf))) [194810, 27726, 0] (.node (.node (.node (.node .leaf [194811, 146620, 0] .leaf) [194812, 27839, 0] .leaf) [194813, 27853, 0] (.node (.node .leaf [194814, 27751, 0] .leaf) [194815, 27926, 0] .leaf)) [194816, 27966, 0] (.node (.node (.node .leaf [194817, 28023, 0] .leaf) [194818, 27969, 0] .leaf) [194819, 28009, 0] (.node .leaf [194820, 28024, 0] .leaf)))) [194821, 28037, 0] (.node (.node (.node (.node (.node .leaf [194822, 146718, 0] .leaf) [194823, 27956, 0] .leaf) [194824, 28207, 0] (.node (.node .leaf [194825, 28270, 0] .leaf) [194826, 15667, 0] .leaf)) [194827, 28363, 0] (.node (.node (.node .leaf [194828, 28359, 0] .leaf) [194829, 147153, 0] .leaf) [194830, 28153, 0] (.node .leaf [194831, 28526, 0] .leaf))) [194832, 147294, 0] (.node (.node (.node (.node .leaf [194833, 147342, 0] .leaf) [194834, 28614, 0] .leaf) [194835, 28729, 0] (.node .leaf [194836, 28702, 0] .leaf)) [194837, 28699, 0] (.node (.node (.node .leaf [194838, 15766, 0] .leaf) [194839, 28746, 0] .leaf) [194840, 28797, 0] (.node .leaf [194841, 28791, 0] .leaf)))))

/-- Rows of Data/Kdec.lean (proof aid). -/
def kdecT58 : Tree (List Nat) := (.node (.node (.node (.node (.node (.node .leaf [194843, 132389, 0] .leaf) [194844, 28997, 0] .leaf) [194845, 148067, 0] (.node (.node .leaf [194846, 29084, 0] .leaf) [194847, 148395, 0] .leaf)) [194848, 29224, 0] (.node (.node (.node .leaf [194849, 29237, 0] .leaf) [194850, 29264, 0] .leaf) [194851, 149000, 0] (.node .leaf [194852, 29312, 0] .leaf))) [194853, 29333, 0] (.node (.node (.node (.node .leaf [194854, 149301, 0] .leaf) [194855, 149524, 0] .leaf) [194856, 29562, 0] (.node (.node .leaf [194857, 29579, 0] .leaf) [194858, 16044, 0] .leaf)) [194859, 29605, 0] (.node (.node (.node .leaf [194860, 16056, 0] .leaf) [194861, 16056, 0] .leaf) [194862, 29767, 0] (.node .leaf [194863, 29788, 0] .leaf)))) [194864, 29809, 0] (.node (.node (.node (.node (.node .leaf [194865, 29829, 0] .leaf) [194866, 29898, 0] .leaf) [194867, 16155, 0] (.node (.node .leaf [194868, 29988, 0] .leaf) [194869, 150582, 0] .leaf)) [194870, 30014, 0] (.node (.node (.node .leaf [194871, 150674, 0] .leaf) [194872, 30064, 0] .leaf) [194873, 139679, 0] (.node .leaf [194874, 30224, 0] .leaf))) [194875, 151457, 0] (.node (.node (.node (.node .leaf [194876, 151480, 0] .leaf) [194877, 151620, 0] .leaf) [194878, 16380, 0] (.node (.node .leaf [194879, 16392, 0] .leaf) [194880, 30452, 0] .leaf)) [194881, 151795, 0] (.node (.node (.node .leaf [194882, 151794, 0] .leaf) [194883, 151833, 0] .leaf) [194884, 151859, 0] (.node .leaf [194885, 30494, 0] .leaf)))))

/-- Rows of Data/Kdec.lean (proof aid). -/
def kdecT59 : Tree (List Nat) := (.node (.node (.node (.node (.node (.node .leaf [194887, 30495, 0] .leaf) [194888, 30538, 0] .leaf) [194889, 16441, 0] (.node (.node .leaf [194890, 30603, 0] .leaf) [194891, 16454, 0] .leaf)) [194892, 16534, 0] (.node (.node (.node .leaf [194893, 152605, 0] .leaf) [194894, 30798, 0] .leaf) [194895, 30860, 0] (.node .leaf [194896, 30924, 0] .leaf))) [194897, 16611, 0] (.node (.node (.node (.node .leaf [194898, 153126, 0] .leaf) [194899, 31062, 0] .leaf) [194900, 153242, 0] (.node (.node .leaf [194901, 153285, 0] .leaf) [194902, 31119, 0] .leaf)) [194903, 31211, 0] (.node (.node (.node .leaf [194904, 16687, 0] .leaf) [194905, 31296, 0] .leaf) [194906, 31306, 0] (.node .leaf [194907, 31311, 0] .leaf)))) [194908, 153980, 0] (.node (.node (.node (.node (.node .leaf [194909, 154279, 0] .leaf) [194910, 154279, 0] .leaf) [194911, 31470, 0] (.node (.node .leaf [194912, 16898, 0] .leaf) [194913, 154539, 0] .leaf)) [194914, 31686, 0] (.node (.node (.node .leaf [194915, 31689, 0] .leaf) [194916, 16935, 0] .leaf) [194917, 154752, 0] (.node .leaf [194918, 31954, 0] .leaf))) [194919, 17056, 0] (.node (.node (.node (.node .leaf [194920, 31976, 0] .leaf) [194921, 31971, 0] .leaf) [194922, 32000, 0] (.node .leaf [194923, 155526, 0] .leaf)) [194924, 32099, 0] (.node (.node (.node .leaf [194925, 17153, 0] .leaf) [194926, 32199, 0] .leaf) [194927, 32258, 0] (.node .leaf [194928, 32325, 0] .leaf)))))

/-- Rows of Data/Kdec.lean (proof aid). -/
def kdecT60 : Tree (List Nat) := (.node (.node (.node (.node (.node (.node .leaf [194930, 156200, 0] .leaf) [194931, 156231, 0] .leaf) [194932, 17241, 0] (.node (.node .leaf [194933, 156377, 0] .leaf) [194934, 32634, 0] .leaf)) [194935, 156478, 0] (.node (.node (.node .leaf [194936, 32661, 0] .leaf) [194937, 32762, 0] .leaf) [194938, 32773, 0] (.node .leaf [194939, 156890, 0] .leaf))) [194940, 156963, 0] (.node (.node (.node (.node .leaf [194941, 32864, 0] .leaf) [194942, 157096, 0] .leaf) [194943, 32880, 0] (.node (.node .leaf [194944, 144223, 0] .leaf) [194945, 17365, 0] .leaf)) [194946, 32946, 0] (.node (.node (.node .leaf [194947, 33027, 0] .leaf) [194948, 17419, 0] .leaf) [194949, 33086, 0] (.node .leaf [194950, 23221, 0] .leaf)))) [194951, 157607, 0] (.node (.node (.node (.node (.node .leaf [194952, 157621, 0] .leaf) [194953, 144275, 0] .leaf) [194954, 144284, 0] (.node (.node .leaf [194955, 33281, 0] .leaf) [194956, 33284, 0] .leaf)) [194957, 36766, 0] (.node (.node (.node .leaf [194958, 17515, 0] .leaf) [194959, 33425, 0] .leaf) [194960, 33419, 0] (.node .leaf [194961, 33437, 0] .leaf))) [194962, 21171, 0] (.node (.node (.node (.node .leaf [194963, 33457, 0] .leaf) [194964, 33459, 0] .leaf) [194965, 33469, 0] (.node (.node .leaf [194966, 33510, 0] .leaf) [194967, 158524, 0] .leaf)) [194968, 33509, 0] (.node (.node (.node .leaf [194969, 33565, 0] .leaf) [194970, 33635, 0] .leaf) [194971, 33709, 0] (.node .leaf [194972, 33571, 0] .leaf)))))

/-- Rows of Data/Kdec.lean (proof aid). -/
def kdecT61 : Tree (List Nat) := (.node (.node (.node (.node (.node (.node .leaf [194974, 33767, 0] .leaf) [194975, 33879, 0] .leaf) [194976, 33619, 0] (.node (.node .leaf [194977, 33738, 0] .leaf) [194978, 33740, 0] .leaf)) [194979, 33756, 0] (.node (.node (.node .leaf [194980, 158774, 0] .leaf) [194981, 159083, 0] .leaf) [194982, 158933, 0] (.node .leaf [194983, 17707, 0] .leaf))) [194984, 34033, 0] (.node (.node (.node (.node .leaf [194985, 34035, 0] .leaf) [194986, 34070, 0] .leaf) [194987, 160714, 0] (.node (.node .leaf [194988, 34148, 0] .leaf) [194989, 159532, 0] .leaf)) [194990, 17757, 0] (.node (.node (.node .leaf [194991, 17761, 0] .leaf) [194992, 159665, 0] .leaf) [194993, 159954, 0] (.node .leaf [194994, 17771, 0] .leaf)))) [194995, 34384, 0] (.node (.node (.node (.node (.node .leaf [194996, 34396, 0] .leaf) [194997, 34407, 0] .leaf) [194998, 34409, 0] (.node (.node .leaf [194999, 34473, 0] .leaf) [195000, 34440, 0] .leaf)) [195001, 34574, 0] (.node (.node (.node .leaf [195002, 34530, 0] .leaf) [195003, 34681, 0] .leaf) [195004, 34600, 0] (.node .leaf [195005, 34667, 0] .leaf))) [195006, 34694, 0] (.node (.node (.node (.node .leaf [195007, 17879, 0] .leaf) [195008, 34785, 0] .leaf) [195009, 34817, 0] (.node .leaf [195010, 17913, 0] .leaf)) [195011, 34912, 0] (.node (.node (.node .leaf [195012, 34915, 0] .leaf) [195013, 161383, 0] .leaf) [195014, 35031, 0] (.node .leaf [195015, 35038, 0] .leaf)))))

/-- Rows of Data/Kdec.lean (proof aid). -/
def kdecT62 : Tree (List Nat) := (.node (.node (.node (.node (.node (.node .leaf [195017, 35066, 0] .leaf) [195018, 13499, 0] .leaf) [195019, 161966, 0] (.node (.node .leaf [195020, 162150, 0] .leaf) [195021, 18110, 0] .leaf)) [195022, 18119, 0] (.node (.node (.node .leaf [195023, 35488, 0] .leaf) [195024, 35565, 0] .leaf) [195025, 35722, 0] (.node .leaf [195026, 35925, 0] .leaf))) [195027, 162984, 0] (.node (.node (.node (.node .leaf [195028, 36011, 0] .leaf) [195029, 36033, 0] .leaf) [195030, 36123, 0] (.node (.node .leaf [195031, 36215, 0] .leaf) [195032, 163631, 0] .leaf)) [195033, 133124, 0] (.node (.node (.node .leaf [195034, 36299, 0] .leaf) [195035, 36284, 0] .leaf) [195036, 36336, 0] (.node .leaf [195037, 133342, 0] .leaf)))) [195038, 36564, 0] (.node (.node (.node (.node (.node .leaf [195039, 36664, 0] .leaf) [195040, 165330, 0] .leaf) [195041, 165357, 0] (.node (.node .leaf [195042, 37012, 0] .leaf) [195043, 37105, 0] .leaf)) [195044, 37137, 0] (.node (.node (.node .leaf [195045, 165678, 0] .leaf) [195046, 37147, 0] .leaf) [195047, 37432, 0] (.node .leaf [195048, 37591, 0] .leaf))) [195049, 37592, 0] (.node (.node (.node (.node .leaf [195050, 37500, 0] .leaf) [195051, 37881, 0] .leaf) [195052, 37909, 0] (.node .leaf [195053, 166906, 0] .leaf)) [195054, 38283, 0] (.node (.node (.node .leaf [195055, 18837, 0] .leaf) [195056, 38327, 0] .leaf) [195057, 167287, 0] (.node .leaf [195058, 18918, 0] .leaf)))))

/-- Rows of Data/Kdec.lean (proof aid). -/
def kdecT63 : Tree (List Nat) := (.node (.node (.node (.node (.node (.node .leaf [195060, 23986, 0] .leaf) [195061, 38691, 0] .leaf) [195062, 168261, 0] (.node (.node .leaf [195063, 168474, 0] .leaf) [195064, 19054, 0] .leaf)) [195065, 19062, 0] (.node (.node (.node .leaf [195066, 38880, 0] .leaf) [195067, 168970, 0] .leaf) [195068, 19122, 0] (.node .leaf [195069, 169110, 0] .leaf))) [195070, 38923, 0] (.node (.node (.node (.node .leaf [195071, 38923, 0] .leaf) [195072, 38953, 0] .leaf) [195073, 169398, 0] (.node (.node .leaf [195074, 39138, 0] .leaf) [195075, 19251, 0] .leaf)) [195076, 39209, 0] (.node (.node (.node .leaf [195077, 39335, 0] .leaf) [195078, 39362, 0] .leaf) [195079, 39422, 0] (.node .leaf [195080, 19406, 0] .leaf)))) [195081, 170800, 0] (.node (.node (.node (.node (.node .leaf [195082, 39698, 0] .leaf) [195083, 40000, 0] .leaf) [195084, 40189, 0] (.node (.node .leaf [195085, 19662, 0] .leaf) [195086, 19693, 0] .leaf)) [195087, 40295, 0] (.node (.node (.node .leaf [195088, 172238, 0] .leaf) [195089, 19704, 0] .leaf) [195090, 172293, 0] (.node .leaf [195091, 172558, 0] .leaf))) [195092, 172689, 0] (.node (.node (.node (.node .leaf [195093, 40635, 0] .leaf) [195094, 19798, 0] .leaf) [195095, 40697, 0] (.node .leaf [195096, 40702, 0] .leaf)) [195097, 40709, 0] (.node (.node (.node .leaf [195098, 40719, 0] .leaf) [195099, 40726, 0] .leaf) [195100, 40763, 0] (.node .leaf [195101, 173568, 0] .leaf)))))

/-- All rows of Data/Kdec.lean (proof aid). -/
@[irreducible] def kdecTree : Tree (List Nat) := (.node (.node (.node (.node (.node (.node kdecT0 [237, 105, 769, 0] kdecT1) [286, 71, 774, 0] (.node kdecT2 [340, 82, 769, 0] kdecT3)) [417, 111, 795, 0] (.node (.node kdecT4 [496, 106, 780, 0] kdecT5) [543, 104, 780, 0] (.node kdecT6 [943, 953, 769, 0] kdecT7))) [1235, 1072, 776, 0] (.node (.node (.node kdecT8 [2356, 2355, 2364, 0] kdecT9) [3763, 3789, 3762, 0] (.node kdecT10 [7690, 68, 775, 0] kdecT11)) [7733, 107, 817, 0] (.node (.node kdecT12 [7777, 115, 775, 0] kdecT13) [7820, 88, 776, 0] (.node kdecT14 [7868, 69, 771, 0] kdecT15)))) [7911, 117, 777, 0] (.node (.node (.node (.node kdecT16 [7963, 917, 788, 768, 0] kdecT17) [8010, 927, 787, 768, 0] (.node kdecT18 [8060, 969, 768, 0] kdecT19)) [8105, 937, 788, 837, 0] (.node (.node kdecT20 [8153, 921, 772, 0] kdecT21) [8202, 32, 0] (.node kdecT22 [8554, 88, 73, 0] kdecT23))) [8813, 8781, 824, 0] (.node (.node (.node kdecT24 [9347, 40, 49, 54, 41, 0] kdecT25) [9390, 40, 115, 41, 0] (.node kdecT26 [12061, 21475, 0] kdecT27)) [12104, 26352, 0] (.node (.node kdecT28 [12148, 31435, 0] kdecT29) [12191, 36763, 0] (.node kdecT30 [12234, 40657, 0] kdecT31))))) [12444, 32, 12442, 0] (.node (.node (.node (.node (.node kdecT32 [12604, 4530, 0] kdecT33) [12647, 4551, 0] (.node kdecT34 [12804, 40, 4358, 41, 0] kdecT35)) [12848, 40, 26085, 41, 0] (.node (.node kdecT36 [13156, 49, 50, 28857, 0] kdecT37) [13310, 51, 49, 26085, 0] (.node kdecT38 [63787, 29436, 0] kdecT39))) [63830, 31260, 0] (.node (.node (.node kdecT40 [63874, 24300, 0] kdecT41) [63917, 29618, 0] (.node kdecT42 [63961, 24900, 0] kdecT43)) [64004, 23429, 0] (.node (.node kdecT44 [64060, 23662, 0] kdecT45) [64103, 36920, 0] (.node kdecT46 [64148, 26454, 0] kdecT47)))) [64191, 35641, 0] (.node (.node (.node (.node kdecT48 [64301, 1513, 1468, 1474, 0] kdecT49) [70476, 70471, 70487, 0] (.node kdecT50 [127262, 40, 79, 41, 0] kdecT51)) [194581, 20877, 0] (.node (.node kdecT52 [194625, 21750, 0] kdecT53) [194668, 137672, 0] (.node kdecT54 [194712, 156122, 0] kdecT55))) [194755, 25705, 0] (.node (.node (.node kdecT56 [194799, 27425, 0] kdecT57) [194842, 28845, 0] (.node kdecT58 [194886, 30495, 0] kdecT59)) [194929, 17204, 0] (.node (.node kdecT60 [194973, 33725, 0] kdecT61) [195016, 17973, 0] (.node kdecT62 [195059, 38595, 0] kdecT63))))))

end U5e.Data
