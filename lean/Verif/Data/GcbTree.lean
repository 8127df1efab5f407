import Verif.Proofs.Tree
import Verif.Model.GcbEnum
set_option maxRecDepth 10000
/-! GENERATED by tools/gen_trees.py: the rows of Data/Gcb.lean as a search tree (proof aid). -/
namespace U5e.Data
open U5e

/-- Rows of Data/Gcb.lean (proof aid). -/
def gcbT0 : Tree (Nat × Nat × GCB) := (.node (.node (.node (.node (.node (.node .leaf (0, 9, .CONTROL) .leaf) (10, 10, .LF) .leaf) (11, 12, .CONTROL) (.node (.node .leaf (13, 13, .CR) .leaf) (14, 31, .CONTROL) .leaf)) (127, 159, .CONTROL) (.node (.node (.node .leaf (173, 173, .CONTROL) .leaf) (768, 879, .EXTEND) .leaf) (1155, 1159, .EXTEND) (.node .leaf (1160, 1161, .EXTEND) .leaf))) (1425, 1469, .EXTEND) (.node (.node (.node (.node .leaf (1471, 1471, .EXTEND) .leaf) (1473, 1474, .EXTEND) .leaf) (1476, 1477, .EXTEND) (.node .leaf (1479, 1479, .EXTEND) .leaf)) (1536, 1541, .PREPEND) (.node (.node (.node .leaf (1552, 1562, .EXTEND) .leaf) (1564, 1564, .CONTROL) .leaf) (1611, 1631, .EXTEND) (.node .leaf (1648, 1648, .EXTEND) .leaf)))) (1750, 1756, .EXTEND) (.node (.node (.node (.node (.node .leaf (1757, 1757, .PREPEND) .leaf) (1759, 1764, .EXTEND) .leaf) (1767, 1768, .EXTEND) (.node (.node .leaf (1770, 1773, .EXTEND) .leaf) (1807, 1807, .PREPEND) .leaf)) (1809, 1809, .EXTEND) (.node (.node (.node .leaf (1840, 1866, .EXTEND) .leaf) (1958, 1968, .EXTEND) .leaf) (2027, 2035, .EXTEND) (.node .leaf (2070, 2073, .EXTEND) .leaf))) (2075, 2083, .EXTEND) (.node (.node (.node (.node .leaf (2085, 2087, .EXTEND) .leaf) (2089, 2093, .EXTEND) .leaf) (2137, 2139, .EXTEND) (.node .leaf (2260, 2273, .EXTEND) .leaf)) (2274, 2274, .PREPEND) (.node (.node (.node .leaf (2275, 2306, .EXTEND) .leaf) (2307, 2307, .SPACINGMARK) .leaf) (2362, 2362, .EXTEND) (.node .leaf (2363, 2363, .SPACINGMARK) .leaf)))))

/-- Rows of Data/Gcb.lean (proof aid). -/
def gcbT1 : Tree (Nat × Nat × GCB) := (.node (.node (.node (.node (.node (.node .leaf (2366, 2368, .SPACINGMARK) .leaf) (2369, 2376, .EXTEND) .leaf) (2377, 2380, .SPACINGMARK) (.node (.node .leaf (2381, 2381, .EXTEND) .leaf) (2382, 2383, .SPACINGMARK) .leaf)) (2385, 2391, .EXTEND) (.node (.node (.node .leaf (2402, 2403, .EXTEND) .leaf) (2433, 2433, .EXTEND) .leaf) (2434, 2435, .SPACINGMARK) (.node .leaf (2492, 2492, .EXTEND) .leaf))) (2494, 2494, .EXTEND) (.node (.node (.node (.node .leaf (2495, 2496, .SPACINGMARK) .leaf) (2497, 2500, .EXTEND) .leaf) (2503, 2504, .SPACINGMARK) (.node .leaf (2507, 2508, .SPACINGMARK) .leaf)) (2509, 2509, .EXTEND) (.node (.node (.node .leaf (2519, 2519, .EXTEND) .leaf) (2530, 2531, .EXTEND) .leaf) (2561, 2562, .EXTEND) (.node .leaf (2563, 2563, .SPACINGMARK) .leaf)))) (2620, 2620, .EXTEND) (.node (.node (.node (.node (.node .leaf (2622, 2624, .SPACINGMARK) .leaf) (2625, 2626, .EXTEND) .leaf) (2631, 2632, .EXTEND) (.node .leaf (2635, 2637, .EXTEND) .leaf)) (2641, 2641, .EXTEND) (.node (.node (.node .leaf (2672, 2673, .EXTEND) .leaf) (2677, 2677, .EXTEND) .leaf) (2689, 2690, .EXTEND) (.node .leaf (2691, 2691, .SPACINGMARK) .leaf))) (2748, 2748, .EXTEND) (.node (.node (.node (.node .leaf (2750, 2752, .SPACINGMARK) .leaf) (2753, 2757, .EXTEND) .leaf) (2759, 2760, .EXTEND) (.node .leaf (2761, 2761, .SPACINGMARK) .leaf)) (2763, 2764, .SPACINGMARK) (.node (.node (.node .leaf (2765, 2765, .EXTEND) .leaf) (2786, 2787, .EXTEND) .leaf) (2817, 2817, .EXTEND) (.node .leaf (2818, 2819, .SPACINGMARK) .leaf)))))

/-- Rows of Data/Gcb.lean (proof aid). -/
def gcbT2 : Tree (Nat × Nat × GCB) := (.node (.node (.node (.node (.node (.node .leaf (2878, 2878, .EXTEND) .leaf) (2879, 2879, .EXTEND) .leaf) (2880, 2880, .SPACINGMARK) (.node (.node .leaf (2881, 2884, .EXTEND) .leaf) (2887, 2888, .SPACINGMARK) .leaf)) (2891, 2892, .SPACINGMARK) (.node (.node (.node .leaf (2893, 2893, .EXTEND) .leaf) (2902, 2902, .EXTEND) .leaf) (2903, 2903, .EXTEND) (.node .leaf (2914, 2915, .EXTEND) .leaf))) (2946, 2946, .EXTEND) (.node (.node (.node (.node .leaf (3006, 3006, .EXTEND) .leaf) (3007, 3007, .SPACINGMARK) .leaf) (3008, 3008, .EXTEND) (.node .leaf (3009, 3010, .SPACINGMARK) .leaf)) (3014, 3016, .SPACINGMARK) (.node (.node (.node .leaf (3018, 3020, .SPACINGMARK) .leaf) (3021, 3021, .EXTEND) .leaf) (3031, 3031, .EXTEND) (.node .leaf (3072, 3072, .EXTEND) .leaf)))) (3073, 3075, .SPACINGMARK) (.node (.node (.node (.node (.node .leaf (3134, 3136, .EXTEND) .leaf) (3137, 3140, .SPACINGMARK) .leaf) (3142, 3144, .EXTEND) (.node (.node .leaf (3146, 3149, .EXTEND) .leaf) (3157, 3158, .EXTEND) .leaf)) (3170, 3171, .EXTEND) (.node (.node (.node .leaf (3201, 3201, .EXTEND) .leaf) (3202, 3203, .SPACINGMARK) .leaf) (3260, 3260, .EXTEND) (.node .leaf (3262, 3262, .SPACINGMARK) .leaf))) (3263, 3263, .EXTEND) (.node (.node (.node (.node .leaf (3264, 3265, .SPACINGMARK) .leaf) (3266, 3266, .EXTEND) .leaf) (3267, 3268, .SPACINGMARK) (.node .leaf (3270, 3270, .EXTEND) .leaf)) (3271, 3272, .SPACINGMARK) (.node (.node (.node .leaf (3274, 3275, .SPACINGMARK) .leaf) (3276, 3277, .EXTEND) .leaf) (3285, 3286, .EXTEND) (.node .leaf (3298, 3299, .EXTEND) .leaf)))))

/-- Rows of Data/Gcb.lean (proof aid). -/
def gcbT3 : Tree (Nat × Nat × GCB) := (.node (.node (.node (.node (.node (.node .leaf (3330, 3331, .SPACINGMARK) .leaf) (3390, 3390, .EXTEND) .leaf) (3391, 3392, .SPACINGMARK) (.node (.node .leaf (3393, 3396, .EXTEND) .leaf) (3398, 3400, .SPACINGMARK) .leaf)) (3402, 3404, .SPACINGMARK) (.node (.node (.node .leaf (3405, 3405, .EXTEND) .leaf) (3406, 3406, .PREPEND) .leaf) (3415, 3415, .EXTEND) (.node .leaf (3426, 3427, .EXTEND) .leaf))) (3458, 3459, .SPACINGMARK) (.node (.node (.node (.node .leaf (3530, 3530, .EXTEND) .leaf) (3535, 3535, .EXTEND) .leaf) (3536, 3537, .SPACINGMARK) (.node .leaf (3538, 3540, .EXTEND) .leaf)) (3542, 3542, .EXTEND) (.node (.node (.node .leaf (3544, 3550, .SPACINGMARK) .leaf) (3551, 3551, .EXTEND) .leaf) (3570, 3571, .SPACINGMARK) (.node .leaf (3633, 3633, .EXTEND) .leaf)))) (3635, 3635, .SPACINGMARK) (.node (.node (.node (.node (.node .leaf (3636, 3642, .EXTEND) .leaf) (3655, 3662, .EXTEND) .leaf) (3761, 3761, .EXTEND) (.node .leaf (3763, 3763, .SPACINGMARK) .leaf)) (3764, 3769, .EXTEND) (.node (.node (.node .leaf (3771, 3772, .EXTEND) .leaf) (3784, 3789, .EXTEND) .leaf) (3864, 3865, .EXTEND) (.node .leaf (3893, 3893, .EXTEND) .leaf))) (3895, 3895, .EXTEND) (.node (.node (.node (.node .leaf (3897, 3897, .EXTEND) .leaf) (3902, 3903, .SPACINGMARK) .leaf) (3953, 3966, .EXTEND) (.node .leaf (3967, 3967, .SPACINGMARK) .leaf)) (3968, 3972, .EXTEND) (.node (.node (.node .leaf (3974, 3975, .EXTEND) .leaf) (3981, 3991, .EXTEND) .leaf) (3993, 4028, .EXTEND) (.node .leaf (4038, 4038, .EXTEND) .leaf)))))

/-- Rows of Data/Gcb.lean (proof aid). -/
def gcbT4 : Tree (Nat × Nat × GCB) := (.node (.node (.node (.node (.node (.node .leaf (4145, 4145, .SPACINGMARK) .leaf) (4146, 4151, .EXTEND) .leaf) (4153, 4154, .EXTEND) (.node (.node .leaf (4155, 4156, .SPACINGMARK) .leaf) (4157, 4158, .EXTEND) .leaf)) (4182, 4183, .SPACINGMARK) (.node (.node (.node .leaf (4184, 4185, .EXTEND) .leaf) (4190, 4192, .EXTEND) .leaf) (4209, 4212, .EXTEND) (.node .leaf (4226, 4226, .EXTEND) .leaf))) (4228, 4228, .SPACINGMARK) (.node (.node (.node (.node .leaf (4229, 4230, .EXTEND) .leaf) (4237, 4237, .EXTEND) .leaf) (4253, 4253, .EXTEND) (.node .leaf (4352, 4447, .L) .leaf)) (4448, 4519, .V) (.node (.node (.node .leaf (4520, 4607, .T) .leaf) (4957, 4959, .EXTEND) .leaf) (5906, 5908, .EXTEND) (.node .leaf (5938, 5940, .EXTEND) .leaf)))) (5970, 5971, .EXTEND) (.node (.node (.node (.node (.node .leaf (6002, 6003, .EXTEND) .leaf) (6068, 6069, .EXTEND) .leaf) (6070, 6070, .SPACINGMARK) (.node (.node .leaf (6071, 6077, .EXTEND) .leaf) (6078, 6085, .SPACINGMARK) .leaf)) (6086, 6086, .EXTEND) (.node (.node (.node .leaf (6087, 6088, .SPACINGMARK) .leaf) (6089, 6099, .EXTEND) .leaf) (6109, 6109, .EXTEND) (.node .leaf (6155, 6157, .EXTEND) .leaf))) (6158, 6158, .CONTROL) (.node (.node (.node (.node .leaf (6277, 6278, .EXTEND) .leaf) (6313, 6313, .EXTEND) .leaf) (6432, 6434, .EXTEND) (.node .leaf (6435, 6438, .SPACINGMARK) .leaf)) (6439, 6440, .EXTEND) (.node (.node (.node .leaf (6441, 6443, .SPACINGMARK) .leaf) (6448, 6449, .SPACINGMARK) .leaf) (6450, 6450, .EXTEND) (.node .leaf (6451, 6456, .SPACINGMARK) .leaf)))))

/-- Rows of Data/Gcb.lean (proof aid). -/
def gcbT5 : Tree (Nat × Nat × GCB) := (.node (.node (.node (.node (.node (.node .leaf (6679, 6680, .EXTEND) .leaf) (6681, 6682, .SPACINGMARK) .leaf) (6683, 6683, .EXTEND) (.node (.node .leaf (6741, 6741, .SPACINGMARK) .leaf) (6742, 6742, .EXTEND) .leaf)) (6743, 6743, .SPACINGMARK) (.node (.node (.node .leaf (6744, 6750, .EXTEND) .leaf) (6752, 6752, .EXTEND) .leaf) (6754, 6754, .EXTEND) (.node .leaf (6757, 6764, .EXTEND) .leaf))) (6765, 6770, .SPACINGMARK) (.node (.node (.node (.node .leaf (6771, 6780, .EXTEND) .leaf) (6783, 6783, .EXTEND) .leaf) (6832, 6845, .EXTEND) (.node .leaf (6846, 6846, .EXTEND) .leaf)) (6912, 6915, .EXTEND) (.node (.node (.node .leaf (6916, 6916, .SPACINGMARK) .leaf) (6964, 6964, .EXTEND) .leaf) (6965, 6965, .SPACINGMARK) (.node .leaf (6966, 6970, .EXTEND) .leaf)))) (6971, 6971, .SPACINGMARK) (.node (.node (.node (.node (.node .leaf (6972, 6972, .EXTEND) .leaf) (6973, 6977, .SPACINGMARK) .leaf) (6978, 6978, .EXTEND) (.node .leaf (6979, 6980, .SPACINGMARK) .leaf)) (7019, 7027, .EXTEND) (.node (.node (.node .leaf (7040, 7041, .EXTEND) .leaf) (7042, 7042, .SPACINGMARK) .leaf) (7073, 7073, .SPACINGMARK) (.node .leaf (7074, 7077, .EXTEND) .leaf))) (7078, 7079, .SPACINGMARK) (.node (.node (.node (.node .leaf (7080, 7081, .EXTEND) .leaf) (7082, 7082, .SPACINGMARK) .leaf) (7083, 7085, .EXTEND) (.node .leaf (7142, 7142, .EXTEND) .leaf)) (7143, 7143, .SPACINGMARK) (.node (.node (.node .leaf (7144, 7145, .EXTEND) .leaf) (7146, 7148, .SPACINGMARK) .leaf) (7149, 7149, .EXTEND) (.node .leaf (7150, 7150, .SPACINGMARK) .leaf)))))

/-- Rows of Data/Gcb.lean (proof aid). -/
def gcbT6 : Tree (Nat × Nat × GCB) := (.node (.node (.node (.node (.node (.node .leaf (7154, 7155, .SPACINGMARK) .leaf) (7204, 7211, .SPACINGMARK) .leaf) (7212, 7219, .EXTEND) (.node (.node .leaf (7220, 7221, .SPACINGMARK) .leaf) (7222, 7223, .EXTEND) .leaf)) (7376, 7378, .EXTEND) (.node (.node (.node .leaf (7380, 7392, .EXTEND) .leaf) (7393, 7393, .SPACINGMARK) .leaf) (7394, 7400, .EXTEND) (.node .leaf (7405, 7405, .EXTEND) .leaf))) (7410, 7411, .SPACINGMARK) (.node (.node (.node (.node .leaf (7412, 7412, .EXTEND) .leaf) (7416, 7417, .EXTEND) .leaf) (7616, 7669, .EXTEND) (.node .leaf (7675, 7679, .EXTEND) .leaf)) (8203, 8203, .CONTROL) (.node (.node (.node .leaf (8204, 8204, .EXTEND) .leaf) (8205, 8205, .ZWJ) .leaf) (8206, 8207, .CONTROL) (.node .leaf (8232, 8232, .CONTROL) .leaf)))) (8233, 8233, .CONTROL) (.node (.node (.node (.node (.node .leaf (8234, 8238, .CONTROL) .leaf) (8288, 8292, .CONTROL) .leaf) (8293, 8293, .CONTROL) (.node (.node .leaf (8294, 8303, .CONTROL) .leaf) (8400, 8412, .EXTEND) .leaf)) (8413, 8416, .EXTEND) (.node (.node (.node .leaf (8417, 8417, .EXTEND) .leaf) (8418, 8420, .EXTEND) .leaf) (8421, 8432, .EXTEND) (.node .leaf (9757, 9757, .E_BASE) .leaf))) (9977, 9977, .E_BASE) (.node (.node (.node (.node .leaf (9994, 9997, .E_BASE) .leaf) (10084, 10084, .GLUE_AFTER_ZWJ) .leaf) (11503, 11505, .EXTEND) (.node .leaf (11647, 11647, .EXTEND) .leaf)) (11744, 11775, .EXTEND) (.node (.node (.node .leaf (12330, 12333, .EXTEND) .leaf) (12334, 12335, .EXTEND) .leaf) (12441, 12442, .EXTEND) (.node .leaf (42607, 42607, .EXTEND) .leaf)))))

/-- Rows of Data/Gcb.lean (proof aid). -/
def gcbT7 : Tree (Nat × Nat × GCB) := (.node (.node (.node (.node (.node (.node .leaf (42612, 42621, .EXTEND) .leaf) (42654, 42655, .EXTEND) .leaf) (42736, 42737, .EXTEND) (.node (.node .leaf (43010, 43010, .EXTEND) .leaf) (43014, 43014, .EXTEND) .leaf)) (43019, 43019, .EXTEND) (.node (.node (.node .leaf (43043, 43044, .SPACINGMARK) .leaf) (43045, 43046, .EXTEND) .leaf) (43047, 43047, .SPACINGMARK) (.node .leaf (43136, 43137, .SPACINGMARK) .leaf))) (43188, 43203, .SPACINGMARK) (.node (.node (.node (.node .leaf (43204, 43205, .EXTEND) .leaf) (43232, 43249, .EXTEND) .leaf) (43302, 43309, .EXTEND) (.node .leaf (43335, 43345, .EXTEND) .leaf)) (43346, 43347, .SPACINGMARK) (.node (.node (.node .leaf (43360, 43388, .L) .leaf) (43392, 43394, .EXTEND) .leaf) (43395, 43395, .SPACINGMARK) (.node .leaf (43443, 43443, .EXTEND) .leaf)))) (43444, 43445, .SPACINGMARK) (.node (.node (.node (.node (.node .leaf (43446, 43449, .EXTEND) .leaf) (43450, 43451, .SPACINGMARK) .leaf) (43452, 43452, .EXTEND) (.node .leaf (43453, 43456, .SPACINGMARK) .leaf)) (43493, 43493, .EXTEND) (.node (.node (.node .leaf (43561, 43566, .EXTEND) .leaf) (43567, 43568, .SPACINGMARK) .leaf) (43569, 43570, .EXTEND) (.node .leaf (43571, 43572, .SPACINGMARK) .leaf))) (43573, 43574, .EXTEND) (.node (.node (.node (.node .leaf (43587, 43587, .EXTEND) .leaf) (43596, 43596, .EXTEND) .leaf) (43597, 43597, .SPACINGMARK) (.node .leaf (43644, 43644, .EXTEND) .leaf)) (43696, 43696, .EXTEND) (.node (.node (.node .leaf (43698, 43700, .EXTEND) .leaf) (43703, 43704, .EXTEND) .leaf) (43710, 43711, .EXTEND) (.node .leaf (43713, 43713, .EXTEND) .leaf)))))

/-- Rows of Data/Gcb.lean (proof aid). -/
def gcbT8 : Tree (Nat × Nat × GCB) := (.node (.node (.node (.node (.node (.node .leaf (43756, 43757, .EXTEND) .leaf) (43758, 43759, .SPACINGMARK) .leaf) (43765, 43765, .SPACINGMARK) (.node (.node .leaf (43766, 43766, .EXTEND) .leaf) (44003, 44004, .SPACINGMARK) .leaf)) (44005, 44005, .EXTEND) (.node (.node (.node .leaf (44006, 44007, .SPACINGMARK) .leaf) (44008, 44008, .EXTEND) .leaf) (44009, 44010, .SPACINGMARK) (.node .leaf (44012, 44012, .SPACINGMARK) .leaf))) (44013, 44013, .EXTEND) (.node (.node (.node (.node .leaf (44032, 44032, .LV) .leaf) (44033, 44059, .LVT) .leaf) (44060, 44060, .LV) (.node .leaf (44061, 44087, .LVT) .leaf)) (44088, 44088, .LV) (.node (.node (.node .leaf (44089, 44115, .LVT) .leaf) (44116, 44116, .LV) .leaf) (44117, 44143, .LVT) (.node .leaf (44144, 44144, .LV) .leaf)))) (44145, 44171, .LVT) (.node (.node (.node (.node (.node .leaf (44172, 44172, .LV) .leaf) (44173, 44199, .LVT) .leaf) (44200, 44200, .LV) (.node (.node .leaf (44201, 44227, .LVT) .leaf) (44228, 44228, .LV) .leaf)) (44229, 44255, .LVT) (.node (.node (.node .leaf (44256, 44256, .LV) .leaf) (44257, 44283, .LVT) .leaf) (44284, 44284, .LV) (.node .leaf (44285, 44311, .LVT) .leaf))) (44312, 44312, .LV) (.node (.node (.node (.node .leaf (44313, 44339, .LVT) .leaf) (44340, 44340, .LV) .leaf) (44341, 44367, .LVT) (.node .leaf (44368, 44368, .LV) .leaf)) (44369, 44395, .LVT) (.node (.node (.node .leaf (44396, 44396, .LV) .leaf) (44397, 44423, .LVT) .leaf) (44424, 44424, .LV) (.node .leaf (44425, 44451, .LVT) .leaf)))))

/-- Rows of Data/Gcb.lean (proof aid). -/
def gcbT9 : Tree (Nat × Nat × GCB) := (.node (.node (.node (.node (.node (.node .leaf (44453, 44479, .LVT) .leaf) (44480, 44480, .LV) .leaf) (44481, 44507, .LVT) (.node (.node .leaf (44508, 44508, .LV) .leaf) (44509, 44535, .LVT) .leaf)) (44536, 44536, .LV) (.node (.node (.node .leaf (44537, 44563, .LVT) .leaf) (44564, 44564, .LV) .leaf) (44565, 44591, .LVT) (.node .leaf (44592, 44592, .LV) .leaf))) (44593, 44619, .LVT) (.node (.node (.node (.node .leaf (44620, 44620, .LV) .leaf) (44621, 44647, .LVT) .leaf) (44648, 44648, .LV) (.node .leaf (44649, 44675, .LVT) .leaf)) (44676, 44676, .LV) (.node (.node (.node .leaf (44677, 44703, .LVT) .leaf) (44704, 44704, .LV) .leaf) (44705, 44731, .LVT) (.node .leaf (44732, 44732, .LV) .leaf)))) (44733, 44759, .LVT) (.node (.node (.node (.node (.node .leaf (44760, 44760, .LV) .leaf) (44761, 44787, .LVT) .leaf) (44788, 44788, .LV) (.node .leaf (44789, 44815, .LVT) .leaf)) (44816, 44816, .LV) (.node (.node (.node .leaf (44817, 44843, .LVT) .leaf) (44844, 44844, .LV) .leaf) (44845, 44871, .LVT) (.node .leaf (44872, 44872, .LV) .leaf))) (44873, 44899, .LVT) (.node (.node (.node (.node .leaf (44900, 44900, .LV) .leaf) (44901, 44927, .LVT) .leaf) (44928, 44928, .LV) (.node .leaf (44929, 44955, .LVT) .leaf)) (44956, 44956, .LV) (.node (.node (.node .leaf (44957, 44983, .LVT) .leaf) (44984, 44984, .LV) .leaf) (44985, 45011, .LVT) (.node .leaf (45012, 45012, .LV) .leaf)))))

/-- Rows of Data/Gcb.lean (proof aid). -/
def gcbT10 : Tree (Nat × Nat × GCB) := (.node (.node (.node (.node (.node (.node .leaf (45040, 45040, .LV) .leaf) (45041, 45067, .LVT) .leaf) (45068, 45068, .LV) (.node (.node .leaf (45069, 45095, .LVT) .leaf) (45096, 45096, .LV) .leaf)) (45097, 45123, .LVT) (.node (.node (.node .leaf (45124, 45124, .LV) .leaf) (45125, 45151, .LVT) .leaf) (45152, 45152, .LV) (.node .leaf (45153, 45179, .LVT) .leaf))) (45180, 45180, .LV) (.node (.node (.node (.node .leaf (45181, 45207, .LVT) .leaf) (45208, 45208, .LV) .leaf) (45209, 45235, .LVT) (.node .leaf (45236, 45236, .LV) .leaf)) (45237, 45263, .LVT) (.node (.node (.node .leaf (45264, 45264, .LV) .leaf) (45265, 45291, .LVT) .leaf) (45292, 45292, .LV) (.node .leaf (45293, 45319, .LVT) .leaf)))) (45320, 45320, .LV) (.node (.node (.node (.node (.node .leaf (45321, 45347, .LVT) .leaf) (45348, 45348, .LV) .leaf) (45349, 45375, .LVT) (.node (.node .leaf (45376, 45376, .LV) .leaf) (45377, 45403, .LVT) .leaf)) (45404, 45404, .LV) (.node (.node (.node .leaf (45405, 45431, .LVT) .leaf) (45432, 45432, .LV) .leaf) (45433, 45459, .LVT) (.node .leaf (45460, 45460, .LV) .leaf))) (45461, 45487, .LVT) (.node (.node (.node (.node .leaf (45488, 45488, .LV) .leaf) (45489, 45515, .LVT) .leaf) (45516, 45516, .LV) (.node .leaf (45517, 45543, .LVT) .leaf)) (45544, 45544, .LV) (.node (.node (.node .leaf (45545, 45571, .LVT) .leaf) (45572, 45572, .LV) .leaf) (45573, 45599, .LVT) (.node .leaf (45600, 45600, .LV) .leaf)))))

/-- Rows of Data/Gcb.lean (proof aid). -/
def gcbT11 : Tree (Nat × Nat × GCB) := (.node (.node (.node (.node (.node (.node .leaf (45628, 45628, .LV) .leaf) (45629, 45655, .LVT) .leaf) (45656, 45656, .LV) (.node (.node .leaf (45657, 45683, .LVT) .leaf) (45684, 45684, .LV) .leaf)) (45685, 45711, .LVT) (.node (.node (.node .leaf (45712, 45712, .LV) .leaf) (45713, 45739, .LVT) .leaf) (45740, 45740, .LV) (.node .leaf (45741, 45767, .LVT) .leaf))) (45768, 45768, .LV) (.node (.node (.node (.node .leaf (45769, 45795, .LVT) .leaf) (45796, 45796, .LV) .leaf) (45797, 45823, .LVT) (.node .leaf (45824, 45824, .LV) .leaf)) (45825, 45851, .LVT) (.node (.node (.node .leaf (45852, 45852, .LV) .leaf) (45853, 45879, .LVT) .leaf) (45880, 45880, .LV) (.node .leaf (45881, 45907, .LVT) .leaf)))) (45908, 45908, .LV) (.node (.node (.node (.node (.node .leaf (45909, 45935, .LVT) .leaf) (45936, 45936, .LV) .leaf) (45937, 45963, .LVT) (.node .leaf (45964, 45964, .LV) .leaf)) (45965, 45991, .LVT) (.node (.node (.node .leaf (45992, 45992, .LV) .leaf) (45993, 46019, .LVT) .leaf) (46020, 46020, .LV) (.node .leaf (46021, 46047, .LVT) .leaf))) (46048, 46048, .LV) (.node (.node (.node (.node .leaf (46049, 46075, .LVT) .leaf) (46076, 46076, .LV) .leaf) (46077, 46103, .LVT) (.node .leaf (46104, 46104, .LV) .leaf)) (46105, 46131, .LVT) (.node (.node (.node .leaf (46132, 46132, .LV) .leaf) (46133, 46159, .LVT) .leaf) (46160, 46160, .LV) (.node .leaf (46161, 46187, .LVT) .leaf)))))

/-- Rows of Data/Gcb.lean (proof aid). -/
def gcbT12 : Tree (Nat × Nat × GCB) := (.node (.node (.node (.node (.node (.node .leaf (46189, 46215, .LVT) .leaf) (46216, 46216, .LV) .leaf) (46217, 46243, .LVT) (.node (.node .leaf (46244, 46244, .LV) .leaf) (46245, 46271, .LVT) .leaf)) (46272, 46272, .LV) (.node (.node (.node .leaf (46273, 46299, .LVT) .leaf) (46300, 46300, .LV) .leaf) (46301, 46327, .LVT) (.node .leaf (46328, 46328, .LV) .leaf))) (46329, 46355, .LVT) (.node (.node (.node (.node .leaf (46356, 46356, .LV) .leaf) (46357, 46383, .LVT) .leaf) (46384, 46384, .LV) (.node .leaf (46385, 46411, .LVT) .leaf)) (46412, 46412, .LV) (.node (.node (.node .leaf (46413, 46439, .LVT) .leaf) (46440, 46440, .LV) .leaf) (46441, 46467, .LVT) (.node .leaf (46468, 46468, .LV) .leaf)))) (46469, 46495, .LVT) (.node (.node (.node (.node (.node .leaf (46496, 46496, .LV) .leaf) (46497, 46523, .LVT) .leaf) (46524, 46524, .LV) (.node (.node .leaf (46525, 46551, .LVT) .leaf) (46552, 46552, .LV) .leaf)) (46553, 46579, .LVT) (.node (.node (.node .leaf (46580, 46580, .LV) .leaf) (46581, 46607, .LVT) .leaf) (46608, 46608, .LV) (.node .leaf (46609, 46635, .LVT) .leaf))) (46636, 46636, .LV) (.node (.node (.node (.node .leaf (46637, 46663, .LVT) .leaf) (46664, 46664, .LV) .leaf) (46665, 46691, .LVT) (.node .leaf (46692, 46692, .LV) .leaf)) (46693, 46719, .LVT) (.node (.node (.node .leaf (46720, 46720, .LV) .leaf) (46721, 46747, .LVT) .leaf) (46748, 46748, .LV) (.node .leaf (46749, 46775, .LVT) .leaf)))))

/-- Rows of Data/Gcb.lean (proof aid). -/
def gcbT13 : Tree (Nat × Nat × GCB) := (.node (.node (.node (.node (.node (.node .leaf (46777, 46803, .LVT) .leaf) (46804, 46804, .LV) .leaf) (46805, 46831, .LVT) (.node (.node .leaf (46832, 46832, .LV) .leaf) (46833, 46859, .LVT) .leaf)) (46860, 46860, .LV) (.node (.node (.node .leaf (46861, 46887, .LVT) .leaf) (46888, 46888, .LV) .leaf) (46889, 46915, .LVT) (.node .leaf (46916, 46916, .LV) .leaf))) (46917, 46943, .LVT) (.node (.node (.node (.node .leaf (46944, 46944, .LV) .leaf) (46945, 46971, .LVT) .leaf) (46972, 46972, .LV) (.node .leaf (46973, 46999, .LVT) .leaf)) (47000, 47000, .LV) (.node (.node (.node .leaf (47001, 47027, .LVT) .leaf) (47028, 47028, .LV) .leaf) (47029, 47055, .LVT) (.node .leaf (47056, 47056, .LV) .leaf)))) (47057, 47083, .LVT) (.node (.node (.node (.node (.node .leaf (47084, 47084, .LV) .leaf) (47085, 47111, .LVT) .leaf) (47112, 47112, .LV) (.node .leaf (47113, 47139, .LVT) .leaf)) (47140, 47140, .LV) (.node (.node (.node .leaf (47141, 47167, .LVT) .leaf) (47168, 47168, .LV) .leaf) (47169, 47195, .LVT) (.node .leaf (47196, 47196, .LV) .leaf))) (47197, 47223, .LVT) (.node (.node (.node (.node .leaf (47224, 47224, .LV) .leaf) (47225, 47251, .LVT) .leaf) (47252, 47252, .LV) (.node .leaf (47253, 47279, .LVT) .leaf)) (47280, 47280, .LV) (.node (.node (.node .leaf (47281, 47307, .LVT) .leaf) (47308, 47308, .LV) .leaf) (47309, 47335, .LVT) (.node .leaf (47336, 47336, .LV) .leaf)))))

/-- Rows of Data/Gcb.lean (proof aid). -/
def gcbT14 : Tree (Nat × Nat × GCB) := (.node (.node (.node (.node (.node (.node .leaf (47364, 47364, .LV) .leaf) (47365, 47391, .LVT) .leaf) (47392, 47392, .LV) (.node (.node .leaf (47393, 47419, .LVT) .leaf) (47420, 47420, .LV) .leaf)) (47421, 47447, .LVT) (.node (.node (.node .leaf (47448, 47448, .LV) .leaf) (47449, 47475, .LVT) .leaf) (47476, 47476, .LV) (.node .leaf (47477, 47503, .LVT) .leaf))) (47504, 47504, .LV) (.node (.node (.node (.node .leaf (47505, 47531, .LVT) .leaf) (47532, 47532, .LV) .leaf) (47533, 47559, .LVT) (.node .leaf (47560, 47560, .LV) .leaf)) (47561, 47587, .LVT) (.node (.node (.node .leaf (47588, 47588, .LV) .leaf) (47589, 47615, .LVT) .leaf) (47616, 47616, .LV) (.node .leaf (47617, 47643, .LVT) .leaf)))) (47644, 47644, .LV) (.node (.node (.node (.node (.node .leaf (47645, 47671, .LVT) .leaf) (47672, 47672, .LV) .leaf) (47673, 47699, .LVT) (.node (.node .leaf (47700, 47700, .LV) .leaf) (47701, 47727, .LVT) .leaf)) (47728, 47728, .LV) (.node (.node (.node .leaf (47729, 47755, .LVT) .leaf) (47756, 47756, .LV) .leaf) (47757, 47783, .LVT) (.node .leaf (47784, 47784, .LV) .leaf))) (47785, 47811, .LVT) (.node (.node (.node (.node .leaf (47812, 47812, .LV) .leaf) (47813, 47839, .LVT) .leaf) (47840, 47840, .LV) (.node .leaf (47841, 47867, .LVT) .leaf)) (47868, 47868, .LV) (.node (.node (.node .leaf (47869, 47895, .LVT) .leaf) (47896, 47896, .LV) .leaf) (47897, 47923, .LVT) (.node .leaf (47924, 47924, .LV) .leaf)))))

/-- Rows of Data/Gcb.lean (proof aid). -/
def gcbT15 : Tree (Nat × Nat × GCB) := (.node (.node (.node (.node (.node (.node .leaf (47952, 47952, .LV) .leaf) (47953, 47979, .LVT) .leaf) (47980, 47980, .LV) (.node (.node .leaf (47981, 48007, .LVT) .leaf) (48008, 48008, .LV) .leaf)) (48009, 48035, .LVT) (.node (.node (.node .leaf (48036, 48036, .LV) .leaf) (48037, 48063, .LVT) .leaf) (48064, 48064, .LV) (.node .leaf (48065, 48091, .LVT) .leaf))) (48092, 48092, .LV) (.node (.node (.node (.node .leaf (48093, 48119, .LVT) .leaf) (48120, 48120, .LV) .leaf) (48121, 48147, .LVT) (.node .leaf (48148, 48148, .LV) .leaf)) (48149, 48175, .LVT) (.node (.node (.node .leaf (48176, 48176, .LV) .leaf) (48177, 48203, .LVT) .leaf) (48204, 48204, .LV) (.node .leaf (48205, 48231, .LVT) .leaf)))) (48232, 48232, .LV) (.node (.node (.node (.node (.node .leaf (48233, 48259, .LVT) .leaf) (48260, 48260, .LV) .leaf) (48261, 48287, .LVT) (.node .leaf (48288, 48288, .LV) .leaf)) (48289, 48315, .LVT) (.node (.node (.node .leaf (48316, 48316, .LV) .leaf) (48317, 48343, .LVT) .leaf) (48344, 48344, .LV) (.node .leaf (48345, 48371, .LVT) .leaf))) (48372, 48372, .LV) (.node (.node (.node (.node .leaf (48373, 48399, .LVT) .leaf) (48400, 48400, .LV) .leaf) (48401, 48427, .LVT) (.node .leaf (48428, 48428, .LV) .leaf)) (48429, 48455, .LVT) (.node (.node (.node .leaf (48456, 48456, .LV) .leaf) (48457, 48483, .LVT) .leaf) (48484, 48484, .LV) (.node .leaf (48485, 48511, .LVT) .leaf)))))

/-- Rows of Data/Gcb.lean (proof aid). -/
def gcbT16 : Tree (Nat × Nat × GCB) := (.node (.node (.node (.node (.node (.node .leaf (48513, 48539, .LVT) .leaf) (48540, 48540, .LV) .leaf) (48541, 48567, .LVT) (.node (.node .leaf (48568, 48568, .LV) .leaf) (48569, 48595, .LVT) .leaf)) (48596, 48596, .LV) (.node (.node (.node .leaf (48597, 48623, .LVT) .leaf) (48624, 48624, .LV) .leaf) (48625, 48651, .LVT) (.node .leaf (48652, 48652, .LV) .leaf))) (48653, 48679, .LVT) (.node (.node (.node (.node .leaf (48680, 48680, .LV) .leaf) (48681, 48707, .LVT) .leaf) (48708, 48708, .LV) (.node .leaf (48709, 48735, .LVT) .leaf)) (48736, 48736, .LV) (.node (.node (.node .leaf (48737, 48763, .LVT) .leaf) (48764, 48764, .LV) .leaf) (48765, 48791, .LVT) (.node .leaf (48792, 48792, .LV) .leaf)))) (48793, 48819, .LVT) (.node (.node (.node (.node (.node .leaf (48820, 48820, .LV) .leaf) (48821, 48847, .LVT) .leaf) (48848, 48848, .LV) (.node (.node .leaf (48849, 48875, .LVT) .leaf) (48876, 48876, .LV) .leaf)) (48877, 48903, .LVT) (.node (.node (.node .leaf (48904, 48904, .LV) .leaf) (48905, 48931, .LVT) .leaf) (48932, 48932, .LV) (.node .leaf (48933, 48959, .LVT) .leaf))) (48960, 48960, .LV) (.node (.node (.node (.node .leaf (48961, 48987, .LVT) .leaf) (48988, 48988, .LV) .leaf) (48989, 49015, .LVT) (.node .leaf (49016, 49016, .LV) .leaf)) (49017, 49043, .LVT) (.node (.node (.node .leaf (49044, 49044, .LV) .leaf) (49045, 49071, .LVT) .leaf) (49072, 49072, .LV) (.node .leaf (49073, 49099, .LVT) .leaf)))))

/-- Rows of Data/Gcb.lean (proof aid). -/
def gcbT17 : Tree (Nat × Nat × GCB) := (.node (.node (.node (.node (.node (.node .leaf (49101, 49127, .LVT) .leaf) (49128, 49128, .LV) .leaf) (49129, 49155, .LVT) (.node (.node .leaf (49156, 49156, .LV) .leaf) (49157, 49183, .LVT) .leaf)) (49184, 49184, .LV) (.node (.node (.node .leaf (49185, 49211, .LVT) .leaf) (49212, 49212, .LV) .leaf) (49213, 49239, .LVT) (.node .leaf (49240, 49240, .LV) .leaf))) (49241, 49267, .LVT) (.node (.node (.node (.node .leaf (49268, 49268, .LV) .leaf) (49269, 49295, .LVT) .leaf) (49296, 49296, .LV) (.node .leaf (49297, 49323, .LVT) .leaf)) (49324, 49324, .LV) (.node (.node (.node .leaf (49325, 49351, .LVT) .leaf) (49352, 49352, .LV) .leaf) (49353, 49379, .LVT) (.node .leaf (49380, 49380, .LV) .leaf)))) (49381, 49407, .LVT) (.node (.node (.node (.node (.node .leaf (49408, 49408, .LV) .leaf) (49409, 49435, .LVT) .leaf) (49436, 49436, .LV) (.node .leaf (49437, 49463, .LVT) .leaf)) (49464, 49464, .LV) (.node (.node (.node .leaf (49465, 49491, .LVT) .leaf) (49492, 49492, .LV) .leaf) (49493, 49519, .LVT) (.node .leaf (49520, 49520, .LV) .leaf))) (49521, 49547, .LVT) (.node (.node (.node (.node .leaf (49548, 49548, .LV) .leaf) (49549, 49575, .LVT) .leaf) (49576, 49576, .LV) (.node .leaf (49577, 49603, .LVT) .leaf)) (49604, 49604, .LV) (.node (.node (.node .leaf (49605, 49631, .LVT) .leaf) (49632, 49632, .LV) .leaf) (49633, 49659, .LVT) (.node .leaf (49660, 49660, .LV) .leaf)))))

/-- Rows of Data/Gcb.lean (proof aid). -/
def gcbT18 : Tree (Nat × Nat × GCB) := (.node (.node (.node (.node (.node (.node .leaf (49688, 49688, .LV) .leaf) (49689, 49715, .LVT) .leaf) (49716, 49716, .LV) (.node (.node .leaf (49717, 49743, .LVT) .leaf) (49744, 49744, .LV) .leaf)) (49745, 49771, .LVT) (.node (.node (.node .leaf (49772, 49772, .LV) .leaf) (49773, 49799, .LVT) .leaf) (49800, 49800, .LV) (.node .leaf (49801, 49827, .LVT) .leaf))) (49828, 49828, .LV) (.node (.node (.node (.node .leaf (49829, 49855, .LVT) .leaf) (49856, 49856, .LV) .leaf) (49857, 49883, .LVT) (.node .leaf (49884, 49884, .LV) .leaf)) (49885, 49911, .LVT) (.node (.node (.node .leaf (49912, 49912, .LV) .leaf) (49913, 49939, .LVT) .leaf) (49940, 49940, .LV) (.node .leaf (49941, 49967, .LVT) .leaf)))) (49968, 49968, .LV) (.node (.node (.node (.node (.node .leaf (49969, 49995, .LVT) .leaf) (49996, 49996, .LV) .leaf) (49997, 50023, .LVT) (.node (.node .leaf (50024, 50024, .LV) .leaf) (50025, 50051, .LVT) .leaf)) (50052, 50052, .LV) (.node (.node (.node .leaf (50053, 50079, .LVT) .leaf) (50080, 50080, .LV) .leaf) (50081, 50107, .LVT) (.node .leaf (50108, 50108, .LV) .leaf))) (50109, 50135, .LVT) (.node (.node (.node (.node .leaf (50136, 50136, .LV) .leaf) (50137, 50163, .LVT) .leaf) (50164, 50164, .LV) (.node .leaf (50165, 50191, .LVT) .leaf)) (50192, 50192, .LV) (.node (.node (.node .leaf (50193, 50219, .LVT) .leaf) (50220, 50220, .LV) .leaf) (50221, 50247, .LVT) (.node .leaf (50248, 50248, .LV) .leaf)))))

/-- Rows of Data/Gcb.lean (proof aid). -/
def gcbT19 : Tree (Nat × Nat × GCB) := (.node (.node (.node (.node (.node (.node .leaf (50276, 50276, .LV) .leaf) (50277, 50303, .LVT) .leaf) (50304, 50304, .LV) (.node (.node .leaf (50305, 50331, .LVT) .leaf) (50332, 50332, .LV) .leaf)) (50333, 50359, .LVT) (.node (.node (.node .leaf (50360, 50360, .LV) .leaf) (50361, 50387, .LVT) .leaf) (50388, 50388, .LV) (.node .leaf (50389, 50415, .LVT) .leaf))) (50416, 50416, .LV) (.node (.node (.node (.node .leaf (50417, 50443, .LVT) .leaf) (50444, 50444, .LV) .leaf) (50445, 50471, .LVT) (.node .leaf (50472, 50472, .LV) .leaf)) (50473, 50499, .LVT) (.node (.node (.node .leaf (50500, 50500, .LV) .leaf) (50501, 50527, .LVT) .leaf) (50528, 50528, .LV) (.node .leaf (50529, 50555, .LVT) .leaf)))) (50556, 50556, .LV) (.node (.node (.node (.node (.node .leaf (50557, 50583, .LVT) .leaf) (50584, 50584, .LV) .leaf) (50585, 50611, .LVT) (.node .leaf (50612, 50612, .LV) .leaf)) (50613, 50639, .LVT) (.node (.node (.node .leaf (50640, 50640, .LV) .leaf) (50641, 50667, .LVT) .leaf) (50668, 50668, .LV) (.node .leaf (50669, 50695, .LVT) .leaf))) (50696, 50696, .LV) (.node (.node (.node (.node .leaf (50697, 50723, .LVT) .leaf) (50724, 50724, .LV) .leaf) (50725, 50751, .LVT) (.node .leaf (50752, 50752, .LV) .leaf)) (50753, 50779, .LVT) (.node (.node (.node .leaf (50780, 50780, .LV) .leaf) (50781, 50807, .LVT) .leaf) (50808, 50808, .LV) (.node .leaf (50809, 50835, .LVT) .leaf)))))

/-- Rows of Data/Gcb.lean (proof aid). -/
def gcbT20 : Tree (Nat × Nat × GCB) := (.node (.node (.node (.node (.node (.node .leaf (50837, 50863, .LVT) .leaf) (50864, 50864, .LV) .leaf) (50865, 50891, .LVT) (.node (.node .leaf (50892, 50892, .LV) .leaf) (50893, 50919, .LVT) .leaf)) (50920, 50920, .LV) (.node (.node (.node .leaf (50921, 50947, .LVT) .leaf) (50948, 50948, .LV) .leaf) (50949, 50975, .LVT) (.node .leaf (50976, 50976, .LV) .leaf))) (50977, 51003, .LVT) (.node (.node (.node (.node .leaf (51004, 51004, .LV) .leaf) (51005, 51031, .LVT) .leaf) (51032, 51032, .LV) (.node .leaf (51033, 51059, .LVT) .leaf)) (51060, 51060, .LV) (.node (.node (.node .leaf (51061, 51087, .LVT) .leaf) (51088, 51088, .LV) .leaf) (51089, 51115, .LVT) (.node .leaf (51116, 51116, .LV) .leaf)))) (51117, 51143, .LVT) (.node (.node (.node (.node (.node .leaf (51144, 51144, .LV) .leaf) (51145, 51171, .LVT) .leaf) (51172, 51172, .LV) (.node (.node .leaf (51173, 51199, .LVT) .leaf) (51200, 51200, .LV) .leaf)) (51201, 51227, .LVT) (.node (.node (.node .leaf (51228, 51228, .LV) .leaf) (51229, 51255, .LVT) .leaf) (51256, 51256, .LV) (.node .leaf (51257, 51283, .LVT) .leaf))) (51284, 51284, .LV) (.node (.node (.node (.node .leaf (51285, 51311, .LVT) .leaf) (51312, 51312, .LV) .leaf) (51313, 51339, .LVT) (.node .leaf (51340, 51340, .LV) .leaf)) (51341, 51367, .LVT) (.node (.node (.node .leaf (51368, 51368, .LV) .leaf) (51369, 51395, .LVT) .leaf) (51396, 51396, .LV) (.node .leaf (51397, 51423, .LVT) .leaf)))))

/-- Rows of Data/Gcb.lean (proof aid). -/
def gcbT21 : Tree (Nat × Nat × GCB) := (.node (.node (.node (.node (.node (.node .leaf (51425, 51451, .LVT) .leaf) (51452, 51452, .LV) .leaf) (51453, 51479, .LVT) (.node (.node .leaf (51480, 51480, .LV) .leaf) (51481, 51507, .LVT) .leaf)) (51508, 51508, .LV) (.node (.node (.node .leaf (51509, 51535, .LVT) .leaf) (51536, 51536, .LV) .leaf) (51537, 51563, .LVT) (.node .leaf (51564, 51564, .LV) .leaf))) (51565, 51591, .LVT) (.node (.node (.node (.node .leaf (51592, 51592, .LV) .leaf) (51593, 51619, .LVT) .leaf) (51620, 51620, .LV) (.node .leaf (51621, 51647, .LVT) .leaf)) (51648, 51648, .LV) (.node (.node (.node .leaf (51649, 51675, .LVT) .leaf) (51676, 51676, .LV) .leaf) (51677, 51703, .LVT) (.node .leaf (51704, 51704, .LV) .leaf)))) (51705, 51731, .LVT) (.node (.node (.node (.node (.node .leaf (51732, 51732, .LV) .leaf) (51733, 51759, .LVT) .leaf) (51760, 51760, .LV) (.node .leaf (51761, 51787, .LVT) .leaf)) (51788, 51788, .LV) (.node (.node (.node .leaf (51789, 51815, .LVT) .leaf) (51816, 51816, .LV) .leaf) (51817, 51843, .LVT) (.node .leaf (51844, 51844, .LV) .leaf))) (51845, 51871, .LVT) (.node (.node (.node (.node .leaf (51872, 51872, .LV) .leaf) (51873, 51899, .LVT) .leaf) (51900, 51900, .LV) (.node .leaf (51901, 51927, .LVT) .leaf)) (51928, 51928, .LV) (.node (.node (.node .leaf (51929, 51955, .LVT) .leaf) (51956, 51956, .LV) .leaf) (51957, 51983, .LVT) (.node .leaf (51984, 51984, .LV) .leaf)))))

/-- Rows of Data/Gcb.lean (proof aid). -/
def gcbT22 : Tree (Nat × Nat × GCB) := (.node (.node (.node (.node (.node (.node .leaf (52012, 52012, .LV) .leaf) (52013, 52039, .LVT) .leaf) (52040, 52040, .LV) (.node (.node .leaf (52041, 52067, .LVT) .leaf) (52068, 52068, .LV) .leaf)) (52069, 52095, .LVT) (.node (.node (.node .leaf (52096, 52096, .LV) .leaf) (52097, 52123, .LVT) .leaf) (52124, 52124, .LV) (.node .leaf (52125, 52151, .LVT) .leaf))) (52152, 52152, .LV) (.node (.node (.node (.node .leaf (52153, 52179, .LVT) .leaf) (52180, 52180, .LV) .leaf) (52181, 52207, .LVT) (.node .leaf (52208, 52208, .LV) .leaf)) (52209, 52235, .LVT) (.node (.node (.node .leaf (52236, 52236, .LV) .leaf) (52237, 52263, .LVT) .leaf) (52264, 52264, .LV) (.node .leaf (52265, 52291, .LVT) .leaf)))) (52292, 52292, .LV) (.node (.node (.node (.node (.node .leaf (52293, 52319, .LVT) .leaf) (52320, 52320, .LV) .leaf) (52321, 52347, .LVT) (.node (.node .leaf (52348, 52348, .LV) .leaf) (52349, 52375, .LVT) .leaf)) (52376, 52376, .LV) (.node (.node (.node .leaf (52377, 52403, .LVT) .leaf) (52404, 52404, .LV) .leaf) (52405, 52431, .LVT) (.node .leaf (52432, 52432, .LV) .leaf))) (52433, 52459, .LVT) (.node (.node (.node (.node .leaf (52460, 52460, .LV) .leaf) (52461, 52487, .LVT) .leaf) (52488, 52488, .LV) (.node .leaf (52489, 52515, .LVT) .leaf)) (52516, 52516, .LV) (.node (.node (.node .leaf (52517, 52543, .LVT) .leaf) (52544, 52544, .LV) .leaf) (52545, 52571, .LVT) (.node .leaf (52572, 52572, .LV) .leaf)))))

/-- Rows of Data/Gcb.lean (proof aid). -/
def gcbT23 : Tree (Nat × Nat × GCB) := (.node (.node (.node (.node (.node (.node .leaf (52600, 52600, .LV) .leaf) (52601, 52627, .LVT) .leaf) (52628, 52628, .LV) (.node (.node .leaf (52629, 52655, .LVT) .leaf) (52656, 52656, .LV) .leaf)) (52657, 52683, .LVT) (.node (.node (.node .leaf (52684, 52684, .LV) .leaf) (52685, 52711, .LVT) .leaf) (52712, 52712, .LV) (.node .leaf (52713, 52739, .LVT) .leaf))) (52740, 52740, .LV) (.node (.node (.node (.node .leaf (52741, 52767, .LVT) .leaf) (52768, 52768, .LV) .leaf) (52769, 52795, .LVT) (.node .leaf (52796, 52796, .LV) .leaf)) (52797, 52823, .LVT) (.node (.node (.node .leaf (52824, 52824, .LV) .leaf) (52825, 52851, .LVT) .leaf) (52852, 52852, .LV) (.node .leaf (52853, 52879, .LVT) .leaf)))) (52880, 52880, .LV) (.node (.node (.node (.node (.node .leaf (52881, 52907, .LVT) .leaf) (52908, 52908, .LV) .leaf) (52909, 52935, .LVT) (.node .leaf (52936, 52936, .LV) .leaf)) (52937, 52963, .LVT) (.node (.node (.node .leaf (52964, 52964, .LV) .leaf) (52965, 52991, .LVT) .leaf) (52992, 52992, .LV) (.node .leaf (52993, 53019, .LVT) .leaf))) (53020, 53020, .LV) (.node (.node (.node (.node .leaf (53021, 53047, .LVT) .leaf) (53048, 53048, .LV) .leaf) (53049, 53075, .LVT) (.node .leaf (53076, 53076, .LV) .leaf)) (53077, 53103, .LVT) (.node (.node (.node .leaf (53104, 53104, .LV) .leaf) (53105, 53131, .LVT) .leaf) (53132, 53132, .LV) (.node .leaf (53133, 53159, .LVT) .leaf)))))

/-- Rows of Data/Gcb.lean (proof aid). -/
def gcbT24 : Tree (Nat × Nat × GCB) := (.node (.node (.node (.node (.node (.node .leaf (53161, 53187, .LVT) .leaf) (53188, 53188, .LV) .leaf) (53189, 53215, .LVT) (.node (.node .leaf (53216, 53216, .LV) .leaf) (53217, 53243, .LVT) .leaf)) (53244, 53244, .LV) (.node (.node (.node .leaf (53245, 53271, .LVT) .leaf) (53272, 53272, .LV) .leaf) (53273, 53299, .LVT) (.node .leaf (53300, 53300, .LV) .leaf))) (53301, 53327, .LVT) (.node (.node (.node (.node .leaf (53328, 53328, .LV) .leaf) (53329, 53355, .LVT) .leaf) (53356, 53356, .LV) (.node .leaf (53357, 53383, .LVT) .leaf)) (53384, 53384, .LV) (.node (.node (.node .leaf (53385, 53411, .LVT) .leaf) (53412, 53412, .LV) .leaf) (53413, 53439, .LVT) (.node .leaf (53440, 53440, .LV) .leaf)))) (53441, 53467, .LVT) (.node (.node (.node (.node (.node .leaf (53468, 53468, .LV) .leaf) (53469, 53495, .LVT) .leaf) (53496, 53496, .LV) (.node (.node .leaf (53497, 53523, .LVT) .leaf) (53524, 53524, .LV) .leaf)) (53525, 53551, .LVT) (.node (.node (.node .leaf (53552, 53552, .LV) .leaf) (53553, 53579, .LVT) .leaf) (53580, 53580, .LV) (.node .leaf (53581, 53607, .LVT) .leaf))) (53608, 53608, .LV) (.node (.node (.node (.node .leaf (53609, 53635, .LVT) .leaf) (53636, 53636, .LV) .leaf) (53637, 53663, .LVT) (.node .leaf (53664, 53664, .LV) .leaf)) (53665, 53691, .LVT) (.node (.node (.node .leaf (53692, 53692, .LV) .leaf) (53693, 53719, .LVT) .leaf) (53720, 53720, .LV) (.node .leaf (53721, 53747, .LVT) .leaf)))))

/-- Rows of Data/Gcb.lean (proof aid). -/
def gcbT25 : Tree (Nat × Nat × GCB) := (.node (.node (.node (.node (.node (.node .leaf (53749, 53775, .LVT) .leaf) (53776, 53776, .LV) .leaf) (53777, 53803, .LVT) (.node (.node .leaf (53804, 53804, .LV) .leaf) (53805, 53831, .LVT) .leaf)) (53832, 53832, .LV) (.node (.node (.node .leaf (53833, 53859, .LVT) .leaf) (53860, 53860, .LV) .leaf) (53861, 53887, .LVT) (.node .leaf (53888, 53888, .LV) .leaf))) (53889, 53915, .LVT) (.node (.node (.node (.node .leaf (53916, 53916, .LV) .leaf) (53917, 53943, .LVT) .leaf) (53944, 53944, .LV) (.node .leaf (53945, 53971, .LVT) .leaf)) (53972, 53972, .LV) (.node (.node (.node .leaf (53973, 53999, .LVT) .leaf) (54000, 54000, .LV) .leaf) (54001, 54027, .LVT) (.node .leaf (54028, 54028, .LV) .leaf)))) (54029, 54055, .LVT) (.node (.node (.node (.node (.node .leaf (54056, 54056, .LV) .leaf) (54057, 54083, .LVT) .leaf) (54084, 54084, .LV) (.node .leaf (54085, 54111, .LVT) .leaf)) (54112, 54112, .LV) (.node (.node (.node .leaf (54113, 54139, .LVT) .leaf) (54140, 54140, .LV) .leaf) (54141, 54167, .LVT) (.node .leaf (54168, 54168, .LV) .leaf))) (54169, 54195, .LVT) (.node (.node (.node (.node .leaf (54196, 54196, .LV) .leaf) (54197, 54223, .LVT) .leaf) (54224, 54224, .LV) (.node .leaf (54225, 54251, .LVT) .leaf)) (54252, 54252, .LV) (.node (.node (.node .leaf (54253, 54279, .LVT) .leaf) (54280, 54280, .LV) .leaf) (54281, 54307, .LVT) (.node .leaf (54308, 54308, .LV) .leaf)))))

/-- Rows of Data/Gcb.lean (proof aid). -/
def gcbT26 : Tree (Nat × Nat × GCB) := (.node (.node (.node (.node (.node (.node .leaf (54336, 54336, .LV) .leaf) (54337, 54363, .LVT) .leaf) (54364, 54364, .LV) (.node (.node .leaf (54365, 54391, .LVT) .leaf) (54392, 54392, .LV) .leaf)) (54393, 54419, .LVT) (.node (.node (.node .leaf (54420, 54420, .LV) .leaf) (54421, 54447, .LVT) .leaf) (54448, 54448, .LV) (.node .leaf (54449, 54475, .LVT) .leaf))) (54476, 54476, .LV) (.node (.node (.node (.node .leaf (54477, 54503, .LVT) .leaf) (54504, 54504, .LV) .leaf) (54505, 54531, .LVT) (.node .leaf (54532, 54532, .LV) .leaf)) (54533, 54559, .LVT) (.node (.node (.node .leaf (54560, 54560, .LV) .leaf) (54561, 54587, .LVT) .leaf) (54588, 54588, .LV) (.node .leaf (54589, 54615, .LVT) .leaf)))) (54616, 54616, .LV) (.node (.node (.node (.node (.node .leaf (54617, 54643, .LVT) .leaf) (54644, 54644, .LV) .leaf) (54645, 54671, .LVT) (.node (.node .leaf (54672, 54672, .LV) .leaf) (54673, 54699, .LVT) .leaf)) (54700, 54700, .LV) (.node (.node (.node .leaf (54701, 54727, .LVT) .leaf) (54728, 54728, .LV) .leaf) (54729, 54755, .LVT) (.node .leaf (54756, 54756, .LV) .leaf))) (54757, 54783, .LVT) (.node (.node (.node (.node .leaf (54784, 54784, .LV) .leaf) (54785, 54811, .LVT) .leaf) (54812, 54812, .LV) (.node .leaf (54813, 54839, .LVT) .leaf)) (54840, 54840, .LV) (.node (.node (.node .leaf (54841, 54867, .LVT) .leaf) (54868, 54868, .LV) .leaf) (54869, 54895, .LVT) (.node .leaf (54896, 54896, .LV) .leaf)))))

/-- Rows of Data/Gcb.lean (proof aid). -/
def gcbT27 : Tree (Nat × Nat × GCB) := (.node (.node (.node (.node (.node (.node .leaf (54924, 54924, .LV) .leaf) (54925, 54951, .LVT) .leaf) (54952, 54952, .LV) (.node (.node .leaf (54953, 54979, .LVT) .leaf) (54980, 54980, .LV) .leaf)) (54981, 55007, .LVT) (.node (.node (.node .leaf (55008, 55008, .LV) .leaf) (55009, 55035, .LVT) .leaf) (55036, 55036, .LV) (.node .leaf (55037, 55063, .LVT) .leaf))) (55064, 55064, .LV) (.node (.node (.node (.node .leaf (55065, 55091, .LVT) .leaf) (55092, 55092, .LV) .leaf) (55093, 55119, .LVT) (.node .leaf (55120, 55120, .LV) .leaf)) (55121, 55147, .LVT) (.node (.node (.node .leaf (55148, 55148, .LV) .leaf) (55149, 55175, .LVT) .leaf) (55176, 55176, .LV) (.node .leaf (55177, 55203, .LVT) .leaf)))) (55216, 55238, .V) (.node (.node (.node (.node (.node .leaf (55243, 55291, .T) .leaf) (55296, 57343, .CONTROL) .leaf) (64286, 64286, .EXTEND) (.node .leaf (65024, 65039, .EXTEND) .leaf)) (65056, 65071, .EXTEND) (.node (.node (.node .leaf (65279, 65279, .CONTROL) .leaf) (65438, 65439, .EXTEND) .leaf) (65520, 65528, .CONTROL) (.node .leaf (65529, 65531, .CONTROL) .leaf))) (66045, 66045, .EXTEND) (.node (.node (.node (.node .leaf (66272, 66272, .EXTEND) .leaf) (66422, 66426, .EXTEND) .leaf) (68097, 68099, .EXTEND) (.node .leaf (68101, 68102, .EXTEND) .leaf)) (68108, 68111, .EXTEND) (.node (.node (.node .leaf (68152, 68154, .EXTEND) .leaf) (68159, 68159, .EXTEND) .leaf) (68325, 68326, .EXTEND) (.node .leaf (69632, 69632, .SPACINGMARK) .leaf)))))

/-- Rows of Data/Gcb.lean (proof aid). -/
def gcbT28 : Tree (Nat × Nat × GCB) := (.node (.node (.node (.node (.node (.node .leaf (69634, 69634, .SPACINGMARK) .leaf) (69688, 69702, .EXTEND) .leaf) (69759, 69761, .EXTEND) (.node (.node .leaf (69762, 69762, .SPACINGMARK) .leaf) (69808, 69810, .SPACINGMARK) .leaf)) (69811, 69814, .EXTEND) (.node (.node (.node .leaf (69815, 69816, .SPACINGMARK) .leaf) (69817, 69818, .EXTEND) .leaf) (69821, 69821, .PREPEND) (.node .leaf (69888, 69890, .EXTEND) .leaf))) (69927, 69931, .EXTEND) (.node (.node (.node (.node .leaf (69932, 69932, .SPACINGMARK) .leaf) (69933, 69940, .EXTEND) .leaf) (70003, 70003, .EXTEND) (.node .leaf (70016, 70017, .EXTEND) .leaf)) (70018, 70018, .SPACINGMARK) (.node (.node (.node .leaf (70067, 70069, .SPACINGMARK) .leaf) (70070, 70078, .EXTEND) .leaf) (70079, 70080, .SPACINGMARK) (.node .leaf (70082, 70083, .PREPEND) .leaf)))) (70090, 70092, .EXTEND) (.node (.node (.node (.node (.node .leaf (70188, 70190, .SPACINGMARK) .leaf) (70191, 70193, .EXTEND) .leaf) (70194, 70195, .SPACINGMARK) (.node (.node .leaf (70196, 70196, .EXTEND) .leaf) (70197, 70197, .SPACINGMARK) .leaf)) (70198, 70199, .EXTEND) (.node (.node (.node .leaf (70206, 70206, .EXTEND) .leaf) (70367, 70367, .EXTEND) .leaf) (70368, 70370, .SPACINGMARK) (.node .leaf (70371, 70378, .EXTEND) .leaf))) (70400, 70401, .EXTEND) (.node (.node (.node (.node .leaf (70402, 70403, .SPACINGMARK) .leaf) (70460, 70460, .EXTEND) .leaf) (70462, 70462, .EXTEND) (.node .leaf (70463, 70463, .SPACINGMARK) .leaf)) (70464, 70464, .EXTEND) (.node (.node (.node .leaf (70465, 70468, .SPACINGMARK) .leaf) (70471, 70472, .SPACINGMARK) .leaf) (70475, 70477, .SPACINGMARK) (.node .leaf (70487, 70487, .EXTEND) .leaf)))))

/-- Rows of Data/Gcb.lean (proof aid). -/
def gcbT29 : Tree (Nat × Nat × GCB) := (.node (.node (.node (.node (.node (.node .leaf (70502, 70508, .EXTEND) .leaf) (70512, 70516, .EXTEND) .leaf) (70709, 70711, .SPACINGMARK) (.node (.node .leaf (70712, 70719, .EXTEND) .leaf) (70720, 70721, .SPACINGMARK) .leaf)) (70722, 70724, .EXTEND) (.node (.node (.node .leaf (70725, 70725, .SPACINGMARK) .leaf) (70726, 70726, .EXTEND) .leaf) (70832, 70832, .EXTEND) (.node .leaf (70833, 70834, .SPACINGMARK) .leaf))) (70835, 70840, .EXTEND) (.node (.node (.node (.node .leaf (70841, 70841, .SPACINGMARK) .leaf) (70842, 70842, .EXTEND) .leaf) (70843, 70844, .SPACINGMARK) (.node .leaf (70845, 70845, .EXTEND) .leaf)) (70846, 70846, .SPACINGMARK) (.node (.node (.node .leaf (70847, 70848, .EXTEND) .leaf) (70849, 70849, .SPACINGMARK) .leaf) (70850, 70851, .EXTEND) (.node .leaf (71087, 71087, .EXTEND) .leaf)))) (71088, 71089, .SPACINGMARK) (.node (.node (.node (.node (.node .leaf (71090, 71093, .EXTEND) .leaf) (71096, 71099, .SPACINGMARK) .leaf) (71100, 71101, .EXTEND) (.node .leaf (71102, 71102, .SPACINGMARK) .leaf)) (71103, 71104, .EXTEND) (.node (.node (.node .leaf (71132, 71133, .EXTEND) .leaf) (71216, 71218, .SPACINGMARK) .leaf) (71219, 71226, .EXTEND) (.node .leaf (71227, 71228, .SPACINGMARK) .leaf))) (71229, 71229, .EXTEND) (.node (.node (.node (.node .leaf (71230, 71230, .SPACINGMARK) .leaf) (71231, 71232, .EXTEND) .leaf) (71339, 71339, .EXTEND) (.node .leaf (71340, 71340, .SPACINGMARK) .leaf)) (71341, 71341, .EXTEND) (.node (.node (.node .leaf (71342, 71343, .SPACINGMARK) .leaf) (71344, 71349, .EXTEND) .leaf) (71350, 71350, .SPACINGMARK) (.node .leaf (71351, 71351, .EXTEND) .leaf)))))

/-- Rows of Data/Gcb.lean (proof aid). -/
def gcbT30 : Tree (Nat × Nat × GCB) := (.node (.node (.node (.node (.node (.node .leaf (71456, 71457, .SPACINGMARK) .leaf) (71458, 71461, .EXTEND) .leaf) (71462, 71462, .SPACINGMARK) (.node (.node .leaf (71463, 71467, .EXTEND) .leaf) (72751, 72751, .SPACINGMARK) .leaf)) (72752, 72758, .EXTEND) (.node (.node (.node .leaf (72760, 72765, .EXTEND) .leaf) (72766, 72766, .SPACINGMARK) .leaf) (72767, 72767, .EXTEND) (.node .leaf (72850, 72871, .EXTEND) .leaf))) (72873, 72873, .SPACINGMARK) (.node (.node (.node (.node .leaf (72874, 72880, .EXTEND) .leaf) (72881, 72881, .SPACINGMARK) .leaf) (72882, 72883, .EXTEND) (.node .leaf (72884, 72884, .SPACINGMARK) .leaf)) (72885, 72886, .EXTEND) (.node (.node (.node .leaf (92912, 92916, .EXTEND) .leaf) (92976, 92982, .EXTEND) .leaf) (94033, 94078, .SPACINGMARK) (.node .leaf (94095, 94098, .EXTEND) .leaf)))) (113821, 113822, .EXTEND) (.node (.node (.node (.node (.node .leaf (113824, 113827, .CONTROL) .leaf) (119141, 119141, .EXTEND) .leaf) (119142, 119142, .SPACINGMARK) (.node (.node .leaf (119143, 119145, .EXTEND) .leaf) (119149, 119149, .SPACINGMARK) .leaf)) (119150, 119154, .EXTEND) (.node (.node (.node .leaf (119155, 119162, .CONTROL) .leaf) (119163, 119170, .EXTEND) .leaf) (119173, 119179, .EXTEND) (.node .leaf (119210, 119213, .EXTEND) .leaf))) (119362, 119364, .EXTEND) (.node (.node (.node (.node .leaf (121344, 121398, .EXTEND) .leaf) (121403, 121452, .EXTEND) .leaf) (121461, 121461, .EXTEND) (.node .leaf (121476, 121476, .EXTEND) .leaf)) (121499, 121503, .EXTEND) (.node (.node (.node .leaf (121505, 121519, .EXTEND) .leaf) (122880, 122886, .EXTEND) .leaf) (122888, 122904, .EXTEND) (.node .leaf (122907, 122913, .EXTEND) .leaf)))))

/-- Rows of Data/Gcb.lean (proof aid). -/
def gcbT31 : Tree (Nat × Nat × GCB) := (.node (.node (.node (.node (.node (.node .leaf (122918, 122922, .EXTEND) .leaf) (125136, 125142, .EXTEND) .leaf) (125252, 125258, .EXTEND) (.node (.node .leaf (127462, 127487, .REGIONAL_INDICATOR) .leaf) (127877, 127877, .E_BASE) .leaf)) (127939, 127940, .E_BASE) (.node (.node (.node .leaf (127946, 127947, .E_BASE) .leaf) (127995, 127999, .E_MODIFIER) .leaf) (128066, 128067, .E_BASE) (.node .leaf (128070, 128080, .E_BASE) .leaf))) (128102, 128105, .E_BASE_GAZ) (.node (.node (.node (.node .leaf (128110, 128110, .E_BASE) .leaf) (128112, 128120, .E_BASE) .leaf) (128124, 128124, .E_BASE) (.node .leaf (128129, 128131, .E_BASE) .leaf)) (128133, 128135, .E_BASE) (.node (.node (.node .leaf (128139, 128139, .GLUE_AFTER_ZWJ) .leaf) (128170, 128170, .E_BASE) .leaf) (128373, 128373, .E_BASE) (.node .leaf (128378, 128378, .E_BASE) .leaf)))) (128400, 128400, .E_BASE) (.node (.node (.node (.node (.node .leaf (128405, 128406, .E_BASE) .leaf) (128488, 128488, .GLUE_AFTER_ZWJ) .leaf) (128581, 128583, .E_BASE) (.node .leaf (128587, 128591, .E_BASE) .leaf)) (128675, 128675, .E_BASE) (.node (.node (.node .leaf (128692, 128694, .E_BASE) .leaf) (128704, 128704, .E_BASE) .leaf) (129304, 129310, .E_BASE) (.node .leaf (129318, 129318, .E_BASE) .leaf))) (129328, 129328, .E_BASE) (.node (.node (.node (.node .leaf (129331, 129337, .E_BASE) .leaf) (129340, 129342, .E_BASE) .leaf) (917504, 917504, .CONTROL) (.node .leaf (917505, 917505, .CONTROL) .leaf)) (917506, 917535, .CONTROL) (.node (.node (.node .leaf (917536, 917631, .EXTEND) .leaf) (917632, 917759, .CONTROL) .leaf) (917760, 917999, .EXTEND) (.node .leaf (918000, 921599, .CONTROL) .leaf)))))

/-- All rows of Data/Gcb.lean (proof aid). -/
@[irreducible] def gcbTree : Tree (Nat × Nat × GCB) := (.node (.node (.node (.node (.node gcbT0 (2364, 2364, .EXTEND) gcbT1) (2876, 2876, .EXTEND) (.node gcbT2 (3329, 3329, .EXTEND) gcbT3)) (4141, 4144, .EXTEND) (.node (.node gcbT4 (6457, 6459, .EXTEND) gcbT5) (7151, 7153, .EXTEND) (.node gcbT6 (42608, 42610, .EXTEND) gcbT7))) (43755, 43755, .SPACINGMARK) (.node (.node (.node gcbT8 (44452, 44452, .LV) gcbT9) (45013, 45039, .LVT) (.node gcbT10 (45601, 45627, .LVT) gcbT11)) (46188, 46188, .LV) (.node (.node gcbT12 (46776, 46776, .LV) gcbT13) (47337, 47363, .LVT) (.node gcbT14 (47925, 47951, .LVT) gcbT15)))) (48512, 48512, .LV) (.node (.node (.node (.node gcbT16 (49100, 49100, .LV) gcbT17) (49661, 49687, .LVT) (.node gcbT18 (50249, 50275, .LVT) gcbT19)) (50836, 50836, .LV) (.node (.node gcbT20 (51424, 51424, .LV) gcbT21) (51985, 52011, .LVT) (.node gcbT22 (52573, 52599, .LVT) gcbT23))) (53160, 53160, .LV) (.node (.node (.node gcbT24 (53748, 53748, .LV) gcbT25) (54309, 54335, .LVT) (.node gcbT26 (54897, 54923, .LVT) gcbT27)) (69633, 69633, .EXTEND) (.node (.node gcbT28 (70498, 70499, .SPACINGMARK) gcbT29) (71453, 71455, .EXTEND) (.node gcbT30 (122915, 122916, .EXTEND) gcbT31)))))

end U5e.Data
