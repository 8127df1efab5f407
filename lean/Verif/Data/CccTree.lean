import Verif.Proofs.Tree
set_option maxRecDepth 10000
/-! GENERATED by tools/gen_trees.py: the rows of Data/Ccc.lean as a search tree (proof aid). -/
namespace U5e.Data
open U5e

/-- Rows of Data/Ccc.lean (proof aid). -/
def cccT0 : Tree (List Nat) := (.node (.node (.node (.node (.node (.node .leaf [768, 230] .leaf) [769, 230] (.node .leaf [770, 230] .leaf)) [771, 230] (.node (.node .leaf [772, 230] .leaf) [773, 230] .leaf)) [774, 230] (.node (.node (.node .leaf [775, 230] .leaf) [776, 230] .leaf) [777, 230] (.node (.node .leaf [778, 230] .leaf) [779, 230] .leaf))) [780, 230] (.node (.node (.node (.node .leaf [781, 230] .leaf) [782, 230] (.node .leaf [783, 230] .leaf)) [784, 230] (.node (.node .leaf [785, 230] .leaf) [786, 230] .leaf)) [787, 230] (.node (.node (.node .leaf [788, 230] .leaf) [789, 232] .leaf) [790, 220] (.node (.node .leaf [791, 220] .leaf) [792, 220] .leaf)))) [793, 220] (.node (.node (.node (.node (.node .leaf [794, 232] .leaf) [795, 216] (.node .leaf [796, 220] .leaf)) [797, 220] (.node (.node .leaf [798, 220] .leaf) [799, 220] .leaf)) [800, 220] (.node (.node (.node .leaf [801, 202] .leaf) [802, 202] .leaf) [803, 220] (.node (.node .leaf [804, 220] .leaf) [805, 220] .leaf))) [806, 220] (.node (.node (.node (.node .leaf [807, 202] .leaf) [808, 202] .leaf) [809, 220] (.node (.node .leaf [810, 220] .leaf) [811, 220] .leaf)) [812, 220] (.node (.node (.node .leaf [813, 220] .leaf) [814, 220] .leaf) [815, 220] (.node (.node .leaf [816, 220] .leaf) [817, 220] .leaf)))))

/-- Rows of Data/Ccc.lean (proof aid). -/
def cccT1 : Tree (List Nat) := (.node (.node (.node (.node (.node (.node .leaf [819, 220] .leaf) [820, 1] (.node .leaf [821, 1] .leaf)) [822, 1] (.node (.node .leaf [823, 1] .leaf) [824, 1] .leaf)) [825, 220] (.node (.node (.node .leaf [826, 220] .leaf) [827, 220] .leaf) [828, 220] (.node (.node .leaf [829, 230] .leaf) [830, 230] .leaf))) [831, 230] (.node (.node (.node (.node .leaf [832, 230] .leaf) [833, 230] (.node .leaf [834, 230] .leaf)) [835, 230] (.node (.node .leaf [836, 230] .leaf) [837, 240] .leaf)) [838, 230] (.node (.node (.node .leaf [839, 220] .leaf) [840, 220] .leaf) [841, 220] (.node (.node .leaf [842, 230] .leaf) [843, 230] .leaf)))) [844, 230] (.node (.node (.node (.node (.node .leaf [845, 220] .leaf) [846, 220] (.node .leaf [848, 230] .leaf)) [849, 230] (.node (.node .leaf [850, 230] .leaf) [851, 220] .leaf)) [852, 220] (.node (.node (.node .leaf [853, 220] .leaf) [854, 220] .leaf) [855, 230] (.node (.node .leaf [856, 232] .leaf) [857, 220] .leaf))) [858, 220] (.node (.node (.node (.node .leaf [859, 230] .leaf) [860, 233] .leaf) [861, 234] (.node (.node .leaf [862, 234] .leaf) [863, 233] .leaf)) [864, 234] (.node (.node (.node .leaf [865, 234] .leaf) [866, 233] .leaf) [867, 230] (.node (.node .leaf [868, 230] .leaf) [869, 230] .leaf)))))

/-- Rows of Data/Ccc.lean (proof aid). -/
def cccT2 : Tree (List Nat) := (.node (.node (.node (.node (.node (.node .leaf [871, 230] .leaf) [872, 230] (.node .leaf [873, 230] .leaf)) [874, 230] (.node (.node .leaf [875, 230] .leaf) [876, 230] .leaf)) [877, 230] (.node (.node (.node .leaf [878, 230] .leaf) [879, 230] .leaf) [1155, 230] (.node (.node .leaf [1156, 230] .leaf) [1157, 230] .leaf))) [1158, 230] (.node (.node (.node (.node .leaf [1159, 230] .leaf) [1425, 220] (.node .leaf [1426, 230] .leaf)) [1427, 230] (.node (.node .leaf [1428, 230] .leaf) [1429, 230] .leaf)) [1430, 220] (.node (.node (.node .leaf [1431, 230] .leaf) [1432, 230] .leaf) [1433, 230] (.node (.node .leaf [1434, 222] .leaf) [1435, 220] .leaf)))) [1436, 230] (.node (.node (.node (.node (.node .leaf [1437, 230] .leaf) [1438, 230] (.node .leaf [1439, 230] .leaf)) [1440, 230] (.node (.node .leaf [1441, 230] .leaf) [1442, 220] .leaf)) [1443, 220] (.node (.node (.node .leaf [1444, 220] .leaf) [1445, 220] .leaf) [1446, 220] (.node (.node .leaf [1447, 220] .leaf) [1448, 230] .leaf))) [1449, 230] (.node (.node (.node (.node .leaf [1450, 220] .leaf) [1451, 230] .leaf) [1452, 230] (.node (.node .leaf [1453, 222] .leaf) [1454, 228] .leaf)) [1455, 230] (.node (.node (.node .leaf [1456, 10] .leaf) [1457, 11] .leaf) [1458, 12] (.node (.node .leaf [1459, 13] .leaf) [1460, 14] .leaf)))))

/-- Rows of Data/Ccc.lean (proof aid). -/
def cccT3 : Tree (List Nat) := (.node (.node (.node (.node (.node (.node .leaf [1462, 16] .leaf) [1463, 17] (.node .leaf [1464, 18] .leaf)) [1465, 19] (.node (.node .leaf [1466, 19] .leaf) [1467, 20] .leaf)) [1468, 21] (.node (.node (.node .leaf [1469, 22] .leaf) [1471, 23] .leaf) [1473, 24] (.node (.node .leaf [1474, 25] .leaf) [1476, 230] .leaf))) [1477, 220] (.node (.node (.node (.node .leaf [1479, 18] .leaf) [1552, 230] (.node .leaf [1553, 230] .leaf)) [1554, 230] (.node (.node .leaf [1555, 230] .leaf) [1556, 230] .leaf)) [1557, 230] (.node (.node (.node .leaf [1558, 230] .leaf) [1559, 230] .leaf) [1560, 30] (.node (.node .leaf [1561, 31] .leaf) [1562, 32] .leaf)))) [1611, 27] (.node (.node (.node (.node (.node .leaf [1612, 28] .leaf) [1613, 29] (.node .leaf [1614, 30] .leaf)) [1615, 31] (.node (.node .leaf [1616, 32] .leaf) [1617, 33] .leaf)) [1618, 34] (.node (.node (.node .leaf [1619, 230] .leaf) [1620, 230] .leaf) [1621, 220] (.node (.node .leaf [1622, 220] .leaf) [1623, 230] .leaf))) [1624, 230] (.node (.node (.node (.node .leaf [1625, 230] .leaf) [1626, 230] .leaf) [1627, 230] (.node (.node .leaf [1628, 220] .leaf) [1629, 230] .leaf)) [1630, 230] (.node (.node (.node .leaf [1631, 220] .leaf) [1648, 35] .leaf) [1750, 230] (.node (.node .leaf [1751, 230] .leaf) [1752, 230] .leaf)))))

/-- Rows of Data/Ccc.lean (proof aid). -/
def cccT4 : Tree (List Nat) := (.node (.node (.node (.node (.node (.node .leaf [1754, 230] .leaf) [1755, 230] (.node .leaf [1756, 230] .leaf)) [1759, 230] (.node (.node .leaf [1760, 230] .leaf) [1761, 230] .leaf)) [1762, 230] (.node (.node (.node .leaf [1763, 220] .leaf) [1764, 230] .leaf) [1767, 230] (.node (.node .leaf [1768, 230] .leaf) [1770, 220] .leaf))) [1771, 230] (.node (.node (.node (.node .leaf [1772, 230] .leaf) [1773, 220] (.node .leaf [1809, 36] .leaf)) [1840, 230] (.node (.node .leaf [1841, 220] .leaf) [1842, 230] .leaf)) [1843, 230] (.node (.node (.node .leaf [1844, 220] .leaf) [1845, 230] .leaf) [1846, 230] (.node (.node .leaf [1847, 220] .leaf) [1848, 220] .leaf)))) [1849, 220] (.node (.node (.node (.node (.node .leaf [1850, 230] .leaf) [1851, 220] (.node .leaf [1852, 220] .leaf)) [1853, 230] (.node (.node .leaf [1854, 220] .leaf) [1855, 230] .leaf)) [1856, 230] (.node (.node (.node .leaf [1857, 230] .leaf) [1858, 220] .leaf) [1859, 230] (.node (.node .leaf [1860, 220] .leaf) [1861, 230] .leaf))) [1862, 220] (.node (.node (.node (.node .leaf [1863, 230] .leaf) [1864, 220] .leaf) [1865, 230] (.node (.node .leaf [1866, 230] .leaf) [2027, 230] .leaf)) [2028, 230] (.node (.node (.node .leaf [2029, 230] .leaf) [2030, 230] .leaf) [2031, 230] (.node (.node .leaf [2032, 230] .leaf) [2033, 230] .leaf)))))

/-- Rows of Data/Ccc.lean (proof aid). -/
def cccT5 : Tree (List Nat) := (.node (.node (.node (.node (.node (.node .leaf [2035, 230] .leaf) [2070, 230] (.node .leaf [2071, 230] .leaf)) [2072, 230] (.node (.node .leaf [2073, 230] .leaf) [2075, 230] .leaf)) [2076, 230] (.node (.node (.node .leaf [2077, 230] .leaf) [2078, 230] .leaf) [2079, 230] (.node (.node .leaf [2080, 230] .leaf) [2081, 230] .leaf))) [2082, 230] (.node (.node (.node (.node .leaf [2083, 230] .leaf) [2085, 230] (.node .leaf [2086, 230] .leaf)) [2087, 230] (.node (.node .leaf [2089, 230] .leaf) [2090, 230] .leaf)) [2091, 230] (.node (.node (.node .leaf [2092, 230] .leaf) [2093, 230] .leaf) [2137, 220] (.node (.node .leaf [2138, 220] .leaf) [2139, 220] .leaf)))) [2260, 230] (.node (.node (.node (.node (.node .leaf [2261, 230] .leaf) [2262, 230] (.node .leaf [2263, 230] .leaf)) [2264, 230] (.node (.node .leaf [2265, 230] .leaf) [2266, 230] .leaf)) [2267, 230] (.node (.node (.node .leaf [2268, 230] .leaf) [2269, 230] .leaf) [2270, 230] (.node (.node .leaf [2271, 230] .leaf) [2272, 230] .leaf))) [2273, 230] (.node (.node (.node (.node .leaf [2275, 220] .leaf) [2276, 230] .leaf) [2277, 230] (.node (.node .leaf [2278, 220] .leaf) [2279, 230] .leaf)) [2280, 230] (.node (.node (.node .leaf [2281, 220] .leaf) [2282, 230] .leaf) [2283, 230] (.node (.node .leaf [2284, 230] .leaf) [2285, 220] .leaf)))))

/-- Rows of Data/Ccc.lean (proof aid). -/
def cccT6 : Tree (List Nat) := (.node (.node (.node (.node (.node (.node .leaf [2287, 220] .leaf) [2288, 27] (.node .leaf [2289, 28] .leaf)) [2290, 29] (.node (.node .leaf [2291, 230] .leaf) [2292, 230] .leaf)) [2293, 230] (.node (.node (.node .leaf [2294, 220] .leaf) [2295, 230] .leaf) [2296, 230] (.node (.node .leaf [2297, 220] .leaf) [2298, 220] .leaf))) [2299, 230] (.node (.node (.node (.node .leaf [2300, 230] .leaf) [2301, 230] (.node .leaf [2302, 230] .leaf)) [2303, 230] (.node (.node .leaf [2364, 7] .leaf) [2381, 9] .leaf)) [2385, 230] (.node (.node (.node .leaf [2386, 220] .leaf) [2387, 230] .leaf) [2388, 230] (.node (.node .leaf [2492, 7] .leaf) [2509, 9] .leaf)))) [2620, 7] (.node (.node (.node (.node (.node .leaf [2637, 9] .leaf) [2748, 7] (.node .leaf [2765, 9] .leaf)) [2876, 7] (.node (.node .leaf [2893, 9] .leaf) [3021, 9] .leaf)) [3149, 9] (.node (.node (.node .leaf [3157, 84] .leaf) [3158, 91] .leaf) [3260, 7] (.node (.node .leaf [3277, 9] .leaf) [3405, 9] .leaf))) [3530, 9] (.node (.node (.node (.node .leaf [3640, 103] .leaf) [3641, 103] .leaf) [3642, 9] (.node (.node .leaf [3656, 107] .leaf) [3657, 107] .leaf)) [3658, 107] (.node (.node (.node .leaf [3659, 107] .leaf) [3768, 118] .leaf) [3769, 118] (.node (.node .leaf [3784, 122] .leaf) [3785, 122] .leaf)))))

/-- Rows of Data/Ccc.lean (proof aid). -/
def cccT7 : Tree (List Nat) := (.node (.node (.node (.node (.node (.node .leaf [3787, 122] .leaf) [3864, 220] (.node .leaf [3865, 220] .leaf)) [3893, 220] (.node (.node .leaf [3895, 220] .leaf) [3897, 216] .leaf)) [3953, 129] (.node (.node (.node .leaf [3954, 130] .leaf) [3956, 132] .leaf) [3962, 130] (.node (.node .leaf [3963, 130] .leaf) [3964, 130] .leaf))) [3965, 130] (.node (.node (.node (.node .leaf [3968, 130] .leaf) [3970, 230] (.node .leaf [3971, 230] .leaf)) [3972, 9] (.node (.node .leaf [3974, 230] .leaf) [3975, 230] .leaf)) [4038, 220] (.node (.node (.node .leaf [4151, 7] .leaf) [4153, 9] .leaf) [4154, 9] (.node (.node .leaf [4237, 220] .leaf) [4957, 230] .leaf)))) [4958, 230] (.node (.node (.node (.node (.node .leaf [4959, 230] .leaf) [5908, 9] (.node .leaf [5940, 9] .leaf)) [6098, 9] (.node (.node .leaf [6109, 230] .leaf) [6313, 228] .leaf)) [6457, 222] (.node (.node (.node .leaf [6458, 230] .leaf) [6459, 220] .leaf) [6679, 230] (.node (.node .leaf [6680, 220] .leaf) [6752, 9] .leaf))) [6773, 230] (.node (.node (.node (.node .leaf [6774, 230] .leaf) [6775, 230] .leaf) [6776, 230] (.node (.node .leaf [6777, 230] .leaf) [6778, 230] .leaf)) [6779, 230] (.node (.node (.node .leaf [6780, 230] .leaf) [6783, 220] .leaf) [6832, 230] (.node (.node .leaf [6833, 230] .leaf) [6834, 230] .leaf)))))

/-- Rows of Data/Ccc.lean (proof aid). -/
def cccT8 : Tree (List Nat) := (.node (.node (.node (.node (.node (.node .leaf [6836, 230] .leaf) [6837, 220] (.node .leaf [6838, 220] .leaf)) [6839, 220] (.node (.node .leaf [6840, 220] .leaf) [6841, 220] .leaf)) [6842, 220] (.node (.node (.node .leaf [6843, 230] .leaf) [6844, 230] .leaf) [6845, 220] (.node (.node .leaf [6964, 7] .leaf) [6980, 9] .leaf))) [7019, 230] (.node (.node (.node (.node .leaf [7020, 220] .leaf) [7021, 230] (.node .leaf [7022, 230] .leaf)) [7023, 230] (.node (.node .leaf [7024, 230] .leaf) [7025, 230] .leaf)) [7026, 230] (.node (.node (.node .leaf [7027, 230] .leaf) [7082, 9] .leaf) [7083, 9] (.node (.node .leaf [7142, 7] .leaf) [7154, 9] .leaf)))) [7155, 9] (.node (.node (.node (.node (.node .leaf [7223, 7] .leaf) [7376, 230] (.node .leaf [7377, 230] .leaf)) [7378, 230] (.node (.node .leaf [7380, 1] .leaf) [7381, 220] .leaf)) [7382, 220] (.node (.node (.node .leaf [7383, 220] .leaf) [7384, 220] .leaf) [7385, 220] (.node (.node .leaf [7386, 230] .leaf) [7387, 230] .leaf))) [7388, 220] (.node (.node (.node (.node .leaf [7389, 220] .leaf) [7390, 220] .leaf) [7391, 220] (.node (.node .leaf [7392, 230] .leaf) [7394, 1] .leaf)) [7395, 1] (.node (.node (.node .leaf [7396, 1] .leaf) [7397, 1] .leaf) [7398, 1] (.node (.node .leaf [7399, 1] .leaf) [7400, 1] .leaf)))))

/-- Rows of Data/Ccc.lean (proof aid). -/
def cccT9 : Tree (List Nat) := (.node (.node (.node (.node (.node (.node .leaf [7412, 230] .leaf) [7416, 230] (.node .leaf [7417, 230] .leaf)) [7616, 230] (.node (.node .leaf [7617, 230] .leaf) [7618, 220] .leaf)) [7619, 230] (.node (.node (.node .leaf [7620, 230] .leaf) [7621, 230] .leaf) [7622, 230] (.node (.node .leaf [7623, 230] .leaf) [7624, 230] .leaf))) [7625, 230] (.node (.node (.node (.node .leaf [7626, 220] .leaf) [7627, 230] (.node .leaf [7628, 230] .leaf)) [7629, 234] (.node (.node .leaf [7630, 214] .leaf) [7631, 220] .leaf)) [7632, 202] (.node (.node (.node .leaf [7633, 230] .leaf) [7634, 230] .leaf) [7635, 230] (.node (.node .leaf [7636, 230] .leaf) [7637, 230] .leaf)))) [7638, 230] (.node (.node (.node (.node (.node .leaf [7639, 230] .leaf) [7640, 230] (.node .leaf [7641, 230] .leaf)) [7642, 230] (.node (.node .leaf [7643, 230] .leaf) [7644, 230] .leaf)) [7645, 230] (.node (.node (.node .leaf [7646, 230] .leaf) [7647, 230] .leaf) [7648, 230] (.node (.node .leaf [7649, 230] .leaf) [7650, 230] .leaf))) [7651, 230] (.node (.node (.node (.node .leaf [7652, 230] .leaf) [7653, 230] .leaf) [7654, 230] (.node (.node .leaf [7655, 230] .leaf) [7656, 230] .leaf)) [7657, 230] (.node (.node (.node .leaf [7658, 230] .leaf) [7659, 230] .leaf) [7660, 230] (.node (.node .leaf [7661, 230] .leaf) [7662, 230] .leaf)))))

/-- Rows of Data/Ccc.lean (proof aid). -/
def cccT10 : Tree (List Nat) := (.node (.node (.node (.node (.node (.node .leaf [7664, 230] .leaf) [7665, 230] (.node .leaf [7666, 230] .leaf)) [7667, 230] (.node (.node .leaf [7668, 230] .leaf) [7669, 230] .leaf)) [7675, 230] (.node (.node (.node .leaf [7676, 233] .leaf) [7677, 220] .leaf) [7678, 230] (.node (.node .leaf [7679, 220] .leaf) [8400, 230] .leaf))) [8401, 230] (.node (.node (.node (.node .leaf [8402, 1] .leaf) [8403, 1] (.node .leaf [8404, 230] .leaf)) [8405, 230] (.node (.node .leaf [8406, 230] .leaf) [8407, 230] .leaf)) [8408, 1] (.node (.node (.node .leaf [8409, 1] .leaf) [8410, 1] .leaf) [8411, 230] (.node (.node .leaf [8412, 230] .leaf) [8417, 230] .leaf)))) [8421, 1] (.node (.node (.node (.node (.node .leaf [8422, 1] .leaf) [8423, 230] (.node .leaf [8424, 220] .leaf)) [8425, 230] (.node (.node .leaf [8426, 1] .leaf) [8427, 1] .leaf)) [8428, 220] (.node (.node (.node .leaf [8429, 220] .leaf) [8430, 220] .leaf) [8431, 220] (.node (.node .leaf [8432, 230] .leaf) [11503, 230] .leaf))) [11504, 230] (.node (.node (.node (.node .leaf [11505, 230] .leaf) [11647, 9] .leaf) [11744, 230] (.node (.node .leaf [11745, 230] .leaf) [11746, 230] .leaf)) [11747, 230] (.node (.node (.node .leaf [11748, 230] .leaf) [11749, 230] .leaf) [11750, 230] (.node (.node .leaf [11751, 230] .leaf) [11752, 230] .leaf)))))

/-- Rows of Data/Ccc.lean (proof aid). -/
def cccT11 : Tree (List Nat) := (.node (.node (.node (.node (.node (.node .leaf [11754, 230] .leaf) [11755, 230] (.node .leaf [11756, 230] .leaf)) [11757, 230] (.node (.node .leaf [11758, 230] .leaf) [11759, 230] .leaf)) [11760, 230] (.node (.node (.node .leaf [11761, 230] .leaf) [11762, 230] .leaf) [11763, 230] (.node (.node .leaf [11764, 230] .leaf) [11765, 230] .leaf))) [11766, 230] (.node (.node (.node (.node .leaf [11767, 230] .leaf) [11768, 230] (.node .leaf [11769, 230] .leaf)) [11770, 230] (.node (.node .leaf [11771, 230] .leaf) [11772, 230] .leaf)) [11773, 230] (.node (.node (.node .leaf [11774, 230] .leaf) [11775, 230] .leaf) [12330, 218] (.node (.node .leaf [12331, 228] .leaf) [12332, 232] .leaf)))) [12333, 222] (.node (.node (.node (.node (.node .leaf [12334, 224] .leaf) [12335, 224] (.node .leaf [12441, 8] .leaf)) [12442, 8] (.node (.node .leaf [42607, 230] .leaf) [42612, 230] .leaf)) [42613, 230] (.node (.node (.node .leaf [42614, 230] .leaf) [42615, 230] .leaf) [42616, 230] (.node (.node .leaf [42617, 230] .leaf) [42618, 230] .leaf))) [42619, 230] (.node (.node (.node (.node .leaf [42620, 230] .leaf) [42621, 230] .leaf) [42654, 230] (.node (.node .leaf [42655, 230] .leaf) [42736, 230] .leaf)) [42737, 230] (.node (.node (.node .leaf [43014, 9] .leaf) [43204, 9] .leaf) [43232, 230] (.node (.node .leaf [43233, 230] .leaf) [43234, 230] .leaf)))))

/-- Rows of Data/Ccc.lean (proof aid). -/
def cccT12 : Tree (List Nat) := (.node (.node (.node (.node (.node (.node .leaf [43236, 230] .leaf) [43237, 230] (.node .leaf [43238, 230] .leaf)) [43239, 230] (.node (.node .leaf [43240, 230] .leaf) [43241, 230] .leaf)) [43242, 230] (.node (.node (.node .leaf [43243, 230] .leaf) [43244, 230] .leaf) [43245, 230] (.node (.node .leaf [43246, 230] .leaf) [43247, 230] .leaf))) [43248, 230] (.node (.node (.node (.node .leaf [43249, 230] .leaf) [43307, 220] (.node .leaf [43308, 220] .leaf)) [43309, 220] (.node (.node .leaf [43347, 9] .leaf) [43443, 7] .leaf)) [43456, 9] (.node (.node (.node .leaf [43696, 230] .leaf) [43698, 230] .leaf) [43699, 230] (.node (.node .leaf [43700, 220] .leaf) [43703, 230] .leaf)))) [43704, 230] (.node (.node (.node (.node (.node .leaf [43710, 230] .leaf) [43711, 230] (.node .leaf [43713, 230] .leaf)) [43766, 9] (.node (.node .leaf [44013, 9] .leaf) [64286, 26] .leaf)) [65056, 230] (.node (.node (.node .leaf [65057, 230] .leaf) [65058, 230] .leaf) [65059, 230] (.node (.node .leaf [65060, 230] .leaf) [65061, 230] .leaf))) [65062, 230] (.node (.node (.node (.node .leaf [65063, 220] .leaf) [65064, 220] .leaf) [65065, 220] (.node (.node .leaf [65066, 220] .leaf) [65067, 220] .leaf)) [65068, 220] (.node (.node (.node .leaf [65069, 220] .leaf) [65070, 230] .leaf) [65071, 230] (.node (.node .leaf [66045, 220] .leaf) [66272, 220] .leaf)))))

/-- Rows of Data/Ccc.lean (proof aid). -/
def cccT13 : Tree (List Nat) := (.node (.node (.node (.node (.node (.node .leaf [66423, 230] .leaf) [66424, 230] (.node .leaf [66425, 230] .leaf)) [66426, 230] (.node (.node .leaf [68109, 220] .leaf) [68111, 230] .leaf)) [68152, 230] (.node (.node (.node .leaf [68153, 1] .leaf) [68154, 220] .leaf) [68159, 9] (.node (.node .leaf [68325, 230] .leaf) [68326, 220] .leaf))) [69702, 9] (.node (.node (.node (.node .leaf [69759, 9] .leaf) [69817, 9] (.node .leaf [69818, 7] .leaf)) [69888, 230] (.node (.node .leaf [69889, 230] .leaf) [69890, 230] .leaf)) [69939, 9] (.node (.node (.node .leaf [69940, 9] .leaf) [70003, 7] .leaf) [70080, 9] (.node (.node .leaf [70090, 7] .leaf) [70197, 9] .leaf)))) [70198, 7] (.node (.node (.node (.node (.node .leaf [70377, 7] .leaf) [70378, 9] (.node .leaf [70460, 7] .leaf)) [70477, 9] (.node (.node .leaf [70502, 230] .leaf) [70503, 230] .leaf)) [70504, 230] (.node (.node (.node .leaf [70505, 230] .leaf) [70506, 230] .leaf) [70507, 230] (.node (.node .leaf [70508, 230] .leaf) [70512, 230] .leaf))) [70513, 230] (.node (.node (.node (.node .leaf [70514, 230] .leaf) [70515, 230] .leaf) [70516, 230] (.node (.node .leaf [70722, 9] .leaf) [70726, 7] .leaf)) [70850, 9] (.node (.node (.node .leaf [70851, 7] .leaf) [71103, 9] .leaf) [71104, 7] (.node (.node .leaf [71231, 9] .leaf) [71350, 9] .leaf)))))

/-- Rows of Data/Ccc.lean (proof aid). -/
def cccT14 : Tree (List Nat) := (.node (.node (.node (.node (.node (.node .leaf [71467, 9] .leaf) [72767, 9] (.node .leaf [92912, 1] .leaf)) [92913, 1] (.node (.node .leaf [92914, 1] .leaf) [92915, 1] .leaf)) [92916, 1] (.node (.node (.node .leaf [92976, 230] .leaf) [92977, 230] .leaf) [92978, 230] (.node (.node .leaf [92979, 230] .leaf) [92980, 230] .leaf))) [92981, 230] (.node (.node (.node (.node .leaf [92982, 230] .leaf) [113822, 1] (.node .leaf [119141, 216] .leaf)) [119142, 216] (.node (.node .leaf [119143, 1] .leaf) [119144, 1] .leaf)) [119145, 1] (.node (.node (.node .leaf [119149, 226] .leaf) [119150, 216] .leaf) [119151, 216] (.node (.node .leaf [119152, 216] .leaf) [119153, 216] .leaf)))) [119154, 216] (.node (.node (.node (.node (.node .leaf [119163, 220] .leaf) [119164, 220] (.node .leaf [119165, 220] .leaf)) [119166, 220] (.node (.node .leaf [119167, 220] .leaf) [119168, 220] .leaf)) [119169, 220] (.node (.node (.node .leaf [119170, 220] .leaf) [119173, 230] .leaf) [119174, 230] (.node (.node .leaf [119175, 230] .leaf) [119176, 230] .leaf))) [119177, 230] (.node (.node (.node (.node .leaf [119178, 220] .leaf) [119179, 220] .leaf) [119210, 230] (.node (.node .leaf [119211, 230] .leaf) [119212, 230] .leaf)) [119213, 230] (.node (.node (.node .leaf [119362, 230] .leaf) [119363, 230] .leaf) [119364, 230] (.node (.node .leaf [122880, 230] .leaf) [122881, 230] .leaf)))))

/-- Rows of Data/Ccc.lean (proof aid). -/
def cccT15 : Tree (List Nat) := (.node (.node (.node (.node (.node (.node .leaf [122883, 230] .leaf) [122884, 230] (.node .leaf [122885, 230] .leaf)) [122886, 230] (.node (.node .leaf [122888, 230] .leaf) [122889, 230] .leaf)) [122890, 230] (.node (.node (.node .leaf [122891, 230] .leaf) [122892, 230] .leaf) [122893, 230] (.node (.node .leaf [122894, 230] .leaf) [122895, 230] .leaf))) [122896, 230] (.node (.node (.node (.node .leaf [122897, 230] .leaf) [122898, 230] .leaf) [122899, 230] (.node (.node .leaf [122900, 230] .leaf) [122901, 230] .leaf)) [122902, 230] (.node (.node (.node .leaf [122903, 230] .leaf) [122904, 230] .leaf) [122907, 230] (.node (.node .leaf [122908, 230] .leaf) [122909, 230] .leaf)))) [122910, 230] (.node (.node (.node (.node (.node .leaf [122911, 230] .leaf) [122912, 230] (.node .leaf [122913, 230] .leaf)) [122915, 230] (.node (.node .leaf [122916, 230] .leaf) [122918, 230] .leaf)) [122919, 230] (.node (.node (.node .leaf [122920, 230] .leaf) [122921, 230] .leaf) [122922, 230] (.node (.node .leaf [125136, 220] .leaf) [125137, 220] .leaf))) [125138, 220] (.node (.node (.node (.node .leaf [125139, 220] .leaf) [125140, 220] .leaf) [125141, 220] (.node (.node .leaf [125142, 220] .leaf) [125252, 230] .leaf)) [125253, 230] (.node (.node (.node .leaf [125254, 230] .leaf) [125255, 230] .leaf) [125256, 230] (.node (.node .leaf [125257, 230] .leaf) [125258, 7] .leaf)))))

/-- All rows of Data/Ccc.lean (proof aid). -/
@[irreducible] def cccTree : Tree (List Nat) := (.node (.node (.node (.node cccT0 [818, 220] cccT1) [870, 230] (.node cccT2 [1461, 15] cccT3)) [1753, 230] (.node (.node cccT4 [2034, 220] cccT5) [2286, 220] (.node cccT6 [3786, 122] cccT7))) [6835, 230] (.node (.node (.node cccT8 [7405, 220] cccT9) [7663, 230] (.node cccT10 [11753, 230] cccT11)) [43235, 230] (.node (.node cccT12 [66422, 230] cccT13) [71351, 7] (.node cccT14 [122882, 230] cccT15))))

end U5e.Data
