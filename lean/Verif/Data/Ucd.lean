import Verif.Model.Ucd
set_option maxRecDepth 10000
/-! GENERATED by tools/gen_ucd.py from src/u5e/props/UnicodeData.txt (the 6532 of 30592 lines that have a non-zero class or a decomposition, in order). -/
namespace U5e.Data
open U5e

/-- src/u5e/props/UnicodeData.txt, relevant lines among 1-256. -/
def ucd0 : List UcdRow := [
  ⟨160, 0, 2, [32]⟩,
  ⟨168, 0, 1, [32, 776]⟩,
  ⟨170, 0, 2, [97]⟩,
  ⟨175, 0, 1, [32, 772]⟩,
  ⟨178, 0, 2, [50]⟩,
  ⟨179, 0, 2, [51]⟩,
  ⟨180, 0, 1, [32, 769]⟩,
  ⟨181, 0, 1, [956]⟩,
  ⟨184, 0, 1, [32, 807]⟩,
  ⟨185, 0, 2, [49]⟩,
  ⟨186, 0, 2, [111]⟩,
  ⟨188, 0, 2, [49, 8260, 52]⟩,
  ⟨189, 0, 2, [49, 8260, 50]⟩,
  ⟨190, 0, 2, [51, 8260, 52]⟩,
  ⟨192, 0, 0, [65, 768]⟩,
  ⟨193, 0, 0, [65, 769]⟩,
  ⟨194, 0, 0, [65, 770]⟩,
  ⟨195, 0, 0, [65, 771]⟩,
  ⟨196, 0, 0, [65, 776]⟩,
  ⟨197, 0, 0, [65, 778]⟩,
  ⟨199, 0, 0, [67, 807]⟩,
  ⟨200, 0, 0, [69, 768]⟩,
  ⟨201, 0, 0, [69, 769]⟩,
  ⟨202, 0, 0, [69, 770]⟩,
  ⟨203, 0, 0, [69, 776]⟩,
  ⟨204, 0, 0, [73, 768]⟩,
  ⟨205, 0, 0, [73, 769]⟩,
  ⟨206, 0, 0, [73, 770]⟩,
  ⟨207, 0, 0, [73, 776]⟩,
  ⟨209, 0, 0, [78, 771]⟩,
  ⟨210, 0, 0, [79, 768]⟩,
  ⟨211, 0, 0, [79, 769]⟩,
  ⟨212, 0, 0, [79, 770]⟩,
  ⟨213, 0, 0, [79, 771]⟩,
  ⟨214, 0, 0, [79, 776]⟩,
  ⟨217, 0, 0, [85, 768]⟩,
  ⟨218, 0, 0, [85, 769]⟩,
  ⟨219, 0, 0, [85, 770]⟩,
  ⟨220, 0, 0, [85, 776]⟩,
  ⟨221, 0, 0, [89, 769]⟩,
  ⟨224, 0, 0, [97, 768]⟩,
  ⟨225, 0, 0, [97, 769]⟩,
  ⟨226, 0, 0, [97, 770]⟩,
  ⟨227, 0, 0, [97, 771]⟩,
  ⟨228, 0, 0, [97, 776]⟩,
  ⟨229, 0, 0, [97, 778]⟩,
  ⟨231, 0, 0, [99, 807]⟩,
  ⟨232, 0, 0, [101, 768]⟩,
  ⟨233, 0, 0, [101, 769]⟩,
  ⟨234, 0, 0, [101, 770]⟩,
  ⟨235, 0, 0, [101, 776]⟩,
  ⟨236, 0, 0, [105, 768]⟩,
  ⟨237, 0, 0, [105, 769]⟩,
  ⟨238, 0, 0, [105, 770]⟩,
  ⟨239, 0, 0, [105, 776]⟩,
  ⟨241, 0, 0, [110, 771]⟩,
  ⟨242, 0, 0, [111, 768]⟩,
  ⟨243, 0, 0, [111, 769]⟩,
  ⟨244, 0, 0, [111, 770]⟩,
  ⟨245, 0, 0, [111, 771]⟩,
  ⟨246, 0, 0, [111, 776]⟩,
  ⟨249, 0, 0, [117, 768]⟩,
  ⟨250, 0, 0, [117, 769]⟩,
  ⟨251, 0, 0, [117, 770]⟩,
  ⟨252, 0, 0, [117, 776]⟩,
  ⟨253, 0, 0, [121, 769]⟩,
  ⟨255, 0, 0, [121, 776]⟩]

/-- src/u5e/props/UnicodeData.txt, relevant lines among 257-512. -/
def ucd1 : List UcdRow := [
  ⟨256, 0, 0, [65, 772]⟩,
  ⟨257, 0, 0, [97, 772]⟩,
  ⟨258, 0, 0, [65, 774]⟩,
  ⟨259, 0, 0, [97, 774]⟩,
  ⟨260, 0, 0, [65, 808]⟩,
  ⟨261, 0, 0, [97, 808]⟩,
  ⟨262, 0, 0, [67, 769]⟩,
  ⟨263, 0, 0, [99, 769]⟩,
  ⟨264, 0, 0, [67, 770]⟩,
  ⟨265, 0, 0, [99, 770]⟩,
  ⟨266, 0, 0, [67, 775]⟩,
  ⟨267, 0, 0, [99, 775]⟩,
  ⟨268, 0, 0, [67, 780]⟩,
  ⟨269, 0, 0, [99, 780]⟩,
  ⟨270, 0, 0, [68, 780]⟩,
  ⟨271, 0, 0, [100, 780]⟩,
  ⟨274, 0, 0, [69, 772]⟩,
  ⟨275, 0, 0, [101, 772]⟩,
  ⟨276, 0, 0, [69, 774]⟩,
  ⟨277, 0, 0, [101, 774]⟩,
  ⟨278, 0, 0, [69, 775]⟩,
  ⟨279, 0, 0, [101, 775]⟩,
  ⟨280, 0, 0, [69, 808]⟩,
  ⟨281, 0, 0, [101, 808]⟩,
  ⟨282, 0, 0, [69, 780]⟩,
  ⟨283, 0, 0, [101, 780]⟩,
  ⟨284, 0, 0, [71, 770]⟩,
  ⟨285, 0, 0, [103, 770]⟩,
  ⟨286, 0, 0, [71, 774]⟩,
  ⟨287, 0, 0, [103, 774]⟩,
  ⟨288, 0, 0, [71, 775]⟩,
  ⟨289, 0, 0, [103, 775]⟩,
  ⟨290, 0, 0, [71, 807]⟩,
  ⟨291, 0, 0, [103, 807]⟩,
  ⟨292, 0, 0, [72, 770]⟩,
  ⟨293, 0, 0, [104, 770]⟩,
  ⟨296, 0, 0, [73, 771]⟩,
  ⟨297, 0, 0, [105, 771]⟩,
  ⟨298, 0, 0, [73, 772]⟩,
  ⟨299, 0, 0, [105, 772]⟩,
  ⟨300, 0, 0, [73, 774]⟩,
  ⟨301, 0, 0, [105, 774]⟩,
  ⟨302, 0, 0, [73, 808]⟩,
  ⟨303, 0, 0, [105, 808]⟩,
  ⟨304, 0, 0, [73, 775]⟩,
  ⟨306, 0, 1, [73, 74]⟩,
  ⟨307, 0, 1, [105, 106]⟩,
  ⟨308, 0, 0, [74, 770]⟩,
  ⟨309, 0, 0, [106, 770]⟩,
  ⟨310, 0, 0, [75, 807]⟩,
  ⟨311, 0, 0, [107, 807]⟩,
  ⟨313, 0, 0, [76, 769]⟩,
  ⟨314, 0, 0, [108, 769]⟩,
  ⟨315, 0, 0, [76, 807]⟩,
  ⟨316, 0, 0, [108, 807]⟩,
  ⟨317, 0, 0, [76, 780]⟩,
  ⟨318, 0, 0, [108, 780]⟩,
  ⟨319, 0, 1, [76, 183]⟩,
  ⟨320, 0, 1, [108, 183]⟩,
  ⟨323, 0, 0, [78, 769]⟩,
  ⟨324, 0, 0, [110, 769]⟩,
  ⟨325, 0, 0, [78, 807]⟩,
  ⟨326, 0, 0, [110, 807]⟩,
  ⟨327, 0, 0, [78, 780]⟩,
  ⟨328, 0, 0, [110, 780]⟩,
  ⟨329, 0, 1, [700, 110]⟩,
  ⟨332, 0, 0, [79, 772]⟩,
  ⟨333, 0, 0, [111, 772]⟩,
  ⟨334, 0, 0, [79, 774]⟩,
  ⟨335, 0, 0, [111, 774]⟩,
  ⟨336, 0, 0, [79, 779]⟩,
  ⟨337, 0, 0, [111, 779]⟩,
  ⟨340, 0, 0, [82, 769]⟩,
  ⟨341, 0, 0, [114, 769]⟩,
  ⟨342, 0, 0, [82, 807]⟩,
  ⟨343, 0, 0, [114, 807]⟩,
  ⟨344, 0, 0, [82, 780]⟩,
  ⟨345, 0, 0, [114, 780]⟩,
  ⟨346, 0, 0, [83, 769]⟩,
  ⟨347, 0, 0, [115, 769]⟩,
  ⟨348, 0, 0, [83, 770]⟩,
  ⟨349, 0, 0, [115, 770]⟩,
  ⟨350, 0, 0, [83, 807]⟩,
  ⟨351, 0, 0, [115, 807]⟩,
  ⟨352, 0, 0, [83, 780]⟩,
  ⟨353, 0, 0, [115, 780]⟩,
  ⟨354, 0, 0, [84, 807]⟩,
  ⟨355, 0, 0, [116, 807]⟩,
  ⟨356, 0, 0, [84, 780]⟩,
  ⟨357, 0, 0, [116, 780]⟩,
  ⟨360, 0, 0, [85, 771]⟩,
  ⟨361, 0, 0, [117, 771]⟩,
  ⟨362, 0, 0, [85, 772]⟩,
  ⟨363, 0, 0, [117, 772]⟩,
  ⟨364, 0, 0, [85, 774]⟩,
  ⟨365, 0, 0, [117, 774]⟩,
  ⟨366, 0, 0, [85, 778]⟩,
  ⟨367, 0, 0, [117, 778]⟩,
  ⟨368, 0, 0, [85, 779]⟩,
  ⟨369, 0, 0, [117, 779]⟩,
  ⟨370, 0, 0, [85, 808]⟩,
  ⟨371, 0, 0, [117, 808]⟩,
  ⟨372, 0, 0, [87, 770]⟩,
  ⟨373, 0, 0, [119, 770]⟩,
  ⟨374, 0, 0, [89, 770]⟩,
  ⟨375, 0, 0, [121, 770]⟩,
  ⟨376, 0, 0, [89, 776]⟩,
  ⟨377, 0, 0, [90, 769]⟩,
  ⟨378, 0, 0, [122, 769]⟩,
  ⟨379, 0, 0, [90, 775]⟩,
  ⟨380, 0, 0, [122, 775]⟩,
  ⟨381, 0, 0, [90, 780]⟩,
  ⟨382, 0, 0, [122, 780]⟩,
  ⟨383, 0, 1, [115]⟩,
  ⟨416, 0, 0, [79, 795]⟩,
  ⟨417, 0, 0, [111, 795]⟩,
  ⟨431, 0, 0, [85, 795]⟩,
  ⟨432, 0, 0, [117, 795]⟩,
  ⟨452, 0, 1, [68, 381]⟩,
  ⟨453, 0, 1, [68, 382]⟩,
  ⟨454, 0, 1, [100, 382]⟩,
  ⟨455, 0, 1, [76, 74]⟩,
  ⟨456, 0, 1, [76, 106]⟩,
  ⟨457, 0, 1, [108, 106]⟩,
  ⟨458, 0, 1, [78, 74]⟩,
  ⟨459, 0, 1, [78, 106]⟩,
  ⟨460, 0, 1, [110, 106]⟩,
  ⟨461, 0, 0, [65, 780]⟩,
  ⟨462, 0, 0, [97, 780]⟩,
  ⟨463, 0, 0, [73, 780]⟩,
  ⟨464, 0, 0, [105, 780]⟩,
  ⟨465, 0, 0, [79, 780]⟩,
  ⟨466, 0, 0, [111, 780]⟩,
  ⟨467, 0, 0, [85, 780]⟩,
  ⟨468, 0, 0, [117, 780]⟩,
  ⟨469, 0, 0, [220, 772]⟩,
  ⟨470, 0, 0, [252, 772]⟩,
  ⟨471, 0, 0, [220, 769]⟩,
  ⟨472, 0, 0, [252, 769]⟩,
  ⟨473, 0, 0, [220, 780]⟩,
  ⟨474, 0, 0, [252, 780]⟩,
  ⟨475, 0, 0, [220, 768]⟩,
  ⟨476, 0, 0, [252, 768]⟩,
  ⟨478, 0, 0, [196, 772]⟩,
  ⟨479, 0, 0, [228, 772]⟩,
  ⟨480, 0, 0, [550, 772]⟩,
  ⟨481, 0, 0, [551, 772]⟩,
  ⟨482, 0, 0, [198, 772]⟩,
  ⟨483, 0, 0, [230, 772]⟩,
  ⟨486, 0, 0, [71, 780]⟩,
  ⟨487, 0, 0, [103, 780]⟩,
  ⟨488, 0, 0, [75, 780]⟩,
  ⟨489, 0, 0, [107, 780]⟩,
  ⟨490, 0, 0, [79, 808]⟩,
  ⟨491, 0, 0, [111, 808]⟩,
  ⟨492, 0, 0, [490, 772]⟩,
  ⟨493, 0, 0, [491, 772]⟩,
  ⟨494, 0, 0, [439, 780]⟩,
  ⟨495, 0, 0, [658, 780]⟩,
  ⟨496, 0, 0, [106, 780]⟩,
  ⟨497, 0, 1, [68, 90]⟩,
  ⟨498, 0, 1, [68, 122]⟩,
  ⟨499, 0, 1, [100, 122]⟩,
  ⟨500, 0, 0, [71, 769]⟩,
  ⟨501, 0, 0, [103, 769]⟩,
  ⟨504, 0, 0, [78, 768]⟩,
  ⟨505, 0, 0, [110, 768]⟩,
  ⟨506, 0, 0, [197, 769]⟩,
  ⟨507, 0, 0, [229, 769]⟩,
  ⟨508, 0, 0, [198, 769]⟩,
  ⟨509, 0, 0, [230, 769]⟩,
  ⟨510, 0, 0, [216, 769]⟩,
  ⟨511, 0, 0, [248, 769]⟩]

/-- src/u5e/props/UnicodeData.txt, relevant lines among 513-768. -/
def ucd2 : List UcdRow := [
  ⟨512, 0, 0, [65, 783]⟩,
  ⟨513, 0, 0, [97, 783]⟩,
  ⟨514, 0, 0, [65, 785]⟩,
  ⟨515, 0, 0, [97, 785]⟩,
  ⟨516, 0, 0, [69, 783]⟩,
  ⟨517, 0, 0, [101, 783]⟩,
  ⟨518, 0, 0, [69, 785]⟩,
  ⟨519, 0, 0, [101, 785]⟩,
  ⟨520, 0, 0, [73, 783]⟩,
  ⟨521, 0, 0, [105, 783]⟩,
  ⟨522, 0, 0, [73, 785]⟩,
  ⟨523, 0, 0, [105, 785]⟩,
  ⟨524, 0, 0, [79, 783]⟩,
  ⟨525, 0, 0, [111, 783]⟩,
  ⟨526, 0, 0, [79, 785]⟩,
  ⟨527, 0, 0, [111, 785]⟩,
  ⟨528, 0, 0, [82, 783]⟩,
  ⟨529, 0, 0, [114, 783]⟩,
  ⟨530, 0, 0, [82, 785]⟩,
  ⟨531, 0, 0, [114, 785]⟩,
  ⟨532, 0, 0, [85, 783]⟩,
  ⟨533, 0, 0, [117, 783]⟩,
  ⟨534, 0, 0, [85, 785]⟩,
  ⟨535, 0, 0, [117, 785]⟩,
  ⟨536, 0, 0, [83, 806]⟩,
  ⟨537, 0, 0, [115, 806]⟩,
  ⟨538, 0, 0, [84, 806]⟩,
  ⟨539, 0, 0, [116, 806]⟩,
  ⟨542, 0, 0, [72, 780]⟩,
  ⟨543, 0, 0, [104, 780]⟩,
  ⟨550, 0, 0, [65, 775]⟩,
  ⟨551, 0, 0, [97, 775]⟩,
  ⟨552, 0, 0, [69, 807]⟩,
  ⟨553, 0, 0, [101, 807]⟩,
  ⟨554, 0, 0, [214, 772]⟩,
  ⟨555, 0, 0, [246, 772]⟩,
  ⟨556, 0, 0, [213, 772]⟩,
  ⟨557, 0, 0, [245, 772]⟩,
  ⟨558, 0, 0, [79, 775]⟩,
  ⟨559, 0, 0, [111, 775]⟩,
  ⟨560, 0, 0, [558, 772]⟩,
  ⟨561, 0, 0, [559, 772]⟩,
  ⟨562, 0, 0, [89, 772]⟩,
  ⟨563, 0, 0, [121, 772]⟩,
  ⟨688, 0, 2, [104]⟩,
  ⟨689, 0, 2, [614]⟩,
  ⟨690, 0, 2, [106]⟩,
  ⟨691, 0, 2, [114]⟩,
  ⟨692, 0, 2, [633]⟩,
  ⟨693, 0, 2, [635]⟩,
  ⟨694, 0, 2, [641]⟩,
  ⟨695, 0, 2, [119]⟩,
  ⟨696, 0, 2, [121]⟩,
  ⟨728, 0, 1, [32, 774]⟩,
  ⟨729, 0, 1, [32, 775]⟩,
  ⟨730, 0, 1, [32, 778]⟩,
  ⟨731, 0, 1, [32, 808]⟩,
  ⟨732, 0, 1, [32, 771]⟩,
  ⟨733, 0, 1, [32, 779]⟩,
  ⟨736, 0, 2, [611]⟩,
  ⟨737, 0, 2, [108]⟩,
  ⟨738, 0, 2, [115]⟩,
  ⟨739, 0, 2, [120]⟩,
  ⟨740, 0, 2, [661]⟩]

/-- src/u5e/props/UnicodeData.txt, relevant lines among 769-1024. -/
def ucd3 : List UcdRow := [
  ⟨768, 230, 0, []⟩,
  ⟨769, 230, 0, []⟩,
  ⟨770, 230, 0, []⟩,
  ⟨771, 230, 0, []⟩,
  ⟨772, 230, 0, []⟩,
  ⟨773, 230, 0, []⟩,
  ⟨774, 230, 0, []⟩,
  ⟨775, 230, 0, []⟩,
  ⟨776, 230, 0, []⟩,
  ⟨777, 230, 0, []⟩,
  ⟨778, 230, 0, []⟩,
  ⟨779, 230, 0, []⟩,
  ⟨780, 230, 0, []⟩,
  ⟨781, 230, 0, []⟩,
  ⟨782, 230, 0, []⟩,
  ⟨783, 230, 0, []⟩,
  ⟨784, 230, 0, []⟩,
  ⟨785, 230, 0, []⟩,
  ⟨786, 230, 0, []⟩,
  ⟨787, 230, 0, []⟩,
  ⟨788, 230, 0, []⟩,
  ⟨789, 232, 0, []⟩,
  ⟨790, 220, 0, []⟩,
  ⟨791, 220, 0, []⟩,
  ⟨792, 220, 0, []⟩,
  ⟨793, 220, 0, []⟩,
  ⟨794, 232, 0, []⟩,
  ⟨795, 216, 0, []⟩,
  ⟨796, 220, 0, []⟩,
  ⟨797, 220, 0, []⟩,
  ⟨798, 220, 0, []⟩,
  ⟨799, 220, 0, []⟩,
  ⟨800, 220, 0, []⟩,
  ⟨801, 202, 0, []⟩,
  ⟨802, 202, 0, []⟩,
  ⟨803, 220, 0, []⟩,
  ⟨804, 220, 0, []⟩,
  ⟨805, 220, 0, []⟩,
  ⟨806, 220, 0, []⟩,
  ⟨807, 202, 0, []⟩,
  ⟨808, 202, 0, []⟩,
  ⟨809, 220, 0, []⟩,
  ⟨810, 220, 0, []⟩,
  ⟨811, 220, 0, []⟩,
  ⟨812, 220, 0, []⟩,
  ⟨813, 220, 0, []⟩,
  ⟨814, 220, 0, []⟩,
  ⟨815, 220, 0, []⟩,
  ⟨816, 220, 0, []⟩,
  ⟨817, 220, 0, []⟩,
  ⟨818, 220, 0, []⟩,
  ⟨819, 220, 0, []⟩,
  ⟨820, 1, 0, []⟩,
  ⟨821, 1, 0, []⟩,
  ⟨822, 1, 0, []⟩,
  ⟨823, 1, 0, []⟩,
  ⟨824, 1, 0, []⟩,
  ⟨825, 220, 0, []⟩,
  ⟨826, 220, 0, []⟩,
  ⟨827, 220, 0, []⟩,
  ⟨828, 220, 0, []⟩,
  ⟨829, 230, 0, []⟩,
  ⟨830, 230, 0, []⟩,
  ⟨831, 230, 0, []⟩,
  ⟨832, 230, 0, [768]⟩,
  ⟨833, 230, 0, [769]⟩,
  ⟨834, 230, 0, []⟩,
  ⟨835, 230, 0, [787]⟩,
  ⟨836, 230, 0, [776, 769]⟩,
  ⟨837, 240, 0, []⟩,
  ⟨838, 230, 0, []⟩,
  ⟨839, 220, 0, []⟩,
  ⟨840, 220, 0, []⟩,
  ⟨841, 220, 0, []⟩,
  ⟨842, 230, 0, []⟩,
  ⟨843, 230, 0, []⟩,
  ⟨844, 230, 0, []⟩,
  ⟨845, 220, 0, []⟩,
  ⟨846, 220, 0, []⟩,
  ⟨848, 230, 0, []⟩,
  ⟨849, 230, 0, []⟩,
  ⟨850, 230, 0, []⟩,
  ⟨851, 220, 0, []⟩,
  ⟨852, 220, 0, []⟩,
  ⟨853, 220, 0, []⟩,
  ⟨854, 220, 0, []⟩,
  ⟨855, 230, 0, []⟩,
  ⟨856, 232, 0, []⟩,
  ⟨857, 220, 0, []⟩,
  ⟨858, 220, 0, []⟩,
  ⟨859, 230, 0, []⟩,
  ⟨860, 233, 0, []⟩,
  ⟨861, 234, 0, []⟩,
  ⟨862, 234, 0, []⟩,
  ⟨863, 233, 0, []⟩,
  ⟨864, 234, 0, []⟩,
  ⟨865, 234, 0, []⟩,
  ⟨866, 233, 0, []⟩,
  ⟨867, 230, 0, []⟩,
  ⟨868, 230, 0, []⟩,
  ⟨869, 230, 0, []⟩,
  ⟨870, 230, 0, []⟩,
  ⟨871, 230, 0, []⟩,
  ⟨872, 230, 0, []⟩,
  ⟨873, 230, 0, []⟩,
  ⟨874, 230, 0, []⟩,
  ⟨875, 230, 0, []⟩,
  ⟨876, 230, 0, []⟩,
  ⟨877, 230, 0, []⟩,
  ⟨878, 230, 0, []⟩,
  ⟨879, 230, 0, []⟩,
  ⟨884, 0, 0, [697]⟩,
  ⟨890, 0, 1, [32, 837]⟩,
  ⟨894, 0, 0, [59]⟩,
  ⟨900, 0, 1, [32, 769]⟩,
  ⟨901, 0, 0, [168, 769]⟩,
  ⟨902, 0, 0, [913, 769]⟩,
  ⟨903, 0, 0, [183]⟩,
  ⟨904, 0, 0, [917, 769]⟩,
  ⟨905, 0, 0, [919, 769]⟩,
  ⟨906, 0, 0, [921, 769]⟩,
  ⟨908, 0, 0, [927, 769]⟩,
  ⟨910, 0, 0, [933, 769]⟩,
  ⟨911, 0, 0, [937, 769]⟩,
  ⟨912, 0, 0, [970, 769]⟩,
  ⟨938, 0, 0, [921, 776]⟩,
  ⟨939, 0, 0, [933, 776]⟩,
  ⟨940, 0, 0, [945, 769]⟩,
  ⟨941, 0, 0, [949, 769]⟩,
  ⟨942, 0, 0, [951, 769]⟩,
  ⟨943, 0, 0, [953, 769]⟩,
  ⟨944, 0, 0, [971, 769]⟩,
  ⟨970, 0, 0, [953, 776]⟩,
  ⟨971, 0, 0, [965, 776]⟩,
  ⟨972, 0, 0, [959, 769]⟩,
  ⟨973, 0, 0, [965, 769]⟩,
  ⟨974, 0, 0, [969, 769]⟩,
  ⟨976, 0, 1, [946]⟩,
  ⟨977, 0, 1, [952]⟩,
  ⟨978, 0, 1, [933]⟩,
  ⟨979, 0, 0, [978, 769]⟩,
  ⟨980, 0, 0, [978, 776]⟩,
  ⟨981, 0, 1, [966]⟩,
  ⟨982, 0, 1, [960]⟩,
  ⟨1008, 0, 1, [954]⟩,
  ⟨1009, 0, 1, [961]⟩,
  ⟨1010, 0, 1, [962]⟩,
  ⟨1012, 0, 1, [920]⟩,
  ⟨1013, 0, 1, [949]⟩,
  ⟨1017, 0, 1, [931]⟩,
  ⟨1024, 0, 0, [1045, 768]⟩,
  ⟨1025, 0, 0, [1045, 776]⟩,
  ⟨1027, 0, 0, [1043, 769]⟩,
  ⟨1031, 0, 0, [1030, 776]⟩]

/-- src/u5e/props/UnicodeData.txt, relevant lines among 1025-1280. -/
def ucd4 : List UcdRow := [
  ⟨1036, 0, 0, [1050, 769]⟩,
  ⟨1037, 0, 0, [1048, 768]⟩,
  ⟨1038, 0, 0, [1059, 774]⟩,
  ⟨1049, 0, 0, [1048, 774]⟩,
  ⟨1081, 0, 0, [1080, 774]⟩,
  ⟨1104, 0, 0, [1077, 768]⟩,
  ⟨1105, 0, 0, [1077, 776]⟩,
  ⟨1107, 0, 0, [1075, 769]⟩,
  ⟨1111, 0, 0, [1110, 776]⟩,
  ⟨1116, 0, 0, [1082, 769]⟩,
  ⟨1117, 0, 0, [1080, 768]⟩,
  ⟨1118, 0, 0, [1091, 774]⟩,
  ⟨1142, 0, 0, [1140, 783]⟩,
  ⟨1143, 0, 0, [1141, 783]⟩,
  ⟨1155, 230, 0, []⟩,
  ⟨1156, 230, 0, []⟩,
  ⟨1157, 230, 0, []⟩,
  ⟨1158, 230, 0, []⟩,
  ⟨1159, 230, 0, []⟩,
  ⟨1217, 0, 0, [1046, 774]⟩,
  ⟨1218, 0, 0, [1078, 774]⟩,
  ⟨1232, 0, 0, [1040, 774]⟩,
  ⟨1233, 0, 0, [1072, 774]⟩,
  ⟨1234, 0, 0, [1040, 776]⟩,
  ⟨1235, 0, 0, [1072, 776]⟩,
  ⟨1238, 0, 0, [1045, 774]⟩,
  ⟨1239, 0, 0, [1077, 774]⟩,
  ⟨1242, 0, 0, [1240, 776]⟩,
  ⟨1243, 0, 0, [1241, 776]⟩,
  ⟨1244, 0, 0, [1046, 776]⟩,
  ⟨1245, 0, 0, [1078, 776]⟩,
  ⟨1246, 0, 0, [1047, 776]⟩,
  ⟨1247, 0, 0, [1079, 776]⟩,
  ⟨1250, 0, 0, [1048, 772]⟩,
  ⟨1251, 0, 0, [1080, 772]⟩,
  ⟨1252, 0, 0, [1048, 776]⟩,
  ⟨1253, 0, 0, [1080, 776]⟩,
  ⟨1254, 0, 0, [1054, 776]⟩,
  ⟨1255, 0, 0, [1086, 776]⟩,
  ⟨1258, 0, 0, [1256, 776]⟩,
  ⟨1259, 0, 0, [1257, 776]⟩,
  ⟨1260, 0, 0, [1069, 776]⟩,
  ⟨1261, 0, 0, [1101, 776]⟩,
  ⟨1262, 0, 0, [1059, 772]⟩,
  ⟨1263, 0, 0, [1091, 772]⟩,
  ⟨1264, 0, 0, [1059, 776]⟩,
  ⟨1265, 0, 0, [1091, 776]⟩,
  ⟨1266, 0, 0, [1059, 779]⟩,
  ⟨1267, 0, 0, [1091, 779]⟩,
  ⟨1268, 0, 0, [1063, 776]⟩,
  ⟨1269, 0, 0, [1095, 776]⟩,
  ⟨1272, 0, 0, [1067, 776]⟩,
  ⟨1273, 0, 0, [1099, 776]⟩]

/-- src/u5e/props/UnicodeData.txt, relevant lines among 1281-1536. -/
def ucd5 : List UcdRow := [
  ⟨1415, 0, 1, [1381, 1410]⟩,
  ⟨1425, 220, 0, []⟩,
  ⟨1426, 230, 0, []⟩,
  ⟨1427, 230, 0, []⟩,
  ⟨1428, 230, 0, []⟩,
  ⟨1429, 230, 0, []⟩,
  ⟨1430, 220, 0, []⟩,
  ⟨1431, 230, 0, []⟩,
  ⟨1432, 230, 0, []⟩,
  ⟨1433, 230, 0, []⟩,
  ⟨1434, 222, 0, []⟩,
  ⟨1435, 220, 0, []⟩,
  ⟨1436, 230, 0, []⟩,
  ⟨1437, 230, 0, []⟩,
  ⟨1438, 230, 0, []⟩,
  ⟨1439, 230, 0, []⟩,
  ⟨1440, 230, 0, []⟩,
  ⟨1441, 230, 0, []⟩,
  ⟨1442, 220, 0, []⟩,
  ⟨1443, 220, 0, []⟩,
  ⟨1444, 220, 0, []⟩,
  ⟨1445, 220, 0, []⟩,
  ⟨1446, 220, 0, []⟩,
  ⟨1447, 220, 0, []⟩,
  ⟨1448, 230, 0, []⟩,
  ⟨1449, 230, 0, []⟩,
  ⟨1450, 220, 0, []⟩,
  ⟨1451, 230, 0, []⟩,
  ⟨1452, 230, 0, []⟩,
  ⟨1453, 222, 0, []⟩,
  ⟨1454, 228, 0, []⟩,
  ⟨1455, 230, 0, []⟩,
  ⟨1456, 10, 0, []⟩,
  ⟨1457, 11, 0, []⟩,
  ⟨1458, 12, 0, []⟩,
  ⟨1459, 13, 0, []⟩,
  ⟨1460, 14, 0, []⟩,
  ⟨1461, 15, 0, []⟩,
  ⟨1462, 16, 0, []⟩,
  ⟨1463, 17, 0, []⟩,
  ⟨1464, 18, 0, []⟩,
  ⟨1465, 19, 0, []⟩,
  ⟨1466, 19, 0, []⟩,
  ⟨1467, 20, 0, []⟩,
  ⟨1468, 21, 0, []⟩,
  ⟨1469, 22, 0, []⟩,
  ⟨1471, 23, 0, []⟩,
  ⟨1473, 24, 0, []⟩,
  ⟨1474, 25, 0, []⟩,
  ⟨1476, 230, 0, []⟩,
  ⟨1477, 220, 0, []⟩,
  ⟨1479, 18, 0, []⟩,
  ⟨1552, 230, 0, []⟩,
  ⟨1553, 230, 0, []⟩,
  ⟨1554, 230, 0, []⟩,
  ⟨1555, 230, 0, []⟩,
  ⟨1556, 230, 0, []⟩,
  ⟨1557, 230, 0, []⟩,
  ⟨1558, 230, 0, []⟩,
  ⟨1559, 230, 0, []⟩,
  ⟨1560, 30, 0, []⟩,
  ⟨1561, 31, 0, []⟩,
  ⟨1562, 32, 0, []⟩,
  ⟨1570, 0, 0, [1575, 1619]⟩,
  ⟨1571, 0, 0, [1575, 1620]⟩,
  ⟨1572, 0, 0, [1608, 1620]⟩,
  ⟨1573, 0, 0, [1575, 1621]⟩,
  ⟨1574, 0, 0, [1610, 1620]⟩]

/-- src/u5e/props/UnicodeData.txt, relevant lines among 1537-1792. -/
def ucd6 : List UcdRow := [
  ⟨1611, 27, 0, []⟩,
  ⟨1612, 28, 0, []⟩,
  ⟨1613, 29, 0, []⟩,
  ⟨1614, 30, 0, []⟩,
  ⟨1615, 31, 0, []⟩,
  ⟨1616, 32, 0, []⟩,
  ⟨1617, 33, 0, []⟩,
  ⟨1618, 34, 0, []⟩,
  ⟨1619, 230, 0, []⟩,
  ⟨1620, 230, 0, []⟩,
  ⟨1621, 220, 0, []⟩,
  ⟨1622, 220, 0, []⟩,
  ⟨1623, 230, 0, []⟩,
  ⟨1624, 230, 0, []⟩,
  ⟨1625, 230, 0, []⟩,
  ⟨1626, 230, 0, []⟩,
  ⟨1627, 230, 0, []⟩,
  ⟨1628, 220, 0, []⟩,
  ⟨1629, 230, 0, []⟩,
  ⟨1630, 230, 0, []⟩,
  ⟨1631, 220, 0, []⟩,
  ⟨1648, 35, 0, []⟩,
  ⟨1653, 0, 1, [1575, 1652]⟩,
  ⟨1654, 0, 1, [1608, 1652]⟩,
  ⟨1655, 0, 1, [1735, 1652]⟩,
  ⟨1656, 0, 1, [1610, 1652]⟩,
  ⟨1728, 0, 0, [1749, 1620]⟩,
  ⟨1730, 0, 0, [1729, 1620]⟩,
  ⟨1747, 0, 0, [1746, 1620]⟩,
  ⟨1750, 230, 0, []⟩,
  ⟨1751, 230, 0, []⟩,
  ⟨1752, 230, 0, []⟩,
  ⟨1753, 230, 0, []⟩,
  ⟨1754, 230, 0, []⟩,
  ⟨1755, 230, 0, []⟩,
  ⟨1756, 230, 0, []⟩,
  ⟨1759, 230, 0, []⟩,
  ⟨1760, 230, 0, []⟩,
  ⟨1761, 230, 0, []⟩,
  ⟨1762, 230, 0, []⟩,
  ⟨1763, 220, 0, []⟩,
  ⟨1764, 230, 0, []⟩,
  ⟨1767, 230, 0, []⟩,
  ⟨1768, 230, 0, []⟩,
  ⟨1770, 220, 0, []⟩,
  ⟨1771, 230, 0, []⟩,
  ⟨1772, 230, 0, []⟩,
  ⟨1773, 220, 0, []⟩,
  ⟨1809, 36, 0, []⟩]

/-- src/u5e/props/UnicodeData.txt, relevant lines among 1793-2048. -/
def ucd7 : List UcdRow := [
  ⟨1840, 230, 0, []⟩,
  ⟨1841, 220, 0, []⟩,
  ⟨1842, 230, 0, []⟩,
  ⟨1843, 230, 0, []⟩,
  ⟨1844, 220, 0, []⟩,
  ⟨1845, 230, 0, []⟩,
  ⟨1846, 230, 0, []⟩,
  ⟨1847, 220, 0, []⟩,
  ⟨1848, 220, 0, []⟩,
  ⟨1849, 220, 0, []⟩,
  ⟨1850, 230, 0, []⟩,
  ⟨1851, 220, 0, []⟩,
  ⟨1852, 220, 0, []⟩,
  ⟨1853, 230, 0, []⟩,
  ⟨1854, 220, 0, []⟩,
  ⟨1855, 230, 0, []⟩,
  ⟨1856, 230, 0, []⟩,
  ⟨1857, 230, 0, []⟩,
  ⟨1858, 220, 0, []⟩,
  ⟨1859, 230, 0, []⟩,
  ⟨1860, 220, 0, []⟩,
  ⟨1861, 230, 0, []⟩,
  ⟨1862, 220, 0, []⟩,
  ⟨1863, 230, 0, []⟩,
  ⟨1864, 220, 0, []⟩,
  ⟨1865, 230, 0, []⟩,
  ⟨1866, 230, 0, []⟩,
  ⟨2027, 230, 0, []⟩,
  ⟨2028, 230, 0, []⟩,
  ⟨2029, 230, 0, []⟩,
  ⟨2030, 230, 0, []⟩,
  ⟨2031, 230, 0, []⟩,
  ⟨2032, 230, 0, []⟩,
  ⟨2033, 230, 0, []⟩,
  ⟨2034, 220, 0, []⟩,
  ⟨2035, 230, 0, []⟩,
  ⟨2070, 230, 0, []⟩,
  ⟨2071, 230, 0, []⟩,
  ⟨2072, 230, 0, []⟩,
  ⟨2073, 230, 0, []⟩,
  ⟨2075, 230, 0, []⟩,
  ⟨2076, 230, 0, []⟩,
  ⟨2077, 230, 0, []⟩,
  ⟨2078, 230, 0, []⟩,
  ⟨2079, 230, 0, []⟩,
  ⟨2080, 230, 0, []⟩,
  ⟨2081, 230, 0, []⟩,
  ⟨2082, 230, 0, []⟩,
  ⟨2083, 230, 0, []⟩,
  ⟨2085, 230, 0, []⟩,
  ⟨2086, 230, 0, []⟩,
  ⟨2087, 230, 0, []⟩,
  ⟨2089, 230, 0, []⟩,
  ⟨2090, 230, 0, []⟩,
  ⟨2091, 230, 0, []⟩,
  ⟨2092, 230, 0, []⟩,
  ⟨2093, 230, 0, []⟩]

/-- src/u5e/props/UnicodeData.txt, relevant lines among 2049-2304. -/
def ucd8 : List UcdRow := [
  ⟨2137, 220, 0, []⟩,
  ⟨2138, 220, 0, []⟩,
  ⟨2139, 220, 0, []⟩,
  ⟨2260, 230, 0, []⟩,
  ⟨2261, 230, 0, []⟩,
  ⟨2262, 230, 0, []⟩,
  ⟨2263, 230, 0, []⟩,
  ⟨2264, 230, 0, []⟩,
  ⟨2265, 230, 0, []⟩,
  ⟨2266, 230, 0, []⟩,
  ⟨2267, 230, 0, []⟩,
  ⟨2268, 230, 0, []⟩,
  ⟨2269, 230, 0, []⟩,
  ⟨2270, 230, 0, []⟩,
  ⟨2271, 230, 0, []⟩,
  ⟨2272, 230, 0, []⟩,
  ⟨2273, 230, 0, []⟩,
  ⟨2275, 220, 0, []⟩,
  ⟨2276, 230, 0, []⟩,
  ⟨2277, 230, 0, []⟩,
  ⟨2278, 220, 0, []⟩,
  ⟨2279, 230, 0, []⟩,
  ⟨2280, 230, 0, []⟩,
  ⟨2281, 220, 0, []⟩,
  ⟨2282, 230, 0, []⟩,
  ⟨2283, 230, 0, []⟩,
  ⟨2284, 230, 0, []⟩,
  ⟨2285, 220, 0, []⟩,
  ⟨2286, 220, 0, []⟩,
  ⟨2287, 220, 0, []⟩,
  ⟨2288, 27, 0, []⟩,
  ⟨2289, 28, 0, []⟩,
  ⟨2290, 29, 0, []⟩,
  ⟨2291, 230, 0, []⟩,
  ⟨2292, 230, 0, []⟩,
  ⟨2293, 230, 0, []⟩,
  ⟨2294, 220, 0, []⟩,
  ⟨2295, 230, 0, []⟩,
  ⟨2296, 230, 0, []⟩,
  ⟨2297, 220, 0, []⟩,
  ⟨2298, 220, 0, []⟩,
  ⟨2299, 230, 0, []⟩,
  ⟨2300, 230, 0, []⟩,
  ⟨2301, 230, 0, []⟩,
  ⟨2302, 230, 0, []⟩,
  ⟨2303, 230, 0, []⟩,
  ⟨2345, 0, 0, [2344, 2364]⟩,
  ⟨2353, 0, 0, [2352, 2364]⟩,
  ⟨2356, 0, 0, [2355, 2364]⟩,
  ⟨2364, 7, 0, []⟩,
  ⟨2381, 9, 0, []⟩,
  ⟨2385, 230, 0, []⟩,
  ⟨2386, 220, 0, []⟩,
  ⟨2387, 230, 0, []⟩,
  ⟨2388, 230, 0, []⟩,
  ⟨2392, 0, 0, [2325, 2364]⟩,
  ⟨2393, 0, 0, [2326, 2364]⟩,
  ⟨2394, 0, 0, [2327, 2364]⟩,
  ⟨2395, 0, 0, [2332, 2364]⟩,
  ⟨2396, 0, 0, [2337, 2364]⟩,
  ⟨2397, 0, 0, [2338, 2364]⟩,
  ⟨2398, 0, 0, [2347, 2364]⟩,
  ⟨2399, 0, 0, [2351, 2364]⟩]

/-- src/u5e/props/UnicodeData.txt, relevant lines among 2305-2560. -/
def ucd9 : List UcdRow := [
  ⟨2492, 7, 0, []⟩,
  ⟨2507, 0, 0, [2503, 2494]⟩,
  ⟨2508, 0, 0, [2503, 2519]⟩,
  ⟨2509, 9, 0, []⟩,
  ⟨2524, 0, 0, [2465, 2492]⟩,
  ⟨2525, 0, 0, [2466, 2492]⟩,
  ⟨2527, 0, 0, [2479, 2492]⟩,
  ⟨2611, 0, 0, [2610, 2620]⟩,
  ⟨2614, 0, 0, [2616, 2620]⟩,
  ⟨2620, 7, 0, []⟩,
  ⟨2637, 9, 0, []⟩,
  ⟨2649, 0, 0, [2582, 2620]⟩,
  ⟨2650, 0, 0, [2583, 2620]⟩,
  ⟨2651, 0, 0, [2588, 2620]⟩,
  ⟨2654, 0, 0, [2603, 2620]⟩,
  ⟨2748, 7, 0, []⟩,
  ⟨2765, 9, 0, []⟩]

/-- src/u5e/props/UnicodeData.txt, relevant lines among 2561-2816. -/
def ucd10 : List UcdRow := [
  ⟨2876, 7, 0, []⟩,
  ⟨2888, 0, 0, [2887, 2902]⟩,
  ⟨2891, 0, 0, [2887, 2878]⟩,
  ⟨2892, 0, 0, [2887, 2903]⟩,
  ⟨2893, 9, 0, []⟩,
  ⟨2908, 0, 0, [2849, 2876]⟩,
  ⟨2909, 0, 0, [2850, 2876]⟩,
  ⟨2964, 0, 0, [2962, 3031]⟩,
  ⟨3018, 0, 0, [3014, 3006]⟩,
  ⟨3019, 0, 0, [3015, 3006]⟩,
  ⟨3020, 0, 0, [3014, 3031]⟩,
  ⟨3021, 9, 0, []⟩,
  ⟨3144, 0, 0, [3142, 3158]⟩,
  ⟨3149, 9, 0, []⟩,
  ⟨3157, 84, 0, []⟩,
  ⟨3158, 91, 0, []⟩]

/-- src/u5e/props/UnicodeData.txt, relevant lines among 2817-3072. -/
def ucd11 : List UcdRow := [
  ⟨3260, 7, 0, []⟩,
  ⟨3264, 0, 0, [3263, 3285]⟩,
  ⟨3271, 0, 0, [3270, 3285]⟩,
  ⟨3272, 0, 0, [3270, 3286]⟩,
  ⟨3274, 0, 0, [3270, 3266]⟩,
  ⟨3275, 0, 0, [3274, 3285]⟩,
  ⟨3277, 9, 0, []⟩,
  ⟨3402, 0, 0, [3398, 3390]⟩,
  ⟨3403, 0, 0, [3399, 3390]⟩,
  ⟨3404, 0, 0, [3398, 3415]⟩,
  ⟨3405, 9, 0, []⟩,
  ⟨3530, 9, 0, []⟩,
  ⟨3546, 0, 0, [3545, 3530]⟩,
  ⟨3548, 0, 0, [3545, 3535]⟩,
  ⟨3549, 0, 0, [3548, 3530]⟩,
  ⟨3550, 0, 0, [3545, 3551]⟩]

/-- src/u5e/props/UnicodeData.txt, relevant lines among 3073-3328. -/
def ucd12 : List UcdRow := [
  ⟨3635, 0, 1, [3661, 3634]⟩,
  ⟨3640, 103, 0, []⟩,
  ⟨3641, 103, 0, []⟩,
  ⟨3642, 9, 0, []⟩,
  ⟨3656, 107, 0, []⟩,
  ⟨3657, 107, 0, []⟩,
  ⟨3658, 107, 0, []⟩,
  ⟨3659, 107, 0, []⟩,
  ⟨3763, 0, 1, [3789, 3762]⟩,
  ⟨3768, 118, 0, []⟩,
  ⟨3769, 118, 0, []⟩,
  ⟨3784, 122, 0, []⟩,
  ⟨3785, 122, 0, []⟩,
  ⟨3786, 122, 0, []⟩,
  ⟨3787, 122, 0, []⟩,
  ⟨3804, 0, 1, [3755, 3737]⟩,
  ⟨3805, 0, 1, [3755, 3745]⟩,
  ⟨3852, 0, 2, [3851]⟩,
  ⟨3864, 220, 0, []⟩,
  ⟨3865, 220, 0, []⟩,
  ⟨3893, 220, 0, []⟩,
  ⟨3895, 220, 0, []⟩,
  ⟨3897, 216, 0, []⟩,
  ⟨3907, 0, 0, [3906, 4023]⟩,
  ⟨3917, 0, 0, [3916, 4023]⟩,
  ⟨3922, 0, 0, [3921, 4023]⟩,
  ⟨3927, 0, 0, [3926, 4023]⟩,
  ⟨3932, 0, 0, [3931, 4023]⟩]

/-- src/u5e/props/UnicodeData.txt, relevant lines among 3329-3584. -/
def ucd13 : List UcdRow := [
  ⟨3945, 0, 0, [3904, 4021]⟩,
  ⟨3953, 129, 0, []⟩,
  ⟨3954, 130, 0, []⟩,
  ⟨3955, 0, 0, [3953, 3954]⟩,
  ⟨3956, 132, 0, []⟩,
  ⟨3957, 0, 0, [3953, 3956]⟩,
  ⟨3958, 0, 0, [4018, 3968]⟩,
  ⟨3959, 0, 1, [4018, 3969]⟩,
  ⟨3960, 0, 0, [4019, 3968]⟩,
  ⟨3961, 0, 1, [4019, 3969]⟩,
  ⟨3962, 130, 0, []⟩,
  ⟨3963, 130, 0, []⟩,
  ⟨3964, 130, 0, []⟩,
  ⟨3965, 130, 0, []⟩,
  ⟨3968, 130, 0, []⟩,
  ⟨3969, 0, 0, [3953, 3968]⟩,
  ⟨3970, 230, 0, []⟩,
  ⟨3971, 230, 0, []⟩,
  ⟨3972, 9, 0, []⟩,
  ⟨3974, 230, 0, []⟩,
  ⟨3975, 230, 0, []⟩,
  ⟨3987, 0, 0, [3986, 4023]⟩,
  ⟨3997, 0, 0, [3996, 4023]⟩,
  ⟨4002, 0, 0, [4001, 4023]⟩,
  ⟨4007, 0, 0, [4006, 4023]⟩,
  ⟨4012, 0, 0, [4011, 4023]⟩,
  ⟨4025, 0, 0, [3984, 4021]⟩,
  ⟨4038, 220, 0, []⟩,
  ⟨4134, 0, 0, [4133, 4142]⟩,
  ⟨4151, 7, 0, []⟩,
  ⟨4153, 9, 0, []⟩,
  ⟨4154, 9, 0, []⟩]

/-- src/u5e/props/UnicodeData.txt, relevant lines among 3585-3840. -/
def ucd14 : List UcdRow := [
  ⟨4237, 220, 0, []⟩,
  ⟨4348, 0, 2, [4316]⟩]

/-- src/u5e/props/UnicodeData.txt, relevant lines among 3841-4096. -/
def ucd15 : List UcdRow := []

/-- src/u5e/props/UnicodeData.txt, relevant lines among 4097-4352. -/
def ucd16 : List UcdRow := [
  ⟨4957, 230, 0, []⟩,
  ⟨4958, 230, 0, []⟩,
  ⟨4959, 230, 0, []⟩]

/-- src/u5e/props/UnicodeData.txt, relevant lines among 4353-4608. -/
def ucd17 : List UcdRow := []

/-- src/u5e/props/UnicodeData.txt, relevant lines among 4609-4864. -/
def ucd18 : List UcdRow := []

/-- src/u5e/props/UnicodeData.txt, relevant lines among 4865-5120. -/
def ucd19 : List UcdRow := []

/-- src/u5e/props/UnicodeData.txt, relevant lines among 5121-5376. -/
def ucd20 : List UcdRow := [
  ⟨5908, 9, 0, []⟩,
  ⟨5940, 9, 0, []⟩,
  ⟨6098, 9, 0, []⟩,
  ⟨6109, 230, 0, []⟩]

/-- src/u5e/props/UnicodeData.txt, relevant lines among 5377-5632. -/
def ucd21 : List UcdRow := [
  ⟨6313, 228, 0, []⟩]

/-- src/u5e/props/UnicodeData.txt, relevant lines among 5633-5888. -/
def ucd22 : List UcdRow := [
  ⟨6457, 222, 0, []⟩,
  ⟨6458, 230, 0, []⟩,
  ⟨6459, 220, 0, []⟩,
  ⟨6679, 230, 0, []⟩,
  ⟨6680, 220, 0, []⟩]

/-- src/u5e/props/UnicodeData.txt, relevant lines among 5889-6144. -/
def ucd23 : List UcdRow := [
  ⟨6752, 9, 0, []⟩,
  ⟨6773, 230, 0, []⟩,
  ⟨6774, 230, 0, []⟩,
  ⟨6775, 230, 0, []⟩,
  ⟨6776, 230, 0, []⟩,
  ⟨6777, 230, 0, []⟩,
  ⟨6778, 230, 0, []⟩,
  ⟨6779, 230, 0, []⟩,
  ⟨6780, 230, 0, []⟩,
  ⟨6783, 220, 0, []⟩,
  ⟨6832, 230, 0, []⟩,
  ⟨6833, 230, 0, []⟩,
  ⟨6834, 230, 0, []⟩,
  ⟨6835, 230, 0, []⟩,
  ⟨6836, 230, 0, []⟩,
  ⟨6837, 220, 0, []⟩,
  ⟨6838, 220, 0, []⟩,
  ⟨6839, 220, 0, []⟩,
  ⟨6840, 220, 0, []⟩,
  ⟨6841, 220, 0, []⟩,
  ⟨6842, 220, 0, []⟩,
  ⟨6843, 230, 0, []⟩,
  ⟨6844, 230, 0, []⟩,
  ⟨6845, 220, 0, []⟩,
  ⟨6918, 0, 0, [6917, 6965]⟩,
  ⟨6920, 0, 0, [6919, 6965]⟩,
  ⟨6922, 0, 0, [6921, 6965]⟩,
  ⟨6924, 0, 0, [6923, 6965]⟩,
  ⟨6926, 0, 0, [6925, 6965]⟩,
  ⟨6930, 0, 0, [6929, 6965]⟩,
  ⟨6964, 7, 0, []⟩,
  ⟨6971, 0, 0, [6970, 6965]⟩,
  ⟨6973, 0, 0, [6972, 6965]⟩,
  ⟨6976, 0, 0, [6974, 6965]⟩,
  ⟨6977, 0, 0, [6975, 6965]⟩,
  ⟨6979, 0, 0, [6978, 6965]⟩,
  ⟨6980, 9, 0, []⟩,
  ⟨7019, 230, 0, []⟩,
  ⟨7020, 220, 0, []⟩,
  ⟨7021, 230, 0, []⟩,
  ⟨7022, 230, 0, []⟩,
  ⟨7023, 230, 0, []⟩,
  ⟨7024, 230, 0, []⟩,
  ⟨7025, 230, 0, []⟩,
  ⟨7026, 230, 0, []⟩,
  ⟨7027, 230, 0, []⟩]

/-- src/u5e/props/UnicodeData.txt, relevant lines among 6145-6400. -/
def ucd24 : List UcdRow := [
  ⟨7082, 9, 0, []⟩,
  ⟨7083, 9, 0, []⟩,
  ⟨7142, 7, 0, []⟩,
  ⟨7154, 9, 0, []⟩,
  ⟨7155, 9, 0, []⟩,
  ⟨7223, 7, 0, []⟩,
  ⟨7376, 230, 0, []⟩,
  ⟨7377, 230, 0, []⟩,
  ⟨7378, 230, 0, []⟩,
  ⟨7380, 1, 0, []⟩,
  ⟨7381, 220, 0, []⟩,
  ⟨7382, 220, 0, []⟩,
  ⟨7383, 220, 0, []⟩,
  ⟨7384, 220, 0, []⟩,
  ⟨7385, 220, 0, []⟩,
  ⟨7386, 230, 0, []⟩,
  ⟨7387, 230, 0, []⟩,
  ⟨7388, 220, 0, []⟩,
  ⟨7389, 220, 0, []⟩,
  ⟨7390, 220, 0, []⟩,
  ⟨7391, 220, 0, []⟩,
  ⟨7392, 230, 0, []⟩,
  ⟨7394, 1, 0, []⟩,
  ⟨7395, 1, 0, []⟩,
  ⟨7396, 1, 0, []⟩,
  ⟨7397, 1, 0, []⟩,
  ⟨7398, 1, 0, []⟩,
  ⟨7399, 1, 0, []⟩]

/-- src/u5e/props/UnicodeData.txt, relevant lines among 6401-6656. -/
def ucd25 : List UcdRow := [
  ⟨7400, 1, 0, []⟩,
  ⟨7405, 220, 0, []⟩,
  ⟨7412, 230, 0, []⟩,
  ⟨7416, 230, 0, []⟩,
  ⟨7417, 230, 0, []⟩,
  ⟨7468, 0, 2, [65]⟩,
  ⟨7469, 0, 2, [198]⟩,
  ⟨7470, 0, 2, [66]⟩,
  ⟨7472, 0, 2, [68]⟩,
  ⟨7473, 0, 2, [69]⟩,
  ⟨7474, 0, 2, [398]⟩,
  ⟨7475, 0, 2, [71]⟩,
  ⟨7476, 0, 2, [72]⟩,
  ⟨7477, 0, 2, [73]⟩,
  ⟨7478, 0, 2, [74]⟩,
  ⟨7479, 0, 2, [75]⟩,
  ⟨7480, 0, 2, [76]⟩,
  ⟨7481, 0, 2, [77]⟩,
  ⟨7482, 0, 2, [78]⟩,
  ⟨7484, 0, 2, [79]⟩,
  ⟨7485, 0, 2, [546]⟩,
  ⟨7486, 0, 2, [80]⟩,
  ⟨7487, 0, 2, [82]⟩,
  ⟨7488, 0, 2, [84]⟩,
  ⟨7489, 0, 2, [85]⟩,
  ⟨7490, 0, 2, [87]⟩,
  ⟨7491, 0, 2, [97]⟩,
  ⟨7492, 0, 2, [592]⟩,
  ⟨7493, 0, 2, [593]⟩,
  ⟨7494, 0, 2, [7426]⟩,
  ⟨7495, 0, 2, [98]⟩,
  ⟨7496, 0, 2, [100]⟩,
  ⟨7497, 0, 2, [101]⟩,
  ⟨7498, 0, 2, [601]⟩,
  ⟨7499, 0, 2, [603]⟩,
  ⟨7500, 0, 2, [604]⟩,
  ⟨7501, 0, 2, [103]⟩,
  ⟨7503, 0, 2, [107]⟩,
  ⟨7504, 0, 2, [109]⟩,
  ⟨7505, 0, 2, [331]⟩,
  ⟨7506, 0, 2, [111]⟩,
  ⟨7507, 0, 2, [596]⟩,
  ⟨7508, 0, 2, [7446]⟩,
  ⟨7509, 0, 2, [7447]⟩,
  ⟨7510, 0, 2, [112]⟩,
  ⟨7511, 0, 2, [116]⟩,
  ⟨7512, 0, 2, [117]⟩,
  ⟨7513, 0, 2, [7453]⟩,
  ⟨7514, 0, 2, [623]⟩,
  ⟨7515, 0, 2, [118]⟩,
  ⟨7516, 0, 2, [7461]⟩,
  ⟨7517, 0, 2, [946]⟩,
  ⟨7518, 0, 2, [947]⟩,
  ⟨7519, 0, 2, [948]⟩,
  ⟨7520, 0, 2, [966]⟩,
  ⟨7521, 0, 2, [967]⟩,
  ⟨7522, 0, 2, [105]⟩,
  ⟨7523, 0, 2, [114]⟩,
  ⟨7524, 0, 2, [117]⟩,
  ⟨7525, 0, 2, [118]⟩,
  ⟨7526, 0, 2, [946]⟩,
  ⟨7527, 0, 2, [947]⟩,
  ⟨7528, 0, 2, [961]⟩,
  ⟨7529, 0, 2, [966]⟩,
  ⟨7530, 0, 2, [967]⟩,
  ⟨7544, 0, 2, [1085]⟩,
  ⟨7579, 0, 2, [594]⟩,
  ⟨7580, 0, 2, [99]⟩,
  ⟨7581, 0, 2, [597]⟩,
  ⟨7582, 0, 2, [240]⟩,
  ⟨7583, 0, 2, [604]⟩,
  ⟨7584, 0, 2, [102]⟩,
  ⟨7585, 0, 2, [607]⟩,
  ⟨7586, 0, 2, [609]⟩,
  ⟨7587, 0, 2, [613]⟩,
  ⟨7588, 0, 2, [616]⟩,
  ⟨7589, 0, 2, [617]⟩,
  ⟨7590, 0, 2, [618]⟩,
  ⟨7591, 0, 2, [7547]⟩,
  ⟨7592, 0, 2, [669]⟩,
  ⟨7593, 0, 2, [621]⟩,
  ⟨7594, 0, 2, [7557]⟩,
  ⟨7595, 0, 2, [671]⟩,
  ⟨7596, 0, 2, [625]⟩,
  ⟨7597, 0, 2, [624]⟩,
  ⟨7598, 0, 2, [626]⟩,
  ⟨7599, 0, 2, [627]⟩,
  ⟨7600, 0, 2, [628]⟩,
  ⟨7601, 0, 2, [629]⟩,
  ⟨7602, 0, 2, [632]⟩,
  ⟨7603, 0, 2, [642]⟩,
  ⟨7604, 0, 2, [643]⟩,
  ⟨7605, 0, 2, [427]⟩,
  ⟨7606, 0, 2, [649]⟩,
  ⟨7607, 0, 2, [650]⟩,
  ⟨7608, 0, 2, [7452]⟩,
  ⟨7609, 0, 2, [651]⟩,
  ⟨7610, 0, 2, [652]⟩,
  ⟨7611, 0, 2, [122]⟩,
  ⟨7612, 0, 2, [656]⟩,
  ⟨7613, 0, 2, [657]⟩,
  ⟨7614, 0, 2, [658]⟩,
  ⟨7615, 0, 2, [952]⟩,
  ⟨7616, 230, 0, []⟩,
  ⟨7617, 230, 0, []⟩,
  ⟨7618, 220, 0, []⟩,
  ⟨7619, 230, 0, []⟩,
  ⟨7620, 230, 0, []⟩,
  ⟨7621, 230, 0, []⟩,
  ⟨7622, 230, 0, []⟩,
  ⟨7623, 230, 0, []⟩,
  ⟨7624, 230, 0, []⟩,
  ⟨7625, 230, 0, []⟩,
  ⟨7626, 220, 0, []⟩,
  ⟨7627, 230, 0, []⟩,
  ⟨7628, 230, 0, []⟩,
  ⟨7629, 234, 0, []⟩,
  ⟨7630, 214, 0, []⟩,
  ⟨7631, 220, 0, []⟩,
  ⟨7632, 202, 0, []⟩,
  ⟨7633, 230, 0, []⟩,
  ⟨7634, 230, 0, []⟩,
  ⟨7635, 230, 0, []⟩,
  ⟨7636, 230, 0, []⟩,
  ⟨7637, 230, 0, []⟩,
  ⟨7638, 230, 0, []⟩,
  ⟨7639, 230, 0, []⟩,
  ⟨7640, 230, 0, []⟩,
  ⟨7641, 230, 0, []⟩,
  ⟨7642, 230, 0, []⟩,
  ⟨7643, 230, 0, []⟩,
  ⟨7644, 230, 0, []⟩,
  ⟨7645, 230, 0, []⟩,
  ⟨7646, 230, 0, []⟩,
  ⟨7647, 230, 0, []⟩,
  ⟨7648, 230, 0, []⟩,
  ⟨7649, 230, 0, []⟩,
  ⟨7650, 230, 0, []⟩,
  ⟨7651, 230, 0, []⟩,
  ⟨7652, 230, 0, []⟩,
  ⟨7653, 230, 0, []⟩,
  ⟨7654, 230, 0, []⟩,
  ⟨7655, 230, 0, []⟩,
  ⟨7656, 230, 0, []⟩,
  ⟨7657, 230, 0, []⟩,
  ⟨7658, 230, 0, []⟩,
  ⟨7659, 230, 0, []⟩,
  ⟨7660, 230, 0, []⟩,
  ⟨7661, 230, 0, []⟩,
  ⟨7662, 230, 0, []⟩]

/-- src/u5e/props/UnicodeData.txt, relevant lines among 6657-6912. -/
def ucd26 : List UcdRow := [
  ⟨7663, 230, 0, []⟩,
  ⟨7664, 230, 0, []⟩,
  ⟨7665, 230, 0, []⟩,
  ⟨7666, 230, 0, []⟩,
  ⟨7667, 230, 0, []⟩,
  ⟨7668, 230, 0, []⟩,
  ⟨7669, 230, 0, []⟩,
  ⟨7675, 230, 0, []⟩,
  ⟨7676, 233, 0, []⟩,
  ⟨7677, 220, 0, []⟩,
  ⟨7678, 230, 0, []⟩,
  ⟨7679, 220, 0, []⟩,
  ⟨7680, 0, 0, [65, 805]⟩,
  ⟨7681, 0, 0, [97, 805]⟩,
  ⟨7682, 0, 0, [66, 775]⟩,
  ⟨7683, 0, 0, [98, 775]⟩,
  ⟨7684, 0, 0, [66, 803]⟩,
  ⟨7685, 0, 0, [98, 803]⟩,
  ⟨7686, 0, 0, [66, 817]⟩,
  ⟨7687, 0, 0, [98, 817]⟩,
  ⟨7688, 0, 0, [199, 769]⟩,
  ⟨7689, 0, 0, [231, 769]⟩,
  ⟨7690, 0, 0, [68, 775]⟩,
  ⟨7691, 0, 0, [100, 775]⟩,
  ⟨7692, 0, 0, [68, 803]⟩,
  ⟨7693, 0, 0, [100, 803]⟩,
  ⟨7694, 0, 0, [68, 817]⟩,
  ⟨7695, 0, 0, [100, 817]⟩,
  ⟨7696, 0, 0, [68, 807]⟩,
  ⟨7697, 0, 0, [100, 807]⟩,
  ⟨7698, 0, 0, [68, 813]⟩,
  ⟨7699, 0, 0, [100, 813]⟩,
  ⟨7700, 0, 0, [274, 768]⟩,
  ⟨7701, 0, 0, [275, 768]⟩,
  ⟨7702, 0, 0, [274, 769]⟩,
  ⟨7703, 0, 0, [275, 769]⟩,
  ⟨7704, 0, 0, [69, 813]⟩,
  ⟨7705, 0, 0, [101, 813]⟩,
  ⟨7706, 0, 0, [69, 816]⟩,
  ⟨7707, 0, 0, [101, 816]⟩,
  ⟨7708, 0, 0, [552, 774]⟩,
  ⟨7709, 0, 0, [553, 774]⟩,
  ⟨7710, 0, 0, [70, 775]⟩,
  ⟨7711, 0, 0, [102, 775]⟩,
  ⟨7712, 0, 0, [71, 772]⟩,
  ⟨7713, 0, 0, [103, 772]⟩,
  ⟨7714, 0, 0, [72, 775]⟩,
  ⟨7715, 0, 0, [104, 775]⟩,
  ⟨7716, 0, 0, [72, 803]⟩,
  ⟨7717, 0, 0, [104, 803]⟩,
  ⟨7718, 0, 0, [72, 776]⟩,
  ⟨7719, 0, 0, [104, 776]⟩,
  ⟨7720, 0, 0, [72, 807]⟩,
  ⟨7721, 0, 0, [104, 807]⟩,
  ⟨7722, 0, 0, [72, 814]⟩,
  ⟨7723, 0, 0, [104, 814]⟩,
  ⟨7724, 0, 0, [73, 816]⟩,
  ⟨7725, 0, 0, [105, 816]⟩,
  ⟨7726, 0, 0, [207, 769]⟩,
  ⟨7727, 0, 0, [239, 769]⟩,
  ⟨7728, 0, 0, [75, 769]⟩,
  ⟨7729, 0, 0, [107, 769]⟩,
  ⟨7730, 0, 0, [75, 803]⟩,
  ⟨7731, 0, 0, [107, 803]⟩,
  ⟨7732, 0, 0, [75, 817]⟩,
  ⟨7733, 0, 0, [107, 817]⟩,
  ⟨7734, 0, 0, [76, 803]⟩,
  ⟨7735, 0, 0, [108, 803]⟩,
  ⟨7736, 0, 0, [7734, 772]⟩,
  ⟨7737, 0, 0, [7735, 772]⟩,
  ⟨7738, 0, 0, [76, 817]⟩,
  ⟨7739, 0, 0, [108, 817]⟩,
  ⟨7740, 0, 0, [76, 813]⟩,
  ⟨7741, 0, 0, [108, 813]⟩,
  ⟨7742, 0, 0, [77, 769]⟩,
  ⟨7743, 0, 0, [109, 769]⟩,
  ⟨7744, 0, 0, [77, 775]⟩,
  ⟨7745, 0, 0, [109, 775]⟩,
  ⟨7746, 0, 0, [77, 803]⟩,
  ⟨7747, 0, 0, [109, 803]⟩,
  ⟨7748, 0, 0, [78, 775]⟩,
  ⟨7749, 0, 0, [110, 775]⟩,
  ⟨7750, 0, 0, [78, 803]⟩,
  ⟨7751, 0, 0, [110, 803]⟩,
  ⟨7752, 0, 0, [78, 817]⟩,
  ⟨7753, 0, 0, [110, 817]⟩,
  ⟨7754, 0, 0, [78, 813]⟩,
  ⟨7755, 0, 0, [110, 813]⟩,
  ⟨7756, 0, 0, [213, 769]⟩,
  ⟨7757, 0, 0, [245, 769]⟩,
  ⟨7758, 0, 0, [213, 776]⟩,
  ⟨7759, 0, 0, [245, 776]⟩,
  ⟨7760, 0, 0, [332, 768]⟩,
  ⟨7761, 0, 0, [333, 768]⟩,
  ⟨7762, 0, 0, [332, 769]⟩,
  ⟨7763, 0, 0, [333, 769]⟩,
  ⟨7764, 0, 0, [80, 769]⟩,
  ⟨7765, 0, 0, [112, 769]⟩,
  ⟨7766, 0, 0, [80, 775]⟩,
  ⟨7767, 0, 0, [112, 775]⟩,
  ⟨7768, 0, 0, [82, 775]⟩,
  ⟨7769, 0, 0, [114, 775]⟩,
  ⟨7770, 0, 0, [82, 803]⟩,
  ⟨7771, 0, 0, [114, 803]⟩,
  ⟨7772, 0, 0, [7770, 772]⟩,
  ⟨7773, 0, 0, [7771, 772]⟩,
  ⟨7774, 0, 0, [82, 817]⟩,
  ⟨7775, 0, 0, [114, 817]⟩,
  ⟨7776, 0, 0, [83, 775]⟩,
  ⟨7777, 0, 0, [115, 775]⟩,
  ⟨7778, 0, 0, [83, 803]⟩,
  ⟨7779, 0, 0, [115, 803]⟩,
  ⟨7780, 0, 0, [346, 775]⟩,
  ⟨7781, 0, 0, [347, 775]⟩,
  ⟨7782, 0, 0, [352, 775]⟩,
  ⟨7783, 0, 0, [353, 775]⟩,
  ⟨7784, 0, 0, [7778, 775]⟩,
  ⟨7785, 0, 0, [7779, 775]⟩,
  ⟨7786, 0, 0, [84, 775]⟩,
  ⟨7787, 0, 0, [116, 775]⟩,
  ⟨7788, 0, 0, [84, 803]⟩,
  ⟨7789, 0, 0, [116, 803]⟩,
  ⟨7790, 0, 0, [84, 817]⟩,
  ⟨7791, 0, 0, [116, 817]⟩,
  ⟨7792, 0, 0, [84, 813]⟩,
  ⟨7793, 0, 0, [116, 813]⟩,
  ⟨7794, 0, 0, [85, 804]⟩,
  ⟨7795, 0, 0, [117, 804]⟩,
  ⟨7796, 0, 0, [85, 816]⟩,
  ⟨7797, 0, 0, [117, 816]⟩,
  ⟨7798, 0, 0, [85, 813]⟩,
  ⟨7799, 0, 0, [117, 813]⟩,
  ⟨7800, 0, 0, [360, 769]⟩,
  ⟨7801, 0, 0, [361, 769]⟩,
  ⟨7802, 0, 0, [362, 776]⟩,
  ⟨7803, 0, 0, [363, 776]⟩,
  ⟨7804, 0, 0, [86, 771]⟩,
  ⟨7805, 0, 0, [118, 771]⟩,
  ⟨7806, 0, 0, [86, 803]⟩,
  ⟨7807, 0, 0, [118, 803]⟩,
  ⟨7808, 0, 0, [87, 768]⟩,
  ⟨7809, 0, 0, [119, 768]⟩,
  ⟨7810, 0, 0, [87, 769]⟩,
  ⟨7811, 0, 0, [119, 769]⟩,
  ⟨7812, 0, 0, [87, 776]⟩,
  ⟨7813, 0, 0, [119, 776]⟩,
  ⟨7814, 0, 0, [87, 775]⟩,
  ⟨7815, 0, 0, [119, 775]⟩,
  ⟨7816, 0, 0, [87, 803]⟩,
  ⟨7817, 0, 0, [119, 803]⟩,
  ⟨7818, 0, 0, [88, 775]⟩,
  ⟨7819, 0, 0, [120, 775]⟩,
  ⟨7820, 0, 0, [88, 776]⟩,
  ⟨7821, 0, 0, [120, 776]⟩,
  ⟨7822, 0, 0, [89, 775]⟩,
  ⟨7823, 0, 0, [121, 775]⟩,
  ⟨7824, 0, 0, [90, 770]⟩,
  ⟨7825, 0, 0, [122, 770]⟩,
  ⟨7826, 0, 0, [90, 803]⟩,
  ⟨7827, 0, 0, [122, 803]⟩,
  ⟨7828, 0, 0, [90, 817]⟩,
  ⟨7829, 0, 0, [122, 817]⟩,
  ⟨7830, 0, 0, [104, 817]⟩,
  ⟨7831, 0, 0, [116, 776]⟩,
  ⟨7832, 0, 0, [119, 778]⟩,
  ⟨7833, 0, 0, [121, 778]⟩,
  ⟨7834, 0, 1, [97, 702]⟩,
  ⟨7835, 0, 0, [383, 775]⟩,
  ⟨7840, 0, 0, [65, 803]⟩,
  ⟨7841, 0, 0, [97, 803]⟩,
  ⟨7842, 0, 0, [65, 777]⟩,
  ⟨7843, 0, 0, [97, 777]⟩,
  ⟨7844, 0, 0, [194, 769]⟩,
  ⟨7845, 0, 0, [226, 769]⟩,
  ⟨7846, 0, 0, [194, 768]⟩,
  ⟨7847, 0, 0, [226, 768]⟩,
  ⟨7848, 0, 0, [194, 777]⟩,
  ⟨7849, 0, 0, [226, 777]⟩,
  ⟨7850, 0, 0, [194, 771]⟩,
  ⟨7851, 0, 0, [226, 771]⟩,
  ⟨7852, 0, 0, [7840, 770]⟩,
  ⟨7853, 0, 0, [7841, 770]⟩,
  ⟨7854, 0, 0, [258, 769]⟩,
  ⟨7855, 0, 0, [259, 769]⟩,
  ⟨7856, 0, 0, [258, 768]⟩,
  ⟨7857, 0, 0, [259, 768]⟩,
  ⟨7858, 0, 0, [258, 777]⟩,
  ⟨7859, 0, 0, [259, 777]⟩,
  ⟨7860, 0, 0, [258, 771]⟩,
  ⟨7861, 0, 0, [259, 771]⟩,
  ⟨7862, 0, 0, [7840, 774]⟩,
  ⟨7863, 0, 0, [7841, 774]⟩,
  ⟨7864, 0, 0, [69, 803]⟩,
  ⟨7865, 0, 0, [101, 803]⟩,
  ⟨7866, 0, 0, [69, 777]⟩,
  ⟨7867, 0, 0, [101, 777]⟩,
  ⟨7868, 0, 0, [69, 771]⟩,
  ⟨7869, 0, 0, [101, 771]⟩,
  ⟨7870, 0, 0, [202, 769]⟩,
  ⟨7871, 0, 0, [234, 769]⟩,
  ⟨7872, 0, 0, [202, 768]⟩,
  ⟨7873, 0, 0, [234, 768]⟩,
  ⟨7874, 0, 0, [202, 777]⟩,
  ⟨7875, 0, 0, [234, 777]⟩,
  ⟨7876, 0, 0, [202, 771]⟩,
  ⟨7877, 0, 0, [234, 771]⟩,
  ⟨7878, 0, 0, [7864, 770]⟩,
  ⟨7879, 0, 0, [7865, 770]⟩,
  ⟨7880, 0, 0, [73, 777]⟩,
  ⟨7881, 0, 0, [105, 777]⟩,
  ⟨7882, 0, 0, [73, 803]⟩,
  ⟨7883, 0, 0, [105, 803]⟩,
  ⟨7884, 0, 0, [79, 803]⟩,
  ⟨7885, 0, 0, [111, 803]⟩,
  ⟨7886, 0, 0, [79, 777]⟩,
  ⟨7887, 0, 0, [111, 777]⟩,
  ⟨7888, 0, 0, [212, 769]⟩,
  ⟨7889, 0, 0, [244, 769]⟩,
  ⟨7890, 0, 0, [212, 768]⟩,
  ⟨7891, 0, 0, [244, 768]⟩,
  ⟨7892, 0, 0, [212, 777]⟩,
  ⟨7893, 0, 0, [244, 777]⟩,
  ⟨7894, 0, 0, [212, 771]⟩,
  ⟨7895, 0, 0, [244, 771]⟩,
  ⟨7896, 0, 0, [7884, 770]⟩,
  ⟨7897, 0, 0, [7885, 770]⟩,
  ⟨7898, 0, 0, [416, 769]⟩,
  ⟨7899, 0, 0, [417, 769]⟩,
  ⟨7900, 0, 0, [416, 768]⟩,
  ⟨7901, 0, 0, [417, 768]⟩,
  ⟨7902, 0, 0, [416, 777]⟩,
  ⟨7903, 0, 0, [417, 777]⟩,
  ⟨7904, 0, 0, [416, 771]⟩,
  ⟨7905, 0, 0, [417, 771]⟩,
  ⟨7906, 0, 0, [416, 803]⟩,
  ⟨7907, 0, 0, [417, 803]⟩,
  ⟨7908, 0, 0, [85, 803]⟩,
  ⟨7909, 0, 0, [117, 803]⟩,
  ⟨7910, 0, 0, [85, 777]⟩,
  ⟨7911, 0, 0, [117, 777]⟩,
  ⟨7912, 0, 0, [431, 769]⟩,
  ⟨7913, 0, 0, [432, 769]⟩,
  ⟨7914, 0, 0, [431, 768]⟩,
  ⟨7915, 0, 0, [432, 768]⟩,
  ⟨7916, 0, 0, [431, 777]⟩,
  ⟨7917, 0, 0, [432, 777]⟩,
  ⟨7918, 0, 0, [431, 771]⟩,
  ⟨7919, 0, 0, [432, 771]⟩,
  ⟨7920, 0, 0, [431, 803]⟩,
  ⟨7921, 0, 0, [432, 803]⟩,
  ⟨7922, 0, 0, [89, 768]⟩,
  ⟨7923, 0, 0, [121, 768]⟩]

/-- src/u5e/props/UnicodeData.txt, relevant lines among 6913-7168. -/
def ucd27 : List UcdRow := [
  ⟨7924, 0, 0, [89, 803]⟩,
  ⟨7925, 0, 0, [121, 803]⟩,
  ⟨7926, 0, 0, [89, 777]⟩,
  ⟨7927, 0, 0, [121, 777]⟩,
  ⟨7928, 0, 0, [89, 771]⟩,
  ⟨7929, 0, 0, [121, 771]⟩,
  ⟨7936, 0, 0, [945, 787]⟩,
  ⟨7937, 0, 0, [945, 788]⟩,
  ⟨7938, 0, 0, [7936, 768]⟩,
  ⟨7939, 0, 0, [7937, 768]⟩,
  ⟨7940, 0, 0, [7936, 769]⟩,
  ⟨7941, 0, 0, [7937, 769]⟩,
  ⟨7942, 0, 0, [7936, 834]⟩,
  ⟨7943, 0, 0, [7937, 834]⟩,
  ⟨7944, 0, 0, [913, 787]⟩,
  ⟨7945, 0, 0, [913, 788]⟩,
  ⟨7946, 0, 0, [7944, 768]⟩,
  ⟨7947, 0, 0, [7945, 768]⟩,
  ⟨7948, 0, 0, [7944, 769]⟩,
  ⟨7949, 0, 0, [7945, 769]⟩,
  ⟨7950, 0, 0, [7944, 834]⟩,
  ⟨7951, 0, 0, [7945, 834]⟩,
  ⟨7952, 0, 0, [949, 787]⟩,
  ⟨7953, 0, 0, [949, 788]⟩,
  ⟨7954, 0, 0, [7952, 768]⟩,
  ⟨7955, 0, 0, [7953, 768]⟩,
  ⟨7956, 0, 0, [7952, 769]⟩,
  ⟨7957, 0, 0, [7953, 769]⟩,
  ⟨7960, 0, 0, [917, 787]⟩,
  ⟨7961, 0, 0, [917, 788]⟩,
  ⟨7962, 0, 0, [7960, 768]⟩,
  ⟨7963, 0, 0, [7961, 768]⟩,
  ⟨7964, 0, 0, [7960, 769]⟩,
  ⟨7965, 0, 0, [7961, 769]⟩,
  ⟨7968, 0, 0, [951, 787]⟩,
  ⟨7969, 0, 0, [951, 788]⟩,
  ⟨7970, 0, 0, [7968, 768]⟩,
  ⟨7971, 0, 0, [7969, 768]⟩,
  ⟨7972, 0, 0, [7968, 769]⟩,
  ⟨7973, 0, 0, [7969, 769]⟩,
  ⟨7974, 0, 0, [7968, 834]⟩,
  ⟨7975, 0, 0, [7969, 834]⟩,
  ⟨7976, 0, 0, [919, 787]⟩,
  ⟨7977, 0, 0, [919, 788]⟩,
  ⟨7978, 0, 0, [7976, 768]⟩,
  ⟨7979, 0, 0, [7977, 768]⟩,
  ⟨7980, 0, 0, [7976, 769]⟩,
  ⟨7981, 0, 0, [7977, 769]⟩,
  ⟨7982, 0, 0, [7976, 834]⟩,
  ⟨7983, 0, 0, [7977, 834]⟩,
  ⟨7984, 0, 0, [953, 787]⟩,
  ⟨7985, 0, 0, [953, 788]⟩,
  ⟨7986, 0, 0, [7984, 768]⟩,
  ⟨7987, 0, 0, [7985, 768]⟩,
  ⟨7988, 0, 0, [7984, 769]⟩,
  ⟨7989, 0, 0, [7985, 769]⟩,
  ⟨7990, 0, 0, [7984, 834]⟩,
  ⟨7991, 0, 0, [7985, 834]⟩,
  ⟨7992, 0, 0, [921, 787]⟩,
  ⟨7993, 0, 0, [921, 788]⟩,
  ⟨7994, 0, 0, [7992, 768]⟩,
  ⟨7995, 0, 0, [7993, 768]⟩,
  ⟨7996, 0, 0, [7992, 769]⟩,
  ⟨7997, 0, 0, [7993, 769]⟩,
  ⟨7998, 0, 0, [7992, 834]⟩,
  ⟨7999, 0, 0, [7993, 834]⟩,
  ⟨8000, 0, 0, [959, 787]⟩,
  ⟨8001, 0, 0, [959, 788]⟩,
  ⟨8002, 0, 0, [8000, 768]⟩,
  ⟨8003, 0, 0, [8001, 768]⟩,
  ⟨8004, 0, 0, [8000, 769]⟩,
  ⟨8005, 0, 0, [8001, 769]⟩,
  ⟨8008, 0, 0, [927, 787]⟩,
  ⟨8009, 0, 0, [927, 788]⟩,
  ⟨8010, 0, 0, [8008, 768]⟩,
  ⟨8011, 0, 0, [8009, 768]⟩,
  ⟨8012, 0, 0, [8008, 769]⟩,
  ⟨8013, 0, 0, [8009, 769]⟩,
  ⟨8016, 0, 0, [965, 787]⟩,
  ⟨8017, 0, 0, [965, 788]⟩,
  ⟨8018, 0, 0, [8016, 768]⟩,
  ⟨8019, 0, 0, [8017, 768]⟩,
  ⟨8020, 0, 0, [8016, 769]⟩,
  ⟨8021, 0, 0, [8017, 769]⟩,
  ⟨8022, 0, 0, [8016, 834]⟩,
  ⟨8023, 0, 0, [8017, 834]⟩,
  ⟨8025, 0, 0, [933, 788]⟩,
  ⟨8027, 0, 0, [8025, 768]⟩,
  ⟨8029, 0, 0, [8025, 769]⟩,
  ⟨8031, 0, 0, [8025, 834]⟩,
  ⟨8032, 0, 0, [969, 787]⟩,
  ⟨8033, 0, 0, [969, 788]⟩,
  ⟨8034, 0, 0, [8032, 768]⟩,
  ⟨8035, 0, 0, [8033, 768]⟩,
  ⟨8036, 0, 0, [8032, 769]⟩,
  ⟨8037, 0, 0, [8033, 769]⟩,
  ⟨8038, 0, 0, [8032, 834]⟩,
  ⟨8039, 0, 0, [8033, 834]⟩,
  ⟨8040, 0, 0, [937, 787]⟩,
  ⟨8041, 0, 0, [937, 788]⟩,
  ⟨8042, 0, 0, [8040, 768]⟩,
  ⟨8043, 0, 0, [8041, 768]⟩,
  ⟨8044, 0, 0, [8040, 769]⟩,
  ⟨8045, 0, 0, [8041, 769]⟩,
  ⟨8046, 0, 0, [8040, 834]⟩,
  ⟨8047, 0, 0, [8041, 834]⟩,
  ⟨8048, 0, 0, [945, 768]⟩,
  ⟨8049, 0, 0, [940]⟩,
  ⟨8050, 0, 0, [949, 768]⟩,
  ⟨8051, 0, 0, [941]⟩,
  ⟨8052, 0, 0, [951, 768]⟩,
  ⟨8053, 0, 0, [942]⟩,
  ⟨8054, 0, 0, [953, 768]⟩,
  ⟨8055, 0, 0, [943]⟩,
  ⟨8056, 0, 0, [959, 768]⟩,
  ⟨8057, 0, 0, [972]⟩,
  ⟨8058, 0, 0, [965, 768]⟩,
  ⟨8059, 0, 0, [973]⟩,
  ⟨8060, 0, 0, [969, 768]⟩,
  ⟨8061, 0, 0, [974]⟩,
  ⟨8064, 0, 0, [7936, 837]⟩,
  ⟨8065, 0, 0, [7937, 837]⟩,
  ⟨8066, 0, 0, [7938, 837]⟩,
  ⟨8067, 0, 0, [7939, 837]⟩,
  ⟨8068, 0, 0, [7940, 837]⟩,
  ⟨8069, 0, 0, [7941, 837]⟩,
  ⟨8070, 0, 0, [7942, 837]⟩,
  ⟨8071, 0, 0, [7943, 837]⟩,
  ⟨8072, 0, 0, [7944, 837]⟩,
  ⟨8073, 0, 0, [7945, 837]⟩,
  ⟨8074, 0, 0, [7946, 837]⟩,
  ⟨8075, 0, 0, [7947, 837]⟩,
  ⟨8076, 0, 0, [7948, 837]⟩,
  ⟨8077, 0, 0, [7949, 837]⟩,
  ⟨8078, 0, 0, [7950, 837]⟩,
  ⟨8079, 0, 0, [7951, 837]⟩,
  ⟨8080, 0, 0, [7968, 837]⟩,
  ⟨8081, 0, 0, [7969, 837]⟩,
  ⟨8082, 0, 0, [7970, 837]⟩,
  ⟨8083, 0, 0, [7971, 837]⟩,
  ⟨8084, 0, 0, [7972, 837]⟩,
  ⟨8085, 0, 0, [7973, 837]⟩,
  ⟨8086, 0, 0, [7974, 837]⟩,
  ⟨8087, 0, 0, [7975, 837]⟩,
  ⟨8088, 0, 0, [7976, 837]⟩,
  ⟨8089, 0, 0, [7977, 837]⟩,
  ⟨8090, 0, 0, [7978, 837]⟩,
  ⟨8091, 0, 0, [7979, 837]⟩,
  ⟨8092, 0, 0, [7980, 837]⟩,
  ⟨8093, 0, 0, [7981, 837]⟩,
  ⟨8094, 0, 0, [7982, 837]⟩,
  ⟨8095, 0, 0, [7983, 837]⟩,
  ⟨8096, 0, 0, [8032, 837]⟩,
  ⟨8097, 0, 0, [8033, 837]⟩,
  ⟨8098, 0, 0, [8034, 837]⟩,
  ⟨8099, 0, 0, [8035, 837]⟩,
  ⟨8100, 0, 0, [8036, 837]⟩,
  ⟨8101, 0, 0, [8037, 837]⟩,
  ⟨8102, 0, 0, [8038, 837]⟩,
  ⟨8103, 0, 0, [8039, 837]⟩,
  ⟨8104, 0, 0, [8040, 837]⟩,
  ⟨8105, 0, 0, [8041, 837]⟩,
  ⟨8106, 0, 0, [8042, 837]⟩,
  ⟨8107, 0, 0, [8043, 837]⟩,
  ⟨8108, 0, 0, [8044, 837]⟩,
  ⟨8109, 0, 0, [8045, 837]⟩,
  ⟨8110, 0, 0, [8046, 837]⟩,
  ⟨8111, 0, 0, [8047, 837]⟩,
  ⟨8112, 0, 0, [945, 774]⟩,
  ⟨8113, 0, 0, [945, 772]⟩,
  ⟨8114, 0, 0, [8048, 837]⟩,
  ⟨8115, 0, 0, [945, 837]⟩,
  ⟨8116, 0, 0, [940, 837]⟩,
  ⟨8118, 0, 0, [945, 834]⟩,
  ⟨8119, 0, 0, [8118, 837]⟩,
  ⟨8120, 0, 0, [913, 774]⟩,
  ⟨8121, 0, 0, [913, 772]⟩,
  ⟨8122, 0, 0, [913, 768]⟩,
  ⟨8123, 0, 0, [902]⟩,
  ⟨8124, 0, 0, [913, 837]⟩,
  ⟨8125, 0, 1, [32, 787]⟩,
  ⟨8126, 0, 0, [953]⟩,
  ⟨8127, 0, 1, [32, 787]⟩,
  ⟨8128, 0, 1, [32, 834]⟩,
  ⟨8129, 0, 0, [168, 834]⟩,
  ⟨8130, 0, 0, [8052, 837]⟩,
  ⟨8131, 0, 0, [951, 837]⟩,
  ⟨8132, 0, 0, [942, 837]⟩,
  ⟨8134, 0, 0, [951, 834]⟩,
  ⟨8135, 0, 0, [8134, 837]⟩,
  ⟨8136, 0, 0, [917, 768]⟩,
  ⟨8137, 0, 0, [904]⟩,
  ⟨8138, 0, 0, [919, 768]⟩,
  ⟨8139, 0, 0, [905]⟩,
  ⟨8140, 0, 0, [919, 837]⟩,
  ⟨8141, 0, 0, [8127, 768]⟩,
  ⟨8142, 0, 0, [8127, 769]⟩,
  ⟨8143, 0, 0, [8127, 834]⟩,
  ⟨8144, 0, 0, [953, 774]⟩,
  ⟨8145, 0, 0, [953, 772]⟩,
  ⟨8146, 0, 0, [970, 768]⟩,
  ⟨8147, 0, 0, [912]⟩,
  ⟨8150, 0, 0, [953, 834]⟩,
  ⟨8151, 0, 0, [970, 834]⟩,
  ⟨8152, 0, 0, [921, 774]⟩,
  ⟨8153, 0, 0, [921, 772]⟩,
  ⟨8154, 0, 0, [921, 768]⟩,
  ⟨8155, 0, 0, [906]⟩,
  ⟨8157, 0, 0, [8190, 768]⟩,
  ⟨8158, 0, 0, [8190, 769]⟩,
  ⟨8159, 0, 0, [8190, 834]⟩,
  ⟨8160, 0, 0, [965, 774]⟩,
  ⟨8161, 0, 0, [965, 772]⟩,
  ⟨8162, 0, 0, [971, 768]⟩,
  ⟨8163, 0, 0, [944]⟩,
  ⟨8164, 0, 0, [961, 787]⟩,
  ⟨8165, 0, 0, [961, 788]⟩,
  ⟨8166, 0, 0, [965, 834]⟩,
  ⟨8167, 0, 0, [971, 834]⟩,
  ⟨8168, 0, 0, [933, 774]⟩,
  ⟨8169, 0, 0, [933, 772]⟩,
  ⟨8170, 0, 0, [933, 768]⟩,
  ⟨8171, 0, 0, [910]⟩,
  ⟨8172, 0, 0, [929, 788]⟩,
  ⟨8173, 0, 0, [168, 768]⟩,
  ⟨8174, 0, 0, [901]⟩,
  ⟨8175, 0, 0, [96]⟩,
  ⟨8178, 0, 0, [8060, 837]⟩,
  ⟨8179, 0, 0, [969, 837]⟩,
  ⟨8180, 0, 0, [974, 837]⟩,
  ⟨8182, 0, 0, [969, 834]⟩,
  ⟨8183, 0, 0, [8182, 837]⟩,
  ⟨8184, 0, 0, [927, 768]⟩,
  ⟨8185, 0, 0, [908]⟩,
  ⟨8186, 0, 0, [937, 768]⟩,
  ⟨8187, 0, 0, [911]⟩,
  ⟨8188, 0, 0, [937, 837]⟩,
  ⟨8189, 0, 0, [180]⟩,
  ⟨8190, 0, 1, [32, 788]⟩,
  ⟨8192, 0, 0, [8194]⟩,
  ⟨8193, 0, 0, [8195]⟩,
  ⟨8194, 0, 1, [32]⟩,
  ⟨8195, 0, 1, [32]⟩,
  ⟨8196, 0, 1, [32]⟩,
  ⟨8197, 0, 1, [32]⟩,
  ⟨8198, 0, 1, [32]⟩,
  ⟨8199, 0, 2, [32]⟩,
  ⟨8200, 0, 1, [32]⟩,
  ⟨8201, 0, 1, [32]⟩,
  ⟨8202, 0, 1, [32]⟩]

/-- src/u5e/props/UnicodeData.txt, relevant lines among 7169-7424. -/
def ucd28 : List UcdRow := [
  ⟨8209, 0, 2, [8208]⟩,
  ⟨8215, 0, 1, [32, 819]⟩,
  ⟨8228, 0, 1, [46]⟩,
  ⟨8229, 0, 1, [46, 46]⟩,
  ⟨8230, 0, 1, [46, 46, 46]⟩,
  ⟨8239, 0, 2, [32]⟩,
  ⟨8243, 0, 1, [8242, 8242]⟩,
  ⟨8244, 0, 1, [8242, 8242, 8242]⟩,
  ⟨8246, 0, 1, [8245, 8245]⟩,
  ⟨8247, 0, 1, [8245, 8245, 8245]⟩,
  ⟨8252, 0, 1, [33, 33]⟩,
  ⟨8254, 0, 1, [32, 773]⟩,
  ⟨8263, 0, 1, [63, 63]⟩,
  ⟨8264, 0, 1, [63, 33]⟩,
  ⟨8265, 0, 1, [33, 63]⟩,
  ⟨8279, 0, 1, [8242, 8242, 8242, 8242]⟩,
  ⟨8287, 0, 1, [32]⟩,
  ⟨8304, 0, 2, [48]⟩,
  ⟨8305, 0, 2, [105]⟩,
  ⟨8308, 0, 2, [52]⟩,
  ⟨8309, 0, 2, [53]⟩,
  ⟨8310, 0, 2, [54]⟩,
  ⟨8311, 0, 2, [55]⟩,
  ⟨8312, 0, 2, [56]⟩,
  ⟨8313, 0, 2, [57]⟩,
  ⟨8314, 0, 2, [43]⟩,
  ⟨8315, 0, 2, [8722]⟩,
  ⟨8316, 0, 2, [61]⟩,
  ⟨8317, 0, 2, [40]⟩,
  ⟨8318, 0, 2, [41]⟩,
  ⟨8319, 0, 2, [110]⟩,
  ⟨8320, 0, 2, [48]⟩,
  ⟨8321, 0, 2, [49]⟩,
  ⟨8322, 0, 2, [50]⟩,
  ⟨8323, 0, 2, [51]⟩,
  ⟨8324, 0, 2, [52]⟩,
  ⟨8325, 0, 2, [53]⟩,
  ⟨8326, 0, 2, [54]⟩,
  ⟨8327, 0, 2, [55]⟩,
  ⟨8328, 0, 2, [56]⟩,
  ⟨8329, 0, 2, [57]⟩,
  ⟨8330, 0, 2, [43]⟩,
  ⟨8331, 0, 2, [8722]⟩,
  ⟨8332, 0, 2, [61]⟩,
  ⟨8333, 0, 2, [40]⟩,
  ⟨8334, 0, 2, [41]⟩,
  ⟨8336, 0, 2, [97]⟩,
  ⟨8337, 0, 2, [101]⟩,
  ⟨8338, 0, 2, [111]⟩,
  ⟨8339, 0, 2, [120]⟩,
  ⟨8340, 0, 2, [601]⟩,
  ⟨8341, 0, 2, [104]⟩,
  ⟨8342, 0, 2, [107]⟩,
  ⟨8343, 0, 2, [108]⟩,
  ⟨8344, 0, 2, [109]⟩,
  ⟨8345, 0, 2, [110]⟩,
  ⟨8346, 0, 2, [112]⟩,
  ⟨8347, 0, 2, [115]⟩,
  ⟨8348, 0, 2, [116]⟩,
  ⟨8360, 0, 1, [82, 115]⟩,
  ⟨8400, 230, 0, []⟩,
  ⟨8401, 230, 0, []⟩,
  ⟨8402, 1, 0, []⟩,
  ⟨8403, 1, 0, []⟩,
  ⟨8404, 230, 0, []⟩,
  ⟨8405, 230, 0, []⟩,
  ⟨8406, 230, 0, []⟩,
  ⟨8407, 230, 0, []⟩,
  ⟨8408, 1, 0, []⟩,
  ⟨8409, 1, 0, []⟩,
  ⟨8410, 1, 0, []⟩,
  ⟨8411, 230, 0, []⟩,
  ⟨8412, 230, 0, []⟩,
  ⟨8417, 230, 0, []⟩,
  ⟨8421, 1, 0, []⟩,
  ⟨8422, 1, 0, []⟩,
  ⟨8423, 230, 0, []⟩,
  ⟨8424, 220, 0, []⟩,
  ⟨8425, 230, 0, []⟩,
  ⟨8426, 1, 0, []⟩,
  ⟨8427, 1, 0, []⟩,
  ⟨8428, 220, 0, []⟩,
  ⟨8429, 220, 0, []⟩,
  ⟨8430, 220, 0, []⟩,
  ⟨8431, 220, 0, []⟩,
  ⟨8432, 230, 0, []⟩,
  ⟨8448, 0, 1, [97, 47, 99]⟩,
  ⟨8449, 0, 1, [97, 47, 115]⟩,
  ⟨8450, 0, 2, [67]⟩,
  ⟨8451, 0, 1, [176, 67]⟩,
  ⟨8453, 0, 1, [99, 47, 111]⟩,
  ⟨8454, 0, 1, [99, 47, 117]⟩,
  ⟨8455, 0, 1, [400]⟩,
  ⟨8457, 0, 1, [176, 70]⟩,
  ⟨8458, 0, 2, [103]⟩,
  ⟨8459, 0, 2, [72]⟩,
  ⟨8460, 0, 2, [72]⟩,
  ⟨8461, 0, 2, [72]⟩,
  ⟨8462, 0, 2, [104]⟩,
  ⟨8463, 0, 2, [295]⟩,
  ⟨8464, 0, 2, [73]⟩,
  ⟨8465, 0, 2, [73]⟩,
  ⟨8466, 0, 2, [76]⟩,
  ⟨8467, 0, 2, [108]⟩,
  ⟨8469, 0, 2, [78]⟩,
  ⟨8470, 0, 1, [78, 111]⟩,
  ⟨8473, 0, 2, [80]⟩,
  ⟨8474, 0, 2, [81]⟩,
  ⟨8475, 0, 2, [82]⟩,
  ⟨8476, 0, 2, [82]⟩,
  ⟨8477, 0, 2, [82]⟩,
  ⟨8480, 0, 2, [83, 77]⟩,
  ⟨8481, 0, 1, [84, 69, 76]⟩,
  ⟨8482, 0, 2, [84, 77]⟩,
  ⟨8484, 0, 2, [90]⟩,
  ⟨8486, 0, 0, [937]⟩,
  ⟨8488, 0, 2, [90]⟩,
  ⟨8490, 0, 0, [75]⟩,
  ⟨8491, 0, 0, [197]⟩,
  ⟨8492, 0, 2, [66]⟩,
  ⟨8493, 0, 2, [67]⟩,
  ⟨8495, 0, 2, [101]⟩,
  ⟨8496, 0, 2, [69]⟩,
  ⟨8497, 0, 2, [70]⟩]

/-- src/u5e/props/UnicodeData.txt, relevant lines among 7425-7680. -/
def ucd29 : List UcdRow := [
  ⟨8499, 0, 2, [77]⟩,
  ⟨8500, 0, 2, [111]⟩,
  ⟨8501, 0, 1, [1488]⟩,
  ⟨8502, 0, 1, [1489]⟩,
  ⟨8503, 0, 1, [1490]⟩,
  ⟨8504, 0, 1, [1491]⟩,
  ⟨8505, 0, 2, [105]⟩,
  ⟨8507, 0, 1, [70, 65, 88]⟩,
  ⟨8508, 0, 2, [960]⟩,
  ⟨8509, 0, 2, [947]⟩,
  ⟨8510, 0, 2, [915]⟩,
  ⟨8511, 0, 2, [928]⟩,
  ⟨8512, 0, 2, [8721]⟩,
  ⟨8517, 0, 2, [68]⟩,
  ⟨8518, 0, 2, [100]⟩,
  ⟨8519, 0, 2, [101]⟩,
  ⟨8520, 0, 2, [105]⟩,
  ⟨8521, 0, 2, [106]⟩,
  ⟨8528, 0, 2, [49, 8260, 55]⟩,
  ⟨8529, 0, 2, [49, 8260, 57]⟩,
  ⟨8530, 0, 2, [49, 8260, 49, 48]⟩,
  ⟨8531, 0, 2, [49, 8260, 51]⟩,
  ⟨8532, 0, 2, [50, 8260, 51]⟩,
  ⟨8533, 0, 2, [49, 8260, 53]⟩,
  ⟨8534, 0, 2, [50, 8260, 53]⟩,
  ⟨8535, 0, 2, [51, 8260, 53]⟩,
  ⟨8536, 0, 2, [52, 8260, 53]⟩,
  ⟨8537, 0, 2, [49, 8260, 54]⟩,
  ⟨8538, 0, 2, [53, 8260, 54]⟩,
  ⟨8539, 0, 2, [49, 8260, 56]⟩,
  ⟨8540, 0, 2, [51, 8260, 56]⟩,
  ⟨8541, 0, 2, [53, 8260, 56]⟩,
  ⟨8542, 0, 2, [55, 8260, 56]⟩,
  ⟨8543, 0, 2, [49, 8260]⟩,
  ⟨8544, 0, 1, [73]⟩,
  ⟨8545, 0, 1, [73, 73]⟩,
  ⟨8546, 0, 1, [73, 73, 73]⟩,
  ⟨8547, 0, 1, [73, 86]⟩,
  ⟨8548, 0, 1, [86]⟩,
  ⟨8549, 0, 1, [86, 73]⟩,
  ⟨8550, 0, 1, [86, 73, 73]⟩,
  ⟨8551, 0, 1, [86, 73, 73, 73]⟩,
  ⟨8552, 0, 1, [73, 88]⟩,
  ⟨8553, 0, 1, [88]⟩,
  ⟨8554, 0, 1, [88, 73]⟩,
  ⟨8555, 0, 1, [88, 73, 73]⟩,
  ⟨8556, 0, 1, [76]⟩,
  ⟨8557, 0, 1, [67]⟩,
  ⟨8558, 0, 1, [68]⟩,
  ⟨8559, 0, 1, [77]⟩,
  ⟨8560, 0, 1, [105]⟩,
  ⟨8561, 0, 1, [105, 105]⟩,
  ⟨8562, 0, 1, [105, 105, 105]⟩,
  ⟨8563, 0, 1, [105, 118]⟩,
  ⟨8564, 0, 1, [118]⟩,
  ⟨8565, 0, 1, [118, 105]⟩,
  ⟨8566, 0, 1, [118, 105, 105]⟩,
  ⟨8567, 0, 1, [118, 105, 105, 105]⟩,
  ⟨8568, 0, 1, [105, 120]⟩,
  ⟨8569, 0, 1, [120]⟩,
  ⟨8570, 0, 1, [120, 105]⟩,
  ⟨8571, 0, 1, [120, 105, 105]⟩,
  ⟨8572, 0, 1, [108]⟩,
  ⟨8573, 0, 1, [99]⟩,
  ⟨8574, 0, 1, [100]⟩,
  ⟨8575, 0, 1, [109]⟩,
  ⟨8585, 0, 2, [48, 8260, 51]⟩,
  ⟨8602, 0, 0, [8592, 824]⟩,
  ⟨8603, 0, 0, [8594, 824]⟩,
  ⟨8622, 0, 0, [8596, 824]⟩,
  ⟨8653, 0, 0, [8656, 824]⟩,
  ⟨8654, 0, 0, [8660, 824]⟩,
  ⟨8655, 0, 0, [8658, 824]⟩,
  ⟨8708, 0, 0, [8707, 824]⟩,
  ⟨8713, 0, 0, [8712, 824]⟩,
  ⟨8716, 0, 0, [8715, 824]⟩,
  ⟨8740, 0, 0, [8739, 824]⟩,
  ⟨8742, 0, 0, [8741, 824]⟩,
  ⟨8748, 0, 1, [8747, 8747]⟩,
  ⟨8749, 0, 1, [8747, 8747, 8747]⟩,
  ⟨8751, 0, 1, [8750, 8750]⟩,
  ⟨8752, 0, 1, [8750, 8750, 8750]⟩]

/-- src/u5e/props/UnicodeData.txt, relevant lines among 7681-7936. -/
def ucd30 : List UcdRow := [
  ⟨8769, 0, 0, [8764, 824]⟩,
  ⟨8772, 0, 0, [8771, 824]⟩,
  ⟨8775, 0, 0, [8773, 824]⟩,
  ⟨8777, 0, 0, [8776, 824]⟩,
  ⟨8800, 0, 0, [61, 824]⟩,
  ⟨8802, 0, 0, [8801, 824]⟩,
  ⟨8813, 0, 0, [8781, 824]⟩,
  ⟨8814, 0, 0, [60, 824]⟩,
  ⟨8815, 0, 0, [62, 824]⟩,
  ⟨8816, 0, 0, [8804, 824]⟩,
  ⟨8817, 0, 0, [8805, 824]⟩,
  ⟨8820, 0, 0, [8818, 824]⟩,
  ⟨8821, 0, 0, [8819, 824]⟩,
  ⟨8824, 0, 0, [8822, 824]⟩,
  ⟨8825, 0, 0, [8823, 824]⟩,
  ⟨8832, 0, 0, [8826, 824]⟩,
  ⟨8833, 0, 0, [8827, 824]⟩,
  ⟨8836, 0, 0, [8834, 824]⟩,
  ⟨8837, 0, 0, [8835, 824]⟩,
  ⟨8840, 0, 0, [8838, 824]⟩,
  ⟨8841, 0, 0, [8839, 824]⟩,
  ⟨8876, 0, 0, [8866, 824]⟩,
  ⟨8877, 0, 0, [8872, 824]⟩,
  ⟨8878, 0, 0, [8873, 824]⟩,
  ⟨8879, 0, 0, [8875, 824]⟩,
  ⟨8928, 0, 0, [8828, 824]⟩,
  ⟨8929, 0, 0, [8829, 824]⟩,
  ⟨8930, 0, 0, [8849, 824]⟩,
  ⟨8931, 0, 0, [8850, 824]⟩,
  ⟨8938, 0, 0, [8882, 824]⟩,
  ⟨8939, 0, 0, [8883, 824]⟩,
  ⟨8940, 0, 0, [8884, 824]⟩,
  ⟨8941, 0, 0, [8885, 824]⟩,
  ⟨9001, 0, 0, [12296]⟩,
  ⟨9002, 0, 0, [12297]⟩]

/-- src/u5e/props/UnicodeData.txt, relevant lines among 7937-8192. -/
def ucd31 : List UcdRow := [
  ⟨9312, 0, 2, [49]⟩,
  ⟨9313, 0, 2, [50]⟩,
  ⟨9314, 0, 2, [51]⟩,
  ⟨9315, 0, 2, [52]⟩,
  ⟨9316, 0, 2, [53]⟩]

/-- src/u5e/props/UnicodeData.txt, relevant lines among 8193-8448. -/
def ucd32 : List UcdRow := [
  ⟨9317, 0, 2, [54]⟩,
  ⟨9318, 0, 2, [55]⟩,
  ⟨9319, 0, 2, [56]⟩,
  ⟨9320, 0, 2, [57]⟩,
  ⟨9321, 0, 2, [49, 48]⟩,
  ⟨9322, 0, 2, [49, 49]⟩,
  ⟨9323, 0, 2, [49, 50]⟩,
  ⟨9324, 0, 2, [49, 51]⟩,
  ⟨9325, 0, 2, [49, 52]⟩,
  ⟨9326, 0, 2, [49, 53]⟩,
  ⟨9327, 0, 2, [49, 54]⟩,
  ⟨9328, 0, 2, [49, 55]⟩,
  ⟨9329, 0, 2, [49, 56]⟩,
  ⟨9330, 0, 2, [49, 57]⟩,
  ⟨9331, 0, 2, [50, 48]⟩,
  ⟨9332, 0, 1, [40, 49, 41]⟩,
  ⟨9333, 0, 1, [40, 50, 41]⟩,
  ⟨9334, 0, 1, [40, 51, 41]⟩,
  ⟨9335, 0, 1, [40, 52, 41]⟩,
  ⟨9336, 0, 1, [40, 53, 41]⟩,
  ⟨9337, 0, 1, [40, 54, 41]⟩,
  ⟨9338, 0, 1, [40, 55, 41]⟩,
  ⟨9339, 0, 1, [40, 56, 41]⟩,
  ⟨9340, 0, 1, [40, 57, 41]⟩,
  ⟨9341, 0, 1, [40, 49, 48, 41]⟩,
  ⟨9342, 0, 1, [40, 49, 49, 41]⟩,
  ⟨9343, 0, 1, [40, 49, 50, 41]⟩,
  ⟨9344, 0, 1, [40, 49, 51, 41]⟩,
  ⟨9345, 0, 1, [40, 49, 52, 41]⟩,
  ⟨9346, 0, 1, [40, 49, 53, 41]⟩,
  ⟨9347, 0, 1, [40, 49, 54, 41]⟩,
  ⟨9348, 0, 1, [40, 49, 55, 41]⟩,
  ⟨9349, 0, 1, [40, 49, 56, 41]⟩,
  ⟨9350, 0, 1, [40, 49, 57, 41]⟩,
  ⟨9351, 0, 1, [40, 50, 48, 41]⟩,
  ⟨9352, 0, 1, [49, 46]⟩,
  ⟨9353, 0, 1, [50, 46]⟩,
  ⟨9354, 0, 1, [51, 46]⟩,
  ⟨9355, 0, 1, [52, 46]⟩,
  ⟨9356, 0, 1, [53, 46]⟩,
  ⟨9357, 0, 1, [54, 46]⟩,
  ⟨9358, 0, 1, [55, 46]⟩,
  ⟨9359, 0, 1, [56, 46]⟩,
  ⟨9360, 0, 1, [57, 46]⟩,
  ⟨9361, 0, 1, [49, 48, 46]⟩,
  ⟨9362, 0, 1, [49, 49, 46]⟩,
  ⟨9363, 0, 1, [49, 50, 46]⟩,
  ⟨9364, 0, 1, [49, 51, 46]⟩,
  ⟨9365, 0, 1, [49, 52, 46]⟩,
  ⟨9366, 0, 1, [49, 53, 46]⟩,
  ⟨9367, 0, 1, [49, 54, 46]⟩,
  ⟨9368, 0, 1, [49, 55, 46]⟩,
  ⟨9369, 0, 1, [49, 56, 46]⟩,
  ⟨9370, 0, 1, [49, 57, 46]⟩,
  ⟨9371, 0, 1, [50, 48, 46]⟩,
  ⟨9372, 0, 1, [40, 97, 41]⟩,
  ⟨9373, 0, 1, [40, 98, 41]⟩,
  ⟨9374, 0, 1, [40, 99, 41]⟩,
  ⟨9375, 0, 1, [40, 100, 41]⟩,
  ⟨9376, 0, 1, [40, 101, 41]⟩,
  ⟨9377, 0, 1, [40, 102, 41]⟩,
  ⟨9378, 0, 1, [40, 103, 41]⟩,
  ⟨9379, 0, 1, [40, 104, 41]⟩,
  ⟨9380, 0, 1, [40, 105, 41]⟩,
  ⟨9381, 0, 1, [40, 106, 41]⟩,
  ⟨9382, 0, 1, [40, 107, 41]⟩,
  ⟨9383, 0, 1, [40, 108, 41]⟩,
  ⟨9384, 0, 1, [40, 109, 41]⟩,
  ⟨9385, 0, 1, [40, 110, 41]⟩,
  ⟨9386, 0, 1, [40, 111, 41]⟩,
  ⟨9387, 0, 1, [40, 112, 41]⟩,
  ⟨9388, 0, 1, [40, 113, 41]⟩,
  ⟨9389, 0, 1, [40, 114, 41]⟩,
  ⟨9390, 0, 1, [40, 115, 41]⟩,
  ⟨9391, 0, 1, [40, 116, 41]⟩,
  ⟨9392, 0, 1, [40, 117, 41]⟩,
  ⟨9393, 0, 1, [40, 118, 41]⟩,
  ⟨9394, 0, 1, [40, 119, 41]⟩,
  ⟨9395, 0, 1, [40, 120, 41]⟩,
  ⟨9396, 0, 1, [40, 121, 41]⟩,
  ⟨9397, 0, 1, [40, 122, 41]⟩,
  ⟨9398, 0, 2, [65]⟩,
  ⟨9399, 0, 2, [66]⟩,
  ⟨9400, 0, 2, [67]⟩,
  ⟨9401, 0, 2, [68]⟩,
  ⟨9402, 0, 2, [69]⟩,
  ⟨9403, 0, 2, [70]⟩,
  ⟨9404, 0, 2, [71]⟩,
  ⟨9405, 0, 2, [72]⟩,
  ⟨9406, 0, 2, [73]⟩,
  ⟨9407, 0, 2, [74]⟩,
  ⟨9408, 0, 2, [75]⟩,
  ⟨9409, 0, 2, [76]⟩,
  ⟨9410, 0, 2, [77]⟩,
  ⟨9411, 0, 2, [78]⟩,
  ⟨9412, 0, 2, [79]⟩,
  ⟨9413, 0, 2, [80]⟩,
  ⟨9414, 0, 2, [81]⟩,
  ⟨9415, 0, 2, [82]⟩,
  ⟨9416, 0, 2, [83]⟩,
  ⟨9417, 0, 2, [84]⟩,
  ⟨9418, 0, 2, [85]⟩,
  ⟨9419, 0, 2, [86]⟩,
  ⟨9420, 0, 2, [87]⟩,
  ⟨9421, 0, 2, [88]⟩,
  ⟨9422, 0, 2, [89]⟩,
  ⟨9423, 0, 2, [90]⟩,
  ⟨9424, 0, 2, [97]⟩,
  ⟨9425, 0, 2, [98]⟩,
  ⟨9426, 0, 2, [99]⟩,
  ⟨9427, 0, 2, [100]⟩,
  ⟨9428, 0, 2, [101]⟩,
  ⟨9429, 0, 2, [102]⟩,
  ⟨9430, 0, 2, [103]⟩,
  ⟨9431, 0, 2, [104]⟩,
  ⟨9432, 0, 2, [105]⟩,
  ⟨9433, 0, 2, [106]⟩,
  ⟨9434, 0, 2, [107]⟩,
  ⟨9435, 0, 2, [108]⟩,
  ⟨9436, 0, 2, [109]⟩,
  ⟨9437, 0, 2, [110]⟩,
  ⟨9438, 0, 2, [111]⟩,
  ⟨9439, 0, 2, [112]⟩,
  ⟨9440, 0, 2, [113]⟩,
  ⟨9441, 0, 2, [114]⟩,
  ⟨9442, 0, 2, [115]⟩,
  ⟨9443, 0, 2, [116]⟩,
  ⟨9444, 0, 2, [117]⟩,
  ⟨9445, 0, 2, [118]⟩,
  ⟨9446, 0, 2, [119]⟩,
  ⟨9447, 0, 2, [120]⟩,
  ⟨9448, 0, 2, [121]⟩,
  ⟨9449, 0, 2, [122]⟩,
  ⟨9450, 0, 2, [48]⟩]

/-- src/u5e/props/UnicodeData.txt, relevant lines among 8449-8704. -/
def ucd33 : List UcdRow := []

/-- src/u5e/props/UnicodeData.txt, relevant lines among 8705-8960. -/
def ucd34 : List UcdRow := []

/-- src/u5e/props/UnicodeData.txt, relevant lines among 8961-9216. -/
def ucd35 : List UcdRow := []

/-- src/u5e/props/UnicodeData.txt, relevant lines among 9217-9472. -/
def ucd36 : List UcdRow := []

/-- src/u5e/props/UnicodeData.txt, relevant lines among 9473-9728. -/
def ucd37 : List UcdRow := [
  ⟨10764, 0, 1, [8747, 8747, 8747, 8747]⟩]

/-- src/u5e/props/UnicodeData.txt, relevant lines among 9729-9984. -/
def ucd38 : List UcdRow := [
  ⟨10868, 0, 1, [58, 58, 61]⟩,
  ⟨10869, 0, 1, [61, 61]⟩,
  ⟨10870, 0, 1, [61, 61, 61]⟩,
  ⟨10972, 0, 0, [10973, 824]⟩]

/-- src/u5e/props/UnicodeData.txt, relevant lines among 9985-10240. -/
def ucd39 : List UcdRow := [
  ⟨11388, 0, 2, [106]⟩,
  ⟨11389, 0, 2, [86]⟩]

/-- src/u5e/props/UnicodeData.txt, relevant lines among 10241-10496. -/
def ucd40 : List UcdRow := [
  ⟨11503, 230, 0, []⟩,
  ⟨11504, 230, 0, []⟩,
  ⟨11505, 230, 0, []⟩,
  ⟨11631, 0, 2, [11617]⟩,
  ⟨11647, 9, 0, []⟩]

/-- src/u5e/props/UnicodeData.txt, relevant lines among 10497-10752. -/
def ucd41 : List UcdRow := [
  ⟨11744, 230, 0, []⟩,
  ⟨11745, 230, 0, []⟩,
  ⟨11746, 230, 0, []⟩,
  ⟨11747, 230, 0, []⟩,
  ⟨11748, 230, 0, []⟩,
  ⟨11749, 230, 0, []⟩,
  ⟨11750, 230, 0, []⟩,
  ⟨11751, 230, 0, []⟩,
  ⟨11752, 230, 0, []⟩,
  ⟨11753, 230, 0, []⟩,
  ⟨11754, 230, 0, []⟩,
  ⟨11755, 230, 0, []⟩,
  ⟨11756, 230, 0, []⟩,
  ⟨11757, 230, 0, []⟩,
  ⟨11758, 230, 0, []⟩,
  ⟨11759, 230, 0, []⟩,
  ⟨11760, 230, 0, []⟩,
  ⟨11761, 230, 0, []⟩,
  ⟨11762, 230, 0, []⟩,
  ⟨11763, 230, 0, []⟩,
  ⟨11764, 230, 0, []⟩,
  ⟨11765, 230, 0, []⟩,
  ⟨11766, 230, 0, []⟩,
  ⟨11767, 230, 0, []⟩,
  ⟨11768, 230, 0, []⟩,
  ⟨11769, 230, 0, []⟩,
  ⟨11770, 230, 0, []⟩,
  ⟨11771, 230, 0, []⟩,
  ⟨11772, 230, 0, []⟩,
  ⟨11773, 230, 0, []⟩,
  ⟨11774, 230, 0, []⟩,
  ⟨11775, 230, 0, []⟩,
  ⟨11935, 0, 1, [27597]⟩,
  ⟨12019, 0, 1, [40863]⟩,
  ⟨12032, 0, 1, [19968]⟩,
  ⟨12033, 0, 1, [20008]⟩,
  ⟨12034, 0, 1, [20022]⟩,
  ⟨12035, 0, 1, [20031]⟩,
  ⟨12036, 0, 1, [20057]⟩,
  ⟨12037, 0, 1, [20101]⟩,
  ⟨12038, 0, 1, [20108]⟩,
  ⟨12039, 0, 1, [20128]⟩,
  ⟨12040, 0, 1, [20154]⟩,
  ⟨12041, 0, 1, [20799]⟩,
  ⟨12042, 0, 1, [20837]⟩,
  ⟨12043, 0, 1, [20843]⟩,
  ⟨12044, 0, 1, [20866]⟩,
  ⟨12045, 0, 1, [20886]⟩,
  ⟨12046, 0, 1, [20907]⟩,
  ⟨12047, 0, 1, [20960]⟩,
  ⟨12048, 0, 1, [20981]⟩,
  ⟨12049, 0, 1, [20992]⟩,
  ⟨12050, 0, 1, [21147]⟩,
  ⟨12051, 0, 1, [21241]⟩]

/-- src/u5e/props/UnicodeData.txt, relevant lines among 10753-11008. -/
def ucd42 : List UcdRow := [
  ⟨12052, 0, 1, [21269]⟩,
  ⟨12053, 0, 1, [21274]⟩,
  ⟨12054, 0, 1, [21304]⟩,
  ⟨12055, 0, 1, [21313]⟩,
  ⟨12056, 0, 1, [21340]⟩,
  ⟨12057, 0, 1, [21353]⟩,
  ⟨12058, 0, 1, [21378]⟩,
  ⟨12059, 0, 1, [21430]⟩,
  ⟨12060, 0, 1, [21448]⟩,
  ⟨12061, 0, 1, [21475]⟩,
  ⟨12062, 0, 1, [22231]⟩,
  ⟨12063, 0, 1, [22303]⟩,
  ⟨12064, 0, 1, [22763]⟩,
  ⟨12065, 0, 1, [22786]⟩,
  ⟨12066, 0, 1, [22794]⟩,
  ⟨12067, 0, 1, [22805]⟩,
  ⟨12068, 0, 1, [22823]⟩,
  ⟨12069, 0, 1, [22899]⟩,
  ⟨12070, 0, 1, [23376]⟩,
  ⟨12071, 0, 1, [23424]⟩,
  ⟨12072, 0, 1, [23544]⟩,
  ⟨12073, 0, 1, [23567]⟩,
  ⟨12074, 0, 1, [23586]⟩,
  ⟨12075, 0, 1, [23608]⟩,
  ⟨12076, 0, 1, [23662]⟩,
  ⟨12077, 0, 1, [23665]⟩,
  ⟨12078, 0, 1, [24027]⟩,
  ⟨12079, 0, 1, [24037]⟩,
  ⟨12080, 0, 1, [24049]⟩,
  ⟨12081, 0, 1, [24062]⟩,
  ⟨12082, 0, 1, [24178]⟩,
  ⟨12083, 0, 1, [24186]⟩,
  ⟨12084, 0, 1, [24191]⟩,
  ⟨12085, 0, 1, [24308]⟩,
  ⟨12086, 0, 1, [24318]⟩,
  ⟨12087, 0, 1, [24331]⟩,
  ⟨12088, 0, 1, [24339]⟩,
  ⟨12089, 0, 1, [24400]⟩,
  ⟨12090, 0, 1, [24417]⟩,
  ⟨12091, 0, 1, [24435]⟩,
  ⟨12092, 0, 1, [24515]⟩,
  ⟨12093, 0, 1, [25096]⟩,
  ⟨12094, 0, 1, [25142]⟩,
  ⟨12095, 0, 1, [25163]⟩,
  ⟨12096, 0, 1, [25903]⟩,
  ⟨12097, 0, 1, [25908]⟩,
  ⟨12098, 0, 1, [25991]⟩,
  ⟨12099, 0, 1, [26007]⟩,
  ⟨12100, 0, 1, [26020]⟩,
  ⟨12101, 0, 1, [26041]⟩,
  ⟨12102, 0, 1, [26080]⟩,
  ⟨12103, 0, 1, [26085]⟩,
  ⟨12104, 0, 1, [26352]⟩,
  ⟨12105, 0, 1, [26376]⟩,
  ⟨12106, 0, 1, [26408]⟩,
  ⟨12107, 0, 1, [27424]⟩,
  ⟨12108, 0, 1, [27490]⟩,
  ⟨12109, 0, 1, [27513]⟩,
  ⟨12110, 0, 1, [27571]⟩,
  ⟨12111, 0, 1, [27595]⟩,
  ⟨12112, 0, 1, [27604]⟩,
  ⟨12113, 0, 1, [27611]⟩,
  ⟨12114, 0, 1, [27663]⟩,
  ⟨12115, 0, 1, [27668]⟩,
  ⟨12116, 0, 1, [27700]⟩,
  ⟨12117, 0, 1, [28779]⟩,
  ⟨12118, 0, 1, [29226]⟩,
  ⟨12119, 0, 1, [29238]⟩,
  ⟨12120, 0, 1, [29243]⟩,
  ⟨12121, 0, 1, [29247]⟩,
  ⟨12122, 0, 1, [29255]⟩,
  ⟨12123, 0, 1, [29273]⟩,
  ⟨12124, 0, 1, [29275]⟩,
  ⟨12125, 0, 1, [29356]⟩,
  ⟨12126, 0, 1, [29572]⟩,
  ⟨12127, 0, 1, [29577]⟩,
  ⟨12128, 0, 1, [29916]⟩,
  ⟨12129, 0, 1, [29926]⟩,
  ⟨12130, 0, 1, [29976]⟩,
  ⟨12131, 0, 1, [29983]⟩,
  ⟨12132, 0, 1, [29992]⟩,
  ⟨12133, 0, 1, [30000]⟩,
  ⟨12134, 0, 1, [30091]⟩,
  ⟨12135, 0, 1, [30098]⟩,
  ⟨12136, 0, 1, [30326]⟩,
  ⟨12137, 0, 1, [30333]⟩,
  ⟨12138, 0, 1, [30382]⟩,
  ⟨12139, 0, 1, [30399]⟩,
  ⟨12140, 0, 1, [30446]⟩,
  ⟨12141, 0, 1, [30683]⟩,
  ⟨12142, 0, 1, [30690]⟩,
  ⟨12143, 0, 1, [30707]⟩,
  ⟨12144, 0, 1, [31034]⟩,
  ⟨12145, 0, 1, [31160]⟩,
  ⟨12146, 0, 1, [31166]⟩,
  ⟨12147, 0, 1, [31348]⟩,
  ⟨12148, 0, 1, [31435]⟩,
  ⟨12149, 0, 1, [31481]⟩,
  ⟨12150, 0, 1, [31859]⟩,
  ⟨12151, 0, 1, [31992]⟩,
  ⟨12152, 0, 1, [32566]⟩,
  ⟨12153, 0, 1, [32593]⟩,
  ⟨12154, 0, 1, [32650]⟩,
  ⟨12155, 0, 1, [32701]⟩,
  ⟨12156, 0, 1, [32769]⟩,
  ⟨12157, 0, 1, [32780]⟩,
  ⟨12158, 0, 1, [32786]⟩,
  ⟨12159, 0, 1, [32819]⟩,
  ⟨12160, 0, 1, [32895]⟩,
  ⟨12161, 0, 1, [32905]⟩,
  ⟨12162, 0, 1, [33251]⟩,
  ⟨12163, 0, 1, [33258]⟩,
  ⟨12164, 0, 1, [33267]⟩,
  ⟨12165, 0, 1, [33276]⟩,
  ⟨12166, 0, 1, [33292]⟩,
  ⟨12167, 0, 1, [33307]⟩,
  ⟨12168, 0, 1, [33311]⟩,
  ⟨12169, 0, 1, [33390]⟩,
  ⟨12170, 0, 1, [33394]⟩,
  ⟨12171, 0, 1, [33400]⟩,
  ⟨12172, 0, 1, [34381]⟩,
  ⟨12173, 0, 1, [34411]⟩,
  ⟨12174, 0, 1, [34880]⟩,
  ⟨12175, 0, 1, [34892]⟩,
  ⟨12176, 0, 1, [34915]⟩,
  ⟨12177, 0, 1, [35198]⟩,
  ⟨12178, 0, 1, [35211]⟩,
  ⟨12179, 0, 1, [35282]⟩,
  ⟨12180, 0, 1, [35328]⟩,
  ⟨12181, 0, 1, [35895]⟩,
  ⟨12182, 0, 1, [35910]⟩,
  ⟨12183, 0, 1, [35925]⟩,
  ⟨12184, 0, 1, [35960]⟩,
  ⟨12185, 0, 1, [35997]⟩,
  ⟨12186, 0, 1, [36196]⟩,
  ⟨12187, 0, 1, [36208]⟩,
  ⟨12188, 0, 1, [36275]⟩,
  ⟨12189, 0, 1, [36523]⟩,
  ⟨12190, 0, 1, [36554]⟩,
  ⟨12191, 0, 1, [36763]⟩,
  ⟨12192, 0, 1, [36784]⟩,
  ⟨12193, 0, 1, [36789]⟩,
  ⟨12194, 0, 1, [37009]⟩,
  ⟨12195, 0, 1, [37193]⟩,
  ⟨12196, 0, 1, [37318]⟩,
  ⟨12197, 0, 1, [37324]⟩,
  ⟨12198, 0, 1, [37329]⟩,
  ⟨12199, 0, 1, [38263]⟩,
  ⟨12200, 0, 1, [38272]⟩,
  ⟨12201, 0, 1, [38428]⟩,
  ⟨12202, 0, 1, [38582]⟩,
  ⟨12203, 0, 1, [38585]⟩,
  ⟨12204, 0, 1, [38632]⟩,
  ⟨12205, 0, 1, [38737]⟩,
  ⟨12206, 0, 1, [38750]⟩,
  ⟨12207, 0, 1, [38754]⟩,
  ⟨12208, 0, 1, [38761]⟩,
  ⟨12209, 0, 1, [38859]⟩,
  ⟨12210, 0, 1, [38893]⟩,
  ⟨12211, 0, 1, [38899]⟩,
  ⟨12212, 0, 1, [38913]⟩,
  ⟨12213, 0, 1, [39080]⟩,
  ⟨12214, 0, 1, [39131]⟩,
  ⟨12215, 0, 1, [39135]⟩,
  ⟨12216, 0, 1, [39318]⟩,
  ⟨12217, 0, 1, [39321]⟩,
  ⟨12218, 0, 1, [39340]⟩,
  ⟨12219, 0, 1, [39592]⟩,
  ⟨12220, 0, 1, [39640]⟩,
  ⟨12221, 0, 1, [39647]⟩,
  ⟨12222, 0, 1, [39717]⟩,
  ⟨12223, 0, 1, [39727]⟩,
  ⟨12224, 0, 1, [39730]⟩,
  ⟨12225, 0, 1, [39740]⟩,
  ⟨12226, 0, 1, [39770]⟩,
  ⟨12227, 0, 1, [40165]⟩,
  ⟨12228, 0, 1, [40565]⟩,
  ⟨12229, 0, 1, [40575]⟩,
  ⟨12230, 0, 1, [40613]⟩,
  ⟨12231, 0, 1, [40635]⟩,
  ⟨12232, 0, 1, [40643]⟩,
  ⟨12233, 0, 1, [40653]⟩,
  ⟨12234, 0, 1, [40657]⟩,
  ⟨12235, 0, 1, [40697]⟩,
  ⟨12236, 0, 1, [40701]⟩,
  ⟨12237, 0, 1, [40718]⟩,
  ⟨12238, 0, 1, [40723]⟩,
  ⟨12239, 0, 1, [40736]⟩,
  ⟨12240, 0, 1, [40763]⟩,
  ⟨12241, 0, 1, [40778]⟩,
  ⟨12242, 0, 1, [40786]⟩,
  ⟨12243, 0, 1, [40845]⟩,
  ⟨12244, 0, 1, [40860]⟩,
  ⟨12245, 0, 1, [40864]⟩,
  ⟨12288, 0, 2, [32]⟩,
  ⟨12330, 218, 0, []⟩,
  ⟨12331, 228, 0, []⟩,
  ⟨12332, 232, 0, []⟩,
  ⟨12333, 222, 0, []⟩,
  ⟨12334, 224, 0, []⟩,
  ⟨12335, 224, 0, []⟩]

/-- src/u5e/props/UnicodeData.txt, relevant lines among 11009-11264. -/
def ucd43 : List UcdRow := [
  ⟨12342, 0, 1, [12306]⟩,
  ⟨12344, 0, 1, [21313]⟩,
  ⟨12345, 0, 1, [21316]⟩,
  ⟨12346, 0, 1, [21317]⟩,
  ⟨12364, 0, 0, [12363, 12441]⟩,
  ⟨12366, 0, 0, [12365, 12441]⟩,
  ⟨12368, 0, 0, [12367, 12441]⟩,
  ⟨12370, 0, 0, [12369, 12441]⟩,
  ⟨12372, 0, 0, [12371, 12441]⟩,
  ⟨12374, 0, 0, [12373, 12441]⟩,
  ⟨12376, 0, 0, [12375, 12441]⟩,
  ⟨12378, 0, 0, [12377, 12441]⟩,
  ⟨12380, 0, 0, [12379, 12441]⟩,
  ⟨12382, 0, 0, [12381, 12441]⟩,
  ⟨12384, 0, 0, [12383, 12441]⟩,
  ⟨12386, 0, 0, [12385, 12441]⟩,
  ⟨12389, 0, 0, [12388, 12441]⟩,
  ⟨12391, 0, 0, [12390, 12441]⟩,
  ⟨12393, 0, 0, [12392, 12441]⟩,
  ⟨12400, 0, 0, [12399, 12441]⟩,
  ⟨12401, 0, 0, [12399, 12442]⟩,
  ⟨12403, 0, 0, [12402, 12441]⟩,
  ⟨12404, 0, 0, [12402, 12442]⟩,
  ⟨12406, 0, 0, [12405, 12441]⟩,
  ⟨12407, 0, 0, [12405, 12442]⟩,
  ⟨12409, 0, 0, [12408, 12441]⟩,
  ⟨12410, 0, 0, [12408, 12442]⟩,
  ⟨12412, 0, 0, [12411, 12441]⟩,
  ⟨12413, 0, 0, [12411, 12442]⟩,
  ⟨12436, 0, 0, [12358, 12441]⟩,
  ⟨12441, 8, 0, []⟩,
  ⟨12442, 8, 0, []⟩,
  ⟨12443, 0, 1, [32, 12441]⟩,
  ⟨12444, 0, 1, [32, 12442]⟩,
  ⟨12446, 0, 0, [12445, 12441]⟩,
  ⟨12447, 0, 2, [12424, 12426]⟩,
  ⟨12460, 0, 0, [12459, 12441]⟩,
  ⟨12462, 0, 0, [12461, 12441]⟩,
  ⟨12464, 0, 0, [12463, 12441]⟩,
  ⟨12466, 0, 0, [12465, 12441]⟩,
  ⟨12468, 0, 0, [12467, 12441]⟩,
  ⟨12470, 0, 0, [12469, 12441]⟩,
  ⟨12472, 0, 0, [12471, 12441]⟩,
  ⟨12474, 0, 0, [12473, 12441]⟩,
  ⟨12476, 0, 0, [12475, 12441]⟩,
  ⟨12478, 0, 0, [12477, 12441]⟩,
  ⟨12480, 0, 0, [12479, 12441]⟩,
  ⟨12482, 0, 0, [12481, 12441]⟩,
  ⟨12485, 0, 0, [12484, 12441]⟩,
  ⟨12487, 0, 0, [12486, 12441]⟩,
  ⟨12489, 0, 0, [12488, 12441]⟩,
  ⟨12496, 0, 0, [12495, 12441]⟩,
  ⟨12497, 0, 0, [12495, 12442]⟩,
  ⟨12499, 0, 0, [12498, 12441]⟩,
  ⟨12500, 0, 0, [12498, 12442]⟩,
  ⟨12502, 0, 0, [12501, 12441]⟩,
  ⟨12503, 0, 0, [12501, 12442]⟩,
  ⟨12505, 0, 0, [12504, 12441]⟩,
  ⟨12506, 0, 0, [12504, 12442]⟩,
  ⟨12508, 0, 0, [12507, 12441]⟩,
  ⟨12509, 0, 0, [12507, 12442]⟩,
  ⟨12532, 0, 0, [12454, 12441]⟩,
  ⟨12535, 0, 0, [12527, 12441]⟩,
  ⟨12536, 0, 0, [12528, 12441]⟩,
  ⟨12537, 0, 0, [12529, 12441]⟩,
  ⟨12538, 0, 0, [12530, 12441]⟩,
  ⟨12542, 0, 0, [12541, 12441]⟩,
  ⟨12543, 0, 2, [12467, 12488]⟩,
  ⟨12593, 0, 1, [4352]⟩,
  ⟨12594, 0, 1, [4353]⟩,
  ⟨12595, 0, 1, [4522]⟩,
  ⟨12596, 0, 1, [4354]⟩,
  ⟨12597, 0, 1, [4524]⟩,
  ⟨12598, 0, 1, [4525]⟩,
  ⟨12599, 0, 1, [4355]⟩,
  ⟨12600, 0, 1, [4356]⟩,
  ⟨12601, 0, 1, [4357]⟩,
  ⟨12602, 0, 1, [4528]⟩,
  ⟨12603, 0, 1, [4529]⟩,
  ⟨12604, 0, 1, [4530]⟩]

/-- src/u5e/props/UnicodeData.txt, relevant lines among 11265-11520. -/
def ucd44 : List UcdRow := [
  ⟨12605, 0, 1, [4531]⟩,
  ⟨12606, 0, 1, [4532]⟩,
  ⟨12607, 0, 1, [4533]⟩,
  ⟨12608, 0, 1, [4378]⟩,
  ⟨12609, 0, 1, [4358]⟩,
  ⟨12610, 0, 1, [4359]⟩,
  ⟨12611, 0, 1, [4360]⟩,
  ⟨12612, 0, 1, [4385]⟩,
  ⟨12613, 0, 1, [4361]⟩,
  ⟨12614, 0, 1, [4362]⟩,
  ⟨12615, 0, 1, [4363]⟩,
  ⟨12616, 0, 1, [4364]⟩,
  ⟨12617, 0, 1, [4365]⟩,
  ⟨12618, 0, 1, [4366]⟩,
  ⟨12619, 0, 1, [4367]⟩,
  ⟨12620, 0, 1, [4368]⟩,
  ⟨12621, 0, 1, [4369]⟩,
  ⟨12622, 0, 1, [4370]⟩,
  ⟨12623, 0, 1, [4449]⟩,
  ⟨12624, 0, 1, [4450]⟩,
  ⟨12625, 0, 1, [4451]⟩,
  ⟨12626, 0, 1, [4452]⟩,
  ⟨12627, 0, 1, [4453]⟩,
  ⟨12628, 0, 1, [4454]⟩,
  ⟨12629, 0, 1, [4455]⟩,
  ⟨12630, 0, 1, [4456]⟩,
  ⟨12631, 0, 1, [4457]⟩,
  ⟨12632, 0, 1, [4458]⟩,
  ⟨12633, 0, 1, [4459]⟩,
  ⟨12634, 0, 1, [4460]⟩,
  ⟨12635, 0, 1, [4461]⟩,
  ⟨12636, 0, 1, [4462]⟩,
  ⟨12637, 0, 1, [4463]⟩,
  ⟨12638, 0, 1, [4464]⟩,
  ⟨12639, 0, 1, [4465]⟩,
  ⟨12640, 0, 1, [4466]⟩,
  ⟨12641, 0, 1, [4467]⟩,
  ⟨12642, 0, 1, [4468]⟩,
  ⟨12643, 0, 1, [4469]⟩,
  ⟨12644, 0, 1, [4448]⟩,
  ⟨12645, 0, 1, [4372]⟩,
  ⟨12646, 0, 1, [4373]⟩,
  ⟨12647, 0, 1, [4551]⟩,
  ⟨12648, 0, 1, [4552]⟩,
  ⟨12649, 0, 1, [4556]⟩,
  ⟨12650, 0, 1, [4558]⟩,
  ⟨12651, 0, 1, [4563]⟩,
  ⟨12652, 0, 1, [4567]⟩,
  ⟨12653, 0, 1, [4569]⟩,
  ⟨12654, 0, 1, [4380]⟩,
  ⟨12655, 0, 1, [4573]⟩,
  ⟨12656, 0, 1, [4575]⟩,
  ⟨12657, 0, 1, [4381]⟩,
  ⟨12658, 0, 1, [4382]⟩,
  ⟨12659, 0, 1, [4384]⟩,
  ⟨12660, 0, 1, [4386]⟩,
  ⟨12661, 0, 1, [4387]⟩,
  ⟨12662, 0, 1, [4391]⟩,
  ⟨12663, 0, 1, [4393]⟩,
  ⟨12664, 0, 1, [4395]⟩,
  ⟨12665, 0, 1, [4396]⟩,
  ⟨12666, 0, 1, [4397]⟩,
  ⟨12667, 0, 1, [4398]⟩,
  ⟨12668, 0, 1, [4399]⟩,
  ⟨12669, 0, 1, [4402]⟩,
  ⟨12670, 0, 1, [4406]⟩,
  ⟨12671, 0, 1, [4416]⟩,
  ⟨12672, 0, 1, [4423]⟩,
  ⟨12673, 0, 1, [4428]⟩,
  ⟨12674, 0, 1, [4593]⟩,
  ⟨12675, 0, 1, [4594]⟩,
  ⟨12676, 0, 1, [4439]⟩,
  ⟨12677, 0, 1, [4440]⟩,
  ⟨12678, 0, 1, [4441]⟩,
  ⟨12679, 0, 1, [4484]⟩,
  ⟨12680, 0, 1, [4485]⟩,
  ⟨12681, 0, 1, [4488]⟩,
  ⟨12682, 0, 1, [4497]⟩,
  ⟨12683, 0, 1, [4498]⟩,
  ⟨12684, 0, 1, [4500]⟩,
  ⟨12685, 0, 1, [4510]⟩,
  ⟨12686, 0, 1, [4513]⟩,
  ⟨12690, 0, 2, [19968]⟩,
  ⟨12691, 0, 2, [20108]⟩,
  ⟨12692, 0, 2, [19977]⟩,
  ⟨12693, 0, 2, [22235]⟩,
  ⟨12694, 0, 2, [19978]⟩,
  ⟨12695, 0, 2, [20013]⟩,
  ⟨12696, 0, 2, [19979]⟩,
  ⟨12697, 0, 2, [30002]⟩,
  ⟨12698, 0, 2, [20057]⟩,
  ⟨12699, 0, 2, [19993]⟩,
  ⟨12700, 0, 2, [19969]⟩,
  ⟨12701, 0, 2, [22825]⟩,
  ⟨12702, 0, 2, [22320]⟩,
  ⟨12703, 0, 2, [20154]⟩,
  ⟨12800, 0, 1, [40, 4352, 41]⟩,
  ⟨12801, 0, 1, [40, 4354, 41]⟩,
  ⟨12802, 0, 1, [40, 4355, 41]⟩,
  ⟨12803, 0, 1, [40, 4357, 41]⟩,
  ⟨12804, 0, 1, [40, 4358, 41]⟩,
  ⟨12805, 0, 1, [40, 4359, 41]⟩,
  ⟨12806, 0, 1, [40, 4361, 41]⟩,
  ⟨12807, 0, 1, [40, 4363, 41]⟩,
  ⟨12808, 0, 1, [40, 4364, 41]⟩,
  ⟨12809, 0, 1, [40, 4366, 41]⟩,
  ⟨12810, 0, 1, [40, 4367, 41]⟩,
  ⟨12811, 0, 1, [40, 4368, 41]⟩,
  ⟨12812, 0, 1, [40, 4369, 41]⟩,
  ⟨12813, 0, 1, [40, 4370, 41]⟩,
  ⟨12814, 0, 1, [40, 4352, 4449, 41]⟩,
  ⟨12815, 0, 1, [40, 4354, 4449, 41]⟩,
  ⟨12816, 0, 1, [40, 4355, 4449, 41]⟩,
  ⟨12817, 0, 1, [40, 4357, 4449, 41]⟩,
  ⟨12818, 0, 1, [40, 4358, 4449, 41]⟩,
  ⟨12819, 0, 1, [40, 4359, 4449, 41]⟩,
  ⟨12820, 0, 1, [40, 4361, 4449, 41]⟩,
  ⟨12821, 0, 1, [40, 4363, 4449, 41]⟩,
  ⟨12822, 0, 1, [40, 4364, 4449, 41]⟩,
  ⟨12823, 0, 1, [40, 4366, 4449, 41]⟩,
  ⟨12824, 0, 1, [40, 4367, 4449, 41]⟩,
  ⟨12825, 0, 1, [40, 4368, 4449, 41]⟩,
  ⟨12826, 0, 1, [40, 4369, 4449, 41]⟩,
  ⟨12827, 0, 1, [40, 4370, 4449, 41]⟩,
  ⟨12828, 0, 1, [40, 4364, 4462, 41]⟩,
  ⟨12829, 0, 1, [40, 4363, 4457, 4364, 4453, 4523, 41]⟩,
  ⟨12830, 0, 1, [40, 4363, 4457, 4370, 4462, 41]⟩,
  ⟨12832, 0, 1, [40, 19968, 41]⟩,
  ⟨12833, 0, 1, [40, 20108, 41]⟩,
  ⟨12834, 0, 1, [40, 19977, 41]⟩,
  ⟨12835, 0, 1, [40, 22235, 41]⟩,
  ⟨12836, 0, 1, [40, 20116, 41]⟩,
  ⟨12837, 0, 1, [40, 20845, 41]⟩,
  ⟨12838, 0, 1, [40, 19971, 41]⟩,
  ⟨12839, 0, 1, [40, 20843, 41]⟩,
  ⟨12840, 0, 1, [40, 20061, 41]⟩,
  ⟨12841, 0, 1, [40, 21313, 41]⟩,
  ⟨12842, 0, 1, [40, 26376, 41]⟩,
  ⟨12843, 0, 1, [40, 28779, 41]⟩,
  ⟨12844, 0, 1, [40, 27700, 41]⟩,
  ⟨12845, 0, 1, [40, 26408, 41]⟩,
  ⟨12846, 0, 1, [40, 37329, 41]⟩,
  ⟨12847, 0, 1, [40, 22303, 41]⟩,
  ⟨12848, 0, 1, [40, 26085, 41]⟩,
  ⟨12849, 0, 1, [40, 26666, 41]⟩,
  ⟨12850, 0, 1, [40, 26377, 41]⟩,
  ⟨12851, 0, 1, [40, 31038, 41]⟩,
  ⟨12852, 0, 1, [40, 21517, 41]⟩,
  ⟨12853, 0, 1, [40, 29305, 41]⟩,
  ⟨12854, 0, 1, [40, 36001, 41]⟩,
  ⟨12855, 0, 1, [40, 31069, 41]⟩,
  ⟨12856, 0, 1, [40, 21172, 41]⟩,
  ⟨12857, 0, 1, [40, 20195, 41]⟩,
  ⟨12858, 0, 1, [40, 21628, 41]⟩,
  ⟨12859, 0, 1, [40, 23398, 41]⟩,
  ⟨12860, 0, 1, [40, 30435, 41]⟩,
  ⟨12861, 0, 1, [40, 20225, 41]⟩,
  ⟨12862, 0, 1, [40, 36039, 41]⟩,
  ⟨12863, 0, 1, [40, 21332, 41]⟩,
  ⟨12864, 0, 1, [40, 31085, 41]⟩,
  ⟨12865, 0, 1, [40, 20241, 41]⟩,
  ⟨12866, 0, 1, [40, 33258, 41]⟩,
  ⟨12867, 0, 1, [40, 33267, 41]⟩,
  ⟨12868, 0, 2, [21839]⟩,
  ⟨12869, 0, 2, [24188]⟩,
  ⟨12870, 0, 2, [25991]⟩,
  ⟨12871, 0, 2, [31631]⟩]

/-- src/u5e/props/UnicodeData.txt, relevant lines among 11521-11776. -/
def ucd45 : List UcdRow := [
  ⟨12880, 0, 2, [80, 84, 69]⟩,
  ⟨12881, 0, 2, [50, 49]⟩,
  ⟨12882, 0, 2, [50, 50]⟩,
  ⟨12883, 0, 2, [50, 51]⟩,
  ⟨12884, 0, 2, [50, 52]⟩,
  ⟨12885, 0, 2, [50, 53]⟩,
  ⟨12886, 0, 2, [50, 54]⟩,
  ⟨12887, 0, 2, [50, 55]⟩,
  ⟨12888, 0, 2, [50, 56]⟩,
  ⟨12889, 0, 2, [50, 57]⟩,
  ⟨12890, 0, 2, [51, 48]⟩,
  ⟨12891, 0, 2, [51, 49]⟩,
  ⟨12892, 0, 2, [51, 50]⟩,
  ⟨12893, 0, 2, [51, 51]⟩,
  ⟨12894, 0, 2, [51, 52]⟩,
  ⟨12895, 0, 2, [51, 53]⟩,
  ⟨12896, 0, 2, [4352]⟩,
  ⟨12897, 0, 2, [4354]⟩,
  ⟨12898, 0, 2, [4355]⟩,
  ⟨12899, 0, 2, [4357]⟩,
  ⟨12900, 0, 2, [4358]⟩,
  ⟨12901, 0, 2, [4359]⟩,
  ⟨12902, 0, 2, [4361]⟩,
  ⟨12903, 0, 2, [4363]⟩,
  ⟨12904, 0, 2, [4364]⟩,
  ⟨12905, 0, 2, [4366]⟩,
  ⟨12906, 0, 2, [4367]⟩,
  ⟨12907, 0, 2, [4368]⟩,
  ⟨12908, 0, 2, [4369]⟩,
  ⟨12909, 0, 2, [4370]⟩,
  ⟨12910, 0, 2, [4352, 4449]⟩,
  ⟨12911, 0, 2, [4354, 4449]⟩,
  ⟨12912, 0, 2, [4355, 4449]⟩,
  ⟨12913, 0, 2, [4357, 4449]⟩,
  ⟨12914, 0, 2, [4358, 4449]⟩,
  ⟨12915, 0, 2, [4359, 4449]⟩,
  ⟨12916, 0, 2, [4361, 4449]⟩,
  ⟨12917, 0, 2, [4363, 4449]⟩,
  ⟨12918, 0, 2, [4364, 4449]⟩,
  ⟨12919, 0, 2, [4366, 4449]⟩,
  ⟨12920, 0, 2, [4367, 4449]⟩,
  ⟨12921, 0, 2, [4368, 4449]⟩,
  ⟨12922, 0, 2, [4369, 4449]⟩,
  ⟨12923, 0, 2, [4370, 4449]⟩,
  ⟨12924, 0, 2, [4366, 4449, 4535, 4352, 4457]⟩,
  ⟨12925, 0, 2, [4364, 4462, 4363, 4468]⟩,
  ⟨12926, 0, 2, [4363, 4462]⟩,
  ⟨12928, 0, 2, [19968]⟩,
  ⟨12929, 0, 2, [20108]⟩,
  ⟨12930, 0, 2, [19977]⟩,
  ⟨12931, 0, 2, [22235]⟩,
  ⟨12932, 0, 2, [20116]⟩,
  ⟨12933, 0, 2, [20845]⟩,
  ⟨12934, 0, 2, [19971]⟩,
  ⟨12935, 0, 2, [20843]⟩,
  ⟨12936, 0, 2, [20061]⟩,
  ⟨12937, 0, 2, [21313]⟩,
  ⟨12938, 0, 2, [26376]⟩,
  ⟨12939, 0, 2, [28779]⟩,
  ⟨12940, 0, 2, [27700]⟩,
  ⟨12941, 0, 2, [26408]⟩,
  ⟨12942, 0, 2, [37329]⟩,
  ⟨12943, 0, 2, [22303]⟩,
  ⟨12944, 0, 2, [26085]⟩,
  ⟨12945, 0, 2, [26666]⟩,
  ⟨12946, 0, 2, [26377]⟩,
  ⟨12947, 0, 2, [31038]⟩,
  ⟨12948, 0, 2, [21517]⟩,
  ⟨12949, 0, 2, [29305]⟩,
  ⟨12950, 0, 2, [36001]⟩,
  ⟨12951, 0, 2, [31069]⟩,
  ⟨12952, 0, 2, [21172]⟩,
  ⟨12953, 0, 2, [31192]⟩,
  ⟨12954, 0, 2, [30007]⟩,
  ⟨12955, 0, 2, [22899]⟩,
  ⟨12956, 0, 2, [36969]⟩,
  ⟨12957, 0, 2, [20778]⟩,
  ⟨12958, 0, 2, [21360]⟩,
  ⟨12959, 0, 2, [27880]⟩,
  ⟨12960, 0, 2, [38917]⟩,
  ⟨12961, 0, 2, [20241]⟩,
  ⟨12962, 0, 2, [20889]⟩,
  ⟨12963, 0, 2, [27491]⟩,
  ⟨12964, 0, 2, [19978]⟩,
  ⟨12965, 0, 2, [20013]⟩,
  ⟨12966, 0, 2, [19979]⟩,
  ⟨12967, 0, 2, [24038]⟩,
  ⟨12968, 0, 2, [21491]⟩,
  ⟨12969, 0, 2, [21307]⟩,
  ⟨12970, 0, 2, [23447]⟩,
  ⟨12971, 0, 2, [23398]⟩,
  ⟨12972, 0, 2, [30435]⟩,
  ⟨12973, 0, 2, [20225]⟩,
  ⟨12974, 0, 2, [36039]⟩,
  ⟨12975, 0, 2, [21332]⟩,
  ⟨12976, 0, 2, [22812]⟩,
  ⟨12977, 0, 2, [51, 54]⟩,
  ⟨12978, 0, 2, [51, 55]⟩,
  ⟨12979, 0, 2, [51, 56]⟩,
  ⟨12980, 0, 2, [51, 57]⟩,
  ⟨12981, 0, 2, [52, 48]⟩,
  ⟨12982, 0, 2, [52, 49]⟩,
  ⟨12983, 0, 2, [52, 50]⟩,
  ⟨12984, 0, 2, [52, 51]⟩,
  ⟨12985, 0, 2, [52, 52]⟩,
  ⟨12986, 0, 2, [52, 53]⟩,
  ⟨12987, 0, 2, [52, 54]⟩,
  ⟨12988, 0, 2, [52, 55]⟩,
  ⟨12989, 0, 2, [52, 56]⟩,
  ⟨12990, 0, 2, [52, 57]⟩,
  ⟨12991, 0, 2, [53, 48]⟩,
  ⟨12992, 0, 1, [49, 26376]⟩,
  ⟨12993, 0, 1, [50, 26376]⟩,
  ⟨12994, 0, 1, [51, 26376]⟩,
  ⟨12995, 0, 1, [52, 26376]⟩,
  ⟨12996, 0, 1, [53, 26376]⟩,
  ⟨12997, 0, 1, [54, 26376]⟩,
  ⟨12998, 0, 1, [55, 26376]⟩,
  ⟨12999, 0, 1, [56, 26376]⟩,
  ⟨13000, 0, 1, [57, 26376]⟩,
  ⟨13001, 0, 1, [49, 48, 26376]⟩,
  ⟨13002, 0, 1, [49, 49, 26376]⟩,
  ⟨13003, 0, 1, [49, 50, 26376]⟩,
  ⟨13004, 0, 2, [72, 103]⟩,
  ⟨13005, 0, 2, [101, 114, 103]⟩,
  ⟨13006, 0, 2, [101, 86]⟩,
  ⟨13007, 0, 2, [76, 84, 68]⟩,
  ⟨13008, 0, 2, [12450]⟩,
  ⟨13009, 0, 2, [12452]⟩,
  ⟨13010, 0, 2, [12454]⟩,
  ⟨13011, 0, 2, [12456]⟩,
  ⟨13012, 0, 2, [12458]⟩,
  ⟨13013, 0, 2, [12459]⟩,
  ⟨13014, 0, 2, [12461]⟩,
  ⟨13015, 0, 2, [12463]⟩,
  ⟨13016, 0, 2, [12465]⟩,
  ⟨13017, 0, 2, [12467]⟩,
  ⟨13018, 0, 2, [12469]⟩,
  ⟨13019, 0, 2, [12471]⟩,
  ⟨13020, 0, 2, [12473]⟩,
  ⟨13021, 0, 2, [12475]⟩,
  ⟨13022, 0, 2, [12477]⟩,
  ⟨13023, 0, 2, [12479]⟩,
  ⟨13024, 0, 2, [12481]⟩,
  ⟨13025, 0, 2, [12484]⟩,
  ⟨13026, 0, 2, [12486]⟩,
  ⟨13027, 0, 2, [12488]⟩,
  ⟨13028, 0, 2, [12490]⟩,
  ⟨13029, 0, 2, [12491]⟩,
  ⟨13030, 0, 2, [12492]⟩,
  ⟨13031, 0, 2, [12493]⟩,
  ⟨13032, 0, 2, [12494]⟩,
  ⟨13033, 0, 2, [12495]⟩,
  ⟨13034, 0, 2, [12498]⟩,
  ⟨13035, 0, 2, [12501]⟩,
  ⟨13036, 0, 2, [12504]⟩,
  ⟨13037, 0, 2, [12507]⟩,
  ⟨13038, 0, 2, [12510]⟩,
  ⟨13039, 0, 2, [12511]⟩,
  ⟨13040, 0, 2, [12512]⟩,
  ⟨13041, 0, 2, [12513]⟩,
  ⟨13042, 0, 2, [12514]⟩,
  ⟨13043, 0, 2, [12516]⟩,
  ⟨13044, 0, 2, [12518]⟩,
  ⟨13045, 0, 2, [12520]⟩,
  ⟨13046, 0, 2, [12521]⟩,
  ⟨13047, 0, 2, [12522]⟩,
  ⟨13048, 0, 2, [12523]⟩,
  ⟨13049, 0, 2, [12524]⟩,
  ⟨13050, 0, 2, [12525]⟩,
  ⟨13051, 0, 2, [12527]⟩,
  ⟨13052, 0, 2, [12528]⟩,
  ⟨13053, 0, 2, [12529]⟩,
  ⟨13054, 0, 2, [12530]⟩,
  ⟨13056, 0, 2, [12450, 12497, 12540, 12488]⟩,
  ⟨13057, 0, 2, [12450, 12523, 12501, 12449]⟩,
  ⟨13058, 0, 2, [12450, 12531, 12506, 12450]⟩,
  ⟨13059, 0, 2, [12450, 12540, 12523]⟩,
  ⟨13060, 0, 2, [12452, 12491, 12531, 12464]⟩,
  ⟨13061, 0, 2, [12452, 12531, 12481]⟩,
  ⟨13062, 0, 2, [12454, 12457, 12531]⟩,
  ⟨13063, 0, 2, [12456, 12473, 12463, 12540, 12489]⟩,
  ⟨13064, 0, 2, [12456, 12540, 12459, 12540]⟩,
  ⟨13065, 0, 2, [12458, 12531, 12473]⟩,
  ⟨13066, 0, 2, [12458, 12540, 12512]⟩,
  ⟨13067, 0, 2, [12459, 12452, 12522]⟩,
  ⟨13068, 0, 2, [12459, 12521, 12483, 12488]⟩,
  ⟨13069, 0, 2, [12459, 12525, 12522, 12540]⟩,
  ⟨13070, 0, 2, [12460, 12525, 12531]⟩,
  ⟨13071, 0, 2, [12460, 12531, 12510]⟩,
  ⟨13072, 0, 2, [12462, 12460]⟩,
  ⟨13073, 0, 2, [12462, 12491, 12540]⟩,
  ⟨13074, 0, 2, [12461, 12517, 12522, 12540]⟩,
  ⟨13075, 0, 2, [12462, 12523, 12480, 12540]⟩,
  ⟨13076, 0, 2, [12461, 12525]⟩,
  ⟨13077, 0, 2, [12461, 12525, 12464, 12521, 12512]⟩,
  ⟨13078, 0, 2, [12461, 12525, 12513, 12540, 12488, 12523]⟩,
  ⟨13079, 0, 2, [12461, 12525, 12527, 12483, 12488]⟩,
  ⟨13080, 0, 2, [12464, 12521, 12512]⟩,
  ⟨13081, 0, 2, [12464, 12521, 12512, 12488, 12531]⟩,
  ⟨13082, 0, 2, [12463, 12523, 12476, 12452, 12525]⟩,
  ⟨13083, 0, 2, [12463, 12525, 12540, 12493]⟩,
  ⟨13084, 0, 2, [12465, 12540, 12473]⟩,
  ⟨13085, 0, 2, [12467, 12523, 12490]⟩,
  ⟨13086, 0, 2, [12467, 12540, 12509]⟩,
  ⟨13087, 0, 2, [12469, 12452, 12463, 12523]⟩,
  ⟨13088, 0, 2, [12469, 12531, 12481, 12540, 12512]⟩,
  ⟨13089, 0, 2, [12471, 12522, 12531, 12464]⟩,
  ⟨13090, 0, 2, [12475, 12531, 12481]⟩,
  ⟨13091, 0, 2, [12475, 12531, 12488]⟩,
  ⟨13092, 0, 2, [12480, 12540, 12473]⟩,
  ⟨13093, 0, 2, [12487, 12471]⟩,
  ⟨13094, 0, 2, [12489, 12523]⟩,
  ⟨13095, 0, 2, [12488, 12531]⟩,
  ⟨13096, 0, 2, [12490, 12494]⟩,
  ⟨13097, 0, 2, [12494, 12483, 12488]⟩,
  ⟨13098, 0, 2, [12495, 12452, 12484]⟩,
  ⟨13099, 0, 2, [12497, 12540, 12475, 12531, 12488]⟩,
  ⟨13100, 0, 2, [12497, 12540, 12484]⟩,
  ⟨13101, 0, 2, [12496, 12540, 12524, 12523]⟩,
  ⟨13102, 0, 2, [12500, 12450, 12473, 12488, 12523]⟩,
  ⟨13103, 0, 2, [12500, 12463, 12523]⟩,
  ⟨13104, 0, 2, [12500, 12467]⟩,
  ⟨13105, 0, 2, [12499, 12523]⟩,
  ⟨13106, 0, 2, [12501, 12449, 12521, 12483, 12489]⟩,
  ⟨13107, 0, 2, [12501, 12451, 12540, 12488]⟩,
  ⟨13108, 0, 2, [12502, 12483, 12471, 12455, 12523]⟩,
  ⟨13109, 0, 2, [12501, 12521, 12531]⟩,
  ⟨13110, 0, 2, [12504, 12463, 12479, 12540, 12523]⟩,
  ⟨13111, 0, 2, [12506, 12477]⟩,
  ⟨13112, 0, 2, [12506, 12491, 12498]⟩,
  ⟨13113, 0, 2, [12504, 12523, 12484]⟩,
  ⟨13114, 0, 2, [12506, 12531, 12473]⟩,
  ⟨13115, 0, 2, [12506, 12540, 12472]⟩,
  ⟨13116, 0, 2, [12505, 12540, 12479]⟩,
  ⟨13117, 0, 2, [12509, 12452, 12531, 12488]⟩,
  ⟨13118, 0, 2, [12508, 12523, 12488]⟩,
  ⟨13119, 0, 2, [12507, 12531]⟩,
  ⟨13120, 0, 2, [12509, 12531, 12489]⟩,
  ⟨13121, 0, 2, [12507, 12540, 12523]⟩,
  ⟨13122, 0, 2, [12507, 12540, 12531]⟩,
  ⟨13123, 0, 2, [12510, 12452, 12463, 12525]⟩,
  ⟨13124, 0, 2, [12510, 12452, 12523]⟩,
  ⟨13125, 0, 2, [12510, 12483, 12495]⟩,
  ⟨13126, 0, 2, [12510, 12523, 12463]⟩,
  ⟨13127, 0, 2, [12510, 12531, 12471, 12519, 12531]⟩,
  ⟨13128, 0, 2, [12511, 12463, 12525, 12531]⟩,
  ⟨13129, 0, 2, [12511, 12522]⟩,
  ⟨13130, 0, 2, [12511, 12522, 12496, 12540, 12523]⟩,
  ⟨13131, 0, 2, [12513, 12460]⟩,
  ⟨13132, 0, 2, [12513, 12460, 12488, 12531]⟩,
  ⟨13133, 0, 2, [12513, 12540, 12488, 12523]⟩,
  ⟨13134, 0, 2, [12516, 12540, 12489]⟩,
  ⟨13135, 0, 2, [12516, 12540, 12523]⟩,
  ⟨13136, 0, 2, [12518, 12450, 12531]⟩]

/-- src/u5e/props/UnicodeData.txt, relevant lines among 11777-12032. -/
def ucd46 : List UcdRow := [
  ⟨13137, 0, 2, [12522, 12483, 12488, 12523]⟩,
  ⟨13138, 0, 2, [12522, 12521]⟩,
  ⟨13139, 0, 2, [12523, 12500, 12540]⟩,
  ⟨13140, 0, 2, [12523, 12540, 12502, 12523]⟩,
  ⟨13141, 0, 2, [12524, 12512]⟩,
  ⟨13142, 0, 2, [12524, 12531, 12488, 12466, 12531]⟩,
  ⟨13143, 0, 2, [12527, 12483, 12488]⟩,
  ⟨13144, 0, 1, [48, 28857]⟩,
  ⟨13145, 0, 1, [49, 28857]⟩,
  ⟨13146, 0, 1, [50, 28857]⟩,
  ⟨13147, 0, 1, [51, 28857]⟩,
  ⟨13148, 0, 1, [52, 28857]⟩,
  ⟨13149, 0, 1, [53, 28857]⟩,
  ⟨13150, 0, 1, [54, 28857]⟩,
  ⟨13151, 0, 1, [55, 28857]⟩,
  ⟨13152, 0, 1, [56, 28857]⟩,
  ⟨13153, 0, 1, [57, 28857]⟩,
  ⟨13154, 0, 1, [49, 48, 28857]⟩,
  ⟨13155, 0, 1, [49, 49, 28857]⟩,
  ⟨13156, 0, 1, [49, 50, 28857]⟩,
  ⟨13157, 0, 1, [49, 51, 28857]⟩,
  ⟨13158, 0, 1, [49, 52, 28857]⟩,
  ⟨13159, 0, 1, [49, 53, 28857]⟩,
  ⟨13160, 0, 1, [49, 54, 28857]⟩,
  ⟨13161, 0, 1, [49, 55, 28857]⟩,
  ⟨13162, 0, 1, [49, 56, 28857]⟩,
  ⟨13163, 0, 1, [49, 57, 28857]⟩,
  ⟨13164, 0, 1, [50, 48, 28857]⟩,
  ⟨13165, 0, 1, [50, 49, 28857]⟩,
  ⟨13166, 0, 1, [50, 50, 28857]⟩,
  ⟨13167, 0, 1, [50, 51, 28857]⟩,
  ⟨13168, 0, 1, [50, 52, 28857]⟩,
  ⟨13169, 0, 2, [104, 80, 97]⟩,
  ⟨13170, 0, 2, [100, 97]⟩,
  ⟨13171, 0, 2, [65, 85]⟩,
  ⟨13172, 0, 2, [98, 97, 114]⟩,
  ⟨13173, 0, 2, [111, 86]⟩,
  ⟨13174, 0, 2, [112, 99]⟩,
  ⟨13175, 0, 2, [100, 109]⟩,
  ⟨13176, 0, 2, [100, 109, 178]⟩,
  ⟨13177, 0, 2, [100, 109, 179]⟩,
  ⟨13178, 0, 2, [73, 85]⟩,
  ⟨13179, 0, 2, [24179, 25104]⟩,
  ⟨13180, 0, 2, [26157, 21644]⟩,
  ⟨13181, 0, 2, [22823, 27491]⟩,
  ⟨13182, 0, 2, [26126, 27835]⟩,
  ⟨13183, 0, 2, [26666, 24335, 20250, 31038]⟩,
  ⟨13184, 0, 2, [112, 65]⟩,
  ⟨13185, 0, 2, [110, 65]⟩,
  ⟨13186, 0, 2, [956, 65]⟩,
  ⟨13187, 0, 2, [109, 65]⟩,
  ⟨13188, 0, 2, [107, 65]⟩,
  ⟨13189, 0, 2, [75, 66]⟩,
  ⟨13190, 0, 2, [77, 66]⟩,
  ⟨13191, 0, 2, [71, 66]⟩,
  ⟨13192, 0, 2, [99, 97, 108]⟩,
  ⟨13193, 0, 2, [107, 99, 97, 108]⟩,
  ⟨13194, 0, 2, [112, 70]⟩,
  ⟨13195, 0, 2, [110, 70]⟩,
  ⟨13196, 0, 2, [956, 70]⟩,
  ⟨13197, 0, 2, [956, 103]⟩,
  ⟨13198, 0, 2, [109, 103]⟩,
  ⟨13199, 0, 2, [107, 103]⟩,
  ⟨13200, 0, 2, [72, 122]⟩,
  ⟨13201, 0, 2, [107, 72, 122]⟩,
  ⟨13202, 0, 2, [77, 72, 122]⟩,
  ⟨13203, 0, 2, [71, 72, 122]⟩,
  ⟨13204, 0, 2, [84, 72, 122]⟩,
  ⟨13205, 0, 2, [956, 8467]⟩,
  ⟨13206, 0, 2, [109, 8467]⟩,
  ⟨13207, 0, 2, [100, 8467]⟩,
  ⟨13208, 0, 2, [107, 8467]⟩,
  ⟨13209, 0, 2, [102, 109]⟩,
  ⟨13210, 0, 2, [110, 109]⟩,
  ⟨13211, 0, 2, [956, 109]⟩,
  ⟨13212, 0, 2, [109, 109]⟩,
  ⟨13213, 0, 2, [99, 109]⟩,
  ⟨13214, 0, 2, [107, 109]⟩,
  ⟨13215, 0, 2, [109, 109, 178]⟩,
  ⟨13216, 0, 2, [99, 109, 178]⟩,
  ⟨13217, 0, 2, [109, 178]⟩,
  ⟨13218, 0, 2, [107, 109, 178]⟩,
  ⟨13219, 0, 2, [109, 109, 179]⟩,
  ⟨13220, 0, 2, [99, 109, 179]⟩,
  ⟨13221, 0, 2, [109, 179]⟩,
  ⟨13222, 0, 2, [107, 109, 179]⟩,
  ⟨13223, 0, 2, [109, 8725, 115]⟩,
  ⟨13224, 0, 2, [109, 8725, 115, 178]⟩,
  ⟨13225, 0, 2, [80, 97]⟩,
  ⟨13226, 0, 2, [107, 80, 97]⟩,
  ⟨13227, 0, 2, [77, 80, 97]⟩,
  ⟨13228, 0, 2, [71, 80, 97]⟩,
  ⟨13229, 0, 2, [114, 97, 100]⟩,
  ⟨13230, 0, 2, [114, 97, 100, 8725, 115]⟩,
  ⟨13231, 0, 2, [114, 97, 100, 8725, 115, 178]⟩,
  ⟨13232, 0, 2, [112, 115]⟩,
  ⟨13233, 0, 2, [110, 115]⟩,
  ⟨13234, 0, 2, [956, 115]⟩,
  ⟨13235, 0, 2, [109, 115]⟩,
  ⟨13236, 0, 2, [112, 86]⟩,
  ⟨13237, 0, 2, [110, 86]⟩,
  ⟨13238, 0, 2, [956, 86]⟩,
  ⟨13239, 0, 2, [109, 86]⟩,
  ⟨13240, 0, 2, [107, 86]⟩,
  ⟨13241, 0, 2, [77, 86]⟩,
  ⟨13242, 0, 2, [112, 87]⟩,
  ⟨13243, 0, 2, [110, 87]⟩,
  ⟨13244, 0, 2, [956, 87]⟩,
  ⟨13245, 0, 2, [109, 87]⟩,
  ⟨13246, 0, 2, [107, 87]⟩,
  ⟨13247, 0, 2, [77, 87]⟩,
  ⟨13248, 0, 2, [107, 937]⟩,
  ⟨13249, 0, 2, [77, 937]⟩,
  ⟨13250, 0, 2, [97, 46, 109, 46]⟩,
  ⟨13251, 0, 2, [66, 113]⟩,
  ⟨13252, 0, 2, [99, 99]⟩,
  ⟨13253, 0, 2, [99, 100]⟩,
  ⟨13254, 0, 2, [67, 8725, 107, 103]⟩,
  ⟨13255, 0, 2, [67, 111, 46]⟩,
  ⟨13256, 0, 2, [100, 66]⟩,
  ⟨13257, 0, 2, [71, 121]⟩,
  ⟨13258, 0, 2, [104, 97]⟩,
  ⟨13259, 0, 2, [72, 80]⟩,
  ⟨13260, 0, 2, [105, 110]⟩,
  ⟨13261, 0, 2, [75, 75]⟩,
  ⟨13262, 0, 2, [75, 77]⟩,
  ⟨13263, 0, 2, [107, 116]⟩,
  ⟨13264, 0, 2, [108, 109]⟩,
  ⟨13265, 0, 2, [108, 110]⟩,
  ⟨13266, 0, 2, [108, 111, 103]⟩,
  ⟨13267, 0, 2, [108, 120]⟩,
  ⟨13268, 0, 2, [109, 98]⟩,
  ⟨13269, 0, 2, [109, 105, 108]⟩,
  ⟨13270, 0, 2, [109, 111, 108]⟩,
  ⟨13271, 0, 2, [80, 72]⟩,
  ⟨13272, 0, 2, [112, 46, 109, 46]⟩,
  ⟨13273, 0, 2, [80, 80, 77]⟩,
  ⟨13274, 0, 2, [80, 82]⟩,
  ⟨13275, 0, 2, [115, 114]⟩,
  ⟨13276, 0, 2, [83, 118]⟩,
  ⟨13277, 0, 2, [87, 98]⟩,
  ⟨13278, 0, 2, [86, 8725, 109]⟩,
  ⟨13279, 0, 2, [65, 8725, 109]⟩,
  ⟨13280, 0, 1, [49, 26085]⟩,
  ⟨13281, 0, 1, [50, 26085]⟩,
  ⟨13282, 0, 1, [51, 26085]⟩,
  ⟨13283, 0, 1, [52, 26085]⟩,
  ⟨13284, 0, 1, [53, 26085]⟩,
  ⟨13285, 0, 1, [54, 26085]⟩,
  ⟨13286, 0, 1, [55, 26085]⟩,
  ⟨13287, 0, 1, [56, 26085]⟩,
  ⟨13288, 0, 1, [57, 26085]⟩,
  ⟨13289, 0, 1, [49, 48, 26085]⟩,
  ⟨13290, 0, 1, [49, 49, 26085]⟩,
  ⟨13291, 0, 1, [49, 50, 26085]⟩,
  ⟨13292, 0, 1, [49, 51, 26085]⟩,
  ⟨13293, 0, 1, [49, 52, 26085]⟩,
  ⟨13294, 0, 1, [49, 53, 26085]⟩,
  ⟨13295, 0, 1, [49, 54, 26085]⟩,
  ⟨13296, 0, 1, [49, 55, 26085]⟩,
  ⟨13297, 0, 1, [49, 56, 26085]⟩,
  ⟨13298, 0, 1, [49, 57, 26085]⟩,
  ⟨13299, 0, 1, [50, 48, 26085]⟩,
  ⟨13300, 0, 1, [50, 49, 26085]⟩,
  ⟨13301, 0, 1, [50, 50, 26085]⟩,
  ⟨13302, 0, 1, [50, 51, 26085]⟩,
  ⟨13303, 0, 1, [50, 52, 26085]⟩,
  ⟨13304, 0, 1, [50, 53, 26085]⟩,
  ⟨13305, 0, 1, [50, 54, 26085]⟩,
  ⟨13306, 0, 1, [50, 55, 26085]⟩,
  ⟨13307, 0, 1, [50, 56, 26085]⟩,
  ⟨13308, 0, 1, [50, 57, 26085]⟩,
  ⟨13309, 0, 1, [51, 48, 26085]⟩,
  ⟨13310, 0, 1, [51, 49, 26085]⟩,
  ⟨13311, 0, 2, [103, 97, 108]⟩]

/-- src/u5e/props/UnicodeData.txt, relevant lines among 12033-12288. -/
def ucd47 : List UcdRow := []

/-- src/u5e/props/UnicodeData.txt, relevant lines among 12289-12544. -/
def ucd48 : List UcdRow := []

/-- src/u5e/props/UnicodeData.txt, relevant lines among 12545-12800. -/
def ucd49 : List UcdRow := []

/-- src/u5e/props/UnicodeData.txt, relevant lines among 12801-13056. -/
def ucd50 : List UcdRow := []

/-- src/u5e/props/UnicodeData.txt, relevant lines among 13057-13312. -/
def ucd51 : List UcdRow := []

/-- src/u5e/props/UnicodeData.txt, relevant lines among 13313-13568. -/
def ucd52 : List UcdRow := []

/-- src/u5e/props/UnicodeData.txt, relevant lines among 13569-13824. -/
def ucd53 : List UcdRow := [
  ⟨42607, 230, 0, []⟩,
  ⟨42612, 230, 0, []⟩,
  ⟨42613, 230, 0, []⟩,
  ⟨42614, 230, 0, []⟩,
  ⟨42615, 230, 0, []⟩,
  ⟨42616, 230, 0, []⟩,
  ⟨42617, 230, 0, []⟩,
  ⟨42618, 230, 0, []⟩,
  ⟨42619, 230, 0, []⟩,
  ⟨42620, 230, 0, []⟩,
  ⟨42621, 230, 0, []⟩,
  ⟨42652, 0, 2, [1098]⟩,
  ⟨42653, 0, 2, [1100]⟩,
  ⟨42654, 230, 0, []⟩,
  ⟨42655, 230, 0, []⟩,
  ⟨42736, 230, 0, []⟩,
  ⟨42737, 230, 0, []⟩]

/-- src/u5e/props/UnicodeData.txt, relevant lines among 13825-14080. -/
def ucd54 : List UcdRow := [
  ⟨42864, 0, 2, [42863]⟩,
  ⟨43000, 0, 2, [294]⟩,
  ⟨43001, 0, 2, [339]⟩,
  ⟨43014, 9, 0, []⟩]

/-- src/u5e/props/UnicodeData.txt, relevant lines among 14081-14336. -/
def ucd55 : List UcdRow := [
  ⟨43204, 9, 0, []⟩,
  ⟨43232, 230, 0, []⟩,
  ⟨43233, 230, 0, []⟩,
  ⟨43234, 230, 0, []⟩,
  ⟨43235, 230, 0, []⟩,
  ⟨43236, 230, 0, []⟩,
  ⟨43237, 230, 0, []⟩,
  ⟨43238, 230, 0, []⟩,
  ⟨43239, 230, 0, []⟩,
  ⟨43240, 230, 0, []⟩,
  ⟨43241, 230, 0, []⟩,
  ⟨43242, 230, 0, []⟩,
  ⟨43243, 230, 0, []⟩,
  ⟨43244, 230, 0, []⟩,
  ⟨43245, 230, 0, []⟩,
  ⟨43246, 230, 0, []⟩,
  ⟨43247, 230, 0, []⟩,
  ⟨43248, 230, 0, []⟩,
  ⟨43249, 230, 0, []⟩,
  ⟨43307, 220, 0, []⟩,
  ⟨43308, 220, 0, []⟩,
  ⟨43309, 220, 0, []⟩,
  ⟨43347, 9, 0, []⟩]

/-- src/u5e/props/UnicodeData.txt, relevant lines among 14337-14592. -/
def ucd56 : List UcdRow := [
  ⟨43443, 7, 0, []⟩,
  ⟨43456, 9, 0, []⟩,
  ⟨43696, 230, 0, []⟩,
  ⟨43698, 230, 0, []⟩,
  ⟨43699, 230, 0, []⟩,
  ⟨43700, 220, 0, []⟩,
  ⟨43703, 230, 0, []⟩]

/-- src/u5e/props/UnicodeData.txt, relevant lines among 14593-14848. -/
def ucd57 : List UcdRow := [
  ⟨43704, 230, 0, []⟩,
  ⟨43710, 230, 0, []⟩,
  ⟨43711, 230, 0, []⟩,
  ⟨43713, 230, 0, []⟩,
  ⟨43766, 9, 0, []⟩,
  ⟨43868, 0, 2, [42791]⟩,
  ⟨43869, 0, 2, [43831]⟩,
  ⟨43870, 0, 2, [619]⟩,
  ⟨43871, 0, 2, [43858]⟩,
  ⟨44013, 9, 0, []⟩]

/-- src/u5e/props/UnicodeData.txt, relevant lines among 14849-15104. -/
def ucd58 : List UcdRow := [
  ⟨63744, 0, 0, [35912]⟩,
  ⟨63745, 0, 0, [26356]⟩,
  ⟨63746, 0, 0, [36554]⟩,
  ⟨63747, 0, 0, [36040]⟩,
  ⟨63748, 0, 0, [28369]⟩,
  ⟨63749, 0, 0, [20018]⟩,
  ⟨63750, 0, 0, [21477]⟩,
  ⟨63751, 0, 0, [40860]⟩,
  ⟨63752, 0, 0, [40860]⟩,
  ⟨63753, 0, 0, [22865]⟩,
  ⟨63754, 0, 0, [37329]⟩,
  ⟨63755, 0, 0, [21895]⟩,
  ⟨63756, 0, 0, [22856]⟩,
  ⟨63757, 0, 0, [25078]⟩,
  ⟨63758, 0, 0, [30313]⟩,
  ⟨63759, 0, 0, [32645]⟩,
  ⟨63760, 0, 0, [34367]⟩,
  ⟨63761, 0, 0, [34746]⟩,
  ⟨63762, 0, 0, [35064]⟩,
  ⟨63763, 0, 0, [37007]⟩,
  ⟨63764, 0, 0, [27138]⟩,
  ⟨63765, 0, 0, [27931]⟩,
  ⟨63766, 0, 0, [28889]⟩,
  ⟨63767, 0, 0, [29662]⟩,
  ⟨63768, 0, 0, [33853]⟩,
  ⟨63769, 0, 0, [37226]⟩,
  ⟨63770, 0, 0, [39409]⟩,
  ⟨63771, 0, 0, [20098]⟩,
  ⟨63772, 0, 0, [21365]⟩,
  ⟨63773, 0, 0, [27396]⟩,
  ⟨63774, 0, 0, [29211]⟩,
  ⟨63775, 0, 0, [34349]⟩,
  ⟨63776, 0, 0, [40478]⟩,
  ⟨63777, 0, 0, [23888]⟩,
  ⟨63778, 0, 0, [28651]⟩,
  ⟨63779, 0, 0, [34253]⟩,
  ⟨63780, 0, 0, [35172]⟩,
  ⟨63781, 0, 0, [25289]⟩,
  ⟨63782, 0, 0, [33240]⟩,
  ⟨63783, 0, 0, [34847]⟩,
  ⟨63784, 0, 0, [24266]⟩,
  ⟨63785, 0, 0, [26391]⟩,
  ⟨63786, 0, 0, [28010]⟩,
  ⟨63787, 0, 0, [29436]⟩,
  ⟨63788, 0, 0, [37070]⟩,
  ⟨63789, 0, 0, [20358]⟩,
  ⟨63790, 0, 0, [20919]⟩,
  ⟨63791, 0, 0, [21214]⟩,
  ⟨63792, 0, 0, [25796]⟩,
  ⟨63793, 0, 0, [27347]⟩,
  ⟨63794, 0, 0, [29200]⟩,
  ⟨63795, 0, 0, [30439]⟩,
  ⟨63796, 0, 0, [32769]⟩,
  ⟨63797, 0, 0, [34310]⟩,
  ⟨63798, 0, 0, [34396]⟩,
  ⟨63799, 0, 0, [36335]⟩,
  ⟨63800, 0, 0, [38706]⟩,
  ⟨63801, 0, 0, [39791]⟩,
  ⟨63802, 0, 0, [40442]⟩,
  ⟨63803, 0, 0, [30860]⟩,
  ⟨63804, 0, 0, [31103]⟩,
  ⟨63805, 0, 0, [32160]⟩,
  ⟨63806, 0, 0, [33737]⟩,
  ⟨63807, 0, 0, [37636]⟩,
  ⟨63808, 0, 0, [40575]⟩,
  ⟨63809, 0, 0, [35542]⟩,
  ⟨63810, 0, 0, [22751]⟩,
  ⟨63811, 0, 0, [24324]⟩,
  ⟨63812, 0, 0, [31840]⟩,
  ⟨63813, 0, 0, [32894]⟩,
  ⟨63814, 0, 0, [29282]⟩,
  ⟨63815, 0, 0, [30922]⟩,
  ⟨63816, 0, 0, [36034]⟩,
  ⟨63817, 0, 0, [38647]⟩,
  ⟨63818, 0, 0, [22744]⟩,
  ⟨63819, 0, 0, [23650]⟩,
  ⟨63820, 0, 0, [27155]⟩,
  ⟨63821, 0, 0, [28122]⟩,
  ⟨63822, 0, 0, [28431]⟩,
  ⟨63823, 0, 0, [32047]⟩,
  ⟨63824, 0, 0, [32311]⟩,
  ⟨63825, 0, 0, [38475]⟩,
  ⟨63826, 0, 0, [21202]⟩,
  ⟨63827, 0, 0, [32907]⟩,
  ⟨63828, 0, 0, [20956]⟩,
  ⟨63829, 0, 0, [20940]⟩,
  ⟨63830, 0, 0, [31260]⟩,
  ⟨63831, 0, 0, [32190]⟩,
  ⟨63832, 0, 0, [33777]⟩,
  ⟨63833, 0, 0, [38517]⟩,
  ⟨63834, 0, 0, [35712]⟩,
  ⟨63835, 0, 0, [25295]⟩,
  ⟨63836, 0, 0, [27138]⟩,
  ⟨63837, 0, 0, [35582]⟩,
  ⟨63838, 0, 0, [20025]⟩,
  ⟨63839, 0, 0, [23527]⟩,
  ⟨63840, 0, 0, [24594]⟩,
  ⟨63841, 0, 0, [29575]⟩,
  ⟨63842, 0, 0, [30064]⟩,
  ⟨63843, 0, 0, [21271]⟩,
  ⟨63844, 0, 0, [30971]⟩,
  ⟨63845, 0, 0, [20415]⟩,
  ⟨63846, 0, 0, [24489]⟩,
  ⟨63847, 0, 0, [19981]⟩,
  ⟨63848, 0, 0, [27852]⟩,
  ⟨63849, 0, 0, [25976]⟩,
  ⟨63850, 0, 0, [32034]⟩,
  ⟨63851, 0, 0, [21443]⟩,
  ⟨63852, 0, 0, [22622]⟩,
  ⟨63853, 0, 0, [30465]⟩,
  ⟨63854, 0, 0, [33865]⟩,
  ⟨63855, 0, 0, [35498]⟩,
  ⟨63856, 0, 0, [27578]⟩,
  ⟨63857, 0, 0, [36784]⟩,
  ⟨63858, 0, 0, [27784]⟩,
  ⟨63859, 0, 0, [25342]⟩,
  ⟨63860, 0, 0, [33509]⟩,
  ⟨63861, 0, 0, [25504]⟩,
  ⟨63862, 0, 0, [30053]⟩,
  ⟨63863, 0, 0, [20142]⟩,
  ⟨63864, 0, 0, [20841]⟩,
  ⟨63865, 0, 0, [20937]⟩,
  ⟨63866, 0, 0, [26753]⟩,
  ⟨63867, 0, 0, [31975]⟩,
  ⟨63868, 0, 0, [33391]⟩,
  ⟨63869, 0, 0, [35538]⟩,
  ⟨63870, 0, 0, [37327]⟩,
  ⟨63871, 0, 0, [21237]⟩,
  ⟨63872, 0, 0, [21570]⟩,
  ⟨63873, 0, 0, [22899]⟩,
  ⟨63874, 0, 0, [24300]⟩,
  ⟨63875, 0, 0, [26053]⟩,
  ⟨63876, 0, 0, [28670]⟩,
  ⟨63877, 0, 0, [31018]⟩,
  ⟨63878, 0, 0, [38317]⟩,
  ⟨63879, 0, 0, [39530]⟩,
  ⟨63880, 0, 0, [40599]⟩,
  ⟨63881, 0, 0, [40654]⟩,
  ⟨63882, 0, 0, [21147]⟩,
  ⟨63883, 0, 0, [26310]⟩,
  ⟨63884, 0, 0, [27511]⟩,
  ⟨63885, 0, 0, [36706]⟩,
  ⟨63886, 0, 0, [24180]⟩,
  ⟨63887, 0, 0, [24976]⟩,
  ⟨63888, 0, 0, [25088]⟩,
  ⟨63889, 0, 0, [25754]⟩,
  ⟨63890, 0, 0, [28451]⟩,
  ⟨63891, 0, 0, [29001]⟩,
  ⟨63892, 0, 0, [29833]⟩,
  ⟨63893, 0, 0, [31178]⟩,
  ⟨63894, 0, 0, [32244]⟩,
  ⟨63895, 0, 0, [32879]⟩,
  ⟨63896, 0, 0, [36646]⟩,
  ⟨63897, 0, 0, [34030]⟩,
  ⟨63898, 0, 0, [36899]⟩,
  ⟨63899, 0, 0, [37706]⟩,
  ⟨63900, 0, 0, [21015]⟩,
  ⟨63901, 0, 0, [21155]⟩,
  ⟨63902, 0, 0, [21693]⟩,
  ⟨63903, 0, 0, [28872]⟩,
  ⟨63904, 0, 0, [35010]⟩,
  ⟨63905, 0, 0, [35498]⟩,
  ⟨63906, 0, 0, [24265]⟩,
  ⟨63907, 0, 0, [24565]⟩,
  ⟨63908, 0, 0, [25467]⟩,
  ⟨63909, 0, 0, [27566]⟩,
  ⟨63910, 0, 0, [31806]⟩,
  ⟨63911, 0, 0, [29557]⟩,
  ⟨63912, 0, 0, [20196]⟩]

/-- src/u5e/props/UnicodeData.txt, relevant lines among 15105-15360. -/
def ucd59 : List UcdRow := [
  ⟨63913, 0, 0, [22265]⟩,
  ⟨63914, 0, 0, [23527]⟩,
  ⟨63915, 0, 0, [23994]⟩,
  ⟨63916, 0, 0, [24604]⟩,
  ⟨63917, 0, 0, [29618]⟩,
  ⟨63918, 0, 0, [29801]⟩,
  ⟨63919, 0, 0, [32666]⟩,
  ⟨63920, 0, 0, [32838]⟩,
  ⟨63921, 0, 0, [37428]⟩,
  ⟨63922, 0, 0, [38646]⟩,
  ⟨63923, 0, 0, [38728]⟩,
  ⟨63924, 0, 0, [38936]⟩,
  ⟨63925, 0, 0, [20363]⟩,
  ⟨63926, 0, 0, [31150]⟩,
  ⟨63927, 0, 0, [37300]⟩,
  ⟨63928, 0, 0, [38584]⟩,
  ⟨63929, 0, 0, [24801]⟩,
  ⟨63930, 0, 0, [20102]⟩,
  ⟨63931, 0, 0, [20698]⟩,
  ⟨63932, 0, 0, [23534]⟩,
  ⟨63933, 0, 0, [23615]⟩,
  ⟨63934, 0, 0, [26009]⟩,
  ⟨63935, 0, 0, [27138]⟩,
  ⟨63936, 0, 0, [29134]⟩,
  ⟨63937, 0, 0, [30274]⟩,
  ⟨63938, 0, 0, [34044]⟩,
  ⟨63939, 0, 0, [36988]⟩,
  ⟨63940, 0, 0, [40845]⟩,
  ⟨63941, 0, 0, [26248]⟩,
  ⟨63942, 0, 0, [38446]⟩,
  ⟨63943, 0, 0, [21129]⟩,
  ⟨63944, 0, 0, [26491]⟩,
  ⟨63945, 0, 0, [26611]⟩,
  ⟨63946, 0, 0, [27969]⟩,
  ⟨63947, 0, 0, [28316]⟩,
  ⟨63948, 0, 0, [29705]⟩,
  ⟨63949, 0, 0, [30041]⟩,
  ⟨63950, 0, 0, [30827]⟩,
  ⟨63951, 0, 0, [32016]⟩,
  ⟨63952, 0, 0, [39006]⟩,
  ⟨63953, 0, 0, [20845]⟩,
  ⟨63954, 0, 0, [25134]⟩,
  ⟨63955, 0, 0, [38520]⟩,
  ⟨63956, 0, 0, [20523]⟩,
  ⟨63957, 0, 0, [23833]⟩,
  ⟨63958, 0, 0, [28138]⟩,
  ⟨63959, 0, 0, [36650]⟩,
  ⟨63960, 0, 0, [24459]⟩,
  ⟨63961, 0, 0, [24900]⟩,
  ⟨63962, 0, 0, [26647]⟩,
  ⟨63963, 0, 0, [29575]⟩,
  ⟨63964, 0, 0, [38534]⟩,
  ⟨63965, 0, 0, [21033]⟩,
  ⟨63966, 0, 0, [21519]⟩,
  ⟨63967, 0, 0, [23653]⟩,
  ⟨63968, 0, 0, [26131]⟩,
  ⟨63969, 0, 0, [26446]⟩,
  ⟨63970, 0, 0, [26792]⟩,
  ⟨63971, 0, 0, [27877]⟩,
  ⟨63972, 0, 0, [29702]⟩,
  ⟨63973, 0, 0, [30178]⟩,
  ⟨63974, 0, 0, [32633]⟩,
  ⟨63975, 0, 0, [35023]⟩,
  ⟨63976, 0, 0, [35041]⟩,
  ⟨63977, 0, 0, [37324]⟩,
  ⟨63978, 0, 0, [38626]⟩,
  ⟨63979, 0, 0, [21311]⟩,
  ⟨63980, 0, 0, [28346]⟩,
  ⟨63981, 0, 0, [21533]⟩,
  ⟨63982, 0, 0, [29136]⟩,
  ⟨63983, 0, 0, [29848]⟩,
  ⟨63984, 0, 0, [34298]⟩,
  ⟨63985, 0, 0, [38563]⟩,
  ⟨63986, 0, 0, [40023]⟩,
  ⟨63987, 0, 0, [40607]⟩,
  ⟨63988, 0, 0, [26519]⟩,
  ⟨63989, 0, 0, [28107]⟩,
  ⟨63990, 0, 0, [33256]⟩,
  ⟨63991, 0, 0, [31435]⟩,
  ⟨63992, 0, 0, [31520]⟩,
  ⟨63993, 0, 0, [31890]⟩,
  ⟨63994, 0, 0, [29376]⟩,
  ⟨63995, 0, 0, [28825]⟩,
  ⟨63996, 0, 0, [35672]⟩,
  ⟨63997, 0, 0, [20160]⟩,
  ⟨63998, 0, 0, [33590]⟩,
  ⟨63999, 0, 0, [21050]⟩,
  ⟨64000, 0, 0, [20999]⟩,
  ⟨64001, 0, 0, [24230]⟩,
  ⟨64002, 0, 0, [25299]⟩,
  ⟨64003, 0, 0, [31958]⟩,
  ⟨64004, 0, 0, [23429]⟩,
  ⟨64005, 0, 0, [27934]⟩,
  ⟨64006, 0, 0, [26292]⟩,
  ⟨64007, 0, 0, [36667]⟩,
  ⟨64008, 0, 0, [34892]⟩,
  ⟨64009, 0, 0, [38477]⟩,
  ⟨64010, 0, 0, [35211]⟩,
  ⟨64011, 0, 0, [24275]⟩,
  ⟨64012, 0, 0, [20800]⟩,
  ⟨64013, 0, 0, [21952]⟩,
  ⟨64016, 0, 0, [22618]⟩,
  ⟨64018, 0, 0, [26228]⟩,
  ⟨64021, 0, 0, [20958]⟩,
  ⟨64022, 0, 0, [29482]⟩,
  ⟨64023, 0, 0, [30410]⟩,
  ⟨64024, 0, 0, [31036]⟩,
  ⟨64025, 0, 0, [31070]⟩,
  ⟨64026, 0, 0, [31077]⟩,
  ⟨64027, 0, 0, [31119]⟩,
  ⟨64028, 0, 0, [38742]⟩,
  ⟨64029, 0, 0, [31934]⟩,
  ⟨64030, 0, 0, [32701]⟩,
  ⟨64032, 0, 0, [34322]⟩,
  ⟨64034, 0, 0, [35576]⟩,
  ⟨64037, 0, 0, [36920]⟩,
  ⟨64038, 0, 0, [37117]⟩,
  ⟨64042, 0, 0, [39151]⟩,
  ⟨64043, 0, 0, [39164]⟩,
  ⟨64044, 0, 0, [39208]⟩,
  ⟨64045, 0, 0, [40372]⟩,
  ⟨64046, 0, 0, [37086]⟩,
  ⟨64047, 0, 0, [38583]⟩,
  ⟨64048, 0, 0, [20398]⟩,
  ⟨64049, 0, 0, [20711]⟩,
  ⟨64050, 0, 0, [20813]⟩,
  ⟨64051, 0, 0, [21193]⟩,
  ⟨64052, 0, 0, [21220]⟩,
  ⟨64053, 0, 0, [21329]⟩,
  ⟨64054, 0, 0, [21917]⟩,
  ⟨64055, 0, 0, [22022]⟩,
  ⟨64056, 0, 0, [22120]⟩,
  ⟨64057, 0, 0, [22592]⟩,
  ⟨64058, 0, 0, [22696]⟩,
  ⟨64059, 0, 0, [23652]⟩,
  ⟨64060, 0, 0, [23662]⟩,
  ⟨64061, 0, 0, [24724]⟩,
  ⟨64062, 0, 0, [24936]⟩,
  ⟨64063, 0, 0, [24974]⟩,
  ⟨64064, 0, 0, [25074]⟩,
  ⟨64065, 0, 0, [25935]⟩,
  ⟨64066, 0, 0, [26082]⟩,
  ⟨64067, 0, 0, [26257]⟩,
  ⟨64068, 0, 0, [26757]⟩,
  ⟨64069, 0, 0, [28023]⟩,
  ⟨64070, 0, 0, [28186]⟩,
  ⟨64071, 0, 0, [28450]⟩,
  ⟨64072, 0, 0, [29038]⟩,
  ⟨64073, 0, 0, [29227]⟩,
  ⟨64074, 0, 0, [29730]⟩,
  ⟨64075, 0, 0, [30865]⟩,
  ⟨64076, 0, 0, [31038]⟩,
  ⟨64077, 0, 0, [31049]⟩,
  ⟨64078, 0, 0, [31048]⟩,
  ⟨64079, 0, 0, [31056]⟩,
  ⟨64080, 0, 0, [31062]⟩,
  ⟨64081, 0, 0, [31069]⟩,
  ⟨64082, 0, 0, [31117]⟩,
  ⟨64083, 0, 0, [31118]⟩,
  ⟨64084, 0, 0, [31296]⟩,
  ⟨64085, 0, 0, [31361]⟩,
  ⟨64086, 0, 0, [31680]⟩,
  ⟨64087, 0, 0, [32244]⟩,
  ⟨64088, 0, 0, [32265]⟩,
  ⟨64089, 0, 0, [32321]⟩,
  ⟨64090, 0, 0, [32626]⟩,
  ⟨64091, 0, 0, [32773]⟩,
  ⟨64092, 0, 0, [33261]⟩,
  ⟨64093, 0, 0, [33401]⟩,
  ⟨64094, 0, 0, [33401]⟩,
  ⟨64095, 0, 0, [33879]⟩,
  ⟨64096, 0, 0, [35088]⟩,
  ⟨64097, 0, 0, [35222]⟩,
  ⟨64098, 0, 0, [35585]⟩,
  ⟨64099, 0, 0, [35641]⟩,
  ⟨64100, 0, 0, [36051]⟩,
  ⟨64101, 0, 0, [36104]⟩,
  ⟨64102, 0, 0, [36790]⟩,
  ⟨64103, 0, 0, [36920]⟩,
  ⟨64104, 0, 0, [38627]⟩,
  ⟨64105, 0, 0, [38911]⟩,
  ⟨64106, 0, 0, [38971]⟩,
  ⟨64107, 0, 0, [24693]⟩,
  ⟨64108, 0, 0, [148206]⟩,
  ⟨64109, 0, 0, [33304]⟩,
  ⟨64112, 0, 0, [20006]⟩,
  ⟨64113, 0, 0, [20917]⟩,
  ⟨64114, 0, 0, [20840]⟩,
  ⟨64115, 0, 0, [20352]⟩,
  ⟨64116, 0, 0, [20805]⟩,
  ⟨64117, 0, 0, [20864]⟩,
  ⟨64118, 0, 0, [21191]⟩,
  ⟨64119, 0, 0, [21242]⟩,
  ⟨64120, 0, 0, [21917]⟩,
  ⟨64121, 0, 0, [21845]⟩,
  ⟨64122, 0, 0, [21913]⟩,
  ⟨64123, 0, 0, [21986]⟩,
  ⟨64124, 0, 0, [22618]⟩,
  ⟨64125, 0, 0, [22707]⟩,
  ⟨64126, 0, 0, [22852]⟩,
  ⟨64127, 0, 0, [22868]⟩,
  ⟨64128, 0, 0, [23138]⟩,
  ⟨64129, 0, 0, [23336]⟩,
  ⟨64130, 0, 0, [24274]⟩,
  ⟨64131, 0, 0, [24281]⟩,
  ⟨64132, 0, 0, [24425]⟩,
  ⟨64133, 0, 0, [24493]⟩,
  ⟨64134, 0, 0, [24792]⟩,
  ⟨64135, 0, 0, [24910]⟩,
  ⟨64136, 0, 0, [24840]⟩,
  ⟨64137, 0, 0, [24974]⟩,
  ⟨64138, 0, 0, [24928]⟩,
  ⟨64139, 0, 0, [25074]⟩,
  ⟨64140, 0, 0, [25140]⟩,
  ⟨64141, 0, 0, [25540]⟩,
  ⟨64142, 0, 0, [25628]⟩,
  ⟨64143, 0, 0, [25682]⟩,
  ⟨64144, 0, 0, [25942]⟩,
  ⟨64145, 0, 0, [26228]⟩,
  ⟨64146, 0, 0, [26391]⟩,
  ⟨64147, 0, 0, [26395]⟩,
  ⟨64148, 0, 0, [26454]⟩,
  ⟨64149, 0, 0, [27513]⟩,
  ⟨64150, 0, 0, [27578]⟩,
  ⟨64151, 0, 0, [27969]⟩,
  ⟨64152, 0, 0, [28379]⟩,
  ⟨64153, 0, 0, [28363]⟩,
  ⟨64154, 0, 0, [28450]⟩,
  ⟨64155, 0, 0, [28702]⟩,
  ⟨64156, 0, 0, [29038]⟩,
  ⟨64157, 0, 0, [30631]⟩,
  ⟨64158, 0, 0, [29237]⟩,
  ⟨64159, 0, 0, [29359]⟩,
  ⟨64160, 0, 0, [29482]⟩,
  ⟨64161, 0, 0, [29809]⟩,
  ⟨64162, 0, 0, [29958]⟩,
  ⟨64163, 0, 0, [30011]⟩,
  ⟨64164, 0, 0, [30237]⟩,
  ⟨64165, 0, 0, [30239]⟩,
  ⟨64166, 0, 0, [30410]⟩,
  ⟨64167, 0, 0, [30427]⟩,
  ⟨64168, 0, 0, [30452]⟩,
  ⟨64169, 0, 0, [30538]⟩,
  ⟨64170, 0, 0, [30528]⟩]

/-- src/u5e/props/UnicodeData.txt, relevant lines among 15361-15616. -/
def ucd60 : List UcdRow := [
  ⟨64171, 0, 0, [30924]⟩,
  ⟨64172, 0, 0, [31409]⟩,
  ⟨64173, 0, 0, [31680]⟩,
  ⟨64174, 0, 0, [31867]⟩,
  ⟨64175, 0, 0, [32091]⟩,
  ⟨64176, 0, 0, [32244]⟩,
  ⟨64177, 0, 0, [32574]⟩,
  ⟨64178, 0, 0, [32773]⟩,
  ⟨64179, 0, 0, [33618]⟩,
  ⟨64180, 0, 0, [33775]⟩,
  ⟨64181, 0, 0, [34681]⟩,
  ⟨64182, 0, 0, [35137]⟩,
  ⟨64183, 0, 0, [35206]⟩,
  ⟨64184, 0, 0, [35222]⟩,
  ⟨64185, 0, 0, [35519]⟩,
  ⟨64186, 0, 0, [35576]⟩,
  ⟨64187, 0, 0, [35531]⟩,
  ⟨64188, 0, 0, [35585]⟩,
  ⟨64189, 0, 0, [35582]⟩,
  ⟨64190, 0, 0, [35565]⟩,
  ⟨64191, 0, 0, [35641]⟩,
  ⟨64192, 0, 0, [35722]⟩,
  ⟨64193, 0, 0, [36104]⟩,
  ⟨64194, 0, 0, [36664]⟩,
  ⟨64195, 0, 0, [36978]⟩,
  ⟨64196, 0, 0, [37273]⟩,
  ⟨64197, 0, 0, [37494]⟩,
  ⟨64198, 0, 0, [38524]⟩,
  ⟨64199, 0, 0, [38627]⟩,
  ⟨64200, 0, 0, [38742]⟩,
  ⟨64201, 0, 0, [38875]⟩,
  ⟨64202, 0, 0, [38911]⟩,
  ⟨64203, 0, 0, [38923]⟩,
  ⟨64204, 0, 0, [38971]⟩,
  ⟨64205, 0, 0, [39698]⟩,
  ⟨64206, 0, 0, [40860]⟩,
  ⟨64207, 0, 0, [141386]⟩,
  ⟨64208, 0, 0, [141380]⟩,
  ⟨64209, 0, 0, [144341]⟩,
  ⟨64210, 0, 0, [15261]⟩,
  ⟨64211, 0, 0, [16408]⟩,
  ⟨64212, 0, 0, [16441]⟩,
  ⟨64213, 0, 0, [152137]⟩,
  ⟨64214, 0, 0, [154832]⟩,
  ⟨64215, 0, 0, [163539]⟩,
  ⟨64216, 0, 0, [40771]⟩,
  ⟨64217, 0, 0, [40846]⟩,
  ⟨64256, 0, 1, [102, 102]⟩,
  ⟨64257, 0, 1, [102, 105]⟩,
  ⟨64258, 0, 1, [102, 108]⟩,
  ⟨64259, 0, 1, [102, 102, 105]⟩,
  ⟨64260, 0, 1, [102, 102, 108]⟩,
  ⟨64261, 0, 1, [383, 116]⟩,
  ⟨64262, 0, 1, [115, 116]⟩,
  ⟨64275, 0, 1, [1396, 1398]⟩,
  ⟨64276, 0, 1, [1396, 1381]⟩,
  ⟨64277, 0, 1, [1396, 1387]⟩,
  ⟨64278, 0, 1, [1406, 1398]⟩,
  ⟨64279, 0, 1, [1396, 1389]⟩,
  ⟨64285, 0, 0, [1497, 1460]⟩,
  ⟨64286, 26, 0, []⟩,
  ⟨64287, 0, 0, [1522, 1463]⟩,
  ⟨64288, 0, 2, [1506]⟩,
  ⟨64289, 0, 2, [1488]⟩,
  ⟨64290, 0, 2, [1491]⟩,
  ⟨64291, 0, 2, [1492]⟩,
  ⟨64292, 0, 2, [1499]⟩,
  ⟨64293, 0, 2, [1500]⟩,
  ⟨64294, 0, 2, [1501]⟩,
  ⟨64295, 0, 2, [1512]⟩,
  ⟨64296, 0, 2, [1514]⟩,
  ⟨64297, 0, 2, [43]⟩,
  ⟨64298, 0, 0, [1513, 1473]⟩,
  ⟨64299, 0, 0, [1513, 1474]⟩,
  ⟨64300, 0, 0, [64329, 1473]⟩,
  ⟨64301, 0, 0, [64329, 1474]⟩,
  ⟨64302, 0, 0, [1488, 1463]⟩,
  ⟨64303, 0, 0, [1488, 1464]⟩,
  ⟨64304, 0, 0, [1488, 1468]⟩,
  ⟨64305, 0, 0, [1489, 1468]⟩,
  ⟨64306, 0, 0, [1490, 1468]⟩,
  ⟨64307, 0, 0, [1491, 1468]⟩,
  ⟨64308, 0, 0, [1492, 1468]⟩,
  ⟨64309, 0, 0, [1493, 1468]⟩,
  ⟨64310, 0, 0, [1494, 1468]⟩,
  ⟨64312, 0, 0, [1496, 1468]⟩,
  ⟨64313, 0, 0, [1497, 1468]⟩,
  ⟨64314, 0, 0, [1498, 1468]⟩,
  ⟨64315, 0, 0, [1499, 1468]⟩,
  ⟨64316, 0, 0, [1500, 1468]⟩,
  ⟨64318, 0, 0, [1502, 1468]⟩,
  ⟨64320, 0, 0, [1504, 1468]⟩,
  ⟨64321, 0, 0, [1505, 1468]⟩,
  ⟨64323, 0, 0, [1507, 1468]⟩,
  ⟨64324, 0, 0, [1508, 1468]⟩,
  ⟨64326, 0, 0, [1510, 1468]⟩,
  ⟨64327, 0, 0, [1511, 1468]⟩,
  ⟨64328, 0, 0, [1512, 1468]⟩,
  ⟨64329, 0, 0, [1513, 1468]⟩,
  ⟨64330, 0, 0, [1514, 1468]⟩,
  ⟨64331, 0, 0, [1493, 1465]⟩,
  ⟨64332, 0, 0, [1489, 1471]⟩,
  ⟨64333, 0, 0, [1499, 1471]⟩,
  ⟨64334, 0, 0, [1508, 1471]⟩,
  ⟨64335, 0, 1, [1488, 1500]⟩,
  ⟨64336, 0, 2, [1649]⟩,
  ⟨64337, 0, 2, [1649]⟩,
  ⟨64338, 0, 2, [1659]⟩,
  ⟨64339, 0, 2, [1659]⟩,
  ⟨64340, 0, 2, [1659]⟩,
  ⟨64341, 0, 2, [1659]⟩,
  ⟨64342, 0, 2, [1662]⟩,
  ⟨64343, 0, 2, [1662]⟩,
  ⟨64344, 0, 2, [1662]⟩,
  ⟨64345, 0, 2, [1662]⟩,
  ⟨64346, 0, 2, [1664]⟩,
  ⟨64347, 0, 2, [1664]⟩,
  ⟨64348, 0, 2, [1664]⟩,
  ⟨64349, 0, 2, [1664]⟩,
  ⟨64350, 0, 2, [1658]⟩,
  ⟨64351, 0, 2, [1658]⟩,
  ⟨64352, 0, 2, [1658]⟩,
  ⟨64353, 0, 2, [1658]⟩,
  ⟨64354, 0, 2, [1663]⟩,
  ⟨64355, 0, 2, [1663]⟩,
  ⟨64356, 0, 2, [1663]⟩,
  ⟨64357, 0, 2, [1663]⟩,
  ⟨64358, 0, 2, [1657]⟩,
  ⟨64359, 0, 2, [1657]⟩,
  ⟨64360, 0, 2, [1657]⟩,
  ⟨64361, 0, 2, [1657]⟩,
  ⟨64362, 0, 2, [1700]⟩,
  ⟨64363, 0, 2, [1700]⟩,
  ⟨64364, 0, 2, [1700]⟩,
  ⟨64365, 0, 2, [1700]⟩,
  ⟨64366, 0, 2, [1702]⟩,
  ⟨64367, 0, 2, [1702]⟩,
  ⟨64368, 0, 2, [1702]⟩,
  ⟨64369, 0, 2, [1702]⟩,
  ⟨64370, 0, 2, [1668]⟩,
  ⟨64371, 0, 2, [1668]⟩,
  ⟨64372, 0, 2, [1668]⟩,
  ⟨64373, 0, 2, [1668]⟩,
  ⟨64374, 0, 2, [1667]⟩,
  ⟨64375, 0, 2, [1667]⟩,
  ⟨64376, 0, 2, [1667]⟩,
  ⟨64377, 0, 2, [1667]⟩,
  ⟨64378, 0, 2, [1670]⟩,
  ⟨64379, 0, 2, [1670]⟩,
  ⟨64380, 0, 2, [1670]⟩,
  ⟨64381, 0, 2, [1670]⟩,
  ⟨64382, 0, 2, [1671]⟩,
  ⟨64383, 0, 2, [1671]⟩,
  ⟨64384, 0, 2, [1671]⟩,
  ⟨64385, 0, 2, [1671]⟩,
  ⟨64386, 0, 2, [1677]⟩,
  ⟨64387, 0, 2, [1677]⟩,
  ⟨64388, 0, 2, [1676]⟩,
  ⟨64389, 0, 2, [1676]⟩,
  ⟨64390, 0, 2, [1678]⟩,
  ⟨64391, 0, 2, [1678]⟩,
  ⟨64392, 0, 2, [1672]⟩,
  ⟨64393, 0, 2, [1672]⟩,
  ⟨64394, 0, 2, [1688]⟩,
  ⟨64395, 0, 2, [1688]⟩,
  ⟨64396, 0, 2, [1681]⟩,
  ⟨64397, 0, 2, [1681]⟩,
  ⟨64398, 0, 2, [1705]⟩,
  ⟨64399, 0, 2, [1705]⟩,
  ⟨64400, 0, 2, [1705]⟩,
  ⟨64401, 0, 2, [1705]⟩,
  ⟨64402, 0, 2, [1711]⟩,
  ⟨64403, 0, 2, [1711]⟩,
  ⟨64404, 0, 2, [1711]⟩,
  ⟨64405, 0, 2, [1711]⟩,
  ⟨64406, 0, 2, [1715]⟩,
  ⟨64407, 0, 2, [1715]⟩,
  ⟨64408, 0, 2, [1715]⟩,
  ⟨64409, 0, 2, [1715]⟩,
  ⟨64410, 0, 2, [1713]⟩,
  ⟨64411, 0, 2, [1713]⟩,
  ⟨64412, 0, 2, [1713]⟩,
  ⟨64413, 0, 2, [1713]⟩,
  ⟨64414, 0, 2, [1722]⟩,
  ⟨64415, 0, 2, [1722]⟩,
  ⟨64416, 0, 2, [1723]⟩,
  ⟨64417, 0, 2, [1723]⟩,
  ⟨64418, 0, 2, [1723]⟩,
  ⟨64419, 0, 2, [1723]⟩,
  ⟨64420, 0, 2, [1728]⟩,
  ⟨64421, 0, 2, [1728]⟩,
  ⟨64422, 0, 2, [1729]⟩,
  ⟨64423, 0, 2, [1729]⟩,
  ⟨64424, 0, 2, [1729]⟩,
  ⟨64425, 0, 2, [1729]⟩,
  ⟨64426, 0, 2, [1726]⟩,
  ⟨64427, 0, 2, [1726]⟩,
  ⟨64428, 0, 2, [1726]⟩,
  ⟨64429, 0, 2, [1726]⟩,
  ⟨64430, 0, 2, [1746]⟩,
  ⟨64431, 0, 2, [1746]⟩,
  ⟨64432, 0, 2, [1747]⟩,
  ⟨64433, 0, 2, [1747]⟩,
  ⟨64467, 0, 2, [1709]⟩,
  ⟨64468, 0, 2, [1709]⟩,
  ⟨64469, 0, 2, [1709]⟩,
  ⟨64470, 0, 2, [1709]⟩,
  ⟨64471, 0, 2, [1735]⟩,
  ⟨64472, 0, 2, [1735]⟩,
  ⟨64473, 0, 2, [1734]⟩,
  ⟨64474, 0, 2, [1734]⟩,
  ⟨64475, 0, 2, [1736]⟩,
  ⟨64476, 0, 2, [1736]⟩,
  ⟨64477, 0, 2, [1655]⟩,
  ⟨64478, 0, 2, [1739]⟩,
  ⟨64479, 0, 2, [1739]⟩,
  ⟨64480, 0, 2, [1733]⟩,
  ⟨64481, 0, 2, [1733]⟩,
  ⟨64482, 0, 2, [1737]⟩,
  ⟨64483, 0, 2, [1737]⟩,
  ⟨64484, 0, 2, [1744]⟩,
  ⟨64485, 0, 2, [1744]⟩,
  ⟨64486, 0, 2, [1744]⟩,
  ⟨64487, 0, 2, [1744]⟩,
  ⟨64488, 0, 2, [1609]⟩,
  ⟨64489, 0, 2, [1609]⟩,
  ⟨64490, 0, 2, [1574, 1575]⟩,
  ⟨64491, 0, 2, [1574, 1575]⟩,
  ⟨64492, 0, 2, [1574, 1749]⟩,
  ⟨64493, 0, 2, [1574, 1749]⟩,
  ⟨64494, 0, 2, [1574, 1608]⟩,
  ⟨64495, 0, 2, [1574, 1608]⟩,
  ⟨64496, 0, 2, [1574, 1735]⟩,
  ⟨64497, 0, 2, [1574, 1735]⟩,
  ⟨64498, 0, 2, [1574, 1734]⟩,
  ⟨64499, 0, 2, [1574, 1734]⟩,
  ⟨64500, 0, 2, [1574, 1736]⟩,
  ⟨64501, 0, 2, [1574, 1736]⟩,
  ⟨64502, 0, 2, [1574, 1744]⟩,
  ⟨64503, 0, 2, [1574, 1744]⟩]

/-- src/u5e/props/UnicodeData.txt, relevant lines among 15617-15872. -/
def ucd61 : List UcdRow := [
  ⟨64504, 0, 2, [1574, 1744]⟩,
  ⟨64505, 0, 2, [1574, 1609]⟩,
  ⟨64506, 0, 2, [1574, 1609]⟩,
  ⟨64507, 0, 2, [1574, 1609]⟩,
  ⟨64508, 0, 2, [1740]⟩,
  ⟨64509, 0, 2, [1740]⟩,
  ⟨64510, 0, 2, [1740]⟩,
  ⟨64511, 0, 2, [1740]⟩,
  ⟨64512, 0, 2, [1574, 1580]⟩,
  ⟨64513, 0, 2, [1574, 1581]⟩,
  ⟨64514, 0, 2, [1574, 1605]⟩,
  ⟨64515, 0, 2, [1574, 1609]⟩,
  ⟨64516, 0, 2, [1574, 1610]⟩,
  ⟨64517, 0, 2, [1576, 1580]⟩,
  ⟨64518, 0, 2, [1576, 1581]⟩,
  ⟨64519, 0, 2, [1576, 1582]⟩,
  ⟨64520, 0, 2, [1576, 1605]⟩,
  ⟨64521, 0, 2, [1576, 1609]⟩,
  ⟨64522, 0, 2, [1576, 1610]⟩,
  ⟨64523, 0, 2, [1578, 1580]⟩,
  ⟨64524, 0, 2, [1578, 1581]⟩,
  ⟨64525, 0, 2, [1578, 1582]⟩,
  ⟨64526, 0, 2, [1578, 1605]⟩,
  ⟨64527, 0, 2, [1578, 1609]⟩,
  ⟨64528, 0, 2, [1578, 1610]⟩,
  ⟨64529, 0, 2, [1579, 1580]⟩,
  ⟨64530, 0, 2, [1579, 1605]⟩,
  ⟨64531, 0, 2, [1579, 1609]⟩,
  ⟨64532, 0, 2, [1579, 1610]⟩,
  ⟨64533, 0, 2, [1580, 1581]⟩,
  ⟨64534, 0, 2, [1580, 1605]⟩,
  ⟨64535, 0, 2, [1581, 1580]⟩,
  ⟨64536, 0, 2, [1581, 1605]⟩,
  ⟨64537, 0, 2, [1582, 1580]⟩,
  ⟨64538, 0, 2, [1582, 1581]⟩,
  ⟨64539, 0, 2, [1582, 1605]⟩,
  ⟨64540, 0, 2, [1587, 1580]⟩,
  ⟨64541, 0, 2, [1587, 1581]⟩,
  ⟨64542, 0, 2, [1587, 1582]⟩,
  ⟨64543, 0, 2, [1587, 1605]⟩,
  ⟨64544, 0, 2, [1589, 1581]⟩,
  ⟨64545, 0, 2, [1589, 1605]⟩,
  ⟨64546, 0, 2, [1590, 1580]⟩,
  ⟨64547, 0, 2, [1590, 1581]⟩,
  ⟨64548, 0, 2, [1590, 1582]⟩,
  ⟨64549, 0, 2, [1590, 1605]⟩,
  ⟨64550, 0, 2, [1591, 1581]⟩,
  ⟨64551, 0, 2, [1591, 1605]⟩,
  ⟨64552, 0, 2, [1592, 1605]⟩,
  ⟨64553, 0, 2, [1593, 1580]⟩,
  ⟨64554, 0, 2, [1593, 1605]⟩,
  ⟨64555, 0, 2, [1594, 1580]⟩,
  ⟨64556, 0, 2, [1594, 1605]⟩,
  ⟨64557, 0, 2, [1601, 1580]⟩,
  ⟨64558, 0, 2, [1601, 1581]⟩,
  ⟨64559, 0, 2, [1601, 1582]⟩,
  ⟨64560, 0, 2, [1601, 1605]⟩,
  ⟨64561, 0, 2, [1601, 1609]⟩,
  ⟨64562, 0, 2, [1601, 1610]⟩,
  ⟨64563, 0, 2, [1602, 1581]⟩,
  ⟨64564, 0, 2, [1602, 1605]⟩,
  ⟨64565, 0, 2, [1602, 1609]⟩,
  ⟨64566, 0, 2, [1602, 1610]⟩,
  ⟨64567, 0, 2, [1603, 1575]⟩,
  ⟨64568, 0, 2, [1603, 1580]⟩,
  ⟨64569, 0, 2, [1603, 1581]⟩,
  ⟨64570, 0, 2, [1603, 1582]⟩,
  ⟨64571, 0, 2, [1603, 1604]⟩,
  ⟨64572, 0, 2, [1603, 1605]⟩,
  ⟨64573, 0, 2, [1603, 1609]⟩,
  ⟨64574, 0, 2, [1603, 1610]⟩,
  ⟨64575, 0, 2, [1604, 1580]⟩,
  ⟨64576, 0, 2, [1604, 1581]⟩,
  ⟨64577, 0, 2, [1604, 1582]⟩,
  ⟨64578, 0, 2, [1604, 1605]⟩,
  ⟨64579, 0, 2, [1604, 1609]⟩,
  ⟨64580, 0, 2, [1604, 1610]⟩,
  ⟨64581, 0, 2, [1605, 1580]⟩,
  ⟨64582, 0, 2, [1605, 1581]⟩,
  ⟨64583, 0, 2, [1605, 1582]⟩,
  ⟨64584, 0, 2, [1605, 1605]⟩,
  ⟨64585, 0, 2, [1605, 1609]⟩,
  ⟨64586, 0, 2, [1605, 1610]⟩,
  ⟨64587, 0, 2, [1606, 1580]⟩,
  ⟨64588, 0, 2, [1606, 1581]⟩,
  ⟨64589, 0, 2, [1606, 1582]⟩,
  ⟨64590, 0, 2, [1606, 1605]⟩,
  ⟨64591, 0, 2, [1606, 1609]⟩,
  ⟨64592, 0, 2, [1606, 1610]⟩,
  ⟨64593, 0, 2, [1607, 1580]⟩,
  ⟨64594, 0, 2, [1607, 1605]⟩,
  ⟨64595, 0, 2, [1607, 1609]⟩,
  ⟨64596, 0, 2, [1607, 1610]⟩,
  ⟨64597, 0, 2, [1610, 1580]⟩,
  ⟨64598, 0, 2, [1610, 1581]⟩,
  ⟨64599, 0, 2, [1610, 1582]⟩,
  ⟨64600, 0, 2, [1610, 1605]⟩,
  ⟨64601, 0, 2, [1610, 1609]⟩,
  ⟨64602, 0, 2, [1610, 1610]⟩,
  ⟨64603, 0, 2, [1584, 1648]⟩,
  ⟨64604, 0, 2, [1585, 1648]⟩,
  ⟨64605, 0, 2, [1609, 1648]⟩,
  ⟨64606, 0, 2, [32, 1612, 1617]⟩,
  ⟨64607, 0, 2, [32, 1613, 1617]⟩,
  ⟨64608, 0, 2, [32, 1614, 1617]⟩,
  ⟨64609, 0, 2, [32, 1615, 1617]⟩,
  ⟨64610, 0, 2, [32, 1616, 1617]⟩,
  ⟨64611, 0, 2, [32, 1617, 1648]⟩,
  ⟨64612, 0, 2, [1574, 1585]⟩,
  ⟨64613, 0, 2, [1574, 1586]⟩,
  ⟨64614, 0, 2, [1574, 1605]⟩,
  ⟨64615, 0, 2, [1574, 1606]⟩,
  ⟨64616, 0, 2, [1574, 1609]⟩,
  ⟨64617, 0, 2, [1574, 1610]⟩,
  ⟨64618, 0, 2, [1576, 1585]⟩,
  ⟨64619, 0, 2, [1576, 1586]⟩,
  ⟨64620, 0, 2, [1576, 1605]⟩,
  ⟨64621, 0, 2, [1576, 1606]⟩,
  ⟨64622, 0, 2, [1576, 1609]⟩,
  ⟨64623, 0, 2, [1576, 1610]⟩,
  ⟨64624, 0, 2, [1578, 1585]⟩,
  ⟨64625, 0, 2, [1578, 1586]⟩,
  ⟨64626, 0, 2, [1578, 1605]⟩,
  ⟨64627, 0, 2, [1578, 1606]⟩,
  ⟨64628, 0, 2, [1578, 1609]⟩,
  ⟨64629, 0, 2, [1578, 1610]⟩,
  ⟨64630, 0, 2, [1579, 1585]⟩,
  ⟨64631, 0, 2, [1579, 1586]⟩,
  ⟨64632, 0, 2, [1579, 1605]⟩,
  ⟨64633, 0, 2, [1579, 1606]⟩,
  ⟨64634, 0, 2, [1579, 1609]⟩,
  ⟨64635, 0, 2, [1579, 1610]⟩,
  ⟨64636, 0, 2, [1601, 1609]⟩,
  ⟨64637, 0, 2, [1601, 1610]⟩,
  ⟨64638, 0, 2, [1602, 1609]⟩,
  ⟨64639, 0, 2, [1602, 1610]⟩,
  ⟨64640, 0, 2, [1603, 1575]⟩,
  ⟨64641, 0, 2, [1603, 1604]⟩,
  ⟨64642, 0, 2, [1603, 1605]⟩,
  ⟨64643, 0, 2, [1603, 1609]⟩,
  ⟨64644, 0, 2, [1603, 1610]⟩,
  ⟨64645, 0, 2, [1604, 1605]⟩,
  ⟨64646, 0, 2, [1604, 1609]⟩,
  ⟨64647, 0, 2, [1604, 1610]⟩,
  ⟨64648, 0, 2, [1605, 1575]⟩,
  ⟨64649, 0, 2, [1605, 1605]⟩,
  ⟨64650, 0, 2, [1606, 1585]⟩,
  ⟨64651, 0, 2, [1606, 1586]⟩,
  ⟨64652, 0, 2, [1606, 1605]⟩,
  ⟨64653, 0, 2, [1606, 1606]⟩,
  ⟨64654, 0, 2, [1606, 1609]⟩,
  ⟨64655, 0, 2, [1606, 1610]⟩,
  ⟨64656, 0, 2, [1609, 1648]⟩,
  ⟨64657, 0, 2, [1610, 1585]⟩,
  ⟨64658, 0, 2, [1610, 1586]⟩,
  ⟨64659, 0, 2, [1610, 1605]⟩,
  ⟨64660, 0, 2, [1610, 1606]⟩,
  ⟨64661, 0, 2, [1610, 1609]⟩,
  ⟨64662, 0, 2, [1610, 1610]⟩,
  ⟨64663, 0, 2, [1574, 1580]⟩,
  ⟨64664, 0, 2, [1574, 1581]⟩,
  ⟨64665, 0, 2, [1574, 1582]⟩,
  ⟨64666, 0, 2, [1574, 1605]⟩,
  ⟨64667, 0, 2, [1574, 1607]⟩,
  ⟨64668, 0, 2, [1576, 1580]⟩,
  ⟨64669, 0, 2, [1576, 1581]⟩,
  ⟨64670, 0, 2, [1576, 1582]⟩,
  ⟨64671, 0, 2, [1576, 1605]⟩,
  ⟨64672, 0, 2, [1576, 1607]⟩,
  ⟨64673, 0, 2, [1578, 1580]⟩,
  ⟨64674, 0, 2, [1578, 1581]⟩,
  ⟨64675, 0, 2, [1578, 1582]⟩,
  ⟨64676, 0, 2, [1578, 1605]⟩,
  ⟨64677, 0, 2, [1578, 1607]⟩,
  ⟨64678, 0, 2, [1579, 1605]⟩,
  ⟨64679, 0, 2, [1580, 1581]⟩,
  ⟨64680, 0, 2, [1580, 1605]⟩,
  ⟨64681, 0, 2, [1581, 1580]⟩,
  ⟨64682, 0, 2, [1581, 1605]⟩,
  ⟨64683, 0, 2, [1582, 1580]⟩,
  ⟨64684, 0, 2, [1582, 1605]⟩,
  ⟨64685, 0, 2, [1587, 1580]⟩,
  ⟨64686, 0, 2, [1587, 1581]⟩,
  ⟨64687, 0, 2, [1587, 1582]⟩,
  ⟨64688, 0, 2, [1587, 1605]⟩,
  ⟨64689, 0, 2, [1589, 1581]⟩,
  ⟨64690, 0, 2, [1589, 1582]⟩,
  ⟨64691, 0, 2, [1589, 1605]⟩,
  ⟨64692, 0, 2, [1590, 1580]⟩,
  ⟨64693, 0, 2, [1590, 1581]⟩,
  ⟨64694, 0, 2, [1590, 1582]⟩,
  ⟨64695, 0, 2, [1590, 1605]⟩,
  ⟨64696, 0, 2, [1591, 1581]⟩,
  ⟨64697, 0, 2, [1592, 1605]⟩,
  ⟨64698, 0, 2, [1593, 1580]⟩,
  ⟨64699, 0, 2, [1593, 1605]⟩,
  ⟨64700, 0, 2, [1594, 1580]⟩,
  ⟨64701, 0, 2, [1594, 1605]⟩,
  ⟨64702, 0, 2, [1601, 1580]⟩,
  ⟨64703, 0, 2, [1601, 1581]⟩,
  ⟨64704, 0, 2, [1601, 1582]⟩,
  ⟨64705, 0, 2, [1601, 1605]⟩,
  ⟨64706, 0, 2, [1602, 1581]⟩,
  ⟨64707, 0, 2, [1602, 1605]⟩,
  ⟨64708, 0, 2, [1603, 1580]⟩,
  ⟨64709, 0, 2, [1603, 1581]⟩,
  ⟨64710, 0, 2, [1603, 1582]⟩,
  ⟨64711, 0, 2, [1603, 1604]⟩,
  ⟨64712, 0, 2, [1603, 1605]⟩,
  ⟨64713, 0, 2, [1604, 1580]⟩,
  ⟨64714, 0, 2, [1604, 1581]⟩,
  ⟨64715, 0, 2, [1604, 1582]⟩,
  ⟨64716, 0, 2, [1604, 1605]⟩,
  ⟨64717, 0, 2, [1604, 1607]⟩,
  ⟨64718, 0, 2, [1605, 1580]⟩,
  ⟨64719, 0, 2, [1605, 1581]⟩,
  ⟨64720, 0, 2, [1605, 1582]⟩,
  ⟨64721, 0, 2, [1605, 1605]⟩,
  ⟨64722, 0, 2, [1606, 1580]⟩,
  ⟨64723, 0, 2, [1606, 1581]⟩,
  ⟨64724, 0, 2, [1606, 1582]⟩,
  ⟨64725, 0, 2, [1606, 1605]⟩,
  ⟨64726, 0, 2, [1606, 1607]⟩,
  ⟨64727, 0, 2, [1607, 1580]⟩,
  ⟨64728, 0, 2, [1607, 1605]⟩,
  ⟨64729, 0, 2, [1607, 1648]⟩,
  ⟨64730, 0, 2, [1610, 1580]⟩,
  ⟨64731, 0, 2, [1610, 1581]⟩,
  ⟨64732, 0, 2, [1610, 1582]⟩,
  ⟨64733, 0, 2, [1610, 1605]⟩,
  ⟨64734, 0, 2, [1610, 1607]⟩,
  ⟨64735, 0, 2, [1574, 1605]⟩,
  ⟨64736, 0, 2, [1574, 1607]⟩,
  ⟨64737, 0, 2, [1576, 1605]⟩,
  ⟨64738, 0, 2, [1576, 1607]⟩,
  ⟨64739, 0, 2, [1578, 1605]⟩,
  ⟨64740, 0, 2, [1578, 1607]⟩,
  ⟨64741, 0, 2, [1579, 1605]⟩,
  ⟨64742, 0, 2, [1579, 1607]⟩,
  ⟨64743, 0, 2, [1587, 1605]⟩,
  ⟨64744, 0, 2, [1587, 1607]⟩,
  ⟨64745, 0, 2, [1588, 1605]⟩,
  ⟨64746, 0, 2, [1588, 1607]⟩,
  ⟨64747, 0, 2, [1603, 1604]⟩,
  ⟨64748, 0, 2, [1603, 1605]⟩,
  ⟨64749, 0, 2, [1604, 1605]⟩,
  ⟨64750, 0, 2, [1606, 1605]⟩,
  ⟨64751, 0, 2, [1606, 1607]⟩,
  ⟨64752, 0, 2, [1610, 1605]⟩,
  ⟨64753, 0, 2, [1610, 1607]⟩,
  ⟨64754, 0, 2, [1600, 1614, 1617]⟩,
  ⟨64755, 0, 2, [1600, 1615, 1617]⟩,
  ⟨64756, 0, 2, [1600, 1616, 1617]⟩,
  ⟨64757, 0, 2, [1591, 1609]⟩,
  ⟨64758, 0, 2, [1591, 1610]⟩,
  ⟨64759, 0, 2, [1593, 1609]⟩]

/-- src/u5e/props/UnicodeData.txt, relevant lines among 15873-16128. -/
def ucd62 : List UcdRow := [
  ⟨64760, 0, 2, [1593, 1610]⟩,
  ⟨64761, 0, 2, [1594, 1609]⟩,
  ⟨64762, 0, 2, [1594, 1610]⟩,
  ⟨64763, 0, 2, [1587, 1609]⟩,
  ⟨64764, 0, 2, [1587, 1610]⟩,
  ⟨64765, 0, 2, [1588, 1609]⟩,
  ⟨64766, 0, 2, [1588, 1610]⟩,
  ⟨64767, 0, 2, [1581, 1609]⟩,
  ⟨64768, 0, 2, [1581, 1610]⟩,
  ⟨64769, 0, 2, [1580, 1609]⟩,
  ⟨64770, 0, 2, [1580, 1610]⟩,
  ⟨64771, 0, 2, [1582, 1609]⟩,
  ⟨64772, 0, 2, [1582, 1610]⟩,
  ⟨64773, 0, 2, [1589, 1609]⟩,
  ⟨64774, 0, 2, [1589, 1610]⟩,
  ⟨64775, 0, 2, [1590, 1609]⟩,
  ⟨64776, 0, 2, [1590, 1610]⟩,
  ⟨64777, 0, 2, [1588, 1580]⟩,
  ⟨64778, 0, 2, [1588, 1581]⟩,
  ⟨64779, 0, 2, [1588, 1582]⟩,
  ⟨64780, 0, 2, [1588, 1605]⟩,
  ⟨64781, 0, 2, [1588, 1585]⟩,
  ⟨64782, 0, 2, [1587, 1585]⟩,
  ⟨64783, 0, 2, [1589, 1585]⟩,
  ⟨64784, 0, 2, [1590, 1585]⟩,
  ⟨64785, 0, 2, [1591, 1609]⟩,
  ⟨64786, 0, 2, [1591, 1610]⟩,
  ⟨64787, 0, 2, [1593, 1609]⟩,
  ⟨64788, 0, 2, [1593, 1610]⟩,
  ⟨64789, 0, 2, [1594, 1609]⟩,
  ⟨64790, 0, 2, [1594, 1610]⟩,
  ⟨64791, 0, 2, [1587, 1609]⟩,
  ⟨64792, 0, 2, [1587, 1610]⟩,
  ⟨64793, 0, 2, [1588, 1609]⟩,
  ⟨64794, 0, 2, [1588, 1610]⟩,
  ⟨64795, 0, 2, [1581, 1609]⟩,
  ⟨64796, 0, 2, [1581, 1610]⟩,
  ⟨64797, 0, 2, [1580, 1609]⟩,
  ⟨64798, 0, 2, [1580, 1610]⟩,
  ⟨64799, 0, 2, [1582, 1609]⟩,
  ⟨64800, 0, 2, [1582, 1610]⟩,
  ⟨64801, 0, 2, [1589, 1609]⟩,
  ⟨64802, 0, 2, [1589, 1610]⟩,
  ⟨64803, 0, 2, [1590, 1609]⟩,
  ⟨64804, 0, 2, [1590, 1610]⟩,
  ⟨64805, 0, 2, [1588, 1580]⟩,
  ⟨64806, 0, 2, [1588, 1581]⟩,
  ⟨64807, 0, 2, [1588, 1582]⟩,
  ⟨64808, 0, 2, [1588, 1605]⟩,
  ⟨64809, 0, 2, [1588, 1585]⟩,
  ⟨64810, 0, 2, [1587, 1585]⟩,
  ⟨64811, 0, 2, [1589, 1585]⟩,
  ⟨64812, 0, 2, [1590, 1585]⟩,
  ⟨64813, 0, 2, [1588, 1580]⟩,
  ⟨64814, 0, 2, [1588, 1581]⟩,
  ⟨64815, 0, 2, [1588, 1582]⟩,
  ⟨64816, 0, 2, [1588, 1605]⟩,
  ⟨64817, 0, 2, [1587, 1607]⟩,
  ⟨64818, 0, 2, [1588, 1607]⟩,
  ⟨64819, 0, 2, [1591, 1605]⟩,
  ⟨64820, 0, 2, [1587, 1580]⟩,
  ⟨64821, 0, 2, [1587, 1581]⟩,
  ⟨64822, 0, 2, [1587, 1582]⟩,
  ⟨64823, 0, 2, [1588, 1580]⟩,
  ⟨64824, 0, 2, [1588, 1581]⟩,
  ⟨64825, 0, 2, [1588, 1582]⟩,
  ⟨64826, 0, 2, [1591, 1605]⟩,
  ⟨64827, 0, 2, [1592, 1605]⟩,
  ⟨64828, 0, 2, [1575, 1611]⟩,
  ⟨64829, 0, 2, [1575, 1611]⟩,
  ⟨64848, 0, 2, [1578, 1580, 1605]⟩,
  ⟨64849, 0, 2, [1578, 1581, 1580]⟩,
  ⟨64850, 0, 2, [1578, 1581, 1580]⟩,
  ⟨64851, 0, 2, [1578, 1581, 1605]⟩,
  ⟨64852, 0, 2, [1578, 1582, 1605]⟩,
  ⟨64853, 0, 2, [1578, 1605, 1580]⟩,
  ⟨64854, 0, 2, [1578, 1605, 1581]⟩,
  ⟨64855, 0, 2, [1578, 1605, 1582]⟩,
  ⟨64856, 0, 2, [1580, 1605, 1581]⟩,
  ⟨64857, 0, 2, [1580, 1605, 1581]⟩,
  ⟨64858, 0, 2, [1581, 1605, 1610]⟩,
  ⟨64859, 0, 2, [1581, 1605, 1609]⟩,
  ⟨64860, 0, 2, [1587, 1581, 1580]⟩,
  ⟨64861, 0, 2, [1587, 1580, 1581]⟩,
  ⟨64862, 0, 2, [1587, 1580, 1609]⟩,
  ⟨64863, 0, 2, [1587, 1605, 1581]⟩,
  ⟨64864, 0, 2, [1587, 1605, 1581]⟩,
  ⟨64865, 0, 2, [1587, 1605, 1580]⟩,
  ⟨64866, 0, 2, [1587, 1605, 1605]⟩,
  ⟨64867, 0, 2, [1587, 1605, 1605]⟩,
  ⟨64868, 0, 2, [1589, 1581, 1581]⟩,
  ⟨64869, 0, 2, [1589, 1581, 1581]⟩,
  ⟨64870, 0, 2, [1589, 1605, 1605]⟩,
  ⟨64871, 0, 2, [1588, 1581, 1605]⟩,
  ⟨64872, 0, 2, [1588, 1581, 1605]⟩,
  ⟨64873, 0, 2, [1588, 1580, 1610]⟩,
  ⟨64874, 0, 2, [1588, 1605, 1582]⟩,
  ⟨64875, 0, 2, [1588, 1605, 1582]⟩,
  ⟨64876, 0, 2, [1588, 1605, 1605]⟩,
  ⟨64877, 0, 2, [1588, 1605, 1605]⟩,
  ⟨64878, 0, 2, [1590, 1581, 1609]⟩,
  ⟨64879, 0, 2, [1590, 1582, 1605]⟩,
  ⟨64880, 0, 2, [1590, 1582, 1605]⟩,
  ⟨64881, 0, 2, [1591, 1605, 1581]⟩,
  ⟨64882, 0, 2, [1591, 1605, 1581]⟩,
  ⟨64883, 0, 2, [1591, 1605, 1605]⟩,
  ⟨64884, 0, 2, [1591, 1605, 1610]⟩,
  ⟨64885, 0, 2, [1593, 1580, 1605]⟩,
  ⟨64886, 0, 2, [1593, 1605, 1605]⟩,
  ⟨64887, 0, 2, [1593, 1605, 1605]⟩,
  ⟨64888, 0, 2, [1593, 1605, 1609]⟩,
  ⟨64889, 0, 2, [1594, 1605, 1605]⟩,
  ⟨64890, 0, 2, [1594, 1605, 1610]⟩,
  ⟨64891, 0, 2, [1594, 1605, 1609]⟩,
  ⟨64892, 0, 2, [1601, 1582, 1605]⟩,
  ⟨64893, 0, 2, [1601, 1582, 1605]⟩,
  ⟨64894, 0, 2, [1602, 1605, 1581]⟩,
  ⟨64895, 0, 2, [1602, 1605, 1605]⟩,
  ⟨64896, 0, 2, [1604, 1581, 1605]⟩,
  ⟨64897, 0, 2, [1604, 1581, 1610]⟩,
  ⟨64898, 0, 2, [1604, 1581, 1609]⟩,
  ⟨64899, 0, 2, [1604, 1580, 1580]⟩,
  ⟨64900, 0, 2, [1604, 1580, 1580]⟩,
  ⟨64901, 0, 2, [1604, 1582, 1605]⟩,
  ⟨64902, 0, 2, [1604, 1582, 1605]⟩,
  ⟨64903, 0, 2, [1604, 1605, 1581]⟩,
  ⟨64904, 0, 2, [1604, 1605, 1581]⟩,
  ⟨64905, 0, 2, [1605, 1581, 1580]⟩,
  ⟨64906, 0, 2, [1605, 1581, 1605]⟩,
  ⟨64907, 0, 2, [1605, 1581, 1610]⟩,
  ⟨64908, 0, 2, [1605, 1580, 1581]⟩,
  ⟨64909, 0, 2, [1605, 1580, 1605]⟩,
  ⟨64910, 0, 2, [1605, 1582, 1580]⟩,
  ⟨64911, 0, 2, [1605, 1582, 1605]⟩,
  ⟨64914, 0, 2, [1605, 1580, 1582]⟩,
  ⟨64915, 0, 2, [1607, 1605, 1580]⟩,
  ⟨64916, 0, 2, [1607, 1605, 1605]⟩,
  ⟨64917, 0, 2, [1606, 1581, 1605]⟩,
  ⟨64918, 0, 2, [1606, 1581, 1609]⟩,
  ⟨64919, 0, 2, [1606, 1580, 1605]⟩,
  ⟨64920, 0, 2, [1606, 1580, 1605]⟩,
  ⟨64921, 0, 2, [1606, 1580, 1609]⟩,
  ⟨64922, 0, 2, [1606, 1605, 1610]⟩,
  ⟨64923, 0, 2, [1606, 1605, 1609]⟩,
  ⟨64924, 0, 2, [1610, 1605, 1605]⟩,
  ⟨64925, 0, 2, [1610, 1605, 1605]⟩,
  ⟨64926, 0, 2, [1576, 1582, 1610]⟩,
  ⟨64927, 0, 2, [1578, 1580, 1610]⟩,
  ⟨64928, 0, 2, [1578, 1580, 1609]⟩,
  ⟨64929, 0, 2, [1578, 1582, 1610]⟩,
  ⟨64930, 0, 2, [1578, 1582, 1609]⟩,
  ⟨64931, 0, 2, [1578, 1605, 1610]⟩,
  ⟨64932, 0, 2, [1578, 1605, 1609]⟩,
  ⟨64933, 0, 2, [1580, 1605, 1610]⟩,
  ⟨64934, 0, 2, [1580, 1581, 1609]⟩,
  ⟨64935, 0, 2, [1580, 1605, 1609]⟩,
  ⟨64936, 0, 2, [1587, 1582, 1609]⟩,
  ⟨64937, 0, 2, [1589, 1581, 1610]⟩,
  ⟨64938, 0, 2, [1588, 1581, 1610]⟩,
  ⟨64939, 0, 2, [1590, 1581, 1610]⟩,
  ⟨64940, 0, 2, [1604, 1580, 1610]⟩,
  ⟨64941, 0, 2, [1604, 1605, 1610]⟩,
  ⟨64942, 0, 2, [1610, 1581, 1610]⟩,
  ⟨64943, 0, 2, [1610, 1580, 1610]⟩,
  ⟨64944, 0, 2, [1610, 1605, 1610]⟩,
  ⟨64945, 0, 2, [1605, 1605, 1610]⟩,
  ⟨64946, 0, 2, [1602, 1605, 1610]⟩,
  ⟨64947, 0, 2, [1606, 1581, 1610]⟩,
  ⟨64948, 0, 2, [1602, 1605, 1581]⟩,
  ⟨64949, 0, 2, [1604, 1581, 1605]⟩,
  ⟨64950, 0, 2, [1593, 1605, 1610]⟩,
  ⟨64951, 0, 2, [1603, 1605, 1610]⟩,
  ⟨64952, 0, 2, [1606, 1580, 1581]⟩,
  ⟨64953, 0, 2, [1605, 1582, 1610]⟩,
  ⟨64954, 0, 2, [1604, 1580, 1605]⟩,
  ⟨64955, 0, 2, [1603, 1605, 1605]⟩,
  ⟨64956, 0, 2, [1604, 1580, 1605]⟩,
  ⟨64957, 0, 2, [1606, 1580, 1581]⟩,
  ⟨64958, 0, 2, [1580, 1581, 1610]⟩,
  ⟨64959, 0, 2, [1581, 1580, 1610]⟩,
  ⟨64960, 0, 2, [1605, 1580, 1610]⟩,
  ⟨64961, 0, 2, [1601, 1605, 1610]⟩,
  ⟨64962, 0, 2, [1576, 1581, 1610]⟩,
  ⟨64963, 0, 2, [1603, 1605, 1605]⟩,
  ⟨64964, 0, 2, [1593, 1580, 1605]⟩,
  ⟨64965, 0, 2, [1589, 1605, 1605]⟩,
  ⟨64966, 0, 2, [1587, 1582, 1610]⟩,
  ⟨64967, 0, 2, [1606, 1580, 1610]⟩,
  ⟨65008, 0, 2, [1589, 1604, 1746]⟩,
  ⟨65009, 0, 2, [1602, 1604, 1746]⟩,
  ⟨65010, 0, 2, [1575, 1604, 1604, 1607]⟩,
  ⟨65011, 0, 2, [1575, 1603, 1576, 1585]⟩,
  ⟨65012, 0, 2, [1605, 1581, 1605, 1583]⟩,
  ⟨65013, 0, 2, [1589, 1604, 1593, 1605]⟩,
  ⟨65014, 0, 2, [1585, 1587, 1608, 1604]⟩,
  ⟨65015, 0, 2, [1593, 1604, 1610, 1607]⟩,
  ⟨65016, 0, 2, [1608, 1587, 1604, 1605]⟩,
  ⟨65017, 0, 2, [1589, 1604, 1609]⟩,
  ⟨65018, 0, 2, [1589, 1604, 1609, 32, 1575, 1604, 1604, 1607, 32, 1593, 1604, 1610, 1607, 32, 1608, 1587, 1604, 1605]⟩,
  ⟨65019, 0, 2, [1580, 1604, 32, 1580, 1604, 1575, 1604, 1607]⟩,
  ⟨65020, 0, 2, [1585, 1740, 1575, 1604]⟩,
  ⟨65040, 0, 2, [44]⟩,
  ⟨65041, 0, 2, [12289]⟩,
  ⟨65042, 0, 2, [12290]⟩,
  ⟨65043, 0, 2, [58]⟩,
  ⟨65044, 0, 2, [59]⟩,
  ⟨65045, 0, 2, [33]⟩,
  ⟨65046, 0, 2, [63]⟩,
  ⟨65047, 0, 2, [12310]⟩,
  ⟨65048, 0, 2, [12311]⟩,
  ⟨65049, 0, 2, [8230]⟩,
  ⟨65056, 230, 0, []⟩,
  ⟨65057, 230, 0, []⟩,
  ⟨65058, 230, 0, []⟩,
  ⟨65059, 230, 0, []⟩,
  ⟨65060, 230, 0, []⟩,
  ⟨65061, 230, 0, []⟩,
  ⟨65062, 230, 0, []⟩,
  ⟨65063, 220, 0, []⟩,
  ⟨65064, 220, 0, []⟩,
  ⟨65065, 220, 0, []⟩,
  ⟨65066, 220, 0, []⟩,
  ⟨65067, 220, 0, []⟩,
  ⟨65068, 220, 0, []⟩,
  ⟨65069, 220, 0, []⟩,
  ⟨65070, 230, 0, []⟩,
  ⟨65071, 230, 0, []⟩,
  ⟨65072, 0, 2, [8229]⟩,
  ⟨65073, 0, 2, [8212]⟩,
  ⟨65074, 0, 2, [8211]⟩,
  ⟨65075, 0, 2, [95]⟩,
  ⟨65076, 0, 2, [95]⟩,
  ⟨65077, 0, 2, [40]⟩,
  ⟨65078, 0, 2, [41]⟩,
  ⟨65079, 0, 2, [123]⟩,
  ⟨65080, 0, 2, [125]⟩,
  ⟨65081, 0, 2, [12308]⟩]

/-- src/u5e/props/UnicodeData.txt, relevant lines among 16129-16384. -/
def ucd63 : List UcdRow := [
  ⟨65082, 0, 2, [12309]⟩,
  ⟨65083, 0, 2, [12304]⟩,
  ⟨65084, 0, 2, [12305]⟩,
  ⟨65085, 0, 2, [12298]⟩,
  ⟨65086, 0, 2, [12299]⟩,
  ⟨65087, 0, 2, [12296]⟩,
  ⟨65088, 0, 2, [12297]⟩,
  ⟨65089, 0, 2, [12300]⟩,
  ⟨65090, 0, 2, [12301]⟩,
  ⟨65091, 0, 2, [12302]⟩,
  ⟨65092, 0, 2, [12303]⟩,
  ⟨65095, 0, 2, [91]⟩,
  ⟨65096, 0, 2, [93]⟩,
  ⟨65097, 0, 1, [8254]⟩,
  ⟨65098, 0, 1, [8254]⟩,
  ⟨65099, 0, 1, [8254]⟩,
  ⟨65100, 0, 1, [8254]⟩,
  ⟨65101, 0, 1, [95]⟩,
  ⟨65102, 0, 1, [95]⟩,
  ⟨65103, 0, 1, [95]⟩,
  ⟨65104, 0, 2, [44]⟩,
  ⟨65105, 0, 2, [12289]⟩,
  ⟨65106, 0, 2, [46]⟩,
  ⟨65108, 0, 2, [59]⟩,
  ⟨65109, 0, 2, [58]⟩,
  ⟨65110, 0, 2, [63]⟩,
  ⟨65111, 0, 2, [33]⟩,
  ⟨65112, 0, 2, [8212]⟩,
  ⟨65113, 0, 2, [40]⟩,
  ⟨65114, 0, 2, [41]⟩,
  ⟨65115, 0, 2, [123]⟩,
  ⟨65116, 0, 2, [125]⟩,
  ⟨65117, 0, 2, [12308]⟩,
  ⟨65118, 0, 2, [12309]⟩,
  ⟨65119, 0, 2, [35]⟩,
  ⟨65120, 0, 2, [38]⟩,
  ⟨65121, 0, 2, [42]⟩,
  ⟨65122, 0, 2, [43]⟩,
  ⟨65123, 0, 2, [45]⟩,
  ⟨65124, 0, 2, [60]⟩,
  ⟨65125, 0, 2, [62]⟩,
  ⟨65126, 0, 2, [61]⟩,
  ⟨65128, 0, 2, [92]⟩,
  ⟨65129, 0, 2, [36]⟩,
  ⟨65130, 0, 2, [37]⟩,
  ⟨65131, 0, 2, [64]⟩,
  ⟨65136, 0, 2, [32, 1611]⟩,
  ⟨65137, 0, 2, [1600, 1611]⟩,
  ⟨65138, 0, 2, [32, 1612]⟩,
  ⟨65140, 0, 2, [32, 1613]⟩,
  ⟨65142, 0, 2, [32, 1614]⟩,
  ⟨65143, 0, 2, [1600, 1614]⟩,
  ⟨65144, 0, 2, [32, 1615]⟩,
  ⟨65145, 0, 2, [1600, 1615]⟩,
  ⟨65146, 0, 2, [32, 1616]⟩,
  ⟨65147, 0, 2, [1600, 1616]⟩,
  ⟨65148, 0, 2, [32, 1617]⟩,
  ⟨65149, 0, 2, [1600, 1617]⟩,
  ⟨65150, 0, 2, [32, 1618]⟩,
  ⟨65151, 0, 2, [1600, 1618]⟩,
  ⟨65152, 0, 2, [1569]⟩,
  ⟨65153, 0, 2, [1570]⟩,
  ⟨65154, 0, 2, [1570]⟩,
  ⟨65155, 0, 2, [1571]⟩,
  ⟨65156, 0, 2, [1571]⟩,
  ⟨65157, 0, 2, [1572]⟩,
  ⟨65158, 0, 2, [1572]⟩,
  ⟨65159, 0, 2, [1573]⟩,
  ⟨65160, 0, 2, [1573]⟩,
  ⟨65161, 0, 2, [1574]⟩,
  ⟨65162, 0, 2, [1574]⟩,
  ⟨65163, 0, 2, [1574]⟩,
  ⟨65164, 0, 2, [1574]⟩,
  ⟨65165, 0, 2, [1575]⟩,
  ⟨65166, 0, 2, [1575]⟩,
  ⟨65167, 0, 2, [1576]⟩,
  ⟨65168, 0, 2, [1576]⟩,
  ⟨65169, 0, 2, [1576]⟩,
  ⟨65170, 0, 2, [1576]⟩,
  ⟨65171, 0, 2, [1577]⟩,
  ⟨65172, 0, 2, [1577]⟩,
  ⟨65173, 0, 2, [1578]⟩,
  ⟨65174, 0, 2, [1578]⟩,
  ⟨65175, 0, 2, [1578]⟩,
  ⟨65176, 0, 2, [1578]⟩,
  ⟨65177, 0, 2, [1579]⟩,
  ⟨65178, 0, 2, [1579]⟩,
  ⟨65179, 0, 2, [1579]⟩,
  ⟨65180, 0, 2, [1579]⟩,
  ⟨65181, 0, 2, [1580]⟩,
  ⟨65182, 0, 2, [1580]⟩,
  ⟨65183, 0, 2, [1580]⟩,
  ⟨65184, 0, 2, [1580]⟩,
  ⟨65185, 0, 2, [1581]⟩,
  ⟨65186, 0, 2, [1581]⟩,
  ⟨65187, 0, 2, [1581]⟩,
  ⟨65188, 0, 2, [1581]⟩,
  ⟨65189, 0, 2, [1582]⟩,
  ⟨65190, 0, 2, [1582]⟩,
  ⟨65191, 0, 2, [1582]⟩,
  ⟨65192, 0, 2, [1582]⟩,
  ⟨65193, 0, 2, [1583]⟩,
  ⟨65194, 0, 2, [1583]⟩,
  ⟨65195, 0, 2, [1584]⟩,
  ⟨65196, 0, 2, [1584]⟩,
  ⟨65197, 0, 2, [1585]⟩,
  ⟨65198, 0, 2, [1585]⟩,
  ⟨65199, 0, 2, [1586]⟩,
  ⟨65200, 0, 2, [1586]⟩,
  ⟨65201, 0, 2, [1587]⟩,
  ⟨65202, 0, 2, [1587]⟩,
  ⟨65203, 0, 2, [1587]⟩,
  ⟨65204, 0, 2, [1587]⟩,
  ⟨65205, 0, 2, [1588]⟩,
  ⟨65206, 0, 2, [1588]⟩,
  ⟨65207, 0, 2, [1588]⟩,
  ⟨65208, 0, 2, [1588]⟩,
  ⟨65209, 0, 2, [1589]⟩,
  ⟨65210, 0, 2, [1589]⟩,
  ⟨65211, 0, 2, [1589]⟩,
  ⟨65212, 0, 2, [1589]⟩,
  ⟨65213, 0, 2, [1590]⟩,
  ⟨65214, 0, 2, [1590]⟩,
  ⟨65215, 0, 2, [1590]⟩,
  ⟨65216, 0, 2, [1590]⟩,
  ⟨65217, 0, 2, [1591]⟩,
  ⟨65218, 0, 2, [1591]⟩,
  ⟨65219, 0, 2, [1591]⟩,
  ⟨65220, 0, 2, [1591]⟩,
  ⟨65221, 0, 2, [1592]⟩,
  ⟨65222, 0, 2, [1592]⟩,
  ⟨65223, 0, 2, [1592]⟩,
  ⟨65224, 0, 2, [1592]⟩,
  ⟨65225, 0, 2, [1593]⟩,
  ⟨65226, 0, 2, [1593]⟩,
  ⟨65227, 0, 2, [1593]⟩,
  ⟨65228, 0, 2, [1593]⟩,
  ⟨65229, 0, 2, [1594]⟩,
  ⟨65230, 0, 2, [1594]⟩,
  ⟨65231, 0, 2, [1594]⟩,
  ⟨65232, 0, 2, [1594]⟩,
  ⟨65233, 0, 2, [1601]⟩,
  ⟨65234, 0, 2, [1601]⟩,
  ⟨65235, 0, 2, [1601]⟩,
  ⟨65236, 0, 2, [1601]⟩,
  ⟨65237, 0, 2, [1602]⟩,
  ⟨65238, 0, 2, [1602]⟩,
  ⟨65239, 0, 2, [1602]⟩,
  ⟨65240, 0, 2, [1602]⟩,
  ⟨65241, 0, 2, [1603]⟩,
  ⟨65242, 0, 2, [1603]⟩,
  ⟨65243, 0, 2, [1603]⟩,
  ⟨65244, 0, 2, [1603]⟩,
  ⟨65245, 0, 2, [1604]⟩,
  ⟨65246, 0, 2, [1604]⟩,
  ⟨65247, 0, 2, [1604]⟩,
  ⟨65248, 0, 2, [1604]⟩,
  ⟨65249, 0, 2, [1605]⟩,
  ⟨65250, 0, 2, [1605]⟩,
  ⟨65251, 0, 2, [1605]⟩,
  ⟨65252, 0, 2, [1605]⟩,
  ⟨65253, 0, 2, [1606]⟩,
  ⟨65254, 0, 2, [1606]⟩,
  ⟨65255, 0, 2, [1606]⟩,
  ⟨65256, 0, 2, [1606]⟩,
  ⟨65257, 0, 2, [1607]⟩,
  ⟨65258, 0, 2, [1607]⟩,
  ⟨65259, 0, 2, [1607]⟩,
  ⟨65260, 0, 2, [1607]⟩,
  ⟨65261, 0, 2, [1608]⟩,
  ⟨65262, 0, 2, [1608]⟩,
  ⟨65263, 0, 2, [1609]⟩,
  ⟨65264, 0, 2, [1609]⟩,
  ⟨65265, 0, 2, [1610]⟩,
  ⟨65266, 0, 2, [1610]⟩,
  ⟨65267, 0, 2, [1610]⟩,
  ⟨65268, 0, 2, [1610]⟩,
  ⟨65269, 0, 2, [1604, 1570]⟩,
  ⟨65270, 0, 2, [1604, 1570]⟩,
  ⟨65271, 0, 2, [1604, 1571]⟩,
  ⟨65272, 0, 2, [1604, 1571]⟩,
  ⟨65273, 0, 2, [1604, 1573]⟩,
  ⟨65274, 0, 2, [1604, 1573]⟩,
  ⟨65275, 0, 2, [1604, 1575]⟩,
  ⟨65276, 0, 2, [1604, 1575]⟩,
  ⟨65281, 0, 2, [33]⟩,
  ⟨65282, 0, 2, [34]⟩,
  ⟨65283, 0, 2, [35]⟩,
  ⟨65284, 0, 2, [36]⟩,
  ⟨65285, 0, 2, [37]⟩,
  ⟨65286, 0, 2, [38]⟩,
  ⟨65287, 0, 2, [39]⟩,
  ⟨65288, 0, 2, [40]⟩,
  ⟨65289, 0, 2, [41]⟩,
  ⟨65290, 0, 2, [42]⟩,
  ⟨65291, 0, 2, [43]⟩,
  ⟨65292, 0, 2, [44]⟩,
  ⟨65293, 0, 2, [45]⟩,
  ⟨65294, 0, 2, [46]⟩,
  ⟨65295, 0, 2, [47]⟩,
  ⟨65296, 0, 2, [48]⟩,
  ⟨65297, 0, 2, [49]⟩,
  ⟨65298, 0, 2, [50]⟩,
  ⟨65299, 0, 2, [51]⟩,
  ⟨65300, 0, 2, [52]⟩,
  ⟨65301, 0, 2, [53]⟩,
  ⟨65302, 0, 2, [54]⟩,
  ⟨65303, 0, 2, [55]⟩,
  ⟨65304, 0, 2, [56]⟩,
  ⟨65305, 0, 2, [57]⟩,
  ⟨65306, 0, 2, [58]⟩,
  ⟨65307, 0, 2, [59]⟩,
  ⟨65308, 0, 2, [60]⟩,
  ⟨65309, 0, 2, [61]⟩,
  ⟨65310, 0, 2, [62]⟩,
  ⟨65311, 0, 2, [63]⟩,
  ⟨65312, 0, 2, [64]⟩,
  ⟨65313, 0, 2, [65]⟩,
  ⟨65314, 0, 2, [66]⟩,
  ⟨65315, 0, 2, [67]⟩,
  ⟨65316, 0, 2, [68]⟩,
  ⟨65317, 0, 2, [69]⟩,
  ⟨65318, 0, 2, [70]⟩,
  ⟨65319, 0, 2, [71]⟩,
  ⟨65320, 0, 2, [72]⟩,
  ⟨65321, 0, 2, [73]⟩,
  ⟨65322, 0, 2, [74]⟩,
  ⟨65323, 0, 2, [75]⟩,
  ⟨65324, 0, 2, [76]⟩,
  ⟨65325, 0, 2, [77]⟩,
  ⟨65326, 0, 2, [78]⟩,
  ⟨65327, 0, 2, [79]⟩,
  ⟨65328, 0, 2, [80]⟩,
  ⟨65329, 0, 2, [81]⟩,
  ⟨65330, 0, 2, [82]⟩,
  ⟨65331, 0, 2, [83]⟩,
  ⟨65332, 0, 2, [84]⟩,
  ⟨65333, 0, 2, [85]⟩,
  ⟨65334, 0, 2, [86]⟩,
  ⟨65335, 0, 2, [87]⟩,
  ⟨65336, 0, 2, [88]⟩,
  ⟨65337, 0, 2, [89]⟩,
  ⟨65338, 0, 2, [90]⟩,
  ⟨65339, 0, 2, [91]⟩,
  ⟨65340, 0, 2, [92]⟩,
  ⟨65341, 0, 2, [93]⟩,
  ⟨65342, 0, 2, [94]⟩,
  ⟨65343, 0, 2, [95]⟩,
  ⟨65344, 0, 2, [96]⟩,
  ⟨65345, 0, 2, [97]⟩,
  ⟨65346, 0, 2, [98]⟩,
  ⟨65347, 0, 2, [99]⟩]

/-- src/u5e/props/UnicodeData.txt, relevant lines among 16385-16640. -/
def ucd64 : List UcdRow := [
  ⟨65348, 0, 2, [100]⟩,
  ⟨65349, 0, 2, [101]⟩,
  ⟨65350, 0, 2, [102]⟩,
  ⟨65351, 0, 2, [103]⟩,
  ⟨65352, 0, 2, [104]⟩,
  ⟨65353, 0, 2, [105]⟩,
  ⟨65354, 0, 2, [106]⟩,
  ⟨65355, 0, 2, [107]⟩,
  ⟨65356, 0, 2, [108]⟩,
  ⟨65357, 0, 2, [109]⟩,
  ⟨65358, 0, 2, [110]⟩,
  ⟨65359, 0, 2, [111]⟩,
  ⟨65360, 0, 2, [112]⟩,
  ⟨65361, 0, 2, [113]⟩,
  ⟨65362, 0, 2, [114]⟩,
  ⟨65363, 0, 2, [115]⟩,
  ⟨65364, 0, 2, [116]⟩,
  ⟨65365, 0, 2, [117]⟩,
  ⟨65366, 0, 2, [118]⟩,
  ⟨65367, 0, 2, [119]⟩,
  ⟨65368, 0, 2, [120]⟩,
  ⟨65369, 0, 2, [121]⟩,
  ⟨65370, 0, 2, [122]⟩,
  ⟨65371, 0, 2, [123]⟩,
  ⟨65372, 0, 2, [124]⟩,
  ⟨65373, 0, 2, [125]⟩,
  ⟨65374, 0, 2, [126]⟩,
  ⟨65375, 0, 2, [10629]⟩,
  ⟨65376, 0, 2, [10630]⟩,
  ⟨65377, 0, 2, [12290]⟩,
  ⟨65378, 0, 2, [12300]⟩,
  ⟨65379, 0, 2, [12301]⟩,
  ⟨65380, 0, 2, [12289]⟩,
  ⟨65381, 0, 2, [12539]⟩,
  ⟨65382, 0, 2, [12530]⟩,
  ⟨65383, 0, 2, [12449]⟩,
  ⟨65384, 0, 2, [12451]⟩,
  ⟨65385, 0, 2, [12453]⟩,
  ⟨65386, 0, 2, [12455]⟩,
  ⟨65387, 0, 2, [12457]⟩,
  ⟨65388, 0, 2, [12515]⟩,
  ⟨65389, 0, 2, [12517]⟩,
  ⟨65390, 0, 2, [12519]⟩,
  ⟨65391, 0, 2, [12483]⟩,
  ⟨65392, 0, 2, [12540]⟩,
  ⟨65393, 0, 2, [12450]⟩,
  ⟨65394, 0, 2, [12452]⟩,
  ⟨65395, 0, 2, [12454]⟩,
  ⟨65396, 0, 2, [12456]⟩,
  ⟨65397, 0, 2, [12458]⟩,
  ⟨65398, 0, 2, [12459]⟩,
  ⟨65399, 0, 2, [12461]⟩,
  ⟨65400, 0, 2, [12463]⟩,
  ⟨65401, 0, 2, [12465]⟩,
  ⟨65402, 0, 2, [12467]⟩,
  ⟨65403, 0, 2, [12469]⟩,
  ⟨65404, 0, 2, [12471]⟩,
  ⟨65405, 0, 2, [12473]⟩,
  ⟨65406, 0, 2, [12475]⟩,
  ⟨65407, 0, 2, [12477]⟩,
  ⟨65408, 0, 2, [12479]⟩,
  ⟨65409, 0, 2, [12481]⟩,
  ⟨65410, 0, 2, [12484]⟩,
  ⟨65411, 0, 2, [12486]⟩,
  ⟨65412, 0, 2, [12488]⟩,
  ⟨65413, 0, 2, [12490]⟩,
  ⟨65414, 0, 2, [12491]⟩,
  ⟨65415, 0, 2, [12492]⟩,
  ⟨65416, 0, 2, [12493]⟩,
  ⟨65417, 0, 2, [12494]⟩,
  ⟨65418, 0, 2, [12495]⟩,
  ⟨65419, 0, 2, [12498]⟩,
  ⟨65420, 0, 2, [12501]⟩,
  ⟨65421, 0, 2, [12504]⟩,
  ⟨65422, 0, 2, [12507]⟩,
  ⟨65423, 0, 2, [12510]⟩,
  ⟨65424, 0, 2, [12511]⟩,
  ⟨65425, 0, 2, [12512]⟩,
  ⟨65426, 0, 2, [12513]⟩,
  ⟨65427, 0, 2, [12514]⟩,
  ⟨65428, 0, 2, [12516]⟩,
  ⟨65429, 0, 2, [12518]⟩,
  ⟨65430, 0, 2, [12520]⟩,
  ⟨65431, 0, 2, [12521]⟩,
  ⟨65432, 0, 2, [12522]⟩,
  ⟨65433, 0, 2, [12523]⟩,
  ⟨65434, 0, 2, [12524]⟩,
  ⟨65435, 0, 2, [12525]⟩,
  ⟨65436, 0, 2, [12527]⟩,
  ⟨65437, 0, 2, [12531]⟩,
  ⟨65438, 0, 2, [12441]⟩,
  ⟨65439, 0, 2, [12442]⟩,
  ⟨65440, 0, 2, [12644]⟩,
  ⟨65441, 0, 2, [12593]⟩,
  ⟨65442, 0, 2, [12594]⟩,
  ⟨65443, 0, 2, [12595]⟩,
  ⟨65444, 0, 2, [12596]⟩,
  ⟨65445, 0, 2, [12597]⟩,
  ⟨65446, 0, 2, [12598]⟩,
  ⟨65447, 0, 2, [12599]⟩,
  ⟨65448, 0, 2, [12600]⟩,
  ⟨65449, 0, 2, [12601]⟩,
  ⟨65450, 0, 2, [12602]⟩,
  ⟨65451, 0, 2, [12603]⟩,
  ⟨65452, 0, 2, [12604]⟩,
  ⟨65453, 0, 2, [12605]⟩,
  ⟨65454, 0, 2, [12606]⟩,
  ⟨65455, 0, 2, [12607]⟩,
  ⟨65456, 0, 2, [12608]⟩,
  ⟨65457, 0, 2, [12609]⟩,
  ⟨65458, 0, 2, [12610]⟩,
  ⟨65459, 0, 2, [12611]⟩,
  ⟨65460, 0, 2, [12612]⟩,
  ⟨65461, 0, 2, [12613]⟩,
  ⟨65462, 0, 2, [12614]⟩,
  ⟨65463, 0, 2, [12615]⟩,
  ⟨65464, 0, 2, [12616]⟩,
  ⟨65465, 0, 2, [12617]⟩,
  ⟨65466, 0, 2, [12618]⟩,
  ⟨65467, 0, 2, [12619]⟩,
  ⟨65468, 0, 2, [12620]⟩,
  ⟨65469, 0, 2, [12621]⟩,
  ⟨65470, 0, 2, [12622]⟩,
  ⟨65474, 0, 2, [12623]⟩,
  ⟨65475, 0, 2, [12624]⟩,
  ⟨65476, 0, 2, [12625]⟩,
  ⟨65477, 0, 2, [12626]⟩,
  ⟨65478, 0, 2, [12627]⟩,
  ⟨65479, 0, 2, [12628]⟩,
  ⟨65482, 0, 2, [12629]⟩,
  ⟨65483, 0, 2, [12630]⟩,
  ⟨65484, 0, 2, [12631]⟩,
  ⟨65485, 0, 2, [12632]⟩,
  ⟨65486, 0, 2, [12633]⟩,
  ⟨65487, 0, 2, [12634]⟩,
  ⟨65490, 0, 2, [12635]⟩,
  ⟨65491, 0, 2, [12636]⟩,
  ⟨65492, 0, 2, [12637]⟩,
  ⟨65493, 0, 2, [12638]⟩,
  ⟨65494, 0, 2, [12639]⟩,
  ⟨65495, 0, 2, [12640]⟩,
  ⟨65498, 0, 2, [12641]⟩,
  ⟨65499, 0, 2, [12642]⟩,
  ⟨65500, 0, 2, [12643]⟩,
  ⟨65504, 0, 2, [162]⟩,
  ⟨65505, 0, 2, [163]⟩,
  ⟨65506, 0, 2, [172]⟩,
  ⟨65507, 0, 2, [175]⟩,
  ⟨65508, 0, 2, [166]⟩,
  ⟨65509, 0, 2, [165]⟩,
  ⟨65510, 0, 2, [8361]⟩,
  ⟨65512, 0, 2, [9474]⟩,
  ⟨65513, 0, 2, [8592]⟩,
  ⟨65514, 0, 2, [8593]⟩,
  ⟨65515, 0, 2, [8594]⟩,
  ⟨65516, 0, 2, [8595]⟩,
  ⟨65517, 0, 2, [9632]⟩,
  ⟨65518, 0, 2, [9675]⟩]

/-- src/u5e/props/UnicodeData.txt, relevant lines among 16641-16896. -/
def ucd65 : List UcdRow := []

/-- src/u5e/props/UnicodeData.txt, relevant lines among 16897-17152. -/
def ucd66 : List UcdRow := [
  ⟨66045, 220, 0, []⟩,
  ⟨66272, 220, 0, []⟩]

/-- src/u5e/props/UnicodeData.txt, relevant lines among 17153-17408. -/
def ucd67 : List UcdRow := [
  ⟨66422, 230, 0, []⟩,
  ⟨66423, 230, 0, []⟩,
  ⟨66424, 230, 0, []⟩,
  ⟨66425, 230, 0, []⟩,
  ⟨66426, 230, 0, []⟩]

/-- src/u5e/props/UnicodeData.txt, relevant lines among 17409-17664. -/
def ucd68 : List UcdRow := []

/-- src/u5e/props/UnicodeData.txt, relevant lines among 17665-17920. -/
def ucd69 : List UcdRow := []

/-- src/u5e/props/UnicodeData.txt, relevant lines among 17921-18176. -/
def ucd70 : List UcdRow := []

/-- src/u5e/props/UnicodeData.txt, relevant lines among 18177-18432. -/
def ucd71 : List UcdRow := [
  ⟨68109, 220, 0, []⟩,
  ⟨68111, 230, 0, []⟩,
  ⟨68152, 230, 0, []⟩,
  ⟨68153, 1, 0, []⟩,
  ⟨68154, 220, 0, []⟩,
  ⟨68159, 9, 0, []⟩]

/-- src/u5e/props/UnicodeData.txt, relevant lines among 18433-18688. -/
def ucd72 : List UcdRow := [
  ⟨68325, 230, 0, []⟩,
  ⟨68326, 220, 0, []⟩]

/-- src/u5e/props/UnicodeData.txt, relevant lines among 18689-18944. -/
def ucd73 : List UcdRow := [
  ⟨69702, 9, 0, []⟩,
  ⟨69759, 9, 0, []⟩]

/-- src/u5e/props/UnicodeData.txt, relevant lines among 18945-19200. -/
def ucd74 : List UcdRow := [
  ⟨69786, 0, 0, [69785, 69818]⟩,
  ⟨69788, 0, 0, [69787, 69818]⟩,
  ⟨69803, 0, 0, [69797, 69818]⟩,
  ⟨69817, 9, 0, []⟩,
  ⟨69818, 7, 0, []⟩,
  ⟨69888, 230, 0, []⟩,
  ⟨69889, 230, 0, []⟩,
  ⟨69890, 230, 0, []⟩,
  ⟨69934, 0, 0, [69937, 69927]⟩,
  ⟨69935, 0, 0, [69938, 69927]⟩,
  ⟨69939, 9, 0, []⟩,
  ⟨69940, 9, 0, []⟩,
  ⟨70003, 7, 0, []⟩]

/-- src/u5e/props/UnicodeData.txt, relevant lines among 19201-19456. -/
def ucd75 : List UcdRow := [
  ⟨70080, 9, 0, []⟩,
  ⟨70090, 7, 0, []⟩,
  ⟨70197, 9, 0, []⟩,
  ⟨70198, 7, 0, []⟩,
  ⟨70377, 7, 0, []⟩,
  ⟨70378, 9, 0, []⟩]

/-- src/u5e/props/UnicodeData.txt, relevant lines among 19457-19712. -/
def ucd76 : List UcdRow := [
  ⟨70460, 7, 0, []⟩,
  ⟨70475, 0, 0, [70471, 70462]⟩,
  ⟨70476, 0, 0, [70471, 70487]⟩,
  ⟨70477, 9, 0, []⟩,
  ⟨70502, 230, 0, []⟩,
  ⟨70503, 230, 0, []⟩,
  ⟨70504, 230, 0, []⟩,
  ⟨70505, 230, 0, []⟩,
  ⟨70506, 230, 0, []⟩,
  ⟨70507, 230, 0, []⟩,
  ⟨70508, 230, 0, []⟩,
  ⟨70512, 230, 0, []⟩,
  ⟨70513, 230, 0, []⟩,
  ⟨70514, 230, 0, []⟩,
  ⟨70515, 230, 0, []⟩,
  ⟨70516, 230, 0, []⟩,
  ⟨70722, 9, 0, []⟩,
  ⟨70726, 7, 0, []⟩,
  ⟨70843, 0, 0, [70841, 70842]⟩,
  ⟨70844, 0, 0, [70841, 70832]⟩,
  ⟨70846, 0, 0, [70841, 70845]⟩,
  ⟨70850, 9, 0, []⟩,
  ⟨70851, 7, 0, []⟩]

/-- src/u5e/props/UnicodeData.txt, relevant lines among 19713-19968. -/
def ucd77 : List UcdRow := [
  ⟨71098, 0, 0, [71096, 71087]⟩,
  ⟨71099, 0, 0, [71097, 71087]⟩,
  ⟨71103, 9, 0, []⟩,
  ⟨71104, 7, 0, []⟩,
  ⟨71231, 9, 0, []⟩,
  ⟨71350, 9, 0, []⟩,
  ⟨71351, 7, 0, []⟩]

/-- src/u5e/props/UnicodeData.txt, relevant lines among 19969-20224. -/
def ucd78 : List UcdRow := [
  ⟨71467, 9, 0, []⟩,
  ⟨72767, 9, 0, []⟩]

/-- src/u5e/props/UnicodeData.txt, relevant lines among 20225-20480. -/
def ucd79 : List UcdRow := []

/-- src/u5e/props/UnicodeData.txt, relevant lines among 20481-20736. -/
def ucd80 : List UcdRow := []

/-- src/u5e/props/UnicodeData.txt, relevant lines among 20737-20992. -/
def ucd81 : List UcdRow := []

/-- src/u5e/props/UnicodeData.txt, relevant lines among 20993-21248. -/
def ucd82 : List UcdRow := []

/-- src/u5e/props/UnicodeData.txt, relevant lines among 21249-21504. -/
def ucd83 : List UcdRow := []

/-- src/u5e/props/UnicodeData.txt, relevant lines among 21505-21760. -/
def ucd84 : List UcdRow := []

/-- src/u5e/props/UnicodeData.txt, relevant lines among 21761-22016. -/
def ucd85 : List UcdRow := []

/-- src/u5e/props/UnicodeData.txt, relevant lines among 22017-22272. -/
def ucd86 : List UcdRow := []

/-- src/u5e/props/UnicodeData.txt, relevant lines among 22273-22528. -/
def ucd87 : List UcdRow := []

/-- src/u5e/props/UnicodeData.txt, relevant lines among 22529-22784. -/
def ucd88 : List UcdRow := []

/-- src/u5e/props/UnicodeData.txt, relevant lines among 22785-23040. -/
def ucd89 : List UcdRow := []

/-- src/u5e/props/UnicodeData.txt, relevant lines among 23041-23296. -/
def ucd90 : List UcdRow := []

/-- src/u5e/props/UnicodeData.txt, relevant lines among 23297-23552. -/
def ucd91 : List UcdRow := []

/-- src/u5e/props/UnicodeData.txt, relevant lines among 23553-23808. -/
def ucd92 : List UcdRow := []

/-- src/u5e/props/UnicodeData.txt, relevant lines among 23809-24064. -/
def ucd93 : List UcdRow := [
  ⟨92912, 1, 0, []⟩,
  ⟨92913, 1, 0, []⟩,
  ⟨92914, 1, 0, []⟩,
  ⟨92915, 1, 0, []⟩,
  ⟨92916, 1, 0, []⟩,
  ⟨92976, 230, 0, []⟩,
  ⟨92977, 230, 0, []⟩,
  ⟨92978, 230, 0, []⟩,
  ⟨92979, 230, 0, []⟩,
  ⟨92980, 230, 0, []⟩,
  ⟨92981, 230, 0, []⟩,
  ⟨92982, 230, 0, []⟩]

/-- src/u5e/props/UnicodeData.txt, relevant lines among 24065-24320. -/
def ucd94 : List UcdRow := []

/-- src/u5e/props/UnicodeData.txt, relevant lines among 24321-24576. -/
def ucd95 : List UcdRow := []

/-- src/u5e/props/UnicodeData.txt, relevant lines among 24577-24832. -/
def ucd96 : List UcdRow := []

/-- src/u5e/props/UnicodeData.txt, relevant lines among 24833-25088. -/
def ucd97 : List UcdRow := [
  ⟨113822, 1, 0, []⟩]

/-- src/u5e/props/UnicodeData.txt, relevant lines among 25089-25344. -/
def ucd98 : List UcdRow := [
  ⟨119134, 0, 0, [119127, 119141]⟩,
  ⟨119135, 0, 0, [119128, 119141]⟩,
  ⟨119136, 0, 0, [119135, 119150]⟩,
  ⟨119137, 0, 0, [119135, 119151]⟩,
  ⟨119138, 0, 0, [119135, 119152]⟩,
  ⟨119139, 0, 0, [119135, 119153]⟩,
  ⟨119140, 0, 0, [119135, 119154]⟩,
  ⟨119141, 216, 0, []⟩,
  ⟨119142, 216, 0, []⟩,
  ⟨119143, 1, 0, []⟩,
  ⟨119144, 1, 0, []⟩]

/-- src/u5e/props/UnicodeData.txt, relevant lines among 25345-25600. -/
def ucd99 : List UcdRow := [
  ⟨119145, 1, 0, []⟩,
  ⟨119149, 226, 0, []⟩,
  ⟨119150, 216, 0, []⟩,
  ⟨119151, 216, 0, []⟩,
  ⟨119152, 216, 0, []⟩,
  ⟨119153, 216, 0, []⟩,
  ⟨119154, 216, 0, []⟩,
  ⟨119163, 220, 0, []⟩,
  ⟨119164, 220, 0, []⟩,
  ⟨119165, 220, 0, []⟩,
  ⟨119166, 220, 0, []⟩,
  ⟨119167, 220, 0, []⟩,
  ⟨119168, 220, 0, []⟩,
  ⟨119169, 220, 0, []⟩,
  ⟨119170, 220, 0, []⟩,
  ⟨119173, 230, 0, []⟩,
  ⟨119174, 230, 0, []⟩,
  ⟨119175, 230, 0, []⟩,
  ⟨119176, 230, 0, []⟩,
  ⟨119177, 230, 0, []⟩,
  ⟨119178, 220, 0, []⟩,
  ⟨119179, 220, 0, []⟩,
  ⟨119210, 230, 0, []⟩,
  ⟨119211, 230, 0, []⟩,
  ⟨119212, 230, 0, []⟩,
  ⟨119213, 230, 0, []⟩,
  ⟨119227, 0, 0, [119225, 119141]⟩,
  ⟨119228, 0, 0, [119226, 119141]⟩,
  ⟨119229, 0, 0, [119227, 119150]⟩,
  ⟨119230, 0, 0, [119228, 119150]⟩,
  ⟨119231, 0, 0, [119227, 119151]⟩,
  ⟨119232, 0, 0, [119228, 119151]⟩,
  ⟨119362, 230, 0, []⟩,
  ⟨119363, 230, 0, []⟩,
  ⟨119364, 230, 0, []⟩]

/-- src/u5e/props/UnicodeData.txt, relevant lines among 25601-25856. -/
def ucd100 : List UcdRow := [
  ⟨119808, 0, 2, [65]⟩,
  ⟨119809, 0, 2, [66]⟩,
  ⟨119810, 0, 2, [67]⟩,
  ⟨119811, 0, 2, [68]⟩,
  ⟨119812, 0, 2, [69]⟩,
  ⟨119813, 0, 2, [70]⟩,
  ⟨119814, 0, 2, [71]⟩,
  ⟨119815, 0, 2, [72]⟩,
  ⟨119816, 0, 2, [73]⟩,
  ⟨119817, 0, 2, [74]⟩,
  ⟨119818, 0, 2, [75]⟩,
  ⟨119819, 0, 2, [76]⟩,
  ⟨119820, 0, 2, [77]⟩,
  ⟨119821, 0, 2, [78]⟩,
  ⟨119822, 0, 2, [79]⟩,
  ⟨119823, 0, 2, [80]⟩,
  ⟨119824, 0, 2, [81]⟩,
  ⟨119825, 0, 2, [82]⟩,
  ⟨119826, 0, 2, [83]⟩,
  ⟨119827, 0, 2, [84]⟩,
  ⟨119828, 0, 2, [85]⟩,
  ⟨119829, 0, 2, [86]⟩,
  ⟨119830, 0, 2, [87]⟩,
  ⟨119831, 0, 2, [88]⟩,
  ⟨119832, 0, 2, [89]⟩,
  ⟨119833, 0, 2, [90]⟩,
  ⟨119834, 0, 2, [97]⟩,
  ⟨119835, 0, 2, [98]⟩,
  ⟨119836, 0, 2, [99]⟩,
  ⟨119837, 0, 2, [100]⟩,
  ⟨119838, 0, 2, [101]⟩,
  ⟨119839, 0, 2, [102]⟩,
  ⟨119840, 0, 2, [103]⟩,
  ⟨119841, 0, 2, [104]⟩,
  ⟨119842, 0, 2, [105]⟩,
  ⟨119843, 0, 2, [106]⟩,
  ⟨119844, 0, 2, [107]⟩,
  ⟨119845, 0, 2, [108]⟩,
  ⟨119846, 0, 2, [109]⟩,
  ⟨119847, 0, 2, [110]⟩,
  ⟨119848, 0, 2, [111]⟩,
  ⟨119849, 0, 2, [112]⟩,
  ⟨119850, 0, 2, [113]⟩,
  ⟨119851, 0, 2, [114]⟩,
  ⟨119852, 0, 2, [115]⟩,
  ⟨119853, 0, 2, [116]⟩,
  ⟨119854, 0, 2, [117]⟩,
  ⟨119855, 0, 2, [118]⟩,
  ⟨119856, 0, 2, [119]⟩,
  ⟨119857, 0, 2, [120]⟩,
  ⟨119858, 0, 2, [121]⟩,
  ⟨119859, 0, 2, [122]⟩,
  ⟨119860, 0, 2, [65]⟩,
  ⟨119861, 0, 2, [66]⟩,
  ⟨119862, 0, 2, [67]⟩,
  ⟨119863, 0, 2, [68]⟩,
  ⟨119864, 0, 2, [69]⟩,
  ⟨119865, 0, 2, [70]⟩,
  ⟨119866, 0, 2, [71]⟩,
  ⟨119867, 0, 2, [72]⟩,
  ⟨119868, 0, 2, [73]⟩,
  ⟨119869, 0, 2, [74]⟩,
  ⟨119870, 0, 2, [75]⟩,
  ⟨119871, 0, 2, [76]⟩,
  ⟨119872, 0, 2, [77]⟩,
  ⟨119873, 0, 2, [78]⟩,
  ⟨119874, 0, 2, [79]⟩,
  ⟨119875, 0, 2, [80]⟩,
  ⟨119876, 0, 2, [81]⟩,
  ⟨119877, 0, 2, [82]⟩,
  ⟨119878, 0, 2, [83]⟩,
  ⟨119879, 0, 2, [84]⟩,
  ⟨119880, 0, 2, [85]⟩,
  ⟨119881, 0, 2, [86]⟩,
  ⟨119882, 0, 2, [87]⟩,
  ⟨119883, 0, 2, [88]⟩,
  ⟨119884, 0, 2, [89]⟩,
  ⟨119885, 0, 2, [90]⟩,
  ⟨119886, 0, 2, [97]⟩,
  ⟨119887, 0, 2, [98]⟩,
  ⟨119888, 0, 2, [99]⟩,
  ⟨119889, 0, 2, [100]⟩,
  ⟨119890, 0, 2, [101]⟩,
  ⟨119891, 0, 2, [102]⟩,
  ⟨119892, 0, 2, [103]⟩,
  ⟨119894, 0, 2, [105]⟩,
  ⟨119895, 0, 2, [106]⟩,
  ⟨119896, 0, 2, [107]⟩,
  ⟨119897, 0, 2, [108]⟩,
  ⟨119898, 0, 2, [109]⟩,
  ⟨119899, 0, 2, [110]⟩,
  ⟨119900, 0, 2, [111]⟩,
  ⟨119901, 0, 2, [112]⟩,
  ⟨119902, 0, 2, [113]⟩,
  ⟨119903, 0, 2, [114]⟩,
  ⟨119904, 0, 2, [115]⟩,
  ⟨119905, 0, 2, [116]⟩,
  ⟨119906, 0, 2, [117]⟩,
  ⟨119907, 0, 2, [118]⟩,
  ⟨119908, 0, 2, [119]⟩,
  ⟨119909, 0, 2, [120]⟩,
  ⟨119910, 0, 2, [121]⟩,
  ⟨119911, 0, 2, [122]⟩,
  ⟨119912, 0, 2, [65]⟩,
  ⟨119913, 0, 2, [66]⟩,
  ⟨119914, 0, 2, [67]⟩,
  ⟨119915, 0, 2, [68]⟩,
  ⟨119916, 0, 2, [69]⟩,
  ⟨119917, 0, 2, [70]⟩,
  ⟨119918, 0, 2, [71]⟩,
  ⟨119919, 0, 2, [72]⟩,
  ⟨119920, 0, 2, [73]⟩,
  ⟨119921, 0, 2, [74]⟩,
  ⟨119922, 0, 2, [75]⟩,
  ⟨119923, 0, 2, [76]⟩,
  ⟨119924, 0, 2, [77]⟩,
  ⟨119925, 0, 2, [78]⟩,
  ⟨119926, 0, 2, [79]⟩,
  ⟨119927, 0, 2, [80]⟩,
  ⟨119928, 0, 2, [81]⟩,
  ⟨119929, 0, 2, [82]⟩,
  ⟨119930, 0, 2, [83]⟩,
  ⟨119931, 0, 2, [84]⟩,
  ⟨119932, 0, 2, [85]⟩,
  ⟨119933, 0, 2, [86]⟩,
  ⟨119934, 0, 2, [87]⟩,
  ⟨119935, 0, 2, [88]⟩,
  ⟨119936, 0, 2, [89]⟩,
  ⟨119937, 0, 2, [90]⟩,
  ⟨119938, 0, 2, [97]⟩,
  ⟨119939, 0, 2, [98]⟩,
  ⟨119940, 0, 2, [99]⟩,
  ⟨119941, 0, 2, [100]⟩,
  ⟨119942, 0, 2, [101]⟩,
  ⟨119943, 0, 2, [102]⟩,
  ⟨119944, 0, 2, [103]⟩,
  ⟨119945, 0, 2, [104]⟩,
  ⟨119946, 0, 2, [105]⟩,
  ⟨119947, 0, 2, [106]⟩,
  ⟨119948, 0, 2, [107]⟩,
  ⟨119949, 0, 2, [108]⟩,
  ⟨119950, 0, 2, [109]⟩,
  ⟨119951, 0, 2, [110]⟩,
  ⟨119952, 0, 2, [111]⟩,
  ⟨119953, 0, 2, [112]⟩,
  ⟨119954, 0, 2, [113]⟩,
  ⟨119955, 0, 2, [114]⟩,
  ⟨119956, 0, 2, [115]⟩,
  ⟨119957, 0, 2, [116]⟩,
  ⟨119958, 0, 2, [117]⟩,
  ⟨119959, 0, 2, [118]⟩,
  ⟨119960, 0, 2, [119]⟩,
  ⟨119961, 0, 2, [120]⟩,
  ⟨119962, 0, 2, [121]⟩,
  ⟨119963, 0, 2, [122]⟩,
  ⟨119964, 0, 2, [65]⟩,
  ⟨119966, 0, 2, [67]⟩,
  ⟨119967, 0, 2, [68]⟩,
  ⟨119970, 0, 2, [71]⟩,
  ⟨119973, 0, 2, [74]⟩,
  ⟨119974, 0, 2, [75]⟩,
  ⟨119977, 0, 2, [78]⟩,
  ⟨119978, 0, 2, [79]⟩,
  ⟨119979, 0, 2, [80]⟩,
  ⟨119980, 0, 2, [81]⟩,
  ⟨119982, 0, 2, [83]⟩,
  ⟨119983, 0, 2, [84]⟩,
  ⟨119984, 0, 2, [85]⟩,
  ⟨119985, 0, 2, [86]⟩,
  ⟨119986, 0, 2, [87]⟩,
  ⟨119987, 0, 2, [88]⟩,
  ⟨119988, 0, 2, [89]⟩,
  ⟨119989, 0, 2, [90]⟩,
  ⟨119990, 0, 2, [97]⟩,
  ⟨119991, 0, 2, [98]⟩,
  ⟨119992, 0, 2, [99]⟩,
  ⟨119993, 0, 2, [100]⟩,
  ⟨119995, 0, 2, [102]⟩,
  ⟨119997, 0, 2, [104]⟩,
  ⟨119998, 0, 2, [105]⟩,
  ⟨119999, 0, 2, [106]⟩,
  ⟨120000, 0, 2, [107]⟩,
  ⟨120001, 0, 2, [108]⟩,
  ⟨120002, 0, 2, [109]⟩,
  ⟨120003, 0, 2, [110]⟩,
  ⟨120005, 0, 2, [112]⟩,
  ⟨120006, 0, 2, [113]⟩,
  ⟨120007, 0, 2, [114]⟩,
  ⟨120008, 0, 2, [115]⟩,
  ⟨120009, 0, 2, [116]⟩,
  ⟨120010, 0, 2, [117]⟩,
  ⟨120011, 0, 2, [118]⟩,
  ⟨120012, 0, 2, [119]⟩,
  ⟨120013, 0, 2, [120]⟩,
  ⟨120014, 0, 2, [121]⟩,
  ⟨120015, 0, 2, [122]⟩,
  ⟨120016, 0, 2, [65]⟩,
  ⟨120017, 0, 2, [66]⟩,
  ⟨120018, 0, 2, [67]⟩,
  ⟨120019, 0, 2, [68]⟩,
  ⟨120020, 0, 2, [69]⟩,
  ⟨120021, 0, 2, [70]⟩,
  ⟨120022, 0, 2, [71]⟩,
  ⟨120023, 0, 2, [72]⟩,
  ⟨120024, 0, 2, [73]⟩,
  ⟨120025, 0, 2, [74]⟩,
  ⟨120026, 0, 2, [75]⟩,
  ⟨120027, 0, 2, [76]⟩,
  ⟨120028, 0, 2, [77]⟩]

/-- src/u5e/props/UnicodeData.txt, relevant lines among 25857-26112. -/
def ucd101 : List UcdRow := [
  ⟨120029, 0, 2, [78]⟩,
  ⟨120030, 0, 2, [79]⟩,
  ⟨120031, 0, 2, [80]⟩,
  ⟨120032, 0, 2, [81]⟩,
  ⟨120033, 0, 2, [82]⟩,
  ⟨120034, 0, 2, [83]⟩,
  ⟨120035, 0, 2, [84]⟩,
  ⟨120036, 0, 2, [85]⟩,
  ⟨120037, 0, 2, [86]⟩,
  ⟨120038, 0, 2, [87]⟩,
  ⟨120039, 0, 2, [88]⟩,
  ⟨120040, 0, 2, [89]⟩,
  ⟨120041, 0, 2, [90]⟩,
  ⟨120042, 0, 2, [97]⟩,
  ⟨120043, 0, 2, [98]⟩,
  ⟨120044, 0, 2, [99]⟩,
  ⟨120045, 0, 2, [100]⟩,
  ⟨120046, 0, 2, [101]⟩,
  ⟨120047, 0, 2, [102]⟩,
  ⟨120048, 0, 2, [103]⟩,
  ⟨120049, 0, 2, [104]⟩,
  ⟨120050, 0, 2, [105]⟩,
  ⟨120051, 0, 2, [106]⟩,
  ⟨120052, 0, 2, [107]⟩,
  ⟨120053, 0, 2, [108]⟩,
  ⟨120054, 0, 2, [109]⟩,
  ⟨120055, 0, 2, [110]⟩,
  ⟨120056, 0, 2, [111]⟩,
  ⟨120057, 0, 2, [112]⟩,
  ⟨120058, 0, 2, [113]⟩,
  ⟨120059, 0, 2, [114]⟩,
  ⟨120060, 0, 2, [115]⟩,
  ⟨120061, 0, 2, [116]⟩,
  ⟨120062, 0, 2, [117]⟩,
  ⟨120063, 0, 2, [118]⟩,
  ⟨120064, 0, 2, [119]⟩,
  ⟨120065, 0, 2, [120]⟩,
  ⟨120066, 0, 2, [121]⟩,
  ⟨120067, 0, 2, [122]⟩,
  ⟨120068, 0, 2, [65]⟩,
  ⟨120069, 0, 2, [66]⟩,
  ⟨120071, 0, 2, [68]⟩,
  ⟨120072, 0, 2, [69]⟩,
  ⟨120073, 0, 2, [70]⟩,
  ⟨120074, 0, 2, [71]⟩,
  ⟨120077, 0, 2, [74]⟩,
  ⟨120078, 0, 2, [75]⟩,
  ⟨120079, 0, 2, [76]⟩,
  ⟨120080, 0, 2, [77]⟩,
  ⟨120081, 0, 2, [78]⟩,
  ⟨120082, 0, 2, [79]⟩,
  ⟨120083, 0, 2, [80]⟩,
  ⟨120084, 0, 2, [81]⟩,
  ⟨120086, 0, 2, [83]⟩,
  ⟨120087, 0, 2, [84]⟩,
  ⟨120088, 0, 2, [85]⟩,
  ⟨120089, 0, 2, [86]⟩,
  ⟨120090, 0, 2, [87]⟩,
  ⟨120091, 0, 2, [88]⟩,
  ⟨120092, 0, 2, [89]⟩,
  ⟨120094, 0, 2, [97]⟩,
  ⟨120095, 0, 2, [98]⟩,
  ⟨120096, 0, 2, [99]⟩,
  ⟨120097, 0, 2, [100]⟩,
  ⟨120098, 0, 2, [101]⟩,
  ⟨120099, 0, 2, [102]⟩,
  ⟨120100, 0, 2, [103]⟩,
  ⟨120101, 0, 2, [104]⟩,
  ⟨120102, 0, 2, [105]⟩,
  ⟨120103, 0, 2, [106]⟩,
  ⟨120104, 0, 2, [107]⟩,
  ⟨120105, 0, 2, [108]⟩,
  ⟨120106, 0, 2, [109]⟩,
  ⟨120107, 0, 2, [110]⟩,
  ⟨120108, 0, 2, [111]⟩,
  ⟨120109, 0, 2, [112]⟩,
  ⟨120110, 0, 2, [113]⟩,
  ⟨120111, 0, 2, [114]⟩,
  ⟨120112, 0, 2, [115]⟩,
  ⟨120113, 0, 2, [116]⟩,
  ⟨120114, 0, 2, [117]⟩,
  ⟨120115, 0, 2, [118]⟩,
  ⟨120116, 0, 2, [119]⟩,
  ⟨120117, 0, 2, [120]⟩,
  ⟨120118, 0, 2, [121]⟩,
  ⟨120119, 0, 2, [122]⟩,
  ⟨120120, 0, 2, [65]⟩,
  ⟨120121, 0, 2, [66]⟩,
  ⟨120123, 0, 2, [68]⟩,
  ⟨120124, 0, 2, [69]⟩,
  ⟨120125, 0, 2, [70]⟩,
  ⟨120126, 0, 2, [71]⟩,
  ⟨120128, 0, 2, [73]⟩,
  ⟨120129, 0, 2, [74]⟩,
  ⟨120130, 0, 2, [75]⟩,
  ⟨120131, 0, 2, [76]⟩,
  ⟨120132, 0, 2, [77]⟩,
  ⟨120134, 0, 2, [79]⟩,
  ⟨120138, 0, 2, [83]⟩,
  ⟨120139, 0, 2, [84]⟩,
  ⟨120140, 0, 2, [85]⟩,
  ⟨120141, 0, 2, [86]⟩,
  ⟨120142, 0, 2, [87]⟩,
  ⟨120143, 0, 2, [88]⟩,
  ⟨120144, 0, 2, [89]⟩,
  ⟨120146, 0, 2, [97]⟩,
  ⟨120147, 0, 2, [98]⟩,
  ⟨120148, 0, 2, [99]⟩,
  ⟨120149, 0, 2, [100]⟩,
  ⟨120150, 0, 2, [101]⟩,
  ⟨120151, 0, 2, [102]⟩,
  ⟨120152, 0, 2, [103]⟩,
  ⟨120153, 0, 2, [104]⟩,
  ⟨120154, 0, 2, [105]⟩,
  ⟨120155, 0, 2, [106]⟩,
  ⟨120156, 0, 2, [107]⟩,
  ⟨120157, 0, 2, [108]⟩,
  ⟨120158, 0, 2, [109]⟩,
  ⟨120159, 0, 2, [110]⟩,
  ⟨120160, 0, 2, [111]⟩,
  ⟨120161, 0, 2, [112]⟩,
  ⟨120162, 0, 2, [113]⟩,
  ⟨120163, 0, 2, [114]⟩,
  ⟨120164, 0, 2, [115]⟩,
  ⟨120165, 0, 2, [116]⟩,
  ⟨120166, 0, 2, [117]⟩,
  ⟨120167, 0, 2, [118]⟩,
  ⟨120168, 0, 2, [119]⟩,
  ⟨120169, 0, 2, [120]⟩,
  ⟨120170, 0, 2, [121]⟩,
  ⟨120171, 0, 2, [122]⟩,
  ⟨120172, 0, 2, [65]⟩,
  ⟨120173, 0, 2, [66]⟩,
  ⟨120174, 0, 2, [67]⟩,
  ⟨120175, 0, 2, [68]⟩,
  ⟨120176, 0, 2, [69]⟩,
  ⟨120177, 0, 2, [70]⟩,
  ⟨120178, 0, 2, [71]⟩,
  ⟨120179, 0, 2, [72]⟩,
  ⟨120180, 0, 2, [73]⟩,
  ⟨120181, 0, 2, [74]⟩,
  ⟨120182, 0, 2, [75]⟩,
  ⟨120183, 0, 2, [76]⟩,
  ⟨120184, 0, 2, [77]⟩,
  ⟨120185, 0, 2, [78]⟩,
  ⟨120186, 0, 2, [79]⟩,
  ⟨120187, 0, 2, [80]⟩,
  ⟨120188, 0, 2, [81]⟩,
  ⟨120189, 0, 2, [82]⟩,
  ⟨120190, 0, 2, [83]⟩,
  ⟨120191, 0, 2, [84]⟩,
  ⟨120192, 0, 2, [85]⟩,
  ⟨120193, 0, 2, [86]⟩,
  ⟨120194, 0, 2, [87]⟩,
  ⟨120195, 0, 2, [88]⟩,
  ⟨120196, 0, 2, [89]⟩,
  ⟨120197, 0, 2, [90]⟩,
  ⟨120198, 0, 2, [97]⟩,
  ⟨120199, 0, 2, [98]⟩,
  ⟨120200, 0, 2, [99]⟩,
  ⟨120201, 0, 2, [100]⟩,
  ⟨120202, 0, 2, [101]⟩,
  ⟨120203, 0, 2, [102]⟩,
  ⟨120204, 0, 2, [103]⟩,
  ⟨120205, 0, 2, [104]⟩,
  ⟨120206, 0, 2, [105]⟩,
  ⟨120207, 0, 2, [106]⟩,
  ⟨120208, 0, 2, [107]⟩,
  ⟨120209, 0, 2, [108]⟩,
  ⟨120210, 0, 2, [109]⟩,
  ⟨120211, 0, 2, [110]⟩,
  ⟨120212, 0, 2, [111]⟩,
  ⟨120213, 0, 2, [112]⟩,
  ⟨120214, 0, 2, [113]⟩,
  ⟨120215, 0, 2, [114]⟩,
  ⟨120216, 0, 2, [115]⟩,
  ⟨120217, 0, 2, [116]⟩,
  ⟨120218, 0, 2, [117]⟩,
  ⟨120219, 0, 2, [118]⟩,
  ⟨120220, 0, 2, [119]⟩,
  ⟨120221, 0, 2, [120]⟩,
  ⟨120222, 0, 2, [121]⟩,
  ⟨120223, 0, 2, [122]⟩,
  ⟨120224, 0, 2, [65]⟩,
  ⟨120225, 0, 2, [66]⟩,
  ⟨120226, 0, 2, [67]⟩,
  ⟨120227, 0, 2, [68]⟩,
  ⟨120228, 0, 2, [69]⟩,
  ⟨120229, 0, 2, [70]⟩,
  ⟨120230, 0, 2, [71]⟩,
  ⟨120231, 0, 2, [72]⟩,
  ⟨120232, 0, 2, [73]⟩,
  ⟨120233, 0, 2, [74]⟩,
  ⟨120234, 0, 2, [75]⟩,
  ⟨120235, 0, 2, [76]⟩,
  ⟨120236, 0, 2, [77]⟩,
  ⟨120237, 0, 2, [78]⟩,
  ⟨120238, 0, 2, [79]⟩,
  ⟨120239, 0, 2, [80]⟩,
  ⟨120240, 0, 2, [81]⟩,
  ⟨120241, 0, 2, [82]⟩,
  ⟨120242, 0, 2, [83]⟩,
  ⟨120243, 0, 2, [84]⟩,
  ⟨120244, 0, 2, [85]⟩,
  ⟨120245, 0, 2, [86]⟩,
  ⟨120246, 0, 2, [87]⟩,
  ⟨120247, 0, 2, [88]⟩,
  ⟨120248, 0, 2, [89]⟩,
  ⟨120249, 0, 2, [90]⟩,
  ⟨120250, 0, 2, [97]⟩,
  ⟨120251, 0, 2, [98]⟩,
  ⟨120252, 0, 2, [99]⟩,
  ⟨120253, 0, 2, [100]⟩,
  ⟨120254, 0, 2, [101]⟩,
  ⟨120255, 0, 2, [102]⟩,
  ⟨120256, 0, 2, [103]⟩,
  ⟨120257, 0, 2, [104]⟩,
  ⟨120258, 0, 2, [105]⟩,
  ⟨120259, 0, 2, [106]⟩,
  ⟨120260, 0, 2, [107]⟩,
  ⟨120261, 0, 2, [108]⟩,
  ⟨120262, 0, 2, [109]⟩,
  ⟨120263, 0, 2, [110]⟩,
  ⟨120264, 0, 2, [111]⟩,
  ⟨120265, 0, 2, [112]⟩,
  ⟨120266, 0, 2, [113]⟩,
  ⟨120267, 0, 2, [114]⟩,
  ⟨120268, 0, 2, [115]⟩,
  ⟨120269, 0, 2, [116]⟩,
  ⟨120270, 0, 2, [117]⟩,
  ⟨120271, 0, 2, [118]⟩,
  ⟨120272, 0, 2, [119]⟩,
  ⟨120273, 0, 2, [120]⟩,
  ⟨120274, 0, 2, [121]⟩,
  ⟨120275, 0, 2, [122]⟩,
  ⟨120276, 0, 2, [65]⟩,
  ⟨120277, 0, 2, [66]⟩,
  ⟨120278, 0, 2, [67]⟩,
  ⟨120279, 0, 2, [68]⟩,
  ⟨120280, 0, 2, [69]⟩,
  ⟨120281, 0, 2, [70]⟩,
  ⟨120282, 0, 2, [71]⟩,
  ⟨120283, 0, 2, [72]⟩,
  ⟨120284, 0, 2, [73]⟩,
  ⟨120285, 0, 2, [74]⟩,
  ⟨120286, 0, 2, [75]⟩,
  ⟨120287, 0, 2, [76]⟩,
  ⟨120288, 0, 2, [77]⟩,
  ⟨120289, 0, 2, [78]⟩,
  ⟨120290, 0, 2, [79]⟩,
  ⟨120291, 0, 2, [80]⟩,
  ⟨120292, 0, 2, [81]⟩,
  ⟨120293, 0, 2, [82]⟩,
  ⟨120294, 0, 2, [83]⟩,
  ⟨120295, 0, 2, [84]⟩,
  ⟨120296, 0, 2, [85]⟩]

/-- src/u5e/props/UnicodeData.txt, relevant lines among 26113-26368. -/
def ucd102 : List UcdRow := [
  ⟨120297, 0, 2, [86]⟩,
  ⟨120298, 0, 2, [87]⟩,
  ⟨120299, 0, 2, [88]⟩,
  ⟨120300, 0, 2, [89]⟩,
  ⟨120301, 0, 2, [90]⟩,
  ⟨120302, 0, 2, [97]⟩,
  ⟨120303, 0, 2, [98]⟩,
  ⟨120304, 0, 2, [99]⟩,
  ⟨120305, 0, 2, [100]⟩,
  ⟨120306, 0, 2, [101]⟩,
  ⟨120307, 0, 2, [102]⟩,
  ⟨120308, 0, 2, [103]⟩,
  ⟨120309, 0, 2, [104]⟩,
  ⟨120310, 0, 2, [105]⟩,
  ⟨120311, 0, 2, [106]⟩,
  ⟨120312, 0, 2, [107]⟩,
  ⟨120313, 0, 2, [108]⟩,
  ⟨120314, 0, 2, [109]⟩,
  ⟨120315, 0, 2, [110]⟩,
  ⟨120316, 0, 2, [111]⟩,
  ⟨120317, 0, 2, [112]⟩,
  ⟨120318, 0, 2, [113]⟩,
  ⟨120319, 0, 2, [114]⟩,
  ⟨120320, 0, 2, [115]⟩,
  ⟨120321, 0, 2, [116]⟩,
  ⟨120322, 0, 2, [117]⟩,
  ⟨120323, 0, 2, [118]⟩,
  ⟨120324, 0, 2, [119]⟩,
  ⟨120325, 0, 2, [120]⟩,
  ⟨120326, 0, 2, [121]⟩,
  ⟨120327, 0, 2, [122]⟩,
  ⟨120328, 0, 2, [65]⟩,
  ⟨120329, 0, 2, [66]⟩,
  ⟨120330, 0, 2, [67]⟩,
  ⟨120331, 0, 2, [68]⟩,
  ⟨120332, 0, 2, [69]⟩,
  ⟨120333, 0, 2, [70]⟩,
  ⟨120334, 0, 2, [71]⟩,
  ⟨120335, 0, 2, [72]⟩,
  ⟨120336, 0, 2, [73]⟩,
  ⟨120337, 0, 2, [74]⟩,
  ⟨120338, 0, 2, [75]⟩,
  ⟨120339, 0, 2, [76]⟩,
  ⟨120340, 0, 2, [77]⟩,
  ⟨120341, 0, 2, [78]⟩,
  ⟨120342, 0, 2, [79]⟩,
  ⟨120343, 0, 2, [80]⟩,
  ⟨120344, 0, 2, [81]⟩,
  ⟨120345, 0, 2, [82]⟩,
  ⟨120346, 0, 2, [83]⟩,
  ⟨120347, 0, 2, [84]⟩,
  ⟨120348, 0, 2, [85]⟩,
  ⟨120349, 0, 2, [86]⟩,
  ⟨120350, 0, 2, [87]⟩,
  ⟨120351, 0, 2, [88]⟩,
  ⟨120352, 0, 2, [89]⟩,
  ⟨120353, 0, 2, [90]⟩,
  ⟨120354, 0, 2, [97]⟩,
  ⟨120355, 0, 2, [98]⟩,
  ⟨120356, 0, 2, [99]⟩,
  ⟨120357, 0, 2, [100]⟩,
  ⟨120358, 0, 2, [101]⟩,
  ⟨120359, 0, 2, [102]⟩,
  ⟨120360, 0, 2, [103]⟩,
  ⟨120361, 0, 2, [104]⟩,
  ⟨120362, 0, 2, [105]⟩,
  ⟨120363, 0, 2, [106]⟩,
  ⟨120364, 0, 2, [107]⟩,
  ⟨120365, 0, 2, [108]⟩,
  ⟨120366, 0, 2, [109]⟩,
  ⟨120367, 0, 2, [110]⟩,
  ⟨120368, 0, 2, [111]⟩,
  ⟨120369, 0, 2, [112]⟩,
  ⟨120370, 0, 2, [113]⟩,
  ⟨120371, 0, 2, [114]⟩,
  ⟨120372, 0, 2, [115]⟩,
  ⟨120373, 0, 2, [116]⟩,
  ⟨120374, 0, 2, [117]⟩,
  ⟨120375, 0, 2, [118]⟩,
  ⟨120376, 0, 2, [119]⟩,
  ⟨120377, 0, 2, [120]⟩,
  ⟨120378, 0, 2, [121]⟩,
  ⟨120379, 0, 2, [122]⟩,
  ⟨120380, 0, 2, [65]⟩,
  ⟨120381, 0, 2, [66]⟩,
  ⟨120382, 0, 2, [67]⟩,
  ⟨120383, 0, 2, [68]⟩,
  ⟨120384, 0, 2, [69]⟩,
  ⟨120385, 0, 2, [70]⟩,
  ⟨120386, 0, 2, [71]⟩,
  ⟨120387, 0, 2, [72]⟩,
  ⟨120388, 0, 2, [73]⟩,
  ⟨120389, 0, 2, [74]⟩,
  ⟨120390, 0, 2, [75]⟩,
  ⟨120391, 0, 2, [76]⟩,
  ⟨120392, 0, 2, [77]⟩,
  ⟨120393, 0, 2, [78]⟩,
  ⟨120394, 0, 2, [79]⟩,
  ⟨120395, 0, 2, [80]⟩,
  ⟨120396, 0, 2, [81]⟩,
  ⟨120397, 0, 2, [82]⟩,
  ⟨120398, 0, 2, [83]⟩,
  ⟨120399, 0, 2, [84]⟩,
  ⟨120400, 0, 2, [85]⟩,
  ⟨120401, 0, 2, [86]⟩,
  ⟨120402, 0, 2, [87]⟩,
  ⟨120403, 0, 2, [88]⟩,
  ⟨120404, 0, 2, [89]⟩,
  ⟨120405, 0, 2, [90]⟩,
  ⟨120406, 0, 2, [97]⟩,
  ⟨120407, 0, 2, [98]⟩,
  ⟨120408, 0, 2, [99]⟩,
  ⟨120409, 0, 2, [100]⟩,
  ⟨120410, 0, 2, [101]⟩,
  ⟨120411, 0, 2, [102]⟩,
  ⟨120412, 0, 2, [103]⟩,
  ⟨120413, 0, 2, [104]⟩,
  ⟨120414, 0, 2, [105]⟩,
  ⟨120415, 0, 2, [106]⟩,
  ⟨120416, 0, 2, [107]⟩,
  ⟨120417, 0, 2, [108]⟩,
  ⟨120418, 0, 2, [109]⟩,
  ⟨120419, 0, 2, [110]⟩,
  ⟨120420, 0, 2, [111]⟩,
  ⟨120421, 0, 2, [112]⟩,
  ⟨120422, 0, 2, [113]⟩,
  ⟨120423, 0, 2, [114]⟩,
  ⟨120424, 0, 2, [115]⟩,
  ⟨120425, 0, 2, [116]⟩,
  ⟨120426, 0, 2, [117]⟩,
  ⟨120427, 0, 2, [118]⟩,
  ⟨120428, 0, 2, [119]⟩,
  ⟨120429, 0, 2, [120]⟩,
  ⟨120430, 0, 2, [121]⟩,
  ⟨120431, 0, 2, [122]⟩,
  ⟨120432, 0, 2, [65]⟩,
  ⟨120433, 0, 2, [66]⟩,
  ⟨120434, 0, 2, [67]⟩,
  ⟨120435, 0, 2, [68]⟩,
  ⟨120436, 0, 2, [69]⟩,
  ⟨120437, 0, 2, [70]⟩,
  ⟨120438, 0, 2, [71]⟩,
  ⟨120439, 0, 2, [72]⟩,
  ⟨120440, 0, 2, [73]⟩,
  ⟨120441, 0, 2, [74]⟩,
  ⟨120442, 0, 2, [75]⟩,
  ⟨120443, 0, 2, [76]⟩,
  ⟨120444, 0, 2, [77]⟩,
  ⟨120445, 0, 2, [78]⟩,
  ⟨120446, 0, 2, [79]⟩,
  ⟨120447, 0, 2, [80]⟩,
  ⟨120448, 0, 2, [81]⟩,
  ⟨120449, 0, 2, [82]⟩,
  ⟨120450, 0, 2, [83]⟩,
  ⟨120451, 0, 2, [84]⟩,
  ⟨120452, 0, 2, [85]⟩,
  ⟨120453, 0, 2, [86]⟩,
  ⟨120454, 0, 2, [87]⟩,
  ⟨120455, 0, 2, [88]⟩,
  ⟨120456, 0, 2, [89]⟩,
  ⟨120457, 0, 2, [90]⟩,
  ⟨120458, 0, 2, [97]⟩,
  ⟨120459, 0, 2, [98]⟩,
  ⟨120460, 0, 2, [99]⟩,
  ⟨120461, 0, 2, [100]⟩,
  ⟨120462, 0, 2, [101]⟩,
  ⟨120463, 0, 2, [102]⟩,
  ⟨120464, 0, 2, [103]⟩,
  ⟨120465, 0, 2, [104]⟩,
  ⟨120466, 0, 2, [105]⟩,
  ⟨120467, 0, 2, [106]⟩,
  ⟨120468, 0, 2, [107]⟩,
  ⟨120469, 0, 2, [108]⟩,
  ⟨120470, 0, 2, [109]⟩,
  ⟨120471, 0, 2, [110]⟩,
  ⟨120472, 0, 2, [111]⟩,
  ⟨120473, 0, 2, [112]⟩,
  ⟨120474, 0, 2, [113]⟩,
  ⟨120475, 0, 2, [114]⟩,
  ⟨120476, 0, 2, [115]⟩,
  ⟨120477, 0, 2, [116]⟩,
  ⟨120478, 0, 2, [117]⟩,
  ⟨120479, 0, 2, [118]⟩,
  ⟨120480, 0, 2, [119]⟩,
  ⟨120481, 0, 2, [120]⟩,
  ⟨120482, 0, 2, [121]⟩,
  ⟨120483, 0, 2, [122]⟩,
  ⟨120484, 0, 2, [305]⟩,
  ⟨120485, 0, 2, [567]⟩,
  ⟨120488, 0, 2, [913]⟩,
  ⟨120489, 0, 2, [914]⟩,
  ⟨120490, 0, 2, [915]⟩,
  ⟨120491, 0, 2, [916]⟩,
  ⟨120492, 0, 2, [917]⟩,
  ⟨120493, 0, 2, [918]⟩,
  ⟨120494, 0, 2, [919]⟩,
  ⟨120495, 0, 2, [920]⟩,
  ⟨120496, 0, 2, [921]⟩,
  ⟨120497, 0, 2, [922]⟩,
  ⟨120498, 0, 2, [923]⟩,
  ⟨120499, 0, 2, [924]⟩,
  ⟨120500, 0, 2, [925]⟩,
  ⟨120501, 0, 2, [926]⟩,
  ⟨120502, 0, 2, [927]⟩,
  ⟨120503, 0, 2, [928]⟩,
  ⟨120504, 0, 2, [929]⟩,
  ⟨120505, 0, 2, [1012]⟩,
  ⟨120506, 0, 2, [931]⟩,
  ⟨120507, 0, 2, [932]⟩,
  ⟨120508, 0, 2, [933]⟩,
  ⟨120509, 0, 2, [934]⟩,
  ⟨120510, 0, 2, [935]⟩,
  ⟨120511, 0, 2, [936]⟩,
  ⟨120512, 0, 2, [937]⟩,
  ⟨120513, 0, 2, [8711]⟩,
  ⟨120514, 0, 2, [945]⟩,
  ⟨120515, 0, 2, [946]⟩,
  ⟨120516, 0, 2, [947]⟩,
  ⟨120517, 0, 2, [948]⟩,
  ⟨120518, 0, 2, [949]⟩,
  ⟨120519, 0, 2, [950]⟩,
  ⟨120520, 0, 2, [951]⟩,
  ⟨120521, 0, 2, [952]⟩,
  ⟨120522, 0, 2, [953]⟩,
  ⟨120523, 0, 2, [954]⟩,
  ⟨120524, 0, 2, [955]⟩,
  ⟨120525, 0, 2, [956]⟩,
  ⟨120526, 0, 2, [957]⟩,
  ⟨120527, 0, 2, [958]⟩,
  ⟨120528, 0, 2, [959]⟩,
  ⟨120529, 0, 2, [960]⟩,
  ⟨120530, 0, 2, [961]⟩,
  ⟨120531, 0, 2, [962]⟩,
  ⟨120532, 0, 2, [963]⟩,
  ⟨120533, 0, 2, [964]⟩,
  ⟨120534, 0, 2, [965]⟩,
  ⟨120535, 0, 2, [966]⟩,
  ⟨120536, 0, 2, [967]⟩,
  ⟨120537, 0, 2, [968]⟩,
  ⟨120538, 0, 2, [969]⟩,
  ⟨120539, 0, 2, [8706]⟩,
  ⟨120540, 0, 2, [1013]⟩,
  ⟨120541, 0, 2, [977]⟩,
  ⟨120542, 0, 2, [1008]⟩,
  ⟨120543, 0, 2, [981]⟩,
  ⟨120544, 0, 2, [1009]⟩,
  ⟨120545, 0, 2, [982]⟩,
  ⟨120546, 0, 2, [913]⟩,
  ⟨120547, 0, 2, [914]⟩,
  ⟨120548, 0, 2, [915]⟩,
  ⟨120549, 0, 2, [916]⟩,
  ⟨120550, 0, 2, [917]⟩,
  ⟨120551, 0, 2, [918]⟩,
  ⟨120552, 0, 2, [919]⟩,
  ⟨120553, 0, 2, [920]⟩,
  ⟨120554, 0, 2, [921]⟩]

/-- src/u5e/props/UnicodeData.txt, relevant lines among 26369-26624. -/
def ucd103 : List UcdRow := [
  ⟨120555, 0, 2, [922]⟩,
  ⟨120556, 0, 2, [923]⟩,
  ⟨120557, 0, 2, [924]⟩,
  ⟨120558, 0, 2, [925]⟩,
  ⟨120559, 0, 2, [926]⟩,
  ⟨120560, 0, 2, [927]⟩,
  ⟨120561, 0, 2, [928]⟩,
  ⟨120562, 0, 2, [929]⟩,
  ⟨120563, 0, 2, [1012]⟩,
  ⟨120564, 0, 2, [931]⟩,
  ⟨120565, 0, 2, [932]⟩,
  ⟨120566, 0, 2, [933]⟩,
  ⟨120567, 0, 2, [934]⟩,
  ⟨120568, 0, 2, [935]⟩,
  ⟨120569, 0, 2, [936]⟩,
  ⟨120570, 0, 2, [937]⟩,
  ⟨120571, 0, 2, [8711]⟩,
  ⟨120572, 0, 2, [945]⟩,
  ⟨120573, 0, 2, [946]⟩,
  ⟨120574, 0, 2, [947]⟩,
  ⟨120575, 0, 2, [948]⟩,
  ⟨120576, 0, 2, [949]⟩,
  ⟨120577, 0, 2, [950]⟩,
  ⟨120578, 0, 2, [951]⟩,
  ⟨120579, 0, 2, [952]⟩,
  ⟨120580, 0, 2, [953]⟩,
  ⟨120581, 0, 2, [954]⟩,
  ⟨120582, 0, 2, [955]⟩,
  ⟨120583, 0, 2, [956]⟩,
  ⟨120584, 0, 2, [957]⟩,
  ⟨120585, 0, 2, [958]⟩,
  ⟨120586, 0, 2, [959]⟩,
  ⟨120587, 0, 2, [960]⟩,
  ⟨120588, 0, 2, [961]⟩,
  ⟨120589, 0, 2, [962]⟩,
  ⟨120590, 0, 2, [963]⟩,
  ⟨120591, 0, 2, [964]⟩,
  ⟨120592, 0, 2, [965]⟩,
  ⟨120593, 0, 2, [966]⟩,
  ⟨120594, 0, 2, [967]⟩,
  ⟨120595, 0, 2, [968]⟩,
  ⟨120596, 0, 2, [969]⟩,
  ⟨120597, 0, 2, [8706]⟩,
  ⟨120598, 0, 2, [1013]⟩,
  ⟨120599, 0, 2, [977]⟩,
  ⟨120600, 0, 2, [1008]⟩,
  ⟨120601, 0, 2, [981]⟩,
  ⟨120602, 0, 2, [1009]⟩,
  ⟨120603, 0, 2, [982]⟩,
  ⟨120604, 0, 2, [913]⟩,
  ⟨120605, 0, 2, [914]⟩,
  ⟨120606, 0, 2, [915]⟩,
  ⟨120607, 0, 2, [916]⟩,
  ⟨120608, 0, 2, [917]⟩,
  ⟨120609, 0, 2, [918]⟩,
  ⟨120610, 0, 2, [919]⟩,
  ⟨120611, 0, 2, [920]⟩,
  ⟨120612, 0, 2, [921]⟩,
  ⟨120613, 0, 2, [922]⟩,
  ⟨120614, 0, 2, [923]⟩,
  ⟨120615, 0, 2, [924]⟩,
  ⟨120616, 0, 2, [925]⟩,
  ⟨120617, 0, 2, [926]⟩,
  ⟨120618, 0, 2, [927]⟩,
  ⟨120619, 0, 2, [928]⟩,
  ⟨120620, 0, 2, [929]⟩,
  ⟨120621, 0, 2, [1012]⟩,
  ⟨120622, 0, 2, [931]⟩,
  ⟨120623, 0, 2, [932]⟩,
  ⟨120624, 0, 2, [933]⟩,
  ⟨120625, 0, 2, [934]⟩,
  ⟨120626, 0, 2, [935]⟩,
  ⟨120627, 0, 2, [936]⟩,
  ⟨120628, 0, 2, [937]⟩,
  ⟨120629, 0, 2, [8711]⟩,
  ⟨120630, 0, 2, [945]⟩,
  ⟨120631, 0, 2, [946]⟩,
  ⟨120632, 0, 2, [947]⟩,
  ⟨120633, 0, 2, [948]⟩,
  ⟨120634, 0, 2, [949]⟩,
  ⟨120635, 0, 2, [950]⟩,
  ⟨120636, 0, 2, [951]⟩,
  ⟨120637, 0, 2, [952]⟩,
  ⟨120638, 0, 2, [953]⟩,
  ⟨120639, 0, 2, [954]⟩,
  ⟨120640, 0, 2, [955]⟩,
  ⟨120641, 0, 2, [956]⟩,
  ⟨120642, 0, 2, [957]⟩,
  ⟨120643, 0, 2, [958]⟩,
  ⟨120644, 0, 2, [959]⟩,
  ⟨120645, 0, 2, [960]⟩,
  ⟨120646, 0, 2, [961]⟩,
  ⟨120647, 0, 2, [962]⟩,
  ⟨120648, 0, 2, [963]⟩,
  ⟨120649, 0, 2, [964]⟩,
  ⟨120650, 0, 2, [965]⟩,
  ⟨120651, 0, 2, [966]⟩,
  ⟨120652, 0, 2, [967]⟩,
  ⟨120653, 0, 2, [968]⟩,
  ⟨120654, 0, 2, [969]⟩,
  ⟨120655, 0, 2, [8706]⟩,
  ⟨120656, 0, 2, [1013]⟩,
  ⟨120657, 0, 2, [977]⟩,
  ⟨120658, 0, 2, [1008]⟩,
  ⟨120659, 0, 2, [981]⟩,
  ⟨120660, 0, 2, [1009]⟩,
  ⟨120661, 0, 2, [982]⟩,
  ⟨120662, 0, 2, [913]⟩,
  ⟨120663, 0, 2, [914]⟩,
  ⟨120664, 0, 2, [915]⟩,
  ⟨120665, 0, 2, [916]⟩,
  ⟨120666, 0, 2, [917]⟩,
  ⟨120667, 0, 2, [918]⟩,
  ⟨120668, 0, 2, [919]⟩,
  ⟨120669, 0, 2, [920]⟩,
  ⟨120670, 0, 2, [921]⟩,
  ⟨120671, 0, 2, [922]⟩,
  ⟨120672, 0, 2, [923]⟩,
  ⟨120673, 0, 2, [924]⟩,
  ⟨120674, 0, 2, [925]⟩,
  ⟨120675, 0, 2, [926]⟩,
  ⟨120676, 0, 2, [927]⟩,
  ⟨120677, 0, 2, [928]⟩,
  ⟨120678, 0, 2, [929]⟩,
  ⟨120679, 0, 2, [1012]⟩,
  ⟨120680, 0, 2, [931]⟩,
  ⟨120681, 0, 2, [932]⟩,
  ⟨120682, 0, 2, [933]⟩,
  ⟨120683, 0, 2, [934]⟩,
  ⟨120684, 0, 2, [935]⟩,
  ⟨120685, 0, 2, [936]⟩,
  ⟨120686, 0, 2, [937]⟩,
  ⟨120687, 0, 2, [8711]⟩,
  ⟨120688, 0, 2, [945]⟩,
  ⟨120689, 0, 2, [946]⟩,
  ⟨120690, 0, 2, [947]⟩,
  ⟨120691, 0, 2, [948]⟩,
  ⟨120692, 0, 2, [949]⟩,
  ⟨120693, 0, 2, [950]⟩,
  ⟨120694, 0, 2, [951]⟩,
  ⟨120695, 0, 2, [952]⟩,
  ⟨120696, 0, 2, [953]⟩,
  ⟨120697, 0, 2, [954]⟩,
  ⟨120698, 0, 2, [955]⟩,
  ⟨120699, 0, 2, [956]⟩,
  ⟨120700, 0, 2, [957]⟩,
  ⟨120701, 0, 2, [958]⟩,
  ⟨120702, 0, 2, [959]⟩,
  ⟨120703, 0, 2, [960]⟩,
  ⟨120704, 0, 2, [961]⟩,
  ⟨120705, 0, 2, [962]⟩,
  ⟨120706, 0, 2, [963]⟩,
  ⟨120707, 0, 2, [964]⟩,
  ⟨120708, 0, 2, [965]⟩,
  ⟨120709, 0, 2, [966]⟩,
  ⟨120710, 0, 2, [967]⟩,
  ⟨120711, 0, 2, [968]⟩,
  ⟨120712, 0, 2, [969]⟩,
  ⟨120713, 0, 2, [8706]⟩,
  ⟨120714, 0, 2, [1013]⟩,
  ⟨120715, 0, 2, [977]⟩,
  ⟨120716, 0, 2, [1008]⟩,
  ⟨120717, 0, 2, [981]⟩,
  ⟨120718, 0, 2, [1009]⟩,
  ⟨120719, 0, 2, [982]⟩,
  ⟨120720, 0, 2, [913]⟩,
  ⟨120721, 0, 2, [914]⟩,
  ⟨120722, 0, 2, [915]⟩,
  ⟨120723, 0, 2, [916]⟩,
  ⟨120724, 0, 2, [917]⟩,
  ⟨120725, 0, 2, [918]⟩,
  ⟨120726, 0, 2, [919]⟩,
  ⟨120727, 0, 2, [920]⟩,
  ⟨120728, 0, 2, [921]⟩,
  ⟨120729, 0, 2, [922]⟩,
  ⟨120730, 0, 2, [923]⟩,
  ⟨120731, 0, 2, [924]⟩,
  ⟨120732, 0, 2, [925]⟩,
  ⟨120733, 0, 2, [926]⟩,
  ⟨120734, 0, 2, [927]⟩,
  ⟨120735, 0, 2, [928]⟩,
  ⟨120736, 0, 2, [929]⟩,
  ⟨120737, 0, 2, [1012]⟩,
  ⟨120738, 0, 2, [931]⟩,
  ⟨120739, 0, 2, [932]⟩,
  ⟨120740, 0, 2, [933]⟩,
  ⟨120741, 0, 2, [934]⟩,
  ⟨120742, 0, 2, [935]⟩,
  ⟨120743, 0, 2, [936]⟩,
  ⟨120744, 0, 2, [937]⟩,
  ⟨120745, 0, 2, [8711]⟩,
  ⟨120746, 0, 2, [945]⟩,
  ⟨120747, 0, 2, [946]⟩,
  ⟨120748, 0, 2, [947]⟩,
  ⟨120749, 0, 2, [948]⟩,
  ⟨120750, 0, 2, [949]⟩,
  ⟨120751, 0, 2, [950]⟩,
  ⟨120752, 0, 2, [951]⟩,
  ⟨120753, 0, 2, [952]⟩,
  ⟨120754, 0, 2, [953]⟩,
  ⟨120755, 0, 2, [954]⟩,
  ⟨120756, 0, 2, [955]⟩,
  ⟨120757, 0, 2, [956]⟩,
  ⟨120758, 0, 2, [957]⟩,
  ⟨120759, 0, 2, [958]⟩,
  ⟨120760, 0, 2, [959]⟩,
  ⟨120761, 0, 2, [960]⟩,
  ⟨120762, 0, 2, [961]⟩,
  ⟨120763, 0, 2, [962]⟩,
  ⟨120764, 0, 2, [963]⟩,
  ⟨120765, 0, 2, [964]⟩,
  ⟨120766, 0, 2, [965]⟩,
  ⟨120767, 0, 2, [966]⟩,
  ⟨120768, 0, 2, [967]⟩,
  ⟨120769, 0, 2, [968]⟩,
  ⟨120770, 0, 2, [969]⟩,
  ⟨120771, 0, 2, [8706]⟩,
  ⟨120772, 0, 2, [1013]⟩,
  ⟨120773, 0, 2, [977]⟩,
  ⟨120774, 0, 2, [1008]⟩,
  ⟨120775, 0, 2, [981]⟩,
  ⟨120776, 0, 2, [1009]⟩,
  ⟨120777, 0, 2, [982]⟩,
  ⟨120778, 0, 2, [988]⟩,
  ⟨120779, 0, 2, [989]⟩,
  ⟨120782, 0, 2, [48]⟩,
  ⟨120783, 0, 2, [49]⟩,
  ⟨120784, 0, 2, [50]⟩,
  ⟨120785, 0, 2, [51]⟩,
  ⟨120786, 0, 2, [52]⟩,
  ⟨120787, 0, 2, [53]⟩,
  ⟨120788, 0, 2, [54]⟩,
  ⟨120789, 0, 2, [55]⟩,
  ⟨120790, 0, 2, [56]⟩,
  ⟨120791, 0, 2, [57]⟩,
  ⟨120792, 0, 2, [48]⟩,
  ⟨120793, 0, 2, [49]⟩,
  ⟨120794, 0, 2, [50]⟩,
  ⟨120795, 0, 2, [51]⟩,
  ⟨120796, 0, 2, [52]⟩,
  ⟨120797, 0, 2, [53]⟩,
  ⟨120798, 0, 2, [54]⟩,
  ⟨120799, 0, 2, [55]⟩,
  ⟨120800, 0, 2, [56]⟩,
  ⟨120801, 0, 2, [57]⟩,
  ⟨120802, 0, 2, [48]⟩,
  ⟨120803, 0, 2, [49]⟩,
  ⟨120804, 0, 2, [50]⟩,
  ⟨120805, 0, 2, [51]⟩,
  ⟨120806, 0, 2, [52]⟩,
  ⟨120807, 0, 2, [53]⟩,
  ⟨120808, 0, 2, [54]⟩,
  ⟨120809, 0, 2, [55]⟩,
  ⟨120810, 0, 2, [56]⟩,
  ⟨120811, 0, 2, [57]⟩,
  ⟨120812, 0, 2, [48]⟩]

/-- src/u5e/props/UnicodeData.txt, relevant lines among 26625-26880. -/
def ucd104 : List UcdRow := [
  ⟨120813, 0, 2, [49]⟩,
  ⟨120814, 0, 2, [50]⟩,
  ⟨120815, 0, 2, [51]⟩,
  ⟨120816, 0, 2, [52]⟩,
  ⟨120817, 0, 2, [53]⟩,
  ⟨120818, 0, 2, [54]⟩,
  ⟨120819, 0, 2, [55]⟩,
  ⟨120820, 0, 2, [56]⟩,
  ⟨120821, 0, 2, [57]⟩,
  ⟨120822, 0, 2, [48]⟩,
  ⟨120823, 0, 2, [49]⟩,
  ⟨120824, 0, 2, [50]⟩,
  ⟨120825, 0, 2, [51]⟩,
  ⟨120826, 0, 2, [52]⟩,
  ⟨120827, 0, 2, [53]⟩,
  ⟨120828, 0, 2, [54]⟩,
  ⟨120829, 0, 2, [55]⟩,
  ⟨120830, 0, 2, [56]⟩,
  ⟨120831, 0, 2, [57]⟩]

/-- src/u5e/props/UnicodeData.txt, relevant lines among 26881-27136. -/
def ucd105 : List UcdRow := []

/-- src/u5e/props/UnicodeData.txt, relevant lines among 27137-27392. -/
def ucd106 : List UcdRow := [
  ⟨122880, 230, 0, []⟩,
  ⟨122881, 230, 0, []⟩,
  ⟨122882, 230, 0, []⟩,
  ⟨122883, 230, 0, []⟩,
  ⟨122884, 230, 0, []⟩,
  ⟨122885, 230, 0, []⟩,
  ⟨122886, 230, 0, []⟩,
  ⟨122888, 230, 0, []⟩,
  ⟨122889, 230, 0, []⟩,
  ⟨122890, 230, 0, []⟩,
  ⟨122891, 230, 0, []⟩,
  ⟨122892, 230, 0, []⟩,
  ⟨122893, 230, 0, []⟩,
  ⟨122894, 230, 0, []⟩,
  ⟨122895, 230, 0, []⟩,
  ⟨122896, 230, 0, []⟩,
  ⟨122897, 230, 0, []⟩,
  ⟨122898, 230, 0, []⟩,
  ⟨122899, 230, 0, []⟩,
  ⟨122900, 230, 0, []⟩,
  ⟨122901, 230, 0, []⟩,
  ⟨122902, 230, 0, []⟩,
  ⟨122903, 230, 0, []⟩,
  ⟨122904, 230, 0, []⟩,
  ⟨122907, 230, 0, []⟩,
  ⟨122908, 230, 0, []⟩,
  ⟨122909, 230, 0, []⟩,
  ⟨122910, 230, 0, []⟩,
  ⟨122911, 230, 0, []⟩,
  ⟨122912, 230, 0, []⟩,
  ⟨122913, 230, 0, []⟩,
  ⟨122915, 230, 0, []⟩,
  ⟨122916, 230, 0, []⟩,
  ⟨122918, 230, 0, []⟩,
  ⟨122919, 230, 0, []⟩,
  ⟨122920, 230, 0, []⟩,
  ⟨122921, 230, 0, []⟩,
  ⟨122922, 230, 0, []⟩]

/-- src/u5e/props/UnicodeData.txt, relevant lines among 27393-27648. -/
def ucd107 : List UcdRow := [
  ⟨125136, 220, 0, []⟩,
  ⟨125137, 220, 0, []⟩,
  ⟨125138, 220, 0, []⟩,
  ⟨125139, 220, 0, []⟩,
  ⟨125140, 220, 0, []⟩,
  ⟨125141, 220, 0, []⟩,
  ⟨125142, 220, 0, []⟩,
  ⟨125252, 230, 0, []⟩,
  ⟨125253, 230, 0, []⟩,
  ⟨125254, 230, 0, []⟩,
  ⟨125255, 230, 0, []⟩,
  ⟨125256, 230, 0, []⟩,
  ⟨125257, 230, 0, []⟩,
  ⟨125258, 7, 0, []⟩]

/-- src/u5e/props/UnicodeData.txt, relevant lines among 27649-27904. -/
def ucd108 : List UcdRow := [
  ⟨126464, 0, 2, [1575]⟩,
  ⟨126465, 0, 2, [1576]⟩,
  ⟨126466, 0, 2, [1580]⟩,
  ⟨126467, 0, 2, [1583]⟩,
  ⟨126469, 0, 2, [1608]⟩,
  ⟨126470, 0, 2, [1586]⟩,
  ⟨126471, 0, 2, [1581]⟩,
  ⟨126472, 0, 2, [1591]⟩,
  ⟨126473, 0, 2, [1610]⟩,
  ⟨126474, 0, 2, [1603]⟩,
  ⟨126475, 0, 2, [1604]⟩,
  ⟨126476, 0, 2, [1605]⟩,
  ⟨126477, 0, 2, [1606]⟩,
  ⟨126478, 0, 2, [1587]⟩,
  ⟨126479, 0, 2, [1593]⟩,
  ⟨126480, 0, 2, [1601]⟩,
  ⟨126481, 0, 2, [1589]⟩,
  ⟨126482, 0, 2, [1602]⟩,
  ⟨126483, 0, 2, [1585]⟩,
  ⟨126484, 0, 2, [1588]⟩,
  ⟨126485, 0, 2, [1578]⟩,
  ⟨126486, 0, 2, [1579]⟩,
  ⟨126487, 0, 2, [1582]⟩,
  ⟨126488, 0, 2, [1584]⟩,
  ⟨126489, 0, 2, [1590]⟩,
  ⟨126490, 0, 2, [1592]⟩,
  ⟨126491, 0, 2, [1594]⟩,
  ⟨126492, 0, 2, [1646]⟩,
  ⟨126493, 0, 2, [1722]⟩,
  ⟨126494, 0, 2, [1697]⟩,
  ⟨126495, 0, 2, [1647]⟩,
  ⟨126497, 0, 2, [1576]⟩,
  ⟨126498, 0, 2, [1580]⟩,
  ⟨126500, 0, 2, [1607]⟩,
  ⟨126503, 0, 2, [1581]⟩,
  ⟨126505, 0, 2, [1610]⟩,
  ⟨126506, 0, 2, [1603]⟩,
  ⟨126507, 0, 2, [1604]⟩,
  ⟨126508, 0, 2, [1605]⟩,
  ⟨126509, 0, 2, [1606]⟩,
  ⟨126510, 0, 2, [1587]⟩,
  ⟨126511, 0, 2, [1593]⟩,
  ⟨126512, 0, 2, [1601]⟩,
  ⟨126513, 0, 2, [1589]⟩,
  ⟨126514, 0, 2, [1602]⟩,
  ⟨126516, 0, 2, [1588]⟩,
  ⟨126517, 0, 2, [1578]⟩,
  ⟨126518, 0, 2, [1579]⟩,
  ⟨126519, 0, 2, [1582]⟩,
  ⟨126521, 0, 2, [1590]⟩,
  ⟨126523, 0, 2, [1594]⟩,
  ⟨126530, 0, 2, [1580]⟩,
  ⟨126535, 0, 2, [1581]⟩,
  ⟨126537, 0, 2, [1610]⟩,
  ⟨126539, 0, 2, [1604]⟩,
  ⟨126541, 0, 2, [1606]⟩,
  ⟨126542, 0, 2, [1587]⟩,
  ⟨126543, 0, 2, [1593]⟩,
  ⟨126545, 0, 2, [1589]⟩,
  ⟨126546, 0, 2, [1602]⟩,
  ⟨126548, 0, 2, [1588]⟩,
  ⟨126551, 0, 2, [1582]⟩,
  ⟨126553, 0, 2, [1590]⟩,
  ⟨126555, 0, 2, [1594]⟩,
  ⟨126557, 0, 2, [1722]⟩,
  ⟨126559, 0, 2, [1647]⟩,
  ⟨126561, 0, 2, [1576]⟩,
  ⟨126562, 0, 2, [1580]⟩,
  ⟨126564, 0, 2, [1607]⟩,
  ⟨126567, 0, 2, [1581]⟩,
  ⟨126568, 0, 2, [1591]⟩,
  ⟨126569, 0, 2, [1610]⟩,
  ⟨126570, 0, 2, [1603]⟩,
  ⟨126572, 0, 2, [1605]⟩,
  ⟨126573, 0, 2, [1606]⟩,
  ⟨126574, 0, 2, [1587]⟩,
  ⟨126575, 0, 2, [1593]⟩,
  ⟨126576, 0, 2, [1601]⟩,
  ⟨126577, 0, 2, [1589]⟩,
  ⟨126578, 0, 2, [1602]⟩,
  ⟨126580, 0, 2, [1588]⟩,
  ⟨126581, 0, 2, [1578]⟩,
  ⟨126582, 0, 2, [1579]⟩,
  ⟨126583, 0, 2, [1582]⟩,
  ⟨126585, 0, 2, [1590]⟩,
  ⟨126586, 0, 2, [1592]⟩,
  ⟨126587, 0, 2, [1594]⟩,
  ⟨126588, 0, 2, [1646]⟩,
  ⟨126590, 0, 2, [1697]⟩,
  ⟨126592, 0, 2, [1575]⟩,
  ⟨126593, 0, 2, [1576]⟩,
  ⟨126594, 0, 2, [1580]⟩,
  ⟨126595, 0, 2, [1583]⟩,
  ⟨126596, 0, 2, [1607]⟩,
  ⟨126597, 0, 2, [1608]⟩,
  ⟨126598, 0, 2, [1586]⟩,
  ⟨126599, 0, 2, [1581]⟩,
  ⟨126600, 0, 2, [1591]⟩,
  ⟨126601, 0, 2, [1610]⟩,
  ⟨126603, 0, 2, [1604]⟩,
  ⟨126604, 0, 2, [1605]⟩,
  ⟨126605, 0, 2, [1606]⟩,
  ⟨126606, 0, 2, [1587]⟩,
  ⟨126607, 0, 2, [1593]⟩,
  ⟨126608, 0, 2, [1601]⟩,
  ⟨126609, 0, 2, [1589]⟩,
  ⟨126610, 0, 2, [1602]⟩,
  ⟨126611, 0, 2, [1585]⟩,
  ⟨126612, 0, 2, [1588]⟩,
  ⟨126613, 0, 2, [1578]⟩,
  ⟨126614, 0, 2, [1579]⟩,
  ⟨126615, 0, 2, [1582]⟩,
  ⟨126616, 0, 2, [1584]⟩,
  ⟨126617, 0, 2, [1590]⟩,
  ⟨126618, 0, 2, [1592]⟩,
  ⟨126619, 0, 2, [1594]⟩,
  ⟨126625, 0, 2, [1576]⟩,
  ⟨126626, 0, 2, [1580]⟩,
  ⟨126627, 0, 2, [1583]⟩,
  ⟨126629, 0, 2, [1608]⟩,
  ⟨126630, 0, 2, [1586]⟩,
  ⟨126631, 0, 2, [1581]⟩,
  ⟨126632, 0, 2, [1591]⟩,
  ⟨126633, 0, 2, [1610]⟩,
  ⟨126635, 0, 2, [1604]⟩,
  ⟨126636, 0, 2, [1605]⟩,
  ⟨126637, 0, 2, [1606]⟩,
  ⟨126638, 0, 2, [1587]⟩,
  ⟨126639, 0, 2, [1593]⟩,
  ⟨126640, 0, 2, [1601]⟩,
  ⟨126641, 0, 2, [1589]⟩,
  ⟨126642, 0, 2, [1602]⟩,
  ⟨126643, 0, 2, [1585]⟩,
  ⟨126644, 0, 2, [1588]⟩,
  ⟨126645, 0, 2, [1578]⟩,
  ⟨126646, 0, 2, [1579]⟩,
  ⟨126647, 0, 2, [1582]⟩,
  ⟨126648, 0, 2, [1584]⟩,
  ⟨126649, 0, 2, [1590]⟩,
  ⟨126650, 0, 2, [1592]⟩,
  ⟨126651, 0, 2, [1594]⟩]

/-- src/u5e/props/UnicodeData.txt, relevant lines among 27905-28160. -/
def ucd109 : List UcdRow := [
  ⟨127232, 0, 1, [48, 46]⟩,
  ⟨127233, 0, 1, [48, 44]⟩,
  ⟨127234, 0, 1, [49, 44]⟩,
  ⟨127235, 0, 1, [50, 44]⟩,
  ⟨127236, 0, 1, [51, 44]⟩,
  ⟨127237, 0, 1, [52, 44]⟩,
  ⟨127238, 0, 1, [53, 44]⟩,
  ⟨127239, 0, 1, [54, 44]⟩,
  ⟨127240, 0, 1, [55, 44]⟩,
  ⟨127241, 0, 1, [56, 44]⟩,
  ⟨127242, 0, 1, [57, 44]⟩,
  ⟨127248, 0, 1, [40, 65, 41]⟩,
  ⟨127249, 0, 1, [40, 66, 41]⟩,
  ⟨127250, 0, 1, [40, 67, 41]⟩,
  ⟨127251, 0, 1, [40, 68, 41]⟩,
  ⟨127252, 0, 1, [40, 69, 41]⟩,
  ⟨127253, 0, 1, [40, 70, 41]⟩,
  ⟨127254, 0, 1, [40, 71, 41]⟩,
  ⟨127255, 0, 1, [40, 72, 41]⟩,
  ⟨127256, 0, 1, [40, 73, 41]⟩,
  ⟨127257, 0, 1, [40, 74, 41]⟩,
  ⟨127258, 0, 1, [40, 75, 41]⟩,
  ⟨127259, 0, 1, [40, 76, 41]⟩,
  ⟨127260, 0, 1, [40, 77, 41]⟩,
  ⟨127261, 0, 1, [40, 78, 41]⟩,
  ⟨127262, 0, 1, [40, 79, 41]⟩,
  ⟨127263, 0, 1, [40, 80, 41]⟩,
  ⟨127264, 0, 1, [40, 81, 41]⟩,
  ⟨127265, 0, 1, [40, 82, 41]⟩,
  ⟨127266, 0, 1, [40, 83, 41]⟩,
  ⟨127267, 0, 1, [40, 84, 41]⟩,
  ⟨127268, 0, 1, [40, 85, 41]⟩,
  ⟨127269, 0, 1, [40, 86, 41]⟩,
  ⟨127270, 0, 1, [40, 87, 41]⟩,
  ⟨127271, 0, 1, [40, 88, 41]⟩,
  ⟨127272, 0, 1, [40, 89, 41]⟩,
  ⟨127273, 0, 1, [40, 90, 41]⟩,
  ⟨127274, 0, 1, [12308, 83, 12309]⟩,
  ⟨127275, 0, 2, [67]⟩,
  ⟨127276, 0, 2, [82]⟩,
  ⟨127277, 0, 2, [67, 68]⟩,
  ⟨127278, 0, 2, [87, 90]⟩,
  ⟨127280, 0, 2, [65]⟩,
  ⟨127281, 0, 2, [66]⟩,
  ⟨127282, 0, 2, [67]⟩,
  ⟨127283, 0, 2, [68]⟩,
  ⟨127284, 0, 2, [69]⟩,
  ⟨127285, 0, 2, [70]⟩,
  ⟨127286, 0, 2, [71]⟩,
  ⟨127287, 0, 2, [72]⟩,
  ⟨127288, 0, 2, [73]⟩,
  ⟨127289, 0, 2, [74]⟩,
  ⟨127290, 0, 2, [75]⟩,
  ⟨127291, 0, 2, [76]⟩,
  ⟨127292, 0, 2, [77]⟩,
  ⟨127293, 0, 2, [78]⟩,
  ⟨127294, 0, 2, [79]⟩,
  ⟨127295, 0, 2, [80]⟩,
  ⟨127296, 0, 2, [81]⟩,
  ⟨127297, 0, 2, [82]⟩,
  ⟨127298, 0, 2, [83]⟩,
  ⟨127299, 0, 2, [84]⟩,
  ⟨127300, 0, 2, [85]⟩,
  ⟨127301, 0, 2, [86]⟩,
  ⟨127302, 0, 2, [87]⟩,
  ⟨127303, 0, 2, [88]⟩,
  ⟨127304, 0, 2, [89]⟩,
  ⟨127305, 0, 2, [90]⟩,
  ⟨127306, 0, 2, [72, 86]⟩,
  ⟨127307, 0, 2, [77, 86]⟩,
  ⟨127308, 0, 2, [83, 68]⟩,
  ⟨127309, 0, 2, [83, 83]⟩,
  ⟨127310, 0, 2, [80, 80, 86]⟩,
  ⟨127311, 0, 2, [87, 67]⟩,
  ⟨127338, 0, 2, [77, 67]⟩,
  ⟨127339, 0, 2, [77, 68]⟩,
  ⟨127376, 0, 2, [68, 74]⟩]

/-- src/u5e/props/UnicodeData.txt, relevant lines among 28161-28416. -/
def ucd110 : List UcdRow := [
  ⟨127488, 0, 2, [12411, 12363]⟩,
  ⟨127489, 0, 2, [12467, 12467]⟩,
  ⟨127490, 0, 2, [12469]⟩,
  ⟨127504, 0, 2, [25163]⟩,
  ⟨127505, 0, 2, [23383]⟩,
  ⟨127506, 0, 2, [21452]⟩,
  ⟨127507, 0, 2, [12487]⟩,
  ⟨127508, 0, 2, [20108]⟩,
  ⟨127509, 0, 2, [22810]⟩,
  ⟨127510, 0, 2, [35299]⟩,
  ⟨127511, 0, 2, [22825]⟩,
  ⟨127512, 0, 2, [20132]⟩,
  ⟨127513, 0, 2, [26144]⟩,
  ⟨127514, 0, 2, [28961]⟩,
  ⟨127515, 0, 2, [26009]⟩,
  ⟨127516, 0, 2, [21069]⟩,
  ⟨127517, 0, 2, [24460]⟩,
  ⟨127518, 0, 2, [20877]⟩,
  ⟨127519, 0, 2, [26032]⟩,
  ⟨127520, 0, 2, [21021]⟩,
  ⟨127521, 0, 2, [32066]⟩,
  ⟨127522, 0, 2, [29983]⟩,
  ⟨127523, 0, 2, [36009]⟩,
  ⟨127524, 0, 2, [22768]⟩,
  ⟨127525, 0, 2, [21561]⟩,
  ⟨127526, 0, 2, [28436]⟩,
  ⟨127527, 0, 2, [25237]⟩,
  ⟨127528, 0, 2, [25429]⟩,
  ⟨127529, 0, 2, [19968]⟩,
  ⟨127530, 0, 2, [19977]⟩,
  ⟨127531, 0, 2, [36938]⟩,
  ⟨127532, 0, 2, [24038]⟩,
  ⟨127533, 0, 2, [20013]⟩,
  ⟨127534, 0, 2, [21491]⟩,
  ⟨127535, 0, 2, [25351]⟩,
  ⟨127536, 0, 2, [36208]⟩,
  ⟨127537, 0, 2, [25171]⟩,
  ⟨127538, 0, 2, [31105]⟩,
  ⟨127539, 0, 2, [31354]⟩,
  ⟨127540, 0, 2, [21512]⟩,
  ⟨127541, 0, 2, [28288]⟩,
  ⟨127542, 0, 2, [26377]⟩,
  ⟨127543, 0, 2, [26376]⟩,
  ⟨127544, 0, 2, [30003]⟩,
  ⟨127545, 0, 2, [21106]⟩,
  ⟨127546, 0, 2, [21942]⟩,
  ⟨127547, 0, 2, [37197]⟩,
  ⟨127552, 0, 1, [12308, 26412, 12309]⟩,
  ⟨127553, 0, 1, [12308, 19977, 12309]⟩,
  ⟨127554, 0, 1, [12308, 20108, 12309]⟩,
  ⟨127555, 0, 1, [12308, 23433, 12309]⟩,
  ⟨127556, 0, 1, [12308, 28857, 12309]⟩,
  ⟨127557, 0, 1, [12308, 25171, 12309]⟩,
  ⟨127558, 0, 1, [12308, 30423, 12309]⟩,
  ⟨127559, 0, 1, [12308, 21213, 12309]⟩,
  ⟨127560, 0, 1, [12308, 25943, 12309]⟩,
  ⟨127568, 0, 2, [24471]⟩,
  ⟨127569, 0, 2, [21487]⟩]

/-- src/u5e/props/UnicodeData.txt, relevant lines among 28417-28672. -/
def ucd111 : List UcdRow := []

/-- src/u5e/props/UnicodeData.txt, relevant lines among 28673-28928. -/
def ucd112 : List UcdRow := []

/-- src/u5e/props/UnicodeData.txt, relevant lines among 28929-29184. -/
def ucd113 : List UcdRow := []

/-- src/u5e/props/UnicodeData.txt, relevant lines among 29185-29440. -/
def ucd114 : List UcdRow := []

/-- src/u5e/props/UnicodeData.txt, relevant lines among 29441-29696. -/
def ucd115 : List UcdRow := []

/-- src/u5e/props/UnicodeData.txt, relevant lines among 29697-29952. -/
def ucd116 : List UcdRow := [
  ⟨194560, 0, 0, [20029]⟩,
  ⟨194561, 0, 0, [20024]⟩,
  ⟨194562, 0, 0, [20033]⟩,
  ⟨194563, 0, 0, [131362]⟩,
  ⟨194564, 0, 0, [20320]⟩,
  ⟨194565, 0, 0, [20398]⟩,
  ⟨194566, 0, 0, [20411]⟩,
  ⟨194567, 0, 0, [20482]⟩,
  ⟨194568, 0, 0, [20602]⟩,
  ⟨194569, 0, 0, [20633]⟩,
  ⟨194570, 0, 0, [20711]⟩,
  ⟨194571, 0, 0, [20687]⟩,
  ⟨194572, 0, 0, [13470]⟩,
  ⟨194573, 0, 0, [132666]⟩,
  ⟨194574, 0, 0, [20813]⟩,
  ⟨194575, 0, 0, [20820]⟩,
  ⟨194576, 0, 0, [20836]⟩,
  ⟨194577, 0, 0, [20855]⟩,
  ⟨194578, 0, 0, [132380]⟩,
  ⟨194579, 0, 0, [13497]⟩,
  ⟨194580, 0, 0, [20839]⟩,
  ⟨194581, 0, 0, [20877]⟩,
  ⟨194582, 0, 0, [132427]⟩,
  ⟨194583, 0, 0, [20887]⟩,
  ⟨194584, 0, 0, [20900]⟩,
  ⟨194585, 0, 0, [20172]⟩,
  ⟨194586, 0, 0, [20908]⟩,
  ⟨194587, 0, 0, [20917]⟩,
  ⟨194588, 0, 0, [168415]⟩,
  ⟨194589, 0, 0, [20981]⟩,
  ⟨194590, 0, 0, [20995]⟩,
  ⟨194591, 0, 0, [13535]⟩,
  ⟨194592, 0, 0, [21051]⟩,
  ⟨194593, 0, 0, [21062]⟩,
  ⟨194594, 0, 0, [21106]⟩,
  ⟨194595, 0, 0, [21111]⟩,
  ⟨194596, 0, 0, [13589]⟩,
  ⟨194597, 0, 0, [21191]⟩,
  ⟨194598, 0, 0, [21193]⟩,
  ⟨194599, 0, 0, [21220]⟩,
  ⟨194600, 0, 0, [21242]⟩,
  ⟨194601, 0, 0, [21253]⟩,
  ⟨194602, 0, 0, [21254]⟩,
  ⟨194603, 0, 0, [21271]⟩,
  ⟨194604, 0, 0, [21321]⟩,
  ⟨194605, 0, 0, [21329]⟩,
  ⟨194606, 0, 0, [21338]⟩,
  ⟨194607, 0, 0, [21363]⟩,
  ⟨194608, 0, 0, [21373]⟩,
  ⟨194609, 0, 0, [21375]⟩,
  ⟨194610, 0, 0, [21375]⟩,
  ⟨194611, 0, 0, [21375]⟩,
  ⟨194612, 0, 0, [133676]⟩,
  ⟨194613, 0, 0, [28784]⟩,
  ⟨194614, 0, 0, [21450]⟩,
  ⟨194615, 0, 0, [21471]⟩,
  ⟨194616, 0, 0, [133987]⟩,
  ⟨194617, 0, 0, [21483]⟩,
  ⟨194618, 0, 0, [21489]⟩,
  ⟨194619, 0, 0, [21510]⟩,
  ⟨194620, 0, 0, [21662]⟩,
  ⟨194621, 0, 0, [21560]⟩,
  ⟨194622, 0, 0, [21576]⟩,
  ⟨194623, 0, 0, [21608]⟩,
  ⟨194624, 0, 0, [21666]⟩,
  ⟨194625, 0, 0, [21750]⟩,
  ⟨194626, 0, 0, [21776]⟩,
  ⟨194627, 0, 0, [21843]⟩,
  ⟨194628, 0, 0, [21859]⟩,
  ⟨194629, 0, 0, [21892]⟩,
  ⟨194630, 0, 0, [21892]⟩,
  ⟨194631, 0, 0, [21913]⟩,
  ⟨194632, 0, 0, [21931]⟩,
  ⟨194633, 0, 0, [21939]⟩,
  ⟨194634, 0, 0, [21954]⟩,
  ⟨194635, 0, 0, [22294]⟩,
  ⟨194636, 0, 0, [22022]⟩,
  ⟨194637, 0, 0, [22295]⟩,
  ⟨194638, 0, 0, [22097]⟩,
  ⟨194639, 0, 0, [22132]⟩,
  ⟨194640, 0, 0, [20999]⟩,
  ⟨194641, 0, 0, [22766]⟩,
  ⟨194642, 0, 0, [22478]⟩,
  ⟨194643, 0, 0, [22516]⟩,
  ⟨194644, 0, 0, [22541]⟩,
  ⟨194645, 0, 0, [22411]⟩,
  ⟨194646, 0, 0, [22578]⟩,
  ⟨194647, 0, 0, [22577]⟩,
  ⟨194648, 0, 0, [22700]⟩,
  ⟨194649, 0, 0, [136420]⟩,
  ⟨194650, 0, 0, [22770]⟩,
  ⟨194651, 0, 0, [22775]⟩,
  ⟨194652, 0, 0, [22790]⟩,
  ⟨194653, 0, 0, [22810]⟩,
  ⟨194654, 0, 0, [22818]⟩,
  ⟨194655, 0, 0, [22882]⟩,
  ⟨194656, 0, 0, [136872]⟩,
  ⟨194657, 0, 0, [136938]⟩,
  ⟨194658, 0, 0, [23020]⟩,
  ⟨194659, 0, 0, [23067]⟩,
  ⟨194660, 0, 0, [23079]⟩,
  ⟨194661, 0, 0, [23000]⟩,
  ⟨194662, 0, 0, [23142]⟩,
  ⟨194663, 0, 0, [14062]⟩,
  ⟨194664, 0, 0, [14076]⟩,
  ⟨194665, 0, 0, [23304]⟩,
  ⟨194666, 0, 0, [23358]⟩,
  ⟨194667, 0, 0, [23358]⟩,
  ⟨194668, 0, 0, [137672]⟩,
  ⟨194669, 0, 0, [23491]⟩,
  ⟨194670, 0, 0, [23512]⟩,
  ⟨194671, 0, 0, [23527]⟩,
  ⟨194672, 0, 0, [23539]⟩,
  ⟨194673, 0, 0, [138008]⟩,
  ⟨194674, 0, 0, [23551]⟩,
  ⟨194675, 0, 0, [23558]⟩,
  ⟨194676, 0, 0, [24403]⟩,
  ⟨194677, 0, 0, [23586]⟩,
  ⟨194678, 0, 0, [14209]⟩,
  ⟨194679, 0, 0, [23648]⟩,
  ⟨194680, 0, 0, [23662]⟩,
  ⟨194681, 0, 0, [23744]⟩,
  ⟨194682, 0, 0, [23693]⟩,
  ⟨194683, 0, 0, [138724]⟩,
  ⟨194684, 0, 0, [23875]⟩,
  ⟨194685, 0, 0, [138726]⟩,
  ⟨194686, 0, 0, [23918]⟩,
  ⟨194687, 0, 0, [23915]⟩,
  ⟨194688, 0, 0, [23932]⟩,
  ⟨194689, 0, 0, [24033]⟩,
  ⟨194690, 0, 0, [24034]⟩,
  ⟨194691, 0, 0, [14383]⟩,
  ⟨194692, 0, 0, [24061]⟩,
  ⟨194693, 0, 0, [24104]⟩,
  ⟨194694, 0, 0, [24125]⟩,
  ⟨194695, 0, 0, [24169]⟩,
  ⟨194696, 0, 0, [14434]⟩,
  ⟨194697, 0, 0, [139651]⟩,
  ⟨194698, 0, 0, [14460]⟩,
  ⟨194699, 0, 0, [24240]⟩,
  ⟨194700, 0, 0, [24243]⟩,
  ⟨194701, 0, 0, [24246]⟩,
  ⟨194702, 0, 0, [24266]⟩,
  ⟨194703, 0, 0, [172946]⟩,
  ⟨194704, 0, 0, [24318]⟩,
  ⟨194705, 0, 0, [140081]⟩,
  ⟨194706, 0, 0, [140081]⟩,
  ⟨194707, 0, 0, [33281]⟩,
  ⟨194708, 0, 0, [24354]⟩,
  ⟨194709, 0, 0, [24354]⟩,
  ⟨194710, 0, 0, [14535]⟩,
  ⟨194711, 0, 0, [144056]⟩,
  ⟨194712, 0, 0, [156122]⟩,
  ⟨194713, 0, 0, [24418]⟩,
  ⟨194714, 0, 0, [24427]⟩,
  ⟨194715, 0, 0, [14563]⟩,
  ⟨194716, 0, 0, [24474]⟩,
  ⟨194717, 0, 0, [24525]⟩,
  ⟨194718, 0, 0, [24535]⟩,
  ⟨194719, 0, 0, [24569]⟩,
  ⟨194720, 0, 0, [24705]⟩,
  ⟨194721, 0, 0, [14650]⟩,
  ⟨194722, 0, 0, [14620]⟩,
  ⟨194723, 0, 0, [24724]⟩,
  ⟨194724, 0, 0, [141012]⟩,
  ⟨194725, 0, 0, [24775]⟩,
  ⟨194726, 0, 0, [24904]⟩,
  ⟨194727, 0, 0, [24908]⟩,
  ⟨194728, 0, 0, [24910]⟩,
  ⟨194729, 0, 0, [24908]⟩,
  ⟨194730, 0, 0, [24954]⟩,
  ⟨194731, 0, 0, [24974]⟩,
  ⟨194732, 0, 0, [25010]⟩,
  ⟨194733, 0, 0, [24996]⟩,
  ⟨194734, 0, 0, [25007]⟩,
  ⟨194735, 0, 0, [25054]⟩,
  ⟨194736, 0, 0, [25074]⟩,
  ⟨194737, 0, 0, [25078]⟩,
  ⟨194738, 0, 0, [25104]⟩,
  ⟨194739, 0, 0, [25115]⟩,
  ⟨194740, 0, 0, [25181]⟩,
  ⟨194741, 0, 0, [25265]⟩,
  ⟨194742, 0, 0, [25300]⟩,
  ⟨194743, 0, 0, [25424]⟩,
  ⟨194744, 0, 0, [142092]⟩,
  ⟨194745, 0, 0, [25405]⟩,
  ⟨194746, 0, 0, [25340]⟩,
  ⟨194747, 0, 0, [25448]⟩,
  ⟨194748, 0, 0, [25475]⟩,
  ⟨194749, 0, 0, [25572]⟩,
  ⟨194750, 0, 0, [142321]⟩,
  ⟨194751, 0, 0, [25634]⟩,
  ⟨194752, 0, 0, [25541]⟩,
  ⟨194753, 0, 0, [25513]⟩,
  ⟨194754, 0, 0, [14894]⟩,
  ⟨194755, 0, 0, [25705]⟩,
  ⟨194756, 0, 0, [25726]⟩,
  ⟨194757, 0, 0, [25757]⟩,
  ⟨194758, 0, 0, [25719]⟩,
  ⟨194759, 0, 0, [14956]⟩,
  ⟨194760, 0, 0, [25935]⟩,
  ⟨194761, 0, 0, [25964]⟩,
  ⟨194762, 0, 0, [143370]⟩,
  ⟨194763, 0, 0, [26083]⟩,
  ⟨194764, 0, 0, [26360]⟩,
  ⟨194765, 0, 0, [26185]⟩,
  ⟨194766, 0, 0, [15129]⟩,
  ⟨194767, 0, 0, [26257]⟩,
  ⟨194768, 0, 0, [15112]⟩,
  ⟨194769, 0, 0, [15076]⟩,
  ⟨194770, 0, 0, [20882]⟩,
  ⟨194771, 0, 0, [20885]⟩,
  ⟨194772, 0, 0, [26368]⟩,
  ⟨194773, 0, 0, [26268]⟩,
  ⟨194774, 0, 0, [32941]⟩,
  ⟨194775, 0, 0, [17369]⟩,
  ⟨194776, 0, 0, [26391]⟩,
  ⟨194777, 0, 0, [26395]⟩,
  ⟨194778, 0, 0, [26401]⟩,
  ⟨194779, 0, 0, [26462]⟩,
  ⟨194780, 0, 0, [26451]⟩,
  ⟨194781, 0, 0, [144323]⟩,
  ⟨194782, 0, 0, [15177]⟩,
  ⟨194783, 0, 0, [26618]⟩,
  ⟨194784, 0, 0, [26501]⟩,
  ⟨194785, 0, 0, [26706]⟩,
  ⟨194786, 0, 0, [26757]⟩,
  ⟨194787, 0, 0, [144493]⟩,
  ⟨194788, 0, 0, [26766]⟩,
  ⟨194789, 0, 0, [26655]⟩,
  ⟨194790, 0, 0, [26900]⟩,
  ⟨194791, 0, 0, [15261]⟩,
  ⟨194792, 0, 0, [26946]⟩,
  ⟨194793, 0, 0, [27043]⟩,
  ⟨194794, 0, 0, [27114]⟩,
  ⟨194795, 0, 0, [27304]⟩,
  ⟨194796, 0, 0, [145059]⟩,
  ⟨194797, 0, 0, [27355]⟩,
  ⟨194798, 0, 0, [15384]⟩,
  ⟨194799, 0, 0, [27425]⟩,
  ⟨194800, 0, 0, [145575]⟩,
  ⟨194801, 0, 0, [27476]⟩,
  ⟨194802, 0, 0, [15438]⟩]

/-- src/u5e/props/UnicodeData.txt, relevant lines among 29953-30208. -/
def ucd117 : List UcdRow := [
  ⟨194803, 0, 0, [27506]⟩,
  ⟨194804, 0, 0, [27551]⟩,
  ⟨194805, 0, 0, [27578]⟩,
  ⟨194806, 0, 0, [27579]⟩,
  ⟨194807, 0, 0, [146061]⟩,
  ⟨194808, 0, 0, [138507]⟩,
  ⟨194809, 0, 0, [146170]⟩,
  ⟨194810, 0, 0, [27726]⟩,
  ⟨194811, 0, 0, [146620]⟩,
  ⟨194812, 0, 0, [27839]⟩,
  ⟨194813, 0, 0, [27853]⟩,
  ⟨194814, 0, 0, [27751]⟩,
  ⟨194815, 0, 0, [27926]⟩,
  ⟨194816, 0, 0, [27966]⟩,
  ⟨194817, 0, 0, [28023]⟩,
  ⟨194818, 0, 0, [27969]⟩,
  ⟨194819, 0, 0, [28009]⟩,
  ⟨194820, 0, 0, [28024]⟩,
  ⟨194821, 0, 0, [28037]⟩,
  ⟨194822, 0, 0, [146718]⟩,
  ⟨194823, 0, 0, [27956]⟩,
  ⟨194824, 0, 0, [28207]⟩,
  ⟨194825, 0, 0, [28270]⟩,
  ⟨194826, 0, 0, [15667]⟩,
  ⟨194827, 0, 0, [28363]⟩,
  ⟨194828, 0, 0, [28359]⟩,
  ⟨194829, 0, 0, [147153]⟩,
  ⟨194830, 0, 0, [28153]⟩,
  ⟨194831, 0, 0, [28526]⟩,
  ⟨194832, 0, 0, [147294]⟩,
  ⟨194833, 0, 0, [147342]⟩,
  ⟨194834, 0, 0, [28614]⟩,
  ⟨194835, 0, 0, [28729]⟩,
  ⟨194836, 0, 0, [28702]⟩,
  ⟨194837, 0, 0, [28699]⟩,
  ⟨194838, 0, 0, [15766]⟩,
  ⟨194839, 0, 0, [28746]⟩,
  ⟨194840, 0, 0, [28797]⟩,
  ⟨194841, 0, 0, [28791]⟩,
  ⟨194842, 0, 0, [28845]⟩,
  ⟨194843, 0, 0, [132389]⟩,
  ⟨194844, 0, 0, [28997]⟩,
  ⟨194845, 0, 0, [148067]⟩,
  ⟨194846, 0, 0, [29084]⟩,
  ⟨194847, 0, 0, [148395]⟩,
  ⟨194848, 0, 0, [29224]⟩,
  ⟨194849, 0, 0, [29237]⟩,
  ⟨194850, 0, 0, [29264]⟩,
  ⟨194851, 0, 0, [149000]⟩,
  ⟨194852, 0, 0, [29312]⟩,
  ⟨194853, 0, 0, [29333]⟩,
  ⟨194854, 0, 0, [149301]⟩,
  ⟨194855, 0, 0, [149524]⟩,
  ⟨194856, 0, 0, [29562]⟩,
  ⟨194857, 0, 0, [29579]⟩,
  ⟨194858, 0, 0, [16044]⟩,
  ⟨194859, 0, 0, [29605]⟩,
  ⟨194860, 0, 0, [16056]⟩,
  ⟨194861, 0, 0, [16056]⟩,
  ⟨194862, 0, 0, [29767]⟩,
  ⟨194863, 0, 0, [29788]⟩,
  ⟨194864, 0, 0, [29809]⟩,
  ⟨194865, 0, 0, [29829]⟩,
  ⟨194866, 0, 0, [29898]⟩,
  ⟨194867, 0, 0, [16155]⟩,
  ⟨194868, 0, 0, [29988]⟩,
  ⟨194869, 0, 0, [150582]⟩,
  ⟨194870, 0, 0, [30014]⟩,
  ⟨194871, 0, 0, [150674]⟩,
  ⟨194872, 0, 0, [30064]⟩,
  ⟨194873, 0, 0, [139679]⟩,
  ⟨194874, 0, 0, [30224]⟩,
  ⟨194875, 0, 0, [151457]⟩,
  ⟨194876, 0, 0, [151480]⟩,
  ⟨194877, 0, 0, [151620]⟩,
  ⟨194878, 0, 0, [16380]⟩,
  ⟨194879, 0, 0, [16392]⟩,
  ⟨194880, 0, 0, [30452]⟩,
  ⟨194881, 0, 0, [151795]⟩,
  ⟨194882, 0, 0, [151794]⟩,
  ⟨194883, 0, 0, [151833]⟩,
  ⟨194884, 0, 0, [151859]⟩,
  ⟨194885, 0, 0, [30494]⟩,
  ⟨194886, 0, 0, [30495]⟩,
  ⟨194887, 0, 0, [30495]⟩,
  ⟨194888, 0, 0, [30538]⟩,
  ⟨194889, 0, 0, [16441]⟩,
  ⟨194890, 0, 0, [30603]⟩,
  ⟨194891, 0, 0, [16454]⟩,
  ⟨194892, 0, 0, [16534]⟩,
  ⟨194893, 0, 0, [152605]⟩,
  ⟨194894, 0, 0, [30798]⟩,
  ⟨194895, 0, 0, [30860]⟩,
  ⟨194896, 0, 0, [30924]⟩,
  ⟨194897, 0, 0, [16611]⟩,
  ⟨194898, 0, 0, [153126]⟩,
  ⟨194899, 0, 0, [31062]⟩,
  ⟨194900, 0, 0, [153242]⟩,
  ⟨194901, 0, 0, [153285]⟩,
  ⟨194902, 0, 0, [31119]⟩,
  ⟨194903, 0, 0, [31211]⟩,
  ⟨194904, 0, 0, [16687]⟩,
  ⟨194905, 0, 0, [31296]⟩,
  ⟨194906, 0, 0, [31306]⟩,
  ⟨194907, 0, 0, [31311]⟩,
  ⟨194908, 0, 0, [153980]⟩,
  ⟨194909, 0, 0, [154279]⟩,
  ⟨194910, 0, 0, [154279]⟩,
  ⟨194911, 0, 0, [31470]⟩,
  ⟨194912, 0, 0, [16898]⟩,
  ⟨194913, 0, 0, [154539]⟩,
  ⟨194914, 0, 0, [31686]⟩,
  ⟨194915, 0, 0, [31689]⟩,
  ⟨194916, 0, 0, [16935]⟩,
  ⟨194917, 0, 0, [154752]⟩,
  ⟨194918, 0, 0, [31954]⟩,
  ⟨194919, 0, 0, [17056]⟩,
  ⟨194920, 0, 0, [31976]⟩,
  ⟨194921, 0, 0, [31971]⟩,
  ⟨194922, 0, 0, [32000]⟩,
  ⟨194923, 0, 0, [155526]⟩,
  ⟨194924, 0, 0, [32099]⟩,
  ⟨194925, 0, 0, [17153]⟩,
  ⟨194926, 0, 0, [32199]⟩,
  ⟨194927, 0, 0, [32258]⟩,
  ⟨194928, 0, 0, [32325]⟩,
  ⟨194929, 0, 0, [17204]⟩,
  ⟨194930, 0, 0, [156200]⟩,
  ⟨194931, 0, 0, [156231]⟩,
  ⟨194932, 0, 0, [17241]⟩,
  ⟨194933, 0, 0, [156377]⟩,
  ⟨194934, 0, 0, [32634]⟩,
  ⟨194935, 0, 0, [156478]⟩,
  ⟨194936, 0, 0, [32661]⟩,
  ⟨194937, 0, 0, [32762]⟩,
  ⟨194938, 0, 0, [32773]⟩,
  ⟨194939, 0, 0, [156890]⟩,
  ⟨194940, 0, 0, [156963]⟩,
  ⟨194941, 0, 0, [32864]⟩,
  ⟨194942, 0, 0, [157096]⟩,
  ⟨194943, 0, 0, [32880]⟩,
  ⟨194944, 0, 0, [144223]⟩,
  ⟨194945, 0, 0, [17365]⟩,
  ⟨194946, 0, 0, [32946]⟩,
  ⟨194947, 0, 0, [33027]⟩,
  ⟨194948, 0, 0, [17419]⟩,
  ⟨194949, 0, 0, [33086]⟩,
  ⟨194950, 0, 0, [23221]⟩,
  ⟨194951, 0, 0, [157607]⟩,
  ⟨194952, 0, 0, [157621]⟩,
  ⟨194953, 0, 0, [144275]⟩,
  ⟨194954, 0, 0, [144284]⟩,
  ⟨194955, 0, 0, [33281]⟩,
  ⟨194956, 0, 0, [33284]⟩,
  ⟨194957, 0, 0, [36766]⟩,
  ⟨194958, 0, 0, [17515]⟩,
  ⟨194959, 0, 0, [33425]⟩,
  ⟨194960, 0, 0, [33419]⟩,
  ⟨194961, 0, 0, [33437]⟩,
  ⟨194962, 0, 0, [21171]⟩,
  ⟨194963, 0, 0, [33457]⟩,
  ⟨194964, 0, 0, [33459]⟩,
  ⟨194965, 0, 0, [33469]⟩,
  ⟨194966, 0, 0, [33510]⟩,
  ⟨194967, 0, 0, [158524]⟩,
  ⟨194968, 0, 0, [33509]⟩,
  ⟨194969, 0, 0, [33565]⟩,
  ⟨194970, 0, 0, [33635]⟩,
  ⟨194971, 0, 0, [33709]⟩,
  ⟨194972, 0, 0, [33571]⟩,
  ⟨194973, 0, 0, [33725]⟩,
  ⟨194974, 0, 0, [33767]⟩,
  ⟨194975, 0, 0, [33879]⟩,
  ⟨194976, 0, 0, [33619]⟩,
  ⟨194977, 0, 0, [33738]⟩,
  ⟨194978, 0, 0, [33740]⟩,
  ⟨194979, 0, 0, [33756]⟩,
  ⟨194980, 0, 0, [158774]⟩,
  ⟨194981, 0, 0, [159083]⟩,
  ⟨194982, 0, 0, [158933]⟩,
  ⟨194983, 0, 0, [17707]⟩,
  ⟨194984, 0, 0, [34033]⟩,
  ⟨194985, 0, 0, [34035]⟩,
  ⟨194986, 0, 0, [34070]⟩,
  ⟨194987, 0, 0, [160714]⟩,
  ⟨194988, 0, 0, [34148]⟩,
  ⟨194989, 0, 0, [159532]⟩,
  ⟨194990, 0, 0, [17757]⟩,
  ⟨194991, 0, 0, [17761]⟩,
  ⟨194992, 0, 0, [159665]⟩,
  ⟨194993, 0, 0, [159954]⟩,
  ⟨194994, 0, 0, [17771]⟩,
  ⟨194995, 0, 0, [34384]⟩,
  ⟨194996, 0, 0, [34396]⟩,
  ⟨194997, 0, 0, [34407]⟩,
  ⟨194998, 0, 0, [34409]⟩,
  ⟨194999, 0, 0, [34473]⟩,
  ⟨195000, 0, 0, [34440]⟩,
  ⟨195001, 0, 0, [34574]⟩,
  ⟨195002, 0, 0, [34530]⟩,
  ⟨195003, 0, 0, [34681]⟩,
  ⟨195004, 0, 0, [34600]⟩,
  ⟨195005, 0, 0, [34667]⟩,
  ⟨195006, 0, 0, [34694]⟩,
  ⟨195007, 0, 0, [17879]⟩,
  ⟨195008, 0, 0, [34785]⟩,
  ⟨195009, 0, 0, [34817]⟩,
  ⟨195010, 0, 0, [17913]⟩,
  ⟨195011, 0, 0, [34912]⟩,
  ⟨195012, 0, 0, [34915]⟩,
  ⟨195013, 0, 0, [161383]⟩,
  ⟨195014, 0, 0, [35031]⟩,
  ⟨195015, 0, 0, [35038]⟩,
  ⟨195016, 0, 0, [17973]⟩,
  ⟨195017, 0, 0, [35066]⟩,
  ⟨195018, 0, 0, [13499]⟩,
  ⟨195019, 0, 0, [161966]⟩,
  ⟨195020, 0, 0, [162150]⟩,
  ⟨195021, 0, 0, [18110]⟩,
  ⟨195022, 0, 0, [18119]⟩,
  ⟨195023, 0, 0, [35488]⟩,
  ⟨195024, 0, 0, [35565]⟩,
  ⟨195025, 0, 0, [35722]⟩,
  ⟨195026, 0, 0, [35925]⟩,
  ⟨195027, 0, 0, [162984]⟩,
  ⟨195028, 0, 0, [36011]⟩,
  ⟨195029, 0, 0, [36033]⟩,
  ⟨195030, 0, 0, [36123]⟩,
  ⟨195031, 0, 0, [36215]⟩,
  ⟨195032, 0, 0, [163631]⟩,
  ⟨195033, 0, 0, [133124]⟩,
  ⟨195034, 0, 0, [36299]⟩,
  ⟨195035, 0, 0, [36284]⟩,
  ⟨195036, 0, 0, [36336]⟩,
  ⟨195037, 0, 0, [133342]⟩,
  ⟨195038, 0, 0, [36564]⟩,
  ⟨195039, 0, 0, [36664]⟩,
  ⟨195040, 0, 0, [165330]⟩,
  ⟨195041, 0, 0, [165357]⟩,
  ⟨195042, 0, 0, [37012]⟩,
  ⟨195043, 0, 0, [37105]⟩,
  ⟨195044, 0, 0, [37137]⟩,
  ⟨195045, 0, 0, [165678]⟩,
  ⟨195046, 0, 0, [37147]⟩,
  ⟨195047, 0, 0, [37432]⟩,
  ⟨195048, 0, 0, [37591]⟩,
  ⟨195049, 0, 0, [37592]⟩,
  ⟨195050, 0, 0, [37500]⟩,
  ⟨195051, 0, 0, [37881]⟩,
  ⟨195052, 0, 0, [37909]⟩,
  ⟨195053, 0, 0, [166906]⟩,
  ⟨195054, 0, 0, [38283]⟩,
  ⟨195055, 0, 0, [18837]⟩,
  ⟨195056, 0, 0, [38327]⟩,
  ⟨195057, 0, 0, [167287]⟩,
  ⟨195058, 0, 0, [18918]⟩]

/-- src/u5e/props/UnicodeData.txt, relevant lines among 30209-30464. -/
def ucd118 : List UcdRow := [
  ⟨195059, 0, 0, [38595]⟩,
  ⟨195060, 0, 0, [23986]⟩,
  ⟨195061, 0, 0, [38691]⟩,
  ⟨195062, 0, 0, [168261]⟩,
  ⟨195063, 0, 0, [168474]⟩,
  ⟨195064, 0, 0, [19054]⟩,
  ⟨195065, 0, 0, [19062]⟩,
  ⟨195066, 0, 0, [38880]⟩,
  ⟨195067, 0, 0, [168970]⟩,
  ⟨195068, 0, 0, [19122]⟩,
  ⟨195069, 0, 0, [169110]⟩,
  ⟨195070, 0, 0, [38923]⟩,
  ⟨195071, 0, 0, [38923]⟩,
  ⟨195072, 0, 0, [38953]⟩,
  ⟨195073, 0, 0, [169398]⟩,
  ⟨195074, 0, 0, [39138]⟩,
  ⟨195075, 0, 0, [19251]⟩,
  ⟨195076, 0, 0, [39209]⟩,
  ⟨195077, 0, 0, [39335]⟩,
  ⟨195078, 0, 0, [39362]⟩,
  ⟨195079, 0, 0, [39422]⟩,
  ⟨195080, 0, 0, [19406]⟩,
  ⟨195081, 0, 0, [170800]⟩,
  ⟨195082, 0, 0, [39698]⟩,
  ⟨195083, 0, 0, [40000]⟩,
  ⟨195084, 0, 0, [40189]⟩,
  ⟨195085, 0, 0, [19662]⟩,
  ⟨195086, 0, 0, [19693]⟩,
  ⟨195087, 0, 0, [40295]⟩,
  ⟨195088, 0, 0, [172238]⟩,
  ⟨195089, 0, 0, [19704]⟩,
  ⟨195090, 0, 0, [172293]⟩,
  ⟨195091, 0, 0, [172558]⟩,
  ⟨195092, 0, 0, [172689]⟩,
  ⟨195093, 0, 0, [40635]⟩,
  ⟨195094, 0, 0, [19798]⟩,
  ⟨195095, 0, 0, [40697]⟩,
  ⟨195096, 0, 0, [40702]⟩,
  ⟨195097, 0, 0, [40709]⟩,
  ⟨195098, 0, 0, [40719]⟩,
  ⟨195099, 0, 0, [40726]⟩,
  ⟨195100, 0, 0, [40763]⟩,
  ⟨195101, 0, 0, [173568]⟩]

/-- src/u5e/props/UnicodeData.txt, relevant lines among 30465-30592. -/
def ucd119 : List UcdRow := []

/-- All of it: src/u5e/props/UnicodeData.txt (the 6532 of 30592 lines that have a non-zero class or a decomposition, in order). -/
@[irreducible] def ucdRows : List UcdRow :=
  ucd0 ++ (ucd1 ++ (ucd2 ++ (ucd3 ++ (ucd4 ++ (ucd5 ++ (ucd6 ++ (ucd7 ++ (ucd8 ++ (ucd9 ++ (ucd10 ++ (ucd11 ++ (ucd12 ++ (ucd13 ++ (ucd14 ++ (ucd15 ++ (ucd16 ++ (ucd17 ++ (ucd18 ++ (ucd19 ++ (ucd20 ++ (ucd21 ++ (ucd22 ++ (ucd23 ++ (ucd24 ++ (ucd25 ++ (ucd26 ++ (ucd27 ++ (ucd28 ++ (ucd29 ++ (ucd30 ++ (ucd31 ++ (ucd32 ++ (ucd33 ++ (ucd34 ++ (ucd35 ++ (ucd36 ++ (ucd37 ++ (ucd38 ++ (ucd39 ++ (ucd40 ++ (ucd41 ++ (ucd42 ++ (ucd43 ++ (ucd44 ++ (ucd45 ++ (ucd46 ++ (ucd47 ++ (ucd48 ++ (ucd49 ++ (ucd50 ++ (ucd51 ++ (ucd52 ++ (ucd53 ++ (ucd54 ++ (ucd55 ++ (ucd56 ++ (ucd57 ++ (ucd58 ++ (ucd59 ++ (ucd60 ++ (ucd61 ++ (ucd62 ++ (ucd63 ++ (ucd64 ++ (ucd65 ++ (ucd66 ++ (ucd67 ++ (ucd68 ++ (ucd69 ++ (ucd70 ++ (ucd71 ++ (ucd72 ++ (ucd73 ++ (ucd74 ++ (ucd75 ++ (ucd76 ++ (ucd77 ++ (ucd78 ++ (ucd79 ++ (ucd80 ++ (ucd81 ++ (ucd82 ++ (ucd83 ++ (ucd84 ++ (ucd85 ++ (ucd86 ++ (ucd87 ++ (ucd88 ++ (ucd89 ++ (ucd90 ++ (ucd91 ++ (ucd92 ++ (ucd93 ++ (ucd94 ++ (ucd95 ++ (ucd96 ++ (ucd97 ++ (ucd98 ++ (ucd99 ++ (ucd100 ++ (ucd101 ++ (ucd102 ++ (ucd103 ++ (ucd104 ++ (ucd105 ++ (ucd106 ++ (ucd107 ++ (ucd108 ++ (ucd109 ++ (ucd110 ++ (ucd111 ++ (ucd112 ++ (ucd113 ++ (ucd114 ++ (ucd115 ++ (ucd116 ++ (ucd117 ++ (ucd118 ++ (ucd119)))))))))))))))))))))))))))))))))))))))))))))))))))))))))))))))))))))))))))))))))))))))))))))))))))))))))))))))))))))))

end U5e.Data
