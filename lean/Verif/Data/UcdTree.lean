import Verif.Proofs.Tree
import Verif.Model.Ucd
set_option maxRecDepth 10000
/-! GENERATED by tools/gen_ucd.py: the rows of Data/Ucd.lean as a search tree (proof aid). -/
namespace U5e.Data
open U5e

/-- Rows of Data/Ucd.lean (proof aid). -/
def ucdT0 : Tree UcdRow := (.node (.node (.node (.node (.node (.node .leaf ⟨160, 0, 2, [32]⟩ .leaf) ⟨168, 0, 1, [32, 776]⟩ (.node .leaf ⟨170, 0, 2, [97]⟩ .leaf)) ⟨175, 0, 1, [32, 772]⟩ (.node (.node .leaf ⟨178, 0, 2, [50]⟩ .leaf) ⟨179, 0, 2, [51]⟩ .leaf)) ⟨180, 0, 1, [32, 769]⟩ (.node (.node (.node .leaf ⟨181, 0, 1, [956]⟩ .leaf) ⟨184, 0, 1, [32, 807]⟩ .leaf) ⟨185, 0, 2, [49]⟩ (.node (.node .leaf ⟨186, 0, 2, [111]⟩ .leaf) ⟨188, 0, 2, [49, 8260, 52]⟩ .leaf))) ⟨189, 0, 2, [49, 8260, 50]⟩ (.node (.node (.node (.node .leaf ⟨190, 0, 2, [51, 8260, 52]⟩ .leaf) ⟨192, 0, 0, [65, 768]⟩ (.node .leaf ⟨193, 0, 0, [65, 769]⟩ .leaf)) ⟨194, 0, 0, [65, 770]⟩ (.node (.node .leaf ⟨195, 0, 0, [65, 771]⟩ .leaf) ⟨196, 0, 0, [65, 776]⟩ .leaf)) ⟨197, 0, 0, [65, 778]⟩ (.node (.node (.node .leaf ⟨199, 0, 0, [67, 807]⟩ .leaf) ⟨200, 0, 0, [69, 768]⟩ .leaf) ⟨201, 0, 0, [69, 769]⟩ (.node (.node .leaf ⟨202, 0, 0, [69, 770]⟩ .leaf) ⟨203, 0, 0, [69, 776]⟩ .leaf)))) ⟨204, 0, 0, [73, 768]⟩ (.node (.node (.node (.node (.node .leaf ⟨205, 0, 0, [73, 769]⟩ .leaf) ⟨206, 0, 0, [73, 770]⟩ (.node .leaf ⟨207, 0, 0, [73, 776]⟩ .leaf)) ⟨209, 0, 0, [78, 771]⟩ (.node (.node .leaf ⟨210, 0, 0, [79, 768]⟩ .leaf) ⟨211, 0, 0, [79, 769]⟩ .leaf)) ⟨212, 0, 0, [79, 770]⟩ (.node (.node (.node .leaf ⟨213, 0, 0, [79, 771]⟩ .leaf) ⟨214, 0, 0, [79, 776]⟩ .leaf) ⟨217, 0, 0, [85, 768]⟩ (.node (.node .leaf ⟨218, 0, 0, [85, 769]⟩ .leaf) ⟨219, 0, 0, [85, 770]⟩ .leaf))) ⟨220, 0, 0, [85, 776]⟩ (.node (.node (.node (.node .leaf ⟨221, 0, 0, [89, 769]⟩ .leaf) ⟨224, 0, 0, [97, 768]⟩ (.node .leaf ⟨225, 0, 0, [97, 769]⟩ .leaf)) ⟨226, 0, 0, [97, 770]⟩ (.node (.node .leaf ⟨227, 0, 0, [97, 771]⟩ .leaf) ⟨228, 0, 0, [97, 776]⟩ .leaf)) ⟨229, 0, 0, [97, 778]⟩ (.node (.node (.node .leaf ⟨231, 0, 0, [99, 807]⟩ .leaf) ⟨232, 0, 0, [101, 768]⟩ .leaf) ⟨233, 0, 0, [101, 769]⟩ (.node (.node .leaf ⟨234, 0, 0, [101, 770]⟩ .leaf) ⟨235, 0, 0, [101, 776]⟩ .leaf)))))

/-- Rows of Data/Ucd.lean (proof aid). -/
def ucdT1 : Tree UcdRow := (.node (.node (.node (.node (.node (.node .leaf ⟨237, 0, 0, [105, 769]⟩ .leaf) ⟨238, 0, 0, [105, 770]⟩ (.node .leaf ⟨239, 0, 0, [105, 776]⟩ .leaf)) ⟨241, 0, 0, [110, 771]⟩ (.node (.node .leaf ⟨242, 0, 0, [111, 768]⟩ .leaf) ⟨243, 0, 0, [111, 769]⟩ .leaf)) ⟨244, 0, 0, [111, 770]⟩ (.node (.node (.node .leaf ⟨245, 0, 0, [111, 771]⟩ .leaf) ⟨246, 0, 0, [111, 776]⟩ .leaf) ⟨249, 0, 0, [117, 768]⟩ (.node (.node .leaf ⟨250, 0, 0, [117, 769]⟩ .leaf) ⟨251, 0, 0, [117, 770]⟩ .leaf))) ⟨252, 0, 0, [117, 776]⟩ (.node (.node (.node (.node .leaf ⟨253, 0, 0, [121, 769]⟩ .leaf) ⟨255, 0, 0, [121, 776]⟩ (.node .leaf ⟨256, 0, 0, [65, 772]⟩ .leaf)) ⟨257, 0, 0, [97, 772]⟩ (.node (.node .leaf ⟨258, 0, 0, [65, 774]⟩ .leaf) ⟨259, 0, 0, [97, 774]⟩ .leaf)) ⟨260, 0, 0, [65, 808]⟩ (.node (.node (.node .leaf ⟨261, 0, 0, [97, 808]⟩ .leaf) ⟨262, 0, 0, [67, 769]⟩ .leaf) ⟨263, 0, 0, [99, 769]⟩ (.node (.node .leaf ⟨264, 0, 0, [67, 770]⟩ .leaf) ⟨265, 0, 0, [99, 770]⟩ .leaf)))) ⟨266, 0, 0, [67, 775]⟩ (.node (.node (.node (.node (.node .leaf ⟨267, 0, 0, [99, 775]⟩ .leaf) ⟨268, 0, 0, [67, 780]⟩ (.node .leaf ⟨269, 0, 0, [99, 780]⟩ .leaf)) ⟨270, 0, 0, [68, 780]⟩ (.node (.node .leaf ⟨271, 0, 0, [100, 780]⟩ .leaf) ⟨274, 0, 0, [69, 772]⟩ .leaf)) ⟨275, 0, 0, [101, 772]⟩ (.node (.node (.node .leaf ⟨276, 0, 0, [69, 774]⟩ .leaf) ⟨277, 0, 0, [101, 774]⟩ .leaf) ⟨278, 0, 0, [69, 775]⟩ (.node (.node .leaf ⟨279, 0, 0, [101, 775]⟩ .leaf) ⟨280, 0, 0, [69, 808]⟩ .leaf))) ⟨281, 0, 0, [101, 808]⟩ (.node (.node (.node (.node .leaf ⟨282, 0, 0, [69, 780]⟩ .leaf) ⟨283, 0, 0, [101, 780]⟩ .leaf) ⟨284, 0, 0, [71, 770]⟩ (.node (.node .leaf ⟨285, 0, 0, [103, 770]⟩ .leaf) ⟨286, 0, 0, [71, 774]⟩ .leaf)) ⟨287, 0, 0, [103, 774]⟩ (.node (.node (.node .leaf ⟨288, 0, 0, [71, 775]⟩ .leaf) ⟨289, 0, 0, [103, 775]⟩ .leaf) ⟨290, 0, 0, [71, 807]⟩ (.node (.node .leaf ⟨291, 0, 0, [103, 807]⟩ .leaf) ⟨292, 0, 0, [72, 770]⟩ .leaf)))))

/-- Rows of Data/Ucd.lean (proof aid). -/
def ucdT2 : Tree UcdRow := (.node (.node (.node (.node (.node (.node .leaf ⟨296, 0, 0, [73, 771]⟩ .leaf) ⟨297, 0, 0, [105, 771]⟩ (.node .leaf ⟨298, 0, 0, [73, 772]⟩ .leaf)) ⟨299, 0, 0, [105, 772]⟩ (.node (.node .leaf ⟨300, 0, 0, [73, 774]⟩ .leaf) ⟨301, 0, 0, [105, 774]⟩ .leaf)) ⟨302, 0, 0, [73, 808]⟩ (.node (.node (.node .leaf ⟨303, 0, 0, [105, 808]⟩ .leaf) ⟨304, 0, 0, [73, 775]⟩ .leaf) ⟨306, 0, 1, [73, 74]⟩ (.node (.node .leaf ⟨307, 0, 1, [105, 106]⟩ .leaf) ⟨308, 0, 0, [74, 770]⟩ .leaf))) ⟨309, 0, 0, [106, 770]⟩ (.node (.node (.node (.node .leaf ⟨310, 0, 0, [75, 807]⟩ .leaf) ⟨311, 0, 0, [107, 807]⟩ (.node .leaf ⟨313, 0, 0, [76, 769]⟩ .leaf)) ⟨314, 0, 0, [108, 769]⟩ (.node (.node .leaf ⟨315, 0, 0, [76, 807]⟩ .leaf) ⟨316, 0, 0, [108, 807]⟩ .leaf)) ⟨317, 0, 0, [76, 780]⟩ (.node (.node (.node .leaf ⟨318, 0, 0, [108, 780]⟩ .leaf) ⟨319, 0, 1, [76, 183]⟩ .leaf) ⟨320, 0, 1, [108, 183]⟩ (.node (.node .leaf ⟨323, 0, 0, [78, 769]⟩ .leaf) ⟨324, 0, 0, [110, 769]⟩ .leaf)))) ⟨325, 0, 0, [78, 807]⟩ (.node (.node (.node (.node (.node .leaf ⟨326, 0, 0, [110, 807]⟩ .leaf) ⟨327, 0, 0, [78, 780]⟩ (.node .leaf ⟨328, 0, 0, [110, 780]⟩ .leaf)) ⟨329, 0, 1, [700, 110]⟩ (.node (.node .leaf ⟨332, 0, 0, [79, 772]⟩ .leaf) ⟨333, 0, 0, [111, 772]⟩ .leaf)) ⟨334, 0, 0, [79, 774]⟩ (.node (.node (.node .leaf ⟨335, 0, 0, [111, 774]⟩ .leaf) ⟨336, 0, 0, [79, 779]⟩ .leaf) ⟨337, 0, 0, [111, 779]⟩ (.node (.node .leaf ⟨340, 0, 0, [82, 769]⟩ .leaf) ⟨341, 0, 0, [114, 769]⟩ .leaf))) ⟨342, 0, 0, [82, 807]⟩ (.node (.node (.node (.node .leaf ⟨343, 0, 0, [114, 807]⟩ .leaf) ⟨344, 0, 0, [82, 780]⟩ .leaf) ⟨345, 0, 0, [114, 780]⟩ (.node (.node .leaf ⟨346, 0, 0, [83, 769]⟩ .leaf) ⟨347, 0, 0, [115, 769]⟩ .leaf)) ⟨348, 0, 0, [83, 770]⟩ (.node (.node (.node .leaf ⟨349, 0, 0, [115, 770]⟩ .leaf) ⟨350, 0, 0, [83, 807]⟩ .leaf) ⟨351, 0, 0, [115, 807]⟩ (.node (.node .leaf ⟨352, 0, 0, [83, 780]⟩ .leaf) ⟨353, 0, 0, [115, 780]⟩ .leaf)))))

/-- Rows of Data/Ucd.lean (proof aid). -/
def ucdT3 : Tree UcdRow := (.node (.node (.node (.node (.node (.node .leaf ⟨355, 0, 0, [116, 807]⟩ .leaf) ⟨356, 0, 0, [84, 780]⟩ (.node .leaf ⟨357, 0, 0, [116, 780]⟩ .leaf)) ⟨360, 0, 0, [85, 771]⟩ (.node (.node .leaf ⟨361, 0, 0, [117, 771]⟩ .leaf) ⟨362, 0, 0, [85, 772]⟩ .leaf)) ⟨363, 0, 0, [117, 772]⟩ (.node (.node (.node .leaf ⟨364, 0, 0, [85, 774]⟩ .leaf) ⟨365, 0, 0, [117, 774]⟩ .leaf) ⟨366, 0, 0, [85, 778]⟩ (.node (.node .leaf ⟨367, 0, 0, [117, 778]⟩ .leaf) ⟨368, 0, 0, [85, 779]⟩ .leaf))) ⟨369, 0, 0, [117, 779]⟩ (.node (.node (.node (.node .leaf ⟨370, 0, 0, [85, 808]⟩ .leaf) ⟨371, 0, 0, [117, 808]⟩ (.node .leaf ⟨372, 0, 0, [87, 770]⟩ .leaf)) ⟨373, 0, 0, [119, 770]⟩ (.node (.node .leaf ⟨374, 0, 0, [89, 770]⟩ .leaf) ⟨375, 0, 0, [121, 770]⟩ .leaf)) ⟨376, 0, 0, [89, 776]⟩ (.node (.node (.node .leaf ⟨377, 0, 0, [90, 769]⟩ .leaf) ⟨378, 0, 0, [122, 769]⟩ .leaf) ⟨379, 0, 0, [90, 775]⟩ (.node (.node .leaf ⟨380, 0, 0, [122, 775]⟩ .leaf) ⟨381, 0, 0, [90, 780]⟩ .leaf)))) ⟨382, 0, 0, [122, 780]⟩ (.node (.node (.node (.node (.node .leaf ⟨383, 0, 1, [115]⟩ .leaf) ⟨416, 0, 0, [79, 795]⟩ (.node .leaf ⟨417, 0, 0, [111, 795]⟩ .leaf)) ⟨431, 0, 0, [85, 795]⟩ (.node (.node .leaf ⟨432, 0, 0, [117, 795]⟩ .leaf) ⟨452, 0, 1, [68, 381]⟩ .leaf)) ⟨453, 0, 1, [68, 382]⟩ (.node (.node (.node .leaf ⟨454, 0, 1, [100, 382]⟩ .leaf) ⟨455, 0, 1, [76, 74]⟩ .leaf) ⟨456, 0, 1, [76, 106]⟩ (.node (.node .leaf ⟨457, 0, 1, [108, 106]⟩ .leaf) ⟨458, 0, 1, [78, 74]⟩ .leaf))) ⟨459, 0, 1, [78, 106]⟩ (.node (.node (.node (.node .leaf ⟨460, 0, 1, [110, 106]⟩ .leaf) ⟨461, 0, 0, [65, 780]⟩ .leaf) ⟨462, 0, 0, [97, 780]⟩ (.node (.node .leaf ⟨463, 0, 0, [73, 780]⟩ .leaf) ⟨464, 0, 0, [105, 780]⟩ .leaf)) ⟨465, 0, 0, [79, 780]⟩ (.node (.node (.node .leaf ⟨466, 0, 0, [111, 780]⟩ .leaf) ⟨467, 0, 0, [85, 780]⟩ .leaf) ⟨468, 0, 0, [117, 780]⟩ (.node (.node .leaf ⟨469, 0, 0, [220, 772]⟩ .leaf) ⟨470, 0, 0, [252, 772]⟩ .leaf)))))

/-- Rows of Data/Ucd.lean (proof aid). -/
def ucdT4 : Tree UcdRow := (.node (.node (.node (.node (.node (.node .leaf ⟨472, 0, 0, [252, 769]⟩ .leaf) ⟨473, 0, 0, [220, 780]⟩ (.node .leaf ⟨474, 0, 0, [252, 780]⟩ .leaf)) ⟨475, 0, 0, [220, 768]⟩ (.node (.node .leaf ⟨476, 0, 0, [252, 768]⟩ .leaf) ⟨478, 0, 0, [196, 772]⟩ .leaf)) ⟨479, 0, 0, [228, 772]⟩ (.node (.node (.node .leaf ⟨480, 0, 0, [550, 772]⟩ .leaf) ⟨481, 0, 0, [551, 772]⟩ .leaf) ⟨482, 0, 0, [198, 772]⟩ (.node (.node .leaf ⟨483, 0, 0, [230, 772]⟩ .leaf) ⟨486, 0, 0, [71, 780]⟩ .leaf))) ⟨487, 0, 0, [103, 780]⟩ (.node (.node (.node (.node .leaf ⟨488, 0, 0, [75, 780]⟩ .leaf) ⟨489, 0, 0, [107, 780]⟩ (.node .leaf ⟨490, 0, 0, [79, 808]⟩ .leaf)) ⟨491, 0, 0, [111, 808]⟩ (.node (.node .leaf ⟨492, 0, 0, [490, 772]⟩ .leaf) ⟨493, 0, 0, [491, 772]⟩ .leaf)) ⟨494, 0, 0, [439, 780]⟩ (.node (.node (.node .leaf ⟨495, 0, 0, [658, 780]⟩ .leaf) ⟨496, 0, 0, [106, 780]⟩ .leaf) ⟨497, 0, 1, [68, 90]⟩ (.node (.node .leaf ⟨498, 0, 1, [68, 122]⟩ .leaf) ⟨499, 0, 1, [100, 122]⟩ .leaf)))) ⟨500, 0, 0, [71, 769]⟩ (.node (.node (.node (.node (.node .leaf ⟨501, 0, 0, [103, 769]⟩ .leaf) ⟨504, 0, 0, [78, 768]⟩ (.node .leaf ⟨505, 0, 0, [110, 768]⟩ .leaf)) ⟨506, 0, 0, [197, 769]⟩ (.node (.node .leaf ⟨507, 0, 0, [229, 769]⟩ .leaf) ⟨508, 0, 0, [198, 769]⟩ .leaf)) ⟨509, 0, 0, [230, 769]⟩ (.node (.node (.node .leaf ⟨510, 0, 0, [216, 769]⟩ .leaf) ⟨511, 0, 0, [248, 769]⟩ .leaf) ⟨512, 0, 0, [65, 783]⟩ (.node (.node .leaf ⟨513, 0, 0, [97, 783]⟩ .leaf) ⟨514, 0, 0, [65, 785]⟩ .leaf))) ⟨515, 0, 0, [97, 785]⟩ (.node (.node (.node (.node .leaf ⟨516, 0, 0, [69, 783]⟩ .leaf) ⟨517, 0, 0, [101, 783]⟩ .leaf) ⟨518, 0, 0, [69, 785]⟩ (.node (.node .leaf ⟨519, 0, 0, [101, 785]⟩ .leaf) ⟨520, 0, 0, [73, 783]⟩ .leaf)) ⟨521, 0, 0, [105, 783]⟩ (.node (.node (.node .leaf ⟨522, 0, 0, [73, 785]⟩ .leaf) ⟨523, 0, 0, [105, 785]⟩ .leaf) ⟨524, 0, 0, [79, 783]⟩ (.node (.node .leaf ⟨525, 0, 0, [111, 783]⟩ .leaf) ⟨526, 0, 0, [79, 785]⟩ .leaf)))))

/-- Rows of Data/Ucd.lean (proof aid). -/
def ucdT5 : Tree UcdRow := (.node (.node (.node (.node (.node (.node .leaf ⟨528, 0, 0, [82, 783]⟩ .leaf) ⟨529, 0, 0, [114, 783]⟩ (.node .leaf ⟨530, 0, 0, [82, 785]⟩ .leaf)) ⟨531, 0, 0, [114, 785]⟩ (.node (.node .leaf ⟨532, 0, 0, [85, 783]⟩ .leaf) ⟨533, 0, 0, [117, 783]⟩ .leaf)) ⟨534, 0, 0, [85, 785]⟩ (.node (.node (.node .leaf ⟨535, 0, 0, [117, 785]⟩ .leaf) ⟨536, 0, 0, [83, 806]⟩ .leaf) ⟨537, 0, 0, [115, 806]⟩ (.node (.node .leaf ⟨538, 0, 0, [84, 806]⟩ .leaf) ⟨539, 0, 0, [116, 806]⟩ .leaf))) ⟨542, 0, 0, [72, 780]⟩ (.node (.node (.node (.node .leaf ⟨543, 0, 0, [104, 780]⟩ .leaf) ⟨550, 0, 0, [65, 775]⟩ (.node .leaf ⟨551, 0, 0, [97, 775]⟩ .leaf)) ⟨552, 0, 0, [69, 807]⟩ (.node (.node .leaf ⟨553, 0, 0, [101, 807]⟩ .leaf) ⟨554, 0, 0, [214, 772]⟩ .leaf)) ⟨555, 0, 0, [246, 772]⟩ (.node (.node (.node .leaf ⟨556, 0, 0, [213, 772]⟩ .leaf) ⟨557, 0, 0, [245, 772]⟩ .leaf) ⟨558, 0, 0, [79, 775]⟩ (.node (.node .leaf ⟨559, 0, 0, [111, 775]⟩ .leaf) ⟨560, 0, 0, [558, 772]⟩ .leaf)))) ⟨561, 0, 0, [559, 772]⟩ (.node (.node (.node (.node (.node .leaf ⟨562, 0, 0, [89, 772]⟩ .leaf) ⟨563, 0, 0, [121, 772]⟩ (.node .leaf ⟨688, 0, 2, [104]⟩ .leaf)) ⟨689, 0, 2, [614]⟩ (.node (.node .leaf ⟨690, 0, 2, [106]⟩ .leaf) ⟨691, 0, 2, [114]⟩ .leaf)) ⟨692, 0, 2, [633]⟩ (.node (.node (.node .leaf ⟨693, 0, 2, [635]⟩ .leaf) ⟨694, 0, 2, [641]⟩ .leaf) ⟨695, 0, 2, [119]⟩ (.node (.node .leaf ⟨696, 0, 2, [121]⟩ .leaf) ⟨728, 0, 1, [32, 774]⟩ .leaf))) ⟨729, 0, 1, [32, 775]⟩ (.node (.node (.node (.node .leaf ⟨730, 0, 1, [32, 778]⟩ .leaf) ⟨731, 0, 1, [32, 808]⟩ .leaf) ⟨732, 0, 1, [32, 771]⟩ (.node (.node .leaf ⟨733, 0, 1, [32, 779]⟩ .leaf) ⟨736, 0, 2, [611]⟩ .leaf)) ⟨737, 0, 2, [108]⟩ (.node (.node (.node .leaf ⟨738, 0, 2, [115]⟩ .leaf) ⟨739, 0, 2, [120]⟩ .leaf) ⟨740, 0, 2, [661]⟩ (.node (.node .leaf ⟨768, 230, 0, []⟩ .leaf) ⟨769, 230, 0, []⟩ .leaf)))))

/-- Rows of Data/Ucd.lean (proof aid). -/
def ucdT6 : Tree UcdRow := (.node (.node (.node (.node (.node (.node .leaf ⟨771, 230, 0, []⟩ .leaf) ⟨772, 230, 0, []⟩ (.node .leaf ⟨773, 230, 0, []⟩ .leaf)) ⟨774, 230, 0, []⟩ (.node (.node .leaf ⟨775, 230, 0, []⟩ .leaf) ⟨776, 230, 0, []⟩ .leaf)) ⟨777, 230, 0, []⟩ (.node (.node (.node .leaf ⟨778, 230, 0, []⟩ .leaf) ⟨779, 230, 0, []⟩ .leaf) ⟨780, 230, 0, []⟩ (.node (.node .leaf ⟨781, 230, 0, []⟩ .leaf) ⟨782, 230, 0, []⟩ .leaf))) ⟨783, 230, 0, []⟩ (.node (.node (.node (.node .leaf ⟨784, 230, 0, []⟩ .leaf) ⟨785, 230, 0, []⟩ (.node .leaf ⟨786, 230, 0, []⟩ .leaf)) ⟨787, 230, 0, []⟩ (.node (.node .leaf ⟨788, 230, 0, []⟩ .leaf) ⟨789, 232, 0, []⟩ .leaf)) ⟨790, 220, 0, []⟩ (.node (.node (.node .leaf ⟨791, 220, 0, []⟩ .leaf) ⟨792, 220, 0, []⟩ .leaf) ⟨793, 220, 0, []⟩ (.node (.node .leaf ⟨794, 232, 0, []⟩ .leaf) ⟨795, 216, 0, []⟩ .leaf)))) ⟨796, 220, 0, []⟩ (.node (.node (.node (.node (.node .leaf ⟨797, 220, 0, []⟩ .leaf) ⟨798, 220, 0, []⟩ (.node .leaf ⟨799, 220, 0, []⟩ .leaf)) ⟨800, 220, 0, []⟩ (.node (.node .leaf ⟨801, 202, 0, []⟩ .leaf) ⟨802, 202, 0, []⟩ .leaf)) ⟨803, 220, 0, []⟩ (.node (.node (.node .leaf ⟨804, 220, 0, []⟩ .leaf) ⟨805, 220, 0, []⟩ .leaf) ⟨806, 220, 0, []⟩ (.node (.node .leaf ⟨807, 202, 0, []⟩ .leaf) ⟨808, 202, 0, []⟩ .leaf))) ⟨809, 220, 0, []⟩ (.node (.node (.node (.node .leaf ⟨810, 220, 0, []⟩ .leaf) ⟨811, 220, 0, []⟩ .leaf) ⟨812, 220, 0, []⟩ (.node (.node .leaf ⟨813, 220, 0, []⟩ .leaf) ⟨814, 220, 0, []⟩ .leaf)) ⟨815, 220, 0, []⟩ (.node (.node (.node .leaf ⟨816, 220, 0, []⟩ .leaf) ⟨817, 220, 0, []⟩ .leaf) ⟨818, 220, 0, []⟩ (.node (.node .leaf ⟨819, 220, 0, []⟩ .leaf) ⟨820, 1, 0, []⟩ .leaf)))))

/-- Rows of Data/Ucd.lean (proof aid). -/
def ucdT7 : Tree UcdRow := (.node (.node (.node (.node (.node (.node .leaf ⟨822, 1, 0, []⟩ .leaf) ⟨823, 1, 0, []⟩ (.node .leaf ⟨824, 1, 0, []⟩ .leaf)) ⟨825, 220, 0, []⟩ (.node (.node .leaf ⟨826, 220, 0, []⟩ .leaf) ⟨827, 220, 0, []⟩ .leaf)) ⟨828, 220, 0, []⟩ (.node (.node (.node .leaf ⟨829, 230, 0, []⟩ .leaf) ⟨830, 230, 0, []⟩ .leaf) ⟨831, 230, 0, []⟩ (.node (.node .leaf ⟨832, 230, 0, [768]⟩ .leaf) ⟨833, 230, 0, [769]⟩ .leaf))) ⟨834, 230, 0, []⟩ (.node (.node (.node (.node .leaf ⟨835, 230, 0, [787]⟩ .leaf) ⟨836, 230, 0, [776, 769]⟩ (.node .leaf ⟨837, 240, 0, []⟩ .leaf)) ⟨838, 230, 0, []⟩ (.node (.node .leaf ⟨839, 220, 0, []⟩ .leaf) ⟨840, 220, 0, []⟩ .leaf)) ⟨841, 220, 0, []⟩ (.node (.node (.node .leaf ⟨842, 230, 0, []⟩ .leaf) ⟨843, 230, 0, []⟩ .leaf) ⟨844, 230, 0, []⟩ (.node (.node .leaf ⟨845, 220, 0, []⟩ .leaf) ⟨846, 220, 0, []⟩ .leaf)))) ⟨848, 230, 0, []⟩ (.node (.node (.node (.node (.node .leaf ⟨849, 230, 0, []⟩ .leaf) ⟨850, 230, 0, []⟩ (.node .leaf ⟨851, 220, 0, []⟩ .leaf)) ⟨852, 220, 0, []⟩ (.node (.node .leaf ⟨853, 220, 0, []⟩ .leaf) ⟨854, 220, 0, []⟩ .leaf)) ⟨855, 230, 0, []⟩ (.node (.node (.node .leaf ⟨856, 232, 0, []⟩ .leaf) ⟨857, 220, 0, []⟩ .leaf) ⟨858, 220, 0, []⟩ (.node (.node .leaf ⟨859, 230, 0, []⟩ .leaf) ⟨860, 233, 0, []⟩ .leaf))) ⟨861, 234, 0, []⟩ (.node (.node (.node (.node .leaf ⟨862, 234, 0, []⟩ .leaf) ⟨863, 233, 0, []⟩ .leaf) ⟨864, 234, 0, []⟩ (.node (.node .leaf ⟨865, 234, 0, []⟩ .leaf) ⟨866, 233, 0, []⟩ .leaf)) ⟨867, 230, 0, []⟩ (.node (.node (.node .leaf ⟨868, 230, 0, []⟩ .leaf) ⟨869, 230, 0, []⟩ .leaf) ⟨870, 230, 0, []⟩ (.node (.node .leaf ⟨871, 230, 0, []⟩ .leaf) ⟨872, 230, 0, []⟩ .leaf)))))

/-- Rows of Data/Ucd.lean (proof aid). -/
def ucdT8 : Tree UcdRow := (.node (.node (.node (.node (.node (.node .leaf ⟨874, 230, 0, []⟩ .leaf) ⟨875, 230, 0, []⟩ (.node .leaf ⟨876, 230, 0, []⟩ .leaf)) ⟨877, 230, 0, []⟩ (.node (.node .leaf ⟨878, 230, 0, []⟩ .leaf) ⟨879, 230, 0, []⟩ .leaf)) ⟨884, 0, 0, [697]⟩ (.node (.node (.node .leaf ⟨890, 0, 1, [32, 837]⟩ .leaf) ⟨894, 0, 0, [59]⟩ .leaf) ⟨900, 0, 1, [32, 769]⟩ (.node (.node .leaf ⟨901, 0, 0, [168, 769]⟩ .leaf) ⟨902, 0, 0, [913, 769]⟩ .leaf))) ⟨903, 0, 0, [183]⟩ (.node (.node (.node (.node .leaf ⟨904, 0, 0, [917, 769]⟩ .leaf) ⟨905, 0, 0, [919, 769]⟩ (.node .leaf ⟨906, 0, 0, [921, 769]⟩ .leaf)) ⟨908, 0, 0, [927, 769]⟩ (.node (.node .leaf ⟨910, 0, 0, [933, 769]⟩ .leaf) ⟨911, 0, 0, [937, 769]⟩ .leaf)) ⟨912, 0, 0, [970, 769]⟩ (.node (.node (.node .leaf ⟨938, 0, 0, [921, 776]⟩ .leaf) ⟨939, 0, 0, [933, 776]⟩ .leaf) ⟨940, 0, 0, [945, 769]⟩ (.node (.node .leaf ⟨941, 0, 0, [949, 769]⟩ .leaf) ⟨942, 0, 0, [951, 769]⟩ .leaf)))) ⟨943, 0, 0, [953, 769]⟩ (.node (.node (.node (.node (.node .leaf ⟨944, 0, 0, [971, 769]⟩ .leaf) ⟨970, 0, 0, [953, 776]⟩ (.node .leaf ⟨971, 0, 0, [965, 776]⟩ .leaf)) ⟨972, 0, 0, [959, 769]⟩ (.node (.node .leaf ⟨973, 0, 0, [965, 769]⟩ .leaf) ⟨974, 0, 0, [969, 769]⟩ .leaf)) ⟨976, 0, 1, [946]⟩ (.node (.node (.node .leaf ⟨977, 0, 1, [952]⟩ .leaf) ⟨978, 0, 1, [933]⟩ .leaf) ⟨979, 0, 0, [978, 769]⟩ (.node (.node .leaf ⟨980, 0, 0, [978, 776]⟩ .leaf) ⟨981, 0, 1, [966]⟩ .leaf))) ⟨982, 0, 1, [960]⟩ (.node (.node (.node (.node .leaf ⟨1008, 0, 1, [954]⟩ .leaf) ⟨1009, 0, 1, [961]⟩ .leaf) ⟨1010, 0, 1, [962]⟩ (.node (.node .leaf ⟨1012, 0, 1, [920]⟩ .leaf) ⟨1013, 0, 1, [949]⟩ .leaf)) ⟨1017, 0, 1, [931]⟩ (.node (.node (.node .leaf ⟨1024, 0, 0, [1045, 768]⟩ .leaf) ⟨1025, 0, 0, [1045, 776]⟩ .leaf) ⟨1027, 0, 0, [1043, 769]⟩ (.node (.node .leaf ⟨1031, 0, 0, [1030, 776]⟩ .leaf) ⟨1036, 0, 0, [1050, 769]⟩ .leaf)))))

/-- Rows of Data/Ucd.lean (proof aid). -/
def ucdT9 : Tree UcdRow := (.node (.node (.node (.node (.node (.node .leaf ⟨1038, 0, 0, [1059, 774]⟩ .leaf) ⟨1049, 0, 0, [1048, 774]⟩ (.node .leaf ⟨1081, 0, 0, [1080, 774]⟩ .leaf)) ⟨1104, 0, 0, [1077, 768]⟩ (.node (.node .leaf ⟨1105, 0, 0, [1077, 776]⟩ .leaf) ⟨1107, 0, 0, [1075, 769]⟩ .leaf)) ⟨1111, 0, 0, [1110, 776]⟩ (.node (.node (.node .leaf ⟨1116, 0, 0, [1082, 769]⟩ .leaf) ⟨1117, 0, 0, [1080, 768]⟩ .leaf) ⟨1118, 0, 0, [1091, 774]⟩ (.node (.node .leaf ⟨1142, 0, 0, [1140, 783]⟩ .leaf) ⟨1143, 0, 0, [1141, 783]⟩ .leaf))) ⟨1155, 230, 0, []⟩ (.node (.node (.node (.node .leaf ⟨1156, 230, 0, []⟩ .leaf) ⟨1157, 230, 0, []⟩ (.node .leaf ⟨1158, 230, 0, []⟩ .leaf)) ⟨1159, 230, 0, []⟩ (.node (.node .leaf ⟨1217, 0, 0, [1046, 774]⟩ .leaf) ⟨1218, 0, 0, [1078, 774]⟩ .leaf)) ⟨1232, 0, 0, [1040, 774]⟩ (.node (.node (.node .leaf ⟨1233, 0, 0, [1072, 774]⟩ .leaf) ⟨1234, 0, 0, [1040, 776]⟩ .leaf) ⟨1235, 0, 0, [1072, 776]⟩ (.node (.node .leaf ⟨1238, 0, 0, [1045, 774]⟩ .leaf) ⟨1239, 0, 0, [1077, 774]⟩ .leaf)))) ⟨1242, 0, 0, [1240, 776]⟩ (.node (.node (.node (.node (.node .leaf ⟨1243, 0, 0, [1241, 776]⟩ .leaf) ⟨1244, 0, 0, [1046, 776]⟩ (.node .leaf ⟨1245, 0, 0, [1078, 776]⟩ .leaf)) ⟨1246, 0, 0, [1047, 776]⟩ (.node (.node .leaf ⟨1247, 0, 0, [1079, 776]⟩ .leaf) ⟨1250, 0, 0, [1048, 772]⟩ .leaf)) ⟨1251, 0, 0, [1080, 772]⟩ (.node (.node (.node .leaf ⟨1252, 0, 0, [1048, 776]⟩ .leaf) ⟨1253, 0, 0, [1080, 776]⟩ .leaf) ⟨1254, 0, 0, [1054, 776]⟩ (.node (.node .leaf ⟨1255, 0, 0, [1086, 776]⟩ .leaf) ⟨1258, 0, 0, [1256, 776]⟩ .leaf))) ⟨1259, 0, 0, [1257, 776]⟩ (.node (.node (.node (.node .leaf ⟨1260, 0, 0, [1069, 776]⟩ .leaf) ⟨1261, 0, 0, [1101, 776]⟩ .leaf) ⟨1262, 0, 0, [1059, 772]⟩ (.node (.node .leaf ⟨1263, 0, 0, [1091, 772]⟩ .leaf) ⟨1264, 0, 0, [1059, 776]⟩ .leaf)) ⟨1265, 0, 0, [1091, 776]⟩ (.node (.node (.node .leaf ⟨1266, 0, 0, [1059, 779]⟩ .leaf) ⟨1267, 0, 0, [1091, 779]⟩ .leaf) ⟨1268, 0, 0, [1063, 776]⟩ (.node (.node .leaf ⟨1269, 0, 0, [1095, 776]⟩ .leaf) ⟨1272, 0, 0, [1067, 776]⟩ .leaf)))))

/-- Rows of Data/Ucd.lean (proof aid). -/
def ucdT10 : Tree UcdRow := (.node (.node (.node (.node (.node (.node .leaf ⟨1415, 0, 1, [1381, 1410]⟩ .leaf) ⟨1425, 220, 0, []⟩ (.node .leaf ⟨1426, 230, 0, []⟩ .leaf)) ⟨1427, 230, 0, []⟩ (.node (.node .leaf ⟨1428, 230, 0, []⟩ .leaf) ⟨1429, 230, 0, []⟩ .leaf)) ⟨1430, 220, 0, []⟩ (.node (.node (.node .leaf ⟨1431, 230, 0, []⟩ .leaf) ⟨1432, 230, 0, []⟩ .leaf) ⟨1433, 230, 0, []⟩ (.node (.node .leaf ⟨1434, 222, 0, []⟩ .leaf) ⟨1435, 220, 0, []⟩ .leaf))) ⟨1436, 230, 0, []⟩ (.node (.node (.node (.node .leaf ⟨1437, 230, 0, []⟩ .leaf) ⟨1438, 230, 0, []⟩ (.node .leaf ⟨1439, 230, 0, []⟩ .leaf)) ⟨1440, 230, 0, []⟩ (.node (.node .leaf ⟨1441, 230, 0, []⟩ .leaf) ⟨1442, 220, 0, []⟩ .leaf)) ⟨1443, 220, 0, []⟩ (.node (.node (.node .leaf ⟨1444, 220, 0, []⟩ .leaf) ⟨1445, 220, 0, []⟩ .leaf) ⟨1446, 220, 0, []⟩ (.node (.node .leaf ⟨1447, 220, 0, []⟩ .leaf) ⟨1448, 230, 0, []⟩ .leaf)))) ⟨1449, 230, 0, []⟩ (.node (.node (.node (.node (.node .leaf ⟨1450, 220, 0, []⟩ .leaf) ⟨1451, 230, 0, []⟩ (.node .leaf ⟨1452, 230, 0, []⟩ .leaf)) ⟨1453, 222, 0, []⟩ (.node (.node .leaf ⟨1454, 228, 0, []⟩ .leaf) ⟨1455, 230, 0, []⟩ .leaf)) ⟨1456, 10, 0, []⟩ (.node (.node (.node .leaf ⟨1457, 11, 0, []⟩ .leaf) ⟨1458, 12, 0, []⟩ .leaf) ⟨1459, 13, 0, []⟩ (.node (.node .leaf ⟨1460, 14, 0, []⟩ .leaf) ⟨1461, 15, 0, []⟩ .leaf))) ⟨1462, 16, 0, []⟩ (.node (.node (.node (.node .leaf ⟨1463, 17, 0, []⟩ .leaf) ⟨1464, 18, 0, []⟩ .leaf) ⟨1465, 19, 0, []⟩ (.node (.node .leaf ⟨1466, 19, 0, []⟩ .leaf) ⟨1467, 20, 0, []⟩ .leaf)) ⟨1468, 21, 0, []⟩ (.node (.node (.node .leaf ⟨1469, 22, 0, []⟩ .leaf) ⟨1471, 23, 0, []⟩ .leaf) ⟨1473, 24, 0, []⟩ (.node (.node .leaf ⟨1474, 25, 0, []⟩ .leaf) ⟨1476, 230, 0, []⟩ .leaf)))))

/-- Rows of Data/Ucd.lean (proof aid). -/
def ucdT11 : Tree UcdRow := (.node (.node (.node (.node (.node (.node .leaf ⟨1479, 18, 0, []⟩ .leaf) ⟨1552, 230, 0, []⟩ (.node .leaf ⟨1553, 230, 0, []⟩ .leaf)) ⟨1554, 230, 0, []⟩ (.node (.node .leaf ⟨1555, 230, 0, []⟩ .leaf) ⟨1556, 230, 0, []⟩ .leaf)) ⟨1557, 230, 0, []⟩ (.node (.node (.node .leaf ⟨1558, 230, 0, []⟩ .leaf) ⟨1559, 230, 0, []⟩ .leaf) ⟨1560, 30, 0, []⟩ (.node (.node .leaf ⟨1561, 31, 0, []⟩ .leaf) ⟨1562, 32, 0, []⟩ .leaf))) ⟨1570, 0, 0, [1575, 1619]⟩ (.node (.node (.node (.node .leaf ⟨1571, 0, 0, [1575, 1620]⟩ .leaf) ⟨1572, 0, 0, [1608, 1620]⟩ (.node .leaf ⟨1573, 0, 0, [1575, 1621]⟩ .leaf)) ⟨1574, 0, 0, [1610, 1620]⟩ (.node (.node .leaf ⟨1611, 27, 0, []⟩ .leaf) ⟨1612, 28, 0, []⟩ .leaf)) ⟨1613, 29, 0, []⟩ (.node (.node (.node .leaf ⟨1614, 30, 0, []⟩ .leaf) ⟨1615, 31, 0, []⟩ .leaf) ⟨1616, 32, 0, []⟩ (.node (.node .leaf ⟨1617, 33, 0, []⟩ .leaf) ⟨1618, 34, 0, []⟩ .leaf)))) ⟨1619, 230, 0, []⟩ (.node (.node (.node (.node (.node .leaf ⟨1620, 230, 0, []⟩ .leaf) ⟨1621, 220, 0, []⟩ (.node .leaf ⟨1622, 220, 0, []⟩ .leaf)) ⟨1623, 230, 0, []⟩ (.node (.node .leaf ⟨1624, 230, 0, []⟩ .leaf) ⟨1625, 230, 0, []⟩ .leaf)) ⟨1626, 230, 0, []⟩ (.node (.node (.node .leaf ⟨1627, 230, 0, []⟩ .leaf) ⟨1628, 220, 0, []⟩ .leaf) ⟨1629, 230, 0, []⟩ (.node (.node .leaf ⟨1630, 230, 0, []⟩ .leaf) ⟨1631, 220, 0, []⟩ .leaf))) ⟨1648, 35, 0, []⟩ (.node (.node (.node (.node .leaf ⟨1653, 0, 1, [1575, 1652]⟩ .leaf) ⟨1654, 0, 1, [1608, 1652]⟩ .leaf) ⟨1655, 0, 1, [1735, 1652]⟩ (.node (.node .leaf ⟨1656, 0, 1, [1610, 1652]⟩ .leaf) ⟨1728, 0, 0, [1749, 1620]⟩ .leaf)) ⟨1730, 0, 0, [1729, 1620]⟩ (.node (.node (.node .leaf ⟨1747, 0, 0, [1746, 1620]⟩ .leaf) ⟨1750, 230, 0, []⟩ .leaf) ⟨1751, 230, 0, []⟩ (.node (.node .leaf ⟨1752, 230, 0, []⟩ .leaf) ⟨1753, 230, 0, []⟩ .leaf)))))

/-- Rows of Data/Ucd.lean (proof aid). -/
def ucdT12 : Tree UcdRow := (.node (.node (.node (.node (.node (.node .leaf ⟨1755, 230, 0, []⟩ .leaf) ⟨1756, 230, 0, []⟩ (.node .leaf ⟨1759, 230, 0, []⟩ .leaf)) ⟨1760, 230, 0, []⟩ (.node (.node .leaf ⟨1761, 230, 0, []⟩ .leaf) ⟨1762, 230, 0, []⟩ .leaf)) ⟨1763, 220, 0, []⟩ (.node (.node (.node .leaf ⟨1764, 230, 0, []⟩ .leaf) ⟨1767, 230, 0, []⟩ .leaf) ⟨1768, 230, 0, []⟩ (.node (.node .leaf ⟨1770, 220, 0, []⟩ .leaf) ⟨1771, 230, 0, []⟩ .leaf))) ⟨1772, 230, 0, []⟩ (.node (.node (.node (.node .leaf ⟨1773, 220, 0, []⟩ .leaf) ⟨1809, 36, 0, []⟩ (.node .leaf ⟨1840, 230, 0, []⟩ .leaf)) ⟨1841, 220, 0, []⟩ (.node (.node .leaf ⟨1842, 230, 0, []⟩ .leaf) ⟨1843, 230, 0, []⟩ .leaf)) ⟨1844, 220, 0, []⟩ (.node (.node (.node .leaf ⟨1845, 230, 0, []⟩ .leaf) ⟨1846, 230, 0, []⟩ .leaf) ⟨1847, 220, 0, []⟩ (.node (.node .leaf ⟨1848, 220, 0, []⟩ .leaf) ⟨1849, 220, 0, []⟩ .leaf)))) ⟨1850, 230, 0, []⟩ (.node (.node (.node (.node (.node .leaf ⟨1851, 220, 0, []⟩ .leaf) ⟨1852, 220, 0, []⟩ (.node .leaf ⟨1853, 230, 0, []⟩ .leaf)) ⟨1854, 220, 0, []⟩ (.node (.node .leaf ⟨1855, 230, 0, []⟩ .leaf) ⟨1856, 230, 0, []⟩ .leaf)) ⟨1857, 230, 0, []⟩ (.node (.node (.node .leaf ⟨1858, 220, 0, []⟩ .leaf) ⟨1859, 230, 0, []⟩ .leaf) ⟨1860, 220, 0, []⟩ (.node (.node .leaf ⟨1861, 230, 0, []⟩ .leaf) ⟨1862, 220, 0, []⟩ .leaf))) ⟨1863, 230, 0, []⟩ (.node (.node (.node (.node .leaf ⟨1864, 220, 0, []⟩ .leaf) ⟨1865, 230, 0, []⟩ .leaf) ⟨1866, 230, 0, []⟩ (.node (.node .leaf ⟨2027, 230, 0, []⟩ .leaf) ⟨2028, 230, 0, []⟩ .leaf)) ⟨2029, 230, 0, []⟩ (.node (.node (.node .leaf ⟨2030, 230, 0, []⟩ .leaf) ⟨2031, 230, 0, []⟩ .leaf) ⟨2032, 230, 0, []⟩ (.node (.node .leaf ⟨2033, 230, 0, []⟩ .leaf) ⟨2034, 220, 0, []⟩ .leaf)))))

/-- Rows of Data/Ucd.lean (proof aid). -/
def ucdT13 : Tree UcdRow := (.node (.node (.node (.node (.node (.node .leaf ⟨2070, 230, 0, []⟩ .leaf) ⟨2071, 230, 0, []⟩ (.node .leaf ⟨2072, 230, 0, []⟩ .leaf)) ⟨2073, 230, 0, []⟩ (.node (.node .leaf ⟨2075, 230, 0, []⟩ .leaf) ⟨2076, 230, 0, []⟩ .leaf)) ⟨2077, 230, 0, []⟩ (.node (.node (.node .leaf ⟨2078, 230, 0, []⟩ .leaf) ⟨2079, 230, 0, []⟩ .leaf) ⟨2080, 230, 0, []⟩ (.node (.node .leaf ⟨2081, 230, 0, []⟩ .leaf) ⟨2082, 230, 0, []⟩ .leaf))) ⟨2083, 230, 0, []⟩ (.node (.node (.node (.node .leaf ⟨2085, 230, 0, []⟩ .leaf) ⟨2086, 230, 0, []⟩ (.node .leaf ⟨2087, 230, 0, []⟩ .leaf)) ⟨2089, 230, 0, []⟩ (.node (.node .leaf ⟨2090, 230, 0, []⟩ .leaf) ⟨2091, 230, 0, []⟩ .leaf)) ⟨2092, 230, 0, []⟩ (.node (.node (.node .leaf ⟨2093, 230, 0, []⟩ .leaf) ⟨2137, 220, 0, []⟩ .leaf) ⟨2138, 220, 0, []⟩ (.node (.node .leaf ⟨2139, 220, 0, []⟩ .leaf) ⟨2260, 230, 0, []⟩ .leaf)))) ⟨2261, 230, 0, []⟩ (.node (.node (.node (.node (.node .leaf ⟨2262, 230, 0, []⟩ .leaf) ⟨2263, 230, 0, []⟩ (.node .leaf ⟨2264, 230, 0, []⟩ .leaf)) ⟨2265, 230, 0, []⟩ (.node (.node .leaf ⟨2266, 230, 0, []⟩ .leaf) ⟨2267, 230, 0, []⟩ .leaf)) ⟨2268, 230, 0, []⟩ (.node (.node (.node .leaf ⟨2269, 230, 0, []⟩ .leaf) ⟨2270, 230, 0, []⟩ .leaf) ⟨2271, 230, 0, []⟩ (.node (.node .leaf ⟨2272, 230, 0, []⟩ .leaf) ⟨2273, 230, 0, []⟩ .leaf))) ⟨2275, 220, 0, []⟩ (.node (.node (.node (.node .leaf ⟨2276, 230, 0, []⟩ .leaf) ⟨2277, 230, 0, []⟩ .leaf) ⟨2278, 220, 0, []⟩ (.node (.node .leaf ⟨2279, 230, 0, []⟩ .leaf) ⟨2280, 230, 0, []⟩ .leaf)) ⟨2281, 220, 0, []⟩ (.node (.node (.node .leaf ⟨2282, 230, 0, []⟩ .leaf) ⟨2283, 230, 0, []⟩ .leaf) ⟨2284, 230, 0, []⟩ (.node (.node .leaf ⟨2285, 220, 0, []⟩ .leaf) ⟨2286, 220, 0, []⟩ .leaf)))))

/-- Rows of Data/Ucd.lean (proof aid). -/
def ucdT14 : Tree UcdRow := (.node (.node (.node (.node (.node (.node .leaf ⟨2288, 27, 0, []⟩ .leaf) ⟨2289, 28, 0, []⟩ (.node .leaf ⟨2290, 29, 0, []⟩ .leaf)) ⟨2291, 230, 0, []⟩ (.node (.node .leaf ⟨2292, 230, 0, []⟩ .leaf) ⟨2293, 230, 0, []⟩ .leaf)) ⟨2294, 220, 0, []⟩ (.node (.node (.node .leaf ⟨2295, 230, 0, []⟩ .leaf) ⟨2296, 230, 0, []⟩ .leaf) ⟨2297, 220, 0, []⟩ (.node (.node .leaf ⟨2298, 220, 0, []⟩ .leaf) ⟨2299, 230, 0, []⟩ .leaf))) ⟨2300, 230, 0, []⟩ (.node (.node (.node (.node .leaf ⟨2301, 230, 0, []⟩ .leaf) ⟨2302, 230, 0, []⟩ (.node .leaf ⟨2303, 230, 0, []⟩ .leaf)) ⟨2345, 0, 0, [2344, 2364]⟩ (.node (.node .leaf ⟨2353, 0, 0, [2352, 2364]⟩ .leaf) ⟨2356, 0, 0, [2355, 2364]⟩ .leaf)) ⟨2364, 7, 0, []⟩ (.node (.node (.node .leaf ⟨2381, 9, 0, []⟩ .leaf) ⟨2385, 230, 0, []⟩ .leaf) ⟨2386, 220, 0, []⟩ (.node (.node .leaf ⟨2387, 230, 0, []⟩ .leaf) ⟨2388, 230, 0, []⟩ .leaf)))) ⟨2392, 0, 0, [2325, 2364]⟩ (.node (.node (.node (.node (.node .leaf ⟨2393, 0, 0, [2326, 2364]⟩ .leaf) ⟨2394, 0, 0, [2327, 2364]⟩ (.node .leaf ⟨2395, 0, 0, [2332, 2364]⟩ .leaf)) ⟨2396, 0, 0, [2337, 2364]⟩ (.node (.node .leaf ⟨2397, 0, 0, [2338, 2364]⟩ .leaf) ⟨2398, 0, 0, [2347, 2364]⟩ .leaf)) ⟨2399, 0, 0, [2351, 2364]⟩ (.node (.node (.node .leaf ⟨2492, 7, 0, []⟩ .leaf) ⟨2507, 0, 0, [2503, 2494]⟩ .leaf) ⟨2508, 0, 0, [2503, 2519]⟩ (.node (.node .leaf ⟨2509, 9, 0, []⟩ .leaf) ⟨2524, 0, 0, [2465, 2492]⟩ .leaf))) ⟨2525, 0, 0, [2466, 2492]⟩ (.node (.node (.node (.node .leaf ⟨2527, 0, 0, [2479, 2492]⟩ .leaf) ⟨2611, 0, 0, [2610, 2620]⟩ .leaf) ⟨2614, 0, 0, [2616, 2620]⟩ (.node (.node .leaf ⟨2620, 7, 0, []⟩ .leaf) ⟨2637, 9, 0, []⟩ .leaf)) ⟨2649, 0, 0, [2582, 2620]⟩ (.node (.node (.node .leaf ⟨2650, 0, 0, [2583, 2620]⟩ .leaf) ⟨2651, 0, 0, [2588, 2620]⟩ .leaf) ⟨2654, 0, 0, [2603, 2620]⟩ (.node (.node .leaf ⟨2748, 7, 0, []⟩ .leaf) ⟨2765, 9, 0, []⟩ .leaf)))))

/-- Rows of Data/Ucd.lean (proof aid). -/
def ucdT15 : Tree UcdRow := (.node (.node (.node (.node (.node (.node .leaf ⟨2888, 0, 0, [2887, 2902]⟩ .leaf) ⟨2891, 0, 0, [2887, 2878]⟩ (.node .leaf ⟨2892, 0, 0, [2887, 2903]⟩ .leaf)) ⟨2893, 9, 0, []⟩ (.node (.node .leaf ⟨2908, 0, 0, [2849, 2876]⟩ .leaf) ⟨2909, 0, 0, [2850, 2876]⟩ .leaf)) ⟨2964, 0, 0, [2962, 3031]⟩ (.node (.node (.node .leaf ⟨3018, 0, 0, [3014, 3006]⟩ .leaf) ⟨3019, 0, 0, [3015, 3006]⟩ .leaf) ⟨3020, 0, 0, [3014, 3031]⟩ (.node (.node .leaf ⟨3021, 9, 0, []⟩ .leaf) ⟨3144, 0, 0, [3142, 3158]⟩ .leaf))) ⟨3149, 9, 0, []⟩ (.node (.node (.node (.node .leaf ⟨3157, 84, 0, []⟩ .leaf) ⟨3158, 91, 0, []⟩ (.node .leaf ⟨3260, 7, 0, []⟩ .leaf)) ⟨3264, 0, 0, [3263, 3285]⟩ (.node (.node .leaf ⟨3271, 0, 0, [3270, 3285]⟩ .leaf) ⟨3272, 0, 0, [3270, 3286]⟩ .leaf)) ⟨3274, 0, 0, [3270, 3266]⟩ (.node (.node (.node .leaf ⟨3275, 0, 0, [3274, 3285]⟩ .leaf) ⟨3277, 9, 0, []⟩ .leaf) ⟨3402, 0, 0, [3398, 3390]⟩ (.node (.node .leaf ⟨3403, 0, 0, [3399, 3390]⟩ .leaf) ⟨3404, 0, 0, [3398, 3415]⟩ .leaf)))) ⟨3405, 9, 0, []⟩ (.node (.node (.node (.node (.node .leaf ⟨3530, 9, 0, []⟩ .leaf) ⟨3546, 0, 0, [3545, 3530]⟩ (.node .leaf ⟨3548, 0, 0, [3545, 3535]⟩ .leaf)) ⟨3549, 0, 0, [3548, 3530]⟩ (.node (.node .leaf ⟨3550, 0, 0, [3545, 3551]⟩ .leaf) ⟨3635, 0, 1, [3661, 3634]⟩ .leaf)) ⟨3640, 103, 0, []⟩ (.node (.node (.node .leaf ⟨3641, 103, 0, []⟩ .leaf) ⟨3642, 9, 0, []⟩ .leaf) ⟨3656, 107, 0, []⟩ (.node (.node .leaf ⟨3657, 107, 0, []⟩ .leaf) ⟨3658, 107, 0, []⟩ .leaf))) ⟨3659, 107, 0, []⟩ (.node (.node (.node (.node .leaf ⟨3763, 0, 1, [3789, 3762]⟩ .leaf) ⟨3768, 118, 0, []⟩ .leaf) ⟨3769, 118, 0, []⟩ (.node (.node .leaf ⟨3784, 122, 0, []⟩ .leaf) ⟨3785, 122, 0, []⟩ .leaf)) ⟨3786, 122, 0, []⟩ (.node (.node (.node .leaf ⟨3787, 122, 0, []⟩ .leaf) ⟨3804, 0, 1, [3755, 3737]⟩ .leaf) ⟨3805, 0, 1, [3755, 3745]⟩ (.node (.node .leaf ⟨3852, 0, 2, [3851]⟩ .leaf) ⟨3864, 220, 0, []⟩ .leaf)))))

/-- Rows of Data/Ucd.lean (proof aid). -/
def ucdT16 : Tree UcdRow := (.node (.node (.node (.node (.node (.node .leaf ⟨3893, 220, 0, []⟩ .leaf) ⟨3895, 220, 0, []⟩ (.node .leaf ⟨3897, 216, 0, []⟩ .leaf)) ⟨3907, 0, 0, [3906, 4023]⟩ (.node (.node .leaf ⟨3917, 0, 0, [3916, 4023]⟩ .leaf) ⟨3922, 0, 0, [3921, 4023]⟩ .leaf)) ⟨3927, 0, 0, [3926, 4023]⟩ (.node (.node (.node .leaf ⟨3932, 0, 0, [3931, 4023]⟩ .leaf) ⟨3945, 0, 0, [3904, 4021]⟩ .leaf) ⟨3953, 129, 0, []⟩ (.node (.node .leaf ⟨3954, 130, 0, []⟩ .leaf) ⟨3955, 0, 0, [3953, 3954]⟩ .leaf))) ⟨3956, 132, 0, []⟩ (.node (.node (.node (.node .leaf ⟨3957, 0, 0, [3953, 3956]⟩ .leaf) ⟨3958, 0, 0, [4018, 3968]⟩ (.node .leaf ⟨3959, 0, 1, [4018, 3969]⟩ .leaf)) ⟨3960, 0, 0, [4019, 3968]⟩ (.node (.node .leaf ⟨3961, 0, 1, [4019, 3969]⟩ .leaf) ⟨3962, 130, 0, []⟩ .leaf)) ⟨3963, 130, 0, []⟩ (.node (.node (.node .leaf ⟨3964, 130, 0, []⟩ .leaf) ⟨3965, 130, 0, []⟩ .leaf) ⟨3968, 130, 0, []⟩ (.node (.node .leaf ⟨3969, 0, 0, [3953, 3968]⟩ .leaf) ⟨3970, 230, 0, []⟩ .leaf)))) ⟨3971, 230, 0, []⟩ (.node (.node (.node (.node (.node .leaf ⟨3972, 9, 0, []⟩ .leaf) ⟨3974, 230, 0, []⟩ (.node .leaf ⟨3975, 230, 0, []⟩ .leaf)) ⟨3987, 0, 0, [3986, 4023]⟩ (.node (.node .leaf ⟨3997, 0, 0, [3996, 4023]⟩ .leaf) ⟨4002, 0, 0, [4001, 4023]⟩ .leaf)) ⟨4007, 0, 0, [4006, 4023]⟩ (.node (.node (.node .leaf ⟨4012, 0, 0, [4011, 4023]⟩ .leaf) ⟨4025, 0, 0, [3984, 4021]⟩ .leaf) ⟨4038, 220, 0, []⟩ (.node (.node .leaf ⟨4134, 0, 0, [4133, 4142]⟩ .leaf) ⟨4151, 7, 0, []⟩ .leaf))) ⟨4153, 9, 0, []⟩ (.node (.node (.node (.node .leaf ⟨4154, 9, 0, []⟩ .leaf) ⟨4237, 220, 0, []⟩ (.node .leaf ⟨4348, 0, 2, [4316]⟩ .leaf)) ⟨4957, 230, 0, []⟩ (.node (.node .leaf ⟨4958, 230, 0, []⟩ .leaf) ⟨4959, 230, 0, []⟩ .leaf)) ⟨5908, 9, 0, []⟩ (.node (.node (.node .leaf ⟨5940, 9, 0, []⟩ .leaf) ⟨6098, 9, 0, []⟩ .leaf) ⟨6109, 230, 0, []⟩ (.node (.node .leaf ⟨6313, 228, 0, []⟩ .leaf) ⟨6457, 222, 0, []⟩ .leaf)))))

/-- Rows of Data/Ucd.lean (proof aid). -/
def ucdT17 : Tree UcdRow := (.node (.node (.node (.node (.node (.node .leaf ⟨6459, 220, 0, []⟩ .leaf) ⟨6679, 230, 0, []⟩ (.node .leaf ⟨6680, 220, 0, []⟩ .leaf)) ⟨6752, 9, 0, []⟩ (.node (.node .leaf ⟨6773, 230, 0, []⟩ .leaf) ⟨6774, 230, 0, []⟩ .leaf)) ⟨6775, 230, 0, []⟩ (.node (.node (.node .leaf ⟨6776, 230, 0, []⟩ .leaf) ⟨6777, 230, 0, []⟩ .leaf) ⟨6778, 230, 0, []⟩ (.node (.node .leaf ⟨6779, 230, 0, []⟩ .leaf) ⟨6780, 230, 0, []⟩ .leaf))) ⟨6783, 220, 0, []⟩ (.node (.node (.node (.node .leaf ⟨6832, 230, 0, []⟩ .leaf) ⟨6833, 230, 0, []⟩ (.node .leaf ⟨6834, 230, 0, []⟩ .leaf)) ⟨6835, 230, 0, []⟩ (.node (.node .leaf ⟨6836, 230, 0, []⟩ .leaf) ⟨6837, 220, 0, []⟩ .leaf)) ⟨6838, 220, 0, []⟩ (.node (.node (.node .leaf ⟨6839, 220, 0, []⟩ .leaf) ⟨6840, 220, 0, []⟩ .leaf) ⟨6841, 220, 0, []⟩ (.node (.node .leaf ⟨6842, 220, 0, []⟩ .leaf) ⟨6843, 230, 0, []⟩ .leaf)))) ⟨6844, 230, 0, []⟩ (.node (.node (.node (.node (.node .leaf ⟨6845, 220, 0, []⟩ .leaf) ⟨6918, 0, 0, [6917, 6965]⟩ (.node .leaf ⟨6920, 0, 0, [6919, 6965]⟩ .leaf)) ⟨6922, 0, 0, [6921, 6965]⟩ (.node (.node .leaf ⟨6924, 0, 0, [6923, 6965]⟩ .leaf) ⟨6926, 0, 0, [6925, 6965]⟩ .leaf)) ⟨6930, 0, 0, [6929, 6965]⟩ (.node (.node (.node .leaf ⟨6964, 7, 0, []⟩ .leaf) ⟨6971, 0, 0, [6970, 6965]⟩ .leaf) ⟨6973, 0, 0, [6972, 6965]⟩ (.node (.node .leaf ⟨6976, 0, 0, [6974, 6965]⟩ .leaf) ⟨6977, 0, 0, [6975, 6965]⟩ .leaf))) ⟨6979, 0, 0, [6978, 6965]⟩ (.node (.node (.node (.node .leaf ⟨6980, 9, 0, []⟩ .leaf) ⟨7019, 230, 0, []⟩ .leaf) ⟨7020, 220, 0, []⟩ (.node (.node .leaf ⟨7021, 230, 0, []⟩ .leaf) ⟨7022, 230, 0, []⟩ .leaf)) ⟨7023, 230, 0, []⟩ (.node (.node (.node .leaf ⟨7024, 230, 0, []⟩ .leaf) ⟨7025, 230, 0, []⟩ .leaf) ⟨7026, 230, 0, []⟩ (.node (.node .leaf ⟨7027, 230, 0, []⟩ .leaf) ⟨7082, 9, 0, []⟩ .leaf)))))

/-- Rows of Data/Ucd.lean (proof aid). -/
def ucdT18 : Tree UcdRow := (.node (.node (.node (.node (.node (.node .leaf ⟨7142, 7, 0, []⟩ .leaf) ⟨7154, 9, 0, []⟩ (.node .leaf ⟨7155, 9, 0, []⟩ .leaf)) ⟨7223, 7, 0, []⟩ (.node (.node .leaf ⟨7376, 230, 0, []⟩ .leaf) ⟨7377, 230, 0, []⟩ .leaf)) ⟨7378, 230, 0, []⟩ (.node (.node (.node .leaf ⟨7380, 1, 0, []⟩ .leaf) ⟨7381, 220, 0, []⟩ .leaf) ⟨7382, 220, 0, []⟩ (.node (.node .leaf ⟨7383, 220, 0, []⟩ .leaf) ⟨7384, 220, 0, []⟩ .leaf))) ⟨7385, 220, 0, []⟩ (.node (.node (.node (.node .leaf ⟨7386, 230, 0, []⟩ .leaf) ⟨7387, 230, 0, []⟩ (.node .leaf ⟨7388, 220, 0, []⟩ .leaf)) ⟨7389, 220, 0, []⟩ (.node (.node .leaf ⟨7390, 220, 0, []⟩ .leaf) ⟨7391, 220, 0, []⟩ .leaf)) ⟨7392, 230, 0, []⟩ (.node (.node (.node .leaf ⟨7394, 1, 0, []⟩ .leaf) ⟨7395, 1, 0, []⟩ .leaf) ⟨7396, 1, 0, []⟩ (.node (.node .leaf ⟨7397, 1, 0, []⟩ .leaf) ⟨7398, 1, 0, []⟩ .leaf)))) ⟨7399, 1, 0, []⟩ (.node (.node (.node (.node (.node .leaf ⟨7400, 1, 0, []⟩ .leaf) ⟨7405, 220, 0, []⟩ (.node .leaf ⟨7412, 230, 0, []⟩ .leaf)) ⟨7416, 230, 0, []⟩ (.node (.node .leaf ⟨7417, 230, 0, []⟩ .leaf) ⟨7468, 0, 2, [65]⟩ .leaf)) ⟨7469, 0, 2, [198]⟩ (.node (.node (.node .leaf ⟨7470, 0, 2, [66]⟩ .leaf) ⟨7472, 0, 2, [68]⟩ .leaf) ⟨7473, 0, 2, [69]⟩ (.node (.node .leaf ⟨7474, 0, 2, [398]⟩ .leaf) ⟨7475, 0, 2, [71]⟩ .leaf))) ⟨7476, 0, 2, [72]⟩ (.node (.node (.node (.node .leaf ⟨7477, 0, 2, [73]⟩ .leaf) ⟨7478, 0, 2, [74]⟩ .leaf) ⟨7479, 0, 2, [75]⟩ (.node (.node .leaf ⟨7480, 0, 2, [76]⟩ .leaf) ⟨7481, 0, 2, [77]⟩ .leaf)) ⟨7482, 0, 2, [78]⟩ (.node (.node (.node .leaf ⟨7484, 0, 2, [79]⟩ .leaf) ⟨7485, 0, 2, [546]⟩ .leaf) ⟨7486, 0, 2, [80]⟩ (.node (.node .leaf ⟨7487, 0, 2, [82]⟩ .leaf) ⟨7488, 0, 2, [84]⟩ .leaf)))))

/-- Rows of Data/Ucd.lean (proof aid). -/
def ucdT19 : Tree UcdRow := (.node (.node (.node (.node (.node (.node .leaf ⟨7490, 0, 2, [87]⟩ .leaf) ⟨7491, 0, 2, [97]⟩ (.node .leaf ⟨7492, 0, 2, [592]⟩ .leaf)) ⟨7493, 0, 2, [593]⟩ (.node (.node .leaf ⟨7494, 0, 2, [7426]⟩ .leaf) ⟨7495, 0, 2, [98]⟩ .leaf)) ⟨7496, 0, 2, [100]⟩ (.node (.node (.node .leaf ⟨7497, 0, 2, [101]⟩ .leaf) ⟨7498, 0, 2, [601]⟩ .leaf) ⟨7499, 0, 2, [603]⟩ (.node (.node .leaf ⟨7500, 0, 2, [604]⟩ .leaf) ⟨7501, 0, 2, [103]⟩ .leaf))) ⟨7503, 0, 2, [107]⟩ (.node (.node (.node (.node .leaf ⟨7504, 0, 2, [109]⟩ .leaf) ⟨7505, 0, 2, [331]⟩ (.node .leaf ⟨7506, 0, 2, [111]⟩ .leaf)) ⟨7507, 0, 2, [596]⟩ (.node (.node .leaf ⟨7508, 0, 2, [7446]⟩ .leaf) ⟨7509, 0, 2, [7447]⟩ .leaf)) ⟨7510, 0, 2, [112]⟩ (.node (.node (.node .leaf ⟨7511, 0, 2, [116]⟩ .leaf) ⟨7512, 0, 2, [117]⟩ .leaf) ⟨7513, 0, 2, [7453]⟩ (.node (.node .leaf ⟨7514, 0, 2, [623]⟩ .leaf) ⟨7515, 0, 2, [118]⟩ .leaf)))) ⟨7516, 0, 2, [7461]⟩ (.node (.node (.node (.node (.node .leaf ⟨7517, 0, 2, [946]⟩ .leaf) ⟨7518, 0, 2, [947]⟩ (.node .leaf ⟨7519, 0, 2, [948]⟩ .leaf)) ⟨7520, 0, 2, [966]⟩ (.node (.node .leaf ⟨7521, 0, 2, [967]⟩ .leaf) ⟨7522, 0, 2, [105]⟩ .leaf)) ⟨7523, 0, 2, [114]⟩ (.node (.node (.node .leaf ⟨7524, 0, 2, [117]⟩ .leaf) ⟨7525, 0, 2, [118]⟩ .leaf) ⟨7526, 0, 2, [946]⟩ (.node (.node .leaf ⟨7527, 0, 2, [947]⟩ .leaf) ⟨7528, 0, 2, [961]⟩ .leaf))) ⟨7529, 0, 2, [966]⟩ (.node (.node (.node (.node .leaf ⟨7530, 0, 2, [967]⟩ .leaf) ⟨7544, 0, 2, [1085]⟩ .leaf) ⟨7579, 0, 2, [594]⟩ (.node (.node .leaf ⟨7580, 0, 2, [99]⟩ .leaf) ⟨7581, 0, 2, [597]⟩ .leaf)) ⟨7582, 0, 2, [240]⟩ (.node (.node (.node .leaf ⟨7583, 0, 2, [604]⟩ .leaf) ⟨7584, 0, 2, [102]⟩ .leaf) ⟨7585, 0, 2, [607]⟩ (.node (.node .leaf ⟨7586, 0, 2, [609]⟩ .leaf) ⟨7587, 0, 2, [613]⟩ .leaf)))))

/-- Rows of Data/Ucd.lean (proof aid). -/
def ucdT20 : Tree UcdRow := (.node (.node (.node (.node (.node (.node .leaf ⟨7589, 0, 2, [617]⟩ .leaf) ⟨7590, 0, 2, [618]⟩ (.node .leaf ⟨7591, 0, 2, [7547]⟩ .leaf)) ⟨7592, 0, 2, [669]⟩ (.node (.node .leaf ⟨7593, 0, 2, [621]⟩ .leaf) ⟨7594, 0, 2, [7557]⟩ .leaf)) ⟨7595, 0, 2, [671]⟩ (.node (.node (.node .leaf ⟨7596, 0, 2, [625]⟩ .leaf) ⟨7597, 0, 2, [624]⟩ .leaf) ⟨7598, 0, 2, [626]⟩ (.node (.node .leaf ⟨7599, 0, 2, [627]⟩ .leaf) ⟨7600, 0, 2, [628]⟩ .leaf))) ⟨7601, 0, 2, [629]⟩ (.node (.node (.node (.node .leaf ⟨7602, 0, 2, [632]⟩ .leaf) ⟨7603, 0, 2, [642]⟩ (.node .leaf ⟨7604, 0, 2, [643]⟩ .leaf)) ⟨7605, 0, 2, [427]⟩ (.node (.node .leaf ⟨7606, 0, 2, [649]⟩ .leaf) ⟨7607, 0, 2, [650]⟩ .leaf)) ⟨7608, 0, 2, [7452]⟩ (.node (.node (.node .leaf ⟨7609, 0, 2, [651]⟩ .leaf) ⟨7610, 0, 2, [652]⟩ .leaf) ⟨7611, 0, 2, [122]⟩ (.node (.node .leaf ⟨7612, 0, 2, [656]⟩ .leaf) ⟨7613, 0, 2, [657]⟩ .leaf)))) ⟨7614, 0, 2, [658]⟩ (.node (.node (.node (.node (.node .leaf ⟨7615, 0, 2, [952]⟩ .leaf) ⟨7616, 230, 0, []⟩ (.node .leaf ⟨7617, 230, 0, []⟩ .leaf)) ⟨7618, 220, 0, []⟩ (.node (.node .leaf ⟨7619, 230, 0, []⟩ .leaf) ⟨7620, 230, 0, []⟩ .leaf)) ⟨7621, 230, 0, []⟩ (.node (.node (.node .leaf ⟨7622, 230, 0, []⟩ .leaf) ⟨7623, 230, 0, []⟩ .leaf) ⟨7624, 230, 0, []⟩ (.node (.node .leaf ⟨7625, 230, 0, []⟩ .leaf) ⟨7626, 220, 0, []⟩ .leaf))) ⟨7627, 230, 0, []⟩ (.node (.node (.node (.node .leaf ⟨7628, 230, 0, []⟩ .leaf) ⟨7629, 234, 0, []⟩ .leaf) ⟨7630, 214, 0, []⟩ (.node (.node .leaf ⟨7631, 220, 0, []⟩ .leaf) ⟨7632, 202, 0, []⟩ .leaf)) ⟨7633, 230, 0, []⟩ (.node (.node (.node .leaf ⟨7634, 230, 0, []⟩ .leaf) ⟨7635, 230, 0, []⟩ .leaf) ⟨7636, 230, 0, []⟩ (.node (.node .leaf ⟨7637, 230, 0, []⟩ .leaf) ⟨7638, 230, 0, []⟩ .leaf)))))

/-- Rows of Data/Ucd.lean (proof aid). -/
def ucdT21 : Tree UcdRow := (.node (.node (.node (.node (.node (.node .leaf ⟨7640, 230, 0, []⟩ .leaf) ⟨7641, 230, 0, []⟩ (.node .leaf ⟨7642, 230, 0, []⟩ .leaf)) ⟨7643, 230, 0, []⟩ (.node (.node .leaf ⟨7644, 230, 0, []⟩ .leaf) ⟨7645, 230, 0, []⟩ .leaf)) ⟨7646, 230, 0, []⟩ (.node (.node (.node .leaf ⟨7647, 230, 0, []⟩ .leaf) ⟨7648, 230, 0, []⟩ .leaf) ⟨7649, 230, 0, []⟩ (.node (.node .leaf ⟨7650, 230, 0, []⟩ .leaf) ⟨7651, 230, 0, []⟩ .leaf))) ⟨7652, 230, 0, []⟩ (.node (.node (.node (.node .leaf ⟨7653, 230, 0, []⟩ .leaf) ⟨7654, 230, 0, []⟩ (.node .leaf ⟨7655, 230, 0, []⟩ .leaf)) ⟨7656, 230, 0, []⟩ (.node (.node .leaf ⟨7657, 230, 0, []⟩ .leaf) ⟨7658, 230, 0, []⟩ .leaf)) ⟨7659, 230, 0, []⟩ (.node (.node (.node .leaf ⟨7660, 230, 0, []⟩ .leaf) ⟨7661, 230, 0, []⟩ .leaf) ⟨7662, 230, 0, []⟩ (.node (.node .leaf ⟨7663, 230, 0, []⟩ .leaf) ⟨7664, 230, 0, []⟩ .leaf)))) ⟨7665, 230, 0, []⟩ (.node (.node (.node (.node (.node .leaf ⟨7666, 230, 0, []⟩ .leaf) ⟨7667, 230, 0, []⟩ (.node .leaf ⟨7668, 230, 0, []⟩ .leaf)) ⟨7669, 230, 0, []⟩ (.node (.node .leaf ⟨7675, 230, 0, []⟩ .leaf) ⟨7676, 233, 0, []⟩ .leaf)) ⟨7677, 220, 0, []⟩ (.node (.node (.node .leaf ⟨7678, 230, 0, []⟩ .leaf) ⟨7679, 220, 0, []⟩ .leaf) ⟨7680, 0, 0, [65, 805]⟩ (.node (.node .leaf ⟨7681, 0, 0, [97, 805]⟩ .leaf) ⟨7682, 0, 0, [66, 775]⟩ .leaf))) ⟨7683, 0, 0, [98, 775]⟩ (.node (.node (.node (.node .leaf ⟨7684, 0, 0, [66, 803]⟩ .leaf) ⟨7685, 0, 0, [98, 803]⟩ .leaf) ⟨7686, 0, 0, [66, 817]⟩ (.node (.node .leaf ⟨7687, 0, 0, [98, 817]⟩ .leaf) ⟨7688, 0, 0, [199, 769]⟩ .leaf)) ⟨7689, 0, 0, [231, 769]⟩ (.node (.node (.node .leaf ⟨7690, 0, 0, [68, 775]⟩ .leaf) ⟨7691, 0, 0, [100, 775]⟩ .leaf) ⟨7692, 0, 0, [68, 803]⟩ (.node (.node .leaf ⟨7693, 0, 0, [100, 803]⟩ .leaf) ⟨7694, 0, 0, [68, 817]⟩ .leaf)))))

/-- Rows of Data/Ucd.lean (proof aid). -/
def ucdT22 : Tree UcdRow := (.node (.node (.node (.node (.node (.node .leaf ⟨7696, 0, 0, [68, 807]⟩ .leaf) ⟨7697, 0, 0, [100, 807]⟩ (.node .leaf ⟨7698, 0, 0, [68, 813]⟩ .leaf)) ⟨7699, 0, 0, [100, 813]⟩ (.node (.node .leaf ⟨7700, 0, 0, [274, 768]⟩ .leaf) ⟨7701, 0, 0, [275, 768]⟩ .leaf)) ⟨7702, 0, 0, [274, 769]⟩ (.node (.node (.node .leaf ⟨7703, 0, 0, [275, 769]⟩ .leaf) ⟨7704, 0, 0, [69, 813]⟩ .leaf) ⟨7705, 0, 0, [101, 813]⟩ (.node (.node .leaf ⟨7706, 0, 0, [69, 816]⟩ .leaf) ⟨7707, 0, 0, [101, 816]⟩ .leaf))) ⟨7708, 0, 0, [552, 774]⟩ (.node (.node (.node (.node .leaf ⟨7709, 0, 0, [553, 774]⟩ .leaf) ⟨7710, 0, 0, [70, 775]⟩ (.node .leaf ⟨7711, 0, 0, [102, 775]⟩ .leaf)) ⟨7712, 0, 0, [71, 772]⟩ (.node (.node .leaf ⟨7713, 0, 0, [103, 772]⟩ .leaf) ⟨7714, 0, 0, [72, 775]⟩ .leaf)) ⟨7715, 0, 0, [104, 775]⟩ (.node (.node (.node .leaf ⟨7716, 0, 0, [72, 803]⟩ .leaf) ⟨7717, 0, 0, [104, 803]⟩ .leaf) ⟨7718, 0, 0, [72, 776]⟩ (.node (.node .leaf ⟨7719, 0, 0, [104, 776]⟩ .leaf) ⟨7720, 0, 0, [72, 807]⟩ .leaf)))) ⟨7721, 0, 0, [104, 807]⟩ (.node (.node (.node (.node (.node .leaf ⟨7722, 0, 0, [72, 814]⟩ .leaf) ⟨7723, 0, 0, [104, 814]⟩ (.node .leaf ⟨7724, 0, 0, [73, 816]⟩ .leaf)) ⟨7725, 0, 0, [105, 816]⟩ (.node (.node .leaf ⟨7726, 0, 0, [207, 769]⟩ .leaf) ⟨7727, 0, 0, [239, 769]⟩ .leaf)) ⟨7728, 0, 0, [75, 769]⟩ (.node (.node (.node .leaf ⟨7729, 0, 0, [107, 769]⟩ .leaf) ⟨7730, 0, 0, [75, 803]⟩ .leaf) ⟨7731, 0, 0, [107, 803]⟩ (.node (.node .leaf ⟨7732, 0, 0, [75, 817]⟩ .leaf) ⟨7733, 0, 0, [107, 817]⟩ .leaf))) ⟨7734, 0, 0, [76, 803]⟩ (.node (.node (.node (.node .leaf ⟨7735, 0, 0, [108, 803]⟩ .leaf) ⟨7736, 0, 0, [7734, 772]⟩ .leaf) ⟨7737, 0, 0, [7735, 772]⟩ (.node (.node .leaf ⟨7738, 0, 0, [76, 817]⟩ .leaf) ⟨7739, 0, 0, [108, 817]⟩ .leaf)) ⟨7740, 0, 0, [76, 813]⟩ (.node (.node (.node .leaf ⟨7741, 0, 0, [108, 813]⟩ .leaf) ⟨7742, 0, 0, [77, 769]⟩ .leaf) ⟨7743, 0, 0, [109, 769]⟩ (.node (.node .leaf ⟨7744, 0, 0, [77, 775]⟩ .leaf) ⟨7745, 0, 0, [109, 775]⟩ .leaf)))))

/-- Rows of Data/Ucd.lean (proof aid). -/
def ucdT23 : Tree UcdRow := (.node (.node (.node (.node (.node (.node .leaf ⟨7747, 0, 0, [109, 803]⟩ .leaf) ⟨7748, 0, 0, [78, 775]⟩ (.node .leaf ⟨7749, 0, 0, [110, 775]⟩ .leaf)) ⟨7750, 0, 0, [78, 803]⟩ (.node (.node .leaf ⟨7751, 0, 0, [110, 803]⟩ .leaf) ⟨7752, 0, 0, [78, 817]⟩ .leaf)) ⟨7753, 0, 0, [110, 817]⟩ (.node (.node (.node .leaf ⟨7754, 0, 0, [78, 813]⟩ .leaf) ⟨7755, 0, 0, [110, 813]⟩ .leaf) ⟨7756, 0, 0, [213, 769]⟩ (.node (.node .leaf ⟨7757, 0, 0, [245, 769]⟩ .leaf) ⟨7758, 0, 0, [213, 776]⟩ .leaf))) ⟨7759, 0, 0, [245, 776]⟩ (.node (.node (.node (.node .leaf ⟨7760, 0, 0, [332, 768]⟩ .leaf) ⟨7761, 0, 0, [333, 768]⟩ (.node .leaf ⟨7762, 0, 0, [332, 769]⟩ .leaf)) ⟨7763, 0, 0, [333, 769]⟩ (.node (.node .leaf ⟨7764, 0, 0, [80, 769]⟩ .leaf) ⟨7765, 0, 0, [112, 769]⟩ .leaf)) ⟨7766, 0, 0, [80, 775]⟩ (.node (.node (.node .leaf ⟨7767, 0, 0, [112, 775]⟩ .leaf) ⟨7768, 0, 0, [82, 775]⟩ .leaf) ⟨7769, 0, 0, [114, 775]⟩ (.node (.node .leaf ⟨7770, 0, 0, [82, 803]⟩ .leaf) ⟨7771, 0, 0, [114, 803]⟩ .leaf)))) ⟨7772, 0, 0, [7770, 772]⟩ (.node (.node (.node (.node (.node .leaf ⟨7773, 0, 0, [7771, 772]⟩ .leaf) ⟨7774, 0, 0, [82, 817]⟩ (.node .leaf ⟨7775, 0, 0, [114, 817]⟩ .leaf)) ⟨7776, 0, 0, [83, 775]⟩ (.node (.node .leaf ⟨7777, 0, 0, [115, 775]⟩ .leaf) ⟨7778, 0, 0, [83, 803]⟩ .leaf)) ⟨7779, 0, 0, [115, 803]⟩ (.node (.node (.node .leaf ⟨7780, 0, 0, [346, 775]⟩ .leaf) ⟨7781, 0, 0, [347, 775]⟩ .leaf) ⟨7782, 0, 0, [352, 775]⟩ (.node (.node .leaf ⟨7783, 0, 0, [353, 775]⟩ .leaf) ⟨7784, 0, 0, [7778, 775]⟩ .leaf))) ⟨7785, 0, 0, [7779, 775]⟩ (.node (.node (.node (.node .leaf ⟨7786, 0, 0, [84, 775]⟩ .leaf) ⟨7787, 0, 0, [116, 775]⟩ .leaf) ⟨7788, 0, 0, [84, 803]⟩ (.node (.node .leaf ⟨7789, 0, 0, [116, 803]⟩ .leaf) ⟨7790, 0, 0, [84, 817]⟩ .leaf)) ⟨7791, 0, 0, [116, 817]⟩ (.node (.node (.node .leaf ⟨7792, 0, 0, [84, 813]⟩ .leaf) ⟨7793, 0, 0, [116, 813]⟩ .leaf) ⟨7794, 0, 0, [85, 804]⟩ (.node (.node .leaf ⟨7795, 0, 0, [117, 804]⟩ .leaf) ⟨7796, 0, 0, [85, 816]⟩ .leaf)))))

/-- Rows of Data/Ucd.lean (proof aid). -/
def ucdT24 : Tree UcdRow := (.node (.node (.node (.node (.node (.node .leaf ⟨7798, 0, 0, [85, 813]⟩ .leaf) ⟨7799, 0, 0, [117, 813]⟩ (.node .leaf ⟨7800, 0, 0, [360, 769]⟩ .leaf)) ⟨7801, 0, 0, [361, 769]⟩ (.node (.node .leaf ⟨7802, 0, 0, [362, 776]⟩ .leaf) ⟨7803, 0, 0, [363, 776]⟩ .leaf)) ⟨7804, 0, 0, [86, 771]⟩ (.node (.node (.node .leaf ⟨7805, 0, 0, [118, 771]⟩ .leaf) ⟨7806, 0, 0, [86, 803]⟩ .leaf) ⟨7807, 0, 0, [118, 803]⟩ (.node (.node .leaf ⟨7808, 0, 0, [87, 768]⟩ .leaf) ⟨7809, 0, 0, [119, 768]⟩ .leaf))) ⟨7810, 0, 0, [87, 769]⟩ (.node (.node (.node (.node .leaf ⟨7811, 0, 0, [119, 769]⟩ .leaf) ⟨7812, 0, 0, [87, 776]⟩ (.node .leaf ⟨7813, 0, 0, [119, 776]⟩ .leaf)) ⟨7814, 0, 0, [87, 775]⟩ (.node (.node .leaf ⟨7815, 0, 0, [119, 775]⟩ .leaf) ⟨7816, 0, 0, [87, 803]⟩ .leaf)) ⟨7817, 0, 0, [119, 803]⟩ (.node (.node (.node .leaf ⟨7818, 0, 0, [88, 775]⟩ .leaf) ⟨7819, 0, 0, [120, 775]⟩ .leaf) ⟨7820, 0, 0, [88, 776]⟩ (.node (.node .leaf ⟨7821, 0, 0, [120, 776]⟩ .leaf) ⟨7822, 0, 0, [89, 775]⟩ .leaf)))) ⟨7823, 0, 0, [121, 775]⟩ (.node (.node (.node (.node (.node .leaf ⟨7824, 0, 0, [90, 770]⟩ .leaf) ⟨7825, 0, 0, [122, 770]⟩ (.node .leaf ⟨7826, 0, 0, [90, 803]⟩ .leaf)) ⟨7827, 0, 0, [122, 803]⟩ (.node (.node .leaf ⟨7828, 0, 0, [90, 817]⟩ .leaf) ⟨7829, 0, 0, [122, 817]⟩ .leaf)) ⟨7830, 0, 0, [104, 817]⟩ (.node (.node (.node .leaf ⟨7831, 0, 0, [116, 776]⟩ .leaf) ⟨7832, 0, 0, [119, 778]⟩ .leaf) ⟨7833, 0, 0, [121, 778]⟩ (.node (.node .leaf ⟨7834, 0, 1, [97, 702]⟩ .leaf) ⟨7835, 0, 0, [383, 775]⟩ .leaf))) ⟨7840, 0, 0, [65, 803]⟩ (.node (.node (.node (.node .leaf ⟨7841, 0, 0, [97, 803]⟩ .leaf) ⟨7842, 0, 0, [65, 777]⟩ .leaf) ⟨7843, 0, 0, [97, 777]⟩ (.node (.node .leaf ⟨7844, 0, 0, [194, 769]⟩ .leaf) ⟨7845, 0, 0, [226, 769]⟩ .leaf)) ⟨7846, 0, 0, [194, 768]⟩ (.node (.node (.node .leaf ⟨7847, 0, 0, [226, 768]⟩ .leaf) ⟨7848, 0, 0, [194, 777]⟩ .leaf) ⟨7849, 0, 0, [226, 777]⟩ (.node (.node .leaf ⟨7850, 0, 0, [194, 771]⟩ .leaf) ⟨7851, 0, 0, [226, 771]⟩ .leaf)))))

/-- Rows of Data/Ucd.lean (proof aid). -/
def ucdT25 : Tree UcdRow := (.node (.node (.node (.node (.node (.node .leaf ⟨7853, 0, 0, [7841, 770]⟩ .leaf) ⟨7854, 0, 0, [258, 769]⟩ (.node .leaf ⟨7855, 0, 0, [259, 769]⟩ .leaf)) ⟨7856, 0, 0, [258, 768]⟩ (.node (.node .leaf ⟨7857, 0, 0, [259, 768]⟩ .leaf) ⟨7858, 0, 0, [258, 777]⟩ .leaf)) ⟨7859, 0, 0, [259, 777]⟩ (.node (.node (.node .leaf ⟨7860, 0, 0, [258, 771]⟩ .leaf) ⟨7861, 0, 0, [259, 771]⟩ .leaf) ⟨7862, 0, 0, [7840, 774]⟩ (.node (.node .leaf ⟨7863, 0, 0, [7841, 774]⟩ .leaf) ⟨7864, 0, 0, [69, 803]⟩ .leaf))) ⟨7865, 0, 0, [101, 803]⟩ (.node (.node (.node (.node .leaf ⟨7866, 0, 0, [69, 777]⟩ .leaf) ⟨7867, 0, 0, [101, 777]⟩ (.node .leaf ⟨7868, 0, 0, [69, 771]⟩ .leaf)) ⟨7869, 0, 0, [101, 771]⟩ (.node (.node .leaf ⟨7870, 0, 0, [202, 769]⟩ .leaf) ⟨7871, 0, 0, [234, 769]⟩ .leaf)) ⟨7872, 0, 0, [202, 768]⟩ (.node (.node (.node .leaf ⟨7873, 0, 0, [234, 768]⟩ .leaf) ⟨7874, 0, 0, [202, 777]⟩ .leaf) ⟨7875, 0, 0, [234, 777]⟩ (.node (.node .leaf ⟨7876, 0, 0, [202, 771]⟩ .leaf) ⟨7877, 0, 0, [234, 771]⟩ .leaf)))) ⟨7878, 0, 0, [7864, 770]⟩ (.node (.node (.node (.node (.node .leaf ⟨7879, 0, 0, [7865, 770]⟩ .leaf) ⟨7880, 0, 0, [73, 777]⟩ (.node .leaf ⟨7881, 0, 0, [105, 777]⟩ .leaf)) ⟨7882, 0, 0, [73, 803]⟩ (.node (.node .leaf ⟨7883, 0, 0, [105, 803]⟩ .leaf) ⟨7884, 0, 0, [79, 803]⟩ .leaf)) ⟨7885, 0, 0, [111, 803]⟩ (.node (.node (.node .leaf ⟨7886, 0, 0, [79, 777]⟩ .leaf) ⟨7887, 0, 0, [111, 777]⟩ .leaf) ⟨7888, 0, 0, [212, 769]⟩ (.node (.node .leaf ⟨7889, 0, 0, [244, 769]⟩ .leaf) ⟨7890, 0, 0, [212, 768]⟩ .leaf))) ⟨7891, 0, 0, [244, 768]⟩ (.node (.node (.node (.node .leaf ⟨7892, 0, 0, [212, 777]⟩ .leaf) ⟨7893, 0, 0, [244, 777]⟩ .leaf) ⟨7894, 0, 0, [212, 771]⟩ (.node (.node .leaf ⟨7895, 0, 0, [244, 771]⟩ .leaf) ⟨7896, 0, 0, [7884, 770]⟩ .leaf)) ⟨7897, 0, 0, [7885, 770]⟩ (.node (.node (.node .leaf ⟨7898, 0, 0, [416, 769]⟩ .leaf) ⟨7899, 0, 0, [417, 769]⟩ .leaf) ⟨7900, 0, 0, [416, 768]⟩ (.node (.node .leaf ⟨7901, 0, 0, [417, 768]⟩ .leaf) ⟨7902, 0, 0, [416, 777]⟩ .leaf)))))

/-- Rows of Data/Ucd.lean (proof aid). -/
def ucdT26 : Tree UcdRow := (.node (.node (.node (.node (.node (.node .leaf ⟨7904, 0, 0, [416, 771]⟩ .leaf) ⟨7905, 0, 0, [417, 771]⟩ (.node .leaf ⟨7906, 0, 0, [416, 803]⟩ .leaf)) ⟨7907, 0, 0, [417, 803]⟩ (.node (.node .leaf ⟨7908, 0, 0, [85, 803]⟩ .leaf) ⟨7909, 0, 0, [117, 803]⟩ .leaf)) ⟨7910, 0, 0, [85, 777]⟩ (.node (.node (.node .leaf ⟨7911, 0, 0, [117, 777]⟩ .leaf) ⟨7912, 0, 0, [431, 769]⟩ .leaf) ⟨7913, 0, 0, [432, 769]⟩ (.node (.node .leaf ⟨7914, 0, 0, [431, 768]⟩ .leaf) ⟨7915, 0, 0, [432, 768]⟩ .leaf))) ⟨7916, 0, 0, [431, 777]⟩ (.node (.node (.node (.node .leaf ⟨7917, 0, 0, [432, 777]⟩ .leaf) ⟨7918, 0, 0, [431, 771]⟩ (.node .leaf ⟨7919, 0, 0, [432, 771]⟩ .leaf)) ⟨7920, 0, 0, [431, 803]⟩ (.node (.node .leaf ⟨7921, 0, 0, [432, 803]⟩ .leaf) ⟨7922, 0, 0, [89, 768]⟩ .leaf)) ⟨7923, 0, 0, [121, 768]⟩ (.node (.node (.node .leaf ⟨7924, 0, 0, [89, 803]⟩ .leaf) ⟨7925, 0, 0, [121, 803]⟩ .leaf) ⟨7926, 0, 0, [89, 777]⟩ (.node (.node .leaf ⟨7927, 0, 0, [121, 777]⟩ .leaf) ⟨7928, 0, 0, [89, 771]⟩ .leaf)))) ⟨7929, 0, 0, [121, 771]⟩ (.node (.node (.node (.node (.node .leaf ⟨7936, 0, 0, [945, 787]⟩ .leaf) ⟨7937, 0, 0, [945, 788]⟩ (.node .leaf ⟨7938, 0, 0, [7936, 768]⟩ .leaf)) ⟨7939, 0, 0, [7937, 768]⟩ (.node (.node .leaf ⟨7940, 0, 0, [7936, 769]⟩ .leaf) ⟨7941, 0, 0, [7937, 769]⟩ .leaf)) ⟨7942, 0, 0, [7936, 834]⟩ (.node (.node (.node .leaf ⟨7943, 0, 0, [7937, 834]⟩ .leaf) ⟨7944, 0, 0, [913, 787]⟩ .leaf) ⟨7945, 0, 0, [913, 788]⟩ (.node (.node .leaf ⟨7946, 0, 0, [7944, 768]⟩ .leaf) ⟨7947, 0, 0, [7945, 768]⟩ .leaf))) ⟨7948, 0, 0, [7944, 769]⟩ (.node (.node (.node (.node .leaf ⟨7949, 0, 0, [7945, 769]⟩ .leaf) ⟨7950, 0, 0, [7944, 834]⟩ .leaf) ⟨7951, 0, 0, [7945, 834]⟩ (.node (.node .leaf ⟨7952, 0, 0, [949, 787]⟩ .leaf) ⟨7953, 0, 0, [949, 788]⟩ .leaf)) ⟨7954, 0, 0, [7952, 768]⟩ (.node (.node (.node .leaf ⟨7955, 0, 0, [7953, 768]⟩ .leaf) ⟨7956, 0, 0, [7952, 769]⟩ .leaf) ⟨7957, 0, 0, [7953, 769]⟩ (.node (.node .leaf ⟨7960, 0, 0, [917, 787]⟩ .leaf) ⟨7961, 0, 0, [917, 788]⟩ .leaf)))))

/-- Rows of Data/Ucd.lean (proof aid). -/
def ucdT27 : Tree UcdRow := (.node (.node (.node (.node (.node (.node .leaf ⟨7963, 0, 0, [7961, 768]⟩ .leaf) ⟨7964, 0, 0, [7960, 769]⟩ (.node .leaf ⟨7965, 0, 0, [7961, 769]⟩ .leaf)) ⟨7968, 0, 0, [951, 787]⟩ (.node (.node .leaf ⟨7969, 0, 0, [951, 788]⟩ .leaf) ⟨7970, 0, 0, [7968, 768]⟩ .leaf)) ⟨7971, 0, 0, [7969, 768]⟩ (.node (.node (.node .leaf ⟨7972, 0, 0, [7968, 769]⟩ .leaf) ⟨7973, 0, 0, [7969, 769]⟩ .leaf) ⟨7974, 0, 0, [7968, 834]⟩ (.node (.node .leaf ⟨7975, 0, 0, [7969, 834]⟩ .leaf) ⟨7976, 0, 0, [919, 787]⟩ .leaf))) ⟨7977, 0, 0, [919, 788]⟩ (.node (.node (.node (.node .leaf ⟨7978, 0, 0, [7976, 768]⟩ .leaf) ⟨7979, 0, 0, [7977, 768]⟩ (.node .leaf ⟨7980, 0, 0, [7976, 769]⟩ .leaf)) ⟨7981, 0, 0, [7977, 769]⟩ (.node (.node .leaf ⟨7982, 0, 0, [7976, 834]⟩ .leaf) ⟨7983, 0, 0, [7977, 834]⟩ .leaf)) ⟨7984, 0, 0, [953, 787]⟩ (.node (.node (.node .leaf ⟨7985, 0, 0, [953, 788]⟩ .leaf) ⟨7986, 0, 0, [7984, 768]⟩ .leaf) ⟨7987, 0, 0, [7985, 768]⟩ (.node (.node .leaf ⟨7988, 0, 0, [7984, 769]⟩ .leaf) ⟨7989, 0, 0, [7985, 769]⟩ .leaf)))) ⟨7990, 0, 0, [7984, 834]⟩ (.node (.node (.node (.node (.node .leaf ⟨7991, 0, 0, [7985, 834]⟩ .leaf) ⟨7992, 0, 0, [921, 787]⟩ (.node .leaf ⟨7993, 0, 0, [921, 788]⟩ .leaf)) ⟨7994, 0, 0, [7992, 768]⟩ (.node (.node .leaf ⟨7995, 0, 0, [7993, 768]⟩ .leaf) ⟨7996, 0, 0, [7992, 769]⟩ .leaf)) ⟨7997, 0, 0, [7993, 769]⟩ (.node (.node (.node .leaf ⟨7998, 0, 0, [7992, 834]⟩ .leaf) ⟨7999, 0, 0, [7993, 834]⟩ .leaf) ⟨8000, 0, 0, [959, 787]⟩ (.node (.node .leaf ⟨8001, 0, 0, [959, 788]⟩ .leaf) ⟨8002, 0, 0, [8000, 768]⟩ .leaf))) ⟨8003, 0, 0, [8001, 768]⟩ (.node (.node (.node (.node .leaf ⟨8004, 0, 0, [8000, 769]⟩ .leaf) ⟨8005, 0, 0, [8001, 769]⟩ .leaf) ⟨8008, 0, 0, [927, 787]⟩ (.node (.node .leaf ⟨8009, 0, 0, [927, 788]⟩ .leaf) ⟨8010, 0, 0, [8008, 768]⟩ .leaf)) ⟨8011, 0, 0, [8009, 768]⟩ (.node (.node (.node .leaf ⟨8012, 0, 0, [8008, 769]⟩ .leaf) ⟨8013, 0, 0, [8009, 769]⟩ .leaf) ⟨8016, 0, 0, [965, 787]⟩ (.node (.node .leaf ⟨8017, 0, 0, [965, 788]⟩ .leaf) ⟨8018, 0, 0, [8016, 768]⟩ .leaf)))))

/-- Rows of Data/Ucd.lean (proof aid). -/
def ucdT28 : Tree UcdRow := (.node (.node (.node (.node (.node (.node .leaf ⟨8020, 0, 0, [8016, 769]⟩ .leaf) ⟨8021, 0, 0, [8017, 769]⟩ (.node .leaf ⟨8022, 0, 0, [8016, 834]⟩ .leaf)) ⟨8023, 0, 0, [8017, 834]⟩ (.node (.node .leaf ⟨8025, 0, 0, [933, 788]⟩ .leaf) ⟨8027, 0, 0, [8025, 768]⟩ .leaf)) ⟨8029, 0, 0, [8025, 769]⟩ (.node (.node (.node .leaf ⟨8031, 0, 0, [8025, 834]⟩ .leaf) ⟨8032, 0, 0, [969, 787]⟩ .leaf) ⟨8033, 0, 0, [969, 788]⟩ (.node (.node .leaf ⟨8034, 0, 0, [8032, 768]⟩ .leaf) ⟨8035, 0, 0, [8033, 768]⟩ .leaf))) ⟨8036, 0, 0, [8032, 769]⟩ (.node (.node (.node (.node .leaf ⟨8037, 0, 0, [8033, 769]⟩ .leaf) ⟨8038, 0, 0, [8032, 834]⟩ (.node .leaf ⟨8039, 0, 0, [8033, 834]⟩ .leaf)) ⟨8040, 0, 0, [937, 787]⟩ (.node (.node .leaf ⟨8041, 0, 0, [937, 788]⟩ .leaf) ⟨8042, 0, 0, [8040, 768]⟩ .leaf)) ⟨8043, 0, 0, [8041, 768]⟩ (.node (.node (.node .leaf ⟨8044, 0, 0, [8040, 769]⟩ .leaf) ⟨8045, 0, 0, [8041, 769]⟩ .leaf) ⟨8046, 0, 0, [8040, 834]⟩ (.node (.node .leaf ⟨8047, 0, 0, [8041, 834]⟩ .leaf) ⟨8048, 0, 0, [945, 768]⟩ .leaf)))) ⟨8049, 0, 0, [940]⟩ (.node (.node (.node (.node (.node .leaf ⟨8050, 0, 0, [949, 768]⟩ .leaf) ⟨8051, 0, 0, [941]⟩ (.node .leaf ⟨8052, 0, 0, [951, 768]⟩ .leaf)) ⟨8053, 0, 0, [942]⟩ (.node (.node .leaf ⟨8054, 0, 0, [953, 768]⟩ .leaf) ⟨8055, 0, 0, [943]⟩ .leaf)) ⟨8056, 0, 0, [959, 768]⟩ (.node (.node (.node .leaf ⟨8057, 0, 0, [972]⟩ .leaf) ⟨8058, 0, 0, [965, 768]⟩ .leaf) ⟨8059, 0, 0, [973]⟩ (.node (.node .leaf ⟨8060, 0, 0, [969, 768]⟩ .leaf) ⟨8061, 0, 0, [974]⟩ .leaf))) ⟨8064, 0, 0, [7936, 837]⟩ (.node (.node (.node (.node .leaf ⟨8065, 0, 0, [7937, 837]⟩ .leaf) ⟨8066, 0, 0, [7938, 837]⟩ .leaf) ⟨8067, 0, 0, [7939, 837]⟩ (.node (.node .leaf ⟨8068, 0, 0, [7940, 837]⟩ .leaf) ⟨8069, 0, 0, [7941, 837]⟩ .leaf)) ⟨8070, 0, 0, [7942, 837]⟩ (.node (.node (.node .leaf ⟨8071, 0, 0, [7943, 837]⟩ .leaf) ⟨8072, 0, 0, [7944, 837]⟩ .leaf) ⟨8073, 0, 0, [7945, 837]⟩ (.node (.node .leaf ⟨8074, 0, 0, [7946, 837]⟩ .leaf) ⟨8075, 0, 0, [7947, 837]⟩ .leaf)))))

/-- Rows of Data/Ucd.lean (proof aid). -/
def ucdT29 : Tree UcdRow := (.node (.node (.node (.node (.node (.node .leaf ⟨8077, 0, 0, [7949, 837]⟩ .leaf) ⟨8078, 0, 0, [7950, 837]⟩ (.node .leaf ⟨8079, 0, 0, [7951, 837]⟩ .leaf)) ⟨8080, 0, 0, [7968, 837]⟩ (.node (.node .leaf ⟨8081, 0, 0, [7969, 837]⟩ .leaf) ⟨8082, 0, 0, [7970, 837]⟩ .leaf)) ⟨8083, 0, 0, [7971, 837]⟩ (.node (.node (.node .leaf ⟨8084, 0, 0, [7972, 837]⟩ .leaf) ⟨8085, 0, 0, [7973, 837]⟩ .leaf) ⟨8086, 0, 0, [7974, 837]⟩ (.node (.node .leaf ⟨8087, 0, 0, [7975, 837]⟩ .leaf) ⟨8088, 0, 0, [7976, 837]⟩ .leaf))) ⟨8089, 0, 0, [7977, 837]⟩ (.node (.node (.node (.node .leaf ⟨8090, 0, 0, [7978, 837]⟩ .leaf) ⟨8091, 0, 0, [7979, 837]⟩ (.node .leaf ⟨8092, 0, 0, [7980, 837]⟩ .leaf)) ⟨8093, 0, 0, [7981, 837]⟩ (.node (.node .leaf ⟨8094, 0, 0, [7982, 837]⟩ .leaf) ⟨8095, 0, 0, [7983, 837]⟩ .leaf)) ⟨8096, 0, 0, [8032, 837]⟩ (.node (.node (.node .leaf ⟨8097, 0, 0, [8033, 837]⟩ .leaf) ⟨8098, 0, 0, [8034, 837]⟩ .leaf) ⟨8099, 0, 0, [8035, 837]⟩ (.node (.node .leaf ⟨8100, 0, 0, [8036, 837]⟩ .leaf) ⟨8101, 0, 0, [8037, 837]⟩ .leaf)))) ⟨8102, 0, 0, [8038, 837]⟩ (.node (.node (.node (.node (.node .leaf ⟨8103, 0, 0, [8039, 837]⟩ .leaf) ⟨8104, 0, 0, [8040, 837]⟩ (.node .leaf ⟨8105, 0, 0, [8041, 837]⟩ .leaf)) ⟨8106, 0, 0, [8042, 837]⟩ (.node (.node .leaf ⟨8107, 0, 0, [8043, 837]⟩ .leaf) ⟨8108, 0, 0, [8044, 837]⟩ .leaf)) ⟨8109, 0, 0, [8045, 837]⟩ (.node (.node (.node .leaf ⟨8110, 0, 0, [8046, 837]⟩ .leaf) ⟨8111, 0, 0, [8047, 837]⟩ .leaf) ⟨8112, 0, 0, [945, 774]⟩ (.node (.node .leaf ⟨8113, 0, 0, [945, 772]⟩ .leaf) ⟨8114, 0, 0, [8048, 837]⟩ .leaf))) ⟨8115, 0, 0, [945, 837]⟩ (.node (.node (.node (.node .leaf ⟨8116, 0, 0, [940, 837]⟩ .leaf) ⟨8118, 0, 0, [945, 834]⟩ .leaf) ⟨8119, 0, 0, [8118, 837]⟩ (.node (.node .leaf ⟨8120, 0, 0, [913, 774]⟩ .leaf) ⟨8121, 0, 0, [913, 772]⟩ .leaf)) ⟨8122, 0, 0, [913, 768]⟩ (.node (.node (.node .leaf ⟨8123, 0, 0, [902]⟩ .leaf) ⟨8124, 0, 0, [913, 837]⟩ .leaf) ⟨8125, 0, 1, [32, 787]⟩ (.node (.node .leaf ⟨8126, 0, 0, [953]⟩ .leaf) ⟨8127, 0, 1, [32, 787]⟩ .leaf)))))

/-- Rows of Data/Ucd.lean (proof aid). -/
def ucdT30 : Tree UcdRow := (.node (.node (.node (.node (.node (.node .leaf ⟨8129, 0, 0, [168, 834]⟩ .leaf) ⟨8130, 0, 0, [8052, 837]⟩ (.node .leaf ⟨8131, 0, 0, [951, 837]⟩ .leaf)) ⟨8132, 0, 0, [942, 837]⟩ (.node (.node .leaf ⟨8134, 0, 0, [951, 834]⟩ .leaf) ⟨8135, 0, 0, [8134, 837]⟩ .leaf)) ⟨8136, 0, 0, [917, 768]⟩ (.node (.node (.node .leaf ⟨8137, 0, 0, [904]⟩ .leaf) ⟨8138, 0, 0, [919, 768]⟩ .leaf) ⟨8139, 0, 0, [905]⟩ (.node (.node .leaf ⟨8140, 0, 0, [919, 837]⟩ .leaf) ⟨8141, 0, 0, [8127, 768]⟩ .leaf))) ⟨8142, 0, 0, [8127, 769]⟩ (.node (.node (.node (.node .leaf ⟨8143, 0, 0, [8127, 834]⟩ .leaf) ⟨8144, 0, 0, [953, 774]⟩ (.node .leaf ⟨8145, 0, 0, [953, 772]⟩ .leaf)) ⟨8146, 0, 0, [970, 768]⟩ (.node (.node .leaf ⟨8147, 0, 0, [912]⟩ .leaf) ⟨8150, 0, 0, [953, 834]⟩ .leaf)) ⟨8151, 0, 0, [970, 834]⟩ (.node (.node (.node .leaf ⟨8152, 0, 0, [921, 774]⟩ .leaf) ⟨8153, 0, 0, [921, 772]⟩ .leaf) ⟨8154, 0, 0, [921, 768]⟩ (.node (.node .leaf ⟨8155, 0, 0, [906]⟩ .leaf) ⟨8157, 0, 0, [8190, 768]⟩ .leaf)))) ⟨8158, 0, 0, [8190, 769]⟩ (.node (.node (.node (.node (.node .leaf ⟨8159, 0, 0, [8190, 834]⟩ .leaf) ⟨8160, 0, 0, [965, 774]⟩ (.node .leaf ⟨8161, 0, 0, [965, 772]⟩ .leaf)) ⟨8162, 0, 0, [971, 768]⟩ (.node (.node .leaf ⟨8163, 0, 0, [944]⟩ .leaf) ⟨8164, 0, 0, [961, 787]⟩ .leaf)) ⟨8165, 0, 0, [961, 788]⟩ (.node (.node (.node .leaf ⟨8166, 0, 0, [965, 834]⟩ .leaf) ⟨8167, 0, 0, [971, 834]⟩ .leaf) ⟨8168, 0, 0, [933, 774]⟩ (.node (.node .leaf ⟨8169, 0, 0, [933, 772]⟩ .leaf) ⟨8170, 0, 0, [933, 768]⟩ .leaf))) ⟨8171, 0, 0, [910]⟩ (.node (.node (.node (.node .leaf ⟨8172, 0, 0, [929, 788]⟩ .leaf) ⟨8173, 0, 0, [168, 768]⟩ .leaf) ⟨8174, 0, 0, [901]⟩ (.node (.node .leaf ⟨8175, 0, 0, [96]⟩ .leaf) ⟨8178, 0, 0, [8060, 837]⟩ .leaf)) ⟨8179, 0, 0, [969, 837]⟩ (.node (.node (.node .leaf ⟨8180, 0, 0, [974, 837]⟩ .leaf) ⟨8182, 0, 0, [969, 834]⟩ .leaf) ⟨8183, 0, 0, [8182, 837]⟩ (.node (.node .leaf ⟨8184, 0, 0, [927, 768]⟩ .leaf) ⟨8185, 0, 0, [908]⟩ .leaf)))))

/-- Rows of Data/Ucd.lean (proof aid). -/
def ucdT31 : Tree UcdRow := (.node (.node (.node (.node (.node (.node .leaf ⟨8187, 0, 0, [911]⟩ .leaf) ⟨8188, 0, 0, [937, 837]⟩ (.node .leaf ⟨8189, 0, 0, [180]⟩ .leaf)) ⟨8190, 0, 1, [32, 788]⟩ (.node (.node .leaf ⟨8192, 0, 0, [8194]⟩ .leaf) ⟨8193, 0, 0, [8195]⟩ .leaf)) ⟨8194, 0, 1, [32]⟩ (.node (.node (.node .leaf ⟨8195, 0, 1, [32]⟩ .leaf) ⟨8196, 0, 1, [32]⟩ .leaf) ⟨8197, 0, 1, [32]⟩ (.node (.node .leaf ⟨8198, 0, 1, [32]⟩ .leaf) ⟨8199, 0, 2, [32]⟩ .leaf))) ⟨8200, 0, 1, [32]⟩ (.node (.node (.node (.node .leaf ⟨8201, 0, 1, [32]⟩ .leaf) ⟨8202, 0, 1, [32]⟩ (.node .leaf ⟨8209, 0, 2, [8208]⟩ .leaf)) ⟨8215, 0, 1, [32, 819]⟩ (.node (.node .leaf ⟨8228, 0, 1, [46]⟩ .leaf) ⟨8229, 0, 1, [46, 46]⟩ .leaf)) ⟨8230, 0, 1, [46, 46, 46]⟩ (.node (.node (.node .leaf ⟨8239, 0, 2, [32]⟩ .leaf) ⟨8243, 0, 1, [8242, 8242]⟩ .leaf) ⟨8244, 0, 1, [8242, 8242, 8242]⟩ (.node (.node .leaf ⟨8246, 0, 1, [8245, 8245]⟩ .leaf) ⟨8247, 0, 1, [8245, 8245, 8245]⟩ .leaf)))) ⟨8252, 0, 1, [33, 33]⟩ (.node (.node (.node (.node (.node .leaf ⟨8254, 0, 1, [32, 773]⟩ .leaf) ⟨8263, 0, 1, [63, 63]⟩ (.node .leaf ⟨8264, 0, 1, [63, 33]⟩ .leaf)) ⟨8265, 0, 1, [33, 63]⟩ (.node (.node .leaf ⟨8279, 0, 1, [8242, 8242, 8242, 8242]⟩ .leaf) ⟨8287, 0, 1, [32]⟩ .leaf)) ⟨8304, 0, 2, [48]⟩ (.node (.node (.node .leaf ⟨8305, 0, 2, [105]⟩ .leaf) ⟨8308, 0, 2, [52]⟩ .leaf) ⟨8309, 0, 2, [53]⟩ (.node (.node .leaf ⟨8310, 0, 2, [54]⟩ .leaf) ⟨8311, 0, 2, [55]⟩ .leaf))) ⟨8312, 0, 2, [56]⟩ (.node (.node (.node (.node .leaf ⟨8313, 0, 2, [57]⟩ .leaf) ⟨8314, 0, 2, [43]⟩ .leaf) ⟨8315, 0, 2, [8722]⟩ (.node (.node .leaf ⟨8316, 0, 2, [61]⟩ .leaf) ⟨8317, 0, 2, [40]⟩ .leaf)) ⟨8318, 0, 2, [41]⟩ (.node (.node (.node .leaf ⟨8319, 0, 2, [110]⟩ .leaf) ⟨8320, 0, 2, [48]⟩ .leaf) ⟨8321, 0, 2, [49]⟩ (.node (.node .leaf ⟨8322, 0, 2, [50]⟩ .leaf) ⟨8323, 0, 2, [51]⟩ .leaf)))))

/-- Rows of Data/Ucd.lean (proof aid). -/
def ucdT32 : Tree UcdRow := (.node (.node (.node (.node (.node (.node .leaf ⟨8325, 0, 2, [53]⟩ .leaf) ⟨8326, 0, 2, [54]⟩ (.node .leaf ⟨8327, 0, 2, [55]⟩ .leaf)) ⟨8328, 0, 2, [56]⟩ (.node (.node .leaf ⟨8329, 0, 2, [57]⟩ .leaf) ⟨8330, 0, 2, [43]⟩ .leaf)) ⟨8331, 0, 2, [8722]⟩ (.node (.node (.node .leaf ⟨8332, 0, 2, [61]⟩ .leaf) ⟨8333, 0, 2, [40]⟩ .leaf) ⟨8334, 0, 2, [41]⟩ (.node (.node .leaf ⟨8336, 0, 2, [97]⟩ .leaf) ⟨8337, 0, 2, [101]⟩ .leaf))) ⟨8338, 0, 2, [111]⟩ (.node (.node (.node (.node .leaf ⟨8339, 0, 2, [120]⟩ .leaf) ⟨8340, 0, 2, [601]⟩ (.node .leaf ⟨8341, 0, 2, [104]⟩ .leaf)) ⟨8342, 0, 2, [107]⟩ (.node (.node .leaf ⟨8343, 0, 2, [108]⟩ .leaf) ⟨8344, 0, 2, [109]⟩ .leaf)) ⟨8345, 0, 2, [110]⟩ (.node (.node (.node .leaf ⟨8346, 0, 2, [112]⟩ .leaf) ⟨8347, 0, 2, [115]⟩ .leaf) ⟨8348, 0, 2, [116]⟩ (.node (.node .leaf ⟨8360, 0, 1, [82, 115]⟩ .leaf) ⟨8400, 230, 0, []⟩ .leaf)))) ⟨8401, 230, 0, []⟩ (.node (.node (.node (.node (.node .leaf ⟨8402, 1, 0, []⟩ .leaf) ⟨8403, 1, 0, []⟩ (.node .leaf ⟨8404, 230, 0, []⟩ .leaf)) ⟨8405, 230, 0, []⟩ (.node (.node .leaf ⟨8406, 230, 0, []⟩ .leaf) ⟨8407, 230, 0, []⟩ .leaf)) ⟨8408, 1, 0, []⟩ (.node (.node (.node .leaf ⟨8409, 1, 0, []⟩ .leaf) ⟨8410, 1, 0, []⟩ .leaf) ⟨8411, 230, 0, []⟩ (.node (.node .leaf ⟨8412, 230, 0, []⟩ .leaf) ⟨8417, 230, 0, []⟩ .leaf))) ⟨8421, 1, 0, []⟩ (.node (.node (.node (.node .leaf ⟨8422, 1, 0, []⟩ .leaf) ⟨8423, 230, 0, []⟩ (.node .leaf ⟨8424, 220, 0, []⟩ .leaf)) ⟨8425, 230, 0, []⟩ (.node (.node .leaf ⟨8426, 1, 0, []⟩ .leaf) ⟨8427, 1, 0, []⟩ .leaf)) ⟨8428, 220, 0, []⟩ (.node (.node (.node .leaf ⟨8429, 220, 0, []⟩ .leaf) ⟨8430, 220, 0, []⟩ .leaf) ⟨8431, 220, 0, []⟩ (.node (.node .leaf ⟨8432, 230, 0, []⟩ .leaf) ⟨8448, 0, 1, [97, 47, 99]⟩ .leaf)))))

/-- Rows of Data/Ucd.lean (proof aid). -/
def ucdT33 : Tree UcdRow := (.node (.node (.node (.node (.node (.node .leaf ⟨8450, 0, 2, [67]⟩ .leaf) ⟨8451, 0, 1, [176, 67]⟩ (.node .leaf ⟨8453, 0, 1, [99, 47, 111]⟩ .leaf)) ⟨8454, 0, 1, [99, 47, 117]⟩ (.node (.node .leaf ⟨8455, 0, 1, [400]⟩ .leaf) ⟨8457, 0, 1, [176, 70]⟩ .leaf)) ⟨8458, 0, 2, [103]⟩ (.node (.node (.node .leaf ⟨8459, 0, 2, [72]⟩ .leaf) ⟨8460, 0, 2, [72]⟩ .leaf) ⟨8461, 0, 2, [72]⟩ (.node (.node .leaf ⟨8462, 0, 2, [104]⟩ .leaf) ⟨8463, 0, 2, [295]⟩ .leaf))) ⟨8464, 0, 2, [73]⟩ (.node (.node (.node (.node .leaf ⟨8465, 0, 2, [73]⟩ .leaf) ⟨8466, 0, 2, [76]⟩ (.node .leaf ⟨8467, 0, 2, [108]⟩ .leaf)) ⟨8469, 0, 2, [78]⟩ (.node (.node .leaf ⟨8470, 0, 1, [78, 111]⟩ .leaf) ⟨8473, 0, 2, [80]⟩ .leaf)) ⟨8474, 0, 2, [81]⟩ (.node (.node (.node .leaf ⟨8475, 0, 2, [82]⟩ .leaf) ⟨8476, 0, 2, [82]⟩ .leaf) ⟨8477, 0, 2, [82]⟩ (.node (.node .leaf ⟨8480, 0, 2, [83, 77]⟩ .leaf) ⟨8481, 0, 1, [84, 69, 76]⟩ .leaf)))) ⟨8482, 0, 2, [84, 77]⟩ (.node (.node (.node (.node (.node .leaf ⟨8484, 0, 2, [90]⟩ .leaf) ⟨8486, 0, 0, [937]⟩ (.node .leaf ⟨8488, 0, 2, [90]⟩ .leaf)) ⟨8490, 0, 0, [75]⟩ (.node (.node .leaf ⟨8491, 0, 0, [197]⟩ .leaf) ⟨8492, 0, 2, [66]⟩ .leaf)) ⟨8493, 0, 2, [67]⟩ (.node (.node (.node .leaf ⟨8495, 0, 2, [101]⟩ .leaf) ⟨8496, 0, 2, [69]⟩ .leaf) ⟨8497, 0, 2, [70]⟩ (.node (.node .leaf ⟨8499, 0, 2, [77]⟩ .leaf) ⟨8500, 0, 2, [111]⟩ .leaf))) ⟨8501, 0, 1, [1488]⟩ (.node (.node (.node (.node .leaf ⟨8502, 0, 1, [1489]⟩ .leaf) ⟨8503, 0, 1, [1490]⟩ .leaf) ⟨8504, 0, 1, [1491]⟩ (.node (.node .leaf ⟨8505, 0, 2, [105]⟩ .leaf) ⟨8507, 0, 1, [70, 65, 88]⟩ .leaf)) ⟨8508, 0, 2, [960]⟩ (.node (.node (.node .leaf ⟨8509, 0, 2, [947]⟩ .leaf) ⟨8510, 0, 2, [915]⟩ .leaf) ⟨8511, 0, 2, [928]⟩ (.node (.node .leaf ⟨8512, 0, 2, [8721]⟩ .leaf) ⟨8517, 0, 2, [68]⟩ .leaf)))))

/-- Rows of Data/Ucd.lean (proof aid). -/
def ucdT34 : Tree UcdRow := (.node (.node (.node (.node (.node (.node .leaf ⟨8519, 0, 2, [101]⟩ .leaf) ⟨8520, 0, 2, [105]⟩ (.node .leaf ⟨8521, 0, 2, [106]⟩ .leaf)) ⟨8528, 0, 2, [49, 8260, 55]⟩ (.node (.node .leaf ⟨8529, 0, 2, [49, 8260, 57]⟩ .leaf) ⟨8530, 0, 2, [49, 8260, 49, 48]⟩ .leaf)) ⟨8531, 0, 2, [49, 8260, 51]⟩ (.node (.node (.node .leaf ⟨8532, 0, 2, [50, 8260, 51]⟩ .leaf) ⟨8533, 0, 2, [49, 8260, 53]⟩ .leaf) ⟨8534, 0, 2, [50, 8260, 53]⟩ (.node (.node .leaf ⟨8535, 0, 2, [51, 8260, 53]⟩ .leaf) ⟨8536, 0, 2, [52, 8260, 53]⟩ .leaf))) ⟨8537, 0, 2, [49, 8260, 54]⟩ (.node (.node (.node (.node .leaf ⟨8538, 0, 2, [53, 8260, 54]⟩ .leaf) ⟨8539, 0, 2, [49, 8260, 56]⟩ (.node .leaf ⟨8540, 0, 2, [51, 8260, 56]⟩ .leaf)) ⟨8541, 0, 2, [53, 8260, 56]⟩ (.node (.node .leaf ⟨8542, 0, 2, [55, 8260, 56]⟩ .leaf) ⟨8543, 0, 2, [49, 8260]⟩ .leaf)) ⟨8544, 0, 1, [73]⟩ (.node (.node (.node .leaf ⟨8545, 0, 1, [73, 73]⟩ .leaf) ⟨8546, 0, 1, [73, 73, 73]⟩ .leaf) ⟨8547, 0, 1, [73, 86]⟩ (.node (.node .leaf ⟨8548, 0, 1, [86]⟩ .leaf) ⟨8549, 0, 1, [86, 73]⟩ .leaf)))) ⟨8550, 0, 1, [86, 73, 73]⟩ (.node (.node (.node (.node (.node .leaf ⟨8551, 0, 1, [86, 73, 73, 73]⟩ .leaf) ⟨8552, 0, 1, [73, 88]⟩ (.node .leaf ⟨8553, 0, 1, [88]⟩ .leaf)) ⟨8554, 0, 1, [88, 73]⟩ (.node (.node .leaf ⟨8555, 0, 1, [88, 73, 73]⟩ .leaf) ⟨8556, 0, 1, [76]⟩ .leaf)) ⟨8557, 0, 1, [67]⟩ (.node (.node (.node .leaf ⟨8558, 0, 1, [68]⟩ .leaf) ⟨8559, 0, 1, [77]⟩ .leaf) ⟨8560, 0, 1, [105]⟩ (.node (.node .leaf ⟨8561, 0, 1, [105, 105]⟩ .leaf) ⟨8562, 0, 1, [105, 105, 105]⟩ .leaf))) ⟨8563, 0, 1, [105, 118]⟩ (.node (.node (.node (.node .leaf ⟨8564, 0, 1, [118]⟩ .leaf) ⟨8565, 0, 1, [118, 105]⟩ .leaf) ⟨8566, 0, 1, [118, 105, 105]⟩ (.node (.node .leaf ⟨8567, 0, 1, [118, 105, 105, 105]⟩ .leaf) ⟨8568, 0, 1, [105, 120]⟩ .leaf)) ⟨8569, 0, 1, [120]⟩ (.node (.node (.node .leaf ⟨8570, 0, 1, [120, 105]⟩ .leaf) ⟨8571, 0, 1, [120, 105, 105]⟩ .leaf) ⟨8572, 0, 1, [108]⟩ (.node (.node .leaf ⟨8573, 0, 1, [99]⟩ .leaf) ⟨8574, 0, 1, [100]⟩ .leaf)))))

/-- Rows of Data/Ucd.lean (proof aid). -/
def ucdT35 : Tree UcdRow := (.node (.node (.node (.node (.node (.node .leaf ⟨8585, 0, 2, [48, 8260, 51]⟩ .leaf) ⟨8602, 0, 0, [8592, 824]⟩ (.node .leaf ⟨8603, 0, 0, [8594, 824]⟩ .leaf)) ⟨8622, 0, 0, [8596, 824]⟩ (.node (.node .leaf ⟨8653, 0, 0, [8656, 824]⟩ .leaf) ⟨8654, 0, 0, [8660, 824]⟩ .leaf)) ⟨8655, 0, 0, [8658, 824]⟩ (.node (.node (.node .leaf ⟨8708, 0, 0, [8707, 824]⟩ .leaf) ⟨8713, 0, 0, [8712, 824]⟩ .leaf) ⟨8716, 0, 0, [8715, 824]⟩ (.node (.node .leaf ⟨8740, 0, 0, [8739, 824]⟩ .leaf) ⟨8742, 0, 0, [8741, 824]⟩ .leaf))) ⟨8748, 0, 1, [8747, 8747]⟩ (.node (.node (.node (.node .leaf ⟨8749, 0, 1, [8747, 8747, 8747]⟩ .leaf) ⟨8751, 0, 1, [8750, 8750]⟩ (.node .leaf ⟨8752, 0, 1, [8750, 8750, 8750]⟩ .leaf)) ⟨8769, 0, 0, [8764, 824]⟩ (.node (.node .leaf ⟨8772, 0, 0, [8771, 824]⟩ .leaf) ⟨8775, 0, 0, [8773, 824]⟩ .leaf)) ⟨8777, 0, 0, [8776, 824]⟩ (.node (.node (.node .leaf ⟨8800, 0, 0, [61, 824]⟩ .leaf) ⟨8802, 0, 0, [8801, 824]⟩ .leaf) ⟨8813, 0, 0, [8781, 824]⟩ (.node (.node .leaf ⟨8814, 0, 0, [60, 824]⟩ .leaf) ⟨8815, 0, 0, [62, 824]⟩ .leaf)))) ⟨8816, 0, 0, [8804, 824]⟩ (.node (.node (.node (.node (.node .leaf ⟨8817, 0, 0, [8805, 824]⟩ .leaf) ⟨8820, 0, 0, [8818, 824]⟩ (.node .leaf ⟨8821, 0, 0, [8819, 824]⟩ .leaf)) ⟨8824, 0, 0, [8822, 824]⟩ (.node (.node .leaf ⟨8825, 0, 0, [8823, 824]⟩ .leaf) ⟨8832, 0, 0, [8826, 824]⟩ .leaf)) ⟨8833, 0, 0, [8827, 824]⟩ (.node (.node (.node .leaf ⟨8836, 0, 0, [8834, 824]⟩ .leaf) ⟨8837, 0, 0, [8835, 824]⟩ .leaf) ⟨8840, 0, 0, [8838, 824]⟩ (.node (.node .leaf ⟨8841, 0, 0, [8839, 824]⟩ .leaf) ⟨8876, 0, 0, [8866, 824]⟩ .leaf))) ⟨8877, 0, 0, [8872, 824]⟩ (.node (.node (.node (.node .leaf ⟨8878, 0, 0, [8873, 824]⟩ .leaf) ⟨8879, 0, 0, [8875, 824]⟩ .leaf) ⟨8928, 0, 0, [8828, 824]⟩ (.node (.node .leaf ⟨8929, 0, 0, [8829, 824]⟩ .leaf) ⟨8930, 0, 0, [8849, 824]⟩ .leaf)) ⟨8931, 0, 0, [8850, 824]⟩ (.node (.node (.node .leaf ⟨8938, 0, 0, [8882, 824]⟩ .leaf) ⟨8939, 0, 0, [8883, 824]⟩ .leaf) ⟨8940, 0, 0, [8884, 824]⟩ (.node (.node .leaf ⟨8941, 0, 0, [8885, 824]⟩ .leaf) ⟨9001, 0, 0, [12296]⟩ .leaf)))))

/-- Rows of Data/Ucd.lean (proof aid). -/
def ucdT36 : Tree UcdRow := (.node (.node (.node (.node (.node (.node .leaf ⟨9312, 0, 2, [49]⟩ .leaf) ⟨9313, 0, 2, [50]⟩ (.node .leaf ⟨9314, 0, 2, [51]⟩ .leaf)) ⟨9315, 0, 2, [52]⟩ (.node (.node .leaf ⟨9316, 0, 2, [53]⟩ .leaf) ⟨9317, 0, 2, [54]⟩ .leaf)) ⟨9318, 0, 2, [55]⟩ (.node (.node (.node .leaf ⟨9319, 0, 2, [56]⟩ .leaf) ⟨9320, 0, 2, [57]⟩ .leaf) ⟨9321, 0, 2, [49, 48]⟩ (.node (.node .leaf ⟨9322, 0, 2, [49, 49]⟩ .leaf) ⟨9323, 0, 2, [49, 50]⟩ .leaf))) ⟨9324, 0, 2, [49, 51]⟩ (.node (.node (.node (.node .leaf ⟨9325, 0, 2, [49, 52]⟩ .leaf) ⟨9326, 0, 2, [49, 53]⟩ (.node .leaf ⟨9327, 0, 2, [49, 54]⟩ .leaf)) ⟨9328, 0, 2, [49, 55]⟩ (.node (.node .leaf ⟨9329, 0, 2, [49, 56]⟩ .leaf) ⟨9330, 0, 2, [49, 57]⟩ .leaf)) ⟨9331, 0, 2, [50, 48]⟩ (.node (.node (.node .leaf ⟨9332, 0, 1, [40, 49, 41]⟩ .leaf) ⟨9333, 0, 1, [40, 50, 41]⟩ .leaf) ⟨9334, 0, 1, [40, 51, 41]⟩ (.node (.node .leaf ⟨9335, 0, 1, [40, 52, 41]⟩ .leaf) ⟨9336, 0, 1, [40, 53, 41]⟩ .leaf)))) ⟨9337, 0, 1, [40, 54, 41]⟩ (.node (.node (.node (.node (.node .leaf ⟨9338, 0, 1, [40, 55, 41]⟩ .leaf) ⟨9339, 0, 1, [40, 56, 41]⟩ (.node .leaf ⟨9340, 0, 1, [40, 57, 41]⟩ .leaf)) ⟨9341, 0, 1, [40, 49, 48, 41]⟩ (.node (.node .leaf ⟨9342, 0, 1, [40, 49, 49, 41]⟩ .leaf) ⟨9343, 0, 1, [40, 49, 50, 41]⟩ .leaf)) ⟨9344, 0, 1, [40, 49, 51, 41]⟩ (.node (.node (.node .leaf ⟨9345, 0, 1, [40, 49, 52, 41]⟩ .leaf) ⟨9346, 0, 1, [40, 49, 53, 41]⟩ .leaf) ⟨9347, 0, 1, [40, 49, 54, 41]⟩ (.node (.node .leaf ⟨9348, 0, 1, [40, 49, 55, 41]⟩ .leaf) ⟨9349, 0, 1, [40, 49, 56, 41]⟩ .leaf))) ⟨9350, 0, 1, [40, 49, 57, 41]⟩ (.node (.node (.node (.node .leaf ⟨9351, 0, 1, [40, 50, 48, 41]⟩ .leaf) ⟨9352, 0, 1, [49, 46]⟩ .leaf) ⟨9353, 0, 1, [50, 46]⟩ (.node (.node .leaf ⟨9354, 0, 1, [51, 46]⟩ .leaf) ⟨9355, 0, 1, [52, 46]⟩ .leaf)) ⟨9356, 0, 1, [53, 46]⟩ (.node (.node (.node .leaf ⟨9357, 0, 1, [54, 46]⟩ .leaf) ⟨9358, 0, 1, [55, 46]⟩ .leaf) ⟨9359, 0, 1, [56, 46]⟩ (.node (.node .leaf ⟨9360, 0, 1, [57, 46]⟩ .leaf) ⟨9361, 0, 1, [49, 48, 46]⟩ .leaf)))))

/-- Rows of Data/Ucd.lean (proof aid). -/
def ucdT37 : Tree UcdRow := (.node (.node (.node (.node (.node (.node .leaf ⟨9363, 0, 1, [49, 50, 46]⟩ .leaf) ⟨9364, 0, 1, [49, 51, 46]⟩ (.node .leaf ⟨9365, 0, 1, [49, 52, 46]⟩ .leaf)) ⟨9366, 0, 1, [49, 53, 46]⟩ (.node (.node .leaf ⟨9367, 0, 1, [49, 54, 46]⟩ .leaf) ⟨9368, 0, 1, [49, 55, 46]⟩ .leaf)) ⟨9369, 0, 1, [49, 56, 46]⟩ (.node (.node (.node .leaf ⟨9370, 0, 1, [49, 57, 46]⟩ .leaf) ⟨9371, 0, 1, [50, 48, 46]⟩ .leaf) ⟨9372, 0, 1, [40, 97, 41]⟩ (.node (.node .leaf ⟨9373, 0, 1, [40, 98, 41]⟩ .leaf) ⟨9374, 0, 1, [40, 99, 41]⟩ .leaf))) ⟨9375, 0, 1, [40, 100, 41]⟩ (.node (.node (.node (.node .leaf ⟨9376, 0, 1, [40, 101, 41]⟩ .leaf) ⟨9377, 0, 1, [40, 102, 41]⟩ (.node .leaf ⟨9378, 0, 1, [40, 103, 41]⟩ .leaf)) ⟨9379, 0, 1, [40, 104, 41]⟩ (.node (.node .leaf ⟨9380, 0, 1, [40, 105, 41]⟩ .leaf) ⟨9381, 0, 1, [40, 106, 41]⟩ .leaf)) ⟨9382, 0, 1, [40, 107, 41]⟩ (.node (.node (.node .leaf ⟨9383, 0, 1, [40, 108, 41]⟩ .leaf) ⟨9384, 0, 1, [40, 109, 41]⟩ .leaf) ⟨9385, 0, 1, [40, 110, 41]⟩ (.node (.node .leaf ⟨9386, 0, 1, [40, 111, 41]⟩ .leaf) ⟨9387, 0, 1, [40, 112, 41]⟩ .leaf)))) ⟨9388, 0, 1, [40, 113, 41]⟩ (.node (.node (.node (.node (.node .leaf ⟨9389, 0, 1, [40, 114, 41]⟩ .leaf) ⟨9390, 0, 1, [40, 115, 41]⟩ (.node .leaf ⟨9391, 0, 1, [40, 116, 41]⟩ .leaf)) ⟨9392, 0, 1, [40, 117, 41]⟩ (.node (.node .leaf ⟨9393, 0, 1, [40, 118, 41]⟩ .leaf) ⟨9394, 0, 1, [40, 119, 41]⟩ .leaf)) ⟨9395, 0, 1, [40, 120, 41]⟩ (.node (.node (.node .leaf ⟨9396, 0, 1, [40, 121, 41]⟩ .leaf) ⟨9397, 0, 1, [40, 122, 41]⟩ .leaf) ⟨9398, 0, 2, [65]⟩ (.node (.node .leaf ⟨9399, 0, 2, [66]⟩ .leaf) ⟨9400, 0, 2, [67]⟩ .leaf))) ⟨9401, 0, 2, [68]⟩ (.node (.node (.node (.node .leaf ⟨9402, 0, 2, [69]⟩ .leaf) ⟨9403, 0, 2, [70]⟩ .leaf) ⟨9404, 0, 2, [71]⟩ (.node (.node .leaf ⟨9405, 0, 2, [72]⟩ .leaf) ⟨9406, 0, 2, [73]⟩ .leaf)) ⟨9407, 0, 2, [74]⟩ (.node (.node (.node .leaf ⟨9408, 0, 2, [75]⟩ .leaf) ⟨9409, 0, 2, [76]⟩ .leaf) ⟨9410, 0, 2, [77]⟩ (.node (.node .leaf ⟨9411, 0, 2, [78]⟩ .leaf) ⟨9412, 0, 2, [79]⟩ .leaf)))))

/-- Rows of Data/Ucd.lean (proof aid). -/
def ucdT38 : Tree UcdRow := (.node (.node (.node (.node (.node (.node .leaf ⟨9414, 0, 2, [81]⟩ .leaf) ⟨9415, 0, 2, [82]⟩ (.node .leaf ⟨9416, 0, 2, [83]⟩ .leaf)) ⟨9417, 0, 2, [84]⟩ (.node (.node .leaf ⟨9418, 0, 2, [85]⟩ .leaf) ⟨9419, 0, 2, [86]⟩ .leaf)) ⟨9420, 0, 2, [87]⟩ (.node (.node (.node .leaf ⟨9421, 0, 2, [88]⟩ .leaf) ⟨9422, 0, 2, [89]⟩ .leaf) ⟨9423, 0, 2, [90]⟩ (.node (.node .leaf ⟨9424, 0, 2, [97]⟩ .leaf) ⟨9425, 0, 2, [98]⟩ .leaf))) ⟨9426, 0, 2, [99]⟩ (.node (.node (.node (.node .leaf ⟨9427, 0, 2, [100]⟩ .leaf) ⟨9428, 0, 2, [101]⟩ (.node .leaf ⟨9429, 0, 2, [102]⟩ .leaf)) ⟨9430, 0, 2, [103]⟩ (.node (.node .leaf ⟨9431, 0, 2, [104]⟩ .leaf) ⟨9432, 0, 2, [105]⟩ .leaf)) ⟨9433, 0, 2, [106]⟩ (.node (.node (.node .leaf ⟨9434, 0, 2, [107]⟩ .leaf) ⟨9435, 0, 2, [108]⟩ .leaf) ⟨9436, 0, 2, [109]⟩ (.node (.node .leaf ⟨9437, 0, 2, [110]⟩ .leaf) ⟨9438, 0, 2, [111]⟩ .leaf)))) ⟨9439, 0, 2, [112]⟩ (.node (.node (.node (.node (.node .leaf ⟨9440, 0, 2, [113]⟩ .leaf) ⟨9441, 0, 2, [114]⟩ (.node .leaf ⟨9442, 0, 2, [115]⟩ .leaf)) ⟨9443, 0, 2, [116]⟩ (.node (.node .leaf ⟨9444, 0, 2, [117]⟩ .leaf) ⟨9445, 0, 2, [118]⟩ .leaf)) ⟨9446, 0, 2, [119]⟩ (.node (.node (.node .leaf ⟨9447, 0, 2, [120]⟩ .leaf) ⟨9448, 0, 2, [121]⟩ .leaf) ⟨9449, 0, 2, [122]⟩ (.node (.node .leaf ⟨9450, 0, 2, [48]⟩ .leaf) ⟨10764, 0, 1, [8747, 8747, 8747, 8747]⟩ .leaf))) ⟨10868, 0, 1, [58, 58, 61]⟩ (.node (.node (.node (.node .leaf ⟨10869, 0, 1, [61, 61]⟩ .leaf) ⟨10870, 0, 1, [61, 61, 61]⟩ .leaf) ⟨10972, 0, 0, [10973, 824]⟩ (.node (.node .leaf ⟨11388, 0, 2, [106]⟩ .leaf) ⟨11389, 0, 2, [86]⟩ .leaf)) ⟨11503, 230, 0, []⟩ (.node (.node (.node .leaf ⟨11504, 230, 0, []⟩ .leaf) ⟨11505, 230, 0, []⟩ .leaf) ⟨11631, 0, 2, [11617]⟩ (.node (.node .leaf ⟨11647, 9, 0, []⟩ .leaf) ⟨11744, 230, 0, []⟩ .leaf)))))

/-- Rows of Data/Ucd.lean (proof aid). -/
def ucdT39 : Tree UcdRow := (.node (.node (.node (.node (.node (.node .leaf ⟨11746, 230, 0, []⟩ .leaf) ⟨11747, 230, 0, []⟩ (.node .leaf ⟨11748, 230, 0, []⟩ .leaf)) ⟨11749, 230, 0, []⟩ (.node (.node .leaf ⟨11750, 230, 0, []⟩ .leaf) ⟨11751, 230, 0, []⟩ .leaf)) ⟨11752, 230, 0, []⟩ (.node (.node (.node .leaf ⟨11753, 230, 0, []⟩ .leaf) ⟨11754, 230, 0, []⟩ .leaf) ⟨11755, 230, 0, []⟩ (.node (.node .leaf ⟨11756, 230, 0, []⟩ .leaf) ⟨11757, 230, 0, []⟩ .leaf))) ⟨11758, 230, 0, []⟩ (.node (.node (.node (.node .leaf ⟨11759, 230, 0, []⟩ .leaf) ⟨11760, 230, 0, []⟩ (.node .leaf ⟨11761, 230, 0, []⟩ .leaf)) ⟨11762, 230, 0, []⟩ (.node (.node .leaf ⟨11763, 230, 0, []⟩ .leaf) ⟨11764, 230, 0, []⟩ .leaf)) ⟨11765, 230, 0, []⟩ (.node (.node (.node .leaf ⟨11766, 230, 0, []⟩ .leaf) ⟨11767, 230, 0, []⟩ .leaf) ⟨11768, 230, 0, []⟩ (.node (.node .leaf ⟨11769, 230, 0, []⟩ .leaf) ⟨11770, 230, 0, []⟩ .leaf)))) ⟨11771, 230, 0, []⟩ (.node (.node (.node (.node (.node .leaf ⟨11772, 230, 0, []⟩ .leaf) ⟨11773, 230, 0, []⟩ (.node .leaf ⟨11774, 230, 0, []⟩ .leaf)) ⟨11775, 230, 0, []⟩ (.node (.node .leaf ⟨11935, 0, 1, [27597]⟩ .leaf) ⟨12019, 0, 1, [40863]⟩ .leaf)) ⟨12032, 0, 1, [19968]⟩ (.node (.node (.node .leaf ⟨12033, 0, 1, [20008]⟩ .leaf) ⟨12034, 0, 1, [20022]⟩ .leaf) ⟨12035, 0, 1, [20031]⟩ (.node (.node .leaf ⟨12036, 0, 1, [20057]⟩ .leaf) ⟨12037, 0, 1, [20101]⟩ .leaf))) ⟨12038, 0, 1, [20108]⟩ (.node (.node (.node (.node .leaf ⟨12039, 0, 1, [20128]⟩ .leaf) ⟨12040, 0, 1, [20154]⟩ .leaf) ⟨12041, 0, 1, [20799]⟩ (.node (.node .leaf ⟨12042, 0, 1, [20837]⟩ .leaf) ⟨12043, 0, 1, [20843]⟩ .leaf)) ⟨12044, 0, 1, [20866]⟩ (.node (.node (.node .leaf ⟨12045, 0, 1, [20886]⟩ .leaf) ⟨12046, 0, 1, [20907]⟩ .leaf) ⟨12047, 0, 1, [20960]⟩ (.node (.node .leaf ⟨12048, 0, 1, [20981]⟩ .leaf) ⟨12049, 0, 1, [20992]⟩ .leaf)))))

/-- Rows of Data/Ucd.lean (proof aid). -/
def ucdT40 : Tree UcdRow := (.node (.node (.node (.node (.node (.node .leaf ⟨12051, 0, 1, [21241]⟩ .leaf) ⟨12052, 0, 1, [21269]⟩ (.node .leaf ⟨12053, 0, 1, [21274]⟩ .leaf)) ⟨12054, 0, 1, [21304]⟩ (.node (.node .leaf ⟨12055, 0, 1, [21313]⟩ .leaf) ⟨12056, 0, 1, [21340]⟩ .leaf)) ⟨12057, 0, 1, [21353]⟩ (.node (.node (.node .leaf ⟨12058, 0, 1, [21378]⟩ .leaf) ⟨12059, 0, 1, [21430]⟩ .leaf) ⟨12060, 0, 1, [21448]⟩ (.node (.node .leaf ⟨12061, 0, 1, [21475]⟩ .leaf) ⟨12062, 0, 1, [22231]⟩ .leaf))) ⟨12063, 0, 1, [22303]⟩ (.node (.node (.node (.node .leaf ⟨12064, 0, 1, [22763]⟩ .leaf) ⟨12065, 0, 1, [22786]⟩ (.node .leaf ⟨12066, 0, 1, [22794]⟩ .leaf)) ⟨12067, 0, 1, [22805]⟩ (.node (.node .leaf ⟨12068, 0, 1, [22823]⟩ .leaf) ⟨12069, 0, 1, [22899]⟩ .leaf)) ⟨12070, 0, 1, [23376]⟩ (.node (.node (.node .leaf ⟨12071, 0, 1, [23424]⟩ .leaf) ⟨12072, 0, 1, [23544]⟩ .leaf) ⟨12073, 0, 1, [23567]⟩ (.node (.node .leaf ⟨12074, 0, 1, [23586]⟩ .leaf) ⟨12075, 0, 1, [23608]⟩ .leaf)))) ⟨12076, 0, 1, [23662]⟩ (.node (.node (.node (.node (.node .leaf ⟨12077, 0, 1, [23665]⟩ .leaf) ⟨12078, 0, 1, [24027]⟩ (.node .leaf ⟨12079, 0, 1, [24037]⟩ .leaf)) ⟨12080, 0, 1, [24049]⟩ (.node (.node .leaf ⟨12081, 0, 1, [24062]⟩ .leaf) ⟨12082, 0, 1, [24178]⟩ .leaf)) ⟨12083, 0, 1, [24186]⟩ (.node (.node (.node .leaf ⟨12084, 0, 1, [24191]⟩ .leaf) ⟨12085, 0, 1, [24308]⟩ .leaf) ⟨12086, 0, 1, [24318]⟩ (.node (.node .leaf ⟨12087, 0, 1, [24331]⟩ .leaf) ⟨12088, 0, 1, [24339]⟩ .leaf))) ⟨12089, 0, 1, [24400]⟩ (.node (.node (.node (.node .leaf ⟨12090, 0, 1, [24417]⟩ .leaf) ⟨12091, 0, 1, [24435]⟩ .leaf) ⟨12092, 0, 1, [24515]⟩ (.node (.node .leaf ⟨12093, 0, 1, [25096]⟩ .leaf) ⟨12094, 0, 1, [25142]⟩ .leaf)) ⟨12095, 0, 1, [25163]⟩ (.node (.node (.node .leaf ⟨12096, 0, 1, [25903]⟩ .leaf) ⟨12097, 0, 1, [25908]⟩ .leaf) ⟨12098, 0, 1, [25991]⟩ (.node (.node .leaf ⟨12099, 0, 1, [26007]⟩ .leaf) ⟨12100, 0, 1, [26020]⟩ .leaf)))))

/-- Rows of Data/Ucd.lean (proof aid). -/
def ucdT41 : Tree UcdRow := (.node (.node (.node (.node (.node (.node .leaf ⟨12102, 0, 1, [26080]⟩ .leaf) ⟨12103, 0, 1, [26085]⟩ (.node .leaf ⟨12104, 0, 1, [26352]⟩ .leaf)) ⟨12105, 0, 1, [26376]⟩ (.node (.node .leaf ⟨12106, 0, 1, [26408]⟩ .leaf) ⟨12107, 0, 1, [27424]⟩ .leaf)) ⟨12108, 0, 1, [27490]⟩ (.node (.node (.node .leaf ⟨12109, 0, 1, [27513]⟩ .leaf) ⟨12110, 0, 1, [27571]⟩ .leaf) ⟨12111, 0, 1, [27595]⟩ (.node (.node .leaf ⟨12112, 0, 1, [27604]⟩ .leaf) ⟨12113, 0, 1, [27611]⟩ .leaf))) ⟨12114, 0, 1, [27663]⟩ (.node (.node (.node (.node .leaf ⟨12115, 0, 1, [27668]⟩ .leaf) ⟨12116, 0, 1, [27700]⟩ (.node .leaf ⟨12117, 0, 1, [28779]⟩ .leaf)) ⟨12118, 0, 1, [29226]⟩ (.node (.node .leaf ⟨12119, 0, 1, [29238]⟩ .leaf) ⟨12120, 0, 1, [29243]⟩ .leaf)) ⟨12121, 0, 1, [29247]⟩ (.node (.node (.node .leaf ⟨12122, 0, 1, [29255]⟩ .leaf) ⟨12123, 0, 1, [29273]⟩ .leaf) ⟨12124, 0, 1, [29275]⟩ (.node (.node .leaf ⟨12125, 0, 1, [29356]⟩ .leaf) ⟨12126, 0, 1, [29572]⟩ .leaf)))) ⟨12127, 0, 1, [29577]⟩ (.node (.node (.node (.node (.node .leaf ⟨12128, 0, 1, [29916]⟩ .leaf) ⟨12129, 0, 1, [29926]⟩ (.node .leaf ⟨12130, 0, 1, [29976]⟩ .leaf)) ⟨12131, 0, 1, [29983]⟩ (.node (.node .leaf ⟨12132, 0, 1, [29992]⟩ .leaf) ⟨12133, 0, 1, [30000]⟩ .leaf)) ⟨12134, 0, 1, [30091]⟩ (.node (.node (.node .leaf ⟨12135, 0, 1, [30098]⟩ .leaf) ⟨12136, 0, 1, [30326]⟩ .leaf) ⟨12137, 0, 1, [30333]⟩ (.node (.node .leaf ⟨12138, 0, 1, [30382]⟩ .leaf) ⟨12139, 0, 1, [30399]⟩ .leaf))) ⟨12140, 0, 1, [30446]⟩ (.node (.node (.node (.node .leaf ⟨12141, 0, 1, [30683]⟩ .leaf) ⟨12142, 0, 1, [30690]⟩ .leaf) ⟨12143, 0, 1, [30707]⟩ (.node (.node .leaf ⟨12144, 0, 1, [31034]⟩ .leaf) ⟨12145, 0, 1, [31160]⟩ .leaf)) ⟨12146, 0, 1, [31166]⟩ (.node (.node (.node .leaf ⟨12147, 0, 1, [31348]⟩ .leaf) ⟨12148, 0, 1, [31435]⟩ .leaf) ⟨12149, 0, 1, [31481]⟩ (.node (.node .leaf ⟨12150, 0, 1, [31859]⟩ .leaf) ⟨12151, 0, 1, [31992]⟩ .leaf)))))

/-- Rows of Data/Ucd.lean (proof aid). -/
def ucdT42 : Tree UcdRow := (.node (.node (.node (.node (.node (.node .leaf ⟨12153, 0, 1, [32593]⟩ .leaf) ⟨12154, 0, 1, [32650]⟩ (.node .leaf ⟨12155, 0, 1, [32701]⟩ .leaf)) ⟨12156, 0, 1, [32769]⟩ (.node (.node .leaf ⟨12157, 0, 1, [32780]⟩ .leaf) ⟨12158, 0, 1, [32786]⟩ .leaf)) ⟨12159, 0, 1, [32819]⟩ (.node (.node (.node .leaf ⟨12160, 0, 1, [32895]⟩ .leaf) ⟨12161, 0, 1, [32905]⟩ .leaf) ⟨12162, 0, 1, [33251]⟩ (.node (.node .leaf ⟨12163, 0, 1, [33258]⟩ .leaf) ⟨12164, 0, 1, [33267]⟩ .leaf))) ⟨12165, 0, 1, [33276]⟩ (.node (.node (.node (.node .leaf ⟨12166, 0, 1, [33292]⟩ .leaf) ⟨12167, 0, 1, [33307]⟩ (.node .leaf ⟨12168, 0, 1, [33311]⟩ .leaf)) ⟨12169, 0, 1, [33390]⟩ (.node (.node .leaf ⟨12170, 0, 1, [33394]⟩ .leaf) ⟨12171, 0, 1, [33400]⟩ .leaf)) ⟨12172, 0, 1, [34381]⟩ (.node (.node (.node .leaf ⟨12173, 0, 1, [34411]⟩ .leaf) ⟨12174, 0, 1, [34880]⟩ .leaf) ⟨12175, 0, 1, [34892]⟩ (.node (.node .leaf ⟨12176, 0, 1, [34915]⟩ .leaf) ⟨12177, 0, 1, [35198]⟩ .leaf)))) ⟨12178, 0, 1, [35211]⟩ (.node (.node (.node (.node (.node .leaf ⟨12179, 0, 1, [35282]⟩ .leaf) ⟨12180, 0, 1, [35328]⟩ (.node .leaf ⟨12181, 0, 1, [35895]⟩ .leaf)) ⟨12182, 0, 1, [35910]⟩ (.node (.node .leaf ⟨12183, 0, 1, [35925]⟩ .leaf) ⟨12184, 0, 1, [35960]⟩ .leaf)) ⟨12185, 0, 1, [35997]⟩ (.node (.node (.node .leaf ⟨12186, 0, 1, [36196]⟩ .leaf) ⟨12187, 0, 1, [36208]⟩ .leaf) ⟨12188, 0, 1, [36275]⟩ (.node (.node .leaf ⟨12189, 0, 1, [36523]⟩ .leaf) ⟨12190, 0, 1, [36554]⟩ .leaf))) ⟨12191, 0, 1, [36763]⟩ (.node (.node (.node (.node .leaf ⟨12192, 0, 1, [36784]⟩ .leaf) ⟨12193, 0, 1, [36789]⟩ .leaf) ⟨12194, 0, 1, [37009]⟩ (.node (.node .leaf ⟨12195, 0, 1, [37193]⟩ .leaf) ⟨12196, 0, 1, [37318]⟩ .leaf)) ⟨12197, 0, 1, [37324]⟩ (.node (.node (.node .leaf ⟨12198, 0, 1, [37329]⟩ .leaf) ⟨12199, 0, 1, [38263]⟩ .leaf) ⟨12200, 0, 1, [38272]⟩ (.node (.node .leaf ⟨12201, 0, 1, [38428]⟩ .leaf) ⟨12202, 0, 1, [38582]⟩ .leaf)))))

/-- Rows of Data/Ucd.lean (proof aid). -/
def ucdT43 : Tree UcdRow := (.node (.node (.node (.node (.node (.node .leaf ⟨12204, 0, 1, [38632]⟩ .leaf) ⟨12205, 0, 1, [38737]⟩ (.node .leaf ⟨12206, 0, 1, [38750]⟩ .leaf)) ⟨12207, 0, 1, [38754]⟩ (.node (.node .leaf ⟨12208, 0, 1, [38761]⟩ .leaf) ⟨12209, 0, 1, [38859]⟩ .leaf)) ⟨12210, 0, 1, [38893]⟩ (.node (.node (.node .leaf ⟨12211, 0, 1, [38899]⟩ .leaf) ⟨12212, 0, 1, [38913]⟩ .leaf) ⟨12213, 0, 1, [39080]⟩ (.node (.node .leaf ⟨12214, 0, 1, [39131]⟩ .leaf) ⟨12215, 0, 1, [39135]⟩ .leaf))) ⟨12216, 0, 1, [39318]⟩ (.node (.node (.node (.node .leaf ⟨12217, 0, 1, [39321]⟩ .leaf) ⟨12218, 0, 1, [39340]⟩ (.node .leaf ⟨12219, 0, 1, [39592]⟩ .leaf)) ⟨12220, 0, 1, [39640]⟩ (.node (.node .leaf ⟨12221, 0, 1, [39647]⟩ .leaf) ⟨12222, 0, 1, [39717]⟩ .leaf)) ⟨12223, 0, 1, [39727]⟩ (.node (.node (.node .leaf ⟨12224, 0, 1, [39730]⟩ .leaf) ⟨12225, 0, 1, [39740]⟩ .leaf) ⟨12226, 0, 1, [39770]⟩ (.node (.node .leaf ⟨12227, 0, 1, [40165]⟩ .leaf) ⟨12228, 0, 1, [40565]⟩ .leaf)))) ⟨12229, 0, 1, [40575]⟩ (.node (.node (.node (.node (.node .leaf ⟨12230, 0, 1, [40613]⟩ .leaf) ⟨12231, 0, 1, [40635]⟩ (.node .leaf ⟨12232, 0, 1, [40643]⟩ .leaf)) ⟨12233, 0, 1, [40653]⟩ (.node (.node .leaf ⟨12234, 0, 1, [40657]⟩ .leaf) ⟨12235, 0, 1, [40697]⟩ .leaf)) ⟨12236, 0, 1, [40701]⟩ (.node (.node (.node .leaf ⟨12237, 0, 1, [40718]⟩ .leaf) ⟨12238, 0, 1, [40723]⟩ .leaf) ⟨12239, 0, 1, [40736]⟩ (.node (.node .leaf ⟨12240, 0, 1, [40763]⟩ .leaf) ⟨12241, 0, 1, [40778]⟩ .leaf))) ⟨12242, 0, 1, [40786]⟩ (.node (.node (.node (.node .leaf ⟨12243, 0, 1, [40845]⟩ .leaf) ⟨12244, 0, 1, [40860]⟩ .leaf) ⟨12245, 0, 1, [40864]⟩ (.node (.node .leaf ⟨12288, 0, 2, [32]⟩ .leaf) ⟨12330, 218, 0, []⟩ .leaf)) ⟨12331, 228, 0, []⟩ (.node (.node (.node .leaf ⟨12332, 232, 0, []⟩ .leaf) ⟨12333, 222, 0, []⟩ .leaf) ⟨12334, 224, 0, []⟩ (.node (.node .leaf ⟨12335, 224, 0, []⟩ .leaf) ⟨12342, 0, 1, [12306]⟩ .leaf)))))

/-- Rows of Data/Ucd.lean (proof aid). -/
def ucdT44 : Tree UcdRow := (.node (.node (.node (.node (.node (.node .leaf ⟨12345, 0, 1, [21316]⟩ .leaf) ⟨12346, 0, 1, [21317]⟩ (.node .leaf ⟨12364, 0, 0, [12363, 12441]⟩ .leaf)) ⟨12366, 0, 0, [12365, 12441]⟩ (.node (.node .leaf ⟨12368, 0, 0, [12367, 12441]⟩ .leaf) ⟨12370, 0, 0, [12369, 12441]⟩ .leaf)) ⟨12372, 0, 0, [12371, 12441]⟩ (.node (.node (.node .leaf ⟨12374, 0, 0, [12373, 12441]⟩ .leaf) ⟨12376, 0, 0, [12375, 12441]⟩ .leaf) ⟨12378, 0, 0, [12377, 12441]⟩ (.node (.node .leaf ⟨12380, 0, 0, [12379, 12441]⟩ .leaf) ⟨12382, 0, 0, [12381, 12441]⟩ .leaf))) ⟨12384, 0, 0, [12383, 12441]⟩ (.node (.node (.node (.node .leaf ⟨12386, 0, 0, [12385, 12441]⟩ .leaf) ⟨12389, 0, 0, [12388, 12441]⟩ (.node .leaf ⟨12391, 0, 0, [12390, 12441]⟩ .leaf)) ⟨12393, 0, 0, [12392, 12441]⟩ (.node (.node .leaf ⟨12400, 0, 0, [12399, 12441]⟩ .leaf) ⟨12401, 0, 0, [12399, 12442]⟩ .leaf)) ⟨12403, 0, 0, [12402, 12441]⟩ (.node (.node (.node .leaf ⟨12404, 0, 0, [12402, 12442]⟩ .leaf) ⟨12406, 0, 0, [12405, 12441]⟩ .leaf) ⟨12407, 0, 0, [12405, 12442]⟩ (.node (.node .leaf ⟨12409, 0, 0, [12408, 12441]⟩ .leaf) ⟨12410, 0, 0, [12408, 12442]⟩ .leaf)))) ⟨12412, 0, 0, [12411, 12441]⟩ (.node (.node (.node (.node (.node .leaf ⟨12413, 0, 0, [12411, 12442]⟩ .leaf) ⟨12436, 0, 0, [12358, 12441]⟩ (.node .leaf ⟨12441, 8, 0, []⟩ .leaf)) ⟨12442, 8, 0, []⟩ (.node (.node .leaf ⟨12443, 0, 1, [32, 12441]⟩ .leaf) ⟨12444, 0, 1, [32, 12442]⟩ .leaf)) ⟨12446, 0, 0, [12445, 12441]⟩ (.node (.node (.node .leaf ⟨12447, 0, 2, [12424, 12426]⟩ .leaf) ⟨12460, 0, 0, [12459, 12441]⟩ .leaf) ⟨12462, 0, 0, [12461, 12441]⟩ (.node (.node .leaf ⟨12464, 0, 0, [12463, 12441]⟩ .leaf) ⟨12466, 0, 0, [12465, 12441]⟩ .leaf))) ⟨12468, 0, 0, [12467, 12441]⟩ (.node (.node (.node (.node .leaf ⟨12470, 0, 0, [12469, 12441]⟩ .leaf) ⟨12472, 0, 0, [12471, 12441]⟩ .leaf) ⟨12474, 0, 0, [12473, 12441]⟩ (.node (.node .leaf ⟨12476, 0, 0, [12475, 12441]⟩ .leaf) ⟨12478, 0, 0, [12477, 12441]⟩ .leaf)) ⟨12480, 0, 0, [12479, 12441]⟩ (.node (.node (.node .leaf ⟨12482, 0, 0, [12481, 12441]⟩ .leaf) ⟨12485, 0, 0, [12484, 12441]⟩ .leaf) ⟨12487, 0, 0, [12486, 12441]⟩ (.node (.node .leaf ⟨12489, 0, 0, [12488, 12441]⟩ .leaf) ⟨12496, 0, 0, [12495, 12441]⟩ .leaf)))))

/-- Rows of Data/Ucd.lean (proof aid). -/
def ucdT45 : Tree UcdRow := (.node (.node (.node (.node (.node (.node .leaf ⟨12499, 0, 0, [12498, 12441]⟩ .leaf) ⟨12500, 0, 0, [12498, 12442]⟩ (.node .leaf ⟨12502, 0, 0, [12501, 12441]⟩ .leaf)) ⟨12503, 0, 0, [12501, 12442]⟩ (.node (.node .leaf ⟨12505, 0, 0, [12504, 12441]⟩ .leaf) ⟨12506, 0, 0, [12504, 12442]⟩ .leaf)) ⟨12508, 0, 0, [12507, 12441]⟩ (.node (.node (.node .leaf ⟨12509, 0, 0, [12507, 12442]⟩ .leaf) ⟨12532, 0, 0, [12454, 12441]⟩ .leaf) ⟨12535, 0, 0, [12527, 12441]⟩ (.node (.node .leaf ⟨12536, 0, 0, [12528, 12441]⟩ .leaf) ⟨12537, 0, 0, [12529, 12441]⟩ .leaf))) ⟨12538, 0, 0, [12530, 12441]⟩ (.node (.node (.node (.node .leaf ⟨12542, 0, 0, [12541, 12441]⟩ .leaf) ⟨12543, 0, 2, [12467, 12488]⟩ (.node .leaf ⟨12593, 0, 1, [4352]⟩ .leaf)) ⟨12594, 0, 1, [4353]⟩ (.node (.node .leaf ⟨12595, 0, 1, [4522]⟩ .leaf) ⟨12596, 0, 1, [4354]⟩ .leaf)) ⟨12597, 0, 1, [4524]⟩ (.node (.node (.node .leaf ⟨12598, 0, 1, [4525]⟩ .leaf) ⟨12599, 0, 1, [4355]⟩ .leaf) ⟨12600, 0, 1, [4356]⟩ (.node (.node .leaf ⟨12601, 0, 1, [4357]⟩ .leaf) ⟨12602, 0, 1, [4528]⟩ .leaf)))) ⟨12603, 0, 1, [4529]⟩ (.node (.node (.node (.node (.node .leaf ⟨12604, 0, 1, [4530]⟩ .leaf) ⟨12605, 0, 1, [4531]⟩ (.node .leaf ⟨12606, 0, 1, [4532]⟩ .leaf)) ⟨12607, 0, 1, [4533]⟩ (.node (.node .leaf ⟨12608, 0, 1, [4378]⟩ .leaf) ⟨12609, 0, 1, [4358]⟩ .leaf)) ⟨12610, 0, 1, [4359]⟩ (.node (.node (.node .leaf ⟨12611, 0, 1, [4360]⟩ .leaf) ⟨12612, 0, 1, [4385]⟩ .leaf) ⟨12613, 0, 1, [4361]⟩ (.node (.node .leaf ⟨12614, 0, 1, [4362]⟩ .leaf) ⟨12615, 0, 1, [4363]⟩ .leaf))) ⟨12616, 0, 1, [4364]⟩ (.node (.node (.node (.node .leaf ⟨12617, 0, 1, [4365]⟩ .leaf) ⟨12618, 0, 1, [4366]⟩ .leaf) ⟨12619, 0, 1, [4367]⟩ (.node (.node .leaf ⟨12620, 0, 1, [4368]⟩ .leaf) ⟨12621, 0, 1, [4369]⟩ .leaf)) ⟨12622, 0, 1, [4370]⟩ (.node (.node (.node .leaf ⟨12623, 0, 1, [4449]⟩ .leaf) ⟨12624, 0, 1, [4450]⟩ .leaf) ⟨12625, 0, 1, [4451]⟩ (.node (.node .leaf ⟨12626, 0, 1, [4452]⟩ .leaf) ⟨12627, 0, 1, [4453]⟩ .leaf)))))

/-- Rows of Data/Ucd.lean (proof aid). -/
def ucdT46 : Tree UcdRow := (.node (.node (.node (.node (.node (.node .leaf ⟨12629, 0, 1, [4455]⟩ .leaf) ⟨12630, 0, 1, [4456]⟩ (.node .leaf ⟨12631, 0, 1, [4457]⟩ .leaf)) ⟨12632, 0, 1, [4458]⟩ (.node (.node .leaf ⟨12633, 0, 1, [4459]⟩ .leaf) ⟨12634, 0, 1, [4460]⟩ .leaf)) ⟨12635, 0, 1, [4461]⟩ (.node (.node (.node .leaf ⟨12636, 0, 1, [4462]⟩ .leaf) ⟨12637, 0, 1, [4463]⟩ .leaf) ⟨12638, 0, 1, [4464]⟩ (.node (.node .leaf ⟨12639, 0, 1, [4465]⟩ .leaf) ⟨12640, 0, 1, [4466]⟩ .leaf))) ⟨12641, 0, 1, [4467]⟩ (.node (.node (.node (.node .leaf ⟨12642, 0, 1, [4468]⟩ .leaf) ⟨12643, 0, 1, [4469]⟩ (.node .leaf ⟨12644, 0, 1, [4448]⟩ .leaf)) ⟨12645, 0, 1, [4372]⟩ (.node (.node .leaf ⟨12646, 0, 1, [4373]⟩ .leaf) ⟨12647, 0, 1, [4551]⟩ .leaf)) ⟨12648, 0, 1, [4552]⟩ (.node (.node (.node .leaf ⟨12649, 0, 1, [4556]⟩ .leaf) ⟨12650, 0, 1, [4558]⟩ .leaf) ⟨12651, 0, 1, [4563]⟩ (.node (.node .leaf ⟨12652, 0, 1, [4567]⟩ .leaf) ⟨12653, 0, 1, [4569]⟩ .leaf)))) ⟨12654, 0, 1, [4380]⟩ (.node (.node (.node (.node (.node .leaf ⟨12655, 0, 1, [4573]⟩ .leaf) ⟨12656, 0, 1, [4575]⟩ (.node .leaf ⟨12657, 0, 1, [4381]⟩ .leaf)) ⟨12658, 0, 1, [4382]⟩ (.node (.node .leaf ⟨12659, 0, 1, [4384]⟩ .leaf) ⟨12660, 0, 1, [4386]⟩ .leaf)) ⟨12661, 0, 1, [4387]⟩ (.node (.node (.node .leaf ⟨12662, 0, 1, [4391]⟩ .leaf) ⟨12663, 0, 1, [4393]⟩ .leaf) ⟨12664, 0, 1, [4395]⟩ (.node (.node .leaf ⟨12665, 0, 1, [4396]⟩ .leaf) ⟨12666, 0, 1, [4397]⟩ .leaf))) ⟨12667, 0, 1, [4398]⟩ (.node (.node (.node (.node .leaf ⟨12668, 0, 1, [4399]⟩ .leaf) ⟨12669, 0, 1, [4402]⟩ .leaf) ⟨12670, 0, 1, [4406]⟩ (.node (.node .leaf ⟨12671, 0, 1, [4416]⟩ .leaf) ⟨12672, 0, 1, [4423]⟩ .leaf)) ⟨12673, 0, 1, [4428]⟩ (.node (.node (.node .leaf ⟨12674, 0, 1, [4593]⟩ .leaf) ⟨12675, 0, 1, [4594]⟩ .leaf) ⟨12676, 0, 1, [4439]⟩ (.node (.node .leaf ⟨12677, 0, 1, [4440]⟩ .leaf) ⟨12678, 0, 1, [4441]⟩ .leaf)))))

/-- Rows of Data/Ucd.lean (proof aid). -/
def ucdT47 : Tree UcdRow := (.node (.node (.node (.node (.node (.node .leaf ⟨12680, 0, 1, [4485]⟩ .leaf) ⟨12681, 0, 1, [4488]⟩ (.node .leaf ⟨12682, 0, 1, [4497]⟩ .leaf)) ⟨12683, 0, 1, [4498]⟩ (.node (.node .leaf ⟨12684, 0, 1, [4500]⟩ .leaf) ⟨12685, 0, 1, [4510]⟩ .leaf)) ⟨12686, 0, 1, [4513]⟩ (.node (.node (.node .leaf ⟨12690, 0, 2, [19968]⟩ .leaf) ⟨12691, 0, 2, [20108]⟩ .leaf) ⟨12692, 0, 2, [19977]⟩ (.node (.node .leaf ⟨12693, 0, 2, [22235]⟩ .leaf) ⟨12694, 0, 2, [19978]⟩ .leaf))) ⟨12695, 0, 2, [20013]⟩ (.node (.node (.node (.node .leaf ⟨12696, 0, 2, [19979]⟩ .leaf) ⟨12697, 0, 2, [30002]⟩ (.node .leaf ⟨12698, 0, 2, [20057]⟩ .leaf)) ⟨12699, 0, 2, [19993]⟩ (.node (.node .leaf ⟨12700, 0, 2, [19969]⟩ .leaf) ⟨12701, 0, 2, [22825]⟩ .leaf)) ⟨12702, 0, 2, [22320]⟩ (.node (.node (.node .leaf ⟨12703, 0, 2, [20154]⟩ .leaf) ⟨12800, 0, 1, [40, 4352, 41]⟩ .leaf) ⟨12801, 0, 1, [40, 4354, 41]⟩ (.node (.node .leaf ⟨12802, 0, 1, [40, 4355, 41]⟩ .leaf) ⟨12803, 0, 1, [40, 4357, 41]⟩ .leaf)))) ⟨12804, 0, 1, [40, 4358, 41]⟩ (.node (.node (.node (.node (.node .leaf ⟨12805, 0, 1, [40, 4359, 41]⟩ .leaf) ⟨12806, 0, 1, [40, 4361, 41]⟩ (.node .leaf ⟨12807, 0, 1, [40, 4363, 41]⟩ .leaf)) ⟨12808, 0, 1, [40, 4364, 41]⟩ (.node (.node .leaf ⟨12809, 0, 1, [40, 4366, 41]⟩ .leaf) ⟨12810, 0, 1, [40, 4367, 41]⟩ .leaf)) ⟨12811, 0, 1, [40, 4368, 41]⟩ (.node (.node (.node .leaf ⟨12812, 0, 1, [40, 4369, 41]⟩ .leaf) ⟨12813, 0, 1, [40, 4370, 41]⟩ .leaf) ⟨12814, 0, 1, [40, 4352, 4449, 41]⟩ (.node (.node .leaf ⟨12815, 0, 1, [40, 4354, 4449, 41]⟩ .leaf) ⟨12816, 0, 1, [40, 4355, 4449, 41]⟩ .leaf))) ⟨12817, 0, 1, [40, 4357, 4449, 41]⟩ (.node (.node (.node (.node .leaf ⟨12818, 0, 1, [40, 4358, 4449, 41]⟩ .leaf) ⟨12819, 0, 1, [40, 4359, 4449, 41]⟩ .leaf) ⟨12820, 0, 1, [40, 4361, 4449, 41]⟩ (.node (.node .leaf ⟨12821, 0, 1, [40, 4363, 4449, 41]⟩ .leaf) ⟨12822, 0, 1, [40, 4364, 4449, 41]⟩ .leaf)) ⟨12823, 0, 1, [40, 4366, 4449, 41]⟩ (.node (.node (.node .leaf ⟨12824, 0, 1, [40, 4367, 4449, 41]⟩ .leaf) ⟨12825, 0, 1, [40, 4368, 4449, 41]⟩ .leaf) ⟨12826, 0, 1, [40, 4369, 4449, 41]⟩ (.node (.node .leaf ⟨12827, 0, 1, [40, 4370, 4449, 41]⟩ .leaf) ⟨12828, 0, 1, [40, 4364, 4462, 41]⟩ .leaf)))))

/-- Rows of Data/Ucd.lean (proof aid). -/
def ucdT48 : Tree UcdRow := (.node (.node (.node (.node (.node (.node .leaf ⟨12830, 0, 1, [40, 4363, 4457, 4370, 4462, 41]⟩ .leaf) ⟨12832, 0, 1, [40, 19968, 41]⟩ (.node .leaf ⟨12833, 0, 1, [40, 20108, 41]⟩ .leaf)) ⟨12834, 0, 1, [40, 19977, 41]⟩ (.node (.node .leaf ⟨12835, 0, 1, [40, 22235, 41]⟩ .leaf) ⟨12836, 0, 1, [40, 20116, 41]⟩ .leaf)) ⟨12837, 0, 1, [40, 20845, 41]⟩ (.node (.node (.node .leaf ⟨12838, 0, 1, [40, 19971, 41]⟩ .leaf) ⟨12839, 0, 1, [40, 20843, 41]⟩ .leaf) ⟨12840, 0, 1, [40, 20061, 41]⟩ (.node (.node .leaf ⟨12841, 0, 1, [40, 21313, 41]⟩ .leaf) ⟨12842, 0, 1, [40, 26376, 41]⟩ .leaf))) ⟨12843, 0, 1, [40, 28779, 41]⟩ (.node (.node (.node (.node .leaf ⟨12844, 0, 1, [40, 27700, 41]⟩ .leaf) ⟨12845, 0, 1, [40, 26408, 41]⟩ (.node .leaf ⟨12846, 0, 1, [40, 37329, 41]⟩ .leaf)) ⟨12847, 0, 1, [40, 22303, 41]⟩ (.node (.node .leaf ⟨12848, 0, 1, [40, 26085, 41]⟩ .leaf) ⟨12849, 0, 1, [40, 26666, 41]⟩ .leaf)) ⟨12850, 0, 1, [40, 26377, 41]⟩ (.node (.node (.node .leaf ⟨12851, 0, 1, [40, 31038, 41]⟩ .leaf) ⟨12852, 0, 1, [40, 21517, 41]⟩ .leaf) ⟨12853, 0, 1, [40, 29305, 41]⟩ (.node (.node .leaf ⟨12854, 0, 1, [40, 36001, 41]⟩ .leaf) ⟨12855, 0, 1, [40, 31069, 41]⟩ .leaf)))) ⟨12856, 0, 1, [40, 21172, 41]⟩ (.node (.node (.node (.node (.node .leaf ⟨12857, 0, 1, [40, 20195, 41]⟩ .leaf) ⟨12858, 0, 1, [40, 21628, 41]⟩ (.node .leaf ⟨12859, 0, 1, [40, 23398, 41]⟩ .leaf)) ⟨12860, 0, 1, [40, 30435, 41]⟩ (.node (.node .leaf ⟨12861, 0, 1, [40, 20225, 41]⟩ .leaf) ⟨12862, 0, 1, [40, 36039, 41]⟩ .leaf)) ⟨12863, 0, 1, [40, 21332, 41]⟩ (.node (.node (.node .leaf ⟨12864, 0, 1, [40, 31085, 41]⟩ .leaf) ⟨12865, 0, 1, [40, 20241, 41]⟩ .leaf) ⟨12866, 0, 1, [40, 33258, 41]⟩ (.node (.node .leaf ⟨12867, 0, 1, [40, 33267, 41]⟩ .leaf) ⟨12868, 0, 2, [21839]⟩ .leaf))) ⟨12869, 0, 2, [24188]⟩ (.node (.node (.node (.node .leaf ⟨12870, 0, 2, [25991]⟩ .leaf) ⟨12871, 0, 2, [31631]⟩ .leaf) ⟨12880, 0, 2, [80, 84, 69]⟩ (.node (.node .leaf ⟨12881, 0, 2, [50, 49]⟩ .leaf) ⟨12882, 0, 2, [50, 50]⟩ .leaf)) ⟨12883, 0, 2, [50, 51]⟩ (.node (.node (.node .leaf ⟨12884, 0, 2, [50, 52]⟩ .leaf) ⟨12885, 0, 2, [50, 53]⟩ .leaf) ⟨12886, 0, 2, [50, 54]⟩ (.node (.node .leaf ⟨12887, 0, 2, [50, 55]⟩ .leaf) ⟨12888, 0, 2, [50, 56]⟩ .leaf)))))

/-- Rows of Data/Ucd.lean (proof aid). -/
def ucdT49 : Tree UcdRow := (.node (.node (.node (.node (.node (.node .leaf ⟨12890, 0, 2, [51, 48]⟩ .leaf) ⟨12891, 0, 2, [51, 49]⟩ (.node .leaf ⟨12892, 0, 2, [51, 50]⟩ .leaf)) ⟨12893, 0, 2, [51, 51]⟩ (.node (.node .leaf ⟨12894, 0, 2, [51, 52]⟩ .leaf) ⟨12895, 0, 2, [51, 53]⟩ .leaf)) ⟨12896, 0, 2, [4352]⟩ (.node (.node (.node .leaf ⟨12897, 0, 2, [4354]⟩ .leaf) ⟨12898, 0, 2, [4355]⟩ .leaf) ⟨12899, 0, 2, [4357]⟩ (.node (.node .leaf ⟨12900, 0, 2, [4358]⟩ .leaf) ⟨12901, 0, 2, [4359]⟩ .leaf))) ⟨12902, 0, 2, [4361]⟩ (.node (.node (.node (.node .leaf ⟨12903, 0, 2, [4363]⟩ .leaf) ⟨12904, 0, 2, [4364]⟩ (.node .leaf ⟨12905, 0, 2, [4366]⟩ .leaf)) ⟨12906, 0, 2, [4367]⟩ (.node (.node .leaf ⟨12907, 0, 2, [4368]⟩ .leaf) ⟨12908, 0, 2, [4369]⟩ .leaf)) ⟨12909, 0, 2, [4370]⟩ (.node (.node (.node .leaf ⟨12910, 0, 2, [4352, 4449]⟩ .leaf) ⟨12911, 0, 2, [4354, 4449]⟩ .leaf) ⟨12912, 0, 2, [4355, 4449]⟩ (.node (.node .leaf ⟨12913, 0, 2, [4357, 4449]⟩ .leaf) ⟨12914, 0, 2, [4358, 4449]⟩ .leaf)))) ⟨12915, 0, 2, [4359, 4449]⟩ (.node (.node (.node (.node (.node .leaf ⟨12916, 0, 2, [4361, 4449]⟩ .leaf) ⟨12917, 0, 2, [4363, 4449]⟩ (.node .leaf ⟨12918, 0, 2, [4364, 4449]⟩ .leaf)) ⟨12919, 0, 2, [4366, 4449]⟩ (.node (.node .leaf ⟨12920, 0, 2, [4367, 4449]⟩ .leaf) ⟨12921, 0, 2, [4368, 4449]⟩ .leaf)) ⟨12922, 0, 2, [4369, 4449]⟩ (.node (.node (.node .leaf ⟨12923, 0, 2, [4370, 4449]⟩ .leaf) ⟨12924, 0, 2, [4366, 4449, 4535, 4352, 4457]⟩ .leaf) ⟨12925, 0, 2, [4364, 4462, 4363, 4468]⟩ (.node (.node .leaf ⟨12926, 0, 2, [4363, 4462]⟩ .leaf) ⟨12928, 0, 2, [19968]⟩ .leaf))) ⟨12929, 0, 2, [20108]⟩ (.node (.node (.node (.node .leaf ⟨12930, 0, 2, [19977]⟩ .leaf) ⟨12931, 0, 2, [22235]⟩ .leaf) ⟨12932, 0, 2, [20116]⟩ (.node (.node .leaf ⟨12933, 0, 2, [20845]⟩ .leaf) ⟨12934, 0, 2, [19971]⟩ .leaf)) ⟨12935, 0, 2, [20843]⟩ (.node (.node (.node .leaf ⟨12936, 0, 2, [20061]⟩ .leaf) ⟨12937, 0, 2, [21313]⟩ .leaf) ⟨12938, 0, 2, [26376]⟩ (.node (.node .leaf ⟨12939, 0, 2, [28779]⟩ .leaf) ⟨12940, 0, 2, [27700]⟩ .leaf)))))

/-- Rows of Data/Ucd.lean (proof aid). -/
def ucdT50 : Tree UcdRow := (.node (.node (.node (.node (.node (.node .leaf ⟨12942, 0, 2, [37329]⟩ .leaf) ⟨12943, 0, 2, [22303]⟩ (.node .leaf ⟨12944, 0, 2, [26085]⟩ .leaf)) ⟨12945, 0, 2, [26666]⟩ (.node (.node .leaf ⟨12946, 0, 2, [26377]⟩ .leaf) ⟨12947, 0, 2, [31038]⟩ .leaf)) ⟨12948, 0, 2, [21517]⟩ (.node (.node (.node .leaf ⟨12949, 0, 2, [29305]⟩ .leaf) ⟨12950, 0, 2, [36001]⟩ .leaf) ⟨12951, 0, 2, [31069]⟩ (.node (.node .leaf ⟨12952, 0, 2, [21172]⟩ .leaf) ⟨12953, 0, 2, [31192]⟩ .leaf))) ⟨12954, 0, 2, [30007]⟩ (.node (.node (.node (.node .leaf ⟨12955, 0, 2, [22899]⟩ .leaf) ⟨12956, 0, 2, [36969]⟩ (.node .leaf ⟨12957, 0, 2, [20778]⟩ .leaf)) ⟨12958, 0, 2, [21360]⟩ (.node (.node .leaf ⟨12959, 0, 2, [27880]⟩ .leaf) ⟨12960, 0, 2, [38917]⟩ .leaf)) ⟨12961, 0, 2, [20241]⟩ (.node (.node (.node .leaf ⟨12962, 0, 2, [20889]⟩ .leaf) ⟨12963, 0, 2, [27491]⟩ .leaf) ⟨12964, 0, 2, [19978]⟩ (.node (.node .leaf ⟨12965, 0, 2, [20013]⟩ .leaf) ⟨12966, 0, 2, [19979]⟩ .leaf)))) ⟨12967, 0, 2, [24038]⟩ (.node (.node (.node (.node (.node .leaf ⟨12968, 0, 2, [21491]⟩ .leaf) ⟨12969, 0, 2, [21307]⟩ (.node .leaf ⟨12970, 0, 2, [23447]⟩ .leaf)) ⟨12971, 0, 2, [23398]⟩ (.node (.node .leaf ⟨12972, 0, 2, [30435]⟩ .leaf) ⟨12973, 0, 2, [20225]⟩ .leaf)) ⟨12974, 0, 2, [36039]⟩ (.node (.node (.node .leaf ⟨12975, 0, 2, [21332]⟩ .leaf) ⟨12976, 0, 2, [22812]⟩ .leaf) ⟨12977, 0, 2, [51, 54]⟩ (.node (.node .leaf ⟨12978, 0, 2, [51, 55]⟩ .leaf) ⟨12979, 0, 2, [51, 56]⟩ .leaf))) ⟨12980, 0, 2, [51, 57]⟩ (.node (.node (.node (.node .leaf ⟨12981, 0, 2, [52, 48]⟩ .leaf) ⟨12982, 0, 2, [52, 49]⟩ .leaf) ⟨12983, 0, 2, [52, 50]⟩ (.node (.node .leaf ⟨12984, 0, 2, [52, 51]⟩ .leaf) ⟨12985, 0, 2, [52, 52]⟩ .leaf)) ⟨12986, 0, 2, [52, 53]⟩ (.node (.node (.node .leaf ⟨12987, 0, 2, [52, 54]⟩ .leaf) ⟨12988, 0, 2, [52, 55]⟩ .leaf) ⟨12989, 0, 2, [52, 56]⟩ (.node (.node .leaf ⟨12990, 0, 2, [52, 57]⟩ .leaf) ⟨12991, 0, 2, [53, 48]⟩ .leaf)))))

/-- Rows of Data/Ucd.lean (proof aid). -/
def ucdT51 : Tree UcdRow := (.node (.node (.node (.node (.node (.node .leaf ⟨12993, 0, 1, [50, 26376]⟩ .leaf) ⟨12994, 0, 1, [51, 26376]⟩ (.node .leaf ⟨12995, 0, 1, [52, 26376]⟩ .leaf)) ⟨12996, 0, 1, [53, 26376]⟩ (.node (.node .leaf ⟨12997, 0, 1, [54, 26376]⟩ .leaf) ⟨12998, 0, 1, [55, 26376]⟩ .leaf)) ⟨12999, 0, 1, [56, 26376]⟩ (.node (.node (.node .leaf ⟨13000, 0, 1, [57, 26376]⟩ .leaf) ⟨13001, 0, 1, [49, 48, 26376]⟩ .leaf) ⟨13002, 0, 1, [49, 49, 26376]⟩ (.node (.node .leaf ⟨13003, 0, 1, [49, 50, 26376]⟩ .leaf) ⟨13004, 0, 2, [72, 103]⟩ .leaf))) ⟨13005, 0, 2, [101, 114, 103]⟩ (.node (.node (.node (.node .leaf ⟨13006, 0, 2, [101, 86]⟩ .leaf) ⟨13007, 0, 2, [76, 84, 68]⟩ (.node .leaf ⟨13008, 0, 2, [12450]⟩ .leaf)) ⟨13009, 0, 2, [12452]⟩ (.node (.node .leaf ⟨13010, 0, 2, [12454]⟩ .leaf) ⟨13011, 0, 2, [12456]⟩ .leaf)) ⟨13012, 0, 2, [12458]⟩ (.node (.node (.node .leaf ⟨13013, 0, 2, [12459]⟩ .leaf) ⟨13014, 0, 2, [12461]⟩ .leaf) ⟨13015, 0, 2, [12463]⟩ (.node (.node .leaf ⟨13016, 0, 2, [12465]⟩ .leaf) ⟨13017, 0, 2, [12467]⟩ .leaf)))) ⟨13018, 0, 2, [12469]⟩ (.node (.node (.node (.node (.node .leaf ⟨13019, 0, 2, [12471]⟩ .leaf) ⟨13020, 0, 2, [12473]⟩ (.node .leaf ⟨13021, 0, 2, [12475]⟩ .leaf)) ⟨13022, 0, 2, [12477]⟩ (.node (.node .leaf ⟨13023, 0, 2, [12479]⟩ .leaf) ⟨13024, 0, 2, [12481]⟩ .leaf)) ⟨13025, 0, 2, [12484]⟩ (.node (.node (.node .leaf ⟨13026, 0, 2, [12486]⟩ .leaf) ⟨13027, 0, 2, [12488]⟩ .leaf) ⟨13028, 0, 2, [12490]⟩ (.node (.node .leaf ⟨13029, 0, 2, [12491]⟩ .leaf) ⟨13030, 0, 2, [12492]⟩ .leaf))) ⟨13031, 0, 2, [12493]⟩ (.node (.node (.node (.node .leaf ⟨13032, 0, 2, [12494]⟩ .leaf) ⟨13033, 0, 2, [12495]⟩ .leaf) ⟨13034, 0, 2, [12498]⟩ (.node (.node .leaf ⟨13035, 0, 2, [12501]⟩ .leaf) ⟨13036, 0, 2, [12504]⟩ .leaf)) ⟨13037, 0, 2, [12507]⟩ (.node (.node (.node .leaf ⟨13038, 0, 2, [12510]⟩ .leaf) ⟨13039, 0, 2, [12511]⟩ .leaf) ⟨13040, 0, 2, [12512]⟩ (.node (.node .leaf ⟨13041, 0, 2, [12513]⟩ .leaf) ⟨13042, 0, 2, [12514]⟩ .leaf)))))

/-- Rows of Data/Ucd.lean (proof aid). -/
def ucdT52 : Tree UcdRow := (.node (.node (.node (.node (.node (.node .leaf ⟨13044, 0, 2, [12518]⟩ .leaf) ⟨13045, 0, 2, [12520]⟩ (.node .leaf ⟨13046, 0, 2, [12521]⟩ .leaf)) ⟨13047, 0, 2, [12522]⟩ (.node (.node .leaf ⟨13048, 0, 2, [12523]⟩ .leaf) ⟨13049, 0, 2, [12524]⟩ .leaf)) ⟨13050, 0, 2, [12525]⟩ (.node (.node (.node .leaf ⟨13051, 0, 2, [12527]⟩ .leaf) ⟨13052, 0, 2, [12528]⟩ .leaf) ⟨13053, 0, 2, [12529]⟩ (.node (.node .leaf ⟨13054, 0, 2, [12530]⟩ .leaf) ⟨13056, 0, 2, [12450, 12497, 12540, 12488]⟩ .leaf))) ⟨13057, 0, 2, [12450, 12523, 12501, 12449]⟩ (.node (.node (.node (.node .leaf ⟨13058, 0, 2, [12450, 12531, 12506, 12450]⟩ .leaf) ⟨13059, 0, 2, [12450, 12540, 12523]⟩ (.node .leaf ⟨13060, 0, 2, [12452, 12491, 12531, 12464]⟩ .leaf)) ⟨13061, 0, 2, [12452, 12531, 12481]⟩ (.node (.node .leaf ⟨13062, 0, 2, [12454, 12457, 12531]⟩ .leaf) ⟨13063, 0, 2, [12456, 12473, 12463, 12540, 12489]⟩ .leaf)) ⟨13064, 0, 2, [12456, 12540, 12459, 12540]⟩ (.node (.node (.node .leaf ⟨13065, 0, 2, [12458, 12531, 12473]⟩ .leaf) ⟨13066, 0, 2, [12458, 12540, 12512]⟩ .leaf) ⟨13067, 0, 2, [12459, 12452, 12522]⟩ (.node (.node .leaf ⟨13068, 0, 2, [12459, 12521, 12483, 12488]⟩ .leaf) ⟨13069, 0, 2, [12459, 12525, 12522, 12540]⟩ .leaf)))) ⟨13070, 0, 2, [12460, 12525, 12531]⟩ (.node (.node (.node (.node (.node .leaf ⟨13071, 0, 2, [12460, 12531, 12510]⟩ .leaf) ⟨13072, 0, 2, [12462, 12460]⟩ (.node .leaf ⟨13073, 0, 2, [12462, 12491, 12540]⟩ .leaf)) ⟨13074, 0, 2, [12461, 12517, 12522, 12540]⟩ (.node (.node .leaf ⟨13075, 0, 2, [12462, 12523, 12480, 12540]⟩ .leaf) ⟨13076, 0, 2, [12461, 12525]⟩ .leaf)) ⟨13077, 0, 2, [12461, 12525, 12464, 12521, 12512]⟩ (.node (.node (.node .leaf ⟨13078, 0, 2, [12461, 12525, 12513, 12540, 12488, 12523]⟩ .leaf) ⟨13079, 0, 2, [12461, 12525, 12527, 12483, 12488]⟩ .leaf) ⟨13080, 0, 2, [12464, 12521, 12512]⟩ (.node (.node .leaf ⟨13081, 0, 2, [12464, 12521, 12512, 12488, 12531]⟩ .leaf) ⟨13082, 0, 2, [12463, 12523, 12476, 12452, 12525]⟩ .leaf))) ⟨13083, 0, 2, [12463, 12525, 12540, 12493]⟩ (.node (.node (.node (.node .leaf ⟨13084, 0, 2, [12465, 12540, 12473]⟩ .leaf) ⟨13085, 0, 2, [12467, 12523, 12490]⟩ .leaf) ⟨13086, 0, 2, [12467, 12540, 12509]⟩ (.node (.node .leaf ⟨13087, 0, 2, [12469, 12452, 12463, 12523]⟩ .leaf) ⟨13088, 0, 2, [12469, 12531, 12481, 12540, 12512]⟩ .leaf)) ⟨13089, 0, 2, [12471, 12522, 12531, 12464]⟩ (.node (.node (.node .leaf ⟨13090, 0, 2, [12475, 12531, 12481]⟩ .leaf) ⟨13091, 0, 2, [12475, 12531, 12488]⟩ .leaf) ⟨13092, 0, 2, [12480, 12540, 12473]⟩ (.node (.node .leaf ⟨13093, 0, 2, [12487, 12471]⟩ .leaf) ⟨13094, 0, 2, [12489, 12523]⟩ .leaf)))))

/-- Rows of Data/Ucd.lean (proof aid). -/
def ucdT53 : Tree UcdRow := (.node (.node (.node (.node (.node (.node .leaf ⟨13096, 0, 2, [12490, 12494]⟩ .leaf) ⟨13097, 0, 2, [12494, 12483, 12488]⟩ (.node .leaf ⟨13098, 0, 2, [12495, 12452, 12484]⟩ .leaf)) ⟨13099, 0, 2, [12497, 12540, 12475, 12531, 12488]⟩ (.node (.node .leaf ⟨13100, 0, 2, [12497, 12540, 12484]⟩ .leaf) ⟨13101, 0, 2, [12496, 12540, 12524, 12523]⟩ .leaf)) ⟨13102, 0, 2, [12500, 12450, 12473, 12488, 12523]⟩ (.node (.node (.node .leaf ⟨13103, 0, 2, [12500, 12463, 12523]⟩ .leaf) ⟨13104, 0, 2, [12500, 12467]⟩ .leaf) ⟨13105, 0, 2, [12499, 12523]⟩ (.node (.node .leaf ⟨13106, 0, 2, [12501, 12449, 12521, 12483, 12489]⟩ .leaf) ⟨13107, 0, 2, [12501, 12451, 12540, 12488]⟩ .leaf))) ⟨13108, 0, 2, [12502, 12483, 12471, 12455, 12523]⟩ (.node (.node (.node (.node .leaf ⟨13109, 0, 2, [12501, 12521, 12531]⟩ .leaf) ⟨13110, 0, 2, [12504, 12463, 12479, 12540, 12523]⟩ (.node .leaf ⟨13111, 0, 2, [12506, 12477]⟩ .leaf)) ⟨13112, 0, 2, [12506, 12491, 12498]⟩ (.node (.node .leaf ⟨13113, 0, 2, [12504, 12523, 12484]⟩ .leaf) ⟨13114, 0, 2, [12506, 12531, 12473]⟩ .leaf)) ⟨13115, 0, 2, [12506, 12540, 12472]⟩ (.node (.node (.node .leaf ⟨13116, 0, 2, [12505, 12540, 12479]⟩ .leaf) ⟨13117, 0, 2, [12509, 12452, 12531, 12488]⟩ .leaf) ⟨13118, 0, 2, [12508, 12523, 12488]⟩ (.node (.node .leaf ⟨13119, 0, 2, [12507, 12531]⟩ .leaf) ⟨13120, 0, 2, [12509, 12531, 12489]⟩ .leaf)))) ⟨13121, 0, 2, [12507, 12540, 12523]⟩ (.node (.node (.node (.node (.node .leaf ⟨13122, 0, 2, [12507, 12540, 12531]⟩ .leaf) ⟨13123, 0, 2, [12510, 12452, 12463, 12525]⟩ (.node .leaf ⟨13124, 0, 2, [12510, 12452, 12523]⟩ .leaf)) ⟨13125, 0, 2, [12510, 12483, 12495]⟩ (.node (.node .leaf ⟨13126, 0, 2, [12510, 12523, 12463]⟩ .leaf) ⟨13127, 0, 2, [12510, 12531, 12471, 12519, 12531]⟩ .leaf)) ⟨13128, 0, 2, [12511, 12463, 12525, 12531]⟩ (.node (.node (.node .leaf ⟨13129, 0, 2, [12511, 12522]⟩ .leaf) ⟨13130, 0, 2, [12511, 12522, 12496, 12540, 12523]⟩ .leaf) ⟨13131, 0, 2, [12513, 12460]⟩ (.node (.node .leaf ⟨13132, 0, 2, [12513, 12460, 12488, 12531]⟩ .leaf) ⟨13133, 0, 2, [12513, 12540, 12488, 12523]⟩ .leaf))) ⟨13134, 0, 2, [12516, 12540, 12489]⟩ (.node (.node (.node (.node .leaf ⟨13135, 0, 2, [12516, 12540, 12523]⟩ .leaf) ⟨13136, 0, 2, [12518, 12450, 12531]⟩ .leaf) ⟨13137, 0, 2, [12522, 12483, 12488, 12523]⟩ (.node (.node .leaf ⟨13138, 0, 2, [12522, 12521]⟩ .leaf) ⟨13139, 0, 2, [12523, 12500, 12540]⟩ .leaf)) ⟨13140, 0, 2, [12523, 12540, 12502, 12523]⟩ (.node (.node (.node .leaf ⟨13141, 0, 2, [12524, 12512]⟩ .leaf) ⟨13142, 0, 2, [12524, 12531, 12488, 12466, 12531]⟩ .leaf) ⟨13143, 0, 2, [12527, 12483, 12488]⟩ (.node (.node .leaf ⟨13144, 0, 1, [48, 28857]⟩ .leaf) ⟨13145, 0, 1, [49, 28857]⟩ .leaf)))))

/-- Rows of Data/Ucd.lean (proof aid). -/
def ucdT54 : Tree UcdRow := (.node (.node (.node (.node (.node (.node .leaf ⟨13147, 0, 1, [51, 28857]⟩ .leaf) ⟨13148, 0, 1, [52, 28857]⟩ (.node .leaf ⟨13149, 0, 1, [53, 28857]⟩ .leaf)) ⟨13150, 0, 1, [54, 28857]⟩ (.node (.node .leaf ⟨13151, 0, 1, [55, 28857]⟩ .leaf) ⟨13152, 0, 1, [56, 28857]⟩ .leaf)) ⟨13153, 0, 1, [57, 28857]⟩ (.node (.node (.node .leaf ⟨13154, 0, 1, [49, 48, 28857]⟩ .leaf) ⟨13155, 0, 1, [49, 49, 28857]⟩ .leaf) ⟨13156, 0, 1, [49, 50, 28857]⟩ (.node (.node .leaf ⟨13157, 0, 1, [49, 51, 28857]⟩ .leaf) ⟨13158, 0, 1, [49, 52, 28857]⟩ .leaf))) ⟨13159, 0, 1, [49, 53, 28857]⟩ (.node (.node (.node (.node .leaf ⟨13160, 0, 1, [49, 54, 28857]⟩ .leaf) ⟨13161, 0, 1, [49, 55, 28857]⟩ (.node .leaf ⟨13162, 0, 1, [49, 56, 28857]⟩ .leaf)) ⟨13163, 0, 1, [49, 57, 28857]⟩ (.node (.node .leaf ⟨13164, 0, 1, [50, 48, 28857]⟩ .leaf) ⟨13165, 0, 1, [50, 49, 28857]⟩ .leaf)) ⟨13166, 0, 1, [50, 50, 28857]⟩ (.node (.node (.node .leaf ⟨13167, 0, 1, [50, 51, 28857]⟩ .leaf) ⟨13168, 0, 1, [50, 52, 28857]⟩ .leaf) ⟨13169, 0, 2, [104, 80, 97]⟩ (.node (.node .leaf ⟨13170, 0, 2, [100, 97]⟩ .leaf) ⟨13171, 0, 2, [65, 85]⟩ .leaf)))) ⟨13172, 0, 2, [98, 97, 114]⟩ (.node (.node (.node (.node (.node .leaf ⟨13173, 0, 2, [111, 86]⟩ .leaf) ⟨13174, 0, 2, [112, 99]⟩ (.node .leaf ⟨13175, 0, 2, [100, 109]⟩ .leaf)) ⟨13176, 0, 2, [100, 109, 178]⟩ (.node (.node .leaf ⟨13177, 0, 2, [100, 109, 179]⟩ .leaf) ⟨13178, 0, 2, [73, 85]⟩ .leaf)) ⟨13179, 0, 2, [24179, 25104]⟩ (.node (.node (.node .leaf ⟨13180, 0, 2, [26157, 21644]⟩ .leaf) ⟨13181, 0, 2, [22823, 27491]⟩ .leaf) ⟨13182, 0, 2, [26126, 27835]⟩ (.node (.node .leaf ⟨13183, 0, 2, [26666, 24335, 20250, 31038]⟩ .leaf) ⟨13184, 0, 2, [112, 65]⟩ .leaf))) ⟨13185, 0, 2, [110, 65]⟩ (.node (.node (.node (.node .leaf ⟨13186, 0, 2, [956, 65]⟩ .leaf) ⟨13187, 0, 2, [109, 65]⟩ .leaf) ⟨13188, 0, 2, [107, 65]⟩ (.node (.node .leaf ⟨13189, 0, 2, [75, 66]⟩ .leaf) ⟨13190, 0, 2, [77, 66]⟩ .leaf)) ⟨13191, 0, 2, [71, 66]⟩ (.node (.node (.node .leaf ⟨13192, 0, 2, [99, 97, 108]⟩ .leaf) ⟨13193, 0, 2, [107, 99, 97, 108]⟩ .leaf) ⟨13194, 0, 2, [112, 70]⟩ (.node (.node .leaf ⟨13195, 0, 2, [110, 70]⟩ .leaf) ⟨13196, 0, 2, [956, 70]⟩ .leaf)))))

/-- Rows of Data/Ucd.lean (proof aid). -/
def ucdT55 : Tree UcdRow := (.node (.node (.node (.node (.node (.node .leaf ⟨13198, 0, 2, [109, 103]⟩ .leaf) ⟨13199, 0, 2, [107, 103]⟩ (.node .leaf ⟨13200, 0, 2, [72, 122]⟩ .leaf)) ⟨13201, 0, 2, [107, 72, 122]⟩ (.node (.node .leaf ⟨13202, 0, 2, [77, 72, 122]⟩ .leaf) ⟨13203, 0, 2, [71, 72, 122]⟩ .leaf)) ⟨13204, 0, 2, [84, 72, 122]⟩ (.node (.node (.node .leaf ⟨13205, 0, 2, [956, 8467]⟩ .leaf) ⟨13206, 0, 2, [109, 8467]⟩ .leaf) ⟨13207, 0, 2, [100, 8467]⟩ (.node (.node .leaf ⟨13208, 0, 2, [107, 8467]⟩ .leaf) ⟨13209, 0, 2, [102, 109]⟩ .leaf))) ⟨13210, 0, 2, [110, 109]⟩ (.node (.node (.node (.node .leaf ⟨13211, 0, 2, [956, 109]⟩ .leaf) ⟨13212, 0, 2, [109, 109]⟩ (.node .leaf ⟨13213, 0, 2, [99, 109]⟩ .leaf)) ⟨13214, 0, 2, [107, 109]⟩ (.node (.node .leaf ⟨13215, 0, 2, [109, 109, 178]⟩ .leaf) ⟨13216, 0, 2, [99, 109, 178]⟩ .leaf)) ⟨13217, 0, 2, [109, 178]⟩ (.node (.node (.node .leaf ⟨13218, 0, 2, [107, 109, 178]⟩ .leaf) ⟨13219, 0, 2, [109, 109, 179]⟩ .leaf) ⟨13220, 0, 2, [99, 109, 179]⟩ (.node (.node .leaf ⟨13221, 0, 2, [109, 179]⟩ .leaf) ⟨13222, 0, 2, [107, 109, 179]⟩ .leaf)))) ⟨13223, 0, 2, [109, 8725, 115]⟩ (.node (.node (.node (.node (.node .leaf ⟨13224, 0, 2, [109, 8725, 115, 178]⟩ .leaf) ⟨13225, 0, 2, [80, 97]⟩ (.node .leaf ⟨13226, 0, 2, [107, 80, 97]⟩ .leaf)) ⟨13227, 0, 2, [77, 80, 97]⟩ (.node (.node .leaf ⟨13228, 0, 2, [71, 80, 97]⟩ .leaf) ⟨13229, 0, 2, [114, 97, 100]⟩ .leaf)) ⟨13230, 0, 2, [114, 97, 100, 8725, 115]⟩ (.node (.node (.node .leaf ⟨13231, 0, 2, [114, 97, 100, 8725, 115, 178]⟩ .leaf) ⟨13232, 0, 2, [112, 115]⟩ .leaf) ⟨13233, 0, 2, [110, 115]⟩ (.node (.node .leaf ⟨13234, 0, 2, [956, 115]⟩ .leaf) ⟨13235, 0, 2, [109, 115]⟩ .leaf))) ⟨13236, 0, 2, [112, 86]⟩ (.node (.node (.node (.node .leaf ⟨13237, 0, 2, [110, 86]⟩ .leaf) ⟨13238, 0, 2, [956, 86]⟩ .leaf) ⟨13239, 0, 2, [109, 86]⟩ (.node (.node .leaf ⟨13240, 0, 2, [107, 86]⟩ .leaf) ⟨13241, 0, 2, [77, 86]⟩ .leaf)) ⟨13242, 0, 2, [112, 87]⟩ (.node (.node (.node .leaf ⟨13243, 0, 2, [110, 87]⟩ .leaf) ⟨13244, 0, 2, [956, 87]⟩ .leaf) ⟨13245, 0, 2, [109, 87]⟩ (.node (.node .leaf ⟨13246, 0, 2, [107, 87]⟩ .leaf) ⟨13247, 0, 2, [77, 87]⟩ .leaf)))))

/-- Rows of Data/Ucd.lean (proof aid). -/
def ucdT56 : Tree UcdRow := (.node (.node (.node (.node (.node (.node .leaf ⟨13249, 0, 2, [77, 937]⟩ .leaf) ⟨13250, 0, 2, [97, 46, 109, 46]⟩ (.node .leaf ⟨13251, 0, 2, [66, 113]⟩ .leaf)) ⟨13252, 0, 2, [99, 99]⟩ (.node (.node .leaf ⟨13253, 0, 2, [99, 100]⟩ .leaf) ⟨13254, 0, 2, [67, 8725, 107, 103]⟩ .leaf)) ⟨13255, 0, 2, [67, 111, 46]⟩ (.node (.node (.node .leaf ⟨13256, 0, 2, [100, 66]⟩ .leaf) ⟨13257, 0, 2, [71, 121]⟩ .leaf) ⟨13258, 0, 2, [104, 97]⟩ (.node (.node .leaf ⟨13259, 0, 2, [72, 80]⟩ .leaf) ⟨13260, 0, 2, [105, 110]⟩ .leaf))) ⟨13261, 0, 2, [75, 75]⟩ (.node (.node (.node (.node .leaf ⟨13262, 0, 2, [75, 77]⟩ .leaf) ⟨13263, 0, 2, [107, 116]⟩ (.node .leaf ⟨13264, 0, 2, [108, 109]⟩ .leaf)) ⟨13265, 0, 2, [108, 110]⟩ (.node (.node .leaf ⟨13266, 0, 2, [108, 111, 103]⟩ .leaf) ⟨13267, 0, 2, [108, 120]⟩ .leaf)) ⟨13268, 0, 2, [109, 98]⟩ (.node (.node (.node .leaf ⟨13269, 0, 2, [109, 105, 108]⟩ .leaf) ⟨13270, 0, 2, [109, 111, 108]⟩ .leaf) ⟨13271, 0, 2, [80, 72]⟩ (.node (.node .leaf ⟨13272, 0, 2, [112, 46, 109, 46]⟩ .leaf) ⟨13273, 0, 2, [80, 80, 77]⟩ .leaf)))) ⟨13274, 0, 2, [80, 82]⟩ (.node (.node (.node (.node (.node .leaf ⟨13275, 0, 2, [115, 114]⟩ .leaf) ⟨13276, 0, 2, [83, 118]⟩ (.node .leaf ⟨13277, 0, 2, [87, 98]⟩ .leaf)) ⟨13278, 0, 2, [86, 8725, 109]⟩ (.node (.node .leaf ⟨13279, 0, 2, [65, 8725, 109]⟩ .leaf) ⟨13280, 0, 1, [49, 26085]⟩ .leaf)) ⟨13281, 0, 1, [50, 26085]⟩ (.node (.node (.node .leaf ⟨13282, 0, 1, [51, 26085]⟩ .leaf) ⟨13283, 0, 1, [52, 26085]⟩ .leaf) ⟨13284, 0, 1, [53, 26085]⟩ (.node (.node .leaf ⟨13285, 0, 1, [54, 26085]⟩ .leaf) ⟨13286, 0, 1, [55, 26085]⟩ .leaf))) ⟨13287, 0, 1, [56, 26085]⟩ (.node (.node (.node (.node .leaf ⟨13288, 0, 1, [57, 26085]⟩ .leaf) ⟨13289, 0, 1, [49, 48, 26085]⟩ .leaf) ⟨13290, 0, 1, [49, 49, 26085]⟩ (.node (.node .leaf ⟨13291, 0, 1, [49, 50, 26085]⟩ .leaf) ⟨13292, 0, 1, [49, 51, 26085]⟩ .leaf)) ⟨13293, 0, 1, [49, 52, 26085]⟩ (.node (.node (.node .leaf ⟨13294, 0, 1, [49, 53, 26085]⟩ .leaf) ⟨13295, 0, 1, [49, 54, 26085]⟩ .leaf) ⟨13296, 0, 1, [49, 55, 26085]⟩ (.node (.node .leaf ⟨13297, 0, 1, [49, 56, 26085]⟩ .leaf) ⟨13298, 0, 1, [49, 57, 26085]⟩ .leaf)))))

/-- Rows of Data/Ucd.lean (proof aid). -/
def ucdT57 : Tree UcdRow := (.node (.node (.node (.node (.node (.node .leaf ⟨13300, 0, 1, [50, 49, 26085]⟩ .leaf) ⟨13301, 0, 1, [50, 50, 26085]⟩ (.node .leaf ⟨13302, 0, 1, [50, 51, 26085]⟩ .leaf)) ⟨13303, 0, 1, [50, 52, 26085]⟩ (.node (.node .leaf ⟨13304, 0, 1, [50, 53, 26085]⟩ .leaf) ⟨13305, 0, 1, [50, 54, 26085]⟩ .leaf)) ⟨13306, 0, 1, [50, 55, 26085]⟩ (.node (.node (.node .leaf ⟨13307, 0, 1, [50, 56, 26085]⟩ .leaf) ⟨13308, 0, 1, [50, 57, 26085]⟩ .leaf) ⟨13309, 0, 1, [51, 48, 26085]⟩ (.node (.node .leaf ⟨13310, 0, 1, [51, 49, 26085]⟩ .leaf) ⟨13311, 0, 2, [103, 97, 108]⟩ .leaf))) ⟨42607, 230, 0, []⟩ (.node (.node (.node (.node .leaf ⟨42612, 230, 0, []⟩ .leaf) ⟨42613, 230, 0, []⟩ (.node .leaf ⟨42614, 230, 0, []⟩ .leaf)) ⟨42615, 230, 0, []⟩ (.node (.node .leaf ⟨42616, 230, 0, []⟩ .leaf) ⟨42617, 230, 0, []⟩ .leaf)) ⟨42618, 230, 0, []⟩ (.node (.node (.node .leaf ⟨42619, 230, 0, []⟩ .leaf) ⟨42620, 230, 0, []⟩ .leaf) ⟨42621, 230, 0, []⟩ (.node (.node .leaf ⟨42652, 0, 2, [1098]⟩ .leaf) ⟨42653, 0, 2, [1100]⟩ .leaf)))) ⟨42654, 230, 0, []⟩ (.node (.node (.node (.node (.node .leaf ⟨42655, 230, 0, []⟩ .leaf) ⟨42736, 230, 0, []⟩ (.node .leaf ⟨42737, 230, 0, []⟩ .leaf)) ⟨42864, 0, 2, [42863]⟩ (.node (.node .leaf ⟨43000, 0, 2, [294]⟩ .leaf) ⟨43001, 0, 2, [339]⟩ .leaf)) ⟨43014, 9, 0, []⟩ (.node (.node (.node .leaf ⟨43204, 9, 0, []⟩ .leaf) ⟨43232, 230, 0, []⟩ .leaf) ⟨43233, 230, 0, []⟩ (.node (.node .leaf ⟨43234, 230, 0, []⟩ .leaf) ⟨43235, 230, 0, []⟩ .leaf))) ⟨43236, 230, 0, []⟩ (.node (.node (.node (.node .leaf ⟨43237, 230, 0, []⟩ .leaf) ⟨43238, 230, 0, []⟩ .leaf) ⟨43239, 230, 0, []⟩ (.node (.node .leaf ⟨43240, 230, 0, []⟩ .leaf) ⟨43241, 230, 0, []⟩ .leaf)) ⟨43242, 230, 0, []⟩ (.node (.node (.node .leaf ⟨43243, 230, 0, []⟩ .leaf) ⟨43244, 230, 0, []⟩ .leaf) ⟨43245, 230, 0, []⟩ (.node (.node .leaf ⟨43246, 230, 0, []⟩ .leaf) ⟨43247, 230, 0, []⟩ .leaf)))))

/-- Rows of Data/Ucd.lean (proof aid). -/
def ucdT58 : Tree UcdRow := (.node (.node (.node (.node (.node (.node .leaf ⟨43249, 230, 0, []⟩ .leaf) ⟨43307, 220, 0, []⟩ (.node .leaf ⟨43308, 220, 0, []⟩ .leaf)) ⟨43309, 220, 0, []⟩ (.node (.node .leaf ⟨43347, 9, 0, []⟩ .leaf) ⟨43443, 7, 0, []⟩ .leaf)) ⟨43456, 9, 0, []⟩ (.node (.node (.node .leaf ⟨43696, 230, 0, []⟩ .leaf) ⟨43698, 230, 0, []⟩ .leaf) ⟨43699, 230, 0, []⟩ (.node (.node .leaf ⟨43700, 220, 0, []⟩ .leaf) ⟨43703, 230, 0, []⟩ .leaf))) ⟨43704, 230, 0, []⟩ (.node (.node (.node (.node .leaf ⟨43710, 230, 0, []⟩ .leaf) ⟨43711, 230, 0, []⟩ (.node .leaf ⟨43713, 230, 0, []⟩ .leaf)) ⟨43766, 9, 0, []⟩ (.node (.node .leaf ⟨43868, 0, 2, [42791]⟩ .leaf) ⟨43869, 0, 2, [43831]⟩ .leaf)) ⟨43870, 0, 2, [619]⟩ (.node (.node (.node .leaf ⟨43871, 0, 2, [43858]⟩ .leaf) ⟨44013, 9, 0, []⟩ .leaf) ⟨63744, 0, 0, [35912]⟩ (.node (.node .leaf ⟨63745, 0, 0, [26356]⟩ .leaf) ⟨63746, 0, 0, [36554]⟩ .leaf)))) ⟨63747, 0, 0, [36040]⟩ (.node (.node (.node (.node (.node .leaf ⟨63748, 0, 0, [28369]⟩ .leaf) ⟨63749, 0, 0, [20018]⟩ (.node .leaf ⟨63750, 0, 0, [21477]⟩ .leaf)) ⟨63751, 0, 0, [40860]⟩ (.node (.node .leaf ⟨63752, 0, 0, [40860]⟩ .leaf) ⟨63753, 0, 0, [22865]⟩ .leaf)) ⟨63754, 0, 0, [37329]⟩ (.node (.node (.node .leaf ⟨63755, 0, 0, [21895]⟩ .leaf) ⟨63756, 0, 0, [22856]⟩ .leaf) ⟨63757, 0, 0, [25078]⟩ (.node (.node .leaf ⟨63758, 0, 0, [30313]⟩ .leaf) ⟨63759, 0, 0, [32645]⟩ .leaf))) ⟨63760, 0, 0, [34367]⟩ (.node (.node (.node (.node .leaf ⟨63761, 0, 0, [34746]⟩ .leaf) ⟨63762, 0, 0, [35064]⟩ .leaf) ⟨63763, 0, 0, [37007]⟩ (.node (.node .leaf ⟨63764, 0, 0, [27138]⟩ .leaf) ⟨63765, 0, 0, [27931]⟩ .leaf)) ⟨63766, 0, 0, [28889]⟩ (.node (.node (.node .leaf ⟨63767, 0, 0, [29662]⟩ .leaf) ⟨63768, 0, 0, [33853]⟩ .leaf) ⟨63769, 0, 0, [37226]⟩ (.node (.node .leaf ⟨63770, 0, 0, [39409]⟩ .leaf) ⟨63771, 0, 0, [20098]⟩ .leaf)))))

/-- Rows of Data/Ucd.lean (proof aid). -/
def ucdT59 : Tree UcdRow := (.node (.node (.node (.node (.node (.node .leaf ⟨63773, 0, 0, [27396]⟩ .leaf) ⟨63774, 0, 0, [29211]⟩ (.node .leaf ⟨63775, 0, 0, [34349]⟩ .leaf)) ⟨63776, 0, 0, [40478]⟩ (.node (.node .leaf ⟨63777, 0, 0, [23888]⟩ .leaf) ⟨63778, 0, 0, [28651]⟩ .leaf)) ⟨63779, 0, 0, [34253]⟩ (.node (.node (.node .leaf ⟨63780, 0, 0, [35172]⟩ .leaf) ⟨63781, 0, 0, [25289]⟩ .leaf) ⟨63782, 0, 0, [33240]⟩ (.node (.node .leaf ⟨63783, 0, 0, [34847]⟩ .leaf) ⟨63784, 0, 0, [24266]⟩ .leaf))) ⟨63785, 0, 0, [26391]⟩ (.node (.node (.node (.node .leaf ⟨63786, 0, 0, [28010]⟩ .leaf) ⟨63787, 0, 0, [29436]⟩ (.node .leaf ⟨63788, 0, 0, [37070]⟩ .leaf)) ⟨63789, 0, 0, [20358]⟩ (.node (.node .leaf ⟨63790, 0, 0, [20919]⟩ .leaf) ⟨63791, 0, 0, [21214]⟩ .leaf)) ⟨63792, 0, 0, [25796]⟩ (.node (.node (.node .leaf ⟨63793, 0, 0, [27347]⟩ .leaf) ⟨63794, 0, 0, [29200]⟩ .leaf) ⟨63795, 0, 0, [30439]⟩ (.node (.node .leaf ⟨63796, 0, 0, [32769]⟩ .leaf) ⟨63797, 0, 0, [34310]⟩ .leaf)))) ⟨63798, 0, 0, [34396]⟩ (.node (.node (.node (.node (.node .leaf ⟨63799, 0, 0, [36335]⟩ .leaf) ⟨63800, 0, 0, [38706]⟩ (.node .leaf ⟨63801, 0, 0, [39791]⟩ .leaf)) ⟨63802, 0, 0, [40442]⟩ (.node (.node .leaf ⟨63803, 0, 0, [30860]⟩ .leaf) ⟨63804, 0, 0, [31103]⟩ .leaf)) ⟨63805, 0, 0, [32160]⟩ (.node (.node (.node .leaf ⟨63806, 0, 0, [33737]⟩ .leaf) ⟨63807, 0, 0, [37636]⟩ .leaf) ⟨63808, 0, 0, [40575]⟩ (.node (.node .leaf ⟨63809, 0, 0, [35542]⟩ .leaf) ⟨63810, 0, 0, [22751]⟩ .leaf))) ⟨63811, 0, 0, [24324]⟩ (.node (.node (.node (.node .leaf ⟨63812, 0, 0, [31840]⟩ .leaf) ⟨63813, 0, 0, [32894]⟩ .leaf) ⟨63814, 0, 0, [29282]⟩ (.node (.node .leaf ⟨63815, 0, 0, [30922]⟩ .leaf) ⟨63816, 0, 0, [36034]⟩ .leaf)) ⟨63817, 0, 0, [38647]⟩ (.node (.node (.node .leaf ⟨63818, 0, 0, [22744]⟩ .leaf) ⟨63819, 0, 0, [23650]⟩ .leaf) ⟨63820, 0, 0, [27155]⟩ (.node (.node .leaf ⟨63821, 0, 0, [28122]⟩ .leaf) ⟨63822, 0, 0, [28431]⟩ .leaf)))))

/-- Rows of Data/Ucd.lean (proof aid). -/
def ucdT60 : Tree UcdRow := (.node (.node (.node (.node (.node (.node .leaf ⟨63824, 0, 0, [32311]⟩ .leaf) ⟨63825, 0, 0, [38475]⟩ (.node .leaf ⟨63826, 0, 0, [21202]⟩ .leaf)) ⟨63827, 0, 0, [32907]⟩ (.node (.node .leaf ⟨63828, 0, 0, [20956]⟩ .leaf) ⟨63829, 0, 0, [20940]⟩ .leaf)) ⟨63830, 0, 0, [31260]⟩ (.node (.node (.node .leaf ⟨63831, 0, 0, [32190]⟩ .leaf) ⟨63832, 0, 0, [33777]⟩ .leaf) ⟨63833, 0, 0, [38517]⟩ (.node (.node .leaf ⟨63834, 0, 0, [35712]⟩ .leaf) ⟨63835, 0, 0, [25295]⟩ .leaf))) ⟨63836, 0, 0, [27138]⟩ (.node (.node (.node (.node .leaf ⟨63837, 0, 0, [35582]⟩ .leaf) ⟨63838, 0, 0, [20025]⟩ (.node .leaf ⟨63839, 0, 0, [23527]⟩ .leaf)) ⟨63840, 0, 0, [24594]⟩ (.node (.node .leaf ⟨63841, 0, 0, [29575]⟩ .leaf) ⟨63842, 0, 0, [30064]⟩ .leaf)) ⟨63843, 0, 0, [21271]⟩ (.node (.node (.node .leaf ⟨63844, 0, 0, [30971]⟩ .leaf) ⟨63845, 0, 0, [20415]⟩ .leaf) ⟨63846, 0, 0, [24489]⟩ (.node (.node .leaf ⟨63847, 0, 0, [19981]⟩ .leaf) ⟨63848, 0, 0, [27852]⟩ .leaf)))) ⟨63849, 0, 0, [25976]⟩ (.node (.node (.node (.node (.node .leaf ⟨63850, 0, 0, [32034]⟩ .leaf) ⟨63851, 0, 0, [21443]⟩ (.node .leaf ⟨63852, 0, 0, [22622]⟩ .leaf)) ⟨63853, 0, 0, [30465]⟩ (.node (.node .leaf ⟨63854, 0, 0, [33865]⟩ .leaf) ⟨63855, 0, 0, [35498]⟩ .leaf)) ⟨63856, 0, 0, [27578]⟩ (.node (.node (.node .leaf ⟨63857, 0, 0, [36784]⟩ .leaf) ⟨63858, 0, 0, [27784]⟩ .leaf) ⟨63859, 0, 0, [25342]⟩ (.node (.node .leaf ⟨63860, 0, 0, [33509]⟩ .leaf) ⟨63861, 0, 0, [25504]⟩ .leaf))) ⟨63862, 0, 0, [30053]⟩ (.node (.node (.node (.node .leaf ⟨63863, 0, 0, [20142]⟩ .leaf) ⟨63864, 0, 0, [20841]⟩ .leaf) ⟨63865, 0, 0, [20937]⟩ (.node (.node .leaf ⟨63866, 0, 0, [26753]⟩ .leaf) ⟨63867, 0, 0, [31975]⟩ .leaf)) ⟨63868, 0, 0, [33391]⟩ (.node (.node (.node .leaf ⟨63869, 0, 0, [35538]⟩ .leaf) ⟨63870, 0, 0, [37327]⟩ .leaf) ⟨63871, 0, 0, [21237]⟩ (.node (.node .leaf ⟨63872, 0, 0, [21570]⟩ .leaf) ⟨63873, 0, 0, [22899]⟩ .leaf)))))

/-- Rows of Data/Ucd.lean (proof aid). -/
def ucdT61 : Tree UcdRow := (.node (.node (.node (.node (.node (.node .leaf ⟨63875, 0, 0, [26053]⟩ .leaf) ⟨63876, 0, 0, [28670]⟩ (.node .leaf ⟨63877, 0, 0, [31018]⟩ .leaf)) ⟨63878, 0, 0, [38317]⟩ (.node (.node .leaf ⟨63879, 0, 0, [39530]⟩ .leaf) ⟨63880, 0, 0, [40599]⟩ .leaf)) ⟨63881, 0, 0, [40654]⟩ (.node (.node (.node .leaf ⟨63882, 0, 0, [21147]⟩ .leaf) ⟨63883, 0, 0, [26310]⟩ .leaf) ⟨63884, 0, 0, [27511]⟩ (.node (.node .leaf ⟨63885, 0, 0, [36706]⟩ .leaf) ⟨63886, 0, 0, [24180]⟩ .leaf))) ⟨63887, 0, 0, [24976]⟩ (.node (.node (.node (.node .leaf ⟨63888, 0, 0, [25088]⟩ .leaf) ⟨63889, 0, 0, [25754]⟩ (.node .leaf ⟨63890, 0, 0, [28451]⟩ .leaf)) ⟨63891, 0, 0, [29001]⟩ (.node (.node .leaf ⟨63892, 0, 0, [29833]⟩ .leaf) ⟨63893, 0, 0, [31178]⟩ .leaf)) ⟨63894, 0, 0, [32244]⟩ (.node (.node (.node .leaf ⟨63895, 0, 0, [32879]⟩ .leaf) ⟨63896, 0, 0, [36646]⟩ .leaf) ⟨63897, 0, 0, [34030]⟩ (.node (.node .leaf ⟨63898, 0, 0, [36899]⟩ .leaf) ⟨63899, 0, 0, [37706]⟩ .leaf)))) ⟨63900, 0, 0, [21015]⟩ (.node (.node (.node (.node (.node .leaf ⟨63901, 0, 0, [21155]⟩ .leaf) ⟨63902, 0, 0, [21693]⟩ (.node .leaf ⟨63903, 0, 0, [28872]⟩ .leaf)) ⟨63904, 0, 0, [35010]⟩ (.node (.node .leaf ⟨63905, 0, 0, [35498]⟩ .leaf) ⟨63906, 0, 0, [24265]⟩ .leaf)) ⟨63907, 0, 0, [24565]⟩ (.node (.node (.node .leaf ⟨63908, 0, 0, [25467]⟩ .leaf) ⟨63909, 0, 0, [27566]⟩ .leaf) ⟨63910, 0, 0, [31806]⟩ (.node (.node .leaf ⟨63911, 0, 0, [29557]⟩ .leaf) ⟨63912, 0, 0, [20196]⟩ .leaf))) ⟨63913, 0, 0, [22265]⟩ (.node (.node (.node (.node .leaf ⟨63914, 0, 0, [23527]⟩ .leaf) ⟨63915, 0, 0, [23994]⟩ .leaf) ⟨63916, 0, 0, [24604]⟩ (.node (.node .leaf ⟨63917, 0, 0, [29618]⟩ .leaf) ⟨63918, 0, 0, [29801]⟩ .leaf)) ⟨63919, 0, 0, [32666]⟩ (.node (.node (.node .leaf ⟨63920, 0, 0, [32838]⟩ .leaf) ⟨63921, 0, 0, [37428]⟩ .leaf) ⟨63922, 0, 0, [38646]⟩ (.node (.node .leaf ⟨63923, 0, 0, [38728]⟩ .leaf) ⟨63924, 0, 0, [38936]⟩ .leaf)))))

/-- Rows of Data/Ucd.lean (proof aid). -/
def ucdT62 : Tree UcdRow := (.node (.node (.node (.node (.node (.node .leaf ⟨63926, 0, 0, [31150]⟩ .leaf) ⟨63927, 0, 0, [37300]⟩ (.node .leaf ⟨63928, 0, 0, [38584]⟩ .leaf)) ⟨63929, 0, 0, [24801]⟩ (.node (.node .leaf ⟨63930, 0, 0, [20102]⟩ .leaf) ⟨63931, 0, 0, [20698]⟩ .leaf)) ⟨63932, 0, 0, [23534]⟩ (.node (.node (.node .leaf ⟨63933, 0, 0, [23615]⟩ .leaf) ⟨63934, 0, 0, [26009]⟩ .leaf) ⟨63935, 0, 0, [27138]⟩ (.node (.node .leaf ⟨63936, 0, 0, [29134]⟩ .leaf) ⟨63937, 0, 0, [30274]⟩ .leaf))) ⟨63938, 0, 0, [34044]⟩ (.node (.node (.node (.node .leaf ⟨63939, 0, 0, [36988]⟩ .leaf) ⟨63940, 0, 0, [40845]⟩ (.node .leaf ⟨63941, 0, 0, [26248]⟩ .leaf)) ⟨63942, 0, 0, [38446]⟩ (.node (.node .leaf ⟨63943, 0, 0, [21129]⟩ .leaf) ⟨63944, 0, 0, [26491]⟩ .leaf)) ⟨63945, 0, 0, [26611]⟩ (.node (.node (.node .leaf ⟨63946, 0, 0, [27969]⟩ .leaf) ⟨63947, 0, 0, [28316]⟩ .leaf) ⟨63948, 0, 0, [29705]⟩ (.node (.node .leaf ⟨63949, 0, 0, [30041]⟩ .leaf) ⟨63950, 0, 0, [30827]⟩ .leaf)))) ⟨63951, 0, 0, [32016]⟩ (.node (.node (.node (.node (.node .leaf ⟨63952, 0, 0, [39006]⟩ .leaf) ⟨63953, 0, 0, [20845]⟩ (.node .leaf ⟨63954, 0, 0, [25134]⟩ .leaf)) ⟨63955, 0, 0, [38520]⟩ (.node (.node .leaf ⟨63956, 0, 0, [20523]⟩ .leaf) ⟨63957, 0, 0, [23833]⟩ .leaf)) ⟨63958, 0, 0, [28138]⟩ (.node (.node (.node .leaf ⟨63959, 0, 0, [36650]⟩ .leaf) ⟨63960, 0, 0, [24459]⟩ .leaf) ⟨63961, 0, 0, [24900]⟩ (.node (.node .leaf ⟨63962, 0, 0, [26647]⟩ .leaf) ⟨63963, 0, 0, [29575]⟩ .leaf))) ⟨63964, 0, 0, [38534]⟩ (.node (.node (.node (.node .leaf ⟨63965, 0, 0, [21033]⟩ .leaf) ⟨63966, 0, 0, [21519]⟩ .leaf) ⟨63967, 0, 0, [23653]⟩ (.node (.node .leaf ⟨63968, 0, 0, [26131]⟩ .leaf) ⟨63969, 0, 0, [26446]⟩ .leaf)) ⟨63970, 0, 0, [26792]⟩ (.node (.node (.node .leaf ⟨63971, 0, 0, [27877]⟩ .leaf) ⟨63972, 0, 0, [29702]⟩ .leaf) ⟨63973, 0, 0, [30178]⟩ (.node (.node .leaf ⟨63974, 0, 0, [32633]⟩ .leaf) ⟨63975, 0, 0, [35023]⟩ .leaf)))))

/-- Rows of Data/Ucd.lean (proof aid). -/
def ucdT63 : Tree UcdRow := (.node (.node (.node (.node (.node (.node .leaf ⟨63977, 0, 0, [37324]⟩ .leaf) ⟨63978, 0, 0, [38626]⟩ (.node .leaf ⟨63979, 0, 0, [21311]⟩ .leaf)) ⟨63980, 0, 0, [28346]⟩ (.node (.node .leaf ⟨63981, 0, 0, [21533]⟩ .leaf) ⟨63982, 0, 0, [29136]⟩ .leaf)) ⟨63983, 0, 0, [29848]⟩ (.node (.node (.node .leaf ⟨63984, 0, 0, [34298]⟩ .leaf) ⟨63985, 0, 0, [38563]⟩ .leaf) ⟨63986, 0, 0, [40023]⟩ (.node (.node .leaf ⟨63987, 0, 0, [40607]⟩ .leaf) ⟨63988, 0, 0, [26519]⟩ .leaf))) ⟨63989, 0, 0, [28107]⟩ (.node (.node (.node (.node .leaf ⟨63990, 0, 0, [33256]⟩ .leaf) ⟨63991, 0, 0, [31435]⟩ (.node .leaf ⟨63992, 0, 0, [31520]⟩ .leaf)) ⟨63993, 0, 0, [31890]⟩ (.node (.node .leaf ⟨63994, 0, 0, [29376]⟩ .leaf) ⟨63995, 0, 0, [28825]⟩ .leaf)) ⟨63996, 0, 0, [35672]⟩ (.node (.node (.node .leaf ⟨63997, 0, 0, [20160]⟩ .leaf) ⟨63998, 0, 0, [33590]⟩ .leaf) ⟨63999, 0, 0, [21050]⟩ (.node (.node .leaf ⟨64000, 0, 0, [20999]⟩ .leaf) ⟨64001, 0, 0, [24230]⟩ .leaf)))) ⟨64002, 0, 0, [25299]⟩ (.node (.node (.node (.node (.node .leaf ⟨64003, 0, 0, [31958]⟩ .leaf) ⟨64004, 0, 0, [23429]⟩ (.node .leaf ⟨64005, 0, 0, [27934]⟩ .leaf)) ⟨64006, 0, 0, [26292]⟩ (.node (.node .leaf ⟨64007, 0, 0, [36667]⟩ .leaf) ⟨64008, 0, 0, [34892]⟩ .leaf)) ⟨64009, 0, 0, [38477]⟩ (.node (.node (.node .leaf ⟨64010, 0, 0, [35211]⟩ .leaf) ⟨64011, 0, 0, [24275]⟩ .leaf) ⟨64012, 0, 0, [20800]⟩ (.node (.node .leaf ⟨64013, 0, 0, [21952]⟩ .leaf) ⟨64016, 0, 0, [22618]⟩ .leaf))) ⟨64018, 0, 0, [26228]⟩ (.node (.node (.node (.node .leaf ⟨64021, 0, 0, [20958]⟩ .leaf) ⟨64022, 0, 0, [29482]⟩ .leaf) ⟨64023, 0, 0, [30410]⟩ (.node (.node .leaf ⟨64024, 0, 0, [31036]⟩ .leaf) ⟨64025, 0, 0, [31070]⟩ .leaf)) ⟨64026, 0, 0, [31077]⟩ (.node (.node (.node .leaf ⟨64027, 0, 0, [31119]⟩ .leaf) ⟨64028, 0, 0, [38742]⟩ .leaf) ⟨64029, 0, 0, [31934]⟩ (.node (.node .leaf ⟨64030, 0, 0, [32701]⟩ .leaf) ⟨64032, 0, 0, [34322]⟩ .leaf)))))

/-- Rows of Data/Ucd.lean (proof aid). -/
def ucdT64 : Tree UcdRow := (.node (.node (.node (.node (.node (.node .leaf ⟨64037, 0, 0, [36920]⟩ .leaf) ⟨64038, 0, 0, [37117]⟩ (.node .leaf ⟨64042, 0, 0, [39151]⟩ .leaf)) ⟨64043, 0, 0, [39164]⟩ (.node (.node .leaf ⟨64044, 0, 0, [39208]⟩ .leaf) ⟨64045, 0, 0, [40372]⟩ .leaf)) ⟨64046, 0, 0, [37086]⟩ (.node (.node (.node .leaf ⟨64047, 0, 0, [38583]⟩ .leaf) ⟨64048, 0, 0, [20398]⟩ .leaf) ⟨64049, 0, 0, [20711]⟩ (.node (.node .leaf ⟨64050, 0, 0, [20813]⟩ .leaf) ⟨64051, 0, 0, [21193]⟩ .leaf))) ⟨64052, 0, 0, [21220]⟩ (.node (.node (.node (.node .leaf ⟨64053, 0, 0, [21329]⟩ .leaf) ⟨64054, 0, 0, [21917]⟩ (.node .leaf ⟨64055, 0, 0, [22022]⟩ .leaf)) ⟨64056, 0, 0, [22120]⟩ (.node (.node .leaf ⟨64057, 0, 0, [22592]⟩ .leaf) ⟨64058, 0, 0, [22696]⟩ .leaf)) ⟨64059, 0, 0, [23652]⟩ (.node (.node (.node .leaf ⟨64060, 0, 0, [23662]⟩ .leaf) ⟨64061, 0, 0, [24724]⟩ .leaf) ⟨64062, 0, 0, [24936]⟩ (.node (.node .leaf ⟨64063, 0, 0, [24974]⟩ .leaf) ⟨64064, 0, 0, [25074]⟩ .leaf)))) ⟨64065, 0, 0, [25935]⟩ (.node (.node (.node (.node (.node .leaf ⟨64066, 0, 0, [26082]⟩ .leaf) ⟨64067, 0, 0, [26257]⟩ (.node .leaf ⟨64068, 0, 0, [26757]⟩ .leaf)) ⟨64069, 0, 0, [28023]⟩ (.node (.node .leaf ⟨64070, 0, 0, [28186]⟩ .leaf) ⟨64071, 0, 0, [28450]⟩ .leaf)) ⟨64072, 0, 0, [29038]⟩ (.node (.node (.node .leaf ⟨64073, 0, 0, [29227]⟩ .leaf) ⟨64074, 0, 0, [29730]⟩ .leaf) ⟨64075, 0, 0, [30865]⟩ (.node (.node .leaf ⟨64076, 0, 0, [31038]⟩ .leaf) ⟨64077, 0, 0, [31049]⟩ .leaf))) ⟨64078, 0, 0, [31048]⟩ (.node (.node (.node (.node .leaf ⟨64079, 0, 0, [31056]⟩ .leaf) ⟨64080, 0, 0, [31062]⟩ (.node .leaf ⟨64081, 0, 0, [31069]⟩ .leaf)) ⟨64082, 0, 0, [31117]⟩ (.node (.node .leaf ⟨64083, 0, 0, [31118]⟩ .leaf) ⟨64084, 0, 0, [31296]⟩ .leaf)) ⟨64085, 0, 0, [31361]⟩ (.node (.node (.node .leaf ⟨64086, 0, 0, [31680]⟩ .leaf) ⟨64087, 0, 0, [32244]⟩ .leaf) ⟨64088, 0, 0, [32265]⟩ (.node (.node .leaf ⟨64089, 0, 0, [32321]⟩ .leaf) ⟨64090, 0, 0, [32626]⟩ .leaf)))))

/-- Rows of Data/Ucd.lean (proof aid). -/
def ucdT65 : Tree UcdRow := (.node (.node (.node (.node (.node (.node .leaf ⟨64092, 0, 0, [33261]⟩ .leaf) ⟨64093, 0, 0, [33401]⟩ (.node .leaf ⟨64094, 0, 0, [33401]⟩ .leaf)) ⟨64095, 0, 0, [33879]⟩ (.node (.node .leaf ⟨64096, 0, 0, [35088]⟩ .leaf) ⟨64097, 0, 0, [35222]⟩ .leaf)) ⟨64098, 0, 0, [35585]⟩ (.node (.node (.node .leaf ⟨64099, 0, 0, [35641]⟩ .leaf) ⟨64100, 0, 0, [36051]⟩ .leaf) ⟨64101, 0, 0, [36104]⟩ (.node (.node .leaf ⟨64102, 0, 0, [36790]⟩ .leaf) ⟨64103, 0, 0, [36920]⟩ .leaf))) ⟨64104, 0, 0, [38627]⟩ (.node (.node (.node (.node .leaf ⟨64105, 0, 0, [38911]⟩ .leaf) ⟨64106, 0, 0, [38971]⟩ (.node .leaf ⟨64107, 0, 0, [24693]⟩ .leaf)) ⟨64108, 0, 0, [148206]⟩ (.node (.node .leaf ⟨64109, 0, 0, [33304]⟩ .leaf) ⟨64112, 0, 0, [20006]⟩ .leaf)) ⟨64113, 0, 0, [20917]⟩ (.node (.node (.node .leaf ⟨64114, 0, 0, [20840]⟩ .leaf) ⟨64115, 0, 0, [20352]⟩ .leaf) ⟨64116, 0, 0, [20805]⟩ (.node (.node .leaf ⟨64117, 0, 0, [20864]⟩ .leaf) ⟨64118, 0, 0, [21191]⟩ .leaf)))) ⟨64119, 0, 0, [21242]⟩ (.node (.node (.node (.node (.node .leaf ⟨64120, 0, 0, [21917]⟩ .leaf) ⟨64121, 0, 0, [21845]⟩ (.node .leaf ⟨64122, 0, 0, [21913]⟩ .leaf)) ⟨64123, 0, 0, [21986]⟩ (.node (.node .leaf ⟨64124, 0, 0, [22618]⟩ .leaf) ⟨64125, 0, 0, [22707]⟩ .leaf)) ⟨64126, 0, 0, [22852]⟩ (.node (.node (.node .leaf ⟨64127, 0, 0, [22868]⟩ .leaf) ⟨64128, 0, 0, [23138]⟩ .leaf) ⟨64129, 0, 0, [23336]⟩ (.node (.node .leaf ⟨64130, 0, 0, [24274]⟩ .leaf) ⟨64131, 0, 0, [24281]⟩ .leaf))) ⟨64132, 0, 0, [24425]⟩ (.node (.node (.node (.node .leaf ⟨64133, 0, 0, [24493]⟩ .leaf) ⟨64134, 0, 0, [24792]⟩ .leaf) ⟨64135, 0, 0, [24910]⟩ (.node (.node .leaf ⟨64136, 0, 0, [24840]⟩ .leaf) ⟨64137, 0, 0, [24974]⟩ .leaf)) ⟨64138, 0, 0, [24928]⟩ (.node (.node (.node .leaf ⟨64139, 0, 0, [25074]⟩ .leaf) ⟨64140, 0, 0, [25140]⟩ .leaf) ⟨64141, 0, 0, [25540]⟩ (.node (.node .leaf ⟨64142, 0, 0, [25628]⟩ .leaf) ⟨64143, 0, 0, [25682]⟩ .leaf)))))

/-- Rows of Data/Ucd.lean (proof aid). -/
def ucdT66 : Tree UcdRow := (.node (.node (.node (.node (.node (.node .leaf ⟨64145, 0, 0, [26228]⟩ .leaf) ⟨64146, 0, 0, [26391]⟩ (.node .leaf ⟨64147, 0, 0, [26395]⟩ .leaf)) ⟨64148, 0, 0, [26454]⟩ (.node (.node .leaf ⟨64149, 0, 0, [27513]⟩ .leaf) ⟨64150, 0, 0, [27578]⟩ .leaf)) ⟨64151, 0, 0, [27969]⟩ (.node (.node (.node .leaf ⟨64152, 0, 0, [28379]⟩ .leaf) ⟨64153, 0, 0, [28363]⟩ .leaf) ⟨64154, 0, 0, [28450]⟩ (.node (.node .leaf ⟨64155, 0, 0, [28702]⟩ .leaf) ⟨64156, 0, 0, [29038]⟩ .leaf))) ⟨64157, 0, 0, [30631]⟩ (.node (.node (.node (.node .leaf ⟨64158, 0, 0, [29237]⟩ .leaf) ⟨64159, 0, 0, [29359]⟩ (.node .leaf ⟨64160, 0, 0, [29482]⟩ .leaf)) ⟨64161, 0, 0, [29809]⟩ (.node (.node .leaf ⟨64162, 0, 0, [29958]⟩ .leaf) ⟨64163, 0, 0, [30011]⟩ .leaf)) ⟨64164, 0, 0, [30237]⟩ (.node (.node (.node .leaf ⟨64165, 0, 0, [30239]⟩ .leaf) ⟨64166, 0, 0, [30410]⟩ .leaf) ⟨64167, 0, 0, [30427]⟩ (.node (.node .leaf ⟨64168, 0, 0, [30452]⟩ .leaf) ⟨64169, 0, 0, [30538]⟩ .leaf)))) ⟨64170, 0, 0, [30528]⟩ (.node (.node (.node (.node (.node .leaf ⟨64171, 0, 0, [30924]⟩ .leaf) ⟨64172, 0, 0, [31409]⟩ (.node .leaf ⟨64173, 0, 0, [31680]⟩ .leaf)) ⟨64174, 0, 0, [31867]⟩ (.node (.node .leaf ⟨64175, 0, 0, [32091]⟩ .leaf) ⟨64176, 0, 0, [32244]⟩ .leaf)) ⟨64177, 0, 0, [32574]⟩ (.node (.node (.node .leaf ⟨64178, 0, 0, [32773]⟩ .leaf) ⟨64179, 0, 0, [33618]⟩ .leaf) ⟨64180, 0, 0, [33775]⟩ (.node (.node .leaf ⟨64181, 0, 0, [34681]⟩ .leaf) ⟨64182, 0, 0, [35137]⟩ .leaf))) ⟨64183, 0, 0, [35206]⟩ (.node (.node (.node (.node .leaf ⟨64184, 0, 0, [35222]⟩ .leaf) ⟨64185, 0, 0, [35519]⟩ .leaf) ⟨64186, 0, 0, [35576]⟩ (.node (.node .leaf ⟨64187, 0, 0, [35531]⟩ .leaf) ⟨64188, 0, 0, [35585]⟩ .leaf)) ⟨64189, 0, 0, [35582]⟩ (.node (.node (.node .leaf ⟨64190, 0, 0, [35565]⟩ .leaf) ⟨64191, 0, 0, [35641]⟩ .leaf) ⟨64192, 0, 0, [35722]⟩ (.node (.node .leaf ⟨64193, 0, 0, [36104]⟩ .leaf) ⟨64194, 0, 0, [36664]⟩ .leaf)))))

/-- Rows of Data/Ucd.lean (proof aid). -/
def ucdT67 : Tree UcdRow := (.node (.node (.node (.node (.node (.node .leaf ⟨64196, 0, 0, [37273]⟩ .leaf) ⟨64197, 0, 0, [37494]⟩ (.node .leaf ⟨64198, 0, 0, [38524]⟩ .leaf)) ⟨64199, 0, 0, [38627]⟩ (.node (.node .leaf ⟨64200, 0, 0, [38742]⟩ .leaf) ⟨64201, 0, 0, [38875]⟩ .leaf)) ⟨64202, 0, 0, [38911]⟩ (.node (.node (.node .leaf ⟨64203, 0, 0, [38923]⟩ .leaf) ⟨64204, 0, 0, [38971]⟩ .leaf) ⟨64205, 0, 0, [39698]⟩ (.node (.node .leaf ⟨64206, 0, 0, [40860]⟩ .leaf) ⟨64207, 0, 0, [141386]⟩ .leaf))) ⟨64208, 0, 0, [141380]⟩ (.node (.node (.node (.node .leaf ⟨64209, 0, 0, [144341]⟩ .leaf) ⟨64210, 0, 0, [15261]⟩ (.node .leaf ⟨64211, 0, 0, [16408]⟩ .leaf)) ⟨64212, 0, 0, [16441]⟩ (.node (.node .leaf ⟨64213, 0, 0, [152137]⟩ .leaf) ⟨64214, 0, 0, [154832]⟩ .leaf)) ⟨64215, 0, 0, [163539]⟩ (.node (.node (.node .leaf ⟨64216, 0, 0, [40771]⟩ .leaf) ⟨64217, 0, 0, [40846]⟩ .leaf) ⟨64256, 0, 1, [102, 102]⟩ (.node (.node .leaf ⟨64257, 0, 1, [102, 105]⟩ .leaf) ⟨64258, 0, 1, [102, 108]⟩ .leaf)))) ⟨64259, 0, 1, [102, 102, 105]⟩ (.node (.node (.node (.node (.node .leaf ⟨64260, 0, 1, [102, 102, 108]⟩ .leaf) ⟨64261, 0, 1, [383, 116]⟩ (.node .leaf ⟨64262, 0, 1, [115, 116]⟩ .leaf)) ⟨64275, 0, 1, [1396, 1398]⟩ (.node (.node .leaf ⟨64276, 0, 1, [1396, 1381]⟩ .leaf) ⟨64277, 0, 1, [1396, 1387]⟩ .leaf)) ⟨64278, 0, 1, [1406, 1398]⟩ (.node (.node (.node .leaf ⟨64279, 0, 1, [1396, 1389]⟩ .leaf) ⟨64285, 0, 0, [1497, 1460]⟩ .leaf) ⟨64286, 26, 0, []⟩ (.node (.node .leaf ⟨64287, 0, 0, [1522, 1463]⟩ .leaf) ⟨64288, 0, 2, [1506]⟩ .leaf))) ⟨64289, 0, 2, [1488]⟩ (.node (.node (.node (.node .leaf ⟨64290, 0, 2, [1491]⟩ .leaf) ⟨64291, 0, 2, [1492]⟩ .leaf) ⟨64292, 0, 2, [1499]⟩ (.node (.node .leaf ⟨64293, 0, 2, [1500]⟩ .leaf) ⟨64294, 0, 2, [1501]⟩ .leaf)) ⟨64295, 0, 2, [1512]⟩ (.node (.node (.node .leaf ⟨64296, 0, 2, [1514]⟩ .leaf) ⟨64297, 0, 2, [43]⟩ .leaf) ⟨64298, 0, 0, [1513, 1473]⟩ (.node (.node .leaf ⟨64299, 0, 0, [1513, 1474]⟩ .leaf) ⟨64300, 0, 0, [64329, 1473]⟩ .leaf)))))

/-- Rows of Data/Ucd.lean (proof aid). -/
def ucdT68 : Tree UcdRow := (.node (.node (.node (.node (.node (.node .leaf ⟨64302, 0, 0, [1488, 1463]⟩ .leaf) ⟨64303, 0, 0, [1488, 1464]⟩ (.node .leaf ⟨64304, 0, 0, [1488, 1468]⟩ .leaf)) ⟨64305, 0, 0, [1489, 1468]⟩ (.node (.node .leaf ⟨64306, 0, 0, [1490, 1468]⟩ .leaf) ⟨64307, 0, 0, [1491, 1468]⟩ .leaf)) ⟨64308, 0, 0, [1492, 1468]⟩ (.node (.node (.node .leaf ⟨64309, 0, 0, [1493, 1468]⟩ .leaf) ⟨64310, 0, 0, [1494, 1468]⟩ .leaf) ⟨64312, 0, 0, [1496, 1468]⟩ (.node (.node .leaf ⟨64313, 0, 0, [1497, 1468]⟩ .leaf) ⟨64314, 0, 0, [1498, 1468]⟩ .leaf))) ⟨64315, 0, 0, [1499, 1468]⟩ (.node (.node (.node (.node .leaf ⟨64316, 0, 0, [1500, 1468]⟩ .leaf) ⟨64318, 0, 0, [1502, 1468]⟩ (.node .leaf ⟨64320, 0, 0, [1504, 1468]⟩ .leaf)) ⟨64321, 0, 0, [1505, 1468]⟩ (.node (.node .leaf ⟨64323, 0, 0, [1507, 1468]⟩ .leaf) ⟨64324, 0, 0, [1508, 1468]⟩ .leaf)) ⟨64326, 0, 0, [1510, 1468]⟩ (.node (.node (.node .leaf ⟨64327, 0, 0, [1511, 1468]⟩ .leaf) ⟨64328, 0, 0, [1512, 1468]⟩ .leaf) ⟨64329, 0, 0, [1513, 1468]⟩ (.node (.node .leaf ⟨64330, 0, 0, [1514, 1468]⟩ .leaf) ⟨64331, 0, 0, [1493, 1465]⟩ .leaf)))) ⟨64332, 0, 0, [1489, 1471]⟩ (.node (.node (.node (.node (.node .leaf ⟨64333, 0, 0, [1499, 1471]⟩ .leaf) ⟨64334, 0, 0, [1508, 1471]⟩ (.node .leaf ⟨64335, 0, 1, [1488, 1500]⟩ .leaf)) ⟨64336, 0, 2, [1649]⟩ (.node (.node .leaf ⟨64337, 0, 2, [1649]⟩ .leaf) ⟨64338, 0, 2, [1659]⟩ .leaf)) ⟨64339, 0, 2, [1659]⟩ (.node (.node (.node .leaf ⟨64340, 0, 2, [1659]⟩ .leaf) ⟨64341, 0, 2, [1659]⟩ .leaf) ⟨64342, 0, 2, [1662]⟩ (.node (.node .leaf ⟨64343, 0, 2, [1662]⟩ .leaf) ⟨64344, 0, 2, [1662]⟩ .leaf))) ⟨64345, 0, 2, [1662]⟩ (.node (.node (.node (.node .leaf ⟨64346, 0, 2, [1664]⟩ .leaf) ⟨64347, 0, 2, [1664]⟩ .leaf) ⟨64348, 0, 2, [1664]⟩ (.node (.node .leaf ⟨64349, 0, 2, [1664]⟩ .leaf) ⟨64350, 0, 2, [1658]⟩ .leaf)) ⟨64351, 0, 2, [1658]⟩ (.node (.node (.node .leaf ⟨64352, 0, 2, [1658]⟩ .leaf) ⟨64353, 0, 2, [1658]⟩ .leaf) ⟨64354, 0, 2, [1663]⟩ (.node (.node .leaf ⟨64355, 0, 2, [1663]⟩ .leaf) ⟨64356, 0, 2, [1663]⟩ .leaf)))))

/-- Rows of Data/Ucd.lean (proof aid). -/
def ucdT69 : Tree UcdRow := (.node (.node (.node (.node (.node (.node .leaf ⟨64358, 0, 2, [1657]⟩ .leaf) ⟨64359, 0, 2, [1657]⟩ (.node .leaf ⟨64360, 0, 2, [1657]⟩ .leaf)) ⟨64361, 0, 2, [1657]⟩ (.node (.node .leaf ⟨64362, 0, 2, [1700]⟩ .leaf) ⟨64363, 0, 2, [1700]⟩ .leaf)) ⟨64364, 0, 2, [1700]⟩ (.node (.node (.node .leaf ⟨64365, 0, 2, [1700]⟩ .leaf) ⟨64366, 0, 2, [1702]⟩ .leaf) ⟨64367, 0, 2, [1702]⟩ (.node (.node .leaf ⟨64368, 0, 2, [1702]⟩ .leaf) ⟨64369, 0, 2, [1702]⟩ .leaf))) ⟨64370, 0, 2, [1668]⟩ (.node (.node (.node (.node .leaf ⟨64371, 0, 2, [1668]⟩ .leaf) ⟨64372, 0, 2, [1668]⟩ (.node .leaf ⟨64373, 0, 2, [1668]⟩ .leaf)) ⟨64374, 0, 2, [1667]⟩ (.node (.node .leaf ⟨64375, 0, 2, [1667]⟩ .leaf) ⟨64376, 0, 2, [1667]⟩ .leaf)) ⟨64377, 0, 2, [1667]⟩ (.node (.node (.node .leaf ⟨64378, 0, 2, [1670]⟩ .leaf) ⟨64379, 0, 2, [1670]⟩ .leaf) ⟨64380, 0, 2, [1670]⟩ (.node (.node .leaf ⟨64381, 0, 2, [1670]⟩ .leaf) ⟨64382, 0, 2, [1671]⟩ .leaf)))) ⟨64383, 0, 2, [1671]⟩ (.node (.node (.node (.node (.node .leaf ⟨64384, 0, 2, [1671]⟩ .leaf) ⟨64385, 0, 2, [1671]⟩ (.node .leaf ⟨64386, 0, 2, [1677]⟩ .leaf)) ⟨64387, 0, 2, [1677]⟩ (.node (.node .leaf ⟨64388, 0, 2, [1676]⟩ .leaf) ⟨64389, 0, 2, [1676]⟩ .leaf)) ⟨64390, 0, 2, [1678]⟩ (.node (.node (.node .leaf ⟨64391, 0, 2, [1678]⟩ .leaf) ⟨64392, 0, 2, [1672]⟩ .leaf) ⟨64393, 0, 2, [1672]⟩ (.node (.node .leaf ⟨64394, 0, 2, [1688]⟩ .leaf) ⟨64395, 0, 2, [1688]⟩ .leaf))) ⟨64396, 0, 2, [1681]⟩ (.node (.node (.node (.node .leaf ⟨64397, 0, 2, [1681]⟩ .leaf) ⟨64398, 0, 2, [1705]⟩ .leaf) ⟨64399, 0, 2, [1705]⟩ (.node (.node .leaf ⟨64400, 0, 2, [1705]⟩ .leaf) ⟨64401, 0, 2, [1705]⟩ .leaf)) ⟨64402, 0, 2, [1711]⟩ (.node (.node (.node .leaf ⟨64403, 0, 2, [1711]⟩ .leaf) ⟨64404, 0, 2, [1711]⟩ .leaf) ⟨64405, 0, 2, [1711]⟩ (.node (.node .leaf ⟨64406, 0, 2, [1715]⟩ .leaf) ⟨64407, 0, 2, [1715]⟩ .leaf)))))

/-- Rows of Data/Ucd.lean (proof aid). -/
def ucdT70 : Tree UcdRow := (.node (.node (.node (.node (.node (.node .leaf ⟨64409, 0, 2, [1715]⟩ .leaf) ⟨64410, 0, 2, [1713]⟩ (.node .leaf ⟨64411, 0, 2, [1713]⟩ .leaf)) ⟨64412, 0, 2, [1713]⟩ (.node (.node .leaf ⟨64413, 0, 2, [1713]⟩ .leaf) ⟨64414, 0, 2, [1722]⟩ .leaf)) ⟨64415, 0, 2, [1722]⟩ (.node (.node (.node .leaf ⟨64416, 0, 2, [1723]⟩ .leaf) ⟨64417, 0, 2, [1723]⟩ .leaf) ⟨64418, 0, 2, [1723]⟩ (.node (.node .leaf ⟨64419, 0, 2, [1723]⟩ .leaf) ⟨64420, 0, 2, [1728]⟩ .leaf))) ⟨64421, 0, 2, [1728]⟩ (.node (.node (.node (.node .leaf ⟨64422, 0, 2, [1729]⟩ .leaf) ⟨64423, 0, 2, [1729]⟩ (.node .leaf ⟨64424, 0, 2, [1729]⟩ .leaf)) ⟨64425, 0, 2, [1729]⟩ (.node (.node .leaf ⟨64426, 0, 2, [1726]⟩ .leaf) ⟨64427, 0, 2, [1726]⟩ .leaf)) ⟨64428, 0, 2, [1726]⟩ (.node (.node (.node .leaf ⟨64429, 0, 2, [1726]⟩ .leaf) ⟨64430, 0, 2, [1746]⟩ .leaf) ⟨64431, 0, 2, [1746]⟩ (.node (.node .leaf ⟨64432, 0, 2, [1747]⟩ .leaf) ⟨64433, 0, 2, [1747]⟩ .leaf)))) ⟨64467, 0, 2, [1709]⟩ (.node (.node (.node (.node (.node .leaf ⟨64468, 0, 2, [1709]⟩ .leaf) ⟨64469, 0, 2, [1709]⟩ (.node .leaf ⟨64470, 0, 2, [1709]⟩ .leaf)) ⟨64471, 0, 2, [1735]⟩ (.node (.node .leaf ⟨64472, 0, 2, [1735]⟩ .leaf) ⟨64473, 0, 2, [1734]⟩ .leaf)) ⟨64474, 0, 2, [1734]⟩ (.node (.node (.node .leaf ⟨64475, 0, 2, [1736]⟩ .leaf) ⟨64476, 0, 2, [1736]⟩ .leaf) ⟨64477, 0, 2, [1655]⟩ (.node (.node .leaf ⟨64478, 0, 2, [1739]⟩ .leaf) ⟨64479, 0, 2, [1739]⟩ .leaf))) ⟨64480, 0, 2, [1733]⟩ (.node (.node (.node (.node .leaf ⟨64481, 0, 2, [1733]⟩ .leaf) ⟨64482, 0, 2, [1737]⟩ .leaf) ⟨64483, 0, 2, [1737]⟩ (.node (.node .leaf ⟨64484, 0, 2, [1744]⟩ .leaf) ⟨64485, 0, 2, [1744]⟩ .leaf)) ⟨64486, 0, 2, [1744]⟩ (.node (.node (.node .leaf ⟨64487, 0, 2, [1744]⟩ .leaf) ⟨64488, 0, 2, [1609]⟩ .leaf) ⟨64489, 0, 2, [1609]⟩ (.node (.node .leaf ⟨64490, 0, 2, [1574, 1575]⟩ .leaf) ⟨64491, 0, 2, [1574, 1575]⟩ .leaf)))))

/-- Rows of Data/Ucd.lean (proof aid). -/
def ucdT71 : Tree UcdRow := (.node (.node (.node (.node (.node (.node .leaf ⟨64493, 0, 2, [1574, 1749]⟩ .leaf) ⟨64494, 0, 2, [1574, 1608]⟩ (.node .leaf ⟨64495, 0, 2, [1574, 1608]⟩ .leaf)) ⟨64496, 0, 2, [1574, 1735]⟩ (.node (.node .leaf ⟨64497, 0, 2, [1574, 1735]⟩ .leaf) ⟨64498, 0, 2, [1574, 1734]⟩ .leaf)) ⟨64499, 0, 2, [1574, 1734]⟩ (.node (.node (.node .leaf ⟨64500, 0, 2, [1574, 1736]⟩ .leaf) ⟨64501, 0, 2, [1574, 1736]⟩ .leaf) ⟨64502, 0, 2, [1574, 1744]⟩ (.node (.node .leaf ⟨64503, 0, 2, [1574, 1744]⟩ .leaf) ⟨64504, 0, 2, [1574, 1744]⟩ .leaf))) ⟨64505, 0, 2, [1574, 1609]⟩ (.node (.node (.node (.node .leaf ⟨64506, 0, 2, [1574, 1609]⟩ .leaf) ⟨64507, 0, 2, [1574, 1609]⟩ (.node .leaf ⟨64508, 0, 2, [1740]⟩ .leaf)) ⟨64509, 0, 2, [1740]⟩ (.node (.node .leaf ⟨64510, 0, 2, [1740]⟩ .leaf) ⟨64511, 0, 2, [1740]⟩ .leaf)) ⟨64512, 0, 2, [1574, 1580]⟩ (.node (.node (.node .leaf ⟨64513, 0, 2, [1574, 1581]⟩ .leaf) ⟨64514, 0, 2, [1574, 1605]⟩ .leaf) ⟨64515, 0, 2, [1574, 1609]⟩ (.node (.node .leaf ⟨64516, 0, 2, [1574, 1610]⟩ .leaf) ⟨64517, 0, 2, [1576, 1580]⟩ .leaf)))) ⟨64518, 0, 2, [1576, 1581]⟩ (.node (.node (.node (.node (.node .leaf ⟨64519, 0, 2, [1576, 1582]⟩ .leaf) ⟨64520, 0, 2, [1576, 1605]⟩ (.node .leaf ⟨64521, 0, 2, [1576, 1609]⟩ .leaf)) ⟨64522, 0, 2, [1576, 1610]⟩ (.node (.node .leaf ⟨64523, 0, 2, [1578, 1580]⟩ .leaf) ⟨64524, 0, 2, [1578, 1581]⟩ .leaf)) ⟨64525, 0, 2, [1578, 1582]⟩ (.node (.node (.node .leaf ⟨64526, 0, 2, [1578, 1605]⟩ .leaf) ⟨64527, 0, 2, [1578, 1609]⟩ .leaf) ⟨64528, 0, 2, [1578, 1610]⟩ (.node (.node .leaf ⟨64529, 0, 2, [1579, 1580]⟩ .leaf) ⟨64530, 0, 2, [1579, 1605]⟩ .leaf))) ⟨64531, 0, 2, [1579, 1609]⟩ (.node (.node (.node (.node .leaf ⟨64532, 0, 2, [1579, 1610]⟩ .leaf) ⟨64533, 0, 2, [1580, 1581]⟩ .leaf) ⟨64534, 0, 2, [1580, 1605]⟩ (.node (.node .leaf ⟨64535, 0, 2, [1581, 1580]⟩ .leaf) ⟨64536, 0, 2, [1581, 1605]⟩ .leaf)) ⟨64537, 0, 2, [1582, 1580]⟩ (.node (.node (.node .leaf ⟨64538, 0, 2, [1582, 1581]⟩ .leaf) ⟨64539, 0, 2, [1582, 1605]⟩ .leaf) ⟨64540, 0, 2, [1587, 1580]⟩ (.node (.node .leaf ⟨64541, 0, 2, [1587, 1581]⟩ .leaf) ⟨64542, 0, 2, [1587, 1582]⟩ .leaf)))))

/-- Rows of Data/Ucd.lean (proof aid). -/
def ucdT72 : Tree UcdRow := (.node (.node (.node (.node (.node (.node .leaf ⟨64544, 0, 2, [1589, 1581]⟩ .leaf) ⟨64545, 0, 2, [1589, 1605]⟩ (.node .leaf ⟨64546, 0, 2, [1590, 1580]⟩ .leaf)) ⟨64547, 0, 2, [1590, 1581]⟩ (.node (.node .leaf ⟨64548, 0, 2, [1590, 1582]⟩ .leaf) ⟨64549, 0, 2, [1590, 1605]⟩ .leaf)) ⟨64550, 0, 2, [1591, 1581]⟩ (.node (.node (.node .leaf ⟨64551, 0, 2, [1591, 1605]⟩ .leaf) ⟨64552, 0, 2, [1592, 1605]⟩ .leaf) ⟨64553, 0, 2, [1593, 1580]⟩ (.node (.node .leaf ⟨64554, 0, 2, [1593, 1605]⟩ .leaf) ⟨64555, 0, 2, [1594, 1580]⟩ .leaf))) ⟨64556, 0, 2, [1594, 1605]⟩ (.node (.node (.node (.node .leaf ⟨64557, 0, 2, [1601, 1580]⟩ .leaf) ⟨64558, 0, 2, [1601, 1581]⟩ (.node .leaf ⟨64559, 0, 2, [1601, 1582]⟩ .leaf)) ⟨64560, 0, 2, [1601, 1605]⟩ (.node (.node .leaf ⟨64561, 0, 2, [1601, 1609]⟩ .leaf) ⟨64562, 0, 2, [1601, 1610]⟩ .leaf)) ⟨64563, 0, 2, [1602, 1581]⟩ (.node (.node (.node .leaf ⟨64564, 0, 2, [1602, 1605]⟩ .leaf) ⟨64565, 0, 2, [1602, 1609]⟩ .leaf) ⟨64566, 0, 2, [1602, 1610]⟩ (.node (.node .leaf ⟨64567, 0, 2, [1603, 1575]⟩ .leaf) ⟨64568, 0, 2, [1603, 1580]⟩ .leaf)))) ⟨64569, 0, 2, [1603, 1581]⟩ (.node (.node (.node (.node (.node .leaf ⟨64570, 0, 2, [1603, 1582]⟩ .leaf) ⟨64571, 0, 2, [1603, 1604]⟩ (.node .leaf ⟨64572, 0, 2, [1603, 1605]⟩ .leaf)) ⟨64573, 0, 2, [1603, 1609]⟩ (.node (.node .leaf ⟨64574, 0, 2, [1603, 1610]⟩ .leaf) ⟨64575, 0, 2, [1604, 1580]⟩ .leaf)) ⟨64576, 0, 2, [1604, 1581]⟩ (.node (.node (.node .leaf ⟨64577, 0, 2, [1604, 1582]⟩ .leaf) ⟨64578, 0, 2, [1604, 1605]⟩ .leaf) ⟨64579, 0, 2, [1604, 1609]⟩ (.node (.node .leaf ⟨64580, 0, 2, [1604, 1610]⟩ .leaf) ⟨64581, 0, 2, [1605, 1580]⟩ .leaf))) ⟨64582, 0, 2, [1605, 1581]⟩ (.node (.node (.node (.node .leaf ⟨64583, 0, 2, [1605, 1582]⟩ .leaf) ⟨64584, 0, 2, [1605, 1605]⟩ .leaf) ⟨64585, 0, 2, [1605, 1609]⟩ (.node (.node .leaf ⟨64586, 0, 2, [1605, 1610]⟩ .leaf) ⟨64587, 0, 2, [1606, 1580]⟩ .leaf)) ⟨64588, 0, 2, [1606, 1581]⟩ (.node (.node (.node .leaf ⟨64589, 0, 2, [1606, 1582]⟩ .leaf) ⟨64590, 0, 2, [1606, 1605]⟩ .leaf) ⟨64591, 0, 2, [1606, 1609]⟩ (.node (.node .leaf ⟨64592, 0, 2, [1606, 1610]⟩ .leaf) ⟨64593, 0, 2, [1607, 1580]⟩ .leaf)))))

/-- Rows of Data/Ucd.lean (proof aid). -/
def ucdT73 : Tree UcdRow := (.node (.node (.node (.node (.node (.node .leaf ⟨64595, 0, 2, [1607, 1609]⟩ .leaf) ⟨64596, 0, 2, [1607, 1610]⟩ (.node .leaf ⟨64597, 0, 2, [1610, 1580]⟩ .leaf)) ⟨64598, 0, 2, [1610, 1581]⟩ (.node (.node .leaf ⟨64599, 0, 2, [1610, 1582]⟩ .leaf) ⟨64600, 0, 2, [1610, 1605]⟩ .leaf)) ⟨64601, 0, 2, [1610, 1609]⟩ (.node (.node (.node .leaf ⟨64602, 0, 2, [1610, 1610]⟩ .leaf) ⟨64603, 0, 2, [1584, 1648]⟩ .leaf) ⟨64604, 0, 2, [1585, 1648]⟩ (.node (.node .leaf ⟨64605, 0, 2, [1609, 1648]⟩ .leaf) ⟨64606, 0, 2, [32, 1612, 1617]⟩ .leaf))) ⟨64607, 0, 2, [32, 1613, 1617]⟩ (.node (.node (.node (.node .leaf ⟨64608, 0, 2, [32, 1614, 1617]⟩ .leaf) ⟨64609, 0, 2, [32, 1615, 1617]⟩ (.node .leaf ⟨64610, 0, 2, [32, 1616, 1617]⟩ .leaf)) ⟨64611, 0, 2, [32, 1617, 1648]⟩ (.node (.node .leaf ⟨64612, 0, 2, [1574, 1585]⟩ .leaf) ⟨64613, 0, 2, [1574, 1586]⟩ .leaf)) ⟨64614, 0, 2, [1574, 1605]⟩ (.node (.node (.node .leaf ⟨64615, 0, 2, [1574, 1606]⟩ .leaf) ⟨64616, 0, 2, [1574, 1609]⟩ .leaf) ⟨64617, 0, 2, [1574, 1610]⟩ (.node (.node .leaf ⟨64618, 0, 2, [1576, 1585]⟩ .leaf) ⟨64619, 0, 2, [1576, 1586]⟩ .leaf)))) ⟨64620, 0, 2, [1576, 1605]⟩ (.node (.node (.node (.node (.node .leaf ⟨64621, 0, 2, [1576, 1606]⟩ .leaf) ⟨64622, 0, 2, [1576, 1609]⟩ (.node .leaf ⟨64623, 0, 2, [1576, 1610]⟩ .leaf)) ⟨64624, 0, 2, [1578, 1585]⟩ (.node (.node .leaf ⟨64625, 0, 2, [1578, 1586]⟩ .leaf) ⟨64626, 0, 2, [1578, 1605]⟩ .leaf)) ⟨64627, 0, 2, [1578, 1606]⟩ (.node (.node (.node .leaf ⟨64628, 0, 2, [1578, 1609]⟩ .leaf) ⟨64629, 0, 2, [1578, 1610]⟩ .leaf) ⟨64630, 0, 2, [1579, 1585]⟩ (.node (.node .leaf ⟨64631, 0, 2, [1579, 1586]⟩ .leaf) ⟨64632, 0, 2, [1579, 1605]⟩ .leaf))) ⟨64633, 0, 2, [1579, 1606]⟩ (.node (.node (.node (.node .leaf ⟨64634, 0, 2, [1579, 1609]⟩ .leaf) ⟨64635, 0, 2, [1579, 1610]⟩ .leaf) ⟨64636, 0, 2, [1601, 1609]⟩ (.node (.node .leaf ⟨64637, 0, 2, [1601, 1610]⟩ .leaf) ⟨64638, 0, 2, [1602, 1609]⟩ .leaf)) ⟨64639, 0, 2, [1602, 1610]⟩ (.node (.node (.node .leaf ⟨64640, 0, 2, [1603, 1575]⟩ .leaf) ⟨64641, 0, 2, [1603, 1604]⟩ .leaf) ⟨64642, 0, 2, [1603, 1605]⟩ (.node (.node .leaf ⟨64643, 0, 2, [1603, 1609]⟩ .leaf) ⟨64644, 0, 2, [1603, 1610]⟩ .leaf)))))

/-- Rows of Data/Ucd.lean (proof aid). -/
def ucdT74 : Tree UcdRow := (.node (.node (.node (.node (.node (.node .leaf ⟨64646, 0, 2, [1604, 1609]⟩ .leaf) ⟨64647, 0, 2, [1604, 1610]⟩ (.node .leaf ⟨64648, 0, 2, [1605, 1575]⟩ .leaf)) ⟨64649, 0, 2, [1605, 1605]⟩ (.node (.node .leaf ⟨64650, 0, 2, [1606, 1585]⟩ .leaf) ⟨64651, 0, 2, [1606, 1586]⟩ .leaf)) ⟨64652, 0, 2, [1606, 1605]⟩ (.node (.node (.node .leaf ⟨64653, 0, 2, [1606, 1606]⟩ .leaf) ⟨64654, 0, 2, [1606, 1609]⟩ .leaf) ⟨64655, 0, 2, [1606, 1610]⟩ (.node (.node .leaf ⟨64656, 0, 2, [1609, 1648]⟩ .leaf) ⟨64657, 0, 2, [1610, 1585]⟩ .leaf))) ⟨64658, 0, 2, [1610, 1586]⟩ (.node (.node (.node (.node .leaf ⟨64659, 0, 2, [1610, 1605]⟩ .leaf) ⟨64660, 0, 2, [1610, 1606]⟩ (.node .leaf ⟨64661, 0, 2, [1610, 1609]⟩ .leaf)) ⟨64662, 0, 2, [1610, 1610]⟩ (.node (.node .leaf ⟨64663, 0, 2, [1574, 1580]⟩ .leaf) ⟨64664, 0, 2, [1574, 1581]⟩ .leaf)) ⟨64665, 0, 2, [1574, 1582]⟩ (.node (.node (.node .leaf ⟨64666, 0, 2, [1574, 1605]⟩ .leaf) ⟨64667, 0, 2, [1574, 1607]⟩ .leaf) ⟨64668, 0, 2, [1576, 1580]⟩ (.node (.node .leaf ⟨64669, 0, 2, [1576, 1581]⟩ .leaf) ⟨64670, 0, 2, [1576, 1582]⟩ .leaf)))) ⟨64671, 0, 2, [1576, 1605]⟩ (.node (.node (.node (.node (.node .leaf ⟨64672, 0, 2, [1576, 1607]⟩ .leaf) ⟨64673, 0, 2, [1578, 1580]⟩ (.node .leaf ⟨64674, 0, 2, [1578, 1581]⟩ .leaf)) ⟨64675, 0, 2, [1578, 1582]⟩ (.node (.node .leaf ⟨64676, 0, 2, [1578, 1605]⟩ .leaf) ⟨64677, 0, 2, [1578, 1607]⟩ .leaf)) ⟨64678, 0, 2, [1579, 1605]⟩ (.node (.node (.node .leaf ⟨64679, 0, 2, [1580, 1581]⟩ .leaf) ⟨64680, 0, 2, [1580, 1605]⟩ .leaf) ⟨64681, 0, 2, [1581, 1580]⟩ (.node (.node .leaf ⟨64682, 0, 2, [1581, 1605]⟩ .leaf) ⟨64683, 0, 2, [1582, 1580]⟩ .leaf))) ⟨64684, 0, 2, [1582, 1605]⟩ (.node (.node (.node (.node .leaf ⟨64685, 0, 2, [1587, 1580]⟩ .leaf) ⟨64686, 0, 2, [1587, 1581]⟩ .leaf) ⟨64687, 0, 2, [1587, 1582]⟩ (.node (.node .leaf ⟨64688, 0, 2, [1587, 1605]⟩ .leaf) ⟨64689, 0, 2, [1589, 1581]⟩ .leaf)) ⟨64690, 0, 2, [1589, 1582]⟩ (.node (.node (.node .leaf ⟨64691, 0, 2, [1589, 1605]⟩ .leaf) ⟨64692, 0, 2, [1590, 1580]⟩ .leaf) ⟨64693, 0, 2, [1590, 1581]⟩ (.node (.node .leaf ⟨64694, 0, 2, [1590, 1582]⟩ .leaf) ⟨64695, 0, 2, [1590, 1605]⟩ .leaf)))))

/-- Rows of Data/Ucd.lean (proof aid). -/
def ucdT75 : Tree UcdRow := (.node (.node (.node (.node (.node (.node .leaf ⟨64697, 0, 2, [1592, 1605]⟩ .leaf) ⟨64698, 0, 2, [1593, 1580]⟩ (.node .leaf ⟨64699, 0, 2, [1593, 1605]⟩ .leaf)) ⟨64700, 0, 2, [1594, 1580]⟩ (.node (.node .leaf ⟨64701, 0, 2, [1594, 1605]⟩ .leaf) ⟨64702, 0, 2, [1601, 1580]⟩ .leaf)) ⟨64703, 0, 2, [1601, 1581]⟩ (.node (.node (.node .leaf ⟨64704, 0, 2, [1601, 1582]⟩ .leaf) ⟨64705, 0, 2, [1601, 1605]⟩ .leaf) ⟨64706, 0, 2, [1602, 1581]⟩ (.node (.node .leaf ⟨64707, 0, 2, [1602, 1605]⟩ .leaf) ⟨64708, 0, 2, [1603, 1580]⟩ .leaf))) ⟨64709, 0, 2, [1603, 1581]⟩ (.node (.node (.node (.node .leaf ⟨64710, 0, 2, [1603, 1582]⟩ .leaf) ⟨64711, 0, 2, [1603, 1604]⟩ (.node .leaf ⟨64712, 0, 2, [1603, 1605]⟩ .leaf)) ⟨64713, 0, 2, [1604, 1580]⟩ (.node (.node .leaf ⟨64714, 0, 2, [1604, 1581]⟩ .leaf) ⟨64715, 0, 2, [1604, 1582]⟩ .leaf)) ⟨64716, 0, 2, [1604, 1605]⟩ (.node (.node (.node .leaf ⟨64717, 0, 2, [1604, 1607]⟩ .leaf) ⟨64718, 0, 2, [1605, 1580]⟩ .leaf) ⟨64719, 0, 2, [1605, 1581]⟩ (.node (.node .leaf ⟨64720, 0, 2, [1605, 1582]⟩ .leaf) ⟨64721, 0, 2, [1605, 1605]⟩ .leaf)))) ⟨64722, 0, 2, [1606, 1580]⟩ (.node (.node (.node (.node (.node .leaf ⟨64723, 0, 2, [1606, 1581]⟩ .leaf) ⟨64724, 0, 2, [1606, 1582]⟩ (.node .leaf ⟨64725, 0, 2, [1606, 1605]⟩ .leaf)) ⟨64726, 0, 2, [1606, 1607]⟩ (.node (.node .leaf ⟨64727, 0, 2, [1607, 1580]⟩ .leaf) ⟨64728, 0, 2, [1607, 1605]⟩ .leaf)) ⟨64729, 0, 2, [1607, 1648]⟩ (.node (.node (.node .leaf ⟨64730, 0, 2, [1610, 1580]⟩ .leaf) ⟨64731, 0, 2, [1610, 1581]⟩ .leaf) ⟨64732, 0, 2, [1610, 1582]⟩ (.node (.node .leaf ⟨64733, 0, 2, [1610, 1605]⟩ .leaf) ⟨64734, 0, 2, [1610, 1607]⟩ .leaf))) ⟨64735, 0, 2, [1574, 1605]⟩ (.node (.node (.node (.node .leaf ⟨64736, 0, 2, [1574, 1607]⟩ .leaf) ⟨64737, 0, 2, [1576, 1605]⟩ .leaf) ⟨64738, 0, 2, [1576, 1607]⟩ (.node (.node .leaf ⟨64739, 0, 2, [1578, 1605]⟩ .leaf) ⟨64740, 0, 2, [1578, 1607]⟩ .leaf)) ⟨64741, 0, 2, [1579, 1605]⟩ (.node (.node (.node .leaf ⟨64742, 0, 2, [1579, 1607]⟩ .leaf) ⟨64743, 0, 2, [1587, 1605]⟩ .leaf) ⟨64744, 0, 2, [1587, 1607]⟩ (.node (.node .leaf ⟨64745, 0, 2, [1588, 1605]⟩ .leaf) ⟨64746, 0, 2, [1588, 1607]⟩ .leaf)))))

/-- Rows of Data/Ucd.lean (proof aid). -/
def ucdT76 : Tree UcdRow := (.node (.node (.node (.node (.node (.node .leaf ⟨64748, 0, 2, [1603, 1605]⟩ .leaf) ⟨64749, 0, 2, [1604, 1605]⟩ (.node .leaf ⟨64750, 0, 2, [1606, 1605]⟩ .leaf)) ⟨64751, 0, 2, [1606, 1607]⟩ (.node (.node .leaf ⟨64752, 0, 2, [1610, 1605]⟩ .leaf) ⟨64753, 0, 2, [1610, 1607]⟩ .leaf)) ⟨64754, 0, 2, [1600, 1614, 1617]⟩ (.node (.node (.node .leaf ⟨64755, 0, 2, [1600, 1615, 1617]⟩ .leaf) ⟨64756, 0, 2, [1600, 1616, 1617]⟩ .leaf) ⟨64757, 0, 2, [1591, 1609]⟩ (.node (.node .leaf ⟨64758, 0, 2, [1591, 1610]⟩ .leaf) ⟨64759, 0, 2, [1593, 1609]⟩ .leaf))) ⟨64760, 0, 2, [1593, 1610]⟩ (.node (.node (.node (.node .leaf ⟨64761, 0, 2, [1594, 1609]⟩ .leaf) ⟨64762, 0, 2, [1594, 1610]⟩ (.node .leaf ⟨64763, 0, 2, [1587, 1609]⟩ .leaf)) ⟨64764, 0, 2, [1587, 1610]⟩ (.node (.node .leaf ⟨64765, 0, 2, [1588, 1609]⟩ .leaf) ⟨64766, 0, 2, [1588, 1610]⟩ .leaf)) ⟨64767, 0, 2, [1581, 1609]⟩ (.node (.node (.node .leaf ⟨64768, 0, 2, [1581, 1610]⟩ .leaf) ⟨64769, 0, 2, [1580, 1609]⟩ .leaf) ⟨64770, 0, 2, [1580, 1610]⟩ (.node (.node .leaf ⟨64771, 0, 2, [1582, 1609]⟩ .leaf) ⟨64772, 0, 2, [1582, 1610]⟩ .leaf)))) ⟨64773, 0, 2, [1589, 1609]⟩ (.node (.node (.node (.node (.node .leaf ⟨64774, 0, 2, [1589, 1610]⟩ .leaf) ⟨64775, 0, 2, [1590, 1609]⟩ (.node .leaf ⟨64776, 0, 2, [1590, 1610]⟩ .leaf)) ⟨64777, 0, 2, [1588, 1580]⟩ (.node (.node .leaf ⟨64778, 0, 2, [1588, 1581]⟩ .leaf) ⟨64779, 0, 2, [1588, 1582]⟩ .leaf)) ⟨64780, 0, 2, [1588, 1605]⟩ (.node (.node (.node .leaf ⟨64781, 0, 2, [1588, 1585]⟩ .leaf) ⟨64782, 0, 2, [1587, 1585]⟩ .leaf) ⟨64783, 0, 2, [1589, 1585]⟩ (.node (.node .leaf ⟨64784, 0, 2, [1590, 1585]⟩ .leaf) ⟨64785, 0, 2, [1591, 1609]⟩ .leaf))) ⟨64786, 0, 2, [1591, 1610]⟩ (.node (.node (.node (.node .leaf ⟨64787, 0, 2, [1593, 1609]⟩ .leaf) ⟨64788, 0, 2, [1593, 1610]⟩ .leaf) ⟨64789, 0, 2, [1594, 1609]⟩ (.node (.node .leaf ⟨64790, 0, 2, [1594, 1610]⟩ .leaf) ⟨64791, 0, 2, [1587, 1609]⟩ .leaf)) ⟨64792, 0, 2, [1587, 1610]⟩ (.node (.node (.node .leaf ⟨64793, 0, 2, [1588, 1609]⟩ .leaf) ⟨64794, 0, 2, [1588, 1610]⟩ .leaf) ⟨64795, 0, 2, [1581, 1609]⟩ (.node (.node .leaf ⟨64796, 0, 2, [1581, 1610]⟩ .leaf) ⟨64797, 0, 2, [1580, 1609]⟩ .leaf)))))

/-- Rows of Data/Ucd.lean (proof aid). -/
def ucdT77 : Tree UcdRow := (.node (.node (.node (.node (.node (.node .leaf ⟨64799, 0, 2, [1582, 1609]⟩ .leaf) ⟨64800, 0, 2, [1582, 1610]⟩ (.node .leaf ⟨64801, 0, 2, [1589, 1609]⟩ .leaf)) ⟨64802, 0, 2, [1589, 1610]⟩ (.node (.node .leaf ⟨64803, 0, 2, [1590, 1609]⟩ .leaf) ⟨64804, 0, 2, [1590, 1610]⟩ .leaf)) ⟨64805, 0, 2, [1588, 1580]⟩ (.node (.node (.node .leaf ⟨64806, 0, 2, [1588, 1581]⟩ .leaf) ⟨64807, 0, 2, [1588, 1582]⟩ .leaf) ⟨64808, 0, 2, [1588, 1605]⟩ (.node (.node .leaf ⟨64809, 0, 2, [1588, 1585]⟩ .leaf) ⟨64810, 0, 2, [1587, 1585]⟩ .leaf))) ⟨64811, 0, 2, [1589, 1585]⟩ (.node (.node (.node (.node .leaf ⟨64812, 0, 2, [1590, 1585]⟩ .leaf) ⟨64813, 0, 2, [1588, 1580]⟩ (.node .leaf ⟨64814, 0, 2, [1588, 1581]⟩ .leaf)) ⟨64815, 0, 2, [1588, 1582]⟩ (.node (.node .leaf ⟨64816, 0, 2, [1588, 1605]⟩ .leaf) ⟨64817, 0, 2, [1587, 1607]⟩ .leaf)) ⟨64818, 0, 2, [1588, 1607]⟩ (.node (.node (.node .leaf ⟨64819, 0, 2, [1591, 1605]⟩ .leaf) ⟨64820, 0, 2, [1587, 1580]⟩ .leaf) ⟨64821, 0, 2, [1587, 1581]⟩ (.node (.node .leaf ⟨64822, 0, 2, [1587, 1582]⟩ .leaf) ⟨64823, 0, 2, [1588, 1580]⟩ .leaf)))) ⟨64824, 0, 2, [1588, 1581]⟩ (.node (.node (.node (.node (.node .leaf ⟨64825, 0, 2, [1588, 1582]⟩ .leaf) ⟨64826, 0, 2, [1591, 1605]⟩ (.node .leaf ⟨64827, 0, 2, [1592, 1605]⟩ .leaf)) ⟨64828, 0, 2, [1575, 1611]⟩ (.node (.node .leaf ⟨64829, 0, 2, [1575, 1611]⟩ .leaf) ⟨64848, 0, 2, [1578, 1580, 1605]⟩ .leaf)) ⟨64849, 0, 2, [1578, 1581, 1580]⟩ (.node (.node (.node .leaf ⟨64850, 0, 2, [1578, 1581, 1580]⟩ .leaf) ⟨64851, 0, 2, [1578, 1581, 1605]⟩ .leaf) ⟨64852, 0, 2, [1578, 1582, 1605]⟩ (.node (.node .leaf ⟨64853, 0, 2, [1578, 1605, 1580]⟩ .leaf) ⟨64854, 0, 2, [1578, 1605, 1581]⟩ .leaf))) ⟨64855, 0, 2, [1578, 1605, 1582]⟩ (.node (.node (.node (.node .leaf ⟨64856, 0, 2, [1580, 1605, 1581]⟩ .leaf) ⟨64857, 0, 2, [1580, 1605, 1581]⟩ .leaf) ⟨64858, 0, 2, [1581, 1605, 1610]⟩ (.node (.node .leaf ⟨64859, 0, 2, [1581, 1605, 1609]⟩ .leaf) ⟨64860, 0, 2, [1587, 1581, 1580]⟩ .leaf)) ⟨64861, 0, 2, [1587, 1580, 1581]⟩ (.node (.node (.node .leaf ⟨64862, 0, 2, [1587, 1580, 1609]⟩ .leaf) ⟨64863, 0, 2, [1587, 1605, 1581]⟩ .leaf) ⟨64864, 0, 2, [1587, 1605, 1581]⟩ (.node (.node .leaf ⟨64865, 0, 2, [1587, 1605, 1580]⟩ .leaf) ⟨64866, 0, 2, [1587, 1605, 1605]⟩ .leaf)))))

/-- Rows of Data/Ucd.lean (proof aid). -/
def ucdT78 : Tree UcdRow := (.node (.node (.node (.node (.node (.node .leaf ⟨64868, 0, 2, [1589, 1581, 1581]⟩ .leaf) ⟨64869, 0, 2, [1589, 1581, 1581]⟩ (.node .leaf ⟨64870, 0, 2, [1589, 1605, 1605]⟩ .leaf)) ⟨64871, 0, 2, [1588, 1581, 1605]⟩ (.node (.node .leaf ⟨64872, 0, 2, [1588, 1581, 1605]⟩ .leaf) ⟨64873, 0, 2, [1588, 1580, 1610]⟩ .leaf)) ⟨64874, 0, 2, [1588, 1605, 1582]⟩ (.node (.node (.node .leaf ⟨64875, 0, 2, [1588, 1605, 1582]⟩ .leaf) ⟨64876, 0, 2, [1588, 1605, 1605]⟩ .leaf) ⟨64877, 0, 2, [1588, 1605, 1605]⟩ (.node (.node .leaf ⟨64878, 0, 2, [1590, 1581, 1609]⟩ .leaf) ⟨64879, 0, 2, [1590, 1582, 1605]⟩ .leaf))) ⟨64880, 0, 2, [1590, 1582, 1605]⟩ (.node (.node (.node (.node .leaf ⟨64881, 0, 2, [1591, 1605, 1581]⟩ .leaf) ⟨64882, 0, 2, [1591, 1605, 1581]⟩ (.node .leaf ⟨64883, 0, 2, [1591, 1605, 1605]⟩ .leaf)) ⟨64884, 0, 2, [1591, 1605, 1610]⟩ (.node (.node .leaf ⟨64885, 0, 2, [1593, 1580, 1605]⟩ .leaf) ⟨64886, 0, 2, [1593, 1605, 1605]⟩ .leaf)) ⟨64887, 0, 2, [1593, 1605, 1605]⟩ (.node (.node (.node .leaf ⟨64888, 0, 2, [1593, 1605, 1609]⟩ .leaf) ⟨64889, 0, 2, [1594, 1605, 1605]⟩ .leaf) ⟨64890, 0, 2, [1594, 1605, 1610]⟩ (.node (.node .leaf ⟨64891, 0, 2, [1594, 1605, 1609]⟩ .leaf) ⟨64892, 0, 2, [1601, 1582, 1605]⟩ .leaf)))) ⟨64893, 0, 2, [1601, 1582, 1605]⟩ (.node (.node (.node (.node (.node .leaf ⟨64894, 0, 2, [1602, 1605, 1581]⟩ .leaf) ⟨64895, 0, 2, [1602, 1605, 1605]⟩ (.node .leaf ⟨64896, 0, 2, [1604, 1581, 1605]⟩ .leaf)) ⟨64897, 0, 2, [1604, 1581, 1610]⟩ (.node (.node .leaf ⟨64898, 0, 2, [1604, 1581, 1609]⟩ .leaf) ⟨64899, 0, 2, [1604, 1580, 1580]⟩ .leaf)) ⟨64900, 0, 2, [1604, 1580, 1580]⟩ (.node (.node (.node .leaf ⟨64901, 0, 2, [1604, 1582, 1605]⟩ .leaf) ⟨64902, 0, 2, [1604, 1582, 1605]⟩ .leaf) ⟨64903, 0, 2, [1604, 1605, 1581]⟩ (.node (.node .leaf ⟨64904, 0, 2, [1604, 1605, 1581]⟩ .leaf) ⟨64905, 0, 2, [1605, 1581, 1580]⟩ .leaf))) ⟨64906, 0, 2, [1605, 1581, 1605]⟩ (.node (.node (.node (.node .leaf ⟨64907, 0, 2, [1605, 1581, 1610]⟩ .leaf) ⟨64908, 0, 2, [1605, 1580, 1581]⟩ .leaf) ⟨64909, 0, 2, [1605, 1580, 1605]⟩ (.node (.node .leaf ⟨64910, 0, 2, [1605, 1582, 1580]⟩ .leaf) ⟨64911, 0, 2, [1605, 1582, 1605]⟩ .leaf)) ⟨64914, 0, 2, [1605, 1580, 1582]⟩ (.node (.node (.node .leaf ⟨64915, 0, 2, [1607, 1605, 1580]⟩ .leaf) ⟨64916, 0, 2, [1607, 1605, 1605]⟩ .leaf) ⟨64917, 0, 2, [1606, 1581, 1605]⟩ (.node (.node .leaf ⟨64918, 0, 2, [1606, 1581, 1609]⟩ .leaf) ⟨64919, 0, 2, [1606, 1580, 1605]⟩ .leaf)))))

/-- Rows of Data/Ucd.lean (proof aid). -/
def ucdT79 : Tree UcdRow := (.node (.node (.node (.node (.node (.node .leaf ⟨64921, 0, 2, [1606, 1580, 1609]⟩ .leaf) ⟨64922, 0, 2, [1606, 1605, 1610]⟩ (.node .leaf ⟨64923, 0, 2, [1606, 1605, 1609]⟩ .leaf)) ⟨64924, 0, 2, [1610, 1605, 1605]⟩ (.node (.node .leaf ⟨64925, 0, 2, [1610, 1605, 1605]⟩ .leaf) ⟨64926, 0, 2, [1576, 1582, 1610]⟩ .leaf)) ⟨64927, 0, 2, [1578, 1580, 1610]⟩ (.node (.node (.node .leaf ⟨64928, 0, 2, [1578, 1580, 1609]⟩ .leaf) ⟨64929, 0, 2, [1578, 1582, 1610]⟩ .leaf) ⟨64930, 0, 2, [1578, 1582, 1609]⟩ (.node (.node .leaf ⟨64931, 0, 2, [1578, 1605, 1610]⟩ .leaf) ⟨64932, 0, 2, [1578, 1605, 1609]⟩ .leaf))) ⟨64933, 0, 2, [1580, 1605, 1610]⟩ (.node (.node (.node (.node .leaf ⟨64934, 0, 2, [1580, 1581, 1609]⟩ .leaf) ⟨64935, 0, 2, [1580, 1605, 1609]⟩ (.node .leaf ⟨64936, 0, 2, [1587, 1582, 1609]⟩ .leaf)) ⟨64937, 0, 2, [1589, 1581, 1610]⟩ (.node (.node .leaf ⟨64938, 0, 2, [1588, 1581, 1610]⟩ .leaf) ⟨64939, 0, 2, [1590, 1581, 1610]⟩ .leaf)) ⟨64940, 0, 2, [1604, 1580, 1610]⟩ (.node (.node (.node .leaf ⟨64941, 0, 2, [1604, 1605, 1610]⟩ .leaf) ⟨64942, 0, 2, [1610, 1581, 1610]⟩ .leaf) ⟨64943, 0, 2, [1610, 1580, 1610]⟩ (.node (.node .leaf ⟨64944, 0, 2, [1610, 1605, 1610]⟩ .leaf) ⟨64945, 0, 2, [1605, 1605, 1610]⟩ .leaf)))) ⟨64946, 0, 2, [1602, 1605, 1610]⟩ (.node (.node (.node (.node (.node .leaf ⟨64947, 0, 2, [1606, 1581, 1610]⟩ .leaf) ⟨64948, 0, 2, [1602, 1605, 1581]⟩ (.node .leaf ⟨64949, 0, 2, [1604, 1581, 1605]⟩ .leaf)) ⟨64950, 0, 2, [1593, 1605, 1610]⟩ (.node (.node .leaf ⟨64951, 0, 2, [1603, 1605, 1610]⟩ .leaf) ⟨64952, 0, 2, [1606, 1580, 1581]⟩ .leaf)) ⟨64953, 0, 2, [1605, 1582, 1610]⟩ (.node (.node (.node .leaf ⟨64954, 0, 2, [1604, 1580, 1605]⟩ .leaf) ⟨64955, 0, 2, [1603, 1605, 1605]⟩ .leaf) ⟨64956, 0, 2, [1604, 1580, 1605]⟩ (.node (.node .leaf ⟨64957, 0, 2, [1606, 1580, 1581]⟩ .leaf) ⟨64958, 0, 2, [1580, 1581, 1610]⟩ .leaf))) ⟨64959, 0, 2, [1581, 1580, 1610]⟩ (.node (.node (.node (.node .leaf ⟨64960, 0, 2, [1605, 1580, 1610]⟩ .leaf) ⟨64961, 0, 2, [1601, 1605, 1610]⟩ .leaf) ⟨64962, 0, 2, [1576, 1581, 1610]⟩ (.node (.node .leaf ⟨64963, 0, 2, [1603, 1605, 1605]⟩ .leaf) ⟨64964, 0, 2, [1593, 1580, 1605]⟩ .leaf)) ⟨64965, 0, 2, [1589, 1605, 1605]⟩ (.node (.node (.node .leaf ⟨64966, 0, 2, [1587, 1582, 1610]⟩ .leaf) ⟨64967, 0, 2, [1606, 1580, 1610]⟩ .leaf) ⟨65008, 0, 2, [1589, 1604, 1746]⟩ (.node (.node .leaf ⟨65009, 0, 2, [1602, 1604, 1746]⟩ .leaf) ⟨65010, 0, 2, [1575, 1604, 1604, 1607]⟩ .leaf)))))

/-- Rows of Data/Ucd.lean (proof aid). -/
def ucdT80 : Tree UcdRow := (.node (.node (.node (.node (.node (.node .leaf ⟨65012, 0, 2, [1605, 1581, 1605, 1583]⟩ .leaf) ⟨65013, 0, 2, [1589, 1604, 1593, 1605]⟩ (.node .leaf ⟨65014, 0, 2, [1585, 1587, 1608, 1604]⟩ .leaf)) ⟨65015, 0, 2, [1593, 1604, 1610, 1607]⟩ (.node (.node .leaf ⟨65016, 0, 2, [1608, 1587, 1604, 1605]⟩ .leaf) ⟨65017, 0, 2, [1589, 1604, 1609]⟩ .leaf)) ⟨65018, 0, 2, [1589, 1604, 1609, 32, 1575, 1604, 1604, 1607, 32, 1593, 1604, 1610, 1607, 32, 1608, 1587, 1604, 1605]⟩ (.node (.node (.node .leaf ⟨65019, 0, 2, [1580, 1604, 32, 1580, 1604, 1575, 1604, 1607]⟩ .leaf) ⟨65020, 0, 2, [1585, 1740, 1575, 1604]⟩ .leaf) ⟨65040, 0, 2, [44]⟩ (.node (.node .leaf ⟨65041, 0, 2, [12289]⟩ .leaf) ⟨65042, 0, 2, [12290]⟩ .leaf))) ⟨65043, 0, 2, [58]⟩ (.node (.node (.node (.node .leaf ⟨65044, 0, 2, [59]⟩ .leaf) ⟨65045, 0, 2, [33]⟩ (.node .leaf ⟨65046, 0, 2, [63]⟩ .leaf)) ⟨65047, 0, 2, [12310]⟩ (.node (.node .leaf ⟨65048, 0, 2, [12311]⟩ .leaf) ⟨65049, 0, 2, [8230]⟩ .leaf)) ⟨65056, 230, 0, []⟩ (.node (.node (.node .leaf ⟨65057, 230, 0, []⟩ .leaf) ⟨65058, 230, 0, []⟩ .leaf) ⟨65059, 230, 0, []⟩ (.node (.node .leaf ⟨65060, 230, 0, []⟩ .leaf) ⟨65061, 230, 0, []⟩ .leaf)))) ⟨65062, 230, 0, []⟩ (.node (.node (.node (.node (.node .leaf ⟨65063, 220, 0, []⟩ .leaf) ⟨65064, 220, 0, []⟩ (.node .leaf ⟨65065, 220, 0, []⟩ .leaf)) ⟨65066, 220, 0, []⟩ (.node (.node .leaf ⟨65067, 220, 0, []⟩ .leaf) ⟨65068, 220, 0, []⟩ .leaf)) ⟨65069, 220, 0, []⟩ (.node (.node (.node .leaf ⟨65070, 230, 0, []⟩ .leaf) ⟨65071, 230, 0, []⟩ .leaf) ⟨65072, 0, 2, [8229]⟩ (.node (.node .leaf ⟨65073, 0, 2, [8212]⟩ .leaf) ⟨65074, 0, 2, [8211]⟩ .leaf))) ⟨65075, 0, 2, [95]⟩ (.node (.node (.node (.node .leaf ⟨65076, 0, 2, [95]⟩ .leaf) ⟨65077, 0, 2, [40]⟩ .leaf) ⟨65078, 0, 2, [41]⟩ (.node (.node .leaf ⟨65079, 0, 2, [123]⟩ .leaf) ⟨65080, 0, 2, [125]⟩ .leaf)) ⟨65081, 0, 2, [12308]⟩ (.node (.node (.node .leaf ⟨65082, 0, 2, [12309]⟩ .leaf) ⟨65083, 0, 2, [12304]⟩ .leaf) ⟨65084, 0, 2, [12305]⟩ (.node (.node .leaf ⟨65085, 0, 2, [12298]⟩ .leaf) ⟨65086, 0, 2, [12299]⟩ .leaf)))))

/-- Rows of Data/Ucd.lean (proof aid). -/
def ucdT81 : Tree UcdRow := (.node (.node (.node (.node (.node (.node .leaf ⟨65088, 0, 2, [12297]⟩ .leaf) ⟨65089, 0, 2, [12300]⟩ (.node .leaf ⟨65090, 0, 2, [12301]⟩ .leaf)) ⟨65091, 0, 2, [12302]⟩ (.node (.node .leaf ⟨65092, 0, 2, [12303]⟩ .leaf) ⟨65095, 0, 2, [91]⟩ .leaf)) ⟨65096, 0, 2, [93]⟩ (.node (.node (.node .leaf ⟨65097, 0, 1, [8254]⟩ .leaf) ⟨65098, 0, 1, [8254]⟩ .leaf) ⟨65099, 0, 1, [8254]⟩ (.node (.node .leaf ⟨65100, 0, 1, [8254]⟩ .leaf) ⟨65101, 0, 1, [95]⟩ .leaf))) ⟨65102, 0, 1, [95]⟩ (.node (.node (.node (.node .leaf ⟨65103, 0, 1, [95]⟩ .leaf) ⟨65104, 0, 2, [44]⟩ (.node .leaf ⟨65105, 0, 2, [12289]⟩ .leaf)) ⟨65106, 0, 2, [46]⟩ (.node (.node .leaf ⟨65108, 0, 2, [59]⟩ .leaf) ⟨65109, 0, 2, [58]⟩ .leaf)) ⟨65110, 0, 2, [63]⟩ (.node (.node (.node .leaf ⟨65111, 0, 2, [33]⟩ .leaf) ⟨65112, 0, 2, [8212]⟩ .leaf) ⟨65113, 0, 2, [40]⟩ (.node (.node .leaf ⟨65114, 0, 2, [41]⟩ .leaf) ⟨65115, 0, 2, [123]⟩ .leaf)))) ⟨65116, 0, 2, [125]⟩ (.node (.node (.node (.node (.node .leaf ⟨65117, 0, 2, [12308]⟩ .leaf) ⟨65118, 0, 2, [12309]⟩ (.node .leaf ⟨65119, 0, 2, [35]⟩ .leaf)) ⟨65120, 0, 2, [38]⟩ (.node (.node .leaf ⟨65121, 0, 2, [42]⟩ .leaf) ⟨65122, 0, 2, [43]⟩ .leaf)) ⟨65123, 0, 2, [45]⟩ (.node (.node (.node .leaf ⟨65124, 0, 2, [60]⟩ .leaf) ⟨65125, 0, 2, [62]⟩ .leaf) ⟨65126, 0, 2, [61]⟩ (.node (.node .leaf ⟨65128, 0, 2, [92]⟩ .leaf) ⟨65129, 0, 2, [36]⟩ .leaf))) ⟨65130, 0, 2, [37]⟩ (.node (.node (.node (.node .leaf ⟨65131, 0, 2, [64]⟩ .leaf) ⟨65136, 0, 2, [32, 1611]⟩ .leaf) ⟨65137, 0, 2, [1600, 1611]⟩ (.node (.node .leaf ⟨65138, 0, 2, [32, 1612]⟩ .leaf) ⟨65140, 0, 2, [32, 1613]⟩ .leaf)) ⟨65142, 0, 2, [32, 1614]⟩ (.node (.node (.node .leaf ⟨65143, 0, 2, [1600, 1614]⟩ .leaf) ⟨65144, 0, 2, [32, 1615]⟩ .leaf) ⟨65145, 0, 2, [1600, 1615]⟩ (.node (.node .leaf ⟨65146, 0, 2, [32, 1616]⟩ .leaf) ⟨65147, 0, 2, [1600, 1616]⟩ .leaf)))))

/-- Rows of Data/Ucd.lean (proof aid). -/
def ucdT82 : Tree UcdRow := (.node (.node (.node (.node (.node (.node .leaf ⟨65149, 0, 2, [1600, 1617]⟩ .leaf) ⟨65150, 0, 2, [32, 1618]⟩ (.node .leaf ⟨65151, 0, 2, [1600, 1618]⟩ .leaf)) ⟨65152, 0, 2, [1569]⟩ (.node (.node .leaf ⟨65153, 0, 2, [1570]⟩ .leaf) ⟨65154, 0, 2, [1570]⟩ .leaf)) ⟨65155, 0, 2, [1571]⟩ (.node (.node (.node .leaf ⟨65156, 0, 2, [1571]⟩ .leaf) ⟨65157, 0, 2, [1572]⟩ .leaf) ⟨65158, 0, 2, [1572]⟩ (.node (.node .leaf ⟨65159, 0, 2, [1573]⟩ .leaf) ⟨65160, 0, 2, [1573]⟩ .leaf))) ⟨65161, 0, 2, [1574]⟩ (.node (.node (.node (.node .leaf ⟨65162, 0, 2, [1574]⟩ .leaf) ⟨65163, 0, 2, [1574]⟩ (.node .leaf ⟨65164, 0, 2, [1574]⟩ .leaf)) ⟨65165, 0, 2, [1575]⟩ (.node (.node .leaf ⟨65166, 0, 2, [1575]⟩ .leaf) ⟨65167, 0, 2, [1576]⟩ .leaf)) ⟨65168, 0, 2, [1576]⟩ (.node (.node (.node .leaf ⟨65169, 0, 2, [1576]⟩ .leaf) ⟨65170, 0, 2, [1576]⟩ .leaf) ⟨65171, 0, 2, [1577]⟩ (.node (.node .leaf ⟨65172, 0, 2, [1577]⟩ .leaf) ⟨65173, 0, 2, [1578]⟩ .leaf)))) ⟨65174, 0, 2, [1578]⟩ (.node (.node (.node (.node (.node .leaf ⟨65175, 0, 2, [1578]⟩ .leaf) ⟨65176, 0, 2, [1578]⟩ (.node .leaf ⟨65177, 0, 2, [1579]⟩ .leaf)) ⟨65178, 0, 2, [1579]⟩ (.node (.node .leaf ⟨65179, 0, 2, [1579]⟩ .leaf) ⟨65180, 0, 2, [1579]⟩ .leaf)) ⟨65181, 0, 2, [1580]⟩ (.node (.node (.node .leaf ⟨65182, 0, 2, [1580]⟩ .leaf) ⟨65183, 0, 2, [1580]⟩ .leaf) ⟨65184, 0, 2, [1580]⟩ (.node (.node .leaf ⟨65185, 0, 2, [1581]⟩ .leaf) ⟨65186, 0, 2, [1581]⟩ .leaf))) ⟨65187, 0, 2, [1581]⟩ (.node (.node (.node (.node .leaf ⟨65188, 0, 2, [1581]⟩ .leaf) ⟨65189, 0, 2, [1582]⟩ .leaf) ⟨65190, 0, 2, [1582]⟩ (.node (.node .leaf ⟨65191, 0, 2, [1582]⟩ .leaf) ⟨65192, 0, 2, [1582]⟩ .leaf)) ⟨65193, 0, 2, [1583]⟩ (.node (.node (.node .leaf ⟨65194, 0, 2, [1583]⟩ .leaf) ⟨65195, 0, 2, [1584]⟩ .leaf) ⟨65196, 0, 2, [1584]⟩ (.node (.node .leaf ⟨65197, 0, 2, [1585]⟩ .leaf) ⟨65198, 0, 2, [1585]⟩ .leaf)))))

/-- Rows of Data/Ucd.lean (proof aid). -/
def ucdT83 : Tree UcdRow := (.node (.node (.node (.node (.node (.node .leaf ⟨65200, 0, 2, [1586]⟩ .leaf) ⟨65201, 0, 2, [1587]⟩ (.node .leaf ⟨65202, 0, 2, [1587]⟩ .leaf)) ⟨65203, 0, 2, [1587]⟩ (.node (.node .leaf ⟨65204, 0, 2, [1587]⟩ .leaf) ⟨65205, 0, 2, [1588]⟩ .leaf)) ⟨65206, 0, 2, [1588]⟩ (.node (.node (.node .leaf ⟨65207, 0, 2, [1588]⟩ .leaf) ⟨65208, 0, 2, [1588]⟩ .leaf) ⟨65209, 0, 2, [1589]⟩ (.node (.node .leaf ⟨65210, 0, 2, [1589]⟩ .leaf) ⟨65211, 0, 2, [1589]⟩ .leaf))) ⟨65212, 0, 2, [1589]⟩ (.node (.node (.node (.node .leaf ⟨65213, 0, 2, [1590]⟩ .leaf) ⟨65214, 0, 2, [1590]⟩ (.node .leaf ⟨65215, 0, 2, [1590]⟩ .leaf)) ⟨65216, 0, 2, [1590]⟩ (.node (.node .leaf ⟨65217, 0, 2, [1591]⟩ .leaf) ⟨65218, 0, 2, [1591]⟩ .leaf)) ⟨65219, 0, 2, [1591]⟩ (.node (.node (.node .leaf ⟨65220, 0, 2, [1591]⟩ .leaf) ⟨65221, 0, 2, [1592]⟩ .leaf) ⟨65222, 0, 2, [1592]⟩ (.node (.node .leaf ⟨65223, 0, 2, [1592]⟩ .leaf) ⟨65224, 0, 2, [1592]⟩ .leaf)))) ⟨65225, 0, 2, [1593]⟩ (.node (.node (.node (.node (.node .leaf ⟨65226, 0, 2, [1593]⟩ .leaf) ⟨65227, 0, 2, [1593]⟩ (.node .leaf ⟨65228, 0, 2, [1593]⟩ .leaf)) ⟨65229, 0, 2, [1594]⟩ (.node (.node .leaf ⟨65230, 0, 2, [1594]⟩ .leaf) ⟨65231, 0, 2, [1594]⟩ .leaf)) ⟨65232, 0, 2, [1594]⟩ (.node (.node (.node .leaf ⟨65233, 0, 2, [1601]⟩ .leaf) ⟨65234, 0, 2, [1601]⟩ .leaf) ⟨65235, 0, 2, [1601]⟩ (.node (.node .leaf ⟨65236, 0, 2, [1601]⟩ .leaf) ⟨65237, 0, 2, [1602]⟩ .leaf))) ⟨65238, 0, 2, [1602]⟩ (.node (.node (.node (.node .leaf ⟨65239, 0, 2, [1602]⟩ .leaf) ⟨65240, 0, 2, [1602]⟩ .leaf) ⟨65241, 0, 2, [1603]⟩ (.node (.node .leaf ⟨65242, 0, 2, [1603]⟩ .leaf) ⟨65243, 0, 2, [1603]⟩ .leaf)) ⟨65244, 0, 2, [1603]⟩ (.node (.node (.node .leaf ⟨65245, 0, 2, [1604]⟩ .leaf) ⟨65246, 0, 2, [1604]⟩ .leaf) ⟨65247, 0, 2, [1604]⟩ (.node (.node .leaf ⟨65248, 0, 2, [1604]⟩ .leaf) ⟨65249, 0, 2, [1605]⟩ .leaf)))))

/-- Rows of Data/Ucd.lean (proof aid). -/
def ucdT84 : Tree UcdRow := (.node (.node (.node (.node (.node (.node .leaf ⟨65251, 0, 2, [1605]⟩ .leaf) ⟨65252, 0, 2, [1605]⟩ (.node .leaf ⟨65253, 0, 2, [1606]⟩ .leaf)) ⟨65254, 0, 2, [1606]⟩ (.node (.node .leaf ⟨65255, 0, 2, [1606]⟩ .leaf) ⟨65256, 0, 2, [1606]⟩ .leaf)) ⟨65257, 0, 2, [1607]⟩ (.node (.node (.node .leaf ⟨65258, 0, 2, [1607]⟩ .leaf) ⟨65259, 0, 2, [1607]⟩ .leaf) ⟨65260, 0, 2, [1607]⟩ (.node (.node .leaf ⟨65261, 0, 2, [1608]⟩ .leaf) ⟨65262, 0, 2, [1608]⟩ .leaf))) ⟨65263, 0, 2, [1609]⟩ (.node (.node (.node (.node .leaf ⟨65264, 0, 2, [1609]⟩ .leaf) ⟨65265, 0, 2, [1610]⟩ (.node .leaf ⟨65266, 0, 2, [1610]⟩ .leaf)) ⟨65267, 0, 2, [1610]⟩ (.node (.node .leaf ⟨65268, 0, 2, [1610]⟩ .leaf) ⟨65269, 0, 2, [1604, 1570]⟩ .leaf)) ⟨65270, 0, 2, [1604, 1570]⟩ (.node (.node (.node .leaf ⟨65271, 0, 2, [1604, 1571]⟩ .leaf) ⟨65272, 0, 2, [1604, 1571]⟩ .leaf) ⟨65273, 0, 2, [1604, 1573]⟩ (.node (.node .leaf ⟨65274, 0, 2, [1604, 1573]⟩ .leaf) ⟨65275, 0, 2, [1604, 1575]⟩ .leaf)))) ⟨65276, 0, 2, [1604, 1575]⟩ (.node (.node (.node (.node (.node .leaf ⟨65281, 0, 2, [33]⟩ .leaf) ⟨65282, 0, 2, [34]⟩ (.node .leaf ⟨65283, 0, 2, [35]⟩ .leaf)) ⟨65284, 0, 2, [36]⟩ (.node (.node .leaf ⟨65285, 0, 2, [37]⟩ .leaf) ⟨65286, 0, 2, [38]⟩ .leaf)) ⟨65287, 0, 2, [39]⟩ (.node (.node (.node .leaf ⟨65288, 0, 2, [40]⟩ .leaf) ⟨65289, 0, 2, [41]⟩ .leaf) ⟨65290, 0, 2, [42]⟩ (.node (.node .leaf ⟨65291, 0, 2, [43]⟩ .leaf) ⟨65292, 0, 2, [44]⟩ .leaf))) ⟨65293, 0, 2, [45]⟩ (.node (.node (.node (.node .leaf ⟨65294, 0, 2, [46]⟩ .leaf) ⟨65295, 0, 2, [47]⟩ .leaf) ⟨65296, 0, 2, [48]⟩ (.node (.node .leaf ⟨65297, 0, 2, [49]⟩ .leaf) ⟨65298, 0, 2, [50]⟩ .leaf)) ⟨65299, 0, 2, [51]⟩ (.node (.node (.node .leaf ⟨65300, 0, 2, [52]⟩ .leaf) ⟨65301, 0, 2, [53]⟩ .leaf) ⟨65302, 0, 2, [54]⟩ (.node (.node .leaf ⟨65303, 0, 2, [55]⟩ .leaf) ⟨65304, 0, 2, [56]⟩ .leaf)))))

/-- Rows of Data/Ucd.lean (proof aid). -/
def ucdT85 : Tree UcdRow := (.node (.node (.node (.node (.node (.node .leaf ⟨65306, 0, 2, [58]⟩ .leaf) ⟨65307, 0, 2, [59]⟩ (.node .leaf ⟨65308, 0, 2, [60]⟩ .leaf)) ⟨65309, 0, 2, [61]⟩ (.node (.node .leaf ⟨65310, 0, 2, [62]⟩ .leaf) ⟨65311, 0, 2, [63]⟩ .leaf)) ⟨65312, 0, 2, [64]⟩ (.node (.node (.node .leaf ⟨65313, 0, 2, [65]⟩ .leaf) ⟨65314, 0, 2, [66]⟩ .leaf) ⟨65315, 0, 2, [67]⟩ (.node (.node .leaf ⟨65316, 0, 2, [68]⟩ .leaf) ⟨65317, 0, 2, [69]⟩ .leaf))) ⟨65318, 0, 2, [70]⟩ (.node (.node (.node (.node .leaf ⟨65319, 0, 2, [71]⟩ .leaf) ⟨65320, 0, 2, [72]⟩ (.node .leaf ⟨65321, 0, 2, [73]⟩ .leaf)) ⟨65322, 0, 2, [74]⟩ (.node (.node .leaf ⟨65323, 0, 2, [75]⟩ .leaf) ⟨65324, 0, 2, [76]⟩ .leaf)) ⟨65325, 0, 2, [77]⟩ (.node (.node (.node .leaf ⟨65326, 0, 2, [78]⟩ .leaf) ⟨65327, 0, 2, [79]⟩ .leaf) ⟨65328, 0, 2, [80]⟩ (.node (.node .leaf ⟨65329, 0, 2, [81]⟩ .leaf) ⟨65330, 0, 2, [82]⟩ .leaf)))) ⟨65331, 0, 2, [83]⟩ (.node (.node (.node (.node (.node .leaf ⟨65332, 0, 2, [84]⟩ .leaf) ⟨65333, 0, 2, [85]⟩ (.node .leaf ⟨65334, 0, 2, [86]⟩ .leaf)) ⟨65335, 0, 2, [87]⟩ (.node (.node .leaf ⟨65336, 0, 2, [88]⟩ .leaf) ⟨65337, 0, 2, [89]⟩ .leaf)) ⟨65338, 0, 2, [90]⟩ (.node (.node (.node .leaf ⟨65339, 0, 2, [91]⟩ .leaf) ⟨65340, 0, 2, [92]⟩ .leaf) ⟨65341, 0, 2, [93]⟩ (.node (.node .leaf ⟨65342, 0, 2, [94]⟩ .leaf) ⟨65343, 0, 2, [95]⟩ .leaf))) ⟨65344, 0, 2, [96]⟩ (.node (.node (.node (.node .leaf ⟨65345, 0, 2, [97]⟩ .leaf) ⟨65346, 0, 2, [98]⟩ .leaf) ⟨65347, 0, 2, [99]⟩ (.node (.node .leaf ⟨65348, 0, 2, [100]⟩ .leaf) ⟨65349, 0, 2, [101]⟩ .leaf)) ⟨65350, 0, 2, [102]⟩ (.node (.node (.node .leaf ⟨65351, 0, 2, [103]⟩ .leaf) ⟨65352, 0, 2, [104]⟩ .leaf) ⟨65353, 0, 2, [105]⟩ (.node (.node .leaf ⟨65354, 0, 2, [106]⟩ .leaf) ⟨65355, 0, 2, [107]⟩ .leaf)))))

/-- Rows of Data/Ucd.lean (proof aid). -/
def ucdT86 : Tree UcdRow := (.node (.node (.node (.node (.node (.node .leaf ⟨65357, 0, 2, [109]⟩ .leaf) ⟨65358, 0, 2, [110]⟩ (.node .leaf ⟨65359, 0, 2, [111]⟩ .leaf)) ⟨65360, 0, 2, [112]⟩ (.node (.node .leaf ⟨65361, 0, 2, [113]⟩ .leaf) ⟨65362, 0, 2, [114]⟩ .leaf)) ⟨65363, 0, 2, [115]⟩ (.node (.node (.node .leaf ⟨65364, 0, 2, [116]⟩ .leaf) ⟨65365, 0, 2, [117]⟩ .leaf) ⟨65366, 0, 2, [118]⟩ (.node (.node .leaf ⟨65367, 0, 2, [119]⟩ .leaf) ⟨65368, 0, 2, [120]⟩ .leaf))) ⟨65369, 0, 2, [121]⟩ (.node (.node (.node (.node .leaf ⟨65370, 0, 2, [122]⟩ .leaf) ⟨65371, 0, 2, [123]⟩ (.node .leaf ⟨65372, 0, 2, [124]⟩ .leaf)) ⟨65373, 0, 2, [125]⟩ (.node (.node .leaf ⟨65374, 0, 2, [126]⟩ .leaf) ⟨65375, 0, 2, [10629]⟩ .leaf)) ⟨65376, 0, 2, [10630]⟩ (.node (.node (.node .leaf ⟨65377, 0, 2, [12290]⟩ .leaf) ⟨65378, 0, 2, [12300]⟩ .leaf) ⟨65379, 0, 2, [12301]⟩ (.node (.node .leaf ⟨65380, 0, 2, [12289]⟩ .leaf) ⟨65381, 0, 2, [12539]⟩ .leaf)))) ⟨65382, 0, 2, [12530]⟩ (.node (.node (.node (.node (.node .leaf ⟨65383, 0, 2, [12449]⟩ .leaf) ⟨65384, 0, 2, [12451]⟩ (.node .leaf ⟨65385, 0, 2, [12453]⟩ .leaf)) ⟨65386, 0, 2, [12455]⟩ (.node (.node .leaf ⟨65387, 0, 2, [12457]⟩ .leaf) ⟨65388, 0, 2, [12515]⟩ .leaf)) ⟨65389, 0, 2, [12517]⟩ (.node (.node (.node .leaf ⟨65390, 0, 2, [12519]⟩ .leaf) ⟨65391, 0, 2, [12483]⟩ .leaf) ⟨65392, 0, 2, [12540]⟩ (.node (.node .leaf ⟨65393, 0, 2, [12450]⟩ .leaf) ⟨65394, 0, 2, [12452]⟩ .leaf))) ⟨65395, 0, 2, [12454]⟩ (.node (.node (.node (.node .leaf ⟨65396, 0, 2, [12456]⟩ .leaf) ⟨65397, 0, 2, [12458]⟩ .leaf) ⟨65398, 0, 2, [12459]⟩ (.node (.node .leaf ⟨65399, 0, 2, [12461]⟩ .leaf) ⟨65400, 0, 2, [12463]⟩ .leaf)) ⟨65401, 0, 2, [12465]⟩ (.node (.node (.node .leaf ⟨65402, 0, 2, [12467]⟩ .leaf) ⟨65403, 0, 2, [12469]⟩ .leaf) ⟨65404, 0, 2, [12471]⟩ (.node (.node .leaf ⟨65405, 0, 2, [12473]⟩ .leaf) ⟨65406, 0, 2, [12475]⟩ .leaf)))))

/-- Rows of Data/Ucd.lean (proof aid). -/
def ucdT87 : Tree UcdRow := (.node (.node (.node (.node (.node (.node .leaf ⟨65408, 0, 2, [12479]⟩ .leaf) ⟨65409, 0, 2, [12481]⟩ (.node .leaf ⟨65410, 0, 2, [12484]⟩ .leaf)) ⟨65411, 0, 2, [12486]⟩ (.node (.node .leaf ⟨65412, 0, 2, [12488]⟩ .leaf) ⟨65413, 0, 2, [12490]⟩ .leaf)) ⟨65414, 0, 2, [12491]⟩ (.node (.node (.node .leaf ⟨65415, 0, 2, [12492]⟩ .leaf) ⟨65416, 0, 2, [12493]⟩ .leaf) ⟨65417, 0, 2, [12494]⟩ (.node (.node .leaf ⟨65418, 0, 2, [12495]⟩ .leaf) ⟨65419, 0, 2, [12498]⟩ .leaf))) ⟨65420, 0, 2, [12501]⟩ (.node (.node (.node (.node .leaf ⟨65421, 0, 2, [12504]⟩ .leaf) ⟨65422, 0, 2, [12507]⟩ (.node .leaf ⟨65423, 0, 2, [12510]⟩ .leaf)) ⟨65424, 0, 2, [12511]⟩ (.node (.node .leaf ⟨65425, 0, 2, [12512]⟩ .leaf) ⟨65426, 0, 2, [12513]⟩ .leaf)) ⟨65427, 0, 2, [12514]⟩ (.node (.node (.node .leaf ⟨65428, 0, 2, [12516]⟩ .leaf) ⟨65429, 0, 2, [12518]⟩ .leaf) ⟨65430, 0, 2, [12520]⟩ (.node (.node .leaf ⟨65431, 0, 2, [12521]⟩ .leaf) ⟨65432, 0, 2, [12522]⟩ .leaf)))) ⟨65433, 0, 2, [12523]⟩ (.node (.node (.node (.node (.node .leaf ⟨65434, 0, 2, [12524]⟩ .leaf) ⟨65435, 0, 2, [12525]⟩ (.node .leaf ⟨65436, 0, 2, [12527]⟩ .leaf)) ⟨65437, 0, 2, [12531]⟩ (.node (.node .leaf ⟨65438, 0, 2, [12441]⟩ .leaf) ⟨65439, 0, 2, [12442]⟩ .leaf)) ⟨65440, 0, 2, [12644]⟩ (.node (.node (.node .leaf ⟨65441, 0, 2, [12593]⟩ .leaf) ⟨65442, 0, 2, [12594]⟩ .leaf) ⟨65443, 0, 2, [12595]⟩ (.node (.node .leaf ⟨65444, 0, 2, [12596]⟩ .leaf) ⟨65445, 0, 2, [12597]⟩ .leaf))) ⟨65446, 0, 2, [12598]⟩ (.node (.node (.node (.node .leaf ⟨65447, 0, 2, [12599]⟩ .leaf) ⟨65448, 0, 2, [12600]⟩ .leaf) ⟨65449, 0, 2, [12601]⟩ (.node (.node .leaf ⟨65450, 0, 2, [12602]⟩ .leaf) ⟨65451, 0, 2, [12603]⟩ .leaf)) ⟨65452, 0, 2, [12604]⟩ (.node (.node (.node .leaf ⟨65453, 0, 2, [12605]⟩ .leaf) ⟨65454, 0, 2, [12606]⟩ .leaf) ⟨65455, 0, 2, [12607]⟩ (.node (.node .leaf ⟨65456, 0, 2, [12608]⟩ .leaf) ⟨65457, 0, 2, [12609]⟩ .leaf)))))

/-- Rows of Data/Ucd.lean (proof aid). -/
def ucdT88 : Tree UcdRow := (.node (.node (.node (.node (.node (.node .leaf ⟨65459, 0, 2, [12611]⟩ .leaf) ⟨65460, 0, 2, [12612]⟩ (.node .leaf ⟨65461, 0, 2, [12613]⟩ .leaf)) ⟨65462, 0, 2, [12614]⟩ (.node (.node .leaf ⟨65463, 0, 2, [12615]⟩ .leaf) ⟨65464, 0, 2, [12616]⟩ .leaf)) ⟨65465, 0, 2, [12617]⟩ (.node (.node (.node .leaf ⟨65466, 0, 2, [12618]⟩ .leaf) ⟨65467, 0, 2, [12619]⟩ .leaf) ⟨65468, 0, 2, [12620]⟩ (.node (.node .leaf ⟨65469, 0, 2, [12621]⟩ .leaf) ⟨65470, 0, 2, [12622]⟩ .leaf))) ⟨65474, 0, 2, [12623]⟩ (.node (.node (.node (.node .leaf ⟨65475, 0, 2, [12624]⟩ .leaf) ⟨65476, 0, 2, [12625]⟩ (.node .leaf ⟨65477, 0, 2, [12626]⟩ .leaf)) ⟨65478, 0, 2, [12627]⟩ (.node (.node .leaf ⟨65479, 0, 2, [12628]⟩ .leaf) ⟨65482, 0, 2, [12629]⟩ .leaf)) ⟨65483, 0, 2, [12630]⟩ (.node (.node (.node .leaf ⟨65484, 0, 2, [12631]⟩ .leaf) ⟨65485, 0, 2, [12632]⟩ .leaf) ⟨65486, 0, 2, [12633]⟩ (.node (.node .leaf ⟨65487, 0, 2, [12634]⟩ .leaf) ⟨65490, 0, 2, [12635]⟩ .leaf)))) ⟨65491, 0, 2, [12636]⟩ (.node (.node (.node (.node (.node .leaf ⟨65492, 0, 2, [12637]⟩ .leaf) ⟨65493, 0, 2, [12638]⟩ (.node .leaf ⟨65494, 0, 2, [12639]⟩ .leaf)) ⟨65495, 0, 2, [12640]⟩ (.node (.node .leaf ⟨65498, 0, 2, [12641]⟩ .leaf) ⟨65499, 0, 2, [12642]⟩ .leaf)) ⟨65500, 0, 2, [12643]⟩ (.node (.node (.node .leaf ⟨65504, 0, 2, [162]⟩ .leaf) ⟨65505, 0, 2, [163]⟩ .leaf) ⟨65506, 0, 2, [172]⟩ (.node (.node .leaf ⟨65507, 0, 2, [175]⟩ .leaf) ⟨65508, 0, 2, [166]⟩ .leaf))) ⟨65509, 0, 2, [165]⟩ (.node (.node (.node (.node .leaf ⟨65510, 0, 2, [8361]⟩ .leaf) ⟨65512, 0, 2, [9474]⟩ .leaf) ⟨65513, 0, 2, [8592]⟩ (.node (.node .leaf ⟨65514, 0, 2, [8593]⟩ .leaf) ⟨65515, 0, 2, [8594]⟩ .leaf)) ⟨65516, 0, 2, [8595]⟩ (.node (.node (.node .leaf ⟨65517, 0, 2, [9632]⟩ .leaf) ⟨65518, 0, 2, [9675]⟩ .leaf) ⟨66045, 220, 0, []⟩ (.node (.node .leaf ⟨66272, 220, 0, []⟩ .leaf) ⟨66422, 230, 0, []⟩ .leaf)))))

/-- Rows of Data/Ucd.lean (proof aid). -/
def ucdT89 : Tree UcdRow := (.node (.node (.node (.node (.node (.node .leaf ⟨66424, 230, 0, []⟩ .leaf) ⟨66425, 230, 0, []⟩ (.node .leaf ⟨66426, 230, 0, []⟩ .leaf)) ⟨68109, 220, 0, []⟩ (.node (.node .leaf ⟨68111, 230, 0, []⟩ .leaf) ⟨68152, 230, 0, []⟩ .leaf)) ⟨68153, 1, 0, []⟩ (.node (.node (.node .leaf ⟨68154, 220, 0, []⟩ .leaf) ⟨68159, 9, 0, []⟩ .leaf) ⟨68325, 230, 0, []⟩ (.node (.node .leaf ⟨68326, 220, 0, []⟩ .leaf) ⟨69702, 9, 0, []⟩ .leaf))) ⟨69759, 9, 0, []⟩ (.node (.node (.node (.node .leaf ⟨69786, 0, 0, [69785, 69818]⟩ .leaf) ⟨69788, 0, 0, [69787, 69818]⟩ (.node .leaf ⟨69803, 0, 0, [69797, 69818]⟩ .leaf)) ⟨69817, 9, 0, []⟩ (.node (.node .leaf ⟨69818, 7, 0, []⟩ .leaf) ⟨69888, 230, 0, []⟩ .leaf)) ⟨69889, 230, 0, []⟩ (.node (.node (.node .leaf ⟨69890, 230, 0, []⟩ .leaf) ⟨69934, 0, 0, [69937, 69927]⟩ .leaf) ⟨69935, 0, 0, [69938, 69927]⟩ (.node (.node .leaf ⟨69939, 9, 0, []⟩ .leaf) ⟨69940, 9, 0, []⟩ .leaf)))) ⟨70003, 7, 0, []⟩ (.node (.node (.node (.node (.node .leaf ⟨70080, 9, 0, []⟩ .leaf) ⟨70090, 7, 0, []⟩ (.node .leaf ⟨70197, 9, 0, []⟩ .leaf)) ⟨70198, 7, 0, []⟩ (.node (.node .leaf ⟨70377, 7, 0, []⟩ .leaf) ⟨70378, 9, 0, []⟩ .leaf)) ⟨70460, 7, 0, []⟩ (.node (.node (.node .leaf ⟨70475, 0, 0, [70471, 70462]⟩ .leaf) ⟨70476, 0, 0, [70471, 70487]⟩ .leaf) ⟨70477, 9, 0, []⟩ (.node (.node .leaf ⟨70502, 230, 0, []⟩ .leaf) ⟨70503, 230, 0, []⟩ .leaf))) ⟨70504, 230, 0, []⟩ (.node (.node (.node (.node .leaf ⟨70505, 230, 0, []⟩ .leaf) ⟨70506, 230, 0, []⟩ .leaf) ⟨70507, 230, 0, []⟩ (.node (.node .leaf ⟨70508, 230, 0, []⟩ .leaf) ⟨70512, 230, 0, []⟩ .leaf)) ⟨70513, 230, 0, []⟩ (.node (.node (.node .leaf ⟨70514, 230, 0, []⟩ .leaf) ⟨70515, 230, 0, []⟩ .leaf) ⟨70516, 230, 0, []⟩ (.node (.node .leaf ⟨70722, 9, 0, []⟩ .leaf) ⟨70726, 7, 0, []⟩ .leaf)))))

/-- Rows of Data/Ucd.lean (proof aid). -/
def ucdT90 : Tree UcdRow := (.node (.node (.node (.node (.node (.node .leaf ⟨70844, 0, 0, [70841, 70832]⟩ .leaf) ⟨70846, 0, 0, [70841, 70845]⟩ (.node .leaf ⟨70850, 9, 0, []⟩ .leaf)) ⟨70851, 7, 0, []⟩ (.node (.node .leaf ⟨71098, 0, 0, [71096, 71087]⟩ .leaf) ⟨71099, 0, 0, [71097, 71087]⟩ .leaf)) ⟨71103, 9, 0, []⟩ (.node (.node (.node .leaf ⟨71104, 7, 0, []⟩ .leaf) ⟨71231, 9, 0, []⟩ .leaf) ⟨71350, 9, 0, []⟩ (.node (.node .leaf ⟨71351, 7, 0, []⟩ .leaf) ⟨71467, 9, 0, []⟩ .leaf))) ⟨72767, 9, 0, []⟩ (.node (.node (.node (.node .leaf ⟨92912, 1, 0, []⟩ .leaf) ⟨92913, 1, 0, []⟩ (.node .leaf ⟨92914, 1, 0, []⟩ .leaf)) ⟨92915, 1, 0, []⟩ (.node (.node .leaf ⟨92916, 1, 0, []⟩ .leaf) ⟨92976, 230, 0, []⟩ .leaf)) ⟨92977, 230, 0, []⟩ (.node (.node (.node .leaf ⟨92978, 230, 0, []⟩ .leaf) ⟨92979, 230, 0, []⟩ .leaf) ⟨92980, 230, 0, []⟩ (.node (.node .leaf ⟨92981, 230, 0, []⟩ .leaf) ⟨92982, 230, 0, []⟩ .leaf)))) ⟨113822, 1, 0, []⟩ (.node (.node (.node (.node (.node .leaf ⟨119134, 0, 0, [119127, 119141]⟩ .leaf) ⟨119135, 0, 0, [119128, 119141]⟩ (.node .leaf ⟨119136, 0, 0, [119135, 119150]⟩ .leaf)) ⟨119137, 0, 0, [119135, 119151]⟩ (.node (.node .leaf ⟨119138, 0, 0, [119135, 119152]⟩ .leaf) ⟨119139, 0, 0, [119135, 119153]⟩ .leaf)) ⟨119140, 0, 0, [119135, 119154]⟩ (.node (.node (.node .leaf ⟨119141, 216, 0, []⟩ .leaf) ⟨119142, 216, 0, []⟩ .leaf) ⟨119143, 1, 0, []⟩ (.node (.node .leaf ⟨119144, 1, 0, []⟩ .leaf) ⟨119145, 1, 0, []⟩ .leaf))) ⟨119149, 226, 0, []⟩ (.node (.node (.node (.node .leaf ⟨119150, 216, 0, []⟩ .leaf) ⟨119151, 216, 0, []⟩ .leaf) ⟨119152, 216, 0, []⟩ (.node (.node .leaf ⟨119153, 216, 0, []⟩ .leaf) ⟨119154, 216, 0, []⟩ .leaf)) ⟨119163, 220, 0, []⟩ (.node (.node (.node .leaf ⟨119164, 220, 0, []⟩ .leaf) ⟨119165, 220, 0, []⟩ .leaf) ⟨119166, 220, 0, []⟩ (.node (.node .leaf ⟨119167, 220, 0, []⟩ .leaf) ⟨119168, 220, 0, []⟩ .leaf)))))

/-- Rows of Data/Ucd.lean (proof aid). -/
def ucdT91 : Tree UcdRow := (.node (.node (.node (.node (.node (.node .leaf ⟨119170, 220, 0, []⟩ .leaf) ⟨119173, 230, 0, []⟩ (.node .leaf ⟨119174, 230, 0, []⟩ .leaf)) ⟨119175, 230, 0, []⟩ (.node (.node .leaf ⟨119176, 230, 0, []⟩ .leaf) ⟨119177, 230, 0, []⟩ .leaf)) ⟨119178, 220, 0, []⟩ (.node (.node (.node .leaf ⟨119179, 220, 0, []⟩ .leaf) ⟨119210, 230, 0, []⟩ .leaf) ⟨119211, 230, 0, []⟩ (.node (.node .leaf ⟨119212, 230, 0, []⟩ .leaf) ⟨119213, 230, 0, []⟩ .leaf))) ⟨119227, 0, 0, [119225, 119141]⟩ (.node (.node (.node (.node .leaf ⟨119228, 0, 0, [119226, 119141]⟩ .leaf) ⟨119229, 0, 0, [119227, 119150]⟩ (.node .leaf ⟨119230, 0, 0, [119228, 119150]⟩ .leaf)) ⟨119231, 0, 0, [119227, 119151]⟩ (.node (.node .leaf ⟨119232, 0, 0, [119228, 119151]⟩ .leaf) ⟨119362, 230, 0, []⟩ .leaf)) ⟨119363, 230, 0, []⟩ (.node (.node (.node .leaf ⟨119364, 230, 0, []⟩ .leaf) ⟨119808, 0, 2, [65]⟩ .leaf) ⟨119809, 0, 2, [66]⟩ (.node (.node .leaf ⟨119810, 0, 2, [67]⟩ .leaf) ⟨119811, 0, 2, [68]⟩ .leaf)))) ⟨119812, 0, 2, [69]⟩ (.node (.node (.node (.node (.node .leaf ⟨119813, 0, 2, [70]⟩ .leaf) ⟨119814, 0, 2, [71]⟩ (.node .leaf ⟨119815, 0, 2, [72]⟩ .leaf)) ⟨119816, 0, 2, [73]⟩ (.node (.node .leaf ⟨119817, 0, 2, [74]⟩ .leaf) ⟨119818, 0, 2, [75]⟩ .leaf)) ⟨119819, 0, 2, [76]⟩ (.node (.node (.node .leaf ⟨119820, 0, 2, [77]⟩ .leaf) ⟨119821, 0, 2, [78]⟩ .leaf) ⟨119822, 0, 2, [79]⟩ (.node (.node .leaf ⟨119823, 0, 2, [80]⟩ .leaf) ⟨119824, 0, 2, [81]⟩ .leaf))) ⟨119825, 0, 2, [82]⟩ (.node (.node (.node (.node .leaf ⟨119826, 0, 2, [83]⟩ .leaf) ⟨119827, 0, 2, [84]⟩ .leaf) ⟨119828, 0, 2, [85]⟩ (.node (.node .leaf ⟨119829, 0, 2, [86]⟩ .leaf) ⟨119830, 0, 2, [87]⟩ .leaf)) ⟨119831, 0, 2, [88]⟩ (.node (.node (.node .leaf ⟨119832, 0, 2, [89]⟩ .leaf) ⟨119833, 0, 2, [90]⟩ .leaf) ⟨119834, 0, 2, [97]⟩ (.node (.node .leaf ⟨119835, 0, 2, [98]⟩ .leaf) ⟨119836, 0, 2, [99]⟩ .leaf)))))

/-- Rows of Data/Ucd.lean (proof aid). -/
def ucdT92 : Tree UcdRow := (.node (.node (.node (.node (.node (.node .leaf ⟨119838, 0, 2, [101]⟩ .leaf) ⟨119839, 0, 2, [102]⟩ (.node .leaf ⟨119840, 0, 2, [103]⟩ .leaf)) ⟨119841, 0, 2, [104]⟩ (.node (.node .leaf ⟨119842, 0, 2, [105]⟩ .leaf) ⟨119843, 0, 2, [106]⟩ .leaf)) ⟨119844, 0, 2, [107]⟩ (.node (.node (.node .leaf ⟨119845, 0, 2, [108]⟩ .leaf) ⟨119846, 0, 2, [109]⟩ .leaf) ⟨119847, 0, 2, [110]⟩ (.node (.node .leaf ⟨119848, 0, 2, [111]⟩ .leaf) ⟨119849, 0, 2, [112]⟩ .leaf))) ⟨119850, 0, 2, [113]⟩ (.node (.node (.node (.node .leaf ⟨119851, 0, 2, [114]⟩ .leaf) ⟨119852, 0, 2, [115]⟩ (.node .leaf ⟨119853, 0, 2, [116]⟩ .leaf)) ⟨119854, 0, 2, [117]⟩ (.node (.node .leaf ⟨119855, 0, 2, [118]⟩ .leaf) ⟨119856, 0, 2, [119]⟩ .leaf)) ⟨119857, 0, 2, [120]⟩ (.node (.node (.node .leaf ⟨119858, 0, 2, [121]⟩ .leaf) ⟨119859, 0, 2, [122]⟩ .leaf) ⟨119860, 0, 2, [65]⟩ (.node (.node .leaf ⟨119861, 0, 2, [66]⟩ .leaf) ⟨119862, 0, 2, [67]⟩ .leaf)))) ⟨119863, 0, 2, [68]⟩ (.node (.node (.node (.node (.node .leaf ⟨119864, 0, 2, [69]⟩ .leaf) ⟨119865, 0, 2, [70]⟩ (.node .leaf ⟨119866, 0, 2, [71]⟩ .leaf)) ⟨119867, 0, 2, [72]⟩ (.node (.node .leaf ⟨119868, 0, 2, [73]⟩ .leaf) ⟨119869, 0, 2, [74]⟩ .leaf)) ⟨119870, 0, 2, [75]⟩ (.node (.node (.node .leaf ⟨119871, 0, 2, [76]⟩ .leaf) ⟨119872, 0, 2, [77]⟩ .leaf) ⟨119873, 0, 2, [78]⟩ (.node (.node .leaf ⟨119874, 0, 2, [79]⟩ .leaf) ⟨119875, 0, 2, [80]⟩ .leaf))) ⟨119876, 0, 2, [81]⟩ (.node (.node (.node (.node .leaf ⟨119877, 0, 2, [82]⟩ .leaf) ⟨119878, 0, 2, [83]⟩ .leaf) ⟨119879, 0, 2, [84]⟩ (.node (.node .leaf ⟨119880, 0, 2, [85]⟩ .leaf) ⟨119881, 0, 2, [86]⟩ .leaf)) ⟨119882, 0, 2, [87]⟩ (.node (.node (.node .leaf ⟨119883, 0, 2, [88]⟩ .leaf) ⟨119884, 0, 2, [89]⟩ .leaf) ⟨119885, 0, 2, [90]⟩ (.node (.node .leaf ⟨119886, 0, 2, [97]⟩ .leaf) ⟨119887, 0, 2, [98]⟩ .leaf)))))

/-- Rows of Data/Ucd.lean (proof aid). -/
def ucdT93 : Tree UcdRow := (.node (.node (.node (.node (.node (.node .leaf ⟨119889, 0, 2, [100]⟩ .leaf) ⟨119890, 0, 2, [101]⟩ (.node .leaf ⟨119891, 0, 2, [102]⟩ .leaf)) ⟨119892, 0, 2, [103]⟩ (.node (.node .leaf ⟨119894, 0, 2, [105]⟩ .leaf) ⟨119895, 0, 2, [106]⟩ .leaf)) ⟨119896, 0, 2, [107]⟩ (.node (.node (.node .leaf ⟨119897, 0, 2, [108]⟩ .leaf) ⟨119898, 0, 2, [109]⟩ .leaf) ⟨119899, 0, 2, [110]⟩ (.node (.node .leaf ⟨119900, 0, 2, [111]⟩ .leaf) ⟨119901, 0, 2, [112]⟩ .leaf))) ⟨119902, 0, 2, [113]⟩ (.node (.node (.node (.node .leaf ⟨119903, 0, 2, [114]⟩ .leaf) ⟨119904, 0, 2, [115]⟩ (.node .leaf ⟨119905, 0, 2, [116]⟩ .leaf)) ⟨119906, 0, 2, [117]⟩ (.node (.node .leaf ⟨119907, 0, 2, [118]⟩ .leaf) ⟨119908, 0, 2, [119]⟩ .leaf)) ⟨119909, 0, 2, [120]⟩ (.node (.node (.node .leaf ⟨119910, 0, 2, [121]⟩ .leaf) ⟨119911, 0, 2, [122]⟩ .leaf) ⟨119912, 0, 2, [65]⟩ (.node (.node .leaf ⟨119913, 0, 2, [66]⟩ .leaf) ⟨119914, 0, 2, [67]⟩ .leaf)))) ⟨119915, 0, 2, [68]⟩ (.node (.node (.node (.node (.node .leaf ⟨119916, 0, 2, [69]⟩ .leaf) ⟨119917, 0, 2, [70]⟩ (.node .leaf ⟨119918, 0, 2, [71]⟩ .leaf)) ⟨119919, 0, 2, [72]⟩ (.node (.node .leaf ⟨119920, 0, 2, [73]⟩ .leaf) ⟨119921, 0, 2, [74]⟩ .leaf)) ⟨119922, 0, 2, [75]⟩ (.node (.node (.node .leaf ⟨119923, 0, 2, [76]⟩ .leaf) ⟨119924, 0, 2, [77]⟩ .leaf) ⟨119925, 0, 2, [78]⟩ (.node (.node .leaf ⟨119926, 0, 2, [79]⟩ .leaf) ⟨119927, 0, 2, [80]⟩ .leaf))) ⟨119928, 0, 2, [81]⟩ (.node (.node (.node (.node .leaf ⟨119929, 0, 2, [82]⟩ .leaf) ⟨119930, 0, 2, [83]⟩ .leaf) ⟨119931, 0, 2, [84]⟩ (.node (.node .leaf ⟨119932, 0, 2, [85]⟩ .leaf) ⟨119933, 0, 2, [86]⟩ .leaf)) ⟨119934, 0, 2, [87]⟩ (.node (.node (.node .leaf ⟨119935, 0, 2, [88]⟩ .leaf) ⟨119936, 0, 2, [89]⟩ .leaf) ⟨119937, 0, 2, [90]⟩ (.node (.node .leaf ⟨119938, 0, 2, [97]⟩ .leaf) ⟨119939, 0, 2, [98]⟩ .leaf)))))

/-- Rows of Data/Ucd.lean (proof aid). -/
def ucdT94 : Tree UcdRow := (.node (.node (.node (.node (.node (.node .leaf ⟨119941, 0, 2, [100]⟩ .leaf) ⟨119942, 0, 2, [101]⟩ (.node .leaf ⟨119943, 0, 2, [102]⟩ .leaf)) ⟨119944, 0, 2, [103]⟩ (.node (.node .leaf ⟨119945, 0, 2, [104]⟩ .leaf) ⟨119946, 0, 2, [105]⟩ .leaf)) ⟨119947, 0, 2, [106]⟩ (.node (.node (.node .leaf ⟨119948, 0, 2, [107]⟩ .leaf) ⟨119949, 0, 2, [108]⟩ .leaf) ⟨119950, 0, 2, [109]⟩ (.node (.node .leaf ⟨119951, 0, 2, [110]⟩ .leaf) ⟨119952, 0, 2, [111]⟩ .leaf))) ⟨119953, 0, 2, [112]⟩ (.node (.node (.node (.node .leaf ⟨119954, 0, 2, [113]⟩ .leaf) ⟨119955, 0, 2, [114]⟩ (.node .leaf ⟨119956, 0, 2, [115]⟩ .leaf)) ⟨119957, 0, 2, [116]⟩ (.node (.node .leaf ⟨119958, 0, 2, [117]⟩ .leaf) ⟨119959, 0, 2, [118]⟩ .leaf)) ⟨119960, 0, 2, [119]⟩ (.node (.node (.node .leaf ⟨119961, 0, 2, [120]⟩ .leaf) ⟨119962, 0, 2, [121]⟩ .leaf) ⟨119963, 0, 2, [122]⟩ (.node (.node .leaf ⟨119964, 0, 2, [65]⟩ .leaf) ⟨119966, 0, 2, [67]⟩ .leaf)))) ⟨119967, 0, 2, [68]⟩ (.node (.node (.node (.node (.node .leaf ⟨119970, 0, 2, [71]⟩ .leaf) ⟨119973, 0, 2, [74]⟩ (.node .leaf ⟨119974, 0, 2, [75]⟩ .leaf)) ⟨119977, 0, 2, [78]⟩ (.node (.node .leaf ⟨119978, 0, 2, [79]⟩ .leaf) ⟨119979, 0, 2, [80]⟩ .leaf)) ⟨119980, 0, 2, [81]⟩ (.node (.node (.node .leaf ⟨119982, 0, 2, [83]⟩ .leaf) ⟨119983, 0, 2, [84]⟩ .leaf) ⟨119984, 0, 2, [85]⟩ (.node (.node .leaf ⟨119985, 0, 2, [86]⟩ .leaf) ⟨119986, 0, 2, [87]⟩ .leaf))) ⟨119987, 0, 2, [88]⟩ (.node (.node (.node (.node .leaf ⟨119988, 0, 2, [89]⟩ .leaf) ⟨119989, 0, 2, [90]⟩ .leaf) ⟨119990, 0, 2, [97]⟩ (.node (.node .leaf ⟨119991, 0, 2, [98]⟩ .leaf) ⟨119992, 0, 2, [99]⟩ .leaf)) ⟨119993, 0, 2, [100]⟩ (.node (.node (.node .leaf ⟨119995, 0, 2, [102]⟩ .leaf) ⟨119997, 0, 2, [104]⟩ .leaf) ⟨119998, 0, 2, [105]⟩ (.node (.node .leaf ⟨119999, 0, 2, [106]⟩ .leaf) ⟨120000, 0, 2, [107]⟩ .leaf)))))

/-- Rows of Data/Ucd.lean (proof aid). -/
def ucdT95 : Tree UcdRow := (.node (.node (.node (.node (.node (.node .leaf ⟨120002, 0, 2, [109]⟩ .leaf) ⟨120003, 0, 2, [110]⟩ (.node .leaf ⟨120005, 0, 2, [112]⟩ .leaf)) ⟨120006, 0, 2, [113]⟩ (.node (.node .leaf ⟨120007, 0, 2, [114]⟩ .leaf) ⟨120008, 0, 2, [115]⟩ .leaf)) ⟨120009, 0, 2, [116]⟩ (.node (.node (.node .leaf ⟨120010, 0, 2, [117]⟩ .leaf) ⟨120011, 0, 2, [118]⟩ .leaf) ⟨120012, 0, 2, [119]⟩ (.node (.node .leaf ⟨120013, 0, 2, [120]⟩ .leaf) ⟨120014, 0, 2, [121]⟩ .leaf))) ⟨120015, 0, 2, [122]⟩ (.node (.node (.node (.node .leaf ⟨120016, 0, 2, [65]⟩ .leaf) ⟨120017, 0, 2, [66]⟩ (.node .leaf ⟨120018, 0, 2, [67]⟩ .leaf)) ⟨120019, 0, 2, [68]⟩ (.node (.node .leaf ⟨120020, 0, 2, [69]⟩ .leaf) ⟨120021, 0, 2, [70]⟩ .leaf)) ⟨120022, 0, 2, [71]⟩ (.node (.node (.node .leaf ⟨120023, 0, 2, [72]⟩ .leaf) ⟨120024, 0, 2, [73]⟩ .leaf) ⟨120025, 0, 2, [74]⟩ (.node (.node .leaf ⟨120026, 0, 2, [75]⟩ .leaf) ⟨120027, 0, 2, [76]⟩ .leaf)))) ⟨120028, 0, 2, [77]⟩ (.node (.node (.node (.node (.node .leaf ⟨120029, 0, 2, [78]⟩ .leaf) ⟨120030, 0, 2, [79]⟩ (.node .leaf ⟨120031, 0, 2, [80]⟩ .leaf)) ⟨120032, 0, 2, [81]⟩ (.node (.node .leaf ⟨120033, 0, 2, [82]⟩ .leaf) ⟨120034, 0, 2, [83]⟩ .leaf)) ⟨120035, 0, 2, [84]⟩ (.node (.node (.node .leaf ⟨120036, 0, 2, [85]⟩ .leaf) ⟨120037, 0, 2, [86]⟩ .leaf) ⟨120038, 0, 2, [87]⟩ (.node (.node .leaf ⟨120039, 0, 2, [88]⟩ .leaf) ⟨120040, 0, 2, [89]⟩ .leaf))) ⟨120041, 0, 2, [90]⟩ (.node (.node (.node (.node .leaf ⟨120042, 0, 2, [97]⟩ .leaf) ⟨120043, 0, 2, [98]⟩ .leaf) ⟨120044, 0, 2, [99]⟩ (.node (.node .leaf ⟨120045, 0, 2, [100]⟩ .leaf) ⟨120046, 0, 2, [101]⟩ .leaf)) ⟨120047, 0, 2, [102]⟩ (.node (.node (.node .leaf ⟨120048, 0, 2, [103]⟩ .leaf) ⟨120049, 0, 2, [104]⟩ .leaf) ⟨120050, 0, 2, [105]⟩ (.node (.node .leaf ⟨120051, 0, 2, [106]⟩ .leaf) ⟨120052, 0, 2, [107]⟩ .leaf)))))

/-- Rows of Data/Ucd.lean (proof aid). -/
def ucdT96 : Tree UcdRow := (.node (.node (.node (.node (.node (.node .leaf ⟨120054, 0, 2, [109]⟩ .leaf) ⟨120055, 0, 2, [110]⟩ (.node .leaf ⟨120056, 0, 2, [111]⟩ .leaf)) ⟨120057, 0, 2, [112]⟩ (.node (.node .leaf ⟨120058, 0, 2, [113]⟩ .leaf) ⟨120059, 0, 2, [114]⟩ .leaf)) ⟨120060, 0, 2, [115]⟩ (.node (.node (.node .leaf ⟨120061, 0, 2, [116]⟩ .leaf) ⟨120062, 0, 2, [117]⟩ .leaf) ⟨120063, 0, 2, [118]⟩ (.node (.node .leaf ⟨120064, 0, 2, [119]⟩ .leaf) ⟨120065, 0, 2, [120]⟩ .leaf))) ⟨120066, 0, 2, [121]⟩ (.node (.node (.node (.node .leaf ⟨120067, 0, 2, [122]⟩ .leaf) ⟨120068, 0, 2, [65]⟩ (.node .leaf ⟨120069, 0, 2, [66]⟩ .leaf)) ⟨120071, 0, 2, [68]⟩ (.node (.node .leaf ⟨120072, 0, 2, [69]⟩ .leaf) ⟨120073, 0, 2, [70]⟩ .leaf)) ⟨120074, 0, 2, [71]⟩ (.node (.node (.node .leaf ⟨120077, 0, 2, [74]⟩ .leaf) ⟨120078, 0, 2, [75]⟩ .leaf) ⟨120079, 0, 2, [76]⟩ (.node (.node .leaf ⟨120080, 0, 2, [77]⟩ .leaf) ⟨120081, 0, 2, [78]⟩ .leaf)))) ⟨120082, 0, 2, [79]⟩ (.node (.node (.node (.node (.node .leaf ⟨120083, 0, 2, [80]⟩ .leaf) ⟨120084, 0, 2, [81]⟩ (.node .leaf ⟨120086, 0, 2, [83]⟩ .leaf)) ⟨120087, 0, 2, [84]⟩ (.node (.node .leaf ⟨120088, 0, 2, [85]⟩ .leaf) ⟨120089, 0, 2, [86]⟩ .leaf)) ⟨120090, 0, 2, [87]⟩ (.node (.node (.node .leaf ⟨120091, 0, 2, [88]⟩ .leaf) ⟨120092, 0, 2, [89]⟩ .leaf) ⟨120094, 0, 2, [97]⟩ (.node (.node .leaf ⟨120095, 0, 2, [98]⟩ .leaf) ⟨120096, 0, 2, [99]⟩ .leaf))) ⟨120097, 0, 2, [100]⟩ (.node (.node (.node (.node .leaf ⟨120098, 0, 2, [101]⟩ .leaf) ⟨120099, 0, 2, [102]⟩ (.node .leaf ⟨120100, 0, 2, [103]⟩ .leaf)) ⟨120101, 0, 2, [104]⟩ (.node (.node .leaf ⟨120102, 0, 2, [105]⟩ .leaf) ⟨120103, 0, 2, [106]⟩ .leaf)) ⟨120104, 0, 2, [107]⟩ (.node (.node (.node .leaf ⟨120105, 0, 2, [108]⟩ .leaf) ⟨120106, 0, 2, [109]⟩ .leaf) ⟨120107, 0, 2, [110]⟩ (.node (.node .leaf ⟨120108, 0, 2, [111]⟩ .leaf) ⟨120109, 0, 2, [112]⟩ .leaf)))))

/-- Rows of Data/Ucd.lean (proof aid). -/
def ucdT97 : Tree UcdRow := (.node (.node (.node (.node (.node (.node .leaf ⟨120111, 0, 2, [114]⟩ .leaf) ⟨120112, 0, 2, [115]⟩ (.node .leaf ⟨120113, 0, 2, [116]⟩ .leaf)) ⟨120114, 0, 2, [117]⟩ (.node (.node .leaf ⟨120115, 0, 2, [118]⟩ .leaf) ⟨120116, 0, 2, [119]⟩ .leaf)) ⟨120117, 0, 2, [120]⟩ (.node (.node (.node .leaf ⟨120118, 0, 2, [121]⟩ .leaf) ⟨120119, 0, 2, [122]⟩ .leaf) ⟨120120, 0, 2, [65]⟩ (.node (.node .leaf ⟨120121, 0, 2, [66]⟩ .leaf) ⟨120123, 0, 2, [68]⟩ .leaf))) ⟨120124, 0, 2, [69]⟩ (.node (.node (.node (.node .leaf ⟨120125, 0, 2, [70]⟩ .leaf) ⟨120126, 0, 2, [71]⟩ (.node .leaf ⟨120128, 0, 2, [73]⟩ .leaf)) ⟨120129, 0, 2, [74]⟩ (.node (.node .leaf ⟨120130, 0, 2, [75]⟩ .leaf) ⟨120131, 0, 2, [76]⟩ .leaf)) ⟨120132, 0, 2, [77]⟩ (.node (.node (.node .leaf ⟨120134, 0, 2, [79]⟩ .leaf) ⟨120138, 0, 2, [83]⟩ .leaf) ⟨120139, 0, 2, [84]⟩ (.node (.node .leaf ⟨120140, 0, 2, [85]⟩ .leaf) ⟨120141, 0, 2, [86]⟩ .leaf)))) ⟨120142, 0, 2, [87]⟩ (.node (.node (.node (.node (.node .leaf ⟨120143, 0, 2, [88]⟩ .leaf) ⟨120144, 0, 2, [89]⟩ (.node .leaf ⟨120146, 0, 2, [97]⟩ .leaf)) ⟨120147, 0, 2, [98]⟩ (.node (.node .leaf ⟨120148, 0, 2, [99]⟩ .leaf) ⟨120149, 0, 2, [100]⟩ .leaf)) ⟨120150, 0, 2, [101]⟩ (.node (.node (.node .leaf ⟨120151, 0, 2, [102]⟩ .leaf) ⟨120152, 0, 2, [103]⟩ .leaf) ⟨120153, 0, 2, [104]⟩ (.node (.node .leaf ⟨120154, 0, 2, [105]⟩ .leaf) ⟨120155, 0, 2, [106]⟩ .leaf))) ⟨120156, 0, 2, [107]⟩ (.node (.node (.node (.node .leaf ⟨120157, 0, 2, [108]⟩ .leaf) ⟨120158, 0, 2, [109]⟩ .leaf) ⟨120159, 0, 2, [110]⟩ (.node (.node .leaf ⟨120160, 0, 2, [111]⟩ .leaf) ⟨120161, 0, 2, [112]⟩ .leaf)) ⟨120162, 0, 2, [113]⟩ (.node (.node (.node .leaf ⟨120163, 0, 2, [114]⟩ .leaf) ⟨120164, 0, 2, [115]⟩ .leaf) ⟨120165, 0, 2, [116]⟩ (.node (.node .leaf ⟨120166, 0, 2, [117]⟩ .leaf) ⟨120167, 0, 2, [118]⟩ .leaf)))))

/-- Rows of Data/Ucd.lean (proof aid). -/
def ucdT98 : Tree UcdRow := (.node (.node (.node (.node (.node (.node .leaf ⟨120169, 0, 2, [120]⟩ .leaf) ⟨120170, 0, 2, [121]⟩ (.node .leaf ⟨120171, 0, 2, [122]⟩ .leaf)) ⟨120172, 0, 2, [65]⟩ (.node (.node .leaf ⟨120173, 0, 2, [66]⟩ .leaf) ⟨120174, 0, 2, [67]⟩ .leaf)) ⟨120175, 0, 2, [68]⟩ (.node (.node (.node .leaf ⟨120176, 0, 2, [69]⟩ .leaf) ⟨120177, 0, 2, [70]⟩ .leaf) ⟨120178, 0, 2, [71]⟩ (.node (.node .leaf ⟨120179, 0, 2, [72]⟩ .leaf) ⟨120180, 0, 2, [73]⟩ .leaf))) ⟨120181, 0, 2, [74]⟩ (.node (.node (.node (.node .leaf ⟨120182, 0, 2, [75]⟩ .leaf) ⟨120183, 0, 2, [76]⟩ (.node .leaf ⟨120184, 0, 2, [77]⟩ .leaf)) ⟨120185, 0, 2, [78]⟩ (.node (.node .leaf ⟨120186, 0, 2, [79]⟩ .leaf) ⟨120187, 0, 2, [80]⟩ .leaf)) ⟨120188, 0, 2, [81]⟩ (.node (.node (.node .leaf ⟨120189, 0, 2, [82]⟩ .leaf) ⟨120190, 0, 2, [83]⟩ .leaf) ⟨120191, 0, 2, [84]⟩ (.node (.node .leaf ⟨120192, 0, 2, [85]⟩ .leaf) ⟨120193, 0, 2, [86]⟩ .leaf)))) ⟨120194, 0, 2, [87]⟩ (.node (.node (.node (.node (.node .leaf ⟨120195, 0, 2, [88]⟩ .leaf) ⟨120196, 0, 2, [89]⟩ (.node .leaf ⟨120197, 0, 2, [90]⟩ .leaf)) ⟨120198, 0, 2, [97]⟩ (.node (.node .leaf ⟨120199, 0, 2, [98]⟩ .leaf) ⟨120200, 0, 2, [99]⟩ .leaf)) ⟨120201, 0, 2, [100]⟩ (.node (.node (.node .leaf ⟨120202, 0, 2, [101]⟩ .leaf) ⟨120203, 0, 2, [102]⟩ .leaf) ⟨120204, 0, 2, [103]⟩ (.node (.node .leaf ⟨120205, 0, 2, [104]⟩ .leaf) ⟨120206, 0, 2, [105]⟩ .leaf))) ⟨120207, 0, 2, [106]⟩ (.node (.node (.node (.node .leaf ⟨120208, 0, 2, [107]⟩ .leaf) ⟨120209, 0, 2, [108]⟩ .leaf) ⟨120210, 0, 2, [109]⟩ (.node (.node .leaf ⟨120211, 0, 2, [110]⟩ .leaf) ⟨120212, 0, 2, [111]⟩ .leaf)) ⟨120213, 0, 2, [112]⟩ (.node (.node (.node .leaf ⟨120214, 0, 2, [113]⟩ .leaf) ⟨120215, 0, 2, [114]⟩ .leaf) ⟨120216, 0, 2, [115]⟩ (.node (.node .leaf ⟨120217, 0, 2, [116]⟩ .leaf) ⟨120218, 0, 2, [117]⟩ .leaf)))))

/-- Rows of Data/Ucd.lean (proof aid). -/
def ucdT99 : Tree UcdRow := (.node (.node (.node (.node (.node (.node .leaf ⟨120220, 0, 2, [119]⟩ .leaf) ⟨120221, 0, 2, [120]⟩ (.node .leaf ⟨120222, 0, 2, [121]⟩ .leaf)) ⟨120223, 0, 2, [122]⟩ (.node (.node .leaf ⟨120224, 0, 2, [65]⟩ .leaf) ⟨120225, 0, 2, [66]⟩ .leaf)) ⟨120226, 0, 2, [67]⟩ (.node (.node (.node .leaf ⟨120227, 0, 2, [68]⟩ .leaf) ⟨120228, 0, 2, [69]⟩ .leaf) ⟨120229, 0, 2, [70]⟩ (.node (.node .leaf ⟨120230, 0, 2, [71]⟩ .leaf) ⟨120231, 0, 2, [72]⟩ .leaf))) ⟨120232, 0, 2, [73]⟩ (.node (.node (.node (.node .leaf ⟨120233, 0, 2, [74]⟩ .leaf) ⟨120234, 0, 2, [75]⟩ (.node .leaf ⟨120235, 0, 2, [76]⟩ .leaf)) ⟨120236, 0, 2, [77]⟩ (.node (.node .leaf ⟨120237, 0, 2, [78]⟩ .leaf) ⟨120238, 0, 2, [79]⟩ .leaf)) ⟨120239, 0, 2, [80]⟩ (.node (.node (.node .leaf ⟨120240, 0, 2, [81]⟩ .leaf) ⟨120241, 0, 2, [82]⟩ .leaf) ⟨120242, 0, 2, [83]⟩ (.node (.node .leaf ⟨120243, 0, 2, [84]⟩ .leaf) ⟨120244, 0, 2, [85]⟩ .leaf)))) ⟨120245, 0, 2, [86]⟩ (.node (.node (.node (.node (.node .leaf ⟨120246, 0, 2, [87]⟩ .leaf) ⟨120247, 0, 2, [88]⟩ (.node .leaf ⟨120248, 0, 2, [89]⟩ .leaf)) ⟨120249, 0, 2, [90]⟩ (.node (.node .leaf ⟨120250, 0, 2, [97]⟩ .leaf) ⟨120251, 0, 2, [98]⟩ .leaf)) ⟨120252, 0, 2, [99]⟩ (.node (.node (.node .leaf ⟨120253, 0, 2, [100]⟩ .leaf) ⟨120254, 0, 2, [101]⟩ .leaf) ⟨120255, 0, 2, [102]⟩ (.node (.node .leaf ⟨120256, 0, 2, [103]⟩ .leaf) ⟨120257, 0, 2, [104]⟩ .leaf))) ⟨120258, 0, 2, [105]⟩ (.node (.node (.node (.node .leaf ⟨120259, 0, 2, [106]⟩ .leaf) ⟨120260, 0, 2, [107]⟩ .leaf) ⟨120261, 0, 2, [108]⟩ (.node (.node .leaf ⟨120262, 0, 2, [109]⟩ .leaf) ⟨120263, 0, 2, [110]⟩ .leaf)) ⟨120264, 0, 2, [111]⟩ (.node (.node (.node .leaf ⟨120265, 0, 2, [112]⟩ .leaf) ⟨120266, 0, 2, [113]⟩ .leaf) ⟨120267, 0, 2, [114]⟩ (.node (.node .leaf ⟨120268, 0, 2, [115]⟩ .leaf) ⟨120269, 0, 2, [116]⟩ .leaf)))))

/-- Rows of Data/Ucd.lean (proof aid). -/
def ucdT100 : Tree UcdRow := (.node (.node (.node (.node (.node (.node .leaf ⟨120271, 0, 2, [118]⟩ .leaf) ⟨120272, 0, 2, [119]⟩ (.node .leaf ⟨120273, 0, 2, [120]⟩ .leaf)) ⟨120274, 0, 2, [121]⟩ (.node (.node .leaf ⟨120275, 0, 2, [122]⟩ .leaf) ⟨120276, 0, 2, [65]⟩ .leaf)) ⟨120277, 0, 2, [66]⟩ (.node (.node (.node .leaf ⟨120278, 0, 2, [67]⟩ .leaf) ⟨120279, 0, 2, [68]⟩ .leaf) ⟨120280, 0, 2, [69]⟩ (.node (.node .leaf ⟨120281, 0, 2, [70]⟩ .leaf) ⟨120282, 0, 2, [71]⟩ .leaf))) ⟨120283, 0, 2, [72]⟩ (.node (.node (.node (.node .leaf ⟨120284, 0, 2, [73]⟩ .leaf) ⟨120285, 0, 2, [74]⟩ (.node .leaf ⟨120286, 0, 2, [75]⟩ .leaf)) ⟨120287, 0, 2, [76]⟩ (.node (.node .leaf ⟨120288, 0, 2, [77]⟩ .leaf) ⟨120289, 0, 2, [78]⟩ .leaf)) ⟨120290, 0, 2, [79]⟩ (.node (.node (.node .leaf ⟨120291, 0, 2, [80]⟩ .leaf) ⟨120292, 0, 2, [81]⟩ .leaf) ⟨120293, 0, 2, [82]⟩ (.node (.node .leaf ⟨120294, 0, 2, [83]⟩ .leaf) ⟨120295, 0, 2, [84]⟩ .leaf)))) ⟨120296, 0, 2, [85]⟩ (.node (.node (.node (.node (.node .leaf ⟨120297, 0, 2, [86]⟩ .leaf) ⟨120298, 0, 2, [87]⟩ (.node .leaf ⟨120299, 0, 2, [88]⟩ .leaf)) ⟨120300, 0, 2, [89]⟩ (.node (.node .leaf ⟨120301, 0, 2, [90]⟩ .leaf) ⟨120302, 0, 2, [97]⟩ .leaf)) ⟨120303, 0, 2, [98]⟩ (.node (.node (.node .leaf ⟨120304, 0, 2, [99]⟩ .leaf) ⟨120305, 0, 2, [100]⟩ .leaf) ⟨120306, 0, 2, [101]⟩ (.node (.node .leaf ⟨120307, 0, 2, [102]⟩ .leaf) ⟨120308, 0, 2, [103]⟩ .leaf))) ⟨120309, 0, 2, [104]⟩ (.node (.node (.node (.node .leaf ⟨120310, 0, 2, [105]⟩ .leaf) ⟨120311, 0, 2, [106]⟩ .leaf) ⟨120312, 0, 2, [107]⟩ (.node (.node .leaf ⟨120313, 0, 2, [108]⟩ .leaf) ⟨120314, 0, 2, [109]⟩ .leaf)) ⟨120315, 0, 2, [110]⟩ (.node (.node (.node .leaf ⟨120316, 0, 2, [111]⟩ .leaf) ⟨120317, 0, 2, [112]⟩ .leaf) ⟨120318, 0, 2, [113]⟩ (.node (.node .leaf ⟨120319, 0, 2, [114]⟩ .leaf) ⟨120320, 0, 2, [115]⟩ .leaf)))))

/-- Rows of Data/Ucd.lean (proof aid). -/
def ucdT101 : Tree UcdRow := (.node (.node (.node (.node (.node (.node .leaf ⟨120322, 0, 2, [117]⟩ .leaf) ⟨120323, 0, 2, [118]⟩ (.node .leaf ⟨120324, 0, 2, [119]⟩ .leaf)) ⟨120325, 0, 2, [120]⟩ (.node (.node .leaf ⟨120326, 0, 2, [121]⟩ .leaf) ⟨120327, 0, 2, [122]⟩ .leaf)) ⟨120328, 0, 2, [65]⟩ (.node (.node (.node .leaf ⟨120329, 0, 2, [66]⟩ .leaf) ⟨120330, 0, 2, [67]⟩ .leaf) ⟨120331, 0, 2, [68]⟩ (.node (.node .leaf ⟨120332, 0, 2, [69]⟩ .leaf) ⟨120333, 0, 2, [70]⟩ .leaf))) ⟨120334, 0, 2, [71]⟩ (.node (.node (.node (.node .leaf ⟨120335, 0, 2, [72]⟩ .leaf) ⟨120336, 0, 2, [73]⟩ (.node .leaf ⟨120337, 0, 2, [74]⟩ .leaf)) ⟨120338, 0, 2, [75]⟩ (.node (.node .leaf ⟨120339, 0, 2, [76]⟩ .leaf) ⟨120340, 0, 2, [77]⟩ .leaf)) ⟨120341, 0, 2, [78]⟩ (.node (.node (.node .leaf ⟨120342, 0, 2, [79]⟩ .leaf) ⟨120343, 0, 2, [80]⟩ .leaf) ⟨120344, 0, 2, [81]⟩ (.node (.node .leaf ⟨120345, 0, 2, [82]⟩ .leaf) ⟨120346, 0, 2, [83]⟩ .leaf)))) ⟨120347, 0, 2, [84]⟩ (.node (.node (.node (.node (.node .leaf ⟨120348, 0, 2, [85]⟩ .leaf) ⟨120349, 0, 2, [86]⟩ (.node .leaf ⟨120350, 0, 2, [87]⟩ .leaf)) ⟨120351, 0, 2, [88]⟩ (.node (.node .leaf ⟨120352, 0, 2, [89]⟩ .leaf) ⟨120353, 0, 2, [90]⟩ .leaf)) ⟨120354, 0, 2, [97]⟩ (.node (.node (.node .leaf ⟨120355, 0, 2, [98]⟩ .leaf) ⟨120356, 0, 2, [99]⟩ .leaf) ⟨120357, 0, 2, [100]⟩ (.node (.node .leaf ⟨120358, 0, 2, [101]⟩ .leaf) ⟨120359, 0, 2, [102]⟩ .leaf))) ⟨120360, 0, 2, [103]⟩ (.node (.node (.node (.node .leaf ⟨120361, 0, 2, [104]⟩ .leaf) ⟨120362, 0, 2, [105]⟩ .leaf) ⟨120363, 0, 2, [106]⟩ (.node (.node .leaf ⟨120364, 0, 2, [107]⟩ .leaf) ⟨120365, 0, 2, [108]⟩ .leaf)) ⟨120366, 0, 2, [109]⟩ (.node (.node (.node .leaf ⟨120367, 0, 2, [110]⟩ .leaf) ⟨120368, 0, 2, [111]⟩ .leaf) ⟨120369, 0, 2, [112]⟩ (.node (.node .leaf ⟨120370, 0, 2, [113]⟩ .leaf) ⟨120371, 0, 2, [114]⟩ .leaf)))))

/-- Rows of Data/Ucd.lean (proof aid). -/
def ucdT102 : Tree UcdRow := (.node (.node (.node (.node (.node (.node .leaf ⟨120373, 0, 2, [116]⟩ .leaf) ⟨120374, 0, 2, [117]⟩ (.node .leaf ⟨120375, 0, 2, [118]⟩ .leaf)) ⟨120376, 0, 2, [119]⟩ (.node (.node .leaf ⟨120377, 0, 2, [120]⟩ .leaf) ⟨120378, 0, 2, [121]⟩ .leaf)) ⟨120379, 0, 2, [122]⟩ (.node (.node (.node .leaf ⟨120380, 0, 2, [65]⟩ .leaf) ⟨120381, 0, 2, [66]⟩ .leaf) ⟨120382, 0, 2, [67]⟩ (.node (.node .leaf ⟨120383, 0, 2, [68]⟩ .leaf) ⟨120384, 0, 2, [69]⟩ .leaf))) ⟨120385, 0, 2, [70]⟩ (.node (.node (.node (.node .leaf ⟨120386, 0, 2, [71]⟩ .leaf) ⟨120387, 0, 2, [72]⟩ (.node .leaf ⟨120388, 0, 2, [73]⟩ .leaf)) ⟨120389, 0, 2, [74]⟩ (.node (.node .leaf ⟨120390, 0, 2, [75]⟩ .leaf) ⟨120391, 0, 2, [76]⟩ .leaf)) ⟨120392, 0, 2, [77]⟩ (.node (.node (.node .leaf ⟨120393, 0, 2, [78]⟩ .leaf) ⟨120394, 0, 2, [79]⟩ .leaf) ⟨120395, 0, 2, [80]⟩ (.node (.node .leaf ⟨120396, 0, 2, [81]⟩ .leaf) ⟨120397, 0, 2, [82]⟩ .leaf)))) ⟨120398, 0, 2, [83]⟩ (.node (.node (.node (.node (.node .leaf ⟨120399, 0, 2, [84]⟩ .leaf) ⟨120400, 0, 2, [85]⟩ (.node .leaf ⟨120401, 0, 2, [86]⟩ .leaf)) ⟨120402, 0, 2, [87]⟩ (.node (.node .leaf ⟨120403, 0, 2, [88]⟩ .leaf) ⟨120404, 0, 2, [89]⟩ .leaf)) ⟨120405, 0, 2, [90]⟩ (.node (.node (.node .leaf ⟨120406, 0, 2, [97]⟩ .leaf) ⟨120407, 0, 2, [98]⟩ .leaf) ⟨120408, 0, 2, [99]⟩ (.node (.node .leaf ⟨120409, 0, 2, [100]⟩ .leaf) ⟨120410, 0, 2, [101]⟩ .leaf))) ⟨120411, 0, 2, [102]⟩ (.node (.node (.node (.node .leaf ⟨120412, 0, 2, [103]⟩ .leaf) ⟨120413, 0, 2, [104]⟩ .leaf) ⟨120414, 0, 2, [105]⟩ (.node (.node .leaf ⟨120415, 0, 2, [106]⟩ .leaf) ⟨120416, 0, 2, [107]⟩ .leaf)) ⟨120417, 0, 2, [108]⟩ (.node (.node (.node .leaf ⟨120418, 0, 2, [109]⟩ .leaf) ⟨120419, 0, 2, [110]⟩ .leaf) ⟨120420, 0, 2, [111]⟩ (.node (.node .leaf ⟨120421, 0, 2, [112]⟩ .leaf) ⟨120422, 0, 2, [113]⟩ .leaf)))))

/-- Rows of Data/Ucd.lean (proof aid). -/
def ucdT103 : Tree UcdRow := (.node (.node (.node (.node (.node (.node .leaf ⟨120424, 0, 2, [115]⟩ .leaf) ⟨120425, 0, 2, [116]⟩ (.node .leaf ⟨120426, 0, 2, [117]⟩ .leaf)) ⟨120427, 0, 2, [118]⟩ (.node (.node .leaf ⟨120428, 0, 2, [119]⟩ .leaf) ⟨120429, 0, 2, [120]⟩ .leaf)) ⟨120430, 0, 2, [121]⟩ (.node (.node (.node .leaf ⟨120431, 0, 2, [122]⟩ .leaf) ⟨120432, 0, 2, [65]⟩ .leaf) ⟨120433, 0, 2, [66]⟩ (.node (.node .leaf ⟨120434, 0, 2, [67]⟩ .leaf) ⟨120435, 0, 2, [68]⟩ .leaf))) ⟨120436, 0, 2, [69]⟩ (.node (.node (.node (.node .leaf ⟨120437, 0, 2, [70]⟩ .leaf) ⟨120438, 0, 2, [71]⟩ (.node .leaf ⟨120439, 0, 2, [72]⟩ .leaf)) ⟨120440, 0, 2, [73]⟩ (.node (.node .leaf ⟨120441, 0, 2, [74]⟩ .leaf) ⟨120442, 0, 2, [75]⟩ .leaf)) ⟨120443, 0, 2, [76]⟩ (.node (.node (.node .leaf ⟨120444, 0, 2, [77]⟩ .leaf) ⟨120445, 0, 2, [78]⟩ .leaf) ⟨120446, 0, 2, [79]⟩ (.node (.node .leaf ⟨120447, 0, 2, [80]⟩ .leaf) ⟨120448, 0, 2, [81]⟩ .leaf)))) ⟨120449, 0, 2, [82]⟩ (.node (.node (.node (.node (.node .leaf ⟨120450, 0, 2, [83]⟩ .leaf) ⟨120451, 0, 2, [84]⟩ (.node .leaf ⟨120452, 0, 2, [85]⟩ .leaf)) ⟨120453, 0, 2, [86]⟩ (.node (.node .leaf ⟨120454, 0, 2, [87]⟩ .leaf) ⟨120455, 0, 2, [88]⟩ .leaf)) ⟨120456, 0, 2, [89]⟩ (.node (.node (.node .leaf ⟨120457, 0, 2, [90]⟩ .leaf) ⟨120458, 0, 2, [97]⟩ .leaf) ⟨120459, 0, 2, [98]⟩ (.node (.node .leaf ⟨120460, 0, 2, [99]⟩ .leaf) ⟨120461, 0, 2, [100]⟩ .leaf))) ⟨120462, 0, 2, [101]⟩ (.node (.node (.node (.node .leaf ⟨120463, 0, 2, [102]⟩ .leaf) ⟨120464, 0, 2, [103]⟩ .leaf) ⟨120465, 0, 2, [104]⟩ (.node (.node .leaf ⟨120466, 0, 2, [105]⟩ .leaf) ⟨120467, 0, 2, [106]⟩ .leaf)) ⟨120468, 0, 2, [107]⟩ (.node (.node (.node .leaf ⟨120469, 0, 2, [108]⟩ .leaf) ⟨120470, 0, 2, [109]⟩ .leaf) ⟨120471, 0, 2, [110]⟩ (.node (.node .leaf ⟨120472, 0, 2, [111]⟩ .leaf) ⟨120473, 0, 2, [112]⟩ .leaf)))))

/-- Rows of Data/Ucd.lean (proof aid). -/
def ucdT104 : Tree UcdRow := (.node (.node (.node (.node (.node (.node .leaf ⟨120475, 0, 2, [114]⟩ .leaf) ⟨120476, 0, 2, [115]⟩ (.node .leaf ⟨120477, 0, 2, [116]⟩ .leaf)) ⟨120478, 0, 2, [117]⟩ (.node (.node .leaf ⟨120479, 0, 2, [118]⟩ .leaf) ⟨120480, 0, 2, [119]⟩ .leaf)) ⟨120481, 0, 2, [120]⟩ (.node (.node (.node .leaf ⟨120482, 0, 2, [121]⟩ .leaf) ⟨120483, 0, 2, [122]⟩ .leaf) ⟨120484, 0, 2, [305]⟩ (.node (.node .leaf ⟨120485, 0, 2, [567]⟩ .leaf) ⟨120488, 0, 2, [913]⟩ .leaf))) ⟨120489, 0, 2, [914]⟩ (.node (.node (.node (.node .leaf ⟨120490, 0, 2, [915]⟩ .leaf) ⟨120491, 0, 2, [916]⟩ (.node .leaf ⟨120492, 0, 2, [917]⟩ .leaf)) ⟨120493, 0, 2, [918]⟩ (.node (.node .leaf ⟨120494, 0, 2, [919]⟩ .leaf) ⟨120495, 0, 2, [920]⟩ .leaf)) ⟨120496, 0, 2, [921]⟩ (.node (.node (.node .leaf ⟨120497, 0, 2, [922]⟩ .leaf) ⟨120498, 0, 2, [923]⟩ .leaf) ⟨120499, 0, 2, [924]⟩ (.node (.node .leaf ⟨120500, 0, 2, [925]⟩ .leaf) ⟨120501, 0, 2, [926]⟩ .leaf)))) ⟨120502, 0, 2, [927]⟩ (.node (.node (.node (.node (.node .leaf ⟨120503, 0, 2, [928]⟩ .leaf) ⟨120504, 0, 2, [929]⟩ (.node .leaf ⟨120505, 0, 2, [1012]⟩ .leaf)) ⟨120506, 0, 2, [931]⟩ (.node (.node .leaf ⟨120507, 0, 2, [932]⟩ .leaf) ⟨120508, 0, 2, [933]⟩ .leaf)) ⟨120509, 0, 2, [934]⟩ (.node (.node (.node .leaf ⟨120510, 0, 2, [935]⟩ .leaf) ⟨120511, 0, 2, [936]⟩ .leaf) ⟨120512, 0, 2, [937]⟩ (.node (.node .leaf ⟨120513, 0, 2, [8711]⟩ .leaf) ⟨120514, 0, 2, [945]⟩ .leaf))) ⟨120515, 0, 2, [946]⟩ (.node (.node (.node (.node .leaf ⟨120516, 0, 2, [947]⟩ .leaf) ⟨120517, 0, 2, [948]⟩ .leaf) ⟨120518, 0, 2, [949]⟩ (.node (.node .leaf ⟨120519, 0, 2, [950]⟩ .leaf) ⟨120520, 0, 2, [951]⟩ .leaf)) ⟨120521, 0, 2, [952]⟩ (.node (.node (.node .leaf ⟨120522, 0, 2, [953]⟩ .leaf) ⟨120523, 0, 2, [954]⟩ .leaf) ⟨120524, 0, 2, [955]⟩ (.node (.node .leaf ⟨120525, 0, 2, [956]⟩ .leaf) ⟨120526, 0, 2, [957]⟩ .leaf)))))

/-- Rows of Data/Ucd.lean (proof aid). -/
def ucdT105 : Tree UcdRow := (.node (.node (.node (.node (.node (.node .leaf ⟨120528, 0, 2, [959]⟩ .leaf) ⟨120529, 0, 2, [960]⟩ (.node .leaf ⟨120530, 0, 2, [961]⟩ .leaf)) ⟨120531, 0, 2, [962]⟩ (.node (.node .leaf ⟨120532, 0, 2, [963]⟩ .leaf) ⟨120533, 0, 2, [964]⟩ .leaf)) ⟨120534, 0, 2, [965]⟩ (.node (.node (.node .leaf ⟨120535, 0, 2, [966]⟩ .leaf) ⟨120536, 0, 2, [967]⟩ .leaf) ⟨120537, 0, 2, [968]⟩ (.node (.node .leaf ⟨120538, 0, 2, [969]⟩ .leaf) ⟨120539, 0, 2, [8706]⟩ .leaf))) ⟨120540, 0, 2, [1013]⟩ (.node (.node (.node (.node .leaf ⟨120541, 0, 2, [977]⟩ .leaf) ⟨120542, 0, 2, [1008]⟩ (.node .leaf ⟨120543, 0, 2, [981]⟩ .leaf)) ⟨120544, 0, 2, [1009]⟩ (.node (.node .leaf ⟨120545, 0, 2, [982]⟩ .leaf) ⟨120546, 0, 2, [913]⟩ .leaf)) ⟨120547, 0, 2, [914]⟩ (.node (.node (.node .leaf ⟨120548, 0, 2, [915]⟩ .leaf) ⟨120549, 0, 2, [916]⟩ .leaf) ⟨120550, 0, 2, [917]⟩ (.node (.node .leaf ⟨120551, 0, 2, [918]⟩ .leaf) ⟨120552, 0, 2, [919]⟩ .leaf)))) ⟨120553, 0, 2, [920]⟩ (.node (.node (.node (.node (.node .leaf ⟨120554, 0, 2, [921]⟩ .leaf) ⟨120555, 0, 2, [922]⟩ (.node .leaf ⟨120556, 0, 2, [923]⟩ .leaf)) ⟨120557, 0, 2, [924]⟩ (.node (.node .leaf ⟨120558, 0, 2, [925]⟩ .leaf) ⟨120559, 0, 2, [926]⟩ .leaf)) ⟨120560, 0, 2, [927]⟩ (.node (.node (.node .leaf ⟨120561, 0, 2, [928]⟩ .leaf) ⟨120562, 0, 2, [929]⟩ .leaf) ⟨120563, 0, 2, [1012]⟩ (.node (.node .leaf ⟨120564, 0, 2, [931]⟩ .leaf) ⟨120565, 0, 2, [932]⟩ .leaf))) ⟨120566, 0, 2, [933]⟩ (.node (.node (.node (.node .leaf ⟨120567, 0, 2, [934]⟩ .leaf) ⟨120568, 0, 2, [935]⟩ .leaf) ⟨120569, 0, 2, [936]⟩ (.node (.node .leaf ⟨120570, 0, 2, [937]⟩ .leaf) ⟨120571, 0, 2, [8711]⟩ .leaf)) ⟨120572, 0, 2, [945]⟩ (.node (.node (.node .leaf ⟨120573, 0, 2, [946]⟩ .leaf) ⟨120574, 0, 2, [947]⟩ .leaf) ⟨120575, 0, 2, [948]⟩ (.node (.node .leaf ⟨120576, 0, 2, [949]⟩ .leaf) ⟨120577, 0, 2, [950]⟩ .leaf)))))

/-- Rows of Data/Ucd.lean (proof aid). -/
def ucdT106 : Tree UcdRow := (.node (.node (.node (.node (.node (.node .leaf ⟨120579, 0, 2, [952]⟩ .leaf) ⟨120580, 0, 2, [953]⟩ (.node .leaf ⟨120581, 0, 2, [954]⟩ .leaf)) ⟨120582, 0, 2, [955]⟩ (.node (.node .leaf ⟨120583, 0, 2, [956]⟩ .leaf) ⟨120584, 0, 2, [957]⟩ .leaf)) ⟨120585, 0, 2, [958]⟩ (.node (.node (.node .leaf ⟨120586, 0, 2, [959]⟩ .leaf) ⟨120587, 0, 2, [960]⟩ .leaf) ⟨120588, 0, 2, [961]⟩ (.node (.node .leaf ⟨120589, 0, 2, [962]⟩ .leaf) ⟨120590, 0, 2, [963]⟩ .leaf))) ⟨120591, 0, 2, [964]⟩ (.node (.node (.node (.node .leaf ⟨120592, 0, 2, [965]⟩ .leaf) ⟨120593, 0, 2, [966]⟩ (.node .leaf ⟨120594, 0, 2, [967]⟩ .leaf)) ⟨120595, 0, 2, [968]⟩ (.node (.node .leaf ⟨120596, 0, 2, [969]⟩ .leaf) ⟨120597, 0, 2, [8706]⟩ .leaf)) ⟨120598, 0, 2, [1013]⟩ (.node (.node (.node .leaf ⟨120599, 0, 2, [977]⟩ .leaf) ⟨120600, 0, 2, [1008]⟩ .leaf) ⟨120601, 0, 2, [981]⟩ (.node (.node .leaf ⟨120602, 0, 2, [1009]⟩ .leaf) ⟨120603, 0, 2, [982]⟩ .leaf)))) ⟨120604, 0, 2, [913]⟩ (.node (.node (.node (.node (.node .leaf ⟨120605, 0, 2, [914]⟩ .leaf) ⟨120606, 0, 2, [915]⟩ (.node .leaf ⟨120607, 0, 2, [916]⟩ .leaf)) ⟨120608, 0, 2, [917]⟩ (.node (.node .leaf ⟨120609, 0, 2, [918]⟩ .leaf) ⟨120610, 0, 2, [919]⟩ .leaf)) ⟨120611, 0, 2, [920]⟩ (.node (.node (.node .leaf ⟨120612, 0, 2, [921]⟩ .leaf) ⟨120613, 0, 2, [922]⟩ .leaf) ⟨120614, 0, 2, [923]⟩ (.node (.node .leaf ⟨120615, 0, 2, [924]⟩ .leaf) ⟨120616, 0, 2, [925]⟩ .leaf))) ⟨120617, 0, 2, [926]⟩ (.node (.node (.node (.node .leaf ⟨120618, 0, 2, [927]⟩ .leaf) ⟨120619, 0, 2, [928]⟩ .leaf) ⟨120620, 0, 2, [929]⟩ (.node (.node .leaf ⟨120621, 0, 2, [1012]⟩ .leaf) ⟨120622, 0, 2, [931]⟩ .leaf)) ⟨120623, 0, 2, [932]⟩ (.node (.node (.node .leaf ⟨120624, 0, 2, [933]⟩ .leaf) ⟨120625, 0, 2, [934]⟩ .leaf) ⟨120626, 0, 2, [935]⟩ (.node (.node .leaf ⟨120627, 0, 2, [936]⟩ .leaf) ⟨120628, 0, 2, [937]⟩ .leaf)))))

/-- Rows of Data/Ucd.lean (proof aid). -/
def ucdT107 : Tree UcdRow := (.node (.node (.node (.node (.node (.node .leaf ⟨120630, 0, 2, [945]⟩ .leaf) ⟨120631, 0, 2, [946]⟩ (.node .leaf ⟨120632, 0, 2, [947]⟩ .leaf)) ⟨120633, 0, 2, [948]⟩ (.node (.node .leaf ⟨120634, 0, 2, [949]⟩ .leaf) ⟨120635, 0, 2, [950]⟩ .leaf)) ⟨120636, 0, 2, [951]⟩ (.node (.node (.node .leaf ⟨120637, 0, 2, [952]⟩ .leaf) ⟨120638, 0, 2, [953]⟩ .leaf) ⟨120639, 0, 2, [954]⟩ (.node (.node .leaf ⟨120640, 0, 2, [955]⟩ .leaf) ⟨120641, 0, 2, [956]⟩ .leaf))) ⟨120642, 0, 2, [957]⟩ (.node (.node (.node (.node .leaf ⟨120643, 0, 2, [958]⟩ .leaf) ⟨120644, 0, 2, [959]⟩ (.node .leaf ⟨120645, 0, 2, [960]⟩ .leaf)) ⟨120646, 0, 2, [961]⟩ (.node (.node .leaf ⟨120647, 0, 2, [962]⟩ .leaf) ⟨120648, 0, 2, [963]⟩ .leaf)) ⟨120649, 0, 2, [964]⟩ (.node (.node (.node .leaf ⟨120650, 0, 2, [965]⟩ .leaf) ⟨120651, 0, 2, [966]⟩ .leaf) ⟨120652, 0, 2, [967]⟩ (.node (.node .leaf ⟨120653, 0, 2, [968]⟩ .leaf) ⟨120654, 0, 2, [969]⟩ .leaf)))) ⟨120655, 0, 2, [8706]⟩ (.node (.node (.node (.node (.node .leaf ⟨120656, 0, 2, [1013]⟩ .leaf) ⟨120657, 0, 2, [977]⟩ (.node .leaf ⟨120658, 0, 2, [1008]⟩ .leaf)) ⟨120659, 0, 2, [981]⟩ (.node (.node .leaf ⟨120660, 0, 2, [1009]⟩ .leaf) ⟨120661, 0, 2, [982]⟩ .leaf)) ⟨120662, 0, 2, [913]⟩ (.node (.node (.node .leaf ⟨120663, 0, 2, [914]⟩ .leaf) ⟨120664, 0, 2, [915]⟩ .leaf) ⟨120665, 0, 2, [916]⟩ (.node (.node .leaf ⟨120666, 0, 2, [917]⟩ .leaf) ⟨120667, 0, 2, [918]⟩ .leaf))) ⟨120668, 0, 2, [919]⟩ (.node (.node (.node (.node .leaf ⟨120669, 0, 2, [920]⟩ .leaf) ⟨120670, 0, 2, [921]⟩ .leaf) ⟨120671, 0, 2, [922]⟩ (.node (.node .leaf ⟨120672, 0, 2, [923]⟩ .leaf) ⟨120673, 0, 2, [924]⟩ .leaf)) ⟨120674, 0, 2, [925]⟩ (.node (.node (.node .leaf ⟨120675, 0, 2, [926]⟩ .leaf) ⟨120676, 0, 2, [927]⟩ .leaf) ⟨120677, 0, 2, [928]⟩ (.node (.node .leaf ⟨120678, 0, 2, [929]⟩ .leaf) ⟨120679, 0, 2, [1012]⟩ .leaf)))))

/-- Rows of Data/Ucd.lean (proof aid). -/
def ucdT108 : Tree UcdRow := (.node (.node (.node (.node (.node (.node .leaf ⟨120681, 0, 2, [932]⟩ .leaf) ⟨120682, 0, 2, [933]⟩ (.node .leaf ⟨120683, 0, 2, [934]⟩ .leaf)) ⟨120684, 0, 2, [935]⟩ (.node (.node .leaf ⟨120685, 0, 2, [936]⟩ .leaf) ⟨120686, 0, 2, [937]⟩ .leaf)) ⟨120687, 0, 2, [8711]⟩ (.node (.node (.node .leaf ⟨120688, 0, 2, [945]⟩ .leaf) ⟨120689, 0, 2, [946]⟩ .leaf) ⟨120690, 0, 2, [947]⟩ (.node (.node .leaf ⟨120691, 0, 2, [948]⟩ .leaf) ⟨120692, 0, 2, [949]⟩ .leaf))) ⟨120693, 0, 2, [950]⟩ (.node (.node (.node (.node .leaf ⟨120694, 0, 2, [951]⟩ .leaf) ⟨120695, 0, 2, [952]⟩ (.node .leaf ⟨120696, 0, 2, [953]⟩ .leaf)) ⟨120697, 0, 2, [954]⟩ (.node (.node .leaf ⟨120698, 0, 2, [955]⟩ .leaf) ⟨120699, 0, 2, [956]⟩ .leaf)) ⟨120700, 0, 2, [957]⟩ (.node (.node (.node .leaf ⟨120701, 0, 2, [958]⟩ .leaf) ⟨120702, 0, 2, [959]⟩ .leaf) ⟨120703, 0, 2, [960]⟩ (.node (.node .leaf ⟨120704, 0, 2, [961]⟩ .leaf) ⟨120705, 0, 2, [962]⟩ .leaf)))) ⟨120706, 0, 2, [963]⟩ (.node (.node (.node (.node (.node .leaf ⟨120707, 0, 2, [964]⟩ .leaf) ⟨120708, 0, 2, [965]⟩ (.node .leaf ⟨120709, 0, 2, [966]⟩ .leaf)) ⟨120710, 0, 2, [967]⟩ (.node (.node .leaf ⟨120711, 0, 2, [968]⟩ .leaf) ⟨120712, 0, 2, [969]⟩ .leaf)) ⟨120713, 0, 2, [8706]⟩ (.node (.node (.node .leaf ⟨120714, 0, 2, [1013]⟩ .leaf) ⟨120715, 0, 2, [977]⟩ .leaf) ⟨120716, 0, 2, [1008]⟩ (.node (.node .leaf ⟨120717, 0, 2, [981]⟩ .leaf) ⟨120718, 0, 2, [1009]⟩ .leaf))) ⟨120719, 0, 2, [982]⟩ (.node (.node (.node (.node .leaf ⟨120720, 0, 2, [913]⟩ .leaf) ⟨120721, 0, 2, [914]⟩ .leaf) ⟨120722, 0, 2, [915]⟩ (.node (.node .leaf ⟨120723, 0, 2, [916]⟩ .leaf) ⟨120724, 0, 2, [917]⟩ .leaf)) ⟨120725, 0, 2, [918]⟩ (.node (.node (.node .leaf ⟨120726, 0, 2, [919]⟩ .leaf) ⟨120727, 0, 2, [920]⟩ .leaf) ⟨120728, 0, 2, [921]⟩ (.node (.node .leaf ⟨120729, 0, 2, [922]⟩ .leaf) ⟨120730, 0, 2, [923]⟩ .leaf)))))

/-- Rows of Data/Ucd.lean (proof aid). -/
def ucdT109 : Tree UcdRow := (.node (.node (.node (.node (.node (.node .leaf ⟨120732, 0, 2, [925]⟩ .leaf) ⟨120733, 0, 2, [926]⟩ (.node .leaf ⟨120734, 0, 2, [927]⟩ .leaf)) ⟨120735, 0, 2, [928]⟩ (.node (.node .leaf ⟨120736, 0, 2, [929]⟩ .leaf) ⟨120737, 0, 2, [1012]⟩ .leaf)) ⟨120738, 0, 2, [931]⟩ (.node (.node (.node .leaf ⟨120739, 0, 2, [932]⟩ .leaf) ⟨120740, 0, 2, [933]⟩ .leaf) ⟨120741, 0, 2, [934]⟩ (.node (.node .leaf ⟨120742, 0, 2, [935]⟩ .leaf) ⟨120743, 0, 2, [936]⟩ .leaf))) ⟨120744, 0, 2, [937]⟩ (.node (.node (.node (.node .leaf ⟨120745, 0, 2, [8711]⟩ .leaf) ⟨120746, 0, 2, [945]⟩ (.node .leaf ⟨120747, 0, 2, [946]⟩ .leaf)) ⟨120748, 0, 2, [947]⟩ (.node (.node .leaf ⟨120749, 0, 2, [948]⟩ .leaf) ⟨120750, 0, 2, [949]⟩ .leaf)) ⟨120751, 0, 2, [950]⟩ (.node (.node (.node .leaf ⟨120752, 0, 2, [951]⟩ .leaf) ⟨120753, 0, 2, [952]⟩ .leaf) ⟨120754, 0, 2, [953]⟩ (.node (.node .leaf ⟨120755, 0, 2, [954]⟩ .leaf) ⟨120756, 0, 2, [955]⟩ .leaf)))) ⟨120757, 0, 2, [956]⟩ (.node (.node (.node (.node (.node .leaf ⟨120758, 0, 2, [957]⟩ .leaf) ⟨120759, 0, 2, [958]⟩ (.node .leaf ⟨120760, 0, 2, [959]⟩ .leaf)) ⟨120761, 0, 2, [960]⟩ (.node (.node .leaf ⟨120762, 0, 2, [961]⟩ .leaf) ⟨120763, 0, 2, [962]⟩ .leaf)) ⟨120764, 0, 2, [963]⟩ (.node (.node (.node .leaf ⟨120765, 0, 2, [964]⟩ .leaf) ⟨120766, 0, 2, [965]⟩ .leaf) ⟨120767, 0, 2, [966]⟩ (.node (.node .leaf ⟨120768, 0, 2, [967]⟩ .leaf) ⟨120769, 0, 2, [968]⟩ .leaf))) ⟨120770, 0, 2, [969]⟩ (.node (.node (.node (.node .leaf ⟨120771, 0, 2, [8706]⟩ .leaf) ⟨120772, 0, 2, [1013]⟩ .leaf) ⟨120773, 0, 2, [977]⟩ (.node (.node .leaf ⟨120774, 0, 2, [1008]⟩ .leaf) ⟨120775, 0, 2, [981]⟩ .leaf)) ⟨120776, 0, 2, [1009]⟩ (.node (.node (.node .leaf ⟨120777, 0, 2, [982]⟩ .leaf) ⟨120778, 0, 2, [988]⟩ .leaf) ⟨120779, 0, 2, [989]⟩ (.node (.node .leaf ⟨120782, 0, 2, [48]⟩ .leaf) ⟨120783, 0, 2, [49]⟩ .leaf)))))

/-- Rows of Data/Ucd.lean (proof aid). -/
def ucdT110 : Tree UcdRow := (.node (.node (.node (.node (.node (.node .leaf ⟨120785, 0, 2, [51]⟩ .leaf) ⟨120786, 0, 2, [52]⟩ (.node .leaf ⟨120787, 0, 2, [53]⟩ .leaf)) ⟨120788, 0, 2, [54]⟩ (.node (.node .leaf ⟨120789, 0, 2, [55]⟩ .leaf) ⟨120790, 0, 2, [56]⟩ .leaf)) ⟨120791, 0, 2, [57]⟩ (.node (.node (.node .leaf ⟨120792, 0, 2, [48]⟩ .leaf) ⟨120793, 0, 2, [49]⟩ .leaf) ⟨120794, 0, 2, [50]⟩ (.node (.node .leaf ⟨120795, 0, 2, [51]⟩ .leaf) ⟨120796, 0, 2, [52]⟩ .leaf))) ⟨120797, 0, 2, [53]⟩ (.node (.node (.node (.node .leaf ⟨120798, 0, 2, [54]⟩ .leaf) ⟨120799, 0, 2, [55]⟩ (.node .leaf ⟨120800, 0, 2, [56]⟩ .leaf)) ⟨120801, 0, 2, [57]⟩ (.node (.node .leaf ⟨120802, 0, 2, [48]⟩ .leaf) ⟨120803, 0, 2, [49]⟩ .leaf)) ⟨120804, 0, 2, [50]⟩ (.node (.node (.node .leaf ⟨120805, 0, 2, [51]⟩ .leaf) ⟨120806, 0, 2, [52]⟩ .leaf) ⟨120807, 0, 2, [53]⟩ (.node (.node .leaf ⟨120808, 0, 2, [54]⟩ .leaf) ⟨120809, 0, 2, [55]⟩ .leaf)))) ⟨120810, 0, 2, [56]⟩ (.node (.node (.node (.node (.node .leaf ⟨120811, 0, 2, [57]⟩ .leaf) ⟨120812, 0, 2, [48]⟩ (.node .leaf ⟨120813, 0, 2, [49]⟩ .leaf)) ⟨120814, 0, 2, [50]⟩ (.node (.node .leaf ⟨120815, 0, 2, [51]⟩ .leaf) ⟨120816, 0, 2, [52]⟩ .leaf)) ⟨120817, 0, 2, [53]⟩ (.node (.node (.node .leaf ⟨120818, 0, 2, [54]⟩ .leaf) ⟨120819, 0, 2, [55]⟩ .leaf) ⟨120820, 0, 2, [56]⟩ (.node (.node .leaf ⟨120821, 0, 2, [57]⟩ .leaf) ⟨120822, 0, 2, [48]⟩ .leaf))) ⟨120823, 0, 2, [49]⟩ (.node (.node (.node (.node .leaf ⟨120824, 0, 2, [50]⟩ .leaf) ⟨120825, 0, 2, [51]⟩ .leaf) ⟨120826, 0, 2, [52]⟩ (.node (.node .leaf ⟨120827, 0, 2, [53]⟩ .leaf) ⟨120828, 0, 2, [54]⟩ .leaf)) ⟨120829, 0, 2, [55]⟩ (.node (.node (.node .leaf ⟨120830, 0, 2, [56]⟩ .leaf) ⟨120831, 0, 2, [57]⟩ .leaf) ⟨122880, 230, 0, []⟩ (.node (.node .leaf ⟨122881, 230, 0, []⟩ .leaf) ⟨122882, 230, 0, []⟩ .leaf)))))

/-- Rows of Data/Ucd.lean (proof aid). -/
def ucdT111 : Tree UcdRow := (.node (.node (.node (.node (.node (.node .leaf ⟨122884, 230, 0, []⟩ .leaf) ⟨122885, 230, 0, []⟩ (.node .leaf ⟨122886, 230, 0, []⟩ .leaf)) ⟨122888, 230, 0, []⟩ (.node (.node .leaf ⟨122889, 230, 0, []⟩ .leaf) ⟨122890, 230, 0, []⟩ .leaf)) ⟨122891, 230, 0, []⟩ (.node (.node (.node .leaf ⟨122892, 230, 0, []⟩ .leaf) ⟨122893, 230, 0, []⟩ .leaf) ⟨122894, 230, 0, []⟩ (.node (.node .leaf ⟨122895, 230, 0, []⟩ .leaf) ⟨122896, 230, 0, []⟩ .leaf))) ⟨122897, 230, 0, []⟩ (.node (.node (.node (.node .leaf ⟨122898, 230, 0, []⟩ .leaf) ⟨122899, 230, 0, []⟩ (.node .leaf ⟨122900, 230, 0, []⟩ .leaf)) ⟨122901, 230, 0, []⟩ (.node (.node .leaf ⟨122902, 230, 0, []⟩ .leaf) ⟨122903, 230, 0, []⟩ .leaf)) ⟨122904, 230, 0, []⟩ (.node (.node (.node .leaf ⟨122907, 230, 0, []⟩ .leaf) ⟨122908, 230, 0, []⟩ .leaf) ⟨122909, 230, 0, []⟩ (.node (.node .leaf ⟨122910, 230, 0, []⟩ .leaf) ⟨122911, 230, 0, []⟩ .leaf)))) ⟨122912, 230, 0, []⟩ (.node (.node (.node (.node (.node .leaf ⟨122913, 230, 0, []⟩ .leaf) ⟨122915, 230, 0, []⟩ (.node .leaf ⟨122916, 230, 0, []⟩ .leaf)) ⟨122918, 230, 0, []⟩ (.node (.node .leaf ⟨122919, 230, 0, []⟩ .leaf) ⟨122920, 230, 0, []⟩ .leaf)) ⟨122921, 230, 0, []⟩ (.node (.node (.node .leaf ⟨122922, 230, 0, []⟩ .leaf) ⟨125136, 220, 0, []⟩ .leaf) ⟨125137, 220, 0, []⟩ (.node (.node .leaf ⟨125138, 220, 0, []⟩ .leaf) ⟨125139, 220, 0, []⟩ .leaf))) ⟨125140, 220, 0, []⟩ (.node (.node (.node (.node .leaf ⟨125141, 220, 0, []⟩ .leaf) ⟨125142, 220, 0, []⟩ .leaf) ⟨125252, 230, 0, []⟩ (.node (.node .leaf ⟨125253, 230, 0, []⟩ .leaf) ⟨125254, 230, 0, []⟩ .leaf)) ⟨125255, 230, 0, []⟩ (.node (.node (.node .leaf ⟨125256, 230, 0, []⟩ .leaf) ⟨125257, 230, 0, []⟩ .leaf) ⟨125258, 7, 0, []⟩ (.node (.node .leaf ⟨126464, 0, 2, [1575]⟩ .leaf) ⟨126465, 0, 2, [1576]⟩ .leaf)))))

/-- Rows of Data/Ucd.lean (proof aid). -/
def ucdT112 : Tree UcdRow := (.node (.node (.node (.node (.node (.node .leaf ⟨126467, 0, 2, [1583]⟩ .leaf) ⟨126469, 0, 2, [1608]⟩ (.node .leaf ⟨126470, 0, 2, [1586]⟩ .leaf)) ⟨126471, 0, 2, [1581]⟩ (.node (.node .leaf ⟨126472, 0, 2, [1591]⟩ .leaf) ⟨126473, 0, 2, [1610]⟩ .leaf)) ⟨126474, 0, 2, [1603]⟩ (.node (.node (.node .leaf ⟨126475, 0, 2, [1604]⟩ .leaf) ⟨126476, 0, 2, [1605]⟩ .leaf) ⟨126477, 0, 2, [1606]⟩ (.node (.node .leaf ⟨126478, 0, 2, [1587]⟩ .leaf) ⟨126479, 0, 2, [1593]⟩ .leaf))) ⟨126480, 0, 2, [1601]⟩ (.node (.node (.node (.node .leaf ⟨126481, 0, 2, [1589]⟩ .leaf) ⟨126482, 0, 2, [1602]⟩ (.node .leaf ⟨126483, 0, 2, [1585]⟩ .leaf)) ⟨126484, 0, 2, [1588]⟩ (.node (.node .leaf ⟨126485, 0, 2, [1578]⟩ .leaf) ⟨126486, 0, 2, [1579]⟩ .leaf)) ⟨126487, 0, 2, [1582]⟩ (.node (.node (.node .leaf ⟨126488, 0, 2, [1584]⟩ .leaf) ⟨126489, 0, 2, [1590]⟩ .leaf) ⟨126490, 0, 2, [1592]⟩ (.node (.node .leaf ⟨126491, 0, 2, [1594]⟩ .leaf) ⟨126492, 0, 2, [1646]⟩ .leaf)))) ⟨126493, 0, 2, [1722]⟩ (.node (.node (.node (.node (.node .leaf ⟨126494, 0, 2, [1697]⟩ .leaf) ⟨126495, 0, 2, [1647]⟩ (.node .leaf ⟨126497, 0, 2, [1576]⟩ .leaf)) ⟨126498, 0, 2, [1580]⟩ (.node (.node .leaf ⟨126500, 0, 2, [1607]⟩ .leaf) ⟨126503, 0, 2, [1581]⟩ .leaf)) ⟨126505, 0, 2, [1610]⟩ (.node (.node (.node .leaf ⟨126506, 0, 2, [1603]⟩ .leaf) ⟨126507, 0, 2, [1604]⟩ .leaf) ⟨126508, 0, 2, [1605]⟩ (.node (.node .leaf ⟨126509, 0, 2, [1606]⟩ .leaf) ⟨126510, 0, 2, [1587]⟩ .leaf))) ⟨126511, 0, 2, [1593]⟩ (.node (.node (.node (.node .leaf ⟨126512, 0, 2, [1601]⟩ .leaf) ⟨126513, 0, 2, [1589]⟩ .leaf) ⟨126514, 0, 2, [1602]⟩ (.node (.node .leaf ⟨126516, 0, 2, [1588]⟩ .leaf) ⟨126517, 0, 2, [1578]⟩ .leaf)) ⟨126518, 0, 2, [1579]⟩ (.node (.node (.node .leaf ⟨126519, 0, 2, [1582]⟩ .leaf) ⟨126521, 0, 2, [1590]⟩ .leaf) ⟨126523, 0, 2, [1594]⟩ (.node (.node .leaf ⟨126530, 0, 2, [1580]⟩ .leaf) ⟨126535, 0, 2, [1581]⟩ .leaf)))))

/-- Rows of Data/Ucd.lean (proof aid). -/
def ucdT113 : Tree UcdRow := (.node (.node (.node (.node (.node (.node .leaf ⟨126539, 0, 2, [1604]⟩ .leaf) ⟨126541, 0, 2, [1606]⟩ (.node .leaf ⟨126542, 0, 2, [1587]⟩ .leaf)) ⟨126543, 0, 2, [1593]⟩ (.node (.node .leaf ⟨126545, 0, 2, [1589]⟩ .leaf) ⟨126546, 0, 2, [1602]⟩ .leaf)) ⟨126548, 0, 2, [1588]⟩ (.node (.node (.node .leaf ⟨126551, 0, 2, [1582]⟩ .leaf) ⟨126553, 0, 2, [1590]⟩ .leaf) ⟨126555, 0, 2, [1594]⟩ (.node (.node .leaf ⟨126557, 0, 2, [1722]⟩ .leaf) ⟨126559, 0, 2, [1647]⟩ .leaf))) ⟨126561, 0, 2, [1576]⟩ (.node (.node (.node (.node .leaf ⟨126562, 0, 2, [1580]⟩ .leaf) ⟨126564, 0, 2, [1607]⟩ (.node .leaf ⟨126567, 0, 2, [1581]⟩ .leaf)) ⟨126568, 0, 2, [1591]⟩ (.node (.node .leaf ⟨126569, 0, 2, [1610]⟩ .leaf) ⟨126570, 0, 2, [1603]⟩ .leaf)) ⟨126572, 0, 2, [1605]⟩ (.node (.node (.node .leaf ⟨126573, 0, 2, [1606]⟩ .leaf) ⟨126574, 0, 2, [1587]⟩ .leaf) ⟨126575, 0, 2, [1593]⟩ (.node (.node .leaf ⟨126576, 0, 2, [1601]⟩ .leaf) ⟨126577, 0, 2, [1589]⟩ .leaf)))) ⟨126578, 0, 2, [1602]⟩ (.node (.node (.node (.node (.node .leaf ⟨126580, 0, 2, [1588]⟩ .leaf) ⟨126581, 0, 2, [1578]⟩ (.node .leaf ⟨126582, 0, 2, [1579]⟩ .leaf)) ⟨126583, 0, 2, [1582]⟩ (.node (.node .leaf ⟨126585, 0, 2, [1590]⟩ .leaf) ⟨126586, 0, 2, [1592]⟩ .leaf)) ⟨126587, 0, 2, [1594]⟩ (.node (.node (.node .leaf ⟨126588, 0, 2, [1646]⟩ .leaf) ⟨126590, 0, 2, [1697]⟩ .leaf) ⟨126592, 0, 2, [1575]⟩ (.node (.node .leaf ⟨126593, 0, 2, [1576]⟩ .leaf) ⟨126594, 0, 2, [1580]⟩ .leaf))) ⟨126595, 0, 2, [1583]⟩ (.node (.node (.node (.node .leaf ⟨126596, 0, 2, [1607]⟩ .leaf) ⟨126597, 0, 2, [1608]⟩ .leaf) ⟨126598, 0, 2, [1586]⟩ (.node (.node .leaf ⟨126599, 0, 2, [1581]⟩ .leaf) ⟨126600, 0, 2, [1591]⟩ .leaf)) ⟨126601, 0, 2, [1610]⟩ (.node (.node (.node .leaf ⟨126603, 0, 2, [1604]⟩ .leaf) ⟨126604, 0, 2, [1605]⟩ .leaf) ⟨126605, 0, 2, [1606]⟩ (.node (.node .leaf ⟨126606, 0, 2, [1587]⟩ .leaf) ⟨126607, 0, 2, [1593]⟩ .leaf)))))

/-- Rows of Data/Ucd.lean (proof aid). -/
def ucdT114 : Tree UcdRow := (.node (.node (.node (.node (.node (.node .leaf ⟨126609, 0, 2, [1589]⟩ .leaf) ⟨126610, 0, 2, [1602]⟩ (.node .leaf ⟨126611, 0, 2, [1585]⟩ .leaf)) ⟨126612, 0, 2, [1588]⟩ (.node (.node .leaf ⟨126613, 0, 2, [1578]⟩ .leaf) ⟨126614, 0, 2, [1579]⟩ .leaf)) ⟨126615, 0, 2, [1582]⟩ (.node (.node (.node .leaf ⟨126616, 0, 2, [1584]⟩ .leaf) ⟨126617, 0, 2, [1590]⟩ .leaf) ⟨126618, 0, 2, [1592]⟩ (.node (.node .leaf ⟨126619, 0, 2, [1594]⟩ .leaf) ⟨126625, 0, 2, [1576]⟩ .leaf))) ⟨126626, 0, 2, [1580]⟩ (.node (.node (.node (.node .leaf ⟨126627, 0, 2, [1583]⟩ .leaf) ⟨126629, 0, 2, [1608]⟩ (.node .leaf ⟨126630, 0, 2, [1586]⟩ .leaf)) ⟨126631, 0, 2, [1581]⟩ (.node (.node .leaf ⟨126632, 0, 2, [1591]⟩ .leaf) ⟨126633, 0, 2, [1610]⟩ .leaf)) ⟨126635, 0, 2, [1604]⟩ (.node (.node (.node .leaf ⟨126636, 0, 2, [1605]⟩ .leaf) ⟨126637, 0, 2, [1606]⟩ .leaf) ⟨126638, 0, 2, [1587]⟩ (.node (.node .leaf ⟨126639, 0, 2, [1593]⟩ .leaf) ⟨126640, 0, 2, [1601]⟩ .leaf)))) ⟨126641, 0, 2, [1589]⟩ (.node (.node (.node (.node (.node .leaf ⟨126642, 0, 2, [1602]⟩ .leaf) ⟨126643, 0, 2, [1585]⟩ (.node .leaf ⟨126644, 0, 2, [1588]⟩ .leaf)) ⟨126645, 0, 2, [1578]⟩ (.node (.node .leaf ⟨126646, 0, 2, [1579]⟩ .leaf) ⟨126647, 0, 2, [1582]⟩ .leaf)) ⟨126648, 0, 2, [1584]⟩ (.node (.node (.node .leaf ⟨126649, 0, 2, [1590]⟩ .leaf) ⟨126650, 0, 2, [1592]⟩ .leaf) ⟨126651, 0, 2, [1594]⟩ (.node (.node .leaf ⟨127232, 0, 1, [48, 46]⟩ .leaf) ⟨127233, 0, 1, [48, 44]⟩ .leaf))) ⟨127234, 0, 1, [49, 44]⟩ (.node (.node (.node (.node .leaf ⟨127235, 0, 1, [50, 44]⟩ .leaf) ⟨127236, 0, 1, [51, 44]⟩ .leaf) ⟨127237, 0, 1, [52, 44]⟩ (.node (.node .leaf ⟨127238, 0, 1, [53, 44]⟩ .leaf) ⟨127239, 0, 1, [54, 44]⟩ .leaf)) ⟨127240, 0, 1, [55, 44]⟩ (.node (.node (.node .leaf ⟨127241, 0, 1, [56, 44]⟩ .leaf) ⟨127242, 0, 1, [57, 44]⟩ .leaf) ⟨127248, 0, 1, [40, 65, 41]⟩ (.node (.node .leaf ⟨127249, 0, 1, [40, 66, 41]⟩ .leaf) ⟨127250, 0, 1, [40, 67, 41]⟩ .leaf)))))

/-- Rows of Data/Ucd.lean (proof aid). -/
def ucdT115 : Tree UcdRow := (.node (.node (.node (.node (.node (.node .leaf ⟨127252, 0, 1, [40, 69, 41]⟩ .leaf) ⟨127253, 0, 1, [40, 70, 41]⟩ (.node .leaf ⟨127254, 0, 1, [40, 71, 41]⟩ .leaf)) ⟨127255, 0, 1, [40, 72, 41]⟩ (.node (.node .leaf ⟨127256, 0, 1, [40, 73, 41]⟩ .leaf) ⟨127257, 0, 1, [40, 74, 41]⟩ .leaf)) ⟨127258, 0, 1, [40, 75, 41]⟩ (.node (.node (.node .leaf ⟨127259, 0, 1, [40, 76, 41]⟩ .leaf) ⟨127260, 0, 1, [40, 77, 41]⟩ .leaf) ⟨127261, 0, 1, [40, 78, 41]⟩ (.node (.node .leaf ⟨127262, 0, 1, [40, 79, 41]⟩ .leaf) ⟨127263, 0, 1, [40, 80, 41]⟩ .leaf))) ⟨127264, 0, 1, [40, 81, 41]⟩ (.node (.node (.node (.node .leaf ⟨127265, 0, 1, [40, 82, 41]⟩ .leaf) ⟨127266, 0, 1, [40, 83, 41]⟩ (.node .leaf ⟨127267, 0, 1, [40, 84, 41]⟩ .leaf)) ⟨127268, 0, 1, [40, 85, 41]⟩ (.node (.node .leaf ⟨127269, 0, 1, [40, 86, 41]⟩ .leaf) ⟨127270, 0, 1, [40, 87, 41]⟩ .leaf)) ⟨127271, 0, 1, [40, 88, 41]⟩ (.node (.node (.node .leaf ⟨127272, 0, 1, [40, 89, 41]⟩ .leaf) ⟨127273, 0, 1, [40, 90, 41]⟩ .leaf) ⟨127274, 0, 1, [12308, 83, 12309]⟩ (.node (.node .leaf ⟨127275, 0, 2, [67]⟩ .leaf) ⟨127276, 0, 2, [82]⟩ .leaf)))) ⟨127277, 0, 2, [67, 68]⟩ (.node (.node (.node (.node (.node .leaf ⟨127278, 0, 2, [87, 90]⟩ .leaf) ⟨127280, 0, 2, [65]⟩ (.node .leaf ⟨127281, 0, 2, [66]⟩ .leaf)) ⟨127282, 0, 2, [67]⟩ (.node (.node .leaf ⟨127283, 0, 2, [68]⟩ .leaf) ⟨127284, 0, 2, [69]⟩ .leaf)) ⟨127285, 0, 2, [70]⟩ (.node (.node (.node .leaf ⟨127286, 0, 2, [71]⟩ .leaf) ⟨127287, 0, 2, [72]⟩ .leaf) ⟨127288, 0, 2, [73]⟩ (.node (.node .leaf ⟨127289, 0, 2, [74]⟩ .leaf) ⟨127290, 0, 2, [75]⟩ .leaf))) ⟨127291, 0, 2, [76]⟩ (.node (.node (.node (.node .leaf ⟨127292, 0, 2, [77]⟩ .leaf) ⟨127293, 0, 2, [78]⟩ .leaf) ⟨127294, 0, 2, [79]⟩ (.node (.node .leaf ⟨127295, 0, 2, [80]⟩ .leaf) ⟨127296, 0, 2, [81]⟩ .leaf)) ⟨127297, 0, 2, [82]⟩ (.node (.node (.node .leaf ⟨127298, 0, 2, [83]⟩ .leaf) ⟨127299, 0, 2, [84]⟩ .leaf) ⟨127300, 0, 2, [85]⟩ (.node (.node .leaf ⟨127301, 0, 2, [86]⟩ .leaf) ⟨127302, 0, 2, [87]⟩ .leaf)))))

/-- Rows of Data/Ucd.lean (proof aid). -/
def ucdT116 : Tree UcdRow := (.node (.node (.node (.node (.node (.node .leaf ⟨127304, 0, 2, [89]⟩ .leaf) ⟨127305, 0, 2, [90]⟩ (.node .leaf ⟨127306, 0, 2, [72, 86]⟩ .leaf)) ⟨127307, 0, 2, [77, 86]⟩ (.node (.node .leaf ⟨127308, 0, 2, [83, 68]⟩ .leaf) ⟨127309, 0, 2, [83, 83]⟩ .leaf)) ⟨127310, 0, 2, [80, 80, 86]⟩ (.node (.node (.node .leaf ⟨127311, 0, 2, [87, 67]⟩ .leaf) ⟨127338, 0, 2, [77, 67]⟩ .leaf) ⟨127339, 0, 2, [77, 68]⟩ (.node (.node .leaf ⟨127376, 0, 2, [68, 74]⟩ .leaf) ⟨127488, 0, 2, [12411, 12363]⟩ .leaf))) ⟨127489, 0, 2, [12467, 12467]⟩ (.node (.node (.node (.node .leaf ⟨127490, 0, 2, [12469]⟩ .leaf) ⟨127504, 0, 2, [25163]⟩ (.node .leaf ⟨127505, 0, 2, [23383]⟩ .leaf)) ⟨127506, 0, 2, [21452]⟩ (.node (.node .leaf ⟨127507, 0, 2, [12487]⟩ .leaf) ⟨127508, 0, 2, [20108]⟩ .leaf)) ⟨127509, 0, 2, [22810]⟩ (.node (.node (.node .leaf ⟨127510, 0, 2, [35299]⟩ .leaf) ⟨127511, 0, 2, [22825]⟩ .leaf) ⟨127512, 0, 2, [20132]⟩ (.node (.node .leaf ⟨127513, 0, 2, [26144]⟩ .leaf) ⟨127514, 0, 2, [28961]⟩ .leaf)))) ⟨127515, 0, 2, [26009]⟩ (.node (.node (.node (.node (.node .leaf ⟨127516, 0, 2, [21069]⟩ .leaf) ⟨127517, 0, 2, [24460]⟩ (.node .leaf ⟨127518, 0, 2, [20877]⟩ .leaf)) ⟨127519, 0, 2, [26032]⟩ (.node (.node .leaf ⟨127520, 0, 2, [21021]⟩ .leaf) ⟨127521, 0, 2, [32066]⟩ .leaf)) ⟨127522, 0, 2, [29983]⟩ (.node (.node (.node .leaf ⟨127523, 0, 2, [36009]⟩ .leaf) ⟨127524, 0, 2, [22768]⟩ .leaf) ⟨127525, 0, 2, [21561]⟩ (.node (.node .leaf ⟨127526, 0, 2, [28436]⟩ .leaf) ⟨127527, 0, 2, [25237]⟩ .leaf))) ⟨127528, 0, 2, [25429]⟩ (.node (.node (.node (.node .leaf ⟨127529, 0, 2, [19968]⟩ .leaf) ⟨127530, 0, 2, [19977]⟩ .leaf) ⟨127531, 0, 2, [36938]⟩ (.node (.node .leaf ⟨127532, 0, 2, [24038]⟩ .leaf) ⟨127533, 0, 2, [20013]⟩ .leaf)) ⟨127534, 0, 2, [21491]⟩ (.node (.node (.node .leaf ⟨127535, 0, 2, [25351]⟩ .leaf) ⟨127536, 0, 2, [36208]⟩ .leaf) ⟨127537, 0, 2, [25171]⟩ (.node (.node .leaf ⟨127538, 0, 2, [31105]⟩ .leaf) ⟨127539, 0, 2, [31354]⟩ .leaf)))))

/-- Rows of Data/Ucd.lean (proof aid). -/
def ucdT117 : Tree UcdRow := (.node (.node (.node (.node (.node (.node .leaf ⟨127541, 0, 2, [28288]⟩ .leaf) ⟨127542, 0, 2, [26377]⟩ (.node .leaf ⟨127543, 0, 2, [26376]⟩ .leaf)) ⟨127544, 0, 2, [30003]⟩ (.node (.node .leaf ⟨127545, 0, 2, [21106]⟩ .leaf) ⟨127546, 0, 2, [21942]⟩ .leaf)) ⟨127547, 0, 2, [37197]⟩ (.node (.node (.node .leaf ⟨127552, 0, 1, [12308, 26412, 12309]⟩ .leaf) ⟨127553, 0, 1, [12308, 19977, 12309]⟩ .leaf) ⟨127554, 0, 1, [12308, 20108, 12309]⟩ (.node (.node .leaf ⟨127555, 0, 1, [12308, 23433, 12309]⟩ .leaf) ⟨127556, 0, 1, [12308, 28857, 12309]⟩ .leaf))) ⟨127557, 0, 1, [12308, 25171, 12309]⟩ (.node (.node (.node (.node .leaf ⟨127558, 0, 1, [12308, 30423, 12309]⟩ .leaf) ⟨127559, 0, 1, [12308, 21213, 12309]⟩ (.node .leaf ⟨127560, 0, 1, [12308, 25943, 12309]⟩ .leaf)) ⟨127568, 0, 2, [24471]⟩ (.node (.node .leaf ⟨127569, 0, 2, [21487]⟩ .leaf) ⟨194560, 0, 0, [20029]⟩ .leaf)) ⟨194561, 0, 0, [20024]⟩ (.node (.node (.node .leaf ⟨194562, 0, 0, [20033]⟩ .leaf) ⟨194563, 0, 0, [131362]⟩ .leaf) ⟨194564, 0, 0, [20320]⟩ (.node (.node .leaf ⟨194565, 0, 0, [20398]⟩ .leaf) ⟨194566, 0, 0, [20411]⟩ .leaf)))) ⟨194567, 0, 0, [20482]⟩ (.node (.node (.node (.node (.node .leaf ⟨194568, 0, 0, [20602]⟩ .leaf) ⟨194569, 0, 0, [20633]⟩ (.node .leaf ⟨194570, 0, 0, [20711]⟩ .leaf)) ⟨194571, 0, 0, [20687]⟩ (.node (.node .leaf ⟨194572, 0, 0, [13470]⟩ .leaf) ⟨194573, 0, 0, [132666]⟩ .leaf)) ⟨194574, 0, 0, [20813]⟩ (.node (.node (.node .leaf ⟨194575, 0, 0, [20820]⟩ .leaf) ⟨194576, 0, 0, [20836]⟩ .leaf) ⟨194577, 0, 0, [20855]⟩ (.node (.node .leaf ⟨194578, 0, 0, [132380]⟩ .leaf) ⟨194579, 0, 0, [13497]⟩ .leaf))) ⟨194580, 0, 0, [20839]⟩ (.node (.node (.node (.node .leaf ⟨194581, 0, 0, [20877]⟩ .leaf) ⟨194582, 0, 0, [132427]⟩ .leaf) ⟨194583, 0, 0, [20887]⟩ (.node (.node .leaf ⟨194584, 0, 0, [20900]⟩ .leaf) ⟨194585, 0, 0, [20172]⟩ .leaf)) ⟨194586, 0, 0, [20908]⟩ (.node (.node (.node .leaf ⟨194587, 0, 0, [20917]⟩ .leaf) ⟨194588, 0, 0, [168415]⟩ .leaf) ⟨194589, 0, 0, [20981]⟩ (.node (.node .leaf ⟨194590, 0, 0, [20995]⟩ .leaf) ⟨194591, 0, 0, [13535]⟩ .leaf)))))

/-- Rows of Data/Ucd.lean (proof aid). -/
def ucdT118 : Tree UcdRow := (.node (.node (.node (.node (.node (.node .leaf ⟨194593, 0, 0, [21062]⟩ .leaf) ⟨194594, 0, 0, [21106]⟩ (.node .leaf ⟨194595, 0, 0, [21111]⟩ .leaf)) ⟨194596, 0, 0, [13589]⟩ (.node (.node .leaf ⟨194597, 0, 0, [21191]⟩ .leaf) ⟨194598, 0, 0, [21193]⟩ .leaf)) ⟨194599, 0, 0, [21220]⟩ (.node (.node (.node .leaf ⟨194600, 0, 0, [21242]⟩ .leaf) ⟨194601, 0, 0, [21253]⟩ .leaf) ⟨194602, 0, 0, [21254]⟩ (.node (.node .leaf ⟨194603, 0, 0, [21271]⟩ .leaf) ⟨194604, 0, 0, [21321]⟩ .leaf))) ⟨194605, 0, 0, [21329]⟩ (.node (.node (.node (.node .leaf ⟨194606, 0, 0, [21338]⟩ .leaf) ⟨194607, 0, 0, [21363]⟩ (.node .leaf ⟨194608, 0, 0, [21373]⟩ .leaf)) ⟨194609, 0, 0, [21375]⟩ (.node (.node .leaf ⟨194610, 0, 0, [21375]⟩ .leaf) ⟨194611, 0, 0, [21375]⟩ .leaf)) ⟨194612, 0, 0, [133676]⟩ (.node (.node (.node .leaf ⟨194613, 0, 0, [28784]⟩ .leaf) ⟨194614, 0, 0, [21450]⟩ .leaf) ⟨194615, 0, 0, [21471]⟩ (.node (.node .leaf ⟨194616, 0, 0, [133987]⟩ .leaf) ⟨194617, 0, 0, [21483]⟩ .leaf)))) ⟨194618, 0, 0, [21489]⟩ (.node (.node (.node (.node (.node .leaf ⟨194619, 0, 0, [21510]⟩ .leaf) ⟨194620, 0, 0, [21662]⟩ (.node .leaf ⟨194621, 0, 0, [21560]⟩ .leaf)) ⟨194622, 0, 0, [21576]⟩ (.node (.node .leaf ⟨194623, 0, 0, [21608]⟩ .leaf) ⟨194624, 0, 0, [21666]⟩ .leaf)) ⟨194625, 0, 0, [21750]⟩ (.node (.node (.node .leaf ⟨194626, 0, 0, [21776]⟩ .leaf) ⟨194627, 0, 0, [21843]⟩ .leaf) ⟨194628, 0, 0, [21859]⟩ (.node (.node .leaf ⟨194629, 0, 0, [21892]⟩ .leaf) ⟨194630, 0, 0, [21892]⟩ .leaf))) ⟨194631, 0, 0, [21913]⟩ (.node (.node (.node (.node .leaf ⟨194632, 0, 0, [21931]⟩ .leaf) ⟨194633, 0, 0, [21939]⟩ .leaf) ⟨194634, 0, 0, [21954]⟩ (.node (.node .leaf ⟨194635, 0, 0, [22294]⟩ .leaf) ⟨194636, 0, 0, [22022]⟩ .leaf)) ⟨194637, 0, 0, [22295]⟩ (.node (.node (.node .leaf ⟨194638, 0, 0, [22097]⟩ .leaf) ⟨194639, 0, 0, [22132]⟩ .leaf) ⟨194640, 0, 0, [20999]⟩ (.node (.node .leaf ⟨194641, 0, 0, [22766]⟩ .leaf) ⟨194642, 0, 0, [22478]⟩ .leaf)))))

/-- Rows of Data/Ucd.lean (proof aid). -/
def ucdT119 : Tree UcdRow := (.node (.node (.node (.node (.node (.node .leaf ⟨194644, 0, 0, [22541]⟩ .leaf) ⟨194645, 0, 0, [22411]⟩ (.node .leaf ⟨194646, 0, 0, [22578]⟩ .leaf)) ⟨194647, 0, 0, [22577]⟩ (.node (.node .leaf ⟨194648, 0, 0, [22700]⟩ .leaf) ⟨194649, 0, 0, [136420]⟩ .leaf)) ⟨194650, 0, 0, [22770]⟩ (.node (.node (.node .leaf ⟨194651, 0, 0, [22775]⟩ .leaf) ⟨194652, 0, 0, [22790]⟩ .leaf) ⟨194653, 0, 0, [22810]⟩ (.node (.node .leaf ⟨194654, 0, 0, [22818]⟩ .leaf) ⟨194655, 0, 0, [22882]⟩ .leaf))) ⟨194656, 0, 0, [136872]⟩ (.node (.node (.node (.node .leaf ⟨194657, 0, 0, [136938]⟩ .leaf) ⟨194658, 0, 0, [23020]⟩ (.node .leaf ⟨194659, 0, 0, [23067]⟩ .leaf)) ⟨194660, 0, 0, [23079]⟩ (.node (.node .leaf ⟨194661, 0, 0, [23000]⟩ .leaf) ⟨194662, 0, 0, [23142]⟩ .leaf)) ⟨194663, 0, 0, [14062]⟩ (.node (.node (.node .leaf ⟨194664, 0, 0, [14076]⟩ .leaf) ⟨194665, 0, 0, [23304]⟩ .leaf) ⟨194666, 0, 0, [23358]⟩ (.node (.node .leaf ⟨194667, 0, 0, [23358]⟩ .leaf) ⟨194668, 0, 0, [137672]⟩ .leaf)))) ⟨194669, 0, 0, [23491]⟩ (.node (.node (.node (.node (.node .leaf ⟨194670, 0, 0, [23512]⟩ .leaf) ⟨194671, 0, 0, [23527]⟩ (.node .leaf ⟨194672, 0, 0, [23539]⟩ .leaf)) ⟨194673, 0, 0, [138008]⟩ (.node (.node .leaf ⟨194674, 0, 0, [23551]⟩ .leaf) ⟨194675, 0, 0, [23558]⟩ .leaf)) ⟨194676, 0, 0, [24403]⟩ (.node (.node (.node .leaf ⟨194677, 0, 0, [23586]⟩ .leaf) ⟨194678, 0, 0, [14209]⟩ .leaf) ⟨194679, 0, 0, [23648]⟩ (.node (.node .leaf ⟨194680, 0, 0, [23662]⟩ .leaf) ⟨194681, 0, 0, [23744]⟩ .leaf))) ⟨194682, 0, 0, [23693]⟩ (.node (.node (.node (.node .leaf ⟨194683, 0, 0, [138724]⟩ .leaf) ⟨194684, 0, 0, [23875]⟩ .leaf) ⟨194685, 0, 0, [138726]⟩ (.node (.node .leaf ⟨194686, 0, 0, [23918]⟩ .leaf) ⟨194687, 0, 0, [23915]⟩ .leaf)) ⟨194688, 0, 0, [23932]⟩ (.node (.node (.node .leaf ⟨194689, 0, 0, [24033]⟩ .leaf) ⟨194690, 0, 0, [24034]⟩ .leaf) ⟨194691, 0, 0, [14383]⟩ (.node (.node .leaf ⟨194692, 0, 0, [24061]⟩ .leaf) ⟨194693, 0, 0, [24104]⟩ .leaf)))))

/-- Rows of Data/Ucd.lean (proof aid). -/
def ucdT120 : Tree UcdRow := (.node (.node (.node (.node (.node (.node .leaf ⟨194695, 0, 0, [24169]⟩ .leaf) ⟨194696, 0, 0, [14434]⟩ (.node .leaf ⟨194697, 0, 0, [139651]⟩ .leaf)) ⟨194698, 0, 0, [14460]⟩ (.node (.node .leaf ⟨194699, 0, 0, [24240]⟩ .leaf) ⟨194700, 0, 0, [24243]⟩ .leaf)) ⟨194701, 0, 0, [24246]⟩ (.node (.node (.node .leaf ⟨194702, 0, 0, [24266]⟩ .leaf) ⟨194703, 0, 0, [172946]⟩ .leaf) ⟨194704, 0, 0, [24318]⟩ (.node (.node .leaf ⟨194705, 0, 0, [140081]⟩ .leaf) ⟨194706, 0, 0, [140081]⟩ .leaf))) ⟨194707, 0, 0, [33281]⟩ (.node (.node (.node (.node .leaf ⟨194708, 0, 0, [24354]⟩ .leaf) ⟨194709, 0, 0, [24354]⟩ (.node .leaf ⟨194710, 0, 0, [14535]⟩ .leaf)) ⟨194711, 0, 0, [144056]⟩ (.node (.node .leaf ⟨194712, 0, 0, [156122]⟩ .leaf) ⟨194713, 0, 0, [24418]⟩ .leaf)) ⟨194714, 0, 0, [24427]⟩ (.node (.node (.node .leaf ⟨194715, 0, 0, [14563]⟩ .leaf) ⟨194716, 0, 0, [24474]⟩ .leaf) ⟨194717, 0, 0, [24525]⟩ (.node (.node .leaf ⟨194718, 0, 0, [24535]⟩ .leaf) ⟨194719, 0, 0, [24569]⟩ .leaf)))) ⟨194720, 0, 0, [24705]⟩ (.node (.node (.node (.node (.node .leaf ⟨194721, 0, 0, [14650]⟩ .leaf) ⟨194722, 0, 0, [14620]⟩ (.node .leaf ⟨194723, 0, 0, [24724]⟩ .leaf)) ⟨194724, 0, 0, [141012]⟩ (.node (.node .leaf ⟨194725, 0, 0, [24775]⟩ .leaf) ⟨194726, 0, 0, [24904]⟩ .leaf)) ⟨194727, 0, 0, [24908]⟩ (.node (.node (.node .leaf ⟨194728, 0, 0, [24910]⟩ .leaf) ⟨194729, 0, 0, [24908]⟩ .leaf) ⟨194730, 0, 0, [24954]⟩ (.node (.node .leaf ⟨194731, 0, 0, [24974]⟩ .leaf) ⟨194732, 0, 0, [25010]⟩ .leaf))) ⟨194733, 0, 0, [24996]⟩ (.node (.node (.node (.node .leaf ⟨194734, 0, 0, [25007]⟩ .leaf) ⟨194735, 0, 0, [25054]⟩ .leaf) ⟨194736, 0, 0, [25074]⟩ (.node (.node .leaf ⟨194737, 0, 0, [25078]⟩ .leaf) ⟨194738, 0, 0, [25104]⟩ .leaf)) ⟨194739, 0, 0, [25115]⟩ (.node (.node (.node .leaf ⟨194740, 0, 0, [25181]⟩ .leaf) ⟨194741, 0, 0, [25265]⟩ .leaf) ⟨194742, 0, 0, [25300]⟩ (.node (.node .leaf ⟨194743, 0, 0, [25424]⟩ .leaf) ⟨194744, 0, 0, [142092]⟩ .leaf)))))

/-- Rows of Data/Ucd.lean (proof aid). -/
def ucdT121 : Tree UcdRow := (.node (.node (.node (.node (.node (.node .leaf ⟨194746, 0, 0, [25340]⟩ .leaf) ⟨194747, 0, 0, [25448]⟩ (.node .leaf ⟨194748, 0, 0, [25475]⟩ .leaf)) ⟨194749, 0, 0, [25572]⟩ (.node (.node .leaf ⟨194750, 0, 0, [142321]⟩ .leaf) ⟨194751, 0, 0, [25634]⟩ .leaf)) ⟨194752, 0, 0, [25541]⟩ (.node (.node (.node .leaf ⟨194753, 0, 0, [25513]⟩ .leaf) ⟨194754, 0, 0, [14894]⟩ .leaf) ⟨194755, 0, 0, [25705]⟩ (.node (.node .leaf ⟨194756, 0, 0, [25726]⟩ .leaf) ⟨194757, 0, 0, [25757]⟩ .leaf))) ⟨194758, 0, 0, [25719]⟩ (.node (.node (.node (.node .leaf ⟨194759, 0, 0, [14956]⟩ .leaf) ⟨194760, 0, 0, [25935]⟩ (.node .leaf ⟨194761, 0, 0, [25964]⟩ .leaf)) ⟨194762, 0, 0, [143370]⟩ (.node (.node .leaf ⟨194763, 0, 0, [26083]⟩ .leaf) ⟨194764, 0, 0, [26360]⟩ .leaf)) ⟨194765, 0, 0, [26185]⟩ (.node (.node (.node .leaf ⟨194766, 0, 0, [15129]⟩ .leaf) ⟨194767, 0, 0, [26257]⟩ .leaf) ⟨194768, 0, 0, [15112]⟩ (.node (.node .leaf ⟨194769, 0, 0, [15076]⟩ .leaf) ⟨194770, 0, 0, [20882]⟩ .leaf)))) ⟨194771, 0, 0, [20885]⟩ (.node (.node (.node (.node (.node .leaf ⟨194772, 0, 0, [26368]⟩ .leaf) ⟨194773, 0, 0, [26268]⟩ (.node .leaf ⟨194774, 0, 0, [32941]⟩ .leaf)) ⟨194775, 0, 0, [17369]⟩ (.node (.node .leaf ⟨194776, 0, 0, [26391]⟩ .leaf) ⟨194777, 0, 0, [26395]⟩ .leaf)) ⟨194778, 0, 0, [26401]⟩ (.node (.node (.node .leaf ⟨194779, 0, 0, [26462]⟩ .leaf) ⟨194780, 0, 0, [26451]⟩ .leaf) ⟨194781, 0, 0, [144323]⟩ (.node (.node .leaf ⟨194782, 0, 0, [15177]⟩ .leaf) ⟨194783, 0, 0, [26618]⟩ .leaf))) ⟨194784, 0, 0, [26501]⟩ (.node (.node (.node (.node .leaf ⟨194785, 0, 0, [26706]⟩ .leaf) ⟨194786, 0, 0, [26757]⟩ .leaf) ⟨194787, 0, 0, [144493]⟩ (.node (.node .leaf ⟨194788, 0, 0, [26766]⟩ .leaf) ⟨194789, 0, 0, [26655]⟩ .leaf)) ⟨194790, 0, 0, [26900]⟩ (.node (.node (.node .leaf ⟨194791, 0, 0, [15261]⟩ .leaf) ⟨194792, 0, 0, [26946]⟩ .leaf) ⟨194793, 0, 0, [27043]⟩ (.node (.node .leaf ⟨194794, 0, 0, [27114]⟩ .leaf) ⟨194795, 0, 0, [27304]⟩ .leaf)))))

/-- Rows of Data/Ucd.lean (proof aid). -/
def ucdT122 : Tree UcdRow := (.node (.node (.node (.node (.node (.node .leaf ⟨194797, 0, 0, [27355]⟩ .leaf) ⟨194798, 0, 0, [15384]⟩ (.node .leaf ⟨194799, 0, 0, [27425]⟩ .leaf)) ⟨194800, 0, 0, [145575]⟩ (.node (.node .leaf ⟨194801, 0, 0, [27476]⟩ .leaf) ⟨194802, 0, 0, [15438]⟩ .leaf)) ⟨194803, 0, 0, [27506]⟩ (.node (.node (.node .leaf ⟨194804, 0, 0, [27551]⟩ .leaf) ⟨194805, 0, 0, [27578]⟩ .leaf) ⟨194806, 0, 0, [27579]⟩ (.node (.node .leaf ⟨194807, 0, 0, [146061]⟩ .leaf) ⟨194808, 0, 0, [138507]⟩ .leaf))) ⟨194809, 0, 0, [146170]⟩ (.node (.node (.node (.node .leaf ⟨194810, 0, 0, [27726]⟩ .leaf) ⟨194811, 0, 0, [146620]⟩ (.node .leaf ⟨194812, 0, 0, [27839]⟩ .leaf)) ⟨194813, 0, 0, [27853]⟩ (.node (.node .leaf ⟨194814, 0, 0, [27751]⟩ .leaf) ⟨194815, 0, 0, [27926]⟩ .leaf)) ⟨194816, 0, 0, [27966]⟩ (.node (.node (.node .leaf ⟨194817, 0, 0, [28023]⟩ .leaf) ⟨194818, 0, 0, [27969]⟩ .leaf) ⟨194819, 0, 0, [28009]⟩ (.node (.node .leaf ⟨194820, 0, 0, [28024]⟩ .leaf) ⟨194821, 0, 0, [28037]⟩ .leaf)))) ⟨194822, 0, 0, [146718]⟩ (.node (.node (.node (.node (.node .leaf ⟨194823, 0, 0, [27956]⟩ .leaf) ⟨194824, 0, 0, [28207]⟩ (.node .leaf ⟨194825, 0, 0, [28270]⟩ .leaf)) ⟨194826, 0, 0, [15667]⟩ (.node (.node .leaf ⟨194827, 0, 0, [28363]⟩ .leaf) ⟨194828, 0, 0, [28359]⟩ .leaf)) ⟨194829, 0, 0, [147153]⟩ (.node (.node (.node .leaf ⟨194830, 0, 0, [28153]⟩ .leaf) ⟨194831, 0, 0, [28526]⟩ .leaf) ⟨194832, 0, 0, [147294]⟩ (.node (.node .leaf ⟨194833, 0, 0, [147342]⟩ .leaf) ⟨194834, 0, 0, [28614]⟩ .leaf))) ⟨194835, 0, 0, [28729]⟩ (.node (.node (.node (.node .leaf ⟨194836, 0, 0, [28702]⟩ .leaf) ⟨194837, 0, 0, [28699]⟩ .leaf) ⟨194838, 0, 0, [15766]⟩ (.node (.node .leaf ⟨194839, 0, 0, [28746]⟩ .leaf) ⟨194840, 0, 0, [28797]⟩ .leaf)) ⟨194841, 0, 0, [28791]⟩ (.node (.node (.node .leaf ⟨194842, 0, 0, [28845]⟩ .leaf) ⟨194843, 0, 0, [132389]⟩ .leaf) ⟨194844, 0, 0, [28997]⟩ (.node (.node .leaf ⟨194845, 0, 0, [148067]⟩ .leaf) ⟨194846, 0, 0, [29084]⟩ .leaf)))))

/-- Rows of Data/Ucd.lean (proof aid). -/
def ucdT123 : Tree UcdRow := (.node (.node (.node (.node (.node (.node .leaf ⟨194848, 0, 0, [29224]⟩ .leaf) ⟨194849, 0, 0, [29237]⟩ (.node .leaf ⟨194850, 0, 0, [29264]⟩ .leaf)) ⟨194851, 0, 0, [149000]⟩ (.node (.node .leaf ⟨194852, 0, 0, [29312]⟩ .leaf) ⟨194853, 0, 0, [29333]⟩ .leaf)) ⟨194854, 0, 0, [149301]⟩ (.node (.node (.node .leaf ⟨194855, 0, 0, [149524]⟩ .leaf) ⟨194856, 0, 0, [29562]⟩ .leaf) ⟨194857, 0, 0, [29579]⟩ (.node (.node .leaf ⟨194858, 0, 0, [16044]⟩ .leaf) ⟨194859, 0, 0, [29605]⟩ .leaf))) ⟨194860, 0, 0, [16056]⟩ (.node (.node (.node (.node .leaf ⟨194861, 0, 0, [16056]⟩ .leaf) ⟨194862, 0, 0, [29767]⟩ (.node .leaf ⟨194863, 0, 0, [29788]⟩ .leaf)) ⟨194864, 0, 0, [29809]⟩ (.node (.node .leaf ⟨194865, 0, 0, [29829]⟩ .leaf) ⟨194866, 0, 0, [29898]⟩ .leaf)) ⟨194867, 0, 0, [16155]⟩ (.node (.node (.node .leaf ⟨194868, 0, 0, [29988]⟩ .leaf) ⟨194869, 0, 0, [150582]⟩ .leaf) ⟨194870, 0, 0, [30014]⟩ (.node (.node .leaf ⟨194871, 0, 0, [150674]⟩ .leaf) ⟨194872, 0, 0, [30064]⟩ .leaf)))) ⟨194873, 0, 0, [139679]⟩ (.node (.node (.node (.node (.node .leaf ⟨194874, 0, 0, [30224]⟩ .leaf) ⟨194875, 0, 0, [151457]⟩ (.node .leaf ⟨194876, 0, 0, [151480]⟩ .leaf)) ⟨194877, 0, 0, [151620]⟩ (.node (.node .leaf ⟨194878, 0, 0, [16380]⟩ .leaf) ⟨194879, 0, 0, [16392]⟩ .leaf)) ⟨194880, 0, 0, [30452]⟩ (.node (.node (.node .leaf ⟨194881, 0, 0, [151795]⟩ .leaf) ⟨194882, 0, 0, [151794]⟩ .leaf) ⟨194883, 0, 0, [151833]⟩ (.node (.node .leaf ⟨194884, 0, 0, [151859]⟩ .leaf) ⟨194885, 0, 0, [30494]⟩ .leaf))) ⟨194886, 0, 0, [30495]⟩ (.node (.node (.node (.node .leaf ⟨194887, 0, 0, [30495]⟩ .leaf) ⟨194888, 0, 0, [30538]⟩ .leaf) ⟨194889, 0, 0, [16441]⟩ (.node (.node .leaf ⟨194890, 0, 0, [30603]⟩ .leaf) ⟨194891, 0, 0, [16454]⟩ .leaf)) ⟨194892, 0, 0, [16534]⟩ (.node (.node (.node .leaf ⟨194893, 0, 0, [152605]⟩ .leaf) ⟨194894, 0, 0, [30798]⟩ .leaf) ⟨194895, 0, 0, [30860]⟩ (.node (.node .leaf ⟨194896, 0, 0, [30924]⟩ .leaf) ⟨194897, 0, 0, [16611]⟩ .leaf)))))

/-- Rows of Data/Ucd.lean (proof aid). -/
def ucdT124 : Tree UcdRow := (.node (.node (.node (.node (.node (.node .leaf ⟨194899, 0, 0, [31062]⟩ .leaf) ⟨194900, 0, 0, [153242]⟩ (.node .leaf ⟨194901, 0, 0, [153285]⟩ .leaf)) ⟨194902, 0, 0, [31119]⟩ (.node (.node .leaf ⟨194903, 0, 0, [31211]⟩ .leaf) ⟨194904, 0, 0, [16687]⟩ .leaf)) ⟨194905, 0, 0, [31296]⟩ (.node (.node (.node .leaf ⟨194906, 0, 0, [31306]⟩ .leaf) ⟨194907, 0, 0, [31311]⟩ .leaf) ⟨194908, 0, 0, [153980]⟩ (.node (.node .leaf ⟨194909, 0, 0, [154279]⟩ .leaf) ⟨194910, 0, 0, [154279]⟩ .leaf))) ⟨194911, 0, 0, [31470]⟩ (.node (.node (.node (.node .leaf ⟨194912, 0, 0, [16898]⟩ .leaf) ⟨194913, 0, 0, [154539]⟩ (.node .leaf ⟨194914, 0, 0, [31686]⟩ .leaf)) ⟨194915, 0, 0, [31689]⟩ (.node (.node .leaf ⟨194916, 0, 0, [16935]⟩ .leaf) ⟨194917, 0, 0, [154752]⟩ .leaf)) ⟨194918, 0, 0, [31954]⟩ (.node (.node (.node .leaf ⟨194919, 0, 0, [17056]⟩ .leaf) ⟨194920, 0, 0, [31976]⟩ .leaf) ⟨194921, 0, 0, [31971]⟩ (.node (.node .leaf ⟨194922, 0, 0, [32000]⟩ .leaf) ⟨194923, 0, 0, [155526]⟩ .leaf)))) ⟨194924, 0, 0, [32099]⟩ (.node (.node (.node (.node (.node .leaf ⟨194925, 0, 0, [17153]⟩ .leaf) ⟨194926, 0, 0, [32199]⟩ (.node .leaf ⟨194927, 0, 0, [32258]⟩ .leaf)) ⟨194928, 0, 0, [32325]⟩ (.node (.node .leaf ⟨194929, 0, 0, [17204]⟩ .leaf) ⟨194930, 0, 0, [156200]⟩ .leaf)) ⟨194931, 0, 0, [156231]⟩ (.node (.node (.node .leaf ⟨194932, 0, 0, [17241]⟩ .leaf) ⟨194933, 0, 0, [156377]⟩ .leaf) ⟨194934, 0, 0, [32634]⟩ (.node (.node .leaf ⟨194935, 0, 0, [156478]⟩ .leaf) ⟨194936, 0, 0, [32661]⟩ .leaf))) ⟨194937, 0, 0, [32762]⟩ (.node (.node (.node (.node .leaf ⟨194938, 0, 0, [32773]⟩ .leaf) ⟨194939, 0, 0, [156890]⟩ .leaf) ⟨194940, 0, 0, [156963]⟩ (.node (.node .leaf ⟨194941, 0, 0, [32864]⟩ .leaf) ⟨194942, 0, 0, [157096]⟩ .leaf)) ⟨194943, 0, 0, [32880]⟩ (.node (.node (.node .leaf ⟨194944, 0, 0, [144223]⟩ .leaf) ⟨194945, 0, 0, [17365]⟩ .leaf) ⟨194946, 0, 0, [32946]⟩ (.node (.node .leaf ⟨194947, 0, 0, [33027]⟩ .leaf) ⟨194948, 0, 0, [17419]⟩ .leaf)))))

/-- Rows of Data/Ucd.lean (proof aid). -/
def ucdT125 : Tree UcdRow := (.node (.node (.node (.node (.node (.node .leaf ⟨194950, 0, 0, [23221]⟩ .leaf) ⟨194951, 0, 0, [157607]⟩ (.node .leaf ⟨194952, 0, 0, [157621]⟩ .leaf)) ⟨194953, 0, 0, [144275]⟩ (.node (.node .leaf ⟨194954, 0, 0, [144284]⟩ .leaf) ⟨194955, 0, 0, [33281]⟩ .leaf)) ⟨194956, 0, 0, [33284]⟩ (.node (.node (.node .leaf ⟨194957, 0, 0, [36766]⟩ .leaf) ⟨194958, 0, 0, [17515]⟩ .leaf) ⟨194959, 0, 0, [33425]⟩ (.node (.node .leaf ⟨194960, 0, 0, [33419]⟩ .leaf) ⟨194961, 0, 0, [33437]⟩ .leaf))) ⟨194962, 0, 0, [21171]⟩ (.node (.node (.node (.node .leaf ⟨194963, 0, 0, [33457]⟩ .leaf) ⟨194964, 0, 0, [33459]⟩ (.node .leaf ⟨194965, 0, 0, [33469]⟩ .leaf)) ⟨194966, 0, 0, [33510]⟩ (.node (.node .leaf ⟨194967, 0, 0, [158524]⟩ .leaf) ⟨194968, 0, 0, [33509]⟩ .leaf)) ⟨194969, 0, 0, [33565]⟩ (.node (.node (.node .leaf ⟨194970, 0, 0, [33635]⟩ .leaf) ⟨194971, 0, 0, [33709]⟩ .leaf) ⟨194972, 0, 0, [33571]⟩ (.node (.node .leaf ⟨194973, 0, 0, [33725]⟩ .leaf) ⟨194974, 0, 0, [33767]⟩ .leaf)))) ⟨194975, 0, 0, [33879]⟩ (.node (.node (.node (.node (.node .leaf ⟨194976, 0, 0, [33619]⟩ .leaf) ⟨194977, 0, 0, [33738]⟩ (.node .leaf ⟨194978, 0, 0, [33740]⟩ .leaf)) ⟨194979, 0, 0, [33756]⟩ (.node (.node .leaf ⟨194980, 0, 0, [158774]⟩ .leaf) ⟨194981, 0, 0, [159083]⟩ .leaf)) ⟨194982, 0, 0, [158933]⟩ (.node (.node (.node .leaf ⟨194983, 0, 0, [17707]⟩ .leaf) ⟨194984, 0, 0, [34033]⟩ .leaf) ⟨194985, 0, 0, [34035]⟩ (.node (.node .leaf ⟨194986, 0, 0, [34070]⟩ .leaf) ⟨194987, 0, 0, [160714]⟩ .leaf))) ⟨194988, 0, 0, [34148]⟩ (.node (.node (.node (.node .leaf ⟨194989, 0, 0, [159532]⟩ .leaf) ⟨194990, 0, 0, [17757]⟩ .leaf) ⟨194991, 0, 0, [17761]⟩ (.node (.node .leaf ⟨194992, 0, 0, [159665]⟩ .leaf) ⟨194993, 0, 0, [159954]⟩ .leaf)) ⟨194994, 0, 0, [17771]⟩ (.node (.node (.node .leaf ⟨194995, 0, 0, [34384]⟩ .leaf) ⟨194996, 0, 0, [34396]⟩ .leaf) ⟨194997, 0, 0, [34407]⟩ (.node (.node .leaf ⟨194998, 0, 0, [34409]⟩ .leaf) ⟨194999, 0, 0, [34473]⟩ .leaf)))))

/-- Rows of Data/Ucd.lean (proof aid). -/
def ucdT126 : Tree UcdRow := (.node (.node (.node (.node (.node (.node .leaf ⟨195001, 0, 0, [34574]⟩ .leaf) ⟨195002, 0, 0, [34530]⟩ (.node .leaf ⟨195003, 0, 0, [34681]⟩ .leaf)) ⟨195004, 0, 0, [34600]⟩ (.node (.node .leaf ⟨195005, 0, 0, [34667]⟩ .leaf) ⟨195006, 0, 0, [34694]⟩ .leaf)) ⟨195007, 0, 0, [17879]⟩ (.node (.node (.node .leaf ⟨195008, 0, 0, [34785]⟩ .leaf) ⟨195009, 0, 0, [34817]⟩ .leaf) ⟨195010, 0, 0, [17913]⟩ (.node (.node .leaf ⟨195011, 0, 0, [34912]⟩ .leaf) ⟨195012, 0, 0, [34915]⟩ .leaf))) ⟨195013, 0, 0, [161383]⟩ (.node (.node (.node (.node .leaf ⟨195014, 0, 0, [35031]⟩ .leaf) ⟨195015, 0, 0, [35038]⟩ (.node .leaf ⟨195016, 0, 0, [17973]⟩ .leaf)) ⟨195017, 0, 0, [35066]⟩ (.node (.node .leaf ⟨195018, 0, 0, [13499]⟩ .leaf) ⟨195019, 0, 0, [161966]⟩ .leaf)) ⟨195020, 0, 0, [162150]⟩ (.node (.node (.node .leaf ⟨195021, 0, 0, [18110]⟩ .leaf) ⟨195022, 0, 0, [18119]⟩ .leaf) ⟨195023, 0, 0, [35488]⟩ (.node (.node .leaf ⟨195024, 0, 0, [35565]⟩ .leaf) ⟨195025, 0, 0, [35722]⟩ .leaf)))) ⟨195026, 0, 0, [35925]⟩ (.node (.node (.node (.node (.node .leaf ⟨195027, 0, 0, [162984]⟩ .leaf) ⟨195028, 0, 0, [36011]⟩ (.node .leaf ⟨195029, 0, 0, [36033]⟩ .leaf)) ⟨195030, 0, 0, [36123]⟩ (.node (.node .leaf ⟨195031, 0, 0, [36215]⟩ .leaf) ⟨195032, 0, 0, [163631]⟩ .leaf)) ⟨195033, 0, 0, [133124]⟩ (.node (.node (.node .leaf ⟨195034, 0, 0, [36299]⟩ .leaf) ⟨195035, 0, 0, [36284]⟩ .leaf) ⟨195036, 0, 0, [36336]⟩ (.node (.node .leaf ⟨195037, 0, 0, [133342]⟩ .leaf) ⟨195038, 0, 0, [36564]⟩ .leaf))) ⟨195039, 0, 0, [36664]⟩ (.node (.node (.node (.node .leaf ⟨195040, 0, 0, [165330]⟩ .leaf) ⟨195041, 0, 0, [165357]⟩ .leaf) ⟨195042, 0, 0, [37012]⟩ (.node (.node .leaf ⟨195043, 0, 0, [37105]⟩ .leaf) ⟨195044, 0, 0, [37137]⟩ .leaf)) ⟨195045, 0, 0, [165678]⟩ (.node (.node (.node .leaf ⟨195046, 0, 0, [37147]⟩ .leaf) ⟨195047, 0, 0, [37432]⟩ .leaf) ⟨195048, 0, 0, [37591]⟩ (.node (.node .leaf ⟨195049, 0, 0, [37592]⟩ .leaf) ⟨195050, 0, 0, [37500]⟩ .leaf)))))

/-- Rows of Data/Ucd.lean (proof aid). -/
def ucdT127 : Tree UcdRow := (.node (.node (.node (.node (.node (.node .leaf ⟨195052, 0, 0, [37909]⟩ .leaf) ⟨195053, 0, 0, [166906]⟩ (.node .leaf ⟨195054, 0, 0, [38283]⟩ .leaf)) ⟨195055, 0, 0, [18837]⟩ (.node (.node .leaf ⟨195056, 0, 0, [38327]⟩ .leaf) ⟨195057, 0, 0, [167287]⟩ .leaf)) ⟨195058, 0, 0, [18918]⟩ (.node (.node (.node .leaf ⟨195059, 0, 0, [38595]⟩ .leaf) ⟨195060, 0, 0, [23986]⟩ .leaf) ⟨195061, 0, 0, [38691]⟩ (.node (.node .leaf ⟨195062, 0, 0, [168261]⟩ .leaf) ⟨195063, 0, 0, [168474]⟩ .leaf))) ⟨195064, 0, 0, [19054]⟩ (.node (.node (.node (.node .leaf ⟨195065, 0, 0, [19062]⟩ .leaf) ⟨195066, 0, 0, [38880]⟩ (.node .leaf ⟨195067, 0, 0, [168970]⟩ .leaf)) ⟨195068, 0, 0, [19122]⟩ (.node (.node .leaf ⟨195069, 0, 0, [169110]⟩ .leaf) ⟨195070, 0, 0, [38923]⟩ .leaf)) ⟨195071, 0, 0, [38923]⟩ (.node (.node (.node .leaf ⟨195072, 0, 0, [38953]⟩ .leaf) ⟨195073, 0, 0, [169398]⟩ .leaf) ⟨195074, 0, 0, [39138]⟩ (.node (.node .leaf ⟨195075, 0, 0, [19251]⟩ .leaf) ⟨195076, 0, 0, [39209]⟩ .leaf)))) ⟨195077, 0, 0, [39335]⟩ (.node (.node (.node (.node (.node .leaf ⟨195078, 0, 0, [39362]⟩ .leaf) ⟨195079, 0, 0, [39422]⟩ (.node .leaf ⟨195080, 0, 0, [19406]⟩ .leaf)) ⟨195081, 0, 0, [170800]⟩ (.node (.node .leaf ⟨195082, 0, 0, [39698]⟩ .leaf) ⟨195083, 0, 0, [40000]⟩ .leaf)) ⟨195084, 0, 0, [40189]⟩ (.node (.node (.node .leaf ⟨195085, 0, 0, [19662]⟩ .leaf) ⟨195086, 0, 0, [19693]⟩ .leaf) ⟨195087, 0, 0, [40295]⟩ (.node (.node .leaf ⟨195088, 0, 0, [172238]⟩ .leaf) ⟨195089, 0, 0, [19704]⟩ .leaf))) ⟨195090, 0, 0, [172293]⟩ (.node (.node (.node (.node .leaf ⟨195091, 0, 0, [172558]⟩ .leaf) ⟨195092, 0, 0, [172689]⟩ .leaf) ⟨195093, 0, 0, [40635]⟩ (.node (.node .leaf ⟨195094, 0, 0, [19798]⟩ .leaf) ⟨195095, 0, 0, [40697]⟩ .leaf)) ⟨195096, 0, 0, [40702]⟩ (.node (.node (.node .leaf ⟨195097, 0, 0, [40709]⟩ .leaf) ⟨195098, 0, 0, [40719]⟩ .leaf) ⟨195099, 0, 0, [40726]⟩ (.node (.node .leaf ⟨195100, 0, 0, [40763]⟩ .leaf) ⟨195101, 0, 0, [173568]⟩ .leaf)))))

/-- All rows of Data/Ucd.lean (proof aid). -/
@[irreducible] def ucdTree : Tree UcdRow := (.node (.node (.node (.node (.node (.node (.node ucdT0 ⟨236, 0, 0, [105, 768]⟩ ucdT1) ⟨293, 0, 0, [104, 770]⟩ (.node ucdT2 ⟨354, 0, 0, [84, 807]⟩ ucdT3)) ⟨471, 0, 0, [220, 769]⟩ (.node (.node ucdT4 ⟨527, 0, 0, [111, 785]⟩ ucdT5) ⟨770, 230, 0, []⟩ (.node ucdT6 ⟨821, 1, 0, []⟩ ucdT7))) ⟨873, 230, 0, []⟩ (.node (.node (.node ucdT8 ⟨1037, 0, 0, [1048, 768]⟩ ucdT9) ⟨1273, 0, 0, [1099, 776]⟩ (.node ucdT10 ⟨1477, 220, 0, []⟩ ucdT11)) ⟨1754, 230, 0, []⟩ (.node (.node ucdT12 ⟨2035, 230, 0, []⟩ ucdT13) ⟨2287, 220, 0, []⟩ (.node ucdT14 ⟨2876, 7, 0, []⟩ ucdT15)))) ⟨3865, 220, 0, []⟩ (.node (.node (.node (.node ucdT16 ⟨6458, 230, 0, []⟩ ucdT17) ⟨7083, 9, 0, []⟩ (.node ucdT18 ⟨7489, 0, 2, [85]⟩ ucdT19)) ⟨7588, 0, 2, [616]⟩ (.node (.node ucdT20 ⟨7639, 230, 0, []⟩ ucdT21) ⟨7695, 0, 0, [100, 817]⟩ (.node ucdT22 ⟨7746, 0, 0, [77, 803]⟩ ucdT23))) ⟨7797, 0, 0, [117, 816]⟩ (.node (.node (.node ucdT24 ⟨7852, 0, 0, [7840, 770]⟩ ucdT25) ⟨7903, 0, 0, [417, 777]⟩ (.node ucdT26 ⟨7962, 0, 0, [7960, 768]⟩ ucdT27)) ⟨8019, 0, 0, [8017, 768]⟩ (.node (.node ucdT28 ⟨8076, 0, 0, [7948, 837]⟩ ucdT29) ⟨8128, 0, 1, [32, 834]⟩ (.node ucdT30 ⟨8186, 0, 0, [937, 768]⟩ ucdT31))))) ⟨8324, 0, 2, [52]⟩ (.node (.node (.node (.node (.node ucdT32 ⟨8449, 0, 1, [97, 47, 115]⟩ ucdT33) ⟨8518, 0, 2, [100]⟩ (.node ucdT34 ⟨8575, 0, 1, [109]⟩ ucdT35)) ⟨9002, 0, 0, [12297]⟩ (.node (.node ucdT36 ⟨9362, 0, 1, [49, 49, 46]⟩ ucdT37) ⟨9413, 0, 2, [80]⟩ (.node ucdT38 ⟨11745, 230, 0, []⟩ ucdT39))) ⟨12050, 0, 1, [21147]⟩ (.node (.node (.node ucdT40 ⟨12101, 0, 1, [26041]⟩ ucdT41) ⟨12152, 0, 1, [32566]⟩ (.node ucdT42 ⟨12203, 0, 1, [38585]⟩ ucdT43)) ⟨12344, 0, 1, [21313]⟩ (.node (.node ucdT44 ⟨12497, 0, 0, [12495, 12442]⟩ ucdT45) ⟨12628, 0, 1, [4454]⟩ (.node ucdT46 ⟨12679, 0, 1, [4484]⟩ ucdT47)))) ⟨12829, 0, 1, [40, 4363, 4457, 4364, 4453, 4523, 41]⟩ (.node (.node (.node (.node ucdT48 ⟨12889, 0, 2, [50, 57]⟩ ucdT49) ⟨12941, 0, 2, [26408]⟩ (.node ucdT50 ⟨12992, 0, 1, [49, 26376]⟩ ucdT51)) ⟨13043, 0, 2, [12516]⟩ (.node (.node ucdT52 ⟨13095, 0, 2, [12488, 12531]⟩ ucdT53) ⟨13146, 0, 1, [50, 28857]⟩ (.node ucdT54 ⟨13197, 0, 2, [956, 103]⟩ ucdT55))) ⟨13248, 0, 2, [107, 937]⟩ (.node (.node (.node ucdT56 ⟨13299, 0, 1, [50, 48, 26085]⟩ ucdT57) ⟨43248, 230, 0, []⟩ (.node ucdT58 ⟨63772, 0, 0, [21365]⟩ ucdT59)) ⟨63823, 0, 0, [32047]⟩ (.node (.node ucdT60 ⟨63874, 0, 0, [24300]⟩ ucdT61) ⟨63925, 0, 0, [20363]⟩ (.node ucdT62 ⟨63976, 0, 0, [35041]⟩ ucdT63)))))) ⟨64034, 0, 0, [35576]⟩ (.node (.node (.node (.node (.node (.node ucdT64 ⟨64091, 0, 0, [32773]⟩ ucdT65) ⟨64144, 0, 0, [25942]⟩ (.node ucdT66 ⟨64195, 0, 0, [36978]⟩ ucdT67)) ⟨64301, 0, 0, [64329, 1474]⟩ (.node (.node ucdT68 ⟨64357, 0, 2, [1663]⟩ ucdT69) ⟨64408, 0, 2, [1715]⟩ (.node ucdT70 ⟨64492, 0, 2, [1574, 1749]⟩ ucdT71))) ⟨64543, 0, 2, [1587, 1605]⟩ (.node (.node (.node ucdT72 ⟨64594, 0, 2, [1607, 1605]⟩ ucdT73) ⟨64645, 0, 2, [1604, 1605]⟩ (.node ucdT74 ⟨64696, 0, 2, [1591, 1581]⟩ ucdT75)) ⟨64747, 0, 2, [1603, 1604]⟩ (.node (.node ucdT76 ⟨64798, 0, 2, [1580, 1610]⟩ ucdT77) ⟨64867, 0, 2, [1587, 1605, 1605]⟩ (.node ucdT78 ⟨64920, 0, 2, [1606, 1580, 1605]⟩ ucdT79)))) ⟨65011, 0, 2, [1575, 1603, 1576, 1585]⟩ (.node (.node (.node (.node ucdT80 ⟨65087, 0, 2, [12296]⟩ ucdT81) ⟨65148, 0, 2, [32, 1617]⟩ (.node ucdT82 ⟨65199, 0, 2, [1586]⟩ ucdT83)) ⟨65250, 0, 2, [1605]⟩ (.node (.node ucdT84 ⟨65305, 0, 2, [57]⟩ ucdT85) ⟨65356, 0, 2, [108]⟩ (.node ucdT86 ⟨65407, 0, 2, [12477]⟩ ucdT87))) ⟨65458, 0, 2, [12610]⟩ (.node (.node (.node ucdT88 ⟨66423, 230, 0, []⟩ ucdT89) ⟨70843, 0, 0, [70841, 70842]⟩ (.node ucdT90 ⟨119169, 220, 0, []⟩ ucdT91)) ⟨119837, 0, 2, [100]⟩ (.node (.node ucdT92 ⟨119888, 0, 2, [99]⟩ ucdT93) ⟨119940, 0, 2, [99]⟩ (.node ucdT94 ⟨120001, 0, 2, [108]⟩ ucdT95))))) ⟨120053, 0, 2, [108]⟩ (.node (.node (.node (.node (.node ucdT96 ⟨120110, 0, 2, [113]⟩ ucdT97) ⟨120168, 0, 2, [119]⟩ (.node ucdT98 ⟨120219, 0, 2, [118]⟩ ucdT99)) ⟨120270, 0, 2, [117]⟩ (.node (.node ucdT100 ⟨120321, 0, 2, [116]⟩ ucdT101) ⟨120372, 0, 2, [115]⟩ (.node ucdT102 ⟨120423, 0, 2, [114]⟩ ucdT103))) ⟨120474, 0, 2, [113]⟩ (.node (.node (.node ucdT104 ⟨120527, 0, 2, [958]⟩ ucdT105) ⟨120578, 0, 2, [951]⟩ (.node ucdT106 ⟨120629, 0, 2, [8711]⟩ ucdT107)) ⟨120680, 0, 2, [931]⟩ (.node (.node ucdT108 ⟨120731, 0, 2, [924]⟩ ucdT109) ⟨120784, 0, 2, [50]⟩ (.node ucdT110 ⟨122883, 230, 0, []⟩ ucdT111)))) ⟨126466, 0, 2, [1580]⟩ (.node (.node (.node (.node ucdT112 ⟨126537, 0, 2, [1610]⟩ ucdT113) ⟨126608, 0, 2, [1601]⟩ (.node ucdT114 ⟨127251, 0, 1, [40, 68, 41]⟩ ucdT115)) ⟨127303, 0, 2, [88]⟩ (.node (.node ucdT116 ⟨127540, 0, 2, [21512]⟩ ucdT117) ⟨194592, 0, 0, [21051]⟩ (.node ucdT118 ⟨194643, 0, 0, [22516]⟩ ucdT119))) ⟨194694, 0, 0, [24125]⟩ (.node (.node (.node ucdT120 ⟨194745, 0, 0, [25405]⟩ ucdT121) ⟨194796, 0, 0, [145059]⟩ (.node ucdT122 ⟨194847, 0, 0, [148395]⟩ ucdT123)) ⟨194898, 0, 0, [153126]⟩ (.node (.node ucdT124 ⟨194949, 0, 0, [33086]⟩ ucdT125) ⟨195000, 0, 0, [34440]⟩ (.node ucdT126 ⟨195051, 0, 0, [37881]⟩ ucdT127)))))))

end U5e.Data
