set_option maxRecDepth 10000
/-! GENERATED by tools/gen_raw.py: the octets of src/u5e/props/UnicodeData.txt, one number per line (little-endian). -/
namespace U5e.Data

/-- src/u5e/props/UnicodeData.txt lines 19201-19456. -/
def rawUcd75 : List Nat := [
0x3b3b3b3b3b4e3b3b3b3b3b4c3b303b634d3b5541204e474953204c45574f5620414441524148533b4642313131,
0x3b3b3b3b3b4e3b3b3b3b3b4c3b393b634d3b414d41524956204e47495320414441524148533b3043313131,
0x3b3b3b3b3b4e3b3b3b3b3b4c3b303b6f4c3b4148415247415641204e47495320414441524148533b3143313131,
0x3b3b3b3b3b4e3b3b3b3b3b4c3b303b6f4c3b4159494c554d415648494a204e47495320414441524148533b3243313131,
0x3b3b3b3b3b4e3b3b3b3b3b4c3b303b6f4c3b4159494e414d4844415055204e47495320414441524148533b3343313131,
0x3b3b3b3b3b4e3b3b3b3b3b4c3b303b6f4c3b4d4f20414441524148533b3443313131,
0x3b3b3b3b3b4e3b3b3b3b3b4c3b303b6f503b41444e414420414441524148533b3543313131,
0x3b3b3b3b3b4e3b3b3b3b3b4c3b303b6f503b41444e414420454c42554f4420414441524148533b3643313131,
0x3b3b3b3b3b4e3b3b3b3b3b4c3b303b6f503b4e474953204e4f4954414956455242424120414441524148533b3743313131,
0x3b3b3b3b3b4e3b3b3b3b3b4c3b303b6f503b524f5441524150455320414441524148533b3843313131,
0x3b3b3b3b3b4e3b3b3b3b3b4c3b303b6f503b4b52414d204948444e415320414441524148533b3943313131,
0x3b3b3b3b3b4e3b3b3b3b3b4d534e3b373b6e4d3b41544b554e204e47495320414441524148533b4143313131,
0x3b3b3b3b3b4e3b3b3b3b3b4d534e3b303b6e4d3b4b52414d205245494649444f4d204c45574f5620414441524148533b4243313131,
0x3b3b3b3b3b4e3b3b3b3b3b4d534e3b303b6e4d3b4b52414d204c45574f562054524f485320415254584520414441524148533b4343313131,
0x3b3b3b3b3b4e3b3b3b3b3b4c3b303b6f503b4b52414d20415254555320414441524148533b4443313131,
0x3b3b3b3b3b4e3b303b303b303b3b4c3b303b644e3b4f52455a20544947494420414441524148533b3044313131,
0x3b3b3b3b3b4e3b313b313b313b3b4c3b303b644e3b454e4f20544947494420414441524148533b3144313131,
0x3b3b3b3b3b4e3b323b323b323b3b4c3b303b644e3b4f575420544947494420414441524148533b3244313131,
0x3b3b3b3b3b4e3b333b333b333b3b4c3b303b644e3b454552485420544947494420414441524148533b3344313131,
0x3b3b3b3b3b4e3b343b343b343b3b4c3b303b644e3b52554f4620544947494420414441524148533b3444313131,
0x3b3b3b3b3b4e3b353b353b353b3b4c3b303b644e3b4556494620544947494420414441524148533b3544313131,
0x3b3b3b3b3b4e3b363b363b363b3b4c3b303b644e3b58495320544947494420414441524148533b3644313131,
0x3b3b3b3b3b4e3b373b373b373b3b4c3b303b644e3b4e4556455320544947494420414441524148533b3744313131,
0x3b3b3b3b3b4e3b383b383b383b3b4c3b303b644e3b544847494520544947494420414441524148533b3844313131,
0x3b3b3b3b3b4e3b393b393b393b3b4c3b303b644e3b454e494e20544947494420414441524148533b3944313131,
0x3b3b3b3b3b4e3b3b3b3b3b4c3b303b6f4c3b4d414b4520414441524148533b4144313131,
0x3b3b3b3b3b4e3b3b3b3b3b4c3b303b6f503b4d414844444953204e47495320414441524148533b4244313131,
0x3b3b3b3b3b4e3b3b3b3b3b4c3b303b6f4c3b454b4f5254534441454820414441524148533b4344313131,
0x3b3b3b3b3b4e3b3b3b3b3b4c3b303b6f503b4e474953204e4f495441554e49544e4f4320414441524148533b4444313131,
0x3b3b3b3b3b4e3b3b3b3b3b4c3b303b6f503b312d4b52414d204e4f495443455320414441524148533b4544313131,
0x3b3b3b3b3b4e3b3b3b3b3b4c3b303b6f503b322d4b52414d204e4f495443455320414441524148533b4644313131,
0x3b3b3b3b3b4e3b313b3b3b3b4c3b303b6f4e3b454e4f205449474944204349414843524120414c41484e49533b3145313131,
0x3b3b3b3b3b4e3b323b3b3b3b4c3b303b6f4e3b4f5754205449474944204349414843524120414c41484e49533b3245313131,
0x3b3b3b3b3b4e3b333b3b3b3b4c3b303b6f4e3b4545524854205449474944204349414843524120414c41484e49533b3345313131,
0x3b3b3b3b3b4e3b343b3b3b3b4c3b303b6f4e3b52554f46205449474944204349414843524120414c41484e49533b3445313131,
0x3b3b3b3b3b4e3b353b3b3b3b4c3b303b6f4e3b45564946205449474944204349414843524120414c41484e49533b3545313131,
0x3b3b3b3b3b4e3b363b3b3b3b4c3b303b6f4e3b584953205449474944204349414843524120414c41484e49533b3645313131,
0x3b3b3b3b3b4e3b373b3b3b3b4c3b303b6f4e3b4e45564553205449474944204349414843524120414c41484e49533b3745313131,
0x3b3b3b3b3b4e3b383b3b3b3b4c3b303b6f4e3b5448474945205449474944204349414843524120414c41484e49533b3845313131,
0x3b3b3b3b3b4e3b393b3b3b3b4c3b303b6f4e3b454e494e205449474944204349414843524120414c41484e49533b3945313131,
0x3b3b3b3b3b4e3b30313b3b3b3b4c3b303b6f4e3b4e4554205245424d554e204349414843524120414c41484e49533b4145313131,
0x3b3b3b3b3b4e3b30323b3b3b3b4c3b303b6f4e3b59544e455754205245424d554e204349414843524120414c41484e49533b4245313131,
0x3b3b3b3b3b4e3b30333b3b3b3b4c3b303b6f4e3b595452494854205245424d554e204349414843524120414c41484e49533b4345313131,
0x3b3b3b3b3b4e3b30343b3b3b3b4c3b303b6f4e3b5954524f46205245424d554e204349414843524120414c41484e49533b4445313131,
0x3b3b3b3b3b4e3b30353b3b3b3b4c3b303b6f4e3b5954464946205245424d554e204349414843524120414c41484e49533b4545313131,
0x3b3b3b3b3b4e3b30363b3b3b3b4c3b303b6f4e3b5954584953205245424d554e204349414843524120414c41484e49533b4645313131,
0x3b3b3b3b3b4e3b30373b3b3b3b4c3b303b6f4e3b59544e45564553205245424d554e204349414843524120414c41484e49533b3046313131,
0x3b3b3b3b3b4e3b30383b3b3b3b4c3b303b6f4e3b595448474945205245424d554e204349414843524120414c41484e49533b3146313131,
0x3b3b3b3b3b4e3b30393b3b3b3b4c3b303b6f4e3b5954454e494e205245424d554e204349414843524120414c41484e49533b3246313131,
0x3b3b3b3b3b4e3b3030313b3b3b3b4c3b303b6f4e3b444552444e554820454e4f205245424d554e204349414843524120414c41484e49533b3346313131,
0x3b3b3b3b3b4e3b303030313b3b3b3b4c3b303b6f4e3b444e4153554f485420454e4f205245424d554e204349414843524120414c41484e49533b3446313131,
0x3b3b3b3b3b4e3b3b3b3b3b4c3b303b6f4c3b412052455454454c20494b4a4f484b3b3030323131,
0x3b3b3b3b3b4e3b3b3b3b3b4c3b303b6f4c3b41412052455454454c20494b4a4f484b3b3130323131,
0x3b3b3b3b3b4e3b3b3b3b3b4c3b303b6f4c3b492052455454454c20494b4a4f484b3b3230323131,
0x3b3b3b3b3b4e3b3b3b3b3b4c3b303b6f4c3b552052455454454c20494b4a4f484b3b3330323131,
0x3b3b3b3b3b4e3b3b3b3b3b4c3b303b6f4c3b452052455454454c20494b4a4f484b3b3430323131,
0x3b3b3b3b3b4e3b3b3b3b3b4c3b303b6f4c3b49412052455454454c20494b4a4f484b3b3530323131,
0x3b3b3b3b3b4e3b3b3b3b3b4c3b303b6f4c3b4f2052455454454c20494b4a4f484b3b3630323131,
0x3b3b3b3b3b4e3b3b3b3b3b4c3b303b6f4c3b55412052455454454c20494b4a4f484b3b3730323131,
0x3b3b3b3b3b4e3b3b3b3b3b4c3b303b6f4c3b414b2052455454454c20494b4a4f484b3b3830323131,
0x3b3b3b3b3b4e3b3b3b3b3b4c3b303b6f4c3b41484b2052455454454c20494b4a4f484b3b3930323131,
0x3b3b3b3b3b4e3b3b3b3b3b4c3b303b6f4c3b41472052455454454c20494b4a4f484b3b4130323131,
0x3b3b3b3b3b4e3b3b3b3b3b4c3b303b6f4c3b4147472052455454454c20494b4a4f484b3b4230323131,
0x3b3b3b3b3b4e3b3b3b3b3b4c3b303b6f4c3b4148472052455454454c20494b4a4f484b3b4330323131,
0x3b3b3b3b3b4e3b3b3b3b3b4c3b303b6f4c3b41474e2052455454454c20494b4a4f484b3b4430323131,
0x3b3b3b3b3b4e3b3b3b3b3b4c3b303b6f4c3b41432052455454454c20494b4a4f484b3b4530323131,
0x3b3b3b3b3b4e3b3b3b3b3b4c3b303b6f4c3b4148432052455454454c20494b4a4f484b3b4630323131,
0x3b3b3b3b3b4e3b3b3b3b3b4c3b303b6f4c3b414a2052455454454c20494b4a4f484b3b3031323131,
0x3b3b3b3b3b4e3b3b3b3b3b4c3b303b6f4c3b414a4a2052455454454c20494b4a4f484b3b3131323131,
0x3b3b3b3b3b4e3b3b3b3b3b4c3b303b6f4c3b41594e2052455454454c20494b4a4f484b3b3331323131,
0x3b3b3b3b3b4e3b3b3b3b3b4c3b303b6f4c3b4154542052455454454c20494b4a4f484b3b3431323131,
0x3b3b3b3b3b4e3b3b3b3b3b4c3b303b6f4c3b414854542052455454454c20494b4a4f484b3b3531323131,
0x3b3b3b3b3b4e3b3b3b3b3b4c3b303b6f4c3b4144442052455454454c20494b4a4f484b3b3631323131,
0x3b3b3b3b3b4e3b3b3b3b3b4c3b303b6f4c3b414844442052455454454c20494b4a4f484b3b3731323131,
0x3b3b3b3b3b4e3b3b3b3b3b4c3b303b6f4c3b414e4e2052455454454c20494b4a4f484b3b3831323131,
0x3b3b3b3b3b4e3b3b3b3b3b4c3b303b6f4c3b41542052455454454c20494b4a4f484b3b3931323131,
0x3b3b3b3b3b4e3b3b3b3b3b4c3b303b6f4c3b4148542052455454454c20494b4a4f484b3b4131323131,
0x3b3b3b3b3b4e3b3b3b3b3b4c3b303b6f4c3b41442052455454454c20494b4a4f484b3b4231323131,
0x3b3b3b3b3b4e3b3b3b3b3b4c3b303b6f4c3b414444442052455454454c20494b4a4f484b3b4331323131,
0x3b3b3b3b3b4e3b3b3b3b3b4c3b303b6f4c3b4148442052455454454c20494b4a4f484b3b4431323131,
0x3b3b3b3b3b4e3b3b3b3b3b4c3b303b6f4c3b414e2052455454454c20494b4a4f484b3b4531323131,
0x3b3b3b3b3b4e3b3b3b3b3b4c3b303b6f4c3b41502052455454454c20494b4a4f484b3b4631323131,
0x3b3b3b3b3b4e3b3b3b3b3b4c3b303b6f4c3b4148502052455454454c20494b4a4f484b3b3032323131,
0x3b3b3b3b3b4e3b3b3b3b3b4c3b303b6f4c3b41422052455454454c20494b4a4f484b3b3132323131,
0x3b3b3b3b3b4e3b3b3b3b3b4c3b303b6f4c3b4142422052455454454c20494b4a4f484b3b3232323131,
0x3b3b3b3b3b4e3b3b3b3b3b4c3b303b6f4c3b4148422052455454454c20494b4a4f484b3b3332323131,
0x3b3b3b3b3b4e3b3b3b3b3b4c3b303b6f4c3b414d2052455454454c20494b4a4f484b3b3432323131,
0x3b3b3b3b3b4e3b3b3b3b3b4c3b303b6f4c3b41592052455454454c20494b4a4f484b3b3532323131,
0x3b3b3b3b3b4e3b3b3b3b3b4c3b303b6f4c3b41522052455454454c20494b4a4f484b3b3632323131,
0x3b3b3b3b3b4e3b3b3b3b3b4c3b303b6f4c3b414c2052455454454c20494b4a4f484b3b3732323131,
0x3b3b3b3b3b4e3b3b3b3b3b4c3b303b6f4c3b41562052455454454c20494b4a4f484b3b3832323131,
0x3b3b3b3b3b4e3b3b3b3b3b4c3b303b6f4c3b41532052455454454c20494b4a4f484b3b3932323131,
0x3b3b3b3b3b4e3b3b3b3b3b4c3b303b6f4c3b41482052455454454c20494b4a4f484b3b4132323131,
0x3b3b3b3b3b4e3b3b3b3b3b4c3b303b6f4c3b414c4c2052455454454c20494b4a4f484b3b4232323131,
0x3b3b3b3b3b4e3b3b3b3b3b4c3b303b634d3b4141204e474953204c45574f5620494b4a4f484b3b4332323131,
0x3b3b3b3b3b4e3b3b3b3b3b4c3b303b634d3b49204e474953204c45574f5620494b4a4f484b3b4432323131,
0x3b3b3b3b3b4e3b3b3b3b3b4c3b303b634d3b4949204e474953204c45574f5620494b4a4f484b3b4532323131,
0x3b3b3b3b3b4e3b3b3b3b3b4d534e3b303b6e4d3b55204e474953204c45574f5620494b4a4f484b3b4632323131,
0x3b3b3b3b3b4e3b3b3b3b3b4d534e3b303b6e4d3b45204e474953204c45574f5620494b4a4f484b3b3033323131,
0x3b3b3b3b3b4e3b3b3b3b3b4d534e3b303b6e4d3b4941204e474953204c45574f5620494b4a4f484b3b3133323131,
0x3b3b3b3b3b4e3b3b3b3b3b4c3b303b634d3b4f204e474953204c45574f5620494b4a4f484b3b3233323131,
0x3b3b3b3b3b4e3b3b3b3b3b4c3b303b634d3b5541204e474953204c45574f5620494b4a4f484b3b3333323131,
0x3b3b3b3b3b4e3b3b3b3b3b4d534e3b303b6e4d3b4152415653554e41204e47495320494b4a4f484b3b3433323131,
0x3b3b3b3b3b4e3b3b3b3b3b4c3b393b634d3b414d41524956204e47495320494b4a4f484b3b3533323131,
0x3b3b3b3b3b4e3b3b3b3b3b4d534e3b373b6e4d3b41544b554e204e47495320494b4a4f484b3b3633323131,
0x3b3b3b3b3b4e3b3b3b3b3b4d534e3b303b6e4d3b414444414853204e47495320494b4a4f484b3b3733323131,
0x3b3b3b3b3b4e3b3b3b3b3b4c3b303b6f503b41444e414420494b4a4f484b3b3833323131,
0x3b3b3b3b3b4e3b3b3b3b3b4c3b303b6f503b41444e414420454c42554f4420494b4a4f484b3b3933323131,
0x3b3b3b3b3b4e3b3b3b3b3b4c3b303b6f503b524f544152415045532044524f5720494b4a4f484b3b4133323131,
0x3b3b3b3b3b4e3b3b3b3b3b4c3b303b6f503b4b52414d204e4f495443455320494b4a4f484b3b4233323131,
0x3b3b3b3b3b4e3b3b3b3b3b4c3b303b6f503b4b52414d204e4f495443455320454c42554f4420494b4a4f484b3b4333323131,
0x3b3b3b3b3b4e3b3b3b3b3b4c3b303b6f503b4e474953204e4f4954414956455242424120494b4a4f484b3b4433323131,
0x3b3b3b3b3b4e3b3b3b3b3b4d534e3b303b6e4d3b4e554b5553204e47495320494b4a4f484b3b4533323131,
0x3b3b3b3b3b4e3b3b3b3b3b4c3b303b6f4c3b412052455454454c20494e41544c554d3b3038323131,
0x3b3b3b3b3b4e3b3b3b3b3b4c3b303b6f4c3b492052455454454c20494e41544c554d3b3138323131,
0x3b3b3b3b3b4e3b3b3b3b3b4c3b303b6f4c3b552052455454454c20494e41544c554d3b3238323131,
0x3b3b3b3b3b4e3b3b3b3b3b4c3b303b6f4c3b452052455454454c20494e41544c554d3b3338323131,
0x3b3b3b3b3b4e3b3b3b3b3b4c3b303b6f4c3b414b2052455454454c20494e41544c554d3b3438323131,
0x3b3b3b3b3b4e3b3b3b3b3b4c3b303b6f4c3b41484b2052455454454c20494e41544c554d3b3538323131,
0x3b3b3b3b3b4e3b3b3b3b3b4c3b303b6f4c3b41472052455454454c20494e41544c554d3b3638323131,
0x3b3b3b3b3b4e3b3b3b3b3b4c3b303b6f4c3b4148472052455454454c20494e41544c554d3b3838323131,
0x3b3b3b3b3b4e3b3b3b3b3b4c3b303b6f4c3b41432052455454454c20494e41544c554d3b4138323131,
0x3b3b3b3b3b4e3b3b3b3b3b4c3b303b6f4c3b4148432052455454454c20494e41544c554d3b4238323131,
0x3b3b3b3b3b4e3b3b3b3b3b4c3b303b6f4c3b414a2052455454454c20494e41544c554d3b4338323131,
0x3b3b3b3b3b4e3b3b3b3b3b4c3b303b6f4c3b414a4a2052455454454c20494e41544c554d3b4438323131,
0x3b3b3b3b3b4e3b3b3b3b3b4c3b303b6f4c3b41594e2052455454454c20494e41544c554d3b4638323131,
0x3b3b3b3b3b4e3b3b3b3b3b4c3b303b6f4c3b4154542052455454454c20494e41544c554d3b3039323131,
0x3b3b3b3b3b4e3b3b3b3b3b4c3b303b6f4c3b414854542052455454454c20494e41544c554d3b3139323131,
0x3b3b3b3b3b4e3b3b3b3b3b4c3b303b6f4c3b4144442052455454454c20494e41544c554d3b3239323131,
0x3b3b3b3b3b4e3b3b3b3b3b4c3b303b6f4c3b414444442052455454454c20494e41544c554d3b3339323131,
0x3b3b3b3b3b4e3b3b3b3b3b4c3b303b6f4c3b414844442052455454454c20494e41544c554d3b3439323131,
0x3b3b3b3b3b4e3b3b3b3b3b4c3b303b6f4c3b414e4e2052455454454c20494e41544c554d3b3539323131,
0x3b3b3b3b3b4e3b3b3b3b3b4c3b303b6f4c3b41542052455454454c20494e41544c554d3b3639323131,
0x3b3b3b3b3b4e3b3b3b3b3b4c3b303b6f4c3b4148542052455454454c20494e41544c554d3b3739323131,
0x3b3b3b3b3b4e3b3b3b3b3b4c3b303b6f4c3b41442052455454454c20494e41544c554d3b3839323131,
0x3b3b3b3b3b4e3b3b3b3b3b4c3b303b6f4c3b4148442052455454454c20494e41544c554d3b3939323131,
0x3b3b3b3b3b4e3b3b3b3b3b4c3b303b6f4c3b414e2052455454454c20494e41544c554d3b4139323131,
0x3b3b3b3b3b4e3b3b3b3b3b4c3b303b6f4c3b41502052455454454c20494e41544c554d3b4239323131,
0x3b3b3b3b3b4e3b3b3b3b3b4c3b303b6f4c3b4148502052455454454c20494e41544c554d3b4339323131,
0x3b3b3b3b3b4e3b3b3b3b3b4c3b303b6f4c3b41422052455454454c20494e41544c554d3b4439323131,
0x3b3b3b3b3b4e3b3b3b3b3b4c3b303b6f4c3b4148422052455454454c20494e41544c554d3b4639323131,
0x3b3b3b3b3b4e3b3b3b3b3b4c3b303b6f4c3b414d2052455454454c20494e41544c554d3b3041323131,
0x3b3b3b3b3b4e3b3b3b3b3b4c3b303b6f4c3b41592052455454454c20494e41544c554d3b3141323131,
0x3b3b3b3b3b4e3b3b3b3b3b4c3b303b6f4c3b41522052455454454c20494e41544c554d3b3241323131,
0x3b3b3b3b3b4e3b3b3b3b3b4c3b303b6f4c3b414c2052455454454c20494e41544c554d3b3341323131,
0x3b3b3b3b3b4e3b3b3b3b3b4c3b303b6f4c3b41562052455454454c20494e41544c554d3b3441323131,
0x3b3b3b3b3b4e3b3b3b3b3b4c3b303b6f4c3b41532052455454454c20494e41544c554d3b3541323131,
0x3b3b3b3b3b4e3b3b3b3b3b4c3b303b6f4c3b41482052455454454c20494e41544c554d3b3641323131,
0x3b3b3b3b3b4e3b3b3b3b3b4c3b303b6f4c3b4152522052455454454c20494e41544c554d3b3741323131,
0x3b3b3b3b3b4e3b3b3b3b3b4c3b303b6f4c3b4148522052455454454c20494e41544c554d3b3841323131,
0x3b3b3b3b3b4e3b3b3b3b3b4c3b303b6f503b4b52414d204e4f495443455320494e41544c554d3b3941323131,
0x3b3b3b3b3b4e3b3b3b3b3b4c3b303b6f4c3b412052455454454c2049444157414455484b3b3042323131,
0x3b3b3b3b3b4e3b3b3b3b3b4c3b303b6f4c3b41412052455454454c2049444157414455484b3b3142323131,
0x3b3b3b3b3b4e3b3b3b3b3b4c3b303b6f4c3b492052455454454c2049444157414455484b3b3242323131,
0x3b3b3b3b3b4e3b3b3b3b3b4c3b303b6f4c3b49492052455454454c2049444157414455484b3b3342323131,
0x3b3b3b3b3b4e3b3b3b3b3b4c3b303b6f4c3b552052455454454c2049444157414455484b3b3442323131,
0x3b3b3b3b3b4e3b3b3b3b3b4c3b303b6f4c3b55552052455454454c2049444157414455484b3b3542323131,
0x3b3b3b3b3b4e3b3b3b3b3b4c3b303b6f4c3b452052455454454c2049444157414455484b3b3642323131,
0x3b3b3b3b3b4e3b3b3b3b3b4c3b303b6f4c3b49412052455454454c2049444157414455484b3b3742323131,
0x3b3b3b3b3b4e3b3b3b3b3b4c3b303b6f4c3b4f2052455454454c2049444157414455484b3b3842323131,
0x3b3b3b3b3b4e3b3b3b3b3b4c3b303b6f4c3b55412052455454454c2049444157414455484b3b3942323131,
0x3b3b3b3b3b4e3b3b3b3b3b4c3b303b6f4c3b414b2052455454454c2049444157414455484b3b4142323131,
0x3b3b3b3b3b4e3b3b3b3b3b4c3b303b6f4c3b41484b2052455454454c2049444157414455484b3b4242323131,
0x3b3b3b3b3b4e3b3b3b3b3b4c3b303b6f4c3b41472052455454454c2049444157414455484b3b4342323131,
0x3b3b3b3b3b4e3b3b3b3b3b4c3b303b6f4c3b4147472052455454454c2049444157414455484b3b4442323131,
0x3b3b3b3b3b4e3b3b3b3b3b4c3b303b6f4c3b4148472052455454454c2049444157414455484b3b4542323131,
0x3b3b3b3b3b4e3b3b3b3b3b4c3b303b6f4c3b41474e2052455454454c2049444157414455484b3b4642323131,
0x3b3b3b3b3b4e3b3b3b3b3b4c3b303b6f4c3b41432052455454454c2049444157414455484b3b3043323131,
0x3b3b3b3b3b4e3b3b3b3b3b4c3b303b6f4c3b4148432052455454454c2049444157414455484b3b3143323131,
0x3b3b3b3b3b4e3b3b3b3b3b4c3b303b6f4c3b414a2052455454454c2049444157414455484b3b3243323131,
0x3b3b3b3b3b4e3b3b3b3b3b4c3b303b6f4c3b414a4a2052455454454c2049444157414455484b3b3343323131,
0x3b3b3b3b3b4e3b3b3b3b3b4c3b303b6f4c3b41484a2052455454454c2049444157414455484b3b3443323131,
0x3b3b3b3b3b4e3b3b3b3b3b4c3b303b6f4c3b41594e2052455454454c2049444157414455484b3b3543323131,
0x3b3b3b3b3b4e3b3b3b3b3b4c3b303b6f4c3b4154542052455454454c2049444157414455484b3b3643323131,
0x3b3b3b3b3b4e3b3b3b3b3b4c3b303b6f4c3b414854542052455454454c2049444157414455484b3b3743323131,
0x3b3b3b3b3b4e3b3b3b3b3b4c3b303b6f4c3b4144442052455454454c2049444157414455484b3b3843323131,
0x3b3b3b3b3b4e3b3b3b3b3b4c3b303b6f4c3b414444442052455454454c2049444157414455484b3b3943323131,
0x3b3b3b3b3b4e3b3b3b3b3b4c3b303b6f4c3b4152522052455454454c2049444157414455484b3b4143323131,
0x3b3b3b3b3b4e3b3b3b3b3b4c3b303b6f4c3b414844442052455454454c2049444157414455484b3b4243323131,
0x3b3b3b3b3b4e3b3b3b3b3b4c3b303b6f4c3b414e4e2052455454454c2049444157414455484b3b4343323131,
0x3b3b3b3b3b4e3b3b3b3b3b4c3b303b6f4c3b41542052455454454c2049444157414455484b3b4443323131,
0x3b3b3b3b3b4e3b3b3b3b3b4c3b303b6f4c3b4148542052455454454c2049444157414455484b3b4543323131,
0x3b3b3b3b3b4e3b3b3b3b3b4c3b303b6f4c3b41442052455454454c2049444157414455484b3b4643323131,
0x3b3b3b3b3b4e3b3b3b3b3b4c3b303b6f4c3b4148442052455454454c2049444157414455484b3b3044323131,
0x3b3b3b3b3b4e3b3b3b3b3b4c3b303b6f4c3b414e2052455454454c2049444157414455484b3b3144323131,
0x3b3b3b3b3b4e3b3b3b3b3b4c3b303b6f4c3b41502052455454454c2049444157414455484b3b3244323131,
0x3b3b3b3b3b4e3b3b3b3b3b4c3b303b6f4c3b4148502052455454454c2049444157414455484b3b3344323131,
0x3b3b3b3b3b4e3b3b3b3b3b4c3b303b6f4c3b41422052455454454c2049444157414455484b3b3444323131,
0x3b3b3b3b3b4e3b3b3b3b3b4c3b303b6f4c3b4142422052455454454c2049444157414455484b3b3544323131,
0x3b3b3b3b3b4e3b3b3b3b3b4c3b303b6f4c3b4148422052455454454c2049444157414455484b3b3644323131,
0x3b3b3b3b3b4e3b3b3b3b3b4c3b303b6f4c3b414d2052455454454c2049444157414455484b3b3744323131,
0x3b3b3b3b3b4e3b3b3b3b3b4c3b303b6f4c3b41592052455454454c2049444157414455484b3b3844323131,
0x3b3b3b3b3b4e3b3b3b3b3b4c3b303b6f4c3b41522052455454454c2049444157414455484b3b3944323131,
0x3b3b3b3b3b4e3b3b3b3b3b4c3b303b6f4c3b414c2052455454454c2049444157414455484b3b4144323131,
0x3b3b3b3b3b4e3b3b3b3b3b4c3b303b6f4c3b41562052455454454c2049444157414455484b3b4244323131,
0x3b3b3b3b3b4e3b3b3b3b3b4c3b303b6f4c3b4148532052455454454c2049444157414455484b3b4344323131,
0x3b3b3b3b3b4e3b3b3b3b3b4c3b303b6f4c3b41532052455454454c2049444157414455484b3b4444323131,
0x3b3b3b3b3b4e3b3b3b3b3b4c3b303b6f4c3b41482052455454454c2049444157414455484b3b4544323131,
0x3b3b3b3b3b4e3b3b3b3b3b4d534e3b303b6e4d3b4152415653554e41204e4749532049444157414455484b3b4644323131,
0x3b3b3b3b3b4e3b3b3b3b3b4c3b303b634d3b4141204e474953204c45574f562049444157414455484b3b3045323131,
0x3b3b3b3b3b4e3b3b3b3b3b4c3b303b634d3b49204e474953204c45574f562049444157414455484b3b3145323131,
0x3b3b3b3b3b4e3b3b3b3b3b4c3b303b634d3b4949204e474953204c45574f562049444157414455484b3b3245323131,
0x3b3b3b3b3b4e3b3b3b3b3b4d534e3b303b6e4d3b55204e474953204c45574f562049444157414455484b3b3345323131,
0x3b3b3b3b3b4e3b3b3b3b3b4d534e3b303b6e4d3b5555204e474953204c45574f562049444157414455484b3b3445323131,
0x3b3b3b3b3b4e3b3b3b3b3b4d534e3b303b6e4d3b45204e474953204c45574f562049444157414455484b3b3545323131,
0x3b3b3b3b3b4e3b3b3b3b3b4d534e3b303b6e4d3b4941204e474953204c45574f562049444157414455484b3b3645323131,
0x3b3b3b3b3b4e3b3b3b3b3b4d534e3b303b6e4d3b4f204e474953204c45574f562049444157414455484b3b3745323131,
0x3b3b3b3b3b4e3b3b3b3b3b4d534e3b303b6e4d3b5541204e474953204c45574f562049444157414455484b3b3845323131,
0x3b3b3b3b3b4e3b3b3b3b3b4d534e3b373b6e4d3b41544b554e204e4749532049444157414455484b3b3945323131,
0x3b3b3b3b3b4e3b3b3b3b3b4d534e3b393b6e4d3b414d41524956204e4749532049444157414455484b3b4145323131,
0x3b3b3b3b3b4e3b303b303b303b3b4c3b303b644e3b4f52455a2054494749442049444157414455484b3b3046323131,
0x3b3b3b3b3b4e3b313b313b313b3b4c3b303b644e3b454e4f2054494749442049444157414455484b3b3146323131,
0x3b3b3b3b3b4e3b323b323b323b3b4c3b303b644e3b4f57542054494749442049444157414455484b3b3246323131,
0x3b3b3b3b3b4e3b333b333b333b3b4c3b303b644e3b45455248542054494749442049444157414455484b3b3346323131,
0x3b3b3b3b3b4e3b343b343b343b3b4c3b303b644e3b52554f462054494749442049444157414455484b3b3446323131,
0x3b3b3b3b3b4e3b353b353b353b3b4c3b303b644e3b455649462054494749442049444157414455484b3b3546323131,
0x3b3b3b3b3b4e3b363b363b363b3b4c3b303b644e3b5849532054494749442049444157414455484b3b3646323131,
0x3b3b3b3b3b4e3b373b373b373b3b4c3b303b644e3b4e455645532054494749442049444157414455484b3b3746323131,
0x3b3b3b3b3b4e3b383b383b383b3b4c3b303b644e3b54484749452054494749442049444157414455484b3b3846323131,
0x3b3b3b3b3b4e3b393b393b393b3b4c3b303b644e3b454e494e2054494749442049444157414455484b3b3946323131,
0x3b3b3b3b3b4e3b3b3b3b3b4d534e3b303b6e4d3b45564f4241204152415653554e4120474e494e49424d4f43204e474953204148544e4152473b3030333131,
0x3b3b3b3b3b4e3b3b3b3b3b4d534e3b303b6e4d3b55444e49424152444e4143204e474953204148544e4152473b3130333131,
0x3b3b3b3b3b4e3b3b3b3b3b4c3b303b634d3b4152415653554e41204e474953204148544e4152473b3230333131,
0x3b3b3b3b3b4e3b3b3b3b3b4c3b303b634d3b41475241534956204e474953204148544e4152473b3330333131,
0x3b3b3b3b3b4e3b3b3b3b3b4c3b303b6f4c3b412052455454454c204148544e4152473b3530333131,
0x3b3b3b3b3b4e3b3b3b3b3b4c3b303b6f4c3b41412052455454454c204148544e4152473b3630333131,
0x3b3b3b3b3b4e3b3b3b3b3b4c3b303b6f4c3b492052455454454c204148544e4152473b3730333131,
0x3b3b3b3b3b4e3b3b3b3b3b4c3b303b6f4c3b49492052455454454c204148544e4152473b3830333131,
0x3b3b3b3b3b4e3b3b3b3b3b4c3b303b6f4c3b552052455454454c204148544e4152473b3930333131,
0x3b3b3b3b3b4e3b3b3b3b3b4c3b303b6f4c3b55552052455454454c204148544e4152473b4130333131,
0x3b3b3b3b3b4e3b3b3b3b3b4c3b303b6f4c3b522043494c41434f562052455454454c204148544e4152473b4230333131,
0x3b3b3b3b3b4e3b3b3b3b3b4c3b303b6f4c3b4c2043494c41434f562052455454454c204148544e4152473b4330333131,
0x3b3b3b3b3b4e3b3b3b3b3b4c3b303b6f4c3b45452052455454454c204148544e4152473b4630333131,
0x3b3b3b3b3b4e3b3b3b3b3b4c3b303b6f4c3b49412052455454454c204148544e4152473b3031333131,
0x3b3b3b3b3b4e3b3b3b3b3b4c3b303b6f4c3b4f4f2052455454454c204148544e4152473b3331333131,
0x3b3b3b3b3b4e3b3b3b3b3b4c3b303b6f4c3b55412052455454454c204148544e4152473b3431333131,
0x3b3b3b3b3b4e3b3b3b3b3b4c3b303b6f4c3b414b2052455454454c204148544e4152473b3531333131,
0x3b3b3b3b3b4e3b3b3b3b3b4c3b303b6f4c3b41484b2052455454454c204148544e4152473b3631333131,
0x3b3b3b3b3b4e3b3b3b3b3b4c3b303b6f4c3b41472052455454454c204148544e4152473b3731333131,
0x3b3b3b3b3b4e3b3b3b3b3b4c3b303b6f4c3b4148472052455454454c204148544e4152473b3831333131,
0x3b3b3b3b3b4e3b3b3b3b3b4c3b303b6f4c3b41474e2052455454454c204148544e4152473b3931333131,
0x3b3b3b3b3b4e3b3b3b3b3b4c3b303b6f4c3b41432052455454454c204148544e4152473b4131333131,
0x3b3b3b3b3b4e3b3b3b3b3b4c3b303b6f4c3b4148432052455454454c204148544e4152473b4231333131,
0x3b3b3b3b3b4e3b3b3b3b3b4c3b303b6f4c3b414a2052455454454c204148544e4152473b4331333131,
0x3b3b3b3b3b4e3b3b3b3b3b4c3b303b6f4c3b41484a2052455454454c204148544e4152473b4431333131,
0x3b3b3b3b3b4e3b3b3b3b3b4c3b303b6f4c3b41594e2052455454454c204148544e4152473b4531333131,
0x3b3b3b3b3b4e3b3b3b3b3b4c3b303b6f4c3b4154542052455454454c204148544e4152473b4631333131,
0x3b3b3b3b3b4e3b3b3b3b3b4c3b303b6f4c3b414854542052455454454c204148544e4152473b3032333131,
0x3b3b3b3b3b4e3b3b3b3b3b4c3b303b6f4c3b4144442052455454454c204148544e4152473b3132333131,
0x3b3b3b3b3b4e3b3b3b3b3b4c3b303b6f4c3b414844442052455454454c204148544e4152473b3232333131,
0x3b3b3b3b3b4e3b3b3b3b3b4c3b303b6f4c3b414e4e2052455454454c204148544e4152473b3332333131,
0x3b3b3b3b3b4e3b3b3b3b3b4c3b303b6f4c3b41542052455454454c204148544e4152473b3432333131,
0x3b3b3b3b3b4e3b3b3b3b3b4c3b303b6f4c3b4148542052455454454c204148544e4152473b3532333131,
0x3b3b3b3b3b4e3b3b3b3b3b4c3b303b6f4c3b41442052455454454c204148544e4152473b3632333131,
0x3b3b3b3b3b4e3b3b3b3b3b4c3b303b6f4c3b4148442052455454454c204148544e4152473b3732333131,
0x3b3b3b3b3b4e3b3b3b3b3b4c3b303b6f4c3b414e2052455454454c204148544e4152473b3832333131]

/-- src/u5e/props/UnicodeData.txt lines 19457-19712. -/
def rawUcd76 : List Nat := [
0x3b3b3b3b3b4e3b3b3b3b3b4c3b303b6f4c3b41502052455454454c204148544e4152473b4132333131,
0x3b3b3b3b3b4e3b3b3b3b3b4c3b303b6f4c3b4148502052455454454c204148544e4152473b4232333131,
0x3b3b3b3b3b4e3b3b3b3b3b4c3b303b6f4c3b41422052455454454c204148544e4152473b4332333131,
0x3b3b3b3b3b4e3b3b3b3b3b4c3b303b6f4c3b4148422052455454454c204148544e4152473b4432333131,
0x3b3b3b3b3b4e3b3b3b3b3b4c3b303b6f4c3b414d2052455454454c204148544e4152473b4532333131,
0x3b3b3b3b3b4e3b3b3b3b3b4c3b303b6f4c3b41592052455454454c204148544e4152473b4632333131,
0x3b3b3b3b3b4e3b3b3b3b3b4c3b303b6f4c3b41522052455454454c204148544e4152473b3033333131,
0x3b3b3b3b3b4e3b3b3b3b3b4c3b303b6f4c3b414c2052455454454c204148544e4152473b3233333131,
0x3b3b3b3b3b4e3b3b3b3b3b4c3b303b6f4c3b414c4c2052455454454c204148544e4152473b3333333131,
0x3b3b3b3b3b4e3b3b3b3b3b4c3b303b6f4c3b41562052455454454c204148544e4152473b3533333131,
0x3b3b3b3b3b4e3b3b3b3b3b4c3b303b6f4c3b4148532052455454454c204148544e4152473b3633333131,
0x3b3b3b3b3b4e3b3b3b3b3b4c3b303b6f4c3b4153532052455454454c204148544e4152473b3733333131,
0x3b3b3b3b3b4e3b3b3b3b3b4c3b303b6f4c3b41532052455454454c204148544e4152473b3833333131,
0x3b3b3b3b3b4e3b3b3b3b3b4c3b303b6f4c3b41482052455454454c204148544e4152473b3933333131,
0x3b3b3b3b3b4e3b3b3b3b3b4d534e3b373b6e4d3b41544b554e204e474953204148544e4152473b4333333131,
0x3b3b3b3b3b4e3b3b3b3b3b4c3b303b6f4c3b4148415247415641204e474953204148544e4152473b4433333131,
0x3b3b3b3b3b4e3b3b3b3b3b4c3b303b634d3b4141204e474953204c45574f56204148544e4152473b4533333131,
0x3b3b3b3b3b4e3b3b3b3b3b4c3b303b634d3b49204e474953204c45574f56204148544e4152473b4633333131,
0x3b3b3b3b3b4e3b3b3b3b3b4d534e3b303b6e4d3b4949204e474953204c45574f56204148544e4152473b3034333131,
0x3b3b3b3b3b4e3b3b3b3b3b4c3b303b634d3b55204e474953204c45574f56204148544e4152473b3134333131,
0x3b3b3b3b3b4e3b3b3b3b3b4c3b303b634d3b5555204e474953204c45574f56204148544e4152473b3234333131,
0x3b3b3b3b3b4e3b3b3b3b3b4c3b303b634d3b522043494c41434f56204e474953204c45574f56204148544e4152473b3334333131,
0x3b3b3b3b3b4e3b3b3b3b3b4c3b303b634d3b52522043494c41434f56204e474953204c45574f56204148544e4152473b3434333131,
0x3b3b3b3b3b4e3b3b3b3b3b4c3b303b634d3b4545204e474953204c45574f56204148544e4152473b3734333131,
0x3b3b3b3b3b4e3b3b3b3b3b4c3b303b634d3b4941204e474953204c45574f56204148544e4152473b3834333131,
0x3b3b3b3b3b4e3b3b3b3b45333331312037343331313b4c3b303b634d3b4f4f204e474953204c45574f56204148544e4152473b4234333131,
0x3b3b3b3b3b4e3b3b3b3b37353331312037343331313b4c3b303b634d3b5541204e474953204c45574f56204148544e4152473b4334333131,
0x3b3b3b3b3b4e3b3b3b3b3b4c3b393b634d3b414d41524956204e474953204148544e4152473b4434333131,
0x3b3b3b3b3b4e3b3b3b3b3b4c3b303b6f4c3b4d4f204148544e4152473b3035333131,
0x3b3b3b3b3b4e3b3b3b3b3b4c3b303b634d3b4b52414d204854474e454c205541204148544e4152473b3735333131,
0x3b3b3b3b3b4e3b3b3b3b3b4c3b303b6f4c3b4154554c50204e474953204148544e4152473b4435333131,
0x3b3b3b3b3b4e3b3b3b3b3b4c3b303b6f4c3b4152415653554e412043494445562052455454454c204148544e4152473b4535333131,
0x3b3b3b3b3b4e3b3b3b3b3b4c3b303b6f4c3b4152415653554e4120454c42554f442043494445562052455454454c204148544e4152473b4635333131,
0x3b3b3b3b3b4e3b3b3b3b3b4c3b303b6f4c3b52522043494c41434f562052455454454c204148544e4152473b3036333131,
0x3b3b3b3b3b4e3b3b3b3b3b4c3b303b6f4c3b4c4c2043494c41434f562052455454454c204148544e4152473b3136333131,
0x3b3b3b3b3b4e3b3b3b3b3b4c3b303b634d3b4c2043494c41434f56204e474953204c45574f56204148544e4152473b3236333131,
0x3b3b3b3b3b4e3b3b3b3b3b4c3b303b634d3b4c4c2043494c41434f56204e474953204c45574f56204148544e4152473b3336333131,
0x3b3b3b3b3b4e3b3b3b3b3b4d534e3b3033323b6e4d3b4f52455a205449474944204148544e41524720474e494e49424d4f433b3636333131,
0x3b3b3b3b3b4e3b3b3b3b3b4d534e3b3033323b6e4d3b454e4f205449474944204148544e41524720474e494e49424d4f433b3736333131,
0x3b3b3b3b3b4e3b3b3b3b3b4d534e3b3033323b6e4d3b4f5754205449474944204148544e41524720474e494e49424d4f433b3836333131,
0x3b3b3b3b3b4e3b3b3b3b3b4d534e3b3033323b6e4d3b4545524854205449474944204148544e41524720474e494e49424d4f433b3936333131,
0x3b3b3b3b3b4e3b3b3b3b3b4d534e3b3033323b6e4d3b52554f46205449474944204148544e41524720474e494e49424d4f433b4136333131,
0x3b3b3b3b3b4e3b3b3b3b3b4d534e3b3033323b6e4d3b45564946205449474944204148544e41524720474e494e49424d4f433b4236333131,
0x3b3b3b3b3b4e3b3b3b3b3b4d534e3b3033323b6e4d3b584953205449474944204148544e41524720474e494e49424d4f433b4336333131,
0x3b3b3b3b3b4e3b3b3b3b3b4d534e3b3033323b6e4d3b412052455454454c204148544e41524720474e494e49424d4f433b3037333131,
0x3b3b3b3b3b4e3b3b3b3b3b4d534e3b3033323b6e4d3b414b2052455454454c204148544e41524720474e494e49424d4f433b3137333131,
0x3b3b3b3b3b4e3b3b3b3b3b4d534e3b3033323b6e4d3b414e2052455454454c204148544e41524720474e494e49424d4f433b3237333131,
0x3b3b3b3b3b4e3b3b3b3b3b4d534e3b3033323b6e4d3b49562052455454454c204148544e41524720474e494e49424d4f433b3337333131,
0x3b3b3b3b3b4e3b3b3b3b3b4d534e3b3033323b6e4d3b41502052455454454c204148544e41524720474e494e49424d4f433b3437333131,
0x3b3b3b3b3b4e3b3b3b3b3b4c3b303b6f4c3b412052455454454c204157454e3b3030343131,
0x3b3b3b3b3b4e3b3b3b3b3b4c3b303b6f4c3b41412052455454454c204157454e3b3130343131,
0x3b3b3b3b3b4e3b3b3b3b3b4c3b303b6f4c3b492052455454454c204157454e3b3230343131,
0x3b3b3b3b3b4e3b3b3b3b3b4c3b303b6f4c3b49492052455454454c204157454e3b3330343131,
0x3b3b3b3b3b4e3b3b3b3b3b4c3b303b6f4c3b552052455454454c204157454e3b3430343131,
0x3b3b3b3b3b4e3b3b3b3b3b4c3b303b6f4c3b55552052455454454c204157454e3b3530343131,
0x3b3b3b3b3b4e3b3b3b3b3b4c3b303b6f4c3b522043494c41434f562052455454454c204157454e3b3630343131,
0x3b3b3b3b3b4e3b3b3b3b3b4c3b303b6f4c3b52522043494c41434f562052455454454c204157454e3b3730343131,
0x3b3b3b3b3b4e3b3b3b3b3b4c3b303b6f4c3b4c2043494c41434f562052455454454c204157454e3b3830343131,
0x3b3b3b3b3b4e3b3b3b3b3b4c3b303b6f4c3b4c4c2043494c41434f562052455454454c204157454e3b3930343131,
0x3b3b3b3b3b4e3b3b3b3b3b4c3b303b6f4c3b452052455454454c204157454e3b4130343131,
0x3b3b3b3b3b4e3b3b3b3b3b4c3b303b6f4c3b49412052455454454c204157454e3b4230343131,
0x3b3b3b3b3b4e3b3b3b3b3b4c3b303b6f4c3b4f2052455454454c204157454e3b4330343131,
0x3b3b3b3b3b4e3b3b3b3b3b4c3b303b6f4c3b55412052455454454c204157454e3b4430343131,
0x3b3b3b3b3b4e3b3b3b3b3b4c3b303b6f4c3b414b2052455454454c204157454e3b4530343131,
0x3b3b3b3b3b4e3b3b3b3b3b4c3b303b6f4c3b41484b2052455454454c204157454e3b4630343131,
0x3b3b3b3b3b4e3b3b3b3b3b4c3b303b6f4c3b41472052455454454c204157454e3b3031343131,
0x3b3b3b3b3b4e3b3b3b3b3b4c3b303b6f4c3b4148472052455454454c204157454e3b3131343131,
0x3b3b3b3b3b4e3b3b3b3b3b4c3b303b6f4c3b41474e2052455454454c204157454e3b3231343131,
0x3b3b3b3b3b4e3b3b3b3b3b4c3b303b6f4c3b4148474e2052455454454c204157454e3b3331343131,
0x3b3b3b3b3b4e3b3b3b3b3b4c3b303b6f4c3b41432052455454454c204157454e3b3431343131,
0x3b3b3b3b3b4e3b3b3b3b3b4c3b303b6f4c3b4148432052455454454c204157454e3b3531343131,
0x3b3b3b3b3b4e3b3b3b3b3b4c3b303b6f4c3b414a2052455454454c204157454e3b3631343131,
0x3b3b3b3b3b4e3b3b3b3b3b4c3b303b6f4c3b41484a2052455454454c204157454e3b3731343131,
0x3b3b3b3b3b4e3b3b3b3b3b4c3b303b6f4c3b41594e2052455454454c204157454e3b3831343131,
0x3b3b3b3b3b4e3b3b3b3b3b4c3b303b6f4c3b4148594e2052455454454c204157454e3b3931343131,
0x3b3b3b3b3b4e3b3b3b3b3b4c3b303b6f4c3b4154542052455454454c204157454e3b4131343131,
0x3b3b3b3b3b4e3b3b3b3b3b4c3b303b6f4c3b414854542052455454454c204157454e3b4231343131,
0x3b3b3b3b3b4e3b3b3b3b3b4c3b303b6f4c3b4144442052455454454c204157454e3b4331343131,
0x3b3b3b3b3b4e3b3b3b3b3b4c3b303b6f4c3b414844442052455454454c204157454e3b4431343131,
0x3b3b3b3b3b4e3b3b3b3b3b4c3b303b6f4c3b414e4e2052455454454c204157454e3b4531343131,
0x3b3b3b3b3b4e3b3b3b3b3b4c3b303b6f4c3b41542052455454454c204157454e3b4631343131,
0x3b3b3b3b3b4e3b3b3b3b3b4c3b303b6f4c3b4148542052455454454c204157454e3b3032343131,
0x3b3b3b3b3b4e3b3b3b3b3b4c3b303b6f4c3b41442052455454454c204157454e3b3132343131,
0x3b3b3b3b3b4e3b3b3b3b3b4c3b303b6f4c3b4148442052455454454c204157454e3b3232343131,
0x3b3b3b3b3b4e3b3b3b3b3b4c3b303b6f4c3b414e2052455454454c204157454e3b3332343131,
0x3b3b3b3b3b4e3b3b3b3b3b4c3b303b6f4c3b41484e2052455454454c204157454e3b3432343131,
0x3b3b3b3b3b4e3b3b3b3b3b4c3b303b6f4c3b41502052455454454c204157454e3b3532343131,
0x3b3b3b3b3b4e3b3b3b3b3b4c3b303b6f4c3b4148502052455454454c204157454e3b3632343131,
0x3b3b3b3b3b4e3b3b3b3b3b4c3b303b6f4c3b41422052455454454c204157454e3b3732343131,
0x3b3b3b3b3b4e3b3b3b3b3b4c3b303b6f4c3b4148422052455454454c204157454e3b3832343131,
0x3b3b3b3b3b4e3b3b3b3b3b4c3b303b6f4c3b414d2052455454454c204157454e3b3932343131,
0x3b3b3b3b3b4e3b3b3b3b3b4c3b303b6f4c3b41484d2052455454454c204157454e3b4132343131,
0x3b3b3b3b3b4e3b3b3b3b3b4c3b303b6f4c3b41592052455454454c204157454e3b4232343131,
0x3b3b3b3b3b4e3b3b3b3b3b4c3b303b6f4c3b41522052455454454c204157454e3b4332343131,
0x3b3b3b3b3b4e3b3b3b3b3b4c3b303b6f4c3b4148522052455454454c204157454e3b4432343131,
0x3b3b3b3b3b4e3b3b3b3b3b4c3b303b6f4c3b414c2052455454454c204157454e3b4532343131,
0x3b3b3b3b3b4e3b3b3b3b3b4c3b303b6f4c3b41484c2052455454454c204157454e3b4632343131,
0x3b3b3b3b3b4e3b3b3b3b3b4c3b303b6f4c3b41572052455454454c204157454e3b3033343131,
0x3b3b3b3b3b4e3b3b3b3b3b4c3b303b6f4c3b4148532052455454454c204157454e3b3133343131,
0x3b3b3b3b3b4e3b3b3b3b3b4c3b303b6f4c3b4153532052455454454c204157454e3b3233343131,
0x3b3b3b3b3b4e3b3b3b3b3b4c3b303b6f4c3b41532052455454454c204157454e3b3333343131,
0x3b3b3b3b3b4e3b3b3b3b3b4c3b303b6f4c3b41482052455454454c204157454e3b3433343131,
0x3b3b3b3b3b4e3b3b3b3b3b4c3b303b634d3b4141204e474953204c45574f56204157454e3b3533343131,
0x3b3b3b3b3b4e3b3b3b3b3b4c3b303b634d3b49204e474953204c45574f56204157454e3b3633343131,
0x3b3b3b3b3b4e3b3b3b3b3b4c3b303b634d3b4949204e474953204c45574f56204157454e3b3733343131,
0x3b3b3b3b3b4e3b3b3b3b3b4d534e3b303b6e4d3b55204e474953204c45574f56204157454e3b3833343131,
0x3b3b3b3b3b4e3b3b3b3b3b4d534e3b303b6e4d3b5555204e474953204c45574f56204157454e3b3933343131,
0x3b3b3b3b3b4e3b3b3b3b3b4d534e3b303b6e4d3b522043494c41434f56204e474953204c45574f56204157454e3b4133343131,
0x3b3b3b3b3b4e3b3b3b3b3b4d534e3b303b6e4d3b52522043494c41434f56204e474953204c45574f56204157454e3b4233343131,
0x3b3b3b3b3b4e3b3b3b3b3b4d534e3b303b6e4d3b4c2043494c41434f56204e474953204c45574f56204157454e3b4333343131,
0x3b3b3b3b3b4e3b3b3b3b3b4d534e3b303b6e4d3b4c4c2043494c41434f56204e474953204c45574f56204157454e3b4433343131,
0x3b3b3b3b3b4e3b3b3b3b3b4d534e3b303b6e4d3b45204e474953204c45574f56204157454e3b4533343131,
0x3b3b3b3b3b4e3b3b3b3b3b4d534e3b303b6e4d3b4941204e474953204c45574f56204157454e3b4633343131,
0x3b3b3b3b3b4e3b3b3b3b3b4c3b303b634d3b4f204e474953204c45574f56204157454e3b3034343131,
0x3b3b3b3b3b4e3b3b3b3b3b4c3b303b634d3b5541204e474953204c45574f56204157454e3b3134343131,
0x3b3b3b3b3b4e3b3b3b3b3b4d534e3b393b6e4d3b414d41524956204e474953204157454e3b3234343131,
0x3b3b3b3b3b4e3b3b3b3b3b4d534e3b303b6e4d3b55444e49424152444e4143204e474953204157454e3b3334343131,
0x3b3b3b3b3b4e3b3b3b3b3b4d534e3b303b6e4d3b4152415653554e41204e474953204157454e3b3434343131,
0x3b3b3b3b3b4e3b3b3b3b3b4c3b303b634d3b41475241534956204e474953204157454e3b3534343131,
0x3b3b3b3b3b4e3b3b3b3b3b4d534e3b373b6e4d3b41544b554e204e474953204157454e3b3634343131,
0x3b3b3b3b3b4e3b3b3b3b3b4c3b303b6f4c3b4148415247415641204e474953204157454e3b3734343131,
0x3b3b3b3b3b4e3b3b3b3b3b4c3b303b6f4c3b4152415653554e41204c414e4946204e474953204157454e3b3834343131,
0x3b3b3b3b3b4e3b3b3b3b3b4c3b303b6f4c3b4d4f204157454e3b3934343131,
0x3b3b3b3b3b4e3b3b3b3b3b4c3b303b6f4c3b494844444953204157454e3b4134343131,
0x3b3b3b3b3b4e3b3b3b3b3b4c3b303b6f503b41444e4144204157454e3b4234343131,
0x3b3b3b3b3b4e3b3b3b3b3b4c3b303b6f503b41444e414420454c42554f44204157454e3b4334343131,
0x3b3b3b3b3b4e3b3b3b3b3b4c3b303b6f503b414d4d4f43204157454e3b4434343131,
0x3b3b3b3b3b4e3b3b3b3b3b4c3b303b6f503b52454c4c494620504147204157454e3b4534343131,
0x3b3b3b3b3b4e3b3b3b3b3b4c3b303b6f503b4e474953204e4f49544149564552424241204157454e3b4634343131,
0x3b3b3b3b3b4e3b303b303b303b3b4c3b303b644e3b4f52455a205449474944204157454e3b3035343131,
0x3b3b3b3b3b4e3b313b313b313b3b4c3b303b644e3b454e4f205449474944204157454e3b3135343131,
0x3b3b3b3b3b4e3b323b323b323b3b4c3b303b644e3b4f5754205449474944204157454e3b3235343131,
0x3b3b3b3b3b4e3b333b333b333b3b4c3b303b644e3b4545524854205449474944204157454e3b3335343131,
0x3b3b3b3b3b4e3b343b343b343b3b4c3b303b644e3b52554f46205449474944204157454e3b3435343131,
0x3b3b3b3b3b4e3b353b353b353b3b4c3b303b644e3b45564946205449474944204157454e3b3535343131,
0x3b3b3b3b3b4e3b363b363b363b3b4c3b303b644e3b584953205449474944204157454e3b3635343131,
0x3b3b3b3b3b4e3b373b373b373b3b4c3b303b644e3b4e45564553205449474944204157454e3b3735343131,
0x3b3b3b3b3b4e3b383b383b383b3b4c3b303b644e3b5448474945205449474944204157454e3b3835343131,
0x3b3b3b3b3b4e3b393b393b393b3b4c3b303b644e3b454e494e205449474944204157454e3b3935343131,
0x3b3b3b3b3b4e3b3b3b3b3b4c3b303b6f503b4b52414d205245444c4f484543414c50204157454e3b4235343131,
0x3b3b3b3b3b4e3b3b3b3b3b4c3b303b6f503b4e474953204e4f49545245534e49204157454e3b4435343131,
0x3b3b3b3b3b4e3b3b3b3b3b4c3b303b6f4c3b494a4e4120415455485249543b3038343131,
0x3b3b3b3b3b4e3b3b3b3b3b4c3b303b6f4c3b412052455454454c20415455485249543b3138343131,
0x3b3b3b3b3b4e3b3b3b3b3b4c3b303b6f4c3b41412052455454454c20415455485249543b3238343131,
0x3b3b3b3b3b4e3b3b3b3b3b4c3b303b6f4c3b492052455454454c20415455485249543b3338343131,
0x3b3b3b3b3b4e3b3b3b3b3b4c3b303b6f4c3b49492052455454454c20415455485249543b3438343131,
0x3b3b3b3b3b4e3b3b3b3b3b4c3b303b6f4c3b552052455454454c20415455485249543b3538343131,
0x3b3b3b3b3b4e3b3b3b3b3b4c3b303b6f4c3b55552052455454454c20415455485249543b3638343131,
0x3b3b3b3b3b4e3b3b3b3b3b4c3b303b6f4c3b522043494c41434f562052455454454c20415455485249543b3738343131,
0x3b3b3b3b3b4e3b3b3b3b3b4c3b303b6f4c3b52522043494c41434f562052455454454c20415455485249543b3838343131,
0x3b3b3b3b3b4e3b3b3b3b3b4c3b303b6f4c3b4c2043494c41434f562052455454454c20415455485249543b3938343131,
0x3b3b3b3b3b4e3b3b3b3b3b4c3b303b6f4c3b4c4c2043494c41434f562052455454454c20415455485249543b4138343131,
0x3b3b3b3b3b4e3b3b3b3b3b4c3b303b6f4c3b452052455454454c20415455485249543b4238343131,
0x3b3b3b3b3b4e3b3b3b3b3b4c3b303b6f4c3b49412052455454454c20415455485249543b4338343131,
0x3b3b3b3b3b4e3b3b3b3b3b4c3b303b6f4c3b4f2052455454454c20415455485249543b4438343131,
0x3b3b3b3b3b4e3b3b3b3b3b4c3b303b6f4c3b55412052455454454c20415455485249543b4538343131,
0x3b3b3b3b3b4e3b3b3b3b3b4c3b303b6f4c3b414b2052455454454c20415455485249543b4638343131,
0x3b3b3b3b3b4e3b3b3b3b3b4c3b303b6f4c3b41484b2052455454454c20415455485249543b3039343131,
0x3b3b3b3b3b4e3b3b3b3b3b4c3b303b6f4c3b41472052455454454c20415455485249543b3139343131,
0x3b3b3b3b3b4e3b3b3b3b3b4c3b303b6f4c3b4148472052455454454c20415455485249543b3239343131,
0x3b3b3b3b3b4e3b3b3b3b3b4c3b303b6f4c3b41474e2052455454454c20415455485249543b3339343131,
0x3b3b3b3b3b4e3b3b3b3b3b4c3b303b6f4c3b41432052455454454c20415455485249543b3439343131,
0x3b3b3b3b3b4e3b3b3b3b3b4c3b303b6f4c3b4148432052455454454c20415455485249543b3539343131,
0x3b3b3b3b3b4e3b3b3b3b3b4c3b303b6f4c3b414a2052455454454c20415455485249543b3639343131,
0x3b3b3b3b3b4e3b3b3b3b3b4c3b303b6f4c3b41484a2052455454454c20415455485249543b3739343131,
0x3b3b3b3b3b4e3b3b3b3b3b4c3b303b6f4c3b41594e2052455454454c20415455485249543b3839343131,
0x3b3b3b3b3b4e3b3b3b3b3b4c3b303b6f4c3b4154542052455454454c20415455485249543b3939343131,
0x3b3b3b3b3b4e3b3b3b3b3b4c3b303b6f4c3b414854542052455454454c20415455485249543b4139343131,
0x3b3b3b3b3b4e3b3b3b3b3b4c3b303b6f4c3b4144442052455454454c20415455485249543b4239343131,
0x3b3b3b3b3b4e3b3b3b3b3b4c3b303b6f4c3b414844442052455454454c20415455485249543b4339343131,
0x3b3b3b3b3b4e3b3b3b3b3b4c3b303b6f4c3b414e4e2052455454454c20415455485249543b4439343131,
0x3b3b3b3b3b4e3b3b3b3b3b4c3b303b6f4c3b41542052455454454c20415455485249543b4539343131,
0x3b3b3b3b3b4e3b3b3b3b3b4c3b303b6f4c3b4148542052455454454c20415455485249543b4639343131,
0x3b3b3b3b3b4e3b3b3b3b3b4c3b303b6f4c3b41442052455454454c20415455485249543b3041343131,
0x3b3b3b3b3b4e3b3b3b3b3b4c3b303b6f4c3b4148442052455454454c20415455485249543b3141343131,
0x3b3b3b3b3b4e3b3b3b3b3b4c3b303b6f4c3b414e2052455454454c20415455485249543b3241343131,
0x3b3b3b3b3b4e3b3b3b3b3b4c3b303b6f4c3b41502052455454454c20415455485249543b3341343131,
0x3b3b3b3b3b4e3b3b3b3b3b4c3b303b6f4c3b4148502052455454454c20415455485249543b3441343131,
0x3b3b3b3b3b4e3b3b3b3b3b4c3b303b6f4c3b41422052455454454c20415455485249543b3541343131,
0x3b3b3b3b3b4e3b3b3b3b3b4c3b303b6f4c3b4148422052455454454c20415455485249543b3641343131,
0x3b3b3b3b3b4e3b3b3b3b3b4c3b303b6f4c3b414d2052455454454c20415455485249543b3741343131,
0x3b3b3b3b3b4e3b3b3b3b3b4c3b303b6f4c3b41592052455454454c20415455485249543b3841343131,
0x3b3b3b3b3b4e3b3b3b3b3b4c3b303b6f4c3b41522052455454454c20415455485249543b3941343131,
0x3b3b3b3b3b4e3b3b3b3b3b4c3b303b6f4c3b414c2052455454454c20415455485249543b4141343131,
0x3b3b3b3b3b4e3b3b3b3b3b4c3b303b6f4c3b41562052455454454c20415455485249543b4241343131,
0x3b3b3b3b3b4e3b3b3b3b3b4c3b303b6f4c3b4148532052455454454c20415455485249543b4341343131,
0x3b3b3b3b3b4e3b3b3b3b3b4c3b303b6f4c3b4153532052455454454c20415455485249543b4441343131,
0x3b3b3b3b3b4e3b3b3b3b3b4c3b303b6f4c3b41532052455454454c20415455485249543b4541343131,
0x3b3b3b3b3b4e3b3b3b3b3b4c3b303b6f4c3b41482052455454454c20415455485249543b4641343131,
0x3b3b3b3b3b4e3b3b3b3b3b4c3b303b634d3b4141204e474953204c45574f5620415455485249543b3042343131,
0x3b3b3b3b3b4e3b3b3b3b3b4c3b303b634d3b49204e474953204c45574f5620415455485249543b3142343131,
0x3b3b3b3b3b4e3b3b3b3b3b4c3b303b634d3b4949204e474953204c45574f5620415455485249543b3242343131,
0x3b3b3b3b3b4e3b3b3b3b3b4d534e3b303b6e4d3b55204e474953204c45574f5620415455485249543b3342343131,
0x3b3b3b3b3b4e3b3b3b3b3b4d534e3b303b6e4d3b5555204e474953204c45574f5620415455485249543b3442343131,
0x3b3b3b3b3b4e3b3b3b3b3b4d534e3b303b6e4d3b522043494c41434f56204e474953204c45574f5620415455485249543b3542343131,
0x3b3b3b3b3b4e3b3b3b3b3b4d534e3b303b6e4d3b52522043494c41434f56204e474953204c45574f5620415455485249543b3642343131,
0x3b3b3b3b3b4e3b3b3b3b3b4d534e3b303b6e4d3b4c2043494c41434f56204e474953204c45574f5620415455485249543b3742343131,
0x3b3b3b3b3b4e3b3b3b3b3b4d534e3b303b6e4d3b4c4c2043494c41434f56204e474953204c45574f5620415455485249543b3842343131,
0x3b3b3b3b3b4e3b3b3b3b3b4c3b303b634d3b45204e474953204c45574f5620415455485249543b3942343131,
0x3b3b3b3b3b4e3b3b3b3b3b4d534e3b303b6e4d3b452054524f4853204e474953204c45574f5620415455485249543b4142343131,
0x3b3b3b3b3b4e3b3b3b3b41423431312039423431313b4c3b303b634d3b4941204e474953204c45574f5620415455485249543b4242343131,
0x3b3b3b3b3b4e3b3b3b3b30423431312039423431313b4c3b303b634d3b4f204e474953204c45574f5620415455485249543b4342343131,
0x3b3b3b3b3b4e3b3b3b3b3b4c3b303b634d3b4f2054524f4853204e474953204c45574f5620415455485249543b4442343131,
0x3b3b3b3b3b4e3b3b3b3b44423431312039423431313b4c3b303b634d3b5541204e474953204c45574f5620415455485249543b4542343131,
0x3b3b3b3b3b4e3b3b3b3b3b4d534e3b303b6e4d3b55444e49424152444e4143204e47495320415455485249543b4642343131,
0x3b3b3b3b3b4e3b3b3b3b3b4d534e3b303b6e4d3b4152415653554e41204e47495320415455485249543b3043343131,
0x3b3b3b3b3b4e3b3b3b3b3b4c3b303b634d3b41475241534956204e47495320415455485249543b3143343131,
0x3b3b3b3b3b4e3b3b3b3b3b4d534e3b393b6e4d3b414d41524956204e47495320415455485249543b3243343131,
0x3b3b3b3b3b4e3b3b3b3b3b4d534e3b373b6e4d3b41544b554e204e47495320415455485249543b3343343131,
0x3b3b3b3b3b4e3b3b3b3b3b4c3b303b6f4c3b4148415247415641204e47495320415455485249543b3443343131,
0x3b3b3b3b3b4e3b3b3b3b3b4c3b303b6f4c3b474e41564720415455485249543b3543343131,
0x3b3b3b3b3b4e3b3b3b3b3b4c3b303b6f503b4e474953204e4f4954414956455242424120415455485249543b3643343131,
0x3b3b3b3b3b4e3b3b3b3b3b4c3b303b6f4c3b4d4f20415455485249543b3743343131,
0x3b3b3b3b3b4e3b303b303b303b3b4c3b303b644e3b4f52455a20544947494420415455485249543b3044343131,
0x3b3b3b3b3b4e3b313b313b313b3b4c3b303b644e3b454e4f20544947494420415455485249543b3144343131,
0x3b3b3b3b3b4e3b323b323b323b3b4c3b303b644e3b4f575420544947494420415455485249543b3244343131,
0x3b3b3b3b3b4e3b333b333b333b3b4c3b303b644e3b454552485420544947494420415455485249543b3344343131,
0x3b3b3b3b3b4e3b343b343b343b3b4c3b303b644e3b52554f4620544947494420415455485249543b3444343131,
0x3b3b3b3b3b4e3b353b353b353b3b4c3b303b644e3b4556494620544947494420415455485249543b3544343131,
0x3b3b3b3b3b4e3b363b363b363b3b4c3b303b644e3b58495320544947494420415455485249543b3644343131,
0x3b3b3b3b3b4e3b373b373b373b3b4c3b303b644e3b4e4556455320544947494420415455485249543b3744343131,
0x3b3b3b3b3b4e3b383b383b383b3b4c3b303b644e3b544847494520544947494420415455485249543b3844343131,
0x3b3b3b3b3b4e3b393b393b393b3b4c3b303b644e3b454e494e20544947494420415455485249543b3944343131,
0x3b3b3b3b3b4e3b3b3b3b3b4c3b303b6f4c3b412052455454454c204d4148444449533b3038353131,
0x3b3b3b3b3b4e3b3b3b3b3b4c3b303b6f4c3b41412052455454454c204d4148444449533b3138353131,
0x3b3b3b3b3b4e3b3b3b3b3b4c3b303b6f4c3b492052455454454c204d4148444449533b3238353131,
0x3b3b3b3b3b4e3b3b3b3b3b4c3b303b6f4c3b49492052455454454c204d4148444449533b3338353131,
0x3b3b3b3b3b4e3b3b3b3b3b4c3b303b6f4c3b552052455454454c204d4148444449533b3438353131,
0x3b3b3b3b3b4e3b3b3b3b3b4c3b303b6f4c3b55552052455454454c204d4148444449533b3538353131,
0x3b3b3b3b3b4e3b3b3b3b3b4c3b303b6f4c3b522043494c41434f562052455454454c204d4148444449533b3638353131,
0x3b3b3b3b3b4e3b3b3b3b3b4c3b303b6f4c3b52522043494c41434f562052455454454c204d4148444449533b3738353131,
0x3b3b3b3b3b4e3b3b3b3b3b4c3b303b6f4c3b4c2043494c41434f562052455454454c204d4148444449533b3838353131,
0x3b3b3b3b3b4e3b3b3b3b3b4c3b303b6f4c3b4c4c2043494c41434f562052455454454c204d4148444449533b3938353131,
0x3b3b3b3b3b4e3b3b3b3b3b4c3b303b6f4c3b452052455454454c204d4148444449533b4138353131,
0x3b3b3b3b3b4e3b3b3b3b3b4c3b303b6f4c3b49412052455454454c204d4148444449533b4238353131,
0x3b3b3b3b3b4e3b3b3b3b3b4c3b303b6f4c3b4f2052455454454c204d4148444449533b4338353131,
0x3b3b3b3b3b4e3b3b3b3b3b4c3b303b6f4c3b55412052455454454c204d4148444449533b4438353131,
0x3b3b3b3b3b4e3b3b3b3b3b4c3b303b6f4c3b414b2052455454454c204d4148444449533b4538353131,
0x3b3b3b3b3b4e3b3b3b3b3b4c3b303b6f4c3b41484b2052455454454c204d4148444449533b4638353131,
0x3b3b3b3b3b4e3b3b3b3b3b4c3b303b6f4c3b41472052455454454c204d4148444449533b3039353131,
0x3b3b3b3b3b4e3b3b3b3b3b4c3b303b6f4c3b4148472052455454454c204d4148444449533b3139353131,
0x3b3b3b3b3b4e3b3b3b3b3b4c3b303b6f4c3b41474e2052455454454c204d4148444449533b3239353131,
0x3b3b3b3b3b4e3b3b3b3b3b4c3b303b6f4c3b41432052455454454c204d4148444449533b3339353131,
0x3b3b3b3b3b4e3b3b3b3b3b4c3b303b6f4c3b4148432052455454454c204d4148444449533b3439353131,
0x3b3b3b3b3b4e3b3b3b3b3b4c3b303b6f4c3b414a2052455454454c204d4148444449533b3539353131,
0x3b3b3b3b3b4e3b3b3b3b3b4c3b303b6f4c3b41484a2052455454454c204d4148444449533b3639353131,
0x3b3b3b3b3b4e3b3b3b3b3b4c3b303b6f4c3b41594e2052455454454c204d4148444449533b3739353131,
0x3b3b3b3b3b4e3b3b3b3b3b4c3b303b6f4c3b4154542052455454454c204d4148444449533b3839353131,
0x3b3b3b3b3b4e3b3b3b3b3b4c3b303b6f4c3b414854542052455454454c204d4148444449533b3939353131,
0x3b3b3b3b3b4e3b3b3b3b3b4c3b303b6f4c3b4144442052455454454c204d4148444449533b4139353131,
0x3b3b3b3b3b4e3b3b3b3b3b4c3b303b6f4c3b414844442052455454454c204d4148444449533b4239353131,
0x3b3b3b3b3b4e3b3b3b3b3b4c3b303b6f4c3b414e4e2052455454454c204d4148444449533b4339353131,
0x3b3b3b3b3b4e3b3b3b3b3b4c3b303b6f4c3b41542052455454454c204d4148444449533b4439353131,
0x3b3b3b3b3b4e3b3b3b3b3b4c3b303b6f4c3b4148542052455454454c204d4148444449533b4539353131,
0x3b3b3b3b3b4e3b3b3b3b3b4c3b303b6f4c3b41442052455454454c204d4148444449533b4639353131,
0x3b3b3b3b3b4e3b3b3b3b3b4c3b303b6f4c3b4148442052455454454c204d4148444449533b3041353131]

/-- src/u5e/props/UnicodeData.txt lines 19713-19968. -/
def rawUcd77 : List Nat := [
0x3b3b3b3b3b4e3b3b3b3b3b4c3b303b6f4c3b414e2052455454454c204d4148444449533b3141353131,
0x3b3b3b3b3b4e3b3b3b3b3b4c3b303b6f4c3b41502052455454454c204d4148444449533b3241353131,
0x3b3b3b3b3b4e3b3b3b3b3b4c3b303b6f4c3b4148502052455454454c204d4148444449533b3341353131,
0x3b3b3b3b3b4e3b3b3b3b3b4c3b303b6f4c3b41422052455454454c204d4148444449533b3441353131,
0x3b3b3b3b3b4e3b3b3b3b3b4c3b303b6f4c3b4148422052455454454c204d4148444449533b3541353131,
0x3b3b3b3b3b4e3b3b3b3b3b4c3b303b6f4c3b414d2052455454454c204d4148444449533b3641353131,
0x3b3b3b3b3b4e3b3b3b3b3b4c3b303b6f4c3b41592052455454454c204d4148444449533b3741353131,
0x3b3b3b3b3b4e3b3b3b3b3b4c3b303b6f4c3b41522052455454454c204d4148444449533b3841353131,
0x3b3b3b3b3b4e3b3b3b3b3b4c3b303b6f4c3b414c2052455454454c204d4148444449533b3941353131,
0x3b3b3b3b3b4e3b3b3b3b3b4c3b303b6f4c3b41562052455454454c204d4148444449533b4141353131,
0x3b3b3b3b3b4e3b3b3b3b3b4c3b303b6f4c3b4148532052455454454c204d4148444449533b4241353131,
0x3b3b3b3b3b4e3b3b3b3b3b4c3b303b6f4c3b4153532052455454454c204d4148444449533b4341353131,
0x3b3b3b3b3b4e3b3b3b3b3b4c3b303b6f4c3b41532052455454454c204d4148444449533b4441353131,
0x3b3b3b3b3b4e3b3b3b3b3b4c3b303b6f4c3b41482052455454454c204d4148444449533b4541353131,
0x3b3b3b3b3b4e3b3b3b3b3b4c3b303b634d3b4141204e474953204c45574f56204d4148444449533b4641353131,
0x3b3b3b3b3b4e3b3b3b3b3b4c3b303b634d3b49204e474953204c45574f56204d4148444449533b3042353131,
0x3b3b3b3b3b4e3b3b3b3b3b4c3b303b634d3b4949204e474953204c45574f56204d4148444449533b3142353131,
0x3b3b3b3b3b4e3b3b3b3b3b4d534e3b303b6e4d3b55204e474953204c45574f56204d4148444449533b3242353131,
0x3b3b3b3b3b4e3b3b3b3b3b4d534e3b303b6e4d3b5555204e474953204c45574f56204d4148444449533b3342353131,
0x3b3b3b3b3b4e3b3b3b3b3b4d534e3b303b6e4d3b522043494c41434f56204e474953204c45574f56204d4148444449533b3442353131,
0x3b3b3b3b3b4e3b3b3b3b3b4d534e3b303b6e4d3b52522043494c41434f56204e474953204c45574f56204d4148444449533b3542353131,
0x3b3b3b3b3b4e3b3b3b3b3b4c3b303b634d3b45204e474953204c45574f56204d4148444449533b3842353131,
0x3b3b3b3b3b4e3b3b3b3b3b4c3b303b634d3b4941204e474953204c45574f56204d4148444449533b3942353131,
0x3b3b3b3b3b4e3b3b3b3b46413531312038423531313b4c3b303b634d3b4f204e474953204c45574f56204d4148444449533b4142353131,
0x3b3b3b3b3b4e3b3b3b3b46413531312039423531313b4c3b303b634d3b5541204e474953204c45574f56204d4148444449533b4242353131,
0x3b3b3b3b3b4e3b3b3b3b3b4d534e3b303b6e4d3b55444e49424152444e4143204e474953204d4148444449533b4342353131,
0x3b3b3b3b3b4e3b3b3b3b3b4d534e3b303b6e4d3b4152415653554e41204e474953204d4148444449533b4442353131,
0x3b3b3b3b3b4e3b3b3b3b3b4c3b303b634d3b41475241534956204e474953204d4148444449533b4542353131,
0x3b3b3b3b3b4e3b3b3b3b3b4d534e3b393b6e4d3b414d41524956204e474953204d4148444449533b4642353131,
0x3b3b3b3b3b4e3b3b3b3b3b4d534e3b373b6e4d3b41544b554e204e474953204d4148444449533b3043353131,
0x3b3b3b3b3b4e3b3b3b3b3b4c3b303b6f503b4d414844444953204e474953204d4148444449533b3143353131,
0x3b3b3b3b3b4e3b3b3b3b3b4c3b303b6f503b41444e4144204d4148444449533b3243353131,
0x3b3b3b3b3b4e3b3b3b3b3b4c3b303b6f503b41444e414420454c42554f44204d4148444449533b3343353131,
0x3b3b3b3b3b4e3b3b3b3b3b4c3b303b6f503b544f4420524f54415241504553204d4148444449533b3443353131,
0x3b3b3b3b3b4e3b3b3b3b3b4c3b303b6f503b52414220524f54415241504553204d4148444449533b3543353131,
0x3b3b3b3b3b4e3b3b3b3b3b4c3b303b6f503b312d4b52414d204e4f4954495445504552204d4148444449533b3643353131,
0x3b3b3b3b3b4e3b3b3b3b3b4c3b303b6f503b322d4b52414d204e4f4954495445504552204d4148444449533b3743353131,
0x3b3b3b3b3b4e3b3b3b3b3b4c3b303b6f503b332d4b52414d204e4f4954495445504552204d4148444449533b3843353131,
0x3b3b3b3b3b4e3b3b3b3b3b4c3b303b6f503b4b52414d205458455420464f20444e45204d4148444449533b3943353131,
0x3b3b3b3b3b4e3b3b3b3b3b4c3b303b6f503b53544e454d414e524f204445504148532d5520444e4120544e45444952542048544957204b52414d204e4f4954434553204d4148444449533b4143353131,
0x3b3b3b3b3b4e3b3b3b3b3b4c3b303b6f503b53544e45435345524320444554544f4420444e4120544e45444952542048544957204b52414d204e4f4954434553204d4148444449533b4243353131,
0x3b3b3b3b3b4e3b3b3b3b3b4c3b303b6f503b53544e45435345524320444554544f4420444e4120535941522048544957204b52414d204e4f4954434553204d4148444449533b4343353131,
0x3b3b3b3b3b4e3b3b3b3b3b4c3b303b6f503b53544e45435345524320454c42554f4420444554544f4420444e4120535941522048544957204b52414d204e4f4954434553204d4148444449533b4443353131,
0x3b3b3b3b3b4e3b3b3b3b3b4c3b303b6f503b53544e45435345524320454c5049525420444554544f4420444e4120535941522048544957204b52414d204e4f4954434553204d4148444449533b4543353131,
0x3b3b3b3b3b4e3b3b3b3b3b4c3b303b6f503b474e495220454c42554f44204b52414d204e4f4954434553204d4148444449533b4643353131,
0x3b3b3b3b3b4e3b3b3b3b3b4c3b303b6f503b53594152204854495720474e495220454c42554f44204b52414d204e4f4954434553204d4148444449533b3044353131,
0x3b3b3b3b3b4e3b3b3b3b3b4c3b303b6f503b53544e45435345524320454c42554f442048544957204b52414d204e4f4954434553204d4148444449533b3144353131,
0x3b3b3b3b3b4e3b3b3b3b3b4c3b303b6f503b53544e45435345524320454c504952542048544957204b52414d204e4f4954434553204d4148444449533b3244353131,
0x3b3b3b3b3b4e3b3b3b3b3b4c3b303b6f503b53544e45435345524320454c505552444155512048544957204b52414d204e4f4954434553204d4148444449533b3344353131,
0x3b3b3b3b3b4e3b3b3b3b3b4c3b303b6f503b53544e45435345524320454c5055545045532048544957204b52414d204e4f4954434553204d4148444449533b3444353131,
0x3b3b3b3b3b4e3b3b3b3b3b4c3b303b6f503b5359415220444e412053454c435249432048544957204b52414d204e4f4954434553204d4148444449533b3544353131,
0x3b3b3b3b3b4e3b3b3b3b3b4c3b303b6f503b53455255534f4c434e45204f575420444e412053454c435249432048544957204b52414d204e4f4954434553204d4148444449533b3644353131,
0x3b3b3b3b3b4e3b3b3b3b3b4c3b303b6f503b53455255534f4c434e452052554f4620444e412053454c435249432048544957204b52414d204e4f4954434553204d4148444449533b3744353131,
0x3b3b3b3b3b4e3b3b3b3b3b4c3b303b6f4c3b49204554414e5245544c4120454c435249432d45455248542052455454454c204d4148444449533b3844353131,
0x3b3b3b3b3b4e3b3b3b3b3b4c3b303b6f4c3b49204554414e5245544c4120454c435249432d4f57542052455454454c204d4148444449533b3944353131,
0x3b3b3b3b3b4e3b3b3b3b3b4c3b303b6f4c3b4949204554414e5245544c4120454c435249432d4f57542052455454454c204d4148444449533b4144353131,
0x3b3b3b3b3b4e3b3b3b3b3b4c3b303b6f4c3b55204554414e5245544c412052455454454c204d4148444449533b4244353131,
0x3b3b3b3b3b4e3b3b3b3b3b4d534e3b303b6e4d3b55204554414e5245544c41204e474953204c45574f56204d4148444449533b4344353131,
0x3b3b3b3b3b4e3b3b3b3b3b4d534e3b303b6e4d3b5555204554414e5245544c41204e474953204c45574f56204d4148444449533b4444353131,
0x3b3b3b3b3b4e3b3b3b3b3b4c3b303b6f4c3b412052455454454c2049444f4d3b3030363131,
0x3b3b3b3b3b4e3b3b3b3b3b4c3b303b6f4c3b41412052455454454c2049444f4d3b3130363131,
0x3b3b3b3b3b4e3b3b3b3b3b4c3b303b6f4c3b492052455454454c2049444f4d3b3230363131,
0x3b3b3b3b3b4e3b3b3b3b3b4c3b303b6f4c3b49492052455454454c2049444f4d3b3330363131,
0x3b3b3b3b3b4e3b3b3b3b3b4c3b303b6f4c3b552052455454454c2049444f4d3b3430363131,
0x3b3b3b3b3b4e3b3b3b3b3b4c3b303b6f4c3b55552052455454454c2049444f4d3b3530363131,
0x3b3b3b3b3b4e3b3b3b3b3b4c3b303b6f4c3b522043494c41434f562052455454454c2049444f4d3b3630363131,
0x3b3b3b3b3b4e3b3b3b3b3b4c3b303b6f4c3b52522043494c41434f562052455454454c2049444f4d3b3730363131,
0x3b3b3b3b3b4e3b3b3b3b3b4c3b303b6f4c3b4c2043494c41434f562052455454454c2049444f4d3b3830363131,
0x3b3b3b3b3b4e3b3b3b3b3b4c3b303b6f4c3b4c4c2043494c41434f562052455454454c2049444f4d3b3930363131,
0x3b3b3b3b3b4e3b3b3b3b3b4c3b303b6f4c3b452052455454454c2049444f4d3b4130363131,
0x3b3b3b3b3b4e3b3b3b3b3b4c3b303b6f4c3b49412052455454454c2049444f4d3b4230363131,
0x3b3b3b3b3b4e3b3b3b3b3b4c3b303b6f4c3b4f2052455454454c2049444f4d3b4330363131,
0x3b3b3b3b3b4e3b3b3b3b3b4c3b303b6f4c3b55412052455454454c2049444f4d3b4430363131,
0x3b3b3b3b3b4e3b3b3b3b3b4c3b303b6f4c3b414b2052455454454c2049444f4d3b4530363131,
0x3b3b3b3b3b4e3b3b3b3b3b4c3b303b6f4c3b41484b2052455454454c2049444f4d3b4630363131,
0x3b3b3b3b3b4e3b3b3b3b3b4c3b303b6f4c3b41472052455454454c2049444f4d3b3031363131,
0x3b3b3b3b3b4e3b3b3b3b3b4c3b303b6f4c3b4148472052455454454c2049444f4d3b3131363131,
0x3b3b3b3b3b4e3b3b3b3b3b4c3b303b6f4c3b41474e2052455454454c2049444f4d3b3231363131,
0x3b3b3b3b3b4e3b3b3b3b3b4c3b303b6f4c3b41432052455454454c2049444f4d3b3331363131,
0x3b3b3b3b3b4e3b3b3b3b3b4c3b303b6f4c3b4148432052455454454c2049444f4d3b3431363131,
0x3b3b3b3b3b4e3b3b3b3b3b4c3b303b6f4c3b414a2052455454454c2049444f4d3b3531363131,
0x3b3b3b3b3b4e3b3b3b3b3b4c3b303b6f4c3b41484a2052455454454c2049444f4d3b3631363131,
0x3b3b3b3b3b4e3b3b3b3b3b4c3b303b6f4c3b41594e2052455454454c2049444f4d3b3731363131,
0x3b3b3b3b3b4e3b3b3b3b3b4c3b303b6f4c3b4154542052455454454c2049444f4d3b3831363131,
0x3b3b3b3b3b4e3b3b3b3b3b4c3b303b6f4c3b414854542052455454454c2049444f4d3b3931363131,
0x3b3b3b3b3b4e3b3b3b3b3b4c3b303b6f4c3b4144442052455454454c2049444f4d3b4131363131,
0x3b3b3b3b3b4e3b3b3b3b3b4c3b303b6f4c3b414844442052455454454c2049444f4d3b4231363131,
0x3b3b3b3b3b4e3b3b3b3b3b4c3b303b6f4c3b414e4e2052455454454c2049444f4d3b4331363131,
0x3b3b3b3b3b4e3b3b3b3b3b4c3b303b6f4c3b41542052455454454c2049444f4d3b4431363131,
0x3b3b3b3b3b4e3b3b3b3b3b4c3b303b6f4c3b4148542052455454454c2049444f4d3b4531363131,
0x3b3b3b3b3b4e3b3b3b3b3b4c3b303b6f4c3b41442052455454454c2049444f4d3b4631363131,
0x3b3b3b3b3b4e3b3b3b3b3b4c3b303b6f4c3b4148442052455454454c2049444f4d3b3032363131,
0x3b3b3b3b3b4e3b3b3b3b3b4c3b303b6f4c3b414e2052455454454c2049444f4d3b3132363131,
0x3b3b3b3b3b4e3b3b3b3b3b4c3b303b6f4c3b41502052455454454c2049444f4d3b3232363131,
0x3b3b3b3b3b4e3b3b3b3b3b4c3b303b6f4c3b4148502052455454454c2049444f4d3b3332363131,
0x3b3b3b3b3b4e3b3b3b3b3b4c3b303b6f4c3b41422052455454454c2049444f4d3b3432363131,
0x3b3b3b3b3b4e3b3b3b3b3b4c3b303b6f4c3b4148422052455454454c2049444f4d3b3532363131,
0x3b3b3b3b3b4e3b3b3b3b3b4c3b303b6f4c3b414d2052455454454c2049444f4d3b3632363131,
0x3b3b3b3b3b4e3b3b3b3b3b4c3b303b6f4c3b41592052455454454c2049444f4d3b3732363131,
0x3b3b3b3b3b4e3b3b3b3b3b4c3b303b6f4c3b41522052455454454c2049444f4d3b3832363131,
0x3b3b3b3b3b4e3b3b3b3b3b4c3b303b6f4c3b414c2052455454454c2049444f4d3b3932363131,
0x3b3b3b3b3b4e3b3b3b3b3b4c3b303b6f4c3b41562052455454454c2049444f4d3b4132363131,
0x3b3b3b3b3b4e3b3b3b3b3b4c3b303b6f4c3b4148532052455454454c2049444f4d3b4232363131,
0x3b3b3b3b3b4e3b3b3b3b3b4c3b303b6f4c3b4153532052455454454c2049444f4d3b4332363131,
0x3b3b3b3b3b4e3b3b3b3b3b4c3b303b6f4c3b41532052455454454c2049444f4d3b4432363131,
0x3b3b3b3b3b4e3b3b3b3b3b4c3b303b6f4c3b41482052455454454c2049444f4d3b4532363131,
0x3b3b3b3b3b4e3b3b3b3b3b4c3b303b6f4c3b414c4c2052455454454c2049444f4d3b4632363131,
0x3b3b3b3b3b4e3b3b3b3b3b4c3b303b634d3b4141204e474953204c45574f562049444f4d3b3033363131,
0x3b3b3b3b3b4e3b3b3b3b3b4c3b303b634d3b49204e474953204c45574f562049444f4d3b3133363131,
0x3b3b3b3b3b4e3b3b3b3b3b4c3b303b634d3b4949204e474953204c45574f562049444f4d3b3233363131,
0x3b3b3b3b3b4e3b3b3b3b3b4d534e3b303b6e4d3b55204e474953204c45574f562049444f4d3b3333363131,
0x3b3b3b3b3b4e3b3b3b3b3b4d534e3b303b6e4d3b5555204e474953204c45574f562049444f4d3b3433363131,
0x3b3b3b3b3b4e3b3b3b3b3b4d534e3b303b6e4d3b522043494c41434f56204e474953204c45574f562049444f4d3b3533363131,
0x3b3b3b3b3b4e3b3b3b3b3b4d534e3b303b6e4d3b52522043494c41434f56204e474953204c45574f562049444f4d3b3633363131,
0x3b3b3b3b3b4e3b3b3b3b3b4d534e3b303b6e4d3b4c2043494c41434f56204e474953204c45574f562049444f4d3b3733363131,
0x3b3b3b3b3b4e3b3b3b3b3b4d534e3b303b6e4d3b4c4c2043494c41434f56204e474953204c45574f562049444f4d3b3833363131,
0x3b3b3b3b3b4e3b3b3b3b3b4d534e3b303b6e4d3b45204e474953204c45574f562049444f4d3b3933363131,
0x3b3b3b3b3b4e3b3b3b3b3b4d534e3b303b6e4d3b4941204e474953204c45574f562049444f4d3b4133363131,
0x3b3b3b3b3b4e3b3b3b3b3b4c3b303b634d3b4f204e474953204c45574f562049444f4d3b4233363131,
0x3b3b3b3b3b4e3b3b3b3b3b4c3b303b634d3b5541204e474953204c45574f562049444f4d3b4333363131,
0x3b3b3b3b3b4e3b3b3b3b3b4d534e3b303b6e4d3b4152415653554e41204e4749532049444f4d3b4433363131,
0x3b3b3b3b3b4e3b3b3b3b3b4c3b303b634d3b41475241534956204e4749532049444f4d3b4533363131,
0x3b3b3b3b3b4e3b3b3b3b3b4d534e3b393b6e4d3b414d41524956204e4749532049444f4d3b4633363131,
0x3b3b3b3b3b4e3b3b3b3b3b4d534e3b303b6e4d3b4152444e41434148445241204e4749532049444f4d3b3034363131,
0x3b3b3b3b3b4e3b3b3b3b3b4c3b303b6f503b41444e41442049444f4d3b3134363131,
0x3b3b3b3b3b4e3b3b3b3b3b4c3b303b6f503b41444e414420454c42554f442049444f4d3b3234363131,
0x3b3b3b3b3b4e3b3b3b3b3b4c3b303b6f503b4e474953204e4f495441495645524242412049444f4d3b3334363131,
0x3b3b3b3b3b4e3b3b3b3b3b4c3b303b6f4c3b41565548204e4749532049444f4d3b3434363131,
0x3b3b3b3b3b4e3b303b303b303b3b4c3b303b644e3b4f52455a2054494749442049444f4d3b3035363131,
0x3b3b3b3b3b4e3b313b313b313b3b4c3b303b644e3b454e4f2054494749442049444f4d3b3135363131,
0x3b3b3b3b3b4e3b323b323b323b3b4c3b303b644e3b4f57542054494749442049444f4d3b3235363131,
0x3b3b3b3b3b4e3b333b333b333b3b4c3b303b644e3b45455248542054494749442049444f4d3b3335363131,
0x3b3b3b3b3b4e3b343b343b343b3b4c3b303b644e3b52554f462054494749442049444f4d3b3435363131,
0x3b3b3b3b3b4e3b353b353b353b3b4c3b303b644e3b455649462054494749442049444f4d3b3535363131,
0x3b3b3b3b3b4e3b363b363b363b3b4c3b303b644e3b5849532054494749442049444f4d3b3635363131,
0x3b3b3b3b3b4e3b373b373b373b3b4c3b303b644e3b4e455645532054494749442049444f4d3b3735363131,
0x3b3b3b3b3b4e3b383b383b383b3b4c3b303b644e3b54484749452054494749442049444f4d3b3835363131,
0x3b3b3b3b3b4e3b393b393b393b3b4c3b303b644e3b454e494e2054494749442049444f4d3b3935363131,
0x3b3b3b3b3b4e3b3b3b3b3b4e4f3b303b6f503b544e454d414e524f2048544957204147524942204e41494c4f474e4f4d3b3036363131,
0x3b3b3b3b3b4e3b3b3b3b3b4e4f3b303b6f503b41475249422044455441544f52204e41494c4f474e4f4d3b3136363131,
0x3b3b3b3b3b4e3b3b3b3b3b4e4f3b303b6f503b544e454d414e524f204854495720414752494220454c42554f44204e41494c4f474e4f4d3b3236363131,
0x3b3b3b3b3b4e3b3b3b3b3b4e4f3b303b6f503b544e454d414e524f204854495720414752494220454c50495254204e41494c4f474e4f4d3b3336363131,
0x3b3b3b3b3b4e3b3b3b3b3b4e4f3b303b6f503b544e454d414e524f20454c42554f442048544957204147524942204e41494c4f474e4f4d3b3436363131,
0x3b3b3b3b3b4e3b3b3b3b3b4e4f3b303b6f503b544e454d414e524f20485449572041475249422044455441544f52204e41494c4f474e4f4d3b3536363131,
0x3b3b3b3b3b4e3b3b3b3b3b4e4f3b303b6f503b544e454d414e524f20454c42554f4420485449572041475249422044455441544f52204e41494c4f474e4f4d3b3636363131,
0x3b3b3b3b3b4e3b3b3b3b3b4e4f3b303b6f503b4147524942204445545245564e49204e41494c4f474e4f4d3b3736363131,
0x3b3b3b3b3b4e3b3b3b3b3b4e4f3b303b6f503b544e454d414e524f20454c42554f442048544957204147524942204445545245564e49204e41494c4f474e4f4d3b3836363131,
0x3b3b3b3b3b4e3b3b3b3b3b4e4f3b303b6f503b4147524942204c52495753204e41494c4f474e4f4d3b3936363131,
0x3b3b3b3b3b4e3b3b3b3b3b4e4f3b303b6f503b544e454d414e524f2048544957204147524942204c52495753204e41494c4f474e4f4d3b4136363131,
0x3b3b3b3b3b4e3b3b3b3b3b4e4f3b303b6f503b544e454d414e524f20454c42554f442048544957204147524942204c52495753204e41494c4f474e4f4d3b4236363131,
0x3b3b3b3b3b4e3b3b3b3b3b4e4f3b303b6f503b544e454d414e524f20454c42554f442048544957204147524942204c524957532044454e525554204e41494c4f474e4f4d3b4336363131,
0x3b3b3b3b3b4e3b3b3b3b3b4c3b303b6f4c3b412052455454454c2049524b41543b3038363131,
0x3b3b3b3b3b4e3b3b3b3b3b4c3b303b6f4c3b41412052455454454c2049524b41543b3138363131,
0x3b3b3b3b3b4e3b3b3b3b3b4c3b303b6f4c3b492052455454454c2049524b41543b3238363131,
0x3b3b3b3b3b4e3b3b3b3b3b4c3b303b6f4c3b49492052455454454c2049524b41543b3338363131,
0x3b3b3b3b3b4e3b3b3b3b3b4c3b303b6f4c3b552052455454454c2049524b41543b3438363131,
0x3b3b3b3b3b4e3b3b3b3b3b4c3b303b6f4c3b55552052455454454c2049524b41543b3538363131,
0x3b3b3b3b3b4e3b3b3b3b3b4c3b303b6f4c3b452052455454454c2049524b41543b3638363131,
0x3b3b3b3b3b4e3b3b3b3b3b4c3b303b6f4c3b49412052455454454c2049524b41543b3738363131,
0x3b3b3b3b3b4e3b3b3b3b3b4c3b303b6f4c3b4f2052455454454c2049524b41543b3838363131,
0x3b3b3b3b3b4e3b3b3b3b3b4c3b303b6f4c3b55412052455454454c2049524b41543b3938363131,
0x3b3b3b3b3b4e3b3b3b3b3b4c3b303b6f4c3b414b2052455454454c2049524b41543b4138363131,
0x3b3b3b3b3b4e3b3b3b3b3b4c3b303b6f4c3b41484b2052455454454c2049524b41543b4238363131,
0x3b3b3b3b3b4e3b3b3b3b3b4c3b303b6f4c3b41472052455454454c2049524b41543b4338363131,
0x3b3b3b3b3b4e3b3b3b3b3b4c3b303b6f4c3b4148472052455454454c2049524b41543b4438363131,
0x3b3b3b3b3b4e3b3b3b3b3b4c3b303b6f4c3b41474e2052455454454c2049524b41543b4538363131,
0x3b3b3b3b3b4e3b3b3b3b3b4c3b303b6f4c3b41432052455454454c2049524b41543b4638363131,
0x3b3b3b3b3b4e3b3b3b3b3b4c3b303b6f4c3b4148432052455454454c2049524b41543b3039363131,
0x3b3b3b3b3b4e3b3b3b3b3b4c3b303b6f4c3b414a2052455454454c2049524b41543b3139363131,
0x3b3b3b3b3b4e3b3b3b3b3b4c3b303b6f4c3b41484a2052455454454c2049524b41543b3239363131,
0x3b3b3b3b3b4e3b3b3b3b3b4c3b303b6f4c3b41594e2052455454454c2049524b41543b3339363131,
0x3b3b3b3b3b4e3b3b3b3b3b4c3b303b6f4c3b4154542052455454454c2049524b41543b3439363131,
0x3b3b3b3b3b4e3b3b3b3b3b4c3b303b6f4c3b414854542052455454454c2049524b41543b3539363131,
0x3b3b3b3b3b4e3b3b3b3b3b4c3b303b6f4c3b4144442052455454454c2049524b41543b3639363131,
0x3b3b3b3b3b4e3b3b3b3b3b4c3b303b6f4c3b414844442052455454454c2049524b41543b3739363131,
0x3b3b3b3b3b4e3b3b3b3b3b4c3b303b6f4c3b414e4e2052455454454c2049524b41543b3839363131,
0x3b3b3b3b3b4e3b3b3b3b3b4c3b303b6f4c3b41542052455454454c2049524b41543b3939363131,
0x3b3b3b3b3b4e3b3b3b3b3b4c3b303b6f4c3b4148542052455454454c2049524b41543b4139363131,
0x3b3b3b3b3b4e3b3b3b3b3b4c3b303b6f4c3b41442052455454454c2049524b41543b4239363131,
0x3b3b3b3b3b4e3b3b3b3b3b4c3b303b6f4c3b4148442052455454454c2049524b41543b4339363131,
0x3b3b3b3b3b4e3b3b3b3b3b4c3b303b6f4c3b414e2052455454454c2049524b41543b4439363131,
0x3b3b3b3b3b4e3b3b3b3b3b4c3b303b6f4c3b41502052455454454c2049524b41543b4539363131,
0x3b3b3b3b3b4e3b3b3b3b3b4c3b303b6f4c3b4148502052455454454c2049524b41543b4639363131,
0x3b3b3b3b3b4e3b3b3b3b3b4c3b303b6f4c3b41422052455454454c2049524b41543b3041363131,
0x3b3b3b3b3b4e3b3b3b3b3b4c3b303b6f4c3b4148422052455454454c2049524b41543b3141363131,
0x3b3b3b3b3b4e3b3b3b3b3b4c3b303b6f4c3b414d2052455454454c2049524b41543b3241363131,
0x3b3b3b3b3b4e3b3b3b3b3b4c3b303b6f4c3b41592052455454454c2049524b41543b3341363131,
0x3b3b3b3b3b4e3b3b3b3b3b4c3b303b6f4c3b41522052455454454c2049524b41543b3441363131,
0x3b3b3b3b3b4e3b3b3b3b3b4c3b303b6f4c3b414c2052455454454c2049524b41543b3541363131,
0x3b3b3b3b3b4e3b3b3b3b3b4c3b303b6f4c3b41562052455454454c2049524b41543b3641363131,
0x3b3b3b3b3b4e3b3b3b3b3b4c3b303b6f4c3b4148532052455454454c2049524b41543b3741363131,
0x3b3b3b3b3b4e3b3b3b3b3b4c3b303b6f4c3b41532052455454454c2049524b41543b3841363131,
0x3b3b3b3b3b4e3b3b3b3b3b4c3b303b6f4c3b41482052455454454c2049524b41543b3941363131,
0x3b3b3b3b3b4e3b3b3b3b3b4c3b303b6f4c3b4152522052455454454c2049524b41543b4141363131,
0x3b3b3b3b3b4e3b3b3b3b3b4d534e3b303b6e4d3b4152415653554e41204e4749532049524b41543b4241363131,
0x3b3b3b3b3b4e3b3b3b3b3b4c3b303b634d3b41475241534956204e4749532049524b41543b4341363131,
0x3b3b3b3b3b4e3b3b3b3b3b4d534e3b303b6e4d3b4141204e474953204c45574f562049524b41543b4441363131,
0x3b3b3b3b3b4e3b3b3b3b3b4c3b303b634d3b49204e474953204c45574f562049524b41543b4541363131,
0x3b3b3b3b3b4e3b3b3b3b3b4c3b303b634d3b4949204e474953204c45574f562049524b41543b4641363131,
0x3b3b3b3b3b4e3b3b3b3b3b4d534e3b303b6e4d3b55204e474953204c45574f562049524b41543b3042363131,
0x3b3b3b3b3b4e3b3b3b3b3b4d534e3b303b6e4d3b5555204e474953204c45574f562049524b41543b3142363131,
0x3b3b3b3b3b4e3b3b3b3b3b4d534e3b303b6e4d3b45204e474953204c45574f562049524b41543b3242363131,
0x3b3b3b3b3b4e3b3b3b3b3b4d534e3b303b6e4d3b4941204e474953204c45574f562049524b41543b3342363131,
0x3b3b3b3b3b4e3b3b3b3b3b4d534e3b303b6e4d3b4f204e474953204c45574f562049524b41543b3442363131,
0x3b3b3b3b3b4e3b3b3b3b3b4d534e3b303b6e4d3b5541204e474953204c45574f562049524b41543b3542363131,
0x3b3b3b3b3b4e3b3b3b3b3b4c3b393b634d3b414d41524956204e4749532049524b41543b3642363131,
0x3b3b3b3b3b4e3b3b3b3b3b4d534e3b373b6e4d3b41544b554e204e4749532049524b41543b3742363131,
0x3b3b3b3b3b4e3b303b303b303b3b4c3b303b644e3b4f52455a2054494749442049524b41543b3043363131,
0x3b3b3b3b3b4e3b313b313b313b3b4c3b303b644e3b454e4f2054494749442049524b41543b3143363131,
0x3b3b3b3b3b4e3b323b323b323b3b4c3b303b644e3b4f57542054494749442049524b41543b3243363131,
0x3b3b3b3b3b4e3b333b333b333b3b4c3b303b644e3b45455248542054494749442049524b41543b3343363131,
0x3b3b3b3b3b4e3b343b343b343b3b4c3b303b644e3b52554f462054494749442049524b41543b3443363131,
0x3b3b3b3b3b4e3b353b353b353b3b4c3b303b644e3b455649462054494749442049524b41543b3543363131,
0x3b3b3b3b3b4e3b363b363b363b3b4c3b303b644e3b5849532054494749442049524b41543b3643363131,
0x3b3b3b3b3b4e3b373b373b373b3b4c3b303b644e3b4e455645532054494749442049524b41543b3743363131,
0x3b3b3b3b3b4e3b383b383b383b3b4c3b303b644e3b54484749452054494749442049524b41543b3843363131,
0x3b3b3b3b3b4e3b393b393b393b3b4c3b303b644e3b454e494e2054494749442049524b41543b3943363131,
0x3b3b3b3b3b4e3b3b3b3b3b4c3b303b6f4c3b414b2052455454454c204d4f48413b3030373131,
0x3b3b3b3b3b4e3b3b3b3b3b4c3b303b6f4c3b41484b2052455454454c204d4f48413b3130373131,
0x3b3b3b3b3b4e3b3b3b3b3b4c3b303b6f4c3b41474e2052455454454c204d4f48413b3230373131,
0x3b3b3b3b3b4e3b3b3b3b3b4c3b303b6f4c3b414e2052455454454c204d4f48413b3330373131,
0x3b3b3b3b3b4e3b3b3b3b3b4c3b303b6f4c3b41542052455454454c204d4f48413b3430373131,
0x3b3b3b3b3b4e3b3b3b3b3b4c3b303b6f4c3b4154204554414e5245544c412052455454454c204d4f48413b3530373131,
0x3b3b3b3b3b4e3b3b3b3b3b4c3b303b6f4c3b41502052455454454c204d4f48413b3630373131,
0x3b3b3b3b3b4e3b3b3b3b3b4c3b303b6f4c3b4148502052455454454c204d4f48413b3730373131,
0x3b3b3b3b3b4e3b3b3b3b3b4c3b303b6f4c3b41422052455454454c204d4f48413b3830373131,
0x3b3b3b3b3b4e3b3b3b3b3b4c3b303b6f4c3b414d2052455454454c204d4f48413b3930373131,
0x3b3b3b3b3b4e3b3b3b3b3b4c3b303b6f4c3b414a2052455454454c204d4f48413b4130373131,
0x3b3b3b3b3b4e3b3b3b3b3b4c3b303b6f4c3b4148432052455454454c204d4f48413b4230373131,
0x3b3b3b3b3b4e3b3b3b3b3b4c3b303b6f4c3b4148542052455454454c204d4f48413b4330373131,
0x3b3b3b3b3b4e3b3b3b3b3b4c3b303b6f4c3b41522052455454454c204d4f48413b4430373131,
0x3b3b3b3b3b4e3b3b3b3b3b4c3b303b6f4c3b414c2052455454454c204d4f48413b4530373131,
0x3b3b3b3b3b4e3b3b3b3b3b4c3b303b6f4c3b41532052455454454c204d4f48413b4630373131,
0x3b3b3b3b3b4e3b3b3b3b3b4c3b303b6f4c3b41594e2052455454454c204d4f48413b3031373131,
0x3b3b3b3b3b4e3b3b3b3b3b4c3b303b6f4c3b41482052455454454c204d4f48413b3131373131,
0x3b3b3b3b3b4e3b3b3b3b3b4c3b303b6f4c3b412052455454454c204d4f48413b3231373131,
0x3b3b3b3b3b4e3b3b3b3b3b4c3b303b6f4c3b41442052455454454c204d4f48413b3331373131,
0x3b3b3b3b3b4e3b3b3b3b3b4c3b303b6f4c3b4148442052455454454c204d4f48413b3431373131,
0x3b3b3b3b3b4e3b3b3b3b3b4c3b303b6f4c3b41472052455454454c204d4f48413b3531373131,
0x3b3b3b3b3b4e3b3b3b3b3b4c3b303b6f4c3b4147204554414e5245544c412052455454454c204d4f48413b3631373131,
0x3b3b3b3b3b4e3b3b3b3b3b4c3b303b6f4c3b4148472052455454454c204d4f48413b3731373131,
0x3b3b3b3b3b4e3b3b3b3b3b4c3b303b6f4c3b4148422052455454454c204d4f48413b3831373131,
0x3b3b3b3b3b4e3b3b3b3b3b4c3b303b6f4c3b41484a2052455454454c204d4f48413b3931373131,
0x3b3b3b3b3b4e3b3b3b3b3b4d534e3b303b6e4d3b414c204c414944454d204e47495320544e414e4f534e4f43204d4f48413b4431373131,
0x3b3b3b3b3b4e3b3b3b3b3b4d534e3b303b6e4d3b4152204c414944454d204e47495320544e414e4f534e4f43204d4f48413b4531373131,
0x3b3b3b3b3b4e3b3b3b3b3b4d534e3b303b6e4d3b415220474e49544147494c204c414944454d204e47495320544e414e4f534e4f43204d4f48413b4631373131,
0x3b3b3b3b3b4e3b3b3b3b3b4c3b303b634d3b41204e474953204c45574f56204d4f48413b3032373131,
0x3b3b3b3b3b4e3b3b3b3b3b4c3b303b634d3b4141204e474953204c45574f56204d4f48413b3132373131,
0x3b3b3b3b3b4e3b3b3b3b3b4d534e3b303b6e4d3b49204e474953204c45574f56204d4f48413b3232373131,
0x3b3b3b3b3b4e3b3b3b3b3b4d534e3b303b6e4d3b4949204e474953204c45574f56204d4f48413b3332373131,
0x3b3b3b3b3b4e3b3b3b3b3b4d534e3b303b6e4d3b55204e474953204c45574f56204d4f48413b3432373131,
0x3b3b3b3b3b4e3b3b3b3b3b4d534e3b303b6e4d3b5555204e474953204c45574f56204d4f48413b3532373131,
0x3b3b3b3b3b4e3b3b3b3b3b4c3b303b634d3b45204e474953204c45574f56204d4f48413b3632373131,
0x3b3b3b3b3b4e3b3b3b3b3b4d534e3b303b6e4d3b5741204e474953204c45574f56204d4f48413b3732373131,
0x3b3b3b3b3b4e3b3b3b3b3b4d534e3b303b6e4d3b4f204e474953204c45574f56204d4f48413b3832373131,
0x3b3b3b3b3b4e3b3b3b3b3b4d534e3b303b6e4d3b4941204e474953204c45574f56204d4f48413b3932373131]

/-- src/u5e/props/UnicodeData.txt lines 19969-20224. -/
def rawUcd78 : List Nat := [
0x3b3b3b3b3b4e3b3b3b3b3b4d534e3b303b6e4d3b4d41204e474953204c45574f56204d4f48413b4132373131,
0x3b3b3b3b3b4e3b3b3b3b3b4d534e3b393b6e4d3b52454c4c494b204e474953204d4f48413b4232373131,
0x3b3b3b3b3b4e3b303b303b303b3b4c3b303b644e3b4f52455a205449474944204d4f48413b3033373131,
0x3b3b3b3b3b4e3b313b313b313b3b4c3b303b644e3b454e4f205449474944204d4f48413b3133373131,
0x3b3b3b3b3b4e3b323b323b323b3b4c3b303b644e3b4f5754205449474944204d4f48413b3233373131,
0x3b3b3b3b3b4e3b333b333b333b3b4c3b303b644e3b4545524854205449474944204d4f48413b3333373131,
0x3b3b3b3b3b4e3b343b343b343b3b4c3b303b644e3b52554f46205449474944204d4f48413b3433373131,
0x3b3b3b3b3b4e3b353b353b353b3b4c3b303b644e3b45564946205449474944204d4f48413b3533373131,
0x3b3b3b3b3b4e3b363b363b363b3b4c3b303b644e3b584953205449474944204d4f48413b3633373131,
0x3b3b3b3b3b4e3b373b373b373b3b4c3b303b644e3b4e45564553205449474944204d4f48413b3733373131,
0x3b3b3b3b3b4e3b383b383b383b3b4c3b303b644e3b5448474945205449474944204d4f48413b3833373131,
0x3b3b3b3b3b4e3b393b393b393b3b4c3b303b644e3b454e494e205449474944204d4f48413b3933373131,
0x3b3b3b3b3b4e3b30313b3b3b3b4c3b303b6f4e3b4e4554205245424d554e204d4f48413b4133373131,
0x3b3b3b3b3b4e3b30323b3b3b3b4c3b303b6f4e3b59544e455754205245424d554e204d4f48413b4233373131,
0x3b3b3b3b3b4e3b3b3b3b3b4c3b303b6f503b4e4f4954434553204c4c414d53204e474953204d4f48413b4333373131,
0x3b3b3b3b3b4e3b3b3b3b3b4c3b303b6f503b4e4f4954434553204e474953204d4f48413b4433373131,
0x3b3b3b3b3b4e3b3b3b3b3b4c3b303b6f503b49414c5552204e474953204d4f48413b4533373131,
0x3b3b3b3b3b4e3b3b3b3b3b4c3b303b6f533b4956204c4f424d5953204d4f48413b4633373131,
0x3b30433831313b3b3b3b4e3b3b3b3b3b4c3b303b754c3b4141474e2052455454454c204c415449504143204954494320474e415241573b3041383131,
0x3b31433831313b3b3b3b4e3b3b3b3b3b4c3b303b754c3b412052455454454c204c415449504143204954494320474e415241573b3141383131,
0x3b32433831313b3b3b3b4e3b3b3b3b3b4c3b303b754c3b49572052455454454c204c415449504143204954494320474e415241573b3241383131,
0x3b33433831313b3b3b3b4e3b3b3b3b3b4c3b303b754c3b55592052455454454c204c415449504143204954494320474e415241573b3341383131,
0x3b34433831313b3b3b3b4e3b3b3b3b3b4c3b303b754c3b41592052455454454c204c415449504143204954494320474e415241573b3441383131,
0x3b35433831313b3b3b3b4e3b3b3b3b3b4c3b303b754c3b4f592052455454454c204c415449504143204954494320474e415241573b3541383131,
0x3b36433831313b3b3b3b4e3b3b3b3b3b4c3b303b754c3b49492052455454454c204c415449504143204954494320474e415241573b3641383131,
0x3b37433831313b3b3b3b4e3b3b3b3b3b4c3b303b754c3b55552052455454454c204c415449504143204954494320474e415241573b3741383131,
0x3b38433831313b3b3b3b4e3b3b3b3b3b4c3b303b754c3b452052455454454c204c415449504143204954494320474e415241573b3841383131,
0x3b39433831313b3b3b3b4e3b3b3b3b3b4c3b303b754c3b4f2052455454454c204c415449504143204954494320474e415241573b3941383131,
0x3b41433831313b3b3b3b4e3b3b3b3b3b4c3b303b754c3b474e412052455454454c204c415449504143204954494320474e415241573b4141383131,
0x3b42433831313b3b3b3b4e3b3b3b3b3b4c3b303b754c3b41472052455454454c204c415449504143204954494320474e415241573b4241383131,
0x3b43433831313b3b3b3b4e3b3b3b3b3b4c3b303b754c3b4f4b2052455454454c204c415449504143204954494320474e415241573b4341383131,
0x3b44433831313b3b3b3b4e3b3b3b3b3b4c3b303b754c3b594e452052455454454c204c415449504143204954494320474e415241573b4441383131,
0x3b45433831313b3b3b3b4e3b3b3b3b3b4c3b303b754c3b4a55592052455454454c204c415449504143204954494320474e415241573b4541383131,
0x3b46433831313b3b3b3b4e3b3b3b3b3b4c3b303b754c3b43552052455454454c204c415449504143204954494320474e415241573b4641383131,
0x3b30443831313b3b3b3b4e3b3b3b3b3b4c3b303b754c3b4e4e452052455454454c204c415449504143204954494320474e415241573b3042383131,
0x3b31443831313b3b3b3b4e3b3b3b3b3b4c3b303b754c3b44444f2052455454454c204c415449504143204954494320474e415241573b3142383131,
0x3b32443831313b3b3b3b4e3b3b3b3b3b4c3b303b754c3b4554542052455454454c204c415449504143204954494320474e415241573b3242383131,
0x3b33443831313b3b3b3b4e3b3b3b3b3b4c3b303b754c3b474e554e2052455454454c204c415449504143204954494320474e415241573b3342383131,
0x3b34443831313b3b3b3b4e3b3b3b3b3b4c3b303b754c3b41442052455454454c204c415449504143204954494320474e415241573b3442383131,
0x3b35443831313b3b3b3b4e3b3b3b3b3b4c3b303b754c3b54412052455454454c204c415449504143204954494320474e415241573b3542383131,
0x3b36443831313b3b3b3b4e3b3b3b3b3b4c3b303b754c3b4d412052455454454c204c415449504143204954494320474e415241573b3642383131,
0x3b37443831313b3b3b3b4e3b3b3b3b3b4c3b303b754c3b55422052455454454c204c415449504143204954494320474e415241573b3742383131,
0x3b38443831313b3b3b3b4e3b3b3b3b3b4c3b303b754c3b55502052455454454c204c415449504143204954494320474e415241573b3842383131,
0x3b39443831313b3b3b3b4e3b3b3b3b3b4c3b303b754c3b4f5949482052455454454c204c415449504143204954494320474e415241573b3942383131,
0x3b41443831313b3b3b3b4e3b3b3b3b3b4c3b303b754c3b4f4c4f482052455454454c204c415449504143204954494320474e415241573b4142383131,
0x3b42443831313b3b3b3b4e3b3b3b3b3b4c3b303b754c3b52524f482052455454454c204c415449504143204954494320474e415241573b4242383131,
0x3b43443831313b3b3b3b4e3b3b3b3b3b4c3b303b754c3b5241482052455454454c204c415449504143204954494320474e415241573b4342383131,
0x3b44443831313b3b3b3b4e3b3b3b3b3b4c3b303b754c3b555553532052455454454c204c415449504143204954494320474e415241573b4442383131,
0x3b45443831313b3b3b3b4e3b3b3b3b3b4c3b303b754c3b4949532052455454454c204c415449504143204954494320474e415241573b4542383131,
0x3b46443831313b3b3b3b4e3b3b3b3b3b4c3b303b754c3b4f5949562052455454454c204c415449504143204954494320474e415241573b4642383131,
0x30413831313b3b30413831313b3b3b4e3b3b3b3b3b4c3b303b6c4c3b4141474e2052455454454c204c4c414d53204954494320474e415241573b3043383131,
0x31413831313b3b31413831313b3b3b4e3b3b3b3b3b4c3b303b6c4c3b412052455454454c204c4c414d53204954494320474e415241573b3143383131,
0x32413831313b3b32413831313b3b3b4e3b3b3b3b3b4c3b303b6c4c3b49572052455454454c204c4c414d53204954494320474e415241573b3243383131,
0x33413831313b3b33413831313b3b3b4e3b3b3b3b3b4c3b303b6c4c3b55592052455454454c204c4c414d53204954494320474e415241573b3343383131,
0x34413831313b3b34413831313b3b3b4e3b3b3b3b3b4c3b303b6c4c3b41592052455454454c204c4c414d53204954494320474e415241573b3443383131,
0x35413831313b3b35413831313b3b3b4e3b3b3b3b3b4c3b303b6c4c3b4f592052455454454c204c4c414d53204954494320474e415241573b3543383131,
0x36413831313b3b36413831313b3b3b4e3b3b3b3b3b4c3b303b6c4c3b49492052455454454c204c4c414d53204954494320474e415241573b3643383131,
0x37413831313b3b37413831313b3b3b4e3b3b3b3b3b4c3b303b6c4c3b55552052455454454c204c4c414d53204954494320474e415241573b3743383131,
0x38413831313b3b38413831313b3b3b4e3b3b3b3b3b4c3b303b6c4c3b452052455454454c204c4c414d53204954494320474e415241573b3843383131,
0x39413831313b3b39413831313b3b3b4e3b3b3b3b3b4c3b303b6c4c3b4f2052455454454c204c4c414d53204954494320474e415241573b3943383131,
0x41413831313b3b41413831313b3b3b4e3b3b3b3b3b4c3b303b6c4c3b474e412052455454454c204c4c414d53204954494320474e415241573b4143383131,
0x42413831313b3b42413831313b3b3b4e3b3b3b3b3b4c3b303b6c4c3b41472052455454454c204c4c414d53204954494320474e415241573b4243383131,
0x43413831313b3b43413831313b3b3b4e3b3b3b3b3b4c3b303b6c4c3b4f4b2052455454454c204c4c414d53204954494320474e415241573b4343383131,
0x44413831313b3b44413831313b3b3b4e3b3b3b3b3b4c3b303b6c4c3b594e452052455454454c204c4c414d53204954494320474e415241573b4443383131,
0x45413831313b3b45413831313b3b3b4e3b3b3b3b3b4c3b303b6c4c3b4a55592052455454454c204c4c414d53204954494320474e415241573b4543383131,
0x46413831313b3b46413831313b3b3b4e3b3b3b3b3b4c3b303b6c4c3b43552052455454454c204c4c414d53204954494320474e415241573b4643383131,
0x30423831313b3b30423831313b3b3b4e3b3b3b3b3b4c3b303b6c4c3b4e4e452052455454454c204c4c414d53204954494320474e415241573b3044383131,
0x31423831313b3b31423831313b3b3b4e3b3b3b3b3b4c3b303b6c4c3b44444f2052455454454c204c4c414d53204954494320474e415241573b3144383131,
0x32423831313b3b32423831313b3b3b4e3b3b3b3b3b4c3b303b6c4c3b4554542052455454454c204c4c414d53204954494320474e415241573b3244383131,
0x33423831313b3b33423831313b3b3b4e3b3b3b3b3b4c3b303b6c4c3b474e554e2052455454454c204c4c414d53204954494320474e415241573b3344383131,
0x34423831313b3b34423831313b3b3b4e3b3b3b3b3b4c3b303b6c4c3b41442052455454454c204c4c414d53204954494320474e415241573b3444383131,
0x35423831313b3b35423831313b3b3b4e3b3b3b3b3b4c3b303b6c4c3b54412052455454454c204c4c414d53204954494320474e415241573b3544383131,
0x36423831313b3b36423831313b3b3b4e3b3b3b3b3b4c3b303b6c4c3b4d412052455454454c204c4c414d53204954494320474e415241573b3644383131,
0x37423831313b3b37423831313b3b3b4e3b3b3b3b3b4c3b303b6c4c3b55422052455454454c204c4c414d53204954494320474e415241573b3744383131,
0x38423831313b3b38423831313b3b3b4e3b3b3b3b3b4c3b303b6c4c3b55502052455454454c204c4c414d53204954494320474e415241573b3844383131,
0x39423831313b3b39423831313b3b3b4e3b3b3b3b3b4c3b303b6c4c3b4f5949482052455454454c204c4c414d53204954494320474e415241573b3944383131,
0x41423831313b3b41423831313b3b3b4e3b3b3b3b3b4c3b303b6c4c3b4f4c4f482052455454454c204c4c414d53204954494320474e415241573b4144383131,
0x42423831313b3b42423831313b3b3b4e3b3b3b3b3b4c3b303b6c4c3b52524f482052455454454c204c4c414d53204954494320474e415241573b4244383131,
0x43423831313b3b43423831313b3b3b4e3b3b3b3b3b4c3b303b6c4c3b5241482052455454454c204c4c414d53204954494320474e415241573b4344383131,
0x44423831313b3b44423831313b3b3b4e3b3b3b3b3b4c3b303b6c4c3b555553532052455454454c204c4c414d53204954494320474e415241573b4444383131,
0x45423831313b3b45423831313b3b3b4e3b3b3b3b3b4c3b303b6c4c3b4949532052455454454c204c4c414d53204954494320474e415241573b4544383131,
0x46423831313b3b46423831313b3b3b4e3b3b3b3b3b4c3b303b6c4c3b4f5949562052455454454c204c4c414d53204954494320474e415241573b4644383131,
0x3b3b3b3b3b4e3b303b303b303b3b4c3b303b644e3b4f52455a205449474944204954494320474e415241573b3045383131,
0x3b3b3b3b3b4e3b313b313b313b3b4c3b303b644e3b454e4f205449474944204954494320474e415241573b3145383131,
0x3b3b3b3b3b4e3b323b323b323b3b4c3b303b644e3b4f5754205449474944204954494320474e415241573b3245383131,
0x3b3b3b3b3b4e3b333b333b333b3b4c3b303b644e3b4545524854205449474944204954494320474e415241573b3345383131,
0x3b3b3b3b3b4e3b343b343b343b3b4c3b303b644e3b52554f46205449474944204954494320474e415241573b3445383131,
0x3b3b3b3b3b4e3b353b353b353b3b4c3b303b644e3b45564946205449474944204954494320474e415241573b3545383131,
0x3b3b3b3b3b4e3b363b363b363b3b4c3b303b644e3b584953205449474944204954494320474e415241573b3645383131,
0x3b3b3b3b3b4e3b373b373b373b3b4c3b303b644e3b4e45564553205449474944204954494320474e415241573b3745383131,
0x3b3b3b3b3b4e3b383b383b383b3b4c3b303b644e3b5448474945205449474944204954494320474e415241573b3845383131,
0x3b3b3b3b3b4e3b393b393b393b3b4c3b303b644e3b454e494e205449474944204954494320474e415241573b3945383131,
0x3b3b3b3b3b4e3b30313b3b3b3b4c3b303b6f4e3b4e4554205245424d554e204954494320474e415241573b4145383131,
0x3b3b3b3b3b4e3b30323b3b3b3b4c3b303b6f4e3b59544e455754205245424d554e204954494320474e415241573b4245383131,
0x3b3b3b3b3b4e3b30333b3b3b3b4c3b303b6f4e3b595452494854205245424d554e204954494320474e415241573b4345383131,
0x3b3b3b3b3b4e3b30343b3b3b3b4c3b303b6f4e3b5954524f46205245424d554e204954494320474e415241573b4445383131,
0x3b3b3b3b3b4e3b30353b3b3b3b4c3b303b6f4e3b5954464946205245424d554e204954494320474e415241573b4545383131,
0x3b3b3b3b3b4e3b30363b3b3b3b4c3b303b6f4e3b5954584953205245424d554e204954494320474e415241573b4645383131,
0x3b3b3b3b3b4e3b30373b3b3b3b4c3b303b6f4e3b59544e45564553205245424d554e204954494320474e415241573b3046383131,
0x3b3b3b3b3b4e3b30383b3b3b3b4c3b303b6f4e3b595448474945205245424d554e204954494320474e415241573b3146383131,
0x3b3b3b3b3b4e3b30393b3b3b3b4c3b303b6f4e3b5954454e494e205245424d554e204954494320474e415241573b3246383131,
0x3b3b3b3b3b4e3b3b3b3b3b4c3b303b6f4c3b4d4f204954494320474e415241573b4646383131,
0x3b3b3b3b3b4e3b3b3b3b3b4c3b303b6f4c3b41502052455454454c20554148204e4943205541503b3043413131,
0x3b3b3b3b3b4e3b3b3b3b3b4c3b303b6f4c3b414b2052455454454c20554148204e4943205541503b3143413131,
0x3b3b3b3b3b4e3b3b3b3b3b4c3b303b6f4c3b414c2052455454454c20554148204e4943205541503b3243413131,
0x3b3b3b3b3b4e3b3b3b3b3b4c3b303b6f4c3b414d2052455454454c20554148204e4943205541503b3343413131,
0x3b3b3b3b3b4e3b3b3b3b3b4c3b303b6f4c3b41442052455454454c20554148204e4943205541503b3443413131,
0x3b3b3b3b3b4e3b3b3b3b3b4c3b303b6f4c3b415a2052455454454c20554148204e4943205541503b3543413131,
0x3b3b3b3b3b4e3b3b3b3b3b4c3b303b6f4c3b41562052455454454c20554148204e4943205541503b3643413131,
0x3b3b3b3b3b4e3b3b3b3b3b4c3b303b6f4c3b41474e2052455454454c20554148204e4943205541503b3743413131,
0x3b3b3b3b3b4e3b3b3b3b3b4c3b303b6f4c3b41482052455454454c20554148204e4943205541503b3843413131,
0x3b3b3b3b3b4e3b3b3b3b3b4c3b303b6f4c3b41472052455454454c20554148204e4943205541503b3943413131,
0x3b3b3b3b3b4e3b3b3b3b3b4c3b303b6f4c3b41484b2052455454454c20554148204e4943205541503b4143413131,
0x3b3b3b3b3b4e3b3b3b3b3b4c3b303b6f4c3b41532052455454454c20554148204e4943205541503b4243413131,
0x3b3b3b3b3b4e3b3b3b3b3b4c3b303b6f4c3b41422052455454454c20554148204e4943205541503b4343413131,
0x3b3b3b3b3b4e3b3b3b3b3b4c3b303b6f4c3b41432052455454454c20554148204e4943205541503b4443413131,
0x3b3b3b3b3b4e3b3b3b3b3b4c3b303b6f4c3b41542052455454454c20554148204e4943205541503b4543413131,
0x3b3b3b3b3b4e3b3b3b3b3b4c3b303b6f4c3b4148542052455454454c20554148204e4943205541503b4643413131,
0x3b3b3b3b3b4e3b3b3b3b3b4c3b303b6f4c3b414e2052455454454c20554148204e4943205541503b3044413131,
0x3b3b3b3b3b4e3b3b3b3b3b4c3b303b6f4c3b4148502052455454454c20554148204e4943205541503b3144413131,
0x3b3b3b3b3b4e3b3b3b3b3b4c3b303b6f4c3b41522052455454454c20554148204e4943205541503b3244413131,
0x3b3b3b3b3b4e3b3b3b3b3b4c3b303b6f4c3b41462052455454454c20554148204e4943205541503b3344413131,
0x3b3b3b3b3b4e3b3b3b3b3b4c3b303b6f4c3b4148432052455454454c20554148204e4943205541503b3444413131,
0x3b3b3b3b3b4e3b3b3b3b3b4c3b303b6f4c3b412052455454454c20554148204e4943205541503b3544413131,
0x3b3b3b3b3b4e3b3b3b3b3b4c3b303b6f4c3b452052455454454c20554148204e4943205541503b3644413131,
0x3b3b3b3b3b4e3b3b3b3b3b4c3b303b6f4c3b492052455454454c20554148204e4943205541503b3744413131,
0x3b3b3b3b3b4e3b3b3b3b3b4c3b303b6f4c3b4f2052455454454c20554148204e4943205541503b3844413131,
0x3b3b3b3b3b4e3b3b3b3b3b4c3b303b6f4c3b552052455454454c20554148204e4943205541503b3944413131,
0x3b3b3b3b3b4e3b3b3b3b3b4c3b303b6f4c3b41552052455454454c20554148204e4943205541503b4144413131,
0x3b3b3b3b3b4e3b3b3b3b3b4c3b303b6f4c3b41492052455454454c20554148204e4943205541503b4244413131,
0x3b3b3b3b3b4e3b3b3b3b3b4c3b303b6f4c3b50204c414e49462052455454454c20554148204e4943205541503b4344413131,
0x3b3b3b3b3b4e3b3b3b3b3b4c3b303b6f4c3b4b204c414e49462052455454454c20554148204e4943205541503b4444413131,
0x3b3b3b3b3b4e3b3b3b3b3b4c3b303b6f4c3b54204c414e49462052455454454c20554148204e4943205541503b4544413131,
0x3b3b3b3b3b4e3b3b3b3b3b4c3b303b6f4c3b4d204c414e49462052455454454c20554148204e4943205541503b4644413131,
0x3b3b3b3b3b4e3b3b3b3b3b4c3b303b6f4c3b4e204c414e49462052455454454c20554148204e4943205541503b3045413131,
0x3b3b3b3b3b4e3b3b3b3b3b4c3b303b6f4c3b4c204c414e49462052455454454c20554148204e4943205541503b3145413131,
0x3b3b3b3b3b4e3b3b3b3b3b4c3b303b6f4c3b57204c414e49462052455454454c20554148204e4943205541503b3245413131,
0x3b3b3b3b3b4e3b3b3b3b3b4c3b303b6f4c3b474e204c414e49462052455454454c20554148204e4943205541503b3345413131,
0x3b3b3b3b3b4e3b3b3b3b3b4c3b303b6f4c3b59204c414e49462052455454454c20554148204e4943205541503b3445413131,
0x3b3b3b3b3b4e3b3b3b3b3b4c3b303b6f4c3b474e4f4c20454e4f5420474e4953495220554148204e4943205541503b3545413131,
0x3b3b3b3b3b4e3b3b3b3b3b4c3b303b6f4c3b454e4f5420474e4953495220554148204e4943205541503b3645413131,
0x3b3b3b3b3b4e3b3b3b3b3b4c3b303b6f4c3b504f5453204c4154544f4c47204948444e415320554148204e4943205541503b3745413131,
0x3b3b3b3b3b4e3b3b3b3b3b4c3b303b6f4c3b4c414e494620474e4f4c20454e4f5420474e4953495220554148204e4943205541503b3845413131,
0x3b3b3b3b3b4e3b3b3b3b3b4c3b303b6f4c3b4c414e494620454e4f5420474e4953495220554148204e4943205541503b3945413131,
0x3b3b3b3b3b4e3b3b3b3b3b4c3b303b6f4c3b4c414e494620504f5453204c4154544f4c47204948444e415320554148204e4943205541503b4145413131,
0x3b3b3b3b3b4e3b3b3b3b3b4c3b303b6f4c3b474e4f4c20454e4f54204948444e415320554148204e4943205541503b4245413131,
0x3b3b3b3b3b4e3b3b3b3b3b4c3b303b6f4c3b454e4f54204948444e415320554148204e4943205541503b4345413131,
0x3b3b3b3b3b4e3b3b3b3b3b4c3b303b6f4c3b4c414e494620474e4f4c20454e4f54204948444e415320554148204e4943205541503b4445413131,
0x3b3b3b3b3b4e3b3b3b3b3b4c3b303b6f4c3b4c414e494620454e4f54204948444e415320554148204e4943205541503b4545413131,
0x3b3b3b3b3b4e3b3b3b3b3b4c3b303b6f4c3b454e4f54204c4556454c2d44494d20554148204e4943205541503b4645413131,
0x3b3b3b3b3b4e3b3b3b3b3b4c3b303b6f4c3b544e414952415620504f5453204c4154544f4c4720554148204e4943205541503b3046413131,
0x3b3b3b3b3b4e3b3b3b3b3b4c3b303b6f4c3b4c414e494620474e4f4c20454e4f54204c4556454c2d44494d20554148204e4943205541503b3146413131,
0x3b3b3b3b3b4e3b3b3b3b3b4c3b303b6f4c3b4c414e494620454e4f54204c4556454c2d44494d20554148204e4943205541503b3246413131,
0x3b3b3b3b3b4e3b3b3b3b3b4c3b303b6f4c3b474e4f4c20454e4f5420474e494c4c41462d574f4c20554148204e4943205541503b3346413131,
0x3b3b3b3b3b4e3b3b3b3b3b4c3b303b6f4c3b454e4f5420474e494c4c41462d574f4c20554148204e4943205541503b3446413131,
0x3b3b3b3b3b4e3b3b3b3b3b4c3b303b6f4c3b504f5453204c4154544f4c4720554148204e4943205541503b3546413131,
0x3b3b3b3b3b4e3b3b3b3b3b4c3b303b6f4c3b4c414e494620474e4f4c20454e4f5420474e494c4c41462d574f4c20554148204e4943205541503b3646413131,
0x3b3b3b3b3b4e3b3b3b3b3b4c3b303b6f4c3b4c414e494620454e4f5420474e494c4c41462d574f4c20554148204e4943205541503b3746413131,
0x3b3b3b3b3b4e3b3b3b3b3b4c3b303b6f4c3b4c414e494620504f5453204c4154544f4c4720554148204e4943205541503b3846413131,
0x3b3b3b3b3b4e3b3b3b3b3b4c3b303b6f4c3b412052455454454c20494b55534b494148423b3030433131,
0x3b3b3b3b3b4e3b3b3b3b3b4c3b303b6f4c3b41412052455454454c20494b55534b494148423b3130433131,
0x3b3b3b3b3b4e3b3b3b3b3b4c3b303b6f4c3b492052455454454c20494b55534b494148423b3230433131,
0x3b3b3b3b3b4e3b3b3b3b3b4c3b303b6f4c3b49492052455454454c20494b55534b494148423b3330433131,
0x3b3b3b3b3b4e3b3b3b3b3b4c3b303b6f4c3b552052455454454c20494b55534b494148423b3430433131,
0x3b3b3b3b3b4e3b3b3b3b3b4c3b303b6f4c3b55552052455454454c20494b55534b494148423b3530433131,
0x3b3b3b3b3b4e3b3b3b3b3b4c3b303b6f4c3b522043494c41434f562052455454454c20494b55534b494148423b3630433131,
0x3b3b3b3b3b4e3b3b3b3b3b4c3b303b6f4c3b52522043494c41434f562052455454454c20494b55534b494148423b3730433131,
0x3b3b3b3b3b4e3b3b3b3b3b4c3b303b6f4c3b4c2043494c41434f562052455454454c20494b55534b494148423b3830433131,
0x3b3b3b3b3b4e3b3b3b3b3b4c3b303b6f4c3b452052455454454c20494b55534b494148423b4130433131,
0x3b3b3b3b3b4e3b3b3b3b3b4c3b303b6f4c3b49412052455454454c20494b55534b494148423b4230433131,
0x3b3b3b3b3b4e3b3b3b3b3b4c3b303b6f4c3b4f2052455454454c20494b55534b494148423b4330433131,
0x3b3b3b3b3b4e3b3b3b3b3b4c3b303b6f4c3b55412052455454454c20494b55534b494148423b4430433131,
0x3b3b3b3b3b4e3b3b3b3b3b4c3b303b6f4c3b414b2052455454454c20494b55534b494148423b4530433131,
0x3b3b3b3b3b4e3b3b3b3b3b4c3b303b6f4c3b41484b2052455454454c20494b55534b494148423b4630433131,
0x3b3b3b3b3b4e3b3b3b3b3b4c3b303b6f4c3b41472052455454454c20494b55534b494148423b3031433131,
0x3b3b3b3b3b4e3b3b3b3b3b4c3b303b6f4c3b4148472052455454454c20494b55534b494148423b3131433131,
0x3b3b3b3b3b4e3b3b3b3b3b4c3b303b6f4c3b41474e2052455454454c20494b55534b494148423b3231433131,
0x3b3b3b3b3b4e3b3b3b3b3b4c3b303b6f4c3b41432052455454454c20494b55534b494148423b3331433131,
0x3b3b3b3b3b4e3b3b3b3b3b4c3b303b6f4c3b4148432052455454454c20494b55534b494148423b3431433131,
0x3b3b3b3b3b4e3b3b3b3b3b4c3b303b6f4c3b414a2052455454454c20494b55534b494148423b3531433131,
0x3b3b3b3b3b4e3b3b3b3b3b4c3b303b6f4c3b41484a2052455454454c20494b55534b494148423b3631433131,
0x3b3b3b3b3b4e3b3b3b3b3b4c3b303b6f4c3b41594e2052455454454c20494b55534b494148423b3731433131,
0x3b3b3b3b3b4e3b3b3b3b3b4c3b303b6f4c3b4154542052455454454c20494b55534b494148423b3831433131,
0x3b3b3b3b3b4e3b3b3b3b3b4c3b303b6f4c3b414854542052455454454c20494b55534b494148423b3931433131,
0x3b3b3b3b3b4e3b3b3b3b3b4c3b303b6f4c3b4144442052455454454c20494b55534b494148423b4131433131,
0x3b3b3b3b3b4e3b3b3b3b3b4c3b303b6f4c3b414844442052455454454c20494b55534b494148423b4231433131,
0x3b3b3b3b3b4e3b3b3b3b3b4c3b303b6f4c3b414e4e2052455454454c20494b55534b494148423b4331433131,
0x3b3b3b3b3b4e3b3b3b3b3b4c3b303b6f4c3b41542052455454454c20494b55534b494148423b4431433131,
0x3b3b3b3b3b4e3b3b3b3b3b4c3b303b6f4c3b4148542052455454454c20494b55534b494148423b4531433131,
0x3b3b3b3b3b4e3b3b3b3b3b4c3b303b6f4c3b41442052455454454c20494b55534b494148423b4631433131,
0x3b3b3b3b3b4e3b3b3b3b3b4c3b303b6f4c3b4148442052455454454c20494b55534b494148423b3032433131,
0x3b3b3b3b3b4e3b3b3b3b3b4c3b303b6f4c3b414e2052455454454c20494b55534b494148423b3132433131,
0x3b3b3b3b3b4e3b3b3b3b3b4c3b303b6f4c3b41502052455454454c20494b55534b494148423b3232433131,
0x3b3b3b3b3b4e3b3b3b3b3b4c3b303b6f4c3b4148502052455454454c20494b55534b494148423b3332433131,
0x3b3b3b3b3b4e3b3b3b3b3b4c3b303b6f4c3b41422052455454454c20494b55534b494148423b3432433131,
0x3b3b3b3b3b4e3b3b3b3b3b4c3b303b6f4c3b4148422052455454454c20494b55534b494148423b3532433131,
0x3b3b3b3b3b4e3b3b3b3b3b4c3b303b6f4c3b414d2052455454454c20494b55534b494148423b3632433131,
0x3b3b3b3b3b4e3b3b3b3b3b4c3b303b6f4c3b41592052455454454c20494b55534b494148423b3732433131,
0x3b3b3b3b3b4e3b3b3b3b3b4c3b303b6f4c3b41522052455454454c20494b55534b494148423b3832433131,
0x3b3b3b3b3b4e3b3b3b3b3b4c3b303b6f4c3b414c2052455454454c20494b55534b494148423b3932433131,
0x3b3b3b3b3b4e3b3b3b3b3b4c3b303b6f4c3b41562052455454454c20494b55534b494148423b4132433131,
0x3b3b3b3b3b4e3b3b3b3b3b4c3b303b6f4c3b4148532052455454454c20494b55534b494148423b4232433131,
0x3b3b3b3b3b4e3b3b3b3b3b4c3b303b6f4c3b4153532052455454454c20494b55534b494148423b4332433131,
0x3b3b3b3b3b4e3b3b3b3b3b4c3b303b6f4c3b41532052455454454c20494b55534b494148423b4432433131,
0x3b3b3b3b3b4e3b3b3b3b3b4c3b303b6f4c3b41482052455454454c20494b55534b494148423b4532433131,
0x3b3b3b3b3b4e3b3b3b3b3b4c3b303b634d3b4141204e474953204c45574f5620494b55534b494148423b4632433131,
0x3b3b3b3b3b4e3b3b3b3b3b4d534e3b303b6e4d3b49204e474953204c45574f5620494b55534b494148423b3033433131,
0x3b3b3b3b3b4e3b3b3b3b3b4d534e3b303b6e4d3b4949204e474953204c45574f5620494b55534b494148423b3133433131,
0x3b3b3b3b3b4e3b3b3b3b3b4d534e3b303b6e4d3b55204e474953204c45574f5620494b55534b494148423b3233433131,
0x3b3b3b3b3b4e3b3b3b3b3b4d534e3b303b6e4d3b5555204e474953204c45574f5620494b55534b494148423b3333433131,
0x3b3b3b3b3b4e3b3b3b3b3b4d534e3b303b6e4d3b522043494c41434f56204e474953204c45574f5620494b55534b494148423b3433433131,
0x3b3b3b3b3b4e3b3b3b3b3b4d534e3b303b6e4d3b52522043494c41434f56204e474953204c45574f5620494b55534b494148423b3533433131,
0x3b3b3b3b3b4e3b3b3b3b3b4d534e3b303b6e4d3b4c2043494c41434f56204e474953204c45574f5620494b55534b494148423b3633433131,
0x3b3b3b3b3b4e3b3b3b3b3b4d534e3b303b6e4d3b45204e474953204c45574f5620494b55534b494148423b3833433131,
0x3b3b3b3b3b4e3b3b3b3b3b4d534e3b303b6e4d3b4941204e474953204c45574f5620494b55534b494148423b3933433131,
0x3b3b3b3b3b4e3b3b3b3b3b4d534e3b303b6e4d3b4f204e474953204c45574f5620494b55534b494148423b4133433131,
0x3b3b3b3b3b4e3b3b3b3b3b4d534e3b303b6e4d3b5541204e474953204c45574f5620494b55534b494148423b4233433131,
0x3b3b3b3b3b4e3b3b3b3b3b4d534e3b303b6e4d3b55444e49424152444e4143204e47495320494b55534b494148423b4333433131,
0x3b3b3b3b3b4e3b3b3b3b3b4d534e3b303b6e4d3b4152415653554e41204e47495320494b55534b494148423b4433433131,
0x3b3b3b3b3b4e3b3b3b3b3b4c3b303b634d3b41475241534956204e47495320494b55534b494148423b4533433131,
0x3b3b3b3b3b4e3b3b3b3b3b4c3b393b6e4d3b414d41524956204e47495320494b55534b494148423b4633433131,
0x3b3b3b3b3b4e3b3b3b3b3b4c3b303b6f4c3b4148415247415641204e47495320494b55534b494148423b3034433131,
0x3b3b3b3b3b4e3b3b3b3b3b4c3b303b6f503b41444e414420494b55534b494148423b3134433131,
0x3b3b3b3b3b4e3b3b3b3b3b4c3b303b6f503b41444e414420454c42554f4420494b55534b494148423b3234433131,
0x3b3b3b3b3b4e3b3b3b3b3b4c3b303b6f503b524f544152415045532044524f5720494b55534b494148423b3334433131,
0x3b3b3b3b3b4e3b3b3b3b3b4c3b303b6f503b312d52454c4c49462050414720494b55534b494148423b3434433131,
0x3b3b3b3b3b4e3b3b3b3b3b4c3b303b6f503b322d52454c4c49462050414720494b55534b494148423b3534433131,
0x3b3b3b3b3b4e3b303b303b303b3b4c3b303b644e3b4f52455a20544947494420494b55534b494148423b3035433131,
0x3b3b3b3b3b4e3b313b313b313b3b4c3b303b644e3b454e4f20544947494420494b55534b494148423b3135433131,
0x3b3b3b3b3b4e3b323b323b323b3b4c3b303b644e3b4f575420544947494420494b55534b494148423b3235433131,
0x3b3b3b3b3b4e3b333b333b333b3b4c3b303b644e3b454552485420544947494420494b55534b494148423b3335433131,
0x3b3b3b3b3b4e3b343b343b343b3b4c3b303b644e3b52554f4620544947494420494b55534b494148423b3435433131,
0x3b3b3b3b3b4e3b353b353b353b3b4c3b303b644e3b4556494620544947494420494b55534b494148423b3535433131,
0x3b3b3b3b3b4e3b363b363b363b3b4c3b303b644e3b58495320544947494420494b55534b494148423b3635433131,
0x3b3b3b3b3b4e3b373b373b373b3b4c3b303b644e3b4e4556455320544947494420494b55534b494148423b3735433131,
0x3b3b3b3b3b4e3b383b383b383b3b4c3b303b644e3b544847494520544947494420494b55534b494148423b3835433131,
0x3b3b3b3b3b4e3b393b393b393b3b4c3b303b644e3b454e494e20544947494420494b55534b494148423b3935433131,
0x3b3b3b3b3b4e3b313b3b3b3b4c3b303b6f4e3b454e4f205245424d554e20494b55534b494148423b4135433131,
0x3b3b3b3b3b4e3b323b3b3b3b4c3b303b6f4e3b4f5754205245424d554e20494b55534b494148423b4235433131,
0x3b3b3b3b3b4e3b333b3b3b3b4c3b303b6f4e3b4545524854205245424d554e20494b55534b494148423b4335433131,
0x3b3b3b3b3b4e3b343b3b3b3b4c3b303b6f4e3b52554f46205245424d554e20494b55534b494148423b4435433131,
0x3b3b3b3b3b4e3b353b3b3b3b4c3b303b6f4e3b45564946205245424d554e20494b55534b494148423b4535433131,
0x3b3b3b3b3b4e3b363b3b3b3b4c3b303b6f4e3b584953205245424d554e20494b55534b494148423b4635433131,
0x3b3b3b3b3b4e3b373b3b3b3b4c3b303b6f4e3b4e45564553205245424d554e20494b55534b494148423b3036433131,
0x3b3b3b3b3b4e3b383b3b3b3b4c3b303b6f4e3b5448474945205245424d554e20494b55534b494148423b3136433131,
0x3b3b3b3b3b4e3b393b3b3b3b4c3b303b6f4e3b454e494e205245424d554e20494b55534b494148423b3236433131,
0x3b3b3b3b3b4e3b30313b3b3b3b4c3b303b6f4e3b4e4554205245424d554e20494b55534b494148423b3336433131,
0x3b3b3b3b3b4e3b30323b3b3b3b4c3b303b6f4e3b59544e455754205245424d554e20494b55534b494148423b3436433131,
0x3b3b3b3b3b4e3b30333b3b3b3b4c3b303b6f4e3b595452494854205245424d554e20494b55534b494148423b3536433131,
0x3b3b3b3b3b4e3b30343b3b3b3b4c3b303b6f4e3b5954524f46205245424d554e20494b55534b494148423b3636433131,
0x3b3b3b3b3b4e3b30353b3b3b3b4c3b303b6f4e3b5954464946205245424d554e20494b55534b494148423b3736433131,
0x3b3b3b3b3b4e3b30363b3b3b3b4c3b303b6f4e3b5954584953205245424d554e20494b55534b494148423b3836433131,
0x3b3b3b3b3b4e3b30373b3b3b3b4c3b303b6f4e3b59544e45564553205245424d554e20494b55534b494148423b3936433131,
0x3b3b3b3b3b4e3b30383b3b3b3b4c3b303b6f4e3b595448474945205245424d554e20494b55534b494148423b4136433131,
0x3b3b3b3b3b4e3b30393b3b3b3b4c3b303b6f4e3b5954454e494e205245424d554e20494b55534b494148423b4236433131,
0x3b3b3b3b3b4e3b3030313b3b3b3b4c3b303b6f4e3b4b52414d2054494e552053444552444e554820494b55534b494148423b4336433131]

/-- src/u5e/props/UnicodeData.txt lines 20225-20480. -/
def rawUcd79 : List Nat := [
0x3b3b3b3b3b4e3b3b3b3b3b4c3b303b6f503b4b52414d2044414548204e45484352414d3b3037433131,
0x3b3b3b3b3b4e3b3b3b3b3b4c3b303b6f503b44414853204b52414d204e45484352414d3b3137433131,
0x3b3b3b3b3b4e3b3b3b3b3b4c3b303b6f4c3b414b2052455454454c204e45484352414d3b3237433131,
0x3b3b3b3b3b4e3b3b3b3b3b4c3b303b6f4c3b41484b2052455454454c204e45484352414d3b3337433131,
0x3b3b3b3b3b4e3b3b3b3b3b4c3b303b6f4c3b41472052455454454c204e45484352414d3b3437433131,
0x3b3b3b3b3b4e3b3b3b3b3b4c3b303b6f4c3b41474e2052455454454c204e45484352414d3b3537433131,
0x3b3b3b3b3b4e3b3b3b3b3b4c3b303b6f4c3b41432052455454454c204e45484352414d3b3637433131,
0x3b3b3b3b3b4e3b3b3b3b3b4c3b303b6f4c3b4148432052455454454c204e45484352414d3b3737433131,
0x3b3b3b3b3b4e3b3b3b3b3b4c3b303b6f4c3b414a2052455454454c204e45484352414d3b3837433131,
0x3b3b3b3b3b4e3b3b3b3b3b4c3b303b6f4c3b41594e2052455454454c204e45484352414d3b3937433131,
0x3b3b3b3b3b4e3b3b3b3b3b4c3b303b6f4c3b41542052455454454c204e45484352414d3b4137433131,
0x3b3b3b3b3b4e3b3b3b3b3b4c3b303b6f4c3b4148542052455454454c204e45484352414d3b4237433131,
0x3b3b3b3b3b4e3b3b3b3b3b4c3b303b6f4c3b41442052455454454c204e45484352414d3b4337433131,
0x3b3b3b3b3b4e3b3b3b3b3b4c3b303b6f4c3b414e2052455454454c204e45484352414d3b4437433131,
0x3b3b3b3b3b4e3b3b3b3b3b4c3b303b6f4c3b41502052455454454c204e45484352414d3b4537433131,
0x3b3b3b3b3b4e3b3b3b3b3b4c3b303b6f4c3b4148502052455454454c204e45484352414d3b4637433131,
0x3b3b3b3b3b4e3b3b3b3b3b4c3b303b6f4c3b41422052455454454c204e45484352414d3b3038433131,
0x3b3b3b3b3b4e3b3b3b3b3b4c3b303b6f4c3b414d2052455454454c204e45484352414d3b3138433131,
0x3b3b3b3b3b4e3b3b3b3b3b4c3b303b6f4c3b4153542052455454454c204e45484352414d3b3238433131,
0x3b3b3b3b3b4e3b3b3b3b3b4c3b303b6f4c3b414853542052455454454c204e45484352414d3b3338433131,
0x3b3b3b3b3b4e3b3b3b3b3b4c3b303b6f4c3b415a442052455454454c204e45484352414d3b3438433131,
0x3b3b3b3b3b4e3b3b3b3b3b4c3b303b6f4c3b41572052455454454c204e45484352414d3b3538433131,
0x3b3b3b3b3b4e3b3b3b3b3b4c3b303b6f4c3b41485a2052455454454c204e45484352414d3b3638433131,
0x3b3b3b3b3b4e3b3b3b3b3b4c3b303b6f4c3b415a2052455454454c204e45484352414d3b3738433131,
0x3b3b3b3b3b4e3b3b3b3b3b4c3b303b6f4c3b412d2052455454454c204e45484352414d3b3838433131,
0x3b3b3b3b3b4e3b3b3b3b3b4c3b303b6f4c3b41592052455454454c204e45484352414d3b3938433131,
0x3b3b3b3b3b4e3b3b3b3b3b4c3b303b6f4c3b41522052455454454c204e45484352414d3b4138433131,
0x3b3b3b3b3b4e3b3b3b3b3b4c3b303b6f4c3b414c2052455454454c204e45484352414d3b4238433131,
0x3b3b3b3b3b4e3b3b3b3b3b4c3b303b6f4c3b4148532052455454454c204e45484352414d3b4338433131,
0x3b3b3b3b3b4e3b3b3b3b3b4c3b303b6f4c3b41532052455454454c204e45484352414d3b4438433131,
0x3b3b3b3b3b4e3b3b3b3b3b4c3b303b6f4c3b41482052455454454c204e45484352414d3b4538433131,
0x3b3b3b3b3b4e3b3b3b3b3b4c3b303b6f4c3b412052455454454c204e45484352414d3b4638433131,
0x3b3b3b3b3b4e3b3b3b3b3b4d534e3b303b6e4d3b414b2052455454454c2044454e494f4a425553204e45484352414d3b3239433131,
0x3b3b3b3b3b4e3b3b3b3b3b4d534e3b303b6e4d3b41484b2052455454454c2044454e494f4a425553204e45484352414d3b3339433131,
0x3b3b3b3b3b4e3b3b3b3b3b4d534e3b303b6e4d3b41472052455454454c2044454e494f4a425553204e45484352414d3b3439433131,
0x3b3b3b3b3b4e3b3b3b3b3b4d534e3b303b6e4d3b41474e2052455454454c2044454e494f4a425553204e45484352414d3b3539433131,
0x3b3b3b3b3b4e3b3b3b3b3b4d534e3b303b6e4d3b41432052455454454c2044454e494f4a425553204e45484352414d3b3639433131,
0x3b3b3b3b3b4e3b3b3b3b3b4d534e3b303b6e4d3b4148432052455454454c2044454e494f4a425553204e45484352414d3b3739433131,
0x3b3b3b3b3b4e3b3b3b3b3b4d534e3b303b6e4d3b414a2052455454454c2044454e494f4a425553204e45484352414d3b3839433131,
0x3b3b3b3b3b4e3b3b3b3b3b4d534e3b303b6e4d3b41594e2052455454454c2044454e494f4a425553204e45484352414d3b3939433131,
0x3b3b3b3b3b4e3b3b3b3b3b4d534e3b303b6e4d3b41542052455454454c2044454e494f4a425553204e45484352414d3b4139433131,
0x3b3b3b3b3b4e3b3b3b3b3b4d534e3b303b6e4d3b4148542052455454454c2044454e494f4a425553204e45484352414d3b4239433131,
0x3b3b3b3b3b4e3b3b3b3b3b4d534e3b303b6e4d3b41442052455454454c2044454e494f4a425553204e45484352414d3b4339433131,
0x3b3b3b3b3b4e3b3b3b3b3b4d534e3b303b6e4d3b414e2052455454454c2044454e494f4a425553204e45484352414d3b4439433131,
0x3b3b3b3b3b4e3b3b3b3b3b4d534e3b303b6e4d3b41502052455454454c2044454e494f4a425553204e45484352414d3b4539433131,
0x3b3b3b3b3b4e3b3b3b3b3b4d534e3b303b6e4d3b4148502052455454454c2044454e494f4a425553204e45484352414d3b4639433131,
0x3b3b3b3b3b4e3b3b3b3b3b4d534e3b303b6e4d3b41422052455454454c2044454e494f4a425553204e45484352414d3b3041433131,
0x3b3b3b3b3b4e3b3b3b3b3b4d534e3b303b6e4d3b414d2052455454454c2044454e494f4a425553204e45484352414d3b3141433131,
0x3b3b3b3b3b4e3b3b3b3b3b4d534e3b303b6e4d3b4153542052455454454c2044454e494f4a425553204e45484352414d3b3241433131,
0x3b3b3b3b3b4e3b3b3b3b3b4d534e3b303b6e4d3b414853542052455454454c2044454e494f4a425553204e45484352414d3b3341433131,
0x3b3b3b3b3b4e3b3b3b3b3b4d534e3b303b6e4d3b415a442052455454454c2044454e494f4a425553204e45484352414d3b3441433131,
0x3b3b3b3b3b4e3b3b3b3b3b4d534e3b303b6e4d3b41572052455454454c2044454e494f4a425553204e45484352414d3b3541433131,
0x3b3b3b3b3b4e3b3b3b3b3b4d534e3b303b6e4d3b41485a2052455454454c2044454e494f4a425553204e45484352414d3b3641433131,
0x3b3b3b3b3b4e3b3b3b3b3b4d534e3b303b6e4d3b415a2052455454454c2044454e494f4a425553204e45484352414d3b3741433131,
0x3b3b3b3b3b4e3b3b3b3b3b4c3b303b634d3b41592052455454454c2044454e494f4a425553204e45484352414d3b3941433131,
0x3b3b3b3b3b4e3b3b3b3b3b4d534e3b303b6e4d3b41522052455454454c2044454e494f4a425553204e45484352414d3b4141433131,
0x3b3b3b3b3b4e3b3b3b3b3b4d534e3b303b6e4d3b414c2052455454454c2044454e494f4a425553204e45484352414d3b4241433131,
0x3b3b3b3b3b4e3b3b3b3b3b4d534e3b303b6e4d3b4148532052455454454c2044454e494f4a425553204e45484352414d3b4341433131,
0x3b3b3b3b3b4e3b3b3b3b3b4d534e3b303b6e4d3b41532052455454454c2044454e494f4a425553204e45484352414d3b4441433131,
0x3b3b3b3b3b4e3b3b3b3b3b4d534e3b303b6e4d3b41482052455454454c2044454e494f4a425553204e45484352414d3b4541433131,
0x3b3b3b3b3b4e3b3b3b3b3b4d534e3b303b6e4d3b412052455454454c2044454e494f4a425553204e45484352414d3b4641433131,
0x3b3b3b3b3b4e3b3b3b3b3b4d534e3b303b6e4d3b4141204e474953204c45574f56204e45484352414d3b3042433131,
0x3b3b3b3b3b4e3b3b3b3b3b4c3b303b634d3b49204e474953204c45574f56204e45484352414d3b3142433131,
0x3b3b3b3b3b4e3b3b3b3b3b4d534e3b303b6e4d3b55204e474953204c45574f56204e45484352414d3b3242433131,
0x3b3b3b3b3b4e3b3b3b3b3b4d534e3b303b6e4d3b45204e474953204c45574f56204e45484352414d3b3342433131,
0x3b3b3b3b3b4e3b3b3b3b3b4c3b303b634d3b4f204e474953204c45574f56204e45484352414d3b3442433131,
0x3b3b3b3b3b4e3b3b3b3b3b4d534e3b303b6e4d3b4152415653554e41204e474953204e45484352414d3b3542433131,
0x3b3b3b3b3b4e3b3b3b3b3b4d534e3b303b6e4d3b55444e49424152444e4143204e474953204e45484352414d3b3642433131,
0x3b3b3b3b3b4e3b3b3b3b3b4c3b303b6f4c3b41204e474953204d524f4649454e55433b3030303231,
0x3b3b3b3b3b4e3b3b3b3b3b4c3b303b6f4c3b412053454d49542041204e474953204d524f4649454e55433b3130303231,
0x3b3b3b3b3b4e3b3b3b3b3b4c3b303b6f4c3b4441422053454d49542041204e474953204d524f4649454e55433b3230303231,
0x3b3b3b3b3b4e3b3b3b3b3b4c3b303b6f4c3b554e455420324e41472053454d49542041204e474953204d524f4649454e55433b3330303231,
0x3b3b3b3b3b4e3b3b3b3b3b4c3b303b6f4c3b41482053454d49542041204e474953204d524f4649454e55433b3430303231,
0x3b3b3b3b3b4e3b3b3b3b3b4c3b303b6f4c3b4947492053454d49542041204e474953204d524f4649454e55433b3530303231,
0x3b3b3b3b3b4e3b3b3b3b3b4c3b303b6f4c3b554e554720524147414c2053454d49542041204e474953204d524f4649454e55433b3630303231,
0x3b3b3b3b3b4e3b3b3b3b3b4c3b303b6f4c3b4853554d2053454d49542041204e474953204d524f4649454e55433b3730303231,
0x3b3b3b3b3b4e3b3b3b3b3b4c3b303b6f4c3b4741532053454d49542041204e474953204d524f4649454e55433b3830303231,
0x3b3b3b3b3b4e3b3b3b3b3b4c3b303b6f4c3b3241204e474953204d524f4649454e55433b3930303231,
0x3b3b3b3b3b4e3b3b3b3b3b4c3b303b6f4c3b4241204e474953204d524f4649454e55433b4130303231,
0x3b3b3b3b3b4e3b3b3b3b3b4c3b303b6f4c3b324853412053454d4954204241204e474953204d524f4649454e55433b4230303231,
0x3b3b3b3b3b4e3b3b3b3b3b4c3b303b6f4c3b554e554720334e55442053454d4954204241204e474953204d524f4649454e55433b4330303231,
0x3b3b3b3b3b4e3b3b3b3b3b4c3b303b6f4c3b4c41472053454d4954204241204e474953204d524f4649454e55433b4430303231,
0x3b3b3b3b3b4e3b3b3b3b3b4c3b303b6f4c3b554e455420324e41472053454d4954204241204e474953204d524f4649454e55433b4530303231,
0x3b3b3b3b3b4e3b3b3b3b3b4c3b303b6f4c3b41482053454d4954204241204e474953204d524f4649454e55433b4630303231,
0x3b3b3b3b3b4e3b3b3b3b3b4c3b303b6f4c3b554e5547204947492053454d4954204241204e474953204d524f4649454e55433b3031303231,
0x3b3b3b3b3b4e3b3b3b3b3b4c3b303b6f4c3b4e494d492053454d4954204241204e474953204d524f4649454e55433b3131303231,
0x3b3b3b3b3b4e3b3b3b3b3b4c3b303b6f4c3b424147414c2053454d4954204241204e474953204d524f4649454e55433b3231303231,
0x3b3b3b3b3b4e3b3b3b3b3b4c3b303b6f4c3b48534548532053454d4954204241204e474953204d524f4649454e55433b3331303231,
0x3b3b3b3b3b4e3b3b3b3b3b4c3b303b6f4c3b552053554c5020552053554c5020552053454d4954204241204e474953204d524f4649454e55433b3431303231,
0x3b3b3b3b3b4e3b3b3b3b3b4c3b303b6f4c3b554e5547204241204e474953204d524f4649454e55433b3531303231,
0x3b3b3b3b3b4e3b3b3b3b3b4c3b303b6f4c3b324241204e474953204d524f4649454e55433b3631303231,
0x3b3b3b3b3b4e3b3b3b3b3b4c3b303b6f4c3b47414c41422053454d495420324241204e474953204d524f4649454e55433b3731303231,
0x3b3b3b3b3b4e3b3b3b3b3b4c3b303b6f4c3b554e455420324e41472053454d495420324241204e474953204d524f4649454e55433b3831303231,
0x3b3b3b3b3b4e3b3b3b3b3b4c3b303b6f4c3b4e452053554c5020454d2053454d495420324241204e474953204d524f4649454e55433b3931303231,
0x3b3b3b3b3b4e3b3b3b3b3b4c3b303b6f4c3b334148532053454d495420324241204e474953204d524f4649454e55433b4131303231,
0x3b3b3b3b3b4e3b3b3b3b3b4c3b303b6f4c3b344b41542053454d495420324241204e474953204d524f4649454e55433b4231303231,
0x3b3b3b3b3b4e3b3b3b3b3b4c3b303b6f4c3b4441204e474953204d524f4649454e55433b4331303231,
0x3b3b3b3b3b4e3b3b3b3b3b4c3b303b6f4c3b4b41204e474953204d524f4649454e55433b4431303231,
0x3b3b3b3b3b4e3b3b3b3b3b4c3b303b6f4c3b324e4952452053454d4954204b41204e474953204d524f4649454e55433b4531303231,
0x3b3b3b3b3b4e3b3b3b3b3b4c3b303b6f4c3b485349472053554c502041544948532053454d4954204b41204e474953204d524f4649454e55433b4631303231,
0x3b3b3b3b3b4e3b3b3b3b3b4c3b303b6f4c3b4c41204e474953204d524f4649454e55433b3032303231,
0x3b3b3b3b3b4e3b3b3b3b3b4c3b303b6f4c3b4c412053454d4954204c41204e474953204d524f4649454e55433b3132303231,
0x3b3b3b3b3b4e3b3b3b3b3b4c3b303b6f4c3b324d49442053454d4954204c41204e474953204d524f4649454e55433b3232303231,
0x3b3b3b3b3b4e3b3b3b3b3b4c3b303b6f4c3b485349472053454d4954204c41204e474953204d524f4649454e55433b3332303231,
0x3b3b3b3b3b4e3b3b3b3b3b4c3b303b6f4c3b41482053454d4954204c41204e474953204d524f4649454e55433b3432303231,
0x3b3b3b3b3b4e3b3b3b3b3b4c3b303b6f4c3b3344414b2053454d4954204c41204e474953204d524f4649454e55433b3532303231,
0x3b3b3b3b3b4e3b3b3b3b3b4c3b303b6f4c3b494b2053454d4954204c41204e474953204d524f4649454e55433b3632303231,
0x3b3b3b3b3b4e3b3b3b3b3b4c3b303b6f4c3b4548532053454d4954204c41204e474953204d524f4649454e55433b3732303231,
0x3b3b3b3b3b4e3b3b3b3b3b4c3b303b6f4c3b4853552053454d4954204c41204e474953204d524f4649454e55433b3832303231,
0x3b3b3b3b3b4e3b3b3b3b3b4c3b303b6f4c3b4e414c41204e474953204d524f4649454e55433b3932303231,
0x3b3b3b3b3b4e3b3b3b3b3b4c3b303b6f4c3b4850454c41204e474953204d524f4649454e55433b4132303231,
0x3b3b3b3b3b4e3b3b3b3b3b4c3b303b6f4c3b52414d41204e474953204d524f4649454e55433b4232303231,
0x3b3b3b3b3b4e3b3b3b3b3b4c3b303b6f4c3b4548532053454d49542052414d41204e474953204d524f4649454e55433b4332303231,
0x3b3b3b3b3b4e3b3b3b3b3b4c3b303b6f4c3b4e41204e474953204d524f4649454e55433b4432303231,
0x3b3b3b3b3b4e3b3b3b3b3b4c3b303b6f4c3b4e41205245564f204e41204e474953204d524f4649454e55433b4532303231,
0x3b3b3b3b3b4e3b3b3b3b3b4c3b303b6f4c3b53454d4954204545524854204e41204e474953204d524f4649454e55433b4632303231,
0x3b3b3b3b3b4e3b3b3b3b3b4c3b303b6f4c3b4147414e2053554c50204e4120474e49534f50504f204147414e2053554c50204e41204e474953204d524f4649454e55433b3033303231,
0x3b3b3b3b3b4e3b3b3b3b3b4c3b303b6f4c3b44455241555153204147414e2053554c50204e41204e474953204d524f4649454e55433b3133303231,
0x3b3b3b3b3b4e3b3b3b3b3b4c3b303b6f4c3b4548534e41204e474953204d524f4649454e55433b3233303231,
0x3b3b3b3b3b4e3b3b3b3b3b4c3b303b6f4c3b4e495041204e474953204d524f4649454e55433b3333303231,
0x3b3b3b3b3b4e3b3b3b3b3b4c3b303b6f4c3b44415241204e474953204d524f4649454e55433b3433303231,
0x3b3b3b3b3b4e3b3b3b3b3b4c3b303b6f4c3b52554b2053454d49542044415241204e474953204d524f4649454e55433b3533303231,
0x3b3b3b3b3b4e3b3b3b3b3b4c3b303b6f4c3b42414b5241204e474953204d524f4649454e55433b3633303231,
0x3b3b3b3b3b4e3b3b3b3b3b4c3b303b6f4c3b324c415341204e474953204d524f4649454e55433b3733303231,
0x3b3b3b3b3b4e3b3b3b3b3b4c3b303b6f4c3b485341204e474953204d524f4649454e55433b3833303231,
0x3b3b3b3b3b4e3b3b3b3b3b4c3b303b6f4c3b554e4554204144495a20485341204e474953204d524f4649454e55433b3933303231,
0x3b3b3b3b3b4e3b3b3b3b3b4c3b303b6f4c3b554e4554204142414b20485341204e474953204d524f4649454e55433b4133303231,
0x3b3b3b3b3b4e3b3b3b3b3b4c3b303b6f4c3b5041502032475554205245564f20324755542032475554205245564f203247555420485341205245564f20485341204e474953204d524f4649454e55433b4233303231,
0x3b3b3b3b3b4e3b3b3b3b3b4c3b303b6f4c3b485341205245564f20485341205245564f20485341204e474953204d524f4649454e55433b4333303231,
0x3b3b3b3b3b4e3b3b3b3b3b4c3b303b6f4c3b485341205245564f20485341205245564f2048534120474e4953534f524320485341205245564f20485341205245564f20485341204e474953204d524f4649454e55433b4433303231,
0x3b3b3b3b3b4e3b3b3b3b3b4c3b303b6f4c3b32485341204e474953204d524f4649454e55433b4533303231,
0x3b3b3b3b3b4e3b3b3b3b3b4c3b303b6f4c3b424147485341204e474953204d524f4649454e55433b4633303231,
0x3b3b3b3b3b4e3b3b3b3b3b4c3b303b6f4c3b4142204e474953204d524f4649454e55433b3034303231,
0x3b3b3b3b3b4e3b3b3b3b3b4c3b303b6f4c3b444142204e474953204d524f4649454e55433b3134303231,
0x3b3b3b3b3b4e3b3b3b3b3b4c3b303b6f4c3b33474142204e474953204d524f4649454e55433b3234303231,
0x3b3b3b3b3b4e3b3b3b3b3b4c3b303b6f4c3b325241484142204e474953204d524f4649454e55433b3334303231,
0x3b3b3b3b3b4e3b3b3b3b3b4c3b303b6f4c3b4c4142204e474953204d524f4649454e55433b3434303231,
0x3b3b3b3b3b4e3b3b3b3b3b4c3b303b6f4c3b4c4142205245564f204c4142204e474953204d524f4649454e55433b3534303231,
0x3b3b3b3b3b4e3b3b3b3b3b4c3b303b6f4c3b47414c4142204e474953204d524f4649454e55433b3634303231,
0x3b3b3b3b3b4e3b3b3b3b3b4c3b303b6f4c3b524142204e474953204d524f4649454e55433b3734303231,
0x3b3b3b3b3b4e3b3b3b3b3b4c3b303b6f4c3b3241524142204e474953204d524f4649454e55433b3834303231,
0x3b3b3b3b3b4e3b3b3b3b3b4c3b303b6f4c3b4942204e474953204d524f4649454e55433b3934303231,
0x3b3b3b3b3b4e3b3b3b3b3b4c3b303b6f4c3b412053454d4954204942204e474953204d524f4649454e55433b4134303231,
0x3b3b3b3b3b4e3b3b3b3b3b4c3b303b6f4c3b5241472053454d4954204942204e474953204d524f4649454e55433b4234303231,
0x3b3b3b3b3b4e3b3b3b3b3b4c3b303b6f4c3b554e5547204947492053454d4954204942204e474953204d524f4649454e55433b4334303231,
0x3b3b3b3b3b4e3b3b3b3b3b4c3b303b6f4c3b5542204e474953204d524f4649454e55433b4434303231,
0x3b3b3b3b3b4e3b3b3b3b3b4c3b303b6f4c3b4241205542205245564f205542204e474953204d524f4649454e55433b4534303231,
0x3b3b3b3b3b4e3b3b3b3b3b4c3b303b6f4c3b4e55205542205245564f205542204e474953204d524f4649454e55433b4634303231,
0x3b3b3b3b3b4e3b3b3b3b3b4c3b303b6f4c3b554220474e4953534f5243205542204e474953204d524f4649454e55433b3035303231,
0x3b3b3b3b3b4e3b3b3b3b3b4c3b303b6f4c3b47554c5542204e474953204d524f4649454e55433b3135303231,
0x3b3b3b3b3b4e3b3b3b3b3b4c3b303b6f4c3b47554c5542205245564f2047554c5542204e474953204d524f4649454e55433b3235303231,
0x3b3b3b3b3b4e3b3b3b3b3b4c3b303b6f4c3b525542204e474953204d524f4649454e55433b3335303231,
0x3b3b3b3b3b4e3b3b3b3b3b4c3b303b6f4c3b32525542204e474953204d524f4649454e55433b3435303231,
0x3b3b3b3b3b4e3b3b3b3b3b4c3b303b6f4c3b4144204e474953204d524f4649454e55433b3535303231,
0x3b3b3b3b3b4e3b3b3b3b3b4c3b303b6f4c3b474144204e474953204d524f4649454e55433b3635303231,
0x3b3b3b3b3b4e3b3b3b3b3b4c3b303b6f4c3b4853414d2053554c5020412053454d495420354d4953494b20474144204e474953204d524f4649454e55433b3735303231,
0x3b3b3b3b3b4e3b3b3b3b3b4c3b303b6f4c3b52414d412053454d495420354d4953494b20474144204e474953204d524f4649454e55433b3835303231,
0x3b3b3b3b3b4e3b3b3b3b3b4c3b303b6f4c3b47414c41422053454d495420354d4953494b20474144204e474953204d524f4649454e55433b3935303231,
0x3b3b3b3b3b4e3b3b3b3b3b4c3b303b6f4c3b49422053454d495420354d4953494b20474144204e474953204d524f4649454e55433b4135303231,
0x3b3b3b3b3b4e3b3b3b3b3b4c3b303b6f4c3b41472053454d495420354d4953494b20474144204e474953204d524f4649454e55433b4235303231,
0x3b3b3b3b3b4e3b3b3b3b3b4c3b303b6f4c3b4853414d2053554c502041472053454d495420354d4953494b20474144204e474953204d524f4649454e55433b4335303231,
0x3b3b3b3b3b4e3b3b3b3b3b4c3b303b6f4c3b49472053454d495420354d4953494b20474144204e474953204d524f4649454e55433b4435303231,
0x3b3b3b3b3b4e3b3b3b3b3b4c3b303b6f4c3b325249472053454d495420354d4953494b20474144204e474953204d524f4649454e55433b4535303231,
0x3b3b3b3b3b4e3b3b3b3b3b4c3b303b6f4c3b4455472053454d495420354d4953494b20474144204e474953204d524f4649454e55433b4635303231,
0x3b3b3b3b3b4e3b3b3b3b3b4c3b303b6f4c3b41482053454d495420354d4953494b20474144204e474953204d524f4649454e55433b3036303231,
0x3b3b3b3b3b4e3b3b3b3b3b4c3b303b6f4c3b52492053454d495420354d4953494b20474144204e474953204d524f4649454e55433b3136303231,
0x3b3b3b3b3b4e3b3b3b3b3b4c3b303b6f4c3b554c2053554c502052492053454d495420354d4953494b20474144204e474953204d524f4649454e55433b3236303231,
0x3b3b3b3b3b4e3b3b3b3b3b4c3b303b6f4c3b4b414b2053454d495420354d4953494b20474144204e474953204d524f4649454e55433b3336303231,
0x3b3b3b3b3b4e3b3b3b3b3b4c3b303b6f4c3b414c2053454d495420354d4953494b20474144204e474953204d524f4649454e55433b3436303231,
0x3b3b3b3b3b4e3b3b3b3b3b4c3b303b6f4c3b554c2053454d495420354d4953494b20474144204e474953204d524f4649454e55433b3536303231,
0x3b3b3b3b3b4e3b3b3b3b3b4c3b303b6f4c3b324853414d2053554c5020554c2053454d495420354d4953494b20474144204e474953204d524f4649454e55433b3636303231,
0x3b3b3b3b3b4e3b3b3b3b3b4c3b303b6f4c3b4d554c2053454d495420354d4953494b20474144204e474953204d524f4649454e55433b3736303231,
0x3b3b3b3b3b4e3b3b3b3b3b4c3b303b6f4c3b454e2053454d495420354d4953494b20474144204e474953204d524f4649454e55433b3836303231,
0x3b3b3b3b3b4e3b3b3b3b3b4c3b303b6f4c3b5041502053554c50205041502053454d495420354d4953494b20474144204e474953204d524f4649454e55433b3936303231,
0x3b3b3b3b3b4e3b3b3b3b3b4c3b303b6f4c3b49532053454d495420354d4953494b20474144204e474953204d524f4649454e55433b4136303231,
0x3b3b3b3b3b4e3b3b3b3b3b4c3b303b6f4c3b344b41542053454d495420354d4953494b20474144204e474953204d524f4649454e55433b4236303231,
0x3b3b3b3b3b4e3b3b3b3b3b4c3b303b6f4c3b325249472053554c502032552053454d495420354d4953494b20474144204e474953204d524f4649454e55433b4336303231,
0x3b3b3b3b3b4e3b3b3b3b3b4c3b303b6f4c3b4853552053454d495420354d4953494b20474144204e474953204d524f4649454e55433b4436303231,
0x3b3b3b3b3b4e3b3b3b3b3b4c3b303b6f4c3b4d4144204e474953204d524f4649454e55433b4536303231,
0x3b3b3b3b3b4e3b3b3b3b3b4c3b303b6f4c3b524144204e474953204d524f4649454e55433b4636303231,
0x3b3b3b3b3b4e3b3b3b3b3b4c3b303b6f4c3b3341524144204e474953204d524f4649454e55433b3037303231,
0x3b3b3b3b3b4e3b3b3b3b3b4c3b303b6f4c3b3441524144204e474953204d524f4649454e55433b3137303231,
0x3b3b3b3b3b4e3b3b3b3b3b4c3b303b6f4c3b4944204e474953204d524f4649454e55433b3237303231,
0x3b3b3b3b3b4e3b3b3b3b3b4c3b303b6f4c3b424944204e474953204d524f4649454e55433b3337303231,
0x3b3b3b3b3b4e3b3b3b3b3b4c3b303b6f4c3b4d4944204e474953204d524f4649454e55433b3437303231,
0x3b3b3b3b3b4e3b3b3b3b3b4c3b303b6f4c3b4548532053454d4954204d4944204e474953204d524f4649454e55433b3537303231,
0x3b3b3b3b3b4e3b3b3b3b3b4c3b303b6f4c3b324d4944204e474953204d524f4649454e55433b3637303231,
0x3b3b3b3b3b4e3b3b3b3b3b4c3b303b6f4c3b4e4944204e474953204d524f4649454e55433b3737303231,
0x3b3b3b3b3b4e3b3b3b3b3b4c3b303b6f4c3b4853494420554e55472055204c414b53414b204e4944204e474953204d524f4649454e55433b3837303231,
0x3b3b3b3b3b4e3b3b3b3b3b4c3b303b6f4c3b48534944204e474953204d524f4649454e55433b3937303231,
0x3b3b3b3b3b4e3b3b3b3b3b4c3b303b6f4c3b5544204e474953204d524f4649454e55433b4137303231,
0x3b3b3b3b3b4e3b3b3b3b3b4c3b303b6f4c3b5544205245564f205544204e474953204d524f4649454e55433b4237303231,
0x3b3b3b3b3b4e3b3b3b3b3b4c3b303b6f4c3b554e5547205544204e474953204d524f4649454e55433b4337303231,
0x3b3b3b3b3b4e3b3b3b3b3b4c3b303b6f4c3b47494853454853205544204e474953204d524f4649454e55433b4437303231,
0x3b3b3b3b3b4e3b3b3b3b3b4c3b303b6f4c3b425544204e474953204d524f4649454e55433b4537303231,
0x3b3b3b3b3b4e3b3b3b3b3b4c3b303b6f4c3b324853452053454d495420425544204e474953204d524f4649454e55433b4637303231,
0x3b3b3b3b3b4e3b3b3b3b3b4c3b303b6f4c3b32425544204e474953204d524f4649454e55433b3038303231,
0x3b3b3b3b3b4e3b3b3b3b3b4c3b303b6f4c3b475544204e474953204d524f4649454e55433b3138303231,
0x3b3b3b3b3b4e3b3b3b3b3b4c3b303b6f4c3b4455475544204e474953204d524f4649454e55433b3238303231,
0x3b3b3b3b3b4e3b3b3b3b3b4c3b303b6f4c3b485544204e474953204d524f4649454e55433b3338303231,
0x3b3b3b3b3b4e3b3b3b3b3b4c3b303b6f4c3b4e5544204e474953204d524f4649454e55433b3438303231,
0x3b3b3b3b3b4e3b3b3b3b3b4c3b303b6f4c3b334e5544204e474953204d524f4649454e55433b3538303231,
0x3b3b3b3b3b4e3b3b3b3b3b4c3b303b6f4c3b554e554720334e5544204e474953204d524f4649454e55433b3638303231,
0x3b3b3b3b3b4e3b3b3b3b3b4c3b303b6f4c3b554e554720554e554720334e5544204e474953204d524f4649454e55433b3738303231,
0x3b3b3b3b3b4e3b3b3b3b3b4c3b303b6f4c3b344e5544204e474953204d524f4649454e55433b3838303231,
0x3b3b3b3b3b4e3b3b3b3b3b4c3b303b6f4c3b32525544204e474953204d524f4649454e55433b3938303231,
0x3b3b3b3b3b4e3b3b3b3b3b4c3b303b6f4c3b45204e474953204d524f4649454e55433b4138303231,
0x3b3b3b3b3b4e3b3b3b3b3b4c3b303b6f4c3b5041502053454d49542045204e474953204d524f4649454e55433b4238303231,
0x3b3b3b3b3b4e3b3b3b3b3b4c3b303b6f4c3b4e554e205245564f204e554e2045205245564f2045204e474953204d524f4649454e55433b4338303231,
0x3b3b3b3b3b4e3b3b3b3b3b4c3b303b6f4c3b3245204e474953204d524f4649454e55433b4438303231,
0x3b3b3b3b3b4e3b3b3b3b3b4c3b303b6f4c3b41442053554c502041482053554c5020412053454d4954203245204e474953204d524f4649454e55433b4538303231,
0x3b3b3b3b3b4e3b3b3b3b3b4c3b303b6f4c3b5241472053454d4954203245204e474953204d524f4649454e55433b4638303231,
0x3b3b3b3b3b4e3b3b3b3b3b4c3b303b6f4c3b494d2053454d4954203245204e474953204d524f4649454e55433b3039303231,
0x3b3b3b3b3b4e3b3b3b3b3b4c3b303b6f4c3b4c41532053454d4954203245204e474953204d524f4649454e55433b3139303231,
0x3b3b3b3b3b4e3b3b3b3b3b4c3b303b6f4c3b4548532053454d4954203245204e474953204d524f4649454e55433b3239303231,
0x3b3b3b3b3b4e3b3b3b3b3b4c3b303b6f4c3b552053454d4954203245204e474953204d524f4649454e55433b3339303231,
0x3b3b3b3b3b4e3b3b3b3b3b4c3b303b6f4c3b4e494445204e474953204d524f4649454e55433b3439303231,
0x3b3b3b3b3b4e3b3b3b3b3b4c3b303b6f4c3b52494745204e474953204d524f4649454e55433b3539303231,
0x3b3b3b3b3b4e3b3b3b3b3b4c3b303b6f4c3b4c45204e474953204d524f4649454e55433b3639303231,
0x3b3b3b3b3b4e3b3b3b3b3b4c3b303b6f4c3b4e45204e474953204d524f4649454e55433b3739303231,
0x3b3b3b3b3b4e3b3b3b3b3b4c3b303b6f4c3b324e41472053454d4954204e45204e474953204d524f4649454e55433b3839303231,
0x3b3b3b3b3b4e3b3b3b3b3b4c3b303b6f4c3b554e455420324e41472053454d4954204e45204e474953204d524f4649454e55433b3939303231,
0x3b3b3b3b3b4e3b3b3b3b3b4c3b303b6f4c3b454d2053454d4954204e45204e474953204d524f4649454e55433b4139303231,
0x3b3b3b3b3b4e3b3b3b3b3b4c3b303b6f4c3b4e4520474e4953534f5243204e45204e474953204d524f4649454e55433b4239303231,
0x3b3b3b3b3b4e3b3b3b3b3b4c3b303b6f4c3b4e4520474e49534f50504f204e45204e474953204d524f4649454e55433b4339303231,
0x3b3b3b3b3b4e3b3b3b3b3b4c3b303b6f4c3b44455241555153204e45204e474953204d524f4649454e55433b4439303231,
0x3b3b3b3b3b4e3b3b3b3b3b4c3b303b6f4c3b4e455245204e474953204d524f4649454e55433b4539303231,
0x3b3b3b3b3b4e3b3b3b3b3b4c3b303b6f4c3b324e495245204e474953204d524f4649454e55433b4639303231,
0x3b3b3b3b3b4e3b3b3b3b3b4c3b303b6f4c3b32485345204e474953204d524f4649454e55433b3041303231,
0x3b3b3b3b3b4e3b3b3b3b3b4c3b303b6f4c3b4e455a45204e474953204d524f4649454e55433b3141303231,
0x3b3b3b3b3b4e3b3b3b3b3b4c3b303b6f4c3b412053454d4954204e455a45204e474953204d524f4649454e55433b3241303231,
0x3b3b3b3b3b4e3b3b3b3b3b4c3b303b6f4c3b4c414c2053554c5020412053454d4954204e455a45204e474953204d524f4649454e55433b3341303231,
0x3b3b3b3b3b4e3b3b3b3b3b4c3b303b6f4c3b4c414c2053454d4954204c414c2053554c5020412053454d4954204e455a45204e474953204d524f4649454e55433b3441303231,
0x3b3b3b3b3b4e3b3b3b3b3b4c3b303b6f4c3b4e412053454d4954204e455a45204e474953204d524f4649454e55433b3541303231,
0x3b3b3b3b3b4e3b3b3b3b3b4c3b303b6f4c3b4441422053454d4954204e455a45204e474953204d524f4649454e55433b3641303231,
0x3b3b3b3b3b4e3b3b3b3b3b4c3b303b6f4c3b554e554720334e55442053454d4954204e455a45204e474953204d524f4649454e55433b3741303231,
0x3b3b3b3b3b4e3b3b3b3b3b4c3b303b6f4c3b554e554720554e554720334e55442053454d4954204e455a45204e474953204d524f4649454e55433b3841303231,
0x3b3b3b3b3b4e3b3b3b3b3b4c3b303b6f4c3b41482053454d4954204e455a45204e474953204d524f4649454e55433b3941303231,
0x3b3b3b3b3b4e3b3b3b3b3b4c3b303b6f4c3b554e55472041482053454d4954204e455a45204e474953204d524f4649454e55433b4141303231,
0x3b3b3b3b3b4e3b3b3b3b3b4c3b303b6f4c3b554e5547204947492053454d4954204e455a45204e474953204d524f4649454e55433b4241303231,
0x3b3b3b3b3b4e3b3b3b3b3b4c3b303b6f4c3b4c414b53414b2053454d4954204e455a45204e474953204d524f4649454e55433b4341303231,
0x3b3b3b3b3b4e3b3b3b3b3b4c3b303b6f4c3b44455241555153204c414b53414b2053454d4954204e455a45204e474953204d524f4649454e55433b4441303231,
0x3b3b3b3b3b4e3b3b3b3b3b4c3b303b6f4c3b33554b2053454d4954204e455a45204e474953204d524f4649454e55433b4541303231,
0x3b3b3b3b3b4e3b3b3b3b3b4c3b303b6f4c3b414c2053454d4954204e455a45204e474953204d524f4649454e55433b4641303231,
0x3b3b3b3b3b4e3b3b3b3b3b4c3b303b6f4c3b4c414c2053454d4954204c414c2053454d4954204e455a45204e474953204d524f4649454e55433b3042303231,
0x3b3b3b3b3b4e3b3b3b3b3b4c3b303b6f4c3b494c2053454d4954204e455a45204e474953204d524f4649454e55433b3142303231,
0x3b3b3b3b3b4e3b3b3b3b3b4c3b303b6f4c3b554c2053454d4954204e455a45204e474953204d524f4649454e55433b3242303231,
0x3b3b3b3b3b4e3b3b3b3b3b4c3b303b6f4c3b32552053454d4954204e455a45204e474953204d524f4649454e55433b3342303231,
0x3b3b3b3b3b4e3b3b3b3b3b4c3b303b6f4c3b44552053454d4954204e455a45204e474953204d524f4649454e55433b3442303231,
0x3b3b3b3b3b4e3b3b3b3b3b4c3b303b6f4c3b4147204e474953204d524f4649454e55433b3542303231,
0x3b3b3b3b3b4e3b3b3b3b3b4c3b303b6f4c3b554e5547204147204e474953204d524f4649454e55433b3642303231,
0x3b3b3b3b3b4e3b3b3b3b3b4c3b303b6f4c3b324147204e474953204d524f4649454e55433b3742303231,
0x3b3b3b3b3b4e3b3b3b3b3b4c3b303b6f4c3b41482053554c502041442053554c5020412053454d495420324147204e474953204d524f4649454e55433b3842303231,
0x3b3b3b3b3b4e3b3b3b3b3b4c3b303b6f4c3b41482053554c5020412053454d495420324147204e474953204d524f4649454e55433b3942303231,
0x3b3b3b3b3b4e3b3b3b3b3b4c3b303b6f4c3b4947492053554c5020412053454d495420324147204e474953204d524f4649454e55433b4142303231,
0x3b3b3b3b3b4e3b3b3b3b3b4c3b303b6f4c3b4241542053554c5020554e4554203242412053454d495420324147204e474953204d524f4649454e55433b4242303231]

/-- src/u5e/props/UnicodeData.txt lines 20481-20736. -/
def rawUcd80 : List Nat := [
0x3b3b3b3b3b4e3b3b3b3b3b4c3b303b6f4c3b4e412053454d495420324147204e474953204d524f4649454e55433b4342303231,
0x3b3b3b3b3b4e3b3b3b3b3b4c3b303b6f4c3b4853412053454d495420324147204e474953204d524f4649454e55433b4442303231,
0x3b3b3b3b3b4e3b3b3b3b3b4c3b303b6f4c3b4c41472053554c5020324853412053454d495420324147204e474953204d524f4649454e55433b4542303231,
0x3b3b3b3b3b4e3b3b3b3b3b4c3b303b6f4c3b4441422053454d495420324147204e474953204d524f4649454e55433b4642303231,
0x3b3b3b3b3b4e3b3b3b3b3b4c3b303b6f4c3b41522053554c50205241422053454d495420324147204e474953204d524f4649454e55433b3043303231,
0x3b3b3b3b3b4e3b3b3b3b3b4c3b303b6f4c3b5255422053454d495420324147204e474953204d524f4649454e55433b3143303231,
0x3b3b3b3b3b4e3b3b3b3b3b4c3b303b6f4c3b41522053554c50205255422053454d495420324147204e474953204d524f4649454e55433b3243303231,
0x3b3b3b3b3b4e3b3b3b3b3b4c3b303b6f4c3b41442053454d495420324147204e474953204d524f4649454e55433b3343303231,
0x3b3b3b3b3b4e3b3b3b3b3b4c3b303b6f4c3b49442053454d495420324147204e474953204d524f4649454e55433b3443303231,
0x3b3b3b3b3b4e3b3b3b3b3b4c3b303b6f4c3b4548532053454d4954204d49442053454d495420324147204e474953204d524f4649454e55433b3543303231,
0x3b3b3b3b3b4e3b3b3b3b3b4c3b303b6f4c3b4255442053454d495420324147204e474953204d524f4649454e55433b3643303231,
0x3b3b3b3b3b4e3b3b3b3b3b4c3b303b6f4c3b4c452053454d495420324147204e474953204d524f4649454e55433b3743303231,
0x3b3b3b3b3b4e3b3b3b3b3b4c3b303b6f4c3b414c2053554c50204c452053454d495420324147204e474953204d524f4649454e55433b3843303231,
0x3b3b3b3b3b4e3b3b3b3b3b4c3b303b6f4c3b4e452053454d495420324147204e474953204d524f4649454e55433b3943303231,
0x3b3b3b3b3b4e3b3b3b3b3b4c3b303b6f4c3b554e455420324e41472053454d4954204e452053454d495420324147204e474953204d524f4649454e55433b4143303231,
0x3b3b3b3b3b4e3b3b3b3b3b4c3b303b6f4c3b554e455420324e41472053454d495420324147204e474953204d524f4649454e55433b4243303231,
0x3b3b3b3b3b4e3b3b3b3b3b4c3b303b6f4c3b5241472053454d495420324147204e474953204d524f4649454e55433b4343303231,
0x3b3b3b3b3b4e3b3b3b3b3b4c3b303b6f4c3b49472053454d495420324147204e474953204d524f4649454e55433b4443303231,
0x3b3b3b3b3b4e3b3b3b3b3b4c3b303b6f4c3b3449472053454d495420324147204e474953204d524f4649454e55433b4543303231,
0x3b3b3b3b3b4e3b3b3b3b3b4c3b303b6f4c3b412053554c50203449472053454d495420324147204e474953204d524f4649454e55433b4643303231,
0x3b3b3b3b3b4e3b3b3b3b3b4c3b303b6f4c3b55532053554c5020325249472053454d495420324147204e474953204d524f4649454e55433b3044303231,
0x3b3b3b3b3b4e3b3b3b3b3b4c3b303b6f4c3b324853452053554c5020554c2053554c502041482053454d495420324147204e474953204d524f4649454e55433b3144303231,
0x3b3b3b3b3b4e3b3b3b3b3b4c3b303b6f4c3b4c41482053454d495420324147204e474953204d524f4649454e55433b3244303231,
0x3b3b3b3b3b4e3b3b3b3b3b4c3b303b6f4c3b414c2053554c50204c41482053454d495420324147204e474953204d524f4649454e55433b3344303231,
0x3b3b3b3b3b4e3b3b3b3b3b4c3b303b6f4c3b494c2053554c502049482053454d495420324147204e474953204d524f4649454e55433b3444303231,
0x3b3b3b3b3b4e3b3b3b3b3b4c3b303b6f4c3b324255482053454d495420324147204e474953204d524f4649454e55433b3544303231,
0x3b3b3b3b3b4e3b3b3b3b3b4c3b303b6f4c3b554e5547204947492053454d495420324147204e474953204d524f4649454e55433b3644303231,
0x3b3b3b3b3b4e3b3b3b3b3b4c3b303b6f4c3b4853412053554c502055482053554c50204853492053454d495420324147204e474953204d524f4649454e55433b3744303231,
0x3b3b3b3b3b4e3b3b3b3b3b4c3b303b6f4c3b4b414b2053454d495420324147204e474953204d524f4649454e55433b3844303231,
0x3b3b3b3b3b4e3b3b3b3b3b4c3b303b6f4c3b4c414b53414b2053454d495420324147204e474953204d524f4649454e55433b3944303231,
0x3b3b3b3b3b4e3b3b3b3b3b4c3b303b6f4c3b44494b2053454d495420324147204e474953204d524f4649454e55433b4144303231,
0x3b3b3b3b3b4e3b3b3b3b3b4c3b303b6f4c3b4c414c2053554c502044494b2053454d495420324147204e474953204d524f4649454e55433b4244303231,
0x3b3b3b3b3b4e3b3b3b3b3b4c3b303b6f4c3b4e412053554c502033554b2053454d495420324147204e474953204d524f4649454e55433b4344303231,
0x3b3b3b3b3b4e3b3b3b3b3b4c3b303b6f4c3b414c2053454d495420324147204e474953204d524f4649454e55433b4444303231,
0x3b3b3b3b3b4e3b3b3b3b3b4c3b303b6f4c3b4e452053554c5020454d2053454d495420324147204e474953204d524f4649454e55433b4544303231,
0x3b3b3b3b3b4e3b3b3b3b3b4c3b303b6f4c3b494d2053454d495420324147204e474953204d524f4649454e55433b4644303231,
0x3b3b3b3b3b4e3b3b3b3b3b4c3b303b6f4c3b4e554e2053454d495420324147204e474953204d524f4649454e55433b3045303231,
0x3b3b3b3b3b4e3b3b3b3b3b4c3b303b6f4c3b4e554e205245564f204e554e2053454d495420324147204e474953204d524f4649454e55433b3145303231,
0x3b3b3b3b3b4e3b3b3b3b3b4c3b303b6f4c3b41502053454d495420324147204e474953204d524f4649454e55433b3245303231,
0x3b3b3b3b3b4e3b3b3b3b3b4c3b303b6f4c3b4c41532053454d495420324147204e474953204d524f4649454e55433b3345303231,
0x3b3b3b3b3b4e3b3b3b3b3b4c3b303b6f4c3b5241532053454d495420324147204e474953204d524f4649454e55433b3445303231,
0x3b3b3b3b3b4e3b3b3b3b3b4c3b303b6f4c3b4548532053454d495420324147204e474953204d524f4649454e55433b3545303231,
0x3b3b3b3b3b4e3b3b3b3b3b4c3b303b6f4c3b5255542053554c50204548532053454d495420324147204e474953204d524f4649454e55433b3645303231,
0x3b3b3b3b3b4e3b3b3b3b3b4c3b303b6f4c3b444948532053454d495420324147204e474953204d524f4649454e55433b3745303231,
0x3b3b3b3b3b4e3b3b3b3b3b4c3b303b6f4c3b4d55532053454d495420324147204e474953204d524f4649454e55433b3845303231,
0x3b3b3b3b3b4e3b3b3b3b3b4c3b303b6f4c3b344b41542053454d495420324147204e474953204d524f4649454e55433b3945303231,
0x3b3b3b3b3b4e3b3b3b3b3b4c3b303b6f4c3b552053454d495420324147204e474953204d524f4649454e55433b4145303231,
0x3b3b3b3b3b4e3b3b3b3b3b4c3b303b6f4c3b44552053454d495420324147204e474953204d524f4649454e55433b4245303231,
0x3b3b3b3b3b4e3b3b3b3b3b4c3b303b6f4c3b55442053554c502044552053454d495420324147204e474953204d524f4649454e55433b4345303231,
0x3b3b3b3b3b4e3b3b3b3b3b4c3b303b6f4c3b324147205245564f20324147204e474953204d524f4649454e55433b4445303231,
0x3b3b3b3b3b4e3b3b3b3b3b4c3b303b6f4c3b41424147204e474953204d524f4649454e55433b4545303231,
0x3b3b3b3b3b4e3b3b3b3b3b4c3b303b6f4c3b4142414720474e4953534f52432041424147204e474953204d524f4649454e55433b4645303231,
0x3b3b3b3b3b4e3b3b3b3b3b4c3b303b6f4c3b444147204e474953204d524f4649454e55433b3046303231,
0x3b3b3b3b3b4e3b3b3b3b3b4c3b303b6f4c3b524147205245564f2052414720444147205245564f20444147204e474953204d524f4649454e55433b3146303231,
0x3b3b3b3b3b4e3b3b3b3b3b4c3b303b6f4c3b4c4147204e474953204d524f4649454e55433b3246303231,
0x3b3b3b3b3b4e3b3b3b3b3b4c3b303b6f4c3b524147205245564f2052414720444147205245564f20444147204c4147204e474953204d524f4649454e55433b3346303231,
0x3b3b3b3b3b4e3b3b3b3b3b4c3b303b6f4c3b4d414c4147204e474953204d524f4649454e55433b3446303231,
0x3b3b3b3b3b4e3b3b3b3b3b4c3b303b6f4c3b4d4147204e474953204d524f4649454e55433b3546303231,
0x3b3b3b3b3b4e3b3b3b3b3b4c3b303b6f4c3b4e4147204e474953204d524f4649454e55433b3646303231,
0x3b3b3b3b3b4e3b3b3b3b3b4c3b303b6f4c3b324e4147204e474953204d524f4649454e55433b3746303231,
0x3b3b3b3b3b4e3b3b3b3b3b4c3b303b6f4c3b554e455420324e4147204e474953204d524f4649454e55433b3846303231,
0x3b3b3b3b3b4e3b3b3b3b3b4c3b303b6f4c3b324e4147205245564f20324e4147204e474953204d524f4649454e55433b3946303231,
0x3b3b3b3b3b4e3b3b3b3b3b4c3b303b6f4c3b324e414720474e4953534f524320324e4147204e474953204d524f4649454e55433b4146303231,
0x3b3b3b3b3b4e3b3b3b3b3b4c3b303b6f4c3b524147204e474953204d524f4649454e55433b4246303231,
0x3b3b3b3b3b4e3b3b3b3b3b4c3b303b6f4c3b33524147204e474953204d524f4649454e55433b4346303231,
0x3b3b3b3b3b4e3b3b3b3b3b4c3b303b6f4c3b4e4148534147204e474953204d524f4649454e55433b4446303231,
0x3b3b3b3b3b4e3b3b3b3b3b4c3b303b6f4c3b4e495448534547204e474953204d524f4649454e55433b4546303231,
0x3b3b3b3b3b4e3b3b3b3b3b4c3b303b6f4c3b52554b2053454d4954204e495448534547204e474953204d524f4649454e55433b4646303231,
0x3b3b3b3b3b4e3b3b3b3b3b4c3b303b6f4c3b4947204e474953204d524f4649454e55433b3030313231,
0x3b3b3b3b3b4e3b3b3b3b3b4c3b303b6f4c3b452053454d4954204947204e474953204d524f4649454e55433b3130313231,
0x3b3b3b3b3b4e3b3b3b3b3b4c3b303b6f4c3b552053454d4954204947204e474953204d524f4649454e55433b3230313231,
0x3b3b3b3b3b4e3b3b3b3b3b4c3b303b6f4c3b494720474e4953534f5243204947204e474953204d524f4649454e55433b3330313231,
0x3b3b3b3b3b4e3b3b3b3b3b4c3b303b6f4c3b344947204e474953204d524f4649454e55433b3430313231,
0x3b3b3b3b3b4e3b3b3b3b3b4c3b303b6f4c3b344947205245564f20344947204e474953204d524f4649454e55433b3530313231,
0x3b3b3b3b3b4e3b3b3b3b3b4c3b303b6f4c3b34494720474e4953534f524320344947204e474953204d524f4649454e55433b3630313231,
0x3b3b3b3b3b4e3b3b3b3b3b4c3b303b6f4c3b4d49444947204e474953204d524f4649454e55433b3730313231,
0x3b3b3b3b3b4e3b3b3b3b3b4c3b303b6f4c3b32524947204e474953204d524f4649454e55433b3830313231,
0x3b3b3b3b3b4e3b3b3b3b3b4c3b303b6f4c3b554e55472032524947204e474953204d524f4649454e55433b3930313231,
0x3b3b3b3b3b4e3b3b3b3b3b4c3b303b6f4c3b33524947204e474953204d524f4649454e55433b4130313231,
0x3b3b3b3b3b4e3b3b3b3b3b4c3b303b6f4c3b4947492053554c5020412053454d49542033524947204e474953204d524f4649454e55433b4230313231,
0x3b3b3b3b3b4e3b3b3b3b3b4c3b303b6f4c3b554e455420324e41472053454d49542033524947204e474953204d524f4649454e55433b4330313231,
0x3b3b3b3b3b4e3b3b3b3b3b4c3b303b6f4c3b4947492053454d49542033524947204e474953204d524f4649454e55433b4430313231,
0x3b3b3b3b3b4e3b3b3b3b3b4c3b303b6f4c3b4947492053554c5020554c2053454d49542033524947204e474953204d524f4649454e55433b4530313231,
0x3b3b3b3b3b4e3b3b3b3b3b4c3b303b6f4c3b41502053454d49542033524947204e474953204d524f4649454e55433b4630313231,
0x3b3b3b3b3b4e3b3b3b3b3b4c3b303b6f4c3b4c41534947204e474953204d524f4649454e55433b3031313231,
0x3b3b3b3b3b4e3b3b3b3b3b4c3b303b6f4c3b48534947204e474953204d524f4649454e55433b3131313231,
0x3b3b3b3b3b4e3b3b3b3b3b4c3b303b6f4c3b4853494720474e4953534f52432048534947204e474953204d524f4649454e55433b3231313231,
0x3b3b3b3b3b4e3b3b3b3b3b4c3b303b6f4c3b4441422053454d49542048534947204e474953204d524f4649454e55433b3331313231,
0x3b3b3b3b3b4e3b3b3b3b3b4c3b303b6f4c3b344b41542053454d49542048534947204e474953204d524f4649454e55433b3431313231,
0x3b3b3b3b3b4e3b3b3b3b3b4c3b303b6f4c3b554e45542048534947204e474953204d524f4649454e55433b3531313231,
0x3b3b3b3b3b4e3b3b3b3b3b4c3b303b6f4c3b5547204e474953204d524f4649454e55433b3631313231,
0x3b3b3b3b3b4e3b3b3b3b3b4c3b303b6f4c3b554720474e4953534f5243205547204e474953204d524f4649454e55433b3731313231,
0x3b3b3b3b3b4e3b3b3b3b3b4c3b303b6f4c3b325547204e474953204d524f4649454e55433b3831313231,
0x3b3b3b3b3b4e3b3b3b3b3b4c3b303b6f4c3b4b414b2053454d495420325547204e474953204d524f4649454e55433b3931313231,
0x3b3b3b3b3b4e3b3b3b3b3b4c3b303b6f4c3b554e5547204947492053454d4954204b414b2053454d495420325547204e474953204d524f4649454e55433b4131313231,
0x3b3b3b3b3b4e3b3b3b3b3b4c3b303b6f4c3b4e554e2053454d495420325547204e474953204d524f4649454e55433b4231313231,
0x3b3b3b3b3b4e3b3b3b3b3b4c3b303b6f4c3b324755542053554c50204c41532053454d495420325547204e474953204d524f4649454e55433b4331313231,
0x3b3b3b3b3b4e3b3b3b3b3b4c3b303b6f4c3b554e554720325547204e474953204d524f4649454e55433b4431313231,
0x3b3b3b3b3b4e3b3b3b3b3b4c3b303b6f4c3b445547204e474953204d524f4649454e55433b4531313231,
0x3b3b3b3b3b4e3b3b3b3b3b4c3b303b6f4c3b52554b2053554c5020412053454d495420445547204e474953204d524f4649454e55433b4631313231,
0x3b3b3b3b3b4e3b3b3b3b3b4c3b303b6f4c3b52554b2053454d495420445547204e474953204d524f4649454e55433b3032313231,
0x3b3b3b3b3b4e3b3b3b3b3b4c3b303b6f4c3b4c4147554c20445547205245564f20445547204e474953204d524f4649454e55433b3132313231,
0x3b3b3b3b3b4e3b3b3b3b3b4c3b303b6f4c3b4c5547204e474953204d524f4649454e55433b3232313231,
0x3b3b3b3b3b4e3b3b3b3b3b4c3b303b6f4c3b4d5547204e474953204d524f4649454e55433b3332313231,
0x3b3b3b3b3b4e3b3b3b3b3b4c3b303b6f4c3b4548532053454d4954204d5547204e474953204d524f4649454e55433b3432313231,
0x3b3b3b3b3b4e3b3b3b3b3b4c3b303b6f4c3b525547204e474953204d524f4649454e55433b3532313231,
0x3b3b3b3b3b4e3b3b3b3b3b4c3b303b6f4c3b37525547204e474953204d524f4649454e55433b3632313231,
0x3b3b3b3b3b4e3b3b3b3b3b4c3b303b6f4c3b4e55525547204e474953204d524f4649454e55433b3732313231,
0x3b3b3b3b3b4e3b3b3b3b3b4c3b303b6f4c3b485355525547204e474953204d524f4649454e55433b3832313231,
0x3b3b3b3b3b4e3b3b3b3b3b4c3b303b6f4c3b4148204e474953204d524f4649454e55433b3932313231,
0x3b3b3b3b3b4e3b3b3b3b3b4c3b303b6f4c3b554e4554204148204e474953204d524f4649454e55433b4132313231,
0x3b3b3b3b3b4e3b3b3b3b3b4c3b303b6f4c3b554e5547204148204e474953204d524f4649454e55433b4232313231,
0x3b3b3b3b3b4e3b3b3b3b3b4c3b303b6f4c3b4c4148204e474953204d524f4649454e55433b4332313231,
0x3b3b3b3b3b4e3b3b3b3b3b4c3b303b6f4c3b4948204e474953204d524f4649454e55433b4432313231,
0x3b3b3b3b3b4e3b3b3b3b3b4c3b303b6f4c3b4853412053454d4954204948204e474953204d524f4649454e55433b4532313231,
0x3b3b3b3b3b4e3b3b3b3b3b4c3b303b6f4c3b324853412053454d4954204948204e474953204d524f4649454e55433b4632313231,
0x3b3b3b3b3b4e3b3b3b3b3b4c3b303b6f4c3b4441422053454d4954204948204e474953204d524f4649454e55433b3033313231,
0x3b3b3b3b3b4e3b3b3b3b3b4c3b303b6f4c3b485349442053454d4954204948204e474953204d524f4649454e55433b3133313231,
0x3b3b3b3b3b4e3b3b3b3b3b4c3b303b6f4c3b4441472053454d4954204948204e474953204d524f4649454e55433b3233313231,
0x3b3b3b3b3b4e3b3b3b3b3b4c3b303b6f4c3b4e494b2053454d4954204948204e474953204d524f4649454e55433b3333313231,
0x3b3b3b3b3b4e3b3b3b3b3b4c3b303b6f4c3b4e554e2053454d4954204948204e474953204d524f4649454e55433b3433313231,
0x3b3b3b3b3b4e3b3b3b3b3b4c3b303b6f4c3b4548532053454d4954204948204e474953204d524f4649454e55433b3533313231,
0x3b3b3b3b3b4e3b3b3b3b3b4c3b303b6f4c3b552053454d4954204948204e474953204d524f4649454e55433b3633313231,
0x3b3b3b3b3b4e3b3b3b3b3b4c3b303b6f4c3b5548204e474953204d524f4649454e55433b3733313231,
0x3b3b3b3b3b4e3b3b3b3b3b4c3b303b6f4c3b32425548204e474953204d524f4649454e55433b3833313231,
0x3b3b3b3b3b4e3b3b3b3b3b4c3b303b6f4c3b4e412053454d49542032425548204e474953204d524f4649454e55433b3933313231,
0x3b3b3b3b3b4e3b3b3b3b3b4c3b303b6f4c3b4c41482053454d49542032425548204e474953204d524f4649454e55433b4133313231,
0x3b3b3b3b3b4e3b3b3b3b3b4c3b303b6f4c3b4c414b53414b2053454d49542032425548204e474953204d524f4649454e55433b4233313231,
0x3b3b3b3b3b4e3b3b3b3b3b4c3b303b6f4c3b4853494c2053454d49542032425548204e474953204d524f4649454e55433b4333313231,
0x3b3b3b3b3b4e3b3b3b3b3b4c3b303b6f4c3b44552053454d49542032425548204e474953204d524f4649454e55433b4433313231,
0x3b3b3b3b3b4e3b3b3b3b3b4c3b303b6f4c3b324c5548204e474953204d524f4649454e55433b4533313231,
0x3b3b3b3b3b4e3b3b3b3b3b4c3b303b6f4c3b49204e474953204d524f4649454e55433b4633313231,
0x3b3b3b3b3b4e3b3b3b3b3b4c3b303b6f4c3b412049204e474953204d524f4649454e55433b3034313231,
0x3b3b3b3b3b4e3b3b3b3b3b4c3b303b6f4c3b4249204e474953204d524f4649454e55433b3134313231,
0x3b3b3b3b3b4e3b3b3b3b3b4c3b303b6f4c3b4d494449204e474953204d524f4649454e55433b3234313231,
0x3b3b3b3b3b4e3b3b3b3b3b4c3b303b6f4c3b525542204d494449205245564f204d494449204e474953204d524f4649454e55433b3334313231,
0x3b3b3b3b3b4e3b3b3b3b3b4c3b303b6f4c3b44455241555153204d494449205245564f204d494449204e474953204d524f4649454e55433b3434313231,
0x3b3b3b3b3b4e3b3b3b3b3b4c3b303b6f4c3b4749204e474953204d524f4649454e55433b3534313231,
0x3b3b3b3b3b4e3b3b3b3b3b4c3b303b6f4c3b494749204e474953204d524f4649454e55433b3634313231,
0x3b3b3b3b3b4e3b3b3b3b3b4c3b303b6f4c3b42494420494749204e474953204d524f4649454e55433b3734313231,
0x3b3b3b3b3b4e3b3b3b3b3b4c3b303b6f4c3b495220494749204e474953204d524f4649454e55433b3834313231,
0x3b3b3b3b3b4e3b3b3b3b3b4c3b303b6f4c3b4455205245564f2044552052494853205245564f205249485320494749205245564f20494749204e474953204d524f4649454e55433b3934313231,
0x3b3b3b3b3b4e3b3b3b3b3b4c3b303b6f4c3b554e554720494749204e474953204d524f4649454e55433b4134313231,
0x3b3b3b3b3b4e3b3b3b3b3b4c3b303b6f4c3b4c49204e474953204d524f4649454e55433b4234313231,
0x3b3b3b3b3b4e3b3b3b3b3b4c3b303b6f4c3b554e455420324e41472053454d4954204c49204e474953204d524f4649454e55433b4334313231,
0x3b3b3b3b3b4e3b3b3b3b3b4c3b303b6f4c3b324c49204e474953204d524f4649454e55433b4434313231,
0x3b3b3b3b3b4e3b3b3b3b3b4c3b303b6f4c3b4d49204e474953204d524f4649454e55433b4534313231,
0x3b3b3b3b3b4e3b3b3b3b3b4c3b303b6f4c3b344b41542053454d4954204d49204e474953204d524f4649454e55433b4634313231,
0x3b3b3b3b3b4e3b3b3b3b3b4c3b303b6f4c3b4d4920474e4953534f5243204d49204e474953204d524f4649454e55433b3035313231,
0x3b3b3b3b3b4e3b3b3b3b3b4c3b303b6f4c3b4d4920474e49534f50504f204d49204e474953204d524f4649454e55433b3135313231,
0x3b3b3b3b3b4e3b3b3b3b3b4c3b303b6f4c3b44455241555153204d49204e474953204d524f4649454e55433b3235313231,
0x3b3b3b3b3b4e3b3b3b3b3b4c3b303b6f4c3b4e494d49204e474953204d524f4649454e55433b3335313231,
0x3b3b3b3b3b4e3b3b3b3b3b4c3b303b6f4c3b4e49204e474953204d524f4649454e55433b3435313231,
0x3b3b3b3b3b4e3b3b3b3b3b4c3b303b6f4c3b5249204e474953204d524f4649454e55433b3535313231,
0x3b3b3b3b3b4e3b3b3b3b3b4c3b303b6f4c3b485349204e474953204d524f4649454e55433b3635313231,
0x3b3b3b3b3b4e3b3b3b3b3b4c3b303b6f4c3b414b204e474953204d524f4649454e55433b3735313231,
0x3b3b3b3b3b4e3b3b3b3b3b4c3b303b6f4c3b412053454d495420414b204e474953204d524f4649454e55433b3835313231,
0x3b3b3b3b3b4e3b3b3b3b3b4c3b303b6f4c3b44412053454d495420414b204e474953204d524f4649454e55433b3935313231,
0x3b3b3b3b3b4e3b3b3b3b3b4c3b303b6f4c3b33554b2053554c502044412053454d495420414b204e474953204d524f4649454e55433b4135313231,
0x3b3b3b3b3b4e3b3b3b3b3b4c3b303b6f4c3b324853412053454d495420414b204e474953204d524f4649454e55433b4235313231,
0x3b3b3b3b3b4e3b3b3b3b3b4c3b303b6f4c3b4441422053454d495420414b204e474953204d524f4649454e55433b4335313231,
0x3b3b3b3b3b4e3b3b3b3b3b4c3b303b6f4c3b47414c41422053454d495420414b204e474953204d524f4649454e55433b4435313231,
0x3b3b3b3b3b4e3b3b3b3b3b4c3b303b6f4c3b5241422053454d495420414b204e474953204d524f4649454e55433b4535313231,
0x3b3b3b3b3b4e3b3b3b3b3b4c3b303b6f4c3b49422053454d495420414b204e474953204d524f4649454e55433b4635313231,
0x3b3b3b3b3b4e3b3b3b3b3b4c3b303b6f4c3b324e4952452053454d495420414b204e474953204d524f4649454e55433b3036313231,
0x3b3b3b3b3b4e3b3b3b3b3b4c3b303b6f4c3b324853452053454d495420414b204e474953204d524f4649454e55433b3136313231,
0x3b3b3b3b3b4e3b3b3b3b3b4c3b303b6f4c3b41472053454d495420414b204e474953204d524f4649454e55433b3236313231,
0x3b3b3b3b3b4e3b3b3b3b3b4c3b303b6f4c3b4c41472053454d495420414b204e474953204d524f4649454e55433b3336313231,
0x3b3b3b3b3b4e3b3b3b3b3b4c3b303b6f4c3b554e455420324e41472053454d495420414b204e474953204d524f4649454e55433b3436313231,
0x3b3b3b3b3b4e3b3b3b3b3b4c3b303b6f4c3b5241472053454d495420414b204e474953204d524f4649454e55433b3536313231,
0x3b3b3b3b3b4e3b3b3b3b3b4c3b303b6f4c3b412053554c5020334148532053554c50205241472053454d495420414b204e474953204d524f4649454e55433b3636313231,
0x3b3b3b3b3b4e3b3b3b3b3b4c3b303b6f4c3b49472053454d495420414b204e474953204d524f4649454e55433b3736313231,
0x3b3b3b3b3b4e3b3b3b3b3b4c3b303b6f4c3b325249472053454d495420414b204e474953204d524f4649454e55433b3836313231,
0x3b3b3b3b3b4e3b3b3b3b3b4c3b303b6f4c3b5241532053554c5020485349472053454d495420414b204e474953204d524f4649454e55433b3936313231,
0x3b3b3b3b3b4e3b3b3b3b3b4c3b303b6f4c3b4853494720474e4953534f524320485349472053454d495420414b204e474953204d524f4649454e55433b4136313231,
0x3b3b3b3b3b4e3b3b3b3b3b4c3b303b6f4c3b55472053454d495420414b204e474953204d524f4649454e55433b4236313231,
0x3b3b3b3b3b4e3b3b3b3b3b4c3b303b6f4c3b375255472053454d495420414b204e474953204d524f4649454e55433b4336313231,
0x3b3b3b3b3b4e3b3b3b3b3b4c3b303b6f4c3b4947492053454d495420414b204e474953204d524f4649454e55433b4436313231,
0x3b3b3b3b3b4e3b3b3b3b3b4c3b303b6f4c3b4d492053454d495420414b204e474953204d524f4649454e55433b4536313231,
0x3b3b3b3b3b4e3b3b3b3b3b4c3b303b6f4c3b4b414b2053454d495420414b204e474953204d524f4649454e55433b4636313231,
0x3b3b3b3b3b4e3b3b3b3b3b4c3b303b6f4c3b494b2053454d495420414b204e474953204d524f4649454e55433b3037313231,
0x3b3b3b3b3b4e3b3b3b3b3b4c3b303b6f4c3b44494b2053454d495420414b204e474953204d524f4649454e55433b3137313231,
0x3b3b3b3b3b4e3b3b3b3b3b4c3b303b6f4c3b494c2053454d495420414b204e474953204d524f4649454e55433b3237313231,
0x3b3b3b3b3b4e3b3b3b3b3b4c3b303b6f4c3b554c2053454d495420414b204e474953204d524f4649454e55433b3337313231,
0x3b3b3b3b3b4e3b3b3b3b3b4c3b303b6f4c3b454d2053454d495420414b204e474953204d524f4649454e55433b3437313231,
0x3b3b3b3b3b4e3b3b3b3b3b4c3b303b6f4c3b55442053554c5020454d2053454d495420414b204e474953204d524f4649454e55433b3537313231,
0x3b3b3b3b3b4e3b3b3b3b3b4c3b303b6f4c3b49472053554c5020454d2053454d495420414b204e474953204d524f4649454e55433b3637313231,
0x3b3b3b3b3b4e3b3b3b3b3b4c3b303b6f4c3b45542053554c5020454d2053454d495420414b204e474953204d524f4649454e55433b3737313231,
0x3b3b3b3b3b4e3b3b3b3b3b4c3b303b6f4c3b494d2053454d495420414b204e474953204d524f4649454e55433b3837313231,
0x3b3b3b3b3b4e3b3b3b3b3b4c3b303b6f4c3b5a554e554e2053554c5020494d2053454d495420414b204e474953204d524f4649454e55433b3937313231,
0x3b3b3b3b3b4e3b3b3b3b3b4c3b303b6f4c3b454e2053454d495420414b204e474953204d524f4649454e55433b4137313231,
0x3b3b3b3b3b4e3b3b3b3b3b4c3b303b6f4c3b4e554e2053454d495420414b204e474953204d524f4649454e55433b4237313231,
0x3b3b3b3b3b4e3b3b3b3b3b4c3b303b6f4c3b49502053454d495420414b204e474953204d524f4649454e55433b4337313231,
0x3b3b3b3b3b4e3b3b3b3b3b4c3b303b6f4c3b55522053454d495420414b204e474953204d524f4649454e55433b4437313231,
0x3b3b3b3b3b4e3b3b3b3b3b4c3b303b6f4c3b41532053454d495420414b204e474953204d524f4649454e55433b4537313231,
0x3b3b3b3b3b4e3b3b3b3b3b4c3b303b6f4c3b5241532053454d495420414b204e474953204d524f4649454e55433b4637313231,
0x3b3b3b3b3b4e3b3b3b3b3b4c3b303b6f4c3b4148532053454d495420414b204e474953204d524f4649454e55433b3038313231,
0x3b3b3b3b3b4e3b3b3b3b3b4c3b303b6f4c3b4548532053454d495420414b204e474953204d524f4649454e55433b3138313231,
0x3b3b3b3b3b4e3b3b3b3b3b4c3b303b6f4c3b444948532053454d495420414b204e474953204d524f4649454e55433b3238313231,
0x3b3b3b3b3b4e3b3b3b3b3b4c3b303b6f4c3b5548532053454d495420414b204e474953204d524f4649454e55433b3338313231,
0x3b3b3b3b3b4e3b3b3b3b3b4c3b303b6f4c3b4749532053454d495420414b204e474953204d524f4649454e55433b3438313231,
0x3b3b3b3b3b4e3b3b3b3b3b4c3b303b6f4c3b52554855532053454d495420414b204e474953204d524f4649454e55433b3538313231,
0x3b3b3b3b3b4e3b3b3b3b3b4c3b303b6f4c3b5241542053454d495420414b204e474953204d524f4649454e55433b3638313231,
0x3b3b3b3b3b4e3b3b3b3b3b4c3b303b6f4c3b552053454d495420414b204e474953204d524f4649454e55433b3738313231,
0x3b3b3b3b3b4e3b3b3b3b3b4c3b303b6f4c3b32552053454d495420414b204e474953204d524f4649454e55433b3838313231,
0x3b3b3b3b3b4e3b3b3b3b3b4c3b303b6f4c3b44552053454d495420414b204e474953204d524f4649454e55433b3938313231,
0x3b3b3b3b3b4e3b3b3b3b3b4c3b303b6f4c3b41502053454d4954204d554d552053454d495420414b204e474953204d524f4649454e55433b4138313231,
0x3b3b3b3b3b4e3b3b3b3b3b4c3b303b6f4c3b4853552053454d495420414b204e474953204d524f4649454e55433b4238313231,
0x3b3b3b3b3b4e3b3b3b3b3b4c3b303b6f4c3b495a2053454d495420414b204e474953204d524f4649454e55433b4338313231,
0x3b3b3b3b3b4e3b3b3b3b3b4c3b303b6f4c3b32414b204e474953204d524f4649454e55433b4438313231,
0x3b3b3b3b3b4e3b3b3b3b3b4c3b303b6f4c3b32414b20474e4953534f52432032414b204e474953204d524f4649454e55433b4538313231,
0x3b3b3b3b3b4e3b3b3b3b3b4c3b303b6f4c3b42414b204e474953204d524f4649454e55433b4638313231,
0x3b3b3b3b3b4e3b3b3b3b3b4c3b303b6f4c3b3244414b204e474953204d524f4649454e55433b3039313231,
0x3b3b3b3b3b4e3b3b3b3b3b4c3b303b6f4c3b3344414b204e474953204d524f4649454e55433b3139313231,
0x3b3b3b3b3b4e3b3b3b3b3b4c3b303b6f4c3b3444414b204e474953204d524f4649454e55433b3239313231,
0x3b3b3b3b3b4e3b3b3b3b3b4c3b303b6f4c3b3544414b204e474953204d524f4649454e55433b3339313231,
0x3b3b3b3b3b4e3b3b3b3b3b4c3b303b6f4c3b3544414b205245564f203544414b204e474953204d524f4649454e55433b3439313231,
0x3b3b3b3b3b4e3b3b3b3b3b4c3b303b6f4c3b4b414b204e474953204d524f4649454e55433b3539313231,
0x3b3b3b3b3b4e3b3b3b3b3b4c3b303b6f4c3b554e5547204947492053454d4954204b414b204e474953204d524f4649454e55433b3639313231,
0x3b3b3b3b3b4e3b3b3b3b3b4c3b303b6f4c3b4c414b204e474953204d524f4649454e55433b3739313231,
0x3b3b3b3b3b4e3b3b3b3b3b4c3b303b6f4c3b4441422053454d4954204c414b204e474953204d524f4649454e55433b3839313231,
0x3b3b3b3b3b4e3b3b3b3b3b4c3b303b6f4c3b4c414b20474e4953534f5243204c414b204e474953204d524f4649454e55433b3939313231,
0x3b3b3b3b3b4e3b3b3b3b3b4c3b303b6f4c3b324d414b204e474953204d524f4649454e55433b4139313231,
0x3b3b3b3b3b4e3b3b3b3b3b4c3b303b6f4c3b344d414b204e474953204d524f4649454e55433b4239313231,
0x3b3b3b3b3b4e3b3b3b3b3b4c3b303b6f4c3b4c414b53414b204e474953204d524f4649454e55433b4339313231,
0x3b3b3b3b3b4e3b3b3b3b3b4c3b303b6f4c3b552053454d495420424147414c205245564f20552053454d495420424147414c204c414b53414b204e474953204d524f4649454e55433b4439313231,
0x3b3b3b3b3b4e3b3b3b3b3b4c3b303b6f4c3b552053454d495420424147414c205245564f20552053454d495420424147414c204c414b53414b205245564f204c414b53414b204e474953204d524f4649454e55433b4539313231,
0x3b3b3b3b3b4e3b3b3b3b3b4c3b303b6f4c3b324853454b204e474953204d524f4649454e55433b4639313231,
0x3b3b3b3b3b4e3b3b3b3b3b4c3b303b6f4c3b494b204e474953204d524f4649454e55433b3041313231,
0x3b3b3b3b3b4e3b3b3b3b3b4c3b303b6f4c3b4441422053454d495420494b204e474953204d524f4649454e55433b3141313231,
0x3b3b3b3b3b4e3b3b3b3b3b4c3b303b6f4c3b552053454d495420494b204e474953204d524f4649454e55433b3241313231,
0x3b3b3b3b3b4e3b3b3b3b3b4c3b303b6f4c3b44552053454d495420494b204e474953204d524f4649454e55433b3341313231,
0x3b3b3b3b3b4e3b3b3b3b3b4c3b303b6f4c3b44494b204e474953204d524f4649454e55433b3441313231,
0x3b3b3b3b3b4e3b3b3b3b3b4c3b303b6f4c3b4e494b204e474953204d524f4649454e55433b3541313231,
0x3b3b3b3b3b4e3b3b3b3b3b4c3b303b6f4c3b4c4153494b204e474953204d524f4649454e55433b3641313231,
0x3b3b3b3b3b4e3b3b3b3b3b4c3b303b6f4c3b4853494b204e474953204d524f4649454e55433b3741313231,
0x3b3b3b3b3b4e3b3b3b3b3b4c3b303b6f4c3b354d4953494b204e474953204d524f4649454e55433b3841313231,
0x3b3b3b3b3b4e3b3b3b3b3b4c3b303b6f4c3b354d4953494b205245564f20354d4953494b204e474953204d524f4649454e55433b3941313231,
0x3b3b3b3b3b4e3b3b3b3b3b4c3b303b6f4c3b554b204e474953204d524f4649454e55433b4141313231,
0x3b3b3b3b3b4e3b3b3b3b3b4c3b303b6f4c3b324853412053454d4954204948205245564f20554b20324853412053454d4954204948205245564f20554b204e474953204d524f4649454e55433b4241313231,
0x3b3b3b3b3b4e3b3b3b3b3b4c3b303b6f4c3b33554b204e474953204d524f4649454e55433b4341313231,
0x3b3b3b3b3b4e3b3b3b3b3b4c3b303b6f4c3b34554b204e474953204d524f4649454e55433b4441313231,
0x3b3b3b3b3b4e3b3b3b3b3b4c3b303b6f4c3b4d524f4620544e41495241562034554b204e474953204d524f4649454e55433b4541313231,
0x3b3b3b3b3b4e3b3b3b3b3b4c3b303b6f4c3b37554b204e474953204d524f4649454e55433b4641313231,
0x3b3b3b3b3b4e3b3b3b3b3b4c3b303b6f4c3b4c554b204e474953204d524f4649454e55433b3042313231,
0x3b3b3b3b3b4e3b3b3b3b3b4c3b303b6f4c3b554e5547204c554b204e474953204d524f4649454e55433b3142313231,
0x3b3b3b3b3b4e3b3b3b3b3b4c3b303b6f4c3b4e554b204e474953204d524f4649454e55433b3242313231,
0x3b3b3b3b3b4e3b3b3b3b3b4c3b303b6f4c3b52554b204e474953204d524f4649454e55433b3342313231,
0x3b3b3b3b3b4e3b3b3b3b3b4c3b303b6f4c3b52554b20474e49534f50504f2052554b204e474953204d524f4649454e55433b3442313231,
0x3b3b3b3b3b4e3b3b3b3b3b4c3b303b6f4c3b32554853554b204e474953204d524f4649454e55433b3542313231,
0x3b3b3b3b3b4e3b3b3b3b3b4c3b303b6f4c3b38313355574b204e474953204d524f4649454e55433b3642313231,
0x3b3b3b3b3b4e3b3b3b3b3b4c3b303b6f4c3b414c204e474953204d524f4649454e55433b3742313231,
0x3b3b3b3b3b4e3b3b3b3b3b4c3b303b6f4c3b424147414c204e474953204d524f4649454e55433b3842313231,
0x3b3b3b3b3b4e3b3b3b3b3b4c3b303b6f4c3b412053454d495420424147414c204e474953204d524f4649454e55433b3942313231,
0x3b3b3b3b3b4e3b3b3b3b3b4c3b303b6f4c3b41482053554c502041442053554c5020412053454d495420424147414c204e474953204d524f4649454e55433b4142313231,
0x3b3b3b3b3b4e3b3b3b3b3b4c3b303b6f4c3b5241472053554c5020412053454d495420424147414c204e474953204d524f4649454e55433b4242313231]

/-- src/u5e/props/UnicodeData.txt lines 20737-20992. -/
def rawUcd81 : List Nat := [
0x3b3b3b3b3b4e3b3b3b3b3b4c3b303b6f4c3b4c414c2053554c5020412053454d495420424147414c204e474953204d524f4649454e55433b4342313231,
0x3b3b3b3b3b4e3b3b3b3b3b4c3b303b6f4c3b4c412053454d495420424147414c204e474953204d524f4649454e55433b4442313231,
0x3b3b3b3b3b4e3b3b3b3b3b4c3b303b6f4c3b4e412053454d495420424147414c204e474953204d524f4649454e55433b4542313231,
0x3b3b3b3b3b4e3b3b3b3b3b4c3b303b6f4c3b554e4554204144495a204853412053454d495420424147414c204e474953204d524f4649454e55433b4642313231,
0x3b3b3b3b3b4e3b3b3b3b3b4c3b303b6f4c3b4441422053454d495420424147414c204e474953204d524f4649454e55433b3043313231,
0x3b3b3b3b3b4e3b3b3b3b3b4c3b303b6f4c3b49422053454d495420424147414c204e474953204d524f4649454e55433b3143313231,
0x3b3b3b3b3b4e3b3b3b3b3b4c3b303b6f4c3b5241442053454d495420424147414c204e474953204d524f4649454e55433b3243313231,
0x3b3b3b3b3b4e3b3b3b3b3b4c3b303b6f4c3b4e452053454d495420424147414c204e474953204d524f4649454e55433b3343313231,
0x3b3b3b3b3b4e3b3b3b3b3b4c3b303b6f4c3b41472053454d495420424147414c204e474953204d524f4649454e55433b3443313231,
0x3b3b3b3b3b4e3b3b3b3b3b4c3b303b6f4c3b5241472053454d495420424147414c204e474953204d524f4649454e55433b3543313231,
0x3b3b3b3b3b4e3b3b3b3b3b4c3b303b6f4c3b4455472053454d495420424147414c204e474953204d524f4649454e55433b3643313231,
0x3b3b3b3b3b4e3b3b3b3b3b4c3b303b6f4c3b4455472053554c50204455472053454d495420424147414c204e474953204d524f4649454e55433b3743313231,
0x3b3b3b3b3b4e3b3b3b3b3b4c3b303b6f4c3b41482053454d495420424147414c204e474953204d524f4649454e55433b3843313231,
0x3b3b3b3b3b4e3b3b3b3b3b4c3b303b6f4c3b4c41482053454d495420424147414c204e474953204d524f4649454e55433b3943313231,
0x3b3b3b3b3b4e3b3b3b3b3b4c3b303b6f4c3b4e554e2053454d49542049482053454d495420424147414c204e474953204d524f4649454e55433b4143313231,
0x3b3b3b3b3b4e3b3b3b3b3b4c3b303b6f4c3b554e5547204947492053454d495420424147414c204e474953204d524f4649454e55433b4243313231,
0x3b3b3b3b3b4e3b3b3b3b3b4c3b303b6f4c3b4d492053454d495420424147414c204e474953204d524f4649454e55433b4343313231,
0x3b3b3b3b3b4e3b3b3b3b3b4c3b303b6f4c3b41482053554c50204d492053454d495420424147414c204e474953204d524f4649454e55433b4443313231,
0x3b3b3b3b3b4e3b3b3b3b3b4c3b303b6f4c3b554c2053554c50204d492053454d495420424147414c204e474953204d524f4649454e55433b4543313231,
0x3b3b3b3b3b4e3b3b3b3b3b4c3b303b6f4c3b494b2053454d495420424147414c204e474953204d524f4649454e55433b4643313231,
0x3b3b3b3b3b4e3b3b3b3b3b4c3b303b6f4c3b4e494b2053454d495420424147414c204e474953204d524f4649454e55433b3044313231,
0x3b3b3b3b3b4e3b3b3b3b3b4c3b303b6f4c3b33554b2053454d495420424147414c204e474953204d524f4649454e55433b3144313231,
0x3b3b3b3b3b4e3b3b3b3b3b4c3b303b6f4c3b4c554b2053454d495420424147414c204e474953204d524f4649454e55433b3244313231,
0x3b3b3b3b3b4e3b3b3b3b3b4c3b303b6f4c3b412053554c502049482053554c50204c554b2053454d495420424147414c204e474953204d524f4649454e55433b3344313231,
0x3b3b3b3b3b4e3b3b3b3b3b4c3b303b6f4c3b424147414c2053454d495420424147414c204e474953204d524f4649454e55433b3444313231,
0x3b3b3b3b3b4e3b3b3b3b3b4c3b303b6f4c3b4853494c2053454d495420424147414c204e474953204d524f4649454e55433b3544313231,
0x3b3b3b3b3b4e3b3b3b3b3b4c3b303b6f4c3b554c2053454d495420424147414c204e474953204d524f4649454e55433b3644313231,
0x3b3b3b3b3b4e3b3b3b3b3b4c3b303b6f4c3b4c554c2053454d495420424147414c204e474953204d524f4649454e55433b3744313231,
0x3b3b3b3b3b4e3b3b3b3b3b4c3b303b6f4c3b454d2053454d495420424147414c204e474953204d524f4649454e55433b3844313231,
0x3b3b3b3b3b4e3b3b3b3b3b4c3b303b6f4c3b4e452053554c5020454d2053454d495420424147414c204e474953204d524f4649454e55433b3944313231,
0x3b3b3b3b3b4e3b3b3b3b3b4c3b303b6f4c3b4853554d2053454d495420424147414c204e474953204d524f4649454e55433b4144313231,
0x3b3b3b3b3b4e3b3b3b3b3b4c3b303b6f4c3b454e2053454d495420424147414c204e474953204d524f4649454e55433b4244313231,
0x3b3b3b3b3b4e3b3b3b3b3b4c3b303b6f4c3b4d55532053554c50204548532053454d495420424147414c204e474953204d524f4649454e55433b4344313231,
0x3b3b3b3b3b4e3b3b3b3b3b4c3b303b6f4c3b324e4952452053554c5020485349472053554c502041544948532053454d495420424147414c204e474953204d524f4649454e55433b4444313231,
0x3b3b3b3b3b4e3b3b3b3b3b4c3b303b6f4c3b554e455420485349472053554c502041544948532053454d495420424147414c204e474953204d524f4649454e55433b4544313231,
0x3b3b3b3b3b4e3b3b3b3b3b4c3b303b6f4c3b325548532053454d495420424147414c204e474953204d524f4649454e55433b4644313231,
0x3b3b3b3b3b4e3b3b3b3b3b4c3b303b6f4c3b325548532053554c5020325548532053454d495420424147414c204e474953204d524f4649454e55433b3045313231,
0x3b3b3b3b3b4e3b3b3b3b3b4c3b303b6f4c3b4d55532053454d495420424147414c204e474953204d524f4649454e55433b3145313231,
0x3b3b3b3b3b4e3b3b3b3b3b4c3b303b6f4c3b4741542053454d495420424147414c204e474953204d524f4649454e55433b3245313231,
0x3b3b3b3b3b4e3b3b3b3b3b4c3b303b6f4c3b344b41542053454d495420424147414c204e474953204d524f4649454e55433b3345313231,
0x3b3b3b3b3b4e3b3b3b3b3b4c3b303b6f4c3b414e2053554c502055532053554c5020412053554c502045542053454d495420424147414c204e474953204d524f4649454e55433b3445313231,
0x3b3b3b3b3b4e3b3b3b3b3b4c3b303b6f4c3b552053454d495420424147414c204e474953204d524f4649454e55433b3545313231,
0x3b3b3b3b3b4e3b3b3b3b3b4c3b303b6f4c3b412053554c5020552053454d495420424147414c204e474953204d524f4649454e55433b3645313231,
0x3b3b3b3b3b4e3b3b3b3b3b4c3b303b6f4c3b552053554c5020552053554c5020552053454d495420424147414c204e474953204d524f4649454e55433b3745313231,
0x3b3b3b3b3b4e3b3b3b3b3b4c3b303b6f4c3b4853412053554c502032552053454d495420424147414c204e474953204d524f4649454e55433b3845313231,
0x3b3b3b3b3b4e3b3b3b3b3b4c3b303b6f4c3b44552053454d495420424147414c204e474953204d524f4649454e55433b3945313231,
0x3b3b3b3b3b4e3b3b3b3b3b4c3b303b6f4c3b4853552053454d495420424147414c204e474953204d524f4649454e55433b4145313231,
0x3b3b3b3b3b4e3b3b3b3b3b4c3b303b6f4c3b4445524155515320424147414c204e474953204d524f4649454e55433b4245313231,
0x3b3b3b3b3b4e3b3b3b3b3b4c3b303b6f4c3b524147414c204e474953204d524f4649454e55433b4345313231,
0x3b3b3b3b3b4e3b3b3b3b3b4c3b303b6f4c3b4548532053454d495420524147414c204e474953204d524f4649454e55433b4445313231,
0x3b3b3b3b3b4e3b3b3b3b3b4c3b303b6f4c3b4d55532053554c50204548532053454d495420524147414c204e474953204d524f4649454e55433b4545313231,
0x3b3b3b3b3b4e3b3b3b3b3b4c3b303b6f4c3b554e554720524147414c204e474953204d524f4649454e55433b4645313231,
0x3b3b3b3b3b4e3b3b3b3b3b4c3b303b6f4c3b45485320554e554720524147414c205245564f20554e554720524147414c204e474953204d524f4649454e55433b3046313231,
0x3b3b3b3b3b4e3b3b3b3b3b4c3b303b6f4c3b55485348414c204e474953204d524f4649454e55433b3146313231,
0x3b3b3b3b3b4e3b3b3b3b3b4c3b303b6f4c3b4c414c204e474953204d524f4649454e55433b3246313231,
0x3b3b3b3b3b4e3b3b3b3b3b4c3b303b6f4c3b4c414c2053454d4954204c414c204e474953204d524f4649454e55433b3346313231,
0x3b3b3b3b3b4e3b3b3b3b3b4c3b303b6f4c3b4d414c204e474953204d524f4649454e55433b3446313231,
0x3b3b3b3b3b4e3b3b3b3b3b4c3b303b6f4c3b52554b2053454d4954204d414c204e474953204d524f4649454e55433b3546313231,
0x3b3b3b3b3b4e3b3b3b3b3b4c3b303b6f4c3b55522053554c502052554b2053454d4954204d414c204e474953204d524f4649454e55433b3646313231,
0x3b3b3b3b3b4e3b3b3b3b3b4c3b303b6f4c3b494c204e474953204d524f4649454e55433b3746313231,
0x3b3b3b3b3b4e3b3b3b3b3b4c3b303b6f4c3b4c494c204e474953204d524f4649454e55433b3846313231,
0x3b3b3b3b3b4e3b3b3b3b3b4c3b303b6f4c3b32554d4d494c204e474953204d524f4649454e55433b3946313231,
0x3b3b3b3b3b4e3b3b3b3b3b4c3b303b6f4c3b4853494c204e474953204d524f4649454e55433b4146313231,
0x3b3b3b3b3b4e3b3b3b3b3b4c3b303b6f4c3b554c204e474953204d524f4649454e55433b4246313231,
0x3b3b3b3b3b4e3b3b3b3b3b4c3b303b6f4c3b4441422053454d495420554c204e474953204d524f4649454e55433b4346313231,
0x3b3b3b3b3b4e3b3b3b3b3b4c3b303b6f4c3b32554c204e474953204d524f4649454e55433b4446313231,
0x3b3b3b3b3b4e3b3b3b3b3b4c3b303b6f4c3b4c412053454d49542032554c204e474953204d524f4649454e55433b4546313231,
0x3b3b3b3b3b4e3b3b3b3b3b4c3b303b6f4c3b4441422053454d49542032554c204e474953204d524f4649454e55433b4646313231,
0x3b3b3b3b3b4e3b3b3b3b3b4c3b303b6f4c3b324853452053454d49542032554c204e474953204d524f4649454e55433b3030323231,
0x3b3b3b3b3b4e3b3b3b3b3b4c3b303b6f4c3b554e455420324853452053454d49542032554c204e474953204d524f4649454e55433b3130323231,
0x3b3b3b3b3b4e3b3b3b3b3b4c3b303b6f4c3b554e455420324e41472053454d49542032554c204e474953204d524f4649454e55433b3230323231,
0x3b3b3b3b3b4e3b3b3b3b3b4c3b303b6f4c3b4441422053454d49542049482053454d49542032554c204e474953204d524f4649454e55433b3330323231,
0x3b3b3b3b3b4e3b3b3b3b3b4c3b303b6f4c3b4d492053454d49542032554c204e474953204d524f4649454e55433b3430323231,
0x3b3b3b3b3b4e3b3b3b3b3b4c3b303b6f4c3b3244414b2053454d49542032554c204e474953204d524f4649454e55433b3530323231,
0x3b3b3b3b3b4e3b3b3b3b3b4c3b303b6f4c3b3344414b2053454d49542032554c204e474953204d524f4649454e55433b3630323231,
0x3b3b3b3b3b4e3b3b3b3b3b4c3b303b6f4c3b4853412053554c50203344414b2053454d49542032554c204e474953204d524f4649454e55433b3730323231,
0x3b3b3b3b3b4e3b3b3b3b3b4c3b303b6f4c3b494b2053454d49542032554c204e474953204d524f4649454e55433b3830323231,
0x3b3b3b3b3b4e3b3b3b3b3b4c3b303b6f4c3b4853412053554c5020414c2053454d49542032554c204e474953204d524f4649454e55433b3930323231,
0x3b3b3b3b3b4e3b3b3b3b3b4c3b303b6f4c3b424147414c2053454d49542032554c204e474953204d524f4649454e55433b4130323231,
0x3b3b3b3b3b4e3b3b3b3b3b4c3b303b6f4c3b4e452053554c5020454d2053454d49542032554c204e474953204d524f4649454e55433b4230323231,
0x3b3b3b3b3b4e3b3b3b3b3b4c3b303b6f4c3b454e2053454d49542032554c204e474953204d524f4649454e55433b4330323231,
0x3b3b3b3b3b4e3b3b3b3b3b4c3b303b6f4c3b554e2053454d49542032554c204e474953204d524f4649454e55433b4430323231,
0x3b3b3b3b3b4e3b3b3b3b3b4c3b303b6f4c3b4853412053554c502049532053454d49542032554c204e474953204d524f4649454e55433b4530323231,
0x3b3b3b3b3b4e3b3b3b3b3b4c3b303b6f4c3b55422053554c5020324b49532053454d49542032554c204e474953204d524f4649454e55433b4630323231,
0x3b3b3b3b3b4e3b3b3b3b3b4c3b303b6f4c3b324755542053454d49542032554c204e474953204d524f4649454e55433b3031323231,
0x3b3b3b3b3b4e3b3b3b3b3b4c3b303b6f4c3b554e45542032554c204e474953204d524f4649454e55433b3131323231,
0x3b3b3b3b3b4e3b3b3b3b3b4c3b303b6f4c3b32554c20474e4953534f52432032554c204e474953204d524f4649454e55433b3231323231,
0x3b3b3b3b3b4e3b3b3b3b3b4c3b303b6f4c3b32554c20474e49534f50504f2032554c204e474953204d524f4649454e55433b3331323231,
0x3b3b3b3b3b4e3b3b3b3b3b4c3b303b6f4c3b444552415551532032554c204e474953204d524f4649454e55433b3431323231,
0x3b3b3b3b3b4e3b3b3b3b3b4c3b303b6f4c3b474948534548532032554c204e474953204d524f4649454e55433b3531323231,
0x3b3b3b3b3b4e3b3b3b3b3b4c3b303b6f4c3b33554c204e474953204d524f4649454e55433b3631323231,
0x3b3b3b3b3b4e3b3b3b3b3b4c3b303b6f4c3b4c4147554c204e474953204d524f4649454e55433b3731323231,
0x3b3b3b3b3b4e3b3b3b3b3b4c3b303b6f4c3b4c4147554c205245564f204c4147554c204e474953204d524f4649454e55433b3831323231,
0x3b3b3b3b3b4e3b3b3b3b3b4c3b303b6f4c3b4c4147554c20474e49534f50504f204c4147554c204e474953204d524f4649454e55433b3931323231,
0x3b3b3b3b3b4e3b3b3b3b3b4c3b303b6f4c3b47494853454853204c4147554c204e474953204d524f4649454e55433b4131323231,
0x3b3b3b3b3b4e3b3b3b3b3b4c3b303b6f4c3b48554c204e474953204d524f4649454e55433b4231323231,
0x3b3b3b3b3b4e3b3b3b3b3b4c3b303b6f4c3b4c554c204e474953204d524f4649454e55433b4331323231,
0x3b3b3b3b3b4e3b3b3b3b3b4c3b303b6f4c3b4d554c204e474953204d524f4649454e55433b4431323231,
0x3b3b3b3b3b4e3b3b3b3b3b4c3b303b6f4c3b4d554c205245564f204d554c204e474953204d524f4649454e55433b4531323231,
0x3b3b3b3b3b4e3b3b3b3b3b4c3b303b6f4c3b524147205245564f20524147204d554c205245564f204d554c204e474953204d524f4649454e55433b4631323231,
0x3b3b3b3b3b4e3b3b3b3b3b4c3b303b6f4c3b414d204e474953204d524f4649454e55433b3032323231,
0x3b3b3b3b3b4e3b3b3b3b3b4c3b303b6f4c3b344b41542053454d495420414d204e474953204d524f4649454e55433b3132323231,
0x3b3b3b3b3b4e3b3b3b3b3b4c3b303b6f4c3b554e554720414d204e474953204d524f4649454e55433b3232323231,
0x3b3b3b3b3b4e3b3b3b3b3b4c3b303b6f4c3b32414d204e474953204d524f4649454e55433b3332323231,
0x3b3b3b3b3b4e3b3b3b3b3b4c3b303b6f4c3b48414d204e474953204d524f4649454e55433b3432323231,
0x3b3b3b3b3b4e3b3b3b3b3b4c3b303b6f4c3b52414d204e474953204d524f4649454e55433b3532323231,
0x3b3b3b3b3b4e3b3b3b3b3b4c3b303b6f4c3b4853414d204e474953204d524f4649454e55433b3632323231,
0x3b3b3b3b3b4e3b3b3b3b3b4c3b303b6f4c3b324853414d204e474953204d524f4649454e55433b3732323231,
0x3b3b3b3b3b4e3b3b3b3b3b4c3b303b6f4c3b454d204e474953204d524f4649454e55433b3832323231,
0x3b3b3b3b3b4e3b3b3b3b3b4c3b303b6f4c3b53454d204e474953204d524f4649454e55433b3932323231,
0x3b3b3b3b3b4e3b3b3b3b3b4c3b303b6f4c3b494d204e474953204d524f4649454e55433b4132323231,
0x3b3b3b3b3b4e3b3b3b3b3b4c3b303b6f4c3b4e494d204e474953204d524f4649454e55433b4232323231,
0x3b3b3b3b3b4e3b3b3b3b3b4c3b303b6f4c3b554d204e474953204d524f4649454e55433b4332323231,
0x3b3b3b3b3b4e3b3b3b3b3b4c3b303b6f4c3b554d205245564f20554d204e474953204d524f4649454e55433b4432323231,
0x3b3b3b3b3b4e3b3b3b3b3b4c3b303b6f4c3b47554d204e474953204d524f4649454e55433b4532323231,
0x3b3b3b3b3b4e3b3b3b3b3b4c3b303b6f4c3b554e55472047554d204e474953204d524f4649454e55433b4632323231,
0x3b3b3b3b3b4e3b3b3b3b3b4c3b303b6f4c3b4255534e554d204e474953204d524f4649454e55433b3033323231,
0x3b3b3b3b3b4e3b3b3b3b3b4c3b303b6f4c3b32554752554d204e474953204d524f4649454e55433b3133323231,
0x3b3b3b3b3b4e3b3b3b3b3b4c3b303b6f4c3b4853554d204e474953204d524f4649454e55433b3233323231,
0x3b3b3b3b3b4e3b3b3b3b3b4c3b303b6f4c3b412053454d4954204853554d204e474953204d524f4649454e55433b3333323231,
0x3b3b3b3b3b4e3b3b3b3b3b4c3b303b6f4c3b52554b2053454d4954204853554d204e474953204d524f4649454e55433b3433323231,
0x3b3b3b3b3b4e3b3b3b3b3b4c3b303b6f4c3b415a2053454d4954204853554d204e474953204d524f4649454e55433b3533323231,
0x3b3b3b3b3b4e3b3b3b3b3b4c3b303b6f4c3b4853554d205245564f204853554d204e474953204d524f4649454e55433b3633323231,
0x3b3b3b3b3b4e3b3b3b3b3b4c3b303b6f4c3b414e2053554c5020412053454d4954204853554d205245564f204853554d204e474953204d524f4649454e55433b3733323231,
0x3b3b3b3b3b4e3b3b3b3b3b4c3b303b6f4c3b4853554d20474e4953534f5243204853554d204e474953204d524f4649454e55433b3833323231,
0x3b3b3b3b3b4e3b3b3b3b3b4c3b303b6f4c3b334853554d204e474953204d524f4649454e55433b3933323231,
0x3b3b3b3b3b4e3b3b3b3b3b4c3b303b6f4c3b412053454d495420334853554d204e474953204d524f4649454e55433b4133323231,
0x3b3b3b3b3b4e3b3b3b3b3b4c3b303b6f4c3b49442053554c5020412053454d495420334853554d204e474953204d524f4649454e55433b4233323231,
0x3b3b3b3b3b4e3b3b3b3b3b4c3b303b6f4c3b49442053454d495420334853554d204e474953204d524f4649454e55433b4333323231,
0x3b3b3b3b3b4e3b3b3b3b3b4c3b303b6f4c3b554e554720334853554d204e474953204d524f4649454e55433b4433323231,
0x3b3b3b3b3b4e3b3b3b3b3b4c3b303b6f4c3b414e204e474953204d524f4649454e55433b4533323231,
0x3b3b3b3b3b4e3b3b3b3b3b4c3b303b6f4c3b32414e204e474953204d524f4649454e55433b4633323231,
0x3b3b3b3b3b4e3b3b3b3b3b4c3b303b6f4c3b4147414e204e474953204d524f4649454e55433b3034323231,
0x3b3b3b3b3b4e3b3b3b3b3b4c3b303b6f4c3b4445545245564e49204147414e204e474953204d524f4649454e55433b3134323231,
0x3b3b3b3b3b4e3b3b3b3b3b4c3b303b6f4c3b554e4554205548532053454d4954204147414e204e474953204d524f4649454e55433b3234323231,
0x3b3b3b3b3b4e3b3b3b3b3b4c3b303b6f4c3b4147414e20474e49534f50504f204147414e204e474953204d524f4649454e55433b3334323231,
0x3b3b3b3b3b4e3b3b3b3b3b4c3b303b6f4c3b524147414e204e474953204d524f4649454e55433b3434323231,
0x3b3b3b3b3b4e3b3b3b3b3b4c3b303b6f4c3b554c4c4954554e204d414e204e474953204d524f4649454e55433b3534323231,
0x3b3b3b3b3b4e3b3b3b3b3b4c3b303b6f4c3b4d414e204e474953204d524f4649454e55433b3634323231,
0x3b3b3b3b3b4e3b3b3b3b3b4c3b303b6f4c3b324d414e204e474953204d524f4649454e55433b3734323231,
0x3b3b3b3b3b4e3b3b3b3b3b4c3b303b6f4c3b454e204e474953204d524f4649454e55433b3834323231,
0x3b3b3b3b3b4e3b3b3b3b3b4c3b303b6f4c3b412053454d495420454e204e474953204d524f4649454e55433b3934323231,
0x3b3b3b3b3b4e3b3b3b3b3b4c3b303b6f4c3b44552053454d495420454e204e474953204d524f4649454e55433b4134323231,
0x3b3b3b3b3b4e3b3b3b3b3b4c3b303b6f4c3b4749485345485320454e204e474953204d524f4649454e55433b4234323231,
0x3b3b3b3b3b4e3b3b3b3b3b4c3b303b6f4c3b494e204e474953204d524f4649454e55433b4334323231,
0x3b3b3b3b3b4e3b3b3b3b3b4c3b303b6f4c3b452053454d495420494e204e474953204d524f4649454e55433b4434323231,
0x3b3b3b3b3b4e3b3b3b3b3b4c3b303b6f4c3b32494e204e474953204d524f4649454e55433b4534323231,
0x3b3b3b3b3b4e3b3b3b3b3b4c3b303b6f4c3b4d494e204e474953204d524f4649454e55433b4634323231,
0x3b3b3b3b3b4e3b3b3b3b3b4c3b303b6f4c3b554e455420324e41472053454d4954204d494e204e474953204d524f4649454e55433b3035323231,
0x3b3b3b3b3b4e3b3b3b3b3b4c3b303b6f4c3b554e455420324e41472053554c50205241472053454d4954204d494e204e474953204d524f4649454e55433b3135323231,
0x3b3b3b3b3b4e3b3b3b3b3b4c3b303b6f4c3b3241444e494e204e474953204d524f4649454e55433b3235323231,
0x3b3b3b3b3b4e3b3b3b3b3b4c3b303b6f4c3b4e412053454d4954203241444e494e204e474953204d524f4649454e55433b3335323231,
0x3b3b3b3b3b4e3b3b3b3b3b4c3b303b6f4c3b4853412053454d4954203241444e494e204e474953204d524f4649454e55433b3435323231,
0x3b3b3b3b3b4e3b3b3b3b3b4c3b303b6f4c3b4853412053554c50204853412053454d4954203241444e494e204e474953204d524f4649454e55433b3535323231,
0x3b3b3b3b3b4e3b3b3b3b3b4c3b303b6f4c3b4455472053454d4954203241444e494e204e474953204d524f4649454e55433b3635323231,
0x3b3b3b3b3b4e3b3b3b3b3b4c3b303b6f4c3b554e455420324e41472053554c5020454d2053454d4954203241444e494e204e474953204d524f4649454e55433b3735323231,
0x3b3b3b3b3b4e3b3b3b3b3b4c3b303b6f4c3b454e2053454d4954203241444e494e204e474953204d524f4649454e55433b3835323231,
0x3b3b3b3b3b4e3b3b3b3b3b4c3b303b6f4c3b4e554e2053454d4954203241444e494e204e474953204d524f4649454e55433b3935323231,
0x3b3b3b3b3b4e3b3b3b3b3b4c3b303b6f4c3b4548532053454d4954203241444e494e204e474953204d524f4649454e55433b4135323231,
0x3b3b3b3b3b4e3b3b3b3b3b4c3b303b6f4c3b4e4120412053554c50204548532053454d4954203241444e494e204e474953204d524f4649454e55433b4235323231,
0x3b3b3b3b3b4e3b3b3b3b3b4c3b303b6f4c3b4853412053554c50204548532053454d4954203241444e494e204e474953204d524f4649454e55433b4335323231,
0x3b3b3b3b3b4e3b3b3b3b3b4c3b303b6f4c3b4853412053554c50204853412053554c50204548532053454d4954203241444e494e204e474953204d524f4649454e55433b4435323231,
0x3b3b3b3b3b4e3b3b3b3b3b4c3b303b6f4c3b4853412053554c502032552053454d4954203241444e494e204e474953204d524f4649454e55433b4535323231,
0x3b3b3b3b3b4e3b3b3b3b3b4c3b303b6f4c3b4853552053454d4954203241444e494e204e474953204d524f4649454e55433b4635323231,
0x3b3b3b3b3b4e3b3b3b3b3b4c3b303b6f4c3b474153494e204e474953204d524f4649454e55433b3036323231,
0x3b3b3b3b3b4e3b3b3b3b3b4c3b303b6f4c3b554e204e474953204d524f4649454e55433b3136323231,
0x3b3b3b3b3b4e3b3b3b3b3b4c3b303b6f4c3b3131554e204e474953204d524f4649454e55433b3236323231,
0x3b3b3b3b3b4e3b3b3b3b3b4c3b303b6f4c3b4e554e204e474953204d524f4649454e55433b3336323231,
0x3b3b3b3b3b4e3b3b3b3b3b4c3b303b6f4c3b5241472053454d495420524147414c204e554e204e474953204d524f4649454e55433b3436323231,
0x3b3b3b3b3b4e3b3b3b3b3b4c3b303b6f4c3b4853414d2053454d495420524147414c204e554e204e474953204d524f4649454e55433b3536323231,
0x3b3b3b3b3b4e3b3b3b3b3b4c3b303b6f4c3b4c41532053454d495420524147414c204e554e204e474953204d524f4649454e55433b3636323231,
0x3b3b3b3b3b4e3b3b3b3b3b4c3b303b6f4c3b4c41532053454d495420524147414c204e554e205245564f204c41532053454d495420524147414c204e554e204e474953204d524f4649454e55433b3736323231,
0x3b3b3b3b3b4e3b3b3b3b3b4c3b303b6f4c3b4853552053454d495420524147414c204e554e204e474953204d524f4649454e55433b3836323231,
0x3b3b3b3b3b4e3b3b3b3b3b4c3b303b6f4c3b554e4554204e554e204e474953204d524f4649454e55433b3936323231,
0x3b3b3b3b3b4e3b3b3b3b3b4c3b303b6f4c3b4e554e205245564f204e554e204e474953204d524f4649454e55433b4136323231,
0x3b3b3b3b3b4e3b3b3b3b3b4c3b303b6f4c3b4e554e20474e4953534f5243204e554e204e474953204d524f4649454e55433b4236323231,
0x3b3b3b3b3b4e3b3b3b3b3b4c3b303b6f4c3b524147414c205245564f20524147414c204e554e20474e4953534f5243204e554e204e474953204d524f4649454e55433b4336323231,
0x3b3b3b3b3b4e3b3b3b3b3b4c3b303b6f4c3b5a554e554e204e474953204d524f4649454e55433b4436323231,
0x3b3b3b3b3b4e3b3b3b3b3b4c3b303b6f4c3b4241474853412053454d495420324241205a554e554e204e474953204d524f4649454e55433b4536323231,
0x3b3b3b3b3b4e3b3b3b3b3b4c3b303b6f4c3b49422053454d495420324241205a554e554e204e474953204d524f4649454e55433b4636323231,
0x3b3b3b3b3b4e3b3b3b3b3b4c3b303b6f4c3b4755442053454d495420324241205a554e554e204e474953204d524f4649454e55433b3037323231,
0x3b3b3b3b3b4e3b3b3b3b3b4c3b303b6f4c3b4455472053454d495420324241205a554e554e204e474953204d524f4649454e55433b3137323231,
0x3b3b3b3b3b4e3b3b3b3b3b4c3b303b6f4c3b554e5547204947492053454d495420324241205a554e554e204e474953204d524f4649454e55433b3237323231,
0x3b3b3b3b3b4e3b3b3b3b3b4c3b303b6f4c3b3344414b2053454d495420324241205a554e554e204e474953204d524f4649454e55433b3337323231,
0x3b3b3b3b3b4e3b3b3b3b3b4c3b303b6f4c3b414c2053454d495420324241205a554e554e204e474953204d524f4649454e55433b3437323231,
0x3b3b3b3b3b4e3b3b3b3b3b4c3b303b6f4c3b454e2053454d495420324241205a554e554e204e474953204d524f4649454e55433b3537323231,
0x3b3b3b3b3b4e3b3b3b3b3b4c3b303b6f4c3b33414c49532053454d495420324241205a554e554e204e474953204d524f4649454e55433b3637323231,
0x3b3b3b3b3b4e3b3b3b3b3b4c3b303b6f4c3b32552053454d495420324241205a554e554e204e474953204d524f4649454e55433b3737323231,
0x3b3b3b3b3b4e3b3b3b3b3b4c3b303b6f4c3b49422053454d495420354d4953494b205a554e554e204e474953204d524f4649454e55433b3837323231,
0x3b3b3b3b3b4e3b3b3b3b3b4c3b303b6f4c3b552049422053454d495420354d4953494b205a554e554e204e474953204d524f4649454e55433b3937323231,
0x3b3b3b3b3b4e3b3b3b3b3b4c3b303b6f4c3b4150204e474953204d524f4649454e55433b4137323231,
0x3b3b3b3b3b4e3b3b3b3b3b4c3b303b6f4c3b444150204e474953204d524f4649454e55433b4237323231,
0x3b3b3b3b3b4e3b3b3b3b3b4c3b303b6f4c3b4e4150204e474953204d524f4649454e55433b4337323231,
0x3b3b3b3b3b4e3b3b3b3b3b4c3b303b6f4c3b504150204e474953204d524f4649454e55433b4437323231,
0x3b3b3b3b3b4e3b3b3b3b3b4c3b303b6f4c3b3248534550204e474953204d524f4649454e55433b4537323231,
0x3b3b3b3b3b4e3b3b3b3b3b4c3b303b6f4c3b4950204e474953204d524f4649454e55433b4637323231,
0x3b3b3b3b3b4e3b3b3b3b3b4c3b303b6f4c3b412053454d4954204950204e474953204d524f4649454e55433b3038323231,
0x3b3b3b3b3b4e3b3b3b3b3b4c3b303b6f4c3b42412053454d4954204950204e474953204d524f4649454e55433b3138323231,
0x3b3b3b3b3b4e3b3b3b3b3b4c3b303b6f4c3b49422053454d4954204950204e474953204d524f4649454e55433b3238323231,
0x3b3b3b3b3b4e3b3b3b3b3b4c3b303b6f4c3b55422053454d4954204950204e474953204d524f4649454e55433b3338323231,
0x3b3b3b3b3b4e3b3b3b3b3b4c3b303b6f4c3b452053454d4954204950204e474953204d524f4649454e55433b3438323231,
0x3b3b3b3b3b4e3b3b3b3b3b4c3b303b6f4c3b492053454d4954204950204e474953204d524f4649454e55433b3538323231,
0x3b3b3b3b3b4e3b3b3b3b3b4c3b303b6f4c3b42492053454d4954204950204e474953204d524f4649454e55433b3638323231,
0x3b3b3b3b3b4e3b3b3b3b3b4c3b303b6f4c3b552053454d4954204950204e474953204d524f4649454e55433b3738323231,
0x3b3b3b3b3b4e3b3b3b3b3b4c3b303b6f4c3b32552053454d4954204950204e474953204d524f4649454e55433b3838323231,
0x3b3b3b3b3b4e3b3b3b3b3b4c3b303b6f4c3b495020474e4953534f5243204950204e474953204d524f4649454e55433b3938323231,
0x3b3b3b3b3b4e3b3b3b3b3b4c3b303b6f4c3b4749524950204e474953204d524f4649454e55433b4138323231,
0x3b3b3b3b3b4e3b3b3b3b3b4c3b303b6f4c3b4c414b2053454d4954204749524950204e474953204d524f4649454e55433b4238323231,
0x3b3b3b3b3b4e3b3b3b3b3b4c3b303b6f4c3b44552053454d4954204749524950204e474953204d524f4649454e55433b4338323231,
0x3b3b3b3b3b4e3b3b3b3b3b4c3b303b6f4c3b415a2053454d4954204749524950204e474953204d524f4649454e55433b4438323231,
0x3b3b3b3b3b4e3b3b3b3b3b4c3b303b6f4c3b474952495020474e49534f50504f204749524950204e474953204d524f4649454e55433b4538323231,
0x3b3b3b3b3b4e3b3b3b3b3b4c3b303b6f4c3b4152204e474953204d524f4649454e55433b4638323231,
0x3b3b3b3b3b4e3b3b3b3b3b4c3b303b6f4c3b424152204e474953204d524f4649454e55433b3039323231,
0x3b3b3b3b3b4e3b3b3b3b3b4c3b303b6f4c3b4952204e474953204d524f4649454e55433b3139323231,
0x3b3b3b3b3b4e3b3b3b3b3b4c3b303b6f4c3b5552204e474953204d524f4649454e55433b3239323231,
0x3b3b3b3b3b4e3b3b3b3b3b4c3b303b6f4c3b4153204e474953204d524f4649454e55433b3339323231,
0x3b3b3b3b3b4e3b3b3b3b3b4c3b303b6f4c3b554c4c4954554e20474153204e474953204d524f4649454e55433b3439323231,
0x3b3b3b3b3b4e3b3b3b3b3b4c3b303b6f4c3b474153204e474953204d524f4649454e55433b3539323231,
0x3b3b3b3b3b4e3b3b3b3b3b4c3b303b6f4c3b412053454d495420474153204e474953204d524f4649454e55433b3639323231,
0x3b3b3b3b3b4e3b3b3b3b3b4c3b303b6f4c3b55442053454d495420474153204e474953204d524f4649454e55433b3739323231,
0x3b3b3b3b3b4e3b3b3b3b3b4c3b303b6f4c3b4255442053454d495420474153204e474953204d524f4649454e55433b3839323231,
0x3b3b3b3b3b4e3b3b3b3b3b4c3b303b6f4c3b41482053454d495420474153204e474953204d524f4649454e55433b3939323231,
0x3b3b3b3b3b4e3b3b3b3b3b4c3b303b6f4c3b4b414b2053454d495420474153204e474953204d524f4649454e55433b4139323231,
0x3b3b3b3b3b4e3b3b3b3b3b4c3b303b6f4c3b52554b2053454d495420474153204e474953204d524f4649454e55433b4239323231,
0x3b3b3b3b3b4e3b3b3b3b3b4c3b303b6f4c3b4d554c2053454d495420474153204e474953204d524f4649454e55433b4339323231,
0x3b3b3b3b3b4e3b3b3b3b3b4c3b303b6f4c3b494d2053454d495420474153204e474953204d524f4649454e55433b4439323231,
0x3b3b3b3b3b4e3b3b3b3b3b4c3b303b6f4c3b4e554e2053454d495420474153204e474953204d524f4649454e55433b4539323231,
0x3b3b3b3b3b4e3b3b3b3b3b4c3b303b6f4c3b4c41532053454d495420474153204e474953204d524f4649454e55433b4639323231,
0x3b3b3b3b3b4e3b3b3b3b3b4c3b303b6f4c3b444948532053454d495420474153204e474953204d524f4649454e55433b3041323231,
0x3b3b3b3b3b4e3b3b3b3b3b4c3b303b6f4c3b4241542053454d495420474153204e474953204d524f4649454e55433b3141323231,
0x3b3b3b3b3b4e3b3b3b3b3b4c3b303b6f4c3b32552053454d495420474153204e474953204d524f4649454e55433b3241323231,
0x3b3b3b3b3b4e3b3b3b3b3b4c3b303b6f4c3b42552053454d495420474153204e474953204d524f4649454e55433b3341323231,
0x3b3b3b3b3b4e3b3b3b3b3b4c3b303b6f4c3b4d552053454d495420474153204e474953204d524f4649454e55433b3441323231,
0x3b3b3b3b3b4e3b3b3b3b3b4c3b303b6f4c3b52552053454d495420474153204e474953204d524f4649454e55433b3541323231,
0x3b3b3b3b3b4e3b3b3b3b3b4c3b303b6f4c3b4853552053454d495420474153204e474953204d524f4649454e55433b3641323231,
0x3b3b3b3b3b4e3b3b3b3b3b4c3b303b6f4c3b474153205245564f20474153204e474953204d524f4649454e55433b3741323231,
0x3b3b3b3b3b4e3b3b3b3b3b4c3b303b6f4c3b554e554720474153204e474953204d524f4649454e55433b3841323231,
0x3b3b3b3b3b4e3b3b3b3b3b4c3b303b6f4c3b4c4153204e474953204d524f4649454e55433b3941323231,
0x3b3b3b3b3b4e3b3b3b3b3b4c3b303b6f4c3b324853412053454d495420424147414c204c4153204e474953204d524f4649454e55433b4141323231,
0x3b3b3b3b3b4e3b3b3b3b3b4c3b303b6f4c3b3241474e4153204e474953204d524f4649454e55433b4241323231,
0x3b3b3b3b3b4e3b3b3b3b3b4c3b303b6f4c3b524153204e474953204d524f4649454e55433b4341323231,
0x3b3b3b3b3b4e3b3b3b3b3b4c3b303b6f4c3b414853204e474953204d524f4649454e55433b4441323231,
0x3b3b3b3b3b4e3b3b3b3b3b4c3b303b6f4c3b33414853204e474953204d524f4649454e55433b4541323231,
0x3b3b3b3b3b4e3b3b3b3b3b4c3b303b6f4c3b412053454d49542033414853204e474953204d524f4649454e55433b4641323231,
0x3b3b3b3b3b4e3b3b3b3b3b4c3b303b6f4c3b4441422053454d49542033414853204e474953204d524f4649454e55433b3042323231,
0x3b3b3b3b3b4e3b3b3b3b3b4c3b303b6f4c3b485349472053454d49542033414853204e474953204d524f4649454e55433b3142323231,
0x3b3b3b3b3b4e3b3b3b3b3b4c3b303b6f4c3b454e2053454d49542033414853204e474953204d524f4649454e55433b3242323231,
0x3b3b3b3b3b4e3b3b3b3b3b4c3b303b6f4c3b325548532053454d49542033414853204e474953204d524f4649454e55433b3342323231,
0x3b3b3b3b3b4e3b3b3b3b3b4c3b303b6f4c3b5255542053454d49542033414853204e474953204d524f4649454e55433b3442323231,
0x3b3b3b3b3b4e3b3b3b3b3b4c3b303b6f4c3b552053454d49542033414853204e474953204d524f4649454e55433b3542323231,
0x3b3b3b3b3b4e3b3b3b3b3b4c3b303b6f4c3b412053554c5020552053454d49542033414853204e474953204d524f4649454e55433b3642323231,
0x3b3b3b3b3b4e3b3b3b3b3b4c3b303b6f4c3b36414853204e474953204d524f4649454e55433b3742323231,
0x3b3b3b3b3b4e3b3b3b3b3b4c3b303b6f4c3b3642414853204e474953204d524f4649454e55433b3842323231,
0x3b3b3b3b3b4e3b3b3b3b3b4c3b303b6f4c3b3252414853204e474953204d524f4649454e55433b3942323231,
0x3b3b3b3b3b4e3b3b3b3b3b4c3b303b6f4c3b454853204e474953204d524f4649454e55433b4142323231,
0x3b3b3b3b3b4e3b3b3b3b3b4c3b303b6f4c3b554820454853204e474953204d524f4649454e55433b4242323231]

/-- src/u5e/props/UnicodeData.txt lines 20993-21248. -/
def rawUcd82 : List Nat := [
0x3b3b3b3b3b4e3b3b3b3b3b4c3b303b6f4c3b524147205245564f2052414720444147205245564f2044414720454853205245564f20454853204e474953204d524f4649454e55433b4342323231,
0x3b3b3b3b3b4e3b3b3b3b3b4c3b303b6f4c3b524147205245564f2052414720424154205245564f2042415420454853205245564f20454853204e474953204d524f4649454e55433b4442323231,
0x3b3b3b3b3b4e3b3b3b3b3b4c3b303b6f4c3b3947454853204e474953204d524f4649454e55433b4542323231,
0x3b3b3b3b3b4e3b3b3b3b3b4c3b303b6f4c3b4e454853204e474953204d524f4649454e55433b4642323231,
0x3b3b3b3b3b4e3b3b3b3b3b4c3b303b6f4c3b4853454853204e474953204d524f4649454e55433b3043323231,
0x3b3b3b3b3b4e3b3b3b3b3b4c3b303b6f4c3b324853454853204e474953204d524f4649454e55433b3143323231,
0x3b3b3b3b3b4e3b3b3b3b3b4c3b303b6f4c3b4d414c4853454853204e474953204d524f4649454e55433b3243323231,
0x3b3b3b3b3b4e3b3b3b3b3b4c3b303b6f4c3b44494853204e474953204d524f4649454e55433b3343323231,
0x3b3b3b3b3b4e3b3b3b3b3b4c3b303b6f4c3b412053454d49542044494853204e474953204d524f4649454e55433b3443323231,
0x3b3b3b3b3b4e3b3b3b3b3b4c3b303b6f4c3b4d492053454d49542044494853204e474953204d524f4649454e55433b3543323231,
0x3b3b3b3b3b4e3b3b3b3b3b4c3b303b6f4c3b4d494853204e474953204d524f4649454e55433b3643323231,
0x3b3b3b3b3b4e3b3b3b3b3b4c3b303b6f4c3b412053454d4954204d494853204e474953204d524f4649454e55433b3743323231,
0x3b3b3b3b3b4e3b3b3b3b3b4c3b303b6f4c3b4c41422053454d4954204d494853204e474953204d524f4649454e55433b3843323231,
0x3b3b3b3b3b4e3b3b3b3b3b4c3b303b6f4c3b47554c55422053454d4954204d494853204e474953204d524f4649454e55433b3943323231,
0x3b3b3b3b3b4e3b3b3b3b3b4c3b303b6f4c3b4e49442053454d4954204d494853204e474953204d524f4649454e55433b4143323231,
0x3b3b3b3b3b4e3b3b3b3b3b4c3b303b6f4c3b5241472053454d4954204d494853204e474953204d524f4649454e55433b4243323231,
0x3b3b3b3b3b4e3b3b3b3b3b4c3b303b6f4c3b4947492053454d4954204d494853204e474953204d524f4649454e55433b4343323231,
0x3b3b3b3b3b4e3b3b3b3b3b4c3b303b6f4c3b554e5547204947492053454d4954204d494853204e474953204d524f4649454e55433b4443323231,
0x3b3b3b3b3b4e3b3b3b3b3b4c3b303b6f4c3b32554853554b2053454d4954204d494853204e474953204d524f4649454e55433b4543323231,
0x3b3b3b3b3b4e3b3b3b3b3b4c3b303b6f4c3b4c554c2053454d4954204d494853204e474953204d524f4649454e55433b4643323231,
0x3b3b3b3b3b4e3b3b3b3b3b4c3b303b6f4c3b47554d2053454d4954204d494853204e474953204d524f4649454e55433b3044323231,
0x3b3b3b3b3b4e3b3b3b3b3b4c3b303b6f4c3b4c41532053454d4954204d494853204e474953204d524f4649454e55433b3144323231,
0x3b3b3b3b3b4e3b3b3b3b3b4c3b303b6f4c3b47494e494853204e474953204d524f4649454e55433b3244323231,
0x3b3b3b3b3b4e3b3b3b3b3b4c3b303b6f4c3b52494853204e474953204d524f4649454e55433b3344323231,
0x3b3b3b3b3b4e3b3b3b3b3b4c3b303b6f4c3b554e45542052494853204e474953204d524f4649454e55433b3444323231,
0x3b3b3b3b3b4e3b3b3b3b3b4c3b303b6f4c3b525542205245564f205255422052494853205245564f2052494853204e474953204d524f4649454e55433b3544323231,
0x3b3b3b3b3b4e3b3b3b3b3b4c3b303b6f4c3b4154494853204e474953204d524f4649454e55433b3644323231,
0x3b3b3b3b3b4e3b3b3b3b3b4c3b303b6f4c3b554853204e474953204d524f4649454e55433b3744323231,
0x3b3b3b3b3b4e3b3b3b3b3b4c3b303b6f4c3b554853204445545245564e49205245564f20554853204e474953204d524f4649454e55433b3844323231,
0x3b3b3b3b3b4e3b3b3b3b3b4c3b303b6f4c3b32554853204e474953204d524f4649454e55433b3944323231,
0x3b3b3b3b3b4e3b3b3b3b3b4c3b303b6f4c3b525542554853204e474953204d524f4649454e55433b4144323231,
0x3b3b3b3b3b4e3b3b3b3b3b4c3b303b6f4c3b4953204e474953204d524f4649454e55433b4244323231,
0x3b3b3b3b3b4e3b3b3b3b3b4c3b303b6f4c3b554e5547204953204e474953204d524f4649454e55433b4344323231,
0x3b3b3b3b3b4e3b3b3b3b3b4c3b303b6f4c3b474953204e474953204d524f4649454e55433b4444323231,
0x3b3b3b3b3b4e3b3b3b3b3b4c3b303b6f4c3b34474953204e474953204d524f4649454e55433b4544323231,
0x3b3b3b3b3b4e3b3b3b3b3b4c3b303b6f4c3b325548532034474953205245564f2034474953204e474953204d524f4649454e55433b4644323231,
0x3b3b3b3b3b4e3b3b3b3b3b4c3b303b6f4c3b324b4953204e474953204d524f4649454e55433b3045323231,
0x3b3b3b3b3b4e3b3b3b3b3b4c3b303b6f4c3b33414c4953204e474953204d524f4649454e55433b3145323231,
0x3b3b3b3b3b4e3b3b3b3b3b4c3b303b6f4c3b5553204e474953204d524f4649454e55433b3245323231,
0x3b3b3b3b3b4e3b3b3b3b3b4c3b303b6f4c3b5553205245564f205553204e474953204d524f4649454e55433b3345323231,
0x3b3b3b3b3b4e3b3b3b3b3b4c3b303b6f4c3b445553204e474953204d524f4649454e55433b3445323231,
0x3b3b3b3b3b4e3b3b3b3b3b4c3b303b6f4c3b32445553204e474953204d524f4649454e55433b3545323231,
0x3b3b3b3b3b4e3b3b3b3b3b4c3b303b6f4c3b5255485553204e474953204d524f4649454e55433b3645323231,
0x3b3b3b3b3b4e3b3b3b3b3b4c3b303b6f4c3b4d5553204e474953204d524f4649454e55433b3745323231,
0x3b3b3b3b3b4e3b3b3b3b3b4c3b303b6f4c3b4853414d5553204e474953204d524f4649454e55433b3845323231,
0x3b3b3b3b3b4e3b3b3b3b3b4c3b303b6f4c3b525553204e474953204d524f4649454e55433b3945323231,
0x3b3b3b3b3b4e3b3b3b3b3b4c3b303b6f4c3b39525553204e474953204d524f4649454e55433b4145323231,
0x3b3b3b3b3b4e3b3b3b3b3b4c3b303b6f4c3b4154204e474953204d524f4649454e55433b4245323231,
0x3b3b3b3b3b4e3b3b3b3b3b4c3b303b6f4c3b4b53495245545341204154204e474953204d524f4649454e55433b4345323231,
0x3b3b3b3b3b4e3b3b3b3b3b4c3b303b6f4c3b49482053454d4954204154204e474953204d524f4649454e55433b4445323231,
0x3b3b3b3b3b4e3b3b3b3b3b4c3b303b6f4c3b494d2053454d4954204154204e474953204d524f4649454e55433b4545323231,
0x3b3b3b3b3b4e3b3b3b3b3b4c3b303b6f4c3b554e5547204154204e474953204d524f4649454e55433b4645323231,
0x3b3b3b3b3b4e3b3b3b3b3b4c3b303b6f4c3b424154204e474953204d524f4649454e55433b3046323231,
0x3b3b3b3b3b4e3b3b3b3b3b4c3b303b6f4c3b48534944205245564f204853494420494e205245564f20494e20424154205245564f20424154204e474953204d524f4649454e55433b3146323231,
0x3b3b3b3b3b4e3b3b3b3b3b4c3b303b6f4c3b4445524155515320424154204e474953204d524f4649454e55433b3246323231,
0x3b3b3b3b3b4e3b3b3b3b3b4c3b303b6f4c3b474154204e474953204d524f4649454e55433b3346323231,
0x3b3b3b3b3b4e3b3b3b3b3b4c3b303b6f4c3b49422053454d495420474154204e474953204d524f4649454e55433b3446323231,
0x3b3b3b3b3b4e3b3b3b3b3b4c3b303b6f4c3b4455472053454d495420474154204e474953204d524f4649454e55433b3546323231,
0x3b3b3b3b3b4e3b3b3b3b3b4c3b303b6f4c3b4548532053454d495420474154204e474953204d524f4649454e55433b3646323231,
0x3b3b3b3b3b4e3b3b3b3b3b4c3b303b6f4c3b5548532053454d495420474154204e474953204d524f4649454e55433b3746323231,
0x3b3b3b3b3b4e3b3b3b3b3b4c3b303b6f4c3b324755542053454d495420474154204e474953204d524f4649454e55433b3846323231,
0x3b3b3b3b3b4e3b3b3b3b3b4c3b303b6f4c3b44552053454d495420474154204e474953204d524f4649454e55433b3946323231,
0x3b3b3b3b3b4e3b3b3b3b3b4c3b303b6f4c3b344b4154204e474953204d524f4649454e55433b4146323231,
0x3b3b3b3b3b4e3b3b3b3b3b4c3b303b6f4c3b524154204e474953204d524f4649454e55433b4246323231,
0x3b3b3b3b3b4e3b3b3b3b3b4c3b303b6f4c3b4554204e474953204d524f4649454e55433b4346323231,
0x3b3b3b3b3b4e3b3b3b3b3b4c3b303b6f4c3b554e5547204554204e474953204d524f4649454e55433b4446323231,
0x3b3b3b3b3b4e3b3b3b3b3b4c3b303b6f4c3b4954204e474953204d524f4649454e55433b4546323231,
0x3b3b3b3b3b4e3b3b3b3b3b4c3b303b6f4c3b554e4554204954204e474953204d524f4649454e55433b4646323231,
0x3b3b3b3b3b4e3b3b3b3b3b4c3b303b6f4c3b4c4954204e474953204d524f4649454e55433b3030333231,
0x3b3b3b3b3b4e3b3b3b3b3b4c3b303b6f4c3b524954204e474953204d524f4649454e55433b3130333231,
0x3b3b3b3b3b4e3b3b3b3b3b4c3b303b6f4c3b344b41542053454d495420524954204e474953204d524f4649454e55433b3230333231,
0x3b3b3b3b3b4e3b3b3b3b3b4c3b303b6f4c3b524954205245564f20524954204e474953204d524f4649454e55433b3330333231,
0x3b3b3b3b3b4e3b3b3b3b3b4c3b303b6f4c3b524147205245564f2052414720444147205245564f2044414720524954205245564f20524954204e474953204d524f4649454e55433b3430333231,
0x3b3b3b3b3b4e3b3b3b3b3b4c3b303b6f4c3b5554204e474953204d524f4649454e55433b3530333231,
0x3b3b3b3b3b4e3b3b3b3b3b4c3b303b6f4c3b32475554204e474953204d524f4649454e55433b3630333231,
0x3b3b3b3b3b4e3b3b3b3b3b4c3b303b6f4c3b4b5554204e474953204d524f4649454e55433b3730333231,
0x3b3b3b3b3b4e3b3b3b3b3b4c3b303b6f4c3b4d5554204e474953204d524f4649454e55433b3830333231,
0x3b3b3b3b3b4e3b3b3b3b3b4c3b303b6f4c3b525554204e474953204d524f4649454e55433b3930333231,
0x3b3b3b3b3b4e3b3b3b3b3b4c3b303b6f4c3b415a205245564f20415a20525554205245564f20525554204e474953204d524f4649454e55433b4130333231,
0x3b3b3b3b3b4e3b3b3b3b3b4c3b303b6f4c3b55204e474953204d524f4649454e55433b4230333231,
0x3b3b3b3b3b4e3b3b3b3b3b4c3b303b6f4c3b4455472055204e474953204d524f4649454e55433b4330333231,
0x3b3b3b3b3b4e3b3b3b3b3b4c3b303b6f4c3b5520552055204e474953204d524f4649454e55433b4430333231,
0x3b3b3b3b3b4e3b3b3b3b3b4c3b303b6f4c3b524147205245564f20524147204150205245564f2041502055205245564f2055204e474953204d524f4649454e55433b4530333231,
0x3b3b3b3b3b4e3b3b3b3b3b4c3b303b6f4c3b525553205245564f205255532055205245564f2055204e474953204d524f4649454e55433b4630333231,
0x3b3b3b3b3b4e3b3b3b3b3b4c3b303b6f4c3b44455352455645522055205245564f20444553524556455220552055205245564f2055204e474953204d524f4649454e55433b3031333231,
0x3b3b3b3b3b4e3b3b3b3b3b4c3b303b6f4c3b3255204e474953204d524f4649454e55433b3131333231,
0x3b3b3b3b3b4e3b3b3b3b3b4c3b303b6f4c3b4255204e474953204d524f4649454e55433b3231333231,
0x3b3b3b3b3b4e3b3b3b3b3b4c3b303b6f4c3b4455204e474953204d524f4649454e55433b3331333231,
0x3b3b3b3b3b4e3b3b3b3b3b4c3b303b6f4c3b32554853554b204455204e474953204d524f4649454e55433b3431333231,
0x3b3b3b3b3b4e3b3b3b3b3b4c3b303b6f4c3b4441422053454d4954204455204e474953204d524f4649454e55433b3531333231,
0x3b3b3b3b3b4e3b3b3b3b3b4c3b303b6f4c3b494d2053454d4954204455204e474953204d524f4649454e55433b3631333231,
0x3b3b3b3b3b4e3b3b3b3b3b4c3b303b6f4c3b552053554c5020552053554c5020552053454d4954204455204e474953204d524f4649454e55433b3731333231,
0x3b3b3b3b3b4e3b3b3b3b3b4c3b303b6f4c3b554e554720552053554c5020552053554c5020552053454d4954204455204e474953204d524f4649454e55433b3831333231,
0x3b3b3b3b3b4e3b3b3b3b3b4c3b303b6f4c3b554e5547204455204e474953204d524f4649454e55433b3931333231,
0x3b3b3b3b3b4e3b3b3b3b3b4c3b303b6f4c3b47494853454853204455204e474953204d524f4649454e55433b4131333231,
0x3b3b3b3b3b4e3b3b3b3b3b4c3b303b6f4c3b4441422053454d49542047494853454853204455204e474953204d524f4649454e55433b4231333231,
0x3b3b3b3b3b4e3b3b3b3b3b4c3b303b6f4c3b47554455204e474953204d524f4649454e55433b4331333231,
0x3b3b3b3b3b4e3b3b3b3b3b4c3b303b6f4c3b4d55204e474953204d524f4649454e55433b4431333231,
0x3b3b3b3b3b4e3b3b3b3b3b4c3b303b6f4c3b424147414c2053454d4954204d55204e474953204d524f4649454e55433b4531333231,
0x3b3b3b3b3b4e3b3b3b3b3b4c3b303b6f4c3b41442053554c5020454d2053454d4954204d55204e474953204d524f4649454e55433b4631333231,
0x3b3b3b3b3b4e3b3b3b3b3b4c3b303b6f4c3b334148532053454d4954204d55204e474953204d524f4649454e55433b3032333231,
0x3b3b3b3b3b4e3b3b3b3b3b4c3b303b6f4c3b552053454d4954204d55204e474953204d524f4649454e55433b3132333231,
0x3b3b3b3b3b4e3b3b3b3b3b4c3b303b6f4c3b4e49424d55204e474953204d524f4649454e55433b3232333231,
0x3b3b3b3b3b4e3b3b3b3b3b4c3b303b6f4c3b4d554d55204e474953204d524f4649454e55433b3332333231,
0x3b3b3b3b3b4e3b3b3b3b3b4c3b303b6f4c3b4c414b53414b2053454d4954204d554d55204e474953204d524f4649454e55433b3432333231,
0x3b3b3b3b3b4e3b3b3b3b3b4c3b303b6f4c3b41502053454d4954204d554d55204e474953204d524f4649454e55433b3532333231,
0x3b3b3b3b3b4e3b3b3b3b3b4c3b303b6f4c3b4e55204e474953204d524f4649454e55433b3632333231,
0x3b3b3b3b3b4e3b3b3b3b3b4c3b303b6f4c3b554e5547204e55204e474953204d524f4649454e55433b3732333231,
0x3b3b3b3b3b4e3b3b3b3b3b4c3b303b6f4c3b5255204e474953204d524f4649454e55433b3832333231,
0x3b3b3b3b3b4e3b3b3b3b3b4c3b303b6f4c3b525520474e4953534f5243205255204e474953204d524f4649454e55433b3932333231,
0x3b3b3b3b3b4e3b3b3b3b3b4c3b303b6f4c3b47494853454853205255204e474953204d524f4649454e55433b4132333231,
0x3b3b3b3b3b4e3b3b3b3b3b4c3b303b6f4c3b325255204e474953204d524f4649454e55433b4232333231,
0x3b3b3b3b3b4e3b3b3b3b3b4c3b303b6f4c3b41482053554c5020412053454d495420325255204e474953204d524f4649454e55433b4332333231,
0x3b3b3b3b3b4e3b3b3b3b3b4c3b303b6f4c3b414e2053554c5020412053454d495420325255204e474953204d524f4649454e55433b4432333231,
0x3b3b3b3b3b4e3b3b3b3b3b4c3b303b6f4c3b4c412053454d495420325255204e474953204d524f4649454e55433b4532333231,
0x3b3b3b3b3b4e3b3b3b3b3b4c3b303b6f4c3b41482053454d495420325255204e474953204d524f4649454e55433b4632333231,
0x3b3b3b3b3b4e3b3b3b3b3b4c3b303b6f4c3b4e554e2053454d495420325255204e474953204d524f4649454e55433b3033333231,
0x3b3b3b3b3b4e3b3b3b3b3b4c3b303b6f4c3b32552053454d495420325255204e474953204d524f4649454e55433b3133333231,
0x3b3b3b3b3b4e3b3b3b3b3b4c3b303b6f4c3b4853412053554c502032552053454d495420325255204e474953204d524f4649454e55433b3233333231,
0x3b3b3b3b3b4e3b3b3b3b3b4c3b303b6f4c3b49422053554c502032552053454d495420325255204e474953204d524f4649454e55433b3333333231,
0x3b3b3b3b3b4e3b3b3b3b3b4c3b303b6f4c3b345255204e474953204d524f4649454e55433b3433333231,
0x3b3b3b3b3b4e3b3b3b3b3b4c3b303b6f4c3b495255204e474953204d524f4649454e55433b3533333231,
0x3b3b3b3b3b4e3b3b3b3b3b4c3b303b6f4c3b33495255204e474953204d524f4649454e55433b3633333231,
0x3b3b3b3b3b4e3b3b3b3b3b4c3b303b6f4c3b555255204e474953204d524f4649454e55433b3733333231,
0x3b3b3b3b3b4e3b3b3b3b3b4c3b303b6f4c3b412053454d495420555255204e474953204d524f4649454e55433b3833333231,
0x3b3b3b3b3b4e3b3b3b3b3b4c3b303b6f4c3b4241474853412053454d495420555255204e474953204d524f4649454e55433b3933333231,
0x3b3b3b3b3b4e3b3b3b3b3b4c3b303b6f4c3b5241422053454d495420555255204e474953204d524f4649454e55433b4133333231,
0x3b3b3b3b3b4e3b3b3b3b3b4c3b303b6f4c3b4e55442053454d495420555255204e474953204d524f4649454e55433b4233333231,
0x3b3b3b3b3b4e3b3b3b3b3b4c3b303b6f4c3b41472053454d495420555255204e474953204d524f4649454e55433b4333333231,
0x3b3b3b3b3b4e3b3b3b3b3b4c3b303b6f4c3b4c41472053454d495420555255204e474953204d524f4649454e55433b4433333231,
0x3b3b3b3b3b4e3b3b3b3b3b4c3b303b6f4c3b554e455420324e41472053454d495420555255204e474953204d524f4649454e55433b4533333231,
0x3b3b3b3b3b4e3b3b3b3b3b4c3b303b6f4c3b5241472053454d495420555255204e474953204d524f4649454e55433b4633333231,
0x3b3b3b3b3b4e3b3b3b3b3b4c3b303b6f4c3b55472053454d495420555255204e474953204d524f4649454e55433b3034333231,
0x3b3b3b3b3b4e3b3b3b3b3b4c3b303b6f4c3b41482053454d495420555255204e474953204d524f4649454e55433b3134333231,
0x3b3b3b3b3b4e3b3b3b3b3b4c3b303b6f4c3b4947492053454d495420555255204e474953204d524f4649454e55433b3234333231,
0x3b3b3b3b3b4e3b3b3b3b3b4c3b303b6f4c3b4d492053454d495420555255204e474953204d524f4649454e55433b3334333231,
0x3b3b3b3b3b4e3b3b3b3b3b4c3b303b6f4c3b4853492053454d495420555255204e474953204d524f4649454e55433b3434333231,
0x3b3b3b3b3b4e3b3b3b3b3b4c3b303b6f4c3b494b2053454d495420555255204e474953204d524f4649454e55433b3534333231,
0x3b3b3b3b3b4e3b3b3b3b3b4c3b303b6f4c3b4d554c2053454d495420555255204e474953204d524f4649454e55433b3634333231,
0x3b3b3b3b3b4e3b3b3b3b3b4c3b303b6f4c3b4e494d2053454d495420555255204e474953204d524f4649454e55433b3734333231,
0x3b3b3b3b3b4e3b3b3b3b3b4c3b303b6f4c3b41502053454d495420555255204e474953204d524f4649454e55433b3834333231,
0x3b3b3b3b3b4e3b3b3b3b3b4c3b303b6f4c3b4548532053454d495420555255204e474953204d524f4649454e55433b3934333231,
0x3b3b3b3b3b4e3b3b3b3b3b4c3b303b6f4c3b344749532053454d495420555255204e474953204d524f4649454e55433b4134333231,
0x3b3b3b3b3b4e3b3b3b3b3b4c3b303b6f4c3b55542053454d495420555255204e474953204d524f4649454e55433b4234333231,
0x3b3b3b3b3b4e3b3b3b3b3b4c3b303b6f4c3b4455472053554c5020552053454d495420555255204e474953204d524f4649454e55433b4334333231,
0x3b3b3b3b3b4e3b3b3b3b3b4c3b303b6f4c3b44552053454d495420555255204e474953204d524f4649454e55433b4434333231,
0x3b3b3b3b3b4e3b3b3b3b3b4c3b303b6f4c3b41445552552053454d495420555255204e474953204d524f4649454e55433b4534333231,
0x3b3b3b3b3b4e3b3b3b3b3b4c3b303b6f4c3b4144555255204e474953204d524f4649454e55433b4634333231,
0x3b3b3b3b3b4e3b3b3b3b3b4c3b303b6f4c3b552053454d4954204144555255204e474953204d524f4649454e55433b3035333231,
0x3b3b3b3b3b4e3b3b3b3b3b4c3b303b6f4c3b485355204e474953204d524f4649454e55433b3135333231,
0x3b3b3b3b3b4e3b3b3b3b3b4c3b303b6f4c3b412053454d495420485355204e474953204d524f4649454e55433b3235333231,
0x3b3b3b3b3b4e3b3b3b3b3b4c3b303b6f4c3b554b2053454d495420485355204e474953204d524f4649454e55433b3335333231,
0x3b3b3b3b3b4e3b3b3b3b3b4c3b303b6f4c3b52554b2053454d495420485355204e474953204d524f4649454e55433b3435333231,
0x3b3b3b3b3b4e3b3b3b3b3b4c3b303b6f4c3b344b41542053454d495420485355204e474953204d524f4649454e55433b3535333231,
0x3b3b3b3b3b4e3b3b3b3b3b4c3b303b6f4c3b58485355204e474953204d524f4649454e55433b3635333231,
0x3b3b3b3b3b4e3b3b3b3b3b4c3b303b6f4c3b32485355204e474953204d524f4649454e55433b3735333231,
0x3b3b3b3b3b4e3b3b3b3b3b4c3b303b6f4c3b584d55485355204e474953204d524f4649454e55433b3835333231,
0x3b3b3b3b3b4e3b3b3b3b3b4c3b303b6f4c3b494b555455204e474953204d524f4649454e55433b3935333231,
0x3b3b3b3b3b4e3b3b3b3b3b4c3b303b6f4c3b335a55204e474953204d524f4649454e55433b4135333231,
0x3b3b3b3b3b4e3b3b3b3b3b4c3b303b6f4c3b4c414b53414b2053454d495420335a55204e474953204d524f4649454e55433b4235333231,
0x3b3b3b3b3b4e3b3b3b3b3b4c3b303b6f4c3b555a55204e474953204d524f4649454e55433b4335333231,
0x3b3b3b3b3b4e3b3b3b3b3b4c3b303b6f4c3b415a204e474953204d524f4649454e55433b4435333231,
0x3b3b3b3b3b4e3b3b3b3b3b4c3b303b6f4c3b554e455420415a204e474953204d524f4649454e55433b4535333231,
0x3b3b3b3b3b4e3b3b3b3b3b4c3b303b6f4c3b52554b2053454d4954204445524155515320415a204e474953204d524f4649454e55433b4635333231,
0x3b3b3b3b3b4e3b3b3b3b3b4c3b303b6f4c3b47415a204e474953204d524f4649454e55433b3036333231,
0x3b3b3b3b3b4e3b3b3b3b3b4c3b303b6f4c3b584d415a204e474953204d524f4649454e55433b3136333231,
0x3b3b3b3b3b4e3b3b3b3b3b4c3b303b6f4c3b32455a204e474953204d524f4649454e55433b3236333231,
0x3b3b3b3b3b4e3b3b3b3b3b4c3b303b6f4c3b495a204e474953204d524f4649454e55433b3336333231,
0x3b3b3b3b3b4e3b3b3b3b3b4c3b303b6f4c3b495a205245564f20495a204e474953204d524f4649454e55433b3436333231,
0x3b3b3b3b3b4e3b3b3b3b3b4c3b303b6f4c3b33495a204e474953204d524f4649454e55433b3536333231,
0x3b3b3b3b3b4e3b3b3b3b3b4c3b303b6f4c3b42495a204e474953204d524f4649454e55433b3636333231,
0x3b3b3b3b3b4e3b3b3b3b3b4c3b303b6f4c3b554e4554204142414b2042495a204e474953204d524f4649454e55433b3736333231,
0x3b3b3b3b3b4e3b3b3b3b3b4c3b303b6f4c3b47495a204e474953204d524f4649454e55433b3836333231,
0x3b3b3b3b3b4e3b3b3b3b3b4c3b303b6f4c3b325a495a204e474953204d524f4649454e55433b3936333231,
0x3b3b3b3b3b4e3b3b3b3b3b4c3b303b6f4c3b555a204e474953204d524f4649454e55433b4136333231,
0x3b3b3b3b3b4e3b3b3b3b3b4c3b303b6f4c3b35555a204e474953204d524f4649454e55433b4236333231,
0x3b3b3b3b3b4e3b3b3b3b3b4c3b303b6f4c3b412053454d49542035555a204e474953204d524f4649454e55433b4336333231,
0x3b3b3b3b3b4e3b3b3b3b3b4c3b303b6f4c3b525542555a204e474953204d524f4649454e55433b4436333231,
0x3b3b3b3b3b4e3b3b3b3b3b4c3b303b6f4c3b4d555a204e474953204d524f4649454e55433b4536333231,
0x3b3b3b3b3b4e3b3b3b3b3b4c3b303b6f4c3b4554494d414c452050414b204e474953204d524f4649454e55433b4636333231,
0x3b3b3b3b3b4e3b3b3b3b3b4c3b303b6f4c3b4e554e2053454d4954204241204e474953204d524f4649454e55433b3037333231,
0x3b3b3b3b3b4e3b3b3b3b3b4c3b303b6f4c3b412053454d495420324241204e474953204d524f4649454e55433b3137333231,
0x3b3b3b3b3b4e3b3b3b3b3b4c3b303b6f4c3b47554b2053454d49542052414d41204e474953204d524f4649454e55433b3237333231,
0x3b3b3b3b3b4e3b3b3b3b3b4c3b303b6f4c3b4853414d2053554c502032552053454d495420354d4953494b20474144204e474953204d524f4649454e55433b3337333231,
0x3b3b3b3b3b4e3b3b3b3b3b4c3b303b6f4c3b33474144204e474953204d524f4649454e55433b3437333231,
0x3b3b3b3b3b4e3b3b3b3b3b4c3b303b6f4c3b5548532053554c502048534944204e474953204d524f4649454e55433b3537333231,
0x3b3b3b3b3b4e3b3b3b3b3b4c3b303b6f4c3b4548532053454d495420425544204e474953204d524f4649454e55433b3637333231,
0x3b3b3b3b3b4e3b3b3b3b3b4c3b303b6f4c3b4455472053454d4954204e455a45204e474953204d524f4649454e55433b3737333231,
0x3b3b3b3b3b4e3b3b3b3b3b4c3b303b6f4c3b4548532053454d4954204e455a45204e474953204d524f4649454e55433b3837333231,
0x3b3b3b3b3b4e3b3b3b3b3b4c3b303b6f4c3b412053554c50204b414b2053554c50204e412053454d495420324147204e474953204d524f4649454e55433b3937333231,
0x3b3b3b3b3b4e3b3b3b3b3b4c3b303b6f4c3b324853412053454d495420324147204e474953204d524f4649454e55433b4137333231,
0x3b3b3b3b3b4e3b3b3b3b3b4c3b303b6f4c3b32324547204e474953204d524f4649454e55433b4237333231,
0x3b3b3b3b3b4e3b3b3b3b3b4c3b303b6f4c3b474947204e474953204d524f4649454e55433b4337333231,
0x3b3b3b3b3b4e3b3b3b3b3b4c3b303b6f4c3b48535548204e474953204d524f4649454e55433b4437333231,
0x3b3b3b3b3b4e3b3b3b3b3b4c3b303b6f4c3b4548534e412053454d495420414b204e474953204d524f4649454e55433b4537333231,
0x3b3b3b3b3b4e3b3b3b3b3b4c3b303b6f4c3b334853412053454d495420414b204e474953204d524f4649454e55433b4637333231,
0x3b3b3b3b3b4e3b3b3b3b3b4c3b303b6f4c3b485349472053454d495420414b204e474953204d524f4649454e55433b3038333231,
0x3b3b3b3b3b4e3b3b3b3b3b4c3b303b6f4c3b4455472053454d495420414b204e474953204d524f4649454e55433b3138333231,
0x3b3b3b3b3b4e3b3b3b3b3b4c3b303b6f4c3b324853412053454d49542049482053454d495420414b204e474953204d524f4649454e55433b3238333231,
0x3b3b3b3b3b4e3b3b3b3b3b4c3b303b6f4c3b4d554c2053454d495420414b204e474953204d524f4649454e55433b3338333231,
0x3b3b3b3b3b4e3b3b3b3b3b4c3b303b6f4c3b41502053454d495420414b204e474953204d524f4649454e55433b3438333231,
0x3b3b3b3b3b4e3b3b3b3b3b4c3b303b6f4c3b4c5548532053454d495420414b204e474953204d524f4649454e55433b3538333231,
0x3b3b3b3b3b4e3b3b3b3b3b4c3b303b6f4c3b55542053454d495420414b204e474953204d524f4649454e55433b3638333231,
0x3b3b3b3b3b4e3b3b3b3b3b4c3b303b6f4c3b3252552053454d495420414b204e474953204d524f4649454e55433b3738333231,
0x3b3b3b3b3b4e3b3b3b3b3b4c3b303b6f4c3b49472053454d495420424147414c204e474953204d524f4649454e55433b3838333231,
0x3b3b3b3b3b4e3b3b3b3b3b4c3b303b6f4c3b4441422053454d495420474948534548532032554c204e474953204d524f4649454e55433b3938333231,
0x3b3b3b3b3b4e3b3b3b3b3b4c3b303b6f4c3b4c414c2053554c5020324853452053454d49542032554c204e474953204d524f4649454e55433b4138333231,
0x3b3b3b3b3b4e3b3b3b3b3b4c3b303b6f4c3b5548532053454d49542032554c204e474953204d524f4649454e55433b4238333231,
0x3b3b3b3b3b4e3b3b3b3b3b4c3b303b6f4c3b4853454d204e474953204d524f4649454e55433b4338333231,
0x3b3b3b3b3b4e3b3b3b3b3b4c3b303b6f4c3b415a2053454d495420334853554d204e474953204d524f4649454e55433b4438333231,
0x3b3b3b3b3b4e3b3b3b3b3b4c3b303b6f4c3b34414e204e474953204d524f4649454e55433b4538333231,
0x3b3b3b3b3b4e3b3b3b3b3b4c3b303b6f4c3b4e494e204e474953204d524f4649454e55433b4638333231,
0x3b3b3b3b3b4e3b3b3b3b3b4c3b303b6f4c3b394e494e204e474953204d524f4649454e55433b3039333231,
0x3b3b3b3b3b4e3b3b3b3b3b4c3b303b6f4c3b4c41422053454d4954203241444e494e204e474953204d524f4649454e55433b3139333231,
0x3b3b3b3b3b4e3b3b3b3b3b4c3b303b6f4c3b49472053454d4954203241444e494e204e474953204d524f4649454e55433b3239333231,
0x3b3b3b3b3b4e3b3b3b3b3b4c3b303b6f4c3b53454552474544205954454e494e2044455441544f52203131554e204e474953204d524f4649454e55433b3339333231,
0x3b3b3b3b3b4e3b3b3b3b3b4c3b303b6f4c3b4b53495245545341203248534550204e474953204d524f4649454e55433b3439333231,
0x3b3b3b3b3b4e3b3b3b3b3b4c3b303b6f4c3b32524950204e474953204d524f4649454e55433b3539333231,
0x3b3b3b3b3b4e3b3b3b3b3b4c3b303b6f4c3b554e5547204947492053454d495420474153204e474953204d524f4649454e55433b3639333231,
0x3b3b3b3b3b4e3b3b3b3b3b4c3b303b6f4c3b324954204e474953204d524f4649454e55433b3739333231,
0x3b3b3b3b3b4e3b3b3b3b3b4c3b303b6f4c3b454d2053454d4954204d55204e474953204d524f4649454e55433b3839333231,
0x3b3b3b3b3b4e3b3b3b3b3b4c3b303b6f4c3b552055204e474953204d524f4649454e55433b3939333231,
0x3b3b3b3b3b4e3b323b3b3b3b4c3b303b6c4e3b485341204f5754204e47495320434952454d554e204d524f4649454e55433b3030343231,
0x3b3b3b3b3b4e3b333b3b3b3b4c3b303b6c4e3b485341204545524854204e47495320434952454d554e204d524f4649454e55433b3130343231,
0x3b3b3b3b3b4e3b343b3b3b3b4c3b303b6c4e3b4853412052554f46204e47495320434952454d554e204d524f4649454e55433b3230343231,
0x3b3b3b3b3b4e3b353b3b3b3b4c3b303b6c4e3b4853412045564946204e47495320434952454d554e204d524f4649454e55433b3330343231,
0x3b3b3b3b3b4e3b363b3b3b3b4c3b303b6c4e3b48534120584953204e47495320434952454d554e204d524f4649454e55433b3430343231,
0x3b3b3b3b3b4e3b373b3b3b3b4c3b303b6c4e3b485341204e45564553204e47495320434952454d554e204d524f4649454e55433b3530343231,
0x3b3b3b3b3b4e3b383b3b3b3b4c3b303b6c4e3b485341205448474945204e47495320434952454d554e204d524f4649454e55433b3630343231,
0x3b3b3b3b3b4e3b393b3b3b3b4c3b303b6c4e3b48534120454e494e204e47495320434952454d554e204d524f4649454e55433b3730343231,
0x3b3b3b3b3b4e3b333b3b3b3b4c3b303b6c4e3b48534944204545524854204e47495320434952454d554e204d524f4649454e55433b3830343231,
0x3b3b3b3b3b4e3b343b3b3b3b4c3b303b6c4e3b485349442052554f46204e47495320434952454d554e204d524f4649454e55433b3930343231,
0x3b3b3b3b3b4e3b353b3b3b3b4c3b303b6c4e3b485349442045564946204e47495320434952454d554e204d524f4649454e55433b4130343231,
0x3b3b3b3b3b4e3b363b3b3b3b4c3b303b6c4e3b4853494420584953204e47495320434952454d554e204d524f4649454e55433b4230343231,
0x3b3b3b3b3b4e3b373b3b3b3b4c3b303b6c4e3b48534944204e45564553204e47495320434952454d554e204d524f4649454e55433b4330343231,
0x3b3b3b3b3b4e3b383b3b3b3b4c3b303b6c4e3b48534944205448474945204e47495320434952454d554e204d524f4649454e55433b4430343231,
0x3b3b3b3b3b4e3b393b3b3b3b4c3b303b6c4e3b4853494420454e494e204e47495320434952454d554e204d524f4649454e55433b4530343231,
0x3b3b3b3b3b4e3b343b3b3b3b4c3b303b6c4e3b552052554f46204e47495320434952454d554e204d524f4649454e55433b4630343231,
0x3b3b3b3b3b4e3b353b3b3b3b4c3b303b6c4e3b552045564946204e47495320434952454d554e204d524f4649454e55433b3031343231,
0x3b3b3b3b3b4e3b363b3b3b3b4c3b303b6c4e3b5520584953204e47495320434952454d554e204d524f4649454e55433b3131343231,
0x3b3b3b3b3b4e3b373b3b3b3b4c3b303b6c4e3b55204e45564553204e47495320434952454d554e204d524f4649454e55433b3231343231,
0x3b3b3b3b3b4e3b383b3b3b3b4c3b303b6c4e3b55205448474945204e47495320434952454d554e204d524f4649454e55433b3331343231,
0x3b3b3b3b3b4e3b393b3b3b3b4c3b303b6c4e3b5520454e494e204e47495320434952454d554e204d524f4649454e55433b3431343231,
0x3b3b3b3b3b4e3b313b3b3b3b4c3b303b6c4e3b324853454720454e4f204e47495320434952454d554e204d524f4649454e55433b3531343231,
0x3b3b3b3b3b4e3b323b3b3b3b4c3b303b6c4e3b3248534547204f5754204e47495320434952454d554e204d524f4649454e55433b3631343231,
0x3b3b3b3b3b4e3b333b3b3b3b4c3b303b6c4e3b3248534547204545524854204e47495320434952454d554e204d524f4649454e55433b3731343231,
0x3b3b3b3b3b4e3b343b3b3b3b4c3b303b6c4e3b32485345472052554f46204e47495320434952454d554e204d524f4649454e55433b3831343231,
0x3b3b3b3b3b4e3b353b3b3b3b4c3b303b6c4e3b32485345472045564946204e47495320434952454d554e204d524f4649454e55433b3931343231,
0x3b3b3b3b3b4e3b363b3b3b3b4c3b303b6c4e3b324853454720584953204e47495320434952454d554e204d524f4649454e55433b4131343231,
0x3b3b3b3b3b4e3b373b3b3b3b4c3b303b6c4e3b3248534547204e45564553204e47495320434952454d554e204d524f4649454e55433b4231343231,
0x3b3b3b3b3b4e3b383b3b3b3b4c3b303b6c4e3b3248534547205448474945204e47495320434952454d554e204d524f4649454e55433b4331343231,
0x3b3b3b3b3b4e3b393b3b3b3b4c3b303b6c4e3b324853454720454e494e204e47495320434952454d554e204d524f4649454e55433b4431343231,
0x3b3b3b3b3b4e3b313b3b3b3b4c3b303b6c4e3b554853454720454e4f204e47495320434952454d554e204d524f4649454e55433b4531343231,
0x3b3b3b3b3b4e3b323b3b3b3b4c3b303b6c4e3b5548534547204f5754204e47495320434952454d554e204d524f4649454e55433b4631343231,
0x3b3b3b3b3b4e3b333b3b3b3b4c3b303b6c4e3b5548534547204545524854204e47495320434952454d554e204d524f4649454e55433b3032343231,
0x3b3b3b3b3b4e3b343b3b3b3b4c3b303b6c4e3b55485345472052554f46204e47495320434952454d554e204d524f4649454e55433b3132343231]

/-- src/u5e/props/UnicodeData.txt lines 21249-21504. -/
def rawUcd83 : List Nat := [
0x3b3b3b3b3b4e3b353b3b3b3b4c3b303b6c4e3b55485345472045564946204e47495320434952454d554e204d524f4649454e55433b3232343231,
0x3b3b3b3b3b4e3b323b3b3b3b4c3b303b6c4e3b3252414853204f5754204e47495320434952454d554e204d524f4649454e55433b3332343231,
0x3b3b3b3b3b4e3b333b3b3b3b4c3b303b6c4e3b3252414853204545524854204e47495320434952454d554e204d524f4649454e55433b3432343231,
0x3b3b3b3b3b4e3b333b3b3b3b4c3b303b6c4e3b4d524f4620544e4149524156203252414853204545524854204e47495320434952454d554e204d524f4649454e55433b3532343231,
0x3b3b3b3b3b4e3b343b3b3b3b4c3b303b6c4e3b32524148532052554f46204e47495320434952454d554e204d524f4649454e55433b3632343231,
0x3b3b3b3b3b4e3b353b3b3b3b4c3b303b6c4e3b32524148532045564946204e47495320434952454d554e204d524f4649454e55433b3732343231,
0x3b3b3b3b3b4e3b363b3b3b3b4c3b303b6c4e3b325241485320584953204e47495320434952454d554e204d524f4649454e55433b3832343231,
0x3b3b3b3b3b4e3b373b3b3b3b4c3b303b6c4e3b3252414853204e45564553204e47495320434952454d554e204d524f4649454e55433b3932343231,
0x3b3b3b3b3b4e3b383b3b3b3b4c3b303b6c4e3b3252414853205448474945204e47495320434952454d554e204d524f4649454e55433b4132343231,
0x3b3b3b3b3b4e3b393b3b3b3b4c3b303b6c4e3b325241485320454e494e204e47495320434952454d554e204d524f4649454e55433b4232343231,
0x3b3b3b3b3b4e3b313b3b3b3b4c3b303b6c4e3b555241485320454e4f204e47495320434952454d554e204d524f4649454e55433b4332343231,
0x3b3b3b3b3b4e3b323b3b3b3b4c3b303b6c4e3b5552414853204f5754204e47495320434952454d554e204d524f4649454e55433b4432343231,
0x3b3b3b3b3b4e3b333b3b3b3b4c3b303b6c4e3b5552414853204545524854204e47495320434952454d554e204d524f4649454e55433b4532343231,
0x3b3b3b3b3b4e3b333b3b3b3b4c3b303b6c4e3b4d524f4620544e4149524156205552414853204545524854204e47495320434952454d554e204d524f4649454e55433b4632343231,
0x3b3b3b3b3b4e3b343b3b3b3b4c3b303b6c4e3b55524148532052554f46204e47495320434952454d554e204d524f4649454e55433b3033343231,
0x3b3b3b3b3b4e3b353b3b3b3b4c3b303b6c4e3b55524148532045564946204e47495320434952454d554e204d524f4649454e55433b3133343231,
0x3b3b3b3b3b4e3b3030303631323b3b3b3b4c3b303b6c4e3b485349442053554c50204c41472053454d4954203252414853204e47495320434952454d554e204d524f4649454e55433b3233343231,
0x3b3b3b3b3b4e3b3030303233343b3b3b3b4c3b303b6c4e3b4e494d2053554c50204c41472053454d4954203252414853204e47495320434952454d554e204d524f4649454e55433b3333343231,
0x3b3b3b3b3b4e3b313b3b3b3b4c3b303b6c4e3b5552554220454e4f204e47495320434952454d554e204d524f4649454e55433b3433343231,
0x3b3b3b3b3b4e3b323b3b3b3b4c3b303b6c4e3b55525542204f5754204e47495320434952454d554e204d524f4649454e55433b3533343231,
0x3b3b3b3b3b4e3b333b3b3b3b4c3b303b6c4e3b55525542204545524854204e47495320434952454d554e204d524f4649454e55433b3633343231,
0x3b3b3b3b3b4e3b333b3b3b3b4c3b303b6c4e3b4d524f4620544e41495241562055525542204545524854204e47495320434952454d554e204d524f4649454e55433b3733343231,
0x3b3b3b3b3b4e3b343b3b3b3b4c3b303b6c4e3b555255422052554f46204e47495320434952454d554e204d524f4649454e55433b3833343231,
0x3b3b3b3b3b4e3b353b3b3b3b4c3b303b6c4e3b555255422045564946204e47495320434952454d554e204d524f4649454e55433b3933343231,
0x3b3b3b3b3b4e3b333b3b3b3b4c3b303b6c4e3b3631485345204d524f4620544e4149524156204545524854204e47495320434952454d554e204d524f4649454e55433b4133343231,
0x3b3b3b3b3b4e3b333b3b3b3b4c3b303b6c4e3b3132485345204d524f4620544e4149524156204545524854204e47495320434952454d554e204d524f4649454e55433b4233343231,
0x3b3b3b3b3b4e3b343b3b3b3b4c3b303b6c4e3b554d4d494c204d524f4620544e41495241562052554f46204e47495320434952454d554e204d524f4649454e55433b4333343231,
0x3b3b3b3b3b4e3b343b3b3b3b4c3b303b6c4e3b34554d4d494c204d524f4620544e41495241562052554f46204e47495320434952454d554e204d524f4649454e55433b4433343231,
0x3b3b3b3b3b4e3b343b3b3b3b4c3b303b6c4e3b4120554d4d494c204d524f4620544e41495241562052554f46204e47495320434952454d554e204d524f4649454e55433b4533343231,
0x3b3b3b3b3b4e3b343b3b3b3b4c3b303b6c4e3b4220554d4d494c204d524f4620544e41495241562052554f46204e47495320434952454d554e204d524f4649454e55433b4633343231,
0x3b3b3b3b3b4e3b363b3b3b3b4c3b303b6c4e3b39485341204d524f4620544e414952415620584953204e47495320434952454d554e204d524f4649454e55433b3034343231,
0x3b3b3b3b3b4e3b373b3b3b3b4c3b303b6c4e3b334e494d49204d524f4620544e4149524156204e45564553204e47495320434952454d554e204d524f4649454e55433b3134343231,
0x3b3b3b3b3b4e3b373b3b3b3b4c3b303b6c4e3b41204e494d49204d524f4620544e4149524156204e45564553204e47495320434952454d554e204d524f4649454e55433b3234343231,
0x3b3b3b3b3b4e3b373b3b3b3b4c3b303b6c4e3b42204e494d49204d524f4620544e4149524156204e45564553204e47495320434952454d554e204d524f4649454e55433b3334343231,
0x3b3b3b3b3b4e3b383b3b3b3b4c3b303b6c4e3b55535355204d524f4620544e4149524156205448474945204e47495320434952454d554e204d524f4649454e55433b3434343231,
0x3b3b3b3b3b4e3b383b3b3b3b4c3b303b6c4e3b3355535355204d524f4620544e4149524156205448474945204e47495320434952454d554e204d524f4649454e55433b3534343231,
0x3b3b3b3b3b4e3b393b3b3b3b4c3b303b6c4e3b554d4d494c49204d524f4620544e414952415620454e494e204e47495320434952454d554e204d524f4649454e55433b3634343231,
0x3b3b3b3b3b4e3b393b3b3b3b4c3b303b6c4e3b33554d4d494c49204d524f4620544e414952415620454e494e204e47495320434952454d554e204d524f4649454e55433b3734343231,
0x3b3b3b3b3b4e3b393b3b3b3b4c3b303b6c4e3b34554d4d494c49204d524f4620544e414952415620454e494e204e47495320434952454d554e204d524f4649454e55433b3834343231,
0x3b3b3b3b3b4e3b393b3b3b3b4c3b303b6c4e3b4120554d4d494c49204d524f4620544e414952415620454e494e204e47495320434952454d554e204d524f4649454e55433b3934343231,
0x3b3b3b3b3b4e3b323b3b3b3b4c3b303b6c4e3b554e455420485341204f5754204e47495320434952454d554e204d524f4649454e55433b4134343231,
0x3b3b3b3b3b4e3b333b3b3b3b4c3b303b6c4e3b554e455420485341204545524854204e47495320434952454d554e204d524f4649454e55433b4234343231,
0x3b3b3b3b3b4e3b343b3b3b3b4c3b303b6c4e3b554e4554204853412052554f46204e47495320434952454d554e204d524f4649454e55433b4334343231,
0x3b3b3b3b3b4e3b353b3b3b3b4c3b303b6c4e3b554e4554204853412045564946204e47495320434952454d554e204d524f4649454e55433b4434343231,
0x3b3b3b3b3b4e3b363b3b3b3b4c3b303b6c4e3b554e45542048534120584953204e47495320434952454d554e204d524f4649454e55433b4534343231,
0x3b3b3b3b3b4e3b313b3b3b3b4c3b303b6c4e3b324e414220454e4f204e47495320434952454d554e204d524f4649454e55433b4634343231,
0x3b3b3b3b3b4e3b323b3b3b3b4c3b303b6c4e3b324e4142204f5754204e47495320434952454d554e204d524f4649454e55433b3035343231,
0x3b3b3b3b3b4e3b333b3b3b3b4c3b303b6c4e3b324e4142204545524854204e47495320434952454d554e204d524f4649454e55433b3135343231,
0x3b3b3b3b3b4e3b343b3b3b3b4c3b303b6c4e3b324e41422052554f46204e47495320434952454d554e204d524f4649454e55433b3235343231,
0x3b3b3b3b3b4e3b343b3b3b3b4c3b303b6c4e3b4d524f4620544e414952415620324e41422052554f46204e47495320434952454d554e204d524f4649454e55433b3335343231,
0x3b3b3b3b3b4e3b353b3b3b3b4c3b303b6c4e3b324e41422045564946204e47495320434952454d554e204d524f4649454e55433b3435343231,
0x3b3b3b3b3b4e3b353b3b3b3b4c3b303b6c4e3b4d524f4620544e414952415620324e41422045564946204e47495320434952454d554e204d524f4649454e55433b3535343231,
0x3b3b3b3b3b4e3b323b3b3b3b4c3b303b6c4e3b4e494d41444947494e204e47495320434952454d554e204d524f4649454e55433b3635343231,
0x3b3b3b3b3b4e3b333b3b3b3b4c3b303b6c4e3b48534541444947494e204e47495320434952454d554e204d524f4649454e55433b3735343231,
0x3b3b3b3b3b4e3b313b3b3b3b4c3b303b6c4e3b334548534520454e4f204e47495320434952454d554e204d524f4649454e55433b3835343231,
0x3b3b3b3b3b4e3b323b3b3b3b4c3b303b6c4e3b3345485345204f5754204e47495320434952454d554e204d524f4649454e55433b3935343231,
0x3b3b3b3b3b4e3b332f313b3b3b3b4c3b303b6c4e3b4853494420445249485420454e4f204e47495320434952454d554e204d524f4649454e55433b4135343231,
0x3b3b3b3b3b4e3b332f323b3b3b3b4c3b303b6c4e3b4853494420534452494854204f5754204e47495320434952454d554e204d524f4649454e55433b4235343231,
0x3b3b3b3b3b4e3b362f353b3b3b3b4c3b303b6c4e3b48534944205348545849532045564946204e47495320434952454d554e204d524f4649454e55433b4335343231,
0x3b3b3b3b3b4e3b332f313b3b3b3b4c3b303b6c4e3b41204d524f4620544e414952415620445249485420454e4f204e47495320434952454d554e204d524f4649454e55433b4435343231,
0x3b3b3b3b3b4e3b332f323b3b3b3b4c3b303b6c4e3b41204d524f4620544e414952415620534452494854204f5754204e47495320434952454d554e204d524f4649454e55433b4535343231,
0x3b3b3b3b3b4e3b382f313b3b3b3b4c3b303b6c4e3b4853412048544847494520454e4f204e47495320434952454d554e204d524f4649454e55433b4635343231,
0x3b3b3b3b3b4e3b342f313b3b3b3b4c3b303b6c4e3b485341205245545241555120454e4f204e47495320434952454d554e204d524f4649454e55433b3036343231,
0x3b3b3b3b3b4e3b362f313b3b3b3b4c3b303b6c4e3b485458495320454e4f204e4149525953534120444c4f204e47495320434952454d554e204d524f4649454e55433b3136343231,
0x3b3b3b3b3b4e3b342f313b3b3b3b4c3b303b6c4e3b5245545241555120454e4f204e4149525953534120444c4f204e47495320434952454d554e204d524f4649454e55433b3236343231,
0x3b3b3b3b3b4e3b342f313b3b3b3b4c3b303b6c4e3b525547205245545241555120454e4f204e47495320434952454d554e204d524f4649454e55433b3336343231,
0x3b3b3b3b3b4e3b322f313b3b3b3b4c3b303b6c4e3b52554720464c414820454e4f204e47495320434952454d554e204d524f4649454e55433b3436343231,
0x3b3b3b3b3b4e3b332f313b3b3b3b4c3b303b6c4e3b445249485420454e4f204554494d414c45204e47495320434952454d554e204d524f4649454e55433b3536343231,
0x3b3b3b3b3b4e3b332f323b3b3b3b4c3b303b6c4e3b534452494854204f5754204554494d414c45204e47495320434952454d554e204d524f4649454e55433b3636343231,
0x3b3b3b3b3b4e3b30343b3b3b3b4c3b303b6c4e3b5954524f46204554494d414c45204e47495320434952454d554e204d524f4649454e55433b3736343231,
0x3b3b3b3b3b4e3b30353b3b3b3b4c3b303b6c4e3b5954464946204554494d414c45204e47495320434952454d554e204d524f4649454e55433b3836343231,
0x3b3b3b3b3b4e3b343b3b3b3b4c3b303b6c4e3b4d524f4620544e414952415620552052554f46204e47495320434952454d554e204d524f4649454e55433b3936343231,
0x3b3b3b3b3b4e3b353b3b3b3b4c3b303b6c4e3b4d524f4620544e414952415620552045564946204e47495320434952454d554e204d524f4649454e55433b4136343231,
0x3b3b3b3b3b4e3b363b3b3b3b4c3b303b6c4e3b4d524f4620544e4149524156205520584953204e47495320434952454d554e204d524f4649454e55433b4236343231,
0x3b3b3b3b3b4e3b373b3b3b3b4c3b303b6c4e3b4d524f4620544e41495241562055204e45564553204e47495320434952454d554e204d524f4649454e55433b4336343231,
0x3b3b3b3b3b4e3b383b3b3b3b4c3b303b6c4e3b4d524f4620544e41495241562055205448474945204e47495320434952454d554e204d524f4649454e55433b4436343231,
0x3b3b3b3b3b4e3b393b3b3b3b4c3b303b6c4e3b4d524f4620544e4149524156205520454e494e204e47495320434952454d554e204d524f4649454e55433b4536343231,
0x3b3b3b3b3b4e3b3b3b3b3b4c3b303b6f503b524544495649442044524f57204e4149525953534120444c4f204e474953204e4f4954415554434e5550204d524f4649454e55433b3037343231,
0x3b3b3b3b3b4e3b3b3b3b3b4c3b303b6f503b4e4f4c4f43204c41434954524556204e474953204e4f4954415554434e5550204d524f4649454e55433b3137343231,
0x3b3b3b3b3b4e3b3b3b3b3b4c3b303b6f503b4e4f4c4f43204c414e4f47414944204e474953204e4f4954415554434e5550204d524f4649454e55433b3237343231,
0x3b3b3b3b3b4e3b3b3b3b3b4c3b303b6f503b4e4f4c4f43495254204c414e4f47414944204e474953204e4f4954415554434e5550204d524f4649454e55433b3337343231,
0x3b3b3b3b3b4e3b3b3b3b3b4c3b303b6f503b4e4f4c4f4344415551204c414e4f47414944204e474953204e4f4954415554434e5550204d524f4649454e55433b3437343231,
0x3b3b3b3b3b4e3b3b3b3b3b4c3b303b6f4c3b554e4554204e554e2053454d4954204241204e474953204d524f4649454e55433b3038343231,
0x3b3b3b3b3b4e3b3b3b3b3b4c3b303b6f4c3b325548532053454d4954204241204e474953204d524f4649454e55433b3138343231,
0x3b3b3b3b3b4e3b3b3b3b3b4c3b303b6f4c3b324853452053454d4954204441204e474953204d524f4649454e55433b3238343231,
0x3b3b3b3b3b4e3b3b3b3b3b4c3b303b6f4c3b554e455420485349442053454d495420444142204e474953204d524f4649454e55433b3338343231,
0x3b3b3b3b3b4e3b3b3b3b3b4c3b303b6f4c3b3242412053454d495420325241484142204e474953204d524f4649454e55433b3438343231,
0x3b3b3b3b3b4e3b3b3b3b3b4c3b303b6f4c3b494e2053454d495420325241484142204e474953204d524f4649454e55433b3538343231,
0x3b3b3b3b3b4e3b3b3b3b3b4c3b303b6f4c3b415a2053454d495420325241484142204e474953204d524f4649454e55433b3638343231,
0x3b3b3b3b3b4e3b3b3b3b3b4c3b303b6f4c3b32414e2053454d4954205542205245564f205542204e474953204d524f4649454e55433b3738343231,
0x3b3b3b3b3b4e3b3b3b3b3b4c3b303b6f4c3b344b41542053454d4954204144204e474953204d524f4649454e55433b3838343231,
0x3b3b3b3b3b4e3b3b3b3b3b4c3b303b6f4c3b52554b2053454d495420474144204e474953204d524f4649454e55433b3938343231,
0x3b3b3b3b3b4e3b3b3b3b3b4c3b303b6f4c3b4947492053454d4954204d4944204e474953204d524f4649454e55433b4138343231,
0x3b3b3b3b3b4e3b3b3b3b3b4c3b303b6f4c3b55205520552053454d4954204d4944204e474953204d524f4649454e55433b4238343231,
0x3b3b3b3b3b4e3b3b3b3b3b4c3b303b6f4c3b44552053454d495420324d4944204e474953204d524f4649454e55433b4338343231,
0x3b3b3b3b3b4e3b3b3b3b3b4c3b303b6f4c3b4548534e412053454d495420475544204e474953204d524f4649454e55433b4438343231,
0x3b3b3b3b3b4e3b3b3b3b3b4c3b303b6f4c3b4853412053454d495420475544204e474953204d524f4649454e55433b4538343231,
0x3b3b3b3b3b4e3b3b3b3b3b4c3b303b6f4c3b5446454c205441204853412053454d495420475544204e474953204d524f4649454e55433b4638343231,
0x3b3b3b3b3b4e3b3b3b3b3b4c3b303b6f4c3b4e49442053454d495420475544204e474953204d524f4649454e55433b3039343231,
0x3b3b3b3b3b4e3b3b3b3b3b4c3b303b6f4c3b4e55442053454d495420475544204e474953204d524f4649454e55433b3139343231,
0x3b3b3b3b3b4e3b3b3b3b3b4c3b303b6f4c3b324e4952452053454d495420475544204e474953204d524f4649454e55433b3239343231,
0x3b3b3b3b3b4e3b3b3b3b3b4c3b303b6f4c3b41472053454d495420475544204e474953204d524f4649454e55433b3339343231,
0x3b3b3b3b3b4e3b3b3b3b3b4c3b303b6f4c3b49472053454d495420475544204e474953204d524f4649454e55433b3439343231,
0x3b3b3b3b3b4e3b3b3b3b3b4c3b303b6f4c3b554e554720325249472053454d495420475544204e474953204d524f4649454e55433b3539343231,
0x3b3b3b3b3b4e3b3b3b3b3b4c3b303b6f4c3b485349472053454d495420475544204e474953204d524f4649454e55433b3639343231,
0x3b3b3b3b3b4e3b3b3b3b3b4c3b303b6f4c3b41482053454d495420475544204e474953204d524f4649454e55433b3739343231,
0x3b3b3b3b3b4e3b3b3b3b3b4c3b303b6f4c3b49482053454d495420475544204e474953204d524f4649454e55433b3839343231,
0x3b3b3b3b3b4e3b3b3b3b3b4c3b303b6f4c3b554e5547204947492053454d495420475544204e474953204d524f4649454e55433b3939343231,
0x3b3b3b3b3b4e3b3b3b3b3b4c3b303b6f4c3b4c414b53414b2053454d495420475544204e474953204d524f4649454e55433b4139343231,
0x3b3b3b3b3b4e3b3b3b3b3b4c3b303b6f4c3b52554b2053454d495420475544204e474953204d524f4649454e55433b4239343231,
0x3b3b3b3b3b4e3b3b3b3b3b4c3b303b6f4c3b32554853554b2053454d495420475544204e474953204d524f4649454e55433b4339343231,
0x3b3b3b3b3b4e3b3b3b3b3b4c3b303b6f4c3b4c414b53414b2053554c502032554853554b2053454d495420475544204e474953204d524f4649454e55433b4439343231,
0x3b3b3b3b3b4e3b3b3b3b3b4c3b303b6f4c3b3032302d4b414c2053454d495420475544204e474953204d524f4649454e55433b4539343231,
0x3b3b3b3b3b4e3b3b3b3b3b4c3b303b6f4c3b4d414c2053454d495420475544204e474953204d524f4649454e55433b4639343231,
0x3b3b3b3b3b4e3b3b3b3b3b4c3b303b6f4c3b52554b2053454d4954204d414c2053454d495420475544204e474953204d524f4649454e55433b3041343231,
0x3b3b3b3b3b4e3b3b3b3b3b4c3b303b6f4c3b485349472053554c502048554c2053454d495420475544204e474953204d524f4649454e55433b3141343231,
0x3b3b3b3b3b4e3b3b3b3b3b4c3b303b6f4c3b4853414d2053454d495420475544204e474953204d524f4649454e55433b3241343231,
0x3b3b3b3b3b4e3b3b3b3b3b4c3b303b6f4c3b53454d2053454d495420475544204e474953204d524f4649454e55433b3341343231,
0x3b3b3b3b3b4e3b3b3b3b3b4c3b303b6f4c3b494d2053454d495420475544204e474953204d524f4649454e55433b3441343231,
0x3b3b3b3b3b4e3b3b3b3b3b4c3b303b6f4c3b494e2053454d495420475544204e474953204d524f4649454e55433b3541343231,
0x3b3b3b3b3b4e3b3b3b3b3b4c3b303b6f4c3b49502053454d495420475544204e474953204d524f4649454e55433b3641343231,
0x3b3b3b3b3b4e3b3b3b3b3b4c3b303b6f4c3b4548532053454d495420475544204e474953204d524f4649454e55433b3741343231,
0x3b3b3b3b3b4e3b3b3b3b3b4c3b303b6f4c3b554e55472049532053454d495420475544204e474953204d524f4649454e55433b3841343231,
0x3b3b3b3b3b4e3b3b3b3b3b4c3b303b6f4c3b52554b2053454d4954203245204e474953204d524f4649454e55433b3941343231,
0x3b3b3b3b3b4e3b3b3b3b3b4c3b303b6f4c3b5041502053454d4954203245204e474953204d524f4649454e55433b4141343231,
0x3b3b3b3b3b4e3b3b3b3b3b4c3b303b6f4c3b5820324e495245204e474953204d524f4649454e55433b4241343231,
0x3b3b3b3b3b4e3b3b3b3b3b4c3b303b6f4c3b3248534520474e4953534f52432032485345204e474953204d524f4649454e55433b4341343231,
0x3b3b3b3b3b4e3b3b3b3b3b4c3b303b6f4c3b4853412053454d49542047494853454853204e455a45204e474953204d524f4649454e55433b4441343231,
0x3b3b3b3b3b4e3b3b3b3b3b4c3b303b6f4c3b49482053454d49542047494853454853204e455a45204e474953204d524f4649454e55433b4541343231,
0x3b3b3b3b3b4e3b3b3b3b3b4c3b303b6f4c3b554e5547204947492053454d49542047494853454853204e455a45204e474953204d524f4649454e55433b4641343231,
0x3b3b3b3b3b4e3b3b3b3b3b4c3b303b6f4c3b414c2053454d49542047494853454853204e455a45204e474953204d524f4649454e55433b3042343231,
0x3b3b3b3b3b4e3b3b3b3b3b4c3b303b6f4c3b4c414c2053454d49542047494853454853204e455a45204e474953204d524f4649454e55433b3142343231,
0x3b3b3b3b3b4e3b3b3b3b3b4c3b303b6f4c3b454d2053454d49542047494853454853204e455a45204e474953204d524f4649454e55433b3242343231,
0x3b3b3b3b3b4e3b3b3b3b3b4c3b303b6f4c3b53454d2053454d49542047494853454853204e455a45204e474953204d524f4649454e55433b3342343231,
0x3b3b3b3b3b4e3b3b3b3b3b4c3b303b6f4c3b55532053454d49542047494853454853204e455a45204e474953204d524f4649454e55433b3442343231,
0x3b3b3b3b3b4e3b3b3b3b3b4c3b303b6f4c3b55532053454d4954204e455a45204e474953204d524f4649454e55433b3542343231,
0x3b3b3b3b3b4e3b3b3b3b3b4c3b303b6f4c3b3252414841422053454d495420324147204e474953204d524f4649454e55433b3642343231,
0x3b3b3b3b3b4e3b3b3b3b3b4c3b303b6f4c3b554e5547204d49442053454d495420324147204e474953204d524f4649454e55433b3742343231,
0x3b3b3b3b3b4e3b3b3b3b3b4c3b303b6f4c3b554e5547204947492053454d4954204755442053454d495420324147204e474953204d524f4649454e55433b3842343231,
0x3b3b3b3b3b4e3b3b3b3b3b4c3b303b6f4c3b4c414b53414b2053454d4954204755442053454d495420324147204e474953204d524f4649454e55433b3942343231,
0x3b3b3b3b3b4e3b3b3b3b3b4c3b303b6f4c3b4e4552452053454d495420324147204e474953204d524f4649454e55433b4142343231,
0x3b3b3b3b3b4e3b3b3b3b3b4c3b303b6f4c3b41472053454d495420324147204e474953204d524f4649454e55433b4242343231,
0x3b3b3b3b3b4e3b3b3b3b3b4c3b303b6f4c3b49442053554c50205241472053454d495420324147204e474953204d524f4649454e55433b4342343231,
0x3b3b3b3b3b4e3b3b3b3b3b4c3b303b6f4c3b454e2053554c50205241472053454d495420324147204e474953204d524f4649454e55433b4442343231,
0x3b3b3b3b3b4e3b3b3b3b3b4c3b303b6f4c3b412053554c502041482053454d495420324147204e474953204d524f4649454e55433b4542343231,
0x3b3b3b3b3b4e3b3b3b3b3b4c3b303b6f4c3b4c414b53414b2053554c502032554853554b2053454d495420324147204e474953204d524f4649454e55433b4642343231,
0x3b3b3b3b3b4e3b3b3b3b3b4c3b303b6f4c3b4d414c2053454d495420324147204e474953204d524f4649454e55433b3043343231,
0x3b3b3b3b3b4e3b3b3b3b3b4c3b303b6f4c3b52554b2053454d4954204d414c2053454d495420324147204e474953204d524f4649454e55433b3143343231,
0x3b3b3b3b3b4e3b3b3b3b3b4c3b303b6f4c3b48554c2053454d495420324147204e474953204d524f4649454e55433b3243343231,
0x3b3b3b3b3b4e3b3b3b3b3b4c3b303b6f4c3b4853554d2053454d495420324147204e474953204d524f4649454e55433b3343343231,
0x3b3b3b3b3b4e3b3b3b3b3b4c3b303b6f4c3b454e2053454d495420324147204e474953204d524f4649454e55433b3443343231,
0x3b3b3b3b3b4e3b3b3b3b3b4c3b303b6f4c3b32452053554c5020454e2053454d495420324147204e474953204d524f4649454e55433b3543343231,
0x3b3b3b3b3b4e3b3b3b3b3b4c3b303b6f4c3b49472053554c5020454e2053454d495420324147204e474953204d524f4649454e55433b3643343231,
0x3b3b3b3b3b4e3b3b3b3b3b4c3b303b6f4c3b4d4948532053454d495420324147204e474953204d524f4649454e55433b3743343231,
0x3b3b3b3b3b4e3b3b3b3b3b4c3b303b6f4c3b325a495a2053454d495420324147204e474953204d524f4649454e55433b3843343231,
0x3b3b3b3b3b4e3b3b3b3b3b4c3b303b6f4c3b53454552474544205954454e494e2044455441544f522041424147204e474953204d524f4649454e55433b3943343231,
0x3b3b3b3b3b4e3b3b3b3b3b4c3b303b6f4c3b552053454d4954204e495448534547204e474953204d524f4649454e55433b4143343231,
0x3b3b3b3b3b4e3b3b3b3b3b4c3b303b6f4c3b4853494720474e4953534f524320485349472053454d49542048534947204e474953204d524f4649454e55433b4243343231,
0x3b3b3b3b3b4e3b3b3b3b3b4c3b303b6f4c3b554e5547204947492053454d495420325547204e474953204d524f4649454e55433b4343343231,
0x3b3b3b3b3b4e3b3b3b3b3b4c3b303b6f4c3b344b41542053454d495420485349472053554c5020445547204e474953204d524f4649454e55433b4443343231,
0x3b3b3b3b3b4e3b3b3b3b3b4c3b303b6f4c3b554e554720554e4554204148204e474953204d524f4649454e55433b4543343231,
0x3b3b3b3b3b4e3b3b3b3b3b4c3b303b6f4c3b4853412053454d4954204948205245564f204853412053454d4954204948204e474953204d524f4649454e55433b4643343231,
0x3b3b3b3b3b4e3b3b3b3b3b4c3b303b6f4c3b55422053454d495420414b204e474953204d524f4649454e55433b3044343231,
0x3b3b3b3b3b4e3b3b3b3b3b4c3b303b6f4c3b414b2053454d495420414b204e474953204d524f4649454e55433b3144343231,
0x3b3b3b3b3b4e3b3b3b3b3b4c3b303b6f4c3b55205520552053454d495420414b204e474953204d524f4649454e55433b3244343231,
0x3b3b3b3b3b4e3b3b3b3b3b4c3b303b6f4c3b52552053454d495420414b204e474953204d524f4649454e55433b3344343231,
0x3b3b3b3b3b4e3b3b3b3b3b4c3b303b6f4c3b555a205245564f20555a2053454d495420424147414c204e474953204d524f4649454e55433b3444343231,
0x3b3b3b3b3b4e3b3b3b3b3b4c3b303b6f4c3b3330302d4b414c204e474953204d524f4649454e55433b3544343231,
0x3b3b3b3b3b4e3b3b3b3b3b4c3b303b6f4c3b3132302d4b414c204e474953204d524f4649454e55433b3644343231,
0x3b3b3b3b3b4e3b3b3b3b3b4c3b303b6f4c3b3532302d4b414c204e474953204d524f4649454e55433b3744343231,
0x3b3b3b3b3b4e3b3b3b3b3b4c3b303b6f4c3b3033302d4b414c204e474953204d524f4649454e55433b3844343231,
0x3b3b3b3b3b4e3b3b3b3b3b4c3b303b6f4c3b3035302d4b414c204e474953204d524f4649454e55433b3944343231,
0x3b3b3b3b3b4e3b3b3b3b3b4c3b303b6f4c3b3135302d4b414c204e474953204d524f4649454e55433b4144343231,
0x3b3b3b3b3b4e3b3b3b3b3b4c3b303b6f4c3b3236302d4b414c204e474953204d524f4649454e55433b4244343231,
0x3b3b3b3b3b4e3b3b3b3b3b4c3b303b6f4c3b554e5547203937302d4b414c205245564f203937302d4b414c204e474953204d524f4649454e55433b4344343231,
0x3b3b3b3b3b4e3b3b3b3b3b4c3b303b6f4c3b3038302d4b414c204e474953204d524f4649454e55433b4444343231,
0x3b3b3b3b3b4e3b3b3b3b3b4c3b303b6f4c3b3138302d4b414c205245564f203138302d4b414c204e474953204d524f4649454e55433b4544343231,
0x3b3b3b3b3b4e3b3b3b3b3b4c3b303b6f4c3b3239302d4b414c204e474953204d524f4649454e55433b4644343231,
0x3b3b3b3b3b4e3b3b3b3b3b4c3b303b6f4c3b3033312d4b414c204e474953204d524f4649454e55433b3045343231,
0x3b3b3b3b3b4e3b3b3b3b3b4c3b303b6f4c3b3234312d4b414c204e474953204d524f4649454e55433b3145343231,
0x3b3b3b3b3b4e3b3b3b3b3b4c3b303b6f4c3b3031322d4b414c204e474953204d524f4649454e55433b3245343231,
0x3b3b3b3b3b4e3b3b3b3b3b4c3b303b6f4c3b3931322d4b414c204e474953204d524f4649454e55433b3345343231,
0x3b3b3b3b3b4e3b3b3b3b3b4c3b303b6f4c3b3032322d4b414c204e474953204d524f4649454e55433b3445343231,
0x3b3b3b3b3b4e3b3b3b3b3b4c3b303b6f4c3b3532322d4b414c204e474953204d524f4649454e55433b3545343231,
0x3b3b3b3b3b4e3b3b3b3b3b4c3b303b6f4c3b3832322d4b414c204e474953204d524f4649454e55433b3645343231,
0x3b3b3b3b3b4e3b3b3b3b3b4c3b303b6f4c3b3833322d4b414c204e474953204d524f4649454e55433b3745343231,
0x3b3b3b3b3b4e3b3b3b3b3b4c3b303b6f4c3b3536322d4b414c204e474953204d524f4649454e55433b3845343231,
0x3b3b3b3b3b4e3b3b3b3b3b4c3b303b6f4c3b3636322d4b414c204e474953204d524f4649454e55433b3945343231,
0x3b3b3b3b3b4e3b3b3b3b3b4c3b303b6f4c3b3334332d4b414c204e474953204d524f4649454e55433b4145343231,
0x3b3b3b3b3b4e3b3b3b3b3b4c3b303b6f4c3b3734332d4b414c204e474953204d524f4649454e55433b4245343231,
0x3b3b3b3b3b4e3b3b3b3b3b4c3b303b6f4c3b3834332d4b414c204e474953204d524f4649454e55433b4345343231,
0x3b3b3b3b3b4e3b3b3b3b3b4c3b303b6f4c3b3338332d4b414c204e474953204d524f4649454e55433b4445343231,
0x3b3b3b3b3b4e3b3b3b3b3b4c3b303b6f4c3b3438332d4b414c204e474953204d524f4649454e55433b4545343231,
0x3b3b3b3b3b4e3b3b3b3b3b4c3b303b6f4c3b3039332d4b414c204e474953204d524f4649454e55433b4645343231,
0x3b3b3b3b3b4e3b3b3b3b3b4c3b303b6f4c3b3134342d4b414c204e474953204d524f4649454e55433b3046343231,
0x3b3b3b3b3b4e3b3b3b3b3b4c3b303b6f4c3b3934342d4b414c204e474953204d524f4649454e55433b3146343231,
0x3b3b3b3b3b4e3b3b3b3b3b4c3b303b6f4c3b55472053454d4954203934342d4b414c204e474953204d524f4649454e55433b3246343231,
0x3b3b3b3b3b4e3b3b3b3b3b4c3b303b6f4c3b4947492053454d4954203934342d4b414c204e474953204d524f4649454e55433b3346343231,
0x3b3b3b3b3b4e3b3b3b3b3b4c3b303b6f4c3b33554c2053554c50205041502053454d4954203934342d4b414c204e474953204d524f4649454e55433b3446343231,
0x3b3b3b3b3b4e3b3b3b3b3b4c3b303b6f4c3b33554c2053554c50205041502053554c50205041502053454d4954203934342d4b414c204e474953204d524f4649454e55433b3546343231,
0x3b3b3b3b3b4e3b3b3b3b3b4c3b303b6f4c3b41422053554c502032552053454d4954203934342d4b414c204e474953204d524f4649454e55433b3646343231,
0x3b3b3b3b3b4e3b3b3b3b3b4c3b303b6f4c3b3035342d4b414c204e474953204d524f4649454e55433b3746343231,
0x3b3b3b3b3b4e3b3b3b3b3b4c3b303b6f4c3b3735342d4b414c204e474953204d524f4649454e55433b3846343231,
0x3b3b3b3b3b4e3b3b3b3b3b4c3b303b6f4c3b3037342d4b414c204e474953204d524f4649454e55433b3946343231,
0x3b3b3b3b3b4e3b3b3b3b3b4c3b303b6f4c3b3338342d4b414c204e474953204d524f4649454e55433b4146343231,
0x3b3b3b3b3b4e3b3b3b3b3b4c3b303b6f4c3b3039342d4b414c204e474953204d524f4649454e55433b4246343231,
0x3b3b3b3b3b4e3b3b3b3b3b4c3b303b6f4c3b3239342d4b414c204e474953204d524f4649454e55433b4346343231,
0x3b3b3b3b3b4e3b3b3b3b3b4c3b303b6f4c3b3339342d4b414c204e474953204d524f4649454e55433b4446343231,
0x3b3b3b3b3b4e3b3b3b3b3b4c3b303b6f4c3b3539342d4b414c204e474953204d524f4649454e55433b4546343231,
0x3b3b3b3b3b4e3b3b3b3b3b4c3b303b6f4c3b3035352d4b414c204e474953204d524f4649454e55433b4646343231,
0x3b3b3b3b3b4e3b3b3b3b3b4c3b303b6f4c3b3830362d4b414c204e474953204d524f4649454e55433b3030353231,
0x3b3b3b3b3b4e3b3b3b3b3b4c3b303b6f4c3b3731362d4b414c204e474953204d524f4649454e55433b3130353231,
0x3b3b3b3b3b4e3b3b3b3b3b4c3b303b6f4c3b4853412053454d4954203731362d4b414c204e474953204d524f4649454e55433b3230353231,
0x3b3b3b3b3b4e3b3b3b3b3b4c3b303b6f4c3b4441422053454d4954203731362d4b414c204e474953204d524f4649454e55433b3330353231,
0x3b3b3b3b3b4e3b3b3b3b3b4c3b303b6f4c3b554e554720554e554720334e55442053454d4954203731362d4b414c204e474953204d524f4649454e55433b3430353231,
0x3b3b3b3b3b4e3b3b3b3b3b4c3b303b6f4c3b33554b2053454d4954203731362d4b414c204e474953204d524f4649454e55433b3530353231,
0x3b3b3b3b3b4e3b3b3b3b3b4c3b303b6f4c3b414c2053454d4954203731362d4b414c204e474953204d524f4649454e55433b3630353231,
0x3b3b3b3b3b4e3b3b3b3b3b4c3b303b6f4c3b5241542053454d4954203731362d4b414c204e474953204d524f4649454e55433b3730353231,
0x3b3b3b3b3b4e3b3b3b3b3b4c3b303b6f4c3b45542053454d4954203731362d4b414c204e474953204d524f4649454e55433b3830353231,
0x3b3b3b3b3b4e3b3b3b3b3b4c3b303b6f4c3b32552053454d4954203731362d4b414c204e474953204d524f4649454e55433b3930353231,
0x3b3b3b3b3b4e3b3b3b3b3b4c3b303b6f4c3b44552053454d4954203731362d4b414c204e474953204d524f4649454e55433b4130353231,
0x3b3b3b3b3b4e3b3b3b3b3b4c3b303b6f4c3b41445552552053454d4954203731362d4b414c204e474953204d524f4649454e55433b4230353231,
0x3b3b3b3b3b4e3b3b3b3b3b4c3b303b6f4c3b3633362d4b414c204e474953204d524f4649454e55433b4330353231,
0x3b3b3b3b3b4e3b3b3b3b3b4c3b303b6f4c3b3834362d4b414c204e474953204d524f4649454e55433b4430353231,
0x3b3b3b3b3b4e3b3b3b3b3b4c3b303b6f4c3b4255442053454d4954203834362d4b414c204e474953204d524f4649454e55433b4530353231,
0x3b3b3b3b3b4e3b3b3b3b3b4c3b303b6f4c3b41472053454d4954203834362d4b414c204e474953204d524f4649454e55433b4630353231,
0x3b3b3b3b3b4e3b3b3b3b3b4c3b303b6f4c3b4947492053454d4954203834362d4b414c204e474953204d524f4649454e55433b3031353231,
0x3b3b3b3b3b4e3b3b3b3b3b4c3b303b6f4c3b554e5547204947492053454d4954203834362d4b414c204e474953204d524f4649454e55433b3131353231,
0x3b3b3b3b3b4e3b3b3b3b3b4c3b303b6f4c3b494e2053454d4954203834362d4b414c204e474953204d524f4649454e55433b3231353231,
0x3b3b3b3b3b4e3b3b3b3b3b4c3b303b6f4c3b33554c2053554c50205041502053554c50205041502053454d4954203834362d4b414c204e474953204d524f4649454e55433b3331353231,
0x3b3b3b3b3b4e3b3b3b3b3b4c3b303b6f4c3b494b2053554c502048534548532053454d4954203834362d4b414c204e474953204d524f4649454e55433b3431353231,
0x3b3b3b3b3b4e3b3b3b3b3b4c3b303b6f4c3b44552053454d4954203834362d4b414c204e474953204d524f4649454e55433b3531353231,
0x3b3b3b3b3b4e3b3b3b3b3b4c3b303b6f4c3b41445552552053454d4954203834362d4b414c204e474953204d524f4649454e55433b3631353231,
0x3b3b3b3b3b4e3b3b3b3b3b4c3b303b6f4c3b3432372d4b414c204e474953204d524f4649454e55433b3731353231,
0x3b3b3b3b3b4e3b3b3b3b3b4c3b303b6f4c3b3934372d4b414c204e474953204d524f4649454e55433b3831353231,
0x3b3b3b3b3b4e3b3b3b3b3b4c3b303b6f4c3b4853412053454d495420554e55472032554c204e474953204d524f4649454e55433b3931353231,
0x3b3b3b3b3b4e3b3b3b3b3b4c3b303b6f4c3b485349442053454d49542032554c204e474953204d524f4649454e55433b4131353231,
0x3b3b3b3b3b4e3b3b3b3b3b4c3b303b6f4c3b4c41482053454d49542032554c204e474953204d524f4649454e55433b4231353231,
0x3b3b3b3b3b4e3b3b3b3b3b4c3b303b6f4c3b5041502053454d49542032554c204e474953204d524f4649454e55433b4331353231,
0x3b3b3b3b3b4e3b3b3b3b3b4c3b303b6f4c3b33554c2053554c50205041502053554c50205041502053454d49542032554c204e474953204d524f4649454e55433b4431353231,
0x3b3b3b3b3b4e3b3b3b3b3b4c3b303b6f4c3b344b41542053454d49542032554c204e474953204d524f4649454e55433b4531353231,
0x3b3b3b3b3b4e3b3b3b3b3b4c3b303b6f4c3b37415a2053554c5020494d204e474953204d524f4649454e55433b4631353231,
0x3b3b3b3b3b4e3b3b3b3b3b4c3b303b6f4c3b41472053454d4954204853554d205245564f204853554d204e474953204d524f4649454e55433b3032353231,
0x3b3b3b3b3b4e3b3b3b3b3b4c3b303b6f4c3b4b414b2053454d4954204853554d205245564f204853554d204e474953204d524f4649454e55433b3132353231,
0x3b3b3b3b3b4e3b3b3b3b3b4c3b303b6f4c3b554e5547204d49442053454d4954203241444e494e204e474953204d524f4649454e55433b3232353231,
0x3b3b3b3b3b4e3b3b3b3b3b4c3b303b6f4c3b485349472053454d4954203241444e494e204e474953204d524f4649454e55433b3332353231,
0x3b3b3b3b3b4e3b3b3b3b3b4c3b303b6f4c3b4c55472053454d4954203241444e494e204e474953204d524f4649454e55433b3432353231,
0x3b3b3b3b3b4e3b3b3b3b3b4c3b303b6f4c3b49482053454d4954203241444e494e204e474953204d524f4649454e55433b3532353231,
0x3b3b3b3b3b4e3b3b3b3b3b4c3b303b6f4c3b324853454b2053454d4954203241444e494e204e474953204d524f4649454e55433b3632353231,
0x3b3b3b3b3b4e3b3b3b3b3b4c3b303b6f4c3b3035302d4b414c2053454d4954203241444e494e204e474953204d524f4649454e55433b3732353231,
0x3b3b3b3b3b4e3b3b3b3b3b4c3b303b6f4c3b4853414d2053454d4954203241444e494e204e474953204d524f4649454e55433b3832353231,
0x3b3b3b3b3b4e3b3b3b3b3b4c3b303b6f4c3b5041502053554c50205041502053454d4954203241444e494e204e474953204d524f4649454e55433b3932353231,
0x3b3b3b3b3b4e3b3b3b3b3b4c3b303b6f4c3b552053454d4954203241444e494e204e474953204d524f4649454e55433b4132353231,
0x3b3b3b3b3b4e3b3b3b3b3b4c3b303b6f4c3b552053554c5020552053454d4954203241444e494e204e474953204d524f4649454e55433b4232353231,
0x3b3b3b3b3b4e3b3b3b3b3b4c3b303b6f4c3b41445552552053454d4954203241444e494e204e474953204d524f4649454e55433b4332353231,
0x3b3b3b3b3b4e3b3b3b3b3b4c3b303b6f4c3b41482053454d495420554e554720474153204e474953204d524f4649454e55433b4432353231]

/-- src/u5e/props/UnicodeData.txt lines 21505-21760. -/
def rawUcd84 : List Nat := [
0x3b3b3b3b3b4e3b3b3b3b3b4c3b303b6f4c3b4e452053454d495420474153204e474953204d524f4649454e55433b4532353231,
0x3b3b3b3b3b4e3b3b3b3b3b4c3b303b6f4c3b5446454c205441204548532053454d495420474153204e474953204d524f4649454e55433b4632353231,
0x3b3b3b3b3b4e3b3b3b3b3b4c3b303b6f4c3b344b41542053454d495420474153204e474953204d524f4649454e55433b3033353231,
0x3b3b3b3b3b4e3b3b3b3b3b4c3b303b6f4c3b554e45542036414853204e474953204d524f4649454e55433b3133353231,
0x3b3b3b3b3b4e3b3b3b3b3b4c3b303b6f4c3b454853205245564f20454853204e474953204d524f4649454e55433b3233353231,
0x3b3b3b3b3b4e3b3b3b3b3b4c3b303b6f4c3b324255482053554c5020454853204e474953204d524f4649454e55433b3333353231,
0x3b3b3b3b3b4e3b3b3b3b3b4c3b303b6f4c3b324d414e2053554c5020454853204e474953204d524f4649454e55433b3433353231,
0x3b3b3b3b3b4e3b3b3b3b3b4c3b303b6f4c3b5241532053554c5020454853204e474953204d524f4649454e55433b3533353231,
0x3b3b3b3b3b4e3b3b3b3b3b4c3b303b6f4c3b494e2053454d4954204755442053554c502032554853204e474953204d524f4649454e55433b3633353231,
0x3b3b3b3b3b4e3b3b3b3b3b4c3b303b6f4c3b4e412053454d49542032452053554c502032554853204e474953204d524f4649454e55433b3733353231,
0x3b3b3b3b3b4e3b3b3b3b3b4c3b303b6f4c3b344b41542053454d4954204953204e474953204d524f4649454e55433b3833353231,
0x3b3b3b3b3b4e3b3b3b3b3b4c3b303b6f4c3b4741532053554c5020344b4154204e474953204d524f4649454e55433b3933353231,
0x3b3b3b3b3b4e3b3b3b3b3b4c3b303b6f4c3b554e455420324e41472053454d4954204d5554204e474953204d524f4649454e55433b4133353231,
0x3b3b3b3b3b4e3b3b3b3b3b4c3b303b6f4c3b485349442045455248542053454d4954204d5554204e474953204d524f4649454e55433b4233353231,
0x3b3b3b3b3b4e3b3b3b3b3b4c3b303b6f4c3b4445545245564e4920325255204e474953204d524f4649454e55433b4333353231,
0x3b3b3b3b3b4e3b3b3b3b3b4c3b303b6f4c3b44552053454d495420325255204e474953204d524f4649454e55433b4433353231,
0x3b3b3b3b3b4e3b3b3b3b3b4c3b303b6f4c3b33415241442053454d495420555255204e474953204d524f4649454e55433b4533353231,
0x3b3b3b3b3b4e3b3b3b3b3b4c3b303b6f4c3b3836362d4b414c2053454d495420555255204e474953204d524f4649454e55433b4633353231,
0x3b3b3b3b3b4e3b3b3b3b3b4c3b303b6f4c3b33554c2053454d495420555255204e474953204d524f4649454e55433b3034353231,
0x3b3b3b3b3b4e3b3b3b3b3b4c3b303b6f4c3b37415a204e474953204d524f4649454e55433b3134353231,
0x3b3b3b3b3b4e3b3b3b3b3b4c3b303b6f4c3b5241532053554c5020555a205245564f20555a204e474953204d524f4649454e55433b3234353231,
0x3b3b3b3b3b4e3b3b3b3b3b4c3b303b6f4c3b554e455420485349442045455248542053454d49542035555a204e474953204d524f4649454e55433b3334353231,
0x3b3b3b3b3b4e3b3b3b3b3b4c3b303b6f4c3b31303041204850594c474f52454948204e414954505947453b3030303331,
0x3b3b3b3b3b4e3b3b3b3b3b4c3b303b6f4c3b32303041204850594c474f52454948204e414954505947453b3130303331,
0x3b3b3b3b3b4e3b3b3b3b3b4c3b303b6f4c3b33303041204850594c474f52454948204e414954505947453b3230303331,
0x3b3b3b3b3b4e3b3b3b3b3b4c3b303b6f4c3b34303041204850594c474f52454948204e414954505947453b3330303331,
0x3b3b3b3b3b4e3b3b3b3b3b4c3b303b6f4c3b35303041204850594c474f52454948204e414954505947453b3430303331,
0x3b3b3b3b3b4e3b3b3b3b3b4c3b303b6f4c3b4135303041204850594c474f52454948204e414954505947453b3530303331,
0x3b3b3b3b3b4e3b3b3b3b3b4c3b303b6f4c3b36303041204850594c474f52454948204e414954505947453b3630303331,
0x3b3b3b3b3b4e3b3b3b3b3b4c3b303b6f4c3b4136303041204850594c474f52454948204e414954505947453b3730303331,
0x3b3b3b3b3b4e3b3b3b3b3b4c3b303b6f4c3b4236303041204850594c474f52454948204e414954505947453b3830303331,
0x3b3b3b3b3b4e3b3b3b3b3b4c3b303b6f4c3b37303041204850594c474f52454948204e414954505947453b3930303331,
0x3b3b3b3b3b4e3b3b3b3b3b4c3b303b6f4c3b38303041204850594c474f52454948204e414954505947453b4130303331,
0x3b3b3b3b3b4e3b3b3b3b3b4c3b303b6f4c3b39303041204850594c474f52454948204e414954505947453b4230303331,
0x3b3b3b3b3b4e3b3b3b3b3b4c3b303b6f4c3b30313041204850594c474f52454948204e414954505947453b4330303331,
0x3b3b3b3b3b4e3b3b3b3b3b4c3b303b6f4c3b31313041204850594c474f52454948204e414954505947453b4430303331,
0x3b3b3b3b3b4e3b3b3b3b3b4c3b303b6f4c3b32313041204850594c474f52454948204e414954505947453b4530303331,
0x3b3b3b3b3b4e3b3b3b3b3b4c3b303b6f4c3b33313041204850594c474f52454948204e414954505947453b4630303331,
0x3b3b3b3b3b4e3b3b3b3b3b4c3b303b6f4c3b34313041204850594c474f52454948204e414954505947453b3031303331,
0x3b3b3b3b3b4e3b3b3b3b3b4c3b303b6f4c3b4134313041204850594c474f52454948204e414954505947453b3131303331,
0x3b3b3b3b3b4e3b3b3b3b3b4c3b303b6f4c3b35313041204850594c474f52454948204e414954505947453b3231303331,
0x3b3b3b3b3b4e3b3b3b3b3b4c3b303b6f4c3b36313041204850594c474f52454948204e414954505947453b3331303331,
0x3b3b3b3b3b4e3b3b3b3b3b4c3b303b6f4c3b37313041204850594c474f52454948204e414954505947453b3431303331,
0x3b3b3b3b3b4e3b3b3b3b3b4c3b303b6f4c3b4137313041204850594c474f52454948204e414954505947453b3531303331,
0x3b3b3b3b3b4e3b3b3b3b3b4c3b303b6f4c3b38313041204850594c474f52454948204e414954505947453b3631303331,
0x3b3b3b3b3b4e3b3b3b3b3b4c3b303b6f4c3b39313041204850594c474f52454948204e414954505947453b3731303331,
0x3b3b3b3b3b4e3b3b3b3b3b4c3b303b6f4c3b30323041204850594c474f52454948204e414954505947453b3831303331,
0x3b3b3b3b3b4e3b3b3b3b3b4c3b303b6f4c3b31323041204850594c474f52454948204e414954505947453b3931303331,
0x3b3b3b3b3b4e3b3b3b3b3b4c3b303b6f4c3b32323041204850594c474f52454948204e414954505947453b4131303331,
0x3b3b3b3b3b4e3b3b3b3b3b4c3b303b6f4c3b33323041204850594c474f52454948204e414954505947453b4231303331,
0x3b3b3b3b3b4e3b3b3b3b3b4c3b303b6f4c3b34323041204850594c474f52454948204e414954505947453b4331303331,
0x3b3b3b3b3b4e3b3b3b3b3b4c3b303b6f4c3b35323041204850594c474f52454948204e414954505947453b4431303331,
0x3b3b3b3b3b4e3b3b3b3b3b4c3b303b6f4c3b36323041204850594c474f52454948204e414954505947453b4531303331,
0x3b3b3b3b3b4e3b3b3b3b3b4c3b303b6f4c3b37323041204850594c474f52454948204e414954505947453b4631303331,
0x3b3b3b3b3b4e3b3b3b3b3b4c3b303b6f4c3b38323041204850594c474f52454948204e414954505947453b3032303331,
0x3b3b3b3b3b4e3b3b3b3b3b4c3b303b6f4c3b39323041204850594c474f52454948204e414954505947453b3132303331,
0x3b3b3b3b3b4e3b3b3b3b3b4c3b303b6f4c3b30333041204850594c474f52454948204e414954505947453b3232303331,
0x3b3b3b3b3b4e3b3b3b3b3b4c3b303b6f4c3b31333041204850594c474f52454948204e414954505947453b3332303331,
0x3b3b3b3b3b4e3b3b3b3b3b4c3b303b6f4c3b32333041204850594c474f52454948204e414954505947453b3432303331,
0x3b3b3b3b3b4e3b3b3b3b3b4c3b303b6f4c3b4132333041204850594c474f52454948204e414954505947453b3532303331,
0x3b3b3b3b3b4e3b3b3b3b3b4c3b303b6f4c3b33333041204850594c474f52454948204e414954505947453b3632303331,
0x3b3b3b3b3b4e3b3b3b3b3b4c3b303b6f4c3b34333041204850594c474f52454948204e414954505947453b3732303331,
0x3b3b3b3b3b4e3b3b3b3b3b4c3b303b6f4c3b35333041204850594c474f52454948204e414954505947453b3832303331,
0x3b3b3b3b3b4e3b3b3b3b3b4c3b303b6f4c3b36333041204850594c474f52454948204e414954505947453b3932303331,
0x3b3b3b3b3b4e3b3b3b3b3b4c3b303b6f4c3b37333041204850594c474f52454948204e414954505947453b4132303331,
0x3b3b3b3b3b4e3b3b3b3b3b4c3b303b6f4c3b38333041204850594c474f52454948204e414954505947453b4232303331,
0x3b3b3b3b3b4e3b3b3b3b3b4c3b303b6f4c3b39333041204850594c474f52454948204e414954505947453b4332303331,
0x3b3b3b3b3b4e3b3b3b3b3b4c3b303b6f4c3b30343041204850594c474f52454948204e414954505947453b4432303331,
0x3b3b3b3b3b4e3b3b3b3b3b4c3b303b6f4c3b4130343041204850594c474f52454948204e414954505947453b4532303331,
0x3b3b3b3b3b4e3b3b3b3b3b4c3b303b6f4c3b31343041204850594c474f52454948204e414954505947453b4632303331,
0x3b3b3b3b3b4e3b3b3b3b3b4c3b303b6f4c3b32343041204850594c474f52454948204e414954505947453b3033303331,
0x3b3b3b3b3b4e3b3b3b3b3b4c3b303b6f4c3b4132343041204850594c474f52454948204e414954505947453b3133303331,
0x3b3b3b3b3b4e3b3b3b3b3b4c3b303b6f4c3b33343041204850594c474f52454948204e414954505947453b3233303331,
0x3b3b3b3b3b4e3b3b3b3b3b4c3b303b6f4c3b4133343041204850594c474f52454948204e414954505947453b3333303331,
0x3b3b3b3b3b4e3b3b3b3b3b4c3b303b6f4c3b34343041204850594c474f52454948204e414954505947453b3433303331,
0x3b3b3b3b3b4e3b3b3b3b3b4c3b303b6f4c3b35343041204850594c474f52454948204e414954505947453b3533303331,
0x3b3b3b3b3b4e3b3b3b3b3b4c3b303b6f4c3b4135343041204850594c474f52454948204e414954505947453b3633303331,
0x3b3b3b3b3b4e3b3b3b3b3b4c3b303b6f4c3b36343041204850594c474f52454948204e414954505947453b3733303331,
0x3b3b3b3b3b4e3b3b3b3b3b4c3b303b6f4c3b37343041204850594c474f52454948204e414954505947453b3833303331,
0x3b3b3b3b3b4e3b3b3b3b3b4c3b303b6f4c3b38343041204850594c474f52454948204e414954505947453b3933303331,
0x3b3b3b3b3b4e3b3b3b3b3b4c3b303b6f4c3b39343041204850594c474f52454948204e414954505947453b4133303331,
0x3b3b3b3b3b4e3b3b3b3b3b4c3b303b6f4c3b30353041204850594c474f52454948204e414954505947453b4233303331,
0x3b3b3b3b3b4e3b3b3b3b3b4c3b303b6f4c3b31353041204850594c474f52454948204e414954505947453b4333303331,
0x3b3b3b3b3b4e3b3b3b3b3b4c3b303b6f4c3b32353041204850594c474f52454948204e414954505947453b4433303331,
0x3b3b3b3b3b4e3b3b3b3b3b4c3b303b6f4c3b33353041204850594c474f52454948204e414954505947453b4533303331,
0x3b3b3b3b3b4e3b3b3b3b3b4c3b303b6f4c3b34353041204850594c474f52454948204e414954505947453b4633303331,
0x3b3b3b3b3b4e3b3b3b3b3b4c3b303b6f4c3b35353041204850594c474f52454948204e414954505947453b3034303331,
0x3b3b3b3b3b4e3b3b3b3b3b4c3b303b6f4c3b36353041204850594c474f52454948204e414954505947453b3134303331,
0x3b3b3b3b3b4e3b3b3b3b3b4c3b303b6f4c3b37353041204850594c474f52454948204e414954505947453b3234303331,
0x3b3b3b3b3b4e3b3b3b3b3b4c3b303b6f4c3b38353041204850594c474f52454948204e414954505947453b3334303331,
0x3b3b3b3b3b4e3b3b3b3b3b4c3b303b6f4c3b39353041204850594c474f52454948204e414954505947453b3434303331,
0x3b3b3b3b3b4e3b3b3b3b3b4c3b303b6f4c3b30363041204850594c474f52454948204e414954505947453b3534303331,
0x3b3b3b3b3b4e3b3b3b3b3b4c3b303b6f4c3b31363041204850594c474f52454948204e414954505947453b3634303331,
0x3b3b3b3b3b4e3b3b3b3b3b4c3b303b6f4c3b32363041204850594c474f52454948204e414954505947453b3734303331,
0x3b3b3b3b3b4e3b3b3b3b3b4c3b303b6f4c3b33363041204850594c474f52454948204e414954505947453b3834303331,
0x3b3b3b3b3b4e3b3b3b3b3b4c3b303b6f4c3b34363041204850594c474f52454948204e414954505947453b3934303331,
0x3b3b3b3b3b4e3b3b3b3b3b4c3b303b6f4c3b35363041204850594c474f52454948204e414954505947453b4134303331,
0x3b3b3b3b3b4e3b3b3b3b3b4c3b303b6f4c3b36363041204850594c474f52454948204e414954505947453b4234303331,
0x3b3b3b3b3b4e3b3b3b3b3b4c3b303b6f4c3b37363041204850594c474f52454948204e414954505947453b4334303331,
0x3b3b3b3b3b4e3b3b3b3b3b4c3b303b6f4c3b38363041204850594c474f52454948204e414954505947453b4434303331,
0x3b3b3b3b3b4e3b3b3b3b3b4c3b303b6f4c3b39363041204850594c474f52454948204e414954505947453b4534303331,
0x3b3b3b3b3b4e3b3b3b3b3b4c3b303b6f4c3b30373041204850594c474f52454948204e414954505947453b4634303331,
0x3b3b3b3b3b4e3b3b3b3b3b4c3b303b6f4c3b31303042204850594c474f52454948204e414954505947453b3035303331,
0x3b3b3b3b3b4e3b3b3b3b3b4c3b303b6f4c3b32303042204850594c474f52454948204e414954505947453b3135303331,
0x3b3b3b3b3b4e3b3b3b3b3b4c3b303b6f4c3b33303042204850594c474f52454948204e414954505947453b3235303331,
0x3b3b3b3b3b4e3b3b3b3b3b4c3b303b6f4c3b34303042204850594c474f52454948204e414954505947453b3335303331,
0x3b3b3b3b3b4e3b3b3b3b3b4c3b303b6f4c3b35303042204850594c474f52454948204e414954505947453b3435303331,
0x3b3b3b3b3b4e3b3b3b3b3b4c3b303b6f4c3b4135303042204850594c474f52454948204e414954505947453b3535303331,
0x3b3b3b3b3b4e3b3b3b3b3b4c3b303b6f4c3b36303042204850594c474f52454948204e414954505947453b3635303331,
0x3b3b3b3b3b4e3b3b3b3b3b4c3b303b6f4c3b37303042204850594c474f52454948204e414954505947453b3735303331,
0x3b3b3b3b3b4e3b3b3b3b3b4c3b303b6f4c3b38303042204850594c474f52454948204e414954505947453b3835303331,
0x3b3b3b3b3b4e3b3b3b3b3b4c3b303b6f4c3b39303042204850594c474f52454948204e414954505947453b3935303331,
0x3b3b3b3b3b4e3b3b3b3b3b4c3b303b6f4c3b31303043204850594c474f52454948204e414954505947453b4135303331,
0x3b3b3b3b3b4e3b3b3b3b3b4c3b303b6f4c3b32303043204850594c474f52454948204e414954505947453b4235303331,
0x3b3b3b3b3b4e3b3b3b3b3b4c3b303b6f4c3b4132303043204850594c474f52454948204e414954505947453b4335303331,
0x3b3b3b3b3b4e3b3b3b3b3b4c3b303b6f4c3b4232303043204850594c474f52454948204e414954505947453b4435303331,
0x3b3b3b3b3b4e3b3b3b3b3b4c3b303b6f4c3b4332303043204850594c474f52454948204e414954505947453b4535303331,
0x3b3b3b3b3b4e3b3b3b3b3b4c3b303b6f4c3b33303043204850594c474f52454948204e414954505947453b4635303331,
0x3b3b3b3b3b4e3b3b3b3b3b4c3b303b6f4c3b34303043204850594c474f52454948204e414954505947453b3036303331,
0x3b3b3b3b3b4e3b3b3b3b3b4c3b303b6f4c3b35303043204850594c474f52454948204e414954505947453b3136303331,
0x3b3b3b3b3b4e3b3b3b3b3b4c3b303b6f4c3b36303043204850594c474f52454948204e414954505947453b3236303331,
0x3b3b3b3b3b4e3b3b3b3b3b4c3b303b6f4c3b37303043204850594c474f52454948204e414954505947453b3336303331,
0x3b3b3b3b3b4e3b3b3b3b3b4c3b303b6f4c3b38303043204850594c474f52454948204e414954505947453b3436303331,
0x3b3b3b3b3b4e3b3b3b3b3b4c3b303b6f4c3b39303043204850594c474f52454948204e414954505947453b3536303331,
0x3b3b3b3b3b4e3b3b3b3b3b4c3b303b6f4c3b30313043204850594c474f52454948204e414954505947453b3636303331,
0x3b3b3b3b3b4e3b3b3b3b3b4c3b303b6f4c3b4130313043204850594c474f52454948204e414954505947453b3736303331,
0x3b3b3b3b3b4e3b3b3b3b3b4c3b303b6f4c3b31313043204850594c474f52454948204e414954505947453b3836303331,
0x3b3b3b3b3b4e3b3b3b3b3b4c3b303b6f4c3b32313043204850594c474f52454948204e414954505947453b3936303331,
0x3b3b3b3b3b4e3b3b3b3b3b4c3b303b6f4c3b33313043204850594c474f52454948204e414954505947453b4136303331,
0x3b3b3b3b3b4e3b3b3b3b3b4c3b303b6f4c3b34313043204850594c474f52454948204e414954505947453b4236303331,
0x3b3b3b3b3b4e3b3b3b3b3b4c3b303b6f4c3b35313043204850594c474f52454948204e414954505947453b4336303331,
0x3b3b3b3b3b4e3b3b3b3b3b4c3b303b6f4c3b36313043204850594c474f52454948204e414954505947453b4436303331,
0x3b3b3b3b3b4e3b3b3b3b3b4c3b303b6f4c3b37313043204850594c474f52454948204e414954505947453b4536303331,
0x3b3b3b3b3b4e3b3b3b3b3b4c3b303b6f4c3b38313043204850594c474f52454948204e414954505947453b4636303331,
0x3b3b3b3b3b4e3b3b3b3b3b4c3b303b6f4c3b39313043204850594c474f52454948204e414954505947453b3037303331,
0x3b3b3b3b3b4e3b3b3b3b3b4c3b303b6f4c3b30323043204850594c474f52454948204e414954505947453b3137303331,
0x3b3b3b3b3b4e3b3b3b3b3b4c3b303b6f4c3b31323043204850594c474f52454948204e414954505947453b3237303331,
0x3b3b3b3b3b4e3b3b3b3b3b4c3b303b6f4c3b32323043204850594c474f52454948204e414954505947453b3337303331,
0x3b3b3b3b3b4e3b3b3b3b3b4c3b303b6f4c3b33323043204850594c474f52454948204e414954505947453b3437303331,
0x3b3b3b3b3b4e3b3b3b3b3b4c3b303b6f4c3b34323043204850594c474f52454948204e414954505947453b3537303331,
0x3b3b3b3b3b4e3b3b3b3b3b4c3b303b6f4c3b31303044204850594c474f52454948204e414954505947453b3637303331,
0x3b3b3b3b3b4e3b3b3b3b3b4c3b303b6f4c3b32303044204850594c474f52454948204e414954505947453b3737303331,
0x3b3b3b3b3b4e3b3b3b3b3b4c3b303b6f4c3b33303044204850594c474f52454948204e414954505947453b3837303331,
0x3b3b3b3b3b4e3b3b3b3b3b4c3b303b6f4c3b34303044204850594c474f52454948204e414954505947453b3937303331,
0x3b3b3b3b3b4e3b3b3b3b3b4c3b303b6f4c3b35303044204850594c474f52454948204e414954505947453b4137303331,
0x3b3b3b3b3b4e3b3b3b3b3b4c3b303b6f4c3b36303044204850594c474f52454948204e414954505947453b4237303331,
0x3b3b3b3b3b4e3b3b3b3b3b4c3b303b6f4c3b37303044204850594c474f52454948204e414954505947453b4337303331,
0x3b3b3b3b3b4e3b3b3b3b3b4c3b303b6f4c3b38303044204850594c474f52454948204e414954505947453b4437303331,
0x3b3b3b3b3b4e3b3b3b3b3b4c3b303b6f4c3b4138303044204850594c474f52454948204e414954505947453b4537303331,
0x3b3b3b3b3b4e3b3b3b3b3b4c3b303b6f4c3b39303044204850594c474f52454948204e414954505947453b4637303331,
0x3b3b3b3b3b4e3b3b3b3b3b4c3b303b6f4c3b30313044204850594c474f52454948204e414954505947453b3038303331,
0x3b3b3b3b3b4e3b3b3b3b3b4c3b303b6f4c3b31313044204850594c474f52454948204e414954505947453b3138303331,
0x3b3b3b3b3b4e3b3b3b3b3b4c3b303b6f4c3b32313044204850594c474f52454948204e414954505947453b3238303331,
0x3b3b3b3b3b4e3b3b3b3b3b4c3b303b6f4c3b33313044204850594c474f52454948204e414954505947453b3338303331,
0x3b3b3b3b3b4e3b3b3b3b3b4c3b303b6f4c3b34313044204850594c474f52454948204e414954505947453b3438303331,
0x3b3b3b3b3b4e3b3b3b3b3b4c3b303b6f4c3b35313044204850594c474f52454948204e414954505947453b3538303331,
0x3b3b3b3b3b4e3b3b3b3b3b4c3b303b6f4c3b36313044204850594c474f52454948204e414954505947453b3638303331,
0x3b3b3b3b3b4e3b3b3b3b3b4c3b303b6f4c3b37313044204850594c474f52454948204e414954505947453b3738303331,
0x3b3b3b3b3b4e3b3b3b3b3b4c3b303b6f4c3b38313044204850594c474f52454948204e414954505947453b3838303331,
0x3b3b3b3b3b4e3b3b3b3b3b4c3b303b6f4c3b39313044204850594c474f52454948204e414954505947453b3938303331,
0x3b3b3b3b3b4e3b3b3b3b3b4c3b303b6f4c3b30323044204850594c474f52454948204e414954505947453b4138303331,
0x3b3b3b3b3b4e3b3b3b3b3b4c3b303b6f4c3b31323044204850594c474f52454948204e414954505947453b4238303331,
0x3b3b3b3b3b4e3b3b3b3b3b4c3b303b6f4c3b32323044204850594c474f52454948204e414954505947453b4338303331,
0x3b3b3b3b3b4e3b3b3b3b3b4c3b303b6f4c3b33323044204850594c474f52454948204e414954505947453b4438303331,
0x3b3b3b3b3b4e3b3b3b3b3b4c3b303b6f4c3b34323044204850594c474f52454948204e414954505947453b4538303331,
0x3b3b3b3b3b4e3b3b3b3b3b4c3b303b6f4c3b35323044204850594c474f52454948204e414954505947453b4638303331,
0x3b3b3b3b3b4e3b3b3b3b3b4c3b303b6f4c3b36323044204850594c474f52454948204e414954505947453b3039303331,
0x3b3b3b3b3b4e3b3b3b3b3b4c3b303b6f4c3b37323044204850594c474f52454948204e414954505947453b3139303331,
0x3b3b3b3b3b4e3b3b3b3b3b4c3b303b6f4c3b4137323044204850594c474f52454948204e414954505947453b3239303331,
0x3b3b3b3b3b4e3b3b3b3b3b4c3b303b6f4c3b38323044204850594c474f52454948204e414954505947453b3339303331,
0x3b3b3b3b3b4e3b3b3b3b3b4c3b303b6f4c3b39323044204850594c474f52454948204e414954505947453b3439303331,
0x3b3b3b3b3b4e3b3b3b3b3b4c3b303b6f4c3b30333044204850594c474f52454948204e414954505947453b3539303331,
0x3b3b3b3b3b4e3b3b3b3b3b4c3b303b6f4c3b31333044204850594c474f52454948204e414954505947453b3639303331,
0x3b3b3b3b3b4e3b3b3b3b3b4c3b303b6f4c3b4131333044204850594c474f52454948204e414954505947453b3739303331,
0x3b3b3b3b3b4e3b3b3b3b3b4c3b303b6f4c3b32333044204850594c474f52454948204e414954505947453b3839303331,
0x3b3b3b3b3b4e3b3b3b3b3b4c3b303b6f4c3b33333044204850594c474f52454948204e414954505947453b3939303331,
0x3b3b3b3b3b4e3b3b3b3b3b4c3b303b6f4c3b34333044204850594c474f52454948204e414954505947453b4139303331,
0x3b3b3b3b3b4e3b3b3b3b3b4c3b303b6f4c3b4134333044204850594c474f52454948204e414954505947453b4239303331,
0x3b3b3b3b3b4e3b3b3b3b3b4c3b303b6f4c3b35333044204850594c474f52454948204e414954505947453b4339303331,
0x3b3b3b3b3b4e3b3b3b3b3b4c3b303b6f4c3b36333044204850594c474f52454948204e414954505947453b4439303331,
0x3b3b3b3b3b4e3b3b3b3b3b4c3b303b6f4c3b37333044204850594c474f52454948204e414954505947453b4539303331,
0x3b3b3b3b3b4e3b3b3b3b3b4c3b303b6f4c3b38333044204850594c474f52454948204e414954505947453b4639303331,
0x3b3b3b3b3b4e3b3b3b3b3b4c3b303b6f4c3b39333044204850594c474f52454948204e414954505947453b3041303331,
0x3b3b3b3b3b4e3b3b3b3b3b4c3b303b6f4c3b30343044204850594c474f52454948204e414954505947453b3141303331,
0x3b3b3b3b3b4e3b3b3b3b3b4c3b303b6f4c3b31343044204850594c474f52454948204e414954505947453b3241303331,
0x3b3b3b3b3b4e3b3b3b3b3b4c3b303b6f4c3b32343044204850594c474f52454948204e414954505947453b3341303331,
0x3b3b3b3b3b4e3b3b3b3b3b4c3b303b6f4c3b33343044204850594c474f52454948204e414954505947453b3441303331,
0x3b3b3b3b3b4e3b3b3b3b3b4c3b303b6f4c3b34343044204850594c474f52454948204e414954505947453b3541303331,
0x3b3b3b3b3b4e3b3b3b3b3b4c3b303b6f4c3b35343044204850594c474f52454948204e414954505947453b3641303331,
0x3b3b3b3b3b4e3b3b3b3b3b4c3b303b6f4c3b36343044204850594c474f52454948204e414954505947453b3741303331,
0x3b3b3b3b3b4e3b3b3b3b3b4c3b303b6f4c3b4136343044204850594c474f52454948204e414954505947453b3841303331,
0x3b3b3b3b3b4e3b3b3b3b3b4c3b303b6f4c3b37343044204850594c474f52454948204e414954505947453b3941303331,
0x3b3b3b3b3b4e3b3b3b3b3b4c3b303b6f4c3b38343044204850594c474f52454948204e414954505947453b4141303331,
0x3b3b3b3b3b4e3b3b3b3b3b4c3b303b6f4c3b4138343044204850594c474f52454948204e414954505947453b4241303331,
0x3b3b3b3b3b4e3b3b3b3b3b4c3b303b6f4c3b39343044204850594c474f52454948204e414954505947453b4341303331,
0x3b3b3b3b3b4e3b3b3b3b3b4c3b303b6f4c3b30353044204850594c474f52454948204e414954505947453b4441303331,
0x3b3b3b3b3b4e3b3b3b3b3b4c3b303b6f4c3b4130353044204850594c474f52454948204e414954505947453b4541303331,
0x3b3b3b3b3b4e3b3b3b3b3b4c3b303b6f4c3b4230353044204850594c474f52454948204e414954505947453b4641303331,
0x3b3b3b3b3b4e3b3b3b3b3b4c3b303b6f4c3b4330353044204850594c474f52454948204e414954505947453b3042303331,
0x3b3b3b3b3b4e3b3b3b3b3b4c3b303b6f4c3b4430353044204850594c474f52454948204e414954505947453b3142303331,
0x3b3b3b3b3b4e3b3b3b3b3b4c3b303b6f4c3b4530353044204850594c474f52454948204e414954505947453b3242303331,
0x3b3b3b3b3b4e3b3b3b3b3b4c3b303b6f4c3b4630353044204850594c474f52454948204e414954505947453b3342303331,
0x3b3b3b3b3b4e3b3b3b3b3b4c3b303b6f4c3b4730353044204850594c474f52454948204e414954505947453b3442303331,
0x3b3b3b3b3b4e3b3b3b3b3b4c3b303b6f4c3b4830353044204850594c474f52454948204e414954505947453b3542303331,
0x3b3b3b3b3b4e3b3b3b3b3b4c3b303b6f4c3b4930353044204850594c474f52454948204e414954505947453b3642303331,
0x3b3b3b3b3b4e3b3b3b3b3b4c3b303b6f4c3b31353044204850594c474f52454948204e414954505947453b3742303331,
0x3b3b3b3b3b4e3b3b3b3b3b4c3b303b6f4c3b32353044204850594c474f52454948204e414954505947453b3842303331,
0x3b3b3b3b3b4e3b3b3b3b3b4c3b303b6f4c3b4132353044204850594c474f52454948204e414954505947453b3942303331,
0x3b3b3b3b3b4e3b3b3b3b3b4c3b303b6f4c3b33353044204850594c474f52454948204e414954505947453b4142303331,
0x3b3b3b3b3b4e3b3b3b3b3b4c3b303b6f4c3b34353044204850594c474f52454948204e414954505947453b4242303331,
0x3b3b3b3b3b4e3b3b3b3b3b4c3b303b6f4c3b4134353044204850594c474f52454948204e414954505947453b4342303331,
0x3b3b3b3b3b4e3b3b3b3b3b4c3b303b6f4c3b35353044204850594c474f52454948204e414954505947453b4442303331,
0x3b3b3b3b3b4e3b3b3b3b3b4c3b303b6f4c3b36353044204850594c474f52454948204e414954505947453b4542303331,
0x3b3b3b3b3b4e3b3b3b3b3b4c3b303b6f4c3b37353044204850594c474f52454948204e414954505947453b4642303331,
0x3b3b3b3b3b4e3b3b3b3b3b4c3b303b6f4c3b38353044204850594c474f52454948204e414954505947453b3043303331,
0x3b3b3b3b3b4e3b3b3b3b3b4c3b303b6f4c3b39353044204850594c474f52454948204e414954505947453b3143303331,
0x3b3b3b3b3b4e3b3b3b3b3b4c3b303b6f4c3b30363044204850594c474f52454948204e414954505947453b3243303331,
0x3b3b3b3b3b4e3b3b3b3b3b4c3b303b6f4c3b31363044204850594c474f52454948204e414954505947453b3343303331,
0x3b3b3b3b3b4e3b3b3b3b3b4c3b303b6f4c3b32363044204850594c474f52454948204e414954505947453b3443303331,
0x3b3b3b3b3b4e3b3b3b3b3b4c3b303b6f4c3b33363044204850594c474f52454948204e414954505947453b3543303331,
0x3b3b3b3b3b4e3b3b3b3b3b4c3b303b6f4c3b34363044204850594c474f52454948204e414954505947453b3643303331,
0x3b3b3b3b3b4e3b3b3b3b3b4c3b303b6f4c3b35363044204850594c474f52454948204e414954505947453b3743303331,
0x3b3b3b3b3b4e3b3b3b3b3b4c3b303b6f4c3b36363044204850594c474f52454948204e414954505947453b3843303331,
0x3b3b3b3b3b4e3b3b3b3b3b4c3b303b6f4c3b37363044204850594c474f52454948204e414954505947453b3943303331,
0x3b3b3b3b3b4e3b3b3b3b3b4c3b303b6f4c3b4137363044204850594c474f52454948204e414954505947453b4143303331,
0x3b3b3b3b3b4e3b3b3b3b3b4c3b303b6f4c3b4237363044204850594c474f52454948204e414954505947453b4243303331,
0x3b3b3b3b3b4e3b3b3b3b3b4c3b303b6f4c3b4337363044204850594c474f52454948204e414954505947453b4343303331,
0x3b3b3b3b3b4e3b3b3b3b3b4c3b303b6f4c3b4437363044204850594c474f52454948204e414954505947453b4443303331,
0x3b3b3b3b3b4e3b3b3b3b3b4c3b303b6f4c3b4537363044204850594c474f52454948204e414954505947453b4543303331,
0x3b3b3b3b3b4e3b3b3b3b3b4c3b303b6f4c3b4637363044204850594c474f52454948204e414954505947453b4643303331,
0x3b3b3b3b3b4e3b3b3b3b3b4c3b303b6f4c3b4737363044204850594c474f52454948204e414954505947453b3044303331,
0x3b3b3b3b3b4e3b3b3b3b3b4c3b303b6f4c3b4837363044204850594c474f52454948204e414954505947453b3144303331,
0x3b3b3b3b3b4e3b3b3b3b3b4c3b303b6f4c3b31303045204850594c474f52454948204e414954505947453b3244303331,
0x3b3b3b3b3b4e3b3b3b3b3b4c3b303b6f4c3b32303045204850594c474f52454948204e414954505947453b3344303331,
0x3b3b3b3b3b4e3b3b3b3b3b4c3b303b6f4c3b33303045204850594c474f52454948204e414954505947453b3444303331,
0x3b3b3b3b3b4e3b3b3b3b3b4c3b303b6f4c3b34303045204850594c474f52454948204e414954505947453b3544303331,
0x3b3b3b3b3b4e3b3b3b3b3b4c3b303b6f4c3b35303045204850594c474f52454948204e414954505947453b3644303331,
0x3b3b3b3b3b4e3b3b3b3b3b4c3b303b6f4c3b36303045204850594c474f52454948204e414954505947453b3744303331,
0x3b3b3b3b3b4e3b3b3b3b3b4c3b303b6f4c3b37303045204850594c474f52454948204e414954505947453b3844303331,
0x3b3b3b3b3b4e3b3b3b3b3b4c3b303b6f4c3b38303045204850594c474f52454948204e414954505947453b3944303331,
0x3b3b3b3b3b4e3b3b3b3b3b4c3b303b6f4c3b4138303045204850594c474f52454948204e414954505947453b4144303331,
0x3b3b3b3b3b4e3b3b3b3b3b4c3b303b6f4c3b39303045204850594c474f52454948204e414954505947453b4244303331,
0x3b3b3b3b3b4e3b3b3b3b3b4c3b303b6f4c3b4139303045204850594c474f52454948204e414954505947453b4344303331,
0x3b3b3b3b3b4e3b3b3b3b3b4c3b303b6f4c3b30313045204850594c474f52454948204e414954505947453b4444303331,
0x3b3b3b3b3b4e3b3b3b3b3b4c3b303b6f4c3b31313045204850594c474f52454948204e414954505947453b4544303331,
0x3b3b3b3b3b4e3b3b3b3b3b4c3b303b6f4c3b32313045204850594c474f52454948204e414954505947453b4644303331,
0x3b3b3b3b3b4e3b3b3b3b3b4c3b303b6f4c3b33313045204850594c474f52454948204e414954505947453b3045303331,
0x3b3b3b3b3b4e3b3b3b3b3b4c3b303b6f4c3b34313045204850594c474f52454948204e414954505947453b3145303331,
0x3b3b3b3b3b4e3b3b3b3b3b4c3b303b6f4c3b35313045204850594c474f52454948204e414954505947453b3245303331,
0x3b3b3b3b3b4e3b3b3b3b3b4c3b303b6f4c3b36313045204850594c474f52454948204e414954505947453b3345303331,
0x3b3b3b3b3b4e3b3b3b3b3b4c3b303b6f4c3b4136313045204850594c474f52454948204e414954505947453b3445303331,
0x3b3b3b3b3b4e3b3b3b3b3b4c3b303b6f4c3b37313045204850594c474f52454948204e414954505947453b3545303331,
0x3b3b3b3b3b4e3b3b3b3b3b4c3b303b6f4c3b4137313045204850594c474f52454948204e414954505947453b3645303331,
0x3b3b3b3b3b4e3b3b3b3b3b4c3b303b6f4c3b38313045204850594c474f52454948204e414954505947453b3745303331,
0x3b3b3b3b3b4e3b3b3b3b3b4c3b303b6f4c3b39313045204850594c474f52454948204e414954505947453b3845303331,
0x3b3b3b3b3b4e3b3b3b3b3b4c3b303b6f4c3b30323045204850594c474f52454948204e414954505947453b3945303331]

/-- src/u5e/props/UnicodeData.txt lines 21761-22016. -/
def rawUcd85 : List Nat := [
0x3b3b3b3b3b4e3b3b3b3b3b4c3b303b6f4c3b4130323045204850594c474f52454948204e414954505947453b4145303331,
0x3b3b3b3b3b4e3b3b3b3b3b4c3b303b6f4c3b31323045204850594c474f52454948204e414954505947453b4245303331,
0x3b3b3b3b3b4e3b3b3b3b3b4c3b303b6f4c3b32323045204850594c474f52454948204e414954505947453b4345303331,
0x3b3b3b3b3b4e3b3b3b3b3b4c3b303b6f4c3b33323045204850594c474f52454948204e414954505947453b4445303331,
0x3b3b3b3b3b4e3b3b3b3b3b4c3b303b6f4c3b34323045204850594c474f52454948204e414954505947453b4545303331,
0x3b3b3b3b3b4e3b3b3b3b3b4c3b303b6f4c3b35323045204850594c474f52454948204e414954505947453b4645303331,
0x3b3b3b3b3b4e3b3b3b3b3b4c3b303b6f4c3b36323045204850594c474f52454948204e414954505947453b3046303331,
0x3b3b3b3b3b4e3b3b3b3b3b4c3b303b6f4c3b37323045204850594c474f52454948204e414954505947453b3146303331,
0x3b3b3b3b3b4e3b3b3b3b3b4c3b303b6f4c3b38323045204850594c474f52454948204e414954505947453b3246303331,
0x3b3b3b3b3b4e3b3b3b3b3b4c3b303b6f4c3b4138323045204850594c474f52454948204e414954505947453b3346303331,
0x3b3b3b3b3b4e3b3b3b3b3b4c3b303b6f4c3b39323045204850594c474f52454948204e414954505947453b3446303331,
0x3b3b3b3b3b4e3b3b3b3b3b4c3b303b6f4c3b30333045204850594c474f52454948204e414954505947453b3546303331,
0x3b3b3b3b3b4e3b3b3b3b3b4c3b303b6f4c3b31333045204850594c474f52454948204e414954505947453b3646303331,
0x3b3b3b3b3b4e3b3b3b3b3b4c3b303b6f4c3b32333045204850594c474f52454948204e414954505947453b3746303331,
0x3b3b3b3b3b4e3b3b3b3b3b4c3b303b6f4c3b33333045204850594c474f52454948204e414954505947453b3846303331,
0x3b3b3b3b3b4e3b3b3b3b3b4c3b303b6f4c3b34333045204850594c474f52454948204e414954505947453b3946303331,
0x3b3b3b3b3b4e3b3b3b3b3b4c3b303b6f4c3b4134333045204850594c474f52454948204e414954505947453b4146303331,
0x3b3b3b3b3b4e3b3b3b3b3b4c3b303b6f4c3b36333045204850594c474f52454948204e414954505947453b4246303331,
0x3b3b3b3b3b4e3b3b3b3b3b4c3b303b6f4c3b37333045204850594c474f52454948204e414954505947453b4346303331,
0x3b3b3b3b3b4e3b3b3b3b3b4c3b303b6f4c3b38333045204850594c474f52454948204e414954505947453b4446303331,
0x3b3b3b3b3b4e3b3b3b3b3b4c3b303b6f4c3b31303046204850594c474f52454948204e414954505947453b4546303331,
0x3b3b3b3b3b4e3b3b3b3b3b4c3b303b6f4c3b4131303046204850594c474f52454948204e414954505947453b4646303331,
0x3b3b3b3b3b4e3b3b3b3b3b4c3b303b6f4c3b32303046204850594c474f52454948204e414954505947453b3030313331,
0x3b3b3b3b3b4e3b3b3b3b3b4c3b303b6f4c3b33303046204850594c474f52454948204e414954505947453b3130313331,
0x3b3b3b3b3b4e3b3b3b3b3b4c3b303b6f4c3b34303046204850594c474f52454948204e414954505947453b3230313331,
0x3b3b3b3b3b4e3b3b3b3b3b4c3b303b6f4c3b35303046204850594c474f52454948204e414954505947453b3330313331,
0x3b3b3b3b3b4e3b3b3b3b3b4c3b303b6f4c3b36303046204850594c474f52454948204e414954505947453b3430313331,
0x3b3b3b3b3b4e3b3b3b3b3b4c3b303b6f4c3b37303046204850594c474f52454948204e414954505947453b3530313331,
0x3b3b3b3b3b4e3b3b3b3b3b4c3b303b6f4c3b38303046204850594c474f52454948204e414954505947453b3630313331,
0x3b3b3b3b3b4e3b3b3b3b3b4c3b303b6f4c3b39303046204850594c474f52454948204e414954505947453b3730313331,
0x3b3b3b3b3b4e3b3b3b3b3b4c3b303b6f4c3b30313046204850594c474f52454948204e414954505947453b3830313331,
0x3b3b3b3b3b4e3b3b3b3b3b4c3b303b6f4c3b31313046204850594c474f52454948204e414954505947453b3930313331,
0x3b3b3b3b3b4e3b3b3b3b3b4c3b303b6f4c3b32313046204850594c474f52454948204e414954505947453b4130313331,
0x3b3b3b3b3b4e3b3b3b3b3b4c3b303b6f4c3b33313046204850594c474f52454948204e414954505947453b4230313331,
0x3b3b3b3b3b4e3b3b3b3b3b4c3b303b6f4c3b4133313046204850594c474f52454948204e414954505947453b4330313331,
0x3b3b3b3b3b4e3b3b3b3b3b4c3b303b6f4c3b34313046204850594c474f52454948204e414954505947453b4430313331,
0x3b3b3b3b3b4e3b3b3b3b3b4c3b303b6f4c3b35313046204850594c474f52454948204e414954505947453b4530313331,
0x3b3b3b3b3b4e3b3b3b3b3b4c3b303b6f4c3b36313046204850594c474f52454948204e414954505947453b4630313331,
0x3b3b3b3b3b4e3b3b3b3b3b4c3b303b6f4c3b37313046204850594c474f52454948204e414954505947453b3031313331,
0x3b3b3b3b3b4e3b3b3b3b3b4c3b303b6f4c3b38313046204850594c474f52454948204e414954505947453b3131313331,
0x3b3b3b3b3b4e3b3b3b3b3b4c3b303b6f4c3b39313046204850594c474f52454948204e414954505947453b3231313331,
0x3b3b3b3b3b4e3b3b3b3b3b4c3b303b6f4c3b30323046204850594c474f52454948204e414954505947453b3331313331,
0x3b3b3b3b3b4e3b3b3b3b3b4c3b303b6f4c3b31323046204850594c474f52454948204e414954505947453b3431313331,
0x3b3b3b3b3b4e3b3b3b3b3b4c3b303b6f4c3b4131323046204850594c474f52454948204e414954505947453b3531313331,
0x3b3b3b3b3b4e3b3b3b3b3b4c3b303b6f4c3b32323046204850594c474f52454948204e414954505947453b3631313331,
0x3b3b3b3b3b4e3b3b3b3b3b4c3b303b6f4c3b33323046204850594c474f52454948204e414954505947453b3731313331,
0x3b3b3b3b3b4e3b3b3b3b3b4c3b303b6f4c3b34323046204850594c474f52454948204e414954505947453b3831313331,
0x3b3b3b3b3b4e3b3b3b3b3b4c3b303b6f4c3b35323046204850594c474f52454948204e414954505947453b3931313331,
0x3b3b3b3b3b4e3b3b3b3b3b4c3b303b6f4c3b36323046204850594c474f52454948204e414954505947453b4131313331,
0x3b3b3b3b3b4e3b3b3b3b3b4c3b303b6f4c3b37323046204850594c474f52454948204e414954505947453b4231313331,
0x3b3b3b3b3b4e3b3b3b3b3b4c3b303b6f4c3b38323046204850594c474f52454948204e414954505947453b4331313331,
0x3b3b3b3b3b4e3b3b3b3b3b4c3b303b6f4c3b39323046204850594c474f52454948204e414954505947453b4431313331,
0x3b3b3b3b3b4e3b3b3b3b3b4c3b303b6f4c3b30333046204850594c474f52454948204e414954505947453b4531313331,
0x3b3b3b3b3b4e3b3b3b3b3b4c3b303b6f4c3b31333046204850594c474f52454948204e414954505947453b4631313331,
0x3b3b3b3b3b4e3b3b3b3b3b4c3b303b6f4c3b4131333046204850594c474f52454948204e414954505947453b3032313331,
0x3b3b3b3b3b4e3b3b3b3b3b4c3b303b6f4c3b32333046204850594c474f52454948204e414954505947453b3132313331,
0x3b3b3b3b3b4e3b3b3b3b3b4c3b303b6f4c3b33333046204850594c474f52454948204e414954505947453b3232313331,
0x3b3b3b3b3b4e3b3b3b3b3b4c3b303b6f4c3b34333046204850594c474f52454948204e414954505947453b3332313331,
0x3b3b3b3b3b4e3b3b3b3b3b4c3b303b6f4c3b35333046204850594c474f52454948204e414954505947453b3432313331,
0x3b3b3b3b3b4e3b3b3b3b3b4c3b303b6f4c3b36333046204850594c474f52454948204e414954505947453b3532313331,
0x3b3b3b3b3b4e3b3b3b3b3b4c3b303b6f4c3b37333046204850594c474f52454948204e414954505947453b3632313331,
0x3b3b3b3b3b4e3b3b3b3b3b4c3b303b6f4c3b4137333046204850594c474f52454948204e414954505947453b3732313331,
0x3b3b3b3b3b4e3b3b3b3b3b4c3b303b6f4c3b38333046204850594c474f52454948204e414954505947453b3832313331,
0x3b3b3b3b3b4e3b3b3b3b3b4c3b303b6f4c3b4138333046204850594c474f52454948204e414954505947453b3932313331,
0x3b3b3b3b3b4e3b3b3b3b3b4c3b303b6f4c3b39333046204850594c474f52454948204e414954505947453b4132313331,
0x3b3b3b3b3b4e3b3b3b3b3b4c3b303b6f4c3b30343046204850594c474f52454948204e414954505947453b4232313331,
0x3b3b3b3b3b4e3b3b3b3b3b4c3b303b6f4c3b31343046204850594c474f52454948204e414954505947453b4332313331,
0x3b3b3b3b3b4e3b3b3b3b3b4c3b303b6f4c3b32343046204850594c474f52454948204e414954505947453b4432313331,
0x3b3b3b3b3b4e3b3b3b3b3b4c3b303b6f4c3b33343046204850594c474f52454948204e414954505947453b4532313331,
0x3b3b3b3b3b4e3b3b3b3b3b4c3b303b6f4c3b34343046204850594c474f52454948204e414954505947453b4632313331,
0x3b3b3b3b3b4e3b3b3b3b3b4c3b303b6f4c3b35343046204850594c474f52454948204e414954505947453b3033313331,
0x3b3b3b3b3b4e3b3b3b3b3b4c3b303b6f4c3b4135343046204850594c474f52454948204e414954505947453b3133313331,
0x3b3b3b3b3b4e3b3b3b3b3b4c3b303b6f4c3b36343046204850594c474f52454948204e414954505947453b3233313331,
0x3b3b3b3b3b4e3b3b3b3b3b4c3b303b6f4c3b4136343046204850594c474f52454948204e414954505947453b3333313331,
0x3b3b3b3b3b4e3b3b3b3b3b4c3b303b6f4c3b37343046204850594c474f52454948204e414954505947453b3433313331,
0x3b3b3b3b3b4e3b3b3b3b3b4c3b303b6f4c3b4137343046204850594c474f52454948204e414954505947453b3533313331,
0x3b3b3b3b3b4e3b3b3b3b3b4c3b303b6f4c3b38343046204850594c474f52454948204e414954505947453b3633313331,
0x3b3b3b3b3b4e3b3b3b3b3b4c3b303b6f4c3b39343046204850594c474f52454948204e414954505947453b3733313331,
0x3b3b3b3b3b4e3b3b3b3b3b4c3b303b6f4c3b30353046204850594c474f52454948204e414954505947453b3833313331,
0x3b3b3b3b3b4e3b3b3b3b3b4c3b303b6f4c3b31353046204850594c474f52454948204e414954505947453b3933313331,
0x3b3b3b3b3b4e3b3b3b3b3b4c3b303b6f4c3b4131353046204850594c474f52454948204e414954505947453b4133313331,
0x3b3b3b3b3b4e3b3b3b3b3b4c3b303b6f4c3b4231353046204850594c474f52454948204e414954505947453b4233313331,
0x3b3b3b3b3b4e3b3b3b3b3b4c3b303b6f4c3b4331353046204850594c474f52454948204e414954505947453b4333313331,
0x3b3b3b3b3b4e3b3b3b3b3b4c3b303b6f4c3b32353046204850594c474f52454948204e414954505947453b4433313331,
0x3b3b3b3b3b4e3b3b3b3b3b4c3b303b6f4c3b33353046204850594c474f52454948204e414954505947453b4533313331,
0x3b3b3b3b3b4e3b3b3b3b3b4c3b303b6f4c3b31303047204850594c474f52454948204e414954505947453b4633313331,
0x3b3b3b3b3b4e3b3b3b3b3b4c3b303b6f4c3b32303047204850594c474f52454948204e414954505947453b3034313331,
0x3b3b3b3b3b4e3b3b3b3b3b4c3b303b6f4c3b33303047204850594c474f52454948204e414954505947453b3134313331,
0x3b3b3b3b3b4e3b3b3b3b3b4c3b303b6f4c3b34303047204850594c474f52454948204e414954505947453b3234313331,
0x3b3b3b3b3b4e3b3b3b3b3b4c3b303b6f4c3b35303047204850594c474f52454948204e414954505947453b3334313331,
0x3b3b3b3b3b4e3b3b3b3b3b4c3b303b6f4c3b36303047204850594c474f52454948204e414954505947453b3434313331,
0x3b3b3b3b3b4e3b3b3b3b3b4c3b303b6f4c3b4136303047204850594c474f52454948204e414954505947453b3534313331,
0x3b3b3b3b3b4e3b3b3b3b3b4c3b303b6f4c3b37303047204850594c474f52454948204e414954505947453b3634313331,
0x3b3b3b3b3b4e3b3b3b3b3b4c3b303b6f4c3b4137303047204850594c474f52454948204e414954505947453b3734313331,
0x3b3b3b3b3b4e3b3b3b3b3b4c3b303b6f4c3b4237303047204850594c474f52454948204e414954505947453b3834313331,
0x3b3b3b3b3b4e3b3b3b3b3b4c3b303b6f4c3b38303047204850594c474f52454948204e414954505947453b3934313331,
0x3b3b3b3b3b4e3b3b3b3b3b4c3b303b6f4c3b39303047204850594c474f52454948204e414954505947453b4134313331,
0x3b3b3b3b3b4e3b3b3b3b3b4c3b303b6f4c3b30313047204850594c474f52454948204e414954505947453b4234313331,
0x3b3b3b3b3b4e3b3b3b3b3b4c3b303b6f4c3b31313047204850594c474f52454948204e414954505947453b4334313331,
0x3b3b3b3b3b4e3b3b3b3b3b4c3b303b6f4c3b4131313047204850594c474f52454948204e414954505947453b4434313331,
0x3b3b3b3b3b4e3b3b3b3b3b4c3b303b6f4c3b32313047204850594c474f52454948204e414954505947453b4534313331,
0x3b3b3b3b3b4e3b3b3b3b3b4c3b303b6f4c3b33313047204850594c474f52454948204e414954505947453b4634313331,
0x3b3b3b3b3b4e3b3b3b3b3b4c3b303b6f4c3b34313047204850594c474f52454948204e414954505947453b3035313331,
0x3b3b3b3b3b4e3b3b3b3b3b4c3b303b6f4c3b35313047204850594c474f52454948204e414954505947453b3135313331,
0x3b3b3b3b3b4e3b3b3b3b3b4c3b303b6f4c3b36313047204850594c474f52454948204e414954505947453b3235313331,
0x3b3b3b3b3b4e3b3b3b3b3b4c3b303b6f4c3b37313047204850594c474f52454948204e414954505947453b3335313331,
0x3b3b3b3b3b4e3b3b3b3b3b4c3b303b6f4c3b38313047204850594c474f52454948204e414954505947453b3435313331,
0x3b3b3b3b3b4e3b3b3b3b3b4c3b303b6f4c3b39313047204850594c474f52454948204e414954505947453b3535313331,
0x3b3b3b3b3b4e3b3b3b3b3b4c3b303b6f4c3b30323047204850594c474f52454948204e414954505947453b3635313331,
0x3b3b3b3b3b4e3b3b3b3b3b4c3b303b6f4c3b4130323047204850594c474f52454948204e414954505947453b3735313331,
0x3b3b3b3b3b4e3b3b3b3b3b4c3b303b6f4c3b31323047204850594c474f52454948204e414954505947453b3835313331,
0x3b3b3b3b3b4e3b3b3b3b3b4c3b303b6f4c3b32323047204850594c474f52454948204e414954505947453b3935313331,
0x3b3b3b3b3b4e3b3b3b3b3b4c3b303b6f4c3b33323047204850594c474f52454948204e414954505947453b4135313331,
0x3b3b3b3b3b4e3b3b3b3b3b4c3b303b6f4c3b34323047204850594c474f52454948204e414954505947453b4235313331,
0x3b3b3b3b3b4e3b3b3b3b3b4c3b303b6f4c3b35323047204850594c474f52454948204e414954505947453b4335313331,
0x3b3b3b3b3b4e3b3b3b3b3b4c3b303b6f4c3b36323047204850594c474f52454948204e414954505947453b4435313331,
0x3b3b3b3b3b4e3b3b3b3b3b4c3b303b6f4c3b4136323047204850594c474f52454948204e414954505947453b4535313331,
0x3b3b3b3b3b4e3b3b3b3b3b4c3b303b6f4c3b37323047204850594c474f52454948204e414954505947453b4635313331,
0x3b3b3b3b3b4e3b3b3b3b3b4c3b303b6f4c3b38323047204850594c474f52454948204e414954505947453b3036313331,
0x3b3b3b3b3b4e3b3b3b3b3b4c3b303b6f4c3b39323047204850594c474f52454948204e414954505947453b3136313331,
0x3b3b3b3b3b4e3b3b3b3b3b4c3b303b6f4c3b30333047204850594c474f52454948204e414954505947453b3236313331,
0x3b3b3b3b3b4e3b3b3b3b3b4c3b303b6f4c3b31333047204850594c474f52454948204e414954505947453b3336313331,
0x3b3b3b3b3b4e3b3b3b3b3b4c3b303b6f4c3b32333047204850594c474f52454948204e414954505947453b3436313331,
0x3b3b3b3b3b4e3b3b3b3b3b4c3b303b6f4c3b33333047204850594c474f52454948204e414954505947453b3536313331,
0x3b3b3b3b3b4e3b3b3b3b3b4c3b303b6f4c3b34333047204850594c474f52454948204e414954505947453b3636313331,
0x3b3b3b3b3b4e3b3b3b3b3b4c3b303b6f4c3b35333047204850594c474f52454948204e414954505947453b3736313331,
0x3b3b3b3b3b4e3b3b3b3b3b4c3b303b6f4c3b36333047204850594c474f52454948204e414954505947453b3836313331,
0x3b3b3b3b3b4e3b3b3b3b3b4c3b303b6f4c3b4136333047204850594c474f52454948204e414954505947453b3936313331,
0x3b3b3b3b3b4e3b3b3b3b3b4c3b303b6f4c3b37333047204850594c474f52454948204e414954505947453b4136313331,
0x3b3b3b3b3b4e3b3b3b3b3b4c3b303b6f4c3b4137333047204850594c474f52454948204e414954505947453b4236313331,
0x3b3b3b3b3b4e3b3b3b3b3b4c3b303b6f4c3b38333047204850594c474f52454948204e414954505947453b4336313331,
0x3b3b3b3b3b4e3b3b3b3b3b4c3b303b6f4c3b39333047204850594c474f52454948204e414954505947453b4436313331,
0x3b3b3b3b3b4e3b3b3b3b3b4c3b303b6f4c3b30343047204850594c474f52454948204e414954505947453b4536313331,
0x3b3b3b3b3b4e3b3b3b3b3b4c3b303b6f4c3b31343047204850594c474f52454948204e414954505947453b4636313331,
0x3b3b3b3b3b4e3b3b3b3b3b4c3b303b6f4c3b32343047204850594c474f52454948204e414954505947453b3037313331,
0x3b3b3b3b3b4e3b3b3b3b3b4c3b303b6f4c3b33343047204850594c474f52454948204e414954505947453b3137313331,
0x3b3b3b3b3b4e3b3b3b3b3b4c3b303b6f4c3b4133343047204850594c474f52454948204e414954505947453b3237313331,
0x3b3b3b3b3b4e3b3b3b3b3b4c3b303b6f4c3b34343047204850594c474f52454948204e414954505947453b3337313331,
0x3b3b3b3b3b4e3b3b3b3b3b4c3b303b6f4c3b35343047204850594c474f52454948204e414954505947453b3437313331,
0x3b3b3b3b3b4e3b3b3b3b3b4c3b303b6f4c3b4135343047204850594c474f52454948204e414954505947453b3537313331,
0x3b3b3b3b3b4e3b3b3b3b3b4c3b303b6f4c3b36343047204850594c474f52454948204e414954505947453b3637313331,
0x3b3b3b3b3b4e3b3b3b3b3b4c3b303b6f4c3b37343047204850594c474f52454948204e414954505947453b3737313331,
0x3b3b3b3b3b4e3b3b3b3b3b4c3b303b6f4c3b38343047204850594c474f52454948204e414954505947453b3837313331,
0x3b3b3b3b3b4e3b3b3b3b3b4c3b303b6f4c3b39343047204850594c474f52454948204e414954505947453b3937313331,
0x3b3b3b3b3b4e3b3b3b3b3b4c3b303b6f4c3b30353047204850594c474f52454948204e414954505947453b4137313331,
0x3b3b3b3b3b4e3b3b3b3b3b4c3b303b6f4c3b31353047204850594c474f52454948204e414954505947453b4237313331,
0x3b3b3b3b3b4e3b3b3b3b3b4c3b303b6f4c3b32353047204850594c474f52454948204e414954505947453b4337313331,
0x3b3b3b3b3b4e3b3b3b3b3b4c3b303b6f4c3b33353047204850594c474f52454948204e414954505947453b4437313331,
0x3b3b3b3b3b4e3b3b3b3b3b4c3b303b6f4c3b34353047204850594c474f52454948204e414954505947453b4537313331,
0x3b3b3b3b3b4e3b3b3b3b3b4c3b303b6f4c3b31303048204850594c474f52454948204e414954505947453b4637313331,
0x3b3b3b3b3b4e3b3b3b3b3b4c3b303b6f4c3b32303048204850594c474f52454948204e414954505947453b3038313331,
0x3b3b3b3b3b4e3b3b3b3b3b4c3b303b6f4c3b33303048204850594c474f52454948204e414954505947453b3138313331,
0x3b3b3b3b3b4e3b3b3b3b3b4c3b303b6f4c3b34303048204850594c474f52454948204e414954505947453b3238313331,
0x3b3b3b3b3b4e3b3b3b3b3b4c3b303b6f4c3b35303048204850594c474f52454948204e414954505947453b3338313331,
0x3b3b3b3b3b4e3b3b3b3b3b4c3b303b6f4c3b36303048204850594c474f52454948204e414954505947453b3438313331,
0x3b3b3b3b3b4e3b3b3b3b3b4c3b303b6f4c3b4136303048204850594c474f52454948204e414954505947453b3538313331,
0x3b3b3b3b3b4e3b3b3b3b3b4c3b303b6f4c3b37303048204850594c474f52454948204e414954505947453b3638313331,
0x3b3b3b3b3b4e3b3b3b3b3b4c3b303b6f4c3b38303048204850594c474f52454948204e414954505947453b3738313331,
0x3b3b3b3b3b4e3b3b3b3b3b4c3b303b6f4c3b31303049204850594c474f52454948204e414954505947453b3838313331,
0x3b3b3b3b3b4e3b3b3b3b3b4c3b303b6f4c3b32303049204850594c474f52454948204e414954505947453b3938313331,
0x3b3b3b3b3b4e3b3b3b3b3b4c3b303b6f4c3b33303049204850594c474f52454948204e414954505947453b4138313331,
0x3b3b3b3b3b4e3b3b3b3b3b4c3b303b6f4c3b34303049204850594c474f52454948204e414954505947453b4238313331,
0x3b3b3b3b3b4e3b3b3b3b3b4c3b303b6f4c3b35303049204850594c474f52454948204e414954505947453b4338313331,
0x3b3b3b3b3b4e3b3b3b3b3b4c3b303b6f4c3b4135303049204850594c474f52454948204e414954505947453b4438313331,
0x3b3b3b3b3b4e3b3b3b3b3b4c3b303b6f4c3b36303049204850594c474f52454948204e414954505947453b4538313331,
0x3b3b3b3b3b4e3b3b3b3b3b4c3b303b6f4c3b37303049204850594c474f52454948204e414954505947453b4638313331,
0x3b3b3b3b3b4e3b3b3b3b3b4c3b303b6f4c3b38303049204850594c474f52454948204e414954505947453b3039313331,
0x3b3b3b3b3b4e3b3b3b3b3b4c3b303b6f4c3b39303049204850594c474f52454948204e414954505947453b3139313331,
0x3b3b3b3b3b4e3b3b3b3b3b4c3b303b6f4c3b4139303049204850594c474f52454948204e414954505947453b3239313331,
0x3b3b3b3b3b4e3b3b3b3b3b4c3b303b6f4c3b30313049204850594c474f52454948204e414954505947453b3339313331,
0x3b3b3b3b3b4e3b3b3b3b3b4c3b303b6f4c3b4130313049204850594c474f52454948204e414954505947453b3439313331,
0x3b3b3b3b3b4e3b3b3b3b3b4c3b303b6f4c3b31313049204850594c474f52454948204e414954505947453b3539313331,
0x3b3b3b3b3b4e3b3b3b3b3b4c3b303b6f4c3b4131313049204850594c474f52454948204e414954505947453b3639313331,
0x3b3b3b3b3b4e3b3b3b3b3b4c3b303b6f4c3b32313049204850594c474f52454948204e414954505947453b3739313331,
0x3b3b3b3b3b4e3b3b3b3b3b4c3b303b6f4c3b33313049204850594c474f52454948204e414954505947453b3839313331,
0x3b3b3b3b3b4e3b3b3b3b3b4c3b303b6f4c3b34313049204850594c474f52454948204e414954505947453b3939313331,
0x3b3b3b3b3b4e3b3b3b3b3b4c3b303b6f4c3b35313049204850594c474f52454948204e414954505947453b4139313331,
0x3b3b3b3b3b4e3b3b3b3b3b4c3b303b6f4c3b3130304b204850594c474f52454948204e414954505947453b4239313331,
0x3b3b3b3b3b4e3b3b3b3b3b4c3b303b6f4c3b3230304b204850594c474f52454948204e414954505947453b4339313331,
0x3b3b3b3b3b4e3b3b3b3b3b4c3b303b6f4c3b3330304b204850594c474f52454948204e414954505947453b4439313331,
0x3b3b3b3b3b4e3b3b3b3b3b4c3b303b6f4c3b3430304b204850594c474f52454948204e414954505947453b4539313331,
0x3b3b3b3b3b4e3b3b3b3b3b4c3b303b6f4c3b3530304b204850594c474f52454948204e414954505947453b4639313331,
0x3b3b3b3b3b4e3b3b3b3b3b4c3b303b6f4c3b3630304b204850594c474f52454948204e414954505947453b3041313331,
0x3b3b3b3b3b4e3b3b3b3b3b4c3b303b6f4c3b3730304b204850594c474f52454948204e414954505947453b3141313331,
0x3b3b3b3b3b4e3b3b3b3b3b4c3b303b6f4c3b3830304b204850594c474f52454948204e414954505947453b3241313331,
0x3b3b3b3b3b4e3b3b3b3b3b4c3b303b6f4c3b3130304c204850594c474f52454948204e414954505947453b3341313331,
0x3b3b3b3b3b4e3b3b3b3b3b4c3b303b6f4c3b3230304c204850594c474f52454948204e414954505947453b3441313331,
0x3b3b3b3b3b4e3b3b3b3b3b4c3b303b6f4c3b413230304c204850594c474f52454948204e414954505947453b3541313331,
0x3b3b3b3b3b4e3b3b3b3b3b4c3b303b6f4c3b3330304c204850594c474f52454948204e414954505947453b3641313331,
0x3b3b3b3b3b4e3b3b3b3b3b4c3b303b6f4c3b3430304c204850594c474f52454948204e414954505947453b3741313331,
0x3b3b3b3b3b4e3b3b3b3b3b4c3b303b6f4c3b3530304c204850594c474f52454948204e414954505947453b3841313331,
0x3b3b3b3b3b4e3b3b3b3b3b4c3b303b6f4c3b3630304c204850594c474f52454948204e414954505947453b3941313331,
0x3b3b3b3b3b4e3b3b3b3b3b4c3b303b6f4c3b413630304c204850594c474f52454948204e414954505947453b4141313331,
0x3b3b3b3b3b4e3b3b3b3b3b4c3b303b6f4c3b3730304c204850594c474f52454948204e414954505947453b4241313331,
0x3b3b3b3b3b4e3b3b3b3b3b4c3b303b6f4c3b3830304c204850594c474f52454948204e414954505947453b4341313331,
0x3b3b3b3b3b4e3b3b3b3b3b4c3b303b6f4c3b3130304d204850594c474f52454948204e414954505947453b4441313331,
0x3b3b3b3b3b4e3b3b3b3b3b4c3b303b6f4c3b413130304d204850594c474f52454948204e414954505947453b4541313331,
0x3b3b3b3b3b4e3b3b3b3b3b4c3b303b6f4c3b423130304d204850594c474f52454948204e414954505947453b4641313331,
0x3b3b3b3b3b4e3b3b3b3b3b4c3b303b6f4c3b3230304d204850594c474f52454948204e414954505947453b3042313331,
0x3b3b3b3b3b4e3b3b3b3b3b4c3b303b6f4c3b3330304d204850594c474f52454948204e414954505947453b3142313331,
0x3b3b3b3b3b4e3b3b3b3b3b4c3b303b6f4c3b413330304d204850594c474f52454948204e414954505947453b3242313331,
0x3b3b3b3b3b4e3b3b3b3b3b4c3b303b6f4c3b3430304d204850594c474f52454948204e414954505947453b3342313331,
0x3b3b3b3b3b4e3b3b3b3b3b4c3b303b6f4c3b3530304d204850594c474f52454948204e414954505947453b3442313331,
0x3b3b3b3b3b4e3b3b3b3b3b4c3b303b6f4c3b3630304d204850594c474f52454948204e414954505947453b3542313331,
0x3b3b3b3b3b4e3b3b3b3b3b4c3b303b6f4c3b3730304d204850594c474f52454948204e414954505947453b3642313331,
0x3b3b3b3b3b4e3b3b3b3b3b4c3b303b6f4c3b3830304d204850594c474f52454948204e414954505947453b3742313331,
0x3b3b3b3b3b4e3b3b3b3b3b4c3b303b6f4c3b3930304d204850594c474f52454948204e414954505947453b3842313331,
0x3b3b3b3b3b4e3b3b3b3b3b4c3b303b6f4c3b3031304d204850594c474f52454948204e414954505947453b3942313331,
0x3b3b3b3b3b4e3b3b3b3b3b4c3b303b6f4c3b413031304d204850594c474f52454948204e414954505947453b4142313331,
0x3b3b3b3b3b4e3b3b3b3b3b4c3b303b6f4c3b3131304d204850594c474f52454948204e414954505947453b4242313331,
0x3b3b3b3b3b4e3b3b3b3b3b4c3b303b6f4c3b3231304d204850594c474f52454948204e414954505947453b4342313331,
0x3b3b3b3b3b4e3b3b3b3b3b4c3b303b6f4c3b413231304d204850594c474f52454948204e414954505947453b4442313331,
0x3b3b3b3b3b4e3b3b3b3b3b4c3b303b6f4c3b423231304d204850594c474f52454948204e414954505947453b4542313331,
0x3b3b3b3b3b4e3b3b3b3b3b4c3b303b6f4c3b433231304d204850594c474f52454948204e414954505947453b4642313331,
0x3b3b3b3b3b4e3b3b3b3b3b4c3b303b6f4c3b443231304d204850594c474f52454948204e414954505947453b3043313331,
0x3b3b3b3b3b4e3b3b3b3b3b4c3b303b6f4c3b453231304d204850594c474f52454948204e414954505947453b3143313331,
0x3b3b3b3b3b4e3b3b3b3b3b4c3b303b6f4c3b463231304d204850594c474f52454948204e414954505947453b3243313331,
0x3b3b3b3b3b4e3b3b3b3b3b4c3b303b6f4c3b473231304d204850594c474f52454948204e414954505947453b3343313331,
0x3b3b3b3b3b4e3b3b3b3b3b4c3b303b6f4c3b483231304d204850594c474f52454948204e414954505947453b3443313331,
0x3b3b3b3b3b4e3b3b3b3b3b4c3b303b6f4c3b3331304d204850594c474f52454948204e414954505947453b3543313331,
0x3b3b3b3b3b4e3b3b3b3b3b4c3b303b6f4c3b3431304d204850594c474f52454948204e414954505947453b3643313331,
0x3b3b3b3b3b4e3b3b3b3b3b4c3b303b6f4c3b3531304d204850594c474f52454948204e414954505947453b3743313331,
0x3b3b3b3b3b4e3b3b3b3b3b4c3b303b6f4c3b413531304d204850594c474f52454948204e414954505947453b3843313331,
0x3b3b3b3b3b4e3b3b3b3b3b4c3b303b6f4c3b3631304d204850594c474f52454948204e414954505947453b3943313331,
0x3b3b3b3b3b4e3b3b3b3b3b4c3b303b6f4c3b413631304d204850594c474f52454948204e414954505947453b4143313331,
0x3b3b3b3b3b4e3b3b3b3b3b4c3b303b6f4c3b3731304d204850594c474f52454948204e414954505947453b4243313331,
0x3b3b3b3b3b4e3b3b3b3b3b4c3b303b6f4c3b413731304d204850594c474f52454948204e414954505947453b4343313331,
0x3b3b3b3b3b4e3b3b3b3b3b4c3b303b6f4c3b3831304d204850594c474f52454948204e414954505947453b4443313331,
0x3b3b3b3b3b4e3b3b3b3b3b4c3b303b6f4c3b3931304d204850594c474f52454948204e414954505947453b4543313331,
0x3b3b3b3b3b4e3b3b3b3b3b4c3b303b6f4c3b3032304d204850594c474f52454948204e414954505947453b4643313331,
0x3b3b3b3b3b4e3b3b3b3b3b4c3b303b6f4c3b3132304d204850594c474f52454948204e414954505947453b3044313331,
0x3b3b3b3b3b4e3b3b3b3b3b4c3b303b6f4c3b3232304d204850594c474f52454948204e414954505947453b3144313331,
0x3b3b3b3b3b4e3b3b3b3b3b4c3b303b6f4c3b413232304d204850594c474f52454948204e414954505947453b3244313331,
0x3b3b3b3b3b4e3b3b3b3b3b4c3b303b6f4c3b3332304d204850594c474f52454948204e414954505947453b3344313331,
0x3b3b3b3b3b4e3b3b3b3b3b4c3b303b6f4c3b3432304d204850594c474f52454948204e414954505947453b3444313331,
0x3b3b3b3b3b4e3b3b3b3b3b4c3b303b6f4c3b413432304d204850594c474f52454948204e414954505947453b3544313331,
0x3b3b3b3b3b4e3b3b3b3b3b4c3b303b6f4c3b3532304d204850594c474f52454948204e414954505947453b3644313331,
0x3b3b3b3b3b4e3b3b3b3b3b4c3b303b6f4c3b3632304d204850594c474f52454948204e414954505947453b3744313331,
0x3b3b3b3b3b4e3b3b3b3b3b4c3b303b6f4c3b3732304d204850594c474f52454948204e414954505947453b3844313331,
0x3b3b3b3b3b4e3b3b3b3b3b4c3b303b6f4c3b3832304d204850594c474f52454948204e414954505947453b3944313331,
0x3b3b3b3b3b4e3b3b3b3b3b4c3b303b6f4c3b413832304d204850594c474f52454948204e414954505947453b4144313331,
0x3b3b3b3b3b4e3b3b3b3b3b4c3b303b6f4c3b3932304d204850594c474f52454948204e414954505947453b4244313331,
0x3b3b3b3b3b4e3b3b3b3b3b4c3b303b6f4c3b3033304d204850594c474f52454948204e414954505947453b4344313331,
0x3b3b3b3b3b4e3b3b3b3b3b4c3b303b6f4c3b3133304d204850594c474f52454948204e414954505947453b4444313331,
0x3b3b3b3b3b4e3b3b3b3b3b4c3b303b6f4c3b413133304d204850594c474f52454948204e414954505947453b4544313331,
0x3b3b3b3b3b4e3b3b3b3b3b4c3b303b6f4c3b3233304d204850594c474f52454948204e414954505947453b4644313331,
0x3b3b3b3b3b4e3b3b3b3b3b4c3b303b6f4c3b3333304d204850594c474f52454948204e414954505947453b3045313331,
0x3b3b3b3b3b4e3b3b3b3b3b4c3b303b6f4c3b413333304d204850594c474f52454948204e414954505947453b3145313331,
0x3b3b3b3b3b4e3b3b3b3b3b4c3b303b6f4c3b423333304d204850594c474f52454948204e414954505947453b3245313331,
0x3b3b3b3b3b4e3b3b3b3b3b4c3b303b6f4c3b3433304d204850594c474f52454948204e414954505947453b3345313331,
0x3b3b3b3b3b4e3b3b3b3b3b4c3b303b6f4c3b3533304d204850594c474f52454948204e414954505947453b3445313331,
0x3b3b3b3b3b4e3b3b3b3b3b4c3b303b6f4c3b3633304d204850594c474f52454948204e414954505947453b3545313331,
0x3b3b3b3b3b4e3b3b3b3b3b4c3b303b6f4c3b3733304d204850594c474f52454948204e414954505947453b3645313331,
0x3b3b3b3b3b4e3b3b3b3b3b4c3b303b6f4c3b3833304d204850594c474f52454948204e414954505947453b3745313331,
0x3b3b3b3b3b4e3b3b3b3b3b4c3b303b6f4c3b3933304d204850594c474f52454948204e414954505947453b3845313331,
0x3b3b3b3b3b4e3b3b3b3b3b4c3b303b6f4c3b3034304d204850594c474f52454948204e414954505947453b3945313331]

/-- src/u5e/props/UnicodeData.txt lines 22017-22272. -/
def rawUcd86 : List Nat := [
0x3b3b3b3b3b4e3b3b3b3b3b4c3b303b6f4c3b413034304d204850594c474f52454948204e414954505947453b4145313331,
0x3b3b3b3b3b4e3b3b3b3b3b4c3b303b6f4c3b3134304d204850594c474f52454948204e414954505947453b4245313331,
0x3b3b3b3b3b4e3b3b3b3b3b4c3b303b6f4c3b3234304d204850594c474f52454948204e414954505947453b4345313331,
0x3b3b3b3b3b4e3b3b3b3b3b4c3b303b6f4c3b3334304d204850594c474f52454948204e414954505947453b4445313331,
0x3b3b3b3b3b4e3b3b3b3b3b4c3b303b6f4c3b3434304d204850594c474f52454948204e414954505947453b4545313331,
0x3b3b3b3b3b4e3b3b3b3b3b4c3b303b6f4c3b3130304e204850594c474f52454948204e414954505947453b4645313331,
0x3b3b3b3b3b4e3b3b3b3b3b4c3b303b6f4c3b3230304e204850594c474f52454948204e414954505947453b3046313331,
0x3b3b3b3b3b4e3b3b3b3b3b4c3b303b6f4c3b3330304e204850594c474f52454948204e414954505947453b3146313331,
0x3b3b3b3b3b4e3b3b3b3b3b4c3b303b6f4c3b3430304e204850594c474f52454948204e414954505947453b3246313331,
0x3b3b3b3b3b4e3b3b3b3b3b4c3b303b6f4c3b3530304e204850594c474f52454948204e414954505947453b3346313331,
0x3b3b3b3b3b4e3b3b3b3b3b4c3b303b6f4c3b3630304e204850594c474f52454948204e414954505947453b3446313331,
0x3b3b3b3b3b4e3b3b3b3b3b4c3b303b6f4c3b3730304e204850594c474f52454948204e414954505947453b3546313331,
0x3b3b3b3b3b4e3b3b3b3b3b4c3b303b6f4c3b3830304e204850594c474f52454948204e414954505947453b3646313331,
0x3b3b3b3b3b4e3b3b3b3b3b4c3b303b6f4c3b3930304e204850594c474f52454948204e414954505947453b3746313331,
0x3b3b3b3b3b4e3b3b3b3b3b4c3b303b6f4c3b3031304e204850594c474f52454948204e414954505947453b3846313331,
0x3b3b3b3b3b4e3b3b3b3b3b4c3b303b6f4c3b3131304e204850594c474f52454948204e414954505947453b3946313331,
0x3b3b3b3b3b4e3b3b3b3b3b4c3b303b6f4c3b3231304e204850594c474f52454948204e414954505947453b4146313331,
0x3b3b3b3b3b4e3b3b3b3b3b4c3b303b6f4c3b3331304e204850594c474f52454948204e414954505947453b4246313331,
0x3b3b3b3b3b4e3b3b3b3b3b4c3b303b6f4c3b3431304e204850594c474f52454948204e414954505947453b4346313331,
0x3b3b3b3b3b4e3b3b3b3b3b4c3b303b6f4c3b3531304e204850594c474f52454948204e414954505947453b4446313331,
0x3b3b3b3b3b4e3b3b3b3b3b4c3b303b6f4c3b3631304e204850594c474f52454948204e414954505947453b4546313331,
0x3b3b3b3b3b4e3b3b3b3b3b4c3b303b6f4c3b3731304e204850594c474f52454948204e414954505947453b4646313331,
0x3b3b3b3b3b4e3b3b3b3b3b4c3b303b6f4c3b3831304e204850594c474f52454948204e414954505947453b3030323331,
0x3b3b3b3b3b4e3b3b3b3b3b4c3b303b6f4c3b413831304e204850594c474f52454948204e414954505947453b3130323331,
0x3b3b3b3b3b4e3b3b3b3b3b4c3b303b6f4c3b423831304e204850594c474f52454948204e414954505947453b3230323331,
0x3b3b3b3b3b4e3b3b3b3b3b4c3b303b6f4c3b3931304e204850594c474f52454948204e414954505947453b3330323331,
0x3b3b3b3b3b4e3b3b3b3b3b4c3b303b6f4c3b3032304e204850594c474f52454948204e414954505947453b3430323331,
0x3b3b3b3b3b4e3b3b3b3b3b4c3b303b6f4c3b3132304e204850594c474f52454948204e414954505947453b3530323331,
0x3b3b3b3b3b4e3b3b3b3b3b4c3b303b6f4c3b3232304e204850594c474f52454948204e414954505947453b3630323331,
0x3b3b3b3b3b4e3b3b3b3b3b4c3b303b6f4c3b3332304e204850594c474f52454948204e414954505947453b3730323331,
0x3b3b3b3b3b4e3b3b3b3b3b4c3b303b6f4c3b3432304e204850594c474f52454948204e414954505947453b3830323331,
0x3b3b3b3b3b4e3b3b3b3b3b4c3b303b6f4c3b3532304e204850594c474f52454948204e414954505947453b3930323331,
0x3b3b3b3b3b4e3b3b3b3b3b4c3b303b6f4c3b413532304e204850594c474f52454948204e414954505947453b4130323331,
0x3b3b3b3b3b4e3b3b3b3b3b4c3b303b6f4c3b3632304e204850594c474f52454948204e414954505947453b4230323331,
0x3b3b3b3b3b4e3b3b3b3b3b4c3b303b6f4c3b3732304e204850594c474f52454948204e414954505947453b4330323331,
0x3b3b3b3b3b4e3b3b3b3b3b4c3b303b6f4c3b3832304e204850594c474f52454948204e414954505947453b4430323331,
0x3b3b3b3b3b4e3b3b3b3b3b4c3b303b6f4c3b3932304e204850594c474f52454948204e414954505947453b4530323331,
0x3b3b3b3b3b4e3b3b3b3b3b4c3b303b6f4c3b3033304e204850594c474f52454948204e414954505947453b4630323331,
0x3b3b3b3b3b4e3b3b3b3b3b4c3b303b6f4c3b3133304e204850594c474f52454948204e414954505947453b3031323331,
0x3b3b3b3b3b4e3b3b3b3b3b4c3b303b6f4c3b3233304e204850594c474f52454948204e414954505947453b3131323331,
0x3b3b3b3b3b4e3b3b3b3b3b4c3b303b6f4c3b3333304e204850594c474f52454948204e414954505947453b3231323331,
0x3b3b3b3b3b4e3b3b3b3b3b4c3b303b6f4c3b413333304e204850594c474f52454948204e414954505947453b3331323331,
0x3b3b3b3b3b4e3b3b3b3b3b4c3b303b6f4c3b3433304e204850594c474f52454948204e414954505947453b3431323331,
0x3b3b3b3b3b4e3b3b3b3b3b4c3b303b6f4c3b413433304e204850594c474f52454948204e414954505947453b3531323331,
0x3b3b3b3b3b4e3b3b3b3b3b4c3b303b6f4c3b3533304e204850594c474f52454948204e414954505947453b3631323331,
0x3b3b3b3b3b4e3b3b3b3b3b4c3b303b6f4c3b413533304e204850594c474f52454948204e414954505947453b3731323331,
0x3b3b3b3b3b4e3b3b3b3b3b4c3b303b6f4c3b3633304e204850594c474f52454948204e414954505947453b3831323331,
0x3b3b3b3b3b4e3b3b3b3b3b4c3b303b6f4c3b3733304e204850594c474f52454948204e414954505947453b3931323331,
0x3b3b3b3b3b4e3b3b3b3b3b4c3b303b6f4c3b413733304e204850594c474f52454948204e414954505947453b4131323331,
0x3b3b3b3b3b4e3b3b3b3b3b4c3b303b6f4c3b3833304e204850594c474f52454948204e414954505947453b4231323331,
0x3b3b3b3b3b4e3b3b3b3b3b4c3b303b6f4c3b3933304e204850594c474f52454948204e414954505947453b4331323331,
0x3b3b3b3b3b4e3b3b3b3b3b4c3b303b6f4c3b3034304e204850594c474f52454948204e414954505947453b4431323331,
0x3b3b3b3b3b4e3b3b3b3b3b4c3b303b6f4c3b3134304e204850594c474f52454948204e414954505947453b4531323331,
0x3b3b3b3b3b4e3b3b3b3b3b4c3b303b6f4c3b3234304e204850594c474f52454948204e414954505947453b4631323331,
0x3b3b3b3b3b4e3b3b3b3b3b4c3b303b6f4c3b3130304c4e204850594c474f52454948204e414954505947453b3032323331,
0x3b3b3b3b3b4e3b3b3b3b3b4c3b303b6f4c3b3230304c4e204850594c474f52454948204e414954505947453b3132323331,
0x3b3b3b3b3b4e3b3b3b3b3b4c3b303b6f4c3b3330304c4e204850594c474f52454948204e414954505947453b3232323331,
0x3b3b3b3b3b4e3b3b3b3b3b4c3b303b6f4c3b3430304c4e204850594c474f52454948204e414954505947453b3332323331,
0x3b3b3b3b3b4e3b3b3b3b3b4c3b303b6f4c3b3530304c4e204850594c474f52454948204e414954505947453b3432323331,
0x3b3b3b3b3b4e3b3b3b3b3b4c3b303b6f4c3b413530304c4e204850594c474f52454948204e414954505947453b3532323331,
0x3b3b3b3b3b4e3b3b3b3b3b4c3b303b6f4c3b3630304c4e204850594c474f52454948204e414954505947453b3632323331,
0x3b3b3b3b3b4e3b3b3b3b3b4c3b303b6f4c3b3730304c4e204850594c474f52454948204e414954505947453b3732323331,
0x3b3b3b3b3b4e3b3b3b3b3b4c3b303b6f4c3b3830304c4e204850594c474f52454948204e414954505947453b3832323331,
0x3b3b3b3b3b4e3b3b3b3b3b4c3b303b6f4c3b3930304c4e204850594c474f52454948204e414954505947453b3932323331,
0x3b3b3b3b3b4e3b3b3b3b3b4c3b303b6f4c3b3031304c4e204850594c474f52454948204e414954505947453b4132323331,
0x3b3b3b3b3b4e3b3b3b3b3b4c3b303b6f4c3b3131304c4e204850594c474f52454948204e414954505947453b4232323331,
0x3b3b3b3b3b4e3b3b3b3b3b4c3b303b6f4c3b3231304c4e204850594c474f52454948204e414954505947453b4332323331,
0x3b3b3b3b3b4e3b3b3b3b3b4c3b303b6f4c3b3331304c4e204850594c474f52454948204e414954505947453b4432323331,
0x3b3b3b3b3b4e3b3b3b3b3b4c3b303b6f4c3b3431304c4e204850594c474f52454948204e414954505947453b4532323331,
0x3b3b3b3b3b4e3b3b3b3b3b4c3b303b6f4c3b3531304c4e204850594c474f52454948204e414954505947453b4632323331,
0x3b3b3b3b3b4e3b3b3b3b3b4c3b303b6f4c3b3631304c4e204850594c474f52454948204e414954505947453b3033323331,
0x3b3b3b3b3b4e3b3b3b3b3b4c3b303b6f4c3b3731304c4e204850594c474f52454948204e414954505947453b3133323331,
0x3b3b3b3b3b4e3b3b3b3b3b4c3b303b6f4c3b413731304c4e204850594c474f52454948204e414954505947453b3233323331,
0x3b3b3b3b3b4e3b3b3b3b3b4c3b303b6f4c3b3831304c4e204850594c474f52454948204e414954505947453b3333323331,
0x3b3b3b3b3b4e3b3b3b3b3b4c3b303b6f4c3b3931304c4e204850594c474f52454948204e414954505947453b3433323331,
0x3b3b3b3b3b4e3b3b3b3b3b4c3b303b6f4c3b3032304c4e204850594c474f52454948204e414954505947453b3533323331,
0x3b3b3b3b3b4e3b3b3b3b3b4c3b303b6f4c3b313030554e204850594c474f52454948204e414954505947453b3633323331,
0x3b3b3b3b3b4e3b3b3b3b3b4c3b303b6f4c3b323030554e204850594c474f52454948204e414954505947453b3733323331,
0x3b3b3b3b3b4e3b3b3b3b3b4c3b303b6f4c3b333030554e204850594c474f52454948204e414954505947453b3833323331,
0x3b3b3b3b3b4e3b3b3b3b3b4c3b303b6f4c3b343030554e204850594c474f52454948204e414954505947453b3933323331,
0x3b3b3b3b3b4e3b3b3b3b3b4c3b303b6f4c3b353030554e204850594c474f52454948204e414954505947453b4133323331,
0x3b3b3b3b3b4e3b3b3b3b3b4c3b303b6f4c3b363030554e204850594c474f52454948204e414954505947453b4233323331,
0x3b3b3b3b3b4e3b3b3b3b3b4c3b303b6f4c3b373030554e204850594c474f52454948204e414954505947453b4333323331,
0x3b3b3b3b3b4e3b3b3b3b3b4c3b303b6f4c3b383030554e204850594c474f52454948204e414954505947453b4433323331,
0x3b3b3b3b3b4e3b3b3b3b3b4c3b303b6f4c3b393030554e204850594c474f52454948204e414954505947453b4533323331,
0x3b3b3b3b3b4e3b3b3b3b3b4c3b303b6f4c3b303130554e204850594c474f52454948204e414954505947453b4633323331,
0x3b3b3b3b3b4e3b3b3b3b3b4c3b303b6f4c3b41303130554e204850594c474f52454948204e414954505947453b3034323331,
0x3b3b3b3b3b4e3b3b3b3b3b4c3b303b6f4c3b313130554e204850594c474f52454948204e414954505947453b3134323331,
0x3b3b3b3b3b4e3b3b3b3b3b4c3b303b6f4c3b41313130554e204850594c474f52454948204e414954505947453b3234323331,
0x3b3b3b3b3b4e3b3b3b3b3b4c3b303b6f4c3b323130554e204850594c474f52454948204e414954505947453b3334323331,
0x3b3b3b3b3b4e3b3b3b3b3b4c3b303b6f4c3b333130554e204850594c474f52454948204e414954505947453b3434323331,
0x3b3b3b3b3b4e3b3b3b3b3b4c3b303b6f4c3b343130554e204850594c474f52454948204e414954505947453b3534323331,
0x3b3b3b3b3b4e3b3b3b3b3b4c3b303b6f4c3b353130554e204850594c474f52454948204e414954505947453b3634323331,
0x3b3b3b3b3b4e3b3b3b3b3b4c3b303b6f4c3b363130554e204850594c474f52454948204e414954505947453b3734323331,
0x3b3b3b3b3b4e3b3b3b3b3b4c3b303b6f4c3b373130554e204850594c474f52454948204e414954505947453b3834323331,
0x3b3b3b3b3b4e3b3b3b3b3b4c3b303b6f4c3b383130554e204850594c474f52454948204e414954505947453b3934323331,
0x3b3b3b3b3b4e3b3b3b3b3b4c3b303b6f4c3b41383130554e204850594c474f52454948204e414954505947453b4134323331,
0x3b3b3b3b3b4e3b3b3b3b3b4c3b303b6f4c3b393130554e204850594c474f52454948204e414954505947453b4234323331,
0x3b3b3b3b3b4e3b3b3b3b3b4c3b303b6f4c3b303230554e204850594c474f52454948204e414954505947453b4334323331,
0x3b3b3b3b3b4e3b3b3b3b3b4c3b303b6f4c3b313230554e204850594c474f52454948204e414954505947453b4434323331,
0x3b3b3b3b3b4e3b3b3b3b3b4c3b303b6f4c3b323230554e204850594c474f52454948204e414954505947453b4534323331,
0x3b3b3b3b3b4e3b3b3b3b3b4c3b303b6f4c3b41323230554e204850594c474f52454948204e414954505947453b4634323331,
0x3b3b3b3b3b4e3b3b3b3b3b4c3b303b6f4c3b3130304f204850594c474f52454948204e414954505947453b3035323331,
0x3b3b3b3b3b4e3b3b3b3b3b4c3b303b6f4c3b413130304f204850594c474f52454948204e414954505947453b3135323331,
0x3b3b3b3b3b4e3b3b3b3b3b4c3b303b6f4c3b3230304f204850594c474f52454948204e414954505947453b3235323331,
0x3b3b3b3b3b4e3b3b3b3b3b4c3b303b6f4c3b3330304f204850594c474f52454948204e414954505947453b3335323331,
0x3b3b3b3b3b4e3b3b3b3b3b4c3b303b6f4c3b3430304f204850594c474f52454948204e414954505947453b3435323331,
0x3b3b3b3b3b4e3b3b3b3b3b4c3b303b6f4c3b3530304f204850594c474f52454948204e414954505947453b3535323331,
0x3b3b3b3b3b4e3b3b3b3b3b4c3b303b6f4c3b413530304f204850594c474f52454948204e414954505947453b3635323331,
0x3b3b3b3b3b4e3b3b3b3b3b4c3b303b6f4c3b3630304f204850594c474f52454948204e414954505947453b3735323331,
0x3b3b3b3b3b4e3b3b3b3b3b4c3b303b6f4c3b413630304f204850594c474f52454948204e414954505947453b3835323331,
0x3b3b3b3b3b4e3b3b3b3b3b4c3b303b6f4c3b423630304f204850594c474f52454948204e414954505947453b3935323331,
0x3b3b3b3b3b4e3b3b3b3b3b4c3b303b6f4c3b433630304f204850594c474f52454948204e414954505947453b4135323331,
0x3b3b3b3b3b4e3b3b3b3b3b4c3b303b6f4c3b443630304f204850594c474f52454948204e414954505947453b4235323331,
0x3b3b3b3b3b4e3b3b3b3b3b4c3b303b6f4c3b453630304f204850594c474f52454948204e414954505947453b4335323331,
0x3b3b3b3b3b4e3b3b3b3b3b4c3b303b6f4c3b463630304f204850594c474f52454948204e414954505947453b4435323331,
0x3b3b3b3b3b4e3b3b3b3b3b4c3b303b6f4c3b3730304f204850594c474f52454948204e414954505947453b4535323331,
0x3b3b3b3b3b4e3b3b3b3b3b4c3b303b6f4c3b3830304f204850594c474f52454948204e414954505947453b4635323331,
0x3b3b3b3b3b4e3b3b3b3b3b4c3b303b6f4c3b3930304f204850594c474f52454948204e414954505947453b3036323331,
0x3b3b3b3b3b4e3b3b3b3b3b4c3b303b6f4c3b3031304f204850594c474f52454948204e414954505947453b3136323331,
0x3b3b3b3b3b4e3b3b3b3b3b4c3b303b6f4c3b413031304f204850594c474f52454948204e414954505947453b3236323331,
0x3b3b3b3b3b4e3b3b3b3b3b4c3b303b6f4c3b423031304f204850594c474f52454948204e414954505947453b3336323331,
0x3b3b3b3b3b4e3b3b3b3b3b4c3b303b6f4c3b433031304f204850594c474f52454948204e414954505947453b3436323331,
0x3b3b3b3b3b4e3b3b3b3b3b4c3b303b6f4c3b3131304f204850594c474f52454948204e414954505947453b3536323331,
0x3b3b3b3b3b4e3b3b3b3b3b4c3b303b6f4c3b3231304f204850594c474f52454948204e414954505947453b3636323331,
0x3b3b3b3b3b4e3b3b3b3b3b4c3b303b6f4c3b3331304f204850594c474f52454948204e414954505947453b3736323331,
0x3b3b3b3b3b4e3b3b3b3b3b4c3b303b6f4c3b3431304f204850594c474f52454948204e414954505947453b3836323331,
0x3b3b3b3b3b4e3b3b3b3b3b4c3b303b6f4c3b3531304f204850594c474f52454948204e414954505947453b3936323331,
0x3b3b3b3b3b4e3b3b3b3b3b4c3b303b6f4c3b3631304f204850594c474f52454948204e414954505947453b4136323331,
0x3b3b3b3b3b4e3b3b3b3b3b4c3b303b6f4c3b3731304f204850594c474f52454948204e414954505947453b4236323331,
0x3b3b3b3b3b4e3b3b3b3b3b4c3b303b6f4c3b3831304f204850594c474f52454948204e414954505947453b4336323331,
0x3b3b3b3b3b4e3b3b3b3b3b4c3b303b6f4c3b3931304f204850594c474f52454948204e414954505947453b4436323331,
0x3b3b3b3b3b4e3b3b3b3b3b4c3b303b6f4c3b413931304f204850594c474f52454948204e414954505947453b4536323331,
0x3b3b3b3b3b4e3b3b3b3b3b4c3b303b6f4c3b3032304f204850594c474f52454948204e414954505947453b4636323331,
0x3b3b3b3b3b4e3b3b3b3b3b4c3b303b6f4c3b413032304f204850594c474f52454948204e414954505947453b3037323331,
0x3b3b3b3b3b4e3b3b3b3b3b4c3b303b6f4c3b3132304f204850594c474f52454948204e414954505947453b3137323331,
0x3b3b3b3b3b4e3b3b3b3b3b4c3b303b6f4c3b3232304f204850594c474f52454948204e414954505947453b3237323331,
0x3b3b3b3b3b4e3b3b3b3b3b4c3b303b6f4c3b3332304f204850594c474f52454948204e414954505947453b3337323331,
0x3b3b3b3b3b4e3b3b3b3b3b4c3b303b6f4c3b3432304f204850594c474f52454948204e414954505947453b3437323331,
0x3b3b3b3b3b4e3b3b3b3b3b4c3b303b6f4c3b413432304f204850594c474f52454948204e414954505947453b3537323331,
0x3b3b3b3b3b4e3b3b3b3b3b4c3b303b6f4c3b3532304f204850594c474f52454948204e414954505947453b3637323331,
0x3b3b3b3b3b4e3b3b3b3b3b4c3b303b6f4c3b413532304f204850594c474f52454948204e414954505947453b3737323331,
0x3b3b3b3b3b4e3b3b3b3b3b4c3b303b6f4c3b3632304f204850594c474f52454948204e414954505947453b3837323331,
0x3b3b3b3b3b4e3b3b3b3b3b4c3b303b6f4c3b3732304f204850594c474f52454948204e414954505947453b3937323331,
0x3b3b3b3b3b4e3b3b3b3b3b4c3b303b6f4c3b3832304f204850594c474f52454948204e414954505947453b4137323331,
0x3b3b3b3b3b4e3b3b3b3b3b4c3b303b6f4c3b3932304f204850594c474f52454948204e414954505947453b4237323331,
0x3b3b3b3b3b4e3b3b3b3b3b4c3b303b6f4c3b413932304f204850594c474f52454948204e414954505947453b4337323331,
0x3b3b3b3b3b4e3b3b3b3b3b4c3b303b6f4c3b3033304f204850594c474f52454948204e414954505947453b4437323331,
0x3b3b3b3b3b4e3b3b3b3b3b4c3b303b6f4c3b413033304f204850594c474f52454948204e414954505947453b4537323331,
0x3b3b3b3b3b4e3b3b3b3b3b4c3b303b6f4c3b3133304f204850594c474f52454948204e414954505947453b4637323331,
0x3b3b3b3b3b4e3b3b3b3b3b4c3b303b6f4c3b3233304f204850594c474f52454948204e414954505947453b3038323331,
0x3b3b3b3b3b4e3b3b3b3b3b4c3b303b6f4c3b3333304f204850594c474f52454948204e414954505947453b3138323331,
0x3b3b3b3b3b4e3b3b3b3b3b4c3b303b6f4c3b413333304f204850594c474f52454948204e414954505947453b3238323331,
0x3b3b3b3b3b4e3b3b3b3b3b4c3b303b6f4c3b3433304f204850594c474f52454948204e414954505947453b3338323331,
0x3b3b3b3b3b4e3b3b3b3b3b4c3b303b6f4c3b3533304f204850594c474f52454948204e414954505947453b3438323331,
0x3b3b3b3b3b4e3b3b3b3b3b4c3b303b6f4c3b3633304f204850594c474f52454948204e414954505947453b3538323331,
0x3b3b3b3b3b4e3b3b3b3b3b4c3b303b6f4c3b413633304f204850594c474f52454948204e414954505947453b3638323331,
0x3b3b3b3b3b4e3b3b3b3b3b4c3b303b6f4c3b423633304f204850594c474f52454948204e414954505947453b3738323331,
0x3b3b3b3b3b4e3b3b3b3b3b4c3b303b6f4c3b433633304f204850594c474f52454948204e414954505947453b3838323331,
0x3b3b3b3b3b4e3b3b3b3b3b4c3b303b6f4c3b443633304f204850594c474f52454948204e414954505947453b3938323331,
0x3b3b3b3b3b4e3b3b3b3b3b4c3b303b6f4c3b3733304f204850594c474f52454948204e414954505947453b4138323331,
0x3b3b3b3b3b4e3b3b3b3b3b4c3b303b6f4c3b3833304f204850594c474f52454948204e414954505947453b4238323331,
0x3b3b3b3b3b4e3b3b3b3b3b4c3b303b6f4c3b3933304f204850594c474f52454948204e414954505947453b4338323331,
0x3b3b3b3b3b4e3b3b3b3b3b4c3b303b6f4c3b3034304f204850594c474f52454948204e414954505947453b4438323331,
0x3b3b3b3b3b4e3b3b3b3b3b4c3b303b6f4c3b3134304f204850594c474f52454948204e414954505947453b4538323331,
0x3b3b3b3b3b4e3b3b3b3b3b4c3b303b6f4c3b3234304f204850594c474f52454948204e414954505947453b4638323331,
0x3b3b3b3b3b4e3b3b3b3b3b4c3b303b6f4c3b3334304f204850594c474f52454948204e414954505947453b3039323331,
0x3b3b3b3b3b4e3b3b3b3b3b4c3b303b6f4c3b3434304f204850594c474f52454948204e414954505947453b3139323331,
0x3b3b3b3b3b4e3b3b3b3b3b4c3b303b6f4c3b3534304f204850594c474f52454948204e414954505947453b3239323331,
0x3b3b3b3b3b4e3b3b3b3b3b4c3b303b6f4c3b3634304f204850594c474f52454948204e414954505947453b3339323331,
0x3b3b3b3b3b4e3b3b3b3b3b4c3b303b6f4c3b3734304f204850594c474f52454948204e414954505947453b3439323331,
0x3b3b3b3b3b4e3b3b3b3b3b4c3b303b6f4c3b3834304f204850594c474f52454948204e414954505947453b3539323331,
0x3b3b3b3b3b4e3b3b3b3b3b4c3b303b6f4c3b3934304f204850594c474f52454948204e414954505947453b3639323331,
0x3b3b3b3b3b4e3b3b3b3b3b4c3b303b6f4c3b3035304f204850594c474f52454948204e414954505947453b3739323331,
0x3b3b3b3b3b4e3b3b3b3b3b4c3b303b6f4c3b413035304f204850594c474f52454948204e414954505947453b3839323331,
0x3b3b3b3b3b4e3b3b3b3b3b4c3b303b6f4c3b423035304f204850594c474f52454948204e414954505947453b3939323331,
0x3b3b3b3b3b4e3b3b3b3b3b4c3b303b6f4c3b3135304f204850594c474f52454948204e414954505947453b4139323331,
0x3b3b3b3b3b4e3b3b3b3b3b4c3b303b6f4c3b31303050204850594c474f52454948204e414954505947453b4239323331,
0x3b3b3b3b3b4e3b3b3b3b3b4c3b303b6f4c3b4131303050204850594c474f52454948204e414954505947453b4339323331,
0x3b3b3b3b3b4e3b3b3b3b3b4c3b303b6f4c3b32303050204850594c474f52454948204e414954505947453b4439323331,
0x3b3b3b3b3b4e3b3b3b3b3b4c3b303b6f4c3b33303050204850594c474f52454948204e414954505947453b4539323331,
0x3b3b3b3b3b4e3b3b3b3b3b4c3b303b6f4c3b4133303050204850594c474f52454948204e414954505947453b4639323331,
0x3b3b3b3b3b4e3b3b3b3b3b4c3b303b6f4c3b34303050204850594c474f52454948204e414954505947453b3041323331,
0x3b3b3b3b3b4e3b3b3b3b3b4c3b303b6f4c3b35303050204850594c474f52454948204e414954505947453b3141323331,
0x3b3b3b3b3b4e3b3b3b3b3b4c3b303b6f4c3b36303050204850594c474f52454948204e414954505947453b3241323331,
0x3b3b3b3b3b4e3b3b3b3b3b4c3b303b6f4c3b37303050204850594c474f52454948204e414954505947453b3341323331,
0x3b3b3b3b3b4e3b3b3b3b3b4c3b303b6f4c3b38303050204850594c474f52454948204e414954505947453b3441323331,
0x3b3b3b3b3b4e3b3b3b3b3b4c3b303b6f4c3b39303050204850594c474f52454948204e414954505947453b3541323331,
0x3b3b3b3b3b4e3b3b3b3b3b4c3b303b6f4c3b30313050204850594c474f52454948204e414954505947453b3641323331,
0x3b3b3b3b3b4e3b3b3b3b3b4c3b303b6f4c3b31313050204850594c474f52454948204e414954505947453b3741323331,
0x3b3b3b3b3b4e3b3b3b3b3b4c3b303b6f4c3b31303051204850594c474f52454948204e414954505947453b3841323331,
0x3b3b3b3b3b4e3b3b3b3b3b4c3b303b6f4c3b32303051204850594c474f52454948204e414954505947453b3941323331,
0x3b3b3b3b3b4e3b3b3b3b3b4c3b303b6f4c3b33303051204850594c474f52454948204e414954505947453b4141323331,
0x3b3b3b3b3b4e3b3b3b3b3b4c3b303b6f4c3b34303051204850594c474f52454948204e414954505947453b4241323331,
0x3b3b3b3b3b4e3b3b3b3b3b4c3b303b6f4c3b35303051204850594c474f52454948204e414954505947453b4341323331,
0x3b3b3b3b3b4e3b3b3b3b3b4c3b303b6f4c3b36303051204850594c474f52454948204e414954505947453b4441323331,
0x3b3b3b3b3b4e3b3b3b3b3b4c3b303b6f4c3b37303051204850594c474f52454948204e414954505947453b4541323331,
0x3b3b3b3b3b4e3b3b3b3b3b4c3b303b6f4c3b31303052204850594c474f52454948204e414954505947453b4641323331,
0x3b3b3b3b3b4e3b3b3b3b3b4c3b303b6f4c3b32303052204850594c474f52454948204e414954505947453b3042323331,
0x3b3b3b3b3b4e3b3b3b3b3b4c3b303b6f4c3b4132303052204850594c474f52454948204e414954505947453b3142323331,
0x3b3b3b3b3b4e3b3b3b3b3b4c3b303b6f4c3b33303052204850594c474f52454948204e414954505947453b3242323331,
0x3b3b3b3b3b4e3b3b3b3b3b4c3b303b6f4c3b4133303052204850594c474f52454948204e414954505947453b3342323331,
0x3b3b3b3b3b4e3b3b3b3b3b4c3b303b6f4c3b4233303052204850594c474f52454948204e414954505947453b3442323331,
0x3b3b3b3b3b4e3b3b3b3b3b4c3b303b6f4c3b34303052204850594c474f52454948204e414954505947453b3542323331,
0x3b3b3b3b3b4e3b3b3b3b3b4c3b303b6f4c3b35303052204850594c474f52454948204e414954505947453b3642323331,
0x3b3b3b3b3b4e3b3b3b3b3b4c3b303b6f4c3b36303052204850594c474f52454948204e414954505947453b3742323331,
0x3b3b3b3b3b4e3b3b3b3b3b4c3b303b6f4c3b37303052204850594c474f52454948204e414954505947453b3842323331,
0x3b3b3b3b3b4e3b3b3b3b3b4c3b303b6f4c3b38303052204850594c474f52454948204e414954505947453b3942323331,
0x3b3b3b3b3b4e3b3b3b3b3b4c3b303b6f4c3b39303052204850594c474f52454948204e414954505947453b4142323331,
0x3b3b3b3b3b4e3b3b3b3b3b4c3b303b6f4c3b30313052204850594c474f52454948204e414954505947453b4242323331,
0x3b3b3b3b3b4e3b3b3b3b3b4c3b303b6f4c3b4130313052204850594c474f52454948204e414954505947453b4342323331,
0x3b3b3b3b3b4e3b3b3b3b3b4c3b303b6f4c3b31313052204850594c474f52454948204e414954505947453b4442323331,
0x3b3b3b3b3b4e3b3b3b3b3b4c3b303b6f4c3b32313052204850594c474f52454948204e414954505947453b4542323331,
0x3b3b3b3b3b4e3b3b3b3b3b4c3b303b6f4c3b33313052204850594c474f52454948204e414954505947453b4642323331,
0x3b3b3b3b3b4e3b3b3b3b3b4c3b303b6f4c3b34313052204850594c474f52454948204e414954505947453b3043323331,
0x3b3b3b3b3b4e3b3b3b3b3b4c3b303b6f4c3b35313052204850594c474f52454948204e414954505947453b3143323331,
0x3b3b3b3b3b4e3b3b3b3b3b4c3b303b6f4c3b36313052204850594c474f52454948204e414954505947453b3243323331,
0x3b3b3b3b3b4e3b3b3b3b3b4c3b303b6f4c3b4136313052204850594c474f52454948204e414954505947453b3343323331,
0x3b3b3b3b3b4e3b3b3b3b3b4c3b303b6f4c3b37313052204850594c474f52454948204e414954505947453b3443323331,
0x3b3b3b3b3b4e3b3b3b3b3b4c3b303b6f4c3b38313052204850594c474f52454948204e414954505947453b3543323331,
0x3b3b3b3b3b4e3b3b3b3b3b4c3b303b6f4c3b39313052204850594c474f52454948204e414954505947453b3643323331,
0x3b3b3b3b3b4e3b3b3b3b3b4c3b303b6f4c3b30323052204850594c474f52454948204e414954505947453b3743323331,
0x3b3b3b3b3b4e3b3b3b3b3b4c3b303b6f4c3b31323052204850594c474f52454948204e414954505947453b3843323331,
0x3b3b3b3b3b4e3b3b3b3b3b4c3b303b6f4c3b32323052204850594c474f52454948204e414954505947453b3943323331,
0x3b3b3b3b3b4e3b3b3b3b3b4c3b303b6f4c3b33323052204850594c474f52454948204e414954505947453b4143323331,
0x3b3b3b3b3b4e3b3b3b3b3b4c3b303b6f4c3b34323052204850594c474f52454948204e414954505947453b4243323331,
0x3b3b3b3b3b4e3b3b3b3b3b4c3b303b6f4c3b35323052204850594c474f52454948204e414954505947453b4343323331,
0x3b3b3b3b3b4e3b3b3b3b3b4c3b303b6f4c3b36323052204850594c474f52454948204e414954505947453b4443323331,
0x3b3b3b3b3b4e3b3b3b3b3b4c3b303b6f4c3b37323052204850594c474f52454948204e414954505947453b4543323331,
0x3b3b3b3b3b4e3b3b3b3b3b4c3b303b6f4c3b38323052204850594c474f52454948204e414954505947453b4643323331,
0x3b3b3b3b3b4e3b3b3b3b3b4c3b303b6f4c3b39323052204850594c474f52454948204e414954505947453b3044323331,
0x3b3b3b3b3b4e3b3b3b3b3b4c3b303b6f4c3b31303053204850594c474f52454948204e414954505947453b3144323331,
0x3b3b3b3b3b4e3b3b3b3b3b4c3b303b6f4c3b32303053204850594c474f52454948204e414954505947453b3244323331,
0x3b3b3b3b3b4e3b3b3b3b3b4c3b303b6f4c3b4132303053204850594c474f52454948204e414954505947453b3344323331,
0x3b3b3b3b3b4e3b3b3b3b3b4c3b303b6f4c3b33303053204850594c474f52454948204e414954505947453b3444323331,
0x3b3b3b3b3b4e3b3b3b3b3b4c3b303b6f4c3b34303053204850594c474f52454948204e414954505947453b3544323331,
0x3b3b3b3b3b4e3b3b3b3b3b4c3b303b6f4c3b35303053204850594c474f52454948204e414954505947453b3644323331,
0x3b3b3b3b3b4e3b3b3b3b3b4c3b303b6f4c3b36303053204850594c474f52454948204e414954505947453b3744323331,
0x3b3b3b3b3b4e3b3b3b3b3b4c3b303b6f4c3b4136303053204850594c474f52454948204e414954505947453b3844323331,
0x3b3b3b3b3b4e3b3b3b3b3b4c3b303b6f4c3b37303053204850594c474f52454948204e414954505947453b3944323331,
0x3b3b3b3b3b4e3b3b3b3b3b4c3b303b6f4c3b38303053204850594c474f52454948204e414954505947453b4144323331,
0x3b3b3b3b3b4e3b3b3b3b3b4c3b303b6f4c3b39303053204850594c474f52454948204e414954505947453b4244323331,
0x3b3b3b3b3b4e3b3b3b3b3b4c3b303b6f4c3b30313053204850594c474f52454948204e414954505947453b4344323331,
0x3b3b3b3b3b4e3b3b3b3b3b4c3b303b6f4c3b31313053204850594c474f52454948204e414954505947453b4444323331,
0x3b3b3b3b3b4e3b3b3b3b3b4c3b303b6f4c3b32313053204850594c474f52454948204e414954505947453b4544323331,
0x3b3b3b3b3b4e3b3b3b3b3b4c3b303b6f4c3b33313053204850594c474f52454948204e414954505947453b4644323331,
0x3b3b3b3b3b4e3b3b3b3b3b4c3b303b6f4c3b34313053204850594c474f52454948204e414954505947453b3045323331,
0x3b3b3b3b3b4e3b3b3b3b3b4c3b303b6f4c3b4134313053204850594c474f52454948204e414954505947453b3145323331,
0x3b3b3b3b3b4e3b3b3b3b3b4c3b303b6f4c3b4234313053204850594c474f52454948204e414954505947453b3245323331,
0x3b3b3b3b3b4e3b3b3b3b3b4c3b303b6f4c3b35313053204850594c474f52454948204e414954505947453b3345323331,
0x3b3b3b3b3b4e3b3b3b3b3b4c3b303b6f4c3b36313053204850594c474f52454948204e414954505947453b3445323331,
0x3b3b3b3b3b4e3b3b3b3b3b4c3b303b6f4c3b37313053204850594c474f52454948204e414954505947453b3545323331,
0x3b3b3b3b3b4e3b3b3b3b3b4c3b303b6f4c3b4137313053204850594c474f52454948204e414954505947453b3645323331,
0x3b3b3b3b3b4e3b3b3b3b3b4c3b303b6f4c3b38313053204850594c474f52454948204e414954505947453b3745323331,
0x3b3b3b3b3b4e3b3b3b3b3b4c3b303b6f4c3b39313053204850594c474f52454948204e414954505947453b3845323331,
0x3b3b3b3b3b4e3b3b3b3b3b4c3b303b6f4c3b30323053204850594c474f52454948204e414954505947453b3945323331]

/-- src/u5e/props/UnicodeData.txt lines 22273-22528. -/
def rawUcd87 : List Nat := [
0x3b3b3b3b3b4e3b3b3b3b3b4c3b303b6f4c3b31323053204850594c474f52454948204e414954505947453b4145323331,
0x3b3b3b3b3b4e3b3b3b3b3b4c3b303b6f4c3b32323053204850594c474f52454948204e414954505947453b4245323331,
0x3b3b3b3b3b4e3b3b3b3b3b4c3b303b6f4c3b33323053204850594c474f52454948204e414954505947453b4345323331,
0x3b3b3b3b3b4e3b3b3b3b3b4c3b303b6f4c3b34323053204850594c474f52454948204e414954505947453b4445323331,
0x3b3b3b3b3b4e3b3b3b3b3b4c3b303b6f4c3b35323053204850594c474f52454948204e414954505947453b4545323331,
0x3b3b3b3b3b4e3b3b3b3b3b4c3b303b6f4c3b36323053204850594c474f52454948204e414954505947453b4645323331,
0x3b3b3b3b3b4e3b3b3b3b3b4c3b303b6f4c3b4136323053204850594c474f52454948204e414954505947453b3046323331,
0x3b3b3b3b3b4e3b3b3b3b3b4c3b303b6f4c3b4236323053204850594c474f52454948204e414954505947453b3146323331,
0x3b3b3b3b3b4e3b3b3b3b3b4c3b303b6f4c3b37323053204850594c474f52454948204e414954505947453b3246323331,
0x3b3b3b3b3b4e3b3b3b3b3b4c3b303b6f4c3b38323053204850594c474f52454948204e414954505947453b3346323331,
0x3b3b3b3b3b4e3b3b3b3b3b4c3b303b6f4c3b39323053204850594c474f52454948204e414954505947453b3446323331,
0x3b3b3b3b3b4e3b3b3b3b3b4c3b303b6f4c3b30333053204850594c474f52454948204e414954505947453b3546323331,
0x3b3b3b3b3b4e3b3b3b3b3b4c3b303b6f4c3b31333053204850594c474f52454948204e414954505947453b3646323331,
0x3b3b3b3b3b4e3b3b3b3b3b4c3b303b6f4c3b32333053204850594c474f52454948204e414954505947453b3746323331,
0x3b3b3b3b3b4e3b3b3b3b3b4c3b303b6f4c3b33333053204850594c474f52454948204e414954505947453b3846323331,
0x3b3b3b3b3b4e3b3b3b3b3b4c3b303b6f4c3b34333053204850594c474f52454948204e414954505947453b3946323331,
0x3b3b3b3b3b4e3b3b3b3b3b4c3b303b6f4c3b35333053204850594c474f52454948204e414954505947453b4146323331,
0x3b3b3b3b3b4e3b3b3b3b3b4c3b303b6f4c3b4135333053204850594c474f52454948204e414954505947453b4246323331,
0x3b3b3b3b3b4e3b3b3b3b3b4c3b303b6f4c3b36333053204850594c474f52454948204e414954505947453b4346323331,
0x3b3b3b3b3b4e3b3b3b3b3b4c3b303b6f4c3b37333053204850594c474f52454948204e414954505947453b4446323331,
0x3b3b3b3b3b4e3b3b3b3b3b4c3b303b6f4c3b38333053204850594c474f52454948204e414954505947453b4546323331,
0x3b3b3b3b3b4e3b3b3b3b3b4c3b303b6f4c3b39333053204850594c474f52454948204e414954505947453b4646323331,
0x3b3b3b3b3b4e3b3b3b3b3b4c3b303b6f4c3b30343053204850594c474f52454948204e414954505947453b3030333331,
0x3b3b3b3b3b4e3b3b3b3b3b4c3b303b6f4c3b31343053204850594c474f52454948204e414954505947453b3130333331,
0x3b3b3b3b3b4e3b3b3b3b3b4c3b303b6f4c3b32343053204850594c474f52454948204e414954505947453b3230333331,
0x3b3b3b3b3b4e3b3b3b3b3b4c3b303b6f4c3b33343053204850594c474f52454948204e414954505947453b3330333331,
0x3b3b3b3b3b4e3b3b3b3b3b4c3b303b6f4c3b34343053204850594c474f52454948204e414954505947453b3430333331,
0x3b3b3b3b3b4e3b3b3b3b3b4c3b303b6f4c3b35343053204850594c474f52454948204e414954505947453b3530333331,
0x3b3b3b3b3b4e3b3b3b3b3b4c3b303b6f4c3b36343053204850594c474f52454948204e414954505947453b3630333331,
0x3b3b3b3b3b4e3b3b3b3b3b4c3b303b6f4c3b31303054204850594c474f52454948204e414954505947453b3730333331,
0x3b3b3b3b3b4e3b3b3b3b3b4c3b303b6f4c3b32303054204850594c474f52454948204e414954505947453b3830333331,
0x3b3b3b3b3b4e3b3b3b3b3b4c3b303b6f4c3b33303054204850594c474f52454948204e414954505947453b3930333331,
0x3b3b3b3b3b4e3b3b3b3b3b4c3b303b6f4c3b4133303054204850594c474f52454948204e414954505947453b4130333331,
0x3b3b3b3b3b4e3b3b3b3b3b4c3b303b6f4c3b34303054204850594c474f52454948204e414954505947453b4230333331,
0x3b3b3b3b3b4e3b3b3b3b3b4c3b303b6f4c3b35303054204850594c474f52454948204e414954505947453b4330333331,
0x3b3b3b3b3b4e3b3b3b3b3b4c3b303b6f4c3b36303054204850594c474f52454948204e414954505947453b4430333331,
0x3b3b3b3b3b4e3b3b3b3b3b4c3b303b6f4c3b37303054204850594c474f52454948204e414954505947453b4530333331,
0x3b3b3b3b3b4e3b3b3b3b3b4c3b303b6f4c3b4137303054204850594c474f52454948204e414954505947453b4630333331,
0x3b3b3b3b3b4e3b3b3b3b3b4c3b303b6f4c3b38303054204850594c474f52454948204e414954505947453b3031333331,
0x3b3b3b3b3b4e3b3b3b3b3b4c3b303b6f4c3b4138303054204850594c474f52454948204e414954505947453b3131333331,
0x3b3b3b3b3b4e3b3b3b3b3b4c3b303b6f4c3b39303054204850594c474f52454948204e414954505947453b3231333331,
0x3b3b3b3b3b4e3b3b3b3b3b4c3b303b6f4c3b4139303054204850594c474f52454948204e414954505947453b3331333331,
0x3b3b3b3b3b4e3b3b3b3b3b4c3b303b6f4c3b30313054204850594c474f52454948204e414954505947453b3431333331,
0x3b3b3b3b3b4e3b3b3b3b3b4c3b303b6f4c3b31313054204850594c474f52454948204e414954505947453b3531333331,
0x3b3b3b3b3b4e3b3b3b3b3b4c3b303b6f4c3b4131313054204850594c474f52454948204e414954505947453b3631333331,
0x3b3b3b3b3b4e3b3b3b3b3b4c3b303b6f4c3b32313054204850594c474f52454948204e414954505947453b3731333331,
0x3b3b3b3b3b4e3b3b3b3b3b4c3b303b6f4c3b33313054204850594c474f52454948204e414954505947453b3831333331,
0x3b3b3b3b3b4e3b3b3b3b3b4c3b303b6f4c3b34313054204850594c474f52454948204e414954505947453b3931333331,
0x3b3b3b3b3b4e3b3b3b3b3b4c3b303b6f4c3b35313054204850594c474f52454948204e414954505947453b4131333331,
0x3b3b3b3b3b4e3b3b3b3b3b4c3b303b6f4c3b36313054204850594c474f52454948204e414954505947453b4231333331,
0x3b3b3b3b3b4e3b3b3b3b3b4c3b303b6f4c3b4136313054204850594c474f52454948204e414954505947453b4331333331,
0x3b3b3b3b3b4e3b3b3b3b3b4c3b303b6f4c3b37313054204850594c474f52454948204e414954505947453b4431333331,
0x3b3b3b3b3b4e3b3b3b3b3b4c3b303b6f4c3b38313054204850594c474f52454948204e414954505947453b4531333331,
0x3b3b3b3b3b4e3b3b3b3b3b4c3b303b6f4c3b39313054204850594c474f52454948204e414954505947453b4631333331,
0x3b3b3b3b3b4e3b3b3b3b3b4c3b303b6f4c3b30323054204850594c474f52454948204e414954505947453b3032333331,
0x3b3b3b3b3b4e3b3b3b3b3b4c3b303b6f4c3b31323054204850594c474f52454948204e414954505947453b3132333331,
0x3b3b3b3b3b4e3b3b3b3b3b4c3b303b6f4c3b32323054204850594c474f52454948204e414954505947453b3232333331,
0x3b3b3b3b3b4e3b3b3b3b3b4c3b303b6f4c3b33323054204850594c474f52454948204e414954505947453b3332333331,
0x3b3b3b3b3b4e3b3b3b3b3b4c3b303b6f4c3b34323054204850594c474f52454948204e414954505947453b3432333331,
0x3b3b3b3b3b4e3b3b3b3b3b4c3b303b6f4c3b35323054204850594c474f52454948204e414954505947453b3532333331,
0x3b3b3b3b3b4e3b3b3b3b3b4c3b303b6f4c3b36323054204850594c474f52454948204e414954505947453b3632333331,
0x3b3b3b3b3b4e3b3b3b3b3b4c3b303b6f4c3b37323054204850594c474f52454948204e414954505947453b3732333331,
0x3b3b3b3b3b4e3b3b3b3b3b4c3b303b6f4c3b38323054204850594c474f52454948204e414954505947453b3832333331,
0x3b3b3b3b3b4e3b3b3b3b3b4c3b303b6f4c3b39323054204850594c474f52454948204e414954505947453b3932333331,
0x3b3b3b3b3b4e3b3b3b3b3b4c3b303b6f4c3b30333054204850594c474f52454948204e414954505947453b4132333331,
0x3b3b3b3b3b4e3b3b3b3b3b4c3b303b6f4c3b31333054204850594c474f52454948204e414954505947453b4232333331,
0x3b3b3b3b3b4e3b3b3b3b3b4c3b303b6f4c3b32333054204850594c474f52454948204e414954505947453b4332333331,
0x3b3b3b3b3b4e3b3b3b3b3b4c3b303b6f4c3b4132333054204850594c474f52454948204e414954505947453b4432333331,
0x3b3b3b3b3b4e3b3b3b3b3b4c3b303b6f4c3b33333054204850594c474f52454948204e414954505947453b4532333331,
0x3b3b3b3b3b4e3b3b3b3b3b4c3b303b6f4c3b4133333054204850594c474f52454948204e414954505947453b4632333331,
0x3b3b3b3b3b4e3b3b3b3b3b4c3b303b6f4c3b34333054204850594c474f52454948204e414954505947453b3033333331,
0x3b3b3b3b3b4e3b3b3b3b3b4c3b303b6f4c3b35333054204850594c474f52454948204e414954505947453b3133333331,
0x3b3b3b3b3b4e3b3b3b3b3b4c3b303b6f4c3b36333054204850594c474f52454948204e414954505947453b3233333331,
0x3b3b3b3b3b4e3b3b3b3b3b4c3b303b6f4c3b31303055204850594c474f52454948204e414954505947453b3333333331,
0x3b3b3b3b3b4e3b3b3b3b3b4c3b303b6f4c3b32303055204850594c474f52454948204e414954505947453b3433333331,
0x3b3b3b3b3b4e3b3b3b3b3b4c3b303b6f4c3b33303055204850594c474f52454948204e414954505947453b3533333331,
0x3b3b3b3b3b4e3b3b3b3b3b4c3b303b6f4c3b34303055204850594c474f52454948204e414954505947453b3633333331,
0x3b3b3b3b3b4e3b3b3b3b3b4c3b303b6f4c3b35303055204850594c474f52454948204e414954505947453b3733333331,
0x3b3b3b3b3b4e3b3b3b3b3b4c3b303b6f4c3b36303055204850594c474f52454948204e414954505947453b3833333331,
0x3b3b3b3b3b4e3b3b3b3b3b4c3b303b6f4c3b4136303055204850594c474f52454948204e414954505947453b3933333331,
0x3b3b3b3b3b4e3b3b3b3b3b4c3b303b6f4c3b4236303055204850594c474f52454948204e414954505947453b4133333331,
0x3b3b3b3b3b4e3b3b3b3b3b4c3b303b6f4c3b37303055204850594c474f52454948204e414954505947453b4233333331,
0x3b3b3b3b3b4e3b3b3b3b3b4c3b303b6f4c3b38303055204850594c474f52454948204e414954505947453b4333333331,
0x3b3b3b3b3b4e3b3b3b3b3b4c3b303b6f4c3b39303055204850594c474f52454948204e414954505947453b4433333331,
0x3b3b3b3b3b4e3b3b3b3b3b4c3b303b6f4c3b30313055204850594c474f52454948204e414954505947453b4533333331,
0x3b3b3b3b3b4e3b3b3b3b3b4c3b303b6f4c3b31313055204850594c474f52454948204e414954505947453b4633333331,
0x3b3b3b3b3b4e3b3b3b3b3b4c3b303b6f4c3b32313055204850594c474f52454948204e414954505947453b3034333331,
0x3b3b3b3b3b4e3b3b3b3b3b4c3b303b6f4c3b33313055204850594c474f52454948204e414954505947453b3134333331,
0x3b3b3b3b3b4e3b3b3b3b3b4c3b303b6f4c3b34313055204850594c474f52454948204e414954505947453b3234333331,
0x3b3b3b3b3b4e3b3b3b3b3b4c3b303b6f4c3b35313055204850594c474f52454948204e414954505947453b3334333331,
0x3b3b3b3b3b4e3b3b3b3b3b4c3b303b6f4c3b36313055204850594c474f52454948204e414954505947453b3434333331,
0x3b3b3b3b3b4e3b3b3b3b3b4c3b303b6f4c3b37313055204850594c474f52454948204e414954505947453b3534333331,
0x3b3b3b3b3b4e3b3b3b3b3b4c3b303b6f4c3b38313055204850594c474f52454948204e414954505947453b3634333331,
0x3b3b3b3b3b4e3b3b3b3b3b4c3b303b6f4c3b39313055204850594c474f52454948204e414954505947453b3734333331,
0x3b3b3b3b3b4e3b3b3b3b3b4c3b303b6f4c3b30323055204850594c474f52454948204e414954505947453b3834333331,
0x3b3b3b3b3b4e3b3b3b3b3b4c3b303b6f4c3b31323055204850594c474f52454948204e414954505947453b3934333331,
0x3b3b3b3b3b4e3b3b3b3b3b4c3b303b6f4c3b32323055204850594c474f52454948204e414954505947453b4134333331,
0x3b3b3b3b3b4e3b3b3b3b3b4c3b303b6f4c3b33323055204850594c474f52454948204e414954505947453b4234333331,
0x3b3b3b3b3b4e3b3b3b3b3b4c3b303b6f4c3b4133323055204850594c474f52454948204e414954505947453b4334333331,
0x3b3b3b3b3b4e3b3b3b3b3b4c3b303b6f4c3b34323055204850594c474f52454948204e414954505947453b4434333331,
0x3b3b3b3b3b4e3b3b3b3b3b4c3b303b6f4c3b35323055204850594c474f52454948204e414954505947453b4534333331,
0x3b3b3b3b3b4e3b3b3b3b3b4c3b303b6f4c3b36323055204850594c474f52454948204e414954505947453b4634333331,
0x3b3b3b3b3b4e3b3b3b3b3b4c3b303b6f4c3b37323055204850594c474f52454948204e414954505947453b3035333331,
0x3b3b3b3b3b4e3b3b3b3b3b4c3b303b6f4c3b38323055204850594c474f52454948204e414954505947453b3135333331,
0x3b3b3b3b3b4e3b3b3b3b3b4c3b303b6f4c3b39323055204850594c474f52454948204e414954505947453b3235333331,
0x3b3b3b3b3b4e3b3b3b3b3b4c3b303b6f4c3b4139323055204850594c474f52454948204e414954505947453b3335333331,
0x3b3b3b3b3b4e3b3b3b3b3b4c3b303b6f4c3b30333055204850594c474f52454948204e414954505947453b3435333331,
0x3b3b3b3b3b4e3b3b3b3b3b4c3b303b6f4c3b31333055204850594c474f52454948204e414954505947453b3535333331,
0x3b3b3b3b3b4e3b3b3b3b3b4c3b303b6f4c3b32333055204850594c474f52454948204e414954505947453b3635333331,
0x3b3b3b3b3b4e3b3b3b3b3b4c3b303b6f4c3b4132333055204850594c474f52454948204e414954505947453b3735333331,
0x3b3b3b3b3b4e3b3b3b3b3b4c3b303b6f4c3b33333055204850594c474f52454948204e414954505947453b3835333331,
0x3b3b3b3b3b4e3b3b3b3b3b4c3b303b6f4c3b34333055204850594c474f52454948204e414954505947453b3935333331,
0x3b3b3b3b3b4e3b3b3b3b3b4c3b303b6f4c3b35333055204850594c474f52454948204e414954505947453b4135333331,
0x3b3b3b3b3b4e3b3b3b3b3b4c3b303b6f4c3b36333055204850594c474f52454948204e414954505947453b4235333331,
0x3b3b3b3b3b4e3b3b3b3b3b4c3b303b6f4c3b37333055204850594c474f52454948204e414954505947453b4335333331,
0x3b3b3b3b3b4e3b3b3b3b3b4c3b303b6f4c3b38333055204850594c474f52454948204e414954505947453b4435333331,
0x3b3b3b3b3b4e3b3b3b3b3b4c3b303b6f4c3b39333055204850594c474f52454948204e414954505947453b4535333331,
0x3b3b3b3b3b4e3b3b3b3b3b4c3b303b6f4c3b30343055204850594c474f52454948204e414954505947453b4635333331,
0x3b3b3b3b3b4e3b3b3b3b3b4c3b303b6f4c3b31343055204850594c474f52454948204e414954505947453b3036333331,
0x3b3b3b3b3b4e3b3b3b3b3b4c3b303b6f4c3b32343055204850594c474f52454948204e414954505947453b3136333331,
0x3b3b3b3b3b4e3b3b3b3b3b4c3b303b6f4c3b31303056204850594c474f52454948204e414954505947453b3236333331,
0x3b3b3b3b3b4e3b3b3b3b3b4c3b303b6f4c3b4131303056204850594c474f52454948204e414954505947453b3336333331,
0x3b3b3b3b3b4e3b3b3b3b3b4c3b303b6f4c3b4231303056204850594c474f52454948204e414954505947453b3436333331,
0x3b3b3b3b3b4e3b3b3b3b3b4c3b303b6f4c3b4331303056204850594c474f52454948204e414954505947453b3536333331,
0x3b3b3b3b3b4e3b3b3b3b3b4c3b303b6f4c3b4431303056204850594c474f52454948204e414954505947453b3636333331,
0x3b3b3b3b3b4e3b3b3b3b3b4c3b303b6f4c3b4531303056204850594c474f52454948204e414954505947453b3736333331,
0x3b3b3b3b3b4e3b3b3b3b3b4c3b303b6f4c3b4631303056204850594c474f52454948204e414954505947453b3836333331,
0x3b3b3b3b3b4e3b3b3b3b3b4c3b303b6f4c3b4731303056204850594c474f52454948204e414954505947453b3936333331,
0x3b3b3b3b3b4e3b3b3b3b3b4c3b303b6f4c3b4831303056204850594c474f52454948204e414954505947453b4136333331,
0x3b3b3b3b3b4e3b3b3b3b3b4c3b303b6f4c3b4931303056204850594c474f52454948204e414954505947453b4236333331,
0x3b3b3b3b3b4e3b3b3b3b3b4c3b303b6f4c3b32303056204850594c474f52454948204e414954505947453b4336333331,
0x3b3b3b3b3b4e3b3b3b3b3b4c3b303b6f4c3b4132303056204850594c474f52454948204e414954505947453b4436333331,
0x3b3b3b3b3b4e3b3b3b3b3b4c3b303b6f4c3b33303056204850594c474f52454948204e414954505947453b4536333331,
0x3b3b3b3b3b4e3b3b3b3b3b4c3b303b6f4c3b34303056204850594c474f52454948204e414954505947453b4636333331,
0x3b3b3b3b3b4e3b3b3b3b3b4c3b303b6f4c3b35303056204850594c474f52454948204e414954505947453b3037333331,
0x3b3b3b3b3b4e3b3b3b3b3b4c3b303b6f4c3b36303056204850594c474f52454948204e414954505947453b3137333331,
0x3b3b3b3b3b4e3b3b3b3b3b4c3b303b6f4c3b37303056204850594c474f52454948204e414954505947453b3237333331,
0x3b3b3b3b3b4e3b3b3b3b3b4c3b303b6f4c3b4137303056204850594c474f52454948204e414954505947453b3337333331,
0x3b3b3b3b3b4e3b3b3b3b3b4c3b303b6f4c3b4237303056204850594c474f52454948204e414954505947453b3437333331,
0x3b3b3b3b3b4e3b3b3b3b3b4c3b303b6f4c3b38303056204850594c474f52454948204e414954505947453b3537333331,
0x3b3b3b3b3b4e3b3b3b3b3b4c3b303b6f4c3b39303056204850594c474f52454948204e414954505947453b3637333331,
0x3b3b3b3b3b4e3b3b3b3b3b4c3b303b6f4c3b30313056204850594c474f52454948204e414954505947453b3737333331,
0x3b3b3b3b3b4e3b3b3b3b3b4c3b303b6f4c3b31313056204850594c474f52454948204e414954505947453b3837333331,
0x3b3b3b3b3b4e3b3b3b3b3b4c3b303b6f4c3b4131313056204850594c474f52454948204e414954505947453b3937333331,
0x3b3b3b3b3b4e3b3b3b3b3b4c3b303b6f4c3b4231313056204850594c474f52454948204e414954505947453b4137333331,
0x3b3b3b3b3b4e3b3b3b3b3b4c3b303b6f4c3b4331313056204850594c474f52454948204e414954505947453b4237333331,
0x3b3b3b3b3b4e3b3b3b3b3b4c3b303b6f4c3b32313056204850594c474f52454948204e414954505947453b4337333331,
0x3b3b3b3b3b4e3b3b3b3b3b4c3b303b6f4c3b4132313056204850594c474f52454948204e414954505947453b4437333331,
0x3b3b3b3b3b4e3b3b3b3b3b4c3b303b6f4c3b4232313056204850594c474f52454948204e414954505947453b4537333331,
0x3b3b3b3b3b4e3b3b3b3b3b4c3b303b6f4c3b33313056204850594c474f52454948204e414954505947453b4637333331,
0x3b3b3b3b3b4e3b3b3b3b3b4c3b303b6f4c3b34313056204850594c474f52454948204e414954505947453b3038333331,
0x3b3b3b3b3b4e3b3b3b3b3b4c3b303b6f4c3b35313056204850594c474f52454948204e414954505947453b3138333331,
0x3b3b3b3b3b4e3b3b3b3b3b4c3b303b6f4c3b36313056204850594c474f52454948204e414954505947453b3238333331,
0x3b3b3b3b3b4e3b3b3b3b3b4c3b303b6f4c3b37313056204850594c474f52454948204e414954505947453b3338333331,
0x3b3b3b3b3b4e3b3b3b3b3b4c3b303b6f4c3b38313056204850594c474f52454948204e414954505947453b3438333331,
0x3b3b3b3b3b4e3b3b3b3b3b4c3b303b6f4c3b39313056204850594c474f52454948204e414954505947453b3538333331,
0x3b3b3b3b3b4e3b3b3b3b3b4c3b303b6f4c3b30323056204850594c474f52454948204e414954505947453b3638333331,
0x3b3b3b3b3b4e3b3b3b3b3b4c3b303b6f4c3b4130323056204850594c474f52454948204e414954505947453b3738333331,
0x3b3b3b3b3b4e3b3b3b3b3b4c3b303b6f4c3b4230323056204850594c474f52454948204e414954505947453b3838333331,
0x3b3b3b3b3b4e3b3b3b3b3b4c3b303b6f4c3b4330323056204850594c474f52454948204e414954505947453b3938333331,
0x3b3b3b3b3b4e3b3b3b3b3b4c3b303b6f4c3b4430323056204850594c474f52454948204e414954505947453b4138333331,
0x3b3b3b3b3b4e3b3b3b3b3b4c3b303b6f4c3b4530323056204850594c474f52454948204e414954505947453b4238333331,
0x3b3b3b3b3b4e3b3b3b3b3b4c3b303b6f4c3b4630323056204850594c474f52454948204e414954505947453b4338333331,
0x3b3b3b3b3b4e3b3b3b3b3b4c3b303b6f4c3b4730323056204850594c474f52454948204e414954505947453b4438333331,
0x3b3b3b3b3b4e3b3b3b3b3b4c3b303b6f4c3b4830323056204850594c474f52454948204e414954505947453b4538333331,
0x3b3b3b3b3b4e3b3b3b3b3b4c3b303b6f4c3b4930323056204850594c474f52454948204e414954505947453b4638333331,
0x3b3b3b3b3b4e3b3b3b3b3b4c3b303b6f4c3b4a30323056204850594c474f52454948204e414954505947453b3039333331,
0x3b3b3b3b3b4e3b3b3b3b3b4c3b303b6f4c3b4b30323056204850594c474f52454948204e414954505947453b3139333331,
0x3b3b3b3b3b4e3b3b3b3b3b4c3b303b6f4c3b4c30323056204850594c474f52454948204e414954505947453b3239333331,
0x3b3b3b3b3b4e3b3b3b3b3b4c3b303b6f4c3b31323056204850594c474f52454948204e414954505947453b3339333331,
0x3b3b3b3b3b4e3b3b3b3b3b4c3b303b6f4c3b32323056204850594c474f52454948204e414954505947453b3439333331,
0x3b3b3b3b3b4e3b3b3b3b3b4c3b303b6f4c3b33323056204850594c474f52454948204e414954505947453b3539333331,
0x3b3b3b3b3b4e3b3b3b3b3b4c3b303b6f4c3b4133323056204850594c474f52454948204e414954505947453b3639333331,
0x3b3b3b3b3b4e3b3b3b3b3b4c3b303b6f4c3b34323056204850594c474f52454948204e414954505947453b3739333331,
0x3b3b3b3b3b4e3b3b3b3b3b4c3b303b6f4c3b35323056204850594c474f52454948204e414954505947453b3839333331,
0x3b3b3b3b3b4e3b3b3b3b3b4c3b303b6f4c3b36323056204850594c474f52454948204e414954505947453b3939333331,
0x3b3b3b3b3b4e3b3b3b3b3b4c3b303b6f4c3b37323056204850594c474f52454948204e414954505947453b4139333331,
0x3b3b3b3b3b4e3b3b3b3b3b4c3b303b6f4c3b38323056204850594c474f52454948204e414954505947453b4239333331,
0x3b3b3b3b3b4e3b3b3b3b3b4c3b303b6f4c3b4138323056204850594c474f52454948204e414954505947453b4339333331,
0x3b3b3b3b3b4e3b3b3b3b3b4c3b303b6f4c3b39323056204850594c474f52454948204e414954505947453b4439333331,
0x3b3b3b3b3b4e3b3b3b3b3b4c3b303b6f4c3b4139323056204850594c474f52454948204e414954505947453b4539333331,
0x3b3b3b3b3b4e3b3b3b3b3b4c3b303b6f4c3b30333056204850594c474f52454948204e414954505947453b4639333331,
0x3b3b3b3b3b4e3b3b3b3b3b4c3b303b6f4c3b4130333056204850594c474f52454948204e414954505947453b3041333331,
0x3b3b3b3b3b4e3b3b3b3b3b4c3b303b6f4c3b31333056204850594c474f52454948204e414954505947453b3141333331,
0x3b3b3b3b3b4e3b3b3b3b3b4c3b303b6f4c3b4131333056204850594c474f52454948204e414954505947453b3241333331,
0x3b3b3b3b3b4e3b3b3b3b3b4c3b303b6f4c3b32333056204850594c474f52454948204e414954505947453b3341333331,
0x3b3b3b3b3b4e3b3b3b3b3b4c3b303b6f4c3b33333056204850594c474f52454948204e414954505947453b3441333331,
0x3b3b3b3b3b4e3b3b3b3b3b4c3b303b6f4c3b4133333056204850594c474f52454948204e414954505947453b3541333331,
0x3b3b3b3b3b4e3b3b3b3b3b4c3b303b6f4c3b34333056204850594c474f52454948204e414954505947453b3641333331,
0x3b3b3b3b3b4e3b3b3b3b3b4c3b303b6f4c3b35333056204850594c474f52454948204e414954505947453b3741333331,
0x3b3b3b3b3b4e3b3b3b3b3b4c3b303b6f4c3b36333056204850594c474f52454948204e414954505947453b3841333331,
0x3b3b3b3b3b4e3b3b3b3b3b4c3b303b6f4c3b37333056204850594c474f52454948204e414954505947453b3941333331,
0x3b3b3b3b3b4e3b3b3b3b3b4c3b303b6f4c3b4137333056204850594c474f52454948204e414954505947453b4141333331,
0x3b3b3b3b3b4e3b3b3b3b3b4c3b303b6f4c3b38333056204850594c474f52454948204e414954505947453b4241333331,
0x3b3b3b3b3b4e3b3b3b3b3b4c3b303b6f4c3b39333056204850594c474f52454948204e414954505947453b4341333331,
0x3b3b3b3b3b4e3b3b3b3b3b4c3b303b6f4c3b30343056204850594c474f52454948204e414954505947453b4441333331,
0x3b3b3b3b3b4e3b3b3b3b3b4c3b303b6f4c3b4130343056204850594c474f52454948204e414954505947453b4541333331,
0x3b3b3b3b3b4e3b3b3b3b3b4c3b303b6f4c3b31303057204850594c474f52454948204e414954505947453b4641333331,
0x3b3b3b3b3b4e3b3b3b3b3b4c3b303b6f4c3b32303057204850594c474f52454948204e414954505947453b3042333331,
0x3b3b3b3b3b4e3b3b3b3b3b4c3b303b6f4c3b33303057204850594c474f52454948204e414954505947453b3142333331,
0x3b3b3b3b3b4e3b3b3b3b3b4c3b303b6f4c3b4133303057204850594c474f52454948204e414954505947453b3242333331,
0x3b3b3b3b3b4e3b3b3b3b3b4c3b303b6f4c3b34303057204850594c474f52454948204e414954505947453b3342333331,
0x3b3b3b3b3b4e3b3b3b3b3b4c3b303b6f4c3b35303057204850594c474f52454948204e414954505947453b3442333331,
0x3b3b3b3b3b4e3b3b3b3b3b4c3b303b6f4c3b36303057204850594c474f52454948204e414954505947453b3542333331,
0x3b3b3b3b3b4e3b3b3b3b3b4c3b303b6f4c3b37303057204850594c474f52454948204e414954505947453b3642333331,
0x3b3b3b3b3b4e3b3b3b3b3b4c3b303b6f4c3b38303057204850594c474f52454948204e414954505947453b3742333331,
0x3b3b3b3b3b4e3b3b3b3b3b4c3b303b6f4c3b39303057204850594c474f52454948204e414954505947453b3842333331,
0x3b3b3b3b3b4e3b3b3b3b3b4c3b303b6f4c3b4139303057204850594c474f52454948204e414954505947453b3942333331,
0x3b3b3b3b3b4e3b3b3b3b3b4c3b303b6f4c3b30313057204850594c474f52454948204e414954505947453b4142333331,
0x3b3b3b3b3b4e3b3b3b3b3b4c3b303b6f4c3b4130313057204850594c474f52454948204e414954505947453b4242333331,
0x3b3b3b3b3b4e3b3b3b3b3b4c3b303b6f4c3b31313057204850594c474f52454948204e414954505947453b4342333331,
0x3b3b3b3b3b4e3b3b3b3b3b4c3b303b6f4c3b32313057204850594c474f52454948204e414954505947453b4442333331,
0x3b3b3b3b3b4e3b3b3b3b3b4c3b303b6f4c3b33313057204850594c474f52454948204e414954505947453b4542333331,
0x3b3b3b3b3b4e3b3b3b3b3b4c3b303b6f4c3b34313057204850594c474f52454948204e414954505947453b4642333331,
0x3b3b3b3b3b4e3b3b3b3b3b4c3b303b6f4c3b4134313057204850594c474f52454948204e414954505947453b3043333331,
0x3b3b3b3b3b4e3b3b3b3b3b4c3b303b6f4c3b35313057204850594c474f52454948204e414954505947453b3143333331,
0x3b3b3b3b3b4e3b3b3b3b3b4c3b303b6f4c3b36313057204850594c474f52454948204e414954505947453b3243333331,
0x3b3b3b3b3b4e3b3b3b3b3b4c3b303b6f4c3b37313057204850594c474f52454948204e414954505947453b3343333331,
0x3b3b3b3b3b4e3b3b3b3b3b4c3b303b6f4c3b4137313057204850594c474f52454948204e414954505947453b3443333331,
0x3b3b3b3b3b4e3b3b3b3b3b4c3b303b6f4c3b38313057204850594c474f52454948204e414954505947453b3543333331,
0x3b3b3b3b3b4e3b3b3b3b3b4c3b303b6f4c3b4138313057204850594c474f52454948204e414954505947453b3643333331,
0x3b3b3b3b3b4e3b3b3b3b3b4c3b303b6f4c3b39313057204850594c474f52454948204e414954505947453b3743333331,
0x3b3b3b3b3b4e3b3b3b3b3b4c3b303b6f4c3b30323057204850594c474f52454948204e414954505947453b3843333331,
0x3b3b3b3b3b4e3b3b3b3b3b4c3b303b6f4c3b31323057204850594c474f52454948204e414954505947453b3943333331,
0x3b3b3b3b3b4e3b3b3b3b3b4c3b303b6f4c3b32323057204850594c474f52454948204e414954505947453b4143333331,
0x3b3b3b3b3b4e3b3b3b3b3b4c3b303b6f4c3b33323057204850594c474f52454948204e414954505947453b4243333331,
0x3b3b3b3b3b4e3b3b3b3b3b4c3b303b6f4c3b34323057204850594c474f52454948204e414954505947453b4343333331,
0x3b3b3b3b3b4e3b3b3b3b3b4c3b303b6f4c3b4134323057204850594c474f52454948204e414954505947453b4443333331,
0x3b3b3b3b3b4e3b3b3b3b3b4c3b303b6f4c3b35323057204850594c474f52454948204e414954505947453b4543333331,
0x3b3b3b3b3b4e3b3b3b3b3b4c3b303b6f4c3b31303058204850594c474f52454948204e414954505947453b4643333331,
0x3b3b3b3b3b4e3b3b3b3b3b4c3b303b6f4c3b32303058204850594c474f52454948204e414954505947453b3044333331,
0x3b3b3b3b3b4e3b3b3b3b3b4c3b303b6f4c3b33303058204850594c474f52454948204e414954505947453b3144333331,
0x3b3b3b3b3b4e3b3b3b3b3b4c3b303b6f4c3b34303058204850594c474f52454948204e414954505947453b3244333331,
0x3b3b3b3b3b4e3b3b3b3b3b4c3b303b6f4c3b4134303058204850594c474f52454948204e414954505947453b3344333331,
0x3b3b3b3b3b4e3b3b3b3b3b4c3b303b6f4c3b4234303058204850594c474f52454948204e414954505947453b3444333331,
0x3b3b3b3b3b4e3b3b3b3b3b4c3b303b6f4c3b35303058204850594c474f52454948204e414954505947453b3544333331,
0x3b3b3b3b3b4e3b3b3b3b3b4c3b303b6f4c3b36303058204850594c474f52454948204e414954505947453b3644333331,
0x3b3b3b3b3b4e3b3b3b3b3b4c3b303b6f4c3b4136303058204850594c474f52454948204e414954505947453b3744333331,
0x3b3b3b3b3b4e3b3b3b3b3b4c3b303b6f4c3b37303058204850594c474f52454948204e414954505947453b3844333331,
0x3b3b3b3b3b4e3b3b3b3b3b4c3b303b6f4c3b38303058204850594c474f52454948204e414954505947453b3944333331,
0x3b3b3b3b3b4e3b3b3b3b3b4c3b303b6f4c3b4138303058204850594c474f52454948204e414954505947453b4144333331,
0x3b3b3b3b3b4e3b3b3b3b3b4c3b303b6f4c3b31303059204850594c474f52454948204e414954505947453b4244333331,
0x3b3b3b3b3b4e3b3b3b3b3b4c3b303b6f4c3b4131303059204850594c474f52454948204e414954505947453b4344333331,
0x3b3b3b3b3b4e3b3b3b3b3b4c3b303b6f4c3b32303059204850594c474f52454948204e414954505947453b4444333331,
0x3b3b3b3b3b4e3b3b3b3b3b4c3b303b6f4c3b33303059204850594c474f52454948204e414954505947453b4544333331,
0x3b3b3b3b3b4e3b3b3b3b3b4c3b303b6f4c3b34303059204850594c474f52454948204e414954505947453b4644333331,
0x3b3b3b3b3b4e3b3b3b3b3b4c3b303b6f4c3b35303059204850594c474f52454948204e414954505947453b3045333331,
0x3b3b3b3b3b4e3b3b3b3b3b4c3b303b6f4c3b36303059204850594c474f52454948204e414954505947453b3145333331,
0x3b3b3b3b3b4e3b3b3b3b3b4c3b303b6f4c3b37303059204850594c474f52454948204e414954505947453b3245333331,
0x3b3b3b3b3b4e3b3b3b3b3b4c3b303b6f4c3b38303059204850594c474f52454948204e414954505947453b3345333331,
0x3b3b3b3b3b4e3b3b3b3b3b4c3b303b6f4c3b3130305a204850594c474f52454948204e414954505947453b3445333331,
0x3b3b3b3b3b4e3b3b3b3b3b4c3b303b6f4c3b3230305a204850594c474f52454948204e414954505947453b3545333331,
0x3b3b3b3b3b4e3b3b3b3b3b4c3b303b6f4c3b413230305a204850594c474f52454948204e414954505947453b3645333331,
0x3b3b3b3b3b4e3b3b3b3b3b4c3b303b6f4c3b423230305a204850594c474f52454948204e414954505947453b3745333331,
0x3b3b3b3b3b4e3b3b3b3b3b4c3b303b6f4c3b433230305a204850594c474f52454948204e414954505947453b3845333331,
0x3b3b3b3b3b4e3b3b3b3b3b4c3b303b6f4c3b443230305a204850594c474f52454948204e414954505947453b3945333331]

/-- src/u5e/props/UnicodeData.txt lines 22529-22784. -/
def rawUcd88 : List Nat := [
0x3b3b3b3b3b4e3b3b3b3b3b4c3b303b6f4c3b3330305a204850594c474f52454948204e414954505947453b4145333331,
0x3b3b3b3b3b4e3b3b3b3b3b4c3b303b6f4c3b413330305a204850594c474f52454948204e414954505947453b4245333331,
0x3b3b3b3b3b4e3b3b3b3b3b4c3b303b6f4c3b423330305a204850594c474f52454948204e414954505947453b4345333331,
0x3b3b3b3b3b4e3b3b3b3b3b4c3b303b6f4c3b3430305a204850594c474f52454948204e414954505947453b4445333331,
0x3b3b3b3b3b4e3b3b3b3b3b4c3b303b6f4c3b413430305a204850594c474f52454948204e414954505947453b4545333331,
0x3b3b3b3b3b4e3b3b3b3b3b4c3b303b6f4c3b3530305a204850594c474f52454948204e414954505947453b4645333331,
0x3b3b3b3b3b4e3b3b3b3b3b4c3b303b6f4c3b413530305a204850594c474f52454948204e414954505947453b3046333331,
0x3b3b3b3b3b4e3b3b3b3b3b4c3b303b6f4c3b3630305a204850594c474f52454948204e414954505947453b3146333331,
0x3b3b3b3b3b4e3b3b3b3b3b4c3b303b6f4c3b3730305a204850594c474f52454948204e414954505947453b3246333331,
0x3b3b3b3b3b4e3b3b3b3b3b4c3b303b6f4c3b3830305a204850594c474f52454948204e414954505947453b3346333331,
0x3b3b3b3b3b4e3b3b3b3b3b4c3b303b6f4c3b3930305a204850594c474f52454948204e414954505947453b3446333331,
0x3b3b3b3b3b4e3b3b3b3b3b4c3b303b6f4c3b3031305a204850594c474f52454948204e414954505947453b3546333331,
0x3b3b3b3b3b4e3b3b3b3b3b4c3b303b6f4c3b3131305a204850594c474f52454948204e414954505947453b3646333331,
0x3b3b3b3b3b4e3b3b3b3b3b4c3b303b6f4c3b3231305a204850594c474f52454948204e414954505947453b3746333331,
0x3b3b3b3b3b4e3b3b3b3b3b4c3b303b6f4c3b3331305a204850594c474f52454948204e414954505947453b3846333331,
0x3b3b3b3b3b4e3b3b3b3b3b4c3b303b6f4c3b3431305a204850594c474f52454948204e414954505947453b3946333331,
0x3b3b3b3b3b4e3b3b3b3b3b4c3b303b6f4c3b3531305a204850594c474f52454948204e414954505947453b4146333331,
0x3b3b3b3b3b4e3b3b3b3b3b4c3b303b6f4c3b413531305a204850594c474f52454948204e414954505947453b4246333331,
0x3b3b3b3b3b4e3b3b3b3b3b4c3b303b6f4c3b423531305a204850594c474f52454948204e414954505947453b4346333331,
0x3b3b3b3b3b4e3b3b3b3b3b4c3b303b6f4c3b433531305a204850594c474f52454948204e414954505947453b4446333331,
0x3b3b3b3b3b4e3b3b3b3b3b4c3b303b6f4c3b443531305a204850594c474f52454948204e414954505947453b4546333331,
0x3b3b3b3b3b4e3b3b3b3b3b4c3b303b6f4c3b453531305a204850594c474f52454948204e414954505947453b4646333331,
0x3b3b3b3b3b4e3b3b3b3b3b4c3b303b6f4c3b463531305a204850594c474f52454948204e414954505947453b3030343331,
0x3b3b3b3b3b4e3b3b3b3b3b4c3b303b6f4c3b473531305a204850594c474f52454948204e414954505947453b3130343331,
0x3b3b3b3b3b4e3b3b3b3b3b4c3b303b6f4c3b483531305a204850594c474f52454948204e414954505947453b3230343331,
0x3b3b3b3b3b4e3b3b3b3b3b4c3b303b6f4c3b493531305a204850594c474f52454948204e414954505947453b3330343331,
0x3b3b3b3b3b4e3b3b3b3b3b4c3b303b6f4c3b3631305a204850594c474f52454948204e414954505947453b3430343331,
0x3b3b3b3b3b4e3b3b3b3b3b4c3b303b6f4c3b413631305a204850594c474f52454948204e414954505947453b3530343331,
0x3b3b3b3b3b4e3b3b3b3b3b4c3b303b6f4c3b423631305a204850594c474f52454948204e414954505947453b3630343331,
0x3b3b3b3b3b4e3b3b3b3b3b4c3b303b6f4c3b433631305a204850594c474f52454948204e414954505947453b3730343331,
0x3b3b3b3b3b4e3b3b3b3b3b4c3b303b6f4c3b443631305a204850594c474f52454948204e414954505947453b3830343331,
0x3b3b3b3b3b4e3b3b3b3b3b4c3b303b6f4c3b453631305a204850594c474f52454948204e414954505947453b3930343331,
0x3b3b3b3b3b4e3b3b3b3b3b4c3b303b6f4c3b463631305a204850594c474f52454948204e414954505947453b4130343331,
0x3b3b3b3b3b4e3b3b3b3b3b4c3b303b6f4c3b473631305a204850594c474f52454948204e414954505947453b4230343331,
0x3b3b3b3b3b4e3b3b3b3b3b4c3b303b6f4c3b483631305a204850594c474f52454948204e414954505947453b4330343331,
0x3b3b3b3b3b4e3b3b3b3b3b4c3b303b6f4c3b3130304141204850594c474f52454948204e414954505947453b4430343331,
0x3b3b3b3b3b4e3b3b3b3b3b4c3b303b6f4c3b3230304141204850594c474f52454948204e414954505947453b4530343331,
0x3b3b3b3b3b4e3b3b3b3b3b4c3b303b6f4c3b3330304141204850594c474f52454948204e414954505947453b4630343331,
0x3b3b3b3b3b4e3b3b3b3b3b4c3b303b6f4c3b3430304141204850594c474f52454948204e414954505947453b3031343331,
0x3b3b3b3b3b4e3b3b3b3b3b4c3b303b6f4c3b3530304141204850594c474f52454948204e414954505947453b3131343331,
0x3b3b3b3b3b4e3b3b3b3b3b4c3b303b6f4c3b3630304141204850594c474f52454948204e414954505947453b3231343331,
0x3b3b3b3b3b4e3b3b3b3b3b4c3b303b6f4c3b3730304141204850594c474f52454948204e414954505947453b3331343331,
0x3b3b3b3b3b4e3b3b3b3b3b4c3b303b6f4c3b413730304141204850594c474f52454948204e414954505947453b3431343331,
0x3b3b3b3b3b4e3b3b3b3b3b4c3b303b6f4c3b423730304141204850594c474f52454948204e414954505947453b3531343331,
0x3b3b3b3b3b4e3b3b3b3b3b4c3b303b6f4c3b3830304141204850594c474f52454948204e414954505947453b3631343331,
0x3b3b3b3b3b4e3b3b3b3b3b4c3b303b6f4c3b3930304141204850594c474f52454948204e414954505947453b3731343331,
0x3b3b3b3b3b4e3b3b3b3b3b4c3b303b6f4c3b3031304141204850594c474f52454948204e414954505947453b3831343331,
0x3b3b3b3b3b4e3b3b3b3b3b4c3b303b6f4c3b3131304141204850594c474f52454948204e414954505947453b3931343331,
0x3b3b3b3b3b4e3b3b3b3b3b4c3b303b6f4c3b3231304141204850594c474f52454948204e414954505947453b4131343331,
0x3b3b3b3b3b4e3b3b3b3b3b4c3b303b6f4c3b3331304141204850594c474f52454948204e414954505947453b4231343331,
0x3b3b3b3b3b4e3b3b3b3b3b4c3b303b6f4c3b3431304141204850594c474f52454948204e414954505947453b4331343331,
0x3b3b3b3b3b4e3b3b3b3b3b4c3b303b6f4c3b3531304141204850594c474f52454948204e414954505947453b4431343331,
0x3b3b3b3b3b4e3b3b3b3b3b4c3b303b6f4c3b3631304141204850594c474f52454948204e414954505947453b4531343331,
0x3b3b3b3b3b4e3b3b3b3b3b4c3b303b6f4c3b3731304141204850594c474f52454948204e414954505947453b4631343331,
0x3b3b3b3b3b4e3b3b3b3b3b4c3b303b6f4c3b3831304141204850594c474f52454948204e414954505947453b3032343331,
0x3b3b3b3b3b4e3b3b3b3b3b4c3b303b6f4c3b3931304141204850594c474f52454948204e414954505947453b3132343331,
0x3b3b3b3b3b4e3b3b3b3b3b4c3b303b6f4c3b3032304141204850594c474f52454948204e414954505947453b3232343331,
0x3b3b3b3b3b4e3b3b3b3b3b4c3b303b6f4c3b3132304141204850594c474f52454948204e414954505947453b3332343331,
0x3b3b3b3b3b4e3b3b3b3b3b4c3b303b6f4c3b3232304141204850594c474f52454948204e414954505947453b3432343331,
0x3b3b3b3b3b4e3b3b3b3b3b4c3b303b6f4c3b3332304141204850594c474f52454948204e414954505947453b3532343331,
0x3b3b3b3b3b4e3b3b3b3b3b4c3b303b6f4c3b3432304141204850594c474f52454948204e414954505947453b3632343331,
0x3b3b3b3b3b4e3b3b3b3b3b4c3b303b6f4c3b3532304141204850594c474f52454948204e414954505947453b3732343331,
0x3b3b3b3b3b4e3b3b3b3b3b4c3b303b6f4c3b3632304141204850594c474f52454948204e414954505947453b3832343331,
0x3b3b3b3b3b4e3b3b3b3b3b4c3b303b6f4c3b3732304141204850594c474f52454948204e414954505947453b3932343331,
0x3b3b3b3b3b4e3b3b3b3b3b4c3b303b6f4c3b3832304141204850594c474f52454948204e414954505947453b4132343331,
0x3b3b3b3b3b4e3b3b3b3b3b4c3b303b6f4c3b3932304141204850594c474f52454948204e414954505947453b4232343331,
0x3b3b3b3b3b4e3b3b3b3b3b4c3b303b6f4c3b3033304141204850594c474f52454948204e414954505947453b4332343331,
0x3b3b3b3b3b4e3b3b3b3b3b4c3b303b6f4c3b3133304141204850594c474f52454948204e414954505947453b4432343331,
0x3b3b3b3b3b4e3b3b3b3b3b4c3b303b6f4c3b3233304141204850594c474f52454948204e414954505947453b4532343331,
0x3b3b3b3b3b4e3b3b3b3b3b4c3b303b6f4c3b31303041204850594c474f52454948204e41494c4f54414e413b3030343431,
0x3b3b3b3b3b4e3b3b3b3b3b4c3b303b6f4c3b32303041204850594c474f52454948204e41494c4f54414e413b3130343431,
0x3b3b3b3b3b4e3b3b3b3b3b4c3b303b6f4c3b33303041204850594c474f52454948204e41494c4f54414e413b3230343431,
0x3b3b3b3b3b4e3b3b3b3b3b4c3b303b6f4c3b34303041204850594c474f52454948204e41494c4f54414e413b3330343431,
0x3b3b3b3b3b4e3b3b3b3b3b4c3b303b6f4c3b35303041204850594c474f52454948204e41494c4f54414e413b3430343431,
0x3b3b3b3b3b4e3b3b3b3b3b4c3b303b6f4c3b36303041204850594c474f52454948204e41494c4f54414e413b3530343431,
0x3b3b3b3b3b4e3b3b3b3b3b4c3b303b6f4c3b37303041204850594c474f52454948204e41494c4f54414e413b3630343431,
0x3b3b3b3b3b4e3b3b3b3b3b4c3b303b6f4c3b38303041204850594c474f52454948204e41494c4f54414e413b3730343431,
0x3b3b3b3b3b4e3b3b3b3b3b4c3b303b6f4c3b39303041204850594c474f52454948204e41494c4f54414e413b3830343431,
0x3b3b3b3b3b4e3b3b3b3b3b4c3b303b6f4c3b30313041204850594c474f52454948204e41494c4f54414e413b3930343431,
0x3b3b3b3b3b4e3b3b3b3b3b4c3b303b6f4c3b4130313041204850594c474f52454948204e41494c4f54414e413b4130343431,
0x3b3b3b3b3b4e3b3b3b3b3b4c3b303b6f4c3b31313041204850594c474f52454948204e41494c4f54414e413b4230343431,
0x3b3b3b3b3b4e3b3b3b3b3b4c3b303b6f4c3b32313041204850594c474f52454948204e41494c4f54414e413b4330343431,
0x3b3b3b3b3b4e3b3b3b3b3b4c3b303b6f4c3b33313041204850594c474f52454948204e41494c4f54414e413b4430343431,
0x3b3b3b3b3b4e3b3b3b3b3b4c3b303b6f4c3b34313041204850594c474f52454948204e41494c4f54414e413b4530343431,
0x3b3b3b3b3b4e3b3b3b3b3b4c3b303b6f4c3b35313041204850594c474f52454948204e41494c4f54414e413b4630343431,
0x3b3b3b3b3b4e3b3b3b3b3b4c3b303b6f4c3b36313041204850594c474f52454948204e41494c4f54414e413b3031343431,
0x3b3b3b3b3b4e3b3b3b3b3b4c3b303b6f4c3b37313041204850594c474f52454948204e41494c4f54414e413b3131343431,
0x3b3b3b3b3b4e3b3b3b3b3b4c3b303b6f4c3b38313041204850594c474f52454948204e41494c4f54414e413b3231343431,
0x3b3b3b3b3b4e3b3b3b3b3b4c3b303b6f4c3b39313041204850594c474f52454948204e41494c4f54414e413b3331343431,
0x3b3b3b3b3b4e3b3b3b3b3b4c3b303b6f4c3b30323041204850594c474f52454948204e41494c4f54414e413b3431343431,
0x3b3b3b3b3b4e3b3b3b3b3b4c3b303b6f4c3b31323041204850594c474f52454948204e41494c4f54414e413b3531343431,
0x3b3b3b3b3b4e3b3b3b3b3b4c3b303b6f4c3b32323041204850594c474f52454948204e41494c4f54414e413b3631343431,
0x3b3b3b3b3b4e3b3b3b3b3b4c3b303b6f4c3b33323041204850594c474f52454948204e41494c4f54414e413b3731343431,
0x3b3b3b3b3b4e3b3b3b3b3b4c3b303b6f4c3b34323041204850594c474f52454948204e41494c4f54414e413b3831343431,
0x3b3b3b3b3b4e3b3b3b3b3b4c3b303b6f4c3b35323041204850594c474f52454948204e41494c4f54414e413b3931343431,
0x3b3b3b3b3b4e3b3b3b3b3b4c3b303b6f4c3b36323041204850594c474f52454948204e41494c4f54414e413b4131343431,
0x3b3b3b3b3b4e3b3b3b3b3b4c3b303b6f4c3b4136323041204850594c474f52454948204e41494c4f54414e413b4231343431,
0x3b3b3b3b3b4e3b3b3b3b3b4c3b303b6f4c3b37323041204850594c474f52454948204e41494c4f54414e413b4331343431,
0x3b3b3b3b3b4e3b3b3b3b3b4c3b303b6f4c3b38323041204850594c474f52454948204e41494c4f54414e413b4431343431,
0x3b3b3b3b3b4e3b3b3b3b3b4c3b303b6f4c3b39323041204850594c474f52454948204e41494c4f54414e413b4531343431,
0x3b3b3b3b3b4e3b3b3b3b3b4c3b303b6f4c3b30333041204850594c474f52454948204e41494c4f54414e413b4631343431,
0x3b3b3b3b3b4e3b3b3b3b3b4c3b303b6f4c3b31333041204850594c474f52454948204e41494c4f54414e413b3032343431,
0x3b3b3b3b3b4e3b3b3b3b3b4c3b303b6f4c3b32333041204850594c474f52454948204e41494c4f54414e413b3132343431,
0x3b3b3b3b3b4e3b3b3b3b3b4c3b303b6f4c3b33333041204850594c474f52454948204e41494c4f54414e413b3232343431,
0x3b3b3b3b3b4e3b3b3b3b3b4c3b303b6f4c3b34333041204850594c474f52454948204e41494c4f54414e413b3332343431,
0x3b3b3b3b3b4e3b3b3b3b3b4c3b303b6f4c3b35333041204850594c474f52454948204e41494c4f54414e413b3432343431,
0x3b3b3b3b3b4e3b3b3b3b3b4c3b303b6f4c3b36333041204850594c474f52454948204e41494c4f54414e413b3532343431,
0x3b3b3b3b3b4e3b3b3b3b3b4c3b303b6f4c3b37333041204850594c474f52454948204e41494c4f54414e413b3632343431,
0x3b3b3b3b3b4e3b3b3b3b3b4c3b303b6f4c3b38333041204850594c474f52454948204e41494c4f54414e413b3732343431,
0x3b3b3b3b3b4e3b3b3b3b3b4c3b303b6f4c3b39333041204850594c474f52454948204e41494c4f54414e413b3832343431,
0x3b3b3b3b3b4e3b3b3b3b3b4c3b303b6f4c3b4139333041204850594c474f52454948204e41494c4f54414e413b3932343431,
0x3b3b3b3b3b4e3b3b3b3b3b4c3b303b6f4c3b30343041204850594c474f52454948204e41494c4f54414e413b4132343431,
0x3b3b3b3b3b4e3b3b3b3b3b4c3b303b6f4c3b31343041204850594c474f52454948204e41494c4f54414e413b4232343431,
0x3b3b3b3b3b4e3b3b3b3b3b4c3b303b6f4c3b4131343041204850594c474f52454948204e41494c4f54414e413b4332343431,
0x3b3b3b3b3b4e3b3b3b3b3b4c3b303b6f4c3b32343041204850594c474f52454948204e41494c4f54414e413b4432343431,
0x3b3b3b3b3b4e3b3b3b3b3b4c3b303b6f4c3b33343041204850594c474f52454948204e41494c4f54414e413b4532343431,
0x3b3b3b3b3b4e3b3b3b3b3b4c3b303b6f4c3b34343041204850594c474f52454948204e41494c4f54414e413b4632343431,
0x3b3b3b3b3b4e3b3b3b3b3b4c3b303b6f4c3b35343041204850594c474f52454948204e41494c4f54414e413b3033343431,
0x3b3b3b3b3b4e3b3b3b3b3b4c3b303b6f4c3b4135343041204850594c474f52454948204e41494c4f54414e413b3133343431,
0x3b3b3b3b3b4e3b3b3b3b3b4c3b303b6f4c3b36343041204850594c474f52454948204e41494c4f54414e413b3233343431,
0x3b3b3b3b3b4e3b3b3b3b3b4c3b303b6f4c3b4136343041204850594c474f52454948204e41494c4f54414e413b3333343431,
0x3b3b3b3b3b4e3b3b3b3b3b4c3b303b6f4c3b4236343041204850594c474f52454948204e41494c4f54414e413b3433343431,
0x3b3b3b3b3b4e3b3b3b3b3b4c3b303b6f4c3b37343041204850594c474f52454948204e41494c4f54414e413b3533343431,
0x3b3b3b3b3b4e3b3b3b3b3b4c3b303b6f4c3b38343041204850594c474f52454948204e41494c4f54414e413b3633343431,
0x3b3b3b3b3b4e3b3b3b3b3b4c3b303b6f4c3b39343041204850594c474f52454948204e41494c4f54414e413b3733343431,
0x3b3b3b3b3b4e3b3b3b3b3b4c3b303b6f4c3b30353041204850594c474f52454948204e41494c4f54414e413b3833343431,
0x3b3b3b3b3b4e3b3b3b3b3b4c3b303b6f4c3b31353041204850594c474f52454948204e41494c4f54414e413b3933343431,
0x3b3b3b3b3b4e3b3b3b3b3b4c3b303b6f4c3b32353041204850594c474f52454948204e41494c4f54414e413b4133343431,
0x3b3b3b3b3b4e3b3b3b3b3b4c3b303b6f4c3b33353041204850594c474f52454948204e41494c4f54414e413b4233343431,
0x3b3b3b3b3b4e3b3b3b3b3b4c3b303b6f4c3b34353041204850594c474f52454948204e41494c4f54414e413b4333343431,
0x3b3b3b3b3b4e3b3b3b3b3b4c3b303b6f4c3b35353041204850594c474f52454948204e41494c4f54414e413b4433343431,
0x3b3b3b3b3b4e3b3b3b3b3b4c3b303b6f4c3b36353041204850594c474f52454948204e41494c4f54414e413b4533343431,
0x3b3b3b3b3b4e3b3b3b3b3b4c3b303b6f4c3b37353041204850594c474f52454948204e41494c4f54414e413b4633343431,
0x3b3b3b3b3b4e3b3b3b3b3b4c3b303b6f4c3b38353041204850594c474f52454948204e41494c4f54414e413b3034343431,
0x3b3b3b3b3b4e3b3b3b3b3b4c3b303b6f4c3b39353041204850594c474f52454948204e41494c4f54414e413b3134343431,
0x3b3b3b3b3b4e3b3b3b3b3b4c3b303b6f4c3b30363041204850594c474f52454948204e41494c4f54414e413b3234343431,
0x3b3b3b3b3b4e3b3b3b3b3b4c3b303b6f4c3b31363041204850594c474f52454948204e41494c4f54414e413b3334343431,
0x3b3b3b3b3b4e3b3b3b3b3b4c3b303b6f4c3b32363041204850594c474f52454948204e41494c4f54414e413b3434343431,
0x3b3b3b3b3b4e3b3b3b3b3b4c3b303b6f4c3b33363041204850594c474f52454948204e41494c4f54414e413b3534343431,
0x3b3b3b3b3b4e3b3b3b3b3b4c3b303b6f4c3b34363041204850594c474f52454948204e41494c4f54414e413b3634343431,
0x3b3b3b3b3b4e3b3b3b3b3b4c3b303b6f4c3b35363041204850594c474f52454948204e41494c4f54414e413b3734343431,
0x3b3b3b3b3b4e3b3b3b3b3b4c3b303b6f4c3b36363041204850594c474f52454948204e41494c4f54414e413b3834343431,
0x3b3b3b3b3b4e3b3b3b3b3b4c3b303b6f4c3b4136363041204850594c474f52454948204e41494c4f54414e413b3934343431,
0x3b3b3b3b3b4e3b3b3b3b3b4c3b303b6f4c3b4236363041204850594c474f52454948204e41494c4f54414e413b4134343431,
0x3b3b3b3b3b4e3b3b3b3b3b4c3b303b6f4c3b4336363041204850594c474f52454948204e41494c4f54414e413b4234343431,
0x3b3b3b3b3b4e3b3b3b3b3b4c3b303b6f4c3b37363041204850594c474f52454948204e41494c4f54414e413b4334343431,
0x3b3b3b3b3b4e3b3b3b3b3b4c3b303b6f4c3b38363041204850594c474f52454948204e41494c4f54414e413b4434343431,
0x3b3b3b3b3b4e3b3b3b3b3b4c3b303b6f4c3b39363041204850594c474f52454948204e41494c4f54414e413b4534343431,
0x3b3b3b3b3b4e3b3b3b3b3b4c3b303b6f4c3b30373041204850594c474f52454948204e41494c4f54414e413b4634343431,
0x3b3b3b3b3b4e3b3b3b3b3b4c3b303b6f4c3b31373041204850594c474f52454948204e41494c4f54414e413b3035343431,
0x3b3b3b3b3b4e3b3b3b3b3b4c3b303b6f4c3b32373041204850594c474f52454948204e41494c4f54414e413b3135343431,
0x3b3b3b3b3b4e3b3b3b3b3b4c3b303b6f4c3b33373041204850594c474f52454948204e41494c4f54414e413b3235343431,
0x3b3b3b3b3b4e3b3b3b3b3b4c3b303b6f4c3b34373041204850594c474f52454948204e41494c4f54414e413b3335343431,
0x3b3b3b3b3b4e3b3b3b3b3b4c3b303b6f4c3b35373041204850594c474f52454948204e41494c4f54414e413b3435343431,
0x3b3b3b3b3b4e3b3b3b3b3b4c3b303b6f4c3b36373041204850594c474f52454948204e41494c4f54414e413b3535343431,
0x3b3b3b3b3b4e3b3b3b3b3b4c3b303b6f4c3b37373041204850594c474f52454948204e41494c4f54414e413b3635343431,
0x3b3b3b3b3b4e3b3b3b3b3b4c3b303b6f4c3b38373041204850594c474f52454948204e41494c4f54414e413b3735343431,
0x3b3b3b3b3b4e3b3b3b3b3b4c3b303b6f4c3b39373041204850594c474f52454948204e41494c4f54414e413b3835343431,
0x3b3b3b3b3b4e3b3b3b3b3b4c3b303b6f4c3b30383041204850594c474f52454948204e41494c4f54414e413b3935343431,
0x3b3b3b3b3b4e3b3b3b3b3b4c3b303b6f4c3b31383041204850594c474f52454948204e41494c4f54414e413b4135343431,
0x3b3b3b3b3b4e3b3b3b3b3b4c3b303b6f4c3b32383041204850594c474f52454948204e41494c4f54414e413b4235343431,
0x3b3b3b3b3b4e3b3b3b3b3b4c3b303b6f4c3b33383041204850594c474f52454948204e41494c4f54414e413b4335343431,
0x3b3b3b3b3b4e3b3b3b3b3b4c3b303b6f4c3b34383041204850594c474f52454948204e41494c4f54414e413b4435343431,
0x3b3b3b3b3b4e3b3b3b3b3b4c3b303b6f4c3b35383041204850594c474f52454948204e41494c4f54414e413b4535343431,
0x3b3b3b3b3b4e3b3b3b3b3b4c3b303b6f4c3b36383041204850594c474f52454948204e41494c4f54414e413b4635343431,
0x3b3b3b3b3b4e3b3b3b3b3b4c3b303b6f4c3b37383041204850594c474f52454948204e41494c4f54414e413b3036343431,
0x3b3b3b3b3b4e3b3b3b3b3b4c3b303b6f4c3b38383041204850594c474f52454948204e41494c4f54414e413b3136343431,
0x3b3b3b3b3b4e3b3b3b3b3b4c3b303b6f4c3b39383041204850594c474f52454948204e41494c4f54414e413b3236343431,
0x3b3b3b3b3b4e3b3b3b3b3b4c3b303b6f4c3b30393041204850594c474f52454948204e41494c4f54414e413b3336343431,
0x3b3b3b3b3b4e3b3b3b3b3b4c3b303b6f4c3b31393041204850594c474f52454948204e41494c4f54414e413b3436343431,
0x3b3b3b3b3b4e3b3b3b3b3b4c3b303b6f4c3b32393041204850594c474f52454948204e41494c4f54414e413b3536343431,
0x3b3b3b3b3b4e3b3b3b3b3b4c3b303b6f4c3b33393041204850594c474f52454948204e41494c4f54414e413b3636343431,
0x3b3b3b3b3b4e3b3b3b3b3b4c3b303b6f4c3b34393041204850594c474f52454948204e41494c4f54414e413b3736343431,
0x3b3b3b3b3b4e3b3b3b3b3b4c3b303b6f4c3b35393041204850594c474f52454948204e41494c4f54414e413b3836343431,
0x3b3b3b3b3b4e3b3b3b3b3b4c3b303b6f4c3b36393041204850594c474f52454948204e41494c4f54414e413b3936343431,
0x3b3b3b3b3b4e3b3b3b3b3b4c3b303b6f4c3b37393041204850594c474f52454948204e41494c4f54414e413b4136343431,
0x3b3b3b3b3b4e3b3b3b3b3b4c3b303b6f4c3b4137393041204850594c474f52454948204e41494c4f54414e413b4236343431,
0x3b3b3b3b3b4e3b3b3b3b3b4c3b303b6f4c3b38393041204850594c474f52454948204e41494c4f54414e413b4336343431,
0x3b3b3b3b3b4e3b3b3b3b3b4c3b303b6f4c3b4138393041204850594c474f52454948204e41494c4f54414e413b4436343431,
0x3b3b3b3b3b4e3b3b3b3b3b4c3b303b6f4c3b39393041204850594c474f52454948204e41494c4f54414e413b4536343431,
0x3b3b3b3b3b4e3b3b3b3b3b4c3b303b6f4c3b30303141204850594c474f52454948204e41494c4f54414e413b4636343431,
0x3b3b3b3b3b4e3b3b3b3b3b4c3b303b6f4c3b4130303141204850594c474f52454948204e41494c4f54414e413b3037343431,
0x3b3b3b3b3b4e3b3b3b3b3b4c3b303b6f4c3b31303141204850594c474f52454948204e41494c4f54414e413b3137343431,
0x3b3b3b3b3b4e3b3b3b3b3b4c3b303b6f4c3b4131303141204850594c474f52454948204e41494c4f54414e413b3237343431,
0x3b3b3b3b3b4e3b3b3b3b3b4c3b303b6f4c3b32303141204850594c474f52454948204e41494c4f54414e413b3337343431,
0x3b3b3b3b3b4e3b3b3b3b3b4c3b303b6f4c3b4132303141204850594c474f52454948204e41494c4f54414e413b3437343431,
0x3b3b3b3b3b4e3b3b3b3b3b4c3b303b6f4c3b33303141204850594c474f52454948204e41494c4f54414e413b3537343431,
0x3b3b3b3b3b4e3b3b3b3b3b4c3b303b6f4c3b34303141204850594c474f52454948204e41494c4f54414e413b3637343431,
0x3b3b3b3b3b4e3b3b3b3b3b4c3b303b6f4c3b4134303141204850594c474f52454948204e41494c4f54414e413b3737343431,
0x3b3b3b3b3b4e3b3b3b3b3b4c3b303b6f4c3b4234303141204850594c474f52454948204e41494c4f54414e413b3837343431,
0x3b3b3b3b3b4e3b3b3b3b3b4c3b303b6f4c3b4334303141204850594c474f52454948204e41494c4f54414e413b3937343431,
0x3b3b3b3b3b4e3b3b3b3b3b4c3b303b6f4c3b35303141204850594c474f52454948204e41494c4f54414e413b4137343431,
0x3b3b3b3b3b4e3b3b3b3b3b4c3b303b6f4c3b4135303141204850594c474f52454948204e41494c4f54414e413b4237343431,
0x3b3b3b3b3b4e3b3b3b3b3b4c3b303b6f4c3b4235303141204850594c474f52454948204e41494c4f54414e413b4337343431,
0x3b3b3b3b3b4e3b3b3b3b3b4c3b303b6f4c3b36303141204850594c474f52454948204e41494c4f54414e413b4437343431,
0x3b3b3b3b3b4e3b3b3b3b3b4c3b303b6f4c3b37303141204850594c474f52454948204e41494c4f54414e413b4537343431,
0x3b3b3b3b3b4e3b3b3b3b3b4c3b303b6f4c3b4137303141204850594c474f52454948204e41494c4f54414e413b4637343431,
0x3b3b3b3b3b4e3b3b3b3b3b4c3b303b6f4c3b4237303141204850594c474f52454948204e41494c4f54414e413b3038343431,
0x3b3b3b3b3b4e3b3b3b3b3b4c3b303b6f4c3b4337303141204850594c474f52454948204e41494c4f54414e413b3138343431,
0x3b3b3b3b3b4e3b3b3b3b3b4c3b303b6f4c3b38303141204850594c474f52454948204e41494c4f54414e413b3238343431,
0x3b3b3b3b3b4e3b3b3b3b3b4c3b303b6f4c3b39303141204850594c474f52454948204e41494c4f54414e413b3338343431,
0x3b3b3b3b3b4e3b3b3b3b3b4c3b303b6f4c3b30313141204850594c474f52454948204e41494c4f54414e413b3438343431,
0x3b3b3b3b3b4e3b3b3b3b3b4c3b303b6f4c3b4130313141204850594c474f52454948204e41494c4f54414e413b3538343431,
0x3b3b3b3b3b4e3b3b3b3b3b4c3b303b6f4c3b4230313141204850594c474f52454948204e41494c4f54414e413b3638343431,
0x3b3b3b3b3b4e3b3b3b3b3b4c3b303b6f4c3b31313141204850594c474f52454948204e41494c4f54414e413b3738343431,
0x3b3b3b3b3b4e3b3b3b3b3b4c3b303b6f4c3b32313141204850594c474f52454948204e41494c4f54414e413b3838343431,
0x3b3b3b3b3b4e3b3b3b3b3b4c3b303b6f4c3b33313141204850594c474f52454948204e41494c4f54414e413b3938343431,
0x3b3b3b3b3b4e3b3b3b3b3b4c3b303b6f4c3b34313141204850594c474f52454948204e41494c4f54414e413b4138343431,
0x3b3b3b3b3b4e3b3b3b3b3b4c3b303b6f4c3b35313141204850594c474f52454948204e41494c4f54414e413b4238343431,
0x3b3b3b3b3b4e3b3b3b3b3b4c3b303b6f4c3b4135313141204850594c474f52454948204e41494c4f54414e413b4338343431,
0x3b3b3b3b3b4e3b3b3b3b3b4c3b303b6f4c3b36313141204850594c474f52454948204e41494c4f54414e413b4438343431,
0x3b3b3b3b3b4e3b3b3b3b3b4c3b303b6f4c3b37313141204850594c474f52454948204e41494c4f54414e413b4538343431,
0x3b3b3b3b3b4e3b3b3b3b3b4c3b303b6f4c3b38313141204850594c474f52454948204e41494c4f54414e413b4638343431,
0x3b3b3b3b3b4e3b3b3b3b3b4c3b303b6f4c3b39313141204850594c474f52454948204e41494c4f54414e413b3039343431,
0x3b3b3b3b3b4e3b3b3b3b3b4c3b303b6f4c3b30323141204850594c474f52454948204e41494c4f54414e413b3139343431,
0x3b3b3b3b3b4e3b3b3b3b3b4c3b303b6f4c3b31323141204850594c474f52454948204e41494c4f54414e413b3239343431,
0x3b3b3b3b3b4e3b3b3b3b3b4c3b303b6f4c3b32323141204850594c474f52454948204e41494c4f54414e413b3339343431,
0x3b3b3b3b3b4e3b3b3b3b3b4c3b303b6f4c3b33323141204850594c474f52454948204e41494c4f54414e413b3439343431,
0x3b3b3b3b3b4e3b3b3b3b3b4c3b303b6f4c3b34323141204850594c474f52454948204e41494c4f54414e413b3539343431,
0x3b3b3b3b3b4e3b3b3b3b3b4c3b303b6f4c3b35323141204850594c474f52454948204e41494c4f54414e413b3639343431,
0x3b3b3b3b3b4e3b3b3b3b3b4c3b303b6f4c3b4135323141204850594c474f52454948204e41494c4f54414e413b3739343431,
0x3b3b3b3b3b4e3b3b3b3b3b4c3b303b6f4c3b36323141204850594c474f52454948204e41494c4f54414e413b3839343431,
0x3b3b3b3b3b4e3b3b3b3b3b4c3b303b6f4c3b37323141204850594c474f52454948204e41494c4f54414e413b3939343431,
0x3b3b3b3b3b4e3b3b3b3b3b4c3b303b6f4c3b38323141204850594c474f52454948204e41494c4f54414e413b4139343431,
0x3b3b3b3b3b4e3b3b3b3b3b4c3b303b6f4c3b39323141204850594c474f52454948204e41494c4f54414e413b4239343431,
0x3b3b3b3b3b4e3b3b3b3b3b4c3b303b6f4c3b30333141204850594c474f52454948204e41494c4f54414e413b4339343431,
0x3b3b3b3b3b4e3b3b3b3b3b4c3b303b6f4c3b31333141204850594c474f52454948204e41494c4f54414e413b4439343431,
0x3b3b3b3b3b4e3b3b3b3b3b4c3b303b6f4c3b32333141204850594c474f52454948204e41494c4f54414e413b4539343431,
0x3b3b3b3b3b4e3b3b3b3b3b4c3b303b6f4c3b33333141204850594c474f52454948204e41494c4f54414e413b4639343431,
0x3b3b3b3b3b4e3b3b3b3b3b4c3b303b6f4c3b34333141204850594c474f52454948204e41494c4f54414e413b3041343431,
0x3b3b3b3b3b4e3b3b3b3b3b4c3b303b6f4c3b35333141204850594c474f52454948204e41494c4f54414e413b3141343431,
0x3b3b3b3b3b4e3b3b3b3b3b4c3b303b6f4c3b4135333141204850594c474f52454948204e41494c4f54414e413b3241343431,
0x3b3b3b3b3b4e3b3b3b3b3b4c3b303b6f4c3b36333141204850594c474f52454948204e41494c4f54414e413b3341343431,
0x3b3b3b3b3b4e3b3b3b3b3b4c3b303b6f4c3b37333141204850594c474f52454948204e41494c4f54414e413b3441343431,
0x3b3b3b3b3b4e3b3b3b3b3b4c3b303b6f4c3b38333141204850594c474f52454948204e41494c4f54414e413b3541343431,
0x3b3b3b3b3b4e3b3b3b3b3b4c3b303b6f4c3b39333141204850594c474f52454948204e41494c4f54414e413b3641343431,
0x3b3b3b3b3b4e3b3b3b3b3b4c3b303b6f4c3b30343141204850594c474f52454948204e41494c4f54414e413b3741343431,
0x3b3b3b3b3b4e3b3b3b3b3b4c3b303b6f4c3b31343141204850594c474f52454948204e41494c4f54414e413b3841343431,
0x3b3b3b3b3b4e3b3b3b3b3b4c3b303b6f4c3b32343141204850594c474f52454948204e41494c4f54414e413b3941343431,
0x3b3b3b3b3b4e3b3b3b3b3b4c3b303b6f4c3b33343141204850594c474f52454948204e41494c4f54414e413b4141343431,
0x3b3b3b3b3b4e3b3b3b3b3b4c3b303b6f4c3b34343141204850594c474f52454948204e41494c4f54414e413b4241343431,
0x3b3b3b3b3b4e3b3b3b3b3b4c3b303b6f4c3b35343141204850594c474f52454948204e41494c4f54414e413b4341343431,
0x3b3b3b3b3b4e3b3b3b3b3b4c3b303b6f4c3b36343141204850594c474f52454948204e41494c4f54414e413b4441343431,
0x3b3b3b3b3b4e3b3b3b3b3b4c3b303b6f4c3b37343141204850594c474f52454948204e41494c4f54414e413b4541343431,
0x3b3b3b3b3b4e3b3b3b3b3b4c3b303b6f4c3b38343141204850594c474f52454948204e41494c4f54414e413b4641343431,
0x3b3b3b3b3b4e3b3b3b3b3b4c3b303b6f4c3b39343141204850594c474f52454948204e41494c4f54414e413b3042343431,
0x3b3b3b3b3b4e3b3b3b3b3b4c3b303b6f4c3b30353141204850594c474f52454948204e41494c4f54414e413b3142343431,
0x3b3b3b3b3b4e3b3b3b3b3b4c3b303b6f4c3b31353141204850594c474f52454948204e41494c4f54414e413b3242343431,
0x3b3b3b3b3b4e3b3b3b3b3b4c3b303b6f4c3b32353141204850594c474f52454948204e41494c4f54414e413b3342343431,
0x3b3b3b3b3b4e3b3b3b3b3b4c3b303b6f4c3b33353141204850594c474f52454948204e41494c4f54414e413b3442343431,
0x3b3b3b3b3b4e3b3b3b3b3b4c3b303b6f4c3b34353141204850594c474f52454948204e41494c4f54414e413b3542343431,
0x3b3b3b3b3b4e3b3b3b3b3b4c3b303b6f4c3b35353141204850594c474f52454948204e41494c4f54414e413b3642343431,
0x3b3b3b3b3b4e3b3b3b3b3b4c3b303b6f4c3b36353141204850594c474f52454948204e41494c4f54414e413b3742343431,
0x3b3b3b3b3b4e3b3b3b3b3b4c3b303b6f4c3b37353141204850594c474f52454948204e41494c4f54414e413b3842343431,
0x3b3b3b3b3b4e3b3b3b3b3b4c3b303b6f4c3b38353141204850594c474f52454948204e41494c4f54414e413b3942343431,
0x3b3b3b3b3b4e3b3b3b3b3b4c3b303b6f4c3b39353141204850594c474f52454948204e41494c4f54414e413b4142343431]

/-- src/u5e/props/UnicodeData.txt lines 22785-23040. -/
def rawUcd89 : List Nat := [
0x3b3b3b3b3b4e3b3b3b3b3b4c3b303b6f4c3b30363141204850594c474f52454948204e41494c4f54414e413b4242343431,
0x3b3b3b3b3b4e3b3b3b3b3b4c3b303b6f4c3b31363141204850594c474f52454948204e41494c4f54414e413b4342343431,
0x3b3b3b3b3b4e3b3b3b3b3b4c3b303b6f4c3b32363141204850594c474f52454948204e41494c4f54414e413b4442343431,
0x3b3b3b3b3b4e3b3b3b3b3b4c3b303b6f4c3b33363141204850594c474f52454948204e41494c4f54414e413b4542343431,
0x3b3b3b3b3b4e3b3b3b3b3b4c3b303b6f4c3b34363141204850594c474f52454948204e41494c4f54414e413b4642343431,
0x3b3b3b3b3b4e3b3b3b3b3b4c3b303b6f4c3b35363141204850594c474f52454948204e41494c4f54414e413b3043343431,
0x3b3b3b3b3b4e3b3b3b3b3b4c3b303b6f4c3b36363141204850594c474f52454948204e41494c4f54414e413b3143343431,
0x3b3b3b3b3b4e3b3b3b3b3b4c3b303b6f4c3b37363141204850594c474f52454948204e41494c4f54414e413b3243343431,
0x3b3b3b3b3b4e3b3b3b3b3b4c3b303b6f4c3b38363141204850594c474f52454948204e41494c4f54414e413b3343343431,
0x3b3b3b3b3b4e3b3b3b3b3b4c3b303b6f4c3b39363141204850594c474f52454948204e41494c4f54414e413b3443343431,
0x3b3b3b3b3b4e3b3b3b3b3b4c3b303b6f4c3b30373141204850594c474f52454948204e41494c4f54414e413b3543343431,
0x3b3b3b3b3b4e3b3b3b3b3b4c3b303b6f4c3b31373141204850594c474f52454948204e41494c4f54414e413b3643343431,
0x3b3b3b3b3b4e3b3b3b3b3b4c3b303b6f4c3b32373141204850594c474f52454948204e41494c4f54414e413b3743343431,
0x3b3b3b3b3b4e3b3b3b3b3b4c3b303b6f4c3b33373141204850594c474f52454948204e41494c4f54414e413b3843343431,
0x3b3b3b3b3b4e3b3b3b3b3b4c3b303b6f4c3b34373141204850594c474f52454948204e41494c4f54414e413b3943343431,
0x3b3b3b3b3b4e3b3b3b3b3b4c3b303b6f4c3b35373141204850594c474f52454948204e41494c4f54414e413b4143343431,
0x3b3b3b3b3b4e3b3b3b3b3b4c3b303b6f4c3b36373141204850594c474f52454948204e41494c4f54414e413b4243343431,
0x3b3b3b3b3b4e3b3b3b3b3b4c3b303b6f4c3b37373141204850594c474f52454948204e41494c4f54414e413b4343343431,
0x3b3b3b3b3b4e3b3b3b3b3b4c3b303b6f4c3b38373141204850594c474f52454948204e41494c4f54414e413b4443343431,
0x3b3b3b3b3b4e3b3b3b3b3b4c3b303b6f4c3b39373141204850594c474f52454948204e41494c4f54414e413b4543343431,
0x3b3b3b3b3b4e3b3b3b3b3b4c3b303b6f4c3b30383141204850594c474f52454948204e41494c4f54414e413b4643343431,
0x3b3b3b3b3b4e3b3b3b3b3b4c3b303b6f4c3b31383141204850594c474f52454948204e41494c4f54414e413b3044343431,
0x3b3b3b3b3b4e3b3b3b3b3b4c3b303b6f4c3b32383141204850594c474f52454948204e41494c4f54414e413b3144343431,
0x3b3b3b3b3b4e3b3b3b3b3b4c3b303b6f4c3b33383141204850594c474f52454948204e41494c4f54414e413b3244343431,
0x3b3b3b3b3b4e3b3b3b3b3b4c3b303b6f4c3b34383141204850594c474f52454948204e41494c4f54414e413b3344343431,
0x3b3b3b3b3b4e3b3b3b3b3b4c3b303b6f4c3b35383141204850594c474f52454948204e41494c4f54414e413b3444343431,
0x3b3b3b3b3b4e3b3b3b3b3b4c3b303b6f4c3b36383141204850594c474f52454948204e41494c4f54414e413b3544343431,
0x3b3b3b3b3b4e3b3b3b3b3b4c3b303b6f4c3b37383141204850594c474f52454948204e41494c4f54414e413b3644343431,
0x3b3b3b3b3b4e3b3b3b3b3b4c3b303b6f4c3b38383141204850594c474f52454948204e41494c4f54414e413b3744343431,
0x3b3b3b3b3b4e3b3b3b3b3b4c3b303b6f4c3b39383141204850594c474f52454948204e41494c4f54414e413b3844343431,
0x3b3b3b3b3b4e3b3b3b3b3b4c3b303b6f4c3b30393141204850594c474f52454948204e41494c4f54414e413b3944343431,
0x3b3b3b3b3b4e3b3b3b3b3b4c3b303b6f4c3b31393141204850594c474f52454948204e41494c4f54414e413b4144343431,
0x3b3b3b3b3b4e3b3b3b3b3b4c3b303b6f4c3b32393141204850594c474f52454948204e41494c4f54414e413b4244343431,
0x3b3b3b3b3b4e3b3b3b3b3b4c3b303b6f4c3b33393141204850594c474f52454948204e41494c4f54414e413b4344343431,
0x3b3b3b3b3b4e3b3b3b3b3b4c3b303b6f4c3b34393141204850594c474f52454948204e41494c4f54414e413b4444343431,
0x3b3b3b3b3b4e3b3b3b3b3b4c3b303b6f4c3b35393141204850594c474f52454948204e41494c4f54414e413b4544343431,
0x3b3b3b3b3b4e3b3b3b3b3b4c3b303b6f4c3b36393141204850594c474f52454948204e41494c4f54414e413b4644343431,
0x3b3b3b3b3b4e3b3b3b3b3b4c3b303b6f4c3b37393141204850594c474f52454948204e41494c4f54414e413b3045343431,
0x3b3b3b3b3b4e3b3b3b3b3b4c3b303b6f4c3b38393141204850594c474f52454948204e41494c4f54414e413b3145343431,
0x3b3b3b3b3b4e3b3b3b3b3b4c3b303b6f4c3b39393141204850594c474f52454948204e41494c4f54414e413b3245343431,
0x3b3b3b3b3b4e3b3b3b3b3b4c3b303b6f4c3b30303241204850594c474f52454948204e41494c4f54414e413b3345343431,
0x3b3b3b3b3b4e3b3b3b3b3b4c3b303b6f4c3b31303241204850594c474f52454948204e41494c4f54414e413b3445343431,
0x3b3b3b3b3b4e3b3b3b3b3b4c3b303b6f4c3b32303241204850594c474f52454948204e41494c4f54414e413b3545343431,
0x3b3b3b3b3b4e3b3b3b3b3b4c3b303b6f4c3b4132303241204850594c474f52454948204e41494c4f54414e413b3645343431,
0x3b3b3b3b3b4e3b3b3b3b3b4c3b303b6f4c3b4232303241204850594c474f52454948204e41494c4f54414e413b3745343431,
0x3b3b3b3b3b4e3b3b3b3b3b4c3b303b6f4c3b33303241204850594c474f52454948204e41494c4f54414e413b3845343431,
0x3b3b3b3b3b4e3b3b3b3b3b4c3b303b6f4c3b34303241204850594c474f52454948204e41494c4f54414e413b3945343431,
0x3b3b3b3b3b4e3b3b3b3b3b4c3b303b6f4c3b35303241204850594c474f52454948204e41494c4f54414e413b4145343431,
0x3b3b3b3b3b4e3b3b3b3b3b4c3b303b6f4c3b36303241204850594c474f52454948204e41494c4f54414e413b4245343431,
0x3b3b3b3b3b4e3b3b3b3b3b4c3b303b6f4c3b37303241204850594c474f52454948204e41494c4f54414e413b4345343431,
0x3b3b3b3b3b4e3b3b3b3b3b4c3b303b6f4c3b4137303241204850594c474f52454948204e41494c4f54414e413b4445343431,
0x3b3b3b3b3b4e3b3b3b3b3b4c3b303b6f4c3b38303241204850594c474f52454948204e41494c4f54414e413b4545343431,
0x3b3b3b3b3b4e3b3b3b3b3b4c3b303b6f4c3b39303241204850594c474f52454948204e41494c4f54414e413b4645343431,
0x3b3b3b3b3b4e3b3b3b3b3b4c3b303b6f4c3b4139303241204850594c474f52454948204e41494c4f54414e413b3046343431,
0x3b3b3b3b3b4e3b3b3b3b3b4c3b303b6f4c3b30313241204850594c474f52454948204e41494c4f54414e413b3146343431,
0x3b3b3b3b3b4e3b3b3b3b3b4c3b303b6f4c3b31313241204850594c474f52454948204e41494c4f54414e413b3246343431,
0x3b3b3b3b3b4e3b3b3b3b3b4c3b303b6f4c3b32313241204850594c474f52454948204e41494c4f54414e413b3346343431,
0x3b3b3b3b3b4e3b3b3b3b3b4c3b303b6f4c3b33313241204850594c474f52454948204e41494c4f54414e413b3446343431,
0x3b3b3b3b3b4e3b3b3b3b3b4c3b303b6f4c3b34313241204850594c474f52454948204e41494c4f54414e413b3546343431,
0x3b3b3b3b3b4e3b3b3b3b3b4c3b303b6f4c3b35313241204850594c474f52454948204e41494c4f54414e413b3646343431,
0x3b3b3b3b3b4e3b3b3b3b3b4c3b303b6f4c3b4135313241204850594c474f52454948204e41494c4f54414e413b3746343431,
0x3b3b3b3b3b4e3b3b3b3b3b4c3b303b6f4c3b36313241204850594c474f52454948204e41494c4f54414e413b3846343431,
0x3b3b3b3b3b4e3b3b3b3b3b4c3b303b6f4c3b4136313241204850594c474f52454948204e41494c4f54414e413b3946343431,
0x3b3b3b3b3b4e3b3b3b3b3b4c3b303b6f4c3b37313241204850594c474f52454948204e41494c4f54414e413b4146343431,
0x3b3b3b3b3b4e3b3b3b3b3b4c3b303b6f4c3b38313241204850594c474f52454948204e41494c4f54414e413b4246343431,
0x3b3b3b3b3b4e3b3b3b3b3b4c3b303b6f4c3b39313241204850594c474f52454948204e41494c4f54414e413b4346343431,
0x3b3b3b3b3b4e3b3b3b3b3b4c3b303b6f4c3b30323241204850594c474f52454948204e41494c4f54414e413b4446343431,
0x3b3b3b3b3b4e3b3b3b3b3b4c3b303b6f4c3b31323241204850594c474f52454948204e41494c4f54414e413b4546343431,
0x3b3b3b3b3b4e3b3b3b3b3b4c3b303b6f4c3b32323241204850594c474f52454948204e41494c4f54414e413b4646343431,
0x3b3b3b3b3b4e3b3b3b3b3b4c3b303b6f4c3b33323241204850594c474f52454948204e41494c4f54414e413b3030353431,
0x3b3b3b3b3b4e3b3b3b3b3b4c3b303b6f4c3b34323241204850594c474f52454948204e41494c4f54414e413b3130353431,
0x3b3b3b3b3b4e3b3b3b3b3b4c3b303b6f4c3b35323241204850594c474f52454948204e41494c4f54414e413b3230353431,
0x3b3b3b3b3b4e3b3b3b3b3b4c3b303b6f4c3b36323241204850594c474f52454948204e41494c4f54414e413b3330353431,
0x3b3b3b3b3b4e3b3b3b3b3b4c3b303b6f4c3b37323241204850594c474f52454948204e41494c4f54414e413b3430353431,
0x3b3b3b3b3b4e3b3b3b3b3b4c3b303b6f4c3b4137323241204850594c474f52454948204e41494c4f54414e413b3530353431,
0x3b3b3b3b3b4e3b3b3b3b3b4c3b303b6f4c3b38323241204850594c474f52454948204e41494c4f54414e413b3630353431,
0x3b3b3b3b3b4e3b3b3b3b3b4c3b303b6f4c3b39323241204850594c474f52454948204e41494c4f54414e413b3730353431,
0x3b3b3b3b3b4e3b3b3b3b3b4c3b303b6f4c3b30333241204850594c474f52454948204e41494c4f54414e413b3830353431,
0x3b3b3b3b3b4e3b3b3b3b3b4c3b303b6f4c3b31333241204850594c474f52454948204e41494c4f54414e413b3930353431,
0x3b3b3b3b3b4e3b3b3b3b3b4c3b303b6f4c3b32333241204850594c474f52454948204e41494c4f54414e413b4130353431,
0x3b3b3b3b3b4e3b3b3b3b3b4c3b303b6f4c3b33333241204850594c474f52454948204e41494c4f54414e413b4230353431,
0x3b3b3b3b3b4e3b3b3b3b3b4c3b303b6f4c3b34333241204850594c474f52454948204e41494c4f54414e413b4330353431,
0x3b3b3b3b3b4e3b3b3b3b3b4c3b303b6f4c3b35333241204850594c474f52454948204e41494c4f54414e413b4430353431,
0x3b3b3b3b3b4e3b3b3b3b3b4c3b303b6f4c3b36333241204850594c474f52454948204e41494c4f54414e413b4530353431,
0x3b3b3b3b3b4e3b3b3b3b3b4c3b303b6f4c3b37333241204850594c474f52454948204e41494c4f54414e413b4630353431,
0x3b3b3b3b3b4e3b3b3b3b3b4c3b303b6f4c3b38333241204850594c474f52454948204e41494c4f54414e413b3031353431,
0x3b3b3b3b3b4e3b3b3b3b3b4c3b303b6f4c3b39333241204850594c474f52454948204e41494c4f54414e413b3131353431,
0x3b3b3b3b3b4e3b3b3b3b3b4c3b303b6f4c3b30343241204850594c474f52454948204e41494c4f54414e413b3231353431,
0x3b3b3b3b3b4e3b3b3b3b3b4c3b303b6f4c3b31343241204850594c474f52454948204e41494c4f54414e413b3331353431,
0x3b3b3b3b3b4e3b3b3b3b3b4c3b303b6f4c3b32343241204850594c474f52454948204e41494c4f54414e413b3431353431,
0x3b3b3b3b3b4e3b3b3b3b3b4c3b303b6f4c3b33343241204850594c474f52454948204e41494c4f54414e413b3531353431,
0x3b3b3b3b3b4e3b3b3b3b3b4c3b303b6f4c3b34343241204850594c474f52454948204e41494c4f54414e413b3631353431,
0x3b3b3b3b3b4e3b3b3b3b3b4c3b303b6f4c3b35343241204850594c474f52454948204e41494c4f54414e413b3731353431,
0x3b3b3b3b3b4e3b3b3b3b3b4c3b303b6f4c3b36343241204850594c474f52454948204e41494c4f54414e413b3831353431,
0x3b3b3b3b3b4e3b3b3b3b3b4c3b303b6f4c3b37343241204850594c474f52454948204e41494c4f54414e413b3931353431,
0x3b3b3b3b3b4e3b3b3b3b3b4c3b303b6f4c3b38343241204850594c474f52454948204e41494c4f54414e413b4131353431,
0x3b3b3b3b3b4e3b3b3b3b3b4c3b303b6f4c3b39343241204850594c474f52454948204e41494c4f54414e413b4231353431,
0x3b3b3b3b3b4e3b3b3b3b3b4c3b303b6f4c3b30353241204850594c474f52454948204e41494c4f54414e413b4331353431,
0x3b3b3b3b3b4e3b3b3b3b3b4c3b303b6f4c3b31353241204850594c474f52454948204e41494c4f54414e413b4431353431,
0x3b3b3b3b3b4e3b3b3b3b3b4c3b303b6f4c3b32353241204850594c474f52454948204e41494c4f54414e413b4531353431,
0x3b3b3b3b3b4e3b3b3b3b3b4c3b303b6f4c3b33353241204850594c474f52454948204e41494c4f54414e413b4631353431,
0x3b3b3b3b3b4e3b3b3b3b3b4c3b303b6f4c3b34353241204850594c474f52454948204e41494c4f54414e413b3032353431,
0x3b3b3b3b3b4e3b3b3b3b3b4c3b303b6f4c3b35353241204850594c474f52454948204e41494c4f54414e413b3132353431,
0x3b3b3b3b3b4e3b3b3b3b3b4c3b303b6f4c3b36353241204850594c474f52454948204e41494c4f54414e413b3232353431,
0x3b3b3b3b3b4e3b3b3b3b3b4c3b303b6f4c3b37353241204850594c474f52454948204e41494c4f54414e413b3332353431,
0x3b3b3b3b3b4e3b3b3b3b3b4c3b303b6f4c3b38353241204850594c474f52454948204e41494c4f54414e413b3432353431,
0x3b3b3b3b3b4e3b3b3b3b3b4c3b303b6f4c3b39353241204850594c474f52454948204e41494c4f54414e413b3532353431,
0x3b3b3b3b3b4e3b3b3b3b3b4c3b303b6f4c3b30363241204850594c474f52454948204e41494c4f54414e413b3632353431,
0x3b3b3b3b3b4e3b3b3b3b3b4c3b303b6f4c3b31363241204850594c474f52454948204e41494c4f54414e413b3732353431,
0x3b3b3b3b3b4e3b3b3b3b3b4c3b303b6f4c3b32363241204850594c474f52454948204e41494c4f54414e413b3832353431,
0x3b3b3b3b3b4e3b3b3b3b3b4c3b303b6f4c3b33363241204850594c474f52454948204e41494c4f54414e413b3932353431,
0x3b3b3b3b3b4e3b3b3b3b3b4c3b303b6f4c3b34363241204850594c474f52454948204e41494c4f54414e413b4132353431,
0x3b3b3b3b3b4e3b3b3b3b3b4c3b303b6f4c3b35363241204850594c474f52454948204e41494c4f54414e413b4232353431,
0x3b3b3b3b3b4e3b3b3b3b3b4c3b303b6f4c3b36363241204850594c474f52454948204e41494c4f54414e413b4332353431,
0x3b3b3b3b3b4e3b3b3b3b3b4c3b303b6f4c3b37363241204850594c474f52454948204e41494c4f54414e413b4432353431,
0x3b3b3b3b3b4e3b3b3b3b3b4c3b303b6f4c3b4137363241204850594c474f52454948204e41494c4f54414e413b4532353431,
0x3b3b3b3b3b4e3b3b3b3b3b4c3b303b6f4c3b38363241204850594c474f52454948204e41494c4f54414e413b4632353431,
0x3b3b3b3b3b4e3b3b3b3b3b4c3b303b6f4c3b39363241204850594c474f52454948204e41494c4f54414e413b3033353431,
0x3b3b3b3b3b4e3b3b3b3b3b4c3b303b6f4c3b30373241204850594c474f52454948204e41494c4f54414e413b3133353431,
0x3b3b3b3b3b4e3b3b3b3b3b4c3b303b6f4c3b31373241204850594c474f52454948204e41494c4f54414e413b3233353431,
0x3b3b3b3b3b4e3b3b3b3b3b4c3b303b6f4c3b32373241204850594c474f52454948204e41494c4f54414e413b3333353431,
0x3b3b3b3b3b4e3b3b3b3b3b4c3b303b6f4c3b33373241204850594c474f52454948204e41494c4f54414e413b3433353431,
0x3b3b3b3b3b4e3b3b3b3b3b4c3b303b6f4c3b34373241204850594c474f52454948204e41494c4f54414e413b3533353431,
0x3b3b3b3b3b4e3b3b3b3b3b4c3b303b6f4c3b35373241204850594c474f52454948204e41494c4f54414e413b3633353431,
0x3b3b3b3b3b4e3b3b3b3b3b4c3b303b6f4c3b36373241204850594c474f52454948204e41494c4f54414e413b3733353431,
0x3b3b3b3b3b4e3b3b3b3b3b4c3b303b6f4c3b37373241204850594c474f52454948204e41494c4f54414e413b3833353431,
0x3b3b3b3b3b4e3b3b3b3b3b4c3b303b6f4c3b38373241204850594c474f52454948204e41494c4f54414e413b3933353431,
0x3b3b3b3b3b4e3b3b3b3b3b4c3b303b6f4c3b39373241204850594c474f52454948204e41494c4f54414e413b4133353431,
0x3b3b3b3b3b4e3b3b3b3b3b4c3b303b6f4c3b30383241204850594c474f52454948204e41494c4f54414e413b4233353431,
0x3b3b3b3b3b4e3b3b3b3b3b4c3b303b6f4c3b31383241204850594c474f52454948204e41494c4f54414e413b4333353431,
0x3b3b3b3b3b4e3b3b3b3b3b4c3b303b6f4c3b32383241204850594c474f52454948204e41494c4f54414e413b4433353431,
0x3b3b3b3b3b4e3b3b3b3b3b4c3b303b6f4c3b33383241204850594c474f52454948204e41494c4f54414e413b4533353431,
0x3b3b3b3b3b4e3b3b3b3b3b4c3b303b6f4c3b34383241204850594c474f52454948204e41494c4f54414e413b4633353431,
0x3b3b3b3b3b4e3b3b3b3b3b4c3b303b6f4c3b35383241204850594c474f52454948204e41494c4f54414e413b3034353431,
0x3b3b3b3b3b4e3b3b3b3b3b4c3b303b6f4c3b36383241204850594c474f52454948204e41494c4f54414e413b3134353431,
0x3b3b3b3b3b4e3b3b3b3b3b4c3b303b6f4c3b37383241204850594c474f52454948204e41494c4f54414e413b3234353431,
0x3b3b3b3b3b4e3b3b3b3b3b4c3b303b6f4c3b38383241204850594c474f52454948204e41494c4f54414e413b3334353431,
0x3b3b3b3b3b4e3b3b3b3b3b4c3b303b6f4c3b39383241204850594c474f52454948204e41494c4f54414e413b3434353431,
0x3b3b3b3b3b4e3b3b3b3b3b4c3b303b6f4c3b4139383241204850594c474f52454948204e41494c4f54414e413b3534353431,
0x3b3b3b3b3b4e3b3b3b3b3b4c3b303b6f4c3b30393241204850594c474f52454948204e41494c4f54414e413b3634353431,
0x3b3b3b3b3b4e3b3b3b3b3b4c3b303b6f4c3b31393241204850594c474f52454948204e41494c4f54414e413b3734353431,
0x3b3b3b3b3b4e3b3b3b3b3b4c3b303b6f4c3b32393241204850594c474f52454948204e41494c4f54414e413b3834353431,
0x3b3b3b3b3b4e3b3b3b3b3b4c3b303b6f4c3b33393241204850594c474f52454948204e41494c4f54414e413b3934353431,
0x3b3b3b3b3b4e3b3b3b3b3b4c3b303b6f4c3b34393241204850594c474f52454948204e41494c4f54414e413b4134353431,
0x3b3b3b3b3b4e3b3b3b3b3b4c3b303b6f4c3b4134393241204850594c474f52454948204e41494c4f54414e413b4234353431,
0x3b3b3b3b3b4e3b3b3b3b3b4c3b303b6f4c3b35393241204850594c474f52454948204e41494c4f54414e413b4334353431,
0x3b3b3b3b3b4e3b3b3b3b3b4c3b303b6f4c3b36393241204850594c474f52454948204e41494c4f54414e413b4434353431,
0x3b3b3b3b3b4e3b3b3b3b3b4c3b303b6f4c3b37393241204850594c474f52454948204e41494c4f54414e413b4534353431,
0x3b3b3b3b3b4e3b3b3b3b3b4c3b303b6f4c3b38393241204850594c474f52454948204e41494c4f54414e413b4634353431,
0x3b3b3b3b3b4e3b3b3b3b3b4c3b303b6f4c3b39393241204850594c474f52454948204e41494c4f54414e413b3035353431,
0x3b3b3b3b3b4e3b3b3b3b3b4c3b303b6f4c3b4139393241204850594c474f52454948204e41494c4f54414e413b3135353431,
0x3b3b3b3b3b4e3b3b3b3b3b4c3b303b6f4c3b30303341204850594c474f52454948204e41494c4f54414e413b3235353431,
0x3b3b3b3b3b4e3b3b3b3b3b4c3b303b6f4c3b31303341204850594c474f52454948204e41494c4f54414e413b3335353431,
0x3b3b3b3b3b4e3b3b3b3b3b4c3b303b6f4c3b32303341204850594c474f52454948204e41494c4f54414e413b3435353431,
0x3b3b3b3b3b4e3b3b3b3b3b4c3b303b6f4c3b33303341204850594c474f52454948204e41494c4f54414e413b3535353431,
0x3b3b3b3b3b4e3b3b3b3b3b4c3b303b6f4c3b34303341204850594c474f52454948204e41494c4f54414e413b3635353431,
0x3b3b3b3b3b4e3b3b3b3b3b4c3b303b6f4c3b35303341204850594c474f52454948204e41494c4f54414e413b3735353431,
0x3b3b3b3b3b4e3b3b3b3b3b4c3b303b6f4c3b36303341204850594c474f52454948204e41494c4f54414e413b3835353431,
0x3b3b3b3b3b4e3b3b3b3b3b4c3b303b6f4c3b37303341204850594c474f52454948204e41494c4f54414e413b3935353431,
0x3b3b3b3b3b4e3b3b3b3b3b4c3b303b6f4c3b38303341204850594c474f52454948204e41494c4f54414e413b4135353431,
0x3b3b3b3b3b4e3b3b3b3b3b4c3b303b6f4c3b39303341204850594c474f52454948204e41494c4f54414e413b4235353431,
0x3b3b3b3b3b4e3b3b3b3b3b4c3b303b6f4c3b4139303341204850594c474f52454948204e41494c4f54414e413b4335353431,
0x3b3b3b3b3b4e3b3b3b3b3b4c3b303b6f4c3b30313341204850594c474f52454948204e41494c4f54414e413b4435353431,
0x3b3b3b3b3b4e3b3b3b3b3b4c3b303b6f4c3b31313341204850594c474f52454948204e41494c4f54414e413b4535353431,
0x3b3b3b3b3b4e3b3b3b3b3b4c3b303b6f4c3b32313341204850594c474f52454948204e41494c4f54414e413b4635353431,
0x3b3b3b3b3b4e3b3b3b3b3b4c3b303b6f4c3b33313341204850594c474f52454948204e41494c4f54414e413b3036353431,
0x3b3b3b3b3b4e3b3b3b3b3b4c3b303b6f4c3b34313341204850594c474f52454948204e41494c4f54414e413b3136353431,
0x3b3b3b3b3b4e3b3b3b3b3b4c3b303b6f4c3b35313341204850594c474f52454948204e41494c4f54414e413b3236353431,
0x3b3b3b3b3b4e3b3b3b3b3b4c3b303b6f4c3b36313341204850594c474f52454948204e41494c4f54414e413b3336353431,
0x3b3b3b3b3b4e3b3b3b3b3b4c3b303b6f4c3b37313341204850594c474f52454948204e41494c4f54414e413b3436353431,
0x3b3b3b3b3b4e3b3b3b3b3b4c3b303b6f4c3b38313341204850594c474f52454948204e41494c4f54414e413b3536353431,
0x3b3b3b3b3b4e3b3b3b3b3b4c3b303b6f4c3b39313341204850594c474f52454948204e41494c4f54414e413b3636353431,
0x3b3b3b3b3b4e3b3b3b3b3b4c3b303b6f4c3b30323341204850594c474f52454948204e41494c4f54414e413b3736353431,
0x3b3b3b3b3b4e3b3b3b3b3b4c3b303b6f4c3b31323341204850594c474f52454948204e41494c4f54414e413b3836353431,
0x3b3b3b3b3b4e3b3b3b3b3b4c3b303b6f4c3b32323341204850594c474f52454948204e41494c4f54414e413b3936353431,
0x3b3b3b3b3b4e3b3b3b3b3b4c3b303b6f4c3b33323341204850594c474f52454948204e41494c4f54414e413b4136353431,
0x3b3b3b3b3b4e3b3b3b3b3b4c3b303b6f4c3b34323341204850594c474f52454948204e41494c4f54414e413b4236353431,
0x3b3b3b3b3b4e3b3b3b3b3b4c3b303b6f4c3b35323341204850594c474f52454948204e41494c4f54414e413b4336353431,
0x3b3b3b3b3b4e3b3b3b3b3b4c3b303b6f4c3b36323341204850594c474f52454948204e41494c4f54414e413b4436353431,
0x3b3b3b3b3b4e3b3b3b3b3b4c3b303b6f4c3b37323341204850594c474f52454948204e41494c4f54414e413b4536353431,
0x3b3b3b3b3b4e3b3b3b3b3b4c3b303b6f4c3b38323341204850594c474f52454948204e41494c4f54414e413b4636353431,
0x3b3b3b3b3b4e3b3b3b3b3b4c3b303b6f4c3b39323341204850594c474f52454948204e41494c4f54414e413b3037353431,
0x3b3b3b3b3b4e3b3b3b3b3b4c3b303b6f4c3b4139323341204850594c474f52454948204e41494c4f54414e413b3137353431,
0x3b3b3b3b3b4e3b3b3b3b3b4c3b303b6f4c3b30333341204850594c474f52454948204e41494c4f54414e413b3237353431,
0x3b3b3b3b3b4e3b3b3b3b3b4c3b303b6f4c3b31333341204850594c474f52454948204e41494c4f54414e413b3337353431,
0x3b3b3b3b3b4e3b3b3b3b3b4c3b303b6f4c3b4132333341204850594c474f52454948204e41494c4f54414e413b3437353431,
0x3b3b3b3b3b4e3b3b3b3b3b4c3b303b6f4c3b4232333341204850594c474f52454948204e41494c4f54414e413b3537353431,
0x3b3b3b3b3b4e3b3b3b3b3b4c3b303b6f4c3b4332333341204850594c474f52454948204e41494c4f54414e413b3637353431,
0x3b3b3b3b3b4e3b3b3b3b3b4c3b303b6f4c3b33333341204850594c474f52454948204e41494c4f54414e413b3737353431,
0x3b3b3b3b3b4e3b3b3b3b3b4c3b303b6f4c3b34333341204850594c474f52454948204e41494c4f54414e413b3837353431,
0x3b3b3b3b3b4e3b3b3b3b3b4c3b303b6f4c3b35333341204850594c474f52454948204e41494c4f54414e413b3937353431,
0x3b3b3b3b3b4e3b3b3b3b3b4c3b303b6f4c3b36333341204850594c474f52454948204e41494c4f54414e413b4137353431,
0x3b3b3b3b3b4e3b3b3b3b3b4c3b303b6f4c3b4136333341204850594c474f52454948204e41494c4f54414e413b4237353431,
0x3b3b3b3b3b4e3b3b3b3b3b4c3b303b6f4c3b4236333341204850594c474f52454948204e41494c4f54414e413b4337353431,
0x3b3b3b3b3b4e3b3b3b3b3b4c3b303b6f4c3b4336333341204850594c474f52454948204e41494c4f54414e413b4437353431,
0x3b3b3b3b3b4e3b3b3b3b3b4c3b303b6f4c3b37333341204850594c474f52454948204e41494c4f54414e413b4537353431,
0x3b3b3b3b3b4e3b3b3b3b3b4c3b303b6f4c3b38333341204850594c474f52454948204e41494c4f54414e413b4637353431,
0x3b3b3b3b3b4e3b3b3b3b3b4c3b303b6f4c3b39333341204850594c474f52454948204e41494c4f54414e413b3038353431,
0x3b3b3b3b3b4e3b3b3b3b3b4c3b303b6f4c3b30343341204850594c474f52454948204e41494c4f54414e413b3138353431,
0x3b3b3b3b3b4e3b3b3b3b3b4c3b303b6f4c3b31343341204850594c474f52454948204e41494c4f54414e413b3238353431,
0x3b3b3b3b3b4e3b3b3b3b3b4c3b303b6f4c3b32343341204850594c474f52454948204e41494c4f54414e413b3338353431,
0x3b3b3b3b3b4e3b3b3b3b3b4c3b303b6f4c3b33343341204850594c474f52454948204e41494c4f54414e413b3438353431,
0x3b3b3b3b3b4e3b3b3b3b3b4c3b303b6f4c3b34343341204850594c474f52454948204e41494c4f54414e413b3538353431,
0x3b3b3b3b3b4e3b3b3b3b3b4c3b303b6f4c3b35343341204850594c474f52454948204e41494c4f54414e413b3638353431,
0x3b3b3b3b3b4e3b3b3b3b3b4c3b303b6f4c3b36343341204850594c474f52454948204e41494c4f54414e413b3738353431,
0x3b3b3b3b3b4e3b3b3b3b3b4c3b303b6f4c3b37343341204850594c474f52454948204e41494c4f54414e413b3838353431,
0x3b3b3b3b3b4e3b3b3b3b3b4c3b303b6f4c3b38343341204850594c474f52454948204e41494c4f54414e413b3938353431,
0x3b3b3b3b3b4e3b3b3b3b3b4c3b303b6f4c3b39343341204850594c474f52454948204e41494c4f54414e413b4138353431,
0x3b3b3b3b3b4e3b3b3b3b3b4c3b303b6f4c3b30353341204850594c474f52454948204e41494c4f54414e413b4238353431,
0x3b3b3b3b3b4e3b3b3b3b3b4c3b303b6f4c3b31353341204850594c474f52454948204e41494c4f54414e413b4338353431,
0x3b3b3b3b3b4e3b3b3b3b3b4c3b303b6f4c3b32353341204850594c474f52454948204e41494c4f54414e413b4438353431,
0x3b3b3b3b3b4e3b3b3b3b3b4c3b303b6f4c3b33353341204850594c474f52454948204e41494c4f54414e413b4538353431,
0x3b3b3b3b3b4e3b3b3b3b3b4c3b303b6f4c3b34353341204850594c474f52454948204e41494c4f54414e413b4638353431,
0x3b3b3b3b3b4e3b3b3b3b3b4c3b303b6f4c3b35353341204850594c474f52454948204e41494c4f54414e413b3039353431,
0x3b3b3b3b3b4e3b3b3b3b3b4c3b303b6f4c3b36353341204850594c474f52454948204e41494c4f54414e413b3139353431,
0x3b3b3b3b3b4e3b3b3b3b3b4c3b303b6f4c3b37353341204850594c474f52454948204e41494c4f54414e413b3239353431,
0x3b3b3b3b3b4e3b3b3b3b3b4c3b303b6f4c3b38353341204850594c474f52454948204e41494c4f54414e413b3339353431,
0x3b3b3b3b3b4e3b3b3b3b3b4c3b303b6f4c3b39353341204850594c474f52454948204e41494c4f54414e413b3439353431,
0x3b3b3b3b3b4e3b3b3b3b3b4c3b303b6f4c3b4139353341204850594c474f52454948204e41494c4f54414e413b3539353431,
0x3b3b3b3b3b4e3b3b3b3b3b4c3b303b6f4c3b30363341204850594c474f52454948204e41494c4f54414e413b3639353431,
0x3b3b3b3b3b4e3b3b3b3b3b4c3b303b6f4c3b31363341204850594c474f52454948204e41494c4f54414e413b3739353431,
0x3b3b3b3b3b4e3b3b3b3b3b4c3b303b6f4c3b32363341204850594c474f52454948204e41494c4f54414e413b3839353431,
0x3b3b3b3b3b4e3b3b3b3b3b4c3b303b6f4c3b33363341204850594c474f52454948204e41494c4f54414e413b3939353431,
0x3b3b3b3b3b4e3b3b3b3b3b4c3b303b6f4c3b34363341204850594c474f52454948204e41494c4f54414e413b4139353431,
0x3b3b3b3b3b4e3b3b3b3b3b4c3b303b6f4c3b4134363341204850594c474f52454948204e41494c4f54414e413b4239353431,
0x3b3b3b3b3b4e3b3b3b3b3b4c3b303b6f4c3b35363341204850594c474f52454948204e41494c4f54414e413b4339353431,
0x3b3b3b3b3b4e3b3b3b3b3b4c3b303b6f4c3b36363341204850594c474f52454948204e41494c4f54414e413b4439353431,
0x3b3b3b3b3b4e3b3b3b3b3b4c3b303b6f4c3b37363341204850594c474f52454948204e41494c4f54414e413b4539353431,
0x3b3b3b3b3b4e3b3b3b3b3b4c3b303b6f4c3b38363341204850594c474f52454948204e41494c4f54414e413b4639353431,
0x3b3b3b3b3b4e3b3b3b3b3b4c3b303b6f4c3b4138363341204850594c474f52454948204e41494c4f54414e413b3041353431,
0x3b3b3b3b3b4e3b3b3b3b3b4c3b303b6f4c3b39363341204850594c474f52454948204e41494c4f54414e413b3141353431,
0x3b3b3b3b3b4e3b3b3b3b3b4c3b303b6f4c3b30373341204850594c474f52454948204e41494c4f54414e413b3241353431,
0x3b3b3b3b3b4e3b3b3b3b3b4c3b303b6f4c3b31373341204850594c474f52454948204e41494c4f54414e413b3341353431,
0x3b3b3b3b3b4e3b3b3b3b3b4c3b303b6f4c3b4131373341204850594c474f52454948204e41494c4f54414e413b3441353431,
0x3b3b3b3b3b4e3b3b3b3b3b4c3b303b6f4c3b32373341204850594c474f52454948204e41494c4f54414e413b3541353431,
0x3b3b3b3b3b4e3b3b3b3b3b4c3b303b6f4c3b33373341204850594c474f52454948204e41494c4f54414e413b3641353431,
0x3b3b3b3b3b4e3b3b3b3b3b4c3b303b6f4c3b34373341204850594c474f52454948204e41494c4f54414e413b3741353431,
0x3b3b3b3b3b4e3b3b3b3b3b4c3b303b6f4c3b35373341204850594c474f52454948204e41494c4f54414e413b3841353431,
0x3b3b3b3b3b4e3b3b3b3b3b4c3b303b6f4c3b36373341204850594c474f52454948204e41494c4f54414e413b3941353431,
0x3b3b3b3b3b4e3b3b3b3b3b4c3b303b6f4c3b37373341204850594c474f52454948204e41494c4f54414e413b4141353431,
0x3b3b3b3b3b4e3b3b3b3b3b4c3b303b6f4c3b38373341204850594c474f52454948204e41494c4f54414e413b4241353431,
0x3b3b3b3b3b4e3b3b3b3b3b4c3b303b6f4c3b39373341204850594c474f52454948204e41494c4f54414e413b4341353431,
0x3b3b3b3b3b4e3b3b3b3b3b4c3b303b6f4c3b30383341204850594c474f52454948204e41494c4f54414e413b4441353431,
0x3b3b3b3b3b4e3b3b3b3b3b4c3b303b6f4c3b31383341204850594c474f52454948204e41494c4f54414e413b4541353431,
0x3b3b3b3b3b4e3b3b3b3b3b4c3b303b6f4c3b4131383341204850594c474f52454948204e41494c4f54414e413b4641353431,
0x3b3b3b3b3b4e3b3b3b3b3b4c3b303b6f4c3b32383341204850594c474f52454948204e41494c4f54414e413b3042353431,
0x3b3b3b3b3b4e3b3b3b3b3b4c3b303b6f4c3b495220524f2041522033383341204850594c474f52454948204e41494c4f54414e413b3142353431,
0x3b3b3b3b3b4e3b3b3b3b3b4c3b303b6f4c3b4133383341204850594c474f52454948204e41494c4f54414e413b3242353431,
0x3b3b3b3b3b4e3b3b3b3b3b4c3b303b6f4c3b34383341204850594c474f52454948204e41494c4f54414e413b3342353431,
0x3b3b3b3b3b4e3b3b3b3b3b4c3b303b6f4c3b35383341204850594c474f52454948204e41494c4f54414e413b3442353431,
0x3b3b3b3b3b4e3b3b3b3b3b4c3b303b6f4c3b36383341204850594c474f52454948204e41494c4f54414e413b3542353431,
0x3b3b3b3b3b4e3b3b3b3b3b4c3b303b6f4c3b4136383341204850594c474f52454948204e41494c4f54414e413b3642353431,
0x3b3b3b3b3b4e3b3b3b3b3b4c3b303b6f4c3b37383341204850594c474f52454948204e41494c4f54414e413b3742353431,
0x3b3b3b3b3b4e3b3b3b3b3b4c3b303b6f4c3b38383341204850594c474f52454948204e41494c4f54414e413b3842353431,
0x3b3b3b3b3b4e3b3b3b3b3b4c3b303b6f4c3b39383341204850594c474f52454948204e41494c4f54414e413b3942353431,
0x3b3b3b3b3b4e3b3b3b3b3b4c3b303b6f4c3b30393341204850594c474f52454948204e41494c4f54414e413b4142353431]

end U5e.Data
