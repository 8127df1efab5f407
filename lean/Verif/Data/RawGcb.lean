set_option maxRecDepth 10000
/-! GENERATED by tools/gen_raw.py: the octets of src/u5e/props/GraphemeBreakProperty.txt, one number per line (little-endian). -/
namespace U5e.Data

/-- src/u5e/props/GraphemeBreakProperty.txt lines 1-256. -/
def rawGcb0 : List Nat := [
0x7478742e302e302e392d79747265706f72506b61657242656d6568706172472023,
0x544d472035353a33323a3232202c33302d36302d36313032203a657461442023,
0x2e636e49202caec265646f63696e55203631303220a9c22023,
0x2e73656972746e756f6320726568746f20646e61202e532e5520656874206e69202e636e49202c65646f63696e5520666f20736b72616d6564617274206465726574736967657220657261206f676f4c2065646f63696e552065687420646e612065646f63696e552023,
0x6c6d74682e6573755f666f5f736d7265742f67726f2e65646f63696e752e7777772f2f3a7074746820656573202c65737520666f20736d72657420726f462023,
0x23,
0x6573616261746144207265746361726168432065646f63696e552023,
0x2f343472742f7374726f7065722f67726f2e65646f63696e752e7777772f2f3a7074746820656573202c6e6f697461746e656d75636f6420726f4620202023,
0x0,
0x3d3d3d3d3d3d3d3d3d3d3d3d3d3d3d3d3d3d3d3d3d3d3d3d3d3d3d3d3d3d3d3d3d3d3d3d3d3d3d3d3d3d3d3d3d3d3d3d2023,
0x0,
0x6b616572425f72657473756c435f656d656870617247093a79747265706f72502023,
0x0,
0x6b616572425f72657473756c435f656d65687061724720726f662064657473696c20796c746963696c70786520746f6e2073746e696f702065646f63206c6c41202023,
0x2e2958582820726568744f2065756c6176206568742065766168202023,
0x0,
0x726568744f203b4646464630312e2e30303030203a676e697373696d402023,
0x0,
0x3d3d3d3d3d3d3d3d3d3d3d3d3d3d3d3d3d3d3d3d3d3d3d3d3d3d3d3d3d3d3d3d3d3d3d3d3d3d3d3d3d3d3d3d3d3d3d3d2023,
0x0,
0x45564f4241204b52414d205245424d554e204349424152412e2e4e474953205245424d554e20434942415241205d365b2020206643202320646e6570657250203b20202020353036302e2e30303630,
0x4841594120464f20444e4520434942415241202020202020206643202320646e6570657250203b2020202020202020202044443630,
0x4b52414d204e4f4954414956455242424120434149525953202020202020206643202320646e6570657250203b2020202020202020202046303730,
0x4841594120464f20444e4520444554555053494420434942415241202020202020206643202320646e6570657250203b2020202020202020202032453830,
0x4850455220544f442052455454454c204d414c4159414c414d202020202020206f4c202320646e6570657250203b2020202020202020202045344430,
0x4e474953205245424d554e2049485449414b202020202020206643202320646e6570657250203b2020202020202020204442303131,
0x4159494e414d4844415055204e47495320414441524148532e2e4159494c554d415648494a204e4749532041444152414853205d325b2020206f4c202320646e6570657250203b202033433131312e2e3243313131,
0x0,
0x3331203a73746e696f702065646f63206c61746f542023,
0x0,
0x3d3d3d3d3d3d3d3d3d3d3d3d3d3d3d3d3d3d3d3d3d3d3d3d3d3d3d3d3d3d3d3d3d3d3d3d3d3d3d3d3d3d3d3d3d3d3d3d2023,
0x0,
0x3e443030302d6c6f72746e6f633c2020202020202063432023205243203b2020202020202020202044303030,
0x0,
0x31203a73746e696f702065646f63206c61746f542023,
0x0,
0x3d3d3d3d3d3d3d3d3d3d3d3d3d3d3d3d3d3d3d3d3d3d3d3d3d3d3d3d3d3d3d3d3d3d3d3d3d3d3d3d3d3d3d3d3d3d3d3d2023,
0x0,
0x3e413030302d6c6f72746e6f633c202020202020206343202320464c203b2020202020202020202041303030,
0x0,
0x31203a73746e696f702065646f63206c61746f542023,
0x0,
0x3d3d3d3d3d3d3d3d3d3d3d3d3d3d3d3d3d3d3d3d3d3d3d3d3d3d3d3d3d3d3d3d3d3d3d3d3d3d3d3d3d3d3d3d3d3d3d3d2023,
0x0,
0x3e393030302d6c6f72746e6f633c2e2e3e303030302d6c6f72746e6f633c205d30315b202063432023206c6f72746e6f43203b20202020393030302e2e30303030,
0x3e433030302d6c6f72746e6f633c2e2e3e423030302d6c6f72746e6f633c205d325b20202063432023206c6f72746e6f43203b20202020433030302e2e42303030,
0x3e463130302d6c6f72746e6f633c2e2e3e453030302d6c6f72746e6f633c205d38315b202063432023206c6f72746e6f43203b20202020463130302e2e45303030,
0x3e463930302d6c6f72746e6f633c2e2e3e463730302d6c6f72746e6f633c205d33335b202063432023206c6f72746e6f43203b20202020463930302e2e46373030,
0x4e45485059482054464f532020202020202066432023206c6f72746e6f43203b2020202020202020202044413030,
0x4b52414d2052455454454c204349424152412020202020202066432023206c6f72746e6f43203b2020202020202020202043313630,
0x524f54415241504553204c45574f56204e41494c4f474e4f4d2020202020202066432023206c6f72746e6f43203b2020202020202020202045303831,
0x4543415053204854444957204f52455a2020202020202066432023206c6f72746e6f43203b2020202020202020202042303032,
0x4b52414d205446454c2d4f542d54484749522e2e4b52414d2054484749522d4f542d5446454c205d325b20202066432023206c6f72746e6f43203b20202020463030322e2e45303032,
0x524f5441524150455320454e494c202020202020206c5a2023206c6f72746e6f43203b2020202020202020202038323032,
0x524f544152415045532048504152474152415020202020202020705a2023206c6f72746e6f43203b2020202020202020202039323032,
0x454449525245564f205446454c2d4f542d54484749522e2e474e49444445424d452054484749522d4f542d5446454c205d355b20202066432023206c6f72746e6f43203b20202020453230322e2e41323032,
0x53554c5020454c42495349564e492e2e52454e494f4a2044524f57205d355b20202066432023206c6f72746e6f43203b20202020343630322e2e30363032,
0x3e353630322d64657672657365723c202020202020206e432023206c6f72746e6f43203b2020202020202020202035363032,
0x534550414853205449474944204c414e494d4f4e2e2e4554414c4f53492054484749522d4f542d5446454c205d30315b202066432023206c6f72746e6f43203b20202020463630322e2e36363032,
0x3e464646442d657461676f727275733c2e2e3e303038442d657461676f727275733c205d383430325b2073432023206c6f72746e6f43203b20202020464646442e2e30303844,
0x4543415053204b414552422d4f4e204854444957204f52455a2020202020202066432023206c6f72746e6f43203b2020202020202020202046464546,
0x3e384646462d64657672657365723c2e2e3e304646462d64657672657365723c205d395b2020206e432023206c6f72746e6f43203b20202020384646462e2e30464646,
0x524f54414e494d524554204e4f495441544f4e4e41205241454e494c5245544e492e2e524f48434e41204e4f495441544f4e4e41205241454e494c5245544e49205d335b20202066432023206c6f72746e6f43203b20202020424646462e2e39464646,
0x504554532050552054414d524f4620444e414854524f48532e2e50414c5245564f2052455454454c2054414d524f4620444e414854524f4853205d345b20202066432023206c6f72746e6f43203b202033414342312e2e3041434231,
0x45534152485020444e45204c4f424d5953204c41434953554d2e2e4d414542204e49474542204c4f424d5953204c41434953554d205d385b20202066432023206c6f72746e6f43203b202041373144312e2e3337314431,
0x3e30303030452d64657672657365723c202020202020206e432023206c6f72746e6f43203b2020202020202020203030303045,
0x4741542045474155474e414c2020202020202066432023206c6f72746e6f43203b2020202020202020203130303045,
0x3e46313030452d64657672657365723c2e2e3e32303030452d64657672657365723c205d30335b20206e432023206c6f72746e6f43203b202046313030452e2e3230303045,
0x3e46463030452d64657672657365723c2e2e3e30383030452d64657672657365723c205d3832315b206e432023206c6f72746e6f43203b202046463030452e2e3038303045,
0x3e46464630452d64657672657365723c2e2e3e30463130452d64657672657365723c205d303036335b206e432023206c6f72746e6f43203b202046464630452e2e3046313045,
0x0,
0x35323935203a73746e696f702065646f63206c61746f542023,
0x0,
0x3d3d3d3d3d3d3d3d3d3d3d3d3d3d3d3d3d3d3d3d3d3d3d3d3d3d3d3d3d3d3d3d3d3d3d3d3d3d3d3d3d3d3d3d3d3d3d3d2023,
0x0,
0x582052455454454c204c4c414d53204e4954414c20474e494e49424d4f432e2e544e4543434120455641524720474e494e49424d4f43205d3231315b206e4d202320646e65747845203b20202020463633302e2e30303330,
0x45495459524b4f502043494c4c4952594320474e494e49424d4f432e2e4f4c5449542043494c4c4952594320474e494e49424d4f43205d355b2020206e4d202320646e65747845203b20202020373834302e2e33383430,
0x4e47495320534e4f494c4c494d2043494c4c4952594320474e494e49424d4f432e2e4e4749532053444e4153554f485420444552444e55482043494c4c4952594320474e494e49424d4f43205d325b202020654d202320646e65747845203b20202020393834302e2e38383430,
0x474554454d20544e494f50205745524245482e2e415448414e544520544e4543434120574552424548205d35345b20206e4d202320646e65747845203b20202020444235302e2e31393530,
0x4546415220544e494f5020574552424548202020202020206e4d202320646e65747845203b2020202020202020202046423530,
0x544f44204e495320544e494f50205745524245482e2e544f44204e49485320544e494f5020574552424548205d325b2020206e4d202320646e65747845203b20202020324335302e2e31433530,
0x544f44205245574f4c204b52414d205745524245482e2e544f44205245505055204b52414d20574552424548205d325b2020206e4d202320646e65747845203b20202020354335302e2e34433530,
0x4e41544151205354414d415120544e494f5020574552424548202020202020206e4d202320646e65747845203b2020202020202020202037433530,
0x415253414b204c4c414d53204349424152412e2e4d414c4c415353415720454859414c4120554f48414c4c414c4c4153204e47495320434942415241205d31315b20206e4d202320646e65747845203b20202020413136302e2e30313630,
0x574f4c454220415a4d41482059564157204349424152412e2e4e4154414854414620434942415241205d31325b20206e4d202320646e65747845203b20202020463536302e2e42343630,
0x46454c412054504952435352455055532052455454454c20434942415241202020202020206e4d202320646e65747845203b2020202020202020202030373630,
0x4e4545532048474948204c4c414d53204349424152412e2e415255534b414d2046454c412048544957204d414c20485449572044415320455255544147494c2048474948204c4c414d5320434942415241205d375b2020206e4d202320646e65747845203b20202020434436302e2e36443630,
0x414444414d2048474948204c4c414d53204349424152412e2e4f52455a204445444e554f522048474948204c4c414d5320434942415241205d365b2020206e4d202320646e65747845203b20202020344536302e2e46443630,
0x4e4f4f4e2048474948204c4c414d53204349424152412e2e4845592048474948204c4c414d5320434942415241205d325b2020206e4d202320646e65747845203b20202020384536302e2e37453630,
0x4d45454d20574f4c204c4c414d53204349424152412e2e504f545320574f4c204552544e4543205954504d4520434942415241205d345b2020206e4d202320646e65747845203b20202020444536302e2e41453630,
0x4850414c412054504952435352455055532052455454454c20434149525953202020202020206e4d202320646e65747845203b2020202020202020202031313730,
0x484b4552524142204341495259532e2e45564f42412041484148545020434149525953205d37325b20206e4d202320646e65747845203b20202020413437302e2e30333730,
0x4e554b555320414e414148542e2e494c494641424120414e41414854205d31315b20206e4d202320646e65747845203b20202020304237302e2e36413730,
0x45564f424120544f4420454c42554f4420474e494e49424d4f43204f4b4e2e2e454e4f5420484749482054524f485320474e494e49424d4f43204f4b4e205d395b2020206e4d202320646e65747845203b20202020334637302e2e42453730,
0x485345474144204b52414d204e41544952414d41532e2e4e49204b52414d204e41544952414d4153205d345b2020206e4d202320646e65747845203b20202020393138302e2e36313830,
0x41204e474953204c45574f56204e41544952414d41532e2e545559204349544548544e455045204b52414d204e41544952414d4153205d395b2020206e4d202320646e65747845203b20202020333238302e2e42313830,
0x55204e474953204c45574f56204e41544952414d41532e2e412054524f4853204e474953204c45574f56204e41544952414d4153205d335b2020206e4d202320646e65747845203b20202020373238302e2e35323830,
0x4141445551454e204b52414d204e41544952414d41532e2e4920474e4f4c204e474953204c45574f56204e41544952414d4153205d355b2020206e4d202320646e65747845203b20202020443238302e2e39323830,
0x4b52414d204e4f4954414e494d454720434941444e414d2e2e4b52414d204e4f49544143495246464120434941444e414d205d335b2020206e4d202320646e65747845203b20202020423538302e2e39353830,
0x4148464153204e4749532048474948204c4c414d53204349424152412e2e4255522d52412044524f572048474948204c4c414d5320434942415241205d34315b20206e4d202320646e65747845203b20202020314538302e2e34443830,
0x4152415653554e41204e4749532049524147414e415645442e2e574f4c454220414d4d41442044454e52555420434942415241205d32335b20206e4d202320646e65747845203b20202020323039302e2e33453830,
0x454f204e474953204c45574f562049524147414e41564544202020202020206e4d202320646e65747845203b2020202020202020202041333930,
0x41544b554e204e4749532049524147414e41564544202020202020206e4d202320646e65747845203b2020202020202020202043333930,
0x4941204e474953204c45574f562049524147414e415645442e2e55204e474953204c45574f562049524147414e41564544205d385b2020206e4d202320646e65747845203b20202020383439302e2e31343930,
0x414d41524956204e4749532049524147414e41564544202020202020206e4d202320646e65747845203b2020202020202020202044343930,
0x455555204e474953204c45574f562049524147414e415645442e2e415454414455204e474953205353455254532049524147414e41564544205d375b2020206e4d202320646e65747845203b20202020373539302e2e31353930,
0x4c4c2043494c41434f56204e474953204c45574f562049524147414e415645442e2e4c2043494c41434f56204e474953204c45574f562049524147414e41564544205d325b2020206e4d202320646e65747845203b20202020333639302e2e32363930,
0x55444e49424152444e4143204e47495320494c41474e4542202020202020206e4d202320646e65747845203b2020202020202020202031383930,
0x41544b554e204e47495320494c41474e4542202020202020206e4d202320646e65747845203b2020202020202020202043423930,
0x4141204e474953204c45574f5620494c41474e454220202020202020634d202320646e65747845203b2020202020202020202045423930,
0x52522043494c41434f56204e474953204c45574f5620494c41474e45422e2e55204e474953204c45574f5620494c41474e4542205d345b2020206e4d202320646e65747845203b20202020344339302e2e31433930,
0x414d41524956204e47495320494c41474e4542202020202020206e4d202320646e65747845203b2020202020202020202044433930,
0x4b52414d204854474e454c20554120494c41474e454220202020202020634d202320646e65747845203b2020202020202020202037443930,
0x4c4c2043494c41434f56204e474953204c45574f5620494c41474e45422e2e4c2043494c41434f56204e474953204c45574f5620494c41474e4542205d325b2020206e4d202320646e65747845203b20202020334539302e2e32453930,
0x49444e4942204e4749532049484b554d5255472e2e49444e4942204b414441204e4749532049484b554d525547205d325b2020206e4d202320646e65747845203b20202020323041302e2e31304130,
0x41544b554e204e4749532049484b554d525547202020202020206e4d202320646e65747845203b2020202020202020202043334130,
0x5555204e474953204c45574f562049484b554d5255472e2e55204e474953204c45574f562049484b554d525547205d325b2020206e4d202320646e65747845203b20202020323441302e2e31344130,
0x4941204e474953204c45574f562049484b554d5255472e2e4545204e474953204c45574f562049484b554d525547205d325b2020206e4d202320646e65747845203b20202020383441302e2e37344130,
0x414d41524956204e4749532049484b554d5255472e2e4f4f204e474953204c45574f562049484b554d525547205d335b2020206e4d202320646e65747845203b20202020443441302e2e42344130,
0x5441414455204e4749532049484b554d525547202020202020206e4d202320646e65747845203b2020202020202020202031354130,
0x4b414444412049484b554d5255472e2e49505049542049484b554d525547205d325b2020206e4d202320646e65747845203b20202020313741302e2e30374130,
0x4853414b4159204e4749532049484b554d525547202020202020206e4d202320646e65747845203b2020202020202020202035374130,
0x4152415653554e41204e4749532049544152414a55472e2e55444e49424152444e4143204e4749532049544152414a5547205d325b2020206e4d202320646e65747845203b20202020323841302e2e31384130,
0x41544b554e204e4749532049544152414a5547202020202020206e4d202320646e65747845203b2020202020202020202043424130,
0x45204152444e4143204e474953204c45574f562049544152414a55472e2e55204e474953204c45574f562049544152414a5547205d355b2020206e4d202320646e65747845203b20202020354341302e2e31434130,
0x4941204e474953204c45574f562049544152414a55472e2e45204e474953204c45574f562049544152414a5547205d325b2020206e4d202320646e65747845203b20202020384341302e2e37434130,
0x414d41524956204e4749532049544152414a5547202020202020206e4d202320646e65747845203b2020202020202020202044434130,
0x4c4c2043494c41434f56204e474953204c45574f562049544152414a55472e2e4c2043494c41434f56204e474953204c45574f562049544152414a5547205d325b2020206e4d202320646e65747845203b20202020334541302e2e32454130,
0x55444e49424152444e4143204e47495320415949524f202020202020206e4d202320646e65747845203b2020202020202020202031304230,
0x41544b554e204e47495320415949524f202020202020206e4d202320646e65747845203b2020202020202020202043334230,
0x4141204e474953204c45574f5620415949524f20202020202020634d202320646e65747845203b2020202020202020202045334230,
0x49204e474953204c45574f5620415949524f202020202020206e4d202320646e65747845203b2020202020202020202046334230,
0x52522043494c41434f56204e474953204c45574f5620415949524f2e2e55204e474953204c45574f5620415949524f205d345b2020206e4d202320646e65747845203b20202020343442302e2e31344230,
0x414d41524956204e47495320415949524f202020202020206e4d202320646e65747845203b2020202020202020202044344230,
0x4b52414d204854474e454c20494120415949524f202020202020206e4d202320646e65747845203b2020202020202020202036354230,
0x4b52414d204854474e454c20554120415949524f20202020202020634d202320646e65747845203b2020202020202020202037354230,
0x4c4c2043494c41434f56204e474953204c45574f5620415949524f2e2e4c2043494c41434f56204e474953204c45574f5620415949524f205d325b2020206e4d202320646e65747845203b20202020333642302e2e32364230,
0x4152415653554e41204e474953204c494d4154202020202020206e4d202320646e65747845203b2020202020202020202032384230,
0x4141204e474953204c45574f56204c494d415420202020202020634d202320646e65747845203b2020202020202020202045424230,
0x4949204e474953204c45574f56204c494d4154202020202020206e4d202320646e65747845203b2020202020202020202030434230,
0x414d41524956204e474953204c494d4154202020202020206e4d202320646e65747845203b2020202020202020202044434230,
0x4b52414d204854474e454c205541204c494d415420202020202020634d202320646e65747845203b2020202020202020202037444230,
0x45564f42412055444e49424152444e414320474e494e49424d4f43204e474953205547554c4554202020202020206e4d202320646e65747845203b2020202020202020202030304330,
0x4949204e474953204c45574f56205547554c45542e2e4141204e474953204c45574f56205547554c4554205d335b2020206e4d202320646e65747845203b20202020303443302e2e45334330,
0x4941204e474953204c45574f56205547554c45542e2e45204e474953204c45574f56205547554c4554205d335b2020206e4d202320646e65747845203b20202020383443302e2e36344330,
0x414d41524956204e474953205547554c45542e2e4f204e474953204c45574f56205547554c4554205d345b2020206e4d202320646e65747845203b20202020443443302e2e41344330,
0x4b52414d204854474e454c204941205547554c45542e2e4b52414d204854474e454c205547554c4554205d325b2020206e4d202320646e65747845203b20202020363543302e2e35354330,
0x4c4c2043494c41434f56204e474953204c45574f56205547554c45542e2e4c2043494c41434f56204e474953204c45574f56205547554c4554205d325b2020206e4d202320646e65747845203b20202020333643302e2e32364330,
0x55444e49424152444e4143204e474953204144414e4e414b202020202020206e4d202320646e65747845203b2020202020202020202031384330,
0x41544b554e204e474953204144414e4e414b202020202020206e4d202320646e65747845203b2020202020202020202043424330,
0x49204e474953204c45574f56204144414e4e414b202020202020206e4d202320646e65747845203b2020202020202020202046424330,
0x5555204e474953204c45574f56204144414e4e414b20202020202020634d202320646e65747845203b2020202020202020202032434330,
0x45204e474953204c45574f56204144414e4e414b202020202020206e4d202320646e65747845203b2020202020202020202036434330,
0x414d41524956204e474953204144414e4e414b2e2e5541204e474953204c45574f56204144414e4e414b205d325b2020206e4d202320646e65747845203b20202020444343302e2e43434330,
0x4b52414d204854474e454c204941204144414e4e414b2e2e4b52414d204854474e454c204144414e4e414b205d325b202020634d202320646e65747845203b20202020364443302e2e35444330,
0x4c4c2043494c41434f56204e474953204c45574f56204144414e4e414b2e2e4c2043494c41434f56204e474953204c45574f56204144414e4e414b205d325b2020206e4d202320646e65747845203b20202020334543302e2e32454330,
0x55444e49424152444e4143204e474953204d414c4159414c414d202020202020206e4d202320646e65747845203b2020202020202020202031304430,
0x4141204e474953204c45574f56204d414c4159414c414d20202020202020634d202320646e65747845203b2020202020202020202045334430,
0x52522043494c41434f56204e474953204c45574f56204d414c4159414c414d2e2e55204e474953204c45574f56204d414c4159414c414d205d345b2020206e4d202320646e65747845203b20202020343444302e2e31344430,
0x414d41524956204e474953204d414c4159414c414d202020202020206e4d202320646e65747845203b2020202020202020202044344430,
0x4b52414d204854474e454c205541204d414c4159414c414d20202020202020634d202320646e65747845203b2020202020202020202037354430,
0x4c4c2043494c41434f56204e474953204c45574f56204d414c4159414c414d2e2e4c2043494c41434f56204e474953204c45574f56204d414c4159414c414d205d325b2020206e4d202320646e65747845203b20202020333644302e2e32364430,
0x414e554b414c2d4c41204e47495320414c41484e4953202020202020206e4d202320646e65747845203b2020202020202020202041434430,
0x414c4c49502d414c4541204e474953204c45574f5620414c41484e495320202020202020634d202320646e65747845203b2020202020202020202046434430,
0x414c4c49502d41415020495454454b204e474953204c45574f5620414c41484e49532e2e414c4c49502d534920495454454b204e474953204c45574f5620414c41484e4953205d335b2020206e4d202320646e65747845203b20202020344444302e2e32444430,
0x414c4c49502d4141502041474944204e474953204c45574f5620414c41484e4953202020202020206e4d202320646e65747845203b2020202020202020202036444430,
0x415454494b554e41594147204e474953204c45574f5620414c41484e495320202020202020634d202320646e65747845203b2020202020202020202046444430,
0x54414b412d4e41482049414d205245544341524148432049414854202020202020206e4d202320646e65747845203b2020202020202020202031334530,
0x5548544e4948502052455443415241484320494148542e2e492041524153205245544341524148432049414854205d375b2020206e4d202320646e65747845203b20202020413345302e2e34334530,
0x4e414b4b414d41592052455443415241484320494148542e2e55484b49415449414d205245544341524148432049414854205d385b2020206e4d202320646e65747845203b20202020453445302e2e37344530,
0x4e414b2049414d204e474953204c45574f56204f414c202020202020206e4d202320646e65747845203b2020202020202020202031424530,
0x5555204e474953204c45574f56204f414c2e2e49204e474953204c45574f56204f414c205d365b2020206e4d202320646e65747845203b20202020394245302e2e34424530,
0x4f4c204e474953204c45574f56494d4553204f414c2e2e4e4f4b2049414d204e474953204c45574f56204f414c205d325b2020206e4d202320646e65747845203b20202020434245302e2e42424530,
0x41544948414747494e204f414c2e2e4b452049414d20454e4f54204f414c205d365b2020206e4d202320646e65747845203b20202020444345302e2e38434530,
0x53475548535420474e4f4453204e474953204c414349474f4c4f52545341204e4154454249542e2e415020445559484b2d204e474953204c414349474f4c4f52545341204e415445424954205d325b2020206e4d202320646e65747845203b20202020393146302e2e38314630,
0x414c5a2049594e20474e555a42205341474e204b52414d204e415445424954202020202020206e4d202320646e65747845203b2020202020202020202035334630,
0x534741545220524f475320474e555a42205341474e204b52414d204e415445424954202020202020206e4d202320646e65747845203b2020202020202020202037334630,
0x555248502d20415354204b52414d204e415445424954202020202020206e4d202320646e65747845203b2020202020202020202039334630,
0x4f522041474e2055532053454a52204e474953204e4154454249542e2e4141204e474953204c45574f56204e415445424954205d34315b20206e4d202320646e65747845203b20202020453746302e2e31374630,
0x41544e414c4148204b52414d204e4154454249542e2e49204445535245564552204e474953204c45574f56204e415445424954205d355b2020206e4d202320646e65747845203b20202020343846302e2e30384630,
0x534741545220474e4159204e474953204e4154454249542e2e53474154522049434c204e474953204e415445424954205d325b2020206e4d202320646e65747845203b20202020373846302e2e36384630,
0x414a2052455454454c2044454e494f4a425553204e4154454249542e2e4e4143204153542045434c204e4749532044454e494f4a425553204e415445424954205d31315b20206e4d202320646e65747845203b20202020373946302e2e44384630,
0x4152204d524f462d44455849462052455454454c2044454e494f4a425553204e4154454249542e2e41594e2052455454454c2044454e494f4a425553204e415445424954205d36335b20206e4d202320646e65747845203b20202020434246302e2e39394630,
0x4e41444720414d444150204c4f424d5953204e415445424954202020202020206e4d202320646e65747845203b2020202020202020202036434630,
0x5555204e474953204c45574f562052414d4e41594d2e2e49204e474953204c45574f562052414d4e41594d205d345b2020206e4d202320646e65747845203b20202020303330312e2e44323031,
0x574f4c454220544f44204e4749532052414d4e41594d2e2e4941204e474953204c45574f562052414d4e41594d205d365b2020206e4d202320646e65747845203b20202020373330312e2e32333031,
0x54415341204e4749532052414d4e41594d2e2e414d41524956204e4749532052414d4e41594d205d325b2020206e4d202320646e65747845203b20202020413330312e2e39333031,
0x4148204c414944454d204e47495320544e414e4f534e4f432052414d4e41594d2e2e4157204c414944454d204e47495320544e414e4f534e4f432052414d4e41594d205d325b2020206e4d202320646e65747845203b20202020453330312e2e44333031,
0x4c4c2043494c41434f56204e474953204c45574f562052414d4e41594d2e2e4c2043494c41434f56204e474953204c45574f562052414d4e41594d205d325b2020206e4d202320646e65747845203b20202020393530312e2e38353031,
0x414c204c414944454d204e4f4d204e47495320544e414e4f534e4f432052414d4e41594d2e2e414e204c414944454d204e4f4d204e47495320544e414e4f534e4f432052414d4e41594d205d335b2020206e4d202320646e65747845203b20202020303630312e2e45353031,
0x454520484159414b204e474953204c45574f562052414d4e41594d2e2e49204e4552414b2041424547204e474953204c45574f562052414d4e41594d205d345b2020206e4d202320646e65747845203b20202020343730312e2e31373031,
0x4157204c414944454d204e414853204e47495320544e414e4f534e4f432052414d4e41594d202020202020206e4d202320646e65747845203b2020202020202020202032383031,
0x59204c414e4946204e414853204e474953204c45574f562052414d4e41594d2e2e45564f42412045204e414853204e474953204c45574f562052414d4e41594d205d325b2020206e4d202320646e65747845203b20202020363830312e2e35383031,
0x454e4f54204349544148504d45204c49434e554f43204e414853204e4749532052414d4e41594d202020202020206e4d202320646e65747845203b2020202020202020202044383031,
0x4941204e4f544941204e474953204c45574f562052414d4e41594d202020202020206e4d202320646e65747845203b2020202020202020202044393031,
0x4b52414d204e4f4954414e494d454720474e494e49424d4f43204349504f494854452e2e4b52414d204854474e454c204c45574f5620444e41204e4f4954414e494d454720474e494e49424d4f43204349504f49485445205d335b2020206e4d202320646e65747845203b20202020463533312e2e44353331,
0x414d41524956204e47495320474f4c414741542e2e49204e474953204c45574f5620474f4c41474154205d335b2020206e4d202320646e65747845203b20202020343137312e2e32313731,
0x444f5044554d4150204e474953204f4f4e554e41482e2e49204e474953204c45574f56204f4f4e554e4148205d335b2020206e4d202320646e65747845203b20202020343337312e2e32333731,
0x55204e474953204c45574f562044494855422e2e49204e474953204c45574f56204449485542205d325b2020206e4d202320646e65747845203b20202020333537312e2e32353731,
0x55204e474953204c45574f562041574e41424741542e2e49204e474953204c45574f562041574e4142474154205d325b2020206e4d202320646e65747845203b20202020333737312e2e32373731,
0x414120544e455245484e49204c45574f562052454d484b2e2e514120544e455245484e49204c45574f562052454d484b205d325b2020206e4d202320646e65747845203b20202020354237312e2e34423731,
0x4155204e474953204c45574f562052454d484b2e2e49204e474953204c45574f562052454d484b205d375b2020206e4d202320646e65747845203b20202020444237312e2e37423731,
0x544948414b494e204e4749532052454d484b202020202020206e4d202320646e65747845203b2020202020202020202036433731,
0x544153414d4148544142204e4749532052454d484b2e2e4e414f54414b495355554d204e4749532052454d484b205d31315b20206e4d202320646e65747845203b20202020334437312e2e39433731,
0x4e41434148545441204e4749532052454d484b202020202020206e4d202320646e65747845203b2020202020202020202044443731,
0x454552485420524f5443454c4553204e4f495441495241562045455246204e41494c4f474e4f4d2e2e454e4f20524f5443454c4553204e4f495441495241562045455246204e41494c4f474e4f4d205d335b2020206e4d202320646e65747845203b20202020443038312e2e42303831,
0x4144554c414220454552485420494c414720494c412052455454454c204e41494c4f474e4f4d2e2e4144554c414220494c414720494c412052455454454c204e41494c4f474e4f4d205d325b2020206e4d202320646e65747845203b20202020363838312e2e35383831,
0x41474c4147414420494c414720494c412052455454454c204e41494c4f474e4f4d202020202020206e4d202320646e65747845203b2020202020202020202039413831,
0x55204e474953204c45574f562055424d494c2e2e41204e474953204c45574f562055424d494c205d335b2020206e4d202320646e65747845203b20202020323239312e2e30323931,
0x4f204e474953204c45574f562055424d494c2e2e45204e474953204c45574f562055424d494c205d325b2020206e4d202320646e65747845203b20202020383239312e2e37323931,
0x4152415653554e412052455454454c204c4c414d532055424d494c202020202020206e4d202320646e65747845203b2020202020202020202032333931,
0x492d4153204e4749532055424d494c2e2e474e455248504b554d204e4749532055424d494c205d335b2020206e4d202320646e65747845203b20202020423339312e2e39333931,
0x55204e474953204c45574f56204553454e494755422e2e49204e474953204c45574f56204553454e49475542205d325b2020206e4d202320646e65747845203b20202020383141312e2e37314131,
0x4541204e474953204c45574f56204553454e49475542202020202020206e4d202320646e65747845203b2020202020202020202042314131,
0x414c204c414944454d204e47495320544e414e4f534e4f43204d41485420494154202020202020206e4d202320646e65747845203b2020202020202020202036354131,
0x4153204e47495320544e414e4f534e4f43204d414854204941542e2e49414c20474e414b2049414d204e474953204d41485420494154205d375b2020206e4d202320646e65747845203b20202020453541312e2e38354131,
0x544f4b4153204e474953204d41485420494154202020202020206e4d202320646e65747845203b2020202020202020202030364131,
0x5441532049414d204e474953204c45574f56204d41485420494154202020202020206e4d202320646e65747845203b2020202020202020202032364131,
0x574f4c454220414f204e474953204c45574f56204d414854204941542e2e49204e474953204c45574f56204d41485420494154205d385b2020206e4d202320646e65747845203b20202020433641312e2e35364131,
0x4e4152414b2045554c2d4e4555484b204e474953204d414854204941542e2e45564f424120414f204e474953204c45574f56204d41485420494154205d30315b20206e4d202320646e65747845203b20202020433741312e2e33374131,
0x544f442043494d4d4152474f545059524320474e494e49424d4f43204d41485420494154202020202020206e4d202320646e65747845203b2020202020202020202046374131,
0x574f4c4542205345534548544e4552415020474e494e49424d4f432e2e544e454343412058454c464d55435249432044454c42554f4420474e494e49424d4f43205d34315b20206e4d202320646e65747845203b20202020444241312e2e30424131,
0x59414c5245564f205345534548544e4552415020474e494e49424d4f4320202020202020654d202320646e65747845203b2020202020202020202045424131,
0x474e41525553204e474953204553454e494c41422e2e4d4543495220554c55204e474953204553454e494c4142205d345b2020206e4d202320646e65747845203b20202020333042312e2e30304231,
0x4e414b45524552204e474953204553454e494c4142202020202020206e4d202320646e65747845203b2020202020202020202034334231,
0x41504552204152204e474953204c45574f56204553454e494c41422e2e554c55204e474953204c45574f56204553454e494c4142205d355b2020206e4d202320646e65747845203b20202020413342312e2e36334231,
0x41474e454c20414c204e474953204c45574f56204553454e494c4142202020202020206e4d202320646e65747845203b2020202020202020202043334231,
0x5445504550204e474953204c45574f56204553454e494c4142202020202020206e4d202320646e65747845203b2020202020202020202032344231,
0x474e4f4720474e494e49424d4f43204c4f424d5953204c41434953554d204553454e494c41422e2e484547455420474e494e49424d4f43204c4f424d5953204c41434953554d204553454e494c4142205d395b2020206e4d202320646e65747845203b20202020333742312e2e42364231,
0x524159414c474e4150204e474953204553454e41444e55532e2e4b454345594e4150204e474953204553454e41444e5553205d325b2020206e4d202320646e65747845203b20202020313842312e2e30384231,
0x554b55594e4150204e474953204c45574f56204553454e41444e55532e2e41524b41594e4150204e47495320544e414e4f534e4f43204553454e41444e5553205d345b2020206e4d202320646e65747845203b20202020354142312e2e32414231,
0x474e55454c55454e4150204e474953204c45574f56204553454e41444e55532e2e544550454d4150204e474953204c45574f56204553454e41444e5553205d325b2020206e4d202320646e65747845203b20202020394142312e2e38414231,
0x4157204e41474e41534150204e47495320544e414e4f534e4f43204553454e41444e55532e2e414d41524956204e474953204553454e41444e5553205d335b2020206e4d202320646e65747845203b20202020444142312e2e42414231,
0x49504d4f54204e474953204b41544142202020202020206e4d202320646e65747845203b2020202020202020202036454231,
0x4545204e474953204c45574f56204b415441422e2e45204b41504b4150204e474953204c45574f56204b41544142205d325b2020206e4d202320646e65747845203b20202020394542312e2e38454231,
0x4f204f52414b204e474953204c45574f56204b41544142202020202020206e4d202320646e65747845203b2020202020202020202044454231,
0x48204e47495320544e414e4f534e4f43204b415441422e2e4153204e55474e554c414d495320524f462055204e474953204c45574f56204b41544142205d335b2020206e4d202320646e65747845203b20202020314642312e2e46454231,
0x54204e47495320544e414e4f534e4f432041484350454c2e2e45204e474953204c45574f562041484350454c205d385b2020206e4d202320646e65747845203b20202020333343312e2e43324331,
0x41544b554e204e4749532041484350454c2e2e4e4152204e4749532041484350454c205d325b2020206e4d202320646e65747845203b20202020373343312e2e36334331,
0x41484b4e45525020454e4f542043494445562e2e414e41485352414b20454e4f54204349444556205d335b2020206e4d202320646e65747845203b20202020324443312e2e30444331,
0x4154495241565320544e45444e455045444e49204952494d4853414b20434944455647495220454e4f542043494445562e2e4154495241565320454e494c44494d20434944455652554a4159204e474953204349444556205d33315b20206e4d202320646e65747845203b20202020304543312e2e34444331,
0x4c4941542048544957204154544144554e412041475241534956204e4749532043494445562e2e415449524156532041475241534956204e474953204349444556205d375b2020206e4d202320646e65747845203b20202020384543312e2e32454331,
0x4b4159524954204e474953204349444556202020202020206e4d202320646e65747845203b2020202020202020202044454331,
0x45564f4241204152444e414320454e4f54204349444556202020202020206e4d202320646e65747845203b2020202020202020202034464331,
0x45564f424120474e495220454c42554f4420454e4f542043494445562e2e45564f424120474e495220454e4f54204349444556205d325b2020206e4d202320646e65747845203b20202020394643312e2e38464331,
0x45564f4241204b43415420505520474e494e49424d4f432e2e544e4543434120455641524720444554544f4420474e494e49424d4f43205d34355b20206e4d202320646e65747845203b20202020354644312e2e30434431,
0x574f4c45422044414548574f525241204e574f4420444e412044414548574f52524120544847495220474e494e49424d4f432e2e4b52414d204e4f4954454c454420474e494e49424d4f43205d355b2020206e4d202320646e65747845203b20202020464644312e2e42464431,
0x52454e494f4a2d4e4f4e204854444957204f52455a202020202020206643202320646e65747845203b2020202020202020202043303032,
0x45564f42412053544f442052554f4620474e494e49424d4f432e2e45564f4241204e4f4f50524148205446454c20474e494e49424d4f43205d33315b20206e4d202320646e65747845203b20202020434430322e2e30443032,
0x4853414c534b43414220454c4352494320474e49534f4c434e4520474e494e49424d4f432e2e454c4352494320474e49534f4c434e4520474e494e49424d4f43205d345b202020654d202320646e65747845203b20202020304530322e2e44443032,
0x45564f424120574f525241205448474952205446454c20474e494e49424d4f43202020202020206e4d202320646e65747845203b2020202020202020202031453032,
0x454c474e4149525420474e49544e494f502044524157505520474e49534f4c434e4520474e494e49424d4f432e2e4e454552435320474e49534f4c434e4520474e494e49424d4f43205d335b202020654d202320646e65747845203b20202020344530322e2e32453032,
0x45564f4241204b5349524554534120474e494e49424d4f432e2e59414c5245564f20535544494c4f53204553524556455220474e494e49424d4f43205d32315b20206e4d202320646e65747845203b20202020304630322e2e35453032,
0x53494e454c20535554495249505320474e494e49424d4f4320434954504f432e2e45564f424120494e20474e494e49424d4f4320434954504f43205d335b2020206e4d202320646e65747845203b20202020314643322e2e46454332,
0x52454e494f4a20544e414e4f534e4f43204847414e49464954202020202020206e4d202320646e65747845203b2020202020202020202046374432,
0x53555920474942204445494649544f492052455454454c2043494c4c4952594320474e494e49424d4f432e2e45422052455454454c2043494c4c4952594320474e494e49424d4f43205d32335b20206e4d202320646e65747845203b20202020464644322e2e30454432]

/-- src/u5e/props/GraphemeBreakProperty.txt lines 257-512. -/
def rawGcb1 : List Nat := [
0x4b52414d20454e4f5420474e495245544e4520434948504152474f4544492e2e4b52414d20454e4f54204c4556454c20434948504152474f454449205d345b2020206e4d202320646e65747845203b20202020443230332e2e41323033,
0x4b52414d20454e4f5420544f4420454c42554f44204c55474e41482e2e4b52414d20454e4f5420544f4420454c474e4953204c55474e4148205d325b202020634d202320646e65747845203b20202020463230332e2e45323033,
0x4b52414d20444e554f5320444543494f562d494d455320414e4147415249482d414e414b4154414b20474e494e49424d4f432e2e4b52414d20444e554f5320444543494f5620414e4147415249482d414e414b4154414b20474e494e49424d4f43205d325b2020206e4d202320646e65747845203b20202020413930332e2e39393033,
0x54454d5a562043494c4c4952594320474e494e49424d4f43202020202020206e4d202320646e65747845203b2020202020202020202046363641,
0x4e47495320534e4f494c4c494d20444e4153554f48542043494c4c4952594320474e494e49424d4f432e2e4e47495320534e4f494c4c494d204e45542043494c4c4952594320474e494e49424d4f43205d335b202020654d202320646e65747845203b20202020323736412e2e30373641,
0x4b4f52455941502043494c4c4952594320474e494e49424d4f432e2e4549204e41494e4941524b552052455454454c2043494c4c4952594320474e494e49424d4f43205d30315b20206e4d202320646e65747845203b20202020443736412e2e34373641,
0x45204445494649544f492052455454454c2043494c4c4952594320474e494e49424d4f432e2e46452052455454454c2043494c4c4952594320474e494e49424d4f43205d325b2020206e4d202320646e65747845203b20202020463936412e2e45393641,
0x5349544e45574b5554204b52414d20474e494e49424d4f43204d554d41422e2e4e4f444e514f4b204b52414d20474e494e49424d4f43204d554d4142205d325b2020206e4d202320646e65747845203b20202020314636412e2e30463641,
0x4152415653495644204e47495320495247414e2049544f4c5953202020202020206e4d202320646e65747845203b2020202020202020202032303841,
0x41544e41534148204e47495320495247414e2049544f4c5953202020202020206e4d202320646e65747845203b2020202020202020202036303841,
0x4152415653554e41204e47495320495247414e2049544f4c5953202020202020206e4d202320646e65747845203b2020202020202020202042303841,
0x45204e474953204c45574f5620495247414e2049544f4c59532e2e55204e474953204c45574f5620495247414e2049544f4c5953205d325b2020206e4d202320646e65747845203b20202020363238412e2e35323841,
0x55444e49424152444e4143204e47495320415254485341525541532e2e414d41524956204e4749532041525448534152554153205d325b2020206e4d202320646e65747845203b20202020354338412e2e34433841,
0x4148415247415641204e4749532049524147414e4156454420474e494e49424d4f432e2e4f52455a2054494749442049524147414e4156454420474e494e49424d4f43205d38315b20206e4d202320646e65747845203b20202020314638412e2e30453841,
0x5548504f4c502041594c414320454e4f5420494c20484159414b2e2e4555204c45574f5620494c20484159414b205d385b2020206e4d202320646e65747845203b20202020443239412e2e36323941,
0x52204e47495320544e414e4f534e4f4320474e414a45522e2e49204e474953204c45574f5620474e414a4552205d31315b20206e4d202320646e65747845203b20202020313539412e2e37343941,
0x524159414c204e474953204553454e4156414a2e2e4147474e41594e4150204e474953204553454e4156414a205d335b2020206e4d202320646e65747845203b20202020323839412e2e30383941,
0x554c4554204b41434543204e474953204553454e4156414a202020202020206e4d202320646e65747845203b2020202020202020202033423941,
0x5455444e454d20554b5553204e474953204c45574f56204553454e4156414a2e2e554c5557204e474953204c45574f56204553454e4156414a205d345b2020206e4d202320646e65747845203b20202020394239412e2e36423941,
0x5445504550204e474953204c45574f56204553454e4156414a202020202020206e4d202320646e65747845203b2020202020202020202043423941,
0x574153204e414853204e4749532052414d4e41594d202020202020206e4d202320646e65747845203b2020202020202020202035453941,
0x454f204e474953204c45574f56204d4148432e2e4141204e474953204c45574f56204d414843205d365b2020206e4d202320646e65747845203b20202020453241412e2e39324141,
0x4555204e474953204c45574f56204d4148432e2e5541204e474953204c45574f56204d414843205d325b2020206e4d202320646e65747845203b20202020323341412e2e31334141,
0x4157204e47495320544e414e4f534e4f43204d4148432e2e414c204e47495320544e414e4f534e4f43204d414843205d325b2020206e4d202320646e65747845203b20202020363341412e2e35334141,
0x474e204c414e4946204e47495320544e414e4f534e4f43204d414843202020202020206e4d202320646e65747845203b2020202020202020202033344141,
0x4d204c414e4946204e47495320544e414e4f534e4f43204d414843202020202020206e4d202320646e65747845203b2020202020202020202043344141,
0x322d454e4f5420474e49414c20494154204e4749532052414d4e41594d202020202020206e4d202320646e65747845203b2020202020202020202043374141,
0x474e414b2049414d205445495620494154202020202020206e4d202320646e65747845203b2020202020202020202030424141,
0x55204c45574f562054454956204941542e2e49204c45574f56205445495620494154205d335b2020206e4d202320646e65747845203b20202020344241412e2e32424141,
0x4149204c45574f562054454956204941542e2e5449484b2049414d205445495620494154205d325b2020206e4d202320646e65747845203b20202020384241412e2e37424141,
0x4b452049414d20454e4f542054454956204941542e2e4d41204c45574f56205445495620494154205d325b2020206e4d202320646e65747845203b20202020464241412e2e45424141,
0x4f48542049414d20454e4f54205445495620494154202020202020206e4d202320646e65747845203b2020202020202020202031434141,
0x494141204e474953204c45574f56204b4559414d2049455445454d2e2e5555204e474953204c45574f56204b4559414d2049455445454d205d325b2020206e4d202320646e65747845203b20202020444541412e2e43454141,
0x414d41524956204b4559414d2049455445454d202020202020206e4d202320646e65747845203b2020202020202020202036464141,
0x50414e41204e474953204c45574f56204b4559414d2049455445454d202020202020206e4d202320646e65747845203b2020202020202020202035454241,
0x50414e55204e474953204c45574f56204b4559414d2049455445454d202020202020206e4d202320646e65747845203b2020202020202020202038454241,
0x4b455949204e555041204b4559414d2049455445454d202020202020206e4d202320646e65747845203b2020202020202020202044454241,
0x414b49524156204853494e4150532d4f4544554a20544e494f5020574552424548202020202020206e4d202320646e65747845203b2020202020202020202045314246,
0x36312d524f5443454c4553204e4f495441495241562e2e312d524f5443454c4553204e4f49544149524156205d36315b20206e4d202320646e65747845203b20202020463045462e2e30304546,
0x464c4148205448474952204f4c5449542043494c4c4952594320474e494e49424d4f432e2e464c4148205446454c20455255544147494c20474e494e49424d4f43205d36315b20206e4d202320646e65747845203b20202020463245462e2e30324546,
0x4b52414d20444e554f5320444543494f562d494d455320414e414b4154414b204854444957464c41482e2e4b52414d20444e554f5320444543494f5620414e414b4154414b204854444957464c4148205d325b2020206d4c202320646e65747845203b20202020463946462e2e45394646,
0x454b4f52545320455551494c424f20474e494e49424d4f43204e474953204353494420534f545349414850202020202020206e4d202320646e65747845203b2020202020202020204446313031,
0x4b52414d2053444e4153554f485420544341504520434954504f43202020202020206e4d202320646e65747845203b2020202020202020203045323031,
0x4949532052455454454c2043494d52455020444c4f20474e494e49424d4f432e2e4e412052455454454c2043494d52455020444c4f20474e494e49424d4f43205d355b2020206e4d202320646e65747845203b202041373330312e2e3637333031,
0x522043494c41434f56204e474953204c45574f562049485448534f5241484b2e2e49204e474953204c45574f562049485448534f5241484b205d335b2020206e4d202320646e65747845203b202033304130312e2e3130413031,
0x4f204e474953204c45574f562049485448534f5241484b2e2e45204e474953204c45574f562049485448534f5241484b205d325b2020206e4d202320646e65747845203b202036304130312e2e3530413031,
0x41475241534956204e4749532049485448534f5241484b2e2e4b52414d204854474e454c204c45574f562049485448534f5241484b205d345b2020206e4d202320646e65747845203b202046304130312e2e4330413031,
0x574f4c454220544f44204e4749532049485448534f5241484b2e2e45564f424120524142204e4749532049485448534f5241484b205d335b2020206e4d202320646e65747845203b202041334130312e2e3833413031,
0x414d415249562049485448534f5241484b202020202020206e4d202320646e65747845203b2020202020202020204633413031,
0x574f4c4542204b52414d204e4f49544149564552424241204e4145414843494e414d2e2e45564f4241204b52414d204e4f49544149564552424241204e4145414843494e414d205d325b2020206e4d202320646e65747845203b202036454130312e2e3545413031,
0x4152415653554e41204e47495320494d48415242202020202020206e4d202320646e65747845203b2020202020202020203130303131,
0x414d4152495620494d484152422e2e4141204e474953204c45574f5620494d48415242205d35315b20206e4d202320646e65747845203b202036343031312e2e3833303131,
0x4152415653554e41204e4749532049485449414b2e2e52454e494f4a205245424d554e20494d48415242205d335b2020206e4d202320646e65747845203b202031383031312e2e4637303131,
0x4941204e474953204c45574f562049485449414b2e2e55204e474953204c45574f562049485449414b205d345b2020206e4d202320646e65747845203b202036423031312e2e3342303131,
0x41544b554e204e4749532049485449414b2e2e414d41524956204e4749532049485449414b205d325b2020206e4d202320646e65747845203b202041423031312e2e3942303131,
0x41475241534956204e47495320414d4b4148432e2e55444e49424152444e4143204e47495320414d4b414843205d335b2020206e4d202320646e65747845203b202032303131312e2e3030313131,
0x5555204e474953204c45574f5620414d4b4148432e2e41204e474953204c45574f5620414d4b414843205d355b2020206e4d202320646e65747845203b202042323131312e2e3732313131,
0x4141595941414d20414d4b4148432e2e4941204e474953204c45574f5620414d4b414843205d385b2020206e4d202320646e65747845203b202034333131312e2e4432313131,
0x41544b554e204e47495320494e414a4148414d202020202020206e4d202320646e65747845203b2020202020202020203337313131,
0x4152415653554e41204e47495320414441524148532e2e55444e49424152444e4143204e4749532041444152414853205d325b2020206e4d202320646e65747845203b202031383131312e2e3038313131,
0x4f204e474953204c45574f5620414441524148532e2e55204e474953204c45574f562041444152414853205d395b2020206e4d202320646e65747845203b202045423131312e2e3642313131,
0x4b52414d204c45574f562054524f485320415254584520414441524148532e2e41544b554e204e4749532041444152414853205d335b2020206e4d202320646e65747845203b202043433131312e2e4143313131,
0x4941204e474953204c45574f5620494b4a4f484b2e2e55204e474953204c45574f5620494b4a4f484b205d335b2020206e4d202320646e65747845203b202031333231312e2e4632323131,
0x4152415653554e41204e47495320494b4a4f484b202020202020206e4d202320646e65747845203b2020202020202020203433323131,
0x414444414853204e47495320494b4a4f484b2e2e41544b554e204e47495320494b4a4f484b205d325b2020206e4d202320646e65747845203b202037333231312e2e3633323131,
0x4e554b5553204e47495320494b4a4f484b202020202020206e4d202320646e65747845203b2020202020202020204533323131,
0x4152415653554e41204e4749532049444157414455484b202020202020206e4d202320646e65747845203b2020202020202020204644323131,
0x414d41524956204e4749532049444157414455484b2e2e55204e474953204c45574f562049444157414455484b205d385b2020206e4d202320646e65747845203b202041453231312e2e3345323131,
0x55444e49424152444e4143204e474953204148544e4152472e2e45564f4241204152415653554e4120474e494e49424d4f43204e474953204148544e415247205d325b2020206e4d202320646e65747845203b202031303331312e2e3030333131,
0x41544b554e204e474953204148544e415247202020202020206e4d202320646e65747845203b2020202020202020204333333131,
0x4141204e474953204c45574f56204148544e41524720202020202020634d202320646e65747845203b2020202020202020204533333131,
0x4949204e474953204c45574f56204148544e415247202020202020206e4d202320646e65747845203b2020202020202020203034333131,
0x4b52414d204854474e454c205541204148544e41524720202020202020634d202320646e65747845203b2020202020202020203735333131,
0x584953205449474944204148544e41524720474e494e49424d4f432e2e4f52455a205449474944204148544e41524720474e494e49424d4f43205d375b2020206e4d202320646e65747845203b202043363331312e2e3636333131,
0x41502052455454454c204148544e41524720474e494e49424d4f432e2e412052455454454c204148544e41524720474e494e49424d4f43205d355b2020206e4d202320646e65747845203b202034373331312e2e3037333131,
0x4941204e474953204c45574f56204157454e2e2e55204e474953204c45574f56204157454e205d385b2020206e4d202320646e65747845203b202046333431312e2e3833343131,
0x4152415653554e41204e474953204157454e2e2e414d41524956204e474953204157454e205d335b2020206e4d202320646e65747845203b202034343431312e2e3234343131,
0x41544b554e204e474953204157454e202020202020206e4d202320646e65747845203b2020202020202020203634343131,
0x4141204e474953204c45574f56204154554852495420202020202020634d202320646e65747845203b2020202020202020203042343131,
0x4c4c2043494c41434f56204e474953204c45574f5620415455485249542e2e55204e474953204c45574f562041545548524954205d365b2020206e4d202320646e65747845203b202038423431312e2e3342343131,
0x452054524f4853204e474953204c45574f562041545548524954202020202020206e4d202320646e65747845203b2020202020202020204142343131,
0x4f2054524f4853204e474953204c45574f56204154554852495420202020202020634d202320646e65747845203b2020202020202020204442343131,
0x4152415653554e41204e47495320415455485249542e2e55444e49424152444e4143204e4749532041545548524954205d325b2020206e4d202320646e65747845203b202030433431312e2e4642343131,
0x41544b554e204e47495320415455485249542e2e414d41524956204e4749532041545548524954205d325b2020206e4d202320646e65747845203b202033433431312e2e3243343131,
0x4141204e474953204c45574f56204d41484444495320202020202020634d202320646e65747845203b2020202020202020204641353131,
0x52522043494c41434f56204e474953204c45574f56204d4148444449532e2e55204e474953204c45574f56204d414844444953205d345b2020206e4d202320646e65747845203b202035423531312e2e3242353131,
0x4152415653554e41204e474953204d4148444449532e2e55444e49424152444e4143204e474953204d414844444953205d325b2020206e4d202320646e65747845203b202044423531312e2e4342353131,
0x41544b554e204e474953204d4148444449532e2e414d41524956204e474953204d414844444953205d325b2020206e4d202320646e65747845203b202030433531312e2e4642353131,
0x5555204554414e5245544c41204e474953204c45574f56204d4148444449532e2e55204554414e5245544c41204e474953204c45574f56204d414844444953205d325b2020206e4d202320646e65747845203b202044443531312e2e4344353131,
0x4941204e474953204c45574f562049444f4d2e2e55204e474953204c45574f562049444f4d205d385b2020206e4d202320646e65747845203b202041333631312e2e3333363131,
0x4152415653554e41204e4749532049444f4d202020202020206e4d202320646e65747845203b2020202020202020204433363131,
0x4152444e41434148445241204e4749532049444f4d2e2e414d41524956204e4749532049444f4d205d325b2020206e4d202320646e65747845203b202030343631312e2e4633363131,
0x4152415653554e41204e4749532049524b4154202020202020206e4d202320646e65747845203b2020202020202020204241363131,
0x4141204e474953204c45574f562049524b4154202020202020206e4d202320646e65747845203b2020202020202020204441363131,
0x5541204e474953204c45574f562049524b41542e2e55204e474953204c45574f562049524b4154205d365b2020206e4d202320646e65747845203b202035423631312e2e3042363131,
0x41544b554e204e4749532049524b4154202020202020206e4d202320646e65747845203b2020202020202020203742363131,
0x415220474e49544147494c204c414944454d204e47495320544e414e4f534e4f43204d4f48412e2e414c204c414944454d204e47495320544e414e4f534e4f43204d4f4841205d335b2020206e4d202320646e65747845203b202046313731312e2e4431373131,
0x5555204e474953204c45574f56204d4f48412e2e49204e474953204c45574f56204d4f4841205d345b2020206e4d202320646e65747845203b202035323731312e2e3232373131,
0x52454c4c494b204e474953204d4f48412e2e5741204e474953204c45574f56204d4f4841205d355b2020206e4d202320646e65747845203b202042323731312e2e3732373131,
0x4c2043494c41434f56204e474953204c45574f5620494b55534b494148422e2e49204e474953204c45574f5620494b55534b49414842205d375b2020206e4d202320646e65747845203b202036334331312e2e3033433131,
0x4152415653554e41204e47495320494b55534b494148422e2e45204e474953204c45574f5620494b55534b49414842205d365b2020206e4d202320646e65747845203b202044334331312e2e3833433131,
0x414d41524956204e47495320494b55534b49414842202020202020206e4d202320646e65747845203b2020202020202020204633433131,
0x415a2052455454454c2044454e494f4a425553204e45484352414d2e2e414b2052455454454c2044454e494f4a425553204e45484352414d205d32325b20206e4d202320646e65747845203b202037414331312e2e3239433131,
0x4141204e474953204c45574f56204e45484352414d2e2e41522052455454454c2044454e494f4a425553204e45484352414d205d375b2020206e4d202320646e65747845203b202030424331312e2e4141433131,
0x45204e474953204c45574f56204e45484352414d2e2e55204e474953204c45574f56204e45484352414d205d325b2020206e4d202320646e65747845203b202033424331312e2e3242433131,
0x55444e49424152444e4143204e474953204e45484352414d2e2e4152415653554e41204e474953204e45484352414d205d325b2020206e4d202320646e65747845203b202036424331312e2e3542433131,
0x454e4f5420574f4c2d4847494820474e494e49424d4f43204841562041535341422e2e454e4f54204847494820474e494e49424d4f4320484156204153534142205d355b2020206e4d202320646e65747845203b202034464136312e2e3046413631,
0x4d554154204d4943204b52414d20474e4f4d48204857414841502e2e425554204d4943204b52414d20474e4f4d4820485741484150205d375b2020206e4d202320646e65747845203b202036334236312e2e3033423631,
0x574f4c454220454e4f54204f41494d2e2e544847495220454e4f54204f41494d205d345b2020206e4d202320646e65747845203b202032394636312e2e4638463631,
0x4b52414d20454c42554f44204e41594f4c5055442e2e524f5443454c45532052455454454c204b43494854204e41594f4c505544205d325b2020206e4d202320646e65747845203b202045394342312e2e4439434231,
0x4d45545320474e494e49424d4f43204c4f424d5953204c41434953554d20202020202020634d202320646e65747845203b2020202020202020203536314431,
0x332d4f4c4f4d45525420474e494e49424d4f43204c4f424d5953204c41434953554d2e2e312d4f4c4f4d45525420474e494e49424d4f43204c4f424d5953204c41434953554d205d335b2020206e4d202320646e65747845203b202039363144312e2e3736314431,
0x352d47414c4620474e494e49424d4f43204c4f424d5953204c41434953554d2e2e312d47414c4620474e494e49424d4f43204c4f424d5953204c41434953554d205d355b202020634d202320646e65747845203b202032373144312e2e4536314431,
0x4552554f4c20474e494e49424d4f43204c4f424d5953204c41434953554d2e2e544e4543434120474e494e49424d4f43204c4f424d5953204c41434953554d205d385b2020206e4d202320646e65747845203b202032383144312e2e4237314431,
0x4555474e4f5420454c5049525420474e494e49424d4f43204c4f424d5953204c41434953554d2e2e54494f4420474e494e49424d4f43204c4f424d5953204c41434953554d205d375b2020206e4d202320646e65747845203b202042383144312e2e3538314431,
0x4f544143495a5a49502050414e5320474e494e49424d4f43204c4f424d5953204c41434953554d2e2e574f42204e574f4420474e494e49424d4f43204c4f424d5953204c41434953554d205d345b2020206e4d202320646e65747845203b202044413144312e2e4141314431,
0x454d455341544e4550204c41434953554d204b4545524720474e494e49424d4f432e2e454d4553495254204c41434953554d204b4545524720474e494e49424d4f43205d335b2020206e4d202320646e65747845203b202034343244312e2e3234324431,
0x4e4920474e494b4355532052494120474e49544952574e4749532e2e4d4952204441454820474e49544952574e474953205d35355b20206e4d202320646e65747845203b202036334144312e2e3030414431,
0x544e454d45544943584520474e49544952574e4749532e2e4c41525455454e204445534f4c43204854554f4d20474e49544952574e474953205d30355b20206e4d202320646e65747845203b202043364144312e2e4233414431,
0x53544e494f4a20504948204d4f524620474e49544c49542059444f4220524550505520474e49544952574e474953202020202020206e4d202320646e65747845203b2020202020202020203537414431,
0x4b43454e2044414548204e4f495441434f4c20474e49544952574e474953202020202020206e4d202320646e65747845203b2020202020202020203438414431,
0x362d5245494649444f4d204c4c494620474e49544952574e4749532e2e322d5245494649444f4d204c4c494620474e49544952574e474953205d355b2020206e4d202320646e65747845203b202046394144312e2e4239414431,
0x36312d5245494649444f4d204e4f495441544f5220474e49544952574e4749532e2e322d5245494649444f4d204e4f495441544f5220474e49544952574e474953205d35315b20206e4d202320646e65747845203b202046414144312e2e3141414431,
0x4554455649485a2052455454454c20434954494c4f47414c4720474e494e49424d4f432e2e555a412052455454454c20434954494c4f47414c4720474e494e49424d4f43205d375b2020206e4d202320646e65747845203b202036303045312e2e3030304531,
0x555245482052455454454c20434954494c4f47414c4720474e494e49424d4f432e2e414a4c4d455a2052455454454c20434954494c4f47414c4720474e494e49424d4f43205d37315b20206e4d202320646e65747845203b202038313045312e2e3830304531,
0x495441592052455454454c20434954494c4f47414c4720474e494e49424d4f432e2e415448532052455454454c20434954494c4f47414c4720474e494e49424d4f43205d375b2020206e4d202320646e65747845203b202031323045312e2e4231304531,
0x535559204c4c414d532052455454454c20434954494c4f47414c4720474e494e49424d4f432e2e55592052455454454c20434954494c4f47414c4720474e494e49424d4f43205d325b2020206e4d202320646e65747845203b202034323045312e2e3332304531,
0x415449462052455454454c20434954494c4f47414c4720474e494e49424d4f432e2e4f592052455454454c20434954494c4f47414c4720474e494e49424d4f43205d355b2020206e4d202320646e65747845203b202041323045312e2e3632304531,
0x534e4f494c4c494d205245424d554e20474e494e49424d4f432049554b414b494b2045444e454d2e2e534e454554205245424d554e20474e494e49424d4f432049554b414b494b2045444e454d205d375b2020206e4d202320646e65747845203b202036443845312e2e3044384531,
0x41544b554e204d414c44412e2e52454e454854474e454c2046494c41204d414c4441205d375b2020206e4d202320646e65747845203b202041343945312e2e3434394531,
0x474154204c45434e41432e2e454341505320474154205d36395b20206643202320646e65747845203b202046373030452e2e3032303045,
0x3635322d524f5443454c4553204e4f495441495241562e2e37312d524f5443454c4553204e4f49544149524156205d3034325b206e4d202320646e65747845203b202046453130452e2e3030313045,
0x0,
0x38323831203a73746e696f702065646f63206c61746f542023,
0x0,
0x3d3d3d3d3d3d3d3d3d3d3d3d3d3d3d3d3d3d3d3d3d3d3d3d3d3d3d3d3d3d3d3d3d3d3d3d3d3d3d3d3d3d3d3d3d3d3d3d2023,
0x0,
0x5a2052455454454c204c4f424d595320524f54414349444e49204c414e4f494745522e2e412052455454454c204c4f424d595320524f54414349444e49204c414e4f49474552205d36325b20206f53202320726f74616369646e495f6c616e6f69676552203b202046463146312e2e3645314631,
0x0,
0x3632203a73746e696f702065646f63206c61746f542023,
0x0,
0x3d3d3d3d3d3d3d3d3d3d3d3d3d3d3d3d3d3d3d3d3d3d3d3d3d3d3d3d3d3d3d3d3d3d3d3d3d3d3d3d3d3d3d3d3d3d3d3d2023,
0x0,
0x41475241534956204e4749532049524147414e4156454420202020202020634d2023206b72614d676e6963617053203b2020202020202020202033303930,
0x454f4f204e474953204c45574f562049524147414e4156454420202020202020634d2023206b72614d676e6963617053203b2020202020202020202042333930,
0x4949204e474953204c45574f562049524147414e415645442e2e4141204e474953204c45574f562049524147414e41564544205d335b202020634d2023206b72614d676e6963617053203b20202020303439302e2e45333930,
0x5541204e474953204c45574f562049524147414e415645442e2e4f204152444e4143204e474953204c45574f562049524147414e41564544205d345b202020634d2023206b72614d676e6963617053203b20202020433439302e2e39343930,
0x5741204e474953204c45574f562049524147414e415645442e2e4520415254414d4148544853495250204e474953204c45574f562049524147414e41564544205d325b202020634d2023206b72614d676e6963617053203b20202020463439302e2e45343930,
0x41475241534956204e47495320494c41474e45422e2e4152415653554e41204e47495320494c41474e4542205d325b202020634d2023206b72614d676e6963617053203b20202020333839302e2e32383930,
0x4949204e474953204c45574f5620494c41474e45422e2e49204e474953204c45574f5620494c41474e4542205d325b202020634d2023206b72614d676e6963617053203b20202020304339302e2e46423930,
0x4941204e474953204c45574f5620494c41474e45422e2e45204e474953204c45574f5620494c41474e4542205d325b202020634d2023206b72614d676e6963617053203b20202020384339302e2e37433930,
0x5541204e474953204c45574f5620494c41474e45422e2e4f204e474953204c45574f5620494c41474e4542205d325b202020634d2023206b72614d676e6963617053203b20202020434339302e2e42433930,
0x41475241534956204e4749532049484b554d52554720202020202020634d2023206b72614d676e6963617053203b2020202020202020202033304130,
0x4949204e474953204c45574f562049484b554d5255472e2e4141204e474953204c45574f562049484b554d525547205d335b202020634d2023206b72614d676e6963617053203b20202020303441302e2e45334130,
0x41475241534956204e4749532049544152414a554720202020202020634d2023206b72614d676e6963617053203b2020202020202020202033384130,
0x4949204e474953204c45574f562049544152414a55472e2e4141204e474953204c45574f562049544152414a5547205d335b202020634d2023206b72614d676e6963617053203b20202020304341302e2e45424130,
0x4f204152444e4143204e474953204c45574f562049544152414a554720202020202020634d2023206b72614d676e6963617053203b2020202020202020202039434130,
0x5541204e474953204c45574f562049544152414a55472e2e4f204e474953204c45574f562049544152414a5547205d325b202020634d2023206b72614d676e6963617053203b20202020434341302e2e42434130,
0x41475241534956204e47495320415949524f2e2e4152415653554e41204e47495320415949524f205d325b202020634d2023206b72614d676e6963617053203b20202020333042302e2e32304230,
0x4949204e474953204c45574f5620415949524f20202020202020634d2023206b72614d676e6963617053203b2020202020202020202030344230,
0x4941204e474953204c45574f5620415949524f2e2e45204e474953204c45574f5620415949524f205d325b202020634d2023206b72614d676e6963617053203b20202020383442302e2e37344230,
0x5541204e474953204c45574f5620415949524f2e2e4f204e474953204c45574f5620415949524f205d325b202020634d2023206b72614d676e6963617053203b20202020433442302e2e42344230,
0x49204e474953204c45574f56204c494d415420202020202020634d2023206b72614d676e6963617053203b2020202020202020202046424230,
0x5555204e474953204c45574f56204c494d41542e2e55204e474953204c45574f56204c494d4154205d325b202020634d2023206b72614d676e6963617053203b20202020324342302e2e31434230,
0x4941204e474953204c45574f56204c494d41542e2e45204e474953204c45574f56204c494d4154205d335b202020634d2023206b72614d676e6963617053203b20202020384342302e2e36434230,
0x5541204e474953204c45574f56204c494d41542e2e4f204e474953204c45574f56204c494d4154205d335b202020634d2023206b72614d676e6963617053203b20202020434342302e2e41434230,
0x41475241534956204e474953205547554c45542e2e55444e49424152444e4143204e474953205547554c4554205d335b202020634d2023206b72614d676e6963617053203b20202020333043302e2e31304330,
0x52522043494c41434f56204e474953204c45574f56205547554c45542e2e55204e474953204c45574f56205547554c4554205d345b202020634d2023206b72614d676e6963617053203b20202020343443302e2e31344330,
0x41475241534956204e474953204144414e4e414b2e2e4152415653554e41204e474953204144414e4e414b205d325b202020634d2023206b72614d676e6963617053203b20202020333843302e2e32384330,
0x4141204e474953204c45574f56204144414e4e414b20202020202020634d2023206b72614d676e6963617053203b2020202020202020202045424330,
0x55204e474953204c45574f56204144414e4e414b2e2e4949204e474953204c45574f56204144414e4e414b205d325b202020634d2023206b72614d676e6963617053203b20202020314343302e2e30434330,
0x52522043494c41434f56204e474953204c45574f56204144414e4e414b2e2e522043494c41434f56204e474953204c45574f56204144414e4e414b205d325b202020634d2023206b72614d676e6963617053203b20202020344343302e2e33434330,
0x4941204e474953204c45574f56204144414e4e414b2e2e4545204e474953204c45574f56204144414e4e414b205d325b202020634d2023206b72614d676e6963617053203b20202020384343302e2e37434330,
0x4f4f204e474953204c45574f56204144414e4e414b2e2e4f204e474953204c45574f56204144414e4e414b205d325b202020634d2023206b72614d676e6963617053203b20202020424343302e2e41434330,
0x41475241534956204e474953204d414c4159414c414d2e2e4152415653554e41204e474953204d414c4159414c414d205d325b202020634d2023206b72614d676e6963617053203b20202020333044302e2e32304430,
0x4949204e474953204c45574f56204d414c4159414c414d2e2e49204e474953204c45574f56204d414c4159414c414d205d325b202020634d2023206b72614d676e6963617053203b20202020303444302e2e46334430,
0x4941204e474953204c45574f56204d414c4159414c414d2e2e45204e474953204c45574f56204d414c4159414c414d205d335b202020634d2023206b72614d676e6963617053203b20202020383444302e2e36344430,
0x5541204e474953204c45574f56204d414c4159414c414d2e2e4f204e474953204c45574f56204d414c4159414c414d205d335b202020634d2023206b72614d676e6963617053203b20202020433444302e2e41344430,
0x415941475241534956204e47495320414c41484e49532e2e41594152415653554e41204e47495320414c41484e4953205d325b202020634d2023206b72614d676e6963617053203b20202020333844302e2e32384430,
0x414c4c49502d414445412041474944204e474953204c45574f5620414c41484e49532e2e414c4c49502d4144454120495454454b204e474953204c45574f5620414c41484e4953205d325b202020634d2023206b72614d676e6963617053203b20202020314444302e2e30444430,
0x415454494b554e415941472041414820415655424d4f4b204e474953204c45574f5620414c41484e49532e2e414c4c49502d415454454147204e474953204c45574f5620414c41484e4953205d375b202020634d2023206b72614d676e6963617053203b20202020454444302e2e38444430,
0x415454494b554e415941472041474944204e474953204c45574f5620414c41484e49532e2e414c4c49502d4154544541472041474944204e474953204c45574f5620414c41484e4953205d325b202020634d2023206b72614d676e6963617053203b20202020334644302e2e32464430,
0x4d412041524153205245544341524148432049414854202020202020206f4c2023206b72614d676e6963617053203b2020202020202020202033334530,
0x4d41204e474953204c45574f56204f414c202020202020206f4c2023206b72614d676e6963617053203b2020202020202020202033424530,
0x53454853542052414d204e474953204e4154454249542e2e534548535420524159204e474953204e415445424954205d325b202020634d2023206b72614d676e6963617053203b20202020463346302e2e45334630,
0x44414342204d414e52204e474953204e41544542495420202020202020634d2023206b72614d676e6963617053203b2020202020202020202046374630,
0x45204e474953204c45574f562052414d4e41594d20202020202020634d2023206b72614d676e6963617053203b2020202020202020202031333031,
0x4152204c414944454d204e47495320544e414e4f534e4f432052414d4e41594d2e2e4159204c414944454d204e47495320544e414e4f534e4f432052414d4e41594d205d325b202020634d2023206b72614d676e6963617053203b20202020433330312e2e42333031,
0x52522043494c41434f56204e474953204c45574f562052414d4e41594d2e2e522043494c41434f56204e474953204c45574f562052414d4e41594d205d325b202020634d2023206b72614d676e6963617053203b20202020373530312e2e36353031,
0x45204e414853204e474953204c45574f562052414d4e41594d20202020202020634d2023206b72614d676e6963617053203b2020202020202020202034383031,
0x4141204e474953204c45574f562052454d484b20202020202020634d2023206b72614d676e6963617053203b2020202020202020202036423731,
0x5541204e474953204c45574f562052454d484b2e2e454f204e474953204c45574f562052454d484b205d385b202020634d2023206b72614d676e6963617053203b20202020354337312e2e45423731,
0x55544e495041454c414b555559204e4749532052454d484b2e2e4b554d48414552204e4749532052454d484b205d325b202020634d2023206b72614d676e6963617053203b20202020384337312e2e37433731,
0x5541204e474953204c45574f562055424d494c2e2e4545204e474953204c45574f562055424d494c205d345b202020634d2023206b72614d676e6963617053203b20202020363239312e2e33323931,
0x41572052455454454c2044454e494f4a4255532055424d494c2e2e41592052455454454c2044454e494f4a4255532055424d494c205d335b202020634d2023206b72614d676e6963617053203b20202020423239312e2e39323931,
0x41474e2052455454454c204c4c414d532055424d494c2e2e414b2052455454454c204c4c414d532055424d494c205d325b202020634d2023206b72614d676e6963617053203b20202020313339312e2e30333931,
0x414c2052455454454c204c4c414d532055424d494c2e2e41542052455454454c204c4c414d532055424d494c205d365b202020634d2023206b72614d676e6963617053203b20202020383339312e2e33333931,
0x4f204e474953204c45574f56204553454e494755422e2e45204e474953204c45574f56204553454e49475542205d325b202020634d2023206b72614d676e6963617053203b20202020413141312e2e39314131,
0x4152204c414944454d204e47495320544e414e4f534e4f43204d4148542049415420202020202020634d2023206b72614d676e6963617053203b2020202020202020202035354131,
0x49414c20474e415420414c204e47495320544e414e4f534e4f43204d4148542049415420202020202020634d2023206b72614d676e6963617053203b2020202020202020202037354131,
0x4941204d414854204e474953204c45574f56204d414854204941542e2e594f204e474953204c45574f56204d41485420494154205d365b202020634d2023206b72614d676e6963617053203b20202020323741312e2e44364131,
0x4841534942204e474953204553454e494c414220202020202020634d2023206b72614d676e6963617053203b2020202020202020202034304231,
0x474e55444554204e474953204c45574f56204553454e494c414220202020202020634d2023206b72614d676e6963617053203b2020202020202020202035334231,
0x474e554445542041504552204152204e474953204c45574f56204553454e494c414220202020202020634d2023206b72614d676e6963617053203b2020202020202020202042334231,
0x474e55444554204150455220474e494c4154204e474953204c45574f56204553454e494c41422e2e474e554445542041474e454c20414c204e474953204c45574f56204553454e494c4142205d355b202020634d2023206b72614d676e6963617053203b20202020313442312e2e44334231,
0x474544412047454441204553454e494c41422e2e474e55444554205445504550204e474953204c45574f56204553454e494c4142205d325b202020634d2023206b72614d676e6963617053203b20202020343442312e2e33344231,
0x4441534957474e4150204e474953204553454e41444e555320202020202020634d2023206b72614d676e6963617053203b2020202020202020202032384231,
0x4c414b474e494d4150204e47495320544e414e4f534e4f43204553454e41444e555320202020202020634d2023206b72614d676e6963617053203b2020202020202020202031414231,
0x474e4f4c4f4e4150204e474953204c45574f56204553454e41444e55532e2e474e45414c45414e4150204e474953204c45574f56204553454e41444e5553205d325b202020634d2023206b72614d676e6963617053203b20202020374142312e2e36414231,
0x484541414d4150204e474953204553454e41444e555320202020202020634d2023206b72614d676e6963617053203b2020202020202020202041414231,
0x45204e474953204c45574f56204b4154414220202020202020634d2023206b72614d676e6963617053203b2020202020202020202037454231,
0x4f204e474953204c45574f56204b415441422e2e49204e474953204c45574f56204b41544142205d335b202020634d2023206b72614d676e6963617053203b20202020434542312e2e41454231,
0x55204e474953204c45574f56204b4154414220202020202020634d2023206b72614d676e6963617053203b2020202020202020202045454231,
0x4e414e4f474e4f4e4150204b415441422e2e54414c4f474e4150204b41544142205d325b202020634d2023206b72614d676e6963617053203b20202020334642312e2e32464231,
0x5555204e474953204c45574f562041484350454c2e2e41592052455454454c2044454e494f4a4255532041484350454c205d385b202020634d2023206b72614d676e6963617053203b20202020423243312e2e34324331,
0x474e414b204e47495320544e414e4f534e4f432041484350454c2e2e4f442d4e49594e204e47495320544e414e4f534e4f432041484350454c205d325b202020634d2023206b72614d676e6963617053203b20202020353343312e2e34334331,
0x4154495241565320544e45444e455045444e492043494445564156524148544120454e4f5420434944455620202020202020634d2023206b72614d676e6963617053203b2020202020202020202031454331,
0x4147524153495641484452412044455441544f52204e4749532043494445562e2e414752415349564148445241204e474953204349444556205d325b202020634d2023206b72614d676e6963617053203b20202020334643312e2e32464331,
0x49204e474953204c45574f5620495247414e2049544f4c59532e2e41204e474953204c45574f5620495247414e2049544f4c5953205d325b202020634d2023206b72614d676e6963617053203b20202020343238412e2e33323841,
0x4f4f204e474953204c45574f5620495247414e2049544f4c595320202020202020634d2023206b72614d676e6963617053203b2020202020202020202037323841,
0x41475241534956204e47495320415254485341525541532e2e4152415653554e41204e4749532041525448534152554153205d325b202020634d2023206b72614d676e6963617053203b20202020313838412e2e30383841,
0x5541204e474953204c45574f5620415254485341525541532e2e5552414148204e47495320544e414e4f534e4f432041525448534152554153205d36315b2020634d2023206b72614d676e6963617053203b20202020334338412e2e34423841,
0x414d4152495620474e414a45522e2e48204e47495320544e414e4f534e4f4320474e414a4552205d325b202020634d2023206b72614d676e6963617053203b20202020333539412e2e32353941,
0x4e41594e474957204e474953204553454e4156414a20202020202020634d2023206b72614d676e6963617053203b2020202020202020202033383941,
0x474e4f4c4f54204e474953204c45574f56204553454e4156414a2e2e474e55524154204e474953204c45574f56204553454e4156414a205d325b202020634d2023206b72614d676e6963617053203b20202020354239412e2e34423941,
0x4552554d204147524944204e474953204c45574f56204553454e4156414a2e2e474e494c4154204e474953204c45574f56204553454e4156414a205d325b202020634d2023206b72614d676e6963617053203b20202020424239412e2e41423941,
0x4e4f4b474e4150204553454e4156414a2e2e544552454b204e47495320544e414e4f534e4f43204553454e4156414a205d345b202020634d2023206b72614d676e6963617053203b20202020304339412e2e44423941,
0x4941204e474953204c45574f56204d4148432e2e4f204e474953204c45574f56204d414843205d325b202020634d2023206b72614d676e6963617053203b20202020303341412e2e46324141,
0x4152204e47495320544e414e4f534e4f43204d4148432e2e4159204e47495320544e414e4f534e4f43204d414843205d325b202020634d2023206b72614d676e6963617053203b20202020343341412e2e33334141,
0x48204c414e4946204e47495320544e414e4f534e4f43204d41484320202020202020634d2023206b72614d676e6963617053203b2020202020202020202044344141,
0x4949204e474953204c45574f56204b4559414d2049455445454d20202020202020634d2023206b72614d676e6963617053203b2020202020202020202042454141,
0x554141204e474953204c45574f56204b4559414d2049455445454d2e2e5541204e474953204c45574f56204b4559414d2049455445454d205d325b202020634d2023206b72614d676e6963617053203b20202020464541412e2e45454141,
0x41475241534956204e474953204c45574f56204b4559414d2049455445454d20202020202020634d2023206b72614d676e6963617053203b2020202020202020202035464141,
0x50414e49204e474953204c45574f56204b4559414d2049455445454d2e2e50414e4f204e474953204c45574f56204b4559414d2049455445454d205d325b202020634d2023206b72614d676e6963617053203b20202020344542412e2e33454241,
0x50414e554f53204e474953204c45574f56204b4559414d2049455445454d2e2e50414e4559204e474953204c45574f56204b4559414d2049455445454d205d325b202020634d2023206b72614d676e6963617053203b20202020374542412e2e36454241,
0x474e554e204e474953204c45574f56204b4559414d2049455445454d2e2e50414e49454843204e474953204c45574f56204b4559414d2049455445454d205d325b202020634d2023206b72614d676e6963617053203b20202020414542412e2e39454241,
0x4b455949204d554c204b4559414d2049455445454d20202020202020634d2023206b72614d676e6963617053203b2020202020202020202043454241,
0x55444e49424152444e4143204e47495320494d4841524220202020202020634d2023206b72614d676e6963617053203b2020202020202020203030303131,
0x41475241534956204e47495320494d4841524220202020202020634d2023206b72614d676e6963617053203b2020202020202020203230303131,
0x41475241534956204e4749532049485449414b20202020202020634d2023206b72614d676e6963617053203b2020202020202020203238303131,
0x4949204e474953204c45574f562049485449414b2e2e4141204e474953204c45574f562049485449414b205d335b202020634d2023206b72614d676e6963617053203b202032423031312e2e3042303131,
0x5541204e474953204c45574f562049485449414b2e2e4f204e474953204c45574f562049485449414b205d325b202020634d2023206b72614d676e6963617053203b202038423031312e2e3742303131,
0x45204e474953204c45574f5620414d4b41484320202020202020634d2023206b72614d676e6963617053203b2020202020202020204332313131,
0x41475241534956204e474953204144415241485320202020202020634d2023206b72614d676e6963617053203b2020202020202020203238313131,
0x4949204e474953204c45574f5620414441524148532e2e4141204e474953204c45574f562041444152414853205d335b202020634d2023206b72614d676e6963617053203b202035423131312e2e3342313131,
0x414d41524956204e47495320414441524148532e2e5541204e474953204c45574f562041444152414853205d325b202020634d2023206b72614d676e6963617053203b202030433131312e2e4642313131,
0x4949204e474953204c45574f5620494b4a4f484b2e2e4141204e474953204c45574f5620494b4a4f484b205d335b202020634d2023206b72614d676e6963617053203b202045323231312e2e4332323131,
0x5541204e474953204c45574f5620494b4a4f484b2e2e4f204e474953204c45574f5620494b4a4f484b205d325b202020634d2023206b72614d676e6963617053203b202033333231312e2e3233323131,
0x414d41524956204e47495320494b4a4f484b20202020202020634d2023206b72614d676e6963617053203b2020202020202020203533323131,
0x4949204e474953204c45574f562049444157414455484b2e2e4141204e474953204c45574f562049444157414455484b205d335b202020634d2023206b72614d676e6963617053203b202032453231312e2e3045323131,
0x41475241534956204e474953204148544e4152472e2e4152415653554e41204e474953204148544e415247205d325b202020634d2023206b72614d676e6963617053203b202033303331312e2e3230333131,
0x49204e474953204c45574f56204148544e41524720202020202020634d2023206b72614d676e6963617053203b2020202020202020204633333131,
0x52522043494c41434f56204e474953204c45574f56204148544e4152472e2e55204e474953204c45574f56204148544e415247205d345b202020634d2023206b72614d676e6963617053203b202034343331312e2e3134333131,
0x4941204e474953204c45574f56204148544e4152472e2e4545204e474953204c45574f56204148544e415247205d325b202020634d2023206b72614d676e6963617053203b202038343331312e2e3734333131,
0x414d41524956204e474953204148544e4152472e2e4f4f204e474953204c45574f56204148544e415247205d335b202020634d2023206b72614d676e6963617053203b202044343331312e2e4234333131,
0x4c4c2043494c41434f56204e474953204c45574f56204148544e4152472e2e4c2043494c41434f56204e474953204c45574f56204148544e415247205d325b202020634d2023206b72614d676e6963617053203b202033363331312e2e3236333131]

/-- src/u5e/props/GraphemeBreakProperty.txt lines 513-768. -/
def rawGcb2 : List Nat := [
0x4949204e474953204c45574f56204157454e2e2e4141204e474953204c45574f56204157454e205d335b202020634d2023206b72614d676e6963617053203b202037333431312e2e3533343131,
0x5541204e474953204c45574f56204157454e2e2e4f204e474953204c45574f56204157454e205d325b202020634d2023206b72614d676e6963617053203b202031343431312e2e3034343131,
0x41475241534956204e474953204157454e20202020202020634d2023206b72614d676e6963617053203b2020202020202020203534343131,
0x4949204e474953204c45574f5620415455485249542e2e49204e474953204c45574f562041545548524954205d325b202020634d2023206b72614d676e6963617053203b202032423431312e2e3142343131,
0x45204e474953204c45574f56204154554852495420202020202020634d2023206b72614d676e6963617053203b2020202020202020203942343131,
0x4f204e474953204c45574f5620415455485249542e2e4941204e474953204c45574f562041545548524954205d325b202020634d2023206b72614d676e6963617053203b202043423431312e2e4242343131,
0x5541204e474953204c45574f56204154554852495420202020202020634d2023206b72614d676e6963617053203b2020202020202020204542343131,
0x41475241534956204e474953204154554852495420202020202020634d2023206b72614d676e6963617053203b2020202020202020203143343131,
0x4949204e474953204c45574f56204d4148444449532e2e49204e474953204c45574f56204d414844444953205d325b202020634d2023206b72614d676e6963617053203b202031423531312e2e3042353131,
0x5541204e474953204c45574f56204d4148444449532e2e45204e474953204c45574f56204d414844444953205d345b202020634d2023206b72614d676e6963617053203b202042423531312e2e3842353131,
0x41475241534956204e474953204d41484444495320202020202020634d2023206b72614d676e6963617053203b2020202020202020204542353131,
0x4949204e474953204c45574f562049444f4d2e2e4141204e474953204c45574f562049444f4d205d335b202020634d2023206b72614d676e6963617053203b202032333631312e2e3033363131,
0x5541204e474953204c45574f562049444f4d2e2e4f204e474953204c45574f562049444f4d205d325b202020634d2023206b72614d676e6963617053203b202043333631312e2e4233363131,
0x41475241534956204e4749532049444f4d20202020202020634d2023206b72614d676e6963617053203b2020202020202020204533363131,
0x41475241534956204e4749532049524b415420202020202020634d2023206b72614d676e6963617053203b2020202020202020204341363131,
0x4949204e474953204c45574f562049524b41542e2e49204e474953204c45574f562049524b4154205d325b202020634d2023206b72614d676e6963617053203b202046413631312e2e4541363131,
0x414d41524956204e4749532049524b415420202020202020634d2023206b72614d676e6963617053203b2020202020202020203642363131,
0x4141204e474953204c45574f56204d4f48412e2e41204e474953204c45574f56204d4f4841205d325b202020634d2023206b72614d676e6963617053203b202031323731312e2e3032373131,
0x45204e474953204c45574f56204d4f484120202020202020634d2023206b72614d676e6963617053203b2020202020202020203632373131,
0x4141204e474953204c45574f5620494b55534b4941484220202020202020634d2023206b72614d676e6963617053203b2020202020202020204632433131,
0x41475241534956204e47495320494b55534b4941484220202020202020634d2023206b72614d676e6963617053203b2020202020202020204533433131,
0x41592052455454454c2044454e494f4a425553204e45484352414d20202020202020634d2023206b72614d676e6963617053203b2020202020202020203941433131,
0x49204e474953204c45574f56204e45484352414d20202020202020634d2023206b72614d676e6963617053203b2020202020202020203142433131,
0x4f204e474953204c45574f56204e45484352414d20202020202020634d2023206b72614d676e6963617053203b2020202020202020203442433131,
0x474e204e474953204c45574f56204f41494d2e2e4e4f4954415249505341204e474953204f41494d205d36345b2020634d2023206b72614d676e6963617053203b202045374636312e2e3135463631,
0x4d45545320474e4153454748434552505320474e494e49424d4f43204c4f424d5953204c41434953554d20202020202020634d2023206b72614d676e6963617053203b2020202020202020203636314431,
0x544f44204e4f495441544e454d47554120474e494e49424d4f43204c4f424d5953204c41434953554d20202020202020634d2023206b72614d676e6963617053203b2020202020202020204436314431,
0x0,
0x313433203a73746e696f702065646f63206c61746f542023,
0x0,
0x3d3d3d3d3d3d3d3d3d3d3d3d3d3d3d3d3d3d3d3d3d3d3d3d3d3d3d3d3d3d3d3d3d3d3d3d3d3d3d3d3d3d3d3d3d3d3d3d2023,
0x0,
0x52454c4c494620474e4f45534f4843204c55474e41482e2e4b4f4559494b20474e4f45534f4843204c55474e4148205d36395b20206f4c2023204c203b20202020463531312e2e30303131,
0x48554549484e49524f4559474e41535320474e4f45534f4843204c55474e41482e2e4d5545494d2d5455454b495420474e4f45534f4843204c55474e4148205d39325b20206f4c2023204c203b20202020433739412e2e30363941,
0x0,
0x353231203a73746e696f702065646f63206c61746f542023,
0x0,
0x3d3d3d3d3d3d3d3d3d3d3d3d3d3d3d3d3d3d3d3d3d3d3d3d3d3d3d3d3d3d3d3d3d3d3d3d3d3d3d3d3d3d3d3d3d3d3d3d2023,
0x0,
0x4541592d4f20474e4f4553474e554a204c55474e41482e2e52454c4c494620474e4f4553474e554a204c55474e4148205d32375b20206f4c20232056203b20202020374131312e2e30363131,
0x452d414541524120474e4f4553474e554a204c55474e41482e2e4f45592d4f20474e4f4553474e554a204c55474e4148205d33325b20206f4c20232056203b20202020364337442e2e30423744,
0x0,
0x3539203a73746e696f702065646f63206c61746f542023,
0x0,
0x3d3d3d3d3d3d3d3d3d3d3d3d3d3d3d3d3d3d3d3d3d3d3d3d3d3d3d3d3d3d3d3d3d3d3d3d3d3d3d3d3d3d3d3d3d3d3d3d2023,
0x0,
0x4e5545494e474e41535320474e4f4553474e4f4a204c55474e41482e2e4b4f4559494b20474e4f4553474e4f4a204c55474e4148205d38385b20206f4c20232054203b20202020464631312e2e38413131,
0x485455454948542d4850554549485020474e4f4553474e4f4a204c55474e41482e2e4c554549522d4e5545494e20474e4f4553474e4f4a204c55474e4148205d39345b20206f4c20232054203b20202020424637442e2e42433744,
0x0,
0x373331203a73746e696f702065646f63206c61746f542023,
0x0,
0x3d3d3d3d3d3d3d3d3d3d3d3d3d3d3d3d3d3d3d3d3d3d3d3d3d3d3d3d3d3d3d3d3d3d3d3d3d3d3d3d3d3d3d3d3d3d3d3d2023,
0x0,
0x414720454c42414c4c5953204c55474e4148202020202020206f4c202320564c203b2020202020202020202030304341,
0x45414720454c42414c4c5953204c55474e4148202020202020206f4c202320564c203b2020202020202020202043314341,
0x41594720454c42414c4c5953204c55474e4148202020202020206f4c202320564c203b2020202020202020202038334341,
0x4541594720454c42414c4c5953204c55474e4148202020202020206f4c202320564c203b2020202020202020202034354341,
0x4f454720454c42414c4c5953204c55474e4148202020202020206f4c202320564c203b2020202020202020202030374341,
0x454720454c42414c4c5953204c55474e4148202020202020206f4c202320564c203b2020202020202020202043384341,
0x4f45594720454c42414c4c5953204c55474e4148202020202020206f4c202320564c203b2020202020202020202038414341,
0x45594720454c42414c4c5953204c55474e4148202020202020206f4c202320564c203b2020202020202020202034434341,
0x4f4720454c42414c4c5953204c55474e4148202020202020206f4c202320564c203b2020202020202020202030454341,
0x41574720454c42414c4c5953204c55474e4148202020202020206f4c202320564c203b2020202020202020202043464341,
0x4541574720454c42414c4c5953204c55474e4148202020202020206f4c202320564c203b2020202020202020202038314441,
0x454f4720454c42414c4c5953204c55474e4148202020202020206f4c202320564c203b2020202020202020202034334441,
0x4f594720454c42414c4c5953204c55474e4148202020202020206f4c202320564c203b2020202020202020202030354441,
0x554720454c42414c4c5953204c55474e4148202020202020206f4c202320564c203b2020202020202020202043364441,
0x4f45574720454c42414c4c5953204c55474e4148202020202020206f4c202320564c203b2020202020202020202038384441,
0x45574720454c42414c4c5953204c55474e4148202020202020206f4c202320564c203b2020202020202020202034414441,
0x49574720454c42414c4c5953204c55474e4148202020202020206f4c202320564c203b2020202020202020202030434441,
0x55594720454c42414c4c5953204c55474e4148202020202020206f4c202320564c203b2020202020202020202043444441,
0x55454720454c42414c4c5953204c55474e4148202020202020206f4c202320564c203b2020202020202020202038464441,
0x49594720454c42414c4c5953204c55474e4148202020202020206f4c202320564c203b2020202020202020202034314541,
0x494720454c42414c4c5953204c55474e4148202020202020206f4c202320564c203b2020202020202020202030334541,
0x41474720454c42414c4c5953204c55474e4148202020202020206f4c202320564c203b2020202020202020202043344541,
0x4541474720454c42414c4c5953204c55474e4148202020202020206f4c202320564c203b2020202020202020202038364541,
0x4159474720454c42414c4c5953204c55474e4148202020202020206f4c202320564c203b2020202020202020202034384541,
0x454159474720454c42414c4c5953204c55474e4148202020202020206f4c202320564c203b2020202020202020202030414541,
0x4f45474720454c42414c4c5953204c55474e4148202020202020206f4c202320564c203b2020202020202020202043424541,
0x45474720454c42414c4c5953204c55474e4148202020202020206f4c202320564c203b2020202020202020202038444541,
0x4f4559474720454c42414c4c5953204c55474e4148202020202020206f4c202320564c203b2020202020202020202034464541,
0x4559474720454c42414c4c5953204c55474e4148202020202020206f4c202320564c203b2020202020202020202030314641,
0x4f474720454c42414c4c5953204c55474e4148202020202020206f4c202320564c203b2020202020202020202043324641,
0x4157474720454c42414c4c5953204c55474e4148202020202020206f4c202320564c203b2020202020202020202038344641,
0x454157474720454c42414c4c5953204c55474e4148202020202020206f4c202320564c203b2020202020202020202034364641,
0x454f474720454c42414c4c5953204c55474e4148202020202020206f4c202320564c203b2020202020202020202030384641,
0x4f59474720454c42414c4c5953204c55474e4148202020202020206f4c202320564c203b2020202020202020202043394641,
0x55474720454c42414c4c5953204c55474e4148202020202020206f4c202320564c203b2020202020202020202038424641,
0x4f4557474720454c42414c4c5953204c55474e4148202020202020206f4c202320564c203b2020202020202020202034444641,
0x4557474720454c42414c4c5953204c55474e4148202020202020206f4c202320564c203b2020202020202020202030464641,
0x4957474720454c42414c4c5953204c55474e4148202020202020206f4c202320564c203b2020202020202020202043303042,
0x5559474720454c42414c4c5953204c55474e4148202020202020206f4c202320564c203b2020202020202020202038323042,
0x5545474720454c42414c4c5953204c55474e4148202020202020206f4c202320564c203b2020202020202020202034343042,
0x4959474720454c42414c4c5953204c55474e4148202020202020206f4c202320564c203b2020202020202020202030363042,
0x49474720454c42414c4c5953204c55474e4148202020202020206f4c202320564c203b2020202020202020202043373042,
0x414e20454c42414c4c5953204c55474e4148202020202020206f4c202320564c203b2020202020202020202038393042,
0x45414e20454c42414c4c5953204c55474e4148202020202020206f4c202320564c203b2020202020202020202034423042,
0x41594e20454c42414c4c5953204c55474e4148202020202020206f4c202320564c203b2020202020202020202030443042,
0x4541594e20454c42414c4c5953204c55474e4148202020202020206f4c202320564c203b2020202020202020202043453042,
0x4f454e20454c42414c4c5953204c55474e4148202020202020206f4c202320564c203b2020202020202020202038303142,
0x454e20454c42414c4c5953204c55474e4148202020202020206f4c202320564c203b2020202020202020202034323142,
0x4f45594e20454c42414c4c5953204c55474e4148202020202020206f4c202320564c203b2020202020202020202030343142,
0x45594e20454c42414c4c5953204c55474e4148202020202020206f4c202320564c203b2020202020202020202043353142,
0x4f4e20454c42414c4c5953204c55474e4148202020202020206f4c202320564c203b2020202020202020202038373142,
0x41574e20454c42414c4c5953204c55474e4148202020202020206f4c202320564c203b2020202020202020202034393142,
0x4541574e20454c42414c4c5953204c55474e4148202020202020206f4c202320564c203b2020202020202020202030423142,
0x454f4e20454c42414c4c5953204c55474e4148202020202020206f4c202320564c203b2020202020202020202043433142,
0x4f594e20454c42414c4c5953204c55474e4148202020202020206f4c202320564c203b2020202020202020202038453142,
0x554e20454c42414c4c5953204c55474e4148202020202020206f4c202320564c203b2020202020202020202034303242,
0x4f45574e20454c42414c4c5953204c55474e4148202020202020206f4c202320564c203b2020202020202020202030323242,
0x45574e20454c42414c4c5953204c55474e4148202020202020206f4c202320564c203b2020202020202020202043333242,
0x49574e20454c42414c4c5953204c55474e4148202020202020206f4c202320564c203b2020202020202020202038353242,
0x55594e20454c42414c4c5953204c55474e4148202020202020206f4c202320564c203b2020202020202020202034373242,
0x55454e20454c42414c4c5953204c55474e4148202020202020206f4c202320564c203b2020202020202020202030393242,
0x49594e20454c42414c4c5953204c55474e4148202020202020206f4c202320564c203b2020202020202020202043413242,
0x494e20454c42414c4c5953204c55474e4148202020202020206f4c202320564c203b2020202020202020202038433242,
0x414420454c42414c4c5953204c55474e4148202020202020206f4c202320564c203b2020202020202020202034453242,
0x45414420454c42414c4c5953204c55474e4148202020202020206f4c202320564c203b2020202020202020202030303342,
0x41594420454c42414c4c5953204c55474e4148202020202020206f4c202320564c203b2020202020202020202043313342,
0x4541594420454c42414c4c5953204c55474e4148202020202020206f4c202320564c203b2020202020202020202038333342,
0x4f454420454c42414c4c5953204c55474e4148202020202020206f4c202320564c203b2020202020202020202034353342,
0x454420454c42414c4c5953204c55474e4148202020202020206f4c202320564c203b2020202020202020202030373342,
0x4f45594420454c42414c4c5953204c55474e4148202020202020206f4c202320564c203b2020202020202020202043383342,
0x45594420454c42414c4c5953204c55474e4148202020202020206f4c202320564c203b2020202020202020202038413342,
0x4f4420454c42414c4c5953204c55474e4148202020202020206f4c202320564c203b2020202020202020202034433342,
0x41574420454c42414c4c5953204c55474e4148202020202020206f4c202320564c203b2020202020202020202030453342,
0x4541574420454c42414c4c5953204c55474e4148202020202020206f4c202320564c203b2020202020202020202043463342,
0x454f4420454c42414c4c5953204c55474e4148202020202020206f4c202320564c203b2020202020202020202038313442,
0x4f594420454c42414c4c5953204c55474e4148202020202020206f4c202320564c203b2020202020202020202034333442,
0x554420454c42414c4c5953204c55474e4148202020202020206f4c202320564c203b2020202020202020202030353442,
0x4f45574420454c42414c4c5953204c55474e4148202020202020206f4c202320564c203b2020202020202020202043363442,
0x45574420454c42414c4c5953204c55474e4148202020202020206f4c202320564c203b2020202020202020202038383442,
0x49574420454c42414c4c5953204c55474e4148202020202020206f4c202320564c203b2020202020202020202034413442,
0x55594420454c42414c4c5953204c55474e4148202020202020206f4c202320564c203b2020202020202020202030433442,
0x55454420454c42414c4c5953204c55474e4148202020202020206f4c202320564c203b2020202020202020202043443442,
0x49594420454c42414c4c5953204c55474e4148202020202020206f4c202320564c203b2020202020202020202038463442,
0x494420454c42414c4c5953204c55474e4148202020202020206f4c202320564c203b2020202020202020202034313542,
0x41444420454c42414c4c5953204c55474e4148202020202020206f4c202320564c203b2020202020202020202030333542,
0x4541444420454c42414c4c5953204c55474e4148202020202020206f4c202320564c203b2020202020202020202043343542,
0x4159444420454c42414c4c5953204c55474e4148202020202020206f4c202320564c203b2020202020202020202038363542,
0x454159444420454c42414c4c5953204c55474e4148202020202020206f4c202320564c203b2020202020202020202034383542,
0x4f45444420454c42414c4c5953204c55474e4148202020202020206f4c202320564c203b2020202020202020202030413542,
0x45444420454c42414c4c5953204c55474e4148202020202020206f4c202320564c203b2020202020202020202043423542,
0x4f4559444420454c42414c4c5953204c55474e4148202020202020206f4c202320564c203b2020202020202020202038443542,
0x4559444420454c42414c4c5953204c55474e4148202020202020206f4c202320564c203b2020202020202020202034463542,
0x4f444420454c42414c4c5953204c55474e4148202020202020206f4c202320564c203b2020202020202020202030313642,
0x4157444420454c42414c4c5953204c55474e4148202020202020206f4c202320564c203b2020202020202020202043323642,
0x454157444420454c42414c4c5953204c55474e4148202020202020206f4c202320564c203b2020202020202020202038343642,
0x454f444420454c42414c4c5953204c55474e4148202020202020206f4c202320564c203b2020202020202020202034363642,
0x4f59444420454c42414c4c5953204c55474e4148202020202020206f4c202320564c203b2020202020202020202030383642,
0x55444420454c42414c4c5953204c55474e4148202020202020206f4c202320564c203b2020202020202020202043393642,
0x4f4557444420454c42414c4c5953204c55474e4148202020202020206f4c202320564c203b2020202020202020202038423642,
0x4557444420454c42414c4c5953204c55474e4148202020202020206f4c202320564c203b2020202020202020202034443642,
0x4957444420454c42414c4c5953204c55474e4148202020202020206f4c202320564c203b2020202020202020202030463642,
0x5559444420454c42414c4c5953204c55474e4148202020202020206f4c202320564c203b2020202020202020202043303742,
0x5545444420454c42414c4c5953204c55474e4148202020202020206f4c202320564c203b2020202020202020202038323742,
0x4959444420454c42414c4c5953204c55474e4148202020202020206f4c202320564c203b2020202020202020202034343742,
0x49444420454c42414c4c5953204c55474e4148202020202020206f4c202320564c203b2020202020202020202030363742,
0x415220454c42414c4c5953204c55474e4148202020202020206f4c202320564c203b2020202020202020202043373742,
0x45415220454c42414c4c5953204c55474e4148202020202020206f4c202320564c203b2020202020202020202038393742,
0x41595220454c42414c4c5953204c55474e4148202020202020206f4c202320564c203b2020202020202020202034423742,
0x4541595220454c42414c4c5953204c55474e4148202020202020206f4c202320564c203b2020202020202020202030443742,
0x4f455220454c42414c4c5953204c55474e4148202020202020206f4c202320564c203b2020202020202020202043453742,
0x455220454c42414c4c5953204c55474e4148202020202020206f4c202320564c203b2020202020202020202038303842,
0x4f45595220454c42414c4c5953204c55474e4148202020202020206f4c202320564c203b2020202020202020202034323842,
0x45595220454c42414c4c5953204c55474e4148202020202020206f4c202320564c203b2020202020202020202030343842,
0x4f5220454c42414c4c5953204c55474e4148202020202020206f4c202320564c203b2020202020202020202043353842,
0x41575220454c42414c4c5953204c55474e4148202020202020206f4c202320564c203b2020202020202020202038373842,
0x4541575220454c42414c4c5953204c55474e4148202020202020206f4c202320564c203b2020202020202020202034393842,
0x454f5220454c42414c4c5953204c55474e4148202020202020206f4c202320564c203b2020202020202020202030423842,
0x4f595220454c42414c4c5953204c55474e4148202020202020206f4c202320564c203b2020202020202020202043433842,
0x555220454c42414c4c5953204c55474e4148202020202020206f4c202320564c203b2020202020202020202038453842,
0x4f45575220454c42414c4c5953204c55474e4148202020202020206f4c202320564c203b2020202020202020202034303942,
0x45575220454c42414c4c5953204c55474e4148202020202020206f4c202320564c203b2020202020202020202030323942,
0x49575220454c42414c4c5953204c55474e4148202020202020206f4c202320564c203b2020202020202020202043333942,
0x55595220454c42414c4c5953204c55474e4148202020202020206f4c202320564c203b2020202020202020202038353942,
0x55455220454c42414c4c5953204c55474e4148202020202020206f4c202320564c203b2020202020202020202034373942,
0x49595220454c42414c4c5953204c55474e4148202020202020206f4c202320564c203b2020202020202020202030393942,
0x495220454c42414c4c5953204c55474e4148202020202020206f4c202320564c203b2020202020202020202043413942,
0x414d20454c42414c4c5953204c55474e4148202020202020206f4c202320564c203b2020202020202020202038433942,
0x45414d20454c42414c4c5953204c55474e4148202020202020206f4c202320564c203b2020202020202020202034453942,
0x41594d20454c42414c4c5953204c55474e4148202020202020206f4c202320564c203b2020202020202020202030304142,
0x4541594d20454c42414c4c5953204c55474e4148202020202020206f4c202320564c203b2020202020202020202043314142,
0x4f454d20454c42414c4c5953204c55474e4148202020202020206f4c202320564c203b2020202020202020202038334142,
0x454d20454c42414c4c5953204c55474e4148202020202020206f4c202320564c203b2020202020202020202034354142,
0x4f45594d20454c42414c4c5953204c55474e4148202020202020206f4c202320564c203b2020202020202020202030374142,
0x45594d20454c42414c4c5953204c55474e4148202020202020206f4c202320564c203b2020202020202020202043384142,
0x4f4d20454c42414c4c5953204c55474e4148202020202020206f4c202320564c203b2020202020202020202038414142,
0x41574d20454c42414c4c5953204c55474e4148202020202020206f4c202320564c203b2020202020202020202034434142,
0x4541574d20454c42414c4c5953204c55474e4148202020202020206f4c202320564c203b2020202020202020202030454142,
0x454f4d20454c42414c4c5953204c55474e4148202020202020206f4c202320564c203b2020202020202020202043464142,
0x4f594d20454c42414c4c5953204c55474e4148202020202020206f4c202320564c203b2020202020202020202038314242,
0x554d20454c42414c4c5953204c55474e4148202020202020206f4c202320564c203b2020202020202020202034334242,
0x4f45574d20454c42414c4c5953204c55474e4148202020202020206f4c202320564c203b2020202020202020202030354242,
0x45574d20454c42414c4c5953204c55474e4148202020202020206f4c202320564c203b2020202020202020202043364242,
0x49574d20454c42414c4c5953204c55474e4148202020202020206f4c202320564c203b2020202020202020202038384242,
0x55594d20454c42414c4c5953204c55474e4148202020202020206f4c202320564c203b2020202020202020202034414242,
0x55454d20454c42414c4c5953204c55474e4148202020202020206f4c202320564c203b2020202020202020202030434242,
0x49594d20454c42414c4c5953204c55474e4148202020202020206f4c202320564c203b2020202020202020202043444242,
0x494d20454c42414c4c5953204c55474e4148202020202020206f4c202320564c203b2020202020202020202038464242,
0x414220454c42414c4c5953204c55474e4148202020202020206f4c202320564c203b2020202020202020202034314342,
0x45414220454c42414c4c5953204c55474e4148202020202020206f4c202320564c203b2020202020202020202030334342,
0x41594220454c42414c4c5953204c55474e4148202020202020206f4c202320564c203b2020202020202020202043344342,
0x4541594220454c42414c4c5953204c55474e4148202020202020206f4c202320564c203b2020202020202020202038364342,
0x4f454220454c42414c4c5953204c55474e4148202020202020206f4c202320564c203b2020202020202020202034384342,
0x454220454c42414c4c5953204c55474e4148202020202020206f4c202320564c203b2020202020202020202030414342,
0x4f45594220454c42414c4c5953204c55474e4148202020202020206f4c202320564c203b2020202020202020202043424342,
0x45594220454c42414c4c5953204c55474e4148202020202020206f4c202320564c203b2020202020202020202038444342,
0x4f4220454c42414c4c5953204c55474e4148202020202020206f4c202320564c203b2020202020202020202034464342,
0x41574220454c42414c4c5953204c55474e4148202020202020206f4c202320564c203b2020202020202020202030314442,
0x4541574220454c42414c4c5953204c55474e4148202020202020206f4c202320564c203b2020202020202020202043324442,
0x454f4220454c42414c4c5953204c55474e4148202020202020206f4c202320564c203b2020202020202020202038344442,
0x4f594220454c42414c4c5953204c55474e4148202020202020206f4c202320564c203b2020202020202020202034364442,
0x554220454c42414c4c5953204c55474e4148202020202020206f4c202320564c203b2020202020202020202030384442,
0x4f45574220454c42414c4c5953204c55474e4148202020202020206f4c202320564c203b2020202020202020202043394442,
0x45574220454c42414c4c5953204c55474e4148202020202020206f4c202320564c203b2020202020202020202038424442,
0x49574220454c42414c4c5953204c55474e4148202020202020206f4c202320564c203b2020202020202020202034444442,
0x55594220454c42414c4c5953204c55474e4148202020202020206f4c202320564c203b2020202020202020202030464442,
0x55454220454c42414c4c5953204c55474e4148202020202020206f4c202320564c203b2020202020202020202043304542,
0x49594220454c42414c4c5953204c55474e4148202020202020206f4c202320564c203b2020202020202020202038324542,
0x494220454c42414c4c5953204c55474e4148202020202020206f4c202320564c203b2020202020202020202034344542,
0x41424220454c42414c4c5953204c55474e4148202020202020206f4c202320564c203b2020202020202020202030364542,
0x4541424220454c42414c4c5953204c55474e4148202020202020206f4c202320564c203b2020202020202020202043374542,
0x4159424220454c42414c4c5953204c55474e4148202020202020206f4c202320564c203b2020202020202020202038394542,
0x454159424220454c42414c4c5953204c55474e4148202020202020206f4c202320564c203b2020202020202020202034424542,
0x4f45424220454c42414c4c5953204c55474e4148202020202020206f4c202320564c203b2020202020202020202030444542,
0x45424220454c42414c4c5953204c55474e4148202020202020206f4c202320564c203b2020202020202020202043454542,
0x4f4559424220454c42414c4c5953204c55474e4148202020202020206f4c202320564c203b2020202020202020202038304642,
0x4559424220454c42414c4c5953204c55474e4148202020202020206f4c202320564c203b2020202020202020202034324642,
0x4f424220454c42414c4c5953204c55474e4148202020202020206f4c202320564c203b2020202020202020202030344642,
0x4157424220454c42414c4c5953204c55474e4148202020202020206f4c202320564c203b2020202020202020202043354642,
0x454157424220454c42414c4c5953204c55474e4148202020202020206f4c202320564c203b2020202020202020202038374642,
0x454f424220454c42414c4c5953204c55474e4148202020202020206f4c202320564c203b2020202020202020202034394642,
0x4f59424220454c42414c4c5953204c55474e4148202020202020206f4c202320564c203b2020202020202020202030424642,
0x55424220454c42414c4c5953204c55474e4148202020202020206f4c202320564c203b2020202020202020202043434642,
0x4f4557424220454c42414c4c5953204c55474e4148202020202020206f4c202320564c203b2020202020202020202038454642,
0x4557424220454c42414c4c5953204c55474e4148202020202020206f4c202320564c203b2020202020202020202034303043,
0x4957424220454c42414c4c5953204c55474e4148202020202020206f4c202320564c203b2020202020202020202030323043,
0x5559424220454c42414c4c5953204c55474e4148202020202020206f4c202320564c203b2020202020202020202043333043,
0x5545424220454c42414c4c5953204c55474e4148202020202020206f4c202320564c203b2020202020202020202038353043,
0x4959424220454c42414c4c5953204c55474e4148202020202020206f4c202320564c203b2020202020202020202034373043,
0x49424220454c42414c4c5953204c55474e4148202020202020206f4c202320564c203b2020202020202020202030393043,
0x415320454c42414c4c5953204c55474e4148202020202020206f4c202320564c203b2020202020202020202043413043,
0x45415320454c42414c4c5953204c55474e4148202020202020206f4c202320564c203b2020202020202020202038433043,
0x41595320454c42414c4c5953204c55474e4148202020202020206f4c202320564c203b2020202020202020202034453043,
0x4541595320454c42414c4c5953204c55474e4148202020202020206f4c202320564c203b2020202020202020202030303143,
0x4f455320454c42414c4c5953204c55474e4148202020202020206f4c202320564c203b2020202020202020202043313143,
0x455320454c42414c4c5953204c55474e4148202020202020206f4c202320564c203b2020202020202020202038333143,
0x4f45595320454c42414c4c5953204c55474e4148202020202020206f4c202320564c203b2020202020202020202034353143,
0x45595320454c42414c4c5953204c55474e4148202020202020206f4c202320564c203b2020202020202020202030373143,
0x4f5320454c42414c4c5953204c55474e4148202020202020206f4c202320564c203b2020202020202020202043383143,
0x41575320454c42414c4c5953204c55474e4148202020202020206f4c202320564c203b2020202020202020202038413143,
0x4541575320454c42414c4c5953204c55474e4148202020202020206f4c202320564c203b2020202020202020202034433143,
0x454f5320454c42414c4c5953204c55474e4148202020202020206f4c202320564c203b2020202020202020202030453143,
0x4f595320454c42414c4c5953204c55474e4148202020202020206f4c202320564c203b2020202020202020202043463143,
0x555320454c42414c4c5953204c55474e4148202020202020206f4c202320564c203b2020202020202020202038313243]

/-- src/u5e/props/GraphemeBreakProperty.txt lines 769-1024. -/
def rawGcb3 : List Nat := [
0x4f45575320454c42414c4c5953204c55474e4148202020202020206f4c202320564c203b2020202020202020202034333243,
0x45575320454c42414c4c5953204c55474e4148202020202020206f4c202320564c203b2020202020202020202030353243,
0x49575320454c42414c4c5953204c55474e4148202020202020206f4c202320564c203b2020202020202020202043363243,
0x55595320454c42414c4c5953204c55474e4148202020202020206f4c202320564c203b2020202020202020202038383243,
0x55455320454c42414c4c5953204c55474e4148202020202020206f4c202320564c203b2020202020202020202034413243,
0x49595320454c42414c4c5953204c55474e4148202020202020206f4c202320564c203b2020202020202020202030433243,
0x495320454c42414c4c5953204c55474e4148202020202020206f4c202320564c203b2020202020202020202043443243,
0x41535320454c42414c4c5953204c55474e4148202020202020206f4c202320564c203b2020202020202020202038463243,
0x4541535320454c42414c4c5953204c55474e4148202020202020206f4c202320564c203b2020202020202020202034313343,
0x4159535320454c42414c4c5953204c55474e4148202020202020206f4c202320564c203b2020202020202020202030333343,
0x454159535320454c42414c4c5953204c55474e4148202020202020206f4c202320564c203b2020202020202020202043343343,
0x4f45535320454c42414c4c5953204c55474e4148202020202020206f4c202320564c203b2020202020202020202038363343,
0x45535320454c42414c4c5953204c55474e4148202020202020206f4c202320564c203b2020202020202020202034383343,
0x4f4559535320454c42414c4c5953204c55474e4148202020202020206f4c202320564c203b2020202020202020202030413343,
0x4559535320454c42414c4c5953204c55474e4148202020202020206f4c202320564c203b2020202020202020202043423343,
0x4f535320454c42414c4c5953204c55474e4148202020202020206f4c202320564c203b2020202020202020202038443343,
0x4157535320454c42414c4c5953204c55474e4148202020202020206f4c202320564c203b2020202020202020202034463343,
0x454157535320454c42414c4c5953204c55474e4148202020202020206f4c202320564c203b2020202020202020202030313443,
0x454f535320454c42414c4c5953204c55474e4148202020202020206f4c202320564c203b2020202020202020202043323443,
0x4f59535320454c42414c4c5953204c55474e4148202020202020206f4c202320564c203b2020202020202020202038343443,
0x55535320454c42414c4c5953204c55474e4148202020202020206f4c202320564c203b2020202020202020202034363443,
0x4f4557535320454c42414c4c5953204c55474e4148202020202020206f4c202320564c203b2020202020202020202030383443,
0x4557535320454c42414c4c5953204c55474e4148202020202020206f4c202320564c203b2020202020202020202043393443,
0x4957535320454c42414c4c5953204c55474e4148202020202020206f4c202320564c203b2020202020202020202038423443,
0x5559535320454c42414c4c5953204c55474e4148202020202020206f4c202320564c203b2020202020202020202034443443,
0x5545535320454c42414c4c5953204c55474e4148202020202020206f4c202320564c203b2020202020202020202030463443,
0x4959535320454c42414c4c5953204c55474e4148202020202020206f4c202320564c203b2020202020202020202043303543,
0x49535320454c42414c4c5953204c55474e4148202020202020206f4c202320564c203b2020202020202020202038323543,
0x4120454c42414c4c5953204c55474e4148202020202020206f4c202320564c203b2020202020202020202034343543,
0x454120454c42414c4c5953204c55474e4148202020202020206f4c202320564c203b2020202020202020202030363543,
0x415920454c42414c4c5953204c55474e4148202020202020206f4c202320564c203b2020202020202020202043373543,
0x45415920454c42414c4c5953204c55474e4148202020202020206f4c202320564c203b2020202020202020202038393543,
0x4f4520454c42414c4c5953204c55474e4148202020202020206f4c202320564c203b2020202020202020202034423543,
0x4520454c42414c4c5953204c55474e4148202020202020206f4c202320564c203b2020202020202020202030443543,
0x4f455920454c42414c4c5953204c55474e4148202020202020206f4c202320564c203b2020202020202020202043453543,
0x455920454c42414c4c5953204c55474e4148202020202020206f4c202320564c203b2020202020202020202038303643,
0x4f20454c42414c4c5953204c55474e4148202020202020206f4c202320564c203b2020202020202020202034323643,
0x415720454c42414c4c5953204c55474e4148202020202020206f4c202320564c203b2020202020202020202030343643,
0x45415720454c42414c4c5953204c55474e4148202020202020206f4c202320564c203b2020202020202020202043353643,
0x454f20454c42414c4c5953204c55474e4148202020202020206f4c202320564c203b2020202020202020202038373643,
0x4f5920454c42414c4c5953204c55474e4148202020202020206f4c202320564c203b2020202020202020202034393643,
0x5520454c42414c4c5953204c55474e4148202020202020206f4c202320564c203b2020202020202020202030423643,
0x4f455720454c42414c4c5953204c55474e4148202020202020206f4c202320564c203b2020202020202020202043433643,
0x455720454c42414c4c5953204c55474e4148202020202020206f4c202320564c203b2020202020202020202038453643,
0x495720454c42414c4c5953204c55474e4148202020202020206f4c202320564c203b2020202020202020202034303743,
0x555920454c42414c4c5953204c55474e4148202020202020206f4c202320564c203b2020202020202020202030323743,
0x554520454c42414c4c5953204c55474e4148202020202020206f4c202320564c203b2020202020202020202043333743,
0x495920454c42414c4c5953204c55474e4148202020202020206f4c202320564c203b2020202020202020202038353743,
0x4920454c42414c4c5953204c55474e4148202020202020206f4c202320564c203b2020202020202020202034373743,
0x414a20454c42414c4c5953204c55474e4148202020202020206f4c202320564c203b2020202020202020202030393743,
0x45414a20454c42414c4c5953204c55474e4148202020202020206f4c202320564c203b2020202020202020202043413743,
0x41594a20454c42414c4c5953204c55474e4148202020202020206f4c202320564c203b2020202020202020202038433743,
0x4541594a20454c42414c4c5953204c55474e4148202020202020206f4c202320564c203b2020202020202020202034453743,
0x4f454a20454c42414c4c5953204c55474e4148202020202020206f4c202320564c203b2020202020202020202030303843,
0x454a20454c42414c4c5953204c55474e4148202020202020206f4c202320564c203b2020202020202020202043313843,
0x4f45594a20454c42414c4c5953204c55474e4148202020202020206f4c202320564c203b2020202020202020202038333843,
0x45594a20454c42414c4c5953204c55474e4148202020202020206f4c202320564c203b2020202020202020202034353843,
0x4f4a20454c42414c4c5953204c55474e4148202020202020206f4c202320564c203b2020202020202020202030373843,
0x41574a20454c42414c4c5953204c55474e4148202020202020206f4c202320564c203b2020202020202020202043383843,
0x4541574a20454c42414c4c5953204c55474e4148202020202020206f4c202320564c203b2020202020202020202038413843,
0x454f4a20454c42414c4c5953204c55474e4148202020202020206f4c202320564c203b2020202020202020202034433843,
0x4f594a20454c42414c4c5953204c55474e4148202020202020206f4c202320564c203b2020202020202020202030453843,
0x554a20454c42414c4c5953204c55474e4148202020202020206f4c202320564c203b2020202020202020202043463843,
0x4f45574a20454c42414c4c5953204c55474e4148202020202020206f4c202320564c203b2020202020202020202038313943,
0x45574a20454c42414c4c5953204c55474e4148202020202020206f4c202320564c203b2020202020202020202034333943,
0x49574a20454c42414c4c5953204c55474e4148202020202020206f4c202320564c203b2020202020202020202030353943,
0x55594a20454c42414c4c5953204c55474e4148202020202020206f4c202320564c203b2020202020202020202043363943,
0x55454a20454c42414c4c5953204c55474e4148202020202020206f4c202320564c203b2020202020202020202038383943,
0x49594a20454c42414c4c5953204c55474e4148202020202020206f4c202320564c203b2020202020202020202034413943,
0x494a20454c42414c4c5953204c55474e4148202020202020206f4c202320564c203b2020202020202020202030433943,
0x414a4a20454c42414c4c5953204c55474e4148202020202020206f4c202320564c203b2020202020202020202043443943,
0x45414a4a20454c42414c4c5953204c55474e4148202020202020206f4c202320564c203b2020202020202020202038463943,
0x41594a4a20454c42414c4c5953204c55474e4148202020202020206f4c202320564c203b2020202020202020202034314143,
0x4541594a4a20454c42414c4c5953204c55474e4148202020202020206f4c202320564c203b2020202020202020202030334143,
0x4f454a4a20454c42414c4c5953204c55474e4148202020202020206f4c202320564c203b2020202020202020202043344143,
0x454a4a20454c42414c4c5953204c55474e4148202020202020206f4c202320564c203b2020202020202020202038364143,
0x4f45594a4a20454c42414c4c5953204c55474e4148202020202020206f4c202320564c203b2020202020202020202034384143,
0x45594a4a20454c42414c4c5953204c55474e4148202020202020206f4c202320564c203b2020202020202020202030414143,
0x4f4a4a20454c42414c4c5953204c55474e4148202020202020206f4c202320564c203b2020202020202020202043424143,
0x41574a4a20454c42414c4c5953204c55474e4148202020202020206f4c202320564c203b2020202020202020202038444143,
0x4541574a4a20454c42414c4c5953204c55474e4148202020202020206f4c202320564c203b2020202020202020202034464143,
0x454f4a4a20454c42414c4c5953204c55474e4148202020202020206f4c202320564c203b2020202020202020202030314243,
0x4f594a4a20454c42414c4c5953204c55474e4148202020202020206f4c202320564c203b2020202020202020202043324243,
0x554a4a20454c42414c4c5953204c55474e4148202020202020206f4c202320564c203b2020202020202020202038344243,
0x4f45574a4a20454c42414c4c5953204c55474e4148202020202020206f4c202320564c203b2020202020202020202034364243,
0x45574a4a20454c42414c4c5953204c55474e4148202020202020206f4c202320564c203b2020202020202020202030384243,
0x49574a4a20454c42414c4c5953204c55474e4148202020202020206f4c202320564c203b2020202020202020202043394243,
0x55594a4a20454c42414c4c5953204c55474e4148202020202020206f4c202320564c203b2020202020202020202038424243,
0x55454a4a20454c42414c4c5953204c55474e4148202020202020206f4c202320564c203b2020202020202020202034444243,
0x49594a4a20454c42414c4c5953204c55474e4148202020202020206f4c202320564c203b2020202020202020202030464243,
0x494a4a20454c42414c4c5953204c55474e4148202020202020206f4c202320564c203b2020202020202020202043304343,
0x414320454c42414c4c5953204c55474e4148202020202020206f4c202320564c203b2020202020202020202038324343,
0x45414320454c42414c4c5953204c55474e4148202020202020206f4c202320564c203b2020202020202020202034344343,
0x41594320454c42414c4c5953204c55474e4148202020202020206f4c202320564c203b2020202020202020202030364343,
0x4541594320454c42414c4c5953204c55474e4148202020202020206f4c202320564c203b2020202020202020202043374343,
0x4f454320454c42414c4c5953204c55474e4148202020202020206f4c202320564c203b2020202020202020202038394343,
0x454320454c42414c4c5953204c55474e4148202020202020206f4c202320564c203b2020202020202020202034424343,
0x4f45594320454c42414c4c5953204c55474e4148202020202020206f4c202320564c203b2020202020202020202030444343,
0x45594320454c42414c4c5953204c55474e4148202020202020206f4c202320564c203b2020202020202020202043454343,
0x4f4320454c42414c4c5953204c55474e4148202020202020206f4c202320564c203b2020202020202020202038304443,
0x41574320454c42414c4c5953204c55474e4148202020202020206f4c202320564c203b2020202020202020202034324443,
0x4541574320454c42414c4c5953204c55474e4148202020202020206f4c202320564c203b2020202020202020202030344443,
0x454f4320454c42414c4c5953204c55474e4148202020202020206f4c202320564c203b2020202020202020202043354443,
0x4f594320454c42414c4c5953204c55474e4148202020202020206f4c202320564c203b2020202020202020202038374443,
0x554320454c42414c4c5953204c55474e4148202020202020206f4c202320564c203b2020202020202020202034394443,
0x4f45574320454c42414c4c5953204c55474e4148202020202020206f4c202320564c203b2020202020202020202030424443,
0x45574320454c42414c4c5953204c55474e4148202020202020206f4c202320564c203b2020202020202020202043434443,
0x49574320454c42414c4c5953204c55474e4148202020202020206f4c202320564c203b2020202020202020202038454443,
0x55594320454c42414c4c5953204c55474e4148202020202020206f4c202320564c203b2020202020202020202034304543,
0x55454320454c42414c4c5953204c55474e4148202020202020206f4c202320564c203b2020202020202020202030324543,
0x49594320454c42414c4c5953204c55474e4148202020202020206f4c202320564c203b2020202020202020202043334543,
0x494320454c42414c4c5953204c55474e4148202020202020206f4c202320564c203b2020202020202020202038354543,
0x414b20454c42414c4c5953204c55474e4148202020202020206f4c202320564c203b2020202020202020202034374543,
0x45414b20454c42414c4c5953204c55474e4148202020202020206f4c202320564c203b2020202020202020202030394543,
0x41594b20454c42414c4c5953204c55474e4148202020202020206f4c202320564c203b2020202020202020202043414543,
0x4541594b20454c42414c4c5953204c55474e4148202020202020206f4c202320564c203b2020202020202020202038434543,
0x4f454b20454c42414c4c5953204c55474e4148202020202020206f4c202320564c203b2020202020202020202034454543,
0x454b20454c42414c4c5953204c55474e4148202020202020206f4c202320564c203b2020202020202020202030304643,
0x4f45594b20454c42414c4c5953204c55474e4148202020202020206f4c202320564c203b2020202020202020202043314643,
0x45594b20454c42414c4c5953204c55474e4148202020202020206f4c202320564c203b2020202020202020202038334643,
0x4f4b20454c42414c4c5953204c55474e4148202020202020206f4c202320564c203b2020202020202020202034354643,
0x41574b20454c42414c4c5953204c55474e4148202020202020206f4c202320564c203b2020202020202020202030374643,
0x4541574b20454c42414c4c5953204c55474e4148202020202020206f4c202320564c203b2020202020202020202043384643,
0x454f4b20454c42414c4c5953204c55474e4148202020202020206f4c202320564c203b2020202020202020202038414643,
0x4f594b20454c42414c4c5953204c55474e4148202020202020206f4c202320564c203b2020202020202020202034434643,
0x554b20454c42414c4c5953204c55474e4148202020202020206f4c202320564c203b2020202020202020202030454643,
0x4f45574b20454c42414c4c5953204c55474e4148202020202020206f4c202320564c203b2020202020202020202043464643,
0x45574b20454c42414c4c5953204c55474e4148202020202020206f4c202320564c203b2020202020202020202038313044,
0x49574b20454c42414c4c5953204c55474e4148202020202020206f4c202320564c203b2020202020202020202034333044,
0x55594b20454c42414c4c5953204c55474e4148202020202020206f4c202320564c203b2020202020202020202030353044,
0x55454b20454c42414c4c5953204c55474e4148202020202020206f4c202320564c203b2020202020202020202043363044,
0x49594b20454c42414c4c5953204c55474e4148202020202020206f4c202320564c203b2020202020202020202038383044,
0x494b20454c42414c4c5953204c55474e4148202020202020206f4c202320564c203b2020202020202020202034413044,
0x415420454c42414c4c5953204c55474e4148202020202020206f4c202320564c203b2020202020202020202030433044,
0x45415420454c42414c4c5953204c55474e4148202020202020206f4c202320564c203b2020202020202020202043443044,
0x41595420454c42414c4c5953204c55474e4148202020202020206f4c202320564c203b2020202020202020202038463044,
0x4541595420454c42414c4c5953204c55474e4148202020202020206f4c202320564c203b2020202020202020202034313144,
0x4f455420454c42414c4c5953204c55474e4148202020202020206f4c202320564c203b2020202020202020202030333144,
0x455420454c42414c4c5953204c55474e4148202020202020206f4c202320564c203b2020202020202020202043343144,
0x4f45595420454c42414c4c5953204c55474e4148202020202020206f4c202320564c203b2020202020202020202038363144,
0x45595420454c42414c4c5953204c55474e4148202020202020206f4c202320564c203b2020202020202020202034383144,
0x4f5420454c42414c4c5953204c55474e4148202020202020206f4c202320564c203b2020202020202020202030413144,
0x41575420454c42414c4c5953204c55474e4148202020202020206f4c202320564c203b2020202020202020202043423144,
0x4541575420454c42414c4c5953204c55474e4148202020202020206f4c202320564c203b2020202020202020202038443144,
0x454f5420454c42414c4c5953204c55474e4148202020202020206f4c202320564c203b2020202020202020202034463144,
0x4f595420454c42414c4c5953204c55474e4148202020202020206f4c202320564c203b2020202020202020202030313244,
0x555420454c42414c4c5953204c55474e4148202020202020206f4c202320564c203b2020202020202020202043323244,
0x4f45575420454c42414c4c5953204c55474e4148202020202020206f4c202320564c203b2020202020202020202038343244,
0x45575420454c42414c4c5953204c55474e4148202020202020206f4c202320564c203b2020202020202020202034363244,
0x49575420454c42414c4c5953204c55474e4148202020202020206f4c202320564c203b2020202020202020202030383244,
0x55595420454c42414c4c5953204c55474e4148202020202020206f4c202320564c203b2020202020202020202043393244,
0x55455420454c42414c4c5953204c55474e4148202020202020206f4c202320564c203b2020202020202020202038423244,
0x49595420454c42414c4c5953204c55474e4148202020202020206f4c202320564c203b2020202020202020202034443244,
0x495420454c42414c4c5953204c55474e4148202020202020206f4c202320564c203b2020202020202020202030463244,
0x415020454c42414c4c5953204c55474e4148202020202020206f4c202320564c203b2020202020202020202043303344,
0x45415020454c42414c4c5953204c55474e4148202020202020206f4c202320564c203b2020202020202020202038323344,
0x41595020454c42414c4c5953204c55474e4148202020202020206f4c202320564c203b2020202020202020202034343344,
0x4541595020454c42414c4c5953204c55474e4148202020202020206f4c202320564c203b2020202020202020202030363344,
0x4f455020454c42414c4c5953204c55474e4148202020202020206f4c202320564c203b2020202020202020202043373344,
0x455020454c42414c4c5953204c55474e4148202020202020206f4c202320564c203b2020202020202020202038393344,
0x4f45595020454c42414c4c5953204c55474e4148202020202020206f4c202320564c203b2020202020202020202034423344,
0x45595020454c42414c4c5953204c55474e4148202020202020206f4c202320564c203b2020202020202020202030443344,
0x4f5020454c42414c4c5953204c55474e4148202020202020206f4c202320564c203b2020202020202020202043453344,
0x41575020454c42414c4c5953204c55474e4148202020202020206f4c202320564c203b2020202020202020202038303444,
0x4541575020454c42414c4c5953204c55474e4148202020202020206f4c202320564c203b2020202020202020202034323444,
0x454f5020454c42414c4c5953204c55474e4148202020202020206f4c202320564c203b2020202020202020202030343444,
0x4f595020454c42414c4c5953204c55474e4148202020202020206f4c202320564c203b2020202020202020202043353444,
0x555020454c42414c4c5953204c55474e4148202020202020206f4c202320564c203b2020202020202020202038373444,
0x4f45575020454c42414c4c5953204c55474e4148202020202020206f4c202320564c203b2020202020202020202034393444,
0x45575020454c42414c4c5953204c55474e4148202020202020206f4c202320564c203b2020202020202020202030423444,
0x49575020454c42414c4c5953204c55474e4148202020202020206f4c202320564c203b2020202020202020202043433444,
0x55595020454c42414c4c5953204c55474e4148202020202020206f4c202320564c203b2020202020202020202038453444,
0x55455020454c42414c4c5953204c55474e4148202020202020206f4c202320564c203b2020202020202020202034303544,
0x49595020454c42414c4c5953204c55474e4148202020202020206f4c202320564c203b2020202020202020202030323544,
0x495020454c42414c4c5953204c55474e4148202020202020206f4c202320564c203b2020202020202020202043333544,
0x414820454c42414c4c5953204c55474e4148202020202020206f4c202320564c203b2020202020202020202038353544,
0x45414820454c42414c4c5953204c55474e4148202020202020206f4c202320564c203b2020202020202020202034373544,
0x41594820454c42414c4c5953204c55474e4148202020202020206f4c202320564c203b2020202020202020202030393544,
0x4541594820454c42414c4c5953204c55474e4148202020202020206f4c202320564c203b2020202020202020202043413544,
0x4f454820454c42414c4c5953204c55474e4148202020202020206f4c202320564c203b2020202020202020202038433544,
0x454820454c42414c4c5953204c55474e4148202020202020206f4c202320564c203b2020202020202020202034453544,
0x4f45594820454c42414c4c5953204c55474e4148202020202020206f4c202320564c203b2020202020202020202030303644,
0x45594820454c42414c4c5953204c55474e4148202020202020206f4c202320564c203b2020202020202020202043313644,
0x4f4820454c42414c4c5953204c55474e4148202020202020206f4c202320564c203b2020202020202020202038333644,
0x41574820454c42414c4c5953204c55474e4148202020202020206f4c202320564c203b2020202020202020202034353644,
0x4541574820454c42414c4c5953204c55474e4148202020202020206f4c202320564c203b2020202020202020202030373644,
0x454f4820454c42414c4c5953204c55474e4148202020202020206f4c202320564c203b2020202020202020202043383644,
0x4f594820454c42414c4c5953204c55474e4148202020202020206f4c202320564c203b2020202020202020202038413644,
0x554820454c42414c4c5953204c55474e4148202020202020206f4c202320564c203b2020202020202020202034433644,
0x4f45574820454c42414c4c5953204c55474e4148202020202020206f4c202320564c203b2020202020202020202030453644,
0x45574820454c42414c4c5953204c55474e4148202020202020206f4c202320564c203b2020202020202020202043463644,
0x49574820454c42414c4c5953204c55474e4148202020202020206f4c202320564c203b2020202020202020202038313744,
0x55594820454c42414c4c5953204c55474e4148202020202020206f4c202320564c203b2020202020202020202034333744,
0x55454820454c42414c4c5953204c55474e4148202020202020206f4c202320564c203b2020202020202020202030353744,
0x49594820454c42414c4c5953204c55474e4148202020202020206f4c202320564c203b2020202020202020202043363744,
0x494820454c42414c4c5953204c55474e4148202020202020206f4c202320564c203b2020202020202020202038383744,
0x0,
0x393933203a73746e696f702065646f63206c61746f542023,
0x0,
0x3d3d3d3d3d3d3d3d3d3d3d3d3d3d3d3d3d3d3d3d3d3d3d3d3d3d3d3d3d3d3d3d3d3d3d3d3d3d3d3d3d3d3d3d3d3d3d3d2023,
0x0,
0x48414720454c42414c4c5953204c55474e41482e2e47414720454c42414c4c5953204c55474e4148205d37325b20206f4c20232054564c203b20202020423143412e2e31304341,
0x4845414720454c42414c4c5953204c55474e41482e2e4745414720454c42414c4c5953204c55474e4148205d37325b20206f4c20232054564c203b20202020373343412e2e44314341,
0x4841594720454c42414c4c5953204c55474e41482e2e4741594720454c42414c4c5953204c55474e4148205d37325b20206f4c20232054564c203b20202020333543412e2e39334341,
0x484541594720454c42414c4c5953204c55474e41482e2e474541594720454c42414c4c5953204c55474e4148205d37325b20206f4c20232054564c203b20202020463643412e2e35354341,
0x484f454720454c42414c4c5953204c55474e41482e2e474f454720454c42414c4c5953204c55474e4148205d37325b20206f4c20232054564c203b20202020423843412e2e31374341,
0x48454720454c42414c4c5953204c55474e41482e2e47454720454c42414c4c5953204c55474e4148205d37325b20206f4c20232054564c203b20202020374143412e2e44384341,
0x484f45594720454c42414c4c5953204c55474e41482e2e474f45594720454c42414c4c5953204c55474e4148205d37325b20206f4c20232054564c203b20202020334343412e2e39414341,
0x4845594720454c42414c4c5953204c55474e41482e2e4745594720454c42414c4c5953204c55474e4148205d37325b20206f4c20232054564c203b20202020464443412e2e35434341,
0x484f4720454c42414c4c5953204c55474e41482e2e474f4720454c42414c4c5953204c55474e4148205d37325b20206f4c20232054564c203b20202020424643412e2e31454341,
0x4841574720454c42414c4c5953204c55474e41482e2e4741574720454c42414c4c5953204c55474e4148205d37325b20206f4c20232054564c203b20202020373144412e2e44464341,
0x484541574720454c42414c4c5953204c55474e41482e2e474541574720454c42414c4c5953204c55474e4148205d37325b20206f4c20232054564c203b20202020333344412e2e39314441,
0x48454f4720454c42414c4c5953204c55474e41482e2e47454f4720454c42414c4c5953204c55474e4148205d37325b20206f4c20232054564c203b20202020463444412e2e35334441,
0x484f594720454c42414c4c5953204c55474e41482e2e474f594720454c42414c4c5953204c55474e4148205d37325b20206f4c20232054564c203b20202020423644412e2e31354441,
0x48554720454c42414c4c5953204c55474e41482e2e47554720454c42414c4c5953204c55474e4148205d37325b20206f4c20232054564c203b20202020373844412e2e44364441,
0x484f45574720454c42414c4c5953204c55474e41482e2e474f45574720454c42414c4c5953204c55474e4148205d37325b20206f4c20232054564c203b20202020334144412e2e39384441,
0x4845574720454c42414c4c5953204c55474e41482e2e4745574720454c42414c4c5953204c55474e4148205d37325b20206f4c20232054564c203b20202020464244412e2e35414441,
0x4849574720454c42414c4c5953204c55474e41482e2e4749574720454c42414c4c5953204c55474e4148205d37325b20206f4c20232054564c203b20202020424444412e2e31434441,
0x4855594720454c42414c4c5953204c55474e41482e2e4755594720454c42414c4c5953204c55474e4148205d37325b20206f4c20232054564c203b20202020374644412e2e44444441,
0x4855454720454c42414c4c5953204c55474e41482e2e4755454720454c42414c4c5953204c55474e4148205d37325b20206f4c20232054564c203b20202020333145412e2e39464441,
0x4849594720454c42414c4c5953204c55474e41482e2e4749594720454c42414c4c5953204c55474e4148205d37325b20206f4c20232054564c203b20202020463245412e2e35314541,
0x48494720454c42414c4c5953204c55474e41482e2e47494720454c42414c4c5953204c55474e4148205d37325b20206f4c20232054564c203b20202020423445412e2e31334541,
0x4841474720454c42414c4c5953204c55474e41482e2e4741474720454c42414c4c5953204c55474e4148205d37325b20206f4c20232054564c203b20202020373645412e2e44344541,
0x484541474720454c42414c4c5953204c55474e41482e2e474541474720454c42414c4c5953204c55474e4148205d37325b20206f4c20232054564c203b20202020333845412e2e39364541,
0x484159474720454c42414c4c5953204c55474e41482e2e474159474720454c42414c4c5953204c55474e4148205d37325b20206f4c20232054564c203b20202020463945412e2e35384541,
0x48454159474720454c42414c4c5953204c55474e41482e2e47454159474720454c42414c4c5953204c55474e4148205d37325b20206f4c20232054564c203b20202020424245412e2e31414541,
0x484f45474720454c42414c4c5953204c55474e41482e2e474f45474720454c42414c4c5953204c55474e4148205d37325b20206f4c20232054564c203b20202020374445412e2e44424541,
0x4845474720454c42414c4c5953204c55474e41482e2e4745474720454c42414c4c5953204c55474e4148205d37325b20206f4c20232054564c203b20202020334645412e2e39444541,
0x484f4559474720454c42414c4c5953204c55474e41482e2e474f4559474720454c42414c4c5953204c55474e4148205d37325b20206f4c20232054564c203b20202020463046412e2e35464541,
0x484559474720454c42414c4c5953204c55474e41482e2e474559474720454c42414c4c5953204c55474e4148205d37325b20206f4c20232054564c203b20202020423246412e2e31314641,
0x484f474720454c42414c4c5953204c55474e41482e2e474f474720454c42414c4c5953204c55474e4148205d37325b20206f4c20232054564c203b20202020373446412e2e44324641,
0x484157474720454c42414c4c5953204c55474e41482e2e474157474720454c42414c4c5953204c55474e4148205d37325b20206f4c20232054564c203b20202020333646412e2e39344641,
0x48454157474720454c42414c4c5953204c55474e41482e2e47454157474720454c42414c4c5953204c55474e4148205d37325b20206f4c20232054564c203b20202020463746412e2e35364641,
0x48454f474720454c42414c4c5953204c55474e41482e2e47454f474720454c42414c4c5953204c55474e4148205d37325b20206f4c20232054564c203b20202020423946412e2e31384641,
0x484f59474720454c42414c4c5953204c55474e41482e2e474f59474720454c42414c4c5953204c55474e4148205d37325b20206f4c20232054564c203b20202020374246412e2e44394641,
0x4855474720454c42414c4c5953204c55474e41482e2e4755474720454c42414c4c5953204c55474e4148205d37325b20206f4c20232054564c203b20202020334446412e2e39424641,
0x484f4557474720454c42414c4c5953204c55474e41482e2e474f4557474720454c42414c4c5953204c55474e4148205d37325b20206f4c20232054564c203b20202020464546412e2e35444641,
0x484557474720454c42414c4c5953204c55474e41482e2e474557474720454c42414c4c5953204c55474e4148205d37325b20206f4c20232054564c203b20202020423030422e2e31464641,
0x484957474720454c42414c4c5953204c55474e41482e2e474957474720454c42414c4c5953204c55474e4148205d37325b20206f4c20232054564c203b20202020373230422e2e44303042,
0x485559474720454c42414c4c5953204c55474e41482e2e475559474720454c42414c4c5953204c55474e4148205d37325b20206f4c20232054564c203b20202020333430422e2e39323042,
0x485545474720454c42414c4c5953204c55474e41482e2e475545474720454c42414c4c5953204c55474e4148205d37325b20206f4c20232054564c203b20202020463530422e2e35343042,
0x484959474720454c42414c4c5953204c55474e41482e2e474959474720454c42414c4c5953204c55474e4148205d37325b20206f4c20232054564c203b20202020423730422e2e31363042,
0x4849474720454c42414c4c5953204c55474e41482e2e4749474720454c42414c4c5953204c55474e4148205d37325b20206f4c20232054564c203b20202020373930422e2e44373042,
0x48414e20454c42414c4c5953204c55474e41482e2e47414e20454c42414c4c5953204c55474e4148205d37325b20206f4c20232054564c203b20202020334230422e2e39393042,
0x4845414e20454c42414c4c5953204c55474e41482e2e4745414e20454c42414c4c5953204c55474e4148205d37325b20206f4c20232054564c203b20202020464330422e2e35423042,
0x4841594e20454c42414c4c5953204c55474e41482e2e4741594e20454c42414c4c5953204c55474e4148205d37325b20206f4c20232054564c203b20202020424530422e2e31443042,
0x484541594e20454c42414c4c5953204c55474e41482e2e474541594e20454c42414c4c5953204c55474e4148205d37325b20206f4c20232054564c203b20202020373031422e2e44453042,
0x484f454e20454c42414c4c5953204c55474e41482e2e474f454e20454c42414c4c5953204c55474e4148205d37325b20206f4c20232054564c203b20202020333231422e2e39303142,
0x48454e20454c42414c4c5953204c55474e41482e2e47454e20454c42414c4c5953204c55474e4148205d37325b20206f4c20232054564c203b20202020463331422e2e35323142,
0x484f45594e20454c42414c4c5953204c55474e41482e2e474f45594e20454c42414c4c5953204c55474e4148205d37325b20206f4c20232054564c203b20202020423531422e2e31343142,
0x4845594e20454c42414c4c5953204c55474e41482e2e4745594e20454c42414c4c5953204c55474e4148205d37325b20206f4c20232054564c203b20202020373731422e2e44353142,
0x484f4e20454c42414c4c5953204c55474e41482e2e474f4e20454c42414c4c5953204c55474e4148205d37325b20206f4c20232054564c203b20202020333931422e2e39373142,
0x4841574e20454c42414c4c5953204c55474e41482e2e4741574e20454c42414c4c5953204c55474e4148205d37325b20206f4c20232054564c203b20202020464131422e2e35393142,
0x484541574e20454c42414c4c5953204c55474e41482e2e474541574e20454c42414c4c5953204c55474e4148205d37325b20206f4c20232054564c203b20202020424331422e2e31423142,
0x48454f4e20454c42414c4c5953204c55474e41482e2e47454f4e20454c42414c4c5953204c55474e4148205d37325b20206f4c20232054564c203b20202020374531422e2e44433142,
0x484f594e20454c42414c4c5953204c55474e41482e2e474f594e20454c42414c4c5953204c55474e4148205d37325b20206f4c20232054564c203b20202020333032422e2e39453142]

/-- src/u5e/props/GraphemeBreakProperty.txt lines 1025-1280. -/
def rawGcb4 : List Nat := [
0x48554e20454c42414c4c5953204c55474e41482e2e47554e20454c42414c4c5953204c55474e4148205d37325b20206f4c20232054564c203b20202020463132422e2e35303242,
0x484f45574e20454c42414c4c5953204c55474e41482e2e474f45574e20454c42414c4c5953204c55474e4148205d37325b20206f4c20232054564c203b20202020423332422e2e31323242,
0x4845574e20454c42414c4c5953204c55474e41482e2e4745574e20454c42414c4c5953204c55474e4148205d37325b20206f4c20232054564c203b20202020373532422e2e44333242,
0x4849574e20454c42414c4c5953204c55474e41482e2e4749574e20454c42414c4c5953204c55474e4148205d37325b20206f4c20232054564c203b20202020333732422e2e39353242,
0x4855594e20454c42414c4c5953204c55474e41482e2e4755594e20454c42414c4c5953204c55474e4148205d37325b20206f4c20232054564c203b20202020463832422e2e35373242,
0x4855454e20454c42414c4c5953204c55474e41482e2e4755454e20454c42414c4c5953204c55474e4148205d37325b20206f4c20232054564c203b20202020424132422e2e31393242,
0x4849594e20454c42414c4c5953204c55474e41482e2e4749594e20454c42414c4c5953204c55474e4148205d37325b20206f4c20232054564c203b20202020374332422e2e44413242,
0x48494e20454c42414c4c5953204c55474e41482e2e47494e20454c42414c4c5953204c55474e4148205d37325b20206f4c20232054564c203b20202020334532422e2e39433242,
0x48414420454c42414c4c5953204c55474e41482e2e47414420454c42414c4c5953204c55474e4148205d37325b20206f4c20232054564c203b20202020464632422e2e35453242,
0x4845414420454c42414c4c5953204c55474e41482e2e4745414420454c42414c4c5953204c55474e4148205d37325b20206f4c20232054564c203b20202020423133422e2e31303342,
0x4841594420454c42414c4c5953204c55474e41482e2e4741594420454c42414c4c5953204c55474e4148205d37325b20206f4c20232054564c203b20202020373333422e2e44313342,
0x484541594420454c42414c4c5953204c55474e41482e2e474541594420454c42414c4c5953204c55474e4148205d37325b20206f4c20232054564c203b20202020333533422e2e39333342,
0x484f454420454c42414c4c5953204c55474e41482e2e474f454420454c42414c4c5953204c55474e4148205d37325b20206f4c20232054564c203b20202020463633422e2e35353342,
0x48454420454c42414c4c5953204c55474e41482e2e47454420454c42414c4c5953204c55474e4148205d37325b20206f4c20232054564c203b20202020423833422e2e31373342,
0x484f45594420454c42414c4c5953204c55474e41482e2e474f45594420454c42414c4c5953204c55474e4148205d37325b20206f4c20232054564c203b20202020374133422e2e44383342,
0x4845594420454c42414c4c5953204c55474e41482e2e4745594420454c42414c4c5953204c55474e4148205d37325b20206f4c20232054564c203b20202020334333422e2e39413342,
0x484f4420454c42414c4c5953204c55474e41482e2e474f4420454c42414c4c5953204c55474e4148205d37325b20206f4c20232054564c203b20202020464433422e2e35433342,
0x4841574420454c42414c4c5953204c55474e41482e2e4741574420454c42414c4c5953204c55474e4148205d37325b20206f4c20232054564c203b20202020424633422e2e31453342,
0x484541574420454c42414c4c5953204c55474e41482e2e474541574420454c42414c4c5953204c55474e4148205d37325b20206f4c20232054564c203b20202020373134422e2e44463342,
0x48454f4420454c42414c4c5953204c55474e41482e2e47454f4420454c42414c4c5953204c55474e4148205d37325b20206f4c20232054564c203b20202020333334422e2e39313442,
0x484f594420454c42414c4c5953204c55474e41482e2e474f594420454c42414c4c5953204c55474e4148205d37325b20206f4c20232054564c203b20202020463434422e2e35333442,
0x48554420454c42414c4c5953204c55474e41482e2e47554420454c42414c4c5953204c55474e4148205d37325b20206f4c20232054564c203b20202020423634422e2e31353442,
0x484f45574420454c42414c4c5953204c55474e41482e2e474f45574420454c42414c4c5953204c55474e4148205d37325b20206f4c20232054564c203b20202020373834422e2e44363442,
0x4845574420454c42414c4c5953204c55474e41482e2e4745574420454c42414c4c5953204c55474e4148205d37325b20206f4c20232054564c203b20202020334134422e2e39383442,
0x4849574420454c42414c4c5953204c55474e41482e2e4749574420454c42414c4c5953204c55474e4148205d37325b20206f4c20232054564c203b20202020464234422e2e35413442,
0x4855594420454c42414c4c5953204c55474e41482e2e4755594420454c42414c4c5953204c55474e4148205d37325b20206f4c20232054564c203b20202020424434422e2e31433442,
0x4855454420454c42414c4c5953204c55474e41482e2e4755454420454c42414c4c5953204c55474e4148205d37325b20206f4c20232054564c203b20202020374634422e2e44443442,
0x4849594420454c42414c4c5953204c55474e41482e2e4749594420454c42414c4c5953204c55474e4148205d37325b20206f4c20232054564c203b20202020333135422e2e39463442,
0x48494420454c42414c4c5953204c55474e41482e2e47494420454c42414c4c5953204c55474e4148205d37325b20206f4c20232054564c203b20202020463235422e2e35313542,
0x4841444420454c42414c4c5953204c55474e41482e2e4741444420454c42414c4c5953204c55474e4148205d37325b20206f4c20232054564c203b20202020423435422e2e31333542,
0x484541444420454c42414c4c5953204c55474e41482e2e474541444420454c42414c4c5953204c55474e4148205d37325b20206f4c20232054564c203b20202020373635422e2e44343542,
0x484159444420454c42414c4c5953204c55474e41482e2e474159444420454c42414c4c5953204c55474e4148205d37325b20206f4c20232054564c203b20202020333835422e2e39363542,
0x48454159444420454c42414c4c5953204c55474e41482e2e47454159444420454c42414c4c5953204c55474e4148205d37325b20206f4c20232054564c203b20202020463935422e2e35383542,
0x484f45444420454c42414c4c5953204c55474e41482e2e474f45444420454c42414c4c5953204c55474e4148205d37325b20206f4c20232054564c203b20202020424235422e2e31413542,
0x4845444420454c42414c4c5953204c55474e41482e2e4745444420454c42414c4c5953204c55474e4148205d37325b20206f4c20232054564c203b20202020374435422e2e44423542,
0x484f4559444420454c42414c4c5953204c55474e41482e2e474f4559444420454c42414c4c5953204c55474e4148205d37325b20206f4c20232054564c203b20202020334635422e2e39443542,
0x484559444420454c42414c4c5953204c55474e41482e2e474559444420454c42414c4c5953204c55474e4148205d37325b20206f4c20232054564c203b20202020463036422e2e35463542,
0x484f444420454c42414c4c5953204c55474e41482e2e474f444420454c42414c4c5953204c55474e4148205d37325b20206f4c20232054564c203b20202020423236422e2e31313642,
0x484157444420454c42414c4c5953204c55474e41482e2e474157444420454c42414c4c5953204c55474e4148205d37325b20206f4c20232054564c203b20202020373436422e2e44323642,
0x48454157444420454c42414c4c5953204c55474e41482e2e47454157444420454c42414c4c5953204c55474e4148205d37325b20206f4c20232054564c203b20202020333636422e2e39343642,
0x48454f444420454c42414c4c5953204c55474e41482e2e47454f444420454c42414c4c5953204c55474e4148205d37325b20206f4c20232054564c203b20202020463736422e2e35363642,
0x484f59444420454c42414c4c5953204c55474e41482e2e474f59444420454c42414c4c5953204c55474e4148205d37325b20206f4c20232054564c203b20202020423936422e2e31383642,
0x4855444420454c42414c4c5953204c55474e41482e2e4755444420454c42414c4c5953204c55474e4148205d37325b20206f4c20232054564c203b20202020374236422e2e44393642,
0x484f4557444420454c42414c4c5953204c55474e41482e2e474f4557444420454c42414c4c5953204c55474e4148205d37325b20206f4c20232054564c203b20202020334436422e2e39423642,
0x484557444420454c42414c4c5953204c55474e41482e2e474557444420454c42414c4c5953204c55474e4148205d37325b20206f4c20232054564c203b20202020464536422e2e35443642,
0x484957444420454c42414c4c5953204c55474e41482e2e474957444420454c42414c4c5953204c55474e4148205d37325b20206f4c20232054564c203b20202020423037422e2e31463642,
0x485559444420454c42414c4c5953204c55474e41482e2e475559444420454c42414c4c5953204c55474e4148205d37325b20206f4c20232054564c203b20202020373237422e2e44303742,
0x485545444420454c42414c4c5953204c55474e41482e2e475545444420454c42414c4c5953204c55474e4148205d37325b20206f4c20232054564c203b20202020333437422e2e39323742,
0x484959444420454c42414c4c5953204c55474e41482e2e474959444420454c42414c4c5953204c55474e4148205d37325b20206f4c20232054564c203b20202020463537422e2e35343742,
0x4849444420454c42414c4c5953204c55474e41482e2e4749444420454c42414c4c5953204c55474e4148205d37325b20206f4c20232054564c203b20202020423737422e2e31363742,
0x48415220454c42414c4c5953204c55474e41482e2e47415220454c42414c4c5953204c55474e4148205d37325b20206f4c20232054564c203b20202020373937422e2e44373742,
0x4845415220454c42414c4c5953204c55474e41482e2e4745415220454c42414c4c5953204c55474e4148205d37325b20206f4c20232054564c203b20202020334237422e2e39393742,
0x4841595220454c42414c4c5953204c55474e41482e2e4741595220454c42414c4c5953204c55474e4148205d37325b20206f4c20232054564c203b20202020464337422e2e35423742,
0x484541595220454c42414c4c5953204c55474e41482e2e474541595220454c42414c4c5953204c55474e4148205d37325b20206f4c20232054564c203b20202020424537422e2e31443742,
0x484f455220454c42414c4c5953204c55474e41482e2e474f455220454c42414c4c5953204c55474e4148205d37325b20206f4c20232054564c203b20202020373038422e2e44453742,
0x48455220454c42414c4c5953204c55474e41482e2e47455220454c42414c4c5953204c55474e4148205d37325b20206f4c20232054564c203b20202020333238422e2e39303842,
0x484f45595220454c42414c4c5953204c55474e41482e2e474f45595220454c42414c4c5953204c55474e4148205d37325b20206f4c20232054564c203b20202020463338422e2e35323842,
0x4845595220454c42414c4c5953204c55474e41482e2e4745595220454c42414c4c5953204c55474e4148205d37325b20206f4c20232054564c203b20202020423538422e2e31343842,
0x484f5220454c42414c4c5953204c55474e41482e2e474f5220454c42414c4c5953204c55474e4148205d37325b20206f4c20232054564c203b20202020373738422e2e44353842,
0x4841575220454c42414c4c5953204c55474e41482e2e4741575220454c42414c4c5953204c55474e4148205d37325b20206f4c20232054564c203b20202020333938422e2e39373842,
0x484541575220454c42414c4c5953204c55474e41482e2e474541575220454c42414c4c5953204c55474e4148205d37325b20206f4c20232054564c203b20202020464138422e2e35393842,
0x48454f5220454c42414c4c5953204c55474e41482e2e47454f5220454c42414c4c5953204c55474e4148205d37325b20206f4c20232054564c203b20202020424338422e2e31423842,
0x484f595220454c42414c4c5953204c55474e41482e2e474f595220454c42414c4c5953204c55474e4148205d37325b20206f4c20232054564c203b20202020374538422e2e44433842,
0x48555220454c42414c4c5953204c55474e41482e2e47555220454c42414c4c5953204c55474e4148205d37325b20206f4c20232054564c203b20202020333039422e2e39453842,
0x484f45575220454c42414c4c5953204c55474e41482e2e474f45575220454c42414c4c5953204c55474e4148205d37325b20206f4c20232054564c203b20202020463139422e2e35303942,
0x4845575220454c42414c4c5953204c55474e41482e2e4745575220454c42414c4c5953204c55474e4148205d37325b20206f4c20232054564c203b20202020423339422e2e31323942,
0x4849575220454c42414c4c5953204c55474e41482e2e4749575220454c42414c4c5953204c55474e4148205d37325b20206f4c20232054564c203b20202020373539422e2e44333942,
0x4855595220454c42414c4c5953204c55474e41482e2e4755595220454c42414c4c5953204c55474e4148205d37325b20206f4c20232054564c203b20202020333739422e2e39353942,
0x4855455220454c42414c4c5953204c55474e41482e2e4755455220454c42414c4c5953204c55474e4148205d37325b20206f4c20232054564c203b20202020463839422e2e35373942,
0x4849595220454c42414c4c5953204c55474e41482e2e4749595220454c42414c4c5953204c55474e4148205d37325b20206f4c20232054564c203b20202020424139422e2e31393942,
0x48495220454c42414c4c5953204c55474e41482e2e47495220454c42414c4c5953204c55474e4148205d37325b20206f4c20232054564c203b20202020374339422e2e44413942,
0x48414d20454c42414c4c5953204c55474e41482e2e47414d20454c42414c4c5953204c55474e4148205d37325b20206f4c20232054564c203b20202020334539422e2e39433942,
0x4845414d20454c42414c4c5953204c55474e41482e2e4745414d20454c42414c4c5953204c55474e4148205d37325b20206f4c20232054564c203b20202020464639422e2e35453942,
0x4841594d20454c42414c4c5953204c55474e41482e2e4741594d20454c42414c4c5953204c55474e4148205d37325b20206f4c20232054564c203b20202020423141422e2e31304142,
0x484541594d20454c42414c4c5953204c55474e41482e2e474541594d20454c42414c4c5953204c55474e4148205d37325b20206f4c20232054564c203b20202020373341422e2e44314142,
0x484f454d20454c42414c4c5953204c55474e41482e2e474f454d20454c42414c4c5953204c55474e4148205d37325b20206f4c20232054564c203b20202020333541422e2e39334142,
0x48454d20454c42414c4c5953204c55474e41482e2e47454d20454c42414c4c5953204c55474e4148205d37325b20206f4c20232054564c203b20202020463641422e2e35354142,
0x484f45594d20454c42414c4c5953204c55474e41482e2e474f45594d20454c42414c4c5953204c55474e4148205d37325b20206f4c20232054564c203b20202020423841422e2e31374142,
0x4845594d20454c42414c4c5953204c55474e41482e2e4745594d20454c42414c4c5953204c55474e4148205d37325b20206f4c20232054564c203b20202020374141422e2e44384142,
0x484f4d20454c42414c4c5953204c55474e41482e2e474f4d20454c42414c4c5953204c55474e4148205d37325b20206f4c20232054564c203b20202020334341422e2e39414142,
0x4841574d20454c42414c4c5953204c55474e41482e2e4741574d20454c42414c4c5953204c55474e4148205d37325b20206f4c20232054564c203b20202020464441422e2e35434142,
0x484541574d20454c42414c4c5953204c55474e41482e2e474541574d20454c42414c4c5953204c55474e4148205d37325b20206f4c20232054564c203b20202020424641422e2e31454142,
0x48454f4d20454c42414c4c5953204c55474e41482e2e47454f4d20454c42414c4c5953204c55474e4148205d37325b20206f4c20232054564c203b20202020373142422e2e44464142,
0x484f594d20454c42414c4c5953204c55474e41482e2e474f594d20454c42414c4c5953204c55474e4148205d37325b20206f4c20232054564c203b20202020333342422e2e39314242,
0x48554d20454c42414c4c5953204c55474e41482e2e47554d20454c42414c4c5953204c55474e4148205d37325b20206f4c20232054564c203b20202020463442422e2e35334242,
0x484f45574d20454c42414c4c5953204c55474e41482e2e474f45574d20454c42414c4c5953204c55474e4148205d37325b20206f4c20232054564c203b20202020423642422e2e31354242,
0x4845574d20454c42414c4c5953204c55474e41482e2e4745574d20454c42414c4c5953204c55474e4148205d37325b20206f4c20232054564c203b20202020373842422e2e44364242,
0x4849574d20454c42414c4c5953204c55474e41482e2e4749574d20454c42414c4c5953204c55474e4148205d37325b20206f4c20232054564c203b20202020334142422e2e39384242,
0x4855594d20454c42414c4c5953204c55474e41482e2e4755594d20454c42414c4c5953204c55474e4148205d37325b20206f4c20232054564c203b20202020464242422e2e35414242,
0x4855454d20454c42414c4c5953204c55474e41482e2e4755454d20454c42414c4c5953204c55474e4148205d37325b20206f4c20232054564c203b20202020424442422e2e31434242,
0x4849594d20454c42414c4c5953204c55474e41482e2e4749594d20454c42414c4c5953204c55474e4148205d37325b20206f4c20232054564c203b20202020374642422e2e44444242,
0x48494d20454c42414c4c5953204c55474e41482e2e47494d20454c42414c4c5953204c55474e4148205d37325b20206f4c20232054564c203b20202020333143422e2e39464242,
0x48414220454c42414c4c5953204c55474e41482e2e47414220454c42414c4c5953204c55474e4148205d37325b20206f4c20232054564c203b20202020463243422e2e35314342,
0x4845414220454c42414c4c5953204c55474e41482e2e4745414220454c42414c4c5953204c55474e4148205d37325b20206f4c20232054564c203b20202020423443422e2e31334342,
0x4841594220454c42414c4c5953204c55474e41482e2e4741594220454c42414c4c5953204c55474e4148205d37325b20206f4c20232054564c203b20202020373643422e2e44344342,
0x484541594220454c42414c4c5953204c55474e41482e2e474541594220454c42414c4c5953204c55474e4148205d37325b20206f4c20232054564c203b20202020333843422e2e39364342,
0x484f454220454c42414c4c5953204c55474e41482e2e474f454220454c42414c4c5953204c55474e4148205d37325b20206f4c20232054564c203b20202020463943422e2e35384342,
0x48454220454c42414c4c5953204c55474e41482e2e47454220454c42414c4c5953204c55474e4148205d37325b20206f4c20232054564c203b20202020424243422e2e31414342,
0x484f45594220454c42414c4c5953204c55474e41482e2e474f45594220454c42414c4c5953204c55474e4148205d37325b20206f4c20232054564c203b20202020374443422e2e44424342,
0x4845594220454c42414c4c5953204c55474e41482e2e4745594220454c42414c4c5953204c55474e4148205d37325b20206f4c20232054564c203b20202020334643422e2e39444342,
0x484f4220454c42414c4c5953204c55474e41482e2e474f4220454c42414c4c5953204c55474e4148205d37325b20206f4c20232054564c203b20202020463044422e2e35464342,
0x4841574220454c42414c4c5953204c55474e41482e2e4741574220454c42414c4c5953204c55474e4148205d37325b20206f4c20232054564c203b20202020423244422e2e31314442,
0x484541574220454c42414c4c5953204c55474e41482e2e474541574220454c42414c4c5953204c55474e4148205d37325b20206f4c20232054564c203b20202020373444422e2e44324442,
0x48454f4220454c42414c4c5953204c55474e41482e2e47454f4220454c42414c4c5953204c55474e4148205d37325b20206f4c20232054564c203b20202020333644422e2e39344442,
0x484f594220454c42414c4c5953204c55474e41482e2e474f594220454c42414c4c5953204c55474e4148205d37325b20206f4c20232054564c203b20202020463744422e2e35364442,
0x48554220454c42414c4c5953204c55474e41482e2e47554220454c42414c4c5953204c55474e4148205d37325b20206f4c20232054564c203b20202020423944422e2e31384442,
0x484f45574220454c42414c4c5953204c55474e41482e2e474f45574220454c42414c4c5953204c55474e4148205d37325b20206f4c20232054564c203b20202020374244422e2e44394442,
0x4845574220454c42414c4c5953204c55474e41482e2e4745574220454c42414c4c5953204c55474e4148205d37325b20206f4c20232054564c203b20202020334444422e2e39424442,
0x4849574220454c42414c4c5953204c55474e41482e2e4749574220454c42414c4c5953204c55474e4148205d37325b20206f4c20232054564c203b20202020464544422e2e35444442,
0x4855594220454c42414c4c5953204c55474e41482e2e4755594220454c42414c4c5953204c55474e4148205d37325b20206f4c20232054564c203b20202020423045422e2e31464442,
0x4855454220454c42414c4c5953204c55474e41482e2e4755454220454c42414c4c5953204c55474e4148205d37325b20206f4c20232054564c203b20202020373245422e2e44304542,
0x4849594220454c42414c4c5953204c55474e41482e2e4749594220454c42414c4c5953204c55474e4148205d37325b20206f4c20232054564c203b20202020333445422e2e39324542,
0x48494220454c42414c4c5953204c55474e41482e2e47494220454c42414c4c5953204c55474e4148205d37325b20206f4c20232054564c203b20202020463545422e2e35344542,
0x4841424220454c42414c4c5953204c55474e41482e2e4741424220454c42414c4c5953204c55474e4148205d37325b20206f4c20232054564c203b20202020423745422e2e31364542,
0x484541424220454c42414c4c5953204c55474e41482e2e474541424220454c42414c4c5953204c55474e4148205d37325b20206f4c20232054564c203b20202020373945422e2e44374542,
0x484159424220454c42414c4c5953204c55474e41482e2e474159424220454c42414c4c5953204c55474e4148205d37325b20206f4c20232054564c203b20202020334245422e2e39394542,
0x48454159424220454c42414c4c5953204c55474e41482e2e47454159424220454c42414c4c5953204c55474e4148205d37325b20206f4c20232054564c203b20202020464345422e2e35424542,
0x484f45424220454c42414c4c5953204c55474e41482e2e474f45424220454c42414c4c5953204c55474e4148205d37325b20206f4c20232054564c203b20202020424545422e2e31444542,
0x4845424220454c42414c4c5953204c55474e41482e2e4745424220454c42414c4c5953204c55474e4148205d37325b20206f4c20232054564c203b20202020373046422e2e44454542,
0x484f4559424220454c42414c4c5953204c55474e41482e2e474f4559424220454c42414c4c5953204c55474e4148205d37325b20206f4c20232054564c203b20202020333246422e2e39304642,
0x484559424220454c42414c4c5953204c55474e41482e2e474559424220454c42414c4c5953204c55474e4148205d37325b20206f4c20232054564c203b20202020463346422e2e35324642,
0x484f424220454c42414c4c5953204c55474e41482e2e474f424220454c42414c4c5953204c55474e4148205d37325b20206f4c20232054564c203b20202020423546422e2e31344642,
0x484157424220454c42414c4c5953204c55474e41482e2e474157424220454c42414c4c5953204c55474e4148205d37325b20206f4c20232054564c203b20202020373746422e2e44354642,
0x48454157424220454c42414c4c5953204c55474e41482e2e47454157424220454c42414c4c5953204c55474e4148205d37325b20206f4c20232054564c203b20202020333946422e2e39374642,
0x48454f424220454c42414c4c5953204c55474e41482e2e47454f424220454c42414c4c5953204c55474e4148205d37325b20206f4c20232054564c203b20202020464146422e2e35394642,
0x484f59424220454c42414c4c5953204c55474e41482e2e474f59424220454c42414c4c5953204c55474e4148205d37325b20206f4c20232054564c203b20202020424346422e2e31424642,
0x4855424220454c42414c4c5953204c55474e41482e2e4755424220454c42414c4c5953204c55474e4148205d37325b20206f4c20232054564c203b20202020374546422e2e44434642,
0x484f4557424220454c42414c4c5953204c55474e41482e2e474f4557424220454c42414c4c5953204c55474e4148205d37325b20206f4c20232054564c203b20202020333030432e2e39454642,
0x484557424220454c42414c4c5953204c55474e41482e2e474557424220454c42414c4c5953204c55474e4148205d37325b20206f4c20232054564c203b20202020463130432e2e35303043,
0x484957424220454c42414c4c5953204c55474e41482e2e474957424220454c42414c4c5953204c55474e4148205d37325b20206f4c20232054564c203b20202020423330432e2e31323043,
0x485559424220454c42414c4c5953204c55474e41482e2e475559424220454c42414c4c5953204c55474e4148205d37325b20206f4c20232054564c203b20202020373530432e2e44333043,
0x485545424220454c42414c4c5953204c55474e41482e2e475545424220454c42414c4c5953204c55474e4148205d37325b20206f4c20232054564c203b20202020333730432e2e39353043,
0x484959424220454c42414c4c5953204c55474e41482e2e474959424220454c42414c4c5953204c55474e4148205d37325b20206f4c20232054564c203b20202020463830432e2e35373043,
0x4849424220454c42414c4c5953204c55474e41482e2e4749424220454c42414c4c5953204c55474e4148205d37325b20206f4c20232054564c203b20202020424130432e2e31393043,
0x48415320454c42414c4c5953204c55474e41482e2e47415320454c42414c4c5953204c55474e4148205d37325b20206f4c20232054564c203b20202020374330432e2e44413043,
0x4845415320454c42414c4c5953204c55474e41482e2e4745415320454c42414c4c5953204c55474e4148205d37325b20206f4c20232054564c203b20202020334530432e2e39433043,
0x4841595320454c42414c4c5953204c55474e41482e2e4741595320454c42414c4c5953204c55474e4148205d37325b20206f4c20232054564c203b20202020464630432e2e35453043,
0x484541595320454c42414c4c5953204c55474e41482e2e474541595320454c42414c4c5953204c55474e4148205d37325b20206f4c20232054564c203b20202020423131432e2e31303143,
0x484f455320454c42414c4c5953204c55474e41482e2e474f455320454c42414c4c5953204c55474e4148205d37325b20206f4c20232054564c203b20202020373331432e2e44313143,
0x48455320454c42414c4c5953204c55474e41482e2e47455320454c42414c4c5953204c55474e4148205d37325b20206f4c20232054564c203b20202020333531432e2e39333143,
0x484f45595320454c42414c4c5953204c55474e41482e2e474f45595320454c42414c4c5953204c55474e4148205d37325b20206f4c20232054564c203b20202020463631432e2e35353143,
0x4845595320454c42414c4c5953204c55474e41482e2e4745595320454c42414c4c5953204c55474e4148205d37325b20206f4c20232054564c203b20202020423831432e2e31373143,
0x484f5320454c42414c4c5953204c55474e41482e2e474f5320454c42414c4c5953204c55474e4148205d37325b20206f4c20232054564c203b20202020374131432e2e44383143,
0x4841575320454c42414c4c5953204c55474e41482e2e4741575320454c42414c4c5953204c55474e4148205d37325b20206f4c20232054564c203b20202020334331432e2e39413143,
0x484541575320454c42414c4c5953204c55474e41482e2e474541575320454c42414c4c5953204c55474e4148205d37325b20206f4c20232054564c203b20202020464431432e2e35433143,
0x48454f5320454c42414c4c5953204c55474e41482e2e47454f5320454c42414c4c5953204c55474e4148205d37325b20206f4c20232054564c203b20202020424631432e2e31453143,
0x484f595320454c42414c4c5953204c55474e41482e2e474f595320454c42414c4c5953204c55474e4148205d37325b20206f4c20232054564c203b20202020373132432e2e44463143,
0x48555320454c42414c4c5953204c55474e41482e2e47555320454c42414c4c5953204c55474e4148205d37325b20206f4c20232054564c203b20202020333332432e2e39313243,
0x484f45575320454c42414c4c5953204c55474e41482e2e474f45575320454c42414c4c5953204c55474e4148205d37325b20206f4c20232054564c203b20202020463432432e2e35333243,
0x4845575320454c42414c4c5953204c55474e41482e2e4745575320454c42414c4c5953204c55474e4148205d37325b20206f4c20232054564c203b20202020423632432e2e31353243,
0x4849575320454c42414c4c5953204c55474e41482e2e4749575320454c42414c4c5953204c55474e4148205d37325b20206f4c20232054564c203b20202020373832432e2e44363243,
0x4855595320454c42414c4c5953204c55474e41482e2e4755595320454c42414c4c5953204c55474e4148205d37325b20206f4c20232054564c203b20202020334132432e2e39383243,
0x4855455320454c42414c4c5953204c55474e41482e2e4755455320454c42414c4c5953204c55474e4148205d37325b20206f4c20232054564c203b20202020464232432e2e35413243,
0x4849595320454c42414c4c5953204c55474e41482e2e4749595320454c42414c4c5953204c55474e4148205d37325b20206f4c20232054564c203b20202020424432432e2e31433243,
0x48495320454c42414c4c5953204c55474e41482e2e47495320454c42414c4c5953204c55474e4148205d37325b20206f4c20232054564c203b20202020374632432e2e44443243,
0x4841535320454c42414c4c5953204c55474e41482e2e4741535320454c42414c4c5953204c55474e4148205d37325b20206f4c20232054564c203b20202020333133432e2e39463243,
0x484541535320454c42414c4c5953204c55474e41482e2e474541535320454c42414c4c5953204c55474e4148205d37325b20206f4c20232054564c203b20202020463233432e2e35313343,
0x484159535320454c42414c4c5953204c55474e41482e2e474159535320454c42414c4c5953204c55474e4148205d37325b20206f4c20232054564c203b20202020423433432e2e31333343,
0x48454159535320454c42414c4c5953204c55474e41482e2e47454159535320454c42414c4c5953204c55474e4148205d37325b20206f4c20232054564c203b20202020373633432e2e44343343,
0x484f45535320454c42414c4c5953204c55474e41482e2e474f45535320454c42414c4c5953204c55474e4148205d37325b20206f4c20232054564c203b20202020333833432e2e39363343,
0x4845535320454c42414c4c5953204c55474e41482e2e4745535320454c42414c4c5953204c55474e4148205d37325b20206f4c20232054564c203b20202020463933432e2e35383343,
0x484f4559535320454c42414c4c5953204c55474e41482e2e474f4559535320454c42414c4c5953204c55474e4148205d37325b20206f4c20232054564c203b20202020424233432e2e31413343,
0x484559535320454c42414c4c5953204c55474e41482e2e474559535320454c42414c4c5953204c55474e4148205d37325b20206f4c20232054564c203b20202020374433432e2e44423343,
0x484f535320454c42414c4c5953204c55474e41482e2e474f535320454c42414c4c5953204c55474e4148205d37325b20206f4c20232054564c203b20202020334633432e2e39443343,
0x484157535320454c42414c4c5953204c55474e41482e2e474157535320454c42414c4c5953204c55474e4148205d37325b20206f4c20232054564c203b20202020463034432e2e35463343,
0x48454157535320454c42414c4c5953204c55474e41482e2e47454157535320454c42414c4c5953204c55474e4148205d37325b20206f4c20232054564c203b20202020423234432e2e31313443,
0x48454f535320454c42414c4c5953204c55474e41482e2e47454f535320454c42414c4c5953204c55474e4148205d37325b20206f4c20232054564c203b20202020373434432e2e44323443,
0x484f59535320454c42414c4c5953204c55474e41482e2e474f59535320454c42414c4c5953204c55474e4148205d37325b20206f4c20232054564c203b20202020333634432e2e39343443,
0x4855535320454c42414c4c5953204c55474e41482e2e4755535320454c42414c4c5953204c55474e4148205d37325b20206f4c20232054564c203b20202020463734432e2e35363443,
0x484f4557535320454c42414c4c5953204c55474e41482e2e474f4557535320454c42414c4c5953204c55474e4148205d37325b20206f4c20232054564c203b20202020423934432e2e31383443,
0x484557535320454c42414c4c5953204c55474e41482e2e474557535320454c42414c4c5953204c55474e4148205d37325b20206f4c20232054564c203b20202020374234432e2e44393443,
0x484957535320454c42414c4c5953204c55474e41482e2e474957535320454c42414c4c5953204c55474e4148205d37325b20206f4c20232054564c203b20202020334434432e2e39423443,
0x485559535320454c42414c4c5953204c55474e41482e2e475559535320454c42414c4c5953204c55474e4148205d37325b20206f4c20232054564c203b20202020464534432e2e35443443,
0x485545535320454c42414c4c5953204c55474e41482e2e475545535320454c42414c4c5953204c55474e4148205d37325b20206f4c20232054564c203b20202020423035432e2e31463443,
0x484959535320454c42414c4c5953204c55474e41482e2e474959535320454c42414c4c5953204c55474e4148205d37325b20206f4c20232054564c203b20202020373235432e2e44303543,
0x4849535320454c42414c4c5953204c55474e41482e2e4749535320454c42414c4c5953204c55474e4148205d37325b20206f4c20232054564c203b20202020333435432e2e39323543,
0x484120454c42414c4c5953204c55474e41482e2e474120454c42414c4c5953204c55474e4148205d37325b20206f4c20232054564c203b20202020463535432e2e35343543,
0x48454120454c42414c4c5953204c55474e41482e2e47454120454c42414c4c5953204c55474e4148205d37325b20206f4c20232054564c203b20202020423735432e2e31363543,
0x48415920454c42414c4c5953204c55474e41482e2e47415920454c42414c4c5953204c55474e4148205d37325b20206f4c20232054564c203b20202020373935432e2e44373543,
0x4845415920454c42414c4c5953204c55474e41482e2e4745415920454c42414c4c5953204c55474e4148205d37325b20206f4c20232054564c203b20202020334235432e2e39393543,
0x484f4520454c42414c4c5953204c55474e41482e2e474f4520454c42414c4c5953204c55474e4148205d37325b20206f4c20232054564c203b20202020464335432e2e35423543,
0x484520454c42414c4c5953204c55474e41482e2e474520454c42414c4c5953204c55474e4148205d37325b20206f4c20232054564c203b20202020424535432e2e31443543,
0x484f455920454c42414c4c5953204c55474e41482e2e474f455920454c42414c4c5953204c55474e4148205d37325b20206f4c20232054564c203b20202020373036432e2e44453543,
0x48455920454c42414c4c5953204c55474e41482e2e47455920454c42414c4c5953204c55474e4148205d37325b20206f4c20232054564c203b20202020333236432e2e39303643,
0x484f20454c42414c4c5953204c55474e41482e2e474f20454c42414c4c5953204c55474e4148205d37325b20206f4c20232054564c203b20202020463336432e2e35323643,
0x48415720454c42414c4c5953204c55474e41482e2e47415720454c42414c4c5953204c55474e4148205d37325b20206f4c20232054564c203b20202020423536432e2e31343643,
0x4845415720454c42414c4c5953204c55474e41482e2e4745415720454c42414c4c5953204c55474e4148205d37325b20206f4c20232054564c203b20202020373736432e2e44353643,
0x48454f20454c42414c4c5953204c55474e41482e2e47454f20454c42414c4c5953204c55474e4148205d37325b20206f4c20232054564c203b20202020333936432e2e39373643,
0x484f5920454c42414c4c5953204c55474e41482e2e474f5920454c42414c4c5953204c55474e4148205d37325b20206f4c20232054564c203b20202020464136432e2e35393643,
0x485520454c42414c4c5953204c55474e41482e2e475520454c42414c4c5953204c55474e4148205d37325b20206f4c20232054564c203b20202020424336432e2e31423643,
0x484f455720454c42414c4c5953204c55474e41482e2e474f455720454c42414c4c5953204c55474e4148205d37325b20206f4c20232054564c203b20202020374536432e2e44433643,
0x48455720454c42414c4c5953204c55474e41482e2e47455720454c42414c4c5953204c55474e4148205d37325b20206f4c20232054564c203b20202020333037432e2e39453643,
0x48495720454c42414c4c5953204c55474e41482e2e47495720454c42414c4c5953204c55474e4148205d37325b20206f4c20232054564c203b20202020463137432e2e35303743,
0x48555920454c42414c4c5953204c55474e41482e2e47555920454c42414c4c5953204c55474e4148205d37325b20206f4c20232054564c203b20202020423337432e2e31323743,
0x48554520454c42414c4c5953204c55474e41482e2e47554520454c42414c4c5953204c55474e4148205d37325b20206f4c20232054564c203b20202020373537432e2e44333743,
0x48495920454c42414c4c5953204c55474e41482e2e47495920454c42414c4c5953204c55474e4148205d37325b20206f4c20232054564c203b20202020333737432e2e39353743,
0x484920454c42414c4c5953204c55474e41482e2e474920454c42414c4c5953204c55474e4148205d37325b20206f4c20232054564c203b20202020463837432e2e35373743,
0x48414a20454c42414c4c5953204c55474e41482e2e47414a20454c42414c4c5953204c55474e4148205d37325b20206f4c20232054564c203b20202020424137432e2e31393743,
0x4845414a20454c42414c4c5953204c55474e41482e2e4745414a20454c42414c4c5953204c55474e4148205d37325b20206f4c20232054564c203b20202020374337432e2e44413743,
0x4841594a20454c42414c4c5953204c55474e41482e2e4741594a20454c42414c4c5953204c55474e4148205d37325b20206f4c20232054564c203b20202020334537432e2e39433743,
0x484541594a20454c42414c4c5953204c55474e41482e2e474541594a20454c42414c4c5953204c55474e4148205d37325b20206f4c20232054564c203b20202020464637432e2e35453743,
0x484f454a20454c42414c4c5953204c55474e41482e2e474f454a20454c42414c4c5953204c55474e4148205d37325b20206f4c20232054564c203b20202020423138432e2e31303843,
0x48454a20454c42414c4c5953204c55474e41482e2e47454a20454c42414c4c5953204c55474e4148205d37325b20206f4c20232054564c203b20202020373338432e2e44313843,
0x484f45594a20454c42414c4c5953204c55474e41482e2e474f45594a20454c42414c4c5953204c55474e4148205d37325b20206f4c20232054564c203b20202020333538432e2e39333843,
0x4845594a20454c42414c4c5953204c55474e41482e2e4745594a20454c42414c4c5953204c55474e4148205d37325b20206f4c20232054564c203b20202020463638432e2e35353843,
0x484f4a20454c42414c4c5953204c55474e41482e2e474f4a20454c42414c4c5953204c55474e4148205d37325b20206f4c20232054564c203b20202020423838432e2e31373843,
0x4841574a20454c42414c4c5953204c55474e41482e2e4741574a20454c42414c4c5953204c55474e4148205d37325b20206f4c20232054564c203b20202020374138432e2e44383843,
0x484541574a20454c42414c4c5953204c55474e41482e2e474541574a20454c42414c4c5953204c55474e4148205d37325b20206f4c20232054564c203b20202020334338432e2e39413843,
0x48454f4a20454c42414c4c5953204c55474e41482e2e47454f4a20454c42414c4c5953204c55474e4148205d37325b20206f4c20232054564c203b20202020464438432e2e35433843,
0x484f594a20454c42414c4c5953204c55474e41482e2e474f594a20454c42414c4c5953204c55474e4148205d37325b20206f4c20232054564c203b20202020424638432e2e31453843,
0x48554a20454c42414c4c5953204c55474e41482e2e47554a20454c42414c4c5953204c55474e4148205d37325b20206f4c20232054564c203b20202020373139432e2e44463843,
0x484f45574a20454c42414c4c5953204c55474e41482e2e474f45574a20454c42414c4c5953204c55474e4148205d37325b20206f4c20232054564c203b20202020333339432e2e39313943,
0x4845574a20454c42414c4c5953204c55474e41482e2e4745574a20454c42414c4c5953204c55474e4148205d37325b20206f4c20232054564c203b20202020463439432e2e35333943,
0x4849574a20454c42414c4c5953204c55474e41482e2e4749574a20454c42414c4c5953204c55474e4148205d37325b20206f4c20232054564c203b20202020423639432e2e31353943,
0x4855594a20454c42414c4c5953204c55474e41482e2e4755594a20454c42414c4c5953204c55474e4148205d37325b20206f4c20232054564c203b20202020373839432e2e44363943,
0x4855454a20454c42414c4c5953204c55474e41482e2e4755454a20454c42414c4c5953204c55474e4148205d37325b20206f4c20232054564c203b20202020334139432e2e39383943,
0x4849594a20454c42414c4c5953204c55474e41482e2e4749594a20454c42414c4c5953204c55474e4148205d37325b20206f4c20232054564c203b20202020464239432e2e35413943,
0x48494a20454c42414c4c5953204c55474e41482e2e47494a20454c42414c4c5953204c55474e4148205d37325b20206f4c20232054564c203b20202020424439432e2e31433943,
0x48414a4a20454c42414c4c5953204c55474e41482e2e47414a4a20454c42414c4c5953204c55474e4148205d37325b20206f4c20232054564c203b20202020374639432e2e44443943,
0x4845414a4a20454c42414c4c5953204c55474e41482e2e4745414a4a20454c42414c4c5953204c55474e4148205d37325b20206f4c20232054564c203b20202020333141432e2e39463943,
0x4841594a4a20454c42414c4c5953204c55474e41482e2e4741594a4a20454c42414c4c5953204c55474e4148205d37325b20206f4c20232054564c203b20202020463241432e2e35314143,
0x484541594a4a20454c42414c4c5953204c55474e41482e2e474541594a4a20454c42414c4c5953204c55474e4148205d37325b20206f4c20232054564c203b20202020423441432e2e31334143,
0x484f454a4a20454c42414c4c5953204c55474e41482e2e474f454a4a20454c42414c4c5953204c55474e4148205d37325b20206f4c20232054564c203b20202020373641432e2e44344143,
0x48454a4a20454c42414c4c5953204c55474e41482e2e47454a4a20454c42414c4c5953204c55474e4148205d37325b20206f4c20232054564c203b20202020333841432e2e39364143,
0x484f45594a4a20454c42414c4c5953204c55474e41482e2e474f45594a4a20454c42414c4c5953204c55474e4148205d37325b20206f4c20232054564c203b20202020463941432e2e35384143,
0x4845594a4a20454c42414c4c5953204c55474e41482e2e4745594a4a20454c42414c4c5953204c55474e4148205d37325b20206f4c20232054564c203b20202020424241432e2e31414143,
0x484f4a4a20454c42414c4c5953204c55474e41482e2e474f4a4a20454c42414c4c5953204c55474e4148205d37325b20206f4c20232054564c203b20202020374441432e2e44424143,
0x4841574a4a20454c42414c4c5953204c55474e41482e2e4741574a4a20454c42414c4c5953204c55474e4148205d37325b20206f4c20232054564c203b20202020334641432e2e39444143,
0x484541574a4a20454c42414c4c5953204c55474e41482e2e474541574a4a20454c42414c4c5953204c55474e4148205d37325b20206f4c20232054564c203b20202020463042432e2e35464143,
0x48454f4a4a20454c42414c4c5953204c55474e41482e2e47454f4a4a20454c42414c4c5953204c55474e4148205d37325b20206f4c20232054564c203b20202020423242432e2e31314243,
0x484f594a4a20454c42414c4c5953204c55474e41482e2e474f594a4a20454c42414c4c5953204c55474e4148205d37325b20206f4c20232054564c203b20202020373442432e2e44324243,
0x48554a4a20454c42414c4c5953204c55474e41482e2e47554a4a20454c42414c4c5953204c55474e4148205d37325b20206f4c20232054564c203b20202020333642432e2e39344243,
0x484f45574a4a20454c42414c4c5953204c55474e41482e2e474f45574a4a20454c42414c4c5953204c55474e4148205d37325b20206f4c20232054564c203b20202020463742432e2e35364243,
0x4845574a4a20454c42414c4c5953204c55474e41482e2e4745574a4a20454c42414c4c5953204c55474e4148205d37325b20206f4c20232054564c203b20202020423942432e2e31384243,
0x4849574a4a20454c42414c4c5953204c55474e41482e2e4749574a4a20454c42414c4c5953204c55474e4148205d37325b20206f4c20232054564c203b20202020374242432e2e44394243,
0x4855594a4a20454c42414c4c5953204c55474e41482e2e4755594a4a20454c42414c4c5953204c55474e4148205d37325b20206f4c20232054564c203b20202020334442432e2e39424243,
0x4855454a4a20454c42414c4c5953204c55474e41482e2e4755454a4a20454c42414c4c5953204c55474e4148205d37325b20206f4c20232054564c203b20202020464542432e2e35444243,
0x4849594a4a20454c42414c4c5953204c55474e41482e2e4749594a4a20454c42414c4c5953204c55474e4148205d37325b20206f4c20232054564c203b20202020423043432e2e31464243,
0x48494a4a20454c42414c4c5953204c55474e41482e2e47494a4a20454c42414c4c5953204c55474e4148205d37325b20206f4c20232054564c203b20202020373243432e2e44304343,
0x48414320454c42414c4c5953204c55474e41482e2e47414320454c42414c4c5953204c55474e4148205d37325b20206f4c20232054564c203b20202020333443432e2e39324343,
0x4845414320454c42414c4c5953204c55474e41482e2e4745414320454c42414c4c5953204c55474e4148205d37325b20206f4c20232054564c203b20202020463543432e2e35344343,
0x4841594320454c42414c4c5953204c55474e41482e2e4741594320454c42414c4c5953204c55474e4148205d37325b20206f4c20232054564c203b20202020423743432e2e31364343,
0x484541594320454c42414c4c5953204c55474e41482e2e474541594320454c42414c4c5953204c55474e4148205d37325b20206f4c20232054564c203b20202020373943432e2e44374343,
0x484f454320454c42414c4c5953204c55474e41482e2e474f454320454c42414c4c5953204c55474e4148205d37325b20206f4c20232054564c203b20202020334243432e2e39394343,
0x48454320454c42414c4c5953204c55474e41482e2e47454320454c42414c4c5953204c55474e4148205d37325b20206f4c20232054564c203b20202020464343432e2e35424343,
0x484f45594320454c42414c4c5953204c55474e41482e2e474f45594320454c42414c4c5953204c55474e4148205d37325b20206f4c20232054564c203b20202020424543432e2e31444343,
0x4845594320454c42414c4c5953204c55474e41482e2e4745594320454c42414c4c5953204c55474e4148205d37325b20206f4c20232054564c203b20202020373044432e2e44454343,
0x484f4320454c42414c4c5953204c55474e41482e2e474f4320454c42414c4c5953204c55474e4148205d37325b20206f4c20232054564c203b20202020333244432e2e39304443,
0x4841574320454c42414c4c5953204c55474e41482e2e4741574320454c42414c4c5953204c55474e4148205d37325b20206f4c20232054564c203b20202020463344432e2e35324443,
0x484541574320454c42414c4c5953204c55474e41482e2e474541574320454c42414c4c5953204c55474e4148205d37325b20206f4c20232054564c203b20202020423544432e2e31344443,
0x48454f4320454c42414c4c5953204c55474e41482e2e47454f4320454c42414c4c5953204c55474e4148205d37325b20206f4c20232054564c203b20202020373744432e2e44354443,
0x484f594320454c42414c4c5953204c55474e41482e2e474f594320454c42414c4c5953204c55474e4148205d37325b20206f4c20232054564c203b20202020333944432e2e39374443,
0x48554320454c42414c4c5953204c55474e41482e2e47554320454c42414c4c5953204c55474e4148205d37325b20206f4c20232054564c203b20202020464144432e2e35394443,
0x484f45574320454c42414c4c5953204c55474e41482e2e474f45574320454c42414c4c5953204c55474e4148205d37325b20206f4c20232054564c203b20202020424344432e2e31424443,
0x4845574320454c42414c4c5953204c55474e41482e2e4745574320454c42414c4c5953204c55474e4148205d37325b20206f4c20232054564c203b20202020374544432e2e44434443,
0x4849574320454c42414c4c5953204c55474e41482e2e4749574320454c42414c4c5953204c55474e4148205d37325b20206f4c20232054564c203b20202020333045432e2e39454443]

/-- src/u5e/props/GraphemeBreakProperty.txt lines 1281-1431. -/
def rawGcb5 : List Nat := [
0x4855594320454c42414c4c5953204c55474e41482e2e4755594320454c42414c4c5953204c55474e4148205d37325b20206f4c20232054564c203b20202020463145432e2e35304543,
0x4855454320454c42414c4c5953204c55474e41482e2e4755454320454c42414c4c5953204c55474e4148205d37325b20206f4c20232054564c203b20202020423345432e2e31324543,
0x4849594320454c42414c4c5953204c55474e41482e2e4749594320454c42414c4c5953204c55474e4148205d37325b20206f4c20232054564c203b20202020373545432e2e44334543,
0x48494320454c42414c4c5953204c55474e41482e2e47494320454c42414c4c5953204c55474e4148205d37325b20206f4c20232054564c203b20202020333745432e2e39354543,
0x48414b20454c42414c4c5953204c55474e41482e2e47414b20454c42414c4c5953204c55474e4148205d37325b20206f4c20232054564c203b20202020463845432e2e35374543,
0x4845414b20454c42414c4c5953204c55474e41482e2e4745414b20454c42414c4c5953204c55474e4148205d37325b20206f4c20232054564c203b20202020424145432e2e31394543,
0x4841594b20454c42414c4c5953204c55474e41482e2e4741594b20454c42414c4c5953204c55474e4148205d37325b20206f4c20232054564c203b20202020374345432e2e44414543,
0x484541594b20454c42414c4c5953204c55474e41482e2e474541594b20454c42414c4c5953204c55474e4148205d37325b20206f4c20232054564c203b20202020334545432e2e39434543,
0x484f454b20454c42414c4c5953204c55474e41482e2e474f454b20454c42414c4c5953204c55474e4148205d37325b20206f4c20232054564c203b20202020464645432e2e35454543,
0x48454b20454c42414c4c5953204c55474e41482e2e47454b20454c42414c4c5953204c55474e4148205d37325b20206f4c20232054564c203b20202020423146432e2e31304643,
0x484f45594b20454c42414c4c5953204c55474e41482e2e474f45594b20454c42414c4c5953204c55474e4148205d37325b20206f4c20232054564c203b20202020373346432e2e44314643,
0x4845594b20454c42414c4c5953204c55474e41482e2e4745594b20454c42414c4c5953204c55474e4148205d37325b20206f4c20232054564c203b20202020333546432e2e39334643,
0x484f4b20454c42414c4c5953204c55474e41482e2e474f4b20454c42414c4c5953204c55474e4148205d37325b20206f4c20232054564c203b20202020463646432e2e35354643,
0x4841574b20454c42414c4c5953204c55474e41482e2e4741574b20454c42414c4c5953204c55474e4148205d37325b20206f4c20232054564c203b20202020423846432e2e31374643,
0x484541574b20454c42414c4c5953204c55474e41482e2e474541574b20454c42414c4c5953204c55474e4148205d37325b20206f4c20232054564c203b20202020374146432e2e44384643,
0x48454f4b20454c42414c4c5953204c55474e41482e2e47454f4b20454c42414c4c5953204c55474e4148205d37325b20206f4c20232054564c203b20202020334346432e2e39414643,
0x484f594b20454c42414c4c5953204c55474e41482e2e474f594b20454c42414c4c5953204c55474e4148205d37325b20206f4c20232054564c203b20202020464446432e2e35434643,
0x48554b20454c42414c4c5953204c55474e41482e2e47554b20454c42414c4c5953204c55474e4148205d37325b20206f4c20232054564c203b20202020424646432e2e31454643,
0x484f45574b20454c42414c4c5953204c55474e41482e2e474f45574b20454c42414c4c5953204c55474e4148205d37325b20206f4c20232054564c203b20202020373130442e2e44464643,
0x4845574b20454c42414c4c5953204c55474e41482e2e4745574b20454c42414c4c5953204c55474e4148205d37325b20206f4c20232054564c203b20202020333330442e2e39313044,
0x4849574b20454c42414c4c5953204c55474e41482e2e4749574b20454c42414c4c5953204c55474e4148205d37325b20206f4c20232054564c203b20202020463430442e2e35333044,
0x4855594b20454c42414c4c5953204c55474e41482e2e4755594b20454c42414c4c5953204c55474e4148205d37325b20206f4c20232054564c203b20202020423630442e2e31353044,
0x4855454b20454c42414c4c5953204c55474e41482e2e4755454b20454c42414c4c5953204c55474e4148205d37325b20206f4c20232054564c203b20202020373830442e2e44363044,
0x4849594b20454c42414c4c5953204c55474e41482e2e4749594b20454c42414c4c5953204c55474e4148205d37325b20206f4c20232054564c203b20202020334130442e2e39383044,
0x48494b20454c42414c4c5953204c55474e41482e2e47494b20454c42414c4c5953204c55474e4148205d37325b20206f4c20232054564c203b20202020464230442e2e35413044,
0x48415420454c42414c4c5953204c55474e41482e2e47415420454c42414c4c5953204c55474e4148205d37325b20206f4c20232054564c203b20202020424430442e2e31433044,
0x4845415420454c42414c4c5953204c55474e41482e2e4745415420454c42414c4c5953204c55474e4148205d37325b20206f4c20232054564c203b20202020374630442e2e44443044,
0x4841595420454c42414c4c5953204c55474e41482e2e4741595420454c42414c4c5953204c55474e4148205d37325b20206f4c20232054564c203b20202020333131442e2e39463044,
0x484541595420454c42414c4c5953204c55474e41482e2e474541595420454c42414c4c5953204c55474e4148205d37325b20206f4c20232054564c203b20202020463231442e2e35313144,
0x484f455420454c42414c4c5953204c55474e41482e2e474f455420454c42414c4c5953204c55474e4148205d37325b20206f4c20232054564c203b20202020423431442e2e31333144,
0x48455420454c42414c4c5953204c55474e41482e2e47455420454c42414c4c5953204c55474e4148205d37325b20206f4c20232054564c203b20202020373631442e2e44343144,
0x484f45595420454c42414c4c5953204c55474e41482e2e474f45595420454c42414c4c5953204c55474e4148205d37325b20206f4c20232054564c203b20202020333831442e2e39363144,
0x4845595420454c42414c4c5953204c55474e41482e2e4745595420454c42414c4c5953204c55474e4148205d37325b20206f4c20232054564c203b20202020463931442e2e35383144,
0x484f5420454c42414c4c5953204c55474e41482e2e474f5420454c42414c4c5953204c55474e4148205d37325b20206f4c20232054564c203b20202020424231442e2e31413144,
0x4841575420454c42414c4c5953204c55474e41482e2e4741575420454c42414c4c5953204c55474e4148205d37325b20206f4c20232054564c203b20202020374431442e2e44423144,
0x484541575420454c42414c4c5953204c55474e41482e2e474541575420454c42414c4c5953204c55474e4148205d37325b20206f4c20232054564c203b20202020334631442e2e39443144,
0x48454f5420454c42414c4c5953204c55474e41482e2e47454f5420454c42414c4c5953204c55474e4148205d37325b20206f4c20232054564c203b20202020463032442e2e35463144,
0x484f595420454c42414c4c5953204c55474e41482e2e474f595420454c42414c4c5953204c55474e4148205d37325b20206f4c20232054564c203b20202020423232442e2e31313244,
0x48555420454c42414c4c5953204c55474e41482e2e47555420454c42414c4c5953204c55474e4148205d37325b20206f4c20232054564c203b20202020373432442e2e44323244,
0x484f45575420454c42414c4c5953204c55474e41482e2e474f45575420454c42414c4c5953204c55474e4148205d37325b20206f4c20232054564c203b20202020333632442e2e39343244,
0x4845575420454c42414c4c5953204c55474e41482e2e4745575420454c42414c4c5953204c55474e4148205d37325b20206f4c20232054564c203b20202020463732442e2e35363244,
0x4849575420454c42414c4c5953204c55474e41482e2e4749575420454c42414c4c5953204c55474e4148205d37325b20206f4c20232054564c203b20202020423932442e2e31383244,
0x4855595420454c42414c4c5953204c55474e41482e2e4755595420454c42414c4c5953204c55474e4148205d37325b20206f4c20232054564c203b20202020374232442e2e44393244,
0x4855455420454c42414c4c5953204c55474e41482e2e4755455420454c42414c4c5953204c55474e4148205d37325b20206f4c20232054564c203b20202020334432442e2e39423244,
0x4849595420454c42414c4c5953204c55474e41482e2e4749595420454c42414c4c5953204c55474e4148205d37325b20206f4c20232054564c203b20202020464532442e2e35443244,
0x48495420454c42414c4c5953204c55474e41482e2e47495420454c42414c4c5953204c55474e4148205d37325b20206f4c20232054564c203b20202020423033442e2e31463244,
0x48415020454c42414c4c5953204c55474e41482e2e47415020454c42414c4c5953204c55474e4148205d37325b20206f4c20232054564c203b20202020373233442e2e44303344,
0x4845415020454c42414c4c5953204c55474e41482e2e4745415020454c42414c4c5953204c55474e4148205d37325b20206f4c20232054564c203b20202020333433442e2e39323344,
0x4841595020454c42414c4c5953204c55474e41482e2e4741595020454c42414c4c5953204c55474e4148205d37325b20206f4c20232054564c203b20202020463533442e2e35343344,
0x484541595020454c42414c4c5953204c55474e41482e2e474541595020454c42414c4c5953204c55474e4148205d37325b20206f4c20232054564c203b20202020423733442e2e31363344,
0x484f455020454c42414c4c5953204c55474e41482e2e474f455020454c42414c4c5953204c55474e4148205d37325b20206f4c20232054564c203b20202020373933442e2e44373344,
0x48455020454c42414c4c5953204c55474e41482e2e47455020454c42414c4c5953204c55474e4148205d37325b20206f4c20232054564c203b20202020334233442e2e39393344,
0x484f45595020454c42414c4c5953204c55474e41482e2e474f45595020454c42414c4c5953204c55474e4148205d37325b20206f4c20232054564c203b20202020464333442e2e35423344,
0x4845595020454c42414c4c5953204c55474e41482e2e4745595020454c42414c4c5953204c55474e4148205d37325b20206f4c20232054564c203b20202020424533442e2e31443344,
0x484f5020454c42414c4c5953204c55474e41482e2e474f5020454c42414c4c5953204c55474e4148205d37325b20206f4c20232054564c203b20202020373034442e2e44453344,
0x4841575020454c42414c4c5953204c55474e41482e2e4741575020454c42414c4c5953204c55474e4148205d37325b20206f4c20232054564c203b20202020333234442e2e39303444,
0x484541575020454c42414c4c5953204c55474e41482e2e474541575020454c42414c4c5953204c55474e4148205d37325b20206f4c20232054564c203b20202020463334442e2e35323444,
0x48454f5020454c42414c4c5953204c55474e41482e2e47454f5020454c42414c4c5953204c55474e4148205d37325b20206f4c20232054564c203b20202020423534442e2e31343444,
0x484f595020454c42414c4c5953204c55474e41482e2e474f595020454c42414c4c5953204c55474e4148205d37325b20206f4c20232054564c203b20202020373734442e2e44353444,
0x48555020454c42414c4c5953204c55474e41482e2e47555020454c42414c4c5953204c55474e4148205d37325b20206f4c20232054564c203b20202020333934442e2e39373444,
0x484f45575020454c42414c4c5953204c55474e41482e2e474f45575020454c42414c4c5953204c55474e4148205d37325b20206f4c20232054564c203b20202020464134442e2e35393444,
0x4845575020454c42414c4c5953204c55474e41482e2e4745575020454c42414c4c5953204c55474e4148205d37325b20206f4c20232054564c203b20202020424334442e2e31423444,
0x4849575020454c42414c4c5953204c55474e41482e2e4749575020454c42414c4c5953204c55474e4148205d37325b20206f4c20232054564c203b20202020374534442e2e44433444,
0x4855595020454c42414c4c5953204c55474e41482e2e4755595020454c42414c4c5953204c55474e4148205d37325b20206f4c20232054564c203b20202020333035442e2e39453444,
0x4855455020454c42414c4c5953204c55474e41482e2e4755455020454c42414c4c5953204c55474e4148205d37325b20206f4c20232054564c203b20202020463135442e2e35303544,
0x4849595020454c42414c4c5953204c55474e41482e2e4749595020454c42414c4c5953204c55474e4148205d37325b20206f4c20232054564c203b20202020423335442e2e31323544,
0x48495020454c42414c4c5953204c55474e41482e2e47495020454c42414c4c5953204c55474e4148205d37325b20206f4c20232054564c203b20202020373535442e2e44333544,
0x48414820454c42414c4c5953204c55474e41482e2e47414820454c42414c4c5953204c55474e4148205d37325b20206f4c20232054564c203b20202020333735442e2e39353544,
0x4845414820454c42414c4c5953204c55474e41482e2e4745414820454c42414c4c5953204c55474e4148205d37325b20206f4c20232054564c203b20202020463835442e2e35373544,
0x4841594820454c42414c4c5953204c55474e41482e2e4741594820454c42414c4c5953204c55474e4148205d37325b20206f4c20232054564c203b20202020424135442e2e31393544,
0x484541594820454c42414c4c5953204c55474e41482e2e474541594820454c42414c4c5953204c55474e4148205d37325b20206f4c20232054564c203b20202020374335442e2e44413544,
0x484f454820454c42414c4c5953204c55474e41482e2e474f454820454c42414c4c5953204c55474e4148205d37325b20206f4c20232054564c203b20202020334535442e2e39433544,
0x48454820454c42414c4c5953204c55474e41482e2e47454820454c42414c4c5953204c55474e4148205d37325b20206f4c20232054564c203b20202020464635442e2e35453544,
0x484f45594820454c42414c4c5953204c55474e41482e2e474f45594820454c42414c4c5953204c55474e4148205d37325b20206f4c20232054564c203b20202020423136442e2e31303644,
0x4845594820454c42414c4c5953204c55474e41482e2e4745594820454c42414c4c5953204c55474e4148205d37325b20206f4c20232054564c203b20202020373336442e2e44313644,
0x484f4820454c42414c4c5953204c55474e41482e2e474f4820454c42414c4c5953204c55474e4148205d37325b20206f4c20232054564c203b20202020333536442e2e39333644,
0x4841574820454c42414c4c5953204c55474e41482e2e4741574820454c42414c4c5953204c55474e4148205d37325b20206f4c20232054564c203b20202020463636442e2e35353644,
0x484541574820454c42414c4c5953204c55474e41482e2e474541574820454c42414c4c5953204c55474e4148205d37325b20206f4c20232054564c203b20202020423836442e2e31373644,
0x48454f4820454c42414c4c5953204c55474e41482e2e47454f4820454c42414c4c5953204c55474e4148205d37325b20206f4c20232054564c203b20202020374136442e2e44383644,
0x484f594820454c42414c4c5953204c55474e41482e2e474f594820454c42414c4c5953204c55474e4148205d37325b20206f4c20232054564c203b20202020334336442e2e39413644,
0x48554820454c42414c4c5953204c55474e41482e2e47554820454c42414c4c5953204c55474e4148205d37325b20206f4c20232054564c203b20202020464436442e2e35433644,
0x484f45574820454c42414c4c5953204c55474e41482e2e474f45574820454c42414c4c5953204c55474e4148205d37325b20206f4c20232054564c203b20202020424636442e2e31453644,
0x4845574820454c42414c4c5953204c55474e41482e2e4745574820454c42414c4c5953204c55474e4148205d37325b20206f4c20232054564c203b20202020373137442e2e44463644,
0x4849574820454c42414c4c5953204c55474e41482e2e4749574820454c42414c4c5953204c55474e4148205d37325b20206f4c20232054564c203b20202020333337442e2e39313744,
0x4855594820454c42414c4c5953204c55474e41482e2e4755594820454c42414c4c5953204c55474e4148205d37325b20206f4c20232054564c203b20202020463437442e2e35333744,
0x4855454820454c42414c4c5953204c55474e41482e2e4755454820454c42414c4c5953204c55474e4148205d37325b20206f4c20232054564c203b20202020423637442e2e31353744,
0x4849594820454c42414c4c5953204c55474e41482e2e4749594820454c42414c4c5953204c55474e4148205d37325b20206f4c20232054564c203b20202020373837442e2e44363744,
0x48494820454c42414c4c5953204c55474e41482e2e47494820454c42414c4c5953204c55474e4148205d37325b20206f4c20232054564c203b20202020334137442e2e39383744,
0x0,
0x3337373031203a73746e696f702065646f63206c61746f542023,
0x0,
0x3d3d3d3d3d3d3d3d3d3d3d3d3d3d3d3d3d3d3d3d3d3d3d3d3d3d3d3d3d3d3d3d3d3d3d3d3d3d3d3d3d3d3d3d3d3d3d3d2023,
0x0,
0x5845444e4920474e49544e494f50205055204554494857202020202020206f53202320657361425f45203b2020202020202020202044313632,
0x4c4c41422048544957204e4f53524550202020202020206f53202320657361425f45203b2020202020202020202039463632,
0x444e414820474e49544952572e2e5453494620444553494152205d345b2020206f53202320657361425f45203b20202020443037322e2e41303732,
0x53414d54534952484320524548544146202020202020206f53202320657361425f45203b2020202020202020203538334631,
0x5245465255532e2e52454e4e5552205d325b2020206f53202320657361425f45203b202034433346312e2e3343334631,
0x52455446494c205448474945572e2e52454d4d495753205d325b2020206f53202320657361425f45203b202042433346312e2e4143334631,
0x45534f4e2e2e524145205d325b2020206f53202320657361425f45203b202033343446312e2e3234344631,
0x4e4749532053444e4148204e45504f2e2e5845444e4920444e41484b43414220474e49544e494f50205055204554494857205d31315b20206f53202320657361425f45203b202030353446312e2e3634344631,
0x5245434946464f204543494c4f50202020202020206f53202320657361425f45203b2020202020202020204536344631,
0x535345434e4952502e2e4c4945562048544957204544495242205d395b2020206f53202320657361425f45203b202038373446312e2e3037344631,
0x4c45474e412059424142202020202020206f53202320657361425f45203b2020202020202020204337344631,
0x5245434e41442e2e4e4f53524550204b534544204e4f4954414d524f464e49205d335b2020206f53202320657361425f45203b202033383446312e2e3138344631,
0x545543524941482e2e4853494c4f50204c49414e205d335b2020206f53202320657361425f45203b202037383446312e2e3538344631,
0x53504543494220444558454c46202020202020206f53202320657361425f45203b2020202020202020204141344631,
0x59505320524f20485455454c53202020202020206f53202320657361425f45203b2020202020202020203537354631,
0x474e49434e4144204e414d202020202020206f53202320657361425f45203b2020202020202020204137354631,
0x444559414c505320535245474e4946204854495720444e414820444553494152202020202020206f53202320657361425f45203b2020202020202020203039354631,
0x535245474e494620474e495220444e4120454c4444494d204e4545575445422054524150204854495720444e4148204445534941522e2e4445444e45545845205245474e494620454c4444494d204854495720444e4148204445535245564552205d325b2020206f53202320657361425f45203b202036393546312e2e3539354631,
0x594c5045454420474e49574f42204e4f535245502e2e4552555453454720444f4f47204f4e20485449572045434146205d335b2020206f53202320657361425f45203b202037343646312e2e3534364631,
0x53444e4148204445444c4f462048544957204e4f535245502e2e444e414820454e4f20474e4953494152204e4f53524550205950504148205d355b2020206f53202320657361425f45203b202046343646312e2e4234364631,
0x54414f42574f52202020202020206f53202320657361425f45203b2020202020202020203341364631,
0x4e4149525453454445502e2e5453494c4359434942205d335b2020206f53202320657361425f45203b202036423646312e2e3442364631,
0x48544142202020202020206f53202320657361425f45203b2020202020202020203043364631,
0x444553534f524320535245474e494620454c4444494d20444e41205845444e49204854495720444e41482e2e534e524f482045485420464f204e474953205d375b2020206f53202320657361425f45203b202045313946312e2e3831394631,
0x4d4c41502045434146202020202020206f53202320657361425f45203b2020202020202020203632394631,
0x4e414d4f5720544e414e47455250202020202020206f53202320657361425f45203b2020202020202020203033394631,
0x474e494c4747554a2e2e4549464c4553205d375b2020206f53202320657361425f45203b202039333946312e2e3333394631,
0x4c4c4142444e41482e2e5352454c5453455257205d335b2020206f53202320657361425f45203b202045333946312e2e4333394631,
0x0,
0x3937203a73746e696f702065646f63206c61746f542023,
0x0,
0x3d3d3d3d3d3d3d3d3d3d3d3d3d3d3d3d3d3d3d3d3d3d3d3d3d3d3d3d3d3d3d3d3d3d3d3d3d3d3d3d3d3d3d3d3d3d3d3d2023,
0x0,
0x362d45505954204b4349525441505a544946205245494649444f4d20494a4f4d452e2e322d312d45505954204b4349525441505a544946205245494649444f4d20494a4f4d45205d355b2020206b532023207265696669646f4d5f45203b202046463346312e2e4246334631,
0x0,
0x35203a73746e696f702065646f63206c61746f542023,
0x0,
0x3d3d3d3d3d3d3d3d3d3d3d3d3d3d3d3d3d3d3d3d3d3d3d3d3d3d3d3d3d3d3d3d3d3d3d3d3d3d3d3d3d3d3d3d3d3d3d3d2023,
0x0,
0x52454e494f4a204854444957204f52455a2020202020202066432023204a575a203b2020202020202020202044303032,
0x0,
0x31203a73746e696f702065646f63206c61746f542023,
0x0,
0x3d3d3d3d3d3d3d3d3d3d3d3d3d3d3d3d3d3d3d3d3d3d3d3d3d3d3d3d3d3d3d3d3d3d3d3d3d3d3d3d3d3d3d3d3d3d3d3d2023,
0x0,
0x5452414548204b43414c42205956414548202020202020206f532023206a775a5f72657466415f65756c47203b2020202020202020202034363732,
0x4b52414d205353494b202020202020206f532023206a775a5f72657466415f65756c47203b2020202020202020204238344631,
0x454c4242554220484345455053205446454c202020202020206f532023206a775a5f72657466415f65756c47203b2020202020202020203845354631,
0x0,
0x33203a73746e696f702065646f63206c61746f542023,
0x0,
0x3d3d3d3d3d3d3d3d3d3d3d3d3d3d3d3d3d3d3d3d3d3d3d3d3d3d3d3d3d3d3d3d3d3d3d3d3d3d3d3d3d3d3d3d3d3d3d3d2023,
0x0,
0x4e414d4f572e2e594f42205d345b2020206f532023205a41475f657361425f45203b202039363446312e2e3636344631,
0x0,
0x34203a73746e696f702065646f63206c61746f542023,
0x0,
0x464f452023]

/-- The lines of src/u5e/props/GraphemeBreakProperty.txt. -/
@[irreducible] def graphemeBreakPropertyRaw : List Nat :=
  rawGcb0 ++ (rawGcb1 ++ (rawGcb2 ++ (rawGcb3 ++ (rawGcb4 ++ (rawGcb5)))))

end U5e.Data
