set_option maxRecDepth 10000
/-! GENERATED by tools/gen_raw.py: the octets of src/u5e/props/UnicodeData.txt, one number per line (little-endian). -/
namespace U5e.Data

/-- src/u5e/props/UnicodeData.txt lines 1-256. -/
def rawUcd0 : List Nat := [
0x3b3b3b3b4c4c554e3b4e3b3b3b3b3b4e423b303b63433b3e6c6f72746e6f633c3b30303030,
0x3b3b3b3b474e494441454820464f2054524154533b4e3b3b3b3b3b4e423b303b63433b3e6c6f72746e6f633c3b31303030,
0x3b3b3b3b5458455420464f2054524154533b4e3b3b3b3b3b4e423b303b63433b3e6c6f72746e6f633c3b32303030,
0x3b3b3b3b5458455420464f20444e453b4e3b3b3b3b3b4e423b303b63433b3e6c6f72746e6f633c3b33303030,
0x3b3b3b3b4e4f495353494d534e41525420464f20444e453b4e3b3b3b3b3b4e423b303b63433b3e6c6f72746e6f633c3b34303030,
0x3b3b3b3b59524955514e453b4e3b3b3b3b3b4e423b303b63433b3e6c6f72746e6f633c3b35303030,
0x3b3b3b3b454744454c574f4e4b43413b4e3b3b3b3b3b4e423b303b63433b3e6c6f72746e6f633c3b36303030,
0x3b3b3b3b4c4c45423b4e3b3b3b3b3b4e423b303b63433b3e6c6f72746e6f633c3b37303030,
0x3b3b3b3b45434150534b4341423b4e3b3b3b3b3b4e423b303b63433b3e6c6f72746e6f633c3b38303030,
0x3b3b3b3b4e4f4954414c55424154205245544341524148433b4e3b3b3b3b3b533b303b63433b3e6c6f72746e6f633c3b39303030,
0x3b3b3b3b29464c28204445454620454e494c3b4e3b3b3b3b3b423b303b63433b3e6c6f72746e6f633c3b41303030,
0x3b3b3b3b4e4f4954414c5542415420454e494c3b4e3b3b3b3b3b533b303b63433b3e6c6f72746e6f633c3b42303030,
0x3b3b3b3b294646282044454546204d524f463b4e3b3b3b3b3b53573b303b63433b3e6c6f72746e6f633c3b43303030,
0x3b3b3b3b29524328204e52555445522045474149525241433b4e3b3b3b3b3b423b303b63433b3e6c6f72746e6f633c3b44303030,
0x3b3b3b3b54554f2054464948533b4e3b3b3b3b3b4e423b303b63433b3e6c6f72746e6f633c3b45303030,
0x3b3b3b3b4e492054464948533b4e3b3b3b3b3b4e423b303b63433b3e6c6f72746e6f633c3b46303030,
0x3b3b3b3b455041435345204b4e494c20415441443b4e3b3b3b3b3b4e423b303b63433b3e6c6f72746e6f633c3b30313030,
0x3b3b3b3b454e4f204c4f52544e4f43204543495645443b4e3b3b3b3b3b4e423b303b63433b3e6c6f72746e6f633c3b31313030,
0x3b3b3b3b4f5754204c4f52544e4f43204543495645443b4e3b3b3b3b3b4e423b303b63433b3e6c6f72746e6f633c3b32313030,
0x3b3b3b3b4545524854204c4f52544e4f43204543495645443b4e3b3b3b3b3b4e423b303b63433b3e6c6f72746e6f633c3b33313030,
0x3b3b3b3b52554f46204c4f52544e4f43204543495645443b4e3b3b3b3b3b4e423b303b63433b3e6c6f72746e6f633c3b34313030,
0x3b3b3b3b454744454c574f4e4b434120455649544147454e3b4e3b3b3b3b3b4e423b303b63433b3e6c6f72746e6f633c3b35313030,
0x3b3b3b3b454c44492053554f4e4f5248434e59533b4e3b3b3b3b3b4e423b303b63433b3e6c6f72746e6f633c3b36313030,
0x3b3b3b3b4b434f4c42204e4f495353494d534e41525420464f20444e453b4e3b3b3b3b3b4e423b303b63433b3e6c6f72746e6f633c3b37313030,
0x3b3b3b3b4c45434e41433b4e3b3b3b3b3b4e423b303b63433b3e6c6f72746e6f633c3b38313030,
0x3b3b3b3b4d554944454d20464f20444e453b4e3b3b3b3b3b4e423b303b63433b3e6c6f72746e6f633c3b39313030,
0x3b3b3b3b455455544954534255533b4e3b3b3b3b3b4e423b303b63433b3e6c6f72746e6f633c3b41313030,
0x3b3b3b3b4550414353453b4e3b3b3b3b3b4e423b303b63433b3e6c6f72746e6f633c3b42313030,
0x3b3b3b3b52554f4620524f54415241504553204e4f4954414d524f464e493b4e3b3b3b3b3b423b303b63433b3e6c6f72746e6f633c3b43313030,
0x3b3b3b3b454552485420524f54415241504553204e4f4954414d524f464e493b4e3b3b3b3b3b423b303b63433b3e6c6f72746e6f633c3b44313030,
0x3b3b3b3b4f575420524f54415241504553204e4f4954414d524f464e493b4e3b3b3b3b3b423b303b63433b3e6c6f72746e6f633c3b45313030,
0x3b3b3b3b454e4f20524f54415241504553204e4f4954414d524f464e493b4e3b3b3b3b3b533b303b63433b3e6c6f72746e6f633c3b46313030,
0x3b3b3b3b3b4e3b3b3b3b3b53573b303b735a3b45434150533b30323030,
0x3b3b3b3b3b4e3b3b3b3b3b4e4f3b303b6f503b4b52414d204e4f4954414d414c4358453b31323030,
0x3b3b3b3b3b4e3b3b3b3b3b4e4f3b303b6f503b4b52414d204e4f495441544f55513b32323030,
0x3b3b3b3b3b4e3b3b3b3b3b54453b303b6f503b4e474953205245424d554e3b33323030,
0x3b3b3b3b3b4e3b3b3b3b3b54453b303b63533b4e4749532052414c4c4f443b34323030,
0x3b3b3b3b3b4e3b3b3b3b3b54453b303b6f503b4e47495320544e45435245503b35323030,
0x3b3b3b3b3b4e3b3b3b3b3b4e4f3b303b6f503b444e41535245504d413b36323030,
0x3b3b3b3b45544f55512d4548504f5254534f50413b4e3b3b3b3b3b4e4f3b303b6f503b4548504f5254534f50413b37323030,
0x3b3b3b3b5349534548544e4552415020474e494e45504f3b593b3b3b3b3b4e4f3b303b73503b5349534548544e45524150205446454c3b38323030,
0x3b3b3b3b5349534548544e4552415020474e49534f4c433b593b3b3b3b3b4e4f3b303b65503b5349534548544e455241502054484749523b39323030,
0x3b3b3b3b3b4e3b3b3b3b3b4e4f3b303b6f503b4b534952455453413b41323030,
0x3b3b3b3b3b4e3b3b3b3b3b53453b303b6d533b4e4749532053554c503b42323030,
0x3b3b3b3b3b4e3b3b3b3b3b53433b303b6f503b414d4d4f433b43323030,
0x3b3b3b3b3b4e3b3b3b3b3b53453b303b64503b53554e494d2d4e45485059483b44323030,
0x3b3b3b3b444f495245503b4e3b3b3b3b3b53433b303b6f503b504f5453204c4c55463b45323030,
0x3b3b3b3b4853414c533b4e3b3b3b3b3b53433b303b6f503b535544494c4f533b46323030,
0x3b3b3b3b3b4e3b303b303b303b3b4e453b303b644e3b4f52455a2054494749443b30333030,
0x3b3b3b3b3b4e3b313b313b313b3b4e453b303b644e3b454e4f2054494749443b31333030,
0x3b3b3b3b3b4e3b323b323b323b3b4e453b303b644e3b4f57542054494749443b32333030,
0x3b3b3b3b3b4e3b333b333b333b3b4e453b303b644e3b45455248542054494749443b33333030,
0x3b3b3b3b3b4e3b343b343b343b3b4e453b303b644e3b52554f462054494749443b34333030,
0x3b3b3b3b3b4e3b353b353b353b3b4e453b303b644e3b455649462054494749443b35333030,
0x3b3b3b3b3b4e3b363b363b363b3b4e453b303b644e3b5849532054494749443b36333030,
0x3b3b3b3b3b4e3b373b373b373b3b4e453b303b644e3b4e455645532054494749443b37333030,
0x3b3b3b3b3b4e3b383b383b383b3b4e453b303b644e3b54484749452054494749443b38333030,
0x3b3b3b3b3b4e3b393b393b393b3b4e453b303b644e3b454e494e2054494749443b39333030,
0x3b3b3b3b3b4e3b3b3b3b3b53433b303b6f503b4e4f4c4f433b41333030,
0x3b3b3b3b3b4e3b3b3b3b3b4e4f3b303b6f503b4e4f4c4f43494d45533b42333030,
0x3b3b3b3b3b593b3b3b3b3b4e4f3b303b6d533b4e474953204e4148542d5353454c3b43333030,
0x3b3b3b3b3b4e3b3b3b3b3b4e4f3b303b6d533b4e47495320534c415551453b44333030,
0x3b3b3b3b3b593b3b3b3b3b4e4f3b303b6d533b4e474953204e4148542d524554414552473b45333030,
0x3b3b3b3b3b4e3b3b3b3b3b4e4f3b303b6f503b4b52414d204e4f4954534555513b46333030,
0x3b3b3b3b3b4e3b3b3b3b3b4e4f3b303b6f503b5441204c41494352454d4d4f433b30343030,
0x3b313630303b3b3b3b4e3b3b3b3b3b4c3b303b754c3b412052455454454c204c415449504143204e4954414c3b31343030,
0x3b323630303b3b3b3b4e3b3b3b3b3b4c3b303b754c3b422052455454454c204c415449504143204e4954414c3b32343030,
0x3b333630303b3b3b3b4e3b3b3b3b3b4c3b303b754c3b432052455454454c204c415449504143204e4954414c3b33343030,
0x3b343630303b3b3b3b4e3b3b3b3b3b4c3b303b754c3b442052455454454c204c415449504143204e4954414c3b34343030,
0x3b353630303b3b3b3b4e3b3b3b3b3b4c3b303b754c3b452052455454454c204c415449504143204e4954414c3b35343030,
0x3b363630303b3b3b3b4e3b3b3b3b3b4c3b303b754c3b462052455454454c204c415449504143204e4954414c3b36343030,
0x3b373630303b3b3b3b4e3b3b3b3b3b4c3b303b754c3b472052455454454c204c415449504143204e4954414c3b37343030,
0x3b383630303b3b3b3b4e3b3b3b3b3b4c3b303b754c3b482052455454454c204c415449504143204e4954414c3b38343030,
0x3b393630303b3b3b3b4e3b3b3b3b3b4c3b303b754c3b492052455454454c204c415449504143204e4954414c3b39343030,
0x3b413630303b3b3b3b4e3b3b3b3b3b4c3b303b754c3b4a2052455454454c204c415449504143204e4954414c3b41343030,
0x3b423630303b3b3b3b4e3b3b3b3b3b4c3b303b754c3b4b2052455454454c204c415449504143204e4954414c3b42343030,
0x3b433630303b3b3b3b4e3b3b3b3b3b4c3b303b754c3b4c2052455454454c204c415449504143204e4954414c3b43343030,
0x3b443630303b3b3b3b4e3b3b3b3b3b4c3b303b754c3b4d2052455454454c204c415449504143204e4954414c3b44343030,
0x3b453630303b3b3b3b4e3b3b3b3b3b4c3b303b754c3b4e2052455454454c204c415449504143204e4954414c3b45343030,
0x3b463630303b3b3b3b4e3b3b3b3b3b4c3b303b754c3b4f2052455454454c204c415449504143204e4954414c3b46343030,
0x3b303730303b3b3b3b4e3b3b3b3b3b4c3b303b754c3b502052455454454c204c415449504143204e4954414c3b30353030,
0x3b313730303b3b3b3b4e3b3b3b3b3b4c3b303b754c3b512052455454454c204c415449504143204e4954414c3b31353030,
0x3b323730303b3b3b3b4e3b3b3b3b3b4c3b303b754c3b522052455454454c204c415449504143204e4954414c3b32353030,
0x3b333730303b3b3b3b4e3b3b3b3b3b4c3b303b754c3b532052455454454c204c415449504143204e4954414c3b33353030,
0x3b343730303b3b3b3b4e3b3b3b3b3b4c3b303b754c3b542052455454454c204c415449504143204e4954414c3b34353030,
0x3b353730303b3b3b3b4e3b3b3b3b3b4c3b303b754c3b552052455454454c204c415449504143204e4954414c3b35353030,
0x3b363730303b3b3b3b4e3b3b3b3b3b4c3b303b754c3b562052455454454c204c415449504143204e4954414c3b36353030,
0x3b373730303b3b3b3b4e3b3b3b3b3b4c3b303b754c3b572052455454454c204c415449504143204e4954414c3b37353030,
0x3b383730303b3b3b3b4e3b3b3b3b3b4c3b303b754c3b582052455454454c204c415449504143204e4954414c3b38353030,
0x3b393730303b3b3b3b4e3b3b3b3b3b4c3b303b754c3b592052455454454c204c415449504143204e4954414c3b39353030,
0x3b413730303b3b3b3b4e3b3b3b3b3b4c3b303b754c3b5a2052455454454c204c415449504143204e4954414c3b41353030,
0x3b3b3b3b54454b434152422045524155515320474e494e45504f3b593b3b3b3b3b4e4f3b303b73503b54454b4341524220455241555153205446454c3b42353030,
0x3b3b3b3b4853414c534b4341423b4e3b3b3b3b3b4e4f3b303b6f503b535544494c4f5320455352455645523b43353030,
0x3b3b3b3b54454b434152422045524155515320474e49534f4c433b593b3b3b3b3b4e4f3b303b65503b54454b43415242204552415551532054484749523b44353030,
0x3b3b3b3b58454c464d554352494320474e49434150533b4e3b3b3b3b3b4e4f3b303b6b533b544e454343412058454c464d55435249433b45353030,
0x3b3b3b3b45524f43535245444e5520474e49434150533b4e3b3b3b3b3b4e4f3b303b63503b454e494c20574f4c3b46353030,
0x3b3b3b3b455641524720474e49434150533b4e3b3b3b3b3b4e4f3b303b6b533b544e454343412045564152473b30363030,
0x313430303b3b313430303b3b3b4e3b3b3b3b3b4c3b303b6c4c3b412052455454454c204c4c414d53204e4954414c3b31363030,
0x323430303b3b323430303b3b3b4e3b3b3b3b3b4c3b303b6c4c3b422052455454454c204c4c414d53204e4954414c3b32363030,
0x333430303b3b333430303b3b3b4e3b3b3b3b3b4c3b303b6c4c3b432052455454454c204c4c414d53204e4954414c3b33363030,
0x343430303b3b343430303b3b3b4e3b3b3b3b3b4c3b303b6c4c3b442052455454454c204c4c414d53204e4954414c3b34363030,
0x353430303b3b353430303b3b3b4e3b3b3b3b3b4c3b303b6c4c3b452052455454454c204c4c414d53204e4954414c3b35363030,
0x363430303b3b363430303b3b3b4e3b3b3b3b3b4c3b303b6c4c3b462052455454454c204c4c414d53204e4954414c3b36363030,
0x373430303b3b373430303b3b3b4e3b3b3b3b3b4c3b303b6c4c3b472052455454454c204c4c414d53204e4954414c3b37363030,
0x383430303b3b383430303b3b3b4e3b3b3b3b3b4c3b303b6c4c3b482052455454454c204c4c414d53204e4954414c3b38363030,
0x393430303b3b393430303b3b3b4e3b3b3b3b3b4c3b303b6c4c3b492052455454454c204c4c414d53204e4954414c3b39363030,
0x413430303b3b413430303b3b3b4e3b3b3b3b3b4c3b303b6c4c3b4a2052455454454c204c4c414d53204e4954414c3b41363030,
0x423430303b3b423430303b3b3b4e3b3b3b3b3b4c3b303b6c4c3b4b2052455454454c204c4c414d53204e4954414c3b42363030,
0x433430303b3b433430303b3b3b4e3b3b3b3b3b4c3b303b6c4c3b4c2052455454454c204c4c414d53204e4954414c3b43363030,
0x443430303b3b443430303b3b3b4e3b3b3b3b3b4c3b303b6c4c3b4d2052455454454c204c4c414d53204e4954414c3b44363030,
0x453430303b3b453430303b3b3b4e3b3b3b3b3b4c3b303b6c4c3b4e2052455454454c204c4c414d53204e4954414c3b45363030,
0x463430303b3b463430303b3b3b4e3b3b3b3b3b4c3b303b6c4c3b4f2052455454454c204c4c414d53204e4954414c3b46363030,
0x303530303b3b303530303b3b3b4e3b3b3b3b3b4c3b303b6c4c3b502052455454454c204c4c414d53204e4954414c3b30373030,
0x313530303b3b313530303b3b3b4e3b3b3b3b3b4c3b303b6c4c3b512052455454454c204c4c414d53204e4954414c3b31373030,
0x323530303b3b323530303b3b3b4e3b3b3b3b3b4c3b303b6c4c3b522052455454454c204c4c414d53204e4954414c3b32373030,
0x333530303b3b333530303b3b3b4e3b3b3b3b3b4c3b303b6c4c3b532052455454454c204c4c414d53204e4954414c3b33373030,
0x343530303b3b343530303b3b3b4e3b3b3b3b3b4c3b303b6c4c3b542052455454454c204c4c414d53204e4954414c3b34373030,
0x353530303b3b353530303b3b3b4e3b3b3b3b3b4c3b303b6c4c3b552052455454454c204c4c414d53204e4954414c3b35373030,
0x363530303b3b363530303b3b3b4e3b3b3b3b3b4c3b303b6c4c3b562052455454454c204c4c414d53204e4954414c3b36373030,
0x373530303b3b373530303b3b3b4e3b3b3b3b3b4c3b303b6c4c3b572052455454454c204c4c414d53204e4954414c3b37373030,
0x383530303b3b383530303b3b3b4e3b3b3b3b3b4c3b303b6c4c3b582052455454454c204c4c414d53204e4954414c3b38373030,
0x393530303b3b393530303b3b3b4e3b3b3b3b3b4c3b303b6c4c3b592052455454454c204c4c414d53204e4954414c3b39373030,
0x413530303b3b413530303b3b3b4e3b3b3b3b3b4c3b303b6c4c3b5a2052455454454c204c4c414d53204e4954414c3b41373030,
0x3b3b3b3b54454b4341524220594c52554320474e494e45504f3b593b3b3b3b3b4e4f3b303b73503b54454b4341524220594c525543205446454c3b42373030,
0x3b3b3b3b524142204c414349545245563b4e3b3b3b3b3b4e4f3b303b6d533b454e494c204c414349545245563b43373030,
0x3b3b3b3b54454b4341524220594c52554320474e49534f4c433b593b3b3b3b3b4e4f3b303b65503b54454b4341524220594c5255432054484749523b44373030,
0x3b3b3b3b3b4e3b3b3b3b3b4e4f3b303b6d533b45444c49543b45373030,
0x3b3b3b3b4554454c45443b4e3b3b3b3b3b4e423b303b63433b3e6c6f72746e6f633c3b46373030,
0x3b3b3b3b3b4e3b3b3b3b3b4e423b303b63433b3e6c6f72746e6f633c3b30383030,
0x3b3b3b3b3b4e3b3b3b3b3b4e423b303b63433b3e6c6f72746e6f633c3b31383030,
0x3b3b3b3b455245482044455454494d524550204b414552423b4e3b3b3b3b3b4e423b303b63433b3e6c6f72746e6f633c3b32383030,
0x3b3b3b3b45524548204b41455242204f4e3b4e3b3b3b3b3b4e423b303b63433b3e6c6f72746e6f633c3b33383030,
0x3b3b3b3b3b4e3b3b3b3b3b4e423b303b63433b3e6c6f72746e6f633c3b34383030,
0x3b3b3b3b294c454e2820454e494c205458454e3b4e3b3b3b3b3b423b303b63433b3e6c6f72746e6f633c3b35383030,
0x3b3b3b3b414552412044455443454c455320464f2054524154533b4e3b3b3b3b3b4e423b303b63433b3e6c6f72746e6f633c3b36383030,
0x3b3b3b3b414552412044455443454c455320464f20444e453b4e3b3b3b3b3b4e423b303b63433b3e6c6f72746e6f633c3b37383030,
0x3b3b3b3b544553204e4f4954414c55424154205245544341524148433b4e3b3b3b3b3b4e423b303b63433b3e6c6f72746e6f633c3b38383030,
0x3b3b3b3b4e4f495441434946495453554a2048544957204e4f4954414c55424154205245544341524148433b4e3b3b3b3b3b4e423b303b63433b3e6c6f72746e6f633c3b39383030,
0x3b3b3b3b544553204e4f4954414c5542415420454e494c3b4e3b3b3b3b3b4e423b303b63433b3e6c6f72746e6f633c3b41383030,
0x3b3b3b3b44524157524f4620454e494c204c4149545241503b4e3b3b3b3b3b4e423b303b63433b3e6c6f72746e6f633c3b42383030,
0x3b3b3b3b445241574b43414220454e494c204c4149545241503b4e3b3b3b3b3b4e423b303b63433b3e6c6f72746e6f633c3b43383030,
0x3b3b3b3b4445454620454e494c20455352455645523b4e3b3b3b3b3b4e423b303b63433b3e6c6f72746e6f633c3b44383030,
0x3b3b3b3b4f575420544649485320454c474e49533b4e3b3b3b3b3b4e423b303b63433b3e6c6f72746e6f633c3b45383030,
0x3b3b3b3b454552485420544649485320454c474e49533b4e3b3b3b3b3b4e423b303b63433b3e6c6f72746e6f633c3b46383030,
0x3b3b3b3b474e49525453204c4f52544e4f43204543495645443b4e3b3b3b3b3b4e423b303b63433b3e6c6f72746e6f633c3b30393030,
0x3b3b3b3b454e4f2045535520455441564952503b4e3b3b3b3b3b4e423b303b63433b3e6c6f72746e6f633c3b31393030,
0x3b3b3b3b4f57542045535520455441564952503b4e3b3b3b3b3b4e423b303b63433b3e6c6f72746e6f633c3b32393030,
0x3b3b3b3b45544154532054494d534e415254205445533b4e3b3b3b3b3b4e423b303b63433b3e6c6f72746e6f633c3b33393030,
0x3b3b3b3b524554434152414843204c45434e41433b4e3b3b3b3b3b4e423b303b63433b3e6c6f72746e6f633c3b34393030,
0x3b3b3b3b474e4954494157204547415353454d3b4e3b3b3b3b3b4e423b303b63433b3e6c6f72746e6f633c3b35393030,
0x3b3b3b3b41455241204445445241554720464f2054524154533b4e3b3b3b3b3b4e423b303b63433b3e6c6f72746e6f633c3b36393030,
0x3b3b3b3b41455241204445445241554720464f20444e453b4e3b3b3b3b3b4e423b303b63433b3e6c6f72746e6f633c3b37393030,
0x3b3b3b3b474e4952545320464f2054524154533b4e3b3b3b3b3b4e423b303b63433b3e6c6f72746e6f633c3b38393030,
0x3b3b3b3b3b4e3b3b3b3b3b4e423b303b63433b3e6c6f72746e6f633c3b39393030,
0x3b3b3b3b52454355444f52544e492052455443415241484320454c474e49533b4e3b3b3b3b3b4e423b303b63433b3e6c6f72746e6f633c3b41393030,
0x3b3b3b3b52454355444f52544e492045434e4555514553204c4f52544e4f433b4e3b3b3b3b3b4e423b303b63433b3e6c6f72746e6f633c3b42393030,
0x3b3b3b3b524f54414e494d52455420474e495254533b4e3b3b3b3b3b4e423b303b63433b3e6c6f72746e6f633c3b43393030,
0x3b3b3b3b444e414d4d4f43204d455453595320474e4954415245504f3b4e3b3b3b3b3b4e423b303b63433b3e6c6f72746e6f633c3b44393030,
0x3b3b3b3b4547415353454d20594341564952503b4e3b3b3b3b3b4e423b303b63433b3e6c6f72746e6f633c3b45393030,
0x3b3b3b3b444e414d4d4f43204d4152474f5250204e4f49544143494c5050413b4e3b3b3b3b3b4e423b303b63433b3e6c6f72746e6f633c3b46393030,
0x3b3b3b3b454341505320474e494b414552422d4e4f4e3b4e3b3b3b3b30323030203e6b616572426f6e3c3b53433b303b735a3b4543415053204b414552422d4f4e3b30413030,
0x3b3b3b3b3b4e3b3b3b3b3b4e4f3b303b6f503b4b52414d204e4f4954414d414c435845204445545245564e493b31413030,
0x3b3b3b3b3b4e3b3b3b3b3b54453b303b63533b4e47495320544e45433b32413030,
0x3b3b3b3b3b4e3b3b3b3b3b54453b303b63533b4e47495320444e554f503b33413030,
0x3b3b3b3b3b4e3b3b3b3b3b54453b303b63533b4e4749532059434e45525255433b34413030,
0x3b3b3b3b3b4e3b3b3b3b3b54453b303b63533b4e474953204e45593b35413030,
0x3b3b3b3b524142204c41434954524556204e454b4f52423b4e3b3b3b3b3b4e4f3b303b6f533b524142204e454b4f52423b36413030,
0x3b3b3b3b3b4e3b3b3b3b3b4e4f3b303b6f503b4e474953204e4f49544345533b37413030,
0x3b3b3b3b53495345524541494420474e49434150533b4e3b3b3b3b383033302030323030203e7461706d6f633c3b4e4f3b303b6b533b5349534552454149443b38413030,
0x3b3b3b3b3b4e3b3b3b3b3b4e4f3b303b6f533b4e47495320544847495259504f433b39413030,
0x3b3b3b3b3b4e3b3b3b3b31363030203e72657075733c3b4c3b303b6f4c3b524f54414349444e49204c414e4944524f20454e494e494d45463b41413030,
0x3b3b3b3b54454d454c4c49554720474e49544e494f50205446454c3b593b3b3b3b3b4e4f3b303b69503b4b52414d204e4f495441544f555120454c474e4120454c42554f4420474e49544e494f502d5446454c3b42413030,
0x3b3b3b3b3b4e3b3b3b3b3b4e4f3b303b6d533b4e47495320544f4e3b43413030,
0x3b3b3b3b3b4e3b3b3b3b3b4e423b303b66433b4e45485059482054464f533b44413030,
0x3b3b3b3b4e474953204b52414d20454441525420444552455453494745523b4e3b3b3b3b3b4e4f3b303b6f533b4e47495320444552455453494745523b45413030,
0x3b3b3b3b4e4f5243414d20474e49434150533b4e3b3b3b3b343033302030323030203e7461706d6f633c3b4e4f3b303b6b533b4e4f5243414d3b46413030,
0x3b3b3b3b3b4e3b3b3b3b3b54453b303b6f533b4e474953204545524745443b30423030,
0x3b3b3b3b4e4749532053554e494d2d524f2d53554c503b4e3b3b3b3b3b54453b303b6d533b4e4749532053554e494d2d53554c503b31423030,
0x3b3b3b3b4f57542054494749442054504952435352455055533b4e3b323b323b3b32333030203e72657075733c3b4e453b303b6f4e3b4f57542054504952435352455055533b32423030,
0x3b3b3b3b45455248542054494749442054504952435352455055533b4e3b333b333b3b33333030203e72657075733c3b4e453b303b6f4e3b45455248542054504952435352455055533b33423030,
0x3b3b3b3b455455434120474e49434150533b4e3b3b3b3b313033302030323030203e7461706d6f633c3b4e4f3b303b6b533b544e454343412045545543413b34423030,
0x433933303b3b433933303b3b3b4e3b3b3b3b43423330203e7461706d6f633c3b4c3b303b6c4c3b4e474953204f5243494d3b35423030,
0x3b3b3b3b4e474953204850415247415241503b4e3b3b3b3b3b4e4f3b303b6f503b4e47495320574f52434c49503b36423030,
0x3b3b3b3b3b4e3b3b3b3b3b4e4f3b303b6f503b544f4420454c4444494d3b37423030,
0x3b3b3b3b414c4c4944454320474e49434150533b4e3b3b3b3b373233302030323030203e7461706d6f633c3b4e4f3b303b6b533b414c4c494445433b38423030,
0x3b3b3b3b454e4f2054494749442054504952435352455055533b4e3b313b313b3b31333030203e72657075733c3b4e453b303b6f4e3b454e4f2054504952435352455055533b39423030,
0x3b3b3b3b3b4e3b3b3b3b46363030203e72657075733c3b4c3b303b6f4c3b524f54414349444e49204c414e4944524f20454e494c554353414d3b41423030,
0x3b3b3b3b54454d454c4c49554720474e49544e494f502054484749523b593b3b3b3b3b4e4f3b303b66503b4b52414d204e4f495441544f555120454c474e4120454c42554f4420474e49544e494f502d54484749523b42423030,
0x3b3b3b3b5245545241555120454e4f204e4f4954434152463b4e3b342f313b3b3b3433303020343430322031333030203e6e6f6974636172663c3b4e4f3b303b6f4e3b5245545241555120454e4f204e4f495443415246205241474c55563b43423030,
0x3b3b3b3b464c414820454e4f204e4f4954434152463b4e3b322f313b3b3b3233303020343430322031333030203e6e6f6974636172663c3b4e4f3b303b6f4e3b464c414820454e4f204e4f495443415246205241474c55563b44423030,
0x3b3b3b3b5352455452415551204545524854204e4f4954434152463b4e3b342f333b3b3b3433303020343430322033333030203e6e6f6974636172663c3b4e4f3b303b6f4e3b5352455452415551204545524854204e4f495443415246205241474c55563b45423030,
0x3b3b3b3b3b4e3b3b3b3b3b4e4f3b303b6f503b4b52414d204e4f495453455551204445545245564e493b46423030,
0x3b304530303b3b3b455641524720412052455454454c204c415449504143204e4954414c3b4e3b3b3b3b3030333020313430303b4c3b303b754c3b4556415247204854495720412052455454454c204c415449504143204e4954414c3b30433030,
0x3b314530303b3b3b455455434120412052455454454c204c415449504143204e4954414c3b4e3b3b3b3b3130333020313430303b4c3b303b754c3b4554554341204854495720412052455454454c204c415449504143204e4954414c3b31433030,
0x3b324530303b3b3b58454c464d554352494320412052455454454c204c415449504143204e4954414c3b4e3b3b3b3b3230333020313430303b4c3b303b754c3b58454c464d5543524943204854495720412052455454454c204c415449504143204e4954414c3b32433030,
0x3b334530303b3b3b45444c495420412052455454454c204c415449504143204e4954414c3b4e3b3b3b3b3330333020313430303b4c3b303b754c3b45444c4954204854495720412052455454454c204c415449504143204e4954414c3b33433030,
0x3b344530303b3b3b53495345524541494420412052455454454c204c415449504143204e4954414c3b4e3b3b3b3b3830333020313430303b4c3b303b754c3b534953455245414944204854495720412052455454454c204c415449504143204e4954414c3b34433030,
0x3b354530303b3b3b474e495220412052455454454c204c415449504143204e4954414c3b4e3b3b3b3b4130333020313430303b4c3b303b754c3b45564f424120474e4952204854495720412052455454454c204c415449504143204e4954414c3b35433030,
0x3b364530303b3b3b4520412052455454454c204c415449504143204e4954414c3b4e3b3b3b3b3b4c3b303b754c3b45412052455454454c204c415449504143204e4954414c3b36433030,
0x3b374530303b3b3b414c4c4944454320432052455454454c204c415449504143204e4954414c3b4e3b3b3b3b3732333020333430303b4c3b303b754c3b414c4c49444543204854495720432052455454454c204c415449504143204e4954414c3b37433030,
0x3b384530303b3b3b455641524720452052455454454c204c415449504143204e4954414c3b4e3b3b3b3b3030333020353430303b4c3b303b754c3b4556415247204854495720452052455454454c204c415449504143204e4954414c3b38433030,
0x3b394530303b3b3b455455434120452052455454454c204c415449504143204e4954414c3b4e3b3b3b3b3130333020353430303b4c3b303b754c3b4554554341204854495720452052455454454c204c415449504143204e4954414c3b39433030,
0x3b414530303b3b3b58454c464d554352494320452052455454454c204c415449504143204e4954414c3b4e3b3b3b3b3230333020353430303b4c3b303b754c3b58454c464d5543524943204854495720452052455454454c204c415449504143204e4954414c3b41433030,
0x3b424530303b3b3b53495345524541494420452052455454454c204c415449504143204e4954414c3b4e3b3b3b3b3830333020353430303b4c3b303b754c3b534953455245414944204854495720452052455454454c204c415449504143204e4954414c3b42433030,
0x3b434530303b3b3b455641524720492052455454454c204c415449504143204e4954414c3b4e3b3b3b3b3030333020393430303b4c3b303b754c3b4556415247204854495720492052455454454c204c415449504143204e4954414c3b43433030,
0x3b444530303b3b3b455455434120492052455454454c204c415449504143204e4954414c3b4e3b3b3b3b3130333020393430303b4c3b303b754c3b4554554341204854495720492052455454454c204c415449504143204e4954414c3b44433030,
0x3b454530303b3b3b58454c464d554352494320492052455454454c204c415449504143204e4954414c3b4e3b3b3b3b3230333020393430303b4c3b303b754c3b58454c464d5543524943204854495720492052455454454c204c415449504143204e4954414c3b45433030,
0x3b464530303b3b3b53495345524541494420492052455454454c204c415449504143204e4954414c3b4e3b3b3b3b3830333020393430303b4c3b303b754c3b534953455245414944204854495720492052455454454c204c415449504143204e4954414c3b46433030,
0x3b304630303b3b3b3b4e3b3b3b3b3b4c3b303b754c3b4854452052455454454c204c415449504143204e4954414c3b30443030,
0x3b314630303b3b3b45444c4954204e2052455454454c204c415449504143204e4954414c3b4e3b3b3b3b3330333020453430303b4c3b303b754c3b45444c49542048544957204e2052455454454c204c415449504143204e4954414c3b31443030,
0x3b324630303b3b3b4556415247204f2052455454454c204c415449504143204e4954414c3b4e3b3b3b3b3030333020463430303b4c3b303b754c3b45564152472048544957204f2052455454454c204c415449504143204e4954414c3b32443030,
0x3b334630303b3b3b4554554341204f2052455454454c204c415449504143204e4954414c3b4e3b3b3b3b3130333020463430303b4c3b303b754c3b45545543412048544957204f2052455454454c204c415449504143204e4954414c3b33443030,
0x3b344630303b3b3b58454c464d5543524943204f2052455454454c204c415449504143204e4954414c3b4e3b3b3b3b3230333020463430303b4c3b303b754c3b58454c464d55435249432048544957204f2052455454454c204c415449504143204e4954414c3b34443030,
0x3b354630303b3b3b45444c4954204f2052455454454c204c415449504143204e4954414c3b4e3b3b3b3b3330333020463430303b4c3b303b754c3b45444c49542048544957204f2052455454454c204c415449504143204e4954414c3b35443030,
0x3b364630303b3b3b534953455245414944204f2052455454454c204c415449504143204e4954414c3b4e3b3b3b3b3830333020463430303b4c3b303b754c3b5349534552454149442048544957204f2052455454454c204c415449504143204e4954414c3b36443030,
0x3b3b3b3b3b4e3b3b3b3b3b4e4f3b303b6d533b4e474953204e4f49544143494c5049544c554d3b37443030,
0x3b384630303b3b3b4853414c53204f2052455454454c204c415449504143204e4954414c3b4e3b3b3b3b3b4c3b303b754c3b454b4f5254532048544957204f2052455454454c204c415449504143204e4954414c3b38443030,
0x3b394630303b3b3b455641524720552052455454454c204c415449504143204e4954414c3b4e3b3b3b3b3030333020353530303b4c3b303b754c3b4556415247204854495720552052455454454c204c415449504143204e4954414c3b39443030,
0x3b414630303b3b3b455455434120552052455454454c204c415449504143204e4954414c3b4e3b3b3b3b3130333020353530303b4c3b303b754c3b4554554341204854495720552052455454454c204c415449504143204e4954414c3b41443030,
0x3b424630303b3b3b58454c464d554352494320552052455454454c204c415449504143204e4954414c3b4e3b3b3b3b3230333020353530303b4c3b303b754c3b58454c464d5543524943204854495720552052455454454c204c415449504143204e4954414c3b42443030,
0x3b434630303b3b3b53495345524541494420552052455454454c204c415449504143204e4954414c3b4e3b3b3b3b3830333020353530303b4c3b303b754c3b534953455245414944204854495720552052455454454c204c415449504143204e4954414c3b43443030,
0x3b444630303b3b3b455455434120592052455454454c204c415449504143204e4954414c3b4e3b3b3b3b3130333020393530303b4c3b303b754c3b4554554341204854495720592052455454454c204c415449504143204e4954414c3b44443030,
0x3b454630303b3b3b3b4e3b3b3b3b3b4c3b303b754c3b4e524f48542052455454454c204c415449504143204e4954414c3b45443030,
0x3b3b3b3b3b4e3b3b3b3b3b4c3b303b6c4c3b532050524148532052455454454c204c4c414d53204e4954414c3b46443030,
0x304330303b3b304330303b3b455641524720412052455454454c204c4c414d53204e4954414c3b4e3b3b3b3b3030333020313630303b4c3b303b6c4c3b4556415247204854495720412052455454454c204c4c414d53204e4954414c3b30453030,
0x314330303b3b314330303b3b455455434120412052455454454c204c4c414d53204e4954414c3b4e3b3b3b3b3130333020313630303b4c3b303b6c4c3b4554554341204854495720412052455454454c204c4c414d53204e4954414c3b31453030,
0x324330303b3b324330303b3b58454c464d554352494320412052455454454c204c4c414d53204e4954414c3b4e3b3b3b3b3230333020313630303b4c3b303b6c4c3b58454c464d5543524943204854495720412052455454454c204c4c414d53204e4954414c3b32453030,
0x334330303b3b334330303b3b45444c495420412052455454454c204c4c414d53204e4954414c3b4e3b3b3b3b3330333020313630303b4c3b303b6c4c3b45444c4954204854495720412052455454454c204c4c414d53204e4954414c3b33453030,
0x344330303b3b344330303b3b53495345524541494420412052455454454c204c4c414d53204e4954414c3b4e3b3b3b3b3830333020313630303b4c3b303b6c4c3b534953455245414944204854495720412052455454454c204c4c414d53204e4954414c3b34453030,
0x354330303b3b354330303b3b474e495220412052455454454c204c4c414d53204e4954414c3b4e3b3b3b3b4130333020313630303b4c3b303b6c4c3b45564f424120474e4952204854495720412052455454454c204c4c414d53204e4954414c3b35453030,
0x364330303b3b364330303b3b4520412052455454454c204c4c414d53204e4954414c3b4e3b3b3b3b3b4c3b303b6c4c3b45412052455454454c204c4c414d53204e4954414c3b36453030,
0x374330303b3b374330303b3b414c4c4944454320432052455454454c204c4c414d53204e4954414c3b4e3b3b3b3b3732333020333630303b4c3b303b6c4c3b414c4c49444543204854495720432052455454454c204c4c414d53204e4954414c3b37453030,
0x384330303b3b384330303b3b455641524720452052455454454c204c4c414d53204e4954414c3b4e3b3b3b3b3030333020353630303b4c3b303b6c4c3b4556415247204854495720452052455454454c204c4c414d53204e4954414c3b38453030,
0x394330303b3b394330303b3b455455434120452052455454454c204c4c414d53204e4954414c3b4e3b3b3b3b3130333020353630303b4c3b303b6c4c3b4554554341204854495720452052455454454c204c4c414d53204e4954414c3b39453030,
0x414330303b3b414330303b3b58454c464d554352494320452052455454454c204c4c414d53204e4954414c3b4e3b3b3b3b3230333020353630303b4c3b303b6c4c3b58454c464d5543524943204854495720452052455454454c204c4c414d53204e4954414c3b41453030,
0x424330303b3b424330303b3b53495345524541494420452052455454454c204c4c414d53204e4954414c3b4e3b3b3b3b3830333020353630303b4c3b303b6c4c3b534953455245414944204854495720452052455454454c204c4c414d53204e4954414c3b42453030,
0x434330303b3b434330303b3b455641524720492052455454454c204c4c414d53204e4954414c3b4e3b3b3b3b3030333020393630303b4c3b303b6c4c3b4556415247204854495720492052455454454c204c4c414d53204e4954414c3b43453030,
0x444330303b3b444330303b3b455455434120492052455454454c204c4c414d53204e4954414c3b4e3b3b3b3b3130333020393630303b4c3b303b6c4c3b4554554341204854495720492052455454454c204c4c414d53204e4954414c3b44453030,
0x454330303b3b454330303b3b58454c464d554352494320492052455454454c204c4c414d53204e4954414c3b4e3b3b3b3b3230333020393630303b4c3b303b6c4c3b58454c464d5543524943204854495720492052455454454c204c4c414d53204e4954414c3b45453030,
0x464330303b3b464330303b3b53495345524541494420492052455454454c204c4c414d53204e4954414c3b4e3b3b3b3b3830333020393630303b4c3b303b6c4c3b534953455245414944204854495720492052455454454c204c4c414d53204e4954414c3b46453030,
0x304430303b3b304430303b3b3b4e3b3b3b3b3b4c3b303b6c4c3b4854452052455454454c204c4c414d53204e4954414c3b30463030,
0x314430303b3b314430303b3b45444c4954204e2052455454454c204c4c414d53204e4954414c3b4e3b3b3b3b3330333020453630303b4c3b303b6c4c3b45444c49542048544957204e2052455454454c204c4c414d53204e4954414c3b31463030,
0x324430303b3b324430303b3b4556415247204f2052455454454c204c4c414d53204e4954414c3b4e3b3b3b3b3030333020463630303b4c3b303b6c4c3b45564152472048544957204f2052455454454c204c4c414d53204e4954414c3b32463030,
0x334430303b3b334430303b3b4554554341204f2052455454454c204c4c414d53204e4954414c3b4e3b3b3b3b3130333020463630303b4c3b303b6c4c3b45545543412048544957204f2052455454454c204c4c414d53204e4954414c3b33463030,
0x344430303b3b344430303b3b58454c464d5543524943204f2052455454454c204c4c414d53204e4954414c3b4e3b3b3b3b3230333020463630303b4c3b303b6c4c3b58454c464d55435249432048544957204f2052455454454c204c4c414d53204e4954414c3b34463030,
0x354430303b3b354430303b3b45444c4954204f2052455454454c204c4c414d53204e4954414c3b4e3b3b3b3b3330333020463630303b4c3b303b6c4c3b45444c49542048544957204f2052455454454c204c4c414d53204e4954414c3b35463030,
0x364430303b3b364430303b3b534953455245414944204f2052455454454c204c4c414d53204e4954414c3b4e3b3b3b3b3830333020463630303b4c3b303b6c4c3b5349534552454149442048544957204f2052455454454c204c4c414d53204e4954414c3b36463030,
0x3b3b3b3b3b4e3b3b3b3b3b4e4f3b303b6d533b4e474953204e4f4953495649443b37463030,
0x384430303b3b384430303b3b4853414c53204f2052455454454c204c4c414d53204e4954414c3b4e3b3b3b3b3b4c3b303b6c4c3b454b4f5254532048544957204f2052455454454c204c4c414d53204e4954414c3b38463030,
0x394430303b3b394430303b3b455641524720552052455454454c204c4c414d53204e4954414c3b4e3b3b3b3b3030333020353730303b4c3b303b6c4c3b4556415247204854495720552052455454454c204c4c414d53204e4954414c3b39463030,
0x414430303b3b414430303b3b455455434120552052455454454c204c4c414d53204e4954414c3b4e3b3b3b3b3130333020353730303b4c3b303b6c4c3b4554554341204854495720552052455454454c204c4c414d53204e4954414c3b41463030,
0x424430303b3b424430303b3b58454c464d554352494320552052455454454c204c4c414d53204e4954414c3b4e3b3b3b3b3230333020353730303b4c3b303b6c4c3b58454c464d5543524943204854495720552052455454454c204c4c414d53204e4954414c3b42463030,
0x434430303b3b434430303b3b53495345524541494420552052455454454c204c4c414d53204e4954414c3b4e3b3b3b3b3830333020353730303b4c3b303b6c4c3b534953455245414944204854495720552052455454454c204c4c414d53204e4954414c3b43463030,
0x444430303b3b444430303b3b455455434120592052455454454c204c4c414d53204e4954414c3b4e3b3b3b3b3130333020393730303b4c3b303b6c4c3b4554554341204854495720592052455454454c204c4c414d53204e4954414c3b44463030,
0x454430303b3b454430303b3b3b4e3b3b3b3b3b4c3b303b6c4c3b4e524f48542052455454454c204c4c414d53204e4954414c3b45463030,
0x383731303b3b383731303b3b53495345524541494420592052455454454c204c4c414d53204e4954414c3b4e3b3b3b3b3830333020393730303b4c3b303b6c4c3b534953455245414944204854495720592052455454454c204c4c414d53204e4954414c3b46463030]

/-- src/u5e/props/UnicodeData.txt lines 257-512. -/
def rawUcd1 : List Nat := [
0x3b313031303b3b3b4e4f5243414d20412052455454454c204c415449504143204e4954414c3b4e3b3b3b3b3430333020313430303b4c3b303b754c3b4e4f5243414d204854495720412052455454454c204c415449504143204e4954414c3b30303130,
0x303031303b3b303031303b3b4e4f5243414d20412052455454454c204c4c414d53204e4954414c3b4e3b3b3b3b3430333020313630303b4c3b303b6c4c3b4e4f5243414d204854495720412052455454454c204c4c414d53204e4954414c3b31303130,
0x3b333031303b3b3b455645524220412052455454454c204c415449504143204e4954414c3b4e3b3b3b3b3630333020313430303b4c3b303b754c3b4556455242204854495720412052455454454c204c415449504143204e4954414c3b32303130,
0x323031303b3b323031303b3b455645524220412052455454454c204c4c414d53204e4954414c3b4e3b3b3b3b3630333020313630303b4c3b303b6c4c3b4556455242204854495720412052455454454c204c4c414d53204e4954414c3b33303130,
0x3b353031303b3b3b4b454e4f474f20412052455454454c204c415449504143204e4954414c3b4e3b3b3b3b3832333020313430303b4c3b303b754c3b4b454e4f474f204854495720412052455454454c204c415449504143204e4954414c3b34303130,
0x343031303b3b343031303b3b4b454e4f474f20412052455454454c204c4c414d53204e4954414c3b4e3b3b3b3b3832333020313630303b4c3b303b6c4c3b4b454e4f474f204854495720412052455454454c204c4c414d53204e4954414c3b35303130,
0x3b373031303b3b3b455455434120432052455454454c204c415449504143204e4954414c3b4e3b3b3b3b3130333020333430303b4c3b303b754c3b4554554341204854495720432052455454454c204c415449504143204e4954414c3b36303130,
0x363031303b3b363031303b3b455455434120432052455454454c204c4c414d53204e4954414c3b4e3b3b3b3b3130333020333630303b4c3b303b6c4c3b4554554341204854495720432052455454454c204c4c414d53204e4954414c3b37303130,
0x3b393031303b3b3b58454c464d554352494320432052455454454c204c415449504143204e4954414c3b4e3b3b3b3b3230333020333430303b4c3b303b754c3b58454c464d5543524943204854495720432052455454454c204c415449504143204e4954414c3b38303130,
0x383031303b3b383031303b3b58454c464d554352494320432052455454454c204c4c414d53204e4954414c3b4e3b3b3b3b3230333020333630303b4c3b303b6c4c3b58454c464d5543524943204854495720432052455454454c204c4c414d53204e4954414c3b39303130,
0x3b423031303b3b3b544f4420432052455454454c204c415449504143204e4954414c3b4e3b3b3b3b3730333020333430303b4c3b303b754c3b45564f424120544f44204854495720432052455454454c204c415449504143204e4954414c3b41303130,
0x413031303b3b413031303b3b544f4420432052455454454c204c4c414d53204e4954414c3b4e3b3b3b3b3730333020333630303b4c3b303b6c4c3b45564f424120544f44204854495720432052455454454c204c4c414d53204e4954414c3b42303130,
0x3b443031303b3b3b4b4543414820432052455454454c204c415449504143204e4954414c3b4e3b3b3b3b4330333020333430303b4c3b303b754c3b4e4f524143204854495720432052455454454c204c415449504143204e4954414c3b43303130,
0x433031303b3b433031303b3b4b4543414820432052455454454c204c4c414d53204e4954414c3b4e3b3b3b3b4330333020333630303b4c3b303b6c4c3b4e4f524143204854495720432052455454454c204c4c414d53204e4954414c3b44303130,
0x3b463031303b3b3b4b4543414820442052455454454c204c415449504143204e4954414c3b4e3b3b3b3b4330333020343430303b4c3b303b754c3b4e4f524143204854495720442052455454454c204c415449504143204e4954414c3b45303130,
0x453031303b3b453031303b3b4b4543414820442052455454454c204c4c414d53204e4954414c3b4e3b3b3b3b4330333020343630303b4c3b303b6c4c3b4e4f524143204854495720442052455454454c204c4c414d53204e4954414c3b46303130,
0x3b313131303b3b3b52414220442052455454454c204c415449504143204e4954414c3b4e3b3b3b3b3b4c3b303b754c3b454b4f525453204854495720442052455454454c204c415449504143204e4954414c3b30313130,
0x303131303b3b303131303b3b52414220442052455454454c204c4c414d53204e4954414c3b4e3b3b3b3b3b4c3b303b6c4c3b454b4f525453204854495720442052455454454c204c4c414d53204e4954414c3b31313130,
0x3b333131303b3b3b4e4f5243414d20452052455454454c204c415449504143204e4954414c3b4e3b3b3b3b3430333020353430303b4c3b303b754c3b4e4f5243414d204854495720452052455454454c204c415449504143204e4954414c3b32313130,
0x323131303b3b323131303b3b4e4f5243414d20452052455454454c204c4c414d53204e4954414c3b4e3b3b3b3b3430333020353630303b4c3b303b6c4c3b4e4f5243414d204854495720452052455454454c204c4c414d53204e4954414c3b33313130,
0x3b353131303b3b3b455645524220452052455454454c204c415449504143204e4954414c3b4e3b3b3b3b3630333020353430303b4c3b303b754c3b4556455242204854495720452052455454454c204c415449504143204e4954414c3b34313130,
0x343131303b3b343131303b3b455645524220452052455454454c204c4c414d53204e4954414c3b4e3b3b3b3b3630333020353630303b4c3b303b6c4c3b4556455242204854495720452052455454454c204c4c414d53204e4954414c3b35313130,
0x3b373131303b3b3b544f4420452052455454454c204c415449504143204e4954414c3b4e3b3b3b3b3730333020353430303b4c3b303b754c3b45564f424120544f44204854495720452052455454454c204c415449504143204e4954414c3b36313130,
0x363131303b3b363131303b3b544f4420452052455454454c204c4c414d53204e4954414c3b4e3b3b3b3b3730333020353630303b4c3b303b6c4c3b45564f424120544f44204854495720452052455454454c204c4c414d53204e4954414c3b37313130,
0x3b393131303b3b3b4b454e4f474f20452052455454454c204c415449504143204e4954414c3b4e3b3b3b3b3832333020353430303b4c3b303b754c3b4b454e4f474f204854495720452052455454454c204c415449504143204e4954414c3b38313130,
0x383131303b3b383131303b3b4b454e4f474f20452052455454454c204c4c414d53204e4954414c3b4e3b3b3b3b3832333020353630303b4c3b303b6c4c3b4b454e4f474f204854495720452052455454454c204c4c414d53204e4954414c3b39313130,
0x3b423131303b3b3b4b4543414820452052455454454c204c415449504143204e4954414c3b4e3b3b3b3b4330333020353430303b4c3b303b754c3b4e4f524143204854495720452052455454454c204c415449504143204e4954414c3b41313130,
0x413131303b3b413131303b3b4b4543414820452052455454454c204c4c414d53204e4954414c3b4e3b3b3b3b4330333020353630303b4c3b303b6c4c3b4e4f524143204854495720452052455454454c204c4c414d53204e4954414c3b42313130,
0x3b443131303b3b3b58454c464d554352494320472052455454454c204c415449504143204e4954414c3b4e3b3b3b3b3230333020373430303b4c3b303b754c3b58454c464d5543524943204854495720472052455454454c204c415449504143204e4954414c3b43313130,
0x433131303b3b433131303b3b58454c464d554352494320472052455454454c204c4c414d53204e4954414c3b4e3b3b3b3b3230333020373630303b4c3b303b6c4c3b58454c464d5543524943204854495720472052455454454c204c4c414d53204e4954414c3b44313130,
0x3b463131303b3b3b455645524220472052455454454c204c415449504143204e4954414c3b4e3b3b3b3b3630333020373430303b4c3b303b754c3b4556455242204854495720472052455454454c204c415449504143204e4954414c3b45313130,
0x453131303b3b453131303b3b455645524220472052455454454c204c4c414d53204e4954414c3b4e3b3b3b3b3630333020373630303b4c3b303b6c4c3b4556455242204854495720472052455454454c204c4c414d53204e4954414c3b46313130,
0x3b313231303b3b3b544f4420472052455454454c204c415449504143204e4954414c3b4e3b3b3b3b3730333020373430303b4c3b303b754c3b45564f424120544f44204854495720472052455454454c204c415449504143204e4954414c3b30323130,
0x303231303b3b303231303b3b544f4420472052455454454c204c4c414d53204e4954414c3b4e3b3b3b3b3730333020373630303b4c3b303b6c4c3b45564f424120544f44204854495720472052455454454c204c4c414d53204e4954414c3b31323130,
0x3b333231303b3b3b414c4c4944454320472052455454454c204c415449504143204e4954414c3b4e3b3b3b3b3732333020373430303b4c3b303b754c3b414c4c49444543204854495720472052455454454c204c415449504143204e4954414c3b32323130,
0x323231303b3b323231303b3b414c4c4944454320472052455454454c204c4c414d53204e4954414c3b4e3b3b3b3b3732333020373630303b4c3b303b6c4c3b414c4c49444543204854495720472052455454454c204c4c414d53204e4954414c3b33323130,
0x3b353231303b3b3b58454c464d554352494320482052455454454c204c415449504143204e4954414c3b4e3b3b3b3b3230333020383430303b4c3b303b754c3b58454c464d5543524943204854495720482052455454454c204c415449504143204e4954414c3b34323130,
0x343231303b3b343231303b3b58454c464d554352494320482052455454454c204c4c414d53204e4954414c3b4e3b3b3b3b3230333020383630303b4c3b303b6c4c3b58454c464d5543524943204854495720482052455454454c204c4c414d53204e4954414c3b35323130,
0x3b373231303b3b3b52414220482052455454454c204c415449504143204e4954414c3b4e3b3b3b3b3b4c3b303b754c3b454b4f525453204854495720482052455454454c204c415449504143204e4954414c3b36323130,
0x363231303b3b363231303b3b52414220482052455454454c204c4c414d53204e4954414c3b4e3b3b3b3b3b4c3b303b6c4c3b454b4f525453204854495720482052455454454c204c4c414d53204e4954414c3b37323130,
0x3b393231303b3b3b45444c495420492052455454454c204c415449504143204e4954414c3b4e3b3b3b3b3330333020393430303b4c3b303b754c3b45444c4954204854495720492052455454454c204c415449504143204e4954414c3b38323130,
0x383231303b3b383231303b3b45444c495420492052455454454c204c4c414d53204e4954414c3b4e3b3b3b3b3330333020393630303b4c3b303b6c4c3b45444c4954204854495720492052455454454c204c4c414d53204e4954414c3b39323130,
0x3b423231303b3b3b4e4f5243414d20492052455454454c204c415449504143204e4954414c3b4e3b3b3b3b3430333020393430303b4c3b303b754c3b4e4f5243414d204854495720492052455454454c204c415449504143204e4954414c3b41323130,
0x413231303b3b413231303b3b4e4f5243414d20492052455454454c204c4c414d53204e4954414c3b4e3b3b3b3b3430333020393630303b4c3b303b6c4c3b4e4f5243414d204854495720492052455454454c204c4c414d53204e4954414c3b42323130,
0x3b443231303b3b3b455645524220492052455454454c204c415449504143204e4954414c3b4e3b3b3b3b3630333020393430303b4c3b303b754c3b4556455242204854495720492052455454454c204c415449504143204e4954414c3b43323130,
0x433231303b3b433231303b3b455645524220492052455454454c204c4c414d53204e4954414c3b4e3b3b3b3b3630333020393630303b4c3b303b6c4c3b4556455242204854495720492052455454454c204c4c414d53204e4954414c3b44323130,
0x3b463231303b3b3b4b454e4f474f20492052455454454c204c415449504143204e4954414c3b4e3b3b3b3b3832333020393430303b4c3b303b754c3b4b454e4f474f204854495720492052455454454c204c415449504143204e4954414c3b45323130,
0x453231303b3b453231303b3b4b454e4f474f20492052455454454c204c4c414d53204e4954414c3b4e3b3b3b3b3832333020393630303b4c3b303b6c4c3b4b454e4f474f204854495720492052455454454c204c4c414d53204e4954414c3b46323130,
0x3b393630303b3b3b544f4420492052455454454c204c415449504143204e4954414c3b4e3b3b3b3b3730333020393430303b4c3b303b754c3b45564f424120544f44204854495720492052455454454c204c415449504143204e4954414c3b30333130,
0x393430303b3b393430303b3b3b4e3b3b3b3b3b4c3b303b6c4c3b49205353454c544f442052455454454c204c4c414d53204e4954414c3b31333130,
0x3b333331303b3b3b4a20492052455454454c204c415449504143204e4954414c3b4e3b3b3b3b413430302039343030203e7461706d6f633c3b4c3b303b754c3b4a4920455255544147494c204c415449504143204e4954414c3b32333130,
0x323331303b3b323331303b3b4a20492052455454454c204c4c414d53204e4954414c3b4e3b3b3b3b413630302039363030203e7461706d6f633c3b4c3b303b6c4c3b4a4920455255544147494c204c4c414d53204e4954414c3b33333130,
0x3b353331303b3b3b58454c464d5543524943204a2052455454454c204c415449504143204e4954414c3b4e3b3b3b3b3230333020413430303b4c3b303b754c3b58454c464d55435249432048544957204a2052455454454c204c415449504143204e4954414c3b34333130,
0x343331303b3b343331303b3b58454c464d5543524943204a2052455454454c204c4c414d53204e4954414c3b4e3b3b3b3b3230333020413630303b4c3b303b6c4c3b58454c464d55435249432048544957204a2052455454454c204c4c414d53204e4954414c3b35333130,
0x3b373331303b3b3b414c4c49444543204b2052455454454c204c415449504143204e4954414c3b4e3b3b3b3b3732333020423430303b4c3b303b754c3b414c4c494445432048544957204b2052455454454c204c415449504143204e4954414c3b36333130,
0x363331303b3b363331303b3b414c4c49444543204b2052455454454c204c4c414d53204e4954414c3b4e3b3b3b3b3732333020423630303b4c3b303b6c4c3b414c4c494445432048544957204b2052455454454c204c4c414d53204e4954414c3b37333130,
0x3b3b3b3b3b4e3b3b3b3b3b4c3b303b6c4c3b41524b2052455454454c204c4c414d53204e4954414c3b38333130,
0x3b413331303b3b3b4554554341204c2052455454454c204c415449504143204e4954414c3b4e3b3b3b3b3130333020433430303b4c3b303b754c3b45545543412048544957204c2052455454454c204c415449504143204e4954414c3b39333130,
0x393331303b3b393331303b3b4554554341204c2052455454454c204c4c414d53204e4954414c3b4e3b3b3b3b3130333020433630303b4c3b303b6c4c3b45545543412048544957204c2052455454454c204c4c414d53204e4954414c3b41333130,
0x3b433331303b3b3b414c4c49444543204c2052455454454c204c415449504143204e4954414c3b4e3b3b3b3b3732333020433430303b4c3b303b754c3b414c4c494445432048544957204c2052455454454c204c415449504143204e4954414c3b42333130,
0x423331303b3b423331303b3b414c4c49444543204c2052455454454c204c4c414d53204e4954414c3b4e3b3b3b3b3732333020433630303b4c3b303b6c4c3b414c4c494445432048544957204c2052455454454c204c4c414d53204e4954414c3b43333130,
0x3b453331303b3b3b4b45434148204c2052455454454c204c415449504143204e4954414c3b4e3b3b3b3b4330333020433430303b4c3b303b754c3b4e4f5241432048544957204c2052455454454c204c415449504143204e4954414c3b44333130,
0x443331303b3b443331303b3b4b45434148204c2052455454454c204c4c414d53204e4954414c3b4e3b3b3b3b4330333020433630303b4c3b303b6c4c3b4e4f5241432048544957204c2052455454454c204c4c414d53204e4954414c3b45333130,
0x3b303431303b3b3b3b4e3b3b3b3b374230302043343030203e7461706d6f633c3b4c3b303b754c3b544f4420454c4444494d2048544957204c2052455454454c204c415449504143204e4954414c3b46333130,
0x463331303b3b463331303b3b3b4e3b3b3b3b374230302043363030203e7461706d6f633c3b4c3b303b6c4c3b544f4420454c4444494d2048544957204c2052455454454c204c4c414d53204e4954414c3b30343130,
0x3b323431303b3b3b4853414c53204c2052455454454c204c415449504143204e4954414c3b4e3b3b3b3b3b4c3b303b754c3b454b4f5254532048544957204c2052455454454c204c415449504143204e4954414c3b31343130,
0x313431303b3b313431303b3b4853414c53204c2052455454454c204c4c414d53204e4954414c3b4e3b3b3b3b3b4c3b303b6c4c3b454b4f5254532048544957204c2052455454454c204c4c414d53204e4954414c3b32343130,
0x3b343431303b3b3b4554554341204e2052455454454c204c415449504143204e4954414c3b4e3b3b3b3b3130333020453430303b4c3b303b754c3b45545543412048544957204e2052455454454c204c415449504143204e4954414c3b33343130,
0x333431303b3b333431303b3b4554554341204e2052455454454c204c4c414d53204e4954414c3b4e3b3b3b3b3130333020453630303b4c3b303b6c4c3b45545543412048544957204e2052455454454c204c4c414d53204e4954414c3b34343130,
0x3b363431303b3b3b414c4c49444543204e2052455454454c204c415449504143204e4954414c3b4e3b3b3b3b3732333020453430303b4c3b303b754c3b414c4c494445432048544957204e2052455454454c204c415449504143204e4954414c3b35343130,
0x353431303b3b353431303b3b414c4c49444543204e2052455454454c204c4c414d53204e4954414c3b4e3b3b3b3b3732333020453630303b4c3b303b6c4c3b414c4c494445432048544957204e2052455454454c204c4c414d53204e4954414c3b36343130,
0x3b383431303b3b3b4b45434148204e2052455454454c204c415449504143204e4954414c3b4e3b3b3b3b4330333020453430303b4c3b303b754c3b4e4f5241432048544957204e2052455454454c204c415449504143204e4954414c3b37343130,
0x373431303b3b373431303b3b4b45434148204e2052455454454c204c4c414d53204e4954414c3b4e3b3b3b3b4330333020453630303b4c3b303b6c4c3b4e4f5241432048544957204e2052455454454c204c4c414d53204e4954414c3b38343130,
0x3b3b3b3b4e204548504f5254534f50412052455454454c204c4c414d53204e4954414c3b4e3b3b3b3b453630302043423230203e7461706d6f633c3b4c3b303b6c4c3b4548504f5254534f5041205942204445444543455250204e2052455454454c204c4c414d53204e4954414c3b39343130,
0x3b423431303b3b3b3b4e3b3b3b3b3b4c3b303b754c3b474e452052455454454c204c415449504143204e4954414c3b41343130,
0x413431303b3b413431303b3b3b4e3b3b3b3b3b4c3b303b6c4c3b474e452052455454454c204c4c414d53204e4954414c3b42343130,
0x3b443431303b3b3b4e4f5243414d204f2052455454454c204c415449504143204e4954414c3b4e3b3b3b3b3430333020463430303b4c3b303b754c3b4e4f5243414d2048544957204f2052455454454c204c415449504143204e4954414c3b43343130,
0x433431303b3b433431303b3b4e4f5243414d204f2052455454454c204c4c414d53204e4954414c3b4e3b3b3b3b3430333020463630303b4c3b303b6c4c3b4e4f5243414d2048544957204f2052455454454c204c4c414d53204e4954414c3b44343130,
0x3b463431303b3b3b4556455242204f2052455454454c204c415449504143204e4954414c3b4e3b3b3b3b3630333020463430303b4c3b303b754c3b45564552422048544957204f2052455454454c204c415449504143204e4954414c3b45343130,
0x453431303b3b453431303b3b4556455242204f2052455454454c204c4c414d53204e4954414c3b4e3b3b3b3b3630333020463630303b4c3b303b6c4c3b45564552422048544957204f2052455454454c204c4c414d53204e4954414c3b46343130,
0x3b313531303b3b3b455455434120454c42554f44204f2052455454454c204c415449504143204e4954414c3b4e3b3b3b3b4230333020463430303b4c3b303b754c3b455455434120454c42554f442048544957204f2052455454454c204c415449504143204e4954414c3b30353130,
0x303531303b3b303531303b3b455455434120454c42554f44204f2052455454454c204c4c414d53204e4954414c3b4e3b3b3b3b4230333020463630303b4c3b303b6c4c3b455455434120454c42554f442048544957204f2052455454454c204c4c414d53204e4954414c3b31353130,
0x3b333531303b3b3b45204f2052455454454c204c415449504143204e4954414c3b4e3b3b3b3b3b4c3b303b754c3b454f20455255544147494c204c415449504143204e4954414c3b32353130,
0x323531303b3b323531303b3b45204f2052455454454c204c4c414d53204e4954414c3b4e3b3b3b3b3b4c3b303b6c4c3b454f20455255544147494c204c4c414d53204e4954414c3b33353130,
0x3b353531303b3b3b455455434120522052455454454c204c415449504143204e4954414c3b4e3b3b3b3b3130333020323530303b4c3b303b754c3b4554554341204854495720522052455454454c204c415449504143204e4954414c3b34353130,
0x343531303b3b343531303b3b455455434120522052455454454c204c4c414d53204e4954414c3b4e3b3b3b3b3130333020323730303b4c3b303b6c4c3b4554554341204854495720522052455454454c204c4c414d53204e4954414c3b35353130,
0x3b373531303b3b3b414c4c4944454320522052455454454c204c415449504143204e4954414c3b4e3b3b3b3b3732333020323530303b4c3b303b754c3b414c4c49444543204854495720522052455454454c204c415449504143204e4954414c3b36353130,
0x363531303b3b363531303b3b414c4c4944454320522052455454454c204c4c414d53204e4954414c3b4e3b3b3b3b3732333020323730303b4c3b303b6c4c3b414c4c49444543204854495720522052455454454c204c4c414d53204e4954414c3b37353130,
0x3b393531303b3b3b4b4543414820522052455454454c204c415449504143204e4954414c3b4e3b3b3b3b4330333020323530303b4c3b303b754c3b4e4f524143204854495720522052455454454c204c415449504143204e4954414c3b38353130,
0x383531303b3b383531303b3b4b4543414820522052455454454c204c4c414d53204e4954414c3b4e3b3b3b3b4330333020323730303b4c3b303b6c4c3b4e4f524143204854495720522052455454454c204c4c414d53204e4954414c3b39353130,
0x3b423531303b3b3b455455434120532052455454454c204c415449504143204e4954414c3b4e3b3b3b3b3130333020333530303b4c3b303b754c3b4554554341204854495720532052455454454c204c415449504143204e4954414c3b41353130,
0x413531303b3b413531303b3b455455434120532052455454454c204c4c414d53204e4954414c3b4e3b3b3b3b3130333020333730303b4c3b303b6c4c3b4554554341204854495720532052455454454c204c4c414d53204e4954414c3b42353130,
0x3b443531303b3b3b58454c464d554352494320532052455454454c204c415449504143204e4954414c3b4e3b3b3b3b3230333020333530303b4c3b303b754c3b58454c464d5543524943204854495720532052455454454c204c415449504143204e4954414c3b43353130,
0x433531303b3b433531303b3b58454c464d554352494320532052455454454c204c4c414d53204e4954414c3b4e3b3b3b3b3230333020333730303b4c3b303b6c4c3b58454c464d5543524943204854495720532052455454454c204c4c414d53204e4954414c3b44353130,
0x3b463531303b3b3b414c4c4944454320532052455454454c204c415449504143204e4954414c3b4e3b3b3b3b3732333020333530303b4c3b303b754c3b414c4c49444543204854495720532052455454454c204c415449504143204e4954414c3b45353130,
0x453531303b3b453531303b3b414c4c4944454320532052455454454c204c4c414d53204e4954414c3b4e3b3b3b3b3732333020333730303b4c3b303b6c4c3b414c4c49444543204854495720532052455454454c204c4c414d53204e4954414c3b46353130,
0x3b313631303b3b3b4b4543414820532052455454454c204c415449504143204e4954414c3b4e3b3b3b3b4330333020333530303b4c3b303b754c3b4e4f524143204854495720532052455454454c204c415449504143204e4954414c3b30363130,
0x303631303b3b303631303b3b4b4543414820532052455454454c204c4c414d53204e4954414c3b4e3b3b3b3b4330333020333730303b4c3b303b6c4c3b4e4f524143204854495720532052455454454c204c4c414d53204e4954414c3b31363130,
0x3b333631303b3b3b414c4c4944454320542052455454454c204c415449504143204e4954414c3b4e3b3b3b3b3732333020343530303b4c3b303b754c3b414c4c49444543204854495720542052455454454c204c415449504143204e4954414c3b32363130,
0x323631303b3b323631303b3b414c4c4944454320542052455454454c204c4c414d53204e4954414c3b4e3b3b3b3b3732333020343730303b4c3b303b6c4c3b414c4c49444543204854495720542052455454454c204c4c414d53204e4954414c3b33363130,
0x3b353631303b3b3b4b4543414820542052455454454c204c415449504143204e4954414c3b4e3b3b3b3b4330333020343530303b4c3b303b754c3b4e4f524143204854495720542052455454454c204c415449504143204e4954414c3b34363130,
0x343631303b3b343631303b3b4b4543414820542052455454454c204c4c414d53204e4954414c3b4e3b3b3b3b4330333020343730303b4c3b303b6c4c3b4e4f524143204854495720542052455454454c204c4c414d53204e4954414c3b35363130,
0x3b373631303b3b3b52414220542052455454454c204c415449504143204e4954414c3b4e3b3b3b3b3b4c3b303b754c3b454b4f525453204854495720542052455454454c204c415449504143204e4954414c3b36363130,
0x363631303b3b363631303b3b52414220542052455454454c204c4c414d53204e4954414c3b4e3b3b3b3b3b4c3b303b6c4c3b454b4f525453204854495720542052455454454c204c4c414d53204e4954414c3b37363130,
0x3b393631303b3b3b45444c495420552052455454454c204c415449504143204e4954414c3b4e3b3b3b3b3330333020353530303b4c3b303b754c3b45444c4954204854495720552052455454454c204c415449504143204e4954414c3b38363130,
0x383631303b3b383631303b3b45444c495420552052455454454c204c4c414d53204e4954414c3b4e3b3b3b3b3330333020353730303b4c3b303b6c4c3b45444c4954204854495720552052455454454c204c4c414d53204e4954414c3b39363130,
0x3b423631303b3b3b4e4f5243414d20552052455454454c204c415449504143204e4954414c3b4e3b3b3b3b3430333020353530303b4c3b303b754c3b4e4f5243414d204854495720552052455454454c204c415449504143204e4954414c3b41363130,
0x413631303b3b413631303b3b4e4f5243414d20552052455454454c204c4c414d53204e4954414c3b4e3b3b3b3b3430333020353730303b4c3b303b6c4c3b4e4f5243414d204854495720552052455454454c204c4c414d53204e4954414c3b42363130,
0x3b443631303b3b3b455645524220552052455454454c204c415449504143204e4954414c3b4e3b3b3b3b3630333020353530303b4c3b303b754c3b4556455242204854495720552052455454454c204c415449504143204e4954414c3b43363130,
0x433631303b3b433631303b3b455645524220552052455454454c204c4c414d53204e4954414c3b4e3b3b3b3b3630333020353730303b4c3b303b6c4c3b4556455242204854495720552052455454454c204c4c414d53204e4954414c3b44363130,
0x3b463631303b3b3b474e495220552052455454454c204c415449504143204e4954414c3b4e3b3b3b3b4130333020353530303b4c3b303b754c3b45564f424120474e4952204854495720552052455454454c204c415449504143204e4954414c3b45363130,
0x453631303b3b453631303b3b474e495220552052455454454c204c4c414d53204e4954414c3b4e3b3b3b3b4130333020353730303b4c3b303b6c4c3b45564f424120474e4952204854495720552052455454454c204c4c414d53204e4954414c3b46363130,
0x3b313731303b3b3b455455434120454c42554f4420552052455454454c204c415449504143204e4954414c3b4e3b3b3b3b4230333020353530303b4c3b303b754c3b455455434120454c42554f44204854495720552052455454454c204c415449504143204e4954414c3b30373130,
0x303731303b3b303731303b3b455455434120454c42554f4420552052455454454c204c4c414d53204e4954414c3b4e3b3b3b3b4230333020353730303b4c3b303b6c4c3b455455434120454c42554f44204854495720552052455454454c204c4c414d53204e4954414c3b31373130,
0x3b333731303b3b3b4b454e4f474f20552052455454454c204c415449504143204e4954414c3b4e3b3b3b3b3832333020353530303b4c3b303b754c3b4b454e4f474f204854495720552052455454454c204c415449504143204e4954414c3b32373130,
0x323731303b3b323731303b3b4b454e4f474f20552052455454454c204c4c414d53204e4954414c3b4e3b3b3b3b3832333020353730303b4c3b303b6c4c3b4b454e4f474f204854495720552052455454454c204c4c414d53204e4954414c3b33373130,
0x3b353731303b3b3b58454c464d554352494320572052455454454c204c415449504143204e4954414c3b4e3b3b3b3b3230333020373530303b4c3b303b754c3b58454c464d5543524943204854495720572052455454454c204c415449504143204e4954414c3b34373130,
0x343731303b3b343731303b3b58454c464d554352494320572052455454454c204c4c414d53204e4954414c3b4e3b3b3b3b3230333020373730303b4c3b303b6c4c3b58454c464d5543524943204854495720572052455454454c204c4c414d53204e4954414c3b35373130,
0x3b373731303b3b3b58454c464d554352494320592052455454454c204c415449504143204e4954414c3b4e3b3b3b3b3230333020393530303b4c3b303b754c3b58454c464d5543524943204854495720592052455454454c204c415449504143204e4954414c3b36373130,
0x363731303b3b363731303b3b58454c464d554352494320592052455454454c204c4c414d53204e4954414c3b4e3b3b3b3b3230333020393730303b4c3b303b6c4c3b58454c464d5543524943204854495720592052455454454c204c4c414d53204e4954414c3b37373130,
0x3b464630303b3b3b53495345524541494420592052455454454c204c415449504143204e4954414c3b4e3b3b3b3b3830333020393530303b4c3b303b754c3b534953455245414944204854495720592052455454454c204c415449504143204e4954414c3b38373130,
0x3b413731303b3b3b4554554341205a2052455454454c204c415449504143204e4954414c3b4e3b3b3b3b3130333020413530303b4c3b303b754c3b45545543412048544957205a2052455454454c204c415449504143204e4954414c3b39373130,
0x393731303b3b393731303b3b4554554341205a2052455454454c204c4c414d53204e4954414c3b4e3b3b3b3b3130333020413730303b4c3b303b6c4c3b45545543412048544957205a2052455454454c204c4c414d53204e4954414c3b41373130,
0x3b433731303b3b3b544f44205a2052455454454c204c415449504143204e4954414c3b4e3b3b3b3b3730333020413530303b4c3b303b754c3b45564f424120544f442048544957205a2052455454454c204c415449504143204e4954414c3b42373130,
0x423731303b3b423731303b3b544f44205a2052455454454c204c4c414d53204e4954414c3b4e3b3b3b3b3730333020413730303b4c3b303b6c4c3b45564f424120544f442048544957205a2052455454454c204c4c414d53204e4954414c3b43373130,
0x3b453731303b3b3b4b45434148205a2052455454454c204c415449504143204e4954414c3b4e3b3b3b3b4330333020413530303b4c3b303b754c3b4e4f5241432048544957205a2052455454454c204c415449504143204e4954414c3b44373130,
0x443731303b3b443731303b3b4b45434148205a2052455454454c204c4c414d53204e4954414c3b4e3b3b3b3b4330333020413730303b4c3b303b6c4c3b4e4f5241432048544957205a2052455454454c204c4c414d53204e4954414c3b45373130,
0x333530303b3b333530303b3b3b4e3b3b3b3b33373030203e7461706d6f633c3b4c3b303b6c4c3b5320474e4f4c2052455454454c204c4c414d53204e4954414c3b46373130,
0x333432303b3b333432303b3b52414220422052455454454c204c4c414d53204e4954414c3b4e3b3b3b3b3b4c3b303b6c4c3b454b4f525453204854495720422052455454454c204c4c414d53204e4954414c3b30383130,
0x3b333532303b3b3b4b4f4f4820422052455454454c204c415449504143204e4954414c3b4e3b3b3b3b3b4c3b303b754c3b4b4f4f48204854495720422052455454454c204c415449504143204e4954414c3b31383130,
0x3b333831303b3b3b524142504f5420422052455454454c204c415449504143204e4954414c3b4e3b3b3b3b3b4c3b303b754c3b524142504f54204854495720422052455454454c204c415449504143204e4954414c3b32383130,
0x323831303b3b323831303b3b524142504f5420422052455454454c204c4c414d53204e4954414c3b4e3b3b3b3b3b4c3b303b6c4c3b524142504f54204854495720422052455454454c204c4c414d53204e4954414c3b33383130,
0x3b353831303b3b3b3b4e3b3b3b3b3b4c3b303b754c3b58495320454e4f542052455454454c204c415449504143204e4954414c3b34383130,
0x343831303b3b343831303b3b3b4e3b3b3b3b3b4c3b303b6c4c3b58495320454e4f542052455454454c204c4c414d53204e4954414c3b35383130,
0x3b343532303b3b3b3b4e3b3b3b3b3b4c3b303b754c3b4f204e45504f2052455454454c204c415449504143204e4954414c3b36383130,
0x3b383831303b3b3b4b4f4f4820432052455454454c204c415449504143204e4954414c3b4e3b3b3b3b3b4c3b303b754c3b4b4f4f48204854495720432052455454454c204c415449504143204e4954414c3b37383130,
0x373831303b3b373831303b3b4b4f4f4820432052455454454c204c4c414d53204e4954414c3b4e3b3b3b3b3b4c3b303b6c4c3b4b4f4f48204854495720432052455454454c204c4c414d53204e4954414c3b38383130,
0x3b363532303b3b3b3b4e3b3b3b3b3b4c3b303b754c3b44204e4143495246412052455454454c204c415449504143204e4954414c3b39383130,
0x3b373532303b3b3b4b4f4f4820442052455454454c204c415449504143204e4954414c3b4e3b3b3b3b3b4c3b303b754c3b4b4f4f48204854495720442052455454454c204c415449504143204e4954414c3b41383130,
0x3b433831303b3b3b524142504f5420442052455454454c204c415449504143204e4954414c3b4e3b3b3b3b3b4c3b303b754c3b524142504f54204854495720442052455454454c204c415449504143204e4954414c3b42383130,
0x423831303b3b423831303b3b524142504f5420442052455454454c204c4c414d53204e4954414c3b4e3b3b3b3b3b4c3b303b6c4c3b524142504f54204854495720442052455454454c204c4c414d53204e4954414c3b43383130,
0x3b3b3b3b3b4e3b3b3b3b3b4c3b303b6c4c3b41544c45442044454e5255542052455454454c204c4c414d53204e4954414c3b44383130,
0x3b444431303b3b3b452044454e5255542052455454454c204c415449504143204e4954414c3b4e3b3b3b3b3b4c3b303b754c3b452044455352455645522052455454454c204c415449504143204e4954414c3b45383130,
0x3b393532303b3b3b3b4e3b3b3b3b3b4c3b303b754c3b41574843532052455454454c204c415449504143204e4954414c3b46383130,
0x3b423532303b3b3b4e4f4c495350452052455454454c204c415449504143204e4954414c3b4e3b3b3b3b3b4c3b303b754c3b45204e45504f2052455454454c204c415449504143204e4954414c3b30393130,
0x3b323931303b3b3b4b4f4f4820462052455454454c204c415449504143204e4954414c3b4e3b3b3b3b3b4c3b303b754c3b4b4f4f48204854495720462052455454454c204c415449504143204e4954414c3b31393130,
0x313931303b3b313931303b3b46205450495243532052455454454c204c4c414d53204e4954414c3b4e3b3b3b3b3b4c3b303b6c4c3b4b4f4f48204854495720462052455454454c204c4c414d53204e4954414c3b32393130,
0x3b303632303b3b3b4b4f4f4820472052455454454c204c415449504143204e4954414c3b4e3b3b3b3b3b4c3b303b754c3b4b4f4f48204854495720472052455454454c204c415449504143204e4954414c3b33393130,
0x3b333632303b3b3b3b4e3b3b3b3b3b4c3b303b754c3b414d4d41472052455454454c204c415449504143204e4954414c3b34393130,
0x364631303b3b364631303b3b5620482052455454454c204c4c414d53204e4954414c3b4e3b3b3b3b3b4c3b303b6c4c3b56482052455454454c204c4c414d53204e4954414c3b35393130,
0x3b393632303b3b3b3b4e3b3b3b3b3b4c3b303b754c3b41544f492052455454454c204c415449504143204e4954414c3b36393130,
0x3b383632303b3b3b49204445525241422052455454454c204c415449504143204e4954414c3b4e3b3b3b3b3b4c3b303b754c3b454b4f525453204854495720492052455454454c204c415449504143204e4954414c3b37393130,
0x3b393931303b3b3b4b4f4f48204b2052455454454c204c415449504143204e4954414c3b4e3b3b3b3b3b4c3b303b754c3b4b4f4f482048544957204b2052455454454c204c415449504143204e4954414c3b38393130,
0x383931303b3b383931303b3b4b4f4f48204b2052455454454c204c4c414d53204e4954414c3b4e3b3b3b3b3b4c3b303b6c4c3b4b4f4f482048544957204b2052455454454c204c4c414d53204e4954414c3b39393130,
0x443332303b3b443332303b3b4c204445525241422052455454454c204c4c414d53204e4954414c3b4e3b3b3b3b3b4c3b303b6c4c3b5241422048544957204c2052455454454c204c4c414d53204e4954414c3b41393130,
0x3b3b3b3b4144424d414c204445525241422052455454454c204c4c414d53204e4954414c3b4e3b3b3b3b3b4c3b303b6c4c3b454b4f5254532048544957204144424d414c2052455454454c204c4c414d53204e4954414c3b42393130,
0x3b463632303b3b3b3b4e3b3b3b3b3b4c3b303b754c3b4d2044454e5255542052455454454c204c415449504143204e4954414c3b43393130,
0x3b323732303b3b3b4b4f4f48204e2052455454454c204c415449504143204e4954414c3b4e3b3b3b3b3b4c3b303b754c3b4b4f4f48205446454c2048544957204e2052455454454c204c415449504143204e4954414c3b44393130,
0x303232303b3b303232303b3b3b4e3b3b3b3b3b4c3b303b6c4c3b47454c20544847495220474e4f4c2048544957204e2052455454454c204c4c414d53204e4954414c3b45393130,
0x3b353732303b3b3b4f204445525241422052455454454c204c415449504143204e4954414c3b4e3b3b3b3b3b4c3b303b754c3b45444c495420454c4444494d2048544957204f2052455454454c204c415449504143204e4954414c3b46393130,
0x3b314131303b3b3b4e524f48204f2052455454454c204c415449504143204e4954414c3b4e3b3b3b3b4231333020463430303b4c3b303b754c3b4e524f482048544957204f2052455454454c204c415449504143204e4954414c3b30413130,
0x304131303b3b304131303b3b4e524f48204f2052455454454c204c4c414d53204e4954414c3b4e3b3b3b3b4231333020463630303b4c3b303b6c4c3b4e524f482048544957204f2052455454454c204c4c414d53204e4954414c3b31413130,
0x3b334131303b3b3b49204f2052455454454c204c415449504143204e4954414c3b4e3b3b3b3b3b4c3b303b754c3b494f2052455454454c204c415449504143204e4954414c3b32413130,
0x324131303b3b324131303b3b49204f2052455454454c204c4c414d53204e4954414c3b4e3b3b3b3b3b4c3b303b6c4c3b494f2052455454454c204c4c414d53204e4954414c3b33413130,
0x3b354131303b3b3b4b4f4f4820502052455454454c204c415449504143204e4954414c3b4e3b3b3b3b3b4c3b303b754c3b4b4f4f48204854495720502052455454454c204c415449504143204e4954414c3b34413130,
0x344131303b3b344131303b3b4b4f4f4820502052455454454c204c4c414d53204e4954414c3b4e3b3b3b3b3b4c3b303b6c4c3b4b4f4f48204854495720502052455454454c204c4c414d53204e4954414c3b35413130,
0x3b303832303b3b3b5220592052455454454c204e4954414c3b4e3b3b3b3b3b4c3b303b754c3b52592052455454454c204e4954414c3b36413130,
0x3b384131303b3b3b3b4e3b3b3b3b3b4c3b303b754c3b4f575420454e4f542052455454454c204c415449504143204e4954414c3b37413130,
0x374131303b3b374131303b3b3b4e3b3b3b3b3b4c3b303b6c4c3b4f575420454e4f542052455454454c204c4c414d53204e4954414c3b38413130,
0x3b333832303b3b3b3b4e3b3b3b3b3b4c3b303b754c3b4853452052455454454c204c415449504143204e4954414c3b39413130,
0x3b3b3b3b3b4e3b3b3b3b3b4c3b303b6c4c3b504f4f4c204853452044455352455645522052455454454c204e4954414c3b41413130,
0x3b3b3b3b4b4f4f48204c4154414c415020542052455454454c204c4c414d53204e4954414c3b4e3b3b3b3b3b4c3b303b6c4c3b4b4f4f48204c4154414c4150204854495720542052455454454c204c4c414d53204e4954414c3b42413130,
0x3b444131303b3b3b4b4f4f4820542052455454454c204c415449504143204e4954414c3b4e3b3b3b3b3b4c3b303b754c3b4b4f4f48204854495720542052455454454c204c415449504143204e4954414c3b43413130,
0x434131303b3b434131303b3b4b4f4f4820542052455454454c204c4c414d53204e4954414c3b4e3b3b3b3b3b4c3b303b6c4c3b4b4f4f48204854495720542052455454454c204c4c414d53204e4954414c3b44413130,
0x3b383832303b3b3b4b4f4f482058454c464f5254455220542052455454454c204c415449504143204e4954414c3b4e3b3b3b3b3b4c3b303b754c3b4b4f4f482058454c464f52544552204854495720542052455454454c204c415449504143204e4954414c3b45413130,
0x3b304231303b3b3b4e524f4820552052455454454c204c415449504143204e4954414c3b4e3b3b3b3b4231333020353530303b4c3b303b754c3b4e524f48204854495720552052455454454c204c415449504143204e4954414c3b46413130,
0x464131303b3b464131303b3b4e524f4820552052455454454c204c4c414d53204e4954414c3b4e3b3b3b3b4231333020353730303b4c3b303b6c4c3b4e524f48204854495720552052455454454c204c4c414d53204e4954414c3b30423130,
0x3b413832303b3b3b3b4e3b3b3b3b3b4c3b303b754c3b4e4f4c495350552052455454454c204c415449504143204e4954414c3b31423130,
0x3b423832303b3b3b56205450495243532052455454454c204c415449504143204e4954414c3b4e3b3b3b3b3b4c3b303b754c3b4b4f4f48204854495720562052455454454c204c415449504143204e4954414c3b32423130,
0x3b344231303b3b3b4b4f4f4820592052455454454c204c415449504143204e4954414c3b4e3b3b3b3b3b4c3b303b754c3b4b4f4f48204854495720592052455454454c204c415449504143204e4954414c3b33423130,
0x334231303b3b334231303b3b4b4f4f4820592052455454454c204c4c414d53204e4954414c3b4e3b3b3b3b3b4c3b303b6c4c3b4b4f4f48204854495720592052455454454c204c4c414d53204e4954414c3b34423130,
0x3b364231303b3b3b524142205a2052455454454c204c415449504143204e4954414c3b4e3b3b3b3b3b4c3b303b754c3b454b4f5254532048544957205a2052455454454c204c415449504143204e4954414c3b35423130,
0x354231303b3b354231303b3b524142205a2052455454454c204c4c414d53204e4954414c3b4e3b3b3b3b3b4c3b303b6c4c3b454b4f5254532048544957205a2052455454454c204c4c414d53204e4954414c3b36423130,
0x3b323932303b3b3b48474f592052455454454c204c415449504143204e4954414c3b4e3b3b3b3b3b4c3b303b754c3b485a452052455454454c204c415449504143204e4954414c3b37423130,
0x3b394231303b3b3b48474f592044455352455645522052455454454c204c415449504143204e4954414c3b4e3b3b3b3b3b4c3b303b754c3b444553524556455220485a452052455454454c204c415449504143204e4954414c3b38423130,
0x384231303b3b384231303b3b48474f592044455352455645522052455454454c204c4c414d53204e4954414c3b4e3b3b3b3b3b4c3b303b6c4c3b444553524556455220485a452052455454454c204c4c414d53204e4954414c3b39423130,
0x3b3b3b3b4c49415420485449572048474f592052455454454c204c4c414d53204e4954414c3b4e3b3b3b3b3b4c3b303b6c4c3b4c494154204854495720485a452052455454454c204c4c414d53204e4954414c3b41423130,
0x3b3b3b3b524142204f57542052455454454c204e4954414c3b4e3b3b3b3b3b4c3b303b6f4c3b454b4f5254532048544957204f57542052455454454c204e4954414c3b42423130,
0x3b444231303b3b3b3b4e3b3b3b3b3b4c3b303b754c3b4556494620454e4f542052455454454c204c415449504143204e4954414c3b43423130,
0x434231303b3b434231303b3b3b4e3b3b3b3b3b4c3b303b6c4c3b4556494620454e4f542052455454454c204c4c414d53204e4954414c3b44423130,
0x3b3b3b3b52414220504f5453204c4154544f4c47204445545245564e492052455454454c204e4954414c3b4e3b3b3b3b3b4c3b303b6c4c3b454b4f525453204854495720504f5453204c4154544f4c47204445545245564e492052455454454c204e4954414c3b45423130,
0x374631303b3b374631303b3b3b4e3b3b3b3b3b4c3b303b6c4c3b4e4e59572052455454454c204e4954414c3b46423130,
0x3b3b3b3b455049502052455454454c204e4954414c3b4e3b3b3b3b3b4c3b303b6f4c3b4b43494c43204c41544e45442052455454454c204e4954414c3b30433130,
0x3b3b3b3b4550495020454c42554f442052455454454c204e4954414c3b4e3b3b3b3b3b4c3b303b6f4c3b4b43494c43204c41524554414c2052455454454c204e4954414c3b31433130,
0x3b3b3b3b52414220454c42554f4420455049502052455454454c204e4954414c3b4e3b3b3b3b3b4c3b303b6f4c3b4b43494c432052414c4f45564c412052455454454c204e4954414c3b32433130,
0x3b3b3b3b4b52414d204e4f4954414d414c4358452052455454454c204e4954414c3b4e3b3b3b3b3b4c3b303b6f4c3b4b43494c432058454c464f525445522052455454454c204e4954414c3b33433130,
0x354331303b364331303b3b3b4b45434148205a20442052455454454c204c415449504143204e4954414c3b4e3b3b3b3b443731302034343030203e7461706d6f633c3b4c3b303b754c3b4e4f5241432048544957205a442052455454454c204c415449504143204e4954414c3b34433130,
0x354331303b364331303b344331303b3b4b45434148205a204c4c414d532044204c4154495041432052455454454c204e4954414c3b4e3b3b3b3b453731302034343030203e7461706d6f633c3b4c3b303b744c3b4e4f5241432048544957205a2052455454454c204c4c414d53204854495720442052455454454c204c415449504143204e4954414c3b35433130,
0x354331303b3b344331303b3b4b45434148205a20442052455454454c204c4c414d53204e4954414c3b4e3b3b3b3b453731302034363030203e7461706d6f633c3b4c3b303b6c4c3b4e4f5241432048544957205a442052455454454c204c4c414d53204e4954414c3b36433130,
0x384331303b394331303b3b3b4a204c2052455454454c204c415449504143204e4954414c3b4e3b3b3b3b413430302043343030203e7461706d6f633c3b4c3b303b754c3b4a4c2052455454454c204c415449504143204e4954414c3b37433130,
0x384331303b394331303b374331303b3b4a204c4c414d53204c204c4154495041432052455454454c204e4954414c3b4e3b3b3b3b413630302043343030203e7461706d6f633c3b4c3b303b744c3b4a2052455454454c204c4c414d532048544957204c2052455454454c204c415449504143204e4954414c3b38433130,
0x384331303b3b374331303b3b4a204c2052455454454c204c4c414d53204e4954414c3b4e3b3b3b3b413630302043363030203e7461706d6f633c3b4c3b303b6c4c3b4a4c2052455454454c204c4c414d53204e4954414c3b39433130,
0x424331303b434331303b3b3b4a204e2052455454454c204c415449504143204e4954414c3b4e3b3b3b3b413430302045343030203e7461706d6f633c3b4c3b303b754c3b4a4e2052455454454c204c415449504143204e4954414c3b41433130,
0x424331303b434331303b414331303b3b4a204c4c414d53204e204c4154495041432052455454454c204e4954414c3b4e3b3b3b3b413630302045343030203e7461706d6f633c3b4c3b303b744c3b4a2052455454454c204c4c414d532048544957204e2052455454454c204c415449504143204e4954414c3b42433130,
0x424331303b3b414331303b3b4a204e2052455454454c204c4c414d53204e4954414c3b4e3b3b3b3b413630302045363030203e7461706d6f633c3b4c3b303b6c4c3b4a4e2052455454454c204c4c414d53204e4954414c3b43433130,
0x3b454331303b3b3b4b4543414820412052455454454c204c415449504143204e4954414c3b4e3b3b3b3b4330333020313430303b4c3b303b754c3b4e4f524143204854495720412052455454454c204c415449504143204e4954414c3b44433130,
0x444331303b3b444331303b3b4b4543414820412052455454454c204c4c414d53204e4954414c3b4e3b3b3b3b4330333020313630303b4c3b303b6c4c3b4e4f524143204854495720412052455454454c204c4c414d53204e4954414c3b45433130,
0x3b304431303b3b3b4b4543414820492052455454454c204c415449504143204e4954414c3b4e3b3b3b3b4330333020393430303b4c3b303b754c3b4e4f524143204854495720492052455454454c204c415449504143204e4954414c3b46433130,
0x464331303b3b464331303b3b4b4543414820492052455454454c204c4c414d53204e4954414c3b4e3b3b3b3b4330333020393630303b4c3b303b6c4c3b4e4f524143204854495720492052455454454c204c4c414d53204e4954414c3b30443130,
0x3b324431303b3b3b4b45434148204f2052455454454c204c415449504143204e4954414c3b4e3b3b3b3b4330333020463430303b4c3b303b754c3b4e4f5241432048544957204f2052455454454c204c415449504143204e4954414c3b31443130,
0x314431303b3b314431303b3b4b45434148204f2052455454454c204c4c414d53204e4954414c3b4e3b3b3b3b4330333020463630303b4c3b303b6c4c3b4e4f5241432048544957204f2052455454454c204c4c414d53204e4954414c3b32443130,
0x3b344431303b3b3b4b4543414820552052455454454c204c415449504143204e4954414c3b4e3b3b3b3b4330333020353530303b4c3b303b754c3b4e4f524143204854495720552052455454454c204c415449504143204e4954414c3b33443130,
0x334431303b3b334431303b3b4b4543414820552052455454454c204c4c414d53204e4954414c3b4e3b3b3b3b4330333020353730303b4c3b303b6c4c3b4e4f524143204854495720552052455454454c204c4c414d53204e4954414c3b34443130,
0x3b364431303b3b3b4e4f5243414d2053495345524541494420552052455454454c204c415449504143204e4954414c3b4e3b3b3b3b3430333020434430303b4c3b303b754c3b4e4f5243414d20444e4120534953455245414944204854495720552052455454454c204c415449504143204e4954414c3b35443130,
0x354431303b3b354431303b3b4e4f5243414d2053495345524541494420552052455454454c204c4c414d53204e4954414c3b4e3b3b3b3b3430333020434630303b4c3b303b6c4c3b4e4f5243414d20444e4120534953455245414944204854495720552052455454454c204c4c414d53204e4954414c3b36443130,
0x3b384431303b3b3b45545543412053495345524541494420552052455454454c204c415449504143204e4954414c3b4e3b3b3b3b3130333020434430303b4c3b303b754c3b455455434120444e4120534953455245414944204854495720552052455454454c204c415449504143204e4954414c3b37443130,
0x374431303b3b374431303b3b45545543412053495345524541494420552052455454454c204c4c414d53204e4954414c3b4e3b3b3b3b3130333020434630303b4c3b303b6c4c3b455455434120444e4120534953455245414944204854495720552052455454454c204c4c414d53204e4954414c3b38443130,
0x3b414431303b3b3b4b454341482053495345524541494420552052455454454c204c415449504143204e4954414c3b4e3b3b3b3b4330333020434430303b4c3b303b754c3b4e4f52414320444e4120534953455245414944204854495720552052455454454c204c415449504143204e4954414c3b39443130,
0x394431303b3b394431303b3b4b454341482053495345524541494420552052455454454c204c4c414d53204e4954414c3b4e3b3b3b3b4330333020434630303b4c3b303b6c4c3b4e4f52414320444e4120534953455245414944204854495720552052455454454c204c4c414d53204e4954414c3b41443130,
0x3b434431303b3b3b45564152472053495345524541494420552052455454454c204c415449504143204e4954414c3b4e3b3b3b3b3030333020434430303b4c3b303b754c3b455641524720444e4120534953455245414944204854495720552052455454454c204c415449504143204e4954414c3b42443130,
0x424431303b3b424431303b3b45564152472053495345524541494420552052455454454c204c4c414d53204e4954414c3b4e3b3b3b3b3030333020434630303b4c3b303b6c4c3b455641524720444e4120534953455245414944204854495720552052455454454c204c4c414d53204e4954414c3b43443130,
0x453831303b3b453831303b3b3b4e3b3b3b3b3b4c3b303b6c4c3b452044454e5255542052455454454c204c4c414d53204e4954414c3b44443130,
0x3b464431303b3b3b4e4f5243414d2053495345524541494420412052455454454c204c415449504143204e4954414c3b4e3b3b3b3b3430333020344330303b4c3b303b754c3b4e4f5243414d20444e4120534953455245414944204854495720412052455454454c204c415449504143204e4954414c3b45443130,
0x454431303b3b454431303b3b4e4f5243414d2053495345524541494420412052455454454c204c4c414d53204e4954414c3b4e3b3b3b3b3430333020344530303b4c3b303b6c4c3b4e4f5243414d20444e4120534953455245414944204854495720412052455454454c204c4c414d53204e4954414c3b46443130,
0x3b314531303b3b3b4e4f5243414d20544f4420412052455454454c204c415449504143204e4954414c3b4e3b3b3b3b3430333020363232303b4c3b303b754c3b4e4f5243414d20444e412045564f424120544f44204854495720412052455454454c204c415449504143204e4954414c3b30453130,
0x304531303b3b304531303b3b4e4f5243414d20544f4420412052455454454c204c4c414d53204e4954414c3b4e3b3b3b3b3430333020373232303b4c3b303b6c4c3b4e4f5243414d20444e412045564f424120544f44204854495720412052455454454c204c4c414d53204e4954414c3b31453130,
0x3b334531303b3b3b4e4f5243414d204520412052455454454c204c415449504143204e4954414c3b4e3b3b3b3b3430333020364330303b4c3b303b754c3b4e4f5243414d20485449572045412052455454454c204c415449504143204e4954414c3b32453130,
0x324531303b3b324531303b3b4e4f5243414d204520412052455454454c204c4c414d53204e4954414c3b4e3b3b3b3b3430333020364530303b4c3b303b6c4c3b4e4f5243414d20485449572045412052455454454c204c4c414d53204e4954414c3b33453130,
0x3b354531303b3b3b52414220472052455454454c204c415449504143204e4954414c3b4e3b3b3b3b3b4c3b303b754c3b454b4f525453204854495720472052455454454c204c415449504143204e4954414c3b34453130,
0x344531303b3b344531303b3b52414220472052455454454c204c4c414d53204e4954414c3b4e3b3b3b3b3b4c3b303b6c4c3b454b4f525453204854495720472052455454454c204c4c414d53204e4954414c3b35453130,
0x3b374531303b3b3b4b4543414820472052455454454c204c415449504143204e4954414c3b4e3b3b3b3b4330333020373430303b4c3b303b754c3b4e4f524143204854495720472052455454454c204c415449504143204e4954414c3b36453130,
0x364531303b3b364531303b3b4b4543414820472052455454454c204c4c414d53204e4954414c3b4e3b3b3b3b4330333020373630303b4c3b303b6c4c3b4e4f524143204854495720472052455454454c204c4c414d53204e4954414c3b37453130,
0x3b394531303b3b3b4b45434148204b2052455454454c204c415449504143204e4954414c3b4e3b3b3b3b4330333020423430303b4c3b303b754c3b4e4f5241432048544957204b2052455454454c204c415449504143204e4954414c3b38453130,
0x384531303b3b384531303b3b4b45434148204b2052455454454c204c4c414d53204e4954414c3b4e3b3b3b3b4330333020423630303b4c3b303b6c4c3b4e4f5241432048544957204b2052455454454c204c4c414d53204e4954414c3b39453130,
0x3b424531303b3b3b4b454e4f474f204f2052455454454c204c415449504143204e4954414c3b4e3b3b3b3b3832333020463430303b4c3b303b754c3b4b454e4f474f2048544957204f2052455454454c204c415449504143204e4954414c3b41453130,
0x414531303b3b414531303b3b4b454e4f474f204f2052455454454c204c4c414d53204e4954414c3b4e3b3b3b3b3832333020463630303b4c3b303b6c4c3b4b454e4f474f2048544957204f2052455454454c204c4c414d53204e4954414c3b42453130,
0x3b444531303b3b3b4e4f5243414d204b454e4f474f204f2052455454454c204c415449504143204e4954414c3b4e3b3b3b3b3430333020414531303b4c3b303b754c3b4e4f5243414d20444e41204b454e4f474f2048544957204f2052455454454c204c415449504143204e4954414c3b43453130,
0x434531303b3b434531303b3b4e4f5243414d204b454e4f474f204f2052455454454c204c4c414d53204e4954414c3b4e3b3b3b3b3430333020424531303b4c3b303b6c4c3b4e4f5243414d20444e41204b454e4f474f2048544957204f2052455454454c204c4c414d53204e4954414c3b44453130,
0x3b464531303b3b3b4b454341482048474f592052455454454c204c415449504143204e4954414c3b4e3b3b3b3b4330333020374231303b4c3b303b754c3b4e4f524143204854495720485a452052455454454c204c415449504143204e4954414c3b45453130,
0x454531303b3b454531303b3b4b454341482048474f592052455454454c204c4c414d53204e4954414c3b4e3b3b3b3b4330333020323932303b4c3b303b6c4c3b4e4f524143204854495720485a452052455454454c204c4c414d53204e4954414c3b46453130,
0x3b3b3b3b4b45434148204a2052455454454c204c4c414d53204e4954414c3b4e3b3b3b3b4330333020413630303b4c3b303b6c4c3b4e4f5241432048544957204a2052455454454c204c4c414d53204e4954414c3b30463130,
0x324631303b334631303b3b3b3b4e3b3b3b3b413530302034343030203e7461706d6f633c3b4c3b303b754c3b5a442052455454454c204c415449504143204e4954414c3b31463130,
0x324631303b334631303b314631303b3b3b4e3b3b3b3b413730302034343030203e7461706d6f633c3b4c3b303b744c3b5a2052455454454c204c4c414d53204854495720442052455454454c204c415449504143204e4954414c3b32463130,
0x324631303b3b314631303b3b3b4e3b3b3b3b413730302034363030203e7461706d6f633c3b4c3b303b6c4c3b5a442052455454454c204c4c414d53204e4954414c3b33463130,
0x3b354631303b3b3b3b4e3b3b3b3b3130333020373430303b4c3b303b754c3b4554554341204854495720472052455454454c204c415449504143204e4954414c3b34463130,
0x344631303b3b344631303b3b3b4e3b3b3b3b3130333020373630303b4c3b303b6c4c3b4554554341204854495720472052455454454c204c4c414d53204e4954414c3b35463130,
0x3b353931303b3b3b3b4e3b3b3b3b3b4c3b303b754c3b52494157482052455454454c204c415449504143204e4954414c3b36463130,
0x3b464231303b3b3b3b4e3b3b3b3b3b4c3b303b754c3b4e4e59572052455454454c204c415449504143204e4954414c3b37463130,
0x3b394631303b3b3b3b4e3b3b3b3b3030333020453430303b4c3b303b754c3b45564152472048544957204e2052455454454c204c415449504143204e4954414c3b38463130,
0x384631303b3b384631303b3b3b4e3b3b3b3b3030333020453630303b4c3b303b6c4c3b45564152472048544957204e2052455454454c204c4c414d53204e4954414c3b39463130,
0x3b424631303b3b3b3b4e3b3b3b3b3130333020354330303b4c3b303b754c3b455455434120444e412045564f424120474e4952204854495720412052455454454c204c415449504143204e4954414c3b41463130,
0x414631303b3b414631303b3b3b4e3b3b3b3b3130333020354530303b4c3b303b6c4c3b455455434120444e412045564f424120474e4952204854495720412052455454454c204c4c414d53204e4954414c3b42463130,
0x3b444631303b3b3b3b4e3b3b3b3b3130333020364330303b4c3b303b754c3b455455434120485449572045412052455454454c204c415449504143204e4954414c3b43463130,
0x434631303b3b434631303b3b3b4e3b3b3b3b3130333020364530303b4c3b303b6c4c3b455455434120485449572045412052455454454c204c4c414d53204e4954414c3b44463130,
0x3b464631303b3b3b3b4e3b3b3b3b3130333020384430303b4c3b303b754c3b455455434120444e4120454b4f5254532048544957204f2052455454454c204c415449504143204e4954414c3b45463130,
0x454631303b3b454631303b3b3b4e3b3b3b3b3130333020384630303b4c3b303b6c4c3b455455434120444e4120454b4f5254532048544957204f2052455454454c204c4c414d53204e4954414c3b46463130]

/-- src/u5e/props/UnicodeData.txt lines 513-768. -/
def rawUcd2 : List Nat := [
0x3b313032303b3b3b3b4e3b3b3b3b4630333020313430303b4c3b303b754c3b455641524720454c42554f44204854495720412052455454454c204c415449504143204e4954414c3b30303230,
0x303032303b3b303032303b3b3b4e3b3b3b3b4630333020313630303b4c3b303b6c4c3b455641524720454c42554f44204854495720412052455454454c204c4c414d53204e4954414c3b31303230,
0x3b333032303b3b3b3b4e3b3b3b3b3131333020313430303b4c3b303b754c3b4556455242204445545245564e49204854495720412052455454454c204c415449504143204e4954414c3b32303230,
0x323032303b3b323032303b3b3b4e3b3b3b3b3131333020313630303b4c3b303b6c4c3b4556455242204445545245564e49204854495720412052455454454c204c4c414d53204e4954414c3b33303230,
0x3b353032303b3b3b3b4e3b3b3b3b4630333020353430303b4c3b303b754c3b455641524720454c42554f44204854495720452052455454454c204c415449504143204e4954414c3b34303230,
0x343032303b3b343032303b3b3b4e3b3b3b3b4630333020353630303b4c3b303b6c4c3b455641524720454c42554f44204854495720452052455454454c204c4c414d53204e4954414c3b35303230,
0x3b373032303b3b3b3b4e3b3b3b3b3131333020353430303b4c3b303b754c3b4556455242204445545245564e49204854495720452052455454454c204c415449504143204e4954414c3b36303230,
0x363032303b3b363032303b3b3b4e3b3b3b3b3131333020353630303b4c3b303b6c4c3b4556455242204445545245564e49204854495720452052455454454c204c4c414d53204e4954414c3b37303230,
0x3b393032303b3b3b3b4e3b3b3b3b4630333020393430303b4c3b303b754c3b455641524720454c42554f44204854495720492052455454454c204c415449504143204e4954414c3b38303230,
0x383032303b3b383032303b3b3b4e3b3b3b3b4630333020393630303b4c3b303b6c4c3b455641524720454c42554f44204854495720492052455454454c204c4c414d53204e4954414c3b39303230,
0x3b423032303b3b3b3b4e3b3b3b3b3131333020393430303b4c3b303b754c3b4556455242204445545245564e49204854495720492052455454454c204c415449504143204e4954414c3b41303230,
0x413032303b3b413032303b3b3b4e3b3b3b3b3131333020393630303b4c3b303b6c4c3b4556455242204445545245564e49204854495720492052455454454c204c4c414d53204e4954414c3b42303230,
0x3b443032303b3b3b3b4e3b3b3b3b4630333020463430303b4c3b303b754c3b455641524720454c42554f442048544957204f2052455454454c204c415449504143204e4954414c3b43303230,
0x433032303b3b433032303b3b3b4e3b3b3b3b4630333020463630303b4c3b303b6c4c3b455641524720454c42554f442048544957204f2052455454454c204c4c414d53204e4954414c3b44303230,
0x3b463032303b3b3b3b4e3b3b3b3b3131333020463430303b4c3b303b754c3b4556455242204445545245564e492048544957204f2052455454454c204c415449504143204e4954414c3b45303230,
0x453032303b3b453032303b3b3b4e3b3b3b3b3131333020463630303b4c3b303b6c4c3b4556455242204445545245564e492048544957204f2052455454454c204c4c414d53204e4954414c3b46303230,
0x3b313132303b3b3b3b4e3b3b3b3b4630333020323530303b4c3b303b754c3b455641524720454c42554f44204854495720522052455454454c204c415449504143204e4954414c3b30313230,
0x303132303b3b303132303b3b3b4e3b3b3b3b4630333020323730303b4c3b303b6c4c3b455641524720454c42554f44204854495720522052455454454c204c4c414d53204e4954414c3b31313230,
0x3b333132303b3b3b3b4e3b3b3b3b3131333020323530303b4c3b303b754c3b4556455242204445545245564e49204854495720522052455454454c204c415449504143204e4954414c3b32313230,
0x323132303b3b323132303b3b3b4e3b3b3b3b3131333020323730303b4c3b303b6c4c3b4556455242204445545245564e49204854495720522052455454454c204c4c414d53204e4954414c3b33313230,
0x3b353132303b3b3b3b4e3b3b3b3b4630333020353530303b4c3b303b754c3b455641524720454c42554f44204854495720552052455454454c204c415449504143204e4954414c3b34313230,
0x343132303b3b343132303b3b3b4e3b3b3b3b4630333020353730303b4c3b303b6c4c3b455641524720454c42554f44204854495720552052455454454c204c4c414d53204e4954414c3b35313230,
0x3b373132303b3b3b3b4e3b3b3b3b3131333020353530303b4c3b303b754c3b4556455242204445545245564e49204854495720552052455454454c204c415449504143204e4954414c3b36313230,
0x363132303b3b363132303b3b3b4e3b3b3b3b3131333020353730303b4c3b303b6c4c3b4556455242204445545245564e49204854495720552052455454454c204c4c414d53204e4954414c3b37313230,
0x3b393132303b3b3b3b4e3b3b3b3b3632333020333530303b4c3b303b754c3b574f4c454220414d4d4f43204854495720532052455454454c204c415449504143204e4954414c3b38313230,
0x383132303b3b383132303b3b3b4e3b3b3b3b3632333020333730303b4c3b303b6c4c3b574f4c454220414d4d4f43204854495720532052455454454c204c4c414d53204e4954414c3b39313230,
0x3b423132303b3b3b3b4e3b3b3b3b3632333020343530303b4c3b303b754c3b574f4c454220414d4d4f43204854495720542052455454454c204c415449504143204e4954414c3b41313230,
0x413132303b3b413132303b3b3b4e3b3b3b3b3632333020343730303b4c3b303b6c4c3b574f4c454220414d4d4f43204854495720542052455454454c204c4c414d53204e4954414c3b42313230,
0x3b443132303b3b3b3b4e3b3b3b3b3b4c3b303b754c3b48474f592052455454454c204c415449504143204e4954414c3b43313230,
0x433132303b3b433132303b3b3b4e3b3b3b3b3b4c3b303b6c4c3b48474f592052455454454c204c4c414d53204e4954414c3b44313230,
0x3b463132303b3b3b3b4e3b3b3b3b4330333020383430303b4c3b303b754c3b4e4f524143204854495720482052455454454c204c415449504143204e4954414c3b45313230,
0x453132303b3b453132303b3b3b4e3b3b3b3b4330333020383630303b4c3b303b6c4c3b4e4f524143204854495720482052455454454c204c4c414d53204e4954414c3b46313230,
0x3b453931303b3b3b3b4e3b3b3b3b3b4c3b303b754c3b47454c20544847495220474e4f4c2048544957204e2052455454454c204c415449504143204e4954414c3b30323230,
0x3b3b3b3b3b4e3b3b3b3b3b4c3b303b6c4c3b4c525543204854495720442052455454454c204c4c414d53204e4954414c3b31323230,
0x3b333232303b3b3b3b4e3b3b3b3b3b4c3b303b754c3b554f2052455454454c204c415449504143204e4954414c3b32323230,
0x323232303b3b323232303b3b3b4e3b3b3b3b3b4c3b303b6c4c3b554f2052455454454c204c4c414d53204e4954414c3b33323230,
0x3b353232303b3b3b3b4e3b3b3b3b3b4c3b303b754c3b4b4f4f482048544957205a2052455454454c204c415449504143204e4954414c3b34323230,
0x343232303b3b343232303b3b3b4e3b3b3b3b3b4c3b303b6c4c3b4b4f4f482048544957205a2052455454454c204c4c414d53204e4954414c3b35323230,
0x3b373232303b3b3b3b4e3b3b3b3b3730333020313430303b4c3b303b754c3b45564f424120544f44204854495720412052455454454c204c415449504143204e4954414c3b36323230,
0x363232303b3b363232303b3b3b4e3b3b3b3b3730333020313630303b4c3b303b6c4c3b45564f424120544f44204854495720412052455454454c204c4c414d53204e4954414c3b37323230,
0x3b393232303b3b3b3b4e3b3b3b3b3732333020353430303b4c3b303b754c3b414c4c49444543204854495720452052455454454c204c415449504143204e4954414c3b38323230,
0x383232303b3b383232303b3b3b4e3b3b3b3b3732333020353630303b4c3b303b6c4c3b414c4c49444543204854495720452052455454454c204c4c414d53204e4954414c3b39323230,
0x3b423232303b3b3b3b4e3b3b3b3b3430333020364430303b4c3b303b754c3b4e4f5243414d20444e41205349534552454149442048544957204f2052455454454c204c415449504143204e4954414c3b41323230,
0x413232303b3b413232303b3b3b4e3b3b3b3b3430333020364630303b4c3b303b6c4c3b4e4f5243414d20444e41205349534552454149442048544957204f2052455454454c204c4c414d53204e4954414c3b42323230,
0x3b443232303b3b3b3b4e3b3b3b3b3430333020354430303b4c3b303b754c3b4e4f5243414d20444e412045444c49542048544957204f2052455454454c204c415449504143204e4954414c3b43323230,
0x433232303b3b433232303b3b3b4e3b3b3b3b3430333020354630303b4c3b303b6c4c3b4e4f5243414d20444e412045444c49542048544957204f2052455454454c204c4c414d53204e4954414c3b44323230,
0x3b463232303b3b3b3b4e3b3b3b3b3730333020463430303b4c3b303b754c3b45564f424120544f442048544957204f2052455454454c204c415449504143204e4954414c3b45323230,
0x453232303b3b453232303b3b3b4e3b3b3b3b3730333020463630303b4c3b303b6c4c3b45564f424120544f442048544957204f2052455454454c204c4c414d53204e4954414c3b46323230,
0x3b313332303b3b3b3b4e3b3b3b3b3430333020453232303b4c3b303b754c3b4e4f5243414d20444e412045564f424120544f442048544957204f2052455454454c204c415449504143204e4954414c3b30333230,
0x303332303b3b303332303b3b3b4e3b3b3b3b3430333020463232303b4c3b303b6c4c3b4e4f5243414d20444e412045564f424120544f442048544957204f2052455454454c204c4c414d53204e4954414c3b31333230,
0x3b333332303b3b3b3b4e3b3b3b3b3430333020393530303b4c3b303b754c3b4e4f5243414d204854495720592052455454454c204c415449504143204e4954414c3b32333230,
0x323332303b3b323332303b3b3b4e3b3b3b3b3430333020393730303b4c3b303b6c4c3b4e4f5243414d204854495720592052455454454c204c4c414d53204e4954414c3b33333230,
0x3b3b3b3b3b4e3b3b3b3b3b4c3b303b6c4c3b4c5255432048544957204c2052455454454c204c4c414d53204e4954414c3b34333230,
0x3b3b3b3b3b4e3b3b3b3b3b4c3b303b6c4c3b4c5255432048544957204e2052455454454c204c4c414d53204e4954414c3b35333230,
0x3b3b3b3b3b4e3b3b3b3b3b4c3b303b6c4c3b4c525543204854495720542052455454454c204c4c414d53204e4954414c3b36333230,
0x3b3b3b3b3b4e3b3b3b3b3b4c3b303b6c4c3b4a205353454c544f442052455454454c204c4c414d53204e4954414c3b37333230,
0x3b3b3b3b3b4e3b3b3b3b3b4c3b303b6c4c3b485041524749442042442052455454454c204c4c414d53204e4954414c3b38333230,
0x3b3b3b3b3b4e3b3b3b3b3b4c3b303b6c4c3b485041524749442050512052455454454c204c4c414d53204e4954414c3b39333230,
0x3b353643323b3b3b3b4e3b3b3b3b3b4c3b303b754c3b454b4f525453204854495720412052455454454c204c415449504143204e4954414c3b41333230,
0x3b433332303b3b3b3b4e3b3b3b3b3b4c3b303b754c3b454b4f525453204854495720432052455454454c204c415449504143204e4954414c3b42333230,
0x423332303b3b423332303b3b3b4e3b3b3b3b3b4c3b303b6c4c3b454b4f525453204854495720432052455454454c204c4c414d53204e4954414c3b43333230,
0x3b413931303b3b3b3b4e3b3b3b3b3b4c3b303b754c3b5241422048544957204c2052455454454c204c415449504143204e4954414c3b44333230,
0x3b363643323b3b3b3b4e3b3b3b3b3b4c3b303b754c3b454b4f525453204c414e4f47414944204854495720542052455454454c204c415449504143204e4954414c3b45333230,
0x453743323b3b453743323b3b3b4e3b3b3b3b3b4c3b303b6c4c3b4c494154204853415753204854495720532052455454454c204c4c414d53204e4954414c3b46333230,
0x463743323b3b463743323b3b3b4e3b3b3b3b3b4c3b303b6c4c3b4c4941542048534157532048544957205a2052455454454c204c4c414d53204e4954414c3b30343230,
0x3b323432303b3b3b3b4e3b3b3b3b3b4c3b303b754c3b504f5453204c4154544f4c472052455454454c204c415449504143204e4954414c3b31343230,
0x313432303b3b313432303b3b3b4e3b3b3b3b3b4c3b303b6c4c3b504f5453204c4154544f4c472052455454454c204c4c414d53204e4954414c3b32343230,
0x3b303831303b3b3b3b4e3b3b3b3b3b4c3b303b754c3b454b4f525453204854495720422052455454454c204c415449504143204e4954414c3b33343230,
0x3b393832303b3b3b3b4e3b3b3b3b3b4c3b303b754c3b52414220552052455454454c204c415449504143204e4954414c3b34343230,
0x3b433832303b3b3b3b4e3b3b3b3b3b4c3b303b754c3b562044454e5255542052455454454c204c415449504143204e4954414c3b35343230,
0x3b373432303b3b3b3b4e3b3b3b3b3b4c3b303b754c3b454b4f525453204854495720452052455454454c204c415449504143204e4954414c3b36343230,
0x363432303b3b363432303b3b3b4e3b3b3b3b3b4c3b303b6c4c3b454b4f525453204854495720452052455454454c204c4c414d53204e4954414c3b37343230,
0x3b393432303b3b3b3b4e3b3b3b3b3b4c3b303b754c3b454b4f5254532048544957204a2052455454454c204c415449504143204e4954414c3b38343230,
0x383432303b3b383432303b3b3b4e3b3b3b3b3b4c3b303b6c4c3b454b4f5254532048544957204a2052455454454c204c4c414d53204e4954414c3b39343230,
0x3b423432303b3b3b3b4e3b3b3b3b3b4c3b303b754c3b4c494154204b4f4f4820485449572051204c4c414d532052455454454c204c415449504143204e4954414c3b41343230,
0x413432303b3b413432303b3b3b4e3b3b3b3b3b4c3b303b6c4c3b4c494154204b4f4f48204854495720512052455454454c204c4c414d53204e4954414c3b42343230,
0x3b443432303b3b3b3b4e3b3b3b3b3b4c3b303b754c3b454b4f525453204854495720522052455454454c204c415449504143204e4954414c3b43343230,
0x433432303b3b433432303b3b3b4e3b3b3b3b3b4c3b303b6c4c3b454b4f525453204854495720522052455454454c204c4c414d53204e4954414c3b44343230,
0x3b463432303b3b3b3b4e3b3b3b3b3b4c3b303b754c3b454b4f525453204854495720592052455454454c204c415449504143204e4954414c3b45343230,
0x453432303b3b453432303b3b3b4e3b3b3b3b3b4c3b303b6c4c3b454b4f525453204854495720592052455454454c204c4c414d53204e4954414c3b46343230,
0x463643323b3b463643323b3b3b4e3b3b3b3b3b4c3b303b6c4c3b412044454e5255542052455454454c204c4c414d53204e4954414c3b30353230,
0x443643323b3b443643323b3b41205450495243532052455454454c204c4c414d53204e4954414c3b4e3b3b3b3b3b4c3b303b6c4c3b4148504c412052455454454c204c4c414d53204e4954414c3b31353230,
0x303743323b3b303743323b3b41205450495243532044454e5255542052455454454c204c4c414d53204e4954414c3b4e3b3b3b3b3b4c3b303b6c4c3b4148504c412044454e5255542052455454454c204c4c414d53204e4954414c3b32353230,
0x313831303b3b313831303b3b4b4f4f4820422052455454454c204c4c414d53204e4954414c3b4e3b3b3b3b3b4c3b303b6c4c3b4b4f4f48204854495720422052455454454c204c4c414d53204e4954414c3b33353230,
0x363831303b3b363831303b3b3b4e3b3b3b3b3b4c3b303b6c4c3b4f204e45504f2052455454454c204c4c414d53204e4954414c3b34353230,
0x3b3b3b3b4c52554320432052455454454c204c4c414d53204e4954414c3b4e3b3b3b3b3b4c3b303b6c4c3b4c525543204854495720432052455454454c204c4c414d53204e4954414c3b35353230,
0x393831303b3b393831303b3b4b4f4f482058454c464f5254455220442052455454454c204c4c414d53204e4954414c3b4e3b3b3b3b3b4c3b303b6c4c3b4c494154204854495720442052455454454c204c4c414d53204e4954414c3b36353230,
0x413831303b3b413831303b3b4b4f4f4820442052455454454c204c4c414d53204e4954414c3b4e3b3b3b3b3b4c3b303b6c4c3b4b4f4f48204854495720442052455454454c204c4c414d53204e4954414c3b37353230,
0x3b3b3b3b3b4e3b3b3b3b3b4c3b303b6c4c3b452044455352455645522052455454454c204c4c414d53204e4954414c3b38353230,
0x463831303b3b463831303b3b3b4e3b3b3b3b3b4c3b303b6c4c3b41574843532052455454454c204c4c414d53204e4954414c3b39353230,
0x3b3b3b3b4b4f4f482041574843532052455454454c204c4c414d53204e4954414c3b4e3b3b3b3b3b4c3b303b6c4c3b4b4f4f4820485449572041574843532052455454454c204c4c414d53204e4954414c3b41353230,
0x303931303b3b303931303b3b4e4f4c495350452052455454454c204c4c414d53204e4954414c3b4e3b3b3b3b3b4c3b303b6c4c3b45204e45504f2052455454454c204c4c414d53204e4954414c3b42353230,
0x424137413b3b424137413b3b4e4f4c495350452044455352455645522052455454454c204c4c414d53204e4954414c3b4e3b3b3b3b3b4c3b303b6c4c3b45204e45504f2044455352455645522052455454454c204c4c414d53204e4954414c3b43353230,
0x3b3b3b3b4b4f4f48204e4f4c495350452044455352455645522052455454454c204c4c414d53204e4954414c3b4e3b3b3b3b3b4c3b303b6c4c3b4b4f4f4820485449572045204e45504f2044455352455645522052455454454c204c4c414d53204e4954414c3b44353230,
0x3b3b3b3b4e4f4c49535045204445535245564552204445534f4c432052455454454c204c4c414d53204e4954414c3b4e3b3b3b3b3b4c3b303b6c4c3b45204e45504f204445535245564552204445534f4c432052455454454c204c4c414d53204e4954414c3b45353230,
0x3b3b3b3b524142204a205353454c544f442052455454454c204c4c414d53204e4954414c3b4e3b3b3b3b3b4c3b303b6c4c3b454b4f5254532048544957204a205353454c544f442052455454454c204c4c414d53204e4954414c3b46353230,
0x333931303b3b333931303b3b4b4f4f4820472052455454454c204c4c414d53204e4954414c3b4e3b3b3b3b3b4c3b303b6c4c3b4b4f4f48204854495720472052455454454c204c4c414d53204e4954414c3b30363230,
0x434137413b3b434137413b3b3b4e3b3b3b3b3b4c3b303b6c4c3b47205450495243532052455454454c204c4c414d53204e4954414c3b31363230,
0x3b3b3b3b3b4e3b3b3b3b3b4c3b303b6c4c3b47204c415449504143204c4c414d532052455454454c204e4954414c3b32363230,
0x343931303b3b343931303b3b3b4e3b3b3b3b3b4c3b303b6c4c3b414d4d41472052455454454c204c4c414d53204e4954414c3b33363230,
0x3b3b3b3b414d4d414720594241422052455454454c204c4c414d53204e4954414c3b4e3b3b3b3b3b4c3b303b6c4c3b4e524f4820534d41522052455454454c204c4c414d53204e4954414c3b34363230,
0x443837413b3b443837413b3b3b4e3b3b3b3b3b4c3b303b6c4c3b482044454e5255542052455454454c204c4c414d53204e4954414c3b35363230,
0x414137413b3b414137413b3b4b4f4f4820482052455454454c204c4c414d53204e4954414c3b4e3b3b3b3b3b4c3b303b6c4c3b4b4f4f48204854495720482052455454454c204c4c414d53204e4954414c3b36363230,
0x3b3b3b3b4b4f4f4820474e45482052455454454c204c4c414d53204e4954414c3b4e3b3b3b3b3b4c3b303b6c4c3b4b4f4f48204854495720474e45482052455454454c204c4c414d53204e4954414c3b37363230,
0x373931303b3b373931303b3b49204445525241422052455454454c204c4c414d53204e4954414c3b4e3b3b3b3b3b4c3b303b6c4c3b454b4f525453204854495720492052455454454c204c4c414d53204e4954414c3b38363230,
0x363931303b3b363931303b3b3b4e3b3b3b3b3b4c3b303b6c4c3b41544f492052455454454c204c4c414d53204e4954414c3b39363230,
0x454137413b3b454137413b3b3b4e3b3b3b3b3b4c3b303b6c4c3b49204c415449504143204c4c414d532052455454454c204e4954414c3b41363230,
0x323643323b3b323643323b3b3b4e3b3b3b3b3b4c3b303b6c4c3b45444c495420454c4444494d2048544957204c2052455454454c204c4c414d53204e4954414c3b42363230,
0x444137413b3b444137413b3b544c4542204c2052455454454c204c4c414d53204e4954414c3b4e3b3b3b3b3b4c3b303b6c4c3b544c45422048544957204c2052455454454c204c4c414d53204e4954414c3b43363230,
0x3b3b3b3b4b4f4f482058454c464f52544552204c2052455454454c204c4c414d53204e4954414c3b4e3b3b3b3b3b4c3b303b6c4c3b4b4f4f482058454c464f525445522048544957204c2052455454454c204c4c414d53204e4954414c3b44363230,
0x3b3b3b3b48474f59204c2052455454454c204c4c414d53204e4954414c3b4e3b3b3b3b3b4c3b303b6c4c3b485a454c2052455454454c204c4c414d53204e4954414c3b45363230,
0x433931303b3b433931303b3b3b4e3b3b3b3b3b4c3b303b6c4c3b4d2044454e5255542052455454454c204c4c414d53204e4954414c3b46363230,
0x3b3b3b3b3b4e3b3b3b3b3b4c3b303b6c4c3b47454c20474e4f4c2048544957204d2044454e5255542052455454454c204c4c414d53204e4954414c3b30373230,
0x453643323b3b453643323b3b4b4f4f48204d2052455454454c204c4c414d53204e4954414c3b4e3b3b3b3b3b4c3b303b6c4c3b4b4f4f482048544957204d2052455454454c204c4c414d53204e4954414c3b31373230,
0x443931303b3b443931303b3b4b4f4f48204e2052455454454c204c4c414d53204e4954414c3b4e3b3b3b3b3b4c3b303b6c4c3b4b4f4f48205446454c2048544957204e2052455454454c204c4c414d53204e4954414c3b32373230,
0x3b3b3b3b4b4f4f482058454c464f52544552204e2052455454454c204c4c414d53204e4954414c3b4e3b3b3b3b3b4c3b303b6c4c3b4b4f4f482058454c464f525445522048544957204e2052455454454c204c4c414d53204e4954414c3b33373230,
0x3b3b3b3b3b4e3b3b3b3b3b4c3b303b6c4c3b4e204c415449504143204c4c414d532052455454454c204e4954414c3b34373230,
0x463931303b3b463931303b3b3b4e3b3b3b3b3b4c3b303b6c4c3b4f204445525241422052455454454c204c4c414d53204e4954414c3b35373230,
0x3b3b3b3b45204f204c415449504143204c4c414d532052455454454c204e4954414c3b4e3b3b3b3b3b4c3b303b6c4c3b454f204c415449504143204c4c414d532052455454454c204e4954414c3b36373230,
0x3b3b3b3b3b4e3b3b3b3b3b4c3b303b6c4c3b4147454d4f204445534f4c432052455454454c204c4c414d53204e4954414c3b37373230,
0x3b3b3b3b3b4e3b3b3b3b3b4c3b303b6c4c3b4948502052455454454c204c4c414d53204e4954414c3b38373230,
0x3b3b3b3b3b4e3b3b3b3b3b4c3b303b6c4c3b522044454e5255542052455454454c204c4c414d53204e4954414c3b39373230,
0x3b3b3b3b3b4e3b3b3b3b3b4c3b303b6c4c3b47454c20474e4f4c204854495720522044454e5255542052455454454c204c4c414d53204e4954414c3b41373230,
0x3b3b3b3b4b4f4f4820522044454e5255542052455454454c204c4c414d53204e4954414c3b4e3b3b3b3b3b4c3b303b6c4c3b4b4f4f48204854495720522044454e5255542052455454454c204c4c414d53204e4954414c3b42373230,
0x3b3b3b3b3b4e3b3b3b3b3b4c3b303b6c4c3b47454c20474e4f4c204854495720522052455454454c204c4c414d53204e4954414c3b43373230,
0x343643323b3b343643323b3b4b4f4f4820522052455454454c204c4c414d53204e4954414c3b4e3b3b3b3b3b4c3b303b6c4c3b4c494154204854495720522052455454454c204c4c414d53204e4954414c3b44373230,
0x3b3b3b3b52204b4f4f48485349462052455454454c204c4c414d53204e4954414c3b4e3b3b3b3b3b4c3b303b6c4c3b4b4f4f4848534946204854495720522052455454454c204c4c414d53204e4954414c3b45373230,
0x3b3b3b3b52204b4f4f48485349462044455352455645522052455454454c204c4c414d53204e4954414c3b4e3b3b3b3b3b4c3b303b6c4c3b4b4f4f4848534946204854495720522044455352455645522052455454454c204c4c414d53204e4954414c3b46373230,
0x364131303b3b364131303b3b3b4e3b3b3b3b3b4c3b303b6c4c3b52204c415449504143204c4c414d532052455454454c204e4954414c3b30383230,
0x3b3b3b3b3b4e3b3b3b3b3b4c3b303b6c4c3b52204445545245564e49204c415449504143204c4c414d532052455454454c204e4954414c3b31383230,
0x3b3b3b3b4b4f4f4820532052455454454c204c4c414d53204e4954414c3b4e3b3b3b3b3b4c3b303b6c4c3b4b4f4f48204854495720532052455454454c204c4c414d53204e4954414c3b32383230,
0x394131303b3b394131303b3b3b4e3b3b3b3b3b4c3b303b6c4c3b4853452052455454454c204c4c414d53204e4954414c3b33383230,
0x3b3b3b3b4b4f4f4820524142204a205353454c544f442052455454454c204c4c414d53204e4954414c3b4e3b3b3b3b3b4c3b303b6c4c3b4b4f4f4820444e4120454b4f5254532048544957204a205353454c544f442052455454454c204c4c414d53204e4954414c3b34383230,
0x3b3b3b3b3b4e3b3b3b3b3b4c3b303b6c4c3b4853452044455352455645522054415551532052455454454c204c4c414d53204e4954414c3b35383230,
0x3b3b3b3b4c525543204853452052455454454c204c4c414d53204e4954414c3b4e3b3b3b3b3b4c3b303b6c4c3b4c5255432048544957204853452052455454454c204c4c414d53204e4954414c3b36383230,
0x314237413b3b314237413b3b3b4e3b3b3b3b3b4c3b303b6c4c3b542044454e5255542052455454454c204c4c414d53204e4954414c3b37383230,
0x454131303b3b454131303b3b4b4f4f482058454c464f5254455220542052455454454c204c4c414d53204e4954414c3b4e3b3b3b3b3b4c3b303b6c4c3b4b4f4f482058454c464f52544552204854495720542052455454454c204c4c414d53204e4954414c3b38383230,
0x343432303b3b343432303b3b3b4e3b3b3b3b3b4c3b303b6c4c3b52414220552052455454454c204c4c414d53204e4954414c3b39383230,
0x314231303b3b314231303b3b3b4e3b3b3b3b3b4c3b303b6c4c3b4e4f4c495350552052455454454c204c4c414d53204e4954414c3b41383230,
0x324231303b3b324231303b3b56205450495243532052455454454c204c4c414d53204e4954414c3b4e3b3b3b3b3b4c3b303b6c4c3b4b4f4f48204854495720562052455454454c204c4c414d53204e4954414c3b42383230,
0x353432303b3b353432303b3b3b4e3b3b3b3b3b4c3b303b6c4c3b562044454e5255542052455454454c204c4c414d53204e4954414c3b43383230,
0x3b3b3b3b3b4e3b3b3b3b3b4c3b303b6c4c3b572044454e5255542052455454454c204c4c414d53204e4954414c3b44383230,
0x3b3b3b3b3b4e3b3b3b3b3b4c3b303b6c4c3b592044454e5255542052455454454c204c4c414d53204e4954414c3b45383230,
0x3b3b3b3b3b4e3b3b3b3b3b4c3b303b6c4c3b59204c415449504143204c4c414d532052455454454c204e4954414c3b46383230,
0x3b3b3b3b4b4f4f482058454c464f52544552205a2052455454454c204c4c414d53204e4954414c3b4e3b3b3b3b3b4c3b303b6c4c3b4b4f4f482058454c464f525445522048544957205a2052455454454c204c4c414d53204e4954414c3b30393230,
0x3b3b3b3b4c525543205a2052455454454c204c4c414d53204e4954414c3b4e3b3b3b3b3b4c3b303b6c4c3b4c5255432048544957205a2052455454454c204c4c414d53204e4954414c3b31393230,
0x374231303b3b374231303b3b48474f592052455454454c204c4c414d53204e4954414c3b4e3b3b3b3b3b4c3b303b6c4c3b485a452052455454454c204c4c414d53204e4954414c3b32393230,
0x3b3b3b3b4c5255432048474f592052455454454c204c4c414d53204e4954414c3b4e3b3b3b3b3b4c3b303b6c4c3b4c525543204854495720485a452052455454454c204c4c414d53204e4954414c3b33393230,
0x3b3b3b3b3b4e3b3b3b3b3b4c3b303b6f4c3b504f5453204c4154544f4c472052455454454c204e4954414c3b34393230,
0x3b3b3b3b504f5453204c4154544f4c472044455352455645522052455454454c204e4954414c3b4e3b3b3b3b3b4c3b303b6c4c3b45564954414349524620444543494f56204c4145474e59524148502052455454454c204e4954414c3b35393230,
0x3b3b3b3b3b4e3b3b3b3b3b4c3b303b6c4c3b504f5453204c4154544f4c47204445545245564e492052455454454c204e4954414c3b36393230,
0x3b3b3b3b3b4e3b3b3b3b3b4c3b303b6c4c3b43204445484354455254532052455454454c204e4954414c3b37393230,
0x3b3b3b3b455945534c4c55422052455454454c204e4954414c3b4e3b3b3b3b3b4c3b303b6c4c3b4b43494c43204c414942414c49422052455454454c204e4954414c3b38393230,
0x3b3b3b3b3b4e3b3b3b3b3b4c3b303b6c4c3b42204c415449504143204c4c414d532052455454454c204e4954414c3b39393230,
0x3b3b3b3b4e4f4c49535045204445534f4c432052455454454c204c4c414d53204e4954414c3b4e3b3b3b3b3b4c3b303b6c4c3b45204e45504f204445534f4c432052455454454c204c4c414d53204e4954414c3b41393230,
0x3b3b3b3b4b4f4f482047204c415449504143204c4c414d532052455454454c204e4954414c3b4e3b3b3b3b3b4c3b303b6c4c3b4b4f4f4820485449572047204c415449504143204c4c414d532052455454454c204e4954414c3b42393230,
0x3b3b3b3b3b4e3b3b3b3b3b4c3b303b6c4c3b48204c415449504143204c4c414d532052455454454c204e4954414c3b43393230,
0x324237413b3b324237413b3b4a204c4941542d444553534f52432052455454454c204c4c414d53204e4954414c3b4e3b3b3b3b3b4c3b303b6c4c3b4c4941542d444553534f52432048544957204a2052455454454c204c4c414d53204e4954414c3b44393230,
0x304237413b3b304237413b3b3b4e3b3b3b3b3b4c3b303b6c4c3b4b2044454e5255542052455454454c204c4c414d53204e4954414c3b45393230,
0x3b3b3b3b3b4e3b3b3b3b3b4c3b303b6c4c3b4c204c415449504143204c4c414d532052455454454c204e4954414c3b46393230,
0x3b3b3b3b4b4f4f4820512052455454454c204c4c414d53204e4954414c3b4e3b3b3b3b3b4c3b303b6c4c3b4b4f4f48204854495720512052455454454c204c4c414d53204e4954414c3b30413230,
0x3b3b3b3b52414220504f5453204c4154544f4c472052455454454c204e4954414c3b4e3b3b3b3b3b4c3b303b6c4c3b454b4f525453204854495720504f5453204c4154544f4c472052455454454c204e4954414c3b31413230,
0x3b3b3b3b52414220504f5453204c4154544f4c472044455352455645522052455454454c204e4954414c3b4e3b3b3b3b3b4c3b303b6c4c3b454b4f525453204854495720504f5453204c4154544f4c472044455352455645522052455454454c204e4954414c3b32413230,
0x3b3b3b3b5a20442052455454454c204c4c414d53204e4954414c3b4e3b3b3b3b3b4c3b303b6c4c3b48504152474944205a442052455454454c204c4c414d53204e4954414c3b33413230,
0x3b3b3b3b48474f5920442052455454454c204c4c414d53204e4954414c3b4e3b3b3b3b3b4c3b303b6c4c3b4850415247494420485a45442052455454454c204c4c414d53204e4954414c3b34413230,
0x3b3b3b3b4c525543205a20442052455454454c204c4c414d53204e4954414c3b4e3b3b3b3b3b4c3b303b6c4c3b4c52554320485449572048504152474944205a442052455454454c204c4c414d53204e4954414c3b35413230,
0x3b3b3b3b5320542052455454454c204c4c414d53204e4954414c3b4e3b3b3b3b3b4c3b303b6c4c3b485041524749442053542052455454454c204c4c414d53204e4954414c3b36413230,
0x3b3b3b3b48534520542052455454454c204c4c414d53204e4954414c3b4e3b3b3b3b3b4c3b303b6c4c3b4850415247494420485345542052455454454c204c4c414d53204e4954414c3b37413230,
0x3b3b3b3b4c525543204320542052455454454c204c4c414d53204e4954414c3b4e3b3b3b3b3b4c3b303b6c4c3b4c525543204854495720485041524749442043542052455454454c204c4c414d53204e4954414c3b38413230,
0x3b3b3b3b3b4e3b3b3b3b3b4c3b303b6c4c3b4850415247494420474e45462052455454454c204c4c414d53204e4954414c3b39413230,
0x3b3b3b3b3b4e3b3b3b3b3b4c3b303b6c4c3b4850415247494420534c2052455454454c204c4c414d53204e4954414c3b41413230,
0x3b3b3b3b3b4e3b3b3b3b3b4c3b303b6c4c3b48504152474944205a4c2052455454454c204c4c414d53204e4954414c3b42413230,
0x3b3b3b3b3b4e3b3b3b3b3b4c3b303b6c4c3b45564953535543524550204c414942414c49422052455454454c204e4954414c3b43413230,
0x3b3b3b3b3b4e3b3b3b3b3b4c3b303b6c4c3b45564953535543524550204c41544e454449422052455454454c204e4954414c3b44413230,
0x3b3b3b3b3b4e3b3b3b3b3b4c3b303b6c4c3b4b4f4f4848534946204854495720482044454e5255542052455454454c204c4c414d53204e4954414c3b45413230,
0x3b3b3b3b3b4e3b3b3b3b3b4c3b303b6c4c3b4c49415420444e41204b4f4f4848534946204854495720482044454e5255542052455454454c204c4c414d53204e4954414c3b46413230,
0x3b3b3b3b3b4e3b3b3b3b38363030203e72657075733c3b4c3b303b6d4c3b48204c4c414d532052455454454c205245494649444f4d3b30423230,
0x3b3b3b3b4b4f4f482048204c4c414d532052455454454c205245494649444f4d3b4e3b3b3b3b36363230203e72657075733c3b4c3b303b6d4c3b4b4f4f4820485449572048204c4c414d532052455454454c205245494649444f4d3b31423230,
0x3b3b3b3b3b4e3b3b3b3b41363030203e72657075733c3b4c3b303b6d4c3b4a204c4c414d532052455454454c205245494649444f4d3b32423230,
0x3b3b3b3b3b4e3b3b3b3b32373030203e72657075733c3b4c3b303b6d4c3b52204c4c414d532052455454454c205245494649444f4d3b33423230,
0x3b3b3b3b3b4e3b3b3b3b39373230203e72657075733c3b4c3b303b6d4c3b522044454e525554204c4c414d532052455454454c205245494649444f4d3b34423230,
0x3b3b3b3b4b4f4f4820522044454e525554204c4c414d532052455454454c205245494649444f4d3b4e3b3b3b3b42373230203e72657075733c3b4c3b303b6d4c3b4b4f4f48204854495720522044454e525554204c4c414d532052455454454c205245494649444f4d3b35423230,
0x3b3b3b3b3b4e3b3b3b3b31383230203e72657075733c3b4c3b303b6d4c3b52204445545245564e49204c415449504143204c4c414d532052455454454c205245494649444f4d3b36423230,
0x3b3b3b3b3b4e3b3b3b3b37373030203e72657075733c3b4c3b303b6d4c3b57204c4c414d532052455454454c205245494649444f4d3b37423230,
0x3b3b3b3b3b4e3b3b3b3b39373030203e72657075733c3b4c3b303b6d4c3b59204c4c414d532052455454454c205245494649444f4d3b38423230,
0x3b3b3b3b3b4e3b3b3b3b3b4e4f3b303b6d4c3b454d4952502052455454454c205245494649444f4d3b39423230,
0x3b3b3b3b3b4e3b3b3b3b3b4e4f3b303b6d4c3b454d49525020454c42554f442052455454454c205245494649444f4d3b41423230,
0x3b3b3b3b3b4e3b3b3b3b3b4c3b303b6d4c3b414d4d4f432044454e5255542052455454454c205245494649444f4d3b42423230,
0x3b3b3b3b3b4e3b3b3b3b3b4c3b303b6d4c3b4548504f5254534f50412052455454454c205245494649444f4d3b43423230,
0x3b3b3b3b3b4e3b3b3b3b3b4c3b303b6d4c3b414d4d4f432044455352455645522052455454454c205245494649444f4d3b44423230,
0x3b3b3b3b3b4e3b3b3b3b3b4c3b303b6d4c3b474e495220464c41482054484749522052455454454c205245494649444f4d3b45423230,
0x3b3b3b3b3b4e3b3b3b3b3b4c3b303b6d4c3b474e495220464c4148205446454c2052455454454c205245494649444f4d3b46423230,
0x3b3b3b3b3b4e3b3b3b3b3b4c3b303b6d4c3b504f5453204c4154544f4c472052455454454c205245494649444f4d3b30433230,
0x3b3b3b3b3b4e3b3b3b3b3b4c3b303b6d4c3b504f5453204c4154544f4c472044455352455645522052455454454c205245494649444f4d3b31433230,
0x3b3b3b3b3b4e3b3b3b3b3b4e4f3b303b6b533b44414548574f525241205446454c2052455454454c205245494649444f4d3b32433230,
0x3b3b3b3b3b4e3b3b3b3b3b4e4f3b303b6b533b44414548574f5252412054484749522052455454454c205245494649444f4d3b33433230,
0x3b3b3b3b3b4e3b3b3b3b3b4e4f3b303b6b533b44414548574f5252412050552052455454454c205245494649444f4d3b34433230,
0x3b3b3b3b3b4e3b3b3b3b3b4e4f3b303b6b533b44414548574f525241204e574f442052455454454c205245494649444f4d3b35433230,
0x3b3b3b3b58454c464d55435249432052455454454c205245494649444f4d3b4e3b3b3b3b3b4e4f3b303b6d4c3b544e454343412058454c464d55435249432052455454454c205245494649444f4d3b36433230,
0x3b3b3b3b4b454341482052455454454c205245494649444f4d3b4e3b3b3b3b3b4e4f3b303b6d4c3b4e4f5241433b37433230,
0x3b3b3b3b3b4e3b3b3b3b3b4e4f3b303b6d4c3b454e494c204c414349545245562052455454454c205245494649444f4d3b38433230,
0x3b3b3b3b3b4e3b3b3b3b3b4e4f3b303b6d4c3b4e4f5243414d2052455454454c205245494649444f4d3b39433230,
0x3b3b3b3b45545543412052455454454c205245494649444f4d3b4e3b3b3b3b3b4e4f3b303b6d4c3b544e454343412045545543412052455454454c205245494649444f4d3b41433230,
0x3b3b3b3b45564152472052455454454c205245494649444f4d3b4e3b3b3b3b3b4e4f3b303b6d4c3b544e454343412045564152472052455454454c205245494649444f4d3b42433230,
0x3b3b3b3b3b4e3b3b3b3b3b4e4f3b303b6d4c3b454e494c204c4143495452455620574f4c2052455454454c205245494649444f4d3b43433230,
0x3b3b3b3b3b4e3b3b3b3b3b4e4f3b303b6d4c3b4e4f5243414d20574f4c2052455454454c205245494649444f4d3b44433230,
0x3b3b3b3b455641524720574f4c2052455454454c205245494649444f4d3b4e3b3b3b3b3b4e4f3b303b6d4c3b544e4543434120455641524720574f4c2052455454454c205245494649444f4d3b45433230,
0x3b3b3b3b455455434120574f4c2052455454454c205245494649444f4d3b4e3b3b3b3b3b4e4f3b303b6d4c3b544e4543434120455455434120574f4c2052455454454c205245494649444f4d3b46433230,
0x3b3b3b3b3b4e3b3b3b3b3b4c3b303b6d4c3b4e4f4c4f432052414c55474e414952542052455454454c205245494649444f4d3b30443230,
0x3b3b3b3b3b4e3b3b3b3b3b4c3b303b6d4c3b4e4f4c4f432052414c55474e4149525420464c41482052455454454c205245494649444f4d3b31443230,
0x3b3b3b3b474e495220464c41482054484749522044455245544e45432052455454454c205245494649444f4d3b4e3b3b3b3b3b4e4f3b303b6b533b474e495220464c414820544847495220444552544e45432052455454454c205245494649444f4d3b32443230,
0x3b3b3b3b474e495220464c4148205446454c2044455245544e45432052455454454c205245494649444f4d3b4e3b3b3b3b3b4e4f3b303b6b533b474e495220464c4148205446454c20444552544e45432052455454454c205245494649444f4d3b33443230,
0x3b3b3b3b3b4e3b3b3b3b3b4e4f3b303b6b533b4b4341542050552052455454454c205245494649444f4d3b34443230,
0x3b3b3b3b3b4e3b3b3b3b3b4e4f3b303b6b533b4b434154204e574f442052455454454c205245494649444f4d3b35443230,
0x3b3b3b3b3b4e3b3b3b3b3b4e4f3b303b6b533b4e4749532053554c502052455454454c205245494649444f4d3b36443230,
0x3b3b3b3b3b4e3b3b3b3b3b4e4f3b303b6b533b4e4749532053554e494d2052455454454c205245494649444f4d3b37443230,
0x3b3b3b3b455645524220474e49434150533b4e3b3b3b3b363033302030323030203e7461706d6f633c3b4e4f3b303b6b533b45564552423b38443230,
0x3b3b3b3b45564f424120544f4420474e49434150533b4e3b3b3b3b373033302030323030203e7461706d6f633c3b4e4f3b303b6b533b45564f424120544f443b39443230,
0x3b3b3b3b45564f424120474e495220474e49434150533b4e3b3b3b3b413033302030323030203e7461706d6f633c3b4e4f3b303b6b533b45564f424120474e49523b41443230,
0x3b3b3b3b4b454e4f474f20474e49434150533b4e3b3b3b3b383233302030323030203e7461706d6f633c3b4e4f3b303b6b533b4b454e4f474f3b42443230,
0x3b3b3b3b45444c495420474e49434150533b4e3b3b3b3b333033302030323030203e7461706d6f633c3b4e4f3b303b6b533b45444c4954204c4c414d533b43443230,
0x3b3b3b3b455455434120454c42554f4420474e49434150533b4e3b3b3b3b423033302030323030203e7461706d6f633c3b4e4f3b303b6b533b544e4543434120455455434120454c42554f443b44443230,
0x3b3b3b3b3b4e3b3b3b3b3b4e4f3b303b6b533b4b4f4f48204349544f48522052455454454c205245494649444f4d3b45443230,
0x3b3b3b3b3b4e3b3b3b3b3b4e4f3b303b6b533b544e454343412053534f52432052455454454c205245494649444f4d3b46443230,
0x3b3b3b3b3b4e3b3b3b3b33363230203e72657075733c3b4c3b303b6d4c3b414d4d4147204c4c414d532052455454454c205245494649444f4d3b30453230,
0x3b3b3b3b3b4e3b3b3b3b43363030203e72657075733c3b4c3b303b6d4c3b4c204c4c414d532052455454454c205245494649444f4d3b31453230,
0x3b3b3b3b3b4e3b3b3b3b33373030203e72657075733c3b4c3b303b6d4c3b53204c4c414d532052455454454c205245494649444f4d3b32453230,
0x3b3b3b3b3b4e3b3b3b3b38373030203e72657075733c3b4c3b303b6d4c3b58204c4c414d532052455454454c205245494649444f4d3b33453230,
0x3b3b3b3b3b4e3b3b3b3b35393230203e72657075733c3b4c3b303b6d4c3b504f5453204c4154544f4c47204445535245564552204c4c414d532052455454454c205245494649444f4d3b34453230,
0x3b3b3b3b3b4e3b3b3b3b3b4e4f3b303b6b533b52414220454e4f5420484749482d41525458452052455454454c205245494649444f4d3b35453230,
0x3b3b3b3b3b4e3b3b3b3b3b4e4f3b303b6b533b52414220454e4f5420484749482052455454454c205245494649444f4d3b36453230,
0x3b3b3b3b3b4e3b3b3b3b3b4e4f3b303b6b533b52414220454e4f542044494d2052455454454c205245494649444f4d3b37453230,
0x3b3b3b3b3b4e3b3b3b3b3b4e4f3b303b6b533b52414220454e4f5420574f4c2052455454454c205245494649444f4d3b38453230,
0x3b3b3b3b3b4e3b3b3b3b3b4e4f3b303b6b533b52414220454e4f5420574f4c2d41525458452052455454454c205245494649444f4d3b39453230,
0x3b3b3b3b3b4e3b3b3b3b3b4e4f3b303b6b533b4b52414d20454e4f5420474e49545241504544204e49592052455454454c205245494649444f4d3b41453230,
0x3b3b3b3b3b4e3b3b3b3b3b4e4f3b303b6b533b4b52414d20454e4f5420474e4954524150454420474e41592052455454454c205245494649444f4d3b42453230,
0x3b3b3b3b3b4e3b3b3b3b3b4e4f3b303b6d4c3b474e4943494f562052455454454c205245494649444f4d3b43453230,
0x3b3b3b3b3b4e3b3b3b3b3b4e4f3b303b6b533b4445544152495053414e552052455454454c205245494649444f4d3b44453230,
0x3b3b3b3b3b4e3b3b3b3b3b4c3b303b6d4c3b4548504f5254534f504120454c42554f442052455454454c205245494649444f4d3b45453230,
0x3b3b3b3b3b4e3b3b3b3b3b4e4f3b303b6b533b44414548574f525241204e574f4420574f4c2052455454454c205245494649444f4d3b46453230,
0x3b3b3b3b3b4e3b3b3b3b3b4e4f3b303b6b533b44414548574f52524120505520574f4c2052455454454c205245494649444f4d3b30463230,
0x3b3b3b3b3b4e3b3b3b3b3b4e4f3b303b6b533b44414548574f525241205446454c20574f4c2052455454454c205245494649444f4d3b31463230,
0x3b3b3b3b3b4e3b3b3b3b3b4e4f3b303b6b533b44414548574f52524120544847495220574f4c2052455454454c205245494649444f4d3b32463230,
0x3b3b3b3b3b4e3b3b3b3b3b4e4f3b303b6b533b474e495220574f4c2052455454454c205245494649444f4d3b33463230,
0x3b3b3b3b3b4e3b3b3b3b3b4e4f3b303b6b533b544e4543434120455641524720454c4444494d2052455454454c205245494649444f4d3b34463230,
0x3b3b3b3b3b4e3b3b3b3b3b4e4f3b303b6b533b544e4543434120455641524720454c42554f4420454c4444494d2052455454454c205245494649444f4d3b35463230,
0x3b3b3b3b3b4e3b3b3b3b3b4e4f3b303b6b533b544e4543434120455455434120454c42554f4420454c4444494d2052455454454c205245494649444f4d3b36463230,
0x3b3b3b3b3b4e3b3b3b3b3b4e4f3b303b6b533b45444c495420574f4c2052455454454c205245494649444f4d3b37463230,
0x3b3b3b3b3b4e3b3b3b3b3b4e4f3b303b6b533b4e4f4c4f43204445534941522052455454454c205245494649444f4d3b38463230,
0x3b3b3b3b3b4e3b3b3b3b3b4e4f3b303b6b533b454e4f542048474948204e494745422052455454454c205245494649444f4d3b39463230,
0x3b3b3b3b3b4e3b3b3b3b3b4e4f3b303b6b533b454e4f54204847494820444e452052455454454c205245494649444f4d3b41463230,
0x3b3b3b3b3b4e3b3b3b3b3b4e4f3b303b6b533b454e4f5420574f4c204e494745422052455454454c205245494649444f4d3b42463230,
0x3b3b3b3b3b4e3b3b3b3b3b4e4f3b303b6b533b454e4f5420574f4c20444e452052455454454c205245494649444f4d3b43463230,
0x3b3b3b3b3b4e3b3b3b3b3b4e4f3b303b6b533b464c4548532052455454454c205245494649444f4d3b44463230,
0x3b3b3b3b3b4e3b3b3b3b3b4e4f3b303b6b533b464c454853204e45504f2052455454454c205245494649444f4d3b45463230,
0x3b3b3b3b3b4e3b3b3b3b3b4e4f3b303b6b533b574f525241205446454c20574f4c2052455454454c205245494649444f4d3b46463230]

/-- src/u5e/props/UnicodeData.txt lines 769-1024. -/
def rawUcd3 : List Nat := [
0x3b3b3b3b455641524720474e49434150532d4e4f4e3b4e3b3b3b3b3b4d534e3b3033323b6e4d3b544e4543434120455641524720474e494e49424d4f433b30303330,
0x3b3b3b3b455455434120474e49434150532d4e4f4e3b4e3b3b3b3b3b4d534e3b3033323b6e4d3b544e4543434120455455434120474e494e49424d4f433b31303330,
0x3b3b3b3b58454c464d554352494320474e49434150532d4e4f4e3b4e3b3b3b3b3b4d534e3b3033323b6e4d3b544e454343412058454c464d554352494320474e494e49424d4f433b32303330,
0x3b3b3b3b45444c495420474e49434150532d4e4f4e3b4e3b3b3b3b3b4d534e3b3033323b6e4d3b45444c495420474e494e49424d4f433b33303330,
0x3b3b3b3b4e4f5243414d20474e49434150532d4e4f4e3b4e3b3b3b3b3b4d534e3b3033323b6e4d3b4e4f5243414d20474e494e49424d4f433b34303330,
0x3b3b3b3b45524f43535245564f20474e49434150532d4e4f4e3b4e3b3b3b3b3b4d534e3b3033323b6e4d3b454e494c5245564f20474e494e49424d4f433b35303330,
0x3b3b3b3b455645524220474e49434150532d4e4f4e3b4e3b3b3b3b3b4d534e3b3033323b6e4d3b455645524220474e494e49424d4f433b36303330,
0x3b3b3b3b45564f424120544f4420474e49434150532d4e4f4e3b4e3b3b3b3b3b4d534e3b3033323b6e4d3b45564f424120544f4420474e494e49424d4f433b37303330,
0x3b3b3b3b53495345524541494420474e49434150532d4e4f4e3b4e3b3b3b3b3b4d534e3b3033323b6e4d3b53495345524541494420474e494e49424d4f433b38303330,
0x3b3b3b3b45564f4241204b4f4f4820474e49434150532d4e4f4e3b4e3b3b3b3b3b4d534e3b3033323b6e4d3b45564f4241204b4f4f4820474e494e49424d4f433b39303330,
0x3b3b3b3b45564f424120474e495220474e49434150532d4e4f4e3b4e3b3b3b3b3b4d534e3b3033323b6e4d3b45564f424120474e495220474e494e49424d4f433b41303330,
0x3b3b3b3b455455434120454c42554f4420474e49434150532d4e4f4e3b4e3b3b3b3b3b4d534e3b3033323b6e4d3b544e4543434120455455434120454c42554f4420474e494e49424d4f433b42303330,
0x3b3b3b3b4b4543414820474e49434150532d4e4f4e3b4e3b3b3b3b3b4d534e3b3033323b6e4d3b4e4f52414320474e494e49424d4f433b43303330,
0x3b3b3b3b45564f424120454e494c204c4143495452455620474e49434150532d4e4f4e3b4e3b3b3b3b3b4d534e3b3033323b6e4d3b45564f424120454e494c204c4143495452455620474e494e49424d4f433b44303330,
0x3b3b3b3b45564f424120454e494c204c4143495452455620454c42554f4420474e49434150532d4e4f4e3b4e3b3b3b3b3b4d534e3b3033323b6e4d3b45564f424120454e494c204c4143495452455620454c42554f4420474e494e49424d4f433b45303330,
0x3b3b3b3b455641524720454c42554f4420474e49434150532d4e4f4e3b4e3b3b3b3b3b4d534e3b3033323b6e4d3b544e4543434120455641524720454c42554f4420474e494e49424d4f433b46303330,
0x3b3b3b3b55444e49424152444e414320474e49434150532d4e4f4e3b4e3b3b3b3b3b4d534e3b3033323b6e4d3b55444e49424152444e414320474e494e49424d4f433b30313330,
0x3b3b3b3b4556455242204445545245564e4920474e49434150532d4e4f4e3b4e3b3b3b3b3b4d534e3b3033323b6e4d3b4556455242204445545245564e4920474e494e49424d4f433b31313330,
0x3b3b3b3b45564f424120414d4d4f432044454e52555420474e49434150532d4e4f4e3b4e3b3b3b3b3b4d534e3b3033323b6e4d3b45564f424120414d4d4f432044454e52555420474e494e49424d4f433b32313330,
0x3b3b3b3b45564f424120414d4d4f4320474e49434150532d4e4f4e3b4e3b3b3b3b3b4d534e3b3033323b6e4d3b45564f424120414d4d4f4320474e494e49424d4f433b33313330,
0x3b3b3b3b45564f424120414d4d4f4320444553524556455220474e49434150532d4e4f4e3b4e3b3b3b3b3b4d534e3b3033323b6e4d3b45564f424120414d4d4f4320444553524556455220474e494e49424d4f433b34313330,
0x3b3b3b3b54484749522045564f424120414d4d4f4320474e49434150532d4e4f4e3b4e3b3b3b3b3b4d534e3b3233323b6e4d3b54484749522045564f424120414d4d4f4320474e494e49424d4f433b35313330,
0x3b3b3b3b574f4c454220455641524720474e49434150532d4e4f4e3b4e3b3b3b3b3b4d534e3b3032323b6e4d3b574f4c454220544e4543434120455641524720474e494e49424d4f433b36313330,
0x3b3b3b3b574f4c454220455455434120474e49434150532d4e4f4e3b4e3b3b3b3b3b4d534e3b3032323b6e4d3b574f4c454220544e4543434120455455434120474e494e49424d4f433b37313330,
0x3b3b3b3b574f4c4542204b434154205446454c20474e49434150532d4e4f4e3b4e3b3b3b3b3b4d534e3b3032323b6e4d3b574f4c4542204b434154205446454c20474e494e49424d4f433b38313330,
0x3b3b3b3b574f4c4542204b43415420544847495220474e49434150532d4e4f4e3b4e3b3b3b3b3b4d534e3b3032323b6e4d3b574f4c4542204b43415420544847495220474e494e49424d4f433b39313330,
0x3b3b3b3b45564f424120454c474e41205446454c20474e49434150532d4e4f4e3b4e3b3b3b3b3b4d534e3b3233323b6e4d3b45564f424120454c474e41205446454c20474e494e49424d4f433b41313330,
0x3b3b3b3b4e524f4820474e49434150532d4e4f4e3b4e3b3b3b3b3b4d534e3b3631323b6e4d3b4e524f4820474e494e49424d4f433b42313330,
0x3b3b3b3b574f4c454220474e495220464c4148205446454c20474e49434150532d4e4f4e3b4e3b3b3b3b3b4d534e3b3032323b6e4d3b574f4c454220474e495220464c4148205446454c20474e494e49424d4f433b43313330,
0x3b3b3b3b574f4c4542204b43415420505520474e49434150532d4e4f4e3b4e3b3b3b3b3b4d534e3b3032323b6e4d3b574f4c4542204b43415420505520474e494e49424d4f433b44313330,
0x3b3b3b3b574f4c4542204b434154204e574f4420474e49434150532d4e4f4e3b4e3b3b3b3b3b4d534e3b3032323b6e4d3b574f4c4542204b434154204e574f4420474e494e49424d4f433b45313330,
0x3b3b3b3b574f4c4542204e4749532053554c5020474e49434150532d4e4f4e3b4e3b3b3b3b3b4d534e3b3032323b6e4d3b574f4c4542204e4749532053554c5020474e494e49424d4f433b46313330,
0x3b3b3b3b574f4c4542204e4749532053554e494d20474e49434150532d4e4f4e3b4e3b3b3b3b3b4d534e3b3032323b6e4d3b574f4c4542204e4749532053554e494d20474e494e49424d4f433b30323330,
0x3b3b3b3b574f4c4542204b4f4f482044455a494c4154414c415020474e49434150532d4e4f4e3b4e3b3b3b3b3b4d534e3b3230323b6e4d3b574f4c4542204b4f4f482044455a494c4154414c415020474e494e49424d4f433b31323330,
0x3b3b3b3b574f4c4542204b4f4f482058454c464f5254455220474e49434150532d4e4f4e3b4e3b3b3b3b3b4d534e3b3230323b6e4d3b574f4c4542204b4f4f482058454c464f5254455220474e494e49424d4f433b32323330,
0x3b3b3b3b574f4c454220544f4420474e49434150532d4e4f4e3b4e3b3b3b3b3b4d534e3b3032323b6e4d3b574f4c454220544f4420474e494e49424d4f433b33323330,
0x3b3b3b3b574f4c454220544f4420454c42554f4420474e49434150532d4e4f4e3b4e3b3b3b3b3b4d534e3b3032323b6e4d3b574f4c45422053495345524541494420474e494e49424d4f433b34323330,
0x3b3b3b3b574f4c454220474e495220474e49434150532d4e4f4e3b4e3b3b3b3b3b4d534e3b3032323b6e4d3b574f4c454220474e495220474e494e49424d4f433b35323330,
0x3b3b3b3b574f4c454220414d4d4f4320474e49434150532d4e4f4e3b4e3b3b3b3b3b4d534e3b3032323b6e4d3b574f4c454220414d4d4f4320474e494e49424d4f433b36323330,
0x3b3b3b3b414c4c4944454320474e49434150532d4e4f4e3b4e3b3b3b3b3b4d534e3b3230323b6e4d3b414c4c4944454320474e494e49424d4f433b37323330,
0x3b3b3b3b4b454e4f474f20474e49434150532d4e4f4e3b4e3b3b3b3b3b4d534e3b3230323b6e4d3b4b454e4f474f20474e494e49424d4f433b38323330,
0x3b3b3b3b574f4c454220454e494c204c4143495452455620474e49434150532d4e4f4e3b4e3b3b3b3b3b4d534e3b3032323b6e4d3b574f4c454220454e494c204c4143495452455620474e494e49424d4f433b39323330,
0x3b3b3b3b574f4c45422045474449524220474e49434150532d4e4f4e3b4e3b3b3b3b3b4d534e3b3032323b6e4d3b574f4c45422045474449524220474e494e49424d4f433b41323330,
0x3b3b3b3b574f4c4542204843524120454c42554f44204445545245564e4920474e49434150532d4e4f4e3b4e3b3b3b3b3b4d534e3b3032323b6e4d3b574f4c4542204843524120454c42554f44204445545245564e4920474e494e49424d4f433b42323330,
0x3b3b3b3b574f4c4542204b4543414820474e49434150532d4e4f4e3b4e3b3b3b3b3b4d534e3b3032323b6e4d3b574f4c4542204e4f52414320474e494e49424d4f433b43323330,
0x3b3b3b3b574f4c45422058454c464d554352494320474e49434150532d4e4f4e3b4e3b3b3b3b3b4d534e3b3032323b6e4d3b574f4c454220544e454343412058454c464d554352494320474e494e49424d4f433b44323330,
0x3b3b3b3b574f4c454220455645524220474e49434150532d4e4f4e3b4e3b3b3b3b3b4d534e3b3032323b6e4d3b574f4c454220455645524220474e494e49424d4f433b45323330,
0x3b3b3b3b574f4c4542204556455242204445545245564e4920474e49434150532d4e4f4e3b4e3b3b3b3b3b4d534e3b3032323b6e4d3b574f4c4542204556455242204445545245564e4920474e494e49424d4f433b46323330,
0x3b3b3b3b574f4c45422045444c495420474e49434150532d4e4f4e3b4e3b3b3b3b3b4d534e3b3032323b6e4d3b574f4c45422045444c495420474e494e49424d4f433b30333330,
0x3b3b3b3b574f4c4542204e4f5243414d20474e49434150532d4e4f4e3b4e3b3b3b3b3b4d534e3b3032323b6e4d3b574f4c4542204e4f5243414d20474e494e49424d4f433b31333330,
0x3b3b3b3b45524f43535245444e5520474e49434150532d4e4f4e3b4e3b3b3b3b3b4d534e3b3032323b6e4d3b454e494c20574f4c20474e494e49424d4f433b32333330,
0x3b3b3b3b45524f43535245444e5520454c42554f4420474e49434150532d4e4f4e3b4e3b3b3b3b3b4d534e3b3032323b6e4d3b454e494c20574f4c20454c42554f4420474e494e49424d4f433b33333330,
0x3b3b3b3b59414c5245564f2045444c495420474e49434150532d4e4f4e3b4e3b3b3b3b3b4d534e3b313b6e4d3b59414c5245564f2045444c495420474e494e49424d4f433b34333330,
0x3b3b3b3b59414c5245564f205241422054524f485320474e49434150532d4e4f4e3b4e3b3b3b3b3b4d534e3b313b6e4d3b59414c5245564f20454b4f5254532054524f485320474e494e49424d4f433b35333330,
0x3b3b3b3b59414c5245564f2052414220474e4f4c20474e49434150532d4e4f4e3b4e3b3b3b3b3b4d534e3b313b6e4d3b59414c5245564f20454b4f52545320474e4f4c20474e494e49424d4f433b36333330,
0x3b3b3b3b59414c5245564f204853414c532054524f485320474e49434150532d4e4f4e3b4e3b3b3b3b3b4d534e3b313b6e4d3b59414c5245564f20535544494c4f532054524f485320474e494e49424d4f433b37333330,
0x3b3b3b3b59414c5245564f204853414c5320474e4f4c20474e49434150532d4e4f4e3b4e3b3b3b3b3b4d534e3b313b6e4d3b59414c5245564f20535544494c4f5320474e4f4c20474e494e49424d4f433b38333330,
0x3b3b3b3b574f4c454220474e495220464c414820544847495220474e49434150532d4e4f4e3b4e3b3b3b3b3b4d534e3b3032323b6e4d3b574f4c454220474e495220464c414820544847495220474e494e49424d4f433b39333330,
0x3b3b3b3b574f4c454220454744495242204445545245564e4920474e49434150532d4e4f4e3b4e3b3b3b3b3b4d534e3b3032323b6e4d3b574f4c454220454744495242204445545245564e4920474e494e49424d4f433b41333330,
0x3b3b3b3b574f4c45422045524155515320474e49434150532d4e4f4e3b4e3b3b3b3b3b4d534e3b3032323b6e4d3b574f4c45422045524155515320474e494e49424d4f433b42333330,
0x3b3b3b3b574f4c4542204c4c554741455320474e49434150532d4e4f4e3b4e3b3b3b3b3b4d534e3b3032323b6e4d3b574f4c4542204c4c554741455320474e494e49424d4f433b43333330,
0x3b3b3b3b45564f4241205820474e49434150532d4e4f4e3b4e3b3b3b3b3b4d534e3b3033323b6e4d3b45564f4241205820474e494e49424d4f433b44333330,
0x3b3b3b3b45444c4954204c4143495452455620474e49434150532d4e4f4e3b4e3b3b3b3b3b4d534e3b3033323b6e4d3b45444c4954204c4143495452455620474e494e49424d4f433b45333330,
0x3b3b3b3b45524f43535245564f20454c42554f4420474e49434150532d4e4f4e3b4e3b3b3b3b3b4d534e3b3033323b6e4d3b454e494c5245564f20454c42554f4420474e494e49424d4f433b46333330,
0x3b3b3b3b4b52414d20454e4f5420455641524720474e49434150532d4e4f4e3b4e3b3b3b3b303033303b4d534e3b3033323b6e4d3b4b52414d20454e4f5420455641524720474e494e49424d4f433b30343330,
0x3b3b3b3b4b52414d20454e4f5420455455434120474e49434150532d4e4f4e3b4e3b3b3b3b313033303b4d534e3b3033323b6e4d3b4b52414d20454e4f5420455455434120474e494e49424d4f433b31343330,
0x3b3b3b3b3b4e3b3b3b3b3b4d534e3b3033323b6e4d3b494e454d4f505349524550204b4545524720474e494e49424d4f433b32343330,
0x3b3b3b3b3b4e3b3b3b3b333133303b4d534e3b3033323b6e4d3b53494e4f524f4b204b4545524720474e494e49424d4f433b33343330,
0x3b3b3b3b534f4e4f542053495345524541494420474e49434150532d4e4f4e204b454552473b4e3b3b3b3b3130333020383033303b4d534e3b3033323b6e4d3b534f4e4f5420414b4954594c414944204b4545524720474e494e49424d4f433b34343330,
0x393933303b3b393933303b3b574f4c45422041544f4920474e49434150532d4e4f4e204b454552473b4e3b3b3b3b3b4d534e3b3034323b6e4d3b494e454d4d41524745474f5059204b4545524720474e494e49424d4f433b35343330,
0x3b3b3b3b3b4e3b3b3b3b3b4d534e3b3033323b6e4d3b45564f42412045474449524220474e494e49424d4f433b36343330,
0x3b3b3b3b3b4e3b3b3b3b3b4d534e3b3032323b6e4d3b574f4c4542204e47495320534c4155514520474e494e49424d4f433b37343330,
0x3b3b3b3b3b4e3b3b3b3b3b4d534e3b3032323b6e4d3b574f4c454220454e494c204c4143495452455620454c42554f4420474e494e49424d4f433b38343330,
0x3b3b3b3b3b4e3b3b3b3b3b4d534e3b3032323b6e4d3b574f4c454220454c474e41205446454c20474e494e49424d4f433b39343330,
0x3b3b3b3b3b4e3b3b3b3b3b4d534e3b3033323b6e4d3b45564f42412045444c495420544f4e20474e494e49424d4f433b41343330,
0x3b3b3b3b3b4e3b3b3b3b3b4d534e3b3033323b6e4d3b45564f4241204349544548544f4d4f4820474e494e49424d4f433b42343330,
0x3b3b3b3b3b4e3b3b3b3b3b4d534e3b3033323b6e4d3b45564f4241204f54204c415551452054534f4d4c4120474e494e49424d4f433b43343330,
0x3b3b3b3b3b4e3b3b3b3b3b4d534e3b3032323b6e4d3b574f4c454220574f525241205448474952205446454c20474e494e49424d4f433b44343330,
0x3b3b3b3b3b4e3b3b3b3b3b4d534e3b3032323b6e4d3b574f4c454220574f525241205344524157505520474e494e49424d4f433b45343330,
0x3b3b3b3b3b4e3b3b3b3b3b4d534e3b303b6e4d3b52454e494f4a20454d45485041524720474e494e49424d4f433b46343330,
0x3b3b3b3b3b4e3b3b3b3b3b4d534e3b3033323b6e4d3b45564f42412044414548574f52524120544847495220474e494e49424d4f433b30353330,
0x3b3b3b3b3b4e3b3b3b3b3b4d534e3b3033323b6e4d3b45564f424120474e495220464c4148205446454c20474e494e49424d4f433b31353330,
0x3b3b3b3b3b4e3b3b3b3b3b4d534e3b3033323b6e4d3b4154414d52454620474e494e49424d4f433b32353330,
0x3b3b3b3b3b4e3b3b3b3b3b4d534e3b3032323b6e4d3b574f4c4542205820474e494e49424d4f433b33353330,
0x3b3b3b3b3b4e3b3b3b3b3b4d534e3b3032323b6e4d3b574f4c45422044414548574f525241205446454c20474e494e49424d4f433b34353330,
0x3b3b3b3b3b4e3b3b3b3b3b4d534e3b3032323b6e4d3b574f4c45422044414548574f52524120544847495220474e494e49424d4f433b35353330,
0x3b3b3b3b3b4e3b3b3b3b3b4d534e3b3032323b6e4d3b574f4c45422044414548574f52524120505520444e412044414548574f52524120544847495220474e494e49424d4f433b36353330,
0x3b3b3b3b3b4e3b3b3b3b3b4d534e3b3033323b6e4d3b45564f424120474e495220464c414820544847495220474e494e49424d4f433b37353330,
0x3b3b3b3b3b4e3b3b3b3b3b4d534e3b3233323b6e4d3b54484749522045564f424120544f4420474e494e49424d4f433b38353330,
0x3b3b3b3b3b4e3b3b3b3b3b4d534e3b3032323b6e4d3b574f4c4542204b5349524554534120474e494e49424d4f433b39353330,
0x3b3b3b3b3b4e3b3b3b3b3b4d534e3b3032323b6e4d3b574f4c454220474e495220454c42554f4420474e494e49424d4f433b41353330,
0x3b3b3b3b3b4e3b3b3b3b3b4d534e3b3033323b6e4d3b45564f42412047415a47495a20474e494e49424d4f433b42353330,
0x3b3b3b3b3b4e3b3b3b3b3b4d534e3b3333323b6e4d3b574f4c454220455645524220454c42554f4420474e494e49424d4f433b43353330,
0x3b3b3b3b3b4e3b3b3b3b3b4d534e3b3433323b6e4d3b455645524220454c42554f4420474e494e49424d4f433b44353330,
0x3b3b3b3b3b4e3b3b3b3b3b4d534e3b3433323b6e4d3b4e4f5243414d20454c42554f4420474e494e49424d4f433b45353330,
0x3b3b3b3b3b4e3b3b3b3b3b4d534e3b3333323b6e4d3b574f4c4542204e4f5243414d20454c42554f4420474e494e49424d4f433b46353330,
0x3b3b3b3b3b4e3b3b3b3b3b4d534e3b3433323b6e4d3b45444c495420454c42554f4420474e494e49424d4f433b30363330,
0x3b3b3b3b3b4e3b3b3b3b3b4d534e3b3433323b6e4d3b4556455242204445545245564e4920454c42554f4420474e494e49424d4f433b31363330,
0x3b3b3b3b3b4e3b3b3b3b3b4d534e3b3333323b6e4d3b574f4c454220574f525241205344524157544847495220454c42554f4420474e494e49424d4f433b32363330,
0x3b3b3b3b3b4e3b3b3b3b3b4d534e3b3033323b6e4d3b412052455454454c204c4c414d53204e4954414c20474e494e49424d4f433b33363330,
0x3b3b3b3b3b4e3b3b3b3b3b4d534e3b3033323b6e4d3b452052455454454c204c4c414d53204e4954414c20474e494e49424d4f433b34363330,
0x3b3b3b3b3b4e3b3b3b3b3b4d534e3b3033323b6e4d3b492052455454454c204c4c414d53204e4954414c20474e494e49424d4f433b35363330,
0x3b3b3b3b3b4e3b3b3b3b3b4d534e3b3033323b6e4d3b4f2052455454454c204c4c414d53204e4954414c20474e494e49424d4f433b36363330,
0x3b3b3b3b3b4e3b3b3b3b3b4d534e3b3033323b6e4d3b552052455454454c204c4c414d53204e4954414c20474e494e49424d4f433b37363330,
0x3b3b3b3b3b4e3b3b3b3b3b4d534e3b3033323b6e4d3b432052455454454c204c4c414d53204e4954414c20474e494e49424d4f433b38363330,
0x3b3b3b3b3b4e3b3b3b3b3b4d534e3b3033323b6e4d3b442052455454454c204c4c414d53204e4954414c20474e494e49424d4f433b39363330,
0x3b3b3b3b3b4e3b3b3b3b3b4d534e3b3033323b6e4d3b482052455454454c204c4c414d53204e4954414c20474e494e49424d4f433b41363330,
0x3b3b3b3b3b4e3b3b3b3b3b4d534e3b3033323b6e4d3b4d2052455454454c204c4c414d53204e4954414c20474e494e49424d4f433b42363330,
0x3b3b3b3b3b4e3b3b3b3b3b4d534e3b3033323b6e4d3b522052455454454c204c4c414d53204e4954414c20474e494e49424d4f433b43363330,
0x3b3b3b3b3b4e3b3b3b3b3b4d534e3b3033323b6e4d3b542052455454454c204c4c414d53204e4954414c20474e494e49424d4f433b44363330,
0x3b3b3b3b3b4e3b3b3b3b3b4d534e3b3033323b6e4d3b562052455454454c204c4c414d53204e4954414c20474e494e49424d4f433b45363330,
0x3b3b3b3b3b4e3b3b3b3b3b4d534e3b3033323b6e4d3b582052455454454c204c4c414d53204e4954414c20474e494e49424d4f433b46363330,
0x3b313733303b3b3b3b4e3b3b3b3b3b4c3b303b754c3b415445482052455454454c204c415449504143204b454552473b30373330,
0x303733303b3b303733303b3b3b4e3b3b3b3b3b4c3b303b6c4c3b415445482052455454454c204c4c414d53204b454552473b31373330,
0x3b333733303b3b3b3b4e3b3b3b3b3b4c3b303b754c3b49504d415320434941484352412052455454454c204c415449504143204b454552473b32373330,
0x323733303b3b323733303b3b3b4e3b3b3b3b3b4c3b303b6c4c3b49504d415320434941484352412052455454454c204c4c414d53204b454552473b33373330,
0x3b3b3b3b4e474953204c4152454d554e205245505055204b454552473b4e3b3b3b3b394232303b4e4f3b303b6d4c3b4e474953204c4152454d554e204b454552473b34373330,
0x3b3b3b3b3b4e3b3b3b3b3b4e4f3b303b6b533b4e474953204c4152454d554e205245574f4c204b454552473b35373330,
0x3b373733303b3b3b3b4e3b3b3b3b3b4c3b303b754c3b414d4d41474944204e41494c5948504d41502052455454454c204c415449504143204b454552473b36373330,
0x363733303b3b363733303b3b3b4e3b3b3b3b3b4c3b303b6c4c3b414d4d41474944204e41494c5948504d41502052455454454c204c4c414d53204b454552473b37373330,
0x3b3b3b3b574f4c45422041544f4920474e4943415053204b454552473b4e3b3b3b3b353433302030323030203e7461706d6f633c3b4c3b303b6d4c3b494e454d4d41524745474f5059204b454552473b41373330,
0x444633303b3b444633303b3b3b4e3b3b3b3b3b4c3b303b6c4c3b4c4f424d595320414d474953204554414e554c204445535245564552204c4c414d53204b454552473b42373330,
0x454633303b3b454633303b3b3b4e3b3b3b3b3b4c3b303b6c4c3b4c4f424d595320414d474953204554414e554c20444554544f44204c4c414d53204b454552473b43373330,
0x464633303b3b464633303b3b3b4e3b3b3b3b3b4c3b303b6c4c3b4c4f424d595320414d474953204554414e554c20444554544f44204445535245564552204c4c414d53204b454552473b44373330,
0x3b3b3b3b3b4e3b3b3b3b423330303b4e4f3b303b6f503b4b52414d204e4f495453455551204b454552473b45373330,
0x3b334633303b3b3b3b4e3b3b3b3b3b4c3b303b754c3b544f592052455454454c204c415449504143204b454552473b46373330,
0x3b3b3b3b534f4e4f5420474e4943415053204b454552473b4e3b3b3b3b313033302030323030203e7461706d6f633c3b4e4f3b303b6b533b534f4e4f54204b454552473b34383330,
0x3b3b3b3b534f4e4f542053495345524541494420474e4943415053204b454552473b4e3b3b3b3b3130333020384130303b4e4f3b303b6b533b534f4e4f5420414b4954594c414944204b454552473b35383330,
0x3b434133303b3b3b534f4e4f54204148504c412052455454454c204c415449504143204b454552473b4e3b3b3b3b3130333020313933303b4c3b303b754c3b534f4e4f542048544957204148504c412052455454454c204c415449504143204b454552473b36383330,
0x3b3b3b3b3b4e3b3b3b3b374230303b4e4f3b303b6f503b4149454c4554204f4e41204b454552473b37383330,
0x3b444133303b3b3b534f4e4f54204e4f4c495350452052455454454c204c415449504143204b454552473b4e3b3b3b3b3130333020353933303b4c3b303b754c3b534f4e4f542048544957204e4f4c495350452052455454454c204c415449504143204b454552473b38383330,
0x3b454133303b3b3b534f4e4f54204154452052455454454c204c415449504143204b454552473b4e3b3b3b3b3130333020373933303b4c3b303b754c3b534f4e4f542048544957204154452052455454454c204c415449504143204b454552473b39383330,
0x3b464133303b3b3b534f4e4f542041544f492052455454454c204c415449504143204b454552473b4e3b3b3b3b3130333020393933303b4c3b303b754c3b534f4e4f5420485449572041544f492052455454454c204c415449504143204b454552473b41383330,
0x3b434333303b3b3b534f4e4f54204e4f5243494d4f2052455454454c204c415449504143204b454552473b4e3b3b3b3b3130333020463933303b4c3b303b754c3b534f4e4f542048544957204e4f5243494d4f2052455454454c204c415449504143204b454552473b43383330,
0x3b444333303b3b3b534f4e4f54204e4f4c495350552052455454454c204c415449504143204b454552473b4e3b3b3b3b3130333020354133303b4c3b303b754c3b534f4e4f542048544957204e4f4c495350552052455454454c204c415449504143204b454552473b45383330,
0x3b454333303b3b3b534f4e4f54204147454d4f2052455454454c204c415449504143204b454552473b4e3b3b3b3b3130333020394133303b4c3b303b754c3b534f4e4f542048544957204147454d4f2052455454454c204c415449504143204b454552473b46383330,
0x3b3b3b3b534f4e4f54205349534552454149442041544f492052455454454c204c4c414d53204b454552473b4e3b3b3b3b3130333020414333303b4c3b303b6c4c3b534f4e4f5420444e4120414b4954594c41494420485449572041544f492052455454454c204c4c414d53204b454552473b30393330,
0x3b314233303b3b3b3b4e3b3b3b3b3b4c3b303b754c3b4148504c412052455454454c204c415449504143204b454552473b31393330,
0x3b324233303b3b3b3b4e3b3b3b3b3b4c3b303b754c3b415445422052455454454c204c415449504143204b454552473b32393330,
0x3b334233303b3b3b3b4e3b3b3b3b3b4c3b303b754c3b414d4d41472052455454454c204c415449504143204b454552473b33393330,
0x3b344233303b3b3b3b4e3b3b3b3b3b4c3b303b754c3b41544c45442052455454454c204c415449504143204b454552473b34393330,
0x3b354233303b3b3b3b4e3b3b3b3b3b4c3b303b754c3b4e4f4c495350452052455454454c204c415449504143204b454552473b35393330,
0x3b364233303b3b3b3b4e3b3b3b3b3b4c3b303b754c3b4154455a2052455454454c204c415449504143204b454552473b36393330,
0x3b374233303b3b3b3b4e3b3b3b3b3b4c3b303b754c3b4154452052455454454c204c415449504143204b454552473b37393330,
0x3b384233303b3b3b3b4e3b3b3b3b3b4c3b303b754c3b41544548542052455454454c204c415449504143204b454552473b38393330,
0x3b394233303b3b3b3b4e3b3b3b3b3b4c3b303b754c3b41544f492052455454454c204c415449504143204b454552473b39393330,
0x3b414233303b3b3b3b4e3b3b3b3b3b4c3b303b754c3b415050414b2052455454454c204c415449504143204b454552473b41393330,
0x3b424233303b3b3b4144424d414c2052455454454c204c415449504143204b454552473b4e3b3b3b3b3b4c3b303b754c3b41444d414c2052455454454c204c415449504143204b454552473b42393330,
0x3b434233303b3b3b3b4e3b3b3b3b3b4c3b303b754c3b554d2052455454454c204c415449504143204b454552473b43393330,
0x3b444233303b3b3b3b4e3b3b3b3b3b4c3b303b754c3b554e2052455454454c204c415449504143204b454552473b44393330,
0x3b454233303b3b3b3b4e3b3b3b3b3b4c3b303b754c3b49582052455454454c204c415449504143204b454552473b45393330,
0x3b464233303b3b3b3b4e3b3b3b3b3b4c3b303b754c3b4e4f5243494d4f2052455454454c204c415449504143204b454552473b46393330,
0x3b304333303b3b3b3b4e3b3b3b3b3b4c3b303b754c3b49502052455454454c204c415449504143204b454552473b30413330,
0x3b314333303b3b3b3b4e3b3b3b3b3b4c3b303b754c3b4f48522052455454454c204c415449504143204b454552473b31413330,
0x3b334333303b3b3b3b4e3b3b3b3b3b4c3b303b754c3b414d4749532052455454454c204c415449504143204b454552473b33413330,
0x3b344333303b3b3b3b4e3b3b3b3b3b4c3b303b754c3b5541542052455454454c204c415449504143204b454552473b34413330,
0x3b354333303b3b3b3b4e3b3b3b3b3b4c3b303b754c3b4e4f4c495350552052455454454c204c415449504143204b454552473b35413330,
0x3b364333303b3b3b3b4e3b3b3b3b3b4c3b303b754c3b4948502052455454454c204c415449504143204b454552473b36413330,
0x3b374333303b3b3b3b4e3b3b3b3b3b4c3b303b754c3b4948432052455454454c204c415449504143204b454552473b37413330,
0x3b384333303b3b3b3b4e3b3b3b3b3b4c3b303b754c3b4953502052455454454c204c415449504143204b454552473b38413330,
0x3b394333303b3b3b3b4e3b3b3b3b3b4c3b303b754c3b4147454d4f2052455454454c204c415449504143204b454552473b39413330,
0x3b414333303b3b3b5349534552454149442041544f492052455454454c204c415449504143204b454552473b4e3b3b3b3b3830333020393933303b4c3b303b754c3b414b4954594c41494420485449572041544f492052455454454c204c415449504143204b454552473b41413330,
0x3b424333303b3b3b534953455245414944204e4f4c495350552052455454454c204c415449504143204b454552473b4e3b3b3b3b3830333020354133303b4c3b303b754c3b414b4954594c4149442048544957204e4f4c495350552052455454454c204c415449504143204b454552473b42413330,
0x363833303b3b363833303b3b534f4e4f54204148504c412052455454454c204c4c414d53204b454552473b4e3b3b3b3b3130333020314233303b4c3b303b6c4c3b534f4e4f542048544957204148504c412052455454454c204c4c414d53204b454552473b43413330,
0x383833303b3b383833303b3b534f4e4f54204e4f4c495350452052455454454c204c4c414d53204b454552473b4e3b3b3b3b3130333020354233303b4c3b303b6c4c3b534f4e4f542048544957204e4f4c495350452052455454454c204c4c414d53204b454552473b44413330,
0x393833303b3b393833303b3b534f4e4f54204154452052455454454c204c4c414d53204b454552473b4e3b3b3b3b3130333020374233303b4c3b303b6c4c3b534f4e4f542048544957204154452052455454454c204c4c414d53204b454552473b45413330,
0x413833303b3b413833303b3b534f4e4f542041544f492052455454454c204c4c414d53204b454552473b4e3b3b3b3b3130333020394233303b4c3b303b6c4c3b534f4e4f5420485449572041544f492052455454454c204c4c414d53204b454552473b46413330,
0x3b3b3b3b534f4e4f5420534953455245414944204e4f4c495350552052455454454c204c4c414d53204b454552473b4e3b3b3b3b3130333020424333303b4c3b303b6c4c3b534f4e4f5420444e4120414b4954594c4149442048544957204e4f4c495350552052455454454c204c4c414d53204b454552473b30423330,
0x313933303b3b313933303b3b3b4e3b3b3b3b3b4c3b303b6c4c3b4148504c412052455454454c204c4c414d53204b454552473b31423330,
0x323933303b3b323933303b3b3b4e3b3b3b3b3b4c3b303b6c4c3b415445422052455454454c204c4c414d53204b454552473b32423330,
0x333933303b3b333933303b3b3b4e3b3b3b3b3b4c3b303b6c4c3b414d4d41472052455454454c204c4c414d53204b454552473b33423330,
0x343933303b3b343933303b3b3b4e3b3b3b3b3b4c3b303b6c4c3b41544c45442052455454454c204c4c414d53204b454552473b34423330,
0x353933303b3b353933303b3b3b4e3b3b3b3b3b4c3b303b6c4c3b4e4f4c495350452052455454454c204c4c414d53204b454552473b35423330,
0x363933303b3b363933303b3b3b4e3b3b3b3b3b4c3b303b6c4c3b4154455a2052455454454c204c4c414d53204b454552473b36423330,
0x373933303b3b373933303b3b3b4e3b3b3b3b3b4c3b303b6c4c3b4154452052455454454c204c4c414d53204b454552473b37423330,
0x383933303b3b383933303b3b3b4e3b3b3b3b3b4c3b303b6c4c3b41544548542052455454454c204c4c414d53204b454552473b38423330,
0x393933303b3b393933303b3b3b4e3b3b3b3b3b4c3b303b6c4c3b41544f492052455454454c204c4c414d53204b454552473b39423330,
0x413933303b3b413933303b3b3b4e3b3b3b3b3b4c3b303b6c4c3b415050414b2052455454454c204c4c414d53204b454552473b41423330,
0x423933303b3b423933303b3b4144424d414c2052455454454c204c4c414d53204b454552473b4e3b3b3b3b3b4c3b303b6c4c3b41444d414c2052455454454c204c4c414d53204b454552473b42423330,
0x433933303b3b433933303b3b3b4e3b3b3b3b3b4c3b303b6c4c3b554d2052455454454c204c4c414d53204b454552473b43423330,
0x443933303b3b443933303b3b3b4e3b3b3b3b3b4c3b303b6c4c3b554e2052455454454c204c4c414d53204b454552473b44423330,
0x453933303b3b453933303b3b3b4e3b3b3b3b3b4c3b303b6c4c3b49582052455454454c204c4c414d53204b454552473b45423330,
0x463933303b3b463933303b3b3b4e3b3b3b3b3b4c3b303b6c4c3b4e4f5243494d4f2052455454454c204c4c414d53204b454552473b46423330,
0x304133303b3b304133303b3b3b4e3b3b3b3b3b4c3b303b6c4c3b49502052455454454c204c4c414d53204b454552473b30433330,
0x314133303b3b314133303b3b3b4e3b3b3b3b3b4c3b303b6c4c3b4f48522052455454454c204c4c414d53204b454552473b31433330,
0x334133303b3b334133303b3b3b4e3b3b3b3b3b4c3b303b6c4c3b414d474953204c414e49462052455454454c204c4c414d53204b454552473b32433330,
0x334133303b3b334133303b3b3b4e3b3b3b3b3b4c3b303b6c4c3b414d4749532052455454454c204c4c414d53204b454552473b33433330,
0x344133303b3b344133303b3b3b4e3b3b3b3b3b4c3b303b6c4c3b5541542052455454454c204c4c414d53204b454552473b34433330,
0x354133303b3b354133303b3b3b4e3b3b3b3b3b4c3b303b6c4c3b4e4f4c495350552052455454454c204c4c414d53204b454552473b35433330,
0x364133303b3b364133303b3b3b4e3b3b3b3b3b4c3b303b6c4c3b4948502052455454454c204c4c414d53204b454552473b36433330,
0x374133303b3b374133303b3b3b4e3b3b3b3b3b4c3b303b6c4c3b4948432052455454454c204c4c414d53204b454552473b37433330,
0x384133303b3b384133303b3b3b4e3b3b3b3b3b4c3b303b6c4c3b4953502052455454454c204c4c414d53204b454552473b38433330,
0x394133303b3b394133303b3b3b4e3b3b3b3b3b4c3b303b6c4c3b4147454d4f2052455454454c204c4c414d53204b454552473b39433330,
0x414133303b3b414133303b3b5349534552454149442041544f492052455454454c204c4c414d53204b454552473b4e3b3b3b3b3830333020394233303b4c3b303b6c4c3b414b4954594c41494420485449572041544f492052455454454c204c4c414d53204b454552473b41433330,
0x424133303b3b424133303b3b534953455245414944204e4f4c495350552052455454454c204c4c414d53204b454552473b4e3b3b3b3b3830333020354333303b4c3b303b6c4c3b414b4954594c4149442048544957204e4f4c495350552052455454454c204c4c414d53204b454552473b42433330,
0x433833303b3b433833303b3b534f4e4f54204e4f5243494d4f2052455454454c204c4c414d53204b454552473b4e3b3b3b3b3130333020464233303b4c3b303b6c4c3b534f4e4f542048544957204e4f5243494d4f2052455454454c204c4c414d53204b454552473b43433330,
0x453833303b3b453833303b3b534f4e4f54204e4f4c495350552052455454454c204c4c414d53204b454552473b4e3b3b3b3b3130333020354333303b4c3b303b6c4c3b534f4e4f542048544957204e4f4c495350552052455454454c204c4c414d53204b454552473b44433330,
0x463833303b3b463833303b3b534f4e4f54204147454d4f2052455454454c204c4c414d53204b454552473b4e3b3b3b3b3130333020394333303b4c3b303b6c4c3b534f4e4f542048544957204147454d4f2052455454454c204c4c414d53204b454552473b45433330,
0x3b374433303b3b3b3b4e3b3b3b3b3b4c3b303b754c3b4c4f424d59532049414b204c415449504143204b454552473b46433330,
0x323933303b3b323933303b3b415445422044454c5255432052455454454c204c4c414d53204b454552473b4e3b3b3b3b32423330203e7461706d6f633c3b4c3b303b6c4c3b4c4f424d59532041544542204b454552473b30443330,
0x383933303b3b383933303b3b4154454854205450495243532052455454454c204c4c414d53204b454552473b4e3b3b3b3b38423330203e7461706d6f633c3b4c3b303b6c4c3b4c4f424d5953204154454854204b454552473b31443330,
0x3b3b3b3b4b4f4f48204e4f4c495350552052455454454c204c415449504143204b454552473b4e3b3b3b3b35413330203e7461706d6f633c3b4c3b303b754c3b4c4f424d5953204b4f4f482048544957204e4f4c49535055204b454552473b32443330,
0x3b3b3b3b534f4e4f54204b4f4f48204e4f4c495350552052455454454c204c415449504143204b454552473b4e3b3b3b3b3130333020324433303b4c3b303b754c3b4c4f424d5953204b4f4f4820444e412045545543412048544957204e4f4c49535055204b454552473b33443330,
0x3b3b3b3b534953455245414944204b4f4f48204e4f4c495350552052455454454c204c415449504143204b454552473b4e3b3b3b3b3830333020324433303b4c3b303b754c3b4c4f424d5953204b4f4f4820444e41205349534552454149442048544957204e4f4c49535055204b454552473b34443330,
0x364133303b3b364133303b3b494850205450495243532052455454454c204c4c414d53204b454552473b4e3b3b3b3b36433330203e7461706d6f633c3b4c3b303b6c4c3b4c4f424d595320494850204b454552473b35443330,
0x304133303b3b304133303b3b4950204147454d4f2052455454454c204c4c414d53204b454552473b4e3b3b3b3b30433330203e7461706d6f633c3b4c3b303b6c4c3b4c4f424d5953204950204b454552473b36443330,
0x464333303b3b464333303b3b3b4e3b3b3b3b3b4c3b303b6c4c3b4c4f424d59532049414b204b454552473b37443330,
0x3b394433303b3b3b3b4e3b3b3b3b3b4c3b303b754c3b4150504f4b20434941484352412052455454454c204b454552473b38443330,
0x384433303b3b384433303b3b3b4e3b3b3b3b3b4c3b303b6c4c3b4150504f4b20434941484352412052455454454c204c4c414d53204b454552473b39443330,
0x3b424433303b3b3b414d474954532052455454454c204c415449504143204b454552473b4e3b3b3b3b3b4c3b303b754c3b414d474954532052455454454c204b454552473b41443330,
0x414433303b3b414433303b3b3b4e3b3b3b3b3b4c3b303b6c4c3b414d474954532052455454454c204c4c414d53204b454552473b42443330,
0x3b444433303b3b3b414d4d414749442052455454454c204c415449504143204b454552473b4e3b3b3b3b3b4c3b303b754c3b414d4d414749442052455454454c204b454552473b43443330,
0x434433303b3b434433303b3b3b4e3b3b3b3b3b4c3b303b6c4c3b414d4d414749442052455454454c204c4c414d53204b454552473b44443330,
0x3b464433303b3b3b4150504f4b2052455454454c204c415449504143204b454552473b4e3b3b3b3b3b4c3b303b754c3b4150504f4b2052455454454c204b454552473b45443330,
0x454433303b3b454433303b3b3b4e3b3b3b3b3b4c3b303b6c4c3b4150504f4b2052455454454c204c4c414d53204b454552473b46443330,
0x3b314533303b3b3b49504d41532052455454454c204c415449504143204b454552473b4e3b3b3b3b3b4c3b303b754c3b49504d41532052455454454c204b454552473b30453330,
0x304533303b3b304533303b3b3b4e3b3b3b3b3b4c3b303b6c4c3b49504d41532052455454454c204c4c414d53204b454552473b31453330,
0x3b334533303b3b3b494548532052455454454c204c415449504143204b454552473b4e3b3b3b3b3b4c3b303b754c3b494548532052455454454c204c41544950414320434954504f433b32453330,
0x324533303b3b324533303b3b494548532052455454454c204c4c414d53204b454552473b4e3b3b3b3b3b4c3b303b6c4c3b494548532052455454454c204c4c414d5320434954504f433b33453330,
0x3b354533303b3b3b4945462052455454454c204c415449504143204b454552473b4e3b3b3b3b3b4c3b303b754c3b4945462052455454454c204c41544950414320434954504f433b34453330,
0x344533303b3b344533303b3b4945462052455454454c204c4c414d53204b454552473b4e3b3b3b3b3b4c3b303b6c4c3b4945462052455454454c204c4c414d5320434954504f433b35453330,
0x3b374533303b3b3b4945484b2052455454454c204c415449504143204b454552473b4e3b3b3b3b3b4c3b303b754c3b4945484b2052455454454c204c41544950414320434954504f433b36453330,
0x364533303b3b364533303b3b4945484b2052455454454c204c4c414d53204b454552473b4e3b3b3b3b3b4c3b303b6c4c3b4945484b2052455454454c204c4c414d5320434954504f433b37453330,
0x3b394533303b3b3b49524f482052455454454c204c415449504143204b454552473b4e3b3b3b3b3b4c3b303b754c3b49524f482052455454454c204c41544950414320434954504f433b38453330,
0x384533303b3b384533303b3b49524f482052455454454c204c4c414d53204b454552473b4e3b3b3b3b3b4c3b303b6c4c3b49524f482052455454454c204c4c414d5320434954504f433b39453330,
0x3b424533303b3b3b4149474e41472052455454454c204c415449504143204b454552473b4e3b3b3b3b3b4c3b303b754c3b4149474e41472052455454454c204c41544950414320434954504f433b41453330,
0x414533303b3b414533303b3b4149474e41472052455454454c204c4c414d53204b454552473b4e3b3b3b3b3b4c3b303b6c4c3b4149474e41472052455454454c204c4c414d5320434954504f433b42453330,
0x3b444533303b3b3b414d4948532052455454454c204c415449504143204b454552473b4e3b3b3b3b3b4c3b303b754c3b414d4948532052455454454c204c41544950414320434954504f433b43453330,
0x434533303b3b434533303b3b414d4948532052455454454c204c4c414d53204b454552473b4e3b3b3b3b3b4c3b303b6c4c3b414d4948532052455454454c204c4c414d5320434954504f433b44453330,
0x3b464533303b3b3b4945442052455454454c204c415449504143204b454552473b4e3b3b3b3b3b4c3b303b754c3b4945442052455454454c204c41544950414320434954504f433b45453330,
0x454533303b3b454533303b3b4945442052455454454c204c4c414d53204b454552473b4e3b3b3b3b3b4c3b303b6c4c3b4945442052455454454c204c4c414d5320434954504f433b46453330,
0x413933303b3b413933303b3b415050414b205450495243532052455454454c204c4c414d53204b454552473b4e3b3b3b3b41423330203e7461706d6f633c3b4c3b303b6c4c3b4c4f424d595320415050414b204b454552473b30463330,
0x314133303b3b314133303b3b4f48522044454c4941542052455454454c204c4c414d53204b454552473b4e3b3b3b3b31433330203e7461706d6f633c3b4c3b303b6c4c3b4c4f424d5953204f4852204b454552473b31463330,
0x394633303b3b394633303b3b414d474953204554414e554c2052455454454c204c4c414d53204b454552473b4e3b3b3b3b32433330203e7461706d6f633c3b4c3b303b6c4c3b4c4f424d595320414d474953204554414e554c204b454552473b32463330,
0x463733303b3b463733303b3b3b4e3b3b3b3b3b4c3b303b6c4c3b544f592052455454454c204b454552473b33463330,
0x3b384233303b3b3b3b4e3b3b3b3b38393330203e7461706d6f633c3b4c3b303b754c3b4c4f424d5953204154454854204c415449504143204b454552473b34463330,
0x353933303b3b353933303b3b3b4e3b3b3b3b35423330203e7461706d6f633c3b4c3b303b6c4c3b4c4f424d5953204e4f4c49535045204554414e554c204b454552473b35463330,
0x3b3b3b3b3b4e3b3b3b3b3b4e4f3b303b6d533b4c4f424d5953204e4f4c49535045204554414e554c204445535245564552204b454552473b36463330,
0x3b384633303b3b3b3b4e3b3b3b3b3b4c3b303b754c3b4f48532052455454454c204c415449504143204b454552473b37463330,
0x374633303b3b374633303b3b3b4e3b3b3b3b3b4c3b303b6c4c3b4f48532052455454454c204c4c414d53204b454552473b38463330,
0x3b324633303b3b3b3b4e3b3b3b3b33413330203e7461706d6f633c3b4c3b303b754c3b4c4f424d595320414d474953204554414e554c204c415449504143204b454552473b39463330,
0x3b424633303b3b3b3b4e3b3b3b3b3b4c3b303b754c3b4e41532052455454454c204c415449504143204b454552473b41463330,
0x414633303b3b414633303b3b3b4e3b3b3b3b3b4c3b303b6c4c3b4e41532052455454454c204c4c414d53204b454552473b42463330,
0x3b3b3b3b3b4e3b3b3b3b3b4c3b303b6c4c3b4c4f424d595320454b4f5254532048544957204f4852204b454552473b43463330,
0x3b423733303b3b3b3b4e3b3b3b3b3b4c3b303b754c3b4c4f424d595320414d474953204554414e554c204445535245564552204c415449504143204b454552473b44463330,
0x3b433733303b3b3b3b4e3b3b3b3b3b4c3b303b754c3b4c4f424d595320414d474953204554414e554c20444554544f44204c415449504143204b454552473b45463330,
0x3b443733303b3b3b3b4e3b3b3b3b3b4c3b303b754c3b4c4f424d595320414d474953204554414e554c20444554544f44204445535245564552204c415449504143204b454552473b46463330,
0x3b303534303b3b3b3b4e3b3b3b3b3030333020353134303b4c3b303b754c3b455641524720485449572045492052455454454c204c4154495041432043494c4c495259433b30303430,
0x3b313534303b3b3b3b4e3b3b3b3b3830333020353134303b4c3b303b754c3b4f492052455454454c204c4154495041432043494c4c495259433b31303430,
0x3b323534303b3b3b3b4e3b3b3b3b3b4c3b303b754c3b454a442052455454454c204c4154495041432043494c4c495259433b32303430,
0x3b333534303b3b3b3b4e3b3b3b3b3130333020333134303b4c3b303b754c3b454a472052455454454c204c4154495041432043494c4c495259433b33303430,
0x3b343534303b3b3b452052455454454c204c4154495041432043494c4c495259433b4e3b3b3b3b3b4c3b303b754c3b4549204e41494e4941524b552052455454454c204c4154495041432043494c4c495259433b34303430,
0x3b353534303b3b3b3b4e3b3b3b3b3b4c3b303b754c3b455a442052455454454c204c4154495041432043494c4c495259433b35303430,
0x3b363534303b3b3b492052455454454c204c4154495041432043494c4c495259433b4e3b3b3b3b3b4c3b303b754c3b49204e41494e4941524b552d4e4149535355524f4c4559422052455454454c204c4154495041432043494c4c495259433b36303430,
0x3b373534303b3b3b3b4e3b3b3b3b3830333020363034303b4c3b303b754c3b49592052455454454c204c4154495041432043494c4c495259433b37303430,
0x3b383534303b3b3b3b4e3b3b3b3b3b4c3b303b754c3b454a2052455454454c204c4154495041432043494c4c495259433b38303430]

/-- src/u5e/props/UnicodeData.txt lines 1025-1280. -/
def rawUcd4 : List Nat := [
0x3b393534303b3b3b3b4e3b3b3b3b3b4c3b303b754c3b454a4c2052455454454c204c4154495041432043494c4c495259433b39303430,
0x3b413534303b3b3b3b4e3b3b3b3b3b4c3b303b754c3b454a4e2052455454454c204c4154495041432043494c4c495259433b41303430,
0x3b423534303b3b3b3b4e3b3b3b3b3b4c3b303b754c3b454853542052455454454c204c4154495041432043494c4c495259433b42303430,
0x3b433534303b3b3b3b4e3b3b3b3b3130333020413134303b4c3b303b754c3b454a4b2052455454454c204c4154495041432043494c4c495259433b43303430,
0x3b443534303b3b3b3b4e3b3b3b3b3030333020383134303b4c3b303b754c3b4556415247204854495720492052455454454c204c4154495041432043494c4c495259433b44303430,
0x3b453534303b3b3b3b4e3b3b3b3b3630333020333234303b4c3b303b754c3b552054524f48532052455454454c204c4154495041432043494c4c495259433b45303430,
0x3b463534303b3b3b3b4e3b3b3b3b3b4c3b303b754c3b45485a442052455454454c204c4154495041432043494c4c495259433b46303430,
0x3b303334303b3b3b3b4e3b3b3b3b3b4c3b303b754c3b412052455454454c204c4154495041432043494c4c495259433b30313430,
0x3b313334303b3b3b3b4e3b3b3b3b3b4c3b303b754c3b45422052455454454c204c4154495041432043494c4c495259433b31313430,
0x3b323334303b3b3b3b4e3b3b3b3b3b4c3b303b754c3b45562052455454454c204c4154495041432043494c4c495259433b32313430,
0x3b333334303b3b3b45472052455454454c204c4154495041432043494c4c495259433b4e3b3b3b3b3b4c3b303b754c3b4548472052455454454c204c4154495041432043494c4c495259433b33313430,
0x3b343334303b3b3b3b4e3b3b3b3b3b4c3b303b754c3b45442052455454454c204c4154495041432043494c4c495259433b34313430,
0x3b353334303b3b3b3b4e3b3b3b3b3b4c3b303b754c3b45492052455454454c204c4154495041432043494c4c495259433b35313430,
0x3b363334303b3b3b3b4e3b3b3b3b3b4c3b303b754c3b45485a2052455454454c204c4154495041432043494c4c495259433b36313430,
0x3b373334303b3b3b3b4e3b3b3b3b3b4c3b303b754c3b455a2052455454454c204c4154495041432043494c4c495259433b37313430,
0x3b383334303b3b3b49492052455454454c204c4154495041432043494c4c495259433b4e3b3b3b3b3b4c3b303b754c3b492052455454454c204c4154495041432043494c4c495259433b38313430,
0x3b393334303b3b3b49492054524f48532052455454454c204c4154495041432043494c4c495259433b4e3b3b3b3b3630333020383134303b4c3b303b754c3b492054524f48532052455454454c204c4154495041432043494c4c495259433b39313430,
0x3b413334303b3b3b3b4e3b3b3b3b3b4c3b303b754c3b414b2052455454454c204c4154495041432043494c4c495259433b41313430,
0x3b423334303b3b3b3b4e3b3b3b3b3b4c3b303b754c3b4c452052455454454c204c4154495041432043494c4c495259433b42313430,
0x3b433334303b3b3b3b4e3b3b3b3b3b4c3b303b754c3b4d452052455454454c204c4154495041432043494c4c495259433b43313430,
0x3b443334303b3b3b3b4e3b3b3b3b3b4c3b303b754c3b4e452052455454454c204c4154495041432043494c4c495259433b44313430,
0x3b453334303b3b3b3b4e3b3b3b3b3b4c3b303b754c3b4f2052455454454c204c4154495041432043494c4c495259433b45313430,
0x3b463334303b3b3b3b4e3b3b3b3b3b4c3b303b754c3b45502052455454454c204c4154495041432043494c4c495259433b46313430,
0x3b303434303b3b3b3b4e3b3b3b3b3b4c3b303b754c3b52452052455454454c204c4154495041432043494c4c495259433b30323430,
0x3b313434303b3b3b3b4e3b3b3b3b3b4c3b303b754c3b53452052455454454c204c4154495041432043494c4c495259433b31323430,
0x3b323434303b3b3b3b4e3b3b3b3b3b4c3b303b754c3b45542052455454454c204c4154495041432043494c4c495259433b32323430,
0x3b333434303b3b3b3b4e3b3b3b3b3b4c3b303b754c3b552052455454454c204c4154495041432043494c4c495259433b33323430,
0x3b343434303b3b3b3b4e3b3b3b3b3b4c3b303b754c3b46452052455454454c204c4154495041432043494c4c495259433b34323430,
0x3b353434303b3b3b41484b2052455454454c204c4154495041432043494c4c495259433b4e3b3b3b3b3b4c3b303b754c3b41482052455454454c204c4154495041432043494c4c495259433b35323430,
0x3b363434303b3b3b3b4e3b3b3b3b3b4c3b303b754c3b4553542052455454454c204c4154495041432043494c4c495259433b36323430,
0x3b373434303b3b3b3b4e3b3b3b3b3b4c3b303b754c3b4548432052455454454c204c4154495041432043494c4c495259433b37323430,
0x3b383434303b3b3b3b4e3b3b3b3b3b4c3b303b754c3b4148532052455454454c204c4154495041432043494c4c495259433b38323430,
0x3b393434303b3b3b3b4e3b3b3b3b3b4c3b303b754c3b41484348532052455454454c204c4154495041432043494c4c495259433b39323430,
0x3b413434303b3b3b3b4e3b3b3b3b3b4c3b303b754c3b4e47495320445241482052455454454c204c4154495041432043494c4c495259433b41323430,
0x3b423434303b3b3b495245592052455454454c204c4154495041432043494c4c495259433b4e3b3b3b3b3b4c3b303b754c3b555245592052455454454c204c4154495041432043494c4c495259433b42323430,
0x3b433434303b3b3b3b4e3b3b3b3b3b4c3b303b754c3b4e4749532054464f532052455454454c204c4154495041432043494c4c495259433b43323430,
0x3b443434303b3b3b452044455352455645522052455454454c204c4154495041432043494c4c495259433b4e3b3b3b3b3b4c3b303b754c3b452052455454454c204c4154495041432043494c4c495259433b44323430,
0x3b453434303b3b3b55492052455454454c204c4154495041432043494c4c495259433b4e3b3b3b3b3b4c3b303b754c3b55592052455454454c204c4154495041432043494c4c495259433b45323430,
0x3b463434303b3b3b41492052455454454c204c4154495041432043494c4c495259433b4e3b3b3b3b3b4c3b303b754c3b41592052455454454c204c4154495041432043494c4c495259433b46323430,
0x303134303b3b303134303b3b3b4e3b3b3b3b3b4c3b303b6c4c3b412052455454454c204c4c414d532043494c4c495259433b30333430,
0x313134303b3b313134303b3b3b4e3b3b3b3b3b4c3b303b6c4c3b45422052455454454c204c4c414d532043494c4c495259433b31333430,
0x323134303b3b323134303b3b3b4e3b3b3b3b3b4c3b303b6c4c3b45562052455454454c204c4c414d532043494c4c495259433b32333430,
0x333134303b3b333134303b3b45472052455454454c204c4c414d532043494c4c495259433b4e3b3b3b3b3b4c3b303b6c4c3b4548472052455454454c204c4c414d532043494c4c495259433b33333430,
0x343134303b3b343134303b3b3b4e3b3b3b3b3b4c3b303b6c4c3b45442052455454454c204c4c414d532043494c4c495259433b34333430,
0x353134303b3b353134303b3b3b4e3b3b3b3b3b4c3b303b6c4c3b45492052455454454c204c4c414d532043494c4c495259433b35333430,
0x363134303b3b363134303b3b3b4e3b3b3b3b3b4c3b303b6c4c3b45485a2052455454454c204c4c414d532043494c4c495259433b36333430,
0x373134303b3b373134303b3b3b4e3b3b3b3b3b4c3b303b6c4c3b455a2052455454454c204c4c414d532043494c4c495259433b37333430,
0x383134303b3b383134303b3b49492052455454454c204c4c414d532043494c4c495259433b4e3b3b3b3b3b4c3b303b6c4c3b492052455454454c204c4c414d532043494c4c495259433b38333430,
0x393134303b3b393134303b3b49492054524f48532052455454454c204c4c414d532043494c4c495259433b4e3b3b3b3b3630333020383334303b4c3b303b6c4c3b492054524f48532052455454454c204c4c414d532043494c4c495259433b39333430,
0x413134303b3b413134303b3b3b4e3b3b3b3b3b4c3b303b6c4c3b414b2052455454454c204c4c414d532043494c4c495259433b41333430,
0x423134303b3b423134303b3b3b4e3b3b3b3b3b4c3b303b6c4c3b4c452052455454454c204c4c414d532043494c4c495259433b42333430,
0x433134303b3b433134303b3b3b4e3b3b3b3b3b4c3b303b6c4c3b4d452052455454454c204c4c414d532043494c4c495259433b43333430,
0x443134303b3b443134303b3b3b4e3b3b3b3b3b4c3b303b6c4c3b4e452052455454454c204c4c414d532043494c4c495259433b44333430,
0x453134303b3b453134303b3b3b4e3b3b3b3b3b4c3b303b6c4c3b4f2052455454454c204c4c414d532043494c4c495259433b45333430,
0x463134303b3b463134303b3b3b4e3b3b3b3b3b4c3b303b6c4c3b45502052455454454c204c4c414d532043494c4c495259433b46333430,
0x303234303b3b303234303b3b3b4e3b3b3b3b3b4c3b303b6c4c3b52452052455454454c204c4c414d532043494c4c495259433b30343430,
0x313234303b3b313234303b3b3b4e3b3b3b3b3b4c3b303b6c4c3b53452052455454454c204c4c414d532043494c4c495259433b31343430,
0x323234303b3b323234303b3b3b4e3b3b3b3b3b4c3b303b6c4c3b45542052455454454c204c4c414d532043494c4c495259433b32343430,
0x333234303b3b333234303b3b3b4e3b3b3b3b3b4c3b303b6c4c3b552052455454454c204c4c414d532043494c4c495259433b33343430,
0x343234303b3b343234303b3b3b4e3b3b3b3b3b4c3b303b6c4c3b46452052455454454c204c4c414d532043494c4c495259433b34343430,
0x353234303b3b353234303b3b41484b2052455454454c204c4c414d532043494c4c495259433b4e3b3b3b3b3b4c3b303b6c4c3b41482052455454454c204c4c414d532043494c4c495259433b35343430,
0x363234303b3b363234303b3b3b4e3b3b3b3b3b4c3b303b6c4c3b4553542052455454454c204c4c414d532043494c4c495259433b36343430,
0x373234303b3b373234303b3b3b4e3b3b3b3b3b4c3b303b6c4c3b4548432052455454454c204c4c414d532043494c4c495259433b37343430,
0x383234303b3b383234303b3b3b4e3b3b3b3b3b4c3b303b6c4c3b4148532052455454454c204c4c414d532043494c4c495259433b38343430,
0x393234303b3b393234303b3b3b4e3b3b3b3b3b4c3b303b6c4c3b41484348532052455454454c204c4c414d532043494c4c495259433b39343430,
0x413234303b3b413234303b3b3b4e3b3b3b3b3b4c3b303b6c4c3b4e47495320445241482052455454454c204c4c414d532043494c4c495259433b41343430,
0x423234303b3b423234303b3b495245592052455454454c204c4c414d532043494c4c495259433b4e3b3b3b3b3b4c3b303b6c4c3b555245592052455454454c204c4c414d532043494c4c495259433b42343430,
0x433234303b3b433234303b3b3b4e3b3b3b3b3b4c3b303b6c4c3b4e4749532054464f532052455454454c204c4c414d532043494c4c495259433b43343430,
0x443234303b3b443234303b3b452044455352455645522052455454454c204c4c414d532043494c4c495259433b4e3b3b3b3b3b4c3b303b6c4c3b452052455454454c204c4c414d532043494c4c495259433b44343430,
0x453234303b3b453234303b3b55492052455454454c204c4c414d532043494c4c495259433b4e3b3b3b3b3b4c3b303b6c4c3b55592052455454454c204c4c414d532043494c4c495259433b45343430,
0x463234303b3b463234303b3b41492052455454454c204c4c414d532043494c4c495259433b4e3b3b3b3b3b4c3b303b6c4c3b41592052455454454c204c4c414d532043494c4c495259433b46343430,
0x303034303b3b303034303b3b3b4e3b3b3b3b3030333020353334303b4c3b303b6c4c3b455641524720485449572045492052455454454c204c4c414d532043494c4c495259433b30353430,
0x313034303b3b313034303b3b3b4e3b3b3b3b3830333020353334303b4c3b303b6c4c3b4f492052455454454c204c4c414d532043494c4c495259433b31353430,
0x323034303b3b323034303b3b3b4e3b3b3b3b3b4c3b303b6c4c3b454a442052455454454c204c4c414d532043494c4c495259433b32353430,
0x333034303b3b333034303b3b3b4e3b3b3b3b3130333020333334303b4c3b303b6c4c3b454a472052455454454c204c4c414d532043494c4c495259433b33353430,
0x343034303b3b343034303b3b452052455454454c204c4c414d532043494c4c495259433b4e3b3b3b3b3b4c3b303b6c4c3b4549204e41494e4941524b552052455454454c204c4c414d532043494c4c495259433b34353430,
0x353034303b3b353034303b3b3b4e3b3b3b3b3b4c3b303b6c4c3b455a442052455454454c204c4c414d532043494c4c495259433b35353430,
0x363034303b3b363034303b3b492052455454454c204c4c414d532043494c4c495259433b4e3b3b3b3b3b4c3b303b6c4c3b49204e41494e4941524b552d4e4149535355524f4c4559422052455454454c204c4c414d532043494c4c495259433b36353430,
0x373034303b3b373034303b3b3b4e3b3b3b3b3830333020363534303b4c3b303b6c4c3b49592052455454454c204c4c414d532043494c4c495259433b37353430,
0x383034303b3b383034303b3b3b4e3b3b3b3b3b4c3b303b6c4c3b454a2052455454454c204c4c414d532043494c4c495259433b38353430,
0x393034303b3b393034303b3b3b4e3b3b3b3b3b4c3b303b6c4c3b454a4c2052455454454c204c4c414d532043494c4c495259433b39353430,
0x413034303b3b413034303b3b3b4e3b3b3b3b3b4c3b303b6c4c3b454a4e2052455454454c204c4c414d532043494c4c495259433b41353430,
0x423034303b3b423034303b3b3b4e3b3b3b3b3b4c3b303b6c4c3b454853542052455454454c204c4c414d532043494c4c495259433b42353430,
0x433034303b3b433034303b3b3b4e3b3b3b3b3130333020413334303b4c3b303b6c4c3b454a4b2052455454454c204c4c414d532043494c4c495259433b43353430,
0x443034303b3b443034303b3b3b4e3b3b3b3b3030333020383334303b4c3b303b6c4c3b4556415247204854495720492052455454454c204c4c414d532043494c4c495259433b44353430,
0x453034303b3b453034303b3b3b4e3b3b3b3b3630333020333434303b4c3b303b6c4c3b552054524f48532052455454454c204c4c414d532043494c4c495259433b45353430,
0x463034303b3b463034303b3b3b4e3b3b3b3b3b4c3b303b6c4c3b45485a442052455454454c204c4c414d532043494c4c495259433b46353430,
0x3b313634303b3b3b3b4e3b3b3b3b3b4c3b303b754c3b4147454d4f2052455454454c204c4154495041432043494c4c495259433b30363430,
0x303634303b3b303634303b3b3b4e3b3b3b3b3b4c3b303b6c4c3b4147454d4f2052455454454c204c4c414d532043494c4c495259433b31363430,
0x3b333634303b3b3b3b4e3b3b3b3b3b4c3b303b754c3b5441592052455454454c204c4154495041432043494c4c495259433b32363430,
0x323634303b3b323634303b3b3b4e3b3b3b3b3b4c3b303b6c4c3b5441592052455454454c204c4c414d532043494c4c495259433b33363430,
0x3b353634303b3b3b3b4e3b3b3b3b3b4c3b303b754c3b45204445494649544f492052455454454c204c4154495041432043494c4c495259433b34363430,
0x343634303b3b343634303b3b3b4e3b3b3b3b3b4c3b303b6c4c3b45204445494649544f492052455454454c204c4c414d532043494c4c495259433b35363430,
0x3b373634303b3b3b3b4e3b3b3b3b3b4c3b303b754c3b53555920454c5454494c2052455454454c204c4154495041432043494c4c495259433b36363430,
0x363634303b3b363634303b3b3b4e3b3b3b3b3b4c3b303b6c4c3b53555920454c5454494c2052455454454c204c4c414d532043494c4c495259433b37363430,
0x3b393634303b3b3b3b4e3b3b3b3b3b4c3b303b754c3b53555920454c5454494c204445494649544f492052455454454c204c4154495041432043494c4c495259433b38363430,
0x383634303b3b383634303b3b3b4e3b3b3b3b3b4c3b303b6c4c3b53555920454c5454494c204445494649544f492052455454454c204c4c414d532043494c4c495259433b39363430,
0x3b423634303b3b3b3b4e3b3b3b3b3b4c3b303b754c3b535559204749422052455454454c204c4154495041432043494c4c495259433b41363430,
0x413634303b3b413634303b3b3b4e3b3b3b3b3b4c3b303b6c4c3b535559204749422052455454454c204c4c414d532043494c4c495259433b42363430,
0x3b443634303b3b3b3b4e3b3b3b3b3b4c3b303b754c3b53555920474942204445494649544f492052455454454c204c4154495041432043494c4c495259433b43363430,
0x433634303b3b433634303b3b3b4e3b3b3b3b3b4c3b303b6c4c3b53555920474942204445494649544f492052455454454c204c4c414d532043494c4c495259433b44363430,
0x3b463634303b3b3b3b4e3b3b3b3b3b4c3b303b754c3b49534b2052455454454c204c4154495041432043494c4c495259433b45363430,
0x453634303b3b453634303b3b3b4e3b3b3b3b3b4c3b303b6c4c3b49534b2052455454454c204c4c414d532043494c4c495259433b46363430,
0x3b313734303b3b3b3b4e3b3b3b3b3b4c3b303b754c3b4953502052455454454c204c4154495041432043494c4c495259433b30373430,
0x303734303b3b303734303b3b3b4e3b3b3b3b3b4c3b303b6c4c3b4953502052455454454c204c4c414d532043494c4c495259433b31373430,
0x3b333734303b3b3b3b4e3b3b3b3b3b4c3b303b754c3b415449462052455454454c204c4154495041432043494c4c495259433b32373430,
0x323734303b3b323734303b3b3b4e3b3b3b3b3b4c3b303b6c4c3b415449462052455454454c204c4c414d532043494c4c495259433b33373430,
0x3b353734303b3b3b3b4e3b3b3b3b3b4c3b303b754c3b41535449485a492052455454454c204c4154495041432043494c4c495259433b34373430,
0x343734303b3b343734303b3b3b4e3b3b3b3b3b4c3b303b6c4c3b41535449485a492052455454454c204c4c414d532043494c4c495259433b35373430,
0x3b373734303b3b3b455641524720454c42554f442041535449485a492052455454454c204c4154495041432043494c4c495259433b4e3b3b3b3b4630333020343734303b4c3b303b754c3b544e4543434120455641524720454c42554f4420485449572041535449485a492052455454454c204c4154495041432043494c4c495259433b36373430,
0x363734303b3b363734303b3b455641524720454c42554f442041535449485a492052455454454c204c4c414d532043494c4c495259433b4e3b3b3b3b4630333020353734303b4c3b303b6c4c3b544e4543434120455641524720454c42554f4420485449572041535449485a492052455454454c204c4c414d532043494c4c495259433b37373430,
0x3b393734303b3b3b48504152474944204b552052455454454c204c4154495041432043494c4c495259433b4e3b3b3b3b3b4c3b303b754c3b4b552052455454454c204c4154495041432043494c4c495259433b38373430,
0x383734303b3b383734303b3b48504152474944204b552052455454454c204c4c414d532043494c4c495259433b4e3b3b3b3b3b4c3b303b6c4c3b4b552052455454454c204c4c414d532043494c4c495259433b39373430,
0x3b423734303b3b3b3b4e3b3b3b3b3b4c3b303b754c3b4147454d4f20444e554f522052455454454c204c4154495041432043494c4c495259433b41373430,
0x413734303b3b413734303b3b3b4e3b3b3b3b3b4c3b303b6c4c3b4147454d4f20444e554f522052455454454c204c4c414d532043494c4c495259433b42373430,
0x3b443734303b3b3b4f4c544954204147454d4f2052455454454c204c4154495041432043494c4c495259433b4e3b3b3b3b3b4c3b303b754c3b4f4c5449542048544957204147454d4f2052455454454c204c4154495041432043494c4c495259433b43373430,
0x433734303b3b433734303b3b4f4c544954204147454d4f2052455454454c204c4c414d532043494c4c495259433b4e3b3b3b3b3b4c3b303b6c4c3b4f4c5449542048544957204147454d4f2052455454454c204c4c414d532043494c4c495259433b44373430,
0x3b463734303b3b3b3b4e3b3b3b3b3b4c3b303b754c3b544f2052455454454c204c4154495041432043494c4c495259433b45373430,
0x453734303b3b453734303b3b3b4e3b3b3b3b3b4c3b303b6c4c3b544f2052455454454c204c4c414d532043494c4c495259433b46373430,
0x3b313834303b3b3b3b4e3b3b3b3b3b4c3b303b754c3b4150504f4b2052455454454c204c4154495041432043494c4c495259433b30383430,
0x303834303b3b303834303b3b3b4e3b3b3b3b3b4c3b303b6c4c3b4150504f4b2052455454454c204c4c414d532043494c4c495259433b31383430,
0x3b3b3b3b3b4e3b3b3b3b3b4c3b303b6f533b4e4749532053444e4153554f48542043494c4c495259433b32383430,
0x3b3b3b3b4f4c54495420474e49434150532d4e4f4e2043494c4c495259433b4e3b3b3b3b3b4d534e3b3033323b6e4d3b4f4c5449542043494c4c4952594320474e494e49424d4f433b33383430,
0x3b3b3b3b4e4f4954415a494c4154414c415020474e49434150532d4e4f4e2043494c4c495259433b4e3b3b3b3b3b4d534e3b3033323b6e4d3b4e4f4954415a494c4154414c41502043494c4c4952594320474e494e49424d4f433b34383430,
0x3b3b3b3b4154414d55454e5020414953414420474e49434150532d4e4f4e2043494c4c495259433b4e3b3b3b3b3b4d534e3b3033323b6e4d3b4154414d55454e502041495341442043494c4c4952594320474e494e49424d4f433b35383430,
0x3b3b3b3b4154414d55454e5020494c49535020474e49434150532d4e4f4e2043494c4c495259433b4e3b3b3b3b3b4d534e3b3033323b6e4d3b4154414d55454e5020494c4953502043494c4c4952594320474e494e49424d4f433b36383430,
0x3b3b3b3b3b4e3b3b3b3b3b4d534e3b3033323b6e4d3b45495459524b4f502043494c4c4952594320474e494e49424d4f433b37383430,
0x3b3b3b3b3b4e3b3b3b3b3b4d534e3b303b654d3b4e4749532053444e4153554f485420444552444e55482043494c4c4952594320474e494e49424d4f433b38383430,
0x3b3b3b3b3b4e3b3b3b3b3b4d534e3b303b654d3b4e47495320534e4f494c4c494d2043494c4c4952594320474e494e49424d4f433b39383430,
0x3b423834303b3b3b3b4e3b3b3b3b3b4c3b303b754c3b4c494154204854495720492054524f48532052455454454c204c4154495041432043494c4c495259433b41383430,
0x413834303b3b413834303b3b3b4e3b3b3b3b3b4c3b303b6c4c3b4c494154204854495720492054524f48532052455454454c204c4c414d532043494c4c495259433b42383430,
0x3b443834303b3b3b3b4e3b3b3b3b3b4c3b303b754c3b4e4749532054464f53494d45532052455454454c204c4154495041432043494c4c495259433b43383430,
0x433834303b3b433834303b3b3b4e3b3b3b3b3b4c3b303b6c4c3b4e4749532054464f53494d45532052455454454c204c4c414d532043494c4c495259433b44383430,
0x3b463834303b3b3b3b4e3b3b3b3b3b4c3b303b754c3b4b43495420485449572052452052455454454c204c4154495041432043494c4c495259433b45383430,
0x453834303b3b453834303b3b3b4e3b3b3b3b3b4c3b303b6c4c3b4b43495420485449572052452052455454454c204c4c414d532043494c4c495259433b46383430,
0x3b313934303b3b3b4e525554505520485449572045472052455454454c204c4154495041432043494c4c495259433b4e3b3b3b3b3b4c3b303b754c3b4e52555450552048544957204548472052455454454c204c4154495041432043494c4c495259433b30393430,
0x303934303b3b303934303b3b4e525554505520485449572045472052455454454c204c4c414d532043494c4c495259433b4e3b3b3b3b3b4c3b303b6c4c3b4e52555450552048544957204548472052455454454c204c4c414d532043494c4c495259433b31393430,
0x3b333934303b3b3b5241422045472052455454454c204c4154495041432043494c4c495259433b4e3b3b3b3b3b4c3b303b754c3b454b4f5254532048544957204548472052455454454c204c4154495041432043494c4c495259433b32393430,
0x323934303b3b323934303b3b5241422045472052455454454c204c4c414d532043494c4c495259433b4e3b3b3b3b3b4c3b303b6c4c3b454b4f5254532048544957204548472052455454454c204c4c414d532043494c4c495259433b33393430,
0x3b353934303b3b3b4b4f4f482045472052455454454c204c4154495041432043494c4c495259433b4e3b3b3b3b3b4c3b303b754c3b4b4f4f4820454c4444494d2048544957204548472052455454454c204c4154495041432043494c4c495259433b34393430,
0x343934303b3b343934303b3b4b4f4f482045472052455454454c204c4c414d532043494c4c495259433b4e3b3b3b3b3b4c3b303b6c4c3b4b4f4f4820454c4444494d2048544957204548472052455454454c204c4c414d532043494c4c495259433b35393430,
0x3b373934303b3b3b5245444e454353454420544847495220485449572045485a2052455454454c204c4154495041432043494c4c495259433b4e3b3b3b3b3b4c3b303b754c3b5245444e454353454420485449572045485a2052455454454c204c4154495041432043494c4c495259433b36393430,
0x363934303b3b363934303b3b5245444e454353454420544847495220485449572045485a2052455454454c204c4c414d532043494c4c495259433b4e3b3b3b3b3b4c3b303b6c4c3b5245444e454353454420485449572045485a2052455454454c204c4c414d532043494c4c495259433b37393430,
0x3b393934303b3b3b414c4c4944454320455a2052455454454c204c4154495041432043494c4c495259433b4e3b3b3b3b3b4c3b303b754c3b5245444e4543534544204854495720455a2052455454454c204c4154495041432043494c4c495259433b38393430,
0x383934303b3b383934303b3b414c4c4944454320455a2052455454454c204c4c414d532043494c4c495259433b4e3b3b3b3b3b4c3b303b6c4c3b5245444e4543534544204854495720455a2052455454454c204c4c414d532043494c4c495259433b39393430,
0x3b423934303b3b3b5245444e4543534544205448474952204854495720414b2052455454454c204c4154495041432043494c4c495259433b4e3b3b3b3b3b4c3b303b754c3b5245444e4543534544204854495720414b2052455454454c204c4154495041432043494c4c495259433b41393430,
0x413934303b3b413934303b3b5245444e4543534544205448474952204854495720414b2052455454454c204c4c414d532043494c4c495259433b4e3b3b3b3b3b4c3b303b6c4c3b5245444e4543534544204854495720414b2052455454454c204c4c414d532043494c4c495259433b42393430,
0x3b443934303b3b3b524142204c4143495452455620414b2052455454454c204c4154495041432043494c4c495259433b4e3b3b3b3b3b4c3b303b754c3b454b4f525453204c41434954524556204854495720414b2052455454454c204c4154495041432043494c4c495259433b43393430,
0x433934303b3b433934303b3b524142204c4143495452455620414b2052455454454c204c4c414d532043494c4c495259433b4e3b3b3b3b3b4c3b303b6c4c3b454b4f525453204c41434954524556204854495720414b2052455454454c204c4c414d532043494c4c495259433b44393430,
0x3b463934303b3b3b52414220414b2052455454454c204c4154495041432043494c4c495259433b4e3b3b3b3b3b4c3b303b754c3b454b4f525453204854495720414b2052455454454c204c4154495041432043494c4c495259433b45393430,
0x453934303b3b453934303b3b52414220414b2052455454454c204c4c414d532043494c4c495259433b4e3b3b3b3b3b4c3b303b6c4c3b454b4f525453204854495720414b2052455454454c204c4c414d532043494c4c495259433b46393430,
0x3b314134303b3b3b414b2045472044455352455645522052455454454c204c4154495041432043494c4c495259433b4e3b3b3b3b3b4c3b303b754c3b414b2052494b485341422052455454454c204c4154495041432043494c4c495259433b30413430,
0x304134303b3b304134303b3b414b2045472044455352455645522052455454454c204c4c414d532043494c4c495259433b4e3b3b3b3b3b4c3b303b6c4c3b414b2052494b485341422052455454454c204c4c414d532043494c4c495259433b31413430,
0x3b334134303b3b3b5245444e45435345442054484749522048544957204e452052455454454c204c4154495041432043494c4c495259433b4e3b3b3b3b3b4c3b303b754c3b5245444e45435345442048544957204e452052455454454c204c4154495041432043494c4c495259433b32413430,
0x324134303b3b324134303b3b5245444e45435345442054484749522048544957204e452052455454454c204c4c414d532043494c4c495259433b4e3b3b3b3b3b4c3b303b6c4c3b5245444e45435345442048544957204e452052455454454c204c4c414d532043494c4c495259433b33413430,
0x3b354134303b3b3b4547204e452052455454454c204c4154495041432043494c4c495259433b4e3b3b3b3b3b4c3b303b754c3b454847204e4520455255544147494c204c4154495041432043494c4c495259433b34413430,
0x344134303b3b344134303b3b4547204e452052455454454c204c4c414d532043494c4c495259433b4e3b3b3b3b3b4c3b303b6c4c3b454847204e4520455255544147494c204c4c414d532043494c4c495259433b35413430,
0x3b374134303b3b3b4b4f4f482045502052455454454c204c4154495041432043494c4c495259433b4e3b3b3b3b3b4c3b303b754c3b4b4f4f4820454c4444494d20485449572045502052455454454c204c4154495041432043494c4c495259433b36413430,
0x364134303b3b364134303b3b4b4f4f482045502052455454454c204c4c414d532043494c4c495259433b4e3b3b3b3b3b4c3b303b6c4c3b4b4f4f4820454c4444494d20485449572045502052455454454c204c4c414d532043494c4c495259433b37413430,
0x3b394134303b3b3b4b4f4f48204f2052455454454c204c4154495041432043494c4c495259433b4e3b3b3b3b3b4c3b303b754c3b4148204e41495341484b42412052455454454c204c4154495041432043494c4c495259433b38413430,
0x384134303b3b384134303b3b4b4f4f48204f2052455454454c204c4c414d532043494c4c495259433b4e3b3b3b3b3b4c3b303b6c4c3b4148204e41495341484b42412052455454454c204c4c414d532043494c4c495259433b39413430,
0x3b424134303b3b3b414c4c494445432053452052455454454c204c4154495041432043494c4c495259433b4e3b3b3b3b3b4c3b303b754c3b5245444e454353454420485449572053452052455454454c204c4154495041432043494c4c495259433b41413430,
0x414134303b3b414134303b3b414c4c494445432053452052455454454c204c4c414d532043494c4c495259433b4e3b3b3b3b3b4c3b303b6c4c3b5245444e454353454420485449572053452052455454454c204c4c414d532043494c4c495259433b42413430,
0x3b444134303b3b3b5245444e454353454420544847495220485449572045542052455454454c204c4154495041432043494c4c495259433b4e3b3b3b3b3b4c3b303b754c3b5245444e454353454420485449572045542052455454454c204c4154495041432043494c4c495259433b43413430,
0x434134303b3b434134303b3b5245444e454353454420544847495220485449572045542052455454454c204c4c414d532043494c4c495259433b4e3b3b3b3b3b4c3b303b6c4c3b5245444e454353454420485449572045542052455454454c204c4c414d532043494c4c495259433b44413430,
0x3b464134303b3b3b3b4e3b3b3b3b3b4c3b303b754c3b552054484749415254532052455454454c204c4154495041432043494c4c495259433b45413430,
0x454134303b3b454134303b3b3b4e3b3b3b3b3b4c3b303b6c4c3b552054484749415254532052455454454c204c4c414d532043494c4c495259433b46413430,
0x3b314234303b3b3b52414220552054484749415254532052455454454c204c4154495041432043494c4c495259433b4e3b3b3b3b3b4c3b303b754c3b454b4f525453204854495720552054484749415254532052455454454c204c4154495041432043494c4c495259433b30423430,
0x304234303b3b304234303b3b52414220552054484749415254532052455454454c204c4c414d532043494c4c495259433b4e3b3b3b3b3b4c3b303b6c4c3b454b4f525453204854495720552054484749415254532052455454454c204c4c414d532043494c4c495259433b31423430,
0x3b334234303b3b3b5245444e454353454420544847495220485449572041484b2052455454454c204c4154495041432043494c4c495259433b4e3b3b3b3b3b4c3b303b754c3b5245444e454353454420485449572041482052455454454c204c4154495041432043494c4c495259433b32423430,
0x324234303b3b324234303b3b5245444e454353454420544847495220485449572041484b2052455454454c204c4c414d532043494c4c495259433b4e3b3b3b3b3b4c3b303b6c4c3b5245444e454353454420485449572041482052455454454c204c4c414d532043494c4c495259433b33423430,
0x3b354234303b3b3b4553542045542052455454454c204c4154495041432043494c4c495259433b4e3b3b3b3b3b4c3b303b754c3b45535420455420455255544147494c204c4154495041432043494c4c495259433b34423430,
0x344234303b3b344234303b3b4553542045542052455454454c204c4c414d532043494c4c495259433b4e3b3b3b3b3b4c3b303b6c4c3b45535420455420455255544147494c204c4c414d532043494c4c495259433b35423430,
0x3b374234303b3b3b5245444e45435345442054484749522048544957204548432052455454454c204c4154495041432043494c4c495259433b4e3b3b3b3b3b4c3b303b754c3b5245444e45435345442048544957204548432052455454454c204c4154495041432043494c4c495259433b36423430,
0x364234303b3b364234303b3b5245444e45435345442054484749522048544957204548432052455454454c204c4c414d532043494c4c495259433b4e3b3b3b3b3b4c3b303b6c4c3b5245444e45435345442048544957204548432052455454454c204c4c414d532043494c4c495259433b37423430,
0x3b394234303b3b3b524142204c41434954524556204548432052455454454c204c4154495041432043494c4c495259433b4e3b3b3b3b3b4c3b303b754c3b454b4f525453204c414349545245562048544957204548432052455454454c204c4154495041432043494c4c495259433b38423430,
0x384234303b3b384234303b3b524142204c41434954524556204548432052455454454c204c4c414d532043494c4c495259433b4e3b3b3b3b3b4c3b303b6c4c3b454b4f525453204c414349545245562048544957204548432052455454454c204c4c414d532043494c4c495259433b39423430,
0x3b424234303b3b3b482052455454454c204c4154495041432043494c4c495259433b4e3b3b3b3b3b4c3b303b754c3b414848532052455454454c204c4154495041432043494c4c495259433b41423430,
0x414234303b3b414234303b3b482052455454454c204c4c414d532043494c4c495259433b4e3b3b3b3b3b4c3b303b6c4c3b414848532052455454454c204c4c414d532043494c4c495259433b42423430,
0x3b444234303b3b3b4b4f4f482045492052455454454c204c4154495041432043494c4c495259433b4e3b3b3b3b3b4c3b303b754c3b454843204e41495341484b42412052455454454c204c4154495041432043494c4c495259433b43423430,
0x434234303b3b434234303b3b4b4f4f482045492052455454454c204c4c414d532043494c4c495259433b4e3b3b3b3b3b4c3b303b6c4c3b454843204e41495341484b42412052455454454c204c4c414d532043494c4c495259433b44423430,
0x3b464234303b3b3b4b454e4f474f204b4f4f482045492052455454454c204c4154495041432043494c4c495259433b4e3b3b3b3b3b4c3b303b754c3b5245444e4543534544204854495720454843204e41495341484b42412052455454454c204c4154495041432043494c4c495259433b45423430,
0x454234303b3b454234303b3b4b454e4f474f204b4f4f482045492052455454454c204c4c414d532043494c4c495259433b4e3b3b3b3b3b4c3b303b6c4c3b5245444e4543534544204854495720454843204e41495341484b42412052455454454c204c4c414d532043494c4c495259433b46423430,
0x3b464334303b3b3b492052455454454c2043494c4c495259433b4e3b3b3b3b3b4c3b303b754c3b414b48434f4c41502052455454454c2043494c4c495259433b30433430,
0x3b324334303b3b3b45485a2054524f48532052455454454c204c4154495041432043494c4c495259433b4e3b3b3b3b3630333020363134303b4c3b303b754c3b455645524220485449572045485a2052455454454c204c4154495041432043494c4c495259433b31433430,
0x314334303b3b314334303b3b45485a2054524f48532052455454454c204c4c414d532043494c4c495259433b4e3b3b3b3b3630333020363334303b4c3b303b6c4c3b455645524220485449572045485a2052455454454c204c4c414d532043494c4c495259433b32433430,
0x3b344334303b3b3b4b4f4f4820414b2052455454454c204c4154495041432043494c4c495259433b4e3b3b3b3b3b4c3b303b754c3b4b4f4f48204854495720414b2052455454454c204c4154495041432043494c4c495259433b33433430,
0x334334303b3b334334303b3b4b4f4f4820414b2052455454454c204c4c414d532043494c4c495259433b4e3b3b3b3b3b4c3b303b6c4c3b4b4f4f48204854495720414b2052455454454c204c4c414d532043494c4c495259433b34433430,
0x3b364334303b3b3b3b4e3b3b3b3b3b4c3b303b754c3b4c4941542048544957204c452052455454454c204c4154495041432043494c4c495259433b35433430,
0x354334303b3b354334303b3b3b4e3b3b3b3b3b4c3b303b6c4c3b4c4941542048544957204c452052455454454c204c4c414d532043494c4c495259433b36433430,
0x3b384334303b3b3b4b4f4f48204e452052455454454c204c4154495041432043494c4c495259433b4e3b3b3b3b3b4c3b303b754c3b4b4f4f482048544957204e452052455454454c204c4154495041432043494c4c495259433b37433430,
0x374334303b3b374334303b3b4b4f4f48204e452052455454454c204c4c414d532043494c4c495259433b4e3b3b3b3b3b4c3b303b6c4c3b4b4f4f482048544957204e452052455454454c204c4c414d532043494c4c495259433b38433430,
0x3b414334303b3b3b3b4e3b3b3b3b3b4c3b303b754c3b4c4941542048544957204e452052455454454c204c4154495041432043494c4c495259433b39433430,
0x394334303b3b394334303b3b3b4e3b3b3b3b3b4c3b303b6c4c3b4c4941542048544957204e452052455454454c204c4c414d532043494c4c495259433b41433430,
0x3b434334303b3b3b5245444e4543534544205446454c2048544957204548432052455454454c204c4154495041432043494c4c495259433b4e3b3b3b3b3b4c3b303b754c3b454843204e41495353414b41484b2052455454454c204c4154495041432043494c4c495259433b42433430,
0x424334303b3b424334303b3b5245444e4543534544205446454c2048544957204548432052455454454c204c4c414d532043494c4c495259433b4e3b3b3b3b3b4c3b303b6c4c3b454843204e41495353414b41484b2052455454454c204c4c414d532043494c4c495259433b43433430,
0x3b454334303b3b3b3b4e3b3b3b3b3b4c3b303b754c3b4c4941542048544957204d452052455454454c204c4154495041432043494c4c495259433b44433430,
0x444334303b3b444334303b3b3b4e3b3b3b3b3b4c3b303b6c4c3b4c4941542048544957204d452052455454454c204c4c414d532043494c4c495259433b45433430,
0x304334303b3b304334303b3b3b4e3b3b3b3b3b4c3b303b6c4c3b414b48434f4c41502052455454454c204c4c414d532043494c4c495259433b46433430,
0x3b314434303b3b3b3b4e3b3b3b3b3630333020303134303b4c3b303b754c3b4556455242204854495720412052455454454c204c4154495041432043494c4c495259433b30443430,
0x304434303b3b304434303b3b3b4e3b3b3b3b3630333020303334303b4c3b303b6c4c3b4556455242204854495720412052455454454c204c4c414d532043494c4c495259433b31443430,
0x3b334434303b3b3b3b4e3b3b3b3b3830333020303134303b4c3b303b754c3b534953455245414944204854495720412052455454454c204c4154495041432043494c4c495259433b32443430,
0x324434303b3b324434303b3b3b4e3b3b3b3b3830333020303334303b4c3b303b6c4c3b534953455245414944204854495720412052455454454c204c4c414d532043494c4c495259433b33443430,
0x3b354434303b3b3b3b4e3b3b3b3b3b4c3b303b754c3b4549204120455255544147494c204c4154495041432043494c4c495259433b34443430,
0x344434303b3b344434303b3b3b4e3b3b3b3b3b4c3b303b6c4c3b4549204120455255544147494c204c4c414d532043494c4c495259433b35443430,
0x3b374434303b3b3b3b4e3b3b3b3b3630333020353134303b4c3b303b754c3b455645524220485449572045492052455454454c204c4154495041432043494c4c495259433b36443430,
0x364434303b3b364434303b3b3b4e3b3b3b3b3630333020353334303b4c3b303b6c4c3b455645524220485449572045492052455454454c204c4c414d532043494c4c495259433b37443430,
0x3b394434303b3b3b3b4e3b3b3b3b3b4c3b303b754c3b41574843532052455454454c204c4154495041432043494c4c495259433b38443430,
0x384434303b3b384434303b3b3b4e3b3b3b3b3b4c3b303b6c4c3b41574843532052455454454c204c4c414d532043494c4c495259433b39443430,
0x3b424434303b3b3b3b4e3b3b3b3b3830333020384434303b4c3b303b754c3b53495345524541494420485449572041574843532052455454454c204c4154495041432043494c4c495259433b41443430,
0x414434303b3b414434303b3b3b4e3b3b3b3b3830333020394434303b4c3b303b6c4c3b53495345524541494420485449572041574843532052455454454c204c4c414d532043494c4c495259433b42443430,
0x3b444434303b3b3b3b4e3b3b3b3b3830333020363134303b4c3b303b754c3b53495345524541494420485449572045485a2052455454454c204c4154495041432043494c4c495259433b43443430,
0x434434303b3b434434303b3b3b4e3b3b3b3b3830333020363334303b4c3b303b6c4c3b53495345524541494420485449572045485a2052455454454c204c4c414d532043494c4c495259433b44443430,
0x3b464434303b3b3b3b4e3b3b3b3b3830333020373134303b4c3b303b754c3b534953455245414944204854495720455a2052455454454c204c4154495041432043494c4c495259433b45443430,
0x454434303b3b454434303b3b3b4e3b3b3b3b3830333020373334303b4c3b303b6c4c3b534953455245414944204854495720455a2052455454454c204c4c414d532043494c4c495259433b46443430,
0x3b314534303b3b3b3b4e3b3b3b3b3b4c3b303b754c3b455a44204e41495341484b42412052455454454c204c4154495041432043494c4c495259433b30453430,
0x304534303b3b304534303b3b3b4e3b3b3b3b3b4c3b303b6c4c3b455a44204e41495341484b42412052455454454c204c4c414d532043494c4c495259433b31453430,
0x3b334534303b3b3b3b4e3b3b3b3b3430333020383134303b4c3b303b754c3b4e4f5243414d204854495720492052455454454c204c4154495041432043494c4c495259433b32453430,
0x324534303b3b324534303b3b3b4e3b3b3b3b3430333020383334303b4c3b303b6c4c3b4e4f5243414d204854495720492052455454454c204c4c414d532043494c4c495259433b33453430,
0x3b354534303b3b3b3b4e3b3b3b3b3830333020383134303b4c3b303b754c3b534953455245414944204854495720492052455454454c204c4154495041432043494c4c495259433b34453430,
0x344534303b3b344534303b3b3b4e3b3b3b3b3830333020383334303b4c3b303b6c4c3b534953455245414944204854495720492052455454454c204c4c414d532043494c4c495259433b35453430,
0x3b374534303b3b3b3b4e3b3b3b3b3830333020453134303b4c3b303b754c3b5349534552454149442048544957204f2052455454454c204c4154495041432043494c4c495259433b36453430,
0x364534303b3b364534303b3b3b4e3b3b3b3b3830333020453334303b4c3b303b6c4c3b5349534552454149442048544957204f2052455454454c204c4c414d532043494c4c495259433b37453430,
0x3b394534303b3b3b3b4e3b3b3b3b3b4c3b303b754c3b4f204445525241422052455454454c204c4154495041432043494c4c495259433b38453430,
0x384534303b3b384534303b3b3b4e3b3b3b3b3b4c3b303b6c4c3b4f204445525241422052455454454c204c4c414d532043494c4c495259433b39453430,
0x3b424534303b3b3b3b4e3b3b3b3b3830333020384534303b4c3b303b754c3b5349534552454149442048544957204f204445525241422052455454454c204c4154495041432043494c4c495259433b41453430,
0x414534303b3b414534303b3b3b4e3b3b3b3b3830333020394534303b4c3b303b6c4c3b5349534552454149442048544957204f204445525241422052455454454c204c4c414d532043494c4c495259433b42453430,
0x3b444534303b3b3b3b4e3b3b3b3b3830333020443234303b4c3b303b754c3b534953455245414944204854495720452052455454454c204c4154495041432043494c4c495259433b43453430,
0x434534303b3b434534303b3b3b4e3b3b3b3b3830333020443434303b4c3b303b6c4c3b534953455245414944204854495720452052455454454c204c4c414d532043494c4c495259433b44453430,
0x3b464534303b3b3b3b4e3b3b3b3b3430333020333234303b4c3b303b754c3b4e4f5243414d204854495720552052455454454c204c4154495041432043494c4c495259433b45453430,
0x454534303b3b454534303b3b3b4e3b3b3b3b3430333020333434303b4c3b303b6c4c3b4e4f5243414d204854495720552052455454454c204c4c414d532043494c4c495259433b46453430,
0x3b314634303b3b3b3b4e3b3b3b3b3830333020333234303b4c3b303b754c3b534953455245414944204854495720552052455454454c204c4154495041432043494c4c495259433b30463430,
0x304634303b3b304634303b3b3b4e3b3b3b3b3830333020333434303b4c3b303b6c4c3b534953455245414944204854495720552052455454454c204c4c414d532043494c4c495259433b31463430,
0x3b334634303b3b3b3b4e3b3b3b3b4230333020333234303b4c3b303b754c3b455455434120454c42554f44204854495720552052455454454c204c4154495041432043494c4c495259433b32463430,
0x324634303b3b324634303b3b3b4e3b3b3b3b4230333020333434303b4c3b303b6c4c3b455455434120454c42554f44204854495720552052455454454c204c4c414d532043494c4c495259433b33463430,
0x3b354634303b3b3b3b4e3b3b3b3b3830333020373234303b4c3b303b754c3b5349534552454149442048544957204548432052455454454c204c4154495041432043494c4c495259433b34463430,
0x344634303b3b344634303b3b3b4e3b3b3b3b3830333020373434303b4c3b303b6c4c3b5349534552454149442048544957204548432052455454454c204c4c414d532043494c4c495259433b35463430,
0x3b374634303b3b3b3b4e3b3b3b3b3b4c3b303b754c3b5245444e45435345442048544957204548472052455454454c204c4154495041432043494c4c495259433b36463430,
0x364634303b3b364634303b3b3b4e3b3b3b3b3b4c3b303b6c4c3b5245444e45435345442048544957204548472052455454454c204c4c414d532043494c4c495259433b37463430,
0x3b394634303b3b3b3b4e3b3b3b3b3830333020423234303b4c3b303b754c3b534953455245414944204854495720555245592052455454454c204c4154495041432043494c4c495259433b38463430,
0x384634303b3b384634303b3b3b4e3b3b3b3b3830333020423434303b4c3b303b6c4c3b534953455245414944204854495720555245592052455454454c204c4c414d532043494c4c495259433b39463430,
0x3b424634303b3b3b3b4e3b3b3b3b3b4c3b303b754c3b4b4f4f4820444e4120454b4f5254532048544957204548472052455454454c204c4154495041432043494c4c495259433b41463430,
0x414634303b3b414634303b3b3b4e3b3b3b3b3b4c3b303b6c4c3b4b4f4f4820444e4120454b4f5254532048544957204548472052455454454c204c4c414d532043494c4c495259433b42463430,
0x3b444634303b3b3b3b4e3b3b3b3b3b4c3b303b754c3b4b4f4f4820485449572041482052455454454c204c4154495041432043494c4c495259433b43463430,
0x434634303b3b434634303b3b3b4e3b3b3b3b3b4c3b303b6c4c3b4b4f4f4820485449572041482052455454454c204c4c414d532043494c4c495259433b44463430,
0x3b464634303b3b3b3b4e3b3b3b3b3b4c3b303b754c3b454b4f52545320485449572041482052455454454c204c4154495041432043494c4c495259433b45463430,
0x454634303b3b454634303b3b3b4e3b3b3b3b3b4c3b303b6c4c3b454b4f52545320485449572041482052455454454c204c4c414d532043494c4c495259433b46463430,
0x3b313035303b3b3b3b4e3b3b3b3b3b4c3b303b754c3b454420494d4f4b2052455454454c204c4154495041432043494c4c495259433b30303530,
0x303035303b3b303035303b3b3b4e3b3b3b3b3b4c3b303b6c4c3b454420494d4f4b2052455454454c204c4c414d532043494c4c495259433b31303530,
0x3b333035303b3b3b3b4e3b3b3b3b3b4c3b303b754c3b454a4420494d4f4b2052455454454c204c4154495041432043494c4c495259433b32303530,
0x323035303b3b323035303b3b3b4e3b3b3b3b3b4c3b303b6c4c3b454a4420494d4f4b2052455454454c204c4c414d532043494c4c495259433b33303530,
0x3b353035303b3b3b3b4e3b3b3b3b3b4c3b303b754c3b454a5a20494d4f4b2052455454454c204c4154495041432043494c4c495259433b34303530,
0x343035303b3b343035303b3b3b4e3b3b3b3b3b4c3b303b6c4c3b454a5a20494d4f4b2052455454454c204c4c414d532043494c4c495259433b35303530,
0x3b373035303b3b3b3b4e3b3b3b3b3b4c3b303b754c3b454a5a4420494d4f4b2052455454454c204c4154495041432043494c4c495259433b36303530,
0x363035303b3b363035303b3b3b4e3b3b3b3b3b4c3b303b6c4c3b454a5a4420494d4f4b2052455454454c204c4c414d532043494c4c495259433b37303530,
0x3b393035303b3b3b3b4e3b3b3b3b3b4c3b303b754c3b454a4c20494d4f4b2052455454454c204c4154495041432043494c4c495259433b38303530]

/-- src/u5e/props/UnicodeData.txt lines 1281-1536. -/
def rawUcd5 : List Nat := [
0x383035303b3b383035303b3b3b4e3b3b3b3b3b4c3b303b6c4c3b454a4c20494d4f4b2052455454454c204c4c414d532043494c4c495259433b39303530,
0x3b423035303b3b3b3b4e3b3b3b3b3b4c3b303b754c3b454a4e20494d4f4b2052455454454c204c4154495041432043494c4c495259433b41303530,
0x413035303b3b413035303b3b3b4e3b3b3b3b3b4c3b303b6c4c3b454a4e20494d4f4b2052455454454c204c4c414d532043494c4c495259433b42303530,
0x3b443035303b3b3b3b4e3b3b3b3b3b4c3b303b754c3b454a5320494d4f4b2052455454454c204c4154495041432043494c4c495259433b43303530,
0x433035303b3b433035303b3b3b4e3b3b3b3b3b4c3b303b6c4c3b454a5320494d4f4b2052455454454c204c4c414d532043494c4c495259433b44303530,
0x3b463035303b3b3b3b4e3b3b3b3b3b4c3b303b754c3b454a5420494d4f4b2052455454454c204c4154495041432043494c4c495259433b45303530,
0x453035303b3b453035303b3b3b4e3b3b3b3b3b4c3b303b6c4c3b454a5420494d4f4b2052455454454c204c4c414d532043494c4c495259433b46303530,
0x3b313135303b3b3b3b4e3b3b3b3b3b4c3b303b754c3b455a2044455352455645522052455454454c204c4154495041432043494c4c495259433b30313530,
0x303135303b3b303135303b3b3b4e3b3b3b3b3b4c3b303b6c4c3b455a2044455352455645522052455454454c204c4c414d532043494c4c495259433b31313530,
0x3b333135303b3b3b3b4e3b3b3b3b3b4c3b303b754c3b4b4f4f482048544957204c452052455454454c204c4154495041432043494c4c495259433b32313530,
0x323135303b3b323135303b3b3b4e3b3b3b3b3b4c3b303b6c4c3b4b4f4f482048544957204c452052455454454c204c4c414d532043494c4c495259433b33313530,
0x3b353135303b3b3b3b4e3b3b3b3b3b4c3b303b754c3b41484c2052455454454c204c4154495041432043494c4c495259433b34313530,
0x343135303b3b343135303b3b3b4e3b3b3b3b3b4c3b303b6c4c3b41484c2052455454454c204c4c414d532043494c4c495259433b35313530,
0x3b373135303b3b3b3b4e3b3b3b3b3b4c3b303b754c3b4148522052455454454c204c4154495041432043494c4c495259433b36313530,
0x363135303b3b363135303b3b3b4e3b3b3b3b3b4c3b303b6c4c3b4148522052455454454c204c4c414d532043494c4c495259433b37313530,
0x3b393135303b3b3b3b4e3b3b3b3b3b4c3b303b754c3b4541592052455454454c204c4154495041432043494c4c495259433b38313530,
0x383135303b3b383135303b3b3b4e3b3b3b3b3b4c3b303b6c4c3b4541592052455454454c204c4c414d532043494c4c495259433b39313530,
0x3b423135303b3b3b3b4e3b3b3b3b3b4c3b303b754c3b41512052455454454c204c4154495041432043494c4c495259433b41313530,
0x413135303b3b413135303b3b3b4e3b3b3b3b3b4c3b303b6c4c3b41512052455454454c204c4c414d532043494c4c495259433b42313530,
0x3b443135303b3b3b3b4e3b3b3b3b3b4c3b303b754c3b45572052455454454c204c4154495041432043494c4c495259433b43313530,
0x433135303b3b433135303b3b3b4e3b3b3b3b3b4c3b303b6c4c3b45572052455454454c204c4c414d532043494c4c495259433b44313530,
0x3b463135303b3b3b3b4e3b3b3b3b3b4c3b303b754c3b414b205455454c412052455454454c204c4154495041432043494c4c495259433b45313530,
0x453135303b3b453135303b3b3b4e3b3b3b3b3b4c3b303b6c4c3b414b205455454c412052455454454c204c4c414d532043494c4c495259433b46313530,
0x3b313235303b3b3b3b4e3b3b3b3b3b4c3b303b754c3b4b4f4f4820454c4444494d2048544957204c452052455454454c204c4154495041432043494c4c495259433b30323530,
0x303235303b3b303235303b3b3b4e3b3b3b3b3b4c3b303b6c4c3b4b4f4f4820454c4444494d2048544957204c452052455454454c204c4c414d532043494c4c495259433b31323530,
0x3b333235303b3b3b3b4e3b3b3b3b3b4c3b303b754c3b4b4f4f4820454c4444494d2048544957204e452052455454454c204c4154495041432043494c4c495259433b32323530,
0x323235303b3b323235303b3b3b4e3b3b3b3b3b4c3b303b6c4c3b4b4f4f4820454c4444494d2048544957204e452052455454454c204c4c414d532043494c4c495259433b33323530,
0x3b353235303b3b3b3b4e3b3b3b3b3b4c3b303b754c3b5245444e454353454420485449572045502052455454454c204c4154495041432043494c4c495259433b34323530,
0x343235303b3b343235303b3b3b4e3b3b3b3b3b4c3b303b6c4c3b5245444e454353454420485449572045502052455454454c204c4c414d532043494c4c495259433b35323530,
0x3b373235303b3b3b3b4e3b3b3b3b3b4c3b303b754c3b5245444e4543534544204854495720414848532052455454454c204c4154495041432043494c4c495259433b36323530,
0x363235303b3b363235303b3b3b4e3b3b3b3b3b4c3b303b6c4c3b5245444e4543534544204854495720414848532052455454454c204c4c414d532043494c4c495259433b37323530,
0x3b393235303b3b3b3b4e3b3b3b3b3b4c3b303b754c3b4b4f4f48205446454c2048544957204e452052455454454c204c4154495041432043494c4c495259433b38323530,
0x383235303b3b383235303b3b3b4e3b3b3b3b3b4c3b303b6c4c3b4b4f4f48205446454c2048544957204e452052455454454c204c4c414d532043494c4c495259433b39323530,
0x3b423235303b3b3b3b4e3b3b3b3b3b4c3b303b754c3b45485a5a442052455454454c204c4154495041432043494c4c495259433b41323530,
0x413235303b3b413235303b3b3b4e3b3b3b3b3b4c3b303b6c4c3b45485a5a442052455454454c204c4c414d532043494c4c495259433b42323530,
0x3b443235303b3b3b3b4e3b3b3b3b3b4c3b303b754c3b454843442052455454454c204c4154495041432043494c4c495259433b43323530,
0x433235303b3b433235303b3b3b4e3b3b3b3b3b4c3b303b6c4c3b454843442052455454454c204c4c414d532043494c4c495259433b44323530,
0x3b463235303b3b3b3b4e3b3b3b3b3b4c3b303b754c3b5245444e45435345442048544957204c452052455454454c204c4154495041432043494c4c495259433b45323530,
0x453235303b3b453235303b3b3b4e3b3b3b3b3b4c3b303b6c4c3b5245444e45435345442048544957204c452052455454454c204c4c414d532043494c4c495259433b46323530,
0x3b313635303b3b3b3b4e3b3b3b3b3b4c3b303b754c3b4259412052455454454c204c415449504143204e41494e454d52413b31333530,
0x3b323635303b3b3b3b4e3b3b3b3b3b4c3b303b754c3b4e45422052455454454c204c415449504143204e41494e454d52413b32333530,
0x3b333635303b3b3b3b4e3b3b3b3b3b4c3b303b754c3b4d49472052455454454c204c415449504143204e41494e454d52413b33333530,
0x3b343635303b3b3b3b4e3b3b3b3b3b4c3b303b754c3b41442052455454454c204c415449504143204e41494e454d52413b34333530,
0x3b353635303b3b3b3b4e3b3b3b3b3b4c3b303b754c3b4843452052455454454c204c415449504143204e41494e454d52413b35333530,
0x3b363635303b3b3b3b4e3b3b3b3b3b4c3b303b754c3b415a2052455454454c204c415449504143204e41494e454d52413b36333530,
0x3b373635303b3b3b3b4e3b3b3b3b3b4c3b303b754c3b48452052455454454c204c415449504143204e41494e454d52413b37333530,
0x3b383635303b3b3b3b4e3b3b3b3b3b4c3b303b754c3b54452052455454454c204c415449504143204e41494e454d52413b38333530,
0x3b393635303b3b3b3b4e3b3b3b3b3b4c3b303b754c3b4f542052455454454c204c415449504143204e41494e454d52413b39333530,
0x3b413635303b3b3b3b4e3b3b3b3b3b4c3b303b754c3b45485a2052455454454c204c415449504143204e41494e454d52413b41333530,
0x3b423635303b3b3b3b4e3b3b3b3b3b4c3b303b754c3b494e492052455454454c204c415449504143204e41494e454d52413b42333530,
0x3b433635303b3b3b3b4e3b3b3b3b3b4c3b303b754c3b4e57494c2052455454454c204c415449504143204e41494e454d52413b43333530,
0x3b443635303b3b3b3b4e3b3b3b3b3b4c3b303b754c3b4845582052455454454c204c415449504143204e41494e454d52413b44333530,
0x3b453635303b3b3b3b4e3b3b3b3b3b4c3b303b754c3b41432052455454454c204c415449504143204e41494e454d52413b45333530,
0x3b463635303b3b3b3b4e3b3b3b3b3b4c3b303b754c3b4e454b2052455454454c204c415449504143204e41494e454d52413b46333530,
0x3b303735303b3b3b3b4e3b3b3b3b3b4c3b303b754c3b4f482052455454454c204c415449504143204e41494e454d52413b30343530,
0x3b313735303b3b3b3b4e3b3b3b3b3b4c3b303b754c3b414a2052455454454c204c415449504143204e41494e454d52413b31343530,
0x3b323735303b3b3b44414c2052455454454c204c415449504143204e41494e454d52413b4e3b3b3b3b3b4c3b303b754c3b444148472052455454454c204c415449504143204e41494e454d52413b32343530,
0x3b333735303b3b3b3b4e3b3b3b3b3b4c3b303b754c3b484548432052455454454c204c415449504143204e41494e454d52413b33343530,
0x3b343735303b3b3b3b4e3b3b3b3b3b4c3b303b754c3b4e454d2052455454454c204c415449504143204e41494e454d52413b34343530,
0x3b353735303b3b3b3b4e3b3b3b3b3b4c3b303b754c3b49592052455454454c204c415449504143204e41494e454d52413b35343530,
0x3b363735303b3b3b3b4e3b3b3b3b3b4c3b303b754c3b574f4e2052455454454c204c415449504143204e41494e454d52413b36343530,
0x3b373735303b3b3b3b4e3b3b3b3b3b4c3b303b754c3b4148532052455454454c204c415449504143204e41494e454d52413b37343530,
0x3b383735303b3b3b3b4e3b3b3b3b3b4c3b303b754c3b4f562052455454454c204c415449504143204e41494e454d52413b38343530,
0x3b393735303b3b3b3b4e3b3b3b3b3b4c3b303b754c3b4148432052455454454c204c415449504143204e41494e454d52413b39343530,
0x3b413735303b3b3b3b4e3b3b3b3b3b4c3b303b754c3b4845502052455454454c204c415449504143204e41494e454d52413b41343530,
0x3b423735303b3b3b3b4e3b3b3b3b3b4c3b303b754c3b4845484a2052455454454c204c415449504143204e41494e454d52413b42343530,
0x3b433735303b3b3b3b4e3b3b3b3b3b4c3b303b754c3b41522052455454454c204c415449504143204e41494e454d52413b43343530,
0x3b443735303b3b3b3b4e3b3b3b3b3b4c3b303b754c3b4845532052455454454c204c415449504143204e41494e454d52413b44343530,
0x3b453735303b3b3b3b4e3b3b3b3b3b4c3b303b754c3b5745562052455454454c204c415449504143204e41494e454d52413b45343530,
0x3b463735303b3b3b3b4e3b3b3b3b3b4c3b303b754c3b4e5749542052455454454c204c415449504143204e41494e454d52413b46343530,
0x3b303835303b3b3b3b4e3b3b3b3b3b4c3b303b754c3b4845522052455454454c204c415449504143204e41494e454d52413b30353530,
0x3b313835303b3b3b3b4e3b3b3b3b3b4c3b303b754c3b4f432052455454454c204c415449504143204e41494e454d52413b31353530,
0x3b323835303b3b3b3b4e3b3b3b3b3b4c3b303b754c3b4e5749592052455454454c204c415449504143204e41494e454d52413b32353530,
0x3b333835303b3b3b3b4e3b3b3b3b3b4c3b303b754c3b525749502052455454454c204c415449504143204e41494e454d52413b33353530,
0x3b343835303b3b3b3b4e3b3b3b3b3b4c3b303b754c3b48454b2052455454454c204c415449504143204e41494e454d52413b34353530,
0x3b353835303b3b3b3b4e3b3b3b3b3b4c3b303b754c3b484f2052455454454c204c415449504143204e41494e454d52413b35353530,
0x3b363835303b3b3b3b4e3b3b3b3b3b4c3b303b754c3b4845462052455454454c204c415449504143204e41494e454d52413b36353530,
0x3b3b3b3b3b4e3b3b3b3b3b4c3b303b6d4c3b474e495220464c4148205446454c2052455454454c205245494649444f4d204e41494e454d52413b39353530,
0x3b3b3b3b474e495220464c41482054484749522052455454454c205245494649444f4d204e41494e454d52413b4e3b3b3b3b3b4c3b303b6f503b4548504f5254534f5041204e41494e454d52413b41353530,
0x3b3b3b3b3b4e3b3b3b3b3b4c3b303b6f503b4b52414d205349534148504d45204e41494e454d52413b42353530,
0x3b3b3b3b3b4e3b3b3b3b3b4c3b303b6f503b4b52414d204e4f4954414d414c435845204e41494e454d52413b43353530,
0x3b3b3b3b3b4e3b3b3b3b3b4c3b303b6f503b414d4d4f43204e41494e454d52413b44353530,
0x3b3b3b3b3b4e3b3b3b3b3b4c3b303b6f503b4b52414d204e4f495453455551204e41494e454d52413b45353530,
0x3b3b3b3b3b4e3b3b3b3b3b4c3b303b6f503b4b52414d204e4f49544149564552424241204e41494e454d52413b46353530,
0x313335303b3b313335303b3b3b4e3b3b3b3b3b4c3b303b6c4c3b4259412052455454454c204c4c414d53204e41494e454d52413b31363530,
0x323335303b3b323335303b3b3b4e3b3b3b3b3b4c3b303b6c4c3b4e45422052455454454c204c4c414d53204e41494e454d52413b32363530,
0x333335303b3b333335303b3b3b4e3b3b3b3b3b4c3b303b6c4c3b4d49472052455454454c204c4c414d53204e41494e454d52413b33363530,
0x343335303b3b343335303b3b3b4e3b3b3b3b3b4c3b303b6c4c3b41442052455454454c204c4c414d53204e41494e454d52413b34363530,
0x353335303b3b353335303b3b3b4e3b3b3b3b3b4c3b303b6c4c3b4843452052455454454c204c4c414d53204e41494e454d52413b35363530,
0x363335303b3b363335303b3b3b4e3b3b3b3b3b4c3b303b6c4c3b415a2052455454454c204c4c414d53204e41494e454d52413b36363530,
0x373335303b3b373335303b3b3b4e3b3b3b3b3b4c3b303b6c4c3b48452052455454454c204c4c414d53204e41494e454d52413b37363530,
0x383335303b3b383335303b3b3b4e3b3b3b3b3b4c3b303b6c4c3b54452052455454454c204c4c414d53204e41494e454d52413b38363530,
0x393335303b3b393335303b3b3b4e3b3b3b3b3b4c3b303b6c4c3b4f542052455454454c204c4c414d53204e41494e454d52413b39363530,
0x413335303b3b413335303b3b3b4e3b3b3b3b3b4c3b303b6c4c3b45485a2052455454454c204c4c414d53204e41494e454d52413b41363530,
0x423335303b3b423335303b3b3b4e3b3b3b3b3b4c3b303b6c4c3b494e492052455454454c204c4c414d53204e41494e454d52413b42363530,
0x433335303b3b433335303b3b3b4e3b3b3b3b3b4c3b303b6c4c3b4e57494c2052455454454c204c4c414d53204e41494e454d52413b43363530,
0x443335303b3b443335303b3b3b4e3b3b3b3b3b4c3b303b6c4c3b4845582052455454454c204c4c414d53204e41494e454d52413b44363530,
0x453335303b3b453335303b3b3b4e3b3b3b3b3b4c3b303b6c4c3b41432052455454454c204c4c414d53204e41494e454d52413b45363530,
0x463335303b3b463335303b3b3b4e3b3b3b3b3b4c3b303b6c4c3b4e454b2052455454454c204c4c414d53204e41494e454d52413b46363530,
0x303435303b3b303435303b3b3b4e3b3b3b3b3b4c3b303b6c4c3b4f482052455454454c204c4c414d53204e41494e454d52413b30373530,
0x313435303b3b313435303b3b3b4e3b3b3b3b3b4c3b303b6c4c3b414a2052455454454c204c4c414d53204e41494e454d52413b31373530,
0x323435303b3b323435303b3b44414c2052455454454c204c4c414d53204e41494e454d52413b4e3b3b3b3b3b4c3b303b6c4c3b444148472052455454454c204c4c414d53204e41494e454d52413b32373530,
0x333435303b3b333435303b3b3b4e3b3b3b3b3b4c3b303b6c4c3b484548432052455454454c204c4c414d53204e41494e454d52413b33373530,
0x343435303b3b343435303b3b3b4e3b3b3b3b3b4c3b303b6c4c3b4e454d2052455454454c204c4c414d53204e41494e454d52413b34373530,
0x353435303b3b353435303b3b3b4e3b3b3b3b3b4c3b303b6c4c3b49592052455454454c204c4c414d53204e41494e454d52413b35373530,
0x363435303b3b363435303b3b3b4e3b3b3b3b3b4c3b303b6c4c3b574f4e2052455454454c204c4c414d53204e41494e454d52413b36373530,
0x373435303b3b373435303b3b3b4e3b3b3b3b3b4c3b303b6c4c3b4148532052455454454c204c4c414d53204e41494e454d52413b37373530,
0x383435303b3b383435303b3b3b4e3b3b3b3b3b4c3b303b6c4c3b4f562052455454454c204c4c414d53204e41494e454d52413b38373530,
0x393435303b3b393435303b3b3b4e3b3b3b3b3b4c3b303b6c4c3b4148432052455454454c204c4c414d53204e41494e454d52413b39373530,
0x413435303b3b413435303b3b3b4e3b3b3b3b3b4c3b303b6c4c3b4845502052455454454c204c4c414d53204e41494e454d52413b41373530,
0x423435303b3b423435303b3b3b4e3b3b3b3b3b4c3b303b6c4c3b4845484a2052455454454c204c4c414d53204e41494e454d52413b42373530,
0x433435303b3b433435303b3b3b4e3b3b3b3b3b4c3b303b6c4c3b41522052455454454c204c4c414d53204e41494e454d52413b43373530,
0x443435303b3b443435303b3b3b4e3b3b3b3b3b4c3b303b6c4c3b4845532052455454454c204c4c414d53204e41494e454d52413b44373530,
0x453435303b3b453435303b3b3b4e3b3b3b3b3b4c3b303b6c4c3b5745562052455454454c204c4c414d53204e41494e454d52413b45373530,
0x463435303b3b463435303b3b3b4e3b3b3b3b3b4c3b303b6c4c3b4e5749542052455454454c204c4c414d53204e41494e454d52413b46373530,
0x303535303b3b303535303b3b3b4e3b3b3b3b3b4c3b303b6c4c3b4845522052455454454c204c4c414d53204e41494e454d52413b30383530,
0x313535303b3b313535303b3b3b4e3b3b3b3b3b4c3b303b6c4c3b4f432052455454454c204c4c414d53204e41494e454d52413b31383530,
0x323535303b3b323535303b3b3b4e3b3b3b3b3b4c3b303b6c4c3b4e5749592052455454454c204c4c414d53204e41494e454d52413b32383530,
0x333535303b3b333535303b3b3b4e3b3b3b3b3b4c3b303b6c4c3b525749502052455454454c204c4c414d53204e41494e454d52413b33383530,
0x343535303b3b343535303b3b3b4e3b3b3b3b3b4c3b303b6c4c3b48454b2052455454454c204c4c414d53204e41494e454d52413b34383530,
0x353535303b3b353535303b3b3b4e3b3b3b3b3b4c3b303b6c4c3b484f2052455454454c204c4c414d53204e41494e454d52413b35383530,
0x363535303b3b363535303b3b3b4e3b3b3b3b3b4c3b303b6c4c3b4845462052455454454c204c4c414d53204e41494e454d52413b36383530,
0x3b3b3b3b3b4e3b3b3b3b323835302035363530203e7461706d6f633c3b4c3b303b6c4c3b4e5749592048434520455255544147494c204c4c414d53204e41494e454d52413b37383530,
0x3b3b3b3b444f49524550204e41494e454d52413b4e3b3b3b3b3b4c3b303b6f503b504f5453204c4c5546204e41494e454d52413b39383530,
0x3b3b3b3b3b4e3b3b3b3b3b4e4f3b303b64503b4e4548505948204e41494e454d52413b41383530,
0x3b3b3b3b3b4e3b3b3b3b3b4e4f3b303b6f533b4e474953205954494e52455445204e41494e454d524120474e494341462d54484749523b44383530,
0x3b3b3b3b3b4e3b3b3b3b3b4e4f3b303b6f533b4e474953205954494e52455445204e41494e454d524120474e494341462d5446454c3b45383530,
0x3b3b3b3b3b4e3b3b3b3b3b54453b303b63533b4e474953204d415244204e41494e454d52413b46383530,
0x3b3b3b3b3b4e3b3b3b3b3b4d534e3b3032323b6e4d3b415448414e544520544e45434341205745524245483b31393530,
0x3b3b3b3b3b4e3b3b3b3b3b4d534e3b3033323b6e4d3b4c4f47455320544e45434341205745524245483b32393530,
0x3b3b3b3b3b4e3b3b3b3b3b4d534e3b3033323b6e4d3b54454c4548534c41485320544e45434341205745524245483b33393530,
0x3b3b3b3b3b4e3b3b3b3b3b4d534e3b3033323b6e4d3b4e4154415120464551415a20544e45434341205745524245483b34393530,
0x3b3b3b3b3b4e3b3b3b3b3b4d534e3b3033323b6e4d3b4c4f44414720464551415a20544e45434341205745524245483b35393530,
0x3b3b3b3b3b4e3b3b3b3b3b4d534e3b3032323b6e4d3b41484550495420544e45434341205745524245483b36393530,
0x3b3b3b3b3b4e3b3b3b3b3b4d534e3b3033323b6e4d3b414956455220544e45434341205745524245483b37393530,
0x3b3b3b3b3b4e3b3b3b3b3b4d534e3b3033323b6e4d3b415152415a20544e45434341205745524245483b38393530,
0x3b3b3b3b3b4e3b3b3b3b3b4d534e3b3033323b6e4d3b41544853415020544e45434341205745524245483b39393530,
0x3b3b3b3b3b4e3b3b3b3b3b4d534e3b3232323b6e4d3b564954455920544e45434341205745524245483b41393530,
0x3b3b3b3b3b4e3b3b3b3b3b4d534e3b3032323b6e4d3b524956455420544e45434341205745524245483b42393530,
0x3b3b3b3b3b4e3b3b3b3b3b4d534e3b3033323b6e4d3b48534552454720544e45434341205745524245483b43393530,
0x3b3b3b3b3b4e3b3b3b3b3b4d534e3b3033323b6e4d3b4d414451554d2048534552454720544e45434341205745524245483b44393530,
0x3b3b3b3b3b4e3b3b3b3b3b4d534e3b3033323b6e4d3b4d495941485352454720544e45434341205745524245483b45393530,
0x3b3b3b3b3b4e3b3b3b3b3b4d534e3b3033323b6e4d3b415241502059454e52415120544e45434341205745524245483b46393530,
0x3b3b3b3b3b4e3b3b3b3b3b4d534e3b3033323b6e4d3b414c4f44454720414853494c455420544e45434341205745524245483b30413530,
0x3b3b3b3b3b4e3b3b3b3b3b4d534e3b3033323b6e4d3b52455a415020544e45434341205745524245483b31413530,
0x3b3b3b3b3b4e3b3b3b3b3b4d534e3b3032323b6e4d3b484b554641482048414e544120544e45434341205745524245483b32413530,
0x3b3b3b3b3b4e3b3b3b3b3b4d534e3b3032323b6e4d3b48414e554d20544e45434341205745524245483b33413530,
0x3b3b3b3b3b4e3b3b3b3b3b4d534e3b3032323b6e4d3b484b41504148414d20544e45434341205745524245483b34413530,
0x3b3b3b3b3b4e3b3b3b3b3b4d534e3b3032323b6e4d3b41484b52454d20544e45434341205745524245483b35413530,
0x3b3b3b3b3b4e3b3b3b3b3b4d534e3b3032323b6e4d3b414c5546454b2041484b52454d20544e45434341205745524245483b36413530,
0x3b3b3b3b3b4e3b3b3b3b3b4d534e3b3032323b6e4d3b414752414420544e45434341205745524245483b37413530,
0x3b3b3b3b3b4e3b3b3b3b3b4d534e3b3033323b6e4d3b414d44415120544e45434341205745524245483b38413530,
0x3b3b3b3b3b4e3b3b3b3b3b4d534e3b3033323b6e4d3b414e4154455120414853494c455420544e45434341205745524245483b39413530,
0x3b3b3b3b3b4e3b3b3b3b3b4d534e3b3032323b6e4d3b4f4d4f59204e454220484152455920544e45434341205745524245483b41413530,
0x3b3b3b3b3b4e3b3b3b3b3b4d534e3b3033323b6e4d3b454c4f20544e45434341205745524245483b42413530,
0x3b3b3b3b3b4e3b3b3b3b3b4d534e3b3033323b6e4d3b59554c4920544e45434341205745524245483b43413530,
0x3b3b3b3b3b4e3b3b3b3b3b4d534e3b3232323b6e4d3b4948454420544e45434341205745524245483b44413530,
0x3b3b3b3b3b4e3b3b3b3b3b4d534e3b3832323b6e4d3b524f4e495a20544e45434341205745524245483b45413530,
0x3b3b3b3b3b4e3b3b3b3b3b4d534e3b3033323b6e4d3b454c435249432041524f53414d204b52414d205745524245483b46413530,
0x3b3b3b3b3b4e3b3b3b3b3b4d534e3b30313b6e4d3b415645485320544e494f50205745524245483b30423530,
0x3b3b3b3b3b4e3b3b3b3b3b4d534e3b31313b6e4d3b4c4f47455320464154414820544e494f50205745524245483b31423530,
0x3b3b3b3b3b4e3b3b3b3b3b4d534e3b32313b6e4d3b484154415020464154414820544e494f50205745524245483b32423530,
0x3b3b3b3b3b4e3b3b3b3b3b4d534e3b33313b6e4d3b5354414d415120464154414820544e494f50205745524245483b33423530,
0x3b3b3b3b3b4e3b3b3b3b3b4d534e3b34313b6e4d3b514952494820544e494f50205745524245483b34423530,
0x3b3b3b3b3b4e3b3b3b3b3b4d534e3b35313b6e4d3b455245535420544e494f50205745524245483b35423530,
0x3b3b3b3b3b4e3b3b3b3b3b4d534e3b36313b6e4d3b4c4f47455320544e494f50205745524245483b36423530,
0x3b3b3b3b3b4e3b3b3b3b3b4d534e3b37313b6e4d3b484154415020544e494f50205745524245483b37423530,
0x3b3b3b3b3b4e3b3b3b3b3b4d534e3b38313b6e4d3b5354414d415120544e494f50205745524245483b38423530,
0x3b3b3b3b3b4e3b3b3b3b3b4d534e3b39313b6e4d3b4d414c4f4820544e494f50205745524245483b39423530,
0x3b3b3b3b3b4e3b3b3b3b3b4d534e3b39313b6e4d3b56415620524f46205245534148204d414c4f4820544e494f50205745524245483b41423530,
0x3b3b3b3b3b4e3b3b3b3b3b4d534e3b30323b6e4d3b53545542555120544e494f50205745524245483b42423530,
0x3b3b3b3b48534547414420544e494f50205745524245483b4e3b3b3b3b3b4d534e3b31323b6e4d3b514950414d20524f2048534547414420544e494f50205745524245483b43423530,
0x3b3b3b3b3b4e3b3b3b3b3b4d534e3b32323b6e4d3b474554454d20544e494f50205745524245483b44423530,
0x3b3b3b3b3b4e3b3b3b3b3b523b303b64503b464151414d204e4f4954415554434e5550205745524245483b45423530,
0x3b3b3b3b3b4e3b3b3b3b3b4d534e3b33323b6e4d3b4546415220544e494f50205745524245483b46423530,
0x3b3b3b3b514553415020544e494f50205745524245483b4e3b3b3b3b3b523b303b6f503b5145534150204e4f4954415554434e5550205745524245483b30433530,
0x3b3b3b3b3b4e3b3b3b3b3b4d534e3b34323b6e4d3b544f44204e49485320544e494f50205745524245483b31433530,
0x3b3b3b3b3b4e3b3b3b3b3b4d534e3b35323b6e4d3b544f44204e495320544e494f50205745524245483b32433530,
0x3b3b3b3b3b4e3b3b3b3b3b523b303b6f503b515553415020464f53204e4f4954415554434e5550205745524245483b33433530,
0x3b3b3b3b3b4e3b3b3b3b3b4d534e3b3033323b6e4d3b544f44205245505055204b52414d205745524245483b34433530,
0x3b3b3b3b3b4e3b3b3b3b3b4d534e3b3032323b6e4d3b544f44205245574f4c204b52414d205745524245483b35433530,
0x3b3b3b3b3b4e3b3b3b3b3b523b303b6f503b41484b55464148204e554e204e4f4954415554434e5550205745524245483b36433530,
0x3b3b3b3b3b4e3b3b3b3b3b4d534e3b38313b6e4d3b4e41544151205354414d415120544e494f50205745524245483b37433530,
0x3b3b3b3b3b4e3b3b3b3b3b523b303b6f4c3b46454c412052455454454c205745524245483b30443530,
0x3b3b3b3b3b4e3b3b3b3b3b523b303b6f4c3b5445422052455454454c205745524245483b31443530,
0x3b3b3b3b3b4e3b3b3b3b3b523b303b6f4c3b4c454d49472052455454454c205745524245483b32443530,
0x3b3b3b3b3b4e3b3b3b3b3b523b303b6f4c3b54454c41442052455454454c205745524245483b33443530,
0x3b3b3b3b3b4e3b3b3b3b3b523b303b6f4c3b45482052455454454c205745524245483b34443530,
0x3b3b3b3b3b4e3b3b3b3b3b523b303b6f4c3b5641562052455454454c205745524245483b35443530,
0x3b3b3b3b3b4e3b3b3b3b3b523b303b6f4c3b4e4959415a2052455454454c205745524245483b36443530,
0x3b3b3b3b3b4e3b3b3b3b3b523b303b6f4c3b5445482052455454454c205745524245483b37443530,
0x3b3b3b3b3b4e3b3b3b3b3b523b303b6f4c3b5445542052455454454c205745524245483b38443530,
0x3b3b3b3b3b4e3b3b3b3b3b523b303b6f4c3b444f592052455454454c205745524245483b39443530,
0x3b3b3b3b3b4e3b3b3b3b3b523b303b6f4c3b46414b204c414e49462052455454454c205745524245483b41443530,
0x3b3b3b3b3b4e3b3b3b3b3b523b303b6f4c3b46414b2052455454454c205745524245483b42443530,
0x3b3b3b3b3b4e3b3b3b3b3b523b303b6f4c3b44454d414c2052455454454c205745524245483b43443530,
0x3b3b3b3b3b4e3b3b3b3b3b523b303b6f4c3b4d454d204c414e49462052455454454c205745524245483b44443530,
0x3b3b3b3b3b4e3b3b3b3b3b523b303b6f4c3b4d454d2052455454454c205745524245483b45443530,
0x3b3b3b3b3b4e3b3b3b3b3b523b303b6f4c3b4e554e204c414e49462052455454454c205745524245483b46443530,
0x3b3b3b3b3b4e3b3b3b3b3b523b303b6f4c3b4e554e2052455454454c205745524245483b30453530,
0x3b3b3b3b3b4e3b3b3b3b3b523b303b6f4c3b484b454d41532052455454454c205745524245483b31453530,
0x3b3b3b3b3b4e3b3b3b3b3b523b303b6f4c3b4e4959412052455454454c205745524245483b32453530,
0x3b3b3b3b3b4e3b3b3b3b3b523b303b6f4c3b4550204c414e49462052455454454c205745524245483b33453530,
0x3b3b3b3b3b4e3b3b3b3b3b523b303b6f4c3b45502052455454454c205745524245483b34453530,
0x3b3b3b3b3b4e3b3b3b3b3b523b303b6f4c3b4944415354204c414e49462052455454454c205745524245483b35453530,
0x3b3b3b3b3b4e3b3b3b3b3b523b303b6f4c3b49444153542052455454454c205745524245483b36453530,
0x3b3b3b3b3b4e3b3b3b3b3b523b303b6f4c3b464f512052455454454c205745524245483b37453530,
0x3b3b3b3b3b4e3b3b3b3b3b523b303b6f4c3b485345522052455454454c205745524245483b38453530,
0x3b3b3b3b3b4e3b3b3b3b3b523b303b6f4c3b4e4948532052455454454c205745524245483b39453530,
0x3b3b3b3b3b4e3b3b3b3b3b523b303b6f4c3b5641542052455454454c205745524245483b41453530,
0x3b3b3b3b56415620454c42554f442052455454454c205745524245483b4e3b3b3b3b3b523b303b6f4c3b56415620454c42554f44204853494444495920455255544147494c205745524245483b30463530,
0x3b3b3b3b444f59205641562052455454454c205745524245483b4e3b3b3b3b3b523b303b6f4c3b444f5920564156204853494444495920455255544147494c205745524245483b31463530,
0x3b3b3b3b444f5920454c42554f442052455454454c205745524245483b4e3b3b3b3b3b523b303b6f4c3b444f5920454c42554f44204853494444495920455255544147494c205745524245483b32463530,
0x3b3b3b3b3b4e3b3b3b3b3b523b303b6f503b485345524547204e4f4954415554434e5550205745524245483b33463530,
0x3b3b3b3b3b4e3b3b3b3b3b523b303b6f503b4d4959414853524547204e4f4954415554434e5550205745524245483b34463530,
0x3b3b3b3b3b4e3b3b3b3b3b4e413b303b66433b4e474953205245424d554e204349424152413b30303630,
0x3b3b3b3b3b4e3b3b3b3b3b4e413b303b66433b48414e4153204e474953204349424152413b31303630,
0x3b3b3b3b3b4e3b3b3b3b3b4e413b303b66433b52454b52414d2045544f4e544f4f46204349424152413b32303630,
0x3b3b3b3b3b4e3b3b3b3b3b4e413b303b66433b4148464153204e474953204349424152413b33303630,
0x3b3b3b3b3b4e3b3b3b3b3b4e413b303b66433b5441564d4153204e474953204349424152413b34303630,
0x3b3b3b3b3b4e3b3b3b3b3b4e413b303b66433b45564f4241204b52414d205245424d554e204349424152413b35303630,
0x3b3b3b3b3b4e3b3b3b3b3b4e4f3b303b6d533b544f4f522045425543204349444e492d4349424152413b36303630,
0x3b3b3b3b3b4e3b3b3b3b3b4e4f3b303b6d533b544f4f5220485452554f46204349444e492d4349424152413b37303630,
0x3b3b3b3b3b4e3b3b3b3b3b4c413b303b6d533b594152204349424152413b38303630,
0x3b3b3b3b3b4e3b3b3b3b3b54453b303b6f503b4e47495320454c4c494d20524550204349444e492d4349424152413b39303630,
0x3b3b3b3b3b4e3b3b3b3b3b54453b303b6f503b4e47495320444e4153554f4854204e455420524550204349444e492d4349424152413b41303630,
0x3b3b3b3b3b4e3b3b3b3b3b4c413b303b63533b4e47495320494e41484746413b42303630,
0x3b3b3b3b3b4e3b3b3b3b3b53433b303b6f503b414d4d4f43204349424152413b43303630,
0x3b3b3b3b3b4e3b3b3b3b3b4c413b303b6f503b524f544152415045532045544144204349424152413b44303630,
0x3b3b3b3b3b4e3b3b3b3b3b4e4f3b303b6f533b4e47495320455352455620434954454f50204349424152413b45303630,
0x3b3b3b3b3b4e3b3b3b3b3b4e4f3b303b6f533b415253494d204e474953204349424152413b46303630,
0x3b3b3b3b3b4e3b3b3b3b3b4d534e3b3033323b6e4d3b4d414c4c415353415720454859414c4120554f48414c4c414c4c4153204e474953204349424152413b30313630,
0x3b3b3b3b3b4e3b3b3b3b3b4d534e3b3033323b6e4d3b4d414c4c4153534120454859414c41204e474953204349424152413b31313630,
0x3b3b3b3b3b4e3b3b3b3b3b4d534e3b3033323b6e4d3b454859414c412048414c4c5554414d484152204e474953204349424152413b32313630,
0x3b3b3b3b3b4e3b3b3b3b3b4d534e3b3033323b6e4d3b55484e4120554f48414c4c412049444152204e474953204349424152413b33313630,
0x3b3b3b3b3b4e3b3b3b3b3b4d534e3b3033323b6e4d3b53554c4c41484b4154204e474953204349424152413b34313630,
0x3b3b3b3b3b4e3b3b3b3b3b4d534e3b3033323b6e4d3b4841542048474948204c4c414d53204349424152413b35313630,
0x3b3b3b3b3b4e3b3b3b3b3b4d534e3b3033323b6e4d3b4845592048544957204d414c20485449572046454c4120455255544147494c2048474948204c4c414d53204349424152413b36313630,
0x3b3b3b3b3b4e3b3b3b3b3b4d534e3b3033323b6e4d3b4e49415a2048474948204c4c414d53204349424152413b37313630,
0x3b3b3b3b3b4e3b3b3b3b3b4d534e3b30333b6e4d3b4148544146204c4c414d53204349424152413b38313630,
0x3b3b3b3b3b4e3b3b3b3b3b4d534e3b31333b6e4d3b414d4d4144204c4c414d53204349424152413b39313630,
0x3b3b3b3b3b4e3b3b3b3b3b4d534e3b32333b6e4d3b415253414b204c4c414d53204349424152413b41313630,
0x3b3b3b3b3b4e3b3b3b3b3b4c413b303b6f503b4e4f4c4f43494d4553204349424152413b42313630,
0x3b3b3b3b3b4e3b3b3b3b3b4c413b303b66433b4b52414d2052455454454c204349424152413b43313630,
0x3b3b3b3b3b4e3b3b3b3b3b4c413b303b6f503b4b52414d204e4f4954415554434e555020544f4420454c50495254204349424152413b45313630,
0x3b3b3b3b3b4e3b3b3b3b3b4c413b303b6f503b4b52414d204e4f495453455551204349424152413b46313630,
0x3b3b3b3b3b4e3b3b3b3b3b4c413b303b6f4c3b484559204952494d4853414b2052455454454c204349424152413b30323630,
0x3b3b3b3b48415a4d41482052455454454c204349424152413b4e3b3b3b3b3b4c413b303b6f4c3b415a4d41482052455454454c204349424152413b31323630,
0x3b3b3b3b46454c41204e4f2048414444414d2052455454454c204349424152413b4e3b3b3b3b3335363020373236303b4c413b303b6f4c3b45564f424120414444414d20485449572046454c412052455454454c204349424152413b32323630,
0x3b3b3b3b46454c41204e4f2048415a4d41482052455454454c204349424152413b4e3b3b3b3b3435363020373236303b4c413b303b6f4c3b45564f424120415a4d414820485449572046454c412052455454454c204349424152413b33323630,
0x3b3b3b3b574157204e4f2048415a4d41482052455454454c204349424152413b4e3b3b3b3b3435363020383436303b4c413b303b6f4c3b45564f424120415a4d41482048544957205741572052455454454c204349424152413b34323630,
0x3b3b3b3b46454c41205245444e552048415a4d41482052455454454c204349424152413b4e3b3b3b3b3535363020373236303b4c413b303b6f4c3b574f4c454220415a4d414820485449572046454c412052455454454c204349424152413b35323630,
0x3b3b3b3b4159204e4f2048415a4d41482052455454454c204349424152413b4e3b3b3b3b3435363020413436303b4c413b303b6f4c3b45564f424120415a4d41482048544957204845592052455454454c204349424152413b36323630,
0x3b3b3b3b3b4e3b3b3b3b3b4c413b303b6f4c3b46454c412052455454454c204349424152413b37323630,
0x3b3b3b3b4141422052455454454c204349424152413b4e3b3b3b3b3b4c413b303b6f4c3b4845422052455454454c204349424152413b38323630,
0x3b3b3b3b484154554252414d204141542052455454454c204349424152413b4e3b3b3b3b3b4c413b303b6f4c3b4154554252414d204845542052455454454c204349424152413b39323630]

/-- src/u5e/props/UnicodeData.txt lines 1537-1792. -/
def rawUcd6 : List Nat := [
0x3b3b3b3b4141542052455454454c204349424152413b4e3b3b3b3b3b4c413b303b6f4c3b4845542052455454454c204349424152413b41323630,
0x3b3b3b3b414148542052455454454c204349424152413b4e3b3b3b3b3b4c413b303b6f4c3b484548542052455454454c204349424152413b42323630,
0x3b3b3b3b3b4e3b3b3b3b3b4c413b303b6f4c3b4d45454a2052455454454c204349424152413b43323630,
0x3b3b3b3b4141482052455454454c204349424152413b4e3b3b3b3b3b4c413b303b6f4c3b4841482052455454454c204349424152413b44323630,
0x3b3b3b3b4141484b2052455454454c204349424152413b4e3b3b3b3b3b4c413b303b6f4c3b4841484b2052455454454c204349424152413b45323630,
0x3b3b3b3b3b4e3b3b3b3b3b4c413b303b6f4c3b4c41442052455454454c204349424152413b46323630,
0x3b3b3b3b3b4e3b3b3b3b3b4c413b303b6f4c3b4c4148542052455454454c204349424152413b30333630,
0x3b3b3b3b41522052455454454c204349424152413b4e3b3b3b3b3b4c413b303b6f4c3b4845522052455454454c204349424152413b31333630,
0x3b3b3b3b3b4e3b3b3b3b3b4c413b303b6f4c3b4e49415a2052455454454c204349424152413b32333630,
0x3b3b3b3b3b4e3b3b3b3b3b4c413b303b6f4c3b4e4545532052455454454c204349424152413b33333630,
0x3b3b3b3b3b4e3b3b3b3b3b4c413b303b6f4c3b4e454548532052455454454c204349424152413b34333630,
0x3b3b3b3b3b4e3b3b3b3b3b4c413b303b6f4c3b4441532052455454454c204349424152413b35333630,
0x3b3b3b3b3b4e3b3b3b3b3b4c413b303b6f4c3b4441442052455454454c204349424152413b36333630,
0x3b3b3b3b3b4e3b3b3b3b3b4c413b303b6f4c3b4841542052455454454c204349424152413b37333630,
0x3b3b3b3b484148442052455454454c204349424152413b4e3b3b3b3b3b4c413b303b6f4c3b48415a2052455454454c204349424152413b38333630,
0x3b3b3b3b3b4e3b3b3b3b3b4c413b303b6f4c3b4e49412052455454454c204349424152413b39333630,
0x3b3b3b3b3b4e3b3b3b3b3b4c413b303b6f4c3b4e494148472052455454454c204349424152413b41333630,
0x3b3b3b3b3b4e3b3b3b3b3b4c413b303b6f4c3b45564f42412053544f44204f5754204854495720484548454b2052455454454c204349424152413b42333630,
0x3b3b3b3b3b4e3b3b3b3b3b4c413b303b6f4c3b574f4c45422053544f44204545524854204854495720484548454b2052455454454c204349424152413b43333630,
0x3b3b3b3b3b4e3b3b3b3b3b4c413b303b6f4c3b56204445545245564e492048544957204845592049535241462052455454454c204349424152413b44333630,
0x3b3b3b3b3b4e3b3b3b3b3b4c413b303b6f4c3b45564f42412053544f44204f57542048544957204845592049535241462052455454454c204349424152413b45333630,
0x3b3b3b3b3b4e3b3b3b3b3b4c413b303b6f4c3b45564f42412053544f442045455248542048544957204845592049535241462052455454454c204349424152413b46333630,
0x3b3b3b3b3b4e3b3b3b3b3b4c413b303b6d4c3b4c454557544154204349424152413b30343630,
0x3b3b3b3b41462052455454454c204349424152413b4e3b3b3b3b3b4c413b303b6f4c3b4845462052455454454c204349424152413b31343630,
0x3b3b3b3b3b4e3b3b3b3b3b4c413b303b6f4c3b4641512052455454454c204349424152413b32343630,
0x3b3b3b3b4641432052455454454c204349424152413b4e3b3b3b3b3b4c413b303b6f4c3b46414b2052455454454c204349424152413b33343630,
0x3b3b3b3b3b4e3b3b3b3b3b4c413b303b6f4c3b4d414c2052455454454c204349424152413b34343630,
0x3b3b3b3b3b4e3b3b3b3b3b4c413b303b6f4c3b4d45454d2052455454454c204349424152413b35343630,
0x3b3b3b3b3b4e3b3b3b3b3b4c413b303b6f4c3b4e4f4f4e2052455454454c204349424152413b36343630,
0x3b3b3b3b41482052455454454c204349424152413b4e3b3b3b3b3b4c413b303b6f4c3b4845482052455454454c204349424152413b37343630,
0x3b3b3b3b3b4e3b3b3b3b3b4c413b303b6f4c3b5741572052455454454c204349424152413b38343630,
0x3b3b3b3b484152555351414d2046454c412052455454454c204349424152413b4e3b3b3b3b3b4c413b303b6f4c3b415255534b414d2046454c412052455454454c204349424152413b39343630,
0x3b3b3b3b41592052455454454c204349424152413b4e3b3b3b3b3b4c413b303b6f4c3b4845592052455454454c204349424152413b41343630,
0x3b3b3b3b3b4e3b3b3b3b3b4d534e3b37323b6e4d3b4e41544148544146204349424152413b42343630,
0x3b3b3b3b3b4e3b3b3b3b3b4d534e3b38323b6e4d3b4e4154414d4d4144204349424152413b43343630,
0x3b3b3b3b3b4e3b3b3b3b3b4d534e3b39323b6e4d3b4e4154415253414b204349424152413b44343630,
0x3b3b3b3b484148544146204349424152413b4e3b3b3b3b3b4d534e3b30333b6e4d3b4148544146204349424152413b45343630,
0x3b3b3b3b48414d4d4144204349424152413b4e3b3b3b3b3b4d534e3b31333b6e4d3b414d4d4144204349424152413b46343630,
0x3b3b3b3b48415253414b204349424152413b4e3b3b3b3b3b4d534e3b32333b6e4d3b415253414b204349424152413b30353630,
0x3b3b3b3b48414444414853204349424152413b4e3b3b3b3b3b4d534e3b33333b6e4d3b414444414853204349424152413b31353630,
0x3b3b3b3b3b4e3b3b3b3b3b4d534e3b34333b6e4d3b4e554b5553204349424152413b32353630,
0x3b3b3b3b3b4e3b3b3b3b3b4d534e3b3033323b6e4d3b45564f42412048414444414d204349424152413b33353630,
0x3b3b3b3b3b4e3b3b3b3b3b4d534e3b3033323b6e4d3b45564f424120415a4d4148204349424152413b34353630,
0x3b3b3b3b3b4e3b3b3b3b3b4d534e3b3032323b6e4d3b574f4c454220415a4d4148204349424152413b35353630,
0x3b3b3b3b3b4e3b3b3b3b3b4d534e3b3032323b6e4d3b46454c4120545049524353425553204349424152413b36353630,
0x3b3b3b3b3b4e3b3b3b3b3b4d534e3b3033323b6e4d3b414d4d4144204445545245564e49204349424152413b37353630,
0x3b3b3b3b3b4e3b3b3b3b3b4d534e3b3033323b6e4d3b414e4e554847204e4f4f4e204b52414d204349424152413b38353630,
0x3b3b3b3b3b4e3b3b3b3b3b4d534e3b3033323b6e4d3b59414b415241575a204349424152413b39353630,
0x3b3b3b3b3b4e3b3b3b3b3b4d534e3b3033323b6e4d3b45564f42412056204c4c414d53204e474953204c45574f56204349424152413b41353630,
0x3b3b3b3b3b4e3b3b3b3b3b4d534e3b3033323b6e4d3b45564f42412056204c4c414d53204445545245564e49204e474953204c45574f56204349424152413b42353630,
0x3b3b3b3b3b4e3b3b3b3b3b4d534e3b3032323b6e4d3b574f4c454220544f44204e474953204c45574f56204349424152413b43353630,
0x3b3b3b3b3b4e3b3b3b3b3b4d534e3b3033323b6e4d3b414d4d4144204445535245564552204349424152413b44353630,
0x3b3b3b3b3b4e3b3b3b3b3b4d534e3b3033323b6e4d3b53544f44204f57542048544957204148544146204349424152413b45353630,
0x3b3b3b3b3b4e3b3b3b3b3b4d534e3b3032323b6e4d3b574f4c454220415a4d41482059564157204349424152413b46353630,
0x3b3b3b3b3b4e3b303b303b303b3b4e413b303b644e3b4f52455a205449474944204349444e492d4349424152413b30363630,
0x3b3b3b3b3b4e3b313b313b313b3b4e413b303b644e3b454e4f205449474944204349444e492d4349424152413b31363630,
0x3b3b3b3b3b4e3b323b323b323b3b4e413b303b644e3b4f5754205449474944204349444e492d4349424152413b32363630,
0x3b3b3b3b3b4e3b333b333b333b3b4e413b303b644e3b4545524854205449474944204349444e492d4349424152413b33363630,
0x3b3b3b3b3b4e3b343b343b343b3b4e413b303b644e3b52554f46205449474944204349444e492d4349424152413b34363630,
0x3b3b3b3b3b4e3b353b353b353b3b4e413b303b644e3b45564946205449474944204349444e492d4349424152413b35363630,
0x3b3b3b3b3b4e3b363b363b363b3b4e413b303b644e3b584953205449474944204349444e492d4349424152413b36363630,
0x3b3b3b3b3b4e3b373b373b373b3b4e413b303b644e3b4e45564553205449474944204349444e492d4349424152413b37363630,
0x3b3b3b3b3b4e3b383b383b383b3b4e413b303b644e3b5448474945205449474944204349444e492d4349424152413b38363630,
0x3b3b3b3b3b4e3b393b393b393b3b4e413b303b644e3b454e494e205449474944204349444e492d4349424152413b39363630,
0x3b3b3b3b3b4e3b3b3b3b3b54453b303b6f503b4e47495320544e4543524550204349424152413b41363630,
0x3b3b3b3b3b4e3b3b3b3b3b4e413b303b6f503b524f54415241504553204c414d49434544204349424152413b42363630,
0x3b3b3b3b3b4e3b3b3b3b3b4e413b303b6f503b524f544152415045532053444e4153554f4854204349424152413b43363630,
0x3b3b3b3b3b4e3b3b3b3b3b4c413b303b6f503b52415453204445544e494f502045564946204349424152413b44363630,
0x3b3b3b3b3b4e3b3b3b3b3b4c413b303b6f4c3b484542205353454c544f442052455454454c204349424152413b45363630,
0x3b3b3b3b3b4e3b3b3b3b3b4c413b303b6f4c3b464151205353454c544f442052455454454c204349424152413b46363630,
0x3b3b3b3b45564f42412046454c41204349424152413b4e3b3b3b3b3b4d534e3b35333b6e4d3b46454c412054504952435352455055532052455454454c204349424152413b30373630,
0x3b3b3b3b46454c41204e4f204c5341572054415a4d41482052455454454c204349424152413b4e3b3b3b3b3b4c413b303b6f4c3b414c5341572046454c412052455454454c204349424152413b31373630,
0x3b3b3b3b46454c41204e4f2048415a4d414820595641572052455454454c204349424152413b4e3b3b3b3b3b4c413b303b6f4c3b45564f424120415a4d4148205956415720485449572046454c412052455454454c204349424152413b32373630,
0x3b3b3b3b46454c41205245444e552048415a4d414820595641572052455454454c204349424152413b4e3b3b3b3b3b4c413b303b6f4c3b574f4c454220415a4d4148205956415720485449572046454c412052455454454c204349424152413b33373630,
0x3b3b3b3b48415a4d414820484749482052455454454c204349424152413b4e3b3b3b3b3b4c413b303b6f4c3b415a4d414820484749482052455454454c204349424152413b34373630,
0x3b3b3b3b46454c412048415a4d414820484749482052455454454c204349424152413b4e3b3b3b3b343736302037323630203e7461706d6f633c3b4c413b303b6f4c3b46454c4120415a4d414820484749482052455454454c204349424152413b35373630,
0x3b3b3b3b5741572048415a4d414820484749482052455454454c204349424152413b4e3b3b3b3b343736302038343630203e7461706d6f633c3b4c413b303b6f4c3b57415720415a4d414820484749482052455454454c204349424152413b36373630,
0x3b3b3b3b48414d4d41442048544957205741572048415a4d414820484749482052455454454c204349424152413b4e3b3b3b3b343736302037433630203e7461706d6f633c3b4c413b303b6f4c3b45564f424120415a4d4148204854495720552052455454454c204349424152413b37373630,
0x3b3b3b3b41592048415a4d414820484749482052455454454c204349424152413b4e3b3b3b3b343736302041343630203e7461706d6f633c3b4c413b303b6f4c3b48455920415a4d414820484749482052455454454c204349424152413b38373630,
0x3b3b3b3b484154204c4c414d532048544957204141542052455454454c204349424152413b4e3b3b3b3b3b4c413b303b6f4c3b484554542052455454454c204349424152413b39373630,
0x3b3b3b3b45564f4241204c414349545245562053544f44204f57542048544957204141542052455454454c204349424152413b4e3b3b3b3b3b4c413b303b6f4c3b4845484554542052455454454c204349424152413b41373630,
0x3b3b3b3b574f4c4542204c414349545245562053544f44204f57542048544957204141422052455454454c204349424152413b4e3b3b3b3b3b4c413b303b6f4c3b484545422052455454454c204349424152413b42373630,
0x3b3b3b3b474e49522048544957204141542052455454454c204349424152413b4e3b3b3b3b3b4c413b303b6f4c3b474e49522048544957204845542052455454454c204349424152413b43373630,
0x3b3b3b3b445241574e574f442045564f42412053544f442045455248542048544957204141542052455454454c204349424152413b4e3b3b3b3b3b4c413b303b6f4c3b53445241574e574f442045564f42412053544f442045455248542048544957204845542052455454454c204349424152413b44373630,
0x3b3b3b3b574f4c45422053544f442045455248542048544957204141542052455454454c204349424152413b4e3b3b3b3b3b4c413b303b6f4c3b4845502052455454454c204349424152413b45373630,
0x3b3b3b3b45564f42412053544f442052554f462048544957204141542052455454454c204349424152413b4e3b3b3b3b3b4c413b303b6f4c3b48454845542052455454454c204349424152413b46373630,
0x3b3b3b3b574f4c45422053544f442052554f462048544957204141422052455454454c204349424152413b4e3b3b3b3b3b4c413b303b6f4c3b48454845422052455454454c204349424152413b30383630,
0x3b3b3b3b414148204e4f2048415a4d41482052455454454c204349424152413b4e3b3b3b3b3b4c413b303b6f4c3b45564f424120415a4d41482048544957204841482052455454454c204349424152413b31383630,
0x3b3b3b3b45564f4241204c414349545245562053544f44204f57542048544957204141482052455454454c204349424152413b4e3b3b3b3b3b4c413b303b6f4c3b45564f4241204c414349545245562053544f44204f57542048544957204841482052455454454c204349424152413b32383630,
0x3b3b3b3b53544f44204f575420454c4444494d2048544957204141482052455454454c204349424152413b4e3b3b3b3b3b4c413b303b6f4c3b4845594e2052455454454c204349424152413b33383630,
0x3b3b3b3b4c414349545245562053544f44204f575420454c4444494d2048544957204141482052455454454c204349424152413b4e3b3b3b3b3b4c413b303b6f4c3b484559442052455454454c204349424152413b34383630,
0x3b3b3b3b45564f42412053544f442045455248542048544957204141482052455454454c204349424152413b4e3b3b3b3b3b4c413b303b6f4c3b45564f42412053544f442045455248542048544957204841482052455454454c204349424152413b35383630,
0x3b3b3b3b445241574e574f442053544f4420454552485420454c4444494d2048544957204141482052455454454c204349424152413b4e3b3b3b3b3b4c413b303b6f4c3b48454843542052455454454c204349424152413b36383630,
0x3b3b3b3b53544f442052554f4620454c4444494d2048544957204141482052455454454c204349424152413b4e3b3b3b3b3b4c413b303b6f4c3b484548454843542052455454454c204349424152413b37383630,
0x3b3b3b3b484154204c4c414d532048544957204c41442052455454454c204349424152413b4e3b3b3b3b3b4c413b303b6f4c3b4c4144442052455454454c204349424152413b38383630,
0x3b3b3b3b3b4e3b3b3b3b3b4c413b303b6f4c3b474e49522048544957204c41442052455454454c204349424152413b39383630,
0x3b3b3b3b3b4e3b3b3b3b3b4c413b303b6f4c3b574f4c454220544f442048544957204c41442052455454454c204349424152413b41383630,
0x3b3b3b3b3b4e3b3b3b3b3b4c413b303b6f4c3b484154204c4c414d5320444e4120574f4c454220544f442048544957204c41442052455454454c204349424152413b42383630,
0x3b3b3b3b45564f42412053544f44204f57542048544957204c41442052455454454c204349424152413b4e3b3b3b3b3b4c413b303b6f4c3b4c414841442052455454454c204349424152413b43383630,
0x3b3b3b3b574f4c45422053544f44204f57542048544957204c41442052455454454c204349424152413b4e3b3b3b3b3b4c413b303b6f4c3b4c41484144442052455454454c204349424152413b44383630,
0x3b3b3b3b45564f42412053544f442045455248542048544957204c41442052455454454c204349424152413b4e3b3b3b3b3b4c413b303b6f4c3b4c55442052455454454c204349424152413b45383630,
0x3b3b3b3b445241574e574f442045564f42412053544f442045455248542048544957204c41442052455454454c204349424152413b4e3b3b3b3b3b4c413b303b6f4c3b53445241574e574f442045564f42412053544f442045455248542048544957204c41442052455454454c204349424152413b46383630,
0x3b3b3b3b3b4e3b3b3b3b3b4c413b303b6f4c3b45564f42412053544f442052554f462048544957204c41442052455454454c204349424152413b30393630,
0x3b3b3b3b484154204c4c414d5320485449572041522052455454454c204349424152413b4e3b3b3b3b3b4c413b303b6f4c3b484552522052455454454c204349424152413b31393630,
0x3b3b3b3b56204c4c414d5320485449572041522052455454454c204349424152413b4e3b3b3b3b3b4c413b303b6f4c3b56204c4c414d532048544957204845522052455454454c204349424152413b32393630,
0x3b3b3b3b474e495220485449572041522052455454454c204349424152413b4e3b3b3b3b3b4c413b303b6f4c3b474e49522048544957204845522052455454454c204349424152413b33393630,
0x3b3b3b3b574f4c454220544f4420485449572041522052455454454c204349424152413b4e3b3b3b3b3b4c413b303b6f4c3b574f4c454220544f442048544957204845522052455454454c204349424152413b34393630,
0x3b3b3b3b574f4c45422056204c4c414d5320485449572041522052455454454c204349424152413b4e3b3b3b3b3b4c413b303b6f4c3b574f4c45422056204c4c414d532048544957204845522052455454454c204349424152413b35393630,
0x3b3b3b3b45564f424120544f4420444e4120574f4c454220544f4420485449572041522052455454454c204349424152413b4e3b3b3b3b3b4c413b303b6f4c3b45564f424120544f4420444e4120574f4c454220544f442048544957204845522052455454454c204349424152413b36393630,
0x3b3b3b3b45564f42412053544f44204f575420485449572041522052455454454c204349424152413b4e3b3b3b3b3b4c413b303b6f4c3b45564f42412053544f44204f57542048544957204845522052455454454c204349424152413b37393630,
0x3b3b3b3b45564f42412053544f4420454552485420485449572041522052455454454c204349424152413b4e3b3b3b3b3b4c413b303b6f4c3b48454a2052455454454c204349424152413b38393630,
0x3b3b3b3b45564f42412053544f442052554f4620485449572041522052455454454c204349424152413b4e3b3b3b3b3b4c413b303b6f4c3b45564f42412053544f442052554f462048544957204845522052455454454c204349424152413b39393630,
0x3b3b3b3b3b4e3b3b3b3b3b4c413b303b6f4c3b45564f424120544f4420444e4120574f4c454220544f442048544957204e4545532052455454454c204349424152413b41393630,
0x3b3b3b3b3b4e3b3b3b3b3b4c413b303b6f4c3b574f4c45422053544f442045455248542048544957204e4545532052455454454c204349424152413b42393630,
0x3b3b3b3b3b4e3b3b3b3b3b4c413b303b6f4c3b45564f42412053544f4420454552485420444e4120574f4c45422053544f442045455248542048544957204e4545532052455454454c204349424152413b43393630,
0x3b3b3b3b3b4e3b3b3b3b3b4c413b303b6f4c3b574f4c45422053544f44204f57542048544957204441532052455454454c204349424152413b44393630,
0x3b3b3b3b3b4e3b3b3b3b3b4c413b303b6f4c3b45564f42412053544f442045455248542048544957204441532052455454454c204349424152413b45393630,
0x3b3b3b3b3b4e3b3b3b3b3b4c413b303b6f4c3b45564f42412053544f442045455248542048544957204841542052455454454c204349424152413b46393630,
0x3b3b3b3b3b4e3b3b3b3b3b4c413b303b6f4c3b45564f42412053544f442045455248542048544957204e49412052455454454c204349424152413b30413630,
0x3b3b3b3b4146205353454c544f442052455454454c204349424152413b4e3b3b3b3b3b4c413b303b6f4c3b484546205353454c544f442052455454454c204349424152413b31413630,
0x3b3b3b3b574f4c4542204445564f4d20544f4420485449572041462052455454454c204349424152413b4e3b3b3b3b3b4c413b303b6f4c3b574f4c4542204445564f4d20544f442048544957204845462052455454454c204349424152413b32413630,
0x3b3b3b3b574f4c454220544f4420485449572041462052455454454c204349424152413b4e3b3b3b3b3b4c413b303b6f4c3b574f4c454220544f442048544957204845462052455454454c204349424152413b33413630,
0x3b3b3b3b45564f42412053544f4420454552485420485449572041462052455454454c204349424152413b4e3b3b3b3b3b4c413b303b6f4c3b4845562052455454454c204349424152413b34413630,
0x3b3b3b3b574f4c45422053544f4420454552485420485449572041462052455454454c204349424152413b4e3b3b3b3b3b4c413b303b6f4c3b574f4c45422053544f442045455248542048544957204845462052455454454c204349424152413b35413630,
0x3b3b3b3b45564f42412053544f442052554f4620485449572041462052455454454c204349424152413b4e3b3b3b3b3b4c413b303b6f4c3b48454845502052455454454c204349424152413b36413630,
0x3b3b3b3b3b4e3b3b3b3b3b4c413b303b6f4c3b45564f424120544f442048544957204641512052455454454c204349424152413b37413630,
0x3b3b3b3b3b4e3b3b3b3b3b4c413b303b6f4c3b45564f42412053544f442045455248542048544957204641512052455454454c204349424152413b38413630,
0x3b3b3b3b464143204e45504f2052455454454c204349424152413b4e3b3b3b3b3b4c413b303b6f4c3b484548454b2052455454454c204349424152413b39413630,
0x3b3b3b3b4641432048534157532052455454454c204349424152413b4e3b3b3b3b3b4c413b303b6f4c3b46414b2048534157532052455454454c204349424152413b41413630,
0x3b3b3b3b474e49522048544957204641432052455454454c204349424152413b4e3b3b3b3b3b4c413b303b6f4c3b474e495220485449572046414b2052455454454c204349424152413b42413630,
0x3b3b3b3b45564f424120544f442048544957204641432052455454454c204349424152413b4e3b3b3b3b3b4c413b303b6f4c3b45564f424120544f4420485449572046414b2052455454454c204349424152413b43413630,
0x3b3b3b3b45564f42412053544f442045455248542048544957204641432052455454454c204349424152413b4e3b3b3b3b3b4c413b303b6f4c3b474e2052455454454c204349424152413b44413630,
0x3b3b3b3b574f4c45422053544f442045455248542048544957204641432052455454454c204349424152413b4e3b3b3b3b3b4c413b303b6f4c3b574f4c45422053544f4420454552485420485449572046414b2052455454454c204349424152413b45413630,
0x3b3b3b3b3b4e3b3b3b3b3b4c413b303b6f4c3b4641472052455454454c204349424152413b46413630,
0x3b3b3b3b3b4e3b3b3b3b3b4c413b303b6f4c3b474e49522048544957204641472052455454454c204349424152413b30423630,
0x3b3b3b3b45564f42412053544f44204f57542048544957204641472052455454454c204349424152413b4e3b3b3b3b3b4c413b303b6f4c3b48454f474e2052455454454c204349424152413b31423630,
0x3b3b3b3b3b4e3b3b3b3b3b4c413b303b6f4c3b574f4c45422053544f44204f57542048544957204641472052455454454c204349424152413b32423630,
0x3b3b3b3b574f4c4542204c414349545245562053544f44204f57542048544957204641472052455454454c204349424152413b4e3b3b3b3b3b4c413b303b6f4c3b484555472052455454454c204349424152413b33423630,
0x3b3b3b3b3b4e3b3b3b3b3b4c413b303b6f4c3b45564f42412053544f442045455248542048544957204641472052455454454c204349424152413b34423630,
0x3b3b3b3b3b4e3b3b3b3b3b4c413b303b6f4c3b56204c4c414d532048544957204d414c2052455454454c204349424152413b35423630,
0x3b3b3b3b3b4e3b3b3b3b3b4c413b303b6f4c3b45564f424120544f442048544957204d414c2052455454454c204349424152413b36423630,
0x3b3b3b3b3b4e3b3b3b3b3b4c413b303b6f4c3b45564f42412053544f442045455248542048544957204d414c2052455454454c204349424152413b37423630,
0x3b3b3b3b3b4e3b3b3b3b3b4c413b303b6f4c3b574f4c45422053544f442045455248542048544957204d414c2052455454454c204349424152413b38423630,
0x3b3b3b3b3b4e3b3b3b3b3b4c413b303b6f4c3b574f4c454220544f442048544957204e4f4f4e2052455454454c204349424152413b39423630,
0x3b3b3b3b4e4f4f4e205353454c544f442052455454454c204349424152413b4e3b3b3b3b3b4c413b303b6f4c3b414e4e554847204e4f4f4e2052455454454c204349424152413b41423630,
0x3b3b3b3b484154204c4c414d532048544957204e4f4f4e205353454c544f442052455454454c204349424152413b4e3b3b3b3b3b4c413b303b6f4c3b4e4f4f4e522052455454454c204349424152413b42423630,
0x3b3b3b3b3b4e3b3b3b3b3b4c413b303b6f4c3b474e49522048544957204e4f4f4e2052455454454c204349424152413b43423630,
0x3b3b3b3b3b4e3b3b3b3b3b4c413b303b6f4c3b45564f42412053544f442045455248542048544957204e4f4f4e2052455454454c204349424152413b44423630,
0x3b3b3b3b414820444554544f4e4b2052455454454c204349424152413b4e3b3b3b3b3b4c413b303b6f4c3b45454d4853414843414f44204845482052455454454c204349424152413b45423630,
0x3b3b3b3b3b4e3b3b3b3b3b4c413b303b6f4c3b45564f424120544f4420485449572048454843542052455454454c204349424152413b46423630,
0x3b3b3b3b4148204e4f2048415a4d41482052455454454c204349424152413b4e3b3b3b3b3435363020354436303b4c413b303b6f4c3b45564f4241204845592048544957204845482052455454454c204349424152413b30433630,
0x3b3b3b3b4c414f472041482052455454454c204349424152413b4e3b3b3b3b3b4c413b303b6f4c3b4c414f47204845482052455454454c204349424152413b31433630,
0x3b3b3b3b4c414f47204148204e4f2048415a4d41482052455454454c204349424152413b4e3b3b3b3b3435363020314336303b4c413b303b6f4c3b45564f424120415a4d41482048544957204c414f47204845482052455454454c204349424152413b32433630,
0x3b3b3b3b4c414f4720484154554252414d204141542052455454454c204349424152413b4e3b3b3b3b3b4c413b303b6f4c3b4c414f47204154554252414d204845542052455454454c204349424152413b33433630,
0x3b3b3b3b3b4e3b3b3b3b3b4c413b303b6f4c3b474e49522048544957205741572052455454454c204349424152413b34433630,
0x3b3b3b3b5241422048544957205741572052455454454c204349424152413b4e3b3b3b3b3b4c413b303b6f4c3b454f205a49484752494b2052455454454c204349424152413b35433630,
0x3b3b3b3b56204c4c414d532048544957205741572052455454454c204349424152413b4e3b3b3b3b3b4c413b303b6f4c3b454f2052455454454c204349424152413b36433630,
0x3b3b3b3b48414d4d41442048544957205741572052455454454c204349424152413b4e3b3b3b3b3b4c413b303b6f4c3b552052455454454c204349424152413b37433630,
0x3b3b3b3b45564f42412046454c412048544957205741572052455454454c204349424152413b4e3b3b3b3b3b4c413b303b6f4c3b55592052455454454c204349424152413b38433630,
0x3b3b3b3b56204c4c414d53204445545245564e492048544957205741572052455454454c204349424152413b4e3b3b3b3b3b4c413b303b6f4c3b5559205a49484752494b2052455454454c204349424152413b39433630,
0x3b3b3b3b3b4e3b3b3b3b3b4c413b303b6f4c3b45564f42412053544f44204f57542048544957205741572052455454454c204349424152413b41433630,
0x3b3b3b3b45564f42412053544f442045455248542048544957205741572052455454454c204349424152413b4e3b3b3b3b3b4c413b303b6f4c3b45562052455454454c204349424152413b42433630,
0x3b3b3b3b4159205353454c544f442052455454454c204349424152413b4e3b3b3b3b3b4c413b303b6f4c3b4845592049535241462052455454454c204349424152413b43433630,
0x3b3b3b3b4c49415420485449572041592052455454454c204349424152413b4e3b3b3b3b3b4c413b303b6f4c3b4c4941542048544957204845592052455454454c204349424152413b44433630,
0x3b3b3b3b56204c4c414d5320485449572041592052455454454c204349424152413b4e3b3b3b3b3b4c413b303b6f4c3b56204c4c414d532048544957204845592052455454454c204349424152413b45433630,
0x3b3b3b3b3b4e3b3b3b3b3b4c413b303b6f4c3b45564f424120544f442048544957205741572052455454454c204349424152413b46433630,
0x3b3b3b3b574f4c4542204c414349545245562053544f44204f575420485449572041592052455454454c204349424152413b4e3b3b3b3b3b4c413b303b6f4c3b452052455454454c204349424152413b30443630,
0x3b3b3b3b574f4c45422053544f4420454552485420485449572041592052455454454c204349424152413b4e3b3b3b3b3b4c413b303b6f4c3b574f4c45422053544f442045455248542048544957204845592052455454454c204349424152413b31443630,
0x3b3b3b3b4545525241422041592052455454454c204349424152413b4e3b3b3b3b3b4c413b303b6f4c3b454552524142204845592052455454454c204349424152413b32443630,
0x3b3b3b3b454552524142204159204e4f2048415a4d41482052455454454c204349424152413b4e3b3b3b3b3435363020324436303b4c413b303b6f4c3b45564f424120415a4d4148204854495720454552524142204845592052455454454c204349424152413b33443630,
0x3b3b3b3b444f49524550204349424152413b4e3b3b3b3b3b4c413b303b6f503b504f5453204c4c5546204349424152413b34443630,
0x3b3b3b3b3b4e3b3b3b3b3b4c413b303b6f4c3b45412052455454454c204349424152413b35443630,
0x3b3b3b3b3b4e3b3b3b3b3b4d534e3b3033323b6e4d3b415255534b414d2046454c412048544957204d414c20485449572044415320455255544147494c2048474948204c4c414d53204349424152413b36443630,
0x3b3b3b3b3b4e3b3b3b3b3b4d534e3b3033323b6e4d3b415255534b414d2046454c412048544957204d414c20485449572046415120455255544147494c2048474948204c4c414d53204349424152413b37443630,
0x3b3b3b3b3b4e3b3b3b3b3b4d534e3b3033323b6e4d3b4d524f46204c414954494e49204d45454d2048474948204c4c414d53204349424152413b38443630,
0x3b3b3b3b3b4e3b3b3b3b3b4d534e3b3033323b6e4d3b46454c41204d414c2048474948204c4c414d53204349424152413b39443630,
0x3b3b3b3b3b4e3b3b3b3b3b4d534e3b3033323b6e4d3b4d45454a2048474948204c4c414d53204349424152413b41443630,
0x3b3b3b3b3b4e3b3b3b3b3b4d534e3b3033323b6e4d3b53544f442045455248542048474948204c4c414d53204349424152413b42443630,
0x3b3b3b3b3b4e3b3b3b3b3b4d534e3b3033323b6e4d3b4e4545532048474948204c4c414d53204349424152413b43443630,
0x3b3b3b3b3b4e3b3b3b3b3b4e413b303b66433b4841594120464f20444e45204349424152413b44443630,
0x3b3b3b3b3b4e3b3b3b3b3b4e4f3b303b6f533b425a4948204c452042555220464f205452415453204349424152413b45443630,
0x3b3b3b3b3b4e3b3b3b3b3b4d534e3b3033323b6e4d3b4f52455a204445444e554f522048474948204c4c414d53204349424152413b46443630,
0x3b3b3b3b3b4e3b3b3b3b3b4d534e3b3033323b6e4d3b4f52455a2052414c55474e415443455220544847495250552048474948204c4c414d53204349424152413b30453630,
0x3b3b3b3b3b4e3b3b3b3b3b4d534e3b3033323b6e4d3b4841484b20464f2044414548205353454c544f442048474948204c4c414d53204349424152413b31453630,
0x3b3b3b3b3b4e3b3b3b3b3b4d534e3b3033323b6e4d3b4d524f4620444554414c4f5349204d45454d2048474948204c4c414d53204349424152413b32453630,
0x3b3b3b3b3b4e3b3b3b3b3b4d534e3b3032323b6e4d3b4e45455320574f4c204c4c414d53204349424152413b33453630,
0x3b3b3b3b3b4e3b3b3b3b3b4d534e3b3033323b6e4d3b414444414d2048474948204c4c414d53204349424152413b34453630,
0x3b3b3b3b3b4e3b3b3b3b3b4c413b303b6d4c3b574157204c4c414d53204349424152413b35453630,
0x3b3b3b3b3b4e3b3b3b3b3b4c413b303b6d4c3b484559204c4c414d53204349424152413b36453630,
0x3b3b3b3b3b4e3b3b3b3b3b4d534e3b3033323b6e4d3b4845592048474948204c4c414d53204349424152413b37453630,
0x3b3b3b3b3b4e3b3b3b3b3b4d534e3b3033323b6e4d3b4e4f4f4e2048474948204c4c414d53204349424152413b38453630,
0x3b3b3b3b3b4e3b3b3b3b3b4e4f3b303b6f533b4841444a415320464f204543414c50204349424152413b39453630,
0x3b3b3b3b3b4e3b3b3b3b3b4d534e3b3032323b6e4d3b504f545320574f4c204552544e4543205954504d45204349424152413b41453630,
0x3b3b3b3b3b4e3b3b3b3b3b4d534e3b3033323b6e4d3b504f54532048474948204552544e4543205954504d45204349424152413b42453630,
0x3b3b3b3b3b4e3b3b3b3b3b4d534e3b3033323b6e4d3b4552544e45432044454c4c4946204854495720504f54532048474948204445444e554f52204349424152413b43453630,
0x3b3b3b3b3b4e3b3b3b3b3b4d534e3b3032323b6e4d3b4d45454d20574f4c204c4c414d53204349424152413b44453630,
0x3b3b3b3b3b4e3b3b3b3b3b4c413b303b6f4c3b56204445545245564e492048544957204c41442052455454454c204349424152413b45453630,
0x3b3b3b3b3b4e3b3b3b3b3b4c413b303b6f4c3b56204445545245564e492048544957204845522052455454454c204349424152413b46453630,
0x3b3b3b3b4f52455a205449474944204349444e492d434942415241204e5245545341453b4e3b303b303b303b3b4e453b303b644e3b4f52455a205449474944204349444e492d434942415241204445444e455458453b30463630,
0x3b3b3b3b454e4f205449474944204349444e492d434942415241204e5245545341453b4e3b313b313b313b3b4e453b303b644e3b454e4f205449474944204349444e492d434942415241204445444e455458453b31463630,
0x3b3b3b3b4f5754205449474944204349444e492d434942415241204e5245545341453b4e3b323b323b323b3b4e453b303b644e3b4f5754205449474944204349444e492d434942415241204445444e455458453b32463630,
0x3b3b3b3b4545524854205449474944204349444e492d434942415241204e5245545341453b4e3b333b333b333b3b4e453b303b644e3b4545524854205449474944204349444e492d434942415241204445444e455458453b33463630,
0x3b3b3b3b52554f46205449474944204349444e492d434942415241204e5245545341453b4e3b343b343b343b3b4e453b303b644e3b52554f46205449474944204349444e492d434942415241204445444e455458453b34463630,
0x3b3b3b3b45564946205449474944204349444e492d434942415241204e5245545341453b4e3b353b353b353b3b4e453b303b644e3b45564946205449474944204349444e492d434942415241204445444e455458453b35463630,
0x3b3b3b3b584953205449474944204349444e492d434942415241204e5245545341453b4e3b363b363b363b3b4e453b303b644e3b584953205449474944204349444e492d434942415241204445444e455458453b36463630,
0x3b3b3b3b4e45564553205449474944204349444e492d434942415241204e5245545341453b4e3b373b373b373b3b4e453b303b644e3b4e45564553205449474944204349444e492d434942415241204445444e455458453b37463630,
0x3b3b3b3b5448474945205449474944204349444e492d434942415241204e5245545341453b4e3b383b383b383b3b4e453b303b644e3b5448474945205449474944204349444e492d434942415241204445444e455458453b38463630,
0x3b3b3b3b454e494e205449474944204349444e492d434942415241204e5245545341453b4e3b393b393b393b3b4e453b303b644e3b454e494e205449474944204349444e492d434942415241204445444e455458453b39463630,
0x3b3b3b3b3b4e3b3b3b3b3b4c413b303b6f4c3b574f4c454220544f442048544957204e454548532052455454454c204349424152413b41463630,
0x3b3b3b3b3b4e3b3b3b3b3b4c413b303b6f4c3b574f4c454220544f442048544957204441442052455454454c204349424152413b42463630,
0x3b3b3b3b3b4e3b3b3b3b3b4c413b303b6f4c3b574f4c454220544f442048544957204e494148472052455454454c204349424152413b43463630,
0x3b3b3b3b3b4e3b3b3b3b3b4c413b303b6f533b444e41535245504d41204948444e4953204e474953204349424152413b44463630,
0x3b3b3b3b3b4e3b3b3b3b3b4c413b303b6f533b4e454d204e4f495449534f5054534f50204948444e4953204e474953204349424152413b45463630,
0x3b3b3b3b3b4e3b3b3b3b3b4c413b303b6f4c3b56204445545245564e492048544957204845482052455454454c204349424152413b46463630,
0x3b3b3b3b3b4e3b3b3b3b3b4c413b303b6f503b48504152474152415020464f20444e45204341495259533b30303730,
0x3b3b3b3b3b4e3b3b3b3b3b4c413b303b6f503b504f5453204c4c5546205241454e494c4152505553204341495259533b31303730,
0x3b3b3b3b3b4e3b3b3b3b3b4c413b303b6f503b504f5453204c4c5546205241454e494c425553204341495259533b32303730,
0x3b3b3b3b3b4e3b3b3b3b3b4c413b303b6f503b4e4f4c4f43205241454e494c4152505553204341495259533b33303730,
0x3b3b3b3b3b4e3b3b3b3b3b4c413b303b6f503b4e4f4c4f43205241454e494c425553204341495259533b34303730,
0x3b3b3b3b3b4e3b3b3b3b3b4c413b303b6f503b4e4f4c4f43204c41544e4f5a49524f48204341495259533b35303730,
0x3b3b3b3b3b4e3b3b3b3b3b4c413b303b6f503b5446454c20444557454b53204e4f4c4f43204341495259533b36303730,
0x3b3b3b3b3b4e3b3b3b3b3b4c413b303b6f503b544847495220444557454b53204e4f4c4f43204341495259533b37303730,
0x3b3b3b3b3b4e3b3b3b3b3b4c413b303b6f503b5446454c20444557454b53204e4f4c4f43205241454e494c4152505553204341495259533b38303730,
0x3b3b3b3b3b4e3b3b3b3b3b4c413b303b6f503b544847495220444557454b53204e4f4c4f43205241454e494c425553204341495259533b39303730,
0x3b3b3b3b3b4e3b3b3b3b3b4c413b303b6f503b4e4f4954434152544e4f43204341495259533b41303730,
0x3b3b3b3b3b4e3b3b3b3b3b4c413b303b6f503b53554c45424f204e41454c4b524148204341495259533b42303730,
0x3b3b3b3b3b4e3b3b3b3b3b4c413b303b6f503b53554c45424f54454d204e41454c4b524148204341495259533b43303730,
0x3b3b3b3b3b4e3b3b3b3b3b4c413b303b6f503b53554353495245545341204e41454c4b524148204341495259533b44303730,
0x3b3b3b3b3b4e3b3b3b3b3b4c413b303b66433b4b52414d204e4f49544149564552424241204341495259533b46303730,
0x3b3b3b3b3b4e3b3b3b3b3b4c413b303b6f4c3b4850414c412052455454454c204341495259533b30313730,
0x3b3b3b3b3b4e3b3b3b3b3b4d534e3b36333b6e4d3b4850414c412054504952435352455055532052455454454c204341495259533b31313730,
0x3b3b3b3b3b4e3b3b3b3b3b4c413b303b6f4c3b485445422052455454454c204341495259533b32313730,
0x3b3b3b3b3b4e3b3b3b3b3b4c413b303b6f4c3b4c414d41472052455454454c204341495259533b33313730,
0x3b3b3b3b3b4e3b3b3b3b3b4c413b303b6f4c3b494e554853524147204c414d41472052455454454c204341495259533b34313730,
0x3b3b3b3b3b4e3b3b3b3b3b4c413b303b6f4c3b4854414c41442052455454454c204341495259533b35313730,
0x3b3b3b3b3b4e3b3b3b3b3b4c413b303b6f4c3b48534952204854414c4144205353454c544f442052455454454c204341495259533b36313730,
0x3b3b3b3b3b4e3b3b3b3b3b4c413b303b6f4c3b45482052455454454c204341495259533b37313730,
0x3b3b3b3b3b4e3b3b3b3b3b4c413b303b6f4c3b5741572052455454454c204341495259533b38313730,
0x3b3b3b3b3b4e3b3b3b3b3b4c413b303b6f4c3b4e49415a2052455454454c204341495259533b39313730,
0x3b3b3b3b3b4e3b3b3b3b3b4c413b303b6f4c3b485445482052455454454c204341495259533b41313730,
0x3b3b3b3b3b4e3b3b3b3b3b4c413b303b6f4c3b485445542052455454454c204341495259533b42313730,
0x3b3b3b3b3b4e3b3b3b3b3b4c413b303b6f4c3b494e55485352414720485445542052455454454c204341495259533b43313730,
0x3b3b3b3b3b4e3b3b3b3b3b4c413b303b6f4c3b484455592052455454454c204341495259533b44313730,
0x3b3b3b3b3b4e3b3b3b3b3b4c413b303b6f4c3b454820484455592052455454454c204341495259533b45313730,
0x3b3b3b3b3b4e3b3b3b3b3b4c413b303b6f4c3b4850414b2052455454454c204341495259533b46313730,
0x3b3b3b3b3b4e3b3b3b3b3b4c413b303b6f4c3b4844414d414c2052455454454c204341495259533b30323730,
0x3b3b3b3b3b4e3b3b3b3b3b4c413b303b6f4c3b4d494d2052455454454c204341495259533b31323730,
0x3b3b3b3b3b4e3b3b3b3b3b4c413b303b6f4c3b4e554e2052455454454c204341495259533b32323730,
0x3b3b3b3b3b4e3b3b3b3b3b4c413b303b6f4c3b4854414b4d45532052455454454c204341495259533b33323730,
0x3b3b3b3b3b4e3b3b3b3b3b4c413b303b6f4c3b4854414b4d4553204c414e49462052455454454c204341495259533b34323730,
0x3b3b3b3b3b4e3b3b3b3b3b4c413b303b6f4c3b452052455454454c204341495259533b35323730,
0x3b3b3b3b3b4e3b3b3b3b3b4c413b303b6f4c3b45502052455454454c204341495259533b36323730,
0x3b3b3b3b3b4e3b3b3b3b3b4c413b303b6f4c3b45502044455352455645522052455454454c204341495259533b37323730,
0x3b3b3b3b3b4e3b3b3b3b3b4c413b303b6f4c3b45484441532052455454454c204341495259533b38323730,
0x3b3b3b3b3b4e3b3b3b3b3b4c413b303b6f4c3b485041512052455454454c204341495259533b39323730,
0x3b3b3b3b3b4e3b3b3b3b3b4c413b303b6f4c3b485349522052455454454c204341495259533b41323730]

/-- src/u5e/props/UnicodeData.txt lines 1793-2048. -/
def rawUcd7 : List Nat := [
0x3b3b3b3b3b4e3b3b3b3b3b4c413b303b6f4c3b4e4948532052455454454c204341495259533b42323730,
0x3b3b3b3b3b4e3b3b3b3b3b4c413b303b6f4c3b5741542052455454454c204341495259533b43323730,
0x3b3b3b3b3b4e3b3b3b3b3b4c413b303b6f4c3b4854454842204e4149535245502052455454454c204341495259533b44323730,
0x3b3b3b3b3b4e3b3b3b3b3b4c413b303b6f4c3b4c414d414847204e4149535245502052455454454c204341495259533b45323730,
0x3b3b3b3b3b4e3b3b3b3b3b4c413b303b6f4c3b4854414c414844204e4149535245502052455454454c204341495259533b46323730,
0x3b3b3b3b3b4e3b3b3b3b3b4d534e3b3033323b6e4d3b45564f424120414841485450204341495259533b30333730,
0x3b3b3b3b3b4e3b3b3b3b3b4d534e3b3032323b6e4d3b574f4c454220414841485450204341495259533b31333730,
0x3b3b3b3b3b4e3b3b3b3b3b4d534e3b3033323b6e4d3b444554544f4420414841485450204341495259533b32333730,
0x3b3b3b3b3b4e3b3b3b3b3b4d534e3b3033323b6e4d3b45564f42412041485041515a204341495259533b33333730,
0x3b3b3b3b3b4e3b3b3b3b3b4d534e3b3032323b6e4d3b574f4c45422041485041515a204341495259533b34333730,
0x3b3b3b3b3b4e3b3b3b3b3b4d534e3b3033323b6e4d3b444554544f442041485041515a204341495259533b35333730,
0x3b3b3b3b3b4e3b3b3b3b3b4d534e3b3033323b6e4d3b45564f4241204153414252204341495259533b36333730,
0x3b3b3b3b3b4e3b3b3b3b3b4d534e3b3032323b6e4d3b574f4c4542204153414252204341495259533b37333730,
0x3b3b3b3b3b4e3b3b3b3b3b4d534e3b3032323b6e4d3b4c41544e4f5a49524f4820414d414c5a20444554544f44204341495259533b38333730,
0x3b3b3b3b3b4e3b3b3b3b3b4d534e3b3032323b6e4d3b52414c55474e4120414d414c5a20444554544f44204341495259533b39333730,
0x3b3b3b3b3b4e3b3b3b3b3b4d534e3b3033323b6e4d3b45564f4241204153414248204341495259533b41333730,
0x3b3b3b3b3b4e3b3b3b3b3b4d534e3b3032323b6e4d3b574f4c4542204153414248204341495259533b42333730,
0x3b3b3b3b3b4e3b3b3b3b3b4d534e3b3032323b6e4d3b444554544f442041534153452d4153414248204341495259533b43333730,
0x3b3b3b3b3b4e3b3b3b3b3b4d534e3b3033323b6e4d3b45564f4241204153415345204341495259533b44333730,
0x3b3b3b3b3b4e3b3b3b3b3b4d534e3b3032323b6e4d3b574f4c4542204153415345204341495259533b45333730,
0x3b3b3b3b3b4e3b3b3b3b3b4d534e3b3033323b6e4d3b4148415752204341495259533b46333730,
0x3b3b3b3b3b4e3b3b3b3b3b4d534e3b3033323b6e4d3b544f4420454e494e494d4546204341495259533b30343730,
0x3b3b3b3b3b4e3b3b3b3b3b4d534e3b3033323b6e4d3b415941485348535551204341495259533b31343730,
0x3b3b3b3b3b4e3b3b3b3b3b4d534e3b3032323b6e4d3b41484b414b4b5552204341495259533b32343730,
0x3b3b3b3b3b4e3b3b3b3b3b4d534e3b3033323b6e4d3b45564f42412053544f44204c41434954524556204f5754204341495259533b33343730,
0x3b3b3b3b3b4e3b3b3b3b3b4d534e3b3032323b6e4d3b574f4c45422053544f44204c41434954524556204f5754204341495259533b34343730,
0x3b3b3b3b3b4e3b3b3b3b3b4d534e3b3033323b6e4d3b45564f42412053544f44204545524854204341495259533b35343730,
0x3b3b3b3b3b4e3b3b3b3b3b4d534e3b3032323b6e4d3b574f4c45422053544f44204545524854204341495259533b36343730,
0x3b3b3b3b3b4e3b3b3b3b3b4d534e3b3033323b6e4d3b45564f424120454e494c20455551494c424f204341495259533b37343730,
0x3b3b3b3b3b4e3b3b3b3b3b4d534e3b3032323b6e4d3b574f4c454220454e494c20455551494c424f204341495259533b38343730,
0x3b3b3b3b3b4e3b3b3b3b3b4d534e3b3033323b6e4d3b434953554d204341495259533b39343730,
0x3b3b3b3b3b4e3b3b3b3b3b4d534e3b3033323b6e4d3b484b4552524142204341495259533b41343730,
0x3b3b3b3b3b4e3b3b3b3b3b4c413b303b6f4c3b4e4941485a204e414944474f532052455454454c204341495259533b44343730,
0x3b3b3b3b3b4e3b3b3b3b3b4c413b303b6f4c3b485041484b204e414944474f532052455454454c204341495259533b45343730,
0x3b3b3b3b3b4e3b3b3b3b3b4c413b303b6f4c3b4546204e414944474f532052455454454c204341495259533b46343730,
0x3b3b3b3b3b4e3b3b3b3b3b4c413b303b6f4c3b574f4c454220594c4c41544e4f5a49524f482053544f442045455248542048544957204845422052455454454c204349424152413b30353730,
0x3b3b3b3b3b4e3b3b3b3b3b4c413b303b6f4c3b45564f42412053544f4420454552485420444e4120574f4c454220544f442048544957204845422052455454454c204349424152413b31353730,
0x3b3b3b3b3b4e3b3b3b3b3b4c413b303b6f4c3b574f4c4542205344524157505520474e49544e494f502053544f442045455248542048544957204845422052455454454c204349424152413b32353730,
0x3b3b3b3b3b4e3b3b3b3b3b4c413b303b6f4c3b45564f42412053544f44204f575420444e4120574f4c4542205344524157505520474e49544e494f502053544f442045455248542048544957204845422052455454454c204349424152413b33353730,
0x3b3b3b3b3b4e3b3b3b3b3b4c413b303b6f4c3b45564f424120544f4420444e4120574f4c45422053544f44204f57542048544957204845422052455454454c204349424152413b34353730,
0x3b3b3b3b3b4e3b3b3b3b3b4c413b303b6f4c3b574f4c45422056204c4c414d53204445545245564e492048544957204845422052455454454c204349424152413b35353730,
0x3b3b3b3b3b4e3b3b3b3b3b4c413b303b6f4c3b56204c4c414d532048544957204845422052455454454c204349424152413b36353730,
0x3b3b3b3b3b4e3b3b3b3b3b4c413b303b6f4c3b45564f42412053544f44204f57542048544957204841482052455454454c204349424152413b37353730,
0x3b3b3b3b3b4e3b3b3b3b3b4c413b303b6f4c3b574f4c4542205344524157505520474e49544e494f502053544f442045455248542048544957204841482052455454454c204349424152413b38353730,
0x3b3b3b3b3b4e3b3b3b3b3b4c413b303b6f4c3b484154204c4c414d5320444e4120574f4c454220594c4c414349545245562053544f44204f57542048544957204c41442052455454454c204349424152413b39353730,
0x3b3b3b3b3b4e3b3b3b3b3b4c413b303b6f4c3b574f4c45422056204c4c414d53204445545245564e492048544957204c41442052455454454c204349424152413b41353730,
0x3b3b3b3b3b4e3b3b3b3b3b4c413b303b6f4c3b454b4f5254532048544957204845522052455454454c204349424152413b42353730,
0x3b3b3b3b3b4e3b3b3b3b3b4c413b303b6f4c3b45564f42412053544f442052554f462048544957204e4545532052455454454c204349424152413b43353730,
0x3b3b3b3b3b4e3b3b3b3b3b4c413b303b6f4c3b45564f42412053544f44204f57542048544957204e49412052455454454c204349424152413b44353730,
0x3b3b3b3b3b4e3b3b3b3b3b4c413b303b6f4c3b45564f42412053445241574e574f4420474e49544e494f502053544f442045455248542048544957204e49412052455454454c204349424152413b45353730,
0x3b3b3b3b3b4e3b3b3b3b3b4c413b303b6f4c3b45564f424120594c4c414349545245562053544f44204f57542048544957204e49412052455454454c204349424152413b46353730,
0x3b3b3b3b3b4e3b3b3b3b3b4c413b303b6f4c3b574f4c45422053544f44204f57542048544957204845462052455454454c204349424152413b30363730,
0x3b3b3b3b3b4e3b3b3b3b3b4c413b303b6f4c3b574f4c4542205344524157505520474e49544e494f502053544f442045455248542048544957204845462052455454454c204349424152413b31363730,
0x3b3b3b3b3b4e3b3b3b3b3b4c413b303b6f4c3b45564f424120544f44204854495720484548454b2052455454454c204349424152413b32363730,
0x3b3b3b3b3b4e3b3b3b3b3b4c413b303b6f4c3b45564f42412053544f44204545524854204854495720484548454b2052455454454c204349424152413b33363730,
0x3b3b3b3b3b4e3b3b3b3b3b4c413b303b6f4c3b574f4c4542205344524157505520474e49544e494f502053544f44204545524854204854495720484548454b2052455454454c204349424152413b34363730,
0x3b3b3b3b3b4e3b3b3b3b3b4c413b303b6f4c3b45564f424120544f442048544957204d45454d2052455454454c204349424152413b35363730,
0x3b3b3b3b3b4e3b3b3b3b3b4c413b303b6f4c3b574f4c454220544f442048544957204d45454d2052455454454c204349424152413b36363730,
0x3b3b3b3b3b4e3b3b3b3b3b4c413b303b6f4c3b574f4c45422053544f44204f57542048544957204e4f4f4e2052455454454c204349424152413b37363730,
0x3b3b3b3b3b4e3b3b3b3b3b4c413b303b6f4c3b484154204c4c414d532048544957204e4f4f4e2052455454454c204349424152413b38363730,
0x3b3b3b3b3b4e3b3b3b3b3b4c413b303b6f4c3b56204c4c414d532048544957204e4f4f4e2052455454454c204349424152413b39363730,
0x3b3b3b3b3b4e3b3b3b3b3b4c413b303b6f4c3b5241422048544957204d414c2052455454454c204349424152413b41363730,
0x3b3b3b3b3b4e3b3b3b3b3b4c413b303b6f4c3b45564f424120594c4c414349545245562053544f44204f57542048544957204845522052455454454c204349424152413b42363730,
0x3b3b3b3b3b4e3b3b3b3b3b4c413b303b6f4c3b45564f424120415a4d41482048544957204845522052455454454c204349424152413b43363730,
0x3b3b3b3b3b4e3b3b3b3b3b4c413b303b6f4c3b45564f424120594c4c414349545245562053544f44204f57542048544957204e4545532052455454454c204349424152413b44363730,
0x3b3b3b3b3b4e3b3b3b3b3b4c413b303b6f4c3b574f4c4542204841542052455454454c20434942415241204c4c414d532048544957204841482052455454454c204349424152413b45363730,
0x3b3b3b3b3b4e3b3b3b3b3b4c413b303b6f4c3b53544f44204f575420444e41204841542052455454454c20434942415241204c4c414d532048544957204841482052455454454c204349424152413b46363730,
0x3b3b3b3b3b4e3b3b3b3b3b4c413b303b6f4c3b53544f44204f575420444e41204841542052455454454c20434942415241204c4c414d532048544957204e4545532052455454454c204349424152413b30373730,
0x3b3b3b3b3b4e3b3b3b3b3b4c413b303b6f4c3b53544f44204f575420444e41204841542052455454454c20434942415241204c4c414d532048544957204845522052455454454c204349424152413b31373730,
0x3b3b3b3b3b4e3b3b3b3b3b4c413b303b6f4c3b45564f4241204841542052455454454c20434942415241204c4c414d532048544957204841482052455454454c204349424152413b32373730,
0x3b3b3b3b3b4e3b3b3b3b3b4c413b303b6f4c3b45564f4241204f5754205449474944204349444e492d434942415241204445444e4554584520485449572046454c412052455454454c204349424152413b33373730,
0x3b3b3b3b3b4e3b3b3b3b3b4c413b303b6f4c3b45564f4241204545524854205449474944204349444e492d434942415241204445444e4554584520485449572046454c412052455454454c204349424152413b34373730,
0x3b3b3b3b3b4e3b3b3b3b3b4c413b303b6f4c3b45564f4241204f5754205449474944204349444e492d434942415241204445444e455458452048544957204845592049535241462052455454454c204349424152413b35373730,
0x3b3b3b3b3b4e3b3b3b3b3b4c413b303b6f4c3b45564f4241204545524854205449474944204349444e492d434942415241204445444e455458452048544957204845592049535241462052455454454c204349424152413b36373730,
0x3b3b3b3b3b4e3b3b3b3b3b4c413b303b6f4c3b574f4c45422052554f46205449474944204349444e492d434942415241204445444e455458452048544957204845592049535241462052455454454c204349424152413b37373730,
0x3b3b3b3b3b4e3b3b3b3b3b4c413b303b6f4c3b45564f4241204f5754205449474944204349444e492d434942415241204445444e455458452048544957205741572052455454454c204349424152413b38373730,
0x3b3b3b3b3b4e3b3b3b3b3b4c413b303b6f4c3b45564f4241204545524854205449474944204349444e492d434942415241204445444e455458452048544957205741572052455454454c204349424152413b39373730,
0x3b3b3b3b3b4e3b3b3b3b3b4c413b303b6f4c3b45564f4241204f5754205449474944204349444e492d434942415241204445444e45545845204854495720454552524142204845592052455454454c204349424152413b41373730,
0x3b3b3b3b3b4e3b3b3b3b3b4c413b303b6f4c3b45564f4241204545524854205449474944204349444e492d434942415241204445444e45545845204854495720454552524142204845592052455454454c204349424152413b42373730,
0x3b3b3b3b3b4e3b3b3b3b3b4c413b303b6f4c3b574f4c45422052554f46205449474944204349444e492d434942415241204445444e455458452048544957204841482052455454454c204349424152413b43373730,
0x3b3b3b3b3b4e3b3b3b3b3b4c413b303b6f4c3b45564f42412052554f46205449474944204349444e492d434942415241204445444e455458452048544957204e4545532052455454454c204349424152413b44373730,
0x3b3b3b3b3b4e3b3b3b3b3b4c413b303b6f4c3b56204445545245564e492048544957204e4545532052455454454c204349424152413b45373730,
0x3b3b3b3b3b4e3b3b3b3b3b4c413b303b6f4c3b45564f42412053544f44204f575420485449572046414b2052455454454c204349424152413b46373730,
0x3b3b3b3b3b4e3b3b3b3b3b4c413b303b6f4c3b4141482052455454454c20414e414148543b30383730,
0x3b3b3b3b3b4e3b3b3b3b3b4c413b303b6f4c3b494e415949564148532052455454454c20414e414148543b31383730,
0x3b3b3b3b3b4e3b3b3b3b3b4c413b303b6f4c3b554e4f4f4e2052455454454c20414e414148543b32383730,
0x3b3b3b3b3b4e3b3b3b3b3b4c413b303b6f4c3b4141522052455454454c20414e414148543b33383730,
0x3b3b3b3b3b4e3b3b3b3b3b4c413b303b6f4c3b4141422052455454454c20414e414148543b34383730,
0x3b3b3b3b3b4e3b3b3b3b3b4c413b303b6f4c3b494e4159495641484c2052455454454c20414e414148543b35383730,
0x3b3b3b3b3b4e3b3b3b3b3b4c413b303b6f4c3b554641414b2052455454454c20414e414148543b36383730,
0x3b3b3b3b3b4e3b3b3b3b3b4c413b303b6f4c3b5546494c412052455454454c20414e414148543b37383730,
0x3b3b3b3b3b4e3b3b3b3b3b4c413b303b6f4c3b55564141562052455454454c20414e414148543b38383730,
0x3b3b3b3b3b4e3b3b3b3b3b4c413b303b6f4c3b554d45454d2052455454454c20414e414148543b39383730,
0x3b3b3b3b3b4e3b3b3b3b3b4c413b303b6f4c3b55464141462052455454454c20414e414148543b41383730,
0x3b3b3b3b3b4e3b3b3b3b3b4c413b303b6f4c3b554c414148442052455454454c20414e414148543b42383730,
0x3b3b3b3b3b4e3b3b3b3b3b4c413b303b6f4c3b414148542052455454454c20414e414148543b43383730,
0x3b3b3b3b3b4e3b3b3b3b3b4c413b303b6f4c3b554d41414c2052455454454c20414e414148543b44383730,
0x3b3b3b3b3b4e3b3b3b3b3b4c413b303b6f4c3b55464141472052455454454c20414e414148543b45383730,
0x3b3b3b3b3b4e3b3b3b3b3b4c413b303b6f4c3b494e41594956414e472052455454454c20414e414148543b46383730,
0x3b3b3b3b3b4e3b3b3b3b3b4c413b303b6f4c3b554e4545532052455454454c20414e414148543b30393730,
0x3b3b3b3b3b4e3b3b3b3b3b4c413b303b6f4c3b494e4159495641442052455454454c20414e414148543b31393730,
0x3b3b3b3b3b4e3b3b3b3b3b4c413b303b6f4c3b494e41594956415a2052455454454c20414e414148543b32393730,
0x3b3b3b3b3b4e3b3b3b3b3b4c413b303b6f4c3b494e4159495641542052455454454c20414e414148543b33393730,
0x3b3b3b3b3b4e3b3b3b3b3b4c413b303b6f4c3b4141592052455454454c20414e414148543b34393730,
0x3b3b3b3b3b4e3b3b3b3b3b4c413b303b6f4c3b494e4159495641502052455454454c20414e414148543b35393730,
0x3b3b3b3b3b4e3b3b3b3b3b4c413b303b6f4c3b494e41594956414a2052455454454c20414e414148543b36393730,
0x3b3b3b3b3b4e3b3b3b3b3b4c413b303b6f4c3b494e415949564148432052455454454c20414e414148543b37393730,
0x3b3b3b3b3b4e3b3b3b3b3b4c413b303b6f4c3b414154542052455454454c20414e414148543b38393730,
0x3b3b3b3b3b4e3b3b3b3b3b4c413b303b6f4c3b414148482052455454454c20414e414148543b39393730,
0x3b3b3b3b3b4e3b3b3b3b3b4c413b303b6f4c3b4141484b2052455454454c20414e414148543b41393730,
0x3b3b3b3b3b4e3b3b3b3b3b4c413b303b6f4c3b554c414148542052455454454c20414e414148543b42393730,
0x3b3b3b3b3b4e3b3b3b3b3b4c413b303b6f4c3b41415a2052455454454c20414e414148543b43393730,
0x3b3b3b3b3b4e3b3b3b3b3b4c413b303b6f4c3b554e454548532052455454454c20414e414148543b44393730,
0x3b3b3b3b3b4e3b3b3b3b3b4c413b303b6f4c3b5548444141532052455454454c20414e414148543b45393730,
0x3b3b3b3b3b4e3b3b3b3b3b4c413b303b6f4c3b5548444141442052455454454c20414e414148543b46393730,
0x3b3b3b3b3b4e3b3b3b3b3b4c413b303b6f4c3b4f542052455454454c20414e414148543b30413730,
0x3b3b3b3b3b4e3b3b3b3b3b4c413b303b6f4c3b4f5a2052455454454c20414e414148543b31413730,
0x3b3b3b3b3b4e3b3b3b3b3b4c413b303b6f4c3b554e49412052455454454c20414e414148543b32413730,
0x3b3b3b3b3b4e3b3b3b3b3b4c413b303b6f4c3b554e494148472052455454454c20414e414148543b33413730,
0x3b3b3b3b3b4e3b3b3b3b3b4c413b303b6f4c3b55464141512052455454454c20414e414148543b34413730,
0x3b3b3b3b3b4e3b3b3b3b3b4c413b303b6f4c3b55564141572052455454454c20414e414148543b35413730,
0x3b3b3b3b3b4e3b3b3b3b3b4d534e3b303b6e4d3b494c494641424120414e414148543b36413730,
0x3b3b3b3b3b4e3b3b3b3b3b4d534e3b303b6e4d3b494c4946414142414120414e414148543b37413730,
0x3b3b3b3b3b4e3b3b3b3b3b4d534e3b303b6e4d3b494c494649424920414e414148543b38413730,
0x3b3b3b3b3b4e3b3b3b3b3b4d534e3b303b6e4d3b494c4946454542454520414e414148543b39413730,
0x3b3b3b3b3b4e3b3b3b3b3b4d534e3b303b6e4d3b494c494655425520414e414148543b41413730,
0x3b3b3b3b3b4e3b3b3b3b3b4d534e3b303b6e4d3b494c49464f4f424f4f20414e414148543b42413730,
0x3b3b3b3b3b4e3b3b3b3b3b4d534e3b303b6e4d3b494c494645424520414e414148543b43413730,
0x3b3b3b3b3b4e3b3b3b3b3b4d534e3b303b6e4d3b494c4946594542594520414e414148543b44413730,
0x3b3b3b3b3b4e3b3b3b3b3b4d534e3b303b6e4d3b494c49464f424f20414e414148543b45413730,
0x3b3b3b3b3b4e3b3b3b3b3b4d534e3b303b6e4d3b494c4946414f42414f20414e414148543b46413730,
0x3b3b3b3b3b4e3b3b3b3b3b4d534e3b303b6e4d3b4e554b555320414e414148543b30423730,
0x3b3b3b3b3b4e3b3b3b3b3b4c413b303b6f4c3b41414e2052455454454c20414e414148543b31423730,
0x3b3b3b3b3b4e3b303b303b303b3b523b303b644e3b4f52455a205449474944204f4b4e3b30433730,
0x3b3b3b3b3b4e3b313b313b313b3b523b303b644e3b454e4f205449474944204f4b4e3b31433730,
0x3b3b3b3b3b4e3b323b323b323b3b523b303b644e3b4f5754205449474944204f4b4e3b32433730,
0x3b3b3b3b3b4e3b333b333b333b3b523b303b644e3b4545524854205449474944204f4b4e3b33433730,
0x3b3b3b3b3b4e3b343b343b343b3b523b303b644e3b52554f46205449474944204f4b4e3b34433730,
0x3b3b3b3b3b4e3b353b353b353b3b523b303b644e3b45564946205449474944204f4b4e3b35433730,
0x3b3b3b3b3b4e3b363b363b363b3b523b303b644e3b584953205449474944204f4b4e3b36433730,
0x3b3b3b3b3b4e3b373b373b373b3b523b303b644e3b4e45564553205449474944204f4b4e3b37433730,
0x3b3b3b3b3b4e3b383b383b383b3b523b303b644e3b5448474945205449474944204f4b4e3b38433730,
0x3b3b3b3b3b4e3b393b393b393b3b523b303b644e3b454e494e205449474944204f4b4e3b39433730,
0x3b3b3b3b3b4e3b3b3b3b3b523b303b6f4c3b412052455454454c204f4b4e3b41433730,
0x3b3b3b3b3b4e3b3b3b3b3b523b303b6f4c3b45452052455454454c204f4b4e3b42433730,
0x3b3b3b3b3b4e3b3b3b3b3b523b303b6f4c3b492052455454454c204f4b4e3b43433730,
0x3b3b3b3b3b4e3b3b3b3b3b523b303b6f4c3b452052455454454c204f4b4e3b44433730,
0x3b3b3b3b3b4e3b3b3b3b3b523b303b6f4c3b552052455454454c204f4b4e3b45433730,
0x3b3b3b3b3b4e3b3b3b3b3b523b303b6f4c3b4f4f2052455454454c204f4b4e3b46433730,
0x3b3b3b3b3b4e3b3b3b3b3b523b303b6f4c3b4f2052455454454c204f4b4e3b30443730,
0x3b3b3b3b3b4e3b3b3b3b3b523b303b6f4c3b414e4e495341424741442052455454454c204f4b4e3b31443730,
0x3b3b3b3b3b4e3b3b3b3b3b523b303b6f4c3b4e2052455454454c204f4b4e3b32443730,
0x3b3b3b3b3b4e3b3b3b3b3b523b303b6f4c3b41422052455454454c204f4b4e3b33443730,
0x3b3b3b3b3b4e3b3b3b3b3b523b303b6f4c3b41502052455454454c204f4b4e3b34443730,
0x3b3b3b3b3b4e3b3b3b3b3b523b303b6f4c3b41542052455454454c204f4b4e3b35443730,
0x3b3b3b3b3b4e3b3b3b3b3b523b303b6f4c3b414a2052455454454c204f4b4e3b36443730,
0x3b3b3b3b3b4e3b3b3b3b3b523b303b6f4c3b4148432052455454454c204f4b4e3b37443730,
0x3b3b3b3b3b4e3b3b3b3b3b523b303b6f4c3b41442052455454454c204f4b4e3b38443730,
0x3b3b3b3b3b4e3b3b3b3b3b523b303b6f4c3b41522052455454454c204f4b4e3b39443730,
0x3b3b3b3b3b4e3b3b3b3b3b523b303b6f4c3b4152522052455454454c204f4b4e3b41443730,
0x3b3b3b3b3b4e3b3b3b3b3b523b303b6f4c3b41532052455454454c204f4b4e3b42443730,
0x3b3b3b3b3b4e3b3b3b3b3b523b303b6f4c3b4142472052455454454c204f4b4e3b43443730,
0x3b3b3b3b3b4e3b3b3b3b3b523b303b6f4c3b41462052455454454c204f4b4e3b44443730,
0x3b3b3b3b3b4e3b3b3b3b3b523b303b6f4c3b414b2052455454454c204f4b4e3b45443730,
0x3b3b3b3b3b4e3b3b3b3b3b523b303b6f4c3b414c2052455454454c204f4b4e3b46443730,
0x3b3b3b3b3b4e3b3b3b3b3b523b303b6f4c3b4f534f4c4f5720414e2052455454454c204f4b4e3b30453730,
0x3b3b3b3b3b4e3b3b3b3b3b523b303b6f4c3b414d2052455454454c204f4b4e3b31453730,
0x3b3b3b3b3b4e3b3b3b3b3b523b303b6f4c3b41594e2052455454454c204f4b4e3b32453730,
0x3b3b3b3b3b4e3b3b3b3b3b523b303b6f4c3b414e2052455454454c204f4b4e3b33453730,
0x3b3b3b3b3b4e3b3b3b3b3b523b303b6f4c3b41482052455454454c204f4b4e3b34453730,
0x3b3b3b3b3b4e3b3b3b3b3b523b303b6f4c3b41572052455454454c204f4b4e3b35453730,
0x3b3b3b3b3b4e3b3b3b3b3b523b303b6f4c3b41592052455454454c204f4b4e3b36453730,
0x3b3b3b3b3b4e3b3b3b3b3b523b303b6f4c3b4f534f4c4f572041594e2052455454454c204f4b4e3b37453730,
0x3b3b3b3b3b4e3b3b3b3b3b523b303b6f4c3b414a20414e4f4a2052455454454c204f4b4e3b38453730,
0x3b3b3b3b3b4e3b3b3b3b3b523b303b6f4c3b41484320414e4f4a2052455454454c204f4b4e3b39453730,
0x3b3b3b3b3b4e3b3b3b3b3b523b303b6f4c3b415220414e4f4a2052455454454c204f4b4e3b41453730,
0x3b3b3b3b3b4e3b3b3b3b3b4d534e3b3033323b6e4d3b454e4f5420484749482054524f485320474e494e49424d4f43204f4b4e3b42453730,
0x3b3b3b3b3b4e3b3b3b3b3b4d534e3b3033323b6e4d3b454e4f5420574f4c2054524f485320474e494e49424d4f43204f4b4e3b43453730,
0x3b3b3b3b3b4e3b3b3b3b3b4d534e3b3033323b6e4d3b454e4f5420474e495349522054524f485320474e494e49424d4f43204f4b4e3b44453730,
0x3b3b3b3b3b4e3b3b3b3b3b4d534e3b3033323b6e4d3b454e4f5420474e49444e454353454420474e4f4c20474e494e49424d4f43204f4b4e3b45453730,
0x3b3b3b3b3b4e3b3b3b3b3b4d534e3b3033323b6e4d3b454e4f54204847494820474e4f4c20474e494e49424d4f43204f4b4e3b46453730,
0x3b3b3b3b3b4e3b3b3b3b3b4d534e3b3033323b6e4d3b454e4f5420574f4c20474e4f4c20474e494e49424d4f43204f4b4e3b30463730,
0x3b3b3b3b3b4e3b3b3b3b3b4d534e3b3033323b6e4d3b454e4f5420474e4953495220474e4f4c20474e494e49424d4f43204f4b4e3b31463730,
0x3b3b3b3b3b4e3b3b3b3b3b4d534e3b3032323b6e4d3b4b52414d204e4f4954415a494c4153414e20474e494e49424d4f43204f4b4e3b32463730,
0x3b3b3b3b3b4e3b3b3b3b3b4d534e3b3033323b6e4d3b45564f424120544f4420454c42554f4420474e494e49424d4f43204f4b4e3b33463730,
0x3b3b3b3b3b4e3b3b3b3b3b523b303b6d4c3b4548504f5254534f504120454e4f542048474948204f4b4e3b34463730,
0x3b3b3b3b3b4e3b3b3b3b3b523b303b6d4c3b4548504f5254534f504120454e4f5420574f4c204f4b4e3b35463730,
0x3b3b3b3b3b4e3b3b3b3b3b4e4f3b303b6f533b4e454e4e4544204f4f204c4f424d5953204f4b4e3b36463730,
0x3b3b3b3b3b4e3b3b3b3b3b4e4f3b303b6f503b4e454e5552554b414247204c4f424d5953204f4b4e3b37463730,
0x3b3b3b3b3b4e3b3b3b3b3b4e4f3b303b6f503b414d4d4f43204f4b4e3b38463730,
0x3b3b3b3b3b4e3b3b3b3b3b4e4f3b303b6f503b4b52414d204e4f4954414d414c435845204f4b4e3b39463730,
0x3b3b3b3b3b4e3b3b3b3b3b523b303b6d4c3b4e414c41594e414a414c204f4b4e3b41463730,
0x3b3b3b3b3b4e3b3b3b3b3b523b303b6f4c3b46414c412052455454454c204e41544952414d41533b30303830,
0x3b3b3b3b3b4e3b3b3b3b3b523b303b6f4c3b5449422052455454454c204e41544952414d41533b31303830,
0x3b3b3b3b3b4e3b3b3b3b3b523b303b6f4c3b4e414d41472052455454454c204e41544952414d41533b32303830,
0x3b3b3b3b3b4e3b3b3b3b3b523b303b6f4c3b54414c41442052455454454c204e41544952414d41533b33303830,
0x3b3b3b3b3b4e3b3b3b3b3b523b303b6f4c3b59492052455454454c204e41544952414d41533b34303830,
0x3b3b3b3b3b4e3b3b3b3b3b523b303b6f4c3b4141422052455454454c204e41544952414d41533b35303830,
0x3b3b3b3b3b4e3b3b3b3b3b523b303b6f4c3b4e455a2052455454454c204e41544952414d41533b36303830,
0x3b3b3b3b3b4e3b3b3b3b3b523b303b6f4c3b54492052455454454c204e41544952414d41533b37303830,
0x3b3b3b3b3b4e3b3b3b3b3b523b303b6f4c3b5449542052455454454c204e41544952414d41533b38303830,
0x3b3b3b3b3b4e3b3b3b3b3b523b303b6f4c3b5455592052455454454c204e41544952414d41533b39303830,
0x3b3b3b3b3b4e3b3b3b3b3b523b303b6f4c3b4641414b2052455454454c204e41544952414d41533b41303830,
0x3b3b3b3b3b4e3b3b3b3b3b523b303b6f4c3b544142414c2052455454454c204e41544952414d41533b42303830,
0x3b3b3b3b3b4e3b3b3b3b3b523b303b6f4c3b4d494d2052455454454c204e41544952414d41533b43303830,
0x3b3b3b3b3b4e3b3b3b3b3b523b303b6f4c3b4e554e2052455454454c204e41544952414d41533b44303830,
0x3b3b3b3b3b4e3b3b3b3b3b523b303b6f4c3b544141474e49532052455454454c204e41544952414d41533b45303830,
0x3b3b3b3b3b4e3b3b3b3b3b523b303b6f4c3b4e492052455454454c204e41544952414d41533b46303830,
0x3b3b3b3b3b4e3b3b3b3b3b523b303b6f4c3b49462052455454454c204e41544952414d41533b30313830,
0x3b3b3b3b3b4e3b3b3b3b3b523b303b6f4c3b594944414153542052455454454c204e41544952414d41533b31313830,
0x3b3b3b3b3b4e3b3b3b3b3b523b303b6f4c3b4655512052455454454c204e41544952414d41533b32313830,
0x3b3b3b3b3b4e3b3b3b3b3b523b303b6f4c3b485349522052455454454c204e41544952414d41533b33313830,
0x3b3b3b3b3b4e3b3b3b3b3b523b303b6f4c3b4e4148532052455454454c204e41544952414d41533b34313830,
0x3b3b3b3b3b4e3b3b3b3b3b523b303b6f4c3b464141542052455454454c204e41544952414d41533b35313830,
0x3b3b3b3b3b4e3b3b3b3b3b4d534e3b3033323b6e4d3b4e49204b52414d204e41544952414d41533b36313830,
0x3b3b3b3b3b4e3b3b3b3b3b4d534e3b3033323b6e4d3b46414c412d4e49204b52414d204e41544952414d41533b37313830,
0x3b3b3b3b3b4e3b3b3b3b3b4d534e3b3033323b6e4d3b4e4f4953554c43434f204b52414d204e41544952414d41533b38313830,
0x3b3b3b3b3b4e3b3b3b3b3b4d534e3b3033323b6e4d3b485345474144204b52414d204e41544952414d41533b39313830,
0x3b3b3b3b3b4e3b3b3b3b3b523b303b6d4c3b545559204349544548544e4550452052455454454c205245494649444f4d204e41544952414d41533b41313830,
0x3b3b3b3b3b4e3b3b3b3b3b4d534e3b3033323b6e4d3b545559204349544548544e455045204b52414d204e41544952414d41533b42313830,
0x3b3b3b3b3b4e3b3b3b3b3b4d534e3b3033323b6e4d3b4520474e4f4c204e474953204c45574f56204e41544952414d41533b43313830,
0x3b3b3b3b3b4e3b3b3b3b3b4d534e3b3033323b6e4d3b45204e474953204c45574f56204e41544952414d41533b44313830,
0x3b3b3b3b3b4e3b3b3b3b3b4d534e3b3033323b6e4d3b414120474e4f4c5245564f204e474953204c45574f56204e41544952414d41533b45313830,
0x3b3b3b3b3b4e3b3b3b3b3b4d534e3b3033323b6e4d3b414120474e4f4c204e474953204c45574f56204e41544952414d41533b46313830,
0x3b3b3b3b3b4e3b3b3b3b3b4d534e3b3033323b6e4d3b4141204e474953204c45574f56204e41544952414d41533b30323830,
0x3b3b3b3b3b4e3b3b3b3b3b4d534e3b3033323b6e4d3b4120474e4f4c5245564f204e474953204c45574f56204e41544952414d41533b31323830,
0x3b3b3b3b3b4e3b3b3b3b3b4d534e3b3033323b6e4d3b4120474e4f4c204e474953204c45574f56204e41544952414d41533b32323830,
0x3b3b3b3b3b4e3b3b3b3b3b4d534e3b3033323b6e4d3b41204e474953204c45574f56204e41544952414d41533b33323830,
0x3b3b3b3b3b4e3b3b3b3b3b523b303b6d4c3b412054524f48532052455454454c205245494649444f4d204e41544952414d41533b34323830,
0x3b3b3b3b3b4e3b3b3b3b3b4d534e3b3033323b6e4d3b412054524f4853204e474953204c45574f56204e41544952414d41533b35323830,
0x3b3b3b3b3b4e3b3b3b3b3b4d534e3b3033323b6e4d3b5520474e4f4c204e474953204c45574f56204e41544952414d41533b36323830,
0x3b3b3b3b3b4e3b3b3b3b3b4d534e3b3033323b6e4d3b55204e474953204c45574f56204e41544952414d41533b37323830,
0x3b3b3b3b3b4e3b3b3b3b3b523b303b6d4c3b492052455454454c205245494649444f4d204e41544952414d41533b38323830,
0x3b3b3b3b3b4e3b3b3b3b3b4d534e3b3033323b6e4d3b4920474e4f4c204e474953204c45574f56204e41544952414d41533b39323830,
0x3b3b3b3b3b4e3b3b3b3b3b4d534e3b3033323b6e4d3b49204e474953204c45574f56204e41544952414d41533b41323830,
0x3b3b3b3b3b4e3b3b3b3b3b4d534e3b3033323b6e4d3b4f204e474953204c45574f56204e41544952414d41533b42323830,
0x3b3b3b3b3b4e3b3b3b3b3b4d534e3b3033323b6e4d3b4e554b5553204e474953204c45574f56204e41544952414d41533b43323830,
0x3b3b3b3b3b4e3b3b3b3b3b4d534e3b3033323b6e4d3b4141445551454e204b52414d204e41544952414d41533b44323830,
0x3b3b3b3b3b4e3b3b3b3b3b523b303b6f503b4141445551454e204e4f4954415554434e5550204e41544952414d41533b30333830,
0x3b3b3b3b3b4e3b3b3b3b3b523b303b6f503b514141534641204e4f4954415554434e5550204e41544952414d41533b31333830,
0x3b3b3b3b3b4e3b3b3b3b3b523b303b6f503b4445474e41204e4f4954415554434e5550204e41544952414d41533b32333830,
0x3b3b3b3b3b4e3b3b3b3b3b523b303b6f503b554142204e4f4954415554434e5550204e41544952414d41533b33333830,
0x3b3b3b3b3b4e3b3b3b3b3b523b303b6f503b5541414d5441204e4f4954415554434e5550204e41544952414d41533b34333830,
0x3b3b3b3b3b4e3b3b3b3b3b523b303b6f503b41414c41415959494853204e4f4954415554434e5550204e41544952414d41533b35333830,
0x3b3b3b3b3b4e3b3b3b3b3b523b303b6f503b4b52414d204e4f49544149564552424241204e41544952414d41533b36333830,
0x3b3b3b3b3b4e3b3b3b3b3b523b303b6f503b4153544951204349444f4c454d204e4f4954415554434e5550204e41544952414d41533b37333830,
0x3b3b3b3b3b4e3b3b3b3b3b523b303b6f503b414151495a204e4f4954415554434e5550204e41544952414d41533b38333830,
0x3b3b3b3b3b4e3b3b3b3b3b523b303b6f503b4153544951204e4f4954415554434e5550204e41544952414d41533b39333830,
0x3b3b3b3b3b4e3b3b3b3b3b523b303b6f503b4645415a204e4f4954415554434e5550204e41544952414d41533b41333830,
0x3b3b3b3b3b4e3b3b3b3b3b523b303b6f503b55525554204e4f4954415554434e5550204e41544952414d41533b42333830,
0x3b3b3b3b3b4e3b3b3b3b3b523b303b6f503b554e41414b5241204e4f4954415554434e5550204e41544952414d41533b43333830,
0x3b3b3b3b3b4e3b3b3b3b3b523b303b6f503b544141464853414d20464f53204e4f4954415554434e5550204e41544952414d41533b44333830,
0x3b3b3b3b3b4e3b3b3b3b3b523b303b6f503b5541414e4e41204e4f4954415554434e5550204e41544952414d41533b45333830,
0x3b3b3b3b3b4e3b3b3b3b3b523b303b6f4c3b41514c41482052455454454c20434941444e414d3b30343830,
0x3b3b3b3b3b4e3b3b3b3b3b523b303b6f4c3b42412052455454454c20434941444e414d3b31343830,
0x3b3b3b3b3b4e3b3b3b3b3b523b303b6f4c3b47412052455454454c20434941444e414d3b32343830]

/-- src/u5e/props/UnicodeData.txt lines 2049-2304. -/
def rawUcd8 : List Nat := [
0x3b3b3b3b3b4e3b3b3b3b3b523b303b6f4c3b44412052455454454c20434941444e414d3b33343830,
0x3b3b3b3b3b4e3b3b3b3b3b523b303b6f4c3b48412052455454454c20434941444e414d3b34343830,
0x3b3b3b3b3b4e3b3b3b3b3b523b303b6f4c3b414e4e454853552052455454454c20434941444e414d3b35343830,
0x3b3b3b3b3b4e3b3b3b3b3b523b303b6f4c3b5a412052455454454c20434941444e414d3b36343830,
0x3b3b3b3b3b4e3b3b3b3b3b523b303b6f4c3b54492052455454454c20434941444e414d3b37343830,
0x3b3b3b3b3b4e3b3b3b3b3b523b303b6f4c3b5454412052455454454c20434941444e414d3b38343830,
0x3b3b3b3b3b4e3b3b3b3b3b523b303b6f4c3b41534b412052455454454c20434941444e414d3b39343830,
0x3b3b3b3b3b4e3b3b3b3b3b523b303b6f4c3b4b412052455454454c20434941444e414d3b41343830,
0x3b3b3b3b3b4e3b3b3b3b3b523b303b6f4c3b4c412052455454454c20434941444e414d3b42343830,
0x3b3b3b3b3b4e3b3b3b3b3b523b303b6f4c3b4d412052455454454c20434941444e414d3b43343830,
0x3b3b3b3b3b4e3b3b3b3b3b523b303b6f4c3b4e412052455454454c20434941444e414d3b44343830,
0x3b3b3b3b3b4e3b3b3b3b3b523b303b6f4c3b53412052455454454c20434941444e414d3b45343830,
0x3b3b3b3b3b4e3b3b3b3b3b523b303b6f4c3b4e492052455454454c20434941444e414d3b46343830,
0x3b3b3b3b3b4e3b3b3b3b3b523b303b6f4c3b50412052455454454c20434941444e414d3b30353830,
0x3b3b3b3b3b4e3b3b3b3b3b523b303b6f4c3b5a53412052455454454c20434941444e414d3b31353830,
0x3b3b3b3b3b4e3b3b3b3b3b523b303b6f4c3b51412052455454454c20434941444e414d3b32353830,
0x3b3b3b3b3b4e3b3b3b3b3b523b303b6f4c3b52412052455454454c20434941444e414d3b33353830,
0x3b3b3b3b3b4e3b3b3b3b3b523b303b6f4c3b4853412052455454454c20434941444e414d3b34353830,
0x3b3b3b3b3b4e3b3b3b3b3b523b303b6f4c3b54412052455454454c20434941444e414d3b35353830,
0x3b3b3b3b3b4e3b3b3b3b3b523b303b6f4c3b414e4e45485355442052455454454c20434941444e414d3b36353830,
0x3b3b3b3b3b4e3b3b3b3b3b523b303b6f4c3b44414b2052455454454c20434941444e414d3b37353830,
0x3b3b3b3b3b4e3b3b3b3b3b523b303b6f4c3b4e49412052455454454c20434941444e414d3b38353830,
0x3b3b3b3b3b4e3b3b3b3b3b4d534e3b3032323b6e4d3b4b52414d204e4f49544143495246464120434941444e414d3b39353830,
0x3b3b3b3b3b4e3b3b3b3b3b4d534e3b3032323b6e4d3b4b52414d204e4f4954415a494c41434f5620434941444e414d3b41353830,
0x3b3b3b3b3b4e3b3b3b3b3b4d534e3b3032323b6e4d3b4b52414d204e4f4954414e494d454720434941444e414d3b42353830,
0x3b3b3b3b3b4e3b3b3b3b3b523b303b6f503b4e4f4954415554434e555020434941444e414d3b45353830,
0x3b3b3b3b3b4e3b3b3b3b3b4c413b303b6f4c3b574f4c45422056204c4c414d532048544957204845422052455454454c204349424152413b30413830,
0x3b3b3b3b3b4e3b3b3b3b3b4c413b303b6f4c3b45564f424120415a4d41482048544957204845422052455454454c204349424152413b31413830,
0x3b3b3b3b3b4e3b3b3b3b3b4c413b303b6f4c3b45564f42412053544f44204f57542048544957204d45454a2052455454454c204349424152413b32413830,
0x3b3b3b3b3b4e3b3b3b3b3b4c413b303b6f4c3b45564f42412053544f44204f57542048544957204841542052455454454c204349424152413b33413830,
0x3b3b3b3b3b4e3b3b3b3b3b4c413b303b6f4c3b45564f42412053544f4420454552485420444e4120574f4c454220544f442048544957204845462052455454454c204349424152413b34413830,
0x3b3b3b3b3b4e3b3b3b3b3b4c413b303b6f4c3b574f4c454220544f442048544957204641512052455454454c204349424152413b35413830,
0x3b3b3b3b3b4e3b3b3b3b3b4c413b303b6f4c3b52414220454c42554f442048544957204d414c2052455454454c204349424152413b36413830,
0x3b3b3b3b3b4e3b3b3b3b3b4c413b303b6f4c3b45564f42412053544f442045455248542048544957204d45454d2052455454454c204349424152413b37413830,
0x3b3b3b3b3b4e3b3b3b3b3b4c413b303b6f4c3b45564f424120415a4d414820444e4120574f4c45422053544f44204f57542048544957204845592052455454454c204349424152413b38413830,
0x3b3b3b3b3b4e3b3b3b3b3b4c413b303b6f4c3b45564f424120544f4420444e4120574f4c45422053544f44204f57542048544957204845592052455454454c204349424152413b39413830,
0x3b3b3b3b3b4e3b3b3b3b3b4c413b303b6f4c3b504f4f4c2048544957204845522052455454454c204349424152413b41413830,
0x3b3b3b3b3b4e3b3b3b3b3b4c413b303b6f4c3b4e494854495720544f442048544957205741572052455454454c204349424152413b42413830,
0x3b3b3b3b3b4e3b3b3b3b3b4c413b303b6f4c3b484559204159474e49484f522052455454454c204349424152413b43413830,
0x3b3b3b3b3b4e3b3b3b3b3b4c413b303b6f4c3b46454c4120574f4c2052455454454c204349424152413b44413830,
0x3b3b3b3b3b4e3b3b3b3b3b4c413b303b6f4c3b574f4c45422053544f442045455248542048544957204c41442052455454454c204349424152413b45413830,
0x3b3b3b3b3b4e3b3b3b3b3b4c413b303b6f4c3b574f4c45422053544f442045455248542048544957204441532052455454454c204349424152413b46413830,
0x3b3b3b3b3b4e3b3b3b3b3b4c413b303b6f4c3b454b4f525453204445545245564e492048544957204641472052455454454c204349424152413b30423830,
0x3b3b3b3b3b4e3b3b3b3b3b4c413b303b6f4c3b5741572054484749415254532052455454454c204349424152413b31423830,
0x3b3b3b3b3b4e3b3b3b3b3b4c413b303b6f4c3b45564f42412056204445545245564e492048544957204e49415a2052455454454c204349424152413b32423830,
0x3b3b3b3b3b4e3b3b3b3b3b4c413b303b6f4c3b574f4c45422053544f442045455248542048544957204e49412052455454454c204349424152413b33423830,
0x3b3b3b3b3b4e3b3b3b3b3b4c413b303b6f4c3b574f4c454220544f4420485449572046414b2052455454454c204349424152413b34423830,
0x3b3b3b3b3b4e3b3b3b3b3b4c413b303b6f4c3b45564f4241204d45454d204c4c414d532048544957204845422052455454454c204349424152413b36423830,
0x3b3b3b3b3b4e3b3b3b3b3b4c413b303b6f4c3b45564f4241204d45454d204c4c414d532048544957204845502052455454454c204349424152413b37423830,
0x3b3b3b3b3b4e3b3b3b3b3b4c413b303b6f4c3b45564f424120484554204c4c414d532048544957204845542052455454454c204349424152413b38423830,
0x3b3b3b3b3b4e3b3b3b3b3b4c413b303b6f4c3b45564f4241204e4f4f4e204c4c414d532048544957204845522052455454454c204349424152413b39423830,
0x3b3b3b3b3b4e3b3b3b3b3b4c413b303b6f4c3b45564f4241204e4f4f4e204c4c414d5320444e4120574f4c45422053544f44204f57542048544957204845592052455454454c204349424152413b41423830,
0x3b3b3b3b3b4e3b3b3b3b3b4c413b303b6f4c3b484546204e4143495246412052455454454c204349424152413b42423830,
0x3b3b3b3b3b4e3b3b3b3b3b4c413b303b6f4c3b464151204e4143495246412052455454454c204349424152413b43423830,
0x3b3b3b3b3b4e3b3b3b3b3b4c413b303b6f4c3b4e4f4f4e204e4143495246412052455454454c204349424152413b44423830,
0x3b3b3b3b3b4e3b3b3b3b3b4d534e3b3033323b6e4d3b4255522d52412044524f572048474948204c4c414d53204349424152413b34443830,
0x3b3b3b3b3b4e3b3b3b3b3b4d534e3b3033323b6e4d3b4441532048474948204c4c414d53204349424152413b35443830,
0x3b3b3b3b3b4e3b3b3b3b3b4d534e3b3033323b6e4d3b4e49412048474948204c4c414d53204349424152413b36443830,
0x3b3b3b3b3b4e3b3b3b3b3b4d534e3b3033323b6e4d3b4641512048474948204c4c414d53204349424152413b37443830,
0x3b3b3b3b3b4e3b3b3b3b3b4d534e3b3033323b6e4d3b415253414b2048544957204e4f4f4e2048474948204c4c414d53204349424152413b38443830,
0x3b3b3b3b3b4e3b3b3b3b3b4d534e3b3033323b6e4d3b415253414b2048544957204e4f4f4e20574f4c204c4c414d53204349424152413b39443830,
0x3b3b3b3b3b4e3b3b3b3b3b4d534e3b3033323b6e4d3b414854414c4148542d4854412044524f572048474948204c4c414d53204349424152413b41443830,
0x3b3b3b3b3b4e3b3b3b3b3b4d534e3b3033323b6e4d3b41444a41532d53412044524f572048474948204c4c414d53204349424152413b42443830,
0x3b3b3b3b3b4e3b3b3b3b3b4d534e3b3033323b6e4d3b4653494e2d4e412044524f572048474948204c4c414d53204349424152413b43443830,
0x3b3b3b3b3b4e3b3b3b3b3b4d534e3b3033323b6e4d3b41544b41532044524f572048474948204c4c414d53204349424152413b44443830,
0x3b3b3b3b3b4e3b3b3b3b3b4d534e3b3033323b6e4d3b4649512044524f572048474948204c4c414d53204349424152413b45443830,
0x3b3b3b3b3b4e3b3b3b3b3b4d534e3b3033323b6e4d3b41465141572044524f572048474948204c4c414d53204349424152413b46443830,
0x3b3b3b3b3b4e3b3b3b3b3b4d534e3b3033323b6e4d3b52454b52414d2045544f4e544f4f462048474948204c4c414d53204349424152413b30453830,
0x3b3b3b3b3b4e3b3b3b3b3b4d534e3b3033323b6e4d3b4148464153204e4749532048474948204c4c414d53204349424152413b31453830,
0x3b3b3b3b3b4e3b3b3b3b3b4e413b303b66433b4841594120464f20444e45204445545550534944204349424152413b32453830,
0x3b3b3b3b3b4e3b3b3b3b3b4d534e3b3032323b6e4d3b574f4c454220414d4d41442044454e525554204349424152413b33453830,
0x3b3b3b3b3b4e3b3b3b3b3b4d534e3b3033323b6e4d3b414854414620594c525543204349424152413b34453830,
0x3b3b3b3b3b4e3b3b3b3b3b4d534e3b3033323b6e4d3b414d4d414420594c525543204349424152413b35453830,
0x3b3b3b3b3b4e3b3b3b3b3b4d534e3b3032323b6e4d3b415253414b20594c525543204349424152413b36453830,
0x3b3b3b3b3b4e3b3b3b3b3b4d534e3b3033323b6e4d3b4e4154414854414620594c525543204349424152413b37453830,
0x3b3b3b3b3b4e3b3b3b3b3b4d534e3b3033323b6e4d3b4e4154414d4d414420594c525543204349424152413b38453830,
0x3b3b3b3b3b4e3b3b3b3b3b4d534e3b3032323b6e4d3b4e4154415253414b20594c525543204349424152413b39453830,
0x3b3b3b3b3b4e3b3b3b3b3b4d534e3b3033323b6e4d3b45564f424120544f4420454e4f20454e4f54204349424152413b41453830,
0x3b3b3b3b3b4e3b3b3b3b3b4d534e3b3033323b6e4d3b45564f42412053544f44204f575420454e4f54204349424152413b42453830,
0x3b3b3b3b3b4e3b3b3b3b3b4d534e3b3033323b6e4d3b45564f424120504f4f4c20454e4f54204349424152413b43453830,
0x3b3b3b3b3b4e3b3b3b3b3b4d534e3b3032323b6e4d3b574f4c454220544f4420454e4f20454e4f54204349424152413b44453830,
0x3b3b3b3b3b4e3b3b3b3b3b4d534e3b3032323b6e4d3b574f4c45422053544f44204f575420454e4f54204349424152413b45453830,
0x3b3b3b3b3b4e3b3b3b3b3b4d534e3b3032323b6e4d3b574f4c454220504f4f4c20454e4f54204349424152413b46453830,
0x3b3b3b3b3b4e3b3b3b3b3b4d534e3b37323b6e4d3b4e41544148544146204e45504f204349424152413b30463830,
0x3b3b3b3b3b4e3b3b3b3b3b4d534e3b38323b6e4d3b4e4154414d4d4144204e45504f204349424152413b31463830,
0x3b3b3b3b3b4e3b3b3b3b3b4d534e3b39323b6e4d3b4e4154415253414b204e45504f204349424152413b32463830,
0x3b3b3b3b3b4e3b3b3b3b3b4d534e3b3033323b6e4d3b5741572048474948204c4c414d53204349424152413b33463830,
0x3b3b3b3b3b4e3b3b3b3b3b4d534e3b3033323b6e4d3b474e49522048544957204148544146204349424152413b34463830,
0x3b3b3b3b3b4e3b3b3b3b3b4d534e3b3033323b6e4d3b45564f424120544f442048544957204148544146204349424152413b35463830,
0x3b3b3b3b3b4e3b3b3b3b3b4d534e3b3032323b6e4d3b574f4c454220544f44204854495720415253414b204349424152413b36463830,
0x3b3b3b3b3b4e3b3b3b3b3b4d534e3b3033323b6e4d3b45564f42412044414548574f525241205446454c204349424152413b37463830,
0x3b3b3b3b3b4e3b3b3b3b3b4d534e3b3033323b6e4d3b45564f42412044414548574f525241205448474952204349424152413b38463830,
0x3b3b3b3b3b4e3b3b3b3b3b4d534e3b3032323b6e4d3b574f4c45422044414548574f525241205446454c204349424152413b39463830,
0x3b3b3b3b3b4e3b3b3b3b3b4d534e3b3032323b6e4d3b574f4c45422044414548574f525241205448474952204349424152413b41463830,
0x3b3b3b3b3b4e3b3b3b3b3b4d534e3b3033323b6e4d3b45564f42412044414548574f52524120544847495220454c42554f44204349424152413b42463830,
0x3b3b3b3b3b4e3b3b3b3b3b4d534e3b3033323b6e4d3b544f4420485449572045564f42412044414548574f52524120544847495220454c42554f44204349424152413b43463830,
0x3b3b3b3b3b4e3b3b3b3b3b4d534e3b3033323b6e4d3b544f4420485449572045564f42412044414548574f525241205448474952204349424152413b44463830,
0x3b3b3b3b3b4e3b3b3b3b3b4d534e3b3033323b6e4d3b544f44204854495720414d4d4144204349424152413b45463830,
0x3b3b3b3b3b4e3b3b3b3b3b4d534e3b3033323b6e4d3b414e4e554847204e4f4f4e205359415745444953204b52414d204349424152413b46463830,
0x3b3b3b3b3b4e3b3b3b3b3b4d534e3b303b6e4d3b55444e49424152444e4143204445545245564e49204e4749532049524147414e415645443b30303930,
0x3b3b3b3b3b4e3b3b3b3b3b4d534e3b303b6e4d3b55444e49424152444e4143204e4749532049524147414e415645443b31303930,
0x3b3b3b3b3b4e3b3b3b3b3b4d534e3b303b6e4d3b4152415653554e41204e4749532049524147414e415645443b32303930,
0x3b3b3b3b3b4e3b3b3b3b3b4c3b303b634d3b41475241534956204e4749532049524147414e415645443b33303930,
0x3b3b3b3b3b4e3b3b3b3b3b4c3b303b6f4c3b412054524f48532052455454454c2049524147414e415645443b34303930,
0x3b3b3b3b3b4e3b3b3b3b3b4c3b303b6f4c3b412052455454454c2049524147414e415645443b35303930,
0x3b3b3b3b3b4e3b3b3b3b3b4c3b303b6f4c3b41412052455454454c2049524147414e415645443b36303930,
0x3b3b3b3b3b4e3b3b3b3b3b4c3b303b6f4c3b492052455454454c2049524147414e415645443b37303930,
0x3b3b3b3b3b4e3b3b3b3b3b4c3b303b6f4c3b49492052455454454c2049524147414e415645443b38303930,
0x3b3b3b3b3b4e3b3b3b3b3b4c3b303b6f4c3b552052455454454c2049524147414e415645443b39303930,
0x3b3b3b3b3b4e3b3b3b3b3b4c3b303b6f4c3b55552052455454454c2049524147414e415645443b41303930,
0x3b3b3b3b3b4e3b3b3b3b3b4c3b303b6f4c3b522043494c41434f562052455454454c2049524147414e415645443b42303930,
0x3b3b3b3b3b4e3b3b3b3b3b4c3b303b6f4c3b4c2043494c41434f562052455454454c2049524147414e415645443b43303930,
0x3b3b3b3b3b4e3b3b3b3b3b4c3b303b6f4c3b45204152444e41432052455454454c2049524147414e415645443b44303930,
0x3b3b3b3b3b4e3b3b3b3b3b4c3b303b6f4c3b452054524f48532052455454454c2049524147414e415645443b45303930,
0x3b3b3b3b3b4e3b3b3b3b3b4c3b303b6f4c3b452052455454454c2049524147414e415645443b46303930,
0x3b3b3b3b3b4e3b3b3b3b3b4c3b303b6f4c3b49412052455454454c2049524147414e415645443b30313930,
0x3b3b3b3b3b4e3b3b3b3b3b4c3b303b6f4c3b4f204152444e41432052455454454c2049524147414e415645443b31313930,
0x3b3b3b3b3b4e3b3b3b3b3b4c3b303b6f4c3b4f2054524f48532052455454454c2049524147414e415645443b32313930,
0x3b3b3b3b3b4e3b3b3b3b3b4c3b303b6f4c3b4f2052455454454c2049524147414e415645443b33313930,
0x3b3b3b3b3b4e3b3b3b3b3b4c3b303b6f4c3b55412052455454454c2049524147414e415645443b34313930,
0x3b3b3b3b3b4e3b3b3b3b3b4c3b303b6f4c3b414b2052455454454c2049524147414e415645443b35313930,
0x3b3b3b3b3b4e3b3b3b3b3b4c3b303b6f4c3b41484b2052455454454c2049524147414e415645443b36313930,
0x3b3b3b3b3b4e3b3b3b3b3b4c3b303b6f4c3b41472052455454454c2049524147414e415645443b37313930,
0x3b3b3b3b3b4e3b3b3b3b3b4c3b303b6f4c3b4148472052455454454c2049524147414e415645443b38313930,
0x3b3b3b3b3b4e3b3b3b3b3b4c3b303b6f4c3b41474e2052455454454c2049524147414e415645443b39313930,
0x3b3b3b3b3b4e3b3b3b3b3b4c3b303b6f4c3b41432052455454454c2049524147414e415645443b41313930,
0x3b3b3b3b3b4e3b3b3b3b3b4c3b303b6f4c3b4148432052455454454c2049524147414e415645443b42313930,
0x3b3b3b3b3b4e3b3b3b3b3b4c3b303b6f4c3b414a2052455454454c2049524147414e415645443b43313930,
0x3b3b3b3b3b4e3b3b3b3b3b4c3b303b6f4c3b41484a2052455454454c2049524147414e415645443b44313930,
0x3b3b3b3b3b4e3b3b3b3b3b4c3b303b6f4c3b41594e2052455454454c2049524147414e415645443b45313930,
0x3b3b3b3b3b4e3b3b3b3b3b4c3b303b6f4c3b4154542052455454454c2049524147414e415645443b46313930,
0x3b3b3b3b3b4e3b3b3b3b3b4c3b303b6f4c3b414854542052455454454c2049524147414e415645443b30323930,
0x3b3b3b3b3b4e3b3b3b3b3b4c3b303b6f4c3b4144442052455454454c2049524147414e415645443b31323930,
0x3b3b3b3b3b4e3b3b3b3b3b4c3b303b6f4c3b414844442052455454454c2049524147414e415645443b32323930,
0x3b3b3b3b3b4e3b3b3b3b3b4c3b303b6f4c3b414e4e2052455454454c2049524147414e415645443b33323930,
0x3b3b3b3b3b4e3b3b3b3b3b4c3b303b6f4c3b41542052455454454c2049524147414e415645443b34323930,
0x3b3b3b3b3b4e3b3b3b3b3b4c3b303b6f4c3b4148542052455454454c2049524147414e415645443b35323930,
0x3b3b3b3b3b4e3b3b3b3b3b4c3b303b6f4c3b41442052455454454c2049524147414e415645443b36323930,
0x3b3b3b3b3b4e3b3b3b3b3b4c3b303b6f4c3b4148442052455454454c2049524147414e415645443b37323930,
0x3b3b3b3b3b4e3b3b3b3b3b4c3b303b6f4c3b414e2052455454454c2049524147414e415645443b38323930,
0x3b3b3b3b3b4e3b3b3b3b4333393020383239303b4c3b303b6f4c3b414e4e4e2052455454454c2049524147414e415645443b39323930,
0x3b3b3b3b3b4e3b3b3b3b3b4c3b303b6f4c3b41502052455454454c2049524147414e415645443b41323930,
0x3b3b3b3b3b4e3b3b3b3b3b4c3b303b6f4c3b4148502052455454454c2049524147414e415645443b42323930,
0x3b3b3b3b3b4e3b3b3b3b3b4c3b303b6f4c3b41422052455454454c2049524147414e415645443b43323930,
0x3b3b3b3b3b4e3b3b3b3b3b4c3b303b6f4c3b4148422052455454454c2049524147414e415645443b44323930,
0x3b3b3b3b3b4e3b3b3b3b3b4c3b303b6f4c3b414d2052455454454c2049524147414e415645443b45323930,
0x3b3b3b3b3b4e3b3b3b3b3b4c3b303b6f4c3b41592052455454454c2049524147414e415645443b46323930,
0x3b3b3b3b3b4e3b3b3b3b3b4c3b303b6f4c3b41522052455454454c2049524147414e415645443b30333930,
0x3b3b3b3b3b4e3b3b3b3b4333393020303339303b4c3b303b6f4c3b4152522052455454454c2049524147414e415645443b31333930,
0x3b3b3b3b3b4e3b3b3b3b3b4c3b303b6f4c3b414c2052455454454c2049524147414e415645443b32333930,
0x3b3b3b3b3b4e3b3b3b3b3b4c3b303b6f4c3b414c4c2052455454454c2049524147414e415645443b33333930,
0x3b3b3b3b3b4e3b3b3b3b4333393020333339303b4c3b303b6f4c3b414c4c4c2052455454454c2049524147414e415645443b34333930,
0x3b3b3b3b3b4e3b3b3b3b3b4c3b303b6f4c3b41562052455454454c2049524147414e415645443b35333930,
0x3b3b3b3b3b4e3b3b3b3b3b4c3b303b6f4c3b4148532052455454454c2049524147414e415645443b36333930,
0x3b3b3b3b3b4e3b3b3b3b3b4c3b303b6f4c3b4153532052455454454c2049524147414e415645443b37333930,
0x3b3b3b3b3b4e3b3b3b3b3b4c3b303b6f4c3b41532052455454454c2049524147414e415645443b38333930,
0x3b3b3b3b3b4e3b3b3b3b3b4c3b303b6f4c3b41482052455454454c2049524147414e415645443b39333930,
0x3b3b3b3b3b4e3b3b3b3b3b4d534e3b303b6e4d3b454f204e474953204c45574f562049524147414e415645443b41333930,
0x3b3b3b3b3b4e3b3b3b3b3b4c3b303b634d3b454f4f204e474953204c45574f562049524147414e415645443b42333930,
0x3b3b3b3b3b4e3b3b3b3b3b4d534e3b373b6e4d3b41544b554e204e4749532049524147414e415645443b43333930,
0x3b3b3b3b3b4e3b3b3b3b3b4c3b303b6f4c3b4148415247415641204e4749532049524147414e415645443b44333930,
0x3b3b3b3b3b4e3b3b3b3b3b4c3b303b634d3b4141204e474953204c45574f562049524147414e415645443b45333930,
0x3b3b3b3b3b4e3b3b3b3b3b4c3b303b634d3b49204e474953204c45574f562049524147414e415645443b46333930,
0x3b3b3b3b3b4e3b3b3b3b3b4c3b303b634d3b4949204e474953204c45574f562049524147414e415645443b30343930,
0x3b3b3b3b3b4e3b3b3b3b3b4d534e3b303b6e4d3b55204e474953204c45574f562049524147414e415645443b31343930,
0x3b3b3b3b3b4e3b3b3b3b3b4d534e3b303b6e4d3b5555204e474953204c45574f562049524147414e415645443b32343930,
0x3b3b3b3b3b4e3b3b3b3b3b4d534e3b303b6e4d3b522043494c41434f56204e474953204c45574f562049524147414e415645443b33343930,
0x3b3b3b3b3b4e3b3b3b3b3b4d534e3b303b6e4d3b52522043494c41434f56204e474953204c45574f562049524147414e415645443b34343930,
0x3b3b3b3b3b4e3b3b3b3b3b4d534e3b303b6e4d3b45204152444e4143204e474953204c45574f562049524147414e415645443b35343930,
0x3b3b3b3b3b4e3b3b3b3b3b4d534e3b303b6e4d3b452054524f4853204e474953204c45574f562049524147414e415645443b36343930,
0x3b3b3b3b3b4e3b3b3b3b3b4d534e3b303b6e4d3b45204e474953204c45574f562049524147414e415645443b37343930,
0x3b3b3b3b3b4e3b3b3b3b3b4d534e3b303b6e4d3b4941204e474953204c45574f562049524147414e415645443b38343930,
0x3b3b3b3b3b4e3b3b3b3b3b4c3b303b634d3b4f204152444e4143204e474953204c45574f562049524147414e415645443b39343930,
0x3b3b3b3b3b4e3b3b3b3b3b4c3b303b634d3b4f2054524f4853204e474953204c45574f562049524147414e415645443b41343930,
0x3b3b3b3b3b4e3b3b3b3b3b4c3b303b634d3b4f204e474953204c45574f562049524147414e415645443b42343930,
0x3b3b3b3b3b4e3b3b3b3b3b4c3b303b634d3b5541204e474953204c45574f562049524147414e415645443b43343930,
0x3b3b3b3b3b4e3b3b3b3b3b4d534e3b393b6e4d3b414d41524956204e4749532049524147414e415645443b44343930,
0x3b3b3b3b3b4e3b3b3b3b3b4c3b303b634d3b4520415254414d4148544853495250204e474953204c45574f562049524147414e415645443b45343930,
0x3b3b3b3b3b4e3b3b3b3b3b4c3b303b634d3b5741204e474953204c45574f562049524147414e415645443b46343930,
0x3b3b3b3b3b4e3b3b3b3b3b4c3b303b6f4c3b4d4f2049524147414e415645443b30353930,
0x3b3b3b3b3b4e3b3b3b3b3b4d534e3b3033323b6e4d3b415454414455204e474953205353455254532049524147414e415645443b31353930,
0x3b3b3b3b3b4e3b3b3b3b3b4d534e3b3032323b6e4d3b4154544144554e41204e474953205353455254532049524147414e415645443b32353930,
0x3b3b3b3b3b4e3b3b3b3b3b4d534e3b3033323b6e4d3b544e454343412045564152472049524147414e415645443b33353930,
0x3b3b3b3b3b4e3b3b3b3b3b4d534e3b3033323b6e4d3b544e454343412045545543412049524147414e415645443b34353930,
0x3b3b3b3b3b4e3b3b3b3b3b4d534e3b303b6e4d3b4520474e4f4c204152444e4143204e474953204c45574f562049524147414e415645443b35353930,
0x3b3b3b3b3b4e3b3b3b3b3b4d534e3b303b6e4d3b4555204e474953204c45574f562049524147414e415645443b36353930,
0x3b3b3b3b3b4e3b3b3b3b3b4d534e3b303b6e4d3b455555204e474953204c45574f562049524147414e415645443b37353930,
0x3b3b3b3b3b4e3b3b3b3b4333393020353139303b4c3b303b6f4c3b41512052455454454c2049524147414e415645443b38353930,
0x3b3b3b3b3b4e3b3b3b3b4333393020363139303b4c3b303b6f4c3b4148484b2052455454454c2049524147414e415645443b39353930,
0x3b3b3b3b3b4e3b3b3b3b4333393020373139303b4c3b303b6f4c3b414848472052455454454c2049524147414e415645443b41353930,
0x3b3b3b3b3b4e3b3b3b3b4333393020433139303b4c3b303b6f4c3b415a2052455454454c2049524147414e415645443b42353930,
0x3b3b3b3b3b4e3b3b3b3b4333393020313239303b4c3b303b6f4c3b41484444442052455454454c2049524147414e415645443b43353930,
0x3b3b3b3b3b4e3b3b3b3b4333393020323239303b4c3b303b6f4c3b4148522052455454454c2049524147414e415645443b44353930,
0x3b3b3b3b3b4e3b3b3b3b4333393020423239303b4c3b303b6f4c3b41462052455454454c2049524147414e415645443b45353930,
0x3b3b3b3b3b4e3b3b3b3b4333393020463239303b4c3b303b6f4c3b4159592052455454454c2049524147414e415645443b46353930,
0x3b3b3b3b3b4e3b3b3b3b3b4c3b303b6f4c3b52522043494c41434f562052455454454c2049524147414e415645443b30363930,
0x3b3b3b3b3b4e3b3b3b3b3b4c3b303b6f4c3b4c4c2043494c41434f562052455454454c2049524147414e415645443b31363930,
0x3b3b3b3b3b4e3b3b3b3b3b4d534e3b303b6e4d3b4c2043494c41434f56204e474953204c45574f562049524147414e415645443b32363930,
0x3b3b3b3b3b4e3b3b3b3b3b4d534e3b303b6e4d3b4c4c2043494c41434f56204e474953204c45574f562049524147414e415645443b33363930,
0x3b3b3b3b3b4e3b3b3b3b3b4c3b303b6f503b41444e41442049524147414e415645443b34363930,
0x3b3b3b3b3b4e3b3b3b3b3b4c3b303b6f503b41444e414420454c42554f442049524147414e415645443b35363930,
0x3b3b3b3b3b4e3b303b303b303b3b4c3b303b644e3b4f52455a2054494749442049524147414e415645443b36363930,
0x3b3b3b3b3b4e3b313b313b313b3b4c3b303b644e3b454e4f2054494749442049524147414e415645443b37363930,
0x3b3b3b3b3b4e3b323b323b323b3b4c3b303b644e3b4f57542054494749442049524147414e415645443b38363930,
0x3b3b3b3b3b4e3b333b333b333b3b4c3b303b644e3b45455248542054494749442049524147414e415645443b39363930,
0x3b3b3b3b3b4e3b343b343b343b3b4c3b303b644e3b52554f462054494749442049524147414e415645443b41363930,
0x3b3b3b3b3b4e3b353b353b353b3b4c3b303b644e3b455649462054494749442049524147414e415645443b42363930,
0x3b3b3b3b3b4e3b363b363b363b3b4c3b303b644e3b5849532054494749442049524147414e415645443b43363930,
0x3b3b3b3b3b4e3b373b373b373b3b4c3b303b644e3b4e455645532054494749442049524147414e415645443b44363930,
0x3b3b3b3b3b4e3b383b383b383b3b4c3b303b644e3b54484749452054494749442049524147414e415645443b45363930,
0x3b3b3b3b3b4e3b393b393b393b3b4c3b303b644e3b454e494e2054494749442049524147414e415645443b46363930,
0x3b3b3b3b3b4e3b3b3b3b3b4c3b303b6f503b4e474953204e4f495441495645524242412049524147414e415645443b30373930,
0x3b3b3b3b3b4e3b3b3b3b3b4c3b303b6d4c3b544f4420474e49434150532048474948204e4749532049524147414e415645443b31373930,
0x3b3b3b3b3b4e3b3b3b3b3b4c3b303b6f4c3b41204152444e41432052455454454c2049524147414e415645443b32373930,
0x3b3b3b3b3b4e3b3b3b3b3b4c3b303b6f4c3b454f2052455454454c2049524147414e415645443b33373930,
0x3b3b3b3b3b4e3b3b3b3b3b4c3b303b6f4c3b454f4f2052455454454c2049524147414e415645443b34373930,
0x3b3b3b3b3b4e3b3b3b3b3b4c3b303b6f4c3b57412052455454454c2049524147414e415645443b35373930,
0x3b3b3b3b3b4e3b3b3b3b3b4c3b303b6f4c3b45552052455454454c2049524147414e415645443b36373930,
0x3b3b3b3b3b4e3b3b3b3b3b4c3b303b6f4c3b4555552052455454454c2049524147414e415645443b37373930,
0x3b3b3b3b3b4e3b3b3b3b3b4c3b303b6f4c3b414444204952415752414d2052455454454c2049524147414e415645443b38373930,
0x3b3b3b3b3b4e3b3b3b3b3b4c3b303b6f4c3b41485a2052455454454c2049524147414e415645443b39373930,
0x3b3b3b3b3b4e3b3b3b3b3b4c3b303b6f4c3b41592059564145482052455454454c2049524147414e415645443b41373930,
0x3b3b3b3b3b4e3b3b3b3b3b4c3b303b6f4c3b4147472052455454454c2049524147414e415645443b42373930,
0x3b3b3b3b3b4e3b3b3b3b3b4c3b303b6f4c3b414a4a2052455454454c2049524147414e415645443b43373930,
0x3b3b3b3b3b4e3b3b3b3b3b4c3b303b6f4c3b504f5453204c4154544f4c472052455454454c2049524147414e415645443b44373930,
0x3b3b3b3b3b4e3b3b3b3b3b4c3b303b6f4c3b414444442052455454454c2049524147414e415645443b45373930,
0x3b3b3b3b3b4e3b3b3b3b3b4c3b303b6f4c3b4142422052455454454c2049524147414e415645443b46373930,
0x3b3b3b3b3b4e3b3b3b3b3b4c3b303b6f4c3b494a4e4120494c41474e45423b30383930,
0x3b3b3b3b3b4e3b3b3b3b3b4d534e3b303b6e4d3b55444e49424152444e4143204e47495320494c41474e45423b31383930,
0x3b3b3b3b3b4e3b3b3b3b3b4c3b303b634d3b4152415653554e41204e47495320494c41474e45423b32383930,
0x3b3b3b3b3b4e3b3b3b3b3b4c3b303b634d3b41475241534956204e47495320494c41474e45423b33383930,
0x3b3b3b3b3b4e3b3b3b3b3b4c3b303b6f4c3b412052455454454c20494c41474e45423b35383930,
0x3b3b3b3b3b4e3b3b3b3b3b4c3b303b6f4c3b41412052455454454c20494c41474e45423b36383930,
0x3b3b3b3b3b4e3b3b3b3b3b4c3b303b6f4c3b492052455454454c20494c41474e45423b37383930,
0x3b3b3b3b3b4e3b3b3b3b3b4c3b303b6f4c3b49492052455454454c20494c41474e45423b38383930,
0x3b3b3b3b3b4e3b3b3b3b3b4c3b303b6f4c3b552052455454454c20494c41474e45423b39383930,
0x3b3b3b3b3b4e3b3b3b3b3b4c3b303b6f4c3b55552052455454454c20494c41474e45423b41383930,
0x3b3b3b3b3b4e3b3b3b3b3b4c3b303b6f4c3b522043494c41434f562052455454454c20494c41474e45423b42383930,
0x3b3b3b3b3b4e3b3b3b3b3b4c3b303b6f4c3b4c2043494c41434f562052455454454c20494c41474e45423b43383930,
0x3b3b3b3b3b4e3b3b3b3b3b4c3b303b6f4c3b452052455454454c20494c41474e45423b46383930,
0x3b3b3b3b3b4e3b3b3b3b3b4c3b303b6f4c3b49412052455454454c20494c41474e45423b30393930,
0x3b3b3b3b3b4e3b3b3b3b3b4c3b303b6f4c3b4f2052455454454c20494c41474e45423b33393930,
0x3b3b3b3b3b4e3b3b3b3b3b4c3b303b6f4c3b55412052455454454c20494c41474e45423b34393930,
0x3b3b3b3b3b4e3b3b3b3b3b4c3b303b6f4c3b414b2052455454454c20494c41474e45423b35393930,
0x3b3b3b3b3b4e3b3b3b3b3b4c3b303b6f4c3b41484b2052455454454c20494c41474e45423b36393930,
0x3b3b3b3b3b4e3b3b3b3b3b4c3b303b6f4c3b41472052455454454c20494c41474e45423b37393930,
0x3b3b3b3b3b4e3b3b3b3b3b4c3b303b6f4c3b4148472052455454454c20494c41474e45423b38393930,
0x3b3b3b3b3b4e3b3b3b3b3b4c3b303b6f4c3b41474e2052455454454c20494c41474e45423b39393930,
0x3b3b3b3b3b4e3b3b3b3b3b4c3b303b6f4c3b41432052455454454c20494c41474e45423b41393930,
0x3b3b3b3b3b4e3b3b3b3b3b4c3b303b6f4c3b4148432052455454454c20494c41474e45423b42393930,
0x3b3b3b3b3b4e3b3b3b3b3b4c3b303b6f4c3b414a2052455454454c20494c41474e45423b43393930,
0x3b3b3b3b3b4e3b3b3b3b3b4c3b303b6f4c3b41484a2052455454454c20494c41474e45423b44393930,
0x3b3b3b3b3b4e3b3b3b3b3b4c3b303b6f4c3b41594e2052455454454c20494c41474e45423b45393930,
0x3b3b3b3b3b4e3b3b3b3b3b4c3b303b6f4c3b4154542052455454454c20494c41474e45423b46393930,
0x3b3b3b3b3b4e3b3b3b3b3b4c3b303b6f4c3b414854542052455454454c20494c41474e45423b30413930,
0x3b3b3b3b3b4e3b3b3b3b3b4c3b303b6f4c3b4144442052455454454c20494c41474e45423b31413930]

/-- src/u5e/props/UnicodeData.txt lines 2305-2560. -/
def rawUcd9 : List Nat := [
0x3b3b3b3b3b4e3b3b3b3b3b4c3b303b6f4c3b414844442052455454454c20494c41474e45423b32413930,
0x3b3b3b3b3b4e3b3b3b3b3b4c3b303b6f4c3b414e4e2052455454454c20494c41474e45423b33413930,
0x3b3b3b3b3b4e3b3b3b3b3b4c3b303b6f4c3b41542052455454454c20494c41474e45423b34413930,
0x3b3b3b3b3b4e3b3b3b3b3b4c3b303b6f4c3b4148542052455454454c20494c41474e45423b35413930,
0x3b3b3b3b3b4e3b3b3b3b3b4c3b303b6f4c3b41442052455454454c20494c41474e45423b36413930,
0x3b3b3b3b3b4e3b3b3b3b3b4c3b303b6f4c3b4148442052455454454c20494c41474e45423b37413930,
0x3b3b3b3b3b4e3b3b3b3b3b4c3b303b6f4c3b414e2052455454454c20494c41474e45423b38413930,
0x3b3b3b3b3b4e3b3b3b3b3b4c3b303b6f4c3b41502052455454454c20494c41474e45423b41413930,
0x3b3b3b3b3b4e3b3b3b3b3b4c3b303b6f4c3b4148502052455454454c20494c41474e45423b42413930,
0x3b3b3b3b3b4e3b3b3b3b3b4c3b303b6f4c3b41422052455454454c20494c41474e45423b43413930,
0x3b3b3b3b3b4e3b3b3b3b3b4c3b303b6f4c3b4148422052455454454c20494c41474e45423b44413930,
0x3b3b3b3b3b4e3b3b3b3b3b4c3b303b6f4c3b414d2052455454454c20494c41474e45423b45413930,
0x3b3b3b3b3b4e3b3b3b3b3b4c3b303b6f4c3b41592052455454454c20494c41474e45423b46413930,
0x3b3b3b3b3b4e3b3b3b3b3b4c3b303b6f4c3b41522052455454454c20494c41474e45423b30423930,
0x3b3b3b3b3b4e3b3b3b3b3b4c3b303b6f4c3b414c2052455454454c20494c41474e45423b32423930,
0x3b3b3b3b3b4e3b3b3b3b3b4c3b303b6f4c3b4148532052455454454c20494c41474e45423b36423930,
0x3b3b3b3b3b4e3b3b3b3b3b4c3b303b6f4c3b4153532052455454454c20494c41474e45423b37423930,
0x3b3b3b3b3b4e3b3b3b3b3b4c3b303b6f4c3b41532052455454454c20494c41474e45423b38423930,
0x3b3b3b3b3b4e3b3b3b3b3b4c3b303b6f4c3b41482052455454454c20494c41474e45423b39423930,
0x3b3b3b3b3b4e3b3b3b3b3b4d534e3b373b6e4d3b41544b554e204e47495320494c41474e45423b43423930,
0x3b3b3b3b3b4e3b3b3b3b3b4c3b303b6f4c3b4148415247415641204e47495320494c41474e45423b44423930,
0x3b3b3b3b3b4e3b3b3b3b3b4c3b303b634d3b4141204e474953204c45574f5620494c41474e45423b45423930,
0x3b3b3b3b3b4e3b3b3b3b3b4c3b303b634d3b49204e474953204c45574f5620494c41474e45423b46423930,
0x3b3b3b3b3b4e3b3b3b3b3b4c3b303b634d3b4949204e474953204c45574f5620494c41474e45423b30433930,
0x3b3b3b3b3b4e3b3b3b3b3b4d534e3b303b6e4d3b55204e474953204c45574f5620494c41474e45423b31433930,
0x3b3b3b3b3b4e3b3b3b3b3b4d534e3b303b6e4d3b5555204e474953204c45574f5620494c41474e45423b32433930,
0x3b3b3b3b3b4e3b3b3b3b3b4d534e3b303b6e4d3b522043494c41434f56204e474953204c45574f5620494c41474e45423b33433930,
0x3b3b3b3b3b4e3b3b3b3b3b4d534e3b303b6e4d3b52522043494c41434f56204e474953204c45574f5620494c41474e45423b34433930,
0x3b3b3b3b3b4e3b3b3b3b3b4c3b303b634d3b45204e474953204c45574f5620494c41474e45423b37433930,
0x3b3b3b3b3b4e3b3b3b3b3b4c3b303b634d3b4941204e474953204c45574f5620494c41474e45423b38433930,
0x3b3b3b3b3b4e3b3b3b3b4542393020374339303b4c3b303b634d3b4f204e474953204c45574f5620494c41474e45423b42433930,
0x3b3b3b3b3b4e3b3b3b3b3744393020374339303b4c3b303b634d3b5541204e474953204c45574f5620494c41474e45423b43433930,
0x3b3b3b3b3b4e3b3b3b3b3b4d534e3b393b6e4d3b414d41524956204e47495320494c41474e45423b44433930,
0x3b3b3b3b3b4e3b3b3b3b3b4c3b303b6f4c3b41542041444e41484b2052455454454c20494c41474e45423b45433930,
0x3b3b3b3b3b4e3b3b3b3b3b4c3b303b634d3b4b52414d204854474e454c20554120494c41474e45423b37443930,
0x3b3b3b3b3b4e3b3b3b3b4342393020314139303b4c3b303b6f4c3b4152522052455454454c20494c41474e45423b43443930,
0x3b3b3b3b3b4e3b3b3b3b4342393020324139303b4c3b303b6f4c3b4148522052455454454c20494c41474e45423b44443930,
0x3b3b3b3b3b4e3b3b3b3b4342393020464139303b4c3b303b6f4c3b4159592052455454454c20494c41474e45423b46443930,
0x3b3b3b3b3b4e3b3b3b3b3b4c3b303b6f4c3b52522043494c41434f562052455454454c20494c41474e45423b30453930,
0x3b3b3b3b3b4e3b3b3b3b3b4c3b303b6f4c3b4c4c2043494c41434f562052455454454c20494c41474e45423b31453930,
0x3b3b3b3b3b4e3b3b3b3b3b4d534e3b303b6e4d3b4c2043494c41434f56204e474953204c45574f5620494c41474e45423b32453930,
0x3b3b3b3b3b4e3b3b3b3b3b4d534e3b303b6e4d3b4c4c2043494c41434f56204e474953204c45574f5620494c41474e45423b33453930,
0x3b3b3b3b3b4e3b303b303b303b3b4c3b303b644e3b4f52455a20544947494420494c41474e45423b36453930,
0x3b3b3b3b3b4e3b313b313b313b3b4c3b303b644e3b454e4f20544947494420494c41474e45423b37453930,
0x3b3b3b3b3b4e3b323b323b323b3b4c3b303b644e3b4f575420544947494420494c41474e45423b38453930,
0x3b3b3b3b3b4e3b333b333b333b3b4c3b303b644e3b454552485420544947494420494c41474e45423b39453930,
0x3b3b3b3b3b4e3b343b343b343b3b4c3b303b644e3b52554f4620544947494420494c41474e45423b41453930,
0x3b3b3b3b3b4e3b353b353b353b3b4c3b303b644e3b4556494620544947494420494c41474e45423b42453930,
0x3b3b3b3b3b4e3b363b363b363b3b4c3b303b644e3b58495320544947494420494c41474e45423b43453930,
0x3b3b3b3b3b4e3b373b373b373b3b4c3b303b644e3b4e4556455320544947494420494c41474e45423b44453930,
0x3b3b3b3b3b4e3b383b383b383b3b4c3b303b644e3b544847494520544947494420494c41474e45423b45453930,
0x3b3b3b3b3b4e3b393b393b393b3b4c3b303b644e3b454e494e20544947494420494c41474e45423b46453930,
0x3b3b3b3b3b4e3b3b3b3b3b4c3b303b6f4c3b4c414e4f4741494420454c4444494d20485449572041522052455454454c20494c41474e45423b30463930,
0x3b3b3b3b4c414e4f47414944205245574f4c20485449572041562052455454454c20494c41474e45423b4e3b3b3b3b3b4c3b303b6f4c3b4c414e4f47414944205245574f4c20485449572041522052455454454c20494c41474e45423b31463930,
0x3b3b3b3b3b4e3b3b3b3b3b54453b303b63533b4b52414d20454550555220494c41474e45423b32463930,
0x3b3b3b3b3b4e3b3b3b3b3b54453b303b63533b4e47495320454550555220494c41474e45423b33463930,
0x3b3b3b3b3b4e3b36312f313b3b3b3b4c3b303b6f4e3b454e4f20524f544152454d554e2059434e455252554320494c41474e45423b34463930,
0x3b3b3b3b3b4e3b382f313b3b3b3b4c3b303b6f4e3b4f575420524f544152454d554e2059434e455252554320494c41474e45423b35463930,
0x3b3b3b3b3b4e3b36312f333b3b3b3b4c3b303b6f4e3b454552485420524f544152454d554e2059434e455252554320494c41474e45423b36463930,
0x3b3b3b3b3b4e3b342f313b3b3b3b4c3b303b6f4e3b52554f4620524f544152454d554e2059434e455252554320494c41474e45423b37463930,
0x3b3b3b3b3b4e3b342f333b3b3b3b4c3b303b6f4e3b524f54414e494d4f4e454420454854204e414854205353454c20454e4f20524f544152454d554e2059434e455252554320494c41474e45423b38463930,
0x3b3b3b3b3b4e3b36313b3b3b3b4c3b303b6f4e3b4e45455458495320524f54414e494d4f4e45442059434e455252554320494c41474e45423b39463930,
0x3b3b3b3b3b4e3b3b3b3b3b4c3b303b6f533b52414853534920494c41474e45423b41463930,
0x3b3b3b3b3b4e3b3b3b3b3b54453b303b63533b4b52414d2041444e414720494c41474e45423b42463930,
0x3b3b3b3b3b4e3b3b3b3b3b4d534e3b303b6e4d3b49444e4942204b414441204e4749532049484b554d5255473b31304130,
0x3b3b3b3b3b4e3b3b3b3b3b4d534e3b303b6e4d3b49444e4942204e4749532049484b554d5255473b32304130,
0x3b3b3b3b3b4e3b3b3b3b3b4c3b303b634d3b41475241534956204e4749532049484b554d5255473b33304130,
0x3b3b3b3b3b4e3b3b3b3b3b4c3b303b6f4c3b412052455454454c2049484b554d5255473b35304130,
0x3b3b3b3b3b4e3b3b3b3b3b4c3b303b6f4c3b41412052455454454c2049484b554d5255473b36304130,
0x3b3b3b3b3b4e3b3b3b3b3b4c3b303b6f4c3b492052455454454c2049484b554d5255473b37304130,
0x3b3b3b3b3b4e3b3b3b3b3b4c3b303b6f4c3b49492052455454454c2049484b554d5255473b38304130,
0x3b3b3b3b3b4e3b3b3b3b3b4c3b303b6f4c3b552052455454454c2049484b554d5255473b39304130,
0x3b3b3b3b3b4e3b3b3b3b3b4c3b303b6f4c3b55552052455454454c2049484b554d5255473b41304130,
0x3b3b3b3b3b4e3b3b3b3b3b4c3b303b6f4c3b45452052455454454c2049484b554d5255473b46304130,
0x3b3b3b3b3b4e3b3b3b3b3b4c3b303b6f4c3b49412052455454454c2049484b554d5255473b30314130,
0x3b3b3b3b3b4e3b3b3b3b3b4c3b303b6f4c3b4f4f2052455454454c2049484b554d5255473b33314130,
0x3b3b3b3b3b4e3b3b3b3b3b4c3b303b6f4c3b55412052455454454c2049484b554d5255473b34314130,
0x3b3b3b3b3b4e3b3b3b3b3b4c3b303b6f4c3b414b2052455454454c2049484b554d5255473b35314130,
0x3b3b3b3b3b4e3b3b3b3b3b4c3b303b6f4c3b41484b2052455454454c2049484b554d5255473b36314130,
0x3b3b3b3b3b4e3b3b3b3b3b4c3b303b6f4c3b41472052455454454c2049484b554d5255473b37314130,
0x3b3b3b3b3b4e3b3b3b3b3b4c3b303b6f4c3b4148472052455454454c2049484b554d5255473b38314130,
0x3b3b3b3b3b4e3b3b3b3b3b4c3b303b6f4c3b41474e2052455454454c2049484b554d5255473b39314130,
0x3b3b3b3b3b4e3b3b3b3b3b4c3b303b6f4c3b41432052455454454c2049484b554d5255473b41314130,
0x3b3b3b3b3b4e3b3b3b3b3b4c3b303b6f4c3b4148432052455454454c2049484b554d5255473b42314130,
0x3b3b3b3b3b4e3b3b3b3b3b4c3b303b6f4c3b414a2052455454454c2049484b554d5255473b43314130,
0x3b3b3b3b3b4e3b3b3b3b3b4c3b303b6f4c3b41484a2052455454454c2049484b554d5255473b44314130,
0x3b3b3b3b3b4e3b3b3b3b3b4c3b303b6f4c3b41594e2052455454454c2049484b554d5255473b45314130,
0x3b3b3b3b3b4e3b3b3b3b3b4c3b303b6f4c3b4154542052455454454c2049484b554d5255473b46314130,
0x3b3b3b3b3b4e3b3b3b3b3b4c3b303b6f4c3b414854542052455454454c2049484b554d5255473b30324130,
0x3b3b3b3b3b4e3b3b3b3b3b4c3b303b6f4c3b4144442052455454454c2049484b554d5255473b31324130,
0x3b3b3b3b3b4e3b3b3b3b3b4c3b303b6f4c3b414844442052455454454c2049484b554d5255473b32324130,
0x3b3b3b3b3b4e3b3b3b3b3b4c3b303b6f4c3b414e4e2052455454454c2049484b554d5255473b33324130,
0x3b3b3b3b3b4e3b3b3b3b3b4c3b303b6f4c3b41542052455454454c2049484b554d5255473b34324130,
0x3b3b3b3b3b4e3b3b3b3b3b4c3b303b6f4c3b4148542052455454454c2049484b554d5255473b35324130,
0x3b3b3b3b3b4e3b3b3b3b3b4c3b303b6f4c3b41442052455454454c2049484b554d5255473b36324130,
0x3b3b3b3b3b4e3b3b3b3b3b4c3b303b6f4c3b4148442052455454454c2049484b554d5255473b37324130,
0x3b3b3b3b3b4e3b3b3b3b3b4c3b303b6f4c3b414e2052455454454c2049484b554d5255473b38324130,
0x3b3b3b3b3b4e3b3b3b3b3b4c3b303b6f4c3b41502052455454454c2049484b554d5255473b41324130,
0x3b3b3b3b3b4e3b3b3b3b3b4c3b303b6f4c3b4148502052455454454c2049484b554d5255473b42324130,
0x3b3b3b3b3b4e3b3b3b3b3b4c3b303b6f4c3b41422052455454454c2049484b554d5255473b43324130,
0x3b3b3b3b3b4e3b3b3b3b3b4c3b303b6f4c3b4148422052455454454c2049484b554d5255473b44324130,
0x3b3b3b3b3b4e3b3b3b3b3b4c3b303b6f4c3b414d2052455454454c2049484b554d5255473b45324130,
0x3b3b3b3b3b4e3b3b3b3b3b4c3b303b6f4c3b41592052455454454c2049484b554d5255473b46324130,
0x3b3b3b3b3b4e3b3b3b3b3b4c3b303b6f4c3b41522052455454454c2049484b554d5255473b30334130,
0x3b3b3b3b3b4e3b3b3b3b3b4c3b303b6f4c3b414c2052455454454c2049484b554d5255473b32334130,
0x3b3b3b3b3b4e3b3b3b3b4333413020323341303b4c3b303b6f4c3b414c4c2052455454454c2049484b554d5255473b33334130,
0x3b3b3b3b3b4e3b3b3b3b3b4c3b303b6f4c3b41562052455454454c2049484b554d5255473b35334130,
0x3b3b3b3b3b4e3b3b3b3b4333413020383341303b4c3b303b6f4c3b4148532052455454454c2049484b554d5255473b36334130,
0x3b3b3b3b3b4e3b3b3b3b3b4c3b303b6f4c3b41532052455454454c2049484b554d5255473b38334130,
0x3b3b3b3b3b4e3b3b3b3b3b4c3b303b6f4c3b41482052455454454c2049484b554d5255473b39334130,
0x3b3b3b3b3b4e3b3b3b3b3b4d534e3b373b6e4d3b41544b554e204e4749532049484b554d5255473b43334130,
0x3b3b3b3b3b4e3b3b3b3b3b4c3b303b634d3b4141204e474953204c45574f562049484b554d5255473b45334130,
0x3b3b3b3b3b4e3b3b3b3b3b4c3b303b634d3b49204e474953204c45574f562049484b554d5255473b46334130,
0x3b3b3b3b3b4e3b3b3b3b3b4c3b303b634d3b4949204e474953204c45574f562049484b554d5255473b30344130,
0x3b3b3b3b3b4e3b3b3b3b3b4d534e3b303b6e4d3b55204e474953204c45574f562049484b554d5255473b31344130,
0x3b3b3b3b3b4e3b3b3b3b3b4d534e3b303b6e4d3b5555204e474953204c45574f562049484b554d5255473b32344130,
0x3b3b3b3b3b4e3b3b3b3b3b4d534e3b303b6e4d3b4545204e474953204c45574f562049484b554d5255473b37344130,
0x3b3b3b3b3b4e3b3b3b3b3b4d534e3b303b6e4d3b4941204e474953204c45574f562049484b554d5255473b38344130,
0x3b3b3b3b3b4e3b3b3b3b3b4d534e3b303b6e4d3b4f4f204e474953204c45574f562049484b554d5255473b42344130,
0x3b3b3b3b3b4e3b3b3b3b3b4d534e3b303b6e4d3b5541204e474953204c45574f562049484b554d5255473b43344130,
0x3b3b3b3b3b4e3b3b3b3b3b4d534e3b393b6e4d3b414d41524956204e4749532049484b554d5255473b44344130,
0x3b3b3b3b3b4e3b3b3b3b3b4d534e3b303b6e4d3b5441414455204e4749532049484b554d5255473b31354130,
0x3b3b3b3b3b4e3b3b3b3b4333413020363141303b4c3b303b6f4c3b4148484b2052455454454c2049484b554d5255473b39354130,
0x3b3b3b3b3b4e3b3b3b3b4333413020373141303b4c3b303b6f4c3b414848472052455454454c2049484b554d5255473b41354130,
0x3b3b3b3b3b4e3b3b3b3b4333413020433141303b4c3b303b6f4c3b415a2052455454454c2049484b554d5255473b42354130,
0x3b3b3b3b3b4e3b3b3b3b3b4c3b303b6f4c3b4152522052455454454c2049484b554d5255473b43354130,
0x3b3b3b3b3b4e3b3b3b3b4333413020423241303b4c3b303b6f4c3b41462052455454454c2049484b554d5255473b45354130,
0x3b3b3b3b3b4e3b303b303b303b3b4c3b303b644e3b4f52455a2054494749442049484b554d5255473b36364130,
0x3b3b3b3b3b4e3b313b313b313b3b4c3b303b644e3b454e4f2054494749442049484b554d5255473b37364130,
0x3b3b3b3b3b4e3b323b323b323b3b4c3b303b644e3b4f57542054494749442049484b554d5255473b38364130,
0x3b3b3b3b3b4e3b333b333b333b3b4c3b303b644e3b45455248542054494749442049484b554d5255473b39364130,
0x3b3b3b3b3b4e3b343b343b343b3b4c3b303b644e3b52554f462054494749442049484b554d5255473b41364130,
0x3b3b3b3b3b4e3b353b353b353b3b4c3b303b644e3b455649462054494749442049484b554d5255473b42364130,
0x3b3b3b3b3b4e3b363b363b363b3b4c3b303b644e3b5849532054494749442049484b554d5255473b43364130,
0x3b3b3b3b3b4e3b373b373b373b3b4c3b303b644e3b4e455645532054494749442049484b554d5255473b44364130,
0x3b3b3b3b3b4e3b383b383b383b3b4c3b303b644e3b54484749452054494749442049484b554d5255473b45364130,
0x3b3b3b3b3b4e3b393b393b393b3b4c3b303b644e3b454e494e2054494749442049484b554d5255473b46364130,
0x3b3b3b3b3b4e3b3b3b3b3b4d534e3b303b6e4d3b49505049542049484b554d5255473b30374130,
0x3b3b3b3b3b4e3b3b3b3b3b4d534e3b303b6e4d3b4b414444412049484b554d5255473b31374130,
0x3b3b3b3b3b4e3b3b3b3b3b4c3b303b6f4c3b4952492049484b554d5255473b32374130,
0x3b3b3b3b3b4e3b3b3b3b3b4c3b303b6f4c3b4152552049484b554d5255473b33374130,
0x3b3b3b3b3b4e3b3b3b3b3b4c3b303b6f4c3b52414b4e4f204b452049484b554d5255473b34374130,
0x3b3b3b3b3b4e3b3b3b3b3b4d534e3b303b6e4d3b4853414b4159204e4749532049484b554d5255473b35374130,
0x3b3b3b3b3b4e3b3b3b3b3b4d534e3b303b6e4d3b55444e49424152444e4143204e4749532049544152414a55473b31384130,
0x3b3b3b3b3b4e3b3b3b3b3b4d534e3b303b6e4d3b4152415653554e41204e4749532049544152414a55473b32384130,
0x3b3b3b3b3b4e3b3b3b3b3b4c3b303b634d3b41475241534956204e4749532049544152414a55473b33384130,
0x3b3b3b3b3b4e3b3b3b3b3b4c3b303b6f4c3b412052455454454c2049544152414a55473b35384130,
0x3b3b3b3b3b4e3b3b3b3b3b4c3b303b6f4c3b41412052455454454c2049544152414a55473b36384130,
0x3b3b3b3b3b4e3b3b3b3b3b4c3b303b6f4c3b492052455454454c2049544152414a55473b37384130,
0x3b3b3b3b3b4e3b3b3b3b3b4c3b303b6f4c3b49492052455454454c2049544152414a55473b38384130,
0x3b3b3b3b3b4e3b3b3b3b3b4c3b303b6f4c3b552052455454454c2049544152414a55473b39384130,
0x3b3b3b3b3b4e3b3b3b3b3b4c3b303b6f4c3b55552052455454454c2049544152414a55473b41384130,
0x3b3b3b3b3b4e3b3b3b3b3b4c3b303b6f4c3b522043494c41434f562052455454454c2049544152414a55473b42384130,
0x3b3b3b3b3b4e3b3b3b3b3b4c3b303b6f4c3b4c2043494c41434f562052455454454c2049544152414a55473b43384130,
0x3b3b3b3b3b4e3b3b3b3b3b4c3b303b6f4c3b45204152444e4143204c45574f562049544152414a55473b44384130,
0x3b3b3b3b3b4e3b3b3b3b3b4c3b303b6f4c3b452052455454454c2049544152414a55473b46384130,
0x3b3b3b3b3b4e3b3b3b3b3b4c3b303b6f4c3b49412052455454454c2049544152414a55473b30394130,
0x3b3b3b3b3b4e3b3b3b3b3b4c3b303b6f4c3b4f204152444e4143204c45574f562049544152414a55473b31394130,
0x3b3b3b3b3b4e3b3b3b3b3b4c3b303b6f4c3b4f2052455454454c2049544152414a55473b33394130,
0x3b3b3b3b3b4e3b3b3b3b3b4c3b303b6f4c3b55412052455454454c2049544152414a55473b34394130,
0x3b3b3b3b3b4e3b3b3b3b3b4c3b303b6f4c3b414b2052455454454c2049544152414a55473b35394130,
0x3b3b3b3b3b4e3b3b3b3b3b4c3b303b6f4c3b41484b2052455454454c2049544152414a55473b36394130,
0x3b3b3b3b3b4e3b3b3b3b3b4c3b303b6f4c3b41472052455454454c2049544152414a55473b37394130,
0x3b3b3b3b3b4e3b3b3b3b3b4c3b303b6f4c3b4148472052455454454c2049544152414a55473b38394130,
0x3b3b3b3b3b4e3b3b3b3b3b4c3b303b6f4c3b41474e2052455454454c2049544152414a55473b39394130,
0x3b3b3b3b3b4e3b3b3b3b3b4c3b303b6f4c3b41432052455454454c2049544152414a55473b41394130,
0x3b3b3b3b3b4e3b3b3b3b3b4c3b303b6f4c3b4148432052455454454c2049544152414a55473b42394130,
0x3b3b3b3b3b4e3b3b3b3b3b4c3b303b6f4c3b414a2052455454454c2049544152414a55473b43394130,
0x3b3b3b3b3b4e3b3b3b3b3b4c3b303b6f4c3b41484a2052455454454c2049544152414a55473b44394130,
0x3b3b3b3b3b4e3b3b3b3b3b4c3b303b6f4c3b41594e2052455454454c2049544152414a55473b45394130,
0x3b3b3b3b3b4e3b3b3b3b3b4c3b303b6f4c3b4154542052455454454c2049544152414a55473b46394130,
0x3b3b3b3b3b4e3b3b3b3b3b4c3b303b6f4c3b414854542052455454454c2049544152414a55473b30414130,
0x3b3b3b3b3b4e3b3b3b3b3b4c3b303b6f4c3b4144442052455454454c2049544152414a55473b31414130,
0x3b3b3b3b3b4e3b3b3b3b3b4c3b303b6f4c3b414844442052455454454c2049544152414a55473b32414130,
0x3b3b3b3b3b4e3b3b3b3b3b4c3b303b6f4c3b414e4e2052455454454c2049544152414a55473b33414130,
0x3b3b3b3b3b4e3b3b3b3b3b4c3b303b6f4c3b41542052455454454c2049544152414a55473b34414130,
0x3b3b3b3b3b4e3b3b3b3b3b4c3b303b6f4c3b4148542052455454454c2049544152414a55473b35414130,
0x3b3b3b3b3b4e3b3b3b3b3b4c3b303b6f4c3b41442052455454454c2049544152414a55473b36414130,
0x3b3b3b3b3b4e3b3b3b3b3b4c3b303b6f4c3b4148442052455454454c2049544152414a55473b37414130,
0x3b3b3b3b3b4e3b3b3b3b3b4c3b303b6f4c3b414e2052455454454c2049544152414a55473b38414130,
0x3b3b3b3b3b4e3b3b3b3b3b4c3b303b6f4c3b41502052455454454c2049544152414a55473b41414130,
0x3b3b3b3b3b4e3b3b3b3b3b4c3b303b6f4c3b4148502052455454454c2049544152414a55473b42414130,
0x3b3b3b3b3b4e3b3b3b3b3b4c3b303b6f4c3b41422052455454454c2049544152414a55473b43414130,
0x3b3b3b3b3b4e3b3b3b3b3b4c3b303b6f4c3b4148422052455454454c2049544152414a55473b44414130,
0x3b3b3b3b3b4e3b3b3b3b3b4c3b303b6f4c3b414d2052455454454c2049544152414a55473b45414130,
0x3b3b3b3b3b4e3b3b3b3b3b4c3b303b6f4c3b41592052455454454c2049544152414a55473b46414130,
0x3b3b3b3b3b4e3b3b3b3b3b4c3b303b6f4c3b41522052455454454c2049544152414a55473b30424130,
0x3b3b3b3b3b4e3b3b3b3b3b4c3b303b6f4c3b414c2052455454454c2049544152414a55473b32424130,
0x3b3b3b3b3b4e3b3b3b3b3b4c3b303b6f4c3b414c4c2052455454454c2049544152414a55473b33424130,
0x3b3b3b3b3b4e3b3b3b3b3b4c3b303b6f4c3b41562052455454454c2049544152414a55473b35424130,
0x3b3b3b3b3b4e3b3b3b3b3b4c3b303b6f4c3b4148532052455454454c2049544152414a55473b36424130,
0x3b3b3b3b3b4e3b3b3b3b3b4c3b303b6f4c3b4153532052455454454c2049544152414a55473b37424130,
0x3b3b3b3b3b4e3b3b3b3b3b4c3b303b6f4c3b41532052455454454c2049544152414a55473b38424130,
0x3b3b3b3b3b4e3b3b3b3b3b4c3b303b6f4c3b41482052455454454c2049544152414a55473b39424130,
0x3b3b3b3b3b4e3b3b3b3b3b4d534e3b373b6e4d3b41544b554e204e4749532049544152414a55473b43424130,
0x3b3b3b3b3b4e3b3b3b3b3b4c3b303b6f4c3b4148415247415641204e4749532049544152414a55473b44424130,
0x3b3b3b3b3b4e3b3b3b3b3b4c3b303b634d3b4141204e474953204c45574f562049544152414a55473b45424130,
0x3b3b3b3b3b4e3b3b3b3b3b4c3b303b634d3b49204e474953204c45574f562049544152414a55473b46424130,
0x3b3b3b3b3b4e3b3b3b3b3b4c3b303b634d3b4949204e474953204c45574f562049544152414a55473b30434130,
0x3b3b3b3b3b4e3b3b3b3b3b4d534e3b303b6e4d3b55204e474953204c45574f562049544152414a55473b31434130,
0x3b3b3b3b3b4e3b3b3b3b3b4d534e3b303b6e4d3b5555204e474953204c45574f562049544152414a55473b32434130,
0x3b3b3b3b3b4e3b3b3b3b3b4d534e3b303b6e4d3b522043494c41434f56204e474953204c45574f562049544152414a55473b33434130,
0x3b3b3b3b3b4e3b3b3b3b3b4d534e3b303b6e4d3b52522043494c41434f56204e474953204c45574f562049544152414a55473b34434130,
0x3b3b3b3b3b4e3b3b3b3b3b4d534e3b303b6e4d3b45204152444e4143204e474953204c45574f562049544152414a55473b35434130,
0x3b3b3b3b3b4e3b3b3b3b3b4d534e3b303b6e4d3b45204e474953204c45574f562049544152414a55473b37434130,
0x3b3b3b3b3b4e3b3b3b3b3b4d534e3b303b6e4d3b4941204e474953204c45574f562049544152414a55473b38434130,
0x3b3b3b3b3b4e3b3b3b3b3b4c3b303b634d3b4f204152444e4143204e474953204c45574f562049544152414a55473b39434130,
0x3b3b3b3b3b4e3b3b3b3b3b4c3b303b634d3b4f204e474953204c45574f562049544152414a55473b42434130,
0x3b3b3b3b3b4e3b3b3b3b3b4c3b303b634d3b5541204e474953204c45574f562049544152414a55473b43434130,
0x3b3b3b3b3b4e3b3b3b3b3b4d534e3b393b6e4d3b414d41524956204e4749532049544152414a55473b44434130,
0x3b3b3b3b3b4e3b3b3b3b3b4c3b303b6f4c3b4d4f2049544152414a55473b30444130,
0x3b3b3b3b3b4e3b3b3b3b3b4c3b303b6f4c3b52522043494c41434f562052455454454c2049544152414a55473b30454130,
0x3b3b3b3b3b4e3b3b3b3b3b4c3b303b6f4c3b4c4c2043494c41434f562052455454454c2049544152414a55473b31454130,
0x3b3b3b3b3b4e3b3b3b3b3b4d534e3b303b6e4d3b4c2043494c41434f56204e474953204c45574f562049544152414a55473b32454130,
0x3b3b3b3b3b4e3b3b3b3b3b4d534e3b303b6e4d3b4c4c2043494c41434f56204e474953204c45574f562049544152414a55473b33454130,
0x3b3b3b3b3b4e3b303b303b303b3b4c3b303b644e3b4f52455a2054494749442049544152414a55473b36454130,
0x3b3b3b3b3b4e3b313b313b313b3b4c3b303b644e3b454e4f2054494749442049544152414a55473b37454130,
0x3b3b3b3b3b4e3b323b323b323b3b4c3b303b644e3b4f57542054494749442049544152414a55473b38454130,
0x3b3b3b3b3b4e3b333b333b333b3b4c3b303b644e3b45455248542054494749442049544152414a55473b39454130,
0x3b3b3b3b3b4e3b343b343b343b3b4c3b303b644e3b52554f462054494749442049544152414a55473b41454130,
0x3b3b3b3b3b4e3b353b353b353b3b4c3b303b644e3b455649462054494749442049544152414a55473b42454130,
0x3b3b3b3b3b4e3b363b363b363b3b4c3b303b644e3b5849532054494749442049544152414a55473b43454130,
0x3b3b3b3b3b4e3b373b373b373b3b4c3b303b644e3b4e455645532054494749442049544152414a55473b44454130,
0x3b3b3b3b3b4e3b383b383b383b3b4c3b303b644e3b54484749452054494749442049544152414a55473b45454130,
0x3b3b3b3b3b4e3b393b393b393b3b4c3b303b644e3b454e494e2054494749442049544152414a55473b46454130,
0x3b3b3b3b3b4e3b3b3b3b3b4c3b303b6f503b4e474953204e4f495441495645524242412049544152414a55473b30464130,
0x3b3b3b3b3b4e3b3b3b3b3b54453b303b63533b4e4749532045455055522049544152414a55473b31464130,
0x3b3b3b3b3b4e3b3b3b3b3b4c3b303b6f4c3b41485a2052455454454c2049544152414a55473b39464130,
0x3b3b3b3b3b4e3b3b3b3b3b4d534e3b303b6e4d3b55444e49424152444e4143204e47495320415949524f3b31304230,
0x3b3b3b3b3b4e3b3b3b3b3b4c3b303b634d3b4152415653554e41204e47495320415949524f3b32304230,
0x3b3b3b3b3b4e3b3b3b3b3b4c3b303b634d3b41475241534956204e47495320415949524f3b33304230,
0x3b3b3b3b3b4e3b3b3b3b3b4c3b303b6f4c3b412052455454454c20415949524f3b35304230,
0x3b3b3b3b3b4e3b3b3b3b3b4c3b303b6f4c3b41412052455454454c20415949524f3b36304230,
0x3b3b3b3b3b4e3b3b3b3b3b4c3b303b6f4c3b492052455454454c20415949524f3b37304230,
0x3b3b3b3b3b4e3b3b3b3b3b4c3b303b6f4c3b49492052455454454c20415949524f3b38304230,
0x3b3b3b3b3b4e3b3b3b3b3b4c3b303b6f4c3b552052455454454c20415949524f3b39304230,
0x3b3b3b3b3b4e3b3b3b3b3b4c3b303b6f4c3b55552052455454454c20415949524f3b41304230,
0x3b3b3b3b3b4e3b3b3b3b3b4c3b303b6f4c3b522043494c41434f562052455454454c20415949524f3b42304230,
0x3b3b3b3b3b4e3b3b3b3b3b4c3b303b6f4c3b4c2043494c41434f562052455454454c20415949524f3b43304230,
0x3b3b3b3b3b4e3b3b3b3b3b4c3b303b6f4c3b452052455454454c20415949524f3b46304230,
0x3b3b3b3b3b4e3b3b3b3b3b4c3b303b6f4c3b49412052455454454c20415949524f3b30314230,
0x3b3b3b3b3b4e3b3b3b3b3b4c3b303b6f4c3b4f2052455454454c20415949524f3b33314230,
0x3b3b3b3b3b4e3b3b3b3b3b4c3b303b6f4c3b55412052455454454c20415949524f3b34314230,
0x3b3b3b3b3b4e3b3b3b3b3b4c3b303b6f4c3b414b2052455454454c20415949524f3b35314230,
0x3b3b3b3b3b4e3b3b3b3b3b4c3b303b6f4c3b41484b2052455454454c20415949524f3b36314230,
0x3b3b3b3b3b4e3b3b3b3b3b4c3b303b6f4c3b41472052455454454c20415949524f3b37314230,
0x3b3b3b3b3b4e3b3b3b3b3b4c3b303b6f4c3b4148472052455454454c20415949524f3b38314230,
0x3b3b3b3b3b4e3b3b3b3b3b4c3b303b6f4c3b41474e2052455454454c20415949524f3b39314230,
0x3b3b3b3b3b4e3b3b3b3b3b4c3b303b6f4c3b41432052455454454c20415949524f3b41314230,
0x3b3b3b3b3b4e3b3b3b3b3b4c3b303b6f4c3b4148432052455454454c20415949524f3b42314230,
0x3b3b3b3b3b4e3b3b3b3b3b4c3b303b6f4c3b414a2052455454454c20415949524f3b43314230,
0x3b3b3b3b3b4e3b3b3b3b3b4c3b303b6f4c3b41484a2052455454454c20415949524f3b44314230,
0x3b3b3b3b3b4e3b3b3b3b3b4c3b303b6f4c3b41594e2052455454454c20415949524f3b45314230,
0x3b3b3b3b3b4e3b3b3b3b3b4c3b303b6f4c3b4154542052455454454c20415949524f3b46314230,
0x3b3b3b3b3b4e3b3b3b3b3b4c3b303b6f4c3b414854542052455454454c20415949524f3b30324230,
0x3b3b3b3b3b4e3b3b3b3b3b4c3b303b6f4c3b4144442052455454454c20415949524f3b31324230]

/-- src/u5e/props/UnicodeData.txt lines 2561-2816. -/
def rawUcd10 : List Nat := [
0x3b3b3b3b3b4e3b3b3b3b3b4c3b303b6f4c3b414844442052455454454c20415949524f3b32324230,
0x3b3b3b3b3b4e3b3b3b3b3b4c3b303b6f4c3b414e4e2052455454454c20415949524f3b33324230,
0x3b3b3b3b3b4e3b3b3b3b3b4c3b303b6f4c3b41542052455454454c20415949524f3b34324230,
0x3b3b3b3b3b4e3b3b3b3b3b4c3b303b6f4c3b4148542052455454454c20415949524f3b35324230,
0x3b3b3b3b3b4e3b3b3b3b3b4c3b303b6f4c3b41442052455454454c20415949524f3b36324230,
0x3b3b3b3b3b4e3b3b3b3b3b4c3b303b6f4c3b4148442052455454454c20415949524f3b37324230,
0x3b3b3b3b3b4e3b3b3b3b3b4c3b303b6f4c3b414e2052455454454c20415949524f3b38324230,
0x3b3b3b3b3b4e3b3b3b3b3b4c3b303b6f4c3b41502052455454454c20415949524f3b41324230,
0x3b3b3b3b3b4e3b3b3b3b3b4c3b303b6f4c3b4148502052455454454c20415949524f3b42324230,
0x3b3b3b3b3b4e3b3b3b3b3b4c3b303b6f4c3b41422052455454454c20415949524f3b43324230,
0x3b3b3b3b3b4e3b3b3b3b3b4c3b303b6f4c3b4148422052455454454c20415949524f3b44324230,
0x3b3b3b3b3b4e3b3b3b3b3b4c3b303b6f4c3b414d2052455454454c20415949524f3b45324230,
0x3b3b3b3b3b4e3b3b3b3b3b4c3b303b6f4c3b41592052455454454c20415949524f3b46324230,
0x3b3b3b3b3b4e3b3b3b3b3b4c3b303b6f4c3b41522052455454454c20415949524f3b30334230,
0x3b3b3b3b3b4e3b3b3b3b3b4c3b303b6f4c3b414c2052455454454c20415949524f3b32334230,
0x3b3b3b3b3b4e3b3b3b3b3b4c3b303b6f4c3b414c4c2052455454454c20415949524f3b33334230,
0x3b3b3b3b3b4e3b3b3b3b3b4c3b303b6f4c3b41562052455454454c20415949524f3b35334230,
0x3b3b3b3b3b4e3b3b3b3b3b4c3b303b6f4c3b4148532052455454454c20415949524f3b36334230,
0x3b3b3b3b3b4e3b3b3b3b3b4c3b303b6f4c3b4153532052455454454c20415949524f3b37334230,
0x3b3b3b3b3b4e3b3b3b3b3b4c3b303b6f4c3b41532052455454454c20415949524f3b38334230,
0x3b3b3b3b3b4e3b3b3b3b3b4c3b303b6f4c3b41482052455454454c20415949524f3b39334230,
0x3b3b3b3b3b4e3b3b3b3b3b4d534e3b373b6e4d3b41544b554e204e47495320415949524f3b43334230,
0x3b3b3b3b3b4e3b3b3b3b3b4c3b303b6f4c3b4148415247415641204e47495320415949524f3b44334230,
0x3b3b3b3b3b4e3b3b3b3b3b4c3b303b634d3b4141204e474953204c45574f5620415949524f3b45334230,
0x3b3b3b3b3b4e3b3b3b3b3b4d534e3b303b6e4d3b49204e474953204c45574f5620415949524f3b46334230,
0x3b3b3b3b3b4e3b3b3b3b3b4c3b303b634d3b4949204e474953204c45574f5620415949524f3b30344230,
0x3b3b3b3b3b4e3b3b3b3b3b4d534e3b303b6e4d3b55204e474953204c45574f5620415949524f3b31344230,
0x3b3b3b3b3b4e3b3b3b3b3b4d534e3b303b6e4d3b5555204e474953204c45574f5620415949524f3b32344230,
0x3b3b3b3b3b4e3b3b3b3b3b4d534e3b303b6e4d3b522043494c41434f56204e474953204c45574f5620415949524f3b33344230,
0x3b3b3b3b3b4e3b3b3b3b3b4d534e3b303b6e4d3b52522043494c41434f56204e474953204c45574f5620415949524f3b34344230,
0x3b3b3b3b3b4e3b3b3b3b3b4c3b303b634d3b45204e474953204c45574f5620415949524f3b37344230,
0x3b3b3b3b3b4e3b3b3b3b3635423020373442303b4c3b303b634d3b4941204e474953204c45574f5620415949524f3b38344230,
0x3b3b3b3b3b4e3b3b3b3b4533423020373442303b4c3b303b634d3b4f204e474953204c45574f5620415949524f3b42344230,
0x3b3b3b3b3b4e3b3b3b3b3735423020373442303b4c3b303b634d3b5541204e474953204c45574f5620415949524f3b43344230,
0x3b3b3b3b3b4e3b3b3b3b3b4d534e3b393b6e4d3b414d41524956204e47495320415949524f3b44344230,
0x3b3b3b3b3b4e3b3b3b3b3b4d534e3b303b6e4d3b4b52414d204854474e454c20494120415949524f3b36354230,
0x3b3b3b3b3b4e3b3b3b3b3b4c3b303b634d3b4b52414d204854474e454c20554120415949524f3b37354230,
0x3b3b3b3b3b4e3b3b3b3b4333423020313242303b4c3b303b6f4c3b4152522052455454454c20415949524f3b43354230,
0x3b3b3b3b3b4e3b3b3b3b4333423020323242303b4c3b303b6f4c3b4148522052455454454c20415949524f3b44354230,
0x3b3b3b3b3b4e3b3b3b3b3b4c3b303b6f4c3b4159592052455454454c20415949524f3b46354230,
0x3b3b3b3b3b4e3b3b3b3b3b4c3b303b6f4c3b52522043494c41434f562052455454454c20415949524f3b30364230,
0x3b3b3b3b3b4e3b3b3b3b3b4c3b303b6f4c3b4c4c2043494c41434f562052455454454c20415949524f3b31364230,
0x3b3b3b3b3b4e3b3b3b3b3b4d534e3b303b6e4d3b4c2043494c41434f56204e474953204c45574f5620415949524f3b32364230,
0x3b3b3b3b3b4e3b3b3b3b3b4d534e3b303b6e4d3b4c4c2043494c41434f56204e474953204c45574f5620415949524f3b33364230,
0x3b3b3b3b3b4e3b303b303b303b3b4c3b303b644e3b4f52455a20544947494420415949524f3b36364230,
0x3b3b3b3b3b4e3b313b313b313b3b4c3b303b644e3b454e4f20544947494420415949524f3b37364230,
0x3b3b3b3b3b4e3b323b323b323b3b4c3b303b644e3b4f575420544947494420415949524f3b38364230,
0x3b3b3b3b3b4e3b333b333b333b3b4c3b303b644e3b454552485420544947494420415949524f3b39364230,
0x3b3b3b3b3b4e3b343b343b343b3b4c3b303b644e3b52554f4620544947494420415949524f3b41364230,
0x3b3b3b3b3b4e3b353b353b353b3b4c3b303b644e3b4556494620544947494420415949524f3b42364230,
0x3b3b3b3b3b4e3b363b363b363b3b4c3b303b644e3b58495320544947494420415949524f3b43364230,
0x3b3b3b3b3b4e3b373b373b373b3b4c3b303b644e3b4e4556455320544947494420415949524f3b44364230,
0x3b3b3b3b3b4e3b383b383b383b3b4c3b303b644e3b544847494520544947494420415949524f3b45364230,
0x3b3b3b3b3b4e3b393b393b393b3b4c3b303b644e3b454e494e20544947494420415949524f3b46364230,
0x3b3b3b3b3b4e3b3b3b3b3b4c3b303b6f533b52414853534920415949524f3b30374230,
0x3b3b3b3b3b4e3b3b3b3b3b4c3b303b6f4c3b41572052455454454c20415949524f3b31374230,
0x3b3b3b3b3b4e3b342f313b3b3b3b4c3b303b6f4e3b5245545241555120454e4f204e4f49544341524620415949524f3b32374230,
0x3b3b3b3b3b4e3b322f313b3b3b3b4c3b303b6f4e3b464c414820454e4f204e4f49544341524620415949524f3b33374230,
0x3b3b3b3b3b4e3b342f333b3b3b3b4c3b303b6f4e3b5352455452415551204545524854204e4f49544341524620415949524f3b34374230,
0x3b3b3b3b3b4e3b36312f313b3b3b3b4c3b303b6f4e3b48544e45455458495320454e4f204e4f49544341524620415949524f3b35374230,
0x3b3b3b3b3b4e3b382f313b3b3b3b4c3b303b6f4e3b48544847494520454e4f204e4f49544341524620415949524f3b36374230,
0x3b3b3b3b3b4e3b36312f333b3b3b3b4c3b303b6f4e3b5348544e454554584953204545524854204e4f49544341524620415949524f3b37374230,
0x3b3b3b3b3b4e3b3b3b3b3b4d534e3b303b6e4d3b4152415653554e41204e474953204c494d41543b32384230,
0x3b3b3b3b3b4e3b3b3b3b3b4c3b303b6f4c3b41475241534956204e474953204c494d41543b33384230,
0x3b3b3b3b3b4e3b3b3b3b3b4c3b303b6f4c3b412052455454454c204c494d41543b35384230,
0x3b3b3b3b3b4e3b3b3b3b3b4c3b303b6f4c3b41412052455454454c204c494d41543b36384230,
0x3b3b3b3b3b4e3b3b3b3b3b4c3b303b6f4c3b492052455454454c204c494d41543b37384230,
0x3b3b3b3b3b4e3b3b3b3b3b4c3b303b6f4c3b49492052455454454c204c494d41543b38384230,
0x3b3b3b3b3b4e3b3b3b3b3b4c3b303b6f4c3b552052455454454c204c494d41543b39384230,
0x3b3b3b3b3b4e3b3b3b3b3b4c3b303b6f4c3b55552052455454454c204c494d41543b41384230,
0x3b3b3b3b3b4e3b3b3b3b3b4c3b303b6f4c3b452052455454454c204c494d41543b45384230,
0x3b3b3b3b3b4e3b3b3b3b3b4c3b303b6f4c3b45452052455454454c204c494d41543b46384230,
0x3b3b3b3b3b4e3b3b3b3b3b4c3b303b6f4c3b49412052455454454c204c494d41543b30394230,
0x3b3b3b3b3b4e3b3b3b3b3b4c3b303b6f4c3b4f2052455454454c204c494d41543b32394230,
0x3b3b3b3b3b4e3b3b3b3b3b4c3b303b6f4c3b4f4f2052455454454c204c494d41543b33394230,
0x3b3b3b3b3b4e3b3b3b3b3744423020323942303b4c3b303b6f4c3b55412052455454454c204c494d41543b34394230,
0x3b3b3b3b3b4e3b3b3b3b3b4c3b303b6f4c3b414b2052455454454c204c494d41543b35394230,
0x3b3b3b3b3b4e3b3b3b3b3b4c3b303b6f4c3b41474e2052455454454c204c494d41543b39394230,
0x3b3b3b3b3b4e3b3b3b3b3b4c3b303b6f4c3b41432052455454454c204c494d41543b41394230,
0x3b3b3b3b3b4e3b3b3b3b3b4c3b303b6f4c3b414a2052455454454c204c494d41543b43394230,
0x3b3b3b3b3b4e3b3b3b3b3b4c3b303b6f4c3b41594e2052455454454c204c494d41543b45394230,
0x3b3b3b3b3b4e3b3b3b3b3b4c3b303b6f4c3b4154542052455454454c204c494d41543b46394230,
0x3b3b3b3b3b4e3b3b3b3b3b4c3b303b6f4c3b414e4e2052455454454c204c494d41543b33414230,
0x3b3b3b3b3b4e3b3b3b3b3b4c3b303b6f4c3b41542052455454454c204c494d41543b34414230,
0x3b3b3b3b3b4e3b3b3b3b3b4c3b303b6f4c3b414e2052455454454c204c494d41543b38414230,
0x3b3b3b3b3b4e3b3b3b3b3b4c3b303b6f4c3b414e4e4e2052455454454c204c494d41543b39414230,
0x3b3b3b3b3b4e3b3b3b3b3b4c3b303b6f4c3b41502052455454454c204c494d41543b41414230,
0x3b3b3b3b3b4e3b3b3b3b3b4c3b303b6f4c3b414d2052455454454c204c494d41543b45414230,
0x3b3b3b3b3b4e3b3b3b3b3b4c3b303b6f4c3b41592052455454454c204c494d41543b46414230,
0x3b3b3b3b3b4e3b3b3b3b3b4c3b303b6f4c3b41522052455454454c204c494d41543b30424230,
0x3b3b3b3b3b4e3b3b3b3b3b4c3b303b6f4c3b4152522052455454454c204c494d41543b31424230,
0x3b3b3b3b3b4e3b3b3b3b3b4c3b303b6f4c3b414c2052455454454c204c494d41543b32424230,
0x3b3b3b3b3b4e3b3b3b3b3b4c3b303b6f4c3b414c4c2052455454454c204c494d41543b33424230,
0x3b3b3b3b3b4e3b3b3b3b3b4c3b303b6f4c3b414c4c4c2052455454454c204c494d41543b34424230,
0x3b3b3b3b3b4e3b3b3b3b3b4c3b303b6f4c3b41562052455454454c204c494d41543b35424230,
0x3b3b3b3b3b4e3b3b3b3b3b4c3b303b6f4c3b4148532052455454454c204c494d41543b36424230,
0x3b3b3b3b3b4e3b3b3b3b3b4c3b303b6f4c3b4153532052455454454c204c494d41543b37424230,
0x3b3b3b3b3b4e3b3b3b3b3b4c3b303b6f4c3b41532052455454454c204c494d41543b38424230,
0x3b3b3b3b3b4e3b3b3b3b3b4c3b303b6f4c3b41482052455454454c204c494d41543b39424230,
0x3b3b3b3b3b4e3b3b3b3b3b4c3b303b634d3b4141204e474953204c45574f56204c494d41543b45424230,
0x3b3b3b3b3b4e3b3b3b3b3b4c3b303b634d3b49204e474953204c45574f56204c494d41543b46424230,
0x3b3b3b3b3b4e3b3b3b3b3b4d534e3b303b6e4d3b4949204e474953204c45574f56204c494d41543b30434230,
0x3b3b3b3b3b4e3b3b3b3b3b4c3b303b634d3b55204e474953204c45574f56204c494d41543b31434230,
0x3b3b3b3b3b4e3b3b3b3b3b4c3b303b634d3b5555204e474953204c45574f56204c494d41543b32434230,
0x3b3b3b3b3b4e3b3b3b3b3b4c3b303b634d3b45204e474953204c45574f56204c494d41543b36434230,
0x3b3b3b3b3b4e3b3b3b3b3b4c3b303b634d3b4545204e474953204c45574f56204c494d41543b37434230,
0x3b3b3b3b3b4e3b3b3b3b3b4c3b303b634d3b4941204e474953204c45574f56204c494d41543b38434230,
0x3b3b3b3b3b4e3b3b3b3b4542423020364342303b4c3b303b634d3b4f204e474953204c45574f56204c494d41543b41434230,
0x3b3b3b3b3b4e3b3b3b3b4542423020374342303b4c3b303b634d3b4f4f204e474953204c45574f56204c494d41543b42434230,
0x3b3b3b3b3b4e3b3b3b3b3744423020364342303b4c3b303b634d3b5541204e474953204c45574f56204c494d41543b43434230,
0x3b3b3b3b3b4e3b3b3b3b3b4d534e3b393b6e4d3b414d41524956204e474953204c494d41543b44434230,
0x3b3b3b3b3b4e3b3b3b3b3b4c3b303b6f4c3b4d4f204c494d41543b30444230,
0x3b3b3b3b3b4e3b3b3b3b3b4c3b303b634d3b4b52414d204854474e454c205541204c494d41543b37444230,
0x3b3b3b3b3b4e3b303b303b303b3b4c3b303b644e3b4f52455a205449474944204c494d41543b36454230,
0x3b3b3b3b3b4e3b313b313b313b3b4c3b303b644e3b454e4f205449474944204c494d41543b37454230,
0x3b3b3b3b3b4e3b323b323b323b3b4c3b303b644e3b4f5754205449474944204c494d41543b38454230,
0x3b3b3b3b3b4e3b333b333b333b3b4c3b303b644e3b4545524854205449474944204c494d41543b39454230,
0x3b3b3b3b3b4e3b343b343b343b3b4c3b303b644e3b52554f46205449474944204c494d41543b41454230,
0x3b3b3b3b3b4e3b353b353b353b3b4c3b303b644e3b45564946205449474944204c494d41543b42454230,
0x3b3b3b3b3b4e3b363b363b363b3b4c3b303b644e3b584953205449474944204c494d41543b43454230,
0x3b3b3b3b3b4e3b373b373b373b3b4c3b303b644e3b4e45564553205449474944204c494d41543b44454230,
0x3b3b3b3b3b4e3b383b383b383b3b4c3b303b644e3b5448474945205449474944204c494d41543b45454230,
0x3b3b3b3b3b4e3b393b393b393b3b4c3b303b644e3b454e494e205449474944204c494d41543b46454230,
0x3b3b3b3b3b4e3b30313b3b3b3b4c3b303b6f4e3b4e4554205245424d554e204c494d41543b30464230,
0x3b3b3b3b3b4e3b3030313b3b3b3b4c3b303b6f4e3b444552444e554820454e4f205245424d554e204c494d41543b31464230,
0x3b3b3b3b3b4e3b303030313b3b3b3b4c3b303b6f4e3b444e4153554f485420454e4f205245424d554e204c494d41543b32464230,
0x3b3b3b3b3b4e3b3b3b3b3b4e4f3b303b6f533b4e47495320594144204c494d41543b33464230,
0x3b3b3b3b3b4e3b3b3b3b3b4e4f3b303b6f533b4e4749532048544e4f4d204c494d41543b34464230,
0x3b3b3b3b3b4e3b3b3b3b3b4e4f3b303b6f533b4e4749532052414559204c494d41543b35464230,
0x3b3b3b3b3b4e3b3b3b3b3b4e4f3b303b6f533b4e474953205449424544204c494d41543b36464230,
0x3b3b3b3b3b4e3b3b3b3b3b4e4f3b303b6f533b4e47495320544944455243204c494d41543b37464230,
0x3b3b3b3b3b4e3b3b3b3b3b4e4f3b303b6f533b4e4749532045564f4241205341204c494d41543b38464230,
0x3b3b3b3b3b4e3b3b3b3b3b54453b303b63533b4e474953204545505552204c494d41543b39464230,
0x3b3b3b3b3b4e3b3b3b3b3b4e4f3b303b6f533b4e474953205245424d554e204c494d41543b41464230,
0x3b3b3b3b3b4e3b3b3b3b3b4d534e3b303b6e4d3b45564f42412055444e49424152444e414320474e494e49424d4f43204e474953205547554c45543b30304330,
0x3b3b3b3b3b4e3b3b3b3b3b4c3b303b634d3b55444e49424152444e4143204e474953205547554c45543b31304330,
0x3b3b3b3b3b4e3b3b3b3b3b4c3b303b634d3b4152415653554e41204e474953205547554c45543b32304330,
0x3b3b3b3b3b4e3b3b3b3b3b4c3b303b634d3b41475241534956204e474953205547554c45543b33304330,
0x3b3b3b3b3b4e3b3b3b3b3b4c3b303b6f4c3b412052455454454c205547554c45543b35304330,
0x3b3b3b3b3b4e3b3b3b3b3b4c3b303b6f4c3b41412052455454454c205547554c45543b36304330,
0x3b3b3b3b3b4e3b3b3b3b3b4c3b303b6f4c3b492052455454454c205547554c45543b37304330,
0x3b3b3b3b3b4e3b3b3b3b3b4c3b303b6f4c3b49492052455454454c205547554c45543b38304330,
0x3b3b3b3b3b4e3b3b3b3b3b4c3b303b6f4c3b552052455454454c205547554c45543b39304330,
0x3b3b3b3b3b4e3b3b3b3b3b4c3b303b6f4c3b55552052455454454c205547554c45543b41304330,
0x3b3b3b3b3b4e3b3b3b3b3b4c3b303b6f4c3b522043494c41434f562052455454454c205547554c45543b42304330,
0x3b3b3b3b3b4e3b3b3b3b3b4c3b303b6f4c3b4c2043494c41434f562052455454454c205547554c45543b43304330,
0x3b3b3b3b3b4e3b3b3b3b3b4c3b303b6f4c3b452052455454454c205547554c45543b45304330,
0x3b3b3b3b3b4e3b3b3b3b3b4c3b303b6f4c3b45452052455454454c205547554c45543b46304330,
0x3b3b3b3b3b4e3b3b3b3b3b4c3b303b6f4c3b49412052455454454c205547554c45543b30314330,
0x3b3b3b3b3b4e3b3b3b3b3b4c3b303b6f4c3b4f2052455454454c205547554c45543b32314330,
0x3b3b3b3b3b4e3b3b3b3b3b4c3b303b6f4c3b4f4f2052455454454c205547554c45543b33314330,
0x3b3b3b3b3b4e3b3b3b3b3b4c3b303b6f4c3b55412052455454454c205547554c45543b34314330,
0x3b3b3b3b3b4e3b3b3b3b3b4c3b303b6f4c3b414b2052455454454c205547554c45543b35314330,
0x3b3b3b3b3b4e3b3b3b3b3b4c3b303b6f4c3b41484b2052455454454c205547554c45543b36314330,
0x3b3b3b3b3b4e3b3b3b3b3b4c3b303b6f4c3b41472052455454454c205547554c45543b37314330,
0x3b3b3b3b3b4e3b3b3b3b3b4c3b303b6f4c3b4148472052455454454c205547554c45543b38314330,
0x3b3b3b3b3b4e3b3b3b3b3b4c3b303b6f4c3b41474e2052455454454c205547554c45543b39314330,
0x3b3b3b3b3b4e3b3b3b3b3b4c3b303b6f4c3b41432052455454454c205547554c45543b41314330,
0x3b3b3b3b3b4e3b3b3b3b3b4c3b303b6f4c3b4148432052455454454c205547554c45543b42314330,
0x3b3b3b3b3b4e3b3b3b3b3b4c3b303b6f4c3b414a2052455454454c205547554c45543b43314330,
0x3b3b3b3b3b4e3b3b3b3b3b4c3b303b6f4c3b41484a2052455454454c205547554c45543b44314330,
0x3b3b3b3b3b4e3b3b3b3b3b4c3b303b6f4c3b41594e2052455454454c205547554c45543b45314330,
0x3b3b3b3b3b4e3b3b3b3b3b4c3b303b6f4c3b4154542052455454454c205547554c45543b46314330,
0x3b3b3b3b3b4e3b3b3b3b3b4c3b303b6f4c3b414854542052455454454c205547554c45543b30324330,
0x3b3b3b3b3b4e3b3b3b3b3b4c3b303b6f4c3b4144442052455454454c205547554c45543b31324330,
0x3b3b3b3b3b4e3b3b3b3b3b4c3b303b6f4c3b414844442052455454454c205547554c45543b32324330,
0x3b3b3b3b3b4e3b3b3b3b3b4c3b303b6f4c3b414e4e2052455454454c205547554c45543b33324330,
0x3b3b3b3b3b4e3b3b3b3b3b4c3b303b6f4c3b41542052455454454c205547554c45543b34324330,
0x3b3b3b3b3b4e3b3b3b3b3b4c3b303b6f4c3b4148542052455454454c205547554c45543b35324330,
0x3b3b3b3b3b4e3b3b3b3b3b4c3b303b6f4c3b41442052455454454c205547554c45543b36324330,
0x3b3b3b3b3b4e3b3b3b3b3b4c3b303b6f4c3b4148442052455454454c205547554c45543b37324330,
0x3b3b3b3b3b4e3b3b3b3b3b4c3b303b6f4c3b414e2052455454454c205547554c45543b38324330,
0x3b3b3b3b3b4e3b3b3b3b3b4c3b303b6f4c3b41502052455454454c205547554c45543b41324330,
0x3b3b3b3b3b4e3b3b3b3b3b4c3b303b6f4c3b4148502052455454454c205547554c45543b42324330,
0x3b3b3b3b3b4e3b3b3b3b3b4c3b303b6f4c3b41422052455454454c205547554c45543b43324330,
0x3b3b3b3b3b4e3b3b3b3b3b4c3b303b6f4c3b4148422052455454454c205547554c45543b44324330,
0x3b3b3b3b3b4e3b3b3b3b3b4c3b303b6f4c3b414d2052455454454c205547554c45543b45324330,
0x3b3b3b3b3b4e3b3b3b3b3b4c3b303b6f4c3b41592052455454454c205547554c45543b46324330,
0x3b3b3b3b3b4e3b3b3b3b3b4c3b303b6f4c3b41522052455454454c205547554c45543b30334330,
0x3b3b3b3b3b4e3b3b3b3b3b4c3b303b6f4c3b4152522052455454454c205547554c45543b31334330,
0x3b3b3b3b3b4e3b3b3b3b3b4c3b303b6f4c3b414c2052455454454c205547554c45543b32334330,
0x3b3b3b3b3b4e3b3b3b3b3b4c3b303b6f4c3b414c4c2052455454454c205547554c45543b33334330,
0x3b3b3b3b3b4e3b3b3b3b3b4c3b303b6f4c3b414c4c4c2052455454454c205547554c45543b34334330,
0x3b3b3b3b3b4e3b3b3b3b3b4c3b303b6f4c3b41562052455454454c205547554c45543b35334330,
0x3b3b3b3b3b4e3b3b3b3b3b4c3b303b6f4c3b4148532052455454454c205547554c45543b36334330,
0x3b3b3b3b3b4e3b3b3b3b3b4c3b303b6f4c3b4153532052455454454c205547554c45543b37334330,
0x3b3b3b3b3b4e3b3b3b3b3b4c3b303b6f4c3b41532052455454454c205547554c45543b38334330,
0x3b3b3b3b3b4e3b3b3b3b3b4c3b303b6f4c3b41482052455454454c205547554c45543b39334330,
0x3b3b3b3b3b4e3b3b3b3b3b4c3b303b6f4c3b4148415247415641204e474953205547554c45543b44334330,
0x3b3b3b3b3b4e3b3b3b3b3b4d534e3b303b6e4d3b4141204e474953204c45574f56205547554c45543b45334330,
0x3b3b3b3b3b4e3b3b3b3b3b4d534e3b303b6e4d3b49204e474953204c45574f56205547554c45543b46334330,
0x3b3b3b3b3b4e3b3b3b3b3b4d534e3b303b6e4d3b4949204e474953204c45574f56205547554c45543b30344330,
0x3b3b3b3b3b4e3b3b3b3b3b4c3b303b634d3b55204e474953204c45574f56205547554c45543b31344330,
0x3b3b3b3b3b4e3b3b3b3b3b4c3b303b634d3b5555204e474953204c45574f56205547554c45543b32344330,
0x3b3b3b3b3b4e3b3b3b3b3b4c3b303b634d3b522043494c41434f56204e474953204c45574f56205547554c45543b33344330,
0x3b3b3b3b3b4e3b3b3b3b3b4c3b303b634d3b52522043494c41434f56204e474953204c45574f56205547554c45543b34344330,
0x3b3b3b3b3b4e3b3b3b3b3b4d534e3b303b6e4d3b45204e474953204c45574f56205547554c45543b36344330,
0x3b3b3b3b3b4e3b3b3b3b3b4d534e3b303b6e4d3b4545204e474953204c45574f56205547554c45543b37344330,
0x3b3b3b3b3b4e3b3b3b3b3635433020363443303b4d534e3b303b6e4d3b4941204e474953204c45574f56205547554c45543b38344330,
0x3b3b3b3b3b4e3b3b3b3b3b4d534e3b303b6e4d3b4f204e474953204c45574f56205547554c45543b41344330,
0x3b3b3b3b3b4e3b3b3b3b3b4d534e3b303b6e4d3b4f4f204e474953204c45574f56205547554c45543b42344330,
0x3b3b3b3b3b4e3b3b3b3b3b4d534e3b303b6e4d3b5541204e474953204c45574f56205547554c45543b43344330,
0x3b3b3b3b3b4e3b3b3b3b3b4d534e3b393b6e4d3b414d41524956204e474953205547554c45543b44344330,
0x3b3b3b3b3b4e3b3b3b3b3b4d534e3b34383b6e4d3b4b52414d204854474e454c205547554c45543b35354330,
0x3b3b3b3b3b4e3b3b3b3b3b4d534e3b31393b6e4d3b4b52414d204854474e454c204941205547554c45543b36354330,
0x3b3b3b3b3b4e3b3b3b3b3b4c3b303b6f4c3b4153542052455454454c205547554c45543b38354330,
0x3b3b3b3b3b4e3b3b3b3b3b4c3b303b6f4c3b415a442052455454454c205547554c45543b39354330,
0x3b3b3b3b3b4e3b3b3b3b3b4c3b303b6f4c3b415252522052455454454c205547554c45543b41354330,
0x3b3b3b3b3b4e3b3b3b3b3b4c3b303b6f4c3b52522043494c41434f562052455454454c205547554c45543b30364330,
0x3b3b3b3b3b4e3b3b3b3b3b4c3b303b6f4c3b4c4c2043494c41434f562052455454454c205547554c45543b31364330,
0x3b3b3b3b3b4e3b3b3b3b3b4d534e3b303b6e4d3b4c2043494c41434f56204e474953204c45574f56205547554c45543b32364330,
0x3b3b3b3b3b4e3b3b3b3b3b4d534e3b303b6e4d3b4c4c2043494c41434f56204e474953204c45574f56205547554c45543b33364330,
0x3b3b3b3b3b4e3b303b303b303b3b4c3b303b644e3b4f52455a205449474944205547554c45543b36364330,
0x3b3b3b3b3b4e3b313b313b313b3b4c3b303b644e3b454e4f205449474944205547554c45543b37364330,
0x3b3b3b3b3b4e3b323b323b323b3b4c3b303b644e3b4f5754205449474944205547554c45543b38364330,
0x3b3b3b3b3b4e3b333b333b333b3b4c3b303b644e3b4545524854205449474944205547554c45543b39364330,
0x3b3b3b3b3b4e3b343b343b343b3b4c3b303b644e3b52554f46205449474944205547554c45543b41364330,
0x3b3b3b3b3b4e3b353b353b353b3b4c3b303b644e3b45564946205449474944205547554c45543b42364330,
0x3b3b3b3b3b4e3b363b363b363b3b4c3b303b644e3b584953205449474944205547554c45543b43364330,
0x3b3b3b3b3b4e3b373b373b373b3b4c3b303b644e3b4e45564553205449474944205547554c45543b44364330,
0x3b3b3b3b3b4e3b383b383b383b3b4c3b303b644e3b5448474945205449474944205547554c45543b45364330,
0x3b3b3b3b3b4e3b393b393b393b3b4c3b303b644e3b454e494e205449474944205547554c45543b46364330,
0x3b3b3b3b3b4e3b303b3b3b3b4e4f3b303b6f4e3b52554f4620464f20535245574f502044444f20524f46204f52455a205449474944204e4f495443415246205547554c45543b38374330,
0x3b3b3b3b3b4e3b313b3b3b3b4e4f3b303b6f4e3b52554f4620464f20535245574f502044444f20524f4620454e4f205449474944204e4f495443415246205547554c45543b39374330,
0x3b3b3b3b3b4e3b323b3b3b3b4e4f3b303b6f4e3b52554f4620464f20535245574f502044444f20524f46204f5754205449474944204e4f495443415246205547554c45543b41374330,
0x3b3b3b3b3b4e3b333b3b3b3b4e4f3b303b6f4e3b52554f4620464f20535245574f502044444f20524f46204545524854205449474944204e4f495443415246205547554c45543b42374330,
0x3b3b3b3b3b4e3b313b3b3b3b4e4f3b303b6f4e3b52554f4620464f20535245574f50204e45564520524f4620454e4f205449474944204e4f495443415246205547554c45543b43374330,
0x3b3b3b3b3b4e3b323b3b3b3b4e4f3b303b6f4e3b52554f4620464f20535245574f50204e45564520524f46204f5754205449474944204e4f495443415246205547554c45543b44374330,
0x3b3b3b3b3b4e3b333b3b3b3b4e4f3b303b6f4e3b52554f4620464f20535245574f50204e45564520524f46204545524854205449474944204e4f495443415246205547554c45543b45374330,
0x3b3b3b3b3b4e3b3b3b3b3b4c3b303b6f533b554d555554204e474953205547554c45543b46374330,
0x3b3b3b3b3b4e3b3b3b3b3b4c3b303b6f4c3b55444e49424152444e414320474e4943415053204e474953204144414e4e414b3b30384330,
0x3b3b3b3b3b4e3b3b3b3b3b4d534e3b303b6e4d3b55444e49424152444e4143204e474953204144414e4e414b3b31384330,
0x3b3b3b3b3b4e3b3b3b3b3b4c3b303b634d3b4152415653554e41204e474953204144414e4e414b3b32384330,
0x3b3b3b3b3b4e3b3b3b3b3b4c3b303b634d3b41475241534956204e474953204144414e4e414b3b33384330,
0x3b3b3b3b3b4e3b3b3b3b3b4c3b303b6f4c3b412052455454454c204144414e4e414b3b35384330,
0x3b3b3b3b3b4e3b3b3b3b3b4c3b303b6f4c3b41412052455454454c204144414e4e414b3b36384330,
0x3b3b3b3b3b4e3b3b3b3b3b4c3b303b6f4c3b492052455454454c204144414e4e414b3b37384330,
0x3b3b3b3b3b4e3b3b3b3b3b4c3b303b6f4c3b49492052455454454c204144414e4e414b3b38384330,
0x3b3b3b3b3b4e3b3b3b3b3b4c3b303b6f4c3b552052455454454c204144414e4e414b3b39384330,
0x3b3b3b3b3b4e3b3b3b3b3b4c3b303b6f4c3b55552052455454454c204144414e4e414b3b41384330,
0x3b3b3b3b3b4e3b3b3b3b3b4c3b303b6f4c3b522043494c41434f562052455454454c204144414e4e414b3b42384330,
0x3b3b3b3b3b4e3b3b3b3b3b4c3b303b6f4c3b4c2043494c41434f562052455454454c204144414e4e414b3b43384330,
0x3b3b3b3b3b4e3b3b3b3b3b4c3b303b6f4c3b452052455454454c204144414e4e414b3b45384330,
0x3b3b3b3b3b4e3b3b3b3b3b4c3b303b6f4c3b45452052455454454c204144414e4e414b3b46384330,
0x3b3b3b3b3b4e3b3b3b3b3b4c3b303b6f4c3b49412052455454454c204144414e4e414b3b30394330,
0x3b3b3b3b3b4e3b3b3b3b3b4c3b303b6f4c3b4f2052455454454c204144414e4e414b3b32394330,
0x3b3b3b3b3b4e3b3b3b3b3b4c3b303b6f4c3b4f4f2052455454454c204144414e4e414b3b33394330,
0x3b3b3b3b3b4e3b3b3b3b3b4c3b303b6f4c3b55412052455454454c204144414e4e414b3b34394330,
0x3b3b3b3b3b4e3b3b3b3b3b4c3b303b6f4c3b414b2052455454454c204144414e4e414b3b35394330,
0x3b3b3b3b3b4e3b3b3b3b3b4c3b303b6f4c3b41484b2052455454454c204144414e4e414b3b36394330,
0x3b3b3b3b3b4e3b3b3b3b3b4c3b303b6f4c3b41472052455454454c204144414e4e414b3b37394330,
0x3b3b3b3b3b4e3b3b3b3b3b4c3b303b6f4c3b4148472052455454454c204144414e4e414b3b38394330,
0x3b3b3b3b3b4e3b3b3b3b3b4c3b303b6f4c3b41474e2052455454454c204144414e4e414b3b39394330,
0x3b3b3b3b3b4e3b3b3b3b3b4c3b303b6f4c3b41432052455454454c204144414e4e414b3b41394330,
0x3b3b3b3b3b4e3b3b3b3b3b4c3b303b6f4c3b4148432052455454454c204144414e4e414b3b42394330,
0x3b3b3b3b3b4e3b3b3b3b3b4c3b303b6f4c3b414a2052455454454c204144414e4e414b3b43394330]

/-- src/u5e/props/UnicodeData.txt lines 2817-3072. -/
def rawUcd11 : List Nat := [
0x3b3b3b3b3b4e3b3b3b3b3b4c3b303b6f4c3b41484a2052455454454c204144414e4e414b3b44394330,
0x3b3b3b3b3b4e3b3b3b3b3b4c3b303b6f4c3b41594e2052455454454c204144414e4e414b3b45394330,
0x3b3b3b3b3b4e3b3b3b3b3b4c3b303b6f4c3b4154542052455454454c204144414e4e414b3b46394330,
0x3b3b3b3b3b4e3b3b3b3b3b4c3b303b6f4c3b414854542052455454454c204144414e4e414b3b30414330,
0x3b3b3b3b3b4e3b3b3b3b3b4c3b303b6f4c3b4144442052455454454c204144414e4e414b3b31414330,
0x3b3b3b3b3b4e3b3b3b3b3b4c3b303b6f4c3b414844442052455454454c204144414e4e414b3b32414330,
0x3b3b3b3b3b4e3b3b3b3b3b4c3b303b6f4c3b414e4e2052455454454c204144414e4e414b3b33414330,
0x3b3b3b3b3b4e3b3b3b3b3b4c3b303b6f4c3b41542052455454454c204144414e4e414b3b34414330,
0x3b3b3b3b3b4e3b3b3b3b3b4c3b303b6f4c3b4148542052455454454c204144414e4e414b3b35414330,
0x3b3b3b3b3b4e3b3b3b3b3b4c3b303b6f4c3b41442052455454454c204144414e4e414b3b36414330,
0x3b3b3b3b3b4e3b3b3b3b3b4c3b303b6f4c3b4148442052455454454c204144414e4e414b3b37414330,
0x3b3b3b3b3b4e3b3b3b3b3b4c3b303b6f4c3b414e2052455454454c204144414e4e414b3b38414330,
0x3b3b3b3b3b4e3b3b3b3b3b4c3b303b6f4c3b41502052455454454c204144414e4e414b3b41414330,
0x3b3b3b3b3b4e3b3b3b3b3b4c3b303b6f4c3b4148502052455454454c204144414e4e414b3b42414330,
0x3b3b3b3b3b4e3b3b3b3b3b4c3b303b6f4c3b41422052455454454c204144414e4e414b3b43414330,
0x3b3b3b3b3b4e3b3b3b3b3b4c3b303b6f4c3b4148422052455454454c204144414e4e414b3b44414330,
0x3b3b3b3b3b4e3b3b3b3b3b4c3b303b6f4c3b414d2052455454454c204144414e4e414b3b45414330,
0x3b3b3b3b3b4e3b3b3b3b3b4c3b303b6f4c3b41592052455454454c204144414e4e414b3b46414330,
0x3b3b3b3b3b4e3b3b3b3b3b4c3b303b6f4c3b41522052455454454c204144414e4e414b3b30424330,
0x3b3b3b3b3b4e3b3b3b3b3b4c3b303b6f4c3b4152522052455454454c204144414e4e414b3b31424330,
0x3b3b3b3b3b4e3b3b3b3b3b4c3b303b6f4c3b414c2052455454454c204144414e4e414b3b32424330,
0x3b3b3b3b3b4e3b3b3b3b3b4c3b303b6f4c3b414c4c2052455454454c204144414e4e414b3b33424330,
0x3b3b3b3b3b4e3b3b3b3b3b4c3b303b6f4c3b41562052455454454c204144414e4e414b3b35424330,
0x3b3b3b3b3b4e3b3b3b3b3b4c3b303b6f4c3b4148532052455454454c204144414e4e414b3b36424330,
0x3b3b3b3b3b4e3b3b3b3b3b4c3b303b6f4c3b4153532052455454454c204144414e4e414b3b37424330,
0x3b3b3b3b3b4e3b3b3b3b3b4c3b303b6f4c3b41532052455454454c204144414e4e414b3b38424330,
0x3b3b3b3b3b4e3b3b3b3b3b4c3b303b6f4c3b41482052455454454c204144414e4e414b3b39424330,
0x3b3b3b3b3b4e3b3b3b3b3b4d534e3b373b6e4d3b41544b554e204e474953204144414e4e414b3b43424330,
0x3b3b3b3b3b4e3b3b3b3b3b4c3b303b6f4c3b4148415247415641204e474953204144414e4e414b3b44424330,
0x3b3b3b3b3b4e3b3b3b3b3b4c3b303b634d3b4141204e474953204c45574f56204144414e4e414b3b45424330,
0x3b3b3b3b3b4e3b3b3b3b3b4c3b303b6e4d3b49204e474953204c45574f56204144414e4e414b3b46424330,
0x3b3b3b3b3b4e3b3b3b3b3544433020464243303b4c3b303b634d3b4949204e474953204c45574f56204144414e4e414b3b30434330,
0x3b3b3b3b3b4e3b3b3b3b3b4c3b303b634d3b55204e474953204c45574f56204144414e4e414b3b31434330,
0x3b3b3b3b3b4e3b3b3b3b3b4c3b303b634d3b5555204e474953204c45574f56204144414e4e414b3b32434330,
0x3b3b3b3b3b4e3b3b3b3b3b4c3b303b634d3b522043494c41434f56204e474953204c45574f56204144414e4e414b3b33434330,
0x3b3b3b3b3b4e3b3b3b3b3b4c3b303b634d3b52522043494c41434f56204e474953204c45574f56204144414e4e414b3b34434330,
0x3b3b3b3b3b4e3b3b3b3b3b4c3b303b6e4d3b45204e474953204c45574f56204144414e4e414b3b36434330,
0x3b3b3b3b3b4e3b3b3b3b3544433020364343303b4c3b303b634d3b4545204e474953204c45574f56204144414e4e414b3b37434330,
0x3b3b3b3b3b4e3b3b3b3b3644433020364343303b4c3b303b634d3b4941204e474953204c45574f56204144414e4e414b3b38434330,
0x3b3b3b3b3b4e3b3b3b3b3243433020364343303b4c3b303b634d3b4f204e474953204c45574f56204144414e4e414b3b41434330,
0x3b3b3b3b3b4e3b3b3b3b3544433020414343303b4c3b303b634d3b4f4f204e474953204c45574f56204144414e4e414b3b42434330,
0x3b3b3b3b3b4e3b3b3b3b3b4d534e3b303b6e4d3b5541204e474953204c45574f56204144414e4e414b3b43434330,
0x3b3b3b3b3b4e3b3b3b3b3b4d534e3b393b6e4d3b414d41524956204e474953204144414e4e414b3b44434330,
0x3b3b3b3b3b4e3b3b3b3b3b4c3b303b634d3b4b52414d204854474e454c204144414e4e414b3b35444330,
0x3b3b3b3b3b4e3b3b3b3b3b4c3b303b634d3b4b52414d204854474e454c204941204144414e4e414b3b36444330,
0x3b3b3b3b3b4e3b3b3b3b3b4c3b303b6f4c3b41462052455454454c204144414e4e414b3b45444330,
0x3b3b3b3b3b4e3b3b3b3b3b4c3b303b6f4c3b52522043494c41434f562052455454454c204144414e4e414b3b30454330,
0x3b3b3b3b3b4e3b3b3b3b3b4c3b303b6f4c3b4c4c2043494c41434f562052455454454c204144414e4e414b3b31454330,
0x3b3b3b3b3b4e3b3b3b3b3b4d534e3b303b6e4d3b4c2043494c41434f56204e474953204c45574f56204144414e4e414b3b32454330,
0x3b3b3b3b3b4e3b3b3b3b3b4d534e3b303b6e4d3b4c4c2043494c41434f56204e474953204c45574f56204144414e4e414b3b33454330,
0x3b3b3b3b3b4e3b303b303b303b3b4c3b303b644e3b4f52455a205449474944204144414e4e414b3b36454330,
0x3b3b3b3b3b4e3b313b313b313b3b4c3b303b644e3b454e4f205449474944204144414e4e414b3b37454330,
0x3b3b3b3b3b4e3b323b323b323b3b4c3b303b644e3b4f5754205449474944204144414e4e414b3b38454330,
0x3b3b3b3b3b4e3b333b333b333b3b4c3b303b644e3b4545524854205449474944204144414e4e414b3b39454330,
0x3b3b3b3b3b4e3b343b343b343b3b4c3b303b644e3b52554f46205449474944204144414e4e414b3b41454330,
0x3b3b3b3b3b4e3b353b353b353b3b4c3b303b644e3b45564946205449474944204144414e4e414b3b42454330,
0x3b3b3b3b3b4e3b363b363b363b3b4c3b303b644e3b584953205449474944204144414e4e414b3b43454330,
0x3b3b3b3b3b4e3b373b373b373b3b4c3b303b644e3b4e45564553205449474944204144414e4e414b3b44454330,
0x3b3b3b3b3b4e3b383b383b383b3b4c3b303b644e3b5448474945205449474944204144414e4e414b3b45454330,
0x3b3b3b3b3b4e3b393b393b393b3b4c3b303b644e3b454e494e205449474944204144414e4e414b3b46454330,
0x3b3b3b3b3b4e3b3b3b3b3b4c3b303b6f4c3b4159494c554d415648494a204e474953204144414e4e414b3b31464330,
0x3b3b3b3b3b4e3b3b3b3b3b4c3b303b6f4c3b4159494e414d4844415055204e474953204144414e4e414b3b32464330,
0x3b3b3b3b3b4e3b3b3b3b3b4d534e3b303b6e4d3b55444e49424152444e4143204e474953204d414c4159414c414d3b31304430,
0x3b3b3b3b3b4e3b3b3b3b3b4c3b303b634d3b4152415653554e41204e474953204d414c4159414c414d3b32304430,
0x3b3b3b3b3b4e3b3b3b3b3b4c3b303b634d3b41475241534956204e474953204d414c4159414c414d3b33304430,
0x3b3b3b3b3b4e3b3b3b3b3b4c3b303b6f4c3b412052455454454c204d414c4159414c414d3b35304430,
0x3b3b3b3b3b4e3b3b3b3b3b4c3b303b6f4c3b41412052455454454c204d414c4159414c414d3b36304430,
0x3b3b3b3b3b4e3b3b3b3b3b4c3b303b6f4c3b492052455454454c204d414c4159414c414d3b37304430,
0x3b3b3b3b3b4e3b3b3b3b3b4c3b303b6f4c3b49492052455454454c204d414c4159414c414d3b38304430,
0x3b3b3b3b3b4e3b3b3b3b3b4c3b303b6f4c3b552052455454454c204d414c4159414c414d3b39304430,
0x3b3b3b3b3b4e3b3b3b3b3b4c3b303b6f4c3b55552052455454454c204d414c4159414c414d3b41304430,
0x3b3b3b3b3b4e3b3b3b3b3b4c3b303b6f4c3b522043494c41434f562052455454454c204d414c4159414c414d3b42304430,
0x3b3b3b3b3b4e3b3b3b3b3b4c3b303b6f4c3b4c2043494c41434f562052455454454c204d414c4159414c414d3b43304430,
0x3b3b3b3b3b4e3b3b3b3b3b4c3b303b6f4c3b452052455454454c204d414c4159414c414d3b45304430,
0x3b3b3b3b3b4e3b3b3b3b3b4c3b303b6f4c3b45452052455454454c204d414c4159414c414d3b46304430,
0x3b3b3b3b3b4e3b3b3b3b3b4c3b303b6f4c3b49412052455454454c204d414c4159414c414d3b30314430,
0x3b3b3b3b3b4e3b3b3b3b3b4c3b303b6f4c3b4f2052455454454c204d414c4159414c414d3b32314430,
0x3b3b3b3b3b4e3b3b3b3b3b4c3b303b6f4c3b4f4f2052455454454c204d414c4159414c414d3b33314430,
0x3b3b3b3b3b4e3b3b3b3b3b4c3b303b6f4c3b55412052455454454c204d414c4159414c414d3b34314430,
0x3b3b3b3b3b4e3b3b3b3b3b4c3b303b6f4c3b414b2052455454454c204d414c4159414c414d3b35314430,
0x3b3b3b3b3b4e3b3b3b3b3b4c3b303b6f4c3b41484b2052455454454c204d414c4159414c414d3b36314430,
0x3b3b3b3b3b4e3b3b3b3b3b4c3b303b6f4c3b41472052455454454c204d414c4159414c414d3b37314430,
0x3b3b3b3b3b4e3b3b3b3b3b4c3b303b6f4c3b4148472052455454454c204d414c4159414c414d3b38314430,
0x3b3b3b3b3b4e3b3b3b3b3b4c3b303b6f4c3b41474e2052455454454c204d414c4159414c414d3b39314430,
0x3b3b3b3b3b4e3b3b3b3b3b4c3b303b6f4c3b41432052455454454c204d414c4159414c414d3b41314430,
0x3b3b3b3b3b4e3b3b3b3b3b4c3b303b6f4c3b4148432052455454454c204d414c4159414c414d3b42314430,
0x3b3b3b3b3b4e3b3b3b3b3b4c3b303b6f4c3b414a2052455454454c204d414c4159414c414d3b43314430,
0x3b3b3b3b3b4e3b3b3b3b3b4c3b303b6f4c3b41484a2052455454454c204d414c4159414c414d3b44314430,
0x3b3b3b3b3b4e3b3b3b3b3b4c3b303b6f4c3b41594e2052455454454c204d414c4159414c414d3b45314430,
0x3b3b3b3b3b4e3b3b3b3b3b4c3b303b6f4c3b4154542052455454454c204d414c4159414c414d3b46314430,
0x3b3b3b3b3b4e3b3b3b3b3b4c3b303b6f4c3b414854542052455454454c204d414c4159414c414d3b30324430,
0x3b3b3b3b3b4e3b3b3b3b3b4c3b303b6f4c3b4144442052455454454c204d414c4159414c414d3b31324430,
0x3b3b3b3b3b4e3b3b3b3b3b4c3b303b6f4c3b414844442052455454454c204d414c4159414c414d3b32324430,
0x3b3b3b3b3b4e3b3b3b3b3b4c3b303b6f4c3b414e4e2052455454454c204d414c4159414c414d3b33324430,
0x3b3b3b3b3b4e3b3b3b3b3b4c3b303b6f4c3b41542052455454454c204d414c4159414c414d3b34324430,
0x3b3b3b3b3b4e3b3b3b3b3b4c3b303b6f4c3b4148542052455454454c204d414c4159414c414d3b35324430,
0x3b3b3b3b3b4e3b3b3b3b3b4c3b303b6f4c3b41442052455454454c204d414c4159414c414d3b36324430,
0x3b3b3b3b3b4e3b3b3b3b3b4c3b303b6f4c3b4148442052455454454c204d414c4159414c414d3b37324430,
0x3b3b3b3b3b4e3b3b3b3b3b4c3b303b6f4c3b414e2052455454454c204d414c4159414c414d3b38324430,
0x3b3b3b3b3b4e3b3b3b3b3b4c3b303b6f4c3b414e4e4e2052455454454c204d414c4159414c414d3b39324430,
0x3b3b3b3b3b4e3b3b3b3b3b4c3b303b6f4c3b41502052455454454c204d414c4159414c414d3b41324430,
0x3b3b3b3b3b4e3b3b3b3b3b4c3b303b6f4c3b4148502052455454454c204d414c4159414c414d3b42324430,
0x3b3b3b3b3b4e3b3b3b3b3b4c3b303b6f4c3b41422052455454454c204d414c4159414c414d3b43324430,
0x3b3b3b3b3b4e3b3b3b3b3b4c3b303b6f4c3b4148422052455454454c204d414c4159414c414d3b44324430,
0x3b3b3b3b3b4e3b3b3b3b3b4c3b303b6f4c3b414d2052455454454c204d414c4159414c414d3b45324430,
0x3b3b3b3b3b4e3b3b3b3b3b4c3b303b6f4c3b41592052455454454c204d414c4159414c414d3b46324430,
0x3b3b3b3b3b4e3b3b3b3b3b4c3b303b6f4c3b41522052455454454c204d414c4159414c414d3b30334430,
0x3b3b3b3b3b4e3b3b3b3b3b4c3b303b6f4c3b4152522052455454454c204d414c4159414c414d3b31334430,
0x3b3b3b3b3b4e3b3b3b3b3b4c3b303b6f4c3b414c2052455454454c204d414c4159414c414d3b32334430,
0x3b3b3b3b3b4e3b3b3b3b3b4c3b303b6f4c3b414c4c2052455454454c204d414c4159414c414d3b33334430,
0x3b3b3b3b3b4e3b3b3b3b3b4c3b303b6f4c3b414c4c4c2052455454454c204d414c4159414c414d3b34334430,
0x3b3b3b3b3b4e3b3b3b3b3b4c3b303b6f4c3b41562052455454454c204d414c4159414c414d3b35334430,
0x3b3b3b3b3b4e3b3b3b3b3b4c3b303b6f4c3b4148532052455454454c204d414c4159414c414d3b36334430,
0x3b3b3b3b3b4e3b3b3b3b3b4c3b303b6f4c3b4153532052455454454c204d414c4159414c414d3b37334430,
0x3b3b3b3b3b4e3b3b3b3b3b4c3b303b6f4c3b41532052455454454c204d414c4159414c414d3b38334430,
0x3b3b3b3b3b4e3b3b3b3b3b4c3b303b6f4c3b41482052455454454c204d414c4159414c414d3b39334430,
0x3b3b3b3b3b4e3b3b3b3b3b4c3b303b6f4c3b415454542052455454454c204d414c4159414c414d3b41334430,
0x3b3b3b3b3b4e3b3b3b3b3b4c3b303b6f4c3b4148415247415641204e474953204d414c4159414c414d3b44334430,
0x3b3b3b3b3b4e3b3b3b3b3b4c3b303b634d3b4141204e474953204c45574f56204d414c4159414c414d3b45334430,
0x3b3b3b3b3b4e3b3b3b3b3b4c3b303b634d3b49204e474953204c45574f56204d414c4159414c414d3b46334430,
0x3b3b3b3b3b4e3b3b3b3b3b4c3b303b634d3b4949204e474953204c45574f56204d414c4159414c414d3b30344430,
0x3b3b3b3b3b4e3b3b3b3b3b4d534e3b303b6e4d3b55204e474953204c45574f56204d414c4159414c414d3b31344430,
0x3b3b3b3b3b4e3b3b3b3b3b4d534e3b303b6e4d3b5555204e474953204c45574f56204d414c4159414c414d3b32344430,
0x3b3b3b3b3b4e3b3b3b3b3b4d534e3b303b6e4d3b522043494c41434f56204e474953204c45574f56204d414c4159414c414d3b33344430,
0x3b3b3b3b3b4e3b3b3b3b3b4d534e3b303b6e4d3b52522043494c41434f56204e474953204c45574f56204d414c4159414c414d3b34344430,
0x3b3b3b3b3b4e3b3b3b3b3b4c3b303b634d3b45204e474953204c45574f56204d414c4159414c414d3b36344430,
0x3b3b3b3b3b4e3b3b3b3b3b4c3b303b634d3b4545204e474953204c45574f56204d414c4159414c414d3b37344430,
0x3b3b3b3b3b4e3b3b3b3b3b4c3b303b634d3b4941204e474953204c45574f56204d414c4159414c414d3b38344430,
0x3b3b3b3b3b4e3b3b3b3b4533443020363444303b4c3b303b634d3b4f204e474953204c45574f56204d414c4159414c414d3b41344430,
0x3b3b3b3b3b4e3b3b3b3b4533443020373444303b4c3b303b634d3b4f4f204e474953204c45574f56204d414c4159414c414d3b42344430,
0x3b3b3b3b3b4e3b3b3b3b3735443020363444303b4c3b303b634d3b5541204e474953204c45574f56204d414c4159414c414d3b43344430,
0x3b3b3b3b3b4e3b3b3b3b3b4d534e3b393b6e4d3b414d41524956204e474953204d414c4159414c414d3b44344430,
0x3b3b3b3b3b4e3b3b3b3b3b4c3b303b6f4c3b4850455220544f442052455454454c204d414c4159414c414d3b45344430,
0x3b3b3b3b3b4e3b3b3b3b3b4c3b303b6f533b41524150204e474953204d414c4159414c414d3b46344430,
0x3b3b3b3b3b4e3b3b3b3b3b4c3b303b6f4c3b4d20554c4c4948432052455454454c204d414c4159414c414d3b34354430,
0x3b3b3b3b3b4e3b3b3b3b3b4c3b303b6f4c3b5920554c4c4948432052455454454c204d414c4159414c414d3b35354430,
0x3b3b3b3b3b4e3b3b3b3b3b4c3b303b6f4c3b4c4c4c20554c4c4948432052455454454c204d414c4159414c414d3b36354430,
0x3b3b3b3b3b4e3b3b3b3b3b4c3b303b634d3b4b52414d204854474e454c205541204d414c4159414c414d3b37354430,
0x3b3b3b3b3b4e3b3036312f313b3b3b3b4c3b303b6f4e3b48544549545849532d444e412d444552444e55482d454e4f20454e4f204e4f495443415246204d414c4159414c414d3b38354430,
0x3b3b3b3b3b4e3b30342f313b3b3b3b4c3b303b6f4e3b4854454954524f4620454e4f204e4f495443415246204d414c4159414c414d3b39354430,
0x3b3b3b3b3b4e3b30382f333b3b3b3b4c3b303b6f4e3b53485445495448474945204545524854204e4f495443415246204d414c4159414c414d3b41354430,
0x3b3b3b3b3b4e3b30322f313b3b3b3b4c3b303b6f4e3b48544549544e45575420454e4f204e4f495443415246204d414c4159414c414d3b42354430,
0x3b3b3b3b3b4e3b30312f313b3b3b3b4c3b303b6f4e3b48544e455420454e4f204e4f495443415246204d414c4159414c414d3b43354430,
0x3b3b3b3b3b4e3b30322f333b3b3b3b4c3b303b6f4e3b5348544549544e455754204545524854204e4f495443415246204d414c4159414c414d3b44354430,
0x3b3b3b3b3b4e3b352f313b3b3b3b4c3b303b6f4e3b485446494620454e4f204e4f495443415246204d414c4159414c414d3b45354430,
0x3b3b3b3b3b4e3b3b3b3b3b4c3b303b6f4c3b494920434941484352412052455454454c204d414c4159414c414d3b46354430,
0x3b3b3b3b3b4e3b3b3b3b3b4c3b303b6f4c3b52522043494c41434f562052455454454c204d414c4159414c414d3b30364430,
0x3b3b3b3b3b4e3b3b3b3b3b4c3b303b6f4c3b4c4c2043494c41434f562052455454454c204d414c4159414c414d3b31364430,
0x3b3b3b3b3b4e3b3b3b3b3b4d534e3b303b6e4d3b4c2043494c41434f56204e474953204c45574f56204d414c4159414c414d3b32364430,
0x3b3b3b3b3b4e3b3b3b3b3b4d534e3b303b6e4d3b4c4c2043494c41434f56204e474953204c45574f56204d414c4159414c414d3b33364430,
0x3b3b3b3b3b4e3b303b303b303b3b4c3b303b644e3b4f52455a205449474944204d414c4159414c414d3b36364430,
0x3b3b3b3b3b4e3b313b313b313b3b4c3b303b644e3b454e4f205449474944204d414c4159414c414d3b37364430,
0x3b3b3b3b3b4e3b323b323b323b3b4c3b303b644e3b4f5754205449474944204d414c4159414c414d3b38364430,
0x3b3b3b3b3b4e3b333b333b333b3b4c3b303b644e3b4545524854205449474944204d414c4159414c414d3b39364430,
0x3b3b3b3b3b4e3b343b343b343b3b4c3b303b644e3b52554f46205449474944204d414c4159414c414d3b41364430,
0x3b3b3b3b3b4e3b353b353b353b3b4c3b303b644e3b45564946205449474944204d414c4159414c414d3b42364430,
0x3b3b3b3b3b4e3b363b363b363b3b4c3b303b644e3b584953205449474944204d414c4159414c414d3b43364430,
0x3b3b3b3b3b4e3b373b373b373b3b4c3b303b644e3b4e45564553205449474944204d414c4159414c414d3b44364430,
0x3b3b3b3b3b4e3b383b383b383b3b4c3b303b644e3b5448474945205449474944204d414c4159414c414d3b45364430,
0x3b3b3b3b3b4e3b393b393b393b3b4c3b303b644e3b454e494e205449474944204d414c4159414c414d3b46364430,
0x3b3b3b3b3b4e3b30313b3b3b3b4c3b303b6f4e3b4e4554205245424d554e204d414c4159414c414d3b30374430,
0x3b3b3b3b3b4e3b3030313b3b3b3b4c3b303b6f4e3b444552444e554820454e4f205245424d554e204d414c4159414c414d3b31374430,
0x3b3b3b3b3b4e3b303030313b3b3b3b4c3b303b6f4e3b444e4153554f485420454e4f205245424d554e204d414c4159414c414d3b32374430,
0x3b3b3b3b3b4e3b342f313b3b3b3b4c3b303b6f4e3b5245545241555120454e4f204e4f495443415246204d414c4159414c414d3b33374430,
0x3b3b3b3b3b4e3b322f313b3b3b3b4c3b303b6f4e3b464c414820454e4f204e4f495443415246204d414c4159414c414d3b34374430,
0x3b3b3b3b3b4e3b342f333b3b3b3b4c3b303b6f4e3b5352455452415551204545524854204e4f495443415246204d414c4159414c414d3b35374430,
0x3b3b3b3b3b4e3b36312f313b3b3b3b4c3b303b6f4e3b48544e45455458495320454e4f204e4f495443415246204d414c4159414c414d3b36374430,
0x3b3b3b3b3b4e3b382f313b3b3b3b4c3b303b6f4e3b48544847494520454e4f204e4f495443415246204d414c4159414c414d3b37374430,
0x3b3b3b3b3b4e3b36312f333b3b3b3b4c3b303b6f4e3b5348544e454554584953204545524854204e4f495443415246204d414c4159414c414d3b38374430,
0x3b3b3b3b3b4e3b3b3b3b3b4c3b303b6f533b4b52414d2045544144204d414c4159414c414d3b39374430,
0x3b3b3b3b3b4e3b3b3b3b3b4c3b303b6f4c3b4e4e20554c4c4948432052455454454c204d414c4159414c414d3b41374430,
0x3b3b3b3b3b4e3b3b3b3b3b4c3b303b6f4c3b4e20554c4c4948432052455454454c204d414c4159414c414d3b42374430,
0x3b3b3b3b3b4e3b3b3b3b3b4c3b303b6f4c3b525220554c4c4948432052455454454c204d414c4159414c414d3b43374430,
0x3b3b3b3b3b4e3b3b3b3b3b4c3b303b6f4c3b4c20554c4c4948432052455454454c204d414c4159414c414d3b44374430,
0x3b3b3b3b3b4e3b3b3b3b3b4c3b303b6f4c3b4c4c20554c4c4948432052455454454c204d414c4159414c414d3b45374430,
0x3b3b3b3b3b4e3b3b3b3b3b4c3b303b6f4c3b4b20554c4c4948432052455454454c204d414c4159414c414d3b46374430,
0x3b3b3b3b3b4e3b3b3b3b3b4c3b303b634d3b41594152415653554e41204e47495320414c41484e49533b32384430,
0x3b3b3b3b3b4e3b3b3b3b3b4c3b303b634d3b415941475241534956204e47495320414c41484e49533b33384430,
0x3b3b3b3b3b4e3b3b3b3b3b4c3b303b6f4c3b414e4e4159412052455454454c20414c41484e49533b35384430,
0x3b3b3b3b3b4e3b3b3b3b3b4c3b303b6f4c3b414e4e415941412052455454454c20414c41484e49533b36384430,
0x3b3b3b3b3b4e3b3b3b3b3b4c3b303b6f4c3b414e4e415945412052455454454c20414c41484e49533b37384430,
0x3b3b3b3b3b4e3b3b3b3b3b4c3b303b6f4c3b414e4e41594545412052455454454c20414c41484e49533b38384430,
0x3b3b3b3b3b4e3b3b3b3b3b4c3b303b6f4c3b414e4e4159492052455454454c20414c41484e49533b39384430,
0x3b3b3b3b3b4e3b3b3b3b3b4c3b303b6f4c3b414e4e415949492052455454454c20414c41484e49533b41384430,
0x3b3b3b3b3b4e3b3b3b3b3b4c3b303b6f4c3b414e4e4159552052455454454c20414c41484e49533b42384430,
0x3b3b3b3b3b4e3b3b3b3b3b4c3b303b6f4c3b414e4e415955552052455454454c20414c41484e49533b43384430,
0x3b3b3b3b3b4e3b3b3b3b3b4c3b303b6f4c3b414e4e41595552492052455454454c20414c41484e49533b44384430,
0x3b3b3b3b3b4e3b3b3b3b3b4c3b303b6f4c3b414e4e4159555552492052455454454c20414c41484e49533b45384430,
0x3b3b3b3b3b4e3b3b3b3b3b4c3b303b6f4c3b414e4e4159554c492052455454454c20414c41484e49533b46384430,
0x3b3b3b3b3b4e3b3b3b3b3b4c3b303b6f4c3b414e4e415955554c492052455454454c20414c41484e49533b30394430,
0x3b3b3b3b3b4e3b3b3b3b3b4c3b303b6f4c3b414e4e4159452052455454454c20414c41484e49533b31394430,
0x3b3b3b3b3b4e3b3b3b3b3b4c3b303b6f4c3b414e4e415945452052455454454c20414c41484e49533b32394430,
0x3b3b3b3b3b4e3b3b3b3b3b4c3b303b6f4c3b414e4e415949412052455454454c20414c41484e49533b33394430,
0x3b3b3b3b3b4e3b3b3b3b3b4c3b303b6f4c3b414e4e41594f2052455454454c20414c41484e49533b34394430,
0x3b3b3b3b3b4e3b3b3b3b3b4c3b303b6f4c3b414e4e41594f4f2052455454454c20414c41484e49533b35394430,
0x3b3b3b3b3b4e3b3b3b3b3b4c3b303b6f4c3b414e4e415955412052455454454c20414c41484e49533b36394430,
0x3b3b3b3b3b4e3b3b3b3b3b4c3b303b6f4c3b414e4e4159414b20414e4141525041504c412052455454454c20414c41484e49533b41394430,
0x3b3b3b3b3b4e3b3b3b3b3b4c3b303b6f4c3b414e4e4159414b20414e41415250414148414d2052455454454c20414c41484e49533b42394430,
0x3b3b3b3b3b4e3b3b3b3b3b4c3b303b6f4c3b414e4e4159414720414e4141525041504c412052455454454c20414c41484e49533b43394430,
0x3b3b3b3b3b4e3b3b3b3b3b4c3b303b6f4c3b414e4e4159414720414e41415250414148414d2052455454454c20414c41484e49533b44394430,
0x3b3b3b3b3b4e3b3b3b3b3b4c3b303b6f4c3b415941594b495341414e20414a41544e414b2052455454454c20414c41484e49533b45394430,
0x3b3b3b3b3b4e3b3b3b3b3b4c3b303b6f4c3b414e4e4159414720414b41594e41532052455454454c20414c41484e49533b46394430,
0x3b3b3b3b3b4e3b3b3b3b3b4c3b303b6f4c3b414e4e4159414320414e4141525041504c412052455454454c20414c41484e49533b30414430,
0x3b3b3b3b3b4e3b3b3b3b3b4c3b303b6f4c3b414e4e4159414320414e41415250414148414d2052455454454c20414c41484e49533b31414430,
0x3b3b3b3b3b4e3b3b3b3b3b4c3b303b6f4c3b414e4e4159414a20414e4141525041504c412052455454454c20414c41484e49533b32414430,
0x3b3b3b3b3b4e3b3b3b3b3b4c3b303b6f4c3b414e4e4159414a20414e41415250414148414d2052455454454c20414c41484e49533b33414430,
0x3b3b3b3b3b4e3b3b3b3b3b4c3b303b6f4c3b415941594b495341414e20414a554c4141542052455454454c20414c41484e49533b34414430,
0x3b3b3b3b3b4e3b3b3b3b3b4c3b303b6f4c3b415941594b49534b41414e2041474f4f594e415320414a554c4141542052455454454c20414c41484e49533b35414430,
0x3b3b3b3b3b4e3b3b3b3b3b4c3b303b6f4c3b414e4e4159414a20414b41594e41532052455454454c20414c41484e49533b36414430,
0x3b3b3b3b3b4e3b3b3b3b3b4c3b303b6f4c3b414e4e415941545420414e4141525041504c412052455454454c20414c41484e49533b37414430,
0x3b3b3b3b3b4e3b3b3b3b3b4c3b303b6f4c3b414e4e415941545420414e41415250414148414d2052455454454c20414c41484e49533b38414430,
0x3b3b3b3b3b4e3b3b3b3b3b4c3b303b6f4c3b414e4e415941444420414e4141525041504c412052455454454c20414c41484e49533b39414430,
0x3b3b3b3b3b4e3b3b3b3b3b4c3b303b6f4c3b414e4e415941444420414e41415250414148414d2052455454454c20414c41484e49533b41414430,
0x3b3b3b3b3b4e3b3b3b3b3b4c3b303b6f4c3b414e4e4159414e20414a4148445255554d2052455454454c20414c41484e49533b42414430,
0x3b3b3b3b3b4e3b3b3b3b3b4c3b303b6f4c3b414e4e415941444420414b41594e41532052455454454c20414c41484e49533b43414430,
0x3b3b3b3b3b4e3b3b3b3b3b4c3b303b6f4c3b414e4e4159415420414e4141525041504c412052455454454c20414c41484e49533b44414430,
0x3b3b3b3b3b4e3b3b3b3b3b4c3b303b6f4c3b414e4e4159415420414e41415250414148414d2052455454454c20414c41484e49533b45414430,
0x3b3b3b3b3b4e3b3b3b3b3b4c3b303b6f4c3b414e4e4159414420414e4141525041504c412052455454454c20414c41484e49533b46414430,
0x3b3b3b3b3b4e3b3b3b3b3b4c3b303b6f4c3b414e4e4159414420414e41415250414148414d2052455454454c20414c41484e49533b30424430,
0x3b3b3b3b3b4e3b3b3b3b3b4c3b303b6f4c3b414e4e4159414e20414a41544e41442052455454454c20414c41484e49533b31424430,
0x3b3b3b3b3b4e3b3b3b3b3b4c3b303b6f4c3b414e4e4159414420414b41594e41532052455454454c20414c41484e49533b33424430,
0x3b3b3b3b3b4e3b3b3b3b3b4c3b303b6f4c3b414e4e4159415020414e4141525041504c412052455454454c20414c41484e49533b34424430,
0x3b3b3b3b3b4e3b3b3b3b3b4c3b303b6f4c3b414e4e4159415020414e41415250414148414d2052455454454c20414c41484e49533b35424430,
0x3b3b3b3b3b4e3b3b3b3b3b4c3b303b6f4c3b414e4e4159414220414e4141525041504c412052455454454c20414c41484e49533b36424430,
0x3b3b3b3b3b4e3b3b3b3b3b4c3b303b6f4c3b414e4e4159414220414e41415250414148414d2052455454454c20414c41484e49533b37424430,
0x3b3b3b3b3b4e3b3b3b3b3b4c3b303b6f4c3b414e4e4159414d2052455454454c20414c41484e49533b38424430,
0x3b3b3b3b3b4e3b3b3b3b3b4c3b303b6f4c3b414e4e415941422041424d412052455454454c20414c41484e49533b39424430,
0x3b3b3b3b3b4e3b3b3b3b3b4c3b303b6f4c3b414e4e415941592052455454454c20414c41484e49533b41424430,
0x3b3b3b3b3b4e3b3b3b3b3b4c3b303b6f4c3b414e4e415941522052455454454c20414c41484e49533b42424430,
0x3b3b3b3b3b4e3b3b3b3b3b4c3b303b6f4c3b414e4e4159414c20414a41544e41442052455454454c20414c41484e49533b44424430,
0x3b3b3b3b3b4e3b3b3b3b3b4c3b303b6f4c3b414e4e415941562052455454454c20414c41484e49533b30434430,
0x3b3b3b3b3b4e3b3b3b3b3b4c3b303b6f4c3b414e4e4159415320414a554c4141542052455454454c20414c41484e49533b31434430,
0x3b3b3b3b3b4e3b3b3b3b3b4c3b303b6f4c3b414e4e4159415320414a4148445255554d2052455454454c20414c41484e49533b32434430,
0x3b3b3b3b3b4e3b3b3b3b3b4c3b303b6f4c3b414e4e4159415320414a41544e41442052455454454c20414c41484e49533b33434430,
0x3b3b3b3b3b4e3b3b3b3b3b4c3b303b6f4c3b414e4e415941482052455454454c20414c41484e49533b34434430,
0x3b3b3b3b3b4e3b3b3b3b3b4c3b303b6f4c3b414e4e4159414c20414a4148445255554d2052455454454c20414c41484e49533b35434430,
0x3b3b3b3b3b4e3b3b3b3b3b4c3b303b6f4c3b414e4e415941462052455454454c20414c41484e49533b36434430,
0x3b3b3b3b3b4e3b3b3b3b3b4d534e3b393b6e4d3b414e554b414c2d4c41204e47495320414c41484e49533b41434430,
0x3b3b3b3b3b4e3b3b3b3b3b4c3b303b634d3b414c4c49502d414c4541204e474953204c45574f5620414c41484e49533b46434430,
0x3b3b3b3b3b4e3b3b3b3b3b4c3b303b634d3b414c4c49502d4144454120495454454b204e474953204c45574f5620414c41484e49533b30444430,
0x3b3b3b3b3b4e3b3b3b3b3b4c3b303b634d3b414c4c49502d414445412041474944204e474953204c45574f5620414c41484e49533b31444430,
0x3b3b3b3b3b4e3b3b3b3b3b4d534e3b303b6e4d3b414c4c49502d534920495454454b204e474953204c45574f5620414c41484e49533b32444430,
0x3b3b3b3b3b4e3b3b3b3b3b4d534e3b303b6e4d3b414c4c49502d53492041474944204e474953204c45574f5620414c41484e49533b33444430,
0x3b3b3b3b3b4e3b3b3b3b3b4d534e3b303b6e4d3b414c4c49502d41415020495454454b204e474953204c45574f5620414c41484e49533b34444430,
0x3b3b3b3b3b4e3b3b3b3b3b4d534e3b303b6e4d3b414c4c49502d4141502041474944204e474953204c45574f5620414c41484e49533b36444430,
0x3b3b3b3b3b4e3b3b3b3b3b4c3b303b634d3b414c4c49502d415454454147204e474953204c45574f5620414c41484e49533b38444430,
0x3b3b3b3b3b4e3b3b3b3b3b4c3b303b634d3b415655424d4f4b204e474953204c45574f5620414c41484e49533b39444430,
0x3b3b3b3b3b4e3b3b3b3b4143443020394444303b4c3b303b634d3b415655424d4f4b2041474944204e474953204c45574f5620414c41484e49533b41444430,
0x3b3b3b3b3b4e3b3b3b3b3b4c3b303b634d3b414b45442055424d4f4b204e474953204c45574f5620414c41484e49533b42444430,
0x3b3b3b3b3b4e3b3b3b3b4643443020394444303b4c3b303b634d3b414c4c49502d414c45412041414820415655424d4f4b204e474953204c45574f5620414c41484e49533b43444430,
0x3b3b3b3b3b4e3b3b3b3b4143443020434444303b4c3b303b634d3b414c4c49502d414c454120414749442041414820415655424d4f4b204e474953204c45574f5620414c41484e49533b44444430,
0x3b3b3b3b3b4e3b3b3b3b4644443020394444303b4c3b303b634d3b415454494b554e415941472041414820415655424d4f4b204e474953204c45574f5620414c41484e49533b45444430,
0x3b3b3b3b3b4e3b3b3b3b3b4c3b303b634d3b415454494b554e41594147204e474953204c45574f5620414c41484e49533b46444430,
0x3b3b3b3b3b4e3b303b303b303b3b4c3b303b644e3b4f52455a205449474944204854494c20414c41484e49533b36454430,
0x3b3b3b3b3b4e3b313b313b313b3b4c3b303b644e3b454e4f205449474944204854494c20414c41484e49533b37454430,
0x3b3b3b3b3b4e3b323b323b323b3b4c3b303b644e3b4f5754205449474944204854494c20414c41484e49533b38454430]

/-- src/u5e/props/UnicodeData.txt lines 3073-3328. -/
def rawUcd12 : List Nat := [
0x3b3b3b3b3b4e3b333b333b333b3b4c3b303b644e3b4545524854205449474944204854494c20414c41484e49533b39454430,
0x3b3b3b3b3b4e3b343b343b343b3b4c3b303b644e3b52554f46205449474944204854494c20414c41484e49533b41454430,
0x3b3b3b3b3b4e3b353b353b353b3b4c3b303b644e3b45564946205449474944204854494c20414c41484e49533b42454430,
0x3b3b3b3b3b4e3b363b363b363b3b4c3b303b644e3b584953205449474944204854494c20414c41484e49533b43454430,
0x3b3b3b3b3b4e3b373b373b373b3b4c3b303b644e3b4e45564553205449474944204854494c20414c41484e49533b44454430,
0x3b3b3b3b3b4e3b383b383b383b3b4c3b303b644e3b5448474945205449474944204854494c20414c41484e49533b45454430,
0x3b3b3b3b3b4e3b393b393b393b3b4c3b303b644e3b454e494e205449474944204854494c20414c41484e49533b46454430,
0x3b3b3b3b3b4e3b3b3b3b3b4c3b303b634d3b414c4c49502d4154544541472041474944204e474953204c45574f5620414c41484e49533b32464430,
0x3b3b3b3b3b4e3b3b3b3b3b4c3b303b634d3b415454494b554e415941472041474944204e474953204c45574f5620414c41484e49533b33464430,
0x3b3b3b3b3b4e3b3b3b3b3b4c3b303b6f503b4159494c4144444e554b204e4f4954415554434e555020414c41484e49533b34464430,
0x3b3b3b3b49414b204f4b2052455454454c20494148543b4e3b3b3b3b3b4c3b303b6f4c3b49414b204f4b2052455443415241484320494148543b31304530,
0x3b3b3b3b4941484b204f484b2052455454454c20494148543b4e3b3b3b3b3b4c3b303b6f4c3b4941484b204f484b2052455443415241484320494148543b32304530,
0x3b3b3b3b544155484b204f484b2052455454454c20494148543b4e3b3b3b3b3b4c3b303b6f4c3b544155484b204f484b2052455443415241484320494148543b33304530,
0x3b3b3b3b494157484b204f484b2052455454454c20494148543b4e3b3b3b3b3b4c3b303b6f4c3b494157484b204f484b2052455443415241484320494148543b34304530,
0x3b3b3b3b4e4f484b204f484b2052455454454c20494148543b4e3b3b3b3b3b4c3b303b6f4c3b4e4f484b204f484b2052455443415241484320494148543b35304530,
0x3b3b3b3b474e41484b4152204f484b2052455454454c20494148543b4e3b3b3b3b3b4c3b303b6f4c3b474e41484b4152204f484b2052455443415241484320494148543b36304530,
0x3b3b3b3b55474e204f474e2052455454454c20494148543b4e3b3b3b3b3b4c3b303b6f4c3b55474e204f474e2052455443415241484320494148543b37304530,
0x3b3b3b3b4e414843204f48432052455454454c20494148543b4e3b3b3b3b3b4c3b303b6f4c3b4e414843204f48432052455443415241484320494148543b38304530,
0x3b3b3b3b474e494843204f48432052455454454c20494148543b4e3b3b3b3b3b4c3b303b6f4c3b474e494843204f48432052455443415241484320494148543b39304530,
0x3b3b3b3b474e414843204f48432052455454454c20494148543b4e3b3b3b3b3b4c3b303b6f4c3b474e414843204f48432052455443415241484320494148543b41304530,
0x3b3b3b3b4f53204f532052455454454c20494148543b4e3b3b3b3b3b4c3b303b6f4c3b4f53204f532052455443415241484320494148543b42304530,
0x3b3b3b3b454f4843204f48432052455454454c20494148543b4e3b3b3b3b3b4c3b303b6f4c3b454f4843204f48432052455443415241484320494148543b43304530,
0x3b3b3b3b474e4959204f592052455454454c20494148543b4e3b3b3b3b3b4c3b303b6f4c3b474e4959204f592052455443415241484320494148543b44304530,
0x3b3b3b3b4144414843204f442052455454454c20494148543b4e3b3b3b3b3b4c3b303b6f4c3b4144414843204f442052455443415241484320494148543b45304530,
0x3b3b3b3b4b41544150204f542052455454454c20494148543b4e3b3b3b3b3b4c3b303b6f4c3b4b41544150204f542052455443415241484320494148543b46304530,
0x3b3b3b3b4e414854204f48542052455454454c20494148543b4e3b3b3b3b3b4c3b303b6f4c3b4e414854204f48542052455443415241484320494148543b30314530,
0x3b3b3b3b4f48544e4f4d474e414e204f48542052455454454c20494148543b4e3b3b3b3b3b4c3b303b6f4c3b4f48544e4f4d474e414e204f48542052455443415241484320494148543b31314530,
0x3b3b3b3b4f414854554850204f48542052455454454c20494148543b4e3b3b3b3b3b4c3b303b6f4c3b4f414854554850204f48542052455443415241484320494148543b32314530,
0x3b3b3b3b4e454e204f4e2052455454454c20494148543b4e3b3b3b3b3b4c3b303b6f4c3b4e454e204f4e2052455443415241484320494148543b33314530,
0x3b3b3b3b4b4544204f442052455454454c20494148543b4e3b3b3b3b3b4c3b303b6f4c3b4b4544204f442052455443415241484320494148543b34314530,
0x3b3b3b3b4f4154204f542052455454454c20494148543b4e3b3b3b3b3b4c3b303b6f4c3b4f4154204f542052455443415241484320494148543b35314530,
0x3b3b3b3b474e554854204f48542052455454454c20494148543b4e3b3b3b3b3b4c3b303b6f4c3b474e554854204f48542052455443415241484320494148543b36314530,
0x3b3b3b3b4e4148414854204f48542052455454454c20494148543b4e3b3b3b3b3b4c3b303b6f4c3b4e4148414854204f48542052455443415241484320494148543b37314530,
0x3b3b3b3b474e4f4854204f48542052455454454c20494148543b4e3b3b3b3b3b4c3b303b6f4c3b474e4f4854204f48542052455443415241484320494148543b38314530,
0x3b3b3b3b554e204f4e2052455454454c20494148543b4e3b3b3b3b3b4c3b303b6f4c3b554e204f4e2052455443415241484320494148543b39314530,
0x3b3b3b3b49414d494142204f422052455454454c20494148543b4e3b3b3b3b3b4c3b303b6f4c3b49414d494142204f422052455443415241484320494148543b41314530,
0x3b3b3b3b414c50204f502052455454454c20494148543b4e3b3b3b3b3b4c3b303b6f4c3b414c50204f502052455443415241484320494148543b42314530,
0x3b3b3b3b474e554850204f48502052455454454c20494148543b4e3b3b3b3b3b4c3b303b6f4c3b474e554850204f48502052455443415241484320494148543b43314530,
0x3b3b3b3b4146204f462052455454454c20494148543b4e3b3b3b3b3b4c3b303b6f4c3b4146204f462052455443415241484320494148543b44314530,
0x3b3b3b3b4e414850204f48502052455454454c20494148543b4e3b3b3b3b3b4c3b303b6f4c3b4e414850204f48502052455443415241484320494148543b45314530,
0x3b3b3b3b4e4146204f462052455454454c20494148543b4e3b3b3b3b3b4c3b303b6f4c3b4e4146204f462052455443415241484320494148543b46314530,
0x3b3b3b3b4f4148504d4153204f48502052455454454c20494148543b4e3b3b3b3b3b4c3b303b6f4c3b4f4148504d4153204f48502052455443415241484320494148543b30324530,
0x3b3b3b3b414d204f4d2052455454454c20494148543b4e3b3b3b3b3b4c3b303b6f4c3b414d204f4d2052455443415241484320494148543b31324530,
0x3b3b3b3b4b4159204f592052455454454c20494148543b4e3b3b3b3b3b4c3b303b6f4c3b4b4159204f592052455443415241484320494148543b32324530,
0x3b3b3b3b415552204f522052455454454c20494148543b4e3b3b3b3b3b4c3b303b6f4c3b415552204f522052455443415241484320494148543b33324530,
0x3b3b3b3b55522052455454454c20494148543b4e3b3b3b3b3b4c3b303b6f4c3b55522052455443415241484320494148543b34324530,
0x3b3b3b3b474e494c204f4c2052455454454c20494148543b4e3b3b3b3b3b4c3b303b6f4c3b474e494c204f4c2052455443415241484320494148543b35324530,
0x3b3b3b3b554c2052455454454c20494148543b4e3b3b3b3b3b4c3b303b6f4c3b554c2052455443415241484320494148543b36324530,
0x3b3b3b3b4e454157204f572052455454454c20494148543b4e3b3b3b3b3b4c3b303b6f4c3b4e454157204f572052455443415241484320494148543b37324530,
0x3b3b3b3b414c4153204f532052455454454c20494148543b4e3b3b3b3b3b4c3b303b6f4c3b414c4153204f532052455443415241484320494148543b38324530,
0x3b3b3b3b49535552204f532052455454454c20494148543b4e3b3b3b3b3b4c3b303b6f4c3b49535552204f532052455443415241484320494148543b39324530,
0x3b3b3b3b415553204f532052455454454c20494148543b4e3b3b3b3b3b4c3b303b6f4c3b415553204f532052455443415241484320494148543b41324530,
0x3b3b3b3b504948204f482052455454454c20494148543b4e3b3b3b3b3b4c3b303b6f4c3b504948204f482052455443415241484320494148543b42324530,
0x3b3b3b3b414c554843204f4c2052455454454c20494148543b4e3b3b3b3b3b4c3b303b6f4c3b414c554843204f4c2052455443415241484320494148543b43324530,
0x3b3b3b3b474e41204f2052455454454c20494148543b4e3b3b3b3b3b4c3b303b6f4c3b474e41204f2052455443415241484320494148543b44324530,
0x3b3b3b3b4b5548204b4f4e204f482052455454454c20494148543b4e3b3b3b3b3b4c3b303b6f4c3b4b55484b4f4e204f482052455443415241484320494148543b45324530,
0x3b3b3b3b494f4e204e41592049415020494148543b4e3b3b3b3b3b4c3b303b6f4c3b494f4e4e41594941502052455443415241484320494148543b46324530,
0x3b3b3b3b412041524153204e474953204c45574f5620494148543b4e3b3b3b3b3b4c3b303b6f4c3b4120415241532052455443415241484320494148543b30334530,
0x3b3b3b3b54414b412d4e41482049414d204e474953204c45574f5620494148543b4e3b3b3b3b3b4d534e3b303b6e4d3b54414b412d4e41482049414d2052455443415241484320494148543b31334530,
0x3b3b3b3b41412041524153204e474953204c45574f5620494148543b4e3b3b3b3b3b4c3b303b6f4c3b414120415241532052455443415241484320494148543b32334530,
0x3b3b3b3b4d412041524153204e474953204c45574f5620494148543b4e3b3b3b3b323345302044344530203e7461706d6f633c3b4c3b303b6f4c3b4d4120415241532052455443415241484320494148543b33334530,
0x3b3b3b3b492041524153204e474953204c45574f5620494148543b4e3b3b3b3b3b4d534e3b303b6e4d3b4920415241532052455443415241484320494148543b34334530,
0x3b3b3b3b49492041524153204e474953204c45574f5620494148543b4e3b3b3b3b3b4d534e3b303b6e4d3b494920415241532052455443415241484320494148543b35334530,
0x3b3b3b3b45552041524153204e474953204c45574f5620494148543b4e3b3b3b3b3b4d534e3b303b6e4d3b455520415241532052455443415241484320494148543b36334530,
0x3b3b3b3b4545552041524153204e474953204c45574f5620494148543b4e3b3b3b3b3b4d534e3b303b6e4d3b45455520415241532052455443415241484320494148543b37334530,
0x3b3b3b3b552041524153204e474953204c45574f5620494148543b4e3b3b3b3b3b4d534e3b3330313b6e4d3b5520415241532052455443415241484320494148543b38334530,
0x3b3b3b3b55552041524153204e474953204c45574f5620494148543b4e3b3b3b3b3b4d534e3b3330313b6e4d3b555520415241532052455443415241484320494148543b39334530,
0x3b3b3b3b5548544e494850204e474953204c45574f5620494148543b4e3b3b3b3b3b4d534e3b393b6e4d3b5548544e4948502052455443415241484320494148543b41334530,
0x3b3b3b3b4e474953205448414220494148543b4e3b3b3b3b3b54453b303b63533b54484142204c4f424d59532059434e455252554320494148543b46334530,
0x3b3b3b3b452041524153204e474953204c45574f5620494148543b4e3b3b3b3b3b4c3b303b6f4c3b4520415241532052455443415241484320494148543b30344530,
0x3b3b3b3b45412041524153204e474953204c45574f5620494148543b4e3b3b3b3b3b4c3b303b6f4c3b454120415241532052455443415241484320494148543b31344530,
0x3b3b3b3b4f2041524153204e474953204c45574f5620494148543b4e3b3b3b3b3b4c3b303b6f4c3b4f20415241532052455443415241484320494148543b32344530,
0x3b3b3b3b4e41554d2049414d2041524153204e474953204c45574f5620494148543b4e3b3b3b3b3b4c3b303b6f4c3b4e41554d49414d20494120415241532052455443415241484320494148543b33344530,
0x3b3b3b3b49414c414d2049414d2041524153204e474953204c45574f5620494148543b4e3b3b3b3b3b4c3b303b6f4c3b49414c414d49414d20494120415241532052455443415241484320494148543b34344530,
0x3b3b3b3b4f415920474e41484b204b414c20494148543b4e3b3b3b3b3b4c3b303b6f4c3b4f4159474e41484b4b414c2052455443415241484320494148543b35344530,
0x3b3b3b3b4b4f4d41592049414d20494148543b4e3b3b3b3b3b4c3b303b6d4c3b4b4f4d415949414d2052455443415241484320494148543b36344530,
0x3b3b3b3b55484b204941542049414d204e474953204c45574f5620494148543b4e3b3b3b3b3b4d534e3b303b6e4d3b55484b49415449414d2052455443415241484320494148543b37344530,
0x3b3b3b3b4b452049414d20454e4f5420494148543b4e3b3b3b3b3b4d534e3b3730313b6e4d3b4b452049414d2052455443415241484320494148543b38344530,
0x3b3b3b3b4f48542049414d20454e4f5420494148543b4e3b3b3b3b3b4d534e3b3730313b6e4d3b4f48542049414d2052455443415241484320494148543b39344530,
0x3b3b3b3b4952542049414d20454e4f5420494148543b4e3b3b3b3b3b4d534e3b3730313b6e4d3b4952542049414d2052455443415241484320494148543b41344530,
0x3b3b3b3b41574154544148432049414d20454e4f5420494148543b4e3b3b3b3b3b4d534e3b3730313b6e4d3b41574154544148432049414d2052455443415241484320494148543b42344530,
0x3b3b3b3b5441484b4148544e41485420494148543b4e3b3b3b3b3b4d534e3b303b6e4d3b5441484b4148544e4148542052455443415241484320494148543b43344530,
0x3b3b3b3b54494841484b4b494e20494148543b4e3b3b3b3b3b4d534e3b303b6e4d3b54494841484b494e2052455443415241484320494148543b44344530,
0x3b3b3b3b4e414b4b414d415920494148543b4e3b3b3b3b3b4d534e3b303b6e4d3b4e414b4b414d41592052455443415241484320494148543b45344530,
0x3b3b3b3b4e414d474e4f4620494148543b4e3b3b3b3b3b4c3b303b6f503b4e414d474e4f462052455443415241484320494148543b46344530,
0x3b3b3b3b3b4e3b303b303b303b3b4c3b303b644e3b4f52455a20544947494420494148543b30354530,
0x3b3b3b3b3b4e3b313b313b313b3b4c3b303b644e3b454e4f20544947494420494148543b31354530,
0x3b3b3b3b3b4e3b323b323b323b3b4c3b303b644e3b4f575420544947494420494148543b32354530,
0x3b3b3b3b3b4e3b333b333b333b3b4c3b303b644e3b454552485420544947494420494148543b33354530,
0x3b3b3b3b3b4e3b343b343b343b3b4c3b303b644e3b52554f4620544947494420494148543b34354530,
0x3b3b3b3b3b4e3b353b353b353b3b4c3b303b644e3b4556494620544947494420494148543b35354530,
0x3b3b3b3b3b4e3b363b363b363b3b4c3b303b644e3b58495320544947494420494148543b36354530,
0x3b3b3b3b3b4e3b373b373b373b3b4c3b303b644e3b4e4556455320544947494420494148543b37354530,
0x3b3b3b3b3b4e3b383b383b383b3b4c3b303b644e3b544847494520544947494420494148543b38354530,
0x3b3b3b3b3b4e3b393b393b393b3b4c3b303b644e3b454e494e20544947494420494148543b39354530,
0x3b3b3b3b55484b4e41484b474e4120494148543b4e3b3b3b3b3b4c3b303b6f503b55484b4e41484b474e412052455443415241484320494148543b41354530,
0x3b3b3b3b54554d4f484b20494148543b4e3b3b3b3b3b4c3b303b6f503b54554d4f484b2052455443415241484320494148543b42354530,
0x3b3b3b3b3b4e3b3b3b3b3b4c3b303b6f4c3b4f4b2052455454454c204f414c3b31384530,
0x3b3b3b3b3b4e3b3b3b3b3b4c3b303b6f4c3b474e5553204f484b2052455454454c204f414c3b32384530,
0x3b3b3b3b3b4e3b3b3b3b3b4c3b303b6f4c3b4d4154204f484b2052455454454c204f414c3b34384530,
0x3b3b3b3b3b4e3b3b3b3b3b4c3b303b6f4c3b4f474e2052455454454c204f414c3b37384530,
0x3b3b3b3b3b4e3b3b3b3b3b4c3b303b6f4c3b4f432052455454454c204f414c3b38384530,
0x3b3b3b3b3b4e3b3b3b3b3b4c3b303b6f4c3b4d4154204f532052455454454c204f414c3b41384530,
0x3b3b3b3b3b4e3b3b3b3b3b4c3b303b6f4c3b4f594e2052455454454c204f414c3b44384530,
0x3b3b3b3b3b4e3b3b3b3b3b4c3b303b6f4c3b4f442052455454454c204f414c3b34394530,
0x3b3b3b3b3b4e3b3b3b3b3b4c3b303b6f4c3b4f542052455454454c204f414c3b35394530,
0x3b3b3b3b3b4e3b3b3b3b3b4c3b303b6f4c3b474e5553204f48542052455454454c204f414c3b36394530,
0x3b3b3b3b3b4e3b3b3b3b3b4c3b303b6f4c3b4d4154204f48542052455454454c204f414c3b37394530,
0x3b3b3b3b3b4e3b3b3b3b3b4c3b303b6f4c3b4f4e2052455454454c204f414c3b39394530,
0x3b3b3b3b3b4e3b3b3b3b3b4c3b303b6f4c3b4f422052455454454c204f414c3b41394530,
0x3b3b3b3b3b4e3b3b3b3b3b4c3b303b6f4c3b4f502052455454454c204f414c3b42394530,
0x3b3b3b3b3b4e3b3b3b3b3b4c3b303b6f4c3b474e5553204f48502052455454454c204f414c3b43394530,
0x3b3b3b3b3b4e3b3b3b3b3b4c3b303b6f4c3b4d4154204f462052455454454c204f414c3b44394530,
0x3b3b3b3b3b4e3b3b3b3b3b4c3b303b6f4c3b4d4154204f48502052455454454c204f414c3b45394530,
0x3b3b3b3b3b4e3b3b3b3b3b4c3b303b6f4c3b474e5553204f462052455454454c204f414c3b46394530,
0x3b3b3b3b3b4e3b3b3b3b3b4c3b303b6f4c3b4f4d2052455454454c204f414c3b31414530,
0x3b3b3b3b3b4e3b3b3b3b3b4c3b303b6f4c3b4f592052455454454c204f414c3b32414530,
0x3b3b3b3b3b4e3b3b3b3b3b4c3b303b6f4c3b474e494c204f4c2052455454454c204f414c3b33414530,
0x3b3b3b3b3b4e3b3b3b3b3b4c3b303b6f4c3b544f4f4c204f4c2052455454454c204f414c3b35414530,
0x3b3b3b3b3b4e3b3b3b3b3b4c3b303b6f4c3b4f572052455454454c204f414c3b37414530,
0x3b3b3b3b3b4e3b3b3b3b3b4c3b303b6f4c3b474e5553204f532052455454454c204f414c3b41414530,
0x3b3b3b3b3b4e3b3b3b3b3b4c3b303b6f4c3b474e5553204f482052455454454c204f414c3b42414530,
0x3b3b3b3b3b4e3b3b3b3b3b4c3b303b6f4c3b4f2052455454454c204f414c3b44414530,
0x3b3b3b3b3b4e3b3b3b3b3b4c3b303b6f4c3b4d4154204f482052455454454c204f414c3b45414530,
0x3b3b3b3b3b4e3b3b3b3b3b4c3b303b6f4c3b53495350494c4c45204f414c3b46414530,
0x3b3b3b3b3b4e3b3b3b3b3b4c3b303b6f4c3b41204e474953204c45574f56204f414c3b30424530,
0x3b3b3b3b3b4e3b3b3b3b3b4d534e3b303b6e4d3b4e414b2049414d204e474953204c45574f56204f414c3b31424530,
0x3b3b3b3b3b4e3b3b3b3b3b4c3b303b6f4c3b4141204e474953204c45574f56204f414c3b32424530,
0x3b3b3b3b3b4e3b3b3b3b324245302044434530203e7461706d6f633c3b4c3b303b6f4c3b4d41204e474953204c45574f56204f414c3b33424530,
0x3b3b3b3b3b4e3b3b3b3b3b4d534e3b303b6e4d3b49204e474953204c45574f56204f414c3b34424530,
0x3b3b3b3b3b4e3b3b3b3b3b4d534e3b303b6e4d3b4949204e474953204c45574f56204f414c3b35424530,
0x3b3b3b3b3b4e3b3b3b3b3b4d534e3b303b6e4d3b59204e474953204c45574f56204f414c3b36424530,
0x3b3b3b3b3b4e3b3b3b3b3b4d534e3b303b6e4d3b5959204e474953204c45574f56204f414c3b37424530,
0x3b3b3b3b3b4e3b3b3b3b3b4d534e3b3831313b6e4d3b55204e474953204c45574f56204f414c3b38424530,
0x3b3b3b3b3b4e3b3b3b3b3b4d534e3b3831313b6e4d3b5555204e474953204c45574f56204f414c3b39424530,
0x3b3b3b3b3b4e3b3b3b3b3b4d534e3b303b6e4d3b4e4f4b2049414d204e474953204c45574f56204f414c3b42424530,
0x3b3b3b3b3b4e3b3b3b3b3b4d534e3b303b6e4d3b4f4c204e474953204c45574f56494d4553204f414c3b43424530,
0x3b3b3b3b3b4e3b3b3b3b3b4c3b303b6f4c3b4f594e204e474953204c45574f56494d4553204f414c3b44424530,
0x3b3b3b3b3b4e3b3b3b3b3b4c3b303b6f4c3b45204e474953204c45574f56204f414c3b30434530,
0x3b3b3b3b3b4e3b3b3b3b3b4c3b303b6f4c3b4945204e474953204c45574f56204f414c3b31434530,
0x3b3b3b3b3b4e3b3b3b3b3b4c3b303b6f4c3b4f204e474953204c45574f56204f414c3b32434530,
0x3b3b3b3b3b4e3b3b3b3b3b4c3b303b6f4c3b5941204e474953204c45574f56204f414c3b33434530,
0x3b3b3b3b3b4e3b3b3b3b3b4c3b303b6f4c3b4941204e474953204c45574f56204f414c3b34434530,
0x3b3b3b3b3b4e3b3b3b3b3b4c3b303b6d4c3b414c204f4b204f414c3b36434530,
0x3b3b3b3b3b4e3b3b3b3b3b4d534e3b3232313b6e4d3b4b452049414d20454e4f54204f414c3b38434530,
0x3b3b3b3b3b4e3b3b3b3b3b4d534e3b3232313b6e4d3b4f48542049414d20454e4f54204f414c3b39434530,
0x3b3b3b3b3b4e3b3b3b3b3b4d534e3b3232313b6e4d3b49542049414d20454e4f54204f414c3b41434530,
0x3b3b3b3b3b4e3b3b3b3b3b4d534e3b3232313b6e4d3b4157415441432049414d20454e4f54204f414c3b42434530,
0x3b3b3b3b3b4e3b3b3b3b3b4d534e3b303b6e4d3b4b52414d204e4f4954414c4c45434e4143204f414c3b43434530,
0x3b3b3b3b3b4e3b3b3b3b3b4d534e3b303b6e4d3b41544948414747494e204f414c3b44434530,
0x3b3b3b3b3b4e3b303b303b303b3b4c3b303b644e3b4f52455a205449474944204f414c3b30444530,
0x3b3b3b3b3b4e3b313b313b313b3b4c3b303b644e3b454e4f205449474944204f414c3b31444530,
0x3b3b3b3b3b4e3b323b323b323b3b4c3b303b644e3b4f5754205449474944204f414c3b32444530,
0x3b3b3b3b3b4e3b333b333b333b3b4c3b303b644e3b4545524854205449474944204f414c3b33444530,
0x3b3b3b3b3b4e3b343b343b343b3b4c3b303b644e3b52554f46205449474944204f414c3b34444530,
0x3b3b3b3b3b4e3b353b353b353b3b4c3b303b644e3b45564946205449474944204f414c3b35444530,
0x3b3b3b3b3b4e3b363b363b363b3b4c3b303b644e3b584953205449474944204f414c3b36444530,
0x3b3b3b3b3b4e3b373b373b373b3b4c3b303b644e3b4e45564553205449474944204f414c3b37444530,
0x3b3b3b3b3b4e3b383b383b383b3b4c3b303b644e3b5448474945205449474944204f414c3b38444530,
0x3b3b3b3b3b4e3b393b393b393b3b4c3b303b644e3b454e494e205449474944204f414c3b39444530,
0x3b3b3b3b3b4e3b3b3b3b393945302042414530203e7461706d6f633c3b4c3b303b6f4c3b4f4e204f48204f414c3b43444530,
0x3b3b3b3b3b4e3b3b3b3b314145302042414530203e7461706d6f633c3b4c3b303b6f4c3b4f4d204f48204f414c3b44444530,
0x3b3b3b3b3b4e3b3b3b3b3b4c3b303b6f4c3b4f4720554d484b2052455454454c204f414c3b45444530,
0x3b3b3b3b3b4e3b3b3b3b3b4c3b303b6f4c3b4f594e20554d484b2052455454454c204f414c3b46444530,
0x3b3b3b3b3b4e3b3b3b3b3b4c3b303b6f4c3b4d4f20454c42414c4c5953204e4154454249543b30304630,
0x3b3b3b3b3b4e3b3b3b3b3b4c3b303b6f533b412044455441434e555254204f474d204749592052455447204b52414d204e4154454249543b31304630,
0x3b3b3b3b3b4e3b3b3b3b3b4c3b303b6f533b414d2044414342204d414e52204d552d204f474d204749592052455447204b52414d204e4154454249543b32304630,
0x3b3b3b3b3b4e3b3b3b3b3b4c3b303b6f533b414d2047454853542052455447204d552d204f474d204749592052455447204b52414d204e4154454249543b33304630,
0x3b3b3b3b544e454d414e524f20454c474e4953204e4154454249543b4e3b3b3b3b3b4c3b303b6f503b414d204e55444d204f474d20474959204c414954494e49204b52414d204e4154454249543b34304630,
0x3b3b3b3b3b4e3b3b3b3b3b4c3b303b6f503b414d2042414753204f474d2047495920474e49534f4c43204b52414d204e4154454249543b35304630,
0x3b3b3b3b3b4e3b3b3b3b3b4c3b303b6f503b414d20444148532052554850204f474d20474959205445524143204b52414d204e4154454249543b36304630,
0x3b3b3b3b3b4e3b3b3b3b3b4c3b303b6f503b414d2044414853204745485354204f474d20474959204b52414d204e4154454249543b37304630,
0x3b3b3b3b444148534e41594752204e4154454249543b4e3b3b3b3b3b4c3b303b6f503b44414853204c55524253204b52414d204e4154454249543b38304630,
0x3b3b3b3b3b4e3b3b3b3b3b4c3b303b6f503b4f474d204749592052554b5342204b52414d204e4154454249543b39304630,
0x3b3b3b3b3b4e3b3b3b3b3b4c3b303b6f503b4f474d2047495920474f4853202d414b42204b52414d204e4154454249543b41304630,
0x3b3b3b3b47455354204e4154454249543b4e3b3b3b3b3b4c3b303b6f503b474548535420434942414c4c59535245544e49204b52414d204e4154454249543b42304630,
0x3b3b3b3b3b4e3b3b3b3b42304630203e6b616572426f6e3c3b4c3b303b6f503b524154534220474548535420524554494d494c4544204b52414d204e4154454249543b43304630,
0x3b3b3b3b44414853204e4154454249543b4e3b3b3b3b3b4c3b303b6f503b44414853204b52414d204e4154454249543b44304630,
0x3b3b3b3b4441485320454c42554f44204e4154454249543b4e3b3b3b3b3b4c3b303b6f503b44414853205349594e204b52414d204e4154454249543b45304630,
0x3b3b3b3b3b4e3b3b3b3b3b4c3b303b6f503b44414853204745485354204b52414d204e4154454249543b46304630,
0x3b3b3b3b3b4e3b3b3b3b3b4c3b303b6f503b44414853204745485354205349594e204b52414d204e4154454249543b30314630,
0x3b3b3b3b44414853474e5548504e4148434e4952204e4154454249543b4e3b3b3b3b3b4c3b303b6f503b444148532053474e555053204e454843204e4952204b52414d204e4154454249543b31314630,
0x3b3b3b3b3b4e3b3b3b3b3b4c3b303b6f503b44414853204d4152472041594752204b52414d204e4154454249543b32314630,
0x3b3b3b3b3b4e3b3b3b3b3b4c3b303b6f533b4e414320474e4f4c20454d2053474154522044555a442d205445524143204b52414d204e4154454249543b33314630,
0x3b3b3b3b414d4d4f43204e4154454249543b4e3b3b3b3b3b4c3b303b6f503b47454853542052455447204b52414d204e4154454249543b34314630,
0x3b3b3b3b3b4e3b3b3b3b3b4c3b303b6f533b53474154522044414843204e47495320455059544f474f4c204e4154454249543b35314630,
0x3b3b3b3b3b4e3b3b3b3b3b4c3b303b6f533b5347415452204741484c204e47495320455059544f474f4c204e4154454249543b36314630,
0x3b3b3b3b3b4e3b3b3b3b3b4c3b303b6f533b534741545220524148432d204e4143472041524753204e474953204c414349474f4c4f52545341204e4154454249543b37314630,
0x3b3b3b3b3b4e3b3b3b3b3b4d534e3b3032323b6e4d3b415020445559484b2d204e474953204c414349474f4c4f52545341204e4154454249543b38314630,
0x3b3b3b3b3b4e3b3b3b3b3b4d534e3b3032323b6e4d3b53475548535420474e4f4453204e474953204c414349474f4c4f52545341204e4154454249543b39314630,
0x3b3b3b3b3b4e3b3b3b3b3b4c3b303b6f533b474943472052414b44204c454452204e474953204e4154454249543b41314630,
0x3b3b3b3b3b4e3b3b3b3b3b4c3b303b6f533b5349594e472052414b44204c454452204e474953204e4154454249543b42314630,
0x3b3b3b3b3b4e3b3b3b3b3b4c3b303b6f533b4d5553472052414b44204c454452204e474953204e4154454249543b43314630,
0x3b3b3b3b3b4e3b3b3b3b3b4c3b303b6f533b474943472047414e204c454452204e474953204e4154454249543b44314630,
0x3b3b3b3b3b4e3b3b3b3b3b4c3b303b6f533b5349594e472047414e204c454452204e474953204e4154454249543b45314630,
0x3b3b3b3b3b4e3b3b3b3b3b4c3b303b6f533b47414e204c4544522052414b44204c454452204e474953204e4154454249543b46314630,
0x3b3b3b3b3b4e3b303b303b303b3b4c3b303b644e3b4f52455a205449474944204e4154454249543b30324630,
0x3b3b3b3b3b4e3b313b313b313b3b4c3b303b644e3b454e4f205449474944204e4154454249543b31324630,
0x3b3b3b3b3b4e3b323b323b323b3b4c3b303b644e3b4f5754205449474944204e4154454249543b32324630,
0x3b3b3b3b3b4e3b333b333b333b3b4c3b303b644e3b4545524854205449474944204e4154454249543b33324630,
0x3b3b3b3b3b4e3b343b343b343b3b4c3b303b644e3b52554f46205449474944204e4154454249543b34324630,
0x3b3b3b3b3b4e3b353b353b353b3b4c3b303b644e3b45564946205449474944204e4154454249543b35324630,
0x3b3b3b3b3b4e3b363b363b363b3b4c3b303b644e3b584953205449474944204e4154454249543b36324630,
0x3b3b3b3b3b4e3b373b373b373b3b4c3b303b644e3b4e45564553205449474944204e4154454249543b37324630,
0x3b3b3b3b3b4e3b383b383b383b3b4c3b303b644e3b5448474945205449474944204e4154454249543b38324630,
0x3b3b3b3b3b4e3b393b393b393b3b4c3b303b644e3b454e494e205449474944204e4154454249543b39324630,
0x3b3b3b3b3b4e3b322f313b3b3b3b4c3b303b6f4e3b454e4f20464c4148205449474944204e4154454249543b41324630,
0x3b3b3b3b3b4e3b322f333b3b3b3b4c3b303b6f4e3b4f575420464c4148205449474944204e4154454249543b42324630,
0x3b3b3b3b3b4e3b322f353b3b3b3b4c3b303b6f4e3b454552485420464c4148205449474944204e4154454249543b43324630,
0x3b3b3b3b3b4e3b322f373b3b3b3b4c3b303b6f4e3b52554f4620464c4148205449474944204e4154454249543b44324630,
0x3b3b3b3b3b4e3b322f393b3b3b3b4c3b303b6f4e3b4556494620464c4148205449474944204e4154454249543b45324630,
0x3b3b3b3b3b4e3b322f31313b3b3b3b4c3b303b6f4e3b58495320464c4148205449474944204e4154454249543b46324630,
0x3b3b3b3b3b4e3b322f33313b3b3b3b4c3b303b6f4e3b4e4556455320464c4148205449474944204e4154454249543b30334630,
0x3b3b3b3b3b4e3b322f35313b3b3b3b4c3b303b6f4e3b544847494520464c4148205449474944204e4154454249543b31334630,
0x3b3b3b3b3b4e3b322f37313b3b3b3b4c3b303b6f4e3b454e494e20464c4148205449474944204e4154454249543b32334630,
0x3b3b3b3b3b4e3b322f312d3b3b3b3b4c3b303b6f4e3b4f52455a20464c4148205449474944204e4154454249543b33334630,
0x3b3b3b3b3b4e3b3b3b3b3b4c3b303b6f533b5347415452205355445342204b52414d204e4154454249543b34334630,
0x3b3b3b3b474e4952205245444e552043494649524f4e4f48204e4154454249543b4e3b3b3b3b3b4d534e3b3032323b6e4d3b414c5a2049594e20474e555a42205341474e204b52414d204e4154454249543b35334630,
0x3b3b3b3b3b4e3b3b3b3b3b4c3b303b6f533b4e41432047494d2049485a422053474154522044555a442d205445524143204b52414d204e4154454249543b36334630,
0x3b3b3b3b474e4952205245444e55204e4154454249543b4e3b3b3b3b3b4d534e3b3032323b6e4d3b534741545220524f475320474e555a42205341474e204b52414d204e4154454249543b37334630,
0x3b3b3b3b3b4e3b3b3b3b3b4c3b303b6f533b4f474d20454843204b52414d204e4154454249543b38334630,
0x3b3b3b3b4b52414d204e4f4954494e454c204e4154454249543b4e3b3b3b3b3b4d534e3b3631323b6e4d3b555248502d20415354204b52414d204e4154454249543b39334630,
0x3b3b3b3b3b593b3b3b3b3b4e4f3b303b73503b4e4f594720534741545220475547204b52414d204e4154454249543b41334630,
0x3b3b3b3b3b593b3b3b3b3b4e4f3b303b65503b5341594720534741545220475547204b52414d204e4154454249543b42334630,
0x3b3b3b3b4543415242205446454c204e4154454249543b593b3b3b3b3b4e4f3b303b73503b4e4f594720474e41484b20474e41204b52414d204e4154454249543b43334630,
0x3b3b3b3b4543415242205448474952204e4154454249543b593b3b3b3b3b4e4f3b303b65503b5341594720474e41484b20474e41204b52414d204e4154454249543b44334630,
0x3b3b3b3b3b4e3b3b3b3b3b4c3b303b634d3b534548535420524159204e474953204e4154454249543b45334630,
0x3b3b3b3b3b4e3b3b3b3b3b4c3b303b634d3b53454853542052414d204e474953204e4154454249543b46334630,
0x3b3b3b3b3b4e3b3b3b3b3b4c3b303b6f4c3b414b2052455454454c204e4154454249543b30344630,
0x3b3b3b3b3b4e3b3b3b3b3b4c3b303b6f4c3b41484b2052455454454c204e4154454249543b31344630,
0x3b3b3b3b3b4e3b3b3b3b3b4c3b303b6f4c3b41472052455454454c204e4154454249543b32344630,
0x3b3b3b3b3b4e3b3b3b3b3742463020323446303b4c3b303b6f4c3b4148472052455454454c204e4154454249543b33344630,
0x3b3b3b3b3b4e3b3b3b3b3b4c3b303b6f4c3b41474e2052455454454c204e4154454249543b34344630,
0x3b3b3b3b3b4e3b3b3b3b3b4c3b303b6f4c3b41432052455454454c204e4154454249543b35344630,
0x3b3b3b3b3b4e3b3b3b3b3b4c3b303b6f4c3b4148432052455454454c204e4154454249543b36344630,
0x3b3b3b3b3b4e3b3b3b3b3b4c3b303b6f4c3b414a2052455454454c204e4154454249543b37344630,
0x3b3b3b3b3b4e3b3b3b3b3b4c3b303b6f4c3b41594e2052455454454c204e4154454249543b39344630,
0x3b3b3b3b41542044455352455645522052455454454c204e4154454249543b4e3b3b3b3b3b4c3b303b6f4c3b4154542052455454454c204e4154454249543b41344630,
0x3b3b3b3b4148542044455352455645522052455454454c204e4154454249543b4e3b3b3b3b3b4c3b303b6f4c3b414854542052455454454c204e4154454249543b42344630,
0x3b3b3b3b41442044455352455645522052455454454c204e4154454249543b4e3b3b3b3b3b4c3b303b6f4c3b4144442052455454454c204e4154454249543b43344630,
0x3b3b3b3b3b4e3b3b3b3b3742463020433446303b4c3b303b6f4c3b414844442052455454454c204e4154454249543b44344630,
0x3b3b3b3b414e2044455352455645522052455454454c204e4154454249543b4e3b3b3b3b3b4c3b303b6f4c3b414e4e2052455454454c204e4154454249543b45344630,
0x3b3b3b3b3b4e3b3b3b3b3b4c3b303b6f4c3b41542052455454454c204e4154454249543b46344630,
0x3b3b3b3b3b4e3b3b3b3b3b4c3b303b6f4c3b4148542052455454454c204e4154454249543b30354630,
0x3b3b3b3b3b4e3b3b3b3b3b4c3b303b6f4c3b41442052455454454c204e4154454249543b31354630,
0x3b3b3b3b3b4e3b3b3b3b3742463020313546303b4c3b303b6f4c3b4148442052455454454c204e4154454249543b32354630,
0x3b3b3b3b3b4e3b3b3b3b3b4c3b303b6f4c3b414e2052455454454c204e4154454249543b33354630,
0x3b3b3b3b3b4e3b3b3b3b3b4c3b303b6f4c3b41502052455454454c204e4154454249543b34354630,
0x3b3b3b3b3b4e3b3b3b3b3b4c3b303b6f4c3b4148502052455454454c204e4154454249543b35354630,
0x3b3b3b3b3b4e3b3b3b3b3b4c3b303b6f4c3b41422052455454454c204e4154454249543b36354630,
0x3b3b3b3b3b4e3b3b3b3b3742463020363546303b4c3b303b6f4c3b4148422052455454454c204e4154454249543b37354630,
0x3b3b3b3b3b4e3b3b3b3b3b4c3b303b6f4c3b414d2052455454454c204e4154454249543b38354630,
0x3b3b3b3b3b4e3b3b3b3b3b4c3b303b6f4c3b4153542052455454454c204e4154454249543b39354630,
0x3b3b3b3b3b4e3b3b3b3b3b4c3b303b6f4c3b414853542052455454454c204e4154454249543b41354630,
0x3b3b3b3b3b4e3b3b3b3b3b4c3b303b6f4c3b415a442052455454454c204e4154454249543b42354630,
0x3b3b3b3b3b4e3b3b3b3b3742463020423546303b4c3b303b6f4c3b41485a442052455454454c204e4154454249543b43354630]

/-- src/u5e/props/UnicodeData.txt lines 3329-3584. -/
def rawUcd13 : List Nat := [
0x3b3b3b3b3b4e3b3b3b3b3b4c3b303b6f4c3b41572052455454454c204e4154454249543b44354630,
0x3b3b3b3b3b4e3b3b3b3b3b4c3b303b6f4c3b41485a2052455454454c204e4154454249543b45354630,
0x3b3b3b3b3b4e3b3b3b3b3b4c3b303b6f4c3b415a2052455454454c204e4154454249543b46354630,
0x3b3b3b3b41412052455454454c204e4154454249543b4e3b3b3b3b3b4c3b303b6f4c3b412d2052455454454c204e4154454249543b30364630,
0x3b3b3b3b3b4e3b3b3b3b3b4c3b303b6f4c3b41592052455454454c204e4154454249543b31364630,
0x3b3b3b3b3b4e3b3b3b3b3b4c3b303b6f4c3b41522052455454454c204e4154454249543b32364630,
0x3b3b3b3b3b4e3b3b3b3b3b4c3b303b6f4c3b414c2052455454454c204e4154454249543b33364630,
0x3b3b3b3b3b4e3b3b3b3b3b4c3b303b6f4c3b4148532052455454454c204e4154454249543b34364630,
0x3b3b3b3b4148532044455352455645522052455454454c204e4154454249543b4e3b3b3b3b3b4c3b303b6f4c3b4153532052455454454c204e4154454249543b35364630,
0x3b3b3b3b3b4e3b3b3b3b3b4c3b303b6f4c3b41532052455454454c204e4154454249543b36364630,
0x3b3b3b3b3b4e3b3b3b3b3b4c3b303b6f4c3b41482052455454454c204e4154454249543b37364630,
0x3b3b3b3b3b4e3b3b3b3b3b4c3b303b6f4c3b412052455454454c204e4154454249543b38364630,
0x3b3b3b3b3b4e3b3b3b3b3542463020303446303b4c3b303b6f4c3b4153534b2052455454454c204e4154454249543b39364630,
0x3b3b3b3b3b4e3b3b3b3b3b4c3b303b6f4c3b4152204d524f462d44455849462052455454454c204e4154454249543b41364630,
0x3b3b3b3b3b4e3b3b3b3b3b4c3b303b6f4c3b414b4b2052455454454c204e4154454249543b42364630,
0x3b3b3b3b3b4e3b3b3b3b3b4c3b303b6f4c3b4152522052455454454c204e4154454249543b43364630,
0x3b3b3b3b3b4e3b3b3b3b3b4d534e3b3932313b6e4d3b4141204e474953204c45574f56204e4154454249543b31374630,
0x3b3b3b3b3b4e3b3b3b3b3b4d534e3b3033313b6e4d3b49204e474953204c45574f56204e4154454249543b32374630,
0x3b3b3b3b3b4e3b3b3b3b3237463020313746303b4d534e3b303b6e4d3b4949204e474953204c45574f56204e4154454249543b33374630,
0x3b3b3b3b3b4e3b3b3b3b3b4d534e3b3233313b6e4d3b55204e474953204c45574f56204e4154454249543b34374630,
0x3b3b3b3b3b4e3b3b3b3b3437463020313746303b4d534e3b303b6e4d3b5555204e474953204c45574f56204e4154454249543b35374630,
0x3b3b3b3b3b4e3b3b3b3b3038463020324246303b4d534e3b303b6e4d3b522043494c41434f56204e474953204c45574f56204e4154454249543b36374630,
0x3b3b3b3b3b4e3b3b3b3b313846302032424630203e7461706d6f633c3b4d534e3b303b6e4d3b52522043494c41434f56204e474953204c45574f56204e4154454249543b37374630,
0x3b3b3b3b3b4e3b3b3b3b3038463020334246303b4d534e3b303b6e4d3b4c2043494c41434f56204e474953204c45574f56204e4154454249543b38374630,
0x3b3b3b3b3b4e3b3b3b3b313846302033424630203e7461706d6f633c3b4d534e3b303b6e4d3b4c4c2043494c41434f56204e474953204c45574f56204e4154454249543b39374630,
0x3b3b3b3b3b4e3b3b3b3b3b4d534e3b3033313b6e4d3b45204e474953204c45574f56204e4154454249543b41374630,
0x3b3b3b3b4941204e474953204c45574f56204e4154454249543b4e3b3b3b3b3b4d534e3b3033313b6e4d3b4545204e474953204c45574f56204e4154454249543b42374630,
0x3b3b3b3b3b4e3b3b3b3b3b4d534e3b3033313b6e4d3b4f204e474953204c45574f56204e4154454249543b43374630,
0x3b3b3b3b5541204e474953204c45574f56204e4154454249543b4e3b3b3b3b3b4d534e3b3033313b6e4d3b4f4f204e474953204c45574f56204e4154454249543b44374630,
0x3b3b3b3b4152415653554e41204e4154454249543b4e3b3b3b3b3b4d534e3b303b6e4d3b4f522041474e2055532053454a52204e474953204e4154454249543b45374630,
0x3b3b3b3b41475241534956204e4154454249543b4e3b3b3b3b3b4c3b303b634d3b44414342204d414e52204e474953204e4154454249543b46374630,
0x3b3b3b3b492054524f4853204e474953204c45574f56204e4154454249543b4e3b3b3b3b3b4d534e3b3033313b6e4d3b49204445535245564552204e474953204c45574f56204e4154454249543b30384630,
0x3b3b3b3b3b4e3b3b3b3b3038463020313746303b4d534e3b303b6e4d3b4949204445535245564552204e474953204c45574f56204e4154454249543b31384630,
0x3b3b3b3b544e454d414e524f20485449572055444e49424152444e4143204e4154454249543b4e3b3b3b3b3b4d534e3b3033323b6e4d3b41442041414e20414c5a2049594e204e474953204e4154454249543b32384630,
0x3b3b3b3b55444e49424152444e4143204e4154454249543b4e3b3b3b3b3b4d534e3b3033323b6e4d3b4e41444c20414e53204e474953204e4154454249543b33384630,
0x3b3b3b3b414d41524956204e4154454249543b4e3b3b3b3b3b4d534e3b393b6e4d3b41544e414c4148204b52414d204e4154454249543b34384630,
0x3b3b3b3b454749594e454843554843204e4154454249543b4e3b3b3b3b3b4c3b303b6f503b4154554c4150204b52414d204e4154454249543b35384630,
0x3b3b3b3b3b4e3b3b3b3b3b4d534e3b3033323b6e4d3b53474154522049434c204e474953204e4154454249543b36384630,
0x3b3b3b3b3b4e3b3b3b3b3b4d534e3b3033323b6e4d3b534741545220474e4159204e474953204e4154454249543b37384630,
0x3b3b3b3b3b4e3b3b3b3b3b4c3b303b6f4c3b4e4143204153542045434c204e474953204e4154454249543b38384630,
0x3b3b3b3b3b4e3b3b3b3b3b4c3b303b6f4c3b4e4143205548434d204e474953204e4154454249543b39384630,
0x3b3b3b3b3b4e3b3b3b3b3b4c3b303b6f4c3b53474e49594752204e414320555247204e474953204e4154454249543b41384630,
0x3b3b3b3b3b4e3b3b3b3b3b4c3b303b6f4c3b53474e495947522044454d20555247204e474953204e4154454249543b42384630,
0x3b3b3b3b3b4e3b3b3b3b3b4c3b303b6f4c3b4e4143205548434d204445545245564e49204e474953204e4154454249543b43384630,
0x3b3b3b3b3b4e3b3b3b3b3b4d534e3b303b6e4d3b4e4143204153542045434c204e4749532044454e494f4a425553204e4154454249543b44384630,
0x3b3b3b3b3b4e3b3b3b3b3b4d534e3b303b6e4d3b4e4143205548434d204e4749532044454e494f4a425553204e4154454249543b45384630,
0x3b3b3b3b3b4e3b3b3b3b3b4d534e3b303b6e4d3b4e4143205548434d204445545245564e49204e4749532044454e494f4a425553204e4154454249543b46384630,
0x3b3b3b3b3b4e3b3b3b3b3b4d534e3b303b6e4d3b414b2052455454454c2044454e494f4a425553204e4154454249543b30394630,
0x3b3b3b3b3b4e3b3b3b3b3b4d534e3b303b6e4d3b41484b2052455454454c2044454e494f4a425553204e4154454249543b31394630,
0x3b3b3b3b3b4e3b3b3b3b3b4d534e3b303b6e4d3b41472052455454454c2044454e494f4a425553204e4154454249543b32394630,
0x3b3b3b3b3b4e3b3b3b3b3742463020323946303b4d534e3b303b6e4d3b4148472052455454454c2044454e494f4a425553204e4154454249543b33394630,
0x3b3b3b3b3b4e3b3b3b3b3b4d534e3b303b6e4d3b41474e2052455454454c2044454e494f4a425553204e4154454249543b34394630,
0x3b3b3b3b3b4e3b3b3b3b3b4d534e3b303b6e4d3b41432052455454454c2044454e494f4a425553204e4154454249543b35394630,
0x3b3b3b3b3b4e3b3b3b3b3b4d534e3b303b6e4d3b4148432052455454454c2044454e494f4a425553204e4154454249543b36394630,
0x3b3b3b3b3b4e3b3b3b3b3b4d534e3b303b6e4d3b414a2052455454454c2044454e494f4a425553204e4154454249543b37394630,
0x3b3b3b3b3b4e3b3b3b3b3b4d534e3b303b6e4d3b41594e2052455454454c2044454e494f4a425553204e4154454249543b39394630,
0x3b3b3b3b3b4e3b3b3b3b3b4d534e3b303b6e4d3b4154542052455454454c2044454e494f4a425553204e4154454249543b41394630,
0x3b3b3b3b3b4e3b3b3b3b3b4d534e3b303b6e4d3b414854542052455454454c2044454e494f4a425553204e4154454249543b42394630,
0x3b3b3b3b3b4e3b3b3b3b3b4d534e3b303b6e4d3b4144442052455454454c2044454e494f4a425553204e4154454249543b43394630,
0x3b3b3b3b3b4e3b3b3b3b3742463020433946303b4d534e3b303b6e4d3b414844442052455454454c2044454e494f4a425553204e4154454249543b44394630,
0x3b3b3b3b3b4e3b3b3b3b3b4d534e3b303b6e4d3b414e4e2052455454454c2044454e494f4a425553204e4154454249543b45394630,
0x3b3b3b3b3b4e3b3b3b3b3b4d534e3b303b6e4d3b41542052455454454c2044454e494f4a425553204e4154454249543b46394630,
0x3b3b3b3b3b4e3b3b3b3b3b4d534e3b303b6e4d3b4148542052455454454c2044454e494f4a425553204e4154454249543b30414630,
0x3b3b3b3b3b4e3b3b3b3b3b4d534e3b303b6e4d3b41442052455454454c2044454e494f4a425553204e4154454249543b31414630,
0x3b3b3b3b3b4e3b3b3b3b3742463020314146303b4d534e3b303b6e4d3b4148442052455454454c2044454e494f4a425553204e4154454249543b32414630,
0x3b3b3b3b3b4e3b3b3b3b3b4d534e3b303b6e4d3b414e2052455454454c2044454e494f4a425553204e4154454249543b33414630,
0x3b3b3b3b3b4e3b3b3b3b3b4d534e3b303b6e4d3b41502052455454454c2044454e494f4a425553204e4154454249543b34414630,
0x3b3b3b3b3b4e3b3b3b3b3b4d534e3b303b6e4d3b4148502052455454454c2044454e494f4a425553204e4154454249543b35414630,
0x3b3b3b3b3b4e3b3b3b3b3b4d534e3b303b6e4d3b41422052455454454c2044454e494f4a425553204e4154454249543b36414630,
0x3b3b3b3b3b4e3b3b3b3b3742463020364146303b4d534e3b303b6e4d3b4148422052455454454c2044454e494f4a425553204e4154454249543b37414630,
0x3b3b3b3b3b4e3b3b3b3b3b4d534e3b303b6e4d3b414d2052455454454c2044454e494f4a425553204e4154454249543b38414630,
0x3b3b3b3b3b4e3b3b3b3b3b4d534e3b303b6e4d3b4153542052455454454c2044454e494f4a425553204e4154454249543b39414630,
0x3b3b3b3b3b4e3b3b3b3b3b4d534e3b303b6e4d3b414853542052455454454c2044454e494f4a425553204e4154454249543b41414630,
0x3b3b3b3b3b4e3b3b3b3b3b4d534e3b303b6e4d3b415a442052455454454c2044454e494f4a425553204e4154454249543b42414630,
0x3b3b3b3b3b4e3b3b3b3b3742463020424146303b4d534e3b303b6e4d3b41485a442052455454454c2044454e494f4a425553204e4154454249543b43414630,
0x3b3b3b3b3b4e3b3b3b3b3b4d534e3b303b6e4d3b41572052455454454c2044454e494f4a425553204e4154454249543b44414630,
0x3b3b3b3b3b4e3b3b3b3b3b4d534e3b303b6e4d3b41485a2052455454454c2044454e494f4a425553204e4154454249543b45414630,
0x3b3b3b3b3b4e3b3b3b3b3b4d534e3b303b6e4d3b415a2052455454454c2044454e494f4a425553204e4154454249543b46414630,
0x3b3b3b3b3b4e3b3b3b3b3b4d534e3b303b6e4d3b412d2052455454454c2044454e494f4a425553204e4154454249543b30424630,
0x3b3b3b3b3b4e3b3b3b3b3b4d534e3b303b6e4d3b41592052455454454c2044454e494f4a425553204e4154454249543b31424630,
0x3b3b3b3b3b4e3b3b3b3b3b4d534e3b303b6e4d3b41522052455454454c2044454e494f4a425553204e4154454249543b32424630,
0x3b3b3b3b3b4e3b3b3b3b3b4d534e3b303b6e4d3b414c2052455454454c2044454e494f4a425553204e4154454249543b33424630,
0x3b3b3b3b3b4e3b3b3b3b3b4d534e3b303b6e4d3b4148532052455454454c2044454e494f4a425553204e4154454249543b34424630,
0x3b3b3b3b3b4e3b3b3b3b3b4d534e3b303b6e4d3b4153532052455454454c2044454e494f4a425553204e4154454249543b35424630,
0x3b3b3b3b3b4e3b3b3b3b3b4d534e3b303b6e4d3b41532052455454454c2044454e494f4a425553204e4154454249543b36424630,
0x3b3b3b3b3b4e3b3b3b3b3b4d534e3b303b6e4d3b41482052455454454c2044454e494f4a425553204e4154454249543b37424630,
0x3b3b3b3b3b4e3b3b3b3b3b4d534e3b303b6e4d3b412052455454454c2044454e494f4a425553204e4154454249543b38424630,
0x3b3b3b3b3b4e3b3b3b3b3542463020303946303b4d534e3b303b6e4d3b4153534b2052455454454c2044454e494f4a425553204e4154454249543b39424630,
0x3b3b3b3b3b4e3b3b3b3b3b4d534e3b303b6e4d3b4157204d524f462d44455849462052455454454c2044454e494f4a425553204e4154454249543b41424630,
0x3b3b3b3b3b4e3b3b3b3b3b4d534e3b303b6e4d3b4159204d524f462d44455849462052455454454c2044454e494f4a425553204e4154454249543b42424630,
0x3b3b3b3b3b4e3b3b3b3b3b4d534e3b303b6e4d3b4152204d524f462d44455849462052455454454c2044454e494f4a425553204e4154454249543b43424630,
0x3b3b3b3b3b4e3b3b3b3b3b4c3b303b6f533b41484b20555220554b204e4154454249543b45424630,
0x3b3b3b3b3b4e3b3b3b3b3b4c3b303b6f533b4e41432047494d2049485a422041484b20555220554b204e4154454249543b46424630,
0x3b3b3b3b3b4e3b3b3b3b3b4c3b303b6f533b54414542205956414548204e474953204e4f4954414c4c49544e4143204e4154454249543b30434630,
0x3b3b3b3b3b4e3b3b3b3b3b4c3b303b6f533b5441454220544847494c204e474953204e4f4954414c4c49544e4143204e4154454249543b31434630,
0x3b3b3b3b3b4e3b3b3b3b3b4c3b303b6f533b552d455420474e4143204e474953204e4f4954414c4c49544e4143204e4154454249543b32434630,
0x3b3b3b3b3b4e3b3b3b3b3b4c3b303b6f533b4c4148432d2042554253204e474953204e4f4954414c4c49544e4143204e4154454249543b33434630,
0x3b3b3b3b3b4e3b3b3b3b3b4c3b303b6f533b5542204c495244204c4f424d5953204e4154454249543b34434630,
0x3b3b3b3b3b4e3b3b3b3b3b4c3b303b6f533b454a52204f4452204c4f424d5953204e4154454249543b35434630,
0x3b3b3b3b3b4e3b3b3b3b3b4d534e3b3032323b6e4d3b4e41444720414d444150204c4f424d5953204e4154454249543b36434630,
0x3b3b3b3b3b4e3b3b3b3b3b4c3b303b6f533b4d415247204159475220454a52204f4452204c4f424d5953204e4154454249543b37434630,
0x3b3b3b3b3b4e3b3b3b3b3b4c3b303b6f533b41502052554850204c4f424d5953204e4154454249543b38434630,
0x3b3b3b3b3b4e3b3b3b3b3b4c3b303b6f533b554220524f4e204c4f424d5953204e4154454249543b39434630,
0x3b3b3b3b3b4e3b3b3b3b3b4c3b303b6f533b4c4959484b2d205349594e20554220524f4e204c4f424d5953204e4154454249543b41434630,
0x3b3b3b3b3b4e3b3b3b3b3b4c3b303b6f533b4c4959484b2d204d55534720554220524f4e204c4f424d5953204e4154454249543b42434630,
0x3b3b3b3b3b4e3b3b3b3b3b4c3b303b6f533b4c4959484b2d2049485a4220554220524f4e204c4f424d5953204e4154454249543b43434630,
0x3b3b3b3b3b4e3b3b3b3b3b4c3b303b6f533b52414b44204c4544522047414e204c454452204e474953204e4154454249543b45434630,
0x3b3b3b3b3b4e3b3b3b3b3b4c3b303b6f533b4d5553472047414e204c454452204e474953204e4154454249543b46434630,
0x3b3b3b3b3b4e3b3b3b3b3b4c3b303b6f503b4e41594752204f474d20494720474f4853202d414b5342204b52414d204e4154454249543b30444630,
0x3b3b3b3b3b4e3b3b3b3b3b4c3b303b6f503b4e41594752204f474d20494720474959204d41594e4d204b52414d204e4154454249543b31444630,
0x3b3b3b3b3b4e3b3b3b3b3b4c3b303b6f503b4745485354205349594e204b52414d204e4154454249543b32444630,
0x3b3b3b3b3b4e3b3b3b3b3b4c3b303b6f503b414d204e55444d204f474d2047495920474e49594e522041445242204c414954494e49204b52414d204e4154454249543b33444630,
0x3b3b3b3b3b4e3b3b3b3b3b4c3b303b6f503b414d2042414753204f474d2047495920474e49594e52204144524220474e49534f4c43204b52414d204e4154454249543b34444630,
0x3b3b3b3b3b4e3b3b3b3b3b4c3b303b6f533b4e4749532049545341565320474e494341462d54484749523b35444630,
0x3b3b3b3b3b4e3b3b3b3b3b4c3b303b6f533b4e4749532049545341565320474e494341462d5446454c3b36444630,
0x3b3b3b3b3b4e3b3b3b3b3b4c3b303b6f533b53544f442048544957204e4749532049545341565320474e494341462d54484749523b37444630,
0x3b3b3b3b3b4e3b3b3b3b3b4c3b303b6f533b53544f442048544957204e4749532049545341565320474e494341462d5446454c3b38444630,
0x3b3b3b3b3b4e3b3b3b3b3b4c3b303b6f503b5347415452204e4148434d20474e494441454c204b52414d204e4154454249543b39444630,
0x3b3b3b3b3b4e3b3b3b3b3b4c3b303b6f503b5347415452204e4148434d20474e494c49415254204b52414d204e4154454249543b41444630,
0x3b3b3b3b3b4e3b3b3b3b3b4c3b303b6f4c3b414b2052455454454c2052414d4e41594d3b30303031,
0x3b3b3b3b3b4e3b3b3b3b3b4c3b303b6f4c3b41484b2052455454454c2052414d4e41594d3b31303031,
0x3b3b3b3b3b4e3b3b3b3b3b4c3b303b6f4c3b41472052455454454c2052414d4e41594d3b32303031,
0x3b3b3b3b3b4e3b3b3b3b3b4c3b303b6f4c3b4148472052455454454c2052414d4e41594d3b33303031,
0x3b3b3b3b3b4e3b3b3b3b3b4c3b303b6f4c3b41474e2052455454454c2052414d4e41594d3b34303031,
0x3b3b3b3b3b4e3b3b3b3b3b4c3b303b6f4c3b41432052455454454c2052414d4e41594d3b35303031,
0x3b3b3b3b3b4e3b3b3b3b3b4c3b303b6f4c3b4148432052455454454c2052414d4e41594d3b36303031,
0x3b3b3b3b3b4e3b3b3b3b3b4c3b303b6f4c3b414a2052455454454c2052414d4e41594d3b37303031,
0x3b3b3b3b3b4e3b3b3b3b3b4c3b303b6f4c3b41484a2052455454454c2052414d4e41594d3b38303031,
0x3b3b3b3b3b4e3b3b3b3b3b4c3b303b6f4c3b41594e2052455454454c2052414d4e41594d3b39303031,
0x3b3b3b3b3b4e3b3b3b3b3b4c3b303b6f4c3b41594e4e2052455454454c2052414d4e41594d3b41303031,
0x3b3b3b3b3b4e3b3b3b3b3b4c3b303b6f4c3b4154542052455454454c2052414d4e41594d3b42303031,
0x3b3b3b3b3b4e3b3b3b3b3b4c3b303b6f4c3b414854542052455454454c2052414d4e41594d3b43303031,
0x3b3b3b3b3b4e3b3b3b3b3b4c3b303b6f4c3b4144442052455454454c2052414d4e41594d3b44303031,
0x3b3b3b3b3b4e3b3b3b3b3b4c3b303b6f4c3b414844442052455454454c2052414d4e41594d3b45303031,
0x3b3b3b3b3b4e3b3b3b3b3b4c3b303b6f4c3b414e4e2052455454454c2052414d4e41594d3b46303031,
0x3b3b3b3b3b4e3b3b3b3b3b4c3b303b6f4c3b41542052455454454c2052414d4e41594d3b30313031,
0x3b3b3b3b3b4e3b3b3b3b3b4c3b303b6f4c3b4148542052455454454c2052414d4e41594d3b31313031,
0x3b3b3b3b3b4e3b3b3b3b3b4c3b303b6f4c3b41442052455454454c2052414d4e41594d3b32313031,
0x3b3b3b3b3b4e3b3b3b3b3b4c3b303b6f4c3b4148442052455454454c2052414d4e41594d3b33313031,
0x3b3b3b3b3b4e3b3b3b3b3b4c3b303b6f4c3b414e2052455454454c2052414d4e41594d3b34313031,
0x3b3b3b3b3b4e3b3b3b3b3b4c3b303b6f4c3b41502052455454454c2052414d4e41594d3b35313031,
0x3b3b3b3b3b4e3b3b3b3b3b4c3b303b6f4c3b4148502052455454454c2052414d4e41594d3b36313031,
0x3b3b3b3b3b4e3b3b3b3b3b4c3b303b6f4c3b41422052455454454c2052414d4e41594d3b37313031,
0x3b3b3b3b3b4e3b3b3b3b3b4c3b303b6f4c3b4148422052455454454c2052414d4e41594d3b38313031,
0x3b3b3b3b3b4e3b3b3b3b3b4c3b303b6f4c3b414d2052455454454c2052414d4e41594d3b39313031,
0x3b3b3b3b3b4e3b3b3b3b3b4c3b303b6f4c3b41592052455454454c2052414d4e41594d3b41313031,
0x3b3b3b3b3b4e3b3b3b3b3b4c3b303b6f4c3b41522052455454454c2052414d4e41594d3b42313031,
0x3b3b3b3b3b4e3b3b3b3b3b4c3b303b6f4c3b414c2052455454454c2052414d4e41594d3b43313031,
0x3b3b3b3b3b4e3b3b3b3b3b4c3b303b6f4c3b41572052455454454c2052414d4e41594d3b44313031,
0x3b3b3b3b3b4e3b3b3b3b3b4c3b303b6f4c3b41532052455454454c2052414d4e41594d3b45313031,
0x3b3b3b3b3b4e3b3b3b3b3b4c3b303b6f4c3b41482052455454454c2052414d4e41594d3b46313031,
0x3b3b3b3b3b4e3b3b3b3b3b4c3b303b6f4c3b414c4c2052455454454c2052414d4e41594d3b30323031,
0x3b3b3b3b3b4e3b3b3b3b3b4c3b303b6f4c3b412052455454454c2052414d4e41594d3b31323031,
0x3b3b3b3b3b4e3b3b3b3b3b4c3b303b6f4c3b41204e4148532052455454454c2052414d4e41594d3b32323031,
0x3b3b3b3b3b4e3b3b3b3b3b4c3b303b6f4c3b492052455454454c2052414d4e41594d3b33323031,
0x3b3b3b3b3b4e3b3b3b3b3b4c3b303b6f4c3b49492052455454454c2052414d4e41594d3b34323031,
0x3b3b3b3b3b4e3b3b3b3b3b4c3b303b6f4c3b552052455454454c2052414d4e41594d3b35323031,
0x3b3b3b3b3b4e3b3b3b3b4532303120353230313b4c3b303b6f4c3b55552052455454454c2052414d4e41594d3b36323031,
0x3b3b3b3b3b4e3b3b3b3b3b4c3b303b6f4c3b452052455454454c2052414d4e41594d3b37323031,
0x3b3b3b3b3b4e3b3b3b3b3b4c3b303b6f4c3b45204e4f4d2052455454454c2052414d4e41594d3b38323031,
0x3b3b3b3b3b4e3b3b3b3b3b4c3b303b6f4c3b4f2052455454454c2052414d4e41594d3b39323031,
0x3b3b3b3b3b4e3b3b3b3b3b4c3b303b6f4c3b55412052455454454c2052414d4e41594d3b41323031,
0x3b3b3b3b3b4e3b3b3b3b3b4c3b303b634d3b4141204c4c4154204e474953204c45574f562052414d4e41594d3b42323031,
0x3b3b3b3b3b4e3b3b3b3b3b4c3b303b634d3b4141204e474953204c45574f562052414d4e41594d3b43323031,
0x3b3b3b3b3b4e3b3b3b3b3b4d534e3b303b6e4d3b49204e474953204c45574f562052414d4e41594d3b44323031,
0x3b3b3b3b3b4e3b3b3b3b3b4d534e3b303b6e4d3b4949204e474953204c45574f562052414d4e41594d3b45323031,
0x3b3b3b3b3b4e3b3b3b3b3b4d534e3b303b6e4d3b55204e474953204c45574f562052414d4e41594d3b46323031,
0x3b3b3b3b3b4e3b3b3b3b3b4d534e3b303b6e4d3b5555204e474953204c45574f562052414d4e41594d3b30333031,
0x3b3b3b3b3b4e3b3b3b3b3b4c3b303b634d3b45204e474953204c45574f562052414d4e41594d3b31333031,
0x3b3b3b3b3b4e3b3b3b3b3b4d534e3b303b6e4d3b4941204e474953204c45574f562052414d4e41594d3b32333031,
0x3b3b3b3b3b4e3b3b3b3b3b4d534e3b303b6e4d3b4949204e4f4d204e474953204c45574f562052414d4e41594d3b33333031,
0x3b3b3b3b3b4e3b3b3b3b3b4d534e3b303b6e4d3b4f204e4f4d204e474953204c45574f562052414d4e41594d3b34333031,
0x3b3b3b3b3b4e3b3b3b3b3b4d534e3b303b6e4d3b45564f42412045204e474953204c45574f562052414d4e41594d3b35333031,
0x3b3b3b3b3b4e3b3b3b3b3b4d534e3b303b6e4d3b4152415653554e41204e4749532052414d4e41594d3b36333031,
0x3b3b3b3b3b4e3b3b3b3b3b4d534e3b373b6e4d3b574f4c454220544f44204e4749532052414d4e41594d3b37333031,
0x3b3b3b3b3b4e3b3b3b3b3b4c3b303b634d3b41475241534956204e4749532052414d4e41594d3b38333031,
0x3b3b3b3b3b4e3b3b3b3b3b4d534e3b393b6e4d3b414d41524956204e4749532052414d4e41594d3b39333031,
0x3b3b3b3b3b4e3b3b3b3b3b4d534e3b393b6e4d3b54415341204e4749532052414d4e41594d3b41333031,
0x3b3b3b3b3b4e3b3b3b3b3b4c3b303b634d3b4159204c414944454d204e47495320544e414e4f534e4f432052414d4e41594d3b42333031,
0x3b3b3b3b3b4e3b3b3b3b3b4c3b303b634d3b4152204c414944454d204e47495320544e414e4f534e4f432052414d4e41594d3b43333031,
0x3b3b3b3b3b4e3b3b3b3b3b4d534e3b303b6e4d3b4157204c414944454d204e47495320544e414e4f534e4f432052414d4e41594d3b44333031,
0x3b3b3b3b3b4e3b3b3b3b3b4d534e3b303b6e4d3b4148204c414944454d204e47495320544e414e4f534e4f432052414d4e41594d3b45333031,
0x3b3b3b3b3b4e3b3b3b3b3b4c3b303b6f4c3b41532054414552472052455454454c2052414d4e41594d3b46333031,
0x3b3b3b3b3b4e3b303b303b303b3b4c3b303b644e3b4f52455a2054494749442052414d4e41594d3b30343031,
0x3b3b3b3b3b4e3b313b313b313b3b4c3b303b644e3b454e4f2054494749442052414d4e41594d3b31343031,
0x3b3b3b3b3b4e3b323b323b323b3b4c3b303b644e3b4f57542054494749442052414d4e41594d3b32343031,
0x3b3b3b3b3b4e3b333b333b333b3b4c3b303b644e3b45455248542054494749442052414d4e41594d3b33343031,
0x3b3b3b3b3b4e3b343b343b343b3b4c3b303b644e3b52554f462054494749442052414d4e41594d3b34343031,
0x3b3b3b3b3b4e3b353b353b353b3b4c3b303b644e3b455649462054494749442052414d4e41594d3b35343031,
0x3b3b3b3b3b4e3b363b363b363b3b4c3b303b644e3b5849532054494749442052414d4e41594d3b36343031,
0x3b3b3b3b3b4e3b373b373b373b3b4c3b303b644e3b4e455645532054494749442052414d4e41594d3b37343031,
0x3b3b3b3b3b4e3b383b383b383b3b4c3b303b644e3b54484749452054494749442052414d4e41594d3b38343031,
0x3b3b3b3b3b4e3b393b393b393b3b4c3b303b644e3b454e494e2054494749442052414d4e41594d3b39343031,
0x3b3b3b3b3b4e3b3b3b3b3b4c3b303b6f503b4e4f495443455320454c5454494c204e4749532052414d4e41594d3b41343031,
0x3b3b3b3b3b4e3b3b3b3b3b4c3b303b6f503b4e4f4954434553204e4749532052414d4e41594d3b42343031,
0x3b3b3b3b3b4e3b3b3b3b3b4c3b303b6f503b4556495441434f4c204c4f424d59532052414d4e41594d3b43343031,
0x3b3b3b3b3b4e3b3b3b3b3b4c3b303b6f503b444554454c504d4f43204c4f424d59532052414d4e41594d3b44343031,
0x3b3b3b3b3b4e3b3b3b3b3b4c3b303b6f503b44454e4f49544e454d45524f4641204c4f424d59532052414d4e41594d3b45343031,
0x3b3b3b3b3b4e3b3b3b3b3b4c3b303b6f503b45564954494e4547204c4f424d59532052414d4e41594d3b46343031,
0x3b3b3b3b3b4e3b3b3b3b3b4c3b303b6f4c3b4148532052455454454c2052414d4e41594d3b30353031,
0x3b3b3b3b3b4e3b3b3b3b3b4c3b303b6f4c3b4153532052455454454c2052414d4e41594d3b31353031,
0x3b3b3b3b3b4e3b3b3b3b3b4c3b303b6f4c3b522043494c41434f562052455454454c2052414d4e41594d3b32353031,
0x3b3b3b3b3b4e3b3b3b3b3b4c3b303b6f4c3b52522043494c41434f562052455454454c2052414d4e41594d3b33353031,
0x3b3b3b3b3b4e3b3b3b3b3b4c3b303b6f4c3b4c2043494c41434f562052455454454c2052414d4e41594d3b34353031,
0x3b3b3b3b3b4e3b3b3b3b3b4c3b303b6f4c3b4c4c2043494c41434f562052455454454c2052414d4e41594d3b35353031,
0x3b3b3b3b3b4e3b3b3b3b3b4c3b303b634d3b522043494c41434f56204e474953204c45574f562052414d4e41594d3b36353031,
0x3b3b3b3b3b4e3b3b3b3b3b4c3b303b634d3b52522043494c41434f56204e474953204c45574f562052414d4e41594d3b37353031,
0x3b3b3b3b3b4e3b3b3b3b3b4d534e3b303b6e4d3b4c2043494c41434f56204e474953204c45574f562052414d4e41594d3b38353031,
0x3b3b3b3b3b4e3b3b3b3b3b4d534e3b303b6e4d3b4c4c2043494c41434f56204e474953204c45574f562052414d4e41594d3b39353031,
0x3b3b3b3b3b4e3b3b3b3b3b4c3b303b6f4c3b41474e204e4f4d2052455454454c2052414d4e41594d3b41353031,
0x3b3b3b3b3b4e3b3b3b3b3b4c3b303b6f4c3b41484a204e4f4d2052455454454c2052414d4e41594d3b42353031,
0x3b3b3b3b3b4e3b3b3b3b3b4c3b303b6f4c3b414242204e4f4d2052455454454c2052414d4e41594d3b43353031,
0x3b3b3b3b3b4e3b3b3b3b3b4c3b303b6f4c3b454242204e4f4d2052455454454c2052414d4e41594d3b44353031,
0x3b3b3b3b3b4e3b3b3b3b3b4d534e3b303b6e4d3b414e204c414944454d204e4f4d204e47495320544e414e4f534e4f432052414d4e41594d3b45353031,
0x3b3b3b3b3b4e3b3b3b3b3b4d534e3b303b6e4d3b414d204c414944454d204e4f4d204e47495320544e414e4f534e4f432052414d4e41594d3b46353031,
0x3b3b3b3b3b4e3b3b3b3b3b4d534e3b303b6e4d3b414c204c414944454d204e4f4d204e47495320544e414e4f534e4f432052414d4e41594d3b30363031,
0x3b3b3b3b3b4e3b3b3b3b3b4c3b303b6f4c3b414853204e4552414b20574147532052455454454c2052414d4e41594d3b31363031,
0x3b3b3b3b3b4e3b3b3b3b3b4c3b303b634d3b5545204e4552414b2057414753204e474953204c45574f562052414d4e41594d3b32363031,
0x3b3b3b3b3b4e3b3b3b3b3b4c3b303b634d3b4948544148204e4552414b2057414753204b52414d20454e4f542052414d4e41594d3b33363031,
0x3b3b3b3b3b4e3b3b3b3b3b4c3b303b634d3b4f485020454b204e4552414b2057414753204b52414d20454e4f542052414d4e41594d3b34363031,
0x3b3b3b3b3b4e3b3b3b3b3b4c3b303b6f4c3b414854204e4552414b204f5750204e5245545345572052455454454c2052414d4e41594d3b35363031,
0x3b3b3b3b3b4e3b3b3b3b3b4c3b303b6f4c3b415750204e4552414b204f5750204e5245545345572052455454454c2052414d4e41594d3b36363031,
0x3b3b3b3b3b4e3b3b3b3b3b4c3b303b634d3b5545204e4552414b204f5750204e524554534557204e474953204c45574f562052414d4e41594d3b37363031,
0x3b3b3b3b3b4e3b3b3b3b3b4c3b303b634d3b4555204e4552414b204f5750204e524554534557204e474953204c45574f562052414d4e41594d3b38363031,
0x3b3b3b3b3b4e3b3b3b3b3b4c3b303b634d3b312d454e4f54204e4552414b204f5750204e524554534557204e4749532052414d4e41594d3b39363031,
0x3b3b3b3b3b4e3b3b3b3b3b4c3b303b634d3b322d454e4f54204e4552414b204f5750204e524554534557204e4749532052414d4e41594d3b41363031,
0x3b3b3b3b3b4e3b3b3b3b3b4c3b303b634d3b332d454e4f54204e4552414b204f5750204e524554534557204e4749532052414d4e41594d3b42363031,
0x3b3b3b3b3b4e3b3b3b3b3b4c3b303b634d3b342d454e4f54204e4552414b204f5750204e524554534557204e4749532052414d4e41594d3b43363031,
0x3b3b3b3b3b4e3b3b3b3b3b4c3b303b634d3b352d454e4f54204e4552414b204f5750204e524554534557204e4749532052414d4e41594d3b44363031,
0x3b3b3b3b3b4e3b3b3b3b3b4c3b303b6f4c3b414e4e204e4552414b204f5750204e5245545341452052455454454c2052414d4e41594d3b45363031,
0x3b3b3b3b3b4e3b3b3b3b3b4c3b303b6f4c3b415759204e4552414b204f5750204e5245545341452052455454454c2052414d4e41594d3b46363031,
0x3b3b3b3b3b4e3b3b3b3b3b4c3b303b6f4c3b41574847204e4552414b204f5750204e5245545341452052455454454c2052414d4e41594d3b30373031,
0x3b3b3b3b3b4e3b3b3b3b3b4d534e3b303b6e4d3b49204e4552414b2041424547204e474953204c45574f562052414d4e41594d3b31373031,
0x3b3b3b3b3b4e3b3b3b3b3b4d534e3b303b6e4d3b454f20484159414b204e474953204c45574f562052414d4e41594d3b32373031,
0x3b3b3b3b3b4e3b3b3b3b3b4d534e3b303b6e4d3b5520484159414b204e474953204c45574f562052414d4e41594d3b33373031,
0x3b3b3b3b3b4e3b3b3b3b3b4d534e3b303b6e4d3b454520484159414b204e474953204c45574f562052414d4e41594d3b34373031,
0x3b3b3b3b3b4e3b3b3b3b3b4c3b303b6f4c3b414b204e4148532052455454454c2052414d4e41594d3b35373031,
0x3b3b3b3b3b4e3b3b3b3b3b4c3b303b6f4c3b41484b204e4148532052455454454c2052414d4e41594d3b36373031,
0x3b3b3b3b3b4e3b3b3b3b3b4c3b303b6f4c3b4147204e4148532052455454454c2052414d4e41594d3b37373031,
0x3b3b3b3b3b4e3b3b3b3b3b4c3b303b6f4c3b4143204e4148532052455454454c2052414d4e41594d3b38373031,
0x3b3b3b3b3b4e3b3b3b3b3b4c3b303b6f4c3b415a204e4148532052455454454c2052414d4e41594d3b39373031,
0x3b3b3b3b3b4e3b3b3b3b3b4c3b303b6f4c3b41594e204e4148532052455454454c2052414d4e41594d3b41373031,
0x3b3b3b3b3b4e3b3b3b3b3b4c3b303b6f4c3b4144204e4148532052455454454c2052414d4e41594d3b42373031,
0x3b3b3b3b3b4e3b3b3b3b3b4c3b303b6f4c3b414e204e4148532052455454454c2052414d4e41594d3b43373031,
0x3b3b3b3b3b4e3b3b3b3b3b4c3b303b6f4c3b414850204e4148532052455454454c2052414d4e41594d3b44373031,
0x3b3b3b3b3b4e3b3b3b3b3b4c3b303b6f4c3b4146204e4148532052455454454c2052414d4e41594d3b45373031,
0x3b3b3b3b3b4e3b3b3b3b3b4c3b303b6f4c3b4142204e4148532052455454454c2052414d4e41594d3b46373031,
0x3b3b3b3b3b4e3b3b3b3b3b4c3b303b6f4c3b414854204e4148532052455454454c2052414d4e41594d3b30383031,
0x3b3b3b3b3b4e3b3b3b3b3b4c3b303b6f4c3b4148204e4148532052455454454c2052414d4e41594d3b31383031,
0x3b3b3b3b3b4e3b3b3b3b3b4d534e3b303b6e4d3b4157204c414944454d204e414853204e47495320544e414e4f534e4f432052414d4e41594d3b32383031,
0x3b3b3b3b3b4e3b3b3b3b3b4c3b303b634d3b4141204e414853204e474953204c45574f562052414d4e41594d3b33383031,
0x3b3b3b3b3b4e3b3b3b3b3b4c3b303b634d3b45204e414853204e474953204c45574f562052414d4e41594d3b34383031,
0x3b3b3b3b3b4e3b3b3b3b3b4d534e3b303b6e4d3b45564f42412045204e414853204e474953204c45574f562052414d4e41594d3b35383031,
0x3b3b3b3b3b4e3b3b3b3b3b4d534e3b303b6e4d3b59204c414e4946204e414853204e474953204c45574f562052414d4e41594d3b36383031,
0x3b3b3b3b3b4e3b3b3b3b3b4c3b303b634d3b322d454e4f54204e414853204e4749532052414d4e41594d3b37383031,
0x3b3b3b3b3b4e3b3b3b3b3b4c3b303b634d3b332d454e4f54204e414853204e4749532052414d4e41594d3b38383031]

/-- src/u5e/props/UnicodeData.txt lines 3585-3840. -/
def rawUcd14 : List Nat := [
0x3b3b3b3b3b4e3b3b3b3b3b4c3b303b634d3b352d454e4f54204e414853204e4749532052414d4e41594d3b39383031,
0x3b3b3b3b3b4e3b3b3b3b3b4c3b303b634d3b362d454e4f54204e414853204e4749532052414d4e41594d3b41383031,
0x3b3b3b3b3b4e3b3b3b3b3b4c3b303b634d3b322d454e4f54204c49434e554f43204e414853204e4749532052414d4e41594d3b42383031,
0x3b3b3b3b3b4e3b3b3b3b3b4c3b303b634d3b332d454e4f54204c49434e554f43204e414853204e4749532052414d4e41594d3b43383031,
0x3b3b3b3b3b4e3b3b3b3b3b4d534e3b3032323b6e4d3b454e4f54204349544148504d45204c49434e554f43204e414853204e4749532052414d4e41594d3b44383031,
0x3b3b3b3b3b4e3b3b3b3b3b4c3b303b6f4c3b414620474e55414c41502049414d55522052455454454c2052414d4e41594d3b45383031,
0x3b3b3b3b3b4e3b3b3b3b3b4c3b303b634d3b352d454e4f5420474e55414c41502049414d5552204e4749532052414d4e41594d3b46383031,
0x3b3b3b3b3b4e3b303b303b303b3b4c3b303b644e3b4f52455a205449474944204e4148532052414d4e41594d3b30393031,
0x3b3b3b3b3b4e3b313b313b313b3b4c3b303b644e3b454e4f205449474944204e4148532052414d4e41594d3b31393031,
0x3b3b3b3b3b4e3b323b323b323b3b4c3b303b644e3b4f5754205449474944204e4148532052414d4e41594d3b32393031,
0x3b3b3b3b3b4e3b333b333b333b3b4c3b303b644e3b4545524854205449474944204e4148532052414d4e41594d3b33393031,
0x3b3b3b3b3b4e3b343b343b343b3b4c3b303b644e3b52554f46205449474944204e4148532052414d4e41594d3b34393031,
0x3b3b3b3b3b4e3b353b353b353b3b4c3b303b644e3b45564946205449474944204e4148532052414d4e41594d3b35393031,
0x3b3b3b3b3b4e3b363b363b363b3b4c3b303b644e3b584953205449474944204e4148532052414d4e41594d3b36393031,
0x3b3b3b3b3b4e3b373b373b373b3b4c3b303b644e3b4e45564553205449474944204e4148532052414d4e41594d3b37393031,
0x3b3b3b3b3b4e3b383b383b383b3b4c3b303b644e3b5448474945205449474944204e4148532052414d4e41594d3b38393031,
0x3b3b3b3b3b4e3b393b393b393b3b4c3b303b644e3b454e494e205449474944204e4148532052414d4e41594d3b39393031,
0x3b3b3b3b3b4e3b3b3b3b3b4c3b303b634d3b312d454e4f542049544d41484b204e4749532052414d4e41594d3b41393031,
0x3b3b3b3b3b4e3b3b3b3b3b4c3b303b634d3b332d454e4f542049544d41484b204e4749532052414d4e41594d3b42393031,
0x3b3b3b3b3b4e3b3b3b3b3b4c3b303b634d3b41204e4f544941204e474953204c45574f562052414d4e41594d3b43393031,
0x3b3b3b3b3b4e3b3b3b3b3b4d534e3b303b6e4d3b4941204e4f544941204e474953204c45574f562052414d4e41594d3b44393031,
0x3b3b3b3b3b4e3b3b3b3b3b4c3b303b6f533b454e4f204e414853204c4f424d59532052414d4e41594d3b45393031,
0x3b3b3b3b3b4e3b3b3b3b3b4c3b303b6f533b4e4f4954414d414c435845204e414853204c4f424d59532052414d4e41594d3b46393031,
0x3b303044323b3b3b3b4e3b3b3b3b3b4c3b303b754c3b4e412052455454454c204c415449504143204e414947524f45473b30413031,
0x3b313044323b3b3b3b4e3b3b3b3b3b4c3b303b754c3b4e41422052455454454c204c415449504143204e414947524f45473b31413031,
0x3b323044323b3b3b3b4e3b3b3b3b3b4c3b303b754c3b4e41472052455454454c204c415449504143204e414947524f45473b32413031,
0x3b333044323b3b3b3b4e3b3b3b3b3b4c3b303b754c3b4e4f442052455454454c204c415449504143204e414947524f45473b33413031,
0x3b343044323b3b3b3b4e3b3b3b3b3b4c3b303b754c3b4e452052455454454c204c415449504143204e414947524f45473b34413031,
0x3b353044323b3b3b3b4e3b3b3b3b3b4c3b303b754c3b4e49562052455454454c204c415449504143204e414947524f45473b35413031,
0x3b363044323b3b3b3b4e3b3b3b3b3b4c3b303b754c3b4e455a2052455454454c204c415449504143204e414947524f45473b36413031,
0x3b373044323b3b3b3b4e3b3b3b3b3b4c3b303b754c3b4e41542052455454454c204c415449504143204e414947524f45473b37413031,
0x3b383044323b3b3b3b4e3b3b3b3b3b4c3b303b754c3b4e492052455454454c204c415449504143204e414947524f45473b38413031,
0x3b393044323b3b3b3b4e3b3b3b3b3b4c3b303b754c3b4e414b2052455454454c204c415449504143204e414947524f45473b39413031,
0x3b413044323b3b3b3b4e3b3b3b3b3b4c3b303b754c3b53414c2052455454454c204c415449504143204e414947524f45473b41413031,
0x3b423044323b3b3b3b4e3b3b3b3b3b4c3b303b754c3b4e414d2052455454454c204c415449504143204e414947524f45473b42413031,
0x3b433044323b3b3b3b4e3b3b3b3b3b4c3b303b754c3b52414e2052455454454c204c415449504143204e414947524f45473b43413031,
0x3b443044323b3b3b3b4e3b3b3b3b3b4c3b303b754c3b4e4f2052455454454c204c415449504143204e414947524f45473b44413031,
0x3b453044323b3b3b3b4e3b3b3b3b3b4c3b303b754c3b5241502052455454454c204c415449504143204e414947524f45473b45413031,
0x3b463044323b3b3b3b4e3b3b3b3b3b4c3b303b754c3b5241485a2052455454454c204c415449504143204e414947524f45473b46413031,
0x3b303144323b3b3b3b4e3b3b3b3b3b4c3b303b754c3b4541522052455454454c204c415449504143204e414947524f45473b30423031,
0x3b313144323b3b3b3b4e3b3b3b3b3b4c3b303b754c3b4e41532052455454454c204c415449504143204e414947524f45473b31423031,
0x3b323144323b3b3b3b4e3b3b3b3b3b4c3b303b754c3b5241542052455454454c204c415449504143204e414947524f45473b32423031,
0x3b333144323b3b3b3b4e3b3b3b3b3b4c3b303b754c3b4e552052455454454c204c415449504143204e414947524f45473b33423031,
0x3b343144323b3b3b3b4e3b3b3b3b3b4c3b303b754c3b524148502052455454454c204c415449504143204e414947524f45473b34423031,
0x3b353144323b3b3b3b4e3b3b3b3b3b4c3b303b754c3b5241484b2052455454454c204c415449504143204e414947524f45473b35423031,
0x3b363144323b3b3b3b4e3b3b3b3b3b4c3b303b754c3b4e4148472052455454454c204c415449504143204e414947524f45473b36423031,
0x3b373144323b3b3b3b4e3b3b3b3b3b4c3b303b754c3b5241512052455454454c204c415449504143204e414947524f45473b37423031,
0x3b383144323b3b3b3b4e3b3b3b3b3b4c3b303b754c3b4e4948532052455454454c204c415449504143204e414947524f45473b38423031,
0x3b393144323b3b3b3b4e3b3b3b3b3b4c3b303b754c3b4e4948432052455454454c204c415449504143204e414947524f45473b39423031,
0x3b413144323b3b3b3b4e3b3b3b3b3b4c3b303b754c3b4e41432052455454454c204c415449504143204e414947524f45473b41423031,
0x3b423144323b3b3b3b4e3b3b3b3b3b4c3b303b754c3b4c494a2052455454454c204c415449504143204e414947524f45473b42423031,
0x3b433144323b3b3b3b4e3b3b3b3b3b4c3b303b754c3b4c49432052455454454c204c415449504143204e414947524f45473b43423031,
0x3b443144323b3b3b3b4e3b3b3b3b3b4c3b303b754c3b524148432052455454454c204c415449504143204e414947524f45473b44423031,
0x3b453144323b3b3b3b4e3b3b3b3b3b4c3b303b754c3b4e41582052455454454c204c415449504143204e414947524f45473b45423031,
0x3b463144323b3b3b3b4e3b3b3b3b3b4c3b303b754c3b4e41484a2052455454454c204c415449504143204e414947524f45473b46423031,
0x3b303244323b3b3b3b4e3b3b3b3b3b4c3b303b754c3b4541482052455454454c204c415449504143204e414947524f45473b30433031,
0x3b313244323b3b3b3b4e3b3b3b3b3b4c3b303b754c3b45482052455454454c204c415449504143204e414947524f45473b31433031,
0x3b323244323b3b3b3b4e3b3b3b3b3b4c3b303b754c3b4549482052455454454c204c415449504143204e414947524f45473b32433031,
0x3b333244323b3b3b3b4e3b3b3b3b3b4c3b303b754c3b45572052455454454c204c415449504143204e414947524f45473b33433031,
0x3b343244323b3b3b3b4e3b3b3b3b3b4c3b303b754c3b5241482052455454454c204c415449504143204e414947524f45473b34433031,
0x3b353244323b3b3b3b4e3b3b3b3b3b4c3b303b754c3b454f482052455454454c204c415449504143204e414947524f45473b35433031,
0x3b373244323b3b3b3b4e3b3b3b3b3b4c3b303b754c3b4e592052455454454c204c415449504143204e414947524f45473b37433031,
0x3b443244323b3b3b3b4e3b3b3b3b3b4c3b303b754c3b4e45412052455454454c204c415449504143204e414947524f45473b44433031,
0x3b3b3b3b4e412052455454454c204c4c414d53204e414947524f45473b4e3b3b3b3b3b4c3b303b6f4c3b4e412052455454454c204e414947524f45473b30443031,
0x3b3b3b3b4e41422052455454454c204c4c414d53204e414947524f45473b4e3b3b3b3b3b4c3b303b6f4c3b4e41422052455454454c204e414947524f45473b31443031,
0x3b3b3b3b4e41472052455454454c204c4c414d53204e414947524f45473b4e3b3b3b3b3b4c3b303b6f4c3b4e41472052455454454c204e414947524f45473b32443031,
0x3b3b3b3b4e4f442052455454454c204c4c414d53204e414947524f45473b4e3b3b3b3b3b4c3b303b6f4c3b4e4f442052455454454c204e414947524f45473b33443031,
0x3b3b3b3b4e452052455454454c204c4c414d53204e414947524f45473b4e3b3b3b3b3b4c3b303b6f4c3b4e452052455454454c204e414947524f45473b34443031,
0x3b3b3b3b4e49562052455454454c204c4c414d53204e414947524f45473b4e3b3b3b3b3b4c3b303b6f4c3b4e49562052455454454c204e414947524f45473b35443031,
0x3b3b3b3b4e455a2052455454454c204c4c414d53204e414947524f45473b4e3b3b3b3b3b4c3b303b6f4c3b4e455a2052455454454c204e414947524f45473b36443031,
0x3b3b3b3b4e41542052455454454c204c4c414d53204e414947524f45473b4e3b3b3b3b3b4c3b303b6f4c3b4e41542052455454454c204e414947524f45473b37443031,
0x3b3b3b3b4e492052455454454c204c4c414d53204e414947524f45473b4e3b3b3b3b3b4c3b303b6f4c3b4e492052455454454c204e414947524f45473b38443031,
0x3b3b3b3b4e414b2052455454454c204c4c414d53204e414947524f45473b4e3b3b3b3b3b4c3b303b6f4c3b4e414b2052455454454c204e414947524f45473b39443031,
0x3b3b3b3b53414c2052455454454c204c4c414d53204e414947524f45473b4e3b3b3b3b3b4c3b303b6f4c3b53414c2052455454454c204e414947524f45473b41443031,
0x3b3b3b3b4e414d2052455454454c204c4c414d53204e414947524f45473b4e3b3b3b3b3b4c3b303b6f4c3b4e414d2052455454454c204e414947524f45473b42443031,
0x3b3b3b3b52414e2052455454454c204c4c414d53204e414947524f45473b4e3b3b3b3b3b4c3b303b6f4c3b52414e2052455454454c204e414947524f45473b43443031,
0x3b3b3b3b4e4f2052455454454c204c4c414d53204e414947524f45473b4e3b3b3b3b3b4c3b303b6f4c3b4e4f2052455454454c204e414947524f45473b44443031,
0x3b3b3b3b5241502052455454454c204c4c414d53204e414947524f45473b4e3b3b3b3b3b4c3b303b6f4c3b5241502052455454454c204e414947524f45473b45443031,
0x3b3b3b3b5241485a2052455454454c204c4c414d53204e414947524f45473b4e3b3b3b3b3b4c3b303b6f4c3b5241485a2052455454454c204e414947524f45473b46443031,
0x3b3b3b3b4541522052455454454c204c4c414d53204e414947524f45473b4e3b3b3b3b3b4c3b303b6f4c3b4541522052455454454c204e414947524f45473b30453031,
0x3b3b3b3b4e41532052455454454c204c4c414d53204e414947524f45473b4e3b3b3b3b3b4c3b303b6f4c3b4e41532052455454454c204e414947524f45473b31453031,
0x3b3b3b3b5241542052455454454c204c4c414d53204e414947524f45473b4e3b3b3b3b3b4c3b303b6f4c3b5241542052455454454c204e414947524f45473b32453031,
0x3b3b3b3b4e552052455454454c204c4c414d53204e414947524f45473b4e3b3b3b3b3b4c3b303b6f4c3b4e552052455454454c204e414947524f45473b33453031,
0x3b3b3b3b524148502052455454454c204c4c414d53204e414947524f45473b4e3b3b3b3b3b4c3b303b6f4c3b524148502052455454454c204e414947524f45473b34453031,
0x3b3b3b3b5241484b2052455454454c204c4c414d53204e414947524f45473b4e3b3b3b3b3b4c3b303b6f4c3b5241484b2052455454454c204e414947524f45473b35453031,
0x3b3b3b3b4e4148472052455454454c204c4c414d53204e414947524f45473b4e3b3b3b3b3b4c3b303b6f4c3b4e4148472052455454454c204e414947524f45473b36453031,
0x3b3b3b3b5241512052455454454c204c4c414d53204e414947524f45473b4e3b3b3b3b3b4c3b303b6f4c3b5241512052455454454c204e414947524f45473b37453031,
0x3b3b3b3b4e4948532052455454454c204c4c414d53204e414947524f45473b4e3b3b3b3b3b4c3b303b6f4c3b4e4948532052455454454c204e414947524f45473b38453031,
0x3b3b3b3b4e4948432052455454454c204c4c414d53204e414947524f45473b4e3b3b3b3b3b4c3b303b6f4c3b4e4948432052455454454c204e414947524f45473b39453031,
0x3b3b3b3b4e41432052455454454c204c4c414d53204e414947524f45473b4e3b3b3b3b3b4c3b303b6f4c3b4e41432052455454454c204e414947524f45473b41453031,
0x3b3b3b3b4c494a2052455454454c204c4c414d53204e414947524f45473b4e3b3b3b3b3b4c3b303b6f4c3b4c494a2052455454454c204e414947524f45473b42453031,
0x3b3b3b3b4c49432052455454454c204c4c414d53204e414947524f45473b4e3b3b3b3b3b4c3b303b6f4c3b4c49432052455454454c204e414947524f45473b43453031,
0x3b3b3b3b524148432052455454454c204c4c414d53204e414947524f45473b4e3b3b3b3b3b4c3b303b6f4c3b524148432052455454454c204e414947524f45473b44453031,
0x3b3b3b3b4e41582052455454454c204c4c414d53204e414947524f45473b4e3b3b3b3b3b4c3b303b6f4c3b4e41582052455454454c204e414947524f45473b45453031,
0x3b3b3b3b4e41484a2052455454454c204c4c414d53204e414947524f45473b4e3b3b3b3b3b4c3b303b6f4c3b4e41484a2052455454454c204e414947524f45473b46453031,
0x3b3b3b3b4541482052455454454c204c4c414d53204e414947524f45473b4e3b3b3b3b3b4c3b303b6f4c3b4541482052455454454c204e414947524f45473b30463031,
0x3b3b3b3b45482052455454454c204c4c414d53204e414947524f45473b4e3b3b3b3b3b4c3b303b6f4c3b45482052455454454c204e414947524f45473b31463031,
0x3b3b3b3b4549482052455454454c204c4c414d53204e414947524f45473b4e3b3b3b3b3b4c3b303b6f4c3b4549482052455454454c204e414947524f45473b32463031,
0x3b3b3b3b45572052455454454c204c4c414d53204e414947524f45473b4e3b3b3b3b3b4c3b303b6f4c3b45572052455454454c204e414947524f45473b33463031,
0x3b3b3b3b5241482052455454454c204c4c414d53204e414947524f45473b4e3b3b3b3b3b4c3b303b6f4c3b5241482052455454454c204e414947524f45473b34463031,
0x3b3b3b3b454f482052455454454c204c4c414d53204e414947524f45473b4e3b3b3b3b3b4c3b303b6f4c3b454f482052455454454c204e414947524f45473b35463031,
0x3b3b3b3b49462052455454454c204c4c414d53204e414947524f45473b4e3b3b3b3b3b4c3b303b6f4c3b49462052455454454c204e414947524f45473b36463031,
0x3b3b3b3b3b4e3b3b3b3b3b4c3b303b6f4c3b4e592052455454454c204e414947524f45473b37463031,
0x3b3b3b3b3b4e3b3b3b3b3b4c3b303b6f4c3b4946494c452052455454454c204e414947524f45473b38463031,
0x3b3b3b3b3b4e3b3b3b3b3b4c3b303b6f4c3b4e41472044454e5255542052455454454c204e414947524f45473b39463031,
0x3b3b3b3b3b4e3b3b3b3b3b4c3b303b6f4c3b4e49412052455454454c204e414947524f45473b41463031,
0x3b3b3b3b3b4e3b3b3b3b3b4c3b303b6f503b524f5441524150455320485041524741524150204e414947524f45473b42463031,
0x3b3b3b3b3b4e3b3b3b3b43443031203e72657075733c3b4c3b303b6d4c3b52414e204e414947524f45472052455454454c205245494649444f4d3b43463031,
0x3b3b3b3b3b4e3b3b3b3b3b4c3b303b6f4c3b4e45412052455454454c204e414947524f45473b44463031,
0x3b3b3b3b3b4e3b3b3b3b3b4c3b303b6f4c3b4e47495320445241482052455454454c204e414947524f45473b45463031,
0x3b3b3b3b3b4e3b3b3b3b3b4c3b303b6f4c3b4e474953204c414942414c2052455454454c204e414947524f45473b46463031,
0x3b3b3b3b3b4e3b3b3b3b3b4c3b303b6f4c3b4b4f4559494b20474e4f45534f4843204c55474e41483b30303131,
0x3b3b3b3b3b4e3b3b3b3b3b4c3b303b6f4c3b4b4f4559494b474e41535320474e4f45534f4843204c55474e41483b31303131,
0x3b3b3b3b3b4e3b3b3b3b3b4c3b303b6f4c3b4e5545494e20474e4f45534f4843204c55474e41483b32303131,
0x3b3b3b3b3b4e3b3b3b3b3b4c3b303b6f4c3b5455454b495420474e4f45534f4843204c55474e41483b33303131,
0x3b3b3b3b3b4e3b3b3b3b3b4c3b303b6f4c3b5455454b4954474e41535320474e4f45534f4843204c55474e41483b34303131,
0x3b3b3b3b3b4e3b3b3b3b3b4c3b303b6f4c3b4c5545495220474e4f45534f4843204c55474e41483b35303131,
0x3b3b3b3b3b4e3b3b3b3b3b4c3b303b6f4c3b4d5545494d20474e4f45534f4843204c55474e41483b36303131,
0x3b3b3b3b3b4e3b3b3b3b3b4c3b303b6f4c3b505545495020474e4f45534f4843204c55474e41483b37303131,
0x3b3b3b3b3b4e3b3b3b3b3b4c3b303b6f4c3b5055454950474e41535320474e4f45534f4843204c55474e41483b38303131,
0x3b3b3b3b3b4e3b3b3b3b3b4c3b303b6f4c3b534f495320474e4f45534f4843204c55474e41483b39303131,
0x3b3b3b3b3b4e3b3b3b3b3b4c3b303b6f4c3b534f4953474e41535320474e4f45534f4843204c55474e41483b41303131,
0x3b3b3b3b3b4e3b3b3b3b3b4c3b303b6f4c3b474e55454920474e4f45534f4843204c55474e41483b42303131,
0x3b3b3b3b3b4e3b3b3b3b3b4c3b303b6f4c3b435545494320474e4f45534f4843204c55474e41483b43303131,
0x3b3b3b3b3b4e3b3b3b3b3b4c3b303b6f4c3b4355454943474e41535320474e4f45534f4843204c55474e41483b44303131,
0x3b3b3b3b3b4e3b3b3b3b3b4c3b303b6f4c3b4843554549484320474e4f45534f4843204c55474e41483b45303131,
0x3b3b3b3b3b4e3b3b3b3b3b4c3b303b6f4c3b484b554549484b20474e4f45534f4843204c55474e41483b46303131,
0x3b3b3b3b3b4e3b3b3b3b3b4c3b303b6f4c3b4854554549485420474e4f45534f4843204c55474e41483b30313131,
0x3b3b3b3b3b4e3b3b3b3b3b4c3b303b6f4c3b4850554549485020474e4f45534f4843204c55474e41483b31313131,
0x3b3b3b3b3b4e3b3b3b3b3b4c3b303b6f4c3b485545494820474e4f45534f4843204c55474e41483b32313131,
0x3b3b3b3b3b4e3b3b3b3b3b4c3b303b6f4c3b4b4f4559494b2d4e5545494e20474e4f45534f4843204c55474e41483b33313131,
0x3b3b3b3b3b4e3b3b3b3b3b4c3b303b6f4c3b4e5545494e474e41535320474e4f45534f4843204c55474e41483b34313131,
0x3b3b3b3b3b4e3b3b3b3b3b4c3b303b6f4c3b5455454b49542d4e5545494e20474e4f45534f4843204c55474e41483b35313131,
0x3b3b3b3b3b4e3b3b3b3b3b4c3b303b6f4c3b50554549502d4e5545494e20474e4f45534f4843204c55474e41483b36313131,
0x3b3b3b3b3b4e3b3b3b3b3b4c3b303b6f4c3b4b4f4559494b2d5455454b495420474e4f45534f4843204c55474e41483b37313131,
0x3b3b3b3b3b4e3b3b3b3b3b4c3b303b6f4c3b4e5545494e2d4c5545495220474e4f45534f4843204c55474e41483b38313131,
0x3b3b3b3b3b4e3b3b3b3b3b4c3b303b6f4c3b4c55454952474e41535320474e4f45534f4843204c55474e41483b39313131,
0x3b3b3b3b3b4e3b3b3b3b3b4c3b303b6f4c3b48554549482d4c5545495220474e4f45534f4843204c55474e41483b41313131,
0x3b3b3b3b3b4e3b3b3b3b3b4c3b303b6f4c3b4c554549524e554f455950414b20474e4f45534f4843204c55474e41483b42313131,
0x3b3b3b3b3b4e3b3b3b3b3b4c3b303b6f4c3b50554549502d4d5545494d20474e4f45534f4843204c55474e41483b43313131,
0x3b3b3b3b3b4e3b3b3b3b3b4c3b303b6f4c3b4d5545494d4e554f455950414b20474e4f45534f4843204c55474e41483b44313131,
0x3b3b3b3b3b4e3b3b3b3b3b4c3b303b6f4c3b4b4f4559494b2d505545495020474e4f45534f4843204c55474e41483b45313131,
0x3b3b3b3b3b4e3b3b3b3b3b4c3b303b6f4c3b4e5545494e2d505545495020474e4f45534f4843204c55474e41483b46313131,
0x3b3b3b3b3b4e3b3b3b3b3b4c3b303b6f4c3b5455454b49542d505545495020474e4f45534f4843204c55474e41483b30323131,
0x3b3b3b3b3b4e3b3b3b3b3b4c3b303b6f4c3b534f49532d505545495020474e4f45534f4843204c55474e41483b31323131,
0x3b3b3b3b3b4e3b3b3b3b3b4c3b303b6f4c3b4b4f4559494b2d534f49532d505545495020474e4f45534f4843204c55474e41483b32323131,
0x3b3b3b3b3b4e3b3b3b3b3b4c3b303b6f4c3b5455454b49542d534f49532d505545495020474e4f45534f4843204c55474e41483b33323131,
0x3b3b3b3b3b4e3b3b3b3b3b4c3b303b6f4c3b50554549502d534f49532d505545495020474e4f45534f4843204c55474e41483b34323131,
0x3b3b3b3b3b4e3b3b3b3b3b4c3b303b6f4c3b534f4953474e4153532d505545495020474e4f45534f4843204c55474e41483b35323131,
0x3b3b3b3b3b4e3b3b3b3b3b4c3b303b6f4c3b43554549432d534f49532d505545495020474e4f45534f4843204c55474e41483b36323131,
0x3b3b3b3b3b4e3b3b3b3b3b4c3b303b6f4c3b43554549432d505545495020474e4f45534f4843204c55474e41483b37323131,
0x3b3b3b3b3b4e3b3b3b3b3b4c3b303b6f4c3b484355454948432d505545495020474e4f45534f4843204c55474e41483b38323131,
0x3b3b3b3b3b4e3b3b3b3b3b4c3b303b6f4c3b485455454948542d505545495020474e4f45534f4843204c55474e41483b39323131,
0x3b3b3b3b3b4e3b3b3b3b3b4c3b303b6f4c3b485055454948502d505545495020474e4f45534f4843204c55474e41483b41323131,
0x3b3b3b3b3b4e3b3b3b3b3b4c3b303b6f4c3b50554549504e554f455950414b20474e4f45534f4843204c55474e41483b42323131,
0x3b3b3b3b3b4e3b3b3b3b3b4c3b303b6f4c3b5055454950474e4153534e554f455950414b20474e4f45534f4843204c55474e41483b43323131,
0x3b3b3b3b3b4e3b3b3b3b3b4c3b303b6f4c3b4b4f4559494b2d534f495320474e4f45534f4843204c55474e41483b44323131,
0x3b3b3b3b3b4e3b3b3b3b3b4c3b303b6f4c3b4e5545494e2d534f495320474e4f45534f4843204c55474e41483b45323131,
0x3b3b3b3b3b4e3b3b3b3b3b4c3b303b6f4c3b5455454b49542d534f495320474e4f45534f4843204c55474e41483b46323131,
0x3b3b3b3b3b4e3b3b3b3b3b4c3b303b6f4c3b4c554549522d534f495320474e4f45534f4843204c55474e41483b30333131,
0x3b3b3b3b3b4e3b3b3b3b3b4c3b303b6f4c3b4d5545494d2d534f495320474e4f45534f4843204c55474e41483b31333131,
0x3b3b3b3b3b4e3b3b3b3b3b4c3b303b6f4c3b50554549502d534f495320474e4f45534f4843204c55474e41483b32333131,
0x3b3b3b3b3b4e3b3b3b3b3b4c3b303b6f4c3b4b4f4559494b2d50554549502d534f495320474e4f45534f4843204c55474e41483b33333131,
0x3b3b3b3b3b4e3b3b3b3b3b4c3b303b6f4c3b534f4953474e4153532d534f495320474e4f45534f4843204c55474e41483b34333131,
0x3b3b3b3b3b4e3b3b3b3b3b4c3b303b6f4c3b474e5545492d534f495320474e4f45534f4843204c55474e41483b35333131,
0x3b3b3b3b3b4e3b3b3b3b3b4c3b303b6f4c3b43554549432d534f495320474e4f45534f4843204c55474e41483b36333131,
0x3b3b3b3b3b4e3b3b3b3b3b4c3b303b6f4c3b484355454948432d534f495320474e4f45534f4843204c55474e41483b37333131,
0x3b3b3b3b3b4e3b3b3b3b3b4c3b303b6f4c3b484b554549484b2d534f495320474e4f45534f4843204c55474e41483b38333131,
0x3b3b3b3b3b4e3b3b3b3b3b4c3b303b6f4c3b485455454948542d534f495320474e4f45534f4843204c55474e41483b39333131,
0x3b3b3b3b3b4e3b3b3b3b3b4c3b303b6f4c3b485055454948502d534f495320474e4f45534f4843204c55474e41483b41333131,
0x3b3b3b3b3b4e3b3b3b3b3b4c3b303b6f4c3b48554549482d534f495320474e4f45534f4843204c55474e41483b42333131,
0x3b3b3b3b3b4e3b3b3b3b3b4c3b303b6f4c3b534f49534d5545555449484320474e4f45534f4843204c55474e41483b43333131,
0x3b3b3b3b3b4e3b3b3b3b3b4c3b303b6f4c3b534f4953474e4153534d5545555449484320474e4f45534f4843204c55474e41483b44333131,
0x3b3b3b3b3b4e3b3b3b3b3b4c3b303b6f4c3b534f49534d5545494843474e4f454320474e4f45534f4843204c55474e41483b45333131,
0x3b3b3b3b3b4e3b3b3b3b3b4c3b303b6f4c3b534f4953474e4153534d5545494843474e4f454320474e4f45534f4843204c55474e41483b46333131,
0x3b3b3b3b3b4e3b3b3b3b3b4c3b303b6f4c3b534f49534e415020474e4f45534f4843204c55474e41483b30343131,
0x3b3b3b3b3b4e3b3b3b3b3b4c3b303b6f4c3b4b4f4559494b2d474e55454920474e4f45534f4843204c55474e41483b31343131,
0x3b3b3b3b3b4e3b3b3b3b3b4c3b303b6f4c3b5455454b49542d474e55454920474e4f45534f4843204c55474e41483b32343131,
0x3b3b3b3b3b4e3b3b3b3b3b4c3b303b6f4c3b4d5545494d2d474e55454920474e4f45534f4843204c55474e41483b33343131,
0x3b3b3b3b3b4e3b3b3b3b3b4c3b303b6f4c3b50554549502d474e55454920474e4f45534f4843204c55474e41483b34343131,
0x3b3b3b3b3b4e3b3b3b3b3b4c3b303b6f4c3b534f49532d474e55454920474e4f45534f4843204c55474e41483b35343131,
0x3b3b3b3b3b4e3b3b3b3b3b4c3b303b6f4c3b534f49534e41502d474e55454920474e4f45534f4843204c55474e41483b36343131,
0x3b3b3b3b3b4e3b3b3b3b3b4c3b303b6f4c3b474e554549474e41535320474e4f45534f4843204c55474e41483b37343131,
0x3b3b3b3b3b4e3b3b3b3b3b4c3b303b6f4c3b43554549432d474e55454920474e4f45534f4843204c55474e41483b38343131,
0x3b3b3b3b3b4e3b3b3b3b3b4c3b303b6f4c3b484355454948432d474e55454920474e4f45534f4843204c55474e41483b39343131,
0x3b3b3b3b3b4e3b3b3b3b3b4c3b303b6f4c3b485455454948542d474e55454920474e4f45534f4843204c55474e41483b41343131,
0x3b3b3b3b3b4e3b3b3b3b3b4c3b303b6f4c3b485055454948502d474e55454920474e4f45534f4843204c55474e41483b42343131,
0x3b3b3b3b3b4e3b3b3b3b3b4c3b303b6f4c3b474e55454953455920474e4f45534f4843204c55474e41483b43343131,
0x3b3b3b3b3b4e3b3b3b3b3b4c3b303b6f4c3b474e5545492d435545494320474e4f45534f4843204c55474e41483b44343131,
0x3b3b3b3b3b4e3b3b3b3b3b4c3b303b6f4c3b43554549434d5545555449484320474e4f45534f4843204c55474e41483b45343131,
0x3b3b3b3b3b4e3b3b3b3b3b4c3b303b6f4c3b4355454943474e4153534d5545555449484320474e4f45534f4843204c55474e41483b46343131,
0x3b3b3b3b3b4e3b3b3b3b3b4c3b303b6f4c3b43554549434d5545494843474e4f454320474e4f45534f4843204c55474e41483b30353131,
0x3b3b3b3b3b4e3b3b3b3b3b4c3b303b6f4c3b4355454943474e4153534d5545494843474e4f454320474e4f45534f4843204c55474e41483b31353131,
0x3b3b3b3b3b4e3b3b3b3b3b4c3b303b6f4c3b484b554549484b2d4843554549484320474e4f45534f4843204c55474e41483b32353131,
0x3b3b3b3b3b4e3b3b3b3b3b4c3b303b6f4c3b48554549482d4843554549484320474e4f45534f4843204c55474e41483b33353131,
0x3b3b3b3b3b4e3b3b3b3b3b4c3b303b6f4c3b484355454948434d5545555449484320474e4f45534f4843204c55474e41483b34353131,
0x3b3b3b3b3b4e3b3b3b3b3b4c3b303b6f4c3b484355454948434d5545494843474e4f454320474e4f45534f4843204c55474e41483b35353131,
0x3b3b3b3b3b4e3b3b3b3b3b4c3b303b6f4c3b50554549502d4850554549485020474e4f45534f4843204c55474e41483b36353131,
0x3b3b3b3b3b4e3b3b3b3b3b4c3b303b6f4c3b485055454948504e554f455950414b20474e4f45534f4843204c55474e41483b37353131,
0x3b3b3b3b3b4e3b3b3b3b3b4c3b303b6f4c3b4855454948474e41535320474e4f45534f4843204c55474e41483b38353131,
0x3b3b3b3b3b4e3b3b3b3b3b4c3b303b6f4c3b48554549484e49524f455920474e4f45534f4843204c55474e41483b39353131,
0x3b3b3b3b3b4e3b3b3b3b3b4c3b303b6f4c3b5455454b49542d4b4f4559494b20474e4f45534f4843204c55474e41483b41353131,
0x3b3b3b3b3b4e3b3b3b3b3b4c3b303b6f4c3b534f49532d4e5545494e20474e4f45534f4843204c55474e41483b42353131,
0x3b3b3b3b3b4e3b3b3b3b3b4c3b303b6f4c3b43554549432d4e5545494e20474e4f45534f4843204c55474e41483b43353131,
0x3b3b3b3b3b4e3b3b3b3b3b4c3b303b6f4c3b48554549482d4e5545494e20474e4f45534f4843204c55474e41483b44353131,
0x3b3b3b3b3b4e3b3b3b3b3b4c3b303b6f4c3b4c554549522d5455454b495420474e4f45534f4843204c55474e41483b45353131,
0x3b3b3b3b3b4e3b3b3b3b3b4c3b303b6f4c3b52454c4c494620474e4f45534f4843204c55474e41483b46353131,
0x3b3b3b3b3b4e3b3b3b3b3b4c3b303b6f4c3b52454c4c494620474e4f4553474e554a204c55474e41483b30363131,
0x3b3b3b3b3b4e3b3b3b3b3b4c3b303b6f4c3b4120474e4f4553474e554a204c55474e41483b31363131,
0x3b3b3b3b3b4e3b3b3b3b3b4c3b303b6f4c3b454120474e4f4553474e554a204c55474e41483b32363131,
0x3b3b3b3b3b4e3b3b3b3b3b4c3b303b6f4c3b415920474e4f4553474e554a204c55474e41483b33363131,
0x3b3b3b3b3b4e3b3b3b3b3b4c3b303b6f4c3b45415920474e4f4553474e554a204c55474e41483b34363131,
0x3b3b3b3b3b4e3b3b3b3b3b4c3b303b6f4c3b4f4520474e4f4553474e554a204c55474e41483b35363131,
0x3b3b3b3b3b4e3b3b3b3b3b4c3b303b6f4c3b4520474e4f4553474e554a204c55474e41483b36363131,
0x3b3b3b3b3b4e3b3b3b3b3b4c3b303b6f4c3b4f455920474e4f4553474e554a204c55474e41483b37363131,
0x3b3b3b3b3b4e3b3b3b3b3b4c3b303b6f4c3b455920474e4f4553474e554a204c55474e41483b38363131,
0x3b3b3b3b3b4e3b3b3b3b3b4c3b303b6f4c3b4f20474e4f4553474e554a204c55474e41483b39363131,
0x3b3b3b3b3b4e3b3b3b3b3b4c3b303b6f4c3b415720474e4f4553474e554a204c55474e41483b41363131,
0x3b3b3b3b3b4e3b3b3b3b3b4c3b303b6f4c3b45415720474e4f4553474e554a204c55474e41483b42363131,
0x3b3b3b3b3b4e3b3b3b3b3b4c3b303b6f4c3b454f20474e4f4553474e554a204c55474e41483b43363131,
0x3b3b3b3b3b4e3b3b3b3b3b4c3b303b6f4c3b4f5920474e4f4553474e554a204c55474e41483b44363131,
0x3b3b3b3b3b4e3b3b3b3b3b4c3b303b6f4c3b5520474e4f4553474e554a204c55474e41483b45363131,
0x3b3b3b3b3b4e3b3b3b3b3b4c3b303b6f4c3b4f455720474e4f4553474e554a204c55474e41483b46363131,
0x3b3b3b3b3b4e3b3b3b3b3b4c3b303b6f4c3b455720474e4f4553474e554a204c55474e41483b30373131,
0x3b3b3b3b3b4e3b3b3b3b3b4c3b303b6f4c3b495720474e4f4553474e554a204c55474e41483b31373131,
0x3b3b3b3b3b4e3b3b3b3b3b4c3b303b6f4c3b555920474e4f4553474e554a204c55474e41483b32373131,
0x3b3b3b3b3b4e3b3b3b3b3b4c3b303b6f4c3b554520474e4f4553474e554a204c55474e41483b33373131,
0x3b3b3b3b3b4e3b3b3b3b3b4c3b303b6f4c3b495920474e4f4553474e554a204c55474e41483b34373131,
0x3b3b3b3b3b4e3b3b3b3b3b4c3b303b6f4c3b4920474e4f4553474e554a204c55474e41483b35373131,
0x3b3b3b3b3b4e3b3b3b3b3b4c3b303b6f4c3b4f2d4120474e4f4553474e554a204c55474e41483b36373131,
0x3b3b3b3b3b4e3b3b3b3b3b4c3b303b6f4c3b552d4120474e4f4553474e554a204c55474e41483b37373131,
0x3b3b3b3b3b4e3b3b3b3b3b4c3b303b6f4c3b4f2d415920474e4f4553474e554a204c55474e41483b38373131,
0x3b3b3b3b3b4e3b3b3b3b3b4c3b303b6f4c3b4f592d415920474e4f4553474e554a204c55474e41483b39373131,
0x3b3b3b3b3b4e3b3b3b3b3b4c3b303b6f4c3b4f2d4f4520474e4f4553474e554a204c55474e41483b41373131,
0x3b3b3b3b3b4e3b3b3b3b3b4c3b303b6f4c3b552d4f4520474e4f4553474e554a204c55474e41483b42373131,
0x3b3b3b3b3b4e3b3b3b3b3b4c3b303b6f4c3b55452d4f4520474e4f4553474e554a204c55474e41483b43373131,
0x3b3b3b3b3b4e3b3b3b3b3b4c3b303b6f4c3b4f2d4f455920474e4f4553474e554a204c55474e41483b44373131,
0x3b3b3b3b3b4e3b3b3b3b3b4c3b303b6f4c3b552d4f455920474e4f4553474e554a204c55474e41483b45373131,
0x3b3b3b3b3b4e3b3b3b3b3b4c3b303b6f4c3b4f452d4f20474e4f4553474e554a204c55474e41483b46373131,
0x3b3b3b3b3b4e3b3b3b3b3b4c3b303b6f4c3b452d4f20474e4f4553474e554a204c55474e41483b30383131,
0x3b3b3b3b3b4e3b3b3b3b3b4c3b303b6f4c3b45592d4f20474e4f4553474e554a204c55474e41483b31383131,
0x3b3b3b3b3b4e3b3b3b3b3b4c3b303b6f4c3b4f2d4f20474e4f4553474e554a204c55474e41483b32383131,
0x3b3b3b3b3b4e3b3b3b3b3b4c3b303b6f4c3b552d4f20474e4f4553474e554a204c55474e41483b33383131,
0x3b3b3b3b3b4e3b3b3b3b3b4c3b303b6f4c3b41592d4f5920474e4f4553474e554a204c55474e41483b34383131,
0x3b3b3b3b3b4e3b3b3b3b3b4c3b303b6f4c3b4541592d4f5920474e4f4553474e554a204c55474e41483b35383131,
0x3b3b3b3b3b4e3b3b3b3b3b4c3b303b6f4c3b4f45592d4f5920474e4f4553474e554a204c55474e41483b36383131,
0x3b3b3b3b3b4e3b3b3b3b3b4c3b303b6f4c3b4f2d4f5920474e4f4553474e554a204c55474e41483b37383131,
0x3b3b3b3b3b4e3b3b3b3b3b4c3b303b6f4c3b492d4f5920474e4f4553474e554a204c55474e41483b38383131,
0x3b3b3b3b3b4e3b3b3b3b3b4c3b303b6f4c3b412d5520474e4f4553474e554a204c55474e41483b39383131,
0x3b3b3b3b3b4e3b3b3b3b3b4c3b303b6f4c3b45412d5520474e4f4553474e554a204c55474e41483b41383131,
0x3b3b3b3b3b4e3b3b3b3b3b4c3b303b6f4c3b55452d4f452d5520474e4f4553474e554a204c55474e41483b42383131,
0x3b3b3b3b3b4e3b3b3b3b3b4c3b303b6f4c3b45592d5520474e4f4553474e554a204c55474e41483b43383131,
0x3b3b3b3b3b4e3b3b3b3b3b4c3b303b6f4c3b552d5520474e4f4553474e554a204c55474e41483b44383131,
0x3b3b3b3b3b4e3b3b3b3b3b4c3b303b6f4c3b412d555920474e4f4553474e554a204c55474e41483b45383131,
0x3b3b3b3b3b4e3b3b3b3b3b4c3b303b6f4c3b4f452d555920474e4f4553474e554a204c55474e41483b46383131,
0x3b3b3b3b3b4e3b3b3b3b3b4c3b303b6f4c3b452d555920474e4f4553474e554a204c55474e41483b30393131]

end U5e.Data
