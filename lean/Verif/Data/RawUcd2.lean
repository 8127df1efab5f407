set_option maxRecDepth 10000
/-! GENERATED by tools/gen_raw.py: the octets of src/u5e/props/UnicodeData.txt, one number per line (little-endian). -/
namespace U5e.Data

/-- src/u5e/props/UnicodeData.txt lines 7681-7936. -/
def rawUcd30 : List Nat := [
0x3b3b3b3b3b4e3b3b3b3b3b4e4f3b303b6d533b4f495441523b36333232,
0x3b3b3b3b3b4e3b3b3b3b3b4e4f3b303b6d533b4e4f4954524f504f52503b37333232,
0x3b3b3b3b3b4e3b3b3b3b3b4e4f3b303b6d533b53554e494d20544f443b38333232,
0x3b3b3b3b3b593b3b3b3b3b4e4f3b303b6d533b5353454358453b39333232,
0x3b3b3b3b3b4e3b3b3b3b3b4e4f3b303b6d533b4e4f4954524f504f52502043495254454d4f45473b41333232,
0x3b3b3b3b3b593b3b3b3b3b4e4f3b303b6d533b4349544548544f4d4f483b42333232,
0x3b3b3b3b3b593b3b3b3b3b4e4f3b303b6d533b524f54415245504f2045444c49543b43333232,
0x3b3b3b3b3b593b3b3b3b3b4e4f3b303b6d533b45444c49542044455352455645523b44333232,
0x3b3b3b3b3b593b3b3b3b3b4e4f3b303b6d533b5320595a414c204445545245564e493b45333232,
0x3b3b3b3b3b593b3b3b3b3b4e4f3b303b6d533b4556415720454e49533b46333232,
0x3b3b3b3b3b593b3b3b3b3b4e4f3b303b6d533b544355444f5250204854414552573b30343232,
0x3b3b3b3b3b593b3b3b3b3833333020433332323b4e4f3b303b6d533b45444c495420544f4e3b31343232,
0x3b3b3b3b3b593b3b3b3b3b4e4f3b303b6d533b45444c49542053554e494d3b32343232,
0x3b3b3b3b3b593b3b3b3b3b4e4f3b303b6d533b4f54204c4155514520594c4c414349544f54504d5953413b33343232,
0x3b3b3b3b3b593b3b3b3b3833333020333432323b4e4f3b303b6d533b4f54204c4155514520594c4c414349544f54504d59534120544f4e3b34343232,
0x3b3b3b3b3b593b3b3b3b3b4e4f3b303b6d533b4f54204c4155514520594c4554414d49584f525050413b35343232,
0x3b3b3b3b3b593b3b3b3b3b4e4f3b303b6d533b4f54204c4155514520594c4c415554434120544f4e2054554220594c4554414d49584f525050413b36343232,
0x3b3b3b3b3b593b3b3b3b3833333020353432323b4e4f3b303b6d533b4f54204c4155514520594c4c415554434120524f4e20594c4554414d49584f52505041205245485449454e3b37343232,
0x3b3b3b3b3b593b3b3b3b3b4e4f3b303b6d533b4f54204c415551452054534f4d4c413b38343232,
0x3b3b3b3b3b593b3b3b3b3833333020383432323b4e4f3b303b6d533b4f54204c415551452054534f4d4c4120544f4e3b39343232,
0x3b3b3b3b3b593b3b3b3b3b4e4f3b303b6d533b4f54204c4155514520524f204c415551452054534f4d4c413b41343232,
0x3b3b3b3b3b593b3b3b3b3b4e4f3b303b6d533b45444c495420454c504952543b42343232,
0x3b3b3b3b3b593b3b3b3b3b4e4f3b303b6d533b4f54204c41555145204c4c413b43343232,
0x3b3b3b3b3b4e3b3b3b3b3b4e4f3b303b6d533b4f5420544e454c4156495551453b44343232,
0x3b3b3b3b3b4e3b3b3b3b3b4e4f3b303b6d533b4f5420544e454c41564955514520594c4c4143495254454d4f45473b45343232,
0x3b3b3b3b3b4e3b3b3b3b3b4e4f3b303b6d533b4e4545575445422045434e455245464649443b46343232,
0x3b3b3b3b3b4e3b3b3b3b3b4e4f3b303b6d533b54494d494c204548542053454843414f525050413b30353232,
0x3b3b3b3b3b4e3b3b3b3b3b4e4f3b303b6d533b4f54204c4155514520594c4c4143495254454d4f45473b31353232,
0x3b3b3b3b3b593b3b3b3b3b4e4f3b303b6d533b464f204547414d492045485420524f204f54204c4155514520594c4554414d49584f525050413b32353232,
0x3b3b3b3b3b593b3b3b3b3b4e4f3b303b6d533b4f54204c4155514520594c4554414d49584f5250504120524f20464f204547414d493b33353232,
0x3b3b3b3b4c41555145204e4f4c4f433b593b3b3b3b3b4e4f3b303b6d533b534c41555145204e4f4c4f433b34353232,
0x3b3b3b3b4e4f4c4f43204c415551453b593b3b3b3b3b4e4f3b303b6d533b4e4f4c4f4320534c415551453b35353232,
0x3b3b3b3b3b4e3b3b3b3b3b4e4f3b303b6d533b4f54204c41555145204e4920474e49523b36353232,
0x3b3b3b3b3b4e3b3b3b3b3b4e4f3b303b6d533b4f54204c4155514520474e49523b37353232,
0x3b3b3b3b3b4e3b3b3b3b3b4e4f3b303b6d533b4f542053444e4f50534552524f433b38353232,
0x3b3b3b3b3b4e3b3b3b3b3b4e4f3b303b6d533b534554414d495453453b39353232,
0x3b3b3b3b3b4e3b3b3b3b3b4e4f3b303b6d533b4f542052414c55474e41495551453b41353232,
0x3b3b3b3b3b4e3b3b3b3b3b4e4f3b303b6d533b534c4155514520524154533b42353232,
0x3b3b3b3b3b4e3b3b3b3b3b4e4f3b303b6d533b4f54204c415551452041544c45443b43353232,
0x3b3b3b3b3b4e3b3b3b3b3b4e4f3b303b6d533b4e4f4954494e49464544205942204f54204c415551453b44353232,
0x3b3b3b3b3b4e3b3b3b3b3b4e4f3b303b6d533b594220444552555341454d3b45353232,
0x3b3b3b3b3b593b3b3b3b3b4e4f3b303b6d533b4f54204c415551452044454e4f4954534555513b46353232,
0x3b3b3b3b3b593b3b3b3b3833333020443330303b4e4f3b303b6d533b4f54204c4155514520544f4e3b30363232,
0x3b3b3b3b3b4e3b3b3b3b3b4e4f3b303b6d533b4f54204c414349544e4544493b31363232,
0x3b3b3b3b3b593b3b3b3b3833333020313632323b4e4f3b303b6d533b4f54204c414349544e45444920544f4e3b32363232,
0x3b3b3b3b3b4e3b3b3b3b3b4e4f3b303b6d533b4f5420544e454c41564955514520594c5443495254533b33363232,
0x3b3b3b3b4f54204c4155514520524f204e414854205353454c3b593b3b3b3b3b4e4f3b303b6d533b4f54204c4155514520524f204e4148542d5353454c3b34363232,
0x3b3b3b3b4f54204c4155514520524f204e41485420524554414552473b593b3b3b3b3b4e4f3b303b6d533b4f54204c4155514520524f204e4148542d524554414552473b35363232,
0x3b3b3b3b4f54204c41555145205245564f204e414854205353454c3b593b3b3b3b3b4e4f3b303b6d533b4f54204c41555145205245564f204e4148542d5353454c3b36363232,
0x3b3b3b3b4f54204c41555145205245564f204e41485420524554414552473b593b3b3b3b3b4e4f3b303b6d533b4f54204c41555145205245564f204e4148542d524554414552473b37363232,
0x3b3b3b3b4f54204c4155514520544f4e20545542204e414854205353454c3b593b3b3b3b3b4e4f3b303b6d533b4f54204c4155514520544f4e20545542204e4148542d5353454c3b38363232,
0x3b3b3b3b4f54204c4155514520544f4e20545542204e41485420524554414552473b593b3b3b3b3b4e4f3b303b6d533b4f54204c4155514520544f4e20545542204e4148542d524554414552473b39363232,
0x3b3b3b3b4e414854205353454c204843554d3b593b3b3b3b3b4e4f3b303b6d533b4e4148542d5353454c204843554d3b41363232,
0x3b3b3b3b4e4148542052455441455247204843554d3b593b3b3b3b3b4e4f3b303b6d533b4e4148542d52455441455247204843554d3b42363232,
0x3b3b3b3b3b4e3b3b3b3b3b4e4f3b303b6d533b4e4545575445423b43363232,
0x3b3b3b3b3b4e3b3b3b3b3833333020443432323b4e4f3b303b6d533b4f5420544e454c41564955514520544f4e3b44363232,
0x3b3b3b3b4e414854205353454c20544f4e3b593b3b3b3b3833333020433330303b4e4f3b303b6d533b4e4148542d5353454c20544f4e3b45363232,
0x3b3b3b3b4e414854205245544145524720544f4e3b593b3b3b3b3833333020453330303b4e4f3b303b6d533b4e4148542d5245544145524720544f4e3b46363232,
0x3b3b3b3b4f54204c4155514520524f4e204e414854205353454c205245485449454e3b593b3b3b3b3833333020343632323b4e4f3b303b6d533b4f54204c4155514520524f4e204e4148542d5353454c205245485449454e3b30373232,
0x3b3b3b3b4f54204c4155514520524f4e204e4148542052455441455247205245485449454e3b593b3b3b3b3833333020353632323b4e4f3b303b6d533b4f54204c4155514520524f4e204e4148542d52455441455247205245485449454e3b31373232,
0x3b3b3b3b4f5420544e454c41564955514520524f204e414854205353454c3b593b3b3b3b3b4e4f3b303b6d533b4f5420544e454c41564955514520524f204e4148542d5353454c3b32373232,
0x3b3b3b3b4f5420544e454c41564955514520524f204e41485420524554414552473b593b3b3b3b3b4e4f3b303b6d533b4f5420544e454c41564955514520524f204e4148542d524554414552473b33373232,
0x3b3b3b3b4f5420544e454c41564955514520524f4e204e414854205353454c205245485449454e3b593b3b3b3b3833333020323732323b4e4f3b303b6d533b4f5420544e454c41564955514520524f4e204e4148542d5353454c205245485449454e3b34373232,
0x3b3b3b3b4f5420544e454c41564955514520524f4e204e4148542052455441455247205245485449454e3b593b3b3b3b3833333020333732323b4e4f3b303b6d533b4f5420544e454c41564955514520524f4e204e4148542d52455441455247205245485449454e3b35373232,
0x3b3b3b3b4e414854205245544145524720524f204e414854205353454c3b593b3b3b3b3b4e4f3b303b6d533b4e4148542d5245544145524720524f204e4148542d5353454c3b36373232,
0x3b3b3b3b4e414854205353454c20524f204e41485420524554414552473b593b3b3b3b3b4e4f3b303b6d533b4e4148542d5353454c20524f204e4148542d524554414552473b37373232,
0x3b3b3b3b4e414854205245544145524720524f4e204e414854205353454c205245485449454e3b593b3b3b3b3833333020363732323b4e4f3b303b6d533b4e4148542d5245544145524720524f4e204e4148542d5353454c205245485449454e3b38373232,
0x3b3b3b3b4e414854205353454c20524f4e204e4148542052455441455247205245485449454e3b593b3b3b3b3833333020373732323b4e4f3b303b6d533b4e4148542d5353454c20524f4e204e4148542d52455441455247205245485449454e3b39373232,
0x3b3b3b3b3b593b3b3b3b3b4e4f3b303b6d533b53454445434552503b41373232,
0x3b3b3b3b3b593b3b3b3b3b4e4f3b303b6d533b53444545434355533b42373232,
0x3b3b3b3b3b593b3b3b3b3b4e4f3b303b6d533b4f54204c4155514520524f2053454445434552503b43373232,
0x3b3b3b3b3b593b3b3b3b3b4e4f3b303b6d533b4f54204c4155514520524f2053444545434355533b44373232,
0x3b3b3b3b3b593b3b3b3b3b4e4f3b303b6d533b4f5420544e454c41564955514520524f2053454445434552503b45373232,
0x3b3b3b3b3b593b3b3b3b3b4e4f3b303b6d533b4f5420544e454c41564955514520524f2053444545434355533b46373232,
0x3b3b3b3b3b593b3b3b3b3833333020413732323b4e4f3b303b6d533b4544454345525020544f4e2053454f443b30383232,
0x3b3b3b3b3b593b3b3b3b3833333020423732323b4e4f3b303b6d533b4445454343555320544f4e2053454f443b31383232,
0x3b3b3b3b3b593b3b3b3b3b4e4f3b303b6d533b464f205445534255533b32383232,
0x3b3b3b3b3b593b3b3b3b3b4e4f3b303b6d533b464f2054455352455055533b33383232,
0x3b3b3b3b3b593b3b3b3b3833333020323832323b4e4f3b303b6d533b464f20544553425553204120544f4e3b34383232,
0x3b3b3b3b3b593b3b3b3b3833333020333832323b4e4f3b303b6d533b464f205445535245505553204120544f4e3b35383232,
0x3b3b3b3b3b593b3b3b3b3b4e4f3b303b6d533b4f54204c4155514520524f20464f205445534255533b36383232,
0x3b3b3b3b3b593b3b3b3b3b4e4f3b303b6d533b4f54204c4155514520524f20464f2054455352455055533b37383232,
0x3b3b3b3b3b593b3b3b3b3833333020363832323b4e4f3b303b6d533b4f54204c4155514520524f4e20464f205445534255532041205245485449454e3b38383232,
0x3b3b3b3b3b593b3b3b3b3833333020373832323b4e4f3b303b6d533b4f54204c4155514520524f4e20464f2054455352455055532041205245485449454e3b39383232,
0x3b3b3b3b4f54204c4155514520544f4e20524f20464f205445534255533b593b3b3b3b3b4e4f3b303b6d533b4f54204c4155514520544f4e204854495720464f205445534255533b41383232,
0x3b3b3b3b4f54204c4155514520544f4e20524f20464f2054455352455055533b593b3b3b3b3b4e4f3b303b6d533b4f54204c4155514520544f4e204854495720464f2054455352455055533b42383232,
0x3b3b3b3b3b593b3b3b3b3b4e4f3b303b6d533b54455349544c554d3b43383232,
0x3b3b3b3b3b4e3b3b3b3b3b4e4f3b303b6d533b4e4f49544143494c5049544c554d2054455349544c554d3b44383232,
0x3b3b3b3b3b4e3b3b3b3b3b4e4f3b303b6d533b4e4f494e552054455349544c554d3b45383232,
0x3b3b3b3b3b593b3b3b3b3b4e4f3b303b6d533b464f204547414d49204552415551533b46383232,
0x3b3b3b3b3b593b3b3b3b3b4e4f3b303b6d533b464f204c414e494749524f204552415551533b30393232,
0x3b3b3b3b3b593b3b3b3b3b4e4f3b303b6d533b4f54204c4155514520524f20464f204547414d49204552415551533b31393232,
0x3b3b3b3b3b593b3b3b3b3b4e4f3b303b6d533b4f54204c4155514520524f20464f204c414e494749524f204552415551533b32393232,
0x3b3b3b3b3b4e3b3b3b3b3b4e4f3b303b6d533b504143204552415551533b33393232,
0x3b3b3b3b3b4e3b3b3b3b3b4e4f3b303b6d533b505543204552415551533b34393232,
0x3b3b3b3b3b4e3b3b3b3b3b4e4f3b303b6d533b53554c502044454c435249433b35393232,
0x3b3b3b3b3b4e3b3b3b3b3b4e4f3b303b6d533b53554e494d2044454c435249433b36393232,
0x3b3b3b3b3b4e3b3b3b3b3b4e4f3b303b6d533b53454d49542044454c435249433b37393232,
0x3b3b3b3b3b593b3b3b3b3b4e4f3b303b6d533b4853414c53204e4f4953495649442044454c435249433b38393232,
0x3b3b3b3b3b4e3b3b3b3b3b4e4f3b303b6d533b524f54415245504f20544f442044454c435249433b39393232,
0x3b3b3b3b3b4e3b3b3b3b3b4e4f3b303b6d533b524f54415245504f20474e49522044454c435249433b41393232,
0x3b3b3b3b3b4e3b3b3b3b3b4e4f3b303b6d533b524f54415245504f204b534952455453412044454c435249433b42393232,
0x3b3b3b3b3b4e3b3b3b3b3b4e4f3b303b6d533b534c415551452044454c435249433b43393232,
0x3b3b3b3b3b4e3b3b3b3b3b4e4f3b303b6d533b485341442044454c435249433b44393232,
0x3b3b3b3b3b4e3b3b3b3b3b4e4f3b303b6d533b53554c5020444552415551533b45393232,
0x3b3b3b3b3b4e3b3b3b3b3b4e4f3b303b6d533b53554e494d20444552415551533b46393232,
0x3b3b3b3b3b4e3b3b3b3b3b4e4f3b303b6d533b53454d495420444552415551533b30413232,
0x3b3b3b3b3b4e3b3b3b3b3b4e4f3b303b6d533b524f54415245504f20544f4420444552415551533b31413232,
0x3b3b3b3b3b593b3b3b3b3b4e4f3b303b6d533b4b4341542054484749523b32413232,
0x3b3b3b3b3b593b3b3b3b3b4e4f3b303b6d533b4b434154205446454c3b33413232,
0x3b3b3b3b3b4e3b3b3b3b3b4e4f3b303b6d533b4b434154204e574f443b34413232,
0x3b3b3b3b3b4e3b3b3b3b3b4e4f3b303b6d533b4b4341542050553b35413232,
0x3b3b3b3b3b593b3b3b3b3b4e4f3b303b6d533b4e4f495452455353413b36413232,
0x3b3b3b3b3b593b3b3b3b3b4e4f3b303b6d533b534c45444f4d3b37413232,
0x3b3b3b3b3b593b3b3b3b3b4e4f3b303b6d533b455552543b38413232,
0x3b3b3b3b3b593b3b3b3b3b4e4f3b303b6d533b534543524f463b39413232,
0x3b3b3b3b3b593b3b3b3b3b4e4f3b303b6d533b454c4954534e52555420544847495220524142204c4143495452455620454c504952543b41413232,
0x3b3b3b3b3b593b3b3b3b3b4e4f3b303b6d533b454c4954534e52555420544847495220454c42554f4420524142204c4143495452455620454c42554f443b42413232,
0x3b3b3b3b3b593b3b3b3b3833333020324132323b4e4f3b303b6d533b45564f525020544f4e2053454f443b43413232,
0x3b3b3b3b3b593b3b3b3b3833333020384132323b4e4f3b303b6d533b4555525420544f4e3b44413232,
0x3b3b3b3b3b593b3b3b3b3833333020394132323b4e4f3b303b6d533b4543524f4620544f4e2053454f443b45413232,
0x3b3b3b3b3b593b3b3b3b3833333020424132323b4e4f3b303b6d533b454c4954534e52555420544847495220454c42554f4420524142204c4143495452455620454c42554f44204445544147454e3b46413232,
0x3b3b3b3b3b593b3b3b3b3b4e4f3b303b6d533b4e4f4954414c4552205245444e552053454445434552503b30423232,
0x3b3b3b3b3b593b3b3b3b3b4e4f3b303b6d533b4e4f4954414c4552205245444e552053444545434355533b31423232,
0x3b3b3b3b3b593b3b3b3b3b4e4f3b303b6d533b464f2050554f5247425553204c414d524f4e3b32423232,
0x3b3b3b3b3b593b3b3b3b3b4e4f3b303b6d533b50554f5247425553204c414d524f4e20534120534e4941544e4f433b33423232,
0x3b3b3b3b3b593b3b3b3b3b4e4f3b303b6d533b4f54204c4155514520524f20464f2050554f5247425553204c414d524f4e3b34423232,
0x3b3b3b3b3b593b3b3b3b3b4e4f3b303b6d533b4f54204c4155514520524f2050554f5247425553204c414d524f4e20534120534e4941544e4f433b35423232,
0x3b3b3b3b3b593b3b3b3b3b4e4f3b303b6d533b464f204c414e494749524f3b36423232,
0x3b3b3b3b3b593b3b3b3b3b4e4f3b303b6d533b464f204547414d493b37423232,
0x3b3b3b3b3b593b3b3b3b3b4e4f3b303b6d533b50414d49544c554d3b38423232,
0x3b3b3b3b3b4e3b3b3b3b3b4e4f3b303b6d533b58495254414d2045544147554a4e4f43204e414954494d5245483b39423232,
0x3b3b3b3b3b4e3b3b3b3b3b4e4f3b303b6d533b4554414c41435245544e493b41423232,
0x3b3b3b3b3b4e3b3b3b3b3b4e4f3b303b6d533b524f583b42423232,
0x3b3b3b3b3b4e3b3b3b3b3b4e4f3b303b6d533b444e414e3b43423232,
0x3b3b3b3b3b4e3b3b3b3b3b4e4f3b303b6d533b524f4e3b44423232,
0x3b3b3b3b3b593b3b3b3b3b4e4f3b303b6d533b435241204854495720454c474e412054484749523b45423232,
0x3b3b3b3b3b593b3b3b3b3b4e4f3b303b6d533b454c474e414952542054484749523b46423232,
0x3b3b3b3b3b4e3b3b3b3b3b4e4f3b303b6d533b444e41204c414349474f4c205952412d4e3b30433232,
0x3b3b3b3b3b4e3b3b3b3b3b4e4f3b303b6d533b524f204c414349474f4c205952412d4e3b31433232,
0x3b3b3b3b3b4e3b3b3b3b3b4e4f3b303b6d533b4e4f49544345535245544e49205952412d4e3b32433232,
0x3b3b3b3b3b4e3b3b3b3b3b4e4f3b303b6d533b4e4f494e55205952412d4e3b33433232,
0x3b3b3b3b3b4e3b3b3b3b3b4e4f3b303b6d533b524f54415245504f20444e4f4d4149443b34433232,
0x3b3b3b3b3b4e3b3b3b3b3b4e4f3b303b6d533b524f54415245504f20544f443b35433232,
0x3b3b3b3b3b4e3b3b3b3b3b4e4f3b303b6d533b524f54415245504f20524154533b36433232,
0x3b3b3b3b3b4e3b3b3b3b3b4e4f3b303b6d533b53454d4954204e4f4953495649443b37433232,
0x3b3b3b3b3b4e3b3b3b3b3b4e4f3b303b6d533b454954574f423b38433232,
0x3b3b3b3b3b593b3b3b3b3b4e4f3b303b6d533b544355444f525020544345524944494d455320524f54434146204c414d524f4e205446454c3b39433232,
0x3b3b3b3b3b593b3b3b3b3b4e4f3b303b6d533b544355444f525020544345524944494d455320524f54434146204c414d524f4e2054484749523b41433232,
0x3b3b3b3b3b593b3b3b3b3b4e4f3b303b6d533b544355444f525020544345524944494d4553205446454c3b42433232,
0x3b3b3b3b3b593b3b3b3b3b4e4f3b303b6d533b544355444f525020544345524944494d45532054484749523b43433232,
0x3b3b3b3b3b593b3b3b3b3b4e4f3b303b6d533b534c415551452045444c49542044455352455645523b44433232,
0x3b3b3b3b3b4e3b3b3b3b3b4e4f3b303b6d533b524f204c414349474f4c20594c5255433b45433232,
0x3b3b3b3b3b4e3b3b3b3b3b4e4f3b303b6d533b444e41204c414349474f4c20594c5255433b46433232,
0x3b3b3b3b3b593b3b3b3b3b4e4f3b303b6d533b54455342555320454c42554f443b30443232,
0x3b3b3b3b3b593b3b3b3b3b4e4f3b303b6d533b544553524550555320454c42554f443b31443232,
0x3b3b3b3b3b4e3b3b3b3b3b4e4f3b303b6d533b4e4f49544345535245544e4920454c42554f443b32443232,
0x3b3b3b3b3b4e3b3b3b3b3b4e4f3b303b6d533b4e4f494e5520454c42554f443b33443232,
0x3b3b3b3b3b4e3b3b3b3b3b4e4f3b303b6d533b4b524f4648435449503b34443232,
0x3b3b3b3b3b4e3b3b3b3b3b4e4f3b303b6d533b4f54204c454c4c4152415020444e41204c415551453b35443232,
0x3b3b3b3b544f442048544957204e414854205353454c3b593b3b3b3b3b4e4f3b303b6d533b544f442048544957204e4148542d5353454c3b36443232,
0x3b3b3b3b544f442048544957204e41485420524554414552473b593b3b3b3b3b4e4f3b303b6d533b544f442048544957204e4148542d524554414552473b37443232,
0x3b3b3b3b4e414854205353454c204843554d20595245563b593b3b3b3b3b4e4f3b303b6d533b4e4148542d5353454c204843554d20595245563b38443232,
0x3b3b3b3b4e4148542052455441455247204843554d20595245563b593b3b3b3b3b4e4f3b303b6d533b4e4148542d52455441455247204843554d20595245563b39443232,
0x3b3b3b3b4e414854205245544145524720524f204f54204c41555145204e414854205353454c3b593b3b3b3b3b4e4f3b303b6d533b4e4148542d5245544145524720524f204f54204c41555145204e4148542d5353454c3b41443232,
0x3b3b3b3b4e414854205353454c20524f204f54204c41555145204e41485420524554414552473b593b3b3b3b3b4e4f3b303b6d533b4e4148542d5353454c20524f204f54204c41555145204e4148542d524554414552473b42443232,
0x3b3b3b3b4e414854205353454c20524f204f54204c415551453b593b3b3b3b3b4e4f3b303b6d533b4e4148542d5353454c20524f204f54204c415551453b43443232,
0x3b3b3b3b4e414854205245544145524720524f204f54204c415551453b593b3b3b3b3b4e4f3b303b6d533b4e4148542d5245544145524720524f204f54204c415551453b44443232,
0x3b3b3b3b3b593b3b3b3b3b4e4f3b303b6d533b534544454345525020524f204f54204c415551453b45443232,
0x3b3b3b3b3b593b3b3b3b3b4e4f3b303b6d533b534445454343555320524f204f54204c415551453b46443232,
0x3b3b3b3b3b593b3b3b3b3833333020433732323b4e4f3b303b6d533b4c4155514520524f204544454345525020544f4e2053454f443b30453232,
0x3b3b3b3b3b593b3b3b3b3833333020443732323b4e4f3b303b6d533b4c4155514520524f204445454343555320544f4e2053454f443b31453232,
0x3b3b3b3b3b593b3b3b3b3833333020313932323b4e4f3b303b6d533b4f54204c4155514520524f20464f204547414d492045524155515320544f4e3b32453232,
0x3b3b3b3b3b593b3b3b3b3833333020323932323b4e4f3b303b6d533b4f54204c4155514520524f20464f204c414e494749524f2045524155515320544f4e3b33453232,
0x3b3b3b3b3b593b3b3b3b3b4e4f3b303b6d533b4f54204c4155514520544f4e20524f20464f204547414d49204552415551533b34453232,
0x3b3b3b3b3b593b3b3b3b3b4e4f3b303b6d533b4f54204c4155514520544f4e20524f20464f204c414e494749524f204552415551533b35453232,
0x3b3b3b3b4f5420544e454c41564955514520544f4e20545542204e414854205353454c3b593b3b3b3b3b4e4f3b303b6d533b4f5420544e454c41564955514520544f4e20545542204e4148542d5353454c3b36453232,
0x3b3b3b3b4f5420544e454c41564955514520544f4e20545542204e41485420524554414552473b593b3b3b3b3b4e4f3b303b6d533b4f5420544e454c41564955514520544f4e20545542204e4148542d524554414552473b37453232,
0x3b3b3b3b3b593b3b3b3b3b4e4f3b303b6d533b4f5420544e454c41564955514520544f4e205455422053454445434552503b38453232,
0x3b3b3b3b3b593b3b3b3b3b4e4f3b303b6d533b4f5420544e454c41564955514520544f4e205455422053444545434355533b39453232,
0x3b3b3b3b3b593b3b3b3b3833333020324232323b4e4f3b303b6d533b464f2050554f5247425553204c414d524f4e20544f4e3b41453232,
0x3b3b3b3b3b593b3b3b3b3833333020334232323b4e4f3b303b6d533b50554f5247425553204c414d524f4e205341204e4941544e4f4320544f4e2053454f443b42453232,
0x3b3b3b3b3b593b3b3b3b3833333020344232323b4e4f3b303b6d533b4f54204c4155514520524f20464f2050554f5247425553204c414d524f4e20544f4e3b43453232,
0x3b3b3b3b3b593b3b3b3b3833333020354232323b4e4f3b303b6d533b4c4155514520524f2050554f5247425553204c414d524f4e205341204e4941544e4f4320544f4e2053454f443b44453232,
0x3b3b3b3b3b4e3b3b3b3b3b4e4f3b303b6d533b53495350494c4c45204c414349545245563b45453232,
0x3b3b3b3b3b4e3b3b3b3b3b4e4f3b303b6d533b53495350494c4c45204c41544e4f5a49524f4820454e494c44494d3b46453232,
0x3b3b3b3b3b593b3b3b3b3b4e4f3b303b6d533b53495350494c4c45204c414e4f474149442054484749522050553b30463232,
0x3b3b3b3b3b593b3b3b3b3b4e4f3b303b6d533b53495350494c4c45204c414e4f47414944205448474952204e574f443b31463232,
0x3b3b3b3b3b593b3b3b3b3b4e4f3b303b6d533b454b4f525453204c41544e4f5a49524f4820474e4f4c204854495720464f20544e454d454c453b32463232,
0x3b3b3b3b3b593b3b3b3b3b4e4f3b303b6d533b454b4f525453204c41544e4f5a49524f4820464f20444e4520544120524142204c41434954524556204854495720464f20544e454d454c453b33463232,
0x3b3b3b3b3b593b3b3b3b3b4e4f3b303b6d533b454b4f525453204c41544e4f5a49524f4820464f20444e4520544120524142204c41434954524556204854495720464f20544e454d454c45204c4c414d533b34463232,
0x3b3b3b3b3b593b3b3b3b3b4e4f3b303b6d533b45564f424120544f44204854495720464f20544e454d454c453b35463232,
0x3b3b3b3b3b593b3b3b3b3b4e4f3b303b6d533b5241425245564f204854495720464f20544e454d454c453b36463232,
0x3b3b3b3b3b593b3b3b3b3b4e4f3b303b6d533b5241425245564f204854495720464f20544e454d454c45204c4c414d533b37463232,
0x3b3b3b3b3b593b3b3b3b3b4e4f3b303b6d533b5241425245444e55204854495720464f20544e454d454c453b38463232,
0x3b3b3b3b3b593b3b3b3b3b4e4f3b303b6d533b53454b4f525453204c41544e4f5a49524f48204f5754204854495720464f20544e454d454c453b39463232,
0x3b3b3b3b3b593b3b3b3b3b4e4f3b303b6d533b454b4f525453204c41544e4f5a49524f4820474e4f4c204854495720534e4941544e4f433b41463232,
0x3b3b3b3b3b593b3b3b3b3b4e4f3b303b6d533b454b4f525453204c41544e4f5a49524f4820464f20444e4520544120524142204c41434954524556204854495720534e4941544e4f433b42463232,
0x3b3b3b3b3b593b3b3b3b3b4e4f3b303b6d533b454b4f525453204c41544e4f5a49524f4820464f20444e4520544120524142204c41434954524556204854495720534e4941544e4f43204c4c414d533b43463232,
0x3b3b3b3b3b593b3b3b3b3b4e4f3b303b6d533b5241425245564f204854495720534e4941544e4f433b44463232,
0x3b3b3b3b3b593b3b3b3b3b4e4f3b303b6d533b5241425245564f204854495720534e4941544e4f43204c4c414d533b45463232,
0x3b3b3b3b3b593b3b3b3b3b4e4f3b303b6d533b504948535245424d454d20474142204e4f495441544f4e205a3b46463232,
0x3b3b3b3b3b4e3b3b3b3b3b4e4f3b303b6f533b4e47495320524554454d4149443b30303332,
0x3b3b3b3b3b4e3b3b3b3b3b4e4f3b303b6f533b574f525241204349525443454c453b31303332,
0x3b3b3b3b3b4e3b3b3b3b3b4e4f3b303b6f533b4553554f483b32303332,
0x3b3b3b3b3b4e3b3b3b3b3b4e4f3b303b6f533b44414548574f5252412050553b33303332,
0x3b3b3b3b3b4e3b3b3b3b3b4e4f3b303b6f533b44414548574f525241204e574f443b34303332,
0x3b3b3b3b3b4e3b3b3b3b3b4e4f3b303b6f533b4556495443454a4f52503b35303332,
0x3b3b3b3b3b4e3b3b3b3b3b4e4f3b303b6f533b45564954434550535245503b36303332,
0x3b3b3b3b3b4e3b3b3b3b3b4e4f3b303b6f533b454e494c20595641573b37303332,
0x3b3b3b3b3b593b3b3b3b3b4e4f3b303b73503b474e494c494543205446454c3b38303332,
0x3b3b3b3b3b593b3b3b3b3b4e4f3b303b65503b474e494c4945432054484749523b39303332,
0x3b3b3b3b3b593b3b3b3b3b4e4f3b303b73503b524f4f4c46205446454c3b41303332,
0x3b3b3b3b3b593b3b3b3b3b4e4f3b303b65503b524f4f4c462054484749523b42303332,
0x3b3b3b3b3b4e3b3b3b3b3b4e4f3b303b6f533b504f5243205448474952204d4f54544f423b43303332,
0x3b3b3b3b3b4e3b3b3b3b3b4e4f3b303b6f533b504f5243205446454c204d4f54544f423b44303332,
0x3b3b3b3b3b4e3b3b3b3b3b4e4f3b303b6f533b504f524320544847495220504f543b45303332,
0x3b3b3b3b3b4e3b3b3b3b3b4e4f3b303b6f533b504f5243205446454c20504f543b46303332,
0x3b3b3b3b3b4e3b3b3b3b3b4e4f3b303b6f533b4e47495320544f4e2044455352455645523b30313332,
0x3b3b3b3b3b4e3b3b3b3b3b4e4f3b303b6f533b45474e455a4f4c204552415551533b31313332,
0x3b3b3b3b3b4e3b3b3b3b3b4e4f3b303b6f533b4352413b32313332,
0x3b3b3b3b3b4e3b3b3b3b3b4e4f3b303b6f533b544e454d4745533b33313332,
0x3b3b3b3b3b4e3b3b3b3b3b4e4f3b303b6f533b524f544345533b34313332,
0x3b3b3b3b3b4e3b3b3b3b3b4e4f3b303b6f533b524544524f43455220454e4f4850454c45543b35313332,
0x3b3b3b3b3b4e3b3b3b3b3b4e4f3b303b6f533b524f54414349444e49204e4f495449534f503b36313332,
0x3b3b3b3b3b4e3b3b3b3b3b4e4f3b303b6f533b4552415551532041544144574549563b37313332,
0x3b3b3b3b59454b20444e414d4d4f433b4e3b3b3b3b3b4e4f3b303b6f533b4e474953205453455245544e4920464f204543414c503b38313332,
0x3b3b3b3b3b4e3b3b3b3b3b4e4f3b303b6f533b4e47495320544f4e2044454e5255543b39313332,
0x3b3b3b3b3b4e3b3b3b3b3b4e4f3b303b6f533b48435441573b41313332,
0x3b3b3b3b3b4e3b3b3b3b3b4e4f3b303b6f533b5353414c4752554f483b42313332,
0x3b3b3b3b3b4e3b3b3b3b3b4e4f3b303b6f533b52454e524f43205446454c20504f543b43313332,
0x3b3b3b3b3b4e3b3b3b3b3b4e4f3b303b6f533b52454e524f4320544847495220504f543b44313332,
0x3b3b3b3b3b4e3b3b3b3b3b4e4f3b303b6f533b52454e524f43205446454c204d4f54544f423b45313332,
0x3b3b3b3b3b4e3b3b3b3b3b4e4f3b303b6f533b52454e524f43205448474952204d4f54544f423b46313332,
0x3b3b3b3b3b593b3b3b3b3b4e4f3b303b6d533b4c41524745544e4920464c414820504f543b30323332,
0x3b3b3b3b3b593b3b3b3b3b4e4f3b303b6d533b4c41524745544e4920464c4148204d4f54544f423b31323332,
0x3b3b3b3b3b4e3b3b3b3b3b4e4f3b303b6f533b4e574f52463b32323332,
0x3b3b3b3b3b4e3b3b3b3b3b4e4f3b303b6f533b454c494d533b33323332,
0x3b3b3b3b59454b205245544e453b4e3b3b3b3b3b4e4f3b303b6f533b53524142204c41544e4f5a49524f48204f5754204e4545575445422044414548574f5252412050553b34323332,
0x3b3b3b3b3b4e3b3b3b3b3b4e4f3b303b6f533b59454b204e4f4954504f3b35323332,
0x3b3b3b3b59454b20544847495220454854204f54204554454c45443b4e3b3b3b3b3b4e4f3b303b6f533b544847495220454854204f542045534152453b36323332,
0x3b3b3b3b59454b205241454c433b4e3b3b3b3b3b4e4f3b303b6f533b584f4220454c474e41544345522041204e4920583b37323332,
0x3b3b3b3b3b4e3b3b3b3b3b4e4f3b303b6f533b4452414f4259454b3b38323332,
0x3b3b3b3b4152423b593b3b3b3b383030333b4e4f3b303b73503b54454b4341524220454c474e4120474e49544e494f502d5446454c3b39323332,
0x3b3b3b3b54454b3b593b3b3b3b393030333b4e4f3b303b65503b54454b4341524220454c474e4120474e49544e494f502d54484749523b41323332,
0x3b3b3b3b59454b205446454c20454854204f54204554454c45443b4e3b3b3b3b3b4e4f3b303b6f533b5446454c20454854204f542045534152453b42323332,
0x3b3b3b3b3b4e3b3b3b3b3b4e4f3b303b6f533b474e495220454e455a4e45423b43323332,
0x3b3b3b3b3b4e3b3b3b3b3b4e4f3b303b6f533b595449434952444e494c59433b44323332,
0x3b3b3b3b3b4e3b3b3b3b3b4e4f3b303b6f533b454c49464f52502d444e554f5241204c4c413b45323332,
0x3b3b3b3b3b4e3b3b3b3b3b4e4f3b303b6f533b595254454d4d59533b46323332,
0x3b3b3b3b3b4e3b3b3b3b3b4e4f3b303b6f533b54554f4e5552204c41544f543b30333332,
0x3b3b3b3b3b4e3b3b3b3b3b4e4f3b303b6f533b4e494749524f204e4f49534e454d49443b31333332,
0x3b3b3b3b3b4e3b3b3b3b3b4e4f3b303b6f533b5245504154204c4143494e4f433b32333332,
0x3b3b3b3b3b4e3b3b3b3b3b4e4f3b303b6f533b45504f4c533b33333332,
0x3b3b3b3b3b4e3b3b3b3b3b4e4f3b303b6f533b45524f425245544e554f433b34333332,
0x3b3b3b3b3b4e3b3b3b3b3b4e4f3b303b6f533b4b4e49535245544e554f433b35333332]

/-- src/u5e/props/UnicodeData.txt lines 7937-8192. -/
def rawUcd31 : List Nat := [
0x3b3b3b3b3b4e3b3b3b3b3b4c3b303b6f533b4d4145422d49204c4f424d5953204c414e4f4954434e5546204c50413b36333332,
0x3b3b3b3b3b4e3b3b3b3b3b4c3b303b6f533b4441555120485349555153204c4f424d5953204c414e4f4954434e5546204c50413b37333332,
0x3b3b3b3b3b4e3b3b3b3b3b4c3b303b6f533b4c415551452044415551204c4f424d5953204c414e4f4954434e5546204c50413b38333332,
0x3b3b3b3b3b4e3b3b3b3b3b4c3b303b6f533b4544495649442044415551204c4f424d5953204c414e4f4954434e5546204c50413b39333332,
0x3b3b3b3b3b4e3b3b3b3b3b4c3b303b6f533b444e4f4d4149442044415551204c4f424d5953204c414e4f4954434e5546204c50413b41333332,
0x3b3b3b3b3b4e3b3b3b3b3b4c3b303b6f533b544f4a2044415551204c4f424d5953204c414e4f4954434e5546204c50413b42333332,
0x3b3b3b3b3b4e3b3b3b3b3b4c3b303b6f533b454c435249432044415551204c4f424d5953204c414e4f4954434e5546204c50413b43333332,
0x3b3b3b3b3b4e3b3b3b3b3b4c3b303b6f533b454c49545320454c43524943204c4f424d5953204c414e4f4954434e5546204c50413b44333332,
0x3b3b3b3b3b4e3b3b3b3b3b4c3b303b6f533b544f4a20454c43524943204c4f424d5953204c414e4f4954434e5546204c50413b45333332,
0x3b3b3b3b3b4e3b3b3b3b3b4c3b303b6f533b524142204853414c53204c4f424d5953204c414e4f4954434e5546204c50413b46333332,
0x3b3b3b3b3b4e3b3b3b3b3b4c3b303b6f533b524142204853414c534b434142204c4f424d5953204c414e4f4954434e5546204c50413b30343332,
0x3b3b3b3b3b4e3b3b3b3b3b4c3b303b6f533b4853414c532044415551204c4f424d5953204c414e4f4954434e5546204c50413b31343332,
0x3b3b3b3b3b4e3b3b3b3b3b4c3b303b6f533b4853414c534b4341422044415551204c4f424d5953204c414e4f4954434e5546204c50413b32343332,
0x3b3b3b3b3b4e3b3b3b3b3b4c3b303b6f533b4e4148542d5353454c2044415551204c4f424d5953204c414e4f4954434e5546204c50413b33343332,
0x3b3b3b3b3b4e3b3b3b3b3b4c3b303b6f533b4e4148542d524554414552472044415551204c4f424d5953204c414e4f4954434e5546204c50413b34343332,
0x3b3b3b3b3b4e3b3b3b3b3b4c3b303b6f533b454e41562053445241575446454c204c4f424d5953204c414e4f4954434e5546204c50413b35343332,
0x3b3b3b3b3b4e3b3b3b3b3b4c3b303b6f533b454e41562053445241575448474952204c4f424d5953204c414e4f4954434e5546204c50413b36343332,
0x3b3b3b3b3b4e3b3b3b3b3b4c3b303b6f533b574f5252412053445241575446454c2044415551204c4f424d5953204c414e4f4954434e5546204c50413b37343332,
0x3b3b3b3b3b4e3b3b3b3b3b4c3b303b6f533b574f52524120534452415754484749522044415551204c4f424d5953204c414e4f4954434e5546204c50413b38343332,
0x3b3b3b3b3b4e3b3b3b3b3b4c3b303b6f533b4853414c534b43414220454c43524943204c4f424d5953204c414e4f4954434e5546204c50413b39343332,
0x3b3b3b3b3b4e3b3b3b3b3b4c3b303b6f533b5241425245444e55204b434154204e574f44204c4f424d5953204c414e4f4954434e5546204c50413b41343332,
0x3b3b3b3b3b4e3b3b3b3b3b4c3b303b6f533b454c4954532041544c4544204c4f424d5953204c414e4f4954434e5546204c50413b42343332,
0x3b3b3b3b3b4e3b3b3b3b3b4c3b303b6f533b5445524143204e574f442044415551204c4f424d5953204c414e4f4954434e5546204c50413b43343332,
0x3b3b3b3b3b4e3b3b3b3b3b4c3b303b6f533b41544c45442044415551204c4f424d5953204c414e4f4954434e5546204c50413b44343332,
0x3b3b3b3b3b4e3b3b3b3b3b4c3b303b6f533b544f4a204b434154204e574f44204c4f424d5953204c414e4f4954434e5546204c50413b45343332,
0x3b3b3b3b3b4e3b3b3b3b3b4c3b303b6f533b454e41562053445241575055204c4f424d5953204c414e4f4954434e5546204c50413b46343332,
0x3b3b3b3b3b4e3b3b3b3b3b4c3b303b6f533b574f52524120534452415750552044415551204c4f424d5953204c414e4f4954434e5546204c50413b30353332,
0x3b3b3b3b3b4e3b3b3b3b3b4c3b303b6f533b5241425245564f204b434154205055204c4f424d5953204c414e4f4954434e5546204c50413b31353332,
0x3b3b3b3b3b4e3b3b3b3b3b4c3b303b6f533b454c495453204c4544204c4f424d5953204c414e4f4954434e5546204c50413b32353332,
0x3b3b3b3b3b4e3b3b3b3b3b4c3b303b6f533b54455241432050552044415551204c4f424d5953204c414e4f4954434e5546204c50413b33353332,
0x3b3b3b3b3b4e3b3b3b3b3b4c3b303b6f533b4c45442044415551204c4f424d5953204c414e4f4954434e5546204c50413b34353332,
0x3b3b3b3b3b4e3b3b3b3b3b4c3b303b6f533b544f4a204b434154205055204c4f424d5953204c414e4f4954434e5546204c50413b35353332,
0x3b3b3b3b3b4e3b3b3b3b3b4c3b303b6f533b454e41562053445241574e574f44204c4f424d5953204c414e4f4954434e5546204c50413b36353332,
0x3b3b3b3b3b4e3b3b3b3b3b4c3b303b6f533b574f5252412053445241574e574f442044415551204c4f424d5953204c414e4f4954434e5546204c50413b37353332,
0x3b3b3b3b3b4e3b3b3b3b3b4c3b303b6f533b5241425245444e552045544f5551204c4f424d5953204c414e4f4954434e5546204c50413b38353332,
0x3b3b3b3b3b4e3b3b3b3b3b4c3b303b6f533b5241425245444e552041544c4544204c4f424d5953204c414e4f4954434e5546204c50413b39353332,
0x3b3b3b3b3b4e3b3b3b3b3b4c3b303b6f533b5241425245444e5520444e4f4d414944204c4f424d5953204c414e4f4954434e5546204c50413b41353332,
0x3b3b3b3b3b4e3b3b3b3b3b4c3b303b6f533b5241425245444e5520544f4a204c4f424d5953204c414e4f4954434e5546204c50413b42353332,
0x3b3b3b3b3b4e3b3b3b3b3b4c3b303b6f533b5241425245444e5520454c43524943204c4f424d5953204c414e4f4954434e5546204c50413b43353332,
0x3b3b3b3b3b4e3b3b3b3b3b4c3b303b6f533b544f4a20454f4853205055204c4f424d5953204c414e4f4954434e5546204c50413b44353332,
0x3b3b3b3b3b4e3b3b3b3b3b4c3b303b6f533b444155512045544f5551204c4f424d5953204c414e4f4954434e5546204c50413b45353332,
0x3b3b3b3b3b4e3b3b3b3b3b4c3b303b6f533b5241545320454c43524943204c4f424d5953204c414e4f4954434e5546204c50413b46353332,
0x3b3b3b3b3b4e3b3b3b3b3b4c3b303b6f533b4e4f4c4f432044415551204c4f424d5953204c414e4f4954434e5546204c50413b30363332,
0x3b3b3b3b3b4e3b3b3b3b3b4c3b303b6f533b534953455245414944204b434154205055204c4f424d5953204c414e4f4954434e5546204c50413b31363332,
0x3b3b3b3b3b4e3b3b3b3b3b4c3b303b6f533b534953455245414944204c4544204c4f424d5953204c414e4f4954434e5546204c50413b32363332,
0x3b3b3b3b3b4e3b3b3b3b3b4c3b303b6f533b5349534552454149442052415453204c4f424d5953204c414e4f4954434e5546204c50413b33363332,
0x3b3b3b3b3b4e3b3b3b3b3b4c3b303b6f533b53495345524541494420544f4a204c4f424d5953204c414e4f4954434e5546204c50413b34363332,
0x3b3b3b3b3b4e3b3b3b3b3b4c3b303b6f533b53495345524541494420454c43524943204c4f424d5953204c414e4f4954434e5546204c50413b35363332,
0x3b3b3b3b3b4e3b3b3b3b3b4c3b303b6f533b454c49545320454f4853204e574f44204c4f424d5953204c414e4f4954434e5546204c50413b36363332,
0x3b3b3b3b3b4e3b3b3b3b3b4c3b303b6f533b454c49545320454f4853205446454c204c4f424d5953204c414e4f4954434e5546204c50413b37363332,
0x3b3b3b3b3b4e3b3b3b3b3b4c3b303b6f533b5349534552454149442045444c4954204c4f424d5953204c414e4f4954434e5546204c50413b38363332,
0x3b3b3b3b3b4e3b3b3b3b3b4c3b303b6f533b534953455245414944204e4148542d52455441455247204c4f424d5953204c414e4f4954434e5546204c50413b39363332,
0x3b3b3b3b3b4e3b3b3b3b3b4c3b303b6f533b52414220414d4d4f43204c4f424d5953204c414e4f4954434e5546204c50413b41363332,
0x3b3b3b3b3b4e3b3b3b3b3b4c3b303b6f533b45444c4954204c4544204c4f424d5953204c414e4f4954434e5546204c50413b42363332,
0x3b3b3b3b3b4e3b3b3b3b3b4c3b303b6f533b45444c495a204c4f424d5953204c414e4f4954434e5546204c50413b43363332,
0x3b3b3b3b3b4e3b3b3b3b3b4c3b303b6f533b45444c495420454c495453204c4f424d5953204c414e4f4954434e5546204c50413b44363332,
0x3b3b3b3b3b4e3b3b3b3b3b4c3b303b6f533b5241425245444e55204e4f4c4f43494d4553204c4f424d5953204c414e4f4954434e5546204c50413b45363332,
0x3b3b3b3b3b4e3b3b3b3b3b4c3b303b6f533b4c4155514520544f4e2044415551204c4f424d5953204c414e4f4954434e5546204c50413b46363332,
0x3b3b3b3b3b4e3b3b3b3b3b4c3b303b6f533b4e4f4954534555512044415551204c4f424d5953204c414e4f4954434e5546204c50413b30373332,
0x3b3b3b3b3b4e3b3b3b3b3b4c3b303b6f533b45444c4954205445524143204e574f44204c4f424d5953204c414e4f4954434e5546204c50413b31373332,
0x3b3b3b3b3b4e3b3b3b3b3b4c3b303b6f533b45444c4954205445524143205055204c4f424d5953204c414e4f4954434e5546204c50413b32373332,
0x3b3b3b3b3b4e3b3b3b3b3b4c3b303b6f533b41544f49204c4f424d5953204c414e4f4954434e5546204c50413b33373332,
0x3b3b3b3b3b4e3b3b3b3b3b4c3b303b6f533b4f4852204c4f424d5953204c414e4f4954434e5546204c50413b34373332,
0x3b3b3b3b3b4e3b3b3b3b3b4c3b303b6f533b4147454d4f204c4f424d5953204c414e4f4954434e5546204c50413b35373332,
0x3b3b3b3b3b4e3b3b3b3b3b4c3b303b6f533b5241425245444e55204148504c41204c4f424d5953204c414e4f4954434e5546204c50413b36373332,
0x3b3b3b3b3b4e3b3b3b3b3b4c3b303b6f533b5241425245444e55204e4f4c49535045204c4f424d5953204c414e4f4954434e5546204c50413b37373332,
0x3b3b3b3b3b4e3b3b3b3b3b4c3b303b6f533b5241425245444e552041544f49204c4f424d5953204c414e4f4954434e5546204c50413b38373332,
0x3b3b3b3b3b4e3b3b3b3b3b4c3b303b6f533b5241425245444e55204147454d4f204c4f424d5953204c414e4f4954434e5546204c50413b39373332,
0x3b3b3b3b3b4e3b3b3b3b3b4c3b303b6f533b4148504c41204c4f424d5953204c414e4f4954434e5546204c50413b41373332,
0x3b3b3b3b3b4e3b3b3b3b3b4e4f3b303b6f533b4b52414d204b4345484320544f4e3b42373332,
0x3b3b3b3b3b4e3b3b3b3b3b4e4f3b303b6d533b574f5252412047415a47495a2053445241574e574f44204854495720454c474e412054484749523b43373332,
0x3b3b3b3b3b4e3b3b3b3b3b4e4f3b303b6f533b584f42204e45504f2044455245444c554f48533b44373332,
0x3b3b3b3b3b4e3b3b3b3b3b4e4f3b303b6f533b4c4f424d5953204c4c45423b45373332,
0x3b3b3b3b3b4e3b3b3b3b3b4e4f3b303b6f533b544f4420454c4444494d204854495720454e494c204c414349545245563b46373332,
0x3b3b3b3b3b4e3b3b3b3b3b4e4f3b303b6f533b4c4f424d5953204e4f49545245534e493b30383332,
0x3b3b3b3b3b4e3b3b3b3b3b4e4f3b303b6f533b4c4f424d595320454e494c5245444e552053554f554e49544e4f433b31383332,
0x3b3b3b3b3b4e3b3b3b3b3b4e4f3b303b6f533b4c4f424d595320454e494c5245444e552053554f554e49544e4f435349443b32383332,
0x3b3b3b3b3b4e3b3b3b3b3b4e4f3b303b6f533b4c4f424d5953205349534148504d453b33383332,
0x3b3b3b3b3b4e3b3b3b3b3b4e4f3b303b6f533b4c4f424d5953204e4f495449534f504d4f433b34383332,
0x3b3b3b3b3b4e3b3b3b3b3b4e4f3b303b6f533b454e494c204c41434954524556204552544e45432048544957204552415551532045544948573b35383332,
0x3b3b3b3b3b4e3b3b3b3b3b4e4f3b303b6f533b4c4f424d5953205245544e453b36383332,
0x3b3b3b3b3b4e3b3b3b3b3b4e4f3b303b6f533b4c4f424d59532059454b2045564954414e5245544c413b37383332,
0x3b3b3b3b3b4e3b3b3b3b3b4e4f3b303b6f533b4c4f424d5953204d4c45483b38383332,
0x3b3b3b3b3b4e3b3b3b3b3b4e4f3b303b6f533b4843544f4e204854495720524142204c41544e4f5a49524f482044454c435249433b39383332,
0x3b3b3b3b3b4e3b3b3b3b3b4e4f3b303b6f533b4e574f4420454c474e414952542044454c435249433b41383332,
0x3b3b3b3b3b4e3b3b3b3b3b4e4f3b303b6f533b574f52524120545345574854524f4e204854495720454c43524943204e454b4f52423b42383332,
0x3b3b3b3b3b4e3b3b3b3b3b4e4f3b303b6f533b4c4f424d5953204f444e553b43383332,
0x3b3b3b3b3b4e3b3b3b3b3b4e4f3b303b6f533b4c4f424d595320454c424154534f4e4f4d3b44383332,
0x3b3b3b3b3b4e3b3b3b3b3b4e4f3b303b6f533b4c4f424d595320534953455245545359483b45383332,
0x3b3b3b3b3b4e3b3b3b3b3b4e4f3b303b6f533b4c4f424d595320455059542d482054555054554f2d544955435249432d4e45504f3b46383332,
0x3b3b3b3b3b4e3b3b3b3b3b4e4f3b303b6f533b4c4f424d595320455059542d4c2054555054554f2d544955435249432d4e45504f3b30393332,
0x3b3b3b3b3b4e3b3b3b3b3b4e4f3b303b6f533b4c4f424d59532054555054554f2d4e574f442d4c4c55502d455649535341503b31393332,
0x3b3b3b3b3b4e3b3b3b3b3b4e4f3b303b6f533b4c4f424d59532054555054554f2d50552d4c4c55502d455649535341503b32393332,
0x3b3b3b3b3b4e3b3b3b3b3b4e4f3b303b6f533b4f5754204d524f46204c4f424d595320544e4552525543205443455249443b33393332,
0x3b3b3b3b3b4e3b3b3b3b3b4e4f3b303b6f533b4c4f424d5953204e4f4954434e55462d4552415754464f533b34393332,
0x3b3b3b3b3b4e3b3b3b3b3b4c3b303b6f533b44415551204c4f424d5953204c414e4f4954434e5546204c50413b35393332,
0x3b3b3b3b3b4e3b3b3b3b3b4e4f3b303b6f533b4c4f424d59532059454b20524f54415241504553204c414d494345443b36393332,
0x3b3b3b3b3b4e3b3b3b3b3b4e4f3b303b6f533b454741502053554f49564552503b37393332,
0x3b3b3b3b3b4e3b3b3b3b3b4e4f3b303b6f533b45474150205458454e3b38393332,
0x3b3b3b3b3b4e3b3b3b3b3b4e4f3b303b6f533b4c4f424d5953204e454552435320544e4952503b39393332,
0x3b3b3b3b3b4e3b3b3b3b3b4e4f3b303b6f533b4c4f424d5953204e4545524353205241454c433b41393332,
0x3b3b3b3b3b4e3b3b3b3b3b4e4f3b303b6d533b4b4f4f48205245505055205349534548544e45524150205446454c3b42393332,
0x3b3b3b3b3b4e3b3b3b3b3b4e4f3b303b6d533b4e4f49534e45545845205349534548544e45524150205446454c3b43393332,
0x3b3b3b3b3b4e3b3b3b3b3b4e4f3b303b6d533b4b4f4f48205245574f4c205349534548544e45524150205446454c3b44393332,
0x3b3b3b3b3b4e3b3b3b3b3b4e4f3b303b6d533b4b4f4f48205245505055205349534548544e455241502054484749523b45393332,
0x3b3b3b3b3b4e3b3b3b3b3b4e4f3b303b6d533b4e4f49534e45545845205349534548544e455241502054484749523b46393332,
0x3b3b3b3b3b4e3b3b3b3b3b4e4f3b303b6d533b4b4f4f48205245574f4c205349534548544e455241502054484749523b30413332,
0x3b3b3b3b3b4e3b3b3b3b3b4e4f3b303b6d533b52454e524f432052455050552054454b4341524220455241555153205446454c3b31413332,
0x3b3b3b3b3b4e3b3b3b3b3b4e4f3b303b6d533b4e4f49534e455458452054454b4341524220455241555153205446454c3b32413332,
0x3b3b3b3b3b4e3b3b3b3b3b4e4f3b303b6d533b52454e524f43205245574f4c2054454b4341524220455241555153205446454c3b33413332,
0x3b3b3b3b3b4e3b3b3b3b3b4e4f3b303b6d533b52454e524f432052455050552054454b43415242204552415551532054484749523b34413332,
0x3b3b3b3b3b4e3b3b3b3b3b4e4f3b303b6d533b4e4f49534e455458452054454b43415242204552415551532054484749523b35413332,
0x3b3b3b3b3b4e3b3b3b3b3b4e4f3b303b6d533b52454e524f43205245574f4c2054454b43415242204552415551532054484749523b36413332,
0x3b3b3b3b3b4e3b3b3b3b3b4e4f3b303b6d533b4b4f4f482052455050552054454b4341524220594c525543205446454c3b37413332,
0x3b3b3b3b3b4e3b3b3b3b3b4e4f3b303b6d533b454345495020454c4444494d2054454b4341524220594c525543205446454c3b38413332,
0x3b3b3b3b3b4e3b3b3b3b3b4e4f3b303b6d533b4b4f4f48205245574f4c2054454b4341524220594c525543205446454c3b39413332,
0x3b3b3b3b3b4e3b3b3b3b3b4e4f3b303b6d533b4e4f49534e455458452054454b4341524220594c5255433b41413332,
0x3b3b3b3b3b4e3b3b3b3b3b4e4f3b303b6d533b4b4f4f482052455050552054454b4341524220594c5255432054484749523b42413332,
0x3b3b3b3b3b4e3b3b3b3b3b4e4f3b303b6d533b454345495020454c4444494d2054454b4341524220594c5255432054484749523b43413332,
0x3b3b3b3b3b4e3b3b3b3b3b4e4f3b303b6d533b4b4f4f48205245574f4c2054454b4341524220594c5255432054484749523b44413332,
0x3b3b3b3b3b4e3b3b3b3b3b4e4f3b303b6d533b4e4f49534e45545845204c41524745544e493b45413332,
0x3b3b3b3b3b4e3b3b3b3b3b4e4f3b303b6d533b4e4f49534e4554584520454e494c204c41544e4f5a49524f483b46413332,
0x3b3b3b3b3b4e3b3b3b3b3b4e4f3b303b6d533b4e4f49544345532054454b4341524220594c525543205448474952205245574f4c20524f205446454c2052455050553b30423332,
0x3b3b3b3b3b4e3b3b3b3b3b4e4f3b303b6d533b4e4f49544345532054454b4341524220594c525543205446454c205245574f4c20524f2054484749522052455050553b31423332,
0x3b3b3b3b3b4e3b3b3b3b3b4e4f3b303b6d533b504f54204e4f4954414d4d55533b32423332,
0x3b3b3b3b3b4e3b3b3b3b3b4e4f3b303b6d533b4d4f54544f42204e4f4954414d4d55533b33423332,
0x3b3b3b3b3b4e3b3b3b3b3b4e4f3b303b6f533b54454b434152422045524155515320504f543b34423332,
0x3b3b3b3b3b4e3b3b3b3b3b4e4f3b303b6f533b54454b4341524220455241555153204d4f54544f423b35423332,
0x3b3b3b3b3b4e3b3b3b3b3b4e4f3b303b6f533b54454b434152422045524155515320504f54205245564f2054454b4341524220455241555153204d4f54544f423b36423332,
0x3b3b3b3b3b4e3b3b3b3b3b4e4f3b303b6f533b4d4f54544f42204c4f424d5953204c4143494441523b37423332,
0x3b3b3b3b3b4e3b3b3b3b3b4e4f3b303b6f533b454e494c20584f42204c41434954524556205446454c3b38423332,
0x3b3b3b3b3b4e3b3b3b3b3b4e4f3b303b6f533b454e494c20584f42204c414349545245562054484749523b39423332,
0x3b3b3b3b3b4e3b3b3b3b3b4e4f3b303b6f533b312d454e494c204e414353204c41544e4f5a49524f483b41423332,
0x3b3b3b3b3b4e3b3b3b3b3b4e4f3b303b6f533b332d454e494c204e414353204c41544e4f5a49524f483b42423332,
0x3b3b3b3b3b4e3b3b3b3b3b4e4f3b303b6f533b372d454e494c204e414353204c41544e4f5a49524f483b43423332,
0x3b3b3b3b3b4e3b3b3b3b3b4e4f3b303b6f533b392d454e494c204e414353204c41544e4f5a49524f483b44423332,
0x3b3b3b3b3b4e3b3b3b3b3b4e4f3b303b6f533b544847495220504f5420444e41204c4143495452455620544847494c204c4f424d5953205952545349544e45443b45423332,
0x3b3b3b3b3b4e3b3b3b3b3b4e4f3b303b6f533b5448474952204d4f54544f4220444e41204c4143495452455620544847494c204c4f424d5953205952545349544e45443b46423332,
0x3b3b3b3b3b4e3b3b3b3b3b4e4f3b303b6f533b454c435249432048544957204c4143495452455620544847494c204c4f424d5953205952545349544e45443b30433332,
0x3b3b3b3b3b4e3b3b3b3b3b4e4f3b303b6f533b454c435249432048544957204c41544e4f5a49524f4820444e41204e574f4420544847494c204c4f424d5953205952545349544e45443b31433332,
0x3b3b3b3b3b4e3b3b3b3b3b4e4f3b303b6f533b454c435249432048544957204c41544e4f5a49524f4820444e4120505520544847494c204c4f424d5953205952545349544e45443b32433332,
0x3b3b3b3b3b4e3b3b3b3b3b4e4f3b303b6f533b454c474e414952542048544957204c4143495452455620544847494c204c4f424d5953205952545349544e45443b33433332,
0x3b3b3b3b3b4e3b3b3b3b3b4e4f3b303b6f533b454c474e414952542048544957204c41544e4f5a49524f4820444e41204e574f4420544847494c204c4f424d5953205952545349544e45443b34433332,
0x3b3b3b3b3b4e3b3b3b3b3b4e4f3b303b6f533b454c474e414952542048544957204c41544e4f5a49524f4820444e4120505520544847494c204c4f424d5953205952545349544e45443b35433332,
0x3b3b3b3b3b4e3b3b3b3b3b4e4f3b303b6f533b4556415720444e41204c4143495452455620544847494c204c4f424d5953205952545349544e45443b36433332,
0x3b3b3b3b3b4e3b3b3b3b3b4e4f3b303b6f533b455641572048544957204c41544e4f5a49524f4820444e41204e574f4420544847494c204c4f424d5953205952545349544e45443b37433332,
0x3b3b3b3b3b4e3b3b3b3b3b4e4f3b303b6f533b455641572048544957204c41544e4f5a49524f4820444e4120505520544847494c204c4f424d5953205952545349544e45443b38433332,
0x3b3b3b3b3b4e3b3b3b3b3b4e4f3b303b6f533b4c41544e4f5a49524f4820444e41204e574f4420544847494c204c4f424d5953205952545349544e45443b39433332,
0x3b3b3b3b3b4e3b3b3b3b3b4e4f3b303b6f533b4c41544e4f5a49524f4820444e4120505520544847494c204c4f424d5953205952545349544e45443b41433332,
0x3b3b3b3b3b4e3b3b3b3b3b4e4f3b303b6f533b5446454c20504f5420444e41204c4143495452455620544847494c204c4f424d5953205952545349544e45443b42433332,
0x3b3b3b3b3b4e3b3b3b3b3b4e4f3b303b6f533b5446454c204d4f54544f4220444e41204c4143495452455620544847494c204c4f424d5953205952545349544e45443b43433332,
0x3b3b3b3b3b4e3b3b3b3b3b4e4f3b303b6f533b544f4f46204552415551533b44433332,
0x3b3b3b3b3b4e3b3b3b3b3b4e4f3b303b6f533b4c4f424d5953204e52555445523b45433332,
0x3b3b3b3b3b4e3b3b3b3b3b4e4f3b303b6f533b4c4f424d5953205443454a453b46433332,
0x3b3b3b3b3b4e3b3b3b3b3b4e4f3b303b6f533b4e4f49534e4554584520454e494c204c414349545245563b30443332,
0x3b3b3b3b3b4e3b3b3b3b3b4e4f3b303b6f533b4556455242204c4143495254454d3b31443332,
0x3b3b3b3b3b4e3b3b3b3b3b4e4f3b303b6f533b54524f4853205245564f20474e4f4c204c4143495254454d3b32443332,
0x3b3b3b3b3b4e3b3b3b3b3b4e4f3b303b6f533b474e4f4c205245564f2054524f4853204c4143495254454d3b33443332,
0x3b3b3b3b3b4e3b3b3b3b3b4e4f3b303b6f533b5354524f4853204f5754205245564f20474e4f4c204c4143495254454d3b34443332,
0x3b3b3b3b3b4e3b3b3b3b3b4e4f3b303b6f533b474e4f4c205245564f205354524f4853204f5754204c4143495254454d3b35443332,
0x3b3b3b3b3b4e3b3b3b3b3b4e4f3b303b6f533b44454e494f4a205354524f4853204f5754204c4143495254454d3b36443332,
0x3b3b3b3b3b4e3b3b3b3b3b4e4f3b303b6f533b454d4553495254204c4143495254454d3b37443332,
0x3b3b3b3b3b4e3b3b3b3b3b4e4f3b303b6f533b454d45534152544554204c4143495254454d3b38443332,
0x3b3b3b3b3b4e3b3b3b3b3b4e4f3b303b6f533b454d455341544e4550204c4143495254454d3b39443332,
0x3b3b3b3b3b4e3b3b3b3b3b4e4f3b303b6f533b444e554f52472048545241453b41443332,
0x3b3b3b3b3b4e3b3b3b3b3b4e4f3b303b6f533b455355463b42443332,
0x3b3b3b3b3b4e3b3b3b3b3b4e4f3b303b6d533b5349534548544e4552415020504f543b43443332,
0x3b3b3b3b3b4e3b3b3b3b3b4e4f3b303b6d533b5349534548544e45524150204d4f54544f423b44443332,
0x3b3b3b3b3b4e3b3b3b3b3b4e4f3b303b6d533b54454b4341524220594c52554320504f543b45443332,
0x3b3b3b3b3b4e3b3b3b3b3b4e4f3b303b6d533b54454b4341524220594c525543204d4f54544f423b46443332,
0x3b3b3b3b3b4e3b3b3b3b3b4e4f3b303b6d533b54454b43415242204c4c454853204553494f54524f5420504f543b30453332,
0x3b3b3b3b3b4e3b3b3b3b3b4e4f3b303b6d533b54454b43415242204c4c454853204553494f54524f54204d4f54544f423b31453332,
0x3b3b3b3b3b4e3b3b3b3b3b4e4f3b303b6f533b4d55495a45504152542045544948573b32453332,
0x3b3b3b3b3b4e3b3b3b3b3b4e4f3b303b6f533b454c43524943204854495720474e495220454e455a4e45423b33453332,
0x3b3b3b3b3b4e3b3b3b3b3b4e4f3b303b6f533b5353454e54484749415254533b34453332,
0x3b3b3b3b3b4e3b3b3b3b3b4e4f3b303b6f533b5353454e54414c463b35453332,
0x3b3b3b3b3b4e3b3b3b3b3b4e4f3b303b6f533b544e45525255432043413b36453332,
0x3b3b3b3b3b4e3b3b3b3b3b4e4f3b303b6f533b4e4f49544345535245544e49204c414349525443454c453b37453332,
0x3b3b3b3b3b4e3b3b3b3b3b4e4f3b303b6f533b4c4f424d595320544e454e4f505845204c414d494345443b38453332,
0x3b3b3b3b3b4e3b3b3b3b3b4e4f3b303b6f533b454c474e4149525420454c42554f4420474e49544e494f502d5448474952204b43414c423b39453332,
0x3b3b3b3b3b4e3b3b3b3b3b4e4f3b303b6f533b454c474e4149525420454c42554f4420474e49544e494f502d5446454c204b43414c423b41453332,
0x3b3b3b3b3b4e3b3b3b3b3b4e4f3b303b6f533b454c474e4149525420454c42554f4420474e49544e494f502d5055204b43414c423b42453332,
0x3b3b3b3b3b4e3b3b3b3b3b4e4f3b303b6f533b454c474e4149525420454c42554f4420474e49544e494f502d4e574f44204b43414c423b43453332,
0x3b3b3b3b3b4e3b3b3b3b3b4e4f3b303b6f533b524142204c41434954524556204854495720454c474e4149525420454c42554f4420474e49544e494f502d5448474952204b43414c423b44453332,
0x3b3b3b3b3b4e3b3b3b3b3b4e4f3b303b6f533b524142204c41434954524556204854495720454c474e4149525420454c42554f4420474e49544e494f502d5446454c204b43414c423b45453332,
0x3b3b3b3b3b4e3b3b3b3b3b4e4f3b303b6f533b524142204c4143495452455620454c42554f44204854495720454c474e4149525420474e49544e494f502d5448474952204b43414c423b46453332,
0x3b3b3b3b3b4e3b3b3b3b3b4e4f3b303b6f533b4b434f4c43204d52414c413b30463332,
0x3b3b3b3b3b4e3b3b3b3b3b4e4f3b303b6f533b4843544157504f54533b31463332,
0x3b3b3b3b3b4e3b3b3b3b3b4e4f3b303b6f533b4b434f4c432052454d49543b32463332,
0x3b3b3b3b3b4e3b3b3b3b3b4e4f3b303b6f533b444e415320474e49574f4c462048544957205353414c4752554f483b33463332,
0x3b3b3b3b3b4e3b3b3b3b3b4e4f3b303b6f533b454c474e4149525420474e49544e494f502d5446454c204d554944454d204b43414c423b34463332,
0x3b3b3b3b3b4e3b3b3b3b3b4e4f3b303b6f533b454c474e4149525420474e49544e494f502d5448474952204d554944454d204b43414c423b35463332,
0x3b3b3b3b3b4e3b3b3b3b3b4e4f3b303b6f533b454c474e4149525420474e49544e494f502d5055204d554944454d204b43414c423b36463332,
0x3b3b3b3b3b4e3b3b3b3b3b4e4f3b303b6f533b454c474e4149525420474e49544e494f502d4e574f44204d554944454d204b43414c423b37463332,
0x3b3b3b3b3b4e3b3b3b3b3b4e4f3b303b6f533b524142204c4143495452455620454c42554f443b38463332,
0x3b3b3b3b3b4e3b3b3b3b3b4e4f3b303b6f533b504f545320524f4620455241555153204b43414c423b39463332,
0x3b3b3b3b3b4e3b3b3b3b3b4e4f3b303b6f533b44524f43455220524f4620454c43524943204b43414c423b41463332,
0x3b3b3b3b3b4e3b3b3b3b3b4e4f3b303b6f533b4c4f424d5953205245574f503b42463332,
0x3b3b3b3b3b4e3b3b3b3b3b4e4f3b303b6f533b4c4f424d59532046464f2d4e4f205245574f503b43463332,
0x3b3b3b3b3b4e3b3b3b3b3b4e4f3b303b6f533b4c4f424d5953204e4f205245574f503b44463332,
0x3b3b3b3b3b4e3b3b3b3b3b4e4f3b303b6f533b4c4f424d5953205045454c53205245574f503b45463332,
0x3b3b3b3b4c4c554e20524f4620434948504152473b4e3b3b3b3b3b4e4f3b303b6f533b4c4c554e20524f46204c4f424d59533b30303432,
0x3b3b3b3b474e494441454820464f20545241545320524f4620434948504152473b4e3b3b3b3b3b4e4f3b303b6f533b474e494441454820464f20545241545320524f46204c4f424d59533b31303432,
0x3b3b3b3b5458455420464f20545241545320524f4620434948504152473b4e3b3b3b3b3b4e4f3b303b6f533b5458455420464f20545241545320524f46204c4f424d59533b32303432,
0x3b3b3b3b5458455420464f20444e4520524f4620434948504152473b4e3b3b3b3b3b4e4f3b303b6f533b5458455420464f20444e4520524f46204c4f424d59533b33303432,
0x3b3b3b3b4e4f495353494d534e41525420464f20444e4520524f4620434948504152473b4e3b3b3b3b3b4e4f3b303b6f533b4e4f495353494d534e41525420464f20444e4520524f46204c4f424d59533b34303432,
0x3b3b3b3b59524955514e4520524f4620434948504152473b4e3b3b3b3b3b4e4f3b303b6f533b59524955514e4520524f46204c4f424d59533b35303432,
0x3b3b3b3b454744454c574f4e4b434120524f4620434948504152473b4e3b3b3b3b3b4e4f3b303b6f533b454744454c574f4e4b434120524f46204c4f424d59533b36303432,
0x3b3b3b3b4c4c454220524f4620434948504152473b4e3b3b3b3b3b4e4f3b303b6f533b4c4c454220524f46204c4f424d59533b37303432,
0x3b3b3b3b45434150534b43414220524f4620434948504152473b4e3b3b3b3b3b4e4f3b303b6f533b45434150534b43414220524f46204c4f424d59533b38303432,
0x3b3b3b3b4e4f4954414c55424154204c41544e4f5a49524f4820524f4620434948504152473b4e3b3b3b3b3b4e4f3b303b6f533b4e4f4954414c55424154204c41544e4f5a49524f4820524f46204c4f424d59533b39303432,
0x3b3b3b3b4445454620454e494c20524f4620434948504152473b4e3b3b3b3b3b4e4f3b303b6f533b4445454620454e494c20524f46204c4f424d59533b41303432,
0x3b3b3b3b4e4f4954414c55424154204c4143495452455620524f4620434948504152473b4e3b3b3b3b3b4e4f3b303b6f533b4e4f4954414c55424154204c4143495452455620524f46204c4f424d59533b42303432,
0x3b3b3b3b44454546204d524f4620524f4620434948504152473b4e3b3b3b3b3b4e4f3b303b6f533b44454546204d524f4620524f46204c4f424d59533b43303432,
0x3b3b3b3b4e525554455220454741495252414320524f4620434948504152473b4e3b3b3b3b3b4e4f3b303b6f533b4e525554455220454741495252414320524f46204c4f424d59533b44303432,
0x3b3b3b3b54554f20544649485320524f4620434948504152473b4e3b3b3b3b3b4e4f3b303b6f533b54554f20544649485320524f46204c4f424d59533b45303432,
0x3b3b3b3b4e4920544649485320524f4620434948504152473b4e3b3b3b3b3b4e4f3b303b6f533b4e4920544649485320524f46204c4f424d59533b46303432,
0x3b3b3b3b455041435345204b4e494c204154414420524f4620434948504152473b4e3b3b3b3b3b4e4f3b303b6f533b455041435345204b4e494c204154414420524f46204c4f424d59533b30313432,
0x3b3b3b3b454e4f204c4f52544e4f432045434956454420524f4620434948504152473b4e3b3b3b3b3b4e4f3b303b6f533b454e4f204c4f52544e4f432045434956454420524f46204c4f424d59533b31313432,
0x3b3b3b3b4f5754204c4f52544e4f432045434956454420524f4620434948504152473b4e3b3b3b3b3b4e4f3b303b6f533b4f5754204c4f52544e4f432045434956454420524f46204c4f424d59533b32313432,
0x3b3b3b3b4545524854204c4f52544e4f432045434956454420524f4620434948504152473b4e3b3b3b3b3b4e4f3b303b6f533b4545524854204c4f52544e4f432045434956454420524f46204c4f424d59533b33313432,
0x3b3b3b3b52554f46204c4f52544e4f432045434956454420524f4620434948504152473b4e3b3b3b3b3b4e4f3b303b6f533b52554f46204c4f52544e4f432045434956454420524f46204c4f424d59533b34313432,
0x3b3b3b3b454744454c574f4e4b434120455649544147454e20524f4620434948504152473b4e3b3b3b3b3b4e4f3b303b6f533b454744454c574f4e4b434120455649544147454e20524f46204c4f424d59533b35313432,
0x3b3b3b3b454c44492053554f4e4f5248434e595320524f4620434948504152473b4e3b3b3b3b3b4e4f3b303b6f533b454c44492053554f4e4f5248434e595320524f46204c4f424d59533b36313432,
0x3b3b3b3b4b434f4c42204e4f495353494d534e41525420464f20444e4520524f4620434948504152473b4e3b3b3b3b3b4e4f3b303b6f533b4b434f4c42204e4f495353494d534e41525420464f20444e4520524f46204c4f424d59533b37313432,
0x3b3b3b3b4c45434e414320524f4620434948504152473b4e3b3b3b3b3b4e4f3b303b6f533b4c45434e414320524f46204c4f424d59533b38313432,
0x3b3b3b3b4d554944454d20464f20444e4520524f4620434948504152473b4e3b3b3b3b3b4e4f3b303b6f533b4d554944454d20464f20444e4520524f46204c4f424d59533b39313432,
0x3b3b3b3b4554555449545342555320524f4620434948504152473b4e3b3b3b3b3b4e4f3b303b6f533b4554555449545342555320524f46204c4f424d59533b41313432,
0x3b3b3b3b45504143534520524f4620434948504152473b4e3b3b3b3b3b4e4f3b303b6f533b45504143534520524f46204c4f424d59533b42313432,
0x3b3b3b3b524f5441524150455320454c494620524f4620434948504152473b4e3b3b3b3b3b4e4f3b303b6f533b524f5441524150455320454c494620524f46204c4f424d59533b43313432,
0x3b3b3b3b524f544152415045532050554f524720524f4620434948504152473b4e3b3b3b3b3b4e4f3b303b6f533b524f544152415045532050554f524720524f46204c4f424d59533b44313432,
0x3b3b3b3b524f544152415045532044524f43455220524f4620434948504152473b4e3b3b3b3b3b4e4f3b303b6f533b524f544152415045532044524f43455220524f46204c4f424d59533b45313432,
0x3b3b3b3b524f544152415045532054494e5520524f4620434948504152473b4e3b3b3b3b3b4e4f3b303b6f533b524f544152415045532054494e5520524f46204c4f424d59533b46313432,
0x3b3b3b3b454341505320524f4620434948504152473b4e3b3b3b3b3b4e4f3b303b6f533b454341505320524f46204c4f424d59533b30323432,
0x3b3b3b3b4554454c454420524f4620434948504152473b4e3b3b3b3b3b4e4f3b303b6f533b4554454c454420524f46204c4f424d59533b31323432,
0x3b3b3b3b4b4e414c423b4e3b3b3b3b3b4e4f3b303b6f533b4c4f424d5953204b4e414c423b32323432,
0x3b3b3b3b3b4e3b3b3b3b3b4e4f3b303b6f533b584f42204e45504f3b33323432,
0x3b3b3b3b454e494c57454e20524f4620434948504152473b4e3b3b3b3b3b4e4f3b303b6f533b454e494c57454e20524f46204c4f424d59533b34323432,
0x3b3b3b3b3b4e3b3b3b3b3b4e4f3b303b6f533b4f5754204d524f46204554454c454420524f46204c4f424d59533b35323432,
0x3b3b3b3b3b4e3b3b3b3b3b4e4f3b303b6f533b4f5754204d524f46204554555449545342555320524f46204c4f424d59533b36323432,
0x3b3b3b3b3b4e3b3b3b3b3b4e4f3b303b6f533b4b4f4f482052434f3b30343432,
0x3b3b3b3b3b4e3b3b3b3b3b4e4f3b303b6f533b52494148432052434f3b31343432,
0x3b3b3b3b3b4e3b3b3b3b3b4e4f3b303b6f533b4b524f462052434f3b32343432,
0x3b3b3b3b3b4e3b3b3b3b3b4e4f3b303b6f533b4b524f46204445545245564e492052434f3b33343432,
0x3b3b3b3b3b4e3b3b3b3b3b4e4f3b303b6f533b454c4b43554220544c45422052434f3b34343432,
0x3b3b3b3b3b4e3b3b3b3b3b4e4f3b303b6f533b45495420574f422052434f3b35343432,
0x3b3b3b3b3b4e3b3b3b3b3b4e4f3b303b6f533b4e4f49544143494649544e454449204b4e41422048434e4152422052434f3b36343432,
0x3b3b3b3b3b4e3b3b3b3b3b4e4f3b303b6f533b4b4345484320464f20544e554f4d412052434f3b37343432,
0x3b3b3b3b3b4e3b3b3b3b3b4e4f3b303b6f533b485341442052434f3b38343432,
0x3b3b3b3b3b4e3b3b3b3b3b4e4f3b303b6f533b5245424d554e20544e554f4343412052454d4f545355432052434f3b39343432,
0x3b3b3b3b3b4e3b3b3b3b3b4e4f3b303b6f533b4853414c534b43414220454c42554f442052434f3b41343432,
0x3b3b3b3b3b4e3b313b313b3b31333030203e656c637269633c3b4e4f3b303b6f4e3b454e4f2054494749442044454c435249433b30363432,
0x3b3b3b3b3b4e3b323b323b3b32333030203e656c637269633c3b4e4f3b303b6f4e3b4f57542054494749442044454c435249433b31363432,
0x3b3b3b3b3b4e3b333b333b3b33333030203e656c637269633c3b4e4f3b303b6f4e3b45455248542054494749442044454c435249433b32363432,
0x3b3b3b3b3b4e3b343b343b3b34333030203e656c637269633c3b4e4f3b303b6f4e3b52554f462054494749442044454c435249433b33363432,
0x3b3b3b3b3b4e3b353b353b3b35333030203e656c637269633c3b4e4f3b303b6f4e3b455649462054494749442044454c435249433b34363432]

/-- src/u5e/props/UnicodeData.txt lines 8193-8448. -/
def rawUcd32 : List Nat := [
0x3b3b3b3b3b4e3b363b363b3b36333030203e656c637269633c3b4e4f3b303b6f4e3b5849532054494749442044454c435249433b35363432,
0x3b3b3b3b3b4e3b373b373b3b37333030203e656c637269633c3b4e4f3b303b6f4e3b4e455645532054494749442044454c435249433b36363432,
0x3b3b3b3b3b4e3b383b383b3b38333030203e656c637269633c3b4e4f3b303b6f4e3b54484749452054494749442044454c435249433b37363432,
0x3b3b3b3b3b4e3b393b393b3b39333030203e656c637269633c3b4e4f3b303b6f4e3b454e494e2054494749442044454c435249433b38363432,
0x3b3b3b3b3b4e3b30313b3b3b303330302031333030203e656c637269633c3b4e4f3b303b6f4e3b4e4554205245424d554e2044454c435249433b39363432,
0x3b3b3b3b3b4e3b31313b3b3b313330302031333030203e656c637269633c3b4e4f3b303b6f4e3b4e4556454c45205245424d554e2044454c435249433b41363432,
0x3b3b3b3b3b4e3b32313b3b3b323330302031333030203e656c637269633c3b4e4f3b303b6f4e3b45564c455754205245424d554e2044454c435249433b42363432,
0x3b3b3b3b3b4e3b33313b3b3b333330302031333030203e656c637269633c3b4e4f3b303b6f4e3b4e45455452494854205245424d554e2044454c435249433b43363432,
0x3b3b3b3b3b4e3b34313b3b3b343330302031333030203e656c637269633c3b4e4f3b303b6f4e3b4e45455452554f46205245424d554e2044454c435249433b44363432,
0x3b3b3b3b3b4e3b35313b3b3b353330302031333030203e656c637269633c3b4e4f3b303b6f4e3b4e454554464946205245424d554e2044454c435249433b45363432,
0x3b3b3b3b3b4e3b36313b3b3b363330302031333030203e656c637269633c3b4e4f3b303b6f4e3b4e454554584953205245424d554e2044454c435249433b46363432,
0x3b3b3b3b3b4e3b37313b3b3b373330302031333030203e656c637269633c3b4e4f3b303b6f4e3b4e4545544e45564553205245424d554e2044454c435249433b30373432,
0x3b3b3b3b3b4e3b38313b3b3b383330302031333030203e656c637269633c3b4e4f3b303b6f4e3b4e45455448474945205245424d554e2044454c435249433b31373432,
0x3b3b3b3b3b4e3b39313b3b3b393330302031333030203e656c637269633c3b4e4f3b303b6f4e3b4e454554454e494e205245424d554e2044454c435249433b32373432,
0x3b3b3b3b3b4e3b30323b3b3b303330302032333030203e656c637269633c3b4e4f3b303b6f4e3b59544e455754205245424d554e2044454c435249433b33373432,
0x3b3b3b3b3b4e3b313b313b3b3932303020313330302038323030203e7461706d6f633c3b4e4f3b303b6f4e3b454e4f2054494749442044455a49534548544e455241503b34373432,
0x3b3b3b3b3b4e3b323b323b3b3932303020323330302038323030203e7461706d6f633c3b4e4f3b303b6f4e3b4f57542054494749442044455a49534548544e455241503b35373432,
0x3b3b3b3b3b4e3b333b333b3b3932303020333330302038323030203e7461706d6f633c3b4e4f3b303b6f4e3b45455248542054494749442044455a49534548544e455241503b36373432,
0x3b3b3b3b3b4e3b343b343b3b3932303020343330302038323030203e7461706d6f633c3b4e4f3b303b6f4e3b52554f462054494749442044455a49534548544e455241503b37373432,
0x3b3b3b3b3b4e3b353b353b3b3932303020353330302038323030203e7461706d6f633c3b4e4f3b303b6f4e3b455649462054494749442044455a49534548544e455241503b38373432,
0x3b3b3b3b3b4e3b363b363b3b3932303020363330302038323030203e7461706d6f633c3b4e4f3b303b6f4e3b5849532054494749442044455a49534548544e455241503b39373432,
0x3b3b3b3b3b4e3b373b373b3b3932303020373330302038323030203e7461706d6f633c3b4e4f3b303b6f4e3b4e455645532054494749442044455a49534548544e455241503b41373432,
0x3b3b3b3b3b4e3b383b383b3b3932303020383330302038323030203e7461706d6f633c3b4e4f3b303b6f4e3b54484749452054494749442044455a49534548544e455241503b42373432,
0x3b3b3b3b3b4e3b393b393b3b3932303020393330302038323030203e7461706d6f633c3b4e4f3b303b6f4e3b454e494e2054494749442044455a49534548544e455241503b43373432,
0x3b3b3b3b3b4e3b30313b3b3b39323030203033303020313330302038323030203e7461706d6f633c3b4e4f3b303b6f4e3b4e4554205245424d554e2044455a49534548544e455241503b44373432,
0x3b3b3b3b3b4e3b31313b3b3b39323030203133303020313330302038323030203e7461706d6f633c3b4e4f3b303b6f4e3b4e4556454c45205245424d554e2044455a49534548544e455241503b45373432,
0x3b3b3b3b3b4e3b32313b3b3b39323030203233303020313330302038323030203e7461706d6f633c3b4e4f3b303b6f4e3b45564c455754205245424d554e2044455a49534548544e455241503b46373432,
0x3b3b3b3b3b4e3b33313b3b3b39323030203333303020313330302038323030203e7461706d6f633c3b4e4f3b303b6f4e3b4e45455452494854205245424d554e2044455a49534548544e455241503b30383432,
0x3b3b3b3b3b4e3b34313b3b3b39323030203433303020313330302038323030203e7461706d6f633c3b4e4f3b303b6f4e3b4e45455452554f46205245424d554e2044455a49534548544e455241503b31383432,
0x3b3b3b3b3b4e3b35313b3b3b39323030203533303020313330302038323030203e7461706d6f633c3b4e4f3b303b6f4e3b4e454554464946205245424d554e2044455a49534548544e455241503b32383432,
0x3b3b3b3b3b4e3b36313b3b3b39323030203633303020313330302038323030203e7461706d6f633c3b4e4f3b303b6f4e3b4e454554584953205245424d554e2044455a49534548544e455241503b33383432,
0x3b3b3b3b3b4e3b37313b3b3b39323030203733303020313330302038323030203e7461706d6f633c3b4e4f3b303b6f4e3b4e4545544e45564553205245424d554e2044455a49534548544e455241503b34383432,
0x3b3b3b3b3b4e3b38313b3b3b39323030203833303020313330302038323030203e7461706d6f633c3b4e4f3b303b6f4e3b4e45455448474945205245424d554e2044455a49534548544e455241503b35383432,
0x3b3b3b3b3b4e3b39313b3b3b39323030203933303020313330302038323030203e7461706d6f633c3b4e4f3b303b6f4e3b4e454554454e494e205245424d554e2044455a49534548544e455241503b36383432,
0x3b3b3b3b3b4e3b30323b3b3b39323030203033303020323330302038323030203e7461706d6f633c3b4e4f3b303b6f4e3b59544e455754205245424d554e2044455a49534548544e455241503b37383432,
0x3b3b3b3b444f4952455020454e4f2054494749443b4e3b313b313b3b453230302031333030203e7461706d6f633c3b4e453b303b6f4e3b504f5453204c4c554620454e4f2054494749443b38383432,
0x3b3b3b3b444f49524550204f57542054494749443b4e3b323b323b3b453230302032333030203e7461706d6f633c3b4e453b303b6f4e3b504f5453204c4c5546204f57542054494749443b39383432,
0x3b3b3b3b444f495245502045455248542054494749443b4e3b333b333b3b453230302033333030203e7461706d6f633c3b4e453b303b6f4e3b504f5453204c4c55462045455248542054494749443b41383432,
0x3b3b3b3b444f495245502052554f462054494749443b4e3b343b343b3b453230302034333030203e7461706d6f633c3b4e453b303b6f4e3b504f5453204c4c55462052554f462054494749443b42383432,
0x3b3b3b3b444f4952455020455649462054494749443b4e3b353b353b3b453230302035333030203e7461706d6f633c3b4e453b303b6f4e3b504f5453204c4c554620455649462054494749443b43383432,
0x3b3b3b3b444f49524550205849532054494749443b4e3b363b363b3b453230302036333030203e7461706d6f633c3b4e453b303b6f4e3b504f5453204c4c5546205849532054494749443b44383432,
0x3b3b3b3b444f49524550204e455645532054494749443b4e3b373b373b3b453230302037333030203e7461706d6f633c3b4e453b303b6f4e3b504f5453204c4c5546204e455645532054494749443b45383432,
0x3b3b3b3b444f495245502054484749452054494749443b4e3b383b383b3b453230302038333030203e7461706d6f633c3b4e453b303b6f4e3b504f5453204c4c55462054484749452054494749443b46383432,
0x3b3b3b3b444f4952455020454e494e2054494749443b4e3b393b393b3b453230302039333030203e7461706d6f633c3b4e453b303b6f4e3b504f5453204c4c554620454e494e2054494749443b30393432,
0x3b3b3b3b444f49524550204e4554205245424d554e3b4e3b30313b3b3b4532303020303330302031333030203e7461706d6f633c3b4e453b303b6f4e3b504f5453204c4c5546204e4554205245424d554e3b31393432,
0x3b3b3b3b444f49524550204e4556454c45205245424d554e3b4e3b31313b3b3b4532303020313330302031333030203e7461706d6f633c3b4e453b303b6f4e3b504f5453204c4c5546204e4556454c45205245424d554e3b32393432,
0x3b3b3b3b444f495245502045564c455754205245424d554e3b4e3b32313b3b3b4532303020323330302031333030203e7461706d6f633c3b4e453b303b6f4e3b504f5453204c4c55462045564c455754205245424d554e3b33393432,
0x3b3b3b3b444f49524550204e45455452494854205245424d554e3b4e3b33313b3b3b4532303020333330302031333030203e7461706d6f633c3b4e453b303b6f4e3b504f5453204c4c5546204e45455452494854205245424d554e3b34393432,
0x3b3b3b3b444f49524550204e45455452554f46205245424d554e3b4e3b34313b3b3b4532303020343330302031333030203e7461706d6f633c3b4e453b303b6f4e3b504f5453204c4c5546204e45455452554f46205245424d554e3b35393432,
0x3b3b3b3b444f49524550204e454554464946205245424d554e3b4e3b35313b3b3b4532303020353330302031333030203e7461706d6f633c3b4e453b303b6f4e3b504f5453204c4c5546204e454554464946205245424d554e3b36393432,
0x3b3b3b3b444f49524550204e454554584953205245424d554e3b4e3b36313b3b3b4532303020363330302031333030203e7461706d6f633c3b4e453b303b6f4e3b504f5453204c4c5546204e454554584953205245424d554e3b37393432,
0x3b3b3b3b444f49524550204e4545544e45564553205245424d554e3b4e3b37313b3b3b4532303020373330302031333030203e7461706d6f633c3b4e453b303b6f4e3b504f5453204c4c5546204e4545544e45564553205245424d554e3b38393432,
0x3b3b3b3b444f49524550204e45455448474945205245424d554e3b4e3b38313b3b3b4532303020383330302031333030203e7461706d6f633c3b4e453b303b6f4e3b504f5453204c4c5546204e45455448474945205245424d554e3b39393432,
0x3b3b3b3b444f49524550204e454554454e494e205245424d554e3b4e3b39313b3b3b4532303020393330302031333030203e7461706d6f633c3b4e453b303b6f4e3b504f5453204c4c5546204e454554454e494e205245424d554e3b41393432,
0x3b3b3b3b444f495245502059544e455754205245424d554e3b4e3b30323b3b3b4532303020303330302032333030203e7461706d6f633c3b4e453b303b6f4e3b504f5453204c4c55462059544e455754205245424d554e3b42393432,
0x3b3b3b3b3b4e3b3b3b3b3932303020313630302038323030203e7461706d6f633c3b4c3b303b6f533b412052455454454c204c4c414d53204e4954414c2044455a49534548544e455241503b43393432,
0x3b3b3b3b3b4e3b3b3b3b3932303020323630302038323030203e7461706d6f633c3b4c3b303b6f533b422052455454454c204c4c414d53204e4954414c2044455a49534548544e455241503b44393432,
0x3b3b3b3b3b4e3b3b3b3b3932303020333630302038323030203e7461706d6f633c3b4c3b303b6f533b432052455454454c204c4c414d53204e4954414c2044455a49534548544e455241503b45393432,
0x3b3b3b3b3b4e3b3b3b3b3932303020343630302038323030203e7461706d6f633c3b4c3b303b6f533b442052455454454c204c4c414d53204e4954414c2044455a49534548544e455241503b46393432,
0x3b3b3b3b3b4e3b3b3b3b3932303020353630302038323030203e7461706d6f633c3b4c3b303b6f533b452052455454454c204c4c414d53204e4954414c2044455a49534548544e455241503b30413432,
0x3b3b3b3b3b4e3b3b3b3b3932303020363630302038323030203e7461706d6f633c3b4c3b303b6f533b462052455454454c204c4c414d53204e4954414c2044455a49534548544e455241503b31413432,
0x3b3b3b3b3b4e3b3b3b3b3932303020373630302038323030203e7461706d6f633c3b4c3b303b6f533b472052455454454c204c4c414d53204e4954414c2044455a49534548544e455241503b32413432,
0x3b3b3b3b3b4e3b3b3b3b3932303020383630302038323030203e7461706d6f633c3b4c3b303b6f533b482052455454454c204c4c414d53204e4954414c2044455a49534548544e455241503b33413432,
0x3b3b3b3b3b4e3b3b3b3b3932303020393630302038323030203e7461706d6f633c3b4c3b303b6f533b492052455454454c204c4c414d53204e4954414c2044455a49534548544e455241503b34413432,
0x3b3b3b3b3b4e3b3b3b3b3932303020413630302038323030203e7461706d6f633c3b4c3b303b6f533b4a2052455454454c204c4c414d53204e4954414c2044455a49534548544e455241503b35413432,
0x3b3b3b3b3b4e3b3b3b3b3932303020423630302038323030203e7461706d6f633c3b4c3b303b6f533b4b2052455454454c204c4c414d53204e4954414c2044455a49534548544e455241503b36413432,
0x3b3b3b3b3b4e3b3b3b3b3932303020433630302038323030203e7461706d6f633c3b4c3b303b6f533b4c2052455454454c204c4c414d53204e4954414c2044455a49534548544e455241503b37413432,
0x3b3b3b3b3b4e3b3b3b3b3932303020443630302038323030203e7461706d6f633c3b4c3b303b6f533b4d2052455454454c204c4c414d53204e4954414c2044455a49534548544e455241503b38413432,
0x3b3b3b3b3b4e3b3b3b3b3932303020453630302038323030203e7461706d6f633c3b4c3b303b6f533b4e2052455454454c204c4c414d53204e4954414c2044455a49534548544e455241503b39413432,
0x3b3b3b3b3b4e3b3b3b3b3932303020463630302038323030203e7461706d6f633c3b4c3b303b6f533b4f2052455454454c204c4c414d53204e4954414c2044455a49534548544e455241503b41413432,
0x3b3b3b3b3b4e3b3b3b3b3932303020303730302038323030203e7461706d6f633c3b4c3b303b6f533b502052455454454c204c4c414d53204e4954414c2044455a49534548544e455241503b42413432,
0x3b3b3b3b3b4e3b3b3b3b3932303020313730302038323030203e7461706d6f633c3b4c3b303b6f533b512052455454454c204c4c414d53204e4954414c2044455a49534548544e455241503b43413432,
0x3b3b3b3b3b4e3b3b3b3b3932303020323730302038323030203e7461706d6f633c3b4c3b303b6f533b522052455454454c204c4c414d53204e4954414c2044455a49534548544e455241503b44413432,
0x3b3b3b3b3b4e3b3b3b3b3932303020333730302038323030203e7461706d6f633c3b4c3b303b6f533b532052455454454c204c4c414d53204e4954414c2044455a49534548544e455241503b45413432,
0x3b3b3b3b3b4e3b3b3b3b3932303020343730302038323030203e7461706d6f633c3b4c3b303b6f533b542052455454454c204c4c414d53204e4954414c2044455a49534548544e455241503b46413432,
0x3b3b3b3b3b4e3b3b3b3b3932303020353730302038323030203e7461706d6f633c3b4c3b303b6f533b552052455454454c204c4c414d53204e4954414c2044455a49534548544e455241503b30423432,
0x3b3b3b3b3b4e3b3b3b3b3932303020363730302038323030203e7461706d6f633c3b4c3b303b6f533b562052455454454c204c4c414d53204e4954414c2044455a49534548544e455241503b31423432,
0x3b3b3b3b3b4e3b3b3b3b3932303020373730302038323030203e7461706d6f633c3b4c3b303b6f533b572052455454454c204c4c414d53204e4954414c2044455a49534548544e455241503b32423432,
0x3b3b3b3b3b4e3b3b3b3b3932303020383730302038323030203e7461706d6f633c3b4c3b303b6f533b582052455454454c204c4c414d53204e4954414c2044455a49534548544e455241503b33423432,
0x3b3b3b3b3b4e3b3b3b3b3932303020393730302038323030203e7461706d6f633c3b4c3b303b6f533b592052455454454c204c4c414d53204e4954414c2044455a49534548544e455241503b34423432,
0x3b3b3b3b3b4e3b3b3b3b3932303020413730302038323030203e7461706d6f633c3b4c3b303b6f533b5a2052455454454c204c4c414d53204e4954414c2044455a49534548544e455241503b35423432,
0x3b304434323b3b3b3b4e3b3b3b3b31343030203e656c637269633c3b4c3b303b6f533b412052455454454c204c415449504143204e4954414c2044454c435249433b36423432,
0x3b314434323b3b3b3b4e3b3b3b3b32343030203e656c637269633c3b4c3b303b6f533b422052455454454c204c415449504143204e4954414c2044454c435249433b37423432,
0x3b324434323b3b3b3b4e3b3b3b3b33343030203e656c637269633c3b4c3b303b6f533b432052455454454c204c415449504143204e4954414c2044454c435249433b38423432,
0x3b334434323b3b3b3b4e3b3b3b3b34343030203e656c637269633c3b4c3b303b6f533b442052455454454c204c415449504143204e4954414c2044454c435249433b39423432,
0x3b344434323b3b3b3b4e3b3b3b3b35343030203e656c637269633c3b4c3b303b6f533b452052455454454c204c415449504143204e4954414c2044454c435249433b41423432,
0x3b354434323b3b3b3b4e3b3b3b3b36343030203e656c637269633c3b4c3b303b6f533b462052455454454c204c415449504143204e4954414c2044454c435249433b42423432,
0x3b364434323b3b3b3b4e3b3b3b3b37343030203e656c637269633c3b4c3b303b6f533b472052455454454c204c415449504143204e4954414c2044454c435249433b43423432,
0x3b374434323b3b3b3b4e3b3b3b3b38343030203e656c637269633c3b4c3b303b6f533b482052455454454c204c415449504143204e4954414c2044454c435249433b44423432,
0x3b384434323b3b3b3b4e3b3b3b3b39343030203e656c637269633c3b4c3b303b6f533b492052455454454c204c415449504143204e4954414c2044454c435249433b45423432,
0x3b394434323b3b3b3b4e3b3b3b3b41343030203e656c637269633c3b4c3b303b6f533b4a2052455454454c204c415449504143204e4954414c2044454c435249433b46423432,
0x3b414434323b3b3b3b4e3b3b3b3b42343030203e656c637269633c3b4c3b303b6f533b4b2052455454454c204c415449504143204e4954414c2044454c435249433b30433432,
0x3b424434323b3b3b3b4e3b3b3b3b43343030203e656c637269633c3b4c3b303b6f533b4c2052455454454c204c415449504143204e4954414c2044454c435249433b31433432,
0x3b434434323b3b3b3b4e3b3b3b3b44343030203e656c637269633c3b4c3b303b6f533b4d2052455454454c204c415449504143204e4954414c2044454c435249433b32433432,
0x3b444434323b3b3b3b4e3b3b3b3b45343030203e656c637269633c3b4c3b303b6f533b4e2052455454454c204c415449504143204e4954414c2044454c435249433b33433432,
0x3b454434323b3b3b3b4e3b3b3b3b46343030203e656c637269633c3b4c3b303b6f533b4f2052455454454c204c415449504143204e4954414c2044454c435249433b34433432,
0x3b464434323b3b3b3b4e3b3b3b3b30353030203e656c637269633c3b4c3b303b6f533b502052455454454c204c415449504143204e4954414c2044454c435249433b35433432,
0x3b304534323b3b3b3b4e3b3b3b3b31353030203e656c637269633c3b4c3b303b6f533b512052455454454c204c415449504143204e4954414c2044454c435249433b36433432,
0x3b314534323b3b3b3b4e3b3b3b3b32353030203e656c637269633c3b4c3b303b6f533b522052455454454c204c415449504143204e4954414c2044454c435249433b37433432,
0x3b324534323b3b3b3b4e3b3b3b3b33353030203e656c637269633c3b4c3b303b6f533b532052455454454c204c415449504143204e4954414c2044454c435249433b38433432,
0x3b334534323b3b3b3b4e3b3b3b3b34353030203e656c637269633c3b4c3b303b6f533b542052455454454c204c415449504143204e4954414c2044454c435249433b39433432,
0x3b344534323b3b3b3b4e3b3b3b3b35353030203e656c637269633c3b4c3b303b6f533b552052455454454c204c415449504143204e4954414c2044454c435249433b41433432,
0x3b354534323b3b3b3b4e3b3b3b3b36353030203e656c637269633c3b4c3b303b6f533b562052455454454c204c415449504143204e4954414c2044454c435249433b42433432,
0x3b364534323b3b3b3b4e3b3b3b3b37353030203e656c637269633c3b4c3b303b6f533b572052455454454c204c415449504143204e4954414c2044454c435249433b43433432,
0x3b374534323b3b3b3b4e3b3b3b3b38353030203e656c637269633c3b4c3b303b6f533b582052455454454c204c415449504143204e4954414c2044454c435249433b44433432,
0x3b384534323b3b3b3b4e3b3b3b3b39353030203e656c637269633c3b4c3b303b6f533b592052455454454c204c415449504143204e4954414c2044454c435249433b45433432,
0x3b394534323b3b3b3b4e3b3b3b3b41353030203e656c637269633c3b4c3b303b6f533b5a2052455454454c204c415449504143204e4954414c2044454c435249433b46433432,
0x364234323b3b364234323b3b3b4e3b3b3b3b31363030203e656c637269633c3b4c3b303b6f533b412052455454454c204c4c414d53204e4954414c2044454c435249433b30443432,
0x374234323b3b374234323b3b3b4e3b3b3b3b32363030203e656c637269633c3b4c3b303b6f533b422052455454454c204c4c414d53204e4954414c2044454c435249433b31443432,
0x384234323b3b384234323b3b3b4e3b3b3b3b33363030203e656c637269633c3b4c3b303b6f533b432052455454454c204c4c414d53204e4954414c2044454c435249433b32443432,
0x394234323b3b394234323b3b3b4e3b3b3b3b34363030203e656c637269633c3b4c3b303b6f533b442052455454454c204c4c414d53204e4954414c2044454c435249433b33443432,
0x414234323b3b414234323b3b3b4e3b3b3b3b35363030203e656c637269633c3b4c3b303b6f533b452052455454454c204c4c414d53204e4954414c2044454c435249433b34443432,
0x424234323b3b424234323b3b3b4e3b3b3b3b36363030203e656c637269633c3b4c3b303b6f533b462052455454454c204c4c414d53204e4954414c2044454c435249433b35443432,
0x434234323b3b434234323b3b3b4e3b3b3b3b37363030203e656c637269633c3b4c3b303b6f533b472052455454454c204c4c414d53204e4954414c2044454c435249433b36443432,
0x444234323b3b444234323b3b3b4e3b3b3b3b38363030203e656c637269633c3b4c3b303b6f533b482052455454454c204c4c414d53204e4954414c2044454c435249433b37443432,
0x454234323b3b454234323b3b3b4e3b3b3b3b39363030203e656c637269633c3b4c3b303b6f533b492052455454454c204c4c414d53204e4954414c2044454c435249433b38443432,
0x464234323b3b464234323b3b3b4e3b3b3b3b41363030203e656c637269633c3b4c3b303b6f533b4a2052455454454c204c4c414d53204e4954414c2044454c435249433b39443432,
0x304334323b3b304334323b3b3b4e3b3b3b3b42363030203e656c637269633c3b4c3b303b6f533b4b2052455454454c204c4c414d53204e4954414c2044454c435249433b41443432,
0x314334323b3b314334323b3b3b4e3b3b3b3b43363030203e656c637269633c3b4c3b303b6f533b4c2052455454454c204c4c414d53204e4954414c2044454c435249433b42443432,
0x324334323b3b324334323b3b3b4e3b3b3b3b44363030203e656c637269633c3b4c3b303b6f533b4d2052455454454c204c4c414d53204e4954414c2044454c435249433b43443432,
0x334334323b3b334334323b3b3b4e3b3b3b3b45363030203e656c637269633c3b4c3b303b6f533b4e2052455454454c204c4c414d53204e4954414c2044454c435249433b44443432,
0x344334323b3b344334323b3b3b4e3b3b3b3b46363030203e656c637269633c3b4c3b303b6f533b4f2052455454454c204c4c414d53204e4954414c2044454c435249433b45443432,
0x354334323b3b354334323b3b3b4e3b3b3b3b30373030203e656c637269633c3b4c3b303b6f533b502052455454454c204c4c414d53204e4954414c2044454c435249433b46443432,
0x364334323b3b364334323b3b3b4e3b3b3b3b31373030203e656c637269633c3b4c3b303b6f533b512052455454454c204c4c414d53204e4954414c2044454c435249433b30453432,
0x374334323b3b374334323b3b3b4e3b3b3b3b32373030203e656c637269633c3b4c3b303b6f533b522052455454454c204c4c414d53204e4954414c2044454c435249433b31453432,
0x384334323b3b384334323b3b3b4e3b3b3b3b33373030203e656c637269633c3b4c3b303b6f533b532052455454454c204c4c414d53204e4954414c2044454c435249433b32453432,
0x394334323b3b394334323b3b3b4e3b3b3b3b34373030203e656c637269633c3b4c3b303b6f533b542052455454454c204c4c414d53204e4954414c2044454c435249433b33453432,
0x414334323b3b414334323b3b3b4e3b3b3b3b35373030203e656c637269633c3b4c3b303b6f533b552052455454454c204c4c414d53204e4954414c2044454c435249433b34453432,
0x424334323b3b424334323b3b3b4e3b3b3b3b36373030203e656c637269633c3b4c3b303b6f533b562052455454454c204c4c414d53204e4954414c2044454c435249433b35453432,
0x434334323b3b434334323b3b3b4e3b3b3b3b37373030203e656c637269633c3b4c3b303b6f533b572052455454454c204c4c414d53204e4954414c2044454c435249433b36453432,
0x444334323b3b444334323b3b3b4e3b3b3b3b38373030203e656c637269633c3b4c3b303b6f533b582052455454454c204c4c414d53204e4954414c2044454c435249433b37453432,
0x454334323b3b454334323b3b3b4e3b3b3b3b39373030203e656c637269633c3b4c3b303b6f533b592052455454454c204c4c414d53204e4954414c2044454c435249433b38453432,
0x464334323b3b464334323b3b3b4e3b3b3b3b41373030203e656c637269633c3b4c3b303b6f533b5a2052455454454c204c4c414d53204e4954414c2044454c435249433b39453432,
0x3b3b3b3b3b4e3b303b303b3b30333030203e656c637269633c3b4e4f3b303b6f4e3b4f52455a2054494749442044454c435249433b41453432,
0x3b3b3b3b3b4e3b31313b3b3b3b4e4f3b303b6f4e3b4e4556454c45205245424d554e2044454c4352494320455649544147454e3b42453432,
0x3b3b3b3b3b4e3b32313b3b3b3b4e4f3b303b6f4e3b45564c455754205245424d554e2044454c4352494320455649544147454e3b43453432,
0x3b3b3b3b3b4e3b33313b3b3b3b4e4f3b303b6f4e3b4e45455452494854205245424d554e2044454c4352494320455649544147454e3b44453432,
0x3b3b3b3b3b4e3b34313b3b3b3b4e4f3b303b6f4e3b4e45455452554f46205245424d554e2044454c4352494320455649544147454e3b45453432,
0x3b3b3b3b3b4e3b35313b3b3b3b4e4f3b303b6f4e3b4e454554464946205245424d554e2044454c4352494320455649544147454e3b46453432,
0x3b3b3b3b3b4e3b36313b3b3b3b4e4f3b303b6f4e3b4e454554584953205245424d554e2044454c4352494320455649544147454e3b30463432,
0x3b3b3b3b3b4e3b37313b3b3b3b4e4f3b303b6f4e3b4e4545544e45564553205245424d554e2044454c4352494320455649544147454e3b31463432,
0x3b3b3b3b3b4e3b38313b3b3b3b4e4f3b303b6f4e3b4e45455448474945205245424d554e2044454c4352494320455649544147454e3b32463432,
0x3b3b3b3b3b4e3b39313b3b3b3b4e4f3b303b6f4e3b4e454554454e494e205245424d554e2044454c4352494320455649544147454e3b33463432,
0x3b3b3b3b3b4e3b30323b3b3b3b4e4f3b303b6f4e3b59544e455754205245424d554e2044454c4352494320455649544147454e3b34463432,
0x3b3b3b3b3b4e3b313b313b3b3b4e4f3b303b6f4e3b454e4f2054494749442044454c4352494320454c42554f443b35463432,
0x3b3b3b3b3b4e3b323b323b3b3b4e4f3b303b6f4e3b4f57542054494749442044454c4352494320454c42554f443b36463432,
0x3b3b3b3b3b4e3b333b333b3b3b4e4f3b303b6f4e3b45455248542054494749442044454c4352494320454c42554f443b37463432,
0x3b3b3b3b3b4e3b343b343b3b3b4e4f3b303b6f4e3b52554f462054494749442044454c4352494320454c42554f443b38463432,
0x3b3b3b3b3b4e3b353b353b3b3b4e4f3b303b6f4e3b455649462054494749442044454c4352494320454c42554f443b39463432,
0x3b3b3b3b3b4e3b363b363b3b3b4e4f3b303b6f4e3b5849532054494749442044454c4352494320454c42554f443b41463432,
0x3b3b3b3b3b4e3b373b373b3b3b4e4f3b303b6f4e3b4e455645532054494749442044454c4352494320454c42554f443b42463432,
0x3b3b3b3b3b4e3b383b383b3b3b4e4f3b303b6f4e3b54484749452054494749442044454c4352494320454c42554f443b43463432,
0x3b3b3b3b3b4e3b393b393b3b3b4e4f3b303b6f4e3b454e494e2054494749442044454c4352494320454c42554f443b44463432,
0x3b3b3b3b3b4e3b30313b3b3b3b4e4f3b303b6f4e3b4e4554205245424d554e2044454c4352494320454c42554f443b45463432,
0x3b3b3b3b3b4e3b303b303b3b3b4e4f3b303b6f4e3b4f52455a2054494749442044454c4352494320455649544147454e3b46463432,
0x3b3b3b3b4c41544e4f5a49524f4820544847494c20534d524f463b4e3b3b3b3b3b4e4f3b303b6f533b4c41544e4f5a49524f4820544847494c2053474e495741524420584f423b30303532,
0x3b3b3b3b4c41544e4f5a49524f4820595641454820534d524f463b4e3b3b3b3b3b4e4f3b303b6f533b4c41544e4f5a49524f482059564145482053474e495741524420584f423b31303532,
0x3b3b3b3b4c4143495452455620544847494c20534d524f463b4e3b3b3b3b3b4e4f3b303b6f533b4c4143495452455620544847494c2053474e495741524420584f423b32303532,
0x3b3b3b3b4c4143495452455620595641454820534d524f463b4e3b3b3b3b3b4e4f3b303b6f533b4c414349545245562059564145482053474e495741524420584f423b33303532,
0x3b3b3b3b4c41544e4f5a49524f48204853414420454c5049525420544847494c20534d524f463b4e3b3b3b3b3b4e4f3b303b6f533b4c41544e4f5a49524f48204853414420454c5049525420544847494c2053474e495741524420584f423b34303532,
0x3b3b3b3b4c41544e4f5a49524f48204853414420454c5049525420595641454820534d524f463b4e3b3b3b3b3b4e4f3b303b6f533b4c41544e4f5a49524f48204853414420454c504952542059564145482053474e495741524420584f423b35303532,
0x3b3b3b3b4c41434954524556204853414420454c5049525420544847494c20534d524f463b4e3b3b3b3b3b4e4f3b303b6f533b4c41434954524556204853414420454c5049525420544847494c2053474e495741524420584f423b36303532,
0x3b3b3b3b4c41434954524556204853414420454c5049525420595641454820534d524f463b4e3b3b3b3b3b4e4f3b303b6f533b4c41434954524556204853414420454c504952542059564145482053474e495741524420584f423b37303532,
0x3b3b3b3b4c41544e4f5a49524f48204853414420454c5055524441555120544847494c20534d524f463b4e3b3b3b3b3b4e4f3b303b6f533b4c41544e4f5a49524f48204853414420454c5055524441555120544847494c2053474e495741524420584f423b38303532,
0x3b3b3b3b4c41544e4f5a49524f48204853414420454c5055524441555120595641454820534d524f463b4e3b3b3b3b3b4e4f3b303b6f533b4c41544e4f5a49524f48204853414420454c505552444155512059564145482053474e495741524420584f423b39303532,
0x3b3b3b3b4c41434954524556204853414420454c5055524441555120544847494c20534d524f463b4e3b3b3b3b3b4e4f3b303b6f533b4c41434954524556204853414420454c5055524441555120544847494c2053474e495741524420584f423b41303532,
0x3b3b3b3b4c41434954524556204853414420454c5055524441555120595641454820534d524f463b4e3b3b3b3b3b4e4f3b303b6f533b4c41434954524556204853414420454c505552444155512059564145482053474e495741524420584f423b42303532,
0x3b3b3b3b544847495220444e41204e574f4420544847494c20534d524f463b4e3b3b3b3b3b4e4f3b303b6f533b544847495220444e41204e574f4420544847494c2053474e495741524420584f423b43303532,
0x3b3b3b3b595641454820544847495220444e4120544847494c204e574f4420534d524f463b4e3b3b3b3b3b4e4f3b303b6f533b595641454820544847495220444e4120544847494c204e574f442053474e495741524420584f423b44303532,
0x3b3b3b3b544847494c20544847495220444e41205956414548204e574f4420534d524f463b4e3b3b3b3b3b4e4f3b303b6f533b544847494c20544847495220444e41205956414548204e574f442053474e495741524420584f423b45303532,
0x3b3b3b3b544847495220444e41204e574f4420595641454820534d524f463b4e3b3b3b3b3b4e4f3b303b6f533b544847495220444e41204e574f442059564145482053474e495741524420584f423b46303532,
0x3b3b3b3b5446454c20444e41204e574f4420544847494c20534d524f463b4e3b3b3b3b3b4e4f3b303b6f533b5446454c20444e41204e574f4420544847494c2053474e495741524420584f423b30313532,
0x3b3b3b3b5956414548205446454c20444e4120544847494c204e574f4420534d524f463b4e3b3b3b3b3b4e4f3b303b6f533b5956414548205446454c20444e4120544847494c204e574f442053474e495741524420584f423b31313532,
0x3b3b3b3b544847494c205446454c20444e41205956414548204e574f4420534d524f463b4e3b3b3b3b3b4e4f3b303b6f533b544847494c205446454c20444e41205956414548204e574f442053474e495741524420584f423b32313532,
0x3b3b3b3b5446454c20444e41204e574f4420595641454820534d524f463b4e3b3b3b3b3b4e4f3b303b6f533b5446454c20444e41204e574f442059564145482053474e495741524420584f423b33313532,
0x3b3b3b3b544847495220444e4120505520544847494c20534d524f463b4e3b3b3b3b3b4e4f3b303b6f533b544847495220444e4120505520544847494c2053474e495741524420584f423b34313532,
0x3b3b3b3b595641454820544847495220444e4120544847494c20505520534d524f463b4e3b3b3b3b3b4e4f3b303b6f533b595641454820544847495220444e4120544847494c2050552053474e495741524420584f423b35313532,
0x3b3b3b3b544847494c20544847495220444e4120595641454820505520534d524f463b4e3b3b3b3b3b4e4f3b303b6f533b544847494c20544847495220444e412059564145482050552053474e495741524420584f423b36313532,
0x3b3b3b3b544847495220444e4120505520595641454820534d524f463b4e3b3b3b3b3b4e4f3b303b6f533b544847495220444e412050552059564145482053474e495741524420584f423b37313532,
0x3b3b3b3b5446454c20444e4120505520544847494c20534d524f463b4e3b3b3b3b3b4e4f3b303b6f533b5446454c20444e4120505520544847494c2053474e495741524420584f423b38313532,
0x3b3b3b3b5956414548205446454c20444e4120544847494c20505520534d524f463b4e3b3b3b3b3b4e4f3b303b6f533b5956414548205446454c20444e4120544847494c2050552053474e495741524420584f423b39313532,
0x3b3b3b3b544847494c205446454c20444e4120595641454820505520534d524f463b4e3b3b3b3b3b4e4f3b303b6f533b544847494c205446454c20444e412059564145482050552053474e495741524420584f423b41313532,
0x3b3b3b3b5446454c20444e4120505520595641454820534d524f463b4e3b3b3b3b3b4e4f3b303b6f533b5446454c20444e412050552059564145482053474e495741524420584f423b42313532,
0x3b3b3b3b544847495220444e41204c4143495452455620544847494c20534d524f463b4e3b3b3b3b3b4e4f3b303b6f533b544847495220444e41204c4143495452455620544847494c2053474e495741524420584f423b43313532,
0x3b3b3b3b595641454820544847495220444e4120544847494c204c4143495452455620534d524f463b4e3b3b3b3b3b4e4f3b303b6f533b595641454820544847495220444e4120544847494c204c414349545245562053474e495741524420584f423b44313532,
0x3b3b3b3b544847494c204e574f4420544847495220444e4120595641454820505520534d524f463b4e3b3b3b3b3b4e4f3b303b6f533b544847494c204e574f4420544847495220444e412059564145482050552053474e495741524420584f423b45313532,
0x3b3b3b3b544847494c20505520544847495220444e41205956414548204e574f4420534d524f463b4e3b3b3b3b3b4e4f3b303b6f533b544847494c20505520544847495220444e41205956414548204e574f442053474e495741524420584f423b46313532,
0x3b3b3b3b544847494c20544847495220444e41205956414548204c4143495452455620534d524f463b4e3b3b3b3b3b4e4f3b303b6f533b544847494c20544847495220444e41205956414548204c414349545245562053474e495741524420584f423b30323532,
0x3b3b3b3b595641454820505520544847495220444e4120544847494c204e574f4420534d524f463b4e3b3b3b3b3b4e4f3b303b6f533b595641454820505520544847495220444e4120544847494c204e574f442053474e495741524420584f423b31323532,
0x3b3b3b3b5956414548204e574f4420544847495220444e4120544847494c20505520534d524f463b4e3b3b3b3b3b4e4f3b303b6f533b5956414548204e574f4420544847495220444e4120544847494c2050552053474e495741524420584f423b32323532,
0x3b3b3b3b544847495220444e41204c4143495452455620595641454820534d524f463b4e3b3b3b3b3b4e4f3b303b6f533b544847495220444e41204c414349545245562059564145482053474e495741524420584f423b33323532,
0x3b3b3b3b5446454c20444e41204c4143495452455620544847494c20534d524f463b4e3b3b3b3b3b4e4f3b303b6f533b5446454c20444e41204c4143495452455620544847494c2053474e495741524420584f423b34323532,
0x3b3b3b3b5956414548205446454c20444e4120544847494c204c4143495452455620534d524f463b4e3b3b3b3b3b4e4f3b303b6f533b5956414548205446454c20444e4120544847494c204c414349545245562053474e495741524420584f423b35323532,
0x3b3b3b3b544847494c204e574f44205446454c20444e4120595641454820505520534d524f463b4e3b3b3b3b3b4e4f3b303b6f533b544847494c204e574f44205446454c20444e412059564145482050552053474e495741524420584f423b36323532,
0x3b3b3b3b544847494c205055205446454c20444e41205956414548204e574f4420534d524f463b4e3b3b3b3b3b4e4f3b303b6f533b544847494c205055205446454c20444e41205956414548204e574f442053474e495741524420584f423b37323532,
0x3b3b3b3b544847494c205446454c20444e41205956414548204c4143495452455620534d524f463b4e3b3b3b3b3b4e4f3b303b6f533b544847494c205446454c20444e41205956414548204c414349545245562053474e495741524420584f423b38323532,
0x3b3b3b3b5956414548205055205446454c20444e4120544847494c204e574f4420534d524f463b4e3b3b3b3b3b4e4f3b303b6f533b5956414548205055205446454c20444e4120544847494c204e574f442053474e495741524420584f423b39323532,
0x3b3b3b3b5956414548204e574f44205446454c20444e4120544847494c20505520534d524f463b4e3b3b3b3b3b4e4f3b303b6f533b5956414548204e574f44205446454c20444e4120544847494c2050552053474e495741524420584f423b41323532,
0x3b3b3b3b5446454c20444e41204c4143495452455620595641454820534d524f463b4e3b3b3b3b3b4e4f3b303b6f533b5446454c20444e41204c414349545245562059564145482053474e495741524420584f423b42323532,
0x3b3b3b3b4c41544e4f5a49524f4820444e41204e574f4420544847494c20534d524f463b4e3b3b3b3b3b4e4f3b303b6f533b4c41544e4f5a49524f4820444e41204e574f4420544847494c2053474e495741524420584f423b43323532,
0x3b3b3b3b544847494c204e574f4420544847495220444e41205956414548205446454c20534d524f463b4e3b3b3b3b3b4e4f3b303b6f533b544847494c204e574f4420544847495220444e41205956414548205446454c2053474e495741524420584f423b44323532,
0x3b3b3b3b544847494c204e574f44205446454c20444e4120595641454820544847495220534d524f463b4e3b3b3b3b3b4e4f3b303b6f533b544847494c204e574f44205446454c20444e412059564145482054484749522053474e495741524420584f423b45323532,
0x3b3b3b3b5956414548204c41544e4f5a49524f4820444e4120544847494c204e574f4420534d524f463b4e3b3b3b3b3b4e4f3b303b6f533b5956414548204c41544e4f5a49524f4820444e4120544847494c204e574f442053474e495741524420584f423b46323532,
0x3b3b3b3b544847494c204c41544e4f5a49524f4820444e41205956414548204e574f4420534d524f463b4e3b3b3b3b3b4e4f3b303b6f533b544847494c204c41544e4f5a49524f4820444e41205956414548204e574f442053474e495741524420584f423b30333532,
0x3b3b3b3b5956414548204e574f44205446454c20444e4120544847494c20544847495220534d524f463b4e3b3b3b3b3b4e4f3b303b6f533b5956414548204e574f44205446454c20444e4120544847494c2054484749522053474e495741524420584f423b31333532,
0x3b3b3b3b5956414548204e574f4420544847495220444e4120544847494c205446454c20534d524f463b4e3b3b3b3b3b4e4f3b303b6f533b5956414548204e574f4420544847495220444e4120544847494c205446454c2053474e495741524420584f423b32333532,
0x3b3b3b3b4c41544e4f5a49524f4820444e41204e574f4420595641454820534d524f463b4e3b3b3b3b3b4e4f3b303b6f533b4c41544e4f5a49524f4820444e41204e574f442059564145482053474e495741524420584f423b33333532,
0x3b3b3b3b4c41544e4f5a49524f4820444e4120505520544847494c20534d524f463b4e3b3b3b3b3b4e4f3b303b6f533b4c41544e4f5a49524f4820444e4120505520544847494c2053474e495741524420584f423b34333532,
0x3b3b3b3b544847494c20505520544847495220444e41205956414548205446454c20534d524f463b4e3b3b3b3b3b4e4f3b303b6f533b544847494c20505520544847495220444e41205956414548205446454c2053474e495741524420584f423b35333532,
0x3b3b3b3b544847494c205055205446454c20444e4120595641454820544847495220534d524f463b4e3b3b3b3b3b4e4f3b303b6f533b544847494c205055205446454c20444e412059564145482054484749522053474e495741524420584f423b36333532,
0x3b3b3b3b5956414548204c41544e4f5a49524f4820444e4120544847494c20505520534d524f463b4e3b3b3b3b3b4e4f3b303b6f533b5956414548204c41544e4f5a49524f4820444e4120544847494c2050552053474e495741524420584f423b37333532,
0x3b3b3b3b544847494c204c41544e4f5a49524f4820444e4120595641454820505520534d524f463b4e3b3b3b3b3b4e4f3b303b6f533b544847494c204c41544e4f5a49524f4820444e412059564145482050552053474e495741524420584f423b38333532,
0x3b3b3b3b5956414548205055205446454c20444e4120544847494c20544847495220534d524f463b4e3b3b3b3b3b4e4f3b303b6f533b5956414548205055205446454c20444e4120544847494c2054484749522053474e495741524420584f423b39333532,
0x3b3b3b3b595641454820505520544847495220444e4120544847494c205446454c20534d524f463b4e3b3b3b3b3b4e4f3b303b6f533b595641454820505520544847495220444e4120544847494c205446454c2053474e495741524420584f423b41333532,
0x3b3b3b3b4c41544e4f5a49524f4820444e4120505520595641454820534d524f463b4e3b3b3b3b3b4e4f3b303b6f533b4c41544e4f5a49524f4820444e412050552059564145482053474e495741524420584f423b42333532,
0x3b3b3b3b4c41544e4f5a49524f4820444e41204c4143495452455620544847494c20534d524f463b4e3b3b3b3b3b4e4f3b303b6f533b4c41544e4f5a49524f4820444e41204c4143495452455620544847494c2053474e495741524420584f423b43333532,
0x3b3b3b3b544847494c204c4143495452455620544847495220444e41205956414548205446454c20534d524f463b4e3b3b3b3b3b4e4f3b303b6f533b544847494c204c4143495452455620544847495220444e41205956414548205446454c2053474e495741524420584f423b44333532,
0x3b3b3b3b544847494c204c41434954524556205446454c20444e4120595641454820544847495220534d524f463b4e3b3b3b3b3b4e4f3b303b6f533b544847494c204c41434954524556205446454c20444e412059564145482054484749522053474e495741524420584f423b45333532,
0x3b3b3b3b5956414548204c41544e4f5a49524f4820444e4120544847494c204c4143495452455620534d524f463b4e3b3b3b3b3b4e4f3b303b6f533b5956414548204c41544e4f5a49524f4820444e4120544847494c204c414349545245562053474e495741524420584f423b46333532,
0x3b3b3b3b544847494c204c41544e4f5a49524f48204e574f4420444e4120595641454820505520534d524f463b4e3b3b3b3b3b4e4f3b303b6f533b544847494c204c41544e4f5a49524f48204e574f4420444e412059564145482050552053474e495741524420584f423b30343532,
0x3b3b3b3b544847494c204c41544e4f5a49524f4820505520444e41205956414548204e574f4420534d524f463b4e3b3b3b3b3b4e4f3b303b6f533b544847494c204c41544e4f5a49524f4820505520444e41205956414548204e574f442053474e495741524420584f423b31343532,
0x3b3b3b3b544847494c204c41544e4f5a49524f4820444e41205956414548204c4143495452455620534d524f463b4e3b3b3b3b3b4e4f3b303b6f533b544847494c204c41544e4f5a49524f4820444e41205956414548204c414349545245562053474e495741524420584f423b32343532,
0x3b3b3b3b544847494c204e574f4420544847495220444e41205956414548205055205446454c20534d524f463b4e3b3b3b3b3b4e4f3b303b6f533b544847494c204e574f4420544847495220444e41205956414548205055205446454c2053474e495741524420584f423b33343532,
0x3b3b3b3b544847494c204e574f44205446454c20444e4120595641454820505520544847495220534d524f463b4e3b3b3b3b3b4e4f3b303b6f533b544847494c204e574f44205446454c20444e412059564145482050552054484749522053474e495741524420584f423b34343532,
0x3b3b3b3b544847494c20505520544847495220444e41205956414548204e574f44205446454c20534d524f463b4e3b3b3b3b3b4e4f3b303b6f533b544847494c20505520544847495220444e41205956414548204e574f44205446454c2053474e495741524420584f423b35343532,
0x3b3b3b3b544847494c205055205446454c20444e41205956414548204e574f4420544847495220534d524f463b4e3b3b3b3b3b4e4f3b303b6f533b544847494c205055205446454c20444e41205956414548204e574f442054484749522053474e495741524420584f423b36343532,
0x3b3b3b3b5956414548204c41544e4f5a49524f4820505520444e4120544847494c204e574f4420534d524f463b4e3b3b3b3b3b4e4f3b303b6f533b5956414548204c41544e4f5a49524f4820505520444e4120544847494c204e574f442053474e495741524420584f423b37343532,
0x3b3b3b3b5956414548204c41544e4f5a49524f48204e574f4420444e4120544847494c20505520534d524f463b4e3b3b3b3b3b4e4f3b303b6f533b5956414548204c41544e4f5a49524f48204e574f4420444e4120544847494c2050552053474e495741524420584f423b38343532,
0x3b3b3b3b5956414548204c41434954524556205446454c20444e4120544847494c20544847495220534d524f463b4e3b3b3b3b3b4e4f3b303b6f533b5956414548204c41434954524556205446454c20444e4120544847494c2054484749522053474e495741524420584f423b39343532,
0x3b3b3b3b5956414548204c4143495452455620544847495220444e4120544847494c205446454c20534d524f463b4e3b3b3b3b3b4e4f3b303b6f533b5956414548204c4143495452455620544847495220444e4120544847494c205446454c2053474e495741524420584f423b41343532,
0x3b3b3b3b4c41544e4f5a49524f4820444e41204c4143495452455620595641454820534d524f463b4e3b3b3b3b3b4e4f3b303b6f533b4c41544e4f5a49524f4820444e41204c414349545245562059564145482053474e495741524420584f423b42343532,
0x3b3b3b3b4c41544e4f5a49524f48204853414420454c42554f4420544847494c20534d524f463b4e3b3b3b3b3b4e4f3b303b6f533b4c41544e4f5a49524f48204853414420454c42554f4420544847494c2053474e495741524420584f423b43343532,
0x3b3b3b3b4c41544e4f5a49524f48204853414420454c42554f4420595641454820534d524f463b4e3b3b3b3b3b4e4f3b303b6f533b4c41544e4f5a49524f48204853414420454c42554f442059564145482053474e495741524420584f423b44343532,
0x3b3b3b3b4c41434954524556204853414420454c42554f4420544847494c20534d524f463b4e3b3b3b3b3b4e4f3b303b6f533b4c41434954524556204853414420454c42554f4420544847494c2053474e495741524420584f423b45343532,
0x3b3b3b3b4c41434954524556204853414420454c42554f4420595641454820534d524f463b4e3b3b3b3b3b4e4f3b303b6f533b4c41434954524556204853414420454c42554f442059564145482053474e495741524420584f423b46343532,
0x3b3b3b3b4c41544e4f5a49524f4820454c42554f4420534d524f463b4e3b3b3b3b3b4e4f3b303b6f533b4c41544e4f5a49524f4820454c42554f442053474e495741524420584f423b30353532,
0x3b3b3b3b4c4143495452455620454c42554f4420534d524f463b4e3b3b3b3b3b4e4f3b303b6f533b4c4143495452455620454c42554f442053474e495741524420584f423b31353532,
0x3b3b3b3b454c42554f4420544847495220444e4120454c474e4953204e574f4420534d524f463b4e3b3b3b3b3b4e4f3b303b6f533b454c42554f4420544847495220444e4120454c474e4953204e574f442053474e495741524420584f423b32353532,
0x3b3b3b3b454c474e495320544847495220444e4120454c42554f44204e574f4420534d524f463b4e3b3b3b3b3b4e4f3b303b6f533b454c474e495320544847495220444e4120454c42554f44204e574f442053474e495741524420584f423b33353532,
0x3b3b3b3b544847495220444e41204e574f4420454c42554f4420534d524f463b4e3b3b3b3b3b4e4f3b303b6f533b544847495220444e41204e574f4420454c42554f442053474e495741524420584f423b34353532,
0x3b3b3b3b454c42554f44205446454c20444e4120454c474e4953204e574f4420534d524f463b4e3b3b3b3b3b4e4f3b303b6f533b454c42554f44205446454c20444e4120454c474e4953204e574f442053474e495741524420584f423b35353532,
0x3b3b3b3b454c474e4953205446454c20444e4120454c42554f44204e574f4420534d524f463b4e3b3b3b3b3b4e4f3b303b6f533b454c474e4953205446454c20444e4120454c42554f44204e574f442053474e495741524420584f423b36353532,
0x3b3b3b3b5446454c20444e41204e574f4420454c42554f4420534d524f463b4e3b3b3b3b3b4e4f3b303b6f533b5446454c20444e41204e574f4420454c42554f442053474e495741524420584f423b37353532,
0x3b3b3b3b454c42554f4420544847495220444e4120454c474e495320505520534d524f463b4e3b3b3b3b3b4e4f3b303b6f533b454c42554f4420544847495220444e4120454c474e49532050552053474e495741524420584f423b38353532,
0x3b3b3b3b454c474e495320544847495220444e4120454c42554f4420505520534d524f463b4e3b3b3b3b3b4e4f3b303b6f533b454c474e495320544847495220444e4120454c42554f442050552053474e495741524420584f423b39353532,
0x3b3b3b3b544847495220444e4120505520454c42554f4420534d524f463b4e3b3b3b3b3b4e4f3b303b6f533b544847495220444e4120505520454c42554f442053474e495741524420584f423b41353532,
0x3b3b3b3b454c42554f44205446454c20444e4120454c474e495320505520534d524f463b4e3b3b3b3b3b4e4f3b303b6f533b454c42554f44205446454c20444e4120454c474e49532050552053474e495741524420584f423b42353532,
0x3b3b3b3b454c474e4953205446454c20444e4120454c42554f4420505520534d524f463b4e3b3b3b3b3b4e4f3b303b6f533b454c474e4953205446454c20444e4120454c42554f442050552053474e495741524420584f423b43353532,
0x3b3b3b3b5446454c20444e4120505520454c42554f4420534d524f463b4e3b3b3b3b3b4e4f3b303b6f533b5446454c20444e4120505520454c42554f442053474e495741524420584f423b44353532,
0x3b3b3b3b454c42554f4420544847495220444e4120454c474e4953204c4143495452455620534d524f463b4e3b3b3b3b3b4e4f3b303b6f533b454c42554f4420544847495220444e4120454c474e4953204c414349545245562053474e495741524420584f423b45353532,
0x3b3b3b3b454c474e495320544847495220444e4120454c42554f44204c4143495452455620534d524f463b4e3b3b3b3b3b4e4f3b303b6f533b454c474e495320544847495220444e4120454c42554f44204c414349545245562053474e495741524420584f423b46353532,
0x3b3b3b3b544847495220444e41204c4143495452455620454c42554f4420534d524f463b4e3b3b3b3b3b4e4f3b303b6f533b544847495220444e41204c4143495452455620454c42554f442053474e495741524420584f423b30363532,
0x3b3b3b3b454c42554f44205446454c20444e4120454c474e4953204c4143495452455620534d524f463b4e3b3b3b3b3b4e4f3b303b6f533b454c42554f44205446454c20444e4120454c474e4953204c414349545245562053474e495741524420584f423b31363532,
0x3b3b3b3b454c474e4953205446454c20444e4120454c42554f44204c4143495452455620534d524f463b4e3b3b3b3b3b4e4f3b303b6f533b454c474e4953205446454c20444e4120454c42554f44204c414349545245562053474e495741524420584f423b32363532,
0x3b3b3b3b5446454c20444e41204c4143495452455620454c42554f4420534d524f463b4e3b3b3b3b3b4e4f3b303b6f533b5446454c20444e41204c4143495452455620454c42554f442053474e495741524420584f423b33363532,
0x3b3b3b3b454c42554f44204c41544e4f5a49524f4820444e4120454c474e4953204e574f4420534d524f463b4e3b3b3b3b3b4e4f3b303b6f533b454c42554f44204c41544e4f5a49524f4820444e4120454c474e4953204e574f442053474e495741524420584f423b34363532]

/-- src/u5e/props/UnicodeData.txt lines 8449-8704. -/
def rawUcd33 : List Nat := [
0x3b3b3b3b454c474e4953204c41544e4f5a49524f4820444e4120454c42554f44204e574f4420534d524f463b4e3b3b3b3b3b4e4f3b303b6f533b454c474e4953204c41544e4f5a49524f4820444e4120454c42554f44204e574f442053474e495741524420584f423b35363532,
0x3b3b3b3b4c41544e4f5a49524f4820444e41204e574f4420454c42554f4420534d524f463b4e3b3b3b3b3b4e4f3b303b6f533b4c41544e4f5a49524f4820444e41204e574f4420454c42554f442053474e495741524420584f423b36363532,
0x3b3b3b3b454c42554f44204c41544e4f5a49524f4820444e4120454c474e495320505520534d524f463b4e3b3b3b3b3b4e4f3b303b6f533b454c42554f44204c41544e4f5a49524f4820444e4120454c474e49532050552053474e495741524420584f423b37363532,
0x3b3b3b3b454c474e4953204c41544e4f5a49524f4820444e4120454c42554f4420505520534d524f463b4e3b3b3b3b3b4e4f3b303b6f533b454c474e4953204c41544e4f5a49524f4820444e4120454c42554f442050552053474e495741524420584f423b38363532,
0x3b3b3b3b4c41544e4f5a49524f4820444e4120505520454c42554f4420534d524f463b4e3b3b3b3b3b4e4f3b303b6f533b4c41544e4f5a49524f4820444e4120505520454c42554f442053474e495741524420584f423b39363532,
0x3b3b3b3b454c42554f44204c41544e4f5a49524f4820444e4120454c474e4953204c4143495452455620534d524f463b4e3b3b3b3b3b4e4f3b303b6f533b454c42554f44204c41544e4f5a49524f4820444e4120454c474e4953204c414349545245562053474e495741524420584f423b41363532,
0x3b3b3b3b454c474e4953204c41544e4f5a49524f4820444e4120454c42554f44204c4143495452455620534d524f463b4e3b3b3b3b3b4e4f3b303b6f533b454c474e4953204c41544e4f5a49524f4820444e4120454c42554f44204c414349545245562053474e495741524420584f423b42363532,
0x3b3b3b3b4c41544e4f5a49524f4820444e41204c4143495452455620454c42554f4420534d524f463b4e3b3b3b3b3b4e4f3b303b6f533b4c41544e4f5a49524f4820444e41204c4143495452455620454c42554f442053474e495741524420584f423b43363532,
0x3b3b3b3b544847495220444e41204e574f442043524120544847494c20534d524f463b4e3b3b3b3b3b4e4f3b303b6f533b544847495220444e41204e574f442043524120544847494c2053474e495741524420584f423b44363532,
0x3b3b3b3b5446454c20444e41204e574f442043524120544847494c20534d524f463b4e3b3b3b3b3b4e4f3b303b6f533b5446454c20444e41204e574f442043524120544847494c2053474e495741524420584f423b45363532,
0x3b3b3b3b5446454c20444e412050552043524120544847494c20534d524f463b4e3b3b3b3b3b4e4f3b303b6f533b5446454c20444e412050552043524120544847494c2053474e495741524420584f423b46363532,
0x3b3b3b3b544847495220444e412050552043524120544847494c20534d524f463b4e3b3b3b3b3b4e4f3b303b6f533b544847495220444e412050552043524120544847494c2053474e495741524420584f423b30373532,
0x3b3b3b3b5446454c205245574f4c204f54205448474952205245505055204c414e4f4741494420544847494c20534d524f463b4e3b3b3b3b3b4e4f3b303b6f533b5446454c205245574f4c204f54205448474952205245505055204c414e4f4741494420544847494c2053474e495741524420584f423b31373532,
0x3b3b3b3b5448474952205245574f4c204f54205446454c205245505055204c414e4f4741494420544847494c20534d524f463b4e3b3b3b3b3b4e4f3b303b6f533b5448474952205245574f4c204f54205446454c205245505055204c414e4f4741494420544847494c2053474e495741524420584f423b32373532,
0x3b3b3b3b53534f5243204c414e4f4741494420544847494c20534d524f463b4e3b3b3b3b3b4e4f3b303b6f533b53534f5243204c414e4f4741494420544847494c2053474e495741524420584f423b33373532,
0x3b3b3b3b5446454c20544847494c20534d524f463b4e3b3b3b3b3b4e4f3b303b6f533b5446454c20544847494c2053474e495741524420584f423b34373532,
0x3b3b3b3b505520544847494c20534d524f463b4e3b3b3b3b3b4e4f3b303b6f533b505520544847494c2053474e495741524420584f423b35373532,
0x3b3b3b3b544847495220544847494c20534d524f463b4e3b3b3b3b3b4e4f3b303b6f533b544847495220544847494c2053474e495741524420584f423b36373532,
0x3b3b3b3b4e574f4420544847494c20534d524f463b4e3b3b3b3b3b4e4f3b303b6f533b4e574f4420544847494c2053474e495741524420584f423b37373532,
0x3b3b3b3b5446454c20595641454820534d524f463b4e3b3b3b3b3b4e4f3b303b6f533b5446454c2059564145482053474e495741524420584f423b38373532,
0x3b3b3b3b505520595641454820534d524f463b4e3b3b3b3b3b4e4f3b303b6f533b50552059564145482053474e495741524420584f423b39373532,
0x3b3b3b3b544847495220595641454820534d524f463b4e3b3b3b3b3b4e4f3b303b6f533b54484749522059564145482053474e495741524420584f423b41373532,
0x3b3b3b3b4e574f4420595641454820534d524f463b4e3b3b3b3b3b4e4f3b303b6f533b4e574f442059564145482053474e495741524420584f423b42373532,
0x3b3b3b3b544847495220595641454820444e41205446454c20544847494c20534d524f463b4e3b3b3b3b3b4e4f3b303b6f533b544847495220595641454820444e41205446454c20544847494c2053474e495741524420584f423b43373532,
0x3b3b3b3b4e574f4420595641454820444e4120505520544847494c20534d524f463b4e3b3b3b3b3b4e4f3b303b6f533b4e574f4420595641454820444e4120505520544847494c2053474e495741524420584f423b44373532,
0x3b3b3b3b544847495220544847494c20444e41205446454c20595641454820534d524f463b4e3b3b3b3b3b4e4f3b303b6f533b544847495220544847494c20444e41205446454c2059564145482053474e495741524420584f423b45373532,
0x3b3b3b3b4e574f4420544847494c20444e4120505520595641454820534d524f463b4e3b3b3b3b3b4e4f3b303b6f533b4e574f4420544847494c20444e412050552059564145482053474e495741524420584f423b46373532,
0x3b3b3b3b3b4e3b3b3b3b3b4e4f3b303b6f533b4b434f4c4220464c41482052455050553b30383532,
0x3b3b3b3b3b4e3b3b3b3b3b4e4f3b303b6f533b4b434f4c422048544847494520454e4f205245574f4c3b31383532,
0x3b3b3b3b3b4e3b3b3b3b3b4e4f3b303b6f533b4b434f4c42205245545241555120454e4f205245574f4c3b32383532,
0x3b3b3b3b3b4e3b3b3b3b3b4e4f3b303b6f533b4b434f4c422053485448474945204545524854205245574f4c3b33383532,
0x3b3b3b3b3b4e3b3b3b3b3b4e4f3b303b6f533b4b434f4c4220464c4148205245574f4c3b34383532,
0x3b3b3b3b3b4e3b3b3b3b3b4e4f3b303b6f533b4b434f4c4220534854484749452045564946205245574f4c3b35383532,
0x3b3b3b3b4b434f4c422052455452415551204545524854205245574f4c3b4e3b3b3b3b3b4e4f3b303b6f533b4b434f4c42205352455452415551204545524854205245574f4c3b36383532,
0x3b3b3b3b3b4e3b3b3b3b3b4e4f3b303b6f533b4b434f4c422053485448474945204e45564553205245574f4c3b37383532,
0x3b3b3b3b3b4e3b3b3b3b3b4e4f3b303b6f533b4b434f4c42204c4c55463b38383532,
0x3b3b3b3b3b4e3b3b3b3b3b4e4f3b303b6f533b4b434f4c422053485448474945204e45564553205446454c3b39383532,
0x3b3b3b3b4b434f4c422052455452415551204545524854205446454c3b4e3b3b3b3b3b4e4f3b303b6f533b4b434f4c42205352455452415551204545524854205446454c3b41383532,
0x3b3b3b3b3b4e3b3b3b3b3b4e4f3b303b6f533b4b434f4c4220534854484749452045564946205446454c3b42383532,
0x3b3b3b3b3b4e3b3b3b3b3b4e4f3b303b6f533b4b434f4c4220464c4148205446454c3b43383532,
0x3b3b3b3b3b4e3b3b3b3b3b4e4f3b303b6f533b4b434f4c422053485448474945204545524854205446454c3b44383532,
0x3b3b3b3b3b4e3b3b3b3b3b4e4f3b303b6f533b4b434f4c42205245545241555120454e4f205446454c3b45383532,
0x3b3b3b3b3b4e3b3b3b3b3b4e4f3b303b6f533b4b434f4c422048544847494520454e4f205446454c3b46383532,
0x3b3b3b3b3b4e3b3b3b3b3b4e4f3b303b6f533b4b434f4c4220464c41482054484749523b30393532,
0x3b3b3b3b3b4e3b3b3b3b3b4e4f3b303b6f533b454441485320544847494c3b31393532,
0x3b3b3b3b3b4e3b3b3b3b3b4e4f3b303b6f533b4544414853204d554944454d3b32393532,
0x3b3b3b3b3b4e3b3b3b3b3b4e4f3b303b6f533b4544414853204b5241443b33393532,
0x3b3b3b3b3b4e3b3b3b3b3b4e4f3b303b6f533b4b434f4c422048544847494520454e4f2052455050553b34393532,
0x3b3b3b3b3b4e3b3b3b3b3b4e4f3b303b6f533b4b434f4c422048544847494520454e4f2054484749523b35393532,
0x3b3b3b3b3b4e3b3b3b3b3b4e4f3b303b6f533b5446454c205245574f4c20544e4152444155513b36393532,
0x3b3b3b3b3b4e3b3b3b3b3b4e4f3b303b6f533b5448474952205245574f4c20544e4152444155513b37393532,
0x3b3b3b3b3b4e3b3b3b3b3b4e4f3b303b6f533b5446454c20524550505520544e4152444155513b38393532,
0x3b3b3b3b3b4e3b3b3b3b3b4e4f3b303b6f533b5448474952205245574f4c20444e41205446454c205245574f4c20444e41205446454c20524550505520544e4152444155513b39393532,
0x3b3b3b3b3b4e3b3b3b3b3b4e4f3b303b6f533b5448474952205245574f4c20444e41205446454c20524550505520544e4152444155513b41393532,
0x3b3b3b3b3b4e3b3b3b3b3b4e4f3b303b6f533b5446454c205245574f4c20444e4120544847495220524550505520444e41205446454c20524550505520544e4152444155513b42393532,
0x3b3b3b3b3b4e3b3b3b3b3b4e4f3b303b6f533b5448474952205245574f4c20444e4120544847495220524550505520444e41205446454c20524550505520544e4152444155513b43393532,
0x3b3b3b3b3b4e3b3b3b3b3b4e4f3b303b6f533b544847495220524550505520544e4152444155513b44393532,
0x3b3b3b3b3b4e3b3b3b3b3b4e4f3b303b6f533b5446454c205245574f4c20444e4120544847495220524550505520544e4152444155513b45393532,
0x3b3b3b3b3b4e3b3b3b3b3b4e4f3b303b6f533b5448474952205245574f4c20444e41205446454c205245574f4c20444e4120544847495220524550505520544e4152444155513b46393532,
0x3b3b3b3b3b4e3b3b3b3b3b4e4f3b303b6f533b455241555153204b43414c423b30413532,
0x3b3b3b3b3b4e3b3b3b3b3b4e4f3b303b6f533b4552415551532045544948573b31413532,
0x3b3b3b3b3b4e3b3b3b3b3b4e4f3b303b6f533b5352454e524f43204445444e554f522048544957204552415551532045544948573b32413532,
0x3b3b3b3b3b4e3b3b3b3b3b4e4f3b303b6f533b455241555153204c4c414d53204b43414c4220474e494e4941544e4f43204552415551532045544948573b33413532,
0x3b3b3b3b3b4e3b3b3b3b3b4e4f3b303b6f533b4c4c4946204c41544e4f5a49524f482048544957204552415551533b34413532,
0x3b3b3b3b3b4e3b3b3b3b3b4e4f3b303b6f533b4c4c4946204c414349545245562048544957204552415551533b35413532,
0x3b3b3b3b3b4e3b3b3b3b3b4e4f3b303b6f533b4c4c494620484354414853534f5243204c414e4f474f4854524f2048544957204552415551533b36413532,
0x3b3b3b3b3b4e3b3b3b3b3b4e4f3b303b6f533b4c4c4946205448474952205245574f4c204f54205446454c2052455050552048544957204552415551533b37413532,
0x3b3b3b3b3b4e3b3b3b3b3b4e4f3b303b6f533b4c4c4946205446454c205245574f4c204f542054484749522052455050552048544957204552415551533b38413532,
0x3b3b3b3b3b4e3b3b3b3b3b4e4f3b303b6f533b4c4c494620484354414853534f5243204c414e4f474149442048544957204552415551533b39413532,
0x3b3b3b3b3b4e3b3b3b3b3b4e4f3b303b6f533b455241555153204c4c414d53204b43414c423b41413532,
0x3b3b3b3b3b4e3b3b3b3b3b4e4f3b303b6f533b455241555153204c4c414d532045544948573b42413532,
0x3b3b3b3b3b4e3b3b3b3b3b4e4f3b303b6f533b454c474e4154434552204b43414c423b43413532,
0x3b3b3b3b3b4e3b3b3b3b3b4e4f3b303b6f533b454c474e41544345522045544948573b44413532,
0x3b3b3b3b3b4e3b3b3b3b3b4e4f3b303b6f533b454c474e4154434552204c41434954524556204b43414c423b45413532,
0x3b3b3b3b3b4e3b3b3b3b3b4e4f3b303b6f533b454c474e4154434552204c414349545245562045544948573b46413532,
0x3b3b3b3b3b4e3b3b3b3b3b4e4f3b303b6f533b4d4152474f4c454c4c41524150204b43414c423b30423532,
0x3b3b3b3b3b4e3b3b3b3b3b4e4f3b303b6f533b4d4152474f4c454c4c415241502045544948573b31423532,
0x3b3b3b3b454c474e4149525420474e49544e494f50205055204b43414c423b4e3b3b3b3b3b4e4f3b303b6f533b454c474e4149525420474e49544e494f502d5055204b43414c423b32423532,
0x3b3b3b3b454c474e4149525420474e49544e494f502050552045544948573b4e3b3b3b3b3b4e4f3b303b6f533b454c474e4149525420474e49544e494f502d50552045544948573b33423532,
0x3b3b3b3b454c474e41495254204c4c414d5320474e49544e494f50205055204b43414c423b4e3b3b3b3b3b4e4f3b303b6f533b454c474e41495254204c4c414d5320474e49544e494f502d5055204b43414c423b34423532,
0x3b3b3b3b454c474e41495254204c4c414d5320474e49544e494f502050552045544948573b4e3b3b3b3b3b4e4f3b303b6f533b454c474e41495254204c4c414d5320474e49544e494f502d50552045544948573b35423532,
0x3b3b3b3b454c474e4149525420474e49544e494f50205448474952204b43414c423b4e3b3b3b3b3b4e4f3b303b6f533b454c474e4149525420474e49544e494f502d5448474952204b43414c423b36423532,
0x3b3b3b3b454c474e4149525420474e49544e494f502054484749522045544948573b4e3b3b3b3b3b4e4f3b303b6d533b454c474e4149525420474e49544e494f502d54484749522045544948573b37423532,
0x3b3b3b3b454c474e41495254204c4c414d5320474e49544e494f50205448474952204b43414c423b4e3b3b3b3b3b4e4f3b303b6f533b454c474e41495254204c4c414d5320474e49544e494f502d5448474952204b43414c423b38423532,
0x3b3b3b3b454c474e41495254204c4c414d5320474e49544e494f502054484749522045544948573b4e3b3b3b3b3b4e4f3b303b6f533b454c474e41495254204c4c414d5320474e49544e494f502d54484749522045544948573b39423532,
0x3b3b3b3b5245544e494f5020474e49544e494f50205448474952204b43414c423b4e3b3b3b3b3b4e4f3b303b6f533b5245544e494f5020474e49544e494f502d5448474952204b43414c423b41423532,
0x3b3b3b3b5245544e494f5020474e49544e494f502054484749522045544948573b4e3b3b3b3b3b4e4f3b303b6f533b5245544e494f5020474e49544e494f502d54484749522045544948573b42423532,
0x3b3b3b3b454c474e4149525420474e49544e494f50204e574f44204b43414c423b4e3b3b3b3b3b4e4f3b303b6f533b454c474e4149525420474e49544e494f502d4e574f44204b43414c423b43423532,
0x3b3b3b3b454c474e4149525420474e49544e494f50204e574f442045544948573b4e3b3b3b3b3b4e4f3b303b6f533b454c474e4149525420474e49544e494f502d4e574f442045544948573b44423532,
0x3b3b3b3b454c474e41495254204c4c414d5320474e49544e494f50204e574f44204b43414c423b4e3b3b3b3b3b4e4f3b303b6f533b454c474e41495254204c4c414d5320474e49544e494f502d4e574f44204b43414c423b45423532,
0x3b3b3b3b454c474e41495254204c4c414d5320474e49544e494f50204e574f442045544948573b4e3b3b3b3b3b4e4f3b303b6f533b454c474e41495254204c4c414d5320474e49544e494f502d4e574f442045544948573b46423532,
0x3b3b3b3b454c474e4149525420474e49544e494f50205446454c204b43414c423b4e3b3b3b3b3b4e4f3b303b6f533b454c474e4149525420474e49544e494f502d5446454c204b43414c423b30433532,
0x3b3b3b3b454c474e4149525420474e49544e494f50205446454c2045544948573b4e3b3b3b3b3b4e4f3b303b6d533b454c474e4149525420474e49544e494f502d5446454c2045544948573b31433532,
0x3b3b3b3b454c474e41495254204c4c414d5320474e49544e494f50205446454c204b43414c423b4e3b3b3b3b3b4e4f3b303b6f533b454c474e41495254204c4c414d5320474e49544e494f502d5446454c204b43414c423b32433532,
0x3b3b3b3b454c474e41495254204c4c414d5320474e49544e494f50205446454c2045544948573b4e3b3b3b3b3b4e4f3b303b6f533b454c474e41495254204c4c414d5320474e49544e494f502d5446454c2045544948573b33433532,
0x3b3b3b3b5245544e494f5020474e49544e494f50205446454c204b43414c423b4e3b3b3b3b3b4e4f3b303b6f533b5245544e494f5020474e49544e494f502d5446454c204b43414c423b34433532,
0x3b3b3b3b5245544e494f5020474e49544e494f50205446454c2045544948573b4e3b3b3b3b3b4e4f3b303b6f533b5245544e494f5020474e49544e494f502d5446454c2045544948573b35433532,
0x3b3b3b3b3b4e3b3b3b3b3b4e4f3b303b6f533b444e4f4d414944204b43414c423b36433532,
0x3b3b3b3b3b4e3b3b3b3b3b4e4f3b303b6f533b444e4f4d4149442045544948573b37433532,
0x3b3b3b3b3b4e3b3b3b3b3b4e4f3b303b6f533b444e4f4d414944204c4c414d53204b43414c4220474e494e4941544e4f4320444e4f4d4149442045544948573b38433532,
0x3b3b3b3b3b4e3b3b3b3b3b4e4f3b303b6f533b455945485349463b39433532,
0x3b3b3b3b3b4e3b3b3b3b3b4e4f3b303b6f533b45474e455a4f4c3b41433532,
0x3b3b3b3b3b4e3b3b3b3b3b4e4f3b303b6f533b454c435249432045544948573b42433532,
0x3b3b3b3b3b4e3b3b3b3b3b4e4f3b303b6f533b454c4352494320444554544f443b43433532,
0x3b3b3b3b3b4e3b3b3b3b3b4e4f3b303b6f533b4c4c4946204c41434954524556204854495720454c435249433b44433532,
0x3b3b3b3b3b4e3b3b3b3b3b4e4f3b303b6f533b455945534c4c55423b45433532,
0x3b3b3b3b3b4e3b3b3b3b3b4e4f3b303b6f533b454c43524943204b43414c423b46433532,
0x3b3b3b3b3b4e3b3b3b3b3b4e4f3b303b6f533b4b43414c4220464c4148205446454c204854495720454c435249433b30443532,
0x3b3b3b3b3b4e3b3b3b3b3b4e4f3b303b6f533b4b43414c4220464c4148205448474952204854495720454c435249433b31443532,
0x3b3b3b3b3b4e3b3b3b3b3b4e4f3b303b6f533b4b43414c4220464c4148205245574f4c204854495720454c435249433b32443532,
0x3b3b3b3b3b4e3b3b3b3b3b4e4f3b303b6f533b4b43414c4220464c4148205245505055204854495720454c435249433b33443532,
0x3b3b3b3b3b4e3b3b3b3b3b4e4f3b303b6f533b4b43414c4220544e415244415551205448474952205245505055204854495720454c435249433b34443532,
0x3b3b3b3b3b4e3b3b3b3b3b4e4f3b303b6f533b4b43414c4220544e415244415551205446454c20524550505520545542204c4c41204854495720454c435249433b35443532,
0x3b3b3b3b3b4e3b3b3b3b3b4e4f3b303b6f533b454c43524943204b43414c4220464c4148205446454c3b36443532,
0x3b3b3b3b3b4e3b3b3b3b3b4e4f3b303b6f533b454c43524943204b43414c4220464c41482054484749523b37443532,
0x3b3b3b3b3b4e3b3b3b3b3b4e4f3b303b6f533b54454c4c55422045535245564e493b38443532,
0x3b3b3b3b3b4e3b3b3b3b3b4e4f3b303b6f533b454c435249432045544948572045535245564e493b39443532,
0x3b3b3b3b3b4e3b3b3b3b3b4e4f3b303b6f533b454c435249432045544948572045535245564e4920464c41482052455050553b41443532,
0x3b3b3b3b3b4e3b3b3b3b3b4e4f3b303b6f533b454c435249432045544948572045535245564e4920464c4148205245574f4c3b42443532,
0x3b3b3b3b3b4e3b3b3b3b3b4e4f3b303b6f533b4352412052414c554352494320544e415244415551205446454c2052455050553b43443532,
0x3b3b3b3b3b4e3b3b3b3b3b4e4f3b303b6f533b4352412052414c554352494320544e4152444155512054484749522052455050553b44443532,
0x3b3b3b3b3b4e3b3b3b3b3b4e4f3b303b6f533b4352412052414c554352494320544e415244415551205448474952205245574f4c3b45443532,
0x3b3b3b3b3b4e3b3b3b3b3b4e4f3b303b6f533b4352412052414c554352494320544e415244415551205446454c205245574f4c3b46443532,
0x3b3b3b3b3b4e3b3b3b3b3b4e4f3b303b6f533b454c4352494320464c41482052455050553b30453532,
0x3b3b3b3b3b4e3b3b3b3b3b4e4f3b303b6f533b454c4352494320464c4148205245574f4c3b31453532,
0x3b3b3b3b3b4e3b3b3b3b3b4e4f3b303b6f533b454c474e41495254205448474952205245574f4c204b43414c423b32453532,
0x3b3b3b3b3b4e3b3b3b3b3b4e4f3b303b6f533b454c474e41495254205446454c205245574f4c204b43414c423b33453532,
0x3b3b3b3b3b4e3b3b3b3b3b4e4f3b303b6f533b454c474e41495254205446454c205245505055204b43414c423b34453532,
0x3b3b3b3b3b4e3b3b3b3b3b4e4f3b303b6f533b454c474e41495254205448474952205245505055204b43414c423b35453532,
0x3b3b3b3b3b4e3b3b3b3b3b4e4f3b303b6f533b54454c4c55422045544948573b36453532,
0x3b3b3b3b3b4e3b3b3b3b3b4e4f3b303b6f533b4b43414c4220464c4148205446454c2048544957204552415551533b37453532,
0x3b3b3b3b3b4e3b3b3b3b3b4e4f3b303b6f533b4b43414c4220464c41482054484749522048544957204552415551533b38453532,
0x3b3b3b3b3b4e3b3b3b3b3b4e4f3b303b6f533b4b43414c4220464c4148204c414e4f47414944205446454c2052455050552048544957204552415551533b39453532,
0x3b3b3b3b3b4e3b3b3b3b3b4e4f3b303b6f533b4b43414c4220464c4148204c414e4f47414944205448474952205245574f4c2048544957204552415551533b41453532,
0x3b3b3b3b3b4e3b3b3b3b3b4e4f3b303b6f533b454e494c20474e49544345534942204c414349545245562048544957204552415551532045544948573b42453532,
0x3b3b3b3b544f44204854495720454c474e4149525420474e49544e494f502050552045544948573b4e3b3b3b3b3b4e4f3b303b6f533b544f44204854495720454c474e4149525420474e49544e494f502d50552045544948573b43453532,
0x3b3b3b3b4b43414c4220464c4148205446454c204854495720454c474e4149525420474e49544e494f502050553b4e3b3b3b3b3b4e4f3b303b6f533b4b43414c4220464c4148205446454c204854495720454c474e4149525420474e49544e494f502d50553b44453532,
0x3b3b3b3b4b43414c4220464c4148205448474952204854495720454c474e4149525420474e49544e494f502050553b4e3b3b3b3b3b4e4f3b303b6f533b4b43414c4220464c4148205448474952204854495720454c474e4149525420474e49544e494f502d50553b45453532,
0x3b3b3b3b3b4e3b3b3b3b3b4e4f3b303b6f533b454c4352494320454752414c3b46453532,
0x3b3b3b3b3b4e3b3b3b3b3b4e4f3b303b6f533b544e415244415551205446454c2052455050552048544957204552415551532045544948573b30463532,
0x3b3b3b3b3b4e3b3b3b3b3b4e4f3b303b6f533b544e415244415551205446454c205245574f4c2048544957204552415551532045544948573b31463532,
0x3b3b3b3b3b4e3b3b3b3b3b4e4f3b303b6f533b544e415244415551205448474952205245574f4c2048544957204552415551532045544948573b32463532,
0x3b3b3b3b3b4e3b3b3b3b3b4e4f3b303b6f533b544e4152444155512054484749522052455050552048544957204552415551532045544948573b33463532,
0x3b3b3b3b3b4e3b3b3b3b3b4e4f3b303b6f533b544e415244415551205446454c205245505055204854495720454c435249432045544948573b34463532,
0x3b3b3b3b3b4e3b3b3b3b3b4e4f3b303b6f533b544e415244415551205446454c205245574f4c204854495720454c435249432045544948573b35463532,
0x3b3b3b3b3b4e3b3b3b3b3b4e4f3b303b6f533b544e415244415551205448474952205245574f4c204854495720454c435249432045544948573b36463532,
0x3b3b3b3b3b4e3b3b3b3b3b4e4f3b303b6f533b544e415244415551205448474952205245505055204854495720454c435249432045544948573b37463532,
0x3b3b3b3b3b4e3b3b3b3b3b4e4f3b303b6d533b454c474e41495254205446454c2052455050553b38463532,
0x3b3b3b3b3b4e3b3b3b3b3b4e4f3b303b6d533b454c474e414952542054484749522052455050553b39463532,
0x3b3b3b3b3b4e3b3b3b3b3b4e4f3b303b6d533b454c474e41495254205446454c205245574f4c3b41463532,
0x3b3b3b3b3b4e3b3b3b3b3b4e4f3b303b6d533b455241555153204d554944454d2045544948573b42463532,
0x3b3b3b3b3b4e3b3b3b3b3b4e4f3b303b6d533b455241555153204d554944454d204b43414c423b43463532,
0x3b3b3b3b3b4e3b3b3b3b3b4e4f3b303b6d533b455241555153204c4c414d53204d554944454d2045544948573b44463532,
0x3b3b3b3b3b4e3b3b3b3b3b4e4f3b303b6d533b455241555153204c4c414d53204d554944454d204b43414c423b45463532,
0x3b3b3b3b3b4e3b3b3b3b3b4e4f3b303b6d533b454c474e41495254205448474952205245574f4c3b46463532,
0x3b3b3b3b3b4e3b3b3b3b3b4e4f3b303b6f533b535941522048544957204e5553204b43414c423b30303632,
0x3b3b3b3b3b4e3b3b3b3b3b4e4f3b303b6f533b44554f4c433b31303632,
0x3b3b3b3b3b4e3b3b3b3b3b4e4f3b303b6f533b414c4c4552424d553b32303632,
0x3b3b3b3b3b4e3b3b3b3b3b4e4f3b303b6f533b4e414d574f4e533b33303632,
0x3b3b3b3b3b4e3b3b3b3b3b4e4f3b303b6f533b54454d4f433b34303632,
0x3b3b3b3b3b4e3b3b3b3b3b4e4f3b303b6f533b52415453204b43414c423b35303632,
0x3b3b3b3b3b4e3b3b3b3b3b4e4f3b303b6f533b524154532045544948573b36303632,
0x3b3b3b3b3b4e3b3b3b3b3b4e4f3b303b6f533b474e494e544847494c3b37303632,
0x3b3b3b3b3b4e3b3b3b3b3b4e4f3b303b6f533b4d524f54535245444e5548543b38303632,
0x3b3b3b3b3b4e3b3b3b3b3b4e4f3b303b6f533b4e55533b39303632,
0x3b3b3b3b3b4e3b3b3b3b3b4e4f3b303b6f533b45444f4e20474e49444e454353413b41303632,
0x3b3b3b3b3b4e3b3b3b3b3b4e4f3b303b6f533b45444f4e20474e49444e45435345443b42303632,
0x3b3b3b3b3b4e3b3b3b3b3b4e4f3b303b6f533b4e4f4954434e554a4e4f433b43303632,
0x3b3b3b3b3b4e3b3b3b3b3b4e4f3b303b6f533b4e4f495449534f50504f3b44303632,
0x3b3b3b3b3b4e3b3b3b3b3b4e4f3b303b6f533b454e4f4850454c4554204b43414c423b45303632,
0x3b3b3b3b3b4e3b3b3b3b3b4e4f3b303b6f533b454e4f4850454c45542045544948573b46303632,
0x3b3b3b3b3b4e3b3b3b3b3b4e4f3b303b6f533b584f4220544f4c4c41423b30313632,
0x3b3b3b3b3b4e3b3b3b3b3b4e4f3b303b6f533b4b43454843204854495720584f4220544f4c4c41423b31313632,
0x3b3b3b3b3b4e3b3b3b3b3b4e4f3b303b6f533b58204854495720584f4220544f4c4c41423b32313632,
0x3b3b3b3b3b4e3b3b3b3b3b4e4f3b303b6f533b455249544c41533b33313632,
0x3b3b3b3b3b4e3b3b3b3b3b4e4f3b303b6f533b53504f5244204e494152204854495720414c4c4552424d553b34313632,
0x3b3b3b3b3b4e3b3b3b3b3b4e4f3b303b6f533b454741524556454220544f483b35313632,
0x3b3b3b3b3b4e3b3b3b3b3b4e4f3b303b6f533b45434549502049474f48532045544948573b36313632,
0x3b3b3b3b3b4e3b3b3b3b3b4e4f3b303b6f533b45434549502049474f4853204b43414c423b37313632,
0x3b3b3b3b3b4e3b3b3b3b3b4e4f3b303b6f533b4b434f524d4148533b38313632,
0x3b3b3b3b3b4e3b3b3b3b3b4e4f3b303b6f533b54454c4c5542205452414548204c41524f4c462044455441544f522044455352455645523b39313632,
0x3b3b3b3b3b4e3b3b3b3b3b4e4f3b303b6f533b5845444e4920474e49544e494f50205446454c204b43414c423b41313632,
0x3b3b3b3b3b4e3b3b3b3b3b4e4f3b303b6f533b5845444e4920474e49544e494f50205448474952204b43414c423b42313632,
0x3b3b3b3b3b4e3b3b3b3b3b4e4f3b303b6f533b5845444e4920474e49544e494f50205446454c2045544948573b43313632,
0x3b3b3b3b3b4e3b3b3b3b3b4e4f3b303b6f533b5845444e4920474e49544e494f502050552045544948573b44313632,
0x3b3b3b3b3b4e3b3b3b3b3b4e4f3b303b6f533b5845444e4920474e49544e494f502054484749522045544948573b45313632,
0x3b3b3b3b3b4e3b3b3b3b3b4e4f3b303b6f533b5845444e4920474e49544e494f50204e574f442045544948573b46313632,
0x3b3b3b3b3b4e3b3b3b3b3b4e4f3b303b6f533b53454e4f4253534f524320444e41204c4c554b533b30323632,
0x3b3b3b3b3b4e3b3b3b3b3b4e4f3b303b6f533b4e474953204e4f49545541433b31323632,
0x3b3b3b3b3b4e3b3b3b3b3b4e4f3b303b6f533b4e474953204556495443414f494441523b32323632,
0x3b3b3b3b3b4e3b3b3b3b3b4e4f3b303b6f533b4e474953204452415a41484f49423b33323632,
0x3b3b3b3b3b4e3b3b3b3b3b4e4f3b303b6f533b53554543554441433b34323632,
0x3b3b3b3b3b4e3b3b3b3b3b4e4f3b303b6f533b484b4e413b35323632,
0x3b3b3b3b3b4e3b3b3b3b3b4e4f3b303b6f533b53534f524320584f444f4854524f3b36323632,
0x3b3b3b3b3b4e3b3b3b3b3b4e4f3b303b6f533b4f4852204948433b37323632,
0x3b3b3b3b3b4e3b3b3b3b3b4e4f3b303b6f533b454e494152524f4c20464f2053534f52433b38323632,
0x3b3b3b3b3b4e3b3b3b3b3b4e4f3b303b6f533b4d454c41535552454a20464f2053534f52433b39323632,
0x3b3b3b3b3b4e3b3b3b3b3b4e4f3b303b6f533b544e45435345524320444e4120524154533b41323632,
0x3b3b3b3b4e41524920464f204c4f424d59533b4e3b3b3b3b3b4e4f3b303b6f533b4c4f424d59532049535241463b42323632,
0x3b3b3b3b3b4e3b3b3b3b3b4e4f3b303b6f533b49544b414853204944413b43323632,
0x3b3b3b3b3b4e3b3b3b3b3b4e4f3b303b6f533b454c4b43495320444e412052454d4d41483b44323632,
0x3b3b3b3b3b4e3b3b3b3b3b4e4f3b303b6f533b4c4f424d59532045434145503b45323632,
0x3b3b3b3b3b4e3b3b3b3b3b4e4f3b303b6f533b474e4159204e49593b46323632,
0x3b3b3b3b3b4e3b3b3b3b3b4e4f3b303b6f533b4e455641454820524f46204d4152474952543b30333632,
0x3b3b3b3b3b4e3b3b3b3b3b4e4f3b303b6f533b454b414c20524f46204d4152474952543b31333632,
0x3b3b3b3b3b4e3b3b3b3b3b4e4f3b303b6f533b4552494620524f46204d4152474952543b32333632,
0x3b3b3b3b3b4e3b3b3b3b3b4e4f3b303b6f533b5245444e55485420524f46204d4152474952543b33333632,
0x3b3b3b3b3b4e3b3b3b3b3b4e4f3b303b6f533b444e495720524f46204d4152474952543b34333632,
0x3b3b3b3b3b4e3b3b3b3b3b4e4f3b303b6f533b524554415720524f46204d4152474952543b35333632,
0x3b3b3b3b3b4e3b3b3b3b3b4e4f3b303b6f533b4e4941544e554f4d20524f46204d4152474952543b36333632,
0x3b3b3b3b3b4e3b3b3b3b3b4e4f3b303b6f533b485452414520524f46204d4152474952543b37333632,
0x3b3b3b3b3b4e3b3b3b3b3b4e4f3b303b6f533b414d5241484420464f204c454548573b38333632,
0x3b3b3b3b3b4e3b3b3b3b3b4e4f3b303b6f533b4543414620474e494e574f52462045544948573b39333632,
0x3b3b3b3b3b4e3b3b3b3b3b4e4f3b303b6f533b4543414620474e494c494d532045544948573b41333632,
0x3b3b3b3b3b4e3b3b3b3b3b4e4f3b303b6f533b4543414620474e494c494d53204b43414c423b42333632,
0x3b3b3b3b3b4e3b3b3b3b3b4e4f3b303b6f533b535941522048544957204e55532045544948573b43333632,
0x3b3b3b3b3b4e3b3b3b3b3b4e4f3b303b6f533b4e4f4f4d20524554524155512054535249463b44333632,
0x3b3b3b3b3b4e3b3b3b3b3b4e4f3b303b6f533b4e4f4f4d2052455452415551205453414c3b45333632,
0x3b3b3b3b3b4e3b3b3b3b3b4e4f3b303b6f533b5952554352454d3b46333632,
0x3b3b3b3b3b4e3b3b3b3b3b4e4f3b303b6f533b4e47495320454c414d45463b30343632,
0x3b3b3b3b3b4e3b3b3b3b3b4e4f3b303b6f533b48545241453b31343632,
0x3b3b3b3b3b4e3b3b3b3b3b4e4f3b303b6f533b4e47495320454c414d3b32343632,
0x3b3b3b3b3b4e3b3b3b3b3b4e4f3b303b6f533b5245544950554a3b33343632,
0x3b3b3b3b3b4e3b3b3b3b3b4e4f3b303b6f533b4e52555441533b34343632,
0x3b3b3b3b3b4e3b3b3b3b3b4e4f3b303b6f533b53554e4152553b35343632,
0x3b3b3b3b3b4e3b3b3b3b3b4e4f3b303b6f533b454e555450454e3b36343632,
0x3b3b3b3b3b4e3b3b3b3b3b4e4f3b303b6f533b4f54554c503b37343632,
0x3b3b3b3b3b4e3b3b3b3b3b4e4f3b303b6f533b53454952413b38343632,
0x3b3b3b3b3b4e3b3b3b3b3b4e4f3b303b6f533b5355525541543b39343632,
0x3b3b3b3b3b4e3b3b3b3b3b4e4f3b303b6f533b494e494d45473b41343632,
0x3b3b3b3b3b4e3b3b3b3b3b4e4f3b303b6f533b5245434e41433b42343632,
0x3b3b3b3b3b4e3b3b3b3b3b4e4f3b303b6f533b4f454c3b43343632,
0x3b3b3b3b3b4e3b3b3b3b3b4e4f3b303b6f533b4f475249563b44343632,
0x3b3b3b3b3b4e3b3b3b3b3b4e4f3b303b6f533b415242494c3b45343632,
0x3b3b3b3b3b4e3b3b3b3b3b4e4f3b303b6f533b53554950524f43533b46343632,
0x3b3b3b3b3b4e3b3b3b3b3b4e4f3b303b6f533b53554952415454494741533b30353632,
0x3b3b3b3b3b4e3b3b3b3b3b4e4f3b303b6f533b4e524f4349525041433b31353632,
0x3b3b3b3b3b4e3b3b3b3b3b4e4f3b303b6f533b53554952415551413b32353632,
0x3b3b3b3b3b4e3b3b3b3b3b4e4f3b303b6f533b5345435349503b33353632,
0x3b3b3b3b3b4e3b3b3b3b3b4e4f3b303b6f533b474e494b2053534548432045544948573b34353632,
0x3b3b3b3b3b4e3b3b3b3b3b4e4f3b303b6f533b4e454555512053534548432045544948573b35353632,
0x3b3b3b3b3b4e3b3b3b3b3b4e4f3b303b6f533b4b4f4f522053534548432045544948573b36353632,
0x3b3b3b3b3b4e3b3b3b3b3b4e4f3b303b6f533b504f485349422053534548432045544948573b37353632,
0x3b3b3b3b3b4e3b3b3b3b3b4e4f3b303b6f533b544847494e4b2053534548432045544948573b38353632,
0x3b3b3b3b3b4e3b3b3b3b3b4e4f3b303b6f533b4e5741502053534548432045544948573b39353632,
0x3b3b3b3b3b4e3b3b3b3b3b4e4f3b303b6f533b474e494b205353454843204b43414c423b41353632,
0x3b3b3b3b3b4e3b3b3b3b3b4e4f3b303b6f533b4e45455551205353454843204b43414c423b42353632,
0x3b3b3b3b3b4e3b3b3b3b3b4e4f3b303b6f533b4b4f4f52205353454843204b43414c423b43353632,
0x3b3b3b3b3b4e3b3b3b3b3b4e4f3b303b6f533b504f48534942205353454843204b43414c423b44353632,
0x3b3b3b3b3b4e3b3b3b3b3b4e4f3b303b6f533b544847494e4b205353454843204b43414c423b45353632,
0x3b3b3b3b3b4e3b3b3b3b3b4e4f3b303b6f533b4e574150205353454843204b43414c423b46353632,
0x3b3b3b3b3b4e3b3b3b3b3b4e4f3b303b6f533b54495553204544415053204b43414c423b30363632,
0x3b3b3b3b3b4e3b3b3b3b3b4e4f3b303b6f533b544955532054524145482045544948573b31363632,
0x3b3b3b3b3b4e3b3b3b3b3b4e4f3b303b6f533b5449555320444e4f4d4149442045544948573b32363632,
0x3b3b3b3b3b4e3b3b3b3b3b4e4f3b303b6f533b544955532042554c43204b43414c423b33363632,
0x3b3b3b3b3b4e3b3b3b3b3b4e4f3b303b6f533b544955532045444150532045544948573b34363632]

/-- src/u5e/props/UnicodeData.txt lines 8705-8960. -/
def rawUcd34 : List Nat := [
0x3b3b3b3b3b4e3b3b3b3b3b4e4f3b303b6f533b54495553205452414548204b43414c423b35363632,
0x3b3b3b3b3b4e3b3b3b3b3b4e4f3b303b6f533b5449555320444e4f4d414944204b43414c423b36363632,
0x3b3b3b3b3b4e3b3b3b3b3b4e4f3b303b6f533b544955532042554c432045544948573b37363632,
0x3b3b3b3b3b4e3b3b3b3b3b4e4f3b303b6f533b53474e4952505320544f483b38363632,
0x3b3b3b3b3b4e3b3b3b3b3b4e4f3b303b6f533b45544f4e20524554524155513b39363632,
0x3b3b3b3b3b4e3b3b3b3b3b4e4f3b303b6f533b45544f4e204854484749453b41363632,
0x3b3b3b3b5345544f4e20485448474945204445525241423b4e3b3b3b3b3b4e4f3b303b6f533b5345544f4e204854484749452044454d4145423b42363632,
0x3b3b3b3b5345544f4e2048544e454554584953204445525241423b4e3b3b3b3b3b4e4f3b303b6f533b5345544f4e2048544e4545545849532044454d4145423b43363632,
0x3b3b3b3b54414c463b4e3b3b3b3b3b4e4f3b303b6f533b4e4749532054414c4620434953554d3b44363632,
0x3b3b3b3b4c41525554414e3b4e3b3b3b3b3b4e4f3b303b6f533b4e474953204c41525554414e20434953554d3b45363632,
0x3b3b3b3b50524148533b4e3b3b3b3b3b4e4f3b303b6d533b4e47495320505241485320434953554d3b46363632,
0x3b3b3b3b3b4e3b3b3b3b3b4e4f3b303b6f533b53534f52432043414952595320545345573b30373632,
0x3b3b3b3b3b4e3b3b3b3b3b4e4f3b303b6f533b53534f52432043414952595320545341453b31373632,
0x3b3b3b3b3b4e3b3b3b3b3b4e4f3b303b6f533b4c4f424d595320474e494c4359434552204c4153524556494e553b32373632,
0x3b3b3b3b3b4e3b3b3b3b3b4e4f3b303b6f533b5343495453414c5020312d4550595420524f46204c4f424d595320474e494c43594345523b33373632,
0x3b3b3b3b3b4e3b3b3b3b3b4e4f3b303b6f533b5343495453414c5020322d4550595420524f46204c4f424d595320474e494c43594345523b34373632,
0x3b3b3b3b3b4e3b3b3b3b3b4e4f3b303b6f533b5343495453414c5020332d4550595420524f46204c4f424d595320474e494c43594345523b35373632,
0x3b3b3b3b3b4e3b3b3b3b3b4e4f3b303b6f533b5343495453414c5020342d4550595420524f46204c4f424d595320474e494c43594345523b36373632,
0x3b3b3b3b3b4e3b3b3b3b3b4e4f3b303b6f533b5343495453414c5020352d4550595420524f46204c4f424d595320474e494c43594345523b37373632,
0x3b3b3b3b3b4e3b3b3b3b3b4e4f3b303b6f533b5343495453414c5020362d4550595420524f46204c4f424d595320474e494c43594345523b38373632,
0x3b3b3b3b3b4e3b3b3b3b3b4e4f3b303b6f533b5343495453414c5020372d4550595420524f46204c4f424d595320474e494c43594345523b39373632,
0x3b3b3b3b3b4e3b3b3b3b3b4e4f3b303b6f533b534c4149524554414d20434952454e454720524f46204c4f424d595320474e494c43594345523b41373632,
0x3b3b3b3b3b4e3b3b3b3b3b4e4f3b303b6f533b4c4f424d595320474e494c4359434552204c4153524556494e55204b43414c423b42373632,
0x3b3b3b3b3b4e3b3b3b3b3b4e4f3b303b6f533b4c4f424d59532052455041502044454c43594345523b43373632,
0x3b3b3b3b3b4e3b3b3b3b3b4e4f3b303b6f533b4c4f424d59532052455041502044454c43594345522d594c4c4149545241503b44373632,
0x3b3b3b3b3b4e3b3b3b3b3b4e4f3b303b6f533b4e47495320524550415020544e454e414d5245503b45373632,
0x3b3b3b3b3b4e3b3b3b3b3b4e4f3b303b6f533b4c4f424d59532052494148434c454548573b46373632,
0x3b3b3b3b3b4e3b3b3b3b3b4e4f3b303b6f533b312d45434146204549443b30383632,
0x3b3b3b3b3b4e3b3b3b3b3b4e4f3b303b6f533b322d45434146204549443b31383632,
0x3b3b3b3b3b4e3b3b3b3b3b4e4f3b303b6f533b332d45434146204549443b32383632,
0x3b3b3b3b3b4e3b3b3b3b3b4e4f3b303b6f533b342d45434146204549443b33383632,
0x3b3b3b3b3b4e3b3b3b3b3b4e4f3b303b6f533b352d45434146204549443b34383632,
0x3b3b3b3b3b4e3b3b3b3b3b4e4f3b303b6f533b362d45434146204549443b35383632,
0x3b3b3b3b3b4e3b3b3b3b3b4e4f3b303b6f533b544847495220544f44204854495720454c435249432045544948573b36383632,
0x3b3b3b3b3b4e3b3b3b3b3b4e4f3b303b6f533b53544f44204f5754204854495720454c435249432045544948573b37383632,
0x3b3b3b3b3b4e3b3b3b3b3b4e4f3b303b6f533b544847495220544f44204554494857204854495720454c43524943204b43414c423b38383632,
0x3b3b3b3b3b4e3b3b3b3b3b4e4f3b303b6f533b53544f44204554494857204f5754204854495720454c43524943204b43414c423b39383632,
0x3b3b3b3b3b4e3b3b3b3b3b4e4f3b303b6f533b474e415920524f46204d4152474f4e4f4d3b41383632,
0x3b3b3b3b3b4e3b3b3b3b3b4e4f3b303b6f533b4e495920524f46204d4152474f4e4f4d3b42383632,
0x3b3b3b3b3b4e3b3b3b3b3b4e4f3b303b6f533b474e4159205245544145524720524f46204d41524749443b43383632,
0x3b3b3b3b3b4e3b3b3b3b3b4e4f3b303b6f533b4e49592052455353454c20524f46204d41524749443b44383632,
0x3b3b3b3b3b4e3b3b3b3b3b4e4f3b303b6f533b474e41592052455353454c20524f46204d41524749443b45383632,
0x3b3b3b3b3b4e3b3b3b3b3b4e4f3b303b6f533b4e4959205245544145524720524f46204d41524749443b46383632,
0x3b3b3b3b3b4e3b3b3b3b3b4e4f3b303b6f533b47414c462045544948573b30393632,
0x3b3b3b3b3b4e3b3b3b3b3b4e4f3b303b6f533b47414c46204b43414c423b31393632,
0x3b3b3b3b3b4e3b3b3b3b3b4e4f3b303b6f533b4b43495020444e412052454d4d41483b32393632,
0x3b3b3b3b3b4e3b3b3b3b3b4e4f3b303b6f533b524f48434e413b33393632,
0x3b3b3b3b3b4e3b3b3b3b3b4e4f3b303b6f533b5344524f575320444553534f52433b34393632,
0x3b3b3b3b3b4e3b3b3b3b3b4e4f3b303b6f533b53554950414c554353454120464f2046464154533b35393632,
0x3b3b3b3b3b4e3b3b3b3b3b4e4f3b303b6f533b53454c4143533b36393632,
0x3b3b3b3b3b4e3b3b3b3b3b4e4f3b303b6f533b4349424d454c413b37393632,
0x3b3b3b3b3b4e3b3b3b3b3b4e4f3b303b6f533b5245574f4c463b38393632,
0x3b3b3b3b3b4e3b3b3b3b3b4e4f3b303b6f533b524145473b39393632,
0x3b3b3b3b3b4e3b3b3b3b3b4e4f3b303b6f533b53454d52454820464f2046464154533b41393632,
0x3b3b3b3b3b4e3b3b3b3b3b4e4f3b303b6f533b4c4f424d5953204d4f54413b42393632,
0x3b3b3b3b3b4e3b3b3b3b3b4e4f3b303b6f533b53494c2d45442d5255454c463b43393632,
0x3b3b3b3b3b4e3b3b3b3b3b4e4f3b303b6f533b524154532045544948572044454e494c54554f3b44393632,
0x3b3b3b3b3b4e3b3b3b3b3b4e4f3b303b6f533b544847495220474e49475245564e4f432053454e494c2045455248543b45393632,
0x3b3b3b3b3b4e3b3b3b3b3b4e4f3b303b6f533b5446454c20474e49475245564e4f432053454e494c2045455248543b46393632,
0x3b3b3b3b3b4e3b3b3b3b3b4e4f3b303b6f533b4e47495320474e494e5241573b30413632,
0x3b3b3b3b3b4e3b3b3b3b3b4e4f3b303b6f533b4e47495320454741544c4f5620484749483b31413632,
0x3b3b3b3b3b4e3b3b3b3b3b4e4f3b303b6f533b4e47495320454c414d45462044454c42554f443b32413632,
0x3b3b3b3b3b4e3b3b3b3b3b4e4f3b303b6f533b4e47495320454c414d2044454c42554f443b33413632,
0x3b3b3b3b3b4e3b3b3b3b3b4e4f3b303b6f533b4e47495320454c414d20444e4120454c414d45462044454b434f4c5245544e493b34413632,
0x3b3b3b3b3b4e3b3b3b3b3b4e4f3b303b6f533b4e47495320454c414d454620444e4120454c414d3b35413632,
0x3b3b3b3b3b4e3b3b3b3b3b4e4f3b303b6f533b4e47495320454b4f525453204854495720454c414d3b36413632,
0x3b3b3b3b3b4e3b3b3b3b3b4e4f3b303b6f533b4e47495320454c414d454620444e4120454c414d20444e4120454b4f525453204854495720454c414d3b37413632,
0x3b3b3b3b3b4e3b3b3b3b3b4e4f3b303b6f533b4e47495320454b4f525453204854495720454c414d204c414349545245563b38413632,
0x3b3b3b3b3b4e3b3b3b3b3b4e4f3b303b6f533b4e47495320454b4f525453204854495720454c414d204c41544e4f5a49524f483b39413632,
0x3b3b3b3b3b4e3b3b3b3b3b4e4f3b303b6f533b454c43524943204554494857204d554944454d3b41413632,
0x3b3b3b3b3b4e3b3b3b3b3b4e4f3b303b6f533b454c43524943204b43414c42204d554944454d3b42413632,
0x3b3b3b3b3b4e3b3b3b3b3b4c3b303b6f533b454c43524943204554494857204c4c414d53204d554944454d3b43413632,
0x3b3b3b3b3b4e3b3b3b3b3b4e4f3b303b6f533b4c4f424d595320454741495252414d3b44413632,
0x3b3b3b3b3b4e3b3b3b3b3b4e4f3b303b6f533b4c4f424d5953204543524f5649443b45413632,
0x3b3b3b3b3b4e3b3b3b3b3b4e4f3b303b6f533b4c4f424d5953205049485352454e54524150204445495252414d4e553b46413632,
0x3b3b3b3b3b4e3b3b3b3b3b4e4f3b303b6f533b4e4946464f433b30423632,
0x3b3b3b3b3b4e3b3b3b3b3b4e4f3b303b6f533b4e5255204c4152454e55463b31423632,
0x3b3b3b3b3b4e3b3b3b3b3b4e4f3b303b6f533b52455455454e3b32423632,
0x3b3b3b3b3b4e3b3b3b3b3b4e4f3b303b6f533b53455245433b33423632,
0x3b3b3b3b3b4e3b3b3b3b3b4e4f3b303b6f533b53414c4c41503b34423632,
0x3b3b3b3b3b4e3b3b3b3b3b4e4f3b303b6f533b4f4e554a3b35423632,
0x3b3b3b3b3b4e3b3b3b3b3b4e4f3b303b6f533b41545345563b36423632,
0x3b3b3b3b3b4e3b3b3b3b3b4e4f3b303b6f533b4e4f524948433b37423632,
0x3b3b3b3b3b4e3b3b3b3b3b4e4f3b303b6f533b4854494c494c204e4f4f4d204b43414c423b38423632,
0x3b3b3b3b3b4e3b3b3b3b3b4e4f3b303b6f533b454c49545845533b39423632,
0x3b3b3b3b3b4e3b3b3b3b3b4e4f3b303b6f533b454c4954584553494d45533b41423632,
0x3b3b3b3b3b4e3b3b3b3b3b4e4f3b303b6f533b584e55434e4955513b42423632,
0x3b3b3b3b3b4e3b3b3b3b3b4e4f3b303b6f533b45544152444155514955515345533b43423632,
0x3b3b3b3b3b4e3b3b3b3b3b4e4f3b303b6f533b4c4c414220524543434f533b44423632,
0x3b3b3b3b3b4e3b3b3b3b3b4e4f3b303b6f533b4c4c4142455341423b45423632,
0x3b3b3b3b3b4e3b3b3b3b3b4e4f3b303b6f533b59454b20444552415551533b46423632,
0x3b3b3b3b3b4e3b3b3b3b3b4e4f3b303b6f533b4e414d2053544847554152442045544948573b30433632,
0x3b3b3b3b3b4e3b3b3b3b3b4e4f3b303b6f533b474e494b2053544847554152442045544948573b31433632,
0x3b3b3b3b3b4e3b3b3b3b3b4e4f3b303b6f533b4e414d205354484755415244204b43414c423b32433632,
0x3b3b3b3b3b4e3b3b3b3b3b4e4f3b303b6f533b474e494b205354484755415244204b43414c423b33433632,
0x3b3b3b3b3b4e3b3b3b3b3b4e4f3b303b6f533b574f4e532054554f48544957204e414d574f4e533b34433632,
0x3b3b3b3b3b4e3b3b3b3b3b4e4f3b303b6f533b44554f4c4320444e49484542204e55533b35433632,
0x3b3b3b3b3b4e3b3b3b3b3b4e4f3b303b6f533b4e4941523b36433632,
0x3b3b3b3b3b4e3b3b3b3b3b4e4f3b303b6f533b4e414d574f4e53204b43414c423b37433632,
0x3b3b3b3b3b4e3b3b3b3b3b4e4f3b303b6f533b4e49415220444e412044554f4c43205245444e5548543b38433632,
0x3b3b3b3b3b4e3b3b3b3b3b4e4f3b303b6f533b45434549502049474f48532045544948572044454e5255543b39433632,
0x3b3b3b3b3b4e3b3b3b3b3b4e4f3b303b6f533b45434549502049474f4853204b43414c422044454e5255543b41433632,
0x3b3b3b3b3b4e3b3b3b3b3b4e4f3b303b6f533b455241555153204e4920444e4f4d4149442045544948573b42433632,
0x3b3b3b3b3b4e3b3b3b3b3b4e4f3b303b6f533b53454e414c20474e4953534f52433b43433632,
0x3b3b3b3b3b4e3b3b3b3b3b4e4f3b303b6f533b5241432044454c42415349443b44433632,
0x3b3b3b3b3b4e3b3b3b3b3b4e4f3b303b6f533b53554843554948504f3b45433632,
0x3b3b3b3b3b4e3b3b3b3b3b4e4f3b303b6f533b4b4349503b46433632,
0x3b3b3b3b3b4e3b3b3b3b3b4e4f3b303b6f533b474e4944494c53205241433b30443632,
0x3b3b3b3b3b4e3b3b3b3b3b4e4f3b303b6f533b53534f524320455449485720485449572054454d4c45483b31443632,
0x3b3b3b3b3b4e3b3b3b3b3b4e4f3b303b6f533b53454e414c20474e4953534f52432044454c435249433b32443632,
0x3b3b3b3b3b4e3b3b3b3b3b4e4f3b303b6f533b534e494148433b33443632,
0x3b3b3b3b3b4e3b3b3b3b3b4e4f3b303b6f533b5952544e45204f4e3b34443632,
0x3b3b3b3b3b4e3b3b3b3b3b4e4f3b303b6f533b4349464641525420594157205446454c205941572d454e4f204554414e5245544c413b35443632,
0x3b3b3b3b3b4e3b3b3b3b3b4e4f3b303b6f533b4349464641525420594157205446454c205941572d4f5754204b43414c423b36443632,
0x3b3b3b3b3b4e3b3b3b3b3b4e4f3b303b6f533b4349464641525420594157205446454c205941572d4f57542045544948573b37443632,
0x3b3b3b3b3b4e3b3b3b3b3b4e4f3b303b6f533b454752454d20454e414c205446454c204b43414c423b38443632,
0x3b3b3b3b3b4e3b3b3b3b3b4e4f3b303b6f533b454752454d20454e414c205446454c2045544948573b39443632,
0x3b3b3b3b3b4e3b3b3b3b3b4e4f3b303b6f533b4e47495320574f4c532045564952443b41443632,
0x3b3b3b3b3b4e3b3b3b3b3b4e4f3b303b6f533b454c474e4149525420474e49544e494f502d4e574f442045544948572059564145483b42443632,
0x3b3b3b3b3b4e3b3b3b3b3b4e4f3b303b6f533b5952544e45204445534f4c43205446454c3b43443632,
0x3b3b3b3b3b4e3b3b3b3b3b4e4f3b303b6f533b455249544c415320444552415551533b44443632,
0x3b3b3b3b3b4e3b3b3b3b3b4e4f3b303b6f533b455241555153204b43414c42204e4920454c43524943204554494857204e49204c414e4f4741494420474e494c4c41463b45443632,
0x3b3b3b3b3b4e3b3b3b3b3b4e4f3b303b6f533b4b43555254204b43414c423b46443632,
0x3b3b3b3b3b4e3b3b3b3b3b4e4f3b303b6f533b312d5952544e45205446454c20444554434952545345523b30453632,
0x3b3b3b3b3b4e3b3b3b3b3b4e4f3b303b6f533b322d5952544e45205446454c20444554434952545345523b31453632,
0x3b3b3b3b3b4e3b3b3b3b3b4e4f3b303b6f533b53554e41525520524f46204c4f424d5953204c4143494d4f4e4f525453413b32453632,
0x3b3b3b3b3b4e3b3b3b3b3b4e4f3b303b6f533b45564f42412053544f44204f575420444e4120454b4f525453204854495720454c435249432059564145483b33453632,
0x3b3b3b3b3b4e3b3b3b3b3b4e4f3b303b6f533b4d41524741544e45503b34453632,
0x3b3b3b3b3b4e3b3b3b3b3b4e4f3b303b6f533b4d41524741544e455020444543414c5245544e49204445444e41482d54484749523b35453632,
0x3b3b3b3b3b4e3b3b3b3b3b4e4f3b303b6f533b4d41524741544e455020444543414c5245544e49204445444e41482d5446454c3b36453632,
0x3b3b3b3b3b4e3b3b3b3b3b4e4f3b303b6f533b4d41524741544e4550204445545245564e493b37453632,
0x3b3b3b3b3b4e3b3b3b3b3b4e4f3b303b6f533b444c45494853204e4f2053534f5243204b43414c423b38453632,
0x3b3b3b3b3b4e3b3b3b3b3b4e4f3b303b6f533b454e49524853204f544e4948533b39453632,
0x3b3b3b3b3b4e3b3b3b3b3b4e4f3b303b6f533b4843525548433b41453632,
0x3b3b3b3b3b4e3b3b3b3b3b4e4f3b303b6f533b454c545341433b42453632,
0x3b3b3b3b3b4e3b3b3b3b3b4e4f3b303b6f533b45544953204349524f545349483b43453632,
0x3b3b3b3b3b4e3b3b3b3b3b4e4f3b303b6f533b4255482054554f4854495720524145473b44453632,
0x3b3b3b3b3b4e3b3b3b3b3b4e4f3b303b6f533b53454c444e4148204854495720524145473b45453632,
0x3b3b3b3b3b4e3b3b3b3b3b4e4f3b303b6f533b4553554f48544847494c20524f46204c4f424d59532050414d3b46453632,
0x3b3b3b3b3b4e3b3b3b3b3b4e4f3b303b6f533b4e4941544e554f4d3b30463632,
0x3b3b3b3b3b4e3b3b3b3b3b4e4f3b303b6f533b444e554f5247204e4f20414c4c4552424d553b31463632,
0x3b3b3b3b3b4e3b3b3b3b3b4e4f3b303b6f533b4e4941544e554f463b32463632,
0x3b3b3b3b3b4e3b3b3b3b3b4e4f3b303b6f533b454c4f48204e492047414c463b33463632,
0x3b3b3b3b3b4e3b3b3b3b3b4e4f3b303b6f533b59525245463b34463632,
0x3b3b3b3b3b4e3b3b3b3b3b4e4f3b303b6f533b54414f424c4941533b35463632,
0x3b3b3b3b3b4e3b3b3b3b3b4e4f3b303b6f533b5352454e524f432052554f46204552415551533b36463632,
0x3b3b3b3b3b4e3b3b3b3b3b4e4f3b303b6f533b5245494b533b37463632,
0x3b3b3b3b3b4e3b3b3b3b3b4e4f3b303b6f533b4554414b53204543493b38463632,
0x3b3b3b3b3b4e3b3b3b3b3b4e4f3b303b6f533b4c4c41422048544957204e4f535245503b39463632,
0x3b3b3b3b3b4e3b3b3b3b3b4e4f3b303b6f533b544e45543b41463632,
0x3b3b3b3b3b4e3b3b3b3b3b4e4f3b303b6f533b4c4f424d5953204b4e4142204553454e4150414a3b42463632,
0x3b3b3b3b3b4e3b3b3b3b3b4e4f3b303b6f533b4c4f424d59532044524159455641524720454e4f5453444145483b43463632,
0x3b3b3b3b3b4e3b3b3b3b3b4e4f3b303b6f533b504d5550204c4555463b44463632,
0x3b3b3b3b3b4e3b3b3b3b3b4e4f3b303b6f533b455241555153204b43414c42204e4f205055433b45463632,
0x3b3b3b3b3b4e3b3b3b3b3b4e4f3b303b6f533b455049525453204b43414c4220454c4444494d204c41544e4f5a49524f4820485449572047414c462045544948573b46463632,
0x3b3b3b3b3b4e3b3b3b3b3b4e4f3b303b6f533b53524f535349435320595445464153204b43414c423b30303732,
0x3b3b3b3b3b4e3b3b3b3b3b4e4f3b303b6f533b53524f5353494353204544414c422052455050553b31303732,
0x3b3b3b3b3b4e3b3b3b3b3b4e4f3b303b6f533b53524f5353494353204b43414c423b32303732,
0x3b3b3b3b3b4e3b3b3b3b3b4e4f3b303b6f533b53524f5353494353204544414c42205245574f4c3b33303732,
0x3b3b3b3b3b4e3b3b3b3b3b4e4f3b303b6f533b53524f53534943532045544948573b34303732,
0x3b3b3b3b3b4e3b3b3b3b3b4e4f3b303b6f533b4b52414d204b434548432059564145482045544948573b35303732,
0x3b3b3b3b3b4e3b3b3b3b3b4e4f3b303b6f533b4e474953204e4f495441434f4c20454e4f4850454c45543b36303732,
0x3b3b3b3b3b4e3b3b3b3b3b4e4f3b303b6f533b455649524420455041543b37303732,
0x3b3b3b3b3b4e3b3b3b3b3b4e4f3b303b6f533b454e414c505249413b38303732,
0x3b3b3b3b3b4e3b3b3b3b3b4e4f3b303b6f533b45504f4c45564e453b39303732,
0x3b3b3b3b3b4e3b3b3b3b3b4e4f3b303b6f533b54534946204445534941523b41303732,
0x3b3b3b3b3b4e3b3b3b3b3b4e4f3b303b6f533b444e4148204445534941523b42303732,
0x3b3b3b3b3b4e3b3b3b3b3b4e4f3b303b6f533b444e41482059524f544349563b43303732,
0x3b3b3b3b3b4e3b3b3b3b3b4e4f3b303b6f533b444e414820474e49544952573b44303732,
0x3b3b3b3b3b4e3b3b3b3b3b4e4f3b303b6f533b4c49434e4550205448474952205245574f4c3b45303732,
0x3b3b3b3b3b4e3b3b3b3b3b4e4f3b303b6f533b4c49434e45503b46303732,
0x3b3b3b3b3b4e3b3b3b3b3b4e4f3b303b6f533b4c49434e45502054484749522052455050553b30313732,
0x3b3b3b3b3b4e3b3b3b3b3b4e4f3b303b6f533b42494e2045544948573b31313732,
0x3b3b3b3b3b4e3b3b3b3b3b4e4f3b303b6f533b42494e204b43414c423b32313732,
0x3b3b3b3b3b4e3b3b3b3b3b4e4f3b303b6f533b4b52414d204b434548433b33313732,
0x3b3b3b3b3b4e3b3b3b3b3b4e4f3b303b6f533b4b52414d204b434548432059564145483b34313732,
0x3b3b3b3b3b4e3b3b3b3b3b4e4f3b303b6f533b58204e4f49544143494c5049544c554d3b35313732,
0x3b3b3b3b3b4e3b3b3b3b3b4e4f3b303b6f533b58204e4f49544143494c5049544c554d2059564145483b36313732,
0x3b3b3b3b3b4e3b3b3b3b3b4e4f3b303b6f533b5820544f4c4c41423b37313732,
0x3b3b3b3b3b4e3b3b3b3b3b4e4f3b303b6f533b5820544f4c4c41422059564145483b38313732,
0x3b3b3b3b3b4e3b3b3b3b3b4e4f3b303b6f533b53534f5243204b454552472044454e494c54554f3b39313732,
0x3b3b3b3b3b4e3b3b3b3b3b4e4f3b303b6f533b53534f5243204b454552472059564145483b41313732,
0x3b3b3b3b53534f5243205245544e4543204e45504f3b4e3b3b3b3b3b4e4f3b303b6f533b53534f5243204552544e4543204e45504f3b42313732,
0x3b3b3b3b53534f5243205245544e4543204e45504f2059564145483b4e3b3b3b3b3b4e4f3b303b6f533b53534f5243204552544e4543204e45504f2059564145483b43313732,
0x3b3b3b3b3b4e3b3b3b3b3b4e4f3b303b6f533b53534f5243204e4954414c3b44313732,
0x3b3b3b3b3b4e3b3b3b3b3b4e4f3b303b6f533b53534f5243204e4954414c204554494857204445574f444148533b45313732,
0x3b3b3b3b3b4e3b3b3b3b3b4e4f3b303b6f533b53534f5243204e4954414c2044454e494c54554f3b46313732,
0x3b3b3b3b3b4e3b3b3b3b3b4e4f3b303b6f533b53534f524320455345544c414d3b30323732,
0x3b3b3b3b3b4e3b3b3b3b3b4e4f3b303b6f533b444956414420464f20524154533b31323732,
0x3b3b3b3b3b4e3b3b3b3b3b4e4f3b303b6f533b4b534952455453412044454b4f50532d504f5244524145542052554f463b32323732,
0x3b3b3b3b3b4e3b3b3b3b3b4e4f3b303b6f533b4b534952455453412044454b4f50532d4e4f4f4c4c41422052554f463b33323732,
0x3b3b3b3b3b4e3b3b3b3b3b4e4f3b303b6f533b4b534952455453412044454b4f50532d4e4f4f4c4c41422052554f462059564145483b34323732,
0x3b3b3b3b3b4e3b3b3b3b3b4e4f3b303b6f533b4b534952455453412044454b4f50532d42554c432052554f463b35323732,
0x3b3b3b3b3b4e3b3b3b3b3b4e4f3b303b6f533b52415453204445544e494f502052554f46204b43414c423b36323732,
0x3b3b3b3b3b4e3b3b3b3b3b4e4f3b303b6f533b52415453204445544e494f502052554f462045544948573b37323732,
0x3b3b3b3b3b4e3b3b3b3b3b4e4f3b303b6f533b53454c4b524150533b38323732,
0x3b3b3b3b3b4e3b3b3b3b3b4e4f3b303b6f533b524154532045544948572044454e494c54554f205353455254533b39323732,
0x3b3b3b3b3b4e3b3b3b3b3b4e4f3b303b6f533b524154532045544948572044454c435249433b41323732,
0x3b3b3b3b52415453204b43414c42205245544e4543204e45504f3b4e3b3b3b3b3b4e4f3b303b6f533b52415453204b43414c42204552544e4543204e45504f3b42323732,
0x3b3b3b3b52415453204554494857205245544e4543204b43414c423b4e3b3b3b3b3b4e4f3b303b6f533b52415453204554494857204552544e4543204b43414c423b43323732,
0x3b3b3b3b3b4e3b3b3b3b3b4e4f3b303b6f533b52415453204b43414c422044454e494c54554f3b44323732,
0x3b3b3b3b3b4e3b3b3b3b3b4e4f3b303b6f533b52415453204b43414c422044454e494c54554f2059564145483b45323732,
0x3b3b3b3b3b4e3b3b3b3b3b4e4f3b303b6f533b52415453204c454548574e49503b46323732,
0x3b3b3b3b3b4e3b3b3b3b3b4e4f3b303b6f533b52415453204554494857204445574f444148533b30333732,
0x3b3b3b3b3b4e3b3b3b3b3b4e4f3b303b6f533b4b534952455453412059564145483b31333732,
0x3b3b3b3b4b53495245545341205245544e4543204e45504f3b4e3b3b3b3b3b4e4f3b303b6f533b4b53495245545341204552544e4543204e45504f3b32333732,
0x3b3b3b3b3b4e3b3b3b3b3b4e4f3b303b6f533b4b534952455453412044454b4f50532054484749453b33333732,
0x3b3b3b3b3b4e3b3b3b3b3b4e4f3b303b6f533b52415453204b43414c42204445544e494f502054484749453b34333732,
0x3b3b3b3b3b4e3b3b3b3b3b4e4f3b303b6f533b52415453204c454548574e4950204445544e494f502054484749453b35333732,
0x3b3b3b3b3b4e3b3b3b3b3b4e4f3b303b6f533b52415453204b43414c42204445544e494f50205849533b36333732,
0x3b3b3b3b3b4e3b3b3b3b3b4e4f3b303b6f533b52415453204b43414c42205241454e494c4954434552204445544e494f502054484749453b37333732,
0x3b3b3b3b3b4e3b3b3b3b3b4e4f3b303b6f533b52415453204b43414c42205241454e494c4954434552204445544e494f502054484749452059564145483b38333732,
0x3b3b3b3b3b4e3b3b3b3b3b4e4f3b303b6f533b52415453204b43414c42204445544e494f502045564c4557543b39333732,
0x3b3b3b3b3b4e3b3b3b3b3b4e4f3b303b6f533b4b53495245545341204445544e494f50204e4545545849533b41333732,
0x3b3b3b3b3b4e3b3b3b3b3b4e4f3b303b6f533b4b534952455453412044454b4f50532d504f5244524145543b42333732,
0x3b3b3b3b4b534952455453412044454b4f50532d504f524452414554205245544e4543204e45504f3b4e3b3b3b3b3b4e4f3b303b6f533b4b534952455453412044454b4f50532d504f524452414554204552544e4543204e45504f3b43333732,
0x3b3b3b3b3b4e3b3b3b3b3b4e4f3b303b6f533b4b534952455453412044454b4f50532d504f5244524145542059564145483b44333732,
0x3b3b3b3b3b4e3b3b3b3b3b4e4f3b303b6f533b45545445524f4c4620455449485720444e41204b43414c422044454c4c41544550205849533b45333732,
0x3b3b3b3b3b4e3b3b3b3b3b4e4f3b303b6f533b45545445524f4c46204b43414c423b46333732,
0x3b3b3b3b3b4e3b3b3b3b3b4e4f3b303b6f533b45545445524f4c462045544948573b30343732,
0x3b3b3b3b3b4e3b3b3b3b3b4e4f3b303b6f533b45545445524f4c46204b43414c422044454e494c54554f2044454c4c415445502054484749453b31343732,
0x3b3b3b3b52415453204445544e494f50205448474945205245544e4543204e45504f2044454c435249433b4e3b3b3b3b3b4e4f3b303b6f533b52415453204445544e494f50205448474945204552544e4543204e45504f2044454c435249433b32343732,
0x3b3b3b3b3b4e3b3b3b3b3b4e4f3b303b6f533b4b53495245545341204c454548574e49502044454b4f50532d504f5244524145542059564145483b33343732,
0x3b3b3b3b3b4e3b3b3b3b3b4e4f3b303b6f533b454b414c46574f4e533b34343732,
0x3b3b3b3b3b4e3b3b3b3b3b4e4f3b303b6f533b454b414c46574f4e5320455441494c4f464952542054484749543b35343732,
0x3b3b3b3b3b4e3b3b3b3b3b4e4f3b303b6f533b454b414c46574f4e53204e4f52564548432059564145483b36343732,
0x3b3b3b3b3b4e3b3b3b3b3b4e4f3b303b6f533b454c4b524150533b37343732,
0x3b3b3b3b3b4e3b3b3b3b3b4e4f3b303b6f533b454c4b524150532059564145483b38343732,
0x3b3b3b3b3b4e3b3b3b3b3b4e4f3b303b6f533b4b534952455453412044454b4f50532d4e4f4f4c4c41423b39343732,
0x3b3b3b3b3b4e3b3b3b3b3b4e4f3b303b6f533b4b534952455453412052454c4c45504f52502044454b4f50532d504f5244524145542054484749453b41343732,
0x3b3b3b3b3b4e3b3b3b3b3b4e4f3b303b6f533b4b534952455453412052454c4c45504f52502044454b4f50532d504f5244524145542054484749452059564145483b42343732,
0x3b3b3b3b3b4e3b3b3b3b3b4e4f3b303b6f533b4b52414d2053534f52433b43343732,
0x3b3b3b3b3b4e3b3b3b3b3b4e4f3b303b6f533b454c43524943204554494857204445574f444148533b44343732,
0x3b3b3b3b3b4e3b3b3b3b3b4e4f3b303b6f533b4b52414d2053534f5243204445524155515320455649544147454e3b45343732,
0x3b3b3b3b3b4e3b3b3b3b3b4e4f3b303b6f533b455241555153204554494857204445574f444148532d504f5244205448474952205245574f4c3b46343732,
0x3b3b3b3b3b4e3b3b3b3b3b4e4f3b303b6f533b455241555153204554494857204445574f444148532d504f52442054484749522052455050553b30353732,
0x3b3b3b3b3b4e3b3b3b3b3b4e4f3b303b6f533b455241555153204554494857204445574f44414853205448474952205245574f4c3b31353732,
0x3b3b3b3b3b4e3b3b3b3b3b4e4f3b303b6f533b455241555153204554494857204445574f444148532054484749522052455050553b32353732,
0x3b3b3b3b3b4e3b3b3b3b3b4e4f3b303b6f533b544e454d414e524f204b52414d204e4f495453455551204b43414c423b33353732,
0x3b3b3b3b3b4e3b3b3b3b3b4e4f3b303b6f533b544e454d414e524f204b52414d204e4f4954534555512045544948573b34353732,
0x3b3b3b3b3b4e3b3b3b3b3b4e4f3b303b6f533b544e454d414e524f204b52414d204e4f4954414d414c4358452045544948573b35353732,
0x3b3b3b3b3b4e3b3b3b3b3b4e4f3b303b6f533b582045544948572053554e494d20444e4f4d414944204b43414c423b36353732,
0x3b3b3b3b3b4e3b3b3b3b3b4e4f3b303b6f533b4c4f424d5953204b52414d204e4f4954414d414c4358452059564145483b37353732,
0x3b3b3b3b3b4e3b3b3b3b3b4e4f3b303b6f533b524142204c4143495452455620544847494c3b38353732,
0x3b3b3b3b3b4e3b3b3b3b3b4e4f3b303b6f533b524142204c41434954524556204d554944454d3b39353732,
0x3b3b3b3b3b4e3b3b3b3b3b4e4f3b303b6f533b524142204c414349545245562059564145483b41353732,
0x3b3b3b3b3b4e3b3b3b3b3b4e4f3b303b6f533b544e454d414e524f204b52414d204e4f495441544f555120414d4d4f432044454e52555420454c474e49532059564145483b42353732,
0x3b3b3b3b3b4e3b3b3b3b3b4e4f3b303b6f533b544e454d414e524f204b52414d204e4f495441544f555120414d4d4f4320454c474e49532059564145483b43353732,
0x3b3b3b3b3b4e3b3b3b3b3b4e4f3b303b6f533b544e454d414e524f204b52414d204e4f495441544f555120414d4d4f432044454e52555420454c42554f442059564145483b44353732,
0x3b3b3b3b3b4e3b3b3b3b3b4e4f3b303b6f533b544e454d414e524f204b52414d204e4f495441544f555120414d4d4f4320454c42554f442059564145483b45353732,
0x3b3b3b3b3b4e3b3b3b3b3b4e4f3b303b6f533b544e454d414e524f204b52414d204e4f495441544f555120414d4d4f4320454c474e495320574f4c2059564145483b46353732,
0x3b3b3b3b3b4e3b3b3b3b3b4e4f3b303b6f533b544e454d414e524f204b52414d204e4f495441544f555120414d4d4f4320454c42554f4420574f4c2059564145483b30363732,
0x3b3b3b3b3b4e3b3b3b3b3b4e4f3b303b6f533b544e454d414e524f204e47495320485041524741524150204d455453204445565255433b31363732,
0x3b3b3b3b3b4e3b3b3b3b3b4e4f3b303b6f533b544e454d414e524f204b52414d204e4f4954414d414c4358452059564145483b32363732,
0x3b3b3b3b3b4e3b3b3b3b3b4e4f3b303b6f533b544e454d414e524f204b52414d204e4f4954414d414c4358452054524145482059564145483b33363732,
0x3b3b3b3b3b4e3b3b3b3b3b4e4f3b303b6f533b5452414548204b43414c422059564145483b34363732]

/-- src/u5e/props/UnicodeData.txt lines 8961-9216. -/
def rawUcd35 : List Nat := [
0x3b3b3b3b3b4e3b3b3b3b3b4e4f3b303b6f533b54454c4c5542205452414548204b43414c422059564145482044455441544f523b35363732,
0x3b3b3b3b3b4e3b3b3b3b3b4e4f3b303b6f533b5452414548204c41524f4c463b36363732,
0x3b3b3b3b3b4e3b3b3b3b3b4e4f3b303b6f533b54454c4c5542205452414548204c41524f4c462044455441544f523b37363732,
0x3b3b3b3b3b593b3b3b3b3b4e4f3b303b73503b544e454d414e524f205349534548544e45524150205446454c204d554944454d3b38363732,
0x3b3b3b3b3b593b3b3b3b3b4e4f3b303b65503b544e454d414e524f205349534548544e45524150205448474952204d554944454d3b39363732,
0x3b3b3b3b3b593b3b3b3b3b4e4f3b303b73503b544e454d414e524f205349534548544e45524150205446454c2044454e455454414c46204d554944454d3b41363732,
0x3b3b3b3b3b593b3b3b3b3b4e4f3b303b65503b544e454d414e524f205349534548544e455241502054484749522044454e455454414c46204d554944454d3b42363732,
0x3b3b3b3b3b593b3b3b3b3b4e4f3b303b73503b544e454d414e524f2054454b4341524220454c474e4120474e49544e494f502d5446454c204d554944454d3b43363732,
0x3b3b3b3b3b593b3b3b3b3b4e4f3b303b65503b544e454d414e524f2054454b4341524220454c474e4120474e49544e494f502d5448474952204d554944454d3b44363732,
0x3b3b3b3b3b593b3b3b3b3b4e4f3b303b73503b544e454d414e524f204b52414d204e4f495441544f555120454c474e4120474e49544e494f502d5446454c2059564145483b45363732,
0x3b3b3b3b3b593b3b3b3b3b4e4f3b303b65503b544e454d414e524f204b52414d204e4f495441544f555120454c474e4120474e49544e494f502d54484749522059564145483b46363732,
0x3b3b3b3b3b593b3b3b3b3b4e4f3b303b73503b544e454d414e524f2054454b4341524220454c474e4120474e49544e494f502d5446454c2059564145483b30373732,
0x3b3b3b3b3b593b3b3b3b3b4e4f3b303b65503b544e454d414e524f2054454b4341524220454c474e4120474e49544e494f502d54484749522059564145483b31373732,
0x3b3b3b3b3b593b3b3b3b3b4e4f3b303b73503b544e454d414e524f2054454b43415242204c4c454853204553494f54524f54205446454c20544847494c3b32373732,
0x3b3b3b3b3b593b3b3b3b3b4e4f3b303b65503b544e454d414e524f2054454b43415242204c4c454853204553494f54524f5420544847495220544847494c3b33373732,
0x3b3b3b3b3b593b3b3b3b3b4e4f3b303b73503b544e454d414e524f2054454b4341524220594c525543205446454c204d554944454d3b34373732,
0x3b3b3b3b3b593b3b3b3b3b4e4f3b303b65503b544e454d414e524f2054454b4341524220594c525543205448474952204d554944454d3b35373732,
0x3b3b3b3b454e4f2054494749442044454c435249432045535245564e493b4e3b313b313b3b3b4e4f3b303b6f4e3b454e4f2054494749442044454c4352494320455649544147454e20544142474e49443b36373732,
0x3b3b3b3b4f57542054494749442044454c435249432045535245564e493b4e3b323b323b3b3b4e4f3b303b6f4e3b4f57542054494749442044454c4352494320455649544147454e20544142474e49443b37373732,
0x3b3b3b3b45455248542054494749442044454c435249432045535245564e493b4e3b333b333b3b3b4e4f3b303b6f4e3b45455248542054494749442044454c4352494320455649544147454e20544142474e49443b38373732,
0x3b3b3b3b52554f462054494749442044454c435249432045535245564e493b4e3b343b343b3b3b4e4f3b303b6f4e3b52554f462054494749442044454c4352494320455649544147454e20544142474e49443b39373732,
0x3b3b3b3b455649462054494749442044454c435249432045535245564e493b4e3b353b353b3b3b4e4f3b303b6f4e3b455649462054494749442044454c4352494320455649544147454e20544142474e49443b41373732,
0x3b3b3b3b5849532054494749442044454c435249432045535245564e493b4e3b363b363b3b3b4e4f3b303b6f4e3b5849532054494749442044454c4352494320455649544147454e20544142474e49443b42373732,
0x3b3b3b3b4e455645532054494749442044454c435249432045535245564e493b4e3b373b373b3b3b4e4f3b303b6f4e3b4e455645532054494749442044454c4352494320455649544147454e20544142474e49443b43373732,
0x3b3b3b3b54484749452054494749442044454c435249432045535245564e493b4e3b383b383b3b3b4e4f3b303b6f4e3b54484749452054494749442044454c4352494320455649544147454e20544142474e49443b44373732,
0x3b3b3b3b454e494e2054494749442044454c435249432045535245564e493b4e3b393b393b3b3b4e4f3b303b6f4e3b454e494e2054494749442044454c4352494320455649544147454e20544142474e49443b45373732,
0x3b3b3b3b4e4554205245424d554e2044454c435249432045535245564e493b4e3b30313b3b3b3b4e4f3b303b6f4e3b4e4554205245424d554e2044454c4352494320455649544147454e20544142474e49443b46373732,
0x3b3b3b3b454e4f2054494749442046495245532d534e41532044454c435249433b4e3b313b313b3b3b4e4f3b303b6f4e3b454e4f2054494749442046495245532d534e41532044454c4352494320544142474e49443b30383732,
0x3b3b3b3b4f57542054494749442046495245532d534e41532044454c435249433b4e3b323b323b3b3b4e4f3b303b6f4e3b4f57542054494749442046495245532d534e41532044454c4352494320544142474e49443b31383732,
0x3b3b3b3b45455248542054494749442046495245532d534e41532044454c435249433b4e3b333b333b3b3b4e4f3b303b6f4e3b45455248542054494749442046495245532d534e41532044454c4352494320544142474e49443b32383732,
0x3b3b3b3b52554f462054494749442046495245532d534e41532044454c435249433b4e3b343b343b3b3b4e4f3b303b6f4e3b52554f462054494749442046495245532d534e41532044454c4352494320544142474e49443b33383732,
0x3b3b3b3b455649462054494749442046495245532d534e41532044454c435249433b4e3b353b353b3b3b4e4f3b303b6f4e3b455649462054494749442046495245532d534e41532044454c4352494320544142474e49443b34383732,
0x3b3b3b3b5849532054494749442046495245532d534e41532044454c435249433b4e3b363b363b3b3b4e4f3b303b6f4e3b5849532054494749442046495245532d534e41532044454c4352494320544142474e49443b35383732,
0x3b3b3b3b4e455645532054494749442046495245532d534e41532044454c435249433b4e3b373b373b3b3b4e4f3b303b6f4e3b4e455645532054494749442046495245532d534e41532044454c4352494320544142474e49443b36383732,
0x3b3b3b3b54484749452054494749442046495245532d534e41532044454c435249433b4e3b383b383b3b3b4e4f3b303b6f4e3b54484749452054494749442046495245532d534e41532044454c4352494320544142474e49443b37383732,
0x3b3b3b3b454e494e2054494749442046495245532d534e41532044454c435249433b4e3b393b393b3b3b4e4f3b303b6f4e3b454e494e2054494749442046495245532d534e41532044454c4352494320544142474e49443b38383732,
0x3b3b3b3b4e4554205245424d554e2046495245532d534e41532044454c435249433b4e3b30313b3b3b3b4e4f3b303b6f4e3b4e4554205245424d554e2046495245532d534e41532044454c4352494320544142474e49443b39383732,
0x3b3b3b3b454e4f2054494749442046495245532d534e41532044454c435249432045535245564e493b4e3b313b313b3b3b4e4f3b303b6f4e3b454e4f2054494749442046495245532d534e41532044454c4352494320455649544147454e20544142474e49443b41383732,
0x3b3b3b3b4f57542054494749442046495245532d534e41532044454c435249432045535245564e493b4e3b323b323b3b3b4e4f3b303b6f4e3b4f57542054494749442046495245532d534e41532044454c4352494320455649544147454e20544142474e49443b42383732,
0x3b3b3b3b45455248542054494749442046495245532d534e41532044454c435249432045535245564e493b4e3b333b333b3b3b4e4f3b303b6f4e3b45455248542054494749442046495245532d534e41532044454c4352494320455649544147454e20544142474e49443b43383732,
0x3b3b3b3b52554f462054494749442046495245532d534e41532044454c435249432045535245564e493b4e3b343b343b3b3b4e4f3b303b6f4e3b52554f462054494749442046495245532d534e41532044454c4352494320455649544147454e20544142474e49443b44383732,
0x3b3b3b3b455649462054494749442046495245532d534e41532044454c435249432045535245564e493b4e3b353b353b3b3b4e4f3b303b6f4e3b455649462054494749442046495245532d534e41532044454c4352494320455649544147454e20544142474e49443b45383732,
0x3b3b3b3b5849532054494749442046495245532d534e41532044454c435249432045535245564e493b4e3b363b363b3b3b4e4f3b303b6f4e3b5849532054494749442046495245532d534e41532044454c4352494320455649544147454e20544142474e49443b46383732,
0x3b3b3b3b4e455645532054494749442046495245532d534e41532044454c435249432045535245564e493b4e3b373b373b3b3b4e4f3b303b6f4e3b4e455645532054494749442046495245532d534e41532044454c4352494320455649544147454e20544142474e49443b30393732,
0x3b3b3b3b54484749452054494749442046495245532d534e41532044454c435249432045535245564e493b4e3b383b383b3b3b4e4f3b303b6f4e3b54484749452054494749442046495245532d534e41532044454c4352494320455649544147454e20544142474e49443b31393732,
0x3b3b3b3b454e494e2054494749442046495245532d534e41532044454c435249432045535245564e493b4e3b393b393b3b3b4e4f3b303b6f4e3b454e494e2054494749442046495245532d534e41532044454c4352494320455649544147454e20544142474e49443b32393732,
0x3b3b3b3b4e4554205245424d554e2046495245532d534e41532044454c435249432045535245564e493b4e3b30313b3b3b3b4e4f3b303b6f4e3b4e4554205245424d554e2046495245532d534e41532044454c4352494320455649544147454e20544142474e49443b33393732,
0x3b3b3b3b574f525241205448474952204445444145482d454449572059564145483b4e3b3b3b3b3b4e4f3b303b6f533b574f5252412053445241575448474952204445444145482d454449572059564145483b34393732,
0x3b3b3b3b3b4e3b3b3b3b3b4e4f3b303b6f533b4e4749532053554c502059564145483b35393732,
0x3b3b3b3b3b4e3b3b3b3b3b4e4f3b303b6f533b4e4749532053554e494d2059564145483b36393732,
0x3b3b3b3b3b4e3b3b3b3b3b4e4f3b303b6f533b4e474953204e4f4953495649442059564145483b37393732,
0x3b3b3b3b574f525241205448474952205245574f4c2059564145483b4e3b3b3b3b3b4e4f3b303b6f533b574f5252412054534145204854554f532059564145483b38393732,
0x3b3b3b3b574f5252412054484749522059564145483b4e3b3b3b3b3b4e4f3b303b6f533b574f52524120534452415754484749522059564145483b39393732,
0x3b3b3b3b574f5252412054484749522052455050552059564145483b4e3b3b3b3b3b4e4f3b303b6f533b574f5252412054534145204854524f4e2059564145483b41393732,
0x3b3b3b3b574f52524120544847495220544e494f5020474e4954464152443b4e3b3b3b3b3b4e4f3b303b6f533b574f525241205344524157544847495220544e494f5020474e4954464152443b42393732,
0x3b3b3b3b574f525241205448474952204445505049542d444e554f522059564145483b4e3b3b3b3b3b4e4f3b303b6f533b574f5252412053445241575448474952204445505049542d444e554f522059564145483b43393732,
0x3b3b3b3b574f525241205448474952204445444145482d454c474e414952543b4e3b3b3b3b3b4e4f3b303b6f533b574f5252412053445241575448474952204445444145482d454c474e414952543b44393732,
0x3b3b3b3b574f525241205448474952204445444145482d454c474e414952542059564145483b4e3b3b3b3b3b4e4f3b303b6f533b574f5252412053445241575448474952204445444145482d454c474e414952542059564145483b45393732,
0x3b3b3b3b574f525241205448474952204445444145482d454c474e41495254204445485341443b4e3b3b3b3b3b4e4f3b303b6f533b574f5252412053445241575448474952204445444145482d454c474e41495254204445485341443b46393732,
0x3b3b3b3b574f525241205448474952204445444145482d454c474e41495254204445485341442059564145483b4e3b3b3b3b3b4e4f3b303b6f533b574f5252412053445241575448474952204445444145482d454c474e41495254204445485341442059564145483b30413732,
0x3b3b3b3b574f525241205448474952204b43414c423b4e3b3b3b3b3b4e4f3b303b6f533b574f5252412053445241575448474952204b43414c423b31413732,
0x3b3b3b3b44414548574f525241205448474952204445544847494c2d504f5420442d45455248543b4e3b3b3b3b3b4e4f3b303b6f533b44414548574f5252412053445241575448474952204445544847494c2d504f5420442d45455248543b32413732,
0x3b3b3b3b44414548574f525241205448474952204445544847494c2d4d4f54544f4220442d45455248543b4e3b3b3b3b3b4e4f3b303b6f533b44414548574f5252412053445241575448474952204445544847494c2d4d4f54544f4220442d45455248543b33413732,
0x3b3b3b3b44414548574f525241205448474952204b43414c423b4e3b3b3b3b3b4e4f3b303b6f533b44414548574f5252412053445241575448474952204b43414c423b34413732,
0x3b3b3b3b574f52524120544847495220444e41204e574f4420444556525543204b43414c422059564145483b4e3b3b3b3b3b4e4f3b303b6f533b574f525241205344524157544847495220444e412053445241574e574f4420444556525543204b43414c422059564145483b35413732,
0x3b3b3b3b574f52524120544847495220444e4120505520444556525543204b43414c422059564145483b4e3b3b3b3b3b4e4f3b303b6f533b574f525241205344524157544847495220444e41205344524157505520444556525543204b43414c422059564145483b36413732,
0x3b3b3b3b574f525241205448474952204b43414c422054415551533b4e3b3b3b3b3b4e4f3b303b6f533b574f5252412053445241575448474952204b43414c422054415551533b37413732,
0x3b3b3b3b574f525241205448474952204b43414c42204445544e494f502d455641434e4f432059564145483b4e3b3b3b3b3b4e4f3b303b6f533b574f5252412053445241575448474952204b43414c42204445544e494f502d455641434e4f432059564145483b38413732,
0x3b3b3b3b574f525241205448474952204554494857204445444148532d54484749523b4e3b3b3b3b3b4e4f3b303b6f533b574f5252412053445241575448474952204554494857204445444148532d54484749523b39413732,
0x3b3b3b3b574f525241205448474952204554494857204445444148532d5446454c3b4e3b3b3b3b3b4e4f3b303b6f533b574f5252412053445241575448474952204554494857204445444148532d5446454c3b41413732,
0x3b3b3b3b574f525241205448474952204554494857204445574f44414853204445544c49542d4b4341423b4e3b3b3b3b3b4e4f3b303b6f533b574f5252412053445241575448474952204554494857204445574f44414853204445544c49542d4b4341423b42413732,
0x3b3b3b3b574f525241205448474952204554494857204445574f44414853204445544c49542d544e4f52463b4e3b3b3b3b3b4e4f3b303b6f533b574f5252412053445241575448474952204554494857204445574f44414853204445544c49542d544e4f52463b43413732,
0x3b3b3b3b574f525241205448474952204554494857204445574f444148532d5448474952205245574f4c2059564145483b4e3b3b3b3b3b4e4f3b303b6f533b574f5252412053445241575448474952204554494857204445574f444148532d5448474952205245574f4c2059564145483b44413732,
0x3b3b3b3b574f525241205448474952204554494857204445574f444148532d54484749522052455050552059564145483b4e3b3b3b3b3b4e4f3b303b6f533b574f5252412053445241575448474952204554494857204445574f444148532d54484749522052455050552059564145483b45413732,
0x3b3b3b3b574f525241205448474952204554494857204445574f444148532d5448474952205245574f4c2044454843544f4e3b4e3b3b3b3b3b4e4f3b303b6f533b574f5252412053445241575448474952204554494857204445574f444148532d5448474952205245574f4c2044454843544f4e3b46413732,
0x3b3b3b3b3b4e3b3b3b3b3b4e4f3b303b6f533b504f4f4c20594c5255433b30423732,
0x3b3b3b3b574f525241205448474952204554494857204445574f444148532d54484749522052455050552044454843544f4e3b4e3b3b3b3b3b4e4f3b303b6f533b574f5252412053445241575448474952204554494857204445574f444148532d54484749522052455050552044454843544f4e3b31423732,
0x3b3b3b3b574f5252412054484749522045544948572059564145482044454c435249433b4e3b3b3b3b3b4e4f3b303b6f533b574f52524120534452415754484749522045544948572059564145482044454c435249433b32423732,
0x3b3b3b3b574f525241205448474952204445524548544145462d45544948573b4e3b3b3b3b3b4e4f3b303b6f533b574f5252412053445241575448474952204445524548544145462d45544948573b33423732,
0x3b3b3b3b574f525241205448474952205245574f4c204445524548544145462d4b43414c423b4e3b3b3b3b3b4e4f3b303b6f533b574f5252412054534145204854554f53204445524548544145462d4b43414c423b34423732,
0x3b3b3b3b574f525241205448474952204445524548544145462d4b43414c423b4e3b3b3b3b3b4e4f3b303b6f533b574f5252412053445241575448474952204445524548544145462d4b43414c423b35423732,
0x3b3b3b3b574f525241205448474952205245505055204445524548544145462d4b43414c423b4e3b3b3b3b3b4e4f3b303b6f533b574f5252412054534145204854524f4e204445524548544145462d4b43414c423b36423732,
0x3b3b3b3b574f525241205448474952205245574f4c204445524548544145462d4b43414c422059564145483b4e3b3b3b3b3b4e4f3b303b6f533b574f5252412054534145204854554f53204445524548544145462d4b43414c422059564145483b37423732,
0x3b3b3b3b574f525241205448474952204445524548544145462d4b43414c422059564145483b4e3b3b3b3b3b4e4f3b303b6f533b574f5252412053445241575448474952204445524548544145462d4b43414c422059564145483b38423732,
0x3b3b3b3b574f525241205448474952205245505055204445524548544145462d4b43414c422059564145483b4e3b3b3b3b3b4e4f3b303b6f533b574f5252412054534145204854524f4e204445524548544145462d4b43414c422059564145483b39423732,
0x3b3b3b3b574f525241205448474952204445425241422d504f5244524145543b4e3b3b3b3b3b4e4f3b303b6f533b574f5252412053445241575448474952204445425241422d504f5244524145543b41423732,
0x3b3b3b3b574f5252412054484749522044454b4e4148532d504f5244524145542059564145483b4e3b3b3b3b3b4e4f3b303b6f533b574f52524120534452415754484749522044454b4e4148532d504f5244524145542059564145483b42423732,
0x3b3b3b3b574f5252412054484749522044454c4941542d45474445573b4e3b3b3b3b3b4e4f3b303b6f533b574f52524120534452415754484749522044454c4941542d45474445573b43423732,
0x3b3b3b3b574f5252412054484749522044454c4941542d45474445572059564145483b4e3b3b3b3b3b4e4f3b303b6f533b574f52524120534452415754484749522044454c4941542d45474445572059564145483b44423732,
0x3b3b3b3b574f5252412054484749522044454e494c54554f2d4e45504f3b4e3b3b3b3b3b4e4f3b303b6f533b574f52524120534452415754484749522044454e494c54554f2d4e45504f3b45423732,
0x3b3b3b3b3b4e3b3b3b3b3b4e4f3b303b6f533b504f4f4c20594c52554320454c42554f443b46423732,
0x3b3b3b3b3b593b3b3b3b3b4e4f3b303b6d533b454c474e41204c414e4f49534e454d49442045455248543b30433732,
0x3b3b3b3b3b4e3b3b3b3b3b4e4f3b303b6d533b454c474e41495254204554494857204c4c414d5320474e494e4941544e4f4320454c474e414952542045544948573b31433732,
0x3b3b3b3b3b4e3b3b3b3b3b4e4f3b303b6d533b52414c554349444e45505245503b32433732,
0x3b3b3b3b3b593b3b3b3b3b4e4f3b303b6d533b544553425553204e45504f3b33433732,
0x3b3b3b3b3b593b3b3b3b3b4e4f3b303b6d533b5445535245505553204e45504f3b34433732,
0x3b3b3b3b3b593b3b3b3b3b4e4f3b303b73503b524554494d494c454420474142204445504148532d53205446454c3b35433732,
0x3b3b3b3b3b593b3b3b3b3b4e4f3b303b65503b524554494d494c454420474142204445504148532d532054484749523b36433732,
0x3b3b3b3b3b4e3b3b3b3b3b4e4f3b303b6d533b454449534e4920544f44204854495720524f3b37433732,
0x3b3b3b3b3b593b3b3b3b3b4e4f3b303b6d533b54455342555320474e4944454345525020535544494c4f5320455352455645523b38433732,
0x3b3b3b3b3b593b3b3b3b3b4e4f3b303b6d533b535544494c4f5320474e494445434552502054455352455055533b39433732,
0x3b3b3b3b3b4e3b3b3b3b3b4e4f3b303b6d533b454b4f525453204c41544e4f5a49524f48204854495720524142204c414349545245563b41433732,
0x3b3b3b3b3b593b3b3b3b3b4e4f3b303b6d533b4c414e4f4741494420474e49534952204c41434954414d454854414d3b42433732,
0x3b3b3b3b3b593b3b3b3b3b4e4f3b303b6d533b4e4f49534956494420474e4f4c3b43433732,
0x3b3b3b3b3b593b3b3b3b3b4e4f3b303b6d533b4c414e4f4741494420474e494c4c4146204c41434954414d454854414d3b44433732,
0x3b3b3b3b3b4e3b3b3b3b3b4e4f3b303b6d533b444e41204c414349474f4c20444552415551533b45433732,
0x3b3b3b3b3b4e3b3b3b3b3b4e4f3b303b6d533b524f204c414349474f4c20444552415551533b46433732,
0x3b3b3b3b3b4e3b3b3b3b3b4e4f3b303b6d533b544f4420444552544e4543204854495720444e4f4d4149442045544948573b30443732,
0x3b3b3b3b3b4e3b3b3b3b3b4e4f3b303b6d533b544f44204854495720444e413b31443732,
0x3b3b3b3b3b4e3b3b3b3b3b4e4f3b303b6d533b5344524157505520474e494e45504f20464f20544e454d454c453b32443732,
0x3b3b3b3b3b593b3b3b3b3b4e4f3b303b6d533b544f4420485449572052454e524f43205448474952205245574f4c3b33443732,
0x3b3b3b3b3b593b3b3b3b3b4e4f3b303b6d533b544f4420485449572052454e524f43205446454c2052455050553b34443732,
0x3b3b3b3b3b593b3b3b3b3b4e4f3b303b6d533b4e494f4a20524554554f205446454c3b35443732,
0x3b3b3b3b3b593b3b3b3b3b4e4f3b303b6d533b4e494f4a20524554554f2054484749523b36443732,
0x3b3b3b3b3b4e3b3b3b3b3b4e4f3b303b6d533b4e494f4a20524554554f204c4c55463b37443732,
0x3b3b3b3b3b4e3b3b3b3b3b4e4f3b303b6d533b4b43415420505520454752414c3b38443732,
0x3b3b3b3b3b4e3b3b3b3b3b4e4f3b303b6d533b4b434154204e574f4420454752414c3b39443732,
0x3b3b3b3b3b4e3b3b3b3b3b4e4f3b303b6d533b454c4954534e52555420454c42554f4420544847495220444e41205446454c3b41443732,
0x3b3b3b3b3b4e3b3b3b3b3b4e4f3b303b6d533b4b43415420544847495220444e41205446454c3b42443732,
0x3b3b3b3b3b593b3b3b3b3b4e4f3b303b6d533b50414d49544c554d205446454c3b43443732,
0x3b3b3b3b3b593b3b3b3b3b4e4f3b303b6d533b4b43415420544847495220474e4f4c3b44443732,
0x3b3b3b3b3b593b3b3b3b3b4e4f3b303b6d533b4b434154205446454c20474e4f4c3b45443732,
0x3b3b3b3b3b4e3b3b3b3b3b4e4f3b303b6d533b45564f424120454c435249432048544957204b4341542050553b46443732,
0x3b3b3b3b3b4e3b3b3b3b3b4e4f3b303b6d533b454c5552204c41544e4f5a49524f4820594220444544495649442045474e455a4f4c3b30453732,
0x3b3b3b3b3b4e3b3b3b3b3b4e4f3b303b6d533b444e4f4d4149442044454449532d455641434e4f432045544948573b31453732,
0x3b3b3b3b3b593b3b3b3b3b4e4f3b303b6d533b4b4349542053445241575446454c204854495720444e4f4d4149442044454449532d455641434e4f432045544948573b32453732,
0x3b3b3b3b3b593b3b3b3b3b4e4f3b303b6d533b4b4349542053445241575448474952204854495720444e4f4d4149442044454449532d455641434e4f432045544948573b33453732,
0x3b3b3b3b3b593b3b3b3b3b4e4f3b303b6d533b4b4349542053445241575446454c2048544957204552415551532045544948573b34453732,
0x3b3b3b3b3b593b3b3b3b3b4e4f3b303b6d533b4b43495420534452415754484749522048544957204552415551532045544948573b35453732,
0x3b3b3b3b3b593b3b3b3b3b4e4f3b303b73503b54454b4341524220455241555153204554494857205446454c204c41434954414d454854414d3b36453732,
0x3b3b3b3b3b593b3b3b3b3b4e4f3b303b65503b54454b4341524220455241555153204554494857205448474952204c41434954414d454854414d3b37453732,
0x3b3b3b3b3b593b3b3b3b3b4e4f3b303b73503b54454b4341524220454c474e41205446454c204c41434954414d454854414d3b38453732,
0x3b3b3b3b3b593b3b3b3b3b4e4f3b303b65503b54454b4341524220454c474e41205448474952204c41434954414d454854414d3b39453732,
0x3b3b3b3b3b593b3b3b3b3b4e4f3b303b73503b54454b4341524220454c474e4120454c42554f44205446454c204c41434954414d454854414d3b41453732,
0x3b3b3b3b3b593b3b3b3b3b4e4f3b303b65503b54454b4341524220454c474e4120454c42554f44205448474952204c41434954414d454854414d3b42453732,
0x3b3b3b3b3b593b3b3b3b3b4e4f3b303b73503b54454b43415242204c4c454853204553494f54524f54204554494857205446454c204c41434954414d454854414d3b43453732,
0x3b3b3b3b3b593b3b3b3b3b4e4f3b303b65503b54454b43415242204c4c454853204553494f54524f54204554494857205448474952204c41434954414d454854414d3b44453732,
0x3b3b3b3b3b593b3b3b3b3b4e4f3b303b73503b5349534548544e455241502044454e455454414c46205446454c204c41434954414d454854414d3b45453732,
0x3b3b3b3b3b593b3b3b3b3b4e4f3b303b65503b5349534548544e455241502044454e455454414c46205448474952204c41434954414d454854414d3b46453732,
0x3b3b3b3b3b4e3b3b3b3b3b4e4f3b303b6d533b574f52524120454c5055524441555120534452415750553b30463732,
0x3b3b3b3b3b4e3b3b3b3b3b4e4f3b303b6d533b574f52524120454c505552444155512053445241574e574f443b31463732,
0x3b3b3b3b3b4e3b3b3b3b3b4e4f3b303b6d533b574f52524120454c435249432044455050414720455349574b434f4c4349544e413b32463732,
0x3b3b3b3b3b4e3b3b3b3b3b4e4f3b303b6d533b574f52524120454c435249432044455050414720455349574b434f4c433b33463732,
0x3b3b3b3b3b4e3b3b3b3b3b4e4f3b303b6d533b53554c502044454c43524943204854495720574f5252412054484749523b34463732,
0x3b3b3b3b3b4e3b3b3b3b3b4e4f3b303b6d533b574f5252412053445241575446454c20474e4f4c3b35463732,
0x3b3b3b3b3b4e3b3b3b3b3b4e4f3b303b6d533b574f525241205344524157544847495220474e4f4c3b36463732,
0x3b3b3b3b3b4e3b3b3b3b3b4e4f3b303b6d533b574f525241205448474952205446454c20474e4f4c3b37463732,
0x3b3b3b3b3b4e3b3b3b3b3b4e4f3b303b6d533b574f52524120454c42554f442053445241575446454c20474e4f4c3b38463732,
0x3b3b3b3b3b4e3b3b3b3b3b4e4f3b303b6d533b574f52524120454c42554f44205344524157544847495220474e4f4c3b39463732,
0x3b3b3b3b3b4e3b3b3b3b3b4e4f3b303b6d533b574f52524120454c42554f44205448474952205446454c20474e4f4c3b41463732,
0x3b3b3b3b3b4e3b3b3b3b3b4e4f3b303b6d533b524142204d4f524620574f5252412053445241575446454c20474e4f4c3b42463732,
0x3b3b3b3b3b4e3b3b3b3b3b4e4f3b303b6d533b524142204d4f524620574f525241205344524157544847495220474e4f4c3b43463732,
0x3b3b3b3b3b4e3b3b3b3b3b4e4f3b303b6d533b524142204d4f524620574f52524120454c42554f442053445241575446454c20474e4f4c3b44463732,
0x3b3b3b3b3b4e3b3b3b3b3b4e4f3b303b6d533b524142204d4f524620574f52524120454c42554f44205344524157544847495220474e4f4c3b45463732,
0x3b3b3b3b3b4e3b3b3b3b3b4e4f3b303b6d533b574f52524120454c474749555153205344524157544847495220474e4f4c3b46463732,
0x3b3b3b3b3b4e3b3b3b3b3b4c3b303b6f533b4b4e414c42204e52455454415020454c4c494152423b30303832,
0x3b3b3b3b3b4e3b3b3b3b3b4c3b303b6f533b312d53544f44204e52455454415020454c4c494152423b31303832,
0x3b3b3b3b3b4e3b3b3b3b3b4c3b303b6f533b322d53544f44204e52455454415020454c4c494152423b32303832,
0x3b3b3b3b3b4e3b3b3b3b3b4c3b303b6f533b32312d53544f44204e52455454415020454c4c494152423b33303832,
0x3b3b3b3b3b4e3b3b3b3b3b4c3b303b6f533b332d53544f44204e52455454415020454c4c494152423b34303832,
0x3b3b3b3b3b4e3b3b3b3b3b4c3b303b6f533b33312d53544f44204e52455454415020454c4c494152423b35303832,
0x3b3b3b3b3b4e3b3b3b3b3b4c3b303b6f533b33322d53544f44204e52455454415020454c4c494152423b36303832,
0x3b3b3b3b3b4e3b3b3b3b3b4c3b303b6f533b3332312d53544f44204e52455454415020454c4c494152423b37303832,
0x3b3b3b3b3b4e3b3b3b3b3b4c3b303b6f533b342d53544f44204e52455454415020454c4c494152423b38303832,
0x3b3b3b3b3b4e3b3b3b3b3b4c3b303b6f533b34312d53544f44204e52455454415020454c4c494152423b39303832,
0x3b3b3b3b3b4e3b3b3b3b3b4c3b303b6f533b34322d53544f44204e52455454415020454c4c494152423b41303832,
0x3b3b3b3b3b4e3b3b3b3b3b4c3b303b6f533b3432312d53544f44204e52455454415020454c4c494152423b42303832,
0x3b3b3b3b3b4e3b3b3b3b3b4c3b303b6f533b34332d53544f44204e52455454415020454c4c494152423b43303832,
0x3b3b3b3b3b4e3b3b3b3b3b4c3b303b6f533b3433312d53544f44204e52455454415020454c4c494152423b44303832,
0x3b3b3b3b3b4e3b3b3b3b3b4c3b303b6f533b3433322d53544f44204e52455454415020454c4c494152423b45303832,
0x3b3b3b3b3b4e3b3b3b3b3b4c3b303b6f533b343332312d53544f44204e52455454415020454c4c494152423b46303832,
0x3b3b3b3b3b4e3b3b3b3b3b4c3b303b6f533b352d53544f44204e52455454415020454c4c494152423b30313832,
0x3b3b3b3b3b4e3b3b3b3b3b4c3b303b6f533b35312d53544f44204e52455454415020454c4c494152423b31313832,
0x3b3b3b3b3b4e3b3b3b3b3b4c3b303b6f533b35322d53544f44204e52455454415020454c4c494152423b32313832,
0x3b3b3b3b3b4e3b3b3b3b3b4c3b303b6f533b3532312d53544f44204e52455454415020454c4c494152423b33313832,
0x3b3b3b3b3b4e3b3b3b3b3b4c3b303b6f533b35332d53544f44204e52455454415020454c4c494152423b34313832,
0x3b3b3b3b3b4e3b3b3b3b3b4c3b303b6f533b3533312d53544f44204e52455454415020454c4c494152423b35313832,
0x3b3b3b3b3b4e3b3b3b3b3b4c3b303b6f533b3533322d53544f44204e52455454415020454c4c494152423b36313832,
0x3b3b3b3b3b4e3b3b3b3b3b4c3b303b6f533b353332312d53544f44204e52455454415020454c4c494152423b37313832,
0x3b3b3b3b3b4e3b3b3b3b3b4c3b303b6f533b35342d53544f44204e52455454415020454c4c494152423b38313832,
0x3b3b3b3b3b4e3b3b3b3b3b4c3b303b6f533b3534312d53544f44204e52455454415020454c4c494152423b39313832,
0x3b3b3b3b3b4e3b3b3b3b3b4c3b303b6f533b3534322d53544f44204e52455454415020454c4c494152423b41313832,
0x3b3b3b3b3b4e3b3b3b3b3b4c3b303b6f533b353432312d53544f44204e52455454415020454c4c494152423b42313832,
0x3b3b3b3b3b4e3b3b3b3b3b4c3b303b6f533b3534332d53544f44204e52455454415020454c4c494152423b43313832,
0x3b3b3b3b3b4e3b3b3b3b3b4c3b303b6f533b353433312d53544f44204e52455454415020454c4c494152423b44313832,
0x3b3b3b3b3b4e3b3b3b3b3b4c3b303b6f533b353433322d53544f44204e52455454415020454c4c494152423b45313832,
0x3b3b3b3b3b4e3b3b3b3b3b4c3b303b6f533b35343332312d53544f44204e52455454415020454c4c494152423b46313832,
0x3b3b3b3b3b4e3b3b3b3b3b4c3b303b6f533b362d53544f44204e52455454415020454c4c494152423b30323832,
0x3b3b3b3b3b4e3b3b3b3b3b4c3b303b6f533b36312d53544f44204e52455454415020454c4c494152423b31323832,
0x3b3b3b3b3b4e3b3b3b3b3b4c3b303b6f533b36322d53544f44204e52455454415020454c4c494152423b32323832,
0x3b3b3b3b3b4e3b3b3b3b3b4c3b303b6f533b3632312d53544f44204e52455454415020454c4c494152423b33323832,
0x3b3b3b3b3b4e3b3b3b3b3b4c3b303b6f533b36332d53544f44204e52455454415020454c4c494152423b34323832,
0x3b3b3b3b3b4e3b3b3b3b3b4c3b303b6f533b3633312d53544f44204e52455454415020454c4c494152423b35323832,
0x3b3b3b3b3b4e3b3b3b3b3b4c3b303b6f533b3633322d53544f44204e52455454415020454c4c494152423b36323832,
0x3b3b3b3b3b4e3b3b3b3b3b4c3b303b6f533b363332312d53544f44204e52455454415020454c4c494152423b37323832,
0x3b3b3b3b3b4e3b3b3b3b3b4c3b303b6f533b36342d53544f44204e52455454415020454c4c494152423b38323832,
0x3b3b3b3b3b4e3b3b3b3b3b4c3b303b6f533b3634312d53544f44204e52455454415020454c4c494152423b39323832,
0x3b3b3b3b3b4e3b3b3b3b3b4c3b303b6f533b3634322d53544f44204e52455454415020454c4c494152423b41323832,
0x3b3b3b3b3b4e3b3b3b3b3b4c3b303b6f533b363432312d53544f44204e52455454415020454c4c494152423b42323832,
0x3b3b3b3b3b4e3b3b3b3b3b4c3b303b6f533b3634332d53544f44204e52455454415020454c4c494152423b43323832,
0x3b3b3b3b3b4e3b3b3b3b3b4c3b303b6f533b363433312d53544f44204e52455454415020454c4c494152423b44323832,
0x3b3b3b3b3b4e3b3b3b3b3b4c3b303b6f533b363433322d53544f44204e52455454415020454c4c494152423b45323832,
0x3b3b3b3b3b4e3b3b3b3b3b4c3b303b6f533b36343332312d53544f44204e52455454415020454c4c494152423b46323832,
0x3b3b3b3b3b4e3b3b3b3b3b4c3b303b6f533b36352d53544f44204e52455454415020454c4c494152423b30333832,
0x3b3b3b3b3b4e3b3b3b3b3b4c3b303b6f533b3635312d53544f44204e52455454415020454c4c494152423b31333832,
0x3b3b3b3b3b4e3b3b3b3b3b4c3b303b6f533b3635322d53544f44204e52455454415020454c4c494152423b32333832,
0x3b3b3b3b3b4e3b3b3b3b3b4c3b303b6f533b363532312d53544f44204e52455454415020454c4c494152423b33333832,
0x3b3b3b3b3b4e3b3b3b3b3b4c3b303b6f533b3635332d53544f44204e52455454415020454c4c494152423b34333832,
0x3b3b3b3b3b4e3b3b3b3b3b4c3b303b6f533b363533312d53544f44204e52455454415020454c4c494152423b35333832,
0x3b3b3b3b3b4e3b3b3b3b3b4c3b303b6f533b363533322d53544f44204e52455454415020454c4c494152423b36333832,
0x3b3b3b3b3b4e3b3b3b3b3b4c3b303b6f533b36353332312d53544f44204e52455454415020454c4c494152423b37333832,
0x3b3b3b3b3b4e3b3b3b3b3b4c3b303b6f533b3635342d53544f44204e52455454415020454c4c494152423b38333832,
0x3b3b3b3b3b4e3b3b3b3b3b4c3b303b6f533b363534312d53544f44204e52455454415020454c4c494152423b39333832,
0x3b3b3b3b3b4e3b3b3b3b3b4c3b303b6f533b363534322d53544f44204e52455454415020454c4c494152423b41333832,
0x3b3b3b3b3b4e3b3b3b3b3b4c3b303b6f533b36353432312d53544f44204e52455454415020454c4c494152423b42333832,
0x3b3b3b3b3b4e3b3b3b3b3b4c3b303b6f533b363534332d53544f44204e52455454415020454c4c494152423b43333832,
0x3b3b3b3b3b4e3b3b3b3b3b4c3b303b6f533b36353433312d53544f44204e52455454415020454c4c494152423b44333832,
0x3b3b3b3b3b4e3b3b3b3b3b4c3b303b6f533b36353433322d53544f44204e52455454415020454c4c494152423b45333832,
0x3b3b3b3b3b4e3b3b3b3b3b4c3b303b6f533b3635343332312d53544f44204e52455454415020454c4c494152423b46333832,
0x3b3b3b3b3b4e3b3b3b3b3b4c3b303b6f533b372d53544f44204e52455454415020454c4c494152423b30343832,
0x3b3b3b3b3b4e3b3b3b3b3b4c3b303b6f533b37312d53544f44204e52455454415020454c4c494152423b31343832,
0x3b3b3b3b3b4e3b3b3b3b3b4c3b303b6f533b37322d53544f44204e52455454415020454c4c494152423b32343832,
0x3b3b3b3b3b4e3b3b3b3b3b4c3b303b6f533b3732312d53544f44204e52455454415020454c4c494152423b33343832,
0x3b3b3b3b3b4e3b3b3b3b3b4c3b303b6f533b37332d53544f44204e52455454415020454c4c494152423b34343832,
0x3b3b3b3b3b4e3b3b3b3b3b4c3b303b6f533b3733312d53544f44204e52455454415020454c4c494152423b35343832,
0x3b3b3b3b3b4e3b3b3b3b3b4c3b303b6f533b3733322d53544f44204e52455454415020454c4c494152423b36343832,
0x3b3b3b3b3b4e3b3b3b3b3b4c3b303b6f533b373332312d53544f44204e52455454415020454c4c494152423b37343832,
0x3b3b3b3b3b4e3b3b3b3b3b4c3b303b6f533b37342d53544f44204e52455454415020454c4c494152423b38343832,
0x3b3b3b3b3b4e3b3b3b3b3b4c3b303b6f533b3734312d53544f44204e52455454415020454c4c494152423b39343832,
0x3b3b3b3b3b4e3b3b3b3b3b4c3b303b6f533b3734322d53544f44204e52455454415020454c4c494152423b41343832,
0x3b3b3b3b3b4e3b3b3b3b3b4c3b303b6f533b373432312d53544f44204e52455454415020454c4c494152423b42343832,
0x3b3b3b3b3b4e3b3b3b3b3b4c3b303b6f533b3734332d53544f44204e52455454415020454c4c494152423b43343832,
0x3b3b3b3b3b4e3b3b3b3b3b4c3b303b6f533b373433312d53544f44204e52455454415020454c4c494152423b44343832,
0x3b3b3b3b3b4e3b3b3b3b3b4c3b303b6f533b373433322d53544f44204e52455454415020454c4c494152423b45343832,
0x3b3b3b3b3b4e3b3b3b3b3b4c3b303b6f533b37343332312d53544f44204e52455454415020454c4c494152423b46343832,
0x3b3b3b3b3b4e3b3b3b3b3b4c3b303b6f533b37352d53544f44204e52455454415020454c4c494152423b30353832,
0x3b3b3b3b3b4e3b3b3b3b3b4c3b303b6f533b3735312d53544f44204e52455454415020454c4c494152423b31353832,
0x3b3b3b3b3b4e3b3b3b3b3b4c3b303b6f533b3735322d53544f44204e52455454415020454c4c494152423b32353832,
0x3b3b3b3b3b4e3b3b3b3b3b4c3b303b6f533b373532312d53544f44204e52455454415020454c4c494152423b33353832,
0x3b3b3b3b3b4e3b3b3b3b3b4c3b303b6f533b3735332d53544f44204e52455454415020454c4c494152423b34353832,
0x3b3b3b3b3b4e3b3b3b3b3b4c3b303b6f533b373533312d53544f44204e52455454415020454c4c494152423b35353832,
0x3b3b3b3b3b4e3b3b3b3b3b4c3b303b6f533b373533322d53544f44204e52455454415020454c4c494152423b36353832,
0x3b3b3b3b3b4e3b3b3b3b3b4c3b303b6f533b37353332312d53544f44204e52455454415020454c4c494152423b37353832,
0x3b3b3b3b3b4e3b3b3b3b3b4c3b303b6f533b3735342d53544f44204e52455454415020454c4c494152423b38353832,
0x3b3b3b3b3b4e3b3b3b3b3b4c3b303b6f533b373534312d53544f44204e52455454415020454c4c494152423b39353832,
0x3b3b3b3b3b4e3b3b3b3b3b4c3b303b6f533b373534322d53544f44204e52455454415020454c4c494152423b41353832,
0x3b3b3b3b3b4e3b3b3b3b3b4c3b303b6f533b37353432312d53544f44204e52455454415020454c4c494152423b42353832,
0x3b3b3b3b3b4e3b3b3b3b3b4c3b303b6f533b373534332d53544f44204e52455454415020454c4c494152423b43353832,
0x3b3b3b3b3b4e3b3b3b3b3b4c3b303b6f533b37353433312d53544f44204e52455454415020454c4c494152423b44353832,
0x3b3b3b3b3b4e3b3b3b3b3b4c3b303b6f533b37353433322d53544f44204e52455454415020454c4c494152423b45353832,
0x3b3b3b3b3b4e3b3b3b3b3b4c3b303b6f533b3735343332312d53544f44204e52455454415020454c4c494152423b46353832,
0x3b3b3b3b3b4e3b3b3b3b3b4c3b303b6f533b37362d53544f44204e52455454415020454c4c494152423b30363832,
0x3b3b3b3b3b4e3b3b3b3b3b4c3b303b6f533b3736312d53544f44204e52455454415020454c4c494152423b31363832,
0x3b3b3b3b3b4e3b3b3b3b3b4c3b303b6f533b3736322d53544f44204e52455454415020454c4c494152423b32363832,
0x3b3b3b3b3b4e3b3b3b3b3b4c3b303b6f533b373632312d53544f44204e52455454415020454c4c494152423b33363832,
0x3b3b3b3b3b4e3b3b3b3b3b4c3b303b6f533b3736332d53544f44204e52455454415020454c4c494152423b34363832]

/-- src/u5e/props/UnicodeData.txt lines 9217-9472. -/
def rawUcd36 : List Nat := [
0x3b3b3b3b3b4e3b3b3b3b3b4c3b303b6f533b373633312d53544f44204e52455454415020454c4c494152423b35363832,
0x3b3b3b3b3b4e3b3b3b3b3b4c3b303b6f533b373633322d53544f44204e52455454415020454c4c494152423b36363832,
0x3b3b3b3b3b4e3b3b3b3b3b4c3b303b6f533b37363332312d53544f44204e52455454415020454c4c494152423b37363832,
0x3b3b3b3b3b4e3b3b3b3b3b4c3b303b6f533b3736342d53544f44204e52455454415020454c4c494152423b38363832,
0x3b3b3b3b3b4e3b3b3b3b3b4c3b303b6f533b373634312d53544f44204e52455454415020454c4c494152423b39363832,
0x3b3b3b3b3b4e3b3b3b3b3b4c3b303b6f533b373634322d53544f44204e52455454415020454c4c494152423b41363832,
0x3b3b3b3b3b4e3b3b3b3b3b4c3b303b6f533b37363432312d53544f44204e52455454415020454c4c494152423b42363832,
0x3b3b3b3b3b4e3b3b3b3b3b4c3b303b6f533b373634332d53544f44204e52455454415020454c4c494152423b43363832,
0x3b3b3b3b3b4e3b3b3b3b3b4c3b303b6f533b37363433312d53544f44204e52455454415020454c4c494152423b44363832,
0x3b3b3b3b3b4e3b3b3b3b3b4c3b303b6f533b37363433322d53544f44204e52455454415020454c4c494152423b45363832,
0x3b3b3b3b3b4e3b3b3b3b3b4c3b303b6f533b3736343332312d53544f44204e52455454415020454c4c494152423b46363832,
0x3b3b3b3b3b4e3b3b3b3b3b4c3b303b6f533b3736352d53544f44204e52455454415020454c4c494152423b30373832,
0x3b3b3b3b3b4e3b3b3b3b3b4c3b303b6f533b373635312d53544f44204e52455454415020454c4c494152423b31373832,
0x3b3b3b3b3b4e3b3b3b3b3b4c3b303b6f533b373635322d53544f44204e52455454415020454c4c494152423b32373832,
0x3b3b3b3b3b4e3b3b3b3b3b4c3b303b6f533b37363532312d53544f44204e52455454415020454c4c494152423b33373832,
0x3b3b3b3b3b4e3b3b3b3b3b4c3b303b6f533b373635332d53544f44204e52455454415020454c4c494152423b34373832,
0x3b3b3b3b3b4e3b3b3b3b3b4c3b303b6f533b37363533312d53544f44204e52455454415020454c4c494152423b35373832,
0x3b3b3b3b3b4e3b3b3b3b3b4c3b303b6f533b37363533322d53544f44204e52455454415020454c4c494152423b36373832,
0x3b3b3b3b3b4e3b3b3b3b3b4c3b303b6f533b3736353332312d53544f44204e52455454415020454c4c494152423b37373832,
0x3b3b3b3b3b4e3b3b3b3b3b4c3b303b6f533b373635342d53544f44204e52455454415020454c4c494152423b38373832,
0x3b3b3b3b3b4e3b3b3b3b3b4c3b303b6f533b37363534312d53544f44204e52455454415020454c4c494152423b39373832,
0x3b3b3b3b3b4e3b3b3b3b3b4c3b303b6f533b37363534322d53544f44204e52455454415020454c4c494152423b41373832,
0x3b3b3b3b3b4e3b3b3b3b3b4c3b303b6f533b3736353432312d53544f44204e52455454415020454c4c494152423b42373832,
0x3b3b3b3b3b4e3b3b3b3b3b4c3b303b6f533b37363534332d53544f44204e52455454415020454c4c494152423b43373832,
0x3b3b3b3b3b4e3b3b3b3b3b4c3b303b6f533b3736353433312d53544f44204e52455454415020454c4c494152423b44373832,
0x3b3b3b3b3b4e3b3b3b3b3b4c3b303b6f533b3736353433322d53544f44204e52455454415020454c4c494152423b45373832,
0x3b3b3b3b3b4e3b3b3b3b3b4c3b303b6f533b373635343332312d53544f44204e52455454415020454c4c494152423b46373832,
0x3b3b3b3b3b4e3b3b3b3b3b4c3b303b6f533b382d53544f44204e52455454415020454c4c494152423b30383832,
0x3b3b3b3b3b4e3b3b3b3b3b4c3b303b6f533b38312d53544f44204e52455454415020454c4c494152423b31383832,
0x3b3b3b3b3b4e3b3b3b3b3b4c3b303b6f533b38322d53544f44204e52455454415020454c4c494152423b32383832,
0x3b3b3b3b3b4e3b3b3b3b3b4c3b303b6f533b3832312d53544f44204e52455454415020454c4c494152423b33383832,
0x3b3b3b3b3b4e3b3b3b3b3b4c3b303b6f533b38332d53544f44204e52455454415020454c4c494152423b34383832,
0x3b3b3b3b3b4e3b3b3b3b3b4c3b303b6f533b3833312d53544f44204e52455454415020454c4c494152423b35383832,
0x3b3b3b3b3b4e3b3b3b3b3b4c3b303b6f533b3833322d53544f44204e52455454415020454c4c494152423b36383832,
0x3b3b3b3b3b4e3b3b3b3b3b4c3b303b6f533b383332312d53544f44204e52455454415020454c4c494152423b37383832,
0x3b3b3b3b3b4e3b3b3b3b3b4c3b303b6f533b38342d53544f44204e52455454415020454c4c494152423b38383832,
0x3b3b3b3b3b4e3b3b3b3b3b4c3b303b6f533b3834312d53544f44204e52455454415020454c4c494152423b39383832,
0x3b3b3b3b3b4e3b3b3b3b3b4c3b303b6f533b3834322d53544f44204e52455454415020454c4c494152423b41383832,
0x3b3b3b3b3b4e3b3b3b3b3b4c3b303b6f533b383432312d53544f44204e52455454415020454c4c494152423b42383832,
0x3b3b3b3b3b4e3b3b3b3b3b4c3b303b6f533b3834332d53544f44204e52455454415020454c4c494152423b43383832,
0x3b3b3b3b3b4e3b3b3b3b3b4c3b303b6f533b383433312d53544f44204e52455454415020454c4c494152423b44383832,
0x3b3b3b3b3b4e3b3b3b3b3b4c3b303b6f533b383433322d53544f44204e52455454415020454c4c494152423b45383832,
0x3b3b3b3b3b4e3b3b3b3b3b4c3b303b6f533b38343332312d53544f44204e52455454415020454c4c494152423b46383832,
0x3b3b3b3b3b4e3b3b3b3b3b4c3b303b6f533b38352d53544f44204e52455454415020454c4c494152423b30393832,
0x3b3b3b3b3b4e3b3b3b3b3b4c3b303b6f533b3835312d53544f44204e52455454415020454c4c494152423b31393832,
0x3b3b3b3b3b4e3b3b3b3b3b4c3b303b6f533b3835322d53544f44204e52455454415020454c4c494152423b32393832,
0x3b3b3b3b3b4e3b3b3b3b3b4c3b303b6f533b383532312d53544f44204e52455454415020454c4c494152423b33393832,
0x3b3b3b3b3b4e3b3b3b3b3b4c3b303b6f533b3835332d53544f44204e52455454415020454c4c494152423b34393832,
0x3b3b3b3b3b4e3b3b3b3b3b4c3b303b6f533b383533312d53544f44204e52455454415020454c4c494152423b35393832,
0x3b3b3b3b3b4e3b3b3b3b3b4c3b303b6f533b383533322d53544f44204e52455454415020454c4c494152423b36393832,
0x3b3b3b3b3b4e3b3b3b3b3b4c3b303b6f533b38353332312d53544f44204e52455454415020454c4c494152423b37393832,
0x3b3b3b3b3b4e3b3b3b3b3b4c3b303b6f533b3835342d53544f44204e52455454415020454c4c494152423b38393832,
0x3b3b3b3b3b4e3b3b3b3b3b4c3b303b6f533b383534312d53544f44204e52455454415020454c4c494152423b39393832,
0x3b3b3b3b3b4e3b3b3b3b3b4c3b303b6f533b383534322d53544f44204e52455454415020454c4c494152423b41393832,
0x3b3b3b3b3b4e3b3b3b3b3b4c3b303b6f533b38353432312d53544f44204e52455454415020454c4c494152423b42393832,
0x3b3b3b3b3b4e3b3b3b3b3b4c3b303b6f533b383534332d53544f44204e52455454415020454c4c494152423b43393832,
0x3b3b3b3b3b4e3b3b3b3b3b4c3b303b6f533b38353433312d53544f44204e52455454415020454c4c494152423b44393832,
0x3b3b3b3b3b4e3b3b3b3b3b4c3b303b6f533b38353433322d53544f44204e52455454415020454c4c494152423b45393832,
0x3b3b3b3b3b4e3b3b3b3b3b4c3b303b6f533b3835343332312d53544f44204e52455454415020454c4c494152423b46393832,
0x3b3b3b3b3b4e3b3b3b3b3b4c3b303b6f533b38362d53544f44204e52455454415020454c4c494152423b30413832,
0x3b3b3b3b3b4e3b3b3b3b3b4c3b303b6f533b3836312d53544f44204e52455454415020454c4c494152423b31413832,
0x3b3b3b3b3b4e3b3b3b3b3b4c3b303b6f533b3836322d53544f44204e52455454415020454c4c494152423b32413832,
0x3b3b3b3b3b4e3b3b3b3b3b4c3b303b6f533b383632312d53544f44204e52455454415020454c4c494152423b33413832,
0x3b3b3b3b3b4e3b3b3b3b3b4c3b303b6f533b3836332d53544f44204e52455454415020454c4c494152423b34413832,
0x3b3b3b3b3b4e3b3b3b3b3b4c3b303b6f533b383633312d53544f44204e52455454415020454c4c494152423b35413832,
0x3b3b3b3b3b4e3b3b3b3b3b4c3b303b6f533b383633322d53544f44204e52455454415020454c4c494152423b36413832,
0x3b3b3b3b3b4e3b3b3b3b3b4c3b303b6f533b38363332312d53544f44204e52455454415020454c4c494152423b37413832,
0x3b3b3b3b3b4e3b3b3b3b3b4c3b303b6f533b3836342d53544f44204e52455454415020454c4c494152423b38413832,
0x3b3b3b3b3b4e3b3b3b3b3b4c3b303b6f533b383634312d53544f44204e52455454415020454c4c494152423b39413832,
0x3b3b3b3b3b4e3b3b3b3b3b4c3b303b6f533b383634322d53544f44204e52455454415020454c4c494152423b41413832,
0x3b3b3b3b3b4e3b3b3b3b3b4c3b303b6f533b38363432312d53544f44204e52455454415020454c4c494152423b42413832,
0x3b3b3b3b3b4e3b3b3b3b3b4c3b303b6f533b383634332d53544f44204e52455454415020454c4c494152423b43413832,
0x3b3b3b3b3b4e3b3b3b3b3b4c3b303b6f533b38363433312d53544f44204e52455454415020454c4c494152423b44413832,
0x3b3b3b3b3b4e3b3b3b3b3b4c3b303b6f533b38363433322d53544f44204e52455454415020454c4c494152423b45413832,
0x3b3b3b3b3b4e3b3b3b3b3b4c3b303b6f533b3836343332312d53544f44204e52455454415020454c4c494152423b46413832,
0x3b3b3b3b3b4e3b3b3b3b3b4c3b303b6f533b3836352d53544f44204e52455454415020454c4c494152423b30423832,
0x3b3b3b3b3b4e3b3b3b3b3b4c3b303b6f533b383635312d53544f44204e52455454415020454c4c494152423b31423832,
0x3b3b3b3b3b4e3b3b3b3b3b4c3b303b6f533b383635322d53544f44204e52455454415020454c4c494152423b32423832,
0x3b3b3b3b3b4e3b3b3b3b3b4c3b303b6f533b38363532312d53544f44204e52455454415020454c4c494152423b33423832,
0x3b3b3b3b3b4e3b3b3b3b3b4c3b303b6f533b383635332d53544f44204e52455454415020454c4c494152423b34423832,
0x3b3b3b3b3b4e3b3b3b3b3b4c3b303b6f533b38363533312d53544f44204e52455454415020454c4c494152423b35423832,
0x3b3b3b3b3b4e3b3b3b3b3b4c3b303b6f533b38363533322d53544f44204e52455454415020454c4c494152423b36423832,
0x3b3b3b3b3b4e3b3b3b3b3b4c3b303b6f533b3836353332312d53544f44204e52455454415020454c4c494152423b37423832,
0x3b3b3b3b3b4e3b3b3b3b3b4c3b303b6f533b383635342d53544f44204e52455454415020454c4c494152423b38423832,
0x3b3b3b3b3b4e3b3b3b3b3b4c3b303b6f533b38363534312d53544f44204e52455454415020454c4c494152423b39423832,
0x3b3b3b3b3b4e3b3b3b3b3b4c3b303b6f533b38363534322d53544f44204e52455454415020454c4c494152423b41423832,
0x3b3b3b3b3b4e3b3b3b3b3b4c3b303b6f533b3836353432312d53544f44204e52455454415020454c4c494152423b42423832,
0x3b3b3b3b3b4e3b3b3b3b3b4c3b303b6f533b38363534332d53544f44204e52455454415020454c4c494152423b43423832,
0x3b3b3b3b3b4e3b3b3b3b3b4c3b303b6f533b3836353433312d53544f44204e52455454415020454c4c494152423b44423832,
0x3b3b3b3b3b4e3b3b3b3b3b4c3b303b6f533b3836353433322d53544f44204e52455454415020454c4c494152423b45423832,
0x3b3b3b3b3b4e3b3b3b3b3b4c3b303b6f533b383635343332312d53544f44204e52455454415020454c4c494152423b46423832,
0x3b3b3b3b3b4e3b3b3b3b3b4c3b303b6f533b38372d53544f44204e52455454415020454c4c494152423b30433832,
0x3b3b3b3b3b4e3b3b3b3b3b4c3b303b6f533b3837312d53544f44204e52455454415020454c4c494152423b31433832,
0x3b3b3b3b3b4e3b3b3b3b3b4c3b303b6f533b3837322d53544f44204e52455454415020454c4c494152423b32433832,
0x3b3b3b3b3b4e3b3b3b3b3b4c3b303b6f533b383732312d53544f44204e52455454415020454c4c494152423b33433832,
0x3b3b3b3b3b4e3b3b3b3b3b4c3b303b6f533b3837332d53544f44204e52455454415020454c4c494152423b34433832,
0x3b3b3b3b3b4e3b3b3b3b3b4c3b303b6f533b383733312d53544f44204e52455454415020454c4c494152423b35433832,
0x3b3b3b3b3b4e3b3b3b3b3b4c3b303b6f533b383733322d53544f44204e52455454415020454c4c494152423b36433832,
0x3b3b3b3b3b4e3b3b3b3b3b4c3b303b6f533b38373332312d53544f44204e52455454415020454c4c494152423b37433832,
0x3b3b3b3b3b4e3b3b3b3b3b4c3b303b6f533b3837342d53544f44204e52455454415020454c4c494152423b38433832,
0x3b3b3b3b3b4e3b3b3b3b3b4c3b303b6f533b383734312d53544f44204e52455454415020454c4c494152423b39433832,
0x3b3b3b3b3b4e3b3b3b3b3b4c3b303b6f533b383734322d53544f44204e52455454415020454c4c494152423b41433832,
0x3b3b3b3b3b4e3b3b3b3b3b4c3b303b6f533b38373432312d53544f44204e52455454415020454c4c494152423b42433832,
0x3b3b3b3b3b4e3b3b3b3b3b4c3b303b6f533b383734332d53544f44204e52455454415020454c4c494152423b43433832,
0x3b3b3b3b3b4e3b3b3b3b3b4c3b303b6f533b38373433312d53544f44204e52455454415020454c4c494152423b44433832,
0x3b3b3b3b3b4e3b3b3b3b3b4c3b303b6f533b38373433322d53544f44204e52455454415020454c4c494152423b45433832,
0x3b3b3b3b3b4e3b3b3b3b3b4c3b303b6f533b3837343332312d53544f44204e52455454415020454c4c494152423b46433832,
0x3b3b3b3b3b4e3b3b3b3b3b4c3b303b6f533b3837352d53544f44204e52455454415020454c4c494152423b30443832,
0x3b3b3b3b3b4e3b3b3b3b3b4c3b303b6f533b383735312d53544f44204e52455454415020454c4c494152423b31443832,
0x3b3b3b3b3b4e3b3b3b3b3b4c3b303b6f533b383735322d53544f44204e52455454415020454c4c494152423b32443832,
0x3b3b3b3b3b4e3b3b3b3b3b4c3b303b6f533b38373532312d53544f44204e52455454415020454c4c494152423b33443832,
0x3b3b3b3b3b4e3b3b3b3b3b4c3b303b6f533b383735332d53544f44204e52455454415020454c4c494152423b34443832,
0x3b3b3b3b3b4e3b3b3b3b3b4c3b303b6f533b38373533312d53544f44204e52455454415020454c4c494152423b35443832,
0x3b3b3b3b3b4e3b3b3b3b3b4c3b303b6f533b38373533322d53544f44204e52455454415020454c4c494152423b36443832,
0x3b3b3b3b3b4e3b3b3b3b3b4c3b303b6f533b3837353332312d53544f44204e52455454415020454c4c494152423b37443832,
0x3b3b3b3b3b4e3b3b3b3b3b4c3b303b6f533b383735342d53544f44204e52455454415020454c4c494152423b38443832,
0x3b3b3b3b3b4e3b3b3b3b3b4c3b303b6f533b38373534312d53544f44204e52455454415020454c4c494152423b39443832,
0x3b3b3b3b3b4e3b3b3b3b3b4c3b303b6f533b38373534322d53544f44204e52455454415020454c4c494152423b41443832,
0x3b3b3b3b3b4e3b3b3b3b3b4c3b303b6f533b3837353432312d53544f44204e52455454415020454c4c494152423b42443832,
0x3b3b3b3b3b4e3b3b3b3b3b4c3b303b6f533b38373534332d53544f44204e52455454415020454c4c494152423b43443832,
0x3b3b3b3b3b4e3b3b3b3b3b4c3b303b6f533b3837353433312d53544f44204e52455454415020454c4c494152423b44443832,
0x3b3b3b3b3b4e3b3b3b3b3b4c3b303b6f533b3837353433322d53544f44204e52455454415020454c4c494152423b45443832,
0x3b3b3b3b3b4e3b3b3b3b3b4c3b303b6f533b383735343332312d53544f44204e52455454415020454c4c494152423b46443832,
0x3b3b3b3b3b4e3b3b3b3b3b4c3b303b6f533b3837362d53544f44204e52455454415020454c4c494152423b30453832,
0x3b3b3b3b3b4e3b3b3b3b3b4c3b303b6f533b383736312d53544f44204e52455454415020454c4c494152423b31453832,
0x3b3b3b3b3b4e3b3b3b3b3b4c3b303b6f533b383736322d53544f44204e52455454415020454c4c494152423b32453832,
0x3b3b3b3b3b4e3b3b3b3b3b4c3b303b6f533b38373632312d53544f44204e52455454415020454c4c494152423b33453832,
0x3b3b3b3b3b4e3b3b3b3b3b4c3b303b6f533b383736332d53544f44204e52455454415020454c4c494152423b34453832,
0x3b3b3b3b3b4e3b3b3b3b3b4c3b303b6f533b38373633312d53544f44204e52455454415020454c4c494152423b35453832,
0x3b3b3b3b3b4e3b3b3b3b3b4c3b303b6f533b38373633322d53544f44204e52455454415020454c4c494152423b36453832,
0x3b3b3b3b3b4e3b3b3b3b3b4c3b303b6f533b3837363332312d53544f44204e52455454415020454c4c494152423b37453832,
0x3b3b3b3b3b4e3b3b3b3b3b4c3b303b6f533b383736342d53544f44204e52455454415020454c4c494152423b38453832,
0x3b3b3b3b3b4e3b3b3b3b3b4c3b303b6f533b38373634312d53544f44204e52455454415020454c4c494152423b39453832,
0x3b3b3b3b3b4e3b3b3b3b3b4c3b303b6f533b38373634322d53544f44204e52455454415020454c4c494152423b41453832,
0x3b3b3b3b3b4e3b3b3b3b3b4c3b303b6f533b3837363432312d53544f44204e52455454415020454c4c494152423b42453832,
0x3b3b3b3b3b4e3b3b3b3b3b4c3b303b6f533b38373634332d53544f44204e52455454415020454c4c494152423b43453832,
0x3b3b3b3b3b4e3b3b3b3b3b4c3b303b6f533b3837363433312d53544f44204e52455454415020454c4c494152423b44453832,
0x3b3b3b3b3b4e3b3b3b3b3b4c3b303b6f533b3837363433322d53544f44204e52455454415020454c4c494152423b45453832,
0x3b3b3b3b3b4e3b3b3b3b3b4c3b303b6f533b383736343332312d53544f44204e52455454415020454c4c494152423b46453832,
0x3b3b3b3b3b4e3b3b3b3b3b4c3b303b6f533b383736352d53544f44204e52455454415020454c4c494152423b30463832,
0x3b3b3b3b3b4e3b3b3b3b3b4c3b303b6f533b38373635312d53544f44204e52455454415020454c4c494152423b31463832,
0x3b3b3b3b3b4e3b3b3b3b3b4c3b303b6f533b38373635322d53544f44204e52455454415020454c4c494152423b32463832,
0x3b3b3b3b3b4e3b3b3b3b3b4c3b303b6f533b3837363532312d53544f44204e52455454415020454c4c494152423b33463832,
0x3b3b3b3b3b4e3b3b3b3b3b4c3b303b6f533b38373635332d53544f44204e52455454415020454c4c494152423b34463832,
0x3b3b3b3b3b4e3b3b3b3b3b4c3b303b6f533b3837363533312d53544f44204e52455454415020454c4c494152423b35463832,
0x3b3b3b3b3b4e3b3b3b3b3b4c3b303b6f533b3837363533322d53544f44204e52455454415020454c4c494152423b36463832,
0x3b3b3b3b3b4e3b3b3b3b3b4c3b303b6f533b383736353332312d53544f44204e52455454415020454c4c494152423b37463832,
0x3b3b3b3b3b4e3b3b3b3b3b4c3b303b6f533b38373635342d53544f44204e52455454415020454c4c494152423b38463832,
0x3b3b3b3b3b4e3b3b3b3b3b4c3b303b6f533b3837363534312d53544f44204e52455454415020454c4c494152423b39463832,
0x3b3b3b3b3b4e3b3b3b3b3b4c3b303b6f533b3837363534322d53544f44204e52455454415020454c4c494152423b41463832,
0x3b3b3b3b3b4e3b3b3b3b3b4c3b303b6f533b383736353432312d53544f44204e52455454415020454c4c494152423b42463832,
0x3b3b3b3b3b4e3b3b3b3b3b4c3b303b6f533b3837363534332d53544f44204e52455454415020454c4c494152423b43463832,
0x3b3b3b3b3b4e3b3b3b3b3b4c3b303b6f533b383736353433312d53544f44204e52455454415020454c4c494152423b44463832,
0x3b3b3b3b3b4e3b3b3b3b3b4c3b303b6f533b383736353433322d53544f44204e52455454415020454c4c494152423b45463832,
0x3b3b3b3b3b4e3b3b3b3b3b4c3b303b6f533b38373635343332312d53544f44204e52455454415020454c4c494152423b46463832,
0x3b3b3b3b3b4e3b3b3b3b3b4e4f3b303b6d533b454b4f525453204c41434954524556204854495720574f525241204445444145482d4f575420534452415754484749523b30303932,
0x3b3b3b3b3b4e3b3b3b3b3b4e4f3b303b6d533b454b4f525453204c4143495452455620454c42554f44204854495720574f525241204445444145482d4f575420534452415754484749523b31303932,
0x3b3b3b3b3b4e3b3b3b3b3b4e4f3b303b6d533b454b4f525453204c41434954524556204854495720574f52524120454c42554f442053445241575446454c3b32303932,
0x3b3b3b3b3b4e3b3b3b3b3b4e4f3b303b6d533b454b4f525453204c41434954524556204854495720574f52524120454c42554f4420534452415754484749523b33303932,
0x3b3b3b3b3b4e3b3b3b3b3b4e4f3b303b6d533b454b4f525453204c41434954524556204854495720574f52524120454c42554f44205448474952205446454c3b34303932,
0x3b3b3b3b3b4e3b3b3b3b3b4e4f3b303b6d533b524142204d4f524620574f525241204445444145482d4f575420534452415754484749523b35303932,
0x3b3b3b3b3b4e3b3b3b3b3b4e4f3b303b6d533b524142204d4f524620574f52524120454c42554f442053445241575446454c3b36303932,
0x3b3b3b3b3b4e3b3b3b3b3b4e4f3b303b6d533b524142204d4f524620574f52524120454c42554f4420534452415754484749523b37303932,
0x3b3b3b3b3b4e3b3b3b3b3b4e4f3b303b6d533b454b4f525453204c41544e4f5a49524f48204854495720574f5252412053445241574e574f443b38303932,
0x3b3b3b3b3b4e3b3b3b3b3b4e4f3b303b6d533b454b4f525453204c41544e4f5a49524f48204854495720574f52524120534452415750553b39303932,
0x3b3b3b3b3b4e3b3b3b3b3b4e4f3b303b6d533b574f52524120454c5049525420534452415750553b41303932,
0x3b3b3b3b3b4e3b3b3b3b3b4e4f3b303b6d533b574f52524120454c504952542053445241574e574f443b42303932,
0x3b3b3b3b3b4e3b3b3b3b3b4e4f3b303b6d533b574f525241204853414420454c42554f442053445241575446454c3b43303932,
0x3b3b3b3b3b4e3b3b3b3b3b4e4f3b303b6d533b574f525241204853414420454c42554f4420534452415754484749523b44303932,
0x3b3b3b3b3b4e3b3b3b3b3b4e4f3b303b6d533b574f525241204853414420454c504952542053445241575446454c3b45303932,
0x3b3b3b3b3b4e3b3b3b3b3b4e4f3b303b6d533b574f525241204853414420454c5049525420534452415754484749523b46303932,
0x3b3b3b3b3b4e3b3b3b3b3b4e4f3b303b6d533b574f525241204853414420454c50495254204445444145482d4f575420534452415754484749523b30313932,
0x3b3b3b3b3b4e3b3b3b3b3b4e4f3b303b6d533b4d45545320444554544f44204854495720574f52524120534452415754484749523b31313932,
0x3b3b3b3b3b4e3b3b3b3b3b4e4f3b303b6d533b524142204f5420574f52524120534452415750553b32313932,
0x3b3b3b3b3b4e3b3b3b3b3b4e4f3b303b6d533b524142204f5420574f5252412053445241574e574f443b33313932,
0x3b3b3b3b3b4e3b3b3b3b3b4e4f3b303b6d533b454b4f525453204c414349545245562048544957204c494154204854495720574f52524120534452415754484749523b34313932,
0x3b3b3b3b3b4e3b3b3b3b3b4e4f3b303b6d533b454b4f525453204c4143495452455620454c42554f442048544957204c494154204854495720574f52524120534452415754484749523b35313932,
0x3b3b3b3b3b4e3b3b3b3b3b4e4f3b303b6d533b4c494154204854495720574f525241204445444145482d4f575420534452415754484749523b36313932,
0x3b3b3b3b3b4e3b3b3b3b3b4e4f3b303b6d533b454b4f525453204c414349545245562048544957204c494154204854495720574f525241204445444145482d4f575420534452415754484749523b37313932,
0x3b3b3b3b3b4e3b3b3b3b3b4e4f3b303b6d533b454b4f525453204c4143495452455620454c42554f442048544957204c494154204854495720574f525241204445444145482d4f575420534452415754484749523b38313932,
0x3b3b3b3b3b4e3b3b3b3b3b4e4f3b303b6d533b4c4941542d574f5252412053445241575446454c3b39313932,
0x3b3b3b3b3b4e3b3b3b3b3b4e4f3b303b6d533b4c4941542d574f52524120534452415754484749523b41313932,
0x3b3b3b3b3b4e3b3b3b3b3b4e4f3b303b6d533b4c4941542d574f52524120454c42554f442053445241575446454c3b42313932,
0x3b3b3b3b3b4e3b3b3b3b3b4e4f3b303b6d533b4c4941542d574f52524120454c42554f4420534452415754484749523b43313932,
0x3b3b3b3b3b4e3b3b3b3b3b4e4f3b303b6d533b444e4f4d414944204b43414c42204f5420574f5252412053445241575446454c3b44313932,
0x3b3b3b3b3b4e3b3b3b3b3b4e4f3b303b6d533b444e4f4d414944204b43414c42204f5420574f52524120534452415754484749523b45313932,
0x3b3b3b3b3b4e3b3b3b3b3b4e4f3b303b6d533b444e4f4d414944204b43414c42204f5420524142204d4f524620574f5252412053445241575446454c3b46313932,
0x3b3b3b3b3b4e3b3b3b3b3b4e4f3b303b6d533b444e4f4d414944204b43414c42204f5420524142204d4f524620574f52524120534452415754484749523b30323932,
0x3b3b3b3b3b4e3b3b3b3b3b4e4f3b303b6d533b574f5252412054534145204854554f5320444e412054534557204854524f4e3b31323932,
0x3b3b3b3b3b4e3b3b3b3b3b4e4f3b303b6d533b574f5252412054534557204854554f5320444e412054534145204854524f4e3b32323932,
0x3b3b3b3b3b4e3b3b3b3b3b4e4f3b303b6d533b4b4f4f48204854495720574f5252412054534557204854524f4e3b33323932,
0x3b3b3b3b3b4e3b3b3b3b3b4e4f3b303b6d533b4b4f4f48204854495720574f5252412054534145204854524f4e3b34323932,
0x3b3b3b3b3b4e3b3b3b3b3b4e4f3b303b6d533b4b4f4f48204854495720574f5252412054534145204854554f533b35323932,
0x3b3b3b3b3b4e3b3b3b3b3b4e4f3b303b6d533b4b4f4f48204854495720574f5252412054534557204854554f533b36323932,
0x3b3b3b3b3b4e3b3b3b3b3b4e4f3b303b6d533b574f5252412054534145204854524f4e20444e4120574f5252412054534557204854524f4e3b37323932,
0x3b3b3b3b3b4e3b3b3b3b3b4e4f3b303b6d533b574f5252412054534145204854554f5320444e4120574f5252412054534145204854524f4e3b38323932,
0x3b3b3b3b3b4e3b3b3b3b3b4e4f3b303b6d533b574f5252412054534557204854554f5320444e4120574f5252412054534145204854554f533b39323932,
0x3b3b3b3b3b4e3b3b3b3b3b4e4f3b303b6d533b574f5252412054534557204854524f4e20444e4120574f5252412054534557204854554f533b41323932,
0x3b3b3b3b3b4e3b3b3b3b3b4e4f3b303b6d533b4c414e4f4741494420474e494c4c414620474e4953534f5243204c414e4f4741494420474e495349523b42323932,
0x3b3b3b3b3b4e3b3b3b3b3b4e4f3b303b6d533b4c414e4f4741494420474e4953495220474e4953534f5243204c414e4f4741494420474e494c4c41463b43323932,
0x3b3b3b3b3b4e3b3b3b3b3b4e4f3b303b6d533b574f5252412054534145204854524f4e20474e4953534f524320574f5252412054534145204854554f533b44323932,
0x3b3b3b3b3b4e3b3b3b3b3b4e4f3b303b6d533b574f5252412054534145204854554f5320474e4953534f524320574f5252412054534145204854524f4e3b45323932,
0x3b3b3b3b3b4e3b3b3b3b3b4e4f3b303b6d533b574f5252412054534145204854524f4e20474e4953534f5243204c414e4f4741494420474e494c4c41463b46323932,
0x3b3b3b3b3b4e3b3b3b3b3b4e4f3b303b6d533b574f5252412054534145204854554f5320474e4953534f5243204c414e4f4741494420474e495349523b30333932,
0x3b3b3b3b3b4e3b3b3b3b3b4e4f3b303b6d533b574f5252412054534557204854524f4e20474e4953534f524320574f5252412054534145204854524f4e3b31333932,
0x3b3b3b3b3b4e3b3b3b3b3b4e4f3b303b6d533b574f5252412054534145204854524f4e20474e4953534f524320574f5252412054534557204854524f4e3b32333932,
0x3b3b3b3b3b4e3b3b3b3b3b4e4f3b303b6d533b544847495220594c54434552494420474e49544e494f5020574f52524120455641573b33333932,
0x3b3b3b3b3b4e3b3b3b3b3b4e4f3b303b6d533b5344524157505520474e4956525543204e454854205344524157544847495220474e49544e494f5020574f5252413b34333932,
0x3b3b3b3b3b4e3b3b3b3b3b4e4f3b303b6d533b53445241574e574f4420474e4956525543204e454854205344524157544847495220474e49544e494f5020574f5252413b35333932,
0x3b3b3b3b3b4e3b3b3b3b3b4e4f3b303b6d533b53445241575446454c20474e4956525543204e4548542053445241574e574f4420474e49544e494f5020574f5252413b36333932,
0x3b3b3b3b3b4e3b3b3b3b3b4e4f3b303b6d533b5344524157544847495220474e4956525543204e4548542053445241574e574f4420474e49544e494f5020574f5252413b37333932,
0x3b3b3b3b3b4e3b3b3b3b3b4e4f3b303b6d533b574f52524120455349574b434f4c432043524120454449532d54484749523b38333932,
0x3b3b3b3b3b4e3b3b3b3b3b4e4f3b303b6d533b574f52524120455349574b434f4c4349544e412043524120454449532d5446454c3b39333932,
0x3b3b3b3b3b4e3b3b3b3b3b4e4f3b303b6d533b574f52524120455349574b434f4c4349544e412043524120504f543b41333932,
0x3b3b3b3b3b4e3b3b3b3b3b4e4f3b303b6d533b574f52524120455349574b434f4c4349544e4120435241204d4f54544f423b42333932,
0x3b3b3b3b3b4e3b3b3b3b3b4e4f3b303b6d533b53554e494d204854495720574f52524120455349574b434f4c432043524120504f543b43333932,
0x3b3b3b3b3b4e3b3b3b3b3b4e4f3b303b6d533b53554c50204854495720574f52524120455349574b434f4c4349544e412043524120504f543b44333932,
0x3b3b3b3b3b4e3b3b3b3b3b4e4f3b303b6d533b574f52524120455349574b434f4c432052414c5543524943494d4553205448474952205245574f4c3b45333932,
0x3b3b3b3b3b4e3b3b3b3b3b4e4f3b303b6d533b574f52524120455349574b434f4c4349544e412052414c5543524943494d4553205446454c205245574f4c3b46333932,
0x3b3b3b3b3b4e3b3b3b3b3b4e4f3b303b6d533b574f52524120454c43524943204445534f4c4320455349574b434f4c4349544e413b30343932,
0x3b3b3b3b3b4e3b3b3b3b3b4e4f3b303b6d533b574f52524120454c43524943204445534f4c4320455349574b434f4c433b31343932,
0x3b3b3b3b3b4e3b3b3b3b3b4e4f3b303b6d533b574f5252412053445241575446454c2054524f48532045564f424120574f52524120534452415754484749523b32343932,
0x3b3b3b3b3b4e3b3b3b3b3b4e4f3b303b6d533b574f52524120534452415754484749522054524f48532045564f424120574f5252412053445241575446454c3b33343932,
0x3b3b3b3b3b4e3b3b3b3b3b4e4f3b303b6d533b574f5252412053445241575446454c2045564f424120574f52524120534452415754484749522054524f48533b34343932,
0x3b3b3b3b3b4e3b3b3b3b3b4e4f3b303b6d533b574f4c45422053554c50204854495720574f52524120534452415754484749523b35343932,
0x3b3b3b3b3b4e3b3b3b3b3b4e4f3b303b6d533b574f4c45422053554c50204854495720574f5252412053445241575446454c3b36343932,
0x3b3b3b3b3b4e3b3b3b3b3b4e4f3b303b6d533b58204847554f52485420574f52524120534452415754484749523b37343932,
0x3b3b3b3b3b4e3b3b3b3b3b4e4f3b303b6d533b454c43524943204c4c414d53204847554f52485420574f525241205448474952205446454c3b38343932,
0x3b3b3b3b3b4e3b3b3b3b3b4e4f3b303b6d533b454c43524943204c4c414d53204d4f524620574f525241204445444145482d4f575420534452415750553b39343932,
0x3b3b3b3b3b4e3b3b3b3b3b4e4f3b303b6d533b4e4f4f50524148204e574f4420425241422054484749522050552042524142205446454c3b41343932,
0x3b3b3b3b3b4e3b3b3b3b3b4e4f3b303b6d533b4e4f4f505241482050552042524142205448474952204e574f442042524142205446454c3b42343932,
0x3b3b3b3b3b4e3b3b3b3b3b4e4f3b303b6d533b4e4f4f50524148205446454c2042524142204e574f4420544847495220425241422050553b43343932,
0x3b3b3b3b3b4e3b3b3b3b3b4e4f3b303b6d533b4e4f4f505241482054484749522042524142204e574f44205446454c20425241422050553b44343932,
0x3b3b3b3b3b4e3b3b3b3b3b4e4f3b303b6d533b4e4f4f5052414820505520425241422054484749522050552042524142205446454c3b45343932,
0x3b3b3b3b3b4e3b3b3b3b3b4e4f3b303b6d533b4e4f4f505241482054484749522042524142204e574f4420544847495220425241422050553b46343932,
0x3b3b3b3b3b4e3b3b3b3b3b4e4f3b303b6d533b4e4f4f50524148204e574f442042524142205448474952204e574f442042524142205446454c3b30353932,
0x3b3b3b3b3b4e3b3b3b3b3b4e4f3b303b6d533b4e4f4f50524148205446454c2042524142204e574f44205446454c20425241422050553b31353932,
0x3b3b3b3b3b4e3b3b3b3b3b4e4f3b303b6d533b524142204f5420505520425241422048544957204e4f4f505241482053445241575446454c3b32353932,
0x3b3b3b3b3b4e3b3b3b3b3b4e4f3b303b6d533b524142204f5420505520425241422048544957204e4f4f5052414820534452415754484749523b33353932,
0x3b3b3b3b3b4e3b3b3b3b3b4e4f3b303b6d533b524142204f5420544847495220425241422048544957204e4f4f5052414820534452415750553b34353932,
0x3b3b3b3b3b4e3b3b3b3b3b4e4f3b303b6d533b524142204f5420544847495220425241422048544957204e4f4f505241482053445241574e574f443b35353932,
0x3b3b3b3b3b4e3b3b3b3b3b4e4f3b303b6d533b524142204f54204e574f4420425241422048544957204e4f4f505241482053445241575446454c3b36353932,
0x3b3b3b3b3b4e3b3b3b3b3b4e4f3b303b6d533b524142204f54204e574f4420425241422048544957204e4f4f5052414820534452415754484749523b37353932,
0x3b3b3b3b3b4e3b3b3b3b3b4e4f3b303b6d533b524142204f54205446454c20425241422048544957204e4f4f5052414820534452415750553b38353932,
0x3b3b3b3b3b4e3b3b3b3b3b4e4f3b303b6d533b524142204f54205446454c20425241422048544957204e4f4f505241482053445241574e574f443b39353932,
0x3b3b3b3b3b4e3b3b3b3b3b4e4f3b303b6d533b524142204d4f524620505520425241422048544957204e4f4f505241482053445241575446454c3b41353932,
0x3b3b3b3b3b4e3b3b3b3b3b4e4f3b303b6d533b524142204d4f524620505520425241422048544957204e4f4f5052414820534452415754484749523b42353932,
0x3b3b3b3b3b4e3b3b3b3b3b4e4f3b303b6d533b524142204d4f524620544847495220425241422048544957204e4f4f5052414820534452415750553b43353932,
0x3b3b3b3b3b4e3b3b3b3b3b4e4f3b303b6d533b524142204d4f524620544847495220425241422048544957204e4f4f505241482053445241574e574f443b44353932,
0x3b3b3b3b3b4e3b3b3b3b3b4e4f3b303b6d533b524142204d4f5246204e574f4420425241422048544957204e4f4f505241482053445241575446454c3b45353932,
0x3b3b3b3b3b4e3b3b3b3b3b4e4f3b303b6d533b524142204d4f5246204e574f4420425241422048544957204e4f4f5052414820534452415754484749523b46353932,
0x3b3b3b3b3b4e3b3b3b3b3b4e4f3b303b6d533b524142204d4f5246205446454c20425241422048544957204e4f4f5052414820534452415750553b30363932,
0x3b3b3b3b3b4e3b3b3b3b3b4e4f3b303b6d533b524142204d4f5246205446454c20425241422048544957204e4f4f505241482053445241574e574f443b31363932,
0x3b3b3b3b3b4e3b3b3b3b3b4e4f3b303b6d533b4e574f4420425241422048544957204e4f4f505241482053445241575446454c2045564f424120505520425241422048544957204e4f4f505241482053445241575446454c3b32363932,
0x3b3b3b3b3b4e3b3b3b3b3b4e4f3b303b6d533b544847495220425241422048544957204e4f4f50524148205344524157505520454449534542205446454c20425241422048544957204e4f4f5052414820534452415750553b33363932,
0x3b3b3b3b3b4e3b3b3b3b3b4e4f3b303b6d533b4e574f4420425241422048544957204e4f4f5052414820534452415754484749522045564f424120505520425241422048544957204e4f4f5052414820534452415754484749523b34363932]

/-- src/u5e/props/UnicodeData.txt lines 9473-9728. -/
def rawUcd37 : List Nat := [
0x3b3b3b3b3b4e3b3b3b3b3b4e4f3b303b6d533b544847495220425241422048544957204e4f4f505241482053445241574e574f4420454449534542205446454c20425241422048544957204e4f4f505241482053445241574e574f443b35363932,
0x3b3b3b3b3b4e3b3b3b3b3b4e4f3b303b6d533b505520425241422048544957204e4f4f5052414820534452415754484749522045564f424120505520425241422048544957204e4f4f505241482053445241575446454c3b36363932,
0x3b3b3b3b3b4e3b3b3b3b3b4e4f3b303b6d533b4e574f4420425241422048544957204e4f4f5052414820534452415754484749522045564f4241204e574f4420425241422048544957204e4f4f505241482053445241575446454c3b37363932,
0x3b3b3b3b3b4e3b3b3b3b3b4e4f3b303b6d533b505520425241422048544957204e4f4f505241482053445241575446454c2045564f424120505520425241422048544957204e4f4f5052414820534452415754484749523b38363932,
0x3b3b3b3b3b4e3b3b3b3b3b4e4f3b303b6d533b4e574f4420425241422048544957204e4f4f505241482053445241575446454c2045564f4241204e574f4420425241422048544957204e4f4f5052414820534452415754484749523b39363932,
0x3b3b3b3b3b4e3b3b3b3b3b4e4f3b303b6d533b4853414420474e4f4c2045564f424120505520425241422048544957204e4f4f505241482053445241575446454c3b41363932,
0x3b3b3b3b3b4e3b3b3b3b3b4e4f3b303b6d533b4853414420474e4f4c20574f4c4542204e574f4420425241422048544957204e4f4f505241482053445241575446454c3b42363932,
0x3b3b3b3b3b4e3b3b3b3b3b4e4f3b303b6d533b4853414420474e4f4c2045564f424120505520425241422048544957204e4f4f5052414820534452415754484749523b43363932,
0x3b3b3b3b3b4e3b3b3b3b3b4e4f3b303b6d533b4853414420474e4f4c20574f4c4542204e574f4420425241422048544957204e4f4f5052414820534452415754484749523b44363932,
0x3b3b3b3b3b4e3b3b3b3b3b4e4f3b303b6d533b544847495220425241422048544957204e4f4f505241482053445241574e574f4420454449534542205446454c20425241422048544957204e4f4f5052414820534452415750553b45363932,
0x3b3b3b3b3b4e3b3b3b3b3b4e4f3b303b6d533b544847495220425241422048544957204e4f4f50524148205344524157505520454449534542205446454c20425241422048544957204e4f4f505241482053445241574e574f443b46363932,
0x3b3b3b3b3b4e3b3b3b3b3b4e4f3b303b6d533b44414548204445444e554f52204854495720574f52524120454c42554f442054484749523b30373932,
0x3b3b3b3b3b4e3b3b3b3b3b4e4f3b303b6d533b574f52524120534452415754484749522045564f4241204e47495320534c415551453b31373932,
0x3b3b3b3b3b4e3b3b3b3b3b4e4f3b303b6d533b574f52524120534452415754484749522045564f424120524f54415245504f2045444c49543b32373932,
0x3b3b3b3b3b4e3b3b3b3b3b4e4f3b303b6d533b524f54415245504f2045444c49542045564f424120574f5252412053445241575446454c3b33373932,
0x3b3b3b3b3b4e3b3b3b3b3b4e4f3b303b6d533b524f54415245504f2045444c49542045564f424120574f52524120534452415754484749523b34373932,
0x3b3b3b3b3b4e3b3b3b3b3b4e4f3b303b6d533b4f54204c415551452054534f4d4c412045564f424120574f52524120534452415754484749523b35373932,
0x3b3b3b3b3b4e3b3b3b3b3b4e4f3b303b6d533b574f5252412053445241575446454c2045564f4241204e4148542d5353454c3b36373932,
0x3b3b3b3b3b4e3b3b3b3b3b4e4f3b303b6d533b4e4148542d5353454c204847554f52485420574f5252412053445241575446454c3b37373932,
0x3b3b3b3b3b4e3b3b3b3b3b4e4f3b303b6d533b574f52524120534452415754484749522045564f4241204e4148542d524554414552473b38373932,
0x3b3b3b3b3b4e3b3b3b3b3b4e4f3b303b6d533b574f52524120534452415754484749522045564f4241205445534255533b39373932,
0x3b3b3b3b3b4e3b3b3b3b3b4e4f3b303b6d533b544553425553204847554f52485420574f5252412053445241575446454c3b41373932,
0x3b3b3b3b3b4e3b3b3b3b3b4e4f3b303b6d533b574f5252412053445241575446454c2045564f42412054455352455055533b42373932,
0x3b3b3b3b3b4e3b3b3b3b3b4e4f3b303b6d533b4c4941542048534946205446454c3b43373932,
0x3b3b3b3b3b4e3b3b3b3b3b4e4f3b303b6d533b4c49415420485349462054484749523b44373932,
0x3b3b3b3b3b4e3b3b3b3b3b4e4f3b303b6d533b4c49415420485349462050553b45373932,
0x3b3b3b3b3b4e3b3b3b3b3b4e4f3b303b6d533b4c4941542048534946204e574f443b46373932,
0x3b3b3b3b3b4e3b3b3b3b3b4e4f3b303b6d533b524554494d494c454420524142204c4143495452455620454c504952543b30383932,
0x3b3b3b3b3b4e3b3b3b3b3b4e4f3b303b6d533b544f5053204e4f495441544f4e205a3b31383932,
0x3b3b3b3b3b4e3b3b3b3b3b4e4f3b303b6d533b4e4f4c4f432045505954204e4f495441544f4e205a3b32383932,
0x3b3b3b3b3b593b3b3b3b3b4e4f3b303b73503b54454b4341524220594c525543204554494857205446454c3b33383932,
0x3b3b3b3b3b593b3b3b3b3b4e4f3b303b65503b54454b4341524220594c5255432045544948572054484749523b34383932,
0x3b3b3b3b3b593b3b3b3b3b4e4f3b303b73503b5349534548544e45524150204554494857205446454c3b35383932,
0x3b3b3b3b3b593b3b3b3b3b4e4f3b303b65503b5349534548544e455241502045544948572054484749523b36383932,
0x3b3b3b3b3b593b3b3b3b3b4e4f3b303b73503b54454b43415242204547414d49205446454c204e4f495441544f4e205a3b37383932,
0x3b3b3b3b3b593b3b3b3b3b4e4f3b303b65503b54454b43415242204547414d49205448474952204e4f495441544f4e205a3b38383932,
0x3b3b3b3b3b593b3b3b3b3b4e4f3b303b73503b54454b4341524220474e49444e4942205446454c204e4f495441544f4e205a3b39383932,
0x3b3b3b3b3b593b3b3b3b3b4e4f3b303b65503b54454b4341524220474e49444e4942205448474952204e4f495441544f4e205a3b41383932,
0x3b3b3b3b3b593b3b3b3b3b4e4f3b303b73503b5241425245444e5520485449572054454b4341524220455241555153205446454c3b42383932,
0x3b3b3b3b3b593b3b3b3b3b4e4f3b303b65503b5241425245444e5520485449572054454b43415242204552415551532054484749523b43383932,
0x3b3b3b3b3b593b3b3b3b3b4e4f3b303b73503b52454e524f4320504f54204e49204b43495420485449572054454b4341524220455241555153205446454c3b44383932,
0x3b3b3b3b3b593b3b3b3b3b4e4f3b303b65503b52454e524f43204d4f54544f42204e49204b43495420485449572054454b43415242204552415551532054484749523b45383932,
0x3b3b3b3b3b593b3b3b3b3b4e4f3b303b73503b52454e524f43204d4f54544f42204e49204b43495420485449572054454b4341524220455241555153205446454c3b46383932,
0x3b3b3b3b3b593b3b3b3b3b4e4f3b303b65503b52454e524f4320504f54204e49204b43495420485449572054454b43415242204552415551532054484749523b30393932,
0x3b3b3b3b3b593b3b3b3b3b4e4f3b303b73503b544f4420485449572054454b4341524220454c474e41205446454c3b31393932,
0x3b3b3b3b3b593b3b3b3b3b4e4f3b303b65503b544f4420485449572054454b4341524220454c474e412054484749523b32393932,
0x3b3b3b3b3b593b3b3b3b3b4e4f3b303b73503b54454b43415242204e4148542d5353454c20435241205446454c3b33393932,
0x3b3b3b3b3b593b3b3b3b3b4e4f3b303b65503b54454b43415242204e4148542d52455441455247204352412054484749523b34393932,
0x3b3b3b3b3b593b3b3b3b3b4e4f3b303b73503b54454b43415242204e4148542d5245544145524720435241205446454c20454c42554f443b35393932,
0x3b3b3b3b3b593b3b3b3b3b4e4f3b303b65503b54454b43415242204e4148542d5353454c2043524120544847495220454c42554f443b36393932,
0x3b3b3b3b3b593b3b3b3b3b4e4f3b303b73503b54454b43415242204c4c454853204553494f54524f54204b43414c42205446454c3b37393932,
0x3b3b3b3b3b593b3b3b3b3b4e4f3b303b65503b54454b43415242204c4c454853204553494f54524f54204b43414c422054484749523b38393932,
0x3b3b3b3b3b4e3b3b3b3b3b4e4f3b303b6d533b45434e454620444554544f443b39393932,
0x3b3b3b3b3b4e3b3b3b3b3b4e4f3b303b6d533b454e494c2047415a47495a204c414349545245563b41393932,
0x3b3b3b3b3b593b3b3b3b3b4e4f3b303b6d533b5446454c20474e494e45504f20454c474e4120444552555341454d3b42393932,
0x3b3b3b3b3b593b3b3b3b3b4e4f3b303b6d533b455241555153204854495720544e414952415620454c474e412054484749523b43393932,
0x3b3b3b3b3b593b3b3b3b3b4e4f3b303b6d533b544f44204854495720454c474e4120544847495220444552555341454d3b44393932,
0x3b3b3b3b3b593b3b3b3b3b4e4f3b303b6d533b454449534e492053204854495720454c474e413b45393932,
0x3b3b3b3b3b593b3b3b3b3b4e4f3b303b6d533b454c474e412045545543413b46393932,
0x3b3b3b3b3b593b3b3b3b3b4e4f3b303b6d533b5446454c20474e494e45504f20454c474e41204c41434952454850533b30413932,
0x3b3b3b3b3b593b3b3b3b3b4e4f3b303b6d533b505520474e494e45504f20454c474e41204c41434952454850533b31413932,
0x3b3b3b3b3b593b3b3b3b3b4e4f3b303b6d533b454c474e412044454e5255543b32413932,
0x3b3b3b3b3b593b3b3b3b3b4e4f3b303b6d533b454c474e412044455352455645523b33413932,
0x3b3b3b3b3b593b3b3b3b3b4e4f3b303b6d533b5241425245444e55204854495720454c474e413b34413932,
0x3b3b3b3b3b593b3b3b3b3b4e4f3b303b6d533b5241425245444e55204854495720454c474e412044455352455645523b35413932,
0x3b3b3b3b3b593b3b3b3b3b4e4f3b303b6d533b505520474e494e45504f20454c474e4120455551494c424f3b36413932,
0x3b3b3b3b3b593b3b3b3b3b4e4f3b303b6d533b4e574f4420474e494e45504f20454c474e4120455551494c424f3b37413932,
0x3b3b3b3b3b593b3b3b3b3b4e4f3b303b6d533b544847495220444e4120505520474e49544e494f5020574f525241204e4920474e49444e45204d5241204e45504f204854495720454c474e4120444552555341454d3b38413932,
0x3b3b3b3b3b593b3b3b3b3b4e4f3b303b6d533b5446454c20444e4120505520474e49544e494f5020574f525241204e4920474e49444e45204d5241204e45504f204854495720454c474e4120444552555341454d3b39413932,
0x3b3b3b3b3b593b3b3b3b3b4e4f3b303b6d533b544847495220444e41204e574f4420474e49544e494f5020574f525241204e4920474e49444e45204d5241204e45504f204854495720454c474e4120444552555341454d3b41413932,
0x3b3b3b3b3b593b3b3b3b3b4e4f3b303b6d533b5446454c20444e41204e574f4420474e49544e494f5020574f525241204e4920474e49444e45204d5241204e45504f204854495720454c474e4120444552555341454d3b42413932,
0x3b3b3b3b3b593b3b3b3b3b4e4f3b303b6d533b505520444e4120544847495220474e49544e494f5020574f525241204e4920474e49444e45204d5241204e45504f204854495720454c474e4120444552555341454d3b43413932,
0x3b3b3b3b3b593b3b3b3b3b4e4f3b303b6d533b505520444e41205446454c20474e49544e494f5020574f525241204e4920474e49444e45204d5241204e45504f204854495720454c474e4120444552555341454d3b44413932,
0x3b3b3b3b3b593b3b3b3b3b4e4f3b303b6d533b4e574f4420444e4120544847495220474e49544e494f5020574f525241204e4920474e49444e45204d5241204e45504f204854495720454c474e4120444552555341454d3b45413932,
0x3b3b3b3b3b593b3b3b3b3b4e4f3b303b6d533b4e574f4420444e41205446454c20474e49544e494f5020574f525241204e4920474e49444e45204d5241204e45504f204854495720454c474e4120444552555341454d3b46413932,
0x3b3b3b3b3b4e3b3b3b3b3b4e4f3b303b6d533b544553205954504d452044455352455645523b30423932,
0x3b3b3b3b3b4e3b3b3b3b3b4e4f3b303b6d533b5241425245564f204854495720544553205954504d453b31423932,
0x3b3b3b3b3b4e3b3b3b3b3b4e4f3b303b6d533b45564f424120454c43524943204c4c414d53204854495720544553205954504d453b32423932,
0x3b3b3b3b3b4e3b3b3b3b3b4e4f3b303b6d533b45564f424120574f525241205448474952204854495720544553205954504d453b33423932,
0x3b3b3b3b3b4e3b3b3b3b3b4e4f3b303b6d533b45564f424120574f525241205446454c204854495720544553205954504d453b34423932,
0x3b3b3b3b3b4e3b3b3b3b3b4e4f3b303b6d533b524142204c41544e4f5a49524f48204854495720454c435249433b35423932,
0x3b3b3b3b3b4e3b3b3b3b3b4e4f3b303b6d533b524142204c414349545245562044454c435249433b36423932,
0x3b3b3b3b3b4e3b3b3b3b3b4e4f3b303b6d533b4c454c4c415241502044454c435249433b37423932,
0x3b3b3b3b3b593b3b3b3b3b4e4f3b303b6d533b535544494c4f5320455352455645522044454c435249433b38423932,
0x3b3b3b3b3b4e3b3b3b3b3b4e4f3b303b6d533b52414c554349444e45505245502044454c435249433b39423932,
0x3b3b3b3b3b4e3b3b3b3b3b4e4f3b303b6d533b524142204c41434954524556205942204445444956494420464c414820504f5420444e4120524142204c41544e4f5a49524f48205942204445444956494420454c435249433b41423932,
0x3b3b3b3b3b4e3b3b3b3b3b4e4f3b303b6d533b58204445534f504d495245505553204854495720454c435249433b42423932,
0x3b3b3b3b3b4e3b3b3b3b3b4e4f3b303b6d533b4e474953204e4f4953495649442044455441544f522d455349574b434f4c4349544e412044454c435249433b43423932,
0x3b3b3b3b3b4e3b3b3b3b3b4e4f3b303b6d533b454c43524943204847554f52485420574f5252412050553b44423932,
0x3b3b3b3b3b4e3b3b3b3b3b4e4f3b303b6d533b54454c4c55422045544948572044454c435249433b45423932,
0x3b3b3b3b3b4e3b3b3b3b3b4e4f3b303b6d533b54454c4c55422044454c435249433b46423932,
0x3b3b3b3b3b593b3b3b3b3b4e4f3b303b6d533b4e4148542d5353454c2044454c435249433b30433932,
0x3b3b3b3b3b593b3b3b3b3b4e4f3b303b6d533b4e4148542d524554414552472044454c435249433b31433932,
0x3b3b3b3b3b593b3b3b3b3b4e4f3b303b6d533b544847495220454854204f5420454c43524943204c4c414d53204854495720454c435249433b32433932,
0x3b3b3b3b3b593b3b3b3b3b4e4f3b303b6d533b544847495220454854204f542053454b4f525453204c41544e4f5a49524f48204f5754204854495720454c435249433b33433932,
0x3b3b3b3b3b593b3b3b3b3b4e4f3b303b6d533b4853414c53204c414e4f4741494420474e4953495220444552415551533b34433932,
0x3b3b3b3b3b593b3b3b3b3b4e4f3b303b6d533b4853414c53204c414e4f4741494420474e494c4c414620444552415551533b35433932,
0x3b3b3b3b3b4e3b3b3b3b3b4e4f3b303b6d533b4b5349524554534120444552415551533b36433932,
0x3b3b3b3b3b4e3b3b3b3b3b4e4f3b303b6d533b454c43524943204c4c414d5320444552415551533b37433932,
0x3b3b3b3b3b4e3b3b3b3b3b4e4f3b303b6d533b45524155515320444552415551533b38433932,
0x3b3b3b3b3b593b3b3b3b3b4e4f3b303b6d533b534552415551532044454e494f4a204f57543b39433932,
0x3b3b3b3b3b4e3b3b3b3b3b4e4f3b303b6d533b45564f424120544f44204854495720454c474e414952543b41433932,
0x3b3b3b3b3b4e3b3b3b3b3b4e4f3b303b6d533b5241425245444e55204854495720454c474e414952543b42433932,
0x3b3b3b3b3b4e3b3b3b3b3b4e4f3b303b6d533b454c474e41495254204e4920533b43433932,
0x3b3b3b3b3b4e3b3b3b3b3b4e4f3b303b6d533b4d4f54544f4220544120534649524553204854495720454c474e414952543b44433932,
0x3b3b3b3b3b593b3b3b3b3b4e4f3b303b6d533b454c474e41495254205446454c2045564f424120454c474e414952542054484749523b45433932,
0x3b3b3b3b3b593b3b3b3b3b4e4f3b303b6d533b524142204c414349545245562045444953454220454c474e41495254205446454c3b46433932,
0x3b3b3b3b3b593b3b3b3b3b4e4f3b303b6d533b454c474e414952542054484749522045444953454220524142204c414349545245563b30443932,
0x3b3b3b3b3b593b3b3b3b3b4e4f3b303b6d533b4b43414c4220464c4148205446454c204854495720454954574f423b31443932,
0x3b3b3b3b3b593b3b3b3b3b4e4f3b303b6d533b4b43414c4220464c4148205448474952204854495720454954574f423b32443932,
0x3b3b3b3b3b4e3b3b3b3b3b4e4f3b303b6d533b454954574f42204b43414c423b33443932,
0x3b3b3b3b3b593b3b3b3b3b4e4f3b303b6d533b4b43414c4220464c4148205446454c20485449572053454d49543b34443932,
0x3b3b3b3b3b593b3b3b3b3b4e4f3b303b6d533b4b43414c4220464c414820544847495220485449572053454d49543b35443932,
0x3b3b3b3b3b4e3b3b3b3b3b4e4f3b303b6d533b5353414c4752554f482045544948573b36443932,
0x3b3b3b3b3b4e3b3b3b3b3b4e4f3b303b6d533b5353414c4752554f48204b43414c423b37443932,
0x3b3b3b3b3b593b3b3b3b3b4e4f3b303b73503b45434e454620594c47474957205446454c3b38443932,
0x3b3b3b3b3b593b3b3b3b3b4e4f3b303b65503b45434e454620594c474749572054484749523b39443932,
0x3b3b3b3b3b593b3b3b3b3b4e4f3b303b73503b45434e454620594c4747495720454c42554f44205446454c3b41443932,
0x3b3b3b3b3b593b3b3b3b3b4e4f3b303b65503b45434e454620594c4747495720454c42554f442054484749523b42443932,
0x3b3b3b3b3b593b3b3b3b3b4e4f3b303b6d533b5954494e49464e49204554454c504d4f434e493b43443932,
0x3b3b3b3b3b4e3b3b3b3b3b4e4f3b303b6d533b5954494e49464e49205245564f204549543b44443932,
0x3b3b3b3b3b4e3b3b3b3b3b4e4f3b303b6d533b524142204c414349545245562048544957204445544147454e205954494e49464e493b45443932,
0x3b3b3b3b3b4e3b3b3b3b3b4e4f3b303b6d533b50414d49544c554d204445444e452d454c42554f443b46443932,
0x3b3b3b3b3b4e3b3b3b3b3b4e4f3b303b6d533b454e494c54554f20444552554f544e4f432048544957204552415551533b30453932,
0x3b3b3b3b3b593b3b3b3b3b4e4f3b303b6d533b534120534553414552434e493b31453932,
0x3b3b3b3b3b4e3b3b3b3b3b4e4f3b303b6d533b544355444f525020454c46465548533b32453932,
0x3b3b3b3b3b593b3b3b3b3b4e4f3b303b6d533b4c454c4c41524150204445544e414c5320444e41204e47495320534c415551453b33453932,
0x3b3b3b3b3b593b3b3b3b3b4e4f3b303b6d533b45564f42412045444c49542048544957204c454c4c41524150204445544e414c5320444e41204e47495320534c415551453b34453932,
0x3b3b3b3b3b593b3b3b3b3b4e4f3b303b6d533b4c454c4c41524150204445544e414c5320444e41204f54204c414349544e4544493b35453932,
0x3b3b3b3b3b4e3b3b3b3b3b4e4f3b303b6d533b4b5241545320484349454c473b36453932,
0x3b3b3b3b3b4e3b3b3b3b3b4e4f3b303b6d533b43494d414e59444f4d524548543b37453932,
0x3b3b3b3b3b593b3b3b3b3b4e4f3b303b6d533b4b43414c4220464c4148205446454c204854495720454c474e4149525420474e49544e494f502d4e574f443b38453932,
0x3b3b3b3b3b593b3b3b3b3b4e4f3b303b6d533b4b43414c4220464c4148205448474952204854495720454c474e4149525420474e49544e494f502d4e574f443b39453932,
0x3b3b3b3b3b4e3b3b3b3b3b4e4f3b303b6d533b574f525241204e574f44204854495720444e4f4d414944204b43414c423b41453932,
0x3b3b3b3b3b4e3b3b3b3b3b4e4f3b303b6d533b45474e455a4f4c204b43414c423b42453932,
0x3b3b3b3b3b4e3b3b3b3b3b4e4f3b303b6d533b574f525241204e574f44204854495720454c435249432045544948573b43453932,
0x3b3b3b3b3b4e3b3b3b3b3b4e4f3b303b6d533b574f525241204e574f44204854495720454c43524943204b43414c423b44453932,
0x3b3b3b3b3b4e3b3b3b3b3b4e4f3b303b6d533b455241555153204554494857204445525241422d524f5252453b45453932,
0x3b3b3b3b3b4e3b3b3b3b3b4e4f3b303b6d533b455241555153204b43414c42204445525241422d524f5252453b46453932,
0x3b3b3b3b3b4e3b3b3b3b3b4e4f3b303b6d533b444e4f4d414944204554494857204445525241422d524f5252453b30463932,
0x3b3b3b3b3b4e3b3b3b3b3b4e4f3b303b6d533b444e4f4d414944204b43414c42204445525241422d524f5252453b31463932,
0x3b3b3b3b3b4e3b3b3b3b3b4e4f3b303b6d533b454c43524943204554494857204445525241422d524f5252453b32463932,
0x3b3b3b3b3b4e3b3b3b3b3b4e4f3b303b6d533b454c43524943204b43414c42204445525241422d524f5252453b33463932,
0x3b3b3b3b3b593b3b3b3b3b4e4f3b303b6d533b444559414c45442d454c55523b34463932,
0x3b3b3b3b3b593b3b3b3b3b4e4f3b303b6d533b524f54415245504f20535544494c4f5320455352455645523b35463932,
0x3b3b3b3b3b593b3b3b3b3b4e4f3b303b6d533b5241425245564f204854495720535544494c4f533b36463932,
0x3b3b3b3b3b593b3b3b3b3b4e4f3b303b6d533b454b4f525453204c41544e4f5a49524f48204854495720535544494c4f5320455352455645523b37463932,
0x3b3b3b3b3b593b3b3b3b3b4e4f3b303b6d533b535544494c4f53204749423b38463932,
0x3b3b3b3b3b593b3b3b3b3b4e4f3b303b6d533b535544494c4f532045535245564552204749423b39463932,
0x3b3b3b3b3b4e3b3b3b3b3b4e4f3b303b6d533b53554c5020454c42554f443b41463932,
0x3b3b3b3b3b4e3b3b3b3b3b4e4f3b303b6d533b53554c5020454c504952543b42463932,
0x3b3b3b3b3b593b3b3b3b3b4e4f3b303b73503b54454b4341524220454c474e412044455652554320474e49544e494f502d5446454c3b43463932,
0x3b3b3b3b3b593b3b3b3b3b4e4f3b303b65503b54454b4341524220454c474e412044455652554320474e49544e494f502d54484749523b44463932,
0x3b3b3b3b3b4e3b3b3b3b3b4e4f3b303b6d533b594e49543b45463932,
0x3b3b3b3b3b4e3b3b3b3b3b4e4f3b303b6d533b594e494d3b46463932,
0x3b3b3b3b3b4e3b3b3b3b3b4e4f3b303b6d533b524f54415245504f20544f442044454c43524943205952412d4e3b30304132,
0x3b3b3b3b3b4e3b3b3b3b3b4e4f3b303b6d533b524f54415245504f2053554c502044454c43524943205952412d4e3b31304132,
0x3b3b3b3b3b4e3b3b3b3b3b4e4f3b303b6d533b524f54415245504f2053454d49542044454c43524943205952412d4e3b32304132,
0x3b3b3b3b3b4e3b3b3b3b3b4e4f3b303b6d533b544f44204854495720524f54415245504f204e4f494e55205952412d4e3b33304132,
0x3b3b3b3b3b4e3b3b3b3b3b4e4f3b303b6d533b53554c50204854495720524f54415245504f204e4f494e55205952412d4e3b34304132,
0x3b3b3b3b3b4e3b3b3b3b3b4e4f3b303b6d533b524f54415245504f204e4f49544345535245544e4920455241555153205952412d4e3b35304132,
0x3b3b3b3b3b4e3b3b3b3b3b4e4f3b303b6d533b524f54415245504f204e4f494e5520455241555153205952412d4e3b36304132,
0x3b3b3b3b3b4e3b3b3b3b3b4e4f3b303b6d533b524f54415245504f20444e41204c414349474f4c204f57543b37304132,
0x3b3b3b3b3b4e3b3b3b3b3b4e4f3b303b6d533b524f54415245504f20524f204c414349474f4c204f57543b38304132,
0x3b3b3b3b3b4e3b3b3b3b3b4e4f3b303b6d533b524f54415245504f2053454d4954205952412d4e3b39304132,
0x3b3b3b3b3b593b3b3b3b3b4e4f3b303b6d533b4d5553204f5754204f4c55444f4d3b41304132,
0x3b3b3b3b3b593b3b3b3b3b4e4f3b303b6d533b4c41524745544e492048544957204e4f4954414d4d55533b42304132,
0x3b3b3b3b3b593b3b3b3b42323232204232323220423232322042323232203e7461706d6f633c3b4e4f3b303b6d533b524f54415245504f204c41524745544e4920454c505552444155513b43304132,
0x3b3b3b3b3b593b3b3b3b3b4e4f3b303b6d533b4c41524745544e492054524150204554494e49463b44304132,
0x3b3b3b3b3b593b3b3b3b3b4e4f3b303b6d533b454b4f52545320454c42554f442048544957204c41524745544e493b45304132,
0x3b3b3b3b3b593b3b3b3b3b4e4f3b303b6d533b4853414c5320485449572045474152455641204c41524745544e493b46304132,
0x3b3b3b3b3b593b3b3b3b3b4e4f3b303b6d533b4e4f4954434e5546204e4f4954414c55435249433b30314132,
0x3b3b3b3b3b593b3b3b3b3b4e4f3b303b6d533b4e4f495441524745544e4920455349574b434f4c4349544e413b31314132,
0x3b3b3b3b3b593b3b3b3b3b4e4f3b303b6d533b454c4f5020444e554f524120485441502052414c55474e41544345522048544957204e4f495441524745544e4920454e494c3b32314132,
0x3b3b3b3b3b593b3b3b3b3b4e4f3b303b6d533b454c4f5020444e554f524120485441502052414c5543524943494d45532048544957204e4f495441524745544e4920454e494c3b33314132,
0x3b3b3b3b3b593b3b3b3b3b4e4f3b303b6d533b454c4f502045485420474e4944554c434e4920544f4e204e4f495441524745544e4920454e494c3b34314132,
0x3b3b3b3b3b593b3b3b3b3b4e4f3b303b6d533b524f54415245504f20544e494f50204120444e554f5241204c41524745544e493b35314132,
0x3b3b3b3b3b593b3b3b3b3b4e4f3b303b6d533b524f54415245504f204c41524745544e49204e4f494e5245544155513b36314132,
0x3b3b3b3b3b593b3b3b3b3b4e4f3b303b6d533b4b4f4f48204854495720574f5252412053445241575446454c2048544957204c41524745544e493b37314132,
0x3b3b3b3b3b593b3b3b3b3b4e4f3b303b6d533b4e4749532053454d49542048544957204c41524745544e493b38314132,
0x3b3b3b3b3b593b3b3b3b3b4e4f3b303b6d533b4e4f49544345535245544e492048544957204c41524745544e493b39314132,
0x3b3b3b3b3b593b3b3b3b3b4e4f3b303b6d533b4e4f494e552048544957204c41524745544e493b41314132,
0x3b3b3b3b3b593b3b3b3b3b4e4f3b303b6d533b5241425245564f2048544957204c41524745544e493b42314132,
0x3b3b3b3b3b593b3b3b3b3b4e4f3b303b6d533b5241425245444e552048544957204c41524745544e493b43314132,
0x3b3b3b3b3b4e3b3b3b3b3b4e4f3b303b6d533b4e494f4a3b44314132,
0x3b3b3b3b3b593b3b3b3b3b4e4f3b303b6d533b524f54415245504f20454c474e41495254205446454c20454752414c3b45314132,
0x3b3b3b3b3b593b3b3b3b3b4e4f3b303b6d533b4e4f495449534f504d4f4320414d45484353204e4f495441544f4e205a3b46314132,
0x3b3b3b3b3b593b3b3b3b3b4e4f3b303b6d533b474e4950495020414d45484353204e4f495441544f4e205a3b30324132,
0x3b3b3b3b3b593b3b3b3b3b4e4f3b303b6d533b4e4f495443454a4f525020414d45484353204e4f495441544f4e205a3b31324132,
0x3b3b3b3b3b4e3b3b3b3b3b4e4f3b303b6d533b45564f424120454c43524943204c4c414d532048544957204e4749532053554c503b32324132,
0x3b3b3b3b3b4e3b3b3b3b3b4e4f3b303b6d533b45564f424120544e454343412058454c464d55435249432048544957204e4749532053554c503b33324132,
0x3b3b3b3b3b593b3b3b3b3b4e4f3b303b6d533b45564f42412045444c49542048544957204e4749532053554c503b34324132,
0x3b3b3b3b3b4e3b3b3b3b3b4e4f3b303b6d533b574f4c454220544f442048544957204e4749532053554c503b35324132,
0x3b3b3b3b3b593b3b3b3b3b4e4f3b303b6d533b574f4c45422045444c49542048544957204e4749532053554c503b36324132,
0x3b3b3b3b3b4e3b3b3b3b3b4e4f3b303b6d533b4f5754205450495243534255532048544957204e4749532053554c503b37324132,
0x3b3b3b3b3b4e3b3b3b3b3b4e4f3b303b6d533b454c474e41495254204b43414c422048544957204e4749532053554c503b38324132,
0x3b3b3b3b3b593b3b3b3b3b4e4f3b303b6d533b45564f424120414d4d4f432048544957204e4749532053554e494d3b39324132,
0x3b3b3b3b3b4e3b3b3b3b3b4e4f3b303b6d533b574f4c454220544f442048544957204e4749532053554e494d3b41324132,
0x3b3b3b3b3b593b3b3b3b3b4e4f3b303b6d533b53544f4420474e494c4c41462048544957204e4749532053554e494d3b42324132,
0x3b3b3b3b3b593b3b3b3b3b4e4f3b303b6d533b53544f4420474e495349522048544957204e4749532053554e494d3b43324132,
0x3b3b3b3b3b593b3b3b3b3b4e4f3b303b6d533b454c4352494320464c4148205446454c204e49204e4749532053554c503b44324132,
0x3b3b3b3b3b593b3b3b3b3b4e4f3b303b6d533b454c4352494320464c4148205448474952204e49204e4749532053554c503b45324132,
0x3b3b3b3b3b4e3b3b3b3b3b4e4f3b303b6d533b544355444f52502053534f524320524f20524f544345563b46324132,
0x3b3b3b3b3b4e3b3b3b3b3b4e4f3b303b6d533b45564f424120544f442048544957204e474953204e4f49544143494c5049544c554d3b30334132,
0x3b3b3b3b3b4e3b3b3b3b3b4e4f3b303b6d533b5241425245444e552048544957204e474953204e4f49544143494c5049544c554d3b31334132,
0x3b3b3b3b3b4e3b3b3b3b3b4e4f3b303b6d533b4445534f4c43204d4f54544f42204854495720544355444f525020544345524944494d45533b32334132,
0x3b3b3b3b3b4e3b3b3b3b3b4e4f3b303b6d533b544355444f5250204853414d533b33334132,
0x3b3b3b3b3b593b3b3b3b3b4e4f3b303b6d533b454c4352494320464c4148205446454c204e49204e474953204e4f49544143494c5049544c554d3b34334132,
0x3b3b3b3b3b593b3b3b3b3b4e4f3b303b6d533b454c4352494320464c4148205448474952204e49204e474953204e4f49544143494c5049544c554d3b35334132,
0x3b3b3b3b3b4e3b3b3b3b3b4e4f3b303b6d533b544e454343412058454c464d55435249432048544957204e474953204e4f49544143494c5049544c554d2044454c435249433b36334132,
0x3b3b3b3b3b4e3b3b3b3b3b4e4f3b303b6d533b454c4352494320454c42554f44204e49204e474953204e4f49544143494c5049544c554d3b37334132,
0x3b3b3b3b3b4e3b3b3b3b3b4e4f3b303b6d533b4e474953204e4f4953495649442044454c435249433b38334132,
0x3b3b3b3b3b4e3b3b3b3b3b4e4f3b303b6d533b454c474e41495254204e49204e4749532053554c503b39334132,
0x3b3b3b3b3b4e3b3b3b3b3b4e4f3b303b6d533b454c474e41495254204e49204e4749532053554e494d3b41334132,
0x3b3b3b3b3b4e3b3b3b3b3b4e4f3b303b6d533b454c474e41495254204e49204e474953204e4f49544143494c5049544c554d3b42334132,
0x3b3b3b3b3b593b3b3b3b3b4e4f3b303b6d533b544355444f525020524f495245544e493b43334132,
0x3b3b3b3b3b593b3b3b3b3b4e4f3b303b6d533b544355444f525020524f495245544e4920444e414854484749523b44334132,
0x3b3b3b3b3b593b3b3b3b3b4e4f3b303b6d533b4e4f495449534f504d4f43204c414e4f4954414c4552204e4f495441544f4e205a3b45334132,
0x3b3b3b3b3b4e3b3b3b3b3b4e4f3b303b6d533b544355444f52504f4320524f204e4f4954414d41474c414d413b46334132,
0x3b3b3b3b3b4e3b3b3b3b3b4e4f3b303b6d533b544f442048544957204e4f49544345535245544e493b30344132,
0x3b3b3b3b3b4e3b3b3b3b3b4e4f3b303b6d533b4e4749532053554e494d2048544957204e4f494e553b31344132,
0x3b3b3b3b3b4e3b3b3b3b3b4e4f3b303b6d533b5241425245564f2048544957204e4f494e553b32344132,
0x3b3b3b3b3b4e3b3b3b3b3b4e4f3b303b6d533b5241425245564f2048544957204e4f49544345535245544e493b33344132,
0x3b3b3b3b3b4e3b3b3b3b3b4e4f3b303b6d533b444e41204c414349474f4c2048544957204e4f49544345535245544e493b34344132,
0x3b3b3b3b3b4e3b3b3b3b3b4e4f3b303b6d533b524f204c414349474f4c2048544957204e4f494e553b35344132,
0x3b3b3b3b3b4e3b3b3b3b3b4e4f3b303b6d533b4e4f49544345535245544e492045564f4241204e4f494e553b36344132,
0x3b3b3b3b3b4e3b3b3b3b3b4e4f3b303b6d533b4e4f494e552045564f4241204e4f49544345535245544e493b37344132,
0x3b3b3b3b3b4e3b3b3b3b3b4e4f3b303b6d533b4e4f49544345535245544e492045564f4241205241422045564f4241204e4f494e553b38344132,
0x3b3b3b3b3b4e3b3b3b3b3b4e4f3b303b6d533b4e4f494e552045564f4241205241422045564f4241204e4f49544345535245544e493b39344132,
0x3b3b3b3b3b4e3b3b3b3b3b4e4f3b303b6d533b4e4f494e5520485449572044454e494f4a20444e4120454449534542204e4f494e553b41344132,
0x3b3b3b3b3b4e3b3b3b3b3b4e4f3b303b6d533b4e4f49544345535245544e4920485449572044454e494f4a20444e4120454449534542204e4f49544345535245544e493b42344132,
0x3b3b3b3b3b4e3b3b3b3b3b4e4f3b303b6d533b5346495245532048544957204e4f494e55204445534f4c433b43344132,
0x3b3b3b3b3b4e3b3b3b3b3b4e4f3b303b6d533b5346495245532048544957204e4f49544345535245544e49204445534f4c433b44344132,
0x3b3b3b3b3b4e3b3b3b3b3b4e4f3b303b6d533b4e4f49544345535245544e492045524155515320454c42554f443b45344132,
0x3b3b3b3b3b4e3b3b3b3b3b4e4f3b303b6d533b4e4f494e552045524155515320454c42554f443b46344132,
0x3b3b3b3b3b4e3b3b3b3b3b4e4f3b303b6d533b544355444f5250204853414d5320444e41205346495245532048544957204e4f494e55204445534f4c433b30354132,
0x3b3b3b3b3b4e3b3b3b3b3b4e4f3b303b6d533b45564f424120544f44204854495720444e41204c414349474f4c3b31354132,
0x3b3b3b3b3b4e3b3b3b3b3b4e4f3b303b6d533b45564f424120544f44204854495720524f204c414349474f4c3b32354132,
0x3b3b3b3b3b4e3b3b3b3b3b4e4f3b303b6d533b444e41204c414349474f4c20454c42554f443b33354132,
0x3b3b3b3b3b4e3b3b3b3b3b4e4f3b303b6d533b524f204c414349474f4c20454c42554f443b34354132,
0x3b3b3b3b3b4e3b3b3b3b3b4e4f3b303b6d533b444e41204c414349474f4c20474e49544345535245544e49204f57543b35354132,
0x3b3b3b3b3b4e3b3b3b3b3b4e4f3b303b6d533b524f204c414349474f4c20474e49544345535245544e49204f57543b36354132,
0x3b3b3b3b3b593b3b3b3b3b4e4f3b303b6d533b524f20454752414c20474e49504f4c533b37354132,
0x3b3b3b3b3b593b3b3b3b3b4e4f3b303b6d533b444e4120454752414c20474e49504f4c533b38354132,
0x3b3b3b3b3b4e3b3b3b3b3b4e4f3b303b6d533b444e41204c414349474f4c20474e495050414c5245564f20524f204c414349474f4c3b39354132,
0x3b3b3b3b3b4e3b3b3b3b3b4e4f3b303b6d533b4d45545320454c4444494d204854495720444e41204c414349474f4c3b41354132,
0x3b3b3b3b3b4e3b3b3b3b3b4e4f3b303b6d533b4d45545320454c4444494d204854495720524f204c414349474f4c3b42354132,
0x3b3b3b3b3b4e3b3b3b3b3b4e4f3b303b6d533b48534144204c41544e4f5a49524f48204854495720444e41204c414349474f4c3b43354132,
0x3b3b3b3b3b4e3b3b3b3b3b4e4f3b303b6d533b48534144204c41544e4f5a49524f48204854495720524f204c414349474f4c3b44354132,
0x3b3b3b3b3b4e3b3b3b3b3b4e4f3b303b6d533b5241425245564f20454c42554f44204854495720444e41204c414349474f4c3b45354132,
0x3b3b3b3b3b4e3b3b3b3b3b4e4f3b303b6d533b5241425245444e55204854495720444e41204c414349474f4c3b46354132,
0x3b3b3b3b3b4e3b3b3b3b3b4e4f3b303b6d533b5241425245444e5520454c42554f44204854495720444e41204c414349474f4c3b30364132,
0x3b3b3b3b3b4e3b3b3b3b3b4e4f3b303b6d533b5241425245444e55204854495720454556204c4c414d533b31364132,
0x3b3b3b3b3b4e3b3b3b3b3b4e4f3b303b6d533b5241425245564f20454c42554f44204854495720524f204c414349474f4c3b32364132,
0x3b3b3b3b3b4e3b3b3b3b3b4e4f3b303b6d533b5241425245444e5520454c42554f44204854495720524f204c414349474f4c3b33364132,
0x3b3b3b3b3b593b3b3b3b3b4e4f3b303b6d533b4e4f49544349525453455249544e41204e49414d4f44204e4f495441544f4e205a3b34364132]

/-- src/u5e/props/UnicodeData.txt lines 9729-9984. -/
def rawUcd38 : List Nat := [
0x3b3b3b3b3b593b3b3b3b3b4e4f3b303b6d533b4e4f49544349525453455249544e412045474e4152204e4f495441544f4e205a3b35364132,
0x3b3b3b3b3b4e3b3b3b3b3b4e4f3b303b6d533b574f4c454220544f442048544957204e47495320534c415551453b36364132,
0x3b3b3b3b3b4e3b3b3b3b3b4e4f3b303b6d533b45564f424120544f442048544957204c414349544e4544493b37364132,
0x3b3b3b3b3b4e3b3b3b3b3b4e4f3b303b6d533b454b4f525453204c4143495452455620454c42554f44204854495720524142204c41544e4f5a49524f4820454c504952543b38364132,
0x3b3b3b3b3b4e3b3b3b3b3b4e4f3b303b6d533b454b4f525453204c4143495452455620454c50495254204854495720524142204c41544e4f5a49524f4820454c504952543b39364132,
0x3b3b3b3b3b593b3b3b3b3b4e4f3b303b6d533b45564f424120544f44204854495720524f54415245504f2045444c49543b41364132,
0x3b3b3b3b3b593b3b3b3b3b4e4f3b303b6d533b53544f4420474e49534952204854495720524f54415245504f2045444c49543b42364132,
0x3b3b3b3b3b593b3b3b3b3b4e4f3b303b6d533b52414c494d49532053554e494d2052414c494d49533b43364132,
0x3b3b3b3b3b593b3b3b3b3b4e4f3b303b6d533b45564f424120544f44204854495720544e455552474e4f433b44364132,
0x3b3b3b3b3b4e3b3b3b3b3b4e4f3b303b6d533b4b53495245545341204854495720534c415551453b45364132,
0x3b3b3b3b3b593b3b3b3b3b4e4f3b303b6d533b544e454343412058454c464d55435249432048544957204f54204c415551452054534f4d4c413b46364132,
0x3b3b3b3b3b593b3b3b3b3b4e4f3b303b6d533b4f54204c4155514520524f204c4155514520594c4554414d49584f525050413b30374132,
0x3b3b3b3b3b4e3b3b3b3b3b4e4f3b303b6d533b4e4749532053554c502045564f4241204e47495320534c415551453b31374132,
0x3b3b3b3b3b4e3b3b3b3b3b4e4f3b303b6d533b4e47495320534c415551452045564f4241204e4749532053554c503b32374132,
0x3b3b3b3b3b593b3b3b3b3b4e4f3b303b6d533b524f54415245504f2045444c49542045564f4241204e47495320534c415551453b33374132,
0x3b3b3b3b3b593b3b3b3b4433303020413330302041333030203e7461706d6f633c3b4e4f3b303b6d533b4c41555145204e4f4c4f4320454c42554f443b34374132,
0x3b3b3b3b3b4e3b3b3b3b443330302044333030203e7461706d6f633c3b4e4f3b303b6d533b534e47495320534c415551452045564954554345534e4f43204f57543b35374132,
0x3b3b3b3b3b4e3b3b3b3b4433303020443330302044333030203e7461706d6f633c3b4e4f3b303b6d533b534e47495320534c415551452045564954554345534e4f432045455248543b36374132,
0x3b3b3b3b3b4e3b3b3b3b3b4e4f3b303b6d533b574f4c45422053544f44204f575420444e412045564f42412053544f44204f57542048544957204e47495320534c415551453b37374132,
0x3b3b3b3b3b4e3b3b3b3b3b4e4f3b303b6d533b45564f42412053544f442052554f46204854495720544e454c4156495551453b38374132,
0x3b3b3b3b3b593b3b3b3b3b4e4f3b303b6d533b454449534e4920454c435249432048544957204e4148542d5353454c3b39374132,
0x3b3b3b3b3b593b3b3b3b3b4e4f3b303b6d533b454449534e4920454c435249432048544957204e4148542d524554414552473b41374132,
0x3b3b3b3b3b593b3b3b3b3b4e4f3b303b6d533b45564f4241204b52414d204e4f4954534555512048544957204e4148542d5353454c3b42374132,
0x3b3b3b3b3b593b3b3b3b3b4e4f3b303b6d533b45564f4241204b52414d204e4f4954534555512048544957204e4148542d524554414552473b43374132,
0x3b3b3b3b3b593b3b3b3b3b4e4f3b303b6d533b4f54204c41555145204445544e414c5320524f204e4148542d5353454c3b44374132,
0x3b3b3b3b3b593b3b3b3b3b4e4f3b303b6d533b4f54204c41555145204445544e414c5320524f204e4148542d524554414552473b45374132,
0x3b3b3b3b3b593b3b3b3b3b4e4f3b303b6d533b454449534e4920544f442048544957204f54204c41555145204445544e414c5320524f204e4148542d5353454c3b46374132,
0x3b3b3b3b3b593b3b3b3b3b4e4f3b303b6d533b454449534e4920544f442048544957204f54204c41555145204445544e414c5320524f204e4148542d524554414552473b30384132,
0x3b3b3b3b3b593b3b3b3b3b4e4f3b303b6d533b45564f424120544f442048544957204f54204c41555145204445544e414c5320524f204e4148542d5353454c3b31384132,
0x3b3b3b3b3b593b3b3b3b3b4e4f3b303b6d533b45564f424120544f442048544957204f54204c41555145204445544e414c5320524f204e4148542d524554414552473b32384132,
0x3b3b3b3b3b593b3b3b3b3b4e4f3b303b6d533b54484749522045564f424120544f442048544957204f54204c41555145204445544e414c5320524f204e4148542d5353454c3b33384132,
0x3b3b3b3b3b593b3b3b3b3b4e4f3b303b6d533b5446454c2045564f424120544f442048544957204f54204c41555145204445544e414c5320524f204e4148542d524554414552473b34384132,
0x3b3b3b3b3b593b3b3b3b3b4e4f3b303b6d533b4554414d49584f5250504120524f204e4148542d5353454c3b35384132,
0x3b3b3b3b3b593b3b3b3b3b4e4f3b303b6d533b4554414d49584f5250504120524f204e4148542d524554414552473b36384132,
0x3b3b3b3b3b593b3b3b3b3b4e4f3b303b6d533b4f54204c4155514520544f4e20454e494c2d454c474e495320444e41204e4148542d5353454c3b37384132,
0x3b3b3b3b3b593b3b3b3b3b4e4f3b303b6d533b4f54204c4155514520544f4e20454e494c2d454c474e495320444e41204e4148542d524554414552473b38384132,
0x3b3b3b3b3b593b3b3b3b3b4e4f3b303b6d533b4554414d49584f5250504120544f4e20444e41204e4148542d5353454c3b39384132,
0x3b3b3b3b3b593b3b3b3b3b4e4f3b303b6d533b4554414d49584f5250504120544f4e20444e41204e4148542d524554414552473b41384132,
0x3b3b3b3b3b593b3b3b3b3b4e4f3b303b6d533b4e4148542d524554414552472045564f4241204c4155514520454e494c2d454c42554f442045564f4241204e4148542d5353454c3b42384132,
0x3b3b3b3b3b593b3b3b3b3b4e4f3b303b6d533b4e4148542d5353454c2045564f4241204c4155514520454e494c2d454c42554f442045564f4241204e4148542d524554414552473b43384132,
0x3b3b3b3b3b593b3b3b3b3b4e4f3b303b6d533b4c4155514520524f2052414c494d49532045564f4241204e4148542d5353454c3b44384132,
0x3b3b3b3b3b593b3b3b3b3b4e4f3b303b6d533b4c4155514520524f2052414c494d49532045564f4241204e4148542d524554414552473b45384132,
0x3b3b3b3b3b593b3b3b3b3b4e4f3b303b6d533b4e4148542d524554414552472045564f42412052414c494d49532045564f4241204e4148542d5353454c3b46384132,
0x3b3b3b3b3b593b3b3b3b3b4e4f3b303b6d533b4e4148542d5353454c2045564f42412052414c494d49532045564f4241204e4148542d524554414552473b30394132,
0x3b3b3b3b3b593b3b3b3b3b4e4f3b303b6d533b4c4155514520454e494c2d454c42554f442045564f4241204e4148542d524554414552472045564f4241204e4148542d5353454c3b31394132,
0x3b3b3b3b3b593b3b3b3b3b4e4f3b303b6d533b4c4155514520454e494c2d454c42554f442045564f4241204e4148542d5353454c2045564f4241204e4148542d524554414552473b32394132,
0x3b3b3b3b3b593b3b3b3b3b4e4f3b303b6d533b4c41555145204445544e414c532045564f4241204e4148542d524554414552472045564f4241204c41555145204445544e414c532045564f4241204e4148542d5353454c3b33394132,
0x3b3b3b3b3b593b3b3b3b3b4e4f3b303b6d533b4c41555145204445544e414c532045564f4241204e4148542d5353454c2045564f4241204c41555145204445544e414c532045564f4241204e4148542d524554414552473b34394132,
0x3b3b3b3b3b593b3b3b3b3b4e4f3b303b6d533b4e4148542d5353454c20524f204f54204c41555145204445544e414c533b35394132,
0x3b3b3b3b3b593b3b3b3b3b4e4f3b303b6d533b4e4148542d5245544145524720524f204f54204c41555145204445544e414c533b36394132,
0x3b3b3b3b3b593b3b3b3b3b4e4f3b303b6d533b454449534e4920544f442048544957204e4148542d5353454c20524f204f54204c41555145204445544e414c533b37394132,
0x3b3b3b3b3b593b3b3b3b3b4e4f3b303b6d533b454449534e4920544f442048544957204e4148542d5245544145524720524f204f54204c41555145204445544e414c533b38394132,
0x3b3b3b3b3b593b3b3b3b3b4e4f3b303b6d533b4e4148542d5353454c20524f204f54204c4155514520454e494c2d454c42554f443b39394132,
0x3b3b3b3b3b593b3b3b3b3b4e4f3b303b6d533b4e4148542d5245544145524720524f204f54204c4155514520454e494c2d454c42554f443b41394132,
0x3b3b3b3b3b593b3b3b3b3b4e4f3b303b6d533b4e4148542d5353454c20524f204f54204c41555145204445544e414c5320454e494c2d454c42554f443b42394132,
0x3b3b3b3b3b593b3b3b3b3b4e4f3b303b6d533b4e4148542d5245544145524720524f204f54204c41555145204445544e414c5320454e494c2d454c42554f443b43394132,
0x3b3b3b3b3b593b3b3b3b3b4e4f3b303b6d533b4e4148542d5353454c20524f2052414c494d49533b44394132,
0x3b3b3b3b3b593b3b3b3b3b4e4f3b303b6d533b4e4148542d5245544145524720524f2052414c494d49533b45394132,
0x3b3b3b3b3b593b3b3b3b3b4e4f3b303b6d533b4e47495320534c415551452045564f4241204e4148542d5353454c2045564f42412052414c494d49533b46394132,
0x3b3b3b3b3b593b3b3b3b3b4e4f3b303b6d533b4e47495320534c415551452045564f4241204e4148542d524554414552472045564f42412052414c494d49533b30414132,
0x3b3b3b3b3b593b3b3b3b3b4e4f3b303b6d533b4e4148542d5353454c2044455453454e20454c42554f443b31414132,
0x3b3b3b3b3b593b3b3b3b3b4e4f3b303b6d533b4e4148542d524554414552472044455453454e20454c42554f443b32414132,
0x3b3b3b3b3b593b3b3b3b3b4e4f3b303b6d533b5241425245444e552048544957204e4148542d5353454c2044455453454e20454c42554f443b33414132,
0x3b3b3b3b3b4e3b3b3b3b3b4e4f3b303b6d533b4e4148542d5353454c20474e495050414c5245564f204e4148542d524554414552473b34414132,
0x3b3b3b3b3b4e3b3b3b3b3b4e4f3b303b6d533b4e4148542d5353454c20454449534542204e4148542d524554414552473b35414132,
0x3b3b3b3b3b593b3b3b3b3b4e4f3b303b6d533b4556525543205942204445534f4c43204e4148542d5353454c3b36414132,
0x3b3b3b3b3b593b3b3b3b3b4e4f3b303b6d533b4556525543205942204445534f4c43204e4148542d524554414552473b37414132,
0x3b3b3b3b3b593b3b3b3b3b4e4f3b303b6d533b4c41555145204445544e414c532045564f4241204556525543205942204445534f4c43204e4148542d5353454c3b38414132,
0x3b3b3b3b3b593b3b3b3b3b4e4f3b303b6d533b4c41555145204445544e414c532045564f4241204556525543205942204445534f4c43204e4148542d524554414552473b39414132,
0x3b3b3b3b3b593b3b3b3b3b4e4f3b303b6d533b4e4148542052454c4c414d533b41414132,
0x3b3b3b3b3b593b3b3b3b3b4e4f3b303b6d533b4e4148542052454752414c3b42414132,
0x3b3b3b3b3b593b3b3b3b3b4e4f3b303b6d533b4f54204c4155514520524f204e4148542052454c4c414d533b43414132,
0x3b3b3b3b3b593b3b3b3b3b4e4f3b303b6d533b4f54204c4155514520524f204e4148542052454752414c3b44414132,
0x3b3b3b3b3b4e3b3b3b3b3b4e4f3b303b6d533b45564f42412059504d55422048544957204e47495320534c415551453b45414132,
0x3b3b3b3b3b593b3b3b3b3b4e4f3b303b6d533b4e47495320534c4155514520454e494c2d454c474e49532045564f42412053454445434552503b46414132,
0x3b3b3b3b3b593b3b3b3b3b4e4f3b303b6d533b4e47495320534c4155514520454e494c2d454c474e49532045564f42412053444545434355533b30424132,
0x3b3b3b3b3b593b3b3b3b3b4e4f3b303b6d533b4f54204c4155514520544f4e20454e494c2d454c474e49532045564f42412053454445434552503b31424132,
0x3b3b3b3b3b593b3b3b3b3b4e4f3b303b6d533b4f54204c4155514520544f4e20454e494c2d454c474e49532045564f42412053444545434355533b32424132,
0x3b3b3b3b3b593b3b3b3b3b4e4f3b303b6d533b4e47495320534c415551452045564f42412053454445434552503b33424132,
0x3b3b3b3b3b593b3b3b3b3b4e4f3b303b6d533b4e47495320534c415551452045564f42412053444545434355533b34424132,
0x3b3b3b3b3b593b3b3b3b3b4e4f3b303b6d533b4f54204c4155514520544f4e2045564f42412053454445434552503b35424132,
0x3b3b3b3b3b593b3b3b3b3b4e4f3b303b6d533b4f54204c4155514520544f4e2045564f42412053444545434355533b36424132,
0x3b3b3b3b3b593b3b3b3b3b4e4f3b303b6d533b4f54204c415551452054534f4d4c412045564f42412053454445434552503b37424132,
0x3b3b3b3b3b593b3b3b3b3b4e4f3b303b6d533b4f54204c415551452054534f4d4c412045564f42412053444545434355533b38424132,
0x3b3b3b3b3b593b3b3b3b3b4e4f3b303b6d533b4f54204c415551452054534f4d4c4120544f4e2045564f42412053454445434552503b39424132,
0x3b3b3b3b3b593b3b3b3b3b4e4f3b303b6d533b4f54204c415551452054534f4d4c4120544f4e2045564f42412053444545434355533b41424132,
0x3b3b3b3b3b593b3b3b3b3b4e4f3b303b6d533b534544454345525020454c42554f443b42424132,
0x3b3b3b3b3b593b3b3b3b3b4e4f3b303b6d533b534445454343555320454c42554f443b43424132,
0x3b3b3b3b3b593b3b3b3b3b4e4f3b303b6d533b544f442048544957205445534255533b44424132,
0x3b3b3b3b3b593b3b3b3b3b4e4f3b303b6d533b544f4420485449572054455352455055533b45424132,
0x3b3b3b3b3b593b3b3b3b3b4e4f3b303b6d533b574f4c4542204e4749532053554c502048544957205445534255533b46424132,
0x3b3b3b3b3b593b3b3b3b3b4e4f3b303b6d533b574f4c4542204e4749532053554c5020485449572054455352455055533b30434132,
0x3b3b3b3b3b593b3b3b3b3b4e4f3b303b6d533b574f4c4542204e474953204e4f49544143494c5049544c554d2048544957205445534255533b31434132,
0x3b3b3b3b3b593b3b3b3b3b4e4f3b303b6d533b574f4c4542204e474953204e4f49544143494c5049544c554d20485449572054455352455055533b32434132,
0x3b3b3b3b3b593b3b3b3b3b4e4f3b303b6d533b45564f424120544f442048544957204f54204c4155514520524f20464f205445534255533b33434132,
0x3b3b3b3b3b593b3b3b3b3b4e4f3b303b6d533b45564f424120544f442048544957204f54204c4155514520524f20464f2054455352455055533b34434132,
0x3b3b3b3b3b593b3b3b3b3b4e4f3b303b6d533b4e47495320534c415551452045564f424120464f205445534255533b35434132,
0x3b3b3b3b3b593b3b3b3b3b4e4f3b303b6d533b4e47495320534c415551452045564f424120464f2054455352455055533b36434132,
0x3b3b3b3b3b593b3b3b3b3b4e4f3b303b6d533b524f54415245504f2045444c49542045564f424120464f205445534255533b37434132,
0x3b3b3b3b3b593b3b3b3b3b4e4f3b303b6d533b524f54415245504f2045444c49542045564f424120464f2054455352455055533b38434132,
0x3b3b3b3b3b593b3b3b3b3b4e4f3b303b6d533b4f54204c415551452054534f4d4c412045564f424120464f205445534255533b39434132,
0x3b3b3b3b3b593b3b3b3b3b4e4f3b303b6d533b4f54204c415551452054534f4d4c412045564f424120464f2054455352455055533b41434132,
0x3b3b3b3b3b593b3b3b3b3b4e4f3b303b6d533b4f54204c4155514520544f4e2045564f424120464f205445534255533b42434132,
0x3b3b3b3b3b593b3b3b3b3b4e4f3b303b6d533b4f54204c4155514520544f4e2045564f424120464f2054455352455055533b43434132,
0x3b3b3b3b3b593b3b3b3b3b4e4f3b303b6d533b524f54415245504f20584f42204e45504f205446454c204552415551533b44434132,
0x3b3b3b3b3b593b3b3b3b3b4e4f3b303b6d533b524f54415245504f20584f42204e45504f205448474952204552415551533b45434132,
0x3b3b3b3b3b593b3b3b3b3b4e4f3b303b6d533b544553425553204445534f4c433b46434132,
0x3b3b3b3b3b593b3b3b3b3b4e4f3b303b6d533b5445535245505553204445534f4c433b30444132,
0x3b3b3b3b3b593b3b3b3b3b4e4f3b303b6d533b4f54204c4155514520524f20544553425553204445534f4c433b31444132,
0x3b3b3b3b3b593b3b3b3b3b4e4f3b303b6d533b4f54204c4155514520524f205445535245505553204445534f4c433b32444132,
0x3b3b3b3b3b593b3b3b3b3b4e4f3b303b6d533b54455352455055532045564f4241205445534255533b33444132,
0x3b3b3b3b3b593b3b3b3b3b4e4f3b303b6d533b5445534255532045564f42412054455352455055533b34444132,
0x3b3b3b3b3b593b3b3b3b3b4e4f3b303b6d533b5445534255532045564f4241205445534255533b35444132,
0x3b3b3b3b3b593b3b3b3b3b4e4f3b303b6d533b54455352455055532045564f42412054455352455055533b36444132,
0x3b3b3b3b3b4e3b3b3b3b3b4e4f3b303b6d533b544553425553204544495345422054455352455055533b37444132,
0x3b3b3b3b3b4e3b3b3b3b3b4e4f3b303b6d533b544553425553204854495720485341442059422044454e494f4a20444e41204544495345422054455352455055533b38444132,
0x3b3b3b3b3b4e3b3b3b3b3b4e4f3b303b6d533b53445241574e574f4420474e494e45504f20464f20544e454d454c453b39444132,
0x3b3b3b3b3b4e3b3b3b3b3b4e4f3b303b6d533b504f54204545542048544957204b524f4648435449503b41444132,
0x3b3b3b3b3b4e3b3b3b3b3b4e4f3b303b6d533b4e4f49544345535245544e49204c4153524556534e4152543b42444132,
0x3b3b3b3b3b593b3b3b3b3833333020444441323b4e4f3b303b6d533b474e494b524f463b43444132,
0x3b3b3b3b3b4e3b3b3b3b3b4e4f3b303b6d533b474e494b524f464e4f4e3b44444132,
0x3b3b3b3b3b593b3b3b3b3b4e4f3b303b6d533b4b434154205446454c2054524f48533b45444132,
0x3b3b3b3b3b4e3b3b3b3b3b4e4f3b303b6d533b4b434154204e574f442054524f48533b46444132,
0x3b3b3b3b3b4e3b3b3b3b3b4e4f3b303b6d533b4b4341542050552054524f48533b30454132,
0x3b3b3b3b3b4e3b3b3b3b3b4e4f3b303b6d533b5320485449572052414c554349444e45505245503b31454132,
0x3b3b3b3b3b593b3b3b3b3b4e4f3b303b6d533b454c4954534e52555420544847495220454c5049525420524142204c414349545245563b32454132,
0x3b3b3b3b3b593b3b3b3b3b4e4f3b303b6d533b454c4954534e525554205446454c20524142204c4143495452455620454c42554f443b33454132,
0x3b3b3b3b3b593b3b3b3b3b4e4f3b303b6d533b454c4954534e525554205446454c20454c42554f4420524142204c414349545245563b34454132,
0x3b3b3b3b3b593b3b3b3b3b4e4f3b303b6d533b454c4954534e525554205446454c20454c42554f4420524142204c4143495452455620454c42554f443b35454132,
0x3b3b3b3b3b593b3b3b3b3b4e4f3b303b6d533b4c4143495452455620454c42554f4420464f205245424d454d205446454c204d4f5246204853414420474e4f4c3b36454132,
0x3b3b3b3b3b4e3b3b3b3b3b4e4f3b303b6d533b5241425245564f2048544957204b434154204e574f442054524f48533b37454132,
0x3b3b3b3b3b4e3b3b3b3b3b4e4f3b303b6d533b5241425245444e552048544957204b4341542050552054524f48533b38454132,
0x3b3b3b3b3b4e3b3b3b3b3b4e4f3b303b6d533b4b434154204e574f442054524f48532045564f4241204b4341542050552054524f48533b39454132,
0x3b3b3b3b3b4e3b3b3b3b3b4e4f3b303b6d533b4b434154204e574f4420454c42554f443b41454132,
0x3b3b3b3b3b4e3b3b3b3b3b4e4f3b303b6d533b4b43415420505520454c42554f443b42454132,
0x3b3b3b3b3b593b3b3b3b3b4e4f3b303b6d533b4e47495320544f4e20454b4f52545320454c42554f443b43454132,
0x3b3b3b3b3b593b3b3b3b3b4e4f3b303b6d533b4e47495320544f4e20454b4f52545320454c42554f442044455352455645523b44454132,
0x3b3b3b3b3b593b3b3b3b3b4e4f3b303b6d533b4853414c53204e4f49544147454e20444553524556455220485449572045444956494420544f4e2053454f443b45454132,
0x3b3b3b3b3b4e3b3b3b3b3b4e4f3b303b6d533b45564f424120454c43524943204854495720454e494c204c414349545245563b46454132,
0x3b3b3b3b3b4e3b3b3b3b3b4e4f3b303b6d533b574f4c454220454c43524943204854495720454e494c204c414349545245563b30464132,
0x3b3b3b3b3b4e3b3b3b3b3b4e4f3b303b6d533b574f4c454220454c435249432048544957204b434154204e574f443b31464132,
0x3b3b3b3b3b4e3b3b3b3b3b4e4f3b303b6d533b454b4f525453204c41544e4f5a49524f482048544957204c454c4c415241503b32464132,
0x3b3b3b3b3b593b3b3b3b3b4e4f3b303b6d533b524f54415245504f2045444c49542048544957204c454c4c415241503b33464132,
0x3b3b3b3b3b4e3b3b3b3b3b4e4f3b303b6d533b4e4f4954414c4552205952414e494220524142204c4143495452455620454c504952543b34464132,
0x3b3b3b3b3b4e3b3b3b3b3b4e4f3b303b6d533b454b4f525453204c41544e4f5a49524f48204854495720524142204c4143495452455620454c504952543b35464132,
0x3b3b3b3b3b4e3b3b3b3b3b4e4f3b303b6d533b524f54415245504f204e4f4c4f4320454c504952543b36464132,
0x3b3b3b3b3b593b3b3b3b3b4e4f3b303b6d533b4e4148542d5353454c2044455453454e20454c504952543b37464132,
0x3b3b3b3b3b593b3b3b3b3b4e4f3b303b6d533b4e4148542d524554414552472044455453454e20454c504952543b38464132,
0x3b3b3b3b3b593b3b3b3b3b4e4f3b303b6d533b4f54204c4155514520524f204e4148542d5353454c204445544e414c5320454e494c2d454c42554f443b39464132,
0x3b3b3b3b3b593b3b3b3b3b4e4f3b303b6d533b4f54204c4155514520524f204e4148542d52455441455247204445544e414c5320454e494c2d454c42554f443b41464132,
0x3b3b3b3b3b593b3b3b3b3b4e4f3b303b6d533b4e4f4954414c4552205952414e494220535544494c4f5320454c504952543b42464132,
0x3b3b3b3b3b4e3b3b3b3b3b4e4f3b303b6d533b524f54415245504f20524142204c4143495452455620454c5049525420454752414c3b43464132,
0x3b3b3b3b3b593b3b3b3b3b4e4f3b303b6d533b524f54415245504f20535544494c4f5320454c42554f443b44464132,
0x3b3b3b3b3b4e3b3b3b3b3b4e4f3b303b6d533b524142204c414349545245562045544948573b45464132,
0x3b3b3b3b3b4e3b3b3b3b3b4e4f3b303b6d533b524142204c41434954524556204554494857205952412d4e3b46464132,
0x3b3b3b3b3b4e3b3b3b3b3b4e4f3b303b6f533b574f5252412045544948572054534145204854524f4e3b30304232,
0x3b3b3b3b3b4e3b3b3b3b3b4e4f3b303b6f533b574f5252412045544948572054534557204854524f4e3b31304232,
0x3b3b3b3b3b4e3b3b3b3b3b4e4f3b303b6f533b574f5252412045544948572054534145204854554f533b32304232,
0x3b3b3b3b3b4e3b3b3b3b3b4e4f3b303b6f533b574f5252412045544948572054534557204854554f533b33304232,
0x3b3b3b3b3b4e3b3b3b3b3b4e4f3b303b6f533b574f525241204554494857205448474952205446454c3b34304232,
0x3b3b3b3b3b4e3b3b3b3b3b4e4f3b303b6f533b574f525241204b43414c422053445241575446454c3b35304232,
0x3b3b3b3b3b4e3b3b3b3b3b4e4f3b303b6f533b574f525241204b43414c4220534452415750553b36304232,
0x3b3b3b3b3b4e3b3b3b3b3b4e4f3b303b6f533b574f525241204b43414c422053445241574e574f443b37304232,
0x3b3b3b3b3b4e3b3b3b3b3b4e4f3b303b6f533b574f525241204b43414c422054534145204854524f4e3b38304232,
0x3b3b3b3b3b4e3b3b3b3b3b4e4f3b303b6f533b574f525241204b43414c422054534557204854524f4e3b39304232,
0x3b3b3b3b3b4e3b3b3b3b3b4e4f3b303b6f533b574f525241204b43414c422054534145204854554f533b41304232,
0x3b3b3b3b3b4e3b3b3b3b3b4e4f3b303b6f533b574f525241204b43414c422054534557204854554f533b42304232,
0x3b3b3b3b3b4e3b3b3b3b3b4e4f3b303b6f533b574f525241204b43414c42205448474952205446454c3b43304232,
0x3b3b3b3b3b4e3b3b3b3b3b4e4f3b303b6f533b574f525241204b43414c42204e574f442050553b44304232,
0x3b3b3b3b3b4e3b3b3b3b3b4e4f3b303b6f533b53445241574e574f4420504954204854495720574f52524120534452415754484749523b45304232,
0x3b3b3b3b3b4e3b3b3b3b3b4e4f3b303b6f533b5344524157505520504954204854495720574f52524120534452415754484749523b46304232,
0x3b3b3b3b3b4e3b3b3b3b3b4e4f3b303b6f533b53445241574e574f4420504954204854495720574f5252412053445241575446454c3b30314232,
0x3b3b3b3b3b4e3b3b3b3b3b4e4f3b303b6f533b5344524157505520504954204854495720574f5252412053445241575446454c3b31314232,
0x3b3b3b3b3b4e3b3b3b3b3b4e4f3b303b6f533b4b43414c4220464c414820504f542048544957204552415551533b32314232,
0x3b3b3b3b3b4e3b3b3b3b3b4e4f3b303b6f533b4b43414c4220464c4148204d4f54544f422048544957204552415551533b33314232,
0x3b3b3b3b3b4e3b3b3b3b3b4e4f3b303b6f533b4b43414c4220464c4148204c414e4f474149442054484749522052455050552048544957204552415551533b34314232,
0x3b3b3b3b3b4e3b3b3b3b3b4e4f3b303b6f533b4b43414c4220464c4148204c414e4f47414944205446454c205245574f4c2048544957204552415551533b35314232,
0x3b3b3b3b3b4e3b3b3b3b3b4e4f3b303b6f533b4b43414c4220464c4148205446454c204854495720444e4f4d4149443b36314232,
0x3b3b3b3b3b4e3b3b3b3b3b4e4f3b303b6f533b4b43414c4220464c4148205448474952204854495720444e4f4d4149443b37314232,
0x3b3b3b3b3b4e3b3b3b3b3b4e4f3b303b6f533b4b43414c4220464c414820504f54204854495720444e4f4d4149443b38314232,
0x3b3b3b3b3b4e3b3b3b3b3b4e4f3b303b6f533b4b43414c4220464c4148204d4f54544f42204854495720444e4f4d4149443b39314232,
0x3b3b3b3b3b4e3b3b3b3b3b4e4f3b303b6f533b45524155515320444554544f443b41314232,
0x3b3b3b3b3b4e3b3b3b3b3b4e4f3b303b6f533b45524155515320454752414c204b43414c423b42314232,
0x3b3b3b3b3b4e3b3b3b3b3b4e4f3b303b6f533b45524155515320454752414c2045544948573b43314232,
0x3b3b3b3b3b4e3b3b3b3b3b4e4f3b303b6f533b455241555153204c4c414d532059524556204b43414c423b44314232,
0x3b3b3b3b3b4e3b3b3b3b3b4e4f3b303b6f533b455241555153204c4c414d5320595245562045544948573b45314232,
0x3b3b3b3b3b4e3b3b3b3b3b4e4f3b303b6f533b4e4f4741544e4550204b43414c423b46314232,
0x3b3b3b3b3b4e3b3b3b3b3b4e4f3b303b6f533b4e4f4741544e45502045544948573b30324232,
0x3b3b3b3b3b4e3b3b3b3b3b4e4f3b303b6f533b4e4f47415845482045544948573b31324232,
0x3b3b3b3b3b4e3b3b3b3b3b4e4f3b303b6f533b4e4f4741584548204b43414c423b32324232,
0x3b3b3b3b3b4e3b3b3b3b3b4e4f3b303b6f533b4e4f4741584548204b43414c42204c41544e4f5a49524f483b33324232,
0x3b3b3b3b3b4e3b3b3b3b3b4e4f3b303b6f533b454c4352494320454752414c204b43414c423b34324232,
0x3b3b3b3b3b4e3b3b3b3b3b4e4f3b303b6f533b444e4f4d414944204d554944454d204b43414c423b35324232,
0x3b3b3b3b3b4e3b3b3b3b3b4e4f3b303b6f533b444e4f4d414944204d554944454d2045544948573b36324232,
0x3b3b3b3b3b4e3b3b3b3b3b4e4f3b303b6f533b45474e455a4f4c204d554944454d204b43414c423b37324232,
0x3b3b3b3b3b4e3b3b3b3b3b4e4f3b303b6f533b45474e455a4f4c204d554944454d2045544948573b38324232,
0x3b3b3b3b3b4e3b3b3b3b3b4e4f3b303b6f533b444e4f4d414944204c4c414d53204b43414c423b39324232,
0x3b3b3b3b3b4e3b3b3b3b3b4e4f3b303b6f533b45474e455a4f4c204c4c414d53204b43414c423b41324232,
0x3b3b3b3b3b4e3b3b3b3b3b4e4f3b303b6f533b45474e455a4f4c204c4c414d532045544948573b42324232,
0x3b3b3b3b3b4e3b3b3b3b3b4e4f3b303b6f533b455350494c4c45204c41544e4f5a49524f48204b43414c423b43324232,
0x3b3b3b3b3b4e3b3b3b3b3b4e4f3b303b6f533b455350494c4c45204c41544e4f5a49524f482045544948573b44324232,
0x3b3b3b3b3b4e3b3b3b3b3b4e4f3b303b6f533b455350494c4c45204c41434954524556204b43414c423b45324232,
0x3b3b3b3b3b4e3b3b3b3b3b4e4f3b303b6f533b455350494c4c45204c414349545245562045544948573b46324232,
0x3b3b3b3b3b4e3b3b3b3b3b4e4f3b303b6d533b454c43524943204c4c414d53204854495720574f525241205446454c3b30334232,
0x3b3b3b3b3b4e3b3b3b3b3b4e4f3b303b6d533b53574f5252412053445241575446454c2045455248543b31334232,
0x3b3b3b3b3b4e3b3b3b3b3b4e4f3b303b6d533b53554c502044454c43524943204854495720574f525241205446454c3b32334232,
0x3b3b3b3b3b4e3b3b3b3b3b4e4f3b303b6d533b574f52524120454c4747495551532053445241575446454c20474e4f4c3b33334232,
0x3b3b3b3b3b4e3b3b3b3b3b4e4f3b303b6d533b454b4f525453204c41434954524556204854495720574f525241204445444145482d4f57542053445241575446454c3b34334232,
0x3b3b3b3b3b4e3b3b3b3b3b4e4f3b303b6d533b454b4f525453204c4143495452455620454c42554f44204854495720574f525241204445444145482d4f57542053445241575446454c3b35334232,
0x3b3b3b3b3b4e3b3b3b3b3b4e4f3b303b6d533b524142204d4f524620574f525241204445444145482d4f57542053445241575446454c3b36334232,
0x3b3b3b3b3b4e3b3b3b3b3b4e4f3b303b6d533b574f525241204853414420454c50495254204445444145482d4f57542053445241575446454c3b37334232,
0x3b3b3b3b3b4e3b3b3b3b3b4e4f3b303b6d533b4d45545320444554544f44204854495720574f5252412053445241575446454c3b38334232,
0x3b3b3b3b3b4e3b3b3b3b3b4e4f3b303b6d533b454b4f525453204c414349545245562048544957204c494154204854495720574f5252412053445241575446454c3b39334232,
0x3b3b3b3b3b4e3b3b3b3b3b4e4f3b303b6d533b454b4f525453204c4143495452455620454c42554f442048544957204c494154204854495720574f5252412053445241575446454c3b41334232,
0x3b3b3b3b3b4e3b3b3b3b3b4e4f3b303b6d533b4c494154204854495720574f525241204445444145482d4f57542053445241575446454c3b42334232,
0x3b3b3b3b3b4e3b3b3b3b3b4e4f3b303b6d533b454b4f525453204c414349545245562048544957204c494154204854495720574f525241204445444145482d4f57542053445241575446454c3b43334232,
0x3b3b3b3b3b4e3b3b3b3b3b4e4f3b303b6d533b454b4f525453204c4143495452455620454c42554f442048544957204c494154204854495720574f525241204445444145482d4f57542053445241575446454c3b44334232,
0x3b3b3b3b3b4e3b3b3b3b3b4e4f3b303b6d533b58204847554f52485420574f5252412053445241575446454c3b45334232,
0x3b3b3b3b3b4e3b3b3b3b3b4e4f3b303b6d533b5446454c20594c54434552494420474e49544e494f5020574f52524120455641573b46334232,
0x3b3b3b3b3b4e3b3b3b3b3b4e4f3b303b6d533b574f5252412053445241575446454c2045564f4241204e47495320534c415551453b30344232,
0x3b3b3b3b3b4e3b3b3b3b3b4e4f3b303b6d533b574f5252412053445241575446454c2045564f424120524f54415245504f2045444c495420455352455645523b31344232,
0x3b3b3b3b3b4e3b3b3b3b3b4e4f3b303b6d533b4f54204c415551452054534f4d4c4120455352455645522045564f424120574f5252412053445241575446454c3b32344232,
0x3b3b3b3b3b4e3b3b3b3b3b4e4f3b303b6d533b4e4148542d52455441455247204847554f52485420574f52524120534452415754484749523b33344232,
0x3b3b3b3b3b4e3b3b3b3b3b4e4f3b303b6d533b5445535245505553204847554f52485420574f52524120534452415754484749523b34344232,
0x3b3b3b3b3b4e3b3b3b3b3b4e4f3b303b6f533b574f52524120454c505552444155512053445241575446454c3b35344232,
0x3b3b3b3b3b4e3b3b3b3b3b4e4f3b303b6f533b574f52524120454c5055524441555120534452415754484749523b36344232,
0x3b3b3b3b3b4e3b3b3b3b3b4e4f3b303b6d533b574f52524120534452415754484749522045564f424120524f54415245504f2045444c495420455352455645523b37344232,
0x3b3b3b3b3b4e3b3b3b3b3b4e4f3b303b6d533b4f54204c415551452054534f4d4c4120455352455645522045564f424120574f52524120534452415754484749523b38344232,
0x3b3b3b3b3b4e3b3b3b3b3b4e4f3b303b6d533b574f5252412053445241575446454c2045564f424120524f54415245504f2045444c49543b39344232,
0x3b3b3b3b3b4e3b3b3b3b3b4e4f3b303b6d533b4f54204c415551452054534f4d4c412045564f424120574f5252412053445241575446454c3b41344232,
0x3b3b3b3b3b4e3b3b3b3b3b4e4f3b303b6d533b524f54415245504f2045444c495420455352455645522045564f424120574f5252412053445241575446454c3b42344232,
0x3b3b3b3b3b4e3b3b3b3b3b4e4f3b303b6d533b524f54415245504f2045444c495420455352455645522045564f424120574f52524120534452415754484749523b43344232,
0x3b3b3b3b3b4e3b3b3b3b3b4e4f3b303b6f533b574f5252412047415a47495a204445444145482d454c474e414952542053445241574e574f443b44344232,
0x3b3b3b3b3b4e3b3b3b3b3b4e4f3b303b6f533b574f525241204854524f4e204445544e414c532054524f48533b45344232,
0x3b3b3b3b3b4e3b3b3b3b3b4e4f3b303b6f533b574f525241204854554f53204445544e414c534b4341422054524f48533b46344232,
0x3b3b3b3b3b4e3b3b3b3b3b4e4f3b303b6f533b52415453204d554944454d2045544948573b30354232,
0x3b3b3b3b3b4e3b3b3b3b3b4e4f3b303b6f533b52415453204c4c414d53204b43414c423b31354232,
0x3b3b3b3b3b4e3b3b3b3b3b4e4f3b303b6f533b52415453204c4c414d532045544948573b32354232,
0x3b3b3b3b3b4e3b3b3b3b3b4e4f3b303b6f533b4e4f4741544e455020474e49544e494f502d5448474952204b43414c423b33354232,
0x3b3b3b3b3b4e3b3b3b3b3b4e4f3b303b6f533b4e4f4741544e455020474e49544e494f502d54484749522045544948573b34354232,
0x3b3b3b3b3b4e3b3b3b3b3b4e4f3b303b6f533b454c4352494320454752414c2059564145483b35354232,
0x3b3b3b3b3b4e3b3b3b3b3b4e4f3b303b6f533b454449534e49204c41564f2048544957204c41564f2059564145483b36354232,
0x3b3b3b3b3b4e3b3b3b3b3b4e4f3b303b6f533b454449534e4920454c43524943204854495720454c435249432059564145483b37354232,
0x3b3b3b3b3b4e3b3b3b3b3b4e4f3b303b6f533b454c435249432059564145483b38354232,
0x3b3b3b3b3b4e3b3b3b3b3b4e4f3b303b6f533b455249544c41532044454c435249432059564145483b39354232,
0x3b3b3b3b3b4e3b3b3b3b3b4e4f3b303b6f533b444145482044454b4f4f48204854495720574f525241204854524f4e204445544e414c533b41354232,
0x3b3b3b3b3b4e3b3b3b3b3b4e4f3b303b6f533b4c4941542044454b4f4f48204854495720574f525241204854554f53204445544e414c534b4341423b42354232,
0x3b3b3b3b3b4e3b3b3b3b3b4e4f3b303b6f533b4c494154204c41544e4f5a49524f48204854495720574f525241204854524f4e204445544e414c533b43354232,
0x3b3b3b3b3b4e3b3b3b3b3b4e4f3b303b6f533b4c494154204c41544e4f5a49524f48204854495720574f525241204854554f53204445544e414c534b4341423b44354232,
0x3b3b3b3b3b4e3b3b3b3b3b4e4f3b303b6f533b54534145204854524f4e204e4548542053445241574e574f4420474e49544e494f5020574f52524120544e45423b45354232,
0x3b3b3b3b3b4e3b3b3b3b3b4e4f3b303b6f533b54534145204854524f4e204e4548542053445241574e574f4420474e49544e494f5020574f52524120544e45422054524f48533b46354232,
0x3b3b3b3b3b4e3b3b3b3b3b4e4f3b303b6f533b574f525241204445444145482d454c474e414952542053445241575446454c3b30364232,
0x3b3b3b3b3b4e3b3b3b3b3b4e4f3b303b6f533b574f525241204445444145482d454c474e4149525420534452415750553b31364232,
0x3b3b3b3b3b4e3b3b3b3b3b4e4f3b303b6f533b574f525241204445444145482d454c474e4149525420534452415754484749523b32364232,
0x3b3b3b3b3b4e3b3b3b3b3b4e4f3b303b6f533b574f525241204445444145482d454c474e414952542053445241574e574f443b33364232,
0x3b3b3b3b3b4e3b3b3b3b3b4e4f3b303b6f533b574f525241204445444145482d454c474e41495254205448474952205446454c3b34364232]

/-- src/u5e/props/UnicodeData.txt lines 9985-10240. -/
def rawUcd39 : List Nat := [
0x3b3b3b3b3b4e3b3b3b3b3b4e4f3b303b6f533b574f525241204445444145482d454c474e41495254204e574f442050553b35364232,
0x3b3b3b3b3b4e3b3b3b3b3b4e4f3b303b6f533b574f525241204445444145482d454c474e414952542054534557204854524f4e3b36364232,
0x3b3b3b3b3b4e3b3b3b3b3b4e4f3b303b6f533b574f525241204445444145482d454c474e414952542054534145204854524f4e3b37364232,
0x3b3b3b3b3b4e3b3b3b3b3b4e4f3b303b6f533b574f525241204445444145482d454c474e414952542054534145204854554f533b38364232,
0x3b3b3b3b3b4e3b3b3b3b3b4e4f3b303b6f533b574f525241204445444145482d454c474e414952542054534557204854554f533b39364232,
0x3b3b3b3b3b4e3b3b3b3b3b4e4f3b303b6f533b574f52524120444548534144204445444145482d454c474e414952542053445241575446454c3b41364232,
0x3b3b3b3b3b4e3b3b3b3b3b4e4f3b303b6f533b574f52524120444548534144204445444145482d454c474e4149525420534452415750553b42364232,
0x3b3b3b3b3b4e3b3b3b3b3b4e4f3b303b6f533b574f52524120444548534144204445444145482d454c474e4149525420534452415754484749523b43364232,
0x3b3b3b3b3b4e3b3b3b3b3b4e4f3b303b6f533b574f52524120444548534144204445444145482d454c474e414952542053445241574e574f443b44364232,
0x3b3b3b3b3b4e3b3b3b3b3b4e4f3b303b6f533b574f52524120454c43524943204e45504f204445444145482d454c474e4149525420455349574b434f4c433b45364232,
0x3b3b3b3b3b4e3b3b3b3b3b4e4f3b303b6f533b574f52524120454c43524943204e45504f204445444145482d454c474e4149525420455349574b434f4c4349544e413b46364232,
0x3b3b3b3b3b4e3b3b3b3b3b4e4f3b303b6f533b524142204f5420574f525241204445444145482d454c474e414952542053445241575446454c3b30374232,
0x3b3b3b3b3b4e3b3b3b3b3b4e4f3b303b6f533b524142204f5420574f525241204445444145482d454c474e4149525420534452415750553b31374232,
0x3b3b3b3b3b4e3b3b3b3b3b4e4f3b303b6f533b524142204f5420574f525241204445444145482d454c474e4149525420534452415754484749523b32374232,
0x3b3b3b3b3b4e3b3b3b3b3b4e4f3b303b6f533b524142204f5420574f525241204445444145482d454c474e414952542053445241574e574f443b33374232,
0x3b3b3b3b3b4e3b3b3b3b3b4e4f3b303b6f533b524142204f5420574f525241204445444145482d454c474e414952542054534557204854524f4e3b36374232,
0x3b3b3b3b3b4e3b3b3b3b3b4e4f3b303b6f533b524142204f5420574f525241204445444145482d454c474e414952542054534145204854524f4e3b37374232,
0x3b3b3b3b3b4e3b3b3b3b3b4e4f3b303b6f533b524142204f5420574f525241204445444145482d454c474e414952542054534145204854554f533b38374232,
0x3b3b3b3b3b4e3b3b3b3b3b4e4f3b303b6f533b524142204f5420574f525241204445444145482d454c474e414952542054534557204854554f533b39374232,
0x3b3b3b3b3b4e3b3b3b3b3b4e4f3b303b6f533b454b4f525453204c41544e4f5a49524f4820454c42554f44204854495720574f525241204445444145482d454c474e414952542053445241575446454c3b41374232,
0x3b3b3b3b3b4e3b3b3b3b3b4e4f3b303b6f533b454b4f525453204c41544e4f5a49524f4820454c42554f44204854495720574f525241204445444145482d454c474e4149525420534452415750553b42374232,
0x3b3b3b3b3b4e3b3b3b3b3b4e4f3b303b6f533b454b4f525453204c41544e4f5a49524f4820454c42554f44204854495720574f525241204445444145482d454c474e4149525420534452415754484749523b43374232,
0x3b3b3b3b3b4e3b3b3b3b3b4e4f3b303b6f533b454b4f525453204c41544e4f5a49524f4820454c42554f44204854495720574f525241204445444145482d454c474e414952542053445241574e574f443b44374232,
0x3b3b3b3b3b4e3b3b3b3b3b4e4f3b303b6f533b59454b20424154204c41544e4f5a49524f483b45374232,
0x3b3b3b3b3b4e3b3b3b3b3b4e4f3b303b6f533b59454b20424154204c414349545245563b46374232,
0x3b3b3b3b3b4e3b3b3b3b3b4e4f3b303b6f533b574f525241204445444145482d454c474e414952542053445241575448474952205245564f20574f525241204445444145482d454c474e414952542053445241575446454c3b30384232,
0x3b3b3b3b3b4e3b3b3b3b3b4e4f3b303b6f533b574f525241204445444145482d454c474e414952542053445241574e574f4420464f2053445241575446454c20574f525241204445444145482d454c474e4149525420534452415750553b31384232,
0x3b3b3b3b3b4e3b3b3b3b3b4e4f3b303b6f533b574f525241204445444145482d454c474e414952542053445241575446454c205245564f20574f525241204445444145482d454c474e4149525420534452415754484749523b32384232,
0x3b3b3b3b3b4e3b3b3b3b3b4e4f3b303b6f533b574f525241204445444145482d454c474e41495254205344524157505520464f2053445241575446454c20574f525241204445444145482d454c474e414952542053445241574e574f443b33384232,
0x3b3b3b3b3b4e3b3b3b3b3b4e4f3b303b6f533b53574f52524120444552494150204445444145482d454c474e414952542053445241575446454c3b34384232,
0x3b3b3b3b3b4e3b3b3b3b3b4e4f3b303b6f533b53574f52524120444552494150204445444145482d454c474e4149525420534452415750553b35384232,
0x3b3b3b3b3b4e3b3b3b3b3b4e4f3b303b6f533b53574f52524120444552494150204445444145482d454c474e4149525420534452415754484749523b36384232,
0x3b3b3b3b3b4e3b3b3b3b3b4e4f3b303b6f533b53574f52524120444552494150204445444145482d454c474e414952542053445241574e574f443b37384232,
0x3b3b3b3b3b4e3b3b3b3b3b4e4f3b303b6f533b574f5252412045544948572044454c43524943204b43414c422053445241575446454c3b38384232,
0x3b3b3b3b3b4e3b3b3b3b3b4e4f3b303b6f533b574f5252412045544948572044454c43524943204b43414c4220534452415750553b39384232,
0x3b3b3b3b3b4e3b3b3b3b3b4e4f3b303b6f533b574f5252412045544948572044454c43524943204b43414c4220534452415754484749523b41384232,
0x3b3b3b3b3b4e3b3b3b3b3b4e4f3b303b6f533b574f5252412045544948572044454c43524943204b43414c422053445241574e574f443b42384232,
0x3b3b3b3b3b4e3b3b3b3b3b4e4f3b303b6f533b574f525241204445504148532d55205448474952204445444145482d454c474e4149525420455349574b434f4c4349544e413b43384232,
0x3b3b3b3b3b4e3b3b3b3b3b4e4f3b303b6f533b574f525241204445504148532d55204d4f54544f42204445444145482d454c474e4149525420455349574b434f4c4349544e413b44384232,
0x3b3b3b3b3b4e3b3b3b3b3b4e4f3b303b6f533b574f525241204445504148532d55205446454c204445444145482d454c474e4149525420455349574b434f4c4349544e413b45384232,
0x3b3b3b3b3b4e3b3b3b3b3b4e4f3b303b6f533b574f525241204445504148532d5520504f54204445444145482d454c474e4149525420455349574b434f4c4349544e413b46384232,
0x3b3b3b3b3b4e3b3b3b3b3b4e4f3b303b6f533b5446454c204e52555445523b30394232,
0x3b3b3b3b3b4e3b3b3b3b3b4e4f3b303b6f533b5448474952204e52555445523b31394232,
0x3b3b3b3b3b4e3b3b3b3b3b4e4f3b303b6f533b5446454c20454e494c57454e3b32394232,
0x3b3b3b3b3b4e3b3b3b3b3b4e4f3b303b6f533b544847495220454e494c57454e3b33394232,
0x3b3b3b3b3b4e3b3b3b3b3b4e4f3b303b6f533b455349574b434f4c4349544e4120474e494c435249432053574f5252412052454e524f432052554f463b34394232,
0x3b3b3b3b3b4e3b3b3b3b3b4e4f3b303b6f533b574f525241204b43414c4220534452415754484749523b35394232,
0x3b3b3b3b3b4e3b3b3b3b3b4e4f3b303b6f533b44414548574f525241204c41524554414c495551452053445241575446454c204445544847494c2d504f5420442d45455248543b38394232,
0x3b3b3b3b3b4e3b3b3b3b3b4e4f3b303b6f533b44414548574f525241204c41524554414c495551452053445241575055204445544847494c2d544847495220442d45455248543b39394232,
0x3b3b3b3b3b4e3b3b3b3b3b4e4f3b303b6f533b44414548574f525241204c41524554414c495551452053445241575448474952204445544847494c2d504f5420442d45455248543b41394232,
0x3b3b3b3b3b4e3b3b3b3b3b4e4f3b303b6f533b44414548574f525241204c41524554414c495551452053445241574e574f44204445544847494c2d5446454c20442d45455248543b42394232,
0x3b3b3b3b3b4e3b3b3b3b3b4e4f3b303b6f533b44414548574f525241204c41524554414c495551452053445241575446454c204b43414c423b43394232,
0x3b3b3b3b3b4e3b3b3b3b3b4e4f3b303b6f533b44414548574f525241204c41524554414c495551452053445241575055204b43414c423b44394232,
0x3b3b3b3b3b4e3b3b3b3b3b4e4f3b303b6f533b44414548574f525241204c41524554414c495551452053445241575448474952204b43414c423b45394232,
0x3b3b3b3b3b4e3b3b3b3b3b4e4f3b303b6f533b44414548574f525241204c41524554414c495551452053445241574e574f44204b43414c423b46394232,
0x3b3b3b3b3b4e3b3b3b3b3b4e4f3b303b6f533b53445241575446454c2050495420474e4f4c204854495720574f525241204445444145482d454c474e414952542053445241574e574f443b30414232,
0x3b3b3b3b3b4e3b3b3b3b3b4e4f3b303b6f533b534452415754484749522050495420474e4f4c204854495720574f525241204445444145482d454c474e414952542053445241574e574f443b31414232,
0x3b3b3b3b3b4e3b3b3b3b3b4e4f3b303b6f533b53445241575446454c2050495420474e4f4c204854495720574f525241204445444145482d454c474e4149525420534452415750553b32414232,
0x3b3b3b3b3b4e3b3b3b3b3b4e4f3b303b6f533b534452415754484749522050495420474e4f4c204854495720574f525241204445444145482d454c474e4149525420534452415750553b33414232,
0x3b3b3b3b3b4e3b3b3b3b3b4e4f3b303b6f533b534452415750552050495420474e4f4c204854495720574f525241204445444145482d454c474e414952542053445241575446454c3b34414232,
0x3b3b3b3b3b4e3b3b3b3b3b4e4f3b303b6f533b534452415750552050495420474e4f4c204854495720574f525241204445444145482d454c474e4149525420534452415754484749523b35414232,
0x3b3b3b3b3b4e3b3b3b3b3b4e4f3b303b6f533b53445241574e574f442050495420474e4f4c204854495720574f525241204445444145482d454c474e414952542053445241575446454c3b36414232,
0x3b3b3b3b3b4e3b3b3b3b3b4e4f3b303b6f533b53445241574e574f442050495420474e4f4c204854495720574f525241204445444145482d454c474e4149525420534452415754484749523b37414232,
0x3b3b3b3b3b4e3b3b3b3b3b4e4f3b303b6f533b574f5252412053445241575446454c20444e412053445241574e574f4420444556525543204b43414c423b38414232,
0x3b3b3b3b3b4e3b3b3b3b3b4e4f3b303b6f533b574f525241205344524157544847495220444e412053445241574e574f4420444556525543204b43414c423b39414232,
0x3b3b3b3b3b4e3b3b3b3b3b4e4f3b303b6f533b574f5252412053445241575446454c20444e41205344524157505520444556525543204b43414c423b41414232,
0x3b3b3b3b3b4e3b3b3b3b3b4e4f3b303b6f533b574f525241205344524157544847495220444e41205344524157505520444556525543204b43414c423b42414232,
0x3b3b3b3b3b4e3b3b3b3b3b4e4f3b303b6f533b574f525241205344524157505520444e412053445241575446454c20444556525543204b43414c423b43414232,
0x3b3b3b3b3b4e3b3b3b3b3b4e4f3b303b6f533b574f525241205344524157505520444e41205344524157544847495220444556525543204b43414c423b44414232,
0x3b3b3b3b3b4e3b3b3b3b3b4e4f3b303b6f533b574f5252412053445241574e574f4420444e412053445241575446454c20444556525543204b43414c423b45414232,
0x3b3b3b3b3b4e3b3b3b3b3b4e4f3b303b6f533b574f5252412053445241574e574f4420444e41205344524157544847495220444556525543204b43414c423b46414232,
0x3b3b3b3b3b4e3b3b3b3b3b4e4f3b303b6f533b5446454c204e574f4420574f525241204e4f424249523b30424232,
0x3b3b3b3b3b4e3b3b3b3b3b4e4f3b303b6f533b5448474952204e574f4420574f525241204e4f424249523b31424232,
0x3b3b3b3b3b4e3b3b3b3b3b4e4f3b303b6f533b5446454c20505520574f525241204e4f424249523b32424232,
0x3b3b3b3b3b4e3b3b3b3b3b4e4f3b303b6f533b544847495220505520574f525241204e4f424249523b33424232,
0x3b3b3b3b3b4e3b3b3b3b3b4e4f3b303b6f533b5055205446454c20574f525241204e4f424249523b34424232,
0x3b3b3b3b3b4e3b3b3b3b3b4e4f3b303b6f533b505520544847495220574f525241204e4f424249523b35424232,
0x3b3b3b3b3b4e3b3b3b3b3b4e4f3b303b6f533b4e574f44205446454c20574f525241204e4f424249523b36424232,
0x3b3b3b3b3b4e3b3b3b3b3b4e4f3b303b6f533b4e574f4420544847495220574f525241204e4f424249523b37424232,
0x3b3b3b3b3b4e3b3b3b3b3b4e4f3b303b6f533b524142204c41544e4f5a49524f48204854495720524142204d4f524620574f52524120455449485720534452415750553b38424232,
0x3b3b3b3b3b4e3b3b3b3b3b4e4f3b303b6f533b584f4220454c474e41544345522041204e492044414548574f5252412050553b39424232,
0x3b3b3b3b3b4e3b3b3b3b3b4e4f3b303b6f533b5820544847494c204854495720584f4220544f4c4c41423b44424232,
0x3b3b3b3b3b4e3b3b3b3b3b4e4f3b303b6f533b582044454c435249433b45424232,
0x3b3b3b3b3b4e3b3b3b3b3b4e4f3b303b6f533b5820444c4f422044454c435249433b46424232,
0x3b3b3b3b3b4e3b3b3b3b3b4e4f3b303b6f533b444552544e454320455241555153204b43414c423b30434232,
0x3b3b3b3b3b4e3b3b3b3b3b4e4f3b303b6f533b444552544e454320444e4f4d414944204b43414c423b31434232,
0x3b3b3b3b3b4e3b3b3b3b3b4e4f3b303b6f533b4e4f4741544e4550204b43414c422044454e5255543b32434232,
0x3b3b3b3b3b4e3b3b3b3b3b4e4f3b303b6f533b4e4f474154434f204b43414c42204c41544e4f5a49524f483b33434232,
0x3b3b3b3b3b4e3b3b3b3b3b4e4f3b303b6f533b4e4f474154434f204b43414c423b34434232,
0x3b3b3b3b3b4e3b3b3b3b3b4e4f3b303b6f533b444552544e454320454c474e4149525420474e49544e494f502d5055204d554944454d204b43414c423b35434232,
0x3b3b3b3b3b4e3b3b3b3b3b4e4f3b303b6f533b444552544e454320454c474e4149525420474e49544e494f502d4e574f44204d554944454d204b43414c423b36434232,
0x3b3b3b3b3b4e3b3b3b3b3b4e4f3b303b6f533b444552544e454320454c474e4149525420474e49544e494f502d5446454c204d554944454d204b43414c423b37434232,
0x3b3b3b3b3b4e3b3b3b3b3b4e4f3b303b6f533b444552544e454320454c474e4149525420474e49544e494f502d5448474952204d554944454d204b43414c423b38434232,
0x3b3b3b3b3b4e3b3b3b3b3b4e4f3b303b6f533b454c43524943204b43414c4220464c414820504f543b41434232,
0x3b3b3b3b3b4e3b3b3b3b3b4e4f3b303b6f533b454c43524943204b43414c4220464c4148204d4f54544f423b42434232,
0x3b3b3b3b3b4e3b3b3b3b3b4e4f3b303b6f533b50535543204b43414c42204445544e494f502052554f4620544847494c3b43434232,
0x3b3b3b3b3b4e3b3b3b3b3b4e4f3b303b6f533b50535543204b43414c42204445544e494f502052554f4620544847494c2044455441544f523b44434232,
0x3b3b3b3b3b4e3b3b3b3b3b4e4f3b303b6f533b50535543204445544e494f502052554f462045544948573b45434232,
0x3b3b3b3b3b4e3b3b3b3b3b4e4f3b303b6f533b50535543204445544e494f502052554f462045544948572044455441544f523b46434232,
0x3b3b3b3b3b4e3b3b3b3b3b4e4f3b303b6f533b524f54414349444e49204e4f495449534f50204552415551533b30444232,
0x3b3b3b3b3b4e3b3b3b3b3b4e4f3b303b6f533b4e4749532059544e4941545245434e553b31444232,
0x3b3b3b3b3b4e3b3b3b3b3b4e4f3b303b6f533b5344414548574f52524120454c474e41495254204854495720574f525241204445444145482d4f57542053445241575446454c3b43454232,
0x3b3b3b3b3b4e3b3b3b3b3b4e4f3b303b6f533b5344414548574f52524120454c474e41495254204854495720574f525241204445444145482d4f575420534452415750553b44454232,
0x3b3b3b3b3b4e3b3b3b3b3b4e4f3b303b6f533b5344414548574f52524120454c474e41495254204854495720574f525241204445444145482d4f575420534452415754484749523b45454232,
0x3b3b3b3b3b4e3b3b3b3b3b4e4f3b303b6f533b5344414548574f52524120454c474e41495254204854495720574f525241204445444145482d4f57542053445241574e574f443b46454232,
0x3b303343323b3b3b3b4e3b3b3b3b3b4c3b303b754c3b555a412052455454454c204c41544950414320434954494c4f47414c473b30304332,
0x3b313343323b3b3b3b4e3b3b3b3b3b4c3b303b754c3b594b55422052455454454c204c41544950414320434954494c4f47414c473b31304332,
0x3b323343323b3b3b3b4e3b3b3b3b3b4c3b303b754c3b454445562052455454454c204c41544950414320434954494c4f47414c473b32304332,
0x3b333343323b3b3b3b4e3b3b3b3b3b4c3b303b754c3b494c4f47414c472052455454454c204c41544950414320434954494c4f47414c473b33304332,
0x3b343343323b3b3b3b4e3b3b3b3b3b4c3b303b754c3b4f52424f442052455454454c204c41544950414320434954494c4f47414c473b34304332,
0x3b353343323b3b3b3b4e3b3b3b3b3b4c3b303b754c3b55545345592052455454454c204c41544950414320434954494c4f47414c473b35304332,
0x3b363343323b3b3b3b4e3b3b3b3b3b4c3b303b754c3b4554455649485a2052455454454c204c41544950414320434954494c4f47414c473b36304332,
0x3b373343323b3b3b3b4e3b3b3b3b3b4c3b303b754c3b4f4c455a442052455454454c204c41544950414320434954494c4f47414c473b37304332,
0x3b383343323b3b3b3b4e3b3b3b3b3b4c3b303b754c3b414a4c4d455a2052455454454c204c41544950414320434954494c4f47414c473b38304332,
0x3b393343323b3b3b3b4e3b3b3b3b3b4c3b303b754c3b45485a492052455454454c204c41544950414320434954494c4f47414c473b39304332,
0x3b413343323b3b3b3b4e3b3b3b3b3b4c3b303b754c3b45485a49204c414954494e492052455454454c204c41544950414320434954494c4f47414c473b41304332,
0x3b423343323b3b3b3b4e3b3b3b3b3b4c3b303b754c3b492052455454454c204c41544950414320434954494c4f47414c473b42304332,
0x3b433343323b3b3b3b4e3b3b3b3b3b4c3b303b754c3b495652454a442052455454454c204c41544950414320434954494c4f47414c473b43304332,
0x3b443343323b3b3b3b4e3b3b3b3b3b4c3b303b754c3b4f4b414b2052455454454c204c41544950414320434954494c4f47414c473b44304332,
0x3b453343323b3b3b3b4e3b3b3b3b3b4c3b303b754c3b454a4944554a4c2052455454454c204c41544950414320434954494c4f47414c473b45304332,
0x3b463343323b3b3b3b4e3b3b3b3b3b4c3b303b754c3b4554494c53594d2052455454454c204c41544950414320434954494c4f47414c473b46304332,
0x3b303443323b3b3b3b4e3b3b3b3b3b4c3b303b754c3b494853414e2052455454454c204c41544950414320434954494c4f47414c473b30314332,
0x3b313443323b3b3b3b4e3b3b3b3b3b4c3b303b754c3b554e4f2052455454454c204c41544950414320434954494c4f47414c473b31314332,
0x3b323443323b3b3b3b4e3b3b3b3b3b4c3b303b754c3b494a4f4b4f502052455454454c204c41544950414320434954494c4f47414c473b32314332,
0x3b333443323b3b3b3b4e3b3b3b3b3b4c3b303b754c3b49535449522052455454454c204c41544950414320434954494c4f47414c473b33314332,
0x3b343443323b3b3b3b4e3b3b3b3b3b4c3b303b754c3b4f564f4c532052455454454c204c41544950414320434954494c4f47414c473b34314332,
0x3b353443323b3b3b3b4e3b3b3b3b3b4c3b303b754c3b4f44495256542052455454454c204c41544950414320434954494c4f47414c473b35314332,
0x3b363443323b3b3b3b4e3b3b3b3b3b4c3b303b754c3b554b552052455454454c204c41544950414320434954494c4f47414c473b36314332,
0x3b373443323b3b3b3b4e3b3b3b3b3b4c3b303b754c3b55544952462052455454454c204c41544950414320434954494c4f47414c473b37314332,
0x3b383443323b3b3b3b4e3b3b3b3b3b4c3b303b754c3b555245482052455454454c204c41544950414320434954494c4f47414c473b38314332,
0x3b393443323b3b3b3b4e3b3b3b3b3b4c3b303b754c3b55544f2052455454454c204c41544950414320434954494c4f47414c473b39314332,
0x3b413443323b3b3b3b4e3b3b3b3b3b4c3b303b754c3b45502052455454454c204c41544950414320434954494c4f47414c473b41314332,
0x3b423443323b3b3b3b4e3b3b3b3b3b4c3b303b754c3b415448532052455454454c204c41544950414320434954494c4f47414c473b42314332,
0x3b433443323b3b3b3b4e3b3b3b3b3b4c3b303b754c3b4953542052455454454c204c41544950414320434954494c4f47414c473b43314332,
0x3b443443323b3b3b3b4e3b3b3b3b3b4c3b303b754c3b4956495248432052455454454c204c41544950414320434954494c4f47414c473b44314332,
0x3b453443323b3b3b3b4e3b3b3b3b3b4c3b303b754c3b4148532052455454454c204c41544950414320434954494c4f47414c473b45314332,
0x3b463443323b3b3b3b4e3b3b3b3b3b4c3b303b754c3b555245592052455454454c204c41544950414320434954494c4f47414c473b46314332,
0x3b303543323b3b3b3b4e3b3b3b3b3b4c3b303b754c3b495245592052455454454c204c41544950414320434954494c4f47414c473b30324332,
0x3b313543323b3b3b3b4e3b3b3b3b3b4c3b303b754c3b495441592052455454454c204c41544950414320434954494c4f47414c473b31324332,
0x3b323543323b3b3b3b4e3b3b3b3b3b4c3b303b754c3b414820595245444950532052455454454c204c41544950414320434954494c4f47414c473b32324332,
0x3b333543323b3b3b3b4e3b3b3b3b3b4c3b303b754c3b55592052455454454c204c41544950414320434954494c4f47414c473b33324332,
0x3b343543323b3b3b3b4e3b3b3b3b3b4c3b303b754c3b535559204c4c414d532052455454454c204c41544950414320434954494c4f47414c473b34324332,
0x3b353543323b3b3b3b4e3b3b3b3b3b4c3b303b754c3b4c494154204854495720535559204c4c414d532052455454454c204c41544950414320434954494c4f47414c473b35324332,
0x3b363543323b3b3b3b4e3b3b3b3b3b4c3b303b754c3b4f592052455454454c204c41544950414320434954494c4f47414c473b36324332,
0x3b373543323b3b3b3b4e3b3b3b3b3b4c3b303b754c3b535559204c4c414d532044455441544f492052455454454c204c41544950414320434954494c4f47414c473b37324332,
0x3b383543323b3b3b3b4e3b3b3b3b3b4c3b303b754c3b535559204749422052455454454c204c41544950414320434954494c4f47414c473b38324332,
0x3b393543323b3b3b3b4e3b3b3b3b3b4c3b303b754c3b535559204749422044455441544f492052455454454c204c41544950414320434954494c4f47414c473b39324332,
0x3b413543323b3b3b3b4e3b3b3b3b3b4c3b303b754c3b415449462052455454454c204c41544950414320434954494c4f47414c473b41324332,
0x3b423543323b3b3b3b4e3b3b3b3b3b4c3b303b754c3b41535449485a492052455454454c204c41544950414320434954494c4f47414c473b42324332,
0x3b433543323b3b3b3b4e3b3b3b3b3b4c3b303b754c3b434950415448532052455454454c204c41544950414320434954494c4f47414c473b43324332,
0x3b443543323b3b3b3b4e3b3b3b3b3b4c3b303b754c3b41204954534154554b4f52542052455454454c204c41544950414320434954494c4f47414c473b44324332,
0x3b453543323b3b3b3b4e3b3b3b3b3b4c3b303b754c3b4554494c53594d204554414e4954414c2052455454454c204c41544950414320434954494c4f47414c473b45324332,
0x303043323b3b303043323b3b3b4e3b3b3b3b3b4c3b303b6c4c3b555a412052455454454c204c4c414d5320434954494c4f47414c473b30334332,
0x313043323b3b313043323b3b3b4e3b3b3b3b3b4c3b303b6c4c3b594b55422052455454454c204c4c414d5320434954494c4f47414c473b31334332,
0x323043323b3b323043323b3b3b4e3b3b3b3b3b4c3b303b6c4c3b454445562052455454454c204c4c414d5320434954494c4f47414c473b32334332,
0x333043323b3b333043323b3b3b4e3b3b3b3b3b4c3b303b6c4c3b494c4f47414c472052455454454c204c4c414d5320434954494c4f47414c473b33334332,
0x343043323b3b343043323b3b3b4e3b3b3b3b3b4c3b303b6c4c3b4f52424f442052455454454c204c4c414d5320434954494c4f47414c473b34334332,
0x353043323b3b353043323b3b3b4e3b3b3b3b3b4c3b303b6c4c3b55545345592052455454454c204c4c414d5320434954494c4f47414c473b35334332,
0x363043323b3b363043323b3b3b4e3b3b3b3b3b4c3b303b6c4c3b4554455649485a2052455454454c204c4c414d5320434954494c4f47414c473b36334332,
0x373043323b3b373043323b3b3b4e3b3b3b3b3b4c3b303b6c4c3b4f4c455a442052455454454c204c4c414d5320434954494c4f47414c473b37334332,
0x383043323b3b383043323b3b3b4e3b3b3b3b3b4c3b303b6c4c3b414a4c4d455a2052455454454c204c4c414d5320434954494c4f47414c473b38334332,
0x393043323b3b393043323b3b3b4e3b3b3b3b3b4c3b303b6c4c3b45485a492052455454454c204c4c414d5320434954494c4f47414c473b39334332,
0x413043323b3b413043323b3b3b4e3b3b3b3b3b4c3b303b6c4c3b45485a49204c414954494e492052455454454c204c4c414d5320434954494c4f47414c473b41334332,
0x423043323b3b423043323b3b3b4e3b3b3b3b3b4c3b303b6c4c3b492052455454454c204c4c414d5320434954494c4f47414c473b42334332,
0x433043323b3b433043323b3b3b4e3b3b3b3b3b4c3b303b6c4c3b495652454a442052455454454c204c4c414d5320434954494c4f47414c473b43334332,
0x443043323b3b443043323b3b3b4e3b3b3b3b3b4c3b303b6c4c3b4f4b414b2052455454454c204c4c414d5320434954494c4f47414c473b44334332,
0x453043323b3b453043323b3b3b4e3b3b3b3b3b4c3b303b6c4c3b454a4944554a4c2052455454454c204c4c414d5320434954494c4f47414c473b45334332,
0x463043323b3b463043323b3b3b4e3b3b3b3b3b4c3b303b6c4c3b4554494c53594d2052455454454c204c4c414d5320434954494c4f47414c473b46334332,
0x303143323b3b303143323b3b3b4e3b3b3b3b3b4c3b303b6c4c3b494853414e2052455454454c204c4c414d5320434954494c4f47414c473b30344332,
0x313143323b3b313143323b3b3b4e3b3b3b3b3b4c3b303b6c4c3b554e4f2052455454454c204c4c414d5320434954494c4f47414c473b31344332,
0x323143323b3b323143323b3b3b4e3b3b3b3b3b4c3b303b6c4c3b494a4f4b4f502052455454454c204c4c414d5320434954494c4f47414c473b32344332,
0x333143323b3b333143323b3b3b4e3b3b3b3b3b4c3b303b6c4c3b49535449522052455454454c204c4c414d5320434954494c4f47414c473b33344332,
0x343143323b3b343143323b3b3b4e3b3b3b3b3b4c3b303b6c4c3b4f564f4c532052455454454c204c4c414d5320434954494c4f47414c473b34344332,
0x353143323b3b353143323b3b3b4e3b3b3b3b3b4c3b303b6c4c3b4f44495256542052455454454c204c4c414d5320434954494c4f47414c473b35344332,
0x363143323b3b363143323b3b3b4e3b3b3b3b3b4c3b303b6c4c3b554b552052455454454c204c4c414d5320434954494c4f47414c473b36344332,
0x373143323b3b373143323b3b3b4e3b3b3b3b3b4c3b303b6c4c3b55544952462052455454454c204c4c414d5320434954494c4f47414c473b37344332,
0x383143323b3b383143323b3b3b4e3b3b3b3b3b4c3b303b6c4c3b555245482052455454454c204c4c414d5320434954494c4f47414c473b38344332,
0x393143323b3b393143323b3b3b4e3b3b3b3b3b4c3b303b6c4c3b55544f2052455454454c204c4c414d5320434954494c4f47414c473b39344332,
0x413143323b3b413143323b3b3b4e3b3b3b3b3b4c3b303b6c4c3b45502052455454454c204c4c414d5320434954494c4f47414c473b41344332,
0x423143323b3b423143323b3b3b4e3b3b3b3b3b4c3b303b6c4c3b415448532052455454454c204c4c414d5320434954494c4f47414c473b42344332,
0x433143323b3b433143323b3b3b4e3b3b3b3b3b4c3b303b6c4c3b4953542052455454454c204c4c414d5320434954494c4f47414c473b43344332,
0x443143323b3b443143323b3b3b4e3b3b3b3b3b4c3b303b6c4c3b4956495248432052455454454c204c4c414d5320434954494c4f47414c473b44344332,
0x453143323b3b453143323b3b3b4e3b3b3b3b3b4c3b303b6c4c3b4148532052455454454c204c4c414d5320434954494c4f47414c473b45344332,
0x463143323b3b463143323b3b3b4e3b3b3b3b3b4c3b303b6c4c3b555245592052455454454c204c4c414d5320434954494c4f47414c473b46344332,
0x303243323b3b303243323b3b3b4e3b3b3b3b3b4c3b303b6c4c3b495245592052455454454c204c4c414d5320434954494c4f47414c473b30354332,
0x313243323b3b313243323b3b3b4e3b3b3b3b3b4c3b303b6c4c3b495441592052455454454c204c4c414d5320434954494c4f47414c473b31354332,
0x323243323b3b323243323b3b3b4e3b3b3b3b3b4c3b303b6c4c3b414820595245444950532052455454454c204c4c414d5320434954494c4f47414c473b32354332,
0x333243323b3b333243323b3b3b4e3b3b3b3b3b4c3b303b6c4c3b55592052455454454c204c4c414d5320434954494c4f47414c473b33354332,
0x343243323b3b343243323b3b3b4e3b3b3b3b3b4c3b303b6c4c3b535559204c4c414d532052455454454c204c4c414d5320434954494c4f47414c473b34354332,
0x353243323b3b353243323b3b3b4e3b3b3b3b3b4c3b303b6c4c3b4c494154204854495720535559204c4c414d532052455454454c204c4c414d5320434954494c4f47414c473b35354332,
0x363243323b3b363243323b3b3b4e3b3b3b3b3b4c3b303b6c4c3b4f592052455454454c204c4c414d5320434954494c4f47414c473b36354332,
0x373243323b3b373243323b3b3b4e3b3b3b3b3b4c3b303b6c4c3b535559204c4c414d532044455441544f492052455454454c204c4c414d5320434954494c4f47414c473b37354332,
0x383243323b3b383243323b3b3b4e3b3b3b3b3b4c3b303b6c4c3b535559204749422052455454454c204c4c414d5320434954494c4f47414c473b38354332,
0x393243323b3b393243323b3b3b4e3b3b3b3b3b4c3b303b6c4c3b535559204749422044455441544f492052455454454c204c4c414d5320434954494c4f47414c473b39354332,
0x413243323b3b413243323b3b3b4e3b3b3b3b3b4c3b303b6c4c3b415449462052455454454c204c4c414d5320434954494c4f47414c473b41354332,
0x423243323b3b423243323b3b3b4e3b3b3b3b3b4c3b303b6c4c3b41535449485a492052455454454c204c4c414d5320434954494c4f47414c473b42354332,
0x433243323b3b433243323b3b3b4e3b3b3b3b3b4c3b303b6c4c3b434950415448532052455454454c204c4c414d5320434954494c4f47414c473b43354332,
0x443243323b3b443243323b3b3b4e3b3b3b3b3b4c3b303b6c4c3b41204954534154554b4f52542052455454454c204c4c414d5320434954494c4f47414c473b44354332,
0x453243323b3b453243323b3b3b4e3b3b3b3b3b4c3b303b6c4c3b4554494c53594d204554414e4954414c2052455454454c204c4c414d5320434954494c4f47414c473b45354332,
0x3b313643323b3b3b3b4e3b3b3b3b3b4c3b303b754c3b52414220454c42554f442048544957204c2052455454454c204c415449504143204e4954414c3b30364332,
0x303643323b3b303643323b3b3b4e3b3b3b3b3b4c3b303b6c4c3b52414220454c42554f442048544957204c2052455454454c204c4c414d53204e4954414c3b31364332,
0x3b423632303b3b3b3b4e3b3b3b3b3b4c3b303b754c3b45444c495420454c4444494d2048544957204c2052455454454c204c415449504143204e4954414c3b32364332,
0x3b443744313b3b3b3b4e3b3b3b3b3b4c3b303b754c3b454b4f525453204854495720502052455454454c204c415449504143204e4954414c3b33364332,
0x3b443732303b3b3b3b4e3b3b3b3b3b4c3b303b754c3b4c494154204854495720522052455454454c204c415449504143204e4954414c3b34364332,
0x413332303b3b413332303b3b3b4e3b3b3b3b3b4c3b303b6c4c3b454b4f525453204854495720412052455454454c204c4c414d53204e4954414c3b35364332,
0x453332303b3b453332303b3b3b4e3b3b3b3b3b4c3b303b6c4c3b454b4f525453204c414e4f47414944204854495720542052455454454c204c4c414d53204e4954414c3b36364332,
0x3b383643323b3b3b3b4e3b3b3b3b3b4c3b303b754c3b5245444e4543534544204854495720482052455454454c204c415449504143204e4954414c3b37364332,
0x373643323b3b373643323b3b3b4e3b3b3b3b3b4c3b303b6c4c3b5245444e4543534544204854495720482052455454454c204c4c414d53204e4954414c3b38364332,
0x3b413643323b3b3b3b4e3b3b3b3b3b4c3b303b754c3b5245444e45435345442048544957204b2052455454454c204c415449504143204e4954414c3b39364332,
0x393643323b3b393643323b3b3b4e3b3b3b3b3b4c3b303b6c4c3b5245444e45435345442048544957204b2052455454454c204c4c414d53204e4954414c3b41364332,
0x3b433643323b3b3b3b4e3b3b3b3b3b4c3b303b754c3b5245444e45435345442048544957205a2052455454454c204c415449504143204e4954414c3b42364332,
0x423643323b3b423643323b3b3b4e3b3b3b3b3b4c3b303b6c4c3b5245444e45435345442048544957205a2052455454454c204c4c414d53204e4954414c3b43364332,
0x3b313532303b3b3b3b4e3b3b3b3b3b4c3b303b754c3b4148504c412052455454454c204c415449504143204e4954414c3b44364332,
0x3b313732303b3b3b3b4e3b3b3b3b3b4c3b303b754c3b4b4f4f482048544957204d2052455454454c204c415449504143204e4954414c3b45364332,
0x3b303532303b3b3b3b4e3b3b3b3b3b4c3b303b754c3b412044454e5255542052455454454c204c415449504143204e4954414c3b46364332,
0x3b323532303b3b3b3b4e3b3b3b3b3b4c3b303b754c3b4148504c412044454e5255542052455454454c204c415449504143204e4954414c3b30374332,
0x3b3b3b3b3b4e3b3b3b3b3b4c3b303b6c4c3b4b4f4f48205448474952204854495720562052455454454c204c4c414d53204e4954414c3b31374332,
0x3b333743323b3b3b3b4e3b3b3b3b3b4c3b303b754c3b4b4f4f48204854495720572052455454454c204c415449504143204e4954414c3b32374332,
0x323743323b3b323743323b3b3b4e3b3b3b3b3b4c3b303b6c4c3b4b4f4f48204854495720572052455454454c204c4c414d53204e4954414c3b33374332,
0x3b3b3b3b3b4e3b3b3b3b3b4c3b303b6c4c3b4c525543204854495720562052455454454c204c4c414d53204e4954414c3b34374332,
0x3b363743323b3b3b3b4e3b3b3b3b3b4c3b303b754c3b4820464c41482052455454454c204c415449504143204e4954414c3b35374332,
0x353743323b3b353743323b3b3b4e3b3b3b3b3b4c3b303b6c4c3b4820464c41482052455454454c204c4c414d53204e4954414c3b36374332,
0x3b3b3b3b3b4e3b3b3b3b3b4c3b303b6c4c3b494850205353454c4c4941542052455454454c204c4c414d53204e4954414c3b37374332,
0x3b3b3b3b3b4e3b3b3b3b3b4c3b303b6c4c3b4843544f4e204854495720452052455454454c204c4c414d53204e4954414c3b38374332,
0x3b3b3b3b3b4e3b3b3b3b3b4c3b303b6c4c3b4c494154204854495720522044454e5255542052455454454c204c4c414d53204e4954414c3b39374332,
0x3b3b3b3b3b4e3b3b3b3b3b4c3b303b6c4c3b454449534e4920474e495220574f4c2048544957204f2052455454454c204c4c414d53204e4954414c3b41374332,
0x3b3b3b3b3b4e3b3b3b3b3b4c3b303b6c4c3b452044454e525554204c415449504143204c4c414d532052455454454c204e4954414c3b42374332,
0x3b3b3b3b3b4e3b3b3b3b41363030203e6275733c3b4c3b303b6d4c3b4a2052455454454c204c4c414d5320545049524353425553204e4954414c3b43374332,
0x3b3b3b3b3b4e3b3b3b3b36353030203e72657075733c3b4c3b303b6d4c3b56204c4154495041432052455454454c205245494649444f4d3b44374332,
0x3b463332303b3b3b3b4e3b3b3b3b3b4c3b303b754c3b4c494154204853415753204854495720532052455454454c204c415449504143204e4954414c3b45374332,
0x3b303432303b3b3b3b4e3b3b3b3b3b4c3b303b754c3b4c4941542048534157532048544957205a2052455454454c204c415449504143204e4954414c3b46374332,
0x3b313843323b3b3b3b4e3b3b3b3b3b4c3b303b754c3b41464c412052455454454c204c41544950414320434954504f433b30384332,
0x303843323b3b303843323b3b3b4e3b3b3b3b3b4c3b303b6c4c3b41464c412052455454454c204c4c414d5320434954504f433b31384332,
0x3b333843323b3b3b3b4e3b3b3b3b3b4c3b303b754c3b414449562052455454454c204c41544950414320434954504f433b32384332,
0x323843323b3b323843323b3b3b4e3b3b3b3b3b4c3b303b6c4c3b414449562052455454454c204c4c414d5320434954504f433b33384332,
0x3b353843323b3b3b3b4e3b3b3b3b3b4c3b303b754c3b414d4d41472052455454454c204c41544950414320434954504f433b34384332,
0x343843323b3b343843323b3b3b4e3b3b3b3b3b4c3b303b6c4c3b414d4d41472052455454454c204c4c414d5320434954504f433b35384332,
0x3b373843323b3b3b3b4e3b3b3b3b3b4c3b303b754c3b41444c41442052455454454c204c41544950414320434954504f433b36384332,
0x363843323b3b363843323b3b3b4e3b3b3b3b3b4c3b303b6c4c3b41444c41442052455454454c204c4c414d5320434954504f433b37384332,
0x3b393843323b3b3b3b4e3b3b3b3b3b4c3b303b754c3b4549452052455454454c204c41544950414320434954504f433b38384332,
0x383843323b3b383843323b3b3b4e3b3b3b3b3b4c3b303b6c4c3b4549452052455454454c204c4c414d5320434954504f433b39384332,
0x3b423843323b3b3b3b4e3b3b3b3b3b4c3b303b754c3b554f532052455454454c204c41544950414320434954504f433b41384332,
0x413843323b3b413843323b3b3b4e3b3b3b3b3b4c3b303b6c4c3b554f532052455454454c204c4c414d5320434954504f433b42384332,
0x3b443843323b3b3b3b4e3b3b3b3b3b4c3b303b754c3b4154415a2052455454454c204c41544950414320434954504f433b43384332,
0x433843323b3b433843323b3b3b4e3b3b3b3b3b4c3b303b6c4c3b4154415a2052455454454c204c4c414d5320434954504f433b44384332,
0x3b463843323b3b3b3b4e3b3b3b3b3b4c3b303b754c3b455441482052455454454c204c41544950414320434954504f433b45384332,
0x453843323b3b453843323b3b3b4e3b3b3b3b3b4c3b303b6c4c3b455441482052455454454c204c4c414d5320434954504f433b46384332,
0x3b313943323b3b3b3b4e3b3b3b3b3b4c3b303b754c3b4548544548542052455454454c204c41544950414320434954504f433b30394332,
0x303943323b3b303943323b3b3b4e3b3b3b3b3b4c3b303b6c4c3b4548544548542052455454454c204c4c414d5320434954504f433b31394332,
0x3b333943323b3b3b3b4e3b3b3b3b3b4c3b303b754c3b41445541492052455454454c204c41544950414320434954504f433b32394332,
0x323943323b3b323943323b3b3b4e3b3b3b3b3b4c3b303b6c4c3b41445541492052455454454c204c4c414d5320434954504f433b33394332,
0x3b353943323b3b3b3b4e3b3b3b3b3b4c3b303b754c3b4150414b2052455454454c204c41544950414320434954504f433b34394332,
0x343943323b3b343943323b3b3b4e3b3b3b3b3b4c3b303b6c4c3b4150414b2052455454454c204c4c414d5320434954504f433b35394332,
0x3b373943323b3b3b3b4e3b3b3b3b3b4c3b303b754c3b414c55414c2052455454454c204c41544950414320434954504f433b36394332,
0x363943323b3b363943323b3b3b4e3b3b3b3b3b4c3b303b6c4c3b414c55414c2052455454454c204c4c414d5320434954504f433b37394332,
0x3b393943323b3b3b3b4e3b3b3b3b3b4c3b303b754c3b494d2052455454454c204c41544950414320434954504f433b38394332]

/-- src/u5e/props/UnicodeData.txt lines 10241-10496. -/
def rawUcd40 : List Nat := [
0x383943323b3b383943323b3b3b4e3b3b3b3b3b4c3b303b6c4c3b494d2052455454454c204c4c414d5320434954504f433b39394332,
0x3b423943323b3b3b3b4e3b3b3b3b3b4c3b303b754c3b494e2052455454454c204c41544950414320434954504f433b41394332,
0x413943323b3b413943323b3b3b4e3b3b3b3b3b4c3b303b6c4c3b494e2052455454454c204c4c414d5320434954504f433b42394332,
0x3b443943323b3b3b3b4e3b3b3b3b3b4c3b303b754c3b49534b2052455454454c204c41544950414320434954504f433b43394332,
0x433943323b3b433943323b3b3b4e3b3b3b3b3b4c3b303b6c4c3b49534b2052455454454c204c4c414d5320434954504f433b44394332,
0x3b463943323b3b3b3b4e3b3b3b3b3b4c3b303b754c3b4f2052455454454c204c41544950414320434954504f433b45394332,
0x453943323b3b453943323b3b3b4e3b3b3b3b3b4c3b303b6c4c3b4f2052455454454c204c4c414d5320434954504f433b46394332,
0x3b314143323b3b3b3b4e3b3b3b3b3b4c3b303b754c3b49502052455454454c204c41544950414320434954504f433b30414332,
0x304143323b3b304143323b3b3b4e3b3b3b3b3b4c3b303b6c4c3b49502052455454454c204c4c414d5320434954504f433b31414332,
0x3b334143323b3b3b3b4e3b3b3b3b3b4c3b303b754c3b4f522052455454454c204c41544950414320434954504f433b32414332,
0x324143323b3b324143323b3b3b4e3b3b3b3b3b4c3b303b6c4c3b4f522052455454454c204c4c414d5320434954504f433b33414332,
0x3b354143323b3b3b3b4e3b3b3b3b3b4c3b303b754c3b414d49532052455454454c204c41544950414320434954504f433b34414332,
0x344143323b3b344143323b3b3b4e3b3b3b3b3b4c3b303b6c4c3b414d49532052455454454c204c4c414d5320434954504f433b35414332,
0x3b374143323b3b3b3b4e3b3b3b3b3b4c3b303b754c3b5541542052455454454c204c41544950414320434954504f433b36414332,
0x364143323b3b364143323b3b3b4e3b3b3b3b3b4c3b303b6c4c3b5541542052455454454c204c4c414d5320434954504f433b37414332,
0x3b394143323b3b3b3b4e3b3b3b3b3b4c3b303b754c3b41552052455454454c204c41544950414320434954504f433b38414332,
0x384143323b3b384143323b3b3b4e3b3b3b3b3b4c3b303b6c4c3b41552052455454454c204c4c414d5320434954504f433b39414332,
0x3b424143323b3b3b3b4e3b3b3b3b3b4c3b303b754c3b49462052455454454c204c41544950414320434954504f433b41414332,
0x414143323b3b414143323b3b3b4e3b3b3b3b3b4c3b303b6c4c3b49462052455454454c204c4c414d5320434954504f433b42414332,
0x3b444143323b3b3b3b4e3b3b3b3b3b4c3b303b754c3b49484b2052455454454c204c41544950414320434954504f433b43414332,
0x434143323b3b434143323b3b3b4e3b3b3b3b3b4c3b303b6c4c3b49484b2052455454454c204c4c414d5320434954504f433b44414332,
0x3b464143323b3b3b3b4e3b3b3b3b3b4c3b303b754c3b4953502052455454454c204c41544950414320434954504f433b45414332,
0x454143323b3b454143323b3b3b4e3b3b3b3b3b4c3b303b6c4c3b4953502052455454454c204c4c414d5320434954504f433b46414332,
0x3b314243323b3b3b3b4e3b3b3b3b3b4c3b303b754c3b554f4f2052455454454c204c41544950414320434954504f433b30424332,
0x304243323b3b304243323b3b3b4e3b3b3b3b3b4c3b303b6c4c3b554f4f2052455454454c204c4c414d5320434954504f433b31424332,
0x3b334243323b3b3b3b4e3b3b3b3b3b4c3b303b754c3b46454c4120502d5443454c4149442052455454454c204c41544950414320434954504f433b32424332,
0x324243323b3b324243323b3b3b4e3b3b3b3b3b4c3b303b6c4c3b46454c4120502d5443454c4149442052455454454c204c4c414d5320434954504f433b33424332,
0x3b354243323b3b3b3b4e3b3b3b3b3b4c3b303b754c3b4e494120434954504f4320444c4f2052455454454c204c41544950414320434954504f433b34424332,
0x344243323b3b344243323b3b3b4e3b3b3b3b3b4c3b303b6c4c3b4e494120434954504f4320444c4f2052455454454c204c4c414d5320434954504f433b35424332,
0x3b374243323b3b3b3b4e3b3b3b3b3b4c3b303b754c3b4549452043494d4d4152474f54505952432052455454454c204c41544950414320434954504f433b36424332,
0x364243323b3b364243323b3b3b4e3b3b3b3b3b4c3b303b6c4c3b4549452043494d4d4152474f54505952432052455454454c204c4c414d5320434954504f433b37424332,
0x3b394243323b3b3b3b4e3b3b3b3b3b4c3b303b754c3b4150414b20502d5443454c4149442052455454454c204c41544950414320434954504f433b38424332,
0x384243323b3b384243323b3b3b4e3b3b3b3b3b4c3b303b6c4c3b4150414b20502d5443454c4149442052455454454c204c4c414d5320434954504f433b39424332,
0x3b424243323b3b3b3b4e3b3b3b3b3b4c3b303b754c3b494e20502d5443454c4149442052455454454c204c41544950414320434954504f433b41424332,
0x414243323b3b414243323b3b3b4e3b3b3b3b3b4c3b303b6c4c3b494e20502d5443454c4149442052455454454c204c4c414d5320434954504f433b42424332,
0x3b444243323b3b3b3b4e3b3b3b3b3b4c3b303b754c3b494e2043494d4d4152474f54505952432052455454454c204c41544950414320434954504f433b43424332,
0x434243323b3b434243323b3b3b4e3b3b3b3b3b4c3b303b6c4c3b494e2043494d4d4152474f54505952432052455454454c204c4c414d5320434954504f433b44424332,
0x3b464243323b3b3b3b4e3b3b3b3b3b4c3b303b754c3b554f4f20434954504f4320444c4f2052455454454c204c41544950414320434954504f433b45424332,
0x454243323b3b454243323b3b3b4e3b3b3b3b3b4c3b303b6c4c3b554f4f20434954504f4320444c4f2052455454454c204c4c414d5320434954504f433b46424332,
0x3b314343323b3b3b3b4e3b3b3b3b3b4c3b303b754c3b49504d41532052455454454c204c41544950414320434954504f433b30434332,
0x304343323b3b304343323b3b3b4e3b3b3b3b3b4c3b303b6c4c3b49504d41532052455454454c204c4c414d5320434954504f433b31434332,
0x3b334343323b3b3b3b4e3b3b3b3b3b4c3b303b754c3b4945485320444553534f52432052455454454c204c41544950414320434954504f433b32434332,
0x324343323b3b324343323b3b3b4e3b3b3b3b3b4c3b303b6c4c3b4945485320444553534f52432052455454454c204c4c414d5320434954504f433b33434332,
0x3b354343323b3b3b3b4e3b3b3b3b3b4c3b303b754c3b4945485320434954504f4320444c4f2052455454454c204c41544950414320434954504f433b34434332,
0x344343323b3b344343323b3b3b4e3b3b3b3b3b4c3b303b6c4c3b4945485320434954504f4320444c4f2052455454454c204c4c414d5320434954504f433b35434332,
0x3b374343323b3b3b3b4e3b3b3b3b3b4c3b303b754c3b48534520434954504f4320444c4f2052455454454c204c41544950414320434954504f433b36434332,
0x364343323b3b364343323b3b3b4e3b3b3b3b3b4c3b303b6c4c3b48534520434954504f4320444c4f2052455454454c204c4c414d5320434954504f433b37434332,
0x3b394343323b3b3b3b4e3b3b3b3b3b4c3b303b754c3b4945484b2043494d494d484b412052455454454c204c41544950414320434954504f433b38434332,
0x384343323b3b384343323b3b3b4e3b3b3b3b3b4c3b303b6c4c3b4945484b2043494d494d484b412052455454454c204c4c414d5320434954504f433b39434332,
0x3b424343323b3b3b3b4e3b3b3b3b3b4c3b303b754c3b49524f4820502d5443454c4149442052455454454c204c41544950414320434954504f433b41434332,
0x414343323b3b414343323b3b3b4e3b3b3b3b3b4c3b303b6c4c3b49524f4820502d5443454c4149442052455454454c204c4c414d5320434954504f433b42434332,
0x3b444343323b3b3b3b4e3b3b3b3b3b4c3b303b754c3b49524f4820434954504f4320444c4f2052455454454c204c41544950414320434954504f433b43434332,
0x434343323b3b434343323b3b3b4e3b3b3b3b3b4c3b303b6c4c3b49524f4820434954504f4320444c4f2052455454454c204c4c414d5320434954504f433b44434332,
0x3b464343323b3b3b3b4e3b3b3b3b3b4c3b303b754c3b414820434954504f4320444c4f2052455454454c204c41544950414320434954504f433b45434332,
0x454343323b3b454343323b3b3b4e3b3b3b3b3b4c3b303b6c4c3b414820434954504f4320444c4f2052455454454c204c4c414d5320434954504f433b46434332,
0x3b314443323b3b3b3b4e3b3b3b3b3b4c3b303b754c3b4148204445504148532d4c2052455454454c204c41544950414320434954504f433b30444332,
0x304443323b3b304443323b3b3b4e3b3b3b3b3b4c3b303b6c4c3b4148204445504148532d4c2052455454454c204c4c414d5320434954504f433b31444332,
0x3b334443323b3b3b3b4e3b3b3b3b3b4c3b303b754c3b49454820434954504f4320444c4f2052455454454c204c41544950414320434954504f433b32444332,
0x324443323b3b324443323b3b3b4e3b3b3b3b3b4c3b303b6c4c3b49454820434954504f4320444c4f2052455454454c204c4c414d5320434954504f433b33444332,
0x3b354443323b3b3b3b4e3b3b3b3b3b4c3b303b754c3b54414820434954504f4320444c4f2052455454454c204c41544950414320434954504f433b34444332,
0x344443323b3b344443323b3b3b4e3b3b3b3b3b4c3b303b6c4c3b54414820434954504f4320444c4f2052455454454c204c4c414d5320434954504f433b35444332,
0x3b374443323b3b3b3b4e3b3b3b3b3b4c3b303b754c3b4149474e414720434954504f4320444c4f2052455454454c204c41544950414320434954504f433b36444332,
0x364443323b3b364443323b3b3b4e3b3b3b3b3b4c3b303b6c4c3b4149474e414720434954504f4320444c4f2052455454454c204c4c414d5320434954504f433b37444332,
0x3b394443323b3b3b3b4e3b3b3b3b3b4c3b303b754c3b414a4420434954504f4320444c4f2052455454454c204c41544950414320434954504f433b38444332,
0x384443323b3b384443323b3b3b4e3b3b3b3b3b4c3b303b6c4c3b414a4420434954504f4320444c4f2052455454454c204c4c414d5320434954504f433b39444332,
0x3b424443323b3b3b3b4e3b3b3b3b3b4c3b303b754c3b414d49485320434954504f4320444c4f2052455454454c204c41544950414320434954504f433b41444332,
0x414443323b3b414443323b3b3b4e3b3b3b3b3b4c3b303b6c4c3b414d49485320434954504f4320444c4f2052455454454c204c4c414d5320434954504f433b42444332,
0x3b444443323b3b3b3b4e3b3b3b3b3b4c3b303b754c3b414d494853204e414942554e20444c4f2052455454454c204c41544950414320434954504f433b43444332,
0x434443323b3b434443323b3b3b4e3b3b3b3b3b4c3b303b6c4c3b414d494853204e414942554e20444c4f2052455454454c204c4c414d5320434954504f433b44444332,
0x3b464443323b3b3b3b4e3b3b3b3b3b4c3b303b754c3b49474e204e414942554e20444c4f2052455454454c204c41544950414320434954504f433b45444332,
0x454443323b3b454443323b3b3b4e3b3b3b3b3b4c3b303b6c4c3b49474e204e414942554e20444c4f2052455454454c204c4c414d5320434954504f433b46444332,
0x3b314543323b3b3b3b4e3b3b3b3b3b4c3b303b754c3b49594e204e414942554e20444c4f2052455454454c204c41544950414320434954504f433b30454332,
0x304543323b3b304543323b3b3b4e3b3b3b3b3b4c3b303b6c4c3b49594e204e414942554e20444c4f2052455454454c204c4c414d5320434954504f433b31454332,
0x3b334543323b3b3b3b4e3b3b3b3b3b4c3b303b754c3b554157204e414942554e20444c4f2052455454454c204c41544950414320434954504f433b32454332,
0x324543323b3b324543323b3b3b4e3b3b3b3b3b4c3b303b6c4c3b554157204e414942554e20444c4f2052455454454c204c4c414d5320434954504f433b33454332,
0x3b3b3b3b3b4e3b3b3b3b3b4c3b303b6c4c3b49414b204c4f424d595320434954504f433b34454332,
0x3b3b3b3b3b4e3b3b3b3b3b4e4f3b303b6f533b4f5220494d204c4f424d595320434954504f433b35454332,
0x3b3b3b3b3b4e3b3b3b3b3b4e4f3b303b6f533b4f52204950204c4f424d595320434954504f433b36454332,
0x3b3b3b3b3b4e3b3b3b3b3b4e4f3b303b6f533b534f5255415453204c4f424d595320434954504f433b37454332,
0x3b3b3b3b3b4e3b3b3b3b3b4e4f3b303b6f533b4f5220554154204c4f424d595320434954504f433b38454332,
0x3b3b3b3b3b4e3b3b3b3b3b4e4f3b303b6f533b4f522049484b204c4f424d595320434954504f433b39454332,
0x3b3b3b3b3b4e3b3b3b3b3b4e4f3b303b6f533b414d495320414d494853204c4f424d595320434954504f433b41454332,
0x3b434543323b3b3b3b4e3b3b3b3b3b4c3b303b754c3b494548532043494d4d4152474f54505952432052455454454c204c41544950414320434954504f433b42454332,
0x424543323b3b424543323b3b3b4e3b3b3b3b3b4c3b303b6c4c3b494548532043494d4d4152474f54505952432052455454454c204c4c414d5320434954504f433b43454332,
0x3b454543323b3b3b3b4e3b3b3b3b3b4c3b303b754c3b4149474e41472043494d4d4152474f54505952432052455454454c204c41544950414320434954504f433b44454332,
0x444543323b3b444543323b3b3b4e3b3b3b3b3b4c3b303b6c4c3b4149474e41472043494d4d4152474f54505952432052455454454c204c4c414d5320434954504f433b45454332,
0x3b3b3b3b3b4e3b3b3b3b3b4d534e3b3033323b6e4d3b45564f424120494e20474e494e49424d4f4320434954504f433b46454332,
0x3b3b3b3b3b4e3b3b3b3b3b4d534e3b3033323b6e4d3b524550534120535554495249505320474e494e49424d4f4320434954504f433b30464332,
0x3b3b3b3b3b4e3b3b3b3b3b4d534e3b3033323b6e4d3b53494e454c20535554495249505320474e494e49424d4f4320434954504f433b31464332,
0x3b334643323b3b3b3b4e3b3b3b3b3b4c3b303b754c3b4945484b204349524941484f422052455454454c204c41544950414320434954504f433b32464332,
0x324643323b3b324643323b3b3b4e3b3b3b3b3b4c3b303b6c4c3b4945484b204349524941484f422052455454454c204c4c414d5320434954504f433b33464332,
0x3b3b3b3b3b4e3b3b3b3b3b4e4f3b303b6f503b504f5453204c4c5546204e414942554e20444c4f20434954504f433b39464332,
0x3b3b3b3b3b4e3b3b3b3b3b4e4f3b303b6f503b4b52414d204e4f49545345555120544345524944204e414942554e20444c4f20434954504f433b41464332,
0x3b3b3b3b3b4e3b3b3b3b3b4e4f3b303b6f503b4b52414d204e4f495453455551205443455249444e49204e414942554e20444c4f20434954504f433b42464332,
0x3b3b3b3b3b4e3b3b3b3b3b4e4f3b303b6f503b52454449564944204553524556204e414942554e20444c4f20434954504f433b43464332,
0x3b3b3b3b3b4e3b322f313b3b3b3b4e4f3b303b6f4e3b464c414820454e4f204e4f49544341524620434954504f433b44464332,
0x3b3b3b3b3b4e3b3b3b3b3b4e4f3b303b6f503b504f5453204c4c554620434954504f433b45464332,
0x3b3b3b3b3b4e3b3b3b3b3b4e4f3b303b6f503b52454449564944204c414349474f4c4f4850524f4d20434954504f433b46464332,
0x304130313b3b304130313b3b3b4e3b3b3b3b3b4c3b303b6c4c3b4e412052455454454c204c4c414d53204e414947524f45473b30304432,
0x314130313b3b314130313b3b3b4e3b3b3b3b3b4c3b303b6c4c3b4e41422052455454454c204c4c414d53204e414947524f45473b31304432,
0x324130313b3b324130313b3b3b4e3b3b3b3b3b4c3b303b6c4c3b4e41472052455454454c204c4c414d53204e414947524f45473b32304432,
0x334130313b3b334130313b3b3b4e3b3b3b3b3b4c3b303b6c4c3b4e4f442052455454454c204c4c414d53204e414947524f45473b33304432,
0x344130313b3b344130313b3b3b4e3b3b3b3b3b4c3b303b6c4c3b4e452052455454454c204c4c414d53204e414947524f45473b34304432,
0x354130313b3b354130313b3b3b4e3b3b3b3b3b4c3b303b6c4c3b4e49562052455454454c204c4c414d53204e414947524f45473b35304432,
0x364130313b3b364130313b3b3b4e3b3b3b3b3b4c3b303b6c4c3b4e455a2052455454454c204c4c414d53204e414947524f45473b36304432,
0x374130313b3b374130313b3b3b4e3b3b3b3b3b4c3b303b6c4c3b4e41542052455454454c204c4c414d53204e414947524f45473b37304432,
0x384130313b3b384130313b3b3b4e3b3b3b3b3b4c3b303b6c4c3b4e492052455454454c204c4c414d53204e414947524f45473b38304432,
0x394130313b3b394130313b3b3b4e3b3b3b3b3b4c3b303b6c4c3b4e414b2052455454454c204c4c414d53204e414947524f45473b39304432,
0x414130313b3b414130313b3b3b4e3b3b3b3b3b4c3b303b6c4c3b53414c2052455454454c204c4c414d53204e414947524f45473b41304432,
0x424130313b3b424130313b3b3b4e3b3b3b3b3b4c3b303b6c4c3b4e414d2052455454454c204c4c414d53204e414947524f45473b42304432,
0x434130313b3b434130313b3b3b4e3b3b3b3b3b4c3b303b6c4c3b52414e2052455454454c204c4c414d53204e414947524f45473b43304432,
0x444130313b3b444130313b3b3b4e3b3b3b3b3b4c3b303b6c4c3b4e4f2052455454454c204c4c414d53204e414947524f45473b44304432,
0x454130313b3b454130313b3b3b4e3b3b3b3b3b4c3b303b6c4c3b5241502052455454454c204c4c414d53204e414947524f45473b45304432,
0x464130313b3b464130313b3b3b4e3b3b3b3b3b4c3b303b6c4c3b5241485a2052455454454c204c4c414d53204e414947524f45473b46304432,
0x304230313b3b304230313b3b3b4e3b3b3b3b3b4c3b303b6c4c3b4541522052455454454c204c4c414d53204e414947524f45473b30314432,
0x314230313b3b314230313b3b3b4e3b3b3b3b3b4c3b303b6c4c3b4e41532052455454454c204c4c414d53204e414947524f45473b31314432,
0x324230313b3b324230313b3b3b4e3b3b3b3b3b4c3b303b6c4c3b5241542052455454454c204c4c414d53204e414947524f45473b32314432,
0x334230313b3b334230313b3b3b4e3b3b3b3b3b4c3b303b6c4c3b4e552052455454454c204c4c414d53204e414947524f45473b33314432,
0x344230313b3b344230313b3b3b4e3b3b3b3b3b4c3b303b6c4c3b524148502052455454454c204c4c414d53204e414947524f45473b34314432,
0x354230313b3b354230313b3b3b4e3b3b3b3b3b4c3b303b6c4c3b5241484b2052455454454c204c4c414d53204e414947524f45473b35314432,
0x364230313b3b364230313b3b3b4e3b3b3b3b3b4c3b303b6c4c3b4e4148472052455454454c204c4c414d53204e414947524f45473b36314432,
0x374230313b3b374230313b3b3b4e3b3b3b3b3b4c3b303b6c4c3b5241512052455454454c204c4c414d53204e414947524f45473b37314432,
0x384230313b3b384230313b3b3b4e3b3b3b3b3b4c3b303b6c4c3b4e4948532052455454454c204c4c414d53204e414947524f45473b38314432,
0x394230313b3b394230313b3b3b4e3b3b3b3b3b4c3b303b6c4c3b4e4948432052455454454c204c4c414d53204e414947524f45473b39314432,
0x414230313b3b414230313b3b3b4e3b3b3b3b3b4c3b303b6c4c3b4e41432052455454454c204c4c414d53204e414947524f45473b41314432,
0x424230313b3b424230313b3b3b4e3b3b3b3b3b4c3b303b6c4c3b4c494a2052455454454c204c4c414d53204e414947524f45473b42314432,
0x434230313b3b434230313b3b3b4e3b3b3b3b3b4c3b303b6c4c3b4c49432052455454454c204c4c414d53204e414947524f45473b43314432,
0x444230313b3b444230313b3b3b4e3b3b3b3b3b4c3b303b6c4c3b524148432052455454454c204c4c414d53204e414947524f45473b44314432,
0x454230313b3b454230313b3b3b4e3b3b3b3b3b4c3b303b6c4c3b4e41582052455454454c204c4c414d53204e414947524f45473b45314432,
0x464230313b3b464230313b3b3b4e3b3b3b3b3b4c3b303b6c4c3b4e41484a2052455454454c204c4c414d53204e414947524f45473b46314432,
0x304330313b3b304330313b3b3b4e3b3b3b3b3b4c3b303b6c4c3b4541482052455454454c204c4c414d53204e414947524f45473b30324432,
0x314330313b3b314330313b3b3b4e3b3b3b3b3b4c3b303b6c4c3b45482052455454454c204c4c414d53204e414947524f45473b31324432,
0x324330313b3b324330313b3b3b4e3b3b3b3b3b4c3b303b6c4c3b4549482052455454454c204c4c414d53204e414947524f45473b32324432,
0x334330313b3b334330313b3b3b4e3b3b3b3b3b4c3b303b6c4c3b45572052455454454c204c4c414d53204e414947524f45473b33324432,
0x344330313b3b344330313b3b3b4e3b3b3b3b3b4c3b303b6c4c3b5241482052455454454c204c4c414d53204e414947524f45473b34324432,
0x354330313b3b354330313b3b3b4e3b3b3b3b3b4c3b303b6c4c3b454f482052455454454c204c4c414d53204e414947524f45473b35324432,
0x374330313b3b374330313b3b3b4e3b3b3b3b3b4c3b303b6c4c3b4e592052455454454c204c4c414d53204e414947524f45473b37324432,
0x444330313b3b444330313b3b3b4e3b3b3b3b3b4c3b303b6c4c3b4e45412052455454454c204c4c414d53204e414947524f45473b44324432,
0x3b3b3b3b3b4e3b3b3b3b3b4c3b303b6f4c3b41592052455454454c204847414e494649543b30334432,
0x3b3b3b3b3b4e3b3b3b3b3b4c3b303b6f4c3b4241592052455454454c204847414e494649543b31334432,
0x3b3b3b3b3b4e3b3b3b3b3b4c3b303b6f4c3b484241592052455454454c204847414e494649543b32334432,
0x3b3b3b3b3b4e3b3b3b3b3b4c3b303b6f4c3b4741592052455454454c204847414e494649543b33334432,
0x3b3b3b3b3b4e3b3b3b3b3b4c3b303b6f4c3b48484741592052455454454c204847414e494649543b34334432,
0x3b3b3b3b3b4e3b3b3b3b3b4c3b303b6f4c3b4a415920594d4544414341205245425245422052455454454c204847414e494649543b35334432,
0x3b3b3b3b3b4e3b3b3b3b3b4c3b303b6f4c3b4a41592052455454454c204847414e494649543b36334432,
0x3b3b3b3b3b4e3b3b3b3b3b4c3b303b6f4c3b4441592052455454454c204847414e494649543b37334432,
0x3b3b3b3b3b4e3b3b3b3b3b4c3b303b6f4c3b484441592052455454454c204847414e494649543b38334432,
0x3b3b3b3b3b4e3b3b3b3b3b4c3b303b6f4c3b444441592052455454454c204847414e494649543b39334432,
0x3b3b3b3b3b4e3b3b3b3b3b4c3b303b6f4c3b48444441592052455454454c204847414e494649543b41334432,
0x3b3b3b3b3b4e3b3b3b3b3b4c3b303b6f4c3b5945592052455454454c204847414e494649543b42334432,
0x3b3b3b3b3b4e3b3b3b3b3b4c3b303b6f4c3b4641592052455454454c204847414e494649543b43334432,
0x3b3b3b3b3b4e3b3b3b3b3b4c3b303b6f4c3b4b41592052455454454c204847414e494649543b44334432,
0x3b3b3b3b3b4e3b3b3b3b3b4c3b303b6f4c3b4b4159204745524155542052455454454c204847414e494649543b45334432,
0x3b3b3b3b3b4e3b3b3b3b3b4c3b303b6f4c3b48484b41592052455454454c204847414e494649543b46334432,
0x3b3b3b3b3b4e3b3b3b3b3b4c3b303b6f4c3b4841592052455454454c204847414e494649543b30344432,
0x3b3b3b3b3b4e3b3b3b3b3b4c3b303b6f4c3b48415920594d4544414341205245425245422052455454454c204847414e494649543b31344432,
0x3b3b3b3b3b4e3b3b3b3b3b4c3b303b6f4c3b484159204745524155542052455454454c204847414e494649543b32344432,
0x3b3b3b3b3b4e3b3b3b3b3b4c3b303b6f4c3b484841592052455454454c204847414e494649543b33344432,
0x3b3b3b3b3b4e3b3b3b3b3b4c3b303b6f4c3b4141592052455454454c204847414e494649543b34344432,
0x3b3b3b3b3b4e3b3b3b3b3b4c3b303b6f4c3b484b41592052455454454c204847414e494649543b35344432,
0x3b3b3b3b3b4e3b3b3b3b3b4c3b303b6f4c3b484b4159204745524155542052455454454c204847414e494649543b36344432,
0x3b3b3b3b3b4e3b3b3b3b3b4c3b303b6f4c3b5141592052455454454c204847414e494649543b37344432,
0x3b3b3b3b3b4e3b3b3b3b3b4c3b303b6f4c3b514159204745524155542052455454454c204847414e494649543b38344432,
0x3b3b3b3b3b4e3b3b3b3b3b4c3b303b6f4c3b49592052455454454c204847414e494649543b39344432,
0x3b3b3b3b3b4e3b3b3b3b3b4c3b303b6f4c3b485a41592052455454454c204847414e494649543b41344432,
0x3b3b3b3b3b4e3b3b3b3b3b4c3b303b6f4c3b485a415920524147474148412052455454454c204847414e494649543b42344432,
0x3b3b3b3b3b4e3b3b3b3b3b4c3b303b6f4c3b485a4159204745524155542052455454454c204847414e494649543b43344432,
0x3b3b3b3b3b4e3b3b3b3b3b4c3b303b6f4c3b4c41592052455454454c204847414e494649543b44344432,
0x3b3b3b3b3b4e3b3b3b3b3b4c3b303b6f4c3b4d41592052455454454c204847414e494649543b45344432,
0x3b3b3b3b3b4e3b3b3b3b3b4c3b303b6f4c3b4e41592052455454454c204847414e494649543b46344432,
0x3b3b3b3b3b4e3b3b3b3b3b4c3b303b6f4c3b4e474159204745524155542052455454454c204847414e494649543b30354432,
0x3b3b3b3b3b4e3b3b3b3b3b4c3b303b6f4c3b474e4159204745524155542052455454454c204847414e494649543b31354432,
0x3b3b3b3b3b4e3b3b3b3b3b4c3b303b6f4c3b5041592052455454454c204847414e494649543b32354432,
0x3b3b3b3b3b4e3b3b3b3b3b4c3b303b6f4c3b55592052455454454c204847414e494649543b33354432,
0x3b3b3b3b3b4e3b3b3b3b3b4c3b303b6f4c3b5241592052455454454c204847414e494649543b34354432,
0x3b3b3b3b3b4e3b3b3b3b3b4c3b303b6f4c3b525241592052455454454c204847414e494649543b35354432,
0x3b3b3b3b3b4e3b3b3b3b3b4c3b303b6f4c3b484741592052455454454c204847414e494649543b36354432,
0x3b3b3b3b3b4e3b3b3b3b3b4c3b303b6f4c3b48474159204745524155542052455454454c204847414e494649543b37354432,
0x3b3b3b3b3b4e3b3b3b3b3b4c3b303b6f4c3b4847415920524559412052455454454c204847414e494649543b38354432,
0x3b3b3b3b3b4e3b3b3b3b3b4c3b303b6f4c3b5341592052455454454c204847414e494649543b39354432,
0x3b3b3b3b3b4e3b3b3b3b3b4c3b303b6f4c3b535341592052455454454c204847414e494649543b41354432,
0x3b3b3b3b3b4e3b3b3b3b3b4c3b303b6f4c3b485341592052455454454c204847414e494649543b42354432,
0x3b3b3b3b3b4e3b3b3b3b3b4c3b303b6f4c3b5441592052455454454c204847414e494649543b43354432,
0x3b3b3b3b3b4e3b3b3b3b3b4c3b303b6f4c3b485441592052455454454c204847414e494649543b44354432,
0x3b3b3b3b3b4e3b3b3b3b3b4c3b303b6f4c3b484341592052455454454c204847414e494649543b45354432,
0x3b3b3b3b3b4e3b3b3b3b3b4c3b303b6f4c3b545441592052455454454c204847414e494649543b46354432,
0x3b3b3b3b3b4e3b3b3b3b3b4c3b303b6f4c3b5641592052455454454c204847414e494649543b30364432,
0x3b3b3b3b3b4e3b3b3b3b3b4c3b303b6f4c3b5741592052455454454c204847414e494649543b31364432,
0x3b3b3b3b3b4e3b3b3b3b3b4c3b303b6f4c3b5941592052455454454c204847414e494649543b32364432,
0x3b3b3b3b3b4e3b3b3b3b3b4c3b303b6f4c3b5a41592052455454454c204847414e494649543b33364432,
0x3b3b3b3b3b4e3b3b3b3b3b4c3b303b6f4c3b5a41592054454d454c4c455741542052455454454c204847414e494649543b34364432,
0x3b3b3b3b3b4e3b3b3b3b3b4c3b303b6f4c3b5a5a41592052455454454c204847414e494649543b35364432,
0x3b3b3b3b3b4e3b3b3b3b3b4c3b303b6f4c3b45592052455454454c204847414e494649543b36364432,
0x3b3b3b3b3b4e3b3b3b3b3b4c3b303b6f4c3b4f592052455454454c204847414e494649543b37364432,
0x3b3b3b3b3b4e3b3b3b3b31364432203e72657075733c3b4c3b303b6d4c3b4b52414d204e4f4954415a494c414942414c2052455454454c205245494649444f4d204847414e494649543b46364432,
0x3b3b3b3b3b4e3b3b3b3b3b4c3b303b6f503b4b52414d20524f54415241504553204847414e494649543b30374432,
0x3b3b3b3b3b4e3b3b3b3b3b4d534e3b393b6e4d3b52454e494f4a20544e414e4f534e4f43204847414e494649543b46374432,
0x3b3b3b3b3b4e3b3b3b3b3b4c3b303b6f4c3b414f4c20454c42414c4c5953204349504f494854453b30384432,
0x3b3b3b3b3b4e3b3b3b3b3b4c3b303b6f4c3b414f4d20454c42414c4c5953204349504f494854453b31384432,
0x3b3b3b3b3b4e3b3b3b3b3b4c3b303b6f4c3b414f5220454c42414c4c5953204349504f494854453b32384432,
0x3b3b3b3b3b4e3b3b3b3b3b4c3b303b6f4c3b414f5320454c42414c4c5953204349504f494854453b33384432,
0x3b3b3b3b3b4e3b3b3b3b3b4c3b303b6f4c3b414f485320454c42414c4c5953204349504f494854453b34384432,
0x3b3b3b3b3b4e3b3b3b3b3b4c3b303b6f4c3b414f4220454c42414c4c5953204349504f494854453b35384432,
0x3b3b3b3b3b4e3b3b3b3b3b4c3b303b6f4c3b414f5420454c42414c4c5953204349504f494854453b36384432,
0x3b3b3b3b3b4e3b3b3b3b3b4c3b303b6f4c3b414f4320454c42414c4c5953204349504f494854453b37384432,
0x3b3b3b3b3b4e3b3b3b3b3b4c3b303b6f4c3b414f4e20454c42414c4c5953204349504f494854453b38384432,
0x3b3b3b3b3b4e3b3b3b3b3b4c3b303b6f4c3b414f594e20454c42414c4c5953204349504f494854453b39384432,
0x3b3b3b3b3b4e3b3b3b3b3b4c3b303b6f4c3b414f204c4154544f4c4720454c42414c4c5953204349504f494854453b41384432,
0x3b3b3b3b3b4e3b3b3b3b3b4c3b303b6f4c3b414f5a20454c42414c4c5953204349504f494854453b42384432,
0x3b3b3b3b3b4e3b3b3b3b3b4c3b303b6f4c3b414f4420454c42414c4c5953204349504f494854453b43384432,
0x3b3b3b3b3b4e3b3b3b3b3b4c3b303b6f4c3b414f444420454c42414c4c5953204349504f494854453b44384432,
0x3b3b3b3b3b4e3b3b3b3b3b4c3b303b6f4c3b414f4a20454c42414c4c5953204349504f494854453b45384432,
0x3b3b3b3b3b4e3b3b3b3b3b4c3b303b6f4c3b414f485420454c42414c4c5953204349504f494854453b46384432,
0x3b3b3b3b3b4e3b3b3b3b3b4c3b303b6f4c3b414f484320454c42414c4c5953204349504f494854453b30394432,
0x3b3b3b3b3b4e3b3b3b3b3b4c3b303b6f4c3b414f485020454c42414c4c5953204349504f494854453b31394432,
0x3b3b3b3b3b4e3b3b3b3b3b4c3b303b6f4c3b414f5020454c42414c4c5953204349504f494854453b32394432,
0x3b3b3b3b3b4e3b3b3b3b3b4c3b303b6f4c3b4157474720454c42414c4c5953204349504f494854453b33394432,
0x3b3b3b3b3b4e3b3b3b3b3b4c3b303b6f4c3b4957474720454c42414c4c5953204349504f494854453b34394432,
0x3b3b3b3b3b4e3b3b3b3b3b4c3b303b6f4c3b454557474720454c42414c4c5953204349504f494854453b35394432,
0x3b3b3b3b3b4e3b3b3b3b3b4c3b303b6f4c3b4557474720454c42414c4c5953204349504f494854453b36394432,
0x3b3b3b3b3b4e3b3b3b3b3b4c3b303b6f4c3b41535320454c42414c4c5953204349504f494854453b30414432,
0x3b3b3b3b3b4e3b3b3b3b3b4c3b303b6f4c3b55535320454c42414c4c5953204349504f494854453b31414432,
0x3b3b3b3b3b4e3b3b3b3b3b4c3b303b6f4c3b49535320454c42414c4c5953204349504f494854453b32414432,
0x3b3b3b3b3b4e3b3b3b3b3b4c3b303b6f4c3b4141535320454c42414c4c5953204349504f494854453b33414432,
0x3b3b3b3b3b4e3b3b3b3b3b4c3b303b6f4c3b4545535320454c42414c4c5953204349504f494854453b34414432,
0x3b3b3b3b3b4e3b3b3b3b3b4c3b303b6f4c3b45535320454c42414c4c5953204349504f494854453b35414432,
0x3b3b3b3b3b4e3b3b3b3b3b4c3b303b6f4c3b4f535320454c42414c4c5953204349504f494854453b36414432,
0x3b3b3b3b3b4e3b3b3b3b3b4c3b303b6f4c3b41434320454c42414c4c5953204349504f494854453b38414432,
0x3b3b3b3b3b4e3b3b3b3b3b4c3b303b6f4c3b55434320454c42414c4c5953204349504f494854453b39414432,
0x3b3b3b3b3b4e3b3b3b3b3b4c3b303b6f4c3b49434320454c42414c4c5953204349504f494854453b41414432,
0x3b3b3b3b3b4e3b3b3b3b3b4c3b303b6f4c3b4141434320454c42414c4c5953204349504f494854453b42414432,
0x3b3b3b3b3b4e3b3b3b3b3b4c3b303b6f4c3b4545434320454c42414c4c5953204349504f494854453b43414432,
0x3b3b3b3b3b4e3b3b3b3b3b4c3b303b6f4c3b45434320454c42414c4c5953204349504f494854453b44414432,
0x3b3b3b3b3b4e3b3b3b3b3b4c3b303b6f4c3b4f434320454c42414c4c5953204349504f494854453b45414432,
0x3b3b3b3b3b4e3b3b3b3b3b4c3b303b6f4c3b415a5a20454c42414c4c5953204349504f494854453b30424432,
0x3b3b3b3b3b4e3b3b3b3b3b4c3b303b6f4c3b555a5a20454c42414c4c5953204349504f494854453b31424432,
0x3b3b3b3b3b4e3b3b3b3b3b4c3b303b6f4c3b495a5a20454c42414c4c5953204349504f494854453b32424432,
0x3b3b3b3b3b4e3b3b3b3b3b4c3b303b6f4c3b41415a5a20454c42414c4c5953204349504f494854453b33424432,
0x3b3b3b3b3b4e3b3b3b3b3b4c3b303b6f4c3b45455a5a20454c42414c4c5953204349504f494854453b34424432,
0x3b3b3b3b3b4e3b3b3b3b3b4c3b303b6f4c3b455a5a20454c42414c4c5953204349504f494854453b35424432,
0x3b3b3b3b3b4e3b3b3b3b3b4c3b303b6f4c3b4f5a5a20454c42414c4c5953204349504f494854453b36424432,
0x3b3b3b3b3b4e3b3b3b3b3b4c3b303b6f4c3b4148434320454c42414c4c5953204349504f494854453b38424432,
0x3b3b3b3b3b4e3b3b3b3b3b4c3b303b6f4c3b5548434320454c42414c4c5953204349504f494854453b39424432,
0x3b3b3b3b3b4e3b3b3b3b3b4c3b303b6f4c3b4948434320454c42414c4c5953204349504f494854453b41424432,
0x3b3b3b3b3b4e3b3b3b3b3b4c3b303b6f4c3b414148434320454c42414c4c5953204349504f494854453b42424432,
0x3b3b3b3b3b4e3b3b3b3b3b4c3b303b6f4c3b454548434320454c42414c4c5953204349504f494854453b43424432,
0x3b3b3b3b3b4e3b3b3b3b3b4c3b303b6f4c3b4548434320454c42414c4c5953204349504f494854453b44424432,
0x3b3b3b3b3b4e3b3b3b3b3b4c3b303b6f4c3b4f48434320454c42414c4c5953204349504f494854453b45424432,
0x3b3b3b3b3b4e3b3b3b3b3b4c3b303b6f4c3b41595120454c42414c4c5953204349504f494854453b30434432,
0x3b3b3b3b3b4e3b3b3b3b3b4c3b303b6f4c3b55595120454c42414c4c5953204349504f494854453b31434432,
0x3b3b3b3b3b4e3b3b3b3b3b4c3b303b6f4c3b49595120454c42414c4c5953204349504f494854453b32434432,
0x3b3b3b3b3b4e3b3b3b3b3b4c3b303b6f4c3b4141595120454c42414c4c5953204349504f494854453b33434432,
0x3b3b3b3b3b4e3b3b3b3b3b4c3b303b6f4c3b4545595120454c42414c4c5953204349504f494854453b34434432,
0x3b3b3b3b3b4e3b3b3b3b3b4c3b303b6f4c3b45595120454c42414c4c5953204349504f494854453b35434432,
0x3b3b3b3b3b4e3b3b3b3b3b4c3b303b6f4c3b4f595120454c42414c4c5953204349504f494854453b36434432,
0x3b3b3b3b3b4e3b3b3b3b3b4c3b303b6f4c3b41594b20454c42414c4c5953204349504f494854453b38434432]

/-- src/u5e/props/UnicodeData.txt lines 10497-10752. -/
def rawUcd41 : List Nat := [
0x3b3b3b3b3b4e3b3b3b3b3b4c3b303b6f4c3b55594b20454c42414c4c5953204349504f494854453b39434432,
0x3b3b3b3b3b4e3b3b3b3b3b4c3b303b6f4c3b49594b20454c42414c4c5953204349504f494854453b41434432,
0x3b3b3b3b3b4e3b3b3b3b3b4c3b303b6f4c3b4141594b20454c42414c4c5953204349504f494854453b42434432,
0x3b3b3b3b3b4e3b3b3b3b3b4c3b303b6f4c3b4545594b20454c42414c4c5953204349504f494854453b43434432,
0x3b3b3b3b3b4e3b3b3b3b3b4c3b303b6f4c3b45594b20454c42414c4c5953204349504f494854453b44434432,
0x3b3b3b3b3b4e3b3b3b3b3b4c3b303b6f4c3b4f594b20454c42414c4c5953204349504f494854453b45434432,
0x3b3b3b3b3b4e3b3b3b3b3b4c3b303b6f4c3b41595820454c42414c4c5953204349504f494854453b30444432,
0x3b3b3b3b3b4e3b3b3b3b3b4c3b303b6f4c3b55595820454c42414c4c5953204349504f494854453b31444432,
0x3b3b3b3b3b4e3b3b3b3b3b4c3b303b6f4c3b49595820454c42414c4c5953204349504f494854453b32444432,
0x3b3b3b3b3b4e3b3b3b3b3b4c3b303b6f4c3b4141595820454c42414c4c5953204349504f494854453b33444432,
0x3b3b3b3b3b4e3b3b3b3b3b4c3b303b6f4c3b4545595820454c42414c4c5953204349504f494854453b34444432,
0x3b3b3b3b3b4e3b3b3b3b3b4c3b303b6f4c3b45595820454c42414c4c5953204349504f494854453b35444432,
0x3b3b3b3b3b4e3b3b3b3b3b4c3b303b6f4c3b4f595820454c42414c4c5953204349504f494854453b36444432,
0x3b3b3b3b3b4e3b3b3b3b3b4c3b303b6f4c3b41594720454c42414c4c5953204349504f494854453b38444432,
0x3b3b3b3b3b4e3b3b3b3b3b4c3b303b6f4c3b55594720454c42414c4c5953204349504f494854453b39444432,
0x3b3b3b3b3b4e3b3b3b3b3b4c3b303b6f4c3b49594720454c42414c4c5953204349504f494854453b41444432,
0x3b3b3b3b3b4e3b3b3b3b3b4c3b303b6f4c3b4141594720454c42414c4c5953204349504f494854453b42444432,
0x3b3b3b3b3b4e3b3b3b3b3b4c3b303b6f4c3b4545594720454c42414c4c5953204349504f494854453b43444432,
0x3b3b3b3b3b4e3b3b3b3b3b4c3b303b6f4c3b45594720454c42414c4c5953204349504f494854453b44444432,
0x3b3b3b3b3b4e3b3b3b3b3b4c3b303b6f4c3b4f594720454c42414c4c5953204349504f494854453b45444432,
0x3b3b3b3b3b4e3b3b3b3b3b4d534e3b3033323b6e4d3b45422052455454454c2043494c4c4952594320474e494e49424d4f433b30454432,
0x3b3b3b3b3b4e3b3b3b3b3b4d534e3b3033323b6e4d3b45562052455454454c2043494c4c4952594320474e494e49424d4f433b31454432,
0x3b3b3b3b3b4e3b3b3b3b3b4d534e3b3033323b6e4d3b4548472052455454454c2043494c4c4952594320474e494e49424d4f433b32454432,
0x3b3b3b3b3b4e3b3b3b3b3b4d534e3b3033323b6e4d3b45442052455454454c2043494c4c4952594320474e494e49424d4f433b33454432,
0x3b3b3b3b3b4e3b3b3b3b3b4d534e3b3033323b6e4d3b45485a2052455454454c2043494c4c4952594320474e494e49424d4f433b34454432,
0x3b3b3b3b3b4e3b3b3b3b3b4d534e3b3033323b6e4d3b455a2052455454454c2043494c4c4952594320474e494e49424d4f433b35454432,
0x3b3b3b3b3b4e3b3b3b3b3b4d534e3b3033323b6e4d3b414b2052455454454c2043494c4c4952594320474e494e49424d4f433b36454432,
0x3b3b3b3b3b4e3b3b3b3b3b4d534e3b3033323b6e4d3b4c452052455454454c2043494c4c4952594320474e494e49424d4f433b37454432,
0x3b3b3b3b3b4e3b3b3b3b3b4d534e3b3033323b6e4d3b4d452052455454454c2043494c4c4952594320474e494e49424d4f433b38454432,
0x3b3b3b3b3b4e3b3b3b3b3b4d534e3b3033323b6e4d3b4e452052455454454c2043494c4c4952594320474e494e49424d4f433b39454432,
0x3b3b3b3b3b4e3b3b3b3b3b4d534e3b3033323b6e4d3b4f2052455454454c2043494c4c4952594320474e494e49424d4f433b41454432,
0x3b3b3b3b3b4e3b3b3b3b3b4d534e3b3033323b6e4d3b45502052455454454c2043494c4c4952594320474e494e49424d4f433b42454432,
0x3b3b3b3b3b4e3b3b3b3b3b4d534e3b3033323b6e4d3b52452052455454454c2043494c4c4952594320474e494e49424d4f433b43454432,
0x3b3b3b3b3b4e3b3b3b3b3b4d534e3b3033323b6e4d3b53452052455454454c2043494c4c4952594320474e494e49424d4f433b44454432,
0x3b3b3b3b3b4e3b3b3b3b3b4d534e3b3033323b6e4d3b45542052455454454c2043494c4c4952594320474e494e49424d4f433b45454432,
0x3b3b3b3b3b4e3b3b3b3b3b4d534e3b3033323b6e4d3b41482052455454454c2043494c4c4952594320474e494e49424d4f433b46454432,
0x3b3b3b3b3b4e3b3b3b3b3b4d534e3b3033323b6e4d3b4553542052455454454c2043494c4c4952594320474e494e49424d4f433b30464432,
0x3b3b3b3b3b4e3b3b3b3b3b4d534e3b3033323b6e4d3b4548432052455454454c2043494c4c4952594320474e494e49424d4f433b31464432,
0x3b3b3b3b3b4e3b3b3b3b3b4d534e3b3033323b6e4d3b4148532052455454454c2043494c4c4952594320474e494e49424d4f433b32464432,
0x3b3b3b3b3b4e3b3b3b3b3b4d534e3b3033323b6e4d3b41484348532052455454454c2043494c4c4952594320474e494e49424d4f433b33464432,
0x3b3b3b3b3b4e3b3b3b3b3b4d534e3b3033323b6e4d3b415449462052455454454c2043494c4c4952594320474e494e49424d4f433b34464432,
0x3b3b3b3b3b4e3b3b3b3b3b4d534e3b3033323b6e4d3b45542d53452052455454454c2043494c4c4952594320474e494e49424d4f433b35464432,
0x3b3b3b3b3b4e3b3b3b3b3b4d534e3b3033323b6e4d3b412052455454454c2043494c4c4952594320474e494e49424d4f433b36464432,
0x3b3b3b3b3b4e3b3b3b3b3b4d534e3b3033323b6e4d3b45492052455454454c2043494c4c4952594320474e494e49424d4f433b37464432,
0x3b3b3b3b3b4e3b3b3b3b3b4d534e3b3033323b6e4d3b5652454a442052455454454c2043494c4c4952594320474e494e49424d4f433b38464432,
0x3b3b3b3b3b4e3b3b3b3b3b4d534e3b3033323b6e4d3b4b552048504152474f4e4f4d2052455454454c2043494c4c4952594320474e494e49424d4f433b39464432,
0x3b3b3b3b3b4e3b3b3b3b3b4d534e3b3033323b6e4d3b5441592052455454454c2043494c4c4952594320474e494e49424d4f433b41464432,
0x3b3b3b3b3b4e3b3b3b3b3b4d534e3b3033323b6e4d3b55592052455454454c2043494c4c4952594320474e494e49424d4f433b42464432,
0x3b3b3b3b3b4e3b3b3b3b3b4d534e3b3033323b6e4d3b41204445494649544f492052455454454c2043494c4c4952594320474e494e49424d4f433b43464432,
0x3b3b3b3b3b4e3b3b3b3b3b4d534e3b3033323b6e4d3b53555920454c5454494c2052455454454c2043494c4c4952594320474e494e49424d4f433b44464432,
0x3b3b3b3b3b4e3b3b3b3b3b4d534e3b3033323b6e4d3b535559204749422052455454454c2043494c4c4952594320474e494e49424d4f433b45464432,
0x3b3b3b3b3b4e3b3b3b3b3b4d534e3b3033323b6e4d3b53555920474942204445494649544f492052455454454c2043494c4c4952594320474e494e49424d4f433b46464432,
0x3b3b3b3b3b4e3b3b3b3b3b4e4f3b303b6f503b52454b52414d204e4f4954555449545342555320454c474e412054484749523b30304532,
0x3b3b3b3b3b4e3b3b3b3b3b4e4f3b303b6f503b52454b52414d204e4f4954555449545342555320444554544f4420454c474e412054484749523b31304532,
0x3b3b3b3b3b593b3b3b3b3b4e4f3b303b69503b54454b43415242204e4f49545554495453425553205446454c3b32304532,
0x3b3b3b3b3b593b3b3b3b3b4e4f3b303b66503b54454b43415242204e4f495455544954534255532054484749523b33304532,
0x3b3b3b3b3b593b3b3b3b3b4e4f3b303b69503b54454b43415242204e4f4954555449545342555320444554544f44205446454c3b34304532,
0x3b3b3b3b3b593b3b3b3b3b4e4f3b303b66503b54454b43415242204e4f4954555449545342555320444554544f442054484749523b35304532,
0x3b3b3b3b3b4e3b3b3b3b3b4e4f3b303b6f503b52454b52414d204e4f4954414c4f505245544e49204445534941523b36304532,
0x3b3b3b3b3b4e3b3b3b3b3b4e4f3b303b6f503b52454b52414d204e4f4954414c4f505245544e4920444554544f44204445534941523b37304532,
0x3b3b3b3b3b4e3b3b3b3b3b4e4f3b303b6f503b52454b52414d204e4f495449534f50534e41525420444554544f443b38304532,
0x3b3b3b3b3b593b3b3b3b3b4e4f3b303b69503b54454b43415242204e4f495449534f50534e415254205446454c3b39304532,
0x3b3b3b3b3b593b3b3b3b3b4e4f3b303b66503b54454b43415242204e4f495449534f50534e4152542054484749523b41304532,
0x3b3b3b3b3b4e3b3b3b3b3b4e4f3b303b6f503b455241555153204445534941523b42304532,
0x3b3b3b3b3b593b3b3b3b3b4e4f3b303b69503b54454b43415242204e4f495353494d4f20444553494152205446454c3b43304532,
0x3b3b3b3b3b593b3b3b3b3b4e4f3b303b66503b54454b43415242204e4f495353494d4f204445534941522054484749523b44304532,
0x3b3b3b3b3b4e3b3b3b3b3b4e4f3b303b6f503b53494e4f524f43204c4149524f544944453b45304532,
0x3b3b3b3b3b4e3b3b3b3b3b4e4f3b303b6f503b534f4850415247415241503b46304532,
0x3b3b3b3b3b4e3b3b3b3b3b4e4f3b303b6f503b534f4850415247415241502044454b524f463b30314532,
0x3b3b3b3b3b4e3b3b3b3b3b4e4f3b303b6f503b534f4850415247415241502044454b524f462044455352455645523b31314532,
0x3b3b3b3b3b4e3b3b3b3b3b4e4f3b303b6f503b454c4f54534149444f5059483b32314532,
0x3b3b3b3b3b4e3b3b3b3b3b4e4f3b303b6f503b534f4c45424f20444554544f443b33314532,
0x3b3b3b3b3b4e3b3b3b3b3b4e4f3b303b6f503b41524f434e412053445241574e574f443b34314532,
0x3b3b3b3b3b4e3b3b3b3b3b4e4f3b303b6f503b41524f434e4120534452415750553b35314532,
0x3b3b3b3b3b4e3b3b3b3b3b4e4f3b303b6f503b454c474e4120474e49544e494f502d544847495220444554544f443b36314532,
0x3b3b3b3b3b4e3b3b3b3b3b4e4f3b303b64503b4e454850594820455551494c424f20454c42554f443b37314532,
0x3b3b3b3b3b4e3b3b3b3b3b4e4f3b303b6f503b474e41424f525245544e49204445545245564e493b38314532,
0x3b3b3b3b3b4e3b3b3b3b3b4e4f3b303b6f503b48434e415242204d4c41503b39314532,
0x3b3b3b3b3b4e3b3b3b3b3b4e4f3b303b64503b5349534552454149442048544957204e45485059483b41314532,
0x3b3b3b3b3b4e3b3b3b3b3b4e4f3b303b6f503b45564f424120474e495220485449572045444c49543b42314532,
0x3b3b3b3b3b593b3b3b3b3b4e4f3b303b69503b54454b43415242204553415248504152415020574f4c205446454c3b43314532,
0x3b3b3b3b3b593b3b3b3b3b4e4f3b303b66503b54454b43415242204553415248504152415020574f4c2054484749523b44314532,
0x3b3b3b3b3b4e3b3b3b3b3b4e4f3b303b6f503b45564f424120544f4420485449572045444c49543b45314532,
0x3b3b3b3b3b4e3b3b3b3b3b4e4f3b303b6f503b574f4c454220544f4420485449572045444c49543b46314532,
0x3b3b3b3b3b593b3b3b3b3b4e4f3b303b69503b4c4c495551204854495720524142204c41434954524556205446454c3b30324532,
0x3b3b3b3b3b593b3b3b3b3b4e4f3b303b66503b4c4c495551204854495720524142204c414349545245562054484749523b31324532,
0x3b3b3b3b3b593b3b3b3b3b4e4f3b303b73503b54454b4341524220464c4148205446454c20504f543b32324532,
0x3b3b3b3b3b593b3b3b3b3b4e4f3b303b65503b54454b4341524220464c414820544847495220504f543b33324532,
0x3b3b3b3b3b593b3b3b3b3b4e4f3b303b73503b54454b4341524220464c4148205446454c204d4f54544f423b34324532,
0x3b3b3b3b3b593b3b3b3b3b4e4f3b303b65503b54454b4341524220464c4148205448474952204d4f54544f423b35324532,
0x3b3b3b3b3b593b3b3b3b3b4e4f3b303b73503b54454b434152422055205359415745444953205446454c3b36324532,
0x3b3b3b3b3b593b3b3b3b3b4e4f3b303b65503b54454b4341524220552053594157454449532054484749523b37324532,
0x3b3b3b3b3b593b3b3b3b3b4e4f3b303b73503b5349534548544e4552415020454c42554f44205446454c3b38324532,
0x3b3b3b3b3b593b3b3b3b3b4e4f3b303b65503b5349534548544e4552415020454c42554f442054484749523b39324532,
0x3b3b3b3b3b4e3b3b3b3b3b4e4f3b303b6f503b4e4f4954415554434e555020544f4420454e4f205245564f2053544f44204f57543b41324532,
0x3b3b3b3b3b4e3b3b3b3b3b4e4f3b303b6f503b4e4f4954415554434e55502053544f44204f5754205245564f20544f4420454e4f3b42324532,
0x3b3b3b3b3b4e3b3b3b3b3b4e4f3b303b6f503b4e4f4954415554434e555020544f442052554f4620444552415551533b43324532,
0x3b3b3b3b3b4e3b3b3b3b3b4e4f3b303b6f503b4b52414d20544f4420455649463b44324532,
0x3b3b3b3b3b4e3b3b3b3b3b4e4f3b303b6f503b4b52414d204e4f4954534555512044455352455645523b45324532,
0x3b3b3b3b3b4e3b3b3b3b3b4e4f3b303b6d4c3b45444c4954204c414349545245563b46324532,
0x3b3b3b3b3b4e3b3b3b3b3b4e4f3b303b6f503b544e494f5020474e49523b30334532,
0x3b3b3b3b3b4e3b3b3b3b3b4e4f3b303b6f503b544f4420454c4444494d20524f544152415045532044524f573b31334532,
0x3b3b3b3b3b4e3b3b3b3b3b4e4f3b303b6f503b414d4d4f432044454e5255543b32334532,
0x3b3b3b3b3b4e3b3b3b3b3b4e4f3b303b6f503b544f44204445534941523b33334532,
0x3b3b3b3b3b4e3b3b3b3b3b4e4f3b303b6f503b414d4d4f43204445534941523b34334532,
0x3b3b3b3b3b4e3b3b3b3b3b4e4f3b303b6f503b4e4f4c4f43494d45532044454e5255543b35334532,
0x3b3b3b3b3b4e3b3b3b3b3b4e4f3b303b6f503b4452415547205446454c2048544957205245474741443b36334532,
0x3b3b3b3b3b4e3b3b3b3b3b4e4f3b303b6f503b44524155472054484749522048544957205245474741443b37334532,
0x3b3b3b3b3b4e3b3b3b3b3b4e4f3b303b6f503b5245474741442044454e5255543b38334532,
0x3b3b3b3b3b4e3b3b3b3b3b4e4f3b303b6f503b4e474953204e4f495443455320464c414820504f543b39334532,
0x3b3b3b3b3b4e3b3b3b3b3b4e4f3b303b64503b48534144204d452d4f57543b41334532,
0x3b3b3b3b3b4e3b3b3b3b3b4e4f3b303b64503b48534144204d452d45455248543b42334532,
0x3b3b3b3b3b4e3b3b3b3b3b4e4f3b303b6f503b504f5453204c4c554620434948504152474f4e4554533b43334532,
0x3b3b3b3b3b4e3b3b3b3b3b4e4f3b303b6f503b53544f4420584953204c414349545245563b44334532,
0x3b3b3b3b3b4e3b3b3b3b3b4e4f3b303b6f503b454e494c204c4143495452455620594c474749573b45334532,
0x3b3b3b3b3b4e3b3b3b3b3b4e4f3b303b6f503b4d554c5554495041433b46334532,
0x3b3b3b3b3b4e3b3b3b3b3b4e4f3b303b64503b4e454850594820454c42554f443b30344532,
0x3b3b3b3b3b4e3b3b3b3b3b4e4f3b303b6f503b414d4d4f432044455352455645523b31344532,
0x3b3b3b3b3b4e3b3b3b3b3b4e4f3b303b73503b4b52414d204e4f495441544f555120392d44455352455645522d574f4c20454c42554f443b32344532,
0x3b3b3b3b3b4e3b3b3b3b3b4e4f3b303b6f503b4e5255545055205446454c204854495720485341443b33344532,
0x3b3b3b3b3b4e3b3b3b3b3b4e4f3b303b6f503b4b52414d204e4f49534e455053555320454c42554f443b34344532,
0x3b3b3b3b3b4e3b3b3b3b3b4e4f3b303b6f533b544145504552204c414349444152204b4a433b30384532,
0x3b3b3b3b3b4e3b3b3b3b3b4e4f3b303b6f533b4646494c43204c414349444152204b4a433b31384532,
0x3b3b3b3b3b4e3b3b3b3b3b4e4f3b303b6f533b454e4f20444e4f434553204c414349444152204b4a433b32384532,
0x3b3b3b3b3b4e3b3b3b3b3b4e4f3b303b6f533b4f575420444e4f434553204c414349444152204b4a433b33384532,
0x3b3b3b3b3b4e3b3b3b3b3b4e4f3b303b6f533b454552485420444e4f434553204c414349444152204b4a433b34384532,
0x3b3b3b3b3b4e3b3b3b3b3b4e4f3b303b6f533b4e4f53524550204c414349444152204b4a433b35384532,
0x3b3b3b3b3b4e3b3b3b3b3b4e4f3b303b6f533b584f42204c414349444152204b4a433b36384532,
0x3b3b3b3b3b4e3b3b3b3b3b4e4f3b303b6f533b454c424154204c414349444152204b4a433b37384532,
0x3b3b3b3b3b4e3b3b3b3b3b4e4f3b303b6f533b454e4f204546494e4b204c414349444152204b4a433b38384532,
0x3b3b3b3b3b4e3b3b3b3b3b4e4f3b303b6f533b4f5754204546494e4b204c414349444152204b4a433b39384532,
0x3b3b3b3b3b4e3b3b3b3b3b4e4f3b303b6f533b4e4f4954414e49564944204c414349444152204b4a433b41384532,
0x3b3b3b3b3b4e3b3b3b3b3b4e4f3b303b6f533b4c414553204c414349444152204b4a433b42384532,
0x3b3b3b3b3b4e3b3b3b3b3b4e4f3b303b6f533b454e4f204c4c414d53204c414349444152204b4a433b43384532,
0x3b3b3b3b3b4e3b3b3b3b3b4e4f3b303b6f533b4f5754204c4c414d53204c414349444152204b4a433b44384532,
0x3b3b3b3b3b4e3b3b3b3b3b4e4f3b303b6f533b454e4f20454d414c204c414349444152204b4a433b45384532,
0x3b3b3b3b3b4e3b3b3b3b3b4e4f3b303b6f533b4f575420454d414c204c414349444152204b4a433b46384532,
0x3b3b3b3b3b4e3b3b3b3b3b4e4f3b303b6f533b454552485420454d414c204c414349444152204b4a433b30394532,
0x3b3b3b3b3b4e3b3b3b3b3b4e4f3b303b6f533b52554f4620454d414c204c414349444152204b4a433b31394532,
0x3b3b3b3b3b4e3b3b3b3b3b4e4f3b303b6f533b454b414e53204c414349444152204b4a433b32394532,
0x3b3b3b3b3b4e3b3b3b3b3b4e4f3b303b6f533b444145524854204c414349444152204b4a433b33394532,
0x3b3b3b3b3b4e3b3b3b3b3b4e4f3b303b6f533b454e4f2054554f4e53204c414349444152204b4a433b34394532,
0x3b3b3b3b3b4e3b3b3b3b3b4e4f3b303b6f533b4f57542054554f4e53204c414349444152204b4a433b35394532,
0x3b3b3b3b3b4e3b3b3b3b3b4e4f3b303b6f533b454e4f205452414548204c414349444152204b4a433b36394532,
0x3b3b3b3b3b4e3b3b3b3b3b4e4f3b303b6f533b4f5754205452414548204c414349444152204b4a433b37394532,
0x3b3b3b3b3b4e3b3b3b3b3b4e4f3b303b6f533b444e4148204c414349444152204b4a433b38394532,
0x3b3b3b3b3b4e3b3b3b3b3b4e4f3b303b6f533b504152204c414349444152204b4a433b39394532,
0x3b3b3b3b3b4e3b3b3b3b3b4e4f3b303b6f533b454b4f4843204c414349444152204b4a433b42394532,
0x3b3b3b3b3b4e3b3b3b3b3b4e4f3b303b6f533b4e5553204c414349444152204b4a433b43394532,
0x3b3b3b3b3b4e3b3b3b3b3b4e4f3b303b6f533b4e4f4f4d204c414349444152204b4a433b44394532,
0x3b3b3b3b3b4e3b3b3b3b3b4e4f3b303b6f533b4854414544204c414349444152204b4a433b45394532,
0x3b3b3b3b3b4e3b3b3b3b44434236203e7461706d6f633c3b4e4f3b303b6f533b524548544f4d204c414349444152204b4a433b46394532,
0x3b3b3b3b3b4e3b3b3b3b3b4e4f3b303b6f533b4e41494c49564943204c414349444152204b4a433b30414532,
0x3b3b3b3b3b4e3b3b3b3b3b4e4f3b303b6f533b454e4f205245544157204c414349444152204b4a433b31414532,
0x3b3b3b3b3b4e3b3b3b3b3b4e4f3b303b6f533b4f5754205245544157204c414349444152204b4a433b32414532,
0x3b3b3b3b3b4e3b3b3b3b3b4e4f3b303b6f533b45524946204c414349444152204b4a433b33414532,
0x3b3b3b3b3b4e3b3b3b3b3b4e4f3b303b6f533b454e4f20574150204c414349444152204b4a433b34414532,
0x3b3b3b3b3b4e3b3b3b3b3b4e4f3b303b6f533b4f575420574150204c414349444152204b4a433b35414532,
0x3b3b3b3b3b4e3b3b3b3b3b4e4f3b303b6f533b4b4e555254204545525420464c41482044454946494c504d4953204c414349444152204b4a433b36414532,
0x3b3b3b3b3b4e3b3b3b3b3b4e4f3b303b6f533b574f43204c414349444152204b4a433b37414532,
0x3b3b3b3b3b4e3b3b3b3b3b4e4f3b303b6f533b474f44204c414349444152204b4a433b38414532,
0x3b3b3b3b3b4e3b3b3b3b3b4e4f3b303b6f533b4544414a204c414349444152204b4a433b39414532,
0x3b3b3b3b3b4e3b3b3b3b3b4e4f3b303b6f533b48544f4c4320464f20544c4f42204c414349444152204b4a433b41414532,
0x3b3b3b3b3b4e3b3b3b3b3b4e4f3b303b6f533b455945204c414349444152204b4a433b42414532,
0x3b3b3b3b3b4e3b3b3b3b3b4e4f3b303b6f533b454e4f20544952495053204c414349444152204b4a433b43414532,
0x3b3b3b3b3b4e3b3b3b3b3b4e4f3b303b6f533b4f575420544952495053204c414349444152204b4a433b44414532,
0x3b3b3b3b3b4e3b3b3b3b3b4e4f3b303b6f533b4f4f424d4142204c414349444152204b4a433b45414532,
0x3b3b3b3b3b4e3b3b3b3b3b4e4f3b303b6f533b4b4c4953204c414349444152204b4a433b46414532,
0x3b3b3b3b3b4e3b3b3b3b3b4e4f3b303b6f533b4b4c49532044454946494c504d49532d43204c414349444152204b4a433b30424532,
0x3b3b3b3b3b4e3b3b3b3b3b4e4f3b303b6f533b454e4f2054454e204c414349444152204b4a433b31424532,
0x3b3b3b3b3b4e3b3b3b3b3b4e4f3b303b6f533b4f57542054454e204c414349444152204b4a433b32424532,
0x3b3b3b3b3b4e3b3b3b3b3b4e4f3b303b6f533b45455248542054454e204c414349444152204b4a433b33424532,
0x3b3b3b3b3b4e3b3b3b3b3b4e4f3b303b6f533b52554f462054454e204c414349444152204b4a433b34424532,
0x3b3b3b3b3b4e3b3b3b3b3b4e4f3b303b6f533b4853454d204c414349444152204b4a433b35424532,
0x3b3b3b3b3b4e3b3b3b3b3b4e4f3b303b6f533b5045454853204c414349444152204b4a433b36424532,
0x3b3b3b3b3b4e3b3b3b3b3b4e4f3b303b6f533b4d4152204c414349444152204b4a433b37424532,
0x3b3b3b3b3b4e3b3b3b3b3b4e4f3b303b6f533b455745204c414349444152204b4a433b38424532,
0x3b3b3b3b3b4e3b3b3b3b3b4e4f3b303b6f533b444c4f204c414349444152204b4a433b39424532,
0x3b3b3b3b3b4e3b3b3b3b3b4e4f3b303b6f533b454e4f204853555242204c414349444152204b4a433b41424532,
0x3b3b3b3b3b4e3b3b3b3b3b4e4f3b303b6f533b4f5754204853555242204c414349444152204b4a433b42424532,
0x3b3b3b3b3b4e3b3b3b3b3b4e4f3b303b6f533b5441454d204c414349444152204b4a433b43424532,
0x3b3b3b3b3b4e3b3b3b3b3b4e4f3b303b6f533b524154524f4d204c414349444152204b4a433b44424532,
0x3b3b3b3b3b4e3b3b3b3b3b4e4f3b303b6f533b454e4f205353415247204c414349444152204b4a433b45424532,
0x3b3b3b3b3b4e3b3b3b3b3b4e4f3b303b6f533b4f5754205353415247204c414349444152204b4a433b46424532,
0x3b3b3b3b3b4e3b3b3b3b3b4e4f3b303b6f533b4545524854205353415247204c414349444152204b4a433b30434532,
0x3b3b3b3b3b4e3b3b3b3b3b4e4f3b303b6f533b5245474954204c414349444152204b4a433b31434532,
0x3b3b3b3b3b4e3b3b3b3b3b4e4f3b303b6f533b534548544f4c43204c414349444152204b4a433b32434532,
0x3b3b3b3b3b4e3b3b3b3b3b4e4f3b303b6f533b454e4f2054534557204c414349444152204b4a433b33434532,
0x3b3b3b3b3b4e3b3b3b3b3b4e4f3b303b6f533b4f57542054534557204c414349444152204b4a433b34434532,
0x3b3b3b3b3b4e3b3b3b3b3b4e4f3b303b6f533b4545532044454946494c504d49532d43204c414349444152204b4a433b35434532,
0x3b3b3b3b3b4e3b3b3b3b3b4e4f3b303b6f533b4e524f482044454946494c504d4953204c414349444152204b4a433b36434532,
0x3b3b3b3b3b4e3b3b3b3b3b4e4f3b303b6f533b4e524f48204c414349444152204b4a433b37434532,
0x3b3b3b3b3b4e3b3b3b3b3b4e4f3b303b6f533b4843454550532044454946494c504d49532d43204c414349444152204b4a433b38434532,
0x3b3b3b3b3b4e3b3b3b3b3b4e4f3b303b6f533b4c4c4548532044454946494c504d49532d43204c414349444152204b4a433b39434532,
0x3b3b3b3b3b4e3b3b3b3b3b4e4f3b303b6f533b544f4f46204c414349444152204b4a433b41434532,
0x3b3b3b3b3b4e3b3b3b3b3b4e4f3b303b6f533b545241432044454946494c504d49532d43204c414349444152204b4a433b42434532,
0x3b3b3b3b3b4e3b3b3b3b3b4e4f3b303b6f533b4b4c41572044454946494c504d4953204c414349444152204b4a433b43434532,
0x3b3b3b3b3b4e3b3b3b3b3b4e4f3b303b6f533b454e4f204b4c4157204c414349444152204b4a433b44434532,
0x3b3b3b3b3b4e3b3b3b3b3b4e4f3b303b6f533b4f5754204b4c4157204c414349444152204b4a433b45434532,
0x3b3b3b3b3b4e3b3b3b3b3b4e4f3b303b6f533b59544943204c414349444152204b4a433b46434532,
0x3b3b3b3b3b4e3b3b3b3b3b4e4f3b303b6f533b444c4f472044454946494c504d49532d43204c414349444152204b4a433b30444532,
0x3b3b3b3b3b4e3b3b3b3b3b4e4f3b303b6f533b454e4f20474e4f4c204c414349444152204b4a433b31444532,
0x3b3b3b3b3b4e3b3b3b3b3b4e4f3b303b6f533b4f575420474e4f4c204c414349444152204b4a433b32444532,
0x3b3b3b3b3b4e3b3b3b3b3b4e4f3b303b6f533b474e4f4c2044454946494c504d49532d43204c414349444152204b4a433b33444532,
0x3b3b3b3b3b4e3b3b3b3b3b4e4f3b303b6f533b455441472044454946494c504d49532d43204c414349444152204b4a433b34444532,
0x3b3b3b3b3b4e3b3b3b3b3b4e4f3b303b6f533b454e4f20444e554f4d204c414349444152204b4a433b35444532,
0x3b3b3b3b3b4e3b3b3b3b3b4e4f3b303b6f533b4f575420444e554f4d204c414349444152204b4a433b36444532,
0x3b3b3b3b3b4e3b3b3b3b3b4e4f3b303b6f533b4e494152204c414349444152204b4a433b37444532,
0x3b3b3b3b3b4e3b3b3b3b3b4e4f3b303b6f533b45554c42204c414349444152204b4a433b38444532,
0x3b3b3b3b3b4e3b3b3b3b3b4e4f3b303b6f533b5245485441454c2044454e4e41542044454946494c504d49532d43204c414349444152204b4a433b39444532,
0x3b3b3b3b3b4e3b3b3b3b3b4e4f3b303b6f533b4641454c2044454946494c504d49532d43204c414349444152204b4a433b41444532,
0x3b3b3b3b3b4e3b3b3b3b3b4e4f3b303b6f533b444e49572044454946494c504d49532d43204c414349444152204b4a433b42444532,
0x3b3b3b3b3b4e3b3b3b3b3b4e4f3b303b6f533b594c462044454946494c504d49532d43204c414349444152204b4a433b43444532,
0x3b3b3b3b3b4e3b3b3b3b3b4e4f3b303b6f533b454e4f20544145204c414349444152204b4a433b44444532,
0x3b3b3b3b3b4e3b3b3b3b3b4e4f3b303b6f533b4f575420544145204c414349444152204b4a433b45444532,
0x3b3b3b3b3b4e3b3b3b3b3b4e4f3b303b6f533b454552485420544145204c414349444152204b4a433b46444532,
0x3b3b3b3b3b4e3b3b3b3b3b4e4f3b303b6f533b5441452044454946494c504d49532d43204c414349444152204b4a433b30454532,
0x3b3b3b3b3b4e3b3b3b3b3b4e4f3b303b6f533b44414548204c414349444152204b4a433b31454532,
0x3b3b3b3b3b4e3b3b3b3b3b4e4f3b303b6f533b4553524f482044454946494c504d49532d43204c414349444152204b4a433b32454532,
0x3b3b3b3b3b4e3b3b3b3b3b4e4f3b303b6f533b454e4f42204c414349444152204b4a433b33454532,
0x3b3b3b3b3b4e3b3b3b3b3b4e4f3b303b6f533b54534f4847204c414349444152204b4a433b34454532,
0x3b3b3b3b3b4e3b3b3b3b3b4e4f3b303b6f533b485349462044454946494c504d49532d43204c414349444152204b4a433b35454532,
0x3b3b3b3b3b4e3b3b3b3b3b4e4f3b303b6f533b445249422044454946494c504d49532d43204c414349444152204b4a433b36454532,
0x3b3b3b3b3b4e3b3b3b3b3b4e4f3b303b6f533b544c41532044454946494c504d49532d43204c414349444152204b4a433b37454532,
0x3b3b3b3b3b4e3b3b3b3b3b4e4f3b303b6f533b54414548572044454946494c504d4953204c414349444152204b4a433b38454532,
0x3b3b3b3b3b4e3b3b3b3b3b4e4f3b303b6f533b574f4c4c45592044454946494c504d4953204c414349444152204b4a433b39454532,
0x3b3b3b3b3b4e3b3b3b3b3b4e4f3b303b6f533b474f52462044454946494c504d49532d43204c414349444152204b4a433b41454532,
0x3b3b3b3b3b4e3b3b3b3b3b4e4f3b303b6f533b4e4556452044454946494c504d49532d4a204c414349444152204b4a433b42454532,
0x3b3b3b3b3b4e3b3b3b3b3b4e4f3b303b6f533b4e4556452044454946494c504d49532d43204c414349444152204b4a433b43454532,
0x3b3b3b3b3b4e3b3b3b3b3b4e4f3b303b6f533b48544f4f542044454946494c504d49532d4a204c414349444152204b4a433b44454532,
0x3b3b3b3b3b4e3b3b3b3b3b4e4f3b303b6f533b48544f4f542044454946494c504d49532d43204c414349444152204b4a433b45454532,
0x3b3b3b3b3b4e3b3b3b3b3b4e4f3b303b6f533b4e4f474152442044454946494c504d49532d4a204c414349444152204b4a433b46454532,
0x3b3b3b3b3b4e3b3b3b3b3b4e4f3b303b6f533b4e4f474152442044454946494c504d49532d43204c414349444152204b4a433b30464532,
0x3b3b3b3b3b4e3b3b3b3b3b4e4f3b303b6f533b454c54525554204c414349444152204b4a433b31464532,
0x3b3b3b3b3b4e3b3b3b3b3b4e4f3b303b6f533b454c545255542044454946494c504d49532d4a204c414349444152204b4a433b32464532,
0x3b3b3b3b3b4e3b3b3b3b46394639203e7461706d6f633c3b4e4f3b303b6f533b454c545255542044454946494c504d49532d43204c414349444152204b4a433b33464532,
0x3b3b3b3b3b4e3b3b3b3b30304534203e7461706d6f633c3b4e4f3b303b6f533b454e4f204c414349444152204958474e414b3b30304632,
0x3b3b3b3b3b4e3b3b3b3b38324534203e7461706d6f633c3b4e4f3b303b6f533b454e494c204c414349444152204958474e414b3b31304632,
0x3b3b3b3b3b4e3b3b3b3b36334534203e7461706d6f633c3b4e4f3b303b6f533b544f44204c414349444152204958474e414b3b32304632,
0x3b3b3b3b3b4e3b3b3b3b46334534203e7461706d6f633c3b4e4f3b303b6f533b4853414c53204c414349444152204958474e414b3b33304632,
0x3b3b3b3b3b4e3b3b3b3b39354534203e7461706d6f633c3b4e4f3b303b6f533b444e4f434553204c414349444152204958474e414b3b34304632,
0x3b3b3b3b3b4e3b3b3b3b35384534203e7461706d6f633c3b4e4f3b303b6f533b4b4f4f48204c414349444152204958474e414b3b35304632,
0x3b3b3b3b3b4e3b3b3b3b43384534203e7461706d6f633c3b4e4f3b303b6f533b4f5754204c414349444152204958474e414b3b36304632,
0x3b3b3b3b3b4e3b3b3b3b30414534203e7461706d6f633c3b4e4f3b303b6f533b44494c204c414349444152204958474e414b3b37304632,
0x3b3b3b3b3b4e3b3b3b3b41424534203e7461706d6f633c3b4e4f3b303b6f533b4e414d204c414349444152204958474e414b3b38304632,
0x3b3b3b3b3b4e3b3b3b3b46333135203e7461706d6f633c3b4e4f3b303b6f533b5347454c204c414349444152204958474e414b3b39304632,
0x3b3b3b3b3b4e3b3b3b3b35363135203e7461706d6f633c3b4e4f3b303b6f533b5245544e45204c414349444152204958474e414b3b41304632,
0x3b3b3b3b3b4e3b3b3b3b42363135203e7461706d6f633c3b4e4f3b303b6f533b5448474945204c414349444152204958474e414b3b42304632,
0x3b3b3b3b3b4e3b3b3b3b32383135203e7461706d6f633c3b4e4f3b303b6f533b584f42204e574f44204c414349444152204958474e414b3b43304632,
0x3b3b3b3b3b4e3b3b3b3b36393135203e7461706d6f633c3b4e4f3b303b6f533b5245564f43204c414349444152204958474e414b3b44304632,
0x3b3b3b3b3b4e3b3b3b3b42413135203e7461706d6f633c3b4e4f3b303b6f533b454349204c414349444152204958474e414b3b45304632,
0x3b3b3b3b3b4e3b3b3b3b30453135203e7461706d6f633c3b4e4f3b303b6f533b454c424154204c414349444152204958474e414b3b46304632,
0x3b3b3b3b3b4e3b3b3b3b35463135203e7461706d6f633c3b4e4f3b303b6f533b584f42204e45504f204c414349444152204958474e414b3b30314632,
0x3b3b3b3b3b4e3b3b3b3b30303235203e7461706d6f633c3b4e4f3b303b6f533b4546494e4b204c414349444152204958474e414b3b31314632,
0x3b3b3b3b3b4e3b3b3b3b42393235203e7461706d6f633c3b4e4f3b303b6f533b5245574f50204c414349444152204958474e414b3b32314632,
0x3b3b3b3b3b4e3b3b3b3b39463235203e7461706d6f633c3b4e4f3b303b6f533b50415257204c414349444152204958474e414b3b33314632]

/-- src/u5e/props/UnicodeData.txt lines 10753-11008. -/
def rawUcd42 : List Nat := [
0x3b3b3b3b3b4e3b3b3b3b35313335203e7461706d6f633c3b4e4f3b303b6f533b4e4f4f5053204c414349444152204958474e414b3b34314632,
0x3b3b3b3b3b4e3b3b3b3b41313335203e7461706d6f633c3b4e4f3b303b6f533b584f42204e45504f205448474952204c414349444152204958474e414b3b35314632,
0x3b3b3b3b3b4e3b3b3b3b38333335203e7461706d6f633c3b4e4f3b303b6f533b455255534f4c434e4520474e49444948204c414349444152204958474e414b3b36314632,
0x3b3b3b3b3b4e3b3b3b3b31343335203e7461706d6f633c3b4e4f3b303b6f533b4e4554204c414349444152204958474e414b3b37314632,
0x3b3b3b3b3b4e3b3b3b3b43353335203e7461706d6f633c3b4e4f3b303b6f533b4e4f4954414e49564944204c414349444152204958474e414b3b38314632,
0x3b3b3b3b3b4e3b3b3b3b39363335203e7461706d6f633c3b4e4f3b303b6f533b4c414553204c414349444152204958474e414b3b39314632,
0x3b3b3b3b3b4e3b3b3b3b32383335203e7461706d6f633c3b4e4f3b303b6f533b4646494c43204c414349444152204958474e414b3b41314632,
0x3b3b3b3b3b4e3b3b3b3b36423335203e7461706d6f633c3b4e4f3b303b6f533b45544156495250204c414349444152204958474e414b3b42314632,
0x3b3b3b3b3b4e3b3b3b3b38433335203e7461706d6f633c3b4e4f3b303b6f533b4e49414741204c414349444152204958474e414b3b43314632,
0x3b3b3b3b3b4e3b3b3b3b33453335203e7461706d6f633c3b4e4f3b303b6f533b4854554f4d204c414349444152204958474e414b3b44314632,
0x3b3b3b3b3b4e3b3b3b3b37443635203e7461706d6f633c3b4e4f3b303b6f533b455255534f4c434e45204c414349444152204958474e414b3b45314632,
0x3b3b3b3b3b4e3b3b3b3b46313735203e7461706d6f633c3b4e4f3b303b6f533b4854524145204c414349444152204958474e414b3b46314632,
0x3b3b3b3b3b4e3b3b3b3b42453835203e7461706d6f633c3b4e4f3b303b6f533b52414c4f484353204c414349444152204958474e414b3b30324632,
0x3b3b3b3b3b4e3b3b3b3b32303935203e7461706d6f633c3b4e4f3b303b6f533b4f47204c414349444152204958474e414b3b31324632,
0x3b3b3b3b3b4e3b3b3b3b41303935203e7461706d6f633c3b4e4f3b303b6f533b594c574f4c53204f47204c414349444152204958474e414b3b32324632,
0x3b3b3b3b3b4e3b3b3b3b35313935203e7461706d6f633c3b4e4f3b303b6f533b474e494e455645204c414349444152204958474e414b3b33324632,
0x3b3b3b3b3b4e3b3b3b3b37323935203e7461706d6f633c3b4e4f3b303b6f533b474942204c414349444152204958474e414b3b34324632,
0x3b3b3b3b3b4e3b3b3b3b33373935203e7461706d6f633c3b4e4f3b303b6f533b4e414d4f57204c414349444152204958474e414b3b35324632,
0x3b3b3b3b3b4e3b3b3b3b30354235203e7461706d6f633c3b4e4f3b303b6f533b444c494843204c414349444152204958474e414b3b36324632,
0x3b3b3b3b3b4e3b3b3b3b30384235203e7461706d6f633c3b4e4f3b303b6f533b464f4f52204c414349444152204958474e414b3b37324632,
0x3b3b3b3b3b4e3b3b3b3b38464235203e7461706d6f633c3b4e4f3b303b6f533b48434e49204c414349444152204958474e414b3b38324632,
0x3b3b3b3b3b4e3b3b3b3b46304335203e7461706d6f633c3b4e4f3b303b6f533b4c4c414d53204c414349444152204958474e414b3b39324632,
0x3b3b3b3b3b4e3b3b3b3b32324335203e7461706d6f633c3b4e4f3b303b6f533b454d414c204c414349444152204958474e414b3b41324632,
0x3b3b3b3b3b4e3b3b3b3b38334335203e7461706d6f633c3b4e4f3b303b6f533b455350524f43204c414349444152204958474e414b3b42324632,
0x3b3b3b3b3b4e3b3b3b3b45364335203e7461706d6f633c3b4e4f3b303b6f533b54554f525053204c414349444152204958474e414b3b43324632,
0x3b3b3b3b3b4e3b3b3b3b31374335203e7461706d6f633c3b4e4f3b303b6f533b4e4941544e554f4d204c414349444152204958474e414b3b44324632,
0x3b3b3b3b3b4e3b3b3b3b42444435203e7461706d6f633c3b4e4f3b303b6f533b5245564952204c414349444152204958474e414b3b45324632,
0x3b3b3b3b3b4e3b3b3b3b35454435203e7461706d6f633c3b4e4f3b303b6f533b4b524f57204c414349444152204958474e414b3b46324632,
0x3b3b3b3b3b4e3b3b3b3b31464435203e7461706d6f633c3b4e4f3b303b6f533b464c4553454e4f204c414349444152204958474e414b3b30334632,
0x3b3b3b3b3b4e3b3b3b3b45464435203e7461706d6f633c3b4e4f3b303b6f533b4e4142525554204c414349444152204958474e414b3b31334632,
0x3b3b3b3b3b4e3b3b3b3b32374535203e7461706d6f633c3b4e4f3b303b6f533b595244204c414349444152204958474e414b3b32334632,
0x3b3b3b3b3b4e3b3b3b3b41374535203e7461706d6f633c3b4e4f3b303b6f533b4441455248542054524f4853204c414349444152204958474e414b3b33334632,
0x3b3b3b3b3b4e3b3b3b3b46374535203e7461706d6f633c3b4e4f3b303b6f533b4646494c4320444554544f44204c414349444152204958474e414b3b34334632,
0x3b3b3b3b3b4e3b3b3b3b34464535203e7461706d6f633c3b4e4f3b303b6f533b45444952545320474e4f4c204c414349444152204958474e414b3b35334632,
0x3b3b3b3b3b4e3b3b3b3b45464535203e7461706d6f633c3b4e4f3b303b6f533b53444e4148204f5754204c414349444152204958474e414b3b36334632,
0x3b3b3b3b3b4e3b3b3b3b42304635203e7461706d6f633c3b4e4f3b303b6f533b544f4f4853204c414349444152204958474e414b3b37334632,
0x3b3b3b3b3b4e3b3b3b3b33314635203e7461706d6f633c3b4e4f3b303b6f533b574f42204c414349444152204958474e414b3b38334632,
0x3b3b3b3b3b4e3b3b3b3b30354635203e7461706d6f633c3b4e4f3b303b6f533b54554f4e53204c414349444152204958474e414b3b39334632,
0x3b3b3b3b3b4e3b3b3b3b31364635203e7461706d6f633c3b4e4f3b303b6f533b454c5453495242204c414349444152204958474e414b3b41334632,
0x3b3b3b3b3b4e3b3b3b3b33374635203e7461706d6f633c3b4e4f3b303b6f533b50455453204c414349444152204958474e414b3b42334632,
0x3b3b3b3b3b4e3b3b3b3b33434635203e7461706d6f633c3b4e4f3b303b6f533b5452414548204c414349444152204958474e414b3b43334632,
0x3b3b3b3b3b4e3b3b3b3b38303236203e7461706d6f633c3b4e4f3b303b6f533b445245424c4148204c414349444152204958474e414b3b44334632,
0x3b3b3b3b3b4e3b3b3b3b36333236203e7461706d6f633c3b4e4f3b303b6f533b524f4f44204c414349444152204958474e414b3b45334632,
0x3b3b3b3b3b4e3b3b3b3b42343236203e7461706d6f633c3b4e4f3b303b6f533b444e4148204c414349444152204958474e414b3b46334632,
0x3b3b3b3b3b4e3b3b3b3b46323536203e7461706d6f633c3b4e4f3b303b6f533b48434e415242204c414349444152204958474e414b3b30344632,
0x3b3b3b3b3b4e3b3b3b3b34333536203e7461706d6f633c3b4e4f3b303b6f533b504152204c414349444152204958474e414b3b31344632,
0x3b3b3b3b3b4e3b3b3b3b37383536203e7461706d6f633c3b4e4f3b303b6f533b545049524353204c414349444152204958474e414b3b32344632,
0x3b3b3b3b3b4e3b3b3b3b37393536203e7461706d6f633c3b4e4f3b303b6f533b524550504944204c414349444152204958474e414b3b33344632,
0x3b3b3b3b3b4e3b3b3b3b34413536203e7461706d6f633c3b4e4f3b303b6f533b455841204c414349444152204958474e414b3b34344632,
0x3b3b3b3b3b4e3b3b3b3b39423536203e7461706d6f633c3b4e4f3b303b6f533b455241555153204c414349444152204958474e414b3b35344632,
0x3b3b3b3b3b4e3b3b3b3b30453536203e7461706d6f633c3b4e4f3b303b6f533b544f4e204c414349444152204958474e414b3b36344632,
0x3b3b3b3b3b4e3b3b3b3b35453536203e7461706d6f633c3b4e4f3b303b6f533b4e5553204c414349444152204958474e414b3b37344632,
0x3b3b3b3b3b4e3b3b3b3b30463636203e7461706d6f633c3b4e4f3b303b6f533b594153204c414349444152204958474e414b3b38344632,
0x3b3b3b3b3b4e3b3b3b3b38303736203e7461706d6f633c3b4e4f3b303b6f533b4e4f4f4d204c414349444152204958474e414b3b39344632,
0x3b3b3b3b3b4e3b3b3b3b38323736203e7461706d6f633c3b4e4f3b303b6f533b45455254204c414349444152204958474e414b3b41344632,
0x3b3b3b3b3b4e3b3b3b3b30324236203e7461706d6f633c3b4e4f3b303b6f533b4b43414c204c414349444152204958474e414b3b42344632,
0x3b3b3b3b3b4e3b3b3b3b32364236203e7461706d6f633c3b4e4f3b303b6f533b504f5453204c414349444152204958474e414b3b43344632,
0x3b3b3b3b3b4e3b3b3b3b39374236203e7461706d6f633c3b4e4f3b303b6f533b4854414544204c414349444152204958474e414b3b44344632,
0x3b3b3b3b3b4e3b3b3b3b33424236203e7461706d6f633c3b4e4f3b303b6f533b4e4f50414557204c414349444152204958474e414b3b45344632,
0x3b3b3b3b3b4e3b3b3b3b42434236203e7461706d6f633c3b4e4f3b303b6f533b544f4e204f44204c414349444152204958474e414b3b46344632,
0x3b3b3b3b3b4e3b3b3b3b34444236203e7461706d6f633c3b4e4f3b303b6f533b455241504d4f43204c414349444152204958474e414b3b30354632,
0x3b3b3b3b3b4e3b3b3b3b42444236203e7461706d6f633c3b4e4f3b303b6f533b525546204c414349444152204958474e414b3b31354632,
0x3b3b3b3b3b4e3b3b3b3b46304336203e7461706d6f633c3b4e4f3b303b6f533b4e414c43204c414349444152204958474e414b3b32354632,
0x3b3b3b3b3b4e3b3b3b3b34314336203e7461706d6f633c3b4e4f3b303b6f533b4d41455453204c414349444152204958474e414b3b33354632,
0x3b3b3b3b3b4e3b3b3b3b34334336203e7461706d6f633c3b4e4f3b303b6f533b5245544157204c414349444152204958474e414b3b34354632,
0x3b3b3b3b3b4e3b3b3b3b42363037203e7461706d6f633c3b4e4f3b303b6f533b45524946204c414349444152204958474e414b3b35354632,
0x3b3b3b3b3b4e3b3b3b3b41323237203e7461706d6f633c3b4e4f3b303b6f533b57414c43204c414349444152204958474e414b3b36354632,
0x3b3b3b3b3b4e3b3b3b3b36333237203e7461706d6f633c3b4e4f3b303b6f533b524548544146204c414349444152204958474e414b3b37354632,
0x3b3b3b3b3b4e3b3b3b3b42333237203e7461706d6f633c3b4e4f3b303b6f533b5820454c42554f44204c414349444152204958474e414b3b38354632,
0x3b3b3b3b3b4e3b3b3b3b46333237203e7461706d6f633c3b4e4f3b303b6f533b4b4e555254204545525420464c4148204c414349444152204958474e414b3b39354632,
0x3b3b3b3b3b4e3b3b3b3b37343237203e7461706d6f633c3b4e4f3b303b6f533b4543494c53204c414349444152204958474e414b3b41354632,
0x3b3b3b3b3b4e3b3b3b3b39353237203e7461706d6f633c3b4e4f3b303b6f533b474e4146204c414349444152204958474e414b3b42354632,
0x3b3b3b3b3b4e3b3b3b3b42353237203e7461706d6f633c3b4e4f3b303b6f533b574f43204c414349444152204958474e414b3b43354632,
0x3b3b3b3b3b4e3b3b3b3b43413237203e7461706d6f633c3b4e4f3b303b6f533b474f44204c414349444152204958474e414b3b44354632,
0x3b3b3b3b3b4e3b3b3b3b34383337203e7461706d6f633c3b4e4f3b303b6f533b444e554f464f5250204c414349444152204958474e414b3b45354632,
0x3b3b3b3b3b4e3b3b3b3b39383337203e7461706d6f633c3b4e4f3b303b6f533b4544414a204c414349444152204958474e414b3b46354632,
0x3b3b3b3b3b4e3b3b3b3b43443437203e7461706d6f633c3b4e4f3b303b6f533b4e4f4c454d204c414349444152204958474e414b3b30364632,
0x3b3b3b3b3b4e3b3b3b3b36453437203e7461706d6f633c3b4e4f3b303b6f533b454c4954204c414349444152204958474e414b3b31364632,
0x3b3b3b3b3b4e3b3b3b3b38313537203e7461706d6f633c3b4e4f3b303b6f533b5445455753204c414349444152204958474e414b3b32364632,
0x3b3b3b3b3b4e3b3b3b3b46313537203e7461706d6f633c3b4e4f3b303b6f533b4546494c204c414349444152204958474e414b3b33364632,
0x3b3b3b3b3b4e3b3b3b3b38323537203e7461706d6f633c3b4e4f3b303b6f533b455355204c414349444152204958474e414b3b34364632,
0x3b3b3b3b3b4e3b3b3b3b30333537203e7461706d6f633c3b4e4f3b303b6f533b444c454946204c414349444152204958474e414b3b35364632,
0x3b3b3b3b3b4e3b3b3b3b42383537203e7461706d6f633c3b4e4f3b303b6f533b48544f4c4320464f20544c4f42204c414349444152204958474e414b3b36364632,
0x3b3b3b3b3b4e3b3b3b3b32393537203e7461706d6f633c3b4e4f3b303b6f533b5353454e4b434953204c414349444152204958474e414b3b37364632,
0x3b3b3b3b3b4e3b3b3b3b36373637203e7461706d6f633c3b4e4f3b303b6f533b544e455420444554544f44204c414349444152204958474e414b3b38364632,
0x3b3b3b3b3b4e3b3b3b3b44373637203e7461706d6f633c3b4e4f3b303b6f533b4554494857204c414349444152204958474e414b3b39364632,
0x3b3b3b3b3b4e3b3b3b3b45413637203e7461706d6f633c3b4e4f3b303b6f533b4e494b53204c414349444152204958474e414b3b41364632,
0x3b3b3b3b3b4e3b3b3b3b46423637203e7461706d6f633c3b4e4f3b303b6f533b48534944204c414349444152204958474e414b3b42364632,
0x3b3b3b3b3b4e3b3b3b3b45453637203e7461706d6f633c3b4e4f3b303b6f533b455945204c414349444152204958474e414b3b43364632,
0x3b3b3b3b3b4e3b3b3b3b42443737203e7461706d6f633c3b4e4f3b303b6f533b5241455053204c414349444152204958474e414b3b44364632,
0x3b3b3b3b3b4e3b3b3b3b32453737203e7461706d6f633c3b4e4f3b303b6f533b574f525241204c414349444152204958474e414b3b45364632,
0x3b3b3b3b3b4e3b3b3b3b33463737203e7461706d6f633c3b4e4f3b303b6f533b454e4f5453204c414349444152204958474e414b3b46364632,
0x3b3b3b3b3b4e3b3b3b3b41333937203e7461706d6f633c3b4e4f3b303b6f533b544952495053204c414349444152204958474e414b3b30374632,
0x3b3b3b3b3b4e3b3b3b3b38423937203e7461706d6f633c3b4e4f3b303b6f533b4b43415254204c414349444152204958474e414b3b31374632,
0x3b3b3b3b3b4e3b3b3b3b45423937203e7461706d6f633c3b4e4f3b303b6f533b4e49415247204c414349444152204958474e414b3b32374632,
0x3b3b3b3b3b4e3b3b3b3b34374137203e7461706d6f633c3b4e4f3b303b6f533b45564143204c414349444152204958474e414b3b33374632,
0x3b3b3b3b3b4e3b3b3b3b42434137203e7461706d6f633c3b4e4f3b303b6f533b444e415453204c414349444152204958474e414b3b34374632,
0x3b3b3b3b3b4e3b3b3b3b39464137203e7461706d6f633c3b4e4f3b303b6f533b4f4f424d4142204c414349444152204958474e414b3b35374632,
0x3b3b3b3b3b4e3b3b3b3b33374337203e7461706d6f633c3b4e4f3b303b6f533b45434952204c414349444152204958474e414b3b36374632,
0x3b3b3b3b3b4e3b3b3b3b38464337203e7461706d6f633c3b4e4f3b303b6f533b4b4c4953204c414349444152204958474e414b3b37374632,
0x3b3b3b3b3b4e3b3b3b3b36334637203e7461706d6f633c3b4e4f3b303b6f533b52414a204c414349444152204958474e414b3b38374632,
0x3b3b3b3b3b4e3b3b3b3b31354637203e7461706d6f633c3b4e4f3b303b6f533b54454e204c414349444152204958474e414b3b39374632,
0x3b3b3b3b3b4e3b3b3b3b41384637203e7461706d6f633c3b4e4f3b303b6f533b5045454853204c414349444152204958474e414b3b41374632,
0x3b3b3b3b3b4e3b3b3b3b44424637203e7461706d6f633c3b4e4f3b303b6f533b52454854414546204c414349444152204958474e414b3b42374632,
0x3b3b3b3b3b4e3b3b3b3b31303038203e7461706d6f633c3b4e4f3b303b6f533b444c4f204c414349444152204958474e414b3b43374632,
0x3b3b3b3b3b4e3b3b3b3b43303038203e7461706d6f633c3b4e4f3b303b6f533b444e41204c414349444152204958474e414b3b44374632,
0x3b3b3b3b3b4e3b3b3b3b32313038203e7461706d6f633c3b4e4f3b303b6f533b574f4c50204c414349444152204958474e414b3b45374632,
0x3b3b3b3b3b4e3b3b3b3b33333038203e7461706d6f633c3b4e4f3b303b6f533b524145204c414349444152204958474e414b3b46374632,
0x3b3b3b3b3b4e3b3b3b3b46373038203e7461706d6f633c3b4e4f3b303b6f533b4853555242204c414349444152204958474e414b3b30384632,
0x3b3b3b3b3b4e3b3b3b3b39383038203e7461706d6f633c3b4e4f3b303b6f533b5441454d204c414349444152204958474e414b3b31384632,
0x3b3b3b3b3b4e3b3b3b3b33453138203e7461706d6f633c3b4e4f3b303b6f533b52455453494e494d204c414349444152204958474e414b3b32384632,
0x3b3b3b3b3b4e3b3b3b3b41453138203e7461706d6f633c3b4e4f3b303b6f533b464c4553204c414349444152204958474e414b3b33384632,
0x3b3b3b3b3b4e3b3b3b3b33463138203e7461706d6f633c3b4e4f3b303b6f533b455649525241204c414349444152204958474e414b3b34384632,
0x3b3b3b3b3b4e3b3b3b3b43463138203e7461706d6f633c3b4e4f3b303b6f533b524154524f4d204c414349444152204958474e414b3b35384632,
0x3b3b3b3b3b4e3b3b3b3b43303238203e7461706d6f633c3b4e4f3b303b6f533b4555474e4f54204c414349444152204958474e414b3b36384632,
0x3b3b3b3b3b4e3b3b3b3b42313238203e7461706d6f633c3b4e4f3b303b6f533b45534f50504f204c414349444152204958474e414b3b37384632,
0x3b3b3b3b3b4e3b3b3b3b46313238203e7461706d6f633c3b4e4f3b303b6f533b54414f42204c414349444152204958474e414b3b38384632,
0x3b3b3b3b3b4e3b3b3b3b45363238203e7461706d6f633c3b4e4f3b303b6f533b474e4950504f5453204c414349444152204958474e414b3b39384632,
0x3b3b3b3b3b4e3b3b3b3b32373238203e7461706d6f633c3b4e4f3b303b6f533b524f4c4f43204c414349444152204958474e414b3b41384632,
0x3b3b3b3b3b4e3b3b3b3b38373238203e7461706d6f633c3b4e4f3b303b6f533b5353415247204c414349444152204958474e414b3b42384632,
0x3b3b3b3b3b4e3b3b3b3b44343638203e7461706d6f633c3b4e4f3b303b6f533b5245474954204c414349444152204958474e414b3b43384632,
0x3b3b3b3b3b4e3b3b3b3b42363638203e7461706d6f633c3b4e4f3b303b6f533b544345534e49204c414349444152204958474e414b3b44384632,
0x3b3b3b3b3b4e3b3b3b3b30343838203e7461706d6f633c3b4e4f3b303b6f533b444f4f4c42204c414349444152204958474e414b3b45384632,
0x3b3b3b3b3b4e3b3b3b3b43343838203e7461706d6f633c3b4e4f3b303b6f533b455255534f4c434e45204b4c4157204c414349444152204958474e414b3b46384632,
0x3b3b3b3b3b4e3b3b3b3b33363838203e7461706d6f633c3b4e4f3b303b6f533b534548544f4c43204c414349444152204958474e414b3b30394632,
0x3b3b3b3b3b4e3b3b3b3b45373938203e7461706d6f633c3b4e4f3b303b6f533b54534557204c414349444152204958474e414b3b31394632,
0x3b3b3b3b3b4e3b3b3b3b42383938203e7461706d6f633c3b4e4f3b303b6f533b454553204c414349444152204958474e414b3b32394632,
0x3b3b3b3b3b4e3b3b3b3b32443938203e7461706d6f633c3b4e4f3b303b6f533b4e524f48204c414349444152204958474e414b3b33394632,
0x3b3b3b3b3b4e3b3b3b3b30304138203e7461706d6f633c3b4e4f3b303b6f533b484345455053204c414349444152204958474e414b3b34394632,
0x3b3b3b3b3b4e3b3b3b3b37334338203e7461706d6f633c3b4e4f3b303b6f533b59454c4c4156204c414349444152204958474e414b3b35394632,
0x3b3b3b3b3b4e3b3b3b3b36344338203e7461706d6f633c3b4e4f3b303b6f533b4e414542204c414349444152204958474e414b3b36394632,
0x3b3b3b3b3b4e3b3b3b3b35354338203e7461706d6f633c3b4e4f3b303b6f533b474950204c414349444152204958474e414b3b37394632,
0x3b3b3b3b3b4e3b3b3b3b38374338203e7461706d6f633c3b4e4f3b303b6f533b524547444142204c414349444152204958474e414b3b38394632,
0x3b3b3b3b3b4e3b3b3b3b44394338203e7461706d6f633c3b4e4f3b303b6f533b4c4c454853204c414349444152204958474e414b3b39394632,
0x3b3b3b3b3b4e3b3b3b3b34364438203e7461706d6f633c3b4e4f3b303b6f533b444552204c414349444152204958474e414b3b41394632,
0x3b3b3b3b3b4e3b3b3b3b30374438203e7461706d6f633c3b4e4f3b303b6f533b4e5552204c414349444152204958474e414b3b42394632,
0x3b3b3b3b3b4e3b3b3b3b33424438203e7461706d6f633c3b4e4f3b303b6f533b544f4f46204c414349444152204958474e414b3b43394632,
0x3b3b3b3b3b4e3b3b3b3b42414538203e7461706d6f633c3b4e4f3b303b6f533b59444f42204c414349444152204958474e414b3b44394632,
0x3b3b3b3b3b4e3b3b3b3b41434538203e7461706d6f633c3b4e4f3b303b6f533b54524143204c414349444152204958474e414b3b45394632,
0x3b3b3b3b3b4e3b3b3b3b42394638203e7461706d6f633c3b4e4f3b303b6f533b524554544942204c414349444152204958474e414b3b46394632,
0x3b3b3b3b3b4e3b3b3b3b30424638203e7461706d6f633c3b4e4f3b303b6f533b474e494e524f4d204c414349444152204958474e414b3b30414632,
0x3b3b3b3b3b4e3b3b3b3b35424638203e7461706d6f633c3b4e4f3b303b6f533b4b4c4157204c414349444152204958474e414b3b31414632,
0x3b3b3b3b3b4e3b3b3b3b31393039203e7461706d6f633c3b4e4f3b303b6f533b59544943204c414349444152204958474e414b3b32414632,
0x3b3b3b3b3b4e3b3b3b3b39343139203e7461706d6f633c3b4e4f3b303b6f533b454e4957204c414349444152204958474e414b3b33414632,
0x3b3b3b3b3b4e3b3b3b3b36433139203e7461706d6f633c3b4e4f3b303b6f533b48534955474e4954534944204c414349444152204958474e414b3b34414632,
0x3b3b3b3b3b4e3b3b3b3b43433139203e7461706d6f633c3b4e4f3b303b6f533b4547414c4c4956204c414349444152204958474e414b3b35414632,
0x3b3b3b3b3b4e3b3b3b3b31443139203e7461706d6f633c3b4e4f3b303b6f533b444c4f47204c414349444152204958474e414b3b36414632,
0x3b3b3b3b3b4e3b3b3b3b37373539203e7461706d6f633c3b4e4f3b303b6f533b474e4f4c204c414349444152204958474e414b3b37414632,
0x3b3b3b3b3b4e3b3b3b3b30383539203e7461706d6f633c3b4e4f3b303b6f533b45544147204c414349444152204958474e414b3b38414632,
0x3b3b3b3b3b4e3b3b3b3b43313639203e7461706d6f633c3b4e4f3b303b6f533b444e554f4d204c414349444152204958474e414b3b39414632,
0x3b3b3b3b3b4e3b3b3b3b36423639203e7461706d6f633c3b4e4f3b303b6f533b4556414c53204c414349444152204958474e414b3b41414632,
0x3b3b3b3b3b4e3b3b3b3b39423639203e7461706d6f633c3b4e4f3b303b6f533b445249422044454c4941542054524f4853204c414349444152204958474e414b3b42414632,
0x3b3b3b3b3b4e3b3b3b3b38453639203e7461706d6f633c3b4e4f3b303b6f533b4e494152204c414349444152204958474e414b3b43414632,
0x3b3b3b3b3b4e3b3b3b3b31353739203e7461706d6f633c3b4e4f3b303b6f533b45554c42204c414349444152204958474e414b3b44414632,
0x3b3b3b3b3b4e3b3b3b3b45353739203e7461706d6f633c3b4e4f3b303b6f533b474e4f5257204c414349444152204958474e414b3b45414632,
0x3b3b3b3b3b4e3b3b3b3b32363739203e7461706d6f633c3b4e4f3b303b6f533b45434146204c414349444152204958474e414b3b46414632,
0x3b3b3b3b3b4e3b3b3b3b39363739203e7461706d6f633c3b4e4f3b303b6f533b5245485441454c204c414349444152204958474e414b3b30424632,
0x3b3b3b3b3b4e3b3b3b3b42433739203e7461706d6f633c3b4e4f3b303b6f533b5245485441454c2044454e4e4154204c414349444152204958474e414b3b31424632,
0x3b3b3b3b3b4e3b3b3b3b44453739203e7461706d6f633c3b4e4f3b303b6f533b4b45454c204c414349444152204958474e414b3b32424632,
0x3b3b3b3b3b4e3b3b3b3b33463739203e7461706d6f633c3b4e4f3b303b6f533b444e554f53204c414349444152204958474e414b3b33424632,
0x3b3b3b3b3b4e3b3b3b3b31303839203e7461706d6f633c3b4e4f3b303b6f533b4641454c204c414349444152204958474e414b3b34424632,
0x3b3b3b3b3b4e3b3b3b3b38413839203e7461706d6f633c3b4e4f3b303b6f533b444e4957204c414349444152204958474e414b3b35424632,
0x3b3b3b3b3b4e3b3b3b3b42443839203e7461706d6f633c3b4e4f3b303b6f533b594c46204c414349444152204958474e414b3b36424632,
0x3b3b3b3b3b4e3b3b3b3b46443839203e7461706d6f633c3b4e4f3b303b6f533b544145204c414349444152204958474e414b3b37424632,
0x3b3b3b3b3b4e3b3b3b3b36393939203e7461706d6f633c3b4e4f3b303b6f533b44414548204c414349444152204958474e414b3b38424632,
0x3b3b3b3b3b4e3b3b3b3b39393939203e7461706d6f633c3b4e4f3b303b6f533b544e415247415246204c414349444152204958474e414b3b39424632,
0x3b3b3b3b3b4e3b3b3b3b43413939203e7461706d6f633c3b4e4f3b303b6f533b4553524f48204c414349444152204958474e414b3b41424632,
0x3b3b3b3b3b4e3b3b3b3b38414139203e7461706d6f633c3b4e4f3b303b6f533b454e4f42204c414349444152204958474e414b3b42424632,
0x3b3b3b3b3b4e3b3b3b3b38444139203e7461706d6f633c3b4e4f3b303b6f533b4c4c4154204c414349444152204958474e414b3b43424632,
0x3b3b3b3b3b4e3b3b3b3b46444139203e7461706d6f633c3b4e4f3b303b6f533b52494148204c414349444152204958474e414b3b44424632,
0x3b3b3b3b3b4e3b3b3b3b35324239203e7461706d6f633c3b4e4f3b303b6f533b5448474946204c414349444152204958474e414b3b45424632,
0x3b3b3b3b3b4e3b3b3b3b46324239203e7461706d6f633c3b4e4f3b303b6f533b454e4957204c41494349464952434153204c414349444152204958474e414b3b46424632,
0x3b3b3b3b3b4e3b3b3b3b32334239203e7461706d6f633c3b4e4f3b303b6f533b4e4f52444c554143204c414349444152204958474e414b3b30434632,
0x3b3b3b3b3b4e3b3b3b3b43334239203e7461706d6f633c3b4e4f3b303b6f533b54534f4847204c414349444152204958474e414b3b31434632,
0x3b3b3b3b3b4e3b3b3b3b41354239203e7461706d6f633c3b4e4f3b303b6f533b48534946204c414349444152204958474e414b3b32434632,
0x3b3b3b3b3b4e3b3b3b3b35454339203e7461706d6f633c3b4e4f3b303b6f533b44524942204c414349444152204958474e414b3b33434632,
0x3b3b3b3b3b4e3b3b3b3b35374539203e7461706d6f633c3b4e4f3b303b6f533b544c4153204c414349444152204958474e414b3b34434632,
0x3b3b3b3b3b4e3b3b3b3b46374539203e7461706d6f633c3b4e4f3b303b6f533b52454544204c414349444152204958474e414b3b35434632,
0x3b3b3b3b3b4e3b3b3b3b35414539203e7461706d6f633c3b4e4f3b303b6f533b5441454857204c414349444152204958474e414b3b36434632,
0x3b3b3b3b3b4e3b3b3b3b42424539203e7461706d6f633c3b4e4f3b303b6f533b504d4548204c414349444152204958474e414b3b37434632,
0x3b3b3b3b3b4e3b3b3b3b33434539203e7461706d6f633c3b4e4f3b303b6f533b574f4c4c4559204c414349444152204958474e414b3b38434632,
0x3b3b3b3b3b4e3b3b3b3b44434539203e7461706d6f633c3b4e4f3b303b6f533b54454c4c494d204c414349444152204958474e414b3b39434632,
0x3b3b3b3b3b4e3b3b3b3b31444539203e7461706d6f633c3b4e4f3b303b6f533b4b43414c42204c414349444152204958474e414b3b41434632,
0x3b3b3b3b3b4e3b3b3b3b39464539203e7461706d6f633c3b4e4f3b303b6f533b59524544494f52424d45204c414349444152204958474e414b3b42434632,
0x3b3b3b3b3b4e3b3b3b3b44464539203e7461706d6f633c3b4e4f3b303b6f533b474f5246204c414349444152204958474e414b3b43434632,
0x3b3b3b3b3b4e3b3b3b3b45304639203e7461706d6f633c3b4e4f3b303b6f533b444f50495254204c414349444152204958474e414b3b44434632,
0x3b3b3b3b3b4e3b3b3b3b33314639203e7461706d6f633c3b4e4f3b303b6f533b4d555244204c414349444152204958474e414b3b45434632,
0x3b3b3b3b3b4e3b3b3b3b30324639203e7461706d6f633c3b4e4f3b303b6f533b544152204c414349444152204958474e414b3b46434632,
0x3b3b3b3b3b4e3b3b3b3b42334639203e7461706d6f633c3b4e4f3b303b6f533b45534f4e204c414349444152204958474e414b3b30444632,
0x3b3b3b3b3b4e3b3b3b3b41344639203e7461706d6f633c3b4e4f3b303b6f533b4e455645204c414349444152204958474e414b3b31444632,
0x3b3b3b3b3b4e3b3b3b3b32354639203e7461706d6f633c3b4e4f3b303b6f533b48544f4f54204c414349444152204958474e414b3b32444632,
0x3b3b3b3b3b4e3b3b3b3b44384639203e7461706d6f633c3b4e4f3b303b6f533b4e4f47415244204c414349444152204958474e414b3b33444632,
0x3b3b3b3b3b4e3b3b3b3b43394639203e7461706d6f633c3b4e4f3b303b6f533b454c54525554204c414349444152204958474e414b3b34444632,
0x3b3b3b3b3b4e3b3b3b3b30414639203e7461706d6f633c3b4e4f3b303b6f533b4554554c46204c414349444152204958474e414b3b35444632,
0x3b3b3b3b3b4e3b3b3b3b3b4e4f3b303b6f533b5448474952204f54205446454c20524554434152414843204e4f49545049524353454420434948504152474f4544493b30464632,
0x3b3b3b3b3b4e3b3b3b3b3b4e4f3b303b6f533b574f4c4542204f542045564f424120524554434152414843204e4f49545049524353454420434948504152474f4544493b31464632,
0x3b3b3b3b3b4e3b3b3b3b3b4e4f3b303b6f533b544847495220444e4120454c4444494d204f54205446454c20524554434152414843204e4f49545049524353454420434948504152474f4544493b32464632,
0x3b3b3b3b3b4e3b3b3b3b3b4e4f3b303b6f533b574f4c454220444e4120454c4444494d204f542045564f424120524554434152414843204e4f49545049524353454420434948504152474f4544493b33464632,
0x3b3b3b3b3b4e3b3b3b3b3b4e4f3b303b6f533b444e554f52525553204c4c554620524554434152414843204e4f49545049524353454420434948504152474f4544493b34464632,
0x3b3b3b3b3b4e3b3b3b3b3b4e4f3b303b6f533b45564f4241204d4f524620444e554f5252555320524554434152414843204e4f49545049524353454420434948504152474f4544493b35464632,
0x3b3b3b3b3b4e3b3b3b3b3b4e4f3b303b6f533b574f4c4542204d4f524620444e554f5252555320524554434152414843204e4f49545049524353454420434948504152474f4544493b36464632,
0x3b3b3b3b3b4e3b3b3b3b3b4e4f3b303b6f533b5446454c204d4f524620444e554f5252555320524554434152414843204e4f49545049524353454420434948504152474f4544493b37464632,
0x3b3b3b3b3b4e3b3b3b3b3b4e4f3b303b6f533b5446454c205245505055204d4f524620444e554f5252555320524554434152414843204e4f49545049524353454420434948504152474f4544493b38464632,
0x3b3b3b3b3b4e3b3b3b3b3b4e4f3b303b6f533b5448474952205245505055204d4f524620444e554f5252555320524554434152414843204e4f49545049524353454420434948504152474f4544493b39464632,
0x3b3b3b3b3b4e3b3b3b3b3b4e4f3b303b6f533b5446454c205245574f4c204d4f524620444e554f5252555320524554434152414843204e4f49545049524353454420434948504152474f4544493b41464632,
0x3b3b3b3b3b4e3b3b3b3b3b4e4f3b303b6f533b4449414c5245564f20524554434152414843204e4f49545049524353454420434948504152474f4544493b42464632,
0x3b3b3b3b3b4e3b3b3b3b30323030203e656469773c3b53573b303b735a3b454341505320434948504152474f4544493b30303033,
0x3b3b3b3b3b4e3b3b3b3b3b4e4f3b303b6f503b414d4d4f4320434948504152474f4544493b31303033,
0x3b3b3b3b444f4952455020434948504152474f4544493b4e3b3b3b3b3b4e4f3b303b6f503b504f5453204c4c554620434948504152474f4544493b32303033,
0x3b3b3b3b3b4e3b3b3b3b3b4e4f3b303b6f503b4b52414d204f545449443b33303033,
0x3b3b3b3b3b4e3b3b3b3b3b4e4f3b303b6f533b4c4f424d595320445241444e415453204c414952545355444e49204553454e4150414a3b34303033,
0x3b3b3b3b3b4e3b3b3b3b3b4c3b303b6d4c3b4b52414d204e4f4954415245544920434948504152474f4544493b35303033,
0x3b3b3b3b3b4e3b3b3b3b3b4c3b303b6f4c3b4b52414d20474e49534f4c4320434948504152474f4544493b36303033,
0x3b3b3b3b3b4e3b303b3b3b3b4c3b303b6c4e3b4f52455a205245424d554e20434948504152474f4544493b37303033,
0x3b3b3b3b54454b4341524220454c474e4120474e494e45504f3b593b3b3b3b3b4e4f3b303b73503b54454b4341524220454c474e41205446454c3b38303033,
0x3b3b3b3b54454b4341524220454c474e4120474e49534f4c433b593b3b3b3b3b4e4f3b303b65503b54454b4341524220454c474e412054484749523b39303033,
0x3b3b3b3b54454b4341524220454c474e4120454c42554f4420474e494e45504f3b593b3b3b3b3b4e4f3b303b73503b54454b4341524220454c474e4120454c42554f44205446454c3b41303033,
0x3b3b3b3b54454b4341524220454c474e4120454c42554f4420474e49534f4c433b593b3b3b3b3b4e4f3b303b65503b54454b4341524220454c474e4120454c42554f442054484749523b42303033,
0x3b3b3b3b54454b434152422052454e524f4320474e494e45504f3b593b3b3b3b3b4e4f3b303b73503b54454b434152422052454e524f43205446454c3b43303033,
0x3b3b3b3b54454b434152422052454e524f4320474e49534f4c433b593b3b3b3b3b4e4f3b303b65503b54454b434152422052454e524f432054484749523b44303033,
0x3b3b3b3b54454b434152422052454e524f4320455449485720474e494e45504f3b593b3b3b3b3b4e4f3b303b73503b54454b434152422052454e524f43204554494857205446454c3b45303033,
0x3b3b3b3b54454b434152422052454e524f4320455449485720474e49534f4c433b593b3b3b3b3b4e4f3b303b65503b54454b434152422052454e524f432045544948572054484749523b46303033,
0x3b3b3b3b54454b434152422052414c554349544e454c204b43414c4220474e494e45504f3b593b3b3b3b3b4e4f3b303b73503b54454b434152422052414c554349544e454c204b43414c42205446454c3b30313033,
0x3b3b3b3b54454b434152422052414c554349544e454c204b43414c4220474e49534f4c433b593b3b3b3b3b4e4f3b303b65503b54454b434152422052414c554349544e454c204b43414c422054484749523b31313033,
0x3b3b3b3b3b4e3b3b3b3b3b4e4f3b303b6f533b4b52414d204c4154534f503b32313033,
0x3b3b3b3b3b4e3b3b3b3b3b4e4f3b303b6f533b4b52414d20415445473b33313033,
0x3b3b3b3b54454b43415242204c4c454853204553494f54524f5420474e494e45504f3b593b3b3b3b3b4e4f3b303b73503b54454b43415242204c4c454853204553494f54524f54205446454c3b34313033,
0x3b3b3b3b54454b43415242204c4c454853204553494f54524f5420474e49534f4c433b593b3b3b3b3b4e4f3b303b65503b54454b43415242204c4c454853204553494f54524f542054484749523b35313033,
0x3b3b3b3b54454b434152422052414c554349544e454c20455449485720474e494e45504f3b593b3b3b3b3b4e4f3b303b73503b54454b434152422052414c554349544e454c204554494857205446454c3b36313033,
0x3b3b3b3b54454b434152422052414c554349544e454c20455449485720474e49534f4c433b593b3b3b3b3b4e4f3b303b65503b54454b434152422052414c554349544e454c2045544948572054484749523b37313033,
0x3b3b3b3b54454b43415242204c4c454853204553494f54524f5420455449485720474e494e45504f3b593b3b3b3b3b4e4f3b303b73503b54454b43415242204c4c454853204553494f54524f54204554494857205446454c3b38313033,
0x3b3b3b3b54454b43415242204c4c454853204553494f54524f5420455449485720474e49534f4c433b593b3b3b3b3b4e4f3b303b65503b54454b43415242204c4c454853204553494f54524f542045544948572054484749523b39313033,
0x3b3b3b3b54454b434152422045524155515320455449485720474e494e45504f3b593b3b3b3b3b4e4f3b303b73503b54454b4341524220455241555153204554494857205446454c3b41313033,
0x3b3b3b3b54454b434152422045524155515320455449485720474e49534f4c433b593b3b3b3b3b4e4f3b303b65503b54454b43415242204552415551532045544948572054484749523b42313033,
0x3b3b3b3b3b4e3b3b3b3b3b4e4f3b303b64503b4853414420455641573b43313033,
0x3b3b3b3b3b4e3b3b3b3b3b4e4f3b303b73503b4b52414d204e4f495441544f555120454d49525020454c42554f442044455352455645523b44313033,
0x3b3b3b3b3b4e3b3b3b3b3b4e4f3b303b65503b4b52414d204e4f495441544f555120454d49525020454c42554f443b45313033,
0x3b3b3b3b3b4e3b3b3b3b3b4e4f3b303b65503b4b52414d204e4f495441544f555120454d49525020454c42554f4420574f4c3b46313033,
0x3b3b3b3b3b4e3b3b3b3b3b4e4f3b303b6f533b45434146204b52414d204c4154534f503b30323033,
0x3b3b3b3b3b4e3b313b3b3b3b4c3b303b6c4e3b454e4f204c4152454d554e20554f485a474e41483b31323033,
0x3b3b3b3b3b4e3b323b3b3b3b4c3b303b6c4e3b4f5754204c4152454d554e20554f485a474e41483b32323033,
0x3b3b3b3b3b4e3b333b3b3b3b4c3b303b6c4e3b4545524854204c4152454d554e20554f485a474e41483b33323033,
0x3b3b3b3b3b4e3b343b3b3b3b4c3b303b6c4e3b52554f46204c4152454d554e20554f485a474e41483b34323033,
0x3b3b3b3b3b4e3b353b3b3b3b4c3b303b6c4e3b45564946204c4152454d554e20554f485a474e41483b35323033,
0x3b3b3b3b3b4e3b363b3b3b3b4c3b303b6c4e3b584953204c4152454d554e20554f485a474e41483b36323033,
0x3b3b3b3b3b4e3b373b3b3b3b4c3b303b6c4e3b4e45564553204c4152454d554e20554f485a474e41483b37323033,
0x3b3b3b3b3b4e3b383b3b3b3b4c3b303b6c4e3b5448474945204c4152454d554e20554f485a474e41483b38323033,
0x3b3b3b3b3b4e3b393b3b3b3b4c3b303b6c4e3b454e494e204c4152454d554e20554f485a474e41483b39323033,
0x3b3b3b3b3b4e3b3b3b3b3b4d534e3b3831323b6e4d3b4b52414d20454e4f54204c4556454c20434948504152474f4544493b41323033,
0x3b3b3b3b3b4e3b3b3b3b3b4d534e3b3832323b6e4d3b4b52414d20454e4f5420474e4953495220434948504152474f4544493b42323033,
0x3b3b3b3b3b4e3b3b3b3b3b4d534e3b3233323b6e4d3b4b52414d20454e4f5420474e4954524150454420434948504152474f4544493b43323033,
0x3b3b3b3b3b4e3b3b3b3b3b4d534e3b3232323b6e4d3b4b52414d20454e4f5420474e495245544e4520434948504152474f4544493b44323033,
0x3b3b3b3b3b4e3b3b3b3b3b4c3b3432323b634d3b4b52414d20454e4f5420544f4420454c474e4953204c55474e41483b45323033,
0x3b3b3b3b3b4e3b3b3b3b3b4c3b3432323b634d3b4b52414d20454e4f5420544f4420454c42554f44204c55474e41483b46323033,
0x3b3b3b3b3b4e3b3b3b3b3b4e4f3b303b64503b4853414420595641573b30333033,
0x3b3b3b3b3b4e3b3b3b3b3b4c3b303b6d4c3b4b52414d2054414550455220414e414b204c414349545245563b31333033]

/-- src/u5e/props/UnicodeData.txt lines 11009-11264. -/
def rawUcd43 : List Nat := [
0x3b3b3b3b3b4e3b3b3b3b3b4c3b303b6d4c3b4b52414d20444e554f5320444543494f5620485449572054414550455220414e414b204c414349545245563b32333033,
0x3b3b3b3b3b4e3b3b3b3b3b4c3b303b6d4c3b464c4148205245505055204b52414d2054414550455220414e414b204c414349545245563b33333033,
0x3b3b3b3b3b4e3b3b3b3b3b4c3b303b6d4c3b464c4148205245505055204b52414d20444e554f5320444543494f5620485449572054414550455220414e414b204c414349545245563b34333033,
0x3b3b3b3b3b4e3b3b3b3b3b4c3b303b6d4c3b464c4148205245574f4c204b52414d2054414550455220414e414b204c414349545245563b35333033,
0x3b3b3b3b3b4e3b3b3b3b32313033203e7461706d6f633c3b4e4f3b303b6f533b4b52414d204c4154534f502044454c435249433b36333033,
0x3b3b3b3b3b4e3b3b3b3b3b4e4f3b303b6f533b4c4f424d595320524f54415241504553204445454620454e494c204850415247454c455420434948504152474f4544493b37333033,
0x3b3b3b3b3b4e3b30313b3b3b31343335203e7461706d6f633c3b4c3b303b6c4e3b4e4554204c4152454d554e20554f485a474e41483b38333033,
0x3b3b3b3b3b4e3b30323b3b3b34343335203e7461706d6f633c3b4c3b303b6c4e3b59544e455754204c4152454d554e20554f485a474e41483b39333033,
0x3b3b3b3b3b4e3b30333b3b3b35343335203e7461706d6f633c3b4c3b303b6c4e3b595452494854204c4152454d554e20554f485a474e41483b41333033,
0x3b3b3b3b3b4e3b3b3b3b3b4c3b303b6d4c3b4b52414d204e4f4954415245544920434948504152474f454449204c414349545245563b42333033,
0x3b3b3b3b3b4e3b3b3b3b3b4c3b303b6f4c3b4b52414d205553414d3b43333033,
0x3b3b3b3b3b4e3b3b3b3b3b4e4f3b303b6f503b4b52414d204e4f4954414e5245544c4120545241503b44333033,
0x3b3b3b3b3b4e3b3b3b3b3b4e4f3b303b6f533b524f54414349444e49204e4f4954414952415620434948504152474f4544493b45333033,
0x3b3b3b3b3b4e3b3b3b3b3b4e4f3b303b6f533b4543415053204c4c494620464c414820434948504152474f4544493b46333033,
0x3b3b3b3b3b4e3b3b3b3b3b4c3b303b6f4c3b41204c4c414d532052455454454c20414e4147415249483b31343033,
0x3b3b3b3b3b4e3b3b3b3b3b4c3b303b6f4c3b412052455454454c20414e4147415249483b32343033,
0x3b3b3b3b3b4e3b3b3b3b3b4c3b303b6f4c3b49204c4c414d532052455454454c20414e4147415249483b33343033,
0x3b3b3b3b3b4e3b3b3b3b3b4c3b303b6f4c3b492052455454454c20414e4147415249483b34343033,
0x3b3b3b3b3b4e3b3b3b3b3b4c3b303b6f4c3b55204c4c414d532052455454454c20414e4147415249483b35343033,
0x3b3b3b3b3b4e3b3b3b3b3b4c3b303b6f4c3b552052455454454c20414e4147415249483b36343033,
0x3b3b3b3b3b4e3b3b3b3b3b4c3b303b6f4c3b45204c4c414d532052455454454c20414e4147415249483b37343033,
0x3b3b3b3b3b4e3b3b3b3b3b4c3b303b6f4c3b452052455454454c20414e4147415249483b38343033,
0x3b3b3b3b3b4e3b3b3b3b3b4c3b303b6f4c3b4f204c4c414d532052455454454c20414e4147415249483b39343033,
0x3b3b3b3b3b4e3b3b3b3b3b4c3b303b6f4c3b4f2052455454454c20414e4147415249483b41343033,
0x3b3b3b3b3b4e3b3b3b3b3b4c3b303b6f4c3b414b2052455454454c20414e4147415249483b42343033,
0x3b3b3b3b3b4e3b3b3b3b3939303320423430333b4c3b303b6f4c3b41472052455454454c20414e4147415249483b43343033,
0x3b3b3b3b3b4e3b3b3b3b3b4c3b303b6f4c3b494b2052455454454c20414e4147415249483b44343033,
0x3b3b3b3b3b4e3b3b3b3b3939303320443430333b4c3b303b6f4c3b49472052455454454c20414e4147415249483b45343033,
0x3b3b3b3b3b4e3b3b3b3b3b4c3b303b6f4c3b554b2052455454454c20414e4147415249483b46343033,
0x3b3b3b3b3b4e3b3b3b3b3939303320463430333b4c3b303b6f4c3b55472052455454454c20414e4147415249483b30353033,
0x3b3b3b3b3b4e3b3b3b3b3b4c3b303b6f4c3b454b2052455454454c20414e4147415249483b31353033,
0x3b3b3b3b3b4e3b3b3b3b3939303320313530333b4c3b303b6f4c3b45472052455454454c20414e4147415249483b32353033,
0x3b3b3b3b3b4e3b3b3b3b3b4c3b303b6f4c3b4f4b2052455454454c20414e4147415249483b33353033,
0x3b3b3b3b3b4e3b3b3b3b3939303320333530333b4c3b303b6f4c3b4f472052455454454c20414e4147415249483b34353033,
0x3b3b3b3b3b4e3b3b3b3b3b4c3b303b6f4c3b41532052455454454c20414e4147415249483b35353033,
0x3b3b3b3b3b4e3b3b3b3b3939303320353530333b4c3b303b6f4c3b415a2052455454454c20414e4147415249483b36353033,
0x3b3b3b3b3b4e3b3b3b3b3b4c3b303b6f4c3b49532052455454454c20414e4147415249483b37353033,
0x3b3b3b3b3b4e3b3b3b3b3939303320373530333b4c3b303b6f4c3b495a2052455454454c20414e4147415249483b38353033,
0x3b3b3b3b3b4e3b3b3b3b3b4c3b303b6f4c3b55532052455454454c20414e4147415249483b39353033,
0x3b3b3b3b3b4e3b3b3b3b3939303320393530333b4c3b303b6f4c3b555a2052455454454c20414e4147415249483b41353033,
0x3b3b3b3b3b4e3b3b3b3b3b4c3b303b6f4c3b45532052455454454c20414e4147415249483b42353033,
0x3b3b3b3b3b4e3b3b3b3b3939303320423530333b4c3b303b6f4c3b455a2052455454454c20414e4147415249483b43353033,
0x3b3b3b3b3b4e3b3b3b3b3b4c3b303b6f4c3b4f532052455454454c20414e4147415249483b44353033,
0x3b3b3b3b3b4e3b3b3b3b3939303320443530333b4c3b303b6f4c3b4f5a2052455454454c20414e4147415249483b45353033,
0x3b3b3b3b3b4e3b3b3b3b3b4c3b303b6f4c3b41542052455454454c20414e4147415249483b46353033,
0x3b3b3b3b3b4e3b3b3b3b3939303320463530333b4c3b303b6f4c3b41442052455454454c20414e4147415249483b30363033,
0x3b3b3b3b3b4e3b3b3b3b3b4c3b303b6f4c3b49542052455454454c20414e4147415249483b31363033,
0x3b3b3b3b3b4e3b3b3b3b3939303320313630333b4c3b303b6f4c3b49442052455454454c20414e4147415249483b32363033,
0x3b3b3b3b3b4e3b3b3b3b3b4c3b303b6f4c3b5554204c4c414d532052455454454c20414e4147415249483b33363033,
0x3b3b3b3b3b4e3b3b3b3b3b4c3b303b6f4c3b55542052455454454c20414e4147415249483b34363033,
0x3b3b3b3b3b4e3b3b3b3b3939303320343630333b4c3b303b6f4c3b55442052455454454c20414e4147415249483b35363033,
0x3b3b3b3b3b4e3b3b3b3b3b4c3b303b6f4c3b45542052455454454c20414e4147415249483b36363033,
0x3b3b3b3b3b4e3b3b3b3b3939303320363630333b4c3b303b6f4c3b45442052455454454c20414e4147415249483b37363033,
0x3b3b3b3b3b4e3b3b3b3b3b4c3b303b6f4c3b4f542052455454454c20414e4147415249483b38363033,
0x3b3b3b3b3b4e3b3b3b3b3939303320383630333b4c3b303b6f4c3b4f442052455454454c20414e4147415249483b39363033,
0x3b3b3b3b3b4e3b3b3b3b3b4c3b303b6f4c3b414e2052455454454c20414e4147415249483b41363033,
0x3b3b3b3b3b4e3b3b3b3b3b4c3b303b6f4c3b494e2052455454454c20414e4147415249483b42363033,
0x3b3b3b3b3b4e3b3b3b3b3b4c3b303b6f4c3b554e2052455454454c20414e4147415249483b43363033,
0x3b3b3b3b3b4e3b3b3b3b3b4c3b303b6f4c3b454e2052455454454c20414e4147415249483b44363033,
0x3b3b3b3b3b4e3b3b3b3b3b4c3b303b6f4c3b4f4e2052455454454c20414e4147415249483b45363033,
0x3b3b3b3b3b4e3b3b3b3b3b4c3b303b6f4c3b41482052455454454c20414e4147415249483b46363033,
0x3b3b3b3b3b4e3b3b3b3b3939303320463630333b4c3b303b6f4c3b41422052455454454c20414e4147415249483b30373033,
0x3b3b3b3b3b4e3b3b3b3b4139303320463630333b4c3b303b6f4c3b41502052455454454c20414e4147415249483b31373033,
0x3b3b3b3b3b4e3b3b3b3b3b4c3b303b6f4c3b49482052455454454c20414e4147415249483b32373033,
0x3b3b3b3b3b4e3b3b3b3b3939303320323730333b4c3b303b6f4c3b49422052455454454c20414e4147415249483b33373033,
0x3b3b3b3b3b4e3b3b3b3b4139303320323730333b4c3b303b6f4c3b49502052455454454c20414e4147415249483b34373033,
0x3b3b3b3b3b4e3b3b3b3b3b4c3b303b6f4c3b55482052455454454c20414e4147415249483b35373033,
0x3b3b3b3b3b4e3b3b3b3b3939303320353730333b4c3b303b6f4c3b55422052455454454c20414e4147415249483b36373033,
0x3b3b3b3b3b4e3b3b3b3b4139303320353730333b4c3b303b6f4c3b55502052455454454c20414e4147415249483b37373033,
0x3b3b3b3b3b4e3b3b3b3b3b4c3b303b6f4c3b45482052455454454c20414e4147415249483b38373033,
0x3b3b3b3b3b4e3b3b3b3b3939303320383730333b4c3b303b6f4c3b45422052455454454c20414e4147415249483b39373033,
0x3b3b3b3b3b4e3b3b3b3b4139303320383730333b4c3b303b6f4c3b45502052455454454c20414e4147415249483b41373033,
0x3b3b3b3b3b4e3b3b3b3b3b4c3b303b6f4c3b4f482052455454454c20414e4147415249483b42373033,
0x3b3b3b3b3b4e3b3b3b3b3939303320423730333b4c3b303b6f4c3b4f422052455454454c20414e4147415249483b43373033,
0x3b3b3b3b3b4e3b3b3b3b4139303320423730333b4c3b303b6f4c3b4f502052455454454c20414e4147415249483b44373033,
0x3b3b3b3b3b4e3b3b3b3b3b4c3b303b6f4c3b414d2052455454454c20414e4147415249483b45373033,
0x3b3b3b3b3b4e3b3b3b3b3b4c3b303b6f4c3b494d2052455454454c20414e4147415249483b46373033,
0x3b3b3b3b3b4e3b3b3b3b3b4c3b303b6f4c3b554d2052455454454c20414e4147415249483b30383033,
0x3b3b3b3b3b4e3b3b3b3b3b4c3b303b6f4c3b454d2052455454454c20414e4147415249483b31383033,
0x3b3b3b3b3b4e3b3b3b3b3b4c3b303b6f4c3b4f4d2052455454454c20414e4147415249483b32383033,
0x3b3b3b3b3b4e3b3b3b3b3b4c3b303b6f4c3b4159204c4c414d532052455454454c20414e4147415249483b33383033,
0x3b3b3b3b3b4e3b3b3b3b3b4c3b303b6f4c3b41592052455454454c20414e4147415249483b34383033,
0x3b3b3b3b3b4e3b3b3b3b3b4c3b303b6f4c3b5559204c4c414d532052455454454c20414e4147415249483b35383033,
0x3b3b3b3b3b4e3b3b3b3b3b4c3b303b6f4c3b55592052455454454c20414e4147415249483b36383033,
0x3b3b3b3b3b4e3b3b3b3b3b4c3b303b6f4c3b4f59204c4c414d532052455454454c20414e4147415249483b37383033,
0x3b3b3b3b3b4e3b3b3b3b3b4c3b303b6f4c3b4f592052455454454c20414e4147415249483b38383033,
0x3b3b3b3b3b4e3b3b3b3b3b4c3b303b6f4c3b41522052455454454c20414e4147415249483b39383033,
0x3b3b3b3b3b4e3b3b3b3b3b4c3b303b6f4c3b49522052455454454c20414e4147415249483b41383033,
0x3b3b3b3b3b4e3b3b3b3b3b4c3b303b6f4c3b55522052455454454c20414e4147415249483b42383033,
0x3b3b3b3b3b4e3b3b3b3b3b4c3b303b6f4c3b45522052455454454c20414e4147415249483b43383033,
0x3b3b3b3b3b4e3b3b3b3b3b4c3b303b6f4c3b4f522052455454454c20414e4147415249483b44383033,
0x3b3b3b3b3b4e3b3b3b3b3b4c3b303b6f4c3b4157204c4c414d532052455454454c20414e4147415249483b45383033,
0x3b3b3b3b3b4e3b3b3b3b3b4c3b303b6f4c3b41572052455454454c20414e4147415249483b46383033,
0x3b3b3b3b3b4e3b3b3b3b3b4c3b303b6f4c3b49572052455454454c20414e4147415249483b30393033,
0x3b3b3b3b3b4e3b3b3b3b3b4c3b303b6f4c3b45572052455454454c20414e4147415249483b31393033,
0x3b3b3b3b3b4e3b3b3b3b3b4c3b303b6f4c3b4f572052455454454c20414e4147415249483b32393033,
0x3b3b3b3b3b4e3b3b3b3b3b4c3b303b6f4c3b4e2052455454454c20414e4147415249483b33393033,
0x3b3b3b3b3b4e3b3b3b3b3939303320363430333b4c3b303b6f4c3b55562052455454454c20414e4147415249483b34393033,
0x3b3b3b3b3b4e3b3b3b3b3b4c3b303b6f4c3b414b204c4c414d532052455454454c20414e4147415249483b35393033,
0x3b3b3b3b3b4e3b3b3b3b3b4c3b303b6f4c3b454b204c4c414d532052455454454c20414e4147415249483b36393033,
0x3b3b3b3b4b52414d20444e554f5320444543494f5620414e4147415249482d414e414b4154414b20474e49434150532d4e4f4e3b4e3b3b3b3b3b4d534e3b383b6e4d3b4b52414d20444e554f5320444543494f5620414e4147415249482d414e414b4154414b20474e494e49424d4f433b39393033,
0x3b3b3b3b4b52414d20444e554f5320444543494f562d494d455320414e4147415249482d414e414b4154414b20474e49434150532d4e4f4e3b4e3b3b3b3b3b4d534e3b383b6e4d3b4b52414d20444e554f5320444543494f562d494d455320414e4147415249482d414e414b4154414b20474e494e49424d4f433b41393033,
0x3b3b3b3b3b4e3b3b3b3b393930332030323030203e7461706d6f633c3b4e4f3b303b6b533b4b52414d20444e554f5320444543494f5620414e4147415249482d414e414b4154414b3b42393033,
0x3b3b3b3b3b4e3b3b3b3b413930332030323030203e7461706d6f633c3b4e4f3b303b6b533b4b52414d20444e554f5320444543494f562d494d455320414e4147415249482d414e414b4154414b3b43393033,
0x3b3b3b3b3b4e3b3b3b3b3b4c3b303b6d4c3b4b52414d204e4f4954415245544920414e4147415249483b44393033,
0x3b3b3b3b3b4e3b3b3b3b3939303320443930333b4c3b303b6d4c3b4b52414d204e4f4954415245544920444543494f5620414e4147415249483b45393033,
0x3b3b3b3b3b4e3b3b3b3b413830332038383033203e6c616369747265763c3b4c3b303b6f4c3b49524f59204850415247494420414e4147415249483b46393033,
0x3b3b3b3b3b4e3b3b3b3b3b4e4f3b303b64503b4e454850594820454c42554f4420414e4147415249482d414e414b4154414b3b30413033,
0x3b3b3b3b3b4e3b3b3b3b3b4c3b303b6f4c3b41204c4c414d532052455454454c20414e414b4154414b3b31413033,
0x3b3b3b3b3b4e3b3b3b3b3b4c3b303b6f4c3b412052455454454c20414e414b4154414b3b32413033,
0x3b3b3b3b3b4e3b3b3b3b3b4c3b303b6f4c3b49204c4c414d532052455454454c20414e414b4154414b3b33413033,
0x3b3b3b3b3b4e3b3b3b3b3b4c3b303b6f4c3b492052455454454c20414e414b4154414b3b34413033,
0x3b3b3b3b3b4e3b3b3b3b3b4c3b303b6f4c3b55204c4c414d532052455454454c20414e414b4154414b3b35413033,
0x3b3b3b3b3b4e3b3b3b3b3b4c3b303b6f4c3b552052455454454c20414e414b4154414b3b36413033,
0x3b3b3b3b3b4e3b3b3b3b3b4c3b303b6f4c3b45204c4c414d532052455454454c20414e414b4154414b3b37413033,
0x3b3b3b3b3b4e3b3b3b3b3b4c3b303b6f4c3b452052455454454c20414e414b4154414b3b38413033,
0x3b3b3b3b3b4e3b3b3b3b3b4c3b303b6f4c3b4f204c4c414d532052455454454c20414e414b4154414b3b39413033,
0x3b3b3b3b3b4e3b3b3b3b3b4c3b303b6f4c3b4f2052455454454c20414e414b4154414b3b41413033,
0x3b3b3b3b3b4e3b3b3b3b3b4c3b303b6f4c3b414b2052455454454c20414e414b4154414b3b42413033,
0x3b3b3b3b3b4e3b3b3b3b3939303320424130333b4c3b303b6f4c3b41472052455454454c20414e414b4154414b3b43413033,
0x3b3b3b3b3b4e3b3b3b3b3b4c3b303b6f4c3b494b2052455454454c20414e414b4154414b3b44413033,
0x3b3b3b3b3b4e3b3b3b3b3939303320444130333b4c3b303b6f4c3b49472052455454454c20414e414b4154414b3b45413033,
0x3b3b3b3b3b4e3b3b3b3b3b4c3b303b6f4c3b554b2052455454454c20414e414b4154414b3b46413033,
0x3b3b3b3b3b4e3b3b3b3b3939303320464130333b4c3b303b6f4c3b55472052455454454c20414e414b4154414b3b30423033,
0x3b3b3b3b3b4e3b3b3b3b3b4c3b303b6f4c3b454b2052455454454c20414e414b4154414b3b31423033,
0x3b3b3b3b3b4e3b3b3b3b3939303320314230333b4c3b303b6f4c3b45472052455454454c20414e414b4154414b3b32423033,
0x3b3b3b3b3b4e3b3b3b3b3b4c3b303b6f4c3b4f4b2052455454454c20414e414b4154414b3b33423033,
0x3b3b3b3b3b4e3b3b3b3b3939303320334230333b4c3b303b6f4c3b4f472052455454454c20414e414b4154414b3b34423033,
0x3b3b3b3b3b4e3b3b3b3b3b4c3b303b6f4c3b41532052455454454c20414e414b4154414b3b35423033,
0x3b3b3b3b3b4e3b3b3b3b3939303320354230333b4c3b303b6f4c3b415a2052455454454c20414e414b4154414b3b36423033,
0x3b3b3b3b3b4e3b3b3b3b3b4c3b303b6f4c3b49532052455454454c20414e414b4154414b3b37423033,
0x3b3b3b3b3b4e3b3b3b3b3939303320374230333b4c3b303b6f4c3b495a2052455454454c20414e414b4154414b3b38423033,
0x3b3b3b3b3b4e3b3b3b3b3b4c3b303b6f4c3b55532052455454454c20414e414b4154414b3b39423033,
0x3b3b3b3b3b4e3b3b3b3b3939303320394230333b4c3b303b6f4c3b555a2052455454454c20414e414b4154414b3b41423033,
0x3b3b3b3b3b4e3b3b3b3b3b4c3b303b6f4c3b45532052455454454c20414e414b4154414b3b42423033,
0x3b3b3b3b3b4e3b3b3b3b3939303320424230333b4c3b303b6f4c3b455a2052455454454c20414e414b4154414b3b43423033,
0x3b3b3b3b3b4e3b3b3b3b3b4c3b303b6f4c3b4f532052455454454c20414e414b4154414b3b44423033,
0x3b3b3b3b3b4e3b3b3b3b3939303320444230333b4c3b303b6f4c3b4f5a2052455454454c20414e414b4154414b3b45423033,
0x3b3b3b3b3b4e3b3b3b3b3b4c3b303b6f4c3b41542052455454454c20414e414b4154414b3b46423033,
0x3b3b3b3b3b4e3b3b3b3b3939303320464230333b4c3b303b6f4c3b41442052455454454c20414e414b4154414b3b30433033,
0x3b3b3b3b3b4e3b3b3b3b3b4c3b303b6f4c3b49542052455454454c20414e414b4154414b3b31433033,
0x3b3b3b3b3b4e3b3b3b3b3939303320314330333b4c3b303b6f4c3b49442052455454454c20414e414b4154414b3b32433033,
0x3b3b3b3b3b4e3b3b3b3b3b4c3b303b6f4c3b5554204c4c414d532052455454454c20414e414b4154414b3b33433033,
0x3b3b3b3b3b4e3b3b3b3b3b4c3b303b6f4c3b55542052455454454c20414e414b4154414b3b34433033,
0x3b3b3b3b3b4e3b3b3b3b3939303320344330333b4c3b303b6f4c3b55442052455454454c20414e414b4154414b3b35433033,
0x3b3b3b3b3b4e3b3b3b3b3b4c3b303b6f4c3b45542052455454454c20414e414b4154414b3b36433033,
0x3b3b3b3b3b4e3b3b3b3b3939303320364330333b4c3b303b6f4c3b45442052455454454c20414e414b4154414b3b37433033,
0x3b3b3b3b3b4e3b3b3b3b3b4c3b303b6f4c3b4f542052455454454c20414e414b4154414b3b38433033,
0x3b3b3b3b3b4e3b3b3b3b3939303320384330333b4c3b303b6f4c3b4f442052455454454c20414e414b4154414b3b39433033,
0x3b3b3b3b3b4e3b3b3b3b3b4c3b303b6f4c3b414e2052455454454c20414e414b4154414b3b41433033,
0x3b3b3b3b3b4e3b3b3b3b3b4c3b303b6f4c3b494e2052455454454c20414e414b4154414b3b42433033,
0x3b3b3b3b3b4e3b3b3b3b3b4c3b303b6f4c3b554e2052455454454c20414e414b4154414b3b43433033,
0x3b3b3b3b3b4e3b3b3b3b3b4c3b303b6f4c3b454e2052455454454c20414e414b4154414b3b44433033,
0x3b3b3b3b3b4e3b3b3b3b3b4c3b303b6f4c3b4f4e2052455454454c20414e414b4154414b3b45433033,
0x3b3b3b3b3b4e3b3b3b3b3b4c3b303b6f4c3b41482052455454454c20414e414b4154414b3b46433033,
0x3b3b3b3b3b4e3b3b3b3b3939303320464330333b4c3b303b6f4c3b41422052455454454c20414e414b4154414b3b30443033,
0x3b3b3b3b3b4e3b3b3b3b4139303320464330333b4c3b303b6f4c3b41502052455454454c20414e414b4154414b3b31443033,
0x3b3b3b3b3b4e3b3b3b3b3b4c3b303b6f4c3b49482052455454454c20414e414b4154414b3b32443033,
0x3b3b3b3b3b4e3b3b3b3b3939303320324430333b4c3b303b6f4c3b49422052455454454c20414e414b4154414b3b33443033,
0x3b3b3b3b3b4e3b3b3b3b4139303320324430333b4c3b303b6f4c3b49502052455454454c20414e414b4154414b3b34443033,
0x3b3b3b3b3b4e3b3b3b3b3b4c3b303b6f4c3b55482052455454454c20414e414b4154414b3b35443033,
0x3b3b3b3b3b4e3b3b3b3b3939303320354430333b4c3b303b6f4c3b55422052455454454c20414e414b4154414b3b36443033,
0x3b3b3b3b3b4e3b3b3b3b4139303320354430333b4c3b303b6f4c3b55502052455454454c20414e414b4154414b3b37443033,
0x3b3b3b3b3b4e3b3b3b3b3b4c3b303b6f4c3b45482052455454454c20414e414b4154414b3b38443033,
0x3b3b3b3b3b4e3b3b3b3b3939303320384430333b4c3b303b6f4c3b45422052455454454c20414e414b4154414b3b39443033,
0x3b3b3b3b3b4e3b3b3b3b4139303320384430333b4c3b303b6f4c3b45502052455454454c20414e414b4154414b3b41443033,
0x3b3b3b3b3b4e3b3b3b3b3b4c3b303b6f4c3b4f482052455454454c20414e414b4154414b3b42443033,
0x3b3b3b3b3b4e3b3b3b3b3939303320424430333b4c3b303b6f4c3b4f422052455454454c20414e414b4154414b3b43443033,
0x3b3b3b3b3b4e3b3b3b3b4139303320424430333b4c3b303b6f4c3b4f502052455454454c20414e414b4154414b3b44443033,
0x3b3b3b3b3b4e3b3b3b3b3b4c3b303b6f4c3b414d2052455454454c20414e414b4154414b3b45443033,
0x3b3b3b3b3b4e3b3b3b3b3b4c3b303b6f4c3b494d2052455454454c20414e414b4154414b3b46443033,
0x3b3b3b3b3b4e3b3b3b3b3b4c3b303b6f4c3b554d2052455454454c20414e414b4154414b3b30453033,
0x3b3b3b3b3b4e3b3b3b3b3b4c3b303b6f4c3b454d2052455454454c20414e414b4154414b3b31453033,
0x3b3b3b3b3b4e3b3b3b3b3b4c3b303b6f4c3b4f4d2052455454454c20414e414b4154414b3b32453033,
0x3b3b3b3b3b4e3b3b3b3b3b4c3b303b6f4c3b4159204c4c414d532052455454454c20414e414b4154414b3b33453033,
0x3b3b3b3b3b4e3b3b3b3b3b4c3b303b6f4c3b41592052455454454c20414e414b4154414b3b34453033,
0x3b3b3b3b3b4e3b3b3b3b3b4c3b303b6f4c3b5559204c4c414d532052455454454c20414e414b4154414b3b35453033,
0x3b3b3b3b3b4e3b3b3b3b3b4c3b303b6f4c3b55592052455454454c20414e414b4154414b3b36453033,
0x3b3b3b3b3b4e3b3b3b3b3b4c3b303b6f4c3b4f59204c4c414d532052455454454c20414e414b4154414b3b37453033,
0x3b3b3b3b3b4e3b3b3b3b3b4c3b303b6f4c3b4f592052455454454c20414e414b4154414b3b38453033,
0x3b3b3b3b3b4e3b3b3b3b3b4c3b303b6f4c3b41522052455454454c20414e414b4154414b3b39453033,
0x3b3b3b3b3b4e3b3b3b3b3b4c3b303b6f4c3b49522052455454454c20414e414b4154414b3b41453033,
0x3b3b3b3b3b4e3b3b3b3b3b4c3b303b6f4c3b55522052455454454c20414e414b4154414b3b42453033,
0x3b3b3b3b3b4e3b3b3b3b3b4c3b303b6f4c3b45522052455454454c20414e414b4154414b3b43453033,
0x3b3b3b3b3b4e3b3b3b3b3b4c3b303b6f4c3b4f522052455454454c20414e414b4154414b3b44453033,
0x3b3b3b3b3b4e3b3b3b3b3b4c3b303b6f4c3b4157204c4c414d532052455454454c20414e414b4154414b3b45453033,
0x3b3b3b3b3b4e3b3b3b3b3b4c3b303b6f4c3b41572052455454454c20414e414b4154414b3b46453033,
0x3b3b3b3b3b4e3b3b3b3b3b4c3b303b6f4c3b49572052455454454c20414e414b4154414b3b30463033,
0x3b3b3b3b3b4e3b3b3b3b3b4c3b303b6f4c3b45572052455454454c20414e414b4154414b3b31463033,
0x3b3b3b3b3b4e3b3b3b3b3b4c3b303b6f4c3b4f572052455454454c20414e414b4154414b3b32463033,
0x3b3b3b3b3b4e3b3b3b3b3b4c3b303b6f4c3b4e2052455454454c20414e414b4154414b3b33463033,
0x3b3b3b3b3b4e3b3b3b3b3939303320364130333b4c3b303b6f4c3b55562052455454454c20414e414b4154414b3b34463033,
0x3b3b3b3b3b4e3b3b3b3b3b4c3b303b6f4c3b414b204c4c414d532052455454454c20414e414b4154414b3b35463033,
0x3b3b3b3b3b4e3b3b3b3b3b4c3b303b6f4c3b454b204c4c414d532052455454454c20414e414b4154414b3b36463033,
0x3b3b3b3b3b4e3b3b3b3b3939303320464530333b4c3b303b6f4c3b41562052455454454c20414e414b4154414b3b37463033,
0x3b3b3b3b3b4e3b3b3b3b3939303320304630333b4c3b303b6f4c3b49562052455454454c20414e414b4154414b3b38463033,
0x3b3b3b3b3b4e3b3b3b3b3939303320314630333b4c3b303b6f4c3b45562052455454454c20414e414b4154414b3b39463033,
0x3b3b3b3b3b4e3b3b3b3b3939303320324630333b4c3b303b6f4c3b4f562052455454454c20414e414b4154414b3b41463033,
0x3b3b3b3b3b4e3b3b3b3b3b4e4f3b303b6f503b544f4420454c4444494d20414e414b4154414b3b42463033,
0x3b3b3b3b3b4e3b3b3b3b3b4c3b303b6d4c3b4b52414d20444e554f53204445474e4f4c4f525020414e4147415249482d414e414b4154414b3b43463033,
0x3b3b3b3b3b4e3b3b3b3b3b4c3b303b6d4c3b4b52414d204e4f4954415245544920414e414b4154414b3b44463033,
0x3b3b3b3b3b4e3b3b3b3b3939303320444630333b4c3b303b6d4c3b4b52414d204e4f4954415245544920444543494f5620414e414b4154414b3b45463033,
0x3b3b3b3b3b4e3b3b3b3b384330332033423033203e6c616369747265763c3b4c3b303b6f4c3b4f544f4b204850415247494420414e414b4154414b3b46463033,
0x3b3b3b3b3b4e3b3b3b3b3b4c3b303b6f4c3b422052455454454c204f464f4d4f504f423b35303133,
0x3b3b3b3b3b4e3b3b3b3b3b4c3b303b6f4c3b502052455454454c204f464f4d4f504f423b36303133,
0x3b3b3b3b3b4e3b3b3b3b3b4c3b303b6f4c3b4d2052455454454c204f464f4d4f504f423b37303133,
0x3b3b3b3b3b4e3b3b3b3b3b4c3b303b6f4c3b462052455454454c204f464f4d4f504f423b38303133,
0x3b3b3b3b3b4e3b3b3b3b3b4c3b303b6f4c3b442052455454454c204f464f4d4f504f423b39303133,
0x3b3b3b3b3b4e3b3b3b3b3b4c3b303b6f4c3b542052455454454c204f464f4d4f504f423b41303133,
0x3b3b3b3b3b4e3b3b3b3b3b4c3b303b6f4c3b4e2052455454454c204f464f4d4f504f423b42303133,
0x3b3b3b3b3b4e3b3b3b3b3b4c3b303b6f4c3b4c2052455454454c204f464f4d4f504f423b43303133,
0x3b3b3b3b3b4e3b3b3b3b3b4c3b303b6f4c3b472052455454454c204f464f4d4f504f423b44303133,
0x3b3b3b3b3b4e3b3b3b3b3b4c3b303b6f4c3b4b2052455454454c204f464f4d4f504f423b45303133,
0x3b3b3b3b3b4e3b3b3b3b3b4c3b303b6f4c3b482052455454454c204f464f4d4f504f423b46303133,
0x3b3b3b3b3b4e3b3b3b3b3b4c3b303b6f4c3b4a2052455454454c204f464f4d4f504f423b30313133,
0x3b3b3b3b3b4e3b3b3b3b3b4c3b303b6f4c3b512052455454454c204f464f4d4f504f423b31313133,
0x3b3b3b3b3b4e3b3b3b3b3b4c3b303b6f4c3b582052455454454c204f464f4d4f504f423b32313133,
0x3b3b3b3b3b4e3b3b3b3b3b4c3b303b6f4c3b485a2052455454454c204f464f4d4f504f423b33313133,
0x3b3b3b3b3b4e3b3b3b3b3b4c3b303b6f4c3b48432052455454454c204f464f4d4f504f423b34313133,
0x3b3b3b3b3b4e3b3b3b3b3b4c3b303b6f4c3b48532052455454454c204f464f4d4f504f423b35313133,
0x3b3b3b3b3b4e3b3b3b3b3b4c3b303b6f4c3b522052455454454c204f464f4d4f504f423b36313133,
0x3b3b3b3b3b4e3b3b3b3b3b4c3b303b6f4c3b5a2052455454454c204f464f4d4f504f423b37313133,
0x3b3b3b3b3b4e3b3b3b3b3b4c3b303b6f4c3b432052455454454c204f464f4d4f504f423b38313133,
0x3b3b3b3b3b4e3b3b3b3b3b4c3b303b6f4c3b532052455454454c204f464f4d4f504f423b39313133,
0x3b3b3b3b3b4e3b3b3b3b3b4c3b303b6f4c3b412052455454454c204f464f4d4f504f423b41313133,
0x3b3b3b3b3b4e3b3b3b3b3b4c3b303b6f4c3b4f2052455454454c204f464f4d4f504f423b42313133,
0x3b3b3b3b3b4e3b3b3b3b3b4c3b303b6f4c3b452052455454454c204f464f4d4f504f423b43313133,
0x3b3b3b3b3b4e3b3b3b3b3b4c3b303b6f4c3b48452052455454454c204f464f4d4f504f423b44313133,
0x3b3b3b3b3b4e3b3b3b3b3b4c3b303b6f4c3b49412052455454454c204f464f4d4f504f423b45313133,
0x3b3b3b3b3b4e3b3b3b3b3b4c3b303b6f4c3b49452052455454454c204f464f4d4f504f423b46313133,
0x3b3b3b3b3b4e3b3b3b3b3b4c3b303b6f4c3b55412052455454454c204f464f4d4f504f423b30323133,
0x3b3b3b3b3b4e3b3b3b3b3b4c3b303b6f4c3b554f2052455454454c204f464f4d4f504f423b31323133,
0x3b3b3b3b3b4e3b3b3b3b3b4c3b303b6f4c3b4e412052455454454c204f464f4d4f504f423b32323133,
0x3b3b3b3b3b4e3b3b3b3b3b4c3b303b6f4c3b4e452052455454454c204f464f4d4f504f423b33323133,
0x3b3b3b3b3b4e3b3b3b3b3b4c3b303b6f4c3b474e412052455454454c204f464f4d4f504f423b34323133,
0x3b3b3b3b3b4e3b3b3b3b3b4c3b303b6f4c3b474e452052455454454c204f464f4d4f504f423b35323133,
0x3b3b3b3b3b4e3b3b3b3b3b4c3b303b6f4c3b52452052455454454c204f464f4d4f504f423b36323133,
0x3b3b3b3b3b4e3b3b3b3b3b4c3b303b6f4c3b492052455454454c204f464f4d4f504f423b37323133,
0x3b3b3b3b3b4e3b3b3b3b3b4c3b303b6f4c3b552052455454454c204f464f4d4f504f423b38323133,
0x3b3b3b3b3b4e3b3b3b3b3b4c3b303b6f4c3b55492052455454454c204f464f4d4f504f423b39323133,
0x3b3b3b3b3b4e3b3b3b3b3b4c3b303b6f4c3b562052455454454c204f464f4d4f504f423b41323133,
0x3b3b3b3b3b4e3b3b3b3b3b4c3b303b6f4c3b474e2052455454454c204f464f4d4f504f423b42323133,
0x3b3b3b3b3b4e3b3b3b3b3b4c3b303b6f4c3b4e472052455454454c204f464f4d4f504f423b43323133,
0x3b3b3b3b3b4e3b3b3b3b3b4c3b303b6f4c3b48492052455454454c204f464f4d4f504f423b44323133,
0x3b3b3b3b474f455949472052455454454c204c55474e41483b4e3b3b3b3b30303131203e7461706d6f633c3b4c3b303b6f4c3b4b4f4559494b2052455454454c204c55474e41483b31333133,
0x3b3b3b3b474f4559494720474e4153532052455454454c204c55474e41483b4e3b3b3b3b31303131203e7461706d6f633c3b4c3b303b6f4c3b4b4f4559494b474e4153532052455454454c204c55474e41483b32333133,
0x3b3b3b3b534f495320474f455949472052455454454c204c55474e41483b4e3b3b3b3b41413131203e7461706d6f633c3b4c3b303b6f4c3b534f49532d4b4f4559494b2052455454454c204c55474e41483b33333133,
0x3b3b3b3b3b4e3b3b3b3b32303131203e7461706d6f633c3b4c3b303b6f4c3b4e5545494e2052455454454c204c55474e41483b34333133,
0x3b3b3b3b4a5545494a204e5545494e2052455454454c204c55474e41483b4e3b3b3b3b43413131203e7461706d6f633c3b4c3b303b6f4c3b43554549432d4e5545494e2052455454454c204c55474e41483b35333133,
0x3b3b3b3b4855454948204e5545494e2052455454454c204c55474e41483b4e3b3b3b3b44413131203e7461706d6f633c3b4c3b303b6f4c3b48554549482d4e5545494e2052455454454c204c55474e41483b36333133,
0x3b3b3b3b4455454749442052455454454c204c55474e41483b4e3b3b3b3b33303131203e7461706d6f633c3b4c3b303b6f4c3b5455454b49542052455454454c204c55474e41483b37333133,
0x3b3b3b3b44554547494420474e4153532052455454454c204c55474e41483b4e3b3b3b3b34303131203e7461706d6f633c3b4c3b303b6f4c3b5455454b4954474e4153532052455454454c204c55474e41483b38333133,
0x3b3b3b3b4c5545494c2052455454454c204c55474e41483b4e3b3b3b3b35303131203e7461706d6f633c3b4c3b303b6f4c3b4c554549522052455454454c204c55474e41483b39333133,
0x3b3b3b3b474f45594947204c5545494c2052455454454c204c55474e41483b4e3b3b3b3b30423131203e7461706d6f633c3b4c3b303b6f4c3b4b4f4559494b2d4c554549522052455454454c204c55474e41483b41333133,
0x3b3b3b3b4d5545494d204c5545494c2052455454454c204c55474e41483b4e3b3b3b3b31423131203e7461706d6f633c3b4c3b303b6f4c3b4d5545494d2d4c554549522052455454454c204c55474e41483b42333133,
0x3b3b3b3b4255454942204c5545494c2052455454454c204c55474e41483b4e3b3b3b3b32423131203e7461706d6f633c3b4c3b303b6f4c3b50554549502d4c554549522052455454454c204c55474e41483b43333133]

/-- src/u5e/props/UnicodeData.txt lines 11265-11520. -/
def rawUcd44 : List Nat := [
0x3b3b3b3b534f4953204c5545494c2052455454454c204c55474e41483b4e3b3b3b3b33423131203e7461706d6f633c3b4c3b303b6f4c3b534f49532d4c554549522052455454454c204c55474e41483b44333133,
0x3b3b3b3b5455454954204c5545494c2052455454454c204c55474e41483b4e3b3b3b3b34423131203e7461706d6f633c3b4c3b303b6f4c3b485455454948542d4c554549522052455454454c204c55474e41483b45333133,
0x3b3b3b3b5055454950204c5545494c2052455454454c204c55474e41483b4e3b3b3b3b35423131203e7461706d6f633c3b4c3b303b6f4c3b485055454948502d4c554549522052455454454c204c55474e41483b46333133,
0x3b3b3b3b4855454948204c5545494c2052455454454c204c55474e41483b4e3b3b3b3b41313131203e7461706d6f633c3b4c3b303b6f4c3b48554549482d4c554549522052455454454c204c55474e41483b30343133,
0x3b3b3b3b3b4e3b3b3b3b36303131203e7461706d6f633c3b4c3b303b6f4c3b4d5545494d2052455454454c204c55474e41483b31343133,
0x3b3b3b3b42554549422052455454454c204c55474e41483b4e3b3b3b3b37303131203e7461706d6f633c3b4c3b303b6f4c3b50554549502052455454454c204c55474e41483b32343133,
0x3b3b3b3b425545494220474e4153532052455454454c204c55474e41483b4e3b3b3b3b38303131203e7461706d6f633c3b4c3b303b6f4c3b5055454950474e4153532052455454454c204c55474e41483b33343133,
0x3b3b3b3b534f49532042554549422052455454454c204c55474e41483b4e3b3b3b3b31323131203e7461706d6f633c3b4c3b303b6f4c3b534f49532d50554549502052455454454c204c55474e41483b34343133,
0x3b3b3b3b3b4e3b3b3b3b39303131203e7461706d6f633c3b4c3b303b6f4c3b534f49532052455454454c204c55474e41483b35343133,
0x3b3b3b3b534f495320474e4153532052455454454c204c55474e41483b4e3b3b3b3b41303131203e7461706d6f633c3b4c3b303b6f4c3b534f4953474e4153532052455454454c204c55474e41483b36343133,
0x3b3b3b3b3b4e3b3b3b3b42303131203e7461706d6f633c3b4c3b303b6f4c3b474e5545492052455454454c204c55474e41483b37343133,
0x3b3b3b3b4a5545494a2052455454454c204c55474e41483b4e3b3b3b3b43303131203e7461706d6f633c3b4c3b303b6f4c3b43554549432052455454454c204c55474e41483b38343133,
0x3b3b3b3b4a5545494a20474e4153532052455454454c204c55474e41483b4e3b3b3b3b44303131203e7461706d6f633c3b4c3b303b6f4c3b4355454943474e4153532052455454454c204c55474e41483b39343133,
0x3b3b3b3b43554549432052455454454c204c55474e41483b4e3b3b3b3b45303131203e7461706d6f633c3b4c3b303b6f4c3b484355454948432052455454454c204c55474e41483b41343133,
0x3b3b3b3b4b4f4559494b2052455454454c204c55474e41483b4e3b3b3b3b46303131203e7461706d6f633c3b4c3b303b6f4c3b484b554549484b2052455454454c204c55474e41483b42343133,
0x3b3b3b3b54554549542052455454454c204c55474e41483b4e3b3b3b3b30313131203e7461706d6f633c3b4c3b303b6f4c3b485455454948542052455454454c204c55474e41483b43343133,
0x3b3b3b3b50554549502052455454454c204c55474e41483b4e3b3b3b3b31313131203e7461706d6f633c3b4c3b303b6f4c3b485055454948502052455454454c204c55474e41483b44343133,
0x3b3b3b3b3b4e3b3b3b3b32313131203e7461706d6f633c3b4c3b303b6f4c3b48554549482052455454454c204c55474e41483b45343133,
0x3b3b3b3b3b4e3b3b3b3b31363131203e7461706d6f633c3b4c3b303b6f4c3b412052455454454c204c55474e41483b46343133,
0x3b3b3b3b3b4e3b3b3b3b32363131203e7461706d6f633c3b4c3b303b6f4c3b45412052455454454c204c55474e41483b30353133,
0x3b3b3b3b3b4e3b3b3b3b33363131203e7461706d6f633c3b4c3b303b6f4c3b41592052455454454c204c55474e41483b31353133,
0x3b3b3b3b3b4e3b3b3b3b34363131203e7461706d6f633c3b4c3b303b6f4c3b4541592052455454454c204c55474e41483b32353133,
0x3b3b3b3b3b4e3b3b3b3b35363131203e7461706d6f633c3b4c3b303b6f4c3b4f452052455454454c204c55474e41483b33353133,
0x3b3b3b3b3b4e3b3b3b3b36363131203e7461706d6f633c3b4c3b303b6f4c3b452052455454454c204c55474e41483b34353133,
0x3b3b3b3b3b4e3b3b3b3b37363131203e7461706d6f633c3b4c3b303b6f4c3b4f45592052455454454c204c55474e41483b35353133,
0x3b3b3b3b3b4e3b3b3b3b38363131203e7461706d6f633c3b4c3b303b6f4c3b45592052455454454c204c55474e41483b36353133,
0x3b3b3b3b3b4e3b3b3b3b39363131203e7461706d6f633c3b4c3b303b6f4c3b4f2052455454454c204c55474e41483b37353133,
0x3b3b3b3b3b4e3b3b3b3b41363131203e7461706d6f633c3b4c3b303b6f4c3b41572052455454454c204c55474e41483b38353133,
0x3b3b3b3b3b4e3b3b3b3b42363131203e7461706d6f633c3b4c3b303b6f4c3b4541572052455454454c204c55474e41483b39353133,
0x3b3b3b3b3b4e3b3b3b3b43363131203e7461706d6f633c3b4c3b303b6f4c3b454f2052455454454c204c55474e41483b41353133,
0x3b3b3b3b3b4e3b3b3b3b44363131203e7461706d6f633c3b4c3b303b6f4c3b4f592052455454454c204c55474e41483b42353133,
0x3b3b3b3b3b4e3b3b3b3b45363131203e7461706d6f633c3b4c3b303b6f4c3b552052455454454c204c55474e41483b43353133,
0x3b3b3b3b3b4e3b3b3b3b46363131203e7461706d6f633c3b4c3b303b6f4c3b4f45572052455454454c204c55474e41483b44353133,
0x3b3b3b3b3b4e3b3b3b3b30373131203e7461706d6f633c3b4c3b303b6f4c3b45572052455454454c204c55474e41483b45353133,
0x3b3b3b3b3b4e3b3b3b3b31373131203e7461706d6f633c3b4c3b303b6f4c3b49572052455454454c204c55474e41483b46353133,
0x3b3b3b3b3b4e3b3b3b3b32373131203e7461706d6f633c3b4c3b303b6f4c3b55592052455454454c204c55474e41483b30363133,
0x3b3b3b3b3b4e3b3b3b3b33373131203e7461706d6f633c3b4c3b303b6f4c3b55452052455454454c204c55474e41483b31363133,
0x3b3b3b3b3b4e3b3b3b3b34373131203e7461706d6f633c3b4c3b303b6f4c3b49592052455454454c204c55474e41483b32363133,
0x3b3b3b3b3b4e3b3b3b3b35373131203e7461706d6f633c3b4c3b303b6f4c3b492052455454454c204c55474e41483b33363133,
0x3b3b3b3b4d4f20454143204c55474e41483b4e3b3b3b3b30363131203e7461706d6f633c3b4c3b303b6f4c3b52454c4c4946204c55474e41483b34363133,
0x3b3b3b3b4e5545494e20474e4153532052455454454c204c55474e41483b4e3b3b3b3b34313131203e7461706d6f633c3b4c3b303b6f4c3b4e5545494e474e4153532052455454454c204c55474e41483b35363133,
0x3b3b3b3b445545474944204e5545494e2052455454454c204c55474e41483b4e3b3b3b3b35313131203e7461706d6f633c3b4c3b303b6f4c3b5455454b49542d4e5545494e2052455454454c204c55474e41483b36363133,
0x3b3b3b3b534f4953204e5545494e2052455454454c204c55474e41483b4e3b3b3b3b37433131203e7461706d6f633c3b4c3b303b6f4c3b534f49532d4e5545494e2052455454454c204c55474e41483b37363133,
0x3b3b3b3b4d554520494843204e4142204e5545494e2052455454454c204c55474e41483b4e3b3b3b3b38433131203e7461706d6f633c3b4c3b303b6f4c3b534f49534e41502d4e5545494e2052455454454c204c55474e41483b38363133,
0x3b3b3b3b534f495320474f45594947204c5545494c2052455454454c204c55474e41483b4e3b3b3b3b43433131203e7461706d6f633c3b4c3b303b6f4c3b534f49532d4b4f4559494b2d4c554549522052455454454c204c55474e41483b39363133,
0x3b3b3b3b445545474944204c5545494c2052455454454c204c55474e41483b4e3b3b3b3b45433131203e7461706d6f633c3b4c3b303b6f4c3b5455454b49542d4c554549522052455454454c204c55474e41483b41363133,
0x3b3b3b3b534f4953204255454942204c5545494c2052455454454c204c55474e41483b4e3b3b3b3b33443131203e7461706d6f633c3b4c3b303b6f4c3b534f49532d50554549502d4c554549522052455454454c204c55474e41483b42363133,
0x3b3b3b3b4d554520494843204e4142204c5545494c2052455454454c204c55474e41483b4e3b3b3b3b37443131203e7461706d6f633c3b4c3b303b6f4c3b534f49534e41502d4c554549522052455454454c204c55474e41483b43363133,
0x3b3b3b3b4855454948204e494c4f4559204c5545494c2052455454454c204c55474e41483b4e3b3b3b3b39443131203e7461706d6f633c3b4c3b303b6f4c3b48554549484e49524f45592d4c554549522052455454454c204c55474e41483b44363133,
0x3b3b3b3b4255454942204d5545494d2052455454454c204c55474e41483b4e3b3b3b3b43313131203e7461706d6f633c3b4c3b303b6f4c3b50554549502d4d5545494d2052455454454c204c55474e41483b45363133,
0x3b3b3b3b534f4953204d5545494d2052455454454c204c55474e41483b4e3b3b3b3b44443131203e7461706d6f633c3b4c3b303b6f4c3b534f49532d4d5545494d2052455454454c204c55474e41483b46363133,
0x3b3b3b3b4d554520494843204e41422042554549422052455454454c204c55474e41483b4e3b3b3b3b46443131203e7461706d6f633c3b4c3b303b6f4c3b534f49534e41502d4d5545494d2052455454454c204c55474e41483b30373133,
0x3b3b3b3b4d554520474e4f455947204e5553204d5545494d2052455454454c204c55474e41483b4e3b3b3b3b44313131203e7461706d6f633c3b4c3b303b6f4c3b4d5545494d4e554f455950414b2052455454454c204c55474e41483b31373133,
0x3b3b3b3b474f455949472042554549422052455454454c204c55474e41483b4e3b3b3b3b45313131203e7461706d6f633c3b4c3b303b6f4c3b4b4f4559494b2d50554549502052455454454c204c55474e41483b32373133,
0x3b3b3b3b4455454749442042554549422052455454454c204c55474e41483b4e3b3b3b3b30323131203e7461706d6f633c3b4c3b303b6f4c3b5455454b49542d50554549502052455454454c204c55474e41483b33373133,
0x3b3b3b3b474f4559494720534f49532042554549422052455454454c204c55474e41483b4e3b3b3b3b32323131203e7461706d6f633c3b4c3b303b6f4c3b4b4f4559494b2d534f49532d50554549502052455454454c204c55474e41483b34373133,
0x3b3b3b3b44554547494420534f49532042554549422052455454454c204c55474e41483b4e3b3b3b3b33323131203e7461706d6f633c3b4c3b303b6f4c3b5455454b49542d534f49532d50554549502052455454454c204c55474e41483b35373133,
0x3b3b3b3b4a5545494a2042554549422052455454454c204c55474e41483b4e3b3b3b3b37323131203e7461706d6f633c3b4c3b303b6f4c3b43554549432d50554549502052455454454c204c55474e41483b36373133,
0x3b3b3b3b54554549542042554549422052455454454c204c55474e41483b4e3b3b3b3b39323131203e7461706d6f633c3b4c3b303b6f4c3b485455454948542d50554549502052455454454c204c55474e41483b37373133,
0x3b3b3b3b4d554520474e4f455947204e55532042554549422052455454454c204c55474e41483b4e3b3b3b3b42323131203e7461706d6f633c3b4c3b303b6f4c3b50554549504e554f455950414b2052455454454c204c55474e41483b38373133,
0x3b3b3b3b4d554520474e4f455947204e555320425545494220474e4153532052455454454c204c55474e41483b4e3b3b3b3b43323131203e7461706d6f633c3b4c3b303b6f4c3b5055454950474e4153534e554f455950414b2052455454454c204c55474e41483b39373133,
0x3b3b3b3b474f4559494720534f49532052455454454c204c55474e41483b4e3b3b3b3b44323131203e7461706d6f633c3b4c3b303b6f4c3b4b4f4559494b2d534f49532052455454454c204c55474e41483b41373133,
0x3b3b3b3b4e5545494e20534f49532052455454454c204c55474e41483b4e3b3b3b3b45323131203e7461706d6f633c3b4c3b303b6f4c3b4e5545494e2d534f49532052455454454c204c55474e41483b42373133,
0x3b3b3b3b44554547494420534f49532052455454454c204c55474e41483b4e3b3b3b3b46323131203e7461706d6f633c3b4c3b303b6f4c3b5455454b49542d534f49532052455454454c204c55474e41483b43373133,
0x3b3b3b3b425545494220534f49532052455454454c204c55474e41483b4e3b3b3b3b32333131203e7461706d6f633c3b4c3b303b6f4c3b50554549502d534f49532052455454454c204c55474e41483b44373133,
0x3b3b3b3b4a5545494a20534f49532052455454454c204c55474e41483b4e3b3b3b3b36333131203e7461706d6f633c3b4c3b303b6f4c3b43554549432d534f49532052455454454c204c55474e41483b45373133,
0x3b3b3b3b4d554520494843204e41422052455454454c204c55474e41483b4e3b3b3b3b30343131203e7461706d6f633c3b4c3b303b6f4c3b534f49534e41502052455454454c204c55474e41483b46373133,
0x3b3b3b3b474e55454920474e4153532052455454454c204c55474e41483b4e3b3b3b3b37343131203e7461706d6f633c3b4c3b303b6f4c3b474e554549474e4153532052455454454c204c55474e41483b30383133,
0x3b3b3b3b474e554549474e2052455454454c204c55474e41483b4e3b3b3b3b43343131203e7461706d6f633c3b4c3b303b6f4c3b474e5545495345592052455454454c204c55474e41483b31383133,
0x3b3b3b3b534f495320474e554549474e2052455454454c204c55474e41483b4e3b3b3b3b31463131203e7461706d6f633c3b4c3b303b6f4c3b534f49532d474e5545495345592052455454454c204c55474e41483b32383133,
0x3b3b3b3b4d554520494843204e414220474e554549474e2052455454454c204c55474e41483b4e3b3b3b3b32463131203e7461706d6f633c3b4c3b303b6f4c3b534f49534e41502d474e5545495345592052455454454c204c55474e41483b33383133,
0x3b3b3b3b4d554520474e4f455947204e55532050554549502052455454454c204c55474e41483b4e3b3b3b3b37353131203e7461706d6f633c3b4c3b303b6f4c3b485055454948504e554f455950414b2052455454454c204c55474e41483b34383133,
0x3b3b3b3b485545494820474e4153532052455454454c204c55474e41483b4e3b3b3b3b38353131203e7461706d6f633c3b4c3b303b6f4c3b4855454948474e4153532052455454454c204c55474e41483b35383133,
0x3b3b3b3b4855454948204e494c4f45592052455454454c204c55474e41483b4e3b3b3b3b39353131203e7461706d6f633c3b4c3b303b6f4c3b48554549484e49524f45592052455454454c204c55474e41483b36383133,
0x3b3b3b3b41594f592052455454454c204c55474e41483b4e3b3b3b3b34383131203e7461706d6f633c3b4c3b303b6f4c3b41592d4f592052455454454c204c55474e41483b37383133,
0x3b3b3b3b4541594f592052455454454c204c55474e41483b4e3b3b3b3b35383131203e7461706d6f633c3b4c3b303b6f4c3b4541592d4f592052455454454c204c55474e41483b38383133,
0x3b3b3b3b494f592052455454454c204c55474e41483b4e3b3b3b3b38383131203e7461706d6f633c3b4c3b303b6f4c3b492d4f592052455454454c204c55474e41483b39383133,
0x3b3b3b3b4f455955592052455454454c204c55474e41483b4e3b3b3b3b31393131203e7461706d6f633c3b4c3b303b6f4c3b4f45592d55592052455454454c204c55474e41483b41383133,
0x3b3b3b3b455955592052455454454c204c55474e41483b4e3b3b3b3b32393131203e7461706d6f633c3b4c3b303b6f4c3b45592d55592052455454454c204c55474e41483b42383133,
0x3b3b3b3b4955592052455454454c204c55474e41483b4e3b3b3b3b34393131203e7461706d6f633c3b4c3b303b6f4c3b492d55592052455454454c204c55474e41483b43383133,
0x3b3b3b3b412045414c412052455454454c204c55474e41483b4e3b3b3b3b45393131203e7461706d6f633c3b4c3b303b6f4c3b41454152412052455454454c204c55474e41483b44383133,
0x3b3b3b3b45412045414c412052455454454c204c55474e41483b4e3b3b3b3b31413131203e7461706d6f633c3b4c3b303b6f4c3b4541454152412052455454454c204c55474e41483b45383133,
0x3b3b3b3b4e455445544154204e55424e414b3b4e3b3b3b3b3b4c3b303b6f533b4b52414d20474e494b4e494c204e4f495441544f4e4e4120434948504152474f4544493b30393133,
0x3b3b3b3b4552204e4554495245414b3b4e3b3b3b3b3b4c3b303b6f533b4b52414d2045535245564552204e4f495441544f4e4e4120434948504152474f4544493b31393133,
0x3b3b3b3b495449204e4554495245414b3b4e3b313b3b3b30304534203e72657075733c3b4c3b303b6f4e3b4b52414d20454e4f204e4f495441544f4e4e4120434948504152474f4544493b32393133,
0x3b3b3b3b494e204e4554495245414b3b4e3b323b3b3b43384534203e72657075733c3b4c3b303b6f4e3b4b52414d204f5754204e4f495441544f4e4e4120434948504152474f4544493b33393133,
0x3b3b3b3b4e4153204e4554495245414b3b4e3b333b3b3b39304534203e72657075733c3b4c3b303b6f4e3b4b52414d204545524854204e4f495441544f4e4e4120434948504152474f4544493b34393133,
0x3b3b3b3b4953204e4554495245414b3b4e3b343b3b3b42443635203e72657075733c3b4c3b303b6f4e3b4b52414d2052554f46204e4f495441544f4e4e4120434948504152474f4544493b35393133,
0x3b3b3b3b554f595a204e4554495245414b3b4e3b3b3b3b41304534203e72657075733c3b4c3b303b6f533b4b52414d20504f54204e4f495441544f4e4e4120434948504152474f4544493b36393133,
0x3b3b3b3b55555954204e4554495245414b3b4e3b3b3b3b44324534203e72657075733c3b4c3b303b6f533b4b52414d20454c4444494d204e4f495441544f4e4e4120434948504152474f4544493b37393133,
0x3b3b3b3b4547204e4554495245414b3b4e3b3b3b3b42304534203e72657075733c3b4c3b303b6f533b4b52414d204d4f54544f42204e4f495441544f4e4e4120434948504152474f4544493b38393133,
0x3b3b3b3b554f4b204e4554495245414b3b4e3b3b3b3b32333537203e72657075733c3b4c3b303b6f533b4b52414d205453524946204e4f495441544f4e4e4120434948504152474f4544493b39393133,
0x3b3b3b3b55544f204e4554495245414b3b4e3b3b3b3b39354534203e72657075733c3b4c3b303b6f533b4b52414d20444e4f434553204e4f495441544f4e4e4120434948504152474f4544493b41393133,
0x3b3b3b3b494548204e4554495245414b3b4e3b3b3b3b39314534203e72657075733c3b4c3b303b6f533b4b52414d204452494854204e4f495441544f4e4e4120434948504152474f4544493b42393133,
0x3b3b3b3b494554204e4554495245414b3b4e3b3b3b3b31304534203e72657075733c3b4c3b303b6f533b4b52414d20485452554f46204e4f495441544f4e4e4120434948504152474f4544493b43393133,
0x3b3b3b3b4e4554204e4554495245414b3b4e3b3b3b3b39323935203e72657075733c3b4c3b303b6f533b4b52414d204e4556414548204e4f495441544f4e4e4120434948504152474f4544493b44393133,
0x3b3b3b3b4954204e4554495245414b3b4e3b3b3b3b30333735203e72657075733c3b4c3b303b6f533b4b52414d204854524145204e4f495441544f4e4e4120434948504152474f4544493b45393133,
0x3b3b3b3b4e495a204e4554495245414b3b4e3b3b3b3b41424534203e72657075733c3b4c3b303b6f533b4b52414d204e414d204e4f495441544f4e4e4120434948504152474f4544493b46393133,
0x3b3b3b3b3b4e3b3b3b3b3b4c3b303b6f4c3b55422052455454454c204f464f4d4f504f423b30413133,
0x3b3b3b3b3b4e3b3b3b3b3b4c3b303b6f4c3b495a2052455454454c204f464f4d4f504f423b31413133,
0x3b3b3b3b3b4e3b3b3b3b3b4c3b303b6f4c3b494a2052455454454c204f464f4d4f504f423b32413133,
0x3b3b3b3b3b4e3b3b3b3b3b4c3b303b6f4c3b55472052455454454c204f464f4d4f504f423b33413133,
0x3b3b3b3b3b4e3b3b3b3b3b4c3b303b6f4c3b45452052455454454c204f464f4d4f504f423b34413133,
0x3b3b3b3b3b4e3b3b3b3b3b4c3b303b6f4c3b4e4e452052455454454c204f464f4d4f504f423b35413133,
0x3b3b3b3b3b4e3b3b3b3b3b4c3b303b6f4c3b4f4f2052455454454c204f464f4d4f504f423b36413133,
0x3b3b3b3b3b4e3b3b3b3b3b4c3b303b6f4c3b4e4e4f2052455454454c204f464f4d4f504f423b37413133,
0x3b3b3b3b3b4e3b3b3b3b3b4c3b303b6f4c3b52492052455454454c204f464f4d4f504f423b38413133,
0x3b3b3b3b3b4e3b3b3b3b3b4c3b303b6f4c3b4e4e412052455454454c204f464f4d4f504f423b39413133,
0x3b3b3b3b3b4e3b3b3b3b3b4c3b303b6f4c3b4e4e492052455454454c204f464f4d4f504f423b41413133,
0x3b3b3b3b3b4e3b3b3b3b3b4c3b303b6f4c3b4e4e552052455454454c204f464f4d4f504f423b42413133,
0x3b3b3b3b3b4e3b3b3b3b3b4c3b303b6f4c3b4d492052455454454c204f464f4d4f504f423b43413133,
0x3b3b3b3b3b4e3b3b3b3b3b4c3b303b6f4c3b47474e2052455454454c204f464f4d4f504f423b44413133,
0x3b3b3b3b3b4e3b3b3b3b3b4c3b303b6f4c3b4e4e49412052455454454c204f464f4d4f504f423b45413133,
0x3b3b3b3b3b4e3b3b3b3b3b4c3b303b6f4c3b4e4e55412052455454454c204f464f4d4f504f423b46413133,
0x3b3b3b3b3b4e3b3b3b3b3b4c3b303b6f4c3b4d412052455454454c204f464f4d4f504f423b30423133,
0x3b3b3b3b3b4e3b3b3b3b3b4c3b303b6f4c3b4d4f2052455454454c204f464f4d4f504f423b31423133,
0x3b3b3b3b3b4e3b3b3b3b3b4c3b303b6f4c3b474e4f2052455454454c204f464f4d4f504f423b32423133,
0x3b3b3b3b3b4e3b3b3b3b3b4c3b303b6f4c3b4e4e4e492052455454454c204f464f4d4f504f423b33423133,
0x3b3b3b3b3b4e3b3b3b3b3b4c3b303b6f4c3b502052455454454c204c414e4946204f464f4d4f504f423b34423133,
0x3b3b3b3b3b4e3b3b3b3b3b4c3b303b6f4c3b542052455454454c204c414e4946204f464f4d4f504f423b35423133,
0x3b3b3b3b3b4e3b3b3b3b3b4c3b303b6f4c3b4b2052455454454c204c414e4946204f464f4d4f504f423b36423133,
0x3b3b3b3b3b4e3b3b3b3b3b4c3b303b6f4c3b482052455454454c204c414e4946204f464f4d4f504f423b37423133,
0x3b3b3b3b3b4e3b3b3b3b3b4c3b303b6f4c3b48472052455454454c204f464f4d4f504f423b38423133,
0x3b3b3b3b3b4e3b3b3b3b3b4c3b303b6f4c3b484c2052455454454c204f464f4d4f504f423b39423133,
0x3b3b3b3b3b4e3b3b3b3b3b4c3b303b6f4c3b595a2052455454454c204f464f4d4f504f423b41423133,
0x3b3b3b3b3b4e3b3b3b3b3b4e4f3b303b6f533b5420454b4f525453204b4a433b30433133,
0x3b3b3b3b3b4e3b3b3b3b3b4e4f3b303b6f533b475720454b4f525453204b4a433b31433133,
0x3b3b3b3b3b4e3b3b3b3b3b4e4f3b303b6f533b475820454b4f525453204b4a433b32433133,
0x3b3b3b3b3b4e3b3b3b3b3b4e4f3b303b6f533b47584220454b4f525453204b4a433b33433133,
0x3b3b3b3b3b4e3b3b3b3b3b4e4f3b303b6f533b575320454b4f525453204b4a433b34433133,
0x3b3b3b3b3b4e3b3b3b3b3b4e4f3b303b6f533b5a5a4820454b4f525453204b4a433b35433133,
0x3b3b3b3b3b4e3b3b3b3b3b4e4f3b303b6f533b475a4820454b4f525453204b4a433b36433133,
0x3b3b3b3b3b4e3b3b3b3b3b4e4f3b303b6f533b504820454b4f525453204b4a433b37433133,
0x3b3b3b3b3b4e3b3b3b3b3b4e4f3b303b6f533b47575a4820454b4f525453204b4a433b38433133,
0x3b3b3b3b3b4e3b3b3b3b3b4e4f3b303b6f533b47575a5320454b4f525453204b4a433b39433133,
0x3b3b3b3b3b4e3b3b3b3b3b4e4f3b303b6f533b545a4820454b4f525453204b4a433b41433133,
0x3b3b3b3b3b4e3b3b3b3b3b4e4f3b303b6f533b505a5a4820454b4f525453204b4a433b42433133,
0x3b3b3b3b3b4e3b3b3b3b3b4e4f3b303b6f533b4757504820454b4f525453204b4a433b43433133,
0x3b3b3b3b3b4e3b3b3b3b3b4e4f3b303b6f533b575a4820454b4f525453204b4a433b44433133,
0x3b3b3b3b3b4e3b3b3b3b3b4e4f3b303b6f533b5a5a5a4820454b4f525453204b4a433b45433133,
0x3b3b3b3b3b4e3b3b3b3b3b4e4f3b303b6f533b4e20454b4f525453204b4a433b46433133,
0x3b3b3b3b3b4e3b3b3b3b3b4e4f3b303b6f533b4820454b4f525453204b4a433b30443133,
0x3b3b3b3b3b4e3b3b3b3b3b4e4f3b303b6f533b5320454b4f525453204b4a433b31443133,
0x3b3b3b3b3b4e3b3b3b3b3b4e4f3b303b6f533b5020454b4f525453204b4a433b32443133,
0x3b3b3b3b3b4e3b3b3b3b3b4e4f3b303b6f533b505320454b4f525453204b4a433b33443133,
0x3b3b3b3b3b4e3b3b3b3b3b4e4f3b303b6f533b4420454b4f525453204b4a433b34443133,
0x3b3b3b3b3b4e3b3b3b3b3b4e4f3b303b6f533b5a4820454b4f525453204b4a433b35443133,
0x3b3b3b3b3b4e3b3b3b3b3b4e4f3b303b6f533b474820454b4f525453204b4a433b36443133,
0x3b3b3b3b3b4e3b3b3b3b3b4e4f3b303b6f533b5a5320454b4f525453204b4a433b37443133,
0x3b3b3b3b3b4e3b3b3b3b3b4e4f3b303b6f533b5a575320454b4f525453204b4a433b38443133,
0x3b3b3b3b3b4e3b3b3b3b3b4e4f3b303b6f533b545320454b4f525453204b4a433b39443133,
0x3b3b3b3b3b4e3b3b3b3b3b4e4f3b303b6f533b475320454b4f525453204b4a433b41443133,
0x3b3b3b3b3b4e3b3b3b3b3b4e4f3b303b6f533b445020454b4f525453204b4a433b42443133,
0x3b3b3b3b3b4e3b3b3b3b3b4e4f3b303b6f533b5a5020454b4f525453204b4a433b43443133,
0x3b3b3b3b3b4e3b3b3b3b3b4e4f3b303b6f533b4e5420454b4f525453204b4a433b44443133,
0x3b3b3b3b3b4e3b3b3b3b3b4e4f3b303b6f533b5a5a5320454b4f525453204b4a433b45443133,
0x3b3b3b3b3b4e3b3b3b3b3b4e4f3b303b6f533b47575320454b4f525453204b4a433b46443133,
0x3b3b3b3b3b4e3b3b3b3b3b4e4f3b303b6f533b4757584820454b4f525453204b4a433b30453133,
0x3b3b3b3b3b4e3b3b3b3b3b4e4f3b303b6f533b475a5a5a4820454b4f525453204b4a433b31453133,
0x3b3b3b3b3b4e3b3b3b3b3b4e4f3b303b6f533b475020454b4f525453204b4a433b32453133,
0x3b3b3b3b3b4e3b3b3b3b3b4e4f3b303b6f533b5120454b4f525453204b4a433b33453133,
0x3b3b3b3b3b4e3b3b3b3b3b4c3b303b6f4c3b554b204c4c414d532052455454454c20414e414b4154414b3b30463133,
0x3b3b3b3b3b4e3b3b3b3b3b4c3b303b6f4c3b4953204c4c414d532052455454454c20414e414b4154414b3b31463133,
0x3b3b3b3b3b4e3b3b3b3b3b4c3b303b6f4c3b5553204c4c414d532052455454454c20414e414b4154414b3b32463133,
0x3b3b3b3b3b4e3b3b3b3b3b4c3b303b6f4c3b4f54204c4c414d532052455454454c20414e414b4154414b3b33463133,
0x3b3b3b3b3b4e3b3b3b3b3b4c3b303b6f4c3b554e204c4c414d532052455454454c20414e414b4154414b3b34463133,
0x3b3b3b3b3b4e3b3b3b3b3b4c3b303b6f4c3b4148204c4c414d532052455454454c20414e414b4154414b3b35463133,
0x3b3b3b3b3b4e3b3b3b3b3b4c3b303b6f4c3b4948204c4c414d532052455454454c20414e414b4154414b3b36463133,
0x3b3b3b3b3b4e3b3b3b3b3b4c3b303b6f4c3b5548204c4c414d532052455454454c20414e414b4154414b3b37463133,
0x3b3b3b3b3b4e3b3b3b3b3b4c3b303b6f4c3b4548204c4c414d532052455454454c20414e414b4154414b3b38463133,
0x3b3b3b3b3b4e3b3b3b3b3b4c3b303b6f4c3b4f48204c4c414d532052455454454c20414e414b4154414b3b39463133,
0x3b3b3b3b3b4e3b3b3b3b3b4c3b303b6f4c3b554d204c4c414d532052455454454c20414e414b4154414b3b41463133,
0x3b3b3b3b3b4e3b3b3b3b3b4c3b303b6f4c3b4152204c4c414d532052455454454c20414e414b4154414b3b42463133,
0x3b3b3b3b3b4e3b3b3b3b3b4c3b303b6f4c3b4952204c4c414d532052455454454c20414e414b4154414b3b43463133,
0x3b3b3b3b3b4e3b3b3b3b3b4c3b303b6f4c3b5552204c4c414d532052455454454c20414e414b4154414b3b44463133,
0x3b3b3b3b3b4e3b3b3b3b3b4c3b303b6f4c3b4552204c4c414d532052455454454c20414e414b4154414b3b45463133,
0x3b3b3b3b3b4e3b3b3b3b3b4c3b303b6f4c3b4f52204c4c414d532052455454454c20414e414b4154414b3b46463133,
0x3b3b3b3b474f45594947204c55474e41482044455a49534548544e455241503b4e3b3b3b3b3932303020303031312038323030203e7461706d6f633c3b4c3b303b6f533b4b4f4559494b204c55474e41482044455a49534548544e455241503b30303233,
0x3b3b3b3b3b4e3b3b3b3b3932303020323031312038323030203e7461706d6f633c3b4c3b303b6f533b4e5545494e204c55474e41482044455a49534548544e455241503b31303233,
0x3b3b3b3b445545474944204c55474e41482044455a49534548544e455241503b4e3b3b3b3b3932303020333031312038323030203e7461706d6f633c3b4c3b303b6f533b5455454b4954204c55474e41482044455a49534548544e455241503b32303233,
0x3b3b3b3b4c5545494c204c55474e41482044455a49534548544e455241503b4e3b3b3b3b3932303020353031312038323030203e7461706d6f633c3b4c3b303b6f533b4c55454952204c55474e41482044455a49534548544e455241503b33303233,
0x3b3b3b3b3b4e3b3b3b3b3932303020363031312038323030203e7461706d6f633c3b4c3b303b6f533b4d5545494d204c55474e41482044455a49534548544e455241503b34303233,
0x3b3b3b3b4255454942204c55474e41482044455a49534548544e455241503b4e3b3b3b3b3932303020373031312038323030203e7461706d6f633c3b4c3b303b6f533b5055454950204c55474e41482044455a49534548544e455241503b35303233,
0x3b3b3b3b3b4e3b3b3b3b3932303020393031312038323030203e7461706d6f633c3b4c3b303b6f533b534f4953204c55474e41482044455a49534548544e455241503b36303233,
0x3b3b3b3b3b4e3b3b3b3b3932303020423031312038323030203e7461706d6f633c3b4c3b303b6f533b474e554549204c55474e41482044455a49534548544e455241503b37303233,
0x3b3b3b3b4a5545494a204c55474e41482044455a49534548544e455241503b4e3b3b3b3b3932303020433031312038323030203e7461706d6f633c3b4c3b303b6f533b4355454943204c55474e41482044455a49534548544e455241503b38303233,
0x3b3b3b3b4355454943204c55474e41482044455a49534548544e455241503b4e3b3b3b3b3932303020453031312038323030203e7461706d6f633c3b4c3b303b6f533b48435545494843204c55474e41482044455a49534548544e455241503b39303233,
0x3b3b3b3b4b4f4559494b204c55474e41482044455a49534548544e455241503b4e3b3b3b3b3932303020463031312038323030203e7461706d6f633c3b4c3b303b6f533b484b554549484b204c55474e41482044455a49534548544e455241503b41303233,
0x3b3b3b3b5455454954204c55474e41482044455a49534548544e455241503b4e3b3b3b3b3932303020303131312038323030203e7461706d6f633c3b4c3b303b6f533b48545545494854204c55474e41482044455a49534548544e455241503b42303233,
0x3b3b3b3b5055454950204c55474e41482044455a49534548544e455241503b4e3b3b3b3b3932303020313131312038323030203e7461706d6f633c3b4c3b303b6f533b48505545494850204c55474e41482044455a49534548544e455241503b43303233,
0x3b3b3b3b3b4e3b3b3b3b3932303020323131312038323030203e7461706d6f633c3b4c3b303b6f533b4855454948204c55474e41482044455a49534548544e455241503b44303233,
0x3b3b3b3b4147204c55474e41482044455a49534548544e455241503b4e3b3b3b3b39323030203136313120303031312038323030203e7461706d6f633c3b4c3b303b6f533b41204b4f4559494b204c55474e41482044455a49534548544e455241503b45303233,
0x3b3b3b3b414e204c55474e41482044455a49534548544e455241503b4e3b3b3b3b39323030203136313120323031312038323030203e7461706d6f633c3b4c3b303b6f533b41204e5545494e204c55474e41482044455a49534548544e455241503b46303233,
0x3b3b3b3b4144204c55474e41482044455a49534548544e455241503b4e3b3b3b3b39323030203136313120333031312038323030203e7461706d6f633c3b4c3b303b6f533b41205455454b4954204c55474e41482044455a49534548544e455241503b30313233,
0x3b3b3b3b414c204c55474e41482044455a49534548544e455241503b4e3b3b3b3b39323030203136313120353031312038323030203e7461706d6f633c3b4c3b303b6f533b41204c55454952204c55474e41482044455a49534548544e455241503b31313233,
0x3b3b3b3b414d204c55474e41482044455a49534548544e455241503b4e3b3b3b3b39323030203136313120363031312038323030203e7461706d6f633c3b4c3b303b6f533b41204d5545494d204c55474e41482044455a49534548544e455241503b32313233,
0x3b3b3b3b4142204c55474e41482044455a49534548544e455241503b4e3b3b3b3b39323030203136313120373031312038323030203e7461706d6f633c3b4c3b303b6f533b41205055454950204c55474e41482044455a49534548544e455241503b33313233,
0x3b3b3b3b4153204c55474e41482044455a49534548544e455241503b4e3b3b3b3b39323030203136313120393031312038323030203e7461706d6f633c3b4c3b303b6f533b4120534f4953204c55474e41482044455a49534548544e455241503b34313233,
0x3b3b3b3b41204c55474e41482044455a49534548544e455241503b4e3b3b3b3b39323030203136313120423031312038323030203e7461706d6f633c3b4c3b303b6f533b4120474e554549204c55474e41482044455a49534548544e455241503b35313233,
0x3b3b3b3b414a204c55474e41482044455a49534548544e455241503b4e3b3b3b3b39323030203136313120433031312038323030203e7461706d6f633c3b4c3b303b6f533b41204355454943204c55474e41482044455a49534548544e455241503b36313233,
0x3b3b3b3b4143204c55474e41482044455a49534548544e455241503b4e3b3b3b3b39323030203136313120453031312038323030203e7461706d6f633c3b4c3b303b6f533b412048435545494843204c55474e41482044455a49534548544e455241503b37313233,
0x3b3b3b3b414b204c55474e41482044455a49534548544e455241503b4e3b3b3b3b39323030203136313120463031312038323030203e7461706d6f633c3b4c3b303b6f533b4120484b554549484b204c55474e41482044455a49534548544e455241503b38313233,
0x3b3b3b3b4154204c55474e41482044455a49534548544e455241503b4e3b3b3b3b39323030203136313120303131312038323030203e7461706d6f633c3b4c3b303b6f533b412048545545494854204c55474e41482044455a49534548544e455241503b39313233,
0x3b3b3b3b4150204c55474e41482044455a49534548544e455241503b4e3b3b3b3b39323030203136313120313131312038323030203e7461706d6f633c3b4c3b303b6f533b412048505545494850204c55474e41482044455a49534548544e455241503b41313233,
0x3b3b3b3b4148204c55474e41482044455a49534548544e455241503b4e3b3b3b3b39323030203136313120323131312038323030203e7461706d6f633c3b4c3b303b6f533b41204855454948204c55474e41482044455a49534548544e455241503b42313233,
0x3b3b3b3b554a204c55474e41482044455a49534548544e455241503b4e3b3b3b3b39323030204536313120433031312038323030203e7461706d6f633c3b4c3b303b6f533b55204355454943204c55474e41482044455a49534548544e455241503b43313233,
0x3b3b3b3b3b4e3b3b3b3b39323030204241313120353631312043303131203936313120423031312038323030203e7461706d6f633c3b4e4f3b303b6f533b4e4f454a4f20524554434152414843204e4145524f4b2044455a49534548544e455241503b44313233,
0x3b3b3b3b3b4e3b3b3b3b3932303020453631312032313131203936313120423031312038323030203e7461706d6f633c3b4e4f3b303b6f533b5548204f20524554434152414843204e4145524f4b2044455a49534548544e455241503b45313233,
0x3b3b3b3b3b4e3b313b3b3b3932303020303045342038323030203e7461706d6f633c3b4c3b303b6f4e3b454e4f2048504152474f4544492044455a49534548544e455241503b30323233,
0x3b3b3b3b3b4e3b323b3b3b3932303020433845342038323030203e7461706d6f633c3b4c3b303b6f4e3b4f57542048504152474f4544492044455a49534548544e455241503b31323233,
0x3b3b3b3b3b4e3b333b3b3b3932303020393045342038323030203e7461706d6f633c3b4c3b303b6f4e3b45455248542048504152474f4544492044455a49534548544e455241503b32323233,
0x3b3b3b3b3b4e3b343b3b3b3932303020424436352038323030203e7461706d6f633c3b4c3b303b6f4e3b52554f462048504152474f4544492044455a49534548544e455241503b33323233,
0x3b3b3b3b3b4e3b353b3b3b3932303020343945342038323030203e7461706d6f633c3b4c3b303b6f4e3b455649462048504152474f4544492044455a49534548544e455241503b34323233,
0x3b3b3b3b3b4e3b363b3b3b3932303020443631352038323030203e7461706d6f633c3b4c3b303b6f4e3b5849532048504152474f4544492044455a49534548544e455241503b35323233,
0x3b3b3b3b3b4e3b373b3b3b3932303020333045342038323030203e7461706d6f633c3b4c3b303b6f4e3b4e455645532048504152474f4544492044455a49534548544e455241503b36323233,
0x3b3b3b3b3b4e3b383b3b3b3932303020423631352038323030203e7461706d6f633c3b4c3b303b6f4e3b54484749452048504152474f4544492044455a49534548544e455241503b37323233,
0x3b3b3b3b3b4e3b393b3b3b3932303020443545342038323030203e7461706d6f633c3b4c3b303b6f4e3b454e494e2048504152474f4544492044455a49534548544e455241503b38323233,
0x3b3b3b3b3b4e3b30313b3b3b3932303020313433352038323030203e7461706d6f633c3b4c3b303b6f4e3b4e45542048504152474f4544492044455a49534548544e455241503b39323233,
0x3b3b3b3b3b4e3b3b3b3b3932303020383037362038323030203e7461706d6f633c3b4c3b303b6f533b4e4f4f4d2048504152474f4544492044455a49534548544e455241503b41323233,
0x3b3b3b3b3b4e3b3b3b3b3932303020423630372038323030203e7461706d6f633c3b4c3b303b6f533b455249462048504152474f4544492044455a49534548544e455241503b42323233,
0x3b3b3b3b3b4e3b3b3b3b3932303020343343362038323030203e7461706d6f633c3b4c3b303b6f533b52455441572048504152474f4544492044455a49534548544e455241503b43323233,
0x3b3b3b3b3b4e3b3b3b3b3932303020383237362038323030203e7461706d6f633c3b4c3b303b6f533b444f4f572048504152474f4544492044455a49534548544e455241503b44323233,
0x3b3b3b3b3b4e3b3b3b3b3932303020314431392038323030203e7461706d6f633c3b4c3b303b6f533b4c4154454d2048504152474f4544492044455a49534548544e455241503b45323233,
0x3b3b3b3b3b4e3b3b3b3b3932303020463137352038323030203e7461706d6f633c3b4c3b303b6f533b48545241452048504152474f4544492044455a49534548544e455241503b46323233,
0x3b3b3b3b3b4e3b3b3b3b3932303020354535362038323030203e7461706d6f633c3b4c3b303b6f533b4e55532048504152474f4544492044455a49534548544e455241503b30333233,
0x3b3b3b3b3b4e3b3b3b3b3932303020413238362038323030203e7461706d6f633c3b4c3b303b6f533b4b434f54532048504152474f4544492044455a49534548544e455241503b31333233,
0x3b3b3b3b3b4e3b3b3b3b3932303020393037362038323030203e7461706d6f633c3b4c3b303b6f533b455641482048504152474f4544492044455a49534548544e455241503b32333233,
0x3b3b3b3b3b4e3b3b3b3b3932303020453339372038323030203e7461706d6f633c3b4c3b303b6f533b59544549434f532048504152474f4544492044455a49534548544e455241503b33333233,
0x3b3b3b3b3b4e3b3b3b3b3932303020443034352038323030203e7461706d6f633c3b4c3b303b6f533b454d414e2048504152474f4544492044455a49534548544e455241503b34333233,
0x3b3b3b3b3b4e3b3b3b3b3932303020393732372038323030203e7461706d6f633c3b4c3b303b6f533b4c4149434550532048504152474f4544492044455a49534548544e455241503b35333233,
0x3b3b3b3b3b4e3b3b3b3b3932303020314143382038323030203e7461706d6f633c3b4c3b303b6f533b4c4149434e414e49462048504152474f4544492044455a49534548544e455241503b36333233,
0x3b3b3b3b3b4e3b3b3b3b3932303020443539372038323030203e7461706d6f633c3b4c3b303b6f533b4e4f4954414c55544152474e4f432048504152474f4544492044455a49534548544e455241503b37333233,
0x3b3b3b3b3b4e3b3b3b3b3932303020344232352038323030203e7461706d6f633c3b4c3b303b6f533b524f42414c2048504152474f4544492044455a49534548544e455241503b38333233,
0x3b3b3b3b3b4e3b3b3b3b3932303020334545342038323030203e7461706d6f633c3b4c3b303b6f533b544e455345525045522048504152474f4544492044455a49534548544e455241503b39333233,
0x3b3b3b3b3b4e3b3b3b3b3932303020433734352038323030203e7461706d6f633c3b4c3b303b6f533b4c4c41432048504152474f4544492044455a49534548544e455241503b41333233,
0x3b3b3b3b3b4e3b3b3b3b3932303020363642352038323030203e7461706d6f633c3b4c3b303b6f533b59445554532048504152474f4544492044455a49534548544e455241503b42333233,
0x3b3b3b3b3b4e3b3b3b3b3932303020334536372038323030203e7461706d6f633c3b4c3b303b6f533b4553495652455055532048504152474f4544492044455a49534548544e455241503b43333233,
0x3b3b3b3b3b4e3b3b3b3b3932303020313046342038323030203e7461706d6f633c3b4c3b303b6f533b45534952505245544e452048504152474f4544492044455a49534548544e455241503b44333233,
0x3b3b3b3b3b4e3b3b3b3b3932303020374343382038323030203e7461706d6f633c3b4c3b303b6f533b454352554f5345522048504152474f4544492044455a49534548544e455241503b45333233,
0x3b3b3b3b3b4e3b3b3b3b3932303020343533352038323030203e7461706d6f633c3b4c3b303b6f533b45434e41494c4c412048504152474f4544492044455a49534548544e455241503b46333233,
0x3b3b3b3b3b4e3b3b3b3b3932303020443639372038323030203e7461706d6f633c3b4c3b303b6f533b4c415649545345462048504152474f4544492044455a49534548544e455241503b30343233,
0x3b3b3b3b3b4e3b3b3b3b3932303020313146342038323030203e7461706d6f633c3b4c3b303b6f533b545345522048504152474f4544492044455a49534548544e455241503b31343233,
0x3b3b3b3b3b4e3b3b3b3b3932303020414531382038323030203e7461706d6f633c3b4c3b303b6f533b464c45532048504152474f4544492044455a49534548544e455241503b32343233,
0x3b3b3b3b3b4e3b3b3b3b3932303020334631382038323030203e7461706d6f633c3b4c3b303b6f533b48434145522048504152474f4544492044455a49534548544e455241503b33343233,
0x3b3b3b3b3b4e3b3b3b3b46343535203e656c637269633c3b4c3b303b6f533b4e4f4954534555512048504152474f4544492044454c435249433b34343233,
0x3b3b3b3b3b4e3b3b3b3b43374535203e656c637269633c3b4c3b303b6f533b4e45545241475245444e494b2048504152474f4544492044454c435249433b35343233,
0x3b3b3b3b3b4e3b3b3b3b37383536203e656c637269633c3b4c3b303b6f533b4c4f4f4843532048504152474f4544492044454c435249433b36343233,
0x3b3b3b3b3b4e3b3b3b3b46384237203e656c637269633c3b4c3b303b6f533b4f544f4b2048504152474f4544492044454c435249433b37343233,
0x3b3b3b3b3b4e3b30313b3b3b3b4c3b303b6f4e3b455241555153204b43414c42204e4f204e4554205245424d554e2044454c435249433b38343233,
0x3b3b3b3b3b4e3b30323b3b3b3b4c3b303b6f4e3b455241555153204b43414c42204e4f2059544e455754205245424d554e2044454c435249433b39343233,
0x3b3b3b3b3b4e3b30333b3b3b3b4c3b303b6f4e3b455241555153204b43414c42204e4f20595452494854205245424d554e2044454c435249433b41343233,
0x3b3b3b3b3b4e3b30343b3b3b3b4c3b303b6f4e3b455241555153204b43414c42204e4f205954524f46205245424d554e2044454c435249433b42343233,
0x3b3b3b3b3b4e3b30353b3b3b3b4c3b303b6f4e3b455241555153204b43414c42204e4f205954464946205245424d554e2044454c435249433b43343233,
0x3b3b3b3b3b4e3b30363b3b3b3b4c3b303b6f4e3b455241555153204b43414c42204e4f205954584953205245424d554e2044454c435249433b44343233,
0x3b3b3b3b3b4e3b30373b3b3b3b4c3b303b6f4e3b455241555153204b43414c42204e4f2059544e45564553205245424d554e2044454c435249433b45343233,
0x3b3b3b3b3b4e3b30383b3b3b3b4c3b303b6f4e3b455241555153204b43414c42204e4f20595448474945205245424d554e2044454c435249433b46343233]

end U5e.Data
