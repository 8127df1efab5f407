set_option maxRecDepth 10000
/-! GENERATED by tools/gen_raw.py: the octets of src/u5e/props/canonical_combining_class_data.hpp, one number per line (little-endian). -/
namespace U5e.Data

/-- src/u5e/props/canonical_combining_class_data.hpp lines 1-256. -/
def rawCccHdr0 : List Nat := [
0x2c7d20303332202c383637207b,
0x2c7d20303332202c393637207b,
0x2c7d20303332202c303737207b,
0x2c7d20303332202c313737207b,
0x2c7d20303332202c323737207b,
0x2c7d20303332202c333737207b,
0x2c7d20303332202c343737207b,
0x2c7d20303332202c353737207b,
0x2c7d20303332202c363737207b,
0x2c7d20303332202c373737207b,
0x2c7d20303332202c383737207b,
0x2c7d20303332202c393737207b,
0x2c7d20303332202c303837207b,
0x2c7d20303332202c313837207b,
0x2c7d20303332202c323837207b,
0x2c7d20303332202c333837207b,
0x2c7d20303332202c343837207b,
0x2c7d20303332202c353837207b,
0x2c7d20303332202c363837207b,
0x2c7d20303332202c373837207b,
0x2c7d20303332202c383837207b,
0x2c7d20323332202c393837207b,
0x2c7d20303232202c303937207b,
0x2c7d20303232202c313937207b,
0x2c7d20303232202c323937207b,
0x2c7d20303232202c333937207b,
0x2c7d20323332202c343937207b,
0x2c7d20363132202c353937207b,
0x2c7d20303232202c363937207b,
0x2c7d20303232202c373937207b,
0x2c7d20303232202c383937207b,
0x2c7d20303232202c393937207b,
0x2c7d20303232202c303038207b,
0x2c7d20323032202c313038207b,
0x2c7d20323032202c323038207b,
0x2c7d20303232202c333038207b,
0x2c7d20303232202c343038207b,
0x2c7d20303232202c353038207b,
0x2c7d20303232202c363038207b,
0x2c7d20323032202c373038207b,
0x2c7d20323032202c383038207b,
0x2c7d20303232202c393038207b,
0x2c7d20303232202c303138207b,
0x2c7d20303232202c313138207b,
0x2c7d20303232202c323138207b,
0x2c7d20303232202c333138207b,
0x2c7d20303232202c343138207b,
0x2c7d20303232202c353138207b,
0x2c7d20303232202c363138207b,
0x2c7d20303232202c373138207b,
0x2c7d20303232202c383138207b,
0x2c7d20303232202c393138207b,
0x2c7d2031202c303238207b,
0x2c7d2031202c313238207b,
0x2c7d2031202c323238207b,
0x2c7d2031202c333238207b,
0x2c7d2031202c343238207b,
0x2c7d20303232202c353238207b,
0x2c7d20303232202c363238207b,
0x2c7d20303232202c373238207b,
0x2c7d20303232202c383238207b,
0x2c7d20303332202c393238207b,
0x2c7d20303332202c303338207b,
0x2c7d20303332202c313338207b,
0x2c7d20303332202c323338207b,
0x2c7d20303332202c333338207b,
0x2c7d20303332202c343338207b,
0x2c7d20303332202c353338207b,
0x2c7d20303332202c363338207b,
0x2c7d20303432202c373338207b,
0x2c7d20303332202c383338207b,
0x2c7d20303232202c393338207b,
0x2c7d20303232202c303438207b,
0x2c7d20303232202c313438207b,
0x2c7d20303332202c323438207b,
0x2c7d20303332202c333438207b,
0x2c7d20303332202c343438207b,
0x2c7d20303232202c353438207b,
0x2c7d20303232202c363438207b,
0x2c7d20303332202c383438207b,
0x2c7d20303332202c393438207b,
0x2c7d20303332202c303538207b,
0x2c7d20303232202c313538207b,
0x2c7d20303232202c323538207b,
0x2c7d20303232202c333538207b,
0x2c7d20303232202c343538207b,
0x2c7d20303332202c353538207b,
0x2c7d20323332202c363538207b,
0x2c7d20303232202c373538207b,
0x2c7d20303232202c383538207b,
0x2c7d20303332202c393538207b,
0x2c7d20333332202c303638207b,
0x2c7d20343332202c313638207b,
0x2c7d20343332202c323638207b,
0x2c7d20333332202c333638207b,
0x2c7d20343332202c343638207b,
0x2c7d20343332202c353638207b,
0x2c7d20333332202c363638207b,
0x2c7d20303332202c373638207b,
0x2c7d20303332202c383638207b,
0x2c7d20303332202c393638207b,
0x2c7d20303332202c303738207b,
0x2c7d20303332202c313738207b,
0x2c7d20303332202c323738207b,
0x2c7d20303332202c333738207b,
0x2c7d20303332202c343738207b,
0x2c7d20303332202c353738207b,
0x2c7d20303332202c363738207b,
0x2c7d20303332202c373738207b,
0x2c7d20303332202c383738207b,
0x2c7d20303332202c393738207b,
0x2c7d20303332202c35353131207b,
0x2c7d20303332202c36353131207b,
0x2c7d20303332202c37353131207b,
0x2c7d20303332202c38353131207b,
0x2c7d20303332202c39353131207b,
0x2c7d20303232202c35323431207b,
0x2c7d20303332202c36323431207b,
0x2c7d20303332202c37323431207b,
0x2c7d20303332202c38323431207b,
0x2c7d20303332202c39323431207b,
0x2c7d20303232202c30333431207b,
0x2c7d20303332202c31333431207b,
0x2c7d20303332202c32333431207b,
0x2c7d20303332202c33333431207b,
0x2c7d20323232202c34333431207b,
0x2c7d20303232202c35333431207b,
0x2c7d20303332202c36333431207b,
0x2c7d20303332202c37333431207b,
0x2c7d20303332202c38333431207b,
0x2c7d20303332202c39333431207b,
0x2c7d20303332202c30343431207b,
0x2c7d20303332202c31343431207b,
0x2c7d20303232202c32343431207b,
0x2c7d20303232202c33343431207b,
0x2c7d20303232202c34343431207b,
0x2c7d20303232202c35343431207b,
0x2c7d20303232202c36343431207b,
0x2c7d20303232202c37343431207b,
0x2c7d20303332202c38343431207b,
0x2c7d20303332202c39343431207b,
0x2c7d20303232202c30353431207b,
0x2c7d20303332202c31353431207b,
0x2c7d20303332202c32353431207b,
0x2c7d20323232202c33353431207b,
0x2c7d20383232202c34353431207b,
0x2c7d20303332202c35353431207b,
0x2c7d203031202c36353431207b,
0x2c7d203131202c37353431207b,
0x2c7d203231202c38353431207b,
0x2c7d203331202c39353431207b,
0x2c7d203431202c30363431207b,
0x2c7d203531202c31363431207b,
0x2c7d203631202c32363431207b,
0x2c7d203731202c33363431207b,
0x2c7d203831202c34363431207b,
0x2c7d203931202c35363431207b,
0x2c7d203931202c36363431207b,
0x2c7d203032202c37363431207b,
0x2c7d203132202c38363431207b,
0x2c7d203232202c39363431207b,
0x2c7d203332202c31373431207b,
0x2c7d203432202c33373431207b,
0x2c7d203532202c34373431207b,
0x2c7d20303332202c36373431207b,
0x2c7d20303232202c37373431207b,
0x2c7d203831202c39373431207b,
0x2c7d20303332202c32353531207b,
0x2c7d20303332202c33353531207b,
0x2c7d20303332202c34353531207b,
0x2c7d20303332202c35353531207b,
0x2c7d20303332202c36353531207b,
0x2c7d20303332202c37353531207b,
0x2c7d20303332202c38353531207b,
0x2c7d20303332202c39353531207b,
0x2c7d203033202c30363531207b,
0x2c7d203133202c31363531207b,
0x2c7d203233202c32363531207b,
0x2c7d203732202c31313631207b,
0x2c7d203832202c32313631207b,
0x2c7d203932202c33313631207b,
0x2c7d203033202c34313631207b,
0x2c7d203133202c35313631207b,
0x2c7d203233202c36313631207b,
0x2c7d203333202c37313631207b,
0x2c7d203433202c38313631207b,
0x2c7d20303332202c39313631207b,
0x2c7d20303332202c30323631207b,
0x2c7d20303232202c31323631207b,
0x2c7d20303232202c32323631207b,
0x2c7d20303332202c33323631207b,
0x2c7d20303332202c34323631207b,
0x2c7d20303332202c35323631207b,
0x2c7d20303332202c36323631207b,
0x2c7d20303332202c37323631207b,
0x2c7d20303232202c38323631207b,
0x2c7d20303332202c39323631207b,
0x2c7d20303332202c30333631207b,
0x2c7d20303232202c31333631207b,
0x2c7d203533202c38343631207b,
0x2c7d20303332202c30353731207b,
0x2c7d20303332202c31353731207b,
0x2c7d20303332202c32353731207b,
0x2c7d20303332202c33353731207b,
0x2c7d20303332202c34353731207b,
0x2c7d20303332202c35353731207b,
0x2c7d20303332202c36353731207b,
0x2c7d20303332202c39353731207b,
0x2c7d20303332202c30363731207b,
0x2c7d20303332202c31363731207b,
0x2c7d20303332202c32363731207b,
0x2c7d20303232202c33363731207b,
0x2c7d20303332202c34363731207b,
0x2c7d20303332202c37363731207b,
0x2c7d20303332202c38363731207b,
0x2c7d20303232202c30373731207b,
0x2c7d20303332202c31373731207b,
0x2c7d20303332202c32373731207b,
0x2c7d20303232202c33373731207b,
0x2c7d203633202c39303831207b,
0x2c7d20303332202c30343831207b,
0x2c7d20303232202c31343831207b,
0x2c7d20303332202c32343831207b,
0x2c7d20303332202c33343831207b,
0x2c7d20303232202c34343831207b,
0x2c7d20303332202c35343831207b,
0x2c7d20303332202c36343831207b,
0x2c7d20303232202c37343831207b,
0x2c7d20303232202c38343831207b,
0x2c7d20303232202c39343831207b,
0x2c7d20303332202c30353831207b,
0x2c7d20303232202c31353831207b,
0x2c7d20303232202c32353831207b,
0x2c7d20303332202c33353831207b,
0x2c7d20303232202c34353831207b,
0x2c7d20303332202c35353831207b,
0x2c7d20303332202c36353831207b,
0x2c7d20303332202c37353831207b,
0x2c7d20303232202c38353831207b,
0x2c7d20303332202c39353831207b,
0x2c7d20303232202c30363831207b,
0x2c7d20303332202c31363831207b,
0x2c7d20303232202c32363831207b,
0x2c7d20303332202c33363831207b,
0x2c7d20303232202c34363831207b,
0x2c7d20303332202c35363831207b,
0x2c7d20303332202c36363831207b,
0x2c7d20303332202c37323032207b,
0x2c7d20303332202c38323032207b,
0x2c7d20303332202c39323032207b,
0x2c7d20303332202c30333032207b,
0x2c7d20303332202c31333032207b,
0x2c7d20303332202c32333032207b,
0x2c7d20303332202c33333032207b,
0x2c7d20303232202c34333032207b,
0x2c7d20303332202c35333032207b]

/-- src/u5e/props/canonical_combining_class_data.hpp lines 257-512. -/
def rawCccHdr1 : List Nat := [
0x2c7d20303332202c30373032207b,
0x2c7d20303332202c31373032207b,
0x2c7d20303332202c32373032207b,
0x2c7d20303332202c33373032207b,
0x2c7d20303332202c35373032207b,
0x2c7d20303332202c36373032207b,
0x2c7d20303332202c37373032207b,
0x2c7d20303332202c38373032207b,
0x2c7d20303332202c39373032207b,
0x2c7d20303332202c30383032207b,
0x2c7d20303332202c31383032207b,
0x2c7d20303332202c32383032207b,
0x2c7d20303332202c33383032207b,
0x2c7d20303332202c35383032207b,
0x2c7d20303332202c36383032207b,
0x2c7d20303332202c37383032207b,
0x2c7d20303332202c39383032207b,
0x2c7d20303332202c30393032207b,
0x2c7d20303332202c31393032207b,
0x2c7d20303332202c32393032207b,
0x2c7d20303332202c33393032207b,
0x2c7d20303232202c37333132207b,
0x2c7d20303232202c38333132207b,
0x2c7d20303232202c39333132207b,
0x2c7d20303332202c30363232207b,
0x2c7d20303332202c31363232207b,
0x2c7d20303332202c32363232207b,
0x2c7d20303332202c33363232207b,
0x2c7d20303332202c34363232207b,
0x2c7d20303332202c35363232207b,
0x2c7d20303332202c36363232207b,
0x2c7d20303332202c37363232207b,
0x2c7d20303332202c38363232207b,
0x2c7d20303332202c39363232207b,
0x2c7d20303332202c30373232207b,
0x2c7d20303332202c31373232207b,
0x2c7d20303332202c32373232207b,
0x2c7d20303332202c33373232207b,
0x2c7d20303232202c35373232207b,
0x2c7d20303332202c36373232207b,
0x2c7d20303332202c37373232207b,
0x2c7d20303232202c38373232207b,
0x2c7d20303332202c39373232207b,
0x2c7d20303332202c30383232207b,
0x2c7d20303232202c31383232207b,
0x2c7d20303332202c32383232207b,
0x2c7d20303332202c33383232207b,
0x2c7d20303332202c34383232207b,
0x2c7d20303232202c35383232207b,
0x2c7d20303232202c36383232207b,
0x2c7d20303232202c37383232207b,
0x2c7d203732202c38383232207b,
0x2c7d203832202c39383232207b,
0x2c7d203932202c30393232207b,
0x2c7d20303332202c31393232207b,
0x2c7d20303332202c32393232207b,
0x2c7d20303332202c33393232207b,
0x2c7d20303232202c34393232207b,
0x2c7d20303332202c35393232207b,
0x2c7d20303332202c36393232207b,
0x2c7d20303232202c37393232207b,
0x2c7d20303232202c38393232207b,
0x2c7d20303332202c39393232207b,
0x2c7d20303332202c30303332207b,
0x2c7d20303332202c31303332207b,
0x2c7d20303332202c32303332207b,
0x2c7d20303332202c33303332207b,
0x2c7d2037202c34363332207b,
0x2c7d2039202c31383332207b,
0x2c7d20303332202c35383332207b,
0x2c7d20303232202c36383332207b,
0x2c7d20303332202c37383332207b,
0x2c7d20303332202c38383332207b,
0x2c7d2037202c32393432207b,
0x2c7d2039202c39303532207b,
0x2c7d2037202c30323632207b,
0x2c7d2039202c37333632207b,
0x2c7d2037202c38343732207b,
0x2c7d2039202c35363732207b,
0x2c7d2037202c36373832207b,
0x2c7d2039202c33393832207b,
0x2c7d2039202c31323033207b,
0x2c7d2039202c39343133207b,
0x2c7d203438202c37353133207b,
0x2c7d203139202c38353133207b,
0x2c7d2037202c30363233207b,
0x2c7d2039202c37373233207b,
0x2c7d2039202c35303433207b,
0x2c7d2039202c30333533207b,
0x2c7d20333031202c30343633207b,
0x2c7d20333031202c31343633207b,
0x2c7d2039202c32343633207b,
0x2c7d20373031202c36353633207b,
0x2c7d20373031202c37353633207b,
0x2c7d20373031202c38353633207b,
0x2c7d20373031202c39353633207b,
0x2c7d20383131202c38363733207b,
0x2c7d20383131202c39363733207b,
0x2c7d20323231202c34383733207b,
0x2c7d20323231202c35383733207b,
0x2c7d20323231202c36383733207b,
0x2c7d20323231202c37383733207b,
0x2c7d20303232202c34363833207b,
0x2c7d20303232202c35363833207b,
0x2c7d20303232202c33393833207b,
0x2c7d20303232202c35393833207b,
0x2c7d20363132202c37393833207b,
0x2c7d20393231202c33353933207b,
0x2c7d20303331202c34353933207b,
0x2c7d20323331202c36353933207b,
0x2c7d20303331202c32363933207b,
0x2c7d20303331202c33363933207b,
0x2c7d20303331202c34363933207b,
0x2c7d20303331202c35363933207b,
0x2c7d20303331202c38363933207b,
0x2c7d20303332202c30373933207b,
0x2c7d20303332202c31373933207b,
0x2c7d2039202c32373933207b,
0x2c7d20303332202c34373933207b,
0x2c7d20303332202c35373933207b,
0x2c7d20303232202c38333034207b,
0x2c7d2037202c31353134207b,
0x2c7d2039202c33353134207b,
0x2c7d2039202c34353134207b,
0x2c7d20303232202c37333234207b,
0x2c7d20303332202c37353934207b,
0x2c7d20303332202c38353934207b,
0x2c7d20303332202c39353934207b,
0x2c7d2039202c38303935207b,
0x2c7d2039202c30343935207b,
0x2c7d2039202c38393036207b,
0x2c7d20303332202c39303136207b,
0x2c7d20383232202c33313336207b,
0x2c7d20323232202c37353436207b,
0x2c7d20303332202c38353436207b,
0x2c7d20303232202c39353436207b,
0x2c7d20303332202c39373636207b,
0x2c7d20303232202c30383636207b,
0x2c7d2039202c32353736207b,
0x2c7d20303332202c33373736207b,
0x2c7d20303332202c34373736207b,
0x2c7d20303332202c35373736207b,
0x2c7d20303332202c36373736207b,
0x2c7d20303332202c37373736207b,
0x2c7d20303332202c38373736207b,
0x2c7d20303332202c39373736207b,
0x2c7d20303332202c30383736207b,
0x2c7d20303232202c33383736207b,
0x2c7d20303332202c32333836207b,
0x2c7d20303332202c33333836207b,
0x2c7d20303332202c34333836207b,
0x2c7d20303332202c35333836207b,
0x2c7d20303332202c36333836207b,
0x2c7d20303232202c37333836207b,
0x2c7d20303232202c38333836207b,
0x2c7d20303232202c39333836207b,
0x2c7d20303232202c30343836207b,
0x2c7d20303232202c31343836207b,
0x2c7d20303232202c32343836207b,
0x2c7d20303332202c33343836207b,
0x2c7d20303332202c34343836207b,
0x2c7d20303232202c35343836207b,
0x2c7d2037202c34363936207b,
0x2c7d2039202c30383936207b,
0x2c7d20303332202c39313037207b,
0x2c7d20303232202c30323037207b,
0x2c7d20303332202c31323037207b,
0x2c7d20303332202c32323037207b,
0x2c7d20303332202c33323037207b,
0x2c7d20303332202c34323037207b,
0x2c7d20303332202c35323037207b,
0x2c7d20303332202c36323037207b,
0x2c7d20303332202c37323037207b,
0x2c7d2039202c32383037207b,
0x2c7d2039202c33383037207b,
0x2c7d2037202c32343137207b,
0x2c7d2039202c34353137207b,
0x2c7d2039202c35353137207b,
0x2c7d2037202c33323237207b,
0x2c7d20303332202c36373337207b,
0x2c7d20303332202c37373337207b,
0x2c7d20303332202c38373337207b,
0x2c7d2031202c30383337207b,
0x2c7d20303232202c31383337207b,
0x2c7d20303232202c32383337207b,
0x2c7d20303232202c33383337207b,
0x2c7d20303232202c34383337207b,
0x2c7d20303232202c35383337207b,
0x2c7d20303332202c36383337207b,
0x2c7d20303332202c37383337207b,
0x2c7d20303232202c38383337207b,
0x2c7d20303232202c39383337207b,
0x2c7d20303232202c30393337207b,
0x2c7d20303232202c31393337207b,
0x2c7d20303332202c32393337207b,
0x2c7d2031202c34393337207b,
0x2c7d2031202c35393337207b,
0x2c7d2031202c36393337207b,
0x2c7d2031202c37393337207b,
0x2c7d2031202c38393337207b,
0x2c7d2031202c39393337207b,
0x2c7d2031202c30303437207b,
0x2c7d20303232202c35303437207b,
0x2c7d20303332202c32313437207b,
0x2c7d20303332202c36313437207b,
0x2c7d20303332202c37313437207b,
0x2c7d20303332202c36313637207b,
0x2c7d20303332202c37313637207b,
0x2c7d20303232202c38313637207b,
0x2c7d20303332202c39313637207b,
0x2c7d20303332202c30323637207b,
0x2c7d20303332202c31323637207b,
0x2c7d20303332202c32323637207b,
0x2c7d20303332202c33323637207b,
0x2c7d20303332202c34323637207b,
0x2c7d20303332202c35323637207b,
0x2c7d20303232202c36323637207b,
0x2c7d20303332202c37323637207b,
0x2c7d20303332202c38323637207b,
0x2c7d20343332202c39323637207b,
0x2c7d20343132202c30333637207b,
0x2c7d20303232202c31333637207b,
0x2c7d20323032202c32333637207b,
0x2c7d20303332202c33333637207b,
0x2c7d20303332202c34333637207b,
0x2c7d20303332202c35333637207b,
0x2c7d20303332202c36333637207b,
0x2c7d20303332202c37333637207b,
0x2c7d20303332202c38333637207b,
0x2c7d20303332202c39333637207b,
0x2c7d20303332202c30343637207b,
0x2c7d20303332202c31343637207b,
0x2c7d20303332202c32343637207b,
0x2c7d20303332202c33343637207b,
0x2c7d20303332202c34343637207b,
0x2c7d20303332202c35343637207b,
0x2c7d20303332202c36343637207b,
0x2c7d20303332202c37343637207b,
0x2c7d20303332202c38343637207b,
0x2c7d20303332202c39343637207b,
0x2c7d20303332202c30353637207b,
0x2c7d20303332202c31353637207b,
0x2c7d20303332202c32353637207b,
0x2c7d20303332202c33353637207b,
0x2c7d20303332202c34353637207b,
0x2c7d20303332202c35353637207b,
0x2c7d20303332202c36353637207b,
0x2c7d20303332202c37353637207b,
0x2c7d20303332202c38353637207b,
0x2c7d20303332202c39353637207b,
0x2c7d20303332202c30363637207b,
0x2c7d20303332202c31363637207b,
0x2c7d20303332202c32363637207b,
0x2c7d20303332202c33363637207b,
0x2c7d20303332202c34363637207b,
0x2c7d20303332202c35363637207b]

/-- src/u5e/props/canonical_combining_class_data.hpp lines 513-768. -/
def rawCccHdr2 : List Nat := [
0x2c7d20303332202c36363637207b,
0x2c7d20303332202c37363637207b,
0x2c7d20303332202c38363637207b,
0x2c7d20303332202c39363637207b,
0x2c7d20303332202c35373637207b,
0x2c7d20333332202c36373637207b,
0x2c7d20303232202c37373637207b,
0x2c7d20303332202c38373637207b,
0x2c7d20303232202c39373637207b,
0x2c7d20303332202c30303438207b,
0x2c7d20303332202c31303438207b,
0x2c7d2031202c32303438207b,
0x2c7d2031202c33303438207b,
0x2c7d20303332202c34303438207b,
0x2c7d20303332202c35303438207b,
0x2c7d20303332202c36303438207b,
0x2c7d20303332202c37303438207b,
0x2c7d2031202c38303438207b,
0x2c7d2031202c39303438207b,
0x2c7d2031202c30313438207b,
0x2c7d20303332202c31313438207b,
0x2c7d20303332202c32313438207b,
0x2c7d20303332202c37313438207b,
0x2c7d2031202c31323438207b,
0x2c7d2031202c32323438207b,
0x2c7d20303332202c33323438207b,
0x2c7d20303232202c34323438207b,
0x2c7d20303332202c35323438207b,
0x2c7d2031202c36323438207b,
0x2c7d2031202c37323438207b,
0x2c7d20303232202c38323438207b,
0x2c7d20303232202c39323438207b,
0x2c7d20303232202c30333438207b,
0x2c7d20303232202c31333438207b,
0x2c7d20303332202c32333438207b,
0x2c7d20303332202c3330353131207b,
0x2c7d20303332202c3430353131207b,
0x2c7d20303332202c3530353131207b,
0x2c7d2039202c3734363131207b,
0x2c7d20303332202c3434373131207b,
0x2c7d20303332202c3534373131207b,
0x2c7d20303332202c3634373131207b,
0x2c7d20303332202c3734373131207b,
0x2c7d20303332202c3834373131207b,
0x2c7d20303332202c3934373131207b,
0x2c7d20303332202c3035373131207b,
0x2c7d20303332202c3135373131207b,
0x2c7d20303332202c3235373131207b,
0x2c7d20303332202c3335373131207b,
0x2c7d20303332202c3435373131207b,
0x2c7d20303332202c3535373131207b,
0x2c7d20303332202c3635373131207b,
0x2c7d20303332202c3735373131207b,
0x2c7d20303332202c3835373131207b,
0x2c7d20303332202c3935373131207b,
0x2c7d20303332202c3036373131207b,
0x2c7d20303332202c3136373131207b,
0x2c7d20303332202c3236373131207b,
0x2c7d20303332202c3336373131207b,
0x2c7d20303332202c3436373131207b,
0x2c7d20303332202c3536373131207b,
0x2c7d20303332202c3636373131207b,
0x2c7d20303332202c3736373131207b,
0x2c7d20303332202c3836373131207b,
0x2c7d20303332202c3936373131207b,
0x2c7d20303332202c3037373131207b,
0x2c7d20303332202c3137373131207b,
0x2c7d20303332202c3237373131207b,
0x2c7d20303332202c3337373131207b,
0x2c7d20303332202c3437373131207b,
0x2c7d20303332202c3537373131207b,
0x2c7d20383132202c3033333231207b,
0x2c7d20383232202c3133333231207b,
0x2c7d20323332202c3233333231207b,
0x2c7d20323232202c3333333231207b,
0x2c7d20343232202c3433333231207b,
0x2c7d20343232202c3533333231207b,
0x2c7d2038202c3134343231207b,
0x2c7d2038202c3234343231207b,
0x2c7d20303332202c3730363234207b,
0x2c7d20303332202c3231363234207b,
0x2c7d20303332202c3331363234207b,
0x2c7d20303332202c3431363234207b,
0x2c7d20303332202c3531363234207b,
0x2c7d20303332202c3631363234207b,
0x2c7d20303332202c3731363234207b,
0x2c7d20303332202c3831363234207b,
0x2c7d20303332202c3931363234207b,
0x2c7d20303332202c3032363234207b,
0x2c7d20303332202c3132363234207b,
0x2c7d20303332202c3435363234207b,
0x2c7d20303332202c3535363234207b,
0x2c7d20303332202c3633373234207b,
0x2c7d20303332202c3733373234207b,
0x2c7d2039202c3431303334207b,
0x2c7d2039202c3430323334207b,
0x2c7d20303332202c3233323334207b,
0x2c7d20303332202c3333323334207b,
0x2c7d20303332202c3433323334207b,
0x2c7d20303332202c3533323334207b,
0x2c7d20303332202c3633323334207b,
0x2c7d20303332202c3733323334207b,
0x2c7d20303332202c3833323334207b,
0x2c7d20303332202c3933323334207b,
0x2c7d20303332202c3034323334207b,
0x2c7d20303332202c3134323334207b,
0x2c7d20303332202c3234323334207b,
0x2c7d20303332202c3334323334207b,
0x2c7d20303332202c3434323334207b,
0x2c7d20303332202c3534323334207b,
0x2c7d20303332202c3634323334207b,
0x2c7d20303332202c3734323334207b,
0x2c7d20303332202c3834323334207b,
0x2c7d20303332202c3934323334207b,
0x2c7d20303232202c3730333334207b,
0x2c7d20303232202c3830333334207b,
0x2c7d20303232202c3930333334207b,
0x2c7d2039202c3734333334207b,
0x2c7d2037202c3334343334207b,
0x2c7d2039202c3635343334207b,
0x2c7d20303332202c3639363334207b,
0x2c7d20303332202c3839363334207b,
0x2c7d20303332202c3939363334207b,
0x2c7d20303232202c3030373334207b,
0x2c7d20303332202c3330373334207b,
0x2c7d20303332202c3430373334207b,
0x2c7d20303332202c3031373334207b,
0x2c7d20303332202c3131373334207b,
0x2c7d20303332202c3331373334207b,
0x2c7d2039202c3636373334207b,
0x2c7d2039202c3331303434207b,
0x2c7d203632202c3638323436207b,
0x2c7d20303332202c3635303536207b,
0x2c7d20303332202c3735303536207b,
0x2c7d20303332202c3835303536207b,
0x2c7d20303332202c3935303536207b,
0x2c7d20303332202c3036303536207b,
0x2c7d20303332202c3136303536207b,
0x2c7d20303332202c3236303536207b,
0x2c7d20303232202c3336303536207b,
0x2c7d20303232202c3436303536207b,
0x2c7d20303232202c3536303536207b,
0x2c7d20303232202c3636303536207b,
0x2c7d20303232202c3736303536207b,
0x2c7d20303232202c3836303536207b,
0x2c7d20303232202c3936303536207b,
0x2c7d20303332202c3037303536207b,
0x2c7d20303332202c3137303536207b,
0x2c7d20303232202c3534303636207b,
0x2c7d20303232202c3237323636207b,
0x2c7d20303332202c3232343636207b,
0x2c7d20303332202c3332343636207b,
0x2c7d20303332202c3432343636207b,
0x2c7d20303332202c3532343636207b,
0x2c7d20303332202c3632343636207b,
0x2c7d20303232202c3930313836207b,
0x2c7d20303332202c3131313836207b,
0x2c7d20303332202c3235313836207b,
0x2c7d2031202c3335313836207b,
0x2c7d20303232202c3435313836207b,
0x2c7d2039202c3935313836207b,
0x2c7d20303332202c3532333836207b,
0x2c7d20303232202c3632333836207b,
0x2c7d2039202c3230373936207b,
0x2c7d2039202c3935373936207b,
0x2c7d2039202c3731383936207b,
0x2c7d2037202c3831383936207b,
0x2c7d20303332202c3838383936207b,
0x2c7d20303332202c3938383936207b,
0x2c7d20303332202c3039383936207b,
0x2c7d2039202c3933393936207b,
0x2c7d2039202c3034393936207b,
0x2c7d2037202c3330303037207b,
0x2c7d2039202c3038303037207b,
0x2c7d2037202c3039303037207b,
0x2c7d2039202c3739313037207b,
0x2c7d2037202c3839313037207b,
0x2c7d2037202c3737333037207b,
0x2c7d2039202c3837333037207b,
0x2c7d2037202c3036343037207b,
0x2c7d2039202c3737343037207b,
0x2c7d20303332202c3230353037207b,
0x2c7d20303332202c3330353037207b,
0x2c7d20303332202c3430353037207b,
0x2c7d20303332202c3530353037207b,
0x2c7d20303332202c3630353037207b,
0x2c7d20303332202c3730353037207b,
0x2c7d20303332202c3830353037207b,
0x2c7d20303332202c3231353037207b,
0x2c7d20303332202c3331353037207b,
0x2c7d20303332202c3431353037207b,
0x2c7d20303332202c3531353037207b,
0x2c7d20303332202c3631353037207b,
0x2c7d2039202c3232373037207b,
0x2c7d2037202c3632373037207b,
0x2c7d2039202c3035383037207b,
0x2c7d2037202c3135383037207b,
0x2c7d2039202c3330313137207b,
0x2c7d2037202c3430313137207b,
0x2c7d2039202c3133323137207b,
0x2c7d2039202c3035333137207b,
0x2c7d2037202c3135333137207b,
0x2c7d2039202c3736343137207b,
0x2c7d2039202c3736373237207b,
0x2c7d2031202c3231393239207b,
0x2c7d2031202c3331393239207b,
0x2c7d2031202c3431393239207b,
0x2c7d2031202c3531393239207b,
0x2c7d2031202c3631393239207b,
0x2c7d20303332202c3637393239207b,
0x2c7d20303332202c3737393239207b,
0x2c7d20303332202c3837393239207b,
0x2c7d20303332202c3937393239207b,
0x2c7d20303332202c3038393239207b,
0x2c7d20303332202c3138393239207b,
0x2c7d20303332202c3238393239207b,
0x2c7d2031202c323238333131207b,
0x2c7d20363132202c313431393131207b,
0x2c7d20363132202c323431393131207b,
0x2c7d2031202c333431393131207b,
0x2c7d2031202c343431393131207b,
0x2c7d2031202c353431393131207b,
0x2c7d20363232202c393431393131207b,
0x2c7d20363132202c303531393131207b,
0x2c7d20363132202c313531393131207b,
0x2c7d20363132202c323531393131207b,
0x2c7d20363132202c333531393131207b,
0x2c7d20363132202c343531393131207b,
0x2c7d20303232202c333631393131207b,
0x2c7d20303232202c343631393131207b,
0x2c7d20303232202c353631393131207b,
0x2c7d20303232202c363631393131207b,
0x2c7d20303232202c373631393131207b,
0x2c7d20303232202c383631393131207b,
0x2c7d20303232202c393631393131207b,
0x2c7d20303232202c303731393131207b,
0x2c7d20303332202c333731393131207b,
0x2c7d20303332202c343731393131207b,
0x2c7d20303332202c353731393131207b,
0x2c7d20303332202c363731393131207b,
0x2c7d20303332202c373731393131207b,
0x2c7d20303232202c383731393131207b,
0x2c7d20303232202c393731393131207b,
0x2c7d20303332202c303132393131207b,
0x2c7d20303332202c313132393131207b,
0x2c7d20303332202c323132393131207b,
0x2c7d20303332202c333132393131207b,
0x2c7d20303332202c323633393131207b,
0x2c7d20303332202c333633393131207b,
0x2c7d20303332202c343633393131207b,
0x2c7d20303332202c303838323231207b,
0x2c7d20303332202c313838323231207b,
0x2c7d20303332202c323838323231207b,
0x2c7d20303332202c333838323231207b,
0x2c7d20303332202c343838323231207b,
0x2c7d20303332202c353838323231207b]

/-- src/u5e/props/canonical_combining_class_data.hpp lines 769-814. -/
def rawCccHdr3 : List Nat := [
0x2c7d20303332202c363838323231207b,
0x2c7d20303332202c383838323231207b,
0x2c7d20303332202c393838323231207b,
0x2c7d20303332202c303938323231207b,
0x2c7d20303332202c313938323231207b,
0x2c7d20303332202c323938323231207b,
0x2c7d20303332202c333938323231207b,
0x2c7d20303332202c343938323231207b,
0x2c7d20303332202c353938323231207b,
0x2c7d20303332202c363938323231207b,
0x2c7d20303332202c373938323231207b,
0x2c7d20303332202c383938323231207b,
0x2c7d20303332202c393938323231207b,
0x2c7d20303332202c303039323231207b,
0x2c7d20303332202c313039323231207b,
0x2c7d20303332202c323039323231207b,
0x2c7d20303332202c333039323231207b,
0x2c7d20303332202c343039323231207b,
0x2c7d20303332202c373039323231207b,
0x2c7d20303332202c383039323231207b,
0x2c7d20303332202c393039323231207b,
0x2c7d20303332202c303139323231207b,
0x2c7d20303332202c313139323231207b,
0x2c7d20303332202c323139323231207b,
0x2c7d20303332202c333139323231207b,
0x2c7d20303332202c353139323231207b,
0x2c7d20303332202c363139323231207b,
0x2c7d20303332202c383139323231207b,
0x2c7d20303332202c393139323231207b,
0x2c7d20303332202c303239323231207b,
0x2c7d20303332202c313239323231207b,
0x2c7d20303332202c323239323231207b,
0x2c7d20303232202c363331353231207b,
0x2c7d20303232202c373331353231207b,
0x2c7d20303232202c383331353231207b,
0x2c7d20303232202c393331353231207b,
0x2c7d20303232202c303431353231207b,
0x2c7d20303232202c313431353231207b,
0x2c7d20303232202c323431353231207b,
0x2c7d20303332202c323532353231207b,
0x2c7d20303332202c333532353231207b,
0x2c7d20303332202c343532353231207b,
0x2c7d20303332202c353532353231207b,
0x2c7d20303332202c363532353231207b,
0x2c7d20303332202c373532353231207b,
0x7d2037202c383532353231207b]

/-- The lines of src/u5e/props/canonical_combining_class_data.hpp (the last one without a newline). -/
@[irreducible] def cccHeaderRaw : List Nat :=
  rawCccHdr0 ++ (rawCccHdr1 ++ (rawCccHdr2 ++ (rawCccHdr3)))

end U5e.Data
