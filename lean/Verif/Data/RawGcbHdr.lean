set_option maxRecDepth 10000
/-! GENERATED by tools/gen_raw.py: the octets of src/u5e/props/grapheme_cluster_break_data.hpp, one number per line (little-endian). -/
namespace U5e.Data

/-- src/u5e/props/grapheme_cluster_break_data.hpp lines 1-256. -/
def rawGcbHdr0 : List Nat := [
0x2c7d204c4f52544e4f433a3a657079745f65756c61765f706f72703a3a6b616572625f72657473756c635f656d656870617267202c39202c30207b,
0x2c7d20464c3a3a657079745f65756c61765f706f72703a3a6b616572625f72657473756c635f656d656870617267202c3031202c3031207b,
0x2c7d204c4f52544e4f433a3a657079745f65756c61765f706f72703a3a6b616572625f72657473756c635f656d656870617267202c3231202c3131207b,
0x2c7d2052433a3a657079745f65756c61765f706f72703a3a6b616572625f72657473756c635f656d656870617267202c3331202c3331207b,
0x2c7d204c4f52544e4f433a3a657079745f65756c61765f706f72703a3a6b616572625f72657473756c635f656d656870617267202c3133202c3431207b,
0x2c7d204c4f52544e4f433a3a657079745f65756c61765f706f72703a3a6b616572625f72657473756c635f656d656870617267202c393531202c373231207b,
0x2c7d204c4f52544e4f433a3a657079745f65756c61765f706f72703a3a6b616572625f72657473756c635f656d656870617267202c333731202c333731207b,
0x2c7d20444e455458453a3a657079745f65756c61765f706f72703a3a6b616572625f72657473756c635f656d656870617267202c393738202c383637207b,
0x2c7d20444e455458453a3a657079745f65756c61765f706f72703a3a6b616572625f72657473756c635f656d656870617267202c39353131202c35353131207b,
0x2c7d20444e455458453a3a657079745f65756c61765f706f72703a3a6b616572625f72657473756c635f656d656870617267202c31363131202c30363131207b,
0x2c7d20444e455458453a3a657079745f65756c61765f706f72703a3a6b616572625f72657473756c635f656d656870617267202c39363431202c35323431207b,
0x2c7d20444e455458453a3a657079745f65756c61765f706f72703a3a6b616572625f72657473756c635f656d656870617267202c31373431202c31373431207b,
0x2c7d20444e455458453a3a657079745f65756c61765f706f72703a3a6b616572625f72657473756c635f656d656870617267202c34373431202c33373431207b,
0x2c7d20444e455458453a3a657079745f65756c61765f706f72703a3a6b616572625f72657473756c635f656d656870617267202c37373431202c36373431207b,
0x2c7d20444e455458453a3a657079745f65756c61765f706f72703a3a6b616572625f72657473756c635f656d656870617267202c39373431202c39373431207b,
0x2c7d20444e45504552503a3a657079745f65756c61765f706f72703a3a6b616572625f72657473756c635f656d656870617267202c31343531202c36333531207b,
0x2c7d20444e455458453a3a657079745f65756c61765f706f72703a3a6b616572625f72657473756c635f656d656870617267202c32363531202c32353531207b,
0x2c7d204c4f52544e4f433a3a657079745f65756c61765f706f72703a3a6b616572625f72657473756c635f656d656870617267202c34363531202c34363531207b,
0x2c7d20444e455458453a3a657079745f65756c61765f706f72703a3a6b616572625f72657473756c635f656d656870617267202c31333631202c31313631207b,
0x2c7d20444e455458453a3a657079745f65756c61765f706f72703a3a6b616572625f72657473756c635f656d656870617267202c38343631202c38343631207b,
0x2c7d20444e455458453a3a657079745f65756c61765f706f72703a3a6b616572625f72657473756c635f656d656870617267202c36353731202c30353731207b,
0x2c7d20444e45504552503a3a657079745f65756c61765f706f72703a3a6b616572625f72657473756c635f656d656870617267202c37353731202c37353731207b,
0x2c7d20444e455458453a3a657079745f65756c61765f706f72703a3a6b616572625f72657473756c635f656d656870617267202c34363731202c39353731207b,
0x2c7d20444e455458453a3a657079745f65756c61765f706f72703a3a6b616572625f72657473756c635f656d656870617267202c38363731202c37363731207b,
0x2c7d20444e455458453a3a657079745f65756c61765f706f72703a3a6b616572625f72657473756c635f656d656870617267202c33373731202c30373731207b,
0x2c7d20444e45504552503a3a657079745f65756c61765f706f72703a3a6b616572625f72657473756c635f656d656870617267202c37303831202c37303831207b,
0x2c7d20444e455458453a3a657079745f65756c61765f706f72703a3a6b616572625f72657473756c635f656d656870617267202c39303831202c39303831207b,
0x2c7d20444e455458453a3a657079745f65756c61765f706f72703a3a6b616572625f72657473756c635f656d656870617267202c36363831202c30343831207b,
0x2c7d20444e455458453a3a657079745f65756c61765f706f72703a3a6b616572625f72657473756c635f656d656870617267202c38363931202c38353931207b,
0x2c7d20444e455458453a3a657079745f65756c61765f706f72703a3a6b616572625f72657473756c635f656d656870617267202c35333032202c37323032207b,
0x2c7d20444e455458453a3a657079745f65756c61765f706f72703a3a6b616572625f72657473756c635f656d656870617267202c33373032202c30373032207b,
0x2c7d20444e455458453a3a657079745f65756c61765f706f72703a3a6b616572625f72657473756c635f656d656870617267202c33383032202c35373032207b,
0x2c7d20444e455458453a3a657079745f65756c61765f706f72703a3a6b616572625f72657473756c635f656d656870617267202c37383032202c35383032207b,
0x2c7d20444e455458453a3a657079745f65756c61765f706f72703a3a6b616572625f72657473756c635f656d656870617267202c33393032202c39383032207b,
0x2c7d20444e455458453a3a657079745f65756c61765f706f72703a3a6b616572625f72657473756c635f656d656870617267202c39333132202c37333132207b,
0x2c7d20444e455458453a3a657079745f65756c61765f706f72703a3a6b616572625f72657473756c635f656d656870617267202c33373232202c30363232207b,
0x2c7d20444e45504552503a3a657079745f65756c61765f706f72703a3a6b616572625f72657473756c635f656d656870617267202c34373232202c34373232207b,
0x2c7d20444e455458453a3a657079745f65756c61765f706f72703a3a6b616572625f72657473756c635f656d656870617267202c36303332202c35373232207b,
0x2c7d204b52414d474e49434150533a3a657079745f65756c61765f706f72703a3a6b616572625f72657473756c635f656d656870617267202c37303332202c37303332207b,
0x2c7d20444e455458453a3a657079745f65756c61765f706f72703a3a6b616572625f72657473756c635f656d656870617267202c32363332202c32363332207b,
0x2c7d204b52414d474e49434150533a3a657079745f65756c61765f706f72703a3a6b616572625f72657473756c635f656d656870617267202c33363332202c33363332207b,
0x2c7d20444e455458453a3a657079745f65756c61765f706f72703a3a6b616572625f72657473756c635f656d656870617267202c34363332202c34363332207b,
0x2c7d204b52414d474e49434150533a3a657079745f65756c61765f706f72703a3a6b616572625f72657473756c635f656d656870617267202c38363332202c36363332207b,
0x2c7d20444e455458453a3a657079745f65756c61765f706f72703a3a6b616572625f72657473756c635f656d656870617267202c36373332202c39363332207b,
0x2c7d204b52414d474e49434150533a3a657079745f65756c61765f706f72703a3a6b616572625f72657473756c635f656d656870617267202c30383332202c37373332207b,
0x2c7d20444e455458453a3a657079745f65756c61765f706f72703a3a6b616572625f72657473756c635f656d656870617267202c31383332202c31383332207b,
0x2c7d204b52414d474e49434150533a3a657079745f65756c61765f706f72703a3a6b616572625f72657473756c635f656d656870617267202c33383332202c32383332207b,
0x2c7d20444e455458453a3a657079745f65756c61765f706f72703a3a6b616572625f72657473756c635f656d656870617267202c31393332202c35383332207b,
0x2c7d20444e455458453a3a657079745f65756c61765f706f72703a3a6b616572625f72657473756c635f656d656870617267202c33303432202c32303432207b,
0x2c7d20444e455458453a3a657079745f65756c61765f706f72703a3a6b616572625f72657473756c635f656d656870617267202c33333432202c33333432207b,
0x2c7d204b52414d474e49434150533a3a657079745f65756c61765f706f72703a3a6b616572625f72657473756c635f656d656870617267202c35333432202c34333432207b,
0x2c7d20444e455458453a3a657079745f65756c61765f706f72703a3a6b616572625f72657473756c635f656d656870617267202c32393432202c32393432207b,
0x2c7d20444e455458453a3a657079745f65756c61765f706f72703a3a6b616572625f72657473756c635f656d656870617267202c34393432202c34393432207b,
0x2c7d204b52414d474e49434150533a3a657079745f65756c61765f706f72703a3a6b616572625f72657473756c635f656d656870617267202c36393432202c35393432207b,
0x2c7d20444e455458453a3a657079745f65756c61765f706f72703a3a6b616572625f72657473756c635f656d656870617267202c30303532202c37393432207b,
0x2c7d204b52414d474e49434150533a3a657079745f65756c61765f706f72703a3a6b616572625f72657473756c635f656d656870617267202c34303532202c33303532207b,
0x2c7d204b52414d474e49434150533a3a657079745f65756c61765f706f72703a3a6b616572625f72657473756c635f656d656870617267202c38303532202c37303532207b,
0x2c7d20444e455458453a3a657079745f65756c61765f706f72703a3a6b616572625f72657473756c635f656d656870617267202c39303532202c39303532207b,
0x2c7d20444e455458453a3a657079745f65756c61765f706f72703a3a6b616572625f72657473756c635f656d656870617267202c39313532202c39313532207b,
0x2c7d20444e455458453a3a657079745f65756c61765f706f72703a3a6b616572625f72657473756c635f656d656870617267202c31333532202c30333532207b,
0x2c7d20444e455458453a3a657079745f65756c61765f706f72703a3a6b616572625f72657473756c635f656d656870617267202c32363532202c31363532207b,
0x2c7d204b52414d474e49434150533a3a657079745f65756c61765f706f72703a3a6b616572625f72657473756c635f656d656870617267202c33363532202c33363532207b,
0x2c7d20444e455458453a3a657079745f65756c61765f706f72703a3a6b616572625f72657473756c635f656d656870617267202c30323632202c30323632207b,
0x2c7d204b52414d474e49434150533a3a657079745f65756c61765f706f72703a3a6b616572625f72657473756c635f656d656870617267202c34323632202c32323632207b,
0x2c7d20444e455458453a3a657079745f65756c61765f706f72703a3a6b616572625f72657473756c635f656d656870617267202c36323632202c35323632207b,
0x2c7d20444e455458453a3a657079745f65756c61765f706f72703a3a6b616572625f72657473756c635f656d656870617267202c32333632202c31333632207b,
0x2c7d20444e455458453a3a657079745f65756c61765f706f72703a3a6b616572625f72657473756c635f656d656870617267202c37333632202c35333632207b,
0x2c7d20444e455458453a3a657079745f65756c61765f706f72703a3a6b616572625f72657473756c635f656d656870617267202c31343632202c31343632207b,
0x2c7d20444e455458453a3a657079745f65756c61765f706f72703a3a6b616572625f72657473756c635f656d656870617267202c33373632202c32373632207b,
0x2c7d20444e455458453a3a657079745f65756c61765f706f72703a3a6b616572625f72657473756c635f656d656870617267202c37373632202c37373632207b,
0x2c7d20444e455458453a3a657079745f65756c61765f706f72703a3a6b616572625f72657473756c635f656d656870617267202c30393632202c39383632207b,
0x2c7d204b52414d474e49434150533a3a657079745f65756c61765f706f72703a3a6b616572625f72657473756c635f656d656870617267202c31393632202c31393632207b,
0x2c7d20444e455458453a3a657079745f65756c61765f706f72703a3a6b616572625f72657473756c635f656d656870617267202c38343732202c38343732207b,
0x2c7d204b52414d474e49434150533a3a657079745f65756c61765f706f72703a3a6b616572625f72657473756c635f656d656870617267202c32353732202c30353732207b,
0x2c7d20444e455458453a3a657079745f65756c61765f706f72703a3a6b616572625f72657473756c635f656d656870617267202c37353732202c33353732207b,
0x2c7d20444e455458453a3a657079745f65756c61765f706f72703a3a6b616572625f72657473756c635f656d656870617267202c30363732202c39353732207b,
0x2c7d204b52414d474e49434150533a3a657079745f65756c61765f706f72703a3a6b616572625f72657473756c635f656d656870617267202c31363732202c31363732207b,
0x2c7d204b52414d474e49434150533a3a657079745f65756c61765f706f72703a3a6b616572625f72657473756c635f656d656870617267202c34363732202c33363732207b,
0x2c7d20444e455458453a3a657079745f65756c61765f706f72703a3a6b616572625f72657473756c635f656d656870617267202c35363732202c35363732207b,
0x2c7d20444e455458453a3a657079745f65756c61765f706f72703a3a6b616572625f72657473756c635f656d656870617267202c37383732202c36383732207b,
0x2c7d20444e455458453a3a657079745f65756c61765f706f72703a3a6b616572625f72657473756c635f656d656870617267202c37313832202c37313832207b,
0x2c7d204b52414d474e49434150533a3a657079745f65756c61765f706f72703a3a6b616572625f72657473756c635f656d656870617267202c39313832202c38313832207b,
0x2c7d20444e455458453a3a657079745f65756c61765f706f72703a3a6b616572625f72657473756c635f656d656870617267202c36373832202c36373832207b,
0x2c7d20444e455458453a3a657079745f65756c61765f706f72703a3a6b616572625f72657473756c635f656d656870617267202c38373832202c38373832207b,
0x2c7d20444e455458453a3a657079745f65756c61765f706f72703a3a6b616572625f72657473756c635f656d656870617267202c39373832202c39373832207b,
0x2c7d204b52414d474e49434150533a3a657079745f65756c61765f706f72703a3a6b616572625f72657473756c635f656d656870617267202c30383832202c30383832207b,
0x2c7d20444e455458453a3a657079745f65756c61765f706f72703a3a6b616572625f72657473756c635f656d656870617267202c34383832202c31383832207b,
0x2c7d204b52414d474e49434150533a3a657079745f65756c61765f706f72703a3a6b616572625f72657473756c635f656d656870617267202c38383832202c37383832207b,
0x2c7d204b52414d474e49434150533a3a657079745f65756c61765f706f72703a3a6b616572625f72657473756c635f656d656870617267202c32393832202c31393832207b,
0x2c7d20444e455458453a3a657079745f65756c61765f706f72703a3a6b616572625f72657473756c635f656d656870617267202c33393832202c33393832207b,
0x2c7d20444e455458453a3a657079745f65756c61765f706f72703a3a6b616572625f72657473756c635f656d656870617267202c32303932202c32303932207b,
0x2c7d20444e455458453a3a657079745f65756c61765f706f72703a3a6b616572625f72657473756c635f656d656870617267202c33303932202c33303932207b,
0x2c7d20444e455458453a3a657079745f65756c61765f706f72703a3a6b616572625f72657473756c635f656d656870617267202c35313932202c34313932207b,
0x2c7d20444e455458453a3a657079745f65756c61765f706f72703a3a6b616572625f72657473756c635f656d656870617267202c36343932202c36343932207b,
0x2c7d20444e455458453a3a657079745f65756c61765f706f72703a3a6b616572625f72657473756c635f656d656870617267202c36303033202c36303033207b,
0x2c7d204b52414d474e49434150533a3a657079745f65756c61765f706f72703a3a6b616572625f72657473756c635f656d656870617267202c37303033202c37303033207b,
0x2c7d20444e455458453a3a657079745f65756c61765f706f72703a3a6b616572625f72657473756c635f656d656870617267202c38303033202c38303033207b,
0x2c7d204b52414d474e49434150533a3a657079745f65756c61765f706f72703a3a6b616572625f72657473756c635f656d656870617267202c30313033202c39303033207b,
0x2c7d204b52414d474e49434150533a3a657079745f65756c61765f706f72703a3a6b616572625f72657473756c635f656d656870617267202c36313033202c34313033207b,
0x2c7d204b52414d474e49434150533a3a657079745f65756c61765f706f72703a3a6b616572625f72657473756c635f656d656870617267202c30323033202c38313033207b,
0x2c7d20444e455458453a3a657079745f65756c61765f706f72703a3a6b616572625f72657473756c635f656d656870617267202c31323033202c31323033207b,
0x2c7d20444e455458453a3a657079745f65756c61765f706f72703a3a6b616572625f72657473756c635f656d656870617267202c31333033202c31333033207b,
0x2c7d20444e455458453a3a657079745f65756c61765f706f72703a3a6b616572625f72657473756c635f656d656870617267202c32373033202c32373033207b,
0x2c7d204b52414d474e49434150533a3a657079745f65756c61765f706f72703a3a6b616572625f72657473756c635f656d656870617267202c35373033202c33373033207b,
0x2c7d20444e455458453a3a657079745f65756c61765f706f72703a3a6b616572625f72657473756c635f656d656870617267202c36333133202c34333133207b,
0x2c7d204b52414d474e49434150533a3a657079745f65756c61765f706f72703a3a6b616572625f72657473756c635f656d656870617267202c30343133202c37333133207b,
0x2c7d20444e455458453a3a657079745f65756c61765f706f72703a3a6b616572625f72657473756c635f656d656870617267202c34343133202c32343133207b,
0x2c7d20444e455458453a3a657079745f65756c61765f706f72703a3a6b616572625f72657473756c635f656d656870617267202c39343133202c36343133207b,
0x2c7d20444e455458453a3a657079745f65756c61765f706f72703a3a6b616572625f72657473756c635f656d656870617267202c38353133202c37353133207b,
0x2c7d20444e455458453a3a657079745f65756c61765f706f72703a3a6b616572625f72657473756c635f656d656870617267202c31373133202c30373133207b,
0x2c7d20444e455458453a3a657079745f65756c61765f706f72703a3a6b616572625f72657473756c635f656d656870617267202c31303233202c31303233207b,
0x2c7d204b52414d474e49434150533a3a657079745f65756c61765f706f72703a3a6b616572625f72657473756c635f656d656870617267202c33303233202c32303233207b,
0x2c7d20444e455458453a3a657079745f65756c61765f706f72703a3a6b616572625f72657473756c635f656d656870617267202c30363233202c30363233207b,
0x2c7d204b52414d474e49434150533a3a657079745f65756c61765f706f72703a3a6b616572625f72657473756c635f656d656870617267202c32363233202c32363233207b,
0x2c7d20444e455458453a3a657079745f65756c61765f706f72703a3a6b616572625f72657473756c635f656d656870617267202c33363233202c33363233207b,
0x2c7d204b52414d474e49434150533a3a657079745f65756c61765f706f72703a3a6b616572625f72657473756c635f656d656870617267202c35363233202c34363233207b,
0x2c7d20444e455458453a3a657079745f65756c61765f706f72703a3a6b616572625f72657473756c635f656d656870617267202c36363233202c36363233207b,
0x2c7d204b52414d474e49434150533a3a657079745f65756c61765f706f72703a3a6b616572625f72657473756c635f656d656870617267202c38363233202c37363233207b,
0x2c7d20444e455458453a3a657079745f65756c61765f706f72703a3a6b616572625f72657473756c635f656d656870617267202c30373233202c30373233207b,
0x2c7d204b52414d474e49434150533a3a657079745f65756c61765f706f72703a3a6b616572625f72657473756c635f656d656870617267202c32373233202c31373233207b,
0x2c7d204b52414d474e49434150533a3a657079745f65756c61765f706f72703a3a6b616572625f72657473756c635f656d656870617267202c35373233202c34373233207b,
0x2c7d20444e455458453a3a657079745f65756c61765f706f72703a3a6b616572625f72657473756c635f656d656870617267202c37373233202c36373233207b,
0x2c7d20444e455458453a3a657079745f65756c61765f706f72703a3a6b616572625f72657473756c635f656d656870617267202c36383233202c35383233207b,
0x2c7d20444e455458453a3a657079745f65756c61765f706f72703a3a6b616572625f72657473756c635f656d656870617267202c39393233202c38393233207b,
0x2c7d20444e455458453a3a657079745f65756c61765f706f72703a3a6b616572625f72657473756c635f656d656870617267202c39323333202c39323333207b,
0x2c7d204b52414d474e49434150533a3a657079745f65756c61765f706f72703a3a6b616572625f72657473756c635f656d656870617267202c31333333202c30333333207b,
0x2c7d20444e455458453a3a657079745f65756c61765f706f72703a3a6b616572625f72657473756c635f656d656870617267202c30393333202c30393333207b,
0x2c7d204b52414d474e49434150533a3a657079745f65756c61765f706f72703a3a6b616572625f72657473756c635f656d656870617267202c32393333202c31393333207b,
0x2c7d20444e455458453a3a657079745f65756c61765f706f72703a3a6b616572625f72657473756c635f656d656870617267202c36393333202c33393333207b,
0x2c7d204b52414d474e49434150533a3a657079745f65756c61765f706f72703a3a6b616572625f72657473756c635f656d656870617267202c30303433202c38393333207b,
0x2c7d204b52414d474e49434150533a3a657079745f65756c61765f706f72703a3a6b616572625f72657473756c635f656d656870617267202c34303433202c32303433207b,
0x2c7d20444e455458453a3a657079745f65756c61765f706f72703a3a6b616572625f72657473756c635f656d656870617267202c35303433202c35303433207b,
0x2c7d20444e45504552503a3a657079745f65756c61765f706f72703a3a6b616572625f72657473756c635f656d656870617267202c36303433202c36303433207b,
0x2c7d20444e455458453a3a657079745f65756c61765f706f72703a3a6b616572625f72657473756c635f656d656870617267202c35313433202c35313433207b,
0x2c7d20444e455458453a3a657079745f65756c61765f706f72703a3a6b616572625f72657473756c635f656d656870617267202c37323433202c36323433207b,
0x2c7d204b52414d474e49434150533a3a657079745f65756c61765f706f72703a3a6b616572625f72657473756c635f656d656870617267202c39353433202c38353433207b,
0x2c7d20444e455458453a3a657079745f65756c61765f706f72703a3a6b616572625f72657473756c635f656d656870617267202c30333533202c30333533207b,
0x2c7d20444e455458453a3a657079745f65756c61765f706f72703a3a6b616572625f72657473756c635f656d656870617267202c35333533202c35333533207b,
0x2c7d204b52414d474e49434150533a3a657079745f65756c61765f706f72703a3a6b616572625f72657473756c635f656d656870617267202c37333533202c36333533207b,
0x2c7d20444e455458453a3a657079745f65756c61765f706f72703a3a6b616572625f72657473756c635f656d656870617267202c30343533202c38333533207b,
0x2c7d20444e455458453a3a657079745f65756c61765f706f72703a3a6b616572625f72657473756c635f656d656870617267202c32343533202c32343533207b,
0x2c7d204b52414d474e49434150533a3a657079745f65756c61765f706f72703a3a6b616572625f72657473756c635f656d656870617267202c30353533202c34343533207b,
0x2c7d20444e455458453a3a657079745f65756c61765f706f72703a3a6b616572625f72657473756c635f656d656870617267202c31353533202c31353533207b,
0x2c7d204b52414d474e49434150533a3a657079745f65756c61765f706f72703a3a6b616572625f72657473756c635f656d656870617267202c31373533202c30373533207b,
0x2c7d20444e455458453a3a657079745f65756c61765f706f72703a3a6b616572625f72657473756c635f656d656870617267202c33333633202c33333633207b,
0x2c7d204b52414d474e49434150533a3a657079745f65756c61765f706f72703a3a6b616572625f72657473756c635f656d656870617267202c35333633202c35333633207b,
0x2c7d20444e455458453a3a657079745f65756c61765f706f72703a3a6b616572625f72657473756c635f656d656870617267202c32343633202c36333633207b,
0x2c7d20444e455458453a3a657079745f65756c61765f706f72703a3a6b616572625f72657473756c635f656d656870617267202c32363633202c35353633207b,
0x2c7d20444e455458453a3a657079745f65756c61765f706f72703a3a6b616572625f72657473756c635f656d656870617267202c31363733202c31363733207b,
0x2c7d204b52414d474e49434150533a3a657079745f65756c61765f706f72703a3a6b616572625f72657473756c635f656d656870617267202c33363733202c33363733207b,
0x2c7d20444e455458453a3a657079745f65756c61765f706f72703a3a6b616572625f72657473756c635f656d656870617267202c39363733202c34363733207b,
0x2c7d20444e455458453a3a657079745f65756c61765f706f72703a3a6b616572625f72657473756c635f656d656870617267202c32373733202c31373733207b,
0x2c7d20444e455458453a3a657079745f65756c61765f706f72703a3a6b616572625f72657473756c635f656d656870617267202c39383733202c34383733207b,
0x2c7d20444e455458453a3a657079745f65756c61765f706f72703a3a6b616572625f72657473756c635f656d656870617267202c35363833202c34363833207b,
0x2c7d20444e455458453a3a657079745f65756c61765f706f72703a3a6b616572625f72657473756c635f656d656870617267202c33393833202c33393833207b,
0x2c7d20444e455458453a3a657079745f65756c61765f706f72703a3a6b616572625f72657473756c635f656d656870617267202c35393833202c35393833207b,
0x2c7d20444e455458453a3a657079745f65756c61765f706f72703a3a6b616572625f72657473756c635f656d656870617267202c37393833202c37393833207b,
0x2c7d204b52414d474e49434150533a3a657079745f65756c61765f706f72703a3a6b616572625f72657473756c635f656d656870617267202c33303933202c32303933207b,
0x2c7d20444e455458453a3a657079745f65756c61765f706f72703a3a6b616572625f72657473756c635f656d656870617267202c36363933202c33353933207b,
0x2c7d204b52414d474e49434150533a3a657079745f65756c61765f706f72703a3a6b616572625f72657473756c635f656d656870617267202c37363933202c37363933207b,
0x2c7d20444e455458453a3a657079745f65756c61765f706f72703a3a6b616572625f72657473756c635f656d656870617267202c32373933202c38363933207b,
0x2c7d20444e455458453a3a657079745f65756c61765f706f72703a3a6b616572625f72657473756c635f656d656870617267202c35373933202c34373933207b,
0x2c7d20444e455458453a3a657079745f65756c61765f706f72703a3a6b616572625f72657473756c635f656d656870617267202c31393933202c31383933207b,
0x2c7d20444e455458453a3a657079745f65756c61765f706f72703a3a6b616572625f72657473756c635f656d656870617267202c38323034202c33393933207b,
0x2c7d20444e455458453a3a657079745f65756c61765f706f72703a3a6b616572625f72657473756c635f656d656870617267202c38333034202c38333034207b,
0x2c7d20444e455458453a3a657079745f65756c61765f706f72703a3a6b616572625f72657473756c635f656d656870617267202c34343134202c31343134207b,
0x2c7d204b52414d474e49434150533a3a657079745f65756c61765f706f72703a3a6b616572625f72657473756c635f656d656870617267202c35343134202c35343134207b,
0x2c7d20444e455458453a3a657079745f65756c61765f706f72703a3a6b616572625f72657473756c635f656d656870617267202c31353134202c36343134207b,
0x2c7d20444e455458453a3a657079745f65756c61765f706f72703a3a6b616572625f72657473756c635f656d656870617267202c34353134202c33353134207b,
0x2c7d204b52414d474e49434150533a3a657079745f65756c61765f706f72703a3a6b616572625f72657473756c635f656d656870617267202c36353134202c35353134207b,
0x2c7d20444e455458453a3a657079745f65756c61765f706f72703a3a6b616572625f72657473756c635f656d656870617267202c38353134202c37353134207b,
0x2c7d204b52414d474e49434150533a3a657079745f65756c61765f706f72703a3a6b616572625f72657473756c635f656d656870617267202c33383134202c32383134207b,
0x2c7d20444e455458453a3a657079745f65756c61765f706f72703a3a6b616572625f72657473756c635f656d656870617267202c35383134202c34383134207b,
0x2c7d20444e455458453a3a657079745f65756c61765f706f72703a3a6b616572625f72657473756c635f656d656870617267202c32393134202c30393134207b,
0x2c7d20444e455458453a3a657079745f65756c61765f706f72703a3a6b616572625f72657473756c635f656d656870617267202c32313234202c39303234207b,
0x2c7d20444e455458453a3a657079745f65756c61765f706f72703a3a6b616572625f72657473756c635f656d656870617267202c36323234202c36323234207b,
0x2c7d204b52414d474e49434150533a3a657079745f65756c61765f706f72703a3a6b616572625f72657473756c635f656d656870617267202c38323234202c38323234207b,
0x2c7d20444e455458453a3a657079745f65756c61765f706f72703a3a6b616572625f72657473756c635f656d656870617267202c30333234202c39323234207b,
0x2c7d20444e455458453a3a657079745f65756c61765f706f72703a3a6b616572625f72657473756c635f656d656870617267202c37333234202c37333234207b,
0x2c7d20444e455458453a3a657079745f65756c61765f706f72703a3a6b616572625f72657473756c635f656d656870617267202c33353234202c33353234207b,
0x2c7d204c3a3a657079745f65756c61765f706f72703a3a6b616572625f72657473756c635f656d656870617267202c37343434202c32353334207b,
0x2c7d20563a3a657079745f65756c61765f706f72703a3a6b616572625f72657473756c635f656d656870617267202c39313534202c38343434207b,
0x2c7d20543a3a657079745f65756c61765f706f72703a3a6b616572625f72657473756c635f656d656870617267202c37303634202c30323534207b,
0x2c7d20444e455458453a3a657079745f65756c61765f706f72703a3a6b616572625f72657473756c635f656d656870617267202c39353934202c37353934207b,
0x2c7d20444e455458453a3a657079745f65756c61765f706f72703a3a6b616572625f72657473756c635f656d656870617267202c38303935202c36303935207b,
0x2c7d20444e455458453a3a657079745f65756c61765f706f72703a3a6b616572625f72657473756c635f656d656870617267202c30343935202c38333935207b,
0x2c7d20444e455458453a3a657079745f65756c61765f706f72703a3a6b616572625f72657473756c635f656d656870617267202c31373935202c30373935207b,
0x2c7d20444e455458453a3a657079745f65756c61765f706f72703a3a6b616572625f72657473756c635f656d656870617267202c33303036202c32303036207b,
0x2c7d20444e455458453a3a657079745f65756c61765f706f72703a3a6b616572625f72657473756c635f656d656870617267202c39363036202c38363036207b,
0x2c7d204b52414d474e49434150533a3a657079745f65756c61765f706f72703a3a6b616572625f72657473756c635f656d656870617267202c30373036202c30373036207b,
0x2c7d20444e455458453a3a657079745f65756c61765f706f72703a3a6b616572625f72657473756c635f656d656870617267202c37373036202c31373036207b,
0x2c7d204b52414d474e49434150533a3a657079745f65756c61765f706f72703a3a6b616572625f72657473756c635f656d656870617267202c35383036202c38373036207b,
0x2c7d20444e455458453a3a657079745f65756c61765f706f72703a3a6b616572625f72657473756c635f656d656870617267202c36383036202c36383036207b,
0x2c7d204b52414d474e49434150533a3a657079745f65756c61765f706f72703a3a6b616572625f72657473756c635f656d656870617267202c38383036202c37383036207b,
0x2c7d20444e455458453a3a657079745f65756c61765f706f72703a3a6b616572625f72657473756c635f656d656870617267202c39393036202c39383036207b,
0x2c7d20444e455458453a3a657079745f65756c61765f706f72703a3a6b616572625f72657473756c635f656d656870617267202c39303136202c39303136207b,
0x2c7d20444e455458453a3a657079745f65756c61765f706f72703a3a6b616572625f72657473756c635f656d656870617267202c37353136202c35353136207b,
0x2c7d204c4f52544e4f433a3a657079745f65756c61765f706f72703a3a6b616572625f72657473756c635f656d656870617267202c38353136202c38353136207b,
0x2c7d20444e455458453a3a657079745f65756c61765f706f72703a3a6b616572625f72657473756c635f656d656870617267202c38373236202c37373236207b,
0x2c7d20444e455458453a3a657079745f65756c61765f706f72703a3a6b616572625f72657473756c635f656d656870617267202c33313336202c33313336207b,
0x2c7d20444e455458453a3a657079745f65756c61765f706f72703a3a6b616572625f72657473756c635f656d656870617267202c34333436202c32333436207b,
0x2c7d204b52414d474e49434150533a3a657079745f65756c61765f706f72703a3a6b616572625f72657473756c635f656d656870617267202c38333436202c35333436207b,
0x2c7d20444e455458453a3a657079745f65756c61765f706f72703a3a6b616572625f72657473756c635f656d656870617267202c30343436202c39333436207b,
0x2c7d204b52414d474e49434150533a3a657079745f65756c61765f706f72703a3a6b616572625f72657473756c635f656d656870617267202c33343436202c31343436207b,
0x2c7d204b52414d474e49434150533a3a657079745f65756c61765f706f72703a3a6b616572625f72657473756c635f656d656870617267202c39343436202c38343436207b,
0x2c7d20444e455458453a3a657079745f65756c61765f706f72703a3a6b616572625f72657473756c635f656d656870617267202c30353436202c30353436207b,
0x2c7d204b52414d474e49434150533a3a657079745f65756c61765f706f72703a3a6b616572625f72657473756c635f656d656870617267202c36353436202c31353436207b,
0x2c7d20444e455458453a3a657079745f65756c61765f706f72703a3a6b616572625f72657473756c635f656d656870617267202c39353436202c37353436207b,
0x2c7d20444e455458453a3a657079745f65756c61765f706f72703a3a6b616572625f72657473756c635f656d656870617267202c30383636202c39373636207b,
0x2c7d204b52414d474e49434150533a3a657079745f65756c61765f706f72703a3a6b616572625f72657473756c635f656d656870617267202c32383636202c31383636207b,
0x2c7d20444e455458453a3a657079745f65756c61765f706f72703a3a6b616572625f72657473756c635f656d656870617267202c33383636202c33383636207b,
0x2c7d204b52414d474e49434150533a3a657079745f65756c61765f706f72703a3a6b616572625f72657473756c635f656d656870617267202c31343736202c31343736207b,
0x2c7d20444e455458453a3a657079745f65756c61765f706f72703a3a6b616572625f72657473756c635f656d656870617267202c32343736202c32343736207b,
0x2c7d204b52414d474e49434150533a3a657079745f65756c61765f706f72703a3a6b616572625f72657473756c635f656d656870617267202c33343736202c33343736207b,
0x2c7d20444e455458453a3a657079745f65756c61765f706f72703a3a6b616572625f72657473756c635f656d656870617267202c30353736202c34343736207b,
0x2c7d20444e455458453a3a657079745f65756c61765f706f72703a3a6b616572625f72657473756c635f656d656870617267202c32353736202c32353736207b,
0x2c7d20444e455458453a3a657079745f65756c61765f706f72703a3a6b616572625f72657473756c635f656d656870617267202c34353736202c34353736207b,
0x2c7d20444e455458453a3a657079745f65756c61765f706f72703a3a6b616572625f72657473756c635f656d656870617267202c34363736202c37353736207b,
0x2c7d204b52414d474e49434150533a3a657079745f65756c61765f706f72703a3a6b616572625f72657473756c635f656d656870617267202c30373736202c35363736207b,
0x2c7d20444e455458453a3a657079745f65756c61765f706f72703a3a6b616572625f72657473756c635f656d656870617267202c30383736202c31373736207b,
0x2c7d20444e455458453a3a657079745f65756c61765f706f72703a3a6b616572625f72657473756c635f656d656870617267202c33383736202c33383736207b,
0x2c7d20444e455458453a3a657079745f65756c61765f706f72703a3a6b616572625f72657473756c635f656d656870617267202c35343836202c32333836207b,
0x2c7d20444e455458453a3a657079745f65756c61765f706f72703a3a6b616572625f72657473756c635f656d656870617267202c36343836202c36343836207b,
0x2c7d20444e455458453a3a657079745f65756c61765f706f72703a3a6b616572625f72657473756c635f656d656870617267202c35313936202c32313936207b,
0x2c7d204b52414d474e49434150533a3a657079745f65756c61765f706f72703a3a6b616572625f72657473756c635f656d656870617267202c36313936202c36313936207b,
0x2c7d20444e455458453a3a657079745f65756c61765f706f72703a3a6b616572625f72657473756c635f656d656870617267202c34363936202c34363936207b,
0x2c7d204b52414d474e49434150533a3a657079745f65756c61765f706f72703a3a6b616572625f72657473756c635f656d656870617267202c35363936202c35363936207b,
0x2c7d20444e455458453a3a657079745f65756c61765f706f72703a3a6b616572625f72657473756c635f656d656870617267202c30373936202c36363936207b,
0x2c7d204b52414d474e49434150533a3a657079745f65756c61765f706f72703a3a6b616572625f72657473756c635f656d656870617267202c31373936202c31373936207b,
0x2c7d20444e455458453a3a657079745f65756c61765f706f72703a3a6b616572625f72657473756c635f656d656870617267202c32373936202c32373936207b,
0x2c7d204b52414d474e49434150533a3a657079745f65756c61765f706f72703a3a6b616572625f72657473756c635f656d656870617267202c37373936202c33373936207b,
0x2c7d20444e455458453a3a657079745f65756c61765f706f72703a3a6b616572625f72657473756c635f656d656870617267202c38373936202c38373936207b,
0x2c7d204b52414d474e49434150533a3a657079745f65756c61765f706f72703a3a6b616572625f72657473756c635f656d656870617267202c30383936202c39373936207b,
0x2c7d20444e455458453a3a657079745f65756c61765f706f72703a3a6b616572625f72657473756c635f656d656870617267202c37323037202c39313037207b,
0x2c7d20444e455458453a3a657079745f65756c61765f706f72703a3a6b616572625f72657473756c635f656d656870617267202c31343037202c30343037207b,
0x2c7d204b52414d474e49434150533a3a657079745f65756c61765f706f72703a3a6b616572625f72657473756c635f656d656870617267202c32343037202c32343037207b,
0x2c7d204b52414d474e49434150533a3a657079745f65756c61765f706f72703a3a6b616572625f72657473756c635f656d656870617267202c33373037202c33373037207b,
0x2c7d20444e455458453a3a657079745f65756c61765f706f72703a3a6b616572625f72657473756c635f656d656870617267202c37373037202c34373037207b,
0x2c7d204b52414d474e49434150533a3a657079745f65756c61765f706f72703a3a6b616572625f72657473756c635f656d656870617267202c39373037202c38373037207b,
0x2c7d20444e455458453a3a657079745f65756c61765f706f72703a3a6b616572625f72657473756c635f656d656870617267202c31383037202c30383037207b,
0x2c7d204b52414d474e49434150533a3a657079745f65756c61765f706f72703a3a6b616572625f72657473756c635f656d656870617267202c32383037202c32383037207b,
0x2c7d20444e455458453a3a657079745f65756c61765f706f72703a3a6b616572625f72657473756c635f656d656870617267202c35383037202c33383037207b,
0x2c7d20444e455458453a3a657079745f65756c61765f706f72703a3a6b616572625f72657473756c635f656d656870617267202c32343137202c32343137207b,
0x2c7d204b52414d474e49434150533a3a657079745f65756c61765f706f72703a3a6b616572625f72657473756c635f656d656870617267202c33343137202c33343137207b,
0x2c7d20444e455458453a3a657079745f65756c61765f706f72703a3a6b616572625f72657473756c635f656d656870617267202c35343137202c34343137207b,
0x2c7d204b52414d474e49434150533a3a657079745f65756c61765f706f72703a3a6b616572625f72657473756c635f656d656870617267202c38343137202c36343137207b,
0x2c7d20444e455458453a3a657079745f65756c61765f706f72703a3a6b616572625f72657473756c635f656d656870617267202c39343137202c39343137207b,
0x2c7d204b52414d474e49434150533a3a657079745f65756c61765f706f72703a3a6b616572625f72657473756c635f656d656870617267202c30353137202c30353137207b,
0x2c7d20444e455458453a3a657079745f65756c61765f706f72703a3a6b616572625f72657473756c635f656d656870617267202c33353137202c31353137207b,
0x2c7d204b52414d474e49434150533a3a657079745f65756c61765f706f72703a3a6b616572625f72657473756c635f656d656870617267202c35353137202c34353137207b,
0x2c7d204b52414d474e49434150533a3a657079745f65756c61765f706f72703a3a6b616572625f72657473756c635f656d656870617267202c31313237202c34303237207b,
0x2c7d20444e455458453a3a657079745f65756c61765f706f72703a3a6b616572625f72657473756c635f656d656870617267202c39313237202c32313237207b,
0x2c7d204b52414d474e49434150533a3a657079745f65756c61765f706f72703a3a6b616572625f72657473756c635f656d656870617267202c31323237202c30323237207b,
0x2c7d20444e455458453a3a657079745f65756c61765f706f72703a3a6b616572625f72657473756c635f656d656870617267202c33323237202c32323237207b,
0x2c7d20444e455458453a3a657079745f65756c61765f706f72703a3a6b616572625f72657473756c635f656d656870617267202c38373337202c36373337207b,
0x2c7d20444e455458453a3a657079745f65756c61765f706f72703a3a6b616572625f72657473756c635f656d656870617267202c32393337202c30383337207b]

/-- src/u5e/props/grapheme_cluster_break_data.hpp lines 257-512. -/
def rawGcbHdr1 : List Nat := [
0x2c7d204b52414d474e49434150533a3a657079745f65756c61765f706f72703a3a6b616572625f72657473756c635f656d656870617267202c33393337202c33393337207b,
0x2c7d20444e455458453a3a657079745f65756c61765f706f72703a3a6b616572625f72657473756c635f656d656870617267202c30303437202c34393337207b,
0x2c7d20444e455458453a3a657079745f65756c61765f706f72703a3a6b616572625f72657473756c635f656d656870617267202c35303437202c35303437207b,
0x2c7d204b52414d474e49434150533a3a657079745f65756c61765f706f72703a3a6b616572625f72657473756c635f656d656870617267202c31313437202c30313437207b,
0x2c7d20444e455458453a3a657079745f65756c61765f706f72703a3a6b616572625f72657473756c635f656d656870617267202c32313437202c32313437207b,
0x2c7d20444e455458453a3a657079745f65756c61765f706f72703a3a6b616572625f72657473756c635f656d656870617267202c37313437202c36313437207b,
0x2c7d20444e455458453a3a657079745f65756c61765f706f72703a3a6b616572625f72657473756c635f656d656870617267202c39363637202c36313637207b,
0x2c7d20444e455458453a3a657079745f65756c61765f706f72703a3a6b616572625f72657473756c635f656d656870617267202c39373637202c35373637207b,
0x2c7d204c4f52544e4f433a3a657079745f65756c61765f706f72703a3a6b616572625f72657473756c635f656d656870617267202c33303238202c33303238207b,
0x2c7d20444e455458453a3a657079745f65756c61765f706f72703a3a6b616572625f72657473756c635f656d656870617267202c34303238202c34303238207b,
0x2c7d204a575a3a3a657079745f65756c61765f706f72703a3a6b616572625f72657473756c635f656d656870617267202c35303238202c35303238207b,
0x2c7d204c4f52544e4f433a3a657079745f65756c61765f706f72703a3a6b616572625f72657473756c635f656d656870617267202c37303238202c36303238207b,
0x2c7d204c4f52544e4f433a3a657079745f65756c61765f706f72703a3a6b616572625f72657473756c635f656d656870617267202c32333238202c32333238207b,
0x2c7d204c4f52544e4f433a3a657079745f65756c61765f706f72703a3a6b616572625f72657473756c635f656d656870617267202c33333238202c33333238207b,
0x2c7d204c4f52544e4f433a3a657079745f65756c61765f706f72703a3a6b616572625f72657473756c635f656d656870617267202c38333238202c34333238207b,
0x2c7d204c4f52544e4f433a3a657079745f65756c61765f706f72703a3a6b616572625f72657473756c635f656d656870617267202c32393238202c38383238207b,
0x2c7d204c4f52544e4f433a3a657079745f65756c61765f706f72703a3a6b616572625f72657473756c635f656d656870617267202c33393238202c33393238207b,
0x2c7d204c4f52544e4f433a3a657079745f65756c61765f706f72703a3a6b616572625f72657473756c635f656d656870617267202c33303338202c34393238207b,
0x2c7d20444e455458453a3a657079745f65756c61765f706f72703a3a6b616572625f72657473756c635f656d656870617267202c32313438202c30303438207b,
0x2c7d20444e455458453a3a657079745f65756c61765f706f72703a3a6b616572625f72657473756c635f656d656870617267202c36313438202c33313438207b,
0x2c7d20444e455458453a3a657079745f65756c61765f706f72703a3a6b616572625f72657473756c635f656d656870617267202c37313438202c37313438207b,
0x2c7d20444e455458453a3a657079745f65756c61765f706f72703a3a6b616572625f72657473756c635f656d656870617267202c30323438202c38313438207b,
0x2c7d20444e455458453a3a657079745f65756c61765f706f72703a3a6b616572625f72657473756c635f656d656870617267202c32333438202c31323438207b,
0x2c7d20455341425f453a3a657079745f65756c61765f706f72703a3a6b616572625f72657473756c635f656d656870617267202c37353739202c37353739207b,
0x2c7d20455341425f453a3a657079745f65756c61765f706f72703a3a6b616572625f72657473756c635f656d656870617267202c37373939202c37373939207b,
0x2c7d20455341425f453a3a657079745f65756c61765f706f72703a3a6b616572625f72657473756c635f656d656870617267202c37393939202c34393939207b,
0x2c7d204a575a5f52455446415f45554c473a3a657079745f65756c61765f706f72703a3a6b616572625f72657473756c635f656d656870617267202c3438303031202c3438303031207b,
0x2c7d20444e455458453a3a657079745f65756c61765f706f72703a3a6b616572625f72657473756c635f656d656870617267202c3530353131202c3330353131207b,
0x2c7d20444e455458453a3a657079745f65756c61765f706f72703a3a6b616572625f72657473756c635f656d656870617267202c3734363131202c3734363131207b,
0x2c7d20444e455458453a3a657079745f65756c61765f706f72703a3a6b616572625f72657473756c635f656d656870617267202c3537373131202c3434373131207b,
0x2c7d20444e455458453a3a657079745f65756c61765f706f72703a3a6b616572625f72657473756c635f656d656870617267202c3333333231202c3033333231207b,
0x2c7d20444e455458453a3a657079745f65756c61765f706f72703a3a6b616572625f72657473756c635f656d656870617267202c3533333231202c3433333231207b,
0x2c7d20444e455458453a3a657079745f65756c61765f706f72703a3a6b616572625f72657473756c635f656d656870617267202c3234343231202c3134343231207b,
0x2c7d20444e455458453a3a657079745f65756c61765f706f72703a3a6b616572625f72657473756c635f656d656870617267202c3730363234202c3730363234207b,
0x2c7d20444e455458453a3a657079745f65756c61765f706f72703a3a6b616572625f72657473756c635f656d656870617267202c3031363234202c3830363234207b,
0x2c7d20444e455458453a3a657079745f65756c61765f706f72703a3a6b616572625f72657473756c635f656d656870617267202c3132363234202c3231363234207b,
0x2c7d20444e455458453a3a657079745f65756c61765f706f72703a3a6b616572625f72657473756c635f656d656870617267202c3535363234202c3435363234207b,
0x2c7d20444e455458453a3a657079745f65756c61765f706f72703a3a6b616572625f72657473756c635f656d656870617267202c3733373234202c3633373234207b,
0x2c7d20444e455458453a3a657079745f65756c61765f706f72703a3a6b616572625f72657473756c635f656d656870617267202c3031303334202c3031303334207b,
0x2c7d20444e455458453a3a657079745f65756c61765f706f72703a3a6b616572625f72657473756c635f656d656870617267202c3431303334202c3431303334207b,
0x2c7d20444e455458453a3a657079745f65756c61765f706f72703a3a6b616572625f72657473756c635f656d656870617267202c3931303334202c3931303334207b,
0x2c7d204b52414d474e49434150533a3a657079745f65756c61765f706f72703a3a6b616572625f72657473756c635f656d656870617267202c3434303334202c3334303334207b,
0x2c7d20444e455458453a3a657079745f65756c61765f706f72703a3a6b616572625f72657473756c635f656d656870617267202c3634303334202c3534303334207b,
0x2c7d204b52414d474e49434150533a3a657079745f65756c61765f706f72703a3a6b616572625f72657473756c635f656d656870617267202c3734303334202c3734303334207b,
0x2c7d204b52414d474e49434150533a3a657079745f65756c61765f706f72703a3a6b616572625f72657473756c635f656d656870617267202c3733313334202c3633313334207b,
0x2c7d204b52414d474e49434150533a3a657079745f65756c61765f706f72703a3a6b616572625f72657473756c635f656d656870617267202c3330323334202c3838313334207b,
0x2c7d20444e455458453a3a657079745f65756c61765f706f72703a3a6b616572625f72657473756c635f656d656870617267202c3530323334202c3430323334207b,
0x2c7d20444e455458453a3a657079745f65756c61765f706f72703a3a6b616572625f72657473756c635f656d656870617267202c3934323334202c3233323334207b,
0x2c7d20444e455458453a3a657079745f65756c61765f706f72703a3a6b616572625f72657473756c635f656d656870617267202c3930333334202c3230333334207b,
0x2c7d20444e455458453a3a657079745f65756c61765f706f72703a3a6b616572625f72657473756c635f656d656870617267202c3534333334202c3533333334207b,
0x2c7d204b52414d474e49434150533a3a657079745f65756c61765f706f72703a3a6b616572625f72657473756c635f656d656870617267202c3734333334202c3634333334207b,
0x2c7d204c3a3a657079745f65756c61765f706f72703a3a6b616572625f72657473756c635f656d656870617267202c3838333334202c3036333334207b,
0x2c7d20444e455458453a3a657079745f65756c61765f706f72703a3a6b616572625f72657473756c635f656d656870617267202c3439333334202c3239333334207b,
0x2c7d204b52414d474e49434150533a3a657079745f65756c61765f706f72703a3a6b616572625f72657473756c635f656d656870617267202c3539333334202c3539333334207b,
0x2c7d20444e455458453a3a657079745f65756c61765f706f72703a3a6b616572625f72657473756c635f656d656870617267202c3334343334202c3334343334207b,
0x2c7d204b52414d474e49434150533a3a657079745f65756c61765f706f72703a3a6b616572625f72657473756c635f656d656870617267202c3534343334202c3434343334207b,
0x2c7d20444e455458453a3a657079745f65756c61765f706f72703a3a6b616572625f72657473756c635f656d656870617267202c3934343334202c3634343334207b,
0x2c7d204b52414d474e49434150533a3a657079745f65756c61765f706f72703a3a6b616572625f72657473756c635f656d656870617267202c3135343334202c3035343334207b,
0x2c7d20444e455458453a3a657079745f65756c61765f706f72703a3a6b616572625f72657473756c635f656d656870617267202c3235343334202c3235343334207b,
0x2c7d204b52414d474e49434150533a3a657079745f65756c61765f706f72703a3a6b616572625f72657473756c635f656d656870617267202c3635343334202c3335343334207b,
0x2c7d20444e455458453a3a657079745f65756c61765f706f72703a3a6b616572625f72657473756c635f656d656870617267202c3339343334202c3339343334207b,
0x2c7d20444e455458453a3a657079745f65756c61765f706f72703a3a6b616572625f72657473756c635f656d656870617267202c3636353334202c3136353334207b,
0x2c7d204b52414d474e49434150533a3a657079745f65756c61765f706f72703a3a6b616572625f72657473756c635f656d656870617267202c3836353334202c3736353334207b,
0x2c7d20444e455458453a3a657079745f65756c61765f706f72703a3a6b616572625f72657473756c635f656d656870617267202c3037353334202c3936353334207b,
0x2c7d204b52414d474e49434150533a3a657079745f65756c61765f706f72703a3a6b616572625f72657473756c635f656d656870617267202c3237353334202c3137353334207b,
0x2c7d20444e455458453a3a657079745f65756c61765f706f72703a3a6b616572625f72657473756c635f656d656870617267202c3437353334202c3337353334207b,
0x2c7d20444e455458453a3a657079745f65756c61765f706f72703a3a6b616572625f72657473756c635f656d656870617267202c3738353334202c3738353334207b,
0x2c7d20444e455458453a3a657079745f65756c61765f706f72703a3a6b616572625f72657473756c635f656d656870617267202c3639353334202c3639353334207b,
0x2c7d204b52414d474e49434150533a3a657079745f65756c61765f706f72703a3a6b616572625f72657473756c635f656d656870617267202c3739353334202c3739353334207b,
0x2c7d20444e455458453a3a657079745f65756c61765f706f72703a3a6b616572625f72657473756c635f656d656870617267202c3434363334202c3434363334207b,
0x2c7d20444e455458453a3a657079745f65756c61765f706f72703a3a6b616572625f72657473756c635f656d656870617267202c3639363334202c3639363334207b,
0x2c7d20444e455458453a3a657079745f65756c61765f706f72703a3a6b616572625f72657473756c635f656d656870617267202c3030373334202c3839363334207b,
0x2c7d20444e455458453a3a657079745f65756c61765f706f72703a3a6b616572625f72657473756c635f656d656870617267202c3430373334202c3330373334207b,
0x2c7d20444e455458453a3a657079745f65756c61765f706f72703a3a6b616572625f72657473756c635f656d656870617267202c3131373334202c3031373334207b,
0x2c7d20444e455458453a3a657079745f65756c61765f706f72703a3a6b616572625f72657473756c635f656d656870617267202c3331373334202c3331373334207b,
0x2c7d204b52414d474e49434150533a3a657079745f65756c61765f706f72703a3a6b616572625f72657473756c635f656d656870617267202c3535373334202c3535373334207b,
0x2c7d20444e455458453a3a657079745f65756c61765f706f72703a3a6b616572625f72657473756c635f656d656870617267202c3735373334202c3635373334207b,
0x2c7d204b52414d474e49434150533a3a657079745f65756c61765f706f72703a3a6b616572625f72657473756c635f656d656870617267202c3935373334202c3835373334207b,
0x2c7d204b52414d474e49434150533a3a657079745f65756c61765f706f72703a3a6b616572625f72657473756c635f656d656870617267202c3536373334202c3536373334207b,
0x2c7d20444e455458453a3a657079745f65756c61765f706f72703a3a6b616572625f72657473756c635f656d656870617267202c3636373334202c3636373334207b,
0x2c7d204b52414d474e49434150533a3a657079745f65756c61765f706f72703a3a6b616572625f72657473756c635f656d656870617267202c3430303434202c3330303434207b,
0x2c7d20444e455458453a3a657079745f65756c61765f706f72703a3a6b616572625f72657473756c635f656d656870617267202c3530303434202c3530303434207b,
0x2c7d204b52414d474e49434150533a3a657079745f65756c61765f706f72703a3a6b616572625f72657473756c635f656d656870617267202c3730303434202c3630303434207b,
0x2c7d20444e455458453a3a657079745f65756c61765f706f72703a3a6b616572625f72657473756c635f656d656870617267202c3830303434202c3830303434207b,
0x2c7d204b52414d474e49434150533a3a657079745f65756c61765f706f72703a3a6b616572625f72657473756c635f656d656870617267202c3031303434202c3930303434207b,
0x2c7d204b52414d474e49434150533a3a657079745f65756c61765f706f72703a3a6b616572625f72657473756c635f656d656870617267202c3231303434202c3231303434207b,
0x2c7d20444e455458453a3a657079745f65756c61765f706f72703a3a6b616572625f72657473756c635f656d656870617267202c3331303434202c3331303434207b,
0x2c7d20564c3a3a657079745f65756c61765f706f72703a3a6b616572625f72657473756c635f656d656870617267202c3233303434202c3233303434207b,
0x2c7d2054564c3a3a657079745f65756c61765f706f72703a3a6b616572625f72657473756c635f656d656870617267202c3935303434202c3333303434207b,
0x2c7d20564c3a3a657079745f65756c61765f706f72703a3a6b616572625f72657473756c635f656d656870617267202c3036303434202c3036303434207b,
0x2c7d2054564c3a3a657079745f65756c61765f706f72703a3a6b616572625f72657473756c635f656d656870617267202c3738303434202c3136303434207b,
0x2c7d20564c3a3a657079745f65756c61765f706f72703a3a6b616572625f72657473756c635f656d656870617267202c3838303434202c3838303434207b,
0x2c7d2054564c3a3a657079745f65756c61765f706f72703a3a6b616572625f72657473756c635f656d656870617267202c3531313434202c3938303434207b,
0x2c7d20564c3a3a657079745f65756c61765f706f72703a3a6b616572625f72657473756c635f656d656870617267202c3631313434202c3631313434207b,
0x2c7d2054564c3a3a657079745f65756c61765f706f72703a3a6b616572625f72657473756c635f656d656870617267202c3334313434202c3731313434207b,
0x2c7d20564c3a3a657079745f65756c61765f706f72703a3a6b616572625f72657473756c635f656d656870617267202c3434313434202c3434313434207b,
0x2c7d2054564c3a3a657079745f65756c61765f706f72703a3a6b616572625f72657473756c635f656d656870617267202c3137313434202c3534313434207b,
0x2c7d20564c3a3a657079745f65756c61765f706f72703a3a6b616572625f72657473756c635f656d656870617267202c3237313434202c3237313434207b,
0x2c7d2054564c3a3a657079745f65756c61765f706f72703a3a6b616572625f72657473756c635f656d656870617267202c3939313434202c3337313434207b,
0x2c7d20564c3a3a657079745f65756c61765f706f72703a3a6b616572625f72657473756c635f656d656870617267202c3030323434202c3030323434207b,
0x2c7d2054564c3a3a657079745f65756c61765f706f72703a3a6b616572625f72657473756c635f656d656870617267202c3732323434202c3130323434207b,
0x2c7d20564c3a3a657079745f65756c61765f706f72703a3a6b616572625f72657473756c635f656d656870617267202c3832323434202c3832323434207b,
0x2c7d2054564c3a3a657079745f65756c61765f706f72703a3a6b616572625f72657473756c635f656d656870617267202c3535323434202c3932323434207b,
0x2c7d20564c3a3a657079745f65756c61765f706f72703a3a6b616572625f72657473756c635f656d656870617267202c3635323434202c3635323434207b,
0x2c7d2054564c3a3a657079745f65756c61765f706f72703a3a6b616572625f72657473756c635f656d656870617267202c3338323434202c3735323434207b,
0x2c7d20564c3a3a657079745f65756c61765f706f72703a3a6b616572625f72657473756c635f656d656870617267202c3438323434202c3438323434207b,
0x2c7d2054564c3a3a657079745f65756c61765f706f72703a3a6b616572625f72657473756c635f656d656870617267202c3131333434202c3538323434207b,
0x2c7d20564c3a3a657079745f65756c61765f706f72703a3a6b616572625f72657473756c635f656d656870617267202c3231333434202c3231333434207b,
0x2c7d2054564c3a3a657079745f65756c61765f706f72703a3a6b616572625f72657473756c635f656d656870617267202c3933333434202c3331333434207b,
0x2c7d20564c3a3a657079745f65756c61765f706f72703a3a6b616572625f72657473756c635f656d656870617267202c3034333434202c3034333434207b,
0x2c7d2054564c3a3a657079745f65756c61765f706f72703a3a6b616572625f72657473756c635f656d656870617267202c3736333434202c3134333434207b,
0x2c7d20564c3a3a657079745f65756c61765f706f72703a3a6b616572625f72657473756c635f656d656870617267202c3836333434202c3836333434207b,
0x2c7d2054564c3a3a657079745f65756c61765f706f72703a3a6b616572625f72657473756c635f656d656870617267202c3539333434202c3936333434207b,
0x2c7d20564c3a3a657079745f65756c61765f706f72703a3a6b616572625f72657473756c635f656d656870617267202c3639333434202c3639333434207b,
0x2c7d2054564c3a3a657079745f65756c61765f706f72703a3a6b616572625f72657473756c635f656d656870617267202c3332343434202c3739333434207b,
0x2c7d20564c3a3a657079745f65756c61765f706f72703a3a6b616572625f72657473756c635f656d656870617267202c3432343434202c3432343434207b,
0x2c7d2054564c3a3a657079745f65756c61765f706f72703a3a6b616572625f72657473756c635f656d656870617267202c3135343434202c3532343434207b,
0x2c7d20564c3a3a657079745f65756c61765f706f72703a3a6b616572625f72657473756c635f656d656870617267202c3235343434202c3235343434207b,
0x2c7d2054564c3a3a657079745f65756c61765f706f72703a3a6b616572625f72657473756c635f656d656870617267202c3937343434202c3335343434207b,
0x2c7d20564c3a3a657079745f65756c61765f706f72703a3a6b616572625f72657473756c635f656d656870617267202c3038343434202c3038343434207b,
0x2c7d2054564c3a3a657079745f65756c61765f706f72703a3a6b616572625f72657473756c635f656d656870617267202c3730353434202c3138343434207b,
0x2c7d20564c3a3a657079745f65756c61765f706f72703a3a6b616572625f72657473756c635f656d656870617267202c3830353434202c3830353434207b,
0x2c7d2054564c3a3a657079745f65756c61765f706f72703a3a6b616572625f72657473756c635f656d656870617267202c3533353434202c3930353434207b,
0x2c7d20564c3a3a657079745f65756c61765f706f72703a3a6b616572625f72657473756c635f656d656870617267202c3633353434202c3633353434207b,
0x2c7d2054564c3a3a657079745f65756c61765f706f72703a3a6b616572625f72657473756c635f656d656870617267202c3336353434202c3733353434207b,
0x2c7d20564c3a3a657079745f65756c61765f706f72703a3a6b616572625f72657473756c635f656d656870617267202c3436353434202c3436353434207b,
0x2c7d2054564c3a3a657079745f65756c61765f706f72703a3a6b616572625f72657473756c635f656d656870617267202c3139353434202c3536353434207b,
0x2c7d20564c3a3a657079745f65756c61765f706f72703a3a6b616572625f72657473756c635f656d656870617267202c3239353434202c3239353434207b,
0x2c7d2054564c3a3a657079745f65756c61765f706f72703a3a6b616572625f72657473756c635f656d656870617267202c3931363434202c3339353434207b,
0x2c7d20564c3a3a657079745f65756c61765f706f72703a3a6b616572625f72657473756c635f656d656870617267202c3032363434202c3032363434207b,
0x2c7d2054564c3a3a657079745f65756c61765f706f72703a3a6b616572625f72657473756c635f656d656870617267202c3734363434202c3132363434207b,
0x2c7d20564c3a3a657079745f65756c61765f706f72703a3a6b616572625f72657473756c635f656d656870617267202c3834363434202c3834363434207b,
0x2c7d2054564c3a3a657079745f65756c61765f706f72703a3a6b616572625f72657473756c635f656d656870617267202c3537363434202c3934363434207b,
0x2c7d20564c3a3a657079745f65756c61765f706f72703a3a6b616572625f72657473756c635f656d656870617267202c3637363434202c3637363434207b,
0x2c7d2054564c3a3a657079745f65756c61765f706f72703a3a6b616572625f72657473756c635f656d656870617267202c3330373434202c3737363434207b,
0x2c7d20564c3a3a657079745f65756c61765f706f72703a3a6b616572625f72657473756c635f656d656870617267202c3430373434202c3430373434207b,
0x2c7d2054564c3a3a657079745f65756c61765f706f72703a3a6b616572625f72657473756c635f656d656870617267202c3133373434202c3530373434207b,
0x2c7d20564c3a3a657079745f65756c61765f706f72703a3a6b616572625f72657473756c635f656d656870617267202c3233373434202c3233373434207b,
0x2c7d2054564c3a3a657079745f65756c61765f706f72703a3a6b616572625f72657473756c635f656d656870617267202c3935373434202c3333373434207b,
0x2c7d20564c3a3a657079745f65756c61765f706f72703a3a6b616572625f72657473756c635f656d656870617267202c3036373434202c3036373434207b,
0x2c7d2054564c3a3a657079745f65756c61765f706f72703a3a6b616572625f72657473756c635f656d656870617267202c3738373434202c3136373434207b,
0x2c7d20564c3a3a657079745f65756c61765f706f72703a3a6b616572625f72657473756c635f656d656870617267202c3838373434202c3838373434207b,
0x2c7d2054564c3a3a657079745f65756c61765f706f72703a3a6b616572625f72657473756c635f656d656870617267202c3531383434202c3938373434207b,
0x2c7d20564c3a3a657079745f65756c61765f706f72703a3a6b616572625f72657473756c635f656d656870617267202c3631383434202c3631383434207b,
0x2c7d2054564c3a3a657079745f65756c61765f706f72703a3a6b616572625f72657473756c635f656d656870617267202c3334383434202c3731383434207b,
0x2c7d20564c3a3a657079745f65756c61765f706f72703a3a6b616572625f72657473756c635f656d656870617267202c3434383434202c3434383434207b,
0x2c7d2054564c3a3a657079745f65756c61765f706f72703a3a6b616572625f72657473756c635f656d656870617267202c3137383434202c3534383434207b,
0x2c7d20564c3a3a657079745f65756c61765f706f72703a3a6b616572625f72657473756c635f656d656870617267202c3237383434202c3237383434207b,
0x2c7d2054564c3a3a657079745f65756c61765f706f72703a3a6b616572625f72657473756c635f656d656870617267202c3939383434202c3337383434207b,
0x2c7d20564c3a3a657079745f65756c61765f706f72703a3a6b616572625f72657473756c635f656d656870617267202c3030393434202c3030393434207b,
0x2c7d2054564c3a3a657079745f65756c61765f706f72703a3a6b616572625f72657473756c635f656d656870617267202c3732393434202c3130393434207b,
0x2c7d20564c3a3a657079745f65756c61765f706f72703a3a6b616572625f72657473756c635f656d656870617267202c3832393434202c3832393434207b,
0x2c7d2054564c3a3a657079745f65756c61765f706f72703a3a6b616572625f72657473756c635f656d656870617267202c3535393434202c3932393434207b,
0x2c7d20564c3a3a657079745f65756c61765f706f72703a3a6b616572625f72657473756c635f656d656870617267202c3635393434202c3635393434207b,
0x2c7d2054564c3a3a657079745f65756c61765f706f72703a3a6b616572625f72657473756c635f656d656870617267202c3338393434202c3735393434207b,
0x2c7d20564c3a3a657079745f65756c61765f706f72703a3a6b616572625f72657473756c635f656d656870617267202c3438393434202c3438393434207b,
0x2c7d2054564c3a3a657079745f65756c61765f706f72703a3a6b616572625f72657473756c635f656d656870617267202c3131303534202c3538393434207b,
0x2c7d20564c3a3a657079745f65756c61765f706f72703a3a6b616572625f72657473756c635f656d656870617267202c3231303534202c3231303534207b,
0x2c7d2054564c3a3a657079745f65756c61765f706f72703a3a6b616572625f72657473756c635f656d656870617267202c3933303534202c3331303534207b,
0x2c7d20564c3a3a657079745f65756c61765f706f72703a3a6b616572625f72657473756c635f656d656870617267202c3034303534202c3034303534207b,
0x2c7d2054564c3a3a657079745f65756c61765f706f72703a3a6b616572625f72657473756c635f656d656870617267202c3736303534202c3134303534207b,
0x2c7d20564c3a3a657079745f65756c61765f706f72703a3a6b616572625f72657473756c635f656d656870617267202c3836303534202c3836303534207b,
0x2c7d2054564c3a3a657079745f65756c61765f706f72703a3a6b616572625f72657473756c635f656d656870617267202c3539303534202c3936303534207b,
0x2c7d20564c3a3a657079745f65756c61765f706f72703a3a6b616572625f72657473756c635f656d656870617267202c3639303534202c3639303534207b,
0x2c7d2054564c3a3a657079745f65756c61765f706f72703a3a6b616572625f72657473756c635f656d656870617267202c3332313534202c3739303534207b,
0x2c7d20564c3a3a657079745f65756c61765f706f72703a3a6b616572625f72657473756c635f656d656870617267202c3432313534202c3432313534207b,
0x2c7d2054564c3a3a657079745f65756c61765f706f72703a3a6b616572625f72657473756c635f656d656870617267202c3135313534202c3532313534207b,
0x2c7d20564c3a3a657079745f65756c61765f706f72703a3a6b616572625f72657473756c635f656d656870617267202c3235313534202c3235313534207b,
0x2c7d2054564c3a3a657079745f65756c61765f706f72703a3a6b616572625f72657473756c635f656d656870617267202c3937313534202c3335313534207b,
0x2c7d20564c3a3a657079745f65756c61765f706f72703a3a6b616572625f72657473756c635f656d656870617267202c3038313534202c3038313534207b,
0x2c7d2054564c3a3a657079745f65756c61765f706f72703a3a6b616572625f72657473756c635f656d656870617267202c3730323534202c3138313534207b,
0x2c7d20564c3a3a657079745f65756c61765f706f72703a3a6b616572625f72657473756c635f656d656870617267202c3830323534202c3830323534207b,
0x2c7d2054564c3a3a657079745f65756c61765f706f72703a3a6b616572625f72657473756c635f656d656870617267202c3533323534202c3930323534207b,
0x2c7d20564c3a3a657079745f65756c61765f706f72703a3a6b616572625f72657473756c635f656d656870617267202c3633323534202c3633323534207b,
0x2c7d2054564c3a3a657079745f65756c61765f706f72703a3a6b616572625f72657473756c635f656d656870617267202c3336323534202c3733323534207b,
0x2c7d20564c3a3a657079745f65756c61765f706f72703a3a6b616572625f72657473756c635f656d656870617267202c3436323534202c3436323534207b,
0x2c7d2054564c3a3a657079745f65756c61765f706f72703a3a6b616572625f72657473756c635f656d656870617267202c3139323534202c3536323534207b,
0x2c7d20564c3a3a657079745f65756c61765f706f72703a3a6b616572625f72657473756c635f656d656870617267202c3239323534202c3239323534207b,
0x2c7d2054564c3a3a657079745f65756c61765f706f72703a3a6b616572625f72657473756c635f656d656870617267202c3931333534202c3339323534207b,
0x2c7d20564c3a3a657079745f65756c61765f706f72703a3a6b616572625f72657473756c635f656d656870617267202c3032333534202c3032333534207b,
0x2c7d2054564c3a3a657079745f65756c61765f706f72703a3a6b616572625f72657473756c635f656d656870617267202c3734333534202c3132333534207b,
0x2c7d20564c3a3a657079745f65756c61765f706f72703a3a6b616572625f72657473756c635f656d656870617267202c3834333534202c3834333534207b,
0x2c7d2054564c3a3a657079745f65756c61765f706f72703a3a6b616572625f72657473756c635f656d656870617267202c3537333534202c3934333534207b,
0x2c7d20564c3a3a657079745f65756c61765f706f72703a3a6b616572625f72657473756c635f656d656870617267202c3637333534202c3637333534207b,
0x2c7d2054564c3a3a657079745f65756c61765f706f72703a3a6b616572625f72657473756c635f656d656870617267202c3330343534202c3737333534207b,
0x2c7d20564c3a3a657079745f65756c61765f706f72703a3a6b616572625f72657473756c635f656d656870617267202c3430343534202c3430343534207b,
0x2c7d2054564c3a3a657079745f65756c61765f706f72703a3a6b616572625f72657473756c635f656d656870617267202c3133343534202c3530343534207b,
0x2c7d20564c3a3a657079745f65756c61765f706f72703a3a6b616572625f72657473756c635f656d656870617267202c3233343534202c3233343534207b,
0x2c7d2054564c3a3a657079745f65756c61765f706f72703a3a6b616572625f72657473756c635f656d656870617267202c3935343534202c3333343534207b,
0x2c7d20564c3a3a657079745f65756c61765f706f72703a3a6b616572625f72657473756c635f656d656870617267202c3036343534202c3036343534207b,
0x2c7d2054564c3a3a657079745f65756c61765f706f72703a3a6b616572625f72657473756c635f656d656870617267202c3738343534202c3136343534207b,
0x2c7d20564c3a3a657079745f65756c61765f706f72703a3a6b616572625f72657473756c635f656d656870617267202c3838343534202c3838343534207b,
0x2c7d2054564c3a3a657079745f65756c61765f706f72703a3a6b616572625f72657473756c635f656d656870617267202c3531353534202c3938343534207b,
0x2c7d20564c3a3a657079745f65756c61765f706f72703a3a6b616572625f72657473756c635f656d656870617267202c3631353534202c3631353534207b,
0x2c7d2054564c3a3a657079745f65756c61765f706f72703a3a6b616572625f72657473756c635f656d656870617267202c3334353534202c3731353534207b,
0x2c7d20564c3a3a657079745f65756c61765f706f72703a3a6b616572625f72657473756c635f656d656870617267202c3434353534202c3434353534207b,
0x2c7d2054564c3a3a657079745f65756c61765f706f72703a3a6b616572625f72657473756c635f656d656870617267202c3137353534202c3534353534207b,
0x2c7d20564c3a3a657079745f65756c61765f706f72703a3a6b616572625f72657473756c635f656d656870617267202c3237353534202c3237353534207b,
0x2c7d2054564c3a3a657079745f65756c61765f706f72703a3a6b616572625f72657473756c635f656d656870617267202c3939353534202c3337353534207b,
0x2c7d20564c3a3a657079745f65756c61765f706f72703a3a6b616572625f72657473756c635f656d656870617267202c3030363534202c3030363534207b,
0x2c7d2054564c3a3a657079745f65756c61765f706f72703a3a6b616572625f72657473756c635f656d656870617267202c3732363534202c3130363534207b,
0x2c7d20564c3a3a657079745f65756c61765f706f72703a3a6b616572625f72657473756c635f656d656870617267202c3832363534202c3832363534207b,
0x2c7d2054564c3a3a657079745f65756c61765f706f72703a3a6b616572625f72657473756c635f656d656870617267202c3535363534202c3932363534207b,
0x2c7d20564c3a3a657079745f65756c61765f706f72703a3a6b616572625f72657473756c635f656d656870617267202c3635363534202c3635363534207b,
0x2c7d2054564c3a3a657079745f65756c61765f706f72703a3a6b616572625f72657473756c635f656d656870617267202c3338363534202c3735363534207b,
0x2c7d20564c3a3a657079745f65756c61765f706f72703a3a6b616572625f72657473756c635f656d656870617267202c3438363534202c3438363534207b,
0x2c7d2054564c3a3a657079745f65756c61765f706f72703a3a6b616572625f72657473756c635f656d656870617267202c3131373534202c3538363534207b,
0x2c7d20564c3a3a657079745f65756c61765f706f72703a3a6b616572625f72657473756c635f656d656870617267202c3231373534202c3231373534207b,
0x2c7d2054564c3a3a657079745f65756c61765f706f72703a3a6b616572625f72657473756c635f656d656870617267202c3933373534202c3331373534207b,
0x2c7d20564c3a3a657079745f65756c61765f706f72703a3a6b616572625f72657473756c635f656d656870617267202c3034373534202c3034373534207b,
0x2c7d2054564c3a3a657079745f65756c61765f706f72703a3a6b616572625f72657473756c635f656d656870617267202c3736373534202c3134373534207b,
0x2c7d20564c3a3a657079745f65756c61765f706f72703a3a6b616572625f72657473756c635f656d656870617267202c3836373534202c3836373534207b,
0x2c7d2054564c3a3a657079745f65756c61765f706f72703a3a6b616572625f72657473756c635f656d656870617267202c3539373534202c3936373534207b,
0x2c7d20564c3a3a657079745f65756c61765f706f72703a3a6b616572625f72657473756c635f656d656870617267202c3639373534202c3639373534207b,
0x2c7d2054564c3a3a657079745f65756c61765f706f72703a3a6b616572625f72657473756c635f656d656870617267202c3332383534202c3739373534207b,
0x2c7d20564c3a3a657079745f65756c61765f706f72703a3a6b616572625f72657473756c635f656d656870617267202c3432383534202c3432383534207b,
0x2c7d2054564c3a3a657079745f65756c61765f706f72703a3a6b616572625f72657473756c635f656d656870617267202c3135383534202c3532383534207b,
0x2c7d20564c3a3a657079745f65756c61765f706f72703a3a6b616572625f72657473756c635f656d656870617267202c3235383534202c3235383534207b,
0x2c7d2054564c3a3a657079745f65756c61765f706f72703a3a6b616572625f72657473756c635f656d656870617267202c3937383534202c3335383534207b,
0x2c7d20564c3a3a657079745f65756c61765f706f72703a3a6b616572625f72657473756c635f656d656870617267202c3038383534202c3038383534207b,
0x2c7d2054564c3a3a657079745f65756c61765f706f72703a3a6b616572625f72657473756c635f656d656870617267202c3730393534202c3138383534207b,
0x2c7d20564c3a3a657079745f65756c61765f706f72703a3a6b616572625f72657473756c635f656d656870617267202c3830393534202c3830393534207b,
0x2c7d2054564c3a3a657079745f65756c61765f706f72703a3a6b616572625f72657473756c635f656d656870617267202c3533393534202c3930393534207b,
0x2c7d20564c3a3a657079745f65756c61765f706f72703a3a6b616572625f72657473756c635f656d656870617267202c3633393534202c3633393534207b,
0x2c7d2054564c3a3a657079745f65756c61765f706f72703a3a6b616572625f72657473756c635f656d656870617267202c3336393534202c3733393534207b,
0x2c7d20564c3a3a657079745f65756c61765f706f72703a3a6b616572625f72657473756c635f656d656870617267202c3436393534202c3436393534207b,
0x2c7d2054564c3a3a657079745f65756c61765f706f72703a3a6b616572625f72657473756c635f656d656870617267202c3139393534202c3536393534207b,
0x2c7d20564c3a3a657079745f65756c61765f706f72703a3a6b616572625f72657473756c635f656d656870617267202c3239393534202c3239393534207b,
0x2c7d2054564c3a3a657079745f65756c61765f706f72703a3a6b616572625f72657473756c635f656d656870617267202c3931303634202c3339393534207b,
0x2c7d20564c3a3a657079745f65756c61765f706f72703a3a6b616572625f72657473756c635f656d656870617267202c3032303634202c3032303634207b,
0x2c7d2054564c3a3a657079745f65756c61765f706f72703a3a6b616572625f72657473756c635f656d656870617267202c3734303634202c3132303634207b,
0x2c7d20564c3a3a657079745f65756c61765f706f72703a3a6b616572625f72657473756c635f656d656870617267202c3834303634202c3834303634207b,
0x2c7d2054564c3a3a657079745f65756c61765f706f72703a3a6b616572625f72657473756c635f656d656870617267202c3537303634202c3934303634207b,
0x2c7d20564c3a3a657079745f65756c61765f706f72703a3a6b616572625f72657473756c635f656d656870617267202c3637303634202c3637303634207b,
0x2c7d2054564c3a3a657079745f65756c61765f706f72703a3a6b616572625f72657473756c635f656d656870617267202c3330313634202c3737303634207b,
0x2c7d20564c3a3a657079745f65756c61765f706f72703a3a6b616572625f72657473756c635f656d656870617267202c3430313634202c3430313634207b,
0x2c7d2054564c3a3a657079745f65756c61765f706f72703a3a6b616572625f72657473756c635f656d656870617267202c3133313634202c3530313634207b,
0x2c7d20564c3a3a657079745f65756c61765f706f72703a3a6b616572625f72657473756c635f656d656870617267202c3233313634202c3233313634207b,
0x2c7d2054564c3a3a657079745f65756c61765f706f72703a3a6b616572625f72657473756c635f656d656870617267202c3935313634202c3333313634207b,
0x2c7d20564c3a3a657079745f65756c61765f706f72703a3a6b616572625f72657473756c635f656d656870617267202c3036313634202c3036313634207b,
0x2c7d2054564c3a3a657079745f65756c61765f706f72703a3a6b616572625f72657473756c635f656d656870617267202c3738313634202c3136313634207b,
0x2c7d20564c3a3a657079745f65756c61765f706f72703a3a6b616572625f72657473756c635f656d656870617267202c3838313634202c3838313634207b,
0x2c7d2054564c3a3a657079745f65756c61765f706f72703a3a6b616572625f72657473756c635f656d656870617267202c3531323634202c3938313634207b,
0x2c7d20564c3a3a657079745f65756c61765f706f72703a3a6b616572625f72657473756c635f656d656870617267202c3631323634202c3631323634207b,
0x2c7d2054564c3a3a657079745f65756c61765f706f72703a3a6b616572625f72657473756c635f656d656870617267202c3334323634202c3731323634207b,
0x2c7d20564c3a3a657079745f65756c61765f706f72703a3a6b616572625f72657473756c635f656d656870617267202c3434323634202c3434323634207b,
0x2c7d2054564c3a3a657079745f65756c61765f706f72703a3a6b616572625f72657473756c635f656d656870617267202c3137323634202c3534323634207b,
0x2c7d20564c3a3a657079745f65756c61765f706f72703a3a6b616572625f72657473756c635f656d656870617267202c3237323634202c3237323634207b,
0x2c7d2054564c3a3a657079745f65756c61765f706f72703a3a6b616572625f72657473756c635f656d656870617267202c3939323634202c3337323634207b,
0x2c7d20564c3a3a657079745f65756c61765f706f72703a3a6b616572625f72657473756c635f656d656870617267202c3030333634202c3030333634207b,
0x2c7d2054564c3a3a657079745f65756c61765f706f72703a3a6b616572625f72657473756c635f656d656870617267202c3732333634202c3130333634207b,
0x2c7d20564c3a3a657079745f65756c61765f706f72703a3a6b616572625f72657473756c635f656d656870617267202c3832333634202c3832333634207b,
0x2c7d2054564c3a3a657079745f65756c61765f706f72703a3a6b616572625f72657473756c635f656d656870617267202c3535333634202c3932333634207b,
0x2c7d20564c3a3a657079745f65756c61765f706f72703a3a6b616572625f72657473756c635f656d656870617267202c3635333634202c3635333634207b,
0x2c7d2054564c3a3a657079745f65756c61765f706f72703a3a6b616572625f72657473756c635f656d656870617267202c3338333634202c3735333634207b,
0x2c7d20564c3a3a657079745f65756c61765f706f72703a3a6b616572625f72657473756c635f656d656870617267202c3438333634202c3438333634207b]

/-- src/u5e/props/grapheme_cluster_break_data.hpp lines 513-768. -/
def rawGcbHdr2 : List Nat := [
0x2c7d2054564c3a3a657079745f65756c61765f706f72703a3a6b616572625f72657473756c635f656d656870617267202c3131343634202c3538333634207b,
0x2c7d20564c3a3a657079745f65756c61765f706f72703a3a6b616572625f72657473756c635f656d656870617267202c3231343634202c3231343634207b,
0x2c7d2054564c3a3a657079745f65756c61765f706f72703a3a6b616572625f72657473756c635f656d656870617267202c3933343634202c3331343634207b,
0x2c7d20564c3a3a657079745f65756c61765f706f72703a3a6b616572625f72657473756c635f656d656870617267202c3034343634202c3034343634207b,
0x2c7d2054564c3a3a657079745f65756c61765f706f72703a3a6b616572625f72657473756c635f656d656870617267202c3736343634202c3134343634207b,
0x2c7d20564c3a3a657079745f65756c61765f706f72703a3a6b616572625f72657473756c635f656d656870617267202c3836343634202c3836343634207b,
0x2c7d2054564c3a3a657079745f65756c61765f706f72703a3a6b616572625f72657473756c635f656d656870617267202c3539343634202c3936343634207b,
0x2c7d20564c3a3a657079745f65756c61765f706f72703a3a6b616572625f72657473756c635f656d656870617267202c3639343634202c3639343634207b,
0x2c7d2054564c3a3a657079745f65756c61765f706f72703a3a6b616572625f72657473756c635f656d656870617267202c3332353634202c3739343634207b,
0x2c7d20564c3a3a657079745f65756c61765f706f72703a3a6b616572625f72657473756c635f656d656870617267202c3432353634202c3432353634207b,
0x2c7d2054564c3a3a657079745f65756c61765f706f72703a3a6b616572625f72657473756c635f656d656870617267202c3135353634202c3532353634207b,
0x2c7d20564c3a3a657079745f65756c61765f706f72703a3a6b616572625f72657473756c635f656d656870617267202c3235353634202c3235353634207b,
0x2c7d2054564c3a3a657079745f65756c61765f706f72703a3a6b616572625f72657473756c635f656d656870617267202c3937353634202c3335353634207b,
0x2c7d20564c3a3a657079745f65756c61765f706f72703a3a6b616572625f72657473756c635f656d656870617267202c3038353634202c3038353634207b,
0x2c7d2054564c3a3a657079745f65756c61765f706f72703a3a6b616572625f72657473756c635f656d656870617267202c3730363634202c3138353634207b,
0x2c7d20564c3a3a657079745f65756c61765f706f72703a3a6b616572625f72657473756c635f656d656870617267202c3830363634202c3830363634207b,
0x2c7d2054564c3a3a657079745f65756c61765f706f72703a3a6b616572625f72657473756c635f656d656870617267202c3533363634202c3930363634207b,
0x2c7d20564c3a3a657079745f65756c61765f706f72703a3a6b616572625f72657473756c635f656d656870617267202c3633363634202c3633363634207b,
0x2c7d2054564c3a3a657079745f65756c61765f706f72703a3a6b616572625f72657473756c635f656d656870617267202c3336363634202c3733363634207b,
0x2c7d20564c3a3a657079745f65756c61765f706f72703a3a6b616572625f72657473756c635f656d656870617267202c3436363634202c3436363634207b,
0x2c7d2054564c3a3a657079745f65756c61765f706f72703a3a6b616572625f72657473756c635f656d656870617267202c3139363634202c3536363634207b,
0x2c7d20564c3a3a657079745f65756c61765f706f72703a3a6b616572625f72657473756c635f656d656870617267202c3239363634202c3239363634207b,
0x2c7d2054564c3a3a657079745f65756c61765f706f72703a3a6b616572625f72657473756c635f656d656870617267202c3931373634202c3339363634207b,
0x2c7d20564c3a3a657079745f65756c61765f706f72703a3a6b616572625f72657473756c635f656d656870617267202c3032373634202c3032373634207b,
0x2c7d2054564c3a3a657079745f65756c61765f706f72703a3a6b616572625f72657473756c635f656d656870617267202c3734373634202c3132373634207b,
0x2c7d20564c3a3a657079745f65756c61765f706f72703a3a6b616572625f72657473756c635f656d656870617267202c3834373634202c3834373634207b,
0x2c7d2054564c3a3a657079745f65756c61765f706f72703a3a6b616572625f72657473756c635f656d656870617267202c3537373634202c3934373634207b,
0x2c7d20564c3a3a657079745f65756c61765f706f72703a3a6b616572625f72657473756c635f656d656870617267202c3637373634202c3637373634207b,
0x2c7d2054564c3a3a657079745f65756c61765f706f72703a3a6b616572625f72657473756c635f656d656870617267202c3330383634202c3737373634207b,
0x2c7d20564c3a3a657079745f65756c61765f706f72703a3a6b616572625f72657473756c635f656d656870617267202c3430383634202c3430383634207b,
0x2c7d2054564c3a3a657079745f65756c61765f706f72703a3a6b616572625f72657473756c635f656d656870617267202c3133383634202c3530383634207b,
0x2c7d20564c3a3a657079745f65756c61765f706f72703a3a6b616572625f72657473756c635f656d656870617267202c3233383634202c3233383634207b,
0x2c7d2054564c3a3a657079745f65756c61765f706f72703a3a6b616572625f72657473756c635f656d656870617267202c3935383634202c3333383634207b,
0x2c7d20564c3a3a657079745f65756c61765f706f72703a3a6b616572625f72657473756c635f656d656870617267202c3036383634202c3036383634207b,
0x2c7d2054564c3a3a657079745f65756c61765f706f72703a3a6b616572625f72657473756c635f656d656870617267202c3738383634202c3136383634207b,
0x2c7d20564c3a3a657079745f65756c61765f706f72703a3a6b616572625f72657473756c635f656d656870617267202c3838383634202c3838383634207b,
0x2c7d2054564c3a3a657079745f65756c61765f706f72703a3a6b616572625f72657473756c635f656d656870617267202c3531393634202c3938383634207b,
0x2c7d20564c3a3a657079745f65756c61765f706f72703a3a6b616572625f72657473756c635f656d656870617267202c3631393634202c3631393634207b,
0x2c7d2054564c3a3a657079745f65756c61765f706f72703a3a6b616572625f72657473756c635f656d656870617267202c3334393634202c3731393634207b,
0x2c7d20564c3a3a657079745f65756c61765f706f72703a3a6b616572625f72657473756c635f656d656870617267202c3434393634202c3434393634207b,
0x2c7d2054564c3a3a657079745f65756c61765f706f72703a3a6b616572625f72657473756c635f656d656870617267202c3137393634202c3534393634207b,
0x2c7d20564c3a3a657079745f65756c61765f706f72703a3a6b616572625f72657473756c635f656d656870617267202c3237393634202c3237393634207b,
0x2c7d2054564c3a3a657079745f65756c61765f706f72703a3a6b616572625f72657473756c635f656d656870617267202c3939393634202c3337393634207b,
0x2c7d20564c3a3a657079745f65756c61765f706f72703a3a6b616572625f72657473756c635f656d656870617267202c3030303734202c3030303734207b,
0x2c7d2054564c3a3a657079745f65756c61765f706f72703a3a6b616572625f72657473756c635f656d656870617267202c3732303734202c3130303734207b,
0x2c7d20564c3a3a657079745f65756c61765f706f72703a3a6b616572625f72657473756c635f656d656870617267202c3832303734202c3832303734207b,
0x2c7d2054564c3a3a657079745f65756c61765f706f72703a3a6b616572625f72657473756c635f656d656870617267202c3535303734202c3932303734207b,
0x2c7d20564c3a3a657079745f65756c61765f706f72703a3a6b616572625f72657473756c635f656d656870617267202c3635303734202c3635303734207b,
0x2c7d2054564c3a3a657079745f65756c61765f706f72703a3a6b616572625f72657473756c635f656d656870617267202c3338303734202c3735303734207b,
0x2c7d20564c3a3a657079745f65756c61765f706f72703a3a6b616572625f72657473756c635f656d656870617267202c3438303734202c3438303734207b,
0x2c7d2054564c3a3a657079745f65756c61765f706f72703a3a6b616572625f72657473756c635f656d656870617267202c3131313734202c3538303734207b,
0x2c7d20564c3a3a657079745f65756c61765f706f72703a3a6b616572625f72657473756c635f656d656870617267202c3231313734202c3231313734207b,
0x2c7d2054564c3a3a657079745f65756c61765f706f72703a3a6b616572625f72657473756c635f656d656870617267202c3933313734202c3331313734207b,
0x2c7d20564c3a3a657079745f65756c61765f706f72703a3a6b616572625f72657473756c635f656d656870617267202c3034313734202c3034313734207b,
0x2c7d2054564c3a3a657079745f65756c61765f706f72703a3a6b616572625f72657473756c635f656d656870617267202c3736313734202c3134313734207b,
0x2c7d20564c3a3a657079745f65756c61765f706f72703a3a6b616572625f72657473756c635f656d656870617267202c3836313734202c3836313734207b,
0x2c7d2054564c3a3a657079745f65756c61765f706f72703a3a6b616572625f72657473756c635f656d656870617267202c3539313734202c3936313734207b,
0x2c7d20564c3a3a657079745f65756c61765f706f72703a3a6b616572625f72657473756c635f656d656870617267202c3639313734202c3639313734207b,
0x2c7d2054564c3a3a657079745f65756c61765f706f72703a3a6b616572625f72657473756c635f656d656870617267202c3332323734202c3739313734207b,
0x2c7d20564c3a3a657079745f65756c61765f706f72703a3a6b616572625f72657473756c635f656d656870617267202c3432323734202c3432323734207b,
0x2c7d2054564c3a3a657079745f65756c61765f706f72703a3a6b616572625f72657473756c635f656d656870617267202c3135323734202c3532323734207b,
0x2c7d20564c3a3a657079745f65756c61765f706f72703a3a6b616572625f72657473756c635f656d656870617267202c3235323734202c3235323734207b,
0x2c7d2054564c3a3a657079745f65756c61765f706f72703a3a6b616572625f72657473756c635f656d656870617267202c3937323734202c3335323734207b,
0x2c7d20564c3a3a657079745f65756c61765f706f72703a3a6b616572625f72657473756c635f656d656870617267202c3038323734202c3038323734207b,
0x2c7d2054564c3a3a657079745f65756c61765f706f72703a3a6b616572625f72657473756c635f656d656870617267202c3730333734202c3138323734207b,
0x2c7d20564c3a3a657079745f65756c61765f706f72703a3a6b616572625f72657473756c635f656d656870617267202c3830333734202c3830333734207b,
0x2c7d2054564c3a3a657079745f65756c61765f706f72703a3a6b616572625f72657473756c635f656d656870617267202c3533333734202c3930333734207b,
0x2c7d20564c3a3a657079745f65756c61765f706f72703a3a6b616572625f72657473756c635f656d656870617267202c3633333734202c3633333734207b,
0x2c7d2054564c3a3a657079745f65756c61765f706f72703a3a6b616572625f72657473756c635f656d656870617267202c3336333734202c3733333734207b,
0x2c7d20564c3a3a657079745f65756c61765f706f72703a3a6b616572625f72657473756c635f656d656870617267202c3436333734202c3436333734207b,
0x2c7d2054564c3a3a657079745f65756c61765f706f72703a3a6b616572625f72657473756c635f656d656870617267202c3139333734202c3536333734207b,
0x2c7d20564c3a3a657079745f65756c61765f706f72703a3a6b616572625f72657473756c635f656d656870617267202c3239333734202c3239333734207b,
0x2c7d2054564c3a3a657079745f65756c61765f706f72703a3a6b616572625f72657473756c635f656d656870617267202c3931343734202c3339333734207b,
0x2c7d20564c3a3a657079745f65756c61765f706f72703a3a6b616572625f72657473756c635f656d656870617267202c3032343734202c3032343734207b,
0x2c7d2054564c3a3a657079745f65756c61765f706f72703a3a6b616572625f72657473756c635f656d656870617267202c3734343734202c3132343734207b,
0x2c7d20564c3a3a657079745f65756c61765f706f72703a3a6b616572625f72657473756c635f656d656870617267202c3834343734202c3834343734207b,
0x2c7d2054564c3a3a657079745f65756c61765f706f72703a3a6b616572625f72657473756c635f656d656870617267202c3537343734202c3934343734207b,
0x2c7d20564c3a3a657079745f65756c61765f706f72703a3a6b616572625f72657473756c635f656d656870617267202c3637343734202c3637343734207b,
0x2c7d2054564c3a3a657079745f65756c61765f706f72703a3a6b616572625f72657473756c635f656d656870617267202c3330353734202c3737343734207b,
0x2c7d20564c3a3a657079745f65756c61765f706f72703a3a6b616572625f72657473756c635f656d656870617267202c3430353734202c3430353734207b,
0x2c7d2054564c3a3a657079745f65756c61765f706f72703a3a6b616572625f72657473756c635f656d656870617267202c3133353734202c3530353734207b,
0x2c7d20564c3a3a657079745f65756c61765f706f72703a3a6b616572625f72657473756c635f656d656870617267202c3233353734202c3233353734207b,
0x2c7d2054564c3a3a657079745f65756c61765f706f72703a3a6b616572625f72657473756c635f656d656870617267202c3935353734202c3333353734207b,
0x2c7d20564c3a3a657079745f65756c61765f706f72703a3a6b616572625f72657473756c635f656d656870617267202c3036353734202c3036353734207b,
0x2c7d2054564c3a3a657079745f65756c61765f706f72703a3a6b616572625f72657473756c635f656d656870617267202c3738353734202c3136353734207b,
0x2c7d20564c3a3a657079745f65756c61765f706f72703a3a6b616572625f72657473756c635f656d656870617267202c3838353734202c3838353734207b,
0x2c7d2054564c3a3a657079745f65756c61765f706f72703a3a6b616572625f72657473756c635f656d656870617267202c3531363734202c3938353734207b,
0x2c7d20564c3a3a657079745f65756c61765f706f72703a3a6b616572625f72657473756c635f656d656870617267202c3631363734202c3631363734207b,
0x2c7d2054564c3a3a657079745f65756c61765f706f72703a3a6b616572625f72657473756c635f656d656870617267202c3334363734202c3731363734207b,
0x2c7d20564c3a3a657079745f65756c61765f706f72703a3a6b616572625f72657473756c635f656d656870617267202c3434363734202c3434363734207b,
0x2c7d2054564c3a3a657079745f65756c61765f706f72703a3a6b616572625f72657473756c635f656d656870617267202c3137363734202c3534363734207b,
0x2c7d20564c3a3a657079745f65756c61765f706f72703a3a6b616572625f72657473756c635f656d656870617267202c3237363734202c3237363734207b,
0x2c7d2054564c3a3a657079745f65756c61765f706f72703a3a6b616572625f72657473756c635f656d656870617267202c3939363734202c3337363734207b,
0x2c7d20564c3a3a657079745f65756c61765f706f72703a3a6b616572625f72657473756c635f656d656870617267202c3030373734202c3030373734207b,
0x2c7d2054564c3a3a657079745f65756c61765f706f72703a3a6b616572625f72657473756c635f656d656870617267202c3732373734202c3130373734207b,
0x2c7d20564c3a3a657079745f65756c61765f706f72703a3a6b616572625f72657473756c635f656d656870617267202c3832373734202c3832373734207b,
0x2c7d2054564c3a3a657079745f65756c61765f706f72703a3a6b616572625f72657473756c635f656d656870617267202c3535373734202c3932373734207b,
0x2c7d20564c3a3a657079745f65756c61765f706f72703a3a6b616572625f72657473756c635f656d656870617267202c3635373734202c3635373734207b,
0x2c7d2054564c3a3a657079745f65756c61765f706f72703a3a6b616572625f72657473756c635f656d656870617267202c3338373734202c3735373734207b,
0x2c7d20564c3a3a657079745f65756c61765f706f72703a3a6b616572625f72657473756c635f656d656870617267202c3438373734202c3438373734207b,
0x2c7d2054564c3a3a657079745f65756c61765f706f72703a3a6b616572625f72657473756c635f656d656870617267202c3131383734202c3538373734207b,
0x2c7d20564c3a3a657079745f65756c61765f706f72703a3a6b616572625f72657473756c635f656d656870617267202c3231383734202c3231383734207b,
0x2c7d2054564c3a3a657079745f65756c61765f706f72703a3a6b616572625f72657473756c635f656d656870617267202c3933383734202c3331383734207b,
0x2c7d20564c3a3a657079745f65756c61765f706f72703a3a6b616572625f72657473756c635f656d656870617267202c3034383734202c3034383734207b,
0x2c7d2054564c3a3a657079745f65756c61765f706f72703a3a6b616572625f72657473756c635f656d656870617267202c3736383734202c3134383734207b,
0x2c7d20564c3a3a657079745f65756c61765f706f72703a3a6b616572625f72657473756c635f656d656870617267202c3836383734202c3836383734207b,
0x2c7d2054564c3a3a657079745f65756c61765f706f72703a3a6b616572625f72657473756c635f656d656870617267202c3539383734202c3936383734207b,
0x2c7d20564c3a3a657079745f65756c61765f706f72703a3a6b616572625f72657473756c635f656d656870617267202c3639383734202c3639383734207b,
0x2c7d2054564c3a3a657079745f65756c61765f706f72703a3a6b616572625f72657473756c635f656d656870617267202c3332393734202c3739383734207b,
0x2c7d20564c3a3a657079745f65756c61765f706f72703a3a6b616572625f72657473756c635f656d656870617267202c3432393734202c3432393734207b,
0x2c7d2054564c3a3a657079745f65756c61765f706f72703a3a6b616572625f72657473756c635f656d656870617267202c3135393734202c3532393734207b,
0x2c7d20564c3a3a657079745f65756c61765f706f72703a3a6b616572625f72657473756c635f656d656870617267202c3235393734202c3235393734207b,
0x2c7d2054564c3a3a657079745f65756c61765f706f72703a3a6b616572625f72657473756c635f656d656870617267202c3937393734202c3335393734207b,
0x2c7d20564c3a3a657079745f65756c61765f706f72703a3a6b616572625f72657473756c635f656d656870617267202c3038393734202c3038393734207b,
0x2c7d2054564c3a3a657079745f65756c61765f706f72703a3a6b616572625f72657473756c635f656d656870617267202c3730303834202c3138393734207b,
0x2c7d20564c3a3a657079745f65756c61765f706f72703a3a6b616572625f72657473756c635f656d656870617267202c3830303834202c3830303834207b,
0x2c7d2054564c3a3a657079745f65756c61765f706f72703a3a6b616572625f72657473756c635f656d656870617267202c3533303834202c3930303834207b,
0x2c7d20564c3a3a657079745f65756c61765f706f72703a3a6b616572625f72657473756c635f656d656870617267202c3633303834202c3633303834207b,
0x2c7d2054564c3a3a657079745f65756c61765f706f72703a3a6b616572625f72657473756c635f656d656870617267202c3336303834202c3733303834207b,
0x2c7d20564c3a3a657079745f65756c61765f706f72703a3a6b616572625f72657473756c635f656d656870617267202c3436303834202c3436303834207b,
0x2c7d2054564c3a3a657079745f65756c61765f706f72703a3a6b616572625f72657473756c635f656d656870617267202c3139303834202c3536303834207b,
0x2c7d20564c3a3a657079745f65756c61765f706f72703a3a6b616572625f72657473756c635f656d656870617267202c3239303834202c3239303834207b,
0x2c7d2054564c3a3a657079745f65756c61765f706f72703a3a6b616572625f72657473756c635f656d656870617267202c3931313834202c3339303834207b,
0x2c7d20564c3a3a657079745f65756c61765f706f72703a3a6b616572625f72657473756c635f656d656870617267202c3032313834202c3032313834207b,
0x2c7d2054564c3a3a657079745f65756c61765f706f72703a3a6b616572625f72657473756c635f656d656870617267202c3734313834202c3132313834207b,
0x2c7d20564c3a3a657079745f65756c61765f706f72703a3a6b616572625f72657473756c635f656d656870617267202c3834313834202c3834313834207b,
0x2c7d2054564c3a3a657079745f65756c61765f706f72703a3a6b616572625f72657473756c635f656d656870617267202c3537313834202c3934313834207b,
0x2c7d20564c3a3a657079745f65756c61765f706f72703a3a6b616572625f72657473756c635f656d656870617267202c3637313834202c3637313834207b,
0x2c7d2054564c3a3a657079745f65756c61765f706f72703a3a6b616572625f72657473756c635f656d656870617267202c3330323834202c3737313834207b,
0x2c7d20564c3a3a657079745f65756c61765f706f72703a3a6b616572625f72657473756c635f656d656870617267202c3430323834202c3430323834207b,
0x2c7d2054564c3a3a657079745f65756c61765f706f72703a3a6b616572625f72657473756c635f656d656870617267202c3133323834202c3530323834207b,
0x2c7d20564c3a3a657079745f65756c61765f706f72703a3a6b616572625f72657473756c635f656d656870617267202c3233323834202c3233323834207b,
0x2c7d2054564c3a3a657079745f65756c61765f706f72703a3a6b616572625f72657473756c635f656d656870617267202c3935323834202c3333323834207b,
0x2c7d20564c3a3a657079745f65756c61765f706f72703a3a6b616572625f72657473756c635f656d656870617267202c3036323834202c3036323834207b,
0x2c7d2054564c3a3a657079745f65756c61765f706f72703a3a6b616572625f72657473756c635f656d656870617267202c3738323834202c3136323834207b,
0x2c7d20564c3a3a657079745f65756c61765f706f72703a3a6b616572625f72657473756c635f656d656870617267202c3838323834202c3838323834207b,
0x2c7d2054564c3a3a657079745f65756c61765f706f72703a3a6b616572625f72657473756c635f656d656870617267202c3531333834202c3938323834207b,
0x2c7d20564c3a3a657079745f65756c61765f706f72703a3a6b616572625f72657473756c635f656d656870617267202c3631333834202c3631333834207b,
0x2c7d2054564c3a3a657079745f65756c61765f706f72703a3a6b616572625f72657473756c635f656d656870617267202c3334333834202c3731333834207b,
0x2c7d20564c3a3a657079745f65756c61765f706f72703a3a6b616572625f72657473756c635f656d656870617267202c3434333834202c3434333834207b,
0x2c7d2054564c3a3a657079745f65756c61765f706f72703a3a6b616572625f72657473756c635f656d656870617267202c3137333834202c3534333834207b,
0x2c7d20564c3a3a657079745f65756c61765f706f72703a3a6b616572625f72657473756c635f656d656870617267202c3237333834202c3237333834207b,
0x2c7d2054564c3a3a657079745f65756c61765f706f72703a3a6b616572625f72657473756c635f656d656870617267202c3939333834202c3337333834207b,
0x2c7d20564c3a3a657079745f65756c61765f706f72703a3a6b616572625f72657473756c635f656d656870617267202c3030343834202c3030343834207b,
0x2c7d2054564c3a3a657079745f65756c61765f706f72703a3a6b616572625f72657473756c635f656d656870617267202c3732343834202c3130343834207b,
0x2c7d20564c3a3a657079745f65756c61765f706f72703a3a6b616572625f72657473756c635f656d656870617267202c3832343834202c3832343834207b,
0x2c7d2054564c3a3a657079745f65756c61765f706f72703a3a6b616572625f72657473756c635f656d656870617267202c3535343834202c3932343834207b,
0x2c7d20564c3a3a657079745f65756c61765f706f72703a3a6b616572625f72657473756c635f656d656870617267202c3635343834202c3635343834207b,
0x2c7d2054564c3a3a657079745f65756c61765f706f72703a3a6b616572625f72657473756c635f656d656870617267202c3338343834202c3735343834207b,
0x2c7d20564c3a3a657079745f65756c61765f706f72703a3a6b616572625f72657473756c635f656d656870617267202c3438343834202c3438343834207b,
0x2c7d2054564c3a3a657079745f65756c61765f706f72703a3a6b616572625f72657473756c635f656d656870617267202c3131353834202c3538343834207b,
0x2c7d20564c3a3a657079745f65756c61765f706f72703a3a6b616572625f72657473756c635f656d656870617267202c3231353834202c3231353834207b,
0x2c7d2054564c3a3a657079745f65756c61765f706f72703a3a6b616572625f72657473756c635f656d656870617267202c3933353834202c3331353834207b,
0x2c7d20564c3a3a657079745f65756c61765f706f72703a3a6b616572625f72657473756c635f656d656870617267202c3034353834202c3034353834207b,
0x2c7d2054564c3a3a657079745f65756c61765f706f72703a3a6b616572625f72657473756c635f656d656870617267202c3736353834202c3134353834207b,
0x2c7d20564c3a3a657079745f65756c61765f706f72703a3a6b616572625f72657473756c635f656d656870617267202c3836353834202c3836353834207b,
0x2c7d2054564c3a3a657079745f65756c61765f706f72703a3a6b616572625f72657473756c635f656d656870617267202c3539353834202c3936353834207b,
0x2c7d20564c3a3a657079745f65756c61765f706f72703a3a6b616572625f72657473756c635f656d656870617267202c3639353834202c3639353834207b,
0x2c7d2054564c3a3a657079745f65756c61765f706f72703a3a6b616572625f72657473756c635f656d656870617267202c3332363834202c3739353834207b,
0x2c7d20564c3a3a657079745f65756c61765f706f72703a3a6b616572625f72657473756c635f656d656870617267202c3432363834202c3432363834207b,
0x2c7d2054564c3a3a657079745f65756c61765f706f72703a3a6b616572625f72657473756c635f656d656870617267202c3135363834202c3532363834207b,
0x2c7d20564c3a3a657079745f65756c61765f706f72703a3a6b616572625f72657473756c635f656d656870617267202c3235363834202c3235363834207b,
0x2c7d2054564c3a3a657079745f65756c61765f706f72703a3a6b616572625f72657473756c635f656d656870617267202c3937363834202c3335363834207b,
0x2c7d20564c3a3a657079745f65756c61765f706f72703a3a6b616572625f72657473756c635f656d656870617267202c3038363834202c3038363834207b,
0x2c7d2054564c3a3a657079745f65756c61765f706f72703a3a6b616572625f72657473756c635f656d656870617267202c3730373834202c3138363834207b,
0x2c7d20564c3a3a657079745f65756c61765f706f72703a3a6b616572625f72657473756c635f656d656870617267202c3830373834202c3830373834207b,
0x2c7d2054564c3a3a657079745f65756c61765f706f72703a3a6b616572625f72657473756c635f656d656870617267202c3533373834202c3930373834207b,
0x2c7d20564c3a3a657079745f65756c61765f706f72703a3a6b616572625f72657473756c635f656d656870617267202c3633373834202c3633373834207b,
0x2c7d2054564c3a3a657079745f65756c61765f706f72703a3a6b616572625f72657473756c635f656d656870617267202c3336373834202c3733373834207b,
0x2c7d20564c3a3a657079745f65756c61765f706f72703a3a6b616572625f72657473756c635f656d656870617267202c3436373834202c3436373834207b,
0x2c7d2054564c3a3a657079745f65756c61765f706f72703a3a6b616572625f72657473756c635f656d656870617267202c3139373834202c3536373834207b,
0x2c7d20564c3a3a657079745f65756c61765f706f72703a3a6b616572625f72657473756c635f656d656870617267202c3239373834202c3239373834207b,
0x2c7d2054564c3a3a657079745f65756c61765f706f72703a3a6b616572625f72657473756c635f656d656870617267202c3931383834202c3339373834207b,
0x2c7d20564c3a3a657079745f65756c61765f706f72703a3a6b616572625f72657473756c635f656d656870617267202c3032383834202c3032383834207b,
0x2c7d2054564c3a3a657079745f65756c61765f706f72703a3a6b616572625f72657473756c635f656d656870617267202c3734383834202c3132383834207b,
0x2c7d20564c3a3a657079745f65756c61765f706f72703a3a6b616572625f72657473756c635f656d656870617267202c3834383834202c3834383834207b,
0x2c7d2054564c3a3a657079745f65756c61765f706f72703a3a6b616572625f72657473756c635f656d656870617267202c3537383834202c3934383834207b,
0x2c7d20564c3a3a657079745f65756c61765f706f72703a3a6b616572625f72657473756c635f656d656870617267202c3637383834202c3637383834207b,
0x2c7d2054564c3a3a657079745f65756c61765f706f72703a3a6b616572625f72657473756c635f656d656870617267202c3330393834202c3737383834207b,
0x2c7d20564c3a3a657079745f65756c61765f706f72703a3a6b616572625f72657473756c635f656d656870617267202c3430393834202c3430393834207b,
0x2c7d2054564c3a3a657079745f65756c61765f706f72703a3a6b616572625f72657473756c635f656d656870617267202c3133393834202c3530393834207b,
0x2c7d20564c3a3a657079745f65756c61765f706f72703a3a6b616572625f72657473756c635f656d656870617267202c3233393834202c3233393834207b,
0x2c7d2054564c3a3a657079745f65756c61765f706f72703a3a6b616572625f72657473756c635f656d656870617267202c3935393834202c3333393834207b,
0x2c7d20564c3a3a657079745f65756c61765f706f72703a3a6b616572625f72657473756c635f656d656870617267202c3036393834202c3036393834207b,
0x2c7d2054564c3a3a657079745f65756c61765f706f72703a3a6b616572625f72657473756c635f656d656870617267202c3738393834202c3136393834207b,
0x2c7d20564c3a3a657079745f65756c61765f706f72703a3a6b616572625f72657473756c635f656d656870617267202c3838393834202c3838393834207b,
0x2c7d2054564c3a3a657079745f65756c61765f706f72703a3a6b616572625f72657473756c635f656d656870617267202c3531303934202c3938393834207b,
0x2c7d20564c3a3a657079745f65756c61765f706f72703a3a6b616572625f72657473756c635f656d656870617267202c3631303934202c3631303934207b,
0x2c7d2054564c3a3a657079745f65756c61765f706f72703a3a6b616572625f72657473756c635f656d656870617267202c3334303934202c3731303934207b,
0x2c7d20564c3a3a657079745f65756c61765f706f72703a3a6b616572625f72657473756c635f656d656870617267202c3434303934202c3434303934207b,
0x2c7d2054564c3a3a657079745f65756c61765f706f72703a3a6b616572625f72657473756c635f656d656870617267202c3137303934202c3534303934207b,
0x2c7d20564c3a3a657079745f65756c61765f706f72703a3a6b616572625f72657473756c635f656d656870617267202c3237303934202c3237303934207b,
0x2c7d2054564c3a3a657079745f65756c61765f706f72703a3a6b616572625f72657473756c635f656d656870617267202c3939303934202c3337303934207b,
0x2c7d20564c3a3a657079745f65756c61765f706f72703a3a6b616572625f72657473756c635f656d656870617267202c3030313934202c3030313934207b,
0x2c7d2054564c3a3a657079745f65756c61765f706f72703a3a6b616572625f72657473756c635f656d656870617267202c3732313934202c3130313934207b,
0x2c7d20564c3a3a657079745f65756c61765f706f72703a3a6b616572625f72657473756c635f656d656870617267202c3832313934202c3832313934207b,
0x2c7d2054564c3a3a657079745f65756c61765f706f72703a3a6b616572625f72657473756c635f656d656870617267202c3535313934202c3932313934207b,
0x2c7d20564c3a3a657079745f65756c61765f706f72703a3a6b616572625f72657473756c635f656d656870617267202c3635313934202c3635313934207b,
0x2c7d2054564c3a3a657079745f65756c61765f706f72703a3a6b616572625f72657473756c635f656d656870617267202c3338313934202c3735313934207b,
0x2c7d20564c3a3a657079745f65756c61765f706f72703a3a6b616572625f72657473756c635f656d656870617267202c3438313934202c3438313934207b,
0x2c7d2054564c3a3a657079745f65756c61765f706f72703a3a6b616572625f72657473756c635f656d656870617267202c3131323934202c3538313934207b,
0x2c7d20564c3a3a657079745f65756c61765f706f72703a3a6b616572625f72657473756c635f656d656870617267202c3231323934202c3231323934207b,
0x2c7d2054564c3a3a657079745f65756c61765f706f72703a3a6b616572625f72657473756c635f656d656870617267202c3933323934202c3331323934207b,
0x2c7d20564c3a3a657079745f65756c61765f706f72703a3a6b616572625f72657473756c635f656d656870617267202c3034323934202c3034323934207b,
0x2c7d2054564c3a3a657079745f65756c61765f706f72703a3a6b616572625f72657473756c635f656d656870617267202c3736323934202c3134323934207b,
0x2c7d20564c3a3a657079745f65756c61765f706f72703a3a6b616572625f72657473756c635f656d656870617267202c3836323934202c3836323934207b,
0x2c7d2054564c3a3a657079745f65756c61765f706f72703a3a6b616572625f72657473756c635f656d656870617267202c3539323934202c3936323934207b,
0x2c7d20564c3a3a657079745f65756c61765f706f72703a3a6b616572625f72657473756c635f656d656870617267202c3639323934202c3639323934207b,
0x2c7d2054564c3a3a657079745f65756c61765f706f72703a3a6b616572625f72657473756c635f656d656870617267202c3332333934202c3739323934207b,
0x2c7d20564c3a3a657079745f65756c61765f706f72703a3a6b616572625f72657473756c635f656d656870617267202c3432333934202c3432333934207b,
0x2c7d2054564c3a3a657079745f65756c61765f706f72703a3a6b616572625f72657473756c635f656d656870617267202c3135333934202c3532333934207b,
0x2c7d20564c3a3a657079745f65756c61765f706f72703a3a6b616572625f72657473756c635f656d656870617267202c3235333934202c3235333934207b,
0x2c7d2054564c3a3a657079745f65756c61765f706f72703a3a6b616572625f72657473756c635f656d656870617267202c3937333934202c3335333934207b,
0x2c7d20564c3a3a657079745f65756c61765f706f72703a3a6b616572625f72657473756c635f656d656870617267202c3038333934202c3038333934207b,
0x2c7d2054564c3a3a657079745f65756c61765f706f72703a3a6b616572625f72657473756c635f656d656870617267202c3730343934202c3138333934207b,
0x2c7d20564c3a3a657079745f65756c61765f706f72703a3a6b616572625f72657473756c635f656d656870617267202c3830343934202c3830343934207b,
0x2c7d2054564c3a3a657079745f65756c61765f706f72703a3a6b616572625f72657473756c635f656d656870617267202c3533343934202c3930343934207b,
0x2c7d20564c3a3a657079745f65756c61765f706f72703a3a6b616572625f72657473756c635f656d656870617267202c3633343934202c3633343934207b,
0x2c7d2054564c3a3a657079745f65756c61765f706f72703a3a6b616572625f72657473756c635f656d656870617267202c3336343934202c3733343934207b,
0x2c7d20564c3a3a657079745f65756c61765f706f72703a3a6b616572625f72657473756c635f656d656870617267202c3436343934202c3436343934207b,
0x2c7d2054564c3a3a657079745f65756c61765f706f72703a3a6b616572625f72657473756c635f656d656870617267202c3139343934202c3536343934207b,
0x2c7d20564c3a3a657079745f65756c61765f706f72703a3a6b616572625f72657473756c635f656d656870617267202c3239343934202c3239343934207b,
0x2c7d2054564c3a3a657079745f65756c61765f706f72703a3a6b616572625f72657473756c635f656d656870617267202c3931353934202c3339343934207b,
0x2c7d20564c3a3a657079745f65756c61765f706f72703a3a6b616572625f72657473756c635f656d656870617267202c3032353934202c3032353934207b,
0x2c7d2054564c3a3a657079745f65756c61765f706f72703a3a6b616572625f72657473756c635f656d656870617267202c3734353934202c3132353934207b,
0x2c7d20564c3a3a657079745f65756c61765f706f72703a3a6b616572625f72657473756c635f656d656870617267202c3834353934202c3834353934207b,
0x2c7d2054564c3a3a657079745f65756c61765f706f72703a3a6b616572625f72657473756c635f656d656870617267202c3537353934202c3934353934207b,
0x2c7d20564c3a3a657079745f65756c61765f706f72703a3a6b616572625f72657473756c635f656d656870617267202c3637353934202c3637353934207b,
0x2c7d2054564c3a3a657079745f65756c61765f706f72703a3a6b616572625f72657473756c635f656d656870617267202c3330363934202c3737353934207b,
0x2c7d20564c3a3a657079745f65756c61765f706f72703a3a6b616572625f72657473756c635f656d656870617267202c3430363934202c3430363934207b,
0x2c7d2054564c3a3a657079745f65756c61765f706f72703a3a6b616572625f72657473756c635f656d656870617267202c3133363934202c3530363934207b,
0x2c7d20564c3a3a657079745f65756c61765f706f72703a3a6b616572625f72657473756c635f656d656870617267202c3233363934202c3233363934207b,
0x2c7d2054564c3a3a657079745f65756c61765f706f72703a3a6b616572625f72657473756c635f656d656870617267202c3935363934202c3333363934207b,
0x2c7d20564c3a3a657079745f65756c61765f706f72703a3a6b616572625f72657473756c635f656d656870617267202c3036363934202c3036363934207b,
0x2c7d2054564c3a3a657079745f65756c61765f706f72703a3a6b616572625f72657473756c635f656d656870617267202c3738363934202c3136363934207b,
0x2c7d20564c3a3a657079745f65756c61765f706f72703a3a6b616572625f72657473756c635f656d656870617267202c3838363934202c3838363934207b,
0x2c7d2054564c3a3a657079745f65756c61765f706f72703a3a6b616572625f72657473756c635f656d656870617267202c3531373934202c3938363934207b,
0x2c7d20564c3a3a657079745f65756c61765f706f72703a3a6b616572625f72657473756c635f656d656870617267202c3631373934202c3631373934207b,
0x2c7d2054564c3a3a657079745f65756c61765f706f72703a3a6b616572625f72657473756c635f656d656870617267202c3334373934202c3731373934207b,
0x2c7d20564c3a3a657079745f65756c61765f706f72703a3a6b616572625f72657473756c635f656d656870617267202c3434373934202c3434373934207b,
0x2c7d2054564c3a3a657079745f65756c61765f706f72703a3a6b616572625f72657473756c635f656d656870617267202c3137373934202c3534373934207b,
0x2c7d20564c3a3a657079745f65756c61765f706f72703a3a6b616572625f72657473756c635f656d656870617267202c3237373934202c3237373934207b,
0x2c7d2054564c3a3a657079745f65756c61765f706f72703a3a6b616572625f72657473756c635f656d656870617267202c3939373934202c3337373934207b,
0x2c7d20564c3a3a657079745f65756c61765f706f72703a3a6b616572625f72657473756c635f656d656870617267202c3030383934202c3030383934207b,
0x2c7d2054564c3a3a657079745f65756c61765f706f72703a3a6b616572625f72657473756c635f656d656870617267202c3732383934202c3130383934207b,
0x2c7d20564c3a3a657079745f65756c61765f706f72703a3a6b616572625f72657473756c635f656d656870617267202c3832383934202c3832383934207b,
0x2c7d2054564c3a3a657079745f65756c61765f706f72703a3a6b616572625f72657473756c635f656d656870617267202c3535383934202c3932383934207b,
0x2c7d20564c3a3a657079745f65756c61765f706f72703a3a6b616572625f72657473756c635f656d656870617267202c3635383934202c3635383934207b,
0x2c7d2054564c3a3a657079745f65756c61765f706f72703a3a6b616572625f72657473756c635f656d656870617267202c3338383934202c3735383934207b,
0x2c7d20564c3a3a657079745f65756c61765f706f72703a3a6b616572625f72657473756c635f656d656870617267202c3438383934202c3438383934207b,
0x2c7d2054564c3a3a657079745f65756c61765f706f72703a3a6b616572625f72657473756c635f656d656870617267202c3131393934202c3538383934207b,
0x2c7d20564c3a3a657079745f65756c61765f706f72703a3a6b616572625f72657473756c635f656d656870617267202c3231393934202c3231393934207b,
0x2c7d2054564c3a3a657079745f65756c61765f706f72703a3a6b616572625f72657473756c635f656d656870617267202c3933393934202c3331393934207b,
0x2c7d20564c3a3a657079745f65756c61765f706f72703a3a6b616572625f72657473756c635f656d656870617267202c3034393934202c3034393934207b,
0x2c7d2054564c3a3a657079745f65756c61765f706f72703a3a6b616572625f72657473756c635f656d656870617267202c3736393934202c3134393934207b,
0x2c7d20564c3a3a657079745f65756c61765f706f72703a3a6b616572625f72657473756c635f656d656870617267202c3836393934202c3836393934207b]

/-- src/u5e/props/grapheme_cluster_break_data.hpp lines 769-1024. -/
def rawGcbHdr3 : List Nat := [
0x2c7d2054564c3a3a657079745f65756c61765f706f72703a3a6b616572625f72657473756c635f656d656870617267202c3539393934202c3936393934207b,
0x2c7d20564c3a3a657079745f65756c61765f706f72703a3a6b616572625f72657473756c635f656d656870617267202c3639393934202c3639393934207b,
0x2c7d2054564c3a3a657079745f65756c61765f706f72703a3a6b616572625f72657473756c635f656d656870617267202c3332303035202c3739393934207b,
0x2c7d20564c3a3a657079745f65756c61765f706f72703a3a6b616572625f72657473756c635f656d656870617267202c3432303035202c3432303035207b,
0x2c7d2054564c3a3a657079745f65756c61765f706f72703a3a6b616572625f72657473756c635f656d656870617267202c3135303035202c3532303035207b,
0x2c7d20564c3a3a657079745f65756c61765f706f72703a3a6b616572625f72657473756c635f656d656870617267202c3235303035202c3235303035207b,
0x2c7d2054564c3a3a657079745f65756c61765f706f72703a3a6b616572625f72657473756c635f656d656870617267202c3937303035202c3335303035207b,
0x2c7d20564c3a3a657079745f65756c61765f706f72703a3a6b616572625f72657473756c635f656d656870617267202c3038303035202c3038303035207b,
0x2c7d2054564c3a3a657079745f65756c61765f706f72703a3a6b616572625f72657473756c635f656d656870617267202c3730313035202c3138303035207b,
0x2c7d20564c3a3a657079745f65756c61765f706f72703a3a6b616572625f72657473756c635f656d656870617267202c3830313035202c3830313035207b,
0x2c7d2054564c3a3a657079745f65756c61765f706f72703a3a6b616572625f72657473756c635f656d656870617267202c3533313035202c3930313035207b,
0x2c7d20564c3a3a657079745f65756c61765f706f72703a3a6b616572625f72657473756c635f656d656870617267202c3633313035202c3633313035207b,
0x2c7d2054564c3a3a657079745f65756c61765f706f72703a3a6b616572625f72657473756c635f656d656870617267202c3336313035202c3733313035207b,
0x2c7d20564c3a3a657079745f65756c61765f706f72703a3a6b616572625f72657473756c635f656d656870617267202c3436313035202c3436313035207b,
0x2c7d2054564c3a3a657079745f65756c61765f706f72703a3a6b616572625f72657473756c635f656d656870617267202c3139313035202c3536313035207b,
0x2c7d20564c3a3a657079745f65756c61765f706f72703a3a6b616572625f72657473756c635f656d656870617267202c3239313035202c3239313035207b,
0x2c7d2054564c3a3a657079745f65756c61765f706f72703a3a6b616572625f72657473756c635f656d656870617267202c3931323035202c3339313035207b,
0x2c7d20564c3a3a657079745f65756c61765f706f72703a3a6b616572625f72657473756c635f656d656870617267202c3032323035202c3032323035207b,
0x2c7d2054564c3a3a657079745f65756c61765f706f72703a3a6b616572625f72657473756c635f656d656870617267202c3734323035202c3132323035207b,
0x2c7d20564c3a3a657079745f65756c61765f706f72703a3a6b616572625f72657473756c635f656d656870617267202c3834323035202c3834323035207b,
0x2c7d2054564c3a3a657079745f65756c61765f706f72703a3a6b616572625f72657473756c635f656d656870617267202c3537323035202c3934323035207b,
0x2c7d20564c3a3a657079745f65756c61765f706f72703a3a6b616572625f72657473756c635f656d656870617267202c3637323035202c3637323035207b,
0x2c7d2054564c3a3a657079745f65756c61765f706f72703a3a6b616572625f72657473756c635f656d656870617267202c3330333035202c3737323035207b,
0x2c7d20564c3a3a657079745f65756c61765f706f72703a3a6b616572625f72657473756c635f656d656870617267202c3430333035202c3430333035207b,
0x2c7d2054564c3a3a657079745f65756c61765f706f72703a3a6b616572625f72657473756c635f656d656870617267202c3133333035202c3530333035207b,
0x2c7d20564c3a3a657079745f65756c61765f706f72703a3a6b616572625f72657473756c635f656d656870617267202c3233333035202c3233333035207b,
0x2c7d2054564c3a3a657079745f65756c61765f706f72703a3a6b616572625f72657473756c635f656d656870617267202c3935333035202c3333333035207b,
0x2c7d20564c3a3a657079745f65756c61765f706f72703a3a6b616572625f72657473756c635f656d656870617267202c3036333035202c3036333035207b,
0x2c7d2054564c3a3a657079745f65756c61765f706f72703a3a6b616572625f72657473756c635f656d656870617267202c3738333035202c3136333035207b,
0x2c7d20564c3a3a657079745f65756c61765f706f72703a3a6b616572625f72657473756c635f656d656870617267202c3838333035202c3838333035207b,
0x2c7d2054564c3a3a657079745f65756c61765f706f72703a3a6b616572625f72657473756c635f656d656870617267202c3531343035202c3938333035207b,
0x2c7d20564c3a3a657079745f65756c61765f706f72703a3a6b616572625f72657473756c635f656d656870617267202c3631343035202c3631343035207b,
0x2c7d2054564c3a3a657079745f65756c61765f706f72703a3a6b616572625f72657473756c635f656d656870617267202c3334343035202c3731343035207b,
0x2c7d20564c3a3a657079745f65756c61765f706f72703a3a6b616572625f72657473756c635f656d656870617267202c3434343035202c3434343035207b,
0x2c7d2054564c3a3a657079745f65756c61765f706f72703a3a6b616572625f72657473756c635f656d656870617267202c3137343035202c3534343035207b,
0x2c7d20564c3a3a657079745f65756c61765f706f72703a3a6b616572625f72657473756c635f656d656870617267202c3237343035202c3237343035207b,
0x2c7d2054564c3a3a657079745f65756c61765f706f72703a3a6b616572625f72657473756c635f656d656870617267202c3939343035202c3337343035207b,
0x2c7d20564c3a3a657079745f65756c61765f706f72703a3a6b616572625f72657473756c635f656d656870617267202c3030353035202c3030353035207b,
0x2c7d2054564c3a3a657079745f65756c61765f706f72703a3a6b616572625f72657473756c635f656d656870617267202c3732353035202c3130353035207b,
0x2c7d20564c3a3a657079745f65756c61765f706f72703a3a6b616572625f72657473756c635f656d656870617267202c3832353035202c3832353035207b,
0x2c7d2054564c3a3a657079745f65756c61765f706f72703a3a6b616572625f72657473756c635f656d656870617267202c3535353035202c3932353035207b,
0x2c7d20564c3a3a657079745f65756c61765f706f72703a3a6b616572625f72657473756c635f656d656870617267202c3635353035202c3635353035207b,
0x2c7d2054564c3a3a657079745f65756c61765f706f72703a3a6b616572625f72657473756c635f656d656870617267202c3338353035202c3735353035207b,
0x2c7d20564c3a3a657079745f65756c61765f706f72703a3a6b616572625f72657473756c635f656d656870617267202c3438353035202c3438353035207b,
0x2c7d2054564c3a3a657079745f65756c61765f706f72703a3a6b616572625f72657473756c635f656d656870617267202c3131363035202c3538353035207b,
0x2c7d20564c3a3a657079745f65756c61765f706f72703a3a6b616572625f72657473756c635f656d656870617267202c3231363035202c3231363035207b,
0x2c7d2054564c3a3a657079745f65756c61765f706f72703a3a6b616572625f72657473756c635f656d656870617267202c3933363035202c3331363035207b,
0x2c7d20564c3a3a657079745f65756c61765f706f72703a3a6b616572625f72657473756c635f656d656870617267202c3034363035202c3034363035207b,
0x2c7d2054564c3a3a657079745f65756c61765f706f72703a3a6b616572625f72657473756c635f656d656870617267202c3736363035202c3134363035207b,
0x2c7d20564c3a3a657079745f65756c61765f706f72703a3a6b616572625f72657473756c635f656d656870617267202c3836363035202c3836363035207b,
0x2c7d2054564c3a3a657079745f65756c61765f706f72703a3a6b616572625f72657473756c635f656d656870617267202c3539363035202c3936363035207b,
0x2c7d20564c3a3a657079745f65756c61765f706f72703a3a6b616572625f72657473756c635f656d656870617267202c3639363035202c3639363035207b,
0x2c7d2054564c3a3a657079745f65756c61765f706f72703a3a6b616572625f72657473756c635f656d656870617267202c3332373035202c3739363035207b,
0x2c7d20564c3a3a657079745f65756c61765f706f72703a3a6b616572625f72657473756c635f656d656870617267202c3432373035202c3432373035207b,
0x2c7d2054564c3a3a657079745f65756c61765f706f72703a3a6b616572625f72657473756c635f656d656870617267202c3135373035202c3532373035207b,
0x2c7d20564c3a3a657079745f65756c61765f706f72703a3a6b616572625f72657473756c635f656d656870617267202c3235373035202c3235373035207b,
0x2c7d2054564c3a3a657079745f65756c61765f706f72703a3a6b616572625f72657473756c635f656d656870617267202c3937373035202c3335373035207b,
0x2c7d20564c3a3a657079745f65756c61765f706f72703a3a6b616572625f72657473756c635f656d656870617267202c3038373035202c3038373035207b,
0x2c7d2054564c3a3a657079745f65756c61765f706f72703a3a6b616572625f72657473756c635f656d656870617267202c3730383035202c3138373035207b,
0x2c7d20564c3a3a657079745f65756c61765f706f72703a3a6b616572625f72657473756c635f656d656870617267202c3830383035202c3830383035207b,
0x2c7d2054564c3a3a657079745f65756c61765f706f72703a3a6b616572625f72657473756c635f656d656870617267202c3533383035202c3930383035207b,
0x2c7d20564c3a3a657079745f65756c61765f706f72703a3a6b616572625f72657473756c635f656d656870617267202c3633383035202c3633383035207b,
0x2c7d2054564c3a3a657079745f65756c61765f706f72703a3a6b616572625f72657473756c635f656d656870617267202c3336383035202c3733383035207b,
0x2c7d20564c3a3a657079745f65756c61765f706f72703a3a6b616572625f72657473756c635f656d656870617267202c3436383035202c3436383035207b,
0x2c7d2054564c3a3a657079745f65756c61765f706f72703a3a6b616572625f72657473756c635f656d656870617267202c3139383035202c3536383035207b,
0x2c7d20564c3a3a657079745f65756c61765f706f72703a3a6b616572625f72657473756c635f656d656870617267202c3239383035202c3239383035207b,
0x2c7d2054564c3a3a657079745f65756c61765f706f72703a3a6b616572625f72657473756c635f656d656870617267202c3931393035202c3339383035207b,
0x2c7d20564c3a3a657079745f65756c61765f706f72703a3a6b616572625f72657473756c635f656d656870617267202c3032393035202c3032393035207b,
0x2c7d2054564c3a3a657079745f65756c61765f706f72703a3a6b616572625f72657473756c635f656d656870617267202c3734393035202c3132393035207b,
0x2c7d20564c3a3a657079745f65756c61765f706f72703a3a6b616572625f72657473756c635f656d656870617267202c3834393035202c3834393035207b,
0x2c7d2054564c3a3a657079745f65756c61765f706f72703a3a6b616572625f72657473756c635f656d656870617267202c3537393035202c3934393035207b,
0x2c7d20564c3a3a657079745f65756c61765f706f72703a3a6b616572625f72657473756c635f656d656870617267202c3637393035202c3637393035207b,
0x2c7d2054564c3a3a657079745f65756c61765f706f72703a3a6b616572625f72657473756c635f656d656870617267202c3330303135202c3737393035207b,
0x2c7d20564c3a3a657079745f65756c61765f706f72703a3a6b616572625f72657473756c635f656d656870617267202c3430303135202c3430303135207b,
0x2c7d2054564c3a3a657079745f65756c61765f706f72703a3a6b616572625f72657473756c635f656d656870617267202c3133303135202c3530303135207b,
0x2c7d20564c3a3a657079745f65756c61765f706f72703a3a6b616572625f72657473756c635f656d656870617267202c3233303135202c3233303135207b,
0x2c7d2054564c3a3a657079745f65756c61765f706f72703a3a6b616572625f72657473756c635f656d656870617267202c3935303135202c3333303135207b,
0x2c7d20564c3a3a657079745f65756c61765f706f72703a3a6b616572625f72657473756c635f656d656870617267202c3036303135202c3036303135207b,
0x2c7d2054564c3a3a657079745f65756c61765f706f72703a3a6b616572625f72657473756c635f656d656870617267202c3738303135202c3136303135207b,
0x2c7d20564c3a3a657079745f65756c61765f706f72703a3a6b616572625f72657473756c635f656d656870617267202c3838303135202c3838303135207b,
0x2c7d2054564c3a3a657079745f65756c61765f706f72703a3a6b616572625f72657473756c635f656d656870617267202c3531313135202c3938303135207b,
0x2c7d20564c3a3a657079745f65756c61765f706f72703a3a6b616572625f72657473756c635f656d656870617267202c3631313135202c3631313135207b,
0x2c7d2054564c3a3a657079745f65756c61765f706f72703a3a6b616572625f72657473756c635f656d656870617267202c3334313135202c3731313135207b,
0x2c7d20564c3a3a657079745f65756c61765f706f72703a3a6b616572625f72657473756c635f656d656870617267202c3434313135202c3434313135207b,
0x2c7d2054564c3a3a657079745f65756c61765f706f72703a3a6b616572625f72657473756c635f656d656870617267202c3137313135202c3534313135207b,
0x2c7d20564c3a3a657079745f65756c61765f706f72703a3a6b616572625f72657473756c635f656d656870617267202c3237313135202c3237313135207b,
0x2c7d2054564c3a3a657079745f65756c61765f706f72703a3a6b616572625f72657473756c635f656d656870617267202c3939313135202c3337313135207b,
0x2c7d20564c3a3a657079745f65756c61765f706f72703a3a6b616572625f72657473756c635f656d656870617267202c3030323135202c3030323135207b,
0x2c7d2054564c3a3a657079745f65756c61765f706f72703a3a6b616572625f72657473756c635f656d656870617267202c3732323135202c3130323135207b,
0x2c7d20564c3a3a657079745f65756c61765f706f72703a3a6b616572625f72657473756c635f656d656870617267202c3832323135202c3832323135207b,
0x2c7d2054564c3a3a657079745f65756c61765f706f72703a3a6b616572625f72657473756c635f656d656870617267202c3535323135202c3932323135207b,
0x2c7d20564c3a3a657079745f65756c61765f706f72703a3a6b616572625f72657473756c635f656d656870617267202c3635323135202c3635323135207b,
0x2c7d2054564c3a3a657079745f65756c61765f706f72703a3a6b616572625f72657473756c635f656d656870617267202c3338323135202c3735323135207b,
0x2c7d20564c3a3a657079745f65756c61765f706f72703a3a6b616572625f72657473756c635f656d656870617267202c3438323135202c3438323135207b,
0x2c7d2054564c3a3a657079745f65756c61765f706f72703a3a6b616572625f72657473756c635f656d656870617267202c3131333135202c3538323135207b,
0x2c7d20564c3a3a657079745f65756c61765f706f72703a3a6b616572625f72657473756c635f656d656870617267202c3231333135202c3231333135207b,
0x2c7d2054564c3a3a657079745f65756c61765f706f72703a3a6b616572625f72657473756c635f656d656870617267202c3933333135202c3331333135207b,
0x2c7d20564c3a3a657079745f65756c61765f706f72703a3a6b616572625f72657473756c635f656d656870617267202c3034333135202c3034333135207b,
0x2c7d2054564c3a3a657079745f65756c61765f706f72703a3a6b616572625f72657473756c635f656d656870617267202c3736333135202c3134333135207b,
0x2c7d20564c3a3a657079745f65756c61765f706f72703a3a6b616572625f72657473756c635f656d656870617267202c3836333135202c3836333135207b,
0x2c7d2054564c3a3a657079745f65756c61765f706f72703a3a6b616572625f72657473756c635f656d656870617267202c3539333135202c3936333135207b,
0x2c7d20564c3a3a657079745f65756c61765f706f72703a3a6b616572625f72657473756c635f656d656870617267202c3639333135202c3639333135207b,
0x2c7d2054564c3a3a657079745f65756c61765f706f72703a3a6b616572625f72657473756c635f656d656870617267202c3332343135202c3739333135207b,
0x2c7d20564c3a3a657079745f65756c61765f706f72703a3a6b616572625f72657473756c635f656d656870617267202c3432343135202c3432343135207b,
0x2c7d2054564c3a3a657079745f65756c61765f706f72703a3a6b616572625f72657473756c635f656d656870617267202c3135343135202c3532343135207b,
0x2c7d20564c3a3a657079745f65756c61765f706f72703a3a6b616572625f72657473756c635f656d656870617267202c3235343135202c3235343135207b,
0x2c7d2054564c3a3a657079745f65756c61765f706f72703a3a6b616572625f72657473756c635f656d656870617267202c3937343135202c3335343135207b,
0x2c7d20564c3a3a657079745f65756c61765f706f72703a3a6b616572625f72657473756c635f656d656870617267202c3038343135202c3038343135207b,
0x2c7d2054564c3a3a657079745f65756c61765f706f72703a3a6b616572625f72657473756c635f656d656870617267202c3730353135202c3138343135207b,
0x2c7d20564c3a3a657079745f65756c61765f706f72703a3a6b616572625f72657473756c635f656d656870617267202c3830353135202c3830353135207b,
0x2c7d2054564c3a3a657079745f65756c61765f706f72703a3a6b616572625f72657473756c635f656d656870617267202c3533353135202c3930353135207b,
0x2c7d20564c3a3a657079745f65756c61765f706f72703a3a6b616572625f72657473756c635f656d656870617267202c3633353135202c3633353135207b,
0x2c7d2054564c3a3a657079745f65756c61765f706f72703a3a6b616572625f72657473756c635f656d656870617267202c3336353135202c3733353135207b,
0x2c7d20564c3a3a657079745f65756c61765f706f72703a3a6b616572625f72657473756c635f656d656870617267202c3436353135202c3436353135207b,
0x2c7d2054564c3a3a657079745f65756c61765f706f72703a3a6b616572625f72657473756c635f656d656870617267202c3139353135202c3536353135207b,
0x2c7d20564c3a3a657079745f65756c61765f706f72703a3a6b616572625f72657473756c635f656d656870617267202c3239353135202c3239353135207b,
0x2c7d2054564c3a3a657079745f65756c61765f706f72703a3a6b616572625f72657473756c635f656d656870617267202c3931363135202c3339353135207b,
0x2c7d20564c3a3a657079745f65756c61765f706f72703a3a6b616572625f72657473756c635f656d656870617267202c3032363135202c3032363135207b,
0x2c7d2054564c3a3a657079745f65756c61765f706f72703a3a6b616572625f72657473756c635f656d656870617267202c3734363135202c3132363135207b,
0x2c7d20564c3a3a657079745f65756c61765f706f72703a3a6b616572625f72657473756c635f656d656870617267202c3834363135202c3834363135207b,
0x2c7d2054564c3a3a657079745f65756c61765f706f72703a3a6b616572625f72657473756c635f656d656870617267202c3537363135202c3934363135207b,
0x2c7d20564c3a3a657079745f65756c61765f706f72703a3a6b616572625f72657473756c635f656d656870617267202c3637363135202c3637363135207b,
0x2c7d2054564c3a3a657079745f65756c61765f706f72703a3a6b616572625f72657473756c635f656d656870617267202c3330373135202c3737363135207b,
0x2c7d20564c3a3a657079745f65756c61765f706f72703a3a6b616572625f72657473756c635f656d656870617267202c3430373135202c3430373135207b,
0x2c7d2054564c3a3a657079745f65756c61765f706f72703a3a6b616572625f72657473756c635f656d656870617267202c3133373135202c3530373135207b,
0x2c7d20564c3a3a657079745f65756c61765f706f72703a3a6b616572625f72657473756c635f656d656870617267202c3233373135202c3233373135207b,
0x2c7d2054564c3a3a657079745f65756c61765f706f72703a3a6b616572625f72657473756c635f656d656870617267202c3935373135202c3333373135207b,
0x2c7d20564c3a3a657079745f65756c61765f706f72703a3a6b616572625f72657473756c635f656d656870617267202c3036373135202c3036373135207b,
0x2c7d2054564c3a3a657079745f65756c61765f706f72703a3a6b616572625f72657473756c635f656d656870617267202c3738373135202c3136373135207b,
0x2c7d20564c3a3a657079745f65756c61765f706f72703a3a6b616572625f72657473756c635f656d656870617267202c3838373135202c3838373135207b,
0x2c7d2054564c3a3a657079745f65756c61765f706f72703a3a6b616572625f72657473756c635f656d656870617267202c3531383135202c3938373135207b,
0x2c7d20564c3a3a657079745f65756c61765f706f72703a3a6b616572625f72657473756c635f656d656870617267202c3631383135202c3631383135207b,
0x2c7d2054564c3a3a657079745f65756c61765f706f72703a3a6b616572625f72657473756c635f656d656870617267202c3334383135202c3731383135207b,
0x2c7d20564c3a3a657079745f65756c61765f706f72703a3a6b616572625f72657473756c635f656d656870617267202c3434383135202c3434383135207b,
0x2c7d2054564c3a3a657079745f65756c61765f706f72703a3a6b616572625f72657473756c635f656d656870617267202c3137383135202c3534383135207b,
0x2c7d20564c3a3a657079745f65756c61765f706f72703a3a6b616572625f72657473756c635f656d656870617267202c3237383135202c3237383135207b,
0x2c7d2054564c3a3a657079745f65756c61765f706f72703a3a6b616572625f72657473756c635f656d656870617267202c3939383135202c3337383135207b,
0x2c7d20564c3a3a657079745f65756c61765f706f72703a3a6b616572625f72657473756c635f656d656870617267202c3030393135202c3030393135207b,
0x2c7d2054564c3a3a657079745f65756c61765f706f72703a3a6b616572625f72657473756c635f656d656870617267202c3732393135202c3130393135207b,
0x2c7d20564c3a3a657079745f65756c61765f706f72703a3a6b616572625f72657473756c635f656d656870617267202c3832393135202c3832393135207b,
0x2c7d2054564c3a3a657079745f65756c61765f706f72703a3a6b616572625f72657473756c635f656d656870617267202c3535393135202c3932393135207b,
0x2c7d20564c3a3a657079745f65756c61765f706f72703a3a6b616572625f72657473756c635f656d656870617267202c3635393135202c3635393135207b,
0x2c7d2054564c3a3a657079745f65756c61765f706f72703a3a6b616572625f72657473756c635f656d656870617267202c3338393135202c3735393135207b,
0x2c7d20564c3a3a657079745f65756c61765f706f72703a3a6b616572625f72657473756c635f656d656870617267202c3438393135202c3438393135207b,
0x2c7d2054564c3a3a657079745f65756c61765f706f72703a3a6b616572625f72657473756c635f656d656870617267202c3131303235202c3538393135207b,
0x2c7d20564c3a3a657079745f65756c61765f706f72703a3a6b616572625f72657473756c635f656d656870617267202c3231303235202c3231303235207b,
0x2c7d2054564c3a3a657079745f65756c61765f706f72703a3a6b616572625f72657473756c635f656d656870617267202c3933303235202c3331303235207b,
0x2c7d20564c3a3a657079745f65756c61765f706f72703a3a6b616572625f72657473756c635f656d656870617267202c3034303235202c3034303235207b,
0x2c7d2054564c3a3a657079745f65756c61765f706f72703a3a6b616572625f72657473756c635f656d656870617267202c3736303235202c3134303235207b,
0x2c7d20564c3a3a657079745f65756c61765f706f72703a3a6b616572625f72657473756c635f656d656870617267202c3836303235202c3836303235207b,
0x2c7d2054564c3a3a657079745f65756c61765f706f72703a3a6b616572625f72657473756c635f656d656870617267202c3539303235202c3936303235207b,
0x2c7d20564c3a3a657079745f65756c61765f706f72703a3a6b616572625f72657473756c635f656d656870617267202c3639303235202c3639303235207b,
0x2c7d2054564c3a3a657079745f65756c61765f706f72703a3a6b616572625f72657473756c635f656d656870617267202c3332313235202c3739303235207b,
0x2c7d20564c3a3a657079745f65756c61765f706f72703a3a6b616572625f72657473756c635f656d656870617267202c3432313235202c3432313235207b,
0x2c7d2054564c3a3a657079745f65756c61765f706f72703a3a6b616572625f72657473756c635f656d656870617267202c3135313235202c3532313235207b,
0x2c7d20564c3a3a657079745f65756c61765f706f72703a3a6b616572625f72657473756c635f656d656870617267202c3235313235202c3235313235207b,
0x2c7d2054564c3a3a657079745f65756c61765f706f72703a3a6b616572625f72657473756c635f656d656870617267202c3937313235202c3335313235207b,
0x2c7d20564c3a3a657079745f65756c61765f706f72703a3a6b616572625f72657473756c635f656d656870617267202c3038313235202c3038313235207b,
0x2c7d2054564c3a3a657079745f65756c61765f706f72703a3a6b616572625f72657473756c635f656d656870617267202c3730323235202c3138313235207b,
0x2c7d20564c3a3a657079745f65756c61765f706f72703a3a6b616572625f72657473756c635f656d656870617267202c3830323235202c3830323235207b,
0x2c7d2054564c3a3a657079745f65756c61765f706f72703a3a6b616572625f72657473756c635f656d656870617267202c3533323235202c3930323235207b,
0x2c7d20564c3a3a657079745f65756c61765f706f72703a3a6b616572625f72657473756c635f656d656870617267202c3633323235202c3633323235207b,
0x2c7d2054564c3a3a657079745f65756c61765f706f72703a3a6b616572625f72657473756c635f656d656870617267202c3336323235202c3733323235207b,
0x2c7d20564c3a3a657079745f65756c61765f706f72703a3a6b616572625f72657473756c635f656d656870617267202c3436323235202c3436323235207b,
0x2c7d2054564c3a3a657079745f65756c61765f706f72703a3a6b616572625f72657473756c635f656d656870617267202c3139323235202c3536323235207b,
0x2c7d20564c3a3a657079745f65756c61765f706f72703a3a6b616572625f72657473756c635f656d656870617267202c3239323235202c3239323235207b,
0x2c7d2054564c3a3a657079745f65756c61765f706f72703a3a6b616572625f72657473756c635f656d656870617267202c3931333235202c3339323235207b,
0x2c7d20564c3a3a657079745f65756c61765f706f72703a3a6b616572625f72657473756c635f656d656870617267202c3032333235202c3032333235207b,
0x2c7d2054564c3a3a657079745f65756c61765f706f72703a3a6b616572625f72657473756c635f656d656870617267202c3734333235202c3132333235207b,
0x2c7d20564c3a3a657079745f65756c61765f706f72703a3a6b616572625f72657473756c635f656d656870617267202c3834333235202c3834333235207b,
0x2c7d2054564c3a3a657079745f65756c61765f706f72703a3a6b616572625f72657473756c635f656d656870617267202c3537333235202c3934333235207b,
0x2c7d20564c3a3a657079745f65756c61765f706f72703a3a6b616572625f72657473756c635f656d656870617267202c3637333235202c3637333235207b,
0x2c7d2054564c3a3a657079745f65756c61765f706f72703a3a6b616572625f72657473756c635f656d656870617267202c3330343235202c3737333235207b,
0x2c7d20564c3a3a657079745f65756c61765f706f72703a3a6b616572625f72657473756c635f656d656870617267202c3430343235202c3430343235207b,
0x2c7d2054564c3a3a657079745f65756c61765f706f72703a3a6b616572625f72657473756c635f656d656870617267202c3133343235202c3530343235207b,
0x2c7d20564c3a3a657079745f65756c61765f706f72703a3a6b616572625f72657473756c635f656d656870617267202c3233343235202c3233343235207b,
0x2c7d2054564c3a3a657079745f65756c61765f706f72703a3a6b616572625f72657473756c635f656d656870617267202c3935343235202c3333343235207b,
0x2c7d20564c3a3a657079745f65756c61765f706f72703a3a6b616572625f72657473756c635f656d656870617267202c3036343235202c3036343235207b,
0x2c7d2054564c3a3a657079745f65756c61765f706f72703a3a6b616572625f72657473756c635f656d656870617267202c3738343235202c3136343235207b,
0x2c7d20564c3a3a657079745f65756c61765f706f72703a3a6b616572625f72657473756c635f656d656870617267202c3838343235202c3838343235207b,
0x2c7d2054564c3a3a657079745f65756c61765f706f72703a3a6b616572625f72657473756c635f656d656870617267202c3531353235202c3938343235207b,
0x2c7d20564c3a3a657079745f65756c61765f706f72703a3a6b616572625f72657473756c635f656d656870617267202c3631353235202c3631353235207b,
0x2c7d2054564c3a3a657079745f65756c61765f706f72703a3a6b616572625f72657473756c635f656d656870617267202c3334353235202c3731353235207b,
0x2c7d20564c3a3a657079745f65756c61765f706f72703a3a6b616572625f72657473756c635f656d656870617267202c3434353235202c3434353235207b,
0x2c7d2054564c3a3a657079745f65756c61765f706f72703a3a6b616572625f72657473756c635f656d656870617267202c3137353235202c3534353235207b,
0x2c7d20564c3a3a657079745f65756c61765f706f72703a3a6b616572625f72657473756c635f656d656870617267202c3237353235202c3237353235207b,
0x2c7d2054564c3a3a657079745f65756c61765f706f72703a3a6b616572625f72657473756c635f656d656870617267202c3939353235202c3337353235207b,
0x2c7d20564c3a3a657079745f65756c61765f706f72703a3a6b616572625f72657473756c635f656d656870617267202c3030363235202c3030363235207b,
0x2c7d2054564c3a3a657079745f65756c61765f706f72703a3a6b616572625f72657473756c635f656d656870617267202c3732363235202c3130363235207b,
0x2c7d20564c3a3a657079745f65756c61765f706f72703a3a6b616572625f72657473756c635f656d656870617267202c3832363235202c3832363235207b,
0x2c7d2054564c3a3a657079745f65756c61765f706f72703a3a6b616572625f72657473756c635f656d656870617267202c3535363235202c3932363235207b,
0x2c7d20564c3a3a657079745f65756c61765f706f72703a3a6b616572625f72657473756c635f656d656870617267202c3635363235202c3635363235207b,
0x2c7d2054564c3a3a657079745f65756c61765f706f72703a3a6b616572625f72657473756c635f656d656870617267202c3338363235202c3735363235207b,
0x2c7d20564c3a3a657079745f65756c61765f706f72703a3a6b616572625f72657473756c635f656d656870617267202c3438363235202c3438363235207b,
0x2c7d2054564c3a3a657079745f65756c61765f706f72703a3a6b616572625f72657473756c635f656d656870617267202c3131373235202c3538363235207b,
0x2c7d20564c3a3a657079745f65756c61765f706f72703a3a6b616572625f72657473756c635f656d656870617267202c3231373235202c3231373235207b,
0x2c7d2054564c3a3a657079745f65756c61765f706f72703a3a6b616572625f72657473756c635f656d656870617267202c3933373235202c3331373235207b,
0x2c7d20564c3a3a657079745f65756c61765f706f72703a3a6b616572625f72657473756c635f656d656870617267202c3034373235202c3034373235207b,
0x2c7d2054564c3a3a657079745f65756c61765f706f72703a3a6b616572625f72657473756c635f656d656870617267202c3736373235202c3134373235207b,
0x2c7d20564c3a3a657079745f65756c61765f706f72703a3a6b616572625f72657473756c635f656d656870617267202c3836373235202c3836373235207b,
0x2c7d2054564c3a3a657079745f65756c61765f706f72703a3a6b616572625f72657473756c635f656d656870617267202c3539373235202c3936373235207b,
0x2c7d20564c3a3a657079745f65756c61765f706f72703a3a6b616572625f72657473756c635f656d656870617267202c3639373235202c3639373235207b,
0x2c7d2054564c3a3a657079745f65756c61765f706f72703a3a6b616572625f72657473756c635f656d656870617267202c3332383235202c3739373235207b,
0x2c7d20564c3a3a657079745f65756c61765f706f72703a3a6b616572625f72657473756c635f656d656870617267202c3432383235202c3432383235207b,
0x2c7d2054564c3a3a657079745f65756c61765f706f72703a3a6b616572625f72657473756c635f656d656870617267202c3135383235202c3532383235207b,
0x2c7d20564c3a3a657079745f65756c61765f706f72703a3a6b616572625f72657473756c635f656d656870617267202c3235383235202c3235383235207b,
0x2c7d2054564c3a3a657079745f65756c61765f706f72703a3a6b616572625f72657473756c635f656d656870617267202c3937383235202c3335383235207b,
0x2c7d20564c3a3a657079745f65756c61765f706f72703a3a6b616572625f72657473756c635f656d656870617267202c3038383235202c3038383235207b,
0x2c7d2054564c3a3a657079745f65756c61765f706f72703a3a6b616572625f72657473756c635f656d656870617267202c3730393235202c3138383235207b,
0x2c7d20564c3a3a657079745f65756c61765f706f72703a3a6b616572625f72657473756c635f656d656870617267202c3830393235202c3830393235207b,
0x2c7d2054564c3a3a657079745f65756c61765f706f72703a3a6b616572625f72657473756c635f656d656870617267202c3533393235202c3930393235207b,
0x2c7d20564c3a3a657079745f65756c61765f706f72703a3a6b616572625f72657473756c635f656d656870617267202c3633393235202c3633393235207b,
0x2c7d2054564c3a3a657079745f65756c61765f706f72703a3a6b616572625f72657473756c635f656d656870617267202c3336393235202c3733393235207b,
0x2c7d20564c3a3a657079745f65756c61765f706f72703a3a6b616572625f72657473756c635f656d656870617267202c3436393235202c3436393235207b,
0x2c7d2054564c3a3a657079745f65756c61765f706f72703a3a6b616572625f72657473756c635f656d656870617267202c3139393235202c3536393235207b,
0x2c7d20564c3a3a657079745f65756c61765f706f72703a3a6b616572625f72657473756c635f656d656870617267202c3239393235202c3239393235207b,
0x2c7d2054564c3a3a657079745f65756c61765f706f72703a3a6b616572625f72657473756c635f656d656870617267202c3931303335202c3339393235207b,
0x2c7d20564c3a3a657079745f65756c61765f706f72703a3a6b616572625f72657473756c635f656d656870617267202c3032303335202c3032303335207b,
0x2c7d2054564c3a3a657079745f65756c61765f706f72703a3a6b616572625f72657473756c635f656d656870617267202c3734303335202c3132303335207b,
0x2c7d20564c3a3a657079745f65756c61765f706f72703a3a6b616572625f72657473756c635f656d656870617267202c3834303335202c3834303335207b,
0x2c7d2054564c3a3a657079745f65756c61765f706f72703a3a6b616572625f72657473756c635f656d656870617267202c3537303335202c3934303335207b,
0x2c7d20564c3a3a657079745f65756c61765f706f72703a3a6b616572625f72657473756c635f656d656870617267202c3637303335202c3637303335207b,
0x2c7d2054564c3a3a657079745f65756c61765f706f72703a3a6b616572625f72657473756c635f656d656870617267202c3330313335202c3737303335207b,
0x2c7d20564c3a3a657079745f65756c61765f706f72703a3a6b616572625f72657473756c635f656d656870617267202c3430313335202c3430313335207b,
0x2c7d2054564c3a3a657079745f65756c61765f706f72703a3a6b616572625f72657473756c635f656d656870617267202c3133313335202c3530313335207b,
0x2c7d20564c3a3a657079745f65756c61765f706f72703a3a6b616572625f72657473756c635f656d656870617267202c3233313335202c3233313335207b,
0x2c7d2054564c3a3a657079745f65756c61765f706f72703a3a6b616572625f72657473756c635f656d656870617267202c3935313335202c3333313335207b,
0x2c7d20564c3a3a657079745f65756c61765f706f72703a3a6b616572625f72657473756c635f656d656870617267202c3036313335202c3036313335207b,
0x2c7d2054564c3a3a657079745f65756c61765f706f72703a3a6b616572625f72657473756c635f656d656870617267202c3738313335202c3136313335207b,
0x2c7d20564c3a3a657079745f65756c61765f706f72703a3a6b616572625f72657473756c635f656d656870617267202c3838313335202c3838313335207b,
0x2c7d2054564c3a3a657079745f65756c61765f706f72703a3a6b616572625f72657473756c635f656d656870617267202c3531323335202c3938313335207b,
0x2c7d20564c3a3a657079745f65756c61765f706f72703a3a6b616572625f72657473756c635f656d656870617267202c3631323335202c3631323335207b,
0x2c7d2054564c3a3a657079745f65756c61765f706f72703a3a6b616572625f72657473756c635f656d656870617267202c3334323335202c3731323335207b,
0x2c7d20564c3a3a657079745f65756c61765f706f72703a3a6b616572625f72657473756c635f656d656870617267202c3434323335202c3434323335207b,
0x2c7d2054564c3a3a657079745f65756c61765f706f72703a3a6b616572625f72657473756c635f656d656870617267202c3137323335202c3534323335207b,
0x2c7d20564c3a3a657079745f65756c61765f706f72703a3a6b616572625f72657473756c635f656d656870617267202c3237323335202c3237323335207b,
0x2c7d2054564c3a3a657079745f65756c61765f706f72703a3a6b616572625f72657473756c635f656d656870617267202c3939323335202c3337323335207b,
0x2c7d20564c3a3a657079745f65756c61765f706f72703a3a6b616572625f72657473756c635f656d656870617267202c3030333335202c3030333335207b,
0x2c7d2054564c3a3a657079745f65756c61765f706f72703a3a6b616572625f72657473756c635f656d656870617267202c3732333335202c3130333335207b,
0x2c7d20564c3a3a657079745f65756c61765f706f72703a3a6b616572625f72657473756c635f656d656870617267202c3832333335202c3832333335207b,
0x2c7d2054564c3a3a657079745f65756c61765f706f72703a3a6b616572625f72657473756c635f656d656870617267202c3535333335202c3932333335207b,
0x2c7d20564c3a3a657079745f65756c61765f706f72703a3a6b616572625f72657473756c635f656d656870617267202c3635333335202c3635333335207b,
0x2c7d2054564c3a3a657079745f65756c61765f706f72703a3a6b616572625f72657473756c635f656d656870617267202c3338333335202c3735333335207b,
0x2c7d20564c3a3a657079745f65756c61765f706f72703a3a6b616572625f72657473756c635f656d656870617267202c3438333335202c3438333335207b,
0x2c7d2054564c3a3a657079745f65756c61765f706f72703a3a6b616572625f72657473756c635f656d656870617267202c3131343335202c3538333335207b,
0x2c7d20564c3a3a657079745f65756c61765f706f72703a3a6b616572625f72657473756c635f656d656870617267202c3231343335202c3231343335207b,
0x2c7d2054564c3a3a657079745f65756c61765f706f72703a3a6b616572625f72657473756c635f656d656870617267202c3933343335202c3331343335207b,
0x2c7d20564c3a3a657079745f65756c61765f706f72703a3a6b616572625f72657473756c635f656d656870617267202c3034343335202c3034343335207b,
0x2c7d2054564c3a3a657079745f65756c61765f706f72703a3a6b616572625f72657473756c635f656d656870617267202c3736343335202c3134343335207b,
0x2c7d20564c3a3a657079745f65756c61765f706f72703a3a6b616572625f72657473756c635f656d656870617267202c3836343335202c3836343335207b,
0x2c7d2054564c3a3a657079745f65756c61765f706f72703a3a6b616572625f72657473756c635f656d656870617267202c3539343335202c3936343335207b,
0x2c7d20564c3a3a657079745f65756c61765f706f72703a3a6b616572625f72657473756c635f656d656870617267202c3639343335202c3639343335207b,
0x2c7d2054564c3a3a657079745f65756c61765f706f72703a3a6b616572625f72657473756c635f656d656870617267202c3332353335202c3739343335207b,
0x2c7d20564c3a3a657079745f65756c61765f706f72703a3a6b616572625f72657473756c635f656d656870617267202c3432353335202c3432353335207b,
0x2c7d2054564c3a3a657079745f65756c61765f706f72703a3a6b616572625f72657473756c635f656d656870617267202c3135353335202c3532353335207b,
0x2c7d20564c3a3a657079745f65756c61765f706f72703a3a6b616572625f72657473756c635f656d656870617267202c3235353335202c3235353335207b]

/-- src/u5e/props/grapheme_cluster_break_data.hpp lines 1025-1280. -/
def rawGcbHdr4 : List Nat := [
0x2c7d2054564c3a3a657079745f65756c61765f706f72703a3a6b616572625f72657473756c635f656d656870617267202c3937353335202c3335353335207b,
0x2c7d20564c3a3a657079745f65756c61765f706f72703a3a6b616572625f72657473756c635f656d656870617267202c3038353335202c3038353335207b,
0x2c7d2054564c3a3a657079745f65756c61765f706f72703a3a6b616572625f72657473756c635f656d656870617267202c3730363335202c3138353335207b,
0x2c7d20564c3a3a657079745f65756c61765f706f72703a3a6b616572625f72657473756c635f656d656870617267202c3830363335202c3830363335207b,
0x2c7d2054564c3a3a657079745f65756c61765f706f72703a3a6b616572625f72657473756c635f656d656870617267202c3533363335202c3930363335207b,
0x2c7d20564c3a3a657079745f65756c61765f706f72703a3a6b616572625f72657473756c635f656d656870617267202c3633363335202c3633363335207b,
0x2c7d2054564c3a3a657079745f65756c61765f706f72703a3a6b616572625f72657473756c635f656d656870617267202c3336363335202c3733363335207b,
0x2c7d20564c3a3a657079745f65756c61765f706f72703a3a6b616572625f72657473756c635f656d656870617267202c3436363335202c3436363335207b,
0x2c7d2054564c3a3a657079745f65756c61765f706f72703a3a6b616572625f72657473756c635f656d656870617267202c3139363335202c3536363335207b,
0x2c7d20564c3a3a657079745f65756c61765f706f72703a3a6b616572625f72657473756c635f656d656870617267202c3239363335202c3239363335207b,
0x2c7d2054564c3a3a657079745f65756c61765f706f72703a3a6b616572625f72657473756c635f656d656870617267202c3931373335202c3339363335207b,
0x2c7d20564c3a3a657079745f65756c61765f706f72703a3a6b616572625f72657473756c635f656d656870617267202c3032373335202c3032373335207b,
0x2c7d2054564c3a3a657079745f65756c61765f706f72703a3a6b616572625f72657473756c635f656d656870617267202c3734373335202c3132373335207b,
0x2c7d20564c3a3a657079745f65756c61765f706f72703a3a6b616572625f72657473756c635f656d656870617267202c3834373335202c3834373335207b,
0x2c7d2054564c3a3a657079745f65756c61765f706f72703a3a6b616572625f72657473756c635f656d656870617267202c3537373335202c3934373335207b,
0x2c7d20564c3a3a657079745f65756c61765f706f72703a3a6b616572625f72657473756c635f656d656870617267202c3637373335202c3637373335207b,
0x2c7d2054564c3a3a657079745f65756c61765f706f72703a3a6b616572625f72657473756c635f656d656870617267202c3330383335202c3737373335207b,
0x2c7d20564c3a3a657079745f65756c61765f706f72703a3a6b616572625f72657473756c635f656d656870617267202c3430383335202c3430383335207b,
0x2c7d2054564c3a3a657079745f65756c61765f706f72703a3a6b616572625f72657473756c635f656d656870617267202c3133383335202c3530383335207b,
0x2c7d20564c3a3a657079745f65756c61765f706f72703a3a6b616572625f72657473756c635f656d656870617267202c3233383335202c3233383335207b,
0x2c7d2054564c3a3a657079745f65756c61765f706f72703a3a6b616572625f72657473756c635f656d656870617267202c3935383335202c3333383335207b,
0x2c7d20564c3a3a657079745f65756c61765f706f72703a3a6b616572625f72657473756c635f656d656870617267202c3036383335202c3036383335207b,
0x2c7d2054564c3a3a657079745f65756c61765f706f72703a3a6b616572625f72657473756c635f656d656870617267202c3738383335202c3136383335207b,
0x2c7d20564c3a3a657079745f65756c61765f706f72703a3a6b616572625f72657473756c635f656d656870617267202c3838383335202c3838383335207b,
0x2c7d2054564c3a3a657079745f65756c61765f706f72703a3a6b616572625f72657473756c635f656d656870617267202c3531393335202c3938383335207b,
0x2c7d20564c3a3a657079745f65756c61765f706f72703a3a6b616572625f72657473756c635f656d656870617267202c3631393335202c3631393335207b,
0x2c7d2054564c3a3a657079745f65756c61765f706f72703a3a6b616572625f72657473756c635f656d656870617267202c3334393335202c3731393335207b,
0x2c7d20564c3a3a657079745f65756c61765f706f72703a3a6b616572625f72657473756c635f656d656870617267202c3434393335202c3434393335207b,
0x2c7d2054564c3a3a657079745f65756c61765f706f72703a3a6b616572625f72657473756c635f656d656870617267202c3137393335202c3534393335207b,
0x2c7d20564c3a3a657079745f65756c61765f706f72703a3a6b616572625f72657473756c635f656d656870617267202c3237393335202c3237393335207b,
0x2c7d2054564c3a3a657079745f65756c61765f706f72703a3a6b616572625f72657473756c635f656d656870617267202c3939393335202c3337393335207b,
0x2c7d20564c3a3a657079745f65756c61765f706f72703a3a6b616572625f72657473756c635f656d656870617267202c3030303435202c3030303435207b,
0x2c7d2054564c3a3a657079745f65756c61765f706f72703a3a6b616572625f72657473756c635f656d656870617267202c3732303435202c3130303435207b,
0x2c7d20564c3a3a657079745f65756c61765f706f72703a3a6b616572625f72657473756c635f656d656870617267202c3832303435202c3832303435207b,
0x2c7d2054564c3a3a657079745f65756c61765f706f72703a3a6b616572625f72657473756c635f656d656870617267202c3535303435202c3932303435207b,
0x2c7d20564c3a3a657079745f65756c61765f706f72703a3a6b616572625f72657473756c635f656d656870617267202c3635303435202c3635303435207b,
0x2c7d2054564c3a3a657079745f65756c61765f706f72703a3a6b616572625f72657473756c635f656d656870617267202c3338303435202c3735303435207b,
0x2c7d20564c3a3a657079745f65756c61765f706f72703a3a6b616572625f72657473756c635f656d656870617267202c3438303435202c3438303435207b,
0x2c7d2054564c3a3a657079745f65756c61765f706f72703a3a6b616572625f72657473756c635f656d656870617267202c3131313435202c3538303435207b,
0x2c7d20564c3a3a657079745f65756c61765f706f72703a3a6b616572625f72657473756c635f656d656870617267202c3231313435202c3231313435207b,
0x2c7d2054564c3a3a657079745f65756c61765f706f72703a3a6b616572625f72657473756c635f656d656870617267202c3933313435202c3331313435207b,
0x2c7d20564c3a3a657079745f65756c61765f706f72703a3a6b616572625f72657473756c635f656d656870617267202c3034313435202c3034313435207b,
0x2c7d2054564c3a3a657079745f65756c61765f706f72703a3a6b616572625f72657473756c635f656d656870617267202c3736313435202c3134313435207b,
0x2c7d20564c3a3a657079745f65756c61765f706f72703a3a6b616572625f72657473756c635f656d656870617267202c3836313435202c3836313435207b,
0x2c7d2054564c3a3a657079745f65756c61765f706f72703a3a6b616572625f72657473756c635f656d656870617267202c3539313435202c3936313435207b,
0x2c7d20564c3a3a657079745f65756c61765f706f72703a3a6b616572625f72657473756c635f656d656870617267202c3639313435202c3639313435207b,
0x2c7d2054564c3a3a657079745f65756c61765f706f72703a3a6b616572625f72657473756c635f656d656870617267202c3332323435202c3739313435207b,
0x2c7d20564c3a3a657079745f65756c61765f706f72703a3a6b616572625f72657473756c635f656d656870617267202c3432323435202c3432323435207b,
0x2c7d2054564c3a3a657079745f65756c61765f706f72703a3a6b616572625f72657473756c635f656d656870617267202c3135323435202c3532323435207b,
0x2c7d20564c3a3a657079745f65756c61765f706f72703a3a6b616572625f72657473756c635f656d656870617267202c3235323435202c3235323435207b,
0x2c7d2054564c3a3a657079745f65756c61765f706f72703a3a6b616572625f72657473756c635f656d656870617267202c3937323435202c3335323435207b,
0x2c7d20564c3a3a657079745f65756c61765f706f72703a3a6b616572625f72657473756c635f656d656870617267202c3038323435202c3038323435207b,
0x2c7d2054564c3a3a657079745f65756c61765f706f72703a3a6b616572625f72657473756c635f656d656870617267202c3730333435202c3138323435207b,
0x2c7d20564c3a3a657079745f65756c61765f706f72703a3a6b616572625f72657473756c635f656d656870617267202c3830333435202c3830333435207b,
0x2c7d2054564c3a3a657079745f65756c61765f706f72703a3a6b616572625f72657473756c635f656d656870617267202c3533333435202c3930333435207b,
0x2c7d20564c3a3a657079745f65756c61765f706f72703a3a6b616572625f72657473756c635f656d656870617267202c3633333435202c3633333435207b,
0x2c7d2054564c3a3a657079745f65756c61765f706f72703a3a6b616572625f72657473756c635f656d656870617267202c3336333435202c3733333435207b,
0x2c7d20564c3a3a657079745f65756c61765f706f72703a3a6b616572625f72657473756c635f656d656870617267202c3436333435202c3436333435207b,
0x2c7d2054564c3a3a657079745f65756c61765f706f72703a3a6b616572625f72657473756c635f656d656870617267202c3139333435202c3536333435207b,
0x2c7d20564c3a3a657079745f65756c61765f706f72703a3a6b616572625f72657473756c635f656d656870617267202c3239333435202c3239333435207b,
0x2c7d2054564c3a3a657079745f65756c61765f706f72703a3a6b616572625f72657473756c635f656d656870617267202c3931343435202c3339333435207b,
0x2c7d20564c3a3a657079745f65756c61765f706f72703a3a6b616572625f72657473756c635f656d656870617267202c3032343435202c3032343435207b,
0x2c7d2054564c3a3a657079745f65756c61765f706f72703a3a6b616572625f72657473756c635f656d656870617267202c3734343435202c3132343435207b,
0x2c7d20564c3a3a657079745f65756c61765f706f72703a3a6b616572625f72657473756c635f656d656870617267202c3834343435202c3834343435207b,
0x2c7d2054564c3a3a657079745f65756c61765f706f72703a3a6b616572625f72657473756c635f656d656870617267202c3537343435202c3934343435207b,
0x2c7d20564c3a3a657079745f65756c61765f706f72703a3a6b616572625f72657473756c635f656d656870617267202c3637343435202c3637343435207b,
0x2c7d2054564c3a3a657079745f65756c61765f706f72703a3a6b616572625f72657473756c635f656d656870617267202c3330353435202c3737343435207b,
0x2c7d20564c3a3a657079745f65756c61765f706f72703a3a6b616572625f72657473756c635f656d656870617267202c3430353435202c3430353435207b,
0x2c7d2054564c3a3a657079745f65756c61765f706f72703a3a6b616572625f72657473756c635f656d656870617267202c3133353435202c3530353435207b,
0x2c7d20564c3a3a657079745f65756c61765f706f72703a3a6b616572625f72657473756c635f656d656870617267202c3233353435202c3233353435207b,
0x2c7d2054564c3a3a657079745f65756c61765f706f72703a3a6b616572625f72657473756c635f656d656870617267202c3935353435202c3333353435207b,
0x2c7d20564c3a3a657079745f65756c61765f706f72703a3a6b616572625f72657473756c635f656d656870617267202c3036353435202c3036353435207b,
0x2c7d2054564c3a3a657079745f65756c61765f706f72703a3a6b616572625f72657473756c635f656d656870617267202c3738353435202c3136353435207b,
0x2c7d20564c3a3a657079745f65756c61765f706f72703a3a6b616572625f72657473756c635f656d656870617267202c3838353435202c3838353435207b,
0x2c7d2054564c3a3a657079745f65756c61765f706f72703a3a6b616572625f72657473756c635f656d656870617267202c3531363435202c3938353435207b,
0x2c7d20564c3a3a657079745f65756c61765f706f72703a3a6b616572625f72657473756c635f656d656870617267202c3631363435202c3631363435207b,
0x2c7d2054564c3a3a657079745f65756c61765f706f72703a3a6b616572625f72657473756c635f656d656870617267202c3334363435202c3731363435207b,
0x2c7d20564c3a3a657079745f65756c61765f706f72703a3a6b616572625f72657473756c635f656d656870617267202c3434363435202c3434363435207b,
0x2c7d2054564c3a3a657079745f65756c61765f706f72703a3a6b616572625f72657473756c635f656d656870617267202c3137363435202c3534363435207b,
0x2c7d20564c3a3a657079745f65756c61765f706f72703a3a6b616572625f72657473756c635f656d656870617267202c3237363435202c3237363435207b,
0x2c7d2054564c3a3a657079745f65756c61765f706f72703a3a6b616572625f72657473756c635f656d656870617267202c3939363435202c3337363435207b,
0x2c7d20564c3a3a657079745f65756c61765f706f72703a3a6b616572625f72657473756c635f656d656870617267202c3030373435202c3030373435207b,
0x2c7d2054564c3a3a657079745f65756c61765f706f72703a3a6b616572625f72657473756c635f656d656870617267202c3732373435202c3130373435207b,
0x2c7d20564c3a3a657079745f65756c61765f706f72703a3a6b616572625f72657473756c635f656d656870617267202c3832373435202c3832373435207b,
0x2c7d2054564c3a3a657079745f65756c61765f706f72703a3a6b616572625f72657473756c635f656d656870617267202c3535373435202c3932373435207b,
0x2c7d20564c3a3a657079745f65756c61765f706f72703a3a6b616572625f72657473756c635f656d656870617267202c3635373435202c3635373435207b,
0x2c7d2054564c3a3a657079745f65756c61765f706f72703a3a6b616572625f72657473756c635f656d656870617267202c3338373435202c3735373435207b,
0x2c7d20564c3a3a657079745f65756c61765f706f72703a3a6b616572625f72657473756c635f656d656870617267202c3438373435202c3438373435207b,
0x2c7d2054564c3a3a657079745f65756c61765f706f72703a3a6b616572625f72657473756c635f656d656870617267202c3131383435202c3538373435207b,
0x2c7d20564c3a3a657079745f65756c61765f706f72703a3a6b616572625f72657473756c635f656d656870617267202c3231383435202c3231383435207b,
0x2c7d2054564c3a3a657079745f65756c61765f706f72703a3a6b616572625f72657473756c635f656d656870617267202c3933383435202c3331383435207b,
0x2c7d20564c3a3a657079745f65756c61765f706f72703a3a6b616572625f72657473756c635f656d656870617267202c3034383435202c3034383435207b,
0x2c7d2054564c3a3a657079745f65756c61765f706f72703a3a6b616572625f72657473756c635f656d656870617267202c3736383435202c3134383435207b,
0x2c7d20564c3a3a657079745f65756c61765f706f72703a3a6b616572625f72657473756c635f656d656870617267202c3836383435202c3836383435207b,
0x2c7d2054564c3a3a657079745f65756c61765f706f72703a3a6b616572625f72657473756c635f656d656870617267202c3539383435202c3936383435207b,
0x2c7d20564c3a3a657079745f65756c61765f706f72703a3a6b616572625f72657473756c635f656d656870617267202c3639383435202c3639383435207b,
0x2c7d2054564c3a3a657079745f65756c61765f706f72703a3a6b616572625f72657473756c635f656d656870617267202c3332393435202c3739383435207b,
0x2c7d20564c3a3a657079745f65756c61765f706f72703a3a6b616572625f72657473756c635f656d656870617267202c3432393435202c3432393435207b,
0x2c7d2054564c3a3a657079745f65756c61765f706f72703a3a6b616572625f72657473756c635f656d656870617267202c3135393435202c3532393435207b,
0x2c7d20564c3a3a657079745f65756c61765f706f72703a3a6b616572625f72657473756c635f656d656870617267202c3235393435202c3235393435207b,
0x2c7d2054564c3a3a657079745f65756c61765f706f72703a3a6b616572625f72657473756c635f656d656870617267202c3937393435202c3335393435207b,
0x2c7d20564c3a3a657079745f65756c61765f706f72703a3a6b616572625f72657473756c635f656d656870617267202c3038393435202c3038393435207b,
0x2c7d2054564c3a3a657079745f65756c61765f706f72703a3a6b616572625f72657473756c635f656d656870617267202c3730303535202c3138393435207b,
0x2c7d20564c3a3a657079745f65756c61765f706f72703a3a6b616572625f72657473756c635f656d656870617267202c3830303535202c3830303535207b,
0x2c7d2054564c3a3a657079745f65756c61765f706f72703a3a6b616572625f72657473756c635f656d656870617267202c3533303535202c3930303535207b,
0x2c7d20564c3a3a657079745f65756c61765f706f72703a3a6b616572625f72657473756c635f656d656870617267202c3633303535202c3633303535207b,
0x2c7d2054564c3a3a657079745f65756c61765f706f72703a3a6b616572625f72657473756c635f656d656870617267202c3336303535202c3733303535207b,
0x2c7d20564c3a3a657079745f65756c61765f706f72703a3a6b616572625f72657473756c635f656d656870617267202c3436303535202c3436303535207b,
0x2c7d2054564c3a3a657079745f65756c61765f706f72703a3a6b616572625f72657473756c635f656d656870617267202c3139303535202c3536303535207b,
0x2c7d20564c3a3a657079745f65756c61765f706f72703a3a6b616572625f72657473756c635f656d656870617267202c3239303535202c3239303535207b,
0x2c7d2054564c3a3a657079745f65756c61765f706f72703a3a6b616572625f72657473756c635f656d656870617267202c3931313535202c3339303535207b,
0x2c7d20564c3a3a657079745f65756c61765f706f72703a3a6b616572625f72657473756c635f656d656870617267202c3032313535202c3032313535207b,
0x2c7d2054564c3a3a657079745f65756c61765f706f72703a3a6b616572625f72657473756c635f656d656870617267202c3734313535202c3132313535207b,
0x2c7d20564c3a3a657079745f65756c61765f706f72703a3a6b616572625f72657473756c635f656d656870617267202c3834313535202c3834313535207b,
0x2c7d2054564c3a3a657079745f65756c61765f706f72703a3a6b616572625f72657473756c635f656d656870617267202c3537313535202c3934313535207b,
0x2c7d20564c3a3a657079745f65756c61765f706f72703a3a6b616572625f72657473756c635f656d656870617267202c3637313535202c3637313535207b,
0x2c7d2054564c3a3a657079745f65756c61765f706f72703a3a6b616572625f72657473756c635f656d656870617267202c3330323535202c3737313535207b,
0x2c7d20563a3a657079745f65756c61765f706f72703a3a6b616572625f72657473756c635f656d656870617267202c3833323535202c3631323535207b,
0x2c7d20543a3a657079745f65756c61765f706f72703a3a6b616572625f72657473756c635f656d656870617267202c3139323535202c3334323535207b,
0x2c7d204c4f52544e4f433a3a657079745f65756c61765f706f72703a3a6b616572625f72657473756c635f656d656870617267202c3334333735202c3639323535207b,
0x2c7d20444e455458453a3a657079745f65756c61765f706f72703a3a6b616572625f72657473756c635f656d656870617267202c3638323436202c3638323436207b,
0x2c7d20444e455458453a3a657079745f65756c61765f706f72703a3a6b616572625f72657473756c635f656d656870617267202c3933303536202c3432303536207b,
0x2c7d20444e455458453a3a657079745f65756c61765f706f72703a3a6b616572625f72657473756c635f656d656870617267202c3137303536202c3635303536207b,
0x2c7d204c4f52544e4f433a3a657079745f65756c61765f706f72703a3a6b616572625f72657473756c635f656d656870617267202c3937323536202c3937323536207b,
0x2c7d20444e455458453a3a657079745f65756c61765f706f72703a3a6b616572625f72657473756c635f656d656870617267202c3933343536202c3833343536207b,
0x2c7d204c4f52544e4f433a3a657079745f65756c61765f706f72703a3a6b616572625f72657473756c635f656d656870617267202c3832353536202c3032353536207b,
0x2c7d204c4f52544e4f433a3a657079745f65756c61765f706f72703a3a6b616572625f72657473756c635f656d656870617267202c3133353536202c3932353536207b,
0x2c7d20444e455458453a3a657079745f65756c61765f706f72703a3a6b616572625f72657473756c635f656d656870617267202c3534303636202c3534303636207b,
0x2c7d20444e455458453a3a657079745f65756c61765f706f72703a3a6b616572625f72657473756c635f656d656870617267202c3237323636202c3237323636207b,
0x2c7d20444e455458453a3a657079745f65756c61765f706f72703a3a6b616572625f72657473756c635f656d656870617267202c3632343636202c3232343636207b,
0x2c7d20444e455458453a3a657079745f65756c61765f706f72703a3a6b616572625f72657473756c635f656d656870617267202c3939303836202c3739303836207b,
0x2c7d20444e455458453a3a657079745f65756c61765f706f72703a3a6b616572625f72657473756c635f656d656870617267202c3230313836202c3130313836207b,
0x2c7d20444e455458453a3a657079745f65756c61765f706f72703a3a6b616572625f72657473756c635f656d656870617267202c3131313836202c3830313836207b,
0x2c7d20444e455458453a3a657079745f65756c61765f706f72703a3a6b616572625f72657473756c635f656d656870617267202c3435313836202c3235313836207b,
0x2c7d20444e455458453a3a657079745f65756c61765f706f72703a3a6b616572625f72657473756c635f656d656870617267202c3935313836202c3935313836207b,
0x2c7d20444e455458453a3a657079745f65756c61765f706f72703a3a6b616572625f72657473756c635f656d656870617267202c3632333836202c3532333836207b,
0x2c7d204b52414d474e49434150533a3a657079745f65756c61765f706f72703a3a6b616572625f72657473756c635f656d656870617267202c3233363936202c3233363936207b,
0x2c7d20444e455458453a3a657079745f65756c61765f706f72703a3a6b616572625f72657473756c635f656d656870617267202c3333363936202c3333363936207b,
0x2c7d204b52414d474e49434150533a3a657079745f65756c61765f706f72703a3a6b616572625f72657473756c635f656d656870617267202c3433363936202c3433363936207b,
0x2c7d20444e455458453a3a657079745f65756c61765f706f72703a3a6b616572625f72657473756c635f656d656870617267202c3230373936202c3838363936207b,
0x2c7d20444e455458453a3a657079745f65756c61765f706f72703a3a6b616572625f72657473756c635f656d656870617267202c3136373936202c3935373936207b,
0x2c7d204b52414d474e49434150533a3a657079745f65756c61765f706f72703a3a6b616572625f72657473756c635f656d656870617267202c3236373936202c3236373936207b,
0x2c7d204b52414d474e49434150533a3a657079745f65756c61765f706f72703a3a6b616572625f72657473756c635f656d656870617267202c3031383936202c3830383936207b,
0x2c7d20444e455458453a3a657079745f65756c61765f706f72703a3a6b616572625f72657473756c635f656d656870617267202c3431383936202c3131383936207b,
0x2c7d204b52414d474e49434150533a3a657079745f65756c61765f706f72703a3a6b616572625f72657473756c635f656d656870617267202c3631383936202c3531383936207b,
0x2c7d20444e455458453a3a657079745f65756c61765f706f72703a3a6b616572625f72657473756c635f656d656870617267202c3831383936202c3731383936207b,
0x2c7d20444e45504552503a3a657079745f65756c61765f706f72703a3a6b616572625f72657473756c635f656d656870617267202c3132383936202c3132383936207b,
0x2c7d20444e455458453a3a657079745f65756c61765f706f72703a3a6b616572625f72657473756c635f656d656870617267202c3039383936202c3838383936207b,
0x2c7d20444e455458453a3a657079745f65756c61765f706f72703a3a6b616572625f72657473756c635f656d656870617267202c3133393936202c3732393936207b,
0x2c7d204b52414d474e49434150533a3a657079745f65756c61765f706f72703a3a6b616572625f72657473756c635f656d656870617267202c3233393936202c3233393936207b,
0x2c7d20444e455458453a3a657079745f65756c61765f706f72703a3a6b616572625f72657473756c635f656d656870617267202c3034393936202c3333393936207b,
0x2c7d20444e455458453a3a657079745f65756c61765f706f72703a3a6b616572625f72657473756c635f656d656870617267202c3330303037202c3330303037207b,
0x2c7d20444e455458453a3a657079745f65756c61765f706f72703a3a6b616572625f72657473756c635f656d656870617267202c3731303037202c3631303037207b,
0x2c7d204b52414d474e49434150533a3a657079745f65756c61765f706f72703a3a6b616572625f72657473756c635f656d656870617267202c3831303037202c3831303037207b,
0x2c7d204b52414d474e49434150533a3a657079745f65756c61765f706f72703a3a6b616572625f72657473756c635f656d656870617267202c3936303037202c3736303037207b,
0x2c7d20444e455458453a3a657079745f65756c61765f706f72703a3a6b616572625f72657473756c635f656d656870617267202c3837303037202c3037303037207b,
0x2c7d204b52414d474e49434150533a3a657079745f65756c61765f706f72703a3a6b616572625f72657473756c635f656d656870617267202c3038303037202c3937303037207b,
0x2c7d20444e45504552503a3a657079745f65756c61765f706f72703a3a6b616572625f72657473756c635f656d656870617267202c3338303037202c3238303037207b,
0x2c7d20444e455458453a3a657079745f65756c61765f706f72703a3a6b616572625f72657473756c635f656d656870617267202c3239303037202c3039303037207b,
0x2c7d204b52414d474e49434150533a3a657079745f65756c61765f706f72703a3a6b616572625f72657473756c635f656d656870617267202c3039313037202c3838313037207b,
0x2c7d20444e455458453a3a657079745f65756c61765f706f72703a3a6b616572625f72657473756c635f656d656870617267202c3339313037202c3139313037207b,
0x2c7d204b52414d474e49434150533a3a657079745f65756c61765f706f72703a3a6b616572625f72657473756c635f656d656870617267202c3539313037202c3439313037207b,
0x2c7d20444e455458453a3a657079745f65756c61765f706f72703a3a6b616572625f72657473756c635f656d656870617267202c3639313037202c3639313037207b,
0x2c7d204b52414d474e49434150533a3a657079745f65756c61765f706f72703a3a6b616572625f72657473756c635f656d656870617267202c3739313037202c3739313037207b,
0x2c7d20444e455458453a3a657079745f65756c61765f706f72703a3a6b616572625f72657473756c635f656d656870617267202c3939313037202c3839313037207b,
0x2c7d20444e455458453a3a657079745f65756c61765f706f72703a3a6b616572625f72657473756c635f656d656870617267202c3630323037202c3630323037207b,
0x2c7d20444e455458453a3a657079745f65756c61765f706f72703a3a6b616572625f72657473756c635f656d656870617267202c3736333037202c3736333037207b,
0x2c7d204b52414d474e49434150533a3a657079745f65756c61765f706f72703a3a6b616572625f72657473756c635f656d656870617267202c3037333037202c3836333037207b,
0x2c7d20444e455458453a3a657079745f65756c61765f706f72703a3a6b616572625f72657473756c635f656d656870617267202c3837333037202c3137333037207b,
0x2c7d20444e455458453a3a657079745f65756c61765f706f72703a3a6b616572625f72657473756c635f656d656870617267202c3130343037202c3030343037207b,
0x2c7d204b52414d474e49434150533a3a657079745f65756c61765f706f72703a3a6b616572625f72657473756c635f656d656870617267202c3330343037202c3230343037207b,
0x2c7d20444e455458453a3a657079745f65756c61765f706f72703a3a6b616572625f72657473756c635f656d656870617267202c3036343037202c3036343037207b,
0x2c7d20444e455458453a3a657079745f65756c61765f706f72703a3a6b616572625f72657473756c635f656d656870617267202c3236343037202c3236343037207b,
0x2c7d204b52414d474e49434150533a3a657079745f65756c61765f706f72703a3a6b616572625f72657473756c635f656d656870617267202c3336343037202c3336343037207b,
0x2c7d20444e455458453a3a657079745f65756c61765f706f72703a3a6b616572625f72657473756c635f656d656870617267202c3436343037202c3436343037207b,
0x2c7d204b52414d474e49434150533a3a657079745f65756c61765f706f72703a3a6b616572625f72657473756c635f656d656870617267202c3836343037202c3536343037207b,
0x2c7d204b52414d474e49434150533a3a657079745f65756c61765f706f72703a3a6b616572625f72657473756c635f656d656870617267202c3237343037202c3137343037207b,
0x2c7d204b52414d474e49434150533a3a657079745f65756c61765f706f72703a3a6b616572625f72657473756c635f656d656870617267202c3737343037202c3537343037207b,
0x2c7d20444e455458453a3a657079745f65756c61765f706f72703a3a6b616572625f72657473756c635f656d656870617267202c3738343037202c3738343037207b,
0x2c7d204b52414d474e49434150533a3a657079745f65756c61765f706f72703a3a6b616572625f72657473756c635f656d656870617267202c3939343037202c3839343037207b,
0x2c7d20444e455458453a3a657079745f65756c61765f706f72703a3a6b616572625f72657473756c635f656d656870617267202c3830353037202c3230353037207b,
0x2c7d20444e455458453a3a657079745f65756c61765f706f72703a3a6b616572625f72657473756c635f656d656870617267202c3631353037202c3231353037207b,
0x2c7d204b52414d474e49434150533a3a657079745f65756c61765f706f72703a3a6b616572625f72657473756c635f656d656870617267202c3131373037202c3930373037207b,
0x2c7d20444e455458453a3a657079745f65756c61765f706f72703a3a6b616572625f72657473756c635f656d656870617267202c3931373037202c3231373037207b,
0x2c7d204b52414d474e49434150533a3a657079745f65756c61765f706f72703a3a6b616572625f72657473756c635f656d656870617267202c3132373037202c3032373037207b,
0x2c7d20444e455458453a3a657079745f65756c61765f706f72703a3a6b616572625f72657473756c635f656d656870617267202c3432373037202c3232373037207b,
0x2c7d204b52414d474e49434150533a3a657079745f65756c61765f706f72703a3a6b616572625f72657473756c635f656d656870617267202c3532373037202c3532373037207b,
0x2c7d20444e455458453a3a657079745f65756c61765f706f72703a3a6b616572625f72657473756c635f656d656870617267202c3632373037202c3632373037207b,
0x2c7d20444e455458453a3a657079745f65756c61765f706f72703a3a6b616572625f72657473756c635f656d656870617267202c3233383037202c3233383037207b,
0x2c7d204b52414d474e49434150533a3a657079745f65756c61765f706f72703a3a6b616572625f72657473756c635f656d656870617267202c3433383037202c3333383037207b,
0x2c7d20444e455458453a3a657079745f65756c61765f706f72703a3a6b616572625f72657473756c635f656d656870617267202c3034383037202c3533383037207b,
0x2c7d204b52414d474e49434150533a3a657079745f65756c61765f706f72703a3a6b616572625f72657473756c635f656d656870617267202c3134383037202c3134383037207b,
0x2c7d20444e455458453a3a657079745f65756c61765f706f72703a3a6b616572625f72657473756c635f656d656870617267202c3234383037202c3234383037207b,
0x2c7d204b52414d474e49434150533a3a657079745f65756c61765f706f72703a3a6b616572625f72657473756c635f656d656870617267202c3434383037202c3334383037207b,
0x2c7d20444e455458453a3a657079745f65756c61765f706f72703a3a6b616572625f72657473756c635f656d656870617267202c3534383037202c3534383037207b,
0x2c7d204b52414d474e49434150533a3a657079745f65756c61765f706f72703a3a6b616572625f72657473756c635f656d656870617267202c3634383037202c3634383037207b,
0x2c7d20444e455458453a3a657079745f65756c61765f706f72703a3a6b616572625f72657473756c635f656d656870617267202c3834383037202c3734383037207b,
0x2c7d204b52414d474e49434150533a3a657079745f65756c61765f706f72703a3a6b616572625f72657473756c635f656d656870617267202c3934383037202c3934383037207b,
0x2c7d20444e455458453a3a657079745f65756c61765f706f72703a3a6b616572625f72657473756c635f656d656870617267202c3135383037202c3035383037207b,
0x2c7d20444e455458453a3a657079745f65756c61765f706f72703a3a6b616572625f72657473756c635f656d656870617267202c3738303137202c3738303137207b,
0x2c7d204b52414d474e49434150533a3a657079745f65756c61765f706f72703a3a6b616572625f72657473756c635f656d656870617267202c3938303137202c3838303137207b,
0x2c7d20444e455458453a3a657079745f65756c61765f706f72703a3a6b616572625f72657473756c635f656d656870617267202c3339303137202c3039303137207b,
0x2c7d204b52414d474e49434150533a3a657079745f65756c61765f706f72703a3a6b616572625f72657473756c635f656d656870617267202c3939303137202c3639303137207b,
0x2c7d20444e455458453a3a657079745f65756c61765f706f72703a3a6b616572625f72657473756c635f656d656870617267202c3130313137202c3030313137207b,
0x2c7d204b52414d474e49434150533a3a657079745f65756c61765f706f72703a3a6b616572625f72657473756c635f656d656870617267202c3230313137202c3230313137207b,
0x2c7d20444e455458453a3a657079745f65756c61765f706f72703a3a6b616572625f72657473756c635f656d656870617267202c3430313137202c3330313137207b,
0x2c7d20444e455458453a3a657079745f65756c61765f706f72703a3a6b616572625f72657473756c635f656d656870617267202c3333313137202c3233313137207b,
0x2c7d204b52414d474e49434150533a3a657079745f65756c61765f706f72703a3a6b616572625f72657473756c635f656d656870617267202c3831323137202c3631323137207b,
0x2c7d20444e455458453a3a657079745f65756c61765f706f72703a3a6b616572625f72657473756c635f656d656870617267202c3632323137202c3931323137207b,
0x2c7d204b52414d474e49434150533a3a657079745f65756c61765f706f72703a3a6b616572625f72657473756c635f656d656870617267202c3832323137202c3732323137207b,
0x2c7d20444e455458453a3a657079745f65756c61765f706f72703a3a6b616572625f72657473756c635f656d656870617267202c3932323137202c3932323137207b,
0x2c7d204b52414d474e49434150533a3a657079745f65756c61765f706f72703a3a6b616572625f72657473756c635f656d656870617267202c3033323137202c3033323137207b,
0x2c7d20444e455458453a3a657079745f65756c61765f706f72703a3a6b616572625f72657473756c635f656d656870617267202c3233323137202c3133323137207b,
0x2c7d20444e455458453a3a657079745f65756c61765f706f72703a3a6b616572625f72657473756c635f656d656870617267202c3933333137202c3933333137207b,
0x2c7d204b52414d474e49434150533a3a657079745f65756c61765f706f72703a3a6b616572625f72657473756c635f656d656870617267202c3034333137202c3034333137207b,
0x2c7d20444e455458453a3a657079745f65756c61765f706f72703a3a6b616572625f72657473756c635f656d656870617267202c3134333137202c3134333137207b,
0x2c7d204b52414d474e49434150533a3a657079745f65756c61765f706f72703a3a6b616572625f72657473756c635f656d656870617267202c3334333137202c3234333137207b,
0x2c7d20444e455458453a3a657079745f65756c61765f706f72703a3a6b616572625f72657473756c635f656d656870617267202c3934333137202c3434333137207b,
0x2c7d204b52414d474e49434150533a3a657079745f65756c61765f706f72703a3a6b616572625f72657473756c635f656d656870617267202c3035333137202c3035333137207b,
0x2c7d20444e455458453a3a657079745f65756c61765f706f72703a3a6b616572625f72657473756c635f656d656870617267202c3135333137202c3135333137207b,
0x2c7d20444e455458453a3a657079745f65756c61765f706f72703a3a6b616572625f72657473756c635f656d656870617267202c3535343137202c3335343137207b,
0x2c7d204b52414d474e49434150533a3a657079745f65756c61765f706f72703a3a6b616572625f72657473756c635f656d656870617267202c3735343137202c3635343137207b,
0x2c7d20444e455458453a3a657079745f65756c61765f706f72703a3a6b616572625f72657473756c635f656d656870617267202c3136343137202c3835343137207b,
0x2c7d204b52414d474e49434150533a3a657079745f65756c61765f706f72703a3a6b616572625f72657473756c635f656d656870617267202c3236343137202c3236343137207b,
0x2c7d20444e455458453a3a657079745f65756c61765f706f72703a3a6b616572625f72657473756c635f656d656870617267202c3736343137202c3336343137207b,
0x2c7d204b52414d474e49434150533a3a657079745f65756c61765f706f72703a3a6b616572625f72657473756c635f656d656870617267202c3135373237202c3135373237207b,
0x2c7d20444e455458453a3a657079745f65756c61765f706f72703a3a6b616572625f72657473756c635f656d656870617267202c3835373237202c3235373237207b,
0x2c7d20444e455458453a3a657079745f65756c61765f706f72703a3a6b616572625f72657473756c635f656d656870617267202c3536373237202c3036373237207b,
0x2c7d204b52414d474e49434150533a3a657079745f65756c61765f706f72703a3a6b616572625f72657473756c635f656d656870617267202c3636373237202c3636373237207b,
0x2c7d20444e455458453a3a657079745f65756c61765f706f72703a3a6b616572625f72657473756c635f656d656870617267202c3736373237202c3736373237207b,
0x2c7d20444e455458453a3a657079745f65756c61765f706f72703a3a6b616572625f72657473756c635f656d656870617267202c3137383237202c3035383237207b,
0x2c7d204b52414d474e49434150533a3a657079745f65756c61765f706f72703a3a6b616572625f72657473756c635f656d656870617267202c3337383237202c3337383237207b,
0x2c7d20444e455458453a3a657079745f65756c61765f706f72703a3a6b616572625f72657473756c635f656d656870617267202c3038383237202c3437383237207b,
0x2c7d204b52414d474e49434150533a3a657079745f65756c61765f706f72703a3a6b616572625f72657473756c635f656d656870617267202c3138383237202c3138383237207b,
0x2c7d20444e455458453a3a657079745f65756c61765f706f72703a3a6b616572625f72657473756c635f656d656870617267202c3338383237202c3238383237207b,
0x2c7d204b52414d474e49434150533a3a657079745f65756c61765f706f72703a3a6b616572625f72657473756c635f656d656870617267202c3438383237202c3438383237207b,
0x2c7d20444e455458453a3a657079745f65756c61765f706f72703a3a6b616572625f72657473756c635f656d656870617267202c3638383237202c3538383237207b,
0x2c7d20444e455458453a3a657079745f65756c61765f706f72703a3a6b616572625f72657473756c635f656d656870617267202c3631393239202c3231393239207b,
0x2c7d20444e455458453a3a657079745f65756c61765f706f72703a3a6b616572625f72657473756c635f656d656870617267202c3238393239202c3637393239207b,
0x2c7d204b52414d474e49434150533a3a657079745f65756c61765f706f72703a3a6b616572625f72657473756c635f656d656870617267202c3837303439202c3333303439207b,
0x2c7d20444e455458453a3a657079745f65756c61765f706f72703a3a6b616572625f72657473756c635f656d656870617267202c3839303439202c3539303439207b,
0x2c7d20444e455458453a3a657079745f65756c61765f706f72703a3a6b616572625f72657473756c635f656d656870617267202c323238333131202c313238333131207b,
0x2c7d204c4f52544e4f433a3a657079745f65756c61765f706f72703a3a6b616572625f72657473756c635f656d656870617267202c373238333131202c343238333131207b,
0x2c7d20444e455458453a3a657079745f65756c61765f706f72703a3a6b616572625f72657473756c635f656d656870617267202c313431393131202c313431393131207b,
0x2c7d204b52414d474e49434150533a3a657079745f65756c61765f706f72703a3a6b616572625f72657473756c635f656d656870617267202c323431393131202c323431393131207b,
0x2c7d20444e455458453a3a657079745f65756c61765f706f72703a3a6b616572625f72657473756c635f656d656870617267202c353431393131202c333431393131207b,
0x2c7d204b52414d474e49434150533a3a657079745f65756c61765f706f72703a3a6b616572625f72657473756c635f656d656870617267202c393431393131202c393431393131207b,
0x2c7d20444e455458453a3a657079745f65756c61765f706f72703a3a6b616572625f72657473756c635f656d656870617267202c343531393131202c303531393131207b,
0x2c7d204c4f52544e4f433a3a657079745f65756c61765f706f72703a3a6b616572625f72657473756c635f656d656870617267202c323631393131202c353531393131207b,
0x2c7d20444e455458453a3a657079745f65756c61765f706f72703a3a6b616572625f72657473756c635f656d656870617267202c303731393131202c333631393131207b,
0x2c7d20444e455458453a3a657079745f65756c61765f706f72703a3a6b616572625f72657473756c635f656d656870617267202c393731393131202c333731393131207b,
0x2c7d20444e455458453a3a657079745f65756c61765f706f72703a3a6b616572625f72657473756c635f656d656870617267202c333132393131202c303132393131207b,
0x2c7d20444e455458453a3a657079745f65756c61765f706f72703a3a6b616572625f72657473756c635f656d656870617267202c343633393131202c323633393131207b,
0x2c7d20444e455458453a3a657079745f65756c61765f706f72703a3a6b616572625f72657473756c635f656d656870617267202c383933313231202c343433313231207b,
0x2c7d20444e455458453a3a657079745f65756c61765f706f72703a3a6b616572625f72657473756c635f656d656870617267202c323534313231202c333034313231207b,
0x2c7d20444e455458453a3a657079745f65756c61765f706f72703a3a6b616572625f72657473756c635f656d656870617267202c313634313231202c313634313231207b]

/-- src/u5e/props/grapheme_cluster_break_data.hpp lines 1281-1327. -/
def rawGcbHdr5 : List Nat := [
0x2c7d20444e455458453a3a657079745f65756c61765f706f72703a3a6b616572625f72657473756c635f656d656870617267202c363734313231202c363734313231207b,
0x2c7d20444e455458453a3a657079745f65756c61765f706f72703a3a6b616572625f72657473756c635f656d656870617267202c333035313231202c393934313231207b,
0x2c7d20444e455458453a3a657079745f65756c61765f706f72703a3a6b616572625f72657473756c635f656d656870617267202c393135313231202c353035313231207b,
0x2c7d20444e455458453a3a657079745f65756c61765f706f72703a3a6b616572625f72657473756c635f656d656870617267202c363838323231202c303838323231207b,
0x2c7d20444e455458453a3a657079745f65756c61765f706f72703a3a6b616572625f72657473756c635f656d656870617267202c343039323231202c383838323231207b,
0x2c7d20444e455458453a3a657079745f65756c61765f706f72703a3a6b616572625f72657473756c635f656d656870617267202c333139323231202c373039323231207b,
0x2c7d20444e455458453a3a657079745f65756c61765f706f72703a3a6b616572625f72657473756c635f656d656870617267202c363139323231202c353139323231207b,
0x2c7d20444e455458453a3a657079745f65756c61765f706f72703a3a6b616572625f72657473756c635f656d656870617267202c323239323231202c383139323231207b,
0x2c7d20444e455458453a3a657079745f65756c61765f706f72703a3a6b616572625f72657473756c635f656d656870617267202c323431353231202c363331353231207b,
0x2c7d20444e455458453a3a657079745f65756c61765f706f72703a3a6b616572625f72657473756c635f656d656870617267202c383532353231202c323532353231207b,
0x2c7d20524f54414349444e495f4c414e4f494745523a3a657079745f65756c61765f706f72703a3a6b616572625f72657473756c635f656d656870617267202c373834373231202c323634373231207b,
0x2c7d20455341425f453a3a657079745f65756c61765f706f72703a3a6b616572625f72657473756c635f656d656870617267202c373738373231202c373738373231207b,
0x2c7d20455341425f453a3a657079745f65756c61765f706f72703a3a6b616572625f72657473756c635f656d656870617267202c303439373231202c393339373231207b,
0x2c7d20455341425f453a3a657079745f65756c61765f706f72703a3a6b616572625f72657473756c635f656d656870617267202c373439373231202c363439373231207b,
0x2c7d205245494649444f4d5f453a3a657079745f65756c61765f706f72703a3a6b616572625f72657473756c635f656d656870617267202c393939373231202c353939373231207b,
0x2c7d20455341425f453a3a657079745f65756c61765f706f72703a3a6b616572625f72657473756c635f656d656870617267202c373630383231202c363630383231207b,
0x2c7d20455341425f453a3a657079745f65756c61765f706f72703a3a6b616572625f72657473756c635f656d656870617267202c303830383231202c303730383231207b,
0x2c7d205a41475f455341425f453a3a657079745f65756c61765f706f72703a3a6b616572625f72657473756c635f656d656870617267202c353031383231202c323031383231207b,
0x2c7d20455341425f453a3a657079745f65756c61765f706f72703a3a6b616572625f72657473756c635f656d656870617267202c303131383231202c303131383231207b,
0x2c7d20455341425f453a3a657079745f65756c61765f706f72703a3a6b616572625f72657473756c635f656d656870617267202c303231383231202c323131383231207b,
0x2c7d20455341425f453a3a657079745f65756c61765f706f72703a3a6b616572625f72657473756c635f656d656870617267202c343231383231202c343231383231207b,
0x2c7d20455341425f453a3a657079745f65756c61765f706f72703a3a6b616572625f72657473756c635f656d656870617267202c313331383231202c393231383231207b,
0x2c7d20455341425f453a3a657079745f65756c61765f706f72703a3a6b616572625f72657473756c635f656d656870617267202c353331383231202c333331383231207b,
0x2c7d204a575a5f52455446415f45554c473a3a657079745f65756c61765f706f72703a3a6b616572625f72657473756c635f656d656870617267202c393331383231202c393331383231207b,
0x2c7d20455341425f453a3a657079745f65756c61765f706f72703a3a6b616572625f72657473756c635f656d656870617267202c303731383231202c303731383231207b,
0x2c7d20455341425f453a3a657079745f65756c61765f706f72703a3a6b616572625f72657473756c635f656d656870617267202c333733383231202c333733383231207b,
0x2c7d20455341425f453a3a657079745f65756c61765f706f72703a3a6b616572625f72657473756c635f656d656870617267202c383733383231202c383733383231207b,
0x2c7d20455341425f453a3a657079745f65756c61765f706f72703a3a6b616572625f72657473756c635f656d656870617267202c303034383231202c303034383231207b,
0x2c7d20455341425f453a3a657079745f65756c61765f706f72703a3a6b616572625f72657473756c635f656d656870617267202c363034383231202c353034383231207b,
0x2c7d204a575a5f52455446415f45554c473a3a657079745f65756c61765f706f72703a3a6b616572625f72657473756c635f656d656870617267202c383834383231202c383834383231207b,
0x2c7d20455341425f453a3a657079745f65756c61765f706f72703a3a6b616572625f72657473756c635f656d656870617267202c333835383231202c313835383231207b,
0x2c7d20455341425f453a3a657079745f65756c61765f706f72703a3a6b616572625f72657473756c635f656d656870617267202c313935383231202c373835383231207b,
0x2c7d20455341425f453a3a657079745f65756c61765f706f72703a3a6b616572625f72657473756c635f656d656870617267202c353736383231202c353736383231207b,
0x2c7d20455341425f453a3a657079745f65756c61765f706f72703a3a6b616572625f72657473756c635f656d656870617267202c343936383231202c323936383231207b,
0x2c7d20455341425f453a3a657079745f65756c61765f706f72703a3a6b616572625f72657473756c635f656d656870617267202c343037383231202c343037383231207b,
0x2c7d20455341425f453a3a657079745f65756c61765f706f72703a3a6b616572625f72657473756c635f656d656870617267202c303133393231202c343033393231207b,
0x2c7d20455341425f453a3a657079745f65756c61765f706f72703a3a6b616572625f72657473756c635f656d656870617267202c383133393231202c383133393231207b,
0x2c7d20455341425f453a3a657079745f65756c61765f706f72703a3a6b616572625f72657473756c635f656d656870617267202c383233393231202c383233393231207b,
0x2c7d20455341425f453a3a657079745f65756c61765f706f72703a3a6b616572625f72657473756c635f656d656870617267202c373333393231202c313333393231207b,
0x2c7d20455341425f453a3a657079745f65756c61765f706f72703a3a6b616572625f72657473756c635f656d656870617267202c323433393231202c303433393231207b,
0x2c7d204c4f52544e4f433a3a657079745f65756c61765f706f72703a3a6b616572625f72657473756c635f656d656870617267202c343035373139202c343035373139207b,
0x2c7d204c4f52544e4f433a3a657079745f65756c61765f706f72703a3a6b616572625f72657473756c635f656d656870617267202c353035373139202c353035373139207b,
0x2c7d204c4f52544e4f433a3a657079745f65756c61765f706f72703a3a6b616572625f72657473756c635f656d656870617267202c353335373139202c363035373139207b,
0x2c7d20444e455458453a3a657079745f65756c61765f706f72703a3a6b616572625f72657473756c635f656d656870617267202c313336373139202c363335373139207b,
0x2c7d204c4f52544e4f433a3a657079745f65756c61765f706f72703a3a6b616572625f72657473756c635f656d656870617267202c393537373139202c323336373139207b,
0x2c7d20444e455458453a3a657079745f65756c61765f706f72703a3a6b616572625f72657473756c635f656d656870617267202c393939373139202c303637373139207b,
0x2c7d204c4f52544e4f433a3a657079745f65756c61765f706f72703a3a6b616572625f72657473756c635f656d656870617267202c393935313239202c303030383139207b]

/-- The lines of src/u5e/props/grapheme_cluster_break_data.hpp. -/
@[irreducible] def gcbHeaderRaw : List Nat :=
  rawGcbHdr0 ++ (rawGcbHdr1 ++ (rawGcbHdr2 ++ (rawGcbHdr3 ++ (rawGcbHdr4 ++ (rawGcbHdr5)))))

end U5e.Data
