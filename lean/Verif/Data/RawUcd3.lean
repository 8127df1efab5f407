set_option maxRecDepth 10000
/-! GENERATED by tools/gen_raw.py: the octets of src/u5e/props/UnicodeData.txt, one number per line (little-endian). -/
namespace U5e.Data

/-- src/u5e/props/UnicodeData.txt lines 11521-11776. -/
def rawUcd45 : List Nat := [
0x3b3b3b3b3b4e3b3b3b3b3534303020343530302030353030203e6572617571733c3b4e4f3b303b6f533b4e474953205049485352454e545241503b30353233,
0x3b3b3b3b3b4e3b31323b3b3b313330302032333030203e656c637269633c3b4e4f3b303b6f4e3b454e4f2059544e455754205245424d554e2044454c435249433b31353233,
0x3b3b3b3b3b4e3b32323b3b3b323330302032333030203e656c637269633c3b4e4f3b303b6f4e3b4f57542059544e455754205245424d554e2044454c435249433b32353233,
0x3b3b3b3b3b4e3b33323b3b3b333330302032333030203e656c637269633c3b4e4f3b303b6f4e3b45455248542059544e455754205245424d554e2044454c435249433b33353233,
0x3b3b3b3b3b4e3b34323b3b3b343330302032333030203e656c637269633c3b4e4f3b303b6f4e3b52554f462059544e455754205245424d554e2044454c435249433b34353233,
0x3b3b3b3b3b4e3b35323b3b3b353330302032333030203e656c637269633c3b4e4f3b303b6f4e3b455649462059544e455754205245424d554e2044454c435249433b35353233,
0x3b3b3b3b3b4e3b36323b3b3b363330302032333030203e656c637269633c3b4e4f3b303b6f4e3b5849532059544e455754205245424d554e2044454c435249433b36353233,
0x3b3b3b3b3b4e3b37323b3b3b373330302032333030203e656c637269633c3b4e4f3b303b6f4e3b4e455645532059544e455754205245424d554e2044454c435249433b37353233,
0x3b3b3b3b3b4e3b38323b3b3b383330302032333030203e656c637269633c3b4e4f3b303b6f4e3b54484749452059544e455754205245424d554e2044454c435249433b38353233,
0x3b3b3b3b3b4e3b39323b3b3b393330302032333030203e656c637269633c3b4e4f3b303b6f4e3b454e494e2059544e455754205245424d554e2044454c435249433b39353233,
0x3b3b3b3b3b4e3b30333b3b3b303330302033333030203e656c637269633c3b4e4f3b303b6f4e3b595452494854205245424d554e2044454c435249433b41353233,
0x3b3b3b3b3b4e3b31333b3b3b313330302033333030203e656c637269633c3b4e4f3b303b6f4e3b454e4f20595452494854205245424d554e2044454c435249433b42353233,
0x3b3b3b3b3b4e3b32333b3b3b323330302033333030203e656c637269633c3b4e4f3b303b6f4e3b4f575420595452494854205245424d554e2044454c435249433b43353233,
0x3b3b3b3b3b4e3b33333b3b3b333330302033333030203e656c637269633c3b4e4f3b303b6f4e3b454552485420595452494854205245424d554e2044454c435249433b44353233,
0x3b3b3b3b3b4e3b34333b3b3b343330302033333030203e656c637269633c3b4e4f3b303b6f4e3b52554f4620595452494854205245424d554e2044454c435249433b45353233,
0x3b3b3b3b3b4e3b35333b3b3b353330302033333030203e656c637269633c3b4e4f3b303b6f4e3b4556494620595452494854205245424d554e2044454c435249433b46353233,
0x3b3b3b3b474f45594947204c55474e41482044454c435249433b4e3b3b3b3b30303131203e656c637269633c3b4c3b303b6f533b4b4f4559494b204c55474e41482044454c435249433b30363233,
0x3b3b3b3b3b4e3b3b3b3b32303131203e656c637269633c3b4c3b303b6f533b4e5545494e204c55474e41482044454c435249433b31363233,
0x3b3b3b3b445545474944204c55474e41482044454c435249433b4e3b3b3b3b33303131203e656c637269633c3b4c3b303b6f533b5455454b4954204c55474e41482044454c435249433b32363233,
0x3b3b3b3b4c5545494c204c55474e41482044454c435249433b4e3b3b3b3b35303131203e656c637269633c3b4c3b303b6f533b4c55454952204c55474e41482044454c435249433b33363233,
0x3b3b3b3b3b4e3b3b3b3b36303131203e656c637269633c3b4c3b303b6f533b4d5545494d204c55474e41482044454c435249433b34363233,
0x3b3b3b3b4255454942204c55474e41482044454c435249433b4e3b3b3b3b37303131203e656c637269633c3b4c3b303b6f533b5055454950204c55474e41482044454c435249433b35363233,
0x3b3b3b3b3b4e3b3b3b3b39303131203e656c637269633c3b4c3b303b6f533b534f4953204c55474e41482044454c435249433b36363233,
0x3b3b3b3b3b4e3b3b3b3b42303131203e656c637269633c3b4c3b303b6f533b474e554549204c55474e41482044454c435249433b37363233,
0x3b3b3b3b4a5545494a204c55474e41482044454c435249433b4e3b3b3b3b43303131203e656c637269633c3b4c3b303b6f533b4355454943204c55474e41482044454c435249433b38363233,
0x3b3b3b3b4355454943204c55474e41482044454c435249433b4e3b3b3b3b45303131203e656c637269633c3b4c3b303b6f533b48435545494843204c55474e41482044454c435249433b39363233,
0x3b3b3b3b4b4f4559494b204c55474e41482044454c435249433b4e3b3b3b3b46303131203e656c637269633c3b4c3b303b6f533b484b554549484b204c55474e41482044454c435249433b41363233,
0x3b3b3b3b5455454954204c55474e41482044454c435249433b4e3b3b3b3b30313131203e656c637269633c3b4c3b303b6f533b48545545494854204c55474e41482044454c435249433b42363233,
0x3b3b3b3b5055454950204c55474e41482044454c435249433b4e3b3b3b3b31313131203e656c637269633c3b4c3b303b6f533b48505545494850204c55474e41482044454c435249433b43363233,
0x3b3b3b3b3b4e3b3b3b3b32313131203e656c637269633c3b4c3b303b6f533b4855454948204c55474e41482044454c435249433b44363233,
0x3b3b3b3b4147204c55474e41482044454c435249433b4e3b3b3b3b313631312030303131203e656c637269633c3b4c3b303b6f533b41204b4f4559494b204c55474e41482044454c435249433b45363233,
0x3b3b3b3b414e204c55474e41482044454c435249433b4e3b3b3b3b313631312032303131203e656c637269633c3b4c3b303b6f533b41204e5545494e204c55474e41482044454c435249433b46363233,
0x3b3b3b3b4144204c55474e41482044454c435249433b4e3b3b3b3b313631312033303131203e656c637269633c3b4c3b303b6f533b41205455454b4954204c55474e41482044454c435249433b30373233,
0x3b3b3b3b414c204c55474e41482044454c435249433b4e3b3b3b3b313631312035303131203e656c637269633c3b4c3b303b6f533b41204c55454952204c55474e41482044454c435249433b31373233,
0x3b3b3b3b414d204c55474e41482044454c435249433b4e3b3b3b3b313631312036303131203e656c637269633c3b4c3b303b6f533b41204d5545494d204c55474e41482044454c435249433b32373233,
0x3b3b3b3b4142204c55474e41482044454c435249433b4e3b3b3b3b313631312037303131203e656c637269633c3b4c3b303b6f533b41205055454950204c55474e41482044454c435249433b33373233,
0x3b3b3b3b4153204c55474e41482044454c435249433b4e3b3b3b3b313631312039303131203e656c637269633c3b4c3b303b6f533b4120534f4953204c55474e41482044454c435249433b34373233,
0x3b3b3b3b41204c55474e41482044454c435249433b4e3b3b3b3b313631312042303131203e656c637269633c3b4c3b303b6f533b4120474e554549204c55474e41482044454c435249433b35373233,
0x3b3b3b3b414a204c55474e41482044454c435249433b4e3b3b3b3b313631312043303131203e656c637269633c3b4c3b303b6f533b41204355454943204c55474e41482044454c435249433b36373233,
0x3b3b3b3b4143204c55474e41482044454c435249433b4e3b3b3b3b313631312045303131203e656c637269633c3b4c3b303b6f533b412048435545494843204c55474e41482044454c435249433b37373233,
0x3b3b3b3b414b204c55474e41482044454c435249433b4e3b3b3b3b313631312046303131203e656c637269633c3b4c3b303b6f533b4120484b554549484b204c55474e41482044454c435249433b38373233,
0x3b3b3b3b4154204c55474e41482044454c435249433b4e3b3b3b3b313631312030313131203e656c637269633c3b4c3b303b6f533b412048545545494854204c55474e41482044454c435249433b39373233,
0x3b3b3b3b4150204c55474e41482044454c435249433b4e3b3b3b3b313631312031313131203e656c637269633c3b4c3b303b6f533b412048505545494850204c55474e41482044454c435249433b41373233,
0x3b3b3b3b4148204c55474e41482044454c435249433b4e3b3b3b3b313631312032313131203e656c637269633c3b4c3b303b6f533b41204855454948204c55474e41482044454c435249433b42373233,
0x3b3b3b3b3b4e3b3b3b3b393631312030303131203742313120313631312045303131203e656c637269633c3b4e4f3b303b6f533b4f4b4d41484320524554434152414843204e4145524f4b2044454c435249433b43373233,
0x3b3b3b3b3b4e3b3b3b3b34373131204230313120453631312043303131203e656c637269633c3b4e4f3b303b6f533b495545554a20524554434152414843204e4145524f4b2044454c435249433b44373233,
0x3b3b3b3b3b4e3b3b3b3b453631312042303131203e656c637269633c3b4e4f3b303b6f533b5520474e554549204c55474e41482044454c435249433b45373233,
0x3b3b3b3b3b4e3b3b3b3b3b4c3b303b6f533b4c4f424d595320445241444e415453204e4145524f4b3b46373233,
0x3b3b3b3b3b4e3b313b3b3b30304534203e656c637269633c3b4c3b303b6f4e3b454e4f2048504152474f4544492044454c435249433b30383233,
0x3b3b3b3b3b4e3b323b3b3b43384534203e656c637269633c3b4c3b303b6f4e3b4f57542048504152474f4544492044454c435249433b31383233,
0x3b3b3b3b3b4e3b333b3b3b39304534203e656c637269633c3b4c3b303b6f4e3b45455248542048504152474f4544492044454c435249433b32383233,
0x3b3b3b3b3b4e3b343b3b3b42443635203e656c637269633c3b4c3b303b6f4e3b52554f462048504152474f4544492044454c435249433b33383233,
0x3b3b3b3b3b4e3b353b3b3b34394534203e656c637269633c3b4c3b303b6f4e3b455649462048504152474f4544492044454c435249433b34383233,
0x3b3b3b3b3b4e3b363b3b3b44363135203e656c637269633c3b4c3b303b6f4e3b5849532048504152474f4544492044454c435249433b35383233,
0x3b3b3b3b3b4e3b373b3b3b33304534203e656c637269633c3b4c3b303b6f4e3b4e455645532048504152474f4544492044454c435249433b36383233,
0x3b3b3b3b3b4e3b383b3b3b42363135203e656c637269633c3b4c3b303b6f4e3b54484749452048504152474f4544492044454c435249433b37383233,
0x3b3b3b3b3b4e3b393b3b3b44354534203e656c637269633c3b4c3b303b6f4e3b454e494e2048504152474f4544492044454c435249433b38383233,
0x3b3b3b3b3b4e3b30313b3b3b31343335203e656c637269633c3b4c3b303b6f4e3b4e45542048504152474f4544492044454c435249433b39383233,
0x3b3b3b3b3b4e3b3b3b3b38303736203e656c637269633c3b4c3b303b6f533b4e4f4f4d2048504152474f4544492044454c435249433b41383233,
0x3b3b3b3b3b4e3b3b3b3b42363037203e656c637269633c3b4c3b303b6f533b455249462048504152474f4544492044454c435249433b42383233,
0x3b3b3b3b3b4e3b3b3b3b34334336203e656c637269633c3b4c3b303b6f533b52455441572048504152474f4544492044454c435249433b43383233,
0x3b3b3b3b3b4e3b3b3b3b38323736203e656c637269633c3b4c3b303b6f533b444f4f572048504152474f4544492044454c435249433b44383233,
0x3b3b3b3b3b4e3b3b3b3b31443139203e656c637269633c3b4c3b303b6f533b4c4154454d2048504152474f4544492044454c435249433b45383233,
0x3b3b3b3b3b4e3b3b3b3b46313735203e656c637269633c3b4c3b303b6f533b48545241452048504152474f4544492044454c435249433b46383233,
0x3b3b3b3b3b4e3b3b3b3b35453536203e656c637269633c3b4c3b303b6f533b4e55532048504152474f4544492044454c435249433b30393233,
0x3b3b3b3b3b4e3b3b3b3b41323836203e656c637269633c3b4c3b303b6f533b4b434f54532048504152474f4544492044454c435249433b31393233,
0x3b3b3b3b3b4e3b3b3b3b39303736203e656c637269633c3b4c3b303b6f533b455641482048504152474f4544492044454c435249433b32393233,
0x3b3b3b3b3b4e3b3b3b3b45333937203e656c637269633c3b4c3b303b6f533b59544549434f532048504152474f4544492044454c435249433b33393233,
0x3b3b3b3b3b4e3b3b3b3b44303435203e656c637269633c3b4c3b303b6f533b454d414e2048504152474f4544492044454c435249433b34393233,
0x3b3b3b3b3b4e3b3b3b3b39373237203e656c637269633c3b4c3b303b6f533b4c4149434550532048504152474f4544492044454c435249433b35393233,
0x3b3b3b3b3b4e3b3b3b3b31414338203e656c637269633c3b4c3b303b6f533b4c4149434e414e49462048504152474f4544492044454c435249433b36393233,
0x3b3b3b3b3b4e3b3b3b3b44353937203e656c637269633c3b4c3b303b6f533b4e4f4954414c55544152474e4f432048504152474f4544492044454c435249433b37393233,
0x3b3b3b3b3b4e3b3b3b3b34423235203e656c637269633c3b4c3b303b6f533b524f42414c2048504152474f4544492044454c435249433b38393233,
0x3b3b3b3b3b4e3b3b3b3b38443937203e656c637269633c3b4c3b303b6f533b5445524345532048504152474f4544492044454c435249433b39393233,
0x3b3b3b3b3b4e3b3b3b3b37333537203e656c637269633c3b4c3b303b6f533b454c414d2048504152474f4544492044454c435249433b41393233,
0x3b3b3b3b3b4e3b3b3b3b33373935203e656c637269633c3b4c3b303b6f533b454c414d45462048504152474f4544492044454c435249433b42393233,
0x3b3b3b3b3b4e3b3b3b3b39363039203e656c637269633c3b4c3b303b6f533b454c4241544955532048504152474f4544492044454c435249433b43393233,
0x3b3b3b3b3b4e3b3b3b3b41323135203e656c637269633c3b4c3b303b6f533b544e454c4c454358452048504152474f4544492044454c435249433b44393233,
0x3b3b3b3b3b4e3b3b3b3b30373335203e656c637269633c3b4c3b303b6f533b544e4952502048504152474f4544492044454c435249433b45393233,
0x3b3b3b3b3b4e3b3b3b3b38454336203e656c637269633c3b4c3b303b6f533b4e4f49544e455454412048504152474f4544492044454c435249433b46393233,
0x3b3b3b3b3b4e3b3b3b3b35303839203e656c637269633c3b4c3b303b6f533b4d4554492048504152474f4544492044454c435249433b30413233,
0x3b3b3b3b3b4e3b3b3b3b31314634203e656c637269633c3b4c3b303b6f533b545345522048504152474f4544492044454c435249433b31413233,
0x3b3b3b3b3b4e3b3b3b3b39393135203e656c637269633c3b4c3b303b6f533b59504f432048504152474f4544492044454c435249433b32413233,
0x3b3b3b3b3b4e3b3b3b3b33364236203e656c637269633c3b4c3b303b6f533b54434552524f432048504152474f4544492044454c435249433b33413233,
0x3b3b3b3b3b4e3b3b3b3b41304534203e656c637269633c3b4c3b303b6f533b484749482048504152474f4544492044454c435249433b34413233,
0x3b3b3b3b5245544e45432048504152474f4544492044454c435249433b4e3b3b3b3b44324534203e656c637269633c3b4c3b303b6f533b4552544e45432048504152474f4544492044454c435249433b35413233,
0x3b3b3b3b3b4e3b3b3b3b42304534203e656c637269633c3b4c3b303b6f533b574f4c2048504152474f4544492044454c435249433b36413233,
0x3b3b3b3b3b4e3b3b3b3b36454435203e656c637269633c3b4c3b303b6f533b5446454c2048504152474f4544492044454c435249433b37413233,
0x3b3b3b3b3b4e3b3b3b3b33463335203e656c637269633c3b4c3b303b6f533b54484749522048504152474f4544492044454c435249433b38413233,
0x3b3b3b3b3b4e3b3b3b3b42333335203e656c637269633c3b4c3b303b6f533b454e49434944454d2048504152474f4544492044454c435249433b39413233,
0x3b3b3b3b3b4e3b3b3b3b37394235203e656c637269633c3b4c3b303b6f533b4e4f4947494c45522048504152474f4544492044454c435249433b41413233,
0x3b3b3b3b3b4e3b3b3b3b36364235203e656c637269633c3b4c3b303b6f533b59445554532048504152474f4544492044454c435249433b42413233,
0x3b3b3b3b3b4e3b3b3b3b33453637203e656c637269633c3b4c3b303b6f533b4553495652455055532048504152474f4544492044454c435249433b43413233,
0x3b3b3b3b3b4e3b3b3b3b31304634203e656c637269633c3b4c3b303b6f533b45534952505245544e452048504152474f4544492044454c435249433b44413233,
0x3b3b3b3b3b4e3b3b3b3b37434338203e656c637269633c3b4c3b303b6f533b454352554f5345522048504152474f4544492044454c435249433b45413233,
0x3b3b3b3b3b4e3b3b3b3b34353335203e656c637269633c3b4c3b303b6f533b45434e41494c4c412048504152474f4544492044454c435249433b46413233,
0x3b3b3b3b3b4e3b3b3b3b43313935203e656c637269633c3b4c3b303b6f533b544847494e2048504152474f4544492044454c435249433b30423233,
0x3b3b3b3b3b4e3b36333b3b3b363330302033333030203e656c637269633c3b4e4f3b303b6f4e3b58495320595452494854205245424d554e2044454c435249433b31423233,
0x3b3b3b3b3b4e3b37333b3b3b373330302033333030203e656c637269633c3b4e4f3b303b6f4e3b4e4556455320595452494854205245424d554e2044454c435249433b32423233,
0x3b3b3b3b3b4e3b38333b3b3b383330302033333030203e656c637269633c3b4e4f3b303b6f4e3b544847494520595452494854205245424d554e2044454c435249433b33423233,
0x3b3b3b3b3b4e3b39333b3b3b393330302033333030203e656c637269633c3b4e4f3b303b6f4e3b454e494e20595452494854205245424d554e2044454c435249433b34423233,
0x3b3b3b3b3b4e3b30343b3b3b303330302034333030203e656c637269633c3b4e4f3b303b6f4e3b5954524f46205245424d554e2044454c435249433b35423233,
0x3b3b3b3b3b4e3b31343b3b3b313330302034333030203e656c637269633c3b4e4f3b303b6f4e3b454e4f205954524f46205245424d554e2044454c435249433b36423233,
0x3b3b3b3b3b4e3b32343b3b3b323330302034333030203e656c637269633c3b4e4f3b303b6f4e3b4f5754205954524f46205245424d554e2044454c435249433b37423233,
0x3b3b3b3b3b4e3b33343b3b3b333330302034333030203e656c637269633c3b4e4f3b303b6f4e3b4545524854205954524f46205245424d554e2044454c435249433b38423233,
0x3b3b3b3b3b4e3b34343b3b3b343330302034333030203e656c637269633c3b4e4f3b303b6f4e3b52554f46205954524f46205245424d554e2044454c435249433b39423233,
0x3b3b3b3b3b4e3b35343b3b3b353330302034333030203e656c637269633c3b4e4f3b303b6f4e3b45564946205954524f46205245424d554e2044454c435249433b41423233,
0x3b3b3b3b3b4e3b36343b3b3b363330302034333030203e656c637269633c3b4e4f3b303b6f4e3b584953205954524f46205245424d554e2044454c435249433b42423233,
0x3b3b3b3b3b4e3b37343b3b3b373330302034333030203e656c637269633c3b4e4f3b303b6f4e3b4e45564553205954524f46205245424d554e2044454c435249433b43423233,
0x3b3b3b3b3b4e3b38343b3b3b383330302034333030203e656c637269633c3b4e4f3b303b6f4e3b5448474945205954524f46205245424d554e2044454c435249433b44423233,
0x3b3b3b3b3b4e3b39343b3b3b393330302034333030203e656c637269633c3b4e4f3b303b6f4e3b454e494e205954524f46205245424d554e2044454c435249433b45423233,
0x3b3b3b3b3b4e3b30353b3b3b303330302035333030203e656c637269633c3b4e4f3b303b6f4e3b5954464946205245424d554e2044454c435249433b46423233,
0x3b3b3b3b3b4e3b3b3b3b383037362031333030203e7461706d6f633c3b4c3b303b6f533b595241554e414a20524f46204c4f424d5953204850415247454c455420434948504152474f4544493b30433233,
0x3b3b3b3b3b4e3b3b3b3b383037362032333030203e7461706d6f633c3b4c3b303b6f533b595241555242454620524f46204c4f424d5953204850415247454c455420434948504152474f4544493b31433233,
0x3b3b3b3b3b4e3b3b3b3b383037362033333030203e7461706d6f633c3b4c3b303b6f533b484352414d20524f46204c4f424d5953204850415247454c455420434948504152474f4544493b32433233,
0x3b3b3b3b3b4e3b3b3b3b383037362034333030203e7461706d6f633c3b4c3b303b6f533b4c4952504120524f46204c4f424d5953204850415247454c455420434948504152474f4544493b33433233,
0x3b3b3b3b3b4e3b3b3b3b383037362035333030203e7461706d6f633c3b4c3b303b6f533b59414d20524f46204c4f424d5953204850415247454c455420434948504152474f4544493b34433233,
0x3b3b3b3b3b4e3b3b3b3b383037362036333030203e7461706d6f633c3b4c3b303b6f533b454e554a20524f46204c4f424d5953204850415247454c455420434948504152474f4544493b35433233,
0x3b3b3b3b3b4e3b3b3b3b383037362037333030203e7461706d6f633c3b4c3b303b6f533b594c554a20524f46204c4f424d5953204850415247454c455420434948504152474f4544493b36433233,
0x3b3b3b3b3b4e3b3b3b3b383037362038333030203e7461706d6f633c3b4c3b303b6f533b54535547554120524f46204c4f424d5953204850415247454c455420434948504152474f4544493b37433233,
0x3b3b3b3b3b4e3b3b3b3b383037362039333030203e7461706d6f633c3b4c3b303b6f533b5245424d455450455320524f46204c4f424d5953204850415247454c455420434948504152474f4544493b38433233,
0x3b3b3b3b3b4e3b3b3b3b3830373620303330302031333030203e7461706d6f633c3b4c3b303b6f533b5245424f54434f20524f46204c4f424d5953204850415247454c455420434948504152474f4544493b39433233,
0x3b3b3b3b3b4e3b3b3b3b3830373620313330302031333030203e7461706d6f633c3b4c3b303b6f533b5245424d45564f4e20524f46204c4f424d5953204850415247454c455420434948504152474f4544493b41433233,
0x3b3b3b3b3b4e3b3b3b3b3830373620323330302031333030203e7461706d6f633c3b4c3b303b6f533b5245424d4543454420524f46204c4f424d5953204850415247454c455420434948504152474f4544493b42433233,
0x3b3b3b3b3b4e3b3b3b3b373630302038343030203e6572617571733c3b4e4f3b303b6f533b4748204552415551533b43433233,
0x3b3b3b3b3b4e3b3b3b3b3736303020323730302035363030203e6572617571733c3b4e4f3b303b6f533b475245204552415551533b44433233,
0x3b3b3b3b3b4e3b3b3b3b363530302035363030203e6572617571733c3b4e4f3b303b6f533b5645204552415551533b45433233,
0x3b3b3b3b3b4e3b3b3b3b3434303020343530302043343030203e6572617571733c3b4e4f3b303b6f533b4e474953205954494c494241494c20444554494d494c3b46433233,
0x3b3b3b3b3b4e3b3b3b3b32413033203e656c637269633c3b4c3b303b6f533b4120414e414b4154414b2044454c435249433b30443233,
0x3b3b3b3b3b4e3b3b3b3b34413033203e656c637269633c3b4c3b303b6f533b4920414e414b4154414b2044454c435249433b31443233,
0x3b3b3b3b3b4e3b3b3b3b36413033203e656c637269633c3b4c3b303b6f533b5520414e414b4154414b2044454c435249433b32443233,
0x3b3b3b3b3b4e3b3b3b3b38413033203e656c637269633c3b4c3b303b6f533b4520414e414b4154414b2044454c435249433b33443233,
0x3b3b3b3b3b4e3b3b3b3b41413033203e656c637269633c3b4c3b303b6f533b4f20414e414b4154414b2044454c435249433b34443233,
0x3b3b3b3b3b4e3b3b3b3b42413033203e656c637269633c3b4c3b303b6f533b414b20414e414b4154414b2044454c435249433b35443233,
0x3b3b3b3b3b4e3b3b3b3b44413033203e656c637269633c3b4c3b303b6f533b494b20414e414b4154414b2044454c435249433b36443233,
0x3b3b3b3b3b4e3b3b3b3b46413033203e656c637269633c3b4c3b303b6f533b554b20414e414b4154414b2044454c435249433b37443233,
0x3b3b3b3b3b4e3b3b3b3b31423033203e656c637269633c3b4c3b303b6f533b454b20414e414b4154414b2044454c435249433b38443233,
0x3b3b3b3b3b4e3b3b3b3b33423033203e656c637269633c3b4c3b303b6f533b4f4b20414e414b4154414b2044454c435249433b39443233,
0x3b3b3b3b3b4e3b3b3b3b35423033203e656c637269633c3b4c3b303b6f533b415320414e414b4154414b2044454c435249433b41443233,
0x3b3b3b3b3b4e3b3b3b3b37423033203e656c637269633c3b4c3b303b6f533b495320414e414b4154414b2044454c435249433b42443233,
0x3b3b3b3b3b4e3b3b3b3b39423033203e656c637269633c3b4c3b303b6f533b555320414e414b4154414b2044454c435249433b43443233,
0x3b3b3b3b3b4e3b3b3b3b42423033203e656c637269633c3b4c3b303b6f533b455320414e414b4154414b2044454c435249433b44443233,
0x3b3b3b3b3b4e3b3b3b3b44423033203e656c637269633c3b4c3b303b6f533b4f5320414e414b4154414b2044454c435249433b45443233,
0x3b3b3b3b3b4e3b3b3b3b46423033203e656c637269633c3b4c3b303b6f533b415420414e414b4154414b2044454c435249433b46443233,
0x3b3b3b3b3b4e3b3b3b3b31433033203e656c637269633c3b4c3b303b6f533b495420414e414b4154414b2044454c435249433b30453233,
0x3b3b3b3b3b4e3b3b3b3b34433033203e656c637269633c3b4c3b303b6f533b555420414e414b4154414b2044454c435249433b31453233,
0x3b3b3b3b3b4e3b3b3b3b36433033203e656c637269633c3b4c3b303b6f533b455420414e414b4154414b2044454c435249433b32453233,
0x3b3b3b3b3b4e3b3b3b3b38433033203e656c637269633c3b4c3b303b6f533b4f5420414e414b4154414b2044454c435249433b33453233,
0x3b3b3b3b3b4e3b3b3b3b41433033203e656c637269633c3b4c3b303b6f533b414e20414e414b4154414b2044454c435249433b34453233,
0x3b3b3b3b3b4e3b3b3b3b42433033203e656c637269633c3b4c3b303b6f533b494e20414e414b4154414b2044454c435249433b35453233,
0x3b3b3b3b3b4e3b3b3b3b43433033203e656c637269633c3b4c3b303b6f533b554e20414e414b4154414b2044454c435249433b36453233,
0x3b3b3b3b3b4e3b3b3b3b44433033203e656c637269633c3b4c3b303b6f533b454e20414e414b4154414b2044454c435249433b37453233,
0x3b3b3b3b3b4e3b3b3b3b45433033203e656c637269633c3b4c3b303b6f533b4f4e20414e414b4154414b2044454c435249433b38453233,
0x3b3b3b3b3b4e3b3b3b3b46433033203e656c637269633c3b4c3b303b6f533b414820414e414b4154414b2044454c435249433b39453233,
0x3b3b3b3b3b4e3b3b3b3b32443033203e656c637269633c3b4c3b303b6f533b494820414e414b4154414b2044454c435249433b41453233,
0x3b3b3b3b3b4e3b3b3b3b35443033203e656c637269633c3b4c3b303b6f533b554820414e414b4154414b2044454c435249433b42453233,
0x3b3b3b3b3b4e3b3b3b3b38443033203e656c637269633c3b4c3b303b6f533b454820414e414b4154414b2044454c435249433b43453233,
0x3b3b3b3b3b4e3b3b3b3b42443033203e656c637269633c3b4c3b303b6f533b4f4820414e414b4154414b2044454c435249433b44453233,
0x3b3b3b3b3b4e3b3b3b3b45443033203e656c637269633c3b4c3b303b6f533b414d20414e414b4154414b2044454c435249433b45453233,
0x3b3b3b3b3b4e3b3b3b3b46443033203e656c637269633c3b4c3b303b6f533b494d20414e414b4154414b2044454c435249433b46453233,
0x3b3b3b3b3b4e3b3b3b3b30453033203e656c637269633c3b4c3b303b6f533b554d20414e414b4154414b2044454c435249433b30463233,
0x3b3b3b3b3b4e3b3b3b3b31453033203e656c637269633c3b4c3b303b6f533b454d20414e414b4154414b2044454c435249433b31463233,
0x3b3b3b3b3b4e3b3b3b3b32453033203e656c637269633c3b4c3b303b6f533b4f4d20414e414b4154414b2044454c435249433b32463233,
0x3b3b3b3b3b4e3b3b3b3b34453033203e656c637269633c3b4c3b303b6f533b415920414e414b4154414b2044454c435249433b33463233,
0x3b3b3b3b3b4e3b3b3b3b36453033203e656c637269633c3b4c3b303b6f533b555920414e414b4154414b2044454c435249433b34463233,
0x3b3b3b3b3b4e3b3b3b3b38453033203e656c637269633c3b4c3b303b6f533b4f5920414e414b4154414b2044454c435249433b35463233,
0x3b3b3b3b3b4e3b3b3b3b39453033203e656c637269633c3b4c3b303b6f533b415220414e414b4154414b2044454c435249433b36463233,
0x3b3b3b3b3b4e3b3b3b3b41453033203e656c637269633c3b4c3b303b6f533b495220414e414b4154414b2044454c435249433b37463233,
0x3b3b3b3b3b4e3b3b3b3b42453033203e656c637269633c3b4c3b303b6f533b555220414e414b4154414b2044454c435249433b38463233,
0x3b3b3b3b3b4e3b3b3b3b43453033203e656c637269633c3b4c3b303b6f533b455220414e414b4154414b2044454c435249433b39463233,
0x3b3b3b3b3b4e3b3b3b3b44453033203e656c637269633c3b4c3b303b6f533b4f5220414e414b4154414b2044454c435249433b41463233,
0x3b3b3b3b3b4e3b3b3b3b46453033203e656c637269633c3b4c3b303b6f533b415720414e414b4154414b2044454c435249433b42463233,
0x3b3b3b3b3b4e3b3b3b3b30463033203e656c637269633c3b4c3b303b6f533b495720414e414b4154414b2044454c435249433b43463233,
0x3b3b3b3b3b4e3b3b3b3b31463033203e656c637269633c3b4c3b303b6f533b455720414e414b4154414b2044454c435249433b44463233,
0x3b3b3b3b3b4e3b3b3b3b32463033203e656c637269633c3b4c3b303b6f533b4f5720414e414b4154414b2044454c435249433b45463233,
0x3b3b3b3b4f544141504120444552415551533b4e3b3b3b3b38433033204346303320314430332032413033203e6572617571733c3b4c3b303b6f533b4f5441415041204552415551533b30303333,
0x3b3b3b3b41554855524120444552415551533b4e3b3b3b3b31413033203544303320424530332032413033203e6572617571733c3b4c3b303b6f533b415548555241204552415551533b31303333,
0x3b3b3b3b4145504e4120444552415551533b4e3b3b3b3b32413033204144303320334630332032413033203e6572617571733c3b4c3b303b6f533b4145504e41204552415551533b32303333,
0x3b3b3b3b5552414120444552415551533b4e3b3b3b3b4245303320434630332032413033203e6572617571733c3b4c3b303b6f533b55524141204552415551533b33303333,
0x3b3b3b3b55474e494e4920444552415551533b4e3b3b3b3b30423033203346303320424330332034413033203e6572617571733c3b4c3b303b6f533b55474e494e49204552415551533b34303333,
0x3b3b3b3b49544e4920444552415551533b4e3b3b3b3b3143303320334630332034413033203e6572617571733c3b4c3b303b6f533b49544e49204552415551533b35303333,
0x3b3b3b3b4e4f5520444552415551533b4e3b3b3b3b3346303320394130332036413033203e6572617571733c3b4c3b303b6f533b4e4f55204552415551533b36303333,
0x3b3b3b3b4f4455554b55534520444552415551533b4e3b3b3b3b394330332043463033204641303320394230332038413033203e6572617571733c3b4c3b303b6f533b4f4455554b555345204552415551533b37303333,
0x3b3b3b3b41414b454520444552415551533b4e3b3b3b3b43463033204241303320434630332038413033203e6572617571733c3b4c3b303b6f533b41414b4545204552415551533b38303333,
0x3b3b3b3b55534e4f20444552415551533b4e3b3b3b3b3942303320334630332041413033203e6572617571733c3b4c3b303b6f533b55534e4f204552415551533b39303333,
0x3b3b3b3b554d4f4f20444552415551533b4e3b3b3b3b3045303320434630332041413033203e6572617571733c3b4c3b303b6f533b554d4f4f204552415551533b41303333,
0x3b3b3b3b495249414b20444552415551533b4e3b3b3b3b4145303320344130332042413033203e6572617571733c3b4c3b303b6f533b495249414b204552415551533b42303333,
0x3b3b3b3b4f54544152414b20444552415551533b4e3b3b3b3b38433033203343303320394530332042413033203e6572617571733c3b4c3b303b6f533b4f54544152414b204552415551533b43303333,
0x3b3b3b3b4949524f52414b20444552415551533b4e3b3b3b3b43463033204145303320444530332042413033203e6572617571733c3b4c3b303b6f533b4949524f52414b204552415551533b44303333,
0x3b3b3b3b4e4f52414720444552415551533b4e3b3b3b3b3346303320444530332043413033203e6572617571733c3b4c3b303b6f533b4e4f524147204552415551533b45303333,
0x3b3b3b3b414d4e414720444552415551533b4e3b3b3b3b4544303320334630332043413033203e6572617571733c3b4c3b303b6f533b414d4e4147204552415551533b46303333,
0x3b3b3b3b4147494720444552415551533b4e3b3b3b3b434130332045413033203e6572617571733c3b4c3b303b6f533b41474947204552415551533b30313333,
0x3b3b3b3b49494e494720444552415551533b4e3b3b3b3b4346303320424330332045413033203e6572617571733c3b4c3b303b6f533b49494e4947204552415551533b31313333,
0x3b3b3b3b49495255594b20444552415551533b4e3b3b3b3b43463033204145303320354530332044413033203e6572617571733c3b4c3b303b6f533b49495255594b204552415551533b32313333,
0x3b3b3b3b4141445552494720444552415551533b4e3b3b3b3b43463033203043303320424530332045413033203e6572617571733c3b4c3b303b6f533b41414455524947204552415551533b33313333,
0x3b3b3b3b4f52494b20444552415551533b4e3b3b3b3b444530332044413033203e6572617571733c3b4c3b303b6f533b4f52494b204552415551533b34313333,
0x3b3b3b3b554d415255474f52494b20444552415551533b4e3b3b3b3b304530332039453033203042303320444530332044413033203e6572617571733c3b4c3b303b6f533b554d415255474f52494b204552415551533b35313333,
0x3b3b3b3b55524f5445454d4f52494b20444552415551533b4e3b3b3b3b4245303320384330332043463033203145303320444530332044413033203e6572617571733c3b4c3b303b6f533b55524f5445454d4f52494b204552415551533b36313333,
0x3b3b3b3b4f545441574f52494b20444552415551533b4e3b3b3b3b384330332033433033204645303320444530332044413033203e6572617571733c3b4c3b303b6f533b4f545441574f52494b204552415551533b37313333,
0x3b3b3b3b554d4152554720444552415551533b4e3b3b3b3b3045303320394530332030423033203e6572617571733c3b4c3b303b6f533b554d41525547204552415551533b38313333,
0x3b3b3b3b4e4f54554d4152554720444552415551533b4e3b3b3b3b334630332038433033203045303320394530332030423033203e6572617571733c3b4c3b303b6f533b4e4f54554d41525547204552415551533b39313333,
0x3b3b3b3b4f5249455a5552554b20444552415551533b4e3b3b3b3b444530332034413033204342303320424530332046413033203e6572617571733c3b4c3b303b6f533b4f5249455a5552554b204552415551533b41313333,
0x3b3b3b3b454e4f4f52554b20444552415551533b4e3b3b3b3b44433033204346303320444530332046413033203e6572617571733c3b4c3b303b6f533b454e4f4f52554b204552415551533b42313333,
0x3b3b3b3b555345454b20444552415551533b4e3b3b3b3b3942303320434630332031423033203e6572617571733c3b4c3b303b6f533b555345454b204552415551533b43313333,
0x3b3b3b3b414e55524f4b20444552415551533b4e3b3b3b3b4143303320424530332033423033203e6572617571733c3b4c3b303b6f533b414e55524f4b204552415551533b44313333,
0x3b3b3b3b4f504f4f4b20444552415551533b4e3b3b3b3b4444303320434630332033423033203e6572617571733c3b4c3b303b6f533b4f504f4f4b204552415551533b45313333,
0x3b3b3b3b5552554b49415320444552415551533b4e3b3b3b3b42453033204641303320344130332035423033203e6572617571733c3b4c3b303b6f533b5552554b494153204552415551533b46313333,
0x3b3b3b3b554d4949544e415320444552415551533b4e3b3b3b3b304530332043463033203143303320334630332035423033203e6572617571733c3b4c3b303b6f533b554d4949544e4153204552415551533b30323333,
0x3b3b3b3b55474e4952495320444552415551533b4e3b3b3b3b30423033203346303320414530332037423033203e6572617571733c3b4c3b303b6f533b55474e49524953204552415551533b31323333,
0x3b3b3b3b49544e455320444552415551533b4e3b3b3b3b3143303320334630332042423033203e6572617571733c3b4c3b303b6f533b49544e4553204552415551533b32323333,
0x3b3b3b3b4f544e455320444552415551533b4e3b3b3b3b3843303320334630332042423033203e6572617571733c3b4c3b303b6f533b4f544e4553204552415551533b33323333,
0x3b3b3b3b555341414420444552415551533b4e3b3b3b3b3942303320434630332030433033203e6572617571733c3b4c3b303b6f533b5553414144204552415551533b34323333,
0x3b3b3b3b4953454420444552415551533b4e3b3b3b3b374230332037433033203e6572617571733c3b4c3b303b6f533b49534544204552415551533b35323333,
0x3b3b3b3b55524f4420444552415551533b4e3b3b3b3b424530332039433033203e6572617571733c3b4c3b303b6f533b55524f44204552415551533b36323333,
0x3b3b3b3b4e4f5420444552415551533b4e3b3b3b3b334630332038433033203e6572617571733c3b4c3b303b6f533b4e4f54204552415551533b37323333,
0x3b3b3b3b4f4e414e20444552415551533b4e3b3b3b3b454330332041433033203e6572617571733c3b4c3b303b6f533b4f4e414e204552415551533b38323333,
0x3b3b3b3b4f54544f4e20444552415551533b4e3b3b3b3b3843303320334330332045433033203e6572617571733c3b4c3b303b6f533b4f54544f4e204552415551533b39323333,
0x3b3b3b3b555449414820444552415551533b4e3b3b3b3b3443303320344130332046433033203e6572617571733c3b4c3b303b6f533b5554494148204552415551533b41323333,
0x3b3b3b3b4f544e455341415020444552415551533b4e3b3b3b3b384330332033463033204242303320434630332031443033203e6572617571733c3b4c3b303b6f533b4f544e4553414150204552415551533b42323333,
0x3b3b3b3b555441415020444552415551533b4e3b3b3b3b3443303320434630332031443033203e6572617571733c3b4c3b303b6f533b5554414150204552415551533b43323333,
0x3b3b3b3b5552455241414220444552415551533b4e3b3b3b3b42453033204345303320434630332030443033203e6572617571733c3b4c3b303b6f533b55524552414142204552415551533b44323333,
0x3b3b3b3b55524f54555341495020444552415551533b4e3b3b3b3b424530332038433033203942303320324130332034443033203e6572617571733c3b4c3b303b6f533b55524f545553414950204552415551533b45323333,
0x3b3b3b3b5552554b495020444552415551533b4e3b3b3b3b4245303320464130332034443033203e6572617571733c3b4c3b303b6f533b5552554b4950204552415551533b46323333,
0x3b3b3b3b4f4b495020444552415551533b4e3b3b3b3b334230332034443033203e6572617571733c3b4c3b303b6f533b4f4b4950204552415551533b30333333,
0x3b3b3b3b5552494220444552415551533b4e3b3b3b3b424530332033443033203e6572617571733c3b4c3b303b6f533b55524942204552415551533b31333333,
0x3b3b3b3b4f4444415241554820444552415551533b4e3b3b3b3b394330332033433033203945303320314130332035443033203e6572617571733c3b4c3b303b6f533b4f44444152415548204552415551533b32333333,
0x3b3b3b3b4f544949554820444552415551533b4e3b3b3b3b38433033204346303320334130332035443033203e6572617571733c3b4c3b303b6f533b4f5449495548204552415551533b33333333,
0x3b3b3b3b555245595353554220444552415551533b4e3b3b3b3b424530332037413033203742303320334330332036443033203e6572617571733c3b4c3b303b6f533b5552455953535542204552415551533b34333333,
0x3b3b3b3b4e4152554820444552415551533b4e3b3b3b3b3346303320394530332035443033203e6572617571733c3b4c3b303b6f533b4e41525548204552415551533b35333333,
0x3b3b3b3b5552414154554b454820444552415551533b4e3b3b3b3b424530332043463033204642303320464130332038443033203e6572617571733c3b4c3b303b6f533b5552414154554b4548204552415551533b36333333,
0x3b3b3b3b4f53455020444552415551533b4e3b3b3b3b444230332041443033203e6572617571733c3b4c3b303b6f533b4f534550204552415551533b37333333,
0x3b3b3b3b4948494e455020444552415551533b4e3b3b3b3b3244303320424330332041443033203e6572617571733c3b4c3b303b6f533b4948494e4550204552415551533b38333333,
0x3b3b3b3b55545552454820444552415551533b4e3b3b3b3b3443303320424530332038443033203e6572617571733c3b4c3b303b6f533b555455524548204552415551533b39333333,
0x3b3b3b3b55534e455020444552415551533b4e3b3b3b3b3942303320334630332041443033203e6572617571733c3b4c3b303b6f533b55534e4550204552415551533b41333333,
0x3b3b3b3b495a45455020444552415551533b4e3b3b3b3b3842303320434630332041443033203e6572617571733c3b4c3b303b6f533b495a454550204552415551533b42333333,
0x3b3b3b3b415445454220444552415551533b4e3b3b3b3b4642303320434630332039443033203e6572617571733c3b4c3b303b6f533b4154454542204552415551533b43333333,
0x3b3b3b3b4f544e494f5020444552415551533b4e3b3b3b3b38433033203346303320344130332044443033203e6572617571733c3b4c3b303b6f533b4f544e494f50204552415551533b44333333,
0x3b3b3b3b4f5455524f4220444552415551533b4e3b3b3b3b3843303320424530332043443033203e6572617571733c3b4c3b303b6f533b4f5455524f42204552415551533b45333333,
0x3b3b3b3b4e4f4820444552415551533b4e3b3b3b3b334630332042443033203e6572617571733c3b4c3b303b6f533b4e4f48204552415551533b46333333,
0x3b3b3b3b4f444e4f5020444552415551533b4e3b3b3b3b3943303320334630332044443033203e6572617571733c3b4c3b303b6f533b4f444e4f50204552415551533b30343333,
0x3b3b3b3b55524f4f4820444552415551533b4e3b3b3b3b4245303320434630332042443033203e6572617571733c3b4c3b303b6f533b55524f4f48204552415551533b31343333,
0x3b3b3b3b4e4f4f4820444552415551533b4e3b3b3b3b3346303320434630332042443033203e6572617571733c3b4c3b303b6f533b4e4f4f48204552415551533b32343333,
0x3b3b3b3b4f52554b49414d20444552415551533b4e3b3b3b3b44453033204641303320344130332045443033203e6572617571733c3b4c3b303b6f533b4f52554b49414d204552415551533b33343333,
0x3b3b3b3b555249414d20444552415551533b4e3b3b3b3b4245303320344130332045443033203e6572617571733c3b4c3b303b6f533b555249414d204552415551533b34343333,
0x3b3b3b3b414848414d20444552415551533b4e3b3b3b3b4643303320334330332045443033203e6572617571733c3b4c3b303b6f533b414848414d204552415551533b35343333,
0x3b3b3b3b554b5552414d20444552415551533b4e3b3b3b3b4641303320424530332045443033203e6572617571733c3b4c3b303b6f533b554b5552414d204552415551533b36343333,
0x3b3b3b3b4e4f59534e414d20444552415551533b4e3b3b3b3b334630332037453033203742303320334630332045443033203e6572617571733c3b4c3b303b6f533b4e4f59534e414d204552415551533b37343333,
0x3b3b3b3b4e4f52554b494d20444552415551533b4e3b3b3b3b33463033204445303320464130332046443033203e6572617571733c3b4c3b303b6f533b4e4f52554b494d204552415551533b38343333,
0x3b3b3b3b4952494d20444552415551533b4e3b3b3b3b414530332046443033203e6572617571733c3b4c3b303b6f533b4952494d204552415551533b39343333,
0x3b3b3b3b55524141424952494d20444552415551533b4e3b3b3b3b424530332043463033203044303320414530332046443033203e6572617571733c3b4c3b303b6f533b55524141424952494d204552415551533b41343333,
0x3b3b3b3b4147454d20444552415551533b4e3b3b3b3b434130332031453033203e6572617571733c3b4c3b303b6f533b4147454d204552415551533b42343333,
0x3b3b3b3b4e4f544147454d20444552415551533b4e3b3b3b3b33463033203843303320434130332031453033203e6572617571733c3b4c3b303b6f533b4e4f544147454d204552415551533b43343333,
0x3b3b3b3b55524f5445454d20444552415551533b4e3b3b3b3b42453033203843303320434630332031453033203e6572617571733c3b4c3b303b6f533b55524f5445454d204552415551533b44343333,
0x3b3b3b3b4f4441415920444552415551533b4e3b3b3b3b3943303320434630332034453033203e6572617571733c3b4c3b303b6f533b4f44414159204552415551533b45343333,
0x3b3b3b3b555241415920444552415551533b4e3b3b3b3b4245303320434630332034453033203e6572617571733c3b4c3b303b6f533b5552414159204552415551533b46343333,
0x3b3b3b3b4e41555920444552415551533b4e3b3b3b3b3346303320324130332036453033203e6572617571733c3b4c3b303b6f533b4e415559204552415551533b30353333]

/-- src/u5e/props/UnicodeData.txt lines 11777-12032. -/
def rawUcd46 : List Nat := [
0x3b3b3b3b55524f5454495220444552415551533b4e3b3b3b3b42453033203843303320334330332041453033203e6572617571733c3b4c3b303b6f533b55524f54544952204552415551533b31353333,
0x3b3b3b3b4152495220444552415551533b4e3b3b3b3b394530332041453033203e6572617571733c3b4c3b303b6f533b41524952204552415551533b32353333,
0x3b3b3b3b494950555220444552415551533b4e3b3b3b3b4346303320344430332042453033203e6572617571733c3b4c3b303b6f533b4949505552204552415551533b33353333,
0x3b3b3b3b5552554255555220444552415551533b4e3b3b3b3b42453033203644303320434630332042453033203e6572617571733c3b4c3b303b6f533b55525542555552204552415551533b34353333,
0x3b3b3b3b554d455220444552415551533b4e3b3b3b3b304530332043453033203e6572617571733c3b4c3b303b6f533b554d4552204552415551533b35353333,
0x3b3b3b3b4e45474f544e455220444552415551533b4e3b3b3b3b334630332032423033203843303320334630332043453033203e6572617571733c3b4c3b303b6f533b4e45474f544e4552204552415551533b36353333,
0x3b3b3b3b4f5454415720444552415551533b4e3b3b3b3b3843303320334330332046453033203e6572617571733c3b4c3b303b6f533b4f54544157204552415551533b37353333,
0x3b3b3b3b3b4e3b3b3b3b394230372030333030203e7461706d6f633c3b4c3b303b6f533b4f52455a2052554f4820524f46204c4f424d5953204850415247454c455420434948504152474f4544493b38353333,
0x3b3b3b3b3b4e3b3b3b3b394230372031333030203e7461706d6f633c3b4c3b303b6f533b454e4f2052554f4820524f46204c4f424d5953204850415247454c455420434948504152474f4544493b39353333,
0x3b3b3b3b3b4e3b3b3b3b394230372032333030203e7461706d6f633c3b4c3b303b6f533b4f57542052554f4820524f46204c4f424d5953204850415247454c455420434948504152474f4544493b41353333,
0x3b3b3b3b3b4e3b3b3b3b394230372033333030203e7461706d6f633c3b4c3b303b6f533b45455248542052554f4820524f46204c4f424d5953204850415247454c455420434948504152474f4544493b42353333,
0x3b3b3b3b3b4e3b3b3b3b394230372034333030203e7461706d6f633c3b4c3b303b6f533b52554f462052554f4820524f46204c4f424d5953204850415247454c455420434948504152474f4544493b43353333,
0x3b3b3b3b3b4e3b3b3b3b394230372035333030203e7461706d6f633c3b4c3b303b6f533b455649462052554f4820524f46204c4f424d5953204850415247454c455420434948504152474f4544493b44353333,
0x3b3b3b3b3b4e3b3b3b3b394230372036333030203e7461706d6f633c3b4c3b303b6f533b5849532052554f4820524f46204c4f424d5953204850415247454c455420434948504152474f4544493b45353333,
0x3b3b3b3b3b4e3b3b3b3b394230372037333030203e7461706d6f633c3b4c3b303b6f533b4e455645532052554f4820524f46204c4f424d5953204850415247454c455420434948504152474f4544493b46353333,
0x3b3b3b3b3b4e3b3b3b3b394230372038333030203e7461706d6f633c3b4c3b303b6f533b54484749452052554f4820524f46204c4f424d5953204850415247454c455420434948504152474f4544493b30363333,
0x3b3b3b3b3b4e3b3b3b3b394230372039333030203e7461706d6f633c3b4c3b303b6f533b454e494e2052554f4820524f46204c4f424d5953204850415247454c455420434948504152474f4544493b31363333,
0x3b3b3b3b3b4e3b3b3b3b3942303720303330302031333030203e7461706d6f633c3b4c3b303b6f533b4e45542052554f4820524f46204c4f424d5953204850415247454c455420434948504152474f4544493b32363333,
0x3b3b3b3b3b4e3b3b3b3b3942303720313330302031333030203e7461706d6f633c3b4c3b303b6f533b4e4556454c452052554f4820524f46204c4f424d5953204850415247454c455420434948504152474f4544493b33363333,
0x3b3b3b3b3b4e3b3b3b3b3942303720323330302031333030203e7461706d6f633c3b4c3b303b6f533b45564c4557542052554f4820524f46204c4f424d5953204850415247454c455420434948504152474f4544493b34363333,
0x3b3b3b3b3b4e3b3b3b3b3942303720333330302031333030203e7461706d6f633c3b4c3b303b6f533b4e454554524948542052554f4820524f46204c4f424d5953204850415247454c455420434948504152474f4544493b35363333,
0x3b3b3b3b3b4e3b3b3b3b3942303720343330302031333030203e7461706d6f633c3b4c3b303b6f533b4e45455452554f462052554f4820524f46204c4f424d5953204850415247454c455420434948504152474f4544493b36363333,
0x3b3b3b3b3b4e3b3b3b3b3942303720353330302031333030203e7461706d6f633c3b4c3b303b6f533b4e4545544649462052554f4820524f46204c4f424d5953204850415247454c455420434948504152474f4544493b37363333,
0x3b3b3b3b3b4e3b3b3b3b3942303720363330302031333030203e7461706d6f633c3b4c3b303b6f533b4e4545545849532052554f4820524f46204c4f424d5953204850415247454c455420434948504152474f4544493b38363333,
0x3b3b3b3b3b4e3b3b3b3b3942303720373330302031333030203e7461706d6f633c3b4c3b303b6f533b4e4545544e455645532052554f4820524f46204c4f424d5953204850415247454c455420434948504152474f4544493b39363333,
0x3b3b3b3b3b4e3b3b3b3b3942303720383330302031333030203e7461706d6f633c3b4c3b303b6f533b4e454554484749452052554f4820524f46204c4f424d5953204850415247454c455420434948504152474f4544493b41363333,
0x3b3b3b3b3b4e3b3b3b3b3942303720393330302031333030203e7461706d6f633c3b4c3b303b6f533b4e454554454e494e2052554f4820524f46204c4f424d5953204850415247454c455420434948504152474f4544493b42363333,
0x3b3b3b3b3b4e3b3b3b3b3942303720303330302032333030203e7461706d6f633c3b4c3b303b6f533b59544e4557542052554f4820524f46204c4f424d5953204850415247454c455420434948504152474f4544493b43363333,
0x3b3b3b3b3b4e3b3b3b3b3942303720313330302032333030203e7461706d6f633c3b4c3b303b6f533b454e4f2d59544e4557542052554f4820524f46204c4f424d5953204850415247454c455420434948504152474f4544493b44363333,
0x3b3b3b3b3b4e3b3b3b3b3942303720323330302032333030203e7461706d6f633c3b4c3b303b6f533b4f57542d59544e4557542052554f4820524f46204c4f424d5953204850415247454c455420434948504152474f4544493b45363333,
0x3b3b3b3b3b4e3b3b3b3b3942303720333330302032333030203e7461706d6f633c3b4c3b303b6f533b45455248542d59544e4557542052554f4820524f46204c4f424d5953204850415247454c455420434948504152474f4544493b46363333,
0x3b3b3b3b3b4e3b3b3b3b3942303720343330302032333030203e7461706d6f633c3b4c3b303b6f533b52554f462d59544e4557542052554f4820524f46204c4f424d5953204850415247454c455420434948504152474f4544493b30373333,
0x3b3b3b3b3b4e3b3b3b3b3136303020303530302038363030203e6572617571733c3b4c3b303b6f533b415048204552415551533b31373333,
0x3b3b3b3b3b4e3b3b3b3b313630302034363030203e6572617571733c3b4c3b303b6f533b4144204552415551533b32373333,
0x3b3b3b3b3b4e3b3b3b3b353530302031343030203e6572617571733c3b4c3b303b6f533b5541204552415551533b33373333,
0x3b3b3b3b3b4e3b3b3b3b3237303020313630302032363030203e6572617571733c3b4c3b303b6f533b524142204552415551533b34373333,
0x3b3b3b3b3b4e3b3b3b3b363530302046363030203e6572617571733c3b4c3b303b6f533b564f204552415551533b35373333,
0x3b3b3b3b3b4e3b3b3b3b333630302030373030203e6572617571733c3b4c3b303b6f533b4350204552415551533b36373333,
0x3b3b3b3b3b4e3b3b3b3b443630302034363030203e6572617571733c3b4e4f3b303b6f533b4d44204552415551533b37373333,
0x3b3b3b3b3b4e3b3b3b3b3242303020443630302034363030203e6572617571733c3b4e4f3b303b6f533b44455241555153204d44204552415551533b38373333,
0x3b3b3b3b3b4e3b3b3b3b3342303020443630302034363030203e6572617571733c3b4e4f3b303b6f533b4445425543204d44204552415551533b39373333,
0x3b3b3b3b3b4e3b3b3b3b353530302039343030203e6572617571733c3b4e4f3b303b6f533b5549204552415551533b41373333,
0x3b3b3b3b49455349454820454d414e20415245205348504152474f454449204f575420444552415551533b4e3b3b3b3b303132362033374535203e6572617571733c3b4c3b303b6f533b49455349454820454d414e20415245204552415551533b42373333,
0x3b3b3b3b4157554f595320454d414e20415245205348504152474f454449204f575420444552415551533b4e3b3b3b3b433834352044323636203e6572617571733c3b4c3b303b6f533b4157554f595320454d414e20415245204552415551533b43373333,
0x3b3b3b3b554f595349415420454d414e20415245205348504152474f454449204f575420444552415551533b4e3b3b3b3b333642362037323935203e6572617571733c3b4c3b303b6f533b554f595349415420454d414e20415245204552415551533b44373333,
0x3b3b3b3b495a49454d20454d414e20415245205348504152474f454449204f575420444552415551533b4e3b3b3b3b424243362045303636203e6572617571733c3b4c3b303b6f533b495a49454d20454d414e20415245204552415551533b45373333,
0x3b3b3b3b4e4f495441524f50524f43205348504152474f4544492052554f4620444552415551533b4e3b3b3b3b45333937204131463420463046352041323836203e6572617571733c3b4c3b303b6f533b4e4f495441524f50524f43204552415551533b46373333,
0x3b3b3b3b53504d4120415020444552415551533b4e3b3b3b3b313430302030373030203e6572617571733c3b4c3b303b6f533b53504d41204150204552415551533b30383333,
0x3b3b3b3b414e20444552415551533b4e3b3b3b3b313430302045363030203e6572617571733c3b4c3b303b6f533b414e204552415551533b31383333,
0x3b3b3b3b4120554d20444552415551533b4e3b3b3b3b313430302043423330203e6572617571733c3b4c3b303b6f533b4120554d204552415551533b32383333,
0x3b3b3b3b414d20444552415551533b4e3b3b3b3b313430302044363030203e6572617571733c3b4c3b303b6f533b414d204552415551533b33383333,
0x3b3b3b3b414b20444552415551533b4e3b3b3b3b313430302042363030203e6572617571733c3b4c3b303b6f533b414b204552415551533b34383333,
0x3b3b3b3b424b20444552415551533b4e3b3b3b3b323430302042343030203e6572617571733c3b4c3b303b6f533b424b204552415551533b35383333,
0x3b3b3b3b424d20444552415551533b4e3b3b3b3b323430302044343030203e6572617571733c3b4c3b303b6f533b424d204552415551533b36383333,
0x3b3b3b3b424720444552415551533b4e3b3b3b3b323430302037343030203e6572617571733c3b4c3b303b6f533b4247204552415551533b37383333,
0x3b3b3b3b4c414320444552415551533b4e3b3b3b3b4336303020313630302033363030203e6572617571733c3b4c3b303b6f533b4c4143204552415551533b38383333,
0x3b3b3b3b4c41434b20444552415551533b4e3b3b3b3b43363030203136303020333630302042363030203e6572617571733c3b4c3b303b6f533b4c41434b204552415551533b39383333,
0x3b3b3b3b465020444552415551533b4e3b3b3b3b363430302030373030203e6572617571733c3b4c3b303b6f533b4650204552415551533b41383333,
0x3b3b3b3b464e20444552415551533b4e3b3b3b3b363430302045363030203e6572617571733c3b4c3b303b6f533b464e204552415551533b42383333,
0x3b3b3b3b4620554d20444552415551533b4e3b3b3b3b363430302043423330203e6572617571733c3b4c3b303b6f533b4620554d204552415551533b43383333,
0x3b3b3b3b4720554d20444552415551533b4e3b3b3b3b373630302043423330203e6572617571733c3b4c3b303b6f533b4720554d204552415551533b44383333,
0x3b3b3b3b474d20444552415551533b4e3b3b3b3b373630302044363030203e6572617571733c3b4c3b303b6f533b474d204552415551533b45383333,
0x3b3b3b3b474b20444552415551533b4e3b3b3b3b373630302042363030203e6572617571733c3b4c3b303b6f533b474b204552415551533b46383333,
0x3b3b3b3b5a4820444552415551533b4e3b3b3b3b413730302038343030203e6572617571733c3b4c3b303b6f533b5a48204552415551533b30393333,
0x3b3b3b3b5a484b20444552415551533b4e3b3b3b3b4137303020383430302042363030203e6572617571733c3b4c3b303b6f533b5a484b204552415551533b31393333,
0x3b3b3b3b5a484d20444552415551533b4e3b3b3b3b4137303020383430302044343030203e6572617571733c3b4c3b303b6f533b5a484d204552415551533b32393333,
0x3b3b3b3b5a484720444552415551533b4e3b3b3b3b4137303020383430302037343030203e6572617571733c3b4c3b303b6f533b5a4847204552415551533b33393333,
0x3b3b3b3b5a485420444552415551533b4e3b3b3b3b4137303020383430302034353030203e6572617571733c3b4c3b303b6f533b5a4854204552415551533b34393333,
0x3b3b3b3b4c20554d20444552415551533b4e3b3b3b3b333131322043423330203e6572617571733c3b4c3b303b6f533b4c20554d204552415551533b35393333,
0x3b3b3b3b4c4d20444552415551533b4e3b3b3b3b333131322044363030203e6572617571733c3b4c3b303b6f533b4c4d204552415551533b36393333,
0x3b3b3b3b4c4420444552415551533b4e3b3b3b3b333131322034363030203e6572617571733c3b4c3b303b6f533b4c44204552415551533b37393333,
0x3b3b3b3b4c4b20444552415551533b4e3b3b3b3b333131322042363030203e6572617571733c3b4c3b303b6f533b4c4b204552415551533b38393333,
0x3b3b3b3b4d4620444552415551533b4e3b3b3b3b443630302036363030203e6572617571733c3b4c3b303b6f533b4d46204552415551533b39393333,
0x3b3b3b3b4d4e20444552415551533b4e3b3b3b3b443630302045363030203e6572617571733c3b4c3b303b6f533b4d4e204552415551533b41393333,
0x3b3b3b3b4d20554d20444552415551533b4e3b3b3b3b443630302043423330203e6572617571733c3b4c3b303b6f533b4d20554d204552415551533b42393333,
0x3b3b3b3b4d4d20444552415551533b4e3b3b3b3b443630302044363030203e6572617571733c3b4c3b303b6f533b4d4d204552415551533b43393333,
0x3b3b3b3b4d4320444552415551533b4e3b3b3b3b443630302033363030203e6572617571733c3b4c3b303b6f533b4d43204552415551533b44393333,
0x3b3b3b3b4d4b20444552415551533b4e3b3b3b3b443630302042363030203e6572617571733c3b4c3b303b6f533b4d4b204552415551533b45393333,
0x3b3b3b3b44455241555153204d4d20444552415551533b4e3b3b3b3b3242303020443630302044363030203e6572617571733c3b4c3b303b6f533b44455241555153204d4d204552415551533b46393333,
0x3b3b3b3b44455241555153204d4320444552415551533b4e3b3b3b3b3242303020443630302033363030203e6572617571733c3b4c3b303b6f533b44455241555153204d43204552415551533b30413333,
0x3b3b3b3b44455241555153204d20444552415551533b4e3b3b3b3b324230302044363030203e6572617571733c3b4c3b303b6f533b44455241555153204d204552415551533b31413333,
0x3b3b3b3b44455241555153204d4b20444552415551533b4e3b3b3b3b3242303020443630302042363030203e6572617571733c3b4c3b303b6f533b44455241555153204d4b204552415551533b32413333,
0x3b3b3b3b4445425543204d4d20444552415551533b4e3b3b3b3b3342303020443630302044363030203e6572617571733c3b4c3b303b6f533b4445425543204d4d204552415551533b33413333,
0x3b3b3b3b4445425543204d4320444552415551533b4e3b3b3b3b3342303020443630302033363030203e6572617571733c3b4c3b303b6f533b4445425543204d43204552415551533b34413333,
0x3b3b3b3b4445425543204d20444552415551533b4e3b3b3b3b334230302044363030203e6572617571733c3b4c3b303b6f533b4445425543204d204552415551533b35413333,
0x3b3b3b3b4445425543204d4b20444552415551533b4e3b3b3b3b3342303020443630302042363030203e6572617571733c3b4c3b303b6f533b4445425543204d4b204552415551533b36413333,
0x3b3b3b3b53205245564f204d20444552415551533b4e3b3b3b3b3337303020353132322044363030203e6572617571733c3b4c3b303b6f533b53205245564f204d204552415551533b37413333,
0x3b3b3b3b444552415551532053205245564f204d20444552415551533b4e3b3b3b3b32423030203337303020353132322044363030203e6572617571733c3b4c3b303b6f533b444552415551532053205245564f204d204552415551533b38413333,
0x3b3b3b3b415020444552415551533b4e3b3b3b3b313630302030353030203e6572617571733c3b4c3b303b6f533b4150204552415551533b39413333,
0x3b3b3b3b41504b20444552415551533b4e3b3b3b3b3136303020303530302042363030203e6572617571733c3b4c3b303b6f533b41504b204552415551533b41413333,
0x3b3b3b3b41504d20444552415551533b4e3b3b3b3b3136303020303530302044343030203e6572617571733c3b4c3b303b6f533b41504d204552415551533b42413333,
0x3b3b3b3b41504720444552415551533b4e3b3b3b3b3136303020303530302037343030203e6572617571733c3b4c3b303b6f533b415047204552415551533b43413333,
0x3b3b3b3b44415220444552415551533b4e3b3b3b3b3436303020313630302032373030203e6572617571733c3b4c3b303b6f533b444152204552415551533b44413333,
0x3b3b3b3b53205245564f2044415220444552415551533b4e3b3b3b3b333730302035313232203436303020313630302032373030203e6572617571733c3b4c3b303b6f533b53205245564f20444152204552415551533b45413333,
0x3b3b3b3b444552415551532053205245564f2044415220444552415551533b4e3b3b3b3b3242303020333730302035313232203436303020313630302032373030203e6572617571733c3b4c3b303b6f533b444552415551532053205245564f20444152204552415551533b46413333,
0x3b3b3b3b535020444552415551533b4e3b3b3b3b333730302030373030203e6572617571733c3b4c3b303b6f533b5350204552415551533b30423333,
0x3b3b3b3b534e20444552415551533b4e3b3b3b3b333730302045363030203e6572617571733c3b4c3b303b6f533b534e204552415551533b31423333,
0x3b3b3b3b5320554d20444552415551533b4e3b3b3b3b333730302043423330203e6572617571733c3b4c3b303b6f533b5320554d204552415551533b32423333,
0x3b3b3b3b534d20444552415551533b4e3b3b3b3b333730302044363030203e6572617571733c3b4c3b303b6f533b534d204552415551533b33423333,
0x3b3b3b3b565020444552415551533b4e3b3b3b3b363530302030373030203e6572617571733c3b4c3b303b6f533b5650204552415551533b34423333,
0x3b3b3b3b564e20444552415551533b4e3b3b3b3b363530302045363030203e6572617571733c3b4c3b303b6f533b564e204552415551533b35423333,
0x3b3b3b3b5620554d20444552415551533b4e3b3b3b3b363530302043423330203e6572617571733c3b4c3b303b6f533b5620554d204552415551533b36423333,
0x3b3b3b3b564d20444552415551533b4e3b3b3b3b363530302044363030203e6572617571733c3b4c3b303b6f533b564d204552415551533b37423333,
0x3b3b3b3b564b20444552415551533b4e3b3b3b3b363530302042363030203e6572617571733c3b4c3b303b6f533b564b204552415551533b38423333,
0x3b3b3b3b4147454d20564d20444552415551533b4e3b3b3b3b363530302044343030203e6572617571733c3b4c3b303b6f533b4147454d20564d204552415551533b39423333,
0x3b3b3b3b575020444552415551533b4e3b3b3b3b373530302030373030203e6572617571733c3b4c3b303b6f533b5750204552415551533b41423333,
0x3b3b3b3b574e20444552415551533b4e3b3b3b3b373530302045363030203e6572617571733c3b4c3b303b6f533b574e204552415551533b42423333,
0x3b3b3b3b5720554d20444552415551533b4e3b3b3b3b373530302043423330203e6572617571733c3b4c3b303b6f533b5720554d204552415551533b43423333,
0x3b3b3b3b574d20444552415551533b4e3b3b3b3b373530302044363030203e6572617571733c3b4c3b303b6f533b574d204552415551533b44423333,
0x3b3b3b3b574b20444552415551533b4e3b3b3b3b373530302042363030203e6572617571733c3b4c3b303b6f533b574b204552415551533b45423333,
0x3b3b3b3b4147454d20574d20444552415551533b4e3b3b3b3b373530302044343030203e6572617571733c3b4c3b303b6f533b4147454d20574d204552415551533b46423333,
0x3b3b3b3b4d484f204b20444552415551533b4e3b3b3b3b394133302042363030203e6572617571733c3b4c3b303b6f533b4d484f204b204552415551533b30433333,
0x3b3b3b3b4d484f204d20444552415551533b4e3b3b3b3b394133302044343030203e6572617571733c3b4c3b303b6f533b4d484f204d204552415551533b31433333,
0x3b3b3b3b4d4120444552415551533b4e3b3b3b3b45323030204436303020453230302031363030203e6572617571733c3b4c3b303b6f533b4d41204552415551533b32433333,
0x3b3b3b3b514220444552415551533b4e3b3b3b3b313730302032343030203e6572617571733c3b4c3b303b6f533b5142204552415551533b33433333,
0x3b3b3b3b434320444552415551533b4e3b3b3b3b333630302033363030203e6572617571733c3b4c3b303b6f533b4343204552415551533b34433333,
0x3b3b3b3b444320444552415551533b4e3b3b3b3b343630302033363030203e6572617571733c3b4c3b303b6f533b4443204552415551533b35433333,
0x3b3b3b3b474b205245564f204320444552415551533b4e3b3b3b3b37363030204236303020353132322033343030203e6572617571733c3b4c3b303b6f533b474b205245564f2043204552415551533b36433333,
0x3b3b3b3b4f4320444552415551533b4e3b3b3b3b4532303020463630302033343030203e6572617571733c3b4c3b303b6f533b4f43204552415551533b37433333,
0x3b3b3b3b424420444552415551533b4e3b3b3b3b323430302034363030203e6572617571733c3b4c3b303b6f533b4244204552415551533b38433333,
0x3b3b3b3b594720444552415551533b4e3b3b3b3b393730302037343030203e6572617571733c3b4c3b303b6f533b5947204552415551533b39433333,
0x3b3b3b3b414820444552415551533b4e3b3b3b3b313630302038363030203e6572617571733c3b4c3b303b6f533b4148204552415551533b41433333,
0x3b3b3b3b504820444552415551533b4e3b3b3b3b303530302038343030203e6572617571733c3b4c3b303b6f533b5048204552415551533b42433333,
0x3b3b3b3b4e4920444552415551533b4e3b3b3b3b453630302039363030203e6572617571733c3b4c3b303b6f533b4e49204552415551533b43433333,
0x3b3b3b3b4b4b20444552415551533b4e3b3b3b3b423430302042343030203e6572617571733c3b4c3b303b6f533b4b4b204552415551533b44433333,
0x3b3b3b3b4c415449504143204d4b20444552415551533b4e3b3b3b3b443430302042343030203e6572617571733c3b4c3b303b6f533b4c415449504143204d4b204552415551533b45433333,
0x3b3b3b3b544b20444552415551533b4e3b3b3b3b343730302042363030203e6572617571733c3b4c3b303b6f533b544b204552415551533b46433333,
0x3b3b3b3b4d4c20444552415551533b4e3b3b3b3b443630302043363030203e6572617571733c3b4c3b303b6f533b4d4c204552415551533b30443333,
0x3b3b3b3b4e4c20444552415551533b4e3b3b3b3b453630302043363030203e6572617571733c3b4c3b303b6f533b4e4c204552415551533b31443333,
0x3b3b3b3b474f4c20444552415551533b4e3b3b3b3b3736303020463630302043363030203e6572617571733c3b4c3b303b6f533b474f4c204552415551533b32443333,
0x3b3b3b3b584c20444552415551533b4e3b3b3b3b383730302043363030203e6572617571733c3b4c3b303b6f533b584c204552415551533b33443333,
0x3b3b3b3b4c4c414d5320424d20444552415551533b4e3b3b3b3b323630302044363030203e6572617571733c3b4c3b303b6f533b4c4c414d5320424d204552415551533b34443333,
0x3b3b3b3b4c494d20444552415551533b4e3b3b3b3b4336303020393630302044363030203e6572617571733c3b4c3b303b6f533b4c494d204552415551533b35443333,
0x3b3b3b3b4c4f4d20444552415551533b4e3b3b3b3b4336303020463630302044363030203e6572617571733c3b4c3b303b6f533b4c4f4d204552415551533b36443333,
0x3b3b3b3b485020444552415551533b4e3b3b3b3b383430302030353030203e6572617571733c3b4c3b303b6f533b4850204552415551533b37443333,
0x3b3b3b3b4d5020444552415551533b4e3b3b3b3b45323030204436303020453230302030373030203e6572617571733c3b4c3b303b6f533b4d50204552415551533b38443333,
0x3b3b3b3b4d505020444552415551533b4e3b3b3b3b4434303020303530302030353030203e6572617571733c3b4c3b303b6f533b4d5050204552415551533b39443333,
0x3b3b3b3b525020444552415551533b4e3b3b3b3b323530302030353030203e6572617571733c3b4c3b303b6f533b5250204552415551533b41443333,
0x3b3b3b3b525320444552415551533b4e3b3b3b3b323730302033373030203e6572617571733c3b4c3b303b6f533b5253204552415551533b42443333,
0x3b3b3b3b565320444552415551533b4e3b3b3b3b363730302033353030203e6572617571733c3b4c3b303b6f533b5653204552415551533b43443333,
0x3b3b3b3b425720444552415551533b4e3b3b3b3b323630302037353030203e6572617571733c3b4c3b303b6f533b4257204552415551533b44443333,
0x3b3b3b3b3b4e3b3b3b3b4436303020353132322036353030203e6572617571733c3b4e4f3b303b6f533b4d205245564f2056204552415551533b45443333,
0x3b3b3b3b3b4e3b3b3b3b4436303020353132322031343030203e6572617571733c3b4e4f3b303b6f533b4d205245564f2041204552415551533b46443333,
0x3b3b3b3b3b4e3b3b3b3b354535362031333030203e7461706d6f633c3b4c3b303b6f533b454e4f2059414420524f46204c4f424d5953204850415247454c455420434948504152474f4544493b30453333,
0x3b3b3b3b3b4e3b3b3b3b354535362032333030203e7461706d6f633c3b4c3b303b6f533b4f57542059414420524f46204c4f424d5953204850415247454c455420434948504152474f4544493b31453333,
0x3b3b3b3b3b4e3b3b3b3b354535362033333030203e7461706d6f633c3b4c3b303b6f533b45455248542059414420524f46204c4f424d5953204850415247454c455420434948504152474f4544493b32453333,
0x3b3b3b3b3b4e3b3b3b3b354535362034333030203e7461706d6f633c3b4c3b303b6f533b52554f462059414420524f46204c4f424d5953204850415247454c455420434948504152474f4544493b33453333,
0x3b3b3b3b3b4e3b3b3b3b354535362035333030203e7461706d6f633c3b4c3b303b6f533b455649462059414420524f46204c4f424d5953204850415247454c455420434948504152474f4544493b34453333,
0x3b3b3b3b3b4e3b3b3b3b354535362036333030203e7461706d6f633c3b4c3b303b6f533b5849532059414420524f46204c4f424d5953204850415247454c455420434948504152474f4544493b35453333,
0x3b3b3b3b3b4e3b3b3b3b354535362037333030203e7461706d6f633c3b4c3b303b6f533b4e455645532059414420524f46204c4f424d5953204850415247454c455420434948504152474f4544493b36453333,
0x3b3b3b3b3b4e3b3b3b3b354535362038333030203e7461706d6f633c3b4c3b303b6f533b54484749452059414420524f46204c4f424d5953204850415247454c455420434948504152474f4544493b37453333,
0x3b3b3b3b3b4e3b3b3b3b354535362039333030203e7461706d6f633c3b4c3b303b6f533b454e494e2059414420524f46204c4f424d5953204850415247454c455420434948504152474f4544493b38453333,
0x3b3b3b3b3b4e3b3b3b3b3545353620303330302031333030203e7461706d6f633c3b4c3b303b6f533b4e45542059414420524f46204c4f424d5953204850415247454c455420434948504152474f4544493b39453333,
0x3b3b3b3b3b4e3b3b3b3b3545353620313330302031333030203e7461706d6f633c3b4c3b303b6f533b4e4556454c452059414420524f46204c4f424d5953204850415247454c455420434948504152474f4544493b41453333,
0x3b3b3b3b3b4e3b3b3b3b3545353620323330302031333030203e7461706d6f633c3b4c3b303b6f533b45564c4557542059414420524f46204c4f424d5953204850415247454c455420434948504152474f4544493b42453333,
0x3b3b3b3b3b4e3b3b3b3b3545353620333330302031333030203e7461706d6f633c3b4c3b303b6f533b4e454554524948542059414420524f46204c4f424d5953204850415247454c455420434948504152474f4544493b43453333,
0x3b3b3b3b3b4e3b3b3b3b3545353620343330302031333030203e7461706d6f633c3b4c3b303b6f533b4e45455452554f462059414420524f46204c4f424d5953204850415247454c455420434948504152474f4544493b44453333,
0x3b3b3b3b3b4e3b3b3b3b3545353620353330302031333030203e7461706d6f633c3b4c3b303b6f533b4e4545544649462059414420524f46204c4f424d5953204850415247454c455420434948504152474f4544493b45453333,
0x3b3b3b3b3b4e3b3b3b3b3545353620363330302031333030203e7461706d6f633c3b4c3b303b6f533b4e4545545849532059414420524f46204c4f424d5953204850415247454c455420434948504152474f4544493b46453333,
0x3b3b3b3b3b4e3b3b3b3b3545353620373330302031333030203e7461706d6f633c3b4c3b303b6f533b4e4545544e455645532059414420524f46204c4f424d5953204850415247454c455420434948504152474f4544493b30463333,
0x3b3b3b3b3b4e3b3b3b3b3545353620383330302031333030203e7461706d6f633c3b4c3b303b6f533b4e454554484749452059414420524f46204c4f424d5953204850415247454c455420434948504152474f4544493b31463333,
0x3b3b3b3b3b4e3b3b3b3b3545353620393330302031333030203e7461706d6f633c3b4c3b303b6f533b4e454554454e494e2059414420524f46204c4f424d5953204850415247454c455420434948504152474f4544493b32463333,
0x3b3b3b3b3b4e3b3b3b3b3545353620303330302032333030203e7461706d6f633c3b4c3b303b6f533b59544e4557542059414420524f46204c4f424d5953204850415247454c455420434948504152474f4544493b33463333,
0x3b3b3b3b3b4e3b3b3b3b3545353620313330302032333030203e7461706d6f633c3b4c3b303b6f533b454e4f2d59544e4557542059414420524f46204c4f424d5953204850415247454c455420434948504152474f4544493b34463333,
0x3b3b3b3b3b4e3b3b3b3b3545353620323330302032333030203e7461706d6f633c3b4c3b303b6f533b4f57542d59544e4557542059414420524f46204c4f424d5953204850415247454c455420434948504152474f4544493b35463333,
0x3b3b3b3b3b4e3b3b3b3b3545353620333330302032333030203e7461706d6f633c3b4c3b303b6f533b45455248542d59544e4557542059414420524f46204c4f424d5953204850415247454c455420434948504152474f4544493b36463333,
0x3b3b3b3b3b4e3b3b3b3b3545353620343330302032333030203e7461706d6f633c3b4c3b303b6f533b52554f462d59544e4557542059414420524f46204c4f424d5953204850415247454c455420434948504152474f4544493b37463333,
0x3b3b3b3b3b4e3b3b3b3b3545353620353330302032333030203e7461706d6f633c3b4c3b303b6f533b455649462d59544e4557542059414420524f46204c4f424d5953204850415247454c455420434948504152474f4544493b38463333,
0x3b3b3b3b3b4e3b3b3b3b3545353620363330302032333030203e7461706d6f633c3b4c3b303b6f533b5849532d59544e4557542059414420524f46204c4f424d5953204850415247454c455420434948504152474f4544493b39463333,
0x3b3b3b3b3b4e3b3b3b3b3545353620373330302032333030203e7461706d6f633c3b4c3b303b6f533b4e455645532d59544e4557542059414420524f46204c4f424d5953204850415247454c455420434948504152474f4544493b41463333,
0x3b3b3b3b3b4e3b3b3b3b3545353620383330302032333030203e7461706d6f633c3b4c3b303b6f533b54484749452d59544e4557542059414420524f46204c4f424d5953204850415247454c455420434948504152474f4544493b42463333,
0x3b3b3b3b3b4e3b3b3b3b3545353620393330302032333030203e7461706d6f633c3b4c3b303b6f533b454e494e2d59544e4557542059414420524f46204c4f424d5953204850415247454c455420434948504152474f4544493b43463333,
0x3b3b3b3b3b4e3b3b3b3b3545353620303330302033333030203e7461706d6f633c3b4c3b303b6f533b5954524948542059414420524f46204c4f424d5953204850415247454c455420434948504152474f4544493b44463333,
0x3b3b3b3b3b4e3b3b3b3b3545353620313330302033333030203e7461706d6f633c3b4c3b303b6f533b454e4f2d5954524948542059414420524f46204c4f424d5953204850415247454c455420434948504152474f4544493b45463333,
0x3b3b3b3b3b4e3b3b3b3b4336303020313630302037363030203e6572617571733c3b4e4f3b303b6f533b4c4147204552415551533b46463333,
0x3b3b3b3b3b4e3b3b3b3b3b4c3b303b6f4c3b3e7473726946202c41206e6f69736e657478452068706172676f656449204b4a433c3b30303433,
0x3b3b3b3b3b4e3b3b3b3b3b4c3b303b6f4c3b3e7473614c202c41206e6f69736e657478452068706172676f656449204b4a433c3b35424434,
0x3b3b3b3b3b4e3b3b3b3b3b4e4f3b303b6f533b4e45564145482045564954414552432045485420524f46204d415247415845483b30434434,
0x3b3b3b3b3b4e3b3b3b3b3b4e4f3b303b6f533b4854524145204556495450454345522045485420524f46204d415247415845483b31434434,
0x3b3b3b3b3b4e3b3b3b3b3b4e4f3b303b6f533b474e494e4e49474542204548542054412059544c5543494646494420524f46204d415247415845483b32434434,
0x3b3b3b3b3b4e3b3b3b3b3b4e4f3b303b6f533b594c4c4f46204c55464854554f5920524f46204d415247415845483b33434434,
0x3b3b3b3b3b4e3b3b3b3b3b4e4f3b303b6f533b474e495449415720524f46204d415247415845483b34434434,
0x3b3b3b3b3b4e3b3b3b3b3b4e4f3b303b6f533b5443494c464e4f4320524f46204d415247415845483b35434434,
0x3b3b3b3b3b4e3b3b3b3b3b4e4f3b303b6f533b594d52412045485420524f46204d415247415845483b36434434,
0x3b3b3b3b3b4e3b3b3b3b3b4e4f3b303b6f533b5245485445474f5420474e49444c4f4820524f46204d415247415845483b37434434,
0x3b3b3b3b3b4e3b3b3b3b3b4e4f3b303b6f533b474e494d4154204c4c414d5320524f46204d415247415845483b38434434,
0x3b3b3b3b3b4e3b3b3b3b3b4e4f3b303b6f533b474e49444145525420524f46204d415247415845483b39434434,
0x3b3b3b3b3b4e3b3b3b3b3b4e4f3b303b6f533b454341455020524f46204d415247415845483b41434434,
0x3b3b3b3b3b4e3b3b3b3b3b4e4f3b303b6f533b4c4c495453444e41545320524f46204d415247415845483b42434434,
0x3b3b3b3b3b4e3b3b3b3b3b4e4f3b303b6f533b50494853574f4c4c454620524f46204d415247415845483b43434434,
0x3b3b3b3b3b4e3b3b3b3b3b4e4f3b303b6f533b4e4f4953534553534f5020544145524720524f46204d415247415845483b44434434,
0x3b3b3b3b3b4e3b3b3b3b3b4e4f3b303b6f533b59545345444f4d20524f46204d415247415845483b45434434,
0x3b3b3b3b3b4e3b3b3b3b3b4e4f3b303b6f533b4d534149535548544e4520524f46204d415247415845483b46434434,
0x3b3b3b3b3b4e3b3b3b3b3b4e4f3b303b6f533b474e49574f4c4c4f4620524f46204d415247415845483b30444434,
0x3b3b3b3b3b4e3b3b3b3b3b4e4f3b303b6f533b4445594143454420454854204e4f204b524f5720524f46204d415247415845483b31444434,
0x3b3b3b3b3b4e3b3b3b3b3b4e4f3b303b6f533b4843414f5250504120524f46204d415247415845483b32444434,
0x3b3b3b3b3b4e3b3b3b3b3b4e4f3b303b6f533b4e4f4954414c504d45544e4f4320524f46204d415247415845483b33444434,
0x3b3b3b3b3b4e3b3b3b3b3b4e4f3b303b6f533b4847554f52485420474e4954494220524f46204d415247415845483b34444434,
0x3b3b3b3b3b4e3b3b3b3b3b4e4f3b303b6f533b454341524720524f46204d415247415845483b35444434,
0x3b3b3b3b3b4e3b3b3b3b3b4e4f3b303b6f533b545241504120474e495454494c505320524f46204d415247415845483b36444434,
0x3b3b3b3b3b4e3b3b3b3b3b4e4f3b303b6f533b4e525554455220524f46204d415247415845483b37444434,
0x3b3b3b3b3b4e3b3b3b3b3b4e4f3b303b6f533b45434e45434f4e4e4920524f46204d415247415845483b38444434,
0x3b3b3b3b3b4e3b3b3b3b3b4e4f3b303b6f533b474e494d415420544145524720524f46204d415247415845483b39444434,
0x3b3b3b3b3b4e3b3b3b3b3b4e4f3b303b6f533b5352454e524f43204854554f4d20524f46204d415247415845483b41444434,
0x3b3b3b3b3b4e3b3b3b3b3b4e4f3b303b6f533b45434e415245444e4f5045525020544145524720524f46204d415247415845483b42444434,
0x3b3b3b3b3b4e3b3b3b3b3b4e4f3b303b6f533b5245544157204c414d535942412045485420524f46204d415247415845483b43444434,
0x3b3b3b3b3b4e3b3b3b3b3b4e4f3b303b6f533b4552494620474e49474e494c432045485420524f46204d415247415845483b44444434,
0x3b3b3b3b3b4e3b3b3b3b3b4e4f3b303b6f533b45434e45554c464e4920524f46204d415247415845483b45444434,
0x3b3b3b3b3b4e3b3b3b3b3b4e4f3b303b6f533b4e4f49544152554420524f46204d415247415845483b46444434,
0x3b3b3b3b3b4e3b3b3b3b3b4e4f3b303b6f533b5441455254455220524f46204d415247415845483b30454434,
0x3b3b3b3b3b4e3b3b3b3b3b4e4f3b303b6f533b5245574f5020544145524720524f46204d415247415845483b31454434,
0x3b3b3b3b3b4e3b3b3b3b3b4e4f3b303b6f533b53534552474f525020524f46204d415247415845483b32454434,
0x3b3b3b3b3b4e3b3b3b3b3b4e4f3b303b6f533b544847494c2045485420464f20474e494e454b52414420524f46204d415247415845483b33454434,
0x3b3b3b3b3b4e3b3b3b3b3b4e4f3b303b6f533b594c494d41462045485420524f46204d415247415845483b34454434,
0x3b3b3b3b3b4e3b3b3b3b3b4e4f3b303b6f533b4e4f495449534f50504f20524f46204d415247415845483b35454434,
0x3b3b3b3b3b4e3b3b3b3b3b4e4f3b303b6f533b4e4f49544355525453424f20524f46204d415247415845483b36454434,
0x3b3b3b3b3b4e3b3b3b3b3b4e4f3b303b6f533b45434e41524556494c454420524f46204d415247415845483b37454434,
0x3b3b3b3b3b4e3b3b3b3b3b4e4f3b303b6f533b455341455243454420524f46204d415247415845483b38454434,
0x3b3b3b3b3b4e3b3b3b3b3b4e4f3b303b6f533b4553414552434e4920524f46204d415247415845483b39454434,
0x3b3b3b3b3b4e3b3b3b3b3b4e4f3b303b6f533b4847554f5248544b4145524220524f46204d415247415845483b41454434,
0x3b3b3b3b3b4e3b3b3b3b3b4e4f3b303b6f533b5445454d204f5420474e494d4f4320524f46204d415247415845483b42454434,
0x3b3b3b3b3b4e3b3b3b3b3b4e4f3b303b6f533b5245485445474f5420474e4952454854414720524f46204d415247415845483b43454434,
0x3b3b3b3b3b4e3b3b3b3b3b4e4f3b303b6f533b44524157505520474e494853555020524f46204d415247415845483b44454434,
0x3b3b3b3b3b4e3b3b3b3b3b4e4f3b303b6f533b4e4f495353455250504f20524f46204d415247415845483b45454434,
0x3b3b3b3b3b4e3b3b3b3b3b4e4f3b303b6f533b4c4c45572045485420524f46204d415247415845483b46454434,
0x3b3b3b3b3b4e3b3b3b3b3b4e4f3b303b6f533b4e4f4954554c4f56455220524f46204d415247415845483b30464434,
0x3b3b3b3b3b4e3b3b3b3b3b4e4f3b303b6f533b4e4f52444c5541432045485420524f46204d415247415845483b31464434,
0x3b3b3b3b3b4e3b3b3b3b3b4e4f3b303b6f533b5245444e55485420474e4953554f52412045485420524f46204d415247415845483b32464434,
0x3b3b3b3b3b4e3b3b3b3b3b4e4f3b303b6f533b4e4941544e554f4d204c4c49545320474e495045454b2045485420524f46204d415247415845483b33464434,
0x3b3b3b3b3b4e3b3b3b3b3b4e4f3b303b6f533b544e454d504f4c4556454420524f46204d415247415845483b34464434,
0x3b3b3b3b3b4e3b3b3b3b3b4e4f3b303b6f533b4e454449414d20474e49595252414d2045485420524f46204d415247415845483b35464434,
0x3b3b3b3b3b4e3b3b3b3b3b4e4f3b303b6f533b45434e41444e55424120524f46204d415247415845483b36464434,
0x3b3b3b3b3b4e3b3b3b3b3b4e4f3b303b6f533b52455245444e41572045485420524f46204d415247415845483b37464434,
0x3b3b3b3b3b4e3b3b3b3b3b4e4f3b303b6f533b444e495720454c544e45472045485420524f46204d415247415845483b38464434,
0x3b3b3b3b3b4e3b3b3b3b3b4e4f3b303b6f533b454b414c2053554f594f4a2045485420524f46204d415247415845483b39464434,
0x3b3b3b3b3b4e3b3b3b3b3b4e4f3b303b6f533b4e4f495352455053494420524f46204d415247415845483b41464434,
0x3b3b3b3b3b4e3b3b3b3b3b4e4f3b303b6f533b4e4f49544154494d494c20524f46204d415247415845483b42464434,
0x3b3b3b3b3b4e3b3b3b3b3b4e4f3b303b6f533b48545552542052454e4e4920524f46204d415247415845483b43464434,
0x3b3b3b3b3b4e3b3b3b3b3b4e4f3b303b6f533b45434e415245444e4f50455250204c4c414d5320524f46204d415247415845483b44464434,
0x3b3b3b3b3b4e3b3b3b3b3b4e4f3b303b6f533b4e4f4954454c504d4f4320524554464120524f46204d415247415845483b45464434,
0x3b3b3b3b3b4e3b3b3b3b3b4e4f3b303b6f533b4e4f4954454c504d4f432045524f46454220524f46204d415247415845483b46464434,
0x3b3b3b3b3b4e3b3b3b3b3b4c3b303b6f4c3b3e7473726946202c68706172676f656449204b4a433c3b30304534,
0x3b3b3b3b3b4e3b3b3b3b3b4c3b303b6f4c3b3e7473614c202c68706172676f656449204b4a433c3b35444639,
0x3b3b3b3b3b4e3b3b3b3b3b4c3b303b6f4c3b544920454c42414c4c59532049593b30303041,
0x3b3b3b3b3b4e3b3b3b3b3b4c3b303b6f4c3b584920454c42414c4c59532049593b31303041,
0x3b3b3b3b3b4e3b3b3b3b3b4c3b303b6f4c3b4920454c42414c4c59532049593b32303041,
0x3b3b3b3b3b4e3b3b3b3b3b4c3b303b6f4c3b504920454c42414c4c59532049593b33303041,
0x3b3b3b3b3b4e3b3b3b3b3b4c3b303b6f4c3b54454920454c42414c4c59532049593b34303041,
0x3b3b3b3b3b4e3b3b3b3b3b4c3b303b6f4c3b58454920454c42414c4c59532049593b35303041,
0x3b3b3b3b3b4e3b3b3b3b3b4c3b303b6f4c3b454920454c42414c4c59532049593b36303041,
0x3b3b3b3b3b4e3b3b3b3b3b4c3b303b6f4c3b50454920454c42414c4c59532049593b37303041,
0x3b3b3b3b3b4e3b3b3b3b3b4c3b303b6f4c3b544120454c42414c4c59532049593b38303041,
0x3b3b3b3b3b4e3b3b3b3b3b4c3b303b6f4c3b584120454c42414c4c59532049593b39303041,
0x3b3b3b3b3b4e3b3b3b3b3b4c3b303b6f4c3b4120454c42414c4c59532049593b41303041,
0x3b3b3b3b3b4e3b3b3b3b3b4c3b303b6f4c3b504120454c42414c4c59532049593b42303041,
0x3b3b3b3b3b4e3b3b3b3b3b4c3b303b6f4c3b584f5520454c42414c4c59532049593b43303041]

/-- src/u5e/props/UnicodeData.txt lines 12033-12288. -/
def rawUcd47 : List Nat := [
0x3b3b3b3b3b4e3b3b3b3b3b4c3b303b6f4c3b4f5520454c42414c4c59532049593b44303041,
0x3b3b3b3b3b4e3b3b3b3b3b4c3b303b6f4c3b504f5520454c42414c4c59532049593b45303041,
0x3b3b3b3b3b4e3b3b3b3b3b4c3b303b6f4c3b544f20454c42414c4c59532049593b46303041,
0x3b3b3b3b3b4e3b3b3b3b3b4c3b303b6f4c3b584f20454c42414c4c59532049593b30313041,
0x3b3b3b3b3b4e3b3b3b3b3b4c3b303b6f4c3b4f20454c42414c4c59532049593b31313041,
0x3b3b3b3b3b4e3b3b3b3b3b4c3b303b6f4c3b504f20454c42414c4c59532049593b32313041,
0x3b3b3b3b3b4e3b3b3b3b3b4c3b303b6f4c3b584520454c42414c4c59532049593b33313041,
0x3b3b3b3b3b4e3b3b3b3b3b4c3b303b6f4c3b4520454c42414c4c59532049593b34313041,
0x3b3b3b3b3b4e3b3b3b3b3b4c3b303b6d4c3b555720454c42414c4c59532049593b35313041,
0x3b3b3b3b3b4e3b3b3b3b3b4c3b303b6f4c3b54494220454c42414c4c59532049593b36313041,
0x3b3b3b3b3b4e3b3b3b3b3b4c3b303b6f4c3b58494220454c42414c4c59532049593b37313041,
0x3b3b3b3b3b4e3b3b3b3b3b4c3b303b6f4c3b494220454c42414c4c59532049593b38313041,
0x3b3b3b3b3b4e3b3b3b3b3b4c3b303b6f4c3b50494220454c42414c4c59532049593b39313041,
0x3b3b3b3b3b4e3b3b3b3b3b4c3b303b6f4c3b5445494220454c42414c4c59532049593b41313041,
0x3b3b3b3b3b4e3b3b3b3b3b4c3b303b6f4c3b5845494220454c42414c4c59532049593b42313041,
0x3b3b3b3b3b4e3b3b3b3b3b4c3b303b6f4c3b45494220454c42414c4c59532049593b43313041,
0x3b3b3b3b3b4e3b3b3b3b3b4c3b303b6f4c3b5045494220454c42414c4c59532049593b44313041,
0x3b3b3b3b3b4e3b3b3b3b3b4c3b303b6f4c3b54414220454c42414c4c59532049593b45313041,
0x3b3b3b3b3b4e3b3b3b3b3b4c3b303b6f4c3b58414220454c42414c4c59532049593b46313041,
0x3b3b3b3b3b4e3b3b3b3b3b4c3b303b6f4c3b414220454c42414c4c59532049593b30323041,
0x3b3b3b3b3b4e3b3b3b3b3b4c3b303b6f4c3b50414220454c42414c4c59532049593b31323041,
0x3b3b3b3b3b4e3b3b3b3b3b4c3b303b6f4c3b584f554220454c42414c4c59532049593b32323041,
0x3b3b3b3b3b4e3b3b3b3b3b4c3b303b6f4c3b4f554220454c42414c4c59532049593b33323041,
0x3b3b3b3b3b4e3b3b3b3b3b4c3b303b6f4c3b504f554220454c42414c4c59532049593b34323041,
0x3b3b3b3b3b4e3b3b3b3b3b4c3b303b6f4c3b544f4220454c42414c4c59532049593b35323041,
0x3b3b3b3b3b4e3b3b3b3b3b4c3b303b6f4c3b584f4220454c42414c4c59532049593b36323041,
0x3b3b3b3b3b4e3b3b3b3b3b4c3b303b6f4c3b4f4220454c42414c4c59532049593b37323041,
0x3b3b3b3b3b4e3b3b3b3b3b4c3b303b6f4c3b504f4220454c42414c4c59532049593b38323041,
0x3b3b3b3b3b4e3b3b3b3b3b4c3b303b6f4c3b58454220454c42414c4c59532049593b39323041,
0x3b3b3b3b3b4e3b3b3b3b3b4c3b303b6f4c3b454220454c42414c4c59532049593b41323041,
0x3b3b3b3b3b4e3b3b3b3b3b4c3b303b6f4c3b50454220454c42414c4c59532049593b42323041,
0x3b3b3b3b3b4e3b3b3b3b3b4c3b303b6f4c3b54554220454c42414c4c59532049593b43323041,
0x3b3b3b3b3b4e3b3b3b3b3b4c3b303b6f4c3b58554220454c42414c4c59532049593b44323041,
0x3b3b3b3b3b4e3b3b3b3b3b4c3b303b6f4c3b554220454c42414c4c59532049593b45323041,
0x3b3b3b3b3b4e3b3b3b3b3b4c3b303b6f4c3b50554220454c42414c4c59532049593b46323041,
0x3b3b3b3b3b4e3b3b3b3b3b4c3b303b6f4c3b5852554220454c42414c4c59532049593b30333041,
0x3b3b3b3b3b4e3b3b3b3b3b4c3b303b6f4c3b52554220454c42414c4c59532049593b31333041,
0x3b3b3b3b3b4e3b3b3b3b3b4c3b303b6f4c3b54594220454c42414c4c59532049593b32333041,
0x3b3b3b3b3b4e3b3b3b3b3b4c3b303b6f4c3b58594220454c42414c4c59532049593b33333041,
0x3b3b3b3b3b4e3b3b3b3b3b4c3b303b6f4c3b594220454c42414c4c59532049593b34333041,
0x3b3b3b3b3b4e3b3b3b3b3b4c3b303b6f4c3b50594220454c42414c4c59532049593b35333041,
0x3b3b3b3b3b4e3b3b3b3b3b4c3b303b6f4c3b5852594220454c42414c4c59532049593b36333041,
0x3b3b3b3b3b4e3b3b3b3b3b4c3b303b6f4c3b52594220454c42414c4c59532049593b37333041,
0x3b3b3b3b3b4e3b3b3b3b3b4c3b303b6f4c3b54495020454c42414c4c59532049593b38333041,
0x3b3b3b3b3b4e3b3b3b3b3b4c3b303b6f4c3b58495020454c42414c4c59532049593b39333041,
0x3b3b3b3b3b4e3b3b3b3b3b4c3b303b6f4c3b495020454c42414c4c59532049593b41333041,
0x3b3b3b3b3b4e3b3b3b3b3b4c3b303b6f4c3b50495020454c42414c4c59532049593b42333041,
0x3b3b3b3b3b4e3b3b3b3b3b4c3b303b6f4c3b5845495020454c42414c4c59532049593b43333041,
0x3b3b3b3b3b4e3b3b3b3b3b4c3b303b6f4c3b45495020454c42414c4c59532049593b44333041,
0x3b3b3b3b3b4e3b3b3b3b3b4c3b303b6f4c3b5045495020454c42414c4c59532049593b45333041,
0x3b3b3b3b3b4e3b3b3b3b3b4c3b303b6f4c3b54415020454c42414c4c59532049593b46333041,
0x3b3b3b3b3b4e3b3b3b3b3b4c3b303b6f4c3b58415020454c42414c4c59532049593b30343041,
0x3b3b3b3b3b4e3b3b3b3b3b4c3b303b6f4c3b415020454c42414c4c59532049593b31343041,
0x3b3b3b3b3b4e3b3b3b3b3b4c3b303b6f4c3b50415020454c42414c4c59532049593b32343041,
0x3b3b3b3b3b4e3b3b3b3b3b4c3b303b6f4c3b584f555020454c42414c4c59532049593b33343041,
0x3b3b3b3b3b4e3b3b3b3b3b4c3b303b6f4c3b4f555020454c42414c4c59532049593b34343041,
0x3b3b3b3b3b4e3b3b3b3b3b4c3b303b6f4c3b504f555020454c42414c4c59532049593b35343041,
0x3b3b3b3b3b4e3b3b3b3b3b4c3b303b6f4c3b544f5020454c42414c4c59532049593b36343041,
0x3b3b3b3b3b4e3b3b3b3b3b4c3b303b6f4c3b584f5020454c42414c4c59532049593b37343041,
0x3b3b3b3b3b4e3b3b3b3b3b4c3b303b6f4c3b4f5020454c42414c4c59532049593b38343041,
0x3b3b3b3b3b4e3b3b3b3b3b4c3b303b6f4c3b504f5020454c42414c4c59532049593b39343041,
0x3b3b3b3b3b4e3b3b3b3b3b4c3b303b6f4c3b54555020454c42414c4c59532049593b41343041,
0x3b3b3b3b3b4e3b3b3b3b3b4c3b303b6f4c3b58555020454c42414c4c59532049593b42343041,
0x3b3b3b3b3b4e3b3b3b3b3b4c3b303b6f4c3b555020454c42414c4c59532049593b43343041,
0x3b3b3b3b3b4e3b3b3b3b3b4c3b303b6f4c3b50555020454c42414c4c59532049593b44343041,
0x3b3b3b3b3b4e3b3b3b3b3b4c3b303b6f4c3b5852555020454c42414c4c59532049593b45343041,
0x3b3b3b3b3b4e3b3b3b3b3b4c3b303b6f4c3b52555020454c42414c4c59532049593b46343041,
0x3b3b3b3b3b4e3b3b3b3b3b4c3b303b6f4c3b54595020454c42414c4c59532049593b30353041,
0x3b3b3b3b3b4e3b3b3b3b3b4c3b303b6f4c3b58595020454c42414c4c59532049593b31353041,
0x3b3b3b3b3b4e3b3b3b3b3b4c3b303b6f4c3b595020454c42414c4c59532049593b32353041,
0x3b3b3b3b3b4e3b3b3b3b3b4c3b303b6f4c3b50595020454c42414c4c59532049593b33353041,
0x3b3b3b3b3b4e3b3b3b3b3b4c3b303b6f4c3b5852595020454c42414c4c59532049593b34353041,
0x3b3b3b3b3b4e3b3b3b3b3b4c3b303b6f4c3b52595020454c42414c4c59532049593b35353041,
0x3b3b3b3b3b4e3b3b3b3b3b4c3b303b6f4c3b5449424220454c42414c4c59532049593b36353041,
0x3b3b3b3b3b4e3b3b3b3b3b4c3b303b6f4c3b5849424220454c42414c4c59532049593b37353041,
0x3b3b3b3b3b4e3b3b3b3b3b4c3b303b6f4c3b49424220454c42414c4c59532049593b38353041,
0x3b3b3b3b3b4e3b3b3b3b3b4c3b303b6f4c3b5049424220454c42414c4c59532049593b39353041,
0x3b3b3b3b3b4e3b3b3b3b3b4c3b303b6f4c3b544549424220454c42414c4c59532049593b41353041,
0x3b3b3b3b3b4e3b3b3b3b3b4c3b303b6f4c3b584549424220454c42414c4c59532049593b42353041,
0x3b3b3b3b3b4e3b3b3b3b3b4c3b303b6f4c3b4549424220454c42414c4c59532049593b43353041,
0x3b3b3b3b3b4e3b3b3b3b3b4c3b303b6f4c3b504549424220454c42414c4c59532049593b44353041,
0x3b3b3b3b3b4e3b3b3b3b3b4c3b303b6f4c3b5441424220454c42414c4c59532049593b45353041,
0x3b3b3b3b3b4e3b3b3b3b3b4c3b303b6f4c3b5841424220454c42414c4c59532049593b46353041,
0x3b3b3b3b3b4e3b3b3b3b3b4c3b303b6f4c3b41424220454c42414c4c59532049593b30363041,
0x3b3b3b3b3b4e3b3b3b3b3b4c3b303b6f4c3b5041424220454c42414c4c59532049593b31363041,
0x3b3b3b3b3b4e3b3b3b3b3b4c3b303b6f4c3b584f55424220454c42414c4c59532049593b32363041,
0x3b3b3b3b3b4e3b3b3b3b3b4c3b303b6f4c3b4f55424220454c42414c4c59532049593b33363041,
0x3b3b3b3b3b4e3b3b3b3b3b4c3b303b6f4c3b504f55424220454c42414c4c59532049593b34363041,
0x3b3b3b3b3b4e3b3b3b3b3b4c3b303b6f4c3b544f424220454c42414c4c59532049593b35363041,
0x3b3b3b3b3b4e3b3b3b3b3b4c3b303b6f4c3b584f424220454c42414c4c59532049593b36363041,
0x3b3b3b3b3b4e3b3b3b3b3b4c3b303b6f4c3b4f424220454c42414c4c59532049593b37363041,
0x3b3b3b3b3b4e3b3b3b3b3b4c3b303b6f4c3b504f424220454c42414c4c59532049593b38363041,
0x3b3b3b3b3b4e3b3b3b3b3b4c3b303b6f4c3b5845424220454c42414c4c59532049593b39363041,
0x3b3b3b3b3b4e3b3b3b3b3b4c3b303b6f4c3b45424220454c42414c4c59532049593b41363041,
0x3b3b3b3b3b4e3b3b3b3b3b4c3b303b6f4c3b5045424220454c42414c4c59532049593b42363041,
0x3b3b3b3b3b4e3b3b3b3b3b4c3b303b6f4c3b5455424220454c42414c4c59532049593b43363041,
0x3b3b3b3b3b4e3b3b3b3b3b4c3b303b6f4c3b5855424220454c42414c4c59532049593b44363041,
0x3b3b3b3b3b4e3b3b3b3b3b4c3b303b6f4c3b55424220454c42414c4c59532049593b45363041,
0x3b3b3b3b3b4e3b3b3b3b3b4c3b303b6f4c3b5055424220454c42414c4c59532049593b46363041,
0x3b3b3b3b3b4e3b3b3b3b3b4c3b303b6f4c3b585255424220454c42414c4c59532049593b30373041,
0x3b3b3b3b3b4e3b3b3b3b3b4c3b303b6f4c3b5255424220454c42414c4c59532049593b31373041,
0x3b3b3b3b3b4e3b3b3b3b3b4c3b303b6f4c3b5459424220454c42414c4c59532049593b32373041,
0x3b3b3b3b3b4e3b3b3b3b3b4c3b303b6f4c3b5859424220454c42414c4c59532049593b33373041,
0x3b3b3b3b3b4e3b3b3b3b3b4c3b303b6f4c3b59424220454c42414c4c59532049593b34373041,
0x3b3b3b3b3b4e3b3b3b3b3b4c3b303b6f4c3b5059424220454c42414c4c59532049593b35373041,
0x3b3b3b3b3b4e3b3b3b3b3b4c3b303b6f4c3b5449424e20454c42414c4c59532049593b36373041,
0x3b3b3b3b3b4e3b3b3b3b3b4c3b303b6f4c3b5849424e20454c42414c4c59532049593b37373041,
0x3b3b3b3b3b4e3b3b3b3b3b4c3b303b6f4c3b49424e20454c42414c4c59532049593b38373041,
0x3b3b3b3b3b4e3b3b3b3b3b4c3b303b6f4c3b5049424e20454c42414c4c59532049593b39373041,
0x3b3b3b3b3b4e3b3b3b3b3b4c3b303b6f4c3b584549424e20454c42414c4c59532049593b41373041,
0x3b3b3b3b3b4e3b3b3b3b3b4c3b303b6f4c3b4549424e20454c42414c4c59532049593b42373041,
0x3b3b3b3b3b4e3b3b3b3b3b4c3b303b6f4c3b504549424e20454c42414c4c59532049593b43373041,
0x3b3b3b3b3b4e3b3b3b3b3b4c3b303b6f4c3b5441424e20454c42414c4c59532049593b44373041,
0x3b3b3b3b3b4e3b3b3b3b3b4c3b303b6f4c3b5841424e20454c42414c4c59532049593b45373041,
0x3b3b3b3b3b4e3b3b3b3b3b4c3b303b6f4c3b41424e20454c42414c4c59532049593b46373041,
0x3b3b3b3b3b4e3b3b3b3b3b4c3b303b6f4c3b5041424e20454c42414c4c59532049593b30383041,
0x3b3b3b3b3b4e3b3b3b3b3b4c3b303b6f4c3b544f424e20454c42414c4c59532049593b31383041,
0x3b3b3b3b3b4e3b3b3b3b3b4c3b303b6f4c3b584f424e20454c42414c4c59532049593b32383041,
0x3b3b3b3b3b4e3b3b3b3b3b4c3b303b6f4c3b4f424e20454c42414c4c59532049593b33383041,
0x3b3b3b3b3b4e3b3b3b3b3b4c3b303b6f4c3b504f424e20454c42414c4c59532049593b34383041,
0x3b3b3b3b3b4e3b3b3b3b3b4c3b303b6f4c3b5455424e20454c42414c4c59532049593b35383041,
0x3b3b3b3b3b4e3b3b3b3b3b4c3b303b6f4c3b5855424e20454c42414c4c59532049593b36383041,
0x3b3b3b3b3b4e3b3b3b3b3b4c3b303b6f4c3b55424e20454c42414c4c59532049593b37383041,
0x3b3b3b3b3b4e3b3b3b3b3b4c3b303b6f4c3b5055424e20454c42414c4c59532049593b38383041,
0x3b3b3b3b3b4e3b3b3b3b3b4c3b303b6f4c3b585255424e20454c42414c4c59532049593b39383041,
0x3b3b3b3b3b4e3b3b3b3b3b4c3b303b6f4c3b5255424e20454c42414c4c59532049593b41383041,
0x3b3b3b3b3b4e3b3b3b3b3b4c3b303b6f4c3b5459424e20454c42414c4c59532049593b42383041,
0x3b3b3b3b3b4e3b3b3b3b3b4c3b303b6f4c3b5859424e20454c42414c4c59532049593b43383041,
0x3b3b3b3b3b4e3b3b3b3b3b4c3b303b6f4c3b59424e20454c42414c4c59532049593b44383041,
0x3b3b3b3b3b4e3b3b3b3b3b4c3b303b6f4c3b5059424e20454c42414c4c59532049593b45383041,
0x3b3b3b3b3b4e3b3b3b3b3b4c3b303b6f4c3b585259424e20454c42414c4c59532049593b46383041,
0x3b3b3b3b3b4e3b3b3b3b3b4c3b303b6f4c3b5259424e20454c42414c4c59532049593b30393041,
0x3b3b3b3b3b4e3b3b3b3b3b4c3b303b6f4c3b54494d4820454c42414c4c59532049593b31393041,
0x3b3b3b3b3b4e3b3b3b3b3b4c3b303b6f4c3b58494d4820454c42414c4c59532049593b32393041,
0x3b3b3b3b3b4e3b3b3b3b3b4c3b303b6f4c3b494d4820454c42414c4c59532049593b33393041,
0x3b3b3b3b3b4e3b3b3b3b3b4c3b303b6f4c3b50494d4820454c42414c4c59532049593b34393041,
0x3b3b3b3b3b4e3b3b3b3b3b4c3b303b6f4c3b5845494d4820454c42414c4c59532049593b35393041,
0x3b3b3b3b3b4e3b3b3b3b3b4c3b303b6f4c3b45494d4820454c42414c4c59532049593b36393041,
0x3b3b3b3b3b4e3b3b3b3b3b4c3b303b6f4c3b5045494d4820454c42414c4c59532049593b37393041,
0x3b3b3b3b3b4e3b3b3b3b3b4c3b303b6f4c3b54414d4820454c42414c4c59532049593b38393041,
0x3b3b3b3b3b4e3b3b3b3b3b4c3b303b6f4c3b58414d4820454c42414c4c59532049593b39393041,
0x3b3b3b3b3b4e3b3b3b3b3b4c3b303b6f4c3b414d4820454c42414c4c59532049593b41393041,
0x3b3b3b3b3b4e3b3b3b3b3b4c3b303b6f4c3b50414d4820454c42414c4c59532049593b42393041,
0x3b3b3b3b3b4e3b3b3b3b3b4c3b303b6f4c3b584f554d4820454c42414c4c59532049593b43393041,
0x3b3b3b3b3b4e3b3b3b3b3b4c3b303b6f4c3b4f554d4820454c42414c4c59532049593b44393041,
0x3b3b3b3b3b4e3b3b3b3b3b4c3b303b6f4c3b504f554d4820454c42414c4c59532049593b45393041,
0x3b3b3b3b3b4e3b3b3b3b3b4c3b303b6f4c3b544f4d4820454c42414c4c59532049593b46393041,
0x3b3b3b3b3b4e3b3b3b3b3b4c3b303b6f4c3b584f4d4820454c42414c4c59532049593b30413041,
0x3b3b3b3b3b4e3b3b3b3b3b4c3b303b6f4c3b4f4d4820454c42414c4c59532049593b31413041,
0x3b3b3b3b3b4e3b3b3b3b3b4c3b303b6f4c3b504f4d4820454c42414c4c59532049593b32413041,
0x3b3b3b3b3b4e3b3b3b3b3b4c3b303b6f4c3b54554d4820454c42414c4c59532049593b33413041,
0x3b3b3b3b3b4e3b3b3b3b3b4c3b303b6f4c3b58554d4820454c42414c4c59532049593b34413041,
0x3b3b3b3b3b4e3b3b3b3b3b4c3b303b6f4c3b554d4820454c42414c4c59532049593b35413041,
0x3b3b3b3b3b4e3b3b3b3b3b4c3b303b6f4c3b50554d4820454c42414c4c59532049593b36413041,
0x3b3b3b3b3b4e3b3b3b3b3b4c3b303b6f4c3b5852554d4820454c42414c4c59532049593b37413041,
0x3b3b3b3b3b4e3b3b3b3b3b4c3b303b6f4c3b52554d4820454c42414c4c59532049593b38413041,
0x3b3b3b3b3b4e3b3b3b3b3b4c3b303b6f4c3b58594d4820454c42414c4c59532049593b39413041,
0x3b3b3b3b3b4e3b3b3b3b3b4c3b303b6f4c3b594d4820454c42414c4c59532049593b41413041,
0x3b3b3b3b3b4e3b3b3b3b3b4c3b303b6f4c3b50594d4820454c42414c4c59532049593b42413041,
0x3b3b3b3b3b4e3b3b3b3b3b4c3b303b6f4c3b5852594d4820454c42414c4c59532049593b43413041,
0x3b3b3b3b3b4e3b3b3b3b3b4c3b303b6f4c3b52594d4820454c42414c4c59532049593b44413041,
0x3b3b3b3b3b4e3b3b3b3b3b4c3b303b6f4c3b54494d20454c42414c4c59532049593b45413041,
0x3b3b3b3b3b4e3b3b3b3b3b4c3b303b6f4c3b58494d20454c42414c4c59532049593b46413041,
0x3b3b3b3b3b4e3b3b3b3b3b4c3b303b6f4c3b494d20454c42414c4c59532049593b30423041,
0x3b3b3b3b3b4e3b3b3b3b3b4c3b303b6f4c3b50494d20454c42414c4c59532049593b31423041,
0x3b3b3b3b3b4e3b3b3b3b3b4c3b303b6f4c3b5845494d20454c42414c4c59532049593b32423041,
0x3b3b3b3b3b4e3b3b3b3b3b4c3b303b6f4c3b45494d20454c42414c4c59532049593b33423041,
0x3b3b3b3b3b4e3b3b3b3b3b4c3b303b6f4c3b5045494d20454c42414c4c59532049593b34423041,
0x3b3b3b3b3b4e3b3b3b3b3b4c3b303b6f4c3b54414d20454c42414c4c59532049593b35423041,
0x3b3b3b3b3b4e3b3b3b3b3b4c3b303b6f4c3b58414d20454c42414c4c59532049593b36423041,
0x3b3b3b3b3b4e3b3b3b3b3b4c3b303b6f4c3b414d20454c42414c4c59532049593b37423041,
0x3b3b3b3b3b4e3b3b3b3b3b4c3b303b6f4c3b50414d20454c42414c4c59532049593b38423041,
0x3b3b3b3b3b4e3b3b3b3b3b4c3b303b6f4c3b544f554d20454c42414c4c59532049593b39423041,
0x3b3b3b3b3b4e3b3b3b3b3b4c3b303b6f4c3b584f554d20454c42414c4c59532049593b41423041,
0x3b3b3b3b3b4e3b3b3b3b3b4c3b303b6f4c3b4f554d20454c42414c4c59532049593b42423041,
0x3b3b3b3b3b4e3b3b3b3b3b4c3b303b6f4c3b504f554d20454c42414c4c59532049593b43423041,
0x3b3b3b3b3b4e3b3b3b3b3b4c3b303b6f4c3b544f4d20454c42414c4c59532049593b44423041,
0x3b3b3b3b3b4e3b3b3b3b3b4c3b303b6f4c3b584f4d20454c42414c4c59532049593b45423041,
0x3b3b3b3b3b4e3b3b3b3b3b4c3b303b6f4c3b4f4d20454c42414c4c59532049593b46423041,
0x3b3b3b3b3b4e3b3b3b3b3b4c3b303b6f4c3b504f4d20454c42414c4c59532049593b30433041,
0x3b3b3b3b3b4e3b3b3b3b3b4c3b303b6f4c3b58454d20454c42414c4c59532049593b31433041,
0x3b3b3b3b3b4e3b3b3b3b3b4c3b303b6f4c3b454d20454c42414c4c59532049593b32433041,
0x3b3b3b3b3b4e3b3b3b3b3b4c3b303b6f4c3b54554d20454c42414c4c59532049593b33433041,
0x3b3b3b3b3b4e3b3b3b3b3b4c3b303b6f4c3b58554d20454c42414c4c59532049593b34433041,
0x3b3b3b3b3b4e3b3b3b3b3b4c3b303b6f4c3b554d20454c42414c4c59532049593b35433041,
0x3b3b3b3b3b4e3b3b3b3b3b4c3b303b6f4c3b50554d20454c42414c4c59532049593b36433041,
0x3b3b3b3b3b4e3b3b3b3b3b4c3b303b6f4c3b5852554d20454c42414c4c59532049593b37433041,
0x3b3b3b3b3b4e3b3b3b3b3b4c3b303b6f4c3b52554d20454c42414c4c59532049593b38433041,
0x3b3b3b3b3b4e3b3b3b3b3b4c3b303b6f4c3b54594d20454c42414c4c59532049593b39433041,
0x3b3b3b3b3b4e3b3b3b3b3b4c3b303b6f4c3b58594d20454c42414c4c59532049593b41433041,
0x3b3b3b3b3b4e3b3b3b3b3b4c3b303b6f4c3b594d20454c42414c4c59532049593b42433041,
0x3b3b3b3b3b4e3b3b3b3b3b4c3b303b6f4c3b50594d20454c42414c4c59532049593b43433041,
0x3b3b3b3b3b4e3b3b3b3b3b4c3b303b6f4c3b54494620454c42414c4c59532049593b44433041,
0x3b3b3b3b3b4e3b3b3b3b3b4c3b303b6f4c3b58494620454c42414c4c59532049593b45433041,
0x3b3b3b3b3b4e3b3b3b3b3b4c3b303b6f4c3b494620454c42414c4c59532049593b46433041,
0x3b3b3b3b3b4e3b3b3b3b3b4c3b303b6f4c3b50494620454c42414c4c59532049593b30443041,
0x3b3b3b3b3b4e3b3b3b3b3b4c3b303b6f4c3b54414620454c42414c4c59532049593b31443041,
0x3b3b3b3b3b4e3b3b3b3b3b4c3b303b6f4c3b58414620454c42414c4c59532049593b32443041,
0x3b3b3b3b3b4e3b3b3b3b3b4c3b303b6f4c3b414620454c42414c4c59532049593b33443041,
0x3b3b3b3b3b4e3b3b3b3b3b4c3b303b6f4c3b50414620454c42414c4c59532049593b34443041,
0x3b3b3b3b3b4e3b3b3b3b3b4c3b303b6f4c3b584f4620454c42414c4c59532049593b35443041,
0x3b3b3b3b3b4e3b3b3b3b3b4c3b303b6f4c3b4f4620454c42414c4c59532049593b36443041,
0x3b3b3b3b3b4e3b3b3b3b3b4c3b303b6f4c3b504f4620454c42414c4c59532049593b37443041,
0x3b3b3b3b3b4e3b3b3b3b3b4c3b303b6f4c3b54554620454c42414c4c59532049593b38443041,
0x3b3b3b3b3b4e3b3b3b3b3b4c3b303b6f4c3b58554620454c42414c4c59532049593b39443041,
0x3b3b3b3b3b4e3b3b3b3b3b4c3b303b6f4c3b554620454c42414c4c59532049593b41443041,
0x3b3b3b3b3b4e3b3b3b3b3b4c3b303b6f4c3b50554620454c42414c4c59532049593b42443041,
0x3b3b3b3b3b4e3b3b3b3b3b4c3b303b6f4c3b5852554620454c42414c4c59532049593b43443041,
0x3b3b3b3b3b4e3b3b3b3b3b4c3b303b6f4c3b52554620454c42414c4c59532049593b44443041,
0x3b3b3b3b3b4e3b3b3b3b3b4c3b303b6f4c3b54594620454c42414c4c59532049593b45443041,
0x3b3b3b3b3b4e3b3b3b3b3b4c3b303b6f4c3b58594620454c42414c4c59532049593b46443041,
0x3b3b3b3b3b4e3b3b3b3b3b4c3b303b6f4c3b594620454c42414c4c59532049593b30453041,
0x3b3b3b3b3b4e3b3b3b3b3b4c3b303b6f4c3b50594620454c42414c4c59532049593b31453041,
0x3b3b3b3b3b4e3b3b3b3b3b4c3b303b6f4c3b54495620454c42414c4c59532049593b32453041,
0x3b3b3b3b3b4e3b3b3b3b3b4c3b303b6f4c3b58495620454c42414c4c59532049593b33453041,
0x3b3b3b3b3b4e3b3b3b3b3b4c3b303b6f4c3b495620454c42414c4c59532049593b34453041,
0x3b3b3b3b3b4e3b3b3b3b3b4c3b303b6f4c3b50495620454c42414c4c59532049593b35453041,
0x3b3b3b3b3b4e3b3b3b3b3b4c3b303b6f4c3b5445495620454c42414c4c59532049593b36453041,
0x3b3b3b3b3b4e3b3b3b3b3b4c3b303b6f4c3b5845495620454c42414c4c59532049593b37453041,
0x3b3b3b3b3b4e3b3b3b3b3b4c3b303b6f4c3b45495620454c42414c4c59532049593b38453041,
0x3b3b3b3b3b4e3b3b3b3b3b4c3b303b6f4c3b5045495620454c42414c4c59532049593b39453041,
0x3b3b3b3b3b4e3b3b3b3b3b4c3b303b6f4c3b54415620454c42414c4c59532049593b41453041,
0x3b3b3b3b3b4e3b3b3b3b3b4c3b303b6f4c3b58415620454c42414c4c59532049593b42453041,
0x3b3b3b3b3b4e3b3b3b3b3b4c3b303b6f4c3b415620454c42414c4c59532049593b43453041,
0x3b3b3b3b3b4e3b3b3b3b3b4c3b303b6f4c3b50415620454c42414c4c59532049593b44453041,
0x3b3b3b3b3b4e3b3b3b3b3b4c3b303b6f4c3b544f5620454c42414c4c59532049593b45453041,
0x3b3b3b3b3b4e3b3b3b3b3b4c3b303b6f4c3b584f5620454c42414c4c59532049593b46453041,
0x3b3b3b3b3b4e3b3b3b3b3b4c3b303b6f4c3b4f5620454c42414c4c59532049593b30463041,
0x3b3b3b3b3b4e3b3b3b3b3b4c3b303b6f4c3b504f5620454c42414c4c59532049593b31463041,
0x3b3b3b3b3b4e3b3b3b3b3b4c3b303b6f4c3b58455620454c42414c4c59532049593b32463041,
0x3b3b3b3b3b4e3b3b3b3b3b4c3b303b6f4c3b50455620454c42414c4c59532049593b33463041,
0x3b3b3b3b3b4e3b3b3b3b3b4c3b303b6f4c3b54555620454c42414c4c59532049593b34463041,
0x3b3b3b3b3b4e3b3b3b3b3b4c3b303b6f4c3b58555620454c42414c4c59532049593b35463041,
0x3b3b3b3b3b4e3b3b3b3b3b4c3b303b6f4c3b555620454c42414c4c59532049593b36463041,
0x3b3b3b3b3b4e3b3b3b3b3b4c3b303b6f4c3b50555620454c42414c4c59532049593b37463041,
0x3b3b3b3b3b4e3b3b3b3b3b4c3b303b6f4c3b5852555620454c42414c4c59532049593b38463041,
0x3b3b3b3b3b4e3b3b3b3b3b4c3b303b6f4c3b52555620454c42414c4c59532049593b39463041,
0x3b3b3b3b3b4e3b3b3b3b3b4c3b303b6f4c3b54595620454c42414c4c59532049593b41463041,
0x3b3b3b3b3b4e3b3b3b3b3b4c3b303b6f4c3b58595620454c42414c4c59532049593b42463041,
0x3b3b3b3b3b4e3b3b3b3b3b4c3b303b6f4c3b595620454c42414c4c59532049593b43463041,
0x3b3b3b3b3b4e3b3b3b3b3b4c3b303b6f4c3b50595620454c42414c4c59532049593b44463041,
0x3b3b3b3b3b4e3b3b3b3b3b4c3b303b6f4c3b5852595620454c42414c4c59532049593b45463041,
0x3b3b3b3b3b4e3b3b3b3b3b4c3b303b6f4c3b52595620454c42414c4c59532049593b46463041,
0x3b3b3b3b3b4e3b3b3b3b3b4c3b303b6f4c3b54494420454c42414c4c59532049593b30303141,
0x3b3b3b3b3b4e3b3b3b3b3b4c3b303b6f4c3b58494420454c42414c4c59532049593b31303141,
0x3b3b3b3b3b4e3b3b3b3b3b4c3b303b6f4c3b494420454c42414c4c59532049593b32303141,
0x3b3b3b3b3b4e3b3b3b3b3b4c3b303b6f4c3b50494420454c42414c4c59532049593b33303141,
0x3b3b3b3b3b4e3b3b3b3b3b4c3b303b6f4c3b5845494420454c42414c4c59532049593b34303141,
0x3b3b3b3b3b4e3b3b3b3b3b4c3b303b6f4c3b45494420454c42414c4c59532049593b35303141,
0x3b3b3b3b3b4e3b3b3b3b3b4c3b303b6f4c3b5045494420454c42414c4c59532049593b36303141,
0x3b3b3b3b3b4e3b3b3b3b3b4c3b303b6f4c3b54414420454c42414c4c59532049593b37303141,
0x3b3b3b3b3b4e3b3b3b3b3b4c3b303b6f4c3b58414420454c42414c4c59532049593b38303141,
0x3b3b3b3b3b4e3b3b3b3b3b4c3b303b6f4c3b414420454c42414c4c59532049593b39303141,
0x3b3b3b3b3b4e3b3b3b3b3b4c3b303b6f4c3b50414420454c42414c4c59532049593b41303141,
0x3b3b3b3b3b4e3b3b3b3b3b4c3b303b6f4c3b584f554420454c42414c4c59532049593b42303141,
0x3b3b3b3b3b4e3b3b3b3b3b4c3b303b6f4c3b4f554420454c42414c4c59532049593b43303141]

/-- src/u5e/props/UnicodeData.txt lines 12289-12544. -/
def rawUcd48 : List Nat := [
0x3b3b3b3b3b4e3b3b3b3b3b4c3b303b6f4c3b544f4420454c42414c4c59532049593b44303141,
0x3b3b3b3b3b4e3b3b3b3b3b4c3b303b6f4c3b584f4420454c42414c4c59532049593b45303141,
0x3b3b3b3b3b4e3b3b3b3b3b4c3b303b6f4c3b4f4420454c42414c4c59532049593b46303141,
0x3b3b3b3b3b4e3b3b3b3b3b4c3b303b6f4c3b504f4420454c42414c4c59532049593b30313141,
0x3b3b3b3b3b4e3b3b3b3b3b4c3b303b6f4c3b58454420454c42414c4c59532049593b31313141,
0x3b3b3b3b3b4e3b3b3b3b3b4c3b303b6f4c3b454420454c42414c4c59532049593b32313141,
0x3b3b3b3b3b4e3b3b3b3b3b4c3b303b6f4c3b50454420454c42414c4c59532049593b33313141,
0x3b3b3b3b3b4e3b3b3b3b3b4c3b303b6f4c3b54554420454c42414c4c59532049593b34313141,
0x3b3b3b3b3b4e3b3b3b3b3b4c3b303b6f4c3b58554420454c42414c4c59532049593b35313141,
0x3b3b3b3b3b4e3b3b3b3b3b4c3b303b6f4c3b554420454c42414c4c59532049593b36313141,
0x3b3b3b3b3b4e3b3b3b3b3b4c3b303b6f4c3b50554420454c42414c4c59532049593b37313141,
0x3b3b3b3b3b4e3b3b3b3b3b4c3b303b6f4c3b5852554420454c42414c4c59532049593b38313141,
0x3b3b3b3b3b4e3b3b3b3b3b4c3b303b6f4c3b52554420454c42414c4c59532049593b39313141,
0x3b3b3b3b3b4e3b3b3b3b3b4c3b303b6f4c3b54495420454c42414c4c59532049593b41313141,
0x3b3b3b3b3b4e3b3b3b3b3b4c3b303b6f4c3b58495420454c42414c4c59532049593b42313141,
0x3b3b3b3b3b4e3b3b3b3b3b4c3b303b6f4c3b495420454c42414c4c59532049593b43313141,
0x3b3b3b3b3b4e3b3b3b3b3b4c3b303b6f4c3b50495420454c42414c4c59532049593b44313141,
0x3b3b3b3b3b4e3b3b3b3b3b4c3b303b6f4c3b5845495420454c42414c4c59532049593b45313141,
0x3b3b3b3b3b4e3b3b3b3b3b4c3b303b6f4c3b45495420454c42414c4c59532049593b46313141,
0x3b3b3b3b3b4e3b3b3b3b3b4c3b303b6f4c3b5045495420454c42414c4c59532049593b30323141,
0x3b3b3b3b3b4e3b3b3b3b3b4c3b303b6f4c3b54415420454c42414c4c59532049593b31323141,
0x3b3b3b3b3b4e3b3b3b3b3b4c3b303b6f4c3b58415420454c42414c4c59532049593b32323141,
0x3b3b3b3b3b4e3b3b3b3b3b4c3b303b6f4c3b415420454c42414c4c59532049593b33323141,
0x3b3b3b3b3b4e3b3b3b3b3b4c3b303b6f4c3b50415420454c42414c4c59532049593b34323141,
0x3b3b3b3b3b4e3b3b3b3b3b4c3b303b6f4c3b544f555420454c42414c4c59532049593b35323141,
0x3b3b3b3b3b4e3b3b3b3b3b4c3b303b6f4c3b584f555420454c42414c4c59532049593b36323141,
0x3b3b3b3b3b4e3b3b3b3b3b4c3b303b6f4c3b4f555420454c42414c4c59532049593b37323141,
0x3b3b3b3b3b4e3b3b3b3b3b4c3b303b6f4c3b504f555420454c42414c4c59532049593b38323141,
0x3b3b3b3b3b4e3b3b3b3b3b4c3b303b6f4c3b544f5420454c42414c4c59532049593b39323141,
0x3b3b3b3b3b4e3b3b3b3b3b4c3b303b6f4c3b584f5420454c42414c4c59532049593b41323141,
0x3b3b3b3b3b4e3b3b3b3b3b4c3b303b6f4c3b4f5420454c42414c4c59532049593b42323141,
0x3b3b3b3b3b4e3b3b3b3b3b4c3b303b6f4c3b504f5420454c42414c4c59532049593b43323141,
0x3b3b3b3b3b4e3b3b3b3b3b4c3b303b6f4c3b58455420454c42414c4c59532049593b44323141,
0x3b3b3b3b3b4e3b3b3b3b3b4c3b303b6f4c3b455420454c42414c4c59532049593b45323141,
0x3b3b3b3b3b4e3b3b3b3b3b4c3b303b6f4c3b50455420454c42414c4c59532049593b46323141,
0x3b3b3b3b3b4e3b3b3b3b3b4c3b303b6f4c3b54555420454c42414c4c59532049593b30333141,
0x3b3b3b3b3b4e3b3b3b3b3b4c3b303b6f4c3b58555420454c42414c4c59532049593b31333141,
0x3b3b3b3b3b4e3b3b3b3b3b4c3b303b6f4c3b555420454c42414c4c59532049593b32333141,
0x3b3b3b3b3b4e3b3b3b3b3b4c3b303b6f4c3b50555420454c42414c4c59532049593b33333141,
0x3b3b3b3b3b4e3b3b3b3b3b4c3b303b6f4c3b5852555420454c42414c4c59532049593b34333141,
0x3b3b3b3b3b4e3b3b3b3b3b4c3b303b6f4c3b52555420454c42414c4c59532049593b35333141,
0x3b3b3b3b3b4e3b3b3b3b3b4c3b303b6f4c3b5449444420454c42414c4c59532049593b36333141,
0x3b3b3b3b3b4e3b3b3b3b3b4c3b303b6f4c3b5849444420454c42414c4c59532049593b37333141,
0x3b3b3b3b3b4e3b3b3b3b3b4c3b303b6f4c3b49444420454c42414c4c59532049593b38333141,
0x3b3b3b3b3b4e3b3b3b3b3b4c3b303b6f4c3b5049444420454c42414c4c59532049593b39333141,
0x3b3b3b3b3b4e3b3b3b3b3b4c3b303b6f4c3b584549444420454c42414c4c59532049593b41333141,
0x3b3b3b3b3b4e3b3b3b3b3b4c3b303b6f4c3b4549444420454c42414c4c59532049593b42333141,
0x3b3b3b3b3b4e3b3b3b3b3b4c3b303b6f4c3b504549444420454c42414c4c59532049593b43333141,
0x3b3b3b3b3b4e3b3b3b3b3b4c3b303b6f4c3b5441444420454c42414c4c59532049593b44333141,
0x3b3b3b3b3b4e3b3b3b3b3b4c3b303b6f4c3b5841444420454c42414c4c59532049593b45333141,
0x3b3b3b3b3b4e3b3b3b3b3b4c3b303b6f4c3b41444420454c42414c4c59532049593b46333141,
0x3b3b3b3b3b4e3b3b3b3b3b4c3b303b6f4c3b5041444420454c42414c4c59532049593b30343141,
0x3b3b3b3b3b4e3b3b3b3b3b4c3b303b6f4c3b584f55444420454c42414c4c59532049593b31343141,
0x3b3b3b3b3b4e3b3b3b3b3b4c3b303b6f4c3b4f55444420454c42414c4c59532049593b32343141,
0x3b3b3b3b3b4e3b3b3b3b3b4c3b303b6f4c3b504f55444420454c42414c4c59532049593b33343141,
0x3b3b3b3b3b4e3b3b3b3b3b4c3b303b6f4c3b544f444420454c42414c4c59532049593b34343141,
0x3b3b3b3b3b4e3b3b3b3b3b4c3b303b6f4c3b584f444420454c42414c4c59532049593b35343141,
0x3b3b3b3b3b4e3b3b3b3b3b4c3b303b6f4c3b4f444420454c42414c4c59532049593b36343141,
0x3b3b3b3b3b4e3b3b3b3b3b4c3b303b6f4c3b504f444420454c42414c4c59532049593b37343141,
0x3b3b3b3b3b4e3b3b3b3b3b4c3b303b6f4c3b5845444420454c42414c4c59532049593b38343141,
0x3b3b3b3b3b4e3b3b3b3b3b4c3b303b6f4c3b45444420454c42414c4c59532049593b39343141,
0x3b3b3b3b3b4e3b3b3b3b3b4c3b303b6f4c3b5045444420454c42414c4c59532049593b41343141,
0x3b3b3b3b3b4e3b3b3b3b3b4c3b303b6f4c3b5455444420454c42414c4c59532049593b42343141,
0x3b3b3b3b3b4e3b3b3b3b3b4c3b303b6f4c3b5855444420454c42414c4c59532049593b43343141,
0x3b3b3b3b3b4e3b3b3b3b3b4c3b303b6f4c3b55444420454c42414c4c59532049593b44343141,
0x3b3b3b3b3b4e3b3b3b3b3b4c3b303b6f4c3b5055444420454c42414c4c59532049593b45343141,
0x3b3b3b3b3b4e3b3b3b3b3b4c3b303b6f4c3b585255444420454c42414c4c59532049593b46343141,
0x3b3b3b3b3b4e3b3b3b3b3b4c3b303b6f4c3b5255444420454c42414c4c59532049593b30353141,
0x3b3b3b3b3b4e3b3b3b3b3b4c3b303b6f4c3b5449444e20454c42414c4c59532049593b31353141,
0x3b3b3b3b3b4e3b3b3b3b3b4c3b303b6f4c3b5849444e20454c42414c4c59532049593b32353141,
0x3b3b3b3b3b4e3b3b3b3b3b4c3b303b6f4c3b49444e20454c42414c4c59532049593b33353141,
0x3b3b3b3b3b4e3b3b3b3b3b4c3b303b6f4c3b5049444e20454c42414c4c59532049593b34353141,
0x3b3b3b3b3b4e3b3b3b3b3b4c3b303b6f4c3b584549444e20454c42414c4c59532049593b35353141,
0x3b3b3b3b3b4e3b3b3b3b3b4c3b303b6f4c3b4549444e20454c42414c4c59532049593b36353141,
0x3b3b3b3b3b4e3b3b3b3b3b4c3b303b6f4c3b5441444e20454c42414c4c59532049593b37353141,
0x3b3b3b3b3b4e3b3b3b3b3b4c3b303b6f4c3b5841444e20454c42414c4c59532049593b38353141,
0x3b3b3b3b3b4e3b3b3b3b3b4c3b303b6f4c3b41444e20454c42414c4c59532049593b39353141,
0x3b3b3b3b3b4e3b3b3b3b3b4c3b303b6f4c3b5041444e20454c42414c4c59532049593b41353141,
0x3b3b3b3b3b4e3b3b3b3b3b4c3b303b6f4c3b544f444e20454c42414c4c59532049593b42353141,
0x3b3b3b3b3b4e3b3b3b3b3b4c3b303b6f4c3b584f444e20454c42414c4c59532049593b43353141,
0x3b3b3b3b3b4e3b3b3b3b3b4c3b303b6f4c3b4f444e20454c42414c4c59532049593b44353141,
0x3b3b3b3b3b4e3b3b3b3b3b4c3b303b6f4c3b504f444e20454c42414c4c59532049593b45353141,
0x3b3b3b3b3b4e3b3b3b3b3b4c3b303b6f4c3b5845444e20454c42414c4c59532049593b46353141,
0x3b3b3b3b3b4e3b3b3b3b3b4c3b303b6f4c3b45444e20454c42414c4c59532049593b30363141,
0x3b3b3b3b3b4e3b3b3b3b3b4c3b303b6f4c3b5045444e20454c42414c4c59532049593b31363141,
0x3b3b3b3b3b4e3b3b3b3b3b4c3b303b6f4c3b5455444e20454c42414c4c59532049593b32363141,
0x3b3b3b3b3b4e3b3b3b3b3b4c3b303b6f4c3b5855444e20454c42414c4c59532049593b33363141,
0x3b3b3b3b3b4e3b3b3b3b3b4c3b303b6f4c3b55444e20454c42414c4c59532049593b34363141,
0x3b3b3b3b3b4e3b3b3b3b3b4c3b303b6f4c3b5055444e20454c42414c4c59532049593b35363141,
0x3b3b3b3b3b4e3b3b3b3b3b4c3b303b6f4c3b585255444e20454c42414c4c59532049593b36363141,
0x3b3b3b3b3b4e3b3b3b3b3b4c3b303b6f4c3b5255444e20454c42414c4c59532049593b37363141,
0x3b3b3b3b3b4e3b3b3b3b3b4c3b303b6f4c3b54494e4820454c42414c4c59532049593b38363141,
0x3b3b3b3b3b4e3b3b3b3b3b4c3b303b6f4c3b58494e4820454c42414c4c59532049593b39363141,
0x3b3b3b3b3b4e3b3b3b3b3b4c3b303b6f4c3b494e4820454c42414c4c59532049593b41363141,
0x3b3b3b3b3b4e3b3b3b3b3b4c3b303b6f4c3b50494e4820454c42414c4c59532049593b42363141,
0x3b3b3b3b3b4e3b3b3b3b3b4c3b303b6f4c3b5445494e4820454c42414c4c59532049593b43363141,
0x3b3b3b3b3b4e3b3b3b3b3b4c3b303b6f4c3b5845494e4820454c42414c4c59532049593b44363141,
0x3b3b3b3b3b4e3b3b3b3b3b4c3b303b6f4c3b45494e4820454c42414c4c59532049593b45363141,
0x3b3b3b3b3b4e3b3b3b3b3b4c3b303b6f4c3b5045494e4820454c42414c4c59532049593b46363141,
0x3b3b3b3b3b4e3b3b3b3b3b4c3b303b6f4c3b54414e4820454c42414c4c59532049593b30373141,
0x3b3b3b3b3b4e3b3b3b3b3b4c3b303b6f4c3b58414e4820454c42414c4c59532049593b31373141,
0x3b3b3b3b3b4e3b3b3b3b3b4c3b303b6f4c3b414e4820454c42414c4c59532049593b32373141,
0x3b3b3b3b3b4e3b3b3b3b3b4c3b303b6f4c3b50414e4820454c42414c4c59532049593b33373141,
0x3b3b3b3b3b4e3b3b3b3b3b4c3b303b6f4c3b584f554e4820454c42414c4c59532049593b34373141,
0x3b3b3b3b3b4e3b3b3b3b3b4c3b303b6f4c3b4f554e4820454c42414c4c59532049593b35373141,
0x3b3b3b3b3b4e3b3b3b3b3b4c3b303b6f4c3b544f4e4820454c42414c4c59532049593b36373141,
0x3b3b3b3b3b4e3b3b3b3b3b4c3b303b6f4c3b584f4e4820454c42414c4c59532049593b37373141,
0x3b3b3b3b3b4e3b3b3b3b3b4c3b303b6f4c3b504f4e4820454c42414c4c59532049593b38373141,
0x3b3b3b3b3b4e3b3b3b3b3b4c3b303b6f4c3b58454e4820454c42414c4c59532049593b39373141,
0x3b3b3b3b3b4e3b3b3b3b3b4c3b303b6f4c3b454e4820454c42414c4c59532049593b41373141,
0x3b3b3b3b3b4e3b3b3b3b3b4c3b303b6f4c3b50454e4820454c42414c4c59532049593b42373141,
0x3b3b3b3b3b4e3b3b3b3b3b4c3b303b6f4c3b54554e4820454c42414c4c59532049593b43373141,
0x3b3b3b3b3b4e3b3b3b3b3b4c3b303b6f4c3b54494e20454c42414c4c59532049593b44373141,
0x3b3b3b3b3b4e3b3b3b3b3b4c3b303b6f4c3b58494e20454c42414c4c59532049593b45373141,
0x3b3b3b3b3b4e3b3b3b3b3b4c3b303b6f4c3b494e20454c42414c4c59532049593b46373141,
0x3b3b3b3b3b4e3b3b3b3b3b4c3b303b6f4c3b50494e20454c42414c4c59532049593b30383141,
0x3b3b3b3b3b4e3b3b3b3b3b4c3b303b6f4c3b5845494e20454c42414c4c59532049593b31383141,
0x3b3b3b3b3b4e3b3b3b3b3b4c3b303b6f4c3b45494e20454c42414c4c59532049593b32383141,
0x3b3b3b3b3b4e3b3b3b3b3b4c3b303b6f4c3b5045494e20454c42414c4c59532049593b33383141,
0x3b3b3b3b3b4e3b3b3b3b3b4c3b303b6f4c3b58414e20454c42414c4c59532049593b34383141,
0x3b3b3b3b3b4e3b3b3b3b3b4c3b303b6f4c3b414e20454c42414c4c59532049593b35383141,
0x3b3b3b3b3b4e3b3b3b3b3b4c3b303b6f4c3b50414e20454c42414c4c59532049593b36383141,
0x3b3b3b3b3b4e3b3b3b3b3b4c3b303b6f4c3b584f554e20454c42414c4c59532049593b37383141,
0x3b3b3b3b3b4e3b3b3b3b3b4c3b303b6f4c3b4f554e20454c42414c4c59532049593b38383141,
0x3b3b3b3b3b4e3b3b3b3b3b4c3b303b6f4c3b504f554e20454c42414c4c59532049593b39383141,
0x3b3b3b3b3b4e3b3b3b3b3b4c3b303b6f4c3b544f4e20454c42414c4c59532049593b41383141,
0x3b3b3b3b3b4e3b3b3b3b3b4c3b303b6f4c3b584f4e20454c42414c4c59532049593b42383141,
0x3b3b3b3b3b4e3b3b3b3b3b4c3b303b6f4c3b4f4e20454c42414c4c59532049593b43383141,
0x3b3b3b3b3b4e3b3b3b3b3b4c3b303b6f4c3b504f4e20454c42414c4c59532049593b44383141,
0x3b3b3b3b3b4e3b3b3b3b3b4c3b303b6f4c3b58454e20454c42414c4c59532049593b45383141,
0x3b3b3b3b3b4e3b3b3b3b3b4c3b303b6f4c3b454e20454c42414c4c59532049593b46383141,
0x3b3b3b3b3b4e3b3b3b3b3b4c3b303b6f4c3b50454e20454c42414c4c59532049593b30393141,
0x3b3b3b3b3b4e3b3b3b3b3b4c3b303b6f4c3b54554e20454c42414c4c59532049593b31393141,
0x3b3b3b3b3b4e3b3b3b3b3b4c3b303b6f4c3b58554e20454c42414c4c59532049593b32393141,
0x3b3b3b3b3b4e3b3b3b3b3b4c3b303b6f4c3b554e20454c42414c4c59532049593b33393141,
0x3b3b3b3b3b4e3b3b3b3b3b4c3b303b6f4c3b50554e20454c42414c4c59532049593b34393141,
0x3b3b3b3b3b4e3b3b3b3b3b4c3b303b6f4c3b5852554e20454c42414c4c59532049593b35393141,
0x3b3b3b3b3b4e3b3b3b3b3b4c3b303b6f4c3b52554e20454c42414c4c59532049593b36393141,
0x3b3b3b3b3b4e3b3b3b3b3b4c3b303b6f4c3b54494c4820454c42414c4c59532049593b37393141,
0x3b3b3b3b3b4e3b3b3b3b3b4c3b303b6f4c3b58494c4820454c42414c4c59532049593b38393141,
0x3b3b3b3b3b4e3b3b3b3b3b4c3b303b6f4c3b494c4820454c42414c4c59532049593b39393141,
0x3b3b3b3b3b4e3b3b3b3b3b4c3b303b6f4c3b50494c4820454c42414c4c59532049593b41393141,
0x3b3b3b3b3b4e3b3b3b3b3b4c3b303b6f4c3b5845494c4820454c42414c4c59532049593b42393141,
0x3b3b3b3b3b4e3b3b3b3b3b4c3b303b6f4c3b45494c4820454c42414c4c59532049593b43393141,
0x3b3b3b3b3b4e3b3b3b3b3b4c3b303b6f4c3b5045494c4820454c42414c4c59532049593b44393141,
0x3b3b3b3b3b4e3b3b3b3b3b4c3b303b6f4c3b54414c4820454c42414c4c59532049593b45393141,
0x3b3b3b3b3b4e3b3b3b3b3b4c3b303b6f4c3b58414c4820454c42414c4c59532049593b46393141,
0x3b3b3b3b3b4e3b3b3b3b3b4c3b303b6f4c3b414c4820454c42414c4c59532049593b30413141,
0x3b3b3b3b3b4e3b3b3b3b3b4c3b303b6f4c3b50414c4820454c42414c4c59532049593b31413141,
0x3b3b3b3b3b4e3b3b3b3b3b4c3b303b6f4c3b584f554c4820454c42414c4c59532049593b32413141,
0x3b3b3b3b3b4e3b3b3b3b3b4c3b303b6f4c3b4f554c4820454c42414c4c59532049593b33413141,
0x3b3b3b3b3b4e3b3b3b3b3b4c3b303b6f4c3b504f554c4820454c42414c4c59532049593b34413141,
0x3b3b3b3b3b4e3b3b3b3b3b4c3b303b6f4c3b584f4c4820454c42414c4c59532049593b35413141,
0x3b3b3b3b3b4e3b3b3b3b3b4c3b303b6f4c3b4f4c4820454c42414c4c59532049593b36413141,
0x3b3b3b3b3b4e3b3b3b3b3b4c3b303b6f4c3b504f4c4820454c42414c4c59532049593b37413141,
0x3b3b3b3b3b4e3b3b3b3b3b4c3b303b6f4c3b58454c4820454c42414c4c59532049593b38413141,
0x3b3b3b3b3b4e3b3b3b3b3b4c3b303b6f4c3b454c4820454c42414c4c59532049593b39413141,
0x3b3b3b3b3b4e3b3b3b3b3b4c3b303b6f4c3b50454c4820454c42414c4c59532049593b41413141,
0x3b3b3b3b3b4e3b3b3b3b3b4c3b303b6f4c3b54554c4820454c42414c4c59532049593b42413141,
0x3b3b3b3b3b4e3b3b3b3b3b4c3b303b6f4c3b58554c4820454c42414c4c59532049593b43413141,
0x3b3b3b3b3b4e3b3b3b3b3b4c3b303b6f4c3b554c4820454c42414c4c59532049593b44413141,
0x3b3b3b3b3b4e3b3b3b3b3b4c3b303b6f4c3b50554c4820454c42414c4c59532049593b45413141,
0x3b3b3b3b3b4e3b3b3b3b3b4c3b303b6f4c3b5852554c4820454c42414c4c59532049593b46413141,
0x3b3b3b3b3b4e3b3b3b3b3b4c3b303b6f4c3b52554c4820454c42414c4c59532049593b30423141,
0x3b3b3b3b3b4e3b3b3b3b3b4c3b303b6f4c3b54594c4820454c42414c4c59532049593b31423141,
0x3b3b3b3b3b4e3b3b3b3b3b4c3b303b6f4c3b58594c4820454c42414c4c59532049593b32423141,
0x3b3b3b3b3b4e3b3b3b3b3b4c3b303b6f4c3b594c4820454c42414c4c59532049593b33423141,
0x3b3b3b3b3b4e3b3b3b3b3b4c3b303b6f4c3b50594c4820454c42414c4c59532049593b34423141,
0x3b3b3b3b3b4e3b3b3b3b3b4c3b303b6f4c3b5852594c4820454c42414c4c59532049593b35423141,
0x3b3b3b3b3b4e3b3b3b3b3b4c3b303b6f4c3b52594c4820454c42414c4c59532049593b36423141,
0x3b3b3b3b3b4e3b3b3b3b3b4c3b303b6f4c3b54494c20454c42414c4c59532049593b37423141,
0x3b3b3b3b3b4e3b3b3b3b3b4c3b303b6f4c3b58494c20454c42414c4c59532049593b38423141,
0x3b3b3b3b3b4e3b3b3b3b3b4c3b303b6f4c3b494c20454c42414c4c59532049593b39423141,
0x3b3b3b3b3b4e3b3b3b3b3b4c3b303b6f4c3b50494c20454c42414c4c59532049593b41423141,
0x3b3b3b3b3b4e3b3b3b3b3b4c3b303b6f4c3b5445494c20454c42414c4c59532049593b42423141,
0x3b3b3b3b3b4e3b3b3b3b3b4c3b303b6f4c3b5845494c20454c42414c4c59532049593b43423141,
0x3b3b3b3b3b4e3b3b3b3b3b4c3b303b6f4c3b45494c20454c42414c4c59532049593b44423141,
0x3b3b3b3b3b4e3b3b3b3b3b4c3b303b6f4c3b5045494c20454c42414c4c59532049593b45423141,
0x3b3b3b3b3b4e3b3b3b3b3b4c3b303b6f4c3b54414c20454c42414c4c59532049593b46423141,
0x3b3b3b3b3b4e3b3b3b3b3b4c3b303b6f4c3b58414c20454c42414c4c59532049593b30433141,
0x3b3b3b3b3b4e3b3b3b3b3b4c3b303b6f4c3b414c20454c42414c4c59532049593b31433141,
0x3b3b3b3b3b4e3b3b3b3b3b4c3b303b6f4c3b50414c20454c42414c4c59532049593b32433141,
0x3b3b3b3b3b4e3b3b3b3b3b4c3b303b6f4c3b544f554c20454c42414c4c59532049593b33433141,
0x3b3b3b3b3b4e3b3b3b3b3b4c3b303b6f4c3b584f554c20454c42414c4c59532049593b34433141,
0x3b3b3b3b3b4e3b3b3b3b3b4c3b303b6f4c3b4f554c20454c42414c4c59532049593b35433141,
0x3b3b3b3b3b4e3b3b3b3b3b4c3b303b6f4c3b504f554c20454c42414c4c59532049593b36433141,
0x3b3b3b3b3b4e3b3b3b3b3b4c3b303b6f4c3b544f4c20454c42414c4c59532049593b37433141,
0x3b3b3b3b3b4e3b3b3b3b3b4c3b303b6f4c3b584f4c20454c42414c4c59532049593b38433141,
0x3b3b3b3b3b4e3b3b3b3b3b4c3b303b6f4c3b4f4c20454c42414c4c59532049593b39433141,
0x3b3b3b3b3b4e3b3b3b3b3b4c3b303b6f4c3b504f4c20454c42414c4c59532049593b41433141,
0x3b3b3b3b3b4e3b3b3b3b3b4c3b303b6f4c3b58454c20454c42414c4c59532049593b42433141,
0x3b3b3b3b3b4e3b3b3b3b3b4c3b303b6f4c3b454c20454c42414c4c59532049593b43433141,
0x3b3b3b3b3b4e3b3b3b3b3b4c3b303b6f4c3b50454c20454c42414c4c59532049593b44433141,
0x3b3b3b3b3b4e3b3b3b3b3b4c3b303b6f4c3b54554c20454c42414c4c59532049593b45433141,
0x3b3b3b3b3b4e3b3b3b3b3b4c3b303b6f4c3b58554c20454c42414c4c59532049593b46433141,
0x3b3b3b3b3b4e3b3b3b3b3b4c3b303b6f4c3b554c20454c42414c4c59532049593b30443141,
0x3b3b3b3b3b4e3b3b3b3b3b4c3b303b6f4c3b50554c20454c42414c4c59532049593b31443141,
0x3b3b3b3b3b4e3b3b3b3b3b4c3b303b6f4c3b5852554c20454c42414c4c59532049593b32443141,
0x3b3b3b3b3b4e3b3b3b3b3b4c3b303b6f4c3b52554c20454c42414c4c59532049593b33443141,
0x3b3b3b3b3b4e3b3b3b3b3b4c3b303b6f4c3b54594c20454c42414c4c59532049593b34443141,
0x3b3b3b3b3b4e3b3b3b3b3b4c3b303b6f4c3b58594c20454c42414c4c59532049593b35443141,
0x3b3b3b3b3b4e3b3b3b3b3b4c3b303b6f4c3b594c20454c42414c4c59532049593b36443141,
0x3b3b3b3b3b4e3b3b3b3b3b4c3b303b6f4c3b50594c20454c42414c4c59532049593b37443141,
0x3b3b3b3b3b4e3b3b3b3b3b4c3b303b6f4c3b5852594c20454c42414c4c59532049593b38443141,
0x3b3b3b3b3b4e3b3b3b3b3b4c3b303b6f4c3b52594c20454c42414c4c59532049593b39443141,
0x3b3b3b3b3b4e3b3b3b3b3b4c3b303b6f4c3b54494720454c42414c4c59532049593b41443141,
0x3b3b3b3b3b4e3b3b3b3b3b4c3b303b6f4c3b58494720454c42414c4c59532049593b42443141,
0x3b3b3b3b3b4e3b3b3b3b3b4c3b303b6f4c3b494720454c42414c4c59532049593b43443141,
0x3b3b3b3b3b4e3b3b3b3b3b4c3b303b6f4c3b50494720454c42414c4c59532049593b44443141,
0x3b3b3b3b3b4e3b3b3b3b3b4c3b303b6f4c3b5445494720454c42414c4c59532049593b45443141,
0x3b3b3b3b3b4e3b3b3b3b3b4c3b303b6f4c3b5845494720454c42414c4c59532049593b46443141,
0x3b3b3b3b3b4e3b3b3b3b3b4c3b303b6f4c3b45494720454c42414c4c59532049593b30453141,
0x3b3b3b3b3b4e3b3b3b3b3b4c3b303b6f4c3b5045494720454c42414c4c59532049593b31453141,
0x3b3b3b3b3b4e3b3b3b3b3b4c3b303b6f4c3b54414720454c42414c4c59532049593b32453141,
0x3b3b3b3b3b4e3b3b3b3b3b4c3b303b6f4c3b58414720454c42414c4c59532049593b33453141,
0x3b3b3b3b3b4e3b3b3b3b3b4c3b303b6f4c3b414720454c42414c4c59532049593b34453141,
0x3b3b3b3b3b4e3b3b3b3b3b4c3b303b6f4c3b50414720454c42414c4c59532049593b35453141,
0x3b3b3b3b3b4e3b3b3b3b3b4c3b303b6f4c3b544f554720454c42414c4c59532049593b36453141,
0x3b3b3b3b3b4e3b3b3b3b3b4c3b303b6f4c3b584f554720454c42414c4c59532049593b37453141,
0x3b3b3b3b3b4e3b3b3b3b3b4c3b303b6f4c3b4f554720454c42414c4c59532049593b38453141,
0x3b3b3b3b3b4e3b3b3b3b3b4c3b303b6f4c3b504f554720454c42414c4c59532049593b39453141,
0x3b3b3b3b3b4e3b3b3b3b3b4c3b303b6f4c3b544f4720454c42414c4c59532049593b41453141,
0x3b3b3b3b3b4e3b3b3b3b3b4c3b303b6f4c3b584f4720454c42414c4c59532049593b42453141,
0x3b3b3b3b3b4e3b3b3b3b3b4c3b303b6f4c3b4f4720454c42414c4c59532049593b43453141,
0x3b3b3b3b3b4e3b3b3b3b3b4c3b303b6f4c3b504f4720454c42414c4c59532049593b44453141,
0x3b3b3b3b3b4e3b3b3b3b3b4c3b303b6f4c3b54454720454c42414c4c59532049593b45453141,
0x3b3b3b3b3b4e3b3b3b3b3b4c3b303b6f4c3b58454720454c42414c4c59532049593b46453141,
0x3b3b3b3b3b4e3b3b3b3b3b4c3b303b6f4c3b454720454c42414c4c59532049593b30463141,
0x3b3b3b3b3b4e3b3b3b3b3b4c3b303b6f4c3b50454720454c42414c4c59532049593b31463141,
0x3b3b3b3b3b4e3b3b3b3b3b4c3b303b6f4c3b54554720454c42414c4c59532049593b32463141,
0x3b3b3b3b3b4e3b3b3b3b3b4c3b303b6f4c3b58554720454c42414c4c59532049593b33463141,
0x3b3b3b3b3b4e3b3b3b3b3b4c3b303b6f4c3b554720454c42414c4c59532049593b34463141,
0x3b3b3b3b3b4e3b3b3b3b3b4c3b303b6f4c3b50554720454c42414c4c59532049593b35463141,
0x3b3b3b3b3b4e3b3b3b3b3b4c3b303b6f4c3b5852554720454c42414c4c59532049593b36463141,
0x3b3b3b3b3b4e3b3b3b3b3b4c3b303b6f4c3b52554720454c42414c4c59532049593b37463141,
0x3b3b3b3b3b4e3b3b3b3b3b4c3b303b6f4c3b54494b20454c42414c4c59532049593b38463141,
0x3b3b3b3b3b4e3b3b3b3b3b4c3b303b6f4c3b58494b20454c42414c4c59532049593b39463141,
0x3b3b3b3b3b4e3b3b3b3b3b4c3b303b6f4c3b494b20454c42414c4c59532049593b41463141,
0x3b3b3b3b3b4e3b3b3b3b3b4c3b303b6f4c3b50494b20454c42414c4c59532049593b42463141,
0x3b3b3b3b3b4e3b3b3b3b3b4c3b303b6f4c3b5845494b20454c42414c4c59532049593b43463141,
0x3b3b3b3b3b4e3b3b3b3b3b4c3b303b6f4c3b45494b20454c42414c4c59532049593b44463141,
0x3b3b3b3b3b4e3b3b3b3b3b4c3b303b6f4c3b5045494b20454c42414c4c59532049593b45463141,
0x3b3b3b3b3b4e3b3b3b3b3b4c3b303b6f4c3b54414b20454c42414c4c59532049593b46463141,
0x3b3b3b3b3b4e3b3b3b3b3b4c3b303b6f4c3b58414b20454c42414c4c59532049593b30303241,
0x3b3b3b3b3b4e3b3b3b3b3b4c3b303b6f4c3b414b20454c42414c4c59532049593b31303241,
0x3b3b3b3b3b4e3b3b3b3b3b4c3b303b6f4c3b50414b20454c42414c4c59532049593b32303241,
0x3b3b3b3b3b4e3b3b3b3b3b4c3b303b6f4c3b584f554b20454c42414c4c59532049593b33303241,
0x3b3b3b3b3b4e3b3b3b3b3b4c3b303b6f4c3b4f554b20454c42414c4c59532049593b34303241,
0x3b3b3b3b3b4e3b3b3b3b3b4c3b303b6f4c3b504f554b20454c42414c4c59532049593b35303241,
0x3b3b3b3b3b4e3b3b3b3b3b4c3b303b6f4c3b544f4b20454c42414c4c59532049593b36303241,
0x3b3b3b3b3b4e3b3b3b3b3b4c3b303b6f4c3b584f4b20454c42414c4c59532049593b37303241,
0x3b3b3b3b3b4e3b3b3b3b3b4c3b303b6f4c3b4f4b20454c42414c4c59532049593b38303241,
0x3b3b3b3b3b4e3b3b3b3b3b4c3b303b6f4c3b504f4b20454c42414c4c59532049593b39303241,
0x3b3b3b3b3b4e3b3b3b3b3b4c3b303b6f4c3b54454b20454c42414c4c59532049593b41303241,
0x3b3b3b3b3b4e3b3b3b3b3b4c3b303b6f4c3b58454b20454c42414c4c59532049593b42303241,
0x3b3b3b3b3b4e3b3b3b3b3b4c3b303b6f4c3b454b20454c42414c4c59532049593b43303241]

/-- src/u5e/props/UnicodeData.txt lines 12545-12800. -/
def rawUcd49 : List Nat := [
0x3b3b3b3b3b4e3b3b3b3b3b4c3b303b6f4c3b50454b20454c42414c4c59532049593b44303241,
0x3b3b3b3b3b4e3b3b3b3b3b4c3b303b6f4c3b54554b20454c42414c4c59532049593b45303241,
0x3b3b3b3b3b4e3b3b3b3b3b4c3b303b6f4c3b58554b20454c42414c4c59532049593b46303241,
0x3b3b3b3b3b4e3b3b3b3b3b4c3b303b6f4c3b554b20454c42414c4c59532049593b30313241,
0x3b3b3b3b3b4e3b3b3b3b3b4c3b303b6f4c3b50554b20454c42414c4c59532049593b31313241,
0x3b3b3b3b3b4e3b3b3b3b3b4c3b303b6f4c3b5852554b20454c42414c4c59532049593b32313241,
0x3b3b3b3b3b4e3b3b3b3b3b4c3b303b6f4c3b52554b20454c42414c4c59532049593b33313241,
0x3b3b3b3b3b4e3b3b3b3b3b4c3b303b6f4c3b5449474720454c42414c4c59532049593b34313241,
0x3b3b3b3b3b4e3b3b3b3b3b4c3b303b6f4c3b5849474720454c42414c4c59532049593b35313241,
0x3b3b3b3b3b4e3b3b3b3b3b4c3b303b6f4c3b49474720454c42414c4c59532049593b36313241,
0x3b3b3b3b3b4e3b3b3b3b3b4c3b303b6f4c3b584549474720454c42414c4c59532049593b37313241,
0x3b3b3b3b3b4e3b3b3b3b3b4c3b303b6f4c3b4549474720454c42414c4c59532049593b38313241,
0x3b3b3b3b3b4e3b3b3b3b3b4c3b303b6f4c3b504549474720454c42414c4c59532049593b39313241,
0x3b3b3b3b3b4e3b3b3b3b3b4c3b303b6f4c3b5441474720454c42414c4c59532049593b41313241,
0x3b3b3b3b3b4e3b3b3b3b3b4c3b303b6f4c3b5841474720454c42414c4c59532049593b42313241,
0x3b3b3b3b3b4e3b3b3b3b3b4c3b303b6f4c3b41474720454c42414c4c59532049593b43313241,
0x3b3b3b3b3b4e3b3b3b3b3b4c3b303b6f4c3b5041474720454c42414c4c59532049593b44313241,
0x3b3b3b3b3b4e3b3b3b3b3b4c3b303b6f4c3b544f55474720454c42414c4c59532049593b45313241,
0x3b3b3b3b3b4e3b3b3b3b3b4c3b303b6f4c3b584f55474720454c42414c4c59532049593b46313241,
0x3b3b3b3b3b4e3b3b3b3b3b4c3b303b6f4c3b4f55474720454c42414c4c59532049593b30323241,
0x3b3b3b3b3b4e3b3b3b3b3b4c3b303b6f4c3b504f55474720454c42414c4c59532049593b31323241,
0x3b3b3b3b3b4e3b3b3b3b3b4c3b303b6f4c3b544f474720454c42414c4c59532049593b32323241,
0x3b3b3b3b3b4e3b3b3b3b3b4c3b303b6f4c3b584f474720454c42414c4c59532049593b33323241,
0x3b3b3b3b3b4e3b3b3b3b3b4c3b303b6f4c3b4f474720454c42414c4c59532049593b34323241,
0x3b3b3b3b3b4e3b3b3b3b3b4c3b303b6f4c3b504f474720454c42414c4c59532049593b35323241,
0x3b3b3b3b3b4e3b3b3b3b3b4c3b303b6f4c3b5445474720454c42414c4c59532049593b36323241,
0x3b3b3b3b3b4e3b3b3b3b3b4c3b303b6f4c3b5845474720454c42414c4c59532049593b37323241,
0x3b3b3b3b3b4e3b3b3b3b3b4c3b303b6f4c3b45474720454c42414c4c59532049593b38323241,
0x3b3b3b3b3b4e3b3b3b3b3b4c3b303b6f4c3b5045474720454c42414c4c59532049593b39323241,
0x3b3b3b3b3b4e3b3b3b3b3b4c3b303b6f4c3b5455474720454c42414c4c59532049593b41323241,
0x3b3b3b3b3b4e3b3b3b3b3b4c3b303b6f4c3b5855474720454c42414c4c59532049593b42323241,
0x3b3b3b3b3b4e3b3b3b3b3b4c3b303b6f4c3b55474720454c42414c4c59532049593b43323241,
0x3b3b3b3b3b4e3b3b3b3b3b4c3b303b6f4c3b5055474720454c42414c4c59532049593b44323241,
0x3b3b3b3b3b4e3b3b3b3b3b4c3b303b6f4c3b585255474720454c42414c4c59532049593b45323241,
0x3b3b3b3b3b4e3b3b3b3b3b4c3b303b6f4c3b5255474720454c42414c4c59532049593b46323241,
0x3b3b3b3b3b4e3b3b3b3b3b4c3b303b6f4c3b584549474d20454c42414c4c59532049593b30333241,
0x3b3b3b3b3b4e3b3b3b3b3b4c3b303b6f4c3b4549474d20454c42414c4c59532049593b31333241,
0x3b3b3b3b3b4e3b3b3b3b3b4c3b303b6f4c3b5441474d20454c42414c4c59532049593b32333241,
0x3b3b3b3b3b4e3b3b3b3b3b4c3b303b6f4c3b5841474d20454c42414c4c59532049593b33333241,
0x3b3b3b3b3b4e3b3b3b3b3b4c3b303b6f4c3b41474d20454c42414c4c59532049593b34333241,
0x3b3b3b3b3b4e3b3b3b3b3b4c3b303b6f4c3b5041474d20454c42414c4c59532049593b35333241,
0x3b3b3b3b3b4e3b3b3b3b3b4c3b303b6f4c3b584f55474d20454c42414c4c59532049593b36333241,
0x3b3b3b3b3b4e3b3b3b3b3b4c3b303b6f4c3b4f55474d20454c42414c4c59532049593b37333241,
0x3b3b3b3b3b4e3b3b3b3b3b4c3b303b6f4c3b504f55474d20454c42414c4c59532049593b38333241,
0x3b3b3b3b3b4e3b3b3b3b3b4c3b303b6f4c3b544f474d20454c42414c4c59532049593b39333241,
0x3b3b3b3b3b4e3b3b3b3b3b4c3b303b6f4c3b584f474d20454c42414c4c59532049593b41333241,
0x3b3b3b3b3b4e3b3b3b3b3b4c3b303b6f4c3b4f474d20454c42414c4c59532049593b42333241,
0x3b3b3b3b3b4e3b3b3b3b3b4c3b303b6f4c3b504f474d20454c42414c4c59532049593b43333241,
0x3b3b3b3b3b4e3b3b3b3b3b4c3b303b6f4c3b5845474d20454c42414c4c59532049593b44333241,
0x3b3b3b3b3b4e3b3b3b3b3b4c3b303b6f4c3b45474d20454c42414c4c59532049593b45333241,
0x3b3b3b3b3b4e3b3b3b3b3b4c3b303b6f4c3b5045474d20454c42414c4c59532049593b46333241,
0x3b3b3b3b3b4e3b3b3b3b3b4c3b303b6f4c3b5455474d20454c42414c4c59532049593b30343241,
0x3b3b3b3b3b4e3b3b3b3b3b4c3b303b6f4c3b5855474d20454c42414c4c59532049593b31343241,
0x3b3b3b3b3b4e3b3b3b3b3b4c3b303b6f4c3b55474d20454c42414c4c59532049593b32343241,
0x3b3b3b3b3b4e3b3b3b3b3b4c3b303b6f4c3b5055474d20454c42414c4c59532049593b33343241,
0x3b3b3b3b3b4e3b3b3b3b3b4c3b303b6f4c3b585255474d20454c42414c4c59532049593b34343241,
0x3b3b3b3b3b4e3b3b3b3b3b4c3b303b6f4c3b5255474d20454c42414c4c59532049593b35343241,
0x3b3b3b3b3b4e3b3b3b3b3b4c3b303b6f4c3b5449584820454c42414c4c59532049593b36343241,
0x3b3b3b3b3b4e3b3b3b3b3b4c3b303b6f4c3b5849584820454c42414c4c59532049593b37343241,
0x3b3b3b3b3b4e3b3b3b3b3b4c3b303b6f4c3b49584820454c42414c4c59532049593b38343241,
0x3b3b3b3b3b4e3b3b3b3b3b4c3b303b6f4c3b5049584820454c42414c4c59532049593b39343241,
0x3b3b3b3b3b4e3b3b3b3b3b4c3b303b6f4c3b544549584820454c42414c4c59532049593b41343241,
0x3b3b3b3b3b4e3b3b3b3b3b4c3b303b6f4c3b584549584820454c42414c4c59532049593b42343241,
0x3b3b3b3b3b4e3b3b3b3b3b4c3b303b6f4c3b4549584820454c42414c4c59532049593b43343241,
0x3b3b3b3b3b4e3b3b3b3b3b4c3b303b6f4c3b504549584820454c42414c4c59532049593b44343241,
0x3b3b3b3b3b4e3b3b3b3b3b4c3b303b6f4c3b5441584820454c42414c4c59532049593b45343241,
0x3b3b3b3b3b4e3b3b3b3b3b4c3b303b6f4c3b5841584820454c42414c4c59532049593b46343241,
0x3b3b3b3b3b4e3b3b3b3b3b4c3b303b6f4c3b41584820454c42414c4c59532049593b30353241,
0x3b3b3b3b3b4e3b3b3b3b3b4c3b303b6f4c3b5041584820454c42414c4c59532049593b31353241,
0x3b3b3b3b3b4e3b3b3b3b3b4c3b303b6f4c3b544f55584820454c42414c4c59532049593b32353241,
0x3b3b3b3b3b4e3b3b3b3b3b4c3b303b6f4c3b584f55584820454c42414c4c59532049593b33353241,
0x3b3b3b3b3b4e3b3b3b3b3b4c3b303b6f4c3b4f55584820454c42414c4c59532049593b34353241,
0x3b3b3b3b3b4e3b3b3b3b3b4c3b303b6f4c3b504f55584820454c42414c4c59532049593b35353241,
0x3b3b3b3b3b4e3b3b3b3b3b4c3b303b6f4c3b544f584820454c42414c4c59532049593b36353241,
0x3b3b3b3b3b4e3b3b3b3b3b4c3b303b6f4c3b584f584820454c42414c4c59532049593b37353241,
0x3b3b3b3b3b4e3b3b3b3b3b4c3b303b6f4c3b4f584820454c42414c4c59532049593b38353241,
0x3b3b3b3b3b4e3b3b3b3b3b4c3b303b6f4c3b504f584820454c42414c4c59532049593b39353241,
0x3b3b3b3b3b4e3b3b3b3b3b4c3b303b6f4c3b5845584820454c42414c4c59532049593b41353241,
0x3b3b3b3b3b4e3b3b3b3b3b4c3b303b6f4c3b45584820454c42414c4c59532049593b42353241,
0x3b3b3b3b3b4e3b3b3b3b3b4c3b303b6f4c3b5045584820454c42414c4c59532049593b43353241,
0x3b3b3b3b3b4e3b3b3b3b3b4c3b303b6f4c3b584549474e20454c42414c4c59532049593b44353241,
0x3b3b3b3b3b4e3b3b3b3b3b4c3b303b6f4c3b4549474e20454c42414c4c59532049593b45353241,
0x3b3b3b3b3b4e3b3b3b3b3b4c3b303b6f4c3b504549474e20454c42414c4c59532049593b46353241,
0x3b3b3b3b3b4e3b3b3b3b3b4c3b303b6f4c3b5441474e20454c42414c4c59532049593b30363241,
0x3b3b3b3b3b4e3b3b3b3b3b4c3b303b6f4c3b5841474e20454c42414c4c59532049593b31363241,
0x3b3b3b3b3b4e3b3b3b3b3b4c3b303b6f4c3b41474e20454c42414c4c59532049593b32363241,
0x3b3b3b3b3b4e3b3b3b3b3b4c3b303b6f4c3b5041474e20454c42414c4c59532049593b33363241,
0x3b3b3b3b3b4e3b3b3b3b3b4c3b303b6f4c3b544f55474e20454c42414c4c59532049593b34363241,
0x3b3b3b3b3b4e3b3b3b3b3b4c3b303b6f4c3b584f55474e20454c42414c4c59532049593b35363241,
0x3b3b3b3b3b4e3b3b3b3b3b4c3b303b6f4c3b4f55474e20454c42414c4c59532049593b36363241,
0x3b3b3b3b3b4e3b3b3b3b3b4c3b303b6f4c3b544f474e20454c42414c4c59532049593b37363241,
0x3b3b3b3b3b4e3b3b3b3b3b4c3b303b6f4c3b584f474e20454c42414c4c59532049593b38363241,
0x3b3b3b3b3b4e3b3b3b3b3b4c3b303b6f4c3b4f474e20454c42414c4c59532049593b39363241,
0x3b3b3b3b3b4e3b3b3b3b3b4c3b303b6f4c3b504f474e20454c42414c4c59532049593b41363241,
0x3b3b3b3b3b4e3b3b3b3b3b4c3b303b6f4c3b5845474e20454c42414c4c59532049593b42363241,
0x3b3b3b3b3b4e3b3b3b3b3b4c3b303b6f4c3b45474e20454c42414c4c59532049593b43363241,
0x3b3b3b3b3b4e3b3b3b3b3b4c3b303b6f4c3b5045474e20454c42414c4c59532049593b44363241,
0x3b3b3b3b3b4e3b3b3b3b3b4c3b303b6f4c3b54494820454c42414c4c59532049593b45363241,
0x3b3b3b3b3b4e3b3b3b3b3b4c3b303b6f4c3b5845494820454c42414c4c59532049593b46363241,
0x3b3b3b3b3b4e3b3b3b3b3b4c3b303b6f4c3b45494820454c42414c4c59532049593b30373241,
0x3b3b3b3b3b4e3b3b3b3b3b4c3b303b6f4c3b54414820454c42414c4c59532049593b31373241,
0x3b3b3b3b3b4e3b3b3b3b3b4c3b303b6f4c3b58414820454c42414c4c59532049593b32373241,
0x3b3b3b3b3b4e3b3b3b3b3b4c3b303b6f4c3b414820454c42414c4c59532049593b33373241,
0x3b3b3b3b3b4e3b3b3b3b3b4c3b303b6f4c3b50414820454c42414c4c59532049593b34373241,
0x3b3b3b3b3b4e3b3b3b3b3b4c3b303b6f4c3b544f554820454c42414c4c59532049593b35373241,
0x3b3b3b3b3b4e3b3b3b3b3b4c3b303b6f4c3b584f554820454c42414c4c59532049593b36373241,
0x3b3b3b3b3b4e3b3b3b3b3b4c3b303b6f4c3b4f554820454c42414c4c59532049593b37373241,
0x3b3b3b3b3b4e3b3b3b3b3b4c3b303b6f4c3b504f554820454c42414c4c59532049593b38373241,
0x3b3b3b3b3b4e3b3b3b3b3b4c3b303b6f4c3b544f4820454c42414c4c59532049593b39373241,
0x3b3b3b3b3b4e3b3b3b3b3b4c3b303b6f4c3b584f4820454c42414c4c59532049593b41373241,
0x3b3b3b3b3b4e3b3b3b3b3b4c3b303b6f4c3b4f4820454c42414c4c59532049593b42373241,
0x3b3b3b3b3b4e3b3b3b3b3b4c3b303b6f4c3b504f4820454c42414c4c59532049593b43373241,
0x3b3b3b3b3b4e3b3b3b3b3b4c3b303b6f4c3b58454820454c42414c4c59532049593b44373241,
0x3b3b3b3b3b4e3b3b3b3b3b4c3b303b6f4c3b454820454c42414c4c59532049593b45373241,
0x3b3b3b3b3b4e3b3b3b3b3b4c3b303b6f4c3b50454820454c42414c4c59532049593b46373241,
0x3b3b3b3b3b4e3b3b3b3b3b4c3b303b6f4c3b54415720454c42414c4c59532049593b30383241,
0x3b3b3b3b3b4e3b3b3b3b3b4c3b303b6f4c3b58415720454c42414c4c59532049593b31383241,
0x3b3b3b3b3b4e3b3b3b3b3b4c3b303b6f4c3b415720454c42414c4c59532049593b32383241,
0x3b3b3b3b3b4e3b3b3b3b3b4c3b303b6f4c3b50415720454c42414c4c59532049593b33383241,
0x3b3b3b3b3b4e3b3b3b3b3b4c3b303b6f4c3b584f555720454c42414c4c59532049593b34383241,
0x3b3b3b3b3b4e3b3b3b3b3b4c3b303b6f4c3b4f555720454c42414c4c59532049593b35383241,
0x3b3b3b3b3b4e3b3b3b3b3b4c3b303b6f4c3b504f555720454c42414c4c59532049593b36383241,
0x3b3b3b3b3b4e3b3b3b3b3b4c3b303b6f4c3b584f5720454c42414c4c59532049593b37383241,
0x3b3b3b3b3b4e3b3b3b3b3b4c3b303b6f4c3b4f5720454c42414c4c59532049593b38383241,
0x3b3b3b3b3b4e3b3b3b3b3b4c3b303b6f4c3b504f5720454c42414c4c59532049593b39383241,
0x3b3b3b3b3b4e3b3b3b3b3b4c3b303b6f4c3b58455720454c42414c4c59532049593b41383241,
0x3b3b3b3b3b4e3b3b3b3b3b4c3b303b6f4c3b455720454c42414c4c59532049593b42383241,
0x3b3b3b3b3b4e3b3b3b3b3b4c3b303b6f4c3b50455720454c42414c4c59532049593b43383241,
0x3b3b3b3b3b4e3b3b3b3b3b4c3b303b6f4c3b54495a20454c42414c4c59532049593b44383241,
0x3b3b3b3b3b4e3b3b3b3b3b4c3b303b6f4c3b58495a20454c42414c4c59532049593b45383241,
0x3b3b3b3b3b4e3b3b3b3b3b4c3b303b6f4c3b495a20454c42414c4c59532049593b46383241,
0x3b3b3b3b3b4e3b3b3b3b3b4c3b303b6f4c3b50495a20454c42414c4c59532049593b30393241,
0x3b3b3b3b3b4e3b3b3b3b3b4c3b303b6f4c3b5845495a20454c42414c4c59532049593b31393241,
0x3b3b3b3b3b4e3b3b3b3b3b4c3b303b6f4c3b45495a20454c42414c4c59532049593b32393241,
0x3b3b3b3b3b4e3b3b3b3b3b4c3b303b6f4c3b5045495a20454c42414c4c59532049593b33393241,
0x3b3b3b3b3b4e3b3b3b3b3b4c3b303b6f4c3b54415a20454c42414c4c59532049593b34393241,
0x3b3b3b3b3b4e3b3b3b3b3b4c3b303b6f4c3b58415a20454c42414c4c59532049593b35393241,
0x3b3b3b3b3b4e3b3b3b3b3b4c3b303b6f4c3b415a20454c42414c4c59532049593b36393241,
0x3b3b3b3b3b4e3b3b3b3b3b4c3b303b6f4c3b50415a20454c42414c4c59532049593b37393241,
0x3b3b3b3b3b4e3b3b3b3b3b4c3b303b6f4c3b584f555a20454c42414c4c59532049593b38393241,
0x3b3b3b3b3b4e3b3b3b3b3b4c3b303b6f4c3b4f555a20454c42414c4c59532049593b39393241,
0x3b3b3b3b3b4e3b3b3b3b3b4c3b303b6f4c3b504f555a20454c42414c4c59532049593b41393241,
0x3b3b3b3b3b4e3b3b3b3b3b4c3b303b6f4c3b544f5a20454c42414c4c59532049593b42393241,
0x3b3b3b3b3b4e3b3b3b3b3b4c3b303b6f4c3b584f5a20454c42414c4c59532049593b43393241,
0x3b3b3b3b3b4e3b3b3b3b3b4c3b303b6f4c3b4f5a20454c42414c4c59532049593b44393241,
0x3b3b3b3b3b4e3b3b3b3b3b4c3b303b6f4c3b504f5a20454c42414c4c59532049593b45393241,
0x3b3b3b3b3b4e3b3b3b3b3b4c3b303b6f4c3b58455a20454c42414c4c59532049593b46393241,
0x3b3b3b3b3b4e3b3b3b3b3b4c3b303b6f4c3b455a20454c42414c4c59532049593b30413241,
0x3b3b3b3b3b4e3b3b3b3b3b4c3b303b6f4c3b50455a20454c42414c4c59532049593b31413241,
0x3b3b3b3b3b4e3b3b3b3b3b4c3b303b6f4c3b54555a20454c42414c4c59532049593b32413241,
0x3b3b3b3b3b4e3b3b3b3b3b4c3b303b6f4c3b58555a20454c42414c4c59532049593b33413241,
0x3b3b3b3b3b4e3b3b3b3b3b4c3b303b6f4c3b555a20454c42414c4c59532049593b34413241,
0x3b3b3b3b3b4e3b3b3b3b3b4c3b303b6f4c3b50555a20454c42414c4c59532049593b35413241,
0x3b3b3b3b3b4e3b3b3b3b3b4c3b303b6f4c3b5852555a20454c42414c4c59532049593b36413241,
0x3b3b3b3b3b4e3b3b3b3b3b4c3b303b6f4c3b52555a20454c42414c4c59532049593b37413241,
0x3b3b3b3b3b4e3b3b3b3b3b4c3b303b6f4c3b54595a20454c42414c4c59532049593b38413241,
0x3b3b3b3b3b4e3b3b3b3b3b4c3b303b6f4c3b58595a20454c42414c4c59532049593b39413241,
0x3b3b3b3b3b4e3b3b3b3b3b4c3b303b6f4c3b595a20454c42414c4c59532049593b41413241,
0x3b3b3b3b3b4e3b3b3b3b3b4c3b303b6f4c3b50595a20454c42414c4c59532049593b42413241,
0x3b3b3b3b3b4e3b3b3b3b3b4c3b303b6f4c3b5852595a20454c42414c4c59532049593b43413241,
0x3b3b3b3b3b4e3b3b3b3b3b4c3b303b6f4c3b52595a20454c42414c4c59532049593b44413241,
0x3b3b3b3b3b4e3b3b3b3b3b4c3b303b6f4c3b54494320454c42414c4c59532049593b45413241,
0x3b3b3b3b3b4e3b3b3b3b3b4c3b303b6f4c3b58494320454c42414c4c59532049593b46413241,
0x3b3b3b3b3b4e3b3b3b3b3b4c3b303b6f4c3b494320454c42414c4c59532049593b30423241,
0x3b3b3b3b3b4e3b3b3b3b3b4c3b303b6f4c3b50494320454c42414c4c59532049593b31423241,
0x3b3b3b3b3b4e3b3b3b3b3b4c3b303b6f4c3b5445494320454c42414c4c59532049593b32423241,
0x3b3b3b3b3b4e3b3b3b3b3b4c3b303b6f4c3b5845494320454c42414c4c59532049593b33423241,
0x3b3b3b3b3b4e3b3b3b3b3b4c3b303b6f4c3b45494320454c42414c4c59532049593b34423241,
0x3b3b3b3b3b4e3b3b3b3b3b4c3b303b6f4c3b5045494320454c42414c4c59532049593b35423241,
0x3b3b3b3b3b4e3b3b3b3b3b4c3b303b6f4c3b54414320454c42414c4c59532049593b36423241,
0x3b3b3b3b3b4e3b3b3b3b3b4c3b303b6f4c3b58414320454c42414c4c59532049593b37423241,
0x3b3b3b3b3b4e3b3b3b3b3b4c3b303b6f4c3b414320454c42414c4c59532049593b38423241,
0x3b3b3b3b3b4e3b3b3b3b3b4c3b303b6f4c3b50414320454c42414c4c59532049593b39423241,
0x3b3b3b3b3b4e3b3b3b3b3b4c3b303b6f4c3b584f554320454c42414c4c59532049593b41423241,
0x3b3b3b3b3b4e3b3b3b3b3b4c3b303b6f4c3b4f554320454c42414c4c59532049593b42423241,
0x3b3b3b3b3b4e3b3b3b3b3b4c3b303b6f4c3b504f554320454c42414c4c59532049593b43423241,
0x3b3b3b3b3b4e3b3b3b3b3b4c3b303b6f4c3b544f4320454c42414c4c59532049593b44423241,
0x3b3b3b3b3b4e3b3b3b3b3b4c3b303b6f4c3b584f4320454c42414c4c59532049593b45423241,
0x3b3b3b3b3b4e3b3b3b3b3b4c3b303b6f4c3b4f4320454c42414c4c59532049593b46423241,
0x3b3b3b3b3b4e3b3b3b3b3b4c3b303b6f4c3b504f4320454c42414c4c59532049593b30433241,
0x3b3b3b3b3b4e3b3b3b3b3b4c3b303b6f4c3b58454320454c42414c4c59532049593b31433241,
0x3b3b3b3b3b4e3b3b3b3b3b4c3b303b6f4c3b454320454c42414c4c59532049593b32433241,
0x3b3b3b3b3b4e3b3b3b3b3b4c3b303b6f4c3b50454320454c42414c4c59532049593b33433241,
0x3b3b3b3b3b4e3b3b3b3b3b4c3b303b6f4c3b54554320454c42414c4c59532049593b34433241,
0x3b3b3b3b3b4e3b3b3b3b3b4c3b303b6f4c3b58554320454c42414c4c59532049593b35433241,
0x3b3b3b3b3b4e3b3b3b3b3b4c3b303b6f4c3b554320454c42414c4c59532049593b36433241,
0x3b3b3b3b3b4e3b3b3b3b3b4c3b303b6f4c3b50554320454c42414c4c59532049593b37433241,
0x3b3b3b3b3b4e3b3b3b3b3b4c3b303b6f4c3b5852554320454c42414c4c59532049593b38433241,
0x3b3b3b3b3b4e3b3b3b3b3b4c3b303b6f4c3b52554320454c42414c4c59532049593b39433241,
0x3b3b3b3b3b4e3b3b3b3b3b4c3b303b6f4c3b54594320454c42414c4c59532049593b41433241,
0x3b3b3b3b3b4e3b3b3b3b3b4c3b303b6f4c3b58594320454c42414c4c59532049593b42433241,
0x3b3b3b3b3b4e3b3b3b3b3b4c3b303b6f4c3b594320454c42414c4c59532049593b43433241,
0x3b3b3b3b3b4e3b3b3b3b3b4c3b303b6f4c3b50594320454c42414c4c59532049593b44433241,
0x3b3b3b3b3b4e3b3b3b3b3b4c3b303b6f4c3b5852594320454c42414c4c59532049593b45433241,
0x3b3b3b3b3b4e3b3b3b3b3b4c3b303b6f4c3b52594320454c42414c4c59532049593b46433241,
0x3b3b3b3b3b4e3b3b3b3b3b4c3b303b6f4c3b54495a5a20454c42414c4c59532049593b30443241,
0x3b3b3b3b3b4e3b3b3b3b3b4c3b303b6f4c3b58495a5a20454c42414c4c59532049593b31443241,
0x3b3b3b3b3b4e3b3b3b3b3b4c3b303b6f4c3b495a5a20454c42414c4c59532049593b32443241,
0x3b3b3b3b3b4e3b3b3b3b3b4c3b303b6f4c3b50495a5a20454c42414c4c59532049593b33443241,
0x3b3b3b3b3b4e3b3b3b3b3b4c3b303b6f4c3b5445495a5a20454c42414c4c59532049593b34443241,
0x3b3b3b3b3b4e3b3b3b3b3b4c3b303b6f4c3b5845495a5a20454c42414c4c59532049593b35443241,
0x3b3b3b3b3b4e3b3b3b3b3b4c3b303b6f4c3b45495a5a20454c42414c4c59532049593b36443241,
0x3b3b3b3b3b4e3b3b3b3b3b4c3b303b6f4c3b5045495a5a20454c42414c4c59532049593b37443241,
0x3b3b3b3b3b4e3b3b3b3b3b4c3b303b6f4c3b54415a5a20454c42414c4c59532049593b38443241,
0x3b3b3b3b3b4e3b3b3b3b3b4c3b303b6f4c3b58415a5a20454c42414c4c59532049593b39443241,
0x3b3b3b3b3b4e3b3b3b3b3b4c3b303b6f4c3b415a5a20454c42414c4c59532049593b41443241,
0x3b3b3b3b3b4e3b3b3b3b3b4c3b303b6f4c3b50415a5a20454c42414c4c59532049593b42443241,
0x3b3b3b3b3b4e3b3b3b3b3b4c3b303b6f4c3b584f5a5a20454c42414c4c59532049593b43443241,
0x3b3b3b3b3b4e3b3b3b3b3b4c3b303b6f4c3b4f5a5a20454c42414c4c59532049593b44443241,
0x3b3b3b3b3b4e3b3b3b3b3b4c3b303b6f4c3b504f5a5a20454c42414c4c59532049593b45443241,
0x3b3b3b3b3b4e3b3b3b3b3b4c3b303b6f4c3b58455a5a20454c42414c4c59532049593b46443241,
0x3b3b3b3b3b4e3b3b3b3b3b4c3b303b6f4c3b455a5a20454c42414c4c59532049593b30453241,
0x3b3b3b3b3b4e3b3b3b3b3b4c3b303b6f4c3b50455a5a20454c42414c4c59532049593b31453241,
0x3b3b3b3b3b4e3b3b3b3b3b4c3b303b6f4c3b58555a5a20454c42414c4c59532049593b32453241,
0x3b3b3b3b3b4e3b3b3b3b3b4c3b303b6f4c3b555a5a20454c42414c4c59532049593b33453241,
0x3b3b3b3b3b4e3b3b3b3b3b4c3b303b6f4c3b50555a5a20454c42414c4c59532049593b34453241,
0x3b3b3b3b3b4e3b3b3b3b3b4c3b303b6f4c3b5852555a5a20454c42414c4c59532049593b35453241,
0x3b3b3b3b3b4e3b3b3b3b3b4c3b303b6f4c3b52555a5a20454c42414c4c59532049593b36453241,
0x3b3b3b3b3b4e3b3b3b3b3b4c3b303b6f4c3b54595a5a20454c42414c4c59532049593b37453241,
0x3b3b3b3b3b4e3b3b3b3b3b4c3b303b6f4c3b58595a5a20454c42414c4c59532049593b38453241,
0x3b3b3b3b3b4e3b3b3b3b3b4c3b303b6f4c3b595a5a20454c42414c4c59532049593b39453241,
0x3b3b3b3b3b4e3b3b3b3b3b4c3b303b6f4c3b50595a5a20454c42414c4c59532049593b41453241,
0x3b3b3b3b3b4e3b3b3b3b3b4c3b303b6f4c3b5852595a5a20454c42414c4c59532049593b42453241,
0x3b3b3b3b3b4e3b3b3b3b3b4c3b303b6f4c3b52595a5a20454c42414c4c59532049593b43453241,
0x3b3b3b3b3b4e3b3b3b3b3b4c3b303b6f4c3b54495a4e20454c42414c4c59532049593b44453241,
0x3b3b3b3b3b4e3b3b3b3b3b4c3b303b6f4c3b58495a4e20454c42414c4c59532049593b45453241,
0x3b3b3b3b3b4e3b3b3b3b3b4c3b303b6f4c3b495a4e20454c42414c4c59532049593b46453241,
0x3b3b3b3b3b4e3b3b3b3b3b4c3b303b6f4c3b50495a4e20454c42414c4c59532049593b30463241,
0x3b3b3b3b3b4e3b3b3b3b3b4c3b303b6f4c3b5845495a4e20454c42414c4c59532049593b31463241,
0x3b3b3b3b3b4e3b3b3b3b3b4c3b303b6f4c3b45495a4e20454c42414c4c59532049593b32463241,
0x3b3b3b3b3b4e3b3b3b3b3b4c3b303b6f4c3b5045495a4e20454c42414c4c59532049593b33463241,
0x3b3b3b3b3b4e3b3b3b3b3b4c3b303b6f4c3b54415a4e20454c42414c4c59532049593b34463241,
0x3b3b3b3b3b4e3b3b3b3b3b4c3b303b6f4c3b58415a4e20454c42414c4c59532049593b35463241,
0x3b3b3b3b3b4e3b3b3b3b3b4c3b303b6f4c3b415a4e20454c42414c4c59532049593b36463241,
0x3b3b3b3b3b4e3b3b3b3b3b4c3b303b6f4c3b50415a4e20454c42414c4c59532049593b37463241,
0x3b3b3b3b3b4e3b3b3b3b3b4c3b303b6f4c3b584f555a4e20454c42414c4c59532049593b38463241,
0x3b3b3b3b3b4e3b3b3b3b3b4c3b303b6f4c3b4f555a4e20454c42414c4c59532049593b39463241,
0x3b3b3b3b3b4e3b3b3b3b3b4c3b303b6f4c3b584f5a4e20454c42414c4c59532049593b41463241,
0x3b3b3b3b3b4e3b3b3b3b3b4c3b303b6f4c3b504f5a4e20454c42414c4c59532049593b42463241,
0x3b3b3b3b3b4e3b3b3b3b3b4c3b303b6f4c3b58455a4e20454c42414c4c59532049593b43463241,
0x3b3b3b3b3b4e3b3b3b3b3b4c3b303b6f4c3b455a4e20454c42414c4c59532049593b44463241,
0x3b3b3b3b3b4e3b3b3b3b3b4c3b303b6f4c3b58555a4e20454c42414c4c59532049593b45463241,
0x3b3b3b3b3b4e3b3b3b3b3b4c3b303b6f4c3b555a4e20454c42414c4c59532049593b46463241,
0x3b3b3b3b3b4e3b3b3b3b3b4c3b303b6f4c3b50555a4e20454c42414c4c59532049593b30303341,
0x3b3b3b3b3b4e3b3b3b3b3b4c3b303b6f4c3b5852555a4e20454c42414c4c59532049593b31303341,
0x3b3b3b3b3b4e3b3b3b3b3b4c3b303b6f4c3b52555a4e20454c42414c4c59532049593b32303341,
0x3b3b3b3b3b4e3b3b3b3b3b4c3b303b6f4c3b54595a4e20454c42414c4c59532049593b33303341,
0x3b3b3b3b3b4e3b3b3b3b3b4c3b303b6f4c3b58595a4e20454c42414c4c59532049593b34303341,
0x3b3b3b3b3b4e3b3b3b3b3b4c3b303b6f4c3b595a4e20454c42414c4c59532049593b35303341,
0x3b3b3b3b3b4e3b3b3b3b3b4c3b303b6f4c3b50595a4e20454c42414c4c59532049593b36303341,
0x3b3b3b3b3b4e3b3b3b3b3b4c3b303b6f4c3b5852595a4e20454c42414c4c59532049593b37303341,
0x3b3b3b3b3b4e3b3b3b3b3b4c3b303b6f4c3b52595a4e20454c42414c4c59532049593b38303341,
0x3b3b3b3b3b4e3b3b3b3b3b4c3b303b6f4c3b54495320454c42414c4c59532049593b39303341,
0x3b3b3b3b3b4e3b3b3b3b3b4c3b303b6f4c3b58495320454c42414c4c59532049593b41303341,
0x3b3b3b3b3b4e3b3b3b3b3b4c3b303b6f4c3b495320454c42414c4c59532049593b42303341,
0x3b3b3b3b3b4e3b3b3b3b3b4c3b303b6f4c3b50495320454c42414c4c59532049593b43303341]

/-- src/u5e/props/UnicodeData.txt lines 12801-13056. -/
def rawUcd50 : List Nat := [
0x3b3b3b3b3b4e3b3b3b3b3b4c3b303b6f4c3b5845495320454c42414c4c59532049593b44303341,
0x3b3b3b3b3b4e3b3b3b3b3b4c3b303b6f4c3b45495320454c42414c4c59532049593b45303341,
0x3b3b3b3b3b4e3b3b3b3b3b4c3b303b6f4c3b5045495320454c42414c4c59532049593b46303341,
0x3b3b3b3b3b4e3b3b3b3b3b4c3b303b6f4c3b54415320454c42414c4c59532049593b30313341,
0x3b3b3b3b3b4e3b3b3b3b3b4c3b303b6f4c3b58415320454c42414c4c59532049593b31313341,
0x3b3b3b3b3b4e3b3b3b3b3b4c3b303b6f4c3b415320454c42414c4c59532049593b32313341,
0x3b3b3b3b3b4e3b3b3b3b3b4c3b303b6f4c3b50415320454c42414c4c59532049593b33313341,
0x3b3b3b3b3b4e3b3b3b3b3b4c3b303b6f4c3b584f555320454c42414c4c59532049593b34313341,
0x3b3b3b3b3b4e3b3b3b3b3b4c3b303b6f4c3b4f555320454c42414c4c59532049593b35313341,
0x3b3b3b3b3b4e3b3b3b3b3b4c3b303b6f4c3b504f555320454c42414c4c59532049593b36313341,
0x3b3b3b3b3b4e3b3b3b3b3b4c3b303b6f4c3b544f5320454c42414c4c59532049593b37313341,
0x3b3b3b3b3b4e3b3b3b3b3b4c3b303b6f4c3b584f5320454c42414c4c59532049593b38313341,
0x3b3b3b3b3b4e3b3b3b3b3b4c3b303b6f4c3b4f5320454c42414c4c59532049593b39313341,
0x3b3b3b3b3b4e3b3b3b3b3b4c3b303b6f4c3b504f5320454c42414c4c59532049593b41313341,
0x3b3b3b3b3b4e3b3b3b3b3b4c3b303b6f4c3b58455320454c42414c4c59532049593b42313341,
0x3b3b3b3b3b4e3b3b3b3b3b4c3b303b6f4c3b455320454c42414c4c59532049593b43313341,
0x3b3b3b3b3b4e3b3b3b3b3b4c3b303b6f4c3b50455320454c42414c4c59532049593b44313341,
0x3b3b3b3b3b4e3b3b3b3b3b4c3b303b6f4c3b54555320454c42414c4c59532049593b45313341,
0x3b3b3b3b3b4e3b3b3b3b3b4c3b303b6f4c3b58555320454c42414c4c59532049593b46313341,
0x3b3b3b3b3b4e3b3b3b3b3b4c3b303b6f4c3b555320454c42414c4c59532049593b30323341,
0x3b3b3b3b3b4e3b3b3b3b3b4c3b303b6f4c3b50555320454c42414c4c59532049593b31323341,
0x3b3b3b3b3b4e3b3b3b3b3b4c3b303b6f4c3b5852555320454c42414c4c59532049593b32323341,
0x3b3b3b3b3b4e3b3b3b3b3b4c3b303b6f4c3b52555320454c42414c4c59532049593b33323341,
0x3b3b3b3b3b4e3b3b3b3b3b4c3b303b6f4c3b54595320454c42414c4c59532049593b34323341,
0x3b3b3b3b3b4e3b3b3b3b3b4c3b303b6f4c3b58595320454c42414c4c59532049593b35323341,
0x3b3b3b3b3b4e3b3b3b3b3b4c3b303b6f4c3b595320454c42414c4c59532049593b36323341,
0x3b3b3b3b3b4e3b3b3b3b3b4c3b303b6f4c3b50595320454c42414c4c59532049593b37323341,
0x3b3b3b3b3b4e3b3b3b3b3b4c3b303b6f4c3b5852595320454c42414c4c59532049593b38323341,
0x3b3b3b3b3b4e3b3b3b3b3b4c3b303b6f4c3b52595320454c42414c4c59532049593b39323341,
0x3b3b3b3b3b4e3b3b3b3b3b4c3b303b6f4c3b5449535320454c42414c4c59532049593b41323341,
0x3b3b3b3b3b4e3b3b3b3b3b4c3b303b6f4c3b5849535320454c42414c4c59532049593b42323341,
0x3b3b3b3b3b4e3b3b3b3b3b4c3b303b6f4c3b49535320454c42414c4c59532049593b43323341,
0x3b3b3b3b3b4e3b3b3b3b3b4c3b303b6f4c3b5049535320454c42414c4c59532049593b44323341,
0x3b3b3b3b3b4e3b3b3b3b3b4c3b303b6f4c3b584549535320454c42414c4c59532049593b45323341,
0x3b3b3b3b3b4e3b3b3b3b3b4c3b303b6f4c3b4549535320454c42414c4c59532049593b46323341,
0x3b3b3b3b3b4e3b3b3b3b3b4c3b303b6f4c3b504549535320454c42414c4c59532049593b30333341,
0x3b3b3b3b3b4e3b3b3b3b3b4c3b303b6f4c3b5441535320454c42414c4c59532049593b31333341,
0x3b3b3b3b3b4e3b3b3b3b3b4c3b303b6f4c3b5841535320454c42414c4c59532049593b32333341,
0x3b3b3b3b3b4e3b3b3b3b3b4c3b303b6f4c3b41535320454c42414c4c59532049593b33333341,
0x3b3b3b3b3b4e3b3b3b3b3b4c3b303b6f4c3b5041535320454c42414c4c59532049593b34333341,
0x3b3b3b3b3b4e3b3b3b3b3b4c3b303b6f4c3b544f535320454c42414c4c59532049593b35333341,
0x3b3b3b3b3b4e3b3b3b3b3b4c3b303b6f4c3b584f535320454c42414c4c59532049593b36333341,
0x3b3b3b3b3b4e3b3b3b3b3b4c3b303b6f4c3b4f535320454c42414c4c59532049593b37333341,
0x3b3b3b3b3b4e3b3b3b3b3b4c3b303b6f4c3b504f535320454c42414c4c59532049593b38333341,
0x3b3b3b3b3b4e3b3b3b3b3b4c3b303b6f4c3b5845535320454c42414c4c59532049593b39333341,
0x3b3b3b3b3b4e3b3b3b3b3b4c3b303b6f4c3b45535320454c42414c4c59532049593b41333341,
0x3b3b3b3b3b4e3b3b3b3b3b4c3b303b6f4c3b5045535320454c42414c4c59532049593b42333341,
0x3b3b3b3b3b4e3b3b3b3b3b4c3b303b6f4c3b5455535320454c42414c4c59532049593b43333341,
0x3b3b3b3b3b4e3b3b3b3b3b4c3b303b6f4c3b5855535320454c42414c4c59532049593b44333341,
0x3b3b3b3b3b4e3b3b3b3b3b4c3b303b6f4c3b55535320454c42414c4c59532049593b45333341,
0x3b3b3b3b3b4e3b3b3b3b3b4c3b303b6f4c3b5055535320454c42414c4c59532049593b46333341,
0x3b3b3b3b3b4e3b3b3b3b3b4c3b303b6f4c3b5459535320454c42414c4c59532049593b30343341,
0x3b3b3b3b3b4e3b3b3b3b3b4c3b303b6f4c3b5859535320454c42414c4c59532049593b31343341,
0x3b3b3b3b3b4e3b3b3b3b3b4c3b303b6f4c3b59535320454c42414c4c59532049593b32343341,
0x3b3b3b3b3b4e3b3b3b3b3b4c3b303b6f4c3b5059535320454c42414c4c59532049593b33343341,
0x3b3b3b3b3b4e3b3b3b3b3b4c3b303b6f4c3b585259535320454c42414c4c59532049593b34343341,
0x3b3b3b3b3b4e3b3b3b3b3b4c3b303b6f4c3b5259535320454c42414c4c59532049593b35343341,
0x3b3b3b3b3b4e3b3b3b3b3b4c3b303b6f4c3b5441485a20454c42414c4c59532049593b36343341,
0x3b3b3b3b3b4e3b3b3b3b3b4c3b303b6f4c3b5841485a20454c42414c4c59532049593b37343341,
0x3b3b3b3b3b4e3b3b3b3b3b4c3b303b6f4c3b41485a20454c42414c4c59532049593b38343341,
0x3b3b3b3b3b4e3b3b3b3b3b4c3b303b6f4c3b5041485a20454c42414c4c59532049593b39343341,
0x3b3b3b3b3b4e3b3b3b3b3b4c3b303b6f4c3b584f55485a20454c42414c4c59532049593b41343341,
0x3b3b3b3b3b4e3b3b3b3b3b4c3b303b6f4c3b4f55485a20454c42414c4c59532049593b42343341,
0x3b3b3b3b3b4e3b3b3b3b3b4c3b303b6f4c3b504f55485a20454c42414c4c59532049593b43343341,
0x3b3b3b3b3b4e3b3b3b3b3b4c3b303b6f4c3b544f485a20454c42414c4c59532049593b44343341,
0x3b3b3b3b3b4e3b3b3b3b3b4c3b303b6f4c3b584f485a20454c42414c4c59532049593b45343341,
0x3b3b3b3b3b4e3b3b3b3b3b4c3b303b6f4c3b4f485a20454c42414c4c59532049593b46343341,
0x3b3b3b3b3b4e3b3b3b3b3b4c3b303b6f4c3b504f485a20454c42414c4c59532049593b30353341,
0x3b3b3b3b3b4e3b3b3b3b3b4c3b303b6f4c3b5445485a20454c42414c4c59532049593b31353341,
0x3b3b3b3b3b4e3b3b3b3b3b4c3b303b6f4c3b5845485a20454c42414c4c59532049593b32353341,
0x3b3b3b3b3b4e3b3b3b3b3b4c3b303b6f4c3b45485a20454c42414c4c59532049593b33353341,
0x3b3b3b3b3b4e3b3b3b3b3b4c3b303b6f4c3b5045485a20454c42414c4c59532049593b34353341,
0x3b3b3b3b3b4e3b3b3b3b3b4c3b303b6f4c3b5455485a20454c42414c4c59532049593b35353341,
0x3b3b3b3b3b4e3b3b3b3b3b4c3b303b6f4c3b5855485a20454c42414c4c59532049593b36353341,
0x3b3b3b3b3b4e3b3b3b3b3b4c3b303b6f4c3b55485a20454c42414c4c59532049593b37353341,
0x3b3b3b3b3b4e3b3b3b3b3b4c3b303b6f4c3b5055485a20454c42414c4c59532049593b38353341,
0x3b3b3b3b3b4e3b3b3b3b3b4c3b303b6f4c3b585255485a20454c42414c4c59532049593b39353341,
0x3b3b3b3b3b4e3b3b3b3b3b4c3b303b6f4c3b5255485a20454c42414c4c59532049593b41353341,
0x3b3b3b3b3b4e3b3b3b3b3b4c3b303b6f4c3b5459485a20454c42414c4c59532049593b42353341,
0x3b3b3b3b3b4e3b3b3b3b3b4c3b303b6f4c3b5859485a20454c42414c4c59532049593b43353341,
0x3b3b3b3b3b4e3b3b3b3b3b4c3b303b6f4c3b59485a20454c42414c4c59532049593b44353341,
0x3b3b3b3b3b4e3b3b3b3b3b4c3b303b6f4c3b5059485a20454c42414c4c59532049593b45353341,
0x3b3b3b3b3b4e3b3b3b3b3b4c3b303b6f4c3b585259485a20454c42414c4c59532049593b46353341,
0x3b3b3b3b3b4e3b3b3b3b3b4c3b303b6f4c3b5259485a20454c42414c4c59532049593b30363341,
0x3b3b3b3b3b4e3b3b3b3b3b4c3b303b6f4c3b5441484320454c42414c4c59532049593b31363341,
0x3b3b3b3b3b4e3b3b3b3b3b4c3b303b6f4c3b5841484320454c42414c4c59532049593b32363341,
0x3b3b3b3b3b4e3b3b3b3b3b4c3b303b6f4c3b41484320454c42414c4c59532049593b33363341,
0x3b3b3b3b3b4e3b3b3b3b3b4c3b303b6f4c3b5041484320454c42414c4c59532049593b34363341,
0x3b3b3b3b3b4e3b3b3b3b3b4c3b303b6f4c3b544f55484320454c42414c4c59532049593b35363341,
0x3b3b3b3b3b4e3b3b3b3b3b4c3b303b6f4c3b584f55484320454c42414c4c59532049593b36363341,
0x3b3b3b3b3b4e3b3b3b3b3b4c3b303b6f4c3b4f55484320454c42414c4c59532049593b37363341,
0x3b3b3b3b3b4e3b3b3b3b3b4c3b303b6f4c3b504f55484320454c42414c4c59532049593b38363341,
0x3b3b3b3b3b4e3b3b3b3b3b4c3b303b6f4c3b544f484320454c42414c4c59532049593b39363341,
0x3b3b3b3b3b4e3b3b3b3b3b4c3b303b6f4c3b584f484320454c42414c4c59532049593b41363341,
0x3b3b3b3b3b4e3b3b3b3b3b4c3b303b6f4c3b4f484320454c42414c4c59532049593b42363341,
0x3b3b3b3b3b4e3b3b3b3b3b4c3b303b6f4c3b504f484320454c42414c4c59532049593b43363341,
0x3b3b3b3b3b4e3b3b3b3b3b4c3b303b6f4c3b5445484320454c42414c4c59532049593b44363341,
0x3b3b3b3b3b4e3b3b3b3b3b4c3b303b6f4c3b5845484320454c42414c4c59532049593b45363341,
0x3b3b3b3b3b4e3b3b3b3b3b4c3b303b6f4c3b45484320454c42414c4c59532049593b46363341,
0x3b3b3b3b3b4e3b3b3b3b3b4c3b303b6f4c3b5045484320454c42414c4c59532049593b30373341,
0x3b3b3b3b3b4e3b3b3b3b3b4c3b303b6f4c3b5855484320454c42414c4c59532049593b31373341,
0x3b3b3b3b3b4e3b3b3b3b3b4c3b303b6f4c3b55484320454c42414c4c59532049593b32373341,
0x3b3b3b3b3b4e3b3b3b3b3b4c3b303b6f4c3b5055484320454c42414c4c59532049593b33373341,
0x3b3b3b3b3b4e3b3b3b3b3b4c3b303b6f4c3b585255484320454c42414c4c59532049593b34373341,
0x3b3b3b3b3b4e3b3b3b3b3b4c3b303b6f4c3b5255484320454c42414c4c59532049593b35373341,
0x3b3b3b3b3b4e3b3b3b3b3b4c3b303b6f4c3b5459484320454c42414c4c59532049593b36373341,
0x3b3b3b3b3b4e3b3b3b3b3b4c3b303b6f4c3b5859484320454c42414c4c59532049593b37373341,
0x3b3b3b3b3b4e3b3b3b3b3b4c3b303b6f4c3b59484320454c42414c4c59532049593b38373341,
0x3b3b3b3b3b4e3b3b3b3b3b4c3b303b6f4c3b5059484320454c42414c4c59532049593b39373341,
0x3b3b3b3b3b4e3b3b3b3b3b4c3b303b6f4c3b585259484320454c42414c4c59532049593b41373341,
0x3b3b3b3b3b4e3b3b3b3b3b4c3b303b6f4c3b5259484320454c42414c4c59532049593b42373341,
0x3b3b3b3b3b4e3b3b3b3b3b4c3b303b6f4c3b5841525220454c42414c4c59532049593b43373341,
0x3b3b3b3b3b4e3b3b3b3b3b4c3b303b6f4c3b41525220454c42414c4c59532049593b44373341,
0x3b3b3b3b3b4e3b3b3b3b3b4c3b303b6f4c3b584f55525220454c42414c4c59532049593b45373341,
0x3b3b3b3b3b4e3b3b3b3b3b4c3b303b6f4c3b4f55525220454c42414c4c59532049593b46373341,
0x3b3b3b3b3b4e3b3b3b3b3b4c3b303b6f4c3b544f525220454c42414c4c59532049593b30383341,
0x3b3b3b3b3b4e3b3b3b3b3b4c3b303b6f4c3b584f525220454c42414c4c59532049593b31383341,
0x3b3b3b3b3b4e3b3b3b3b3b4c3b303b6f4c3b4f525220454c42414c4c59532049593b32383341,
0x3b3b3b3b3b4e3b3b3b3b3b4c3b303b6f4c3b504f525220454c42414c4c59532049593b33383341,
0x3b3b3b3b3b4e3b3b3b3b3b4c3b303b6f4c3b5445525220454c42414c4c59532049593b34383341,
0x3b3b3b3b3b4e3b3b3b3b3b4c3b303b6f4c3b5845525220454c42414c4c59532049593b35383341,
0x3b3b3b3b3b4e3b3b3b3b3b4c3b303b6f4c3b45525220454c42414c4c59532049593b36383341,
0x3b3b3b3b3b4e3b3b3b3b3b4c3b303b6f4c3b5045525220454c42414c4c59532049593b37383341,
0x3b3b3b3b3b4e3b3b3b3b3b4c3b303b6f4c3b5455525220454c42414c4c59532049593b38383341,
0x3b3b3b3b3b4e3b3b3b3b3b4c3b303b6f4c3b5855525220454c42414c4c59532049593b39383341,
0x3b3b3b3b3b4e3b3b3b3b3b4c3b303b6f4c3b55525220454c42414c4c59532049593b41383341,
0x3b3b3b3b3b4e3b3b3b3b3b4c3b303b6f4c3b5055525220454c42414c4c59532049593b42383341,
0x3b3b3b3b3b4e3b3b3b3b3b4c3b303b6f4c3b585255525220454c42414c4c59532049593b43383341,
0x3b3b3b3b3b4e3b3b3b3b3b4c3b303b6f4c3b5255525220454c42414c4c59532049593b44383341,
0x3b3b3b3b3b4e3b3b3b3b3b4c3b303b6f4c3b5459525220454c42414c4c59532049593b45383341,
0x3b3b3b3b3b4e3b3b3b3b3b4c3b303b6f4c3b5859525220454c42414c4c59532049593b46383341,
0x3b3b3b3b3b4e3b3b3b3b3b4c3b303b6f4c3b59525220454c42414c4c59532049593b30393341,
0x3b3b3b3b3b4e3b3b3b3b3b4c3b303b6f4c3b5059525220454c42414c4c59532049593b31393341,
0x3b3b3b3b3b4e3b3b3b3b3b4c3b303b6f4c3b585259525220454c42414c4c59532049593b32393341,
0x3b3b3b3b3b4e3b3b3b3b3b4c3b303b6f4c3b5259525220454c42414c4c59532049593b33393341,
0x3b3b3b3b3b4e3b3b3b3b3b4c3b303b6f4c3b5441524e20454c42414c4c59532049593b34393341,
0x3b3b3b3b3b4e3b3b3b3b3b4c3b303b6f4c3b5841524e20454c42414c4c59532049593b35393341,
0x3b3b3b3b3b4e3b3b3b3b3b4c3b303b6f4c3b41524e20454c42414c4c59532049593b36393341,
0x3b3b3b3b3b4e3b3b3b3b3b4c3b303b6f4c3b5041524e20454c42414c4c59532049593b37393341,
0x3b3b3b3b3b4e3b3b3b3b3b4c3b303b6f4c3b584f524e20454c42414c4c59532049593b38393341,
0x3b3b3b3b3b4e3b3b3b3b3b4c3b303b6f4c3b4f524e20454c42414c4c59532049593b39393341,
0x3b3b3b3b3b4e3b3b3b3b3b4c3b303b6f4c3b504f524e20454c42414c4c59532049593b41393341,
0x3b3b3b3b3b4e3b3b3b3b3b4c3b303b6f4c3b5445524e20454c42414c4c59532049593b42393341,
0x3b3b3b3b3b4e3b3b3b3b3b4c3b303b6f4c3b5845524e20454c42414c4c59532049593b43393341,
0x3b3b3b3b3b4e3b3b3b3b3b4c3b303b6f4c3b45524e20454c42414c4c59532049593b44393341,
0x3b3b3b3b3b4e3b3b3b3b3b4c3b303b6f4c3b5045524e20454c42414c4c59532049593b45393341,
0x3b3b3b3b3b4e3b3b3b3b3b4c3b303b6f4c3b5455524e20454c42414c4c59532049593b46393341,
0x3b3b3b3b3b4e3b3b3b3b3b4c3b303b6f4c3b5855524e20454c42414c4c59532049593b30413341,
0x3b3b3b3b3b4e3b3b3b3b3b4c3b303b6f4c3b55524e20454c42414c4c59532049593b31413341,
0x3b3b3b3b3b4e3b3b3b3b3b4c3b303b6f4c3b5055524e20454c42414c4c59532049593b32413341,
0x3b3b3b3b3b4e3b3b3b3b3b4c3b303b6f4c3b585255524e20454c42414c4c59532049593b33413341,
0x3b3b3b3b3b4e3b3b3b3b3b4c3b303b6f4c3b5255524e20454c42414c4c59532049593b34413341,
0x3b3b3b3b3b4e3b3b3b3b3b4c3b303b6f4c3b5459524e20454c42414c4c59532049593b35413341,
0x3b3b3b3b3b4e3b3b3b3b3b4c3b303b6f4c3b5859524e20454c42414c4c59532049593b36413341,
0x3b3b3b3b3b4e3b3b3b3b3b4c3b303b6f4c3b59524e20454c42414c4c59532049593b37413341,
0x3b3b3b3b3b4e3b3b3b3b3b4c3b303b6f4c3b5059524e20454c42414c4c59532049593b38413341,
0x3b3b3b3b3b4e3b3b3b3b3b4c3b303b6f4c3b585259524e20454c42414c4c59532049593b39413341,
0x3b3b3b3b3b4e3b3b3b3b3b4c3b303b6f4c3b5259524e20454c42414c4c59532049593b41413341,
0x3b3b3b3b3b4e3b3b3b3b3b4c3b303b6f4c3b5441485320454c42414c4c59532049593b42413341,
0x3b3b3b3b3b4e3b3b3b3b3b4c3b303b6f4c3b5841485320454c42414c4c59532049593b43413341,
0x3b3b3b3b3b4e3b3b3b3b3b4c3b303b6f4c3b41485320454c42414c4c59532049593b44413341,
0x3b3b3b3b3b4e3b3b3b3b3b4c3b303b6f4c3b5041485320454c42414c4c59532049593b45413341,
0x3b3b3b3b3b4e3b3b3b3b3b4c3b303b6f4c3b584f55485320454c42414c4c59532049593b46413341,
0x3b3b3b3b3b4e3b3b3b3b3b4c3b303b6f4c3b4f55485320454c42414c4c59532049593b30423341,
0x3b3b3b3b3b4e3b3b3b3b3b4c3b303b6f4c3b504f55485320454c42414c4c59532049593b31423341,
0x3b3b3b3b3b4e3b3b3b3b3b4c3b303b6f4c3b544f485320454c42414c4c59532049593b32423341,
0x3b3b3b3b3b4e3b3b3b3b3b4c3b303b6f4c3b584f485320454c42414c4c59532049593b33423341,
0x3b3b3b3b3b4e3b3b3b3b3b4c3b303b6f4c3b4f485320454c42414c4c59532049593b34423341,
0x3b3b3b3b3b4e3b3b3b3b3b4c3b303b6f4c3b504f485320454c42414c4c59532049593b35423341,
0x3b3b3b3b3b4e3b3b3b3b3b4c3b303b6f4c3b5445485320454c42414c4c59532049593b36423341,
0x3b3b3b3b3b4e3b3b3b3b3b4c3b303b6f4c3b5845485320454c42414c4c59532049593b37423341,
0x3b3b3b3b3b4e3b3b3b3b3b4c3b303b6f4c3b45485320454c42414c4c59532049593b38423341,
0x3b3b3b3b3b4e3b3b3b3b3b4c3b303b6f4c3b5045485320454c42414c4c59532049593b39423341,
0x3b3b3b3b3b4e3b3b3b3b3b4c3b303b6f4c3b5455485320454c42414c4c59532049593b41423341,
0x3b3b3b3b3b4e3b3b3b3b3b4c3b303b6f4c3b5855485320454c42414c4c59532049593b42423341,
0x3b3b3b3b3b4e3b3b3b3b3b4c3b303b6f4c3b55485320454c42414c4c59532049593b43423341,
0x3b3b3b3b3b4e3b3b3b3b3b4c3b303b6f4c3b5055485320454c42414c4c59532049593b44423341,
0x3b3b3b3b3b4e3b3b3b3b3b4c3b303b6f4c3b585255485320454c42414c4c59532049593b45423341,
0x3b3b3b3b3b4e3b3b3b3b3b4c3b303b6f4c3b5255485320454c42414c4c59532049593b46423341,
0x3b3b3b3b3b4e3b3b3b3b3b4c3b303b6f4c3b5459485320454c42414c4c59532049593b30433341,
0x3b3b3b3b3b4e3b3b3b3b3b4c3b303b6f4c3b5859485320454c42414c4c59532049593b31433341,
0x3b3b3b3b3b4e3b3b3b3b3b4c3b303b6f4c3b59485320454c42414c4c59532049593b32433341,
0x3b3b3b3b3b4e3b3b3b3b3b4c3b303b6f4c3b5059485320454c42414c4c59532049593b33433341,
0x3b3b3b3b3b4e3b3b3b3b3b4c3b303b6f4c3b585259485320454c42414c4c59532049593b34433341,
0x3b3b3b3b3b4e3b3b3b3b3b4c3b303b6f4c3b5259485320454c42414c4c59532049593b35433341,
0x3b3b3b3b3b4e3b3b3b3b3b4c3b303b6f4c3b54415220454c42414c4c59532049593b36433341,
0x3b3b3b3b3b4e3b3b3b3b3b4c3b303b6f4c3b58415220454c42414c4c59532049593b37433341,
0x3b3b3b3b3b4e3b3b3b3b3b4c3b303b6f4c3b415220454c42414c4c59532049593b38433341,
0x3b3b3b3b3b4e3b3b3b3b3b4c3b303b6f4c3b50415220454c42414c4c59532049593b39433341,
0x3b3b3b3b3b4e3b3b3b3b3b4c3b303b6f4c3b584f555220454c42414c4c59532049593b41433341,
0x3b3b3b3b3b4e3b3b3b3b3b4c3b303b6f4c3b4f555220454c42414c4c59532049593b42433341,
0x3b3b3b3b3b4e3b3b3b3b3b4c3b303b6f4c3b504f555220454c42414c4c59532049593b43433341,
0x3b3b3b3b3b4e3b3b3b3b3b4c3b303b6f4c3b544f5220454c42414c4c59532049593b44433341,
0x3b3b3b3b3b4e3b3b3b3b3b4c3b303b6f4c3b584f5220454c42414c4c59532049593b45433341,
0x3b3b3b3b3b4e3b3b3b3b3b4c3b303b6f4c3b4f5220454c42414c4c59532049593b46433341,
0x3b3b3b3b3b4e3b3b3b3b3b4c3b303b6f4c3b504f5220454c42414c4c59532049593b30443341,
0x3b3b3b3b3b4e3b3b3b3b3b4c3b303b6f4c3b58455220454c42414c4c59532049593b31443341,
0x3b3b3b3b3b4e3b3b3b3b3b4c3b303b6f4c3b455220454c42414c4c59532049593b32443341,
0x3b3b3b3b3b4e3b3b3b3b3b4c3b303b6f4c3b50455220454c42414c4c59532049593b33443341,
0x3b3b3b3b3b4e3b3b3b3b3b4c3b303b6f4c3b54555220454c42414c4c59532049593b34443341,
0x3b3b3b3b3b4e3b3b3b3b3b4c3b303b6f4c3b58555220454c42414c4c59532049593b35443341,
0x3b3b3b3b3b4e3b3b3b3b3b4c3b303b6f4c3b555220454c42414c4c59532049593b36443341,
0x3b3b3b3b3b4e3b3b3b3b3b4c3b303b6f4c3b50555220454c42414c4c59532049593b37443341,
0x3b3b3b3b3b4e3b3b3b3b3b4c3b303b6f4c3b5852555220454c42414c4c59532049593b38443341,
0x3b3b3b3b3b4e3b3b3b3b3b4c3b303b6f4c3b52555220454c42414c4c59532049593b39443341,
0x3b3b3b3b3b4e3b3b3b3b3b4c3b303b6f4c3b54595220454c42414c4c59532049593b41443341,
0x3b3b3b3b3b4e3b3b3b3b3b4c3b303b6f4c3b58595220454c42414c4c59532049593b42443341,
0x3b3b3b3b3b4e3b3b3b3b3b4c3b303b6f4c3b595220454c42414c4c59532049593b43443341,
0x3b3b3b3b3b4e3b3b3b3b3b4c3b303b6f4c3b50595220454c42414c4c59532049593b44443341,
0x3b3b3b3b3b4e3b3b3b3b3b4c3b303b6f4c3b5852595220454c42414c4c59532049593b45443341,
0x3b3b3b3b3b4e3b3b3b3b3b4c3b303b6f4c3b52595220454c42414c4c59532049593b46443341,
0x3b3b3b3b3b4e3b3b3b3b3b4c3b303b6f4c3b54494a20454c42414c4c59532049593b30453341,
0x3b3b3b3b3b4e3b3b3b3b3b4c3b303b6f4c3b58494a20454c42414c4c59532049593b31453341,
0x3b3b3b3b3b4e3b3b3b3b3b4c3b303b6f4c3b494a20454c42414c4c59532049593b32453341,
0x3b3b3b3b3b4e3b3b3b3b3b4c3b303b6f4c3b50494a20454c42414c4c59532049593b33453341,
0x3b3b3b3b3b4e3b3b3b3b3b4c3b303b6f4c3b5445494a20454c42414c4c59532049593b34453341,
0x3b3b3b3b3b4e3b3b3b3b3b4c3b303b6f4c3b5845494a20454c42414c4c59532049593b35453341,
0x3b3b3b3b3b4e3b3b3b3b3b4c3b303b6f4c3b45494a20454c42414c4c59532049593b36453341,
0x3b3b3b3b3b4e3b3b3b3b3b4c3b303b6f4c3b5045494a20454c42414c4c59532049593b37453341,
0x3b3b3b3b3b4e3b3b3b3b3b4c3b303b6f4c3b544f554a20454c42414c4c59532049593b38453341,
0x3b3b3b3b3b4e3b3b3b3b3b4c3b303b6f4c3b584f554a20454c42414c4c59532049593b39453341,
0x3b3b3b3b3b4e3b3b3b3b3b4c3b303b6f4c3b4f554a20454c42414c4c59532049593b41453341,
0x3b3b3b3b3b4e3b3b3b3b3b4c3b303b6f4c3b504f554a20454c42414c4c59532049593b42453341,
0x3b3b3b3b3b4e3b3b3b3b3b4c3b303b6f4c3b544f4a20454c42414c4c59532049593b43453341,
0x3b3b3b3b3b4e3b3b3b3b3b4c3b303b6f4c3b584f4a20454c42414c4c59532049593b44453341,
0x3b3b3b3b3b4e3b3b3b3b3b4c3b303b6f4c3b4f4a20454c42414c4c59532049593b45453341,
0x3b3b3b3b3b4e3b3b3b3b3b4c3b303b6f4c3b504f4a20454c42414c4c59532049593b46453341,
0x3b3b3b3b3b4e3b3b3b3b3b4c3b303b6f4c3b54554a20454c42414c4c59532049593b30463341,
0x3b3b3b3b3b4e3b3b3b3b3b4c3b303b6f4c3b58554a20454c42414c4c59532049593b31463341,
0x3b3b3b3b3b4e3b3b3b3b3b4c3b303b6f4c3b554a20454c42414c4c59532049593b32463341,
0x3b3b3b3b3b4e3b3b3b3b3b4c3b303b6f4c3b50554a20454c42414c4c59532049593b33463341,
0x3b3b3b3b3b4e3b3b3b3b3b4c3b303b6f4c3b5852554a20454c42414c4c59532049593b34463341,
0x3b3b3b3b3b4e3b3b3b3b3b4c3b303b6f4c3b52554a20454c42414c4c59532049593b35463341,
0x3b3b3b3b3b4e3b3b3b3b3b4c3b303b6f4c3b54594a20454c42414c4c59532049593b36463341,
0x3b3b3b3b3b4e3b3b3b3b3b4c3b303b6f4c3b58594a20454c42414c4c59532049593b37463341,
0x3b3b3b3b3b4e3b3b3b3b3b4c3b303b6f4c3b594a20454c42414c4c59532049593b38463341,
0x3b3b3b3b3b4e3b3b3b3b3b4c3b303b6f4c3b50594a20454c42414c4c59532049593b39463341,
0x3b3b3b3b3b4e3b3b3b3b3b4c3b303b6f4c3b5852594a20454c42414c4c59532049593b41463341,
0x3b3b3b3b3b4e3b3b3b3b3b4c3b303b6f4c3b52594a20454c42414c4c59532049593b42463341,
0x3b3b3b3b3b4e3b3b3b3b3b4c3b303b6f4c3b54495120454c42414c4c59532049593b43463341,
0x3b3b3b3b3b4e3b3b3b3b3b4c3b303b6f4c3b58495120454c42414c4c59532049593b44463341,
0x3b3b3b3b3b4e3b3b3b3b3b4c3b303b6f4c3b495120454c42414c4c59532049593b45463341,
0x3b3b3b3b3b4e3b3b3b3b3b4c3b303b6f4c3b50495120454c42414c4c59532049593b46463341,
0x3b3b3b3b3b4e3b3b3b3b3b4c3b303b6f4c3b5445495120454c42414c4c59532049593b30303441,
0x3b3b3b3b3b4e3b3b3b3b3b4c3b303b6f4c3b5845495120454c42414c4c59532049593b31303441,
0x3b3b3b3b3b4e3b3b3b3b3b4c3b303b6f4c3b45495120454c42414c4c59532049593b32303441,
0x3b3b3b3b3b4e3b3b3b3b3b4c3b303b6f4c3b5045495120454c42414c4c59532049593b33303441,
0x3b3b3b3b3b4e3b3b3b3b3b4c3b303b6f4c3b544f555120454c42414c4c59532049593b34303441,
0x3b3b3b3b3b4e3b3b3b3b3b4c3b303b6f4c3b584f555120454c42414c4c59532049593b35303441,
0x3b3b3b3b3b4e3b3b3b3b3b4c3b303b6f4c3b4f555120454c42414c4c59532049593b36303441,
0x3b3b3b3b3b4e3b3b3b3b3b4c3b303b6f4c3b504f555120454c42414c4c59532049593b37303441,
0x3b3b3b3b3b4e3b3b3b3b3b4c3b303b6f4c3b544f5120454c42414c4c59532049593b38303441,
0x3b3b3b3b3b4e3b3b3b3b3b4c3b303b6f4c3b584f5120454c42414c4c59532049593b39303441,
0x3b3b3b3b3b4e3b3b3b3b3b4c3b303b6f4c3b4f5120454c42414c4c59532049593b41303441,
0x3b3b3b3b3b4e3b3b3b3b3b4c3b303b6f4c3b504f5120454c42414c4c59532049593b42303441,
0x3b3b3b3b3b4e3b3b3b3b3b4c3b303b6f4c3b54555120454c42414c4c59532049593b43303441]

/-- src/u5e/props/UnicodeData.txt lines 13057-13312. -/
def rawUcd51 : List Nat := [
0x3b3b3b3b3b4e3b3b3b3b3b4c3b303b6f4c3b58555120454c42414c4c59532049593b44303441,
0x3b3b3b3b3b4e3b3b3b3b3b4c3b303b6f4c3b555120454c42414c4c59532049593b45303441,
0x3b3b3b3b3b4e3b3b3b3b3b4c3b303b6f4c3b50555120454c42414c4c59532049593b46303441,
0x3b3b3b3b3b4e3b3b3b3b3b4c3b303b6f4c3b5852555120454c42414c4c59532049593b30313441,
0x3b3b3b3b3b4e3b3b3b3b3b4c3b303b6f4c3b52555120454c42414c4c59532049593b31313441,
0x3b3b3b3b3b4e3b3b3b3b3b4c3b303b6f4c3b54595120454c42414c4c59532049593b32313441,
0x3b3b3b3b3b4e3b3b3b3b3b4c3b303b6f4c3b58595120454c42414c4c59532049593b33313441,
0x3b3b3b3b3b4e3b3b3b3b3b4c3b303b6f4c3b595120454c42414c4c59532049593b34313441,
0x3b3b3b3b3b4e3b3b3b3b3b4c3b303b6f4c3b50595120454c42414c4c59532049593b35313441,
0x3b3b3b3b3b4e3b3b3b3b3b4c3b303b6f4c3b5852595120454c42414c4c59532049593b36313441,
0x3b3b3b3b3b4e3b3b3b3b3b4c3b303b6f4c3b52595120454c42414c4c59532049593b37313441,
0x3b3b3b3b3b4e3b3b3b3b3b4c3b303b6f4c3b54494a4a20454c42414c4c59532049593b38313441,
0x3b3b3b3b3b4e3b3b3b3b3b4c3b303b6f4c3b58494a4a20454c42414c4c59532049593b39313441,
0x3b3b3b3b3b4e3b3b3b3b3b4c3b303b6f4c3b494a4a20454c42414c4c59532049593b41313441,
0x3b3b3b3b3b4e3b3b3b3b3b4c3b303b6f4c3b50494a4a20454c42414c4c59532049593b42313441,
0x3b3b3b3b3b4e3b3b3b3b3b4c3b303b6f4c3b5445494a4a20454c42414c4c59532049593b43313441,
0x3b3b3b3b3b4e3b3b3b3b3b4c3b303b6f4c3b5845494a4a20454c42414c4c59532049593b44313441,
0x3b3b3b3b3b4e3b3b3b3b3b4c3b303b6f4c3b45494a4a20454c42414c4c59532049593b45313441,
0x3b3b3b3b3b4e3b3b3b3b3b4c3b303b6f4c3b5045494a4a20454c42414c4c59532049593b46313441,
0x3b3b3b3b3b4e3b3b3b3b3b4c3b303b6f4c3b584f554a4a20454c42414c4c59532049593b30323441,
0x3b3b3b3b3b4e3b3b3b3b3b4c3b303b6f4c3b4f554a4a20454c42414c4c59532049593b31323441,
0x3b3b3b3b3b4e3b3b3b3b3b4c3b303b6f4c3b504f554a4a20454c42414c4c59532049593b32323441,
0x3b3b3b3b3b4e3b3b3b3b3b4c3b303b6f4c3b544f4a4a20454c42414c4c59532049593b33323441,
0x3b3b3b3b3b4e3b3b3b3b3b4c3b303b6f4c3b584f4a4a20454c42414c4c59532049593b34323441,
0x3b3b3b3b3b4e3b3b3b3b3b4c3b303b6f4c3b4f4a4a20454c42414c4c59532049593b35323441,
0x3b3b3b3b3b4e3b3b3b3b3b4c3b303b6f4c3b504f4a4a20454c42414c4c59532049593b36323441,
0x3b3b3b3b3b4e3b3b3b3b3b4c3b303b6f4c3b54554a4a20454c42414c4c59532049593b37323441,
0x3b3b3b3b3b4e3b3b3b3b3b4c3b303b6f4c3b58554a4a20454c42414c4c59532049593b38323441,
0x3b3b3b3b3b4e3b3b3b3b3b4c3b303b6f4c3b554a4a20454c42414c4c59532049593b39323441,
0x3b3b3b3b3b4e3b3b3b3b3b4c3b303b6f4c3b50554a4a20454c42414c4c59532049593b41323441,
0x3b3b3b3b3b4e3b3b3b3b3b4c3b303b6f4c3b5852554a4a20454c42414c4c59532049593b42323441,
0x3b3b3b3b3b4e3b3b3b3b3b4c3b303b6f4c3b52554a4a20454c42414c4c59532049593b43323441,
0x3b3b3b3b3b4e3b3b3b3b3b4c3b303b6f4c3b54594a4a20454c42414c4c59532049593b44323441,
0x3b3b3b3b3b4e3b3b3b3b3b4c3b303b6f4c3b58594a4a20454c42414c4c59532049593b45323441,
0x3b3b3b3b3b4e3b3b3b3b3b4c3b303b6f4c3b594a4a20454c42414c4c59532049593b46323441,
0x3b3b3b3b3b4e3b3b3b3b3b4c3b303b6f4c3b50594a4a20454c42414c4c59532049593b30333441,
0x3b3b3b3b3b4e3b3b3b3b3b4c3b303b6f4c3b54494a4e20454c42414c4c59532049593b31333441,
0x3b3b3b3b3b4e3b3b3b3b3b4c3b303b6f4c3b58494a4e20454c42414c4c59532049593b32333441,
0x3b3b3b3b3b4e3b3b3b3b3b4c3b303b6f4c3b494a4e20454c42414c4c59532049593b33333441,
0x3b3b3b3b3b4e3b3b3b3b3b4c3b303b6f4c3b50494a4e20454c42414c4c59532049593b34333441,
0x3b3b3b3b3b4e3b3b3b3b3b4c3b303b6f4c3b5445494a4e20454c42414c4c59532049593b35333441,
0x3b3b3b3b3b4e3b3b3b3b3b4c3b303b6f4c3b5845494a4e20454c42414c4c59532049593b36333441,
0x3b3b3b3b3b4e3b3b3b3b3b4c3b303b6f4c3b45494a4e20454c42414c4c59532049593b37333441,
0x3b3b3b3b3b4e3b3b3b3b3b4c3b303b6f4c3b5045494a4e20454c42414c4c59532049593b38333441,
0x3b3b3b3b3b4e3b3b3b3b3b4c3b303b6f4c3b584f554a4e20454c42414c4c59532049593b39333441,
0x3b3b3b3b3b4e3b3b3b3b3b4c3b303b6f4c3b4f554a4e20454c42414c4c59532049593b41333441,
0x3b3b3b3b3b4e3b3b3b3b3b4c3b303b6f4c3b544f4a4e20454c42414c4c59532049593b42333441,
0x3b3b3b3b3b4e3b3b3b3b3b4c3b303b6f4c3b584f4a4e20454c42414c4c59532049593b43333441,
0x3b3b3b3b3b4e3b3b3b3b3b4c3b303b6f4c3b4f4a4e20454c42414c4c59532049593b44333441,
0x3b3b3b3b3b4e3b3b3b3b3b4c3b303b6f4c3b504f4a4e20454c42414c4c59532049593b45333441,
0x3b3b3b3b3b4e3b3b3b3b3b4c3b303b6f4c3b58554a4e20454c42414c4c59532049593b46333441,
0x3b3b3b3b3b4e3b3b3b3b3b4c3b303b6f4c3b554a4e20454c42414c4c59532049593b30343441,
0x3b3b3b3b3b4e3b3b3b3b3b4c3b303b6f4c3b50554a4e20454c42414c4c59532049593b31343441,
0x3b3b3b3b3b4e3b3b3b3b3b4c3b303b6f4c3b5852554a4e20454c42414c4c59532049593b32343441,
0x3b3b3b3b3b4e3b3b3b3b3b4c3b303b6f4c3b52554a4e20454c42414c4c59532049593b33343441,
0x3b3b3b3b3b4e3b3b3b3b3b4c3b303b6f4c3b54594a4e20454c42414c4c59532049593b34343441,
0x3b3b3b3b3b4e3b3b3b3b3b4c3b303b6f4c3b58594a4e20454c42414c4c59532049593b35343441,
0x3b3b3b3b3b4e3b3b3b3b3b4c3b303b6f4c3b594a4e20454c42414c4c59532049593b36343441,
0x3b3b3b3b3b4e3b3b3b3b3b4c3b303b6f4c3b50594a4e20454c42414c4c59532049593b37343441,
0x3b3b3b3b3b4e3b3b3b3b3b4c3b303b6f4c3b5852594a4e20454c42414c4c59532049593b38343441,
0x3b3b3b3b3b4e3b3b3b3b3b4c3b303b6f4c3b52594a4e20454c42414c4c59532049593b39343441,
0x3b3b3b3b3b4e3b3b3b3b3b4c3b303b6f4c3b5449594e20454c42414c4c59532049593b41343441,
0x3b3b3b3b3b4e3b3b3b3b3b4c3b303b6f4c3b5849594e20454c42414c4c59532049593b42343441,
0x3b3b3b3b3b4e3b3b3b3b3b4c3b303b6f4c3b49594e20454c42414c4c59532049593b43343441,
0x3b3b3b3b3b4e3b3b3b3b3b4c3b303b6f4c3b5049594e20454c42414c4c59532049593b44343441,
0x3b3b3b3b3b4e3b3b3b3b3b4c3b303b6f4c3b544549594e20454c42414c4c59532049593b45343441,
0x3b3b3b3b3b4e3b3b3b3b3b4c3b303b6f4c3b584549594e20454c42414c4c59532049593b46343441,
0x3b3b3b3b3b4e3b3b3b3b3b4c3b303b6f4c3b4549594e20454c42414c4c59532049593b30353441,
0x3b3b3b3b3b4e3b3b3b3b3b4c3b303b6f4c3b504549594e20454c42414c4c59532049593b31353441,
0x3b3b3b3b3b4e3b3b3b3b3b4c3b303b6f4c3b584f55594e20454c42414c4c59532049593b32353441,
0x3b3b3b3b3b4e3b3b3b3b3b4c3b303b6f4c3b4f55594e20454c42414c4c59532049593b33353441,
0x3b3b3b3b3b4e3b3b3b3b3b4c3b303b6f4c3b504f55594e20454c42414c4c59532049593b34353441,
0x3b3b3b3b3b4e3b3b3b3b3b4c3b303b6f4c3b544f594e20454c42414c4c59532049593b35353441,
0x3b3b3b3b3b4e3b3b3b3b3b4c3b303b6f4c3b584f594e20454c42414c4c59532049593b36353441,
0x3b3b3b3b3b4e3b3b3b3b3b4c3b303b6f4c3b4f594e20454c42414c4c59532049593b37353441,
0x3b3b3b3b3b4e3b3b3b3b3b4c3b303b6f4c3b504f594e20454c42414c4c59532049593b38353441,
0x3b3b3b3b3b4e3b3b3b3b3b4c3b303b6f4c3b5455594e20454c42414c4c59532049593b39353441,
0x3b3b3b3b3b4e3b3b3b3b3b4c3b303b6f4c3b5855594e20454c42414c4c59532049593b41353441,
0x3b3b3b3b3b4e3b3b3b3b3b4c3b303b6f4c3b55594e20454c42414c4c59532049593b42353441,
0x3b3b3b3b3b4e3b3b3b3b3b4c3b303b6f4c3b5055594e20454c42414c4c59532049593b43353441,
0x3b3b3b3b3b4e3b3b3b3b3b4c3b303b6f4c3b54495820454c42414c4c59532049593b44353441,
0x3b3b3b3b3b4e3b3b3b3b3b4c3b303b6f4c3b58495820454c42414c4c59532049593b45353441,
0x3b3b3b3b3b4e3b3b3b3b3b4c3b303b6f4c3b495820454c42414c4c59532049593b46353441,
0x3b3b3b3b3b4e3b3b3b3b3b4c3b303b6f4c3b50495820454c42414c4c59532049593b30363441,
0x3b3b3b3b3b4e3b3b3b3b3b4c3b303b6f4c3b5445495820454c42414c4c59532049593b31363441,
0x3b3b3b3b3b4e3b3b3b3b3b4c3b303b6f4c3b5845495820454c42414c4c59532049593b32363441,
0x3b3b3b3b3b4e3b3b3b3b3b4c3b303b6f4c3b45495820454c42414c4c59532049593b33363441,
0x3b3b3b3b3b4e3b3b3b3b3b4c3b303b6f4c3b5045495820454c42414c4c59532049593b34363441,
0x3b3b3b3b3b4e3b3b3b3b3b4c3b303b6f4c3b584f555820454c42414c4c59532049593b35363441,
0x3b3b3b3b3b4e3b3b3b3b3b4c3b303b6f4c3b4f555820454c42414c4c59532049593b36363441,
0x3b3b3b3b3b4e3b3b3b3b3b4c3b303b6f4c3b544f5820454c42414c4c59532049593b37363441,
0x3b3b3b3b3b4e3b3b3b3b3b4c3b303b6f4c3b584f5820454c42414c4c59532049593b38363441,
0x3b3b3b3b3b4e3b3b3b3b3b4c3b303b6f4c3b4f5820454c42414c4c59532049593b39363441,
0x3b3b3b3b3b4e3b3b3b3b3b4c3b303b6f4c3b504f5820454c42414c4c59532049593b41363441,
0x3b3b3b3b3b4e3b3b3b3b3b4c3b303b6f4c3b54595820454c42414c4c59532049593b42363441,
0x3b3b3b3b3b4e3b3b3b3b3b4c3b303b6f4c3b58595820454c42414c4c59532049593b43363441,
0x3b3b3b3b3b4e3b3b3b3b3b4c3b303b6f4c3b595820454c42414c4c59532049593b44363441,
0x3b3b3b3b3b4e3b3b3b3b3b4c3b303b6f4c3b50595820454c42414c4c59532049593b45363441,
0x3b3b3b3b3b4e3b3b3b3b3b4c3b303b6f4c3b5852595820454c42414c4c59532049593b46363441,
0x3b3b3b3b3b4e3b3b3b3b3b4c3b303b6f4c3b52595820454c42414c4c59532049593b30373441,
0x3b3b3b3b3b4e3b3b3b3b3b4c3b303b6f4c3b54495920454c42414c4c59532049593b31373441,
0x3b3b3b3b3b4e3b3b3b3b3b4c3b303b6f4c3b58495920454c42414c4c59532049593b32373441,
0x3b3b3b3b3b4e3b3b3b3b3b4c3b303b6f4c3b495920454c42414c4c59532049593b33373441,
0x3b3b3b3b3b4e3b3b3b3b3b4c3b303b6f4c3b50495920454c42414c4c59532049593b34373441,
0x3b3b3b3b3b4e3b3b3b3b3b4c3b303b6f4c3b5445495920454c42414c4c59532049593b35373441,
0x3b3b3b3b3b4e3b3b3b3b3b4c3b303b6f4c3b5845495920454c42414c4c59532049593b36373441,
0x3b3b3b3b3b4e3b3b3b3b3b4c3b303b6f4c3b45495920454c42414c4c59532049593b37373441,
0x3b3b3b3b3b4e3b3b3b3b3b4c3b303b6f4c3b5045495920454c42414c4c59532049593b38373441,
0x3b3b3b3b3b4e3b3b3b3b3b4c3b303b6f4c3b544f555920454c42414c4c59532049593b39373441,
0x3b3b3b3b3b4e3b3b3b3b3b4c3b303b6f4c3b584f555920454c42414c4c59532049593b41373441,
0x3b3b3b3b3b4e3b3b3b3b3b4c3b303b6f4c3b4f555920454c42414c4c59532049593b42373441,
0x3b3b3b3b3b4e3b3b3b3b3b4c3b303b6f4c3b504f555920454c42414c4c59532049593b43373441,
0x3b3b3b3b3b4e3b3b3b3b3b4c3b303b6f4c3b544f5920454c42414c4c59532049593b44373441,
0x3b3b3b3b3b4e3b3b3b3b3b4c3b303b6f4c3b584f5920454c42414c4c59532049593b45373441,
0x3b3b3b3b3b4e3b3b3b3b3b4c3b303b6f4c3b4f5920454c42414c4c59532049593b46373441,
0x3b3b3b3b3b4e3b3b3b3b3b4c3b303b6f4c3b504f5920454c42414c4c59532049593b30383441,
0x3b3b3b3b3b4e3b3b3b3b3b4c3b303b6f4c3b54555920454c42414c4c59532049593b31383441,
0x3b3b3b3b3b4e3b3b3b3b3b4c3b303b6f4c3b58555920454c42414c4c59532049593b32383441,
0x3b3b3b3b3b4e3b3b3b3b3b4c3b303b6f4c3b555920454c42414c4c59532049593b33383441,
0x3b3b3b3b3b4e3b3b3b3b3b4c3b303b6f4c3b50555920454c42414c4c59532049593b34383441,
0x3b3b3b3b3b4e3b3b3b3b3b4c3b303b6f4c3b5852555920454c42414c4c59532049593b35383441,
0x3b3b3b3b3b4e3b3b3b3b3b4c3b303b6f4c3b52555920454c42414c4c59532049593b36383441,
0x3b3b3b3b3b4e3b3b3b3b3b4c3b303b6f4c3b54595920454c42414c4c59532049593b37383441,
0x3b3b3b3b3b4e3b3b3b3b3b4c3b303b6f4c3b58595920454c42414c4c59532049593b38383441,
0x3b3b3b3b3b4e3b3b3b3b3b4c3b303b6f4c3b595920454c42414c4c59532049593b39383441,
0x3b3b3b3b3b4e3b3b3b3b3b4c3b303b6f4c3b50595920454c42414c4c59532049593b41383441,
0x3b3b3b3b3b4e3b3b3b3b3b4c3b303b6f4c3b5852595920454c42414c4c59532049593b42383441,
0x3b3b3b3b3b4e3b3b3b3b3b4c3b303b6f4c3b52595920454c42414c4c59532049593b43383441,
0x3b3b3b3b3b4e3b3b3b3b3b4e4f3b303b6f533b544f51204c4143494441522049593b30393441,
0x3b3b3b3b3b4e3b3b3b3b3b4e4f3b303b6f533b494c204c4143494441522049593b31393441,
0x3b3b3b3b3b4e3b3b3b3b3b4e4f3b303b6f533b54494b204c4143494441522049593b32393441,
0x3b3b3b3b3b4e3b3b3b3b3b4e4f3b303b6f533b5049594e204c4143494441522049593b33393441,
0x3b3b3b3b3b4e3b3b3b3b3b4e4f3b303b6f533b505943204c4143494441522049593b34393441,
0x3b3b3b3b3b4e3b3b3b3b3b4e4f3b303b6f533b495353204c4143494441522049593b35393441,
0x3b3b3b3b3b4e3b3b3b3b3b4e4f3b303b6f533b504f4747204c4143494441522049593b36393441,
0x3b3b3b3b3b4e3b3b3b3b3b4e4f3b303b6f533b504547204c4143494441522049593b37393441,
0x3b3b3b3b3b4e3b3b3b3b3b4e4f3b303b6f533b494d204c4143494441522049593b38393441,
0x3b3b3b3b3b4e3b3b3b3b3b4e4f3b303b6f533b54495848204c4143494441522049593b39393441,
0x3b3b3b3b3b4e3b3b3b3b3b4e4f3b303b6f533b52594c204c4143494441522049593b41393441,
0x3b3b3b3b3b4e3b3b3b3b3b4e4f3b303b6f533b54554242204c4143494441522049593b42393441,
0x3b3b3b3b3b4e3b3b3b3b3b4e4f3b303b6f533b504f4d204c4143494441522049593b43393441,
0x3b3b3b3b3b4e3b3b3b3b3b4e4f3b303b6f533b4f59204c4143494441522049593b44393441,
0x3b3b3b3b3b4e3b3b3b3b3b4e4f3b303b6f533b545550204c4143494441522049593b45393441,
0x3b3b3b3b3b4e3b3b3b3b3b4e4f3b303b6f533b4f555848204c4143494441522049593b46393441,
0x3b3b3b3b3b4e3b3b3b3b3b4e4f3b303b6f533b544154204c4143494441522049593b30413441,
0x3b3b3b3b3b4e3b3b3b3b3b4e4f3b303b6f533b4147204c4143494441522049593b31413441,
0x3b3b3b3b3b4e3b3b3b3b3b4e4f3b303b6f533b50555a204c4143494441522049593b32413441,
0x3b3b3b3b3b4e3b3b3b3b3b4e4f3b303b6f533b545943204c4143494441522049593b33413441,
0x3b3b3b3b3b4e3b3b3b3b3b4e4f3b303b6f533b52554444204c4143494441522049593b34413441,
0x3b3b3b3b3b4e3b3b3b3b3b4e4f3b303b6f533b525542204c4143494441522049593b35413441,
0x3b3b3b3b3b4e3b3b3b3b3b4e4f3b303b6f533b4f554747204c4143494441522049593b36413441,
0x3b3b3b3b3b4e3b3b3b3b3b4e4f3b303b6f533b504f594e204c4143494441522049593b37413441,
0x3b3b3b3b3b4e3b3b3b3b3b4e4f3b303b6f533b5554204c4143494441522049593b38413441,
0x3b3b3b3b3b4e3b3b3b3b3b4e4f3b303b6f533b504f204c4143494441522049593b39413441,
0x3b3b3b3b3b4e3b3b3b3b3b4e4f3b303b6f533b54554a4a204c4143494441522049593b41413441,
0x3b3b3b3b3b4e3b3b3b3b3b4e4f3b303b6f533b544f5a204c4143494441522049593b42413441,
0x3b3b3b3b3b4e3b3b3b3b3b4e4f3b303b6f533b545950204c4143494441522049593b43413441,
0x3b3b3b3b3b4e3b3b3b3b3b4e4f3b303b6f533b4f4d48204c4143494441522049593b44413441,
0x3b3b3b3b3b4e3b3b3b3b3b4e4f3b303b6f533b544959204c4143494441522049593b45413441,
0x3b3b3b3b3b4e3b3b3b3b3b4e4f3b303b6f533b525556204c4143494441522049593b46413441,
0x3b3b3b3b3b4e3b3b3b3b3b4e4f3b303b6f533b594853204c4143494441522049593b30423441,
0x3b3b3b3b3b4e3b3b3b3b3b4e4f3b303b6f533b504556204c4143494441522049593b31423441,
0x3b3b3b3b3b4e3b3b3b3b3b4e4f3b303b6f533b415a204c4143494441522049593b32423441,
0x3b3b3b3b3b4e3b3b3b3b3b4e4f3b303b6f533b4f4a204c4143494441522049593b33423441,
0x3b3b3b3b3b4e3b3b3b3b3b4e4f3b303b6f533b50555a4e204c4143494441522049593b34423441,
0x3b3b3b3b3b4e3b3b3b3b3b4e4f3b303b6f533b594a4a204c4143494441522049593b35423441,
0x3b3b3b3b3b4e3b3b3b3b3b4e4f3b303b6f533b544f47204c4143494441522049593b36423441,
0x3b3b3b3b3b4e3b3b3b3b3b4e4f3b303b6f533b45494a4a204c4143494441522049593b37423441,
0x3b3b3b3b3b4e3b3b3b3b3b4e4f3b303b6f533b4f57204c4143494441522049593b38423441,
0x3b3b3b3b3b4e3b3b3b3b3b4e4f3b303b6f533b5544204c4143494441522049593b39423441,
0x3b3b3b3b3b4e3b3b3b3b3b4e4f3b303b6f533b52554853204c4143494441522049593b41423441,
0x3b3b3b3b3b4e3b3b3b3b3b4e4f3b303b6f533b45494c204c4143494441522049593b42423441,
0x3b3b3b3b3b4e3b3b3b3b3b4e4f3b303b6f533b5943204c4143494441522049593b43423441,
0x3b3b3b3b3b4e3b3b3b3b3b4e4f3b303b6f533b504f5543204c4143494441522049593b44423441,
0x3b3b3b3b3b4e3b3b3b3b3b4e4f3b303b6f533b504943204c4143494441522049593b45423441,
0x3b3b3b3b3b4e3b3b3b3b3b4e4f3b303b6f533b504f5848204c4143494441522049593b46423441,
0x3b3b3b3b3b4e3b3b3b3b3b4e4f3b303b6f533b54414853204c4143494441522049593b30433441,
0x3b3b3b3b3b4e3b3b3b3b3b4e4f3b303b6f533b52555a204c4143494441522049593b31433441,
0x3b3b3b3b3b4e3b3b3b3b3b4e4f3b303b6f533b504f4853204c4143494441522049593b32433441,
0x3b3b3b3b3b4e3b3b3b3b3b4e4f3b303b6f533b454843204c4143494441522049593b33433441,
0x3b3b3b3b3b4e3b3b3b3b3b4e4f3b303b6f533b5445495a5a204c4143494441522049593b34433441,
0x3b3b3b3b3b4e3b3b3b3b3b4e4f3b303b6f533b4549424e204c4143494441522049593b35433441,
0x3b3b3b3b3b4e3b3b3b3b3b4e4f3b303b6f533b454b204c4143494441522049593b36433441,
0x3b3b3b3b3b4e3b3b3b3b3b4c3b303b6f4c3b41422052455454454c205553494c3b30443441,
0x3b3b3b3b3b4e3b3b3b3b3b4c3b303b6f4c3b41502052455454454c205553494c3b31443441,
0x3b3b3b3b3b4e3b3b3b3b3b4c3b303b6f4c3b4148502052455454454c205553494c3b32443441,
0x3b3b3b3b3b4e3b3b3b3b3b4c3b303b6f4c3b41442052455454454c205553494c3b33443441,
0x3b3b3b3b3b4e3b3b3b3b3b4c3b303b6f4c3b41542052455454454c205553494c3b34443441,
0x3b3b3b3b3b4e3b3b3b3b3b4c3b303b6f4c3b4148542052455454454c205553494c3b35443441,
0x3b3b3b3b3b4e3b3b3b3b3b4c3b303b6f4c3b41472052455454454c205553494c3b36443441,
0x3b3b3b3b3b4e3b3b3b3b3b4c3b303b6f4c3b414b2052455454454c205553494c3b37443441,
0x3b3b3b3b3b4e3b3b3b3b3b4c3b303b6f4c3b41484b2052455454454c205553494c3b38443441,
0x3b3b3b3b3b4e3b3b3b3b3b4c3b303b6f4c3b414a2052455454454c205553494c3b39443441,
0x3b3b3b3b3b4e3b3b3b3b3b4c3b303b6f4c3b41432052455454454c205553494c3b41443441,
0x3b3b3b3b3b4e3b3b3b3b3b4c3b303b6f4c3b4148432052455454454c205553494c3b42443441,
0x3b3b3b3b3b4e3b3b3b3b3b4c3b303b6f4c3b415a442052455454454c205553494c3b43443441,
0x3b3b3b3b3b4e3b3b3b3b3b4c3b303b6f4c3b4153542052455454454c205553494c3b44443441,
0x3b3b3b3b3b4e3b3b3b3b3b4c3b303b6f4c3b414853542052455454454c205553494c3b45443441,
0x3b3b3b3b3b4e3b3b3b3b3b4c3b303b6f4c3b414d2052455454454c205553494c3b46443441,
0x3b3b3b3b3b4e3b3b3b3b3b4c3b303b6f4c3b414e2052455454454c205553494c3b30453441,
0x3b3b3b3b3b4e3b3b3b3b3b4c3b303b6f4c3b414c2052455454454c205553494c3b31453441,
0x3b3b3b3b3b4e3b3b3b3b3b4c3b303b6f4c3b41532052455454454c205553494c3b32453441,
0x3b3b3b3b3b4e3b3b3b3b3b4c3b303b6f4c3b41485a2052455454454c205553494c3b33453441,
0x3b3b3b3b3b4e3b3b3b3b3b4c3b303b6f4c3b415a2052455454454c205553494c3b34453441,
0x3b3b3b3b3b4e3b3b3b3b3b4c3b303b6f4c3b41474e2052455454454c205553494c3b35453441,
0x3b3b3b3b3b4e3b3b3b3b3b4c3b303b6f4c3b41482052455454454c205553494c3b36453441,
0x3b3b3b3b3b4e3b3b3b3b3b4c3b303b6f4c3b41582052455454454c205553494c3b37453441,
0x3b3b3b3b3b4e3b3b3b3b3b4c3b303b6f4c3b4148482052455454454c205553494c3b38453441,
0x3b3b3b3b3b4e3b3b3b3b3b4c3b303b6f4c3b41462052455454454c205553494c3b39453441,
0x3b3b3b3b3b4e3b3b3b3b3b4c3b303b6f4c3b41572052455454454c205553494c3b41453441,
0x3b3b3b3b3b4e3b3b3b3b3b4c3b303b6f4c3b4148532052455454454c205553494c3b42453441,
0x3b3b3b3b3b4e3b3b3b3b3b4c3b303b6f4c3b41592052455454454c205553494c3b43453441,
0x3b3b3b3b3b4e3b3b3b3b3b4c3b303b6f4c3b4148472052455454454c205553494c3b44453441,
0x3b3b3b3b3b4e3b3b3b3b3b4c3b303b6f4c3b412052455454454c205553494c3b45453441,
0x3b3b3b3b3b4e3b3b3b3b3b4c3b303b6f4c3b45412052455454454c205553494c3b46453441,
0x3b3b3b3b3b4e3b3b3b3b3b4c3b303b6f4c3b452052455454454c205553494c3b30463441,
0x3b3b3b3b3b4e3b3b3b3b3b4c3b303b6f4c3b55452052455454454c205553494c3b31463441,
0x3b3b3b3b3b4e3b3b3b3b3b4c3b303b6f4c3b492052455454454c205553494c3b32463441,
0x3b3b3b3b3b4e3b3b3b3b3b4c3b303b6f4c3b4f2052455454454c205553494c3b33463441,
0x3b3b3b3b3b4e3b3b3b3b3b4c3b303b6f4c3b552052455454454c205553494c3b34463441,
0x3b3b3b3b3b4e3b3b3b3b3b4c3b303b6f4c3b45552052455454454c205553494c3b35463441,
0x3b3b3b3b3b4e3b3b3b3b3b4c3b303b6f4c3b48552052455454454c205553494c3b36463441,
0x3b3b3b3b3b4e3b3b3b3b3b4c3b303b6f4c3b454f2052455454454c205553494c3b37463441,
0x3b3b3b3b3b4e3b3b3b3b3b4c3b303b6d4c3b49542041594d20454e4f542052455454454c205553494c3b38463441,
0x3b3b3b3b3b4e3b3b3b3b3b4c3b303b6d4c3b4f5020414e20454e4f542052455454454c205553494c3b39463441,
0x3b3b3b3b3b4e3b3b3b3b3b4c3b303b6d4c3b4159432041594d20454e4f542052455454454c205553494c3b41463441,
0x3b3b3b3b3b4e3b3b3b3b3b4c3b303b6d4c3b4f422041594d20454e4f542052455454454c205553494c3b42463441,
0x3b3b3b3b3b4e3b3b3b3b3b4c3b303b6d4c3b414e2041594d20454e4f542052455454454c205553494c3b43463441,
0x3b3b3b3b3b4e3b3b3b3b3b4c3b303b6d4c3b55454a2041594d20454e4f542052455454454c205553494c3b44463441,
0x3b3b3b3b3b4e3b3b3b3b3b4c3b303b6f503b414d4d4f43204e4f4954415554434e5550205553494c3b45463441,
0x3b3b3b3b3b4e3b3b3b3b3b4c3b303b6f503b504f5453204c4c5546204e4f4954415554434e5550205553494c3b46463441,
0x3b3b3b3b3b4e3b3b3b3b3b4c3b303b6f4c3b454520454c42414c4c5953204941563b30303541,
0x3b3b3b3b3b4e3b3b3b3b3b4c3b303b6f4c3b4e454520454c42414c4c5953204941563b31303541,
0x3b3b3b3b3b4e3b3b3b3b3b4c3b303b6f4c3b45454820454c42414c4c5953204941563b32303541,
0x3b3b3b3b3b4e3b3b3b3b3b4c3b303b6f4c3b45455720454c42414c4c5953204941563b33303541,
0x3b3b3b3b3b4e3b3b3b3b3b4c3b303b6f4c3b4e45455720454c42414c4c5953204941563b34303541,
0x3b3b3b3b3b4e3b3b3b3b3b4c3b303b6f4c3b45455020454c42414c4c5953204941563b35303541,
0x3b3b3b3b3b4e3b3b3b3b3b4c3b303b6f4c3b4545484220454c42414c4c5953204941563b36303541,
0x3b3b3b3b3b4e3b3b3b3b3b4c3b303b6f4c3b45454220454c42414c4c5953204941563b37303541,
0x3b3b3b3b3b4e3b3b3b3b3b4c3b303b6f4c3b4545424d20454c42414c4c5953204941563b38303541,
0x3b3b3b3b3b4e3b3b3b3b3b4c3b303b6f4c3b4545504b20454c42414c4c5953204941563b39303541,
0x3b3b3b3b3b4e3b3b3b3b3b4c3b303b6f4c3b454542474d20454c42414c4c5953204941563b41303541,
0x3b3b3b3b3b4e3b3b3b3b3b4c3b303b6f4c3b4545424720454c42414c4c5953204941563b42303541,
0x3b3b3b3b3b4e3b3b3b3b3b4c3b303b6f4c3b45454620454c42414c4c5953204941563b43303541,
0x3b3b3b3b3b4e3b3b3b3b3b4c3b303b6f4c3b45455620454c42414c4c5953204941563b44303541,
0x3b3b3b3b3b4e3b3b3b3b3b4c3b303b6f4c3b45455420454c42414c4c5953204941563b45303541,
0x3b3b3b3b3b4e3b3b3b3b3b4c3b303b6f4c3b4545485420454c42414c4c5953204941563b46303541,
0x3b3b3b3b3b4e3b3b3b3b3b4c3b303b6f4c3b4545484420454c42414c4c5953204941563b30313541,
0x3b3b3b3b3b4e3b3b3b3b3b4c3b303b6f4c3b454548484420454c42414c4c5953204941563b31313541,
0x3b3b3b3b3b4e3b3b3b3b3b4c3b303b6f4c3b45454c20454c42414c4c5953204941563b32313541,
0x3b3b3b3b3b4e3b3b3b3b3b4c3b303b6f4c3b45455220454c42414c4c5953204941563b33313541,
0x3b3b3b3b3b4e3b3b3b3b3b4c3b303b6f4c3b45454420454c42414c4c5953204941563b34313541,
0x3b3b3b3b3b4e3b3b3b3b3b4c3b303b6f4c3b4545444e20454c42414c4c5953204941563b35313541,
0x3b3b3b3b3b4e3b3b3b3b3b4c3b303b6f4c3b45455320454c42414c4c5953204941563b36313541,
0x3b3b3b3b3b4e3b3b3b3b3b4c3b303b6f4c3b4545485320454c42414c4c5953204941563b37313541,
0x3b3b3b3b3b4e3b3b3b3b3b4c3b303b6f4c3b45455a20454c42414c4c5953204941563b38313541]

/-- src/u5e/props/UnicodeData.txt lines 13313-13568. -/
def rawUcd52 : List Nat := [
0x3b3b3b3b3b4e3b3b3b3b3b4c3b303b6f4c3b4545485a20454c42414c4c5953204941563b39313541,
0x3b3b3b3b3b4e3b3b3b3b3b4c3b303b6f4c3b45454320454c42414c4c5953204941563b41313541,
0x3b3b3b3b3b4e3b3b3b3b3b4c3b303b6f4c3b45454a20454c42414c4c5953204941563b42313541,
0x3b3b3b3b3b4e3b3b3b3b3b4c3b303b6f4c3b45454a4e20454c42414c4c5953204941563b43313541,
0x3b3b3b3b3b4e3b3b3b3b3b4c3b303b6f4c3b45455920454c42414c4c5953204941563b44313541,
0x3b3b3b3b3b4e3b3b3b3b3b4c3b303b6f4c3b45454b20454c42414c4c5953204941563b45313541,
0x3b3b3b3b3b4e3b3b3b3b3b4c3b303b6f4c3b454547474e20454c42414c4c5953204941563b46313541,
0x3b3b3b3b3b4e3b3b3b3b3b4c3b303b6f4c3b45454720454c42414c4c5953204941563b30323541,
0x3b3b3b3b3b4e3b3b3b3b3b4c3b303b6f4c3b45454d20454c42414c4c5953204941563b31323541,
0x3b3b3b3b3b4e3b3b3b3b3b4c3b303b6f4c3b45454e20454c42414c4c5953204941563b32323541,
0x3b3b3b3b3b4e3b3b3b3b3b4c3b303b6f4c3b4545594e20454c42414c4c5953204941563b33323541,
0x3b3b3b3b3b4e3b3b3b3b3b4c3b303b6f4c3b4920454c42414c4c5953204941563b34323541,
0x3b3b3b3b3b4e3b3b3b3b3b4c3b303b6f4c3b4e4920454c42414c4c5953204941563b35323541,
0x3b3b3b3b3b4e3b3b3b3b3b4c3b303b6f4c3b494820454c42414c4c5953204941563b36323541,
0x3b3b3b3b3b4e3b3b3b3b3b4c3b303b6f4c3b4e494820454c42414c4c5953204941563b37323541,
0x3b3b3b3b3b4e3b3b3b3b3b4c3b303b6f4c3b495720454c42414c4c5953204941563b38323541,
0x3b3b3b3b3b4e3b3b3b3b3b4c3b303b6f4c3b4e495720454c42414c4c5953204941563b39323541,
0x3b3b3b3b3b4e3b3b3b3b3b4c3b303b6f4c3b495020454c42414c4c5953204941563b41323541,
0x3b3b3b3b3b4e3b3b3b3b3b4c3b303b6f4c3b49484220454c42414c4c5953204941563b42323541,
0x3b3b3b3b3b4e3b3b3b3b3b4c3b303b6f4c3b494220454c42414c4c5953204941563b43323541,
0x3b3b3b3b3b4e3b3b3b3b3b4c3b303b6f4c3b49424d20454c42414c4c5953204941563b44323541,
0x3b3b3b3b3b4e3b3b3b3b3b4c3b303b6f4c3b49504b20454c42414c4c5953204941563b45323541,
0x3b3b3b3b3b4e3b3b3b3b3b4c3b303b6f4c3b4942474d20454c42414c4c5953204941563b46323541,
0x3b3b3b3b3b4e3b3b3b3b3b4c3b303b6f4c3b49424720454c42414c4c5953204941563b30333541,
0x3b3b3b3b3b4e3b3b3b3b3b4c3b303b6f4c3b494620454c42414c4c5953204941563b31333541,
0x3b3b3b3b3b4e3b3b3b3b3b4c3b303b6f4c3b495620454c42414c4c5953204941563b32333541,
0x3b3b3b3b3b4e3b3b3b3b3b4c3b303b6f4c3b495420454c42414c4c5953204941563b33333541,
0x3b3b3b3b3b4e3b3b3b3b3b4c3b303b6f4c3b49485420454c42414c4c5953204941563b34333541,
0x3b3b3b3b3b4e3b3b3b3b3b4c3b303b6f4c3b49484420454c42414c4c5953204941563b35333541,
0x3b3b3b3b3b4e3b3b3b3b3b4c3b303b6f4c3b4948484420454c42414c4c5953204941563b36333541,
0x3b3b3b3b3b4e3b3b3b3b3b4c3b303b6f4c3b494c20454c42414c4c5953204941563b37333541,
0x3b3b3b3b3b4e3b3b3b3b3b4c3b303b6f4c3b495220454c42414c4c5953204941563b38333541,
0x3b3b3b3b3b4e3b3b3b3b3b4c3b303b6f4c3b494420454c42414c4c5953204941563b39333541,
0x3b3b3b3b3b4e3b3b3b3b3b4c3b303b6f4c3b49444e20454c42414c4c5953204941563b41333541,
0x3b3b3b3b3b4e3b3b3b3b3b4c3b303b6f4c3b495320454c42414c4c5953204941563b42333541,
0x3b3b3b3b3b4e3b3b3b3b3b4c3b303b6f4c3b49485320454c42414c4c5953204941563b43333541,
0x3b3b3b3b3b4e3b3b3b3b3b4c3b303b6f4c3b495a20454c42414c4c5953204941563b44333541,
0x3b3b3b3b3b4e3b3b3b3b3b4c3b303b6f4c3b49485a20454c42414c4c5953204941563b45333541,
0x3b3b3b3b3b4e3b3b3b3b3b4c3b303b6f4c3b494320454c42414c4c5953204941563b46333541,
0x3b3b3b3b3b4e3b3b3b3b3b4c3b303b6f4c3b494a20454c42414c4c5953204941563b30343541,
0x3b3b3b3b3b4e3b3b3b3b3b4c3b303b6f4c3b494a4e20454c42414c4c5953204941563b31343541,
0x3b3b3b3b3b4e3b3b3b3b3b4c3b303b6f4c3b495920454c42414c4c5953204941563b32343541,
0x3b3b3b3b3b4e3b3b3b3b3b4c3b303b6f4c3b494b20454c42414c4c5953204941563b33343541,
0x3b3b3b3b3b4e3b3b3b3b3b4c3b303b6f4c3b4947474e20454c42414c4c5953204941563b34343541,
0x3b3b3b3b3b4e3b3b3b3b3b4c3b303b6f4c3b494720454c42414c4c5953204941563b35343541,
0x3b3b3b3b3b4e3b3b3b3b3b4c3b303b6f4c3b494d20454c42414c4c5953204941563b36343541,
0x3b3b3b3b3b4e3b3b3b3b3b4c3b303b6f4c3b494e20454c42414c4c5953204941563b37343541,
0x3b3b3b3b3b4e3b3b3b3b3b4c3b303b6f4c3b49594e20454c42414c4c5953204941563b38343541,
0x3b3b3b3b3b4e3b3b3b3b3b4c3b303b6f4c3b4120454c42414c4c5953204941563b39343541,
0x3b3b3b3b3b4e3b3b3b3b3b4c3b303b6f4c3b4e4120454c42414c4c5953204941563b41343541,
0x3b3b3b3b3b4e3b3b3b3b3b4c3b303b6f4c3b4e41474e20454c42414c4c5953204941563b42343541,
0x3b3b3b3b3b4e3b3b3b3b3b4c3b303b6f4c3b414820454c42414c4c5953204941563b43343541,
0x3b3b3b3b3b4e3b3b3b3b3b4c3b303b6f4c3b4e414820454c42414c4c5953204941563b44343541,
0x3b3b3b3b3b4e3b3b3b3b3b4c3b303b6f4c3b415720454c42414c4c5953204941563b45343541,
0x3b3b3b3b3b4e3b3b3b3b3b4c3b303b6f4c3b4e415720454c42414c4c5953204941563b46343541,
0x3b3b3b3b3b4e3b3b3b3b3b4c3b303b6f4c3b415020454c42414c4c5953204941563b30353541,
0x3b3b3b3b3b4e3b3b3b3b3b4c3b303b6f4c3b41484220454c42414c4c5953204941563b31353541,
0x3b3b3b3b3b4e3b3b3b3b3b4c3b303b6f4c3b414220454c42414c4c5953204941563b32353541,
0x3b3b3b3b3b4e3b3b3b3b3b4c3b303b6f4c3b41424d20454c42414c4c5953204941563b33353541,
0x3b3b3b3b3b4e3b3b3b3b3b4c3b303b6f4c3b41504b20454c42414c4c5953204941563b34353541,
0x3b3b3b3b3b4e3b3b3b3b3b4c3b303b6f4c3b4e41504b20454c42414c4c5953204941563b35353541,
0x3b3b3b3b3b4e3b3b3b3b3b4c3b303b6f4c3b4142474d20454c42414c4c5953204941563b36353541,
0x3b3b3b3b3b4e3b3b3b3b3b4c3b303b6f4c3b41424720454c42414c4c5953204941563b37353541,
0x3b3b3b3b3b4e3b3b3b3b3b4c3b303b6f4c3b414620454c42414c4c5953204941563b38353541,
0x3b3b3b3b3b4e3b3b3b3b3b4c3b303b6f4c3b415620454c42414c4c5953204941563b39353541,
0x3b3b3b3b3b4e3b3b3b3b3b4c3b303b6f4c3b415420454c42414c4c5953204941563b41353541,
0x3b3b3b3b3b4e3b3b3b3b3b4c3b303b6f4c3b41485420454c42414c4c5953204941563b42353541,
0x3b3b3b3b3b4e3b3b3b3b3b4c3b303b6f4c3b41484420454c42414c4c5953204941563b43353541,
0x3b3b3b3b3b4e3b3b3b3b3b4c3b303b6f4c3b4148484420454c42414c4c5953204941563b44353541,
0x3b3b3b3b3b4e3b3b3b3b3b4c3b303b6f4c3b414c20454c42414c4c5953204941563b45353541,
0x3b3b3b3b3b4e3b3b3b3b3b4c3b303b6f4c3b415220454c42414c4c5953204941563b46353541,
0x3b3b3b3b3b4e3b3b3b3b3b4c3b303b6f4c3b414420454c42414c4c5953204941563b30363541,
0x3b3b3b3b3b4e3b3b3b3b3b4c3b303b6f4c3b41444e20454c42414c4c5953204941563b31363541,
0x3b3b3b3b3b4e3b3b3b3b3b4c3b303b6f4c3b415320454c42414c4c5953204941563b32363541,
0x3b3b3b3b3b4e3b3b3b3b3b4c3b303b6f4c3b41485320454c42414c4c5953204941563b33363541,
0x3b3b3b3b3b4e3b3b3b3b3b4c3b303b6f4c3b415a20454c42414c4c5953204941563b34363541,
0x3b3b3b3b3b4e3b3b3b3b3b4c3b303b6f4c3b41485a20454c42414c4c5953204941563b35363541,
0x3b3b3b3b3b4e3b3b3b3b3b4c3b303b6f4c3b414320454c42414c4c5953204941563b36363541,
0x3b3b3b3b3b4e3b3b3b3b3b4c3b303b6f4c3b414a20454c42414c4c5953204941563b37363541,
0x3b3b3b3b3b4e3b3b3b3b3b4c3b303b6f4c3b414a4e20454c42414c4c5953204941563b38363541,
0x3b3b3b3b3b4e3b3b3b3b3b4c3b303b6f4c3b415920454c42414c4c5953204941563b39363541,
0x3b3b3b3b3b4e3b3b3b3b3b4c3b303b6f4c3b414b20454c42414c4c5953204941563b41363541,
0x3b3b3b3b3b4e3b3b3b3b3b4c3b303b6f4c3b4e414b20454c42414c4c5953204941563b42363541,
0x3b3b3b3b3b4e3b3b3b3b3b4c3b303b6f4c3b4147474e20454c42414c4c5953204941563b43363541,
0x3b3b3b3b3b4e3b3b3b3b3b4c3b303b6f4c3b414720454c42414c4c5953204941563b44363541,
0x3b3b3b3b3b4e3b3b3b3b3b4c3b303b6f4c3b414d20454c42414c4c5953204941563b45363541,
0x3b3b3b3b3b4e3b3b3b3b3b4c3b303b6f4c3b414e20454c42414c4c5953204941563b46363541,
0x3b3b3b3b3b4e3b3b3b3b3b4c3b303b6f4c3b41594e20454c42414c4c5953204941563b30373541,
0x3b3b3b3b3b4e3b3b3b3b3b4c3b303b6f4c3b4f4f20454c42414c4c5953204941563b31373541,
0x3b3b3b3b3b4e3b3b3b3b3b4c3b303b6f4c3b4e4f4f20454c42414c4c5953204941563b32373541,
0x3b3b3b3b3b4e3b3b3b3b3b4c3b303b6f4c3b4f4f4820454c42414c4c5953204941563b33373541,
0x3b3b3b3b3b4e3b3b3b3b3b4c3b303b6f4c3b4f4f5720454c42414c4c5953204941563b34373541,
0x3b3b3b3b3b4e3b3b3b3b3b4c3b303b6f4c3b4e4f4f5720454c42414c4c5953204941563b35373541,
0x3b3b3b3b3b4e3b3b3b3b3b4c3b303b6f4c3b4f4f5020454c42414c4c5953204941563b36373541,
0x3b3b3b3b3b4e3b3b3b3b3b4c3b303b6f4c3b4f4f484220454c42414c4c5953204941563b37373541,
0x3b3b3b3b3b4e3b3b3b3b3b4c3b303b6f4c3b4f4f4220454c42414c4c5953204941563b38373541,
0x3b3b3b3b3b4e3b3b3b3b3b4c3b303b6f4c3b4f4f424d20454c42414c4c5953204941563b39373541,
0x3b3b3b3b3b4e3b3b3b3b3b4c3b303b6f4c3b4f4f504b20454c42414c4c5953204941563b41373541,
0x3b3b3b3b3b4e3b3b3b3b3b4c3b303b6f4c3b4f4f42474d20454c42414c4c5953204941563b42373541,
0x3b3b3b3b3b4e3b3b3b3b3b4c3b303b6f4c3b4f4f424720454c42414c4c5953204941563b43373541,
0x3b3b3b3b3b4e3b3b3b3b3b4c3b303b6f4c3b4f4f4620454c42414c4c5953204941563b44373541,
0x3b3b3b3b3b4e3b3b3b3b3b4c3b303b6f4c3b4f4f5620454c42414c4c5953204941563b45373541,
0x3b3b3b3b3b4e3b3b3b3b3b4c3b303b6f4c3b4f4f5420454c42414c4c5953204941563b46373541,
0x3b3b3b3b3b4e3b3b3b3b3b4c3b303b6f4c3b4f4f485420454c42414c4c5953204941563b30383541,
0x3b3b3b3b3b4e3b3b3b3b3b4c3b303b6f4c3b4f4f484420454c42414c4c5953204941563b31383541,
0x3b3b3b3b3b4e3b3b3b3b3b4c3b303b6f4c3b4f4f48484420454c42414c4c5953204941563b32383541,
0x3b3b3b3b3b4e3b3b3b3b3b4c3b303b6f4c3b4f4f4c20454c42414c4c5953204941563b33383541,
0x3b3b3b3b3b4e3b3b3b3b3b4c3b303b6f4c3b4f4f5220454c42414c4c5953204941563b34383541,
0x3b3b3b3b3b4e3b3b3b3b3b4c3b303b6f4c3b4f4f4420454c42414c4c5953204941563b35383541,
0x3b3b3b3b3b4e3b3b3b3b3b4c3b303b6f4c3b4f4f444e20454c42414c4c5953204941563b36383541,
0x3b3b3b3b3b4e3b3b3b3b3b4c3b303b6f4c3b4f4f5320454c42414c4c5953204941563b37383541,
0x3b3b3b3b3b4e3b3b3b3b3b4c3b303b6f4c3b4f4f485320454c42414c4c5953204941563b38383541,
0x3b3b3b3b3b4e3b3b3b3b3b4c3b303b6f4c3b4f4f5a20454c42414c4c5953204941563b39383541,
0x3b3b3b3b3b4e3b3b3b3b3b4c3b303b6f4c3b4f4f485a20454c42414c4c5953204941563b41383541,
0x3b3b3b3b3b4e3b3b3b3b3b4c3b303b6f4c3b4f4f4320454c42414c4c5953204941563b42383541,
0x3b3b3b3b3b4e3b3b3b3b3b4c3b303b6f4c3b4f4f4a20454c42414c4c5953204941563b43383541,
0x3b3b3b3b3b4e3b3b3b3b3b4c3b303b6f4c3b4f4f4a4e20454c42414c4c5953204941563b44383541,
0x3b3b3b3b3b4e3b3b3b3b3b4c3b303b6f4c3b4f4f5920454c42414c4c5953204941563b45383541,
0x3b3b3b3b3b4e3b3b3b3b3b4c3b303b6f4c3b4f4f4b20454c42414c4c5953204941563b46383541,
0x3b3b3b3b3b4e3b3b3b3b3b4c3b303b6f4c3b4f4f47474e20454c42414c4c5953204941563b30393541,
0x3b3b3b3b3b4e3b3b3b3b3b4c3b303b6f4c3b4f4f4720454c42414c4c5953204941563b31393541,
0x3b3b3b3b3b4e3b3b3b3b3b4c3b303b6f4c3b4f4f4d20454c42414c4c5953204941563b32393541,
0x3b3b3b3b3b4e3b3b3b3b3b4c3b303b6f4c3b4f4f4e20454c42414c4c5953204941563b33393541,
0x3b3b3b3b3b4e3b3b3b3b3b4c3b303b6f4c3b4f4f594e20454c42414c4c5953204941563b34393541,
0x3b3b3b3b3b4e3b3b3b3b3b4c3b303b6f4c3b5520454c42414c4c5953204941563b35393541,
0x3b3b3b3b3b4e3b3b3b3b3b4c3b303b6f4c3b4e5520454c42414c4c5953204941563b36393541,
0x3b3b3b3b3b4e3b3b3b3b3b4c3b303b6f4c3b554820454c42414c4c5953204941563b37393541,
0x3b3b3b3b3b4e3b3b3b3b3b4c3b303b6f4c3b4e554820454c42414c4c5953204941563b38393541,
0x3b3b3b3b3b4e3b3b3b3b3b4c3b303b6f4c3b555720454c42414c4c5953204941563b39393541,
0x3b3b3b3b3b4e3b3b3b3b3b4c3b303b6f4c3b4e555720454c42414c4c5953204941563b41393541,
0x3b3b3b3b3b4e3b3b3b3b3b4c3b303b6f4c3b555020454c42414c4c5953204941563b42393541,
0x3b3b3b3b3b4e3b3b3b3b3b4c3b303b6f4c3b55484220454c42414c4c5953204941563b43393541,
0x3b3b3b3b3b4e3b3b3b3b3b4c3b303b6f4c3b554220454c42414c4c5953204941563b44393541,
0x3b3b3b3b3b4e3b3b3b3b3b4c3b303b6f4c3b55424d20454c42414c4c5953204941563b45393541,
0x3b3b3b3b3b4e3b3b3b3b3b4c3b303b6f4c3b55504b20454c42414c4c5953204941563b46393541,
0x3b3b3b3b3b4e3b3b3b3b3b4c3b303b6f4c3b5542474d20454c42414c4c5953204941563b30413541,
0x3b3b3b3b3b4e3b3b3b3b3b4c3b303b6f4c3b55424720454c42414c4c5953204941563b31413541,
0x3b3b3b3b3b4e3b3b3b3b3b4c3b303b6f4c3b554620454c42414c4c5953204941563b32413541,
0x3b3b3b3b3b4e3b3b3b3b3b4c3b303b6f4c3b555620454c42414c4c5953204941563b33413541,
0x3b3b3b3b3b4e3b3b3b3b3b4c3b303b6f4c3b555420454c42414c4c5953204941563b34413541,
0x3b3b3b3b3b4e3b3b3b3b3b4c3b303b6f4c3b55485420454c42414c4c5953204941563b35413541,
0x3b3b3b3b3b4e3b3b3b3b3b4c3b303b6f4c3b55484420454c42414c4c5953204941563b36413541,
0x3b3b3b3b3b4e3b3b3b3b3b4c3b303b6f4c3b5548484420454c42414c4c5953204941563b37413541,
0x3b3b3b3b3b4e3b3b3b3b3b4c3b303b6f4c3b554c20454c42414c4c5953204941563b38413541,
0x3b3b3b3b3b4e3b3b3b3b3b4c3b303b6f4c3b555220454c42414c4c5953204941563b39413541,
0x3b3b3b3b3b4e3b3b3b3b3b4c3b303b6f4c3b554420454c42414c4c5953204941563b41413541,
0x3b3b3b3b3b4e3b3b3b3b3b4c3b303b6f4c3b55444e20454c42414c4c5953204941563b42413541,
0x3b3b3b3b3b4e3b3b3b3b3b4c3b303b6f4c3b555320454c42414c4c5953204941563b43413541,
0x3b3b3b3b3b4e3b3b3b3b3b4c3b303b6f4c3b55485320454c42414c4c5953204941563b44413541,
0x3b3b3b3b3b4e3b3b3b3b3b4c3b303b6f4c3b555a20454c42414c4c5953204941563b45413541,
0x3b3b3b3b3b4e3b3b3b3b3b4c3b303b6f4c3b55485a20454c42414c4c5953204941563b46413541,
0x3b3b3b3b3b4e3b3b3b3b3b4c3b303b6f4c3b554320454c42414c4c5953204941563b30423541,
0x3b3b3b3b3b4e3b3b3b3b3b4c3b303b6f4c3b554a20454c42414c4c5953204941563b31423541,
0x3b3b3b3b3b4e3b3b3b3b3b4c3b303b6f4c3b554a4e20454c42414c4c5953204941563b32423541,
0x3b3b3b3b3b4e3b3b3b3b3b4c3b303b6f4c3b555920454c42414c4c5953204941563b33423541,
0x3b3b3b3b3b4e3b3b3b3b3b4c3b303b6f4c3b554b20454c42414c4c5953204941563b34423541,
0x3b3b3b3b3b4e3b3b3b3b3b4c3b303b6f4c3b5547474e20454c42414c4c5953204941563b35423541,
0x3b3b3b3b3b4e3b3b3b3b3b4c3b303b6f4c3b554720454c42414c4c5953204941563b36423541,
0x3b3b3b3b3b4e3b3b3b3b3b4c3b303b6f4c3b554d20454c42414c4c5953204941563b37423541,
0x3b3b3b3b3b4e3b3b3b3b3b4c3b303b6f4c3b554e20454c42414c4c5953204941563b38423541,
0x3b3b3b3b3b4e3b3b3b3b3b4c3b303b6f4c3b55594e20454c42414c4c5953204941563b39423541,
0x3b3b3b3b3b4e3b3b3b3b3b4c3b303b6f4c3b4f20454c42414c4c5953204941563b41423541,
0x3b3b3b3b3b4e3b3b3b3b3b4c3b303b6f4c3b4e4f20454c42414c4c5953204941563b42423541,
0x3b3b3b3b3b4e3b3b3b3b3b4c3b303b6f4c3b4e4f474e20454c42414c4c5953204941563b43423541,
0x3b3b3b3b3b4e3b3b3b3b3b4c3b303b6f4c3b4f4820454c42414c4c5953204941563b44423541,
0x3b3b3b3b3b4e3b3b3b3b3b4c3b303b6f4c3b4e4f4820454c42414c4c5953204941563b45423541,
0x3b3b3b3b3b4e3b3b3b3b3b4c3b303b6f4c3b4f5720454c42414c4c5953204941563b46423541,
0x3b3b3b3b3b4e3b3b3b3b3b4c3b303b6f4c3b4e4f5720454c42414c4c5953204941563b30433541,
0x3b3b3b3b3b4e3b3b3b3b3b4c3b303b6f4c3b4f5020454c42414c4c5953204941563b31433541,
0x3b3b3b3b3b4e3b3b3b3b3b4c3b303b6f4c3b4f484220454c42414c4c5953204941563b32433541,
0x3b3b3b3b3b4e3b3b3b3b3b4c3b303b6f4c3b4f4220454c42414c4c5953204941563b33433541,
0x3b3b3b3b3b4e3b3b3b3b3b4c3b303b6f4c3b4f424d20454c42414c4c5953204941563b34433541,
0x3b3b3b3b3b4e3b3b3b3b3b4c3b303b6f4c3b4f504b20454c42414c4c5953204941563b35433541,
0x3b3b3b3b3b4e3b3b3b3b3b4c3b303b6f4c3b4f42474d20454c42414c4c5953204941563b36433541,
0x3b3b3b3b3b4e3b3b3b3b3b4c3b303b6f4c3b4f424720454c42414c4c5953204941563b37433541,
0x3b3b3b3b3b4e3b3b3b3b3b4c3b303b6f4c3b4e4f424720454c42414c4c5953204941563b38433541,
0x3b3b3b3b3b4e3b3b3b3b3b4c3b303b6f4c3b4f4620454c42414c4c5953204941563b39433541,
0x3b3b3b3b3b4e3b3b3b3b3b4c3b303b6f4c3b4f5620454c42414c4c5953204941563b41433541,
0x3b3b3b3b3b4e3b3b3b3b3b4c3b303b6f4c3b4f5420454c42414c4c5953204941563b42433541,
0x3b3b3b3b3b4e3b3b3b3b3b4c3b303b6f4c3b4f485420454c42414c4c5953204941563b43433541,
0x3b3b3b3b3b4e3b3b3b3b3b4c3b303b6f4c3b4f484420454c42414c4c5953204941563b44433541,
0x3b3b3b3b3b4e3b3b3b3b3b4c3b303b6f4c3b4f48484420454c42414c4c5953204941563b45433541,
0x3b3b3b3b3b4e3b3b3b3b3b4c3b303b6f4c3b4f4c20454c42414c4c5953204941563b46433541,
0x3b3b3b3b3b4e3b3b3b3b3b4c3b303b6f4c3b4f5220454c42414c4c5953204941563b30443541,
0x3b3b3b3b3b4e3b3b3b3b3b4c3b303b6f4c3b4f4420454c42414c4c5953204941563b31443541,
0x3b3b3b3b3b4e3b3b3b3b3b4c3b303b6f4c3b4f444e20454c42414c4c5953204941563b32443541,
0x3b3b3b3b3b4e3b3b3b3b3b4c3b303b6f4c3b4f5320454c42414c4c5953204941563b33443541,
0x3b3b3b3b3b4e3b3b3b3b3b4c3b303b6f4c3b4f485320454c42414c4c5953204941563b34443541,
0x3b3b3b3b3b4e3b3b3b3b3b4c3b303b6f4c3b4f5a20454c42414c4c5953204941563b35443541,
0x3b3b3b3b3b4e3b3b3b3b3b4c3b303b6f4c3b4f485a20454c42414c4c5953204941563b36443541,
0x3b3b3b3b3b4e3b3b3b3b3b4c3b303b6f4c3b4f4320454c42414c4c5953204941563b37443541,
0x3b3b3b3b3b4e3b3b3b3b3b4c3b303b6f4c3b4f4a20454c42414c4c5953204941563b38443541,
0x3b3b3b3b3b4e3b3b3b3b3b4c3b303b6f4c3b4f4a4e20454c42414c4c5953204941563b39443541,
0x3b3b3b3b3b4e3b3b3b3b3b4c3b303b6f4c3b4f5920454c42414c4c5953204941563b41443541,
0x3b3b3b3b3b4e3b3b3b3b3b4c3b303b6f4c3b4f4b20454c42414c4c5953204941563b42443541,
0x3b3b3b3b3b4e3b3b3b3b3b4c3b303b6f4c3b4f47474e20454c42414c4c5953204941563b43443541,
0x3b3b3b3b3b4e3b3b3b3b3b4c3b303b6f4c3b4f4720454c42414c4c5953204941563b44443541,
0x3b3b3b3b3b4e3b3b3b3b3b4c3b303b6f4c3b4f4d20454c42414c4c5953204941563b45443541,
0x3b3b3b3b3b4e3b3b3b3b3b4c3b303b6f4c3b4f4e20454c42414c4c5953204941563b46443541,
0x3b3b3b3b3b4e3b3b3b3b3b4c3b303b6f4c3b4f594e20454c42414c4c5953204941563b30453541,
0x3b3b3b3b3b4e3b3b3b3b3b4c3b303b6f4c3b4520454c42414c4c5953204941563b31453541,
0x3b3b3b3b3b4e3b3b3b3b3b4c3b303b6f4c3b4e4520454c42414c4c5953204941563b32453541,
0x3b3b3b3b3b4e3b3b3b3b3b4c3b303b6f4c3b4e45474e20454c42414c4c5953204941563b33453541,
0x3b3b3b3b3b4e3b3b3b3b3b4c3b303b6f4c3b454820454c42414c4c5953204941563b34453541,
0x3b3b3b3b3b4e3b3b3b3b3b4c3b303b6f4c3b4e454820454c42414c4c5953204941563b35453541,
0x3b3b3b3b3b4e3b3b3b3b3b4c3b303b6f4c3b455720454c42414c4c5953204941563b36453541,
0x3b3b3b3b3b4e3b3b3b3b3b4c3b303b6f4c3b4e455720454c42414c4c5953204941563b37453541,
0x3b3b3b3b3b4e3b3b3b3b3b4c3b303b6f4c3b455020454c42414c4c5953204941563b38453541,
0x3b3b3b3b3b4e3b3b3b3b3b4c3b303b6f4c3b45484220454c42414c4c5953204941563b39453541,
0x3b3b3b3b3b4e3b3b3b3b3b4c3b303b6f4c3b454220454c42414c4c5953204941563b41453541,
0x3b3b3b3b3b4e3b3b3b3b3b4c3b303b6f4c3b45424d20454c42414c4c5953204941563b42453541,
0x3b3b3b3b3b4e3b3b3b3b3b4c3b303b6f4c3b45504b20454c42414c4c5953204941563b43453541,
0x3b3b3b3b3b4e3b3b3b3b3b4c3b303b6f4c3b4e45504b20454c42414c4c5953204941563b44453541,
0x3b3b3b3b3b4e3b3b3b3b3b4c3b303b6f4c3b4542474d20454c42414c4c5953204941563b45453541,
0x3b3b3b3b3b4e3b3b3b3b3b4c3b303b6f4c3b45424720454c42414c4c5953204941563b46453541,
0x3b3b3b3b3b4e3b3b3b3b3b4c3b303b6f4c3b4e45424720454c42414c4c5953204941563b30463541,
0x3b3b3b3b3b4e3b3b3b3b3b4c3b303b6f4c3b454620454c42414c4c5953204941563b31463541,
0x3b3b3b3b3b4e3b3b3b3b3b4c3b303b6f4c3b455620454c42414c4c5953204941563b32463541,
0x3b3b3b3b3b4e3b3b3b3b3b4c3b303b6f4c3b455420454c42414c4c5953204941563b33463541,
0x3b3b3b3b3b4e3b3b3b3b3b4c3b303b6f4c3b45485420454c42414c4c5953204941563b34463541,
0x3b3b3b3b3b4e3b3b3b3b3b4c3b303b6f4c3b45484420454c42414c4c5953204941563b35463541,
0x3b3b3b3b3b4e3b3b3b3b3b4c3b303b6f4c3b4548484420454c42414c4c5953204941563b36463541,
0x3b3b3b3b3b4e3b3b3b3b3b4c3b303b6f4c3b454c20454c42414c4c5953204941563b37463541,
0x3b3b3b3b3b4e3b3b3b3b3b4c3b303b6f4c3b455220454c42414c4c5953204941563b38463541,
0x3b3b3b3b3b4e3b3b3b3b3b4c3b303b6f4c3b454420454c42414c4c5953204941563b39463541,
0x3b3b3b3b3b4e3b3b3b3b3b4c3b303b6f4c3b45444e20454c42414c4c5953204941563b41463541,
0x3b3b3b3b3b4e3b3b3b3b3b4c3b303b6f4c3b455320454c42414c4c5953204941563b42463541,
0x3b3b3b3b3b4e3b3b3b3b3b4c3b303b6f4c3b45485320454c42414c4c5953204941563b43463541,
0x3b3b3b3b3b4e3b3b3b3b3b4c3b303b6f4c3b455a20454c42414c4c5953204941563b44463541,
0x3b3b3b3b3b4e3b3b3b3b3b4c3b303b6f4c3b45485a20454c42414c4c5953204941563b45463541,
0x3b3b3b3b3b4e3b3b3b3b3b4c3b303b6f4c3b454320454c42414c4c5953204941563b46463541,
0x3b3b3b3b3b4e3b3b3b3b3b4c3b303b6f4c3b454a20454c42414c4c5953204941563b30303641,
0x3b3b3b3b3b4e3b3b3b3b3b4c3b303b6f4c3b454a4e20454c42414c4c5953204941563b31303641,
0x3b3b3b3b3b4e3b3b3b3b3b4c3b303b6f4c3b455920454c42414c4c5953204941563b32303641,
0x3b3b3b3b3b4e3b3b3b3b3b4c3b303b6f4c3b454b20454c42414c4c5953204941563b33303641,
0x3b3b3b3b3b4e3b3b3b3b3b4c3b303b6f4c3b4547474e20454c42414c4c5953204941563b34303641,
0x3b3b3b3b3b4e3b3b3b3b3b4c3b303b6f4c3b4e4547474e20454c42414c4c5953204941563b35303641,
0x3b3b3b3b3b4e3b3b3b3b3b4c3b303b6f4c3b454720454c42414c4c5953204941563b36303641,
0x3b3b3b3b3b4e3b3b3b3b3b4c3b303b6f4c3b4e454720454c42414c4c5953204941563b37303641,
0x3b3b3b3b3b4e3b3b3b3b3b4c3b303b6f4c3b454d20454c42414c4c5953204941563b38303641,
0x3b3b3b3b3b4e3b3b3b3b3b4c3b303b6f4c3b454e20454c42414c4c5953204941563b39303641,
0x3b3b3b3b3b4e3b3b3b3b3b4c3b303b6f4c3b45594e20454c42414c4c5953204941563b41303641,
0x3b3b3b3b3b4e3b3b3b3b3b4c3b303b6f4c3b474e20454c42414c4c5953204941563b42303641,
0x3b3b3b3b3b4e3b3b3b3b3b4c3b303b6d4c3b52454e454854474e454c20454c42414c4c5953204941563b43303641,
0x3b3b3b3b3b4e3b3b3b3b3b4e4f3b303b6f503b414d4d4f43204941563b44303641,
0x3b3b3b3b3b4e3b3b3b3b3b4e4f3b303b6f503b504f5453204c4c5546204941563b45303641,
0x3b3b3b3b3b4e3b3b3b3b3b4e4f3b303b6f503b4b52414d204e4f495453455551204941563b46303641,
0x3b3b3b3b3b4e3b3b3b3b3b4c3b303b6f4c3b414620454c4f444e20454c42414c4c5953204941563b30313641,
0x3b3b3b3b3b4e3b3b3b3b3b4c3b303b6f4c3b414b20454c4f444e20454c42414c4c5953204941563b31313641,
0x3b3b3b3b3b4e3b3b3b3b3b4c3b303b6f4c3b4f4f5320454c4f444e20454c42414c4c5953204941563b32313641,
0x3b3b3b3b3b4e3b3b3b3b3b4c3b303b6f4c3b474e454546204c4f424d5953204941563b33313641,
0x3b3b3b3b3b4e3b3b3b3b3b4c3b303b6f4c3b474e45454b204c4f424d5953204941563b34313641,
0x3b3b3b3b3b4e3b3b3b3b3b4c3b303b6f4c3b474e4954204c4f424d5953204941563b35313641,
0x3b3b3b3b3b4e3b3b3b3b3b4c3b303b6f4c3b49494e204c4f424d5953204941563b36313641,
0x3b3b3b3b3b4e3b3b3b3b3b4c3b303b6f4c3b474e4142204c4f424d5953204941563b37313641,
0x3b3b3b3b3b4e3b3b3b3b3b4c3b303b6f4c3b414146204c4f424d5953204941563b38313641]

/-- src/u5e/props/UnicodeData.txt lines 13569-13824. -/
def rawUcd53 : List Nat := [
0x3b3b3b3b3b4e3b3b3b3b3b4c3b303b6f4c3b414154204c4f424d5953204941563b39313641,
0x3b3b3b3b3b4e3b3b3b3b3b4c3b303b6f4c3b474e4144204c4f424d5953204941563b41313641,
0x3b3b3b3b3b4e3b3b3b3b3b4c3b303b6f4c3b474e4f4f44204c4f424d5953204941563b42313641,
0x3b3b3b3b3b4e3b3b3b3b3b4c3b303b6f4c3b474e554b204c4f424d5953204941563b43313641,
0x3b3b3b3b3b4e3b3b3b3b3b4c3b303b6f4c3b474e4f54204c4f424d5953204941563b44313641,
0x3b3b3b3b3b4e3b3b3b3b3b4c3b303b6f4c3b4f2d4f44204c4f424d5953204941563b45313641,
0x3b3b3b3b3b4e3b3b3b3b3b4c3b303b6f4c3b474e4f4a204c4f424d5953204941563b46313641,
0x3b3b3b3b3b4e3b303b303b303b3b4c3b303b644e3b4f52455a205449474944204941563b30323641,
0x3b3b3b3b3b4e3b313b313b313b3b4c3b303b644e3b454e4f205449474944204941563b31323641,
0x3b3b3b3b3b4e3b323b323b323b3b4c3b303b644e3b4f5754205449474944204941563b32323641,
0x3b3b3b3b3b4e3b333b333b333b3b4c3b303b644e3b4545524854205449474944204941563b33323641,
0x3b3b3b3b3b4e3b343b343b343b3b4c3b303b644e3b52554f46205449474944204941563b34323641,
0x3b3b3b3b3b4e3b353b353b353b3b4c3b303b644e3b45564946205449474944204941563b35323641,
0x3b3b3b3b3b4e3b363b363b363b3b4c3b303b644e3b584953205449474944204941563b36323641,
0x3b3b3b3b3b4e3b373b373b373b3b4c3b303b644e3b4e45564553205449474944204941563b37323641,
0x3b3b3b3b3b4e3b383b383b383b3b4c3b303b644e3b5448474945205449474944204941563b38323641,
0x3b3b3b3b3b4e3b393b393b393b3b4c3b303b644e3b454e494e205449474944204941563b39323641,
0x3b3b3b3b3b4e3b3b3b3b3b4c3b303b6f4c3b414d20454c4f444e20454c42414c4c5953204941563b41323641,
0x3b3b3b3b3b4e3b3b3b3b3b4c3b303b6f4c3b4f4420454c4f444e20454c42414c4c5953204941563b42323641,
0x3b313436413b3b3b3b4e3b3b3b3b3b4c3b303b754c3b41594c4d455a2052455454454c204c4154495041432043494c4c495259433b30343641,
0x303436413b3b303436413b3b3b4e3b3b3b3b3b4c3b303b6c4c3b41594c4d455a2052455454454c204c4c414d532043494c4c495259433b31343641,
0x3b333436413b3b3b3b4e3b3b3b3b3b4c3b303b754c3b4f4c455a442052455454454c204c4154495041432043494c4c495259433b32343641,
0x323436413b3b323436413b3b3b4e3b3b3b3b3b4c3b303b6c4c3b4f4c455a442052455454454c204c4c414d532043494c4c495259433b33343641,
0x3b353436413b3b3b3b4e3b3b3b3b3b4c3b303b754c3b455a442044455352455645522052455454454c204c4154495041432043494c4c495259433b34343641,
0x343436413b3b343436413b3b3b4e3b3b3b3b3b4c3b303b6c4c3b455a442044455352455645522052455454454c204c4c414d532043494c4c495259433b35343641,
0x3b373436413b3b3b3b4e3b3b3b3b3b4c3b303b754c3b41544f492052455454454c204c4154495041432043494c4c495259433b36343641,
0x363436413b3b363436413b3b3b4e3b3b3b3b3b4c3b303b6c4c3b41544f492052455454454c204c4c414d532043494c4c495259433b37343641,
0x3b393436413b3b3b3b4e3b3b3b3b3b4c3b303b754c3b5652454a442052455454454c204c4154495041432043494c4c495259433b38343641,
0x383436413b3b383436413b3b3b4e3b3b3b3b3b4c3b303b6c4c3b5652454a442052455454454c204c4c414d532043494c4c495259433b39343641,
0x3b423436413b3b3b3b4e3b3b3b3b3b4c3b303b754c3b4b552048504152474f4e4f4d2052455454454c204c4154495041432043494c4c495259433b41343641,
0x413436413b3b413436413b3b3b4e3b3b3b3b3b4c3b303b6c4c3b4b552048504152474f4e4f4d2052455454454c204c4c414d532043494c4c495259433b42343641,
0x3b443436413b3b3b3b4e3b3b3b3b3b4c3b303b754c3b4147454d4f2044414f52422052455454454c204c4154495041432043494c4c495259433b43343641,
0x433436413b3b433436413b3b3b4e3b3b3b3b3b4c3b303b6c4c3b4147454d4f2044414f52422052455454454c204c4c414d532043494c4c495259433b44343641,
0x3b463436413b3b3b3b4e3b3b3b3b3b4c3b303b754c3b524559204c41525455454e2052455454454c204c4154495041432043494c4c495259433b45343641,
0x453436413b3b453436413b3b3b4e3b3b3b3b3b4c3b303b6c4c3b524559204c41525455454e2052455454454c204c4c414d532043494c4c495259433b46343641,
0x3b313536413b3b3b3b4e3b3b3b3b3b4c3b303b754c3b524559204b434142204854495720555245592052455454454c204c4154495041432043494c4c495259433b30353641,
0x303536413b3b303536413b3b3b4e3b3b3b3b3b4c3b303b6c4c3b524559204b434142204854495720555245592052455454454c204c4c414d532043494c4c495259433b31353641,
0x3b333536413b3b3b3b4e3b3b3b3b3b4c3b303b754c3b544159204445494649544f492052455454454c204c4154495041432043494c4c495259433b32353641,
0x323536413b3b323536413b3b3b4e3b3b3b3b3b4c3b303b6c4c3b544159204445494649544f492052455454454c204c4c414d532043494c4c495259433b33353641,
0x3b353536413b3b3b3b4e3b3b3b3b3b4c3b303b754c3b55592044455352455645522052455454454c204c4154495041432043494c4c495259433b34353641,
0x343536413b3b343536413b3b3b4e3b3b3b3b3b4c3b303b6c4c3b55592044455352455645522052455454454c204c4c414d532043494c4c495259433b35353641,
0x3b373536413b3b3b3b4e3b3b3b3b3b4c3b303b754c3b41204445494649544f492052455454454c204c4154495041432043494c4c495259433b36353641,
0x363536413b3b363536413b3b3b4e3b3b3b3b3b4c3b303b6c4c3b41204445494649544f492052455454454c204c4c414d532043494c4c495259433b37353641,
0x3b393536413b3b3b3b4e3b3b3b3b3b4c3b303b754c3b53555920454c5454494c204445534f4c432052455454454c204c4154495041432043494c4c495259433b38353641,
0x383536413b3b383536413b3b3b4e3b3b3b3b3b4c3b303b6c4c3b53555920454c5454494c204445534f4c432052455454454c204c4c414d532043494c4c495259433b39353641,
0x3b423536413b3b3b3b4e3b3b3b3b3b4c3b303b754c3b535559204445444e454c422052455454454c204c4154495041432043494c4c495259433b41353641,
0x413536413b3b413536413b3b3b4e3b3b3b3b3b4c3b303b6c4c3b535559204445444e454c422052455454454c204c4c414d532043494c4c495259433b42353641,
0x3b443536413b3b3b3b4e3b3b3b3b3b4c3b303b754c3b53555920454c5454494c204445534f4c43204445494649544f492052455454454c204c4154495041432043494c4c495259433b43353641,
0x433536413b3b433536413b3b3b4e3b3b3b3b3b4c3b303b6c4c3b53555920454c5454494c204445534f4c43204445494649544f492052455454454c204c4c414d532043494c4c495259433b44353641,
0x3b463536413b3b3b3b4e3b3b3b3b3b4c3b303b754c3b4e592052455454454c204c4154495041432043494c4c495259433b45353641,
0x453536413b3b453536413b3b3b4e3b3b3b3b3b4c3b303b6c4c3b4e592052455454454c204c4c414d532043494c4c495259433b46353641,
0x3b313636413b3b3b3b4e3b3b3b3b3b4c3b303b754c3b4553542044455352455645522052455454454c204c4154495041432043494c4c495259433b30363641,
0x303636413b3b303636413b3b3b4e3b3b3b3b3b4c3b303b6c4c3b4553542044455352455645522052455454454c204c4c414d532043494c4c495259433b31363641,
0x3b333636413b3b3b3b4e3b3b3b3b3b4c3b303b754c3b45442054464f532052455454454c204c4154495041432043494c4c495259433b32363641,
0x323636413b3b323636413b3b3b4e3b3b3b3b3b4c3b303b6c4c3b45442054464f532052455454454c204c4c414d532043494c4c495259433b33363641,
0x3b353636413b3b3b3b4e3b3b3b3b3b4c3b303b754c3b4c452054464f532052455454454c204c4154495041432043494c4c495259433b34363641,
0x343636413b3b343636413b3b3b4e3b3b3b3b3b4c3b303b6c4c3b4c452054464f532052455454454c204c4c414d532043494c4c495259433b35363641,
0x3b373636413b3b3b3b4e3b3b3b3b3b4c3b303b754c3b4d452054464f532052455454454c204c4154495041432043494c4c495259433b36363641,
0x363636413b3b363636413b3b3b4e3b3b3b3b3b4c3b303b6c4c3b4d452054464f532052455454454c204c4c414d532043494c4c495259433b37363641,
0x3b393636413b3b3b3b4e3b3b3b3b3b4c3b303b754c3b4f2052414c55434f4e4f4d2052455454454c204c4154495041432043494c4c495259433b38363641,
0x383636413b3b383636413b3b3b4e3b3b3b3b3b4c3b303b6c4c3b4f2052414c55434f4e4f4d2052455454454c204c4c414d532043494c4c495259433b39363641,
0x3b423636413b3b3b3b4e3b3b3b3b3b4c3b303b754c3b4f2052414c55434f4e49422052455454454c204c4154495041432043494c4c495259433b41363641,
0x413636413b3b413636413b3b3b4e3b3b3b3b3b4c3b303b6c4c3b4f2052414c55434f4e49422052455454454c204c4c414d532043494c4c495259433b42363641,
0x3b443636413b3b3b3b4e3b3b3b3b3b4c3b303b754c3b4f2052414c55434f4e4f4d20454c42554f442052455454454c204c4154495041432043494c4c495259433b43363641,
0x433636413b3b433636413b3b3b4e3b3b3b3b3b4c3b303b6c4c3b4f2052414c55434f4e4f4d20454c42554f442052455454454c204c4c414d532043494c4c495259433b44363641,
0x3b3b3b3b3b4e3b3b3b3b3b4c3b303b6f4c3b4f2052414c55434f49544c554d2052455454454c2043494c4c495259433b45363641,
0x3b3b3b3b3b4e3b3b3b3b3b4d534e3b3033323b6e4d3b54454d5a562043494c4c4952594320474e494e49424d4f433b46363641,
0x3b3b3b3b3b4e3b3b3b3b3b4d534e3b303b654d3b4e47495320534e4f494c4c494d204e45542043494c4c4952594320474e494e49424d4f433b30373641,
0x3b3b3b3b3b4e3b3b3b3b3b4d534e3b303b654d3b4e47495320534e4f494c4c494d20444552444e55482043494c4c4952594320474e494e49424d4f433b31373641,
0x3b3b3b3b3b4e3b3b3b3b3b4d534e3b303b654d3b4e47495320534e4f494c4c494d20444e4153554f48542043494c4c4952594320474e494e49424d4f433b32373641,
0x3b3b3b3b3b4e3b3b3b3b3b4e4f3b303b6f503b4b534952455453412043494e4f56414c533b33373641,
0x3b3b3b3b3b4e3b3b3b3b3b4d534e3b3033323b6e4d3b4549204e41494e4941524b552052455454454c2043494c4c4952594320474e494e49424d4f433b34373641,
0x3b3b3b3b3b4e3b3b3b3b3b4d534e3b3033323b6e4d3b492052455454454c2043494c4c4952594320474e494e49424d4f433b35373641,
0x3b3b3b3b3b4e3b3b3b3b3b4d534e3b3033323b6e4d3b49592052455454454c2043494c4c4952594320474e494e49424d4f433b36373641,
0x3b3b3b3b3b4e3b3b3b3b3b4d534e3b3033323b6e4d3b552052455454454c2043494c4c4952594320474e494e49424d4f433b37373641,
0x3b3b3b3b3b4e3b3b3b3b3b4d534e3b3033323b6e4d3b4e47495320445241482052455454454c2043494c4c4952594320474e494e49424d4f433b38373641,
0x3b3b3b3b3b4e3b3b3b3b3b4d534e3b3033323b6e4d3b555245592052455454454c2043494c4c4952594320474e494e49424d4f433b39373641,
0x3b3b3b3b3b4e3b3b3b3b3b4d534e3b3033323b6e4d3b4e4749532054464f532052455454454c2043494c4c4952594320474e494e49424d4f433b41373641,
0x3b3b3b3b3b4e3b3b3b3b3b4d534e3b3033323b6e4d3b4147454d4f2052455454454c2043494c4c4952594320474e494e49424d4f433b42373641,
0x3b3b3b3b3b4e3b3b3b3b3b4d534e3b3033323b6e4d3b414b5956414b2043494c4c4952594320474e494e49424d4f433b43373641,
0x3b3b3b3b3b4e3b3b3b3b3b4d534e3b3033323b6e4d3b4b4f52455941502043494c4c4952594320474e494e49424d4f433b44373641,
0x3b3b3b3b3b4e3b3b3b3b3b4e4f3b303b6f503b414b5956414b2043494c4c495259433b45373641,
0x3b3b3b3b3b4e3b3b3b3b3b4e4f3b303b6d4c3b4b4f52455941502043494c4c495259433b46373641,
0x3b313836413b3b3b3b4e3b3b3b3b3b4c3b303b754c3b4557442052455454454c204c4154495041432043494c4c495259433b30383641,
0x303836413b3b303836413b3b3b4e3b3b3b3b3b4c3b303b6c4c3b4557442052455454454c204c4c414d532043494c4c495259433b31383641,
0x3b333836413b3b3b3b4e3b3b3b3b3b4c3b303b754c3b45575a442052455454454c204c4154495041432043494c4c495259433b32383641,
0x323836413b3b323836413b3b3b4e3b3b3b3b3b4c3b303b6c4c3b45575a442052455454454c204c4c414d532043494c4c495259433b33383641,
0x3b353836413b3b3b3b4e3b3b3b3b3b4c3b303b754c3b4557485a2052455454454c204c4154495041432043494c4c495259433b34383641,
0x343836413b3b343836413b3b3b4e3b3b3b3b3b4c3b303b6c4c3b4557485a2052455454454c204c4c414d532043494c4c495259433b35383641,
0x3b373836413b3b3b3b4e3b3b3b3b3b4c3b303b754c3b454843432052455454454c204c4154495041432043494c4c495259433b36383641,
0x363836413b3b363836413b3b3b4e3b3b3b3b3b4c3b303b6c4c3b454843432052455454454c204c4c414d532043494c4c495259433b37383641,
0x3b393836413b3b3b3b4e3b3b3b3b3b4c3b303b754c3b455a5a442052455454454c204c4154495041432043494c4c495259433b38383641,
0x383836413b3b383836413b3b3b4e3b3b3b3b3b4c3b303b6c4c3b455a5a442052455454454c204c4c414d532043494c4c495259433b39383641,
0x3b423836413b3b3b3b4e3b3b3b3b3b4c3b303b754c3b4b4f4f4820454c4444494d20485449572045542052455454454c204c4154495041432043494c4c495259433b41383641,
0x413836413b3b413836413b3b3b4e3b3b3b3b3b4c3b303b6c4c3b4b4f4f4820454c4444494d20485449572045542052455454454c204c4c414d532043494c4c495259433b42383641,
0x3b443836413b3b3b3b4e3b3b3b3b3b4c3b303b754c3b4557542052455454454c204c4154495041432043494c4c495259433b43383641,
0x433836413b3b433836413b3b3b4e3b3b3b3b3b4c3b303b6c4c3b4557542052455454454c204c4c414d532043494c4c495259433b44383641,
0x3b463836413b3b3b3b4e3b3b3b3b3b4c3b303b754c3b455753542052455454454c204c4154495041432043494c4c495259433b45383641,
0x453836413b3b453836413b3b3b4e3b3b3b3b3b4c3b303b6c4c3b455753542052455454454c204c4c414d532043494c4c495259433b46383641,
0x3b313936413b3b3b3b4e3b3b3b3b3b4c3b303b754c3b455353542052455454454c204c4154495041432043494c4c495259433b30393641,
0x303936413b3b303936413b3b3b4e3b3b3b3b3b4c3b303b6c4c3b455353542052455454454c204c4c414d532043494c4c495259433b31393641,
0x3b333936413b3b3b3b4e3b3b3b3b3b4c3b303b754c3b454843542052455454454c204c4154495041432043494c4c495259433b32393641,
0x323936413b3b323936413b3b3b4e3b3b3b3b3b4c3b303b6c4c3b454843542052455454454c204c4c414d532043494c4c495259433b33393641,
0x3b353936413b3b3b3b4e3b3b3b3b3b4c3b303b754c3b4557482052455454454c204c4154495041432043494c4c495259433b34393641,
0x343936413b3b343936413b3b3b4e3b3b3b3b3b4c3b303b6c4c3b4557482052455454454c204c4c414d532043494c4c495259433b35393641,
0x3b373936413b3b3b3b4e3b3b3b3b3b4c3b303b754c3b455748532052455454454c204c4154495041432043494c4c495259433b36393641,
0x363936413b3b363936413b3b3b4e3b3b3b3b3b4c3b303b6c4c3b455748532052455454454c204c4c414d532043494c4c495259433b37393641,
0x3b393936413b3b3b3b4e3b3b3b3b3b4c3b303b754c3b4f20454c42554f442052455454454c204c4154495041432043494c4c495259433b38393641,
0x383936413b3b383936413b3b3b4e3b3b3b3b3b4c3b303b6c4c3b4f20454c42554f442052455454454c204c4c414d532043494c4c495259433b39393641,
0x3b423936413b3b3b3b4e3b3b3b3b3b4c3b303b754c3b4f20444553534f52432052455454454c204c4154495041432043494c4c495259433b41393641,
0x413936413b3b413936413b3b3b4e3b3b3b3b3b4c3b303b6c4c3b4f20444553534f52432052455454454c204c4c414d532043494c4c495259433b42393641,
0x3b3b3b3b3b4e3b3b3b3b41343430203e72657075733c3b4c3b303b6d4c3b4e47495320445241482043494c4c495259432052455454454c205245494649444f4d3b43393641,
0x3b3b3b3b3b4e3b3b3b3b43343430203e72657075733c3b4c3b303b6d4c3b4e4749532054464f532043494c4c495259432052455454454c205245494649444f4d3b44393641,
0x3b3b3b3b3b4e3b3b3b3b3b4d534e3b3033323b6e4d3b46452052455454454c2043494c4c4952594320474e494e49424d4f433b45393641,
0x3b3b3b3b3b4e3b3b3b3b3b4d534e3b3033323b6e4d3b45204445494649544f492052455454454c2043494c4c4952594320474e494e49424d4f433b46393641,
0x3b3b3b3b3b4e3b3b3b3b3b4c3b303b6f4c3b412052455454454c204d554d41423b30413641,
0x3b3b3b3b3b4e3b3b3b3b3b4c3b303b6f4c3b414b2052455454454c204d554d41423b31413641,
0x3b3b3b3b3b4e3b3b3b3b3b4c3b303b6f4c3b552052455454454c204d554d41423b32413641,
0x3b3b3b3b3b4e3b3b3b3b3b4c3b303b6f4c3b554b2052455454454c204d554d41423b33413641,
0x3b3b3b3b3b4e3b3b3b3b3b4c3b303b6f4c3b45452052455454454c204d554d41423b34413641,
0x3b3b3b3b3b4e3b3b3b3b3b4c3b303b6f4c3b4545522052455454454c204d554d41423b35413641,
0x3b3b3b3b3b4e3b3b3b3b3b4c3b303b6f4c3b4541542052455454454c204d554d41423b36413641,
0x3b3b3b3b3b4e3b3b3b3b3b4c3b303b6f4c3b4f2052455454454c204d554d41423b37413641,
0x3b3b3b3b3b4e3b3b3b3b3b4c3b303b6f4c3b49594e2052455454454c204d554d41423b38413641,
0x3b3b3b3b3b4e3b3b3b3b3b4c3b303b6f4c3b492052455454454c204d554d41423b39413641,
0x3b3b3b3b3b4e3b3b3b3b3b4c3b303b6f4c3b414c2052455454454c204d554d41423b41413641,
0x3b3b3b3b3b4e3b3b3b3b3b4c3b303b6f4c3b41502052455454454c204d554d41423b42413641,
0x3b3b3b3b3b4e3b3b3b3b3b4c3b303b6f4c3b4949522052455454454c204d554d41423b43413641,
0x3b3b3b3b3b4e3b3b3b3b3b4c3b303b6f4c3b454549522052455454454c204d554d41423b44413641,
0x3b3b3b3b3b4e3b3b3b3b3b4c3b303b6f4c3b454545454c2052455454454c204d554d41423b45413641,
0x3b3b3b3b3b4e3b3b3b3b3b4c3b303b6f4c3b454545454d2052455454454c204d554d41423b46413641,
0x3b3b3b3b3b4e3b3b3b3b3b4c3b303b6f4c3b4141542052455454454c204d554d41423b30423641,
0x3b3b3b3b3b4e3b3b3b3b3b4c3b303b6f4c3b4141444e2052455454454c204d554d41423b31423641,
0x3b3b3b3b3b4e3b3b3b3b3b4c3b303b6f4c3b4d45414a4e2052455454454c204d554d41423b32423641,
0x3b3b3b3b3b4e3b3b3b3b3b4c3b303b6f4c3b4d2052455454454c204d554d41423b33423641,
0x3b3b3b3b3b4e3b3b3b3b3b4c3b303b6f4c3b5555532052455454454c204d554d41423b34423641,
0x3b3b3b3b3b4e3b3b3b3b3b4c3b303b6f4c3b554d2052455454454c204d554d41423b35423641,
0x3b3b3b3b3b4e3b3b3b3b3b4c3b303b6f4c3b494948532052455454454c204d554d41423b36423641,
0x3b3b3b3b3b4e3b3b3b3b3b4c3b303b6f4c3b49532052455454454c204d554d41423b37423641,
0x3b3b3b3b3b4e3b3b3b3b3b4c3b303b6f4c3b58554548532052455454454c204d554d41423b38423641,
0x3b3b3b3b3b4e3b3b3b3b3b4c3b303b6f4c3b585545532052455454454c204d554d41423b39423641,
0x3b3b3b3b3b4e3b3b3b3b3b4c3b303b6f4c3b4545594b2052455454454c204d554d41423b41423641,
0x3b3b3b3b3b4e3b3b3b3b3b4c3b303b6f4c3b54454b2052455454454c204d554d41423b42423641,
0x3b3b3b3b3b4e3b3b3b3b3b4c3b303b6f4c3b4541554e2052455454454c204d554d41423b43423641,
0x3b3b3b3b3b4e3b3b3b3b3b4c3b303b6f4c3b554e2052455454454c204d554d41423b44423641,
0x3b3b3b3b3b4e3b3b3b3b3b4c3b303b6f4c3b4541554a4e2052455454454c204d554d41423b45423641,
0x3b3b3b3b3b4e3b3b3b3b3b4c3b303b6f4c3b514f592052455454454c204d554d41423b46423641,
0x3b3b3b3b3b4e3b3b3b3b3b4c3b303b6f4c3b5548532052455454454c204d554d41423b30433641,
0x3b3b3b3b3b4e3b3b3b3b3b4c3b303b6f4c3b5155592052455454454c204d554d41423b31433641,
0x3b3b3b3b3b4e3b3b3b3b3b4c3b303b6f4c3b41592052455454454c204d554d41423b32433641,
0x3b3b3b3b3b4e3b3b3b3b3b4c3b303b6f4c3b4148534e2052455454454c204d554d41423b33433641,
0x3b3b3b3b3b4e3b3b3b3b3b4c3b303b6f4c3b5855454b2052455454454c204d554d41423b34433641,
0x3b3b3b3b3b4e3b3b3b3b3b4c3b303b6f4c3b585545502052455454454c204d554d41423b35433641,
0x3b3b3b3b3b4e3b3b3b3b3b4c3b303b6f4c3b45454a4e2052455454454c204d554d41423b36433641,
0x3b3b3b3b3b4e3b3b3b3b3b4c3b303b6f4c3b4545544e2052455454454c204d554d41423b37433641,
0x3b3b3b3b3b4e3b3b3b3b3b4c3b303b6f4c3b4555502052455454454c204d554d41423b38433641,
0x3b3b3b3b3b4e3b3b3b3b3b4c3b303b6f4c3b4555572052455454454c204d554d41423b39433641,
0x3b3b3b3b3b4e3b3b3b3b3b4c3b303b6f4c3b4545502052455454454c204d554d41423b41433641,
0x3b3b3b3b3b4e3b3b3b3b3b4c3b303b6f4c3b4545462052455454454c204d554d41423b42433641,
0x3b3b3b3b3b4e3b3b3b3b3b4c3b303b6f4c3b55522052455454454c204d554d41423b43433641,
0x3b3b3b3b3b4e3b3b3b3b3b4c3b303b6f4c3b554c2052455454454c204d554d41423b44433641,
0x3b3b3b3b3b4e3b3b3b3b3b4c3b303b6f4c3b494d2052455454454c204d554d41423b45433641,
0x3b3b3b3b3b4e3b3b3b3b3b4c3b303b6f4c3b494e2052455454454c204d554d41423b46433641,
0x3b3b3b3b3b4e3b3b3b3b3b4c3b303b6f4c3b585545522052455454454c204d554d41423b30443641,
0x3b3b3b3b3b4e3b3b3b3b3b4c3b303b6f4c3b4541522052455454454c204d554d41423b31443641,
0x3b3b3b3b3b4e3b3b3b3b3b4c3b303b6f4c3b4e454b2052455454454c204d554d41423b32443641,
0x3b3b3b3b3b4e3b3b3b3b3b4c3b303b6f4c3b4e4541574b474e2052455454454c204d554d41423b33443641,
0x3b3b3b3b3b4e3b3b3b3b3b4c3b303b6f4c3b4147474e2052455454454c204d554d41423b34443641,
0x3b3b3b3b3b4e3b3b3b3b3b4c3b303b6f4c3b41474e2052455454454c204d554d41423b35443641,
0x3b3b3b3b3b4e3b3b3b3b3b4c3b303b6f4c3b4f48532052455454454c204d554d41423b36443641,
0x3b3b3b3b3b4e3b3b3b3b3b4c3b303b6f4c3b454155502052455454454c204d554d41423b37443641,
0x3b3b3b3b3b4e3b3b3b3b3b4c3b303b6f4c3b55462052455454454c204d554d41423b38443641,
0x3b3b3b3b3b4e3b3b3b3b3b4c3b303b6f4c3b4d4f462052455454454c204d554d41423b39443641,
0x3b3b3b3b3b4e3b3b3b3b3b4c3b303b6f4c3b41572052455454454c204d554d41423b41443641,
0x3b3b3b3b3b4e3b3b3b3b3b4c3b303b6f4c3b414e2052455454454c204d554d41423b42443641,
0x3b3b3b3b3b4e3b3b3b3b3b4c3b303b6f4c3b494c2052455454454c204d554d41423b43443641,
0x3b3b3b3b3b4e3b3b3b3b3b4c3b303b6f4c3b49502052455454454c204d554d41423b44443641,
0x3b3b3b3b3b4e3b3b3b3b3b4c3b303b6f4c3b514f4c2052455454454c204d554d41423b45443641,
0x3b3b3b3b3b4e3b3b3b3b3b4c3b303b6f4c3b4f4b2052455454454c204d554d41423b46443641,
0x3b3b3b3b3b4e3b3b3b3b3b4c3b303b6f4c3b4e45424d2052455454454c204d554d41423b30453641,
0x3b3b3b3b3b4e3b3b3b3b3b4c3b303b6f4c3b4e45522052455454454c204d554d41423b31453641,
0x3b3b3b3b3b4e3b3b3b3b3b4c3b303b6f4c3b4e454d2052455454454c204d554d41423b32453641,
0x3b3b3b3b3b4e3b3b3b3b3b4c3b303b6f4c3b414d2052455454454c204d554d41423b33453641,
0x3b3b3b3b3b4e3b3b3b3b3b4c3b303b6f4c3b49542052455454454c204d554d41423b34453641,
0x3b3b3b3b3b4e3b3b3b3b3b4c3b303b6f4c3b494b2052455454454c204d554d41423b35453641,
0x3b3b3b3b3b4e3b313b3b3b3b4c3b303b6c4e3b4f4d2052455454454c204d554d41423b36453641,
0x3b3b3b3b3b4e3b323b3b3b3b4c3b303b6c4e3b4141424d2052455454454c204d554d41423b37453641,
0x3b3b3b3b3b4e3b333b3b3b3b4c3b303b6c4e3b5445542052455454454c204d554d41423b38453641,
0x3b3b3b3b3b4e3b343b3b3b3b4c3b303b6c4e3b41504b2052455454454c204d554d41423b39453641,
0x3b3b3b3b3b4e3b353b3b3b3b4c3b303b6c4e3b4e45542052455454454c204d554d41423b41453641,
0x3b3b3b3b3b4e3b363b3b3b3b4c3b303b6c4e3b5555544e2052455454454c204d554d41423b42453641,
0x3b3b3b3b3b4e3b373b3b3b3b4c3b303b6c4e3b41424d41532052455454454c204d554d41423b43453641,
0x3b3b3b3b3b4e3b383b3b3b3b4c3b303b6c4e3b45414d4141462052455454454c204d554d41423b44453641,
0x3b3b3b3b3b4e3b393b3b3b3b4c3b303b6c4e3b5555564f4b2052455454454c204d554d41423b45453641,
0x3b3b3b3b3b4e3b303b3b3b3b4c3b303b6c4e3b4d4f48474f4b2052455454454c204d554d41423b46453641,
0x3b3b3b3b3b4e3b3b3b3b3b4d534e3b3033323b6e4d3b4e4f444e514f4b204b52414d20474e494e49424d4f43204d554d41423b30463641,
0x3b3b3b3b3b4e3b3b3b3b3b4d534e3b3033323b6e4d3b5349544e45574b5554204b52414d20474e494e49424d4f43204d554d41423b31463641,
0x3b3b3b3b3b4e3b3b3b3b3b4c3b303b6f503b494c4d45414a4e204d554d41423b32463641,
0x3b3b3b3b3b4e3b3b3b3b3b4c3b303b6f503b504f5453204c4c5546204d554d41423b33463641,
0x3b3b3b3b3b4e3b3b3b3b3b4c3b303b6f503b4e4f4c4f43204d554d41423b34463641,
0x3b3b3b3b3b4e3b3b3b3b3b4c3b303b6f503b414d4d4f43204d554d41423b35463641,
0x3b3b3b3b3b4e3b3b3b3b3b4c3b303b6f503b4e4f4c4f43494d4553204d554d41423b36463641,
0x3b3b3b3b3b4e3b3b3b3b3b4c3b303b6f503b4b52414d204e4f495453455551204d554d41423b37463641,
0x3b3b3b3b3b4e3b3b3b3b3b4e4f3b303b6b533b474e4950204e495920454e4f54204553454e4948432052455454454c205245494649444f4d3b30303741,
0x3b3b3b3b3b4e3b3b3b3b3b4e4f3b303b6b533b474e495020474e415920454e4f54204553454e4948432052455454454c205245494649444f4d3b31303741,
0x3b3b3b3b3b4e3b3b3b3b3b4e4f3b303b6b533b474e414853204e495920454e4f54204553454e4948432052455454454c205245494649444f4d3b32303741,
0x3b3b3b3b3b4e3b3b3b3b3b4e4f3b303b6b533b474e41485320474e415920454e4f54204553454e4948432052455454454c205245494649444f4d3b33303741,
0x3b3b3b3b3b4e3b3b3b3b3b4e4f3b303b6b533b5551204e495920454e4f54204553454e4948432052455454454c205245494649444f4d3b34303741,
0x3b3b3b3b3b4e3b3b3b3b3b4e4f3b303b6b533b555120474e415920454e4f54204553454e4948432052455454454c205245494649444f4d3b35303741,
0x3b3b3b3b3b4e3b3b3b3b3b4e4f3b303b6b533b5552204e495920454e4f54204553454e4948432052455454454c205245494649444f4d3b36303741,
0x3b3b3b3b3b4e3b3b3b3b3b4e4f3b303b6b533b555220474e415920454e4f54204553454e4948432052455454454c205245494649444f4d3b37303741,
0x3b3b3b3b3b4e3b3b3b3b3b4e4f3b303b6b533b52414220454e4f5420444554544f4420484749482d41525458452052455454454c205245494649444f4d3b38303741,
0x3b3b3b3b3b4e3b3b3b3b3b4e4f3b303b6b533b52414220454e4f5420444554544f4420484749482052455454454c205245494649444f4d3b39303741,
0x3b3b3b3b3b4e3b3b3b3b3b4e4f3b303b6b533b52414220454e4f5420444554544f442044494d2052455454454c205245494649444f4d3b41303741,
0x3b3b3b3b3b4e3b3b3b3b3b4e4f3b303b6b533b52414220454e4f5420444554544f4420574f4c2052455454454c205245494649444f4d3b42303741,
0x3b3b3b3b3b4e3b3b3b3b3b4e4f3b303b6b533b52414220454e4f5420444554544f4420574f4c2d41525458452052455454454c205245494649444f4d3b43303741,
0x3b3b3b3b3b4e3b3b3b3b3b4e4f3b303b6b533b52414220454e4f54204d4554532d5446454c20444554544f4420484749482d41525458452052455454454c205245494649444f4d3b44303741,
0x3b3b3b3b3b4e3b3b3b3b3b4e4f3b303b6b533b52414220454e4f54204d4554532d5446454c20444554544f4420484749482052455454454c205245494649444f4d3b45303741,
0x3b3b3b3b3b4e3b3b3b3b3b4e4f3b303b6b533b52414220454e4f54204d4554532d5446454c20444554544f442044494d2052455454454c205245494649444f4d3b46303741,
0x3b3b3b3b3b4e3b3b3b3b3b4e4f3b303b6b533b52414220454e4f54204d4554532d5446454c20444554544f4420574f4c2052455454454c205245494649444f4d3b30313741,
0x3b3b3b3b3b4e3b3b3b3b3b4e4f3b303b6b533b52414220454e4f54204d4554532d5446454c20444554544f4420574f4c2d41525458452052455454454c205245494649444f4d3b31313741,
0x3b3b3b3b3b4e3b3b3b3b3b4e4f3b303b6b533b52414220454e4f54204d4554532d5446454c20484749482d41525458452052455454454c205245494649444f4d3b32313741,
0x3b3b3b3b3b4e3b3b3b3b3b4e4f3b303b6b533b52414220454e4f54204d4554532d5446454c20484749482052455454454c205245494649444f4d3b33313741,
0x3b3b3b3b3b4e3b3b3b3b3b4e4f3b303b6b533b52414220454e4f54204d4554532d5446454c2044494d2052455454454c205245494649444f4d3b34313741,
0x3b3b3b3b3b4e3b3b3b3b3b4e4f3b303b6b533b52414220454e4f54204d4554532d5446454c20574f4c2052455454454c205245494649444f4d3b35313741,
0x3b3b3b3b3b4e3b3b3b3b3b4e4f3b303b6b533b52414220454e4f54204d4554532d5446454c20574f4c2d41525458452052455454454c205245494649444f4d3b36313741,
0x3b3b3b3b3b4e3b3b3b3b3b4e4f3b303b6d4c3b524142204c4143495452455620544f442052455454454c205245494649444f4d3b37313741,
0x3b3b3b3b3b4e3b3b3b3b3b4e4f3b303b6d4c3b4853414c5320544f442052455454454c205245494649444f4d3b38313741,
0x3b3b3b3b3b4e3b3b3b3b3b4e4f3b303b6d4c3b524142204c41544e4f5a49524f4820544f442052455454454c205245494649444f4d3b39313741,
0x3b3b3b3b3b4e3b3b3b3b3b4e4f3b303b6d4c3b454c474e412052454e524f43205448474952205245574f4c2052455454454c205245494649444f4d3b41313741,
0x3b3b3b3b3b4e3b3b3b3b3b4e4f3b303b6d4c3b574f525241205055204445534941522052455454454c205245494649444f4d3b42313741,
0x3b3b3b3b3b4e3b3b3b3b3b4e4f3b303b6d4c3b574f525241204e574f44204445534941522052455454454c205245494649444f4d3b43313741,
0x3b3b3b3b3b4e3b3b3b3b3b4e4f3b303b6d4c3b4b52414d204e4f4954414d414c435845204445534941522052455454454c205245494649444f4d3b44313741,
0x3b3b3b3b3b4e3b3b3b3b3b4e4f3b303b6d4c3b4b52414d204e4f4954414d414c435845204445545245564e49204445534941522052455454454c205245494649444f4d3b45313741,
0x3b3b3b3b3b4e3b3b3b3b3b4e4f3b303b6d4c3b4b52414d204e4f4954414d414c435845204445545245564e4920574f4c2052455454454c205245494649444f4d3b46313741,
0x3b3b3b3b3b4e3b3b3b3b3b4e4f3b303b6b533b454e4f54204847494820444e41205353455254532052455454454c205245494649444f4d3b30323741,
0x3b3b3b3b3b4e3b3b3b3b3b4e4f3b303b6b533b454e4f5420574f4c20444e41205353455254532052455454454c205245494649444f4d3b31323741,
0x3b333237413b3b3b3b4e3b3b3b3b3b4c3b303b754c3b46454c41204c414349474f4c4f54505947452052455454454c204c415449504143204e4954414c3b32323741,
0x323237413b3b323237413b3b3b4e3b3b3b3b3b4c3b303b6c4c3b46454c41204c414349474f4c4f54505947452052455454454c204c4c414d53204e4954414c3b33323741,
0x3b353237413b3b3b3b4e3b3b3b3b3b4c3b303b754c3b4e4941204c414349474f4c4f54505947452052455454454c204c415449504143204e4954414c3b34323741,
0x343237413b3b343237413b3b3b4e3b3b3b3b3b4c3b303b6c4c3b4e4941204c414349474f4c4f54505947452052455454454c204c4c414d53204e4954414c3b35323741,
0x3b373237413b3b3b3b4e3b3b3b3b3b4c3b303b754c3b474e45482052455454454c204c415449504143204e4954414c3b36323741,
0x363237413b3b363237413b3b3b4e3b3b3b3b3b4c3b303b6c4c3b474e45482052455454454c204c4c414d53204e4954414c3b37323741,
0x3b393237413b3b3b3b4e3b3b3b3b3b4c3b303b754c3b5a542052455454454c204c415449504143204e4954414c3b38323741,
0x383237413b3b383237413b3b3b4e3b3b3b3b3b4c3b303b6c4c3b5a542052455454454c204c4c414d53204e4954414c3b39323741,
0x3b423237413b3b3b3b4e3b3b3b3b3b4c3b303b754c3b4f4c4c49534552542052455454454c204c415449504143204e4954414c3b41323741,
0x413237413b3b413237413b3b3b4e3b3b3b3b3b4c3b303b6c4c3b4f4c4c49534552542052455454454c204c4c414d53204e4954414c3b42323741,
0x3b443237413b3b3b3b4e3b3b3b3b3b4c3b303b754c3b4f4c4c4952544155432052455454454c204c415449504143204e4954414c3b43323741,
0x433237413b3b433237413b3b3b4e3b3b3b3b3b4c3b303b6c4c3b4f4c4c4952544155432052455454454c204c4c414d53204e4954414c3b44323741,
0x3b463237413b3b3b3b4e3b3b3b3b3b4c3b303b754c3b414d4d4f432048544957204f4c4c4952544155432052455454454c204c415449504143204e4954414c3b45323741,
0x453237413b3b453237413b3b3b4e3b3b3b3b3b4c3b303b6c4c3b414d4d4f432048544957204f4c4c4952544155432052455454454c204c4c414d53204e4954414c3b46323741,
0x3b3b3b3b3b4e3b3b3b3b3b4c3b303b6c4c3b46204c415449504143204c4c414d532052455454454c204e4954414c3b30333741,
0x3b3b3b3b3b4e3b3b3b3b3b4c3b303b6c4c3b53204c415449504143204c4c414d532052455454454c204e4954414c3b31333741,
0x3b333337413b3b3b3b4e3b3b3b3b3b4c3b303b754c3b41412052455454454c204c415449504143204e4954414c3b32333741,
0x323337413b3b323337413b3b3b4e3b3b3b3b3b4c3b303b6c4c3b41412052455454454c204c4c414d53204e4954414c3b33333741,
0x3b353337413b3b3b3b4e3b3b3b3b3b4c3b303b754c3b4f412052455454454c204c415449504143204e4954414c3b34333741]

/-- src/u5e/props/UnicodeData.txt lines 13825-14080. -/
def rawUcd54 : List Nat := [
0x343337413b3b343337413b3b3b4e3b3b3b3b3b4c3b303b6c4c3b4f412052455454454c204c4c414d53204e4954414c3b35333741,
0x3b373337413b3b3b3b4e3b3b3b3b3b4c3b303b754c3b55412052455454454c204c415449504143204e4954414c3b36333741,
0x363337413b3b363337413b3b3b4e3b3b3b3b3b4c3b303b6c4c3b55412052455454454c204c4c414d53204e4954414c3b37333741,
0x3b393337413b3b3b3b4e3b3b3b3b3b4c3b303b754c3b56412052455454454c204c415449504143204e4954414c3b38333741,
0x383337413b3b383337413b3b3b4e3b3b3b3b3b4c3b303b6c4c3b56412052455454454c204c4c414d53204e4954414c3b39333741,
0x3b423337413b3b3b3b4e3b3b3b3b3b4c3b303b754c3b524142204c41544e4f5a49524f4820485449572056412052455454454c204c415449504143204e4954414c3b41333741,
0x413337413b3b413337413b3b3b4e3b3b3b3b3b4c3b303b6c4c3b524142204c41544e4f5a49524f4820485449572056412052455454454c204c4c414d53204e4954414c3b42333741,
0x3b443337413b3b3b3b4e3b3b3b3b3b4c3b303b754c3b59412052455454454c204c415449504143204e4954414c3b43333741,
0x433337413b3b433337413b3b3b4e3b3b3b3b3b4c3b303b6c4c3b59412052455454454c204c4c414d53204e4954414c3b44333741,
0x3b463337413b3b3b3b4e3b3b3b3b3b4c3b303b754c3b544f44204854495720432044455352455645522052455454454c204c415449504143204e4954414c3b45333741,
0x453337413b3b453337413b3b3b4e3b3b3b3b3b4c3b303b6c4c3b544f44204854495720432044455352455645522052455454454c204c4c414d53204e4954414c3b46333741,
0x3b313437413b3b3b3b4e3b3b3b3b3b4c3b303b754c3b454b4f5254532048544957204b2052455454454c204c415449504143204e4954414c3b30343741,
0x303437413b3b303437413b3b3b4e3b3b3b3b3b4c3b303b6c4c3b454b4f5254532048544957204b2052455454454c204c4c414d53204e4954414c3b31343741,
0x3b333437413b3b3b3b4e3b3b3b3b3b4c3b303b754c3b454b4f525453204c414e4f474149442048544957204b2052455454454c204c415449504143204e4954414c3b32343741,
0x323437413b3b323437413b3b3b4e3b3b3b3b3b4c3b303b6c4c3b454b4f525453204c414e4f474149442048544957204b2052455454454c204c4c414d53204e4954414c3b33343741,
0x3b353437413b3b3b3b4e3b3b3b3b3b4c3b303b754c3b454b4f525453204c414e4f4741494420444e4120454b4f5254532048544957204b2052455454454c204c415449504143204e4954414c3b34343741,
0x343437413b3b343437413b3b3b4e3b3b3b3b3b4c3b303b6c4c3b454b4f525453204c414e4f4741494420444e4120454b4f5254532048544957204b2052455454454c204c4c414d53204e4954414c3b35343741,
0x3b373437413b3b3b3b4e3b3b3b3b3b4c3b303b754c3b4c204e454b4f52422052455454454c204c415449504143204e4954414c3b36343741,
0x363437413b3b363437413b3b3b4e3b3b3b3b3b4c3b303b6c4c3b4c204e454b4f52422052455454454c204c4c414d53204e4954414c3b37343741,
0x3b393437413b3b3b3b4e3b3b3b3b3b4c3b303b754c3b454b4f52545320484749482048544957204c2052455454454c204c415449504143204e4954414c3b38343741,
0x383437413b3b383437413b3b3b4e3b3b3b3b3b4c3b303b6c4c3b454b4f52545320484749482048544957204c2052455454454c204c4c414d53204e4954414c3b39343741,
0x3b423437413b3b3b3b4e3b3b3b3b3b4c3b303b754c3b59414c5245564f20454b4f52545320474e4f4c2048544957204f2052455454454c204c415449504143204e4954414c3b41343741,
0x413437413b3b413437413b3b3b4e3b3b3b3b3b4c3b303b6c4c3b59414c5245564f20454b4f52545320474e4f4c2048544957204f2052455454454c204c4c414d53204e4954414c3b42343741,
0x3b443437413b3b3b3b4e3b3b3b3b3b4c3b303b754c3b504f4f4c2048544957204f2052455454454c204c415449504143204e4954414c3b43343741,
0x433437413b3b433437413b3b3b4e3b3b3b3b3b4c3b303b6c4c3b504f4f4c2048544957204f2052455454454c204c4c414d53204e4954414c3b44343741,
0x3b463437413b3b3b3b4e3b3b3b3b3b4c3b303b754c3b4f4f2052455454454c204c415449504143204e4954414c3b45343741,
0x453437413b3b453437413b3b3b4e3b3b3b3b3b4c3b303b6c4c3b4f4f2052455454454c204c4c414d53204e4954414c3b46343741,
0x3b313537413b3b3b3b4e3b3b3b3b3b4c3b303b754c3b5245444e4543534544204847554f52485420454b4f525453204854495720502052455454454c204c415449504143204e4954414c3b30353741,
0x303537413b3b303537413b3b3b4e3b3b3b3b3b4c3b303b6c4c3b5245444e4543534544204847554f52485420454b4f525453204854495720502052455454454c204c4c414d53204e4954414c3b31353741,
0x3b333537413b3b3b3b4e3b3b3b3b3b4c3b303b754c3b48534952554f4c46204854495720502052455454454c204c415449504143204e4954414c3b32353741,
0x323537413b3b323537413b3b3b4e3b3b3b3b3b4c3b303b6c4c3b48534952554f4c46204854495720502052455454454c204c4c414d53204e4954414c3b33353741,
0x3b353537413b3b3b3b4e3b3b3b3b3b4c3b303b754c3b4c494154204c45525249555153204854495720502052455454454c204c415449504143204e4954414c3b34353741,
0x343537413b3b343537413b3b3b4e3b3b3b3b3b4c3b303b6c4c3b4c494154204c45525249555153204854495720502052455454454c204c4c414d53204e4954414c3b35353741,
0x3b373537413b3b3b3b4e3b3b3b3b3b4c3b303b754c3b5245444e4543534544204847554f52485420454b4f525453204854495720512052455454454c204c415449504143204e4954414c3b36353741,
0x363537413b3b363537413b3b3b4e3b3b3b3b3b4c3b303b6c4c3b5245444e4543534544204847554f52485420454b4f525453204854495720512052455454454c204c4c414d53204e4954414c3b37353741,
0x3b393537413b3b3b3b4e3b3b3b3b3b4c3b303b754c3b454b4f525453204c414e4f47414944204854495720512052455454454c204c415449504143204e4954414c3b38353741,
0x383537413b3b383537413b3b3b4e3b3b3b3b3b4c3b303b6c4c3b454b4f525453204c414e4f47414944204854495720512052455454454c204c4c414d53204e4954414c3b39353741,
0x3b423537413b3b3b3b4e3b3b3b3b3b4c3b303b754c3b41444e55544f5220522052455454454c204c415449504143204e4954414c3b41353741,
0x413537413b3b413537413b3b3b4e3b3b3b3b3b4c3b303b6c4c3b41444e55544f5220522052455454454c204c4c414d53204e4954414c3b42353741,
0x3b443537413b3b3b3b4e3b3b3b3b3b4c3b303b754c3b41444e55544f52204d55522052455454454c204c415449504143204e4954414c3b43353741,
0x433537413b3b433537413b3b3b4e3b3b3b3b3b4c3b303b6c4c3b41444e55544f52204d55522052455454454c204c4c414d53204e4954414c3b44353741,
0x3b463537413b3b3b3b4e3b3b3b3b3b4c3b303b754c3b454b4f525453204c414e4f47414944204854495720562052455454454c204c415449504143204e4954414c3b45353741,
0x453537413b3b453537413b3b3b4e3b3b3b3b3b4c3b303b6c4c3b454b4f525453204c414e4f47414944204854495720562052455454454c204c4c414d53204e4954414c3b46353741,
0x3b313637413b3b3b3b4e3b3b3b3b3b4c3b303b754c3b59562052455454454c204c415449504143204e4954414c3b30363741,
0x303637413b3b303637413b3b3b4e3b3b3b3b3b4c3b303b6c4c3b59562052455454454c204c4c414d53204e4954414c3b31363741,
0x3b333637413b3b3b3b4e3b3b3b3b3b4c3b303b754c3b5a20434948544f47495349562052455454454c204c415449504143204e4954414c3b32363741,
0x323637413b3b323637413b3b3b4e3b3b3b3b3b4c3b303b6c4c3b5a20434948544f47495349562052455454454c204c4c414d53204e4954414c3b33363741,
0x3b353637413b3b3b3b4e3b3b3b3b3b4c3b303b754c3b454b4f5254532048544957204e524f48542052455454454c204c415449504143204e4954414c3b34363741,
0x343637413b3b343637413b3b3b4e3b3b3b3b3b4c3b303b6c4c3b454b4f5254532048544957204e524f48542052455454454c204c4c414d53204e4954414c3b35363741,
0x3b373637413b3b3b3b4e3b3b3b3b3b4c3b303b754c3b5245444e4543534544204847554f52485420454b4f5254532048544957204e524f48542052455454454c204c415449504143204e4954414c3b36363741,
0x363637413b3b363637413b3b3b4e3b3b3b3b3b4c3b303b6c4c3b5245444e4543534544204847554f52485420454b4f5254532048544957204e524f48542052455454454c204c4c414d53204e4954414c3b37363741,
0x3b393637413b3b3b3b4e3b3b3b3b3b4c3b303b754c3b444e45562052455454454c204c415449504143204e4954414c3b38363741,
0x383637413b3b383637413b3b3b4e3b3b3b3b3b4c3b303b6c4c3b444e45562052455454454c204c4c414d53204e4954414c3b39363741,
0x3b423637413b3b3b3b4e3b3b3b3b3b4c3b303b754c3b54452052455454454c204c415449504143204e4954414c3b41363741,
0x413637413b3b413637413b3b3b4e3b3b3b3b3b4c3b303b6c4c3b54452052455454454c204c4c414d53204e4954414c3b42363741,
0x3b443637413b3b3b3b4e3b3b3b3b3b4c3b303b754c3b53492052455454454c204c415449504143204e4954414c3b43363741,
0x433637413b3b433637413b3b3b4e3b3b3b3b3b4c3b303b6c4c3b53492052455454454c204c4c414d53204e4954414c3b44363741,
0x3b463637413b3b3b3b4e3b3b3b3b3b4c3b303b754c3b4e4f432052455454454c204c415449504143204e4954414c3b45363741,
0x453637413b3b453637413b3b3b4e3b3b3b3b3b4c3b303b6c4c3b4e4f432052455454454c204c4c414d53204e4954414c3b46363741,
0x3b3b3b3b3b4e3b3b3b3b46363741203e72657075733c3b4c3b303b6d4c3b53552052455454454c205245494649444f4d3b30373741,
0x3b3b3b3b3b4e3b3b3b3b3b4c3b303b6c4c3b4d55442052455454454c204c4c414d53204e4954414c3b31373741,
0x3b3b3b3b3b4e3b3b3b3b3b4c3b303b6c4c3b4d554c2052455454454c204c4c414d53204e4954414c3b32373741,
0x3b3b3b3b3b4e3b3b3b3b3b4c3b303b6c4c3b4d554d2052455454454c204c4c414d53204e4954414c3b33373741,
0x3b3b3b3b3b4e3b3b3b3b3b4c3b303b6c4c3b4d554e2052455454454c204c4c414d53204e4954414c3b34373741,
0x3b3b3b3b3b4e3b3b3b3b3b4c3b303b6c4c3b4d55522052455454454c204c4c414d53204e4954414c3b35373741,
0x3b3b3b3b3b4e3b3b3b3b3b4c3b303b6c4c3b4d5552204c415449504143204c4c414d532052455454454c204e4954414c3b36373741,
0x3b3b3b3b3b4e3b3b3b3b3b4c3b303b6c4c3b4d55542052455454454c204c4c414d53204e4954414c3b37373741,
0x3b3b3b3b3b4e3b3b3b3b3b4c3b303b6c4c3b4d552052455454454c204c4c414d53204e4954414c3b38373741,
0x3b413737413b3b3b3b4e3b3b3b3b3b4c3b303b754c3b442052414c55534e492052455454454c204c415449504143204e4954414c3b39373741,
0x393737413b3b393737413b3b3b4e3b3b3b3b3b4c3b303b6c4c3b442052414c55534e492052455454454c204c4c414d53204e4954414c3b41373741,
0x3b433737413b3b3b3b4e3b3b3b3b3b4c3b303b754c3b462052414c55534e492052455454454c204c415449504143204e4954414c3b42373741,
0x423737413b3b423737413b3b3b4e3b3b3b3b3b4c3b303b6c4c3b462052414c55534e492052455454454c204c4c414d53204e4954414c3b43373741,
0x3b393744313b3b3b3b4e3b3b3b3b3b4c3b303b754c3b472052414c55534e492052455454454c204c415449504143204e4954414c3b44373741,
0x3b463737413b3b3b3b4e3b3b3b3b3b4c3b303b754c3b472052414c55534e492044454e5255542052455454454c204c415449504143204e4954414c3b45373741,
0x453737413b3b453737413b3b3b4e3b3b3b3b3b4c3b303b6c4c3b472052414c55534e492044454e5255542052455454454c204c4c414d53204e4954414c3b46373741,
0x3b313837413b3b3b3b4e3b3b3b3b3b4c3b303b754c3b4c2044454e5255542052455454454c204c415449504143204e4954414c3b30383741,
0x303837413b3b303837413b3b3b4e3b3b3b3b3b4c3b303b6c4c3b4c2044454e5255542052455454454c204c4c414d53204e4954414c3b31383741,
0x3b333837413b3b3b3b4e3b3b3b3b3b4c3b303b754c3b522052414c55534e492052455454454c204c415449504143204e4954414c3b32383741,
0x323837413b3b323837413b3b3b4e3b3b3b3b3b4c3b303b6c4c3b522052414c55534e492052455454454c204c4c414d53204e4954414c3b33383741,
0x3b353837413b3b3b3b4e3b3b3b3b3b4c3b303b754c3b532052414c55534e492052455454454c204c415449504143204e4954414c3b34383741,
0x343837413b3b343837413b3b3b4e3b3b3b3b3b4c3b303b6c4c3b532052414c55534e492052455454454c204c4c414d53204e4954414c3b35383741,
0x3b373837413b3b3b3b4e3b3b3b3b3b4c3b303b754c3b542052414c55534e492052455454454c204c415449504143204e4954414c3b36383741,
0x363837413b3b363837413b3b3b4e3b3b3b3b3b4c3b303b6c4c3b542052414c55534e492052455454454c204c4c414d53204e4954414c3b37383741,
0x3b3b3b3b3b4e3b3b3b3b3b4e4f3b303b6d4c3b544e454343412058454c464d554352494320574f4c2052455454454c205245494649444f4d3b38383741,
0x3b3b3b3b3b4e3b3b3b3b3b4c3b303b6b533b4e4f4c4f432052455454454c205245494649444f4d3b39383741,
0x3b3b3b3b3b4e3b3b3b3b3b4c3b303b6b533b4e47495320534c415551452054524f48532052455454454c205245494649444f4d3b41383741,
0x3b433837413b3b3b3b4e3b3b3b3b3b4c3b303b754c3b4f4c4c49544c41532052455454454c204c415449504143204e4954414c3b42383741,
0x423837413b3b423837413b3b3b4e3b3b3b3b3b4c3b303b6c4c3b4f4c4c49544c41532052455454454c204c4c414d53204e4954414c3b43383741,
0x3b353632303b3b3b3b4e3b3b3b3b3b4c3b303b754c3b482044454e5255542052455454454c204c415449504143204e4954414c3b44383741,
0x3b3b3b3b3b4e3b3b3b3b3b4c3b303b6c4c3b544c454220444e41204b4f4f482058454c464f525445522048544957204c2052455454454c204c4c414d53204e4954414c3b45383741,
0x3b3b3b3b3b4e3b3b3b3b3b4c3b303b6f4c3b544f44204c414349474f4c4f4e49532052455454454c204e4954414c3b46383741,
0x3b313937413b3b3b3b4e3b3b3b3b3b4c3b303b754c3b5245444e45435345442048544957204e2052455454454c204c415449504143204e4954414c3b30393741,
0x303937413b3b303937413b3b3b4e3b3b3b3b3b4c3b303b6c4c3b5245444e45435345442048544957204e2052455454454c204c4c414d53204e4954414c3b31393741,
0x3b333937413b3b3b3b4e3b3b3b3b3b4c3b303b754c3b524142204854495720432052455454454c204c415449504143204e4954414c3b32393741,
0x323937413b3b323937413b3b3b4e3b3b3b3b3b4c3b303b6c4c3b524142204854495720432052455454454c204c4c414d53204e4954414c3b33393741,
0x3b3b3b3b3b4e3b3b3b3b3b4c3b303b6c4c3b4b4f4f48204c4154414c4150204854495720432052455454454c204c4c414d53204e4954414c3b34393741,
0x3b3b3b3b3b4e3b3b3b3b3b4c3b303b6c4c3b4b4f4f48204c4154414c4150204854495720482052455454454c204c4c414d53204e4954414c3b35393741,
0x3b373937413b3b3b3b4e3b3b3b3b3b4c3b303b754c3b48534952554f4c46204854495720422052455454454c204c415449504143204e4954414c3b36393741,
0x363937413b3b363937413b3b3b4e3b3b3b3b3b4c3b303b6c4c3b48534952554f4c46204854495720422052455454454c204c4c414d53204e4954414c3b37393741,
0x3b393937413b3b3b3b4e3b3b3b3b3b4c3b303b754c3b454b4f525453204854495720462052455454454c204c415449504143204e4954414c3b38393741,
0x383937413b3b383937413b3b3b4e3b3b3b3b3b4c3b303b6c4c3b454b4f525453204854495720462052455454454c204c4c414d53204e4954414c3b39393741,
0x3b423937413b3b3b3b4e3b3b3b3b3b4c3b303b754c3b4541204b5550414c4f562052455454454c204c415449504143204e4954414c3b41393741,
0x413937413b3b413937413b3b3b4e3b3b3b3b3b4c3b303b6c4c3b4541204b5550414c4f562052455454454c204c4c414d53204e4954414c3b42393741,
0x3b443937413b3b3b3b4e3b3b3b3b3b4c3b303b754c3b454f204b5550414c4f562052455454454c204c415449504143204e4954414c3b43393741,
0x433937413b3b433937413b3b3b4e3b3b3b3b3b4c3b303b6c4c3b454f204b5550414c4f562052455454454c204c4c414d53204e4954414c3b44393741,
0x3b463937413b3b3b3b4e3b3b3b3b3b4c3b303b754c3b4555204b5550414c4f562052455454454c204c415449504143204e4954414c3b45393741,
0x453937413b3b453937413b3b3b4e3b3b3b3b3b4c3b303b6c4c3b4555204b5550414c4f562052455454454c204c4c414d53204e4954414c3b46393741,
0x3b314137413b3b3b3b4e3b3b3b3b3b4c3b303b754c3b454b4f52545320455551494c424f204854495720472052455454454c204c415449504143204e4954414c3b30413741,
0x304137413b3b304137413b3b3b4e3b3b3b3b3b4c3b303b6c4c3b454b4f52545320455551494c424f204854495720472052455454454c204c4c414d53204e4954414c3b31413741,
0x3b334137413b3b3b3b4e3b3b3b3b3b4c3b303b754c3b454b4f52545320455551494c424f2048544957204b2052455454454c204c415449504143204e4954414c3b32413741,
0x324137413b3b324137413b3b3b4e3b3b3b3b3b4c3b303b6c4c3b454b4f52545320455551494c424f2048544957204b2052455454454c204c4c414d53204e4954414c3b33413741,
0x3b354137413b3b3b3b4e3b3b3b3b3b4c3b303b754c3b454b4f52545320455551494c424f2048544957204e2052455454454c204c415449504143204e4954414c3b34413741,
0x344137413b3b344137413b3b3b4e3b3b3b3b3b4c3b303b6c4c3b454b4f52545320455551494c424f2048544957204e2052455454454c204c4c414d53204e4954414c3b35413741,
0x3b374137413b3b3b3b4e3b3b3b3b3b4c3b303b754c3b454b4f52545320455551494c424f204854495720522052455454454c204c415449504143204e4954414c3b36413741,
0x364137413b3b364137413b3b3b4e3b3b3b3b3b4c3b303b6c4c3b454b4f52545320455551494c424f204854495720522052455454454c204c4c414d53204e4954414c3b37413741,
0x3b394137413b3b3b3b4e3b3b3b3b3b4c3b303b754c3b454b4f52545320455551494c424f204854495720532052455454454c204c415449504143204e4954414c3b38413741,
0x384137413b3b384137413b3b3b4e3b3b3b3b3b4c3b303b6c4c3b454b4f52545320455551494c424f204854495720532052455454454c204c4c414d53204e4954414c3b39413741,
0x3b363632303b3b3b3b4e3b3b3b3b3b4c3b303b754c3b4b4f4f48204854495720482052455454454c204c415449504143204e4954414c3b41413741,
0x3b433532303b3b3b3b4e3b3b3b3b3b4c3b303b754c3b45204e45504f2044455352455645522052455454454c204c415449504143204e4954414c3b42413741,
0x3b313632303b3b3b3b4e3b3b3b3b3b4c3b303b754c3b47205450495243532052455454454c204c415449504143204e4954414c3b43413741,
0x3b433632303b3b3b3b4e3b3b3b3b3b4c3b303b754c3b544c45422048544957204c2052455454454c204c415449504143204e4954414c3b44413741,
0x3b413632303b3b3b3b4e3b3b3b3b3b4c3b303b754c3b49204c415449504143204c4c414d532052455454454c204c415449504143204e4954414c3b45413741,
0x3b453932303b3b3b3b4e3b3b3b3b3b4c3b303b754c3b4b2044454e5255542052455454454c204c415449504143204e4954414c3b30423741,
0x3b373832303b3b3b3b4e3b3b3b3b3b4c3b303b754c3b542044454e5255542052455454454c204c415449504143204e4954414c3b31423741,
0x3b443932303b3b3b3b4e3b3b3b3b3b4c3b303b754c3b4c4941542d444553534f52432048544957204a2052455454454c204c415449504143204e4954414c3b32423741,
0x3b333542413b3b3b3b4e3b3b3b3b3b4c3b303b754c3b4948432052455454454c204c415449504143204e4954414c3b33423741,
0x3b354237413b3b3b3b4e3b3b3b3b3b4c3b303b754c3b415445422052455454454c204c415449504143204e4954414c3b34423741,
0x344237413b3b344237413b3b3b4e3b3b3b3b3b4c3b303b6c4c3b415445422052455454454c204c4c414d53204e4954414c3b35423741,
0x3b374237413b3b3b3b4e3b3b3b3b3b4c3b303b754c3b4147454d4f2052455454454c204c415449504143204e4954414c3b36423741,
0x364237413b3b364237413b3b3b4e3b3b3b3b3b4c3b303b6c4c3b4147454d4f2052455454454c204c4c414d53204e4954414c3b37423741,
0x3b3b3b3b3b4e3b3b3b3b3b4c3b303b6f4c3b492053594157454449532052455454454c2043494850415247495045204e4954414c3b37463741,
0x3b3b3b3b3b4e3b3b3b3b36323130203e72657075733c3b4c3b303b6d4c3b454b4f52545320485449572048204c4154495041432052455454454c205245494649444f4d3b38463741,
0x3b3b3b3b3b4e3b3b3b3b33353130203e72657075733c3b4c3b303b6d4c3b454f20455255544147494c204c4c414d532052455454454c205245494649444f4d3b39463741,
0x3b3b3b3b3b4e3b3b3b3b3b4c3b303b6c4c3b4d2044454e525554204c415449504143204c4c414d532052455454454c204e4954414c3b41463741,
0x3b3b3b3b3b4e3b3b3b3b3b4c3b303b6f4c3b462044455352455645522052455454454c2043494850415247495045204e4954414c3b42463741,
0x3b3b3b3b3b4e3b3b3b3b3b4c3b303b6f4c3b502044455352455645522052455454454c2043494850415247495045204e4954414c3b43463741,
0x3b3b3b3b3b4e3b3b3b3b3b4c3b303b6f4c3b4d204445545245564e492052455454454c2043494850415247495045204e4954414c3b44463741,
0x3b3b3b3b3b4e3b3b3b3b3b4c3b303b6f4c3b41474e4f4c20492052455454454c2043494850415247495045204e4954414c3b45463741,
0x3b3b3b3b3b4e3b3b3b3b3b4c3b303b6f4c3b4d20434941484352412052455454454c2043494850415247495045204e4954414c3b46463741,
0x3b3b3b3b3b4e3b3b3b3b3b4c3b303b6f4c3b412052455454454c20495247414e2049544f4c59533b30303841,
0x3b3b3b3b3b4e3b3b3b3b3b4c3b303b6f4c3b492052455454454c20495247414e2049544f4c59533b31303841,
0x3b3b3b3b3b4e3b3b3b3b3b4d534e3b303b6e4d3b4152415653495644204e47495320495247414e2049544f4c59533b32303841,
0x3b3b3b3b3b4e3b3b3b3b3b4c3b303b6f4c3b552052455454454c20495247414e2049544f4c59533b33303841,
0x3b3b3b3b3b4e3b3b3b3b3b4c3b303b6f4c3b452052455454454c20495247414e2049544f4c59533b34303841,
0x3b3b3b3b3b4e3b3b3b3b3b4c3b303b6f4c3b4f2052455454454c20495247414e2049544f4c59533b35303841,
0x3b3b3b3b3b4e3b3b3b3b3b4d534e3b393b6e4d3b41544e41534148204e47495320495247414e2049544f4c59533b36303841,
0x3b3b3b3b3b4e3b3b3b3b3b4c3b303b6f4c3b4f4b2052455454454c20495247414e2049544f4c59533b37303841,
0x3b3b3b3b3b4e3b3b3b3b3b4c3b303b6f4c3b4f484b2052455454454c20495247414e2049544f4c59533b38303841,
0x3b3b3b3b3b4e3b3b3b3b3b4c3b303b6f4c3b4f472052455454454c20495247414e2049544f4c59533b39303841,
0x3b3b3b3b3b4e3b3b3b3b3b4c3b303b6f4c3b4f48472052455454454c20495247414e2049544f4c59533b41303841,
0x3b3b3b3b3b4e3b3b3b3b3b4d534e3b303b6e4d3b4152415653554e41204e47495320495247414e2049544f4c59533b42303841,
0x3b3b3b3b3b4e3b3b3b3b3b4c3b303b6f4c3b4f432052455454454c20495247414e2049544f4c59533b43303841,
0x3b3b3b3b3b4e3b3b3b3b3b4c3b303b6f4c3b4f48432052455454454c20495247414e2049544f4c59533b44303841,
0x3b3b3b3b3b4e3b3b3b3b3b4c3b303b6f4c3b4f4a2052455454454c20495247414e2049544f4c59533b45303841,
0x3b3b3b3b3b4e3b3b3b3b3b4c3b303b6f4c3b4f484a2052455454454c20495247414e2049544f4c59533b46303841,
0x3b3b3b3b3b4e3b3b3b3b3b4c3b303b6f4c3b4f54542052455454454c20495247414e2049544f4c59533b30313841,
0x3b3b3b3b3b4e3b3b3b3b3b4c3b303b6f4c3b4f4854542052455454454c20495247414e2049544f4c59533b31313841,
0x3b3b3b3b3b4e3b3b3b3b3b4c3b303b6f4c3b4f44442052455454454c20495247414e2049544f4c59533b32313841,
0x3b3b3b3b3b4e3b3b3b3b3b4c3b303b6f4c3b4f4844442052455454454c20495247414e2049544f4c59533b33313841,
0x3b3b3b3b3b4e3b3b3b3b3b4c3b303b6f4c3b4f542052455454454c20495247414e2049544f4c59533b34313841,
0x3b3b3b3b3b4e3b3b3b3b3b4c3b303b6f4c3b4f48542052455454454c20495247414e2049544f4c59533b35313841,
0x3b3b3b3b3b4e3b3b3b3b3b4c3b303b6f4c3b4f442052455454454c20495247414e2049544f4c59533b36313841,
0x3b3b3b3b3b4e3b3b3b3b3b4c3b303b6f4c3b4f48442052455454454c20495247414e2049544f4c59533b37313841,
0x3b3b3b3b3b4e3b3b3b3b3b4c3b303b6f4c3b4f4e2052455454454c20495247414e2049544f4c59533b38313841,
0x3b3b3b3b3b4e3b3b3b3b3b4c3b303b6f4c3b4f502052455454454c20495247414e2049544f4c59533b39313841,
0x3b3b3b3b3b4e3b3b3b3b3b4c3b303b6f4c3b4f48502052455454454c20495247414e2049544f4c59533b41313841,
0x3b3b3b3b3b4e3b3b3b3b3b4c3b303b6f4c3b4f422052455454454c20495247414e2049544f4c59533b42313841,
0x3b3b3b3b3b4e3b3b3b3b3b4c3b303b6f4c3b4f48422052455454454c20495247414e2049544f4c59533b43313841,
0x3b3b3b3b3b4e3b3b3b3b3b4c3b303b6f4c3b4f4d2052455454454c20495247414e2049544f4c59533b44313841,
0x3b3b3b3b3b4e3b3b3b3b3b4c3b303b6f4c3b4f522052455454454c20495247414e2049544f4c59533b45313841,
0x3b3b3b3b3b4e3b3b3b3b3b4c3b303b6f4c3b4f4c2052455454454c20495247414e2049544f4c59533b46313841,
0x3b3b3b3b3b4e3b3b3b3b3b4c3b303b6f4c3b4f52522052455454454c20495247414e2049544f4c59533b30323841,
0x3b3b3b3b3b4e3b3b3b3b3b4c3b303b6f4c3b4f532052455454454c20495247414e2049544f4c59533b31323841,
0x3b3b3b3b3b4e3b3b3b3b3b4c3b303b6f4c3b4f482052455454454c20495247414e2049544f4c59533b32323841,
0x3b3b3b3b3b4e3b3b3b3b3b4c3b303b634d3b41204e474953204c45574f5620495247414e2049544f4c59533b33323841,
0x3b3b3b3b3b4e3b3b3b3b3b4c3b303b634d3b49204e474953204c45574f5620495247414e2049544f4c59533b34323841,
0x3b3b3b3b3b4e3b3b3b3b3b4d534e3b303b6e4d3b55204e474953204c45574f5620495247414e2049544f4c59533b35323841,
0x3b3b3b3b3b4e3b3b3b3b3b4d534e3b303b6e4d3b45204e474953204c45574f5620495247414e2049544f4c59533b36323841,
0x3b3b3b3b3b4e3b3b3b3b3b4c3b303b634d3b4f4f204e474953204c45574f5620495247414e2049544f4c59533b37323841,
0x3b3b3b3b3b4e3b3b3b3b3b4e4f3b303b6f533b312d4b52414d20595254454f5020495247414e2049544f4c59533b38323841,
0x3b3b3b3b3b4e3b3b3b3b3b4e4f3b303b6f533b322d4b52414d20595254454f5020495247414e2049544f4c59533b39323841,
0x3b3b3b3b3b4e3b3b3b3b3b4e4f3b303b6f533b332d4b52414d20595254454f5020495247414e2049544f4c59533b41323841,
0x3b3b3b3b3b4e3b3b3b3b3b4e4f3b303b6f533b342d4b52414d20595254454f5020495247414e2049544f4c59533b42323841,
0x3b3b3b3b3b4e3b342f313b3b3b3b4c3b303b6f4e3b5245545241555120454e4f204e4f495443415246204349444e49204854524f4e3b30333841,
0x3b3b3b3b3b4e3b322f313b3b3b3b4c3b303b6f4e3b464c414820454e4f204e4f495443415246204349444e49204854524f4e3b31333841,
0x3b3b3b3b3b4e3b342f333b3b3b3b4c3b303b6f4e3b5352455452415551204545524854204e4f495443415246204349444e49204854524f4e3b32333841,
0x3b3b3b3b3b4e3b36312f313b3b3b3b4c3b303b6f4e3b48544e45455458495320454e4f204e4f495443415246204349444e49204854524f4e3b33333841,
0x3b3b3b3b3b4e3b382f313b3b3b3b4c3b303b6f4e3b48544847494520454e4f204e4f495443415246204349444e49204854524f4e3b34333841,
0x3b3b3b3b3b4e3b36312f333b3b3b3b4c3b303b6f4e3b5348544e454554584953204545524854204e4f495443415246204349444e49204854524f4e3b35333841,
0x3b3b3b3b3b4e3b3b3b3b3b4c3b303b6f533b4b52414d2052455452415551204349444e49204854524f4e3b36333841,
0x3b3b3b3b3b4e3b3b3b3b3b4c3b303b6f533b4b52414d205245444c4f484543414c50204349444e49204854524f4e3b37333841,
0x3b3b3b3b3b4e3b3b3b3b3b54453b303b63533b4b52414d204545505552204349444e49204854524f4e3b38333841,
0x3b3b3b3b3b4e3b3b3b3b3b54453b303b6f533b4b52414d20595449544e415551204349444e49204854524f4e3b39333841,
0x3b3b3b3b3b4e3b3b3b3b3b4c3b303b6f4c3b414b2052455454454c2041502d53474148503b30343841,
0x3b3b3b3b3b4e3b3b3b3b3b4c3b303b6f4c3b41484b2052455454454c2041502d53474148503b31343841,
0x3b3b3b3b3b4e3b3b3b3b3b4c3b303b6f4c3b41472052455454454c2041502d53474148503b32343841,
0x3b3b3b3b3b4e3b3b3b3b3b4c3b303b6f4c3b41474e2052455454454c2041502d53474148503b33343841,
0x3b3b3b3b3b4e3b3b3b3b3b4c3b303b6f4c3b41432052455454454c2041502d53474148503b34343841,
0x3b3b3b3b3b4e3b3b3b3b3b4c3b303b6f4c3b4148432052455454454c2041502d53474148503b35343841,
0x3b3b3b3b3b4e3b3b3b3b3b4c3b303b6f4c3b414a2052455454454c2041502d53474148503b36343841,
0x3b3b3b3b3b4e3b3b3b3b3b4c3b303b6f4c3b41594e2052455454454c2041502d53474148503b37343841,
0x3b3b3b3b3b4e3b3b3b3b3b4c3b303b6f4c3b41542052455454454c2041502d53474148503b38343841,
0x3b3b3b3b3b4e3b3b3b3b3b4c3b303b6f4c3b4148542052455454454c2041502d53474148503b39343841,
0x3b3b3b3b3b4e3b3b3b3b3b4c3b303b6f4c3b41442052455454454c2041502d53474148503b41343841,
0x3b3b3b3b3b4e3b3b3b3b3b4c3b303b6f4c3b414e2052455454454c2041502d53474148503b42343841,
0x3b3b3b3b3b4e3b3b3b3b3b4c3b303b6f4c3b41502052455454454c2041502d53474148503b43343841,
0x3b3b3b3b3b4e3b3b3b3b3b4c3b303b6f4c3b4148502052455454454c2041502d53474148503b44343841,
0x3b3b3b3b3b4e3b3b3b3b3b4c3b303b6f4c3b41422052455454454c2041502d53474148503b45343841,
0x3b3b3b3b3b4e3b3b3b3b3b4c3b303b6f4c3b414d2052455454454c2041502d53474148503b46343841,
0x3b3b3b3b3b4e3b3b3b3b3b4c3b303b6f4c3b4153542052455454454c2041502d53474148503b30353841,
0x3b3b3b3b3b4e3b3b3b3b3b4c3b303b6f4c3b414853542052455454454c2041502d53474148503b31353841,
0x3b3b3b3b3b4e3b3b3b3b3b4c3b303b6f4c3b415a442052455454454c2041502d53474148503b32353841,
0x3b3b3b3b3b4e3b3b3b3b3b4c3b303b6f4c3b41572052455454454c2041502d53474148503b33353841,
0x3b3b3b3b3b4e3b3b3b3b3b4c3b303b6f4c3b41485a2052455454454c2041502d53474148503b34353841,
0x3b3b3b3b3b4e3b3b3b3b3b4c3b303b6f4c3b415a2052455454454c2041502d53474148503b35353841,
0x3b3b3b3b3b4e3b3b3b3b3b4c3b303b6f4c3b41204c4c414d532052455454454c2041502d53474148503b36353841,
0x3b3b3b3b3b4e3b3b3b3b3b4c3b303b6f4c3b41592052455454454c2041502d53474148503b37353841,
0x3b3b3b3b3b4e3b3b3b3b3b4c3b303b6f4c3b41522052455454454c2041502d53474148503b38353841,
0x3b3b3b3b3b4e3b3b3b3b3b4c3b303b6f4c3b414c2052455454454c2041502d53474148503b39353841,
0x3b3b3b3b3b4e3b3b3b3b3b4c3b303b6f4c3b4148532052455454454c2041502d53474148503b41353841,
0x3b3b3b3b3b4e3b3b3b3b3b4c3b303b6f4c3b41532052455454454c2041502d53474148503b42353841,
0x3b3b3b3b3b4e3b3b3b3b3b4c3b303b6f4c3b41482052455454454c2041502d53474148503b43353841,
0x3b3b3b3b3b4e3b3b3b3b3b4c3b303b6f4c3b412052455454454c2041502d53474148503b44353841,
0x3b3b3b3b3b4e3b3b3b3b3b4c3b303b6f4c3b492052455454454c2041502d53474148503b45353841,
0x3b3b3b3b3b4e3b3b3b3b3b4c3b303b6f4c3b552052455454454c2041502d53474148503b46353841,
0x3b3b3b3b3b4e3b3b3b3b3b4c3b303b6f4c3b452052455454454c2041502d53474148503b30363841,
0x3b3b3b3b3b4e3b3b3b3b3b4c3b303b6f4c3b4f2052455454454c2041502d53474148503b31363841,
0x3b3b3b3b3b4e3b3b3b3b3b4c3b303b6f4c3b41512052455454454c2041502d53474148503b32363841,
0x3b3b3b3b3b4e3b3b3b3b3b4c3b303b6f4c3b41582052455454454c2041502d53474148503b33363841,
0x3b3b3b3b3b4e3b3b3b3b3b4c3b303b6f4c3b41462052455454454c2041502d53474148503b34363841,
0x3b3b3b3b3b4e3b3b3b3b3b4c3b303b6f4c3b4147472052455454454c2041502d53474148503b35363841,
0x3b3b3b3b3b4e3b3b3b3b3b4c3b303b6f4c3b45452052455454454c2041502d53474148503b36363841,
0x3b3b3b3b3b4e3b3b3b3b3b4c3b303b6f4c3b41572052455454454c2044454e494f4a4255532041502d53474148503b37363841,
0x3b3b3b3b3b4e3b3b3b3b3b4c3b303b6f4c3b41592052455454454c2044454e494f4a4255532041502d53474148503b38363841,
0x3b3b3b3b3b4e3b3b3b3b3b4c3b303b6f4c3b4154542052455454454c2041502d53474148503b39363841,
0x3b3b3b3b3b4e3b3b3b3b3b4c3b303b6f4c3b414854542052455454454c2041502d53474148503b41363841,
0x3b3b3b3b3b4e3b3b3b3b3b4c3b303b6f4c3b4144442052455454454c2041502d53474148503b42363841,
0x3b3b3b3b3b4e3b3b3b3b3b4c3b303b6f4c3b414e4e2052455454454c2041502d53474148503b43363841,
0x3b3b3b3b3b4e3b3b3b3b3b4c3b303b6f4c3b4159204554414e5245544c412052455454454c2041502d53474148503b44363841,
0x3b3b3b3b3b4e3b3b3b3b3b4c3b303b6f4c3b414853205353454c4543494f562052455454454c2041502d53474148503b45363841,
0x3b3b3b3b3b4e3b3b3b3b3b4c3b303b6f4c3b414820444543494f562052455454454c2041502d53474148503b46363841,
0x3b3b3b3b3b4e3b3b3b3b3b4c3b303b6f4c3b4146204445544152495053412052455454454c2041502d53474148503b30373841,
0x3b3b3b3b3b4e3b3b3b3b3b4c3b303b6f4c3b41522052455454454c2044454e494f4a4255532041502d53474148503b31373841,
0x3b3b3b3b3b4e3b3b3b3b3b4c3b303b6f4c3b41522052455454454c20444558494652455055532041502d53474148503b32373841,
0x3b3b3b3b3b4e3b3b3b3b3b4c3b303b6f4c3b55444e49424152444e41432052455454454c2041502d53474148503b33373841,
0x3b3b3b3b3b4e3b3b3b3b3b4e4f3b303b6f503b4b52414d204441454820454c474e49532041502d53474148503b34373841,
0x3b3b3b3b3b4e3b3b3b3b3b4e4f3b303b6f503b4b52414d204441454820454c42554f442041502d53474148503b35373841,
0x3b3b3b3b3b4e3b3b3b3b3b4e4f3b303b6f503b44414853204b52414d2041502d53474148503b36373841,
0x3b3b3b3b3b4e3b3b3b3b3b4e4f3b303b6f503b4441485320454c42554f44204b52414d2041502d53474148503b37373841,
0x3b3b3b3b3b4e3b3b3b3b3b4c3b303b634d3b4152415653554e41204e47495320415254485341525541533b30383841,
0x3b3b3b3b3b4e3b3b3b3b3b4c3b303b634d3b41475241534956204e47495320415254485341525541533b31383841,
0x3b3b3b3b3b4e3b3b3b3b3b4c3b303b6f4c3b412052455454454c20415254485341525541533b32383841,
0x3b3b3b3b3b4e3b3b3b3b3b4c3b303b6f4c3b41412052455454454c20415254485341525541533b33383841,
0x3b3b3b3b3b4e3b3b3b3b3b4c3b303b6f4c3b492052455454454c20415254485341525541533b34383841,
0x3b3b3b3b3b4e3b3b3b3b3b4c3b303b6f4c3b49492052455454454c20415254485341525541533b35383841,
0x3b3b3b3b3b4e3b3b3b3b3b4c3b303b6f4c3b552052455454454c20415254485341525541533b36383841]

/-- src/u5e/props/UnicodeData.txt lines 14081-14336. -/
def rawUcd55 : List Nat := [
0x3b3b3b3b3b4e3b3b3b3b3b4c3b303b6f4c3b55552052455454454c20415254485341525541533b37383841,
0x3b3b3b3b3b4e3b3b3b3b3b4c3b303b6f4c3b522043494c41434f562052455454454c20415254485341525541533b38383841,
0x3b3b3b3b3b4e3b3b3b3b3b4c3b303b6f4c3b52522043494c41434f562052455454454c20415254485341525541533b39383841,
0x3b3b3b3b3b4e3b3b3b3b3b4c3b303b6f4c3b4c2043494c41434f562052455454454c20415254485341525541533b41383841,
0x3b3b3b3b3b4e3b3b3b3b3b4c3b303b6f4c3b4c4c2043494c41434f562052455454454c20415254485341525541533b42383841,
0x3b3b3b3b3b4e3b3b3b3b3b4c3b303b6f4c3b452052455454454c20415254485341525541533b43383841,
0x3b3b3b3b3b4e3b3b3b3b3b4c3b303b6f4c3b45452052455454454c20415254485341525541533b44383841,
0x3b3b3b3b3b4e3b3b3b3b3b4c3b303b6f4c3b49412052455454454c20415254485341525541533b45383841,
0x3b3b3b3b3b4e3b3b3b3b3b4c3b303b6f4c3b4f2052455454454c20415254485341525541533b46383841,
0x3b3b3b3b3b4e3b3b3b3b3b4c3b303b6f4c3b4f4f2052455454454c20415254485341525541533b30393841,
0x3b3b3b3b3b4e3b3b3b3b3b4c3b303b6f4c3b55412052455454454c20415254485341525541533b31393841,
0x3b3b3b3b3b4e3b3b3b3b3b4c3b303b6f4c3b414b2052455454454c20415254485341525541533b32393841,
0x3b3b3b3b3b4e3b3b3b3b3b4c3b303b6f4c3b41484b2052455454454c20415254485341525541533b33393841,
0x3b3b3b3b3b4e3b3b3b3b3b4c3b303b6f4c3b41472052455454454c20415254485341525541533b34393841,
0x3b3b3b3b3b4e3b3b3b3b3b4c3b303b6f4c3b4148472052455454454c20415254485341525541533b35393841,
0x3b3b3b3b3b4e3b3b3b3b3b4c3b303b6f4c3b41474e2052455454454c20415254485341525541533b36393841,
0x3b3b3b3b3b4e3b3b3b3b3b4c3b303b6f4c3b41432052455454454c20415254485341525541533b37393841,
0x3b3b3b3b3b4e3b3b3b3b3b4c3b303b6f4c3b4148432052455454454c20415254485341525541533b38393841,
0x3b3b3b3b3b4e3b3b3b3b3b4c3b303b6f4c3b414a2052455454454c20415254485341525541533b39393841,
0x3b3b3b3b3b4e3b3b3b3b3b4c3b303b6f4c3b41484a2052455454454c20415254485341525541533b41393841,
0x3b3b3b3b3b4e3b3b3b3b3b4c3b303b6f4c3b41594e2052455454454c20415254485341525541533b42393841,
0x3b3b3b3b3b4e3b3b3b3b3b4c3b303b6f4c3b4154542052455454454c20415254485341525541533b43393841,
0x3b3b3b3b3b4e3b3b3b3b3b4c3b303b6f4c3b414854542052455454454c20415254485341525541533b44393841,
0x3b3b3b3b3b4e3b3b3b3b3b4c3b303b6f4c3b4144442052455454454c20415254485341525541533b45393841,
0x3b3b3b3b3b4e3b3b3b3b3b4c3b303b6f4c3b414844442052455454454c20415254485341525541533b46393841,
0x3b3b3b3b3b4e3b3b3b3b3b4c3b303b6f4c3b414e4e2052455454454c20415254485341525541533b30413841,
0x3b3b3b3b3b4e3b3b3b3b3b4c3b303b6f4c3b41542052455454454c20415254485341525541533b31413841,
0x3b3b3b3b3b4e3b3b3b3b3b4c3b303b6f4c3b4148542052455454454c20415254485341525541533b32413841,
0x3b3b3b3b3b4e3b3b3b3b3b4c3b303b6f4c3b41442052455454454c20415254485341525541533b33413841,
0x3b3b3b3b3b4e3b3b3b3b3b4c3b303b6f4c3b4148442052455454454c20415254485341525541533b34413841,
0x3b3b3b3b3b4e3b3b3b3b3b4c3b303b6f4c3b414e2052455454454c20415254485341525541533b35413841,
0x3b3b3b3b3b4e3b3b3b3b3b4c3b303b6f4c3b41502052455454454c20415254485341525541533b36413841,
0x3b3b3b3b3b4e3b3b3b3b3b4c3b303b6f4c3b4148502052455454454c20415254485341525541533b37413841,
0x3b3b3b3b3b4e3b3b3b3b3b4c3b303b6f4c3b41422052455454454c20415254485341525541533b38413841,
0x3b3b3b3b3b4e3b3b3b3b3b4c3b303b6f4c3b4148422052455454454c20415254485341525541533b39413841,
0x3b3b3b3b3b4e3b3b3b3b3b4c3b303b6f4c3b414d2052455454454c20415254485341525541533b41413841,
0x3b3b3b3b3b4e3b3b3b3b3b4c3b303b6f4c3b41592052455454454c20415254485341525541533b42413841,
0x3b3b3b3b3b4e3b3b3b3b3b4c3b303b6f4c3b41522052455454454c20415254485341525541533b43413841,
0x3b3b3b3b3b4e3b3b3b3b3b4c3b303b6f4c3b414c2052455454454c20415254485341525541533b44413841,
0x3b3b3b3b3b4e3b3b3b3b3b4c3b303b6f4c3b41562052455454454c20415254485341525541533b45413841,
0x3b3b3b3b3b4e3b3b3b3b3b4c3b303b6f4c3b4148532052455454454c20415254485341525541533b46413841,
0x3b3b3b3b3b4e3b3b3b3b3b4c3b303b6f4c3b4153532052455454454c20415254485341525541533b30423841,
0x3b3b3b3b3b4e3b3b3b3b3b4c3b303b6f4c3b41532052455454454c20415254485341525541533b31423841,
0x3b3b3b3b3b4e3b3b3b3b3b4c3b303b6f4c3b41482052455454454c20415254485341525541533b32423841,
0x3b3b3b3b3b4e3b3b3b3b3b4c3b303b6f4c3b414c4c2052455454454c20415254485341525541533b33423841,
0x3b3b3b3b3b4e3b3b3b3b3b4c3b303b634d3b5552414148204e47495320544e414e4f534e4f4320415254485341525541533b34423841,
0x3b3b3b3b3b4e3b3b3b3b3b4c3b303b634d3b4141204e474953204c45574f5620415254485341525541533b35423841,
0x3b3b3b3b3b4e3b3b3b3b3b4c3b303b634d3b49204e474953204c45574f5620415254485341525541533b36423841,
0x3b3b3b3b3b4e3b3b3b3b3b4c3b303b634d3b4949204e474953204c45574f5620415254485341525541533b37423841,
0x3b3b3b3b3b4e3b3b3b3b3b4c3b303b634d3b55204e474953204c45574f5620415254485341525541533b38423841,
0x3b3b3b3b3b4e3b3b3b3b3b4c3b303b634d3b5555204e474953204c45574f5620415254485341525541533b39423841,
0x3b3b3b3b3b4e3b3b3b3b3b4c3b303b634d3b522043494c41434f56204e474953204c45574f5620415254485341525541533b41423841,
0x3b3b3b3b3b4e3b3b3b3b3b4c3b303b634d3b52522043494c41434f56204e474953204c45574f5620415254485341525541533b42423841,
0x3b3b3b3b3b4e3b3b3b3b3b4c3b303b634d3b4c2043494c41434f56204e474953204c45574f5620415254485341525541533b43423841,
0x3b3b3b3b3b4e3b3b3b3b3b4c3b303b634d3b4c4c2043494c41434f56204e474953204c45574f5620415254485341525541533b44423841,
0x3b3b3b3b3b4e3b3b3b3b3b4c3b303b634d3b45204e474953204c45574f5620415254485341525541533b45423841,
0x3b3b3b3b3b4e3b3b3b3b3b4c3b303b634d3b4545204e474953204c45574f5620415254485341525541533b46423841,
0x3b3b3b3b3b4e3b3b3b3b3b4c3b303b634d3b4941204e474953204c45574f5620415254485341525541533b30433841,
0x3b3b3b3b3b4e3b3b3b3b3b4c3b303b634d3b4f204e474953204c45574f5620415254485341525541533b31433841,
0x3b3b3b3b3b4e3b3b3b3b3b4c3b303b634d3b4f4f204e474953204c45574f5620415254485341525541533b32433841,
0x3b3b3b3b3b4e3b3b3b3b3b4c3b303b634d3b5541204e474953204c45574f5620415254485341525541533b33433841,
0x3b3b3b3b3b4e3b3b3b3b3b4d534e3b393b6e4d3b414d41524956204e47495320415254485341525541533b34433841,
0x3b3b3b3b3b4e3b3b3b3b3b4d534e3b303b6e4d3b55444e49424152444e4143204e47495320415254485341525541533b35433841,
0x3b3b3b3b3b4e3b3b3b3b3b4c3b303b6f503b41444e414420415254485341525541533b45433841,
0x3b3b3b3b3b4e3b3b3b3b3b4c3b303b6f503b41444e414420454c42554f4420415254485341525541533b46433841,
0x3b3b3b3b3b4e3b303b303b303b3b4c3b303b644e3b4f52455a20544947494420415254485341525541533b30443841,
0x3b3b3b3b3b4e3b313b313b313b3b4c3b303b644e3b454e4f20544947494420415254485341525541533b31443841,
0x3b3b3b3b3b4e3b323b323b323b3b4c3b303b644e3b4f575420544947494420415254485341525541533b32443841,
0x3b3b3b3b3b4e3b333b333b333b3b4c3b303b644e3b454552485420544947494420415254485341525541533b33443841,
0x3b3b3b3b3b4e3b343b343b343b3b4c3b303b644e3b52554f4620544947494420415254485341525541533b34443841,
0x3b3b3b3b3b4e3b353b353b353b3b4c3b303b644e3b4556494620544947494420415254485341525541533b35443841,
0x3b3b3b3b3b4e3b363b363b363b3b4c3b303b644e3b58495320544947494420415254485341525541533b36443841,
0x3b3b3b3b3b4e3b373b373b373b3b4c3b303b644e3b4e4556455320544947494420415254485341525541533b37443841,
0x3b3b3b3b3b4e3b383b383b383b3b4c3b303b644e3b544847494520544947494420415254485341525541533b38443841,
0x3b3b3b3b3b4e3b393b393b393b3b4c3b303b644e3b454e494e20544947494420415254485341525541533b39443841,
0x3b3b3b3b3b4e3b3b3b3b3b4d534e3b3033323b6e4d3b4f52455a2054494749442049524147414e4156454420474e494e49424d4f433b30453841,
0x3b3b3b3b3b4e3b3b3b3b3b4d534e3b3033323b6e4d3b454e4f2054494749442049524147414e4156454420474e494e49424d4f433b31453841,
0x3b3b3b3b3b4e3b3b3b3b3b4d534e3b3033323b6e4d3b4f57542054494749442049524147414e4156454420474e494e49424d4f433b32453841,
0x3b3b3b3b3b4e3b3b3b3b3b4d534e3b3033323b6e4d3b45455248542054494749442049524147414e4156454420474e494e49424d4f433b33453841,
0x3b3b3b3b3b4e3b3b3b3b3b4d534e3b3033323b6e4d3b52554f462054494749442049524147414e4156454420474e494e49424d4f433b34453841,
0x3b3b3b3b3b4e3b3b3b3b3b4d534e3b3033323b6e4d3b455649462054494749442049524147414e4156454420474e494e49424d4f433b35453841,
0x3b3b3b3b3b4e3b3b3b3b3b4d534e3b3033323b6e4d3b5849532054494749442049524147414e4156454420474e494e49424d4f433b36453841,
0x3b3b3b3b3b4e3b3b3b3b3b4d534e3b3033323b6e4d3b4e455645532054494749442049524147414e4156454420474e494e49424d4f433b37453841,
0x3b3b3b3b3b4e3b3b3b3b3b4d534e3b3033323b6e4d3b54484749452054494749442049524147414e4156454420474e494e49424d4f433b38453841,
0x3b3b3b3b3b4e3b3b3b3b3b4d534e3b3033323b6e4d3b454e494e2054494749442049524147414e4156454420474e494e49424d4f433b39453841,
0x3b3b3b3b3b4e3b3b3b3b3b4d534e3b3033323b6e4d3b412052455454454c2049524147414e4156454420474e494e49424d4f433b41453841,
0x3b3b3b3b3b4e3b3b3b3b3b4d534e3b3033323b6e4d3b552052455454454c2049524147414e4156454420474e494e49424d4f433b42453841,
0x3b3b3b3b3b4e3b3b3b3b3b4d534e3b3033323b6e4d3b414b2052455454454c2049524147414e4156454420474e494e49424d4f433b43453841,
0x3b3b3b3b3b4e3b3b3b3b3b4d534e3b3033323b6e4d3b414e2052455454454c2049524147414e4156454420474e494e49424d4f433b44453841,
0x3b3b3b3b3b4e3b3b3b3b3b4d534e3b3033323b6e4d3b41502052455454454c2049524147414e4156454420474e494e49424d4f433b45453841,
0x3b3b3b3b3b4e3b3b3b3b3b4d534e3b3033323b6e4d3b41522052455454454c2049524147414e4156454420474e494e49424d4f433b46453841,
0x3b3b3b3b3b4e3b3b3b3b3b4d534e3b3033323b6e4d3b49562052455454454c2049524147414e4156454420474e494e49424d4f433b30463841,
0x3b3b3b3b3b4e3b3b3b3b3b4d534e3b3033323b6e4d3b4148415247415641204e4749532049524147414e4156454420474e494e49424d4f433b31463841,
0x3b3b3b3b3b4e3b3b3b3b3b4c3b303b6f4c3b55444e49424152444e414320474e4943415053204e4749532049524147414e415645443b32463841,
0x3b3b3b3b3b4e3b3b3b3b3b4c3b303b6f4c3b414d415249562055444e49424152444e4143204e4749532049524147414e415645443b33463841,
0x3b3b3b3b3b4e3b3b3b3b3b4c3b303b6f4c3b414d415249562055444e49424152444e414320454c42554f44204e4749532049524147414e415645443b34463841,
0x3b3b3b3b3b4e3b3b3b3b3b4c3b303b6f4c3b4f57542055444e49424152444e4143204e4749532049524147414e415645443b35463841,
0x3b3b3b3b3b4e3b3b3b3b3b4c3b303b6f4c3b45455248542055444e49424152444e4143204e4749532049524147414e415645443b36463841,
0x3b3b3b3b3b4e3b3b3b3b3b4c3b303b6f4c3b41484152474156412055444e49424152444e4143204e4749532049524147414e415645443b37463841,
0x3b3b3b3b3b4e3b3b3b3b3b4c3b303b6f503b414b495048535550204e4749532049524147414e415645443b38463841,
0x3b3b3b3b3b4e3b3b3b3b3b4c3b303b6f503b52454c4c4946205041472049524147414e415645443b39463841,
0x3b3b3b3b3b4e3b3b3b3b3b4c3b303b6f503b54455241432049524147414e415645443b41463841,
0x3b3b3b3b3b4e3b3b3b3b3b4c3b303b6f4c3b454b4f525453444145482049524147414e415645443b42463841,
0x3b3b3b3b3b4e3b3b3b3b3b4c3b303b6f503b4d414844444953204e4749532049524147414e415645443b43463841,
0x3b3b3b3b3b4e3b3b3b3b3b4c3b303b6f4c3b4d4f204e49414a2049524147414e415645443b44463841,
0x3b3b3b3b3b4e3b303b303b303b3b4c3b303b644e3b4f52455a20544947494420494c20484159414b3b30303941,
0x3b3b3b3b3b4e3b313b313b313b3b4c3b303b644e3b454e4f20544947494420494c20484159414b3b31303941,
0x3b3b3b3b3b4e3b323b323b323b3b4c3b303b644e3b4f575420544947494420494c20484159414b3b32303941,
0x3b3b3b3b3b4e3b333b333b333b3b4c3b303b644e3b454552485420544947494420494c20484159414b3b33303941,
0x3b3b3b3b3b4e3b343b343b343b3b4c3b303b644e3b52554f4620544947494420494c20484159414b3b34303941,
0x3b3b3b3b3b4e3b353b353b353b3b4c3b303b644e3b4556494620544947494420494c20484159414b3b35303941,
0x3b3b3b3b3b4e3b363b363b363b3b4c3b303b644e3b58495320544947494420494c20484159414b3b36303941,
0x3b3b3b3b3b4e3b373b373b373b3b4c3b303b644e3b4e4556455320544947494420494c20484159414b3b37303941,
0x3b3b3b3b3b4e3b383b383b383b3b4c3b303b644e3b544847494520544947494420494c20484159414b3b38303941,
0x3b3b3b3b3b4e3b393b393b393b3b4c3b303b644e3b454e494e20544947494420494c20484159414b3b39303941,
0x3b3b3b3b3b4e3b3b3b3b3b4c3b303b6f4c3b414b2052455454454c20494c20484159414b3b41303941,
0x3b3b3b3b3b4e3b3b3b3b3b4c3b303b6f4c3b41484b2052455454454c20494c20484159414b3b42303941,
0x3b3b3b3b3b4e3b3b3b3b3b4c3b303b6f4c3b41472052455454454c20494c20484159414b3b43303941,
0x3b3b3b3b3b4e3b3b3b3b3b4c3b303b6f4c3b41474e2052455454454c20494c20484159414b3b44303941,
0x3b3b3b3b3b4e3b3b3b3b3b4c3b303b6f4c3b41532052455454454c20494c20484159414b3b45303941,
0x3b3b3b3b3b4e3b3b3b3b3b4c3b303b6f4c3b4148532052455454454c20494c20484159414b3b46303941,
0x3b3b3b3b3b4e3b3b3b3b3b4c3b303b6f4c3b415a2052455454454c20494c20484159414b3b30313941,
0x3b3b3b3b3b4e3b3b3b3b3b4c3b303b6f4c3b41594e2052455454454c20494c20484159414b3b31313941,
0x3b3b3b3b3b4e3b3b3b3b3b4c3b303b6f4c3b41542052455454454c20494c20484159414b3b32313941,
0x3b3b3b3b3b4e3b3b3b3b3b4c3b303b6f4c3b4154482052455454454c20494c20484159414b3b33313941,
0x3b3b3b3b3b4e3b3b3b3b3b4c3b303b6f4c3b414e2052455454454c20494c20484159414b3b34313941,
0x3b3b3b3b3b4e3b3b3b3b3b4c3b303b6f4c3b41502052455454454c20494c20484159414b3b35313941,
0x3b3b3b3b3b4e3b3b3b3b3b4c3b303b6f4c3b4148502052455454454c20494c20484159414b3b36313941,
0x3b3b3b3b3b4e3b3b3b3b3b4c3b303b6f4c3b414d2052455454454c20494c20484159414b3b37313941,
0x3b3b3b3b3b4e3b3b3b3b3b4c3b303b6f4c3b41442052455454454c20494c20484159414b3b38313941,
0x3b3b3b3b3b4e3b3b3b3b3b4c3b303b6f4c3b41422052455454454c20494c20484159414b3b39313941,
0x3b3b3b3b3b4e3b3b3b3b3b4c3b303b6f4c3b41522052455454454c20494c20484159414b3b41313941,
0x3b3b3b3b3b4e3b3b3b3b3b4c3b303b6f4c3b41592052455454454c20494c20484159414b3b42313941,
0x3b3b3b3b3b4e3b3b3b3b3b4c3b303b6f4c3b414c2052455454454c20494c20484159414b3b43313941,
0x3b3b3b3b3b4e3b3b3b3b3b4c3b303b6f4c3b41572052455454454c20494c20484159414b3b44313941,
0x3b3b3b3b3b4e3b3b3b3b3b4c3b303b6f4c3b4148542052455454454c20494c20484159414b3b45313941,
0x3b3b3b3b3b4e3b3b3b3b3b4c3b303b6f4c3b41482052455454454c20494c20484159414b3b46313941,
0x3b3b3b3b3b4e3b3b3b3b3b4c3b303b6f4c3b41562052455454454c20494c20484159414b3b30323941,
0x3b3b3b3b3b4e3b3b3b3b3b4c3b303b6f4c3b41432052455454454c20494c20484159414b3b31323941,
0x3b3b3b3b3b4e3b3b3b3b3b4c3b303b6f4c3b412052455454454c20494c20484159414b3b32323941,
0x3b3b3b3b3b4e3b3b3b3b3b4c3b303b6f4c3b454f2052455454454c20494c20484159414b3b33323941,
0x3b3b3b3b3b4e3b3b3b3b3b4c3b303b6f4c3b492052455454454c20494c20484159414b3b34323941,
0x3b3b3b3b3b4e3b3b3b3b3b4c3b303b6f4c3b4f4f2052455454454c20494c20484159414b3b35323941,
0x3b3b3b3b3b4e3b3b3b3b3b4d534e3b303b6e4d3b4555204c45574f5620494c20484159414b3b36323941,
0x3b3b3b3b3b4e3b3b3b3b3b4d534e3b303b6e4d3b45204c45574f5620494c20484159414b3b37323941,
0x3b3b3b3b3b4e3b3b3b3b3b4d534e3b303b6e4d3b55204c45574f5620494c20484159414b3b38323941,
0x3b3b3b3b3b4e3b3b3b3b3b4d534e3b303b6e4d3b4545204c45574f5620494c20484159414b3b39323941,
0x3b3b3b3b3b4e3b3b3b3b3b4d534e3b303b6e4d3b4f204c45574f5620494c20484159414b3b41323941,
0x3b3b3b3b3b4e3b3b3b3b3b4d534e3b3032323b6e4d3b5548504f4c5020454e4f5420494c20484159414b3b42323941,
0x3b3b3b3b3b4e3b3b3b3b3b4d534e3b3032323b6e4d3b41594c414320454e4f5420494c20484159414b3b43323941,
0x3b3b3b3b3b4e3b3b3b3b3b4d534e3b3032323b6e4d3b5548504f4c502041594c414320454e4f5420494c20484159414b3b44323941,
0x3b3b3b3b3b4e3b3b3b3b3b4c3b303b6f503b495743204e47495320494c20484159414b3b45323941,
0x3b3b3b3b3b4e3b3b3b3b3b4c3b303b6f503b41594853204e47495320494c20484159414b3b46323941,
0x3b3b3b3b3b4e3b3b3b3b3b4c3b303b6f4c3b414b2052455454454c20474e414a45523b30333941,
0x3b3b3b3b3b4e3b3b3b3b3b4c3b303b6f4c3b41472052455454454c20474e414a45523b31333941,
0x3b3b3b3b3b4e3b3b3b3b3b4c3b303b6f4c3b41474e2052455454454c20474e414a45523b32333941,
0x3b3b3b3b3b4e3b3b3b3b3b4c3b303b6f4c3b41542052455454454c20474e414a45523b33333941,
0x3b3b3b3b3b4e3b3b3b3b3b4c3b303b6f4c3b41442052455454454c20474e414a45523b34333941,
0x3b3b3b3b3b4e3b3b3b3b3b4c3b303b6f4c3b414e2052455454454c20474e414a45523b35333941,
0x3b3b3b3b3b4e3b3b3b3b3b4c3b303b6f4c3b41502052455454454c20474e414a45523b36333941,
0x3b3b3b3b3b4e3b3b3b3b3b4c3b303b6f4c3b41422052455454454c20474e414a45523b37333941,
0x3b3b3b3b3b4e3b3b3b3b3b4c3b303b6f4c3b414d2052455454454c20474e414a45523b38333941,
0x3b3b3b3b3b4e3b3b3b3b3b4c3b303b6f4c3b41432052455454454c20474e414a45523b39333941,
0x3b3b3b3b3b4e3b3b3b3b3b4c3b303b6f4c3b414a2052455454454c20474e414a45523b41333941,
0x3b3b3b3b3b4e3b3b3b3b3b4c3b303b6f4c3b41594e2052455454454c20474e414a45523b42333941,
0x3b3b3b3b3b4e3b3b3b3b3b4c3b303b6f4c3b41532052455454454c20474e414a45523b43333941,
0x3b3b3b3b3b4e3b3b3b3b3b4c3b303b6f4c3b41522052455454454c20474e414a45523b44333941,
0x3b3b3b3b3b4e3b3b3b3b3b4c3b303b6f4c3b414c2052455454454c20474e414a45523b45333941,
0x3b3b3b3b3b4e3b3b3b3b3b4c3b303b6f4c3b41592052455454454c20474e414a45523b46333941,
0x3b3b3b3b3b4e3b3b3b3b3b4c3b303b6f4c3b41572052455454454c20474e414a45523b30343941,
0x3b3b3b3b3b4e3b3b3b3b3b4c3b303b6f4c3b41482052455454454c20474e414a45523b31343941,
0x3b3b3b3b3b4e3b3b3b3b3b4c3b303b6f4c3b41424d2052455454454c20474e414a45523b32343941,
0x3b3b3b3b3b4e3b3b3b3b3b4c3b303b6f4c3b4147474e2052455454454c20474e414a45523b33343941,
0x3b3b3b3b3b4e3b3b3b3b3b4c3b303b6f4c3b41444e2052455454454c20474e414a45523b34343941,
0x3b3b3b3b3b4e3b3b3b3b3b4c3b303b6f4c3b414a594e2052455454454c20474e414a45523b35343941,
0x3b3b3b3b3b4e3b3b3b3b3b4c3b303b6f4c3b412052455454454c20474e414a45523b36343941,
0x3b3b3b3b3b4e3b3b3b3b3b4d534e3b303b6e4d3b49204e474953204c45574f5620474e414a45523b37343941,
0x3b3b3b3b3b4e3b3b3b3b3b4d534e3b303b6e4d3b55204e474953204c45574f5620474e414a45523b38343941,
0x3b3b3b3b3b4e3b3b3b3b3b4d534e3b303b6e4d3b45204e474953204c45574f5620474e414a45523b39343941,
0x3b3b3b3b3b4e3b3b3b3b3b4d534e3b303b6e4d3b4941204e474953204c45574f5620474e414a45523b41343941,
0x3b3b3b3b3b4e3b3b3b3b3b4d534e3b303b6e4d3b4f204e474953204c45574f5620474e414a45523b42343941,
0x3b3b3b3b3b4e3b3b3b3b3b4d534e3b303b6e4d3b5541204e474953204c45574f5620474e414a45523b43343941,
0x3b3b3b3b3b4e3b3b3b3b3b4d534e3b303b6e4d3b5545204e474953204c45574f5620474e414a45523b44343941,
0x3b3b3b3b3b4e3b3b3b3b3b4d534e3b303b6e4d3b4145204e474953204c45574f5620474e414a45523b45343941,
0x3b3b3b3b3b4e3b3b3b3b3b4d534e3b303b6e4d3b474e204e47495320544e414e4f534e4f4320474e414a45523b46343941,
0x3b3b3b3b3b4e3b3b3b3b3b4d534e3b303b6e4d3b4e204e47495320544e414e4f534e4f4320474e414a45523b30353941,
0x3b3b3b3b3b4e3b3b3b3b3b4d534e3b303b6e4d3b52204e47495320544e414e4f534e4f4320474e414a45523b31353941,
0x3b3b3b3b3b4e3b3b3b3b3b4c3b303b634d3b48204e47495320544e414e4f534e4f4320474e414a45523b32353941,
0x3b3b3b3b3b4e3b3b3b3b3b4c3b393b634d3b414d4152495620474e414a45523b33353941,
0x3b3b3b3b3b4e3b3b3b3b3b4c3b303b6f503b4b52414d204e4f495443455320474e414a45523b46353941,
0x3b3b3b3b3b4e3b3b3b3b3b4c3b303b6f4c3b4d5545494d2d5455454b495420474e4f45534f4843204c55474e41483b30363941,
0x3b3b3b3b3b4e3b3b3b3b3b4c3b303b6f4c3b50554549502d5455454b495420474e4f45534f4843204c55474e41483b31363941,
0x3b3b3b3b3b4e3b3b3b3b3b4c3b303b6f4c3b534f49532d5455454b495420474e4f45534f4843204c55474e41483b32363941,
0x3b3b3b3b3b4e3b3b3b3b3b4c3b303b6f4c3b43554549432d5455454b495420474e4f45534f4843204c55474e41483b33363941,
0x3b3b3b3b3b4e3b3b3b3b3b4c3b303b6f4c3b4b4f4559494b2d4c5545495220474e4f45534f4843204c55474e41483b34363941,
0x3b3b3b3b3b4e3b3b3b3b3b4c3b303b6f4c3b4b4f4559494b474e4153532d4c5545495220474e4f45534f4843204c55474e41483b35363941,
0x3b3b3b3b3b4e3b3b3b3b3b4c3b303b6f4c3b5455454b49542d4c5545495220474e4f45534f4843204c55474e41483b36363941,
0x3b3b3b3b3b4e3b3b3b3b3b4c3b303b6f4c3b5455454b4954474e4153532d4c5545495220474e4f45534f4843204c55474e41483b37363941,
0x3b3b3b3b3b4e3b3b3b3b3b4c3b303b6f4c3b4d5545494d2d4c5545495220474e4f45534f4843204c55474e41483b38363941,
0x3b3b3b3b3b4e3b3b3b3b3b4c3b303b6f4c3b50554549502d4c5545495220474e4f45534f4843204c55474e41483b39363941,
0x3b3b3b3b3b4e3b3b3b3b3b4c3b303b6f4c3b5055454950474e4153532d4c5545495220474e4f45534f4843204c55474e41483b41363941,
0x3b3b3b3b3b4e3b3b3b3b3b4c3b303b6f4c3b50554549504e554f455950414b2d4c5545495220474e4f45534f4843204c55474e41483b42363941,
0x3b3b3b3b3b4e3b3b3b3b3b4c3b303b6f4c3b534f49532d4c5545495220474e4f45534f4843204c55474e41483b43363941,
0x3b3b3b3b3b4e3b3b3b3b3b4c3b303b6f4c3b43554549432d4c5545495220474e4f45534f4843204c55474e41483b44363941,
0x3b3b3b3b3b4e3b3b3b3b3b4c3b303b6f4c3b484b554549484b2d4c5545495220474e4f45534f4843204c55474e41483b45363941,
0x3b3b3b3b3b4e3b3b3b3b3b4c3b303b6f4c3b4b4f4559494b2d4d5545494d20474e4f45534f4843204c55474e41483b46363941,
0x3b3b3b3b3b4e3b3b3b3b3b4c3b303b6f4c3b5455454b49542d4d5545494d20474e4f45534f4843204c55474e41483b30373941,
0x3b3b3b3b3b4e3b3b3b3b3b4c3b303b6f4c3b534f49532d4d5545494d20474e4f45534f4843204c55474e41483b31373941,
0x3b3b3b3b3b4e3b3b3b3b3b4c3b303b6f4c3b485455454948542d534f49532d505545495020474e4f45534f4843204c55474e41483b32373941,
0x3b3b3b3b3b4e3b3b3b3b3b4c3b303b6f4c3b484b554549484b2d505545495020474e4f45534f4843204c55474e41483b33373941,
0x3b3b3b3b3b4e3b3b3b3b3b4c3b303b6f4c3b48554549482d505545495020474e4f45534f4843204c55474e41483b34373941,
0x3b3b3b3b3b4e3b3b3b3b3b4c3b303b6f4c3b50554549502d534f4953474e41535320474e4f45534f4843204c55474e41483b35373941,
0x3b3b3b3b3b4e3b3b3b3b3b4c3b303b6f4c3b4c554549522d474e55454920474e4f45534f4843204c55474e41483b36373941,
0x3b3b3b3b3b4e3b3b3b3b3b4c3b303b6f4c3b48554549482d474e55454920474e4f45534f4843204c55474e41483b37373941,
0x3b3b3b3b3b4e3b3b3b3b3b4c3b303b6f4c3b48554549482d4355454943474e41535320474e4f45534f4843204c55474e41483b38373941,
0x3b3b3b3b3b4e3b3b3b3b3b4c3b303b6f4c3b48545545494854474e41535320474e4f45534f4843204c55474e41483b39373941,
0x3b3b3b3b3b4e3b3b3b3b3b4c3b303b6f4c3b48554549482d4850554549485020474e4f45534f4843204c55474e41483b41373941,
0x3b3b3b3b3b4e3b3b3b3b3b4c3b303b6f4c3b534f49532d485545494820474e4f45534f4843204c55474e41483b42373941,
0x3b3b3b3b3b4e3b3b3b3b3b4c3b303b6f4c3b48554549484e49524f4559474e41535320474e4f45534f4843204c55474e41483b43373941,
0x3b3b3b3b3b4e3b3b3b3b3b4d534e3b303b6e4d3b4147474e41594e4150204e474953204553454e4156414a3b30383941,
0x3b3b3b3b3b4e3b3b3b3b3b4d534e3b303b6e4d3b4b41434543204e474953204553454e4156414a3b31383941,
0x3b3b3b3b3b4e3b3b3b3b3b4d534e3b303b6e4d3b524159414c204e474953204553454e4156414a3b32383941,
0x3b3b3b3b3b4e3b3b3b3b3b4c3b303b634d3b4e41594e474957204e474953204553454e4156414a3b33383941,
0x3b3b3b3b3b4e3b3b3b3b3b4c3b303b6f4c3b412052455454454c204553454e4156414a3b34383941,
0x3b3b3b3b3b4e3b3b3b3b3b4c3b303b6f4c3b4957414b20492052455454454c204553454e4156414a3b35383941,
0x3b3b3b3b3b4e3b3b3b3b3b4c3b303b6f4c3b492052455454454c204553454e4156414a3b36383941,
0x3b3b3b3b3b4e3b3b3b3b3b4c3b303b6f4c3b49492052455454454c204553454e4156414a3b37383941,
0x3b3b3b3b3b4e3b3b3b3b3b4c3b303b6f4c3b552052455454454c204553454e4156414a3b38383941,
0x3b3b3b3b3b4e3b3b3b3b3b4c3b303b6f4c3b4b455245432041502052455454454c204553454e4156414a3b39383941,
0x3b3b3b3b3b4e3b3b3b3b3b4c3b303b6f4c3b54454c454c2041474e2052455454454c204553454e4156414a3b41383941,
0x3b3b3b3b3b4e3b3b3b3b3b4c3b303b6f4c3b494441575341522054454c454c2041474e2052455454454c204553454e4156414a3b42383941,
0x3b3b3b3b3b4e3b3b3b3b3b4c3b303b6f4c3b452052455454454c204553454e4156414a3b43383941,
0x3b3b3b3b3b4e3b3b3b3b3b4c3b303b6f4c3b49412052455454454c204553454e4156414a3b44383941,
0x3b3b3b3b3b4e3b3b3b3b3b4c3b303b6f4c3b4f2052455454454c204553454e4156414a3b45383941,
0x3b3b3b3b3b4e3b3b3b3b3b4c3b303b6f4c3b414b2052455454454c204553454e4156414a3b46383941,
0x3b3b3b3b3b4e3b3b3b3b3b4c3b303b6f4c3b4b4153415320414b2052455454454c204553454e4156414a3b30393941,
0x3b3b3b3b3b4e3b3b3b3b3b4c3b303b6f4c3b414452554d20414b2052455454454c204553454e4156414a3b31393941,
0x3b3b3b3b3b4e3b3b3b3b3b4c3b303b6f4c3b41472052455454454c204553454e4156414a3b32393941,
0x3b3b3b3b3b4e3b3b3b3b3b4c3b303b6f4c3b414452554d2041472052455454454c204553454e4156414a3b33393941,
0x3b3b3b3b3b4e3b3b3b3b3b4c3b303b6f4c3b41474e2052455454454c204553454e4156414a3b34393941,
0x3b3b3b3b3b4e3b3b3b3b3b4c3b303b6f4c3b41432052455454454c204553454e4156414a3b35393941,
0x3b3b3b3b3b4e3b3b3b3b3b4c3b303b6f4c3b414452554d2041432052455454454c204553454e4156414a3b36393941,
0x3b3b3b3b3b4e3b3b3b3b3b4c3b303b6f4c3b414a2052455454454c204553454e4156414a3b37393941,
0x3b3b3b3b3b4e3b3b3b3b3b4c3b303b6f4c3b414452554d2041594e2052455454454c204553454e4156414a3b38393941,
0x3b3b3b3b3b4e3b3b3b3b3b4c3b303b6f4c3b414e4152504148414d20414a2052455454454c204553454e4156414a3b39393941,
0x3b3b3b3b3b4e3b3b3b3b3b4c3b303b6f4c3b41594e2052455454454c204553454e4156414a3b41393941,
0x3b3b3b3b3b4e3b3b3b3b3b4c3b303b6f4c3b4154542052455454454c204553454e4156414a3b42393941,
0x3b3b3b3b3b4e3b3b3b3b3b4c3b303b6f4c3b414e4152504148414d204154542052455454454c204553454e4156414a3b43393941,
0x3b3b3b3b3b4e3b3b3b3b3b4c3b303b6f4c3b4144442052455454454c204553454e4156414a3b44393941,
0x3b3b3b3b3b4e3b3b3b3b3b4c3b303b6f4c3b414e4152504148414d204144442052455454454c204553454e4156414a3b45393941,
0x3b3b3b3b3b4e3b3b3b3b3b4c3b303b6f4c3b414452554d20414e2052455454454c204553454e4156414a3b46393941,
0x3b3b3b3b3b4e3b3b3b3b3b4c3b303b6f4c3b41542052455454454c204553454e4156414a3b30413941,
0x3b3b3b3b3b4e3b3b3b3b3b4c3b303b6f4c3b414452554d2041542052455454454c204553454e4156414a3b31413941,
0x3b3b3b3b3b4e3b3b3b3b3b4c3b303b6f4c3b41442052455454454c204553454e4156414a3b32413941,
0x3b3b3b3b3b4e3b3b3b3b3b4c3b303b6f4c3b414e4152504148414d2041442052455454454c204553454e4156414a3b33413941,
0x3b3b3b3b3b4e3b3b3b3b3b4c3b303b6f4c3b414e2052455454454c204553454e4156414a3b34413941]

/-- src/u5e/props/UnicodeData.txt lines 14337-14592. -/
def rawUcd56 : List Nat := [
0x3b3b3b3b3b4e3b3b3b3b3b4c3b303b6f4c3b41502052455454454c204553454e4156414a3b35413941,
0x3b3b3b3b3b4e3b3b3b3b3b4c3b303b6f4c3b414452554d2041502052455454454c204553454e4156414a3b36413941,
0x3b3b3b3b3b4e3b3b3b3b3b4c3b303b6f4c3b41422052455454454c204553454e4156414a3b37413941,
0x3b3b3b3b3b4e3b3b3b3b3b4c3b303b6f4c3b414452554d2041422052455454454c204553454e4156414a3b38413941,
0x3b3b3b3b3b4e3b3b3b3b3b4c3b303b6f4c3b414d2052455454454c204553454e4156414a3b39413941,
0x3b3b3b3b3b4e3b3b3b3b3b4c3b303b6f4c3b41592052455454454c204553454e4156414a3b41413941,
0x3b3b3b3b3b4e3b3b3b3b3b4c3b303b6f4c3b41522052455454454c204553454e4156414a3b42413941,
0x3b3b3b3b3b4e3b3b3b3b3b4c3b303b6f4c3b474e5547412041522052455454454c204553454e4156414a3b43413941,
0x3b3b3b3b3b4e3b3b3b3b3b4c3b303b6f4c3b414c2052455454454c204553454e4156414a3b44413941,
0x3b3b3b3b3b4e3b3b3b3b3b4c3b303b6f4c3b41572052455454454c204553454e4156414a3b45413941,
0x3b3b3b3b3b4e3b3b3b3b3b4c3b303b6f4c3b414452554d2041532052455454454c204553454e4156414a3b46413941,
0x3b3b3b3b3b4e3b3b3b3b3b4c3b303b6f4c3b414e4152504148414d2041532052455454454c204553454e4156414a3b30423941,
0x3b3b3b3b3b4e3b3b3b3b3b4c3b303b6f4c3b41532052455454454c204553454e4156414a3b31423941,
0x3b3b3b3b3b4e3b3b3b3b3b4c3b303b6f4c3b41482052455454454c204553454e4156414a3b32423941,
0x3b3b3b3b3b4e3b3b3b3b3b4d534e3b373b6e4d3b554c4554204b41434543204e474953204553454e4156414a3b33423941,
0x3b3b3b3b3b4e3b3b3b3b3b4c3b303b634d3b474e55524154204e474953204c45574f56204553454e4156414a3b34423941,
0x3b3b3b3b3b4e3b3b3b3b3b4c3b303b634d3b474e4f4c4f54204e474953204c45574f56204553454e4156414a3b35423941,
0x3b3b3b3b3b4e3b3b3b3b3b4d534e3b303b6e4d3b554c5557204e474953204c45574f56204553454e4156414a3b36423941,
0x3b3b3b3b3b4e3b3b3b3b3b4d534e3b303b6e4d3b4b494c454d20554c5557204e474953204c45574f56204553454e4156414a3b37423941,
0x3b3b3b3b3b4e3b3b3b3b3b4d534e3b303b6e4d3b554b5553204e474953204c45574f56204553454e4156414a3b38423941,
0x3b3b3b3b3b4e3b3b3b3b3b4d534e3b303b6e4d3b5455444e454d20554b5553204e474953204c45574f56204553454e4156414a3b39423941,
0x3b3b3b3b3b4e3b3b3b3b3b4c3b303b634d3b474e494c4154204e474953204c45574f56204553454e4156414a3b41423941,
0x3b3b3b3b3b4e3b3b3b3b3b4c3b303b634d3b4552554d204147524944204e474953204c45574f56204553454e4156414a3b42423941,
0x3b3b3b3b3b4e3b3b3b3b3b4d534e3b303b6e4d3b5445504550204e474953204c45574f56204553454e4156414a3b43423941,
0x3b3b3b3b3b4e3b3b3b3b3b4c3b303b634d3b544552454b204e47495320544e414e4f534e4f43204553454e4156414a3b44423941,
0x3b3b3b3b3b4e3b3b3b3b3b4c3b303b634d3b4c414b474e4550204e47495320544e414e4f534e4f43204553454e4156414a3b45423941,
0x3b3b3b3b3b4e3b3b3b3b3b4c3b303b634d3b41524b4143204e47495320544e414e4f534e4f43204553454e4156414a3b46423941,
0x3b3b3b3b3b4e3b3b3b3b3b4c3b393b634d3b4e4f4b474e4150204553454e4156414a3b30433941,
0x3b3b3b3b3b4e3b3b3b3b3b4c3b303b6f503b4e4147474e45524552205446454c204553454e4156414a3b31433941,
0x3b3b3b3b3b4e3b3b3b3b3b4c3b303b6f503b4e4147474e45524552205448474952204553454e4156414a3b32433941,
0x3b3b3b3b3b4e3b3b3b3b3b4c3b303b6f503b5041444e412041444150204553454e4156414a3b33433941,
0x3b3b3b3b3b4e3b3b3b3b3b4c3b303b6f503b415944414d2041444150204553454e4156414a3b34433941,
0x3b3b3b3b3b4e3b3b3b3b3b4c3b303b6f503b525548554c2041444150204553454e4156414a3b35433941,
0x3b3b3b3b3b4e3b3b3b3b3b4c3b303b6f503b55444e49572041444150204553454e4156414a3b36433941,
0x3b3b3b3b3b4e3b3b3b3b3b4c3b303b6f503b54414b474e41502041444150204553454e4156414a3b37433941,
0x3b3b3b3b3b4e3b3b3b3b3b4c3b303b6f503b4153474e494c2041444150204553454e4156414a3b38433941,
0x3b3b3b3b3b4e3b3b3b3b3b4c3b303b6f503b4953474e554c2041444150204553454e4156414a3b39433941,
0x3b3b3b3b3b4e3b3b3b3b3b4c3b303b6f503b474544412041444150204553454e4156414a3b41433941,
0x3b3b3b3b3b4e3b3b3b3b3b4c3b303b6f503b4745444120474544412041444150204553454e4156414a3b42433941,
0x3b3b3b3b3b4e3b3b3b3b3b4c3b303b6f503b48454c455349502041444150204553454e4156414a3b43433941,
0x3b3b3b3b3b4e3b3b3b3b3b4c3b303b6f503b48454c4553495020414441502044454e525554204553454e4156414a3b44433941,
0x3b3b3b3b3b4e3b3b3b3b3b4c3b303b6d4c3b50454b474e4152474e4150204553454e4156414a3b46433941,
0x3b3b3b3b3b4e3b303b303b303b3b4c3b303b644e3b4f52455a205449474944204553454e4156414a3b30443941,
0x3b3b3b3b3b4e3b313b313b313b3b4c3b303b644e3b454e4f205449474944204553454e4156414a3b31443941,
0x3b3b3b3b3b4e3b323b323b323b3b4c3b303b644e3b4f5754205449474944204553454e4156414a3b32443941,
0x3b3b3b3b3b4e3b333b333b333b3b4c3b303b644e3b4545524854205449474944204553454e4156414a3b33443941,
0x3b3b3b3b3b4e3b343b343b343b3b4c3b303b644e3b52554f46205449474944204553454e4156414a3b34443941,
0x3b3b3b3b3b4e3b353b353b353b3b4c3b303b644e3b45564946205449474944204553454e4156414a3b35443941,
0x3b3b3b3b3b4e3b363b363b363b3b4c3b303b644e3b584953205449474944204553454e4156414a3b36443941,
0x3b3b3b3b3b4e3b373b373b373b3b4c3b303b644e3b4e45564553205449474944204553454e4156414a3b37443941,
0x3b3b3b3b3b4e3b383b383b383b3b4c3b303b644e3b5448474945205449474944204553454e4156414a3b38443941,
0x3b3b3b3b3b4e3b393b393b393b3b4c3b303b644e3b454e494e205449474944204553454e4156414a3b39443941,
0x3b3b3b3b3b4e3b3b3b3b3b4c3b303b6f503b534554454d55542041545249542041444150204553454e4156414a3b45443941,
0x3b3b3b3b3b4e3b3b3b3b3b4c3b303b6f503b4e4553492d4e4553492041444150204553454e4156414a3b46443941,
0x3b3b3b3b3b4e3b3b3b3b3b4c3b303b6f4c3b414847204e4148532052455454454c2052414d4e41594d3b30453941,
0x3b3b3b3b3b4e3b3b3b3b3b4c3b303b6f4c3b414843204e4148532052455454454c2052414d4e41594d3b31453941,
0x3b3b3b3b3b4e3b3b3b3b3b4c3b303b6f4c3b41484a204e4148532052455454454c2052414d4e41594d3b32453941,
0x3b3b3b3b3b4e3b3b3b3b3b4c3b303b6f4c3b414e4e204e4148532052455454454c2052414d4e41594d3b33453941,
0x3b3b3b3b3b4e3b3b3b3b3b4c3b303b6f4c3b414842204e4148532052455454454c2052414d4e41594d3b34453941,
0x3b3b3b3b3b4e3b3b3b3b3b4d534e3b303b6e4d3b574153204e414853204e4749532052414d4e41594d3b35453941,
0x3b3b3b3b3b4e3b3b3b3b3b4c3b303b6d4c3b4e4f49544143494c5055444552204e4148532052455454454c205245494649444f4d2052414d4e41594d3b36453941,
0x3b3b3b3b3b4e3b3b3b3b3b4c3b303b6f4c3b41594e20474e49414c204941542052455454454c2052414d4e41594d3b37453941,
0x3b3b3b3b3b4e3b3b3b3b3b4c3b303b6f4c3b414620474e49414c204941542052455454454c2052414d4e41594d3b38453941,
0x3b3b3b3b3b4e3b3b3b3b3b4c3b303b6f4c3b414720474e49414c204941542052455454454c2052414d4e41594d3b39453941,
0x3b3b3b3b3b4e3b3b3b3b3b4c3b303b6f4c3b41484720474e49414c204941542052455454454c2052414d4e41594d3b41453941,
0x3b3b3b3b3b4e3b3b3b3b3b4c3b303b6f4c3b414a20474e49414c204941542052455454454c2052414d4e41594d3b42453941,
0x3b3b3b3b3b4e3b3b3b3b3b4c3b303b6f4c3b41484a20474e49414c204941542052455454454c2052414d4e41594d3b43453941,
0x3b3b3b3b3b4e3b3b3b3b3b4c3b303b6f4c3b41444420474e49414c204941542052455454454c2052414d4e41594d3b44453941,
0x3b3b3b3b3b4e3b3b3b3b3b4c3b303b6f4c3b4148444420474e49414c204941542052455454454c2052414d4e41594d3b45453941,
0x3b3b3b3b3b4e3b3b3b3b3b4c3b303b6f4c3b414e4e20474e49414c204941542052455454454c2052414d4e41594d3b46453941,
0x3b3b3b3b3b4e3b303b303b303b3b4c3b303b644e3b4f52455a20544947494420474e49414c204941542052414d4e41594d3b30463941,
0x3b3b3b3b3b4e3b313b313b313b3b4c3b303b644e3b454e4f20544947494420474e49414c204941542052414d4e41594d3b31463941,
0x3b3b3b3b3b4e3b323b323b323b3b4c3b303b644e3b4f575420544947494420474e49414c204941542052414d4e41594d3b32463941,
0x3b3b3b3b3b4e3b333b333b333b3b4c3b303b644e3b454552485420544947494420474e49414c204941542052414d4e41594d3b33463941,
0x3b3b3b3b3b4e3b343b343b343b3b4c3b303b644e3b52554f4620544947494420474e49414c204941542052414d4e41594d3b34463941,
0x3b3b3b3b3b4e3b353b353b353b3b4c3b303b644e3b4556494620544947494420474e49414c204941542052414d4e41594d3b35463941,
0x3b3b3b3b3b4e3b363b363b363b3b4c3b303b644e3b58495320544947494420474e49414c204941542052414d4e41594d3b36463941,
0x3b3b3b3b3b4e3b373b373b373b3b4c3b303b644e3b4e4556455320544947494420474e49414c204941542052414d4e41594d3b37463941,
0x3b3b3b3b3b4e3b383b383b383b3b4c3b303b644e3b544847494520544947494420474e49414c204941542052414d4e41594d3b38463941,
0x3b3b3b3b3b4e3b393b393b393b3b4c3b303b644e3b454e494e20544947494420474e49414c204941542052414d4e41594d3b39463941,
0x3b3b3b3b3b4e3b3b3b3b3b4c3b303b6f4c3b414c4c20474e49414c204941542052455454454c2052414d4e41594d3b41463941,
0x3b3b3b3b3b4e3b3b3b3b3b4c3b303b6f4c3b414420474e49414c204941542052455454454c2052414d4e41594d3b42463941,
0x3b3b3b3b3b4e3b3b3b3b3b4c3b303b6f4c3b41484420474e49414c204941542052455454454c2052414d4e41594d3b43463941,
0x3b3b3b3b3b4e3b3b3b3b3b4c3b303b6f4c3b414220474e49414c204941542052455454454c2052414d4e41594d3b44463941,
0x3b3b3b3b3b4e3b3b3b3b3b4c3b303b6f4c3b41484220474e49414c204941542052455454454c2052414d4e41594d3b45463941,
0x3b3b3b3b3b4e3b3b3b3b3b4c3b303b6f4c3b412052455454454c204d4148433b30304141,
0x3b3b3b3b3b4e3b3b3b3b3b4c3b303b6f4c3b492052455454454c204d4148433b31304141,
0x3b3b3b3b3b4e3b3b3b3b3b4c3b303b6f4c3b552052455454454c204d4148433b32304141,
0x3b3b3b3b3b4e3b3b3b3b3b4c3b303b6f4c3b452052455454454c204d4148433b33304141,
0x3b3b3b3b3b4e3b3b3b3b3b4c3b303b6f4c3b49412052455454454c204d4148433b34304141,
0x3b3b3b3b3b4e3b3b3b3b3b4c3b303b6f4c3b4f2052455454454c204d4148433b35304141,
0x3b3b3b3b3b4e3b3b3b3b3b4c3b303b6f4c3b414b2052455454454c204d4148433b36304141,
0x3b3b3b3b3b4e3b3b3b3b3b4c3b303b6f4c3b41484b2052455454454c204d4148433b37304141,
0x3b3b3b3b3b4e3b3b3b3b3b4c3b303b6f4c3b41472052455454454c204d4148433b38304141,
0x3b3b3b3b3b4e3b3b3b3b3b4c3b303b6f4c3b4148472052455454454c204d4148433b39304141,
0x3b3b3b3b3b4e3b3b3b3b3b4c3b303b6f4c3b4555474e2052455454454c204d4148433b41304141,
0x3b3b3b3b3b4e3b3b3b3b3b4c3b303b6f4c3b41474e2052455454454c204d4148433b42304141,
0x3b3b3b3b3b4e3b3b3b3b3b4c3b303b6f4c3b4148432052455454454c204d4148433b43304141,
0x3b3b3b3b3b4e3b3b3b3b3b4c3b303b6f4c3b414848432052455454454c204d4148433b44304141,
0x3b3b3b3b3b4e3b3b3b3b3b4c3b303b6f4c3b414a2052455454454c204d4148433b45304141,
0x3b3b3b3b3b4e3b3b3b3b3b4c3b303b6f4c3b41484a2052455454454c204d4148433b46304141,
0x3b3b3b3b3b4e3b3b3b3b3b4c3b303b6f4c3b4555484e2052455454454c204d4148433b30314141,
0x3b3b3b3b3b4e3b3b3b3b3b4c3b303b6f4c3b41484e2052455454454c204d4148433b31314141,
0x3b3b3b3b3b4e3b3b3b3b3b4c3b303b6f4c3b414a484e2052455454454c204d4148433b32314141,
0x3b3b3b3b3b4e3b3b3b3b3b4c3b303b6f4c3b41542052455454454c204d4148433b33314141,
0x3b3b3b3b3b4e3b3b3b3b3b4c3b303b6f4c3b4148542052455454454c204d4148433b34314141,
0x3b3b3b3b3b4e3b3b3b3b3b4c3b303b6f4c3b41442052455454454c204d4148433b35314141,
0x3b3b3b3b3b4e3b3b3b3b3b4c3b303b6f4c3b4148442052455454454c204d4148433b36314141,
0x3b3b3b3b3b4e3b3b3b3b3b4c3b303b6f4c3b45554e2052455454454c204d4148433b37314141,
0x3b3b3b3b3b4e3b3b3b3b3b4c3b303b6f4c3b414e2052455454454c204d4148433b38314141,
0x3b3b3b3b3b4e3b3b3b3b3b4c3b303b6f4c3b4144442052455454454c204d4148433b39314141,
0x3b3b3b3b3b4e3b3b3b3b3b4c3b303b6f4c3b41502052455454454c204d4148433b41314141,
0x3b3b3b3b3b4e3b3b3b3b3b4c3b303b6f4c3b4150502052455454454c204d4148433b42314141,
0x3b3b3b3b3b4e3b3b3b3b3b4c3b303b6f4c3b4148502052455454454c204d4148433b43314141,
0x3b3b3b3b3b4e3b3b3b3b3b4c3b303b6f4c3b41422052455454454c204d4148433b44314141,
0x3b3b3b3b3b4e3b3b3b3b3b4c3b303b6f4c3b4148422052455454454c204d4148433b45314141,
0x3b3b3b3b3b4e3b3b3b3b3b4c3b303b6f4c3b45554d2052455454454c204d4148433b46314141,
0x3b3b3b3b3b4e3b3b3b3b3b4c3b303b6f4c3b414d2052455454454c204d4148433b30324141,
0x3b3b3b3b3b4e3b3b3b3b3b4c3b303b6f4c3b4142422052455454454c204d4148433b31324141,
0x3b3b3b3b3b4e3b3b3b3b3b4c3b303b6f4c3b41592052455454454c204d4148433b32324141,
0x3b3b3b3b3b4e3b3b3b3b3b4c3b303b6f4c3b41522052455454454c204d4148433b33324141,
0x3b3b3b3b3b4e3b3b3b3b3b4c3b303b6f4c3b414c2052455454454c204d4148433b34324141,
0x3b3b3b3b3b4e3b3b3b3b3b4c3b303b6f4c3b41562052455454454c204d4148433b35324141,
0x3b3b3b3b3b4e3b3b3b3b3b4c3b303b6f4c3b4153532052455454454c204d4148433b36324141,
0x3b3b3b3b3b4e3b3b3b3b3b4c3b303b6f4c3b41532052455454454c204d4148433b37324141,
0x3b3b3b3b3b4e3b3b3b3b3b4c3b303b6f4c3b41482052455454454c204d4148433b38324141,
0x3b3b3b3b3b4e3b3b3b3b3b4d534e3b303b6e4d3b4141204e474953204c45574f56204d4148433b39324141,
0x3b3b3b3b3b4e3b3b3b3b3b4d534e3b303b6e4d3b49204e474953204c45574f56204d4148433b41324141,
0x3b3b3b3b3b4e3b3b3b3b3b4d534e3b303b6e4d3b4949204e474953204c45574f56204d4148433b42324141,
0x3b3b3b3b3b4e3b3b3b3b3b4d534e3b303b6e4d3b4945204e474953204c45574f56204d4148433b43324141,
0x3b3b3b3b3b4e3b3b3b3b3b4d534e3b303b6e4d3b55204e474953204c45574f56204d4148433b44324141,
0x3b3b3b3b3b4e3b3b3b3b3b4d534e3b303b6e4d3b454f204e474953204c45574f56204d4148433b45324141,
0x3b3b3b3b3b4e3b3b3b3b3b4c3b303b634d3b4f204e474953204c45574f56204d4148433b46324141,
0x3b3b3b3b3b4e3b3b3b3b3b4c3b303b634d3b4941204e474953204c45574f56204d4148433b30334141,
0x3b3b3b3b3b4e3b3b3b3b3b4d534e3b303b6e4d3b5541204e474953204c45574f56204d4148433b31334141,
0x3b3b3b3b3b4e3b3b3b3b3b4d534e3b303b6e4d3b4555204e474953204c45574f56204d4148433b32334141,
0x3b3b3b3b3b4e3b3b3b3b3b4c3b303b634d3b4159204e47495320544e414e4f534e4f43204d4148433b33334141,
0x3b3b3b3b3b4e3b3b3b3b3b4c3b303b634d3b4152204e47495320544e414e4f534e4f43204d4148433b34334141,
0x3b3b3b3b3b4e3b3b3b3b3b4d534e3b303b6e4d3b414c204e47495320544e414e4f534e4f43204d4148433b35334141,
0x3b3b3b3b3b4e3b3b3b3b3b4d534e3b303b6e4d3b4157204e47495320544e414e4f534e4f43204d4148433b36334141,
0x3b3b3b3b3b4e3b3b3b3b3b4c3b303b6f4c3b4b204c414e49462052455454454c204d4148433b30344141,
0x3b3b3b3b3b4e3b3b3b3b3b4c3b303b6f4c3b47204c414e49462052455454454c204d4148433b31344141,
0x3b3b3b3b3b4e3b3b3b3b3b4c3b303b6f4c3b474e204c414e49462052455454454c204d4148433b32344141,
0x3b3b3b3b3b4e3b3b3b3b3b4d534e3b303b6e4d3b474e204c414e4946204e47495320544e414e4f534e4f43204d4148433b33344141,
0x3b3b3b3b3b4e3b3b3b3b3b4c3b303b6f4c3b4843204c414e49462052455454454c204d4148433b34344141,
0x3b3b3b3b3b4e3b3b3b3b3b4c3b303b6f4c3b54204c414e49462052455454454c204d4148433b35344141,
0x3b3b3b3b3b4e3b3b3b3b3b4c3b303b6f4c3b4e204c414e49462052455454454c204d4148433b36344141,
0x3b3b3b3b3b4e3b3b3b3b3b4c3b303b6f4c3b50204c414e49462052455454454c204d4148433b37344141,
0x3b3b3b3b3b4e3b3b3b3b3b4c3b303b6f4c3b59204c414e49462052455454454c204d4148433b38344141,
0x3b3b3b3b3b4e3b3b3b3b3b4c3b303b6f4c3b52204c414e49462052455454454c204d4148433b39344141,
0x3b3b3b3b3b4e3b3b3b3b3b4c3b303b6f4c3b4c204c414e49462052455454454c204d4148433b41344141,
0x3b3b3b3b3b4e3b3b3b3b3b4c3b303b6f4c3b5353204c414e49462052455454454c204d4148433b42344141,
0x3b3b3b3b3b4e3b3b3b3b3b4d534e3b303b6e4d3b4d204c414e4946204e47495320544e414e4f534e4f43204d4148433b43344141,
0x3b3b3b3b3b4e3b3b3b3b3b4c3b303b634d3b48204c414e4946204e47495320544e414e4f534e4f43204d4148433b44344141,
0x3b3b3b3b3b4e3b303b303b303b3b4c3b303b644e3b4f52455a205449474944204d4148433b30354141,
0x3b3b3b3b3b4e3b313b313b313b3b4c3b303b644e3b454e4f205449474944204d4148433b31354141,
0x3b3b3b3b3b4e3b323b323b323b3b4c3b303b644e3b4f5754205449474944204d4148433b32354141,
0x3b3b3b3b3b4e3b333b333b333b3b4c3b303b644e3b4545524854205449474944204d4148433b33354141,
0x3b3b3b3b3b4e3b343b343b343b3b4c3b303b644e3b52554f46205449474944204d4148433b34354141,
0x3b3b3b3b3b4e3b353b353b353b3b4c3b303b644e3b45564946205449474944204d4148433b35354141,
0x3b3b3b3b3b4e3b363b363b363b3b4c3b303b644e3b584953205449474944204d4148433b36354141,
0x3b3b3b3b3b4e3b373b373b373b3b4c3b303b644e3b4e45564553205449474944204d4148433b37354141,
0x3b3b3b3b3b4e3b383b383b383b3b4c3b303b644e3b5448474945205449474944204d4148433b38354141,
0x3b3b3b3b3b4e3b393b393b393b3b4c3b303b644e3b454e494e205449474944204d4148433b39354141,
0x3b3b3b3b3b4e3b3b3b3b3b4c3b303b6f503b4c4152495053204e4f4954415554434e5550204d4148433b43354141,
0x3b3b3b3b3b4e3b3b3b3b3b4c3b303b6f503b41444e4144204e4f4954415554434e5550204d4148433b44354141,
0x3b3b3b3b3b4e3b3b3b3b3b4c3b303b6f503b41444e414420454c42554f44204e4f4954415554434e5550204d4148433b45354141,
0x3b3b3b3b3b4e3b3b3b3b3b4c3b303b6f503b41444e414420454c50495254204e4f4954415554434e5550204d4148433b46354141,
0x3b3b3b3b3b4e3b3b3b3b3b4c3b303b6f4c3b41472049544d41484b2052455454454c2052414d4e41594d3b30364141,
0x3b3b3b3b3b4e3b3b3b3b3b4c3b303b6f4c3b41432049544d41484b2052455454454c2052414d4e41594d3b31364141,
0x3b3b3b3b3b4e3b3b3b3b3b4c3b303b6f4c3b4148432049544d41484b2052455454454c2052414d4e41594d3b32364141,
0x3b3b3b3b3b4e3b3b3b3b3b4c3b303b6f4c3b414a2049544d41484b2052455454454c2052414d4e41594d3b33364141,
0x3b3b3b3b3b4e3b3b3b3b3b4c3b303b6f4c3b41484a2049544d41484b2052455454454c2052414d4e41594d3b34364141,
0x3b3b3b3b3b4e3b3b3b3b3b4c3b303b6f4c3b41594e2049544d41484b2052455454454c2052414d4e41594d3b35364141,
0x3b3b3b3b3b4e3b3b3b3b3b4c3b303b6f4c3b4154542049544d41484b2052455454454c2052414d4e41594d3b36364141,
0x3b3b3b3b3b4e3b3b3b3b3b4c3b303b6f4c3b414854542049544d41484b2052455454454c2052414d4e41594d3b37364141,
0x3b3b3b3b3b4e3b3b3b3b3b4c3b303b6f4c3b4144442049544d41484b2052455454454c2052414d4e41594d3b38364141,
0x3b3b3b3b3b4e3b3b3b3b3b4c3b303b6f4c3b414844442049544d41484b2052455454454c2052414d4e41594d3b39364141,
0x3b3b3b3b3b4e3b3b3b3b3b4c3b303b6f4c3b4148442049544d41484b2052455454454c2052414d4e41594d3b41364141,
0x3b3b3b3b3b4e3b3b3b3b3b4c3b303b6f4c3b414e2049544d41484b2052455454454c2052414d4e41594d3b42364141,
0x3b3b3b3b3b4e3b3b3b3b3b4c3b303b6f4c3b41532049544d41484b2052455454454c2052414d4e41594d3b43364141,
0x3b3b3b3b3b4e3b3b3b3b3b4c3b303b6f4c3b41482049544d41484b2052455454454c2052414d4e41594d3b44364141,
0x3b3b3b3b3b4e3b3b3b3b3b4c3b303b6f4c3b4148482049544d41484b2052455454454c2052414d4e41594d3b45364141,
0x3b3b3b3b3b4e3b3b3b3b3b4c3b303b6f4c3b41462049544d41484b2052455454454c2052414d4e41594d3b46364141,
0x3b3b3b3b3b4e3b3b3b3b3b4c3b303b6d4c3b4e4f49544143494c50554445522049544d41484b2052455454454c205245494649444f4d2052414d4e41594d3b30374141,
0x3b3b3b3b3b4e3b3b3b3b3b4c3b303b6f4c3b41582049544d41484b2052455454454c2052414d4e41594d3b31374141,
0x3b3b3b3b3b4e3b3b3b3b3b4c3b303b6f4c3b415a2049544d41484b2052455454454c2052414d4e41594d3b32374141,
0x3b3b3b3b3b4e3b3b3b3b3b4c3b303b6f4c3b41522049544d41484b2052455454454c2052414d4e41594d3b33374141,
0x3b3b3b3b3b4e3b3b3b3b3b4c3b303b6f4c3b59414f2049544d41484b204d4152474f474f4c2052414d4e41594d3b34374141,
0x3b3b3b3b3b4e3b3b3b3b3b4c3b303b6f4c3b4e512049544d41484b204d4152474f474f4c2052414d4e41594d3b35374141,
0x3b3b3b3b3b4e3b3b3b3b3b4c3b303b6f4c3b4d482049544d41484b204d4152474f474f4c2052414d4e41594d3b36374141,
0x3b3b3b3b3b4e3b3b3b3b3b4c3b303b6f533b4e4f4954414d414c435845204e4f544941204c4f424d59532052414d4e41594d3b37374141,
0x3b3b3b3b3b4e3b3b3b3b3b4c3b303b6f533b454e4f204e4f544941204c4f424d59532052414d4e41594d3b38374141,
0x3b3b3b3b3b4e3b3b3b3b3b4c3b303b6f533b4f5754204e4f544941204c4f424d59532052414d4e41594d3b39374141,
0x3b3b3b3b3b4e3b3b3b3b3b4c3b303b6f4c3b4152204e4f5449412052455454454c2052414d4e41594d3b41374141,
0x3b3b3b3b3b4e3b3b3b3b3b4c3b303b634d3b454e4f54204e4552414b204f4150204e4749532052414d4e41594d3b42374141,
0x3b3b3b3b3b4e3b3b3b3b3b4d534e3b303b6e4d3b322d454e4f5420474e49414c20494154204e4749532052414d4e41594d3b43374141,
0x3b3b3b3b3b4e3b3b3b3b3b4c3b303b634d3b352d454e4f5420474e49414c20494154204e4749532052414d4e41594d3b44374141,
0x3b3b3b3b3b4e3b3b3b3b3b4c3b303b6f4c3b41484320474e55414c415020455748532052455454454c2052414d4e41594d3b45374141,
0x3b3b3b3b3b4e3b3b3b3b3b4c3b303b6f4c3b41485320474e55414c415020455748532052455454454c2052414d4e41594d3b46374141,
0x3b3b3b3b3b4e3b3b3b3b3b4c3b303b6f4c3b4f4b20574f4c2052455454454c2054454956204941543b30384141,
0x3b3b3b3b3b4e3b3b3b3b3b4c3b303b6f4c3b4f4b20484749482052455454454c2054454956204941543b31384141,
0x3b3b3b3b3b4e3b3b3b3b3b4c3b303b6f4c3b4f484b20574f4c2052455454454c2054454956204941543b32384141,
0x3b3b3b3b3b4e3b3b3b3b3b4c3b303b6f4c3b4f484b20484749482052455454454c2054454956204941543b33384141,
0x3b3b3b3b3b4e3b3b3b3b3b4c3b303b6f4c3b4f48484b20574f4c2052455454454c2054454956204941543b34384141,
0x3b3b3b3b3b4e3b3b3b3b3b4c3b303b6f4c3b4f48484b20484749482052455454454c2054454956204941543b35384141,
0x3b3b3b3b3b4e3b3b3b3b3b4c3b303b6f4c3b4f4720574f4c2052455454454c2054454956204941543b36384141,
0x3b3b3b3b3b4e3b3b3b3b3b4c3b303b6f4c3b4f4720484749482052455454454c2054454956204941543b37384141,
0x3b3b3b3b3b4e3b3b3b3b3b4c3b303b6f4c3b4f474e20574f4c2052455454454c2054454956204941543b38384141,
0x3b3b3b3b3b4e3b3b3b3b3b4c3b303b6f4c3b4f474e20484749482052455454454c2054454956204941543b39384141,
0x3b3b3b3b3b4e3b3b3b3b3b4c3b303b6f4c3b4f4320574f4c2052455454454c2054454956204941543b41384141,
0x3b3b3b3b3b4e3b3b3b3b3b4c3b303b6f4c3b4f4320484749482052455454454c2054454956204941543b42384141,
0x3b3b3b3b3b4e3b3b3b3b3b4c3b303b6f4c3b4f484320574f4c2052455454454c2054454956204941543b43384141,
0x3b3b3b3b3b4e3b3b3b3b3b4c3b303b6f4c3b4f484320484749482052455454454c2054454956204941543b44384141,
0x3b3b3b3b3b4e3b3b3b3b3b4c3b303b6f4c3b4f5320574f4c2052455454454c2054454956204941543b45384141,
0x3b3b3b3b3b4e3b3b3b3b3b4c3b303b6f4c3b4f5320484749482052455454454c2054454956204941543b46384141,
0x3b3b3b3b3b4e3b3b3b3b3b4c3b303b6f4c3b4f594e20574f4c2052455454454c2054454956204941543b30394141,
0x3b3b3b3b3b4e3b3b3b3b3b4c3b303b6f4c3b4f594e20484749482052455454454c2054454956204941543b31394141,
0x3b3b3b3b3b4e3b3b3b3b3b4c3b303b6f4c3b4f4420574f4c2052455454454c2054454956204941543b32394141,
0x3b3b3b3b3b4e3b3b3b3b3b4c3b303b6f4c3b4f4420484749482052455454454c2054454956204941543b33394141,
0x3b3b3b3b3b4e3b3b3b3b3b4c3b303b6f4c3b4f5420574f4c2052455454454c2054454956204941543b34394141,
0x3b3b3b3b3b4e3b3b3b3b3b4c3b303b6f4c3b4f5420484749482052455454454c2054454956204941543b35394141,
0x3b3b3b3b3b4e3b3b3b3b3b4c3b303b6f4c3b4f485420574f4c2052455454454c2054454956204941543b36394141,
0x3b3b3b3b3b4e3b3b3b3b3b4c3b303b6f4c3b4f485420484749482052455454454c2054454956204941543b37394141,
0x3b3b3b3b3b4e3b3b3b3b3b4c3b303b6f4c3b4f4e20574f4c2052455454454c2054454956204941543b38394141,
0x3b3b3b3b3b4e3b3b3b3b3b4c3b303b6f4c3b4f4e20484749482052455454454c2054454956204941543b39394141,
0x3b3b3b3b3b4e3b3b3b3b3b4c3b303b6f4c3b4f4220574f4c2052455454454c2054454956204941543b41394141,
0x3b3b3b3b3b4e3b3b3b3b3b4c3b303b6f4c3b4f4220484749482052455454454c2054454956204941543b42394141,
0x3b3b3b3b3b4e3b3b3b3b3b4c3b303b6f4c3b4f5020574f4c2052455454454c2054454956204941543b43394141,
0x3b3b3b3b3b4e3b3b3b3b3b4c3b303b6f4c3b4f5020484749482052455454454c2054454956204941543b44394141,
0x3b3b3b3b3b4e3b3b3b3b3b4c3b303b6f4c3b4f485020574f4c2052455454454c2054454956204941543b45394141,
0x3b3b3b3b3b4e3b3b3b3b3b4c3b303b6f4c3b4f485020484749482052455454454c2054454956204941543b46394141,
0x3b3b3b3b3b4e3b3b3b3b3b4c3b303b6f4c3b4f4620574f4c2052455454454c2054454956204941543b30414141,
0x3b3b3b3b3b4e3b3b3b3b3b4c3b303b6f4c3b4f4620484749482052455454454c2054454956204941543b31414141,
0x3b3b3b3b3b4e3b3b3b3b3b4c3b303b6f4c3b4f4d20574f4c2052455454454c2054454956204941543b32414141,
0x3b3b3b3b3b4e3b3b3b3b3b4c3b303b6f4c3b4f4d20484749482052455454454c2054454956204941543b33414141,
0x3b3b3b3b3b4e3b3b3b3b3b4c3b303b6f4c3b4f5920574f4c2052455454454c2054454956204941543b34414141,
0x3b3b3b3b3b4e3b3b3b3b3b4c3b303b6f4c3b4f5920484749482052455454454c2054454956204941543b35414141,
0x3b3b3b3b3b4e3b3b3b3b3b4c3b303b6f4c3b4f5220574f4c2052455454454c2054454956204941543b36414141,
0x3b3b3b3b3b4e3b3b3b3b3b4c3b303b6f4c3b4f5220484749482052455454454c2054454956204941543b37414141,
0x3b3b3b3b3b4e3b3b3b3b3b4c3b303b6f4c3b4f4c20574f4c2052455454454c2054454956204941543b38414141,
0x3b3b3b3b3b4e3b3b3b3b3b4c3b303b6f4c3b4f4c20484749482052455454454c2054454956204941543b39414141,
0x3b3b3b3b3b4e3b3b3b3b3b4c3b303b6f4c3b4f5620574f4c2052455454454c2054454956204941543b41414141,
0x3b3b3b3b3b4e3b3b3b3b3b4c3b303b6f4c3b4f5620484749482052455454454c2054454956204941543b42414141,
0x3b3b3b3b3b4e3b3b3b3b3b4c3b303b6f4c3b4f4820574f4c2052455454454c2054454956204941543b43414141,
0x3b3b3b3b3b4e3b3b3b3b3b4c3b303b6f4c3b4f4820484749482052455454454c2054454956204941543b44414141,
0x3b3b3b3b3b4e3b3b3b3b3b4c3b303b6f4c3b4f20574f4c2052455454454c2054454956204941543b45414141,
0x3b3b3b3b3b4e3b3b3b3b3b4c3b303b6f4c3b4f20484749482052455454454c2054454956204941543b46414141,
0x3b3b3b3b3b4e3b3b3b3b3b4d534e3b3033323b6e4d3b474e414b2049414d2054454956204941543b30424141,
0x3b3b3b3b3b4e3b3b3b3b3b4c3b303b6f4c3b4141204c45574f562054454956204941543b31424141,
0x3b3b3b3b3b4e3b3b3b3b3b4d534e3b3033323b6e4d3b49204c45574f562054454956204941543b32424141,
0x3b3b3b3b3b4e3b3b3b3b3b4d534e3b3033323b6e4d3b4555204c45574f562054454956204941543b33424141,
0x3b3b3b3b3b4e3b3b3b3b3b4d534e3b3032323b6e4d3b55204c45574f562054454956204941543b34424141,
0x3b3b3b3b3b4e3b3b3b3b3b4c3b303b6f4c3b45204c45574f562054454956204941543b35424141,
0x3b3b3b3b3b4e3b3b3b3b3b4c3b303b6f4c3b4f204c45574f562054454956204941543b36424141,
0x3b3b3b3b3b4e3b3b3b3b3b4d534e3b3033323b6e4d3b5449484b2049414d2054454956204941543b37424141]

/-- src/u5e/props/UnicodeData.txt lines 14593-14848. -/
def rawUcd57 : List Nat := [
0x3b3b3b3b3b4e3b3b3b3b3b4d534e3b3033323b6e4d3b4149204c45574f562054454956204941543b38424141,
0x3b3b3b3b3b4e3b3b3b3b3b4c3b303b6f4c3b414555204c45574f562054454956204941543b39424141,
0x3b3b3b3b3b4e3b3b3b3b3b4c3b303b6f4c3b4155204c45574f562054454956204941543b41424141,
0x3b3b3b3b3b4e3b3b3b3b3b4c3b303b6f4c3b455541204c45574f562054454956204941543b42424141,
0x3b3b3b3b3b4e3b3b3b3b3b4c3b303b6f4c3b5941204c45574f562054454956204941543b43424141,
0x3b3b3b3b3b4e3b3b3b3b3b4c3b303b6f4c3b4e41204c45574f562054454956204941543b44424141,
0x3b3b3b3b3b4e3b3b3b3b3b4d534e3b3033323b6e4d3b4d41204c45574f562054454956204941543b45424141,
0x3b3b3b3b3b4e3b3b3b3b3b4d534e3b3033323b6e4d3b4b452049414d20454e4f542054454956204941543b46424141,
0x3b3b3b3b3b4e3b3b3b3b3b4c3b303b6f4c3b474e45554e2049414d20454e4f542054454956204941543b30434141,
0x3b3b3b3b3b4e3b3b3b3b3b4d534e3b3033323b6e4d3b4f48542049414d20454e4f542054454956204941543b31434141,
0x3b3b3b3b3b4e3b3b3b3b3b4c3b303b6f4c3b474e4f532049414d20454e4f542054454956204941543b32434141,
0x3b3b3b3b3b4e3b3b3b3b3b4c3b303b6f4c3b4e4f4b204c4f424d59532054454956204941543b42444141,
0x3b3b3b3b3b4e3b3b3b3b3b4c3b303b6f4c3b474e45554e204c4f424d59532054454956204941543b43444141,
0x3b3b3b3b3b4e3b3b3b3b3b4c3b303b6d4c3b4d4153204c4f424d59532054454956204941543b44444141,
0x3b3b3b3b3b4e3b3b3b3b3b4c3b303b6f503b494f48204f48204c4f424d59532054454956204941543b45444141,
0x3b3b3b3b3b4e3b3b3b3b3b4c3b303b6f503b494f4b20494f4b204c4f424d59532054454956204941543b46444141,
0x3b3b3b3b3b4e3b3b3b3b3b4c3b303b6f4c3b452052455454454c204b4559414d2049455445454d3b30454141,
0x3b3b3b3b3b4e3b3b3b3b3b4c3b303b6f4c3b4f2052455454454c204b4559414d2049455445454d3b31454141,
0x3b3b3b3b3b4e3b3b3b3b3b4c3b303b6f4c3b4148432052455454454c204b4559414d2049455445454d3b32454141,
0x3b3b3b3b3b4e3b3b3b3b3b4c3b303b6f4c3b41594e2052455454454c204b4559414d2049455445454d3b33454141,
0x3b3b3b3b3b4e3b3b3b3b3b4c3b303b6f4c3b4154542052455454454c204b4559414d2049455445454d3b34454141,
0x3b3b3b3b3b4e3b3b3b3b3b4c3b303b6f4c3b414854542052455454454c204b4559414d2049455445454d3b35454141,
0x3b3b3b3b3b4e3b3b3b3b3b4c3b303b6f4c3b4144442052455454454c204b4559414d2049455445454d3b36454141,
0x3b3b3b3b3b4e3b3b3b3b3b4c3b303b6f4c3b414844442052455454454c204b4559414d2049455445454d3b37454141,
0x3b3b3b3b3b4e3b3b3b3b3b4c3b303b6f4c3b414e4e2052455454454c204b4559414d2049455445454d3b38454141,
0x3b3b3b3b3b4e3b3b3b3b3b4c3b303b6f4c3b4148532052455454454c204b4559414d2049455445454d3b39454141,
0x3b3b3b3b3b4e3b3b3b3b3b4c3b303b6f4c3b4153532052455454454c204b4559414d2049455445454d3b41454141,
0x3b3b3b3b3b4e3b3b3b3b3b4c3b303b634d3b4949204e474953204c45574f56204b4559414d2049455445454d3b42454141,
0x3b3b3b3b3b4e3b3b3b3b3b4d534e3b303b6e4d3b5555204e474953204c45574f56204b4559414d2049455445454d3b43454141,
0x3b3b3b3b3b4e3b3b3b3b3b4d534e3b303b6e4d3b494141204e474953204c45574f56204b4559414d2049455445454d3b44454141,
0x3b3b3b3b3b4e3b3b3b3b3b4c3b303b634d3b5541204e474953204c45574f56204b4559414d2049455445454d3b45454141,
0x3b3b3b3b3b4e3b3b3b3b3b4c3b303b634d3b554141204e474953204c45574f56204b4559414d2049455445454d3b46454141,
0x3b3b3b3b3b4e3b3b3b3b3b4c3b303b6f503b4e41484b49454843204b4559414d2049455445454d3b30464141,
0x3b3b3b3b3b4e3b3b3b3b3b4c3b303b6f503b4d414455484b20474e414841204b4559414d2049455445454d3b31464141,
0x3b3b3b3b3b4e3b3b3b3b3b4c3b303b6f4c3b494a4e41204b4559414d2049455445454d3b32464141,
0x3b3b3b3b3b4e3b3b3b3b3b4c3b303b6d4c3b4b52414d204e4f495449544550455220454c42414c4c5953204b4559414d2049455445454d3b33464141,
0x3b3b3b3b3b4e3b3b3b3b3b4c3b303b6d4c3b4b52414d204e4f49544954455045522044524f57204b4559414d2049455445454d3b34464141,
0x3b3b3b3b3b4e3b3b3b3b3b4c3b303b634d3b41475241534956204e474953204c45574f56204b4559414d2049455445454d3b35464141,
0x3b3b3b3b3b4e3b3b3b3b3b4d534e3b393b6e4d3b414d41524956204b4559414d2049455445454d3b36464141,
0x3b3b3b3b3b4e3b3b3b3b3b4c3b303b6f4c3b5548545420454c42414c4c5953204349504f494854453b31304241,
0x3b3b3b3b3b4e3b3b3b3b3b4c3b303b6f4c3b4948545420454c42414c4c5953204349504f494854453b32304241,
0x3b3b3b3b3b4e3b3b3b3b3b4c3b303b6f4c3b414148545420454c42414c4c5953204349504f494854453b33304241,
0x3b3b3b3b3b4e3b3b3b3b3b4c3b303b6f4c3b454548545420454c42414c4c5953204349504f494854453b34304241,
0x3b3b3b3b3b4e3b3b3b3b3b4c3b303b6f4c3b4548545420454c42414c4c5953204349504f494854453b35304241,
0x3b3b3b3b3b4e3b3b3b3b3b4c3b303b6f4c3b4f48545420454c42414c4c5953204349504f494854453b36304241,
0x3b3b3b3b3b4e3b3b3b3b3b4c3b303b6f4c3b5548444420454c42414c4c5953204349504f494854453b39304241,
0x3b3b3b3b3b4e3b3b3b3b3b4c3b303b6f4c3b4948444420454c42414c4c5953204349504f494854453b41304241,
0x3b3b3b3b3b4e3b3b3b3b3b4c3b303b6f4c3b414148444420454c42414c4c5953204349504f494854453b42304241,
0x3b3b3b3b3b4e3b3b3b3b3b4c3b303b6f4c3b454548444420454c42414c4c5953204349504f494854453b43304241,
0x3b3b3b3b3b4e3b3b3b3b3b4c3b303b6f4c3b4548444420454c42414c4c5953204349504f494854453b44304241,
0x3b3b3b3b3b4e3b3b3b3b3b4c3b303b6f4c3b4f48444420454c42414c4c5953204349504f494854453b45304241,
0x3b3b3b3b3b4e3b3b3b3b3b4c3b303b6f4c3b555a4420454c42414c4c5953204349504f494854453b31314241,
0x3b3b3b3b3b4e3b3b3b3b3b4c3b303b6f4c3b495a4420454c42414c4c5953204349504f494854453b32314241,
0x3b3b3b3b3b4e3b3b3b3b3b4c3b303b6f4c3b41415a4420454c42414c4c5953204349504f494854453b33314241,
0x3b3b3b3b3b4e3b3b3b3b3b4c3b303b6f4c3b45455a4420454c42414c4c5953204349504f494854453b34314241,
0x3b3b3b3b3b4e3b3b3b3b3b4c3b303b6f4c3b455a4420454c42414c4c5953204349504f494854453b35314241,
0x3b3b3b3b3b4e3b3b3b3b3b4c3b303b6f4c3b4f5a4420454c42414c4c5953204349504f494854453b36314241,
0x3b3b3b3b3b4e3b3b3b3b3b4c3b303b6f4c3b414848434320454c42414c4c5953204349504f494854453b30324241,
0x3b3b3b3b3b4e3b3b3b3b3b4c3b303b6f4c3b554848434320454c42414c4c5953204349504f494854453b31324241,
0x3b3b3b3b3b4e3b3b3b3b3b4c3b303b6f4c3b494848434320454c42414c4c5953204349504f494854453b32324241,
0x3b3b3b3b3b4e3b3b3b3b3b4c3b303b6f4c3b41414848434320454c42414c4c5953204349504f494854453b33324241,
0x3b3b3b3b3b4e3b3b3b3b3b4c3b303b6f4c3b45454848434320454c42414c4c5953204349504f494854453b34324241,
0x3b3b3b3b3b4e3b3b3b3b3b4c3b303b6f4c3b454848434320454c42414c4c5953204349504f494854453b35324241,
0x3b3b3b3b3b4e3b3b3b3b3b4c3b303b6f4c3b4f4848434320454c42414c4c5953204349504f494854453b36324241,
0x3b3b3b3b3b4e3b3b3b3b3b4c3b303b6f4c3b41424220454c42414c4c5953204349504f494854453b38324241,
0x3b3b3b3b3b4e3b3b3b3b3b4c3b303b6f4c3b55424220454c42414c4c5953204349504f494854453b39324241,
0x3b3b3b3b3b4e3b3b3b3b3b4c3b303b6f4c3b49424220454c42414c4c5953204349504f494854453b41324241,
0x3b3b3b3b3b4e3b3b3b3b3b4c3b303b6f4c3b4141424220454c42414c4c5953204349504f494854453b42324241,
0x3b3b3b3b3b4e3b3b3b3b3b4c3b303b6f4c3b4545424220454c42414c4c5953204349504f494854453b43324241,
0x3b3b3b3b3b4e3b3b3b3b3b4c3b303b6f4c3b45424220454c42414c4c5953204349504f494854453b44324241,
0x3b3b3b3b3b4e3b3b3b3b3b4c3b303b6f4c3b4f424220454c42414c4c5953204349504f494854453b45324241,
0x3b3b3b3b3b4e3b3b3b3b3b4c3b303b6c4c3b4148504c41204445525241422052455454454c204c4c414d53204e4954414c3b30334241,
0x3b3b3b3b3b4e3b3b3b3b3b4c3b303b6c4c3b41574843532d444553524556455220412052455454454c204c4c414d53204e4954414c3b31334241,
0x3b3b3b3b3b4e3b3b3b3b3b4c3b303b6c4c3b452052455454454c4b43414c422052455454454c204c4c414d53204e4954414c3b32334241,
0x3b3b3b3b3b4e3b3b3b3b3b4c3b303b6c4c3b45204445525241422052455454454c204c4c414d53204e4954414c3b33334241,
0x3b3b3b3b3b4e3b3b3b3b3b4c3b303b6c4c3b48534952554f4c46204854495720452052455454454c204c4c414d53204e4954414c3b34334241,
0x3b3b3b3b3b4e3b3b3b3b3b4c3b303b6c4c3b462053494e454c2052455454454c204c4c414d53204e4954414c3b35334241,
0x3b3b3b3b3b4e3b3b3b3b3b4c3b303b6c4c3b4c4941542d444553534f524320485449572047205450495243532052455454454c204c4c414d53204e4954414c3b36334241,
0x3b3b3b3b3b4e3b3b3b3b3b4c3b303b6c4c3b5320595a414c204445545245564e492048544957204c2052455454454c204c4c414d53204e4954414c3b37334241,
0x3b3b3b3b3b4e3b3b3b3b3b4c3b303b6c4c3b45444c495420454c4444494d20454c42554f442048544957204c2052455454454c204c4c414d53204e4954414c3b38334241,
0x3b3b3b3b3b4e3b3b3b3b3b4c3b303b6c4c3b474e495220454c4444494d2048544957204c2052455454454c204c4c414d53204e4954414c3b39334241,
0x3b3b3b3b3b4e3b3b3b3b3b4c3b303b6c4c3b4c4941542d444553534f52432048544957204d2052455454454c204c4c414d53204e4954414c3b41334241,
0x3b3b3b3b3b4e3b3b3b3b3b4c3b303b6c4c3b4c4941542d444553534f52432048544957204e2052455454454c204c4c414d53204e4954414c3b42334241,
0x3b3b3b3b3b4e3b3b3b3b3b4c3b303b6c4c3b4c4941542d444553534f5243204854495720474e452052455454454c204c4c414d53204e4954414c3b43334241,
0x3b3b3b3b3b4e3b3b3b3b3b4c3b303b6c4c3b4f2052455454454c4b43414c422052455454454c204c4c414d53204e4954414c3b44334241,
0x3b3b3b3b3b4e3b3b3b3b3b4c3b303b6c4c3b454b4f5254532048544957204f2052455454454c4b43414c422052455454454c204c4c414d53204e4954414c3b45334241,
0x3b3b3b3b3b4e3b3b3b3b3b4c3b303b6c4c3b454b4f5254532048544957204f204e45504f2052455454454c204c4c414d53204e4954414c3b46334241,
0x3b3b3b3b3b4e3b3b3b3b3b4c3b303b6c4c3b454f204445545245564e492052455454454c204c4c414d53204e4954414c3b30344241,
0x3b3b3b3b3b4e3b3b3b3b3b4c3b303b6c4c3b454b4f525453204854495720454f2044454e5255542052455454454c204c4c414d53204e4954414c3b31344241,
0x3b3b3b3b3b4e3b3b3b3b3b4c3b303b6c4c3b454b4f525453204c41544e4f5a49524f48204854495720454f2044454e5255542052455454454c204c4c414d53204e4954414c3b32344241,
0x3b3b3b3b3b4e3b3b3b3b3b4c3b303b6c4c3b4f2d4e45504f204f2044454e5255542052455454454c204c4c414d53204e4954414c3b33344241,
0x3b3b3b3b3b4e3b3b3b3b3b4c3b303b6c4c3b454b4f5254532048544957204f2d4e45504f204f2044454e5255542052455454454c204c4c414d53204e4954414c3b34344241,
0x3b3b3b3b3b4e3b3b3b3b3b4c3b303b6c4c3b5220505552524954532052455454454c204c4c414d53204e4954414c3b35344241,
0x3b3b3b3b3b4e3b3b3b3b3b4c3b303b6c4c3b47454c20544847495220485449572052204c415449504143204c4c414d532052455454454c204e4954414c3b36344241,
0x3b3b3b3b3b4e3b3b3b3b3b4c3b303b6c4c3b454c444e41482054554f4854495720522052455454454c204c4c414d53204e4954414c3b37344241,
0x3b3b3b3b3b4e3b3b3b3b3b4c3b303b6c4c3b5220454c42554f442052455454454c204c4c414d53204e4954414c3b38344241,
0x3b3b3b3b3b4e3b3b3b3b3b4c3b303b6c4c3b4c4941542d444553534f5243204854495720522052455454454c204c4c414d53204e4954414c3b39344241,
0x3b3b3b3b3b4e3b3b3b3b3b4c3b303b6c4c3b4c4941542d444553534f52432048544957205220454c42554f442052455454454c204c4c414d53204e4954414c3b41344241,
0x3b3b3b3b3b4e3b3b3b3b3b4c3b303b6c4c3b52205450495243532052455454454c204c4c414d53204e4954414c3b42344241,
0x3b3b3b3b3b4e3b3b3b3b3b4c3b303b6c4c3b474e495220485449572052205450495243532052455454454c204c4c414d53204e4954414c3b43344241,
0x3b3b3b3b3b4e3b3b3b3b3b4c3b303b6c4c3b48534520454e494c455341422052455454454c204c4c414d53204e4954414c3b44344241,
0x3b3b3b3b3b4e3b3b3b3b3b4c3b303b6c4c3b47454c2054484749522054524f4853204854495720552052455454454c204c4c414d53204e4954414c3b45344241,
0x3b3b3b3b3b4e3b3b3b3b3b4c3b303b6c4c3b47454c2054484749522054524f485320485449572052414220552052455454454c204c4c414d53204e4954414c3b46344241,
0x3b3b3b3b3b4e3b3b3b3b3b4c3b303b6c4c3b49552052455454454c204c4c414d53204e4954414c3b30354241,
0x3b3b3b3b3b4e3b3b3b3b3b4c3b303b6c4c3b49552044454e5255542052455454454c204c4c414d53204e4954414c3b31354241,
0x3b3b3b3b3b4e3b3b3b3b3b4c3b303b6c4c3b4b4f4f48205446454c204854495720552052455454454c204c4c414d53204e4954414c3b32354241,
0x334237413b3b334237413b3b3b4e3b3b3b3b3b4c3b303b6c4c3b4948432052455454454c204c4c414d53204e4954414c3b33354241,
0x3b3b3b3b3b4e3b3b3b3b3b4c3b303b6c4c3b474e495220544847495220574f4c2048544957204948432052455454454c204c4c414d53204e4954414c3b34354241,
0x3b3b3b3b3b4e3b3b3b3b3b4c3b303b6c4c3b4649524553205446454c20574f4c2048544957204948432052455454454c204c4c414d53204e4954414c3b35354241,
0x3b3b3b3b3b4e3b3b3b3b3b4c3b303b6c4c3b474e495220544847495220574f4c204854495720582052455454454c204c4c414d53204e4954414c3b36354241,
0x3b3b3b3b3b4e3b3b3b3b3b4c3b303b6c4c3b47454c205446454c20474e4f4c204854495720582052455454454c204c4c414d53204e4954414c3b37354241,
0x3b3b3b3b3b4e3b3b3b3b3b4c3b303b6c4c3b474e495220544847495220574f4c20444e412047454c205446454c20474e4f4c204854495720582052455454454c204c4c414d53204e4954414c3b38354241,
0x3b3b3b3b3b4e3b3b3b3b3b4c3b303b6c4c3b464952455320485449572047454c205446454c20474e4f4c204854495720582052455454454c204c4c414d53204e4954414c3b39354241,
0x3b3b3b3b3b4e3b3b3b3b3b4c3b303b6c4c3b47454c2054484749522054524f4853204854495720592052455454454c204c4c414d53204e4954414c3b41354241,
0x3b3b3b3b3b4e3b3b3b3b3b4c3b303b6b533b4556455242204445545245564e492048544957204556455242205245494649444f4d3b42354241,
0x3b3b3b3b3b4e3b3b3b3b37323741203e72657075733c3b4c3b303b6d4c3b474e4548204c4c414d532052455454454c205245494649444f4d3b43354241,
0x3b3b3b3b3b4e3b3b3b3b37334241203e72657075733c3b4c3b303b6d4c3b5320595a414c204445545245564e492048544957204c204c4c414d532052455454454c205245494649444f4d3b44354241,
0x3b3b3b3b3b4e3b3b3b3b42363230203e72657075733c3b4c3b303b6d4c3b45444c495420454c4444494d2048544957204c204c4c414d532052455454454c205245494649444f4d3b45354241,
0x3b3b3b3b3b4e3b3b3b3b32354241203e72657075733c3b4c3b303b6d4c3b4b4f4f48205446454c20485449572055204c4c414d532052455454454c205245494649444f4d3b46354241,
0x3b3b3b3b3b4e3b3b3b3b3b4c3b303b6c4c3b5441592041484b41532052455454454c204c4c414d53204e4954414c3b30364241,
0x3b3b3b3b3b4e3b3b3b3b3b4c3b303b6c4c3b45204445494649544f492052455454454c204c4c414d53204e4954414c3b31364241,
0x3b3b3b3b3b4e3b3b3b3b3b4c3b303b6c4c3b454f204e45504f2052455454454c204c4c414d53204e4954414c3b32364241,
0x3b3b3b3b3b4e3b3b3b3b3b4c3b303b6c4c3b4f552052455454454c204c4c414d53204e4954414c3b33364241,
0x3b3b3b3b3b4e3b3b3b3b3b4c3b303b6c4c3b4148504c41204445545245564e492052455454454c204c4c414d53204e4954414c3b34364241,
0x3b3b3b3b3b4e3b3b3b3b3b4c3b303b6c4c3b4147454d4f204c415449504143204c4c414d532052455454454c204b454552473b35364241,
0x304133313b3b304133313b3b3b4e3b3b3b3b3b4c3b303b6c4c3b412052455454454c204c4c414d532045454b4f524548433b30374241,
0x314133313b3b314133313b3b3b4e3b3b3b3b3b4c3b303b6c4c3b452052455454454c204c4c414d532045454b4f524548433b31374241,
0x324133313b3b324133313b3b3b4e3b3b3b3b3b4c3b303b6c4c3b492052455454454c204c4c414d532045454b4f524548433b32374241,
0x334133313b3b334133313b3b3b4e3b3b3b3b3b4c3b303b6c4c3b4f2052455454454c204c4c414d532045454b4f524548433b33374241,
0x344133313b3b344133313b3b3b4e3b3b3b3b3b4c3b303b6c4c3b552052455454454c204c4c414d532045454b4f524548433b34374241,
0x354133313b3b354133313b3b3b4e3b3b3b3b3b4c3b303b6c4c3b562052455454454c204c4c414d532045454b4f524548433b35374241,
0x364133313b3b364133313b3b3b4e3b3b3b3b3b4c3b303b6c4c3b41472052455454454c204c4c414d532045454b4f524548433b36374241,
0x374133313b3b374133313b3b3b4e3b3b3b3b3b4c3b303b6c4c3b414b2052455454454c204c4c414d532045454b4f524548433b37374241,
0x384133313b3b384133313b3b3b4e3b3b3b3b3b4c3b303b6c4c3b45472052455454454c204c4c414d532045454b4f524548433b38374241,
0x394133313b3b394133313b3b3b4e3b3b3b3b3b4c3b303b6c4c3b49472052455454454c204c4c414d532045454b4f524548433b39374241,
0x414133313b3b414133313b3b3b4e3b3b3b3b3b4c3b303b6c4c3b4f472052455454454c204c4c414d532045454b4f524548433b41374241,
0x424133313b3b424133313b3b3b4e3b3b3b3b3b4c3b303b6c4c3b55472052455454454c204c4c414d532045454b4f524548433b42374241,
0x434133313b3b434133313b3b3b4e3b3b3b3b3b4c3b303b6c4c3b56472052455454454c204c4c414d532045454b4f524548433b43374241,
0x444133313b3b444133313b3b3b4e3b3b3b3b3b4c3b303b6c4c3b41482052455454454c204c4c414d532045454b4f524548433b44374241,
0x454133313b3b454133313b3b3b4e3b3b3b3b3b4c3b303b6c4c3b45482052455454454c204c4c414d532045454b4f524548433b45374241,
0x464133313b3b464133313b3b3b4e3b3b3b3b3b4c3b303b6c4c3b49482052455454454c204c4c414d532045454b4f524548433b46374241,
0x304233313b3b304233313b3b3b4e3b3b3b3b3b4c3b303b6c4c3b4f482052455454454c204c4c414d532045454b4f524548433b30384241,
0x314233313b3b314233313b3b3b4e3b3b3b3b3b4c3b303b6c4c3b55482052455454454c204c4c414d532045454b4f524548433b31384241,
0x324233313b3b324233313b3b3b4e3b3b3b3b3b4c3b303b6c4c3b56482052455454454c204c4c414d532045454b4f524548433b32384241,
0x334233313b3b334233313b3b3b4e3b3b3b3b3b4c3b303b6c4c3b414c2052455454454c204c4c414d532045454b4f524548433b33384241,
0x344233313b3b344233313b3b3b4e3b3b3b3b3b4c3b303b6c4c3b454c2052455454454c204c4c414d532045454b4f524548433b34384241,
0x354233313b3b354233313b3b3b4e3b3b3b3b3b4c3b303b6c4c3b494c2052455454454c204c4c414d532045454b4f524548433b35384241,
0x364233313b3b364233313b3b3b4e3b3b3b3b3b4c3b303b6c4c3b4f4c2052455454454c204c4c414d532045454b4f524548433b36384241,
0x374233313b3b374233313b3b3b4e3b3b3b3b3b4c3b303b6c4c3b554c2052455454454c204c4c414d532045454b4f524548433b37384241,
0x384233313b3b384233313b3b3b4e3b3b3b3b3b4c3b303b6c4c3b564c2052455454454c204c4c414d532045454b4f524548433b38384241,
0x394233313b3b394233313b3b3b4e3b3b3b3b3b4c3b303b6c4c3b414d2052455454454c204c4c414d532045454b4f524548433b39384241,
0x414233313b3b414233313b3b3b4e3b3b3b3b3b4c3b303b6c4c3b454d2052455454454c204c4c414d532045454b4f524548433b41384241,
0x424233313b3b424233313b3b3b4e3b3b3b3b3b4c3b303b6c4c3b494d2052455454454c204c4c414d532045454b4f524548433b42384241,
0x434233313b3b434233313b3b3b4e3b3b3b3b3b4c3b303b6c4c3b4f4d2052455454454c204c4c414d532045454b4f524548433b43384241,
0x444233313b3b444233313b3b3b4e3b3b3b3b3b4c3b303b6c4c3b554d2052455454454c204c4c414d532045454b4f524548433b44384241,
0x454233313b3b454233313b3b3b4e3b3b3b3b3b4c3b303b6c4c3b414e2052455454454c204c4c414d532045454b4f524548433b45384241,
0x464233313b3b464233313b3b3b4e3b3b3b3b3b4c3b303b6c4c3b414e482052455454454c204c4c414d532045454b4f524548433b46384241,
0x304333313b3b304333313b3b3b4e3b3b3b3b3b4c3b303b6c4c3b48414e2052455454454c204c4c414d532045454b4f524548433b30394241,
0x314333313b3b314333313b3b3b4e3b3b3b3b3b4c3b303b6c4c3b454e2052455454454c204c4c414d532045454b4f524548433b31394241,
0x324333313b3b324333313b3b3b4e3b3b3b3b3b4c3b303b6c4c3b494e2052455454454c204c4c414d532045454b4f524548433b32394241,
0x334333313b3b334333313b3b3b4e3b3b3b3b3b4c3b303b6c4c3b4f4e2052455454454c204c4c414d532045454b4f524548433b33394241,
0x344333313b3b344333313b3b3b4e3b3b3b3b3b4c3b303b6c4c3b554e2052455454454c204c4c414d532045454b4f524548433b34394241,
0x354333313b3b354333313b3b3b4e3b3b3b3b3b4c3b303b6c4c3b564e2052455454454c204c4c414d532045454b4f524548433b35394241,
0x364333313b3b364333313b3b3b4e3b3b3b3b3b4c3b303b6c4c3b4155512052455454454c204c4c414d532045454b4f524548433b36394241,
0x374333313b3b374333313b3b3b4e3b3b3b3b3b4c3b303b6c4c3b4555512052455454454c204c4c414d532045454b4f524548433b37394241,
0x384333313b3b384333313b3b3b4e3b3b3b3b3b4c3b303b6c4c3b4955512052455454454c204c4c414d532045454b4f524548433b38394241,
0x394333313b3b394333313b3b3b4e3b3b3b3b3b4c3b303b6c4c3b4f55512052455454454c204c4c414d532045454b4f524548433b39394241,
0x414333313b3b414333313b3b3b4e3b3b3b3b3b4c3b303b6c4c3b5555512052455454454c204c4c414d532045454b4f524548433b41394241,
0x424333313b3b424333313b3b3b4e3b3b3b3b3b4c3b303b6c4c3b5655512052455454454c204c4c414d532045454b4f524548433b42394241,
0x434333313b3b434333313b3b3b4e3b3b3b3b3b4c3b303b6c4c3b41532052455454454c204c4c414d532045454b4f524548433b43394241,
0x444333313b3b444333313b3b3b4e3b3b3b3b3b4c3b303b6c4c3b532052455454454c204c4c414d532045454b4f524548433b44394241,
0x454333313b3b454333313b3b3b4e3b3b3b3b3b4c3b303b6c4c3b45532052455454454c204c4c414d532045454b4f524548433b45394241,
0x464333313b3b464333313b3b3b4e3b3b3b3b3b4c3b303b6c4c3b49532052455454454c204c4c414d532045454b4f524548433b46394241,
0x304433313b3b304433313b3b3b4e3b3b3b3b3b4c3b303b6c4c3b4f532052455454454c204c4c414d532045454b4f524548433b30414241,
0x314433313b3b314433313b3b3b4e3b3b3b3b3b4c3b303b6c4c3b55532052455454454c204c4c414d532045454b4f524548433b31414241,
0x324433313b3b324433313b3b3b4e3b3b3b3b3b4c3b303b6c4c3b56532052455454454c204c4c414d532045454b4f524548433b32414241,
0x334433313b3b334433313b3b3b4e3b3b3b3b3b4c3b303b6c4c3b41442052455454454c204c4c414d532045454b4f524548433b33414241,
0x344433313b3b344433313b3b3b4e3b3b3b3b3b4c3b303b6c4c3b41542052455454454c204c4c414d532045454b4f524548433b34414241,
0x354433313b3b354433313b3b3b4e3b3b3b3b3b4c3b303b6c4c3b45442052455454454c204c4c414d532045454b4f524548433b35414241,
0x364433313b3b364433313b3b3b4e3b3b3b3b3b4c3b303b6c4c3b45542052455454454c204c4c414d532045454b4f524548433b36414241,
0x374433313b3b374433313b3b3b4e3b3b3b3b3b4c3b303b6c4c3b49442052455454454c204c4c414d532045454b4f524548433b37414241,
0x384433313b3b384433313b3b3b4e3b3b3b3b3b4c3b303b6c4c3b49542052455454454c204c4c414d532045454b4f524548433b38414241,
0x394433313b3b394433313b3b3b4e3b3b3b3b3b4c3b303b6c4c3b4f442052455454454c204c4c414d532045454b4f524548433b39414241,
0x414433313b3b414433313b3b3b4e3b3b3b3b3b4c3b303b6c4c3b55442052455454454c204c4c414d532045454b4f524548433b41414241,
0x424433313b3b424433313b3b3b4e3b3b3b3b3b4c3b303b6c4c3b56442052455454454c204c4c414d532045454b4f524548433b42414241,
0x434433313b3b434433313b3b3b4e3b3b3b3b3b4c3b303b6c4c3b414c442052455454454c204c4c414d532045454b4f524548433b43414241,
0x444433313b3b444433313b3b3b4e3b3b3b3b3b4c3b303b6c4c3b414c542052455454454c204c4c414d532045454b4f524548433b44414241,
0x454433313b3b454433313b3b3b4e3b3b3b3b3b4c3b303b6c4c3b454c542052455454454c204c4c414d532045454b4f524548433b45414241,
0x464433313b3b464433313b3b3b4e3b3b3b3b3b4c3b303b6c4c3b494c542052455454454c204c4c414d532045454b4f524548433b46414241,
0x304533313b3b304533313b3b3b4e3b3b3b3b3b4c3b303b6c4c3b4f4c542052455454454c204c4c414d532045454b4f524548433b30424241,
0x314533313b3b314533313b3b3b4e3b3b3b3b3b4c3b303b6c4c3b554c542052455454454c204c4c414d532045454b4f524548433b31424241,
0x324533313b3b324533313b3b3b4e3b3b3b3b3b4c3b303b6c4c3b564c542052455454454c204c4c414d532045454b4f524548433b32424241,
0x334533313b3b334533313b3b3b4e3b3b3b3b3b4c3b303b6c4c3b4153542052455454454c204c4c414d532045454b4f524548433b33424241,
0x344533313b3b344533313b3b3b4e3b3b3b3b3b4c3b303b6c4c3b4553542052455454454c204c4c414d532045454b4f524548433b34424241,
0x354533313b3b354533313b3b3b4e3b3b3b3b3b4c3b303b6c4c3b4953542052455454454c204c4c414d532045454b4f524548433b35424241,
0x364533313b3b364533313b3b3b4e3b3b3b3b3b4c3b303b6c4c3b4f53542052455454454c204c4c414d532045454b4f524548433b36424241,
0x374533313b3b374533313b3b3b4e3b3b3b3b3b4c3b303b6c4c3b5553542052455454454c204c4c414d532045454b4f524548433b37424241,
0x384533313b3b384533313b3b3b4e3b3b3b3b3b4c3b303b6c4c3b5653542052455454454c204c4c414d532045454b4f524548433b38424241,
0x394533313b3b394533313b3b3b4e3b3b3b3b3b4c3b303b6c4c3b41572052455454454c204c4c414d532045454b4f524548433b39424241,
0x414533313b3b414533313b3b3b4e3b3b3b3b3b4c3b303b6c4c3b45572052455454454c204c4c414d532045454b4f524548433b41424241,
0x424533313b3b424533313b3b3b4e3b3b3b3b3b4c3b303b6c4c3b49572052455454454c204c4c414d532045454b4f524548433b42424241,
0x434533313b3b434533313b3b3b4e3b3b3b3b3b4c3b303b6c4c3b4f572052455454454c204c4c414d532045454b4f524548433b43424241,
0x444533313b3b444533313b3b3b4e3b3b3b3b3b4c3b303b6c4c3b55572052455454454c204c4c414d532045454b4f524548433b44424241,
0x454533313b3b454533313b3b3b4e3b3b3b3b3b4c3b303b6c4c3b56572052455454454c204c4c414d532045454b4f524548433b45424241,
0x464533313b3b464533313b3b3b4e3b3b3b3b3b4c3b303b6c4c3b41592052455454454c204c4c414d532045454b4f524548433b46424241,
0x3b3b3b3b3b4e3b3b3b3b3b4c3b303b6f4c3b4b4f4b2052455454454c204b4559414d2049455445454d3b30434241,
0x3b3b3b3b3b4e3b3b3b3b3b4c3b303b6f4c3b4d41532052455454454c204b4559414d2049455445454d3b31434241,
0x3b3b3b3b3b4e3b3b3b3b3b4c3b303b6f4c3b49414c2052455454454c204b4559414d2049455445454d3b32434241,
0x3b3b3b3b3b4e3b3b3b3b3b4c3b303b6f4c3b54494d2052455454454c204b4559414d2049455445454d3b33434241,
0x3b3b3b3b3b4e3b3b3b3b3b4c3b303b6f4c3b41502052455454454c204b4559414d2049455445454d3b34434241,
0x3b3b3b3b3b4e3b3b3b3b3b4c3b303b6f4c3b414e2052455454454c204b4559414d2049455445454d3b35434241,
0x3b3b3b3b3b4e3b3b3b3b3b4c3b303b6f4c3b4c4948432052455454454c204b4559414d2049455445454d3b36434241,
0x3b3b3b3b3b4e3b3b3b3b3b4c3b303b6f4c3b4c49542052455454454c204b4559414d2049455445454d3b37434241,
0x3b3b3b3b3b4e3b3b3b3b3b4c3b303b6f4c3b554f484b2052455454454c204b4559414d2049455445454d3b38434241,
0x3b3b3b3b3b4e3b3b3b3b3b4c3b303b6f4c3b554f474e2052455454454c204b4559414d2049455445454d3b39434241,
0x3b3b3b3b3b4e3b3b3b3b3b4c3b303b6f4c3b554f48542052455454454c204b4559414d2049455445454d3b41434241,
0x3b3b3b3b3b4e3b3b3b3b3b4c3b303b6f4c3b4941572052455454454c204b4559414d2049455445454d3b42434241,
0x3b3b3b3b3b4e3b3b3b3b3b4c3b303b6f4c3b474e41592052455454454c204b4559414d2049455445454d3b43434241,
0x3b3b3b3b3b4e3b3b3b3b3b4c3b303b6f4c3b4b55482052455454454c204b4559414d2049455445454d3b44434241,
0x3b3b3b3b3b4e3b3b3b3b3b4c3b303b6f4c3b4e552052455454454c204b4559414d2049455445454d3b45434241,
0x3b3b3b3b3b4e3b3b3b3b3b4c3b303b6f4c3b492052455454454c204b4559414d2049455445454d3b46434241,
0x3b3b3b3b3b4e3b3b3b3b3b4c3b303b6f4c3b4d4148502052455454454c204b4559414d2049455445454d3b30444241,
0x3b3b3b3b3b4e3b3b3b3b3b4c3b303b6f4c3b41594954412052455454454c204b4559414d2049455445454d3b31444241,
0x3b3b3b3b3b4e3b3b3b3b3b4c3b303b6f4c3b4b4f472052455454454c204b4559414d2049455445454d3b32444241,
0x3b3b3b3b3b4e3b3b3b3b3b4c3b303b6f4c3b4d41484a2052455454454c204b4559414d2049455445454d3b33444241,
0x3b3b3b3b3b4e3b3b3b3b3b4c3b303b6f4c3b4941522052455454454c204b4559414d2049455445454d3b34444241,
0x3b3b3b3b3b4e3b3b3b3b3b4c3b303b6f4c3b41422052455454454c204b4559414d2049455445454d3b35444241,
0x3b3b3b3b3b4e3b3b3b3b3b4c3b303b6f4c3b4c494a2052455454454c204b4559414d2049455445454d3b36444241,
0x3b3b3b3b3b4e3b3b3b3b3b4c3b303b6f4c3b4c49442052455454454c204b4559414d2049455445454d3b37444241,
0x3b3b3b3b3b4e3b3b3b3b3b4c3b303b6f4c3b554f48472052455454454c204b4559414d2049455445454d3b38444241,
0x3b3b3b3b3b4e3b3b3b3b3b4c3b303b6f4c3b554f48442052455454454c204b4559414d2049455445454d3b39444241,
0x3b3b3b3b3b4e3b3b3b3b3b4c3b303b6f4c3b4d4148422052455454454c204b4559414d2049455445454d3b41444241,
0x3b3b3b3b3b4e3b3b3b3b3b4c3b303b6f4c3b4d55534e4f4c204b4f4b2052455454454c204b4559414d2049455445454d3b42444241,
0x3b3b3b3b3b4e3b3b3b3b3b4c3b303b6f4c3b4d55534e4f4c2049414c2052455454454c204b4559414d2049455445454d3b43444241,
0x3b3b3b3b3b4e3b3b3b3b3b4c3b303b6f4c3b4d55534e4f4c2054494d2052455454454c204b4559414d2049455445454d3b44444241,
0x3b3b3b3b3b4e3b3b3b3b3b4c3b303b6f4c3b4d55534e4f4c2041502052455454454c204b4559414d2049455445454d3b45444241,
0x3b3b3b3b3b4e3b3b3b3b3b4c3b303b6f4c3b4d55534e4f4c20414e2052455454454c204b4559414d2049455445454d3b46444241,
0x3b3b3b3b3b4e3b3b3b3b3b4c3b303b6f4c3b4d55534e4f4c204c49542052455454454c204b4559414d2049455445454d3b30454241,
0x3b3b3b3b3b4e3b3b3b3b3b4c3b303b6f4c3b4d55534e4f4c20554f474e2052455454454c204b4559414d2049455445454d3b31454241,
0x3b3b3b3b3b4e3b3b3b3b3b4c3b303b6f4c3b4d55534e4f4c20492052455454454c204b4559414d2049455445454d3b32454241,
0x3b3b3b3b3b4e3b3b3b3b3b4c3b303b634d3b50414e4f204e474953204c45574f56204b4559414d2049455445454d3b33454241,
0x3b3b3b3b3b4e3b3b3b3b3b4c3b303b634d3b50414e49204e474953204c45574f56204b4559414d2049455445454d3b34454241,
0x3b3b3b3b3b4e3b3b3b3b3b4d534e3b303b6e4d3b50414e41204e474953204c45574f56204b4559414d2049455445454d3b35454241,
0x3b3b3b3b3b4e3b3b3b3b3b4c3b303b634d3b50414e4559204e474953204c45574f56204b4559414d2049455445454d3b36454241,
0x3b3b3b3b3b4e3b3b3b3b3b4c3b303b634d3b50414e554f53204e474953204c45574f56204b4559414d2049455445454d3b37454241,
0x3b3b3b3b3b4e3b3b3b3b3b4d534e3b303b6e4d3b50414e55204e474953204c45574f56204b4559414d2049455445454d3b38454241,
0x3b3b3b3b3b4e3b3b3b3b3b4c3b303b634d3b50414e49454843204e474953204c45574f56204b4559414d2049455445454d3b39454241,
0x3b3b3b3b3b4e3b3b3b3b3b4c3b303b634d3b474e554e204e474953204c45574f56204b4559414d2049455445454d3b41454241,
0x3b3b3b3b3b4e3b3b3b3b3b4c3b303b6f503b4945484b49454843204b4559414d2049455445454d3b42454241,
0x3b3b3b3b3b4e3b3b3b3b3b4c3b303b634d3b4b455949204d554c204b4559414d2049455445454d3b43454241,
0x3b3b3b3b3b4e3b3b3b3b3b4d534e3b393b6e4d3b4b455949204e555041204b4559414d2049455445454d3b44454241,
0x3b3b3b3b3b4e3b303b303b303b3b4c3b303b644e3b4f52455a205449474944204b4559414d2049455445454d3b30464241,
0x3b3b3b3b3b4e3b313b313b313b3b4c3b303b644e3b454e4f205449474944204b4559414d2049455445454d3b31464241,
0x3b3b3b3b3b4e3b323b323b323b3b4c3b303b644e3b4f5754205449474944204b4559414d2049455445454d3b32464241,
0x3b3b3b3b3b4e3b333b333b333b3b4c3b303b644e3b4545524854205449474944204b4559414d2049455445454d3b33464241,
0x3b3b3b3b3b4e3b343b343b343b3b4c3b303b644e3b52554f46205449474944204b4559414d2049455445454d3b34464241]

/-- src/u5e/props/UnicodeData.txt lines 14849-15104. -/
def rawUcd58 : List Nat := [
0x3b3b3b3b3b4e3b353b353b353b3b4c3b303b644e3b45564946205449474944204b4559414d2049455445454d3b35464241,
0x3b3b3b3b3b4e3b363b363b363b3b4c3b303b644e3b584953205449474944204b4559414d2049455445454d3b36464241,
0x3b3b3b3b3b4e3b373b373b373b3b4c3b303b644e3b4e45564553205449474944204b4559414d2049455445454d3b37464241,
0x3b3b3b3b3b4e3b383b383b383b3b4c3b303b644e3b5448474945205449474944204b4559414d2049455445454d3b38464241,
0x3b3b3b3b3b4e3b393b393b393b3b4c3b303b644e3b454e494e205449474944204b4559414d2049455445454d3b39464241,
0x3b3b3b3b3b4e3b3b3b3b3b4c3b303b6f4c3b3e7473726946202c656c62616c6c7953206c75676e61483c3b30304341,
0x3b3b3b3b3b4e3b3b3b3b3b4c3b303b6f4c3b3e7473614c202c656c62616c6c7953206c75676e61483c3b33413744,
0x3b3b3b3b3b4e3b3b3b3b3b4c3b303b6f4c3b4f45592d4f20474e4f4553474e554a204c55474e41483b30423744,
0x3b3b3b3b3b4e3b3b3b3b3b4c3b303b6f4c3b492d4f2d4f20474e4f4553474e554a204c55474e41483b31423744,
0x3b3b3b3b3b4e3b3b3b3b3b4c3b303b6f4c3b412d4f5920474e4f4553474e554a204c55474e41483b32423744,
0x3b3b3b3b3b4e3b3b3b3b3b4c3b303b6f4c3b45412d4f5920474e4f4553474e554a204c55474e41483b33423744,
0x3b3b3b3b3b4e3b3b3b3b3b4c3b303b6f4c3b4f452d4f5920474e4f4553474e554a204c55474e41483b34423744,
0x3b3b3b3b3b4e3b3b3b3b3b4c3b303b6f4c3b4f45592d5520474e4f4553474e554a204c55474e41483b35423744,
0x3b3b3b3b3b4e3b3b3b3b3b4c3b303b6f4c3b492d492d5520474e4f4553474e554a204c55474e41483b36423744,
0x3b3b3b3b3b4e3b3b3b3b3b4c3b303b6f4c3b45412d555920474e4f4553474e554a204c55474e41483b37423744,
0x3b3b3b3b3b4e3b3b3b3b3b4c3b303b6f4c3b4f2d555920474e4f4553474e554a204c55474e41483b38423744,
0x3b3b3b3b3b4e3b3b3b3b3b4c3b303b6f4c3b412d554520474e4f4553474e554a204c55474e41483b39423744,
0x3b3b3b3b3b4e3b3b3b3b3b4c3b303b6f4c3b4f452d554520474e4f4553474e554a204c55474e41483b41423744,
0x3b3b3b3b3b4e3b3b3b3b3b4c3b303b6f4c3b452d554520474e4f4553474e554a204c55474e41483b42423744,
0x3b3b3b3b3b4e3b3b3b3b3b4c3b303b6f4c3b4f2d554520474e4f4553474e554a204c55474e41483b43423744,
0x3b3b3b3b3b4e3b3b3b3b3b4c3b303b6f4c3b4f2d41592d4920474e4f4553474e554a204c55474e41483b44423744,
0x3b3b3b3b3b4e3b3b3b3b3b4c3b303b6f4c3b4541592d4920474e4f4553474e554a204c55474e41483b45423744,
0x3b3b3b3b3b4e3b3b3b3b3b4c3b303b6f4c3b4f45592d4920474e4f4553474e554a204c55474e41483b46423744,
0x3b3b3b3b3b4e3b3b3b3b3b4c3b303b6f4c3b45592d4920474e4f4553474e554a204c55474e41483b30433744,
0x3b3b3b3b3b4e3b3b3b3b3b4c3b303b6f4c3b492d4f2d4920474e4f4553474e554a204c55474e41483b31433744,
0x3b3b3b3b3b4e3b3b3b3b3b4c3b303b6f4c3b4f592d4920474e4f4553474e554a204c55474e41483b32433744,
0x3b3b3b3b3b4e3b3b3b3b3b4c3b303b6f4c3b55592d4920474e4f4553474e554a204c55474e41483b33433744,
0x3b3b3b3b3b4e3b3b3b3b3b4c3b303b6f4c3b492d4920474e4f4553474e554a204c55474e41483b34433744,
0x3b3b3b3b3b4e3b3b3b3b3b4c3b303b6f4c3b412d414541524120474e4f4553474e554a204c55474e41483b35433744,
0x3b3b3b3b3b4e3b3b3b3b3b4c3b303b6f4c3b452d414541524120474e4f4553474e554a204c55474e41483b36433744,
0x3b3b3b3b3b4e3b3b3b3b3b4c3b303b6f4c3b4c554549522d4e5545494e20474e4f4553474e4f4a204c55474e41483b42433744,
0x3b3b3b3b3b4e3b3b3b3b3b4c3b303b6f4c3b484355454948432d4e5545494e20474e4f4553474e4f4a204c55474e41483b43433744,
0x3b3b3b3b3b4e3b3b3b3b3b4c3b303b6f4c3b5455454b4954474e41535320474e4f4553474e4f4a204c55474e41483b44433744,
0x3b3b3b3b3b4e3b3b3b3b3b4c3b303b6f4c3b50554549502d5455454b4954474e41535320474e4f4553474e4f4a204c55474e41483b45433744,
0x3b3b3b3b3b4e3b3b3b3b3b4c3b303b6f4c3b50554549502d5455454b495420474e4f4553474e4f4a204c55474e41483b46433744,
0x3b3b3b3b3b4e3b3b3b3b3b4c3b303b6f4c3b534f49532d5455454b495420474e4f4553474e4f4a204c55474e41483b30443744,
0x3b3b3b3b3b4e3b3b3b3b3b4c3b303b6f4c3b4b4f4559494b2d534f49532d5455454b495420474e4f4553474e4f4a204c55474e41483b31443744,
0x3b3b3b3b3b4e3b3b3b3b3b4c3b303b6f4c3b43554549432d5455454b495420474e4f4553474e4f4a204c55474e41483b32443744,
0x3b3b3b3b3b4e3b3b3b3b3b4c3b303b6f4c3b484355454948432d5455454b495420474e4f4553474e4f4a204c55474e41483b33443744,
0x3b3b3b3b3b4e3b3b3b3b3b4c3b303b6f4c3b485455454948542d5455454b495420474e4f4553474e4f4a204c55474e41483b34443744,
0x3b3b3b3b3b4e3b3b3b3b3b4c3b303b6f4c3b4b4f4559494b474e4153532d4c5545495220474e4f4553474e4f4a204c55474e41483b35443744,
0x3b3b3b3b3b4e3b3b3b3b3b4c3b303b6f4c3b48554549482d4b4f4559494b2d4c5545495220474e4f4553474e4f4a204c55474e41483b36443744,
0x3b3b3b3b3b4e3b3b3b3b3b4c3b303b6f4c3b484b554549484b2d4c55454952474e41535320474e4f4553474e4f4a204c55474e41483b37443744,
0x3b3b3b3b3b4e3b3b3b3b3b4c3b303b6f4c3b48554549482d4d5545494d2d4c5545495220474e4f4553474e4f4a204c55474e41483b38443744,
0x3b3b3b3b3b4e3b3b3b3b3b4c3b303b6f4c3b5455454b49542d50554549502d4c5545495220474e4f4553474e4f4a204c55474e41483b39443744,
0x3b3b3b3b3b4e3b3b3b3b3b4c3b303b6f4c3b485055454948502d50554549502d4c5545495220474e4f4553474e4f4a204c55474e41483b41443744,
0x3b3b3b3b3b4e3b3b3b3b3b4c3b303b6f4c3b474e5545495345592d4c5545495220474e4f4553474e4f4a204c55474e41483b42443744,
0x3b3b3b3b3b4e3b3b3b3b3b4c3b303b6f4c3b48554549482d48554549484e49524f45592d4c5545495220474e4f4553474e4f4a204c55474e41483b43443744,
0x3b3b3b3b3b4e3b3b3b3b3b4c3b303b6f4c3b4c554549524e554f455950414b20474e4f4553474e4f4a204c55474e41483b44443744,
0x3b3b3b3b3b4e3b3b3b3b3b4c3b303b6f4c3b4e5545494e2d4d5545494d20474e4f4553474e4f4a204c55474e41483b45443744,
0x3b3b3b3b3b4e3b3b3b3b3b4c3b303b6f4c3b4e5545494e474e4153532d4d5545494d20474e4f4553474e4f4a204c55474e41483b46443744,
0x3b3b3b3b3b4e3b3b3b3b3b4c3b303b6f4c3b4d5545494d474e41535320474e4f4553474e4f4a204c55474e41483b30453744,
0x3b3b3b3b3b4e3b3b3b3b3b4c3b303b6f4c3b534f49532d50554549502d4d5545494d20474e4f4553474e4f4a204c55474e41483b31453744,
0x3b3b3b3b3b4e3b3b3b3b3b4c3b303b6f4c3b43554549432d4d5545494d20474e4f4553474e4f4a204c55474e41483b32453744,
0x3b3b3b3b3b4e3b3b3b3b3b4c3b303b6f4c3b5455454b49542d505545495020474e4f4553474e4f4a204c55474e41483b33453744,
0x3b3b3b3b3b4e3b3b3b3b3b4c3b303b6f4c3b485055454948502d4c554549522d505545495020474e4f4553474e4f4a204c55474e41483b34453744,
0x3b3b3b3b3b4e3b3b3b3b3b4c3b303b6f4c3b4d5545494d2d505545495020474e4f4553474e4f4a204c55474e41483b35453744,
0x3b3b3b3b3b4e3b3b3b3b3b4c3b303b6f4c3b5055454950474e41535320474e4f4553474e4f4a204c55474e41483b36453744,
0x3b3b3b3b3b4e3b3b3b3b3b4c3b303b6f4c3b5455454b49542d534f49532d505545495020474e4f4553474e4f4a204c55474e41483b37453744,
0x3b3b3b3b3b4e3b3b3b3b3b4c3b303b6f4c3b43554549432d505545495020474e4f4553474e4f4a204c55474e41483b38453744,
0x3b3b3b3b3b4e3b3b3b3b3b4c3b303b6f4c3b484355454948432d505545495020474e4f4553474e4f4a204c55474e41483b39453744,
0x3b3b3b3b3b4e3b3b3b3b3b4c3b303b6f4c3b4d5545494d2d534f495320474e4f4553474e4f4a204c55474e41483b41453744,
0x3b3b3b3b3b4e3b3b3b3b3b4c3b303b6f4c3b50554549504e554f455950414b2d534f495320474e4f4553474e4f4a204c55474e41483b42453744,
0x3b3b3b3b3b4e3b3b3b3b3b4c3b303b6f4c3b4b4f4559494b2d534f4953474e41535320474e4f4553474e4f4a204c55474e41483b43453744,
0x3b3b3b3b3b4e3b3b3b3b3b4c3b303b6f4c3b5455454b49542d534f4953474e41535320474e4f4553474e4f4a204c55474e41483b44453744,
0x3b3b3b3b3b4e3b3b3b3b3b4c3b303b6f4c3b534f49534e41502d534f495320474e4f4553474e4f4a204c55474e41483b45453744,
0x3b3b3b3b3b4e3b3b3b3b3b4c3b303b6f4c3b43554549432d534f495320474e4f4553474e4f4a204c55474e41483b46453744,
0x3b3b3b3b3b4e3b3b3b3b3b4c3b303b6f4c3b484355454948432d534f495320474e4f4553474e4f4a204c55474e41483b30463744,
0x3b3b3b3b3b4e3b3b3b3b3b4c3b303b6f4c3b485455454948542d534f495320474e4f4553474e4f4a204c55474e41483b31463744,
0x3b3b3b3b3b4e3b3b3b3b3b4c3b303b6f4c3b48554549482d534f495320474e4f4553474e4f4a204c55474e41483b32463744,
0x3b3b3b3b3b4e3b3b3b3b3b4c3b303b6f4c3b50554549502d534f49534e415020474e4f4553474e4f4a204c55474e41483b33463744,
0x3b3b3b3b3b4e3b3b3b3b3b4c3b303b6f4c3b50554549504e554f455950414b2d534f49534e415020474e4f4553474e4f4a204c55474e41483b34463744,
0x3b3b3b3b3b4e3b3b3b3b3b4c3b303b6f4c3b4d5545494d2d474e55454953455920474e4f4553474e4f4a204c55474e41483b35463744,
0x3b3b3b3b3b4e3b3b3b3b3b4c3b303b6f4c3b48554549482d474e55454953455920474e4f4553474e4f4a204c55474e41483b36463744,
0x3b3b3b3b3b4e3b3b3b3b3b4c3b303b6f4c3b50554549502d435545494320474e4f4553474e4f4a204c55474e41483b37463744,
0x3b3b3b3b3b4e3b3b3b3b3b4c3b303b6f4c3b5055454950474e4153532d435545494320474e4f4553474e4f4a204c55474e41483b38463744,
0x3b3b3b3b3b4e3b3b3b3b3b4c3b303b6f4c3b4355454943474e41535320474e4f4553474e4f4a204c55474e41483b39463744,
0x3b3b3b3b3b4e3b3b3b3b3b4c3b303b6f4c3b534f49532d4850554549485020474e4f4553474e4f4a204c55474e41483b41463744,
0x3b3b3b3b3b4e3b3b3b3b3b4c3b303b6f4c3b485455454948542d4850554549485020474e4f4553474e4f4a204c55474e41483b42463744,
0x3b3b3b3b3b4e3b3b3b3b3b4c3b303b73433b3e7473726946202c657461676f727275532068676948206573552065746176697250206e6f4e3c3b30303844,
0x3b3b3b3b3b4e3b3b3b3b3b4c3b303b73433b3e7473614c202c657461676f727275532068676948206573552065746176697250206e6f4e3c3b46374244,
0x3b3b3b3b3b4e3b3b3b3b3b4c3b303b73433b3e7473726946202c657461676f7272755320686769482065735520657461766972503c3b30384244,
0x3b3b3b3b3b4e3b3b3b3b3b4c3b303b73433b3e7473614c202c657461676f7272755320686769482065735520657461766972503c3b46464244,
0x3b3b3b3b3b4e3b3b3b3b3b4c3b303b73433b3e7473726946202c657461676f7272755320776f4c3c3b30304344,
0x3b3b3b3b3b4e3b3b3b3b3b4c3b303b73433b3e7473614c202c657461676f7272755320776f4c3c3b46464644,
0x3b3b3b3b3b4e3b3b3b3b3b4c3b303b6f433b3e7473726946202c65735520657461766972503c3b30303045,
0x3b3b3b3b3b4e3b3b3b3b3b4c3b303b6f433b3e7473614c202c65735520657461766972503c3b46463846,
0x3b3b3b3b3b4e3b3b3b3b383443383b4c3b303b6f4c3b303039462d48504152474f454449205954494c4942495441504d4f43204b4a433b30303946,
0x3b3b3b3b3b4e3b3b3b3b344636363b4c3b303b6f4c3b313039462d48504152474f454449205954494c4942495441504d4f43204b4a433b31303946,
0x3b3b3b3b3b4e3b3b3b3b414345383b4c3b303b6f4c3b323039462d48504152474f454449205954494c4942495441504d4f43204b4a433b32303946,
0x3b3b3b3b3b4e3b3b3b3b384343383b4c3b303b6f4c3b333039462d48504152474f454449205954494c4942495441504d4f43204b4a433b33303946,
0x3b3b3b3b3b4e3b3b3b3b314445363b4c3b303b6f4c3b343039462d48504152474f454449205954494c4942495441504d4f43204b4a433b34303946,
0x3b3b3b3b3b4e3b3b3b3b323345343b4c3b303b6f4c3b353039462d48504152474f454449205954494c4942495441504d4f43204b4a433b35303946,
0x3b3b3b3b3b4e3b3b3b3b354533353b4c3b303b6f4c3b363039462d48504152474f454449205954494c4942495441504d4f43204b4a433b36303946,
0x3b3b3b3b3b4e3b3b3b3b433946393b4c3b303b6f4c3b373039462d48504152474f454449205954494c4942495441504d4f43204b4a433b37303946,
0x3b3b3b3b3b4e3b3b3b3b433946393b4c3b303b6f4c3b383039462d48504152474f454449205954494c4942495441504d4f43204b4a433b38303946,
0x3b3b3b3b3b4e3b3b3b3b313539353b4c3b303b6f4c3b393039462d48504152474f454449205954494c4942495441504d4f43204b4a433b39303946,
0x3b3b3b3b3b4e3b3b3b3b314431393b4c3b303b6f4c3b413039462d48504152474f454449205954494c4942495441504d4f43204b4a433b41303946,
0x3b3b3b3b3b4e3b3b3b3b373835353b4c3b303b6f4c3b423039462d48504152474f454449205954494c4942495441504d4f43204b4a433b42303946,
0x3b3b3b3b3b4e3b3b3b3b383439353b4c3b303b6f4c3b433039462d48504152474f454449205954494c4942495441504d4f43204b4a433b43303946,
0x3b3b3b3b3b4e3b3b3b3b364631363b4c3b303b6f4c3b443039462d48504152474f454449205954494c4942495441504d4f43204b4a433b44303946,
0x3b3b3b3b3b4e3b3b3b3b393636373b4c3b303b6f4c3b453039462d48504152474f454449205954494c4942495441504d4f43204b4a433b45303946,
0x3b3b3b3b3b4e3b3b3b3b353846373b4c3b303b6f4c3b463039462d48504152474f454449205954494c4942495441504d4f43204b4a433b46303946,
0x3b3b3b3b3b4e3b3b3b3b463336383b4c3b303b6f4c3b303139462d48504152474f454449205954494c4942495441504d4f43204b4a433b30313946,
0x3b3b3b3b3b4e3b3b3b3b414237383b4c3b303b6f4c3b313139462d48504152474f454449205954494c4942495441504d4f43204b4a433b31313946,
0x3b3b3b3b3b4e3b3b3b3b384638383b4c3b303b6f4c3b323139462d48504152474f454449205954494c4942495441504d4f43204b4a433b32313946,
0x3b3b3b3b3b4e3b3b3b3b463830393b4c3b303b6f4c3b333139462d48504152474f454449205954494c4942495441504d4f43204b4a433b33313946,
0x3b3b3b3b3b4e3b3b3b3b323041363b4c3b303b6f4c3b343139462d48504152474f454449205954494c4942495441504d4f43204b4a433b34313946,
0x3b3b3b3b3b4e3b3b3b3b423144363b4c3b303b6f4c3b353139462d48504152474f454449205954494c4942495441504d4f43204b4a433b35313946,
0x3b3b3b3b3b4e3b3b3b3b394430373b4c3b303b6f4c3b363139462d48504152474f454449205954494c4942495441504d4f43204b4a433b36313946,
0x3b3b3b3b3b4e3b3b3b3b454433373b4c3b303b6f4c3b373139462d48504152474f454449205954494c4942495441504d4f43204b4a433b37313946,
0x3b3b3b3b3b4e3b3b3b3b443334383b4c3b303b6f4c3b383139462d48504152474f454449205954494c4942495441504d4f43204b4a433b38313946,
0x3b3b3b3b3b4e3b3b3b3b413631393b4c3b303b6f4c3b393139462d48504152474f454449205954494c4942495441504d4f43204b4a433b39313946,
0x3b3b3b3b3b4e3b3b3b3b314639393b4c3b303b6f4c3b413139462d48504152474f454449205954494c4942495441504d4f43204b4a433b41313946,
0x3b3b3b3b3b4e3b3b3b3b323845343b4c3b303b6f4c3b423139462d48504152474f454449205954494c4942495441504d4f43204b4a433b42313946,
0x3b3b3b3b3b4e3b3b3b3b353733353b4c3b303b6f4c3b433139462d48504152474f454449205954494c4942495441504d4f43204b4a433b43313946,
0x3b3b3b3b3b4e3b3b3b3b343042363b4c3b303b6f4c3b443139462d48504152474f454449205954494c4942495441504d4f43204b4a433b44313946,
0x3b3b3b3b3b4e3b3b3b3b423132373b4c3b303b6f4c3b453139462d48504152474f454449205954494c4942495441504d4f43204b4a433b45313946,
0x3b3b3b3b3b4e3b3b3b3b443236383b4c3b303b6f4c3b463139462d48504152474f454449205954494c4942495441504d4f43204b4a433b46313946,
0x3b3b3b3b3b4e3b3b3b3b453145393b4c3b303b6f4c3b303239462d48504152474f454449205954494c4942495441504d4f43204b4a433b30323946,
0x3b3b3b3b3b4e3b3b3b3b303544353b4c3b303b6f4c3b313239462d48504152474f454449205954494c4942495441504d4f43204b4a433b31323946,
0x3b3b3b3b3b4e3b3b3b3b424546363b4c3b303b6f4c3b323239462d48504152474f454449205954494c4942495441504d4f43204b4a433b32323946,
0x3b3b3b3b3b4e3b3b3b3b444335383b4c3b303b6f4c3b333239462d48504152474f454449205954494c4942495441504d4f43204b4a433b33323946,
0x3b3b3b3b3b4e3b3b3b3b343639383b4c3b303b6f4c3b343239462d48504152474f454449205954494c4942495441504d4f43204b4a433b34323946,
0x3b3b3b3b3b4e3b3b3b3b394332363b4c3b303b6f4c3b353239462d48504152474f454449205954494c4942495441504d4f43204b4a433b35323946,
0x3b3b3b3b3b4e3b3b3b3b384431383b4c3b303b6f4c3b363239462d48504152474f454449205954494c4942495441504d4f43204b4a433b36323946,
0x3b3b3b3b3b4e3b3b3b3b463138383b4c3b303b6f4c3b373239462d48504152474f454449205954494c4942495441504d4f43204b4a433b37323946,
0x3b3b3b3b3b4e3b3b3b3b414345353b4c3b303b6f4c3b383239462d48504152474f454449205954494c4942495441504d4f43204b4a433b38323946,
0x3b3b3b3b3b4e3b3b3b3b373137363b4c3b303b6f4c3b393239462d48504152474f454449205954494c4942495441504d4f43204b4a433b39323946,
0x3b3b3b3b3b4e3b3b3b3b413644363b4c3b303b6f4c3b413239462d48504152474f454449205954494c4942495441504d4f43204b4a433b41323946,
0x3b3b3b3b3b4e3b3b3b3b434632373b4c3b303b6f4c3b423239462d48504152474f454449205954494c4942495441504d4f43204b4a433b42323946,
0x3b3b3b3b3b4e3b3b3b3b454330393b4c3b303b6f4c3b433239462d48504152474f454449205954494c4942495441504d4f43204b4a433b43323946,
0x3b3b3b3b3b4e3b3b3b3b363846343b4c3b303b6f4c3b443239462d48504152474f454449205954494c4942495441504d4f43204b4a433b44323946,
0x3b3b3b3b3b4e3b3b3b3b374231353b4c3b303b6f4c3b453239462d48504152474f454449205954494c4942495441504d4f43204b4a433b45323946,
0x3b3b3b3b3b4e3b3b3b3b454432353b4c3b303b6f4c3b463239462d48504152474f454449205954494c4942495441504d4f43204b4a433b46323946,
0x3b3b3b3b3b4e3b3b3b3b344334363b4c3b303b6f4c3b303339462d48504152474f454449205954494c4942495441504d4f43204b4a433b30333946,
0x3b3b3b3b3b4e3b3b3b3b334441363b4c3b303b6f4c3b313339462d48504152474f454449205954494c4942495441504d4f43204b4a433b31333946,
0x3b3b3b3b3b4e3b3b3b3b303132373b4c3b303b6f4c3b323339462d48504152474f454449205954494c4942495441504d4f43204b4a433b32333946,
0x3b3b3b3b3b4e3b3b3b3b374536373b4c3b303b6f4c3b333339462d48504152474f454449205954494c4942495441504d4f43204b4a433b33333946,
0x3b3b3b3b3b4e3b3b3b3b313030383b4c3b303b6f4c3b343339462d48504152474f454449205954494c4942495441504d4f43204b4a433b34333946,
0x3b3b3b3b3b4e3b3b3b3b363036383b4c3b303b6f4c3b353339462d48504152474f454449205954494c4942495441504d4f43204b4a433b35333946,
0x3b3b3b3b3b4e3b3b3b3b433536383b4c3b303b6f4c3b363339462d48504152474f454449205954494c4942495441504d4f43204b4a433b36333946,
0x3b3b3b3b3b4e3b3b3b3b464544383b4c3b303b6f4c3b373339462d48504152474f454449205954494c4942495441504d4f43204b4a433b37333946,
0x3b3b3b3b3b4e3b3b3b3b323337393b4c3b303b6f4c3b383339462d48504152474f454449205954494c4942495441504d4f43204b4a433b38333946,
0x3b3b3b3b3b4e3b3b3b3b463642393b4c3b303b6f4c3b393339462d48504152474f454449205954494c4942495441504d4f43204b4a433b39333946,
0x3b3b3b3b3b4e3b3b3b3b414644393b4c3b303b6f4c3b413339462d48504152474f454449205954494c4942495441504d4f43204b4a433b41333946,
0x3b3b3b3b3b4e3b3b3b3b433838373b4c3b303b6f4c3b423339462d48504152474f454449205954494c4942495441504d4f43204b4a433b42333946,
0x3b3b3b3b3b4e3b3b3b3b463739373b4c3b303b6f4c3b433339462d48504152474f454449205954494c4942495441504d4f43204b4a433b43333946,
0x3b3b3b3b3b4e3b3b3b3b304144373b4c3b303b6f4c3b443339462d48504152474f454449205954494c4942495441504d4f43204b4a433b44333946,
0x3b3b3b3b3b4e3b3b3b3b394333383b4c3b303b6f4c3b453339462d48504152474f454449205954494c4942495441504d4f43204b4a433b45333946,
0x3b3b3b3b3b4e3b3b3b3b343033393b4c3b303b6f4c3b463339462d48504152474f454449205954494c4942495441504d4f43204b4a433b46333946,
0x3b3b3b3b3b4e3b3b3b3b463745393b4c3b303b6f4c3b303439462d48504152474f454449205954494c4942495441504d4f43204b4a433b30343946,
0x3b3b3b3b3b4e3b3b3b3b364441383b4c3b303b6f4c3b313439462d48504152474f454449205954494c4942495441504d4f43204b4a433b31343946,
0x3b3b3b3b3b4e3b3b3b3b464438353b4c3b303b6f4c3b323439462d48504152474f454449205954494c4942495441504d4f43204b4a433b32343946,
0x3b3b3b3b3b4e3b3b3b3b343046353b4c3b303b6f4c3b333439462d48504152474f454449205954494c4942495441504d4f43204b4a433b33343946,
0x3b3b3b3b3b4e3b3b3b3b303643373b4c3b303b6f4c3b343439462d48504152474f454449205954494c4942495441504d4f43204b4a433b34343946,
0x3b3b3b3b3b4e3b3b3b3b453730383b4c3b303b6f4c3b353439462d48504152474f454449205954494c4942495441504d4f43204b4a433b35343946,
0x3b3b3b3b3b4e3b3b3b3b323632373b4c3b303b6f4c3b363439462d48504152474f454449205954494c4942495441504d4f43204b4a433b36343946,
0x3b3b3b3b3b4e3b3b3b3b414338373b4c3b303b6f4c3b373439462d48504152474f454449205954494c4942495441504d4f43204b4a433b37343946,
0x3b3b3b3b3b4e3b3b3b3b324343383b4c3b303b6f4c3b383439462d48504152474f454449205954494c4942495441504d4f43204b4a433b38343946,
0x3b3b3b3b3b4e3b3b3b3b374636393b4c3b303b6f4c3b393439462d48504152474f454449205954494c4942495441504d4f43204b4a433b39343946,
0x3b3b3b3b3b4e3b3b3b3b384438353b4c3b303b6f4c3b413439462d48504152474f454449205954494c4942495441504d4f43204b4a433b41343946,
0x3b3b3b3b3b4e3b3b3b3b323643353b4c3b303b6f4c3b423439462d48504152474f454449205954494c4942495441504d4f43204b4a433b42343946,
0x3b3b3b3b3b4e3b3b3b3b333141363b4c3b303b6f4c3b433439462d48504152474f454449205954494c4942495441504d4f43204b4a433b43343946,
0x3b3b3b3b3b4e3b3b3b3b414444363b4c3b303b6f4c3b443439462d48504152474f454449205954494c4942495441504d4f43204b4a433b44343946,
0x3b3b3b3b3b4e3b3b3b3b463046363b4c3b303b6f4c3b453439462d48504152474f454449205954494c4942495441504d4f43204b4a433b45343946,
0x3b3b3b3b3b4e3b3b3b3b463244373b4c3b303b6f4c3b463439462d48504152474f454449205954494c4942495441504d4f43204b4a433b46343946,
0x3b3b3b3b3b4e3b3b3b3b373345373b4c3b303b6f4c3b303539462d48504152474f454449205954494c4942495441504d4f43204b4a433b30353946,
0x3b3b3b3b3b4e3b3b3b3b423436393b4c3b303b6f4c3b313539462d48504152474f454449205954494c4942495441504d4f43204b4a433b31353946,
0x3b3b3b3b3b4e3b3b3b3b324432353b4c3b303b6f4c3b323539462d48504152474f454449205954494c4942495441504d4f43204b4a433b32353946,
0x3b3b3b3b3b4e3b3b3b3b423830383b4c3b303b6f4c3b333539462d48504152474f454449205954494c4942495441504d4f43204b4a433b33353946,
0x3b3b3b3b3b4e3b3b3b3b434431353b4c3b303b6f4c3b343539462d48504152474f454449205954494c4942495441504d4f43204b4a433b34353946,
0x3b3b3b3b3b4e3b3b3b3b434331353b4c3b303b6f4c3b353539462d48504152474f454449205954494c4942495441504d4f43204b4a433b35353946,
0x3b3b3b3b3b4e3b3b3b3b433141373b4c3b303b6f4c3b363539462d48504152474f454449205954494c4942495441504d4f43204b4a433b36353946,
0x3b3b3b3b3b4e3b3b3b3b454244373b4c3b303b6f4c3b373539462d48504152474f454449205954494c4942495441504d4f43204b4a433b37353946,
0x3b3b3b3b3b4e3b3b3b3b314633383b4c3b303b6f4c3b383539462d48504152474f454449205954494c4942495441504d4f43204b4a433b38353946,
0x3b3b3b3b3b4e3b3b3b3b353736393b4c3b303b6f4c3b393539462d48504152474f454449205954494c4942495441504d4f43204b4a433b39353946,
0x3b3b3b3b3b4e3b3b3b3b303842383b4c3b303b6f4c3b413539462d48504152474f454449205954494c4942495441504d4f43204b4a433b41353946,
0x3b3b3b3b3b4e3b3b3b3b464332363b4c3b303b6f4c3b423539462d48504152474f454449205954494c4942495441504d4f43204b4a433b42353946,
0x3b3b3b3b3b4e3b3b3b3b323041363b4c3b303b6f4c3b433539462d48504152474f454449205954494c4942495441504d4f43204b4a433b43353946,
0x3b3b3b3b3b4e3b3b3b3b454641383b4c3b303b6f4c3b443539462d48504152474f454449205954494c4942495441504d4f43204b4a433b44353946,
0x3b3b3b3b3b4e3b3b3b3b393345343b4c3b303b6f4c3b453539462d48504152474f454449205954494c4942495441504d4f43204b4a433b45353946,
0x3b3b3b3b3b4e3b3b3b3b374542353b4c3b303b6f4c3b463539462d48504152474f454449205954494c4942495441504d4f43204b4a433b46353946,
0x3b3b3b3b3b4e3b3b3b3b323130363b4c3b303b6f4c3b303639462d48504152474f454449205954494c4942495441504d4f43204b4a433b30363946,
0x3b3b3b3b3b4e3b3b3b3b373833373b4c3b303b6f4c3b313639462d48504152474f454449205954494c4942495441504d4f43204b4a433b31363946,
0x3b3b3b3b3b4e3b3b3b3b303735373b4c3b303b6f4c3b323639462d48504152474f454449205954494c4942495441504d4f43204b4a433b32363946,
0x3b3b3b3b3b4e3b3b3b3b373133353b4c3b303b6f4c3b333639462d48504152474f454449205954494c4942495441504d4f43204b4a433b33363946,
0x3b3b3b3b3b4e3b3b3b3b424638373b4c3b303b6f4c3b343639462d48504152474f454449205954494c4942495441504d4f43204b4a433b34363946,
0x3b3b3b3b3b4e3b3b3b3b464246343b4c3b303b6f4c3b353639462d48504152474f454449205954494c4942495441504d4f43204b4a433b35363946,
0x3b3b3b3b3b4e3b3b3b3b394146353b4c3b303b6f4c3b363639462d48504152474f454449205954494c4942495441504d4f43204b4a433b36363946,
0x3b3b3b3b3b4e3b3b3b3b443045343b4c3b303b6f4c3b373639462d48504152474f454449205954494c4942495441504d4f43204b4a433b37363946,
0x3b3b3b3b3b4e3b3b3b3b434343363b4c3b303b6f4c3b383639462d48504152474f454449205954494c4942495441504d4f43204b4a433b38363946,
0x3b3b3b3b3b4e3b3b3b3b383735363b4c3b303b6f4c3b393639462d48504152474f454449205954494c4942495441504d4f43204b4a433b39363946,
0x3b3b3b3b3b4e3b3b3b3b323244373b4c3b303b6f4c3b413639462d48504152474f454449205954494c4942495441504d4f43204b4a433b41363946,
0x3b3b3b3b3b4e3b333b3b3b334333353b4c3b303b6f4c3b423639462d48504152474f454449205954494c4942495441504d4f43204b4a433b42363946,
0x3b3b3b3b3b4e3b3b3b3b453538353b4c3b303b6f4c3b433639462d48504152474f454449205954494c4942495441504d4f43204b4a433b43363946,
0x3b3b3b3b3b4e3b3b3b3b313037373b4c3b303b6f4c3b443639462d48504152474f454449205954494c4942495441504d4f43204b4a433b44363946,
0x3b3b3b3b3b4e3b3b3b3b393434383b4c3b303b6f4c3b453639462d48504152474f454449205954494c4942495441504d4f43204b4a433b45363946,
0x3b3b3b3b3b4e3b3b3b3b414141383b4c3b303b6f4c3b463639462d48504152474f454449205954494c4942495441504d4f43204b4a433b46363946,
0x3b3b3b3b3b4e3b3b3b3b414242363b4c3b303b6f4c3b303739462d48504152474f454449205954494c4942495441504d4f43204b4a433b30373946,
0x3b3b3b3b3b4e3b3b3b3b304246383b4c3b303b6f4c3b313739462d48504152474f454449205954494c4942495441504d4f43204b4a433b31373946,
0x3b3b3b3b3b4e3b3b3b3b383843363b4c3b303b6f4c3b323739462d48504152474f454449205954494c4942495441504d4f43204b4a433b32373946,
0x3b3b3b3b3b4e3b30313b3b3b454632363b4c3b303b6f4c3b333739462d48504152474f454449205954494c4942495441504d4f43204b4a433b33373946,
0x3b3b3b3b3b4e3b3b3b3b354532383b4c3b303b6f4c3b343739462d48504152474f454449205954494c4942495441504d4f43204b4a433b34373946,
0x3b3b3b3b3b4e3b3b3b3b304133363b4c3b303b6f4c3b353739462d48504152474f454449205954494c4942495441504d4f43204b4a433b35373946,
0x3b3b3b3b3b4e3b3b3b3b353635373b4c3b303b6f4c3b363739462d48504152474f454449205954494c4942495441504d4f43204b4a433b36373946,
0x3b3b3b3b3b4e3b3b3b3b454145343b4c3b303b6f4c3b373739462d48504152474f454449205954494c4942495441504d4f43204b4a433b37373946,
0x3b3b3b3b3b4e3b323b3b3b393631353b4c3b303b6f4c3b383739462d48504152474f454449205954494c4942495441504d4f43204b4a433b38373946,
0x3b3b3b3b3b4e3b3b3b3b394331353b4c3b303b6f4c3b393739462d48504152474f454449205954494c4942495441504d4f43204b4a433b39373946,
0x3b3b3b3b3b4e3b3b3b3b313838363b4c3b303b6f4c3b413739462d48504152474f454449205954494c4942495441504d4f43204b4a433b41373946,
0x3b3b3b3b3b4e3b3b3b3b374543373b4c3b303b6f4c3b423739462d48504152474f454449205954494c4942495441504d4f43204b4a433b42373946,
0x3b3b3b3b3b4e3b3b3b3b463632383b4c3b303b6f4c3b433739462d48504152474f454449205954494c4942495441504d4f43204b4a433b43373946,
0x3b3b3b3b3b4e3b3b3b3b324441383b4c3b303b6f4c3b443739462d48504152474f454449205954494c4942495441504d4f43204b4a433b44373946,
0x3b3b3b3b3b4e3b3b3b3b464331393b4c3b303b6f4c3b453739462d48504152474f454449205954494c4942495441504d4f43204b4a433b45373946,
0x3b3b3b3b3b4e3b3b3b3b354632353b4c3b303b6f4c3b463739462d48504152474f454449205954494c4942495441504d4f43204b4a433b46373946,
0x3b3b3b3b3b4e3b3b3b3b323434353b4c3b303b6f4c3b303839462d48504152474f454449205954494c4942495441504d4f43204b4a433b30383946,
0x3b3b3b3b3b4e3b3b3b3b333739353b4c3b303b6f4c3b313839462d48504152474f454449205954494c4942495441504d4f43204b4a433b31383946,
0x3b3b3b3b3b4e3b3b3b3b434545353b4c3b303b6f4c3b323839462d48504152474f454449205954494c4942495441504d4f43204b4a433b32383946,
0x3b3b3b3b3b4e3b3b3b3b354335363b4c3b303b6f4c3b333839462d48504152474f454449205954494c4942495441504d4f43204b4a433b33383946,
0x3b3b3b3b3b4e3b3b3b3b454646363b4c3b303b6f4c3b343839462d48504152474f454449205954494c4942495441504d4f43204b4a433b34383946,
0x3b3b3b3b3b4e3b3b3b3b413239373b4c3b303b6f4c3b353839462d48504152474f454449205954494c4942495441504d4f43204b4a433b35383946,
0x3b3b3b3b3b4e3b3b3b3b444135393b4c3b303b6f4c3b363839462d48504152474f454449205954494c4942495441504d4f43204b4a433b36383946,
0x3b3b3b3b3b4e3b3b3b3b413641393b4c3b303b6f4c3b373839462d48504152474f454449205954494c4942495441504d4f43204b4a433b37383946,
0x3b3b3b3b3b4e3b3b3b3b373945393b4c3b303b6f4c3b383839462d48504152474f454449205954494c4942495441504d4f43204b4a433b38383946,
0x3b3b3b3b3b4e3b3b3b3b454345393b4c3b303b6f4c3b393839462d48504152474f454449205954494c4942495441504d4f43204b4a433b39383946,
0x3b3b3b3b3b4e3b3b3b3b423932353b4c3b303b6f4c3b413839462d48504152474f454449205954494c4942495441504d4f43204b4a433b41383946,
0x3b3b3b3b3b4e3b3b3b3b364336363b4c3b303b6f4c3b423839462d48504152474f454449205954494c4942495441504d4f43204b4a433b42383946,
0x3b3b3b3b3b4e3b3b3b3b373742363b4c3b303b6f4c3b433839462d48504152474f454449205954494c4942495441504d4f43204b4a433b43383946,
0x3b3b3b3b3b4e3b3b3b3b323646383b4c3b303b6f4c3b443839462d48504152474f454449205954494c4942495441504d4f43204b4a433b44383946,
0x3b3b3b3b3b4e3b3b3b3b343745353b4c3b303b6f4c3b453839462d48504152474f454449205954494c4942495441504d4f43204b4a433b45383946,
0x3b3b3b3b3b4e3b3b3b3b303931363b4c3b303b6f4c3b463839462d48504152474f454449205954494c4942495441504d4f43204b4a433b46383946,
0x3b3b3b3b3b4e3b3b3b3b303032363b4c3b303b6f4c3b303939462d48504152474f454449205954494c4942495441504d4f43204b4a433b30393946,
0x3b3b3b3b3b4e3b3b3b3b413934363b4c3b303b6f4c3b313939462d48504152474f454449205954494c4942495441504d4f43204b4a433b31393946,
0x3b3b3b3b3b4e3b3b3b3b333246363b4c3b303b6f4c3b323939462d48504152474f454449205954494c4942495441504d4f43204b4a433b32393946,
0x3b3b3b3b3b4e3b3b3b3b393431373b4c3b303b6f4c3b333939462d48504152474f454449205954494c4942495441504d4f43204b4a433b33393946,
0x3b3b3b3b3b4e3b3b3b3b393834373b4c3b303b6f4c3b343939462d48504152474f454449205954494c4942495441504d4f43204b4a433b34393946,
0x3b3b3b3b3b4e3b3b3b3b414339373b4c3b303b6f4c3b353939462d48504152474f454449205954494c4942495441504d4f43204b4a433b35393946,
0x3b3b3b3b3b4e3b3b3b3b344644373b4c3b303b6f4c3b363939462d48504152474f454449205954494c4942495441504d4f43204b4a433b36393946,
0x3b3b3b3b3b4e3b3b3b3b463630383b4c3b303b6f4c3b373939462d48504152474f454449205954494c4942495441504d4f43204b4a433b37393946,
0x3b3b3b3b3b4e3b3b3b3b363246383b4c3b303b6f4c3b383939462d48504152474f454449205954494c4942495441504d4f43204b4a433b38393946,
0x3b3b3b3b3b4e3b3b3b3b454534383b4c3b303b6f4c3b393939462d48504152474f454449205954494c4942495441504d4f43204b4a433b39393946,
0x3b3b3b3b3b4e3b3b3b3b333230393b4c3b303b6f4c3b413939462d48504152474f454449205954494c4942495441504d4f43204b4a433b41393946,
0x3b3b3b3b3b4e3b3b3b3b413433393b4c3b303b6f4c3b423939462d48504152474f454449205954494c4942495441504d4f43204b4a433b42393946,
0x3b3b3b3b3b4e3b3b3b3b373132353b4c3b303b6f4c3b433939462d48504152474f454449205954494c4942495441504d4f43204b4a433b43393946,
0x3b3b3b3b3b4e3b3b3b3b334132353b4c3b303b6f4c3b443939462d48504152474f454449205954494c4942495441504d4f43204b4a433b44393946,
0x3b3b3b3b3b4e3b3b3b3b444234353b4c3b303b6f4c3b453939462d48504152474f454449205954494c4942495441504d4f43204b4a433b45393946,
0x3b3b3b3b3b4e3b3b3b3b384330373b4c3b303b6f4c3b463939462d48504152474f454449205954494c4942495441504d4f43204b4a433b46393946,
0x3b3b3b3b3b4e3b3b3b3b324338383b4c3b303b6f4c3b304139462d48504152474f454449205954494c4942495441504d4f43204b4a433b30413946,
0x3b3b3b3b3b4e3b3b3b3b414141383b4c3b303b6f4c3b314139462d48504152474f454449205954494c4942495441504d4f43204b4a433b31413946,
0x3b3b3b3b3b4e3b3b3b3b394345353b4c3b303b6f4c3b324139462d48504152474f454449205954494c4942495441504d4f43204b4a433b32413946,
0x3b3b3b3b3b4e3b3b3b3b354646353b4c3b303b6f4c3b334139462d48504152474f454449205954494c4942495441504d4f43204b4a433b33413946,
0x3b3b3b3b3b4e3b3b3b3b423733363b4c3b303b6f4c3b344139462d48504152474f454449205954494c4942495441504d4f43204b4a433b34413946,
0x3b3b3b3b3b4e3b3b3b3b454142363b4c3b303b6f4c3b354139462d48504152474f454449205954494c4942495441504d4f43204b4a433b35413946,
0x3b3b3b3b3b4e3b3b3b3b453343373b4c3b303b6f4c3b364139462d48504152474f454449205954494c4942495441504d4f43204b4a433b36413946,
0x3b3b3b3b3b4e3b3b3b3b353733373b4c3b303b6f4c3b374139462d48504152474f454449205954494c4942495441504d4f43204b4a433b37413946,
0x3b3b3b3b3b4e3b3b3b3b344545343b4c3b303b6f4c3b384139462d48504152474f454449205954494c4942495441504d4f43204b4a433b38413946]

/-- src/u5e/props/UnicodeData.txt lines 15105-15360. -/
def rawUcd59 : List Nat := [
0x3b3b3b3b3b4e3b3b3b3b394636353b4c3b303b6f4c3b394139462d48504152474f454449205954494c4942495441504d4f43204b4a433b39413946,
0x3b3b3b3b3b4e3b3b3b3b374542353b4c3b303b6f4c3b414139462d48504152474f454449205954494c4942495441504d4f43204b4a433b41413946,
0x3b3b3b3b3b4e3b3b3b3b414244353b4c3b303b6f4c3b424139462d48504152474f454449205954494c4942495441504d4f43204b4a433b42413946,
0x3b3b3b3b3b4e3b3b3b3b433130363b4c3b303b6f4c3b434139462d48504152474f454449205954494c4942495441504d4f43204b4a433b43413946,
0x3b3b3b3b3b4e3b3b3b3b324233373b4c3b303b6f4c3b444139462d48504152474f454449205954494c4942495441504d4f43204b4a433b44413946,
0x3b3b3b3b3b4e3b3b3b3b393634373b4c3b303b6f4c3b454139462d48504152474f454449205954494c4942495441504d4f43204b4a433b45413946,
0x3b3b3b3b3b4e3b3b3b3b413946373b4c3b303b6f4c3b464139462d48504152474f454449205954494c4942495441504d4f43204b4a433b46413946,
0x3b3b3b3b3b4e3b3b3b3b363430383b4c3b303b6f4c3b304239462d48504152474f454449205954494c4942495441504d4f43204b4a433b30423946,
0x3b3b3b3b3b4e3b3b3b3b343332393b4c3b303b6f4c3b314239462d48504152474f454449205954494c4942495441504d4f43204b4a433b31423946,
0x3b3b3b3b3b4e3b303b3b3b364636393b4c3b303b6f4c3b324239462d48504152474f454449205954494c4942495441504d4f43204b4a433b32423946,
0x3b3b3b3b3b4e3b3b3b3b383437393b4c3b303b6f4c3b334239462d48504152474f454449205954494c4942495441504d4f43204b4a433b33423946,
0x3b3b3b3b3b4e3b3b3b3b383138393b4c3b303b6f4c3b344239462d48504152474f454449205954494c4942495441504d4f43204b4a433b34423946,
0x3b3b3b3b3b4e3b3b3b3b423846343b4c3b303b6f4c3b354239462d48504152474f454449205954494c4942495441504d4f43204b4a433b35423946,
0x3b3b3b3b3b4e3b3b3b3b454139373b4c3b303b6f4c3b364239462d48504152474f454449205954494c4942495441504d4f43204b4a433b36423946,
0x3b3b3b3b3b4e3b3b3b3b344231393b4c3b303b6f4c3b374239462d48504152474f454449205954494c4942495441504d4f43204b4a433b37423946,
0x3b3b3b3b3b4e3b3b3b3b384236393b4c3b303b6f4c3b384239462d48504152474f454449205954494c4942495441504d4f43204b4a433b38423946,
0x3b3b3b3b3b4e3b3b3b3b314530363b4c3b303b6f4c3b394239462d48504152474f454449205954494c4942495441504d4f43204b4a433b39423946,
0x3b3b3b3b3b4e3b3b3b3b363845343b4c3b303b6f4c3b414239462d48504152474f454449205954494c4942495441504d4f43204b4a433b41423946,
0x3b3b3b3b3b4e3b3b3b3b414430353b4c3b303b6f4c3b424239462d48504152474f454449205954494c4942495441504d4f43204b4a433b42423946,
0x3b3b3b3b3b4e3b3b3b3b454542353b4c3b303b6f4c3b434239462d48504152474f454449205954494c4942495441504d4f43204b4a433b43423946,
0x3b3b3b3b3b4e3b3b3b3b463343353b4c3b303b6f4c3b444239462d48504152474f454449205954494c4942495441504d4f43204b4a433b44423946,
0x3b3b3b3b3b4e3b3b3b3b393935363b4c3b303b6f4c3b454239462d48504152474f454449205954494c4942495441504d4f43204b4a433b45423946,
0x3b3b3b3b3b4e3b3b3b3b323041363b4c3b303b6f4c3b464239462d48504152474f454449205954494c4942495441504d4f43204b4a433b46423946,
0x3b3b3b3b3b4e3b3b3b3b454331373b4c3b303b6f4c3b304339462d48504152474f454449205954494c4942495441504d4f43204b4a433b30433946,
0x3b3b3b3b3b4e3b3b3b3b323436373b4c3b303b6f4c3b314339462d48504152474f454449205954494c4942495441504d4f43204b4a433b31433946,
0x3b3b3b3b3b4e3b3b3b3b434634383b4c3b303b6f4c3b324339462d48504152474f454449205954494c4942495441504d4f43204b4a433b32433946,
0x3b3b3b3b3b4e3b3b3b3b433730393b4c3b303b6f4c3b334339462d48504152474f454449205954494c4942495441504d4f43204b4a433b33433946,
0x3b3b3b3b3b4e3b3b3b3b443846393b4c3b303b6f4c3b344339462d48504152474f454449205954494c4942495441504d4f43204b4a433b34433946,
0x3b3b3b3b3b4e3b3b3b3b383836363b4c3b303b6f4c3b354339462d48504152474f454449205954494c4942495441504d4f43204b4a433b35433946,
0x3b3b3b3b3b4e3b3b3b3b453236393b4c3b303b6f4c3b364339462d48504152474f454449205954494c4942495441504d4f43204b4a433b36433946,
0x3b3b3b3b3b4e3b3b3b3b393832353b4c3b303b6f4c3b374339462d48504152474f454449205954494c4942495441504d4f43204b4a433b37433946,
0x3b3b3b3b3b4e3b3b3b3b423737363b4c3b303b6f4c3b384339462d48504152474f454449205954494c4942495441504d4f43204b4a433b38433946,
0x3b3b3b3b3b4e3b3b3b3b334637363b4c3b303b6f4c3b394339462d48504152474f454449205954494c4942495441504d4f43204b4a433b39433946,
0x3b3b3b3b3b4e3b3b3b3b313444363b4c3b303b6f4c3b414339462d48504152474f454449205954494c4942495441504d4f43204b4a433b41433946,
0x3b3b3b3b3b4e3b3b3b3b433945363b4c3b303b6f4c3b424339462d48504152474f454449205954494c4942495441504d4f43204b4a433b42433946,
0x3b3b3b3b3b4e3b3b3b3b393034373b4c3b303b6f4c3b434339462d48504152474f454449205954494c4942495441504d4f43204b4a433b43433946,
0x3b3b3b3b3b4e3b3b3b3b393535373b4c3b303b6f4c3b444339462d48504152474f454449205954494c4942495441504d4f43204b4a433b44433946,
0x3b3b3b3b3b4e3b3b3b3b423638373b4c3b303b6f4c3b454339462d48504152474f454449205954494c4942495441504d4f43204b4a433b45433946,
0x3b3b3b3b3b4e3b3b3b3b303144373b4c3b303b6f4c3b464339462d48504152474f454449205954494c4942495441504d4f43204b4a433b46433946,
0x3b3b3b3b3b4e3b3b3b3b453538393b4c3b303b6f4c3b304439462d48504152474f454449205954494c4942495441504d4f43204b4a433b30443946,
0x3b3b3b3b3b4e3b363b3b3b443631353b4c3b303b6f4c3b314439462d48504152474f454449205954494c4942495441504d4f43204b4a433b31443946,
0x3b3b3b3b3b4e3b3b3b3b453232363b4c3b303b6f4c3b324439462d48504152474f454449205954494c4942495441504d4f43204b4a433b32443946,
0x3b3b3b3b3b4e3b363b3b3b383736393b4c3b303b6f4c3b334439462d48504152474f454449205954494c4942495441504d4f43204b4a433b33443946,
0x3b3b3b3b3b4e3b3b3b3b423230353b4c3b303b6f4c3b344439462d48504152474f454449205954494c4942495441504d4f43204b4a433b34443946,
0x3b3b3b3b3b4e3b3b3b3b393144353b4c3b303b6f4c3b354439462d48504152474f454449205954494c4942495441504d4f43204b4a433b35443946,
0x3b3b3b3b3b4e3b3b3b3b414544363b4c3b303b6f4c3b364439462d48504152474f454449205954494c4942495441504d4f43204b4a433b36443946,
0x3b3b3b3b3b4e3b3b3b3b413246383b4c3b303b6f4c3b374439462d48504152474f454449205954494c4942495441504d4f43204b4a433b37443946,
0x3b3b3b3b3b4e3b3b3b3b423846353b4c3b303b6f4c3b384439462d48504152474f454449205954494c4942495441504d4f43204b4a433b38443946,
0x3b3b3b3b3b4e3b3b3b3b343431363b4c3b303b6f4c3b394439462d48504152474f454449205954494c4942495441504d4f43204b4a433b39443946,
0x3b3b3b3b3b4e3b3b3b3b373138363b4c3b303b6f4c3b414439462d48504152474f454449205954494c4942495441504d4f43204b4a433b41443946,
0x3b3b3b3b3b4e3b3b3b3b373833373b4c3b303b6f4c3b424439462d48504152474f454449205954494c4942495441504d4f43204b4a433b42443946,
0x3b3b3b3b3b4e3b3b3b3b363836393b4c3b303b6f4c3b434439462d48504152474f454449205954494c4942495441504d4f43204b4a433b43443946,
0x3b3b3b3b3b4e3b3b3b3b393232353b4c3b303b6f4c3b444439462d48504152474f454449205954494c4942495441504d4f43204b4a433b44443946,
0x3b3b3b3b3b4e3b3b3b3b463034353b4c3b303b6f4c3b454439462d48504152474f454449205954494c4942495441504d4f43204b4a433b45443946,
0x3b3b3b3b3b4e3b3b3b3b353643353b4c3b303b6f4c3b464439462d48504152474f454449205954494c4942495441504d4f43204b4a433b46443946,
0x3b3b3b3b3b4e3b3b3b3b333136363b4c3b303b6f4c3b304539462d48504152474f454449205954494c4942495441504d4f43204b4a433b30453946,
0x3b3b3b3b3b4e3b3b3b3b453437363b4c3b303b6f4c3b314539462d48504152474f454449205954494c4942495441504d4f43204b4a433b31453946,
0x3b3b3b3b3b4e3b3b3b3b384138363b4c3b303b6f4c3b324539462d48504152474f454449205954494c4942495441504d4f43204b4a433b32453946,
0x3b3b3b3b3b4e3b3b3b3b354543363b4c3b303b6f4c3b334539462d48504152474f454449205954494c4942495441504d4f43204b4a433b33453946,
0x3b3b3b3b3b4e3b3b3b3b363034373b4c3b303b6f4c3b344539462d48504152474f454449205954494c4942495441504d4f43204b4a433b34453946,
0x3b3b3b3b3b4e3b3b3b3b324535373b4c3b303b6f4c3b354539462d48504152474f454449205954494c4942495441504d4f43204b4a433b35453946,
0x3b3b3b3b3b4e3b3b3b3b393746373b4c3b303b6f4c3b364539462d48504152474f454449205954494c4942495441504d4f43204b4a433b36453946,
0x3b3b3b3b3b4e3b3b3b3b464338383b4c3b303b6f4c3b374539462d48504152474f454449205954494c4942495441504d4f43204b4a433b37453946,
0x3b3b3b3b3b4e3b3b3b3b314538383b4c3b303b6f4c3b384539462d48504152474f454449205954494c4942495441504d4f43204b4a433b38453946,
0x3b3b3b3b3b4e3b3b3b3b434331393b4c3b303b6f4c3b394539462d48504152474f454449205954494c4942495441504d4f43204b4a433b39453946,
0x3b3b3b3b3b4e3b3b3b3b324536393b4c3b303b6f4c3b414539462d48504152474f454449205954494c4942495441504d4f43204b4a433b41453946,
0x3b3b3b3b3b4e3b3b3b3b463333353b4c3b303b6f4c3b424539462d48504152474f454449205954494c4942495441504d4f43204b4a433b42453946,
0x3b3b3b3b3b4e3b3b3b3b414245363b4c3b303b6f4c3b434539462d48504152474f454449205954494c4942495441504d4f43204b4a433b43453946,
0x3b3b3b3b3b4e3b3b3b3b443134353b4c3b303b6f4c3b444539462d48504152474f454449205954494c4942495441504d4f43204b4a433b44453946,
0x3b3b3b3b3b4e3b3b3b3b304431373b4c3b303b6f4c3b454539462d48504152474f454449205954494c4942495441504d4f43204b4a433b45453946,
0x3b3b3b3b3b4e3b3b3b3b383934373b4c3b303b6f4c3b464539462d48504152474f454449205954494c4942495441504d4f43204b4a433b46453946,
0x3b3b3b3b3b4e3b3b3b3b414635383b4c3b303b6f4c3b304639462d48504152474f454449205954494c4942495441504d4f43204b4a433b30463946,
0x3b3b3b3b3b4e3b3b3b3b334136393b4c3b303b6f4c3b314639462d48504152474f454449205954494c4942495441504d4f43204b4a433b31463946,
0x3b3b3b3b3b4e3b3b3b3b373543393b4c3b303b6f4c3b324639462d48504152474f454449205954494c4942495441504d4f43204b4a433b32463946,
0x3b3b3b3b3b4e3b3b3b3b463945393b4c3b303b6f4c3b334639462d48504152474f454449205954494c4942495441504d4f43204b4a433b33463946,
0x3b3b3b3b3b4e3b3b3b3b373937363b4c3b303b6f4c3b344639462d48504152474f454449205954494c4942495441504d4f43204b4a433b34463946,
0x3b3b3b3b3b4e3b3b3b3b424344363b4c3b303b6f4c3b354639462d48504152474f454449205954494c4942495441504d4f43204b4a433b35463946,
0x3b3b3b3b3b4e3b3b3b3b384531383b4c3b303b6f4c3b364639462d48504152474f454449205954494c4942495441504d4f43204b4a433b36463946,
0x3b3b3b3b3b4e3b3b3b3b424341373b4c3b303b6f4c3b374639462d48504152474f454449205954494c4942495441504d4f43204b4a433b37463946,
0x3b3b3b3b3b4e3b3b3b3b303242373b4c3b303b6f4c3b384639462d48504152474f454449205954494c4942495441504d4f43204b4a433b38463946,
0x3b3b3b3b3b4e3b3b3b3b323943373b4c3b303b6f4c3b394639462d48504152474f454449205954494c4942495441504d4f43204b4a433b39463946,
0x3b3b3b3b3b4e3b3b3b3b304332373b4c3b303b6f4c3b414639462d48504152474f454449205954494c4942495441504d4f43204b4a433b41463946,
0x3b3b3b3b3b4e3b3b3b3b393930373b4c3b303b6f4c3b424639462d48504152474f454449205954494c4942495441504d4f43204b4a433b42463946,
0x3b3b3b3b3b4e3b3b3b3b383542383b4c3b303b6f4c3b434639462d48504152474f454449205954494c4942495441504d4f43204b4a433b43463946,
0x3b3b3b3b3b4e3b30313b3b3b304345343b4c3b303b6f4c3b444639462d48504152474f454449205954494c4942495441504d4f43204b4a433b44463946,
0x3b3b3b3b3b4e3b3b3b3b363333383b4c3b303b6f4c3b454639462d48504152474f454449205954494c4942495441504d4f43204b4a433b45463946,
0x3b3b3b3b3b4e3b3b3b3b413332353b4c3b303b6f4c3b464639462d48504152474f454449205954494c4942495441504d4f43204b4a433b46463946,
0x3b3b3b3b3b4e3b3b3b3b373032353b4c3b303b6f4c3b303041462d48504152474f454449205954494c4942495441504d4f43204b4a433b30304146,
0x3b3b3b3b3b4e3b3b3b3b364145353b4c3b303b6f4c3b313041462d48504152474f454449205954494c4942495441504d4f43204b4a433b31304146,
0x3b3b3b3b3b4e3b3b3b3b334432363b4c3b303b6f4c3b323041462d48504152474f454449205954494c4942495441504d4f43204b4a433b32304146,
0x3b3b3b3b3b4e3b3b3b3b364443373b4c3b303b6f4c3b333041462d48504152474f454449205954494c4942495441504d4f43204b4a433b33304146,
0x3b3b3b3b3b4e3b3b3b3b353842353b4c3b303b6f4c3b343041462d48504152474f454449205954494c4942495441504d4f43204b4a433b34304146,
0x3b3b3b3b3b4e3b3b3b3b453144363b4c3b303b6f4c3b353041462d48504152474f454449205954494c4942495441504d4f43204b4a433b35304146,
0x3b3b3b3b3b4e3b3b3b3b344236363b4c3b303b6f4c3b363041462d48504152474f454449205954494c4942495441504d4f43204b4a433b36304146,
0x3b3b3b3b3b4e3b3b3b3b423346383b4c3b303b6f4c3b373041462d48504152474f454449205954494c4942495441504d4f43204b4a433b37304146,
0x3b3b3b3b3b4e3b3b3b3b433438383b4c3b303b6f4c3b383041462d48504152474f454449205954494c4942495441504d4f43204b4a433b38304146,
0x3b3b3b3b3b4e3b3b3b3b443436393b4c3b303b6f4c3b393041462d48504152474f454449205954494c4942495441504d4f43204b4a433b39304146,
0x3b3b3b3b3b4e3b3b3b3b423839383b4c3b303b6f4c3b413041462d48504152474f454449205954494c4942495441504d4f43204b4a433b41304146,
0x3b3b3b3b3b4e3b3b3b3b334445353b4c3b303b6f4c3b423041462d48504152474f454449205954494c4942495441504d4f43204b4a433b42304146,
0x3b3b3b3b3b4e3b3b3b3b303431353b4c3b303b6f4c3b433041462d48504152474f454449205954494c4942495441504d4f43204b4a433b43304146,
0x3b3b3b3b3b4e3b3b3b3b304335353b4c3b303b6f4c3b443041462d48504152474f454449205954494c4942495441504d4f43204b4a433b44304146,
0x3b3b3b3b3b4e3b3b3b3b3b4c3b303b6f4c3b453041462d48504152474f454449205954494c4942495441504d4f43204b4a433b45304146,
0x3b3b3b3b3b4e3b3b3b3b3b4c3b303b6f4c3b463041462d48504152474f454449205954494c4942495441504d4f43204b4a433b46304146,
0x3b3b3b3b3b4e3b3b3b3b413538353b4c3b303b6f4c3b303141462d48504152474f454449205954494c4942495441504d4f43204b4a433b30314146,
0x3b3b3b3b3b4e3b3b3b3b3b4c3b303b6f4c3b313141462d48504152474f454449205954494c4942495441504d4f43204b4a433b31314146,
0x3b3b3b3b3b4e3b3b3b3b343736363b4c3b303b6f4c3b323141462d48504152474f454449205954494c4942495441504d4f43204b4a433b32314146,
0x3b3b3b3b3b4e3b3b3b3b3b4c3b303b6f4c3b333141462d48504152474f454449205954494c4942495441504d4f43204b4a433b33314146,
0x3b3b3b3b3b4e3b3b3b3b3b4c3b303b6f4c3b343141462d48504152474f454449205954494c4942495441504d4f43204b4a433b34314146,
0x3b3b3b3b3b4e3b3b3b3b454431353b4c3b303b6f4c3b353141462d48504152474f454449205954494c4942495441504d4f43204b4a433b35314146,
0x3b3b3b3b3b4e3b3b3b3b413233373b4c3b303b6f4c3b363141462d48504152474f454449205954494c4942495441504d4f43204b4a433b36314146,
0x3b3b3b3b3b4e3b3b3b3b414336373b4c3b303b6f4c3b373141462d48504152474f454449205954494c4942495441504d4f43204b4a433b37314146,
0x3b3b3b3b3b4e3b3b3b3b433339373b4c3b303b6f4c3b383141462d48504152474f454449205954494c4942495441504d4f43204b4a433b38314146,
0x3b3b3b3b3b4e3b3b3b3b453539373b4c3b303b6f4c3b393141462d48504152474f454449205954494c4942495441504d4f43204b4a433b39314146,
0x3b3b3b3b3b4e3b3b3b3b353639373b4c3b303b6f4c3b413141462d48504152474f454449205954494c4942495441504d4f43204b4a433b41314146,
0x3b3b3b3b3b4e3b3b3b3b463839373b4c3b303b6f4c3b423141462d48504152474f454449205954494c4942495441504d4f43204b4a433b42314146,
0x3b3b3b3b3b4e3b3b3b3b363537393b4c3b303b6f4c3b433141462d48504152474f454449205954494c4942495441504d4f43204b4a433b43314146,
0x3b3b3b3b3b4e3b3b3b3b454243373b4c3b303b6f4c3b443141462d48504152474f454449205954494c4942495441504d4f43204b4a433b44314146,
0x3b3b3b3b3b4e3b3b3b3b444246373b4c3b303b6f4c3b453141462d48504152474f454449205954494c4942495441504d4f43204b4a433b45314146,
0x3b3b3b3b3b4e3b3b3b3b3b4c3b303b6f4c3b463141462d48504152474f454449205954494c4942495441504d4f43204b4a433b46314146,
0x3b3b3b3b3b4e3b3b3b3b323136383b4c3b303b6f4c3b303241462d48504152474f454449205954494c4942495441504d4f43204b4a433b30324146,
0x3b3b3b3b3b4e3b3b3b3b3b4c3b303b6f4c3b313241462d48504152474f454449205954494c4942495441504d4f43204b4a433b31324146,
0x3b3b3b3b3b4e3b3b3b3b384641383b4c3b303b6f4c3b323241462d48504152474f454449205954494c4942495441504d4f43204b4a433b32324146,
0x3b3b3b3b3b4e3b3b3b3b3b4c3b303b6f4c3b333241462d48504152474f454449205954494c4942495441504d4f43204b4a433b33324146,
0x3b3b3b3b3b4e3b3b3b3b3b4c3b303b6f4c3b343241462d48504152474f454449205954494c4942495441504d4f43204b4a433b34324146,
0x3b3b3b3b3b4e3b3b3b3b383330393b4c3b303b6f4c3b353241462d48504152474f454449205954494c4942495441504d4f43204b4a433b35324146,
0x3b3b3b3b3b4e3b3b3b3b444630393b4c3b303b6f4c3b363241462d48504152474f454449205954494c4942495441504d4f43204b4a433b36324146,
0x3b3b3b3b3b4e3b3b3b3b3b4c3b303b6f4c3b373241462d48504152474f454449205954494c4942495441504d4f43204b4a433b37324146,
0x3b3b3b3b3b4e3b3b3b3b3b4c3b303b6f4c3b383241462d48504152474f454449205954494c4942495441504d4f43204b4a433b38324146,
0x3b3b3b3b3b4e3b3b3b3b3b4c3b303b6f4c3b393241462d48504152474f454449205954494c4942495441504d4f43204b4a433b39324146,
0x3b3b3b3b3b4e3b3b3b3b464538393b4c3b303b6f4c3b413241462d48504152474f454449205954494c4942495441504d4f43204b4a433b41324146,
0x3b3b3b3b3b4e3b3b3b3b434638393b4c3b303b6f4c3b423241462d48504152474f454449205954494c4942495441504d4f43204b4a433b42324146,
0x3b3b3b3b3b4e3b3b3b3b383239393b4c3b303b6f4c3b433241462d48504152474f454449205954494c4942495441504d4f43204b4a433b43324146,
0x3b3b3b3b3b4e3b3b3b3b344244393b4c3b303b6f4c3b443241462d48504152474f454449205954494c4942495441504d4f43204b4a433b44324146,
0x3b3b3b3b3b4e3b3b3b3b454430393b4c3b303b6f4c3b453241462d48504152474f454449205954494c4942495441504d4f43204b4a433b45324146,
0x3b3b3b3b3b4e3b3b3b3b374236393b4c3b303b6f4c3b463241462d48504152474f454449205954494c4942495441504d4f43204b4a433b46324146,
0x3b3b3b3b3b4e3b3b3b3b454146343b4c3b303b6f4c3b303341462d48504152474f454449205954494c4942495441504d4f43204b4a433b30334146,
0x3b3b3b3b3b4e3b3b3b3b374530353b4c3b303b6f4c3b313341462d48504152474f454449205954494c4942495441504d4f43204b4a433b31334146,
0x3b3b3b3b3b4e3b3b3b3b443431353b4c3b303b6f4c3b323341462d48504152474f454449205954494c4942495441504d4f43204b4a433b32334146,
0x3b3b3b3b3b4e3b3b3b3b394332353b4c3b303b6f4c3b333341462d48504152474f454449205954494c4942495441504d4f43204b4a433b33334146,
0x3b3b3b3b3b4e3b3b3b3b344532353b4c3b303b6f4c3b343341462d48504152474f454449205954494c4942495441504d4f43204b4a433b34334146,
0x3b3b3b3b3b4e3b3b3b3b313533353b4c3b303b6f4c3b353341462d48504152474f454449205954494c4942495441504d4f43204b4a433b35334146,
0x3b3b3b3b3b4e3b3b3b3b443935353b4c3b303b6f4c3b363341462d48504152474f454449205954494c4942495441504d4f43204b4a433b36334146,
0x3b3b3b3b3b4e3b3b3b3b363036353b4c3b303b6f4c3b373341462d48504152474f454449205954494c4942495441504d4f43204b4a433b37334146,
0x3b3b3b3b3b4e3b3b3b3b383636353b4c3b303b6f4c3b383341462d48504152474f454449205954494c4942495441504d4f43204b4a433b38334146,
0x3b3b3b3b3b4e3b3b3b3b303438353b4c3b303b6f4c3b393341462d48504152474f454449205954494c4942495441504d4f43204b4a433b39334146,
0x3b3b3b3b3b4e3b3b3b3b384138353b4c3b303b6f4c3b413341462d48504152474f454449205954494c4942495441504d4f43204b4a433b41334146,
0x3b3b3b3b3b4e3b3b3b3b343643353b4c3b303b6f4c3b423341462d48504152474f454449205954494c4942495441504d4f43204b4a433b42334146,
0x3b3b3b3b3b4e3b3b3b3b453643353b4c3b303b6f4c3b433341462d48504152474f454449205954494c4942495441504d4f43204b4a433b43334146,
0x3b3b3b3b3b4e3b3b3b3b343930363b4c3b303b6f4c3b443341462d48504152474f454449205954494c4942495441504d4f43204b4a433b44334146,
0x3b3b3b3b3b4e3b3b3b3b383631363b4c3b303b6f4c3b453341462d48504152474f454449205954494c4942495441504d4f43204b4a433b45334146,
0x3b3b3b3b3b4e3b3b3b3b453831363b4c3b303b6f4c3b463341462d48504152474f454449205954494c4942495441504d4f43204b4a433b46334146,
0x3b3b3b3b3b4e3b3b3b3b324631363b4c3b303b6f4c3b303441462d48504152474f454449205954494c4942495441504d4f43204b4a433b30344146,
0x3b3b3b3b3b4e3b3b3b3b463435363b4c3b303b6f4c3b313441462d48504152474f454449205954494c4942495441504d4f43204b4a433b31344146,
0x3b3b3b3b3b4e3b3b3b3b324535363b4c3b303b6f4c3b323441462d48504152474f454449205954494c4942495441504d4f43204b4a433b32344146,
0x3b3b3b3b3b4e3b3b3b3b313936363b4c3b303b6f4c3b333441462d48504152474f454449205954494c4942495441504d4f43204b4a433b33344146,
0x3b3b3b3b3b4e3b3b3b3b353838363b4c3b303b6f4c3b343441462d48504152474f454449205954494c4942495441504d4f43204b4a433b34344146,
0x3b3b3b3b3b4e3b3b3b3b373744363b4c3b303b6f4c3b353441462d48504152474f454449205954494c4942495441504d4f43204b4a433b35344146,
0x3b3b3b3b3b4e3b3b3b3b413145363b4c3b303b6f4c3b363441462d48504152474f454449205954494c4942495441504d4f43204b4a433b36344146,
0x3b3b3b3b3b4e3b3b3b3b323246363b4c3b303b6f4c3b373441462d48504152474f454449205954494c4942495441504d4f43204b4a433b37344146,
0x3b3b3b3b3b4e3b3b3b3b453631373b4c3b303b6f4c3b383441462d48504152474f454449205954494c4942495441504d4f43204b4a433b38344146,
0x3b3b3b3b3b4e3b3b3b3b423232373b4c3b303b6f4c3b393441462d48504152474f454449205954494c4942495441504d4f43204b4a433b39344146,
0x3b3b3b3b3b4e3b3b3b3b323234373b4c3b303b6f4c3b413441462d48504152474f454449205954494c4942495441504d4f43204b4a433b41344146,
0x3b3b3b3b3b4e3b3b3b3b313938373b4c3b303b6f4c3b423441462d48504152474f454449205954494c4942495441504d4f43204b4a433b42344146,
0x3b3b3b3b3b4e3b3b3b3b453339373b4c3b303b6f4c3b433441462d48504152474f454449205954494c4942495441504d4f43204b4a433b43344146,
0x3b3b3b3b3b4e3b3b3b3b393439373b4c3b303b6f4c3b443441462d48504152474f454449205954494c4942495441504d4f43204b4a433b44344146,
0x3b3b3b3b3b4e3b3b3b3b383439373b4c3b303b6f4c3b453441462d48504152474f454449205954494c4942495441504d4f43204b4a433b45344146,
0x3b3b3b3b3b4e3b3b3b3b303539373b4c3b303b6f4c3b463441462d48504152474f454449205954494c4942495441504d4f43204b4a433b46344146,
0x3b3b3b3b3b4e3b3b3b3b363539373b4c3b303b6f4c3b303541462d48504152474f454449205954494c4942495441504d4f43204b4a433b30354146,
0x3b3b3b3b3b4e3b3b3b3b443539373b4c3b303b6f4c3b313541462d48504152474f454449205954494c4942495441504d4f43204b4a433b31354146,
0x3b3b3b3b3b4e3b3b3b3b443839373b4c3b303b6f4c3b323541462d48504152474f454449205954494c4942495441504d4f43204b4a433b32354146,
0x3b3b3b3b3b4e3b3b3b3b453839373b4c3b303b6f4c3b333541462d48504152474f454449205954494c4942495441504d4f43204b4a433b33354146,
0x3b3b3b3b3b4e3b3b3b3b303441373b4c3b303b6f4c3b343541462d48504152474f454449205954494c4942495441504d4f43204b4a433b34354146,
0x3b3b3b3b3b4e3b3b3b3b313841373b4c3b303b6f4c3b353541462d48504152474f454449205954494c4942495441504d4f43204b4a433b35354146,
0x3b3b3b3b3b4e3b3b3b3b304342373b4c3b303b6f4c3b363541462d48504152474f454449205954494c4942495441504d4f43204b4a433b36354146,
0x3b3b3b3b3b4e3b3b3b3b344644373b4c3b303b6f4c3b373541462d48504152474f454449205954494c4942495441504d4f43204b4a433b37354146,
0x3b3b3b3b3b4e3b3b3b3b393045373b4c3b303b6f4c3b383541462d48504152474f454449205954494c4942495441504d4f43204b4a433b38354146,
0x3b3b3b3b3b4e3b3b3b3b313445373b4c3b303b6f4c3b393541462d48504152474f454449205954494c4942495441504d4f43204b4a433b39354146,
0x3b3b3b3b3b4e3b3b3b3b323746373b4c3b303b6f4c3b413541462d48504152474f454449205954494c4942495441504d4f43204b4a433b41354146,
0x3b3b3b3b3b4e3b3b3b3b353030383b4c3b303b6f4c3b423541462d48504152474f454449205954494c4942495441504d4f43204b4a433b42354146,
0x3b3b3b3b3b4e3b3b3b3b444531383b4c3b303b6f4c3b433541462d48504152474f454449205954494c4942495441504d4f43204b4a433b43354146,
0x3b3b3b3b3b4e3b3b3b3b393732383b4c3b303b6f4c3b443541462d48504152474f454449205954494c4942495441504d4f43204b4a433b44354146,
0x3b3b3b3b3b4e3b3b3b3b393732383b4c3b303b6f4c3b453541462d48504152474f454449205954494c4942495441504d4f43204b4a433b45354146,
0x3b3b3b3b3b4e3b3b3b3b373534383b4c3b303b6f4c3b463541462d48504152474f454449205954494c4942495441504d4f43204b4a433b46354146,
0x3b3b3b3b3b4e3b3b3b3b303139383b4c3b303b6f4c3b303641462d48504152474f454449205954494c4942495441504d4f43204b4a433b30364146,
0x3b3b3b3b3b4e3b3b3b3b363939383b4c3b303b6f4c3b313641462d48504152474f454449205954494c4942495441504d4f43204b4a433b31364146,
0x3b3b3b3b3b4e3b3b3b3b313042383b4c3b303b6f4c3b323641462d48504152474f454449205954494c4942495441504d4f43204b4a433b32364146,
0x3b3b3b3b3b4e3b3b3b3b393342383b4c3b303b6f4c3b333641462d48504152474f454449205954494c4942495441504d4f43204b4a433b33364146,
0x3b3b3b3b3b4e3b3b3b3b334443383b4c3b303b6f4c3b343641462d48504152474f454449205954494c4942495441504d4f43204b4a433b34364146,
0x3b3b3b3b3b4e3b3b3b3b383044383b4c3b303b6f4c3b353641462d48504152474f454449205954494c4942495441504d4f43204b4a433b35364146,
0x3b3b3b3b3b4e3b3b3b3b364246383b4c3b303b6f4c3b363641462d48504152474f454449205954494c4942495441504d4f43204b4a433b36364146,
0x3b3b3b3b3b4e3b3b3b3b383330393b4c3b303b6f4c3b373641462d48504152474f454449205954494c4942495441504d4f43204b4a433b37364146,
0x3b3b3b3b3b4e3b3b3b3b334536393b4c3b303b6f4c3b383641462d48504152474f454449205954494c4942495441504d4f43204b4a433b38364146,
0x3b3b3b3b3b4e3b3b3b3b464637393b4c3b303b6f4c3b393641462d48504152474f454449205954494c4942495441504d4f43204b4a433b39364146,
0x3b3b3b3b3b4e3b3b3b3b423338393b4c3b303b6f4c3b413641462d48504152474f454449205954494c4942495441504d4f43204b4a433b41364146,
0x3b3b3b3b3b4e3b3b3b3b353730363b4c3b303b6f4c3b423641462d48504152474f454449205954494c4942495441504d4f43204b4a433b42364146,
0x3b3b3b3b3b4e3b3b3b3b45453234323b4c3b303b6f4c3b433641462d48504152474f454449205954494c4942495441504d4f43204b4a433b43364146,
0x3b3b3b3b3b4e3b3b3b3b383132383b4c3b303b6f4c3b443641462d48504152474f454449205954494c4942495441504d4f43204b4a433b44364146,
0x3b3b3b3b3b4e3b3b3b3b363245343b4c3b303b6f4c3b303741462d48504152474f454449205954494c4942495441504d4f43204b4a433b30374146,
0x3b3b3b3b3b4e3b3b3b3b354231353b4c3b303b6f4c3b313741462d48504152474f454449205954494c4942495441504d4f43204b4a433b31374146,
0x3b3b3b3b3b4e3b3b3b3b383631353b4c3b303b6f4c3b323741462d48504152474f454449205954494c4942495441504d4f43204b4a433b32374146,
0x3b3b3b3b3b4e3b3b3b3b303846343b4c3b303b6f4c3b333741462d48504152474f454449205954494c4942495441504d4f43204b4a433b33374146,
0x3b3b3b3b3b4e3b3b3b3b353431353b4c3b303b6f4c3b343741462d48504152474f454449205954494c4942495441504d4f43204b4a433b34374146,
0x3b3b3b3b3b4e3b3b3b3b303831353b4c3b303b6f4c3b353741462d48504152474f454449205954494c4942495441504d4f43204b4a433b35374146,
0x3b3b3b3b3b4e3b3b3b3b374332353b4c3b303b6f4c3b363741462d48504152474f454449205954494c4942495441504d4f43204b4a433b36374146,
0x3b3b3b3b3b4e3b3b3b3b414632353b4c3b303b6f4c3b373741462d48504152474f454449205954494c4942495441504d4f43204b4a433b37374146,
0x3b3b3b3b3b4e3b3b3b3b443935353b4c3b303b6f4c3b383741462d48504152474f454449205954494c4942495441504d4f43204b4a433b38374146,
0x3b3b3b3b3b4e3b3b3b3b353535353b4c3b303b6f4c3b393741462d48504152474f454449205954494c4942495441504d4f43204b4a433b39374146,
0x3b3b3b3b3b4e3b3b3b3b393935353b4c3b303b6f4c3b413741462d48504152474f454449205954494c4942495441504d4f43204b4a433b41374146,
0x3b3b3b3b3b4e3b3b3b3b324535353b4c3b303b6f4c3b423741462d48504152474f454449205954494c4942495441504d4f43204b4a433b42374146,
0x3b3b3b3b3b4e3b3b3b3b413538353b4c3b303b6f4c3b433741462d48504152474f454449205954494c4942495441504d4f43204b4a433b43374146,
0x3b3b3b3b3b4e3b3b3b3b334238353b4c3b303b6f4c3b443741462d48504152474f454449205954494c4942495441504d4f43204b4a433b44374146,
0x3b3b3b3b3b4e3b3b3b3b343439353b4c3b303b6f4c3b453741462d48504152474f454449205954494c4942495441504d4f43204b4a433b45374146,
0x3b3b3b3b3b4e3b3b3b3b343539353b4c3b303b6f4c3b463741462d48504152474f454449205954494c4942495441504d4f43204b4a433b46374146,
0x3b3b3b3b3b4e3b3b3b3b323641353b4c3b303b6f4c3b303841462d48504152474f454449205954494c4942495441504d4f43204b4a433b30384146,
0x3b3b3b3b3b4e3b3b3b3b383242353b4c3b303b6f4c3b313841462d48504152474f454449205954494c4942495441504d4f43204b4a433b31384146,
0x3b3b3b3b3b4e3b3b3b3b324445353b4c3b303b6f4c3b323841462d48504152474f454449205954494c4942495441504d4f43204b4a433b32384146,
0x3b3b3b3b3b4e3b3b3b3b394445353b4c3b303b6f4c3b333841462d48504152474f454449205954494c4942495441504d4f43204b4a433b33384146,
0x3b3b3b3b3b4e3b3b3b3b393646353b4c3b303b6f4c3b343841462d48504152474f454449205954494c4942495441504d4f43204b4a433b34384146,
0x3b3b3b3b3b4e3b3b3b3b444146353b4c3b303b6f4c3b353841462d48504152474f454449205954494c4942495441504d4f43204b4a433b35384146,
0x3b3b3b3b3b4e3b3b3b3b384430363b4c3b303b6f4c3b363841462d48504152474f454449205954494c4942495441504d4f43204b4a433b36384146,
0x3b3b3b3b3b4e3b3b3b3b453431363b4c3b303b6f4c3b373841462d48504152474f454449205954494c4942495441504d4f43204b4a433b37384146,
0x3b3b3b3b3b4e3b3b3b3b383031363b4c3b303b6f4c3b383841462d48504152474f454449205954494c4942495441504d4f43204b4a433b38384146,
0x3b3b3b3b3b4e3b3b3b3b453831363b4c3b303b6f4c3b393841462d48504152474f454449205954494c4942495441504d4f43204b4a433b39384146,
0x3b3b3b3b3b4e3b3b3b3b303631363b4c3b303b6f4c3b413841462d48504152474f454449205954494c4942495441504d4f43204b4a433b41384146,
0x3b3b3b3b3b4e3b3b3b3b324631363b4c3b303b6f4c3b423841462d48504152474f454449205954494c4942495441504d4f43204b4a433b42384146,
0x3b3b3b3b3b4e3b3b3b3b343332363b4c3b303b6f4c3b433841462d48504152474f454449205954494c4942495441504d4f43204b4a433b43384146,
0x3b3b3b3b3b4e3b3b3b3b344333363b4c3b303b6f4c3b443841462d48504152474f454449205954494c4942495441504d4f43204b4a433b44384146,
0x3b3b3b3b3b4e3b3b3b3b433134363b4c3b303b6f4c3b453841462d48504152474f454449205954494c4942495441504d4f43204b4a433b45384146,
0x3b3b3b3b3b4e3b3b3b3b323534363b4c3b303b6f4c3b463841462d48504152474f454449205954494c4942495441504d4f43204b4a433b46384146,
0x3b3b3b3b3b4e3b3b3b3b363535363b4c3b303b6f4c3b303941462d48504152474f454449205954494c4942495441504d4f43204b4a433b30394146,
0x3b3b3b3b3b4e3b3b3b3b343736363b4c3b303b6f4c3b313941462d48504152474f454449205954494c4942495441504d4f43204b4a433b31394146,
0x3b3b3b3b3b4e3b3b3b3b373137363b4c3b303b6f4c3b323941462d48504152474f454449205954494c4942495441504d4f43204b4a433b32394146,
0x3b3b3b3b3b4e3b3b3b3b423137363b4c3b303b6f4c3b333941462d48504152474f454449205954494c4942495441504d4f43204b4a433b33394146,
0x3b3b3b3b3b4e3b3b3b3b363537363b4c3b303b6f4c3b343941462d48504152474f454449205954494c4942495441504d4f43204b4a433b34394146,
0x3b3b3b3b3b4e3b3b3b3b393742363b4c3b303b6f4c3b353941462d48504152474f454449205954494c4942495441504d4f43204b4a433b35394146,
0x3b3b3b3b3b4e3b3b3b3b414242363b4c3b303b6f4c3b363941462d48504152474f454449205954494c4942495441504d4f43204b4a433b36394146,
0x3b3b3b3b3b4e3b3b3b3b313444363b4c3b303b6f4c3b373941462d48504152474f454449205954494c4942495441504d4f43204b4a433b37394146,
0x3b3b3b3b3b4e3b3b3b3b424445363b4c3b303b6f4c3b383941462d48504152474f454449205954494c4942495441504d4f43204b4a433b38394146,
0x3b3b3b3b3b4e3b3b3b3b424345363b4c3b303b6f4c3b393941462d48504152474f454449205954494c4942495441504d4f43204b4a433b39394146,
0x3b3b3b3b3b4e3b3b3b3b323246363b4c3b303b6f4c3b413941462d48504152474f454449205954494c4942495441504d4f43204b4a433b41394146,
0x3b3b3b3b3b4e3b3b3b3b453130373b4c3b303b6f4c3b423941462d48504152474f454449205954494c4942495441504d4f43204b4a433b42394146,
0x3b3b3b3b3b4e3b3b3b3b453631373b4c3b303b6f4c3b433941462d48504152474f454449205954494c4942495441504d4f43204b4a433b43394146,
0x3b3b3b3b3b4e3b3b3b3b374137373b4c3b303b6f4c3b443941462d48504152474f454449205954494c4942495441504d4f43204b4a433b44394146,
0x3b3b3b3b3b4e3b3b3b3b353332373b4c3b303b6f4c3b453941462d48504152474f454449205954494c4942495441504d4f43204b4a433b45394146,
0x3b3b3b3b3b4e3b3b3b3b464132373b4c3b303b6f4c3b463941462d48504152474f454449205954494c4942495441504d4f43204b4a433b46394146,
0x3b3b3b3b3b4e3b3b3b3b413233373b4c3b303b6f4c3b304141462d48504152474f454449205954494c4942495441504d4f43204b4a433b30414146,
0x3b3b3b3b3b4e3b3b3b3b313734373b4c3b303b6f4c3b314141462d48504152474f454449205954494c4942495441504d4f43204b4a433b31414146,
0x3b3b3b3b3b4e3b3b3b3b363035373b4c3b303b6f4c3b324141462d48504152474f454449205954494c4942495441504d4f43204b4a433b32414146,
0x3b3b3b3b3b4e3b3b3b3b423335373b4c3b303b6f4c3b334141462d48504152474f454449205954494c4942495441504d4f43204b4a433b33414146,
0x3b3b3b3b3b4e3b3b3b3b443136373b4c3b303b6f4c3b344141462d48504152474f454449205954494c4942495441504d4f43204b4a433b34414146,
0x3b3b3b3b3b4e3b3b3b3b463136373b4c3b303b6f4c3b354141462d48504152474f454449205954494c4942495441504d4f43204b4a433b35414146,
0x3b3b3b3b3b4e3b3b3b3b414336373b4c3b303b6f4c3b364141462d48504152474f454449205954494c4942495441504d4f43204b4a433b36414146,
0x3b3b3b3b3b4e3b3b3b3b424436373b4c3b303b6f4c3b374141462d48504152474f454449205954494c4942495441504d4f43204b4a433b37414146,
0x3b3b3b3b3b4e3b3b3b3b344636373b4c3b303b6f4c3b384141462d48504152474f454449205954494c4942495441504d4f43204b4a433b38414146,
0x3b3b3b3b3b4e3b3b3b3b413437373b4c3b303b6f4c3b394141462d48504152474f454449205954494c4942495441504d4f43204b4a433b39414146,
0x3b3b3b3b3b4e3b3b3b3b303437373b4c3b303b6f4c3b414141462d48504152474f454449205954494c4942495441504d4f43204b4a433b41414146]

end U5e.Data
