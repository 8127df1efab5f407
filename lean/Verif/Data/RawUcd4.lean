set_option maxRecDepth 10000
/-! GENERATED by tools/gen_raw.py: the octets of src/u5e/props/UnicodeData.txt, one number per line (little-endian). -/
namespace U5e.Data

/-- src/u5e/props/UnicodeData.txt lines 15361-15616. -/
def rawUcd60 : List Nat := [
0x3b3b3b3b3b4e3b3b3b3b434338373b4c3b303b6f4c3b424141462d48504152474f454449205954494c4942495441504d4f43204b4a433b42414146,
0x3b3b3b3b3b4e3b3b3b3b314241373b4c3b303b6f4c3b434141462d48504152474f454449205954494c4942495441504d4f43204b4a433b43414146,
0x3b3b3b3b3b4e3b3b3b3b304342373b4c3b303b6f4c3b444141462d48504152474f454449205954494c4942495441504d4f43204b4a433b44414146,
0x3b3b3b3b3b4e3b3b3b3b423743373b4c3b303b6f4c3b454141462d48504152474f454449205954494c4942495441504d4f43204b4a433b45414146,
0x3b3b3b3b3b4e3b3b3b3b423544373b4c3b303b6f4c3b464141462d48504152474f454449205954494c4942495441504d4f43204b4a433b46414146,
0x3b3b3b3b3b4e3b3b3b3b344644373b4c3b303b6f4c3b304241462d48504152474f454449205954494c4942495441504d4f43204b4a433b30424146,
0x3b3b3b3b3b4e3b3b3b3b453346373b4c3b303b6f4c3b314241462d48504152474f454449205954494c4942495441504d4f43204b4a433b31424146,
0x3b3b3b3b3b4e3b3b3b3b353030383b4c3b303b6f4c3b324241462d48504152474f454449205954494c4942495441504d4f43204b4a433b32424146,
0x3b3b3b3b3b4e3b3b3b3b323533383b4c3b303b6f4c3b334241462d48504152474f454449205954494c4942495441504d4f43204b4a433b33424146,
0x3b3b3b3b3b4e3b3b3b3b464533383b4c3b303b6f4c3b344241462d48504152474f454449205954494c4942495441504d4f43204b4a433b34424146,
0x3b3b3b3b3b4e3b3b3b3b393737383b4c3b303b6f4c3b354241462d48504152474f454449205954494c4942495441504d4f43204b4a433b35424146,
0x3b3b3b3b3b4e3b3b3b3b313439383b4c3b303b6f4c3b364241462d48504152474f454449205954494c4942495441504d4f43204b4a433b36424146,
0x3b3b3b3b3b4e3b3b3b3b363839383b4c3b303b6f4c3b374241462d48504152474f454449205954494c4942495441504d4f43204b4a433b37424146,
0x3b3b3b3b3b4e3b3b3b3b363939383b4c3b303b6f4c3b384241462d48504152474f454449205954494c4942495441504d4f43204b4a433b38424146,
0x3b3b3b3b3b4e3b3b3b3b464241383b4c3b303b6f4c3b394241462d48504152474f454449205954494c4942495441504d4f43204b4a433b39424146,
0x3b3b3b3b3b4e3b3b3b3b384641383b4c3b303b6f4c3b414241462d48504152474f454449205954494c4942495441504d4f43204b4a433b41424146,
0x3b3b3b3b3b4e3b3b3b3b424341383b4c3b303b6f4c3b424241462d48504152474f454449205954494c4942495441504d4f43204b4a433b42424146,
0x3b3b3b3b3b4e3b3b3b3b313042383b4c3b303b6f4c3b434241462d48504152474f454449205954494c4942495441504d4f43204b4a433b43424146,
0x3b3b3b3b3b4e3b3b3b3b454641383b4c3b303b6f4c3b444241462d48504152474f454449205954494c4942495441504d4f43204b4a433b44424146,
0x3b3b3b3b3b4e3b3b3b3b444541383b4c3b303b6f4c3b454241462d48504152474f454449205954494c4942495441504d4f43204b4a433b45424146,
0x3b3b3b3b3b4e3b3b3b3b393342383b4c3b303b6f4c3b464241462d48504152474f454449205954494c4942495441504d4f43204b4a433b46424146,
0x3b3b3b3b3b4e3b3b3b3b413842383b4c3b303b6f4c3b304341462d48504152474f454449205954494c4942495441504d4f43204b4a433b30434146,
0x3b3b3b3b3b4e3b3b3b3b383044383b4c3b303b6f4c3b314341462d48504152474f454449205954494c4942495441504d4f43204b4a433b31434146,
0x3b3b3b3b3b4e3b3b3b3b383346383b4c3b303b6f4c3b324341462d48504152474f454449205954494c4942495441504d4f43204b4a433b32434146,
0x3b3b3b3b3b4e3b3b3b3b323730393b4c3b303b6f4c3b334341462d48504152474f454449205954494c4942495441504d4f43204b4a433b33434146,
0x3b3b3b3b3b4e3b3b3b3b393931393b4c3b303b6f4c3b344341462d48504152474f454449205954494c4942495441504d4f43204b4a433b34434146,
0x3b3b3b3b3b4e3b3b3b3b363732393b4c3b303b6f4c3b354341462d48504152474f454449205954494c4942495441504d4f43204b4a433b35434146,
0x3b3b3b3b3b4e3b3b3b3b433736393b4c3b303b6f4c3b364341462d48504152474f454449205954494c4942495441504d4f43204b4a433b36434146,
0x3b3b3b3b3b4e3b3b3b3b334536393b4c3b303b6f4c3b374341462d48504152474f454449205954494c4942495441504d4f43204b4a433b37434146,
0x3b3b3b3b3b4e3b3b3b3b363537393b4c3b303b6f4c3b384341462d48504152474f454449205954494c4942495441504d4f43204b4a433b38434146,
0x3b3b3b3b3b4e3b3b3b3b424437393b4c3b303b6f4c3b394341462d48504152474f454449205954494c4942495441504d4f43204b4a433b39434146,
0x3b3b3b3b3b4e3b3b3b3b464637393b4c3b303b6f4c3b414341462d48504152474f454449205954494c4942495441504d4f43204b4a433b41434146,
0x3b3b3b3b3b4e3b3b3b3b423038393b4c3b303b6f4c3b424341462d48504152474f454449205954494c4942495441504d4f43204b4a433b42434146,
0x3b3b3b3b3b4e3b3b3b3b423338393b4c3b303b6f4c3b434341462d48504152474f454449205954494c4942495441504d4f43204b4a433b43434146,
0x3b3b3b3b3b4e3b3b3b3b323142393b4c3b303b6f4c3b444341462d48504152474f454449205954494c4942495441504d4f43204b4a433b44434146,
0x3b3b3b3b3b4e3b3b3b3b433946393b4c3b303b6f4c3b454341462d48504152474f454449205954494c4942495441504d4f43204b4a433b45434146,
0x3b3b3b3b3b4e3b3b3b3b41343832323b4c3b303b6f4c3b464341462d48504152474f454449205954494c4942495441504d4f43204b4a433b46434146,
0x3b3b3b3b3b4e3b3b3b3b34343832323b4c3b303b6f4c3b304441462d48504152474f454449205954494c4942495441504d4f43204b4a433b30444146,
0x3b3b3b3b3b4e3b3b3b3b35443333323b4c3b303b6f4c3b314441462d48504152474f454449205954494c4942495441504d4f43204b4a433b31444146,
0x3b3b3b3b3b4e3b3b3b3b443942333b4c3b303b6f4c3b324441462d48504152474f454449205954494c4942495441504d4f43204b4a433b32444146,
0x3b3b3b3b3b4e3b3b3b3b383130343b4c3b303b6f4c3b334441462d48504152474f454449205954494c4942495441504d4f43204b4a433b33444146,
0x3b3b3b3b3b4e3b3b3b3b393330343b4c3b303b6f4c3b344441462d48504152474f454449205954494c4942495441504d4f43204b4a433b34444146,
0x3b3b3b3b3b4e3b3b3b3b39343235323b4c3b303b6f4c3b354441462d48504152474f454449205954494c4942495441504d4f43204b4a433b35444146,
0x3b3b3b3b3b4e3b3b3b3b30444335323b4c3b303b6f4c3b364441462d48504152474f454449205954494c4942495441504d4f43204b4a433b36444146,
0x3b3b3b3b3b4e3b3b3b3b33444537323b4c3b303b6f4c3b374441462d48504152474f454449205954494c4942495441504d4f43204b4a433b37444146,
0x3b3b3b3b3b4e3b3b3b3b333446393b4c3b303b6f4c3b384441462d48504152474f454449205954494c4942495441504d4f43204b4a433b38444146,
0x3b3b3b3b3b4e3b3b3b3b453846393b4c3b303b6f4c3b394441462d48504152474f454449205954494c4942495441504d4f43204b4a433b39444146,
0x3b3b3b3b3b4e3b3b3b3b363630302036363030203e7461706d6f633c3b4c3b303b6c4c3b464620455255544147494c204c4c414d53204e4954414c3b30304246,
0x3b3b3b3b3b4e3b3b3b3b393630302036363030203e7461706d6f633c3b4c3b303b6c4c3b494620455255544147494c204c4c414d53204e4954414c3b31304246,
0x3b3b3b3b3b4e3b3b3b3b433630302036363030203e7461706d6f633c3b4c3b303b6c4c3b4c4620455255544147494c204c4c414d53204e4954414c3b32304246,
0x3b3b3b3b3b4e3b3b3b3b3936303020363630302036363030203e7461706d6f633c3b4c3b303b6c4c3b49464620455255544147494c204c4c414d53204e4954414c3b33304246,
0x3b3b3b3b3b4e3b3b3b3b4336303020363630302036363030203e7461706d6f633c3b4c3b303b6c4c3b4c464620455255544147494c204c4c414d53204e4954414c3b34304246,
0x3b3b3b3b3b4e3b3b3b3b343730302046373130203e7461706d6f633c3b4c3b303b6c4c3b54205320474e4f4c20455255544147494c204c4c414d53204e4954414c3b35304246,
0x3b3b3b3b3b4e3b3b3b3b343730302033373030203e7461706d6f633c3b4c3b303b6c4c3b545320455255544147494c204c4c414d53204e4954414c3b36304246,
0x3b3b3b3b3b4e3b3b3b3b363735302034373530203e7461706d6f633c3b4c3b303b6c4c3b574f4e204e454d20455255544147494c204c4c414d53204e41494e454d52413b33314246,
0x3b3b3b3b3b4e3b3b3b3b353635302034373530203e7461706d6f633c3b4c3b303b6c4c3b484345204e454d20455255544147494c204c4c414d53204e41494e454d52413b34314246,
0x3b3b3b3b3b4e3b3b3b3b423635302034373530203e7461706d6f633c3b4c3b303b6c4c3b494e49204e454d20455255544147494c204c4c414d53204e41494e454d52413b35314246,
0x3b3b3b3b3b4e3b3b3b3b363735302045373530203e7461706d6f633c3b4c3b303b6c4c3b574f4e2057455620455255544147494c204c4c414d53204e41494e454d52413b36314246,
0x3b3b3b3b3b4e3b3b3b3b443635302034373530203e7461706d6f633c3b4c3b303b6c4c3b484558204e454d20455255544147494c204c4c414d53204e41494e454d52413b37314246,
0x3b3b3b3b3b4e3b3b3b3b3442353020394435303b523b303b6f4c3b5149524948204854495720444f592052455454454c205745524245483b44314246,
0x3b3b3b3b414b4952415620544e494f50205745524245483b4e3b3b3b3b3b4d534e3b36323b6e4d3b414b49524156204853494e4150532d4f4544554a20544e494f50205745524245483b45314246,
0x3b3b3b3b3b4e3b3b3b3b3742353020324635303b523b303b6f4c3b484154415020444f5920444f59204853494444495920455255544147494c205745524245483b46314246,
0x3b3b3b3b3b4e3b3b3b3b32453530203e746e6f663c3b523b303b6f4c3b4e4959412045564954414e5245544c412052455454454c205745524245483b30324246,
0x3b3b3b3b3b4e3b3b3b3b30443530203e746e6f663c3b523b303b6f4c3b46454c4120454449572052455454454c205745524245483b31324246,
0x3b3b3b3b3b4e3b3b3b3b33443530203e746e6f663c3b523b303b6f4c3b54454c414420454449572052455454454c205745524245483b32324246,
0x3b3b3b3b3b4e3b3b3b3b34443530203e746e6f663c3b523b303b6f4c3b454820454449572052455454454c205745524245483b33324246,
0x3b3b3b3b3b4e3b3b3b3b42443530203e746e6f663c3b523b303b6f4c3b46414b20454449572052455454454c205745524245483b34324246,
0x3b3b3b3b3b4e3b3b3b3b43443530203e746e6f663c3b523b303b6f4c3b44454d414c20454449572052455454454c205745524245483b35324246,
0x3b3b3b3b3b4e3b3b3b3b44443530203e746e6f663c3b523b303b6f4c3b4d454d204c414e494620454449572052455454454c205745524245483b36324246,
0x3b3b3b3b3b4e3b3b3b3b38453530203e746e6f663c3b523b303b6f4c3b4853455220454449572052455454454c205745524245483b37324246,
0x3b3b3b3b3b4e3b3b3b3b41453530203e746e6f663c3b523b303b6f4c3b56415420454449572052455454454c205745524245483b38324246,
0x3b3b3b3b3b4e3b3b3b3b42323030203e746e6f663c3b53453b303b6d533b4e4749532053554c502045564954414e5245544c412052455454454c205745524245483b39324246,
0x3b3b3b3b3b4e3b3b3b3b3143353020394535303b523b303b6f4c3b544f44204e4948532048544957204e4948532052455454454c205745524245483b41324246,
0x3b3b3b3b3b4e3b3b3b3b3243353020394535303b523b303b6f4c3b544f44204e49532048544957204e4948532052455454454c205745524245483b42324246,
0x3b3b3b3b3b4e3b3b3b3b3143353020393442463b523b303b6f4c3b544f44204e49485320444e41204853454741442048544957204e4948532052455454454c205745524245483b43324246,
0x3b3b3b3b3b4e3b3b3b3b3243353020393442463b523b303b6f4c3b544f44204e495320444e41204853454741442048544957204e4948532052455454454c205745524245483b44324246,
0x3b3b3b3b3b4e3b3b3b3b3742353020304435303b523b303b6f4c3b484154415020485449572046454c412052455454454c205745524245483b45324246,
0x3b3b3b3b3b4e3b3b3b3b3842353020304435303b523b303b6f4c3b5354414d415120485449572046454c412052455454454c205745524245483b46324246,
0x3b3b3b3b3b4e3b3b3b3b4342353020304435303b523b303b6f4c3b514950414d20485449572046454c412052455454454c205745524245483b30334246,
0x3b3b3b3b3b4e3b3b3b3b4342353020314435303b523b303b6f4c3b4853454741442048544957205445422052455454454c205745524245483b31334246,
0x3b3b3b3b3b4e3b3b3b3b4342353020324435303b523b303b6f4c3b4853454741442048544957204c454d49472052455454454c205745524245483b32334246,
0x3b3b3b3b3b4e3b3b3b3b4342353020334435303b523b303b6f4c3b48534547414420485449572054454c41442052455454454c205745524245483b33334246,
0x3b3b3b3b3b4e3b3b3b3b4342353020344435303b523b303b6f4c3b514950414d20485449572045482052455454454c205745524245483b34334246,
0x3b3b3b3b3b4e3b3b3b3b4342353020354435303b523b303b6f4c3b4853454741442048544957205641562052455454454c205745524245483b35334246,
0x3b3b3b3b3b4e3b3b3b3b4342353020364435303b523b303b6f4c3b4853454741442048544957204e4959415a2052455454454c205745524245483b36334246,
0x3b3b3b3b3b4e3b3b3b3b4342353020384435303b523b303b6f4c3b4853454741442048544957205445542052455454454c205745524245483b38334246,
0x3b3b3b3b3b4e3b3b3b3b4342353020394435303b523b303b6f4c3b485345474144204854495720444f592052455454454c205745524245483b39334246,
0x3b3b3b3b3b4e3b3b3b3b4342353020414435303b523b303b6f4c3b48534547414420485449572046414b204c414e49462052455454454c205745524245483b41334246,
0x3b3b3b3b3b4e3b3b3b3b4342353020424435303b523b303b6f4c3b48534547414420485449572046414b2052455454454c205745524245483b42334246,
0x3b3b3b3b3b4e3b3b3b3b4342353020434435303b523b303b6f4c3b48534547414420485449572044454d414c2052455454454c205745524245483b43334246,
0x3b3b3b3b3b4e3b3b3b3b4342353020454435303b523b303b6f4c3b4853454741442048544957204d454d2052455454454c205745524245483b45334246,
0x3b3b3b3b3b4e3b3b3b3b4342353020304535303b523b303b6f4c3b4853454741442048544957204e554e2052455454454c205745524245483b30344246,
0x3b3b3b3b3b4e3b3b3b3b4342353020314535303b523b303b6f4c3b485345474144204854495720484b454d41532052455454454c205745524245483b31344246,
0x3b3b3b3b3b4e3b3b3b3b4342353020334535303b523b303b6f4c3b4853454741442048544957204550204c414e49462052455454454c205745524245483b33344246,
0x3b3b3b3b3b4e3b3b3b3b4342353020344535303b523b303b6f4c3b48534547414420485449572045502052455454454c205745524245483b34344246,
0x3b3b3b3b3b4e3b3b3b3b4342353020364535303b523b303b6f4c3b48534547414420485449572049444153542052455454454c205745524245483b36344246,
0x3b3b3b3b3b4e3b3b3b3b4342353020374535303b523b303b6f4c3b485345474144204854495720464f512052455454454c205745524245483b37344246,
0x3b3b3b3b3b4e3b3b3b3b4342353020384535303b523b303b6f4c3b485345474144204854495720485345522052455454454c205745524245483b38344246,
0x3b3b3b3b3b4e3b3b3b3b4342353020394535303b523b303b6f4c3b4853454741442048544957204e4948532052455454454c205745524245483b39344246,
0x3b3b3b3b3b4e3b3b3b3b4342353020414535303b523b303b6f4c3b4853454741442048544957205641542052455454454c205745524245483b41344246,
0x3b3b3b3b3b4e3b3b3b3b3942353020354435303b523b303b6f4c3b4d414c4f482048544957205641562052455454454c205745524245483b42344246,
0x3b3b3b3b3b4e3b3b3b3b4642353020314435303b523b303b6f4c3b454641522048544957205445422052455454454c205745524245483b43344246,
0x3b3b3b3b3b4e3b3b3b3b4642353020424435303b523b303b6f4c3b4546415220485449572046414b2052455454454c205745524245483b44344246,
0x3b3b3b3b3b4e3b3b3b3b4642353020344535303b523b303b6f4c3b4546415220485449572045502052455454454c205745524245483b45344246,
0x3b3b3b3b3b4e3b3b3b3b434435302030443530203e7461706d6f633c3b523b303b6f4c3b44454d414c2046454c4120455255544147494c205745524245483b46344246,
0x3b3b3b3b3b4e3b3b3b3b31373630203e646574616c6f73693c3b4c413b303b6f4c3b4d524f4620444554414c4f534920414c5341572046454c412052455454454c204349424152413b30354246,
0x3b3b3b3b3b4e3b3b3b3b31373630203e6c616e69663c3b4c413b303b6f4c3b4d524f46204c414e494620414c5341572046454c412052455454454c204349424152413b31354246,
0x3b3b3b3b3b4e3b3b3b3b42373630203e646574616c6f73693c3b4c413b303b6f4c3b4d524f4620444554414c4f534920484545422052455454454c204349424152413b32354246,
0x3b3b3b3b3b4e3b3b3b3b42373630203e6c616e69663c3b4c413b303b6f4c3b4d524f46204c414e494620484545422052455454454c204349424152413b33354246,
0x3b3b3b3b3b4e3b3b3b3b42373630203e6c616974696e693c3b4c413b303b6f4c3b4d524f46204c414954494e4920484545422052455454454c204349424152413b34354246,
0x3b3b3b3b3b4e3b3b3b3b42373630203e6c616964656d3c3b4c413b303b6f4c3b4d524f46204c414944454d20484545422052455454454c204349424152413b35354246,
0x3b3b3b3b3b4e3b3b3b3b45373630203e646574616c6f73693c3b4c413b303b6f4c3b4d524f4620444554414c4f5349204845502052455454454c204349424152413b36354246,
0x3b3b3b3b3b4e3b3b3b3b45373630203e6c616e69663c3b4c413b303b6f4c3b4d524f46204c414e4946204845502052455454454c204349424152413b37354246,
0x3b3b3b3b3b4e3b3b3b3b45373630203e6c616974696e693c3b4c413b303b6f4c3b4d524f46204c414954494e49204845502052455454454c204349424152413b38354246,
0x3b3b3b3b3b4e3b3b3b3b45373630203e6c616964656d3c3b4c413b303b6f4c3b4d524f46204c414944454d204845502052455454454c204349424152413b39354246,
0x3b3b3b3b3b4e3b3b3b3b30383630203e646574616c6f73693c3b4c413b303b6f4c3b4d524f4620444554414c4f53492048454845422052455454454c204349424152413b41354246,
0x3b3b3b3b3b4e3b3b3b3b30383630203e6c616e69663c3b4c413b303b6f4c3b4d524f46204c414e49462048454845422052455454454c204349424152413b42354246,
0x3b3b3b3b3b4e3b3b3b3b30383630203e6c616974696e693c3b4c413b303b6f4c3b4d524f46204c414954494e492048454845422052455454454c204349424152413b43354246,
0x3b3b3b3b3b4e3b3b3b3b30383630203e6c616964656d3c3b4c413b303b6f4c3b4d524f46204c414944454d2048454845422052455454454c204349424152413b44354246,
0x3b3b3b3b3b4e3b3b3b3b41373630203e646574616c6f73693c3b4c413b303b6f4c3b4d524f4620444554414c4f5349204845484554542052455454454c204349424152413b45354246,
0x3b3b3b3b3b4e3b3b3b3b41373630203e6c616e69663c3b4c413b303b6f4c3b4d524f46204c414e4946204845484554542052455454454c204349424152413b46354246,
0x3b3b3b3b3b4e3b3b3b3b41373630203e6c616974696e693c3b4c413b303b6f4c3b4d524f46204c414954494e49204845484554542052455454454c204349424152413b30364246,
0x3b3b3b3b3b4e3b3b3b3b41373630203e6c616964656d3c3b4c413b303b6f4c3b4d524f46204c414944454d204845484554542052455454454c204349424152413b31364246,
0x3b3b3b3b3b4e3b3b3b3b46373630203e646574616c6f73693c3b4c413b303b6f4c3b4d524f4620444554414c4f53492048454845542052455454454c204349424152413b32364246,
0x3b3b3b3b3b4e3b3b3b3b46373630203e6c616e69663c3b4c413b303b6f4c3b4d524f46204c414e49462048454845542052455454454c204349424152413b33364246,
0x3b3b3b3b3b4e3b3b3b3b46373630203e6c616974696e693c3b4c413b303b6f4c3b4d524f46204c414954494e492048454845542052455454454c204349424152413b34364246,
0x3b3b3b3b3b4e3b3b3b3b46373630203e6c616964656d3c3b4c413b303b6f4c3b4d524f46204c414944454d2048454845542052455454454c204349424152413b35364246,
0x3b3b3b3b3b4e3b3b3b3b39373630203e646574616c6f73693c3b4c413b303b6f4c3b4d524f4620444554414c4f534920484554542052455454454c204349424152413b36364246,
0x3b3b3b3b3b4e3b3b3b3b39373630203e6c616e69663c3b4c413b303b6f4c3b4d524f46204c414e494620484554542052455454454c204349424152413b37364246,
0x3b3b3b3b3b4e3b3b3b3b39373630203e6c616974696e693c3b4c413b303b6f4c3b4d524f46204c414954494e4920484554542052455454454c204349424152413b38364246,
0x3b3b3b3b3b4e3b3b3b3b39373630203e6c616964656d3c3b4c413b303b6f4c3b4d524f46204c414944454d20484554542052455454454c204349424152413b39364246,
0x3b3b3b3b3b4e3b3b3b3b34413630203e646574616c6f73693c3b4c413b303b6f4c3b4d524f4620444554414c4f5349204845562052455454454c204349424152413b41364246,
0x3b3b3b3b3b4e3b3b3b3b34413630203e6c616e69663c3b4c413b303b6f4c3b4d524f46204c414e4946204845562052455454454c204349424152413b42364246,
0x3b3b3b3b3b4e3b3b3b3b34413630203e6c616974696e693c3b4c413b303b6f4c3b4d524f46204c414954494e49204845562052455454454c204349424152413b43364246,
0x3b3b3b3b3b4e3b3b3b3b34413630203e6c616964656d3c3b4c413b303b6f4c3b4d524f46204c414944454d204845562052455454454c204349424152413b44364246,
0x3b3b3b3b3b4e3b3b3b3b36413630203e646574616c6f73693c3b4c413b303b6f4c3b4d524f4620444554414c4f53492048454845502052455454454c204349424152413b45364246,
0x3b3b3b3b3b4e3b3b3b3b36413630203e6c616e69663c3b4c413b303b6f4c3b4d524f46204c414e49462048454845502052455454454c204349424152413b46364246,
0x3b3b3b3b3b4e3b3b3b3b36413630203e6c616974696e693c3b4c413b303b6f4c3b4d524f46204c414954494e492048454845502052455454454c204349424152413b30374246,
0x3b3b3b3b3b4e3b3b3b3b36413630203e6c616964656d3c3b4c413b303b6f4c3b4d524f46204c414944454d2048454845502052455454454c204349424152413b31374246,
0x3b3b3b3b3b4e3b3b3b3b34383630203e646574616c6f73693c3b4c413b303b6f4c3b4d524f4620444554414c4f534920484559442052455454454c204349424152413b32374246,
0x3b3b3b3b3b4e3b3b3b3b34383630203e6c616e69663c3b4c413b303b6f4c3b4d524f46204c414e494620484559442052455454454c204349424152413b33374246,
0x3b3b3b3b3b4e3b3b3b3b34383630203e6c616974696e693c3b4c413b303b6f4c3b4d524f46204c414954494e4920484559442052455454454c204349424152413b34374246,
0x3b3b3b3b3b4e3b3b3b3b34383630203e6c616964656d3c3b4c413b303b6f4c3b4d524f46204c414944454d20484559442052455454454c204349424152413b35374246,
0x3b3b3b3b3b4e3b3b3b3b33383630203e646574616c6f73693c3b4c413b303b6f4c3b4d524f4620444554414c4f5349204845594e2052455454454c204349424152413b36374246,
0x3b3b3b3b3b4e3b3b3b3b33383630203e6c616e69663c3b4c413b303b6f4c3b4d524f46204c414e4946204845594e2052455454454c204349424152413b37374246,
0x3b3b3b3b3b4e3b3b3b3b33383630203e6c616974696e693c3b4c413b303b6f4c3b4d524f46204c414954494e49204845594e2052455454454c204349424152413b38374246,
0x3b3b3b3b3b4e3b3b3b3b33383630203e6c616964656d3c3b4c413b303b6f4c3b4d524f46204c414944454d204845594e2052455454454c204349424152413b39374246,
0x3b3b3b3b3b4e3b3b3b3b36383630203e646574616c6f73693c3b4c413b303b6f4c3b4d524f4620444554414c4f53492048454843542052455454454c204349424152413b41374246,
0x3b3b3b3b3b4e3b3b3b3b36383630203e6c616e69663c3b4c413b303b6f4c3b4d524f46204c414e49462048454843542052455454454c204349424152413b42374246,
0x3b3b3b3b3b4e3b3b3b3b36383630203e6c616974696e693c3b4c413b303b6f4c3b4d524f46204c414954494e492048454843542052455454454c204349424152413b43374246,
0x3b3b3b3b3b4e3b3b3b3b36383630203e6c616964656d3c3b4c413b303b6f4c3b4d524f46204c414944454d2048454843542052455454454c204349424152413b44374246,
0x3b3b3b3b3b4e3b3b3b3b37383630203e646574616c6f73693c3b4c413b303b6f4c3b4d524f4620444554414c4f534920484548454843542052455454454c204349424152413b45374246,
0x3b3b3b3b3b4e3b3b3b3b37383630203e6c616e69663c3b4c413b303b6f4c3b4d524f46204c414e494620484548454843542052455454454c204349424152413b46374246,
0x3b3b3b3b3b4e3b3b3b3b37383630203e6c616974696e693c3b4c413b303b6f4c3b4d524f46204c414954494e4920484548454843542052455454454c204349424152413b30384246,
0x3b3b3b3b3b4e3b3b3b3b37383630203e6c616964656d3c3b4c413b303b6f4c3b4d524f46204c414944454d20484548454843542052455454454c204349424152413b31384246,
0x3b3b3b3b3b4e3b3b3b3b44383630203e646574616c6f73693c3b4c413b303b6f4c3b4d524f4620444554414c4f5349204c41484144442052455454454c204349424152413b32384246,
0x3b3b3b3b3b4e3b3b3b3b44383630203e6c616e69663c3b4c413b303b6f4c3b4d524f46204c414e4946204c41484144442052455454454c204349424152413b33384246,
0x3b3b3b3b3b4e3b3b3b3b43383630203e646574616c6f73693c3b4c413b303b6f4c3b4d524f4620444554414c4f5349204c414841442052455454454c204349424152413b34384246,
0x3b3b3b3b3b4e3b3b3b3b43383630203e6c616e69663c3b4c413b303b6f4c3b4d524f46204c414e4946204c414841442052455454454c204349424152413b35384246,
0x3b3b3b3b3b4e3b3b3b3b45383630203e646574616c6f73693c3b4c413b303b6f4c3b4d524f4620444554414c4f5349204c55442052455454454c204349424152413b36384246,
0x3b3b3b3b3b4e3b3b3b3b45383630203e6c616e69663c3b4c413b303b6f4c3b4d524f46204c414e4946204c55442052455454454c204349424152413b37384246,
0x3b3b3b3b3b4e3b3b3b3b38383630203e646574616c6f73693c3b4c413b303b6f4c3b4d524f4620444554414c4f5349204c4144442052455454454c204349424152413b38384246,
0x3b3b3b3b3b4e3b3b3b3b38383630203e6c616e69663c3b4c413b303b6f4c3b4d524f46204c414e4946204c4144442052455454454c204349424152413b39384246,
0x3b3b3b3b3b4e3b3b3b3b38393630203e646574616c6f73693c3b4c413b303b6f4c3b4d524f4620444554414c4f53492048454a2052455454454c204349424152413b41384246,
0x3b3b3b3b3b4e3b3b3b3b38393630203e6c616e69663c3b4c413b303b6f4c3b4d524f46204c414e49462048454a2052455454454c204349424152413b42384246,
0x3b3b3b3b3b4e3b3b3b3b31393630203e646574616c6f73693c3b4c413b303b6f4c3b4d524f4620444554414c4f534920484552522052455454454c204349424152413b43384246,
0x3b3b3b3b3b4e3b3b3b3b31393630203e6c616e69663c3b4c413b303b6f4c3b4d524f46204c414e494620484552522052455454454c204349424152413b44384246,
0x3b3b3b3b3b4e3b3b3b3b39413630203e646574616c6f73693c3b4c413b303b6f4c3b4d524f4620444554414c4f534920484548454b2052455454454c204349424152413b45384246,
0x3b3b3b3b3b4e3b3b3b3b39413630203e6c616e69663c3b4c413b303b6f4c3b4d524f46204c414e494620484548454b2052455454454c204349424152413b46384246,
0x3b3b3b3b3b4e3b3b3b3b39413630203e6c616974696e693c3b4c413b303b6f4c3b4d524f46204c414954494e4920484548454b2052455454454c204349424152413b30394246,
0x3b3b3b3b3b4e3b3b3b3b39413630203e6c616964656d3c3b4c413b303b6f4c3b4d524f46204c414944454d20484548454b2052455454454c204349424152413b31394246,
0x3b3b3b3b3b4e3b3b3b3b46413630203e646574616c6f73693c3b4c413b303b6f4c3b4d524f4620444554414c4f5349204641472052455454454c204349424152413b32394246,
0x3b3b3b3b3b4e3b3b3b3b46413630203e6c616e69663c3b4c413b303b6f4c3b4d524f46204c414e4946204641472052455454454c204349424152413b33394246,
0x3b3b3b3b3b4e3b3b3b3b46413630203e6c616974696e693c3b4c413b303b6f4c3b4d524f46204c414954494e49204641472052455454454c204349424152413b34394246,
0x3b3b3b3b3b4e3b3b3b3b46413630203e6c616964656d3c3b4c413b303b6f4c3b4d524f46204c414944454d204641472052455454454c204349424152413b35394246,
0x3b3b3b3b3b4e3b3b3b3b33423630203e646574616c6f73693c3b4c413b303b6f4c3b4d524f4620444554414c4f534920484555472052455454454c204349424152413b36394246,
0x3b3b3b3b3b4e3b3b3b3b33423630203e6c616e69663c3b4c413b303b6f4c3b4d524f46204c414e494620484555472052455454454c204349424152413b37394246,
0x3b3b3b3b3b4e3b3b3b3b33423630203e6c616974696e693c3b4c413b303b6f4c3b4d524f46204c414954494e4920484555472052455454454c204349424152413b38394246,
0x3b3b3b3b3b4e3b3b3b3b33423630203e6c616964656d3c3b4c413b303b6f4c3b4d524f46204c414944454d20484555472052455454454c204349424152413b39394246,
0x3b3b3b3b3b4e3b3b3b3b31423630203e646574616c6f73693c3b4c413b303b6f4c3b4d524f4620444554414c4f53492048454f474e2052455454454c204349424152413b41394246,
0x3b3b3b3b3b4e3b3b3b3b31423630203e6c616e69663c3b4c413b303b6f4c3b4d524f46204c414e49462048454f474e2052455454454c204349424152413b42394246,
0x3b3b3b3b3b4e3b3b3b3b31423630203e6c616974696e693c3b4c413b303b6f4c3b4d524f46204c414954494e492048454f474e2052455454454c204349424152413b43394246,
0x3b3b3b3b3b4e3b3b3b3b31423630203e6c616964656d3c3b4c413b303b6f4c3b4d524f46204c414944454d2048454f474e2052455454454c204349424152413b44394246,
0x3b3b3b3b3b4e3b3b3b3b41423630203e646574616c6f73693c3b4c413b303b6f4c3b4d524f4620444554414c4f534920414e4e554847204e4f4f4e2052455454454c204349424152413b45394246,
0x3b3b3b3b3b4e3b3b3b3b41423630203e6c616e69663c3b4c413b303b6f4c3b4d524f46204c414e494620414e4e554847204e4f4f4e2052455454454c204349424152413b46394246,
0x3b3b3b3b3b4e3b3b3b3b42423630203e646574616c6f73693c3b4c413b303b6f4c3b4d524f4620444554414c4f5349204e4f4f4e522052455454454c204349424152413b30414246,
0x3b3b3b3b3b4e3b3b3b3b42423630203e6c616e69663c3b4c413b303b6f4c3b4d524f46204c414e4946204e4f4f4e522052455454454c204349424152413b31414246,
0x3b3b3b3b3b4e3b3b3b3b42423630203e6c616974696e693c3b4c413b303b6f4c3b4d524f46204c414954494e49204e4f4f4e522052455454454c204349424152413b32414246,
0x3b3b3b3b3b4e3b3b3b3b42423630203e6c616964656d3c3b4c413b303b6f4c3b4d524f46204c414944454d204e4f4f4e522052455454454c204349424152413b33414246,
0x3b3b3b3b3b4e3b3b3b3b30433630203e646574616c6f73693c3b4c413b303b6f4c3b4d524f4620444554414c4f53492045564f4241204845592048544957204845482052455454454c204349424152413b34414246,
0x3b3b3b3b3b4e3b3b3b3b30433630203e6c616e69663c3b4c413b303b6f4c3b4d524f46204c414e49462045564f4241204845592048544957204845482052455454454c204349424152413b35414246,
0x3b3b3b3b3b4e3b3b3b3b31433630203e646574616c6f73693c3b4c413b303b6f4c3b4d524f4620444554414c4f5349204c414f47204845482052455454454c204349424152413b36414246,
0x3b3b3b3b3b4e3b3b3b3b31433630203e6c616e69663c3b4c413b303b6f4c3b4d524f46204c414e4946204c414f47204845482052455454454c204349424152413b37414246,
0x3b3b3b3b3b4e3b3b3b3b31433630203e6c616974696e693c3b4c413b303b6f4c3b4d524f46204c414954494e49204c414f47204845482052455454454c204349424152413b38414246,
0x3b3b3b3b3b4e3b3b3b3b31433630203e6c616964656d3c3b4c413b303b6f4c3b4d524f46204c414944454d204c414f47204845482052455454454c204349424152413b39414246,
0x3b3b3b3b3b4e3b3b3b3b45423630203e646574616c6f73693c3b4c413b303b6f4c3b4d524f4620444554414c4f53492045454d4853414843414f44204845482052455454454c204349424152413b41414246,
0x3b3b3b3b3b4e3b3b3b3b45423630203e6c616e69663c3b4c413b303b6f4c3b4d524f46204c414e49462045454d4853414843414f44204845482052455454454c204349424152413b42414246,
0x3b3b3b3b3b4e3b3b3b3b45423630203e6c616974696e693c3b4c413b303b6f4c3b4d524f46204c414954494e492045454d4853414843414f44204845482052455454454c204349424152413b43414246,
0x3b3b3b3b3b4e3b3b3b3b45423630203e6c616964656d3c3b4c413b303b6f4c3b4d524f46204c414944454d2045454d4853414843414f44204845482052455454454c204349424152413b44414246,
0x3b3b3b3b3b4e3b3b3b3b32443630203e646574616c6f73693c3b4c413b303b6f4c3b4d524f4620444554414c4f534920454552524142204845592052455454454c204349424152413b45414246,
0x3b3b3b3b3b4e3b3b3b3b32443630203e6c616e69663c3b4c413b303b6f4c3b4d524f46204c414e494620454552524142204845592052455454454c204349424152413b46414246,
0x3b3b3b3b3b4e3b3b3b3b33443630203e646574616c6f73693c3b4c413b303b6f4c3b4d524f4620444554414c4f53492045564f424120415a4d4148204854495720454552524142204845592052455454454c204349424152413b30424246,
0x3b3b3b3b3b4e3b3b3b3b33443630203e6c616e69663c3b4c413b303b6f4c3b4d524f46204c414e49462045564f424120415a4d4148204854495720454552524142204845592052455454454c204349424152413b31424246,
0x3b3b3b3b3b4e3b3b3b3b3b4c413b303b6b533b45564f424120544f44204c4f424d5953204349424152413b32424246,
0x3b3b3b3b3b4e3b3b3b3b3b4c413b303b6b533b574f4c454220544f44204c4f424d5953204349424152413b33424246,
0x3b3b3b3b3b4e3b3b3b3b3b4c413b303b6b533b45564f42412053544f44204f5754204c4f424d5953204349424152413b34424246,
0x3b3b3b3b3b4e3b3b3b3b3b4c413b303b6b533b574f4c45422053544f44204f5754204c4f424d5953204349424152413b35424246,
0x3b3b3b3b3b4e3b3b3b3b3b4c413b303b6b533b45564f42412053544f44204545524854204c4f424d5953204349424152413b36424246,
0x3b3b3b3b3b4e3b3b3b3b3b4c413b303b6b533b574f4c45422053544f44204545524854204c4f424d5953204349424152413b37424246,
0x3b3b3b3b3b4e3b3b3b3b3b4c413b303b6b533b45564f42412053445241574e574f4420474e49544e494f502053544f44204545524854204c4f424d5953204349424152413b38424246,
0x3b3b3b3b3b4e3b3b3b3b3b4c413b303b6b533b574f4c45422053445241574e574f4420474e49544e494f502053544f44204545524854204c4f424d5953204349424152413b39424246,
0x3b3b3b3b3b4e3b3b3b3b3b4c413b303b6b533b45564f42412053544f442052554f46204c4f424d5953204349424152413b41424246,
0x3b3b3b3b3b4e3b3b3b3b3b4c413b303b6b533b574f4c45422053544f442052554f46204c4f424d5953204349424152413b42424246,
0x3b3b3b3b3b4e3b3b3b3b3b4c413b303b6b533b574f4c454220524142204c4143495452455620454c42554f44204c4f424d5953204349424152413b43424246,
0x3b3b3b3b3b4e3b3b3b3b3b4c413b303b6b533b45564f424120594c4c414349545245562053544f44204f5754204c4f424d5953204349424152413b44424246,
0x3b3b3b3b3b4e3b3b3b3b3b4c413b303b6b533b574f4c454220594c4c414349545245562053544f44204f5754204c4f424d5953204349424152413b45424246,
0x3b3b3b3b3b4e3b3b3b3b3b4c413b303b6b533b474e4952204c4f424d5953204349424152413b46424246,
0x3b3b3b3b3b4e3b3b3b3b3b4c413b303b6b533b45564f424120484154204c4c414d53204c4f424d5953204349424152413b30434246,
0x3b3b3b3b3b4e3b3b3b3b3b4c413b303b6b533b574f4c454220484154204c4c414d53204c4f424d5953204349424152413b31434246,
0x3b3b3b3b3b4e3b3b3b3b44413630203e646574616c6f73693c3b4c413b303b6f4c3b4d524f4620444554414c4f534920474e2052455454454c204349424152413b33444246,
0x3b3b3b3b3b4e3b3b3b3b44413630203e6c616e69663c3b4c413b303b6f4c3b4d524f46204c414e494620474e2052455454454c204349424152413b34444246,
0x3b3b3b3b3b4e3b3b3b3b44413630203e6c616974696e693c3b4c413b303b6f4c3b4d524f46204c414954494e4920474e2052455454454c204349424152413b35444246,
0x3b3b3b3b3b4e3b3b3b3b44413630203e6c616964656d3c3b4c413b303b6f4c3b4d524f46204c414944454d20474e2052455454454c204349424152413b36444246,
0x3b3b3b3b3b4e3b3b3b3b37433630203e646574616c6f73693c3b4c413b303b6f4c3b4d524f4620444554414c4f534920552052455454454c204349424152413b37444246,
0x3b3b3b3b3b4e3b3b3b3b37433630203e6c616e69663c3b4c413b303b6f4c3b4d524f46204c414e494620552052455454454c204349424152413b38444246,
0x3b3b3b3b3b4e3b3b3b3b36433630203e646574616c6f73693c3b4c413b303b6f4c3b4d524f4620444554414c4f534920454f2052455454454c204349424152413b39444246,
0x3b3b3b3b3b4e3b3b3b3b36433630203e6c616e69663c3b4c413b303b6f4c3b4d524f46204c414e494620454f2052455454454c204349424152413b41444246,
0x3b3b3b3b3b4e3b3b3b3b38433630203e646574616c6f73693c3b4c413b303b6f4c3b4d524f4620444554414c4f53492055592052455454454c204349424152413b42444246,
0x3b3b3b3b3b4e3b3b3b3b38433630203e6c616e69663c3b4c413b303b6f4c3b4d524f46204c414e49462055592052455454454c204349424152413b43444246,
0x3b3b3b3b3b4e3b3b3b3b37373630203e646574616c6f73693c3b4c413b303b6f4c3b4d524f4620444554414c4f53492045564f424120415a4d4148204854495720552052455454454c204349424152413b44444246,
0x3b3b3b3b3b4e3b3b3b3b42433630203e646574616c6f73693c3b4c413b303b6f4c3b4d524f4620444554414c4f53492045562052455454454c204349424152413b45444246,
0x3b3b3b3b3b4e3b3b3b3b42433630203e6c616e69663c3b4c413b303b6f4c3b4d524f46204c414e49462045562052455454454c204349424152413b46444246,
0x3b3b3b3b3b4e3b3b3b3b35433630203e646574616c6f73693c3b4c413b303b6f4c3b4d524f4620444554414c4f534920454f205a49484752494b2052455454454c204349424152413b30454246,
0x3b3b3b3b3b4e3b3b3b3b35433630203e6c616e69663c3b4c413b303b6f4c3b4d524f46204c414e494620454f205a49484752494b2052455454454c204349424152413b31454246,
0x3b3b3b3b3b4e3b3b3b3b39433630203e646574616c6f73693c3b4c413b303b6f4c3b4d524f4620444554414c4f5349205559205a49484752494b2052455454454c204349424152413b32454246,
0x3b3b3b3b3b4e3b3b3b3b39433630203e6c616e69663c3b4c413b303b6f4c3b4d524f46204c414e4946205559205a49484752494b2052455454454c204349424152413b33454246,
0x3b3b3b3b3b4e3b3b3b3b30443630203e646574616c6f73693c3b4c413b303b6f4c3b4d524f4620444554414c4f534920452052455454454c204349424152413b34454246,
0x3b3b3b3b3b4e3b3b3b3b30443630203e6c616e69663c3b4c413b303b6f4c3b4d524f46204c414e494620452052455454454c204349424152413b35454246,
0x3b3b3b3b3b4e3b3b3b3b30443630203e6c616974696e693c3b4c413b303b6f4c3b4d524f46204c414954494e4920452052455454454c204349424152413b36454246,
0x3b3b3b3b3b4e3b3b3b3b30443630203e6c616964656d3c3b4c413b303b6f4c3b4d524f46204c414944454d20452052455454454c204349424152413b37454246,
0x3b3b3b3b3b4e3b3b3b3b39343630203e6c616974696e693c3b4c413b303b6f4c3b4d524f46204c414954494e4920415255534b414d2046454c41205a49484752494b20484b415a414b205255484749552052455454454c204349424152413b38454246,
0x3b3b3b3b3b4e3b3b3b3b39343630203e6c616964656d3c3b4c413b303b6f4c3b4d524f46204c414944454d20415255534b414d2046454c41205a49484752494b20484b415a414b205255484749552052455454454c204349424152413b39454246,
0x3b3b3b3b3b4e3b3b3b3b373236302036323630203e646574616c6f73693c3b4c413b303b6f4c3b4d524f4620444554414c4f53492046454c4120485449572045564f424120415a4d414820485449572048455920455255544147494c204349424152413b41454246,
0x3b3b3b3b3b4e3b3b3b3b373236302036323630203e6c616e69663c3b4c413b303b6f4c3b4d524f46204c414e49462046454c4120485449572045564f424120415a4d414820485449572048455920455255544147494c204349424152413b42454246,
0x3b3b3b3b3b4e3b3b3b3b354436302036323630203e646574616c6f73693c3b4c413b303b6f4c3b4d524f4620444554414c4f534920454120485449572045564f424120415a4d414820485449572048455920455255544147494c204349424152413b43454246,
0x3b3b3b3b3b4e3b3b3b3b354436302036323630203e6c616e69663c3b4c413b303b6f4c3b4d524f46204c414e494620454120485449572045564f424120415a4d414820485449572048455920455255544147494c204349424152413b44454246,
0x3b3b3b3b3b4e3b3b3b3b383436302036323630203e646574616c6f73693c3b4c413b303b6f4c3b4d524f4620444554414c4f53492057415720485449572045564f424120415a4d414820485449572048455920455255544147494c204349424152413b45454246,
0x3b3b3b3b3b4e3b3b3b3b383436302036323630203e6c616e69663c3b4c413b303b6f4c3b4d524f46204c414e49462057415720485449572045564f424120415a4d414820485449572048455920455255544147494c204349424152413b46454246,
0x3b3b3b3b3b4e3b3b3b3b374336302036323630203e646574616c6f73693c3b4c413b303b6f4c3b4d524f4620444554414c4f5349205520485449572045564f424120415a4d414820485449572048455920455255544147494c204349424152413b30464246,
0x3b3b3b3b3b4e3b3b3b3b374336302036323630203e6c616e69663c3b4c413b303b6f4c3b4d524f46204c414e4946205520485449572045564f424120415a4d414820485449572048455920455255544147494c204349424152413b31464246,
0x3b3b3b3b3b4e3b3b3b3b364336302036323630203e646574616c6f73693c3b4c413b303b6f4c3b4d524f4620444554414c4f534920454f20485449572045564f424120415a4d414820485449572048455920455255544147494c204349424152413b32464246,
0x3b3b3b3b3b4e3b3b3b3b364336302036323630203e6c616e69663c3b4c413b303b6f4c3b4d524f46204c414e494620454f20485449572045564f424120415a4d414820485449572048455920455255544147494c204349424152413b33464246,
0x3b3b3b3b3b4e3b3b3b3b384336302036323630203e646574616c6f73693c3b4c413b303b6f4c3b4d524f4620444554414c4f534920555920485449572045564f424120415a4d414820485449572048455920455255544147494c204349424152413b34464246,
0x3b3b3b3b3b4e3b3b3b3b384336302036323630203e6c616e69663c3b4c413b303b6f4c3b4d524f46204c414e494620555920485449572045564f424120415a4d414820485449572048455920455255544147494c204349424152413b35464246,
0x3b3b3b3b3b4e3b3b3b3b304436302036323630203e646574616c6f73693c3b4c413b303b6f4c3b4d524f4620444554414c4f5349204520485449572045564f424120415a4d414820485449572048455920455255544147494c204349424152413b36464246,
0x3b3b3b3b3b4e3b3b3b3b304436302036323630203e6c616e69663c3b4c413b303b6f4c3b4d524f46204c414e4946204520485449572045564f424120415a4d414820485449572048455920455255544147494c204349424152413b37464246]

/-- src/u5e/props/UnicodeData.txt lines 15617-15872. -/
def rawUcd61 : List Nat := [
0x3b3b3b3b3b4e3b3b3b3b304436302036323630203e6c616974696e693c3b4c413b303b6f4c3b4d524f46204c414954494e49204520485449572045564f424120415a4d414820485449572048455920455255544147494c204349424152413b38464246,
0x3b3b3b3b3b4e3b3b3b3b393436302036323630203e646574616c6f73693c3b4c413b303b6f4c3b4d524f4620444554414c4f534920415255534b414d2046454c4120485449572045564f424120415a4d4148204854495720484559205a49484752494b2052554847495520455255544147494c204349424152413b39464246,
0x3b3b3b3b3b4e3b3b3b3b393436302036323630203e6c616e69663c3b4c413b303b6f4c3b4d524f46204c414e494620415255534b414d2046454c4120485449572045564f424120415a4d4148204854495720484559205a49484752494b2052554847495520455255544147494c204349424152413b41464246,
0x3b3b3b3b3b4e3b3b3b3b393436302036323630203e6c616974696e693c3b4c413b303b6f4c3b4d524f46204c414954494e4920415255534b414d2046454c4120485449572045564f424120415a4d4148204854495720484559205a49484752494b2052554847495520455255544147494c204349424152413b42464246,
0x3b3b3b3b3b4e3b3b3b3b43433630203e646574616c6f73693c3b4c413b303b6f4c3b4d524f4620444554414c4f5349204845592049535241462052455454454c204349424152413b43464246,
0x3b3b3b3b3b4e3b3b3b3b43433630203e6c616e69663c3b4c413b303b6f4c3b4d524f46204c414e4946204845592049535241462052455454454c204349424152413b44464246,
0x3b3b3b3b3b4e3b3b3b3b43433630203e6c616974696e693c3b4c413b303b6f4c3b4d524f46204c414954494e49204845592049535241462052455454454c204349424152413b45464246,
0x3b3b3b3b3b4e3b3b3b3b43433630203e6c616964656d3c3b4c413b303b6f4c3b4d524f46204c414944454d204845592049535241462052455454454c204349424152413b46464246,
0x3b3b3b3b3b4e3b3b3b3b433236302036323630203e646574616c6f73693c3b4c413b303b6f4c3b4d524f4620444554414c4f5349204d45454a20485449572045564f424120415a4d414820485449572048455920455255544147494c204349424152413b30304346,
0x3b3b3b3b3b4e3b3b3b3b443236302036323630203e646574616c6f73693c3b4c413b303b6f4c3b4d524f4620444554414c4f53492048414820485449572045564f424120415a4d414820485449572048455920455255544147494c204349424152413b31304346,
0x3b3b3b3b3b4e3b3b3b3b353436302036323630203e646574616c6f73693c3b4c413b303b6f4c3b4d524f4620444554414c4f5349204d45454d20485449572045564f424120415a4d414820485449572048455920455255544147494c204349424152413b32304346,
0x3b3b3b3b3b4e3b3b3b3b393436302036323630203e646574616c6f73693c3b4c413b303b6f4c3b4d524f4620444554414c4f534920415255534b414d2046454c4120485449572045564f424120415a4d414820485449572048455920455255544147494c204349424152413b33304346,
0x3b3b3b3b3b4e3b3b3b3b413436302036323630203e646574616c6f73693c3b4c413b303b6f4c3b4d524f4620444554414c4f53492048455920485449572045564f424120415a4d414820485449572048455920455255544147494c204349424152413b34304346,
0x3b3b3b3b3b4e3b3b3b3b433236302038323630203e646574616c6f73693c3b4c413b303b6f4c3b4d524f4620444554414c4f5349204d45454a20485449572048454220455255544147494c204349424152413b35304346,
0x3b3b3b3b3b4e3b3b3b3b443236302038323630203e646574616c6f73693c3b4c413b303b6f4c3b4d524f4620444554414c4f53492048414820485449572048454220455255544147494c204349424152413b36304346,
0x3b3b3b3b3b4e3b3b3b3b453236302038323630203e646574616c6f73693c3b4c413b303b6f4c3b4d524f4620444554414c4f5349204841484b20485449572048454220455255544147494c204349424152413b37304346,
0x3b3b3b3b3b4e3b3b3b3b353436302038323630203e646574616c6f73693c3b4c413b303b6f4c3b4d524f4620444554414c4f5349204d45454d20485449572048454220455255544147494c204349424152413b38304346,
0x3b3b3b3b3b4e3b3b3b3b393436302038323630203e646574616c6f73693c3b4c413b303b6f4c3b4d524f4620444554414c4f534920415255534b414d2046454c4120485449572048454220455255544147494c204349424152413b39304346,
0x3b3b3b3b3b4e3b3b3b3b413436302038323630203e646574616c6f73693c3b4c413b303b6f4c3b4d524f4620444554414c4f53492048455920485449572048454220455255544147494c204349424152413b41304346,
0x3b3b3b3b3b4e3b3b3b3b433236302041323630203e646574616c6f73693c3b4c413b303b6f4c3b4d524f4620444554414c4f5349204d45454a20485449572048455420455255544147494c204349424152413b42304346,
0x3b3b3b3b3b4e3b3b3b3b443236302041323630203e646574616c6f73693c3b4c413b303b6f4c3b4d524f4620444554414c4f53492048414820485449572048455420455255544147494c204349424152413b43304346,
0x3b3b3b3b3b4e3b3b3b3b453236302041323630203e646574616c6f73693c3b4c413b303b6f4c3b4d524f4620444554414c4f5349204841484b20485449572048455420455255544147494c204349424152413b44304346,
0x3b3b3b3b3b4e3b3b3b3b353436302041323630203e646574616c6f73693c3b4c413b303b6f4c3b4d524f4620444554414c4f5349204d45454d20485449572048455420455255544147494c204349424152413b45304346,
0x3b3b3b3b3b4e3b3b3b3b393436302041323630203e646574616c6f73693c3b4c413b303b6f4c3b4d524f4620444554414c4f534920415255534b414d2046454c4120485449572048455420455255544147494c204349424152413b46304346,
0x3b3b3b3b3b4e3b3b3b3b413436302041323630203e646574616c6f73693c3b4c413b303b6f4c3b4d524f4620444554414c4f53492048455920485449572048455420455255544147494c204349424152413b30314346,
0x3b3b3b3b3b4e3b3b3b3b433236302042323630203e646574616c6f73693c3b4c413b303b6f4c3b4d524f4620444554414c4f5349204d45454a2048544957204845485420455255544147494c204349424152413b31314346,
0x3b3b3b3b3b4e3b3b3b3b353436302042323630203e646574616c6f73693c3b4c413b303b6f4c3b4d524f4620444554414c4f5349204d45454d2048544957204845485420455255544147494c204349424152413b32314346,
0x3b3b3b3b3b4e3b3b3b3b393436302042323630203e646574616c6f73693c3b4c413b303b6f4c3b4d524f4620444554414c4f534920415255534b414d2046454c412048544957204845485420455255544147494c204349424152413b33314346,
0x3b3b3b3b3b4e3b3b3b3b413436302042323630203e646574616c6f73693c3b4c413b303b6f4c3b4d524f4620444554414c4f5349204845592048544957204845485420455255544147494c204349424152413b34314346,
0x3b3b3b3b3b4e3b3b3b3b443236302043323630203e646574616c6f73693c3b4c413b303b6f4c3b4d524f4620444554414c4f5349204841482048544957204d45454a20455255544147494c204349424152413b35314346,
0x3b3b3b3b3b4e3b3b3b3b353436302043323630203e646574616c6f73693c3b4c413b303b6f4c3b4d524f4620444554414c4f5349204d45454d2048544957204d45454a20455255544147494c204349424152413b36314346,
0x3b3b3b3b3b4e3b3b3b3b433236302044323630203e646574616c6f73693c3b4c413b303b6f4c3b4d524f4620444554414c4f5349204d45454a20485449572048414820455255544147494c204349424152413b37314346,
0x3b3b3b3b3b4e3b3b3b3b353436302044323630203e646574616c6f73693c3b4c413b303b6f4c3b4d524f4620444554414c4f5349204d45454d20485449572048414820455255544147494c204349424152413b38314346,
0x3b3b3b3b3b4e3b3b3b3b433236302045323630203e646574616c6f73693c3b4c413b303b6f4c3b4d524f4620444554414c4f5349204d45454a2048544957204841484b20455255544147494c204349424152413b39314346,
0x3b3b3b3b3b4e3b3b3b3b443236302045323630203e646574616c6f73693c3b4c413b303b6f4c3b4d524f4620444554414c4f5349204841482048544957204841484b20455255544147494c204349424152413b41314346,
0x3b3b3b3b3b4e3b3b3b3b353436302045323630203e646574616c6f73693c3b4c413b303b6f4c3b4d524f4620444554414c4f5349204d45454d2048544957204841484b20455255544147494c204349424152413b42314346,
0x3b3b3b3b3b4e3b3b3b3b433236302033333630203e646574616c6f73693c3b4c413b303b6f4c3b4d524f4620444554414c4f5349204d45454a2048544957204e45455320455255544147494c204349424152413b43314346,
0x3b3b3b3b3b4e3b3b3b3b443236302033333630203e646574616c6f73693c3b4c413b303b6f4c3b4d524f4620444554414c4f5349204841482048544957204e45455320455255544147494c204349424152413b44314346,
0x3b3b3b3b3b4e3b3b3b3b453236302033333630203e646574616c6f73693c3b4c413b303b6f4c3b4d524f4620444554414c4f5349204841484b2048544957204e45455320455255544147494c204349424152413b45314346,
0x3b3b3b3b3b4e3b3b3b3b353436302033333630203e646574616c6f73693c3b4c413b303b6f4c3b4d524f4620444554414c4f5349204d45454d2048544957204e45455320455255544147494c204349424152413b46314346,
0x3b3b3b3b3b4e3b3b3b3b443236302035333630203e646574616c6f73693c3b4c413b303b6f4c3b4d524f4620444554414c4f53492048414820485449572044415320455255544147494c204349424152413b30324346,
0x3b3b3b3b3b4e3b3b3b3b353436302035333630203e646574616c6f73693c3b4c413b303b6f4c3b4d524f4620444554414c4f5349204d45454d20485449572044415320455255544147494c204349424152413b31324346,
0x3b3b3b3b3b4e3b3b3b3b433236302036333630203e646574616c6f73693c3b4c413b303b6f4c3b4d524f4620444554414c4f5349204d45454a20485449572044414420455255544147494c204349424152413b32324346,
0x3b3b3b3b3b4e3b3b3b3b443236302036333630203e646574616c6f73693c3b4c413b303b6f4c3b4d524f4620444554414c4f53492048414820485449572044414420455255544147494c204349424152413b33324346,
0x3b3b3b3b3b4e3b3b3b3b453236302036333630203e646574616c6f73693c3b4c413b303b6f4c3b4d524f4620444554414c4f5349204841484b20485449572044414420455255544147494c204349424152413b34324346,
0x3b3b3b3b3b4e3b3b3b3b353436302036333630203e646574616c6f73693c3b4c413b303b6f4c3b4d524f4620444554414c4f5349204d45454d20485449572044414420455255544147494c204349424152413b35324346,
0x3b3b3b3b3b4e3b3b3b3b443236302037333630203e646574616c6f73693c3b4c413b303b6f4c3b4d524f4620444554414c4f53492048414820485449572048415420455255544147494c204349424152413b36324346,
0x3b3b3b3b3b4e3b3b3b3b353436302037333630203e646574616c6f73693c3b4c413b303b6f4c3b4d524f4620444554414c4f5349204d45454d20485449572048415420455255544147494c204349424152413b37324346,
0x3b3b3b3b3b4e3b3b3b3b353436302038333630203e646574616c6f73693c3b4c413b303b6f4c3b4d524f4620444554414c4f5349204d45454d20485449572048415a20455255544147494c204349424152413b38324346,
0x3b3b3b3b3b4e3b3b3b3b433236302039333630203e646574616c6f73693c3b4c413b303b6f4c3b4d524f4620444554414c4f5349204d45454a2048544957204e494120455255544147494c204349424152413b39324346,
0x3b3b3b3b3b4e3b3b3b3b353436302039333630203e646574616c6f73693c3b4c413b303b6f4c3b4d524f4620444554414c4f5349204d45454d2048544957204e494120455255544147494c204349424152413b41324346,
0x3b3b3b3b3b4e3b3b3b3b433236302041333630203e646574616c6f73693c3b4c413b303b6f4c3b4d524f4620444554414c4f5349204d45454a2048544957204e4941484720455255544147494c204349424152413b42324346,
0x3b3b3b3b3b4e3b3b3b3b353436302041333630203e646574616c6f73693c3b4c413b303b6f4c3b4d524f4620444554414c4f5349204d45454d2048544957204e4941484720455255544147494c204349424152413b43324346,
0x3b3b3b3b3b4e3b3b3b3b433236302031343630203e646574616c6f73693c3b4c413b303b6f4c3b4d524f4620444554414c4f5349204d45454a20485449572048454620455255544147494c204349424152413b44324346,
0x3b3b3b3b3b4e3b3b3b3b443236302031343630203e646574616c6f73693c3b4c413b303b6f4c3b4d524f4620444554414c4f53492048414820485449572048454620455255544147494c204349424152413b45324346,
0x3b3b3b3b3b4e3b3b3b3b453236302031343630203e646574616c6f73693c3b4c413b303b6f4c3b4d524f4620444554414c4f5349204841484b20485449572048454620455255544147494c204349424152413b46324346,
0x3b3b3b3b3b4e3b3b3b3b353436302031343630203e646574616c6f73693c3b4c413b303b6f4c3b4d524f4620444554414c4f5349204d45454d20485449572048454620455255544147494c204349424152413b30334346,
0x3b3b3b3b3b4e3b3b3b3b393436302031343630203e646574616c6f73693c3b4c413b303b6f4c3b4d524f4620444554414c4f534920415255534b414d2046454c4120485449572048454620455255544147494c204349424152413b31334346,
0x3b3b3b3b3b4e3b3b3b3b413436302031343630203e646574616c6f73693c3b4c413b303b6f4c3b4d524f4620444554414c4f53492048455920485449572048454620455255544147494c204349424152413b32334346,
0x3b3b3b3b3b4e3b3b3b3b443236302032343630203e646574616c6f73693c3b4c413b303b6f4c3b4d524f4620444554414c4f53492048414820485449572046415120455255544147494c204349424152413b33334346,
0x3b3b3b3b3b4e3b3b3b3b353436302032343630203e646574616c6f73693c3b4c413b303b6f4c3b4d524f4620444554414c4f5349204d45454d20485449572046415120455255544147494c204349424152413b34334346,
0x3b3b3b3b3b4e3b3b3b3b393436302032343630203e646574616c6f73693c3b4c413b303b6f4c3b4d524f4620444554414c4f534920415255534b414d2046454c4120485449572046415120455255544147494c204349424152413b35334346,
0x3b3b3b3b3b4e3b3b3b3b413436302032343630203e646574616c6f73693c3b4c413b303b6f4c3b4d524f4620444554414c4f53492048455920485449572046415120455255544147494c204349424152413b36334346,
0x3b3b3b3b3b4e3b3b3b3b373236302033343630203e646574616c6f73693c3b4c413b303b6f4c3b4d524f4620444554414c4f53492046454c4120485449572046414b20455255544147494c204349424152413b37334346,
0x3b3b3b3b3b4e3b3b3b3b433236302033343630203e646574616c6f73693c3b4c413b303b6f4c3b4d524f4620444554414c4f5349204d45454a20485449572046414b20455255544147494c204349424152413b38334346,
0x3b3b3b3b3b4e3b3b3b3b443236302033343630203e646574616c6f73693c3b4c413b303b6f4c3b4d524f4620444554414c4f53492048414820485449572046414b20455255544147494c204349424152413b39334346,
0x3b3b3b3b3b4e3b3b3b3b453236302033343630203e646574616c6f73693c3b4c413b303b6f4c3b4d524f4620444554414c4f5349204841484b20485449572046414b20455255544147494c204349424152413b41334346,
0x3b3b3b3b3b4e3b3b3b3b343436302033343630203e646574616c6f73693c3b4c413b303b6f4c3b4d524f4620444554414c4f5349204d414c20485449572046414b20455255544147494c204349424152413b42334346,
0x3b3b3b3b3b4e3b3b3b3b353436302033343630203e646574616c6f73693c3b4c413b303b6f4c3b4d524f4620444554414c4f5349204d45454d20485449572046414b20455255544147494c204349424152413b43334346,
0x3b3b3b3b3b4e3b3b3b3b393436302033343630203e646574616c6f73693c3b4c413b303b6f4c3b4d524f4620444554414c4f534920415255534b414d2046454c4120485449572046414b20455255544147494c204349424152413b44334346,
0x3b3b3b3b3b4e3b3b3b3b413436302033343630203e646574616c6f73693c3b4c413b303b6f4c3b4d524f4620444554414c4f53492048455920485449572046414b20455255544147494c204349424152413b45334346,
0x3b3b3b3b3b4e3b3b3b3b433236302034343630203e646574616c6f73693c3b4c413b303b6f4c3b4d524f4620444554414c4f5349204d45454a2048544957204d414c20455255544147494c204349424152413b46334346,
0x3b3b3b3b3b4e3b3b3b3b443236302034343630203e646574616c6f73693c3b4c413b303b6f4c3b4d524f4620444554414c4f5349204841482048544957204d414c20455255544147494c204349424152413b30344346,
0x3b3b3b3b3b4e3b3b3b3b453236302034343630203e646574616c6f73693c3b4c413b303b6f4c3b4d524f4620444554414c4f5349204841484b2048544957204d414c20455255544147494c204349424152413b31344346,
0x3b3b3b3b3b4e3b3b3b3b353436302034343630203e646574616c6f73693c3b4c413b303b6f4c3b4d524f4620444554414c4f5349204d45454d2048544957204d414c20455255544147494c204349424152413b32344346,
0x3b3b3b3b3b4e3b3b3b3b393436302034343630203e646574616c6f73693c3b4c413b303b6f4c3b4d524f4620444554414c4f534920415255534b414d2046454c412048544957204d414c20455255544147494c204349424152413b33344346,
0x3b3b3b3b3b4e3b3b3b3b413436302034343630203e646574616c6f73693c3b4c413b303b6f4c3b4d524f4620444554414c4f5349204845592048544957204d414c20455255544147494c204349424152413b34344346,
0x3b3b3b3b3b4e3b3b3b3b433236302035343630203e646574616c6f73693c3b4c413b303b6f4c3b4d524f4620444554414c4f5349204d45454a2048544957204d45454d20455255544147494c204349424152413b35344346,
0x3b3b3b3b3b4e3b3b3b3b443236302035343630203e646574616c6f73693c3b4c413b303b6f4c3b4d524f4620444554414c4f5349204841482048544957204d45454d20455255544147494c204349424152413b36344346,
0x3b3b3b3b3b4e3b3b3b3b453236302035343630203e646574616c6f73693c3b4c413b303b6f4c3b4d524f4620444554414c4f5349204841484b2048544957204d45454d20455255544147494c204349424152413b37344346,
0x3b3b3b3b3b4e3b3b3b3b353436302035343630203e646574616c6f73693c3b4c413b303b6f4c3b4d524f4620444554414c4f5349204d45454d2048544957204d45454d20455255544147494c204349424152413b38344346,
0x3b3b3b3b3b4e3b3b3b3b393436302035343630203e646574616c6f73693c3b4c413b303b6f4c3b4d524f4620444554414c4f534920415255534b414d2046454c412048544957204d45454d20455255544147494c204349424152413b39344346,
0x3b3b3b3b3b4e3b3b3b3b413436302035343630203e646574616c6f73693c3b4c413b303b6f4c3b4d524f4620444554414c4f5349204845592048544957204d45454d20455255544147494c204349424152413b41344346,
0x3b3b3b3b3b4e3b3b3b3b433236302036343630203e646574616c6f73693c3b4c413b303b6f4c3b4d524f4620444554414c4f5349204d45454a2048544957204e4f4f4e20455255544147494c204349424152413b42344346,
0x3b3b3b3b3b4e3b3b3b3b443236302036343630203e646574616c6f73693c3b4c413b303b6f4c3b4d524f4620444554414c4f5349204841482048544957204e4f4f4e20455255544147494c204349424152413b43344346,
0x3b3b3b3b3b4e3b3b3b3b453236302036343630203e646574616c6f73693c3b4c413b303b6f4c3b4d524f4620444554414c4f5349204841484b2048544957204e4f4f4e20455255544147494c204349424152413b44344346,
0x3b3b3b3b3b4e3b3b3b3b353436302036343630203e646574616c6f73693c3b4c413b303b6f4c3b4d524f4620444554414c4f5349204d45454d2048544957204e4f4f4e20455255544147494c204349424152413b45344346,
0x3b3b3b3b3b4e3b3b3b3b393436302036343630203e646574616c6f73693c3b4c413b303b6f4c3b4d524f4620444554414c4f534920415255534b414d2046454c412048544957204e4f4f4e20455255544147494c204349424152413b46344346,
0x3b3b3b3b3b4e3b3b3b3b413436302036343630203e646574616c6f73693c3b4c413b303b6f4c3b4d524f4620444554414c4f5349204845592048544957204e4f4f4e20455255544147494c204349424152413b30354346,
0x3b3b3b3b3b4e3b3b3b3b433236302037343630203e646574616c6f73693c3b4c413b303b6f4c3b4d524f4620444554414c4f5349204d45454a20485449572048454820455255544147494c204349424152413b31354346,
0x3b3b3b3b3b4e3b3b3b3b353436302037343630203e646574616c6f73693c3b4c413b303b6f4c3b4d524f4620444554414c4f5349204d45454d20485449572048454820455255544147494c204349424152413b32354346,
0x3b3b3b3b3b4e3b3b3b3b393436302037343630203e646574616c6f73693c3b4c413b303b6f4c3b4d524f4620444554414c4f534920415255534b414d2046454c4120485449572048454820455255544147494c204349424152413b33354346,
0x3b3b3b3b3b4e3b3b3b3b413436302037343630203e646574616c6f73693c3b4c413b303b6f4c3b4d524f4620444554414c4f53492048455920485449572048454820455255544147494c204349424152413b34354346,
0x3b3b3b3b3b4e3b3b3b3b433236302041343630203e646574616c6f73693c3b4c413b303b6f4c3b4d524f4620444554414c4f5349204d45454a20485449572048455920455255544147494c204349424152413b35354346,
0x3b3b3b3b3b4e3b3b3b3b443236302041343630203e646574616c6f73693c3b4c413b303b6f4c3b4d524f4620444554414c4f53492048414820485449572048455920455255544147494c204349424152413b36354346,
0x3b3b3b3b3b4e3b3b3b3b453236302041343630203e646574616c6f73693c3b4c413b303b6f4c3b4d524f4620444554414c4f5349204841484b20485449572048455920455255544147494c204349424152413b37354346,
0x3b3b3b3b3b4e3b3b3b3b353436302041343630203e646574616c6f73693c3b4c413b303b6f4c3b4d524f4620444554414c4f5349204d45454d20485449572048455920455255544147494c204349424152413b38354346,
0x3b3b3b3b3b4e3b3b3b3b393436302041343630203e646574616c6f73693c3b4c413b303b6f4c3b4d524f4620444554414c4f534920415255534b414d2046454c4120485449572048455920455255544147494c204349424152413b39354346,
0x3b3b3b3b3b4e3b3b3b3b413436302041343630203e646574616c6f73693c3b4c413b303b6f4c3b4d524f4620444554414c4f53492048455920485449572048455920455255544147494c204349424152413b41354346,
0x3b3b3b3b3b4e3b3b3b3b303736302030333630203e646574616c6f73693c3b4c413b303b6f4c3b4d524f4620444554414c4f53492046454c412054504952435352455055532048544957204c41485420455255544147494c204349424152413b42354346,
0x3b3b3b3b3b4e3b3b3b3b303736302031333630203e646574616c6f73693c3b4c413b303b6f4c3b4d524f4620444554414c4f53492046454c4120545049524353524550555320485449572048455220455255544147494c204349424152413b43354346,
0x3b3b3b3b3b4e3b3b3b3b303736302039343630203e646574616c6f73693c3b4c413b303b6f4c3b4d524f4620444554414c4f53492046454c41205450495243535245505553204854495720415255534b414d2046454c4120455255544147494c204349424152413b44354346,
0x3b3b3b3b3b4e3b3b3b3b3135363020433436302030323030203e646574616c6f73693c3b4c413b303b6f4c3b4d524f4620444554414c4f5349204e4154414d4d414420485449572041444441485320455255544147494c204349424152413b45354346,
0x3b3b3b3b3b4e3b3b3b3b3135363020443436302030323030203e646574616c6f73693c3b4c413b303b6f4c3b4d524f4620444554414c4f5349204e4154415253414b20485449572041444441485320455255544147494c204349424152413b46354346,
0x3b3b3b3b3b4e3b3b3b3b3135363020453436302030323030203e646574616c6f73693c3b4c413b303b6f4c3b4d524f4620444554414c4f534920414854414620485449572041444441485320455255544147494c204349424152413b30364346,
0x3b3b3b3b3b4e3b3b3b3b3135363020463436302030323030203e646574616c6f73693c3b4c413b303b6f4c3b4d524f4620444554414c4f534920414d4d414420485449572041444441485320455255544147494c204349424152413b31364346,
0x3b3b3b3b3b4e3b3b3b3b3135363020303536302030323030203e646574616c6f73693c3b4c413b303b6f4c3b4d524f4620444554414c4f534920415253414b20485449572041444441485320455255544147494c204349424152413b32364346,
0x3b3b3b3b3b4e3b3b3b3b3037363020313536302030323030203e646574616c6f73693c3b4c413b303b6f4c3b4d524f4620444554414c4f53492046454c4120545049524353524550555320485449572041444441485320455255544147494c204349424152413b33364346,
0x3b3b3b3b3b4e3b3b3b3b313336302036323630203e6c616e69663c3b4c413b303b6f4c3b4d524f46204c414e49462048455220485449572045564f424120415a4d414820485449572048455920455255544147494c204349424152413b34364346,
0x3b3b3b3b3b4e3b3b3b3b323336302036323630203e6c616e69663c3b4c413b303b6f4c3b4d524f46204c414e4946204e49415a20485449572045564f424120415a4d414820485449572048455920455255544147494c204349424152413b35364346,
0x3b3b3b3b3b4e3b3b3b3b353436302036323630203e6c616e69663c3b4c413b303b6f4c3b4d524f46204c414e4946204d45454d20485449572045564f424120415a4d414820485449572048455920455255544147494c204349424152413b36364346,
0x3b3b3b3b3b4e3b3b3b3b363436302036323630203e6c616e69663c3b4c413b303b6f4c3b4d524f46204c414e4946204e4f4f4e20485449572045564f424120415a4d414820485449572048455920455255544147494c204349424152413b37364346,
0x3b3b3b3b3b4e3b3b3b3b393436302036323630203e6c616e69663c3b4c413b303b6f4c3b4d524f46204c414e494620415255534b414d2046454c4120485449572045564f424120415a4d414820485449572048455920455255544147494c204349424152413b38364346,
0x3b3b3b3b3b4e3b3b3b3b413436302036323630203e6c616e69663c3b4c413b303b6f4c3b4d524f46204c414e49462048455920485449572045564f424120415a4d414820485449572048455920455255544147494c204349424152413b39364346,
0x3b3b3b3b3b4e3b3b3b3b313336302038323630203e6c616e69663c3b4c413b303b6f4c3b4d524f46204c414e49462048455220485449572048454220455255544147494c204349424152413b41364346,
0x3b3b3b3b3b4e3b3b3b3b323336302038323630203e6c616e69663c3b4c413b303b6f4c3b4d524f46204c414e4946204e49415a20485449572048454220455255544147494c204349424152413b42364346,
0x3b3b3b3b3b4e3b3b3b3b353436302038323630203e6c616e69663c3b4c413b303b6f4c3b4d524f46204c414e4946204d45454d20485449572048454220455255544147494c204349424152413b43364346,
0x3b3b3b3b3b4e3b3b3b3b363436302038323630203e6c616e69663c3b4c413b303b6f4c3b4d524f46204c414e4946204e4f4f4e20485449572048454220455255544147494c204349424152413b44364346,
0x3b3b3b3b3b4e3b3b3b3b393436302038323630203e6c616e69663c3b4c413b303b6f4c3b4d524f46204c414e494620415255534b414d2046454c4120485449572048454220455255544147494c204349424152413b45364346,
0x3b3b3b3b3b4e3b3b3b3b413436302038323630203e6c616e69663c3b4c413b303b6f4c3b4d524f46204c414e49462048455920485449572048454220455255544147494c204349424152413b46364346,
0x3b3b3b3b3b4e3b3b3b3b313336302041323630203e6c616e69663c3b4c413b303b6f4c3b4d524f46204c414e49462048455220485449572048455420455255544147494c204349424152413b30374346,
0x3b3b3b3b3b4e3b3b3b3b323336302041323630203e6c616e69663c3b4c413b303b6f4c3b4d524f46204c414e4946204e49415a20485449572048455420455255544147494c204349424152413b31374346,
0x3b3b3b3b3b4e3b3b3b3b353436302041323630203e6c616e69663c3b4c413b303b6f4c3b4d524f46204c414e4946204d45454d20485449572048455420455255544147494c204349424152413b32374346,
0x3b3b3b3b3b4e3b3b3b3b363436302041323630203e6c616e69663c3b4c413b303b6f4c3b4d524f46204c414e4946204e4f4f4e20485449572048455420455255544147494c204349424152413b33374346,
0x3b3b3b3b3b4e3b3b3b3b393436302041323630203e6c616e69663c3b4c413b303b6f4c3b4d524f46204c414e494620415255534b414d2046454c4120485449572048455420455255544147494c204349424152413b34374346,
0x3b3b3b3b3b4e3b3b3b3b413436302041323630203e6c616e69663c3b4c413b303b6f4c3b4d524f46204c414e49462048455920485449572048455420455255544147494c204349424152413b35374346,
0x3b3b3b3b3b4e3b3b3b3b313336302042323630203e6c616e69663c3b4c413b303b6f4c3b4d524f46204c414e4946204845522048544957204845485420455255544147494c204349424152413b36374346,
0x3b3b3b3b3b4e3b3b3b3b323336302042323630203e6c616e69663c3b4c413b303b6f4c3b4d524f46204c414e4946204e49415a2048544957204845485420455255544147494c204349424152413b37374346,
0x3b3b3b3b3b4e3b3b3b3b353436302042323630203e6c616e69663c3b4c413b303b6f4c3b4d524f46204c414e4946204d45454d2048544957204845485420455255544147494c204349424152413b38374346,
0x3b3b3b3b3b4e3b3b3b3b363436302042323630203e6c616e69663c3b4c413b303b6f4c3b4d524f46204c414e4946204e4f4f4e2048544957204845485420455255544147494c204349424152413b39374346,
0x3b3b3b3b3b4e3b3b3b3b393436302042323630203e6c616e69663c3b4c413b303b6f4c3b4d524f46204c414e494620415255534b414d2046454c412048544957204845485420455255544147494c204349424152413b41374346,
0x3b3b3b3b3b4e3b3b3b3b413436302042323630203e6c616e69663c3b4c413b303b6f4c3b4d524f46204c414e4946204845592048544957204845485420455255544147494c204349424152413b42374346,
0x3b3b3b3b3b4e3b3b3b3b393436302031343630203e6c616e69663c3b4c413b303b6f4c3b4d524f46204c414e494620415255534b414d2046454c4120485449572048454620455255544147494c204349424152413b43374346,
0x3b3b3b3b3b4e3b3b3b3b413436302031343630203e6c616e69663c3b4c413b303b6f4c3b4d524f46204c414e49462048455920485449572048454620455255544147494c204349424152413b44374346,
0x3b3b3b3b3b4e3b3b3b3b393436302032343630203e6c616e69663c3b4c413b303b6f4c3b4d524f46204c414e494620415255534b414d2046454c4120485449572046415120455255544147494c204349424152413b45374346,
0x3b3b3b3b3b4e3b3b3b3b413436302032343630203e6c616e69663c3b4c413b303b6f4c3b4d524f46204c414e49462048455920485449572046415120455255544147494c204349424152413b46374346,
0x3b3b3b3b3b4e3b3b3b3b373236302033343630203e6c616e69663c3b4c413b303b6f4c3b4d524f46204c414e49462046454c4120485449572046414b20455255544147494c204349424152413b30384346,
0x3b3b3b3b3b4e3b3b3b3b343436302033343630203e6c616e69663c3b4c413b303b6f4c3b4d524f46204c414e4946204d414c20485449572046414b20455255544147494c204349424152413b31384346,
0x3b3b3b3b3b4e3b3b3b3b353436302033343630203e6c616e69663c3b4c413b303b6f4c3b4d524f46204c414e4946204d45454d20485449572046414b20455255544147494c204349424152413b32384346,
0x3b3b3b3b3b4e3b3b3b3b393436302033343630203e6c616e69663c3b4c413b303b6f4c3b4d524f46204c414e494620415255534b414d2046454c4120485449572046414b20455255544147494c204349424152413b33384346,
0x3b3b3b3b3b4e3b3b3b3b413436302033343630203e6c616e69663c3b4c413b303b6f4c3b4d524f46204c414e49462048455920485449572046414b20455255544147494c204349424152413b34384346,
0x3b3b3b3b3b4e3b3b3b3b353436302034343630203e6c616e69663c3b4c413b303b6f4c3b4d524f46204c414e4946204d45454d2048544957204d414c20455255544147494c204349424152413b35384346,
0x3b3b3b3b3b4e3b3b3b3b393436302034343630203e6c616e69663c3b4c413b303b6f4c3b4d524f46204c414e494620415255534b414d2046454c412048544957204d414c20455255544147494c204349424152413b36384346,
0x3b3b3b3b3b4e3b3b3b3b413436302034343630203e6c616e69663c3b4c413b303b6f4c3b4d524f46204c414e4946204845592048544957204d414c20455255544147494c204349424152413b37384346,
0x3b3b3b3b3b4e3b3b3b3b373236302035343630203e6c616e69663c3b4c413b303b6f4c3b4d524f46204c414e49462046454c412048544957204d45454d20455255544147494c204349424152413b38384346,
0x3b3b3b3b3b4e3b3b3b3b353436302035343630203e6c616e69663c3b4c413b303b6f4c3b4d524f46204c414e4946204d45454d2048544957204d45454d20455255544147494c204349424152413b39384346,
0x3b3b3b3b3b4e3b3b3b3b313336302036343630203e6c616e69663c3b4c413b303b6f4c3b4d524f46204c414e4946204845522048544957204e4f4f4e20455255544147494c204349424152413b41384346,
0x3b3b3b3b3b4e3b3b3b3b323336302036343630203e6c616e69663c3b4c413b303b6f4c3b4d524f46204c414e4946204e49415a2048544957204e4f4f4e20455255544147494c204349424152413b42384346,
0x3b3b3b3b3b4e3b3b3b3b353436302036343630203e6c616e69663c3b4c413b303b6f4c3b4d524f46204c414e4946204d45454d2048544957204e4f4f4e20455255544147494c204349424152413b43384346,
0x3b3b3b3b3b4e3b3b3b3b363436302036343630203e6c616e69663c3b4c413b303b6f4c3b4d524f46204c414e4946204e4f4f4e2048544957204e4f4f4e20455255544147494c204349424152413b44384346,
0x3b3b3b3b3b4e3b3b3b3b393436302036343630203e6c616e69663c3b4c413b303b6f4c3b4d524f46204c414e494620415255534b414d2046454c412048544957204e4f4f4e20455255544147494c204349424152413b45384346,
0x3b3b3b3b3b4e3b3b3b3b413436302036343630203e6c616e69663c3b4c413b303b6f4c3b4d524f46204c414e4946204845592048544957204e4f4f4e20455255544147494c204349424152413b46384346,
0x3b3b3b3b3b4e3b3b3b3b303736302039343630203e6c616e69663c3b4c413b303b6f4c3b4d524f46204c414e49462046454c41205450495243535245505553204854495720415255534b414d2046454c4120455255544147494c204349424152413b30394346,
0x3b3b3b3b3b4e3b3b3b3b313336302041343630203e6c616e69663c3b4c413b303b6f4c3b4d524f46204c414e49462048455220485449572048455920455255544147494c204349424152413b31394346,
0x3b3b3b3b3b4e3b3b3b3b323336302041343630203e6c616e69663c3b4c413b303b6f4c3b4d524f46204c414e4946204e49415a20485449572048455920455255544147494c204349424152413b32394346,
0x3b3b3b3b3b4e3b3b3b3b353436302041343630203e6c616e69663c3b4c413b303b6f4c3b4d524f46204c414e4946204d45454d20485449572048455920455255544147494c204349424152413b33394346,
0x3b3b3b3b3b4e3b3b3b3b363436302041343630203e6c616e69663c3b4c413b303b6f4c3b4d524f46204c414e4946204e4f4f4e20485449572048455920455255544147494c204349424152413b34394346,
0x3b3b3b3b3b4e3b3b3b3b393436302041343630203e6c616e69663c3b4c413b303b6f4c3b4d524f46204c414e494620415255534b414d2046454c4120485449572048455920455255544147494c204349424152413b35394346,
0x3b3b3b3b3b4e3b3b3b3b413436302041343630203e6c616e69663c3b4c413b303b6f4c3b4d524f46204c414e49462048455920485449572048455920455255544147494c204349424152413b36394346,
0x3b3b3b3b3b4e3b3b3b3b433236302036323630203e6c616974696e693c3b4c413b303b6f4c3b4d524f46204c414954494e49204d45454a20485449572045564f424120415a4d414820485449572048455920455255544147494c204349424152413b37394346,
0x3b3b3b3b3b4e3b3b3b3b443236302036323630203e6c616974696e693c3b4c413b303b6f4c3b4d524f46204c414954494e492048414820485449572045564f424120415a4d414820485449572048455920455255544147494c204349424152413b38394346,
0x3b3b3b3b3b4e3b3b3b3b453236302036323630203e6c616974696e693c3b4c413b303b6f4c3b4d524f46204c414954494e49204841484b20485449572045564f424120415a4d414820485449572048455920455255544147494c204349424152413b39394346,
0x3b3b3b3b3b4e3b3b3b3b353436302036323630203e6c616974696e693c3b4c413b303b6f4c3b4d524f46204c414954494e49204d45454d20485449572045564f424120415a4d414820485449572048455920455255544147494c204349424152413b41394346,
0x3b3b3b3b3b4e3b3b3b3b373436302036323630203e6c616974696e693c3b4c413b303b6f4c3b4d524f46204c414954494e492048454820485449572045564f424120415a4d414820485449572048455920455255544147494c204349424152413b42394346,
0x3b3b3b3b3b4e3b3b3b3b433236302038323630203e6c616974696e693c3b4c413b303b6f4c3b4d524f46204c414954494e49204d45454a20485449572048454220455255544147494c204349424152413b43394346,
0x3b3b3b3b3b4e3b3b3b3b443236302038323630203e6c616974696e693c3b4c413b303b6f4c3b4d524f46204c414954494e492048414820485449572048454220455255544147494c204349424152413b44394346,
0x3b3b3b3b3b4e3b3b3b3b453236302038323630203e6c616974696e693c3b4c413b303b6f4c3b4d524f46204c414954494e49204841484b20485449572048454220455255544147494c204349424152413b45394346,
0x3b3b3b3b3b4e3b3b3b3b353436302038323630203e6c616974696e693c3b4c413b303b6f4c3b4d524f46204c414954494e49204d45454d20485449572048454220455255544147494c204349424152413b46394346,
0x3b3b3b3b3b4e3b3b3b3b373436302038323630203e6c616974696e693c3b4c413b303b6f4c3b4d524f46204c414954494e492048454820485449572048454220455255544147494c204349424152413b30414346,
0x3b3b3b3b3b4e3b3b3b3b433236302041323630203e6c616974696e693c3b4c413b303b6f4c3b4d524f46204c414954494e49204d45454a20485449572048455420455255544147494c204349424152413b31414346,
0x3b3b3b3b3b4e3b3b3b3b443236302041323630203e6c616974696e693c3b4c413b303b6f4c3b4d524f46204c414954494e492048414820485449572048455420455255544147494c204349424152413b32414346,
0x3b3b3b3b3b4e3b3b3b3b453236302041323630203e6c616974696e693c3b4c413b303b6f4c3b4d524f46204c414954494e49204841484b20485449572048455420455255544147494c204349424152413b33414346,
0x3b3b3b3b3b4e3b3b3b3b353436302041323630203e6c616974696e693c3b4c413b303b6f4c3b4d524f46204c414954494e49204d45454d20485449572048455420455255544147494c204349424152413b34414346,
0x3b3b3b3b3b4e3b3b3b3b373436302041323630203e6c616974696e693c3b4c413b303b6f4c3b4d524f46204c414954494e492048454820485449572048455420455255544147494c204349424152413b35414346,
0x3b3b3b3b3b4e3b3b3b3b353436302042323630203e6c616974696e693c3b4c413b303b6f4c3b4d524f46204c414954494e49204d45454d2048544957204845485420455255544147494c204349424152413b36414346,
0x3b3b3b3b3b4e3b3b3b3b443236302043323630203e6c616974696e693c3b4c413b303b6f4c3b4d524f46204c414954494e49204841482048544957204d45454a20455255544147494c204349424152413b37414346,
0x3b3b3b3b3b4e3b3b3b3b353436302043323630203e6c616974696e693c3b4c413b303b6f4c3b4d524f46204c414954494e49204d45454d2048544957204d45454a20455255544147494c204349424152413b38414346,
0x3b3b3b3b3b4e3b3b3b3b433236302044323630203e6c616974696e693c3b4c413b303b6f4c3b4d524f46204c414954494e49204d45454a20485449572048414820455255544147494c204349424152413b39414346,
0x3b3b3b3b3b4e3b3b3b3b353436302044323630203e6c616974696e693c3b4c413b303b6f4c3b4d524f46204c414954494e49204d45454d20485449572048414820455255544147494c204349424152413b41414346,
0x3b3b3b3b3b4e3b3b3b3b433236302045323630203e6c616974696e693c3b4c413b303b6f4c3b4d524f46204c414954494e49204d45454a2048544957204841484b20455255544147494c204349424152413b42414346,
0x3b3b3b3b3b4e3b3b3b3b353436302045323630203e6c616974696e693c3b4c413b303b6f4c3b4d524f46204c414954494e49204d45454d2048544957204841484b20455255544147494c204349424152413b43414346,
0x3b3b3b3b3b4e3b3b3b3b433236302033333630203e6c616974696e693c3b4c413b303b6f4c3b4d524f46204c414954494e49204d45454a2048544957204e45455320455255544147494c204349424152413b44414346,
0x3b3b3b3b3b4e3b3b3b3b443236302033333630203e6c616974696e693c3b4c413b303b6f4c3b4d524f46204c414954494e49204841482048544957204e45455320455255544147494c204349424152413b45414346,
0x3b3b3b3b3b4e3b3b3b3b453236302033333630203e6c616974696e693c3b4c413b303b6f4c3b4d524f46204c414954494e49204841484b2048544957204e45455320455255544147494c204349424152413b46414346,
0x3b3b3b3b3b4e3b3b3b3b353436302033333630203e6c616974696e693c3b4c413b303b6f4c3b4d524f46204c414954494e49204d45454d2048544957204e45455320455255544147494c204349424152413b30424346,
0x3b3b3b3b3b4e3b3b3b3b443236302035333630203e6c616974696e693c3b4c413b303b6f4c3b4d524f46204c414954494e492048414820485449572044415320455255544147494c204349424152413b31424346,
0x3b3b3b3b3b4e3b3b3b3b453236302035333630203e6c616974696e693c3b4c413b303b6f4c3b4d524f46204c414954494e49204841484b20485449572044415320455255544147494c204349424152413b32424346,
0x3b3b3b3b3b4e3b3b3b3b353436302035333630203e6c616974696e693c3b4c413b303b6f4c3b4d524f46204c414954494e49204d45454d20485449572044415320455255544147494c204349424152413b33424346,
0x3b3b3b3b3b4e3b3b3b3b433236302036333630203e6c616974696e693c3b4c413b303b6f4c3b4d524f46204c414954494e49204d45454a20485449572044414420455255544147494c204349424152413b34424346,
0x3b3b3b3b3b4e3b3b3b3b443236302036333630203e6c616974696e693c3b4c413b303b6f4c3b4d524f46204c414954494e492048414820485449572044414420455255544147494c204349424152413b35424346,
0x3b3b3b3b3b4e3b3b3b3b453236302036333630203e6c616974696e693c3b4c413b303b6f4c3b4d524f46204c414954494e49204841484b20485449572044414420455255544147494c204349424152413b36424346,
0x3b3b3b3b3b4e3b3b3b3b353436302036333630203e6c616974696e693c3b4c413b303b6f4c3b4d524f46204c414954494e49204d45454d20485449572044414420455255544147494c204349424152413b37424346,
0x3b3b3b3b3b4e3b3b3b3b443236302037333630203e6c616974696e693c3b4c413b303b6f4c3b4d524f46204c414954494e492048414820485449572048415420455255544147494c204349424152413b38424346,
0x3b3b3b3b3b4e3b3b3b3b353436302038333630203e6c616974696e693c3b4c413b303b6f4c3b4d524f46204c414954494e49204d45454d20485449572048415a20455255544147494c204349424152413b39424346,
0x3b3b3b3b3b4e3b3b3b3b433236302039333630203e6c616974696e693c3b4c413b303b6f4c3b4d524f46204c414954494e49204d45454a2048544957204e494120455255544147494c204349424152413b41424346,
0x3b3b3b3b3b4e3b3b3b3b353436302039333630203e6c616974696e693c3b4c413b303b6f4c3b4d524f46204c414954494e49204d45454d2048544957204e494120455255544147494c204349424152413b42424346,
0x3b3b3b3b3b4e3b3b3b3b433236302041333630203e6c616974696e693c3b4c413b303b6f4c3b4d524f46204c414954494e49204d45454a2048544957204e4941484720455255544147494c204349424152413b43424346,
0x3b3b3b3b3b4e3b3b3b3b353436302041333630203e6c616974696e693c3b4c413b303b6f4c3b4d524f46204c414954494e49204d45454d2048544957204e4941484720455255544147494c204349424152413b44424346,
0x3b3b3b3b3b4e3b3b3b3b433236302031343630203e6c616974696e693c3b4c413b303b6f4c3b4d524f46204c414954494e49204d45454a20485449572048454620455255544147494c204349424152413b45424346,
0x3b3b3b3b3b4e3b3b3b3b443236302031343630203e6c616974696e693c3b4c413b303b6f4c3b4d524f46204c414954494e492048414820485449572048454620455255544147494c204349424152413b46424346,
0x3b3b3b3b3b4e3b3b3b3b453236302031343630203e6c616974696e693c3b4c413b303b6f4c3b4d524f46204c414954494e49204841484b20485449572048454620455255544147494c204349424152413b30434346,
0x3b3b3b3b3b4e3b3b3b3b353436302031343630203e6c616974696e693c3b4c413b303b6f4c3b4d524f46204c414954494e49204d45454d20485449572048454620455255544147494c204349424152413b31434346,
0x3b3b3b3b3b4e3b3b3b3b443236302032343630203e6c616974696e693c3b4c413b303b6f4c3b4d524f46204c414954494e492048414820485449572046415120455255544147494c204349424152413b32434346,
0x3b3b3b3b3b4e3b3b3b3b353436302032343630203e6c616974696e693c3b4c413b303b6f4c3b4d524f46204c414954494e49204d45454d20485449572046415120455255544147494c204349424152413b33434346,
0x3b3b3b3b3b4e3b3b3b3b433236302033343630203e6c616974696e693c3b4c413b303b6f4c3b4d524f46204c414954494e49204d45454a20485449572046414b20455255544147494c204349424152413b34434346,
0x3b3b3b3b3b4e3b3b3b3b443236302033343630203e6c616974696e693c3b4c413b303b6f4c3b4d524f46204c414954494e492048414820485449572046414b20455255544147494c204349424152413b35434346,
0x3b3b3b3b3b4e3b3b3b3b453236302033343630203e6c616974696e693c3b4c413b303b6f4c3b4d524f46204c414954494e49204841484b20485449572046414b20455255544147494c204349424152413b36434346,
0x3b3b3b3b3b4e3b3b3b3b343436302033343630203e6c616974696e693c3b4c413b303b6f4c3b4d524f46204c414954494e49204d414c20485449572046414b20455255544147494c204349424152413b37434346,
0x3b3b3b3b3b4e3b3b3b3b353436302033343630203e6c616974696e693c3b4c413b303b6f4c3b4d524f46204c414954494e49204d45454d20485449572046414b20455255544147494c204349424152413b38434346,
0x3b3b3b3b3b4e3b3b3b3b433236302034343630203e6c616974696e693c3b4c413b303b6f4c3b4d524f46204c414954494e49204d45454a2048544957204d414c20455255544147494c204349424152413b39434346,
0x3b3b3b3b3b4e3b3b3b3b443236302034343630203e6c616974696e693c3b4c413b303b6f4c3b4d524f46204c414954494e49204841482048544957204d414c20455255544147494c204349424152413b41434346,
0x3b3b3b3b3b4e3b3b3b3b453236302034343630203e6c616974696e693c3b4c413b303b6f4c3b4d524f46204c414954494e49204841484b2048544957204d414c20455255544147494c204349424152413b42434346,
0x3b3b3b3b3b4e3b3b3b3b353436302034343630203e6c616974696e693c3b4c413b303b6f4c3b4d524f46204c414954494e49204d45454d2048544957204d414c20455255544147494c204349424152413b43434346,
0x3b3b3b3b3b4e3b3b3b3b373436302034343630203e6c616974696e693c3b4c413b303b6f4c3b4d524f46204c414954494e49204845482048544957204d414c20455255544147494c204349424152413b44434346,
0x3b3b3b3b3b4e3b3b3b3b433236302035343630203e6c616974696e693c3b4c413b303b6f4c3b4d524f46204c414954494e49204d45454a2048544957204d45454d20455255544147494c204349424152413b45434346,
0x3b3b3b3b3b4e3b3b3b3b443236302035343630203e6c616974696e693c3b4c413b303b6f4c3b4d524f46204c414954494e49204841482048544957204d45454d20455255544147494c204349424152413b46434346,
0x3b3b3b3b3b4e3b3b3b3b453236302035343630203e6c616974696e693c3b4c413b303b6f4c3b4d524f46204c414954494e49204841484b2048544957204d45454d20455255544147494c204349424152413b30444346,
0x3b3b3b3b3b4e3b3b3b3b353436302035343630203e6c616974696e693c3b4c413b303b6f4c3b4d524f46204c414954494e49204d45454d2048544957204d45454d20455255544147494c204349424152413b31444346,
0x3b3b3b3b3b4e3b3b3b3b433236302036343630203e6c616974696e693c3b4c413b303b6f4c3b4d524f46204c414954494e49204d45454a2048544957204e4f4f4e20455255544147494c204349424152413b32444346,
0x3b3b3b3b3b4e3b3b3b3b443236302036343630203e6c616974696e693c3b4c413b303b6f4c3b4d524f46204c414954494e49204841482048544957204e4f4f4e20455255544147494c204349424152413b33444346,
0x3b3b3b3b3b4e3b3b3b3b453236302036343630203e6c616974696e693c3b4c413b303b6f4c3b4d524f46204c414954494e49204841484b2048544957204e4f4f4e20455255544147494c204349424152413b34444346,
0x3b3b3b3b3b4e3b3b3b3b353436302036343630203e6c616974696e693c3b4c413b303b6f4c3b4d524f46204c414954494e49204d45454d2048544957204e4f4f4e20455255544147494c204349424152413b35444346,
0x3b3b3b3b3b4e3b3b3b3b373436302036343630203e6c616974696e693c3b4c413b303b6f4c3b4d524f46204c414954494e49204845482048544957204e4f4f4e20455255544147494c204349424152413b36444346,
0x3b3b3b3b3b4e3b3b3b3b433236302037343630203e6c616974696e693c3b4c413b303b6f4c3b4d524f46204c414954494e49204d45454a20485449572048454820455255544147494c204349424152413b37444346,
0x3b3b3b3b3b4e3b3b3b3b353436302037343630203e6c616974696e693c3b4c413b303b6f4c3b4d524f46204c414954494e49204d45454d20485449572048454820455255544147494c204349424152413b38444346,
0x3b3b3b3b3b4e3b3b3b3b303736302037343630203e6c616974696e693c3b4c413b303b6f4c3b4d524f46204c414954494e492046454c4120545049524353524550555320485449572048454820455255544147494c204349424152413b39444346,
0x3b3b3b3b3b4e3b3b3b3b433236302041343630203e6c616974696e693c3b4c413b303b6f4c3b4d524f46204c414954494e49204d45454a20485449572048455920455255544147494c204349424152413b41444346,
0x3b3b3b3b3b4e3b3b3b3b443236302041343630203e6c616974696e693c3b4c413b303b6f4c3b4d524f46204c414954494e492048414820485449572048455920455255544147494c204349424152413b42444346,
0x3b3b3b3b3b4e3b3b3b3b453236302041343630203e6c616974696e693c3b4c413b303b6f4c3b4d524f46204c414954494e49204841484b20485449572048455920455255544147494c204349424152413b43444346,
0x3b3b3b3b3b4e3b3b3b3b353436302041343630203e6c616974696e693c3b4c413b303b6f4c3b4d524f46204c414954494e49204d45454d20485449572048455920455255544147494c204349424152413b44444346,
0x3b3b3b3b3b4e3b3b3b3b373436302041343630203e6c616974696e693c3b4c413b303b6f4c3b4d524f46204c414954494e492048454820485449572048455920455255544147494c204349424152413b45444346,
0x3b3b3b3b3b4e3b3b3b3b353436302036323630203e6c616964656d3c3b4c413b303b6f4c3b4d524f46204c414944454d204d45454d20485449572045564f424120415a4d414820485449572048455920455255544147494c204349424152413b46444346,
0x3b3b3b3b3b4e3b3b3b3b373436302036323630203e6c616964656d3c3b4c413b303b6f4c3b4d524f46204c414944454d2048454820485449572045564f424120415a4d414820485449572048455920455255544147494c204349424152413b30454346,
0x3b3b3b3b3b4e3b3b3b3b353436302038323630203e6c616964656d3c3b4c413b303b6f4c3b4d524f46204c414944454d204d45454d20485449572048454220455255544147494c204349424152413b31454346,
0x3b3b3b3b3b4e3b3b3b3b373436302038323630203e6c616964656d3c3b4c413b303b6f4c3b4d524f46204c414944454d2048454820485449572048454220455255544147494c204349424152413b32454346,
0x3b3b3b3b3b4e3b3b3b3b353436302041323630203e6c616964656d3c3b4c413b303b6f4c3b4d524f46204c414944454d204d45454d20485449572048455420455255544147494c204349424152413b33454346,
0x3b3b3b3b3b4e3b3b3b3b373436302041323630203e6c616964656d3c3b4c413b303b6f4c3b4d524f46204c414944454d2048454820485449572048455420455255544147494c204349424152413b34454346,
0x3b3b3b3b3b4e3b3b3b3b353436302042323630203e6c616964656d3c3b4c413b303b6f4c3b4d524f46204c414944454d204d45454d2048544957204845485420455255544147494c204349424152413b35454346,
0x3b3b3b3b3b4e3b3b3b3b373436302042323630203e6c616964656d3c3b4c413b303b6f4c3b4d524f46204c414944454d204845482048544957204845485420455255544147494c204349424152413b36454346,
0x3b3b3b3b3b4e3b3b3b3b353436302033333630203e6c616964656d3c3b4c413b303b6f4c3b4d524f46204c414944454d204d45454d2048544957204e45455320455255544147494c204349424152413b37454346,
0x3b3b3b3b3b4e3b3b3b3b373436302033333630203e6c616964656d3c3b4c413b303b6f4c3b4d524f46204c414944454d204845482048544957204e45455320455255544147494c204349424152413b38454346,
0x3b3b3b3b3b4e3b3b3b3b353436302034333630203e6c616964656d3c3b4c413b303b6f4c3b4d524f46204c414944454d204d45454d2048544957204e4545485320455255544147494c204349424152413b39454346,
0x3b3b3b3b3b4e3b3b3b3b373436302034333630203e6c616964656d3c3b4c413b303b6f4c3b4d524f46204c414944454d204845482048544957204e4545485320455255544147494c204349424152413b41454346,
0x3b3b3b3b3b4e3b3b3b3b343436302033343630203e6c616964656d3c3b4c413b303b6f4c3b4d524f46204c414944454d204d414c20485449572046414b20455255544147494c204349424152413b42454346,
0x3b3b3b3b3b4e3b3b3b3b353436302033343630203e6c616964656d3c3b4c413b303b6f4c3b4d524f46204c414944454d204d45454d20485449572046414b20455255544147494c204349424152413b43454346,
0x3b3b3b3b3b4e3b3b3b3b353436302034343630203e6c616964656d3c3b4c413b303b6f4c3b4d524f46204c414944454d204d45454d2048544957204d414c20455255544147494c204349424152413b44454346,
0x3b3b3b3b3b4e3b3b3b3b353436302036343630203e6c616964656d3c3b4c413b303b6f4c3b4d524f46204c414944454d204d45454d2048544957204e4f4f4e20455255544147494c204349424152413b45454346,
0x3b3b3b3b3b4e3b3b3b3b373436302036343630203e6c616964656d3c3b4c413b303b6f4c3b4d524f46204c414944454d204845482048544957204e4f4f4e20455255544147494c204349424152413b46454346,
0x3b3b3b3b3b4e3b3b3b3b353436302041343630203e6c616964656d3c3b4c413b303b6f4c3b4d524f46204c414944454d204d45454d20485449572048455920455255544147494c204349424152413b30464346,
0x3b3b3b3b3b4e3b3b3b3b373436302041343630203e6c616964656d3c3b4c413b303b6f4c3b4d524f46204c414944454d2048454820485449572048455920455255544147494c204349424152413b31464346,
0x3b3b3b3b3b4e3b3b3b3b3135363020453436302030343630203e6c616964656d3c3b4c413b303b6f4c3b4d524f46204c414944454d20414854414620485449572041444441485320455255544147494c204349424152413b32464346,
0x3b3b3b3b3b4e3b3b3b3b3135363020463436302030343630203e6c616964656d3c3b4c413b303b6f4c3b4d524f46204c414944454d20414d4d414420485449572041444441485320455255544147494c204349424152413b33464346,
0x3b3b3b3b3b4e3b3b3b3b3135363020303536302030343630203e6c616964656d3c3b4c413b303b6f4c3b4d524f46204c414944454d20415253414b20485449572041444441485320455255544147494c204349424152413b34464346,
0x3b3b3b3b3b4e3b3b3b3b393436302037333630203e646574616c6f73693c3b4c413b303b6f4c3b4d524f4620444554414c4f534920415255534b414d2046454c4120485449572048415420455255544147494c204349424152413b35464346,
0x3b3b3b3b3b4e3b3b3b3b413436302037333630203e646574616c6f73693c3b4c413b303b6f4c3b4d524f4620444554414c4f53492048455920485449572048415420455255544147494c204349424152413b36464346,
0x3b3b3b3b3b4e3b3b3b3b393436302039333630203e646574616c6f73693c3b4c413b303b6f4c3b4d524f4620444554414c4f534920415255534b414d2046454c412048544957204e494120455255544147494c204349424152413b37464346]

/-- src/u5e/props/UnicodeData.txt lines 15873-16128. -/
def rawUcd62 : List Nat := [
0x3b3b3b3b3b4e3b3b3b3b413436302039333630203e646574616c6f73693c3b4c413b303b6f4c3b4d524f4620444554414c4f5349204845592048544957204e494120455255544147494c204349424152413b38464346,
0x3b3b3b3b3b4e3b3b3b3b393436302041333630203e646574616c6f73693c3b4c413b303b6f4c3b4d524f4620444554414c4f534920415255534b414d2046454c412048544957204e4941484720455255544147494c204349424152413b39464346,
0x3b3b3b3b3b4e3b3b3b3b413436302041333630203e646574616c6f73693c3b4c413b303b6f4c3b4d524f4620444554414c4f5349204845592048544957204e4941484720455255544147494c204349424152413b41464346,
0x3b3b3b3b3b4e3b3b3b3b393436302033333630203e646574616c6f73693c3b4c413b303b6f4c3b4d524f4620444554414c4f534920415255534b414d2046454c412048544957204e45455320455255544147494c204349424152413b42464346,
0x3b3b3b3b3b4e3b3b3b3b413436302033333630203e646574616c6f73693c3b4c413b303b6f4c3b4d524f4620444554414c4f5349204845592048544957204e45455320455255544147494c204349424152413b43464346,
0x3b3b3b3b3b4e3b3b3b3b393436302034333630203e646574616c6f73693c3b4c413b303b6f4c3b4d524f4620444554414c4f534920415255534b414d2046454c412048544957204e4545485320455255544147494c204349424152413b44464346,
0x3b3b3b3b3b4e3b3b3b3b413436302034333630203e646574616c6f73693c3b4c413b303b6f4c3b4d524f4620444554414c4f5349204845592048544957204e4545485320455255544147494c204349424152413b45464346,
0x3b3b3b3b3b4e3b3b3b3b393436302044323630203e646574616c6f73693c3b4c413b303b6f4c3b4d524f4620444554414c4f534920415255534b414d2046454c4120485449572048414820455255544147494c204349424152413b46464346,
0x3b3b3b3b3b4e3b3b3b3b413436302044323630203e646574616c6f73693c3b4c413b303b6f4c3b4d524f4620444554414c4f53492048455920485449572048414820455255544147494c204349424152413b30304446,
0x3b3b3b3b3b4e3b3b3b3b393436302043323630203e646574616c6f73693c3b4c413b303b6f4c3b4d524f4620444554414c4f534920415255534b414d2046454c412048544957204d45454a20455255544147494c204349424152413b31304446,
0x3b3b3b3b3b4e3b3b3b3b413436302043323630203e646574616c6f73693c3b4c413b303b6f4c3b4d524f4620444554414c4f5349204845592048544957204d45454a20455255544147494c204349424152413b32304446,
0x3b3b3b3b3b4e3b3b3b3b393436302045323630203e646574616c6f73693c3b4c413b303b6f4c3b4d524f4620444554414c4f534920415255534b414d2046454c412048544957204841484b20455255544147494c204349424152413b33304446,
0x3b3b3b3b3b4e3b3b3b3b413436302045323630203e646574616c6f73693c3b4c413b303b6f4c3b4d524f4620444554414c4f5349204845592048544957204841484b20455255544147494c204349424152413b34304446,
0x3b3b3b3b3b4e3b3b3b3b393436302035333630203e646574616c6f73693c3b4c413b303b6f4c3b4d524f4620444554414c4f534920415255534b414d2046454c4120485449572044415320455255544147494c204349424152413b35304446,
0x3b3b3b3b3b4e3b3b3b3b413436302035333630203e646574616c6f73693c3b4c413b303b6f4c3b4d524f4620444554414c4f53492048455920485449572044415320455255544147494c204349424152413b36304446,
0x3b3b3b3b3b4e3b3b3b3b393436302036333630203e646574616c6f73693c3b4c413b303b6f4c3b4d524f4620444554414c4f534920415255534b414d2046454c4120485449572044414420455255544147494c204349424152413b37304446,
0x3b3b3b3b3b4e3b3b3b3b413436302036333630203e646574616c6f73693c3b4c413b303b6f4c3b4d524f4620444554414c4f53492048455920485449572044414420455255544147494c204349424152413b38304446,
0x3b3b3b3b3b4e3b3b3b3b433236302034333630203e646574616c6f73693c3b4c413b303b6f4c3b4d524f4620444554414c4f5349204d45454a2048544957204e4545485320455255544147494c204349424152413b39304446,
0x3b3b3b3b3b4e3b3b3b3b443236302034333630203e646574616c6f73693c3b4c413b303b6f4c3b4d524f4620444554414c4f5349204841482048544957204e4545485320455255544147494c204349424152413b41304446,
0x3b3b3b3b3b4e3b3b3b3b453236302034333630203e646574616c6f73693c3b4c413b303b6f4c3b4d524f4620444554414c4f5349204841484b2048544957204e4545485320455255544147494c204349424152413b42304446,
0x3b3b3b3b3b4e3b3b3b3b353436302034333630203e646574616c6f73693c3b4c413b303b6f4c3b4d524f4620444554414c4f5349204d45454d2048544957204e4545485320455255544147494c204349424152413b43304446,
0x3b3b3b3b3b4e3b3b3b3b313336302034333630203e646574616c6f73693c3b4c413b303b6f4c3b4d524f4620444554414c4f5349204845522048544957204e4545485320455255544147494c204349424152413b44304446,
0x3b3b3b3b3b4e3b3b3b3b313336302033333630203e646574616c6f73693c3b4c413b303b6f4c3b4d524f4620444554414c4f5349204845522048544957204e45455320455255544147494c204349424152413b45304446,
0x3b3b3b3b3b4e3b3b3b3b313336302035333630203e646574616c6f73693c3b4c413b303b6f4c3b4d524f4620444554414c4f53492048455220485449572044415320455255544147494c204349424152413b46304446,
0x3b3b3b3b3b4e3b3b3b3b313336302036333630203e646574616c6f73693c3b4c413b303b6f4c3b4d524f4620444554414c4f53492048455220485449572044414420455255544147494c204349424152413b30314446,
0x3b3b3b3b3b4e3b3b3b3b393436302037333630203e6c616e69663c3b4c413b303b6f4c3b4d524f46204c414e494620415255534b414d2046454c4120485449572048415420455255544147494c204349424152413b31314446,
0x3b3b3b3b3b4e3b3b3b3b413436302037333630203e6c616e69663c3b4c413b303b6f4c3b4d524f46204c414e49462048455920485449572048415420455255544147494c204349424152413b32314446,
0x3b3b3b3b3b4e3b3b3b3b393436302039333630203e6c616e69663c3b4c413b303b6f4c3b4d524f46204c414e494620415255534b414d2046454c412048544957204e494120455255544147494c204349424152413b33314446,
0x3b3b3b3b3b4e3b3b3b3b413436302039333630203e6c616e69663c3b4c413b303b6f4c3b4d524f46204c414e4946204845592048544957204e494120455255544147494c204349424152413b34314446,
0x3b3b3b3b3b4e3b3b3b3b393436302041333630203e6c616e69663c3b4c413b303b6f4c3b4d524f46204c414e494620415255534b414d2046454c412048544957204e4941484720455255544147494c204349424152413b35314446,
0x3b3b3b3b3b4e3b3b3b3b413436302041333630203e6c616e69663c3b4c413b303b6f4c3b4d524f46204c414e4946204845592048544957204e4941484720455255544147494c204349424152413b36314446,
0x3b3b3b3b3b4e3b3b3b3b393436302033333630203e6c616e69663c3b4c413b303b6f4c3b4d524f46204c414e494620415255534b414d2046454c412048544957204e45455320455255544147494c204349424152413b37314446,
0x3b3b3b3b3b4e3b3b3b3b413436302033333630203e6c616e69663c3b4c413b303b6f4c3b4d524f46204c414e4946204845592048544957204e45455320455255544147494c204349424152413b38314446,
0x3b3b3b3b3b4e3b3b3b3b393436302034333630203e6c616e69663c3b4c413b303b6f4c3b4d524f46204c414e494620415255534b414d2046454c412048544957204e4545485320455255544147494c204349424152413b39314446,
0x3b3b3b3b3b4e3b3b3b3b413436302034333630203e6c616e69663c3b4c413b303b6f4c3b4d524f46204c414e4946204845592048544957204e4545485320455255544147494c204349424152413b41314446,
0x3b3b3b3b3b4e3b3b3b3b393436302044323630203e6c616e69663c3b4c413b303b6f4c3b4d524f46204c414e494620415255534b414d2046454c4120485449572048414820455255544147494c204349424152413b42314446,
0x3b3b3b3b3b4e3b3b3b3b413436302044323630203e6c616e69663c3b4c413b303b6f4c3b4d524f46204c414e49462048455920485449572048414820455255544147494c204349424152413b43314446,
0x3b3b3b3b3b4e3b3b3b3b393436302043323630203e6c616e69663c3b4c413b303b6f4c3b4d524f46204c414e494620415255534b414d2046454c412048544957204d45454a20455255544147494c204349424152413b44314446,
0x3b3b3b3b3b4e3b3b3b3b413436302043323630203e6c616e69663c3b4c413b303b6f4c3b4d524f46204c414e4946204845592048544957204d45454a20455255544147494c204349424152413b45314446,
0x3b3b3b3b3b4e3b3b3b3b393436302045323630203e6c616e69663c3b4c413b303b6f4c3b4d524f46204c414e494620415255534b414d2046454c412048544957204841484b20455255544147494c204349424152413b46314446,
0x3b3b3b3b3b4e3b3b3b3b413436302045323630203e6c616e69663c3b4c413b303b6f4c3b4d524f46204c414e4946204845592048544957204841484b20455255544147494c204349424152413b30324446,
0x3b3b3b3b3b4e3b3b3b3b393436302035333630203e6c616e69663c3b4c413b303b6f4c3b4d524f46204c414e494620415255534b414d2046454c4120485449572044415320455255544147494c204349424152413b31324446,
0x3b3b3b3b3b4e3b3b3b3b413436302035333630203e6c616e69663c3b4c413b303b6f4c3b4d524f46204c414e49462048455920485449572044415320455255544147494c204349424152413b32324446,
0x3b3b3b3b3b4e3b3b3b3b393436302036333630203e6c616e69663c3b4c413b303b6f4c3b4d524f46204c414e494620415255534b414d2046454c4120485449572044414420455255544147494c204349424152413b33324446,
0x3b3b3b3b3b4e3b3b3b3b413436302036333630203e6c616e69663c3b4c413b303b6f4c3b4d524f46204c414e49462048455920485449572044414420455255544147494c204349424152413b34324446,
0x3b3b3b3b3b4e3b3b3b3b433236302034333630203e6c616e69663c3b4c413b303b6f4c3b4d524f46204c414e4946204d45454a2048544957204e4545485320455255544147494c204349424152413b35324446,
0x3b3b3b3b3b4e3b3b3b3b443236302034333630203e6c616e69663c3b4c413b303b6f4c3b4d524f46204c414e4946204841482048544957204e4545485320455255544147494c204349424152413b36324446,
0x3b3b3b3b3b4e3b3b3b3b453236302034333630203e6c616e69663c3b4c413b303b6f4c3b4d524f46204c414e4946204841484b2048544957204e4545485320455255544147494c204349424152413b37324446,
0x3b3b3b3b3b4e3b3b3b3b353436302034333630203e6c616e69663c3b4c413b303b6f4c3b4d524f46204c414e4946204d45454d2048544957204e4545485320455255544147494c204349424152413b38324446,
0x3b3b3b3b3b4e3b3b3b3b313336302034333630203e6c616e69663c3b4c413b303b6f4c3b4d524f46204c414e4946204845522048544957204e4545485320455255544147494c204349424152413b39324446,
0x3b3b3b3b3b4e3b3b3b3b313336302033333630203e6c616e69663c3b4c413b303b6f4c3b4d524f46204c414e4946204845522048544957204e45455320455255544147494c204349424152413b41324446,
0x3b3b3b3b3b4e3b3b3b3b313336302035333630203e6c616e69663c3b4c413b303b6f4c3b4d524f46204c414e49462048455220485449572044415320455255544147494c204349424152413b42324446,
0x3b3b3b3b3b4e3b3b3b3b313336302036333630203e6c616e69663c3b4c413b303b6f4c3b4d524f46204c414e49462048455220485449572044414420455255544147494c204349424152413b43324446,
0x3b3b3b3b3b4e3b3b3b3b433236302034333630203e6c616974696e693c3b4c413b303b6f4c3b4d524f46204c414954494e49204d45454a2048544957204e4545485320455255544147494c204349424152413b44324446,
0x3b3b3b3b3b4e3b3b3b3b443236302034333630203e6c616974696e693c3b4c413b303b6f4c3b4d524f46204c414954494e49204841482048544957204e4545485320455255544147494c204349424152413b45324446,
0x3b3b3b3b3b4e3b3b3b3b453236302034333630203e6c616974696e693c3b4c413b303b6f4c3b4d524f46204c414954494e49204841484b2048544957204e4545485320455255544147494c204349424152413b46324446,
0x3b3b3b3b3b4e3b3b3b3b353436302034333630203e6c616974696e693c3b4c413b303b6f4c3b4d524f46204c414954494e49204d45454d2048544957204e4545485320455255544147494c204349424152413b30334446,
0x3b3b3b3b3b4e3b3b3b3b373436302033333630203e6c616974696e693c3b4c413b303b6f4c3b4d524f46204c414954494e49204845482048544957204e45455320455255544147494c204349424152413b31334446,
0x3b3b3b3b3b4e3b3b3b3b373436302034333630203e6c616974696e693c3b4c413b303b6f4c3b4d524f46204c414954494e49204845482048544957204e4545485320455255544147494c204349424152413b32334446,
0x3b3b3b3b3b4e3b3b3b3b353436302037333630203e6c616974696e693c3b4c413b303b6f4c3b4d524f46204c414954494e49204d45454d20485449572048415420455255544147494c204349424152413b33334446,
0x3b3b3b3b3b4e3b3b3b3b433236302033333630203e6c616964656d3c3b4c413b303b6f4c3b4d524f46204c414944454d204d45454a2048544957204e45455320455255544147494c204349424152413b34334446,
0x3b3b3b3b3b4e3b3b3b3b443236302033333630203e6c616964656d3c3b4c413b303b6f4c3b4d524f46204c414944454d204841482048544957204e45455320455255544147494c204349424152413b35334446,
0x3b3b3b3b3b4e3b3b3b3b453236302033333630203e6c616964656d3c3b4c413b303b6f4c3b4d524f46204c414944454d204841484b2048544957204e45455320455255544147494c204349424152413b36334446,
0x3b3b3b3b3b4e3b3b3b3b433236302034333630203e6c616964656d3c3b4c413b303b6f4c3b4d524f46204c414944454d204d45454a2048544957204e4545485320455255544147494c204349424152413b37334446,
0x3b3b3b3b3b4e3b3b3b3b443236302034333630203e6c616964656d3c3b4c413b303b6f4c3b4d524f46204c414944454d204841482048544957204e4545485320455255544147494c204349424152413b38334446,
0x3b3b3b3b3b4e3b3b3b3b453236302034333630203e6c616964656d3c3b4c413b303b6f4c3b4d524f46204c414944454d204841484b2048544957204e4545485320455255544147494c204349424152413b39334446,
0x3b3b3b3b3b4e3b3b3b3b353436302037333630203e6c616964656d3c3b4c413b303b6f4c3b4d524f46204c414944454d204d45454d20485449572048415420455255544147494c204349424152413b41334446,
0x3b3b3b3b3b4e3b3b3b3b353436302038333630203e6c616964656d3c3b4c413b303b6f4c3b4d524f46204c414944454d204d45454d20485449572048415a20455255544147494c204349424152413b42334446,
0x3b3b3b3b3b4e3b3b3b3b423436302037323630203e6c616e69663c3b4c413b303b6f4c3b4d524f46204c414e4946204e4154414854414620485449572046454c4120455255544147494c204349424152413b43334446,
0x3b3b3b3b3b4e3b3b3b3b423436302037323630203e646574616c6f73693c3b4c413b303b6f4c3b4d524f4620444554414c4f5349204e4154414854414620485449572046454c4120455255544147494c204349424152413b44334446,
0x3b3b3b3b3b4e3b3b3b3b3b4e4f3b303b65503b5349534548544e45524150205446454c204554414e524f3b45334446,
0x3b3b3b3b3b4e3b3b3b3b3b4e4f3b303b73503b5349534548544e45524150205448474952204554414e524f3b46334446,
0x3b3b3b3b3b4e3b3b3b3b3534363020433236302041323630203e6c616974696e693c3b4c413b303b6f4c3b4d524f46204c414954494e49204d45454d2048544957204d45454a20485449572048455420455255544147494c204349424152413b30354446,
0x3b3b3b3b3b4e3b3b3b3b4332363020443236302041323630203e6c616e69663c3b4c413b303b6f4c3b4d524f46204c414e4946204d45454a20485449572048414820485449572048455420455255544147494c204349424152413b31354446,
0x3b3b3b3b3b4e3b3b3b3b4332363020443236302041323630203e6c616974696e693c3b4c413b303b6f4c3b4d524f46204c414954494e49204d45454a20485449572048414820485449572048455420455255544147494c204349424152413b32354446,
0x3b3b3b3b3b4e3b3b3b3b3534363020443236302041323630203e6c616974696e693c3b4c413b303b6f4c3b4d524f46204c414954494e49204d45454d20485449572048414820485449572048455420455255544147494c204349424152413b33354446,
0x3b3b3b3b3b4e3b3b3b3b3534363020453236302041323630203e6c616974696e693c3b4c413b303b6f4c3b4d524f46204c414954494e49204d45454d2048544957204841484b20485449572048455420455255544147494c204349424152413b34354446,
0x3b3b3b3b3b4e3b3b3b3b4332363020353436302041323630203e6c616974696e693c3b4c413b303b6f4c3b4d524f46204c414954494e49204d45454a2048544957204d45454d20485449572048455420455255544147494c204349424152413b35354446,
0x3b3b3b3b3b4e3b3b3b3b4432363020353436302041323630203e6c616974696e693c3b4c413b303b6f4c3b4d524f46204c414954494e49204841482048544957204d45454d20485449572048455420455255544147494c204349424152413b36354446,
0x3b3b3b3b3b4e3b3b3b3b4532363020353436302041323630203e6c616974696e693c3b4c413b303b6f4c3b4d524f46204c414954494e49204841484b2048544957204d45454d20485449572048455420455255544147494c204349424152413b37354446,
0x3b3b3b3b3b4e3b3b3b3b4432363020353436302043323630203e6c616e69663c3b4c413b303b6f4c3b4d524f46204c414e4946204841482048544957204d45454d2048544957204d45454a20455255544147494c204349424152413b38354446,
0x3b3b3b3b3b4e3b3b3b3b4432363020353436302043323630203e6c616974696e693c3b4c413b303b6f4c3b4d524f46204c414954494e49204841482048544957204d45454d2048544957204d45454a20455255544147494c204349424152413b39354446,
0x3b3b3b3b3b4e3b3b3b3b4134363020353436302044323630203e6c616e69663c3b4c413b303b6f4c3b4d524f46204c414e4946204845592048544957204d45454d20485449572048414820455255544147494c204349424152413b41354446,
0x3b3b3b3b3b4e3b3b3b3b3934363020353436302044323630203e6c616e69663c3b4c413b303b6f4c3b4d524f46204c414e494620415255534b414d2046454c412048544957204d45454d20485449572048414820455255544147494c204349424152413b42354446,
0x3b3b3b3b3b4e3b3b3b3b4332363020443236302033333630203e6c616974696e693c3b4c413b303b6f4c3b4d524f46204c414954494e49204d45454a2048544957204841482048544957204e45455320455255544147494c204349424152413b43354446,
0x3b3b3b3b3b4e3b3b3b3b4432363020433236302033333630203e6c616974696e693c3b4c413b303b6f4c3b4d524f46204c414954494e49204841482048544957204d45454a2048544957204e45455320455255544147494c204349424152413b44354446,
0x3b3b3b3b3b4e3b3b3b3b3934363020433236302033333630203e6c616e69663c3b4c413b303b6f4c3b4d524f46204c414e494620415255534b414d2046454c412048544957204d45454a2048544957204e45455320455255544147494c204349424152413b45354446,
0x3b3b3b3b3b4e3b3b3b3b4432363020353436302033333630203e6c616e69663c3b4c413b303b6f4c3b4d524f46204c414e4946204841482048544957204d45454d2048544957204e45455320455255544147494c204349424152413b46354446,
0x3b3b3b3b3b4e3b3b3b3b4432363020353436302033333630203e6c616974696e693c3b4c413b303b6f4c3b4d524f46204c414954494e49204841482048544957204d45454d2048544957204e45455320455255544147494c204349424152413b30364446,
0x3b3b3b3b3b4e3b3b3b3b4332363020353436302033333630203e6c616974696e693c3b4c413b303b6f4c3b4d524f46204c414954494e49204d45454a2048544957204d45454d2048544957204e45455320455255544147494c204349424152413b31364446,
0x3b3b3b3b3b4e3b3b3b3b3534363020353436302033333630203e6c616e69663c3b4c413b303b6f4c3b4d524f46204c414e4946204d45454d2048544957204d45454d2048544957204e45455320455255544147494c204349424152413b32364446,
0x3b3b3b3b3b4e3b3b3b3b3534363020353436302033333630203e6c616974696e693c3b4c413b303b6f4c3b4d524f46204c414954494e49204d45454d2048544957204d45454d2048544957204e45455320455255544147494c204349424152413b33364446,
0x3b3b3b3b3b4e3b3b3b3b4432363020443236302035333630203e6c616e69663c3b4c413b303b6f4c3b4d524f46204c414e49462048414820485449572048414820485449572044415320455255544147494c204349424152413b34364446,
0x3b3b3b3b3b4e3b3b3b3b4432363020443236302035333630203e6c616974696e693c3b4c413b303b6f4c3b4d524f46204c414954494e492048414820485449572048414820485449572044415320455255544147494c204349424152413b35364446,
0x3b3b3b3b3b4e3b3b3b3b3534363020353436302035333630203e6c616e69663c3b4c413b303b6f4c3b4d524f46204c414e4946204d45454d2048544957204d45454d20485449572044415320455255544147494c204349424152413b36364446,
0x3b3b3b3b3b4e3b3b3b3b3534363020443236302034333630203e6c616e69663c3b4c413b303b6f4c3b4d524f46204c414e4946204d45454d2048544957204841482048544957204e4545485320455255544147494c204349424152413b37364446,
0x3b3b3b3b3b4e3b3b3b3b3534363020443236302034333630203e6c616974696e693c3b4c413b303b6f4c3b4d524f46204c414954494e49204d45454d2048544957204841482048544957204e4545485320455255544147494c204349424152413b38364446,
0x3b3b3b3b3b4e3b3b3b3b4134363020433236302034333630203e6c616e69663c3b4c413b303b6f4c3b4d524f46204c414e4946204845592048544957204d45454a2048544957204e4545485320455255544147494c204349424152413b39364446,
0x3b3b3b3b3b4e3b3b3b3b4532363020353436302034333630203e6c616e69663c3b4c413b303b6f4c3b4d524f46204c414e4946204841484b2048544957204d45454d2048544957204e4545485320455255544147494c204349424152413b41364446,
0x3b3b3b3b3b4e3b3b3b3b4532363020353436302034333630203e6c616974696e693c3b4c413b303b6f4c3b4d524f46204c414954494e49204841484b2048544957204d45454d2048544957204e4545485320455255544147494c204349424152413b42364446,
0x3b3b3b3b3b4e3b3b3b3b3534363020353436302034333630203e6c616e69663c3b4c413b303b6f4c3b4d524f46204c414e4946204d45454d2048544957204d45454d2048544957204e4545485320455255544147494c204349424152413b43364446,
0x3b3b3b3b3b4e3b3b3b3b3534363020353436302034333630203e6c616974696e693c3b4c413b303b6f4c3b4d524f46204c414954494e49204d45454d2048544957204d45454d2048544957204e4545485320455255544147494c204349424152413b44364446,
0x3b3b3b3b3b4e3b3b3b3b3934363020443236302036333630203e6c616e69663c3b4c413b303b6f4c3b4d524f46204c414e494620415255534b414d2046454c4120485449572048414820485449572044414420455255544147494c204349424152413b45364446,
0x3b3b3b3b3b4e3b3b3b3b3534363020453236302036333630203e6c616e69663c3b4c413b303b6f4c3b4d524f46204c414e4946204d45454d2048544957204841484b20485449572044414420455255544147494c204349424152413b46364446,
0x3b3b3b3b3b4e3b3b3b3b3534363020453236302036333630203e6c616974696e693c3b4c413b303b6f4c3b4d524f46204c414954494e49204d45454d2048544957204841484b20485449572044414420455255544147494c204349424152413b30374446,
0x3b3b3b3b3b4e3b3b3b3b4432363020353436302037333630203e6c616e69663c3b4c413b303b6f4c3b4d524f46204c414e4946204841482048544957204d45454d20485449572048415420455255544147494c204349424152413b31374446,
0x3b3b3b3b3b4e3b3b3b3b4432363020353436302037333630203e6c616974696e693c3b4c413b303b6f4c3b4d524f46204c414954494e49204841482048544957204d45454d20485449572048415420455255544147494c204349424152413b32374446,
0x3b3b3b3b3b4e3b3b3b3b3534363020353436302037333630203e6c616974696e693c3b4c413b303b6f4c3b4d524f46204c414954494e49204d45454d2048544957204d45454d20485449572048415420455255544147494c204349424152413b33374446,
0x3b3b3b3b3b4e3b3b3b3b4134363020353436302037333630203e6c616e69663c3b4c413b303b6f4c3b4d524f46204c414e4946204845592048544957204d45454d20485449572048415420455255544147494c204349424152413b34374446,
0x3b3b3b3b3b4e3b3b3b3b3534363020433236302039333630203e6c616e69663c3b4c413b303b6f4c3b4d524f46204c414e4946204d45454d2048544957204d45454a2048544957204e494120455255544147494c204349424152413b35374446,
0x3b3b3b3b3b4e3b3b3b3b3534363020353436302039333630203e6c616e69663c3b4c413b303b6f4c3b4d524f46204c414e4946204d45454d2048544957204d45454d2048544957204e494120455255544147494c204349424152413b36374446,
0x3b3b3b3b3b4e3b3b3b3b3534363020353436302039333630203e6c616974696e693c3b4c413b303b6f4c3b4d524f46204c414954494e49204d45454d2048544957204d45454d2048544957204e494120455255544147494c204349424152413b37374446,
0x3b3b3b3b3b4e3b3b3b3b3934363020353436302039333630203e6c616e69663c3b4c413b303b6f4c3b4d524f46204c414e494620415255534b414d2046454c412048544957204d45454d2048544957204e494120455255544147494c204349424152413b38374446,
0x3b3b3b3b3b4e3b3b3b3b3534363020353436302041333630203e6c616e69663c3b4c413b303b6f4c3b4d524f46204c414e4946204d45454d2048544957204d45454d2048544957204e4941484720455255544147494c204349424152413b39374446,
0x3b3b3b3b3b4e3b3b3b3b4134363020353436302041333630203e6c616e69663c3b4c413b303b6f4c3b4d524f46204c414e4946204845592048544957204d45454d2048544957204e4941484720455255544147494c204349424152413b41374446,
0x3b3b3b3b3b4e3b3b3b3b3934363020353436302041333630203e6c616e69663c3b4c413b303b6f4c3b4d524f46204c414e494620415255534b414d2046454c412048544957204d45454d2048544957204e4941484720455255544147494c204349424152413b42374446,
0x3b3b3b3b3b4e3b3b3b3b3534363020453236302031343630203e6c616e69663c3b4c413b303b6f4c3b4d524f46204c414e4946204d45454d2048544957204841484b20485449572048454620455255544147494c204349424152413b43374446,
0x3b3b3b3b3b4e3b3b3b3b3534363020453236302031343630203e6c616974696e693c3b4c413b303b6f4c3b4d524f46204c414954494e49204d45454d2048544957204841484b20485449572048454620455255544147494c204349424152413b44374446,
0x3b3b3b3b3b4e3b3b3b3b4432363020353436302032343630203e6c616e69663c3b4c413b303b6f4c3b4d524f46204c414e4946204841482048544957204d45454d20485449572046415120455255544147494c204349424152413b45374446,
0x3b3b3b3b3b4e3b3b3b3b3534363020353436302032343630203e6c616e69663c3b4c413b303b6f4c3b4d524f46204c414e4946204d45454d2048544957204d45454d20485449572046415120455255544147494c204349424152413b46374446,
0x3b3b3b3b3b4e3b3b3b3b3534363020443236302034343630203e6c616e69663c3b4c413b303b6f4c3b4d524f46204c414e4946204d45454d2048544957204841482048544957204d414c20455255544147494c204349424152413b30384446,
0x3b3b3b3b3b4e3b3b3b3b4134363020443236302034343630203e6c616e69663c3b4c413b303b6f4c3b4d524f46204c414e4946204845592048544957204841482048544957204d414c20455255544147494c204349424152413b31384446,
0x3b3b3b3b3b4e3b3b3b3b3934363020443236302034343630203e6c616e69663c3b4c413b303b6f4c3b4d524f46204c414e494620415255534b414d2046454c412048544957204841482048544957204d414c20455255544147494c204349424152413b32384446,
0x3b3b3b3b3b4e3b3b3b3b4332363020433236302034343630203e6c616974696e693c3b4c413b303b6f4c3b4d524f46204c414954494e49204d45454a2048544957204d45454a2048544957204d414c20455255544147494c204349424152413b33384446,
0x3b3b3b3b3b4e3b3b3b3b4332363020433236302034343630203e6c616e69663c3b4c413b303b6f4c3b4d524f46204c414e4946204d45454a2048544957204d45454a2048544957204d414c20455255544147494c204349424152413b34384446,
0x3b3b3b3b3b4e3b3b3b3b3534363020453236302034343630203e6c616e69663c3b4c413b303b6f4c3b4d524f46204c414e4946204d45454d2048544957204841484b2048544957204d414c20455255544147494c204349424152413b35384446,
0x3b3b3b3b3b4e3b3b3b3b3534363020453236302034343630203e6c616974696e693c3b4c413b303b6f4c3b4d524f46204c414954494e49204d45454d2048544957204841484b2048544957204d414c20455255544147494c204349424152413b36384446,
0x3b3b3b3b3b4e3b3b3b3b4432363020353436302034343630203e6c616e69663c3b4c413b303b6f4c3b4d524f46204c414e4946204841482048544957204d45454d2048544957204d414c20455255544147494c204349424152413b37384446,
0x3b3b3b3b3b4e3b3b3b3b4432363020353436302034343630203e6c616974696e693c3b4c413b303b6f4c3b4d524f46204c414954494e49204841482048544957204d45454d2048544957204d414c20455255544147494c204349424152413b38384446,
0x3b3b3b3b3b4e3b3b3b3b4332363020443236302035343630203e6c616974696e693c3b4c413b303b6f4c3b4d524f46204c414954494e49204d45454a2048544957204841482048544957204d45454d20455255544147494c204349424152413b39384446,
0x3b3b3b3b3b4e3b3b3b3b3534363020443236302035343630203e6c616974696e693c3b4c413b303b6f4c3b4d524f46204c414954494e49204d45454d2048544957204841482048544957204d45454d20455255544147494c204349424152413b41384446,
0x3b3b3b3b3b4e3b3b3b3b4134363020443236302035343630203e6c616e69663c3b4c413b303b6f4c3b4d524f46204c414e4946204845592048544957204841482048544957204d45454d20455255544147494c204349424152413b42384446,
0x3b3b3b3b3b4e3b3b3b3b4432363020433236302035343630203e6c616974696e693c3b4c413b303b6f4c3b4d524f46204c414954494e49204841482048544957204d45454a2048544957204d45454d20455255544147494c204349424152413b43384446,
0x3b3b3b3b3b4e3b3b3b3b3534363020433236302035343630203e6c616974696e693c3b4c413b303b6f4c3b4d524f46204c414954494e49204d45454d2048544957204d45454a2048544957204d45454d20455255544147494c204349424152413b44384446,
0x3b3b3b3b3b4e3b3b3b3b4332363020453236302035343630203e6c616974696e693c3b4c413b303b6f4c3b4d524f46204c414954494e49204d45454a2048544957204841484b2048544957204d45454d20455255544147494c204349424152413b45384446,
0x3b3b3b3b3b4e3b3b3b3b3534363020453236302035343630203e6c616974696e693c3b4c413b303b6f4c3b4d524f46204c414954494e49204d45454d2048544957204841484b2048544957204d45454d20455255544147494c204349424152413b46384446,
0x3b3b3b3b3b4e3b3b3b3b4532363020433236302035343630203e6c616974696e693c3b4c413b303b6f4c3b4d524f46204c414954494e49204841484b2048544957204d45454a2048544957204d45454d20455255544147494c204349424152413b32394446,
0x3b3b3b3b3b4e3b3b3b3b4332363020353436302037343630203e6c616974696e693c3b4c413b303b6f4c3b4d524f46204c414954494e49204d45454a2048544957204d45454d20485449572048454820455255544147494c204349424152413b33394446,
0x3b3b3b3b3b4e3b3b3b3b3534363020353436302037343630203e6c616974696e693c3b4c413b303b6f4c3b4d524f46204c414954494e49204d45454d2048544957204d45454d20485449572048454820455255544147494c204349424152413b34394446,
0x3b3b3b3b3b4e3b3b3b3b3534363020443236302036343630203e6c616974696e693c3b4c413b303b6f4c3b4d524f46204c414954494e49204d45454d2048544957204841482048544957204e4f4f4e20455255544147494c204349424152413b35394446,
0x3b3b3b3b3b4e3b3b3b3b3934363020443236302036343630203e6c616e69663c3b4c413b303b6f4c3b4d524f46204c414e494620415255534b414d2046454c412048544957204841482048544957204e4f4f4e20455255544147494c204349424152413b36394446,
0x3b3b3b3b3b4e3b3b3b3b3534363020433236302036343630203e6c616e69663c3b4c413b303b6f4c3b4d524f46204c414e4946204d45454d2048544957204d45454a2048544957204e4f4f4e20455255544147494c204349424152413b37394446,
0x3b3b3b3b3b4e3b3b3b3b3534363020433236302036343630203e6c616974696e693c3b4c413b303b6f4c3b4d524f46204c414954494e49204d45454d2048544957204d45454a2048544957204e4f4f4e20455255544147494c204349424152413b38394446,
0x3b3b3b3b3b4e3b3b3b3b3934363020433236302036343630203e6c616e69663c3b4c413b303b6f4c3b4d524f46204c414e494620415255534b414d2046454c412048544957204d45454a2048544957204e4f4f4e20455255544147494c204349424152413b39394446,
0x3b3b3b3b3b4e3b3b3b3b4134363020353436302036343630203e6c616e69663c3b4c413b303b6f4c3b4d524f46204c414e4946204845592048544957204d45454d2048544957204e4f4f4e20455255544147494c204349424152413b41394446,
0x3b3b3b3b3b4e3b3b3b3b3934363020353436302036343630203e6c616e69663c3b4c413b303b6f4c3b4d524f46204c414e494620415255534b414d2046454c412048544957204d45454d2048544957204e4f4f4e20455255544147494c204349424152413b42394446,
0x3b3b3b3b3b4e3b3b3b3b3534363020353436302041343630203e6c616e69663c3b4c413b303b6f4c3b4d524f46204c414e4946204d45454d2048544957204d45454d20485449572048455920455255544147494c204349424152413b43394446,
0x3b3b3b3b3b4e3b3b3b3b3534363020353436302041343630203e6c616974696e693c3b4c413b303b6f4c3b4d524f46204c414954494e49204d45454d2048544957204d45454d20485449572048455920455255544147494c204349424152413b44394446,
0x3b3b3b3b3b4e3b3b3b3b4134363020453236302038323630203e6c616e69663c3b4c413b303b6f4c3b4d524f46204c414e4946204845592048544957204841484b20485449572048454220455255544147494c204349424152413b45394446,
0x3b3b3b3b3b4e3b3b3b3b4134363020433236302041323630203e6c616e69663c3b4c413b303b6f4c3b4d524f46204c414e4946204845592048544957204d45454a20485449572048455420455255544147494c204349424152413b46394446,
0x3b3b3b3b3b4e3b3b3b3b3934363020433236302041323630203e6c616e69663c3b4c413b303b6f4c3b4d524f46204c414e494620415255534b414d2046454c412048544957204d45454a20485449572048455420455255544147494c204349424152413b30414446,
0x3b3b3b3b3b4e3b3b3b3b4134363020453236302041323630203e6c616e69663c3b4c413b303b6f4c3b4d524f46204c414e4946204845592048544957204841484b20485449572048455420455255544147494c204349424152413b31414446,
0x3b3b3b3b3b4e3b3b3b3b3934363020453236302041323630203e6c616e69663c3b4c413b303b6f4c3b4d524f46204c414e494620415255534b414d2046454c412048544957204841484b20485449572048455420455255544147494c204349424152413b32414446,
0x3b3b3b3b3b4e3b3b3b3b4134363020353436302041323630203e6c616e69663c3b4c413b303b6f4c3b4d524f46204c414e4946204845592048544957204d45454d20485449572048455420455255544147494c204349424152413b33414446,
0x3b3b3b3b3b4e3b3b3b3b3934363020353436302041323630203e6c616e69663c3b4c413b303b6f4c3b4d524f46204c414e494620415255534b414d2046454c412048544957204d45454d20485449572048455420455255544147494c204349424152413b34414446,
0x3b3b3b3b3b4e3b3b3b3b4134363020353436302043323630203e6c616e69663c3b4c413b303b6f4c3b4d524f46204c414e4946204845592048544957204d45454d2048544957204d45454a20455255544147494c204349424152413b35414446,
0x3b3b3b3b3b4e3b3b3b3b3934363020443236302043323630203e6c616e69663c3b4c413b303b6f4c3b4d524f46204c414e494620415255534b414d2046454c412048544957204841482048544957204d45454a20455255544147494c204349424152413b36414446,
0x3b3b3b3b3b4e3b3b3b3b3934363020353436302043323630203e6c616e69663c3b4c413b303b6f4c3b4d524f46204c414e494620415255534b414d2046454c412048544957204d45454d2048544957204d45454a20455255544147494c204349424152413b37414446,
0x3b3b3b3b3b4e3b3b3b3b3934363020453236302033333630203e6c616e69663c3b4c413b303b6f4c3b4d524f46204c414e494620415255534b414d2046454c412048544957204841484b2048544957204e45455320455255544147494c204349424152413b38414446,
0x3b3b3b3b3b4e3b3b3b3b4134363020443236302035333630203e6c616e69663c3b4c413b303b6f4c3b4d524f46204c414e49462048455920485449572048414820485449572044415320455255544147494c204349424152413b39414446,
0x3b3b3b3b3b4e3b3b3b3b4134363020443236302034333630203e6c616e69663c3b4c413b303b6f4c3b4d524f46204c414e4946204845592048544957204841482048544957204e4545485320455255544147494c204349424152413b41414446,
0x3b3b3b3b3b4e3b3b3b3b4134363020443236302036333630203e6c616e69663c3b4c413b303b6f4c3b4d524f46204c414e49462048455920485449572048414820485449572044414420455255544147494c204349424152413b42414446,
0x3b3b3b3b3b4e3b3b3b3b4134363020433236302034343630203e6c616e69663c3b4c413b303b6f4c3b4d524f46204c414e4946204845592048544957204d45454a2048544957204d414c20455255544147494c204349424152413b43414446,
0x3b3b3b3b3b4e3b3b3b3b4134363020353436302034343630203e6c616e69663c3b4c413b303b6f4c3b4d524f46204c414e4946204845592048544957204d45454d2048544957204d414c20455255544147494c204349424152413b44414446,
0x3b3b3b3b3b4e3b3b3b3b4134363020443236302041343630203e6c616e69663c3b4c413b303b6f4c3b4d524f46204c414e49462048455920485449572048414820485449572048455920455255544147494c204349424152413b45414446,
0x3b3b3b3b3b4e3b3b3b3b4134363020433236302041343630203e6c616e69663c3b4c413b303b6f4c3b4d524f46204c414e4946204845592048544957204d45454a20485449572048455920455255544147494c204349424152413b46414446,
0x3b3b3b3b3b4e3b3b3b3b4134363020353436302041343630203e6c616e69663c3b4c413b303b6f4c3b4d524f46204c414e4946204845592048544957204d45454d20485449572048455920455255544147494c204349424152413b30424446,
0x3b3b3b3b3b4e3b3b3b3b4134363020353436302035343630203e6c616e69663c3b4c413b303b6f4c3b4d524f46204c414e4946204845592048544957204d45454d2048544957204d45454d20455255544147494c204349424152413b31424446,
0x3b3b3b3b3b4e3b3b3b3b4134363020353436302032343630203e6c616e69663c3b4c413b303b6f4c3b4d524f46204c414e4946204845592048544957204d45454d20485449572046415120455255544147494c204349424152413b32424446,
0x3b3b3b3b3b4e3b3b3b3b4134363020443236302036343630203e6c616e69663c3b4c413b303b6f4c3b4d524f46204c414e4946204845592048544957204841482048544957204e4f4f4e20455255544147494c204349424152413b33424446,
0x3b3b3b3b3b4e3b3b3b3b4432363020353436302032343630203e6c616974696e693c3b4c413b303b6f4c3b4d524f46204c414954494e49204841482048544957204d45454d20485449572046415120455255544147494c204349424152413b34424446,
0x3b3b3b3b3b4e3b3b3b3b3534363020443236302034343630203e6c616974696e693c3b4c413b303b6f4c3b4d524f46204c414954494e49204d45454d2048544957204841482048544957204d414c20455255544147494c204349424152413b35424446,
0x3b3b3b3b3b4e3b3b3b3b4134363020353436302039333630203e6c616e69663c3b4c413b303b6f4c3b4d524f46204c414e4946204845592048544957204d45454d2048544957204e494120455255544147494c204349424152413b36424446,
0x3b3b3b3b3b4e3b3b3b3b4134363020353436302033343630203e6c616e69663c3b4c413b303b6f4c3b4d524f46204c414e4946204845592048544957204d45454d20485449572046414b20455255544147494c204349424152413b37424446,
0x3b3b3b3b3b4e3b3b3b3b4432363020433236302036343630203e6c616974696e693c3b4c413b303b6f4c3b4d524f46204c414954494e49204841482048544957204d45454a2048544957204e4f4f4e20455255544147494c204349424152413b38424446,
0x3b3b3b3b3b4e3b3b3b3b4134363020453236302035343630203e6c616e69663c3b4c413b303b6f4c3b4d524f46204c414e4946204845592048544957204841484b2048544957204d45454d20455255544147494c204349424152413b39424446,
0x3b3b3b3b3b4e3b3b3b3b3534363020433236302034343630203e6c616974696e693c3b4c413b303b6f4c3b4d524f46204c414954494e49204d45454d2048544957204d45454a2048544957204d414c20455255544147494c204349424152413b41424446,
0x3b3b3b3b3b4e3b3b3b3b3534363020353436302033343630203e6c616e69663c3b4c413b303b6f4c3b4d524f46204c414e4946204d45454d2048544957204d45454d20485449572046414b20455255544147494c204349424152413b42424446,
0x3b3b3b3b3b4e3b3b3b3b3534363020433236302034343630203e6c616e69663c3b4c413b303b6f4c3b4d524f46204c414e4946204d45454d2048544957204d45454a2048544957204d414c20455255544147494c204349424152413b43424446,
0x3b3b3b3b3b4e3b3b3b3b4432363020433236302036343630203e6c616e69663c3b4c413b303b6f4c3b4d524f46204c414e4946204841482048544957204d45454a2048544957204e4f4f4e20455255544147494c204349424152413b44424446,
0x3b3b3b3b3b4e3b3b3b3b4134363020443236302043323630203e6c616e69663c3b4c413b303b6f4c3b4d524f46204c414e4946204845592048544957204841482048544957204d45454a20455255544147494c204349424152413b45424446,
0x3b3b3b3b3b4e3b3b3b3b4134363020433236302044323630203e6c616e69663c3b4c413b303b6f4c3b4d524f46204c414e4946204845592048544957204d45454a20485449572048414820455255544147494c204349424152413b46424446,
0x3b3b3b3b3b4e3b3b3b3b4134363020433236302035343630203e6c616e69663c3b4c413b303b6f4c3b4d524f46204c414e4946204845592048544957204d45454a2048544957204d45454d20455255544147494c204349424152413b30434446,
0x3b3b3b3b3b4e3b3b3b3b4134363020353436302031343630203e6c616e69663c3b4c413b303b6f4c3b4d524f46204c414e4946204845592048544957204d45454d20485449572048454620455255544147494c204349424152413b31434446,
0x3b3b3b3b3b4e3b3b3b3b4134363020443236302038323630203e6c616e69663c3b4c413b303b6f4c3b4d524f46204c414e49462048455920485449572048414820485449572048454220455255544147494c204349424152413b32434446,
0x3b3b3b3b3b4e3b3b3b3b3534363020353436302033343630203e6c616974696e693c3b4c413b303b6f4c3b4d524f46204c414954494e49204d45454d2048544957204d45454d20485449572046414b20455255544147494c204349424152413b33434446,
0x3b3b3b3b3b4e3b3b3b3b3534363020433236302039333630203e6c616974696e693c3b4c413b303b6f4c3b4d524f46204c414954494e49204d45454d2048544957204d45454a2048544957204e494120455255544147494c204349424152413b34434446,
0x3b3b3b3b3b4e3b3b3b3b3534363020353436302035333630203e6c616974696e693c3b4c413b303b6f4c3b4d524f46204c414954494e49204d45454d2048544957204d45454d20485449572044415320455255544147494c204349424152413b35434446,
0x3b3b3b3b3b4e3b3b3b3b4134363020453236302033333630203e6c616e69663c3b4c413b303b6f4c3b4d524f46204c414e4946204845592048544957204841484b2048544957204e45455320455255544147494c204349424152413b36434446,
0x3b3b3b3b3b4e3b3b3b3b4134363020433236302036343630203e6c616e69663c3b4c413b303b6f4c3b4d524f46204c414e4946204845592048544957204d45454a2048544957204e4f4f4e20455255544147494c204349424152413b37434446,
0x3b3b3b3b3b4e3b3b3b3b3244363020343436302035333630203e646574616c6f73693c3b4c413b303b6f4c3b4d524f4620444554414c4f5349204e47495320504f54532043494e41524f4b205341204445535520414c4c415320455255544147494c204349424152413b30464446,
0x3b3b3b3b3b4e3b3b3b3b3244363020343436302032343630203e646574616c6f73693c3b4c413b303b6f4c3b4d524f4620444554414c4f5349204e47495320504f54532043494e41524f4b205341204445535520414c415120455255544147494c204349424152413b31464446,
0x3b3b3b3b3b4e3b3b3b3b37343630203434363020343436302037323630203e646574616c6f73693c3b4c413b303b6f4c3b4d524f4620444554414c4f53492048414c4c4120455255544147494c204349424152413b32464446,
0x3b3b3b3b3b4e3b3b3b3b31333630203832363020333436302037323630203e646574616c6f73693c3b4c413b303b6f4c3b4d524f4620444554414c4f5349205241424b4120455255544147494c204349424152413b33464446,
0x3b3b3b3b3b4e3b3b3b3b46323630203534363020443236302035343630203e646574616c6f73693c3b4c413b303b6f4c3b4d524f4620444554414c4f53492044414d4d41484f4d20455255544147494c204349424152413b34464446,
0x3b3b3b3b3b4e3b3b3b3b35343630203933363020343436302035333630203e646574616c6f73693c3b4c413b303b6f4c3b4d524f4620444554414c4f5349204d414c415320455255544147494c204349424152413b35464446,
0x3b3b3b3b3b4e3b3b3b3b34343630203834363020333336302031333630203e646574616c6f73693c3b4c413b303b6f4c3b4d524f4620444554414c4f5349204c554f53415220455255544147494c204349424152413b36464446,
0x3b3b3b3b3b4e3b3b3b3b37343630204134363020343436302039333630203e646574616c6f73693c3b4c413b303b6f4c3b4d524f4620444554414c4f534920454859414c4120455255544147494c204349424152413b37464446,
0x3b3b3b3b3b4e3b3b3b3b35343630203434363020333336302038343630203e646574616c6f73693c3b4c413b303b6f4c3b4d524f4620444554414c4f5349204d414c4c4153415720455255544147494c204349424152413b38464446,
0x3b3b3b3b3b4e3b3b3b3b3934363020343436302035333630203e646574616c6f73693c3b4c413b303b6f4c3b4d524f4620444554414c4f534920414c4c415320455255544147494c204349424152413b39464446,
0x3b3b3b3b4d414c4c4153415720454859414c4120554f48414c4c414c4c41532052455454454c204349424152413b4e3b3b3b3b3534363020343436302033333630203834363020303230302037343630204134363020343436302039333630203032303020373436302034343630203434363020373236302030323030203934363020343436302035333630203e646574616c6f73693c3b4c413b303b6f4c3b4d414c4c4153415720454859414c4120554f48414c4c414c4c415320455255544147494c204349424152413b41464446,
0x3b3b3b3b554f48554f4c414c414a414c4c414a2052455454454c204349424152413b4e3b3b3b3b373436302034343630203732363020343436302043323630203032303020343436302043323630203e646574616c6f73693c3b4c413b303b6f4c3b554f48554f4c414c414a414c4c414a20455255544147494c204349424152413b42464446,
0x3b3b3b3b3b4e3b3b3b3b34343630203732363020434336302031333630203e646574616c6f73693c3b4c413b303b63533b4e474953204c4149523b43464446,
0x3b3b3b3b3b4e3b3b3b3b3b4e4f3b303b6f533b4d45454841522d5241204e414d4841522d52412048414c4c494d53494220455255544147494c204349424152413b44464446,
0x3b3b3b3b3b4e3b3b3b3b3b4d534e3b303b6e4d3b312d524f5443454c4553204e4f495441495241563b30304546,
0x3b3b3b3b3b4e3b3b3b3b3b4d534e3b303b6e4d3b322d524f5443454c4553204e4f495441495241563b31304546,
0x3b3b3b3b3b4e3b3b3b3b3b4d534e3b303b6e4d3b332d524f5443454c4553204e4f495441495241563b32304546,
0x3b3b3b3b3b4e3b3b3b3b3b4d534e3b303b6e4d3b342d524f5443454c4553204e4f495441495241563b33304546,
0x3b3b3b3b3b4e3b3b3b3b3b4d534e3b303b6e4d3b352d524f5443454c4553204e4f495441495241563b34304546,
0x3b3b3b3b3b4e3b3b3b3b3b4d534e3b303b6e4d3b362d524f5443454c4553204e4f495441495241563b35304546,
0x3b3b3b3b3b4e3b3b3b3b3b4d534e3b303b6e4d3b372d524f5443454c4553204e4f495441495241563b36304546,
0x3b3b3b3b3b4e3b3b3b3b3b4d534e3b303b6e4d3b382d524f5443454c4553204e4f495441495241563b37304546,
0x3b3b3b3b3b4e3b3b3b3b3b4d534e3b303b6e4d3b392d524f5443454c4553204e4f495441495241563b38304546,
0x3b3b3b3b3b4e3b3b3b3b3b4d534e3b303b6e4d3b30312d524f5443454c4553204e4f495441495241563b39304546,
0x3b3b3b3b3b4e3b3b3b3b3b4d534e3b303b6e4d3b31312d524f5443454c4553204e4f495441495241563b41304546,
0x3b3b3b3b3b4e3b3b3b3b3b4d534e3b303b6e4d3b32312d524f5443454c4553204e4f495441495241563b42304546,
0x3b3b3b3b3b4e3b3b3b3b3b4d534e3b303b6e4d3b33312d524f5443454c4553204e4f495441495241563b43304546,
0x3b3b3b3b3b4e3b3b3b3b3b4d534e3b303b6e4d3b34312d524f5443454c4553204e4f495441495241563b44304546,
0x3b3b3b3b3b4e3b3b3b3b3b4d534e3b303b6e4d3b35312d524f5443454c4553204e4f495441495241563b45304546,
0x3b3b3b3b3b4e3b3b3b3b3b4d534e3b303b6e4d3b36312d524f5443454c4553204e4f495441495241563b46304546,
0x3b3b3b3b3b4e3b3b3b3b43323030203e6c616369747265763c3b4e4f3b303b6f503b414d4d4f43204c4143495452455620524f46204d524f46204e4f495441544e45534552503b30314546,
0x3b3b3b3b3b4e3b3b3b3b31303033203e6c616369747265763c3b4e4f3b303b6f503b414d4d4f4320434948504152474f454449204c4143495452455620524f46204d524f46204e4f495441544e45534552503b31314546,
0x3b3b3b3b3b4e3b3b3b3b32303033203e6c616369747265763c3b4e4f3b303b6f503b504f5453204c4c554620434948504152474f454449204c4143495452455620524f46204d524f46204e4f495441544e45534552503b32314546,
0x3b3b3b3b3b4e3b3b3b3b41333030203e6c616369747265763c3b4e4f3b303b6f503b4e4f4c4f43204c4143495452455620524f46204d524f46204e4f495441544e45534552503b33314546,
0x3b3b3b3b3b4e3b3b3b3b42333030203e6c616369747265763c3b4e4f3b303b6f503b4e4f4c4f43494d4553204c4143495452455620524f46204d524f46204e4f495441544e45534552503b34314546,
0x3b3b3b3b3b4e3b3b3b3b31323030203e6c616369747265763c3b4e4f3b303b6f503b4b52414d204e4f4954414d414c435845204c4143495452455620524f46204d524f46204e4f495441544e45534552503b35314546,
0x3b3b3b3b3b4e3b3b3b3b46333030203e6c616369747265763c3b4e4f3b303b6f503b4b52414d204e4f495453455551204c4143495452455620524f46204d524f46204e4f495441544e45534552503b36314546,
0x3b3b3b3b3b4e3b3b3b3b36313033203e6c616369747265763c3b4e4f3b303b73503b54454b434152422052414c554349544e454c204554494857205446454c204c4143495452455620524f46204d524f46204e4f495441544e45534552503b37314546,
0x3b3b3b3b3b4e3b3b3b3b37313033203e6c616369747265763c3b4e4f3b303b65503b5445434b4152422052414c554349544e454c204554494857205448474952204c4143495452455620524f46204d524f46204e4f495441544e45534552503b38314546,
0x3b3b3b3b3b4e3b3b3b3b36323032203e6c616369747265763c3b4e4f3b303b6f503b53495350494c4c45204c41544e4f5a49524f48204c4143495452455620524f46204d524f46204e4f495441544e45534552503b39314546,
0x3b3b3b3b3b4e3b3b3b3b3b4d534e3b3033323b6e4d3b464c4148205446454c20455255544147494c20474e494e49424d4f433b30324546,
0x3b3b3b3b3b4e3b3b3b3b3b4d534e3b3033323b6e4d3b464c414820544847495220455255544147494c20474e494e49424d4f433b31324546,
0x3b3b3b3b3b4e3b3b3b3b3b4d534e3b3033323b6e4d3b464c4148205446454c2045444c495420454c42554f4420474e494e49424d4f433b32324546,
0x3b3b3b3b3b4e3b3b3b3b3b4d534e3b3033323b6e4d3b464c41482054484749522045444c495420454c42554f4420474e494e49424d4f433b33324546,
0x3b3b3b3b3b4e3b3b3b3b3b4d534e3b3033323b6e4d3b464c4148205446454c204e4f5243414d20474e494e49424d4f433b34324546,
0x3b3b3b3b3b4e3b3b3b3b3b4d534e3b3033323b6e4d3b464c4148205448474952204e4f5243414d20474e494e49424d4f433b35324546,
0x3b3b3b3b3b4e3b3b3b3b3b4d534e3b3033323b6e4d3b4e4f5243414d20474e494e494f4a4e4f4320474e494e49424d4f433b36324546,
0x3b3b3b3b3b4e3b3b3b3b3b4d534e3b3032323b6e4d3b574f4c454220464c4148205446454c20455255544147494c20474e494e49424d4f433b37324546,
0x3b3b3b3b3b4e3b3b3b3b3b4d534e3b3032323b6e4d3b574f4c454220464c414820544847495220455255544147494c20474e494e49424d4f433b38324546,
0x3b3b3b3b3b4e3b3b3b3b3b4d534e3b3032323b6e4d3b574f4c454220464c4148205446454c2045444c495420474e494e49424d4f433b39324546,
0x3b3b3b3b3b4e3b3b3b3b3b4d534e3b3032323b6e4d3b574f4c454220464c41482054484749522045444c495420474e494e49424d4f433b41324546,
0x3b3b3b3b3b4e3b3b3b3b3b4d534e3b3032323b6e4d3b574f4c454220464c4148205446454c204e4f5243414d20474e494e49424d4f433b42324546,
0x3b3b3b3b3b4e3b3b3b3b3b4d534e3b3032323b6e4d3b574f4c454220464c4148205448474952204e4f5243414d20474e494e49424d4f433b43324546,
0x3b3b3b3b3b4e3b3b3b3b3b4d534e3b3032323b6e4d3b574f4c4542204e4f5243414d20474e494e494f4a4e4f4320474e494e49424d4f433b44324546,
0x3b3b3b3b3b4e3b3b3b3b3b4d534e3b3033323b6e4d3b464c4148205446454c204f4c5449542043494c4c4952594320474e494e49424d4f433b45324546,
0x3b3b3b3b3b4e3b3b3b3b3b4d534e3b3033323b6e4d3b464c4148205448474952204f4c5449542043494c4c4952594320474e494e49424d4f433b46324546,
0x3b3b3b3b52454441454c20544f44204f5754204c4143495452455620524f46204850594c473b4e3b3b3b3b35323032203e6c616369747265763c3b4e4f3b303b6f503b52454441454c20544f44204f5754204c4143495452455620524f46204d524f46204e4f495441544e45534552503b30334546,
0x3b3b3b3b48534144204d45204c4143495452455620524f46204850594c473b4e3b3b3b3b34313032203e6c616369747265763c3b4e4f3b303b64503b48534144204d45204c4143495452455620524f46204d524f46204e4f495441544e45534552503b31334546,
0x3b3b3b3b48534144204e45204c4143495452455620524f46204850594c473b4e3b3b3b3b33313032203e6c616369747265763c3b4e4f3b303b64503b48534144204e45204c4143495452455620524f46204d524f46204e4f495441544e45534552503b32334546,
0x3b3b3b3b45524f43535245444e5520474e4943415053204c4143495452455620524f46204850594c473b4e3b3b3b3b46353030203e6c616369747265763c3b4e4f3b303b63503b454e494c20574f4c204c4143495452455620524f46204d524f46204e4f495441544e45534552503b33334546,
0x3b3b3b3b45524f43535245444e55205956415720474e4943415053204c4143495452455620524f46204850594c473b4e3b3b3b3b46353030203e6c616369747265763c3b4e4f3b303b63503b454e494c20574f4c2059564157204c4143495452455620524f46204d524f46204e4f495441544e45534552503b34334546,
0x3b3b3b3b5349534548544e4552415020474e494e45504f204c4143495452455620524f46204850594c473b4e3b3b3b3b38323030203e6c616369747265763c3b4e4f3b303b73503b5349534548544e45524150205446454c204c4143495452455620524f46204d524f46204e4f495441544e45534552503b35334546,
0x3b3b3b3b5349534548544e4552415020474e49534f4c43204c4143495452455620524f46204850594c473b4e3b3b3b3b39323030203e6c616369747265763c3b4e4f3b303b65503b5349534548544e45524150205448474952204c4143495452455620524f46204d524f46204e4f495441544e45534552503b36334546,
0x3b3b3b3b54454b4341524220594c52554320474e494e45504f204c4143495452455620524f46204850594c473b4e3b3b3b3b42373030203e6c616369747265763c3b4e4f3b303b73503b54454b4341524220594c525543205446454c204c4143495452455620524f46204d524f46204e4f495441544e45534552503b37334546,
0x3b3b3b3b54454b4341524220594c52554320474e49534f4c43204c4143495452455620524f46204850594c473b4e3b3b3b3b44373030203e6c616369747265763c3b4e4f3b303b65503b54454b4341524220594c525543205448474952204c4143495452455620524f46204d524f46204e4f495441544e45534552503b38334546,
0x3b3b3b3b54454b43415242204c4c454853204553494f54524f5420474e494e45504f204c4143495452455620524f46204850594c473b4e3b3b3b3b34313033203e6c616369747265763c3b4e4f3b303b73503b54454b43415242204c4c454853204553494f54524f54205446454c204c4143495452455620524f46204d524f46204e4f495441544e45534552503b39334546]

/-- src/u5e/props/UnicodeData.txt lines 16129-16384. -/
def rawUcd63 : List Nat := [
0x3b3b3b3b54454b43415242204c4c454853204553494f54524f5420474e49534f4c43204c4143495452455620524f46204850594c473b4e3b3b3b3b35313033203e6c616369747265763c3b4e4f3b303b65503b54454b43415242204c4c454853204553494f54524f54205448474952204c4143495452455620524f46204d524f46204e4f495441544e45534552503b41334546,
0x3b3b3b3b54454b434152422052414c554349544e454c204b43414c4220474e494e45504f204c4143495452455620524f46204850594c473b4e3b3b3b3b30313033203e6c616369747265763c3b4e4f3b303b73503b54454b434152422052414c554349544e454c204b43414c42205446454c204c4143495452455620524f46204d524f46204e4f495441544e45534552503b42334546,
0x3b3b3b3b54454b434152422052414c554349544e454c204b43414c4220474e49534f4c43204c4143495452455620524f46204850594c473b4e3b3b3b3b31313033203e6c616369747265763c3b4e4f3b303b65503b54454b434152422052414c554349544e454c204b43414c42205448474952204c4143495452455620524f46204d524f46204e4f495441544e45534552503b43334546,
0x3b3b3b3b54454b4341524220454c474e4120454c42554f4420474e494e45504f204c4143495452455620524f46204850594c473b4e3b3b3b3b41303033203e6c616369747265763c3b4e4f3b303b73503b54454b4341524220454c474e4120454c42554f44205446454c204c4143495452455620524f46204d524f46204e4f495441544e45534552503b44334546,
0x3b3b3b3b54454b4341524220454c474e4120454c42554f4420474e49534f4c43204c4143495452455620524f46204850594c473b4e3b3b3b3b42303033203e6c616369747265763c3b4e4f3b303b65503b54454b4341524220454c474e4120454c42554f44205448474952204c4143495452455620524f46204d524f46204e4f495441544e45534552503b45334546,
0x3b3b3b3b54454b4341524220454c474e4120474e494e45504f204c4143495452455620524f46204850594c473b4e3b3b3b3b38303033203e6c616369747265763c3b4e4f3b303b73503b54454b4341524220454c474e41205446454c204c4143495452455620524f46204d524f46204e4f495441544e45534552503b46334546,
0x3b3b3b3b54454b4341524220454c474e4120474e49534f4c43204c4143495452455620524f46204850594c473b4e3b3b3b3b39303033203e6c616369747265763c3b4e4f3b303b65503b54454b4341524220454c474e41205448474952204c4143495452455620524f46204d524f46204e4f495441544e45534552503b30344546,
0x3b3b3b3b54454b434152422052454e524f4320474e494e45504f204c4143495452455620524f46204850594c473b4e3b3b3b3b43303033203e6c616369747265763c3b4e4f3b303b73503b54454b434152422052454e524f43205446454c204c4143495452455620524f46204d524f46204e4f495441544e45534552503b31344546,
0x3b3b3b3b54454b434152422052454e524f4320474e49534f4c43204c4143495452455620524f46204850594c473b4e3b3b3b3b44303033203e6c616369747265763c3b4e4f3b303b65503b54454b434152422052454e524f43205448474952204c4143495452455620524f46204d524f46204e4f495441544e45534552503b32344546,
0x3b3b3b3b54454b434152422052454e524f4320455449485720474e494e45504f204c4143495452455620524f46204850594c473b4e3b3b3b3b45303033203e6c616369747265763c3b4e4f3b303b73503b54454b434152422052454e524f43204554494857205446454c204c4143495452455620524f46204d524f46204e4f495441544e45534552503b33344546,
0x3b3b3b3b54454b434152422052454e524f4320455449485720474e49534f4c43204c4143495452455620524f46204850594c473b4e3b3b3b3b46303033203e6c616369747265763c3b4e4f3b303b65503b54454b434152422052454e524f43204554494857205448474952204c4143495452455620524f46204d524f46204e4f495441544e45534552503b34344546,
0x3b3b3b3b3b4e3b3b3b3b3b4e4f3b303b6f503b544f4420454d415345533b35344546,
0x3b3b3b3b3b4e3b3b3b3b3b4e4f3b303b6f503b544f4420454d415345532045544948573b36344546,
0x3b3b3b3b3b4e3b3b3b3b42353030203e6c616369747265763c3b4e4f3b303b73503b54454b4341524220455241555153205446454c204c4143495452455620524f46204d524f46204e4f495441544e45534552503b37344546,
0x3b3b3b3b3b4e3b3b3b3b44353030203e6c616369747265763c3b4e4f3b303b65503b54454b4341524220455241555153205448474952204c4143495452455620524f46204d524f46204e4f495441544e45534552503b38344546,
0x3b3b3b3b45524f43535245564f2044454853414420474e49434150533b4e3b3b3b3b45333032203e7461706d6f633c3b4e4f3b303b6f503b454e494c5245564f204445485341443b39344546,
0x3b3b3b3b45524f43535245564f20454e494c5245544e454320474e49434150533b4e3b3b3b3b45333032203e7461706d6f633c3b4e4f3b303b6f503b454e494c5245564f20454e494c4552544e45433b41344546,
0x3b3b3b3b45524f43535245564f205956415720474e49434150533b4e3b3b3b3b45333032203e7461706d6f633c3b4e4f3b303b6f503b454e494c5245564f20595641573b42344546,
0x3b3b3b3b45524f43535245564f205956415720454c42554f4420474e49434150533b4e3b3b3b3b45333032203e7461706d6f633c3b4e4f3b303b6f503b454e494c5245564f205956415720454c42554f443b43344546,
0x3b3b3b3b45524f43535245444e552044454853414420474e49434150533b4e3b3b3b3b46353030203e7461706d6f633c3b4e4f3b303b63503b454e494c20574f4c204445485341443b44344546,
0x3b3b3b3b45524f43535245444e5520454e494c5245544e454320474e49434150533b4e3b3b3b3b46353030203e7461706d6f633c3b4e4f3b303b63503b454e494c20574f4c20454e494c4552544e45433b45344546,
0x3b3b3b3b45524f43535245444e55205956415720474e49434150533b4e3b3b3b3b46353030203e7461706d6f633c3b4e4f3b303b63503b454e494c20574f4c20595641573b46344546,
0x3b3b3b3b3b4e3b3b3b3b43323030203e6c6c616d733c3b53433b303b6f503b414d4d4f43204c4c414d533b30354546,
0x3b3b3b3b3b4e3b3b3b3b31303033203e6c6c616d733c3b4e4f3b303b6f503b414d4d4f4320434948504152474f454449204c4c414d533b31354546,
0x3b3b3b3b444f49524550204c4c414d533b4e3b3b3b3b45323030203e6c6c616d733c3b53433b303b6f503b504f5453204c4c5546204c4c414d533b32354546,
0x3b3b3b3b3b4e3b3b3b3b42333030203e6c6c616d733c3b4e4f3b303b6f503b4e4f4c4f43494d4553204c4c414d533b34354546,
0x3b3b3b3b3b4e3b3b3b3b41333030203e6c6c616d733c3b53433b303b6f503b4e4f4c4f43204c4c414d533b35354546,
0x3b3b3b3b3b4e3b3b3b3b46333030203e6c6c616d733c3b4e4f3b303b6f503b4b52414d204e4f495453455551204c4c414d533b36354546,
0x3b3b3b3b3b4e3b3b3b3b31323030203e6c6c616d733c3b4e4f3b303b6f503b4b52414d204e4f4954414d414c435845204c4c414d533b37354546,
0x3b3b3b3b3b4e3b3b3b3b34313032203e6c6c616d733c3b4e4f3b303b64503b48534144204d45204c4c414d533b38354546,
0x3b3b3b3b5349534548544e4552415020474e494e45504f204c4c414d533b593b3b3b3b38323030203e6c6c616d733c3b4e4f3b303b73503b5349534548544e45524150205446454c204c4c414d533b39354546,
0x3b3b3b3b5349534548544e4552415020474e49534f4c43204c4c414d533b593b3b3b3b39323030203e6c6c616d733c3b4e4f3b303b65503b5349534548544e45524150205448474952204c4c414d533b41354546,
0x3b3b3b3b54454b4341524220594c52554320474e494e45504f204c4c414d533b593b3b3b3b42373030203e6c6c616d733c3b4e4f3b303b73503b54454b4341524220594c525543205446454c204c4c414d533b42354546,
0x3b3b3b3b54454b4341524220594c52554320474e49534f4c43204c4c414d533b593b3b3b3b44373030203e6c6c616d733c3b4e4f3b303b65503b54454b4341524220594c525543205448474952204c4c414d533b43354546,
0x3b3b3b3b54454b43415242204c4c454853204553494f54524f5420474e494e45504f204c4c414d533b593b3b3b3b34313033203e6c6c616d733c3b4e4f3b303b73503b54454b43415242204c4c454853204553494f54524f54205446454c204c4c414d533b44354546,
0x3b3b3b3b54454b43415242204c4c454853204553494f54524f5420474e49534f4c43204c4c414d533b593b3b3b3b35313033203e6c6c616d733c3b4e4f3b303b65503b54454b43415242204c4c454853204553494f54524f54205448474952204c4c414d533b45354546,
0x3b3b3b3b3b4e3b3b3b3b33323030203e6c6c616d733c3b54453b303b6f503b4e474953205245424d554e204c4c414d533b46354546,
0x3b3b3b3b3b4e3b3b3b3b36323030203e6c6c616d733c3b4e4f3b303b6f503b444e41535245504d41204c4c414d533b30364546,
0x3b3b3b3b3b4e3b3b3b3b41323030203e6c6c616d733c3b4e4f3b303b6f503b4b53495245545341204c4c414d533b31364546,
0x3b3b3b3b3b4e3b3b3b3b42323030203e6c6c616d733c3b53453b303b6d533b4e4749532053554c50204c4c414d533b32364546,
0x3b3b3b3b3b4e3b3b3b3b44323030203e6c6c616d733c3b53453b303b64503b53554e494d2d4e4548505948204c4c414d533b33364546,
0x3b3b3b3b3b593b3b3b3b43333030203e6c6c616d733c3b4e4f3b303b6d533b4e474953204e4148542d5353454c204c4c414d533b34364546,
0x3b3b3b3b3b593b3b3b3b45333030203e6c6c616d733c3b4e4f3b303b6d533b4e474953204e4148542d52455441455247204c4c414d533b35364546,
0x3b3b3b3b3b4e3b3b3b3b44333030203e6c6c616d733c3b4e4f3b303b6d533b4e47495320534c41555145204c4c414d533b36364546,
0x3b3b3b3b4853414c534b434142204c4c414d533b4e3b3b3b3b43353030203e6c6c616d733c3b4e4f3b303b6f503b535544494c4f532045535245564552204c4c414d533b38364546,
0x3b3b3b3b3b4e3b3b3b3b34323030203e6c6c616d733c3b54453b303b63533b4e4749532052414c4c4f44204c4c414d533b39364546,
0x3b3b3b3b3b4e3b3b3b3b35323030203e6c6c616d733c3b54453b303b6f503b4e47495320544e4543524550204c4c414d533b41364546,
0x3b3b3b3b3b4e3b3b3b3b30343030203e6c6c616d733c3b4e4f3b303b6f503b5441204c41494352454d4d4f43204c4c414d533b42364546,
0x3b3b3b3b4e4154414854414620474e4943415053204349424152413b4e3b3b3b3b423436302030323030203e646574616c6f73693c3b4c413b303b6f4c3b4d524f4620444554414c4f5349204e41544148544146204349424152413b30374546,
0x3b3b3b3b4c454557544154204e4f204e41544148544146204349424152413b4e3b3b3b3b423436302030343630203e6c616964656d3c3b4c413b303b6f4c3b45564f4241204e415441485441462048544957204c454557544154204349424152413b31374546,
0x3b3b3b3b4e4154414d4d414420474e4943415053204349424152413b4e3b3b3b3b433436302030323030203e646574616c6f73693c3b4c413b303b6f4c3b4d524f4620444554414c4f5349204e4154414d4d4144204349424152413b32374546,
0x3b3b3b3b3b4e3b3b3b3b3b4c413b303b6f4c3b544e454d47415246204c494154204349424152413b33374546,
0x3b3b3b3b4e4154415253414b20474e4943415053204349424152413b4e3b3b3b3b443436302030323030203e646574616c6f73693c3b4c413b303b6f4c3b4d524f4620444554414c4f5349204e4154415253414b204349424152413b34374546,
0x3b3b3b3b48414854414620474e4943415053204349424152413b4e3b3b3b3b453436302030323030203e646574616c6f73693c3b4c413b303b6f4c3b4d524f4620444554414c4f5349204148544146204349424152413b36374546,
0x3b3b3b3b4c454557544154204e4f20484148544146204349424152413b4e3b3b3b3b453436302030343630203e6c616964656d3c3b4c413b303b6f4c3b4d524f46204c414944454d204148544146204349424152413b37374546,
0x3b3b3b3b48414d4d414420474e4943415053204349424152413b4e3b3b3b3b463436302030323030203e646574616c6f73693c3b4c413b303b6f4c3b4d524f4620444554414c4f534920414d4d4144204349424152413b38374546,
0x3b3b3b3b4c454557544154204e4f2048414d4d4144204349424152413b4e3b3b3b3b463436302030343630203e6c616964656d3c3b4c413b303b6f4c3b4d524f46204c414944454d20414d4d4144204349424152413b39374546,
0x3b3b3b3b48415253414b20474e4943415053204349424152413b4e3b3b3b3b303536302030323030203e646574616c6f73693c3b4c413b303b6f4c3b4d524f4620444554414c4f534920415253414b204349424152413b41374546,
0x3b3b3b3b4c454557544154204e4f2048415253414b204349424152413b4e3b3b3b3b303536302030343630203e6c616964656d3c3b4c413b303b6f4c3b4d524f46204c414944454d20415253414b204349424152413b42374546,
0x3b3b3b3b4841444441485320474e4943415053204349424152413b4e3b3b3b3b313536302030323030203e646574616c6f73693c3b4c413b303b6f4c3b4d524f4620444554414c4f534920414444414853204349424152413b43374546,
0x3b3b3b3b4c454557544154204e4f2048414444414853204349424152413b4e3b3b3b3b313536302030343630203e6c616964656d3c3b4c413b303b6f4c3b4d524f46204c414944454d20414444414853204349424152413b44374546,
0x3b3b3b3b4e554b555320474e4943415053204349424152413b4e3b3b3b3b323536302030323030203e646574616c6f73693c3b4c413b303b6f4c3b4d524f4620444554414c4f5349204e554b5553204349424152413b45374546,
0x3b3b3b3b4c454557544154204e4f204e554b5553204349424152413b4e3b3b3b3b323536302030343630203e6c616964656d3c3b4c413b303b6f4c3b4d524f46204c414944454d204e554b5553204349424152413b46374546,
0x3b3b3b3b48415a4d414820434942415241204554414c4f534920524f46204850594c473b4e3b3b3b3b31323630203e646574616c6f73693c3b4c413b303b6f4c3b4d524f4620444554414c4f534920415a4d41482052455454454c204349424152413b30384546,
0x3b3b3b3b46454c41204e4f2048414444414d20434942415241204554414c4f534920524f46204850594c473b4e3b3b3b3b32323630203e646574616c6f73693c3b4c413b303b6f4c3b4d524f4620444554414c4f53492045564f424120414444414d20485449572046454c412052455454454c204349424152413b31384546,
0x3b3b3b3b46454c41204e4f2048414444414d20434942415241204c414e494620524f46204850594c473b4e3b3b3b3b32323630203e6c616e69663c3b4c413b303b6f4c3b4d524f46204c414e49462045564f424120414444414d20485449572046454c412052455454454c204349424152413b32384546,
0x3b3b3b3b46454c41204e4f2048415a4d414820434942415241204554414c4f534920524f46204850594c473b4e3b3b3b3b33323630203e646574616c6f73693c3b4c413b303b6f4c3b4d524f4620444554414c4f53492045564f424120415a4d414820485449572046454c412052455454454c204349424152413b33384546,
0x3b3b3b3b46454c41204e4f2048415a4d414820434942415241204c414e494620524f46204850594c473b4e3b3b3b3b33323630203e6c616e69663c3b4c413b303b6f4c3b4d524f46204c414e49462045564f424120415a4d414820485449572046454c412052455454454c204349424152413b34384546,
0x3b3b3b3b574157204e4f2048415a4d414820434942415241204554414c4f534920524f46204850594c473b4e3b3b3b3b34323630203e646574616c6f73693c3b4c413b303b6f4c3b4d524f4620444554414c4f53492045564f424120415a4d41482048544957205741572052455454454c204349424152413b35384546,
0x3b3b3b3b574157204e4f2048415a4d414820434942415241204c414e494620524f46204850594c473b4e3b3b3b3b34323630203e6c616e69663c3b4c413b303b6f4c3b4d524f46204c414e49462045564f424120415a4d41482048544957205741572052455454454c204349424152413b36384546,
0x3b3b3b3b46454c41205245444e552048415a4d414820434942415241204554414c4f534920524f46204850594c473b4e3b3b3b3b35323630203e646574616c6f73693c3b4c413b303b6f4c3b4d524f4620444554414c4f534920574f4c454220415a4d414820485449572046454c412052455454454c204349424152413b37384546,
0x3b3b3b3b46454c41205245444e552048415a4d414820434942415241204c414e494620524f46204850594c473b4e3b3b3b3b35323630203e6c616e69663c3b4c413b303b6f4c3b4d524f46204c414e494620574f4c454220415a4d414820485449572046454c412052455454454c204349424152413b38384546,
0x3b3b3b3b4159204e4f2048415a4d414820434942415241204554414c4f534920524f46204850594c473b4e3b3b3b3b36323630203e646574616c6f73693c3b4c413b303b6f4c3b4d524f4620444554414c4f53492045564f424120415a4d41482048544957204845592052455454454c204349424152413b39384546,
0x3b3b3b3b4159204e4f2048415a4d414820434942415241204c414e494620524f46204850594c473b4e3b3b3b3b36323630203e6c616e69663c3b4c413b303b6f4c3b4d524f46204c414e49462045564f424120415a4d41482048544957204845592052455454454c204349424152413b41384546,
0x3b3b3b3b4159204e4f2048415a4d414820434942415241204c414954494e4920524f46204850594c473b4e3b3b3b3b36323630203e6c616974696e693c3b4c413b303b6f4c3b4d524f46204c414954494e492045564f424120415a4d41482048544957204845592052455454454c204349424152413b42384546,
0x3b3b3b3b4159204e4f2048415a4d414820434942415241204c414944454d20524f46204850594c473b4e3b3b3b3b36323630203e6c616964656d3c3b4c413b303b6f4c3b4d524f46204c414944454d2045564f424120415a4d41482048544957204845592052455454454c204349424152413b43384546,
0x3b3b3b3b46454c4120434942415241204554414c4f534920524f46204850594c473b4e3b3b3b3b37323630203e646574616c6f73693c3b4c413b303b6f4c3b4d524f4620444554414c4f53492046454c412052455454454c204349424152413b44384546,
0x3b3b3b3b46454c4120434942415241204c414e494620524f46204850594c473b4e3b3b3b3b37323630203e6c616e69663c3b4c413b303b6f4c3b4d524f46204c414e49462046454c412052455454454c204349424152413b45384546,
0x3b3b3b3b41414220434942415241204554414c4f534920524f46204850594c473b4e3b3b3b3b38323630203e646574616c6f73693c3b4c413b303b6f4c3b4d524f4620444554414c4f5349204845422052455454454c204349424152413b46384546,
0x3b3b3b3b41414220434942415241204c414e494620524f46204850594c473b4e3b3b3b3b38323630203e6c616e69663c3b4c413b303b6f4c3b4d524f46204c414e4946204845422052455454454c204349424152413b30394546,
0x3b3b3b3b41414220434942415241204c414954494e4920524f46204850594c473b4e3b3b3b3b38323630203e6c616974696e693c3b4c413b303b6f4c3b4d524f46204c414954494e49204845422052455454454c204349424152413b31394546,
0x3b3b3b3b41414220434942415241204c414944454d20524f46204850594c473b4e3b3b3b3b38323630203e6c616964656d3c3b4c413b303b6f4c3b4d524f46204c414944454d204845422052455454454c204349424152413b32394546,
0x3b3b3b3b484154554252414d2041415420434942415241204554414c4f534920524f46204850594c473b4e3b3b3b3b39323630203e646574616c6f73693c3b4c413b303b6f4c3b4d524f4620444554414c4f5349204154554252414d204845542052455454454c204349424152413b33394546,
0x3b3b3b3b484154554252414d2041415420434942415241204c414e494620524f46204850594c473b4e3b3b3b3b39323630203e6c616e69663c3b4c413b303b6f4c3b4d524f46204c414e4946204154554252414d204845542052455454454c204349424152413b34394546,
0x3b3b3b3b41415420434942415241204554414c4f534920524f46204850594c473b4e3b3b3b3b41323630203e646574616c6f73693c3b4c413b303b6f4c3b4d524f4620444554414c4f5349204845542052455454454c204349424152413b35394546,
0x3b3b3b3b41415420434942415241204c414e494620524f46204850594c473b4e3b3b3b3b41323630203e6c616e69663c3b4c413b303b6f4c3b4d524f46204c414e4946204845542052455454454c204349424152413b36394546,
0x3b3b3b3b41415420434942415241204c414954494e4920524f46204850594c473b4e3b3b3b3b41323630203e6c616974696e693c3b4c413b303b6f4c3b4d524f46204c414954494e49204845542052455454454c204349424152413b37394546,
0x3b3b3b3b41415420434942415241204c414944454d20524f46204850594c473b4e3b3b3b3b41323630203e6c616964656d3c3b4c413b303b6f4c3b4d524f46204c414944454d204845542052455454454c204349424152413b38394546,
0x3b3b3b3b4141485420434942415241204554414c4f534920524f46204850594c473b4e3b3b3b3b42323630203e646574616c6f73693c3b4c413b303b6f4c3b4d524f4620444554414c4f534920484548542052455454454c204349424152413b39394546,
0x3b3b3b3b4141485420434942415241204c414e494620524f46204850594c473b4e3b3b3b3b42323630203e6c616e69663c3b4c413b303b6f4c3b4d524f46204c414e494620484548542052455454454c204349424152413b41394546,
0x3b3b3b3b4141485420434942415241204c414954494e4920524f46204850594c473b4e3b3b3b3b42323630203e6c616974696e693c3b4c413b303b6f4c3b4d524f46204c414954494e4920484548542052455454454c204349424152413b42394546,
0x3b3b3b3b4141485420434942415241204c414944454d20524f46204850594c473b4e3b3b3b3b42323630203e6c616964656d3c3b4c413b303b6f4c3b4d524f46204c414944454d20484548542052455454454c204349424152413b43394546,
0x3b3b3b3b4d45454a20434942415241204554414c4f534920524f46204850594c473b4e3b3b3b3b43323630203e646574616c6f73693c3b4c413b303b6f4c3b4d524f4620444554414c4f5349204d45454a2052455454454c204349424152413b44394546,
0x3b3b3b3b4d45454a20434942415241204c414e494620524f46204850594c473b4e3b3b3b3b43323630203e6c616e69663c3b4c413b303b6f4c3b4d524f46204c414e4946204d45454a2052455454454c204349424152413b45394546,
0x3b3b3b3b4d45454a20434942415241204c414954494e4920524f46204850594c473b4e3b3b3b3b43323630203e6c616974696e693c3b4c413b303b6f4c3b4d524f46204c414954494e49204d45454a2052455454454c204349424152413b46394546,
0x3b3b3b3b4d45454a20434942415241204c414944454d20524f46204850594c473b4e3b3b3b3b43323630203e6c616964656d3c3b4c413b303b6f4c3b4d524f46204c414944454d204d45454a2052455454454c204349424152413b30414546,
0x3b3b3b3b41414820434942415241204554414c4f534920524f46204850594c473b4e3b3b3b3b44323630203e646574616c6f73693c3b4c413b303b6f4c3b4d524f4620444554414c4f5349204841482052455454454c204349424152413b31414546,
0x3b3b3b3b41414820434942415241204c414e494620524f46204850594c473b4e3b3b3b3b44323630203e6c616e69663c3b4c413b303b6f4c3b4d524f46204c414e4946204841482052455454454c204349424152413b32414546,
0x3b3b3b3b41414820434942415241204c414954494e4920524f46204850594c473b4e3b3b3b3b44323630203e6c616974696e693c3b4c413b303b6f4c3b4d524f46204c414954494e49204841482052455454454c204349424152413b33414546,
0x3b3b3b3b41414820434942415241204c414944454d20524f46204850594c473b4e3b3b3b3b44323630203e6c616964656d3c3b4c413b303b6f4c3b4d524f46204c414944454d204841482052455454454c204349424152413b34414546,
0x3b3b3b3b4141484b20434942415241204554414c4f534920524f46204850594c473b4e3b3b3b3b45323630203e646574616c6f73693c3b4c413b303b6f4c3b4d524f4620444554414c4f5349204841484b2052455454454c204349424152413b35414546,
0x3b3b3b3b4141484b20434942415241204c414e494620524f46204850594c473b4e3b3b3b3b45323630203e6c616e69663c3b4c413b303b6f4c3b4d524f46204c414e4946204841484b2052455454454c204349424152413b36414546,
0x3b3b3b3b4141484b20434942415241204c414954494e4920524f46204850594c473b4e3b3b3b3b45323630203e6c616974696e693c3b4c413b303b6f4c3b4d524f46204c414954494e49204841484b2052455454454c204349424152413b37414546,
0x3b3b3b3b4141484b20434942415241204c414944454d20524f46204850594c473b4e3b3b3b3b45323630203e6c616964656d3c3b4c413b303b6f4c3b4d524f46204c414944454d204841484b2052455454454c204349424152413b38414546,
0x3b3b3b3b4c414420434942415241204554414c4f534920524f46204850594c473b4e3b3b3b3b46323630203e646574616c6f73693c3b4c413b303b6f4c3b4d524f4620444554414c4f5349204c41442052455454454c204349424152413b39414546,
0x3b3b3b3b4c414420434942415241204c414e494620524f46204850594c473b4e3b3b3b3b46323630203e6c616e69663c3b4c413b303b6f4c3b4d524f46204c414e4946204c41442052455454454c204349424152413b41414546,
0x3b3b3b3b4c41485420434942415241204554414c4f534920524f46204850594c473b4e3b3b3b3b30333630203e646574616c6f73693c3b4c413b303b6f4c3b4d524f4620444554414c4f5349204c4148542052455454454c204349424152413b42414546,
0x3b3b3b3b4c41485420434942415241204c414e494620524f46204850594c473b4e3b3b3b3b30333630203e6c616e69663c3b4c413b303b6f4c3b4d524f46204c414e4946204c4148542052455454454c204349424152413b43414546,
0x3b3b3b3b415220434942415241204554414c4f534920524f46204850594c473b4e3b3b3b3b31333630203e646574616c6f73693c3b4c413b303b6f4c3b4d524f4620444554414c4f5349204845522052455454454c204349424152413b44414546,
0x3b3b3b3b415220434942415241204c414e494620524f46204850594c473b4e3b3b3b3b31333630203e6c616e69663c3b4c413b303b6f4c3b4d524f46204c414e4946204845522052455454454c204349424152413b45414546,
0x3b3b3b3b4e49415a20434942415241204554414c4f534920524f46204850594c473b4e3b3b3b3b32333630203e646574616c6f73693c3b4c413b303b6f4c3b4d524f4620444554414c4f5349204e49415a2052455454454c204349424152413b46414546,
0x3b3b3b3b4e49415a20434942415241204c414e494620524f46204850594c473b4e3b3b3b3b32333630203e6c616e69663c3b4c413b303b6f4c3b4d524f46204c414e4946204e49415a2052455454454c204349424152413b30424546,
0x3b3b3b3b4e45455320434942415241204554414c4f534920524f46204850594c473b4e3b3b3b3b33333630203e646574616c6f73693c3b4c413b303b6f4c3b4d524f4620444554414c4f5349204e4545532052455454454c204349424152413b31424546,
0x3b3b3b3b4e45455320434942415241204c414e494620524f46204850594c473b4e3b3b3b3b33333630203e6c616e69663c3b4c413b303b6f4c3b4d524f46204c414e4946204e4545532052455454454c204349424152413b32424546,
0x3b3b3b3b4e45455320434942415241204c414954494e4920524f46204850594c473b4e3b3b3b3b33333630203e6c616974696e693c3b4c413b303b6f4c3b4d524f46204c414954494e49204e4545532052455454454c204349424152413b33424546,
0x3b3b3b3b4e45455320434942415241204c414944454d20524f46204850594c473b4e3b3b3b3b33333630203e6c616964656d3c3b4c413b303b6f4c3b4d524f46204c414944454d204e4545532052455454454c204349424152413b34424546,
0x3b3b3b3b4e4545485320434942415241204554414c4f534920524f46204850594c473b4e3b3b3b3b34333630203e646574616c6f73693c3b4c413b303b6f4c3b4d524f4620444554414c4f5349204e454548532052455454454c204349424152413b35424546,
0x3b3b3b3b4e4545485320434942415241204c414e494620524f46204850594c473b4e3b3b3b3b34333630203e6c616e69663c3b4c413b303b6f4c3b4d524f46204c414e4946204e454548532052455454454c204349424152413b36424546,
0x3b3b3b3b4e4545485320434942415241204c414954494e4920524f46204850594c473b4e3b3b3b3b34333630203e6c616974696e693c3b4c413b303b6f4c3b4d524f46204c414954494e49204e454548532052455454454c204349424152413b37424546,
0x3b3b3b3b4e4545485320434942415241204c414944454d20524f46204850594c473b4e3b3b3b3b34333630203e6c616964656d3c3b4c413b303b6f4c3b4d524f46204c414944454d204e454548532052455454454c204349424152413b38424546,
0x3b3b3b3b44415320434942415241204554414c4f534920524f46204850594c473b4e3b3b3b3b35333630203e646574616c6f73693c3b4c413b303b6f4c3b4d524f4620444554414c4f5349204441532052455454454c204349424152413b39424546,
0x3b3b3b3b44415320434942415241204c414e494620524f46204850594c473b4e3b3b3b3b35333630203e6c616e69663c3b4c413b303b6f4c3b4d524f46204c414e4946204441532052455454454c204349424152413b41424546,
0x3b3b3b3b44415320434942415241204c414954494e4920524f46204850594c473b4e3b3b3b3b35333630203e6c616974696e693c3b4c413b303b6f4c3b4d524f46204c414954494e49204441532052455454454c204349424152413b42424546,
0x3b3b3b3b44415320434942415241204c414944454d20524f46204850594c473b4e3b3b3b3b35333630203e6c616964656d3c3b4c413b303b6f4c3b4d524f46204c414944454d204441532052455454454c204349424152413b43424546,
0x3b3b3b3b44414420434942415241204554414c4f534920524f46204850594c473b4e3b3b3b3b36333630203e646574616c6f73693c3b4c413b303b6f4c3b4d524f4620444554414c4f5349204441442052455454454c204349424152413b44424546,
0x3b3b3b3b44414420434942415241204c414e494620524f46204850594c473b4e3b3b3b3b36333630203e6c616e69663c3b4c413b303b6f4c3b4d524f46204c414e4946204441442052455454454c204349424152413b45424546,
0x3b3b3b3b44414420434942415241204c414954494e4920524f46204850594c473b4e3b3b3b3b36333630203e6c616974696e693c3b4c413b303b6f4c3b4d524f46204c414954494e49204441442052455454454c204349424152413b46424546,
0x3b3b3b3b44414420434942415241204c414944454d20524f46204850594c473b4e3b3b3b3b36333630203e6c616964656d3c3b4c413b303b6f4c3b4d524f46204c414944454d204441442052455454454c204349424152413b30434546,
0x3b3b3b3b48415420434942415241204554414c4f534920524f46204850594c473b4e3b3b3b3b37333630203e646574616c6f73693c3b4c413b303b6f4c3b4d524f4620444554414c4f5349204841542052455454454c204349424152413b31434546,
0x3b3b3b3b48415420434942415241204c414e494620524f46204850594c473b4e3b3b3b3b37333630203e6c616e69663c3b4c413b303b6f4c3b4d524f46204c414e4946204841542052455454454c204349424152413b32434546,
0x3b3b3b3b48415420434942415241204c414954494e4920524f46204850594c473b4e3b3b3b3b37333630203e6c616974696e693c3b4c413b303b6f4c3b4d524f46204c414954494e49204841542052455454454c204349424152413b33434546,
0x3b3b3b3b48415420434942415241204c414944454d20524f46204850594c473b4e3b3b3b3b37333630203e6c616964656d3c3b4c413b303b6f4c3b4d524f46204c414944454d204841542052455454454c204349424152413b34434546,
0x3b3b3b3b4841484420434942415241204554414c4f534920524f46204850594c473b4e3b3b3b3b38333630203e646574616c6f73693c3b4c413b303b6f4c3b4d524f4620444554414c4f53492048415a2052455454454c204349424152413b35434546,
0x3b3b3b3b4841484420434942415241204c414e494620524f46204850594c473b4e3b3b3b3b38333630203e6c616e69663c3b4c413b303b6f4c3b4d524f46204c414e49462048415a2052455454454c204349424152413b36434546,
0x3b3b3b3b4841484420434942415241204c414954494e4920524f46204850594c473b4e3b3b3b3b38333630203e6c616974696e693c3b4c413b303b6f4c3b4d524f46204c414954494e492048415a2052455454454c204349424152413b37434546,
0x3b3b3b3b4841484420434942415241204c414944454d20524f46204850594c473b4e3b3b3b3b38333630203e6c616964656d3c3b4c413b303b6f4c3b4d524f46204c414944454d2048415a2052455454454c204349424152413b38434546,
0x3b3b3b3b4e494120434942415241204554414c4f534920524f46204850594c473b4e3b3b3b3b39333630203e646574616c6f73693c3b4c413b303b6f4c3b4d524f4620444554414c4f5349204e49412052455454454c204349424152413b39434546,
0x3b3b3b3b4e494120434942415241204c414e494620524f46204850594c473b4e3b3b3b3b39333630203e6c616e69663c3b4c413b303b6f4c3b4d524f46204c414e4946204e49412052455454454c204349424152413b41434546,
0x3b3b3b3b4e494120434942415241204c414954494e4920524f46204850594c473b4e3b3b3b3b39333630203e6c616974696e693c3b4c413b303b6f4c3b4d524f46204c414954494e49204e49412052455454454c204349424152413b42434546,
0x3b3b3b3b4e494120434942415241204c414944454d20524f46204850594c473b4e3b3b3b3b39333630203e6c616964656d3c3b4c413b303b6f4c3b4d524f46204c414944454d204e49412052455454454c204349424152413b43434546,
0x3b3b3b3b4e4941484720434942415241204554414c4f534920524f46204850594c473b4e3b3b3b3b41333630203e646574616c6f73693c3b4c413b303b6f4c3b4d524f4620444554414c4f5349204e494148472052455454454c204349424152413b44434546,
0x3b3b3b3b4e4941484720434942415241204c414e494620524f46204850594c473b4e3b3b3b3b41333630203e6c616e69663c3b4c413b303b6f4c3b4d524f46204c414e4946204e494148472052455454454c204349424152413b45434546,
0x3b3b3b3b4e4941484720434942415241204c414954494e4920524f46204850594c473b4e3b3b3b3b41333630203e6c616974696e693c3b4c413b303b6f4c3b4d524f46204c414954494e49204e494148472052455454454c204349424152413b46434546,
0x3b3b3b3b4e4941484720434942415241204c414944454d20524f46204850594c473b4e3b3b3b3b41333630203e6c616964656d3c3b4c413b303b6f4c3b4d524f46204c414944454d204e494148472052455454454c204349424152413b30444546,
0x3b3b3b3b414620434942415241204554414c4f534920524f46204850594c473b4e3b3b3b3b31343630203e646574616c6f73693c3b4c413b303b6f4c3b4d524f4620444554414c4f5349204845462052455454454c204349424152413b31444546,
0x3b3b3b3b414620434942415241204c414e494620524f46204850594c473b4e3b3b3b3b31343630203e6c616e69663c3b4c413b303b6f4c3b4d524f46204c414e4946204845462052455454454c204349424152413b32444546,
0x3b3b3b3b414620434942415241204c414954494e4920524f46204850594c473b4e3b3b3b3b31343630203e6c616974696e693c3b4c413b303b6f4c3b4d524f46204c414954494e49204845462052455454454c204349424152413b33444546,
0x3b3b3b3b414620434942415241204c414944454d20524f46204850594c473b4e3b3b3b3b31343630203e6c616964656d3c3b4c413b303b6f4c3b4d524f46204c414944454d204845462052455454454c204349424152413b34444546,
0x3b3b3b3b46415120434942415241204554414c4f534920524f46204850594c473b4e3b3b3b3b32343630203e646574616c6f73693c3b4c413b303b6f4c3b4d524f4620444554414c4f5349204641512052455454454c204349424152413b35444546,
0x3b3b3b3b46415120434942415241204c414e494620524f46204850594c473b4e3b3b3b3b32343630203e6c616e69663c3b4c413b303b6f4c3b4d524f46204c414e4946204641512052455454454c204349424152413b36444546,
0x3b3b3b3b46415120434942415241204c414954494e4920524f46204850594c473b4e3b3b3b3b32343630203e6c616974696e693c3b4c413b303b6f4c3b4d524f46204c414954494e49204641512052455454454c204349424152413b37444546,
0x3b3b3b3b46415120434942415241204c414944454d20524f46204850594c473b4e3b3b3b3b32343630203e6c616964656d3c3b4c413b303b6f4c3b4d524f46204c414944454d204641512052455454454c204349424152413b38444546,
0x3b3b3b3b46414320434942415241204554414c4f534920524f46204850594c473b4e3b3b3b3b33343630203e646574616c6f73693c3b4c413b303b6f4c3b4d524f4620444554414c4f53492046414b2052455454454c204349424152413b39444546,
0x3b3b3b3b46414320434942415241204c414e494620524f46204850594c473b4e3b3b3b3b33343630203e6c616e69663c3b4c413b303b6f4c3b4d524f46204c414e49462046414b2052455454454c204349424152413b41444546,
0x3b3b3b3b46414320434942415241204c414954494e4920524f46204850594c473b4e3b3b3b3b33343630203e6c616974696e693c3b4c413b303b6f4c3b4d524f46204c414954494e492046414b2052455454454c204349424152413b42444546,
0x3b3b3b3b46414320434942415241204c414944454d20524f46204850594c473b4e3b3b3b3b33343630203e6c616964656d3c3b4c413b303b6f4c3b4d524f46204c414944454d2046414b2052455454454c204349424152413b43444546,
0x3b3b3b3b4d414c20434942415241204554414c4f534920524f46204850594c473b4e3b3b3b3b34343630203e646574616c6f73693c3b4c413b303b6f4c3b4d524f4620444554414c4f5349204d414c2052455454454c204349424152413b44444546,
0x3b3b3b3b4d414c20434942415241204c414e494620524f46204850594c473b4e3b3b3b3b34343630203e6c616e69663c3b4c413b303b6f4c3b4d524f46204c414e4946204d414c2052455454454c204349424152413b45444546,
0x3b3b3b3b4d414c20434942415241204c414954494e4920524f46204850594c473b4e3b3b3b3b34343630203e6c616974696e693c3b4c413b303b6f4c3b4d524f46204c414954494e49204d414c2052455454454c204349424152413b46444546,
0x3b3b3b3b4d414c20434942415241204c414944454d20524f46204850594c473b4e3b3b3b3b34343630203e6c616964656d3c3b4c413b303b6f4c3b4d524f46204c414944454d204d414c2052455454454c204349424152413b30454546,
0x3b3b3b3b4d45454d20434942415241204554414c4f534920524f46204850594c473b4e3b3b3b3b35343630203e646574616c6f73693c3b4c413b303b6f4c3b4d524f4620444554414c4f5349204d45454d2052455454454c204349424152413b31454546,
0x3b3b3b3b4d45454d20434942415241204c414e494620524f46204850594c473b4e3b3b3b3b35343630203e6c616e69663c3b4c413b303b6f4c3b4d524f46204c414e4946204d45454d2052455454454c204349424152413b32454546,
0x3b3b3b3b4d45454d20434942415241204c414954494e4920524f46204850594c473b4e3b3b3b3b35343630203e6c616974696e693c3b4c413b303b6f4c3b4d524f46204c414954494e49204d45454d2052455454454c204349424152413b33454546,
0x3b3b3b3b4d45454d20434942415241204c414944454d20524f46204850594c473b4e3b3b3b3b35343630203e6c616964656d3c3b4c413b303b6f4c3b4d524f46204c414944454d204d45454d2052455454454c204349424152413b34454546,
0x3b3b3b3b4e4f4f4e20434942415241204554414c4f534920524f46204850594c473b4e3b3b3b3b36343630203e646574616c6f73693c3b4c413b303b6f4c3b4d524f4620444554414c4f5349204e4f4f4e2052455454454c204349424152413b35454546,
0x3b3b3b3b4e4f4f4e20434942415241204c414e494620524f46204850594c473b4e3b3b3b3b36343630203e6c616e69663c3b4c413b303b6f4c3b4d524f46204c414e4946204e4f4f4e2052455454454c204349424152413b36454546,
0x3b3b3b3b4e4f4f4e20434942415241204c414954494e4920524f46204850594c473b4e3b3b3b3b36343630203e6c616974696e693c3b4c413b303b6f4c3b4d524f46204c414954494e49204e4f4f4e2052455454454c204349424152413b37454546,
0x3b3b3b3b4e4f4f4e20434942415241204c414944454d20524f46204850594c473b4e3b3b3b3b36343630203e6c616964656d3c3b4c413b303b6f4c3b4d524f46204c414944454d204e4f4f4e2052455454454c204349424152413b38454546,
0x3b3b3b3b414820434942415241204554414c4f534920524f46204850594c473b4e3b3b3b3b37343630203e646574616c6f73693c3b4c413b303b6f4c3b4d524f4620444554414c4f5349204845482052455454454c204349424152413b39454546,
0x3b3b3b3b414820434942415241204c414e494620524f46204850594c473b4e3b3b3b3b37343630203e6c616e69663c3b4c413b303b6f4c3b4d524f46204c414e4946204845482052455454454c204349424152413b41454546,
0x3b3b3b3b414820434942415241204c414954494e4920524f46204850594c473b4e3b3b3b3b37343630203e6c616974696e693c3b4c413b303b6f4c3b4d524f46204c414954494e49204845482052455454454c204349424152413b42454546,
0x3b3b3b3b414820434942415241204c414944454d20524f46204850594c473b4e3b3b3b3b37343630203e6c616964656d3c3b4c413b303b6f4c3b4d524f46204c414944454d204845482052455454454c204349424152413b43454546,
0x3b3b3b3b57415720434942415241204554414c4f534920524f46204850594c473b4e3b3b3b3b38343630203e646574616c6f73693c3b4c413b303b6f4c3b4d524f4620444554414c4f5349205741572052455454454c204349424152413b44454546,
0x3b3b3b3b57415720434942415241204c414e494620524f46204850594c473b4e3b3b3b3b38343630203e6c616e69663c3b4c413b303b6f4c3b4d524f46204c414e4946205741572052455454454c204349424152413b45454546,
0x3b3b3b3b484152555351414d2046454c4120434942415241204554414c4f534920524f46204850594c473b4e3b3b3b3b39343630203e646574616c6f73693c3b4c413b303b6f4c3b4d524f4620444554414c4f534920415255534b414d2046454c412052455454454c204349424152413b46454546,
0x3b3b3b3b484152555351414d2046454c4120434942415241204c414e494620524f46204850594c473b4e3b3b3b3b39343630203e6c616e69663c3b4c413b303b6f4c3b4d524f46204c414e494620415255534b414d2046454c412052455454454c204349424152413b30464546,
0x3b3b3b3b415920434942415241204554414c4f534920524f46204850594c473b4e3b3b3b3b41343630203e646574616c6f73693c3b4c413b303b6f4c3b4d524f4620444554414c4f5349204845592052455454454c204349424152413b31464546,
0x3b3b3b3b415920434942415241204c414e494620524f46204850594c473b4e3b3b3b3b41343630203e6c616e69663c3b4c413b303b6f4c3b4d524f46204c414e4946204845592052455454454c204349424152413b32464546,
0x3b3b3b3b415920434942415241204c414954494e4920524f46204850594c473b4e3b3b3b3b41343630203e6c616974696e693c3b4c413b303b6f4c3b4d524f46204c414954494e49204845592052455454454c204349424152413b33464546,
0x3b3b3b3b415920434942415241204c414944454d20524f46204850594c473b4e3b3b3b3b41343630203e6c616964656d3c3b4c413b303b6f4c3b4d524f46204c414944454d204845592052455454454c204349424152413b34464546,
0x3b3b3b3b46454c41204d414c20455255544147494c204e4f2048414444414d20434942415241204554414c4f534920524f46204850594c473b4e3b3b3b3b323236302034343630203e646574616c6f73693c3b4c413b303b6f4c3b4d524f4620444554414c4f53492045564f424120414444414d20485449572046454c412048544957204d414c20455255544147494c204349424152413b35464546,
0x3b3b3b3b46454c41204d414c20455255544147494c204e4f2048414444414d20434942415241204c414e494620524f46204850594c473b4e3b3b3b3b323236302034343630203e6c616e69663c3b4c413b303b6f4c3b4d524f46204c414e49462045564f424120414444414d20485449572046454c412048544957204d414c20455255544147494c204349424152413b36464546,
0x3b3b3b3b46454c41204d414c20455255544147494c204e4f2048415a4d414820434942415241204554414c4f534920524f46204850594c473b4e3b3b3b3b333236302034343630203e646574616c6f73693c3b4c413b303b6f4c3b4d524f4620444554414c4f53492045564f424120415a4d414820485449572046454c412048544957204d414c20455255544147494c204349424152413b37464546,
0x3b3b3b3b46454c41204d414c20455255544147494c204e4f2048415a4d414820434942415241204c414e494620524f46204850594c473b4e3b3b3b3b333236302034343630203e6c616e69663c3b4c413b303b6f4c3b4d524f46204c414e49462045564f424120415a4d414820485449572046454c412048544957204d414c20455255544147494c204349424152413b38464546,
0x3b3b3b3b46454c41204d414c20455255544147494c205245444e552048415a4d414820434942415241204554414c4f534920524f46204850594c473b4e3b3b3b3b353236302034343630203e646574616c6f73693c3b4c413b303b6f4c3b4d524f4620444554414c4f534920574f4c454220415a4d414820485449572046454c412048544957204d414c20455255544147494c204349424152413b39464546,
0x3b3b3b3b46454c41204d414c20455255544147494c205245444e552048415a4d414820434942415241204c414e494620524f46204850594c473b4e3b3b3b3b353236302034343630203e6c616e69663c3b4c413b303b6f4c3b4d524f46204c414e494620574f4c454220415a4d414820485449572046454c412048544957204d414c20455255544147494c204349424152413b41464546,
0x3b3b3b3b46454c41204d414c20455255544147494c20434942415241204554414c4f534920524f46204850594c473b4e3b3b3b3b373236302034343630203e646574616c6f73693c3b4c413b303b6f4c3b4d524f4620444554414c4f53492046454c412048544957204d414c20455255544147494c204349424152413b42464546,
0x3b3b3b3b46454c41204d414c20455255544147494c20434942415241204c414e494620524f46204850594c473b4e3b3b3b3b373236302034343630203e6c616e69663c3b4c413b303b6f4c3b4d524f46204c414e49462046454c412048544957204d414c20455255544147494c204349424152413b43464546,
0x3b3b3b3b4b52414d20524544524f20455459423b4e3b3b3b3b3b4e423b303b66433b4543415053204b414552422d4f4e204854444957204f52455a3b46464546,
0x3b3b3b3b3b4e3b3b3b3b31323030203e656469773c3b4e4f3b303b6f503b4b52414d204e4f4954414d414c4358452048544449574c4c55463b31304646,
0x3b3b3b3b3b4e3b3b3b3b32323030203e656469773c3b4e4f3b303b6f503b4b52414d204e4f495441544f55512048544449574c4c55463b32304646,
0x3b3b3b3b3b4e3b3b3b3b33323030203e656469773c3b54453b303b6f503b4e474953205245424d554e2048544449574c4c55463b33304646,
0x3b3b3b3b3b4e3b3b3b3b34323030203e656469773c3b54453b303b63533b4e4749532052414c4c4f442048544449574c4c55463b34304646,
0x3b3b3b3b3b4e3b3b3b3b35323030203e656469773c3b54453b303b6f503b4e47495320544e45435245502048544449574c4c55463b35304646,
0x3b3b3b3b3b4e3b3b3b3b36323030203e656469773c3b4e4f3b303b6f503b444e41535245504d412048544449574c4c55463b36304646,
0x3b3b3b3b3b4e3b3b3b3b37323030203e656469773c3b4e4f3b303b6f503b4548504f5254534f50412048544449574c4c55463b37304646,
0x3b3b3b3b5349534548544e4552415020474e494e45504f2048544449574c4c55463b593b3b3b3b38323030203e656469773c3b4e4f3b303b73503b5349534548544e45524150205446454c2048544449574c4c55463b38304646,
0x3b3b3b3b5349534548544e4552415020474e49534f4c432048544449574c4c55463b593b3b3b3b39323030203e656469773c3b4e4f3b303b65503b5349534548544e455241502054484749522048544449574c4c55463b39304646,
0x3b3b3b3b3b4e3b3b3b3b41323030203e656469773c3b4e4f3b303b6f503b4b534952455453412048544449574c4c55463b41304646,
0x3b3b3b3b3b4e3b3b3b3b42323030203e656469773c3b53453b303b6d533b4e4749532053554c502048544449574c4c55463b42304646,
0x3b3b3b3b3b4e3b3b3b3b43323030203e656469773c3b53433b303b6f503b414d4d4f432048544449574c4c55463b43304646,
0x3b3b3b3b3b4e3b3b3b3b44323030203e656469773c3b53453b303b64503b53554e494d2d4e45485059482048544449574c4c55463b44304646,
0x3b3b3b3b444f495245502048544449574c4c55463b4e3b3b3b3b45323030203e656469773c3b53433b303b6f503b504f5453204c4c55462048544449574c4c55463b45304646,
0x3b3b3b3b4853414c532048544449574c4c55463b4e3b3b3b3b46323030203e656469773c3b53433b303b6f503b535544494c4f532048544449574c4c55463b46304646,
0x3b3b3b3b3b4e3b303b303b303b30333030203e656469773c3b4e453b303b644e3b4f52455a2054494749442048544449574c4c55463b30314646,
0x3b3b3b3b3b4e3b313b313b313b31333030203e656469773c3b4e453b303b644e3b454e4f2054494749442048544449574c4c55463b31314646,
0x3b3b3b3b3b4e3b323b323b323b32333030203e656469773c3b4e453b303b644e3b4f57542054494749442048544449574c4c55463b32314646,
0x3b3b3b3b3b4e3b333b333b333b33333030203e656469773c3b4e453b303b644e3b45455248542054494749442048544449574c4c55463b33314646,
0x3b3b3b3b3b4e3b343b343b343b34333030203e656469773c3b4e453b303b644e3b52554f462054494749442048544449574c4c55463b34314646,
0x3b3b3b3b3b4e3b353b353b353b35333030203e656469773c3b4e453b303b644e3b455649462054494749442048544449574c4c55463b35314646,
0x3b3b3b3b3b4e3b363b363b363b36333030203e656469773c3b4e453b303b644e3b5849532054494749442048544449574c4c55463b36314646,
0x3b3b3b3b3b4e3b373b373b373b37333030203e656469773c3b4e453b303b644e3b4e455645532054494749442048544449574c4c55463b37314646,
0x3b3b3b3b3b4e3b383b383b383b38333030203e656469773c3b4e453b303b644e3b54484749452054494749442048544449574c4c55463b38314646,
0x3b3b3b3b3b4e3b393b393b393b39333030203e656469773c3b4e453b303b644e3b454e494e2054494749442048544449574c4c55463b39314646,
0x3b3b3b3b3b4e3b3b3b3b41333030203e656469773c3b53433b303b6f503b4e4f4c4f432048544449574c4c55463b41314646,
0x3b3b3b3b3b4e3b3b3b3b42333030203e656469773c3b4e4f3b303b6f503b4e4f4c4f43494d45532048544449574c4c55463b42314646,
0x3b3b3b3b3b593b3b3b3b43333030203e656469773c3b4e4f3b303b6d533b4e474953204e4148542d5353454c2048544449574c4c55463b43314646,
0x3b3b3b3b3b4e3b3b3b3b44333030203e656469773c3b4e4f3b303b6d533b4e47495320534c415551452048544449574c4c55463b44314646,
0x3b3b3b3b3b593b3b3b3b45333030203e656469773c3b4e4f3b303b6d533b4e474953204e4148542d524554414552472048544449574c4c55463b45314646,
0x3b3b3b3b3b4e3b3b3b3b46333030203e656469773c3b4e4f3b303b6f503b4b52414d204e4f4954534555512048544449574c4c55463b46314646,
0x3b3b3b3b3b4e3b3b3b3b30343030203e656469773c3b4e4f3b303b6f503b5441204c41494352454d4d4f432048544449574c4c55463b30324646,
0x3b313446463b3b3b3b4e3b3b3b3b31343030203e656469773c3b4c3b303b754c3b412052455454454c204c415449504143204e4954414c2048544449574c4c55463b31324646,
0x3b323446463b3b3b3b4e3b3b3b3b32343030203e656469773c3b4c3b303b754c3b422052455454454c204c415449504143204e4954414c2048544449574c4c55463b32324646,
0x3b333446463b3b3b3b4e3b3b3b3b33343030203e656469773c3b4c3b303b754c3b432052455454454c204c415449504143204e4954414c2048544449574c4c55463b33324646,
0x3b343446463b3b3b3b4e3b3b3b3b34343030203e656469773c3b4c3b303b754c3b442052455454454c204c415449504143204e4954414c2048544449574c4c55463b34324646,
0x3b353446463b3b3b3b4e3b3b3b3b35343030203e656469773c3b4c3b303b754c3b452052455454454c204c415449504143204e4954414c2048544449574c4c55463b35324646,
0x3b363446463b3b3b3b4e3b3b3b3b36343030203e656469773c3b4c3b303b754c3b462052455454454c204c415449504143204e4954414c2048544449574c4c55463b36324646,
0x3b373446463b3b3b3b4e3b3b3b3b37343030203e656469773c3b4c3b303b754c3b472052455454454c204c415449504143204e4954414c2048544449574c4c55463b37324646,
0x3b383446463b3b3b3b4e3b3b3b3b38343030203e656469773c3b4c3b303b754c3b482052455454454c204c415449504143204e4954414c2048544449574c4c55463b38324646,
0x3b393446463b3b3b3b4e3b3b3b3b39343030203e656469773c3b4c3b303b754c3b492052455454454c204c415449504143204e4954414c2048544449574c4c55463b39324646,
0x3b413446463b3b3b3b4e3b3b3b3b41343030203e656469773c3b4c3b303b754c3b4a2052455454454c204c415449504143204e4954414c2048544449574c4c55463b41324646,
0x3b423446463b3b3b3b4e3b3b3b3b42343030203e656469773c3b4c3b303b754c3b4b2052455454454c204c415449504143204e4954414c2048544449574c4c55463b42324646,
0x3b433446463b3b3b3b4e3b3b3b3b43343030203e656469773c3b4c3b303b754c3b4c2052455454454c204c415449504143204e4954414c2048544449574c4c55463b43324646,
0x3b443446463b3b3b3b4e3b3b3b3b44343030203e656469773c3b4c3b303b754c3b4d2052455454454c204c415449504143204e4954414c2048544449574c4c55463b44324646,
0x3b453446463b3b3b3b4e3b3b3b3b45343030203e656469773c3b4c3b303b754c3b4e2052455454454c204c415449504143204e4954414c2048544449574c4c55463b45324646,
0x3b463446463b3b3b3b4e3b3b3b3b46343030203e656469773c3b4c3b303b754c3b4f2052455454454c204c415449504143204e4954414c2048544449574c4c55463b46324646,
0x3b303546463b3b3b3b4e3b3b3b3b30353030203e656469773c3b4c3b303b754c3b502052455454454c204c415449504143204e4954414c2048544449574c4c55463b30334646,
0x3b313546463b3b3b3b4e3b3b3b3b31353030203e656469773c3b4c3b303b754c3b512052455454454c204c415449504143204e4954414c2048544449574c4c55463b31334646,
0x3b323546463b3b3b3b4e3b3b3b3b32353030203e656469773c3b4c3b303b754c3b522052455454454c204c415449504143204e4954414c2048544449574c4c55463b32334646,
0x3b333546463b3b3b3b4e3b3b3b3b33353030203e656469773c3b4c3b303b754c3b532052455454454c204c415449504143204e4954414c2048544449574c4c55463b33334646,
0x3b343546463b3b3b3b4e3b3b3b3b34353030203e656469773c3b4c3b303b754c3b542052455454454c204c415449504143204e4954414c2048544449574c4c55463b34334646,
0x3b353546463b3b3b3b4e3b3b3b3b35353030203e656469773c3b4c3b303b754c3b552052455454454c204c415449504143204e4954414c2048544449574c4c55463b35334646,
0x3b363546463b3b3b3b4e3b3b3b3b36353030203e656469773c3b4c3b303b754c3b562052455454454c204c415449504143204e4954414c2048544449574c4c55463b36334646,
0x3b373546463b3b3b3b4e3b3b3b3b37353030203e656469773c3b4c3b303b754c3b572052455454454c204c415449504143204e4954414c2048544449574c4c55463b37334646,
0x3b383546463b3b3b3b4e3b3b3b3b38353030203e656469773c3b4c3b303b754c3b582052455454454c204c415449504143204e4954414c2048544449574c4c55463b38334646,
0x3b393546463b3b3b3b4e3b3b3b3b39353030203e656469773c3b4c3b303b754c3b592052455454454c204c415449504143204e4954414c2048544449574c4c55463b39334646,
0x3b413546463b3b3b3b4e3b3b3b3b41353030203e656469773c3b4c3b303b754c3b5a2052455454454c204c415449504143204e4954414c2048544449574c4c55463b41334646,
0x3b3b3b3b54454b434152422045524155515320474e494e45504f2048544449574c4c55463b593b3b3b3b42353030203e656469773c3b4e4f3b303b73503b54454b4341524220455241555153205446454c2048544449574c4c55463b42334646,
0x3b3b3b3b4853414c534b4341422048544449574c4c55463b4e3b3b3b3b43353030203e656469773c3b4e4f3b303b6f503b535544494c4f5320455352455645522048544449574c4c55463b43334646,
0x3b3b3b3b54454b434152422045524155515320474e49534f4c432048544449574c4c55463b593b3b3b3b44353030203e656469773c3b4e4f3b303b65503b54454b43415242204552415551532054484749522048544449574c4c55463b44334646,
0x3b3b3b3b58454c464d554352494320474e49434150532048544449574c4c55463b4e3b3b3b3b45353030203e656469773c3b4e4f3b303b6b533b544e454343412058454c464d55435249432048544449574c4c55463b45334646,
0x3b3b3b3b45524f43535245444e5520474e49434150532048544449574c4c55463b4e3b3b3b3b46353030203e656469773c3b4e4f3b303b63503b454e494c20574f4c2048544449574c4c55463b46334646,
0x3b3b3b3b455641524720474e49434150532048544449574c4c55463b4e3b3b3b3b30363030203e656469773c3b4e4f3b303b6b533b544e454343412045564152472048544449574c4c55463b30344646,
0x313246463b3b313246463b3b3b4e3b3b3b3b31363030203e656469773c3b4c3b303b6c4c3b412052455454454c204c4c414d53204e4954414c2048544449574c4c55463b31344646,
0x323246463b3b323246463b3b3b4e3b3b3b3b32363030203e656469773c3b4c3b303b6c4c3b422052455454454c204c4c414d53204e4954414c2048544449574c4c55463b32344646,
0x333246463b3b333246463b3b3b4e3b3b3b3b33363030203e656469773c3b4c3b303b6c4c3b432052455454454c204c4c414d53204e4954414c2048544449574c4c55463b33344646]

/-- src/u5e/props/UnicodeData.txt lines 16385-16640. -/
def rawUcd64 : List Nat := [
0x343246463b3b343246463b3b3b4e3b3b3b3b34363030203e656469773c3b4c3b303b6c4c3b442052455454454c204c4c414d53204e4954414c2048544449574c4c55463b34344646,
0x353246463b3b353246463b3b3b4e3b3b3b3b35363030203e656469773c3b4c3b303b6c4c3b452052455454454c204c4c414d53204e4954414c2048544449574c4c55463b35344646,
0x363246463b3b363246463b3b3b4e3b3b3b3b36363030203e656469773c3b4c3b303b6c4c3b462052455454454c204c4c414d53204e4954414c2048544449574c4c55463b36344646,
0x373246463b3b373246463b3b3b4e3b3b3b3b37363030203e656469773c3b4c3b303b6c4c3b472052455454454c204c4c414d53204e4954414c2048544449574c4c55463b37344646,
0x383246463b3b383246463b3b3b4e3b3b3b3b38363030203e656469773c3b4c3b303b6c4c3b482052455454454c204c4c414d53204e4954414c2048544449574c4c55463b38344646,
0x393246463b3b393246463b3b3b4e3b3b3b3b39363030203e656469773c3b4c3b303b6c4c3b492052455454454c204c4c414d53204e4954414c2048544449574c4c55463b39344646,
0x413246463b3b413246463b3b3b4e3b3b3b3b41363030203e656469773c3b4c3b303b6c4c3b4a2052455454454c204c4c414d53204e4954414c2048544449574c4c55463b41344646,
0x423246463b3b423246463b3b3b4e3b3b3b3b42363030203e656469773c3b4c3b303b6c4c3b4b2052455454454c204c4c414d53204e4954414c2048544449574c4c55463b42344646,
0x433246463b3b433246463b3b3b4e3b3b3b3b43363030203e656469773c3b4c3b303b6c4c3b4c2052455454454c204c4c414d53204e4954414c2048544449574c4c55463b43344646,
0x443246463b3b443246463b3b3b4e3b3b3b3b44363030203e656469773c3b4c3b303b6c4c3b4d2052455454454c204c4c414d53204e4954414c2048544449574c4c55463b44344646,
0x453246463b3b453246463b3b3b4e3b3b3b3b45363030203e656469773c3b4c3b303b6c4c3b4e2052455454454c204c4c414d53204e4954414c2048544449574c4c55463b45344646,
0x463246463b3b463246463b3b3b4e3b3b3b3b46363030203e656469773c3b4c3b303b6c4c3b4f2052455454454c204c4c414d53204e4954414c2048544449574c4c55463b46344646,
0x303346463b3b303346463b3b3b4e3b3b3b3b30373030203e656469773c3b4c3b303b6c4c3b502052455454454c204c4c414d53204e4954414c2048544449574c4c55463b30354646,
0x313346463b3b313346463b3b3b4e3b3b3b3b31373030203e656469773c3b4c3b303b6c4c3b512052455454454c204c4c414d53204e4954414c2048544449574c4c55463b31354646,
0x323346463b3b323346463b3b3b4e3b3b3b3b32373030203e656469773c3b4c3b303b6c4c3b522052455454454c204c4c414d53204e4954414c2048544449574c4c55463b32354646,
0x333346463b3b333346463b3b3b4e3b3b3b3b33373030203e656469773c3b4c3b303b6c4c3b532052455454454c204c4c414d53204e4954414c2048544449574c4c55463b33354646,
0x343346463b3b343346463b3b3b4e3b3b3b3b34373030203e656469773c3b4c3b303b6c4c3b542052455454454c204c4c414d53204e4954414c2048544449574c4c55463b34354646,
0x353346463b3b353346463b3b3b4e3b3b3b3b35373030203e656469773c3b4c3b303b6c4c3b552052455454454c204c4c414d53204e4954414c2048544449574c4c55463b35354646,
0x363346463b3b363346463b3b3b4e3b3b3b3b36373030203e656469773c3b4c3b303b6c4c3b562052455454454c204c4c414d53204e4954414c2048544449574c4c55463b36354646,
0x373346463b3b373346463b3b3b4e3b3b3b3b37373030203e656469773c3b4c3b303b6c4c3b572052455454454c204c4c414d53204e4954414c2048544449574c4c55463b37354646,
0x383346463b3b383346463b3b3b4e3b3b3b3b38373030203e656469773c3b4c3b303b6c4c3b582052455454454c204c4c414d53204e4954414c2048544449574c4c55463b38354646,
0x393346463b3b393346463b3b3b4e3b3b3b3b39373030203e656469773c3b4c3b303b6c4c3b592052455454454c204c4c414d53204e4954414c2048544449574c4c55463b39354646,
0x413346463b3b413346463b3b3b4e3b3b3b3b41373030203e656469773c3b4c3b303b6c4c3b5a2052455454454c204c4c414d53204e4954414c2048544449574c4c55463b41354646,
0x3b3b3b3b54454b4341524220594c52554320474e494e45504f2048544449574c4c55463b593b3b3b3b42373030203e656469773c3b4e4f3b303b73503b54454b4341524220594c525543205446454c2048544449574c4c55463b42354646,
0x3b3b3b3b524142204c414349545245562048544449574c4c55463b4e3b3b3b3b43373030203e656469773c3b4e4f3b303b6d533b454e494c204c414349545245562048544449574c4c55463b43354646,
0x3b3b3b3b54454b4341524220594c52554320474e49534f4c432048544449574c4c55463b593b3b3b3b44373030203e656469773c3b4e4f3b303b65503b54454b4341524220594c5255432054484749522048544449574c4c55463b44354646,
0x3b3b3b3b45444c495420474e49434150532048544449574c4c55463b4e3b3b3b3b45373030203e656469773c3b4e4f3b303b6d533b45444c49542048544449574c4c55463b45354646,
0x3b3b3b3b3b593b3b3b3b35383932203e656469773c3b4e4f3b303b73503b5349534548544e45524150204554494857205446454c2048544449574c4c55463b46354646,
0x3b3b3b3b3b593b3b3b3b36383932203e656469773c3b4e4f3b303b65503b5349534548544e455241502045544948572054484749522048544449574c4c55463b30364646,
0x3b3b3b3b444f4952455020434948504152474f454449204854444957464c41483b4e3b3b3b3b32303033203e776f7272616e3c3b4e4f3b303b6f503b504f5453204c4c554620434948504152474f454449204854444957464c41483b31364646,
0x3b3b3b3b54454b434152422052454e524f4320474e494e45504f204854444957464c41483b593b3b3b3b43303033203e776f7272616e3c3b4e4f3b303b73503b54454b434152422052454e524f43205446454c204854444957464c41483b32364646,
0x3b3b3b3b54454b434152422052454e524f4320474e49534f4c43204854444957464c41483b593b3b3b3b44303033203e776f7272616e3c3b4e4f3b303b65503b54454b434152422052454e524f43205448474952204854444957464c41483b33364646,
0x3b3b3b3b3b4e3b3b3b3b31303033203e776f7272616e3c3b4e4f3b303b6f503b414d4d4f4320434948504152474f454449204854444957464c41483b34364646,
0x3b3b3b3b3b4e3b3b3b3b42463033203e776f7272616e3c3b4e4f3b303b6f503b544f4420454c4444494d20414e414b4154414b204854444957464c41483b35364646,
0x3b3b3b3b3b4e3b3b3b3b32463033203e776f7272616e3c3b4c3b303b6f4c3b4f572052455454454c20414e414b4154414b204854444957464c41483b36364646,
0x3b3b3b3b3b4e3b3b3b3b31413033203e776f7272616e3c3b4c3b303b6f4c3b41204c4c414d532052455454454c20414e414b4154414b204854444957464c41483b37364646,
0x3b3b3b3b3b4e3b3b3b3b33413033203e776f7272616e3c3b4c3b303b6f4c3b49204c4c414d532052455454454c20414e414b4154414b204854444957464c41483b38364646,
0x3b3b3b3b3b4e3b3b3b3b35413033203e776f7272616e3c3b4c3b303b6f4c3b55204c4c414d532052455454454c20414e414b4154414b204854444957464c41483b39364646,
0x3b3b3b3b3b4e3b3b3b3b37413033203e776f7272616e3c3b4c3b303b6f4c3b45204c4c414d532052455454454c20414e414b4154414b204854444957464c41483b41364646,
0x3b3b3b3b3b4e3b3b3b3b39413033203e776f7272616e3c3b4c3b303b6f4c3b4f204c4c414d532052455454454c20414e414b4154414b204854444957464c41483b42364646,
0x3b3b3b3b3b4e3b3b3b3b33453033203e776f7272616e3c3b4c3b303b6f4c3b4159204c4c414d532052455454454c20414e414b4154414b204854444957464c41483b43364646,
0x3b3b3b3b3b4e3b3b3b3b35453033203e776f7272616e3c3b4c3b303b6f4c3b5559204c4c414d532052455454454c20414e414b4154414b204854444957464c41483b44364646,
0x3b3b3b3b3b4e3b3b3b3b37453033203e776f7272616e3c3b4c3b303b6f4c3b4f59204c4c414d532052455454454c20414e414b4154414b204854444957464c41483b45364646,
0x3b3b3b3b3b4e3b3b3b3b33433033203e776f7272616e3c3b4c3b303b6f4c3b5554204c4c414d532052455454454c20414e414b4154414b204854444957464c41483b46364646,
0x3b3b3b3b3b4e3b3b3b3b43463033203e776f7272616e3c3b4c3b303b6d4c3b4b52414d20444e554f53204445474e4f4c4f525020414e4147415249482d414e414b4154414b204854444957464c41483b30374646,
0x3b3b3b3b3b4e3b3b3b3b32413033203e776f7272616e3c3b4c3b303b6f4c3b412052455454454c20414e414b4154414b204854444957464c41483b31374646,
0x3b3b3b3b3b4e3b3b3b3b34413033203e776f7272616e3c3b4c3b303b6f4c3b492052455454454c20414e414b4154414b204854444957464c41483b32374646,
0x3b3b3b3b3b4e3b3b3b3b36413033203e776f7272616e3c3b4c3b303b6f4c3b552052455454454c20414e414b4154414b204854444957464c41483b33374646,
0x3b3b3b3b3b4e3b3b3b3b38413033203e776f7272616e3c3b4c3b303b6f4c3b452052455454454c20414e414b4154414b204854444957464c41483b34374646,
0x3b3b3b3b3b4e3b3b3b3b41413033203e776f7272616e3c3b4c3b303b6f4c3b4f2052455454454c20414e414b4154414b204854444957464c41483b35374646,
0x3b3b3b3b3b4e3b3b3b3b42413033203e776f7272616e3c3b4c3b303b6f4c3b414b2052455454454c20414e414b4154414b204854444957464c41483b36374646,
0x3b3b3b3b3b4e3b3b3b3b44413033203e776f7272616e3c3b4c3b303b6f4c3b494b2052455454454c20414e414b4154414b204854444957464c41483b37374646,
0x3b3b3b3b3b4e3b3b3b3b46413033203e776f7272616e3c3b4c3b303b6f4c3b554b2052455454454c20414e414b4154414b204854444957464c41483b38374646,
0x3b3b3b3b3b4e3b3b3b3b31423033203e776f7272616e3c3b4c3b303b6f4c3b454b2052455454454c20414e414b4154414b204854444957464c41483b39374646,
0x3b3b3b3b3b4e3b3b3b3b33423033203e776f7272616e3c3b4c3b303b6f4c3b4f4b2052455454454c20414e414b4154414b204854444957464c41483b41374646,
0x3b3b3b3b3b4e3b3b3b3b35423033203e776f7272616e3c3b4c3b303b6f4c3b41532052455454454c20414e414b4154414b204854444957464c41483b42374646,
0x3b3b3b3b3b4e3b3b3b3b37423033203e776f7272616e3c3b4c3b303b6f4c3b49532052455454454c20414e414b4154414b204854444957464c41483b43374646,
0x3b3b3b3b3b4e3b3b3b3b39423033203e776f7272616e3c3b4c3b303b6f4c3b55532052455454454c20414e414b4154414b204854444957464c41483b44374646,
0x3b3b3b3b3b4e3b3b3b3b42423033203e776f7272616e3c3b4c3b303b6f4c3b45532052455454454c20414e414b4154414b204854444957464c41483b45374646,
0x3b3b3b3b3b4e3b3b3b3b44423033203e776f7272616e3c3b4c3b303b6f4c3b4f532052455454454c20414e414b4154414b204854444957464c41483b46374646,
0x3b3b3b3b3b4e3b3b3b3b46423033203e776f7272616e3c3b4c3b303b6f4c3b41542052455454454c20414e414b4154414b204854444957464c41483b30384646,
0x3b3b3b3b3b4e3b3b3b3b31433033203e776f7272616e3c3b4c3b303b6f4c3b49542052455454454c20414e414b4154414b204854444957464c41483b31384646,
0x3b3b3b3b3b4e3b3b3b3b34433033203e776f7272616e3c3b4c3b303b6f4c3b55542052455454454c20414e414b4154414b204854444957464c41483b32384646,
0x3b3b3b3b3b4e3b3b3b3b36433033203e776f7272616e3c3b4c3b303b6f4c3b45542052455454454c20414e414b4154414b204854444957464c41483b33384646,
0x3b3b3b3b3b4e3b3b3b3b38433033203e776f7272616e3c3b4c3b303b6f4c3b4f542052455454454c20414e414b4154414b204854444957464c41483b34384646,
0x3b3b3b3b3b4e3b3b3b3b41433033203e776f7272616e3c3b4c3b303b6f4c3b414e2052455454454c20414e414b4154414b204854444957464c41483b35384646,
0x3b3b3b3b3b4e3b3b3b3b42433033203e776f7272616e3c3b4c3b303b6f4c3b494e2052455454454c20414e414b4154414b204854444957464c41483b36384646,
0x3b3b3b3b3b4e3b3b3b3b43433033203e776f7272616e3c3b4c3b303b6f4c3b554e2052455454454c20414e414b4154414b204854444957464c41483b37384646,
0x3b3b3b3b3b4e3b3b3b3b44433033203e776f7272616e3c3b4c3b303b6f4c3b454e2052455454454c20414e414b4154414b204854444957464c41483b38384646,
0x3b3b3b3b3b4e3b3b3b3b45433033203e776f7272616e3c3b4c3b303b6f4c3b4f4e2052455454454c20414e414b4154414b204854444957464c41483b39384646,
0x3b3b3b3b3b4e3b3b3b3b46433033203e776f7272616e3c3b4c3b303b6f4c3b41482052455454454c20414e414b4154414b204854444957464c41483b41384646,
0x3b3b3b3b3b4e3b3b3b3b32443033203e776f7272616e3c3b4c3b303b6f4c3b49482052455454454c20414e414b4154414b204854444957464c41483b42384646,
0x3b3b3b3b3b4e3b3b3b3b35443033203e776f7272616e3c3b4c3b303b6f4c3b55482052455454454c20414e414b4154414b204854444957464c41483b43384646,
0x3b3b3b3b3b4e3b3b3b3b38443033203e776f7272616e3c3b4c3b303b6f4c3b45482052455454454c20414e414b4154414b204854444957464c41483b44384646,
0x3b3b3b3b3b4e3b3b3b3b42443033203e776f7272616e3c3b4c3b303b6f4c3b4f482052455454454c20414e414b4154414b204854444957464c41483b45384646,
0x3b3b3b3b3b4e3b3b3b3b45443033203e776f7272616e3c3b4c3b303b6f4c3b414d2052455454454c20414e414b4154414b204854444957464c41483b46384646,
0x3b3b3b3b3b4e3b3b3b3b46443033203e776f7272616e3c3b4c3b303b6f4c3b494d2052455454454c20414e414b4154414b204854444957464c41483b30394646,
0x3b3b3b3b3b4e3b3b3b3b30453033203e776f7272616e3c3b4c3b303b6f4c3b554d2052455454454c20414e414b4154414b204854444957464c41483b31394646,
0x3b3b3b3b3b4e3b3b3b3b31453033203e776f7272616e3c3b4c3b303b6f4c3b454d2052455454454c20414e414b4154414b204854444957464c41483b32394646,
0x3b3b3b3b3b4e3b3b3b3b32453033203e776f7272616e3c3b4c3b303b6f4c3b4f4d2052455454454c20414e414b4154414b204854444957464c41483b33394646,
0x3b3b3b3b3b4e3b3b3b3b34453033203e776f7272616e3c3b4c3b303b6f4c3b41592052455454454c20414e414b4154414b204854444957464c41483b34394646,
0x3b3b3b3b3b4e3b3b3b3b36453033203e776f7272616e3c3b4c3b303b6f4c3b55592052455454454c20414e414b4154414b204854444957464c41483b35394646,
0x3b3b3b3b3b4e3b3b3b3b38453033203e776f7272616e3c3b4c3b303b6f4c3b4f592052455454454c20414e414b4154414b204854444957464c41483b36394646,
0x3b3b3b3b3b4e3b3b3b3b39453033203e776f7272616e3c3b4c3b303b6f4c3b41522052455454454c20414e414b4154414b204854444957464c41483b37394646,
0x3b3b3b3b3b4e3b3b3b3b41453033203e776f7272616e3c3b4c3b303b6f4c3b49522052455454454c20414e414b4154414b204854444957464c41483b38394646,
0x3b3b3b3b3b4e3b3b3b3b42453033203e776f7272616e3c3b4c3b303b6f4c3b55522052455454454c20414e414b4154414b204854444957464c41483b39394646,
0x3b3b3b3b3b4e3b3b3b3b43453033203e776f7272616e3c3b4c3b303b6f4c3b45522052455454454c20414e414b4154414b204854444957464c41483b41394646,
0x3b3b3b3b3b4e3b3b3b3b44453033203e776f7272616e3c3b4c3b303b6f4c3b4f522052455454454c20414e414b4154414b204854444957464c41483b42394646,
0x3b3b3b3b3b4e3b3b3b3b46453033203e776f7272616e3c3b4c3b303b6f4c3b41572052455454454c20414e414b4154414b204854444957464c41483b43394646,
0x3b3b3b3b3b4e3b3b3b3b33463033203e776f7272616e3c3b4c3b303b6f4c3b4e2052455454454c20414e414b4154414b204854444957464c41483b44394646,
0x3b3b3b3b3b4e3b3b3b3b39393033203e776f7272616e3c3b4c3b303b6d4c3b4b52414d20444e554f5320444543494f5620414e414b4154414b204854444957464c41483b45394646,
0x3b3b3b3b3b4e3b3b3b3b41393033203e776f7272616e3c3b4c3b303b6d4c3b4b52414d20444e554f5320444543494f562d494d455320414e414b4154414b204854444957464c41483b46394646,
0x3b3b3b3b4d4f20454143204c55474e4148204854444957464c41483b4e3b3b3b3b34363133203e776f7272616e3c3b4c3b303b6f4c3b52454c4c4946204c55474e4148204854444957464c41483b30414646,
0x3b3b3b3b474f455949472052455454454c204c55474e4148204854444957464c41483b4e3b3b3b3b31333133203e776f7272616e3c3b4c3b303b6f4c3b4b4f4559494b2052455454454c204c55474e4148204854444957464c41483b31414646,
0x3b3b3b3b474f4559494720474e4153532052455454454c204c55474e4148204854444957464c41483b4e3b3b3b3b32333133203e776f7272616e3c3b4c3b303b6f4c3b4b4f4559494b474e4153532052455454454c204c55474e4148204854444957464c41483b32414646,
0x3b3b3b3b534f495320474f455949472052455454454c204c55474e4148204854444957464c41483b4e3b3b3b3b33333133203e776f7272616e3c3b4c3b303b6f4c3b534f49532d4b4f4559494b2052455454454c204c55474e4148204854444957464c41483b33414646,
0x3b3b3b3b3b4e3b3b3b3b34333133203e776f7272616e3c3b4c3b303b6f4c3b4e5545494e2052455454454c204c55474e4148204854444957464c41483b34414646,
0x3b3b3b3b4a5545494a204e5545494e2052455454454c204c55474e4148204854444957464c41483b4e3b3b3b3b35333133203e776f7272616e3c3b4c3b303b6f4c3b43554549432d4e5545494e2052455454454c204c55474e4148204854444957464c41483b35414646,
0x3b3b3b3b4855454948204e5545494e2052455454454c204c55474e4148204854444957464c41483b4e3b3b3b3b36333133203e776f7272616e3c3b4c3b303b6f4c3b48554549482d4e5545494e2052455454454c204c55474e4148204854444957464c41483b36414646,
0x3b3b3b3b4455454749442052455454454c204c55474e4148204854444957464c41483b4e3b3b3b3b37333133203e776f7272616e3c3b4c3b303b6f4c3b5455454b49542052455454454c204c55474e4148204854444957464c41483b37414646,
0x3b3b3b3b44554547494420474e4153532052455454454c204c55474e4148204854444957464c41483b4e3b3b3b3b38333133203e776f7272616e3c3b4c3b303b6f4c3b5455454b4954474e4153532052455454454c204c55474e4148204854444957464c41483b38414646,
0x3b3b3b3b4c5545494c2052455454454c204c55474e4148204854444957464c41483b4e3b3b3b3b39333133203e776f7272616e3c3b4c3b303b6f4c3b4c554549522052455454454c204c55474e4148204854444957464c41483b39414646,
0x3b3b3b3b474f45594947204c5545494c2052455454454c204c55474e4148204854444957464c41483b4e3b3b3b3b41333133203e776f7272616e3c3b4c3b303b6f4c3b4b4f4559494b2d4c554549522052455454454c204c55474e4148204854444957464c41483b41414646,
0x3b3b3b3b4d5545494d204c5545494c2052455454454c204c55474e4148204854444957464c41483b4e3b3b3b3b42333133203e776f7272616e3c3b4c3b303b6f4c3b4d5545494d2d4c554549522052455454454c204c55474e4148204854444957464c41483b42414646,
0x3b3b3b3b4255454942204c5545494c2052455454454c204c55474e4148204854444957464c41483b4e3b3b3b3b43333133203e776f7272616e3c3b4c3b303b6f4c3b50554549502d4c554549522052455454454c204c55474e4148204854444957464c41483b43414646,
0x3b3b3b3b534f4953204c5545494c2052455454454c204c55474e4148204854444957464c41483b4e3b3b3b3b44333133203e776f7272616e3c3b4c3b303b6f4c3b534f49532d4c554549522052455454454c204c55474e4148204854444957464c41483b44414646,
0x3b3b3b3b5455454954204c5545494c2052455454454c204c55474e4148204854444957464c41483b4e3b3b3b3b45333133203e776f7272616e3c3b4c3b303b6f4c3b485455454948542d4c554549522052455454454c204c55474e4148204854444957464c41483b45414646,
0x3b3b3b3b5055454950204c5545494c2052455454454c204c55474e4148204854444957464c41483b4e3b3b3b3b46333133203e776f7272616e3c3b4c3b303b6f4c3b485055454948502d4c554549522052455454454c204c55474e4148204854444957464c41483b46414646,
0x3b3b3b3b4855454948204c5545494c2052455454454c204c55474e4148204854444957464c41483b4e3b3b3b3b30343133203e776f7272616e3c3b4c3b303b6f4c3b48554549482d4c554549522052455454454c204c55474e4148204854444957464c41483b30424646,
0x3b3b3b3b3b4e3b3b3b3b31343133203e776f7272616e3c3b4c3b303b6f4c3b4d5545494d2052455454454c204c55474e4148204854444957464c41483b31424646,
0x3b3b3b3b42554549422052455454454c204c55474e4148204854444957464c41483b4e3b3b3b3b32343133203e776f7272616e3c3b4c3b303b6f4c3b50554549502052455454454c204c55474e4148204854444957464c41483b32424646,
0x3b3b3b3b425545494220474e4153532052455454454c204c55474e4148204854444957464c41483b4e3b3b3b3b33343133203e776f7272616e3c3b4c3b303b6f4c3b5055454950474e4153532052455454454c204c55474e4148204854444957464c41483b33424646,
0x3b3b3b3b534f49532042554549422052455454454c204c55474e4148204854444957464c41483b4e3b3b3b3b34343133203e776f7272616e3c3b4c3b303b6f4c3b534f49532d50554549502052455454454c204c55474e4148204854444957464c41483b34424646,
0x3b3b3b3b3b4e3b3b3b3b35343133203e776f7272616e3c3b4c3b303b6f4c3b534f49532052455454454c204c55474e4148204854444957464c41483b35424646,
0x3b3b3b3b534f495320474e4153532052455454454c204c55474e4148204854444957464c41483b4e3b3b3b3b36343133203e776f7272616e3c3b4c3b303b6f4c3b534f4953474e4153532052455454454c204c55474e4148204854444957464c41483b36424646,
0x3b3b3b3b3b4e3b3b3b3b37343133203e776f7272616e3c3b4c3b303b6f4c3b474e5545492052455454454c204c55474e4148204854444957464c41483b37424646,
0x3b3b3b3b4a5545494a2052455454454c204c55474e4148204854444957464c41483b4e3b3b3b3b38343133203e776f7272616e3c3b4c3b303b6f4c3b43554549432052455454454c204c55474e4148204854444957464c41483b38424646,
0x3b3b3b3b4a5545494a20474e4153532052455454454c204c55474e4148204854444957464c41483b4e3b3b3b3b39343133203e776f7272616e3c3b4c3b303b6f4c3b4355454943474e4153532052455454454c204c55474e4148204854444957464c41483b39424646,
0x3b3b3b3b43554549432052455454454c204c55474e4148204854444957464c41483b4e3b3b3b3b41343133203e776f7272616e3c3b4c3b303b6f4c3b484355454948432052455454454c204c55474e4148204854444957464c41483b41424646,
0x3b3b3b3b4b4f4559494b2052455454454c204c55474e4148204854444957464c41483b4e3b3b3b3b42343133203e776f7272616e3c3b4c3b303b6f4c3b484b554549484b2052455454454c204c55474e4148204854444957464c41483b42424646,
0x3b3b3b3b54554549542052455454454c204c55474e4148204854444957464c41483b4e3b3b3b3b43343133203e776f7272616e3c3b4c3b303b6f4c3b485455454948542052455454454c204c55474e4148204854444957464c41483b43424646,
0x3b3b3b3b50554549502052455454454c204c55474e4148204854444957464c41483b4e3b3b3b3b44343133203e776f7272616e3c3b4c3b303b6f4c3b485055454948502052455454454c204c55474e4148204854444957464c41483b44424646,
0x3b3b3b3b3b4e3b3b3b3b45343133203e776f7272616e3c3b4c3b303b6f4c3b48554549482052455454454c204c55474e4148204854444957464c41483b45424646,
0x3b3b3b3b3b4e3b3b3b3b46343133203e776f7272616e3c3b4c3b303b6f4c3b412052455454454c204c55474e4148204854444957464c41483b32434646,
0x3b3b3b3b3b4e3b3b3b3b30353133203e776f7272616e3c3b4c3b303b6f4c3b45412052455454454c204c55474e4148204854444957464c41483b33434646,
0x3b3b3b3b3b4e3b3b3b3b31353133203e776f7272616e3c3b4c3b303b6f4c3b41592052455454454c204c55474e4148204854444957464c41483b34434646,
0x3b3b3b3b3b4e3b3b3b3b32353133203e776f7272616e3c3b4c3b303b6f4c3b4541592052455454454c204c55474e4148204854444957464c41483b35434646,
0x3b3b3b3b3b4e3b3b3b3b33353133203e776f7272616e3c3b4c3b303b6f4c3b4f452052455454454c204c55474e4148204854444957464c41483b36434646,
0x3b3b3b3b3b4e3b3b3b3b34353133203e776f7272616e3c3b4c3b303b6f4c3b452052455454454c204c55474e4148204854444957464c41483b37434646,
0x3b3b3b3b3b4e3b3b3b3b35353133203e776f7272616e3c3b4c3b303b6f4c3b4f45592052455454454c204c55474e4148204854444957464c41483b41434646,
0x3b3b3b3b3b4e3b3b3b3b36353133203e776f7272616e3c3b4c3b303b6f4c3b45592052455454454c204c55474e4148204854444957464c41483b42434646,
0x3b3b3b3b3b4e3b3b3b3b37353133203e776f7272616e3c3b4c3b303b6f4c3b4f2052455454454c204c55474e4148204854444957464c41483b43434646,
0x3b3b3b3b3b4e3b3b3b3b38353133203e776f7272616e3c3b4c3b303b6f4c3b41572052455454454c204c55474e4148204854444957464c41483b44434646,
0x3b3b3b3b3b4e3b3b3b3b39353133203e776f7272616e3c3b4c3b303b6f4c3b4541572052455454454c204c55474e4148204854444957464c41483b45434646,
0x3b3b3b3b3b4e3b3b3b3b41353133203e776f7272616e3c3b4c3b303b6f4c3b454f2052455454454c204c55474e4148204854444957464c41483b46434646,
0x3b3b3b3b3b4e3b3b3b3b42353133203e776f7272616e3c3b4c3b303b6f4c3b4f592052455454454c204c55474e4148204854444957464c41483b32444646,
0x3b3b3b3b3b4e3b3b3b3b43353133203e776f7272616e3c3b4c3b303b6f4c3b552052455454454c204c55474e4148204854444957464c41483b33444646,
0x3b3b3b3b3b4e3b3b3b3b44353133203e776f7272616e3c3b4c3b303b6f4c3b4f45572052455454454c204c55474e4148204854444957464c41483b34444646,
0x3b3b3b3b3b4e3b3b3b3b45353133203e776f7272616e3c3b4c3b303b6f4c3b45572052455454454c204c55474e4148204854444957464c41483b35444646,
0x3b3b3b3b3b4e3b3b3b3b46353133203e776f7272616e3c3b4c3b303b6f4c3b49572052455454454c204c55474e4148204854444957464c41483b36444646,
0x3b3b3b3b3b4e3b3b3b3b30363133203e776f7272616e3c3b4c3b303b6f4c3b55592052455454454c204c55474e4148204854444957464c41483b37444646,
0x3b3b3b3b3b4e3b3b3b3b31363133203e776f7272616e3c3b4c3b303b6f4c3b55452052455454454c204c55474e4148204854444957464c41483b41444646,
0x3b3b3b3b3b4e3b3b3b3b32363133203e776f7272616e3c3b4c3b303b6f4c3b49592052455454454c204c55474e4148204854444957464c41483b42444646,
0x3b3b3b3b3b4e3b3b3b3b33363133203e776f7272616e3c3b4c3b303b6f4c3b492052455454454c204c55474e4148204854444957464c41483b43444646,
0x3b3b3b3b3b4e3b3b3b3b32413030203e656469773c3b54453b303b63533b4e47495320544e45432048544449574c4c55463b30454646,
0x3b3b3b3b3b4e3b3b3b3b33413030203e656469773c3b54453b303b63533b4e47495320444e554f502048544449574c4c55463b31454646,
0x3b3b3b3b3b4e3b3b3b3b43413030203e656469773c3b4e4f3b303b6d533b4e47495320544f4e2048544449574c4c55463b32454646,
0x3b3b3b3b4e4f5243414d20474e49434150532048544449574c4c55463b4e3b3b3b3b46413030203e656469773c3b4e4f3b303b6b533b4e4f5243414d2048544449574c4c55463b33454646,
0x3b3b3b3b524142204c41434954524556204e454b4f52422048544449574c4c55463b4e3b3b3b3b36413030203e656469773c3b4e4f3b303b6f533b524142204e454b4f52422048544449574c4c55463b34454646,
0x3b3b3b3b3b4e3b3b3b3b35413030203e656469773c3b54453b303b63533b4e474953204e45592048544449574c4c55463b35454646,
0x3b3b3b3b3b4e3b3b3b3b39413032203e656469773c3b54453b303b63533b4e474953204e4f572048544449574c4c55463b36454646,
0x3b3b3b3b3b4e3b3b3b3b32303532203e776f7272616e3c3b4e4f3b303b6f533b4c4143495452455620544847494c20534d524f46204854444957464c41483b38454646,
0x3b3b3b3b3b4e3b3b3b3b30393132203e776f7272616e3c3b4e4f3b303b6d533b574f5252412053445241575446454c204854444957464c41483b39454646,
0x3b3b3b3b3b4e3b3b3b3b31393132203e776f7272616e3c3b4e4f3b303b6d533b574f5252412053445241575055204854444957464c41483b41454646,
0x3b3b3b3b3b4e3b3b3b3b32393132203e776f7272616e3c3b4e4f3b303b6d533b574f5252412053445241575448474952204854444957464c41483b42454646,
0x3b3b3b3b3b4e3b3b3b3b33393132203e776f7272616e3c3b4e4f3b303b6d533b574f5252412053445241574e574f44204854444957464c41483b43454646,
0x3b3b3b3b3b4e3b3b3b3b30413532203e776f7272616e3c3b4e4f3b303b6f533b455241555153204b43414c42204854444957464c41483b44454646,
0x3b3b3b3b3b4e3b3b3b3b42433532203e776f7272616e3c3b4e4f3b303b6f533b454c43524943204554494857204854444957464c41483b45454646,
0x3b3b3b3b3b4e3b3b3b3b3b4e4f3b303b66433b524f48434e41204e4f495441544f4e4e41205241454e494c5245544e493b39464646,
0x3b3b3b3b3b4e3b3b3b3b3b4e4f3b303b66433b524f54415241504553204e4f495441544f4e4e41205241454e494c5245544e493b41464646,
0x3b3b3b3b3b4e3b3b3b3b3b4e4f3b303b66433b524f54414e494d524554204e4f495441544f4e4e41205241454e494c5245544e493b42464646,
0x3b3b3b3b3b4e3b3b3b3b3b4e4f3b303b6f533b52455443415241484320544e454d4543414c504552205443454a424f3b43464646,
0x3b3b3b3b3b4e3b3b3b3b3b4e4f3b303b6f533b52455443415241484320544e454d4543414c5045523b44464646,
0x3b3b3b3b3b4e3b3b3b3b3b4c3b303b6f4c3b41203830304220454c42414c4c59532042205241454e494c3b3030303031,
0x3b3b3b3b3b4e3b3b3b3b3b4c3b303b6f4c3b45203833304220454c42414c4c59532042205241454e494c3b3130303031,
0x3b3b3b3b3b4e3b3b3b3b3b4c3b303b6f4c3b49203832304220454c42414c4c59532042205241454e494c3b3230303031,
0x3b3b3b3b3b4e3b3b3b3b3b4c3b303b6f4c3b4f203136304220454c42414c4c59532042205241454e494c3b3330303031,
0x3b3b3b3b3b4e3b3b3b3b3b4c3b303b6f4c3b55203031304220454c42414c4c59532042205241454e494c3b3430303031,
0x3b3b3b3b3b4e3b3b3b3b3b4c3b303b6f4c3b4144203130304220454c42414c4c59532042205241454e494c3b3530303031,
0x3b3b3b3b3b4e3b3b3b3b3b4c3b303b6f4c3b4544203534304220454c42414c4c59532042205241454e494c3b3630303031,
0x3b3b3b3b3b4e3b3b3b3b3b4c3b303b6f4c3b4944203730304220454c42414c4c59532042205241454e494c3b3730303031,
0x3b3b3b3b3b4e3b3b3b3b3b4c3b303b6f4c3b4f44203431304220454c42414c4c59532042205241454e494c3b3830303031,
0x3b3b3b3b3b4e3b3b3b3b3b4c3b303b6f4c3b5544203135304220454c42414c4c59532042205241454e494c3b3930303031,
0x3b3b3b3b3b4e3b3b3b3b3b4c3b303b6f4c3b414a203735304220454c42414c4c59532042205241454e494c3b4130303031,
0x3b3b3b3b3b4e3b3b3b3b3b4c3b303b6f4c3b454a203634304220454c42414c4c59532042205241454e494c3b4230303031,
0x3b3b3b3b3b4e3b3b3b3b3b4c3b303b6f4c3b4f4a203633304220454c42414c4c59532042205241454e494c3b4430303031,
0x3b3b3b3b3b4e3b3b3b3b3b4c3b303b6f4c3b554a203536304220454c42414c4c59532042205241454e494c3b4530303031,
0x3b3b3b3b3b4e3b3b3b3b3b4c3b303b6f4c3b414b203737304220454c42414c4c59532042205241454e494c3b4630303031,
0x3b3b3b3b3b4e3b3b3b3b3b4c3b303b6f4c3b454b203434304220454c42414c4c59532042205241454e494c3b3031303031,
0x3b3b3b3b3b4e3b3b3b3b3b4c3b303b6f4c3b494b203736304220454c42414c4c59532042205241454e494c3b3131303031,
0x3b3b3b3b3b4e3b3b3b3b3b4c3b303b6f4c3b4f4b203037304220454c42414c4c59532042205241454e494c3b3231303031,
0x3b3b3b3b3b4e3b3b3b3b3b4c3b303b6f4c3b554b203138304220454c42414c4c59532042205241454e494c3b3331303031,
0x3b3b3b3b3b4e3b3b3b3b3b4c3b303b6f4c3b414d203038304220454c42414c4c59532042205241454e494c3b3431303031,
0x3b3b3b3b3b4e3b3b3b3b3b4c3b303b6f4c3b454d203331304220454c42414c4c59532042205241454e494c3b3531303031,
0x3b3b3b3b3b4e3b3b3b3b3b4c3b303b6f4c3b494d203337304220454c42414c4c59532042205241454e494c3b3631303031,
0x3b3b3b3b3b4e3b3b3b3b3b4c3b303b6f4c3b4f4d203531304220454c42414c4c59532042205241454e494c3b3731303031,
0x3b3b3b3b3b4e3b3b3b3b3b4c3b303b6f4c3b554d203332304220454c42414c4c59532042205241454e494c3b3831303031,
0x3b3b3b3b3b4e3b3b3b3b3b4c3b303b6f4c3b414e203630304220454c42414c4c59532042205241454e494c3b3931303031,
0x3b3b3b3b3b4e3b3b3b3b3b4c3b303b6f4c3b454e203432304220454c42414c4c59532042205241454e494c3b4131303031,
0x3b3b3b3b3b4e3b3b3b3b3b4c3b303b6f4c3b494e203033304220454c42414c4c59532042205241454e494c3b4231303031,
0x3b3b3b3b3b4e3b3b3b3b3b4c3b303b6f4c3b4f4e203235304220454c42414c4c59532042205241454e494c3b4331303031,
0x3b3b3b3b3b4e3b3b3b3b3b4c3b303b6f4c3b554e203535304220454c42414c4c59532042205241454e494c3b4431303031,
0x3b3b3b3b3b4e3b3b3b3b3b4c3b303b6f4c3b4150203330304220454c42414c4c59532042205241454e494c3b4531303031,
0x3b3b3b3b3b4e3b3b3b3b3b4c3b303b6f4c3b4550203237304220454c42414c4c59532042205241454e494c3b4631303031,
0x3b3b3b3b3b4e3b3b3b3b3b4c3b303b6f4c3b4950203933304220454c42414c4c59532042205241454e494c3b3032303031,
0x3b3b3b3b3b4e3b3b3b3b3b4c3b303b6f4c3b4f50203131304220454c42414c4c59532042205241454e494c3b3132303031,
0x3b3b3b3b3b4e3b3b3b3b3b4c3b303b6f4c3b5550203035304220454c42414c4c59532042205241454e494c3b3232303031,
0x3b3b3b3b3b4e3b3b3b3b3b4c3b303b6f4c3b4151203631304220454c42414c4c59532042205241454e494c3b3332303031,
0x3b3b3b3b3b4e3b3b3b3b3b4c3b303b6f4c3b4551203837304220454c42414c4c59532042205241454e494c3b3432303031,
0x3b3b3b3b3b4e3b3b3b3b3b4c3b303b6f4c3b4951203132304220454c42414c4c59532042205241454e494c3b3532303031,
0x3b3b3b3b3b4e3b3b3b3b3b4c3b303b6f4c3b4f51203233304220454c42414c4c59532042205241454e494c3b3632303031,
0x3b3b3b3b3b4e3b3b3b3b3b4c3b303b6f4c3b4152203036304220454c42414c4c59532042205241454e494c3b3832303031,
0x3b3b3b3b3b4e3b3b3b3b3b4c3b303b6f4c3b4552203732304220454c42414c4c59532042205241454e494c3b3932303031,
0x3b3b3b3b3b4e3b3b3b3b3b4c3b303b6f4c3b4952203335304220454c42414c4c59532042205241454e494c3b4132303031,
0x3b3b3b3b3b4e3b3b3b3b3b4c3b303b6f4c3b4f52203230304220454c42414c4c59532042205241454e494c3b4232303031,
0x3b3b3b3b3b4e3b3b3b3b3b4c3b303b6f4c3b5552203632304220454c42414c4c59532042205241454e494c3b4332303031,
0x3b3b3b3b3b4e3b3b3b3b3b4c3b303b6f4c3b4153203133304220454c42414c4c59532042205241454e494c3b4432303031,
0x3b3b3b3b3b4e3b3b3b3b3b4c3b303b6f4c3b4553203930304220454c42414c4c59532042205241454e494c3b4532303031,
0x3b3b3b3b3b4e3b3b3b3b3b4c3b303b6f4c3b4953203134304220454c42414c4c59532042205241454e494c3b4632303031,
0x3b3b3b3b3b4e3b3b3b3b3b4c3b303b6f4c3b4f53203231304220454c42414c4c59532042205241454e494c3b3033303031,
0x3b3b3b3b3b4e3b3b3b3b3b4c3b303b6f4c3b5553203835304220454c42414c4c59532042205241454e494c3b3133303031,
0x3b3b3b3b3b4e3b3b3b3b3b4c3b303b6f4c3b4154203935304220454c42414c4c59532042205241454e494c3b3233303031,
0x3b3b3b3b3b4e3b3b3b3b3b4c3b303b6f4c3b4554203430304220454c42414c4c59532042205241454e494c3b3333303031,
0x3b3b3b3b3b4e3b3b3b3b3b4c3b303b6f4c3b4954203733304220454c42414c4c59532042205241454e494c3b3433303031,
0x3b3b3b3b3b4e3b3b3b3b3b4c3b303b6f4c3b4f54203530304220454c42414c4c59532042205241454e494c3b3533303031,
0x3b3b3b3b3b4e3b3b3b3b3b4c3b303b6f4c3b5554203936304220454c42414c4c59532042205241454e494c3b3633303031,
0x3b3b3b3b3b4e3b3b3b3b3b4c3b303b6f4c3b4157203435304220454c42414c4c59532042205241454e494c3b3733303031,
0x3b3b3b3b3b4e3b3b3b3b3b4c3b303b6f4c3b4557203537304220454c42414c4c59532042205241454e494c3b3833303031,
0x3b3b3b3b3b4e3b3b3b3b3b4c3b303b6f4c3b4957203034304220454c42414c4c59532042205241454e494c3b3933303031,
0x3b3b3b3b3b4e3b3b3b3b3b4c3b303b6f4c3b4f57203234304220454c42414c4c59532042205241454e494c3b4133303031,
0x3b3b3b3b3b4e3b3b3b3b3b4c3b303b6f4c3b415a203731304220454c42414c4c59532042205241454e494c3b4333303031,
0x3b3b3b3b3b4e3b3b3b3b3b4c3b303b6f4c3b455a203437304220454c42414c4c59532042205241454e494c3b4433303031,
0x3b3b3b3b3b4e3b3b3b3b3b4c3b303b6f4c3b4f5a203032304220454c42414c4c59532042205241454e494c3b4633303031,
0x3b3b3b3b3b4e3b3b3b3b3b4c3b303b6f4c3b3241203532304220454c42414c4c59532042205241454e494c3b3034303031,
0x3b3b3b3b3b4e3b3b3b3b3b4c3b303b6f4c3b3341203334304220454c42414c4c59532042205241454e494c3b3134303031,
0x3b3b3b3b3b4e3b3b3b3b3b4c3b303b6f4c3b5541203538304220454c42414c4c59532042205241454e494c3b3234303031,
0x3b3b3b3b3b4e3b3b3b3b3b4c3b303b6f4c3b455744203137304220454c42414c4c59532042205241454e494c3b3334303031,
0x3b3b3b3b3b4e3b3b3b3b3b4c3b303b6f4c3b4f5744203039304220454c42414c4c59532042205241454e494c3b3434303031,
0x3b3b3b3b3b4e3b3b3b3b3b4c3b303b6f4c3b41574e203834304220454c42414c4c59532042205241454e494c3b3534303031,
0x3b3b3b3b3b4e3b3b3b3b3b4c3b303b6f4c3b325550203932304220454c42414c4c59532042205241454e494c3b3634303031,
0x3b3b3b3b3b4e3b3b3b3b3b4c3b303b6f4c3b455450203236304220454c42414c4c59532042205241454e494c3b3734303031,
0x3b3b3b3b3b4e3b3b3b3b3b4c3b303b6f4c3b324152203637304220454c42414c4c59532042205241454e494c3b3834303031,
0x3b3b3b3b3b4e3b3b3b3b3b4c3b303b6f4c3b334152203333304220454c42414c4c59532042205241454e494c3b3934303031,
0x3b3b3b3b3b4e3b3b3b3b3b4c3b303b6f4c3b324f52203836304220454c42414c4c59532042205241454e494c3b4134303031,
0x3b3b3b3b3b4e3b3b3b3b3b4c3b303b6f4c3b324154203636304220454c42414c4c59532042205241454e494c3b4234303031,
0x3b3b3b3b3b4e3b3b3b3b3b4c3b303b6f4c3b455754203738304220454c42414c4c59532042205241454e494c3b4334303031,
0x3b3b3b3b3b4e3b3b3b3b3b4c3b303b6f4c3b4f5754203139304220454c42414c4c59532042205241454e494c3b4434303031,
0x3b3b3b3b3b4e3b3b3b3b3b4c3b303b6f4c3b38313042204c4f424d59532042205241454e494c3b3035303031,
0x3b3b3b3b3b4e3b3b3b3b3b4c3b303b6f4c3b39313042204c4f424d59532042205241454e494c3b3135303031,
0x3b3b3b3b3b4e3b3b3b3b3b4c3b303b6f4c3b32323042204c4f424d59532042205241454e494c3b3235303031,
0x3b3b3b3b3b4e3b3b3b3b3b4c3b303b6f4c3b34333042204c4f424d59532042205241454e494c3b3335303031,
0x3b3b3b3b3b4e3b3b3b3b3b4c3b303b6f4c3b37343042204c4f424d59532042205241454e494c3b3435303031,
0x3b3b3b3b3b4e3b3b3b3b3b4c3b303b6f4c3b39343042204c4f424d59532042205241454e494c3b3535303031,
0x3b3b3b3b3b4e3b3b3b3b3b4c3b303b6f4c3b36353042204c4f424d59532042205241454e494c3b3635303031,
0x3b3b3b3b3b4e3b3b3b3b3b4c3b303b6f4c3b33363042204c4f424d59532042205241454e494c3b3735303031,
0x3b3b3b3b3b4e3b3b3b3b3b4c3b303b6f4c3b34363042204c4f424d59532042205241454e494c3b3835303031,
0x3b3b3b3b3b4e3b3b3b3b3b4c3b303b6f4c3b39373042204c4f424d59532042205241454e494c3b3935303031,
0x3b3b3b3b3b4e3b3b3b3b3b4c3b303b6f4c3b32383042204c4f424d59532042205241454e494c3b4135303031,
0x3b3b3b3b3b4e3b3b3b3b3b4c3b303b6f4c3b33383042204c4f424d59532042205241454e494c3b4235303031,
0x3b3b3b3b3b4e3b3b3b3b3b4c3b303b6f4c3b36383042204c4f424d59532042205241454e494c3b4335303031,
0x3b3b3b3b3b4e3b3b3b3b3b4c3b303b6f4c3b39383042204c4f424d59532042205241454e494c3b4435303031,
0x3b3b3b3b3b4e3b3b3b3b3b4c3b303b6f4c3b4e414d2030303142204d4152474f4544492042205241454e494c3b3038303031,
0x3b3b3b3b3b4e3b3b3b3b3b4c3b303b6f4c3b4e414d4f572032303142204d4152474f4544492042205241454e494c3b3138303031,
0x3b3b3b3b3b4e3b3b3b3b3b4c3b303b6f4c3b524545442034303142204d4152474f4544492042205241454e494c3b3238303031,
0x3b3b3b3b3b4e3b3b3b3b3b4c3b303b6f4c3b44495551452035303142204d4152474f4544492042205241454e494c3b3338303031,
0x3b3b3b3b3b4e3b3b3b3b3b4c3b303b6f4c3b4552414d204635303142204d4152474f4544492042205241454e494c3b3438303031]

/-- src/u5e/props/UnicodeData.txt lines 16641-16896. -/
def rawUcd65 : List Nat := [
0x3b3b3b3b3b4e3b3b3b3b3b4c3b303b6f4c3b4e4f494c4c415453204d35303142204d4152474f4544492042205241454e494c3b3538303031,
0x3b3b3b3b3b4e3b3b3b3b3b4c3b303b6f4c3b455745204636303142204d4152474f4544492042205241454e494c3b3638303031,
0x3b3b3b3b3b4e3b3b3b3b3b4c3b303b6f4c3b4d4152204d36303142204d4152474f4544492042205241454e494c3b3738303031,
0x3b3b3b3b3b4e3b3b3b3b3b4c3b303b6f4c3b54414f472d454853204637303142204d4152474f4544492042205241454e494c3b3838303031,
0x3b3b3b3b3b4e3b3b3b3b3b4c3b303b6f4c3b54414f472d4548204d37303142204d4152474f4544492042205241454e494c3b3938303031,
0x3b3b3b3b3b4e3b3b3b3b3b4c3b303b6f4c3b574f53204638303142204d4152474f4544492042205241454e494c3b4138303031,
0x3b3b3b3b3b4e3b3b3b3b3b4c3b303b6f4c3b52414f42204d38303142204d4152474f4544492042205241454e494c3b4238303031,
0x3b3b3b3b3b4e3b3b3b3b3b4c3b303b6f4c3b574f43204639303142204d4152474f4544492042205241454e494c3b4338303031,
0x3b3b3b3b3b4e3b3b3b3b3b4c3b303b6f4c3b4c4c5542204d39303142204d4152474f4544492042205241454e494c3b4438303031,
0x3b3b3b3b3b4e3b3b3b3b3b4c3b303b6f4c3b54414548572030323142204d4152474f4544492042205241454e494c3b4538303031,
0x3b3b3b3b3b4e3b3b3b3b3b4c3b303b6f4c3b59454c5241422031323142204d4152474f4544492042205241454e494c3b4638303031,
0x3b3b3b3b3b4e3b3b3b3b3b4c3b303b6f4c3b4556494c4f2032323142204d4152474f4544492042205241454e494c3b3039303031,
0x3b3b3b3b3b4e3b3b3b3b3b4c3b303b6f4c3b45434950532033323142204d4152474f4544492042205241454e494c3b3139303031,
0x3b3b3b3b3b4e3b3b3b3b3b4c3b303b6f4c3b535552455059432035323142204d4152474f4544492042205241454e494c3b3239303031,
0x3b3b3b3b3b4e3b3b3b3b3b4c3b303b6f4c3b4f50414b2037323142204d4152474f4e4f4d2042205241454e494c3b3339303031,
0x3b3b3b3b3b4e3b3b3b3b3b4c3b303b6f4c3b4f4b414e414b2038323142204d4152474f4e4f4d2042205241454e494c3b3439303031,
0x3b3b3b3b3b4e3b3b3b3b3b4c3b303b6f4c3b4c494f2030333142204d4152474f4544492042205241454e494c3b3539303031,
0x3b3b3b3b3b4e3b3b3b3b3b4c3b303b6f4c3b454e49572031333142204d4152474f4544492042205241454e494c3b3639303031,
0x3b3b3b3b3b4e3b3b3b3b3b4c3b303b6f4c3b32333142204d4152474f4544492042205241454e494c3b3739303031,
0x3b3b3b3b3b4e3b3b3b3b3b4c3b303b6f4c3b41504552412033333142204d4152474f4e4f4d2042205241454e494c3b3839303031,
0x3b3b3b3b3b4e3b3b3b3b3b4c3b303b6f4c3b4952454d2035333142204d4152474f4e4f4d2042205241454e494c3b3939303031,
0x3b3b3b3b3b4e3b3b3b3b3b4c3b303b6f4c3b455a4e4f52422030343142204d4152474f4544492042205241454e494c3b4139303031,
0x3b3b3b3b3b4e3b3b3b3b3b4c3b303b6f4c3b444c4f472031343142204d4152474f4544492042205241454e494c3b4239303031,
0x3b3b3b3b3b4e3b3b3b3b3b4c3b303b6f4c3b32343142204d4152474f4544492042205241454e494c3b4339303031,
0x3b3b3b3b3b4e3b3b3b3b3b4c3b303b6f4c3b4c4f4f572035343142204d4152474f4544492042205241454e494c3b4439303031,
0x3b3b3b3b3b4e3b3b3b3b3b4c3b303b6f4c3b36343142204d4152474f4544492042205241454e494c3b4539303031,
0x3b3b3b3b3b4e3b3b3b3b3b4c3b303b6f4c3b30353142204d4152474f4544492042205241454e494c3b4639303031,
0x3b3b3b3b3b4e3b3b3b3b3b4c3b303b6f4c3b4e524f482031353142204d4152474f4544492042205241454e494c3b3041303031,
0x3b3b3b3b3b4e3b3b3b3b3b4c3b303b6f4c3b32353142204d4152474f4544492042205241454e494c3b3141303031,
0x3b3b3b3b3b4e3b3b3b3b3b4c3b303b6f4c3b33353142204d4152474f4544492042205241454e494c3b3241303031,
0x3b3b3b3b3b4e3b3b3b3b3b4c3b303b6f4c3b34353142204d4152474f4544492042205241454e494c3b3341303031,
0x3b3b3b3b3b4e3b3b3b3b3b4c3b303b6f4c3b324f5255542036353142204d4152474f4e4f4d2042205241454e494c3b3441303031,
0x3b3b3b3b3b4e3b3b3b3b3b4c3b303b6f4c3b37353142204d4152474f4544492042205241454e494c3b3541303031,
0x3b3b3b3b3b4e3b3b3b3b3b4c3b303b6f4c3b38353142204d4152474f4544492042205241454e494c3b3641303031,
0x3b3b3b3b3b4e3b3b3b3b3b4c3b303b6f4c3b48544f4c432039353142204d4152474f4544492042205241454e494c3b3741303031,
0x3b3b3b3b3b4e3b3b3b3b3b4c3b303b6f4c3b30363142204d4152474f4544492042205241454e494c3b3841303031,
0x3b3b3b3b3b4e3b3b3b3b3b4c3b303b6f4c3b31363142204d4152474f4544492042205241454e494c3b3941303031,
0x3b3b3b3b3b4e3b3b3b3b3b4c3b303b6f4c3b544e454d5241472032363142204d4152474f4544492042205241454e494c3b4141303031,
0x3b3b3b3b3b4e3b3b3b3b3b4c3b303b6f4c3b52554f4d52412033363142204d4152474f4544492042205241454e494c3b4241303031,
0x3b3b3b3b3b4e3b3b3b3b3b4c3b303b6f4c3b34363142204d4152474f4544492042205241454e494c3b4341303031,
0x3b3b3b3b3b4e3b3b3b3b3b4c3b303b6f4c3b35363142204d4152474f4544492042205241454e494c3b4441303031,
0x3b3b3b3b3b4e3b3b3b3b3b4c3b303b6f4c3b36363142204d4152474f4544492042205241454e494c3b4541303031,
0x3b3b3b3b3b4e3b3b3b3b3b4c3b303b6f4c3b37363142204d4152474f4544492042205241454e494c3b4641303031,
0x3b3b3b3b3b4e3b3b3b3b3b4c3b303b6f4c3b38363142204d4152474f4544492042205241454e494c3b3042303031,
0x3b3b3b3b3b4e3b3b3b3b3b4c3b303b6f4c3b39363142204d4152474f4544492042205241454e494c3b3142303031,
0x3b3b3b3b3b4e3b3b3b3b3b4c3b303b6f4c3b30373142204d4152474f4544492042205241454e494c3b3242303031,
0x3b3b3b3b3b4e3b3b3b3b3b4c3b303b6f4c3b31373142204d4152474f4544492042205241454e494c3b3342303031,
0x3b3b3b3b3b4e3b3b3b3b3b4c3b303b6f4c3b32373142204d4152474f4544492042205241454e494c3b3442303031,
0x3b3b3b3b3b4e3b3b3b3b3b4c3b303b6f4c3b48544e4f4d2033373142204d4152474f4544492042205241454e494c3b3542303031,
0x3b3b3b3b3b4e3b3b3b3b3b4c3b303b6f4c3b34373142204d4152474f4544492042205241454e494c3b3642303031,
0x3b3b3b3b3b4e3b3b3b3b3b4c3b303b6f4c3b454552542036373142204d4152474f4544492042205241454e494c3b3742303031,
0x3b3b3b3b3b4e3b3b3b3b3b4c3b303b6f4c3b37373142204d4152474f4544492042205241454e494c3b3842303031,
0x3b3b3b3b3b4e3b3b3b3b3b4c3b303b6f4c3b38373142204d4152474f4544492042205241454e494c3b3942303031,
0x3b3b3b3b3b4e3b3b3b3b3b4c3b303b6f4c3b39373142204d4152474f4544492042205241454e494c3b4142303031,
0x3b3b3b3b3b4e3b3b3b3b3b4c3b303b6f4c3b30383142204d4152474f4544492042205241454e494c3b4242303031,
0x3b3b3b3b3b4e3b3b3b3b3b4c3b303b6f4c3b31383142204d4152474f4544492042205241454e494c3b4342303031,
0x3b3b3b3b3b4e3b3b3b3b3b4c3b303b6f4c3b32383142204d4152474f4544492042205241454e494c3b4442303031,
0x3b3b3b3b3b4e3b3b3b3b3b4c3b303b6f4c3b33383142204d4152474f4544492042205241454e494c3b4542303031,
0x3b3b3b3b3b4e3b3b3b3b3b4c3b303b6f4c3b34383142204d4152474f4544492042205241454e494c3b4642303031,
0x3b3b3b3b3b4e3b3b3b3b3b4c3b303b6f4c3b35383142204d4152474f4544492042205241454e494c3b3043303031,
0x3b3b3b3b3b4e3b3b3b3b3b4c3b303b6f4c3b39383142204d4152474f4544492042205241454e494c3b3143303031,
0x3b3b3b3b3b4e3b3b3b3b3b4c3b303b6f4c3b30393142204d4152474f4544492042205241454e494c3b3243303031,
0x3b3b3b3b3b4e3b3b3b3b3b4c3b303b6f4c3b54454d4c45482031393142204d4152474f4544492042205241454e494c3b3343303031,
0x3b3b3b3b3b4e3b3b3b3b3b4c3b303b6f4c3b4c4f4f5453544f4f462030323242204d4152474f4544492042205241454e494c3b3443303031,
0x3b3b3b3b3b4e3b3b3b3b3b4c3b303b6f4c3b425554485441422035323242204d4152474f4544492042205241454e494c3b3543303031,
0x3b3b3b3b3b4e3b3b3b3b3b4c3b303b6f4c3b52414550532030333242204d4152474f4544492042205241454e494c3b3643303031,
0x3b3b3b3b3b4e3b3b3b3b3b4c3b303b6f4c3b574f5252412031333242204d4152474f4544492042205241454e494c3b3743303031,
0x3b3b3b3b3b4e3b3b3b3b3b4c3b303b6f4c3b32333242204d4152474f4544492042205241454e494c3b3843303031,
0x3b3b3b3b3b4e3b3b3b3b3b4c3b303b6f4c3b44524f57532033333242204d4152474f4544492042205241454e494c3b3943303031,
0x3b3b3b3b3b4e3b3b3b3b3b4c3b303b6f4c3b34333242204d4152474f4544492042205241454e494c3b4143303031,
0x3b3b3b3b3b4e3b3b3b3b3b4c3b303b6f4c3b36333242204d4152474f4544492042205241454e494c3b4243303031,
0x3b3b3b3b3b4e3b3b3b3b3b4c3b303b6f4c3b544f49524148432044454c454548572030343242204d4152474f4544492042205241454e494c3b4343303031,
0x3b3b3b3b3b4e3b3b3b3b3b4c3b303b6f4c3b544f49524148432031343242204d4152474f4544492042205241454e494c3b4443303031,
0x3b3b3b3b3b4e3b3b3b3b3b4c3b303b6f4c3b454d41524620544f49524148432032343242204d4152474f4544492042205241454e494c3b4543303031,
0x3b3b3b3b3b4e3b3b3b3b3b4c3b303b6f4c3b4c454548572033343242204d4152474f4544492042205241454e494c3b4643303031,
0x3b3b3b3b3b4e3b3b3b3b3b4c3b303b6f4c3b35343242204d4152474f4544492042205241454e494c3b3044303031,
0x3b3b3b3b3b4e3b3b3b3b3b4c3b303b6f4c3b36343242204d4152474f4544492042205241454e494c3b3144303031,
0x3b3b3b3b3b4e3b3b3b3b3b4c3b303b6f4c3b45545049442037343242204d4152474f4e4f4d2042205241454e494c3b3244303031,
0x3b3b3b3b3b4e3b3b3b3b3b4c3b303b6f4c3b38343242204d4152474f4544492042205241454e494c3b3344303031,
0x3b3b3b3b3b4e3b3b3b3b3b4c3b303b6f4c3b39343242204d4152474f4544492042205241454e494c3b3444303031,
0x3b3b3b3b3b4e3b3b3b3b3b4c3b303b6f4c3b31353242204d4152474f4544492042205241454e494c3b3544303031,
0x3b3b3b3b3b4e3b3b3b3b3b4c3b303b6f4c3b32353242204d4152474f4544492042205241454e494c3b3644303031,
0x3b3b3b3b3b4e3b3b3b3b3b4c3b303b6f4c3b33353242204d4152474f4544492042205241454e494c3b3744303031,
0x3b3b3b3b3b4e3b3b3b3b3b4c3b303b6f4c3b545241442034353242204d4152474f4544492042205241454e494c3b3844303031,
0x3b3b3b3b3b4e3b3b3b3b3b4c3b303b6f4c3b35353242204d4152474f4544492042205241454e494c3b3944303031,
0x3b3b3b3b3b4e3b3b3b3b3b4c3b303b6f4c3b36353242204d4152474f4544492042205241454e494c3b4144303031,
0x3b3b3b3b3b4e3b3b3b3b3b4c3b303b6f4c3b37353242204d4152474f4544492042205241454e494c3b4244303031,
0x3b3b3b3b3b4e3b3b3b3b3b4c3b303b6f4c3b38353242204d4152474f4544492042205241454e494c3b4344303031,
0x3b3b3b3b3b4e3b3b3b3b3b4c3b303b6f4c3b39353242204d4152474f4544492042205241454e494c3b4444303031,
0x3b3b3b3b3b4e3b3b3b3b3b4c3b303b6f4c3b35353142204c4553534556204d4152474f4544492042205241454e494c3b4544303031,
0x3b3b3b3b3b4e3b3b3b3b3b4c3b303b6f4c3b30303242204c4553534556204d4152474f4544492042205241454e494c3b4644303031,
0x3b3b3b3b3b4e3b3b3b3b3b4c3b303b6f4c3b31303242204c4553534556204d4152474f4544492042205241454e494c3b3045303031,
0x3b3b3b3b3b4e3b3b3b3b3b4c3b303b6f4c3b32303242204c4553534556204d4152474f4544492042205241454e494c3b3145303031,
0x3b3b3b3b3b4e3b3b3b3b3b4c3b303b6f4c3b33303242204c4553534556204d4152474f4544492042205241454e494c3b3245303031,
0x3b3b3b3b3b4e3b3b3b3b3b4c3b303b6f4c3b34303242204c4553534556204d4152474f4544492042205241454e494c3b3345303031,
0x3b3b3b3b3b4e3b3b3b3b3b4c3b303b6f4c3b35303242204c4553534556204d4152474f4544492042205241454e494c3b3445303031,
0x3b3b3b3b3b4e3b3b3b3b3b4c3b303b6f4c3b36303242204c4553534556204d4152474f4544492042205241454e494c3b3545303031,
0x3b3b3b3b3b4e3b3b3b3b3b4c3b303b6f4c3b37303242204c4553534556204d4152474f4544492042205241454e494c3b3645303031,
0x3b3b3b3b3b4e3b3b3b3b3b4c3b303b6f4c3b38303242204c4553534556204d4152474f4544492042205241454e494c3b3745303031,
0x3b3b3b3b3b4e3b3b3b3b3b4c3b303b6f4c3b39303242204c4553534556204d4152474f4544492042205241454e494c3b3845303031,
0x3b3b3b3b3b4e3b3b3b3b3b4c3b303b6f4c3b30313242204c4553534556204d4152474f4544492042205241454e494c3b3945303031,
0x3b3b3b3b3b4e3b3b3b3b3b4c3b303b6f4c3b31313242204c4553534556204d4152474f4544492042205241454e494c3b4145303031,
0x3b3b3b3b3b4e3b3b3b3b3b4c3b303b6f4c3b32313242204c4553534556204d4152474f4544492042205241454e494c3b4245303031,
0x3b3b3b3b3b4e3b3b3b3b3b4c3b303b6f4c3b33313242204c4553534556204d4152474f4544492042205241454e494c3b4345303031,
0x3b3b3b3b3b4e3b3b3b3b3b4c3b303b6f4c3b34313242204c4553534556204d4152474f4544492042205241454e494c3b4445303031,
0x3b3b3b3b3b4e3b3b3b3b3b4c3b303b6f4c3b35313242204c4553534556204d4152474f4544492042205241454e494c3b4545303031,
0x3b3b3b3b3b4e3b3b3b3b3b4c3b303b6f4c3b36313242204c4553534556204d4152474f4544492042205241454e494c3b4645303031,
0x3b3b3b3b3b4e3b3b3b3b3b4c3b303b6f4c3b37313242204c4553534556204d4152474f4544492042205241454e494c3b3046303031,
0x3b3b3b3b3b4e3b3b3b3b3b4c3b303b6f4c3b38313242204c4553534556204d4152474f4544492042205241454e494c3b3146303031,
0x3b3b3b3b3b4e3b3b3b3b3b4c3b303b6f4c3b39313242204c4553534556204d4152474f4544492042205241454e494c3b3246303031,
0x3b3b3b3b3b4e3b3b3b3b3b4c3b303b6f4c3b31323242204c4553534556204d4152474f4544492042205241454e494c3b3346303031,
0x3b3b3b3b3b4e3b3b3b3b3b4c3b303b6f4c3b32323242204c4553534556204d4152474f4544492042205241454e494c3b3446303031,
0x3b3b3b3b3b4e3b3b3b3b3b4c3b303b6f4c3b36323242204c4553534556204d4152474f4544492042205241454e494c3b3546303031,
0x3b3b3b3b3b4e3b3b3b3b3b4c3b303b6f4c3b37323242204c4553534556204d4152474f4544492042205241454e494c3b3646303031,
0x3b3b3b3b3b4e3b3b3b3b3b4c3b303b6f4c3b38323242204c4553534556204d4152474f4544492042205241454e494c3b3746303031,
0x3b3b3b3b3b4e3b3b3b3b3b4c3b303b6f4c3b39323242204c4553534556204d4152474f4544492042205241454e494c3b3846303031,
0x3b3b3b3b3b4e3b3b3b3b3b4c3b303b6f4c3b30353242204c4553534556204d4152474f4544492042205241454e494c3b3946303031,
0x3b3b3b3b3b4e3b3b3b3b3b4c3b303b6f4c3b35303342204c4553534556204d4152474f4544492042205241454e494c3b4146303031,
0x3b3b3b3b3b4e3b3b3b3b3b4c3b303b6f503b454e494c20524f544152415045532044524f57204e41454745413b3030313031,
0x3b3b3b3b3b4e3b3b3b3b3b4e4f3b303b6f503b544f4420524f544152415045532044524f57204e41454745413b3130313031,
0x3b3b3b3b3b4e3b3b3b3b3b4c3b303b6f503b4b52414d204b43454843204e41454745413b3230313031,
0x3b3b3b3b3b4e3b313b3b3b3b4c3b303b6f4e3b454e4f205245424d554e204e41454745413b3730313031,
0x3b3b3b3b3b4e3b323b3b3b3b4c3b303b6f4e3b4f5754205245424d554e204e41454745413b3830313031,
0x3b3b3b3b3b4e3b333b3b3b3b4c3b303b6f4e3b4545524854205245424d554e204e41454745413b3930313031,
0x3b3b3b3b3b4e3b343b3b3b3b4c3b303b6f4e3b52554f46205245424d554e204e41454745413b4130313031,
0x3b3b3b3b3b4e3b353b3b3b3b4c3b303b6f4e3b45564946205245424d554e204e41454745413b4230313031,
0x3b3b3b3b3b4e3b363b3b3b3b4c3b303b6f4e3b584953205245424d554e204e41454745413b4330313031,
0x3b3b3b3b3b4e3b373b3b3b3b4c3b303b6f4e3b4e45564553205245424d554e204e41454745413b4430313031,
0x3b3b3b3b3b4e3b383b3b3b3b4c3b303b6f4e3b5448474945205245424d554e204e41454745413b4530313031,
0x3b3b3b3b3b4e3b393b3b3b3b4c3b303b6f4e3b454e494e205245424d554e204e41454745413b4630313031,
0x3b3b3b3b3b4e3b30313b3b3b3b4c3b303b6f4e3b4e4554205245424d554e204e41454745413b3031313031,
0x3b3b3b3b3b4e3b30323b3b3b3b4c3b303b6f4e3b59544e455754205245424d554e204e41454745413b3131313031,
0x3b3b3b3b3b4e3b30333b3b3b3b4c3b303b6f4e3b595452494854205245424d554e204e41454745413b3231313031,
0x3b3b3b3b3b4e3b30343b3b3b3b4c3b303b6f4e3b5954524f46205245424d554e204e41454745413b3331313031,
0x3b3b3b3b3b4e3b30353b3b3b3b4c3b303b6f4e3b5954464946205245424d554e204e41454745413b3431313031,
0x3b3b3b3b3b4e3b30363b3b3b3b4c3b303b6f4e3b5954584953205245424d554e204e41454745413b3531313031,
0x3b3b3b3b3b4e3b30373b3b3b3b4c3b303b6f4e3b59544e45564553205245424d554e204e41454745413b3631313031,
0x3b3b3b3b3b4e3b30383b3b3b3b4c3b303b6f4e3b595448474945205245424d554e204e41454745413b3731313031,
0x3b3b3b3b3b4e3b30393b3b3b3b4c3b303b6f4e3b5954454e494e205245424d554e204e41454745413b3831313031,
0x3b3b3b3b3b4e3b3030313b3b3b3b4c3b303b6f4e3b444552444e554820454e4f205245424d554e204e41454745413b3931313031,
0x3b3b3b3b3b4e3b3030323b3b3b3b4c3b303b6f4e3b444552444e5548204f5754205245424d554e204e41454745413b4131313031,
0x3b3b3b3b3b4e3b3030333b3b3b3b4c3b303b6f4e3b444552444e5548204545524854205245424d554e204e41454745413b4231313031,
0x3b3b3b3b3b4e3b3030343b3b3b3b4c3b303b6f4e3b444552444e55482052554f46205245424d554e204e41454745413b4331313031,
0x3b3b3b3b3b4e3b3030353b3b3b3b4c3b303b6f4e3b444552444e55482045564946205245424d554e204e41454745413b4431313031,
0x3b3b3b3b3b4e3b3030363b3b3b3b4c3b303b6f4e3b444552444e554820584953205245424d554e204e41454745413b4531313031,
0x3b3b3b3b3b4e3b3030373b3b3b3b4c3b303b6f4e3b444552444e5548204e45564553205245424d554e204e41454745413b4631313031,
0x3b3b3b3b3b4e3b3030383b3b3b3b4c3b303b6f4e3b444552444e5548205448474945205245424d554e204e41454745413b3032313031,
0x3b3b3b3b3b4e3b3030393b3b3b3b4c3b303b6f4e3b444552444e554820454e494e205245424d554e204e41454745413b3132313031,
0x3b3b3b3b3b4e3b303030313b3b3b3b4c3b303b6f4e3b444e4153554f485420454e4f205245424d554e204e41454745413b3232313031,
0x3b3b3b3b3b4e3b303030323b3b3b3b4c3b303b6f4e3b444e4153554f4854204f5754205245424d554e204e41454745413b3332313031,
0x3b3b3b3b3b4e3b303030333b3b3b3b4c3b303b6f4e3b444e4153554f4854204545524854205245424d554e204e41454745413b3432313031,
0x3b3b3b3b3b4e3b303030343b3b3b3b4c3b303b6f4e3b444e4153554f48542052554f46205245424d554e204e41454745413b3532313031,
0x3b3b3b3b3b4e3b303030353b3b3b3b4c3b303b6f4e3b444e4153554f48542045564946205245424d554e204e41454745413b3632313031,
0x3b3b3b3b3b4e3b303030363b3b3b3b4c3b303b6f4e3b444e4153554f485420584953205245424d554e204e41454745413b3732313031,
0x3b3b3b3b3b4e3b303030373b3b3b3b4c3b303b6f4e3b444e4153554f4854204e45564553205245424d554e204e41454745413b3832313031,
0x3b3b3b3b3b4e3b303030383b3b3b3b4c3b303b6f4e3b444e4153554f4854205448474945205245424d554e204e41454745413b3932313031,
0x3b3b3b3b3b4e3b303030393b3b3b3b4c3b303b6f4e3b444e4153554f485420454e494e205245424d554e204e41454745413b4132313031,
0x3b3b3b3b3b4e3b30303030313b3b3b3b4c3b303b6f4e3b444e4153554f4854204e4554205245424d554e204e41454745413b4232313031,
0x3b3b3b3b3b4e3b30303030323b3b3b3b4c3b303b6f4e3b444e4153554f48542059544e455754205245424d554e204e41454745413b4332313031,
0x3b3b3b3b3b4e3b30303030333b3b3b3b4c3b303b6f4e3b444e4153554f485420595452494854205245424d554e204e41454745413b4432313031,
0x3b3b3b3b3b4e3b30303030343b3b3b3b4c3b303b6f4e3b444e4153554f4854205954524f46205245424d554e204e41454745413b4532313031,
0x3b3b3b3b3b4e3b30303030353b3b3b3b4c3b303b6f4e3b444e4153554f4854205954464946205245424d554e204e41454745413b4632313031,
0x3b3b3b3b3b4e3b30303030363b3b3b3b4c3b303b6f4e3b444e4153554f4854205954584953205245424d554e204e41454745413b3033313031,
0x3b3b3b3b3b4e3b30303030373b3b3b3b4c3b303b6f4e3b444e4153554f48542059544e45564553205245424d554e204e41454745413b3133313031,
0x3b3b3b3b3b4e3b30303030383b3b3b3b4c3b303b6f4e3b444e4153554f485420595448474945205245424d554e204e41454745413b3233313031,
0x3b3b3b3b3b4e3b30303030393b3b3b3b4c3b303b6f4e3b444e4153554f4854205954454e494e205245424d554e204e41454745413b3333313031,
0x3b3b3b3b3b4e3b3b3b3b3b4c3b303b6f533b54494e55204553414220544847494557204e41454745413b3733313031,
0x3b3b3b3b3b4e3b3b3b3b3b4c3b303b6f533b54494e5542555320545352494620544847494557204e41454745413b3833313031,
0x3b3b3b3b3b4e3b3b3b3b3b4c3b303b6f533b54494e5542555320444e4f43455320544847494557204e41454745413b3933313031,
0x3b3b3b3b3b4e3b3b3b3b3b4c3b303b6f533b54494e5542555320445249485420544847494557204e41454745413b4133313031,
0x3b3b3b3b3b4e3b3b3b3b3b4c3b303b6f533b54494e5542555320485452554f4620544847494557204e41454745413b4233313031,
0x3b3b3b3b3b4e3b3b3b3b3b4c3b303b6f533b54494e55425553205453524946204552555341454d20595244204e41454745413b4333313031,
0x3b3b3b3b3b4e3b3b3b3b3b4c3b303b6f533b54494e55425553205453524946204552555341454d2044495551494c204e41454745413b4433313031,
0x3b3b3b3b3b4e3b3b3b3b3b4c3b303b6f533b54494e5542555320444e4f434553204552555341454d204e41454745413b4533313031,
0x3b3b3b3b3b4e3b3b3b3b3b4c3b303b6f533b54494e55425553204452494854204552555341454d204e41454745413b4633313031,
0x3b3b3b3b3b4e3b342f313b3b3b3b4e4f3b303b6c4e3b5245545241555120454e4f2043495454412043494e4f48504f524341204b454552473b3034313031,
0x3b3b3b3b3b4e3b322f313b3b3b3b4e4f3b303b6c4e3b464c414820454e4f2043495454412043494e4f48504f524341204b454552473b3134313031,
0x3b3b3b3b3b4e3b313b3b3b3b4e4f3b303b6c4e3b414d484341524420454e4f2043495454412043494e4f48504f524341204b454552473b3234313031,
0x3b3b3b3b3b4e3b353b3b3b3b4e4f3b303b6c4e3b455649462043495454412043494e4f48504f524341204b454552473b3334313031,
0x3b3b3b3b3b4e3b30353b3b3b3b4e4f3b303b6c4e3b59544649462043495454412043494e4f48504f524341204b454552473b3434313031,
0x3b3b3b3b3b4e3b3030353b3b3b3b4e4f3b303b6c4e3b444552444e554820455649462043495454412043494e4f48504f524341204b454552473b3534313031,
0x3b3b3b3b3b4e3b303030353b3b3b3b4e4f3b303b6c4e3b444e4153554f485420455649462043495454412043494e4f48504f524341204b454552473b3634313031,
0x3b3b3b3b3b4e3b30303030353b3b3b3b4e4f3b303b6c4e3b444e4153554f48542059544649462043495454412043494e4f48504f524341204b454552473b3734313031,
0x3b3b3b3b3b4e3b353b3b3b3b4e4f3b303b6c4e3b53544e454c415420455649462043495454412043494e4f48504f524341204b454552473b3834313031,
0x3b3b3b3b3b4e3b30313b3b3b3b4e4f3b303b6c4e3b53544e454c4154204e45542043495454412043494e4f48504f524341204b454552473b3934313031,
0x3b3b3b3b3b4e3b30353b3b3b3b4e4f3b303b6c4e3b53544e454c41542059544649462043495454412043494e4f48504f524341204b454552473b4134313031,
0x3b3b3b3b3b4e3b3030313b3b3b3b4e4f3b303b6c4e3b53544e454c415420444552444e554820454e4f2043495454412043494e4f48504f524341204b454552473b4234313031,
0x3b3b3b3b3b4e3b3030353b3b3b3b4e4f3b303b6c4e3b53544e454c415420444552444e554820455649462043495454412043494e4f48504f524341204b454552473b4334313031,
0x3b3b3b3b3b4e3b303030313b3b3b3b4e4f3b303b6c4e3b53544e454c415420444e4153554f485420454e4f2043495454412043494e4f48504f524341204b454552473b4434313031,
0x3b3b3b3b3b4e3b303030353b3b3b3b4e4f3b303b6c4e3b53544e454c415420444e4153554f485420455649462043495454412043494e4f48504f524341204b454552473b4534313031,
0x3b3b3b3b3b4e3b353b3b3b3b4e4f3b303b6c4e3b5352455441545320455649462043495454412043494e4f48504f524341204b454552473b4634313031,
0x3b3b3b3b3b4e3b30313b3b3b3b4e4f3b303b6c4e3b53524554415453204e45542043495454412043494e4f48504f524341204b454552473b3035313031,
0x3b3b3b3b3b4e3b30353b3b3b3b4e4f3b303b6c4e3b535245544154532059544649462043495454412043494e4f48504f524341204b454552473b3135313031,
0x3b3b3b3b3b4e3b3030313b3b3b3b4e4f3b303b6c4e3b5352455441545320444552444e554820454e4f2043495454412043494e4f48504f524341204b454552473b3235313031,
0x3b3b3b3b3b4e3b3030353b3b3b3b4e4f3b303b6c4e3b5352455441545320444552444e554820455649462043495454412043494e4f48504f524341204b454552473b3335313031,
0x3b3b3b3b3b4e3b303030313b3b3b3b4e4f3b303b6c4e3b5352455441545320444e4153554f485420454e4f2043495454412043494e4f48504f524341204b454552473b3435313031,
0x3b3b3b3b3b4e3b30303030313b3b3b3b4e4f3b303b6c4e3b5352455441545320444e4153554f4854204e45542043495454412043494e4f48504f524341204b454552473b3535313031,
0x3b3b3b3b3b4e3b30303030353b3b3b3b4e4f3b303b6c4e3b5352455441545320444e4153554f48542059544649462043495454412043494e4f48504f524341204b454552473b3635313031,
0x3b3b3b3b3b4e3b30313b3b3b3b4e4f3b303b6c4e3b53414e4d204e45542043495454412043494e4f48504f524341204b454552473b3735313031,
0x3b3b3b3b3b4e3b313b3b3b3b4e4f3b303b6c4e3b4e4f524854454c5020454e4f204d5545415245482043494e4f48504f524341204b454552473b3835313031,
0x3b3b3b3b3b4e3b313b3b3b3b4e4f3b303b6c4e3b454e4f204e414950534548542043494e4f48504f524341204b454552473b3935313031,
0x3b3b3b3b3b4e3b313b3b3b3b4e4f3b303b6c4e3b454e4f204e41494e4f494d5245482043494e4f48504f524341204b454552473b4135313031,
0x3b3b3b3b3b4e3b323b3b3b3b4e4f3b303b6c4e3b4f5754204e4145525541444950452043494e4f48504f524341204b454552473b4235313031,
0x3b3b3b3b3b4e3b323b3b3b3b4e4f3b303b6c4e3b4f5754204e414950534548542043494e4f48504f524341204b454552473b4335313031,
0x3b3b3b3b3b4e3b323b3b3b3b4e4f3b303b6c4e3b53414d4843415244204f5754204349414e455259432043494e4f48504f524341204b454552473b4435313031,
0x3b3b3b3b3b4e3b323b3b3b3b4e4f3b303b6c4e3b53414d4843415244204f5754204e4145525541444950452043494e4f48504f524341204b454552473b4535313031,
0x3b3b3b3b3b4e3b353b3b3b3b4e4f3b303b6c4e3b45564946204e41494e455a454f52542043494e4f48504f524341204b454552473b4635313031,
0x3b3b3b3b3b4e3b30313b3b3b3b4e4f3b303b6c4e3b4e4554204e41494e455a454f52542043494e4f48504f524341204b454552473b3036313031,
0x3b3b3b3b3b4e3b30313b3b3b3b4e4f3b303b6c4e3b4d524f46204554414e5245544c41204e4554204e41494e455a454f52542043494e4f48504f524341204b454552473b3136313031,
0x3b3b3b3b3b4e3b30313b3b3b3b4e4f3b303b6c4e3b4e4554204e41494e4f494d5245482043494e4f48504f524341204b454552473b3236313031,
0x3b3b3b3b3b4e3b30313b3b3b3b4e4f3b303b6c4e3b4e4554204e41494e455353454d2043494e4f48504f524341204b454552473b3336313031,
0x3b3b3b3b3b4e3b30313b3b3b3b4e4f3b303b6c4e3b4e4554204e414950534548542043494e4f48504f524341204b454552473b3436313031,
0x3b3b3b3b3b4e3b30333b3b3b3b4e4f3b303b6c4e3b595452494854204e414950534548542043494e4f48504f524341204b454552473b3536313031,
0x3b3b3b3b3b4e3b30353b3b3b3b4e4f3b303b6c4e3b5954464946204e41494e455a454f52542043494e4f48504f524341204b454552473b3636313031,
0x3b3b3b3b3b4e3b30353b3b3b3b4e4f3b303b6c4e3b4d524f46204554414e5245544c41205954464946204e41494e455a454f52542043494e4f48504f524341204b454552473b3736313031,
0x3b3b3b3b3b4e3b30353b3b3b3b4e4f3b303b6c4e3b5954464946204e41494e4f494d5245482043494e4f48504f524341204b454552473b3836313031,
0x3b3b3b3b3b4e3b30353b3b3b3b4e4f3b303b6c4e3b5954464946204e414950534548542043494e4f48504f524341204b454552473b3936313031,
0x3b3b3b3b3b4e3b3030313b3b3b3b4e4f3b303b6c4e3b444552444e554820454e4f204e414950534548542043494e4f48504f524341204b454552473b4136313031,
0x3b3b3b3b3b4e3b3030333b3b3b3b4e4f3b303b6c4e3b444552444e5548204545524854204e414950534548542043494e4f48504f524341204b454552473b4236313031,
0x3b3b3b3b3b4e3b3030353b3b3b3b4e4f3b303b6c4e3b444552444e55482045564946204e4145525541444950452043494e4f48504f524341204b454552473b4336313031,
0x3b3b3b3b3b4e3b3030353b3b3b3b4e4f3b303b6c4e3b444552444e55482045564946204e41494e455a454f52542043494e4f48504f524341204b454552473b4436313031,
0x3b3b3b3b3b4e3b3030353b3b3b3b4e4f3b303b6c4e3b444552444e55482045564946204e414950534548542043494e4f48504f524341204b454552473b4536313031,
0x3b3b3b3b3b4e3b3030353b3b3b3b4e4f3b303b6c4e3b444552444e55482045564946204e41495453595241432043494e4f48504f524341204b454552473b4636313031,
0x3b3b3b3b3b4e3b3030353b3b3b3b4e4f3b303b6c4e3b444552444e55482045564946204e414958414e2043494e4f48504f524341204b454552473b3037313031,
0x3b3b3b3b3b4e3b303030313b3b3b3b4e4f3b303b6c4e3b444e4153554f485420454e4f204e414950534548542043494e4f48504f524341204b454552473b3137313031,
0x3b3b3b3b3b4e3b303030353b3b3b3b4e4f3b303b6c4e3b444e4153554f48542045564946204e414950534548542043494e4f48504f524341204b454552473b3237313031,
0x3b3b3b3b3b4e3b353b3b3b3b4e4f3b303b6c4e3b53414e4d204556494620434948504c45442043494e4f48504f524341204b454552473b3337313031,
0x3b3b3b3b3b4e3b30353b3b3b3b4e4f3b303b6c4e3b53414e4d205954464946204e414954415254532043494e4f48504f524341204b454552473b3437313031,
0x3b3b3b3b3b4e3b322f313b3b3b3b4e4f3b303b6f4e3b4e47495320464c414820454e4f204b454552473b3537313031,
0x3b3b3b3b3b4e3b322f313b3b3b3b4e4f3b303b6f4e3b4d524f46204554414e5245544c41204e47495320464c414820454e4f204b454552473b3637313031,
0x3b3b3b3b3b4e3b332f323b3b3b3b4e4f3b303b6f4e3b4e47495320534452494854204f5754204b454552473b3737313031,
0x3b3b3b3b3b4e3b342f333b3b3b3b4e4f3b303b6f4e3b4e474953205352455452415551204545524854204b454552473b3837313031,
0x3b3b3b3b3b4e3b3b3b3b3b4e4f3b303b6f533b4e4749532052414559204b454552473b3937313031,
0x3b3b3b3b3b4e3b3b3b3b3b4e4f3b303b6f533b4e47495320544e454c4154204b454552473b4137313031,
0x3b3b3b3b3b4e3b3b3b3b3b4e4f3b303b6f533b4e47495320414d4843415244204b454552473b4237313031,
0x3b3b3b3b3b4e3b3b3b3b3b4e4f3b303b6f533b4e474953204c4f424f204b454552473b4337313031,
0x3b3b3b3b3b4e3b3b3b3b3b4e4f3b303b6f533b4e47495320534c4f424f204f5754204b454552473b4437313031,
0x3b3b3b3b3b4e3b3b3b3b3b4e4f3b303b6f533b4e47495320534c4f424f204545524854204b454552473b4537313031,
0x3b3b3b3b3b4e3b3b3b3b3b4e4f3b303b6f533b4e47495320534c4f424f2052554f46204b454552473b4637313031,
0x3b3b3b3b3b4e3b3b3b3b3b4e4f3b303b6f533b4e47495320534c4f424f2045564946204b454552473b3038313031,
0x3b3b3b3b3b4e3b3b3b3b3b4e4f3b303b6f533b4e47495320534554455254454d204b454552473b3138313031,
0x3b3b3b3b3b4e3b3b3b3b3b4e4f3b303b6f533b4e474953204553414220534f485441594b204b454552473b3238313031,
0x3b3b3b3b3b4e3b3b3b3b3b4e4f3b303b6f533b4e47495320415254494c204b454552473b3338313031,
0x3b3b3b3b3b4e3b3b3b3b3b4e4f3b303b6f533b4e4749532041494b4e554f204b454552473b3438313031,
0x3b3b3b3b3b4e3b3b3b3b3b4e4f3b303b6f533b4e47495320534554534558204b454552473b3538313031,
0x3b3b3b3b3b4e3b3b3b3b3b4e4f3b303b6f533b4e47495320454241545241204b454552473b3638313031,
0x3b3b3b3b3b4e3b3b3b3b3b4e4f3b303b6f533b4e474953204152554f5241204b454552473b3738313031,
0x3b3b3b3b3b4e3b3b3b3b3b4e4f3b303b6f533b4e47495320414d4d415247204b454552473b3838313031,
0x3b3b3b3b3b4e3b3b3b3b3b4e4f3b303b6f533b4e4749532045534142204e4f494c42595254204b454552473b3938313031,
0x3b3b3b3b3b4e3b303b3b3b3b4e4f3b303b6f4e3b4e474953204f52455a204b454552473b4138313031,
0x3b3b3b3b3b4e3b342f313b3b3b3b4e4f3b303b6f4e3b4e474953205245545241555120454e4f204b454552473b4238313031,
0x3b3b3b3b3b4e3b3b3b3b3b4e4f3b303b6f533b4e4749532044494f53554e4953204b454552473b4338313031,
0x3b3b3b3b3b4e3b3b3b3b3b4c3b303b6f533b4e474953204e4f49544349444e49204b454552473b4438313031,
0x3b3b3b3b3b4e3b3b3b3b3b4c3b303b6f533b4e47495320414d53494d4f4e3b4538313031,
0x3b3b3b3b3b4e3b3b3b3b3b4e4f3b303b6f533b4e47495320534e4154584553204e414d4f523b3039313031,
0x3b3b3b3b3b4e3b3b3b3b3b4e4f3b303b6f533b4e474953204149434e55204e414d4f523b3139313031]

/-- src/u5e/props/UnicodeData.txt lines 16897-17152. -/
def rawUcd66 : List Nat := [
0x3b3b3b3b3b4e3b3b3b3b3b4e4f3b303b6f533b4e474953204149434e554d4553204e414d4f523b3239313031,
0x3b3b3b3b3b4e3b3b3b3b3b4e4f3b303b6f533b4e47495320414c5554584553204e414d4f523b3339313031,
0x3b3b3b3b3b4e3b3b3b3b3b4e4f3b303b6f533b4e47495320414c555458455320414944494d4944204e414d4f523b3439313031,
0x3b3b3b3b3b4e3b3b3b3b3b4e4f3b303b6f533b4e47495320415551494c4953204e414d4f523b3539313031,
0x3b3b3b3b3b4e3b3b3b3b3b4e4f3b303b6f533b4e4749532053554952414e4544204e414d4f523b3639313031,
0x3b3b3b3b3b4e3b3b3b3b3b4e4f3b303b6f533b4e4749532053554952414e495551204e414d4f523b3739313031,
0x3b3b3b3b3b4e3b3b3b3b3b4e4f3b303b6f533b4e4749532053554954524554534553204e414d4f523b3839313031,
0x3b3b3b3b3b4e3b3b3b3b3b4e4f3b303b6f533b4e47495320535549444e4f505544204e414d4f523b3939313031,
0x3b3b3b3b3b4e3b3b3b3b3b4e4f3b303b6f533b4e474953205341204e414d4f523b4139313031,
0x3b3b3b3b3b4e3b3b3b3b3b4e4f3b303b6f533b4e474953204c41495255544e4543204e414d4f523b4239313031,
0x3b3b3b3b3b4e3b3b3b3b3b4e4f3b303b6f533b4f485220554154204c4f424d5953204b454552473b3041313031,
0x3b3b3b3b3b4e3b3b3b3b3b4c3b303b6f533b4e414952545345444550204e474953204353494420534f5453494148503b3044313031,
0x3b3b3b3b3b4e3b3b3b3b3b4c3b303b6f533b444145482044454d554c50204e474953204353494420534f5453494148503b3144313031,
0x3b3b3b3b3b4e3b3b3b3b3b4c3b303b6f533b444145482044454f4f54544154204e474953204353494420534f5453494148503b3244313031,
0x3b3b3b3b3b4e3b3b3b3b3b4c3b303b6f533b45564954504143204e474953204353494420534f5453494148503b3344313031,
0x3b3b3b3b3b4e3b3b3b3b3b4c3b303b6f533b444c494843204e474953204353494420534f5453494148503b3444313031,
0x3b3b3b3b3b4e3b3b3b3b3b4c3b303b6f533b4e414d4f57204e474953204353494420534f5453494148503b3544313031,
0x3b3b3b3b3b4e3b3b3b3b3b4c3b303b6f533b54454d4c4548204e474953204353494420534f5453494148503b3644313031,
0x3b3b3b3b3b4e3b3b3b3b3b4c3b303b6f533b54454c544e554147204e474953204353494420534f5453494148503b3744313031,
0x3b3b3b3b3b4e3b3b3b3b3b4c3b303b6f533b4152414954204e474953204353494420534f5453494148503b3844313031,
0x3b3b3b3b3b4e3b3b3b3b3b4c3b303b6f533b574f525241204e474953204353494420534f5453494148503b3944313031,
0x3b3b3b3b3b4e3b3b3b3b3b4c3b303b6f533b574f42204e474953204353494420534f5453494148503b4144313031,
0x3b3b3b3b3b4e3b3b3b3b3b4c3b303b6f533b444c45494853204e474953204353494420534f5453494148503b4244313031,
0x3b3b3b3b3b4e3b3b3b3b3b4c3b303b6f533b42554c43204e474953204353494420534f5453494148503b4344313031,
0x3b3b3b3b3b4e3b3b3b3b3b4c3b303b6f533b53454c43414e414d204e474953204353494420534f5453494148503b4444313031,
0x3b3b3b3b3b4e3b3b3b3b3b4c3b303b6f533b4b434f5454414d204e474953204353494420534f5453494148503b4544313031,
0x3b3b3b3b3b4e3b3b3b3b3b4c3b303b6f533b574153204e474953204353494420534f5453494148503b4644313031,
0x3b3b3b3b3b4e3b3b3b3b3b4c3b303b6f533b44494c204e474953204353494420534f5453494148503b3045313031,
0x3b3b3b3b3b4e3b3b3b3b3b4c3b303b6f533b474e4152454d4f4f42204e474953204353494420534f5453494148503b3145313031,
0x3b3b3b3b3b4e3b3b3b3b3b4c3b303b6f533b454e414c50205952544e4550524143204e474953204353494420534f5453494148503b3245313031,
0x3b3b3b3b3b4e3b3b3b3b3b4c3b303b6f533b4d55494c4f44204e474953204353494420534f5453494148503b3345313031,
0x3b3b3b3b3b4e3b3b3b3b3b4c3b303b6f533b424d4f43204e474953204353494420534f5453494148503b3445313031,
0x3b3b3b3b3b4e3b3b3b3b3b4c3b303b6f533b474e494c53204e474953204353494420534f5453494148503b3545313031,
0x3b3b3b3b3b4e3b3b3b3b3b4c3b303b6f533b4e4d554c4f43204e474953204353494420534f5453494148503b3645313031,
0x3b3b3b3b3b4e3b3b3b3b3b4c3b303b6f533b45564948454542204e474953204353494420534f5453494148503b3745313031,
0x3b3b3b3b3b4e3b3b3b3b3b4c3b303b6f533b50494853204e474953204353494420534f5453494148503b3845313031,
0x3b3b3b3b3b4e3b3b3b3b3b4c3b303b6f533b4e524f48204e474953204353494420534f5453494148503b3945313031,
0x3b3b3b3b3b4e3b3b3b3b3b4c3b303b6f533b45444948204e474953204353494420534f5453494148503b4145313031,
0x3b3b3b3b3b4e3b3b3b3b3b4c3b303b6f533b47454c20534c4c5542204e474953204353494420534f5453494148503b4245313031,
0x3b3b3b3b3b4e3b3b3b3b3b4c3b303b6f533b544143204e474953204353494420534f5453494148503b4345313031,
0x3b3b3b3b3b4e3b3b3b3b3b4c3b303b6f533b4d4152204e474953204353494420534f5453494148503b4445313031,
0x3b3b3b3b3b4e3b3b3b3b3b4c3b303b6f533b454c474145204e474953204353494420534f5453494148503b4545313031,
0x3b3b3b3b3b4e3b3b3b3b3b4c3b303b6f533b45564f44204e474953204353494420534f5453494148503b4645313031,
0x3b3b3b3b3b4e3b3b3b3b3b4c3b303b6f533b594e4e5554204e474953204353494420534f5453494148503b3046313031,
0x3b3b3b3b3b4e3b3b3b3b3b4c3b303b6f533b454542204e474953204353494420534f5453494148503b3146313031,
0x3b3b3b3b3b4e3b3b3b3b3b4c3b303b6f533b4545525420454e414c50204e474953204353494420534f5453494148503b3246313031,
0x3b3b3b3b3b4e3b3b3b3b3b4c3b303b6f533b454e4956204e474953204353494420534f5453494148503b3346313031,
0x3b3b3b3b3b4e3b3b3b3b3b4c3b303b6f533b53555259504150204e474953204353494420534f5453494148503b3446313031,
0x3b3b3b3b3b4e3b3b3b3b3b4c3b303b6f533b45545445534f52204e474953204353494420534f5453494148503b3546313031,
0x3b3b3b3b3b4e3b3b3b3b3b4c3b303b6f533b594c494c204e474953204353494420534f5453494148503b3646313031,
0x3b3b3b3b3b4e3b3b3b3b3b4c3b303b6f533b4b43414220584f204e474953204353494420534f5453494148503b3746313031,
0x3b3b3b3b3b4e3b3b3b3b3b4c3b303b6f533b4554554c46204e474953204353494420534f5453494148503b3846313031,
0x3b3b3b3b3b4e3b3b3b3b3b4c3b303b6f533b524554415247204e474953204353494420534f5453494148503b3946313031,
0x3b3b3b3b3b4e3b3b3b3b3b4c3b303b6f533b52454e4941525453204e474953204353494420534f5453494148503b4146313031,
0x3b3b3b3b3b4e3b3b3b3b3b4c3b303b6f533b455841204c4c414d53204e474953204353494420534f5453494148503b4246313031,
0x3b3b3b3b3b4e3b3b3b3b3b4c3b303b6f533b444e41422059564157204e474953204353494420534f5453494148503b4346313031,
0x3b3b3b3b3b4e3b3b3b3b3b4d534e3b3032323b6e4d3b454b4f52545320455551494c424f20474e494e49424d4f43204e474953204353494420534f5453494148503b4446313031,
0x3b3b3b3b3b4e3b3b3b3b3b4c3b303b6f4c3b412052455454454c204e414943594c3b3038323031,
0x3b3b3b3b3b4e3b3b3b3b3b4c3b303b6f4c3b452052455454454c204e414943594c3b3138323031,
0x3b3b3b3b3b4e3b3b3b3b3b4c3b303b6f4c3b422052455454454c204e414943594c3b3238323031,
0x3b3b3b3b3b4e3b3b3b3b3b4c3b303b6f4c3b48422052455454454c204e414943594c3b3338323031,
0x3b3b3b3b3b4e3b3b3b3b3b4c3b303b6f4c3b472052455454454c204e414943594c3b3438323031,
0x3b3b3b3b3b4e3b3b3b3b3b4c3b303b6f4c3b442052455454454c204e414943594c3b3538323031,
0x3b3b3b3b3b4e3b3b3b3b3b4c3b303b6f4c3b492052455454454c204e414943594c3b3638323031,
0x3b3b3b3b3b4e3b3b3b3b3b4c3b303b6f4c3b572052455454454c204e414943594c3b3738323031,
0x3b3b3b3b3b4e3b3b3b3b3b4c3b303b6f4c3b5a2052455454454c204e414943594c3b3838323031,
0x3b3b3b3b3b4e3b3b3b3b3b4c3b303b6f4c3b48542052455454454c204e414943594c3b3938323031,
0x3b3b3b3b3b4e3b3b3b3b3b4c3b303b6f4c3b4a2052455454454c204e414943594c3b4138323031,
0x3b3b3b3b3b4e3b3b3b3b3b4c3b303b6f4c3b4b2052455454454c204e414943594c3b4238323031,
0x3b3b3b3b3b4e3b3b3b3b3b4c3b303b6f4c3b512052455454454c204e414943594c3b4338323031,
0x3b3b3b3b3b4e3b3b3b3b3b4c3b303b6f4c3b4c2052455454454c204e414943594c3b4438323031,
0x3b3b3b3b3b4e3b3b3b3b3b4c3b303b6f4c3b4d2052455454454c204e414943594c3b4538323031,
0x3b3b3b3b3b4e3b3b3b3b3b4c3b303b6f4c3b4e2052455454454c204e414943594c3b4638323031,
0x3b3b3b3b3b4e3b3b3b3b3b4c3b303b6f4c3b4d4d2052455454454c204e414943594c3b3039323031,
0x3b3b3b3b3b4e3b3b3b3b3b4c3b303b6f4c3b4e4e2052455454454c204e414943594c3b3139323031,
0x3b3b3b3b3b4e3b3b3b3b3b4c3b303b6f4c3b552052455454454c204e414943594c3b3239323031,
0x3b3b3b3b3b4e3b3b3b3b3b4c3b303b6f4c3b502052455454454c204e414943594c3b3339323031,
0x3b3b3b3b3b4e3b3b3b3b3b4c3b303b6f4c3b4b4b2052455454454c204e414943594c3b3439323031,
0x3b3b3b3b3b4e3b3b3b3b3b4c3b303b6f4c3b522052455454454c204e414943594c3b3539323031,
0x3b3b3b3b3b4e3b3b3b3b3b4c3b303b6f4c3b532052455454454c204e414943594c3b3639323031,
0x3b3b3b3b3b4e3b3b3b3b3b4c3b303b6f4c3b542052455454454c204e414943594c3b3739323031,
0x3b3b3b3b3b4e3b3b3b3b3b4c3b303b6f4c3b54542052455454454c204e414943594c3b3839323031,
0x3b3b3b3b3b4e3b3b3b3b3b4c3b303b6f4c3b4e412052455454454c204e414943594c3b3939323031,
0x3b3b3b3b3b4e3b3b3b3b3b4c3b303b6f4c3b4e452052455454454c204e414943594c3b4139323031,
0x3b3b3b3b3b4e3b3b3b3b3b4c3b303b6f4c3b482052455454454c204e414943594c3b4239323031,
0x3b3b3b3b3b4e3b3b3b3b3b4c3b303b6f4c3b582052455454454c204e414943594c3b4339323031,
0x3b3b3b3b3b4e3b3b3b3b3b4c3b303b6f4c3b412052455454454c204e41495241433b3041323031,
0x3b3b3b3b3b4e3b3b3b3b3b4c3b303b6f4c3b32502052455454454c204e41495241433b3141323031,
0x3b3b3b3b3b4e3b3b3b3b3b4c3b303b6f4c3b442052455454454c204e41495241433b3241323031,
0x3b3b3b3b3b4e3b3b3b3b3b4c3b303b6f4c3b4c2052455454454c204e41495241433b3341323031,
0x3b3b3b3b3b4e3b3b3b3b3b4c3b303b6f4c3b5555552052455454454c204e41495241433b3441323031,
0x3b3b3b3b3b4e3b3b3b3b3b4c3b303b6f4c3b522052455454454c204e41495241433b3541323031,
0x3b3b3b3b3b4e3b3b3b3b3b4c3b303b6f4c3b444c2052455454454c204e41495241433b3641323031,
0x3b3b3b3b3b4e3b3b3b3b3b4c3b303b6f4c3b32412052455454454c204e41495241433b3741323031,
0x3b3b3b3b3b4e3b3b3b3b3b4c3b303b6f4c3b512052455454454c204e41495241433b3841323031,
0x3b3b3b3b3b4e3b3b3b3b3b4c3b303b6f4c3b422052455454454c204e41495241433b3941323031,
0x3b3b3b3b3b4e3b3b3b3b3b4c3b303b6f4c3b4d2052455454454c204e41495241433b4141323031,
0x3b3b3b3b3b4e3b3b3b3b3b4c3b303b6f4c3b4f2052455454454c204e41495241433b4241323031,
0x3b3b3b3b3b4e3b3b3b3b3b4c3b303b6f4c3b32442052455454454c204e41495241433b4341323031,
0x3b3b3b3b3b4e3b3b3b3b3b4c3b303b6f4c3b542052455454454c204e41495241433b4441323031,
0x3b3b3b3b3b4e3b3b3b3b3b4c3b303b6f4c3b48532052455454454c204e41495241433b4541323031,
0x3b3b3b3b3b4e3b3b3b3b3b4c3b303b6f4c3b3248532052455454454c204e41495241433b4641323031,
0x3b3b3b3b3b4e3b3b3b3b3b4c3b303b6f4c3b532052455454454c204e41495241433b3042323031,
0x3b3b3b3b3b4e3b3b3b3b3b4c3b303b6f4c3b38312d432052455454454c204e41495241433b3142323031,
0x3b3b3b3b3b4e3b3b3b3b3b4c3b303b6f4c3b552052455454454c204e41495241433b3242323031,
0x3b3b3b3b3b4e3b3b3b3b3b4c3b303b6f4c3b4e4e2052455454454c204e41495241433b3342323031,
0x3b3b3b3b3b4e3b3b3b3b3b4c3b303b6f4c3b582052455454454c204e41495241433b3442323031,
0x3b3b3b3b3b4e3b3b3b3b3b4c3b303b6f4c3b4e2052455454454c204e41495241433b3542323031,
0x3b3b3b3b3b4e3b3b3b3b3b4c3b303b6f4c3b3254542052455454454c204e41495241433b3642323031,
0x3b3b3b3b3b4e3b3b3b3b3b4c3b303b6f4c3b502052455454454c204e41495241433b3742323031,
0x3b3b3b3b3b4e3b3b3b3b3b4c3b303b6f4c3b53532052455454454c204e41495241433b3842323031,
0x3b3b3b3b3b4e3b3b3b3b3b4c3b303b6f4c3b492052455454454c204e41495241433b3942323031,
0x3b3b3b3b3b4e3b3b3b3b3b4c3b303b6f4c3b452052455454454c204e41495241433b4142323031,
0x3b3b3b3b3b4e3b3b3b3b3b4c3b303b6f4c3b555555552052455454454c204e41495241433b4242323031,
0x3b3b3b3b3b4e3b3b3b3b3b4c3b303b6f4c3b4b2052455454454c204e41495241433b4342323031,
0x3b3b3b3b3b4e3b3b3b3b3b4c3b303b6f4c3b324b2052455454454c204e41495241433b4442323031,
0x3b3b3b3b3b4e3b3b3b3b3b4c3b303b6f4c3b444e2052455454454c204e41495241433b4542323031,
0x3b3b3b3b3b4e3b3b3b3b3b4c3b303b6f4c3b55552052455454454c204e41495241433b4642323031,
0x3b3b3b3b3b4e3b3b3b3b3b4c3b303b6f4c3b472052455454454c204e41495241433b3043323031,
0x3b3b3b3b3b4e3b3b3b3b3b4c3b303b6f4c3b32472052455454454c204e41495241433b3143323031,
0x3b3b3b3b3b4e3b3b3b3b3b4c3b303b6f4c3b54532052455454454c204e41495241433b3243323031,
0x3b3b3b3b3b4e3b3b3b3b3b4c3b303b6f4c3b3254532052455454454c204e41495241433b3343323031,
0x3b3b3b3b3b4e3b3b3b3b3b4c3b303b6f4c3b474e2052455454454c204e41495241433b3443323031,
0x3b3b3b3b3b4e3b3b3b3b3b4c3b303b6f4c3b49492052455454454c204e41495241433b3543323031,
0x3b3b3b3b3b4e3b3b3b3b3b4c3b303b6f4c3b39332d432052455454454c204e41495241433b3643323031,
0x3b3b3b3b3b4e3b3b3b3b3b4c3b303b6f4c3b54542052455454454c204e41495241433b3743323031,
0x3b3b3b3b3b4e3b3b3b3b3b4c3b303b6f4c3b325555552052455454454c204e41495241433b3843323031,
0x3b3b3b3b3b4e3b3b3b3b3b4c3b303b6f4c3b52522052455454454c204e41495241433b3943323031,
0x3b3b3b3b3b4e3b3b3b3b3b4c3b303b6f4c3b424d2052455454454c204e41495241433b4143323031,
0x3b3b3b3b3b4e3b3b3b3b3b4c3b303b6f4c3b32424d2052455454454c204e41495241433b4243323031,
0x3b3b3b3b3b4e3b3b3b3b3b4c3b303b6f4c3b33424d2052455454454c204e41495241433b4343323031,
0x3b3b3b3b3b4e3b3b3b3b3b4c3b303b6f4c3b34424d2052455454454c204e41495241433b4443323031,
0x3b3b3b3b3b4e3b3b3b3b3b4c3b303b6f4c3b32444c2052455454454c204e41495241433b4543323031,
0x3b3b3b3b3b4e3b3b3b3b3b4c3b303b6f4c3b32452052455454454c204e41495241433b4643323031,
0x3b3b3b3b3b4e3b3b3b3b3b4c3b303b6f4c3b335555552052455454454c204e41495241433b3044323031,
0x3b3b3b3b3b4e3b3b3b3b3b4d534e3b3032323b6e4d3b4b52414d2053444e4153554f485420544341504520434954504f433b3045323031,
0x3b3b3b3b3b4e3b313b3b3b3b4e453b303b6f4e3b454e4f20544947494420544341504520434954504f433b3145323031,
0x3b3b3b3b3b4e3b323b3b3b3b4e453b303b6f4e3b4f575420544947494420544341504520434954504f433b3245323031,
0x3b3b3b3b3b4e3b333b3b3b3b4e453b303b6f4e3b454552485420544947494420544341504520434954504f433b3345323031,
0x3b3b3b3b3b4e3b343b3b3b3b4e453b303b6f4e3b52554f4620544947494420544341504520434954504f433b3445323031,
0x3b3b3b3b3b4e3b353b3b3b3b4e453b303b6f4e3b4556494620544947494420544341504520434954504f433b3545323031,
0x3b3b3b3b3b4e3b363b3b3b3b4e453b303b6f4e3b58495320544947494420544341504520434954504f433b3645323031,
0x3b3b3b3b3b4e3b373b3b3b3b4e453b303b6f4e3b4e4556455320544947494420544341504520434954504f433b3745323031,
0x3b3b3b3b3b4e3b383b3b3b3b4e453b303b6f4e3b544847494520544947494420544341504520434954504f433b3845323031,
0x3b3b3b3b3b4e3b393b3b3b3b4e453b303b6f4e3b454e494e20544947494420544341504520434954504f433b3945323031,
0x3b3b3b3b3b4e3b30313b3b3b3b4e453b303b6f4e3b4e4554205245424d554e20544341504520434954504f433b4145323031,
0x3b3b3b3b3b4e3b30323b3b3b3b4e453b303b6f4e3b59544e455754205245424d554e20544341504520434954504f433b4245323031,
0x3b3b3b3b3b4e3b30333b3b3b3b4e453b303b6f4e3b595452494854205245424d554e20544341504520434954504f433b4345323031,
0x3b3b3b3b3b4e3b30343b3b3b3b4e453b303b6f4e3b5954524f46205245424d554e20544341504520434954504f433b4445323031,
0x3b3b3b3b3b4e3b30353b3b3b3b4e453b303b6f4e3b5954464946205245424d554e20544341504520434954504f433b4545323031,
0x3b3b3b3b3b4e3b30363b3b3b3b4e453b303b6f4e3b5954584953205245424d554e20544341504520434954504f433b4645323031,
0x3b3b3b3b3b4e3b30373b3b3b3b4e453b303b6f4e3b59544e45564553205245424d554e20544341504520434954504f433b3046323031,
0x3b3b3b3b3b4e3b30383b3b3b3b4e453b303b6f4e3b595448474945205245424d554e20544341504520434954504f433b3146323031,
0x3b3b3b3b3b4e3b30393b3b3b3b4e453b303b6f4e3b5954454e494e205245424d554e20544341504520434954504f433b3246323031,
0x3b3b3b3b3b4e3b3030313b3b3b3b4e453b303b6f4e3b444552444e554820454e4f205245424d554e20544341504520434954504f433b3346323031,
0x3b3b3b3b3b4e3b3030323b3b3b3b4e453b303b6f4e3b444552444e5548204f5754205245424d554e20544341504520434954504f433b3446323031,
0x3b3b3b3b3b4e3b3030333b3b3b3b4e453b303b6f4e3b444552444e5548204545524854205245424d554e20544341504520434954504f433b3546323031,
0x3b3b3b3b3b4e3b3030343b3b3b3b4e453b303b6f4e3b444552444e55482052554f46205245424d554e20544341504520434954504f433b3646323031,
0x3b3b3b3b3b4e3b3030353b3b3b3b4e453b303b6f4e3b444552444e55482045564946205245424d554e20544341504520434954504f433b3746323031,
0x3b3b3b3b3b4e3b3030363b3b3b3b4e453b303b6f4e3b444552444e554820584953205245424d554e20544341504520434954504f433b3846323031,
0x3b3b3b3b3b4e3b3030373b3b3b3b4e453b303b6f4e3b444552444e5548204e45564553205245424d554e20544341504520434954504f433b3946323031,
0x3b3b3b3b3b4e3b3030383b3b3b3b4e453b303b6f4e3b444552444e5548205448474945205245424d554e20544341504520434954504f433b4146323031,
0x3b3b3b3b3b4e3b3030393b3b3b3b4e453b303b6f4e3b444552444e554820454e494e205245424d554e20544341504520434954504f433b4246323031,
0x3b3b3b3b3b4e3b3b3b3b3b4c3b303b6f4c3b412052455454454c2043494c41544920444c4f3b3030333031,
0x3b3b3b3b3b4e3b3b3b3b3b4c3b303b6f4c3b45422052455454454c2043494c41544920444c4f3b3130333031,
0x3b3b3b3b3b4e3b3b3b3b3b4c3b303b6f4c3b454b2052455454454c2043494c41544920444c4f3b3230333031,
0x3b3b3b3b3b4e3b3b3b3b3b4c3b303b6f4c3b45442052455454454c2043494c41544920444c4f3b3330333031,
0x3b3b3b3b3b4e3b3b3b3b3b4c3b303b6f4c3b452052455454454c2043494c41544920444c4f3b3430333031,
0x3b3b3b3b3b4e3b3b3b3b3b4c3b303b6f4c3b45562052455454454c2043494c41544920444c4f3b3530333031,
0x3b3b3b3b3b4e3b3b3b3b3b4c3b303b6f4c3b455a2052455454454c2043494c41544920444c4f3b3630333031,
0x3b3b3b3b3b4e3b3b3b3b3b4c3b303b6f4c3b45482052455454454c2043494c41544920444c4f3b3730333031,
0x3b3b3b3b3b4e3b3b3b3b3b4c3b303b6f4c3b4548542052455454454c2043494c41544920444c4f3b3830333031,
0x3b3b3b3b3b4e3b3b3b3b3b4c3b303b6f4c3b492052455454454c2043494c41544920444c4f3b3930333031,
0x3b3b3b3b3b4e3b3b3b3b3b4c3b303b6f4c3b414b2052455454454c2043494c41544920444c4f3b4130333031,
0x3b3b3b3b3b4e3b3b3b3b3b4c3b303b6f4c3b4c452052455454454c2043494c41544920444c4f3b4230333031,
0x3b3b3b3b3b4e3b3b3b3b3b4c3b303b6f4c3b4d452052455454454c2043494c41544920444c4f3b4330333031,
0x3b3b3b3b3b4e3b3b3b3b3b4c3b303b6f4c3b4e452052455454454c2043494c41544920444c4f3b4430333031,
0x3b3b3b3b3b4e3b3b3b3b3b4c3b303b6f4c3b4853452052455454454c2043494c41544920444c4f3b4530333031,
0x3b3b3b3b3b4e3b3b3b3b3b4c3b303b6f4c3b4f2052455454454c2043494c41544920444c4f3b4630333031,
0x3b3b3b3b3b4e3b3b3b3b3b4c3b303b6f4c3b45502052455454454c2043494c41544920444c4f3b3031333031,
0x3b3b3b3b3b4e3b3b3b3b3b4c3b303b6f4c3b4548532052455454454c2043494c41544920444c4f3b3131333031,
0x3b3b3b3b3b4e3b3b3b3b3b4c3b303b6f4c3b554b2052455454454c2043494c41544920444c4f3b3231333031,
0x3b3b3b3b3b4e3b3b3b3b3b4c3b303b6f4c3b52452052455454454c2043494c41544920444c4f3b3331333031,
0x3b3b3b3b3b4e3b3b3b3b3b4c3b303b6f4c3b53452052455454454c2043494c41544920444c4f3b3431333031,
0x3b3b3b3b3b4e3b3b3b3b3b4c3b303b6f4c3b45542052455454454c2043494c41544920444c4f3b3531333031,
0x3b3b3b3b3b4e3b3b3b3b3b4c3b303b6f4c3b552052455454454c2043494c41544920444c4f3b3631333031,
0x3b3b3b3b3b4e3b3b3b3b3b4c3b303b6f4c3b534b452052455454454c2043494c41544920444c4f3b3731333031,
0x3b3b3b3b3b4e3b3b3b3b3b4c3b303b6f4c3b4548502052455454454c2043494c41544920444c4f3b3831333031,
0x3b3b3b3b3b4e3b3b3b3b3b4c3b303b6f4c3b45484b2052455454454c2043494c41544920444c4f3b3931333031,
0x3b3b3b3b3b4e3b3b3b3b3b4c3b303b6f4c3b46452052455454454c2043494c41544920444c4f3b4131333031,
0x3b3b3b3b3b4e3b3b3b3b3b4c3b303b6f4c3b5352452052455454454c2043494c41544920444c4f3b4231333031,
0x3b3b3b3b3b4e3b3b3b3b3b4c3b303b6f4c3b4548432052455454454c2043494c41544920444c4f3b4331333031,
0x3b3b3b3b3b4e3b3b3b3b3b4c3b303b6f4c3b49492052455454454c2043494c41544920444c4f3b4431333031,
0x3b3b3b3b3b4e3b3b3b3b3b4c3b303b6f4c3b55552052455454454c2043494c41544920444c4f3b4531333031,
0x3b3b3b3b3b4e3b3b3b3b3b4c3b303b6f4c3b5353452052455454454c2043494c41544920444c4f3b4631333031,
0x3b3b3b3b3b4e3b313b3b3b3b4c3b303b6f4e3b454e4f204c4152454d554e2043494c41544920444c4f3b3032333031,
0x3b3b3b3b3b4e3b353b3b3b3b4c3b303b6f4e3b45564946204c4152454d554e2043494c41544920444c4f3b3132333031,
0x3b3b3b3b3b4e3b30313b3b3b3b4c3b303b6f4e3b4e4554204c4152454d554e2043494c41544920444c4f3b3232333031,
0x3b3b3b3b3b4e3b30353b3b3b3b4c3b303b6f4e3b5954464946204c4152454d554e2043494c41544920444c4f3b3332333031,
0x3b3b3b3b3b4e3b3b3b3b3b4c3b303b6f4c3b415348412052455454454c20434948544f473b3033333031,
0x3b3b3b3b3b4e3b3b3b3b3b4c3b303b6f4c3b4e414b524941422052455454454c20434948544f473b3133333031,
0x3b3b3b3b3b4e3b3b3b3b3b4c3b303b6f4c3b414249472052455454454c20434948544f473b3233333031,
0x3b3b3b3b3b4e3b3b3b3b3b4c3b303b6f4c3b534741442052455454454c20434948544f473b3333333031,
0x3b3b3b3b3b4e3b3b3b3b3b4c3b303b6f4c3b5355564849412052455454454c20434948544f473b3433333031,
0x3b3b3b3b3b4e3b3b3b3b3b4c3b303b6f4c3b41524854524941512052455454454c20434948544f473b3533333031,
0x3b3b3b3b3b4e3b3b3b3b3b4c3b303b6f4c3b414a55492052455454454c20434948544f473b3633333031,
0x3b3b3b3b3b4e3b3b3b3b3b4c3b303b6f4c3b4c4741482052455454454c20434948544f473b3733333031,
0x3b3b3b3b3b4e3b3b3b3b3b4c3b303b6f4c3b4854554948542052455454454c20434948544f473b3833333031,
0x3b3b3b3b3b4e3b3b3b3b3b4c3b303b6f4c3b5349452052455454454c20434948544f473b3933333031,
0x3b3b3b3b3b4e3b3b3b3b3b4c3b303b6f4c3b414d53554b2052455454454c20434948544f473b4133333031,
0x3b3b3b3b3b4e3b3b3b3b3b4c3b303b6f4c3b535547414c2052455454454c20434948544f473b4233333031,
0x3b3b3b3b3b4e3b3b3b3b3b4c3b303b6f4c3b414e4e414d2052455454454c20434948544f473b4333333031,
0x3b3b3b3b3b4e3b3b3b3b3b4c3b303b6f4c3b53485455414e2052455454454c20434948544f473b4433333031,
0x3b3b3b3b3b4e3b3b3b3b3b4c3b303b6f4c3b52454a2052455454454c20434948544f473b4533333031,
0x3b3b3b3b3b4e3b3b3b3b3b4c3b303b6f4c3b535552552052455454454c20434948544f473b4633333031,
0x3b3b3b3b3b4e3b3b3b3b3b4c3b303b6f4c3b41524854524941502052455454454c20434948544f473b3034333031,
0x3b3b3b3b3b4e3b30393b3b3b3b4c3b303b6c4e3b5954454e494e2052455454454c20434948544f473b3134333031,
0x3b3b3b3b3b4e3b3b3b3b3b4c3b303b6f4c3b41444941522052455454454c20434948544f473b3234333031,
0x3b3b3b3b3b4e3b3b3b3b3b4c3b303b6f4c3b4c495541532052455454454c20434948544f473b3334333031,
0x3b3b3b3b3b4e3b3b3b3b3b4c3b303b6f4c3b53574945542052455454454c20434948544f473b3434333031,
0x3b3b3b3b3b4e3b3b3b3b3b4c3b303b6f4c3b414a4e49572052455454454c20434948544f473b3534333031,
0x3b3b3b3b3b4e3b3b3b3b3b4c3b303b6f4c3b55484941462052455454454c20434948544f473b3634333031,
0x3b3b3b3b3b4e3b3b3b3b3b4c3b303b6f4c3b53574747492052455454454c20434948544f473b3734333031,
0x3b3b3b3b3b4e3b3b3b3b3b4c3b303b6f4c3b52494157482052455454454c20434948544f473b3834333031,
0x3b3b3b3b3b4e3b3b3b3b3b4c3b303b6f4c3b4c4148544f2052455454454c20434948544f473b3934333031,
0x3b3b3b3b3b4e3b3030393b3b3b3b4c3b303b6c4e3b444552444e554820454e494e2052455454454c20434948544f473b4134333031,
0x3b3b3b3b3b4e3b3b3b3b3b4c3b303b6f4c3b4e412052455454454c2043494d52455020444c4f3b3035333031,
0x3b3b3b3b3b4e3b3b3b3b3b4c3b303b6f4c3b5255422052455454454c2043494d52455020444c4f3b3135333031,
0x3b3b3b3b3b4e3b3b3b3b3b4c3b303b6f4c3b4941472052455454454c2043494d52455020444c4f3b3235333031,
0x3b3b3b3b3b4e3b3b3b3b3b4c3b303b6f4c3b494f442052455454454c2043494d52455020444c4f3b3335333031,
0x3b3b3b3b3b4e3b3b3b3b3b4c3b303b6f4c3b452052455454454c2043494d52455020444c4f3b3435333031,
0x3b3b3b3b3b4e3b3b3b3b3b4c3b303b6f4c3b494f485a2052455454454c2043494d52455020444c4f3b3535333031,
0x3b3b3b3b3b4e3b3b3b3b3b4c3b303b6f4c3b494f485a442052455454454c2043494d52455020444c4f3b3635333031,
0x3b3b3b3b3b4e3b3b3b3b3b4c3b303b6f4c3b4154415a2052455454454c2043494d52455020444c4f3b3735333031,
0x3b3b3b3b3b4e3b3b3b3b3b4c3b303b6f4c3b4154495a442052455454454c2043494d52455020444c4f3b3835333031,
0x3b3b3b3b3b4e3b3b3b3b3b4c3b303b6f4c3b492052455454454c2043494d52455020444c4f3b3935333031,
0x3b3b3b3b3b4e3b3b3b3b3b4c3b303b6f4c3b454b4f4b2052455454454c2043494d52455020444c4f3b4135333031,
0x3b3b3b3b3b4e3b3b3b3b3b4c3b303b6f4c3b49454c2052455454454c2043494d52455020444c4f3b4235333031,
0x3b3b3b3b3b4e3b3b3b3b3b4c3b303b6f4c3b454f4e454d2052455454454c2043494d52455020444c4f3b4335333031,
0x3b3b3b3b3b4e3b3b3b3b3b4c3b303b6f4c3b454f4e454e2052455454454c2043494d52455020444c4f3b4435333031,
0x3b3b3b3b3b4e3b3b3b3b3b4c3b303b6f4c3b494f4f562052455454454c2043494d52455020444c4f3b4535333031,
0x3b3b3b3b3b4e3b3b3b3b3b4c3b303b6f4c3b494545502052455454454c2043494d52455020444c4f3b4635333031,
0x3b3b3b3b3b4e3b3b3b3b3b4c3b303b6f4c3b4945522052455454454c2043494d52455020444c4f3b3036333031,
0x3b3b3b3b3b4e3b3b3b3b3b4c3b303b6f4c3b4949532052455454454c2043494d52455020444c4f3b3136333031,
0x3b3b3b3b3b4e3b3b3b3b3b4c3b303b6f4c3b4941542052455454454c2043494d52455020444c4f3b3236333031,
0x3b3b3b3b3b4e3b3b3b3b3b4c3b303b6f4c3b552052455454454c2043494d52455020444c4f3b3336333031,
0x3b3b3b3b3b4e3b3b3b3b3b4c3b303b6f4c3b59524548432052455454454c2043494d52455020444c4f3b3436333031,
0x3b3b3b3b3b4e3b3b3b3b3b4c3b303b6f4c3b494f4f48532052455454454c2043494d52455020444c4f3b3536333031,
0x3b3b3b3b3b4e3b3b3b3b3b4c3b303b6f4c3b494f4f484348532052455454454c2043494d52455020444c4f3b3636333031,
0x3b3b3b3b3b4e3b3b3b3b3b4c3b303b6f4c3b5952592052455454454c2043494d52455020444c4f3b3736333031,
0x3b3b3b3b3b4e3b3b3b3b3b4c3b303b6f4c3b555245592052455454454c2043494d52455020444c4f3b3836333031,
0x3b3b3b3b3b4e3b3b3b3b3b4c3b303b6f4c3b4f2052455454454c2043494d52455020444c4f3b3936333031,
0x3b3b3b3b3b4e3b3b3b3b3b4c3b303b6f4c3b4f4f2052455454454c2043494d52455020444c4f3b4136333031,
0x3b3b3b3b3b4e3b3b3b3b3b4c3b303b6f4c3b46452052455454454c2043494d52455020444c4f3b4236333031,
0x3b3b3b3b3b4e3b3b3b3b3b4c3b303b6f4c3b41482052455454454c2043494d52455020444c4f3b4336333031,
0x3b3b3b3b3b4e3b3b3b3b3b4c3b303b6f4c3b554953542052455454454c2043494d52455020444c4f3b4436333031]

/-- src/u5e/props/UnicodeData.txt lines 17153-17408. -/
def rawUcd67 : List Nat := [
0x3b3b3b3b3b4e3b3b3b3b3b4c3b303b6f4c3b5245562052455454454c2043494d52455020444c4f3b4536333031,
0x3b3b3b3b3b4e3b3b3b3b3b4c3b303b6f4c3b5245592052455454454c2043494d52455020444c4f3b4636333031,
0x3b3b3b3b3b4e3b3b3b3b3b4c3b303b6f4c3b495245592052455454454c2043494d52455020444c4f3b3037333031,
0x3b3b3b3b3b4e3b3b3b3b3b4c3b303b6f4c3b5441592052455454454c2043494d52455020444c4f3b3137333031,
0x3b3b3b3b3b4e3b3b3b3b3b4c3b303b6f4c3b45492052455454454c2043494d52455020444c4f3b3237333031,
0x3b3b3b3b3b4e3b3b3b3b3b4c3b303b6f4c3b55592052455454454c2043494d52455020444c4f3b3337333031,
0x3b3b3b3b3b4e3b3b3b3b3b4c3b303b6f4c3b41592052455454454c2043494d52455020444c4f3b3437333031,
0x3b3b3b3b3b4e3b3b3b3b3b4c3b303b6f4c3b41492052455454454c2043494d52455020444c4f3b3537333031,
0x3b3b3b3b3b4e3b3b3b3b3b4d534e3b3033323b6e4d3b4e412052455454454c2043494d52455020444c4f20474e494e49424d4f433b3637333031,
0x3b3b3b3b3b4e3b3b3b3b3b4d534e3b3033323b6e4d3b494f442052455454454c2043494d52455020444c4f20474e494e49424d4f433b3737333031,
0x3b3b3b3b3b4e3b3b3b3b3b4d534e3b3033323b6e4d3b4154415a2052455454454c2043494d52455020444c4f20474e494e49424d4f433b3837333031,
0x3b3b3b3b3b4e3b3b3b3b3b4d534e3b3033323b6e4d3b454f4e454e2052455454454c2043494d52455020444c4f20474e494e49424d4f433b3937333031,
0x3b3b3b3b3b4e3b3b3b3b3b4d534e3b3033323b6e4d3b4949532052455454454c2043494d52455020444c4f20474e494e49424d4f433b4137333031,
0x3b3b3b3b3b4e3b3b3b3b3b4c3b303b6f4c3b41504c412052455454454c2043495449524147553b3038333031,
0x3b3b3b3b3b4e3b3b3b3b3b4c3b303b6f4c3b415445422052455454454c2043495449524147553b3138333031,
0x3b3b3b3b3b4e3b3b3b3b3b4c3b303b6f4c3b414c4d41472052455454454c2043495449524147553b3238333031,
0x3b3b3b3b3b4e3b3b3b3b3b4c3b303b6f4c3b41484b2052455454454c2043495449524147553b3338333031,
0x3b3b3b3b3b4e3b3b3b3b3b4c3b303b6f4c3b41544c45442052455454454c2043495449524147553b3438333031,
0x3b3b3b3b3b4e3b3b3b3b3b4c3b303b6f4c3b4f482052455454454c2043495449524147553b3538333031,
0x3b3b3b3b3b4e3b3b3b3b3b4c3b303b6f4c3b4f572052455454454c2043495449524147553b3638333031,
0x3b3b3b3b3b4e3b3b3b3b3b4c3b303b6f4c3b4154455a2052455454454c2043495449524147553b3738333031,
0x3b3b3b3b3b4e3b3b3b3b3b4c3b303b6f4c3b41544f482052455454454c2043495449524147553b3838333031,
0x3b3b3b3b3b4e3b3b3b3b3b4c3b303b6f4c3b5445542052455454454c2043495449524147553b3938333031,
0x3b3b3b3b3b4e3b3b3b3b3b4c3b303b6f4c3b444f592052455454454c2043495449524147553b4138333031,
0x3b3b3b3b3b4e3b3b3b3b3b4c3b303b6f4c3b46414b2052455454454c2043495449524147553b4238333031,
0x3b3b3b3b3b4e3b3b3b3b3b4c3b303b6f4c3b4e4948532052455454454c2043495449524147553b4338333031,
0x3b3b3b3b3b4e3b3b3b3b3b4c3b303b6f4c3b41444d414c2052455454454c2043495449524147553b4438333031,
0x3b3b3b3b3b4e3b3b3b3b3b4c3b303b6f4c3b4d454d2052455454454c2043495449524147553b4538333031,
0x3b3b3b3b3b4e3b3b3b3b3b4c3b303b6f4c3b4c4148442052455454454c2043495449524147553b4638333031,
0x3b3b3b3b3b4e3b3b3b3b3b4c3b303b6f4c3b4e554e2052455454454c2043495449524147553b3039333031,
0x3b3b3b3b3b4e3b3b3b3b3b4c3b303b6f4c3b555a2052455454454c2043495449524147553b3139333031,
0x3b3b3b3b3b4e3b3b3b3b3b4c3b303b6f4c3b414b4d41532052455454454c2043495449524147553b3239333031,
0x3b3b3b3b3b4e3b3b3b3b3b4c3b303b6f4c3b4e49412052455454454c2043495449524147553b3339333031,
0x3b3b3b3b3b4e3b3b3b3b3b4c3b303b6f4c3b55502052455454454c2043495449524147553b3439333031,
0x3b3b3b3b3b4e3b3b3b3b3b4c3b303b6f4c3b454441532052455454454c2043495449524147553b3539333031,
0x3b3b3b3b3b4e3b3b3b3b3b4c3b303b6f4c3b41504f512052455454454c2043495449524147553b3639333031,
0x3b3b3b3b3b4e3b3b3b3b3b4c3b303b6f4c3b41485341522052455454454c2043495449524147553b3739333031,
0x3b3b3b3b3b4e3b3b3b3b3b4c3b303b6f4c3b414e4e4148542052455454454c2043495449524147553b3839333031,
0x3b3b3b3b3b4e3b3b3b3b3b4c3b303b6f4c3b4e494148472052455454454c2043495449524147553b3939333031,
0x3b3b3b3b3b4e3b3b3b3b3b4c3b303b6f4c3b4f542052455454454c2043495449524147553b4139333031,
0x3b3b3b3b3b4e3b3b3b3b3b4c3b303b6f4c3b492052455454454c2043495449524147553b4239333031,
0x3b3b3b3b3b4e3b3b3b3b3b4c3b303b6f4c3b552052455454454c2043495449524147553b4339333031,
0x3b3b3b3b3b4e3b3b3b3b3b4c3b303b6f4c3b5553532052455454454c2043495449524147553b4439333031,
0x3b3b3b3b3b4e3b3b3b3b3b4c3b303b6f503b524544495649442044524f572043495449524147553b4639333031,
0x3b3b3b3b3b4e3b3b3b3b3b4c3b303b6f4c3b41204e474953204e41495352455020444c4f3b3041333031,
0x3b3b3b3b3b4e3b3b3b3b3b4c3b303b6f4c3b49204e474953204e41495352455020444c4f3b3141333031,
0x3b3b3b3b3b4e3b3b3b3b3b4c3b303b6f4c3b55204e474953204e41495352455020444c4f3b3241333031,
0x3b3b3b3b3b4e3b3b3b3b3b4c3b303b6f4c3b414b204e474953204e41495352455020444c4f3b3341333031,
0x3b3b3b3b3b4e3b3b3b3b3b4c3b303b6f4c3b554b204e474953204e41495352455020444c4f3b3441333031,
0x3b3b3b3b3b4e3b3b3b3b3b4c3b303b6f4c3b4147204e474953204e41495352455020444c4f3b3541333031,
0x3b3b3b3b3b4e3b3b3b3b3b4c3b303b6f4c3b5547204e474953204e41495352455020444c4f3b3641333031,
0x3b3b3b3b3b4e3b3b3b3b3b4c3b303b6f4c3b4158204e474953204e41495352455020444c4f3b3741333031,
0x3b3b3b3b3b4e3b3b3b3b3b4c3b303b6f4c3b4143204e474953204e41495352455020444c4f3b3841333031,
0x3b3b3b3b3b4e3b3b3b3b3b4c3b303b6f4c3b414a204e474953204e41495352455020444c4f3b3941333031,
0x3b3b3b3b3b4e3b3b3b3b3b4c3b303b6f4c3b494a204e474953204e41495352455020444c4f3b4141333031,
0x3b3b3b3b3b4e3b3b3b3b3b4c3b303b6f4c3b4154204e474953204e41495352455020444c4f3b4241333031,
0x3b3b3b3b3b4e3b3b3b3b3b4c3b303b6f4c3b5554204e474953204e41495352455020444c4f3b4341333031,
0x3b3b3b3b3b4e3b3b3b3b3b4c3b303b6f4c3b4144204e474953204e41495352455020444c4f3b4441333031,
0x3b3b3b3b3b4e3b3b3b3b3b4c3b303b6f4c3b4944204e474953204e41495352455020444c4f3b4541333031,
0x3b3b3b3b3b4e3b3b3b3b3b4c3b303b6f4c3b5544204e474953204e41495352455020444c4f3b4641333031,
0x3b3b3b3b3b4e3b3b3b3b3b4c3b303b6f4c3b414854204e474953204e41495352455020444c4f3b3042333031,
0x3b3b3b3b3b4e3b3b3b3b3b4c3b303b6f4c3b4150204e474953204e41495352455020444c4f3b3142333031,
0x3b3b3b3b3b4e3b3b3b3b3b4c3b303b6f4c3b4142204e474953204e41495352455020444c4f3b3242333031,
0x3b3b3b3b3b4e3b3b3b3b3b4c3b303b6f4c3b4146204e474953204e41495352455020444c4f3b3342333031,
0x3b3b3b3b3b4e3b3b3b3b3b4c3b303b6f4c3b414e204e474953204e41495352455020444c4f3b3442333031,
0x3b3b3b3b3b4e3b3b3b3b3b4c3b303b6f4c3b554e204e474953204e41495352455020444c4f3b3542333031,
0x3b3b3b3b3b4e3b3b3b3b3b4c3b303b6f4c3b414d204e474953204e41495352455020444c4f3b3642333031,
0x3b3b3b3b3b4e3b3b3b3b3b4c3b303b6f4c3b494d204e474953204e41495352455020444c4f3b3742333031,
0x3b3b3b3b3b4e3b3b3b3b3b4c3b303b6f4c3b554d204e474953204e41495352455020444c4f3b3842333031,
0x3b3b3b3b3b4e3b3b3b3b3b4c3b303b6f4c3b4159204e474953204e41495352455020444c4f3b3942333031,
0x3b3b3b3b3b4e3b3b3b3b3b4c3b303b6f4c3b4156204e474953204e41495352455020444c4f3b4142333031,
0x3b3b3b3b3b4e3b3b3b3b3b4c3b303b6f4c3b4956204e474953204e41495352455020444c4f3b4242333031,
0x3b3b3b3b3b4e3b3b3b3b3b4c3b303b6f4c3b4152204e474953204e41495352455020444c4f3b4342333031,
0x3b3b3b3b3b4e3b3b3b3b3b4c3b303b6f4c3b5552204e474953204e41495352455020444c4f3b4442333031,
0x3b3b3b3b3b4e3b3b3b3b3b4c3b303b6f4c3b414c204e474953204e41495352455020444c4f3b4542333031,
0x3b3b3b3b3b4e3b3b3b3b3b4c3b303b6f4c3b4153204e474953204e41495352455020444c4f3b4642333031,
0x3b3b3b3b3b4e3b3b3b3b3b4c3b303b6f4c3b415a204e474953204e41495352455020444c4f3b3043333031,
0x3b3b3b3b3b4e3b3b3b3b3b4c3b303b6f4c3b414853204e474953204e41495352455020444c4f3b3143333031,
0x3b3b3b3b3b4e3b3b3b3b3b4c3b303b6f4c3b415353204e474953204e41495352455020444c4f3b3243333031,
0x3b3b3b3b3b4e3b3b3b3b3b4c3b303b6f4c3b4148204e474953204e41495352455020444c4f3b3343333031,
0x3b3b3b3b3b4e3b3b3b3b3b4c3b303b6f4c3b4141445a414d41525541204e474953204e41495352455020444c4f3b3843333031,
0x3b3b3b3b3b4e3b3b3b3b3b4c3b303b6f4c3b322d4141445a414d41525541204e474953204e41495352455020444c4f3b3943333031,
0x3b3b3b3b3b4e3b3b3b3b3b4c3b303b6f4c3b41484141445a414d41525541204e474953204e41495352455020444c4f3b4143333031,
0x3b3b3b3b3b4e3b3b3b3b3b4c3b303b6f4c3b415949485441594141485358204e474953204e41495352455020444c4f3b4243333031,
0x3b3b3b3b3b4e3b3b3b3b3b4c3b303b6f4c3b485355414159484144204e474953204e41495352455020444c4f3b4343333031,
0x3b3b3b3b3b4e3b3b3b3b3b4c3b303b6f4c3b322d485355414159484144204e474953204e41495352455020444c4f3b4443333031,
0x3b3b3b3b3b4e3b3b3b3b3b4c3b303b6f4c3b41474142204e474953204e41495352455020444c4f3b4543333031,
0x3b3b3b3b3b4e3b3b3b3b3b4c3b303b6f4c3b4853494d555542204e474953204e41495352455020444c4f3b4643333031,
0x3b3b3b3b3b4e3b3b3b3b3b4c3b303b6f503b524544495649442044524f57204e41495352455020444c4f3b3044333031,
0x3b3b3b3b3b4e3b313b3b3b3b4c3b303b6c4e3b454e4f205245424d554e204e41495352455020444c4f3b3144333031,
0x3b3b3b3b3b4e3b323b3b3b3b4c3b303b6c4e3b4f5754205245424d554e204e41495352455020444c4f3b3244333031,
0x3b3b3b3b3b4e3b30313b3b3b3b4c3b303b6c4e3b4e4554205245424d554e204e41495352455020444c4f3b3344333031,
0x3b3b3b3b3b4e3b30323b3b3b3b4c3b303b6c4e3b59544e455754205245424d554e204e41495352455020444c4f3b3444333031,
0x3b3b3b3b3b4e3b3030313b3b3b3b4c3b303b6c4e3b444552444e5548205245424d554e204e41495352455020444c4f3b3544333031,
0x3b38323430313b3b3b3b4e3b3b3b3b3b4c3b303b754c3b4920474e4f4c2052455454454c204c41544950414320544552455345443b3030343031,
0x3b39323430313b3b3b3b4e3b3b3b3b3b4c3b303b754c3b4520474e4f4c2052455454454c204c41544950414320544552455345443b3130343031,
0x3b41323430313b3b3b3b4e3b3b3b3b3b4c3b303b754c3b4120474e4f4c2052455454454c204c41544950414320544552455345443b3230343031,
0x3b42323430313b3b3b3b4e3b3b3b3b3b4c3b303b754c3b484120474e4f4c2052455454454c204c41544950414320544552455345443b3330343031,
0x3b43323430313b3b3b3b4e3b3b3b3b3b4c3b303b754c3b4f20474e4f4c2052455454454c204c41544950414320544552455345443b3430343031,
0x3b44323430313b3b3b3b4e3b3b3b3b3b4c3b303b754c3b4f4f20474e4f4c2052455454454c204c41544950414320544552455345443b3530343031,
0x3b45323430313b3b3b3b4e3b3b3b3b3b4c3b303b754c3b492054524f48532052455454454c204c41544950414320544552455345443b3630343031,
0x3b46323430313b3b3b3b4e3b3b3b3b3b4c3b303b754c3b452054524f48532052455454454c204c41544950414320544552455345443b3730343031,
0x3b30333430313b3b3b3b4e3b3b3b3b3b4c3b303b754c3b412054524f48532052455454454c204c41544950414320544552455345443b3830343031,
0x3b31333430313b3b3b3b4e3b3b3b3b3b4c3b303b754c3b48412054524f48532052455454454c204c41544950414320544552455345443b3930343031,
0x3b32333430313b3b3b3b4e3b3b3b3b3b4c3b303b754c3b4f2054524f48532052455454454c204c41544950414320544552455345443b4130343031,
0x3b33333430313b3b3b3b4e3b3b3b3b3b4c3b303b754c3b4f4f2054524f48532052455454454c204c41544950414320544552455345443b4230343031,
0x3b34333430313b3b3b3b4e3b3b3b3b3b4c3b303b754c3b59412052455454454c204c41544950414320544552455345443b4330343031,
0x3b35333430313b3b3b3b4e3b3b3b3b3b4c3b303b754c3b574f2052455454454c204c41544950414320544552455345443b4430343031,
0x3b36333430313b3b3b3b4e3b3b3b3b3b4c3b303b754c3b55572052455454454c204c41544950414320544552455345443b4530343031,
0x3b37333430313b3b3b3b4e3b3b3b3b3b4c3b303b754c3b4545592052455454454c204c41544950414320544552455345443b4630343031,
0x3b38333430313b3b3b3b4e3b3b3b3b3b4c3b303b754c3b482052455454454c204c41544950414320544552455345443b3031343031,
0x3b39333430313b3b3b3b4e3b3b3b3b3b4c3b303b754c3b4545502052455454454c204c41544950414320544552455345443b3131343031,
0x3b41333430313b3b3b3b4e3b3b3b3b3b4c3b303b754c3b4545422052455454454c204c41544950414320544552455345443b3231343031,
0x3b42333430313b3b3b3b4e3b3b3b3b3b4c3b303b754c3b4545542052455454454c204c41544950414320544552455345443b3331343031,
0x3b43333430313b3b3b3b4e3b3b3b3b3b4c3b303b754c3b4545442052455454454c204c41544950414320544552455345443b3431343031,
0x3b44333430313b3b3b3b4e3b3b3b3b3b4c3b303b754c3b454548432052455454454c204c41544950414320544552455345443b3531343031,
0x3b45333430313b3b3b3b4e3b3b3b3b3b4c3b303b754c3b45454a2052455454454c204c41544950414320544552455345443b3631343031,
0x3b46333430313b3b3b3b4e3b3b3b3b3b4c3b303b754c3b59414b2052455454454c204c41544950414320544552455345443b3731343031,
0x3b30343430313b3b3b3b4e3b3b3b3b3b4c3b303b754c3b5941472052455454454c204c41544950414320544552455345443b3831343031,
0x3b31343430313b3b3b3b4e3b3b3b3b3b4c3b303b754c3b46452052455454454c204c41544950414320544552455345443b3931343031,
0x3b32343430313b3b3b3b4e3b3b3b3b3b4c3b303b754c3b4545562052455454454c204c41544950414320544552455345443b4131343031,
0x3b33343430313b3b3b3b4e3b3b3b3b3b4c3b303b754c3b4854452052455454454c204c41544950414320544552455345443b4231343031,
0x3b34343430313b3b3b3b4e3b3b3b3b3b4c3b303b754c3b454548542052455454454c204c41544950414320544552455345443b4331343031,
0x3b35343430313b3b3b3b4e3b3b3b3b3b4c3b303b754c3b53452052455454454c204c41544950414320544552455345443b4431343031,
0x3b36343430313b3b3b3b4e3b3b3b3b3b4c3b303b754c3b45455a2052455454454c204c41544950414320544552455345443b4531343031,
0x3b37343430313b3b3b3b4e3b3b3b3b3b4c3b303b754c3b4853452052455454454c204c41544950414320544552455345443b4631343031,
0x3b38343430313b3b3b3b4e3b3b3b3b3b4c3b303b754c3b4545485a2052455454454c204c41544950414320544552455345443b3032343031,
0x3b39343430313b3b3b3b4e3b3b3b3b3b4c3b303b754c3b52452052455454454c204c41544950414320544552455345443b3132343031,
0x3b41343430313b3b3b3b4e3b3b3b3b3b4c3b303b754c3b4c452052455454454c204c41544950414320544552455345443b3232343031,
0x3b42343430313b3b3b3b4e3b3b3b3b3b4c3b303b754c3b4d452052455454454c204c41544950414320544552455345443b3332343031,
0x3b43343430313b3b3b3b4e3b3b3b3b3b4c3b303b754c3b4e452052455454454c204c41544950414320544552455345443b3432343031,
0x3b44343430313b3b3b3b4e3b3b3b3b3b4c3b303b754c3b474e452052455454454c204c41544950414320544552455345443b3532343031,
0x3b45343430313b3b3b3b4e3b3b3b3b3b4c3b303b754c3b494f2052455454454c204c41544950414320544552455345443b3632343031,
0x3b46343430313b3b3b3b4e3b3b3b3b3b4c3b303b754c3b57452052455454454c204c41544950414320544552455345443b3732343031,
0x30303430313b3b30303430313b3b3b4e3b3b3b3b3b4c3b303b6c4c3b4920474e4f4c2052455454454c204c4c414d5320544552455345443b3832343031,
0x31303430313b3b31303430313b3b3b4e3b3b3b3b3b4c3b303b6c4c3b4520474e4f4c2052455454454c204c4c414d5320544552455345443b3932343031,
0x32303430313b3b32303430313b3b3b4e3b3b3b3b3b4c3b303b6c4c3b4120474e4f4c2052455454454c204c4c414d5320544552455345443b4132343031,
0x33303430313b3b33303430313b3b3b4e3b3b3b3b3b4c3b303b6c4c3b484120474e4f4c2052455454454c204c4c414d5320544552455345443b4232343031,
0x34303430313b3b34303430313b3b3b4e3b3b3b3b3b4c3b303b6c4c3b4f20474e4f4c2052455454454c204c4c414d5320544552455345443b4332343031,
0x35303430313b3b35303430313b3b3b4e3b3b3b3b3b4c3b303b6c4c3b4f4f20474e4f4c2052455454454c204c4c414d5320544552455345443b4432343031,
0x36303430313b3b36303430313b3b3b4e3b3b3b3b3b4c3b303b6c4c3b492054524f48532052455454454c204c4c414d5320544552455345443b4532343031,
0x37303430313b3b37303430313b3b3b4e3b3b3b3b3b4c3b303b6c4c3b452054524f48532052455454454c204c4c414d5320544552455345443b4632343031,
0x38303430313b3b38303430313b3b3b4e3b3b3b3b3b4c3b303b6c4c3b412054524f48532052455454454c204c4c414d5320544552455345443b3033343031,
0x39303430313b3b39303430313b3b3b4e3b3b3b3b3b4c3b303b6c4c3b48412054524f48532052455454454c204c4c414d5320544552455345443b3133343031,
0x41303430313b3b41303430313b3b3b4e3b3b3b3b3b4c3b303b6c4c3b4f2054524f48532052455454454c204c4c414d5320544552455345443b3233343031,
0x42303430313b3b42303430313b3b3b4e3b3b3b3b3b4c3b303b6c4c3b4f4f2054524f48532052455454454c204c4c414d5320544552455345443b3333343031,
0x43303430313b3b43303430313b3b3b4e3b3b3b3b3b4c3b303b6c4c3b59412052455454454c204c4c414d5320544552455345443b3433343031,
0x44303430313b3b44303430313b3b3b4e3b3b3b3b3b4c3b303b6c4c3b574f2052455454454c204c4c414d5320544552455345443b3533343031,
0x45303430313b3b45303430313b3b3b4e3b3b3b3b3b4c3b303b6c4c3b55572052455454454c204c4c414d5320544552455345443b3633343031,
0x46303430313b3b46303430313b3b3b4e3b3b3b3b3b4c3b303b6c4c3b4545592052455454454c204c4c414d5320544552455345443b3733343031,
0x30313430313b3b30313430313b3b3b4e3b3b3b3b3b4c3b303b6c4c3b482052455454454c204c4c414d5320544552455345443b3833343031,
0x31313430313b3b31313430313b3b3b4e3b3b3b3b3b4c3b303b6c4c3b4545502052455454454c204c4c414d5320544552455345443b3933343031,
0x32313430313b3b32313430313b3b3b4e3b3b3b3b3b4c3b303b6c4c3b4545422052455454454c204c4c414d5320544552455345443b4133343031,
0x33313430313b3b33313430313b3b3b4e3b3b3b3b3b4c3b303b6c4c3b4545542052455454454c204c4c414d5320544552455345443b4233343031,
0x34313430313b3b34313430313b3b3b4e3b3b3b3b3b4c3b303b6c4c3b4545442052455454454c204c4c414d5320544552455345443b4333343031,
0x35313430313b3b35313430313b3b3b4e3b3b3b3b3b4c3b303b6c4c3b454548432052455454454c204c4c414d5320544552455345443b4433343031,
0x36313430313b3b36313430313b3b3b4e3b3b3b3b3b4c3b303b6c4c3b45454a2052455454454c204c4c414d5320544552455345443b4533343031,
0x37313430313b3b37313430313b3b3b4e3b3b3b3b3b4c3b303b6c4c3b59414b2052455454454c204c4c414d5320544552455345443b4633343031,
0x38313430313b3b38313430313b3b3b4e3b3b3b3b3b4c3b303b6c4c3b5941472052455454454c204c4c414d5320544552455345443b3034343031,
0x39313430313b3b39313430313b3b3b4e3b3b3b3b3b4c3b303b6c4c3b46452052455454454c204c4c414d5320544552455345443b3134343031,
0x41313430313b3b41313430313b3b3b4e3b3b3b3b3b4c3b303b6c4c3b4545562052455454454c204c4c414d5320544552455345443b3234343031,
0x42313430313b3b42313430313b3b3b4e3b3b3b3b3b4c3b303b6c4c3b4854452052455454454c204c4c414d5320544552455345443b3334343031,
0x43313430313b3b43313430313b3b3b4e3b3b3b3b3b4c3b303b6c4c3b454548542052455454454c204c4c414d5320544552455345443b3434343031,
0x44313430313b3b44313430313b3b3b4e3b3b3b3b3b4c3b303b6c4c3b53452052455454454c204c4c414d5320544552455345443b3534343031,
0x45313430313b3b45313430313b3b3b4e3b3b3b3b3b4c3b303b6c4c3b45455a2052455454454c204c4c414d5320544552455345443b3634343031,
0x46313430313b3b46313430313b3b3b4e3b3b3b3b3b4c3b303b6c4c3b4853452052455454454c204c4c414d5320544552455345443b3734343031,
0x30323430313b3b30323430313b3b3b4e3b3b3b3b3b4c3b303b6c4c3b4545485a2052455454454c204c4c414d5320544552455345443b3834343031,
0x31323430313b3b31323430313b3b3b4e3b3b3b3b3b4c3b303b6c4c3b52452052455454454c204c4c414d5320544552455345443b3934343031,
0x32323430313b3b32323430313b3b3b4e3b3b3b3b3b4c3b303b6c4c3b4c452052455454454c204c4c414d5320544552455345443b4134343031,
0x33323430313b3b33323430313b3b3b4e3b3b3b3b3b4c3b303b6c4c3b4d452052455454454c204c4c414d5320544552455345443b4234343031,
0x34323430313b3b34323430313b3b3b4e3b3b3b3b3b4c3b303b6c4c3b4e452052455454454c204c4c414d5320544552455345443b4334343031,
0x35323430313b3b35323430313b3b3b4e3b3b3b3b3b4c3b303b6c4c3b474e452052455454454c204c4c414d5320544552455345443b4434343031,
0x36323430313b3b36323430313b3b3b4e3b3b3b3b3b4c3b303b6c4c3b494f2052455454454c204c4c414d5320544552455345443b4534343031,
0x37323430313b3b37323430313b3b3b4e3b3b3b3b3b4c3b303b6c4c3b57452052455454454c204c4c414d5320544552455345443b4634343031,
0x3b3b3b3b3b4e3b3b3b3b3b4c3b303b6f4c3b504545502052455454454c204e4149564148533b3035343031,
0x3b3b3b3b3b4e3b3b3b3b3b4c3b303b6f4c3b544f542052455454454c204e4149564148533b3135343031,
0x3b3b3b3b3b4e3b3b3b3b3b4c3b303b6f4c3b4b43494b2052455454454c204e4149564148533b3235343031,
0x3b3b3b3b3b4e3b3b3b3b3b4c3b303b6f4c3b4545462052455454454c204e4149564148533b3335343031,
0x3b3b3b3b3b4e3b3b3b3b3b4c3b303b6f4c3b48474948542052455454454c204e4149564148533b3435343031,
0x3b3b3b3b3b4e3b3b3b3b3b4c3b303b6f4c3b4f532052455454454c204e4149564148533b3535343031,
0x3b3b3b3b3b4e3b3b3b3b3b4c3b303b6f4c3b455255532052455454454c204e4149564148533b3635343031,
0x3b3b3b3b3b4e3b3b3b3b3b4c3b303b6f4c3b4843525548432052455454454c204e4149564148533b3735343031,
0x3b3b3b3b3b4e3b3b3b3b3b4c3b303b6f4c3b4145592052455454454c204e4149564148533b3835343031,
0x3b3b3b3b3b4e3b3b3b3b3b4c3b303b6f4c3b474e55482052455454454c204e4149564148533b3935343031,
0x3b3b3b3b3b4e3b3b3b3b3b4c3b303b6f4c3b4249422052455454454c204e4149564148533b4135343031,
0x3b3b3b3b3b4e3b3b3b3b3b4c3b303b6f4c3b444145442052455454454c204e4149564148533b4235343031,
0x3b3b3b3b3b4e3b3b3b3b3b4c3b303b6f4c3b4741472052455454454c204e4149564148533b4335343031,
0x3b3b3b3b3b4e3b3b3b3b3b4c3b303b6f4c3b574f562052455454454c204e4149564148533b4435343031,
0x3b3b3b3b3b4e3b3b3b3b3b4c3b303b6f4c3b594548542052455454454c204e4149564148533b4535343031,
0x3b3b3b3b3b4e3b3b3b3b3b4c3b303b6f4c3b4f4f5a2052455454454c204e4149564148533b4635343031,
0x3b3b3b3b3b4e3b3b3b3b3b4c3b303b6f4c3b4552555341454d2052455454454c204e4149564148533b3036343031,
0x3b3b3b3b3b4e3b3b3b3b3b4c3b303b6f4c3b454744554a2052455454454c204e4149564148533b3136343031,
0x3b3b3b3b3b4e3b3b3b3b3b4c3b303b6f4c3b454f572052455454454c204e4149564148533b3236343031,
0x3b3b3b3b3b4e3b3b3b3b3b4c3b303b6f4c3b41482d41482052455454454c204e4149564148533b3336343031,
0x3b3b3b3b3b4e3b3b3b3b3b4c3b303b6f4c3b4c4c4f4c2052455454454c204e4149564148533b3436343031,
0x3b3b3b3b3b4e3b3b3b3b3b4c3b303b6f4c3b454d494d2052455454454c204e4149564148533b3536343031,
0x3b3b3b3b3b4e3b3b3b3b3b4c3b303b6f4c3b46492052455454454c204e4149564148533b3636343031,
0x3b3b3b3b3b4e3b3b3b3b3b4c3b303b6f4c3b4747452052455454454c204e4149564148533b3736343031,
0x3b3b3b3b3b4e3b3b3b3b3b4c3b303b6f4c3b4853412052455454454c204e4149564148533b3836343031,
0x3b3b3b3b3b4e3b3b3b3b3b4c3b303b6f4c3b4f44412052455454454c204e4149564148533b3936343031,
0x3b3b3b3b3b4e3b3b3b3b3b4c3b303b6f4c3b4e4f2052455454454c204e4149564148533b4136343031,
0x3b3b3b3b3b4e3b3b3b3b3b4c3b303b6f4c3b4c4f4f572052455454454c204e4149564148533b4236343031,
0x3b3b3b3b3b4e3b3b3b3b3b4c3b303b6f4c3b54554f2052455454454c204e4149564148533b4336343031,
0x3b3b3b3b3b4e3b3b3b3b3b4c3b303b6f4c3b48412052455454454c204e4149564148533b4436343031,
0x3b3b3b3b3b4e3b3b3b3b3b4c3b303b6f4c3b52414f522052455454454c204e4149564148533b4536343031,
0x3b3b3b3b3b4e3b3b3b3b3b4c3b303b6f4c3b4e554e2052455454454c204e4149564148533b4636343031,
0x3b3b3b3b3b4e3b3b3b3b3b4c3b303b6f4c3b5441452052455454454c204e4149564148533b3037343031,
0x3b3b3b3b3b4e3b3b3b3b3b4c3b303b6f4c3b4547412052455454454c204e4149564148533b3137343031,
0x3b3b3b3b3b4e3b3b3b3b3b4c3b303b6f4c3b4543492052455454454c204e4149564148533b3237343031,
0x3b3b3b3b3b4e3b3b3b3b3b4c3b303b6f4c3b50552052455454454c204e4149564148533b3337343031,
0x3b3b3b3b3b4e3b3b3b3b3b4c3b303b6f4c3b4b414f2052455454454c204e4149564148533b3437343031,
0x3b3b3b3b3b4e3b3b3b3b3b4c3b303b6f4c3b455a4f4f2052455454454c204e4149564148533b3537343031,
0x3b3b3b3b3b4e3b3b3b3b3b4c3b303b6f4c3b4c494f2052455454454c204e4149564148533b3637343031,
0x3b3b3b3b3b4e3b3b3b3b3b4c3b303b6f4c3b4557412052455454454c204e4149564148533b3737343031,
0x3b3b3b3b3b4e3b3b3b3b3b4c3b303b6f4c3b4552412052455454454c204e4149564148533b3837343031,
0x3b3b3b3b3b4e3b3b3b3b3b4c3b303b6f4c3b524f2052455454454c204e4149564148533b3937343031,
0x3b3b3b3b3b4e3b3b3b3b3b4c3b303b6f4c3b5249412052455454454c204e4149564148533b4137343031,
0x3b3b3b3b3b4e3b3b3b3b3b4c3b303b6f4c3b5252452052455454454c204e4149564148533b4237343031,
0x3b3b3b3b3b4e3b3b3b3b3b4c3b303b6f4c3b59415252412052455454454c204e4149564148533b4337343031,
0x3b3b3b3b3b4e3b3b3b3b3b4c3b303b6f4c3b5241452052455454454c204e4149564148533b4437343031,
0x3b3b3b3b3b4e3b3b3b3b3b4c3b303b6f4c3b4e41492052455454454c204e4149564148533b4537343031,
0x3b3b3b3b3b4e3b3b3b3b3b4c3b303b6f4c3b5745592052455454454c204e4149564148533b4637343031,
0x3b3b3b3b3b4e3b3b3b3b3b4c3b303b6f4c3b46454c412052455454454c2041594e414d534f3b3038343031,
0x3b3b3b3b3b4e3b3b3b3b3b4c3b303b6f4c3b41422052455454454c2041594e414d534f3b3138343031,
0x3b3b3b3b3b4e3b3b3b3b3b4c3b303b6f4c3b41542052455454454c2041594e414d534f3b3238343031,
0x3b3b3b3b3b4e3b3b3b3b3b4c3b303b6f4c3b414a2052455454454c2041594e414d534f3b3338343031,
0x3b3b3b3b3b4e3b3b3b3b3b4c3b303b6f4c3b41582052455454454c2041594e414d534f3b3438343031,
0x3b3b3b3b3b4e3b3b3b3b3b4c3b303b6f4c3b41484b2052455454454c2041594e414d534f3b3538343031,
0x3b3b3b3b3b4e3b3b3b3b3b4c3b303b6f4c3b4c4545442052455454454c2041594e414d534f3b3638343031,
0x3b3b3b3b3b4e3b3b3b3b3b4c3b303b6f4c3b41522052455454454c2041594e414d534f3b3738343031,
0x3b3b3b3b3b4e3b3b3b3b3b4c3b303b6f4c3b41532052455454454c2041594e414d534f3b3838343031,
0x3b3b3b3b3b4e3b3b3b3b3b4c3b303b6f4c3b4e494948532052455454454c2041594e414d534f3b3938343031,
0x3b3b3b3b3b4e3b3b3b3b3b4c3b303b6f4c3b4148442052455454454c2041594e414d534f3b4138343031,
0x3b3b3b3b3b4e3b3b3b3b3b4c3b303b6f4c3b4e5941432052455454454c2041594e414d534f3b4238343031,
0x3b3b3b3b3b4e3b3b3b3b3b4c3b303b6f4c3b41472052455454454c2041594e414d534f3b4338343031,
0x3b3b3b3b3b4e3b3b3b3b3b4c3b303b6f4c3b41462052455454454c2041594e414d534f3b4438343031,
0x3b3b3b3b3b4e3b3b3b3b3b4c3b303b6f4c3b464141512052455454454c2041594e414d534f3b4538343031,
0x3b3b3b3b3b4e3b3b3b3b3b4c3b303b6f4c3b4641414b2052455454454c2041594e414d534f3b4638343031,
0x3b3b3b3b3b4e3b3b3b3b3b4c3b303b6f4c3b4e41414c2052455454454c2041594e414d534f3b3039343031,
0x3b3b3b3b3b4e3b3b3b3b3b4c3b303b6f4c3b4e49494d2052455454454c2041594e414d534f3b3139343031,
0x3b3b3b3b3b4e3b3b3b3b3b4c3b303b6f4c3b4e55554e2052455454454c2041594e414d534f3b3239343031,
0x3b3b3b3b3b4e3b3b3b3b3b4c3b303b6f4c3b5741572052455454454c2041594e414d534f3b3339343031,
0x3b3b3b3b3b4e3b3b3b3b3b4c3b303b6f4c3b41482052455454454c2041594e414d534f3b3439343031,
0x3b3b3b3b3b4e3b3b3b3b3b4c3b303b6f4c3b41592052455454454c2041594e414d534f3b3539343031,
0x3b3b3b3b3b4e3b3b3b3b3b4c3b303b6f4c3b412052455454454c2041594e414d534f3b3639343031,
0x3b3b3b3b3b4e3b3b3b3b3b4c3b303b6f4c3b452052455454454c2041594e414d534f3b3739343031,
0x3b3b3b3b3b4e3b3b3b3b3b4c3b303b6f4c3b492052455454454c2041594e414d534f3b3839343031,
0x3b3b3b3b3b4e3b3b3b3b3b4c3b303b6f4c3b4f2052455454454c2041594e414d534f3b3939343031,
0x3b3b3b3b3b4e3b3b3b3b3b4c3b303b6f4c3b552052455454454c2041594e414d534f3b4139343031,
0x3b3b3b3b3b4e3b3b3b3b3b4c3b303b6f4c3b41412052455454454c2041594e414d534f3b4239343031,
0x3b3b3b3b3b4e3b3b3b3b3b4c3b303b6f4c3b45452052455454454c2041594e414d534f3b4339343031,
0x3b3b3b3b3b4e3b3b3b3b3b4c3b303b6f4c3b4f4f2052455454454c2041594e414d534f3b4439343031,
0x3b3b3b3b3b4e3b303b303b303b3b4c3b303b644e3b4f52455a2054494749442041594e414d534f3b3041343031,
0x3b3b3b3b3b4e3b313b313b313b3b4c3b303b644e3b454e4f2054494749442041594e414d534f3b3141343031,
0x3b3b3b3b3b4e3b323b323b323b3b4c3b303b644e3b4f57542054494749442041594e414d534f3b3241343031,
0x3b3b3b3b3b4e3b333b333b333b3b4c3b303b644e3b45455248542054494749442041594e414d534f3b3341343031]

/-- src/u5e/props/UnicodeData.txt lines 17409-17664. -/
def rawUcd68 : List Nat := [
0x3b3b3b3b3b4e3b343b343b343b3b4c3b303b644e3b52554f462054494749442041594e414d534f3b3441343031,
0x3b3b3b3b3b4e3b353b353b353b3b4c3b303b644e3b455649462054494749442041594e414d534f3b3541343031,
0x3b3b3b3b3b4e3b363b363b363b3b4c3b303b644e3b5849532054494749442041594e414d534f3b3641343031,
0x3b3b3b3b3b4e3b373b373b373b3b4c3b303b644e3b4e455645532054494749442041594e414d534f3b3741343031,
0x3b3b3b3b3b4e3b383b383b383b3b4c3b303b644e3b54484749452054494749442041594e414d534f3b3841343031,
0x3b3b3b3b3b4e3b393b393b393b3b4c3b303b644e3b454e494e2054494749442041594e414d534f3b3941343031,
0x3b38443430313b3b3b3b4e3b3b3b3b3b4c3b303b754c3b412052455454454c204c41544950414320454741534f3b3042343031,
0x3b39443430313b3b3b3b4e3b3b3b3b3b4c3b303b754c3b49412052455454454c204c41544950414320454741534f3b3142343031,
0x3b41443430313b3b3b3b4e3b3b3b3b3b4c3b303b754c3b4e49412052455454454c204c41544950414320454741534f3b3242343031,
0x3b42443430313b3b3b3b4e3b3b3b3b3b4c3b303b754c3b48412052455454454c204c41544950414320454741534f3b3342343031,
0x3b43443430313b3b3b3b4e3b3b3b3b3b4c3b303b754c3b4152422052455454454c204c41544950414320454741534f3b3442343031,
0x3b44443430313b3b3b3b4e3b3b3b3b3b4c3b303b754c3b4148432052455454454c204c41544950414320454741534f3b3542343031,
0x3b45443430313b3b3b3b4e3b3b3b3b3b4c3b303b754c3b41484348452052455454454c204c41544950414320454741534f3b3642343031,
0x3b46443430313b3b3b3b4e3b3b3b3b3b4c3b303b754c3b452052455454454c204c41544950414320454741534f3b3742343031,
0x3b30453430313b3b3b3b4e3b3b3b3b3b4c3b303b754c3b4e49452052455454454c204c41544950414320454741534f3b3842343031,
0x3b31453430313b3b3b3b4e3b3b3b3b3b4c3b303b754c3b41482052455454454c204c41544950414320454741534f3b3942343031,
0x3b32453430313b3b3b3b4e3b3b3b3b3b4c3b303b754c3b4159482052455454454c204c41544950414320454741534f3b4142343031,
0x3b33453430313b3b3b3b4e3b3b3b3b3b4c3b303b754c3b492052455454454c204c41544950414320454741534f3b4242343031,
0x3b34453430313b3b3b3b4e3b3b3b3b3b4c3b303b754c3b414b2052455454454c204c41544950414320454741534f3b4342343031,
0x3b35453430313b3b3b3b4e3b3b3b3b3b4c3b303b754c3b414b48452052455454454c204c41544950414320454741534f3b4442343031,
0x3b36453430313b3b3b3b4e3b3b3b3b3b4c3b303b754c3b41594b2052455454454c204c41544950414320454741534f3b4542343031,
0x3b37453430313b3b3b3b4e3b3b3b3b3b4c3b303b754c3b414c2052455454454c204c41544950414320454741534f3b4642343031,
0x3b38453430313b3b3b3b4e3b3b3b3b3b4c3b303b754c3b414d2052455454454c204c41544950414320454741534f3b3043343031,
0x3b39453430313b3b3b3b4e3b3b3b3b3b4c3b303b754c3b414e2052455454454c204c41544950414320454741534f3b3143343031,
0x3b41453430313b3b3b3b4e3b3b3b3b3b4c3b303b754c3b4f2052455454454c204c41544950414320454741534f3b3243343031,
0x3b42453430313b3b3b3b4e3b3b3b3b3b4c3b303b754c3b4e494f2052455454454c204c41544950414320454741534f3b3343343031,
0x3b43453430313b3b3b3b4e3b3b3b3b3b4c3b303b754c3b41502052455454454c204c41544950414320454741534f3b3443343031,
0x3b44453430313b3b3b3b4e3b3b3b3b3b4c3b303b754c3b415048452052455454454c204c41544950414320454741534f3b3543343031,
0x3b45453430313b3b3b3b4e3b3b3b3b3b4c3b303b754c3b41532052455454454c204c41544950414320454741534f3b3643343031,
0x3b46453430313b3b3b3b4e3b3b3b3b3b4c3b303b754c3b4148532052455454454c204c41544950414320454741534f3b3743343031,
0x3b30463430313b3b3b3b4e3b3b3b3b3b4c3b303b754c3b41542052455454454c204c41544950414320454741534f3b3843343031,
0x3b31463430313b3b3b3b4e3b3b3b3b3b4c3b303b754c3b415448452052455454454c204c41544950414320454741534f3b3943343031,
0x3b32463430313b3b3b3b4e3b3b3b3b3b4c3b303b754c3b4153542052455454454c204c41544950414320454741534f3b4143343031,
0x3b33463430313b3b3b3b4e3b3b3b3b3b4c3b303b754c3b41535448452052455454454c204c41544950414320454741534f3b4243343031,
0x3b34463430313b3b3b3b4e3b3b3b3b3b4c3b303b754c3b414853542052455454454c204c41544950414320454741534f3b4343343031,
0x3b35463430313b3b3b3b4e3b3b3b3b3b4c3b303b754c3b4148442052455454454c204c41544950414320454741534f3b4443343031,
0x3b36463430313b3b3b3b4e3b3b3b3b3b4c3b303b754c3b552052455454454c204c41544950414320454741534f3b4543343031,
0x3b37463430313b3b3b3b4e3b3b3b3b3b4c3b303b754c3b41572052455454454c204c41544950414320454741534f3b4643343031,
0x3b38463430313b3b3b3b4e3b3b3b3b3b4c3b303b754c3b41484b2052455454454c204c41544950414320454741534f3b3044343031,
0x3b39463430313b3b3b3b4e3b3b3b3b3b4c3b303b754c3b4148472052455454454c204c41544950414320454741534f3b3144343031,
0x3b41463430313b3b3b3b4e3b3b3b3b3b4c3b303b754c3b415a2052455454454c204c41544950414320454741534f3b3244343031,
0x3b42463430313b3b3b3b4e3b3b3b3b3b4c3b303b754c3b41485a2052455454454c204c41544950414320454741534f3b3344343031,
0x30423430313b3b30423430313b3b3b4e3b3b3b3b3b4c3b303b6c4c3b412052455454454c204c4c414d5320454741534f3b3844343031,
0x31423430313b3b31423430313b3b3b4e3b3b3b3b3b4c3b303b6c4c3b49412052455454454c204c4c414d5320454741534f3b3944343031,
0x32423430313b3b32423430313b3b3b4e3b3b3b3b3b4c3b303b6c4c3b4e49412052455454454c204c4c414d5320454741534f3b4144343031,
0x33423430313b3b33423430313b3b3b4e3b3b3b3b3b4c3b303b6c4c3b48412052455454454c204c4c414d5320454741534f3b4244343031,
0x34423430313b3b34423430313b3b3b4e3b3b3b3b3b4c3b303b6c4c3b4152422052455454454c204c4c414d5320454741534f3b4344343031,
0x35423430313b3b35423430313b3b3b4e3b3b3b3b3b4c3b303b6c4c3b4148432052455454454c204c4c414d5320454741534f3b4444343031,
0x36423430313b3b36423430313b3b3b4e3b3b3b3b3b4c3b303b6c4c3b41484348452052455454454c204c4c414d5320454741534f3b4544343031,
0x37423430313b3b37423430313b3b3b4e3b3b3b3b3b4c3b303b6c4c3b452052455454454c204c4c414d5320454741534f3b4644343031,
0x38423430313b3b38423430313b3b3b4e3b3b3b3b3b4c3b303b6c4c3b4e49452052455454454c204c4c414d5320454741534f3b3045343031,
0x39423430313b3b39423430313b3b3b4e3b3b3b3b3b4c3b303b6c4c3b41482052455454454c204c4c414d5320454741534f3b3145343031,
0x41423430313b3b41423430313b3b3b4e3b3b3b3b3b4c3b303b6c4c3b4159482052455454454c204c4c414d5320454741534f3b3245343031,
0x42423430313b3b42423430313b3b3b4e3b3b3b3b3b4c3b303b6c4c3b492052455454454c204c4c414d5320454741534f3b3345343031,
0x43423430313b3b43423430313b3b3b4e3b3b3b3b3b4c3b303b6c4c3b414b2052455454454c204c4c414d5320454741534f3b3445343031,
0x44423430313b3b44423430313b3b3b4e3b3b3b3b3b4c3b303b6c4c3b414b48452052455454454c204c4c414d5320454741534f3b3545343031,
0x45423430313b3b45423430313b3b3b4e3b3b3b3b3b4c3b303b6c4c3b41594b2052455454454c204c4c414d5320454741534f3b3645343031,
0x46423430313b3b46423430313b3b3b4e3b3b3b3b3b4c3b303b6c4c3b414c2052455454454c204c4c414d5320454741534f3b3745343031,
0x30433430313b3b30433430313b3b3b4e3b3b3b3b3b4c3b303b6c4c3b414d2052455454454c204c4c414d5320454741534f3b3845343031,
0x31433430313b3b31433430313b3b3b4e3b3b3b3b3b4c3b303b6c4c3b414e2052455454454c204c4c414d5320454741534f3b3945343031,
0x32433430313b3b32433430313b3b3b4e3b3b3b3b3b4c3b303b6c4c3b4f2052455454454c204c4c414d5320454741534f3b4145343031,
0x33433430313b3b33433430313b3b3b4e3b3b3b3b3b4c3b303b6c4c3b4e494f2052455454454c204c4c414d5320454741534f3b4245343031,
0x34433430313b3b34433430313b3b3b4e3b3b3b3b3b4c3b303b6c4c3b41502052455454454c204c4c414d5320454741534f3b4345343031,
0x35433430313b3b35433430313b3b3b4e3b3b3b3b3b4c3b303b6c4c3b415048452052455454454c204c4c414d5320454741534f3b4445343031,
0x36433430313b3b36433430313b3b3b4e3b3b3b3b3b4c3b303b6c4c3b41532052455454454c204c4c414d5320454741534f3b4545343031,
0x37433430313b3b37433430313b3b3b4e3b3b3b3b3b4c3b303b6c4c3b4148532052455454454c204c4c414d5320454741534f3b4645343031,
0x38433430313b3b38433430313b3b3b4e3b3b3b3b3b4c3b303b6c4c3b41542052455454454c204c4c414d5320454741534f3b3046343031,
0x39433430313b3b39433430313b3b3b4e3b3b3b3b3b4c3b303b6c4c3b415448452052455454454c204c4c414d5320454741534f3b3146343031,
0x41433430313b3b41433430313b3b3b4e3b3b3b3b3b4c3b303b6c4c3b4153542052455454454c204c4c414d5320454741534f3b3246343031,
0x42433430313b3b42433430313b3b3b4e3b3b3b3b3b4c3b303b6c4c3b41535448452052455454454c204c4c414d5320454741534f3b3346343031,
0x43433430313b3b43433430313b3b3b4e3b3b3b3b3b4c3b303b6c4c3b414853542052455454454c204c4c414d5320454741534f3b3446343031,
0x44433430313b3b44433430313b3b3b4e3b3b3b3b3b4c3b303b6c4c3b4148442052455454454c204c4c414d5320454741534f3b3546343031,
0x45433430313b3b45433430313b3b3b4e3b3b3b3b3b4c3b303b6c4c3b552052455454454c204c4c414d5320454741534f3b3646343031,
0x46433430313b3b46433430313b3b3b4e3b3b3b3b3b4c3b303b6c4c3b41572052455454454c204c4c414d5320454741534f3b3746343031,
0x30443430313b3b30443430313b3b3b4e3b3b3b3b3b4c3b303b6c4c3b41484b2052455454454c204c4c414d5320454741534f3b3846343031,
0x31443430313b3b31443430313b3b3b4e3b3b3b3b3b4c3b303b6c4c3b4148472052455454454c204c4c414d5320454741534f3b3946343031,
0x32443430313b3b32443430313b3b3b4e3b3b3b3b3b4c3b303b6c4c3b415a2052455454454c204c4c414d5320454741534f3b4146343031,
0x33443430313b3b33443430313b3b3b4e3b3b3b3b3b4c3b303b6c4c3b41485a2052455454454c204c4c414d5320454741534f3b4246343031,
0x3b3b3b3b3b4e3b3b3b3b3b4c3b303b6f4c3b412052455454454c204e415341424c453b3030353031,
0x3b3b3b3b3b4e3b3b3b3b3b4c3b303b6f4c3b45422052455454454c204e415341424c453b3130353031,
0x3b3b3b3b3b4e3b3b3b3b3b4c3b303b6f4c3b45432052455454454c204e415341424c453b3230353031,
0x3b3b3b3b3b4e3b3b3b3b3b4c3b303b6f4c3b4548432052455454454c204e415341424c453b3330353031,
0x3b3b3b3b3b4e3b3b3b3b3b4c3b303b6f4c3b45442052455454454c204e415341424c453b3430353031,
0x3b3b3b3b3b4e3b3b3b3b3b4c3b303b6f4c3b45444e2052455454454c204e415341424c453b3530353031,
0x3b3b3b3b3b4e3b3b3b3b3b4c3b303b6f4c3b4548442052455454454c204e415341424c453b3630353031,
0x3b3b3b3b3b4e3b3b3b3b3b4c3b303b6f4c3b49452052455454454c204e415341424c453b3730353031,
0x3b3b3b3b3b4e3b3b3b3b3b4c3b303b6f4c3b452052455454454c204e415341424c453b3830353031,
0x3b3b3b3b3b4e3b3b3b3b3b4c3b303b6f4c3b45462052455454454c204e415341424c453b3930353031,
0x3b3b3b3b3b4e3b3b3b3b3b4c3b303b6f4c3b45472052455454454c204e415341424c453b4130353031,
0x3b3b3b3b3b4e3b3b3b3b3b4c3b303b6f4c3b454a472052455454454c204e415341424c453b4230353031,
0x3b3b3b3b3b4e3b3b3b3b3b4c3b303b6f4c3b45482052455454454c204e415341424c453b4330353031,
0x3b3b3b3b3b4e3b3b3b3b3b4c3b303b6f4c3b492052455454454c204e415341424c453b4430353031,
0x3b3b3b3b3b4e3b3b3b3b3b4c3b303b6f4c3b454a2052455454454c204e415341424c453b4530353031,
0x3b3b3b3b3b4e3b3b3b3b3b4c3b303b6f4c3b454b2052455454454c204e415341424c453b4630353031,
0x3b3b3b3b3b4e3b3b3b3b3b4c3b303b6f4c3b454c2052455454454c204e415341424c453b3031353031,
0x3b3b3b3b3b4e3b3b3b3b3b4c3b303b6f4c3b454c4c2052455454454c204e415341424c453b3131353031,
0x3b3b3b3b3b4e3b3b3b3b3b4c3b303b6f4c3b454d2052455454454c204e415341424c453b3231353031,
0x3b3b3b3b3b4e3b3b3b3b3b4c3b303b6f4c3b454e2052455454454c204e415341424c453b3331353031,
0x3b3b3b3b3b4e3b3b3b3b3b4c3b303b6f4c3b414e2052455454454c204e415341424c453b3431353031,
0x3b3b3b3b3b4e3b3b3b3b3b4c3b303b6f4c3b454a4e2052455454454c204e415341424c453b3531353031,
0x3b3b3b3b3b4e3b3b3b3b3b4c3b303b6f4c3b4f2052455454454c204e415341424c453b3631353031,
0x3b3b3b3b3b4e3b3b3b3b3b4c3b303b6f4c3b45502052455454454c204e415341424c453b3731353031,
0x3b3b3b3b3b4e3b3b3b3b3b4c3b303b6f4c3b45512052455454454c204e415341424c453b3831353031,
0x3b3b3b3b3b4e3b3b3b3b3b4c3b303b6f4c3b45522052455454454c204e415341424c453b3931353031,
0x3b3b3b3b3b4e3b3b3b3b3b4c3b303b6f4c3b4552522052455454454c204e415341424c453b4131353031,
0x3b3b3b3b3b4e3b3b3b3b3b4c3b303b6f4c3b45532052455454454c204e415341424c453b4231353031,
0x3b3b3b3b3b4e3b3b3b3b3b4c3b303b6f4c3b4548532052455454454c204e415341424c453b4331353031,
0x3b3b3b3b3b4e3b3b3b3b3b4c3b303b6f4c3b45542052455454454c204e415341424c453b4431353031,
0x3b3b3b3b3b4e3b3b3b3b3b4c3b303b6f4c3b4548542052455454454c204e415341424c453b4531353031,
0x3b3b3b3b3b4e3b3b3b3b3b4c3b303b6f4c3b552052455454454c204e415341424c453b4631353031,
0x3b3b3b3b3b4e3b3b3b3b3b4c3b303b6f4c3b45562052455454454c204e415341424c453b3032353031,
0x3b3b3b3b3b4e3b3b3b3b3b4c3b303b6f4c3b45582052455454454c204e415341424c453b3132353031,
0x3b3b3b3b3b4e3b3b3b3b3b4c3b303b6f4c3b592052455454454c204e415341424c453b3232353031,
0x3b3b3b3b3b4e3b3b3b3b3b4c3b303b6f4c3b455a2052455454454c204e415341424c453b3332353031,
0x3b3b3b3b3b4e3b3b3b3b3b4c3b303b6f4c3b45485a2052455454454c204e415341424c453b3432353031,
0x3b3b3b3b3b4e3b3b3b3b3b4c3b303b6f4c3b4548472052455454454c204e415341424c453b3532353031,
0x3b3b3b3b3b4e3b3b3b3b3b4c3b303b6f4c3b414d4d4148472052455454454c204e415341424c453b3632353031,
0x3b3b3b3b3b4e3b3b3b3b3b4c3b303b6f4c3b45484b2052455454454c204e415341424c453b3732353031,
0x3b3b3b3b3b4e3b3b3b3b3b4c3b303b6f4c3b544c412052455454454c204e41494e41424c41204e41495341435541433b3033353031,
0x3b3b3b3b3b4e3b3b3b3b3b4c3b303b6f4c3b5445422052455454454c204e41494e41424c41204e41495341435541433b3133353031,
0x3b3b3b3b3b4e3b3b3b3b3b4c3b303b6f4c3b4d49472052455454454c204e41494e41424c41204e41495341435541433b3233353031,
0x3b3b3b3b3b4e3b3b3b3b3b4c3b303b6f4c3b5441442052455454454c204e41494e41424c41204e41495341435541433b3333353031,
0x3b3b3b3b3b4e3b3b3b3b3b4c3b303b6f4c3b42452052455454454c204e41494e41424c41204e41495341435541433b3433353031,
0x3b3b3b3b3b4e3b3b3b3b3b4c3b303b6f4c3b4c52415a2052455454454c204e41494e41424c41204e41495341435541433b3533353031,
0x3b3b3b3b3b4e3b3b3b3b3b4c3b303b6f4c3b4e59452052455454454c204e41494e41424c41204e41495341435541433b3633353031,
0x3b3b3b3b3b4e3b3b3b3b3b4c3b303b6f4c3b4c49485a2052455454454c204e41494e41424c41204e41495341435541433b3733353031,
0x3b3b3b3b3b4e3b3b3b3b3b4c3b303b6f4c3b5341542052455454454c204e41494e41424c41204e41495341435541433b3833353031,
0x3b3b3b3b3b4e3b3b3b3b3b4c3b303b6f4c3b4148432052455454454c204e41494e41424c41204e41495341435541433b3933353031,
0x3b3b3b3b3b4e3b3b3b3b3b4c3b303b6f4c3b44574f592052455454454c204e41494e41424c41204e41495341435541433b4133353031,
0x3b3b3b3b3b4e3b3b3b3b3b4c3b303b6f4c3b41485a2052455454454c204e41494e41424c41204e41495341435541433b4233353031,
0x3b3b3b3b3b4e3b3b3b3b3b4c3b303b6f4c3b4252492052455454454c204e41494e41424c41204e41495341435541433b4333353031,
0x3b3b3b3b3b4e3b3b3b3b3b4c3b303b6f4c3b4148532052455454454c204e41494e41424c41204e41495341435541433b4433353031,
0x3b3b3b3b3b4e3b3b3b3b3b4c3b303b6f4c3b4e414c2052455454454c204e41494e41424c41204e41495341435541433b4533353031,
0x3b3b3b3b3b4e3b3b3b3b3b4c3b303b6f4c3b41594e492052455454454c204e41494e41424c41204e41495341435541433b4633353031,
0x3b3b3b3b3b4e3b3b3b3b3b4c3b303b6f4c3b4e5945582052455454454c204e41494e41424c41204e41495341435541433b3034353031,
0x3b3b3b3b3b4e3b3b3b3b3b4c3b303b6f4c3b4e4159442052455454454c204e41494e41424c41204e41495341435541433b3134353031,
0x3b3b3b3b3b4e3b3b3b3b3b4c3b303b6f4c3b5241432052455454454c204e41494e41424c41204e41495341435541433b3234353031,
0x3b3b3b3b3b4e3b3b3b3b3b4c3b303b6f4c3b584f484a2052455454454c204e41494e41424c41204e41495341435541433b3334353031,
0x3b3b3b3b3b4e3b3b3b3b3b4c3b303b6f4c3b52414b2052455454454c204e41494e41424c41204e41495341435541433b3434353031,
0x3b3b3b3b3b4e3b3b3b3b3b4c3b303b6f4c3b5449594c2052455454454c204e41494e41424c41204e41495341435541433b3534353031,
0x3b3b3b3b3b4e3b3b3b3b3b4c3b303b6f4c3b545945482052455454454c204e41494e41424c41204e41495341435541433b3634353031,
0x3b3b3b3b3b4e3b3b3b3b3b4c3b303b6f4c3b5941512052455454454c204e41494e41424c41204e41495341435541433b3734353031,
0x3b3b3b3b3b4e3b3b3b3b3b4c3b303b6f4c3b524f412052455454454c204e41494e41424c41204e41495341435541433b3834353031,
0x3b3b3b3b3b4e3b3b3b3b3b4c3b303b6f4c3b594f48432052455454454c204e41494e41424c41204e41495341435541433b3934353031,
0x3b3b3b3b3b4e3b3b3b3b3b4c3b303b6f4c3b4948432052455454454c204e41494e41424c41204e41495341435541433b4134353031,
0x3b3b3b3b3b4e3b3b3b3b3b4c3b303b6f4c3b594159432052455454454c204e41494e41424c41204e41495341435541433b4234353031,
0x3b3b3b3b3b4e3b3b3b3b3b4c3b303b6f4c3b51414d2052455454454c204e41494e41424c41204e41495341435541433b4334353031,
0x3b3b3b3b3b4e3b3b3b3b3b4c3b303b6f4c3b5241512052455454454c204e41494e41424c41204e41495341435541433b4434353031,
0x3b3b3b3b3b4e3b3b3b3b3b4c3b303b6f4c3b43574f4e2052455454454c204e41494e41424c41204e41495341435541433b4534353031,
0x3b3b3b3b3b4e3b3b3b3b3b4c3b303b6f4c3b5941595a442052455454454c204e41494e41424c41204e41495341435541433b4634353031,
0x3b3b3b3b3b4e3b3b3b3b3b4c3b303b6f4c3b4b4148532052455454454c204e41494e41424c41204e41495341435541433b3035353031,
0x3b3b3b3b3b4e3b3b3b3b3b4c3b303b6f4c3b4e59414a2052455454454c204e41494e41424c41204e41495341435541433b3135353031,
0x3b3b3b3b3b4e3b3b3b3b3b4c3b303b6f4c3b4e4f2052455454454c204e41494e41424c41204e41495341435541433b3235353031,
0x3b3b3b3b3b4e3b3b3b3b3b4c3b303b6f4c3b594159542052455454454c204e41494e41424c41204e41495341435541433b3335353031,
0x3b3b3b3b3b4e3b3b3b3b3b4c3b303b6f4c3b4d41462052455454454c204e41494e41424c41204e41495341435541433b3435353031,
0x3b3b3b3b3b4e3b3b3b3b3b4c3b303b6f4c3b59415a442052455454454c204e41494e41424c41204e41495341435541433b3535353031,
0x3b3b3b3b3b4e3b3b3b3b3b4c3b303b6f4c3b544148432052455454454c204e41494e41424c41204e41495341435541433b3635353031,
0x3b3b3b3b3b4e3b3b3b3b3b4c3b303b6f4c3b4e45502052455454454c204e41494e41424c41204e41495341435541433b3735353031,
0x3b3b3b3b3b4e3b3b3b3b3b4c3b303b6f4c3b53594548472052455454454c204e41494e41424c41204e41495341435541433b3835353031,
0x3b3b3b3b3b4e3b3b3b3b3b4c3b303b6f4c3b5441522052455454454c204e41494e41424c41204e41495341435541433b3935353031,
0x3b3b3b3b3b4e3b3b3b3b3b4c3b303b6f4c3b4b5945532052455454454c204e41494e41424c41204e41495341435541433b4135353031,
0x3b3b3b3b3b4e3b3b3b3b3b4c3b303b6f4c3b5a5945562052455454454c204e41494e41424c41204e41495341435541433b4235353031,
0x3b3b3b3b3b4e3b3b3b3b3b4c3b303b6f4c3b525749542052455454454c204e41494e41424c41204e41495341435541433b4335353031,
0x3b3b3b3b3b4e3b3b3b3b3b4c3b303b6f4c3b594f48532052455454454c204e41494e41424c41204e41495341435541433b4435353031,
0x3b3b3b3b3b4e3b3b3b3b3b4c3b303b6f4c3b4e57492052455454454c204e41494e41424c41204e41495341435541433b4535353031,
0x3b3b3b3b3b4e3b3b3b3b3b4c3b303b6f4c3b574159432052455454454c204e41494e41424c41204e41495341435541433b4635353031,
0x3b3b3b3b3b4e3b3b3b3b3b4c3b303b6f4c3b4e5941432052455454454c204e41494e41424c41204e41495341435541433b3036353031,
0x3b3b3b3b3b4e3b3b3b3b3b4c3b303b6f4c3b445941592052455454454c204e41494e41424c41204e41495341435541433b3136353031,
0x3b3b3b3b3b4e3b3b3b3b3b4c3b303b6f4c3b525749502052455454454c204e41494e41424c41204e41495341435541433b3236353031,
0x3b3b3b3b3b4e3b3b3b3b3b4c3b303b6f4c3b57494b2052455454454c204e41494e41424c41204e41495341435541433b3336353031,
0x3b3b3b3b3b4e3b3b3b3b3b4c3b303b6f503b4b52414d204e4f495441544943204e41494e41424c41204e41495341435541433b4636353031,
0x3b3b3b3b3b4e3b3b3b3b3b4c3b303b6f4c3b3130304241204e4749532041205241454e494c3b3030363031,
0x3b3b3b3b3b4e3b3b3b3b3b4c3b303b6f4c3b3230304241204e4749532041205241454e494c3b3130363031,
0x3b3b3b3b3b4e3b3b3b3b3b4c3b303b6f4c3b3330304241204e4749532041205241454e494c3b3230363031,
0x3b3b3b3b3b4e3b3b3b3b3b4c3b303b6f4c3b3430304241204e4749532041205241454e494c3b3330363031,
0x3b3b3b3b3b4e3b3b3b3b3b4c3b303b6f4c3b3530304241204e4749532041205241454e494c3b3430363031,
0x3b3b3b3b3b4e3b3b3b3b3b4c3b303b6f4c3b3630304241204e4749532041205241454e494c3b3530363031,
0x3b3b3b3b3b4e3b3b3b3b3b4c3b303b6f4c3b3730304241204e4749532041205241454e494c3b3630363031,
0x3b3b3b3b3b4e3b3b3b3b3b4c3b303b6f4c3b3830304241204e4749532041205241454e494c3b3730363031,
0x3b3b3b3b3b4e3b3b3b3b3b4c3b303b6f4c3b3930304241204e4749532041205241454e494c3b3830363031,
0x3b3b3b3b3b4e3b3b3b3b3b4c3b303b6f4c3b3031304241204e4749532041205241454e494c3b3930363031,
0x3b3b3b3b3b4e3b3b3b3b3b4c3b303b6f4c3b3131304241204e4749532041205241454e494c3b4130363031,
0x3b3b3b3b3b4e3b3b3b3b3b4c3b303b6f4c3b3331304241204e4749532041205241454e494c3b4230363031,
0x3b3b3b3b3b4e3b3b3b3b3b4c3b303b6f4c3b3631304241204e4749532041205241454e494c3b4330363031,
0x3b3b3b3b3b4e3b3b3b3b3b4c3b303b6f4c3b3731304241204e4749532041205241454e494c3b4430363031,
0x3b3b3b3b3b4e3b3b3b3b3b4c3b303b6f4c3b3032304241204e4749532041205241454e494c3b4530363031,
0x3b3b3b3b3b4e3b3b3b3b3b4c3b303b6f4c3b3132304241204e4749532041205241454e494c3b4630363031,
0x3b3b3b3b3b4e3b3b3b3b3b4c3b303b6f4c3b463132304241204e4749532041205241454e494c3b3031363031,
0x3b3b3b3b3b4e3b3b3b3b3b4c3b303b6f4c3b4d3132304241204e4749532041205241454e494c3b3131363031,
0x3b3b3b3b3b4e3b3b3b3b3b4c3b303b6f4c3b3232304241204e4749532041205241454e494c3b3231363031,
0x3b3b3b3b3b4e3b3b3b3b3b4c3b303b6f4c3b463232304241204e4749532041205241454e494c3b3331363031,
0x3b3b3b3b3b4e3b3b3b3b3b4c3b303b6f4c3b4d3232304241204e4749532041205241454e494c3b3431363031,
0x3b3b3b3b3b4e3b3b3b3b3b4c3b303b6f4c3b3332304241204e4749532041205241454e494c3b3531363031,
0x3b3b3b3b3b4e3b3b3b3b3b4c3b303b6f4c3b4d3332304241204e4749532041205241454e494c3b3631363031,
0x3b3b3b3b3b4e3b3b3b3b3b4c3b303b6f4c3b3432304241204e4749532041205241454e494c3b3731363031,
0x3b3b3b3b3b4e3b3b3b3b3b4c3b303b6f4c3b3632304241204e4749532041205241454e494c3b3831363031,
0x3b3b3b3b3b4e3b3b3b3b3b4c3b303b6f4c3b3732304241204e4749532041205241454e494c3b3931363031,
0x3b3b3b3b3b4e3b3b3b3b3b4c3b303b6f4c3b3832304241204e4749532041205241454e494c3b4131363031,
0x3b3b3b3b3b4e3b3b3b3b3b4c3b303b6f4c3b4238323041204e4749532041205241454e494c3b4231363031,
0x3b3b3b3b3b4e3b3b3b3b3b4c3b303b6f4c3b3932304241204e4749532041205241454e494c3b4331363031,
0x3b3b3b3b3b4e3b3b3b3b3b4c3b303b6f4c3b3033304241204e4749532041205241454e494c3b4431363031,
0x3b3b3b3b3b4e3b3b3b3b3b4c3b303b6f4c3b3133304241204e4749532041205241454e494c3b4531363031,
0x3b3b3b3b3b4e3b3b3b3b3b4c3b303b6f4c3b3433304241204e4749532041205241454e494c3b4631363031,
0x3b3b3b3b3b4e3b3b3b3b3b4c3b303b6f4c3b3733304241204e4749532041205241454e494c3b3032363031,
0x3b3b3b3b3b4e3b3b3b3b3b4c3b303b6f4c3b3833304241204e4749532041205241454e494c3b3132363031,
0x3b3b3b3b3b4e3b3b3b3b3b4c3b303b6f4c3b3933304241204e4749532041205241454e494c3b3232363031,
0x3b3b3b3b3b4e3b3b3b3b3b4c3b303b6f4c3b3034304241204e4749532041205241454e494c3b3332363031,
0x3b3b3b3b3b4e3b3b3b3b3b4c3b303b6f4c3b3134304241204e4749532041205241454e494c3b3432363031,
0x3b3b3b3b3b4e3b3b3b3b3b4c3b303b6f4c3b3434304241204e4749532041205241454e494c3b3532363031,
0x3b3b3b3b3b4e3b3b3b3b3b4c3b303b6f4c3b3534304241204e4749532041205241454e494c3b3632363031,
0x3b3b3b3b3b4e3b3b3b3b3b4c3b303b6f4c3b3634304241204e4749532041205241454e494c3b3732363031,
0x3b3b3b3b3b4e3b3b3b3b3b4c3b303b6f4c3b3734304241204e4749532041205241454e494c3b3832363031,
0x3b3b3b3b3b4e3b3b3b3b3b4c3b303b6f4c3b3834304241204e4749532041205241454e494c3b3932363031,
0x3b3b3b3b3b4e3b3b3b3b3b4c3b303b6f4c3b3934304241204e4749532041205241454e494c3b4132363031,
0x3b3b3b3b3b4e3b3b3b3b3b4c3b303b6f4c3b3035304241204e4749532041205241454e494c3b4232363031,
0x3b3b3b3b3b4e3b3b3b3b3b4c3b303b6f4c3b3135304241204e4749532041205241454e494c3b4332363031,
0x3b3b3b3b3b4e3b3b3b3b3b4c3b303b6f4c3b3335304241204e4749532041205241454e494c3b4432363031,
0x3b3b3b3b3b4e3b3b3b3b3b4c3b303b6f4c3b3435304241204e4749532041205241454e494c3b4532363031,
0x3b3b3b3b3b4e3b3b3b3b3b4c3b303b6f4c3b3535304241204e4749532041205241454e494c3b4632363031,
0x3b3b3b3b3b4e3b3b3b3b3b4c3b303b6f4c3b3635304241204e4749532041205241454e494c3b3033363031,
0x3b3b3b3b3b4e3b3b3b3b3b4c3b303b6f4c3b3735304241204e4749532041205241454e494c3b3133363031,
0x3b3b3b3b3b4e3b3b3b3b3b4c3b303b6f4c3b3835304241204e4749532041205241454e494c3b3233363031,
0x3b3b3b3b3b4e3b3b3b3b3b4c3b303b6f4c3b3935304241204e4749532041205241454e494c3b3333363031,
0x3b3b3b3b3b4e3b3b3b3b3b4c3b303b6f4c3b3036304241204e4749532041205241454e494c3b3433363031,
0x3b3b3b3b3b4e3b3b3b3b3b4c3b303b6f4c3b3136304241204e4749532041205241454e494c3b3533363031,
0x3b3b3b3b3b4e3b3b3b3b3b4c3b303b6f4c3b3536304241204e4749532041205241454e494c3b3633363031,
0x3b3b3b3b3b4e3b3b3b3b3b4c3b303b6f4c3b3636304241204e4749532041205241454e494c3b3733363031,
0x3b3b3b3b3b4e3b3b3b3b3b4c3b303b6f4c3b3736304241204e4749532041205241454e494c3b3833363031,
0x3b3b3b3b3b4e3b3b3b3b3b4c3b303b6f4c3b3936304241204e4749532041205241454e494c3b3933363031,
0x3b3b3b3b3b4e3b3b3b3b3b4c3b303b6f4c3b3037304241204e4749532041205241454e494c3b4133363031,
0x3b3b3b3b3b4e3b3b3b3b3b4c3b303b6f4c3b3337304241204e4749532041205241454e494c3b4233363031,
0x3b3b3b3b3b4e3b3b3b3b3b4c3b303b6f4c3b3437304241204e4749532041205241454e494c3b4333363031,
0x3b3b3b3b3b4e3b3b3b3b3b4c3b303b6f4c3b3637304241204e4749532041205241454e494c3b4433363031,
0x3b3b3b3b3b4e3b3b3b3b3b4c3b303b6f4c3b3737304241204e4749532041205241454e494c3b4533363031,
0x3b3b3b3b3b4e3b3b3b3b3b4c3b303b6f4c3b3837304241204e4749532041205241454e494c3b4633363031,
0x3b3b3b3b3b4e3b3b3b3b3b4c3b303b6f4c3b3937304241204e4749532041205241454e494c3b3034363031,
0x3b3b3b3b3b4e3b3b3b3b3b4c3b303b6f4c3b3038304241204e4749532041205241454e494c3b3134363031,
0x3b3b3b3b3b4e3b3b3b3b3b4c3b303b6f4c3b3138304241204e4749532041205241454e494c3b3234363031,
0x3b3b3b3b3b4e3b3b3b3b3b4c3b303b6f4c3b3238304241204e4749532041205241454e494c3b3334363031,
0x3b3b3b3b3b4e3b3b3b3b3b4c3b303b6f4c3b3538304241204e4749532041205241454e494c3b3434363031,
0x3b3b3b3b3b4e3b3b3b3b3b4c3b303b6f4c3b3638304241204e4749532041205241454e494c3b3534363031,
0x3b3b3b3b3b4e3b3b3b3b3b4c3b303b6f4c3b3738304241204e4749532041205241454e494c3b3634363031,
0x3b3b3b3b3b4e3b3b3b3b3b4c3b303b6f4c3b3230312d30303141204e4749532041205241454e494c3b3734363031,
0x3b3b3b3b3b4e3b3b3b3b3b4c3b303b6f4c3b3831314241204e4749532041205241454e494c3b3834363031,
0x3b3b3b3b3b4e3b3b3b3b3b4c3b303b6f4c3b3032314241204e4749532041205241454e494c3b3934363031,
0x3b3b3b3b3b4e3b3b3b3b3b4c3b303b6f4c3b4230323141204e4749532041205241454e494c3b4134363031,
0x3b3b3b3b3b4e3b3b3b3b3b4c3b303b6f4c3b3232314241204e4749532041205241454e494c3b4234363031,
0x3b3b3b3b3b4e3b3b3b3b3b4c3b303b6f4c3b3332314241204e4749532041205241454e494c3b4334363031,
0x3b3b3b3b3b4e3b3b3b3b3b4c3b303b6f4c3b413133314241204e4749532041205241454e494c3b4434363031,
0x3b3b3b3b3b4e3b3b3b3b3b4c3b303b6f4c3b423133314241204e4749532041205241454e494c3b4534363031,
0x3b3b3b3b3b4e3b3b3b3b3b4c3b303b6f4c3b4331333141204e4749532041205241454e494c3b4634363031,
0x3b3b3b3b3b4e3b3b3b3b3b4c3b303b6f4c3b3436314241204e4749532041205241454e494c3b3035363031,
0x3b3b3b3b3b4e3b3b3b3b3b4c3b303b6f4c3b3137314241204e4749532041205241454e494c3b3135363031,
0x3b3b3b3b3b4e3b3b3b3b3b4c3b303b6f4c3b3038314241204e4749532041205241454e494c3b3235363031,
0x3b3b3b3b3b4e3b3b3b3b3b4c3b303b6f4c3b3838314241204e4749532041205241454e494c3b3335363031,
0x3b3b3b3b3b4e3b3b3b3b3b4c3b303b6f4c3b3139314241204e4749532041205241454e494c3b3435363031]

/-- src/u5e/props/UnicodeData.txt lines 17665-17920. -/
def rawUcd69 : List Nat := [
0x3b3b3b3b3b4e3b3b3b3b3b4c3b303b6f4c3b31303341204e4749532041205241454e494c3b3535363031,
0x3b3b3b3b3b4e3b3b3b3b3b4c3b303b6f4c3b32303341204e4749532041205241454e494c3b3635363031,
0x3b3b3b3b3b4e3b3b3b3b3b4c3b303b6f4c3b33303341204e4749532041205241454e494c3b3735363031,
0x3b3b3b3b3b4e3b3b3b3b3b4c3b303b6f4c3b34303341204e4749532041205241454e494c3b3835363031,
0x3b3b3b3b3b4e3b3b3b3b3b4c3b303b6f4c3b35303341204e4749532041205241454e494c3b3935363031,
0x3b3b3b3b3b4e3b3b3b3b3b4c3b303b6f4c3b36303341204e4749532041205241454e494c3b4135363031,
0x3b3b3b3b3b4e3b3b3b3b3b4c3b303b6f4c3b37303341204e4749532041205241454e494c3b4235363031,
0x3b3b3b3b3b4e3b3b3b3b3b4c3b303b6f4c3b38303341204e4749532041205241454e494c3b4335363031,
0x3b3b3b3b3b4e3b3b3b3b3b4c3b303b6f4c3b4139303341204e4749532041205241454e494c3b4435363031,
0x3b3b3b3b3b4e3b3b3b3b3b4c3b303b6f4c3b4239303341204e4749532041205241454e494c3b4535363031,
0x3b3b3b3b3b4e3b3b3b3b3b4c3b303b6f4c3b4339303341204e4749532041205241454e494c3b4635363031,
0x3b3b3b3b3b4e3b3b3b3b3b4c3b303b6f4c3b30313341204e4749532041205241454e494c3b3036363031,
0x3b3b3b3b3b4e3b3b3b3b3b4c3b303b6f4c3b31313341204e4749532041205241454e494c3b3136363031,
0x3b3b3b3b3b4e3b3b3b3b3b4c3b303b6f4c3b32313341204e4749532041205241454e494c3b3236363031,
0x3b3b3b3b3b4e3b3b3b3b3b4c3b303b6f4c3b4133313341204e4749532041205241454e494c3b3336363031,
0x3b3b3b3b3b4e3b3b3b3b3b4c3b303b6f4c3b4233313341204e4749532041205241454e494c3b3436363031,
0x3b3b3b3b3b4e3b3b3b3b3b4c3b303b6f4c3b4333313341204e4749532041205241454e494c3b3536363031,
0x3b3b3b3b3b4e3b3b3b3b3b4c3b303b6f4c3b34313341204e4749532041205241454e494c3b3636363031,
0x3b3b3b3b3b4e3b3b3b3b3b4c3b303b6f4c3b35313341204e4749532041205241454e494c3b3736363031,
0x3b3b3b3b3b4e3b3b3b3b3b4c3b303b6f4c3b36313341204e4749532041205241454e494c3b3836363031,
0x3b3b3b3b3b4e3b3b3b3b3b4c3b303b6f4c3b37313341204e4749532041205241454e494c3b3936363031,
0x3b3b3b3b3b4e3b3b3b3b3b4c3b303b6f4c3b38313341204e4749532041205241454e494c3b4136363031,
0x3b3b3b3b3b4e3b3b3b3b3b4c3b303b6f4c3b39313341204e4749532041205241454e494c3b4236363031,
0x3b3b3b3b3b4e3b3b3b3b3b4c3b303b6f4c3b30323341204e4749532041205241454e494c3b4336363031,
0x3b3b3b3b3b4e3b3b3b3b3b4c3b303b6f4c3b31323341204e4749532041205241454e494c3b4436363031,
0x3b3b3b3b3b4e3b3b3b3b3b4c3b303b6f4c3b32323341204e4749532041205241454e494c3b4536363031,
0x3b3b3b3b3b4e3b3b3b3b3b4c3b303b6f4c3b33323341204e4749532041205241454e494c3b4636363031,
0x3b3b3b3b3b4e3b3b3b3b3b4c3b303b6f4c3b34323341204e4749532041205241454e494c3b3037363031,
0x3b3b3b3b3b4e3b3b3b3b3b4c3b303b6f4c3b35323341204e4749532041205241454e494c3b3137363031,
0x3b3b3b3b3b4e3b3b3b3b3b4c3b303b6f4c3b36323341204e4749532041205241454e494c3b3237363031,
0x3b3b3b3b3b4e3b3b3b3b3b4c3b303b6f4c3b37323341204e4749532041205241454e494c3b3337363031,
0x3b3b3b3b3b4e3b3b3b3b3b4c3b303b6f4c3b38323341204e4749532041205241454e494c3b3437363031,
0x3b3b3b3b3b4e3b3b3b3b3b4c3b303b6f4c3b39323341204e4749532041205241454e494c3b3537363031,
0x3b3b3b3b3b4e3b3b3b3b3b4c3b303b6f4c3b30333341204e4749532041205241454e494c3b3637363031,
0x3b3b3b3b3b4e3b3b3b3b3b4c3b303b6f4c3b31333341204e4749532041205241454e494c3b3737363031,
0x3b3b3b3b3b4e3b3b3b3b3b4c3b303b6f4c3b32333341204e4749532041205241454e494c3b3837363031,
0x3b3b3b3b3b4e3b3b3b3b3b4c3b303b6f4c3b33333341204e4749532041205241454e494c3b3937363031,
0x3b3b3b3b3b4e3b3b3b3b3b4c3b303b6f4c3b34333341204e4749532041205241454e494c3b4137363031,
0x3b3b3b3b3b4e3b3b3b3b3b4c3b303b6f4c3b35333341204e4749532041205241454e494c3b4237363031,
0x3b3b3b3b3b4e3b3b3b3b3b4c3b303b6f4c3b36333341204e4749532041205241454e494c3b4337363031,
0x3b3b3b3b3b4e3b3b3b3b3b4c3b303b6f4c3b37333341204e4749532041205241454e494c3b4437363031,
0x3b3b3b3b3b4e3b3b3b3b3b4c3b303b6f4c3b38333341204e4749532041205241454e494c3b4537363031,
0x3b3b3b3b3b4e3b3b3b3b3b4c3b303b6f4c3b39333341204e4749532041205241454e494c3b4637363031,
0x3b3b3b3b3b4e3b3b3b3b3b4c3b303b6f4c3b30343341204e4749532041205241454e494c3b3038363031,
0x3b3b3b3b3b4e3b3b3b3b3b4c3b303b6f4c3b31343341204e4749532041205241454e494c3b3138363031,
0x3b3b3b3b3b4e3b3b3b3b3b4c3b303b6f4c3b32343341204e4749532041205241454e494c3b3238363031,
0x3b3b3b3b3b4e3b3b3b3b3b4c3b303b6f4c3b33343341204e4749532041205241454e494c3b3338363031,
0x3b3b3b3b3b4e3b3b3b3b3b4c3b303b6f4c3b34343341204e4749532041205241454e494c3b3438363031,
0x3b3b3b3b3b4e3b3b3b3b3b4c3b303b6f4c3b35343341204e4749532041205241454e494c3b3538363031,
0x3b3b3b3b3b4e3b3b3b3b3b4c3b303b6f4c3b36343341204e4749532041205241454e494c3b3638363031,
0x3b3b3b3b3b4e3b3b3b3b3b4c3b303b6f4c3b37343341204e4749532041205241454e494c3b3738363031,
0x3b3b3b3b3b4e3b3b3b3b3b4c3b303b6f4c3b38343341204e4749532041205241454e494c3b3838363031,
0x3b3b3b3b3b4e3b3b3b3b3b4c3b303b6f4c3b39343341204e4749532041205241454e494c3b3938363031,
0x3b3b3b3b3b4e3b3b3b3b3b4c3b303b6f4c3b30353341204e4749532041205241454e494c3b4138363031,
0x3b3b3b3b3b4e3b3b3b3b3b4c3b303b6f4c3b31353341204e4749532041205241454e494c3b4238363031,
0x3b3b3b3b3b4e3b3b3b3b3b4c3b303b6f4c3b32353341204e4749532041205241454e494c3b4338363031,
0x3b3b3b3b3b4e3b3b3b3b3b4c3b303b6f4c3b33353341204e4749532041205241454e494c3b4438363031,
0x3b3b3b3b3b4e3b3b3b3b3b4c3b303b6f4c3b34353341204e4749532041205241454e494c3b4538363031,
0x3b3b3b3b3b4e3b3b3b3b3b4c3b303b6f4c3b35353341204e4749532041205241454e494c3b4638363031,
0x3b3b3b3b3b4e3b3b3b3b3b4c3b303b6f4c3b36353341204e4749532041205241454e494c3b3039363031,
0x3b3b3b3b3b4e3b3b3b3b3b4c3b303b6f4c3b37353341204e4749532041205241454e494c3b3139363031,
0x3b3b3b3b3b4e3b3b3b3b3b4c3b303b6f4c3b38353341204e4749532041205241454e494c3b3239363031,
0x3b3b3b3b3b4e3b3b3b3b3b4c3b303b6f4c3b39353341204e4749532041205241454e494c3b3339363031,
0x3b3b3b3b3b4e3b3b3b3b3b4c3b303b6f4c3b30363341204e4749532041205241454e494c3b3439363031,
0x3b3b3b3b3b4e3b3b3b3b3b4c3b303b6f4c3b31363341204e4749532041205241454e494c3b3539363031,
0x3b3b3b3b3b4e3b3b3b3b3b4c3b303b6f4c3b32363341204e4749532041205241454e494c3b3639363031,
0x3b3b3b3b3b4e3b3b3b3b3b4c3b303b6f4c3b33363341204e4749532041205241454e494c3b3739363031,
0x3b3b3b3b3b4e3b3b3b3b3b4c3b303b6f4c3b34363341204e4749532041205241454e494c3b3839363031,
0x3b3b3b3b3b4e3b3b3b3b3b4c3b303b6f4c3b35363341204e4749532041205241454e494c3b3939363031,
0x3b3b3b3b3b4e3b3b3b3b3b4c3b303b6f4c3b36363341204e4749532041205241454e494c3b4139363031,
0x3b3b3b3b3b4e3b3b3b3b3b4c3b303b6f4c3b37363341204e4749532041205241454e494c3b4239363031,
0x3b3b3b3b3b4e3b3b3b3b3b4c3b303b6f4c3b38363341204e4749532041205241454e494c3b4339363031,
0x3b3b3b3b3b4e3b3b3b3b3b4c3b303b6f4c3b39363341204e4749532041205241454e494c3b4439363031,
0x3b3b3b3b3b4e3b3b3b3b3b4c3b303b6f4c3b30373341204e4749532041205241454e494c3b4539363031,
0x3b3b3b3b3b4e3b3b3b3b3b4c3b303b6f4c3b31373341204e4749532041205241454e494c3b4639363031,
0x3b3b3b3b3b4e3b3b3b3b3b4c3b303b6f4c3b5341562d30303441204e4749532041205241454e494c3b3041363031,
0x3b3b3b3b3b4e3b3b3b3b3b4c3b303b6f4c3b5341562d31303441204e4749532041205241454e494c3b3141363031,
0x3b3b3b3b3b4e3b3b3b3b3b4c3b303b6f4c3b5341562d32303441204e4749532041205241454e494c3b3241363031,
0x3b3b3b3b3b4e3b3b3b3b3b4c3b303b6f4c3b5341562d33303441204e4749532041205241454e494c3b3341363031,
0x3b3b3b3b3b4e3b3b3b3b3b4c3b303b6f4c3b5341562d34303441204e4749532041205241454e494c3b3441363031,
0x3b3b3b3b3b4e3b3b3b3b3b4c3b303b6f4c3b5341562d35303441204e4749532041205241454e494c3b3541363031,
0x3b3b3b3b3b4e3b3b3b3b3b4c3b303b6f4c3b5341562d36303441204e4749532041205241454e494c3b3641363031,
0x3b3b3b3b3b4e3b3b3b3b3b4c3b303b6f4c3b5341562d37303441204e4749532041205241454e494c3b3741363031,
0x3b3b3b3b3b4e3b3b3b3b3b4c3b303b6f4c3b5341562d38303441204e4749532041205241454e494c3b3841363031,
0x3b3b3b3b3b4e3b3b3b3b3b4c3b303b6f4c3b5341562d39303441204e4749532041205241454e494c3b3941363031,
0x3b3b3b3b3b4e3b3b3b3b3b4c3b303b6f4c3b5341562d30313441204e4749532041205241454e494c3b4141363031,
0x3b3b3b3b3b4e3b3b3b3b3b4c3b303b6f4c3b5341562d31313441204e4749532041205241454e494c3b4241363031,
0x3b3b3b3b3b4e3b3b3b3b3b4c3b303b6f4c3b5341562d32313441204e4749532041205241454e494c3b4341363031,
0x3b3b3b3b3b4e3b3b3b3b3b4c3b303b6f4c3b5341562d33313441204e4749532041205241454e494c3b4441363031,
0x3b3b3b3b3b4e3b3b3b3b3b4c3b303b6f4c3b5341562d34313441204e4749532041205241454e494c3b4541363031,
0x3b3b3b3b3b4e3b3b3b3b3b4c3b303b6f4c3b5341562d35313441204e4749532041205241454e494c3b4641363031,
0x3b3b3b3b3b4e3b3b3b3b3b4c3b303b6f4c3b5341562d36313441204e4749532041205241454e494c3b3042363031,
0x3b3b3b3b3b4e3b3b3b3b3b4c3b303b6f4c3b5341562d37313441204e4749532041205241454e494c3b3142363031,
0x3b3b3b3b3b4e3b3b3b3b3b4c3b303b6f4c3b5341562d38313441204e4749532041205241454e494c3b3242363031,
0x3b3b3b3b3b4e3b3b3b3b3b4c3b303b6f4c3b31303541204e4749532041205241454e494c3b3342363031,
0x3b3b3b3b3b4e3b3b3b3b3b4c3b303b6f4c3b32303541204e4749532041205241454e494c3b3442363031,
0x3b3b3b3b3b4e3b3b3b3b3b4c3b303b6f4c3b33303541204e4749532041205241454e494c3b3542363031,
0x3b3b3b3b3b4e3b3b3b3b3b4c3b303b6f4c3b34303541204e4749532041205241454e494c3b3642363031,
0x3b3b3b3b3b4e3b3b3b3b3b4c3b303b6f4c3b35303541204e4749532041205241454e494c3b3742363031,
0x3b3b3b3b3b4e3b3b3b3b3b4c3b303b6f4c3b36303541204e4749532041205241454e494c3b3842363031,
0x3b3b3b3b3b4e3b3b3b3b3b4c3b303b6f4c3b38303541204e4749532041205241454e494c3b3942363031,
0x3b3b3b3b3b4e3b3b3b3b3b4c3b303b6f4c3b39303541204e4749532041205241454e494c3b4142363031,
0x3b3b3b3b3b4e3b3b3b3b3b4c3b303b6f4c3b30313541204e4749532041205241454e494c3b4242363031,
0x3b3b3b3b3b4e3b3b3b3b3b4c3b303b6f4c3b31313541204e4749532041205241454e494c3b4342363031,
0x3b3b3b3b3b4e3b3b3b3b3b4c3b303b6f4c3b32313541204e4749532041205241454e494c3b4442363031,
0x3b3b3b3b3b4e3b3b3b3b3b4c3b303b6f4c3b33313541204e4749532041205241454e494c3b4542363031,
0x3b3b3b3b3b4e3b3b3b3b3b4c3b303b6f4c3b35313541204e4749532041205241454e494c3b4642363031,
0x3b3b3b3b3b4e3b3b3b3b3b4c3b303b6f4c3b36313541204e4749532041205241454e494c3b3043363031,
0x3b3b3b3b3b4e3b3b3b3b3b4c3b303b6f4c3b30323541204e4749532041205241454e494c3b3143363031,
0x3b3b3b3b3b4e3b3b3b3b3b4c3b303b6f4c3b31323541204e4749532041205241454e494c3b3243363031,
0x3b3b3b3b3b4e3b3b3b3b3b4c3b303b6f4c3b33323541204e4749532041205241454e494c3b3343363031,
0x3b3b3b3b3b4e3b3b3b3b3b4c3b303b6f4c3b34323541204e4749532041205241454e494c3b3443363031,
0x3b3b3b3b3b4e3b3b3b3b3b4c3b303b6f4c3b35323541204e4749532041205241454e494c3b3543363031,
0x3b3b3b3b3b4e3b3b3b3b3b4c3b303b6f4c3b36323541204e4749532041205241454e494c3b3643363031,
0x3b3b3b3b3b4e3b3b3b3b3b4c3b303b6f4c3b37323541204e4749532041205241454e494c3b3743363031,
0x3b3b3b3b3b4e3b3b3b3b3b4c3b303b6f4c3b38323541204e4749532041205241454e494c3b3843363031,
0x3b3b3b3b3b4e3b3b3b3b3b4c3b303b6f4c3b39323541204e4749532041205241454e494c3b3943363031,
0x3b3b3b3b3b4e3b3b3b3b3b4c3b303b6f4c3b30333541204e4749532041205241454e494c3b4143363031,
0x3b3b3b3b3b4e3b3b3b3b3b4c3b303b6f4c3b31333541204e4749532041205241454e494c3b4243363031,
0x3b3b3b3b3b4e3b3b3b3b3b4c3b303b6f4c3b32333541204e4749532041205241454e494c3b4343363031,
0x3b3b3b3b3b4e3b3b3b3b3b4c3b303b6f4c3b34333541204e4749532041205241454e494c3b4443363031,
0x3b3b3b3b3b4e3b3b3b3b3b4c3b303b6f4c3b35333541204e4749532041205241454e494c3b4543363031,
0x3b3b3b3b3b4e3b3b3b3b3b4c3b303b6f4c3b36333541204e4749532041205241454e494c3b4643363031,
0x3b3b3b3b3b4e3b3b3b3b3b4c3b303b6f4c3b37333541204e4749532041205241454e494c3b3044363031,
0x3b3b3b3b3b4e3b3b3b3b3b4c3b303b6f4c3b38333541204e4749532041205241454e494c3b3144363031,
0x3b3b3b3b3b4e3b3b3b3b3b4c3b303b6f4c3b39333541204e4749532041205241454e494c3b3244363031,
0x3b3b3b3b3b4e3b3b3b3b3b4c3b303b6f4c3b30343541204e4749532041205241454e494c3b3344363031,
0x3b3b3b3b3b4e3b3b3b3b3b4c3b303b6f4c3b31343541204e4749532041205241454e494c3b3444363031,
0x3b3b3b3b3b4e3b3b3b3b3b4c3b303b6f4c3b32343541204e4749532041205241454e494c3b3544363031,
0x3b3b3b3b3b4e3b3b3b3b3b4c3b303b6f4c3b35343541204e4749532041205241454e494c3b3644363031,
0x3b3b3b3b3b4e3b3b3b3b3b4c3b303b6f4c3b37343541204e4749532041205241454e494c3b3744363031,
0x3b3b3b3b3b4e3b3b3b3b3b4c3b303b6f4c3b38343541204e4749532041205241454e494c3b3844363031,
0x3b3b3b3b3b4e3b3b3b3b3b4c3b303b6f4c3b39343541204e4749532041205241454e494c3b3944363031,
0x3b3b3b3b3b4e3b3b3b3b3b4c3b303b6f4c3b30353541204e4749532041205241454e494c3b4144363031,
0x3b3b3b3b3b4e3b3b3b3b3b4c3b303b6f4c3b31353541204e4749532041205241454e494c3b4244363031,
0x3b3b3b3b3b4e3b3b3b3b3b4c3b303b6f4c3b32353541204e4749532041205241454e494c3b4344363031,
0x3b3b3b3b3b4e3b3b3b3b3b4c3b303b6f4c3b33353541204e4749532041205241454e494c3b4444363031,
0x3b3b3b3b3b4e3b3b3b3b3b4c3b303b6f4c3b34353541204e4749532041205241454e494c3b4544363031,
0x3b3b3b3b3b4e3b3b3b3b3b4c3b303b6f4c3b35353541204e4749532041205241454e494c3b4644363031,
0x3b3b3b3b3b4e3b3b3b3b3b4c3b303b6f4c3b36353541204e4749532041205241454e494c3b3045363031,
0x3b3b3b3b3b4e3b3b3b3b3b4c3b303b6f4c3b37353541204e4749532041205241454e494c3b3145363031,
0x3b3b3b3b3b4e3b3b3b3b3b4c3b303b6f4c3b39353541204e4749532041205241454e494c3b3245363031,
0x3b3b3b3b3b4e3b3b3b3b3b4c3b303b6f4c3b33363541204e4749532041205241454e494c3b3345363031,
0x3b3b3b3b3b4e3b3b3b3b3b4c3b303b6f4c3b34363541204e4749532041205241454e494c3b3445363031,
0x3b3b3b3b3b4e3b3b3b3b3b4c3b303b6f4c3b35363541204e4749532041205241454e494c3b3545363031,
0x3b3b3b3b3b4e3b3b3b3b3b4c3b303b6f4c3b36363541204e4749532041205241454e494c3b3645363031,
0x3b3b3b3b3b4e3b3b3b3b3b4c3b303b6f4c3b38363541204e4749532041205241454e494c3b3745363031,
0x3b3b3b3b3b4e3b3b3b3b3b4c3b303b6f4c3b39363541204e4749532041205241454e494c3b3845363031,
0x3b3b3b3b3b4e3b3b3b3b3b4c3b303b6f4c3b30373541204e4749532041205241454e494c3b3945363031,
0x3b3b3b3b3b4e3b3b3b3b3b4c3b303b6f4c3b31373541204e4749532041205241454e494c3b4145363031,
0x3b3b3b3b3b4e3b3b3b3b3b4c3b303b6f4c3b32373541204e4749532041205241454e494c3b4245363031,
0x3b3b3b3b3b4e3b3b3b3b3b4c3b303b6f4c3b33373541204e4749532041205241454e494c3b4345363031,
0x3b3b3b3b3b4e3b3b3b3b3b4c3b303b6f4c3b34373541204e4749532041205241454e494c3b4445363031,
0x3b3b3b3b3b4e3b3b3b3b3b4c3b303b6f4c3b35373541204e4749532041205241454e494c3b4545363031,
0x3b3b3b3b3b4e3b3b3b3b3b4c3b303b6f4c3b36373541204e4749532041205241454e494c3b4645363031,
0x3b3b3b3b3b4e3b3b3b3b3b4c3b303b6f4c3b37373541204e4749532041205241454e494c3b3046363031,
0x3b3b3b3b3b4e3b3b3b3b3b4c3b303b6f4c3b38373541204e4749532041205241454e494c3b3146363031,
0x3b3b3b3b3b4e3b3b3b3b3b4c3b303b6f4c3b39373541204e4749532041205241454e494c3b3246363031,
0x3b3b3b3b3b4e3b3b3b3b3b4c3b303b6f4c3b30383541204e4749532041205241454e494c3b3346363031,
0x3b3b3b3b3b4e3b3b3b3b3b4c3b303b6f4c3b31383541204e4749532041205241454e494c3b3446363031,
0x3b3b3b3b3b4e3b3b3b3b3b4c3b303b6f4c3b32383541204e4749532041205241454e494c3b3546363031,
0x3b3b3b3b3b4e3b3b3b3b3b4c3b303b6f4c3b33383541204e4749532041205241454e494c3b3646363031,
0x3b3b3b3b3b4e3b3b3b3b3b4c3b303b6f4c3b34383541204e4749532041205241454e494c3b3746363031,
0x3b3b3b3b3b4e3b3b3b3b3b4c3b303b6f4c3b35383541204e4749532041205241454e494c3b3846363031,
0x3b3b3b3b3b4e3b3b3b3b3b4c3b303b6f4c3b36383541204e4749532041205241454e494c3b3946363031,
0x3b3b3b3b3b4e3b3b3b3b3b4c3b303b6f4c3b37383541204e4749532041205241454e494c3b4146363031,
0x3b3b3b3b3b4e3b3b3b3b3b4c3b303b6f4c3b38383541204e4749532041205241454e494c3b4246363031,
0x3b3b3b3b3b4e3b3b3b3b3b4c3b303b6f4c3b39383541204e4749532041205241454e494c3b4346363031,
0x3b3b3b3b3b4e3b3b3b3b3b4c3b303b6f4c3b31393541204e4749532041205241454e494c3b4446363031,
0x3b3b3b3b3b4e3b3b3b3b3b4c3b303b6f4c3b32393541204e4749532041205241454e494c3b4546363031,
0x3b3b3b3b3b4e3b3b3b3b3b4c3b303b6f4c3b34393541204e4749532041205241454e494c3b4646363031,
0x3b3b3b3b3b4e3b3b3b3b3b4c3b303b6f4c3b35393541204e4749532041205241454e494c3b3030373031,
0x3b3b3b3b3b4e3b3b3b3b3b4c3b303b6f4c3b36393541204e4749532041205241454e494c3b3130373031,
0x3b3b3b3b3b4e3b3b3b3b3b4c3b303b6f4c3b38393541204e4749532041205241454e494c3b3230373031,
0x3b3b3b3b3b4e3b3b3b3b3b4c3b303b6f4c3b30303641204e4749532041205241454e494c3b3330373031,
0x3b3b3b3b3b4e3b3b3b3b3b4c3b303b6f4c3b31303641204e4749532041205241454e494c3b3430373031,
0x3b3b3b3b3b4e3b3b3b3b3b4c3b303b6f4c3b32303641204e4749532041205241454e494c3b3530373031,
0x3b3b3b3b3b4e3b3b3b3b3b4c3b303b6f4c3b33303641204e4749532041205241454e494c3b3630373031,
0x3b3b3b3b3b4e3b3b3b3b3b4c3b303b6f4c3b34303641204e4749532041205241454e494c3b3730373031,
0x3b3b3b3b3b4e3b3b3b3b3b4c3b303b6f4c3b36303641204e4749532041205241454e494c3b3830373031,
0x3b3b3b3b3b4e3b3b3b3b3b4c3b303b6f4c3b38303641204e4749532041205241454e494c3b3930373031,
0x3b3b3b3b3b4e3b3b3b3b3b4c3b303b6f4c3b39303641204e4749532041205241454e494c3b4130373031,
0x3b3b3b3b3b4e3b3b3b3b3b4c3b303b6f4c3b30313641204e4749532041205241454e494c3b4230373031,
0x3b3b3b3b3b4e3b3b3b3b3b4c3b303b6f4c3b31313641204e4749532041205241454e494c3b4330373031,
0x3b3b3b3b3b4e3b3b3b3b3b4c3b303b6f4c3b32313641204e4749532041205241454e494c3b4430373031,
0x3b3b3b3b3b4e3b3b3b3b3b4c3b303b6f4c3b33313641204e4749532041205241454e494c3b4530373031,
0x3b3b3b3b3b4e3b3b3b3b3b4c3b303b6f4c3b34313641204e4749532041205241454e494c3b4630373031,
0x3b3b3b3b3b4e3b3b3b3b3b4c3b303b6f4c3b35313641204e4749532041205241454e494c3b3031373031,
0x3b3b3b3b3b4e3b3b3b3b3b4c3b303b6f4c3b36313641204e4749532041205241454e494c3b3131373031,
0x3b3b3b3b3b4e3b3b3b3b3b4c3b303b6f4c3b37313641204e4749532041205241454e494c3b3231373031,
0x3b3b3b3b3b4e3b3b3b3b3b4c3b303b6f4c3b38313641204e4749532041205241454e494c3b3331373031,
0x3b3b3b3b3b4e3b3b3b3b3b4c3b303b6f4c3b39313641204e4749532041205241454e494c3b3431373031,
0x3b3b3b3b3b4e3b3b3b3b3b4c3b303b6f4c3b30323641204e4749532041205241454e494c3b3531373031,
0x3b3b3b3b3b4e3b3b3b3b3b4c3b303b6f4c3b31323641204e4749532041205241454e494c3b3631373031,
0x3b3b3b3b3b4e3b3b3b3b3b4c3b303b6f4c3b32323641204e4749532041205241454e494c3b3731373031,
0x3b3b3b3b3b4e3b3b3b3b3b4c3b303b6f4c3b33323641204e4749532041205241454e494c3b3831373031,
0x3b3b3b3b3b4e3b3b3b3b3b4c3b303b6f4c3b34323641204e4749532041205241454e494c3b3931373031,
0x3b3b3b3b3b4e3b3b3b3b3b4c3b303b6f4c3b36323641204e4749532041205241454e494c3b4131373031,
0x3b3b3b3b3b4e3b3b3b3b3b4c3b303b6f4c3b37323641204e4749532041205241454e494c3b4231373031,
0x3b3b3b3b3b4e3b3b3b3b3b4c3b303b6f4c3b38323641204e4749532041205241454e494c3b4331373031,
0x3b3b3b3b3b4e3b3b3b3b3b4c3b303b6f4c3b39323641204e4749532041205241454e494c3b4431373031,
0x3b3b3b3b3b4e3b3b3b3b3b4c3b303b6f4c3b34333641204e4749532041205241454e494c3b4531373031,
0x3b3b3b3b3b4e3b3b3b3b3b4c3b303b6f4c3b37333641204e4749532041205241454e494c3b4631373031,
0x3b3b3b3b3b4e3b3b3b3b3b4c3b303b6f4c3b38333641204e4749532041205241454e494c3b3032373031,
0x3b3b3b3b3b4e3b3b3b3b3b4c3b303b6f4c3b30343641204e4749532041205241454e494c3b3132373031,
0x3b3b3b3b3b4e3b3b3b3b3b4c3b303b6f4c3b32343641204e4749532041205241454e494c3b3232373031,
0x3b3b3b3b3b4e3b3b3b3b3b4c3b303b6f4c3b33343641204e4749532041205241454e494c3b3332373031,
0x3b3b3b3b3b4e3b3b3b3b3b4c3b303b6f4c3b34343641204e4749532041205241454e494c3b3432373031,
0x3b3b3b3b3b4e3b3b3b3b3b4c3b303b6f4c3b35343641204e4749532041205241454e494c3b3532373031,
0x3b3b3b3b3b4e3b3b3b3b3b4c3b303b6f4c3b36343641204e4749532041205241454e494c3b3632373031,
0x3b3b3b3b3b4e3b3b3b3b3b4c3b303b6f4c3b38343641204e4749532041205241454e494c3b3732373031,
0x3b3b3b3b3b4e3b3b3b3b3b4c3b303b6f4c3b39343641204e4749532041205241454e494c3b3832373031,
0x3b3b3b3b3b4e3b3b3b3b3b4c3b303b6f4c3b31353641204e4749532041205241454e494c3b3932373031,
0x3b3b3b3b3b4e3b3b3b3b3b4c3b303b6f4c3b32353641204e4749532041205241454e494c3b4132373031,
0x3b3b3b3b3b4e3b3b3b3b3b4c3b303b6f4c3b33353641204e4749532041205241454e494c3b4232373031,
0x3b3b3b3b3b4e3b3b3b3b3b4c3b303b6f4c3b34353641204e4749532041205241454e494c3b4332373031,
0x3b3b3b3b3b4e3b3b3b3b3b4c3b303b6f4c3b35353641204e4749532041205241454e494c3b4432373031,
0x3b3b3b3b3b4e3b3b3b3b3b4c3b303b6f4c3b36353641204e4749532041205241454e494c3b4532373031,
0x3b3b3b3b3b4e3b3b3b3b3b4c3b303b6f4c3b37353641204e4749532041205241454e494c3b4632373031,
0x3b3b3b3b3b4e3b3b3b3b3b4c3b303b6f4c3b38353641204e4749532041205241454e494c3b3033373031,
0x3b3b3b3b3b4e3b3b3b3b3b4c3b303b6f4c3b39353641204e4749532041205241454e494c3b3133373031,
0x3b3b3b3b3b4e3b3b3b3b3b4c3b303b6f4c3b30363641204e4749532041205241454e494c3b3233373031,
0x3b3b3b3b3b4e3b3b3b3b3b4c3b303b6f4c3b31363641204e4749532041205241454e494c3b3333373031,
0x3b3b3b3b3b4e3b3b3b3b3b4c3b303b6f4c3b32363641204e4749532041205241454e494c3b3433373031,
0x3b3b3b3b3b4e3b3b3b3b3b4c3b303b6f4c3b33363641204e4749532041205241454e494c3b3533373031,
0x3b3b3b3b3b4e3b3b3b3b3b4c3b303b6f4c3b34363641204e4749532041205241454e494c3b3633373031,
0x3b3b3b3b3b4e3b3b3b3b3b4c3b303b6f4c3b412031303741204e4749532041205241454e494c3b3034373031,
0x3b3b3b3b3b4e3b3b3b3b3b4c3b303b6f4c3b422032303741204e4749532041205241454e494c3b3134373031,
0x3b3b3b3b3b4e3b3b3b3b3b4c3b303b6f4c3b442033303741204e4749532041205241454e494c3b3234373031,
0x3b3b3b3b3b4e3b3b3b3b3b4c3b303b6f4c3b452034303741204e4749532041205241454e494c3b3334373031,
0x3b3b3b3b3b4e3b3b3b3b3b4c3b303b6f4c3b462035303741204e4749532041205241454e494c3b3434373031,
0x3b3b3b3b3b4e3b3b3b3b3b4c3b303b6f4c3b482036303741204e4749532041205241454e494c3b3534373031,
0x3b3b3b3b3b4e3b3b3b3b3b4c3b303b6f4c3b4a2037303741204e4749532041205241454e494c3b3634373031,
0x3b3b3b3b3b4e3b3b3b3b3b4c3b303b6f4c3b4b2038303741204e4749532041205241454e494c3b3734373031,
0x3b3b3b3b3b4e3b3b3b3b3b4c3b303b6f4c3b4c2039303741204e4749532041205241454e494c3b3834373031,
0x3b3b3b3b3b4e3b3b3b3b3b4c3b303b6f4c3b324c20322d39303741204e4749532041205241454e494c3b3934373031,
0x3b3b3b3b3b4e3b3b3b3b3b4c3b303b6f4c3b334c20332d39303741204e4749532041205241454e494c3b4134373031,
0x3b3b3b3b3b4e3b3b3b3b3b4c3b303b6f4c3b344c20342d39303741204e4749532041205241454e494c3b4234373031,
0x3b3b3b3b3b4e3b3b3b3b3b4c3b303b6f4c3b364c20362d39303741204e4749532041205241454e494c3b4334373031,
0x3b3b3b3b3b4e3b3b3b3b3b4c3b303b6f4c3b572030313741204e4749532041205241454e494c3b4434373031,
0x3b3b3b3b3b4e3b3b3b3b3b4c3b303b6f4c3b582031313741204e4749532041205241454e494c3b4534373031,
0x3b3b3b3b3b4e3b3b3b3b3b4c3b303b6f4c3b592032313741204e4749532041205241454e494c3b4634373031,
0x3b3b3b3b3b4e3b3b3b3b3b4c3b303b6f4c3b4147454d4f2033313741204e4749532041205241454e494c3b3035373031,
0x3b3b3b3b3b4e3b3b3b3b3b4c3b303b6f4c3b4242412034313741204e4749532041205241454e494c3b3135373031,
0x3b3b3b3b3b4e3b3b3b3b3b4c3b303b6f4c3b42422035313741204e4749532041205241454e494c3b3235373031,
0x3b3b3b3b3b4e3b3b3b3b3b4c3b303b6f4c3b44442037313741204e4749532041205241454e494c3b3335373031,
0x3b3b3b3b3b4e3b3b3b3b3b4c3b303b6f4c3b595959452036323741204e4749532041205241454e494c3b3435373031,
0x3b3b3b3b3b4e3b3b3b3b3b4c3b303b6f4c3b454a2032333741204e4749532041205241454e494c3b3535373031,
0x3b3b3b3b3b4e3b3b3b3b3b4c3b303b6f4c3b30303841204e4749532041205241454e494c3b3036373031,
0x3b3b3b3b3b4e3b3b3b3b3b4c3b303b6f4c3b31303841204e4749532041205241454e494c3b3136373031,
0x3b3b3b3b3b4e3b3b3b3b3b4c3b303b6f4c3b32303841204e4749532041205241454e494c3b3236373031,
0x3b3b3b3b3b4e3b3b3b3b3b4c3b303b6f4c3b33303841204e4749532041205241454e494c3b3336373031,
0x3b3b3b3b3b4e3b3b3b3b3b4c3b303b6f4c3b34303841204e4749532041205241454e494c3b3436373031,
0x3b3b3b3b3b4e3b3b3b3b3b4c3b303b6f4c3b35303841204e4749532041205241454e494c3b3536373031,
0x3b3b3b3b3b4e3b3b3b3b3b4c3b303b6f4c3b36303841204e4749532041205241454e494c3b3636373031,
0x3b3b3b3b3b4e3b3b3b3b3b4c3b303b6f4c3b37303841204e4749532041205241454e494c3b3736373031]

/-- src/u5e/props/UnicodeData.txt lines 17921-18176. -/
def rawUcd70 : List Nat := [
0x3b3b3b3b3b4e3b3b3b3b3b523b303b6f4c3b4120454c42414c4c595320544f49525059433b3030383031,
0x3b3b3b3b3b4e3b3b3b3b3b523b303b6f4c3b4520454c42414c4c595320544f49525059433b3130383031,
0x3b3b3b3b3b4e3b3b3b3b3b523b303b6f4c3b4920454c42414c4c595320544f49525059433b3230383031,
0x3b3b3b3b3b4e3b3b3b3b3b523b303b6f4c3b4f20454c42414c4c595320544f49525059433b3330383031,
0x3b3b3b3b3b4e3b3b3b3b3b523b303b6f4c3b5520454c42414c4c595320544f49525059433b3430383031,
0x3b3b3b3b3b4e3b3b3b3b3b523b303b6f4c3b414a20454c42414c4c595320544f49525059433b3530383031,
0x3b3b3b3b3b4e3b3b3b3b3b523b303b6f4c3b4f4a20454c42414c4c595320544f49525059433b3830383031,
0x3b3b3b3b3b4e3b3b3b3b3b523b303b6f4c3b414b20454c42414c4c595320544f49525059433b4130383031,
0x3b3b3b3b3b4e3b3b3b3b3b523b303b6f4c3b454b20454c42414c4c595320544f49525059433b4230383031,
0x3b3b3b3b3b4e3b3b3b3b3b523b303b6f4c3b494b20454c42414c4c595320544f49525059433b4330383031,
0x3b3b3b3b3b4e3b3b3b3b3b523b303b6f4c3b4f4b20454c42414c4c595320544f49525059433b4430383031,
0x3b3b3b3b3b4e3b3b3b3b3b523b303b6f4c3b554b20454c42414c4c595320544f49525059433b4530383031,
0x3b3b3b3b3b4e3b3b3b3b3b523b303b6f4c3b414c20454c42414c4c595320544f49525059433b4630383031,
0x3b3b3b3b3b4e3b3b3b3b3b523b303b6f4c3b454c20454c42414c4c595320544f49525059433b3031383031,
0x3b3b3b3b3b4e3b3b3b3b3b523b303b6f4c3b494c20454c42414c4c595320544f49525059433b3131383031,
0x3b3b3b3b3b4e3b3b3b3b3b523b303b6f4c3b4f4c20454c42414c4c595320544f49525059433b3231383031,
0x3b3b3b3b3b4e3b3b3b3b3b523b303b6f4c3b554c20454c42414c4c595320544f49525059433b3331383031,
0x3b3b3b3b3b4e3b3b3b3b3b523b303b6f4c3b414d20454c42414c4c595320544f49525059433b3431383031,
0x3b3b3b3b3b4e3b3b3b3b3b523b303b6f4c3b454d20454c42414c4c595320544f49525059433b3531383031,
0x3b3b3b3b3b4e3b3b3b3b3b523b303b6f4c3b494d20454c42414c4c595320544f49525059433b3631383031,
0x3b3b3b3b3b4e3b3b3b3b3b523b303b6f4c3b4f4d20454c42414c4c595320544f49525059433b3731383031,
0x3b3b3b3b3b4e3b3b3b3b3b523b303b6f4c3b554d20454c42414c4c595320544f49525059433b3831383031,
0x3b3b3b3b3b4e3b3b3b3b3b523b303b6f4c3b414e20454c42414c4c595320544f49525059433b3931383031,
0x3b3b3b3b3b4e3b3b3b3b3b523b303b6f4c3b454e20454c42414c4c595320544f49525059433b4131383031,
0x3b3b3b3b3b4e3b3b3b3b3b523b303b6f4c3b494e20454c42414c4c595320544f49525059433b4231383031,
0x3b3b3b3b3b4e3b3b3b3b3b523b303b6f4c3b4f4e20454c42414c4c595320544f49525059433b4331383031,
0x3b3b3b3b3b4e3b3b3b3b3b523b303b6f4c3b554e20454c42414c4c595320544f49525059433b4431383031,
0x3b3b3b3b3b4e3b3b3b3b3b523b303b6f4c3b415020454c42414c4c595320544f49525059433b4531383031,
0x3b3b3b3b3b4e3b3b3b3b3b523b303b6f4c3b455020454c42414c4c595320544f49525059433b4631383031,
0x3b3b3b3b3b4e3b3b3b3b3b523b303b6f4c3b495020454c42414c4c595320544f49525059433b3032383031,
0x3b3b3b3b3b4e3b3b3b3b3b523b303b6f4c3b4f5020454c42414c4c595320544f49525059433b3132383031,
0x3b3b3b3b3b4e3b3b3b3b3b523b303b6f4c3b555020454c42414c4c595320544f49525059433b3232383031,
0x3b3b3b3b3b4e3b3b3b3b3b523b303b6f4c3b415220454c42414c4c595320544f49525059433b3332383031,
0x3b3b3b3b3b4e3b3b3b3b3b523b303b6f4c3b455220454c42414c4c595320544f49525059433b3432383031,
0x3b3b3b3b3b4e3b3b3b3b3b523b303b6f4c3b495220454c42414c4c595320544f49525059433b3532383031,
0x3b3b3b3b3b4e3b3b3b3b3b523b303b6f4c3b4f5220454c42414c4c595320544f49525059433b3632383031,
0x3b3b3b3b3b4e3b3b3b3b3b523b303b6f4c3b555220454c42414c4c595320544f49525059433b3732383031,
0x3b3b3b3b3b4e3b3b3b3b3b523b303b6f4c3b415320454c42414c4c595320544f49525059433b3832383031,
0x3b3b3b3b3b4e3b3b3b3b3b523b303b6f4c3b455320454c42414c4c595320544f49525059433b3932383031,
0x3b3b3b3b3b4e3b3b3b3b3b523b303b6f4c3b495320454c42414c4c595320544f49525059433b4132383031,
0x3b3b3b3b3b4e3b3b3b3b3b523b303b6f4c3b4f5320454c42414c4c595320544f49525059433b4232383031,
0x3b3b3b3b3b4e3b3b3b3b3b523b303b6f4c3b555320454c42414c4c595320544f49525059433b4332383031,
0x3b3b3b3b3b4e3b3b3b3b3b523b303b6f4c3b415420454c42414c4c595320544f49525059433b4432383031,
0x3b3b3b3b3b4e3b3b3b3b3b523b303b6f4c3b455420454c42414c4c595320544f49525059433b4532383031,
0x3b3b3b3b3b4e3b3b3b3b3b523b303b6f4c3b495420454c42414c4c595320544f49525059433b4632383031,
0x3b3b3b3b3b4e3b3b3b3b3b523b303b6f4c3b4f5420454c42414c4c595320544f49525059433b3033383031,
0x3b3b3b3b3b4e3b3b3b3b3b523b303b6f4c3b555420454c42414c4c595320544f49525059433b3133383031,
0x3b3b3b3b3b4e3b3b3b3b3b523b303b6f4c3b415720454c42414c4c595320544f49525059433b3233383031,
0x3b3b3b3b3b4e3b3b3b3b3b523b303b6f4c3b455720454c42414c4c595320544f49525059433b3333383031,
0x3b3b3b3b3b4e3b3b3b3b3b523b303b6f4c3b495720454c42414c4c595320544f49525059433b3433383031,
0x3b3b3b3b3b4e3b3b3b3b3b523b303b6f4c3b4f5720454c42414c4c595320544f49525059433b3533383031,
0x3b3b3b3b3b4e3b3b3b3b3b523b303b6f4c3b415820454c42414c4c595320544f49525059433b3733383031,
0x3b3b3b3b3b4e3b3b3b3b3b523b303b6f4c3b455820454c42414c4c595320544f49525059433b3833383031,
0x3b3b3b3b3b4e3b3b3b3b3b523b303b6f4c3b415a20454c42414c4c595320544f49525059433b4333383031,
0x3b3b3b3b3b4e3b3b3b3b3b523b303b6f4c3b4f5a20454c42414c4c595320544f49525059433b4633383031,
0x3b3b3b3b3b4e3b3b3b3b3b523b303b6f4c3b4850454c412052455454454c204349414d415241204c41495245504d493b3034383031,
0x3b3b3b3b3b4e3b3b3b3b3b523b303b6f4c3b485445422052455454454c204349414d415241204c41495245504d493b3134383031,
0x3b3b3b3b3b4e3b3b3b3b3b523b303b6f4c3b4c454d49472052455454454c204349414d415241204c41495245504d493b3234383031,
0x3b3b3b3b3b4e3b3b3b3b3b523b303b6f4c3b4854454c41442052455454454c204349414d415241204c41495245504d493b3334383031,
0x3b3b3b3b3b4e3b3b3b3b3b523b303b6f4c3b45482052455454454c204349414d415241204c41495245504d493b3434383031,
0x3b3b3b3b3b4e3b3b3b3b3b523b303b6f4c3b5741572052455454454c204349414d415241204c41495245504d493b3534383031,
0x3b3b3b3b3b4e3b3b3b3b3b523b303b6f4c3b4e4959415a2052455454454c204349414d415241204c41495245504d493b3634383031,
0x3b3b3b3b3b4e3b3b3b3b3b523b303b6f4c3b485445482052455454454c204349414d415241204c41495245504d493b3734383031,
0x3b3b3b3b3b4e3b3b3b3b3b523b303b6f4c3b485445542052455454454c204349414d415241204c41495245504d493b3834383031,
0x3b3b3b3b3b4e3b3b3b3b3b523b303b6f4c3b48444f592052455454454c204349414d415241204c41495245504d493b3934383031,
0x3b3b3b3b3b4e3b3b3b3b3b523b303b6f4c3b4850414b2052455454454c204349414d415241204c41495245504d493b4134383031,
0x3b3b3b3b3b4e3b3b3b3b3b523b303b6f4c3b4844454d414c2052455454454c204349414d415241204c41495245504d493b4234383031,
0x3b3b3b3b3b4e3b3b3b3b3b523b303b6f4c3b4d454d2052455454454c204349414d415241204c41495245504d493b4334383031,
0x3b3b3b3b3b4e3b3b3b3b3b523b303b6f4c3b4e554e2052455454454c204349414d415241204c41495245504d493b4434383031,
0x3b3b3b3b3b4e3b3b3b3b3b523b303b6f4c3b484b454d41532052455454454c204349414d415241204c41495245504d493b4534383031,
0x3b3b3b3b3b4e3b3b3b3b3b523b303b6f4c3b4e4959412052455454454c204349414d415241204c41495245504d493b4634383031,
0x3b3b3b3b3b4e3b3b3b3b3b523b303b6f4c3b45502052455454454c204349414d415241204c41495245504d493b3035383031,
0x3b3b3b3b3b4e3b3b3b3b3b523b303b6f4c3b45484441532052455454454c204349414d415241204c41495245504d493b3135383031,
0x3b3b3b3b3b4e3b3b3b3b3b523b303b6f4c3b48504f512052455454454c204349414d415241204c41495245504d493b3235383031,
0x3b3b3b3b3b4e3b3b3b3b3b523b303b6f4c3b485345522052455454454c204349414d415241204c41495245504d493b3335383031,
0x3b3b3b3b3b4e3b3b3b3b3b523b303b6f4c3b4e4948532052455454454c204349414d415241204c41495245504d493b3435383031,
0x3b3b3b3b3b4e3b3b3b3b3b523b303b6f4c3b5741542052455454454c204349414d415241204c41495245504d493b3535383031,
0x3b3b3b3b3b4e3b3b3b3b3b523b303b6f503b4e474953204e4f4954434553204349414d415241204c41495245504d493b3735383031,
0x3b3b3b3b3b4e3b313b3b3b3b523b303b6f4e3b454e4f205245424d554e204349414d415241204c41495245504d493b3835383031,
0x3b3b3b3b3b4e3b323b3b3b3b523b303b6f4e3b4f5754205245424d554e204349414d415241204c41495245504d493b3935383031,
0x3b3b3b3b3b4e3b333b3b3b3b523b303b6f4e3b4545524854205245424d554e204349414d415241204c41495245504d493b4135383031,
0x3b3b3b3b3b4e3b30313b3b3b3b523b303b6f4e3b4e4554205245424d554e204349414d415241204c41495245504d493b4235383031,
0x3b3b3b3b3b4e3b30323b3b3b3b523b303b6f4e3b59544e455754205245424d554e204349414d415241204c41495245504d493b4335383031,
0x3b3b3b3b3b4e3b3030313b3b3b3b523b303b6f4e3b444552444e554820454e4f205245424d554e204349414d415241204c41495245504d493b4435383031,
0x3b3b3b3b3b4e3b303030313b3b3b3b523b303b6f4e3b444e4153554f485420454e4f205245424d554e204349414d415241204c41495245504d493b4535383031,
0x3b3b3b3b3b4e3b30303030313b3b3b3b523b303b6f4e3b444e4153554f4854204e4554205245424d554e204349414d415241204c41495245504d493b4635383031,
0x3b3b3b3b3b4e3b3b3b3b3b523b303b6f4c3b4850454c412052455454454c20454e4552594d4c41503b3036383031,
0x3b3b3b3b3b4e3b3b3b3b3b523b303b6f4c3b485445422052455454454c20454e4552594d4c41503b3136383031,
0x3b3b3b3b3b4e3b3b3b3b3b523b303b6f4c3b4c454d49472052455454454c20454e4552594d4c41503b3236383031,
0x3b3b3b3b3b4e3b3b3b3b3b523b303b6f4c3b4854454c41442052455454454c20454e4552594d4c41503b3336383031,
0x3b3b3b3b3b4e3b3b3b3b3b523b303b6f4c3b45482052455454454c20454e4552594d4c41503b3436383031,
0x3b3b3b3b3b4e3b3b3b3b3b523b303b6f4c3b5741572052455454454c20454e4552594d4c41503b3536383031,
0x3b3b3b3b3b4e3b3b3b3b3b523b303b6f4c3b4e4959415a2052455454454c20454e4552594d4c41503b3636383031,
0x3b3b3b3b3b4e3b3b3b3b3b523b303b6f4c3b485445482052455454454c20454e4552594d4c41503b3736383031,
0x3b3b3b3b3b4e3b3b3b3b3b523b303b6f4c3b485445542052455454454c20454e4552594d4c41503b3836383031,
0x3b3b3b3b3b4e3b3b3b3b3b523b303b6f4c3b48444f592052455454454c20454e4552594d4c41503b3936383031,
0x3b3b3b3b3b4e3b3b3b3b3b523b303b6f4c3b4850414b2052455454454c20454e4552594d4c41503b4136383031,
0x3b3b3b3b3b4e3b3b3b3b3b523b303b6f4c3b4844454d414c2052455454454c20454e4552594d4c41503b4236383031,
0x3b3b3b3b3b4e3b3b3b3b3b523b303b6f4c3b4d454d2052455454454c20454e4552594d4c41503b4336383031,
0x3b3b3b3b3b4e3b3b3b3b3b523b303b6f4c3b4e554e204c414e49462052455454454c20454e4552594d4c41503b4436383031,
0x3b3b3b3b3b4e3b3b3b3b3b523b303b6f4c3b4e554e2052455454454c20454e4552594d4c41503b4536383031,
0x3b3b3b3b3b4e3b3b3b3b3b523b303b6f4c3b484b454d41532052455454454c20454e4552594d4c41503b4636383031,
0x3b3b3b3b3b4e3b3b3b3b3b523b303b6f4c3b4e4959412052455454454c20454e4552594d4c41503b3037383031,
0x3b3b3b3b3b4e3b3b3b3b3b523b303b6f4c3b45502052455454454c20454e4552594d4c41503b3137383031,
0x3b3b3b3b3b4e3b3b3b3b3b523b303b6f4c3b45484441532052455454454c20454e4552594d4c41503b3237383031,
0x3b3b3b3b3b4e3b3b3b3b3b523b303b6f4c3b48504f512052455454454c20454e4552594d4c41503b3337383031,
0x3b3b3b3b3b4e3b3b3b3b3b523b303b6f4c3b485345522052455454454c20454e4552594d4c41503b3437383031,
0x3b3b3b3b3b4e3b3b3b3b3b523b303b6f4c3b4e4948532052455454454c20454e4552594d4c41503b3537383031,
0x3b3b3b3b3b4e3b3b3b3b3b523b303b6f4c3b5741542052455454454c20454e4552594d4c41503b3637383031,
0x3b3b3b3b3b4e3b3b3b3b3b523b303b6f533b4e4f5255454c4620474e49544e494f502d5446454c20454e4552594d4c41503b3737383031,
0x3b3b3b3b3b4e3b3b3b3b3b523b303b6f533b4e4f5255454c4620474e49544e494f502d544847495220454e4552594d4c41503b3837383031,
0x3b3b3b3b3b4e3b313b3b3b3b523b303b6f4e3b454e4f205245424d554e20454e4552594d4c41503b3937383031,
0x3b3b3b3b3b4e3b323b3b3b3b523b303b6f4e3b4f5754205245424d554e20454e4552594d4c41503b4137383031,
0x3b3b3b3b3b4e3b333b3b3b3b523b303b6f4e3b4545524854205245424d554e20454e4552594d4c41503b4237383031,
0x3b3b3b3b3b4e3b343b3b3b3b523b303b6f4e3b52554f46205245424d554e20454e4552594d4c41503b4337383031,
0x3b3b3b3b3b4e3b353b3b3b3b523b303b6f4e3b45564946205245424d554e20454e4552594d4c41503b4437383031,
0x3b3b3b3b3b4e3b30313b3b3b3b523b303b6f4e3b4e4554205245424d554e20454e4552594d4c41503b4537383031,
0x3b3b3b3b3b4e3b30323b3b3b3b523b303b6f4e3b59544e455754205245424d554e20454e4552594d4c41503b4637383031,
0x3b3b3b3b3b4e3b3b3b3b3b523b303b6f4c3b4850454c41204c414e49462052455454454c204e414541544142414e3b3038383031,
0x3b3b3b3b3b4e3b3b3b3b3b523b303b6f4c3b4850454c412052455454454c204e414541544142414e3b3138383031,
0x3b3b3b3b3b4e3b3b3b3b3b523b303b6f4c3b48544542204c414e49462052455454454c204e414541544142414e3b3238383031,
0x3b3b3b3b3b4e3b3b3b3b3b523b303b6f4c3b485445422052455454454c204e414541544142414e3b3338383031,
0x3b3b3b3b3b4e3b3b3b3b3b523b303b6f4c3b4c454d49472052455454454c204e414541544142414e3b3438383031,
0x3b3b3b3b3b4e3b3b3b3b3b523b303b6f4c3b4854454c41442052455454454c204e414541544142414e3b3538383031,
0x3b3b3b3b3b4e3b3b3b3b3b523b303b6f4c3b4548204c414e49462052455454454c204e414541544142414e3b3638383031,
0x3b3b3b3b3b4e3b3b3b3b3b523b303b6f4c3b45482052455454454c204e414541544142414e3b3738383031,
0x3b3b3b3b3b4e3b3b3b3b3b523b303b6f4c3b5741572052455454454c204e414541544142414e3b3838383031,
0x3b3b3b3b3b4e3b3b3b3b3b523b303b6f4c3b4e4959415a2052455454454c204e414541544142414e3b3938383031,
0x3b3b3b3b3b4e3b3b3b3b3b523b303b6f4c3b485445482052455454454c204e414541544142414e3b4138383031,
0x3b3b3b3b3b4e3b3b3b3b3b523b303b6f4c3b485445542052455454454c204e414541544142414e3b4238383031,
0x3b3b3b3b3b4e3b3b3b3b3b523b303b6f4c3b48444f59204c414e49462052455454454c204e414541544142414e3b4338383031,
0x3b3b3b3b3b4e3b3b3b3b3b523b303b6f4c3b48444f592052455454454c204e414541544142414e3b4438383031,
0x3b3b3b3b3b4e3b3b3b3b3b523b303b6f4c3b4850414b204c414e49462052455454454c204e414541544142414e3b4538383031,
0x3b3b3b3b3b4e3b3b3b3b3b523b303b6f4c3b4850414b2052455454454c204e414541544142414e3b4638383031,
0x3b3b3b3b3b4e3b3b3b3b3b523b303b6f4c3b4844454d414c204c414e49462052455454454c204e414541544142414e3b3039383031,
0x3b3b3b3b3b4e3b3b3b3b3b523b303b6f4c3b4844454d414c2052455454454c204e414541544142414e3b3139383031,
0x3b3b3b3b3b4e3b3b3b3b3b523b303b6f4c3b4d454d204c414e49462052455454454c204e414541544142414e3b3239383031,
0x3b3b3b3b3b4e3b3b3b3b3b523b303b6f4c3b4d454d2052455454454c204e414541544142414e3b3339383031,
0x3b3b3b3b3b4e3b3b3b3b3b523b303b6f4c3b4e554e204c414e49462052455454454c204e414541544142414e3b3439383031,
0x3b3b3b3b3b4e3b3b3b3b3b523b303b6f4c3b4e554e2052455454454c204e414541544142414e3b3539383031,
0x3b3b3b3b3b4e3b3b3b3b3b523b303b6f4c3b484b454d41532052455454454c204e414541544142414e3b3639383031,
0x3b3b3b3b3b4e3b3b3b3b3b523b303b6f4c3b4e4959412052455454454c204e414541544142414e3b3739383031,
0x3b3b3b3b3b4e3b3b3b3b3b523b303b6f4c3b45502052455454454c204e414541544142414e3b3839383031,
0x3b3b3b3b3b4e3b3b3b3b3b523b303b6f4c3b45484441532052455454454c204e414541544142414e3b3939383031,
0x3b3b3b3b3b4e3b3b3b3b3b523b303b6f4c3b48504f512052455454454c204e414541544142414e3b4139383031,
0x3b3b3b3b3b4e3b3b3b3b3b523b303b6f4c3b485345522052455454454c204e414541544142414e3b4239383031,
0x3b3b3b3b3b4e3b3b3b3b3b523b303b6f4c3b4e494853204c414e49462052455454454c204e414541544142414e3b4339383031,
0x3b3b3b3b3b4e3b3b3b3b3b523b303b6f4c3b4e4948532052455454454c204e414541544142414e3b4439383031,
0x3b3b3b3b3b4e3b3b3b3b3b523b303b6f4c3b5741542052455454454c204e414541544142414e3b4539383031,
0x3b3b3b3b3b4e3b313b3b3b3b523b303b6f4e3b454e4f205245424d554e204e414541544142414e3b3741383031,
0x3b3b3b3b3b4e3b323b3b3b3b523b303b6f4e3b4f5754205245424d554e204e414541544142414e3b3841383031,
0x3b3b3b3b3b4e3b333b3b3b3b523b303b6f4e3b4545524854205245424d554e204e414541544142414e3b3941383031,
0x3b3b3b3b3b4e3b343b3b3b3b523b303b6f4e3b52554f46205245424d554e204e414541544142414e3b4141383031,
0x3b3b3b3b3b4e3b343b3b3b3b523b303b6f4e3b52554f46205245424d554e204d524f464943555243204e414541544142414e3b4241383031,
0x3b3b3b3b3b4e3b353b3b3b3b523b303b6f4e3b45564946205245424d554e204e414541544142414e3b4341383031,
0x3b3b3b3b3b4e3b30313b3b3b3b523b303b6f4e3b4e4554205245424d554e204e414541544142414e3b4441383031,
0x3b3b3b3b3b4e3b30323b3b3b3b523b303b6f4e3b59544e455754205245424d554e204e414541544142414e3b4541383031,
0x3b3b3b3b3b4e3b3030313b3b3b3b523b303b6f4e3b444552444e554820454e4f205245424d554e204e414541544142414e3b4641383031,
0x3b3b3b3b3b4e3b3b3b3b3b523b303b6f4c3b4850454c412052455454454c204e41525441483b3045383031,
0x3b3b3b3b3b4e3b3b3b3b3b523b303b6f4c3b485445422052455454454c204e41525441483b3145383031,
0x3b3b3b3b3b4e3b3b3b3b3b523b303b6f4c3b4c454d49472052455454454c204e41525441483b3245383031,
0x3b3b3b3b3b4e3b3b3b3b3b523b303b6f4c3b485345522d4854454c41442052455454454c204e41525441483b3345383031,
0x3b3b3b3b3b4e3b3b3b3b3b523b303b6f4c3b45482052455454454c204e41525441483b3445383031,
0x3b3b3b3b3b4e3b3b3b3b3b523b303b6f4c3b5741572052455454454c204e41525441483b3545383031,
0x3b3b3b3b3b4e3b3b3b3b3b523b303b6f4c3b4e59415a2052455454454c204e41525441483b3645383031,
0x3b3b3b3b3b4e3b3b3b3b3b523b303b6f4c3b485445482052455454454c204e41525441483b3745383031,
0x3b3b3b3b3b4e3b3b3b3b3b523b303b6f4c3b485445542052455454454c204e41525441483b3845383031,
0x3b3b3b3b3b4e3b3b3b3b3b523b303b6f4c3b48444f592052455454454c204e41525441483b3945383031,
0x3b3b3b3b3b4e3b3b3b3b3b523b303b6f4c3b4850414b2052455454454c204e41525441483b4145383031,
0x3b3b3b3b3b4e3b3b3b3b3b523b303b6f4c3b4844454d414c2052455454454c204e41525441483b4245383031,
0x3b3b3b3b3b4e3b3b3b3b3b523b303b6f4c3b4d454d2052455454454c204e41525441483b4345383031,
0x3b3b3b3b3b4e3b3b3b3b3b523b303b6f4c3b4e554e2052455454454c204e41525441483b4445383031,
0x3b3b3b3b3b4e3b3b3b3b3b523b303b6f4c3b484b454d41532052455454454c204e41525441483b4545383031,
0x3b3b3b3b3b4e3b3b3b3b3b523b303b6f4c3b4e59412052455454454c204e41525441483b4645383031,
0x3b3b3b3b3b4e3b3b3b3b3b523b303b6f4c3b45502052455454454c204e41525441483b3046383031,
0x3b3b3b3b3b4e3b3b3b3b3b523b303b6f4c3b45484441532052455454454c204e41525441483b3146383031,
0x3b3b3b3b3b4e3b3b3b3b3b523b303b6f4c3b48504f512052455454454c204e41525441483b3246383031,
0x3b3b3b3b3b4e3b3b3b3b3b523b303b6f4c3b4e4948532052455454454c204e41525441483b3446383031,
0x3b3b3b3b3b4e3b3b3b3b3b523b303b6f4c3b5741542052455454454c204e41525441483b3546383031,
0x3b3b3b3b3b4e3b313b3b3b3b523b303b6f4e3b454e4f205245424d554e204e41525441483b4246383031,
0x3b3b3b3b3b4e3b353b3b3b3b523b303b6f4e3b45564946205245424d554e204e41525441483b4346383031,
0x3b3b3b3b3b4e3b30313b3b3b3b523b303b6f4e3b4e4554205245424d554e204e41525441483b4446383031,
0x3b3b3b3b3b4e3b30323b3b3b3b523b303b6f4e3b59544e455754205245424d554e204e41525441483b4546383031,
0x3b3b3b3b3b4e3b3030313b3b3b3b523b303b6f4e3b444552444e554820454e4f205245424d554e204e41525441483b4646383031,
0x3b3b3b3b3b4e3b3b3b3b3b523b303b6f4c3b464c412052455454454c204e414943494e454f48503b3030393031,
0x3b3b3b3b3b4e3b3b3b3b3b523b303b6f4c3b5445422052455454454c204e414943494e454f48503b3130393031,
0x3b3b3b3b3b4e3b3b3b3b3b523b303b6f4c3b4c4d41472052455454454c204e414943494e454f48503b3230393031,
0x3b3b3b3b3b4e3b3b3b3b3b523b303b6f4c3b544c45442052455454454c204e414943494e454f48503b3330393031,
0x3b3b3b3b3b4e3b3b3b3b3b523b303b6f4c3b45482052455454454c204e414943494e454f48503b3430393031,
0x3b3b3b3b3b4e3b3b3b3b3b523b303b6f4c3b5541572052455454454c204e414943494e454f48503b3530393031,
0x3b3b3b3b3b4e3b3b3b3b3b523b303b6f4c3b49415a2052455454454c204e414943494e454f48503b3630393031,
0x3b3b3b3b3b4e3b3b3b3b3b523b303b6f4c3b5445482052455454454c204e414943494e454f48503b3730393031,
0x3b3b3b3b3b4e3b3b3b3b3b523b303b6f4c3b5445542052455454454c204e414943494e454f48503b3830393031,
0x3b3b3b3b3b4e3b3b3b3b3b523b303b6f4c3b444f592052455454454c204e414943494e454f48503b3930393031,
0x3b3b3b3b3b4e3b3b3b3b3b523b303b6f4c3b46414b2052455454454c204e414943494e454f48503b4130393031,
0x3b3b3b3b3b4e3b3b3b3b3b523b303b6f4c3b444d414c2052455454454c204e414943494e454f48503b4230393031,
0x3b3b3b3b3b4e3b3b3b3b3b523b303b6f4c3b4d454d2052455454454c204e414943494e454f48503b4330393031,
0x3b3b3b3b3b4e3b3b3b3b3b523b303b6f4c3b4e554e2052455454454c204e414943494e454f48503b4430393031,
0x3b3b3b3b3b4e3b3b3b3b3b523b303b6f4c3b4b4d45532052455454454c204e414943494e454f48503b4530393031,
0x3b3b3b3b3b4e3b3b3b3b3b523b303b6f4c3b4e49412052455454454c204e414943494e454f48503b4630393031,
0x3b3b3b3b3b4e3b3b3b3b3b523b303b6f4c3b45502052455454454c204e414943494e454f48503b3031393031,
0x3b3b3b3b3b4e3b3b3b3b3b523b303b6f4c3b454441532052455454454c204e414943494e454f48503b3131393031,
0x3b3b3b3b3b4e3b3b3b3b3b523b303b6f4c3b464f512052455454454c204e414943494e454f48503b3231393031,
0x3b3b3b3b3b4e3b3b3b3b3b523b303b6f4c3b48534f522052455454454c204e414943494e454f48503b3331393031,
0x3b3b3b3b3b4e3b3b3b3b3b523b303b6f4c3b4e4948532052455454454c204e414943494e454f48503b3431393031,
0x3b3b3b3b3b4e3b3b3b3b3b523b303b6f4c3b5541542052455454454c204e414943494e454f48503b3531393031,
0x3b3b3b3b3b4e3b313b3b3b3b523b303b6f4e3b454e4f205245424d554e204e414943494e454f48503b3631393031,
0x3b3b3b3b3b4e3b30313b3b3b3b523b303b6f4e3b4e4554205245424d554e204e414943494e454f48503b3731393031,
0x3b3b3b3b3b4e3b30323b3b3b3b523b303b6f4e3b59544e455754205245424d554e204e414943494e454f48503b3831393031,
0x3b3b3b3b3b4e3b3030313b3b3b3b523b303b6f4e3b444552444e554820454e4f205245424d554e204e414943494e454f48503b3931393031,
0x3b3b3b3b3b4e3b323b3b3b3b523b303b6f4e3b4f5754205245424d554e204e414943494e454f48503b4131393031,
0x3b3b3b3b3b4e3b333b3b3b3b523b303b6f4e3b4545524854205245424d554e204e414943494e454f48503b4231393031,
0x3b3b3b3b3b4e3b3b3b3b3b4e4f3b303b6f503b524f544152415045532044524f57204e414943494e454f48503b4631393031,
0x3b3b3b3b3b4e3b3b3b3b3b523b303b6f4c3b412052455454454c204e414944594c3b3032393031,
0x3b3b3b3b3b4e3b3b3b3b3b523b303b6f4c3b422052455454454c204e414944594c3b3132393031,
0x3b3b3b3b3b4e3b3b3b3b3b523b303b6f4c3b472052455454454c204e414944594c3b3232393031,
0x3b3b3b3b3b4e3b3b3b3b3b523b303b6f4c3b442052455454454c204e414944594c3b3332393031,
0x3b3b3b3b3b4e3b3b3b3b3b523b303b6f4c3b452052455454454c204e414944594c3b3432393031,
0x3b3b3b3b3b4e3b3b3b3b3b523b303b6f4c3b562052455454454c204e414944594c3b3532393031,
0x3b3b3b3b3b4e3b3b3b3b3b523b303b6f4c3b492052455454454c204e414944594c3b3632393031,
0x3b3b3b3b3b4e3b3b3b3b3b523b303b6f4c3b592052455454454c204e414944594c3b3732393031,
0x3b3b3b3b3b4e3b3b3b3b3b523b303b6f4c3b4b2052455454454c204e414944594c3b3832393031,
0x3b3b3b3b3b4e3b3b3b3b3b523b303b6f4c3b4c2052455454454c204e414944594c3b3932393031,
0x3b3b3b3b3b4e3b3b3b3b3b523b303b6f4c3b4d2052455454454c204e414944594c3b4132393031,
0x3b3b3b3b3b4e3b3b3b3b3b523b303b6f4c3b4e2052455454454c204e414944594c3b4232393031,
0x3b3b3b3b3b4e3b3b3b3b3b523b303b6f4c3b4f2052455454454c204e414944594c3b4332393031,
0x3b3b3b3b3b4e3b3b3b3b3b523b303b6f4c3b522052455454454c204e414944594c3b4432393031,
0x3b3b3b3b3b4e3b3b3b3b3b523b303b6f4c3b53532052455454454c204e414944594c3b4532393031,
0x3b3b3b3b3b4e3b3b3b3b3b523b303b6f4c3b542052455454454c204e414944594c3b4632393031,
0x3b3b3b3b3b4e3b3b3b3b3b523b303b6f4c3b552052455454454c204e414944594c3b3033393031,
0x3b3b3b3b3b4e3b3b3b3b3b523b303b6f4c3b462052455454454c204e414944594c3b3133393031,
0x3b3b3b3b3b4e3b3b3b3b3b523b303b6f4c3b512052455454454c204e414944594c3b3233393031,
0x3b3b3b3b3b4e3b3b3b3b3b523b303b6f4c3b532052455454454c204e414944594c3b3333393031,
0x3b3b3b3b3b4e3b3b3b3b3b523b303b6f4c3b54542052455454454c204e414944594c3b3433393031,
0x3b3b3b3b3b4e3b3b3b3b3b523b303b6f4c3b4e412052455454454c204e414944594c3b3533393031,
0x3b3b3b3b3b4e3b3b3b3b3b523b303b6f4c3b4e452052455454454c204e414944594c3b3633393031,
0x3b3b3b3b3b4e3b3b3b3b3b523b303b6f4c3b594c2052455454454c204e414944594c3b3733393031,
0x3b3b3b3b3b4e3b3b3b3b3b523b303b6f4c3b4e4e2052455454454c204e414944594c3b3833393031,
0x3b3b3b3b3b4e3b3b3b3b3b523b303b6f4c3b432052455454454c204e414944594c3b3933393031,
0x3b3b3b3b3b4e3b3b3b3b3b523b303b6f503b4b52414d2052414c55474e41495254204e414944594c3b4633393031,
0x3b3b3b3b3b4e3b3b3b3b3b523b303b6f4c3b412052455454454c2043494850594c474f5245494820434954494f52454d3b3038393031,
0x3b3b3b3b3b4e3b3b3b3b3b523b303b6f4c3b452052455454454c2043494850594c474f5245494820434954494f52454d3b3138393031,
0x3b3b3b3b3b4e3b3b3b3b3b523b303b6f4c3b492052455454454c2043494850594c474f5245494820434954494f52454d3b3238393031,
0x3b3b3b3b3b4e3b3b3b3b3b523b303b6f4c3b4f2052455454454c2043494850594c474f5245494820434954494f52454d3b3338393031,
0x3b3b3b3b3b4e3b3b3b3b3b523b303b6f4c3b41592052455454454c2043494850594c474f5245494820434954494f52454d3b3438393031,
0x3b3b3b3b3b4e3b3b3b3b3b523b303b6f4c3b41572052455454454c2043494850594c474f5245494820434954494f52454d3b3538393031,
0x3b3b3b3b3b4e3b3b3b3b3b523b303b6f4c3b41422052455454454c2043494850594c474f5245494820434954494f52454d3b3638393031,
0x3b3b3b3b3b4e3b3b3b3b3b523b303b6f4c3b322d41422052455454454c2043494850594c474f5245494820434954494f52454d3b3738393031,
0x3b3b3b3b3b4e3b3b3b3b3b523b303b6f4c3b41502052455454454c2043494850594c474f5245494820434954494f52454d3b3838393031,
0x3b3b3b3b3b4e3b3b3b3b3b523b303b6f4c3b414d2052455454454c2043494850594c474f5245494820434954494f52454d3b3938393031,
0x3b3b3b3b3b4e3b3b3b3b3b523b303b6f4c3b414e2052455454454c2043494850594c474f5245494820434954494f52454d3b4138393031,
0x3b3b3b3b3b4e3b3b3b3b3b523b303b6f4c3b322d414e2052455454454c2043494850594c474f5245494820434954494f52454d3b4238393031,
0x3b3b3b3b3b4e3b3b3b3b3b523b303b6f4c3b454e2052455454454c2043494850594c474f5245494820434954494f52454d3b4338393031,
0x3b3b3b3b3b4e3b3b3b3b3b523b303b6f4c3b322d454e2052455454454c2043494850594c474f5245494820434954494f52454d3b4438393031,
0x3b3b3b3b3b4e3b3b3b3b3b523b303b6f4c3b41522052455454454c2043494850594c474f5245494820434954494f52454d3b4538393031,
0x3b3b3b3b3b4e3b3b3b3b3b523b303b6f4c3b322d41522052455454454c2043494850594c474f5245494820434954494f52454d3b4638393031]

/-- src/u5e/props/UnicodeData.txt lines 18177-18432. -/
def rawUcd71 : List Nat := [
0x3b3b3b3b3b4e3b3b3b3b3b523b303b6f4c3b414c2052455454454c2043494850594c474f5245494820434954494f52454d3b3039393031,
0x3b3b3b3b3b4e3b3b3b3b3b523b303b6f4c3b41484b2052455454454c2043494850594c474f5245494820434954494f52454d3b3139393031,
0x3b3b3b3b3b4e3b3b3b3b3b523b303b6f4c3b4148482052455454454c2043494850594c474f5245494820434954494f52454d3b3239393031,
0x3b3b3b3b3b4e3b3b3b3b3b523b303b6f4c3b41532052455454454c2043494850594c474f5245494820434954494f52454d3b3339393031,
0x3b3b3b3b3b4e3b3b3b3b3b523b303b6f4c3b322d41532052455454454c2043494850594c474f5245494820434954494f52454d3b3439393031,
0x3b3b3b3b3b4e3b3b3b3b3b523b303b6f4c3b45532052455454454c2043494850594c474f5245494820434954494f52454d3b3539393031,
0x3b3b3b3b3b4e3b3b3b3b3b523b303b6f4c3b414b2052455454454c2043494850594c474f5245494820434954494f52454d3b3639393031,
0x3b3b3b3b3b4e3b3b3b3b3b523b303b6f4c3b41512052455454454c2043494850594c474f5245494820434954494f52454d3b3739393031,
0x3b3b3b3b3b4e3b3b3b3b3b523b303b6f4c3b41542052455454454c2043494850594c474f5245494820434954494f52454d3b3839393031,
0x3b3b3b3b3b4e3b3b3b3b3b523b303b6f4c3b322d41542052455454454c2043494850594c474f5245494820434954494f52454d3b3939393031,
0x3b3b3b3b3b4e3b3b3b3b3b523b303b6f4c3b45542052455454454c2043494850594c474f5245494820434954494f52454d3b4139393031,
0x3b3b3b3b3b4e3b3b3b3b3b523b303b6f4c3b322d45542052455454454c2043494850594c474f5245494820434954494f52454d3b4239393031,
0x3b3b3b3b3b4e3b3b3b3b3b523b303b6f4c3b4f542052455454454c2043494850594c474f5245494820434954494f52454d3b4339393031,
0x3b3b3b3b3b4e3b3b3b3b3b523b303b6f4c3b41442052455454454c2043494850594c474f5245494820434954494f52454d3b4439393031,
0x3b3b3b3b3b4e3b3b3b3b3b523b303b6f4c3b4a444956204c4f424d59532043494850594c474f5245494820434954494f52454d3b4539393031,
0x3b3b3b3b3b4e3b3b3b3b3b523b303b6f4c3b322d4a444956204c4f424d59532043494850594c474f5245494820434954494f52454d3b4639393031,
0x3b3b3b3b3b4e3b3b3b3b3b523b303b6f4c3b412052455454454c204556495352554320434954494f52454d3b3041393031,
0x3b3b3b3b3b4e3b3b3b3b3b523b303b6f4c3b452052455454454c204556495352554320434954494f52454d3b3141393031,
0x3b3b3b3b3b4e3b3b3b3b3b523b303b6f4c3b492052455454454c204556495352554320434954494f52454d3b3241393031,
0x3b3b3b3b3b4e3b3b3b3b3b523b303b6f4c3b4f2052455454454c204556495352554320434954494f52454d3b3341393031,
0x3b3b3b3b3b4e3b3b3b3b3b523b303b6f4c3b41592052455454454c204556495352554320434954494f52454d3b3441393031,
0x3b3b3b3b3b4e3b3b3b3b3b523b303b6f4c3b41572052455454454c204556495352554320434954494f52454d3b3541393031,
0x3b3b3b3b3b4e3b3b3b3b3b523b303b6f4c3b41422052455454454c204556495352554320434954494f52454d3b3641393031,
0x3b3b3b3b3b4e3b3b3b3b3b523b303b6f4c3b41502052455454454c204556495352554320434954494f52454d3b3741393031,
0x3b3b3b3b3b4e3b3b3b3b3b523b303b6f4c3b414d2052455454454c204556495352554320434954494f52454d3b3841393031,
0x3b3b3b3b3b4e3b3b3b3b3b523b303b6f4c3b414e2052455454454c204556495352554320434954494f52454d3b3941393031,
0x3b3b3b3b3b4e3b3b3b3b3b523b303b6f4c3b454e2052455454454c204556495352554320434954494f52454d3b4141393031,
0x3b3b3b3b3b4e3b3b3b3b3b523b303b6f4c3b41522052455454454c204556495352554320434954494f52454d3b4241393031,
0x3b3b3b3b3b4e3b3b3b3b3b523b303b6f4c3b414c2052455454454c204556495352554320434954494f52454d3b4341393031,
0x3b3b3b3b3b4e3b3b3b3b3b523b303b6f4c3b41484b2052455454454c204556495352554320434954494f52454d3b4441393031,
0x3b3b3b3b3b4e3b3b3b3b3b523b303b6f4c3b4148482052455454454c204556495352554320434954494f52454d3b4541393031,
0x3b3b3b3b3b4e3b3b3b3b3b523b303b6f4c3b41532052455454454c204556495352554320434954494f52454d3b4641393031,
0x3b3b3b3b3b4e3b3b3b3b3b523b303b6f4c3b415320434941484352412052455454454c204556495352554320434954494f52454d3b3042393031,
0x3b3b3b3b3b4e3b3b3b3b3b523b303b6f4c3b45532052455454454c204556495352554320434954494f52454d3b3142393031,
0x3b3b3b3b3b4e3b3b3b3b3b523b303b6f4c3b414b2052455454454c204556495352554320434954494f52454d3b3242393031,
0x3b3b3b3b3b4e3b3b3b3b3b523b303b6f4c3b41512052455454454c204556495352554320434954494f52454d3b3342393031,
0x3b3b3b3b3b4e3b3b3b3b3b523b303b6f4c3b41542052455454454c204556495352554320434954494f52454d3b3442393031,
0x3b3b3b3b3b4e3b3b3b3b3b523b303b6f4c3b45542052455454454c204556495352554320434954494f52454d3b3542393031,
0x3b3b3b3b3b4e3b3b3b3b3b523b303b6f4c3b4f542052455454454c204556495352554320434954494f52454d3b3642393031,
0x3b3b3b3b3b4e3b3b3b3b3b523b303b6f4c3b41442052455454454c204556495352554320434954494f52454d3b3742393031,
0x3b3b3b3b3b4e3b32312f31313b3b3b3b523b303b6f4e3b534854464c455754204e4556454c45204e4f495443415246204556495352554320434954494f52454d3b4342393031,
0x3b3b3b3b3b4e3b322f313b3b3b3b523b303b6f4e3b464c414820454e4f204e4f495443415246204556495352554320434954494f52454d3b4442393031,
0x3b3b3b3b3b4e3b3b3b3b3b523b303b6f4c3b544d52204d4152474f474f4c204556495352554320434954494f52454d3b4542393031,
0x3b3b3b3b3b4e3b3b3b3b3b523b303b6f4c3b4e4d49204d4152474f474f4c204556495352554320434954494f52454d3b4642393031,
0x3b3b3b3b3b4e3b313b3b3b3b523b303b6f4e3b454e4f205245424d554e204556495352554320434954494f52454d3b3043393031,
0x3b3b3b3b3b4e3b323b3b3b3b523b303b6f4e3b4f5754205245424d554e204556495352554320434954494f52454d3b3143393031,
0x3b3b3b3b3b4e3b333b3b3b3b523b303b6f4e3b4545524854205245424d554e204556495352554320434954494f52454d3b3243393031,
0x3b3b3b3b3b4e3b343b3b3b3b523b303b6f4e3b52554f46205245424d554e204556495352554320434954494f52454d3b3343393031,
0x3b3b3b3b3b4e3b353b3b3b3b523b303b6f4e3b45564946205245424d554e204556495352554320434954494f52454d3b3443393031,
0x3b3b3b3b3b4e3b363b3b3b3b523b303b6f4e3b584953205245424d554e204556495352554320434954494f52454d3b3543393031,
0x3b3b3b3b3b4e3b373b3b3b3b523b303b6f4e3b4e45564553205245424d554e204556495352554320434954494f52454d3b3643393031,
0x3b3b3b3b3b4e3b383b3b3b3b523b303b6f4e3b5448474945205245424d554e204556495352554320434954494f52454d3b3743393031,
0x3b3b3b3b3b4e3b393b3b3b3b523b303b6f4e3b454e494e205245424d554e204556495352554320434954494f52454d3b3843393031,
0x3b3b3b3b3b4e3b30313b3b3b3b523b303b6f4e3b4e4554205245424d554e204556495352554320434954494f52454d3b3943393031,
0x3b3b3b3b3b4e3b30323b3b3b3b523b303b6f4e3b59544e455754205245424d554e204556495352554320434954494f52454d3b4143393031,
0x3b3b3b3b3b4e3b30333b3b3b3b523b303b6f4e3b595452494854205245424d554e204556495352554320434954494f52454d3b4243393031,
0x3b3b3b3b3b4e3b30343b3b3b3b523b303b6f4e3b5954524f46205245424d554e204556495352554320434954494f52454d3b4343393031,
0x3b3b3b3b3b4e3b30353b3b3b3b523b303b6f4e3b5954464946205245424d554e204556495352554320434954494f52454d3b4443393031,
0x3b3b3b3b3b4e3b30363b3b3b3b523b303b6f4e3b5954584953205245424d554e204556495352554320434954494f52454d3b4543393031,
0x3b3b3b3b3b4e3b30373b3b3b3b523b303b6f4e3b59544e45564553205245424d554e204556495352554320434954494f52454d3b4643393031,
0x3b3b3b3b3b4e3b3030313b3b3b3b523b303b6f4e3b444552444e554820454e4f205245424d554e204556495352554320434954494f52454d3b3244393031,
0x3b3b3b3b3b4e3b3030323b3b3b3b523b303b6f4e3b444552444e5548204f5754205245424d554e204556495352554320434954494f52454d3b3344393031,
0x3b3b3b3b3b4e3b3030333b3b3b3b523b303b6f4e3b444552444e5548204545524854205245424d554e204556495352554320434954494f52454d3b3444393031,
0x3b3b3b3b3b4e3b3030343b3b3b3b523b303b6f4e3b444552444e55482052554f46205245424d554e204556495352554320434954494f52454d3b3544393031,
0x3b3b3b3b3b4e3b3030353b3b3b3b523b303b6f4e3b444552444e55482045564946205245424d554e204556495352554320434954494f52454d3b3644393031,
0x3b3b3b3b3b4e3b3030363b3b3b3b523b303b6f4e3b444552444e554820584953205245424d554e204556495352554320434954494f52454d3b3744393031,
0x3b3b3b3b3b4e3b3030373b3b3b3b523b303b6f4e3b444552444e5548204e45564553205245424d554e204556495352554320434954494f52454d3b3844393031,
0x3b3b3b3b3b4e3b3030383b3b3b3b523b303b6f4e3b444552444e5548205448474945205245424d554e204556495352554320434954494f52454d3b3944393031,
0x3b3b3b3b3b4e3b3030393b3b3b3b523b303b6f4e3b444552444e554820454e494e205245424d554e204556495352554320434954494f52454d3b4144393031,
0x3b3b3b3b3b4e3b303030313b3b3b3b523b303b6f4e3b444e4153554f485420454e4f205245424d554e204556495352554320434954494f52454d3b4244393031,
0x3b3b3b3b3b4e3b303030323b3b3b3b523b303b6f4e3b444e4153554f4854204f5754205245424d554e204556495352554320434954494f52454d3b4344393031,
0x3b3b3b3b3b4e3b303030333b3b3b3b523b303b6f4e3b444e4153554f4854204545524854205245424d554e204556495352554320434954494f52454d3b4444393031,
0x3b3b3b3b3b4e3b303030343b3b3b3b523b303b6f4e3b444e4153554f48542052554f46205245424d554e204556495352554320434954494f52454d3b4544393031,
0x3b3b3b3b3b4e3b303030353b3b3b3b523b303b6f4e3b444e4153554f48542045564946205245424d554e204556495352554320434954494f52454d3b4644393031,
0x3b3b3b3b3b4e3b303030363b3b3b3b523b303b6f4e3b444e4153554f485420584953205245424d554e204556495352554320434954494f52454d3b3045393031,
0x3b3b3b3b3b4e3b303030373b3b3b3b523b303b6f4e3b444e4153554f4854204e45564553205245424d554e204556495352554320434954494f52454d3b3145393031,
0x3b3b3b3b3b4e3b303030383b3b3b3b523b303b6f4e3b444e4153554f4854205448474945205245424d554e204556495352554320434954494f52454d3b3245393031,
0x3b3b3b3b3b4e3b303030393b3b3b3b523b303b6f4e3b444e4153554f485420454e494e205245424d554e204556495352554320434954494f52454d3b3345393031,
0x3b3b3b3b3b4e3b30303030313b3b3b3b523b303b6f4e3b444e4153554f4854204e4554205245424d554e204556495352554320434954494f52454d3b3445393031,
0x3b3b3b3b3b4e3b30303030323b3b3b3b523b303b6f4e3b444e4153554f48542059544e455754205245424d554e204556495352554320434954494f52454d3b3545393031,
0x3b3b3b3b3b4e3b30303030333b3b3b3b523b303b6f4e3b444e4153554f485420595452494854205245424d554e204556495352554320434954494f52454d3b3645393031,
0x3b3b3b3b3b4e3b30303030343b3b3b3b523b303b6f4e3b444e4153554f4854205954524f46205245424d554e204556495352554320434954494f52454d3b3745393031,
0x3b3b3b3b3b4e3b30303030353b3b3b3b523b303b6f4e3b444e4153554f4854205954464946205245424d554e204556495352554320434954494f52454d3b3845393031,
0x3b3b3b3b3b4e3b30303030363b3b3b3b523b303b6f4e3b444e4153554f4854205954584953205245424d554e204556495352554320434954494f52454d3b3945393031,
0x3b3b3b3b3b4e3b30303030373b3b3b3b523b303b6f4e3b444e4153554f48542059544e45564553205245424d554e204556495352554320434954494f52454d3b4145393031,
0x3b3b3b3b3b4e3b30303030383b3b3b3b523b303b6f4e3b444e4153554f485420595448474945205245424d554e204556495352554320434954494f52454d3b4245393031,
0x3b3b3b3b3b4e3b30303030393b3b3b3b523b303b6f4e3b444e4153554f4854205954454e494e205245424d554e204556495352554320434954494f52454d3b4345393031,
0x3b3b3b3b3b4e3b3030303030313b3b3b3b523b303b6f4e3b444e4153554f485420444552444e554820454e4f205245424d554e204556495352554320434954494f52454d3b4445393031,
0x3b3b3b3b3b4e3b3030303030323b3b3b3b523b303b6f4e3b444e4153554f485420444552444e5548204f5754205245424d554e204556495352554320434954494f52454d3b4545393031,
0x3b3b3b3b3b4e3b3030303030333b3b3b3b523b303b6f4e3b444e4153554f485420444552444e5548204545524854205245424d554e204556495352554320434954494f52454d3b4645393031,
0x3b3b3b3b3b4e3b3030303030343b3b3b3b523b303b6f4e3b444e4153554f485420444552444e55482052554f46205245424d554e204556495352554320434954494f52454d3b3046393031,
0x3b3b3b3b3b4e3b3030303030353b3b3b3b523b303b6f4e3b444e4153554f485420444552444e55482045564946205245424d554e204556495352554320434954494f52454d3b3146393031,
0x3b3b3b3b3b4e3b3030303030363b3b3b3b523b303b6f4e3b444e4153554f485420444552444e554820584953205245424d554e204556495352554320434954494f52454d3b3246393031,
0x3b3b3b3b3b4e3b3030303030373b3b3b3b523b303b6f4e3b444e4153554f485420444552444e5548204e45564553205245424d554e204556495352554320434954494f52454d3b3346393031,
0x3b3b3b3b3b4e3b3030303030383b3b3b3b523b303b6f4e3b444e4153554f485420444552444e5548205448474945205245424d554e204556495352554320434954494f52454d3b3446393031,
0x3b3b3b3b3b4e3b3030303030393b3b3b3b523b303b6f4e3b444e4153554f485420444552444e554820454e494e205245424d554e204556495352554320434954494f52454d3b3546393031,
0x3b3b3b3b3b4e3b32312f313b3b3b3b523b303b6f4e3b4854464c45575420454e4f204e4f495443415246204556495352554320434954494f52454d3b3646393031,
0x3b3b3b3b3b4e3b32312f323b3b3b3b523b303b6f4e3b534854464c455754204f5754204e4f495443415246204556495352554320434954494f52454d3b3746393031,
0x3b3b3b3b3b4e3b32312f333b3b3b3b523b303b6f4e3b534854464c455754204545524854204e4f495443415246204556495352554320434954494f52454d3b3846393031,
0x3b3b3b3b3b4e3b32312f343b3b3b3b523b303b6f4e3b534854464c4557542052554f46204e4f495443415246204556495352554320434954494f52454d3b3946393031,
0x3b3b3b3b3b4e3b32312f353b3b3b3b523b303b6f4e3b534854464c4557542045564946204e4f495443415246204556495352554320434954494f52454d3b4146393031,
0x3b3b3b3b3b4e3b32312f363b3b3b3b523b303b6f4e3b534854464c45575420584953204e4f495443415246204556495352554320434954494f52454d3b4246393031,
0x3b3b3b3b3b4e3b32312f373b3b3b3b523b303b6f4e3b534854464c455754204e45564553204e4f495443415246204556495352554320434954494f52454d3b4346393031,
0x3b3b3b3b3b4e3b32312f383b3b3b3b523b303b6f4e3b534854464c455754205448474945204e4f495443415246204556495352554320434954494f52454d3b4446393031,
0x3b3b3b3b3b4e3b32312f393b3b3b3b523b303b6f4e3b534854464c45575420454e494e204e4f495443415246204556495352554320434954494f52454d3b4546393031,
0x3b3b3b3b3b4e3b32312f30313b3b3b3b523b303b6f4e3b534854464c455754204e4554204e4f495443415246204556495352554320434954494f52454d3b4646393031,
0x3b3b3b3b3b4e3b3b3b3b3b523b303b6f4c3b412052455454454c2049485448534f5241484b3b3030413031,
0x3b3b3b3b3b4e3b3b3b3b3b4d534e3b303b6e4d3b49204e474953204c45574f562049485448534f5241484b3b3130413031,
0x3b3b3b3b3b4e3b3b3b3b3b4d534e3b303b6e4d3b55204e474953204c45574f562049485448534f5241484b3b3230413031,
0x3b3b3b3b3b4e3b3b3b3b3b4d534e3b303b6e4d3b522043494c41434f56204e474953204c45574f562049485448534f5241484b3b3330413031,
0x3b3b3b3b3b4e3b3b3b3b3b4d534e3b303b6e4d3b45204e474953204c45574f562049485448534f5241484b3b3530413031,
0x3b3b3b3b3b4e3b3b3b3b3b4d534e3b303b6e4d3b4f204e474953204c45574f562049485448534f5241484b3b3630413031,
0x3b3b3b3b3b4e3b3b3b3b3b4d534e3b303b6e4d3b4b52414d204854474e454c204c45574f562049485448534f5241484b3b4330413031,
0x3b3b3b3b3b4e3b3b3b3b3b4d534e3b3032323b6e4d3b574f4c454220474e495220454c42554f44204e4749532049485448534f5241484b3b4430413031,
0x3b3b3b3b3b4e3b3b3b3b3b4d534e3b303b6e4d3b4152415653554e41204e4749532049485448534f5241484b3b4530413031,
0x3b3b3b3b3b4e3b3b3b3b3b4d534e3b3033323b6e4d3b41475241534956204e4749532049485448534f5241484b3b4630413031,
0x3b3b3b3b3b4e3b3b3b3b3b523b303b6f4c3b414b2052455454454c2049485448534f5241484b3b3031413031,
0x3b3b3b3b3b4e3b3b3b3b3b523b303b6f4c3b41484b2052455454454c2049485448534f5241484b3b3131413031,
0x3b3b3b3b3b4e3b3b3b3b3b523b303b6f4c3b41472052455454454c2049485448534f5241484b3b3231413031,
0x3b3b3b3b3b4e3b3b3b3b3b523b303b6f4c3b4148472052455454454c2049485448534f5241484b3b3331413031,
0x3b3b3b3b3b4e3b3b3b3b3b523b303b6f4c3b41432052455454454c2049485448534f5241484b3b3531413031,
0x3b3b3b3b3b4e3b3b3b3b3b523b303b6f4c3b4148432052455454454c2049485448534f5241484b3b3631413031,
0x3b3b3b3b3b4e3b3b3b3b3b523b303b6f4c3b414a2052455454454c2049485448534f5241484b3b3731413031,
0x3b3b3b3b3b4e3b3b3b3b3b523b303b6f4c3b41594e2052455454454c2049485448534f5241484b3b3931413031,
0x3b3b3b3b3b4e3b3b3b3b3b523b303b6f4c3b4154542052455454454c2049485448534f5241484b3b4131413031,
0x3b3b3b3b3b4e3b3b3b3b3b523b303b6f4c3b414854542052455454454c2049485448534f5241484b3b4231413031,
0x3b3b3b3b3b4e3b3b3b3b3b523b303b6f4c3b4144442052455454454c2049485448534f5241484b3b4331413031,
0x3b3b3b3b3b4e3b3b3b3b3b523b303b6f4c3b414844442052455454454c2049485448534f5241484b3b4431413031,
0x3b3b3b3b3b4e3b3b3b3b3b523b303b6f4c3b414e4e2052455454454c2049485448534f5241484b3b4531413031,
0x3b3b3b3b3b4e3b3b3b3b3b523b303b6f4c3b41542052455454454c2049485448534f5241484b3b4631413031,
0x3b3b3b3b3b4e3b3b3b3b3b523b303b6f4c3b4148542052455454454c2049485448534f5241484b3b3032413031,
0x3b3b3b3b3b4e3b3b3b3b3b523b303b6f4c3b41442052455454454c2049485448534f5241484b3b3132413031,
0x3b3b3b3b3b4e3b3b3b3b3b523b303b6f4c3b4148442052455454454c2049485448534f5241484b3b3232413031,
0x3b3b3b3b3b4e3b3b3b3b3b523b303b6f4c3b414e2052455454454c2049485448534f5241484b3b3332413031,
0x3b3b3b3b3b4e3b3b3b3b3b523b303b6f4c3b41502052455454454c2049485448534f5241484b3b3432413031,
0x3b3b3b3b3b4e3b3b3b3b3b523b303b6f4c3b4148502052455454454c2049485448534f5241484b3b3532413031,
0x3b3b3b3b3b4e3b3b3b3b3b523b303b6f4c3b41422052455454454c2049485448534f5241484b3b3632413031,
0x3b3b3b3b3b4e3b3b3b3b3b523b303b6f4c3b4148422052455454454c2049485448534f5241484b3b3732413031,
0x3b3b3b3b3b4e3b3b3b3b3b523b303b6f4c3b414d2052455454454c2049485448534f5241484b3b3832413031,
0x3b3b3b3b3b4e3b3b3b3b3b523b303b6f4c3b41592052455454454c2049485448534f5241484b3b3932413031,
0x3b3b3b3b3b4e3b3b3b3b3b523b303b6f4c3b41522052455454454c2049485448534f5241484b3b4132413031,
0x3b3b3b3b3b4e3b3b3b3b3b523b303b6f4c3b414c2052455454454c2049485448534f5241484b3b4232413031,
0x3b3b3b3b3b4e3b3b3b3b3b523b303b6f4c3b41562052455454454c2049485448534f5241484b3b4332413031,
0x3b3b3b3b3b4e3b3b3b3b3b523b303b6f4c3b4148532052455454454c2049485448534f5241484b3b4432413031,
0x3b3b3b3b3b4e3b3b3b3b3b523b303b6f4c3b4153532052455454454c2049485448534f5241484b3b4532413031,
0x3b3b3b3b3b4e3b3b3b3b3b523b303b6f4c3b41532052455454454c2049485448534f5241484b3b4632413031,
0x3b3b3b3b3b4e3b3b3b3b3b523b303b6f4c3b415a2052455454454c2049485448534f5241484b3b3033413031,
0x3b3b3b3b3b4e3b3b3b3b3b523b303b6f4c3b41482052455454454c2049485448534f5241484b3b3133413031,
0x3b3b3b3b3b4e3b3b3b3b3b523b303b6f4c3b414b4b2052455454454c2049485448534f5241484b3b3233413031,
0x3b3b3b3b3b4e3b3b3b3b3b523b303b6f4c3b41485454542052455454454c2049485448534f5241484b3b3333413031,
0x3b3b3b3b3b4e3b3b3b3b3b4d534e3b3033323b6e4d3b45564f424120524142204e4749532049485448534f5241484b3b3833413031,
0x3b3b3b3b3b4e3b3b3b3b3b4d534e3b313b6e4d3b4144554143204e4749532049485448534f5241484b3b3933413031,
0x3b3b3b3b3b4e3b3b3b3b3b4d534e3b3032323b6e4d3b574f4c454220544f44204e4749532049485448534f5241484b3b4133413031,
0x3b3b3b3b3b4e3b3b3b3b3b4d534e3b393b6e4d3b414d415249562049485448534f5241484b3b4633413031,
0x3b3b3b3b3b4e3b313b313b3b3b523b303b6f4e3b454e4f2054494749442049485448534f5241484b3b3034413031,
0x3b3b3b3b3b4e3b323b323b3b3b523b303b6f4e3b4f57542054494749442049485448534f5241484b3b3134413031,
0x3b3b3b3b3b4e3b333b333b3b3b523b303b6f4e3b45455248542054494749442049485448534f5241484b3b3234413031,
0x3b3b3b3b3b4e3b343b343b3b3b523b303b6f4e3b52554f462054494749442049485448534f5241484b3b3334413031,
0x3b3b3b3b3b4e3b30313b3b3b3b523b303b6f4e3b4e4554205245424d554e2049485448534f5241484b3b3434413031,
0x3b3b3b3b3b4e3b30323b3b3b3b523b303b6f4e3b59544e455754205245424d554e2049485448534f5241484b3b3534413031,
0x3b3b3b3b3b4e3b3030313b3b3b3b523b303b6f4e3b444552444e554820454e4f205245424d554e2049485448534f5241484b3b3634413031,
0x3b3b3b3b3b4e3b303030313b3b3b3b523b303b6f4e3b444e4153554f485420454e4f205245424d554e2049485448534f5241484b3b3734413031,
0x3b3b3b3b3b4e3b3b3b3b3b523b303b6f503b544f44204e4f4954415554434e55502049485448534f5241484b3b3035413031,
0x3b3b3b3b3b4e3b3b3b3b3b523b303b6f503b454c43524943204c4c414d53204e4f4954415554434e55502049485448534f5241484b3b3135413031,
0x3b3b3b3b3b4e3b3b3b3b3b523b303b6f503b454c43524943204e4f4954415554434e55502049485448534f5241484b3b3235413031,
0x3b3b3b3b3b4e3b3b3b3b3b523b303b6f503b52414220544e454353455243204e4f4954415554434e55502049485448534f5241484b3b3335413031,
0x3b3b3b3b3b4e3b3b3b3b3b523b303b6f503b4d414c41474e414d204e4f4954415554434e55502049485448534f5241484b3b3435413031,
0x3b3b3b3b3b4e3b3b3b3b3b523b303b6f503b5355544f4c204e4f4954415554434e55502049485448534f5241484b3b3535413031,
0x3b3b3b3b3b4e3b3b3b3b3b523b303b6f503b41444e4144204e4f4954415554434e55502049485448534f5241484b3b3635413031,
0x3b3b3b3b3b4e3b3b3b3b3b523b303b6f503b41444e414420454c42554f44204e4f4954415554434e55502049485448534f5241484b3b3735413031,
0x3b3b3b3b3b4e3b3b3b3b3b523b303b6f503b53454e494c204e4f4954415554434e55502049485448534f5241484b3b3835413031,
0x3b3b3b3b3b4e3b3b3b3b3b523b303b6f4c3b45482052455454454c204e414942415241204854554f5320444c4f3b3036413031,
0x3b3b3b3b3b4e3b3b3b3b3b523b303b6f4c3b4844454d414c2052455454454c204e414942415241204854554f5320444c4f3b3136413031,
0x3b3b3b3b3b4e3b3b3b3b3b523b303b6f4c3b485445482052455454454c204e414942415241204854554f5320444c4f3b3236413031,
0x3b3b3b3b3b4e3b3b3b3b3b523b303b6f4c3b4d454d2052455454454c204e414942415241204854554f5320444c4f3b3336413031,
0x3b3b3b3b3b4e3b3b3b3b3b523b303b6f4c3b48504f512052455454454c204e414942415241204854554f5320444c4f3b3436413031,
0x3b3b3b3b3b4e3b3b3b3b3b523b303b6f4c3b5741572052455454454c204e414942415241204854554f5320444c4f3b3536413031,
0x3b3b3b3b3b4e3b3b3b3b3b523b303b6f4c3b4e4948532052455454454c204e414942415241204854554f5320444c4f3b3636413031,
0x3b3b3b3b3b4e3b3b3b3b3b523b303b6f4c3b485345522052455454454c204e414942415241204854554f5320444c4f3b3736413031,
0x3b3b3b3b3b4e3b3b3b3b3b523b303b6f4c3b485445422052455454454c204e414942415241204854554f5320444c4f3b3836413031,
0x3b3b3b3b3b4e3b3b3b3b3b523b303b6f4c3b5741542052455454454c204e414942415241204854554f5320444c4f3b3936413031,
0x3b3b3b3b3b4e3b3b3b3b3b523b303b6f4c3b5441532052455454454c204e414942415241204854554f5320444c4f3b4136413031,
0x3b3b3b3b3b4e3b3b3b3b3b523b303b6f4c3b4850414b2052455454454c204e414942415241204854554f5320444c4f3b4236413031,
0x3b3b3b3b3b4e3b3b3b3b3b523b303b6f4c3b4e554e2052455454454c204e414942415241204854554f5320444c4f3b4336413031,
0x3b3b3b3b3b4e3b3b3b3b3b523b303b6f4c3b485445484b2052455454454c204e414942415241204854554f5320444c4f3b4436413031,
0x3b3b3b3b3b4e3b3b3b3b3b523b303b6f4c3b45484441532052455454454c204e414942415241204854554f5320444c4f3b4536413031,
0x3b3b3b3b3b4e3b3b3b3b3b523b303b6f4c3b484b454d41532052455454454c204e414942415241204854554f5320444c4f3b4636413031,
0x3b3b3b3b3b4e3b3b3b3b3b523b303b6f4c3b45462052455454454c204e414942415241204854554f5320444c4f3b3037413031,
0x3b3b3b3b3b4e3b3b3b3b3b523b303b6f4c3b46454c412052455454454c204e414942415241204854554f5320444c4f3b3137413031,
0x3b3b3b3b3b4e3b3b3b3b3b523b303b6f4c3b4e59412052455454454c204e414942415241204854554f5320444c4f3b3237413031,
0x3b3b3b3b3b4e3b3b3b3b3b523b303b6f4c3b4548444148442052455454454c204e414942415241204854554f5320444c4f3b3337413031,
0x3b3b3b3b3b4e3b3b3b3b3b523b303b6f4c3b4c454d49472052455454454c204e414942415241204854554f5320444c4f3b3437413031,
0x3b3b3b3b3b4e3b3b3b3b3b523b303b6f4c3b4854454c41442052455454454c204e414942415241204854554f5320444c4f3b3537413031,
0x3b3b3b3b3b4e3b3b3b3b3b523b303b6f4c3b4e594148472052455454454c204e414942415241204854554f5320444c4f3b3637413031,
0x3b3b3b3b3b4e3b3b3b3b3b523b303b6f4c3b485445542052455454454c204e414942415241204854554f5320444c4f3b3737413031,
0x3b3b3b3b3b4e3b3b3b3b3b523b303b6f4c3b4e59415a2052455454454c204e414942415241204854554f5320444c4f3b3837413031,
0x3b3b3b3b3b4e3b3b3b3b3b523b303b6f4c3b4854454c4148442052455454454c204e414942415241204854554f5320444c4f3b3937413031,
0x3b3b3b3b3b4e3b3b3b3b3b523b303b6f4c3b48444f592052455454454c204e414942415241204854554f5320444c4f3b4137413031,
0x3b3b3b3b3b4e3b3b3b3b3b523b303b6f4c3b574148542052455454454c204e414942415241204854554f5320444c4f3b4237413031,
0x3b3b3b3b3b4e3b3b3b3b3b523b303b6f4c3b48544548542052455454454c204e414942415241204854554f5320444c4f3b4337413031,
0x3b3b3b3b3b4e3b313b3b3b3b523b303b6f4e3b454e4f205245424d554e204e414942415241204854554f5320444c4f3b4437413031,
0x3b3b3b3b3b4e3b30353b3b3b3b523b303b6f4e3b5954464946205245424d554e204e414942415241204854554f5320444c4f3b4537413031,
0x3b3b3b3b3b4e3b3b3b3b3b523b303b6f503b524f54414349444e4920434952454d554e204e414942415241204854554f5320444c4f3b4637413031,
0x3b3b3b3b3b4e3b3b3b3b3b523b303b6f4c3b4845482052455454454c204e414942415241204854524f4e20444c4f3b3038413031,
0x3b3b3b3b3b4e3b3b3b3b3b523b303b6f4c3b4d414c2052455454454c204e414942415241204854524f4e20444c4f3b3138413031,
0x3b3b3b3b3b4e3b3b3b3b3b523b303b6f4c3b4841482052455454454c204e414942415241204854524f4e20444c4f3b3238413031,
0x3b3b3b3b3b4e3b3b3b3b3b523b303b6f4c3b4d45454d2052455454454c204e414942415241204854524f4e20444c4f3b3338413031,
0x3b3b3b3b3b4e3b3b3b3b3b523b303b6f4c3b4641512052455454454c204e414942415241204854524f4e20444c4f3b3438413031,
0x3b3b3b3b3b4e3b3b3b3b3b523b303b6f4c3b5741572052455454454c204e414942415241204854524f4e20444c4f3b3538413031,
0x3b3b3b3b3b4e3b3b3b3b3b523b303b6f4c3b322d53452052455454454c204e414942415241204854524f4e20444c4f3b3638413031,
0x3b3b3b3b3b4e3b3b3b3b3b523b303b6f4c3b4845522052455454454c204e414942415241204854524f4e20444c4f3b3738413031,
0x3b3b3b3b3b4e3b3b3b3b3b523b303b6f4c3b4845422052455454454c204e414942415241204854524f4e20444c4f3b3838413031,
0x3b3b3b3b3b4e3b3b3b3b3b523b303b6f4c3b4845542052455454454c204e414942415241204854524f4e20444c4f3b3938413031,
0x3b3b3b3b3b4e3b3b3b3b3b523b303b6f4c3b312d53452052455454454c204e414942415241204854524f4e20444c4f3b4138413031,
0x3b3b3b3b3b4e3b3b3b3b3b523b303b6f4c3b46414b2052455454454c204e414942415241204854524f4e20444c4f3b4238413031,
0x3b3b3b3b3b4e3b3b3b3b3b523b303b6f4c3b4e4f4f4e2052455454454c204e414942415241204854524f4e20444c4f3b4338413031,
0x3b3b3b3b3b4e3b3b3b3b3b523b303b6f4c3b4841484b2052455454454c204e414942415241204854524f4e20444c4f3b4438413031,
0x3b3b3b3b3b4e3b3b3b3b3b523b303b6f4c3b4441532052455454454c204e414942415241204854524f4e20444c4f3b4538413031,
0x3b3b3b3b3b4e3b3b3b3b3b523b303b6f4c3b332d53452052455454454c204e414942415241204854524f4e20444c4f3b4638413031,
0x3b3b3b3b3b4e3b3b3b3b3b523b303b6f4c3b4845462052455454454c204e414942415241204854524f4e20444c4f3b3039413031,
0x3b3b3b3b3b4e3b3b3b3b3b523b303b6f4c3b46454c412052455454454c204e414942415241204854524f4e20444c4f3b3139413031,
0x3b3b3b3b3b4e3b3b3b3b3b523b303b6f4c3b4e49412052455454454c204e414942415241204854524f4e20444c4f3b3239413031,
0x3b3b3b3b3b4e3b3b3b3b3b523b303b6f4c3b4441442052455454454c204e414942415241204854524f4e20444c4f3b3339413031,
0x3b3b3b3b3b4e3b3b3b3b3b523b303b6f4c3b4d4545472052455454454c204e414942415241204854524f4e20444c4f3b3439413031,
0x3b3b3b3b3b4e3b3b3b3b3b523b303b6f4c3b4c41442052455454454c204e414942415241204854524f4e20444c4f3b3539413031,
0x3b3b3b3b3b4e3b3b3b3b3b523b303b6f4c3b4e494148472052455454454c204e414942415241204854524f4e20444c4f3b3639413031,
0x3b3b3b3b3b4e3b3b3b3b3b523b303b6f4c3b4841542052455454454c204e414942415241204854524f4e20444c4f3b3739413031,
0x3b3b3b3b3b4e3b3b3b3b3b523b303b6f4c3b4e49415a2052455454454c204e414942415241204854524f4e20444c4f3b3839413031,
0x3b3b3b3b3b4e3b3b3b3b3b523b303b6f4c3b4c4148542052455454454c204e414942415241204854524f4e20444c4f3b3939413031,
0x3b3b3b3b3b4e3b3b3b3b3b523b303b6f4c3b4845592052455454454c204e414942415241204854524f4e20444c4f3b4139413031,
0x3b3b3b3b3b4e3b3b3b3b3b523b303b6f4c3b484548542052455454454c204e414942415241204854524f4e20444c4f3b4239413031,
0x3b3b3b3b3b4e3b3b3b3b3b523b303b6f4c3b48415a2052455454454c204e414942415241204854524f4e20444c4f3b4339413031,
0x3b3b3b3b3b4e3b313b3b3b3b523b303b6f4e3b454e4f205245424d554e204e414942415241204854524f4e20444c4f3b4439413031,
0x3b3b3b3b3b4e3b30313b3b3b3b523b303b6f4e3b4e4554205245424d554e204e414942415241204854524f4e20444c4f3b4539413031,
0x3b3b3b3b3b4e3b30323b3b3b3b523b303b6f4e3b59544e455754205245424d554e204e414942415241204854524f4e20444c4f3b4639413031,
0x3b3b3b3b3b4e3b3b3b3b3b523b303b6f4c3b4850454c412052455454454c204e4145414843494e414d3b3043413031,
0x3b3b3b3b3b4e3b3b3b3b3b523b303b6f4c3b485445422052455454454c204e4145414843494e414d3b3143413031,
0x3b3b3b3b3b4e3b3b3b3b3b523b303b6f4c3b48544548422052455454454c204e4145414843494e414d3b3243413031,
0x3b3b3b3b3b4e3b3b3b3b3b523b303b6f4c3b4c454d49472052455454454c204e4145414843494e414d3b3343413031,
0x3b3b3b3b3b4e3b3b3b3b3b523b303b6f4c3b4c454d4948472052455454454c204e4145414843494e414d3b3443413031,
0x3b3b3b3b3b4e3b3b3b3b3b523b303b6f4c3b4854454c41442052455454454c204e4145414843494e414d3b3543413031,
0x3b3b3b3b3b4e3b3b3b3b3b523b303b6f4c3b45482052455454454c204e4145414843494e414d3b3643413031,
0x3b3b3b3b3b4e3b3b3b3b3b523b303b6f4c3b5741572052455454454c204e4145414843494e414d3b3743413031,
0x3b3b3b3b3b4e3b3b3b3b3b523b303b6f533b4455204e474953204e4145414843494e414d3b3843413031,
0x3b3b3b3b3b4e3b3b3b3b3b523b303b6f4c3b4e4959415a2052455454454c204e4145414843494e414d3b3943413031,
0x3b3b3b3b3b4e3b3b3b3b3b523b303b6f4c3b4e495941485a2052455454454c204e4145414843494e414d3b4143413031,
0x3b3b3b3b3b4e3b3b3b3b3b523b303b6f4c3b4e4959414a2052455454454c204e4145414843494e414d3b4243413031,
0x3b3b3b3b3b4e3b3b3b3b3b523b303b6f4c3b4e495941484a2052455454454c204e4145414843494e414d3b4343413031,
0x3b3b3b3b3b4e3b3b3b3b3b523b303b6f4c3b485445482052455454454c204e4145414843494e414d3b4443413031,
0x3b3b3b3b3b4e3b3b3b3b3b523b303b6f4c3b485445542052455454454c204e4145414843494e414d3b4543413031,
0x3b3b3b3b3b4e3b3b3b3b3b523b303b6f4c3b48444f592052455454454c204e4145414843494e414d3b4643413031,
0x3b3b3b3b3b4e3b3b3b3b3b523b303b6f4c3b4850414b2052455454454c204e4145414843494e414d3b3044413031,
0x3b3b3b3b3b4e3b3b3b3b3b523b303b6f4c3b485041582052455454454c204e4145414843494e414d3b3144413031,
0x3b3b3b3b3b4e3b3b3b3b3b523b303b6f4c3b485041484b2052455454454c204e4145414843494e414d3b3244413031,
0x3b3b3b3b3b4e3b3b3b3b3b523b303b6f4c3b4844454d414c2052455454454c204e4145414843494e414d3b3344413031,
0x3b3b3b3b3b4e3b3b3b3b3b523b303b6f4c3b4844454d4148442052455454454c204e4145414843494e414d3b3444413031]

/-- src/u5e/props/UnicodeData.txt lines 18433-18688. -/
def rawUcd72 : List Nat := [
0x3b3b3b3b3b4e3b3b3b3b3b523b303b6f4c3b4844454d4148542052455454454c204e4145414843494e414d3b3544413031,
0x3b3b3b3b3b4e3b3b3b3b3b523b303b6f4c3b4d454d2052455454454c204e4145414843494e414d3b3644413031,
0x3b3b3b3b3b4e3b3b3b3b3b523b303b6f4c3b4e554e2052455454454c204e4145414843494e414d3b3744413031,
0x3b3b3b3b3b4e3b3b3b3b3b523b303b6f4c3b484b454d41532052455454454c204e4145414843494e414d3b3844413031,
0x3b3b3b3b3b4e3b3b3b3b3b523b303b6f4c3b4e4959412052455454454c204e4145414843494e414d3b3944413031,
0x3b3b3b3b3b4e3b3b3b3b3b523b303b6f4c3b4e495941412052455454454c204e4145414843494e414d3b4144413031,
0x3b3b3b3b3b4e3b3b3b3b3b523b303b6f4c3b45502052455454454c204e4145414843494e414d3b4244413031,
0x3b3b3b3b3b4e3b3b3b3b3b523b303b6f4c3b45462052455454454c204e4145414843494e414d3b4344413031,
0x3b3b3b3b3b4e3b3b3b3b3b523b303b6f4c3b45484441532052455454454c204e4145414843494e414d3b4444413031,
0x3b3b3b3b3b4e3b3b3b3b3b523b303b6f4c3b48504f512052455454454c204e4145414843494e414d3b4544413031,
0x3b3b3b3b3b4e3b3b3b3b3b523b303b6f4c3b48504f582052455454454c204e4145414843494e414d3b4644413031,
0x3b3b3b3b3b4e3b3b3b3b3b523b303b6f4c3b48504f48512052455454454c204e4145414843494e414d3b3045413031,
0x3b3b3b3b3b4e3b3b3b3b3b523b303b6f4c3b485345522052455454454c204e4145414843494e414d3b3145413031,
0x3b3b3b3b3b4e3b3b3b3b3b523b303b6f4c3b4e4948532052455454454c204e4145414843494e414d3b3245413031,
0x3b3b3b3b3b4e3b3b3b3b3b523b303b6f4c3b4e494853532052455454454c204e4145414843494e414d3b3345413031,
0x3b3b3b3b3b4e3b3b3b3b3b523b303b6f4c3b5741542052455454454c204e4145414843494e414d3b3445413031,
0x3b3b3b3b3b4e3b3b3b3b3b4d534e3b3033323b6e4d3b45564f4241204b52414d204e4f49544149564552424241204e4145414843494e414d3b3545413031,
0x3b3b3b3b3b4e3b3b3b3b3b4d534e3b3032323b6e4d3b574f4c4542204b52414d204e4f49544149564552424241204e4145414843494e414d3b3645413031,
0x3b3b3b3b3b4e3b313b3b3b3b523b303b6f4e3b454e4f205245424d554e204e4145414843494e414d3b4245413031,
0x3b3b3b3b3b4e3b353b3b3b3b523b303b6f4e3b45564946205245424d554e204e4145414843494e414d3b4345413031,
0x3b3b3b3b3b4e3b30313b3b3b3b523b303b6f4e3b4e4554205245424d554e204e4145414843494e414d3b4445413031,
0x3b3b3b3b3b4e3b30323b3b3b3b523b303b6f4e3b59544e455754205245424d554e204e4145414843494e414d3b4545413031,
0x3b3b3b3b3b4e3b3030313b3b3b3b523b303b6f4e3b444552444e554820454e4f205245424d554e204e4145414843494e414d3b4645413031,
0x3b3b3b3b3b4e3b3b3b3b3b523b303b6f503b52415453204e4f4954415554434e5550204e4145414843494e414d3b3046413031,
0x3b3b3b3b3b4e3b3b3b3b3b523b303b6f503b4e4f5255454c46204e4f4954415554434e5550204e4145414843494e414d3b3146413031,
0x3b3b3b3b3b4e3b3b3b3b3b523b303b6f503b544f44204e494854495720544f4420454c42554f44204e4f4954415554434e5550204e4145414843494e414d3b3246413031,
0x3b3b3b3b3b4e3b3b3b3b3b523b303b6f503b544f44204e494854495720544f44204e4f4954415554434e5550204e4145414843494e414d3b3346413031,
0x3b3b3b3b3b4e3b3b3b3b3b523b303b6f503b544f44204e4f4954415554434e5550204e4145414843494e414d3b3446413031,
0x3b3b3b3b3b4e3b3b3b3b3b523b303b6f503b53544f44204f5754204e4f4954415554434e5550204e4145414843494e414d3b3546413031,
0x3b3b3b3b3b4e3b3b3b3b3b523b303b6f503b52454c4c494620454e494c204e4f4954415554434e5550204e4145414843494e414d3b3646413031,
0x3b3b3b3b3b4e3b3b3b3b3b523b303b6f4c3b412052455454454c204e4154534556413b3030423031,
0x3b3b3b3b3b4e3b3b3b3b3b523b303b6f4c3b41412052455454454c204e4154534556413b3130423031,
0x3b3b3b3b3b4e3b3b3b3b3b523b303b6f4c3b4f412052455454454c204e4154534556413b3230423031,
0x3b3b3b3b3b4e3b3b3b3b3b523b303b6f4c3b4f41412052455454454c204e4154534556413b3330423031,
0x3b3b3b3b3b4e3b3b3b3b3b523b303b6f4c3b4e412052455454454c204e4154534556413b3430423031,
0x3b3b3b3b3b4e3b3b3b3b3b523b303b6f4c3b4e41412052455454454c204e4154534556413b3530423031,
0x3b3b3b3b3b4e3b3b3b3b3b523b303b6f4c3b45412052455454454c204e4154534556413b3630423031,
0x3b3b3b3b3b4e3b3b3b3b3b523b303b6f4c3b4545412052455454454c204e4154534556413b3730423031,
0x3b3b3b3b3b4e3b3b3b3b3b523b303b6f4c3b452052455454454c204e4154534556413b3830423031,
0x3b3b3b3b3b4e3b3b3b3b3b523b303b6f4c3b45452052455454454c204e4154534556413b3930423031,
0x3b3b3b3b3b4e3b3b3b3b3b523b303b6f4c3b4f2052455454454c204e4154534556413b4130423031,
0x3b3b3b3b3b4e3b3b3b3b3b523b303b6f4c3b4f4f2052455454454c204e4154534556413b4230423031,
0x3b3b3b3b3b4e3b3b3b3b3b523b303b6f4c3b492052455454454c204e4154534556413b4330423031,
0x3b3b3b3b3b4e3b3b3b3b3b523b303b6f4c3b49492052455454454c204e4154534556413b4430423031,
0x3b3b3b3b3b4e3b3b3b3b3b523b303b6f4c3b552052455454454c204e4154534556413b4530423031,
0x3b3b3b3b3b4e3b3b3b3b3b523b303b6f4c3b55552052455454454c204e4154534556413b4630423031,
0x3b3b3b3b3b4e3b3b3b3b3b523b303b6f4c3b454b2052455454454c204e4154534556413b3031423031,
0x3b3b3b3b3b4e3b3b3b3b3b523b303b6f4c3b45582052455454454c204e4154534556413b3131423031,
0x3b3b3b3b3b4e3b3b3b3b3b523b303b6f4c3b4559582052455454454c204e4154534556413b3231423031,
0x3b3b3b3b3b4e3b3b3b3b3b523b303b6f4c3b4556582052455454454c204e4154534556413b3331423031,
0x3b3b3b3b3b4e3b3b3b3b3b523b303b6f4c3b45472052455454454c204e4154534556413b3431423031,
0x3b3b3b3b3b4e3b3b3b3b3b523b303b6f4c3b4547472052455454454c204e4154534556413b3531423031,
0x3b3b3b3b3b4e3b3b3b3b3b523b303b6f4c3b4548472052455454454c204e4154534556413b3631423031,
0x3b3b3b3b3b4e3b3b3b3b3b523b303b6f4c3b45432052455454454c204e4154534556413b3731423031,
0x3b3b3b3b3b4e3b3b3b3b3b523b303b6f4c3b454a2052455454454c204e4154534556413b3831423031,
0x3b3b3b3b3b4e3b3b3b3b3b523b303b6f4c3b45542052455454454c204e4154534556413b3931423031,
0x3b3b3b3b3b4e3b3b3b3b3b523b303b6f4c3b4548542052455454454c204e4154534556413b4131423031,
0x3b3b3b3b3b4e3b3b3b3b3b523b303b6f4c3b45442052455454454c204e4154534556413b4231423031,
0x3b3b3b3b3b4e3b3b3b3b3b523b303b6f4c3b4548442052455454454c204e4154534556413b4331423031,
0x3b3b3b3b3b4e3b3b3b3b3b523b303b6f4c3b4554542052455454454c204e4154534556413b4431423031,
0x3b3b3b3b3b4e3b3b3b3b3b523b303b6f4c3b45502052455454454c204e4154534556413b4531423031,
0x3b3b3b3b3b4e3b3b3b3b3b523b303b6f4c3b45462052455454454c204e4154534556413b4631423031,
0x3b3b3b3b3b4e3b3b3b3b3b523b303b6f4c3b45422052455454454c204e4154534556413b3032423031,
0x3b3b3b3b3b4e3b3b3b3b3b523b303b6f4c3b4548422052455454454c204e4154534556413b3132423031,
0x3b3b3b3b3b4e3b3b3b3b3b523b303b6f4c3b45474e2052455454454c204e4154534556413b3232423031,
0x3b3b3b3b3b4e3b3b3b3b3b523b303b6f4c3b4559474e2052455454454c204e4154534556413b3332423031,
0x3b3b3b3b3b4e3b3b3b3b3b523b303b6f4c3b4556474e2052455454454c204e4154534556413b3432423031,
0x3b3b3b3b3b4e3b3b3b3b3b523b303b6f4c3b454e2052455454454c204e4154534556413b3532423031,
0x3b3b3b3b3b4e3b3b3b3b3b523b303b6f4c3b45594e2052455454454c204e4154534556413b3632423031,
0x3b3b3b3b3b4e3b3b3b3b3b523b303b6f4c3b454e4e2052455454454c204e4154534556413b3732423031,
0x3b3b3b3b3b4e3b3b3b3b3b523b303b6f4c3b454d2052455454454c204e4154534556413b3832423031,
0x3b3b3b3b3b4e3b3b3b3b3b523b303b6f4c3b454d482052455454454c204e4154534556413b3932423031,
0x3b3b3b3b3b4e3b3b3b3b3b523b303b6f4c3b4559592052455454454c204e4154534556413b4132423031,
0x3b3b3b3b3b4e3b3b3b3b3b523b303b6f4c3b45592052455454454c204e4154534556413b4232423031,
0x3b3b3b3b3b4e3b3b3b3b3b523b303b6f4c3b45562052455454454c204e4154534556413b4332423031,
0x3b3b3b3b3b4e3b3b3b3b3b523b303b6f4c3b45522052455454454c204e4154534556413b4432423031,
0x3b3b3b3b3b4e3b3b3b3b3b523b303b6f4c3b454c2052455454454c204e4154534556413b4532423031,
0x3b3b3b3b3b4e3b3b3b3b3b523b303b6f4c3b45532052455454454c204e4154534556413b4632423031,
0x3b3b3b3b3b4e3b3b3b3b3b523b303b6f4c3b455a2052455454454c204e4154534556413b3033423031,
0x3b3b3b3b3b4e3b3b3b3b3b523b303b6f4c3b4548532052455454454c204e4154534556413b3133423031,
0x3b3b3b3b3b4e3b3b3b3b3b523b303b6f4c3b45485a2052455454454c204e4154534556413b3233423031,
0x3b3b3b3b3b4e3b3b3b3b3b523b303b6f4c3b455948532052455454454c204e4154534556413b3333423031,
0x3b3b3b3b3b4e3b3b3b3b3b523b303b6f4c3b454853532052455454454c204e4154534556413b3433423031,
0x3b3b3b3b3b4e3b3b3b3b3b523b303b6f4c3b45482052455454454c204e4154534556413b3533423031,
0x3b3b3b3b3b4e3b3b3b3b3b4e4f3b303b6f503b4b52414d204e4f49544149564552424241204e4154534556413b3933423031,
0x3b3b3b3b3b4e3b3b3b3b3b4e4f3b303b6f503b4e4f4954415554434e555020544f4420454e4f205245564f2053544f44204f575420594e49543b4133423031,
0x3b3b3b3b3b4e3b3b3b3b3b4e4f3b303b6f503b4e4f4954415554434e555020544f4420454e4f205245564f2053544f44204f5754204c4c414d533b4233423031,
0x3b3b3b3b3b4e3b3b3b3b3b4e4f3b303b6f503b4e4f4954415554434e555020544f4420454e4f205245564f2053544f44204f575420454752414c3b4333423031,
0x3b3b3b3b3b4e3b3b3b3b3b4e4f3b303b6f503b4e4f4954415554434e55502053544f44204f5754205245564f20544f4420454e4f20454752414c3b4433423031,
0x3b3b3b3b3b4e3b3b3b3b3b4e4f3b303b6f503b4e4f4954415554434e555020474e495220454e4f205245564f2053474e4952204f575420454752414c3b4533423031,
0x3b3b3b3b3b4e3b3b3b3b3b4e4f3b303b6f503b4e4f4954415554434e55502053474e4952204f5754205245564f20474e495220454e4f20454752414c3b4633423031,
0x3b3b3b3b3b4e3b3b3b3b3b523b303b6f4c3b4850454c412052455454454c204e41494854524150204c414e4f495450495243534e493b3034423031,
0x3b3b3b3b3b4e3b3b3b3b3b523b303b6f4c3b485445422052455454454c204e41494854524150204c414e4f495450495243534e493b3134423031,
0x3b3b3b3b3b4e3b3b3b3b3b523b303b6f4c3b4c454d49472052455454454c204e41494854524150204c414e4f495450495243534e493b3234423031,
0x3b3b3b3b3b4e3b3b3b3b3b523b303b6f4c3b4854454c41442052455454454c204e41494854524150204c414e4f495450495243534e493b3334423031,
0x3b3b3b3b3b4e3b3b3b3b3b523b303b6f4c3b45482052455454454c204e41494854524150204c414e4f495450495243534e493b3434423031,
0x3b3b3b3b3b4e3b3b3b3b3b523b303b6f4c3b5741572052455454454c204e41494854524150204c414e4f495450495243534e493b3534423031,
0x3b3b3b3b3b4e3b3b3b3b3b523b303b6f4c3b4e4959415a2052455454454c204e41494854524150204c414e4f495450495243534e493b3634423031,
0x3b3b3b3b3b4e3b3b3b3b3b523b303b6f4c3b485445482052455454454c204e41494854524150204c414e4f495450495243534e493b3734423031,
0x3b3b3b3b3b4e3b3b3b3b3b523b303b6f4c3b485445542052455454454c204e41494854524150204c414e4f495450495243534e493b3834423031,
0x3b3b3b3b3b4e3b3b3b3b3b523b303b6f4c3b48444f592052455454454c204e41494854524150204c414e4f495450495243534e493b3934423031,
0x3b3b3b3b3b4e3b3b3b3b3b523b303b6f4c3b4850414b2052455454454c204e41494854524150204c414e4f495450495243534e493b4134423031,
0x3b3b3b3b3b4e3b3b3b3b3b523b303b6f4c3b4844454d414c2052455454454c204e41494854524150204c414e4f495450495243534e493b4234423031,
0x3b3b3b3b3b4e3b3b3b3b3b523b303b6f4c3b4d454d2052455454454c204e41494854524150204c414e4f495450495243534e493b4334423031,
0x3b3b3b3b3b4e3b3b3b3b3b523b303b6f4c3b4e554e2052455454454c204e41494854524150204c414e4f495450495243534e493b4434423031,
0x3b3b3b3b3b4e3b3b3b3b3b523b303b6f4c3b484b454d41532052455454454c204e41494854524150204c414e4f495450495243534e493b4534423031,
0x3b3b3b3b3b4e3b3b3b3b3b523b303b6f4c3b4e4959412052455454454c204e41494854524150204c414e4f495450495243534e493b4634423031,
0x3b3b3b3b3b4e3b3b3b3b3b523b303b6f4c3b45502052455454454c204e41494854524150204c414e4f495450495243534e493b3035423031,
0x3b3b3b3b3b4e3b3b3b3b3b523b303b6f4c3b45484441532052455454454c204e41494854524150204c414e4f495450495243534e493b3135423031,
0x3b3b3b3b3b4e3b3b3b3b3b523b303b6f4c3b48504f512052455454454c204e41494854524150204c414e4f495450495243534e493b3235423031,
0x3b3b3b3b3b4e3b3b3b3b3b523b303b6f4c3b485345522052455454454c204e41494854524150204c414e4f495450495243534e493b3335423031,
0x3b3b3b3b3b4e3b3b3b3b3b523b303b6f4c3b4e4948532052455454454c204e41494854524150204c414e4f495450495243534e493b3435423031,
0x3b3b3b3b3b4e3b3b3b3b3b523b303b6f4c3b5741542052455454454c204e41494854524150204c414e4f495450495243534e493b3535423031,
0x3b3b3b3b3b4e3b313b3b3b3b523b303b6f4e3b454e4f205245424d554e204e41494854524150204c414e4f495450495243534e493b3835423031,
0x3b3b3b3b3b4e3b323b3b3b3b523b303b6f4e3b4f5754205245424d554e204e41494854524150204c414e4f495450495243534e493b3935423031,
0x3b3b3b3b3b4e3b333b3b3b3b523b303b6f4e3b4545524854205245424d554e204e41494854524150204c414e4f495450495243534e493b4135423031,
0x3b3b3b3b3b4e3b343b3b3b3b523b303b6f4e3b52554f46205245424d554e204e41494854524150204c414e4f495450495243534e493b4235423031,
0x3b3b3b3b3b4e3b30313b3b3b3b523b303b6f4e3b4e4554205245424d554e204e41494854524150204c414e4f495450495243534e493b4335423031,
0x3b3b3b3b3b4e3b30323b3b3b3b523b303b6f4e3b59544e455754205245424d554e204e41494854524150204c414e4f495450495243534e493b4435423031,
0x3b3b3b3b3b4e3b3030313b3b3b3b523b303b6f4e3b444552444e554820454e4f205245424d554e204e41494854524150204c414e4f495450495243534e493b4535423031,
0x3b3b3b3b3b4e3b303030313b3b3b3b523b303b6f4e3b444e4153554f485420454e4f205245424d554e204e41494854524150204c414e4f495450495243534e493b4635423031,
0x3b3b3b3b3b4e3b3b3b3b3b523b303b6f4c3b4850454c412052455454454c204956414c484150204c414e4f495450495243534e493b3036423031,
0x3b3b3b3b3b4e3b3b3b3b3b523b303b6f4c3b485445422052455454454c204956414c484150204c414e4f495450495243534e493b3136423031,
0x3b3b3b3b3b4e3b3b3b3b3b523b303b6f4c3b4c454d49472052455454454c204956414c484150204c414e4f495450495243534e493b3236423031,
0x3b3b3b3b3b4e3b3b3b3b3b523b303b6f4c3b4854454c41442052455454454c204956414c484150204c414e4f495450495243534e493b3336423031,
0x3b3b3b3b3b4e3b3b3b3b3b523b303b6f4c3b45482052455454454c204956414c484150204c414e4f495450495243534e493b3436423031,
0x3b3b3b3b3b4e3b3b3b3b3b523b303b6f4c3b485345522d4e4959412d5741572052455454454c204956414c484150204c414e4f495450495243534e493b3536423031,
0x3b3b3b3b3b4e3b3b3b3b3b523b303b6f4c3b4e4959415a2052455454454c204956414c484150204c414e4f495450495243534e493b3636423031,
0x3b3b3b3b3b4e3b3b3b3b3b523b303b6f4c3b485445482052455454454c204956414c484150204c414e4f495450495243534e493b3736423031,
0x3b3b3b3b3b4e3b3b3b3b3b523b303b6f4c3b485445542052455454454c204956414c484150204c414e4f495450495243534e493b3836423031,
0x3b3b3b3b3b4e3b3b3b3b3b523b303b6f4c3b48444f592052455454454c204956414c484150204c414e4f495450495243534e493b3936423031,
0x3b3b3b3b3b4e3b3b3b3b3b523b303b6f4c3b4850414b2052455454454c204956414c484150204c414e4f495450495243534e493b4136423031,
0x3b3b3b3b3b4e3b3b3b3b3b523b303b6f4c3b4844454d414c2052455454454c204956414c484150204c414e4f495450495243534e493b4236423031,
0x3b3b3b3b3b4e3b3b3b3b3b523b303b6f4c3b48504f512d4d454d2052455454454c204956414c484150204c414e4f495450495243534e493b4336423031,
0x3b3b3b3b3b4e3b3b3b3b3b523b303b6f4c3b4e554e2052455454454c204956414c484150204c414e4f495450495243534e493b4436423031,
0x3b3b3b3b3b4e3b3b3b3b3b523b303b6f4c3b484b454d41532052455454454c204956414c484150204c414e4f495450495243534e493b4536423031,
0x3b3b3b3b3b4e3b3b3b3b3b523b303b6f4c3b45502052455454454c204956414c484150204c414e4f495450495243534e493b4636423031,
0x3b3b3b3b3b4e3b3b3b3b3b523b303b6f4c3b45484441532052455454454c204956414c484150204c414e4f495450495243534e493b3037423031,
0x3b3b3b3b3b4e3b3b3b3b3b523b303b6f4c3b4e4948532052455454454c204956414c484150204c414e4f495450495243534e493b3137423031,
0x3b3b3b3b3b4e3b3b3b3b3b523b303b6f4c3b5741542052455454454c204956414c484150204c414e4f495450495243534e493b3237423031,
0x3b3b3b3b3b4e3b313b3b3b3b523b303b6f4e3b454e4f205245424d554e204956414c484150204c414e4f495450495243534e493b3837423031,
0x3b3b3b3b3b4e3b323b3b3b3b523b303b6f4e3b4f5754205245424d554e204956414c484150204c414e4f495450495243534e493b3937423031,
0x3b3b3b3b3b4e3b333b3b3b3b523b303b6f4e3b4545524854205245424d554e204956414c484150204c414e4f495450495243534e493b4137423031,
0x3b3b3b3b3b4e3b343b3b3b3b523b303b6f4e3b52554f46205245424d554e204956414c484150204c414e4f495450495243534e493b4237423031,
0x3b3b3b3b3b4e3b30313b3b3b3b523b303b6f4e3b4e4554205245424d554e204956414c484150204c414e4f495450495243534e493b4337423031,
0x3b3b3b3b3b4e3b30323b3b3b3b523b303b6f4e3b59544e455754205245424d554e204956414c484150204c414e4f495450495243534e493b4437423031,
0x3b3b3b3b3b4e3b3030313b3b3b3b523b303b6f4e3b444552444e554820454e4f205245424d554e204956414c484150204c414e4f495450495243534e493b4537423031,
0x3b3b3b3b3b4e3b303030313b3b3b3b523b303b6f4e3b444e4153554f485420454e4f205245424d554e204956414c484150204c414e4f495450495243534e493b4637423031,
0x3b3b3b3b3b4e3b3b3b3b3b523b303b6f4c3b4850454c412052455454454c204956414c484150205245544c4153503b3038423031,
0x3b3b3b3b3b4e3b3b3b3b3b523b303b6f4c3b485445422052455454454c204956414c484150205245544c4153503b3138423031,
0x3b3b3b3b3b4e3b3b3b3b3b523b303b6f4c3b4c454d49472052455454454c204956414c484150205245544c4153503b3238423031,
0x3b3b3b3b3b4e3b3b3b3b3b523b303b6f4c3b4854454c41442052455454454c204956414c484150205245544c4153503b3338423031,
0x3b3b3b3b3b4e3b3b3b3b3b523b303b6f4c3b45482052455454454c204956414c484150205245544c4153503b3438423031,
0x3b3b3b3b3b4e3b3b3b3b3b523b303b6f4c3b485345522d4e4959412d5741572052455454454c204956414c484150205245544c4153503b3538423031,
0x3b3b3b3b3b4e3b3b3b3b3b523b303b6f4c3b4e4959415a2052455454454c204956414c484150205245544c4153503b3638423031,
0x3b3b3b3b3b4e3b3b3b3b3b523b303b6f4c3b485445482052455454454c204956414c484150205245544c4153503b3738423031,
0x3b3b3b3b3b4e3b3b3b3b3b523b303b6f4c3b48444f592052455454454c204956414c484150205245544c4153503b3838423031,
0x3b3b3b3b3b4e3b3b3b3b3b523b303b6f4c3b4850414b2052455454454c204956414c484150205245544c4153503b3938423031,
0x3b3b3b3b3b4e3b3b3b3b3b523b303b6f4c3b4844454d414c2052455454454c204956414c484150205245544c4153503b4138423031,
0x3b3b3b3b3b4e3b3b3b3b3b523b303b6f4c3b48504f512d4d454d2052455454454c204956414c484150205245544c4153503b4238423031,
0x3b3b3b3b3b4e3b3b3b3b3b523b303b6f4c3b4e554e2052455454454c204956414c484150205245544c4153503b4338423031,
0x3b3b3b3b3b4e3b3b3b3b3b523b303b6f4c3b484b454d41532052455454454c204956414c484150205245544c4153503b4438423031,
0x3b3b3b3b3b4e3b3b3b3b3b523b303b6f4c3b45502052455454454c204956414c484150205245544c4153503b4538423031,
0x3b3b3b3b3b4e3b3b3b3b3b523b303b6f4c3b45484441532052455454454c204956414c484150205245544c4153503b4638423031,
0x3b3b3b3b3b4e3b3b3b3b3b523b303b6f4c3b4e4948532052455454454c204956414c484150205245544c4153503b3039423031,
0x3b3b3b3b3b4e3b3b3b3b3b523b303b6f4c3b5741542052455454454c204956414c484150205245544c4153503b3139423031,
0x3b3b3b3b3b4e3b3b3b3b3b523b303b6f503b4b52414d204e4f4954434553204956414c484150205245544c4153503b3939423031,
0x3b3b3b3b3b4e3b3b3b3b3b523b303b6f503b4b52414d204e4f49544345532044454e525554204956414c484150205245544c4153503b4139423031,
0x3b3b3b3b3b4e3b3b3b3b3b523b303b6f503b53534f524320485449572053544f442052554f46204956414c484150205245544c4153503b4239423031,
0x3b3b3b3b3b4e3b3b3b3b3b523b303b6f503b544f4420485449572053544f442052554f46204956414c484150205245544c4153503b4339423031,
0x3b3b3b3b3b4e3b313b3b3b3b523b303b6f4e3b454e4f205245424d554e204956414c484150205245544c4153503b3941423031,
0x3b3b3b3b3b4e3b323b3b3b3b523b303b6f4e3b4f5754205245424d554e204956414c484150205245544c4153503b4141423031,
0x3b3b3b3b3b4e3b333b3b3b3b523b303b6f4e3b4545524854205245424d554e204956414c484150205245544c4153503b4241423031,
0x3b3b3b3b3b4e3b343b3b3b3b523b303b6f4e3b52554f46205245424d554e204956414c484150205245544c4153503b4341423031,
0x3b3b3b3b3b4e3b30313b3b3b3b523b303b6f4e3b4e4554205245424d554e204956414c484150205245544c4153503b4441423031,
0x3b3b3b3b3b4e3b30323b3b3b3b523b303b6f4e3b59544e455754205245424d554e204956414c484150205245544c4153503b4541423031,
0x3b3b3b3b3b4e3b3030313b3b3b3b523b303b6f4e3b444552444e554820454e4f205245424d554e204956414c484150205245544c4153503b4641423031,
0x3b3b3b3b3b4e3b3b3b3b3b523b303b6f4c3b41204e4f484b524f2052455454454c2043494b52555420444c4f3b3030433031,
0x3b3b3b3b3b4e3b3b3b3b3b523b303b6f4c3b4120494553494e45592052455454454c2043494b52555420444c4f3b3130433031,
0x3b3b3b3b3b4e3b3b3b3b3b523b303b6f4c3b454120494553494e45592052455454454c2043494b52555420444c4f3b3230433031,
0x3b3b3b3b3b4e3b3b3b3b3b523b303b6f4c3b49204e4f484b524f2052455454454c2043494b52555420444c4f3b3330433031,
0x3b3b3b3b3b4e3b3b3b3b3b523b303b6f4c3b4920494553494e45592052455454454c2043494b52555420444c4f3b3430433031,
0x3b3b3b3b3b4e3b3b3b3b3b523b303b6f4c3b4520494553494e45592052455454454c2043494b52555420444c4f3b3530433031,
0x3b3b3b3b3b4e3b3b3b3b3b523b303b6f4c3b4f204e4f484b524f2052455454454c2043494b52555420444c4f3b3630433031,
0x3b3b3b3b3b4e3b3b3b3b3b523b303b6f4c3b454f204e4f484b524f2052455454454c2043494b52555420444c4f3b3730433031,
0x3b3b3b3b3b4e3b3b3b3b3b523b303b6f4c3b454f20494553494e45592052455454454c2043494b52555420444c4f3b3830433031,
0x3b3b3b3b3b4e3b3b3b3b3b523b303b6f4c3b4241204e4f484b524f2052455454454c2043494b52555420444c4f3b3930433031,
0x3b3b3b3b3b4e3b3b3b3b3b523b303b6f4c3b424120494553494e45592052455454454c2043494b52555420444c4f3b4130433031,
0x3b3b3b3b3b4e3b3b3b3b3b523b303b6f4c3b424541204e4f484b524f2052455454454c2043494b52555420444c4f3b4230433031,
0x3b3b3b3b3b4e3b3b3b3b3b523b303b6f4c3b42454120494553494e45592052455454454c2043494b52555420444c4f3b4330433031,
0x3b3b3b3b3b4e3b3b3b3b3b523b303b6f4c3b4741204e4f484b524f2052455454454c2043494b52555420444c4f3b4430433031,
0x3b3b3b3b3b4e3b3b3b3b3b523b303b6f4c3b474120494553494e45592052455454454c2043494b52555420444c4f3b4530433031,
0x3b3b3b3b3b4e3b3b3b3b3b523b303b6f4c3b474541204e4f484b524f2052455454454c2043494b52555420444c4f3b4630433031,
0x3b3b3b3b3b4e3b3b3b3b3b523b303b6f4c3b47454120494553494e45592052455454454c2043494b52555420444c4f3b3031433031,
0x3b3b3b3b3b4e3b3b3b3b3b523b303b6f4c3b4441204e4f484b524f2052455454454c2043494b52555420444c4f3b3131433031,
0x3b3b3b3b3b4e3b3b3b3b3b523b303b6f4c3b444120494553494e45592052455454454c2043494b52555420444c4f3b3231433031,
0x3b3b3b3b3b4e3b3b3b3b3b523b303b6f4c3b444541204e4f484b524f2052455454454c2043494b52555420444c4f3b3331433031,
0x3b3b3b3b3b4e3b3b3b3b3b523b303b6f4c3b5a45204e4f484b524f2052455454454c2043494b52555420444c4f3b3431433031,
0x3b3b3b3b3b4e3b3b3b3b3b523b303b6f4c3b5a4520494553494e45592052455454454c2043494b52555420444c4f3b3531433031,
0x3b3b3b3b3b4e3b3b3b3b3b523b303b6f4c3b5941204e4f484b524f2052455454454c2043494b52555420444c4f3b3631433031,
0x3b3b3b3b3b4e3b3b3b3b3b523b303b6f4c3b594120494553494e45592052455454454c2043494b52555420444c4f3b3731433031,
0x3b3b3b3b3b4e3b3b3b3b3b523b303b6f4c3b594541204e4f484b524f2052455454454c2043494b52555420444c4f3b3831433031,
0x3b3b3b3b3b4e3b3b3b3b3b523b303b6f4c3b59454120494553494e45592052455454454c2043494b52555420444c4f3b3931433031,
0x3b3b3b3b3b4e3b3b3b3b3b523b303b6f4c3b4b4541204e4f484b524f2052455454454c2043494b52555420444c4f3b4131433031,
0x3b3b3b3b3b4e3b3b3b3b3b523b303b6f4c3b4b454120494553494e45592052455454454c2043494b52555420444c4f3b4231433031,
0x3b3b3b3b3b4e3b3b3b3b3b523b303b6f4c3b4b454f204e4f484b524f2052455454454c2043494b52555420444c4f3b4331433031,
0x3b3b3b3b3b4e3b3b3b3b3b523b303b6f4c3b4b454f20494553494e45592052455454454c2043494b52555420444c4f3b4431433031,
0x3b3b3b3b3b4e3b3b3b3b3b523b303b6f4c3b4c41204e4f484b524f2052455454454c2043494b52555420444c4f3b4531433031,
0x3b3b3b3b3b4e3b3b3b3b3b523b303b6f4c3b4c4120494553494e45592052455454454c2043494b52555420444c4f3b4631433031,
0x3b3b3b3b3b4e3b3b3b3b3b523b303b6f4c3b4c4541204e4f484b524f2052455454454c2043494b52555420444c4f3b3032433031,
0x3b3b3b3b3b4e3b3b3b3b3b523b303b6f4c3b544c45204e4f484b524f2052455454454c2043494b52555420444c4f3b3132433031,
0x3b3b3b3b3b4e3b3b3b3b3b523b303b6f4c3b4d45204e4f484b524f2052455454454c2043494b52555420444c4f3b3232433031,
0x3b3b3b3b3b4e3b3b3b3b3b523b303b6f4c3b4e41204e4f484b524f2052455454454c2043494b52555420444c4f3b3332433031,
0x3b3b3b3b3b4e3b3b3b3b3b523b303b6f4c3b4e4541204e4f484b524f2052455454454c2043494b52555420444c4f3b3432433031,
0x3b3b3b3b3b4e3b3b3b3b3b523b303b6f4c3b4e454120494553494e45592052455454454c2043494b52555420444c4f3b3532433031,
0x3b3b3b3b3b4e3b3b3b3b3b523b303b6f4c3b544e45204e4f484b524f2052455454454c2043494b52555420444c4f3b3632433031,
0x3b3b3b3b3b4e3b3b3b3b3b523b303b6f4c3b544e4520494553494e45592052455454454c2043494b52555420444c4f3b3732433031,
0x3b3b3b3b3b4e3b3b3b3b3b523b303b6f4c3b434e45204e4f484b524f2052455454454c2043494b52555420444c4f3b3832433031,
0x3b3b3b3b3b4e3b3b3b3b3b523b303b6f4c3b434e4520494553494e45592052455454454c2043494b52555420444c4f3b3932433031,
0x3b3b3b3b3b4e3b3b3b3b3b523b303b6f4c3b594e45204e4f484b524f2052455454454c2043494b52555420444c4f3b4132433031,
0x3b3b3b3b3b4e3b3b3b3b3b523b303b6f4c3b594e4520494553494e45592052455454454c2043494b52555420444c4f3b4232433031,
0x3b3b3b3b3b4e3b3b3b3b3b523b303b6f4c3b474e4120494553494e45592052455454454c2043494b52555420444c4f3b4332433031,
0x3b3b3b3b3b4e3b3b3b3b3b523b303b6f4c3b474e45204e4f484b524f2052455454454c2043494b52555420444c4f3b4432433031,
0x3b3b3b3b3b4e3b3b3b3b3b523b303b6f4c3b474e454120494553494e45592052455454454c2043494b52555420444c4f3b4532433031,
0x3b3b3b3b3b4e3b3b3b3b3b523b303b6f4c3b5045204e4f484b524f2052455454454c2043494b52555420444c4f3b4632433031,
0x3b3b3b3b3b4e3b3b3b3b3b523b303b6f4c3b504f204e4f484b524f2052455454454c2043494b52555420444c4f3b3033433031,
0x3b3b3b3b3b4e3b3b3b3b3b523b303b6f4c3b4349204e4f484b524f2052455454454c2043494b52555420444c4f3b3133433031,
0x3b3b3b3b3b4e3b3b3b3b3b523b303b6f4c3b4345204e4f484b524f2052455454454c2043494b52555420444c4f3b3233433031,
0x3b3b3b3b3b4e3b3b3b3b3b523b303b6f4c3b434520494553494e45592052455454454c2043494b52555420444c4f3b3333433031,
0x3b3b3b3b3b4e3b3b3b3b3b523b303b6f4c3b5141204e4f484b524f2052455454454c2043494b52555420444c4f3b3433433031,
0x3b3b3b3b3b4e3b3b3b3b3b523b303b6f4c3b514120494553494e45592052455454454c2043494b52555420444c4f3b3533433031,
0x3b3b3b3b3b4e3b3b3b3b3b523b303b6f4c3b5149204e4f484b524f2052455454454c2043494b52555420444c4f3b3633433031,
0x3b3b3b3b3b4e3b3b3b3b3b523b303b6f4c3b514920494553494e45592052455454454c2043494b52555420444c4f3b3733433031,
0x3b3b3b3b3b4e3b3b3b3b3b523b303b6f4c3b514f204e4f484b524f2052455454454c2043494b52555420444c4f3b3833433031,
0x3b3b3b3b3b4e3b3b3b3b3b523b303b6f4c3b514f20494553494e45592052455454454c2043494b52555420444c4f3b3933433031,
0x3b3b3b3b3b4e3b3b3b3b3b523b303b6f4c3b5241204e4f484b524f2052455454454c2043494b52555420444c4f3b4133433031,
0x3b3b3b3b3b4e3b3b3b3b3b523b303b6f4c3b524120494553494e45592052455454454c2043494b52555420444c4f3b4233433031,
0x3b3b3b3b3b4e3b3b3b3b3b523b303b6f4c3b524541204e4f484b524f2052455454454c2043494b52555420444c4f3b4333433031,
0x3b3b3b3b3b4e3b3b3b3b3b523b303b6f4c3b5341204e4f484b524f2052455454454c2043494b52555420444c4f3b4433433031,
0x3b3b3b3b3b4e3b3b3b3b3b523b303b6f4c3b534541204e4f484b524f2052455454454c2043494b52555420444c4f3b4533433031,
0x3b3b3b3b3b4e3b3b3b3b3b523b303b6f4c3b485341204e4f484b524f2052455454454c2043494b52555420444c4f3b4633433031,
0x3b3b3b3b3b4e3b3b3b3b3b523b303b6f4c3b48534120494553494e45592052455454454c2043494b52555420444c4f3b3034433031,
0x3b3b3b3b3b4e3b3b3b3b3b523b303b6f4c3b485345204e4f484b524f2052455454454c2043494b52555420444c4f3b3134433031,
0x3b3b3b3b3b4e3b3b3b3b3b523b303b6f4c3b48534520494553494e45592052455454454c2043494b52555420444c4f3b3234433031,
0x3b3b3b3b3b4e3b3b3b3b3b523b303b6f4c3b5441204e4f484b524f2052455454454c2043494b52555420444c4f3b3334433031,
0x3b3b3b3b3b4e3b3b3b3b3b523b303b6f4c3b544120494553494e45592052455454454c2043494b52555420444c4f3b3434433031,
0x3b3b3b3b3b4e3b3b3b3b3b523b303b6f4c3b544541204e4f484b524f2052455454454c2043494b52555420444c4f3b3534433031,
0x3b3b3b3b3b4e3b3b3b3b3b523b303b6f4c3b54454120494553494e45592052455454454c2043494b52555420444c4f3b3634433031,
0x3b3b3b3b3b4e3b3b3b3b3b523b303b6f4c3b544f204e4f484b524f2052455454454c2043494b52555420444c4f3b3734433031,
0x3b3b3b3b3b4e3b3b3b3b3b523b303b6f4c3b48534142204e4f484b524f2052455454454c2043494b52555420444c4f3b3834433031,
0x3b30434330313b3b3b3b4e3b3b3b3b3b523b303b754c3b412052455454454c204c415449504143204e41495241474e554820444c4f3b3038433031,
0x3b31434330313b3b3b3b4e3b3b3b3b3b523b303b754c3b41412052455454454c204c415449504143204e41495241474e554820444c4f3b3138433031,
0x3b32434330313b3b3b3b4e3b3b3b3b3b523b303b754c3b42452052455454454c204c415449504143204e41495241474e554820444c4f3b3238433031,
0x3b33434330313b3b3b3b4e3b3b3b3b3b523b303b754c3b424d412052455454454c204c415449504143204e41495241474e554820444c4f3b3338433031,
0x3b34434330313b3b3b3b4e3b3b3b3b3b523b303b754c3b43452052455454454c204c415449504143204e41495241474e554820444c4f3b3438433031,
0x3b35434330313b3b3b3b4e3b3b3b3b3b523b303b754c3b434e452052455454454c204c415449504143204e41495241474e554820444c4f3b3538433031]

/-- src/u5e/props/UnicodeData.txt lines 18689-18944. -/
def rawUcd73 : List Nat := [
0x3b36434330313b3b3b3b4e3b3b3b3b3b523b303b754c3b5343452052455454454c204c415449504143204e41495241474e554820444c4f3b3638433031,
0x3b37434330313b3b3b3b4e3b3b3b3b3b523b303b754c3b44452052455454454c204c415449504143204e41495241474e554820444c4f3b3738433031,
0x3b38434330313b3b3b3b4e3b3b3b3b3b523b303b754c3b444e412052455454454c204c415449504143204e41495241474e554820444c4f3b3838433031,
0x3b39434330313b3b3b3b4e3b3b3b3b3b523b303b754c3b452052455454454c204c415449504143204e41495241474e554820444c4f3b3938433031,
0x3b41434330313b3b3b3b4e3b3b3b3b3b523b303b754c3b452045534f4c432052455454454c204c415449504143204e41495241474e554820444c4f3b4138433031,
0x3b42434330313b3b3b3b4e3b3b3b3b3b523b303b754c3b45452052455454454c204c415449504143204e41495241474e554820444c4f3b4238433031,
0x3b43434330313b3b3b3b4e3b3b3b3b3b523b303b754c3b46452052455454454c204c415449504143204e41495241474e554820444c4f3b4338433031,
0x3b44434330313b3b3b3b4e3b3b3b3b3b523b303b754c3b47452052455454454c204c415449504143204e41495241474e554820444c4f3b4438433031,
0x3b45434330313b3b3b3b4e3b3b3b3b3b523b303b754c3b5947452052455454454c204c415449504143204e41495241474e554820444c4f3b4538433031,
0x3b46434330313b3b3b3b4e3b3b3b3b3b523b303b754c3b48452052455454454c204c415449504143204e41495241474e554820444c4f3b4638433031,
0x3b30444330313b3b3b3b4e3b3b3b3b3b523b303b754c3b492052455454454c204c415449504143204e41495241474e554820444c4f3b3039433031,
0x3b31444330313b3b3b3b4e3b3b3b3b3b523b303b754c3b49492052455454454c204c415449504143204e41495241474e554820444c4f3b3139433031,
0x3b32444330313b3b3b3b4e3b3b3b3b3b523b303b754c3b4a452052455454454c204c415449504143204e41495241474e554820444c4f3b3239433031,
0x3b33444330313b3b3b3b4e3b3b3b3b3b523b303b754c3b4b452052455454454c204c415449504143204e41495241474e554820444c4f3b3339433031,
0x3b34444330313b3b3b3b4e3b3b3b3b3b523b303b754c3b4b412052455454454c204c415449504143204e41495241474e554820444c4f3b3439433031,
0x3b35444330313b3b3b3b4e3b3b3b3b3b523b303b754c3b4b4e552052455454454c204c415449504143204e41495241474e554820444c4f3b3539433031,
0x3b36444330313b3b3b3b4e3b3b3b3b3b523b303b754c3b4c452052455454454c204c415449504143204e41495241474e554820444c4f3b3639433031,
0x3b37444330313b3b3b3b4e3b3b3b3b3b523b303b754c3b594c452052455454454c204c415449504143204e41495241474e554820444c4f3b3739433031,
0x3b38444330313b3b3b3b4e3b3b3b3b3b523b303b754c3b4d452052455454454c204c415449504143204e41495241474e554820444c4f3b3839433031,
0x3b39444330313b3b3b3b4e3b3b3b3b3b523b303b754c3b4e452052455454454c204c415449504143204e41495241474e554820444c4f3b3939433031,
0x3b41444330313b3b3b3b4e3b3b3b3b3b523b303b754c3b594e452052455454454c204c415449504143204e41495241474e554820444c4f3b4139433031,
0x3b42444330313b3b3b3b4e3b3b3b3b3b523b303b754c3b4f2052455454454c204c415449504143204e41495241474e554820444c4f3b4239433031,
0x3b43444330313b3b3b3b4e3b3b3b3b3b523b303b754c3b4f4f2052455454454c204c415449504143204e41495241474e554820444c4f3b4339433031,
0x3b44444330313b3b3b3b4e3b3b3b3b3b523b303b754c3b454f2047525542534c4f4b494e2052455454454c204c415449504143204e41495241474e554820444c4f3b4439433031,
0x3b45444330313b3b3b3b4e3b3b3b3b3b523b303b754c3b454f2041544e454d494455522052455454454c204c415449504143204e41495241474e554820444c4f3b4539433031,
0x3b46444330313b3b3b3b4e3b3b3b3b3b523b303b754c3b45454f2052455454454c204c415449504143204e41495241474e554820444c4f3b4639433031,
0x3b30454330313b3b3b3b4e3b3b3b3b3b523b303b754c3b50452052455454454c204c415449504143204e41495241474e554820444c4f3b3041433031,
0x3b31454330313b3b3b3b4e3b3b3b3b3b523b303b754c3b504d452052455454454c204c415449504143204e41495241474e554820444c4f3b3141433031,
0x3b32454330313b3b3b3b4e3b3b3b3b3b523b303b754c3b52452052455454454c204c415449504143204e41495241474e554820444c4f3b3241433031,
0x3b33454330313b3b3b3b4e3b3b3b3b3b523b303b754c3b52452054524f48532052455454454c204c415449504143204e41495241474e554820444c4f3b3341433031,
0x3b34454330313b3b3b3b4e3b3b3b3b3b523b303b754c3b53452052455454454c204c415449504143204e41495241474e554820444c4f3b3441433031,
0x3b35454330313b3b3b3b4e3b3b3b3b3b523b303b754c3b5a53452052455454454c204c415449504143204e41495241474e554820444c4f3b3541433031,
0x3b36454330313b3b3b3b4e3b3b3b3b3b523b303b754c3b54452052455454454c204c415449504143204e41495241474e554820444c4f3b3641433031,
0x3b37454330313b3b3b3b4e3b3b3b3b3b523b303b754c3b544e452052455454454c204c415449504143204e41495241474e554820444c4f3b3741433031,
0x3b38454330313b3b3b3b4e3b3b3b3b3b523b303b754c3b5954452052455454454c204c415449504143204e41495241474e554820444c4f3b3841433031,
0x3b39454330313b3b3b3b4e3b3b3b3b3b523b303b754c3b4843452052455454454c204c415449504143204e41495241474e554820444c4f3b3941433031,
0x3b41454330313b3b3b3b4e3b3b3b3b3b523b303b754c3b552052455454454c204c415449504143204e41495241474e554820444c4f3b4141433031,
0x3b42454330313b3b3b3b4e3b3b3b3b3b523b303b754c3b55552052455454454c204c415449504143204e41495241474e554820444c4f3b4241433031,
0x3b43454330313b3b3b3b4e3b3b3b3b3b523b303b754c3b45552047525542534c4f4b494e2052455454454c204c415449504143204e41495241474e554820444c4f3b4341433031,
0x3b44454330313b3b3b3b4e3b3b3b3b3b523b303b754c3b45552041544e454d494455522052455454454c204c415449504143204e41495241474e554820444c4f3b4441433031,
0x3b45454330313b3b3b3b4e3b3b3b3b3b523b303b754c3b56452052455454454c204c415449504143204e41495241474e554820444c4f3b4541433031,
0x3b46454330313b3b3b3b4e3b3b3b3b3b523b303b754c3b5a452052455454454c204c415449504143204e41495241474e554820444c4f3b4641433031,
0x3b30464330313b3b3b3b4e3b3b3b3b3b523b303b754c3b535a452052455454454c204c415449504143204e41495241474e554820444c4f3b3042433031,
0x3b31464330313b3b3b3b4e3b3b3b3b3b523b303b754c3b4e474953204445504148532d544e452052455454454c204c415449504143204e41495241474e554820444c4f3b3142433031,
0x3b32464330313b3b3b3b4e3b3b3b3b3b523b303b754c3b53552052455454454c204c415449504143204e41495241474e554820444c4f3b3242433031,
0x30384330313b3b30384330313b3b3b4e3b3b3b3b3b523b303b6c4c3b412052455454454c204c4c414d53204e41495241474e554820444c4f3b3043433031,
0x31384330313b3b31384330313b3b3b4e3b3b3b3b3b523b303b6c4c3b41412052455454454c204c4c414d53204e41495241474e554820444c4f3b3143433031,
0x32384330313b3b32384330313b3b3b4e3b3b3b3b3b523b303b6c4c3b42452052455454454c204c4c414d53204e41495241474e554820444c4f3b3243433031,
0x33384330313b3b33384330313b3b3b4e3b3b3b3b3b523b303b6c4c3b424d412052455454454c204c4c414d53204e41495241474e554820444c4f3b3343433031,
0x34384330313b3b34384330313b3b3b4e3b3b3b3b3b523b303b6c4c3b43452052455454454c204c4c414d53204e41495241474e554820444c4f3b3443433031,
0x35384330313b3b35384330313b3b3b4e3b3b3b3b3b523b303b6c4c3b434e452052455454454c204c4c414d53204e41495241474e554820444c4f3b3543433031,
0x36384330313b3b36384330313b3b3b4e3b3b3b3b3b523b303b6c4c3b5343452052455454454c204c4c414d53204e41495241474e554820444c4f3b3643433031,
0x37384330313b3b37384330313b3b3b4e3b3b3b3b3b523b303b6c4c3b44452052455454454c204c4c414d53204e41495241474e554820444c4f3b3743433031,
0x38384330313b3b38384330313b3b3b4e3b3b3b3b3b523b303b6c4c3b444e412052455454454c204c4c414d53204e41495241474e554820444c4f3b3843433031,
0x39384330313b3b39384330313b3b3b4e3b3b3b3b3b523b303b6c4c3b452052455454454c204c4c414d53204e41495241474e554820444c4f3b3943433031,
0x41384330313b3b41384330313b3b3b4e3b3b3b3b3b523b303b6c4c3b452045534f4c432052455454454c204c4c414d53204e41495241474e554820444c4f3b4143433031,
0x42384330313b3b42384330313b3b3b4e3b3b3b3b3b523b303b6c4c3b45452052455454454c204c4c414d53204e41495241474e554820444c4f3b4243433031,
0x43384330313b3b43384330313b3b3b4e3b3b3b3b3b523b303b6c4c3b46452052455454454c204c4c414d53204e41495241474e554820444c4f3b4343433031,
0x44384330313b3b44384330313b3b3b4e3b3b3b3b3b523b303b6c4c3b47452052455454454c204c4c414d53204e41495241474e554820444c4f3b4443433031,
0x45384330313b3b45384330313b3b3b4e3b3b3b3b3b523b303b6c4c3b5947452052455454454c204c4c414d53204e41495241474e554820444c4f3b4543433031,
0x46384330313b3b46384330313b3b3b4e3b3b3b3b3b523b303b6c4c3b48452052455454454c204c4c414d53204e41495241474e554820444c4f3b4643433031,
0x30394330313b3b30394330313b3b3b4e3b3b3b3b3b523b303b6c4c3b492052455454454c204c4c414d53204e41495241474e554820444c4f3b3044433031,
0x31394330313b3b31394330313b3b3b4e3b3b3b3b3b523b303b6c4c3b49492052455454454c204c4c414d53204e41495241474e554820444c4f3b3144433031,
0x32394330313b3b32394330313b3b3b4e3b3b3b3b3b523b303b6c4c3b4a452052455454454c204c4c414d53204e41495241474e554820444c4f3b3244433031,
0x33394330313b3b33394330313b3b3b4e3b3b3b3b3b523b303b6c4c3b4b452052455454454c204c4c414d53204e41495241474e554820444c4f3b3344433031,
0x34394330313b3b34394330313b3b3b4e3b3b3b3b3b523b303b6c4c3b4b412052455454454c204c4c414d53204e41495241474e554820444c4f3b3444433031,
0x35394330313b3b35394330313b3b3b4e3b3b3b3b3b523b303b6c4c3b4b4e552052455454454c204c4c414d53204e41495241474e554820444c4f3b3544433031,
0x36394330313b3b36394330313b3b3b4e3b3b3b3b3b523b303b6c4c3b4c452052455454454c204c4c414d53204e41495241474e554820444c4f3b3644433031,
0x37394330313b3b37394330313b3b3b4e3b3b3b3b3b523b303b6c4c3b594c452052455454454c204c4c414d53204e41495241474e554820444c4f3b3744433031,
0x38394330313b3b38394330313b3b3b4e3b3b3b3b3b523b303b6c4c3b4d452052455454454c204c4c414d53204e41495241474e554820444c4f3b3844433031,
0x39394330313b3b39394330313b3b3b4e3b3b3b3b3b523b303b6c4c3b4e452052455454454c204c4c414d53204e41495241474e554820444c4f3b3944433031,
0x41394330313b3b41394330313b3b3b4e3b3b3b3b3b523b303b6c4c3b594e452052455454454c204c4c414d53204e41495241474e554820444c4f3b4144433031,
0x42394330313b3b42394330313b3b3b4e3b3b3b3b3b523b303b6c4c3b4f2052455454454c204c4c414d53204e41495241474e554820444c4f3b4244433031,
0x43394330313b3b43394330313b3b3b4e3b3b3b3b3b523b303b6c4c3b4f4f2052455454454c204c4c414d53204e41495241474e554820444c4f3b4344433031,
0x44394330313b3b44394330313b3b3b4e3b3b3b3b3b523b303b6c4c3b454f2047525542534c4f4b494e2052455454454c204c4c414d53204e41495241474e554820444c4f3b4444433031,
0x45394330313b3b45394330313b3b3b4e3b3b3b3b3b523b303b6c4c3b454f2041544e454d494455522052455454454c204c4c414d53204e41495241474e554820444c4f3b4544433031,
0x46394330313b3b46394330313b3b3b4e3b3b3b3b3b523b303b6c4c3b45454f2052455454454c204c4c414d53204e41495241474e554820444c4f3b4644433031,
0x30414330313b3b30414330313b3b3b4e3b3b3b3b3b523b303b6c4c3b50452052455454454c204c4c414d53204e41495241474e554820444c4f3b3045433031,
0x31414330313b3b31414330313b3b3b4e3b3b3b3b3b523b303b6c4c3b504d452052455454454c204c4c414d53204e41495241474e554820444c4f3b3145433031,
0x32414330313b3b32414330313b3b3b4e3b3b3b3b3b523b303b6c4c3b52452052455454454c204c4c414d53204e41495241474e554820444c4f3b3245433031,
0x33414330313b3b33414330313b3b3b4e3b3b3b3b3b523b303b6c4c3b52452054524f48532052455454454c204c4c414d53204e41495241474e554820444c4f3b3345433031,
0x34414330313b3b34414330313b3b3b4e3b3b3b3b3b523b303b6c4c3b53452052455454454c204c4c414d53204e41495241474e554820444c4f3b3445433031,
0x35414330313b3b35414330313b3b3b4e3b3b3b3b3b523b303b6c4c3b5a53452052455454454c204c4c414d53204e41495241474e554820444c4f3b3545433031,
0x36414330313b3b36414330313b3b3b4e3b3b3b3b3b523b303b6c4c3b54452052455454454c204c4c414d53204e41495241474e554820444c4f3b3645433031,
0x37414330313b3b37414330313b3b3b4e3b3b3b3b3b523b303b6c4c3b544e452052455454454c204c4c414d53204e41495241474e554820444c4f3b3745433031,
0x38414330313b3b38414330313b3b3b4e3b3b3b3b3b523b303b6c4c3b5954452052455454454c204c4c414d53204e41495241474e554820444c4f3b3845433031,
0x39414330313b3b39414330313b3b3b4e3b3b3b3b3b523b303b6c4c3b4843452052455454454c204c4c414d53204e41495241474e554820444c4f3b3945433031,
0x41414330313b3b41414330313b3b3b4e3b3b3b3b3b523b303b6c4c3b552052455454454c204c4c414d53204e41495241474e554820444c4f3b4145433031,
0x42414330313b3b42414330313b3b3b4e3b3b3b3b3b523b303b6c4c3b55552052455454454c204c4c414d53204e41495241474e554820444c4f3b4245433031,
0x43414330313b3b43414330313b3b3b4e3b3b3b3b3b523b303b6c4c3b45552047525542534c4f4b494e2052455454454c204c4c414d53204e41495241474e554820444c4f3b4345433031,
0x44414330313b3b44414330313b3b3b4e3b3b3b3b3b523b303b6c4c3b45552041544e454d494455522052455454454c204c4c414d53204e41495241474e554820444c4f3b4445433031,
0x45414330313b3b45414330313b3b3b4e3b3b3b3b3b523b303b6c4c3b56452052455454454c204c4c414d53204e41495241474e554820444c4f3b4545433031,
0x46414330313b3b46414330313b3b3b4e3b3b3b3b3b523b303b6c4c3b5a452052455454454c204c4c414d53204e41495241474e554820444c4f3b4645433031,
0x30424330313b3b30424330313b3b3b4e3b3b3b3b3b523b303b6c4c3b535a452052455454454c204c4c414d53204e41495241474e554820444c4f3b3046433031,
0x31424330313b3b31424330313b3b3b4e3b3b3b3b3b523b303b6c4c3b4e474953204445504148532d544e452052455454454c204c4c414d53204e41495241474e554820444c4f3b3146433031,
0x32424330313b3b32424330313b3b3b4e3b3b3b3b3b523b303b6c4c3b53552052455454454c204c4c414d53204e41495241474e554820444c4f3b3246433031,
0x3b3b3b3b3b4e3b313b3b3b3b523b303b6f4e3b454e4f205245424d554e204e41495241474e554820444c4f3b4146433031,
0x3b3b3b3b3b4e3b353b3b3b3b523b303b6f4e3b45564946205245424d554e204e41495241474e554820444c4f3b4246433031,
0x3b3b3b3b3b4e3b30313b3b3b3b523b303b6f4e3b4e4554205245424d554e204e41495241474e554820444c4f3b4346433031,
0x3b3b3b3b3b4e3b30353b3b3b3b523b303b6f4e3b5954464946205245424d554e204e41495241474e554820444c4f3b4446433031,
0x3b3b3b3b3b4e3b3030313b3b3b3b523b303b6f4e3b444552444e554820454e4f205245424d554e204e41495241474e554820444c4f3b4546433031,
0x3b3b3b3b3b4e3b303030313b3b3b3b523b303b6f4e3b444e4153554f485420454e4f205245424d554e204e41495241474e554820444c4f3b4646433031,
0x3b3b3b3b3b4e3b313b313b3b3b4e413b303b6f4e3b454e4f20544947494420494d55523b3036453031,
0x3b3b3b3b3b4e3b323b323b3b3b4e413b303b6f4e3b4f575420544947494420494d55523b3136453031,
0x3b3b3b3b3b4e3b333b333b3b3b4e413b303b6f4e3b454552485420544947494420494d55523b3236453031,
0x3b3b3b3b3b4e3b343b343b3b3b4e413b303b6f4e3b52554f4620544947494420494d55523b3336453031,
0x3b3b3b3b3b4e3b353b353b3b3b4e413b303b6f4e3b4556494620544947494420494d55523b3436453031,
0x3b3b3b3b3b4e3b363b363b3b3b4e413b303b6f4e3b58495320544947494420494d55523b3536453031,
0x3b3b3b3b3b4e3b373b373b3b3b4e413b303b6f4e3b4e4556455320544947494420494d55523b3636453031,
0x3b3b3b3b3b4e3b383b383b3b3b4e413b303b6f4e3b544847494520544947494420494d55523b3736453031,
0x3b3b3b3b3b4e3b393b393b3b3b4e413b303b6f4e3b454e494e20544947494420494d55523b3836453031,
0x3b3b3b3b3b4e3b30313b3b3b3b4e413b303b6f4e3b4e4554205245424d554e20494d55523b3936453031,
0x3b3b3b3b3b4e3b30323b3b3b3b4e413b303b6f4e3b59544e455754205245424d554e20494d55523b4136453031,
0x3b3b3b3b3b4e3b30333b3b3b3b4e413b303b6f4e3b595452494854205245424d554e20494d55523b4236453031,
0x3b3b3b3b3b4e3b30343b3b3b3b4e413b303b6f4e3b5954524f46205245424d554e20494d55523b4336453031,
0x3b3b3b3b3b4e3b30353b3b3b3b4e413b303b6f4e3b5954464946205245424d554e20494d55523b4436453031,
0x3b3b3b3b3b4e3b30363b3b3b3b4e413b303b6f4e3b5954584953205245424d554e20494d55523b4536453031,
0x3b3b3b3b3b4e3b30373b3b3b3b4e413b303b6f4e3b59544e45564553205245424d554e20494d55523b4636453031,
0x3b3b3b3b3b4e3b30383b3b3b3b4e413b303b6f4e3b595448474945205245424d554e20494d55523b3037453031,
0x3b3b3b3b3b4e3b30393b3b3b3b4e413b303b6f4e3b5954454e494e205245424d554e20494d55523b3137453031,
0x3b3b3b3b3b4e3b3030313b3b3b3b4e413b303b6f4e3b444552444e554820454e4f205245424d554e20494d55523b3237453031,
0x3b3b3b3b3b4e3b3030323b3b3b3b4e413b303b6f4e3b444552444e5548204f5754205245424d554e20494d55523b3337453031,
0x3b3b3b3b3b4e3b3030333b3b3b3b4e413b303b6f4e3b444552444e5548204545524854205245424d554e20494d55523b3437453031,
0x3b3b3b3b3b4e3b3030343b3b3b3b4e413b303b6f4e3b444552444e55482052554f46205245424d554e20494d55523b3537453031,
0x3b3b3b3b3b4e3b3030353b3b3b3b4e413b303b6f4e3b444552444e55482045564946205245424d554e20494d55523b3637453031,
0x3b3b3b3b3b4e3b3030363b3b3b3b4e413b303b6f4e3b444552444e554820584953205245424d554e20494d55523b3737453031,
0x3b3b3b3b3b4e3b3030373b3b3b3b4e413b303b6f4e3b444552444e5548204e45564553205245424d554e20494d55523b3837453031,
0x3b3b3b3b3b4e3b3030383b3b3b3b4e413b303b6f4e3b444552444e5548205448474945205245424d554e20494d55523b3937453031,
0x3b3b3b3b3b4e3b3030393b3b3b3b4e413b303b6f4e3b444552444e554820454e494e205245424d554e20494d55523b4137453031,
0x3b3b3b3b3b4e3b322f313b3b3b3b4e413b303b6f4e3b464c414820454e4f204e4f49544341524620494d55523b4237453031,
0x3b3b3b3b3b4e3b342f313b3b3b3b4e413b303b6f4e3b5245545241555120454e4f204e4f49544341524620494d55523b4337453031,
0x3b3b3b3b3b4e3b332f313b3b3b3b4e413b303b6f4e3b445249485420454e4f204e4f49544341524620494d55523b4437453031,
0x3b3b3b3b3b4e3b332f323b3b3b3b4e413b303b6f4e3b534452494854204f5754204e4f49544341524620494d55523b4537453031,
0x3b3b3b3b3b4e3b3b3b3b3b4c3b303b634d3b55444e49424152444e4143204e47495320494d484152423b3030303131,
0x3b3b3b3b3b4e3b3b3b3b3b4d534e3b303b6e4d3b4152415653554e41204e47495320494d484152423b3130303131,
0x3b3b3b3b3b4e3b3b3b3b3b4c3b303b634d3b41475241534956204e47495320494d484152423b3230303131,
0x3b3b3b3b3b4e3b3b3b3b3b4c3b303b6f4c3b4159494c554d415648494a204e47495320494d484152423b3330303131,
0x3b3b3b3b3b4e3b3b3b3b3b4c3b303b6f4c3b4159494e414d4844415055204e47495320494d484152423b3430303131,
0x3b3b3b3b3b4e3b3b3b3b3b4c3b303b6f4c3b412052455454454c20494d484152423b3530303131,
0x3b3b3b3b3b4e3b3b3b3b3b4c3b303b6f4c3b41412052455454454c20494d484152423b3630303131,
0x3b3b3b3b3b4e3b3b3b3b3b4c3b303b6f4c3b492052455454454c20494d484152423b3730303131,
0x3b3b3b3b3b4e3b3b3b3b3b4c3b303b6f4c3b49492052455454454c20494d484152423b3830303131,
0x3b3b3b3b3b4e3b3b3b3b3b4c3b303b6f4c3b552052455454454c20494d484152423b3930303131,
0x3b3b3b3b3b4e3b3b3b3b3b4c3b303b6f4c3b55552052455454454c20494d484152423b4130303131,
0x3b3b3b3b3b4e3b3b3b3b3b4c3b303b6f4c3b522043494c41434f562052455454454c20494d484152423b4230303131,
0x3b3b3b3b3b4e3b3b3b3b3b4c3b303b6f4c3b52522043494c41434f562052455454454c20494d484152423b4330303131,
0x3b3b3b3b3b4e3b3b3b3b3b4c3b303b6f4c3b4c2043494c41434f562052455454454c20494d484152423b4430303131,
0x3b3b3b3b3b4e3b3b3b3b3b4c3b303b6f4c3b4c4c2043494c41434f562052455454454c20494d484152423b4530303131,
0x3b3b3b3b3b4e3b3b3b3b3b4c3b303b6f4c3b452052455454454c20494d484152423b4630303131,
0x3b3b3b3b3b4e3b3b3b3b3b4c3b303b6f4c3b49412052455454454c20494d484152423b3031303131,
0x3b3b3b3b3b4e3b3b3b3b3b4c3b303b6f4c3b4f2052455454454c20494d484152423b3131303131,
0x3b3b3b3b3b4e3b3b3b3b3b4c3b303b6f4c3b55412052455454454c20494d484152423b3231303131,
0x3b3b3b3b3b4e3b3b3b3b3b4c3b303b6f4c3b414b2052455454454c20494d484152423b3331303131,
0x3b3b3b3b3b4e3b3b3b3b3b4c3b303b6f4c3b41484b2052455454454c20494d484152423b3431303131,
0x3b3b3b3b3b4e3b3b3b3b3b4c3b303b6f4c3b41472052455454454c20494d484152423b3531303131,
0x3b3b3b3b3b4e3b3b3b3b3b4c3b303b6f4c3b4148472052455454454c20494d484152423b3631303131,
0x3b3b3b3b3b4e3b3b3b3b3b4c3b303b6f4c3b41474e2052455454454c20494d484152423b3731303131,
0x3b3b3b3b3b4e3b3b3b3b3b4c3b303b6f4c3b41432052455454454c20494d484152423b3831303131,
0x3b3b3b3b3b4e3b3b3b3b3b4c3b303b6f4c3b4148432052455454454c20494d484152423b3931303131,
0x3b3b3b3b3b4e3b3b3b3b3b4c3b303b6f4c3b414a2052455454454c20494d484152423b4131303131,
0x3b3b3b3b3b4e3b3b3b3b3b4c3b303b6f4c3b41484a2052455454454c20494d484152423b4231303131,
0x3b3b3b3b3b4e3b3b3b3b3b4c3b303b6f4c3b41594e2052455454454c20494d484152423b4331303131,
0x3b3b3b3b3b4e3b3b3b3b3b4c3b303b6f4c3b4154542052455454454c20494d484152423b4431303131,
0x3b3b3b3b3b4e3b3b3b3b3b4c3b303b6f4c3b414854542052455454454c20494d484152423b4531303131,
0x3b3b3b3b3b4e3b3b3b3b3b4c3b303b6f4c3b4144442052455454454c20494d484152423b4631303131,
0x3b3b3b3b3b4e3b3b3b3b3b4c3b303b6f4c3b414844442052455454454c20494d484152423b3032303131,
0x3b3b3b3b3b4e3b3b3b3b3b4c3b303b6f4c3b414e4e2052455454454c20494d484152423b3132303131,
0x3b3b3b3b3b4e3b3b3b3b3b4c3b303b6f4c3b41542052455454454c20494d484152423b3232303131,
0x3b3b3b3b3b4e3b3b3b3b3b4c3b303b6f4c3b4148542052455454454c20494d484152423b3332303131,
0x3b3b3b3b3b4e3b3b3b3b3b4c3b303b6f4c3b41442052455454454c20494d484152423b3432303131,
0x3b3b3b3b3b4e3b3b3b3b3b4c3b303b6f4c3b4148442052455454454c20494d484152423b3532303131,
0x3b3b3b3b3b4e3b3b3b3b3b4c3b303b6f4c3b414e2052455454454c20494d484152423b3632303131,
0x3b3b3b3b3b4e3b3b3b3b3b4c3b303b6f4c3b41502052455454454c20494d484152423b3732303131,
0x3b3b3b3b3b4e3b3b3b3b3b4c3b303b6f4c3b4148502052455454454c20494d484152423b3832303131,
0x3b3b3b3b3b4e3b3b3b3b3b4c3b303b6f4c3b41422052455454454c20494d484152423b3932303131,
0x3b3b3b3b3b4e3b3b3b3b3b4c3b303b6f4c3b4148422052455454454c20494d484152423b4132303131,
0x3b3b3b3b3b4e3b3b3b3b3b4c3b303b6f4c3b414d2052455454454c20494d484152423b4232303131,
0x3b3b3b3b3b4e3b3b3b3b3b4c3b303b6f4c3b41592052455454454c20494d484152423b4332303131,
0x3b3b3b3b3b4e3b3b3b3b3b4c3b303b6f4c3b41522052455454454c20494d484152423b4432303131,
0x3b3b3b3b3b4e3b3b3b3b3b4c3b303b6f4c3b414c2052455454454c20494d484152423b4532303131,
0x3b3b3b3b3b4e3b3b3b3b3b4c3b303b6f4c3b41562052455454454c20494d484152423b4632303131,
0x3b3b3b3b3b4e3b3b3b3b3b4c3b303b6f4c3b4148532052455454454c20494d484152423b3033303131,
0x3b3b3b3b3b4e3b3b3b3b3b4c3b303b6f4c3b4153532052455454454c20494d484152423b3133303131,
0x3b3b3b3b3b4e3b3b3b3b3b4c3b303b6f4c3b41532052455454454c20494d484152423b3233303131,
0x3b3b3b3b3b4e3b3b3b3b3b4c3b303b6f4c3b41482052455454454c20494d484152423b3333303131,
0x3b3b3b3b3b4e3b3b3b3b3b4c3b303b6f4c3b414c4c2052455454454c20494d484152423b3433303131,
0x3b3b3b3b3b4e3b3b3b3b3b4c3b303b6f4c3b414c4c4c204c494d415420444c4f2052455454454c20494d484152423b3533303131,
0x3b3b3b3b3b4e3b3b3b3b3b4c3b303b6f4c3b415252204c494d415420444c4f2052455454454c20494d484152423b3633303131,
0x3b3b3b3b3b4e3b3b3b3b3b4c3b303b6f4c3b414e4e4e204c494d415420444c4f2052455454454c20494d484152423b3733303131,
0x3b3b3b3b3b4e3b3b3b3b3b4d534e3b303b6e4d3b4141204e474953204c45574f5620494d484152423b3833303131,
0x3b3b3b3b3b4e3b3b3b3b3b4d534e3b303b6e4d3b414120554c4f5250495454414842204e474953204c45574f5620494d484152423b3933303131,
0x3b3b3b3b3b4e3b3b3b3b3b4d534e3b303b6e4d3b49204e474953204c45574f5620494d484152423b4133303131,
0x3b3b3b3b3b4e3b3b3b3b3b4d534e3b303b6e4d3b4949204e474953204c45574f5620494d484152423b4233303131,
0x3b3b3b3b3b4e3b3b3b3b3b4d534e3b303b6e4d3b55204e474953204c45574f5620494d484152423b4333303131,
0x3b3b3b3b3b4e3b3b3b3b3b4d534e3b303b6e4d3b5555204e474953204c45574f5620494d484152423b4433303131,
0x3b3b3b3b3b4e3b3b3b3b3b4d534e3b303b6e4d3b522043494c41434f56204e474953204c45574f5620494d484152423b4533303131,
0x3b3b3b3b3b4e3b3b3b3b3b4d534e3b303b6e4d3b52522043494c41434f56204e474953204c45574f5620494d484152423b4633303131,
0x3b3b3b3b3b4e3b3b3b3b3b4d534e3b303b6e4d3b4c2043494c41434f56204e474953204c45574f5620494d484152423b3034303131,
0x3b3b3b3b3b4e3b3b3b3b3b4d534e3b303b6e4d3b4c4c2043494c41434f56204e474953204c45574f5620494d484152423b3134303131,
0x3b3b3b3b3b4e3b3b3b3b3b4d534e3b303b6e4d3b45204e474953204c45574f5620494d484152423b3234303131,
0x3b3b3b3b3b4e3b3b3b3b3b4d534e3b303b6e4d3b4941204e474953204c45574f5620494d484152423b3334303131,
0x3b3b3b3b3b4e3b3b3b3b3b4d534e3b303b6e4d3b4f204e474953204c45574f5620494d484152423b3434303131,
0x3b3b3b3b3b4e3b3b3b3b3b4d534e3b303b6e4d3b5541204e474953204c45574f5620494d484152423b3534303131,
0x3b3b3b3b3b4e3b3b3b3b3b4d534e3b393b6e4d3b414d4152495620494d484152423b3634303131,
0x3b3b3b3b3b4e3b3b3b3b3b4c3b303b6f503b41444e414420494d484152423b3734303131,
0x3b3b3b3b3b4e3b3b3b3b3b4c3b303b6f503b41444e414420454c42554f4420494d484152423b3834303131,
0x3b3b3b3b3b4e3b3b3b3b3b4c3b303b6f503b544f44204e4f4954415554434e555020494d484152423b3934303131,
0x3b3b3b3b3b4e3b3b3b3b3b4c3b303b6f503b544f4420454c42554f44204e4f4954415554434e555020494d484152423b4134303131,
0x3b3b3b3b3b4e3b3b3b3b3b4c3b303b6f503b454e494c204e4f4954415554434e555020494d484152423b4234303131,
0x3b3b3b3b3b4e3b3b3b3b3b4c3b303b6f503b52414220544e454353455243204e4f4954415554434e555020494d484152423b4334303131,
0x3b3b3b3b3b4e3b3b3b3b3b4c3b303b6f503b5355544f4c204e4f4954415554434e555020494d484152423b4434303131,
0x3b3b3b3b3b4e3b313b313b3b3b4e4f3b303b6f4e3b454e4f205245424d554e20494d484152423b3235303131,
0x3b3b3b3b3b4e3b323b323b3b3b4e4f3b303b6f4e3b4f5754205245424d554e20494d484152423b3335303131,
0x3b3b3b3b3b4e3b333b333b3b3b4e4f3b303b6f4e3b4545524854205245424d554e20494d484152423b3435303131,
0x3b3b3b3b3b4e3b343b343b3b3b4e4f3b303b6f4e3b52554f46205245424d554e20494d484152423b3535303131,
0x3b3b3b3b3b4e3b353b353b3b3b4e4f3b303b6f4e3b45564946205245424d554e20494d484152423b3635303131,
0x3b3b3b3b3b4e3b363b363b3b3b4e4f3b303b6f4e3b584953205245424d554e20494d484152423b3735303131,
0x3b3b3b3b3b4e3b373b373b3b3b4e4f3b303b6f4e3b4e45564553205245424d554e20494d484152423b3835303131,
0x3b3b3b3b3b4e3b383b383b3b3b4e4f3b303b6f4e3b5448474945205245424d554e20494d484152423b3935303131,
0x3b3b3b3b3b4e3b393b393b3b3b4e4f3b303b6f4e3b454e494e205245424d554e20494d484152423b4135303131,
0x3b3b3b3b3b4e3b30313b3b3b3b4e4f3b303b6f4e3b4e4554205245424d554e20494d484152423b4235303131,
0x3b3b3b3b3b4e3b30323b3b3b3b4e4f3b303b6f4e3b59544e455754205245424d554e20494d484152423b4335303131,
0x3b3b3b3b3b4e3b30333b3b3b3b4e4f3b303b6f4e3b595452494854205245424d554e20494d484152423b4435303131,
0x3b3b3b3b3b4e3b30343b3b3b3b4e4f3b303b6f4e3b5954524f46205245424d554e20494d484152423b4535303131,
0x3b3b3b3b3b4e3b30353b3b3b3b4e4f3b303b6f4e3b5954464946205245424d554e20494d484152423b4635303131,
0x3b3b3b3b3b4e3b30363b3b3b3b4e4f3b303b6f4e3b5954584953205245424d554e20494d484152423b3036303131,
0x3b3b3b3b3b4e3b30373b3b3b3b4e4f3b303b6f4e3b59544e45564553205245424d554e20494d484152423b3136303131,
0x3b3b3b3b3b4e3b30383b3b3b3b4e4f3b303b6f4e3b595448474945205245424d554e20494d484152423b3236303131,
0x3b3b3b3b3b4e3b30393b3b3b3b4e4f3b303b6f4e3b5954454e494e205245424d554e20494d484152423b3336303131,
0x3b3b3b3b3b4e3b3030313b3b3b3b4e4f3b303b6f4e3b444552444e554820454e4f205245424d554e20494d484152423b3436303131,
0x3b3b3b3b3b4e3b303030313b3b3b3b4e4f3b303b6f4e3b444e4153554f485420454e4f205245424d554e20494d484152423b3536303131,
0x3b3b3b3b3b4e3b303b303b303b3b4c3b303b644e3b4f52455a20544947494420494d484152423b3636303131,
0x3b3b3b3b3b4e3b313b313b313b3b4c3b303b644e3b454e4f20544947494420494d484152423b3736303131,
0x3b3b3b3b3b4e3b323b323b323b3b4c3b303b644e3b4f575420544947494420494d484152423b3836303131,
0x3b3b3b3b3b4e3b333b333b333b3b4c3b303b644e3b454552485420544947494420494d484152423b3936303131,
0x3b3b3b3b3b4e3b343b343b343b3b4c3b303b644e3b52554f4620544947494420494d484152423b4136303131,
0x3b3b3b3b3b4e3b353b353b353b3b4c3b303b644e3b4556494620544947494420494d484152423b4236303131,
0x3b3b3b3b3b4e3b363b363b363b3b4c3b303b644e3b58495320544947494420494d484152423b4336303131,
0x3b3b3b3b3b4e3b373b373b373b3b4c3b303b644e3b4e4556455320544947494420494d484152423b4436303131,
0x3b3b3b3b3b4e3b383b383b383b3b4c3b303b644e3b544847494520544947494420494d484152423b4536303131,
0x3b3b3b3b3b4e3b393b393b393b3b4c3b303b644e3b454e494e20544947494420494d484152423b4636303131,
0x3b3b3b3b3b4e3b3b3b3b3b4d534e3b393b6e4d3b52454e494f4a205245424d554e20494d484152423b4637303131,
0x3b3b3b3b3b4e3b3b3b3b3b4d534e3b303b6e4d3b55444e49424152444e4143204e4749532049485449414b3b3038303131,
0x3b3b3b3b3b4e3b3b3b3b3b4d534e3b303b6e4d3b4152415653554e41204e4749532049485449414b3b3138303131,
0x3b3b3b3b3b4e3b3b3b3b3b4c3b303b634d3b41475241534956204e4749532049485449414b3b3238303131,
0x3b3b3b3b3b4e3b3b3b3b3b4c3b303b6f4c3b412052455454454c2049485449414b3b3338303131,
0x3b3b3b3b3b4e3b3b3b3b3b4c3b303b6f4c3b41412052455454454c2049485449414b3b3438303131,
0x3b3b3b3b3b4e3b3b3b3b3b4c3b303b6f4c3b492052455454454c2049485449414b3b3538303131,
0x3b3b3b3b3b4e3b3b3b3b3b4c3b303b6f4c3b49492052455454454c2049485449414b3b3638303131,
0x3b3b3b3b3b4e3b3b3b3b3b4c3b303b6f4c3b552052455454454c2049485449414b3b3738303131,
0x3b3b3b3b3b4e3b3b3b3b3b4c3b303b6f4c3b55552052455454454c2049485449414b3b3838303131,
0x3b3b3b3b3b4e3b3b3b3b3b4c3b303b6f4c3b452052455454454c2049485449414b3b3938303131,
0x3b3b3b3b3b4e3b3b3b3b3b4c3b303b6f4c3b49412052455454454c2049485449414b3b4138303131,
0x3b3b3b3b3b4e3b3b3b3b3b4c3b303b6f4c3b4f2052455454454c2049485449414b3b4238303131,
0x3b3b3b3b3b4e3b3b3b3b3b4c3b303b6f4c3b55412052455454454c2049485449414b3b4338303131,
0x3b3b3b3b3b4e3b3b3b3b3b4c3b303b6f4c3b414b2052455454454c2049485449414b3b4438303131]

/-- src/u5e/props/UnicodeData.txt lines 18945-19200. -/
def rawUcd74 : List Nat := [
0x3b3b3b3b3b4e3b3b3b3b3b4c3b303b6f4c3b41484b2052455454454c2049485449414b3b4538303131,
0x3b3b3b3b3b4e3b3b3b3b3b4c3b303b6f4c3b41472052455454454c2049485449414b3b4638303131,
0x3b3b3b3b3b4e3b3b3b3b3b4c3b303b6f4c3b4148472052455454454c2049485449414b3b3039303131,
0x3b3b3b3b3b4e3b3b3b3b3b4c3b303b6f4c3b41474e2052455454454c2049485449414b3b3139303131,
0x3b3b3b3b3b4e3b3b3b3b3b4c3b303b6f4c3b41432052455454454c2049485449414b3b3239303131,
0x3b3b3b3b3b4e3b3b3b3b3b4c3b303b6f4c3b4148432052455454454c2049485449414b3b3339303131,
0x3b3b3b3b3b4e3b3b3b3b3b4c3b303b6f4c3b414a2052455454454c2049485449414b3b3439303131,
0x3b3b3b3b3b4e3b3b3b3b3b4c3b303b6f4c3b41484a2052455454454c2049485449414b3b3539303131,
0x3b3b3b3b3b4e3b3b3b3b3b4c3b303b6f4c3b41594e2052455454454c2049485449414b3b3639303131,
0x3b3b3b3b3b4e3b3b3b3b3b4c3b303b6f4c3b4154542052455454454c2049485449414b3b3739303131,
0x3b3b3b3b3b4e3b3b3b3b3b4c3b303b6f4c3b414854542052455454454c2049485449414b3b3839303131,
0x3b3b3b3b3b4e3b3b3b3b3b4c3b303b6f4c3b4144442052455454454c2049485449414b3b3939303131,
0x3b3b3b3b3b4e3b3b3b3b41423031312039393031313b4c3b303b6f4c3b41484444442052455454454c2049485449414b3b4139303131,
0x3b3b3b3b3b4e3b3b3b3b3b4c3b303b6f4c3b414844442052455454454c2049485449414b3b4239303131,
0x3b3b3b3b3b4e3b3b3b3b41423031312042393031313b4c3b303b6f4c3b4148522052455454454c2049485449414b3b4339303131,
0x3b3b3b3b3b4e3b3b3b3b3b4c3b303b6f4c3b414e4e2052455454454c2049485449414b3b4439303131,
0x3b3b3b3b3b4e3b3b3b3b3b4c3b303b6f4c3b41542052455454454c2049485449414b3b4539303131,
0x3b3b3b3b3b4e3b3b3b3b3b4c3b303b6f4c3b4148542052455454454c2049485449414b3b4639303131,
0x3b3b3b3b3b4e3b3b3b3b3b4c3b303b6f4c3b41442052455454454c2049485449414b3b3041303131,
0x3b3b3b3b3b4e3b3b3b3b3b4c3b303b6f4c3b4148442052455454454c2049485449414b3b3141303131,
0x3b3b3b3b3b4e3b3b3b3b3b4c3b303b6f4c3b414e2052455454454c2049485449414b3b3241303131,
0x3b3b3b3b3b4e3b3b3b3b3b4c3b303b6f4c3b41502052455454454c2049485449414b3b3341303131,
0x3b3b3b3b3b4e3b3b3b3b3b4c3b303b6f4c3b4148502052455454454c2049485449414b3b3441303131,
0x3b3b3b3b3b4e3b3b3b3b3b4c3b303b6f4c3b41422052455454454c2049485449414b3b3541303131,
0x3b3b3b3b3b4e3b3b3b3b3b4c3b303b6f4c3b4148422052455454454c2049485449414b3b3641303131,
0x3b3b3b3b3b4e3b3b3b3b3b4c3b303b6f4c3b414d2052455454454c2049485449414b3b3741303131,
0x3b3b3b3b3b4e3b3b3b3b3b4c3b303b6f4c3b41592052455454454c2049485449414b3b3841303131,
0x3b3b3b3b3b4e3b3b3b3b3b4c3b303b6f4c3b41522052455454454c2049485449414b3b3941303131,
0x3b3b3b3b3b4e3b3b3b3b3b4c3b303b6f4c3b414c2052455454454c2049485449414b3b4141303131,
0x3b3b3b3b3b4e3b3b3b3b41423031312035413031313b4c3b303b6f4c3b41562052455454454c2049485449414b3b4241303131,
0x3b3b3b3b3b4e3b3b3b3b3b4c3b303b6f4c3b4148532052455454454c2049485449414b3b4341303131,
0x3b3b3b3b3b4e3b3b3b3b3b4c3b303b6f4c3b4153532052455454454c2049485449414b3b4441303131,
0x3b3b3b3b3b4e3b3b3b3b3b4c3b303b6f4c3b41532052455454454c2049485449414b3b4541303131,
0x3b3b3b3b3b4e3b3b3b3b3b4c3b303b6f4c3b41482052455454454c2049485449414b3b4641303131,
0x3b3b3b3b3b4e3b3b3b3b3b4c3b303b634d3b4141204e474953204c45574f562049485449414b3b3042303131,
0x3b3b3b3b3b4e3b3b3b3b3b4c3b303b634d3b49204e474953204c45574f562049485449414b3b3142303131,
0x3b3b3b3b3b4e3b3b3b3b3b4c3b303b634d3b4949204e474953204c45574f562049485449414b3b3242303131,
0x3b3b3b3b3b4e3b3b3b3b3b4d534e3b303b6e4d3b55204e474953204c45574f562049485449414b3b3342303131,
0x3b3b3b3b3b4e3b3b3b3b3b4d534e3b303b6e4d3b5555204e474953204c45574f562049485449414b3b3442303131,
0x3b3b3b3b3b4e3b3b3b3b3b4d534e3b303b6e4d3b45204e474953204c45574f562049485449414b3b3542303131,
0x3b3b3b3b3b4e3b3b3b3b3b4d534e3b303b6e4d3b4941204e474953204c45574f562049485449414b3b3642303131,
0x3b3b3b3b3b4e3b3b3b3b3b4c3b303b634d3b4f204e474953204c45574f562049485449414b3b3742303131,
0x3b3b3b3b3b4e3b3b3b3b3b4c3b303b634d3b5541204e474953204c45574f562049485449414b3b3842303131,
0x3b3b3b3b3b4e3b3b3b3b3b4d534e3b393b6e4d3b414d41524956204e4749532049485449414b3b3942303131,
0x3b3b3b3b3b4e3b3b3b3b3b4d534e3b373b6e4d3b41544b554e204e4749532049485449414b3b4142303131,
0x3b3b3b3b3b4e3b3b3b3b3b4c3b303b6f503b4e474953204e4f495441495645524242412049485449414b3b4242303131,
0x3b3b3b3b3b4e3b3b3b3b3b4c3b303b6f503b4e474953204e4f49544152454d554e452049485449414b3b4342303131,
0x3b3b3b3b3b4e3b3b3b3b3b4c3b303b66433b4e474953205245424d554e2049485449414b3b4442303131,
0x3b3b3b3b3b4e3b3b3b3b3b4c3b303b6f503b4b52414d204e4f49544345532049485449414b3b4542303131,
0x3b3b3b3b3b4e3b3b3b3b3b4c3b303b6f503b4b52414d204e4f495443455320454c42554f442049485449414b3b4642303131,
0x3b3b3b3b3b4e3b3b3b3b3b4c3b303b6f503b41444e41442049485449414b3b3043303131,
0x3b3b3b3b3b4e3b3b3b3b3b4c3b303b6f503b41444e414420454c42554f442049485449414b3b3143303131,
0x3b3b3b3b3b4e3b3b3b3b3b4c3b303b6f4c3b4841532052455454454c20474e45504d4f532041524f533b3044303131,
0x3b3b3b3b3b4e3b3b3b3b3b4c3b303b6f4c3b4841542052455454454c20474e45504d4f532041524f533b3144303131,
0x3b3b3b3b3b4e3b3b3b3b3b4c3b303b6f4c3b4841422052455454454c20474e45504d4f532041524f533b3244303131,
0x3b3b3b3b3b4e3b3b3b3b3b4c3b303b6f4c3b4841432052455454454c20474e45504d4f532041524f533b3344303131,
0x3b3b3b3b3b4e3b3b3b3b3b4c3b303b6f4c3b4841442052455454454c20474e45504d4f532041524f533b3444303131,
0x3b3b3b3b3b4e3b3b3b3b3b4c3b303b6f4c3b4841472052455454454c20474e45504d4f532041524f533b3544303131,
0x3b3b3b3b3b4e3b3b3b3b3b4c3b303b6f4c3b48414d2052455454454c20474e45504d4f532041524f533b3644303131,
0x3b3b3b3b3b4e3b3b3b3b3b4c3b303b6f4c3b4841474e2052455454454c20474e45504d4f532041524f533b3744303131,
0x3b3b3b3b3b4e3b3b3b3b3b4c3b303b6f4c3b48414c2052455454454c20474e45504d4f532041524f533b3844303131,
0x3b3b3b3b3b4e3b3b3b3b3b4c3b303b6f4c3b48414e2052455454454c20474e45504d4f532041524f533b3944303131,
0x3b3b3b3b3b4e3b3b3b3b3b4c3b303b6f4c3b4841562052455454454c20474e45504d4f532041524f533b4144303131,
0x3b3b3b3b3b4e3b3b3b3b3b4c3b303b6f4c3b4841502052455454454c20474e45504d4f532041524f533b4244303131,
0x3b3b3b3b3b4e3b3b3b3b3b4c3b303b6f4c3b4841592052455454454c20474e45504d4f532041524f533b4344303131,
0x3b3b3b3b3b4e3b3b3b3b3b4c3b303b6f4c3b4841522052455454454c20474e45504d4f532041524f533b4444303131,
0x3b3b3b3b3b4e3b3b3b3b3b4c3b303b6f4c3b4841482052455454454c20474e45504d4f532041524f533b4544303131,
0x3b3b3b3b3b4e3b3b3b3b3b4c3b303b6f4c3b48414b2052455454454c20474e45504d4f532041524f533b4644303131,
0x3b3b3b3b3b4e3b3b3b3b3b4c3b303b6f4c3b48414a2052455454454c20474e45504d4f532041524f533b3045303131,
0x3b3b3b3b3b4e3b3b3b3b3b4c3b303b6f4c3b4841594e2052455454454c20474e45504d4f532041524f533b3145303131,
0x3b3b3b3b3b4e3b3b3b3b3b4c3b303b6f4c3b48412052455454454c20474e45504d4f532041524f533b3245303131,
0x3b3b3b3b3b4e3b3b3b3b3b4c3b303b6f4c3b4845452052455454454c20474e45504d4f532041524f533b3345303131,
0x3b3b3b3b3b4e3b3b3b3b3b4c3b303b6f4c3b48492052455454454c20474e45504d4f532041524f533b3445303131,
0x3b3b3b3b3b4e3b3b3b3b3b4c3b303b6f4c3b48552052455454454c20474e45504d4f532041524f533b3545303131,
0x3b3b3b3b3b4e3b3b3b3b3b4c3b303b6f4c3b484f2052455454454c20474e45504d4f532041524f533b3645303131,
0x3b3b3b3b3b4e3b3b3b3b3b4c3b303b6f4c3b48452052455454454c20474e45504d4f532041524f533b3745303131,
0x3b3b3b3b3b4e3b3b3b3b3b4c3b303b6f4c3b45414d2052455454454c20474e45504d4f532041524f533b3845303131,
0x3b3b3b3b3b4e3b303b303b303b3b4c3b303b644e3b4f52455a20544947494420474e45504d4f532041524f533b3046303131,
0x3b3b3b3b3b4e3b313b313b313b3b4c3b303b644e3b454e4f20544947494420474e45504d4f532041524f533b3146303131,
0x3b3b3b3b3b4e3b323b323b323b3b4c3b303b644e3b4f575420544947494420474e45504d4f532041524f533b3246303131,
0x3b3b3b3b3b4e3b333b333b333b3b4c3b303b644e3b454552485420544947494420474e45504d4f532041524f533b3346303131,
0x3b3b3b3b3b4e3b343b343b343b3b4c3b303b644e3b52554f4620544947494420474e45504d4f532041524f533b3446303131,
0x3b3b3b3b3b4e3b353b353b353b3b4c3b303b644e3b4556494620544947494420474e45504d4f532041524f533b3546303131,
0x3b3b3b3b3b4e3b363b363b363b3b4c3b303b644e3b58495320544947494420474e45504d4f532041524f533b3646303131,
0x3b3b3b3b3b4e3b373b373b373b3b4c3b303b644e3b4e4556455320544947494420474e45504d4f532041524f533b3746303131,
0x3b3b3b3b3b4e3b383b383b383b3b4c3b303b644e3b544847494520544947494420474e45504d4f532041524f533b3846303131,
0x3b3b3b3b3b4e3b393b393b393b3b4c3b303b644e3b454e494e20544947494420474e45504d4f532041524f533b3946303131,
0x3b3b3b3b3b4e3b3b3b3b3b4d534e3b3033323b6e4d3b55444e49424152444e4143204e47495320414d4b4148433b3030313131,
0x3b3b3b3b3b4e3b3b3b3b3b4d534e3b3033323b6e4d3b4152415653554e41204e47495320414d4b4148433b3130313131,
0x3b3b3b3b3b4e3b3b3b3b3b4d534e3b3033323b6e4d3b41475241534956204e47495320414d4b4148433b3230313131,
0x3b3b3b3b3b4e3b3b3b3b3b4c3b303b6f4c3b41412052455454454c20414d4b4148433b3330313131,
0x3b3b3b3b3b4e3b3b3b3b3b4c3b303b6f4c3b492052455454454c20414d4b4148433b3430313131,
0x3b3b3b3b3b4e3b3b3b3b3b4c3b303b6f4c3b552052455454454c20414d4b4148433b3530313131,
0x3b3b3b3b3b4e3b3b3b3b3b4c3b303b6f4c3b452052455454454c20414d4b4148433b3630313131,
0x3b3b3b3b3b4e3b3b3b3b3b4c3b303b6f4c3b41414b2052455454454c20414d4b4148433b3730313131,
0x3b3b3b3b3b4e3b3b3b3b3b4c3b303b6f4c3b4141484b2052455454454c20414d4b4148433b3830313131,
0x3b3b3b3b3b4e3b3b3b3b3b4c3b303b6f4c3b4141472052455454454c20414d4b4148433b3930313131,
0x3b3b3b3b3b4e3b3b3b3b3b4c3b303b6f4c3b414148472052455454454c20414d4b4148433b4130313131,
0x3b3b3b3b3b4e3b3b3b3b3b4c3b303b6f4c3b4141474e2052455454454c20414d4b4148433b4230313131,
0x3b3b3b3b3b4e3b3b3b3b3b4c3b303b6f4c3b4141432052455454454c20414d4b4148433b4330313131,
0x3b3b3b3b3b4e3b3b3b3b3b4c3b303b6f4c3b414148432052455454454c20414d4b4148433b4430313131,
0x3b3b3b3b3b4e3b3b3b3b3b4c3b303b6f4c3b41414a2052455454454c20414d4b4148433b4530313131,
0x3b3b3b3b3b4e3b3b3b3b3b4c3b303b6f4c3b4141484a2052455454454c20414d4b4148433b4630313131,
0x3b3b3b3b3b4e3b3b3b3b3b4c3b303b6f4c3b4141594e2052455454454c20414d4b4148433b3031313131,
0x3b3b3b3b3b4e3b3b3b3b3b4c3b303b6f4c3b414154542052455454454c20414d4b4148433b3131313131,
0x3b3b3b3b3b4e3b3b3b3b3b4c3b303b6f4c3b41414854542052455454454c20414d4b4148433b3231313131,
0x3b3b3b3b3b4e3b3b3b3b3b4c3b303b6f4c3b414144442052455454454c20414d4b4148433b3331313131,
0x3b3b3b3b3b4e3b3b3b3b3b4c3b303b6f4c3b41414844442052455454454c20414d4b4148433b3431313131,
0x3b3b3b3b3b4e3b3b3b3b3b4c3b303b6f4c3b41414e4e2052455454454c20414d4b4148433b3531313131,
0x3b3b3b3b3b4e3b3b3b3b3b4c3b303b6f4c3b4141542052455454454c20414d4b4148433b3631313131,
0x3b3b3b3b3b4e3b3b3b3b3b4c3b303b6f4c3b414148542052455454454c20414d4b4148433b3731313131,
0x3b3b3b3b3b4e3b3b3b3b3b4c3b303b6f4c3b4141442052455454454c20414d4b4148433b3831313131,
0x3b3b3b3b3b4e3b3b3b3b3b4c3b303b6f4c3b414148442052455454454c20414d4b4148433b3931313131,
0x3b3b3b3b3b4e3b3b3b3b3b4c3b303b6f4c3b41414e2052455454454c20414d4b4148433b4131313131,
0x3b3b3b3b3b4e3b3b3b3b3b4c3b303b6f4c3b4141502052455454454c20414d4b4148433b4231313131,
0x3b3b3b3b3b4e3b3b3b3b3b4c3b303b6f4c3b414148502052455454454c20414d4b4148433b4331313131,
0x3b3b3b3b3b4e3b3b3b3b3b4c3b303b6f4c3b4141422052455454454c20414d4b4148433b4431313131,
0x3b3b3b3b3b4e3b3b3b3b3b4c3b303b6f4c3b414148422052455454454c20414d4b4148433b4531313131,
0x3b3b3b3b3b4e3b3b3b3b3b4c3b303b6f4c3b41414d2052455454454c20414d4b4148433b4631313131,
0x3b3b3b3b3b4e3b3b3b3b3b4c3b303b6f4c3b414159592052455454454c20414d4b4148433b3032313131,
0x3b3b3b3b3b4e3b3b3b3b3b4c3b303b6f4c3b4141592052455454454c20414d4b4148433b3132313131,
0x3b3b3b3b3b4e3b3b3b3b3b4c3b303b6f4c3b4141522052455454454c20414d4b4148433b3232313131,
0x3b3b3b3b3b4e3b3b3b3b3b4c3b303b6f4c3b41414c2052455454454c20414d4b4148433b3332313131,
0x3b3b3b3b3b4e3b3b3b3b3b4c3b303b6f4c3b4141572052455454454c20414d4b4148433b3432313131,
0x3b3b3b3b3b4e3b3b3b3b3b4c3b303b6f4c3b4141532052455454454c20414d4b4148433b3532313131,
0x3b3b3b3b3b4e3b3b3b3b3b4c3b303b6f4c3b4141482052455454454c20414d4b4148433b3632313131,
0x3b3b3b3b3b4e3b3b3b3b3b4d534e3b303b6e4d3b41204e474953204c45574f5620414d4b4148433b3732313131,
0x3b3b3b3b3b4e3b3b3b3b3b4d534e3b303b6e4d3b49204e474953204c45574f5620414d4b4148433b3832313131,
0x3b3b3b3b3b4e3b3b3b3b3b4d534e3b303b6e4d3b4949204e474953204c45574f5620414d4b4148433b3932313131,
0x3b3b3b3b3b4e3b3b3b3b3b4d534e3b303b6e4d3b55204e474953204c45574f5620414d4b4148433b4132313131,
0x3b3b3b3b3b4e3b3b3b3b3b4d534e3b303b6e4d3b5555204e474953204c45574f5620414d4b4148433b4232313131,
0x3b3b3b3b3b4e3b3b3b3b3b4c3b303b634d3b45204e474953204c45574f5620414d4b4148433b4332313131,
0x3b3b3b3b3b4e3b3b3b3b3b4d534e3b303b6e4d3b4941204e474953204c45574f5620414d4b4148433b4432313131,
0x3b3b3b3b3b4e3b3b3b3b37323131312031333131313b4d534e3b303b6e4d3b4f204e474953204c45574f5620414d4b4148433b4532313131,
0x3b3b3b3b3b4e3b3b3b3b37323131312032333131313b4d534e3b303b6e4d3b5541204e474953204c45574f5620414d4b4148433b4632313131,
0x3b3b3b3b3b4e3b3b3b3b3b4d534e3b303b6e4d3b494f204e474953204c45574f5620414d4b4148433b3033313131,
0x3b3b3b3b3b4e3b3b3b3b3b4d534e3b303b6e4d3b4b52414d204f20414d4b4148433b3133313131,
0x3b3b3b3b3b4e3b3b3b3b3b4d534e3b303b6e4d3b4b52414d20554120414d4b4148433b3233313131,
0x3b3b3b3b3b4e3b3b3b3b3b4d534e3b393b6e4d3b414d4152495620414d4b4148433b3333313131,
0x3b3b3b3b3b4e3b3b3b3b3b4d534e3b393b6e4d3b4141595941414d20414d4b4148433b3433313131,
0x3b3b3b3b3b4e3b303b303b303b3b4c3b303b644e3b4f52455a20544947494420414d4b4148433b3633313131,
0x3b3b3b3b3b4e3b313b313b313b3b4c3b303b644e3b454e4f20544947494420414d4b4148433b3733313131,
0x3b3b3b3b3b4e3b323b323b323b3b4c3b303b644e3b4f575420544947494420414d4b4148433b3833313131,
0x3b3b3b3b3b4e3b333b333b333b3b4c3b303b644e3b454552485420544947494420414d4b4148433b3933313131,
0x3b3b3b3b3b4e3b343b343b343b3b4c3b303b644e3b52554f4620544947494420414d4b4148433b4133313131,
0x3b3b3b3b3b4e3b353b353b353b3b4c3b303b644e3b4556494620544947494420414d4b4148433b4233313131,
0x3b3b3b3b3b4e3b363b363b363b3b4c3b303b644e3b58495320544947494420414d4b4148433b4333313131,
0x3b3b3b3b3b4e3b373b373b373b3b4c3b303b644e3b4e4556455320544947494420414d4b4148433b4433313131,
0x3b3b3b3b3b4e3b383b383b383b3b4c3b303b644e3b544847494520544947494420414d4b4148433b4533313131,
0x3b3b3b3b3b4e3b393b393b393b3b4c3b303b644e3b454e494e20544947494420414d4b4148433b4633313131,
0x3b3b3b3b3b4e3b3b3b3b3b4c3b303b6f503b4b52414d204e4f495443455320414d4b4148433b3034313131,
0x3b3b3b3b3b4e3b3b3b3b3b4c3b303b6f503b41444e414420414d4b4148433b3134313131,
0x3b3b3b3b3b4e3b3b3b3b3b4c3b303b6f503b41444e414420454c42554f4420414d4b4148433b3234313131,
0x3b3b3b3b3b4e3b3b3b3b3b4c3b303b6f503b4b52414d204e4f49545345555120414d4b4148433b3334313131,
0x3b3b3b3b3b4e3b3b3b3b3b4c3b303b6f4c3b412052455454454c20494e414a4148414d3b3035313131,
0x3b3b3b3b3b4e3b3b3b3b3b4c3b303b6f4c3b492052455454454c20494e414a4148414d3b3135313131,
0x3b3b3b3b3b4e3b3b3b3b3b4c3b303b6f4c3b552052455454454c20494e414a4148414d3b3235313131,
0x3b3b3b3b3b4e3b3b3b3b3b4c3b303b6f4c3b452052455454454c20494e414a4148414d3b3335313131,
0x3b3b3b3b3b4e3b3b3b3b3b4c3b303b6f4c3b4f2052455454454c20494e414a4148414d3b3435313131,
0x3b3b3b3b3b4e3b3b3b3b3b4c3b303b6f4c3b414b2052455454454c20494e414a4148414d3b3535313131,
0x3b3b3b3b3b4e3b3b3b3b3b4c3b303b6f4c3b41484b2052455454454c20494e414a4148414d3b3635313131,
0x3b3b3b3b3b4e3b3b3b3b3b4c3b303b6f4c3b41472052455454454c20494e414a4148414d3b3735313131,
0x3b3b3b3b3b4e3b3b3b3b3b4c3b303b6f4c3b4148472052455454454c20494e414a4148414d3b3835313131,
0x3b3b3b3b3b4e3b3b3b3b3b4c3b303b6f4c3b41432052455454454c20494e414a4148414d3b3935313131,
0x3b3b3b3b3b4e3b3b3b3b3b4c3b303b6f4c3b4148432052455454454c20494e414a4148414d3b4135313131,
0x3b3b3b3b3b4e3b3b3b3b3b4c3b303b6f4c3b414a2052455454454c20494e414a4148414d3b4235313131,
0x3b3b3b3b3b4e3b3b3b3b3b4c3b303b6f4c3b41484a2052455454454c20494e414a4148414d3b4335313131,
0x3b3b3b3b3b4e3b3b3b3b3b4c3b303b6f4c3b41594e2052455454454c20494e414a4148414d3b4435313131,
0x3b3b3b3b3b4e3b3b3b3b3b4c3b303b6f4c3b4154542052455454454c20494e414a4148414d3b4535313131,
0x3b3b3b3b3b4e3b3b3b3b3b4c3b303b6f4c3b414854542052455454454c20494e414a4148414d3b4635313131,
0x3b3b3b3b3b4e3b3b3b3b3b4c3b303b6f4c3b4144442052455454454c20494e414a4148414d3b3036313131,
0x3b3b3b3b3b4e3b3b3b3b3b4c3b303b6f4c3b414844442052455454454c20494e414a4148414d3b3136313131,
0x3b3b3b3b3b4e3b3b3b3b3b4c3b303b6f4c3b414e4e2052455454454c20494e414a4148414d3b3236313131,
0x3b3b3b3b3b4e3b3b3b3b3b4c3b303b6f4c3b41542052455454454c20494e414a4148414d3b3336313131,
0x3b3b3b3b3b4e3b3b3b3b3b4c3b303b6f4c3b4148542052455454454c20494e414a4148414d3b3436313131,
0x3b3b3b3b3b4e3b3b3b3b3b4c3b303b6f4c3b41442052455454454c20494e414a4148414d3b3536313131,
0x3b3b3b3b3b4e3b3b3b3b3b4c3b303b6f4c3b4148442052455454454c20494e414a4148414d3b3636313131,
0x3b3b3b3b3b4e3b3b3b3b3b4c3b303b6f4c3b414e2052455454454c20494e414a4148414d3b3736313131,
0x3b3b3b3b3b4e3b3b3b3b3b4c3b303b6f4c3b41502052455454454c20494e414a4148414d3b3836313131,
0x3b3b3b3b3b4e3b3b3b3b3b4c3b303b6f4c3b4148502052455454454c20494e414a4148414d3b3936313131,
0x3b3b3b3b3b4e3b3b3b3b3b4c3b303b6f4c3b41422052455454454c20494e414a4148414d3b4136313131,
0x3b3b3b3b3b4e3b3b3b3b3b4c3b303b6f4c3b4148422052455454454c20494e414a4148414d3b4236313131,
0x3b3b3b3b3b4e3b3b3b3b3b4c3b303b6f4c3b414d2052455454454c20494e414a4148414d3b4336313131,
0x3b3b3b3b3b4e3b3b3b3b3b4c3b303b6f4c3b41522052455454454c20494e414a4148414d3b4436313131,
0x3b3b3b3b3b4e3b3b3b3b3b4c3b303b6f4c3b414c2052455454454c20494e414a4148414d3b4536313131,
0x3b3b3b3b3b4e3b3b3b3b3b4c3b303b6f4c3b41562052455454454c20494e414a4148414d3b4636313131,
0x3b3b3b3b3b4e3b3b3b3b3b4c3b303b6f4c3b41532052455454454c20494e414a4148414d3b3037313131,
0x3b3b3b3b3b4e3b3b3b3b3b4c3b303b6f4c3b41482052455454454c20494e414a4148414d3b3137313131,
0x3b3b3b3b3b4e3b3b3b3b3b4c3b303b6f4c3b4152522052455454454c20494e414a4148414d3b3237313131,
0x3b3b3b3b3b4e3b3b3b3b3b4d534e3b373b6e4d3b41544b554e204e47495320494e414a4148414d3b3337313131,
0x3b3b3b3b3b4e3b3b3b3b3b4c3b303b6f503b4e474953204e4f4954414956455242424120494e414a4148414d3b3437313131,
0x3b3b3b3b3b4e3b3b3b3b3b4c3b303b6f503b4b52414d204e4f495443455320494e414a4148414d3b3537313131,
0x3b3b3b3b3b4e3b3b3b3b3b4c3b303b6f4c3b4952485320455255544147494c20494e414a4148414d3b3637313131,
0x3b3b3b3b3b4e3b3b3b3b3b4d534e3b303b6e4d3b55444e49424152444e4143204e47495320414441524148533b3038313131,
0x3b3b3b3b3b4e3b3b3b3b3b4d534e3b303b6e4d3b4152415653554e41204e47495320414441524148533b3138313131,
0x3b3b3b3b3b4e3b3b3b3b3b4c3b303b634d3b41475241534956204e47495320414441524148533b3238313131,
0x3b3b3b3b3b4e3b3b3b3b3b4c3b303b6f4c3b412052455454454c20414441524148533b3338313131,
0x3b3b3b3b3b4e3b3b3b3b3b4c3b303b6f4c3b41412052455454454c20414441524148533b3438313131,
0x3b3b3b3b3b4e3b3b3b3b3b4c3b303b6f4c3b492052455454454c20414441524148533b3538313131,
0x3b3b3b3b3b4e3b3b3b3b3b4c3b303b6f4c3b49492052455454454c20414441524148533b3638313131,
0x3b3b3b3b3b4e3b3b3b3b3b4c3b303b6f4c3b552052455454454c20414441524148533b3738313131,
0x3b3b3b3b3b4e3b3b3b3b3b4c3b303b6f4c3b55552052455454454c20414441524148533b3838313131,
0x3b3b3b3b3b4e3b3b3b3b3b4c3b303b6f4c3b522043494c41434f562052455454454c20414441524148533b3938313131,
0x3b3b3b3b3b4e3b3b3b3b3b4c3b303b6f4c3b52522043494c41434f562052455454454c20414441524148533b4138313131,
0x3b3b3b3b3b4e3b3b3b3b3b4c3b303b6f4c3b4c2043494c41434f562052455454454c20414441524148533b4238313131,
0x3b3b3b3b3b4e3b3b3b3b3b4c3b303b6f4c3b4c4c2043494c41434f562052455454454c20414441524148533b4338313131,
0x3b3b3b3b3b4e3b3b3b3b3b4c3b303b6f4c3b452052455454454c20414441524148533b4438313131,
0x3b3b3b3b3b4e3b3b3b3b3b4c3b303b6f4c3b49412052455454454c20414441524148533b4538313131,
0x3b3b3b3b3b4e3b3b3b3b3b4c3b303b6f4c3b4f2052455454454c20414441524148533b4638313131,
0x3b3b3b3b3b4e3b3b3b3b3b4c3b303b6f4c3b55412052455454454c20414441524148533b3039313131,
0x3b3b3b3b3b4e3b3b3b3b3b4c3b303b6f4c3b414b2052455454454c20414441524148533b3139313131,
0x3b3b3b3b3b4e3b3b3b3b3b4c3b303b6f4c3b41484b2052455454454c20414441524148533b3239313131,
0x3b3b3b3b3b4e3b3b3b3b3b4c3b303b6f4c3b41472052455454454c20414441524148533b3339313131,
0x3b3b3b3b3b4e3b3b3b3b3b4c3b303b6f4c3b4148472052455454454c20414441524148533b3439313131,
0x3b3b3b3b3b4e3b3b3b3b3b4c3b303b6f4c3b41474e2052455454454c20414441524148533b3539313131,
0x3b3b3b3b3b4e3b3b3b3b3b4c3b303b6f4c3b41432052455454454c20414441524148533b3639313131,
0x3b3b3b3b3b4e3b3b3b3b3b4c3b303b6f4c3b4148432052455454454c20414441524148533b3739313131,
0x3b3b3b3b3b4e3b3b3b3b3b4c3b303b6f4c3b414a2052455454454c20414441524148533b3839313131,
0x3b3b3b3b3b4e3b3b3b3b3b4c3b303b6f4c3b41484a2052455454454c20414441524148533b3939313131,
0x3b3b3b3b3b4e3b3b3b3b3b4c3b303b6f4c3b41594e2052455454454c20414441524148533b4139313131,
0x3b3b3b3b3b4e3b3b3b3b3b4c3b303b6f4c3b4154542052455454454c20414441524148533b4239313131,
0x3b3b3b3b3b4e3b3b3b3b3b4c3b303b6f4c3b414854542052455454454c20414441524148533b4339313131,
0x3b3b3b3b3b4e3b3b3b3b3b4c3b303b6f4c3b4144442052455454454c20414441524148533b4439313131,
0x3b3b3b3b3b4e3b3b3b3b3b4c3b303b6f4c3b414844442052455454454c20414441524148533b4539313131,
0x3b3b3b3b3b4e3b3b3b3b3b4c3b303b6f4c3b414e4e2052455454454c20414441524148533b4639313131,
0x3b3b3b3b3b4e3b3b3b3b3b4c3b303b6f4c3b41542052455454454c20414441524148533b3041313131,
0x3b3b3b3b3b4e3b3b3b3b3b4c3b303b6f4c3b4148542052455454454c20414441524148533b3141313131,
0x3b3b3b3b3b4e3b3b3b3b3b4c3b303b6f4c3b41442052455454454c20414441524148533b3241313131,
0x3b3b3b3b3b4e3b3b3b3b3b4c3b303b6f4c3b4148442052455454454c20414441524148533b3341313131,
0x3b3b3b3b3b4e3b3b3b3b3b4c3b303b6f4c3b414e2052455454454c20414441524148533b3441313131,
0x3b3b3b3b3b4e3b3b3b3b3b4c3b303b6f4c3b41502052455454454c20414441524148533b3541313131,
0x3b3b3b3b3b4e3b3b3b3b3b4c3b303b6f4c3b4148502052455454454c20414441524148533b3641313131,
0x3b3b3b3b3b4e3b3b3b3b3b4c3b303b6f4c3b41422052455454454c20414441524148533b3741313131,
0x3b3b3b3b3b4e3b3b3b3b3b4c3b303b6f4c3b4148422052455454454c20414441524148533b3841313131,
0x3b3b3b3b3b4e3b3b3b3b3b4c3b303b6f4c3b414d2052455454454c20414441524148533b3941313131,
0x3b3b3b3b3b4e3b3b3b3b3b4c3b303b6f4c3b41592052455454454c20414441524148533b4141313131,
0x3b3b3b3b3b4e3b3b3b3b3b4c3b303b6f4c3b41522052455454454c20414441524148533b4241313131,
0x3b3b3b3b3b4e3b3b3b3b3b4c3b303b6f4c3b414c2052455454454c20414441524148533b4341313131,
0x3b3b3b3b3b4e3b3b3b3b3b4c3b303b6f4c3b414c4c2052455454454c20414441524148533b4441313131,
0x3b3b3b3b3b4e3b3b3b3b3b4c3b303b6f4c3b41562052455454454c20414441524148533b4541313131,
0x3b3b3b3b3b4e3b3b3b3b3b4c3b303b6f4c3b4148532052455454454c20414441524148533b4641313131,
0x3b3b3b3b3b4e3b3b3b3b3b4c3b303b6f4c3b4153532052455454454c20414441524148533b3042313131,
0x3b3b3b3b3b4e3b3b3b3b3b4c3b303b6f4c3b41532052455454454c20414441524148533b3142313131,
0x3b3b3b3b3b4e3b3b3b3b3b4c3b303b6f4c3b41482052455454454c20414441524148533b3242313131,
0x3b3b3b3b3b4e3b3b3b3b3b4c3b303b634d3b4141204e474953204c45574f5620414441524148533b3342313131,
0x3b3b3b3b3b4e3b3b3b3b3b4c3b303b634d3b49204e474953204c45574f5620414441524148533b3442313131,
0x3b3b3b3b3b4e3b3b3b3b3b4c3b303b634d3b4949204e474953204c45574f5620414441524148533b3542313131,
0x3b3b3b3b3b4e3b3b3b3b3b4d534e3b303b6e4d3b55204e474953204c45574f5620414441524148533b3642313131,
0x3b3b3b3b3b4e3b3b3b3b3b4d534e3b303b6e4d3b5555204e474953204c45574f5620414441524148533b3742313131,
0x3b3b3b3b3b4e3b3b3b3b3b4d534e3b303b6e4d3b522043494c41434f56204e474953204c45574f5620414441524148533b3842313131,
0x3b3b3b3b3b4e3b3b3b3b3b4d534e3b303b6e4d3b52522043494c41434f56204e474953204c45574f5620414441524148533b3942313131,
0x3b3b3b3b3b4e3b3b3b3b3b4d534e3b303b6e4d3b4c2043494c41434f56204e474953204c45574f5620414441524148533b4142313131,
0x3b3b3b3b3b4e3b3b3b3b3b4d534e3b303b6e4d3b4c4c2043494c41434f56204e474953204c45574f5620414441524148533b4242313131,
0x3b3b3b3b3b4e3b3b3b3b3b4d534e3b303b6e4d3b45204e474953204c45574f5620414441524148533b4342313131,
0x3b3b3b3b3b4e3b3b3b3b3b4d534e3b303b6e4d3b4941204e474953204c45574f5620414441524148533b4442313131,
0x3b3b3b3b3b4e3b3b3b3b3b4d534e3b303b6e4d3b4f204e474953204c45574f5620414441524148533b4542313131]

end U5e.Data
