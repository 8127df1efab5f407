import Verif.Data.RawUcd0
import Verif.Data.RawUcd1
import Verif.Data.RawUcd2
import Verif.Data.RawUcd3
import Verif.Data.RawUcd4
import Verif.Data.RawUcd5
import Verif.Data.RawUcd6
import Verif.Data.RawUcd7
set_option maxRecDepth 10000
/-! GENERATED by tools/gen_raw.py: the octets of src/u5e/props/UnicodeData.txt, one number per line (little-endian). -/
namespace U5e.Data

/-- The lines of src/u5e/props/UnicodeData.txt. -/
@[irreducible] def unicodeDataRaw : List Nat :=
  rawUcd0 ++ (rawUcd1 ++ (rawUcd2 ++ (rawUcd3 ++ (rawUcd4 ++ (rawUcd5 ++ (rawUcd6 ++ (rawUcd7 ++ (rawUcd8 ++ (rawUcd9 ++ (rawUcd10 ++ (rawUcd11 ++ (rawUcd12 ++ (rawUcd13 ++ (rawUcd14 ++ (rawUcd15 ++ (rawUcd16 ++ (rawUcd17 ++ (rawUcd18 ++ (rawUcd19 ++ (rawUcd20 ++ (rawUcd21 ++ (rawUcd22 ++ (rawUcd23 ++ (rawUcd24 ++ (rawUcd25 ++ (rawUcd26 ++ (rawUcd27 ++ (rawUcd28 ++ (rawUcd29 ++ (rawUcd30 ++ (rawUcd31 ++ (rawUcd32 ++ (rawUcd33 ++ (rawUcd34 ++ (rawUcd35 ++ (rawUcd36 ++ (rawUcd37 ++ (rawUcd38 ++ (rawUcd39 ++ (rawUcd40 ++ (rawUcd41 ++ (rawUcd42 ++ (rawUcd43 ++ (rawUcd44 ++ (rawUcd45 ++ (rawUcd46 ++ (rawUcd47 ++ (rawUcd48 ++ (rawUcd49 ++ (rawUcd50 ++ (rawUcd51 ++ (rawUcd52 ++ (rawUcd53 ++ (rawUcd54 ++ (rawUcd55 ++ (rawUcd56 ++ (rawUcd57 ++ (rawUcd58 ++ (rawUcd59 ++ (rawUcd60 ++ (rawUcd61 ++ (rawUcd62 ++ (rawUcd63 ++ (rawUcd64 ++ (rawUcd65 ++ (rawUcd66 ++ (rawUcd67 ++ (rawUcd68 ++ (rawUcd69 ++ (rawUcd70 ++ (rawUcd71 ++ (rawUcd72 ++ (rawUcd73 ++ (rawUcd74 ++ (rawUcd75 ++ (rawUcd76 ++ (rawUcd77 ++ (rawUcd78 ++ (rawUcd79 ++ (rawUcd80 ++ (rawUcd81 ++ (rawUcd82 ++ (rawUcd83 ++ (rawUcd84 ++ (rawUcd85 ++ (rawUcd86 ++ (rawUcd87 ++ (rawUcd88 ++ (rawUcd89 ++ (rawUcd90 ++ (rawUcd91 ++ (rawUcd92 ++ (rawUcd93 ++ (rawUcd94 ++ (rawUcd95 ++ (rawUcd96 ++ (rawUcd97 ++ (rawUcd98 ++ (rawUcd99 ++ (rawUcd100 ++ (rawUcd101 ++ (rawUcd102 ++ (rawUcd103 ++ (rawUcd104 ++ (rawUcd105 ++ (rawUcd106 ++ (rawUcd107 ++ (rawUcd108 ++ (rawUcd109 ++ (rawUcd110 ++ (rawUcd111 ++ (rawUcd112 ++ (rawUcd113 ++ (rawUcd114 ++ (rawUcd115 ++ (rawUcd116 ++ (rawUcd117 ++ (rawUcd118 ++ (rawUcd119)))))))))))))))))))))))))))))))))))))))))))))))))))))))))))))))))))))))))))))))))))))))))))))))))))))))))))))))))))))))

end U5e.Data
