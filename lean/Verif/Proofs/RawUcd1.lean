import Verif.Data.RawUcd
import Verif.Data.Ucd
import Verif.Proofs.Raw
import Verif.Spec.Ucd
set_option maxRecDepth 100000
set_option Elab.async false
/-! GENERATED by tools/gen_rawchk.py. The recorded octets of UnicodeData.txt have the content of Data/Ucd.lean:
every block of 256 lines is checked by kernel evaluation. -/
namespace U5e.Data
theorem lines20 : chkLines rawUcd20 ucd20 5816 6134 = true := by decide +kernel
theorem lines21 : chkLines rawUcd21 ucd21 6134 6426 = true := by decide +kernel
theorem lines22 : chkLines rawUcd22 ucd22 6426 6722 = true := by decide +kernel
theorem lines23 : chkLines rawUcd23 ucd23 6722 7067 = true := by decide +kernel
theorem lines24 : chkLines rawUcd24 ucd24 7067 7400 = true := by decide +kernel
theorem lines25 : chkLines rawUcd25 ucd25 7400 7663 = true := by decide +kernel
theorem lines26 : chkLines rawUcd26 ucd26 7663 7924 = true := by decide +kernel
theorem lines27 : chkLines rawUcd27 ucd27 7924 8203 = true := by decide +kernel
theorem lines28 : chkLines rawUcd28 ucd28 8203 8498 = true := by decide +kernel
theorem lines29 : chkLines rawUcd29 ucd29 8498 8758 = true := by decide +kernel
theorem lines30 : chkLines rawUcd30 ucd30 8758 9014 = true := by decide +kernel
theorem lines31 : chkLines rawUcd31 ucd31 9014 9317 = true := by decide +kernel
theorem lines32 : chkLines rawUcd32 ucd32 9317 9573 = true := by decide +kernel
theorem lines33 : chkLines rawUcd33 ucd33 9573 9829 = true := by decide +kernel
theorem lines34 : chkLines rawUcd34 ucd34 9829 10085 = true := by decide +kernel
theorem lines35 : chkLines rawUcd35 ucd35 10085 10341 = true := by decide +kernel
theorem lines36 : chkLines rawUcd36 ucd36 10341 10597 = true := by decide +kernel
theorem lines37 : chkLines rawUcd37 ucd37 10597 10853 = true := by decide +kernel
theorem lines38 : chkLines rawUcd38 ucd38 10853 11109 = true := by decide +kernel
theorem lines39 : chkLines rawUcd39 ucd39 11109 11417 = true := by decide +kernel
end U5e.Data
