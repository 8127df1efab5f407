import Verif.Data.RawUcd
import Verif.Data.Ucd
import Verif.Proofs.Raw
import Verif.Spec.Ucd
set_option maxRecDepth 100000
set_option Elab.async false
/-! GENERATED by tools/gen_rawchk.py. The recorded octets of UnicodeData.txt have the content of Data/Ucd.lean:
every block of 256 lines is checked by kernel evaluation. -/
namespace U5e.Data
theorem lines100 : chkLines rawUcd100 ucd100 119610 120029 = true := by decide +kernel
theorem lines101 : chkLines rawUcd101 ucd101 120029 120297 = true := by decide +kernel
theorem lines102 : chkLines rawUcd102 ucd102 120297 120555 = true := by decide +kernel
theorem lines103 : chkLines rawUcd103 ucd103 120555 120813 = true := by decide +kernel
theorem lines104 : chkLines rawUcd104 ucd104 120813 121069 = true := by decide +kernel
theorem lines105 : chkLines rawUcd105 ucd105 121069 121325 = true := by decide +kernel
theorem lines106 : chkLines rawUcd106 ucd106 121325 124967 = true := by decide +kernel
theorem lines107 : chkLines rawUcd107 ucd107 124967 125271 = true := by decide +kernel
theorem lines108 : chkLines rawUcd108 ucd108 125271 127088 = true := by decide +kernel
theorem lines109 : chkLines rawUcd109 ucd109 127088 127378 = true := by decide +kernel
theorem lines110 : chkLines rawUcd110 ucd110 127378 127889 = true := by decide +kernel
theorem lines111 : chkLines rawUcd111 ucd111 127889 128145 = true := by decide +kernel
theorem lines112 : chkLines rawUcd112 ucd112 128145 128401 = true := by decide +kernel
theorem lines113 : chkLines rawUcd113 ucd113 128401 128657 = true := by decide +kernel
theorem lines114 : chkLines rawUcd114 ucd114 128657 128950 = true := by decide +kernel
theorem lines115 : chkLines rawUcd115 ucd115 128950 129422 = true := by decide +kernel
theorem lines116 : chkLines rawUcd116 ucd116 129422 194803 = true := by decide +kernel
theorem lines117 : chkLines rawUcd117 ucd117 194803 195059 = true := by decide +kernel
theorem lines118 : chkLines rawUcd118 ucd118 195059 917876 = true := by decide +kernel
theorem lines119 : chkLines rawUcd119 ucd119 917876 1114110 = true := by decide +kernel
end U5e.Data
