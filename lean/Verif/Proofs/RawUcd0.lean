import Verif.Data.RawUcd
import Verif.Data.Ucd
import Verif.Proofs.Raw
import Verif.Spec.Ucd
set_option maxRecDepth 100000
set_option Elab.async false
/-! GENERATED by tools/gen_rawchk.py. The recorded octets of UnicodeData.txt have the content of Data/Ucd.lean:
every block of 256 lines is checked by kernel evaluation. -/
namespace U5e.Data
theorem lines0 : chkLines rawUcd0 ucd0 0 256 = true := by decide +kernel
theorem lines1 : chkLines rawUcd1 ucd1 256 512 = true := by decide +kernel
theorem lines2 : chkLines rawUcd2 ucd2 512 768 = true := by decide +kernel
theorem lines3 : chkLines rawUcd3 ucd3 768 1033 = true := by decide +kernel
theorem lines4 : chkLines rawUcd4 ucd4 1033 1289 = true := by decide +kernel
theorem lines5 : chkLines rawUcd5 ucd5 1289 1578 = true := by decide +kernel
theorem lines6 : chkLines rawUcd6 ucd6 1578 1835 = true := by decide +kernel
theorem lines7 : chkLines rawUcd7 ucd7 1835 2115 = true := by decide +kernel
theorem lines8 : chkLines rawUcd8 ucd8 2115 2466 = true := by decide +kernel
theorem lines9 : chkLines rawUcd9 ucd9 2466 2850 = true := by decide +kernel
theorem lines10 : chkLines rawUcd10 ucd10 2850 3229 = true := by decide +kernel
theorem lines11 : chkLines rawUcd11 ucd11 3229 3561 = true := by decide +kernel
theorem lines12 : chkLines rawUcd12 ucd12 3561 3933 = true := by decide +kernel
theorem lines13 : chkLines rawUcd13 ucd13 3933 4233 = true := by decide +kernel
theorem lines14 : chkLines rawUcd14 ucd14 4233 4497 = true := by decide +kernel
theorem lines15 : chkLines rawUcd15 ucd15 4497 4763 = true := by decide +kernel
theorem lines16 : chkLines rawUcd16 ucd16 4763 5041 = true := by decide +kernel
theorem lines17 : chkLines rawUcd17 ucd17 5041 5301 = true := by decide +kernel
theorem lines18 : chkLines rawUcd18 ucd18 5301 5557 = true := by decide +kernel
theorem lines19 : chkLines rawUcd19 ucd19 5557 5816 = true := by decide +kernel
end U5e.Data
