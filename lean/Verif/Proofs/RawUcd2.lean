import Verif.Data.RawUcd
import Verif.Data.Ucd
import Verif.Proofs.Raw
import Verif.Spec.Ucd
set_option maxRecDepth 100000
set_option Elab.async false
/-! GENERATED by tools/gen_rawchk.py. The recorded octets of UnicodeData.txt have the content of Data/Ucd.lean:
every block of 256 lines is checked by kernel evaluation. -/
namespace U5e.Data
theorem lines40 : chkLines rawUcd40 ucd40 11417 11721 = true := by decide +kernel
theorem lines41 : chkLines rawUcd41 ucd41 11721 12052 = true := by decide +kernel
theorem lines42 : chkLines rawUcd42 ucd42 12052 12338 = true := by decide +kernel
theorem lines43 : chkLines rawUcd43 ucd43 12338 12605 = true := by decide +kernel
theorem lines44 : chkLines rawUcd44 ucd44 12605 12880 = true := by decide +kernel
theorem lines45 : chkLines rawUcd45 ucd45 12880 13137 = true := by decide +kernel
theorem lines46 : chkLines rawUcd46 ucd46 13137 40973 = true := by decide +kernel
theorem lines47 : chkLines rawUcd47 ucd47 40973 41229 = true := by decide +kernel
theorem lines48 : chkLines rawUcd48 ucd48 41229 41485 = true := by decide +kernel
theorem lines49 : chkLines rawUcd49 ucd49 41485 41741 = true := by decide +kernel
theorem lines50 : chkLines rawUcd50 ucd50 41741 41997 = true := by decide +kernel
theorem lines51 : chkLines rawUcd51 ucd51 41997 42265 = true := by decide +kernel
theorem lines52 : chkLines rawUcd52 ucd52 42265 42521 = true := by decide +kernel
theorem lines53 : chkLines rawUcd53 ucd53 42521 42805 = true := by decide +kernel
theorem lines54 : chkLines rawUcd54 ucd54 42805 43143 = true := by decide +kernel
theorem lines55 : chkLines rawUcd55 ucd55 43143 43429 = true := by decide +kernel
theorem lines56 : chkLines rawUcd56 ucd56 43429 43704 = true := by decide +kernel
theorem lines57 : chkLines rawUcd57 ucd57 43704 44021 = true := by decide +kernel
theorem lines58 : chkLines rawUcd58 ucd58 44021 63913 = true := by decide +kernel
theorem lines59 : chkLines rawUcd59 ucd59 63913 64171 = true := by decide +kernel
end U5e.Data
