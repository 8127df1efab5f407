import Verif.Data.RawUcd
import Verif.Data.Ucd
import Verif.Proofs.Raw
import Verif.Spec.Ucd
set_option maxRecDepth 100000
set_option Elab.async false
/-! GENERATED by tools/gen_rawchk.py. The recorded octets of UnicodeData.txt have the content of Data/Ucd.lean:
every block of 256 lines is checked by kernel evaluation. -/
namespace U5e.Data
theorem lines80 : chkLines rawUcd80 ucd80 73916 74172 = true := by decide +kernel
theorem lines81 : chkLines rawUcd81 ucd81 74172 74428 = true := by decide +kernel
theorem lines82 : chkLines rawUcd82 ucd82 74428 74786 = true := by decide +kernel
theorem lines83 : chkLines rawUcd83 ucd83 74786 75054 = true := by decide +kernel
theorem lines84 : chkLines rawUcd84 ucd84 75054 78058 = true := by decide +kernel
theorem lines85 : chkLines rawUcd85 ucd85 78058 78314 = true := by decide +kernel
theorem lines86 : chkLines rawUcd86 ucd86 78314 78570 = true := by decide +kernel
theorem lines87 : chkLines rawUcd87 ucd87 78570 78826 = true := by decide +kernel
theorem lines88 : chkLines rawUcd88 ucd88 78826 83131 = true := by decide +kernel
theorem lines89 : chkLines rawUcd89 ucd89 83131 83387 = true := by decide +kernel
theorem lines90 : chkLines rawUcd90 ucd90 83387 92276 = true := by decide +kernel
theorem lines91 : chkLines rawUcd91 ucd91 92276 92532 = true := by decide +kernel
theorem lines92 : chkLines rawUcd92 ucd92 92532 92896 = true := by decide +kernel
theorem lines93 : chkLines rawUcd93 ucd93 92896 94072 = true := by decide +kernel
theorem lines94 : chkLines rawUcd94 ucd94 94072 100581 = true := by decide +kernel
theorem lines95 : chkLines rawUcd95 ucd95 100581 100837 = true := by decide +kernel
theorem lines96 : chkLines rawUcd96 ucd96 100837 101093 = true := by decide +kernel
theorem lines97 : chkLines rawUcd97 ucd97 101093 118877 = true := by decide +kernel
theorem lines98 : chkLines rawUcd98 ucd98 118877 119145 = true := by decide +kernel
theorem lines99 : chkLines rawUcd99 ucd99 119145 119610 = true := by decide +kernel
end U5e.Data
