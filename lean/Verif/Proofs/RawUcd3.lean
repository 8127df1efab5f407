import Verif.Data.RawUcd
import Verif.Data.Ucd
import Verif.Proofs.Raw
import Verif.Spec.Ucd
set_option maxRecDepth 100000
set_option Elab.async false
/-! GENERATED by tools/gen_rawchk.py. The recorded octets of UnicodeData.txt have the content of Data/Ucd.lean:
every block of 256 lines is checked by kernel evaluation. -/
namespace U5e.Data
theorem lines60 : chkLines rawUcd60 ucd60 64171 64504 = true := by decide +kernel
theorem lines61 : chkLines rawUcd61 ucd61 64504 64760 = true := by decide +kernel
theorem lines62 : chkLines rawUcd62 ucd62 64760 65082 = true := by decide +kernel
theorem lines63 : chkLines rawUcd63 ucd63 65082 65348 = true := by decide +kernel
theorem lines64 : chkLines rawUcd64 ucd64 65348 65669 = true := by decide +kernel
theorem lines65 : chkLines rawUcd65 ucd65 65669 65938 = true := by decide +kernel
theorem lines66 : chkLines rawUcd66 ucd66 65938 66414 = true := by decide +kernel
theorem lines67 : chkLines rawUcd67 ucd67 66414 66724 = true := by decide +kernel
theorem lines68 : chkLines rawUcd68 ucd68 66724 67157 = true := by decide +kernel
theorem lines69 : chkLines rawUcd69 ucd69 67157 67432 = true := by decide +kernel
theorem lines70 : chkLines rawUcd70 ucd70 67432 67984 = true := by decide +kernel
theorem lines71 : chkLines rawUcd71 ucd71 67984 68309 = true := by decide +kernel
theorem lines72 : chkLines rawUcd72 ucd72 68309 68742 = true := by decide +kernel
theorem lines73 : chkLines rawUcd73 ucd73 68742 69774 = true := by decide +kernel
theorem lines74 : chkLines rawUcd74 ucd74 69774 70079 = true := by decide +kernel
theorem lines75 : chkLines rawUcd75 ucd75 70079 70441 = true := by decide +kernel
theorem lines76 : chkLines rawUcd76 ucd76 70441 71073 = true := by decide +kernel
theorem lines77 : chkLines rawUcd77 ucd77 71073 71466 = true := by decide +kernel
theorem lines78 : chkLines rawUcd78 ucd78 71466 72813 = true := by decide +kernel
theorem lines79 : chkLines rawUcd79 ucd79 72813 73916 = true := by decide +kernel
end U5e.Data
