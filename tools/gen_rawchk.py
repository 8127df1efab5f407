#!/usr/bin/env python3
"""Writes lean/Verif/Proofs/RawUcd*.lean: one kernel-evaluated check per block of 256 lines of UnicodeData.txt."""
cps=[int(l.split(';')[0],16) for l in open('/repo/src/u5e/props/UnicodeData.txt')]
chunks=[cps[i:i+256] for i in range(0,len(cps),256)]
n=len(chunks)
bnd=[0]+[c[-1]+1 for c in chunks]
K=6   # parts, without asynchronous elaboration: keeps the memory of one prover process small
D=__file__.rsplit('/',2)[0]+'/lean/Verif/Proofs/'
def head(k):
    imp="" if k<K else "".join(f"import Verif.Proofs.RawUcd{i}\n" for i in range(K))
    return imp+"""import Verif.Data.RawUcd
import Verif.Data.Ucd
import Verif.Proofs.Raw
import Verif.Spec.Ucd
set_option maxRecDepth 100000
set_option Elab.async false
/-! GENERATED by tools/gen_rawchk.py. The recorded octets of UnicodeData.txt have the content of Data/Ucd.lean:
every block of 256 lines is checked by kernel evaluation. -/
namespace U5e.Data
"""
per=-(-n//K)
for k in range(K):
    o=head(k)
    for i in range(k*per,min(n,(k+1)*per)):
        o+=f"theorem lines{i} : chkLines rawUcd{i} ucd{i} {bnd[i]} {bnd[i+1]} = true := by decide +kernel\n"
    open(D+f'RawUcd{k}.lean','w').write(o+"end U5e.Data\n")
o=head(K)
e=f"(chkLines_spec lines{n-1})"
for i in reversed(range(n-1)):
    e=f"((chkLines_spec lines{i}).append {e})"
o+=f"""
/-- UnicodeData.txt is a well-formed file with the content of Data/Ucd.lean. -/
theorem unicodeData_lines : LinesOk unicodeDataRaw ucdRows 0 {bnd[n]} := by
  unfold unicodeDataRaw ucdRows
  exact {e}

end U5e.Data
"""
open(D+'RawUcd.lean','w').write(o)
