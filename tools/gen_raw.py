#!/usr/bin/env python3
"""Copy files of /repo octet by octet into Lean literals.

usage: tools/gen_raw.py [/repo]        writes lean/Verif/Data/Raw*.lean
       tools/gen_raw.py --check [/repo] reads them back and compares them with the files

One natural number per line (without its newline): the octets of the line in little-endian order, so that
the first octet is the number modulo 256. Nothing is parsed. No line is empty or contains a zero octet
at its end, except that empty lines are written 0.
"""
import sys,os,re
args=[a for a in sys.argv[1:] if a!='--check']; check='--check' in sys.argv
repo=args[0] if args else '/repo'
P=repo+'/src/u5e/props/'
OUT=os.path.join(os.path.dirname(os.path.dirname(os.path.abspath(__file__))),'lean/Verif/Data/')
CH=256; PER=15
FILES=[('UnicodeData.txt','RawUcd','rawUcd','unicodeData'),('GraphemeBreakProperty.txt','RawGcb','rawGcb','graphemeBreakProperty'),
 ('CompositionExclusions.txt','RawExcl','rawExcl','compositionExclusions'),
 ('canonical_combining_class_data.hpp','RawCccHdr','rawCccHdr','cccHeader'),
 ('canonical_decomposition_mapping_data.hpp','RawDecHdr','rawDecHdr','decHeader'),
 ('compatibility_and_canonical_decomposition_mapping_data.hpp','RawKdecHdr','rawKdecHdr','kdecHeader'),
 ('canonical_composition_mapping_data.hpp','RawCompHdr','rawCompHdr','compHeader'),
 ('grapheme_cluster_break_data.hpp','RawGcbHdr','rawGcbHdr','gcbHeader')]
def lit(b):
    assert not b.endswith(b'\0')
    return hex(int.from_bytes(b,'little'))
HEAD='set_option maxRecDepth 10000\n/-! GENERATED by tools/gen_raw.py: the octets of src/u5e/props/%s, one number per line (little-endian). -/\nnamespace U5e.Data\n\n'
def back(x): return x.to_bytes((x.bit_length()+7)//8,'little')
for f,mod,nm,top in FILES:
    data=open(P+f,'rb').read(); L=data.split(b'\n')
    final=data.endswith(b'\n')
    if final: L=L[:-1]
    n=(len(L)+CH-1)//CH
    defs=['/-- src/u5e/props/%s lines %d-%d. -/\ndef %s%d : List Nat := [\n%s]\n\n'%(f,i*CH+1,min(len(L),i*CH+CH),nm,i,',\n'.join(lit(x) for x in L[i*CH:i*CH+CH])) for i in range(n)]
    doc='/-- The lines of src/u5e/props/%s%s. -/\n@[irreducible] def %sRaw : List Nat :=\n  %s\n\n'%(f,'' if final else ' (the last one without a newline)',top,' ++ ('.join('%s%d'%(nm,i) for i in range(n))+')'*(n-1))
    if check:
        got=b''.join(back(int(x,16))+b'\n' for m in ([mod] if n<=PER else ['%s%d'%(mod,j) for j in range((n+PER-1)//PER)])
              for x in re.findall(r'^(0x[0-9a-f]+)[,\]]',open(OUT+m+'.lean').read(),re.M))
        if not final: got=got[:-1]
        print(f,'same' if got==data else 'DIFFERENT'); continue
    if n<=PER:
        open(OUT+mod+'.lean','w').write(HEAD%f+''.join(defs)+doc+'end U5e.Data\n')
    else:
        ms=[]
        for j in range((n+PER-1)//PER):
            ms.append('%s%d'%(mod,j))
            open(OUT+ms[-1]+'.lean','w').write(HEAD%f+''.join(defs[j*PER:(j+1)*PER])+'end U5e.Data\n')
        open(OUT+mod+'.lean','w').write(''.join('import Verif.Data.%s\n'%m for m in ms)+HEAD%f+doc+'end U5e.Data\n')
    print(f,len(L),n,final)
