#!/usr/bin/env python3
"""Copy the fields the generators read from the checked-in UCD files of /repo into Lean literals.

usage: tools/gen_ucd.py [/repo]  (writes lean/Verif/Data/{Ucd,UcdTree,CompExcl,GcbFile}.lean)

UnicodeData.txt: of every line whose combining class (field 3) is not 0 or whose decomposition
(field 5) is not empty: codepoint, class, kind of the tag in front of the decomposition (0 none,
1 "<compat> ", 2 any other), decomposition. The generators compare codepoints as strings; this script
checks that every codepoint and every decomposition entry is written in the canonical form (upper-case,
at least four digits, no other leading zeros), so that equal strings are equal numbers, that lines are
in increasing codepoint order without duplicates, and that entries are separated by single spaces.
"""
import re,sys,os
repo=sys.argv[1] if len(sys.argv)>1 else '/repo'
P=repo+'/src/u5e/props/'
OUT=os.path.join(os.path.dirname(os.path.dirname(os.path.abspath(__file__))),'lean/Verif/Data/')
CH=100
CANON='0[0-9A-F]{3}|[1-9A-F][0-9A-F]{3,5}'
rows=[];lines=[];last=-1
for n,l in enumerate(open(P+'UnicodeData.txt'),1):
    f=l.rstrip('\n').split(';')
    assert re.fullmatch(CANON,f[0]),l
    cp=int(f[0],16); assert cp>last; last=cp
    assert re.fullmatch(r'0|[1-9]\d*',f[3]),l
    dec=f[5]; tag=0
    if dec.startswith('<compat> '): tag=1; dec=dec[9:]
    elif dec.startswith('<'): tag=2; dec=re.sub('^<[^>]*> ','',dec)
    es=dec.split(' ') if dec else []
    assert all(re.fullmatch(CANON,x) for x in es),l
    if f[3]!='0' or es:
        rows.append((cp,int(f[3]),tag,[int(x,16) for x in es])); lines.append(n)
def lit(r): return '⟨%d, %d, %d, [%s]⟩'%(r[0],r[1],r[2],', '.join(map(str,r[3])))
def emit(mod,name,ty,rs,cite,doc,imp):
    s=imp+"set_option maxRecDepth 10000\n/-! GENERATED by tools/gen_ucd.py from %s. -/\nnamespace U5e.Data\nopen U5e\n\n"%doc
    n=(len(rs)+CH-1)//CH
    for i in range(n):
        c=rs[i*CH:(i+1)*CH]
        s+="/-- %s -/\ndef %s%d : List %s := [\n  %s]\n\n"%(cite(i*CH,i*CH+len(c)-1),name,i,ty,',\n  '.join(c))
    s+="/-- All of it: %s. -/\n@[irreducible] def %sRows : List %s :=\n  %s\n\nend U5e.Data\n"%(doc,name,ty,' ++ ('.join('%s%d'%(name,i) for i in range(n))+')'*(n-1))
    open(OUT+mod+'.lean','w').write(s)
IMP='import Verif.Model.Ucd\n'
# chunks aligned with those of tools/gen_raw.py
BL=256; doc='src/u5e/props/UnicodeData.txt (the %d of %d lines that have a non-zero class or a decomposition, in order)'%(len(rows),n)
s=IMP+"set_option maxRecDepth 10000\n/-! GENERATED by tools/gen_ucd.py from %s. -/\nnamespace U5e.Data\nopen U5e\n\n"%doc
nb=(n+BL-1)//BL
for i in range(nb):
    c=[lit(r) for r,l in zip(rows,lines) if i*BL<l<=(i+1)*BL]
    s+="/-- src/u5e/props/UnicodeData.txt, relevant lines among %d-%d. -/\ndef ucd%d : List UcdRow := [%s]\n\n"%(i*BL+1,min(n,(i+1)*BL),i,('\n  ' if c else '')+',\n  '.join(c))
s+="/-- All of it: %s. -/\n@[irreducible] def ucdRows : List UcdRow :=\n  %s\n\nend U5e.Data\n"%(doc,' ++ ('.join('ucd%d'%i for i in range(nb))+')'*(nb-1))
open(OUT+'Ucd.lean','w').write(s)
# exclusions, with the substitutions of canonical_composition_mapping_data.pl:43-46
ex=[];exl=[]
for n,l in enumerate(open(P+'CompositionExclusions.txt'),1):
    l=l.rstrip('\n'); l=re.sub(r'#.*','',l,count=1); l=re.sub(r'\s.+','',l,count=1)
    if not l: continue
    assert re.fullmatch(CANON,l),l
    ex.append(str(int(l,16))); exl.append(n)
emit('CompExcl','excl','Nat',ex,lambda a,b:'src/u5e/props/CompositionExclusions.txt, entries of lines %d-%d.'%(exl[a],exl[b]),
     'src/u5e/props/CompositionExclusions.txt (all %d entries, in order)'%len(ex),'')
g=[];gl=[]
for n,l in enumerate(open(P+'GraphemeBreakProperty.txt'),1):
    if not re.match('[A-F0-9]',l): continue
    m=re.match(r'([0-9A-F]+)(?:\.\.([0-9A-F]+))?\s+; (\S+) #.+$',l); assert m,l
    lo=int(m.group(1),16); hi=int(m.group(2) or m.group(1),16)
    g.append('(%d, %d, .%s)'%(lo,hi,m.group(3).upper())); gl.append(n)
emit('GcbFile','gcbFile','(Nat × Nat × GCB)',g,lambda a,b:'src/u5e/props/GraphemeBreakProperty.txt, entries of lines %d-%d.'%(gl[a],gl[b]),
     'src/u5e/props/GraphemeBreakProperty.txt (all %d entries, in order)'%len(g),'import Verif.Model.GcbEnum\n')
# search tree over the rows (proof aid)
rs=[lit(r) for r in rows]; defs=[]
def t(lo,hi):
    if lo>=hi: return '.leaf'
    m=(lo+hi)//2
    return '(.node %s %s %s)'%(t(lo,m),rs[m],t(m+1,hi))
def big(lo,hi):
    if hi-lo<=64:
        n='ucdT%d'%len(defs); defs.append((n,t(lo,hi))); return n
    m=(lo+hi)//2
    a=big(lo,m); b=big(m+1,hi)
    return '(.node %s %s %s)'%(a,rs[m],b)
top=big(0,len(rs))
s='import Verif.Proofs.Tree\nimport Verif.Model.Ucd\nset_option maxRecDepth 10000\n/-! GENERATED by tools/gen_ucd.py: the rows of Data/Ucd.lean as a search tree (proof aid). -/\nnamespace U5e.Data\nopen U5e\n\n'
for n,b in defs: s+='/-- Rows of Data/Ucd.lean (proof aid). -/\ndef %s : Tree UcdRow := %s\n\n'%(n,b)
s+='/-- All rows of Data/Ucd.lean (proof aid). -/\n@[irreducible] def ucdTree : Tree UcdRow := %s\n\nend U5e.Data\n'%top
open(OUT+'UcdTree.lean','w').write(s)
print(len(rows),len(ex),len(g))
