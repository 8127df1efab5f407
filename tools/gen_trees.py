#!/usr/bin/env python3
"""Balanced search trees with the same rows as the tables of gen_tables.py, for fast kernel evaluation.

They are proof aids only: Proofs/TreeTables.lean proves that the in-order traversal of each tree IS the
table of Data/*.lean, so nothing here is trusted.
"""
import re,os
D=os.path.join(os.path.dirname(os.path.dirname(os.path.abspath(__file__))),'lean/Verif/Data/')
def rows(mod):
    out=[]
    for l in open(D+mod+'.lean'):
        m=re.match(r'  ([\[\(]\d.*[\]\)])[\],]?$',l.rstrip('\n'))
        if m:
            r=m.group(1)
            if r.endswith(']]') or r.endswith(')]'): r=r[:-1]
            out.append(r)
    return out
def emit(mod,name,ty):
    rs=rows(mod)
    defs=[]
    def t(lo,hi,depth):
        if lo>=hi: return '.leaf'
        m=(lo+hi)//2
        return '(.node %s %s %s)'%(t(lo,m,depth),rs[m],t(m+1,hi,depth))
    def big(lo,hi):
        if hi-lo<=64:
            n='%sT%d'%(name,len(defs)); defs.append((n,t(lo,hi,0))); return n
        m=(lo+hi)//2
        a=big(lo,m); b=big(m+1,hi)
        return '(.node %s %s %s)'%(a,rs[m],b)
    top=big(0,len(rs))
    s='import Verif.Proofs.Tree\n'+('import Verif.Model.GcbEnum\n' if mod=='Gcb' else '')
    s+='set_option maxRecDepth 10000\n/-! GENERATED by tools/gen_trees.py: the rows of Data/%s.lean as a search tree (proof aid). -/\nnamespace U5e.Data\nopen U5e\n\n'%mod
    for n,b in defs: s+='/-- Rows of Data/%s.lean (proof aid). -/\ndef %s : Tree %s := %s\n\n'%(mod,n,ty,b)
    s+='/-- All rows of Data/%s.lean (proof aid). -/\n@[irreducible] def %sTree : Tree %s := %s\n\nend U5e.Data\n'%(mod,name,ty,top)
    open(D+mod+'Tree.lean','w').write(s)
    print(mod,len(rs))
emit('Ccc','ccc','(List Nat)')
emit('Dec','dec','(List Nat)')
emit('Kdec','kdec','(List Nat)')
emit('Comp','comp','(List Nat)')
emit('Gcb','gcb','(Nat × Nat × GCB)')
