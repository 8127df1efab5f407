#!/usr/bin/env python3
"""Copy the rows of the five *_data.hpp files of /repo verbatim into Lean list literals.

usage: tools/gen_tables.py [/repo]   (writes lean/Verif/Data/{Ccc,Dec,Kdec,Comp,Gcb}.lean)
"""
import re,sys,os
repo=sys.argv[1] if len(sys.argv)>1 else '/repo'
P=repo+'/src/u5e/props/'
OUT=os.path.join(os.path.dirname(os.path.dirname(os.path.abspath(__file__))),'lean/Verif/Data/')
CH=100
def rows(f):
    out=[]
    for l in open(P+f):
        l=l.strip()
        if not l: continue
        m=re.match(r'\{ (.*) \},?$',l); assert m,l
        out.append('['+', '.join(str(int(x)) for x in m.group(1).split(', '))+']')
    return out
def emit(mod,name,ty,rs,src,imp=''):
    s=imp+"set_option maxRecDepth 10000\n"
    s+="/-! GENERATED by tools/gen_tables.py from src/u5e/props/%s (all %d rows, verbatim, in order). -/\nnamespace U5e.Data\n\n"%(src,len(rs))
    n=(len(rs)+CH-1)//CH
    for i in range(n):
        c=rs[i*CH:(i+1)*CH]
        s+="/-- src/u5e/props/%s lines %d-%d. -/\ndef %s%d : List %s := [\n  %s]\n\n"%(src,i*CH+1,i*CH+len(c),name,i,ty,',\n  '.join(c))
    s+="/-- The whole table, src/u5e/props/%s. -/\n@[irreducible] def %sTable : List %s :=\n  %s\n\nend U5e.Data\n"%(src,name,ty,' ++ ('.join('%s%d'%(name,i) for i in range(n))+')'*(n-1))
    open(OUT+mod+'.lean','w').write(s)
emit('Ccc','ccc','(List Nat)',rows('canonical_combining_class_data.hpp'),'canonical_combining_class_data.hpp')
emit('Dec','dec','(List Nat)',rows('canonical_decomposition_mapping_data.hpp'),'canonical_decomposition_mapping_data.hpp')
emit('Kdec','kdec','(List Nat)',rows('compatibility_and_canonical_decomposition_mapping_data.hpp'),'compatibility_and_canonical_decomposition_mapping_data.hpp')
emit('Comp','comp','(List Nat)',rows('canonical_composition_mapping_data.hpp'),'canonical_composition_mapping_data.hpp')
g=[]
for l in open(P+'grapheme_cluster_break_data.hpp'):
    m=re.match(r'\{ (\d+), (\d+), grapheme_cluster_break::prop_value_type::(\w+) \},$',l.strip()); assert m,l
    g.append('(%d, %d, .%s)'%(int(m.group(1)),int(m.group(2)),m.group(3)))
emit('Gcb','gcb','(Nat × Nat × GCB)',g,'grapheme_cluster_break_data.hpp','import Verif.Model.GcbEnum\n')
