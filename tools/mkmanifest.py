#!/usr/bin/env python3
"""Collect theorem names C<nn>_* from lean/Verif/Properties/*.lean into MANIFEST.json."""
import re,glob,json,os
root=os.path.dirname(os.path.dirname(os.path.abspath(__file__)))
notes=json.load(open(os.path.join(root,'tools/notes.json')))
props=[json.loads(l)['id'] for l in open(os.path.join(root,'properties.jsonl'))]
th={p:[] for p in props}
for f in sorted(glob.glob(root+'/lean/Verif/Properties/*.lean')):
    src=open(f).read()
    src=re.sub(r'/-.*?-/','',src,flags=re.S)
    for m in re.finditer(r'^theorem\s+((?:C\d\d_)+)([\w\.]+)',src,re.M):
        for p in re.findall(r'C\d\d',m.group(1)):
            th[p].append('U5e.'+m.group(1)+m.group(2))
claims=[]
for p in props:
    st,note=notes.get(p,['proved',''])
    if not th[p]:
        st='partial'; note='not yet proved. '+note
    claims.append({"property":p,"status":st,"theorems":th[p],"note":note})
json.dump({"claims":claims},open(root+'/MANIFEST.json','w'),indent=1)
for c in claims: print(c['property'],c['status'],len(c['theorems']))
