#!/usr/bin/env python3
"""Generates /verif/MANIFEST.json from the theorem names in lean/Verif/Props (theorems c<NN>_...)."""
import json, os, re, glob
here=os.path.dirname(os.path.abspath(__file__))
root=os.path.join(here,'..')
props=[json.loads(l) for l in open(os.path.join(root,'properties.jsonl'))]
th={}
for f in sorted(glob.glob(os.path.join(root,'lean/Verif/Props/*.lean'))):
    for m in re.finditer(r'^theorem (c(\d\d\d?)_\w+)',open(f).read(),re.M):
        th.setdefault('C'+m.group(2),[]).append('Chrono.Props.'+m.group(1))
NOTES={}
exec(open(os.path.join(here,'manifest_notes.py')).read())
claims=[]
for p in props:
    i=p['id']; t=th.get(i,[])
    st,note=NOTES.get(i,(None,''))
    if st is None:
        st='partial' if (not t or any(x.endswith('_partial') or x.endswith('_refuted') for x in t)) else 'proved'
    if not t and st!='not_applicable': 
        print('no theorem for',i)
        continue
    claims.append(dict(property=i,status=st,theorems=t,note=note))
json.dump(dict(claims=claims),open(os.path.join(root,'MANIFEST.json'),'w'),indent=1,ensure_ascii=False)
print(len(claims),'claims')
