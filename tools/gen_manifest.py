#!/usr/bin/env python3
"""MANIFEST.json from the theorem names Cnn_* in lean/Verif and the notes below."""
import re,glob,json,os
root=os.path.dirname(os.path.dirname(os.path.abspath(__file__)))
thms={}
for f in sorted(glob.glob(root+'/lean/Verif/**/*.lean',recursive=True)):
    ns=[]
    for l in open(f):
        m=re.match(r'(namespace|end) +([\w.]+)\s*$',l)
        if m and m.group(1)=='namespace': ns.append(m.group(2))
        elif m and ns and ns[-1]==m.group(2): ns.pop()
        m=re.match(r'\s*(?:protected |noncomputable )?theorem (C\d\d_\w+)',l)
        if m: thms.setdefault(m.group(1)[:3],[]).append('.'.join(ns+[m.group(1)]))
info=json.load(open(root+'/tools/status.json'))
ids=[json.loads(l)['id'] for l in open(root+'/properties.jsonl') if l.strip()]
claims=[]
for i in ids:
    t=thms.get(i,[])
    st,note=info.get(i,["proved",""])
    if not t: 
        st="partial"; note=note or "not yet proved"
    claims.append({"property":i,"status":st,"theorems":t,"note":note})
json.dump({"claims":claims},open(root+'/MANIFEST.json','w'),indent=1)
print({c['property']:len(c['theorems']) for c in claims})
