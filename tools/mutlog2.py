#!/usr/bin/env python3
"""Append the records of a mutation run (list-of-edits form, one JSON per line) to seeded/LOG.jsonl.  usage: mutlog2.py run.out"""
import json,sys,os
R=os.path.dirname(os.path.dirname(os.path.abspath(__file__)))
seen={(json.loads(l)['definition'],json.loads(l)['edit']) for l in open(R+'/seeded/LOG.jsonl')}
n=0
with open(R+'/seeded/LOG.jsonl','a') as f:
    for l in open(sys.argv[1]):
        x=json.loads(l)
        rec=dict(definition=f"lean/Verif/{x['edits'][0][0]}.lean: {x['defn']}",
                 edit=x['name']+': '+'; '.join(f"{a}: `{o.strip()[:300]}` -> `{b.strip()[:300]}`" for a,o,b in x['edits']),
                 claim=x['claim'],theorems_failed=x['failed'],theorems_tightened=x.get('tightened',[]),
                 result='survived' if x['survived'] else 'killed')
        if x.get('note'): rec['note']=x['note']
        if (rec['definition'],rec['edit']) in seen: continue
        f.write(json.dumps(rec,ensure_ascii=False)+'\n'); n+=1
print(n)
