#!/usr/bin/env python3
"""Turn raw mutation records (one JSON per line, from a scratch copy) into
lines appended to seeded/LOG.jsonl (duplicates skipped).  usage: mutlog.py rec.jsonl... ; hand-written entries in
seeded/hand.jsonl-style files can be passed too (records with key 'hand')."""
import json,sys,os
R=os.path.dirname(os.path.dirname(os.path.abspath(__file__)))
title={}
for l in open(R+'/properties.jsonl'):
    d=json.loads(l); title[d['id']]=d['title']
out=[];seen=set()
for l in open(R+'/seeded/LOG.jsonl'):
    d=json.loads(l); seen.add((d['definition'],d['edit']))
for f in sys.argv[1:]:
    for l in open(f):
        x=json.loads(l)
        if x.get('invalid'): continue
        if 'old_block' in x: ed=' '.join(x['old_block'].split())+'  ==>  '+' '.join(x['new_block'].split())
        else: ed=x['old'].strip()+'  ==>  '+x['new'].strip()
        key=(f"lean/Verif/{x['file']}.lean: {x['defn']}",ed)
        if key in seen: continue
        seen.add(key)
        ids=sorted({a.split('_')[0] for a in x['affected']})
        claim=x.get('claim') or '; '.join(f'{i} ({title.get(i,"")})' for i in ids) or '(helper lemma of several claims; see theorems_failed)'
        rec=dict(definition=f"lean/Verif/{x['file']}.lean: {x['defn']}",edit=ed,claim=claim,
                 theorems_failed=x['failed']+[a for a in x['affected'] if a not in x['failed']],
                 theorems_tightened=x.get('tightened',[]))
        if x['survived']: rec['result']='survived'; rec['note']=x.get('note','')
        else:
            rec['result']='killed'
            if x.get('note'): rec['note']=x['note']
        out.append(rec)
with open(R+'/seeded/LOG.jsonl','a') as g:
    for r in out: g.write(json.dumps(r,ensure_ascii=False)+'\n')
print(len(out))
