#!/usr/bin/env python3
"""Print the statements (without proofs) of the theorems of a property.  usage: stmts.py C01 C02 ..."""
import re,sys,glob,json
props={json.loads(l)['id']:json.loads(l) for l in open('/verif/properties.jsonl')}
files=sorted(glob.glob('/verif/lean/Verif/*.lean'))
src={f:open(f).read() for f in files}
for c in sys.argv[1:]:
    p=props[c]; print('=====',c,p['title']); print(p['statement']); print('  quantifier:',p['quantifier'])
    for f,s in src.items():
        for m in re.finditer(r'(/--(?:(?!-/).)*-/\s*)?(?:omit [^\n]* in\s*)?theorem '+c+r'_\w+.*?(?= := by\b| :=\n|\s:=\s)',s,re.S):
            print('--',f.split('/')[-1]); print(m.group(0))
