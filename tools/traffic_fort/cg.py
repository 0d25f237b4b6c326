import re
src=open('/verif/lean/Verif/ThrFortGemm.lean').read()+open('/verif/lean/Verif/ThrFort.lean').read()
defs={}
for m in re.finditer(r'^def (\w+) ([^\n]*?):=( do)?\n((?:  .*\n|\n(?=  ))*)',src,re.M):
    defs[m.group(1)]=(m.group(2),m.group(4))
def own(name):
    b=defs[name][1]
    r=len(re.findall(r'← rd \(',b))+2*len(re.findall(r'← rdC \(',b))
    w=len(re.findall(r'^ *wr \(',b,re.M))+2*len(re.findall(r'^ *wrC \(',b,re.M))
    return r,w
from collections import defaultdict
if __name__=='__main__':
  for fam in ['hgemm','hgemv','hgeru','hgerc']:
    D=defaultdict(set)
    for k in defs:
        m=re.match(fam+r'([a-z]+)_(\w+)$',k)
        if m and not m.group(2).startswith('if'): D[m.group(2)].add(own(k)+(('L' if 'forN' in defs[k][1] or 'foldN' in defs[k][1] else 's')+('?' if ' if ' in defs[k][1] else ''),))
    for k in sorted(D,key=lambda k:int(re.match(r'\d+',k).group())): print(fam,k,sorted(D[k]))
