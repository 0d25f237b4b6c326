import re
src=open('/verif/lean/Verif/ThrFort.lean').read()
defs={}
for m in re.finditer(r'^def (\w+) ([^\n]*?):=( do)?\n((?:  .*\n|\n(?=  ))*)',src,re.M):
    defs[m.group(1)]=(m.group(2),m.group(4))
def params(sig):
    return re.findall(r'\((\w[\w ]*?) : ([^()]*)\)',sig)
out=[]
def counts(name):
    b=defs[name][1]
    r=len(re.findall(r'← rd \(',b))+2*len(re.findall(r'← rdC \(',b))
    w=len(re.findall(r'^ *wr \(',b,re.M))+2*len(re.findall(r'^ *wrC \(',b,re.M))
    return r,w
def sig(name):
    s=defs[name][0]
    s=s[:s.rindex(': Prog')].strip()
    args=' '.join(' '.join(a.split()) for a,_ in re.findall(r'\(([\w ]+?) : ([^()]*)\)',s))
    return s,args
def straight(name,half=False):
    r,w=counts(name)
    if half: # if/else both branches same
        r,w=half
    s,a=sig(name)
    out.append(f"theorem cnt_{name} {s} : Cnt ({name} {a} : Prog F _) {r} {w} := by\n  unfold {name}\n  {'cases NOTL <;> ' if half else ''}cnt_line\n")
L1=['hscald','hscalc','hscalh','haxpydh','haxpych','haxpyhh','hdotu','hdotc']
for n in L1:
    for k in defs:
        if re.match(n+r'_\d+_I$',k): straight(k)
for k in ['hdexp_10_I','hzexp1_10_I','hzexp2_10_I']: straight(k)
for k in ['hzcon1_10_I','hzcon2_10_I']: straight(k,(4,4))
print('\n'.join(out))
