#!/usr/bin/env python3
"""Generate lean/Verif/PropsFuse.lean: the accuracy (C60), exactness (C59) and NaN (C53) theorems for code in which the
compiler fuses products with additions (Fuse.lean). Each statement is that of the unfused theorem with the routine run over
expressions and the operands single doubles; each proof instantiates the unfused theorem."""
import re,glob
files=sorted(glob.glob('/verif/lean/Verif/*.lean'))
src={f:open(f).read() for f in files if not f.endswith(('PropsFuse.lean','PropsFuseNorm.lean'))}
def find(c):
    out=[]
    for f,s in src.items():
        for m in re.finditer(r'(/--(?:(?!-/).)*-/\s*)?(?:omit [^\n]* in\s*)?theorem ('+c+r'_\w+)(.*?)(?= := by\b| :=\n|\s:=\s)',s,re.S):
            out.append((m.group(2),m.group(1) or '',m.group(3),f))
    return out
def binders(st):
    """split the signature into binder groups and the conclusion"""
    i=0; bs=[]
    while True:
        while st[i] in ' \n': i+=1
        if st[i] in '([{':
            d=0; j=i
            while True:
                if st[j] in '([{': d+=1
                if st[j] in ')]}': d-=1
                j+=1
                if d==0: break
            bs.append(st[i:j]); i=j
        else:
            assert st[i]==':',st[i:i+40]
            return bs,st[i+1:].strip()
def names(b):
    return b[1:b.index(':')].split()
def wrap(s): return s
out=[]
def doc(d,c):
    d=d.strip()
    d=re.sub(r'\s+',' ',d[3:-2]).strip()
    d=re.sub(r'^'+c+r'[,:]\s*','',d)
    return d
def common(s,v):
    s=s.replace(f'∀ a b : F,','@@')
    s=re.sub(r'\bScal F\b','Scal (Fused F pol)',s); s=re.sub(r'\bQuat F\b','Quat (Fused F pol)',s)
    s=re.sub(r'\bMem F\b','Mem (Fused F pol)',s); s=s.replace('Int → F)','Int → Fused F pol)')
    return s.replace('@@','∀ a b : F,')
def gen60():
    for name,d,st,f in find('C60'):
        if 'sizes_needed' in name: continue
        bs,concl=binders(st)
        assert bs[0]=='(J : FinModel F u η Ω)',bs[0]
        nb=[];args=[]
        for b in bs[1:]:
            if b[0]=='[': nb.append(b); continue
            t=b[b.index(':')+1:-1].strip()
            for n in names(b):
                if t.startswith('J.BddS'): args.append(f'(litS_bdd {n})')
                elif t.startswith('J.BddVec'): args.append(f'(fun i hi => litQ_bdd ({n} i hi))')
                elif t.startswith('J.BddKVec'): args.append(f'(fun i hi => litS_bdd ({n} i hi))')
                elif t.startswith('J.BddMat'): args.append(f'(fun i j hi hj => litQ_bdd ({n} i j hi hj))')
                elif t.startswith('J.BddKMat'): args.append(f'(fun i j hi hj => litS_bdd ({n} i j hi hj))')
                elif re.match(r'∀ i, i < \S+ → J.BddS',t): args.append(f'(fun i hi => litS_bdd ({n} i hi))')
                elif t.startswith('J.Truth'): args.append(f'⟨{n}.1, {n}.2⟩')
                elif t.startswith('∀ a b : F'): args.append(f'(fun a b k => {n} _ _ k)')
                else: args.append(n)
            nb.append(b)
        s=' '.join(nb)
        def tr(s):
            s=common(s,'J')
            # the equality hypothesis stays about the doubles
            s=re.sub(r'(∀ a b : F, \(?[^→]*?→ )J\.val a = J\.val b',r'\1J.@val a = J.@val b',s)
            s=s.replace('J.val Arith.one','J.@val Arith.one')
            s=s.replace('J.BddS','LitS J').replace('J.BddVec','LitVec J').replace('J.BddMat','LitMat J').replace('J.BddKMat','LitKMat J').replace('J.BddKVec','LitKVec J')
            s=s.replace('J.Truth','CTruth J').replace('J.Near','CNear J').replace('J.Err','Err8 u').replace('J.Fits','Fits8 u Ω')
            s=s.replace('J.val','(cval J)').replace('J.@val','J.val')
            return s
        new=name.replace('C60_','C66_acc_')
        nall=re.findall(r'∀ ((?:i|j)(?: j)?), ',concl)
        call=f'{name} (fusedFin J hJ hu hΩ pol) '+' '.join(args)
        if 'ru rc' in concl:
            pr=f'  obtain ⟨ru, rc, e1, e2, n1, n2⟩ := {call}\n  exact ⟨ru, rc, e1, e2, near_c n1, near_c n2⟩'
        else:
            v=re.search(r'∀ (i j|i),',concl).group(1)
            hs=' '.join('h'+x for x in v.split())
            extra=' hz' if 'ger' in name and re.search('= (false|true) →',concl) else ''
            pr=f'  obtain ⟨m\', V, e, hV, hN⟩ := {call}\n  exact ⟨m\', V, e, hV, fun {v} {hs}{extra} => near_c (hN {v} {hs}{extra})⟩'
        out.append(f'/-- C66: {doc(d,"C60")} -/\ntheorem {new} (J : FinModel F u η Ω) (hJ : ∀ a, ¬ J.prod a) (hu : u ≤ 1 / 16) (hΩ : 1 ≤ Ω) (pol : Ex Unit → Fusing) {tr(s)} :\n    {tr(concl)} := by\n{pr}\n')
def gen59():
    for name,d,st,f in find('C59'):
        if 'builds_agree' in name: continue
        bs,concl=binders(st)
        Bn=re.match(r'\(I : IntModel F u (\w+)\)',bs[0]).group(1)
        nb=[];args=[]
        for b in bs[1:]:
            if b[0]=='[': nb.append(b); continue
            t=b[b.index(':')+1:-1].strip()
            for n in names(b):
                if t.startswith('I.IntS'): args.append(f'(litS_int {n})')
                elif t.startswith('I.IntVec'): args.append(f'(fun i hi => litQ_int ({n} i hi))')
                elif t.startswith('I.IntKVec'): args.append(f'(fun i hi => litS_int ({n} i hi))')
                elif t.startswith('I.IntMat'): args.append(f'(fun i j hi hj => litQ_int ({n} i j hi hj))')
                elif t.startswith('I.IntKMat'): args.append(f'(fun i j hi hj => litS_int ({n} i j hi hj))')
                elif re.match(r'∀ i, i < \S+ → I.IntS',t): args.append(f'(fun i hi => litS_int ({n} i hi))')
                elif t.startswith('StdModel.Truth'): args.append(f'⟨{n}.1, {n}.2⟩')
                elif t.startswith('∀ a b : F'): args.append(f'(fun a b k => {n} _ _ k)')
                else: args.append(n)
            nb.append(b)
        s=' '.join(nb)
        def tr(s):
            s=common(s,'I')
            s=re.sub(r'(∀ a b : F, \(?[^→]*?→ )I\.val a = I\.val b',r'\1I.@val a = I.@val b',s)
            s=s.replace('I.val Arith.one','I.@val Arith.one')
            s=s.replace('I.IntS','IntLitS I').replace('I.IntVec','IntLitVec I').replace('I.IntMat','IntLitMat I').replace('I.IntKMat','IntLitKMat I').replace('I.IntKVec','IntLitKVec I')
            s=s.replace('StdModel.Truth I.toStdModel','ITruth I').replace('I.Is','CIs I')
            s=s.replace('I.val','(ival I)').replace('I.@val','I.val')
            return s
        new=name.replace('C59_','C66_exact_')
        call=f'{name} (fusedInt I hu pol) '+' '.join(args)
        if 'ru rc' in concl:
            pr=f'  obtain ⟨ru, rc, e1, e2, n1, n2⟩ := {call}\n  exact ⟨ru, rc, e1, e2, is_c n1, is_c n2⟩'
        else:
            v=re.search(r'∀ (i j|i),',concl).group(1)
            hs=' '.join('h'+x for x in v.split())
            extra=' hz' if 'ger' in name and re.search('= (false|true) →',concl) else ''
            pr=f'  obtain ⟨m\', V, e, hV, hN⟩ := {call}\n  exact ⟨m\', V, e, hV, fun {v} {hs}{extra} => is_c (hN {v} {hs}{extra})⟩'
        out.append(f'/-- C66: {doc(d,"C59")} -/\ntheorem {new} (I : IntModel F u {Bn}) (hu : u ≤ 1 / 16) (pol : Ex Unit → Fusing) {tr(s)} :\n    {tr(concl)} := by\n{pr}\n')
def gen53():
    for name,d,st,f in find('C53'):
        if 'violated' in name or 'witness' in name: continue
        bs,concl=binders(st)
        nb=[];args=[];imp=False
        for b in bs:
            if b[0]=='[' or b=='{bad : F → Prop}': continue
            if 'NaNLike' in b: imp=True; continue
            args+=names(b); nb.append(b)
        def tr(s):
            s=common(s,'x')
            return s.replace('HasNaN bad','HasNaN (Fused.bad bad)').replace('AllNaN bad','AllNaN (Fused.bad bad)')
        new=name.replace('C53_','C66_nan_')
        out.append(f'/-- C66: {doc(d,"C53")} -/\ntheorem {new} {{bad : F → Prop}} (hn : NaNLike bad) (pol : Ex Unit → Fusing) {tr(" ".join(nb))} :\n    {tr(concl)} :=\n  {name} (fusedNaN hn) {" ".join(args)}\n')
import sys
pre=open('/verif/tools/fuse_pre.txt').read()
gen60(); out.append('/-! ## Integers -/\n'); gen59(); out.append('/-! ## NaNs -/\n'); gen53()
def fold(t,w=128):
    res=[]
    for ln in t.split('\n'):
        ind=len(ln)-len(ln.lstrip())
        if len(ln)>w and ln.startswith('theorem '):
            # one binder group at a time
            k=ln.index(' ',8); parts=[]
            bs,_=binders(ln[k:]+(' x' if ln.endswith(':') else ''))
            cur=ln[:k]
            for b in bs+[':']:
                if len(cur)+1+len(b)>w: res.append(cur); cur='   '
                cur+=' '+b
            res.append(cur); continue
        first=True
        while len(ln)>w and not ln.strip().startswith('/-'):
            k=ln.rfind(' ',0,w)
            if k<=ind+4: break
            res.append(ln[:k]); ln=' '*(ind+4)+ln[k+1:]
        if ln.startswith('/--') and len(ln)>w:
            while len(ln)>w:
                k=ln.rfind(' ',0,w); res.append(ln[:k]); ln=ln[k+1:]
        res.append(ln)
    return '\n'.join(res)
open('/verif/lean/Verif/PropsFuse.lean','w').write(pre+'\n'.join(fold(o) for o in out)+'\nend Haxx\n')
print(len(out))
