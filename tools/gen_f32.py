#!/usr/bin/env python3
"""Checked (INTEGER*4) versions of the Fortran models and the proofs that they agree with the unchecked ones.
usage: gen_f32.py          (rewrites lean/Verif/F32*.lean except F32.lean)"""
import re
R='/verif/lean/Verif/'
def rd(f): return open(R+f+'.lean').read()
def wr(f,t): open(R+f+'.lean','w').write(t)
def conv(src):
    out=[]
    for l in src.split('\n'):
        m=re.match(r'^(\s*)let (\w+) : Int := (.*)$',l)
        if m and re.search(r'[-+*]',m.group(3)):
            sp,v,e=m.groups()
            def L(n,x): out.append(f'{sp}let {n} ← i32 ({x})')
            a=re.match(r'^(\w+) \+ (\w+)$',e); b=re.match(r'^1 - \((\w+) - 1\) \* (\w+)$',e); c=re.match(r'^\(\(-(\w+)\) \+ 1\) \* (\w+) \+ 1$',e)
            if a: L(v,e)
            elif b: L('c1',f'{b.group(1)} - 1'); L('c2',f'c1 * {b.group(2)}'); L(v,'1 - c2')
            elif c: L('c1',f'-{c.group(1)}'); L('c2','c1 + 1'); L('c3',f'c2 * {c.group(2)}'); L(v,'c3 + 1')
            else: raise Exception(l)
            continue
        if re.search(r'el[23] ',l) and not l.startswith('def'):
            sp=re.match(r'\s*',l).group(0)
            for x in dict.fromkeys(re.findall(r'\((\w+ \+ \w+)\)',l)): out.append(f'{sp}let _ ← i32 ({x})')
        out.append(l)
    return '\n'.join(out)
def model(name,f,doc):
    s=rd(f)
    s=s[s.index('variable {F'):]
    s=conv(s)
    s=re.sub(r'\nend Haxx\s*$','\nend Haxx.F32\n',s)
    s=re.sub(r'^/-- `src',r'/-- With 32-bit index arithmetic: `src',s,flags=re.M)
    wr(name,f'''import Verif.F32

/-!
# {doc}, with INTEGER*4 index arithmetic

Generated by `tools/gen_f32.py` from `{f}.lean`; do not edit.
-/

set_option linter.unusedVariables false

namespace Haxx.F32
open Arith

'''+s)
def sig(src,n):
    m=re.search(r'^def %s ((?:\([^)]*\)\s*)*)'%n,src,re.M); return re.sub(r'\s+',' ',m.group(1)).strip()
def names(s): return re.findall(r'\((\w+) :',s)
def folds(src,n,inc):
    o=[];seen=set()
    for m in re.finditer(r'foldN \(\w+\)\.toNat \(fun i \(s : ([^)]*)\) => (%s_\w+) (.*?)\) \(?[\w, ]+\)?$'%n,src,re.M):
        ty,body,args=m.groups()
        if body in seen: continue
        seen.add(body)
        ps=names(sig(src,body))
        args=re.findall(r'\(\(i : Int\) \+ 1\)|\S+',args)
        assert len(ps)==len(args),(body,ps,args)
        pos=[(p,a) for p,a in zip(ps,args) if a.startswith('s') and p in inc]
        pat=' '.join(a if (a.startswith('s') or a.startswith('((')) else '_' for a in args)
        f=f'(f := fun i (s : {ty}) => Haxx.{body} {pat})'
        if len(pos)==1:
            (p,a),=pos
            o.append(f'    | with_reducible refine eq32_foldP {f} (fun s => {a}) {inc[p]} (fun _ _ _ _ => ?_)')
        elif len(pos)==2:
            (p,a),(q,b)=pos
            o.append(f'    | with_reducible refine eq32_foldP2 {f} (fun s => {a}) (fun s => {b}) {inc[p]} {inc[q]} (fun _ _ _ _ _ => ?_)')
    return '\n'.join(o)
VINC={'IX':'INCX','JX':'INCX','IY':'INCY','JY':'INCY'}
def routine(src,n,hyps,leaf,inc=VINC):
    defs=[n]+re.findall(r'^def (%s_\w+)'%n,src,re.M)
    s=sig(src,n)
    unf='\n'.join(f'    | unfold Haxx.F32.{d} Haxx.{d}' for d in defs)
    a=' '.join(names(s))
    return f'''theorem {n}_eq32 {s} {hyps} :
    Eq32 (Haxx.F32.{n} {a} (F := F)) (Haxx.{n} {a}) (fun _ => True) := by
  repeat' first
    | exact eq32_pure trivial
    | exact eq32_pure rfl
    | exact eq32_pure ⟨rfl, rfl⟩
    | with_reducible refine eq32_i32 ?_ ?_
    | with_reducible refine eq32_last ?_ rfl
    | with_reducible refine eq32_ite (fun _ => ?_) (fun _ => ?_)
    | with_reducible refine eq32_cases (α := Int × Int) (fun _ => ?_) (fun _ => ?_)
    | with_reducible refine eq32_start (α := Int) (fun _ => ?_) (fun _ => ?_) ?_
    | with_reducible refine eq32_same (fun _ => ?_)
    | with_reducible refine eq32_seq ?_ (fun _ => ?_)
    | with_reducible exact eq32_refl _
    | with_reducible refine eq32_forN (fun _ _ => ?_)
{folds(src,n,inc)}
    | with_reducible refine eq32_fold (fun _ _ _ => ?_)
{leaf}
{unf}
'''
def vleaf(hs,pre):
    o=[]
    for h in hs:
        if pre:
            o+=[f'    | (refine {h}.step\' ?_ ?_ ?_ ?_ (by assumption) (by assumption) <;> omega)',
                f'    | (refine {h}.neg ?_ ?_ <;> omega)',f'    | (refine {h}.neg1 ?_ ?_ <;> omega)',
                f'    | (refine {h}.negMul ?_ ?_ ?_ <;> omega)',f'    | (refine {h}.start\' ?_ ?_ ?_ <;> omega)']
        else:
            o+=[f'    | (refine {h}.step ?_ ?_ ?_ ?_ (by assumption) (by assumption) <;> omega)',
                f'    | (refine {h}.pred ?_ ?_ <;> omega)',f'    | (refine {h}.predMul ?_ ?_ <;> omega)',
                f'    | (refine {h}.start ?_ ?_ (by assumption) <;> omega)']
    return '\n'.join(o)
def proofs(name,imps,body):
    wr(name,''.join(f'import Verif.{i}\n' for i in imps)+f'''
/-! Generated by `tools/gen_f32.py`. -/

namespace Haxx.F32
open Arith
variable {{F : Type}} [Arith F] [ArithEq F]
set_option maxHeartbeats 4000000
set_option linter.unusedSectionVars false
set_option linter.unusedVariables false

'''+body+'\nend Haxx.F32\n')
VS='dd dz dh zd zz zh hd hz hh'.split()
if __name__=='__main__':
    model('F32Hblas1','FHblas1','Fortran level-1 routines')
    model('F32Ger','FGer','Fortran rank-one updates')
    model('F32Util','FUtil','Fortran utility routines')
    for v in VS: model('F32Gemv'+v,'FGemv'+v,f'Fortran GEMV, {v}')
    s=rd('FHblas1'); o=[]
    for n in ('hscald','hscalc','hscalh'):
        o.append(routine(s,n,'(hN : 0 < N) (hx : VFit N INCX)',vleaf(['hx'],True)))
    for n in ('haxpydh','haxpych','haxpyhh','hdotu','hdotc'):
        o.append(routine(s,n,'(hN : 0 < N) (hx : VFit N INCX) (hy : VFit N INCY)',vleaf(['hx','hy'],True)))
    proofs('F32Hblas1Pf',['F32Hblas1','FHblas1'],'\n'.join(o))
    s=rd('FGer'); o=[]
    for n in ('hgerud','hgeruz','hgeruh','hgercd','hgercz','hgerch'):
        o.append(routine(s,n,'(hM : 0 < M) (hN : 0 < N) (hx : VFit M INCX) (hy : VFit N INCY)',vleaf(['hx','hy'],False)))
    proofs('F32GerPf',['F32Ger','FGer'],'\n'.join(o))
    for v in VS:
        s=rd('FGemv'+v)
        proofs('F32GemvPf'+v,['F32Gemv'+v,'FGemv'+v],routine(s,'hgemv'+v,'{L : Int} (hM : 0 < M) (hN : 0 < N) (hML : M ≤ L) (hNL : N ≤ L) (hx : VFit L INCX) (hy : VFit L INCY)',vleaf(['hx','hy'],False)))
    s=rd('FUtil'); o=[]
    for n,d in (('hdexp',4),('hzexp1',2),('hzexp2',2),('hzcon1',2),('hzcon2',2)):
        o.append(routine(s,n,f'(hM : {d} * M + 1 ≤ 2147483647) (hN : {d} * N + 1 ≤ 2147483647)','    | (unfold Fits32; dsimp only at *; omega)\n    | (unfold Fits32; omega)',{'IB':str(d),'JB':str(d)}))
    proofs('F32UtilPf',['F32Util','FUtil'],'\n'.join(o))
