#!/usr/bin/env python3
"""Safety proofs (Thr.Safe) of the Fortran routines: one theorem per routine, same pattern.
usage: gen_safe.py gemm dd > lean/Verif/ThrSafeGemmdd.lean"""
import re,sys
R='/verif/lean/Verif/'
def rd(f): return open(R+f+'.lean').read()
def sig(src,n):
    m=re.search(r'^def %s ((?:\([^)]*\)\s*)*)'%n,src,re.M); return re.sub(r'\s+',' ',m.group(1)).strip()
def names(s): return re.findall(r'\((\w+) :',s)
def leaf(hyps):
    """hyps: list of (name, explicit args)"""
    o=[]
    for h,a in hyps:
        for k in ('.1','.2'):
            o.append(f'    | with_reducible exact ({h} {a}){k}')
    return '\n'.join(o)
A2='_ _ (by assumption) (by assumption)'
CORE='''    | exact safe_pure trivial
    | with_reducible refine safe_ite (fun _ => ?_) (fun _ => ?_)
    | with_reducible refine safe_seq ?_ (fun _ => ?_)
    | with_reducible refine safe_rdC ?_
    | with_reducible refine safe_wrC ?_ ?_
    | with_reducible refine safe_forN (fun _ _ => ?_)'''
def gemm(r):
    src=rd('ThrFortGemm'); n='hgemm'+r
    defs=[n]+re.findall(r'^def (%s_\w+)'%n,src,re.M)
    s=sig(src,n)
    unf='\n'.join(f'    | unfold {d}' for d in defs)
    hy=leaf([('h.c',A2),('h.w',A2),('h.AN','(by assumption) '+A2),('h.AT','(by assumption) '+A2),('h.BN','(by assumption) '+A2),('h.BT','(by assumption) '+A2)])
    return f'''theorem {n}_safe {s} {{S W : Int → Prop}}
    (h : FGemmEnv S W (lsame TRANSA 'N') (lsame TRANSB 'N') M N K A LDA B LDB C LDC) :
    Safe S W ({n} {' '.join(names(s))} (F := F)) (fun _ => True) := by
  repeat' first
{CORE}
    | with_reducible refine safe_fold (fun _ _ _ => ?_)
{hy}
{unf}
'''

VK=['r1','r2','r3','r4','c1','c2']
def vleaves(hs):
    """hs: (hyp text giving a VEnv or matrix fn, kind)"""
    o=[]
    for h,kind in hs:
        if kind=='v':
            for k in VK: o.append(f'    | with_reducible exact ({h}.pos _ _ (by assumption) (by assumption)).{k}')
            for k in VK: o.append(f'    | with_reducible exact ({h}.one (by assumption) _ (by assumption)).{k}')
        elif kind=='s':
            for k in VK: o.append(f'    | with_reducible exact ({h}.start _ (by assumption)).{k}')
        else:
            for k in ('c1','c2'): o.append(f'    | with_reducible exact ({h} _ _ (by assumption) (by assumption)).{k}')
    return '\n'.join(o)
def folds(src,n):
    """loop rules for the positions carried by the folds of routine n"""
    o=[]
    seen=set()
    for m in re.finditer(r'foldN \(\w+\)\.toNat \(fun i \(s : ([^)]*)\) => (%s_\w+) (.*?)\) \(?[\w, ]+\)?$'%n,src,re.M):
        ty,body,args=m.groups()
        if body in seen: continue
        seen.add(body)
        ps=names(sig(src,body))
        args=re.findall(r'\(\(i : Int\) \+ 1\)|\S+',args)
        assert len(ps)==len(args),(body,ps,args)
        pos=[(p,a) for p,a in zip(ps,args) if a.startswith('s') and p in('IX','JX','IY','JY','IB','JB')]
        inc={'IX':'INCX','JX':'INCX','IY':'INCY','JY':'INCY','IB':'2','JB':'2'}
        pat=' '.join(a if (a.startswith('s') or a.startswith('((')) else '_' for a in args)
        f=f'(f := fun i (s : {ty}) => {body} {pat})'
        if len(pos)==1:
            (p,a),=pos
            o.append(f'    | with_reducible refine safe_foldP {f} (fun s => {a}) {inc[p]} (fun _ _ _ _ => ?_)')
        elif len(pos)==2:
            (p,a),(q,b)=pos
            o.append(f'    | with_reducible refine safe_foldP2 {f} (fun s => {a}) (fun s => {b}) {inc[p]} {inc[q]} (fun _ _ _ _ _ => ?_)')
    return '\n'.join(o)
CORE2=CORE.replace('    | exact safe_pure trivial','    | exact safe_pure trivial\n    | exact safe_pure rfl\n    | exact safe_pure ⟨rfl, rfl⟩').replace('    | with_reducible refine safe_seq','    | with_reducible refine safe_bind_ite (α := Int) ?_\n    | with_reducible refine safe_bind_cases (α := Int × Int) (fun _ => ?_) (fun _ => ?_)\n    | with_reducible refine safe_seq')+'\n    | with_reducible refine safe_rd ?_\n    | with_reducible refine safe_wr ?_ ?_'
def routine(n,hyps,leaves,extra=''):
    src=rd('ThrFort')
    defs=[n]+re.findall(r'^def (%s_\w+)'%n,src,re.M)
    s=sig(src,n)
    unf='\n'.join(f'    | unfold {d}' for d in defs)
    fl=folds(src,n)
    return f"""theorem {n}_safe {s} {{S W : Int → Prop}}
    {hyps} :
    Safe S W ({n} {' '.join(names(s))} (F := F)) (fun _ => True) := by
  repeat' first
{extra}{CORE2}
{fl}
    | with_reducible refine safe_fold (fun _ _ _ => ?_)
{vleaves(leaves)}
{unf}
"""
def k1(n,inc): return f'(if decide ({inc} < 0) = true then ((-{n}) + 1) * {inc} + 1 else 1)'
def k2(n,inc): return f'(if decide ({inc} > 0) = true then 1 else 1 - ({n} - 1) * {inc})'
def l1():
    o=[]
    ux='(decide (INCX = 1) = true)'
    uxy='((decide (INCX = 1) && decide (INCY = 1)) = true)'
    for n in ('hscald','hscalc','hscalh'):
        o.append(routine(n,f'(hx : VEnv S X {k1("N","INCX")} INCX N.toNat {ux})\n    (hw : VEnv W X {k1("N","INCX")} INCX N.toNat {ux})',[('hx','v'),('hw','v')]))
    for n in ('haxpydh','haxpych','haxpyhh'):
        o.append(routine(n,f'(hx : VEnv S X {k1("N","INCX")} INCX N.toNat {uxy})\n    (hy : VEnv S Y {k1("N","INCY")} INCY N.toNat {uxy})\n    (hw : VEnv W Y {k1("N","INCY")} INCY N.toNat {uxy})',[('hx','v'),('hy','v'),('hw','v')]))
    for n in ('hdotu','hdotc'):
        o.append(routine(n,f'(hx : VEnv S X {k1("N","INCX")} INCX N.toNat {uxy})\n    (hy : VEnv S Y {k1("N","INCY")} INCY N.toNat {uxy})',[('hx','v'),('hy','v')]))
    return '\n'.join(o)
def ger():
    o=[]
    ux='(decide (INCX = 1) = true)'
    for t in 'uc':
        for v in 'dzh':
            n='hger'+t+v
            extra=''; ih=''
            if v=='d':
                ih='(h1 : decide (INCX = 1) = true)\n    '
                extra='    | with_reducible exact absurd h1 (by assumption)\n'
            o.append(routine(n,ih+f'(hx : VEnv S X {k2("M","INCX")} INCX M.toNat {ux})\n    (hy : VEnv S Y {k2("N","INCY")} INCY N.toNat False)\n    (ha : ∀ i j : Nat, i < M.toNat → j < N.toNat → MOk S LDA A ((i:Int) + 1) ((j:Int) + 1))\n    (hw : ∀ i j : Nat, i < M.toNat → j < N.toNat → MOk W LDA A ((i:Int) + 1) ((j:Int) + 1))',[('hx','v'),('hy','v'),('ha','m'),('hw','m')],extra))
    return '\n'.join(o)
def regroup(t):
    """faster order of the alternatives for the big routines"""
    i=t.index("  repeat' first\n")+len("  repeat' first\n")
    body=t[i:].rstrip('\n').split('\n')
    core=[l for l in body if 'exact (' not in l and 'unfold' not in l]
    leaf=[l for l in body if 'exact (' in l]
    unf=[l for l in body if 'unfold' in l]
    pure=[l for l in core if 'safe_pure' in l]; core=[l for l in core if 'safe_pure' not in l]
    rules=[l for l in core if 'safe_fold' not in l]; fold=[l for l in core if 'safe_fold' in l]
    def grp(c): return f'    | (with_reducible guard_target = Two {c} _; first'+''.join('\n      '+l.strip() for l in leaf if (').w' in l)==(c=='W'))+')'
    return t[:i]+'\n'.join([grp('S'),grp('W')]+rules+fold+unf+pure)+'\n'
def gemv(vs):
    global VK
    VK=['c1','c2']
    o=[]
    for v in vs:
        n='hgemv'+v
        c="lsame '%s' TRANS = true"%('N' if v=='dd' else 'T')
        hy=f'(ht : {c} → GemvEnv S W (lsame TRANS \'N\' = true) M N A LDA X INCX Y INCY N M)\n    (hf : ¬ {c} → GemvEnv S W (lsame TRANS \'N\' = true) M N A LDA X INCX Y INCY M N)'
        lv=[]
        for h in ('(ht (by assumption))','(hf (by assumption))'):
            lv+=[(f'{h}.y','v'),(f'{h}.w','v'),(f'({h}.xN (by assumption))','v'),(f'({h}.xT (by assumption))','v'),(f'({h}.yN (by assumption))','v'),(f'({h}.yT (by assumption))','v'),(f'({h}.wN (by assumption))','v'),(f'({h}.wT (by assumption))','v'),(f'{h}.a','m')]
            if v=='dh': lv+=[(f'{h}.y','s'),(f'{h}.w','s')]
        o.append(regroup(routine(n,hy,lv)))
    return '\n'.join(o)

def util():
    def off(x,k): return x if k==0 else f'({x} + {k})'
    o=["""/-- The four complex entries of a 2 × 2 block with top-left entry `(p,q)`. -/
structure ZOk (P : Int → Prop) (LDB B p q : Int) : Prop where
  c00 : Two P (el2 2 LDB B p q)
  c01 : Two P (el2 2 LDB B p (q + 1))
  c10 : Two P (el2 2 LDB B (p + 1) q)
  c11 : Two P (el2 2 LDB B (p + 1) (q + 1))
""","""/-- The same with the blocks `M` rows and `N` columns apart. -/
structure ZOk2 (P : Int → Prop) (LDB B M N p q : Int) : Prop where
  c00 : Two P (el2 2 LDB B p q)
  c01 : Two P (el2 2 LDB B p (q + N))
  c10 : Two P (el2 2 LDB B (p + M) q)
  c11 : Two P (el2 2 LDB B (p + M) (q + N))
""","""/-- The sixteen real entries of a 4 × 4 block with top-left entry `(p,q)`. -/
structure DOk (P : Int → Prop) (LDB B p q : Int) : Prop where
"""+''.join(f'  d{a}{b} : P (el2 1 LDB B {off("p",a)} {off("q",b)})\n' for a in range(4) for b in range(4))]
    ha=lambda P,h:f'({h} : ∀ i j : Nat, i < M.toNat → j < N.toNat → MOk {P} LDA A ((i:Int) + 1) ((j:Int) + 1))'
    def hb(P,h,ok,d): return f'({h} : ∀ (p q : Int) (i j : Nat), p = 1 + (i:Int) * {d} → q = 1 + (j:Int) * {d} → i < M.toNat → j < N.toNat → {ok} {P} LDB B p q)'
    def hb2(P,h): return f'({h} : ∀ i j : Nat, i < M.toNat → j < N.toNat → ZOk2 {P} LDB B M N ((i:Int) + 1) ((j:Int) + 1))'
    A4='_ _ _ _ (by assumption) (by assumption) (by assumption) (by assumption)'
    A2='_ _ (by assumption) (by assumption)'
    zc=['c00','c01','c10','c11']; dc=[f'd{a}{b}' for a in range(4) for b in range(4)]
    mk=['r1','r2','r3','r4','c1','c2']
    def lv(h,args,ks): return '\n'.join(f'    | with_reducible exact ({h} {args}).{k}' for k in ks)
    global vleaves
    ov=vleaves
    vleaves=lambda x:x
    j='\n    '.join
    o.append(routine('hzexp1',j([ha('S','ha'),hb('S','hb','ZOk',2),hb('W','hw','ZOk',2)]),'\n'.join([lv('ha',A2,mk),lv('hb',A4,zc),lv('hw',A4,zc)])))
    o.append(routine('hzexp2',j([ha('S','ha'),hb2('S','hb'),hb2('W','hw')]),'\n'.join([lv('ha',A2,mk),lv('hb',A2,zc),lv('hw',A2,zc)])))
    o.append(routine('hdexp',j([ha('S','ha'),hb('S','hb','DOk',4),hb('W','hw','DOk',4)]),'\n'.join([lv('ha',A2,mk),lv('hb',A4,dc),lv('hw',A4,dc)])).replace(' 2 (fun _ _ _ _ => ?_)',' 4 (fun _ _ _ _ => ?_)'))
    o.append(routine('hzcon1',j([ha('S','ha'),ha('W','hw'),hb('S','hb','ZOk',2)]),'\n'.join([lv('ha',A2,mk),lv('hw',A2,mk),lv('hb',A4,zc)])))
    o.append(routine('hzcon2',j([ha('S','ha'),ha('W','hw'),hb2('S','hb')]),'\n'.join([lv('ha',A2,mk),lv('hw',A2,mk),lv('hb',A2,zc)])))
    vleaves=ov
    return '\n'.join(o)
HEAD='''import Verif.ThrSafe
import Verif.%s

/-! Generated by `tools/gen_safe.py %s`. -/

namespace Haxx.Thr
open Arith
variable {F : Type} [Arith F] [ArithEq F]
set_option maxHeartbeats 4000000
set_option linter.unusedSectionVars false

'''
if __name__=='__main__':
    k=sys.argv[1]; vs=sys.argv[2:]
    if k=='gemm':
        print(HEAD%('ThrFortGemm',' '.join(sys.argv[1:]))+'\n'.join(gemm(v) for v in vs)+'\nend Haxx.Thr')
    H2=HEAD.replace('import Verif.ThrSafe\n','import Verif.ThrSafeVec\n')
    if k=='l1': print(H2%('ThrFort','l1')+l1()+'\nend Haxx.Thr')
    if k=='ger': print(H2%('ThrFort','ger')+ger()+'\nend Haxx.Thr')
    if k=='gemv': print(H2%('ThrFort',' '.join(sys.argv[1:]))+gemv(vs)+'\nend Haxx.Thr')
    if k=='util': print(H2%('ThrFort','util')+util()+'\nend Haxx.Thr')
