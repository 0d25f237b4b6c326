#!/usr/bin/env python3
"""The accesses of the Fortran GERU/GERC depend on the data only through y: one theorem per routine, same pattern.
usage: gen_lockger.py > lean/Verif/ThrLockGer.lean"""
import re
src=open('/verif/lean/Verif/ThrFort.lean').read()
print('''import Verif.ThrLockS
import Verif.ThrFort

/-! # The accesses of GERU and GERC depend on the data only through y

Generated by `tools/gen_lockger.py`. -/

namespace Haxx.Thr
open Arith
variable {F : Type} [Arith F] [ArithEq F]
set_option maxHeartbeats 400000
set_option linter.unusedSectionVars false
set_option linter.unusedTactic false
set_option linter.unreachableTactic false
''')
def sig(d):
    m=re.search(r'^def %s ((?:\([^)]*\)\s*)*)'%d,src,re.M); s=re.sub(r'\s+',' ',m.group(1)).strip()
    return s,' '.join(re.findall(r'\((\w+) :',s))
HW='(hw : MOk (fun a => ¬ S a) LDA A I J)'
HWS='(hw : ∀ i : Nat, i < M.toNat → MOk (fun a => ¬ S a) LDA A ((i:Int) + 1) J)'
def step(name,d,hyp,post,alts):
    s,a=sig(d)
    al='\n'.join('    | with_reducible '+x for x in alts)
    print(f'''theorem {name} {s} {{S : Int → Prop}}{hyp} :
    LockS S {post} ({d} {a} (F := F)) ({d} {a}) := by
  unfold {d}
  repeat' first
    | with_reducible exact ls_retA
    | with_reducible exact ls_retE
    | with_reducible exact ls_retP
    | with_reducible refine ls_ite (fun _ => ?_) (fun _ => ?_)
{al}
''')
for n in ['hgerud','hgercd','hgeruz','hgercz','hgeruh','hgerch']:
    defs=re.findall(r'^def (%s_\w+)'%n,src,re.M)
    js=[d for d in defs if d.endswith('_J')]; is_=[d for d in defs if d.endswith('_I')]
    ifs=[d for d in defs if '_if' in d]; top=ifs[-1]; ifs=ifs[:-1]
    rdw=['refine ls_seqT ls_rdC (fun _ _ => ?_)','refine ls_seqU (ls_wrC hw.c1) ?_','refine ls_seqU (ls_wrC hw.c2) ?_','exact ls_uninit']
    for d in is_:
        post='Any' if not re.search(r'\(IX :',sig(d)[0]) else '(fun a b => a = b ∧ a = IX + INCX)'
        step(d+'_lockS',d,' '+HW,post,rdw)
    rdy=['refine ls_seqS (ls_rdCS hy.c1) (fun _ => ?_)','refine ls_seqS (ls_rdCS hy.c2) (fun _ => ?_)']
    for d in ifs:
        step(d+'_lockS',d,' (hy : VOk S Y JY)\n    '+HWS,'Any',rdy+[
          'refine ls_seqU (ls_forN fun i hi => ?_) ?_',
          'refine ls_seqS (ls_foldP INCX (fun i _ _ hi => ?_)) (fun _ => ?_)']+[f'exact {x}_lockS (hw := hw _ (by assumption)) ..' for x in is_])
    for d in js:
        step(d+'_lockS',d,' (hy : VOk S Y JY)\n    '+HWS,'(fun a b => a = b ∧ a = JY + INCY)',[f'refine ls_seqU ({x}_lockS (hy := hy) (hw := hw) ..) ?_' for x in ifs])
    fold=[]
    for d in js:
        k=len(sig(d)[1].split())-2
        f=f"fun i (s : Int) => {d} {'_ '*k}((i : Int) + 1) s"
        fold.append(f'refine ls_seqS (ls_foldP (f := {f}) (g := {f}) INCY (fun i p e hi => {d}_lockS (hy := hy.pos p i e hi) (hw := fun k hk => hw k i hk hi) ..)) (fun _ => ?_)')
    hyp='''
    (hy : VEnv S Y (if decide (INCY > 0) = true then 1 else 1 - (N - 1) * INCY) INCY N.toNat False)
    (hw : ∀ i j : Nat, i < M.toNat → j < N.toNat → MOk (fun a => ¬ S a) LDA A ((i:Int) + 1) ((j:Int) + 1))'''
    step(n+'_lockS',n,hyp,'Any',['refine ls_bind_ite (α := Int) ?_']+fold+['refine ls_seqU ?_ ?_']+[f'skip; unfold {top}'])
print('end Haxx.Thr')
