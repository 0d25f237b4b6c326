#!/usr/bin/env python3
"""Lock-step proofs (Thr.Lock) of the Fortran routines: one theorem per routine, same pattern.
usage: gen_lock.py fort|gemm   (writes to stdout the text of lean/Verif/ThrLockFort.lean resp. ThrLockGemm.lean)"""
import re,sys
R='/verif/lean/Verif/'
def rd(f): return open(R+f+'.lean').read()
def names(s): return re.findall(r'\((\w+) :',s)
def thm(src,n,data=False):
    m=re.search(r'^def %s ((?:\([^)]*\)\s*)*)'%n,src,re.M); s=re.sub(r'\s+',' ',m.group(1)).strip()
    defs=[n]+re.findall(r'^def (%s_\w+)'%n,src,re.M)
    unf='\n'.join(f'    | unfold {d}' for d in defs)
    call=f"({n} {' '.join(names(s))} (F := F))"
    st=f'Lock {call} {call}'
    return f'''theorem {n}_lock {s} :
    {st} := by
  repeat' first
    | lock_step
{unf}
'''
def main(k):
    src=rd('ThrFort' if k=='fort' else 'ThrFortGemm')
    tops=re.findall(r'^def ([a-z0-9]+) \(',src,re.M)
    tops=[t for t in tops if t!='uninit' and not t.startswith('hger') and re.search(r'^def %s .*?(Prog F)'%t,src,re.M)]
    tops=[t for t in tops if t.startswith(('hscal','haxpy','hdot','hdexp','hzexp','hzcon','hgemv','hgemm'))]
    if len(sys.argv)>2: tops=[t for t in tops if t in sys.argv[2:]]
    print(f'''import Verif.ThrLock
{'import Verif.ThrFortGemm' if k=='gemm' else 'import Verif.ThrFort'}

/-! # The Fortran routines in lock step

Generated by `tools/gen_lock.py {k}`. -/

namespace Haxx.Thr
open Arith
variable {{F : Type}} [Arith F] [ArithEq F]
set_option maxHeartbeats 4000000
set_option linter.unusedSectionVars false
set_option linter.unusedTactic false
set_option linter.unreachableTactic false
''')
    for t in tops: print(thm(src,t))
    print('end Haxx.Thr')
main(sys.argv[1])
