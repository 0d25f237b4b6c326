import re,sys
exec(open('/verif/tools/traffic_fort/cg.py').read().split("if __name__")[0])
def sig(name):
    s=defs[name][0]; s=s[:s.rindex(': Prog')].strip()
    args=' '.join(' '.join(a.split()) for a,_ in re.findall(r'\(([\w ]+?) : ([^()]*)\)',s))
    return s,args
H='''import Verif.TrafficPort
import Verif.ThrFort%s

/-!
# Upper bounds for the memory accesses of the Fortran %s

Generated by the scripts in `tools/traffic_fort` from the access-level programs: one bound per loop body, branch and routine.
-/

set_option linter.unusedVariables false
set_option linter.unusedSectionVars false
set_option linter.unusedTactic false
set_option linter.unreachableTactic false

namespace Haxx.Thr
open Arith

variable {F : Type} [Arith F] [ArithEq F]

'''
TAC='''
theorem CntLe.bindL {α β : Type} {p : Prog F α} {f : α → Prog F β} {r w : Nat} (h : CntLe p r w) (hk : ∀ a, CntLe (f a) 0 0) :
    CntLe (p >>= f) r w := h.bind hk

/-- One step through a program; the leaves are the lemmas given. -/
syntax "le_tree" "[" term,* "]" : tactic
macro_rules
  | `(tactic| le_tree [$ts,*]) => do
    let es := ts.getElems
    `(tactic| ((try dsimp only); (repeat (first
      | exact .ret
      $[| (apply CntLe.mono; (apply $es <;> fail); omega; omega)]*
      | refine .rd fun _ => ?_
      | refine .wr ?_
      | refine CntLe.ite (fun _ => ?_) (fun _ => ?_)))))
'''
out=[]
def leaf(name,r,w):
    s,a=sig(name)
    out.append(f"theorem le_{name} {s} : CntLe ({name} {a} : Prog F _) {r} {w} := by\n  unfold {name}\n  le_line\n")
def thm(name,r,w,proof):
    s,a=sig(name)
    out.append(f"theorem le_{name} {s} :\n    CntLe ({name} {a} : Prog F _) ({r}) ({w}) := by\n  unfold {name}\n{proof}\n")
def callee(name):
    b=defs[name][1]
    return re.findall(r'\b(h(?:gemm|gemv|geru|gerc)[a-z]+_\w+)\b',b)
def gemm(v):
    n='hgemm'+v
    names=sorted([k for k in defs if k.startswith(n+'_') or k==n],key=lambda k:src.index('def '+k+' '))
    for k in names:
        x=k[len(n)+1:]
        c=callee(k)
        if k==n:
            b=[y for y in c]
            thm(k,'N.toNat * (M.toNat * 8 + K.toNat * (M.toNat * 20 + 16))','N.toNat * (M.toNat * 4 + K.toNat * (M.toNat * 4))',
f'''  try dsimp only
  refine CntLe.ite (fun _ => .ret) fun _ => CntLe.ite (fun _ => .ret) fun _ => CntLe.ite (fun _ => ?_) (fun _ => ?_)
  · exact CntLe.mono (CntLe.bindL (le_{c[0]} ..) (fun _ => .ret)) (gemm_le1 ..) (gemm_le2 ..)
  · exact CntLe.bindL (le_{c[1]} ..) (fun _ => .ret)''')
        elif x in('10_I','20_I','40_I','50_I','130_I','140_I','180_I','190_I'): leaf(k,8,4)
        elif x in('70_I','160_I','210_I'): leaf(k,20,4)
        elif x in('90_L','110_L','230_L','250_L','270_L','290_L'): leaf(k,16,0)
        elif x in('10_J','20_J'): thm(k,'M.toNat * 8','M.toNat * 4',f"  exact CntLe.bindL (CntLe.forN fun _ _ => le_{c[0]} ..) (fun _ => .ret)")
        elif x in('60_L','150_L','200_L'):
            thm(k,'M.toNat * 20 + 16','M.toNat * 4',f"  try dsimp only\n  repeat (first | refine le_rdC_bind fun _ => ?_ | refine .rd fun _ => ?_)\n  exact CntLe.mono (CntLe.bindL (CntLe.forN fun _ _ => le_{c[0]} ..) (fun _ => .ret)) (by omega) (by omega)")
        elif x in('80_I','100_I','220_I','240_I','260_I','280_I'):
            thm(k,'K.toNat * 16 + 8','4',f"  try dsimp only\n  refine CntLe.mono (CntLe.bind (CntLe.fold_const fun _ _ _ => le_{c[0]} ..) (fun _ => (?_ : CntLe _ 8 4))) (by omega) (by omega)\n  cases BZERO <;> le_line")
        elif x in('80_J','100_J','220_J','240_J','260_J','280_J'):
            thm(k,'M.toNat * (K.toNat * 16 + 8)','M.toNat * 4',f"  exact CntLe.bindL (CntLe.forN fun _ _ => le_{c[0]} ..) (fun _ => .ret)")
        elif x in('30_J','120_J','170_J'):
            thm(k,'M.toNat * 8 + K.toNat * (M.toNat * 20 + 16)','M.toNat * 4 + K.toNat * (M.toNat * 4)',
             f"  exact CntLe.bind (le_{c[0]} ..) fun _ => CntLe.bindL (CntLe.forN fun _ _ => le_{c[1]} ..) (fun _ => .ret)")
        elif x.startswith('if'):
            body=defs[k][1]
            s,_=sig(k)
            if 'K' not in s.replace('LDK','') .split() and '(K :' not in s:
                # beta only
                if '(J :' in s: # per column
                    ls=[y for y in c]
                    thm(k,'M.toNat * 8','M.toNat * 4',f"  refine CntLe.ite (fun _ => ?_) (fun _ => CntLe.ite (fun _ => ?_) (fun _ => .ret))\n"+"\n".join(f"  · exact CntLe.bindL (CntLe.forN fun _ _ => le_{y} ..) (fun _ => .ret)" for y in ls))
                else:
                    thm(k,'N.toNat * (M.toNat * 8)','N.toNat * (M.toNat * 4)',f"  refine CntLe.ite (fun _ => ?_) (fun _ => ?_)\n"+"\n".join(f"  · exact CntLe.bindL (CntLe.forN fun _ _ => le_{y} ..) (fun _ => .ret)" for y in c))
            else:
                R='N.toNat * (M.toNat * 8 + K.toNat * (M.toNat * 20 + 16))'; W='N.toNat * (M.toNat * 4 + K.toNat * (M.toNat * 4))'
                nb=len(c)
                pr="  refine "+"CntLe.ite (fun _ => ?_) (fun _ => "*(nb-1)+"?_"+")"*(nb-1)+"\n"
                for y in c:
                    yx=y[len(n)+1:]
                    if yx.startswith('if'):
                        pr+=f"  · exact CntLe.bindL (le_{y} ..) (fun _ => .ret)\n"
                    elif yx in('30_J','120_J','170_J'):
                        pr+=f"  · exact CntLe.bindL (CntLe.forN fun _ _ => le_{y} ..) (fun _ => .ret)\n"
                    else:
                        pr+=f"  · exact CntLe.mono (CntLe.bindL (CntLe.forN fun _ _ => le_{y} ..) (fun _ => .ret)) (gemm_le3 ..) (gemm_le2 ..)\n"
                thm(k,R,W,pr.rstrip())
        else: sys.exit('?? '+k)
PRE='''/-- A straight line of reads and writes. -/
macro "le_line" : tactic =>
  `(tactic| (repeat (first | exact .ret | refine .rd fun _ => ?_ | refine .wr ?_)))

theorem CntLe.bindL {α β : Type} {p : Prog F α} {f : α → Prog F β} {r w : Nat} (h : CntLe p r w) (hk : ∀ a, CntLe (f a) 0 0) :
    CntLe (p >>= f) r w := h.bind hk

theorem le_rdC_bind {β : Type} {p : Int} {f : Cplx F → Prog F β} {r w : Nat} (h : ∀ v, CntLe (f v) r w) :
    CntLe (rdC p >>= f) (r + 2) w := .rd fun _ => .rd fun _ => h _

theorem gemm_le1 (M N K : Nat) : N * (M * 8) ≤ N * (M * 8 + K * (M * 20 + 16)) := Nat.mul_le_mul_left _ (Nat.le_add_right _ _)
theorem gemm_le2 (M N K : Nat) : N * (M * 4) ≤ N * (M * 4 + K * (M * 4)) := Nat.mul_le_mul_left _ (Nat.le_add_right _ _)
theorem gemm_le3 (M N K : Nat) : N * (M * (K * 16 + 8)) ≤ N * (M * 8 + K * (M * 20 + 16)) := by
  apply Nat.mul_le_mul_left
  have h : M * (K * 16 + 8) = M * 8 + K * (M * 16) := by ring
  have h2 : K * (M * 16) ≤ K * (M * 20 + 16) := Nat.mul_le_mul_left _ (by omega)
  omega

'''
for v in sys.argv[1:]: gemm(v)
open('/verif/lean/Verif/TrafficFortGemm.lean','w').write(H%('Gemm','GEMM')+PRE+'\n'.join(out)+'\nend Haxx.Thr\n')
