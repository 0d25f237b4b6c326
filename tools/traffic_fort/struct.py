exec(open('/verif/tools/traffic_fort/gen.py').read().replace("print('\\n'.join(out))",""))
lemmas=[o.split()[1] for o in out]
H='''import Verif.TrafficPort
import Verif.ThrFort

/-!
# Counting the memory accesses of the Fortran level-1 routines and of the expansions

As `Traffic.lean`.  Counted are the references of the Fortran source (an element of an array that appears in an expression is
read); the loop bodies are straight lines of reads and writes.
-/

set_option linter.unusedVariables false
set_option linter.unusedSectionVars false
set_option linter.unusedTactic false
set_option linter.unreachableTactic false

namespace Haxx.Thr
open Arith

variable {F : Type} [Arith F] [ArithEq F]

/-- A straight line of reads and writes. -/
macro "cnt_line" : tactic =>
  `(tactic| (repeat (first | exact .ret | refine .rd fun _ => ?_ | refine .wr ?_)))

'''
def comp(name,r,w,uses,body=None):
    s,a=sig(name)
    b=body or f"  unfold {name}\n  cnt_tree [{', '.join('cnt_'+u for u in uses)}]"
    out.append(f"theorem cnt_{name} {s} :\n    Cnt ({name} {a} : Prog F _) ({r}) ({w}) := by\n{b}\n")
H=H.rstrip()+'''

theorem Cnt.bindL {α β : Type} {p : Prog F α} {f : α → Prog F β} {r w : Nat} (h : Cnt p r w) (hk : ∀ a, Cnt (f a) 0 0) :
    Cnt (p >>= f) r w := h.bind hk

/-- Branches, loops and calls; the leaves are the lemmas given. -/
syntax "cnt_tree" "[" term,* "]" : tactic
macro_rules
  | `(tactic| cnt_tree [$ts,*]) => do
    let es := ts.getElems
    `(tactic| ((try dsimp only); (repeat (first
      | exact .ret
      $[| apply $es]*
      | refine Cnt.forN fun _ _ => ?_
      | refine Cnt.fold_const fun _ _ _ => ?_
      | refine Cnt.ite (fun _ => ?_) (fun _ => ?_)
      | refine Cnt.bindL ?_ (fun _ => .ret)
      | refine Cnt.bind0 (Cnt.ite (fun _ => .ret) (fun _ => .ret)) fun _ => ?_))))

'''
def tree(n,r,w):
    # all _ifNN then top
    loops=[k for k in defs if re.match(n+r'_\d+_[IJL]$',k)]
    ifs=[k for k in defs if re.match(n+r'_if\d+$',k)]
    # order of appearance in file
    order=sorted(ifs,key=lambda k:src.index('def '+k+' '))
    done=list(loops)
    for k in order:
        comp(k,f"N.toNat * {r}",f"N.toNat * {w}",[u for u in done if u in defs[k][1]])
        done.append(k)
    return done
for n in L1:
    r,w=counts(n+'_10_I')
    done=tree(n,r,w)
    s,a=sig(n)
    if n.startswith('hdot'):
        comp(n,f"N.toNat * {r}",f"N.toNat * {w}",None,f"""  unfold {n}
  by_cases hN : N ≤ 0
  · rw [if_pos (decide_eq_true hN)]
    simp only [Int.toNat_of_nonpos hN, zero_mul]
    exact .ret
  · rw [if_neg (by simpa using hN)]
    try dsimp only
    exact Cnt.bindL (cnt_{n}_if20 ..) (fun _ => .ret)""")
    else:
        top=re.findall(r'^    if (.*) then$',defs[n][1],re.M)
        c=top[0]
        inner=[u for u in done if re.search(r'\b'+u+r'\b',defs[n][1])][0]
        out.append(f'''theorem cnt_{n} {s} :
    Cnt ({n} {a} : Prog F _) (if {c} then 0 else N.toNat * {r}) (if {c} then 0 else N.toNat * {w}) := by
  unfold {n}
  by_cases hN : N ≤ 0
  · rw [if_pos (decide_eq_true hN)]
    simp only [Int.toNat_of_nonpos hN, zero_mul, ite_self]
    exact .ret
  · rw [if_neg (by simpa using hN)]
    split
    · exact .ret
    · try dsimp only
      exact Cnt.bindL (cnt_{inner} ..) (fun _ => .ret)
''')
for n,r,w in [('hdexp',16,16),('hzexp1',8,8),('hzexp2',8,8),('hzcon1',4,4),('hzcon2',4,4)]:
    j=[k for k in defs if re.match(n+r'_\d+_J$',k)][0]
    comp(j,f"M.toNat * {r}",f"M.toNat * {w}",[n+'_10_I'])
    comp(n,f"N.toNat * (M.toNat * {r})",f"N.toNat * (M.toNat * {w})",[j])
for n in ['HBLAS_COMPLEX_EXPAND','HBLAS_COMPLEX_CONTRACT']:
    s,a=sig(n)
    k=8 if 'EXPAND' in n else 4
    u=['hzexp1','hzexp2'] if 'EXPAND' in n else ['hzcon1','hzcon2']
    out.append(f'''theorem cnt_{n} {s} :
    Cnt ({n} {a} : Prog F _) (N.toNat * (M.toNat * {k})) (N.toNat * (M.toNat * {k})) := by
  unfold {n}
  refine Cnt.bind0 (cnt_assert _) fun _ => Cnt.ite (fun _ => ?_) (fun _ => ?_)
  · exact cnt_{u[0]} ..
  · exact cnt_{u[1]} ..
''')
s,a=sig('HBLAS_REAL_EXPAND')
out.append(f'''theorem cnt_HBLAS_REAL_EXPAND {s} :
    Cnt (HBLAS_REAL_EXPAND {a} : Prog F _) (N.toNat * (M.toNat * 16)) (N.toNat * (M.toNat * 16)) := cnt_hdexp ..
''')
open('/verif/lean/Verif/TrafficFort.lean','w').write(H+'\n'.join(out)+'\nend Haxx.Thr\n')
