#!/usr/bin/env python3
"""Generate lean/Verif/PropsFuseNorm.lean: the norm-wise rounding bounds of C42 for code in which the compiler fuses products
with additions (Fuse.lean). Each proof instantiates the unfused theorem with fusedStd (relative error 4u per operation)."""
import re,sys
sys.argv=['x']
src=open('/verif/tools/gen_fuse.py').read()
src=src[:src.index('def gen60')]+src[src.index('def fold'):src.index("open('/verif/lean/Verif/PropsFuse.lean'")]

src=src.replace(r'| :=\n|\s:=\s)',')')
exec(src)
mods=set()
for name,d,st,f in find('C42')+[t for t in find('C57') if t[0] in ('C57_mul','C57_mul_scalar','C57_comm')]:
    bs,concl=binders(st)
    assert bs[0]=='(S : StdModel F u)',(name,bs[0])
    nb=[];args=[]
    for b in bs[1:]:
        if b[0]=='{' : nb.append(b); continue
        if b[0]=='[': continue
        t=b[b.index(':')+1:-1].strip()
        for n in names(b):
            if re.match(r'(StdModel\.)?Truth S',t): args.append(f'⟨{n}.1, {n}.2⟩')
            elif t.startswith('∀ a b : F'): args.append(f'(fun a b k => {n} _ _ k)')
            else: args.append(n)
        nb.append(b)
    def tr(s):
        s=common(s,'S')
        s=re.sub(r'\bCplx F\b','Cplx (Fused F pol)',s)
        s=re.sub(r'(∀ a b : F, \(?[^→]*?→ )S\.val a = S\.val b',r'\1S.@val a = S.@val b',s)
        s=s.replace('S.val Arith.one','S.@val Arith.one')
        s=re.sub(r'(StdModel\.)?Truth S','STruth S',s)
        s=s.replace('S.ok','(SOk S pol)').replace('S.val','(sval S)').replace('S.@val','S.val')
        s=re.sub(r'\(1 \+ u\)','(1 + 4 * u)',s)
        return s
    assert not re.search(r'(?<![\w*] )(?<!\w)u(?!\w)',concl.replace('(1 + u)','')),(name,concl)
    mods.add(f.split('/')[-1][:-5])
    new=name.replace('C42_','C66_norm_').replace('C57_','C66_norm_op_')
    eq='' if 'ArithEq' in st or name in('x',) else ''
    out.append(f'/-- C66: {doc(d,name[:3])} With `4u` in place of `u`. -/\ntheorem {new} (S : StdModel F u) (hu : u ≤ 1 / 16) (pol : Ex Unit → Fusing) {tr(" ".join(nb))} :\n    {tr(concl)} :=\n  {name} (fusedStd S hu (fun _ _ => True) pol) {" ".join(args)}\n')
pre='\n'.join('import Verif.'+m for m in sorted(mods|{'PropsFuse','PropsAgree'}))+'''

/-!
# C66: norm-wise rounding bounds for fused code

(Generated by tools/gen_fuse_norm.py.) The bounds of C42, relative to the norms of the operands, for code in which the compiler
has fused any of the products with the additions and subtractions that use them: the unit roundoff `u` becomes `4u`.
-/

set_option linter.unusedSectionVars false
set_option linter.unusedVariables false

namespace Haxx
open Arith Finset Quaternion

variable {F : Type} [Arith F] [ArithEq F] {pol : Ex Unit → Fusing} {u : ℝ}

/-- The real number that the compiled code computes for an expression. -/
noncomputable def sval (S : StdModel F u) (a : Fused F pol) : ℝ := S.val a.dbl
/-- Every double the compiled code computes for the expression, and every product, stands for a real number. -/
def SOk (S : StdModel F u) (pol : Ex Unit → Fusing) (a : Fused F pol) : Prop := Ex.okE S (fun _ _ => True) pol a
/-- The comparisons of a scalar with 0 and 1 tell the truth. -/
def STruth (S : StdModel F u) (s : Scal (Fused F pol)) : Prop :=
  (s.eqZero = true → (s.map (sval S)).toH = 0) ∧ (s.eqOne = true → (s.map (sval S)).toH = 1)

'''
open('/verif/lean/Verif/PropsFuseNorm.lean','w').write(pre+'\n'.join(fold(o) for o in out)+open('/verif/tools/fuse_norm_post.txt').read())
print(len(out),sorted(mods))
