#!/usr/bin/env python3
"""Generate lean/Verif/FuseEx.lean: for every theorem of PropsFuse.lean on finite or integer data, the example that
accompanies the unfused theorem, with its data as single doubles."""
import re
out=[]
for f in ['ExactEx','FinEx','PropsMatF','PropsMixFin']:
    s=open(f'/verif/lean/Verif/{f}.lean').read()
    for m in re.finditer(r'^example(?: \(junk[^\n]*?\))? := (C59|C60)_.*?(?=\n\n|\nend)',s,re.S|re.M):
        t=m.group(0)
        if 'builds_agree' in t: continue
        t=re.sub(r'\(by\n    refine Bool\.eq_false_iff.*?norm_num at h1\)','lnum_ne_zero',t,flags=re.S)
        t=t.replace('C59_','C66_exact_').replace('C60_','C66_acc_')
        t=re.sub(r'(C66_exact_\w+) \(rneModel fused\)',r'\1 (rneModel fused) u16 pol',t)
        t=re.sub(r'(C66_acc_\w+) \(ieeeModel fused\)',r'\1 (ieeeModel fused) (fun _ h => h) u16 one_le_max pol',t)
        t=t.replace('(fused := fused)','(fused := fused) (pol := pol)').replace('fitsb','fitsl').replace('_truth 1 2).zero','_truth 1 2).1')
        t=re.sub(r'\bl1\b','one_le_big',t)
        t=re.sub(r'big7',r'lbig',t); t=re.sub(r'num7','lnum',t)
        t=t.replace('Int → Dbl fused','Int → Fused (Dbl fused) pol').replace('Int → F64 fused','Int → Fused (F64 fused) pol')
        t=t.replace('fits_big','fits8_big')
        out.append(t)
pre=open('/verif/tools/fuse_ex_pre.txt').read()
post=open('/verif/tools/fuse_ex_post.txt').read()
open('/verif/lean/Verif/FuseEx.lean','w').write(pre+'\n\n'.join(out)+'\n'+post)
print(len(out))
