import re,sys
exec(open('/verif/tools/traffic_fort/gg.py').read().split("def gemm(v)")[0])
PRE2='''
/-- Branches, reads, writes and reads of undefined variables. -/
macro "le_line2" : tactic =>
  `(tactic| (repeat (first | exact .ret | exact .fail | refine .rd fun _ => ?_ | refine .wr ?_ | refine CntLe.ite (fun _ => ?_) (fun _ => ?_))))

theorem CntLe.bind0 {α β : Type} {p : Prog F α} {f : α → Prog F β} {r w : Nat} (h : CntLe p 0 0) (hk : ∀ a, CntLe (f a) r w) :
    CntLe (p >>= f) r w := CntLe.mono (h.bind hk) (by omega) (by omega)

theorem CntLe.pureBind {α β : Type} {a : α} {f : α → Prog F β} {r w : Nat} (h : CntLe (f a) r w) : CntLe (pure a >>= f) r w := h

theorem gemv_len1 (M N A W : Nat) : M * 8 ≤ max M N * 8 := Nat.mul_le_mul_right _ (le_max_left _ _)

'''
LOOP=lambda y: f"first\n    | exact CntLe.mono (CntLe.bindL (CntLe.forN fun _ _ => le_{y} ..) (fun _ => .ret)) (by LEQ) (by LEQ)\n    | exact CntLe.mono (CntLe.bindL (CntLe.fold_const fun _ _ _ => le_{y} ..) (fun _ => .ret)) (by LEQ) (by LEQ)"
def loop(n,y):
    b=defs[n][1]
    kind='CntLe.forN fun _ _' if re.search(r'forN [^\n]*'+y+r'\b',b) else 'CntLe.fold_const fun _ _ _'
    return f"CntLe.bindL ({kind} => le_{y} ..) (fun _ => .ret)"
def branches(k,cs,tail=''):
    return "  try dsimp only\n  refine CntLe.ite (fun _ => ?_) (fun _ => ?_)\n"+"\n".join(f"  · exact {c}" for c in cs)
def gemv(v):
    n='hgemv'+v
    names=sorted([k for k in defs if k.startswith(n+'_') or k==n],key=lambda k:src.index('def '+k+' '))
    S={}
    MM='N.toNat * (M.toNat * 20 + 16)';WW='N.toNat * (M.toNat * 4 + 4)'
    for k in names:
        x=k[len(n)+1:]; c=callee(k); cx=[y[len(n)+1:] for y in c]; b=defs[k][1]
        if k==n:
            thm(k,'max M.toNat N.toNat * 8 + '+MM,'max M.toNat N.toNat * 4 + '+WW,
f'''  try dsimp only
  refine CntLe.ite (fun _ => .ret) fun _ => CntLe.bind0 (r := _) (w := _) (hk := ?_) ?_
  · le_line2''')
            # replaced below
            out.pop()
            s,a=sig(k)
            out.append(f'''theorem le_{k} {s} :
    CntLe ({k} {a} : Prog F _) (max M.toNat N.toNat * 8 + {MM}) (max M.toNat N.toNat * 4 + {WW}) := by
  unfold {k}
  try dsimp only
  refine CntLe.ite (fun _ => .ret) fun _ => ?_
  have fin : ∀ (LENX LENY : Int), LENY.toNat ≤ max M.toNat N.toNat → ∀ r, CntLe (({k}_tail r LENX LENY) : Prog F Unit) 0 0 := by
    skip
''')
            out.pop()
            early=not b.lstrip().startswith('let NOCONJ'); pre='  refine CntLe.ite (fun _ => .ret) fun _ => ?_\n' if early else ''; pre2='' if early else 'CntLe.ite (fun _ => .ret) fun _ => '
            yb=[y for y in c if S[y]=='beta'][0]; yt=[y for y in c if S[y]=='tail'][0]
            out.append(f'''theorem le_{k} {s} :
    CntLe ({k} {a} : Prog F _) (max M.toNat N.toNat * 8 + {MM}) (max M.toNat N.toNat * 4 + {WW}) := by
  unfold {k}
  try dsimp only
{pre}  split <;> refine CntLe.pureBind ({pre2}CntLe.bind0 (CntLe.ite (fun _ => .ret) fun _ => .ret) fun _ =>
    CntLe.bind0 (CntLe.ite (fun _ => .ret) fun _ => .ret) fun _ => CntLe.bind (CntLe.mono (le_{yb} ..) ?_ ?_) fun _ =>
    CntLe.ite (fun _ => .ret) fun _ => CntLe.bindL (le_{yt} ..) fun _ => .ret)
  all_goals first | exact Nat.mul_le_mul_right _ (le_max_left _ _) | exact Nat.mul_le_mul_right _ (le_max_right _ _)
''')
        elif x in('10_I','20_I','30_I','40_I'): leaf(k,8,4)
        elif x in('50_I','70_I'): leaf(k,20,4)
        elif x in('90_I','100_I','120_I','130_I'): leaf(k,16,0)
        elif x in('60_J','80_J'):
            thm(k,'M.toNat * 20 + 16','M.toNat * 4',f"  try dsimp only\n  repeat (first | refine le_rdC_bind fun _ => ?_ | refine .rd fun _ => ?_)\n  exact CntLe.mono ({loop(k,c[0])}) (by omega) (by omega)")
        elif x in('110_J','140_J'):
            thm(k,'M.toNat * 16 + 4','4',f"  try dsimp only\n  refine CntLe.mono (CntLe.bind (le_{c[0]} ..) (fun _ => (?_ : CntLe _ 4 4))) (by omega) (by omega)\n  le_line2")
        elif x.startswith('if'):
            if all(y in('10_I','20_I','30_I','40_I') for y in cx):
                thm(k,'LENY.toNat * 8','LENY.toNat * 4',branches(k,[loop(k,y) for y in c])); S[k]='beta'
            elif all(S.get(y)=='beta' for y in c):
                if len(c)==2: thm(k,'LENY.toNat * 8','LENY.toNat * 4',branches(k,[f"CntLe.bindL (le_{y} ..) fun _ => .ret" for y in c]))
                else: thm(k,'LENY.toNat * 8','LENY.toNat * 4',branches(k,[f"CntLe.bindL (le_{c[0]} ..) fun _ => .ret",'.ret']))
                S[k]='beta'
            elif all(y in('90_I','100_I','120_I','130_I') for y in cx):
                thm(k,'M.toNat * 16','0',branches(k,[f"{loop(k,y)}" for y in c])); S[k]='in'
            elif all(y in('60_J','80_J') for y in cx):
                thm(k,MM,WW,branches(k,[f"CntLe.mono ({loop(k,y)}) le_rfl (gemv_w1 ..)" for y in c])); S[k]='tail'
            elif all(y in('110_J','140_J') for y in cx):
                thm(k,MM,WW,branches(k,[f"CntLe.mono ({loop(k,y)}) (gemv_r2 ..) (gemv_w2 ..)" for y in c])); S[k]='tail'
            elif all(S.get(y)=='tail' for y in c):
                thm(k,MM,WW,branches(k,[f"CntLe.bindL (le_{y} ..) fun _ => .ret" for y in c])); S[k]='tail'
            else: sys.exit('?? '+k+str(c))
        else: sys.exit('?? '+k)
def ger(n):
    names=sorted([k for k in defs if k.startswith(n+'_') or k==n],key=lambda k:src.index('def '+k+' '))
    R='N.toNat * (M.toNat * 20 + 20)';W='N.toNat * (M.toNat * 4)'
    for k in names:
        x=k[len(n)+1:]; c=callee(k); cx=[y[len(n)+1:] for y in c]; b=defs[k][1]; s,a=sig(k)
        if k==n:
            thm(k,R,W,f"  try dsimp only\n  refine CntLe.ite (fun _ => .ret) fun _ => CntLe.bind0 (CntLe.ite (fun _ => .ret) fun _ => .ret) fun _ => CntLe.bindL (le_{c[0]} ..) fun _ => .ret")
        elif x in('10_I','30_I'):
            out.append(f"theorem le_{k} {s} : CntLe ({k} {a} : Prog F _) 20 4 := by\n  unfold {k}\n  le_line2\n")
        elif x in('20_J','40_J'):
            thm(k,'M.toNat * 20 + 20','M.toNat * 4',f"  exact CntLe.bindL (le_{c[0]} ..) fun _ => .ret")
        elif cx in(['10_I'],['30_I']):
            lp=loop(k,c[0])
            thm(k,'M.toNat * 20 + 20','M.toNat * 4',f"  try dsimp only\n  repeat (first | refine le_rdC_bind fun _ => ?_ | refine .rd fun _ => ?_)\n  refine CntLe.ite (fun _ => ?_) (fun _ => .ret)\n  repeat (first | refine le_rdC_bind fun _ => ?_ | refine .rd fun _ => ?_)\n  exact CntLe.mono ({lp}) (by omega) (by omega)")
        elif cx==['20_J','40_J']:
            thm(k,R,W,f"  try dsimp only\n  refine CntLe.ite (fun _ => ?_) (fun _ => ?_)\n  · exact {loop(k,c[0])}\n  · exact CntLe.bind0 (CntLe.ite (fun _ => .ret) fun _ => .ret) fun _ => {loop(k,c[1])}")
        else: sys.exit('?? '+k+str(c))
vs=[];gs=[]
for k in defs:
    m=re.match(r'hgemv([a-z]+)$',k)
    if m: vs.append(m.group(1))
    if re.match(r'hger[uc][a-z]+$',k): gs.append(k)
print(vs,gs)
for v in vs: gemv(v)
for g in gs: ger(g)
PRE2=PRE2[:PRE2.index('theorem gemv_len1')]+'''theorem gemv_w1 (M N : Nat) : N * (M * 4) ≤ N * (M * 4 + 4) := Nat.mul_le_mul_left _ (by omega)
theorem gemv_w2 (M N : Nat) : N * 4 ≤ N * (M * 4 + 4) := Nat.mul_le_mul_left _ (by omega)
theorem gemv_r2 (M N : Nat) : N * (M * 16 + 4) ≤ N * (M * 20 + 16) := Nat.mul_le_mul_left _ (by omega)

'''
h=(H%('','GEMV, GERU and GERC')).replace('import Verif.TrafficPort\nimport Verif.ThrFort\n','import Verif.TrafficFortGemm\nimport Verif.ThrFort\n')
open('/verif/lean/Verif/TrafficFort2.lean','w').write(h+PRE2+'\n'.join(out)+'\nend Haxx.Thr\n')
