#!/usr/bin/env python3
"""Generate lean/Verif/Thr*.lean: the routines of the main model once more, with the same text, as programs
whose memory accesses can be interleaved (`Haxx.Thr.Prog`), each with a proof that its sequential meaning is
the definition of the main model.  usage: gen_thr.py OUT FILE..."""
import re,sys,os
R=os.path.dirname(os.path.dirname(os.path.abspath(__file__)))+'/lean/Verif/'
def decls(f):
    """yield ('var',line) / ('def',doc,text)"""
    L=open(R+f+'.lean').read().split('\n')
    i=0
    while i<len(L):
        l=L[i]
        if re.match(r'(section|end|variable|namespace|open|omit)\b',l):
            yield ('ctl',l); i+=1; continue
        if l.startswith('/--'):
            j=i
            while not L[j].rstrip().endswith('-/'): j+=1
            doc=L[i:j+1]; k=j+1
            e=k+1
            while e<len(L) and not (re.match(r'(/--|/-!|def|theorem|structure|inductive|instance|section|end|variable|namespace|scoped|set_option|omit|@\[)',L[e])): e+=1
            body=L[k:e]
            while body and not body[-1].strip(): body.pop()
            if L[k].startswith('def '): yield ('def',doc,body)
            i=e; continue
        i+=1
def sig(body):
    t='\n'.join(body)
    # signature up to the first ':=' or newline-| at depth 0
    d=0
    for i,c in enumerate(t):
        if c in '([{': d+=1
        elif c in ')]}': d-=1
        elif d==0 and t.startswith(':=',i): return t[:i]
        elif d==0 and t.startswith('\n  |',i): return t[:i]
    return t
def args(s):
    """explicit argument names with types"""
    out=[];d=0;cur=''
    # cut result type: last ':' at depth 0
    for c in s:
        if c in '([{':
            if d==0: cur=''
            d+=1
        if d>0: cur+=c
        if c in ')]}':
            d-=1
            if d==0: out.append(cur)
    return out
def main():
    out=sys.argv[1]; files=sys.argv[2:]
    imports=[a for a in files if a.startswith('+')]; files=[a for a in files if not a.startswith('+')]
    o=[]
    for a in imports: o.append('import Verif.'+a[1:])
    for f in files: o.append('import Verif.'+f)
    o.append(f'''
/-!
# Threads: {', '.join(files)}

Generated by `tools/gen_thr.py` from the definitions of the main model: every definition has the text of its
namesake, read with single memory accesses (`Haxx.Thr.Prog`); `run_…` says that its sequential meaning is the namesake.
-/

set_option linter.unusedVariables false
set_option linter.unusedSectionVars false
set_option linter.unusedSimpArgs false

namespace Haxx.Thr
open Arith
''')
    n=0
    for f in files:
        stack=0
        for d in decls(f):
            if d[0]=='ctl':
                l=d[1]
                if l.startswith('open') or l.startswith('namespace Haxx') or l=='end Haxx' or l.startswith('omit'): continue
                if l.startswith('namespace'): o.append('section -- '+l.split()[1]); stack+=1; continue
                if l.startswith('section'): o.append('section'); stack+=1; continue
                if re.match(r'end\b',l):
                    if stack>0: o.append('end'); stack-=1
                    continue
                o.append(l); continue
            doc,body=d[1],d[2]
            s=sig(body)
            if 'Prog F' not in s: continue
            name=body[0].split()[1]
            if name in SKIP: continue
            o.append(f'/-- As `Haxx.{name}`, {doc_cite(doc)} -/')
            o+=body; o.append('')
            a=args(s[len('def '+name):])
            # result type brackets like (Int × Int) after the colon are not arguments
            head=s[len('def '+name):]
            o+=thm(name,head); o.append('')
            n+=1
        o.append(f'-- end of {f}\n')
        assert stack==0,(f,stack)
    o.append('end Haxx.Thr')
    open(R+out+'.lean','w').write('\n'.join(o)+'\n')
    print(out,n)
SKIP={'i32','fault','rd','wr','loadQ','storeQ','loadA','storeA','assertP','foldN','forN','allocQ','freeQ','wp'}
def doc_cite(doc):
    t=' '.join(x.strip() for x in doc)
    t=re.sub(r'^/--\s*','',t); t=re.sub(r'\s*-/$','',t)
    return t
def binders(head):
    """split signature into binder strings (depth 0) and the result type"""
    b=[];d=0;cur='';i=0
    while i<len(head):
        c=head[i]
        if d==0 and c==':': return b,head[i+1:].strip()
        if c in '([{':
            if d==0: cur=''
            d+=1
        if d>0: cur+=c
        if c in ')]}':
            d-=1
            if d==0: b.append(cur)
        i+=1
    return b,''
def thm(name,head):
    b,res=binders(head)
    bs=[];call=[];callH=[];hyps=[];k=0
    fa=[]
    for x in b:
        if x[0]!='(': bs.append(x); continue
        nm,ty=x[1:-1].split(':',1); ty=' '.join(ty.split())
        for v in nm.split():
            if 'Prog F' in ty:
                # function argument returning a program
                parts=[p.strip() for p in ty.split('→')]
                tys=parts[:-1]
                bs.append(f'({v} : {ty})')
                vs=[f'x{k+i}' for i in range(len(tys))]; k+=len(tys)
                call.append(v)
                callH.append(f"(fun {' '.join(vs)} => ({v} {' '.join(vs)}).run)")
                fa.append(v)
            else:
                bs.append(f'({v} : {ty})'); call.append(v); callH.append(v)
    L=[f"@[thr] theorem run_{name} {' '.join(bs)} :",
       f"    (Thr.{name} {' '.join(call)}{extra(name)}).run = Haxx.{name} {' '.join(callH)}{extra(name)} := by"]
    return L+proof(name)
def extra(name): return ' (F := F) (α := α)' if name=='uninit' else ' (F := F)'
def proof(name):
    return [f"  simp only [Thr.{name}, Haxx.{name}, thr]"] if name not in SPECIAL else SPECIAL[name]
SPECIAL={'loadK':["  cases k <;> simp only [Thr.loadK, Haxx.loadK, thr]"],
  'gemmIIStep':["  exact run_bind_eq (run_Kern ..) (fun _ => run_bind_eq (run_i32 _) (fun _ => run_bind_eq (run_i32 _) fun _ => run_pure _))"],
  'gemmJJStep':["  exact run_bind_eq (run_gemmII ..) (fun _ => run_bind_eq (run_i32 _) (fun _ => run_bind_eq (run_i32 _) (fun _ => run_bind_eq (run_i32 _) fun _ => run_pure _)))"]}
main()
