#!/usr/bin/env python3
"""Mechanical translation of HAXX's fixed-form Fortran subroutines into the Lean model.

usage: f2lean.py <module doc> <out.lean> <subroutine file>...

Every DO loop body becomes a definition named <subroutine>_<label>_<loop variable>, every
non-trailing IF that contains a loop becomes <subroutine>_if<line>, each citing file and lines.
Scalars assigned in a loop that are read before being assigned, or are live afterwards, are the
loop state.  Reading a scalar that no assignment reaches becomes `uninit` (a fault).
"""
import re, sys, os
REPO = '/repo/'

# ---------------------------------------------------------------- lines
def read_lines(path):
    """-> list of (lineno, label, text) logical lines; handles #define/#ifdef, continuations."""
    out, defs, stack = [], set(), []
    for no, raw in enumerate(open(path), 1):
        raw = raw.rstrip('\n')
        assert len(raw) <= 72 or raw[72:].strip() == '', (path, no)
        if raw.startswith('#'):
            w = raw[1:].split()
            if w[0] == 'define': defs.add(w[1])
            elif w[0] == 'ifdef': stack.append(w[1] in defs)
            elif w[0] == 'ifndef': stack.append(w[1] not in defs)
            elif w[0] == 'else': stack[-1] = not stack[-1]
            elif w[0] == 'endif': stack.pop()
            else: raise SystemExit('cpp? ' + raw)
            continue
        if not all(stack): continue
        if not raw.strip() or raw[0] in 'Cc*!': continue
        body = raw[6:] if len(raw) > 6 else ''
        if '!' in body: body = body[:body.index('!')]
        lab = raw[:5].strip()
        if len(raw) > 5 and raw[5] not in ' 0':
            a, l, t, _ = out[-1]
            out[-1] = (a, l, t + ' ' + body.strip(), no)
        else:
            if not body.strip(): continue
            out.append((no, lab, body.strip(), no))
    return out

# ---------------------------------------------------------------- expressions
TOK = re.compile(r"""\s*(?:(\.[A-Za-z]+\.)|(\d+\.\d*(?:[DdEe][+-]?\d+)?)|(\d+)|([A-Za-z]\w*)|('.')|([-+*/(),=]))""")
def toks(s):
    p, r = 0, []
    s = s.strip()
    while p < len(s):
        m = TOK.match(s, p)
        if not m: raise SystemExit('lex: ' + s[p:])
        p = m.end()
        dot, flt, num, idn, ch, op = m.groups()
        if dot: r.append(('dot', dot.upper()))
        elif flt: r.append(('flt', flt.upper()))
        elif num: r.append(('num', num))
        elif idn: r.append(('id', idn.upper()))
        elif ch: r.append(('chr', ch))
        else: r.append(('op', op))
    return r

class P:
    def __init__(s, t): s.t, s.i = t, 0
    def pk(s): return s.t[s.i] if s.i < len(s.t) else (None, None)
    def nx(s): s.i += 1; return s.t[s.i-1]
    def acc(s, k, v):
        if s.pk() == (k, v): s.i += 1; return True
        return False
    def need(s, k, v):
        if not s.acc(k, v): raise SystemExit(f'expected {v} at {s.t[s.i:]}')
    def expr(s): return s.orx()
    def orx(s):
        a = s.andx()
        while s.acc('dot', '.OR.'): a = ('or', a, s.andx())
        return a
    def andx(s):
        a = s.notx()
        while s.acc('dot', '.AND.'): a = ('and', a, s.notx())
        return a
    def notx(s):
        if s.acc('dot', '.NOT.'): return ('not', s.notx())
        return s.rel()
    def rel(s):
        a = s.add()
        k, v = s.pk()
        if k == 'dot' and v in ('.EQ.', '.NE.', '.LT.', '.LE.', '.GT.', '.GE.'):
            s.nx(); return (v.strip('.').lower(), a, s.add())
        return a
    def add(s):
        if s.acc('op', '-'): a = ('neg', s.mul())
        else:
            s.acc('op', '+'); a = s.mul()
        while s.pk() in (('op', '+'), ('op', '-')):
            o = s.nx()[1]
            a = ('add' if o == '+' else 'sub', a, s.mul())
        return a
    def mul(s):
        a = s.atom()
        while s.pk() == ('op', '*'):
            s.nx(); a = ('mul', a, s.atom())
        return a
    def atom(s):
        k, v = s.nx()
        if k == 'num': return ('int', int(v))
        if k == 'flt': return ('flt', v)
        if k == 'chr': return ('chr', v)
        if k == 'op' and v == '(':
            e = s.expr()
            if s.acc('op', ','):
                f = s.expr(); s.need('op', ')')
                return ('cplx', e, f)
            s.need('op', ')')
            return e
        if k == 'id':
            if s.acc('op', '('):
                args = [s.expr()]
                while s.acc('op', ','): args.append(s.expr())
                s.need('op', ')')
                return ('call', v, args)
            return ('var', v)
        raise SystemExit(f'atom {k} {v}')

# ---------------------------------------------------------------- statements
class Sub: pass

def parse_file(path):
    lines = read_lines(path)
    subs, i = [], 0
    while i < len(lines):
        no, lab, t, _ = lines[i]
        m = re.match(r'(?i)(?:SUBROUTINE)\s+(\w+)\s*\((.*)\)\s*$', t)
        assert m, (path, no, t)
        S = Sub(); S.path = os.path.relpath(path, REPO); S.name = m.group(1).lower()
        S.args = [a.strip().upper() for a in m.group(2).split(',')]
        S.line = no; S.types = {}; S.dims = {}; S.params = {}; S.implicit = []
        j = i + 1
        body = []
        while lines[j][2].upper() != 'END': j += 1
        S.endline = lines[j][0]
        k = i + 1
        while k < j:
            no, lab, t, _ = lines[k]
            u = t.upper()
            m = re.match(r'(LOGICAL|CHARACTER|INTEGER\*4|INTEGER|REAL\*8|COMPLEX\*16|DIMENSION)\s+(.*)', u)
            if m:
                ty = {'LOGICAL': 'l', 'CHARACTER': 'c', 'INTEGER*4': 'i', 'INTEGER': 'i', 'REAL*8': 'd',
                      'COMPLEX*16': 'z', 'DIMENSION': None}[m.group(1)]
                for d in re.findall(r'(\w+)\s*(\([^)]*\))?', m.group(2)):
                    if ty: S.types[d[0]] = ty
                    if d[1]: S.dims[d[0]] = [x.strip() for x in d[1][1:-1].split(',')]
                k += 1; continue
            if u.startswith('EXTERNAL'): k += 1; continue
            m = re.match(r'IMPLICIT\s+(REAL\*8|COMPLEX\*16)\s*\((.*)\)', u)
            if m:
                S.implicit.append(({'REAL*8': 'd', 'COMPLEX*16': 'z'}[m.group(1)], m.group(2)))
                k += 1; continue
            m = re.match(r'PARAMETER\s*\((.*)\)$', u)
            if m:
                for nm, val in re.findall(r'(\w+)\s*=\s*(\([^)]*\)|[^,(]+)', m.group(1)):
                    S.params[nm] = P(toks(val)).expr()
                k += 1; continue
            break
        S.body, k = parse_block(lines, k, j)
        assert k == j
        subs.append(S)
        i = j + 1
    return subs

def typ(S, v):
    if v in S.types: return S.types[v]
    for t, rng in S.implicit:
        for part in rng.replace(' ', '').split(','):
            lo, hi = (part.split('-') + part.split('-'))[:2] if '-' in part else (part, part)
            if lo <= v[0] <= hi: return t
    return 'i' if 'I' <= v[0] <= 'N' else 's'

def parse_block(lines, k, end, stop=None):
    """parse statements until `end` or (for IF) ELSE/ENDIF; DO handled by label."""
    out = []
    while k < end:
        no, lab, t, last = lines[k]
        u = re.sub(r'\s+', ' ', t.upper())
        if stop and (u.replace(' ', '') in ('ELSE', 'ENDIF') or re.match(r'ELSE ?IF', u)): return out, k
        m = re.match(r'DO (\d+) (\w+) ?= ?(\w+) ?, ?(\w+)$', u)
        if m:
            label = m.group(1)
            # find the closing label
            e = k + 1
            while lines[e][1] != label: e += 1
            assert lines[e][2].upper() == 'CONTINUE'
            # nested DO with the same label shares the CONTINUE
            b, kk = parse_block(lines, k + 1, e)
            assert kk == e
            assert m.group(3) == '1'
            out.append(('do', label, m.group(2), P(toks(m.group(4))).expr(), b, no, lines[e][0]))
            k = e + 1
            # if we are ourselves inside a DO with the same label, `end` == e for the outer
            if e == end: return out, e
            continue
        m = re.match(r'IF ?\(.*\) ?THEN$', u)
        if m:
            br = []
            cond = re.match(r'(?i)IF\s*(\(.*\))\s*THEN$', t).group(1)
            k += 1
            els = None
            while True:
                b, k = parse_block(lines, k, end, stop=True)
                br.append((P(toks(cond)).expr(), b))
                u2 = re.sub(r'\s+', ' ', lines[k][2].upper())
                if re.match(r'ELSE ?IF', u2):
                    cond = re.match(r'(?i)ELSE\s*IF\s*(\(.*\))\s*THEN$', lines[k][2]).group(1)
                    k += 1; continue
                if u2 == 'ELSE':
                    els, k = parse_block(lines, k + 1, end, stop=True)
                assert lines[k][2].upper().replace(' ', '') == 'ENDIF', lines[k]
                out.append(('if', br, els or [], no, lines[k][0]))
                k += 1
                break
            continue
        m = re.match(r'IF ?\(', u)
        if m:
            # one-line IF: find matching paren
            s = t[t.index('('):]
            d = 0
            for q, ch in enumerate(s):
                d += (ch == '(') - (ch == ')')
                if d == 0: break
            cond, rest = s[:q+1], s[q+1:].strip()
            out.append(('if', [(P(toks(cond)).expr(), [stmt(rest, no, last)])], [], no, last))
            k += 1; continue
        out.append(stmt(t, no, last)); k += 1
    return out, k

def stmt(t, no, last):
    if t.upper() == 'RETURN': return ('return', no)
    p = P(toks(t)); lhs = p.atom(); p.need('op', '='); rhs = p.expr()
    assert p.i == len(p.t), t
    return ('as', lhs, rhs, no, last)

# ---------------------------------------------------------------- analysis
class Gen:
    def __init__(s, S, outs):
        s.S = S; s.defs = []; s.outs = outs; s.n = 0
        s.localarr = {v: int(S.dims[v][0]) for v in outs}
    def isptr(s, v): return v in s.S.dims and s.S.dims[v][-1] == '*'
    def scal(s, e):
        """local scalar name if e denotes one"""
        if e[0] == 'var' and e[1] not in s.S.params: return e[1]
        if e[0] == 'call' and e[1] in s.localarr: return f'{e[1]}{e[2][0][1]}'
        return None
    def reads(s, e):
        k = e[0]
        if k in ('int', 'flt', 'chr'): return set()
        sc = s.scal(e)
        if sc: return {sc}
        if k == 'var': return set()
        if k == 'call':
            r = set()
            for a in e[2]: r |= s.reads(a)
            if e[1] in s.S.dims:
                r |= {e[1]}
                for d in s.S.dims[e[1]]:
                    if re.match(r'[A-Z]', d): r |= {d}
            return r
        r = set()
        for a in e[1:]: r |= s.reads(a)
        return r
    def lhsreads(s, e):
        if s.scal(e): return set()
        return s.reads(e)
    # upward-exposed uses / definitely assigned / possibly assigned
    def assigned(s, b):
        r = set()
        for st in b:
            if st[0] == 'as':
                v = s.scal(st[1])
                if v: r.add(v)
            elif st[0] == 'if':
                for c, bb in st[1]: r |= s.assigned(bb)
                r |= s.assigned(st[2])
            elif st[0] == 'do': r |= s.assigned(st[4]) 
        return r
    def live(s, b, out):
        """variables live before block b, given live after."""
        L = set(out)
        for st in reversed(b):
            if st[0] == 'return': L = set(s.retlive)
            elif st[0] == 'as':
                v = s.scal(st[1])
                if v:
                    L = (L - {v}) | s.reads(st[2])
                else: L = L | s.reads(st[2]) | s.lhsreads(st[1])
            elif st[0] == 'if':
                acc = set()
                for c, bb in st[1]: acc |= s.reads(c) | s.live(bb, L)
                acc |= s.live(st[2], L)
                L = acc
            elif st[0] == 'do':
                inner = s.live(st[4], L)
                inner = s.live(st[4], L | inner) - {st[2]}
                L = L | inner | s.reads(st[3])
        return L
    def ends_return(s, b):
        return bool(b) and (b[-1][0] == 'return' or
            (b[-1][0] == 'if' and all(s.ends_return(x) for _, x in b[-1][1]) and s.ends_return(b[-1][2])))
    def hasloop(s, b):
        for st in b:
            if st[0] == 'do': return True
            if st[0] == 'if' and (any(s.hasloop(x) for _, x in st[1]) or s.hasloop(st[2])): return True
        return False
    def hasret(s, b):
        for st in b:
            if st[0] == 'return': return True
            if st[0] == 'if' and (any(s.hasret(x) for _, x in st[1]) or s.hasret(st[2])): return True
        return False
    # ------------------------------------------------------------ types
    def ltype(s, v):
        base = v
        if v not in s.S.types and re.match(r'^(\w+?)(\d)$', v) and v[:-1] in s.localarr: base = v[:-1]
        t = typ(s.S, base)
        if base in s.S.dims and base not in s.localarr:
            if s.isptr(base): return 'Int'
            n = int(s.S.dims[base][0])
            return {('d', 4): 'Quat F', ('z', 2): 'Quat F', ('d', 2): 'Cplx F'}[(t, n)]
        return {'i': 'Int', 'd': 'F', 's': 'F', 'z': 'Cplx F', 'l': 'Bool', 'c': 'Char'}[t]
    def etype(s, e):
        k = e[0]
        if k == 'int': return 'i'
        if k == 'flt': return 'd'
        if k == 'chr': return 'c'
        if k == 'cplx': return 'z'
        if k in ('or', 'and', 'not', 'eq', 'ne', 'lt', 'le', 'gt', 'ge'): return 'l'
        if k == 'var':
            return typ(s.S, e[1])
        if k == 'call':
            if e[1] == 'CONJG': return 'z'
            if e[1] == 'ABS': return 'd'
            if e[1] == 'LSAME': return 'l'
            return typ(s.S, e[1])
        if k == 'neg': return s.etype(e[1])
        a, b = s.etype(e[1]), s.etype(e[2])
        if a == b: return a
        if set(a + b) == {'d', 'z'}: return 'z'
        raise SystemExit(f'types {e} {a} {b}')
    # ------------------------------------------------------------ expressions
    def fresh(s):
        s.n += 1; return f't{s.n}'
    def addr(s, e):
        v, idx = e[1], e[2]
        w = {'d': 1, 'z': 2}[typ(s.S, v)]
        d = s.S.dims[v]
        ix = [s.ex(a, [], 1) for a in idx]
        dd = [x if not re.match(r'[A-Z]', x) else s.nm(x) for x in d]
        if len(d) == 2: return f'(el2 {w} {dd[0]} {s.nm(v)} {" ".join(ix)})'
        return f'(el3 {w} {dd[0]} {dd[1]} {s.nm(v)} {" ".join(ix)})'
    def nm(s, v): return v
    def ex(s, e, pre, paren=0, want=None):
        """Lean term for e; memory reads are appended to `pre` as binds."""
        r = s.ex0(e, pre, want)
        if want and s.etype(e) != want:
            if (s.etype(e), want) == ('d', 'z'): r = f'Cplx.ofReal {s.par(r)}'
            else: raise SystemExit(f'conv {e} {want}')
        return s.par(r) if paren else r
    def par(s, r): return r if re.match(r'^[\w.\']+$', r) or (r.startswith('(') and s.bal(r)) else f'({r})'
    def bal(s, r):
        d = 0
        for i, c in enumerate(r):
            d += (c == '(') - (c == ')')
            if d == 0 and i < len(r) - 1: return False
        return True
    def ex0(s, e, pre, want=None):
        k = e[0]
        if k == 'int': return str(e[1])
        if k == 'flt':
            x = float(e[1].replace('D', 'E'))
            assert x in (0.0, 1.0)
            return 'zero' if x == 0 else 'one'
        if k == 'chr': return e[1]
        if k == 'cplx': return f'⟨{s.ex(e[1], pre)}, {s.ex(e[2], pre)}⟩'
        if k == 'var' and e[1] in s.S.params:
            p = s.S.params[e[1]]
            if typ(s.S, e[1]) == 'z': return f'(⟨{s.ex(p[1], pre)}, {s.ex(p[2], pre)}⟩ : Cplx F)'
            return f'({s.ex(p, pre)} : F)'
        sc = s.scal(e)
        if sc:
            if sc not in s.defined:
                pre.append(f'let {sc} ← (uninit : Prog F ({s.ltype(sc)}))')
                s.defined.add(sc)
            return s.nm(sc)
        if k == 'call':
            f = e[1]
            if f == 'CONJG': return f'Cplx.conj {s.ex(e[2][0], pre, 1)}'
            if f == 'LSAME': return f'lsame {s.ex(e[2][0], pre, 1)} {s.ex(e[2][1], pre, 1)}'
            if s.isptr(f):
                t = s.fresh()
                rd = {'d': 'rd', 'z': 'rdC'}[typ(s.S, f)]
                pre.append(f'let {t} ← {rd} {s.addr(e)}')
                return t
            n = int(s.S.dims[f][0]); c = e[2][0][1]; ty = typ(s.S, f)
            if (ty, n) == ('z', 2): return ['Quat.lo ', 'Quat.hi '][c-1] + f
            if (ty, n) == ('d', 4): return f + ['.re', '.i', '.j', '.k'][c-1]
            if (ty, n) == ('d', 2): return f + ['.re', '.im'][c-1]
            raise SystemExit(f'arr {e}')
        if k == 'neg':
            t = s.etype(e[1])
            if t == 'i': return f'-{s.ex(e[1], pre, 1)}'
            return {'d': '~ᶠ', 'z': 'Cplx.neg '}[t] + s.ex(e[1], pre, 1)
        if k in ('or', 'and'):
            return f'{s.ex(e[1], pre, 1)} {"||" if k == "or" else "&&"} {s.ex(e[2], pre, 1)}'
        if k == 'not': return f'!{s.ex(e[1], pre, 1)}'
        if k == 'eq' and e[1][0] == 'call' and e[1][1] == 'ABS' and e[2][0] == 'flt':
            assert s.etype(e[1][2][0]) == 'z' and float(e[2][1].replace('D', 'E')) == 0
            return f'cabsIsZero {s.ex(e[1][2][0], pre, 1)}'
        if k in ('eq', 'ne', 'lt', 'le', 'gt', 'ge'):
            a, b = s.etype(e[1]), s.etype(e[2])
            if a == b == 'i':
                op = {'eq': '=', 'ne': '≠', 'lt': '<', 'le': '≤', 'gt': '>', 'ge': '≥'}[k]
                return f'decide ({s.ex(e[1], pre)} {op} {s.ex(e[2], pre)})'
            t = 'z' if 'z' in a + b else 'd'
            x, y = s.ex(e[1], pre, 1, t), s.ex(e[2], pre, 1, t)
            r = f'Cplx.feq {x} {y}' if t == 'z' else f'{x} ==ᶠ {y}'
            if k == 'eq': return r
            if k == 'ne': return f'!({r})'
            raise SystemExit('cmp')
        t = s.etype(e)
        op = {'add': '+', 'sub': '-', 'mul': '*'}[k] + {'i': '', 'd': 'ᶠ', 'z': 'ᶜ'}[t]
        w = t if t != 'i' else None
        a = s.ex(e[1], pre, 0, w); b = s.ex(e[2], pre, 0, w)
        # precedence: left assoc, mul binds tighter
        def prec(x, orig):
            if w and s.etype(orig) != w: return 3
            return {'add': 1, 'sub': 1, 'mul': 2}.get(orig[0], 3 if re.match(r'^[\w.\']+$', x) or x.startswith('(') else 2.5)
        my = 2 if k == 'mul' else 1
        if prec(a, e[1]) < my or (prec(a, e[1]) == 2.5 and orig_neg(e[1])): a = s.par(a)
        if prec(b, e[2]) <= my: b = s.par(b)
        return f'{a} {op} {b}'
    # ------------------------------------------------------------ blocks
    def tup(s, vs):
        return '()' if not vs else vs[0] if len(vs) == 1 else '(' + ', '.join(vs) + ')'
    def tupt(s, vs):
        return 'Unit' if not vs else ' × '.join(s.ltype(v) if ' ' not in s.ltype(v) else f'{s.ltype(v)}' for v in vs)
    def block(s, b, liveout, fin, ind):
        """lines for block b followed by `fin` (list of lines, already a do-tail)."""
        L = []
        I = '  ' * ind
        for q, st in enumerate(b):
            rest = b[q+1:]
            after = s.live(rest, liveout)
            if st[0] == 'return':
                L.append(I + s.ret()); return L
            if st[0] == 'as':
                pre = []
                v = s.scal(st[1])
                if v:
                    if v not in after and v not in liveout:
                        # dead store (e.g. AONE, HTMPI): kept as a comment
                        L.append(I + f'-- {v} (line {st[3]}) is never read')
                        continue
                    t = {'Int': None, 'Bool': None}.get(s.ltype(v), 0)
                    r = s.ex(st[2], pre, 0, typ(s.S, v[:-1] if v[:-1] in s.localarr else v) if s.ltype(v) in ('F', 'Cplx F') else None)
                    L += [I + x for x in pre]
                    L.append(I + f'let {v} : {s.ltype(v)} := {r}')
                    s.defined.add(v)
                else:
                    a = st[1]
                    ty = typ(s.S, a[1])
                    r = s.ex(st[2], pre, 1, ty)
                    L += [I + x for x in pre]
                    L.append(I + f'{ {"d": "wr", "z": "wrC"}[ty] } {s.addr(a)} {r}')
                continue
            if st[0] == 'do':
                _, lab, var, hi, body, l0, l1 = st
                asg = s.assigned(body)
                up = s.live(body, set())
                state = sorted(v for v in asg if v in up or v in after)
                nm = f'{s.S.name}_{lab}_{var}'
                free = sorted((s.live(body, set(state)) - set(state)) - {var})
                free = [v for v in free if v in s.defined]
                saved = set(s.defined); savedn = s.n; s.n = 0
                s.defined = set(free) | set(state) | {var}
                lines = s.block(body, set(state), [f'pure {s.tup(state)}'], 1)
                s.defined = saved; s.n = savedn
                bind = ' '.join(f'({v} : {s.ltype(v)})' for v in free)
                stb = ' '.join(f'({v} : {s.ltype(v)})' for v in state)
                s.defs.append(
                    f'/-- `{s.S.path}:{l0}-{l1}`, body of `DO {lab} {var}`. -/\n'
                    f'def {nm} {bind} ({var} : Int) {stb} : Prog F ({s.tupt(state)}) := do\n' + '\n'.join(lines) + '\n')
                for v in state:
                    if v not in s.defined:
                        raise SystemExit(f'{s.S.name}: state {v} undefined at DO {lab}')
                pre = []
                n = s.ex(hi, pre, 1)
                L += [I + x for x in pre]
                call = ' '.join([nm] + free + ['((i : Int) + 1)'])
                if not state:
                    L.append(I + f'forN ({n}).toNat (fun i => {call})')
                else:
                    if len(state) == 1: args = 's'
                    else: args = ' '.join('s' + '.2' * q2 + ('.1' if q2 < len(state) - 1 else '') for q2 in range(len(state)))
                    L.append(I + f'let r ← foldN ({n}).toNat (fun i (s : {s.tupt(state)}) => {call} {args}) {s.tup(state)}')
                    for q2, v in enumerate(state):
                        if v in after:
                            pr = 'r' if len(state) == 1 else 'r' + '.2' * q2 + ('.1' if q2 < len(state) - 1 else '')
                            L.append(I + f'let {v} : {s.ltype(v)} := {pr}')
                continue
            # if
            _, br, els, l0, l1 = st
            branches = [x for _, x in br]
            if s.hasret(els) or any(s.hasret(x) for x in branches):
                # branches that return; the others continue with the rest
                conds = []
                for c, x in br:
                    pre = []
                    conds.append(s.ex(c, pre)); L += [I + y for y in pre]
                kw = 'if'
                for c, x in zip(conds, branches):
                    L.append(I + f'{kw} {c} then')
                    d0 = set(s.defined)
                    L += s.block(x + ([] if s.ends_return(x) else rest), liveout, fin, ind + 1)
                    s.defined = d0
                    kw = 'else if'
                L.append(I + 'else')
                L += s.block(els + rest, liveout, fin, ind + 1)
                return L
            asg = set()
            for x in branches + [els]: asg |= s.assigned(x)
            state = sorted(v for v in asg if v in after)
            tail = not rest and fin == ['pure ' + s.tup(state)] 
            sub = s.hasloop([st])
            d0 = set(s.defined)
            if sub:
                saved, savedn = set(s.defined), s.n
                free = sorted(v for v in s.live([st], set(state)) if v in s.defined)
                s.defined = set(free); s.n = 0
                J = 1
                cl = []
            else:
                J = ind + 1; cl = []
            II = '  ' * J
            kw = 'if'
            for c, x in br:
                pre = []
                ct = s.ex(c, pre)
                if kw != 'if' and pre: raise SystemExit('reads in ELSE IF')
                cl += [II + y for y in pre]
                d1 = set(s.defined)
                cl.append(II + f'{kw} {ct} then')
                cl += s.block(x, set(state), [f'pure {s.tup(state)}'], J + 1)
                s.defined = d1
                kw = 'else if'
            cl.append(II + 'else')
            d1 = set(s.defined)
            cl += s.block(els, set(state), [f'pure {s.tup(state)}'], J + 1)
            if sub:
                nm = f'{s.S.name}_if{l0}'
                bind = ' '.join(f'({v} : {s.ltype(v)})' for v in free)
                s.defs.append(f'/-- `{s.S.path}:{l0}-{l1}`. -/\n'
                              f'def {nm} {bind} : Prog F ({s.tupt(state)}) := do\n' + '\n'.join(cl) + '\n')
                s.defined, s.n = saved, savedn
                call = ' '.join([nm] + free)
                if not state: L.append(I + call)
                else: L.append(I + f'let r ← {call}')
            else:
                s.defined = d0
                if not state:
                    L.append(I + 'let _ ← (do'); L += cl; L[-1] += ' : Prog F Unit)'
                else:
                    L.append(I + 'let r ← (do'); L += cl; L[-1] += f' : Prog F ({s.tupt(state)}))'
            for q2, v in enumerate(state):
                pr = 'r' if len(state) == 1 else 'r' + '.2' * q2 + ('.1' if q2 < len(state) - 1 else '')
                L.append(I + f'let {v} : {s.ltype(v)} := {pr}')
                s.defined.add(v)
        L += [I + x for x in fin]
        return L
    def ret(s):
        if s.outs:
            o = s.outs[0]
            return f'pure ⟨{", ".join(o + str(q+1) for q in range(s.localarr[o]))}⟩'
        return 'pure ()'
    def run(s):
        S = s.S
        s.retlive = {f'{o}{q+1}' for o in s.outs for q in range(s.localarr[o])}
        args = [a for a in S.args if a not in s.outs]
        s.defined = set(args)
        lines = s.block(S.body, set(s.retlive), [s.ret()], 1)
        bind = ' '.join(f'({a} : {s.ltype(a)})' for a in args)
        rt = 'Quat F' if s.outs else 'Unit'
        s.defs.append(f'/-- `{S.path}:{S.line}-{S.endline}`. -/\ndef {S.name} {bind} : Prog F ({rt}) := do\n'
                      + '\n'.join(lines) + '\n')
        return s.defs

def orig_neg(e): return e[0] == 'neg'

OUTS = {'hdotu': ['R'], 'hdotc': ['R']}

def main():
    doc, out = sys.argv[1], sys.argv[2]
    res = []
    for path in sys.argv[3:]:
        for S in parse_file(path):
            res += Gen(S, OUTS.get(S.name, [])).run()
    head = f'''import Verif.Fortran

/-!
# {doc}

Generated by `tools/f2lean.py` from the Fortran sources cited on each definition; do not edit.
-/

set_option linter.unusedVariables false

namespace Haxx
open Arith

variable {{F : Type}} [Arith F] [ArithEq F]

'''
    open(out, 'w').write(head + '\n'.join(res) + '\nend Haxx\n')
main()
