"""Value-semantics back end: turns a parsed C function into a Lean function on values.

Arrays are flat lists of leaf terms; assignments update leaves; calls use the callee's value-level signature.
Out-parameters become results.  Branches duplicate the continuation, so a function becomes a decision tree.
"""
import re
from fractions import Fraction
from cfront import T

# ---- Lean terms -------------------------------------------------------------
# ('v',name) ('lit',Fraction) ('int',n) ('app',f,[args]) ('bin',op,a,b) ('neg',a) ('not',a) ('ite',c,a,b) ('proj',t,fld) ('mk',[..])
class Skip(Exception): pass

VF = {2: 'xy', 3: 'xyz', 4: 'xyzw'}
def fields(n):
    return list(VF[n]) if n in VF else [f'e{i}' for i in range(n)]
def size(dims):
    n = 1
    for d in dims: n *= d
    return n
def leantype(ty, elem='α'):
    if not ty.dims:
        if ty.ptr and ty.base in ('float', 'int'): return elem if ty.base == 'float' else 'Int'
        return {'float': elem, 'double': elem, 'int': 'Int', 'bool': 'Bool', 'uint32_t': 'Int', 'size_t': 'Int',
                'simd4': f'V4 {elem}', 'simd8': f'V8 {elem}', 'simd2': f'V2 {elem}'}[ty.base]
    e = {'float': elem, 'int': 'Int'}[ty.base]
    d = ty.dims
    if len(d) == 1: return f'V{d[0]} {e}'
    if len(d) == 2: return f'M{d[0]} {e}' if d[0] == d[1] else f'M{d[0]}x{d[1]} {e}'
    raise Skip(f'type {ty}')

PREC = {'||': 30, '&&': 35, '+': 65, '-': 65, '*': 70, '/': 70}
def num(q):
    if q.denominator == 1: return str(q.numerator)
    # prefer a terminating decimal
    d, k = q.denominator, 0
    while d % 2 == 0: d //= 2
    while d % 5 == 0: d //= 5
    if d == 1:
        k = 0
        while (q * 10 ** k).denominator != 1: k += 1
        n = (q * 10 ** k).numerator
        if k <= 40:
            s = str(n).rjust(k + 1, '0')
            if k > 12 and len(str(n)) < 12: return f'({n} / 10 ^ {k})'
            return s[:-k] + '.' + s[-k:]
    return f'({q.numerator} / {q.denominator})'
def pr(t, p=0):
    k = t[0]
    if k == 'v': return t[1]
    if k == 'lit':
        s = f'lit {num(t[1])}'
        return f'({s})' if p > 0 else s
    if k == 'int': return str(t[1]) if t[1] >= 0 else f'({t[1]})'
    if k == 'proj': return f'{pr(t[1], 1025)}.{t[2]}'
    if k == 'mk': return '⟨' + ', '.join(pr(x) for x in t[1]) + '⟩'
    if k == 'tup': return '(' + ', '.join(pr(x) for x in t[1]) + ')'
    if k == 'app':
        if not t[2]: return t[1]
        s = t[1] + ' ' + ' '.join(pr(x, 1024) for x in t[2])
        return f'({s})' if p >= 1024 else s
    if k == 'neg':
        s = '-' + pr(t[1], 75)
        return f'({s})' if p > 65 else s
    if k == 'not':
        s = '!' + pr(t[1], 1024)
        return f'({s})' if p > 40 else s
    if k == 'bin':
        q = PREC[t[1]]
        s = f'{pr(t[2], q)} {t[1]} {pr(t[3], q + 1)}'
        return f'({s})' if p > q else s
    if k == 'ite':
        s = f'if {pr(t[1])} then {pr(t[2])} else {pr(t[3])}'
        return f'({s})' if p > 0 else s
    raise Exception(k)
def kids(t):
    k = t[0]
    if k in ('v', 'lit', 'int'): return []
    if k in ('proj', 'bind'): return [t[1]]
    if k in ('mk', 'tup'): return t[1]
    if k == 'app': return t[2]
    if k in ('neg', 'not'): return [t[1]]
    if k == 'bin': return [t[2], t[3]]
    if k == 'ite': return [t[1], t[2], t[3]]
def names(t, acc):
    if t[0] == 'v': acc[t[1]] = acc.get(t[1], 0) + 1
    for x in kids(t): names(x, acc)
def subst(t, n, r):
    k = t[0]
    if k == 'v': return r if t[1] == n else t
    if k in ('lit', 'int'): return t
    if k == 'proj':
        b = subst(t[1], n, r)
        return mkproj(b, t[2])
    if k in ('mk', 'tup'): return (k, [subst(x, n, r) for x in t[1]])
    if k == 'app': return ('app', t[1], [subst(x, n, r) for x in t[2]])
    if k in ('neg', 'not', 'bind'): return (k, subst(t[1], n, r))
    if k == 'bin': return ('bin', t[1], subst(t[2], n, r), subst(t[3], n, r))
    if k == 'ite': return ('ite', subst(t[1], n, r), subst(t[2], n, r), subst(t[3], n, r))
def mkproj(b, f):
    return ('proj', b, f)

def build(leaves, dims):
    """value of the given shape from flat leaf terms, collapsing eta-expanded projections"""
    if not dims: return leaves[0]
    n = dims[0]; sub = size(dims[1:])
    parts = [build(leaves[i * sub:(i + 1) * sub], dims[1:]) for i in range(n)]
    fl = fields(n) if len(dims) == 1 else [f'c{i}' for i in range(n)]
    if all(p[0] == 'proj' and p[2] == f for p, f in zip(parts, fl)):
        b = parts[0][1]
        if all(p[1] == b for p in parts) and typ_of.get(b_key(b)) in (None, tuple(dims)):
            if typ_of.get(b_key(b)) == tuple(dims): return b
    return ('mk', parts)
typ_of = {}
def b_key(t): return pr(t)
def explode(t, dims):
    if not dims: return [t]
    typ_of[b_key(t)] = tuple(dims)
    n = dims[0]
    fl = fields(n) if len(dims) == 1 else [f'c{i}' for i in range(n)]
    r = []
    for f in fl: r += explode(mkproj(t, f), dims[1:])
    return r

KW = {'from': 'frm', 'end': 'end_', 'at': 'at_', 'open': 'open_', 'in': 'in_', 'then': 'then_', 'show': 'show_', 'have': 'have_', 'fun': 'fun_',
      'lit': 'lit_', 'by': 'by_', 'prefix': 'prefix_', 'local': 'local_', 'where': 'where_', 'do': 'do_', 'to': 'to', 'α': 'a_', 'infix': 'infix_',
      'forall': 'forall_', 'deriving':'deriving_', 'instance': 'instance_', 'let': 'let_', 'match': 'match_', 'if': 'if_', 'else': 'else_'}
def mangle(n): return KW.get(n, n).replace('__', 'z_') if n.startswith('_') else KW.get(n, n)

MATH1 = {'sqrtf': 'sqrtf', 'sinf': 'sinf', 'cosf': 'cosf', 'tanf': 'tanf', 'acosf': 'acosf', 'asinf': 'asinf', 'fabsf': 'fabsf', 'floorf': 'floorf', 'atanf': 'atanf'}
MATH2 = {'atan2f': 'atan2f', 'powf': 'powf', 'fmodf': 'fmodf', 'fminf': 'fminf', 'fmaxf': 'fmaxf'}
PRED = {'isnan': 'isnanf', 'isinf': 'isinff'}
CONST = {'FLT_EPSILON': Fraction(1, 2 ** 23), 'FLT_MAX': (2 - Fraction(1, 2 ** 23)) * 2 ** 127, 'GLMM_NEGZEROf': None}

class Ptr:
    def __init__(self, var, off, dims): self.var, self.off, self.dims = var, off, tuple(dims)

class Sig:
    """value-level signature of a translated function"""
    def __init__(self): self.ins, self.outs, self.ret = [], [], None

class Env:
    def __init__(self): self.sc, self.ar, self.ty, self.ptr = {}, {}, {}, {}
    def copy(self):
        e = Env(); e.sc = dict(self.sc); e.ar = {k: list(v) for k, v in self.ar.items()}; e.ty = dict(self.ty); e.ptr = dict(self.ptr)
        return e

class Pure:
    def __init__(self, ps, sigs, intr=None, prefix=''):
        self.ps, self.sigs, self.intr, self.prefix = ps, sigs, intr or {}, prefix

    # -- translate one function; returns list of text lines
    def translate(self, fn):
        global typ_of
        typ_of.clear()
        self.fn = fn
        self.cnt = {}
        self.temps = set()
        self.addr = set()
        def scan(x):
            if isinstance(x, (tuple, list)):
                if isinstance(x, tuple) and x and x[0] == 'addr' and x[1][0] == 'id': self.addr.add(x[1][1])
                for y in x: scan(y)
        scan(fn.body)
        self.aliased = []
        self.nulltest = False
        self.byval = set()
        self.uninit = {}
        env = Env()
        self.params = []
        for n, ty in fn.params:
            ln = mangle(n)
            if ty.ptr > 1 or None in ty.dims: raise Skip(f'parameter type {ty}')
            if ty.ptr == 1 and ty.dims and ty.st: ty = T(ty.base, ty.dims)      # pointer to a struct-API union
            elif ty.st: self.byval.add(n)
            if ty.ptr == 1 and ty.dims: raise Skip(f'parameter type {ty}')
            if ty.ptr == 1:
                k = self.extent(fn, n)
                if k == 1: env.ar[n] = [('v', ln)]; ety = T(ty.base, (), 1); env.ty[n] = T(ty.base, (1,))
                else:
                    ety = T(ty.base, (k,)); env.ar[n] = explode(('v', ln), (k,)); env.ty[n] = ety
                self.params.append((n, ln, ety, True))
            elif ty.dims and ty.base in ('float', 'int'):
                env.ar[n] = explode(('v', ln), ty.dims); env.ty[n] = ty
                self.params.append((n, ln, ty, True))
            else:
                env.sc[n] = ('v', ln); env.ty[n] = ty
                self.params.append((n, ln, ty, False))
            self.cnt[ln] = 1
        self.orig = {n: list(env.ar[n]) for n, _, _, a in self.params if a}
        tree = self.run([fn.body], env, [])
        outs = []
        for n, ln, ty, arr in self.params:
            if arr and n not in self.byval and any(l[3][n] != self.orig[n] for l in self.leaves(tree)): outs.append(n)
        hasret = not (fn.ret.base == 'void' and not fn.ret.ptr and not fn.ret.dims)
        tree = self.finish(tree, outs, hasret)
        tree = self.inline(tree)
        acc = {}
        self.treenames(tree, acc)
        sig = Sig()
        sig.ret = fn.ret if hasret else None
        for n, ln, ty, arr in self.params:
            if arr and n in outs and ln not in acc: continue
            sig.ins.append((n, ty))
        for n, ln, ty, arr in self.params:
            if n in outs: sig.outs.append((n, ty))
        for n, ty in self.uninit.items():
            if f'uninit_{n}' in acc: sig.ins.append((f'uninit_{n}', ty))
        if not hasret and not outs: raise Skip('no result')
        rts = ([self.lt(fn.ret)] if hasret else []) + [self.lt(ty) for _, ty in sig.outs]
        args = ''.join(f' ({mangle(n)} : {self.lt(ty)})' for n, ty in sig.ins)
        body = self.render(tree, 1)
        self.sigs[fn.name] = sig
        self.tree = tree
        head = f'def {self.prefix}{fn.name}{args} : {self.rettype(rts)}'
        return head + '\n' + body

    def lt(self, ty): return leantype(ty)
    def rettype(self, rts): return f'{" × ".join(rts)} :='

    def extent(self, fn, name):
        """number of floats reachable through an unsized pointer parameter, from constant uses"""
        m = [1]
        sg = self.sigs
        def base(e):
            if e[0] == 'id' and e[1] == name: return 0
            if e[0] == 'cast': return base(e[2])
            return None
        def walk(x):
            if isinstance(x, tuple):
                if x and x[0] == 'idx' and base(x[1]) == 0 and x[2][0] == 'num': m[0] = max(m[0], int(x[2][1]) + 1)
                if x and x[0] == 'call' and isinstance(x[1], str) and x[1] in self.ps.fns:
                    for a, (pn, pt) in zip(x[2], self.ps.fns[x[1]].params):
                        if base(a) == 0 and pt.dims: m[0] = max(m[0], size(pt.dims))
                        if base(a) == 0 and pt.ptr: m[0] = max(m[0], self.extent(self.ps.fns[x[1]], pn))
                for y in x: walk(y)
            elif isinstance(x, list):
                for y in x: walk(y)
        walk(fn.body)
        return m[0]

    # -- decision tree:  ('leaf', lets, ret, {param: leaves}) | ('if', lets, c, a, b)
    def leaves(self, t):
        if t[0] == 'leaf': yield t
        else:
            yield from self.leaves(t[3]); yield from self.leaves(t[4])
    def finish(self, t, outs, hasret):
        if t[0] == 'leaf':
            _, lets, ret, ar = t
            comps = []
            if hasret:
                if ret is None: raise Skip('missing return')
                comps.append(ret)
            for n, ln, ty, arr in self.params:
                if n in outs: comps.append(build(ar[n], ty.dims))
            return ('leaf', lets, comps[0] if len(comps) == 1 else ('tup', comps))
        return ('if', t[1], t[2], self.finish(t[3], outs, hasret), self.finish(t[4], outs, hasret))
    def treenames(self, t, acc):
        for n, e in t[1]: names(e, acc)
        if t[0] == 'leaf': names(t[2], acc)
        else:
            names(t[2], acc); self.treenames(t[3], acc); self.treenames(t[4], acc)
    def tsubst(self, t, n, r):
        lets = [(m, subst(e, n, r)) for m, e in t[1]]
        if t[0] == 'leaf': return ('leaf', lets, subst(t[2], n, r))
        return ('if', lets, subst(t[2], n, r), self.tsubst(t[3], n, r), self.tsubst(t[4], n, r))
    def uses(self, t, n):
        """max uses along a path"""
        c = 0
        def cnt(e):
            a = {}; names(e, a); return a.get(n, 0)
        for m, e in t[1]: c += cnt(e)
        if t[0] == 'leaf': return c + cnt(t[2])
        return c + cnt(t[2]) + max(self.uses(t[3], n), self.uses(t[4], n))
    def inline(self, t):
        i = 0
        lets = list(t[1])
        while i < len(lets):
            n, e = lets[i]
            rest = (t[0], lets[i + 1:]) + tuple(t[2:])
            u = self.uses(rest, n)
            atom = e[0] in ('v', 'lit', 'proj') or (e[0] == 'neg' and e[1][0] in ('v', 'lit', 'proj'))
            if e[0] == 'bind': i += 1
            elif u == 0 or (u == 1 and rest[0] == 'leaf' and not rest[1]) or ((n in self.temps) and (u == 1 or atom)) :
                if u:
                    rest = self.tsubst(rest, n, e)
                t = (t[0], lets[:i] + list(rest[1])) + tuple(rest[2:])
                lets = list(t[1])
            else: i += 1
        if t[0] == 'if':
            t = ('if', lets, t[2], self.inline(t[3]), self.inline(t[4]))
        return t
    def render(self, t, ind):
        s = '  ' * ind
        r = ''.join(f'{s}let {n} ← {pr(e[1])}\n' if e[0] == 'bind' else f'{s}let {n} := {pr(e)}\n' for n, e in t[1])
        if t[0] == 'leaf': return r + s + self.retyped(t[2]) + '\n'
        return (r + f'{s}if {pr(t[2])} then\n' + self.render(t[3], ind + 1) + f'{s}else\n' + self.render(t[4], ind + 1))
    def retyped(self, t): return pr(t)

    # -- execution
    def fresh(self, n):
        b = mangle(n)
        k = self.cnt.get(b, 0)
        r = b if k == 0 else f'{b}_{k}'
        while self.cnt.get(r, 0):
            k += 1; r = f'{b}_{k}'
        self.cnt[b] = k + 1
        if r != b: self.cnt[r] = 1
        return r
    def run(self, stmts, env, lets):
        stmts = list(stmts)
        self.lets = lets
        while stmts:
            s = stmts.pop(0)
            k = s[0]
            if k == 'block': stmts = list(s[1]) + stmts
            elif k == 'decl':
                for n, ty, init in s[1]: self.decl(env, n, ty, init)
            elif k == 'expr': self.ev(s[1], env)
            elif k == 'ret':
                r = None
                if s[1] is not None: r = self.retval(s[1], env)
                return ('leaf', self.lets, r, {n: list(env.ar[n]) for n, _, _, a in self.params if a})
            elif k == 'if':
                c = self.cond(s[1], env)
                pre = self.lets
                if c == ('v', 'true'): stmts = [s[2]] + stmts; continue
                if c == ('v', 'false'): stmts = ([s[3]] if s[3] else []) + stmts; continue
                e2 = env.copy(); cnt = dict(self.cnt)
                a = self.run([s[2]] + stmts, env, [])
                c2 = self.cnt; self.cnt = cnt
                b = self.run(([s[3]] if s[3] else []) + stmts, e2, [])
                self.cnt = {k: max(c2.get(k, 0), self.cnt.get(k, 0)) for k in set(c2) | set(self.cnt)}
                return ('if', pre, c, a, b)
            elif k == 'for': stmts = self.unroll(s, env) + stmts
            elif k == 'switch': stmts = [self.switch(s)] + stmts
            elif k == 'setint': env.sc[s[1]] = ('int', s[2]); env.ty[s[1]] = T('int')
            else: raise Skip(f'statement {k}')
        return ('leaf', self.lets, None, {n: list(env.ar[n]) for n, _, _, a in self.params if a})

    def switch(self, s):
        _, e, cases = s
        r = None
        for lab, body in reversed(cases):
            b = [x for x in body if x != ('break',)]
            if lab[0] == 'default': r = ('block', b)
            else: r = ('if', ('bin', '==', e, lab[1]), ('block', b), r)
        return r

    def unroll(self, s, env):
        _, i, c, st, body = s
        if not (i and i[0] == 'assign' and i[1] == '=' and i[2][0] == 'id' and i[3][0] == 'num'): raise Skip('loop init')
        v = i[2][1]; k = int(i[3][1])
        if not (c and c[0] == 'bin' and c[1] == '<' and c[2] == ('id', v) and c[3][0] == 'num'): raise Skip('loop bound')
        if int(c[3][1]) > 16: raise Skip('long loop')
        if not (st and st[0] in ('postinc', 'preinc') and st[1] == '++'): raise Skip('loop step')
        r = []
        for j in range(k, int(c[3][1])): r += [('setint', v, j), body]
        return r

    def decl(self, env, n, ty, init):
        env.ty[n] = ty
        if ty.ptr:
            if init is not None: env.ptr[n] = self.ptr(init, env)
            return
        if not ty.dims and n in self.addr and ty.base in ('float', 'int', 'bool'):
            env.ar[n] = [('v', f'UNINIT_{n}') if init is None else self.coerce(self.rvt(init, env), ty)]
            return
        if ty.dims and ty.base in ('float', 'int'):
            if init is None:
                if ty.st:      # indeterminate content of a struct local: an extra parameter if it reaches the result
                    self.uninit[n] = ty
                    env.ar[n] = explode(('v', f'uninit_{n}'), ty.dims)
                else: env.ar[n] = [('v', f'UNINIT_{n}_{j}') for j in range(size(ty.dims))]
            elif init[0] == 'init':
                if ty.st and self.depth(init) > len(ty.dims): init = init[1][0]
                fl = []
                self.flat(init, ty.dims, env, fl)
                env.ar[n] = self.bindleaves(n, fl)
            else:
                v = self.rv(init, env)
                env.ar[n] = explode(v, ty.dims) if v[0] == 'v' else self.letagg(n, v, ty.dims)
        else:
            if init is not None: self.setsc(env, n, self.coerce(self.rvt(init, env), ty))
            else: env.sc[n] = ('v', f'UNINIT_{n}')
    def depth(self, x): return 1 + max([self.depth(y) for y in x[1]], default=0) if x[0] == 'init' else 0
    def flat(self, init, dims, env, out):
        n = dims[0]
        for j in range(n):
            x = init[1][j] if j < len(init[1]) else None
            if len(dims) > 1:
                self.flat(x if x is not None else ('init', []), dims[1:], env, out)
            else:
                out.append(('lit', Fraction(0)) if x is None else self.coerce(self.rvt(x, env), T('float')))
    def bindleaves(self, n, fl):
        r = []
        for j, x in enumerate(fl): r.append(self.bindleaf(n, j, x))
        return r
    def bindleaf(self, n, j, x):
        if x[0] in ('lit', 'v') or (x[0] == 'proj'): return x
        if x[0] == 'neg' and x[1][0] in ('lit', 'v', 'proj'): return x
        nm = self.fresh(f'{n}_{j}' if n[-1].isdigit() or True else n)
        self.temps.add(nm)
        self.lets.append((nm, x))
        return ('v', nm)
    def letagg(self, n, v, dims):
        nm = self.fresh(n)
        self.temps2 = None
        self.lets.append((nm, v))
        return explode(('v', nm), dims)
    def setsc(self, env, n, v):
        if v[0] in ('int',): env.sc[n] = v; return
        if v[0] == 'lit' : env.sc[n] = v; return
        nm = self.fresh(n)
        self.lets.append((nm, v))
        env.sc[n] = ('v', nm)

    def retval(self, e, env):
        ty = self.fn.ret
        if ty.dims:
            p = self.ptr(e, env)
            return build(env.ar[p.var][p.off:p.off + size(ty.dims)], ty.dims)
        return self.coerce(self.rvt(e, env), ty)

    # -- pointers / lvalues
    def ptr(self, e, env):
        k = e[0]
        if k == 'id':
            n = e[1]
            if n in env.ptr: return env.ptr[n]
            if n in env.ar: return Ptr(n, 0, env.ty[n].dims)
            raise Skip(f'pointer {n}')
        if k == 'idx':
            p = self.ptr(e[1], env)
            i = self.cidx(e[2], env)
            if not p.dims: raise Skip('index into scalar')
            if i >= p.dims[0] and len(p.dims) == 1 and p.off + i >= len(env.ar[p.var]): raise Skip('index out of range')
            return Ptr(p.var, p.off + i * size(p.dims[1:]), p.dims[1:])
        if k == 'deref':
            p = self.ptr(e[1], env)
            if p.dims: return Ptr(p.var, p.off, p.dims[1:])
            return p
        if k == 'addr':
            p = self.ptr(e[1], env)
            return Ptr(p.var, p.off, (1,) + p.dims)
        if k == 'member':
            if e[2] in ('raw',): return self.ptr(e[1], env)
            p = self.ptr(e[1], env)
            if e[2] in ('x', 'y', 'z', 'w') : return Ptr(p.var, p.off + 'xyzw'.index(e[2]), ())
            if e[2] == 'col': return p
            raise Skip(f'member {e[2]}')
        if k == 'cast': return self.ptr(e[2], env)
        if k == 'complit' :
            nm = self.fresh('cl')
            self.decl(env, nm, e[1], e[2])
            return Ptr(nm, 0, e[1].dims)
        if k == 'call':
            # struct-valued call used as an array
            return self.callptr(e, env)
        raise Skip(f'pointer expr {k}')
    def callptr(self, e, env):
        fn = self.ps.fns.get(e[1])
        if fn is None or not fn.ret.dims: raise Skip(f'pointer from call {e[1]}')
        v = self.call(e, env)
        nm = self.fresh('r')
        self.lets.append((nm, v)); 
        env.ar[nm] = explode(('v', nm), fn.ret.dims); env.ty[nm] = fn.ret
        return Ptr(nm, 0, fn.ret.dims)
    def cidx(self, e, env):
        v = self.rvt(e, env)[0]
        if v[0] == 'lit' and v[1].denominator == 1: return int(v[1])
        if v[0] == 'int': return v[1]
        raise Skip('dynamic index')
    def islv(self, e, env):
        while e[0] in ('idx', 'deref', 'member', 'addr'): e = e[1]
        return e[0] == 'id' and (e[1] in env.ar or e[1] in env.ptr) or e[0] == 'call' and e[1] in self.ps.fns and self.ps.fns[e[1]].ret.dims

    # -- rvalues: (term, ctype) with ctype in {'f','i','b','agg','s4',...}
    def rv(self, e, env): return self.rvt(e, env)[0]
    def ev(self, e, env):
        if e[0] == 'call': self.call(e, env, stmt=True)
        else: self.rvt(e, env)
    def coerce(self, tv, ty):
        t, c = tv
        b = ty.base if isinstance(ty, T) else ty
        if b in ('float', 'double'):
            if c == 'i':
                if t[0] == 'int': return ('lit', Fraction(t[1]))
                return ('app', 'ofInt', [t])
            if c == 'b': return ('app', 'ofInt', [('app', 'b2i', [t])])
            return t
        if b in ('int', 'uint32_t', 'size_t'):
            if c == 'b': return ('app', 'b2i', [t])
            if c == 'f': raise Skip('float to int')
            return t
        if b == 'bool':
            if c == 'i':
                if t[0] == 'int': return ('v', 'true' if t[1] else 'false')
                return ('app', 'ine', [t, ('int', 0)])
            if c == 'f': return ('not', ('app', 'feq', [t, ('lit', Fraction(0))]))
            return t
        return t
    def cond(self, e, env):
        if e[0] == 'id' and e[1] in env.ar:      # null-pointer test: value semantics covers the non-null case
            self.nulltest = True
            return ('v', 'true')
        return self.coerce(self.rvt(e, env), 'bool')

    def rvt(self, e, env):
        k = e[0]
        if k == 'num':
            if e[2] == 'i': return ('int', int(e[1])), 'i'
            return ('lit', e[1]), 'f'
        if k == 'id':
            n = e[1]
            if n in env.sc:
                b = env.ty[n].base
                return env.sc[n], {'float': 'f', 'double': 'f', 'int': 'i', 'bool': 'b', 'uint32_t': 'i', 'size_t': 'i'}.get(b, b)
            if n in CONST: return ('lit', CONST[n]), 'f'
            if n in ('true', 'false'): return ('v', n), 'b'
            if n in self.ps.enums: return ('int', self.ps.enums[n]), 'i'
            if n == 'NULL': raise Skip('NULL')
            if n in env.ar and not env.ty[n].dims: return env.ar[n][0], {'float': 'f', 'int': 'i', 'bool': 'b'}[env.ty[n].base]
            if n in env.ar: return build(env.ar[n], env.ty[n].dims), 'agg'
            raise Skip(f'identifier {n}')
        if k in ('idx', 'deref', 'member') and self.islv(e, env):
            d = self.dynidx(e, env)
            if d is not None: return d
            p = self.ptr(e, env)
            if p.dims: return build(env.ar[p.var][p.off:p.off + size(p.dims)], p.dims), 'agg'
            base = env.ty[p.var].base if p.var in env.ty else 'float'
            return env.ar[p.var][p.off], ('i' if base == 'int' else 'f')
        if k == 'member': return self.member(e, env)
        if k == 'idx': return self.simdidx(e, env)
        if k == 'cast':
            r = self.rvt(e[2], env)
            b = e[1].base
            if e[1].ptr: raise Skip('pointer cast value')
            if b in ('float', 'double'): return self.coerce(r, 'float'), 'f'
            if b == 'int':
                if r[1] == 'f': raise Skip('float to int')
                return self.coerce(r, 'int'), 'i'
            raise Skip(f'cast {e[1]}')
        if k == 'un':
            if e[1] == '-':
                t, c = self.rvt(e[2], env)
                if c == 'b': t, c = ('app', 'b2i', [t]), 'i'
                if c == 'i' and t[0] == 'int': return ('int', -t[1]), 'i'
                return ('neg', t), c
            if e[1] == '+': return self.rvt(e[2], env)
            if e[1] == '!':
                c = self.cond(e[2], env)
                if c in (('v', 'true'), ('v', 'false')): return ('v', 'false' if c[1] == 'true' else 'true'), 'b'
                return ('not', c), 'b'
            raise Skip(f'unary {e[1]}')
        if k == 'bin': return self.binop(e, env)
        if k == 'tern':
            c = self.cond(e[1], env)
            a, b = self.rvt(e[2], env), self.rvt(e[3], env)
            if a[1] != b[1]:
                if 'f' in (a[1], b[1]): return ('ite', c, self.coerce(a, 'float'), self.coerce(b, 'float')), 'f'
                return ('ite', c, self.coerce(a, 'int'), self.coerce(b, 'int')), 'i'
            return ('ite', c, a[0], b[0]), a[1]
        if k == 'assign': return self.assignop(e, env)
        if k == 'call':
            return self.call(e, env), self.rettag(e[1])
        if k == 'comma':
            self.ev(e[1], env); return self.rvt(e[2], env)
        if k == 'complit':
            p = self.ptr(e, env)
            return build(env.ar[p.var], p.dims), 'agg'
        if k == 'addr': raise Skip('address as value')
        raise Skip(f'expr {k}')
    def member(self, e, env): raise Skip('member')
    def simdidx(self, e, env): raise Skip('index')
    def rettag(self, n):
        if n in self.intr: return self.intr[n][1]
        if n in PRED: return 'b'
        if n in self.ps.fns:
            ty = self.ps.fns[n].ret
            if ty.dims: return 'agg'
            return {'float': 'f', 'int': 'i', 'bool': 'b'}.get(ty.base, ty.base)
        return 'f'

    def dynidx(self, e, env):
        """box[cond][k]: index by a truth value into a two-element array"""
        if not (e[0] == 'idx' and e[1][0] == 'idx'): return None
        i = e[1][2]
        if not (i[0] == 'bin' and i[1] in ('<', '>', '<=', '>=', '==', '!=') or i[0] == 'un' and i[1] == '!'): return None
        c = self.cond(i, env)
        a = self.rvt(('idx', ('idx', e[1][1], ('num', Fraction(1), 'i')), e[2]), env)
        b = self.rvt(('idx', ('idx', e[1][1], ('num', Fraction(0), 'i')), e[2]), env)
        return ('ite', c, a[0], b[0]), a[1]

    def binop(self, e, env):
        op = e[1]
        if op in ('&&', '||'): return ('bin', op, self.cond(e[2], env), self.cond(e[3], env)), 'b'
        a, b = self.rvt(e[2], env), self.rvt(e[3], env)
        if op in ('<', '>', '<=', '>=', '==', '!='):
            if 'f' in (a[1], b[1]):
                x, y = self.coerce(a, 'float'), self.coerce(b, 'float')
                if op == '<': return ('app', 'flt', [x, y]), 'b'
                if op == '>': return ('app', 'flt', [y, x]), 'b'
                if op == '<=': return ('app', 'fle', [x, y]), 'b'
                if op == '>=': return ('app', 'fle', [y, x]), 'b'
                if op == '==': return ('app', 'feq', [x, y]), 'b'
                return ('not', ('app', 'feq', [x, y])), 'b'
            x, y = self.coerce(a, 'int'), self.coerce(b, 'int')
            if x[0] == 'int' and y[0] == 'int':
                r = {'<': x[1] < y[1], '>': x[1] > y[1], '==': x[1] == y[1], '!=': x[1] != y[1], '<=': x[1] <= y[1], '>=': x[1] >= y[1]}[op]
                return ('v', 'true' if r else 'false'), 'b'
            f = {'<': 'ilt', '<=': 'ile', '==': 'ieq', '!=': 'ine', '>': 'igt', '>=': 'ige'}[op]
            return ('app', f, [x, y]), 'b'
        if op in ('+', '-', '*', '/'):
            if 'f' in (a[1], b[1]): return ('bin', op, self.coerce(a, 'float'), self.coerce(b, 'float')), 'f'
            x, y = self.coerce(a, 'int'), self.coerce(b, 'int')
            if x[0] == 'int' and y[0] == 'int' and op != '/':
                return ('int', {'+': x[1] + y[1], '-': x[1] - y[1], '*': x[1] * y[1]}[op]), 'i'
            if op == '/': raise Skip('int division')
            return ('bin', op, x, y), 'i'
        if op in ('<<', '>>', '|', '&'):
            x, y = a[0], b[0]
            if x[0] == 'int' and y[0] == 'int':
                return ('int', {'<<': x[1] << y[1], '>>': x[1] >> y[1], '|': x[1] | y[1], '&': x[1] & y[1]}[op]), 'i'
        raise Skip(f'operator {op}')

    def assignop(self, e, env):
        _, op, lhs, rhs = e
        # pointer variable
        if lhs[0] == 'id' and lhs[1] in env.ty and env.ty[lhs[1]].ptr and not env.ty[lhs[1]].dims:
            env.ptr[lhs[1]] = self.ptr(rhs, env); return ('v', '_'), 'agg'
        if lhs[0] == 'id' and lhs[1] in env.sc:
            n = lhs[1]; ty = env.ty[n]
            r = self.rvt(rhs, env)
            if op != '=': r = self.binop(('bin', op[0], lhs, rhs), env)
            v = self.coerce(r, ty)
            self.setsc(env, n, v)
            return env.sc[n], {'float': 'f', 'int': 'i', 'bool': 'b'}.get(ty.base, ty.base)
        p = self.ptr(lhs, env)
        if p.dims:
            # struct assignment
            q = self.ptr(rhs, env) if self.islv(rhs, env) or rhs[0] in ('complit', 'call') else None
            if q is None: raise Skip('aggregate assignment')
            src = env.ar[q.var][q.off:q.off + size(p.dims)]
            env.ar[p.var][p.off:p.off + size(p.dims)] = src
            return ('v', '_'), 'agg'
        r = self.rvt(rhs, env) if op == '=' else self.binop(('bin', op[0], lhs, rhs), env)
        base = env.ty[p.var].base if p.var in env.ty else 'float'
        v = self.coerce(r, base)
        env.ar[p.var][p.off] = self.bindleaf(p.var, p.off, v)
        return env.ar[p.var][p.off], ('i' if base == 'int' else 'f')

    def call(self, e, env, stmt=False):
        n, args = e[1], e[2]
        if not isinstance(n, str): raise Skip('indirect call')
        if n in self.intr: return self.intrinsic(n, args, env)
        if n in MATH1: return ('app', MATH1[n], [self.coerce(self.rvt(args[0], env), 'float')])
        if n in MATH2: return ('app', MATH2[n], [self.coerce(self.rvt(a, env), 'float') for a in args])
        if n == 'modff':
            d = self.ptr(args[1], env)
            env.ar[d.var][d.off] = ('v', 'UNINIT_modff')
            return ('app', 'modfFrac', [self.coerce(self.rvt(args[0], env), 'float')])
        if n in PRED: return ('app', PRED[n], [self.coerce(self.rvt(args[0], env), 'float')])
        if n == 'memcpy':
            d, s = self.ptr(args[0], env), self.ptr(args[1], env)
            k = size(d.dims)
            env.ar[d.var][d.off:d.off + k] = env.ar[s.var][s.off:s.off + k]
            return ('v', '_')
        m = re.match(r'glms_vec([234])_(un)?pack$', n)
        if m:       # the loop copies `len` vectors between arrays of the same layout
            d, s_, k = self.ptr(args[0], env), self.ptr(args[1], env), self.cidx(args[2], env) * int(m.group(1))
            if d.off + k > len(env.ar[d.var]) or s_.off + k > len(env.ar[s_.var]): raise Skip('pack out of range')
            env.ar[d.var][d.off:d.off + k] = env.ar[s_.var][s_.off:s_.off + k]
            return ('v', '_')
        if n not in self.sigs: raise Skip(f'callee {n}')
        fn, sig = self.ps.fns.get(n), self.sigs[n]
        if fn is None: raise Skip(f'callee {n}')
        amap = {pn: a for (pn, _), a in zip(fn.params, args)}
        la = []
        for pn, ty in sig.ins:
            a = amap[pn]
            if ty.dims and ty.base in ('float', 'int'):
                p = self.ptr(a, env)
                lv = env.ar[p.var][p.off:p.off + size(ty.dims)]
                if len(lv) < size(ty.dims): raise Skip(f'short array passed to {n}')
                la.append(build(lv, ty.dims))
            elif ty.ptr == 1:
                p = self.ptr(a, env); la.append(env.ar[p.var][p.off])
            else:
                la.append(self.coerce(self.rvt(a, env), ty))
        t = ('app', self.callee(n), la)
        t = self.wrapcall(t)
        if not sig.outs:
            if t[0] != 'bind': return t
            nm = self.fresh('t'); self.lets.append((nm, t)); return ('v', nm)
        comps = ([('ret', sig.ret)] if sig.ret is not None else []) + list(sig.outs)
        # pointers of the outputs are evaluated before the call
        dst = {pn: self.ptr(amap[pn], env) for pn, _ in sig.outs}
        for pn, d in dst.items():
            dty = dict(sig.outs)[pn]
            dn = size(dty.dims) if dty.dims else 1
            for qn, qty in sig.ins:
                if qn == pn or not (qty.dims or qty.ptr): continue
                q = self.ptr(amap[qn], env)
                qn_ = size(qty.dims) if qty.dims else 1
                if q.var == d.var and q.off < d.off + dn and d.off < q.off + qn_:
                    self.aliased.append((n, pn, qn, q.off - d.off))
            for qn, q in dst.items():
                if pn < qn and d.var == q.var and d.off == q.off: raise Skip('aliased outputs')
        if len(comps) == 1:
            pn, ty = comps[0]
            d = dst[pn]
            if not ty.dims:
                if t[0] == 'bind': raise Skip('scalar output of a checked call')
                env.ar[d.var][d.off] = self.bindleaf(d.var, d.off, t); return ('v', '_')
            nm = self.fresh(d.var if d.off == 0 and size(ty.dims) == len(env.ar[d.var]) else f'{d.var}_{d.off}')
            self.temps.add(nm) if False else None
            self.lets.append((nm, t))
            self.wr(env, d, explode(('v', nm), ty.dims))
            return ('v', '_')
        nm = self.fresh('r')
        self.lets.append((nm, t))
        cur = ('v', nm); parts = []
        for j in range(len(comps)):
            if j < len(comps) - 1: parts.append(('proj', cur, '1')); cur = ('proj', cur, '2')
            else: parts.append(cur)
        rt = ('v', '_')
        for (pn, ty), x in zip(comps, parts):
            if pn == 'ret': rt = x; continue
            self.wr(env, dst[pn], explode(x, ty.dims) if ty.dims else [x])
        return rt
    def callee(self, n): return self.prefix + n
    def wrapcall(self, t): return t
    def wr(self, env, d, lv):
        a = env.ar[d.var]
        if d.off + len(lv) > len(a): raise Skip('output larger than destination')
        a[d.off:d.off + len(lv)] = lv
    def intrinsic(self, n, args, env):
        f = self.intr[n][0]
        return f(self, args, env)
