"""Front end for the C subset used by cglm: a small preprocessor and a recursive-descent parser.

It reads the sources as text only.  Tokens keep (file, line) so that every translated function can cite its origin.
"""
import os, re
from fractions import Fraction

TOK = re.compile(r'''
  (?P<num>0[xX][0-9a-fA-F]+[uUlL]*|(?:\d+\.\d*|\.\d+|\d+)(?:[eE][-+]?\d+)?[fFuUlL]*)
 |(?P<id>[A-Za-z_]\w*)
 |(?P<str>"(?:\\.|[^"\\])*"|'(?:\\.|[^'\\])*')
 |(?P<op>\#\#|\.\.\.|<<=|>>=|->|\+\+|--|<<|>>|<=|>=|==|!=|&&|\|\||[-+*/%&|^]=|[-+*/%&|^~!<>=?:;,.(){}\[\]\#])
 |(?P<ws>\s+)
''', re.X)

class Tok:
    __slots__ = ('k', 's', 'f', 'l', 'hide')
    def __init__(self, k, s, f, l, hide=frozenset()):
        self.k, self.s, self.f, self.l, self.hide = k, s, f, l, hide
    def __repr__(self): return self.s

def strip_comments(t):
    out, i, n = [], 0, len(t)
    while i < n:
        if t.startswith('/*', i):
            j = t.find('*/', i + 2)
            j = n if j < 0 else j + 2
            out.append('\n' * t.count('\n', i, j) + ' ')
            i = j
        elif t.startswith('//', i):
            j = t.find('\n', i)
            i = n if j < 0 else j
        elif t[i] == '"':
            j = i + 1
            while t[j] != '"':
                j += 2 if t[j] == '\\' else 1
            out.append(t[i:j + 1]); i = j + 1
        else:
            out.append(t[i]); i += 1
    return ''.join(out)

def tokenize(s, f, l):
    r = []
    for m in TOK.finditer(s):
        if m.lastgroup != 'ws':
            r.append(Tok(m.lastgroup, m.group(), f, l))
    return r

class Macro:
    def __init__(self, params, body, variadic):
        self.params, self.body, self.variadic = params, body, variadic

class PP:
    """Preprocessor.  `pin` names keep their predefined meaning (later #define of them is ignored)."""
    def __init__(self, defs, pin=()):
        self.m = {}
        self.pin = set(pin)
        for k, v in defs.items():
            self.m[k] = Macro(None, tokenize(v, '<cfg>', 0), False)
        self.out = []

    def include(self, path):
        raw = strip_comments(open(path).read()).split('\n')
        stack = []          # (active, taken, parent_active)
        active = True
        i = 0
        pend = []
        while i < len(raw):
            ln, line = i + 1, raw[i]
            while line.endswith('\\') and i + 1 < len(raw):
                i += 1
                line = line[:-1] + ' ' + raw[i]
            i += 1
            st = line.strip()
            if st.startswith('#'):
                self.flush(pend); pend = []
                d = re.match(r'#\s*(\w+)\s*(.*)', st, re.S)
                if not d: continue
                cmd, rest = d.group(1), d.group(2)
                if cmd in ('ifdef', 'ifndef', 'if'):
                    if cmd == 'ifdef': v = rest.split()[0] in self.m
                    elif cmd == 'ifndef': v = rest.split()[0] not in self.m
                    else: v = active and bool(self.cond(rest, path, ln))
                    stack.append((active, v, None))
                    active = active and v
                elif cmd == 'elif':
                    pa, taken, _ = stack[-1]
                    v = pa and not taken and bool(self.cond(rest, path, ln))
                    stack[-1] = (pa, taken or v, None)
                    active = v
                elif cmd == 'else':
                    pa, taken, _ = stack[-1]
                    stack[-1] = (pa, True, None)
                    active = pa and not taken
                elif cmd == 'endif':
                    active = stack.pop()[0]
                elif active and cmd == 'include':
                    m = re.match(r'"([^"]+)"', rest)
                    if m:
                        p = os.path.normpath(os.path.join(os.path.dirname(path), m.group(1)))
                        self.include(p)
                elif active and cmd == 'define':
                    self.define(rest, path, ln)
                elif active and cmd == 'undef':
                    self.m.pop(rest.strip(), None)
                continue
            if active:
                pend.extend(tokenize(line, path, ln))
        self.flush(pend)

    def define(self, rest, path, ln):
        m = re.match(r'(\w+)(\(([^)]*)\))?(.*)', rest, re.S)
        name = m.group(1)
        if name in self.pin: return
        params, var = None, False
        if m.group(2) is not None:
            params = [x.strip() for x in m.group(3).split(',') if x.strip()]
            if params and params[-1] == '...':
                params = params[:-1]; var = True
        self.m[name] = Macro(params, tokenize(m.group(4), path, ln), var)

    def cond(self, s, path, ln):
        toks = tokenize(s, path, ln)
        r, i = [], 0
        while i < len(toks):
            t = toks[i]
            if t.s == 'defined':
                if toks[i + 1].s == '(':
                    nm = toks[i + 2].s; i += 4
                else:
                    nm = toks[i + 1].s; i += 2
                r.append(Tok('num', '1' if nm in self.m else '0', path, ln))
                continue
            r.append(t); i += 1
        r = self.expand(r)
        py = []
        for t in r:
            if t.k == 'id': py.append('0')
            elif t.s == '&&': py.append(' and ')
            elif t.s == '||': py.append(' or ')
            elif t.s == '!': py.append(' not ')
            else: py.append(re.sub(r'[uUlL]+$', '', t.s))
        if '__has_builtin' in s: return 0
        return eval(' '.join(py))

    def flush(self, pend):
        if pend: self.out.extend(self.expand(pend))

    def expand(self, toks):
        out = []
        toks = list(toks)[::-1]
        while toks:
            t = toks.pop()
            mac = self.m.get(t.s) if t.k == 'id' else None
            if mac is None or t.s in t.hide:
                out.append(t); continue
            if mac.params is None:
                for b in reversed(self.paste(mac.body, {}, t)): toks.append(b)
                continue
            if not toks or toks[-1].s != '(':
                out.append(t); continue
            toks.pop()
            args, cur, depth = [], [], 0
            while True:
                a = toks.pop()
                if a.s in '([{' : depth += 1
                if a.s in ')]}':
                    if depth == 0: break
                    depth -= 1
                if a.s == ',' and depth == 0 and not (mac.variadic and len(args) >= len(mac.params)):
                    args.append(cur); cur = []
                else: cur.append(a)
            if cur or args or mac.params: args.append(cur)
            env = dict(zip(mac.params, args))
            if mac.variadic: env['__VA_ARGS__'] = args[len(mac.params)] if len(args) > len(mac.params) else []
            for b in reversed(self.paste(mac.body, env, t)): toks.append(b)
        return out

    def paste(self, body, env, at):
        hide = at.hide | {at.s}
        r, i = [], 0
        def raw(t):
            if t.k == 'id' and t.s in env: return env[t.s]
            return [t]
        while i < len(body):
            t = body[i]
            if i + 1 < len(body) and body[i + 1].s == '##':
                acc = [x for x in raw(t)]
                while i + 1 < len(body) and body[i + 1].s == '##':
                    nxt = raw(body[i + 2]); i += 2
                    if acc and nxt:
                        s = acc[-1].s + nxt[0].s
                        acc = acc[:-1] + [Tok('id' if re.match(r'[A-Za-z_]', s) else 'num', s, at.f, at.l)] + list(nxt[1:])
                    else: acc = acc + list(nxt)
                r.extend(acc)
            elif t.k == 'id' and t.s in env:
                r.extend(self.expand(env[t.s]))
            else: r.append(t)
            i += 1
        return [Tok(t.k, t.s, at.f, at.l, t.hide | hide) for t in r]

# ---------------------------------------------------------------- parser
BASE = {'float', 'int', 'void', 'bool', 'size_t', 'uint32_t', 'double', 'uint8_t', 'char', 'unsigned'}
QUAL = {'const', 'static', 'inline', '__restrict', 'extern', 'register', 'struct', 'FILE'}

class T:
    """base type, array dims (outermost first); ptr = number of pointer stars; st = struct-API union, passed by value;
    al = alignment attributes (used by accgen.py only); own = number of dims written in the declarator"""
    def __init__(self, base, dims=(), ptr=0, st=False, al=(), own=0):
        self.base, self.dims, self.ptr, self.st, self.al, self.own = base, tuple(dims), ptr, st, al, own
    def __repr__(self): return f'{self.base}{list(self.dims)}{"*"*self.ptr}'

class Fn:
    def __init__(self, name, ret, params, body, f, l0, l1, attr):
        self.name, self.ret, self.params, self.body = name, ret, params, body
        self.file, self.l0, self.l1, self.attr = f, l0, l1, attr

class ParseError(Exception): pass

class Parser:
    def __init__(self, toks, typedefs):
        self.t, self.i, self.td = toks, 0, typedefs
        self.fns, self.err, self.enums = {}, {}, {}
    def pk(self, k=0): return self.t[self.i + k].s if self.i + k < len(self.t) else ''
    def nx(self):
        self.i += 1; return self.t[self.i - 1]
    def ex(self, s):
        t = self.nx()
        if t.s != s: raise ParseError(f'{t.f}:{t.l}: expected {s} got {t.s}')
        return t
    def istype(self, k=0):
        s = self.pk(k)
        return s in BASE or s in QUAL or s in self.td
    def skip_attr(self):
        while self.pk() in ('__attribute', '__attribute__', 'CGLM_ALIGN', 'CGLM_ALIGN_MAT_X'):
            self.nx(); self.skip_group('(', ')')
    def skip_group(self, a, b):
        self.ex(a); d = 1
        while d:
            s = self.nx().s
            if s == a: d += 1
            elif s == b: d -= 1

    def basetype(self):
        self.skip_attr()
        while self.pk() in QUAL: self.nx()
        self.skip_attr()
        n = self.nx()
        if n.s in self.td: ty = self.td[n.s]
        elif n.s in BASE: ty = T(n.s)
        else: raise ParseError(f'{n.f}:{n.l}: type? {n.s}')
        while self.pk() in QUAL: self.nx()
        return ty

    def unit(self):
        while self.i < len(self.t):
            if self.pk() == 'typedef':
                self.typedef(); continue
            if self.pk() in ('extern', '_Static_assert', ';', '}'):
                # skip  extern "C" {  and stray declarations
                if self.pk() == 'extern' and self.t[self.i + 1].k == 'str':
                    self.nx(); self.nx(); self.ex('{'); continue
                if self.pk() in (';', '}'): self.nx(); continue
            if self.pk() in ('union',):
                while self.pk() != ';': self.nx() if self.pk() != '{' else self.skip_group('{', '}')
                continue
            self.function()

    def typedef(self):
        st = self.i
        self.ex('typedef')
        if self.pk() in ('enum', 'union', 'struct'):
            kind = self.nx().s
            if self.t[self.i].k == 'id': self.nx()
            if self.pk() == '{':
                a = self.i
                self.skip_group('{', '}')
                body = self.t[a + 1:self.i - 1]
                self.skip_attr()
                name = self.nx().s
                if kind == 'enum':
                    v = 0; k = 0
                    while k < len(body):
                        nm = body[k].s; k += 1
                        if k < len(body) and body[k].s == '=':
                            e = []; k += 1
                            while k < len(body) and body[k].s != ',': e.append(body[k].s); k += 1
                            v = eval(' '.join(e), {}, self.enums)
                        self.enums[nm] = v; v += 1
                        if k < len(body) and body[k].s == ',': k += 1
                    self.td[name] = T('int')
                else:
                    # struct API: union { raw; ... }; only the raw member's shape matters
                    k = 0; ty = None
                    while k < len(body):
                        if body[k].s == 'raw':
                            base = body[k - 1].s
                            ty = self.td[base]; break
                        k += 1
                    if ty is not None: self.td[name] = T(ty.base, ty.dims, ty.ptr, True, ty.al)
            while self.nx().s != ';': pass
            return
        ty = self.basetype()
        self.skip_attr()
        name = self.nx().s
        dims = []
        while self.pk() == '[':
            self.nx(); dims.append(int(self.nx().s)); self.ex(']')
        self.ex(';')
        self.td[name] = T(ty.base, tuple(dims) + ty.dims, ty.ptr, False, ty.al)

    def function(self):
        start = self.t[self.i]
        attr = ''
        st = self.i
        while self.pk() in ('__INLINE__', '__EXPORT__'): attr = self.nx().s
        try:
            self.skip_attr()
            ret = self.basetype()
            ptr = 0
            while self.pk() == '*': self.nx(); ptr += 1
            if self.pk() == '(' : raise ParseError('odd declarator')
            name = self.nx().s
            self.ex('(')
            params = []
            while self.pk() != ')':
                if self.pk() == 'void' and self.pk(1) == ')': self.nx(); break
                ty = self.basetype(); pp = 0
                while self.pk() in ('*', '__restrict', 'const'):
                    if self.nx().s == '*': pp += 1
                pn = self.nx().s if self.pk() not in (',', ')') else '_'
                dims = []
                while self.pk() == '[':
                    self.nx()
                    if self.pk() == ']': dims.append(None)
                    else: dims.append(int(self.nx().s))
                    self.ex(']')
                params.append((pn, T(ty.base, tuple(dims) + ty.dims, pp, ty.st and not dims, ty.al, len(dims))))
                if self.pk() == ',': self.nx()
            self.ex(')')
            if self.pk() == ';': self.nx(); return
            bs = self.i
        except (ParseError, ValueError, IndexError) as e:
            # not a function we understand: skip to next ; or balanced }
            self.i = st
            while self.i < len(self.t) and self.pk() not in (';', '{'): self.nx()
            if self.pk() == '{': self.skip_group('{', '}')
            elif self.i < len(self.t): self.nx()
            return
        if self.pk() != '{':
            while self.i < len(self.t) and self.pk() not in (';',): self.nx()
            self.i += 1
            return
        try:
            body = self.block()
            self.fns[name] = Fn(name, T(ret.base, ret.dims, ptr, ret.st), params, body, start.f, start.l, self.t[self.i - 1].l, attr)
        except (ParseError, KeyError, ValueError) as e:
            self.err[name] = str(e)
            self.i = bs
            self.skip_group('{', '}')

    def block(self):
        self.ex('{'); r = []
        while self.pk() != '}': r.append(self.stmt())
        self.ex('}')
        return ('block', r)

    def stmt(self):
        s = self.pk()
        if s == '{': return self.block()
        if s == ';': self.nx(); return ('block', [])
        if s == 'if':
            self.nx(); self.ex('('); c = self.expr(); self.ex(')')
            a = self.stmt(); b = None
            if self.pk() == 'else': self.nx(); b = self.stmt()
            return ('if', c, a, b)
        if s == 'for':
            self.nx(); self.ex('(')
            i = self.expr() if self.pk() != ';' else None; self.ex(';')
            c = self.expr() if self.pk() != ';' else None; self.ex(';')
            st = self.expr() if self.pk() != ')' else None; self.ex(')')
            return ('for', i, c, st, self.stmt())
        if s == 'switch':
            self.nx(); self.ex('('); e = self.expr(); self.ex(')'); self.ex('{')
            cases = []; cur = None
            while self.pk() != '}':
                if self.pk() == 'case':
                    self.nx(); v = self.expr(); self.ex(':'); cur = [('case', v), []]; cases.append(cur)
                elif self.pk() == 'default':
                    self.nx(); self.ex(':'); cur = [('default',), []]; cases.append(cur)
                elif self.pk() == 'break':
                    self.nx(); self.ex(';'); cur[1].append(('break',))
                else: cur[1].append(self.stmt())
            self.ex('}')
            return ('switch', e, cases)
        if s == 'return':
            self.nx(); e = None
            if self.pk() != ';': e = self.expr()
            self.ex(';'); return ('ret', e)
        if s in ('while', 'do', 'goto', 'break', 'continue'):
            raise ParseError(f'{self.t[self.i].f}:{self.t[self.i].l}: unsupported {s}')
        if self.istype() or s in ('__attribute', 'CGLM_ALIGN'):
            ty = self.basetype(); ds = []
            while True:
                p = 0
                while self.pk() in ('*', '__restrict', 'const'):
                    if self.nx().s == '*': p += 1
                n = self.nx().s; dims = []
                while self.pk() == '[':
                    self.nx(); dims.append(self.constint(self.expr())); self.ex(']')
                init = None
                if self.pk() == '=':
                    self.nx(); init = self.init()
                ds.append((n, T(ty.base, tuple(dims) + ty.dims, p, ty.st and not dims, ty.al, len(dims)), init))
                if self.pk() == ',': self.nx(); continue
                break
            self.ex(';')
            return ('decl', ds)
        e = self.expr(); self.ex(';')
        return ('expr', e)

    def constint(self, e):
        if e[0] == 'num': return int(e[1])
        raise ParseError('const int')

    def init(self):
        if self.pk() == '{':
            self.nx(); r = []
            while self.pk() != '}':
                r.append(self.init())
                if self.pk() == ',': self.nx()
            self.ex('}')
            return ('init', r)
        return self.assign()

    def expr(self):
        e = self.assign()
        while self.pk() == ',':
            self.nx(); e = ('comma', e, self.assign())
        return e
    def assign(self):
        a = self.tern()
        if self.pk() in ('=', '+=', '-=', '*=', '/=', '|=', '&=', '%='):
            op = self.nx().s
            return ('assign', op, a, self.assign())
        return a
    def tern(self):
        c = self.binary(0)
        if self.pk() == '?':
            self.nx(); a = self.expr(); self.ex(':'); b = self.assign()
            return ('tern', c, a, b)
        return c
    LV = [['||'], ['&&'], ['|'], ['^'], ['&'], ['==', '!='], ['<', '>', '<=', '>='], ['<<', '>>'], ['+', '-'], ['*', '/', '%']]
    def binary(self, l):
        if l == len(self.LV): return self.unary()
        a = self.binary(l + 1)
        while self.pk() in self.LV[l]:
            op = self.nx().s
            a = ('bin', op, a, self.binary(l + 1))
        return a
    def unary(self):
        s = self.pk()
        if s in ('-', '!', '~', '+'):
            self.nx(); return ('un', s, self.unary())
        if s == '*': self.nx(); return ('deref', self.unary())
        if s == '&': self.nx(); return ('addr', self.unary())
        if s in ('++', '--'): self.nx(); return ('preinc', s, self.unary())
        if s == 'sizeof':
            self.nx(); self.skip_group('(', ')'); return ('sizeof',)
        if s == '(' and self.istype(1):
            self.nx(); ty = self.basetype(); p = 0
            while self.pk() in ('*', '__restrict', 'const'):
                if self.nx().s == '*': p += 1
            dims = []
            self.ex(')')
            ty = T(ty.base, ty.dims, p, ty.st, ty.al)
            if self.pk() == '{': return ('complit', ty, self.init())
            return ('cast', ty, self.unary())
        return self.postfix()
    def postfix(self):
        t = self.nx()
        if t.s == '(':
            e = self.expr(); self.ex(')')
        elif t.k == 'num': e = self.number(t)
        elif t.k == 'id': e = ('id', t.s)
        elif t.k == 'str': e = ('str', t.s)
        else: raise ParseError(f'{t.f}:{t.l}: unexpected {t.s}')
        while True:
            s = self.pk()
            if s == '[':
                self.nx(); i = self.expr(); self.ex(']'); e = ('idx', e, i)
            elif s == '(':
                self.nx(); args = []
                while self.pk() != ')':
                    args.append(self.assign())
                    if self.pk() == ',': self.nx()
                self.ex(')'); e = ('call', e[1] if e[0] == 'id' else e, args)
            elif s in ('.', '->'):
                self.nx(); e = ('member', e, self.nx().s)
            elif s in ('++', '--'):
                self.nx(); e = ('postinc', s, e)
            else: return e
    def number(self, t):
        s = t.s
        if s[:2] in ('0x', '0X'): return ('num', Fraction(int(s.rstrip('uUlL'), 16)), 'i')
        isf = s[-1] in 'fF'
        b = s.rstrip('fFuUlL')
        if '.' in b or 'e' in b or 'E' in b: return ('num', Fraction(b), 'f' if isf else 'd')
        return ('num', Fraction(int(b)), 'f' if isf else 'i')

CFG_COMMON = {'__INLINE_PIN__': ''}
PIN = ['CGLM_INLINE', 'CGLM_EXPORT', 'CGLM_UNLIKELY', 'CGLM_LIKELY', 'CGLM_ALIGN', 'CGLM_ALIGN_IF', 'CGLM_ALIGN_MAT']

def load(files, defs=None):
    d = {'CGLM_INLINE': '__INLINE__', 'CGLM_EXPORT': '__EXPORT__', '__STDC_VERSION__': '201112',
         '__GNUC__': '4', '__GNUC_MINOR__': '8', 'NDEBUG': '1'}
    d.update(defs or {})
    pp = PP(d, PIN)
    pp.m['CGLM_UNLIKELY'] = Macro(['expr'], [Tok('op', '(', '', 0), Tok('id', 'expr', '', 0), Tok('op', ')', '', 0)], False)
    pp.m['CGLM_LIKELY'] = pp.m['CGLM_UNLIKELY']
    pp.m['CGLM_ALIGN'] = Macro(['x'], [], False)
    pp.m['CGLM_ALIGN_IF'] = Macro(['x'], [], False)
    pp.m['CGLM_ALIGN_MAT'] = Macro(None, [], False)
    for f in files: pp.include(f)
    td = {}
    for n in ('__m128', 'glmm_128', 'float32x4_t', 'v128_t', '__m128i'): td[n] = T('simd4')
    td['float32x2_t'] = T('simd2'); td['__m64'] = T('simd2'); td['__m256'] = T('simd8'); td['__m256i'] = T('simd8')
    td['float32x4x2_t'] = T('simd4x2'); td['float32x4x4_t'] = T('simd4x4')
    ps = Parser(pp.out, td)
    ps.unit()
    return ps, pp

if __name__ == '__main__':
    import sys
    ps, pp = load(['/repo/include/cglm/cglm.h'], {'CGLM_CLIPSPACE_INCLUDE_ALL': '1'})
    print(len(ps.fns), ps.err, list(ps.td.items())[:40])
