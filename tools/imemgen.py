"""Memory-level model of the integer-vector functions: Verif/Mem/I*.lean, their canonical runs and C55/C56 theorems.

Like memgen.py, with the checked 32-bit arithmetic of Verif.CMemI.
"""
import os, re, sys
sys.path.insert(0, os.path.dirname(os.path.abspath(__file__)))
import pure, memgen
from pure import Skip, size
from memgen import MemFn, Spec, Emit, put, quote, par, order, TAG, IC

class IMemFn(MemFn):
    def coerce(self, tv, b):
        t, c = tv
        if b == 'int' and c == 'f': return f'.toInt {par(t)}'
        if b == 'int' and c == 'b': raise Skip('bool to int')
        return super().coerce(tv, b)
    def ex(self, e):
        if e[0] == 'un' and e[1] == '-':
            t, c = self.ex(e[2])
            if c == 'i' and not re.fullmatch(r'\.ilit \d+', t): return f'.i1 .neg {par(t)}', 'i'
        return super().ex(e)
    def binop(self, e):
        op = e[1]
        if op in ('/', '%', '>>'):
            a, b = self.ex(e[2]), self.ex(e[3])
            if a[1] == b[1] == 'i':
                if op == '>>':
                    m = re.fullmatch(r'\.ilit (\d+)', b[0])
                    if not m or int(m[1]) > 31: raise Skip('shift')
                    return f'.sar {par(a[0])} {m[1]}', 'i'
                return f'.i2 .{"div" if op == "/" else "mod"} {par(a[0])} {par(b[0])}', 'i'
        return super().binop(e)
    def call(self, e, want):
        if e[1] == 'abs': return f'.i1 .abs {par(self.coerce(self.ex(e[2][0]), "int"))}', 'i'
        return super().call(e, want)

class IModel(memgen.Model):
    def __init__(self):
        import gen
        self.gen = gen
        self.ps, self.P, (self.text, _, _) = gen.integers()
        self.text = {n: t for n, t in self.text.items() if not gen.isstruct(self.ps.fns[n].file) and not gen.issrc(self.ps.fns[n].file)}
        self.fn, self.body, self.dt = {}, {}, {}
        todo = [self.ps.fns[n] for n in self.text]
        while todo:
            nxt, prog = [], False
            for f in todo:
                M = IMemFn(self.ps, self.fn)
                try: b = M.translate(f)
                except Skip as ex:
                    if not str(ex).startswith('callee'): raise
                    nxt.append(f); continue
                self.fn[f.name], self.body[f.name], prog = M, b, True
            todo = nxt
            if not prog: raise Exception([f.name for f in todo])
        self.order = order(self.ps, list(self.text), self.body)
        self.callees = {n: list(dict.fromkeys(re.findall(r'(\bglm\w+)\.locals', self.body[n]))) for n in self.body}
    def defn(self, n): return super().defn(n).replace(f'def {n} : Fn where', f'def {n} : IFn where')

UNSAFE = os.path.join(os.path.dirname(os.path.abspath(__file__)), 'imem_unsafe.tsv')
VARS = 'variable {α : Type} [Add α] [Sub α] [Mul α] [Div α] [Neg α] [CFloat α] [CIntConv α]\n'
HEAD = '\nset_option maxRecDepth 10000\nset_option linter.unusedVariables false\nset_option linter.unusedSectionVars false\nset_option linter.unusedSimpArgs false\n\nnamespace Cglm\nopen CMem\n\n' + VARS + '\n'

class IEmit(Emit):
    def __init__(self):
        self.M = IModel()
        self.gen = self.M.gen
        self.unsafe = set()
        if os.path.exists(UNSAFE):
            for l in open(UNSAFE):
                if l.strip() and not l.startswith('#'): self.unsafe.add(tuple(l.rstrip('\n').split('\t')[:3]))
        self.byfile = {}
        for n in self.M.order: self.byfile.setdefault(self.M.ps.fns[n].file, []).append(n)
    def modn(self, path): return 'I' + self.gen.modname(path)
    def mod(self, n): return self.modn(self.M.ps.fns[n].file)
    def lt(self, t): return pure.leantype(t).replace('Int', 'Int32')
    def binders(self, S, val, extra=True):
        return super().binders(S, val).replace('Int', 'Int32')
    def fns(self):
        for path, names in self.byfile.items():
            s = f'/- Generated from {self.gen.rel(path)} by tools/imemgen.py (memory semantics); do not edit by hand. -/\n'
            s += 'import Verif.CMemI\n' + ''.join(f'import Verif.Mem.{d}\n' for d in self.deps(path))
            s += '\nset_option maxRecDepth 10000\n\nnamespace Cglm.CI\nopen CMem\n\n'
            s += '\n'.join(self.M.defn(n) for n in names) + '\nend Cglm.CI\n'
            put(f'Mem/{self.modn(path)}.lean', s)
    def icells(self, c): return re.sub(r'^(.*)\.map \.f$', r'icells \1', c)
    def canon(self, S, pat):
        regs, args, val = super().canon(S, pat)
        return [(a, w, self.icells(c)) for a, w, c in regs], [x + '.toInt' if x.startswith('.i ') else x for x in args], val
    def call(self, S, val, f=None):
        h = ' (α := α)' if S.n in self.M.P.hidden or 'Option (α)' in self.M.text[S.n] else ''
        a = ''.join(' ' + val[pn] for pn in S.ins)
        return f'I.{S.n}{h}{a}'
    def retv(self, S, ret):
        if ret is None: return 'none'
        t = TAG[S.ret.base]
        return f'some (.{t} {ret}{".toInt" if t == "i" else ""})'
    def canon_thm(self, n, S, pat):
        regs, args, val = self.canon(S, pat)
        A = '[' + ', '.join(f'⟨{"true" if w else "false"}, {c}⟩' for _, w, c in regs) + ']'
        tys = {pn: t for pn, ln, t, arr, role in S.params}
        ret, outs = self.results(S, 'r')
        A2 = '[' + ', '.join(f'⟨true, icells {S.lst(outs[pn], tys[pn])}⟩' if w else f'⟨false, {c}⟩' for pn, w, c in regs) + ']'
        cal = self.closure(n)
        defs = ', '.join(f'CI.{m}' for m in cal)
        vals = ', '.join(f'I.{m}' for m in cal)
        ty = re.search(r': Option \((.*?)\) := do', self.M.text[n])[1]
        s = f'theorem {n}_irun{self.pname(pat)}{self.binders(S, val)} {{r : {ty}}} (h : {self.call(S, val)} = some r) :\n'
        s += f'    CI.{n}.run (α := α) {A} [{", ".join(args)}] =\n      some ({self.retv(S, ret)}, {A2}) := by\n'
        if n.endswith('_clamp'): return s + self.clamp(n, tys['v'].dims[0])
        if not re.search(r'^ +if ', self.M.text[n], re.M):
            for i, c in enumerate(dict.fromkeys(re.findall(r'I32\.(?:lt|gt|eq|ne|le|ge) [\w.]+ [\w.]+', self.M.text[n]))):
                c = re.sub(r'\b\w+\b', lambda m: val.get(m[0]) or m[0], c)
                s += f'  rcases c{i} : {c} with _ | _ <;>\n'
        return s + f'  irun h [{vals}] [{defs}]\n'
    def clamp(self, n, k):
        f = pure.fields(k)
        s = f'  have e : I.{n} v minVal maxVal = some ⟨{", ".join(f"clampI minVal maxVal v.{x}" for x in f)}⟩ := by\n    unfold I.{n} clampI\n'
        for x in f: s += f'    rcases I32.lt v.{x} minVal with _ | _ <;> rcases I32.gt v.{x} maxVal with _ | _ <;>\n'
        s += '    rfl\n  rw [e, Option.some.injEq] at h\n  subst h\n'
        s += f'  have b : CI.{n}.body = ' + ''.join(f'.seq (clampS {"(.reg 0)" if i == 0 else f"(.off (.reg 0) {i})"}) (' for i in range(k - 1)) + f'clampS (.off (.reg 0) {k - 1})' + ')' * (k - 1) + ' := rfl\n'
        s += f'  have l : CI.{n}.locals = [] ∧ CI.{n}.nregs = 0 := ⟨rfl, rfl⟩\n'
        s += f'  simp only [IFn.run, b, l.1, l.2, List.replicate, fresh, List.map_nil, List.append_nil, V{k}.list]\n'
        for i in range(k): s += ('  rw [iexec_seq (clampS_exec (k := %d) rfl rfl)]\n' if i < k - 1 else '  rw [clampS_exec (k := %d) rfl rfl]\n') % i
        return s + '  rfl\n'
    def closure(self, n):
        r = [n]
        for m in r:
            for k in self.M.callees[m]:
                if k not in r: r.append(k)
        return r
    def runs(self):
        for path, names in self.byfile.items():
            mod = self.modn(path)
            s = f'/- Generated by tools/imemgen.py; do not edit by hand.  Runs of the functions of {self.gen.rel(path)} on canonical memories. -/\n'
            s += f'import Verif.CMemTypes\nimport Verif.CMemIRun\nimport Verif.Gen.{mod}\nimport Verif.Mem.{mod}\n' + ''.join(f'import Verif.Mem.{d}Run\n' for d in self.deps(path))
            s += HEAD
            for n in names:
                S, pats = self.patterns(n)
                for pat in pats: s += self.canon_thm(n, S, pat)
            s += '\nend Cglm\n'
            put(f'Mem/{mod}Run.lean', quote(s))

    # -- property theorems
    def prop(self, n, alias):
        S = Spec(self.M, n)
        opt = self.options(n, S)
        P = {p[0]: p for p in S.params}
        ptr = {p[0]: p[1] + 'P' for p in S.params if p[3]}
        sz = {p[0]: S.size(p[2]) for p in S.params if p[3]}
        arrs = [p for p in S.params if p[3]]
        ins, outs = [p[0] for p in arrs if p[4] == 'i'], [p[0] for p in arrs if p[4] != 'i']
        val = {p[0]: p[1] for p in S.params}
        ty = re.search(r': Option \((.*?)\) := do', self.M.text[n])[1]
        b = '{mem : Mem α}' if arrs else '(mem : Mem α)'
        if arrs: b += ' {' + ' '.join(ptr[p[0]] for p in arrs) + ' : Ptr}'
        for pn, ln, t, arr, role in S.params:
            if not arr or role != 'o': b += f' {{{ln} : {self.lt(t)}}}'
        b += f' {{r : {ty}}}'
        hyps = []
        for pn, ln, t, arr, role in arrs:
            if role != 'o': hyps.append((f'h_{ln}', f'HoldsI mem {ptr[pn]} {S.lst(ln, t)}'))
            if role != 'i': hyps.append((f'r_{ln}', f'Room mem {ptr[pn]} {sz[pn]}'))
        seps = []
        for a in ins:
            for d in outs:
                st = f'Apart {ptr[a]} {sz[a]} {ptr[d]} {sz[d]}'
                if alias and d in opt[a]: st = f'{ptr[a]} = {ptr[d]} ∨ {st}'
                seps.append((f's_{val[a]}_{val[d]}', st, a, d))
        for i, d in enumerate(outs):
            for e in outs[i + 1:]: seps.append((f's_{val[d]}_{val[e]}', f'Apart {ptr[d]} {sz[d]} {ptr[e]} {sz[e]}', d, e))
        ret, res = self.results(S, 'r')
        W = ', '.join(f'({ptr[d]}, icells {S.lst(res[d], P[d][2])})' for d in outs)
        args = ', '.join(f'{ptr[p[0]]}.val' if p[3] else f'.{TAG[p[2].base]} {p[1]}' + ('.toInt' if TAG[p[2].base] == 'i' else '') for p in S.params)
        concl = f'CI.{n}.run mem [{args}] =\n      some ({self.retv(S, ret)}, {"writes mem [" + W + "]" if outs else "mem"})'
        name = ('C55_' if alias else 'C56_') + n[4:] + ('_checked' if n in ('glm_imin', 'glm_imax') else '')
        H = ''.join(f' ({h} : {s})' for h, s in hyps) + ''.join(f' ({x[0]} : {x[1]})' for x in seps)
        H += f' (h : {self.call(S, val)} = some r)'
        s = f'theorem {name} {b}{H} :\n    {concl} := by\n'
        if not alias and any(opt.values()):
            al = [f'(Or.inr {x[0]})' if x[2] in opt and x[3] in opt[x[2]] else x[0] for x in seps]
            s = s[:-len(' by\n')] + f'\n  C55_{n[4:]} {" ".join([h for h, _ in hyps] + al)} h\n'
        else: s += self.cases(n, S, opt if alias else {a: [] for a in ins}, ins, outs, val, sz, {}, 0, '  ')
        # a concrete instance of the hypotheses
        pat = {a: o[0] for a, o in opt.items() if o} if alias else {}
        regs, _, cv = self.canon(S, pat)
        pos = {r[0]: i for i, r in enumerate(regs)}
        at = lambda q: f'({pos[pat.get(q, q)]}, 0)'
        conc, sc = {}, 0
        for pn, ln, t, arr, role in S.params:
            if arr: conc[ln] = f'(⟨{", ".join(str(x) for x in (7, 2, 5, 3)[:sz[pn]])}⟩ : {self.lt(t)})' if t.dims else '(7 : Int32)'
            else: conc[ln] = f'({(2, 9)[sc]} : Int32)'; sc += 1
        sub = lambda x: re.sub(r'\b\w+\b', lambda m: conc.get(m[0], m[0]), x)
        A = '[' + ', '.join(f'⟨{"true" if w else "false"}, {sub(c)}⟩' for _, w, c in regs) + ']'
        parts, prf = [], []
        for pn, ln, t, arr, role in arrs:
            if role != 'o': parts.append(f'HoldsI mem {at(pn)} {S.lst(conc[cv[pn]], t)}'); prf.append('.block rfl')
            if role != 'i': parts.append(f'Room mem {at(pn)} {sz[pn]}'); prf.append('.block rfl rfl')
        for h, st, a, d in seps:
            if pat.get(a) == d: parts.append(f'(({at(a)} : Ptr) = {at(d)} ∨ Apart {at(a)} {sz[a]} {at(d)} {sz[d]})'); prf.append('Or.inl rfl')
            elif ' ∨ ' in st: parts.append(f'(({at(a)} : Ptr) = {at(d)} ∨ Apart {at(a)} {sz[a]} {at(d)} {sz[d]})'); prf.append('Or.inr (Or.inl (by decide))')
            else: parts.append(f'Apart {at(a)} {sz[a]} {at(d)} {sz[d]}'); prf.append('Or.inl (by decide)')
        if n not in self.M.P.hidden: parts.append(f'({self.call(S, {k: conc[v] for k, v in val.items() if v in conc})}).isSome = true'); prf.append('rfl')
        s += f'example : let mem : Mem α := {A}\n    ' + ' ∧ '.join(parts) + ' :=\n  ' + (f'⟨{", ".join(prf)}⟩' if len(prf) > 1 else prf[0]) + '\n'
        return s
    def leaf(self, n, S, ins, outs, val, sz, pat, ind):
        s = super().leaf(n, S, ins, outs, val, sz, pat, ind)
        _, _, cv = self.canon(S, pat)
        m = re.search(r'exact transferL (.*) \((\w+_run\w*)(?: _)*\) \(DT.val_done _\) rfl rfl\n$', s)
        us = ' _' * len({cv[p[0]] for p in S.params if cv[p[0]]})
        return s[:m.start()] + f'exact itransfer {m[1]} ({m[2].replace("_run", "_irun", 1)}{us} h) rfl\n'
    def props(self):
        k = [0, 0]
        for path, names in self.byfile.items():
            mod = self.modn(path)
            a55 = [n for n in names if any(self.options(n, Spec(self.M, n)).values())]
            if a55:
                s = f'/- Generated by tools/imemgen.py; do not edit by hand. -/\nimport Verif.Mem.{mod}Run\n\n/-!\n# C55: destination may alias an argument ({self.gen.rel(path)})\n\nEach input is either the destination itself or does not overlap it.  When no operation on what the inputs held\nbefore the call overflows or divides by zero, the call is defined, stores the value-level result, and changes\nnothing outside the destination.\n-/\n' + HEAD
                s += '\n'.join(self.prop(n, True) for n in a55) + '\nend Cglm\n'
                put(f'Props/C55{mod}.lean', quote(s))
            s = f'/- Generated by tools/imemgen.py; do not edit by hand. -/\nimport Verif.{"Props.C55" + mod if a55 else f"Mem.{mod}Run"}\n\n/-!\n# C56: memory safety and framing ({self.gen.rel(path)})\n\nCalled with initialised inputs and a writable destination that does not overlap them, and with inputs on which no\noperation overflows or divides by zero, the function is defined, returns the value-level result and changes no\nmemory but its destination.\n-/\n' + HEAD
            s += '\n'.join(self.prop(n, False) for n in names) + '\nend Cglm\n'
            put(f'Props/C56{mod}.lean', quote(s))
            k[0] += len(a55); k[1] += len(names)
        print(k[0], 'C55 and', k[1], 'C56 theorems')

if __name__ == '__main__':
    E = IEmit()
    E.fns()
    E.runs()
    E.props()
