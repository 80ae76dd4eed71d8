#!/usr/bin/env python3
"""Write lean/Verif/Props/C98Exact*.lean: positions of an output in an input that give wrong results (the converse of C98).
With an argument, write a file that lists the positions instead; its output goes to exact.txt."""
import os, re, sys
import pure
from memgen import Emit, Spec, TAG, put, quote
from overthms import RUNS, build
here = os.path.dirname(os.path.abspath(__file__))

def lits(t, f, n):
    return build([f(i) for i in range(n)], t.dims) if t.dims and not (len(t.dims) == 1 and t.dims[0] > 4) else '⟨' + ', '.join(f(i) for i in range(n)) + '⟩' if t.dims else f(0)

def case(E, n, pairs_of):
    """for each pair of an output and an input: (name, positions of the input, statement in p)"""
    S = Spec(E.M, n)
    sz = {p[0]: S.size(p[2]) for p in S.params if p[3]}
    P = {p[0]: p for p in S.params}
    arrs = [p for p in S.params if p[3]]
    ins, outs = [p[0] for p in arrs if p[4] == 'i'], [p[0] for p in arrs if p[4] != 'i']
    res = []
    for d in outs:
        for a in ins:
            bad = pairs_of(S, d, a, sz)
            sh = sorted({o - k for o, k in bad})
            if not sh: continue
            N = sz[d] + 2 * sz[a]
            at, val, blocks, nxt = {d: (0, str(sz[a])), a: (0, 'c.1')}, {}, [f'⟨true, (List.range {N}).map fun i => .f (w c.2 i)⟩'], N
            for pn, ln, t, arr, role in S.params:
                ty = pure.leantype(t).replace('α', 'F32')
                if not arr:
                    if t.base != 'float': return []
                    val[pn] = f'(w c.2 {nxt})'; nxt += 1; continue
                if pn == a: val[pn] = f'({lits(t, lambda i: f"w c.2 (c.1 + {i})", sz[a])} : {ty})'
                elif pn == d: val[pn] = f'({lits(t, lambda i: f"w c.2 {sz[a] + i}", sz[d])} : {ty})'
                else:
                    at[pn] = (len(blocks), '0')
                    blocks.append(f'⟨{"false" if role == "i" else "true"}, (List.range {sz[pn]}).map fun i => .f (w c.2 (i + {nxt}))⟩')
                    val[pn] = f'({lits(t, lambda i: f"w c.2 {nxt + i}", sz[pn])} : {ty})'
                    nxt += sz[pn]
            ret, rs = E.results(S, f'({E.call(S, val)})')
            if ret is not None: return []
            W = ', '.join(f'(({at[x][0]}, {at[x][1]}), {S.lst(rs[x], P[x][2])}.map .f)' for x in outs)
            args = ', '.join(f'.p {at[p[0]][0]} {at[p[0]][1]}' if p[3] else f'.{TAG[p[2].base]} {val[p[0]]}' for p in S.params)
            nm = n[4:] + ('' if len(ins) * len(outs) == 1 else '_' + P[a][1].strip('«»') + ('' if len(outs) == 1 else '_' + P[d][1].strip('«»')))
            res.append((nm, [sz[a] + x for x in sh], f'[{", ".join(blocks)}]', f'C.{n}.run', args, W, P[a][1], P[d][1], sz[a]))
    return res

if __name__ == '__main__':
    E = Emit()
    over = dict(l.split() for l in open(here + '/over.txt'))
    conf = {}
    for l in open(here + '/conf.txt'):
        n, r, i, ps = l.rstrip('\n').split('\t')
        conf.setdefault(n, {})[int(r), int(i)] = {(int(x.split(':')[0]), int(k)) for x in ps.split() for k in x.split(':')[1].split(',')}
    def pairs_of(n):
        def f(S, d, a, sz):
            if over.get(n) == 'below': return {(o, k) for o in range(sz[d]) for k in range(o + 1, sz[a])}
            idx = {r[0]: k for k, r in enumerate(E.canon(S, {})[0])}
            return conf.get(n, {}).get((idx[d], idx[a]), set())
        return f
    if os.path.exists(here + '/exact.txt'): got = {l.split('\t')[0]: l.rstrip('\n').split('\t')[1] for l in open(here + '/exact.txt')}
    head = ['Verif.CMemDiff'] + [f'Verif.Mem.{r}Run' for r in ('Vecs', 'Mats', 'Quats', 'Affines', 'Geoms')]
    if len(sys.argv) > 1:
        s = ''.join(f'import {h}\n' for h in head) + 'namespace Cglm\nopen CMem\ninstance : Libm := ⟨id, id, id, id, id, id, fun a _ => a, fun a _ => a⟩\n'
        for n in list(over) + list(conf):
            for nm, ps, mem, run, args, W, a, d, za in case(E, n, pairs_of(n)):
                s += f'#eval (let l : List Nat := {ps}; IO.println s!"{nm}\\t{{l.filterMap fun p => ((List.range 8).map fun s => (p, s)).find? fun c => let mem : Mem F32 := {mem}; differ ({run} mem [{args}]) (some (none, writes mem [{W}]))}}\\t{{l}}")\n'
        open(sys.argv[1], 'w').write(quote(s) + 'end Cglm\n')
        sys.exit()
    G = {}
    for g in RUNS:
        lib = open(f'{here}/../lean/Verif/Lib/{g}.lean').read()
        ns = [n for n in re.findall(r'^def (glm_\w+) : Entry', lib, re.M) if n in over or n in conf]
        ts = []
        for n in ns:
            for nm, ps, mem, run, args, W, a, d, za in case(E, n, pairs_of(n)):
                l = got.get(nm, '[]')
                if l == '[]': continue
                sfx = 'exact' if l.count('(') == len(ps) else 'wrong'
                ts.append(f'theorem C98_{nm}_{sfx} [Libm] : ∀ c ∈ ({l} : List (Nat × Nat)), let mem : Mem F32 := {mem}\n    {run} mem [{args}] ≠\n      some (none, writes mem [{W}]) :=\n  all_differ (by kernel_rfl)\n')
        if not ts: continue
        s = '/- Generated by tools/exactthms.py; do not edit by hand. -/\nimport Verif.CMemDiff\n' + ''.join(f'import Verif.Mem.{r}Run\n' for r in RUNS[g])
        s += '\n/-!\n# C98: overlaps that give wrong results\n\nFor each function that does not allow all overlaps, positions `c.1` of an input in the object\nthat also holds an output, at which the result is wrong for the contents numbered `c.2`.\nThe other arrays lie apart.  `_exact`: every position that the theorem for the function excludes is wrong; `_wrong`: some are.\n-/\n'
        s += '\nset_option linter.unusedVariables false\n\nnamespace Cglm\nopen CMem\n\n' + '\n'.join(ts) + '\nend Cglm\n'
        put(f'Props/C98Exact{g}.lean', quote(s))
        print(g, len(ts))
