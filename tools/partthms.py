#!/usr/bin/env python3
"""Write lean/Verif/Props/C99*.lean: components of arguments that are not read (CMemPart.lean), for the functions in part.txt
(lines: function, number of an array among the array parameters, cells of it)."""
import os, re
import pure
from memgen import Emit, Spec, TAG, VARS, put, quote
from overthms import RUNS, cells
here = os.path.dirname(os.path.abspath(__file__))

def thm(E, n, conf, spots):
    """conf: as in conf.txt, or None for functions whose outputs must not begin inside inputs"""
    S = Spec(E.M, n)
    ptr = {p[0]: p[1] + 'P' for p in S.params if p[3]}
    sz = {p[0]: S.size(p[2]) for p in S.params if p[3]}
    P = {p[0]: p for p in S.params}
    arrs = [p for p in S.params if p[3]]
    ins, outs = [p[0] for p in arrs if p[4] == 'i'], [p[0] for p in arrs if p[4] != 'i']
    val = {p[0]: p[1] for p in S.params}
    regs, cargs, cv = E.canon(S, {})
    idx = {r[0]: k for k, r in enumerate(regs)}
    un = {regs[r][0]: ks for r, ks in spots}
    if conf is None: conf = [(idx[d], idx[a], [(o, list(range(o + 1, sz[a]))) for o in range(min(sz[d], sz[a] - 1))]) for d in outs for a in ins]
    b = '{mem : Mem α} {' + ' '.join(ptr[p[0]] for p in arrs) + ' : Ptr}'
    for pn, ln, t, arr, role in S.params:
        if not arr: b += f' ({ln} : {pure.leantype(t)})'
        elif role != 'o': b += f' {{{ln} : {pure.leantype(t)}}}'
    holds = lambda pn, at, ln, t: f'Part mem {at} {un[pn]} {S.lst(ln, t)}' if pn in un else f'Holds mem {at} {S.lst(ln, t)}'
    hyps = []
    for pn, ln, t, arr, role in arrs:
        if role != 'o': hyps.append(f'(h_{ln} : {holds(pn, ptr[pn], ln, t)})')
        if role != 'i': hyps.append(f'(r_{ln} : Room mem {ptr[pn]} {sz[pn]})')
    seps = [(d, e) for i, d in enumerate(outs) for e in outs[i + 1:]]
    hyps += [f'(s_{val[d]}_{val[e]} : Apart {ptr[d]} {sz[d]} {ptr[e]} {sz[e]})' for d, e in seps]
    C, cl, lits = [], '.nil', []
    for r, i, ps in conf:
        d, a = regs[r][0], regs[i][0]
        pairs = {(o, k) for o, ks in ps for k in ks}
        if not pairs: continue
        lit = '[' + ', '.join(f'({o}, [{", ".join(map(str, ks))}])' for o, ks in ps) + ']'
        kind = 'Apart' if len(pairs) == sz[a] * sz[d] else 'Over' if pairs == {(o, k) for o in range(sz[d]) for k in range(o + 1, sz[a])} else 'Clear'
        st = lambda p, q, kind=kind, lit=lit, a=a, d=d: f'Clear {q} {p} {lit}' if kind == 'Clear' else f'{kind} {p} {sz[a]} {q} {sz[d]}'
        C.append((d, a, kind, st)); lits.append(f'({r}, {i}, {lit})')
        hyps.append(f'(c_{val[a]}_{val[d]} : {st(ptr[a], ptr[d])})')
    for d, a, kind, st in reversed(C):
        c = f'c_{val[a]}_{val[d]}'
        cl = f'(.cons rfl rfl {c if kind == "Clear" else f"({c}.clear rfl)"} {cl})'
    ret, res = E.results(S, f'({E.call(S, val)})')
    R = 'none' if ret is None else f'some (.{TAG[S.ret.base]} {ret})'
    W = ', '.join(f'({ptr[d]}, {S.lst(res[d], P[d][2])}.map .f)' for d in outs)
    args = ', '.join(f'{ptr[p[0]]}.val' if p[3] else f'.{TAG[p[2].base]} {p[1]}' for p in S.params)
    s = f'theorem C99_{n[4:]} {b} {" ".join(hyps)} :\n    C.{n}.run mem [{args}] =\n      some ({R}, {f"writes mem [{W}]" if outs else "mem"}) :=\n'
    RO = '(RO.nil true _)'
    for k in range(len(regs) - 1, -1, -1):
        a, w, c = regs[k]
        ap = '.nil'
        for k2 in range(len(regs) - 1, k, -1):
            d, w2, _ = regs[k2]
            if w: ap = f'(.cons s_{val[a]}_{val[d]} {ap})' if w2 else f'(.skip {ap})'
        if not w: RO = f'({RO}.addR h_{val[a]}.has)'
        else: RO = f'({RO}.addW {"h_" if P[a][4] == "io" else "r_"}{val[a]}.has r_{val[a]} {ap})'
    er = '.nil'
    for x in reversed(cargs): er = f'(.p rfl {er})' if x.startswith('.p') else f'({x.split()[0]} {er})'
    us = ' _' * len({v for v in cv.values() if v})
    v = f'(DT.val_map_eq ({n}_dt_val{" _" * len(S.ins)}) rfl)' if n in E.M.dt else '(DT.val_done _)'
    if not outs: s += f'  transferPart0 (e := Lib.{n}) (u := [{", ".join(f"({r}, {ks})" for r, ks in spots)}]) (by kernel_rfl) rfl {RO} {er} ({n}_run{us}) {v} rfl rfl rfl rfl\n'
    else: s += f'  transferPart (e := Lib.{n}) (l := [{", ".join(lits)}]) (u := [{", ".join(f"({r}, {ks})" for r, ks in spots)}]) (by kernel_rfl) rfl {RO} {cl} {er} ({n}_run{us}) {v} rfl rfl rfl rfl\n'
    # an instance in which the components are indeterminate
    at, blocks, bind, parts, prf = {}, [], '', [], []
    for pn, ln, t, arr, role in arrs:
        at[pn] = (len(blocks), 0)
        w = 'false' if role == 'i' else 'true'
        if role == 'o': blocks.append(f'⟨true, List.replicate {sz[pn]} .undef⟩')
        elif pn in un: blocks.append(f'⟨{w}, [' + ', '.join('.undef' if k in un[pn] else f'.f {c}' for k, c in enumerate(cells(ln, t.dims))) + ']⟩')
        else: blocks.append(f'⟨{w}, {S.lst(ln, t)}.map .f⟩')
        if role != 'i': parts.append(f'Room mem {at[pn]} {sz[pn]}'); prf.append('.within rfl rfl')
        if role == 'o': continue
        parts.append(holds(pn, at[pn], ln, t)); prf.append('.within rfl rfl rfl' if pn in un else '.within rfl rfl')
        bind += f' ({ln} : {pure.leantype(t)})'
    for x, y in seps: parts.append(f'Apart {at[x]} {sz[x]} {at[y]} {sz[y]}'); prf.append('Or.inl (by decide)')
    for d, a, kind, st in C:
        parts.append(st(at[a], at[d])); prf.append('.other rfl' if kind == 'Clear' else '.inl (by decide)')
    s += f'example{bind} : let mem : Mem α := [{", ".join(blocks)}]\n    ' + ' ∧ '.join(parts) + (f' :=\n  ⟨{", ".join(prf)}⟩\n' if len(prf) > 1 else f' :=\n  {"" if prf[0][0] != "." else "Part"}{prf[0]}\n')
    return s

if __name__ == '__main__':
    E = Emit()
    over = dict(l.split() for l in open(here + '/over.txt'))
    conf, part = {}, {}
    for l in open(here + '/conf.txt'):
        n, r, i, ps = l.rstrip('\n').split('\t')
        conf.setdefault(n, []).append((int(r), int(i), [(int(x.split(':')[0]), list(map(int, x.split(':')[1].split(',')))) for x in ps.split()]))
    for l in open(here + '/part.txt'):
        n, r, ks = l.split()
        part.setdefault(n, []).append((int(r), list(map(int, ks.split(',')))))
    for g in RUNS:
        lib = open(f'{here}/../lean/Verif/Lib/{g}.lean').read()
        ns = [n for n in re.findall(r'^def (glm_\w+) : Entry', lib, re.M) if n in part]
        if not ns: continue
        s = '/- Generated by tools/partthms.py; do not edit by hand. -/\nimport Verif.CMemPart\n' + f'import Verif.Lib.{g}\n' + ''.join(f'import Verif.Mem.{r}Run\n' for r in RUNS[g])
        s += '\n/-!\n# C99: components that need not be initialised\n\n`Part mem p l vs`: the array at `p` holds `vs`, but the cells in `l` may hold anything or nothing.  The call is defined and its\nresult is the value-level function of `vs`, whatever entries `vs` has at those cells.  Inputs and outputs may overlap as in C98.\n-/\n'
        s += '\nset_option linter.unusedVariables false\nset_option linter.unusedSectionVars false\n\nnamespace Cglm\nopen CMem\n\n' + VARS + '\n'
        s += '\n'.join(thm(E, n, conf[n] if n in conf else None if over.get(n) == 'below' else [], part[n]) for n in ns) + '\nend Cglm\n'
        put(f'Props/C99{g}.lean', quote(s))
        print(g, len(ns))
