#!/usr/bin/env python3
"""Write lean/Verif/Props/C98*.lean: calls whose outputs overlap their inputs (CMemOver.lean), for the functions in over.txt,
those in conf.txt (lines: function, number of an output and of an input among the array parameters, cells of the output that
must not be certain cells of the input) and, for integers (CMemIOver.lean), all that have inputs and outputs."""
import os, re
import pure
from memgen import Emit, Spec, TAG, VARS, put, quote
import imemgen
from imemgen import IEmit
here = os.path.dirname(os.path.abspath(__file__))
RUNS = {'Vec': ['Vecs'], 'Mat': ['Mats'], 'Quat': ['Quats'], 'Affine': ['Affines'], 'Clip': ['Affines'], 'Geom': ['Geoms', 'Affines', 'Vecs']}

def cells(v, dims):
    if not dims: return [v]
    if len(dims) == 1: return [f'{v}.{c}' for c in 'xyzw'[:dims[0]]] if dims[0] < 5 else [f'{v}.e{i}' for i in range(dims[0])]
    return [x for i in range(dims[0]) for x in cells(f'{v}.c{i}', dims[1:])]
def build(xs, dims):
    if not dims: return xs[0]
    if len(dims) == 1: return '⟨' + ', '.join(xs) + '⟩'
    k = len(xs) // dims[0]
    return '⟨' + ', '.join(build(xs[i * k:i * k + k], dims[1:]) for i in range(dims[0])) + '⟩'

def thm(E, n, up):
    S = Spec(E.M, n)
    ptr = {p[0]: p[1] + 'P' for p in S.params if p[3]}
    sz = {p[0]: S.size(p[2]) for p in S.params if p[3]}
    P = {p[0]: p for p in S.params}
    arrs = [p for p in S.params if p[3]]
    ins, outs = [p[0] for p in arrs if p[4] == 'i'], [p[0] for p in arrs if p[4] != 'i']
    val = {p[0]: p[1] for p in S.params}
    b = '{mem : Mem α} {' + ' '.join(ptr[p[0]] for p in arrs) + ' : Ptr}'
    for pn, ln, t, arr, role in S.params:
        if not arr: b += f' ({ln} : {pure.leantype(t)})'
        elif role != 'o': b += f' {{{ln} : {pure.leantype(t)}}}'
    hyps = []
    for pn, ln, t, arr, role in arrs:
        if role != 'o': hyps.append(f'(h_{ln} : Holds mem {ptr[pn]} {S.lst(ln, t)})')
        if role != 'i': hyps.append(f'(r_{ln} : Room mem {ptr[pn]} {sz[pn]})')
    seps = [(d, e) for i, d in enumerate(outs) for e in outs[i + 1:]]
    hyps += [f'(s_{val[d]}_{val[e]} : Apart {ptr[d]} {sz[d]} {ptr[e]} {sz[e]})' for d, e in seps]
    if not up: hyps += [f'(o_{val[a]}_{val[d]} : Over {ptr[a]} {sz[a]} {ptr[d]} {sz[d]})' for a in ins for d in outs]
    ret, res = E.results(S, f'({E.call(S, val)})')
    R = 'none' if ret is None else f'some (.{TAG[S.ret.base]} {ret})'
    W = ', '.join(f'({ptr[d]}, {S.lst(res[d], P[d][2])}.map .f)' for d in outs)
    args = ', '.join(f'{ptr[p[0]]}.val' if p[3] else f'.{TAG[p[2].base]} {p[1]}' for p in S.params)
    s = f'theorem C98_{n[4:]} {b} {" ".join(hyps)} :\n    C.{n}.run mem [{args}] =\n      some ({R}, writes mem [{W}]) :=\n'
    regs, cargs, cv = E.canon(S, {})
    RO = f'(RO.nil {"true" if up else "false"} _)'
    for k in range(len(regs) - 1, -1, -1):
        a, w, c = regs[k]
        ap = ov = '.nil'
        for k2 in range(len(regs) - 1, k, -1):
            d, w2, _ = regs[k2]
            if w: ap = f'(.cons s_{val[a]}_{val[d]} {ap})' if w2 else f'(.skip {ap})'
            if w: ov = f'(.skip {ov})' if w2 else f'(.cons o_{val[d]}_{val[a]} {ov})'
            else: ov = f'(.cons o_{val[a]}_{val[d]} {ov})' if w2 else f'(.skip {ov})'
        if not w: RO = f'({RO}.addR h_{val[a]}.has)' if up else f'({RO}.addO h_{val[a]}.has {ov})'
        else: RO = f'({RO}.add{"W" if up else "P"} {"h_" if P[a][4] == "io" else "r_"}{val[a]}.has r_{val[a]} {ap}' + ('' if up else ' ' + ov) + ')'
    er = '.nil'
    for x in reversed(cargs): er = f'(.p rfl {er})' if x.startswith('.p') else f'({x.split()[0]} {er})'
    us = ' _' * len({v for v in cv.values() if v})
    v = f'(DT.val_map_eq ({n}_dt_val{" _" * len(S.ins)}) rfl)' if n in E.M.dt else '(DT.val_done _)'
    s += f'  transferO (e := Lib.{n}) (up := {"true" if up else "false"}) (by kernel_rfl) {RO} {er} ({n}_run{us}) {v} rfl rfl rfl\n'
    # an instance where the first input and the first output overlap
    a, d = ins[0], outs[0]
    at, vals, blocks, bind = {}, {}, [], ''
    if P[d][4] == 'o':
        if up: blocks.append(f'⟨true, {S.lst(val[a], P[a][2])}.map .f ++ List.replicate {sz[d]} .undef⟩')
        else: blocks.append(f'⟨true, .undef :: {S.lst(val[a], P[a][2])}.map .f' + (f' ++ List.replicate {sz[d] - 1 - sz[a]} .undef' if sz[d] > 1 + sz[a] else '') + '⟩')
        at[a], at[d] = ((0, 0), (0, 1)) if up else ((0, 1), (0, 0))
    else:
        k = max(0, sz[a] + 1 - sz[d])
        blocks.append(f'⟨true, {S.lst(val[d], P[d][2])}.map .f' + (f' ++ List.replicate {k} (.f t)' if k else '') + '⟩')
        at[d], at[a] = (0, 0), (0, 1)
        vals[a] = build((cells(val[d], P[d][2].dims) + ['t'] * k)[1:1 + sz[a]], P[a][2].dims)
        if k: bind = ' (t : α)'
    for pn, ln, t, arr, role in arrs:
        if pn in (a, d): continue
        at[pn] = (len(blocks), 0)
        blocks.append(f'⟨{"false" if role == "i" else "true"}, ' + (f'List.replicate {sz[pn]} .undef' if role == 'o' else f'{S.lst(ln, t)}.map .f') + '⟩')
    parts, prf = [], []
    for pn, ln, t, arr, role in arrs:
        if role != 'i': parts.append(f'Room mem {at[pn]} {sz[pn]}'); prf.append('.within rfl rfl')
        if role == 'o': continue
        x = f'({vals[pn]} : {pure.leantype(t)})' if pn in vals else ln
        parts.append(f'Holds mem {at[pn]} {S.lst(x, t)}'); prf.append('.within rfl rfl')
        if pn not in vals: bind += f' ({ln} : {pure.leantype(t)})'
    for x, y in seps: parts.append(f'Apart {at[x]} {sz[x]} {at[y]} {sz[y]}'); prf.append('Or.inl (by decide)')
    if not up:
        for x in ins:
            for y in outs: parts.append(f'Over {at[x]} {sz[x]} {at[y]} {sz[y]}'); prf.append('Or.inl (by decide)')
    s += f'example{bind} : let mem : Mem α := [{", ".join(blocks)}]\n    ' + ' ∧ '.join(parts) + f' :=\n  ⟨{", ".join(prf)}⟩\n'
    return s

def cthm(E, n, conf):
    S = Spec(E.M, n)
    ptr = {p[0]: p[1] + 'P' for p in S.params if p[3]}
    sz = {p[0]: S.size(p[2]) for p in S.params if p[3]}
    P = {p[0]: p for p in S.params}
    arrs = [p for p in S.params if p[3]]
    ins, outs = [p[0] for p in arrs if p[4] == 'i'], [p[0] for p in arrs if p[4] != 'i']
    val = {p[0]: p[1] for p in S.params}
    b = '{mem : Mem α} {' + ' '.join(ptr[p[0]] for p in arrs) + ' : Ptr}'
    for pn, ln, t, arr, role in S.params:
        if not arr: b += f' ({ln} : {pure.leantype(t)})'
        elif role != 'o': b += f' {{{ln} : {pure.leantype(t)}}}'
    hyps = []
    for pn, ln, t, arr, role in arrs:
        if role != 'o': hyps.append(f'(h_{ln} : Holds mem {ptr[pn]} {S.lst(ln, t)})')
        if role != 'i': hyps.append(f'(r_{ln} : Room mem {ptr[pn]} {sz[pn]})')
    seps = [(d, e) for i, d in enumerate(outs) for e in outs[i + 1:]]
    hyps += [f'(s_{val[d]}_{val[e]} : Apart {ptr[d]} {sz[d]} {ptr[e]} {sz[e]})' for d, e in seps]
    regs, cargs, cv = E.canon(S, {})
    C, cl, lits = [], '.nil', []
    for r, i, ps in conf:
        d, a = regs[r][0], regs[i][0]
        pairs = {(o, k) for o, ks in ps for k in ks}
        lit = '[' + ', '.join(f'({o}, [{", ".join(map(str, ks))}])' for o, ks in ps) + ']'
        kind = 'Apart' if len(pairs) == sz[a] * sz[d] else 'Over' if pairs == {(o, k) for o in range(sz[d]) for k in range(o + 1, sz[a])} else 'Clear'
        st = lambda p, q, kind=kind, lit=lit, a=a, d=d: f'Clear {q} {p} {lit}' if kind == 'Clear' else f'{kind} {p} {sz[a]} {q} {sz[d]}'
        C.append((d, a, pairs, kind, st)); lits.append(f'({r}, {i}, {lit})')
        hyps.append(f'(c_{val[a]}_{val[d]} : {st(ptr[a], ptr[d])})')
    for d, a, pairs, kind, st in reversed(C):
        c = f'c_{val[a]}_{val[d]}'
        cl = f'(.cons rfl rfl {c if kind == "Clear" else f"({c}.clear rfl)"} {cl})'
    ret, res = E.results(S, f'({E.call(S, val)})')
    R = 'none' if ret is None else f'some (.{TAG[S.ret.base]} {ret})'
    W = ', '.join(f'({ptr[d]}, {S.lst(res[d], P[d][2])}.map .f)' for d in outs)
    args = ', '.join(f'{ptr[p[0]]}.val' if p[3] else f'.{TAG[p[2].base]} {p[1]}' for p in S.params)
    s = f'theorem C98_{n[4:]} {b} {" ".join(hyps)} :\n    C.{n}.run mem [{args}] =\n      some ({R}, writes mem [{W}]) :=\n'
    RO = '(RO.nil true _)'
    for k in range(len(regs) - 1, -1, -1):
        a, w, c = regs[k]
        ap = '.nil'
        for k2 in range(len(regs) - 1, k, -1):
            d, w2, _ = regs[k2]
            if w: ap = f'(.cons s_{val[a]}_{val[d]} {ap})' if w2 else f'(.skip {ap})'
        if not w: RO = f'({RO}.addR h_{val[a]}.has)'
        else: RO = f'({RO}.addW {"h_" if P[a][4] == "io" else "r_"}{val[a]}.has r_{val[a]} {ap})'
    er = '.nil'
    for x in reversed(cargs): er = f'(.p rfl {er})' if x.startswith('.p') else f'({x.split()[0]} {er})'
    us = ' _' * len({v for v in cv.values() if v})
    v = f'(DT.val_map_eq ({n}_dt_val{" _" * len(S.ins)}) rfl)' if n in E.M.dt else '(DT.val_done _)'
    s += f'  transferC (e := Lib.{n}) (l := [{", ".join(lits)}]) (by kernel_rfl) {RO} {cl} {er} ({n}_run{us}) {v} rfl rfl rfl\n'
    # an instance in which an input and an output share as many cells as the list allows
    bad = {(d, a): pairs for d, a, pairs, _, _ in C}
    best = None
    for d in outs:
        for a in ins:
            for x in range(-sz[a] + 1, sz[d]):  # the input begins at cell x of the output
                sh = [o for o in range(sz[d]) if 0 <= o - x < sz[a]]
                if sh and not any((o, o - x) in bad.get((d, a), ()) for o in sh) and (best is None or len(sh) > best[0]): best = len(sh), d, a, x
    at, vals, blocks, bind = {}, {}, [], ''
    if best:
        _, d, a, x = best
        pd, pa = max(0, -x), max(0, x)
        L = max(pd + sz[d], pa + sz[a])
        dc, ac = cells(val[d], P[d][2].dims), cells(val[a], P[a][2].dims)
        cell = [f'.f {ac[j - pa]}' if P[d][4] == 'o' and 0 <= j - pa < sz[a] else f'.f {dc[j - pd]}' if P[d][4] == 'io' and 0 <= j - pd < sz[d] else '.undef' if P[d][4] == 'o' else '.f t' for j in range(L)]
        if P[d][4] == 'io': vals[a] = build([c[3:] for c in cell[pa:pa + sz[a]]], P[a][2].dims)
        if '.f t' in cell: bind = ' (t : α)'
        blocks.append(f'⟨true, [{", ".join(cell)}]⟩')
        at[d], at[a] = (0, pd), (0, pa)
    for pn, ln, t, arr, role in arrs:
        if pn in at: continue
        at[pn] = (len(blocks), 0)
        blocks.append(f'⟨{"false" if role == "i" else "true"}, ' + (f'List.replicate {sz[pn]} .undef' if role == 'o' else f'{S.lst(ln, t)}.map .f') + '⟩')
    parts, prf = [], []
    for pn, ln, t, arr, role in arrs:
        if role != 'i': parts.append(f'Room mem {at[pn]} {sz[pn]}'); prf.append('.within rfl rfl')
        if role == 'o': continue
        x = f'({vals[pn]} : {pure.leantype(t)})' if pn in vals else ln
        parts.append(f'Holds mem {at[pn]} {S.lst(x, t)}'); prf.append('.within rfl rfl')
        if pn not in vals: bind += f' ({ln} : {pure.leantype(t)})'
    for x, y in seps: parts.append(f'Apart {at[x]} {sz[x]} {at[y]} {sz[y]}'); prf.append('Or.inl (by decide)')
    for d, a, pairs, kind, st in C:
        parts.append(st(at[a], at[d]))
        prf.append('.inl (by decide)' if kind == 'Apart' else '.inl (by decide)' if kind == 'Over' and at[a][0] == at[d][0] else '.inr (.inl (by decide))' if kind == 'Over' else '.of rfl' if at[a][0] == at[d][0] else '.other rfl')
    s += f'example{bind} : let mem : Mem α := [{", ".join(blocks)}]\n    ' + ' ∧ '.join(parts) + f' :=\n  ⟨{", ".join(prf)}⟩\n'
    return s, best

def ithm(E, n):
    S = Spec(E.M, n)
    ptr = {p[0]: p[1] + 'P' for p in S.params if p[3]}
    sz = {p[0]: S.size(p[2]) for p in S.params if p[3]}
    P = {p[0]: p for p in S.params}
    arrs = [p for p in S.params if p[3]]
    ins, outs = [p[0] for p in arrs if p[4] == 'i'], [p[0] for p in arrs if p[4] != 'i']
    if not ins or not outs: return None
    [d] = outs
    val = {p[0]: p[1] for p in S.params}
    ty = re.search(r': Option \((.*?)\) := do', E.M.text[n])[1]
    b = '{mem : Mem α} {' + ' '.join(ptr[p[0]] for p in arrs) + ' : Ptr}'
    for pn, ln, t, arr, role in S.params:
        if not arr or role != 'o': b += f' {{{ln} : {E.lt(t)}}}'
    b += f' {{r : {ty}}}'
    hyps = []
    for pn, ln, t, arr, role in arrs:
        if role != 'o': hyps.append(f'(h_{ln} : HoldsI mem {ptr[pn]} {S.lst(ln, t)})')
        if role != 'i': hyps.append(f'(r_{ln} : Room mem {ptr[pn]} {sz[pn]})')
    hyps += [f'(o_{val[a]}_{val[d]} : Over {ptr[a]} {sz[a]} {ptr[d]} {sz[d]})' for a in ins]
    hyps.append(f'(h : {E.call(S, val)} = some r)')
    ret, res = E.results(S, 'r')
    W = f'({ptr[d]}, icells {S.lst(res[d], P[d][2])})'
    args = ', '.join(f'{ptr[p[0]]}.val' if p[3] else f'.{TAG[p[2].base]} {p[1]}' + ('.toInt' if TAG[p[2].base] == 'i' else '') for p in S.params)
    s = f'theorem C98_{n[4:]} {b} {" ".join(hyps)} :\n    CI.{n}.run mem [{args}] =\n      some ({E.retv(S, ret)}, writes mem [{W}]) :=\n'
    regs, cargs, cv = E.canon(S, {})
    RO = '(RO.nil false _)'
    for k in range(len(regs) - 1, -1, -1):
        a, w, c = regs[k]
        ov = '.nil'
        for k2 in range(len(regs) - 1, k, -1):
            e, w2, _ = regs[k2]
            if w: ov = f'(.cons o_{val[e]}_{val[a]} {ov})'
            else: ov = f'(.cons o_{val[a]}_{val[e]} {ov})' if w2 else f'(.skip {ov})'
        if not w: RO = f'({RO}.addO h_{val[a]}.has {ov})'
        else: RO = f'({RO}.addP {"h_" if P[a][4] == "io" else "r_"}{val[a]}.has r_{val[a]} {".nil" if k == len(regs) - 1 else "(.skip " * (len(regs) - 1 - k) + ".nil" + ")" * (len(regs) - 1 - k)} {ov})'
    er = '.nil'
    for x in reversed(cargs): er = f'(.p rfl {er})' if x.startswith('.p') else f'({x.split()[0]} {er})'
    us = ' _' * len({v for v in cv.values() if v})
    s += f'  itransferO (e := LibI.{n}) (up := false) (by kernel_rfl) {RO} {er} ({n}_irun{us} h) rfl rfl rfl\n'
    # an instance where the first input begins one cell after the output
    a = ins[0]
    xs = [7, 2, 5, 3, 4][:max(sz[d], sz[a] + 1)]
    blocks, at, conc = [f'⟨true, icells [{", ".join(map(str, xs))}]⟩'], {d: (0, 0), a: (0, 1)}, {}
    lit = lambda l, t: f'(⟨{", ".join(map(str, l))}⟩ : {E.lt(t)})'
    conc[val[a]] = lit(xs[1:1 + sz[a]], P[a][2])
    if P[d][4] == 'io': conc[val[d]] = lit(xs[:sz[d]], P[d][2])
    sc = 0
    for pn, ln, t, arr, role in S.params:
        if pn in (a, d): continue
        if not arr: conc[ln] = f'({(2, 9)[sc]} : Int32)'; sc += 1; continue
        at[pn] = (len(blocks), 0)
        conc[ln] = lit([6, 1, 8, 9][:sz[pn]], t)
        blocks.append(f'⟨false, icells [{", ".join(map(str, [6, 1, 8, 9][:sz[pn]]))}]⟩')
    parts, prf = [], []
    for pn, ln, t, arr, role in arrs:
        if role != 'i': parts.append(f'Room mem {at[pn]} {sz[pn]}'); prf.append('.within rfl rfl')
        if role != 'o': parts.append(f'HoldsI mem {at[pn]} {S.lst(conc[ln], t)}'); prf.append('.within rfl rfl')
    for x in ins: parts.append(f'Over {at[x]} {sz[x]} {at[d]} {sz[d]}'); prf.append('Or.inl (by decide)')
    if n not in E.M.P.hidden: parts.append(f'({E.call(S, {k: conc[v] for k, v in val.items() if v in conc})}).isSome = true'); prf.append('rfl')
    s += f'example : let mem : Mem α := [{", ".join(blocks)}]\n    ' + ' ∧ '.join(parts) + f' :=\n  ⟨{", ".join(prf)}⟩\n'
    return s

if __name__ == '__main__':
    E = Emit()
    names = dict(l.split() for l in open(here + '/over.txt'))
    for g in RUNS:
        lib = open(f'{here}/../lean/Verif/Lib/{g}.lean').read()
        ns = [n for n in re.findall(r'^def (glm_\w+) : Entry', lib, re.M) if n in names]
        s = '/- Generated by tools/overthms.py; do not edit by hand. -/\nimport Verif.CMemOver\n' + f'import Verif.Lib.{g}\n' + ''.join(f'import Verif.Mem.{r}Run\n' for r in RUNS[g])
        s += '\n/-!\n# C98: outputs that overlap inputs\n\nInputs and outputs may overlap in any way, or, for functions that work component by component, in any way except that an\noutput begins inside an input (`Over`).  Outputs do not overlap each other.  The result is the value-level function of\nwhat the inputs held before the call, and nothing outside the outputs changes.\n-/\n'
        s += '\nset_option linter.unusedVariables false\nset_option linter.unusedSectionVars false\n\nnamespace Cglm\nopen CMem\n\n' + VARS + '\n'
        s += '\n'.join(thm(E, n, names[n] == 'any') for n in ns) + '\nend Cglm\n'
        put(f'Props/C98{g}.lean', quote(s))
        print(g, len(ns))
    conf = {}
    for l in open(here + '/conf.txt'):
        n, r, i, ps = l.rstrip('\n').split('\t')
        conf.setdefault(n, []).append((int(r), int(i), [(int(x.split(':')[0]), list(map(int, x.split(':')[1].split(',')))) for x in ps.split()]))
    for g in RUNS:
        lib = open(f'{here}/../lean/Verif/Lib/{g}.lean').read()
        ns = [n for n in re.findall(r'^def (glm_\w+) : Entry', lib, re.M) if n in conf]
        if not ns: continue
        s = '/- Generated by tools/overthms.py; do not edit by hand. -/\nimport Verif.CMemOver\n' + f'import Verif.Lib.{g}\n' + ''.join(f'import Verif.Mem.{r}Run\n' for r in RUNS[g])
        s += '\n/-!\n# C98: outputs that overlap inputs: functions that store before they have read everything\n\nInputs and outputs may overlap in any way that keeps certain cells of an output off certain cells of an input: `Clear q p l`\nlists them, `Apart` is the case of all cells, `Over` the case of an output that begins inside an input.  Outputs do not\noverlap each other.  The result is the value-level function of what the inputs held before the call, and nothing outside\nthe outputs changes.\n-/\n'
        s += '\nset_option linter.unusedVariables false\nset_option linter.unusedSectionVars false\n\nnamespace Cglm\nopen CMem\n\n' + VARS + '\n'
        ts = [cthm(E, n, conf[n]) for n in ns]
        s += '\n'.join(t for t, _ in ts) + '\nend Cglm\n'
        put(f'Props/C98Cells{g}.lean', quote(s))
        print(g, len(ns), [(n, t[1]) for n, t in zip(ns, ts) if not t[1] or n == 'glm_translate'])
    E = IEmit()
    ts = [t for n in E.M.order for t in [ithm(E, n)] if t]
    s = '/- Generated by tools/overthms.py; do not edit by hand. -/\nimport Verif.CMemIOver\nimport Verif.Lib.Int\nimport Verif.Mem.IntsRun\n'
    s += '\n/-!\n# C98: outputs that overlap inputs (integer vectors)\n\nInputs and the output may overlap in any way except that the output begins inside an input (`Over`).  When no operation on\nwhat the inputs held before the call overflows or divides by zero, the call is defined and stores the value-level result,\nand nothing outside the output changes.\n-/\n'
    s += imemgen.HEAD + '\n'.join(ts) + '\nend Cglm\n'
    put('Props/C98Ints.lean', quote(s))
    print('Ints', len(ts))
