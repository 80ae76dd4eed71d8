#!/usr/bin/env python3
"""Join small generated modules into larger ones (run after gen, memgen, imemgen, safethms and defdthms).

A module costs a fixed time to load, whatever its size.  The modules of one family (`Gen/Struct*`, `Gen/Src*`, `Mem/*`, `Mem/*Run`, `Props/C55*`,
`Props/C56*`, `Props/C72*`) that treat related headers become one module; imports elsewhere follow."""
import re, os, sys, glob, collections
root = os.path.join(os.path.dirname(os.path.abspath(__file__)), '..', 'lean', 'Verif')

GROUPS = [('Vecs', r'(Vec[234](Ext)?|Util)'), ('Mats', r'Mat\d(x\d)?'), ('Affines', r'(Affine\w*|Cam|Project|Clipspace(Persp|View|Project|Ortho)\w*)'),
          ('Quats', r'(Quat|Euler|HandedEulerToQuat[LR]h)'), ('Ints', r'I(Ivec[234]|Util)'), ('Noises', r'Noise'),
          ('Geoms', r'(Aabb2d|Bezier|Box|Color|Curve|Ease|Frustum|Plane|Ray|Sphere|Decompose)')]
PRE = {'Props': [('C55', ''), ('C56', ''), ('C72', '')], 'Mem': [('', 'Run'), ('', '')], 'Gen': [('Struct', ''), ('Src', '')]}

def target(mod):
    d, n = mod.split('.')
    for pre, suf in PRE[d]:
        if n.startswith(pre) and n.endswith(suf):
            m = n[len(pre):len(n) - len(suf)]
            for g, r in GROUPS:
                if re.fullmatch(r, m): return f'{d}.{pre}{g}{suf}'
            return None

def main(write=True):
    T = {}
    for f in [f for d in PRE for f in glob.glob(f'{root}/{d}/*.lean')]:
        m = os.path.relpath(f, root)[:-5].replace('/', '.')
        t = target(m)
        if t and t != m: T[m] = t
    files = {}
    for f in glob.glob(root + '/**/*.lean', recursive=True):
        files[os.path.relpath(f, root)[:-5].replace('/', '.')] = open(f).read()
    imps = lambda s: re.findall(r'^import (\S+)$', s, re.M)
    def new(i):
        m = i[6:]
        t = T.get(m) or (target(m) if i.startswith('Verif.') and m.count('.') == 1 and m.split('.')[0] in PRE and m not in files else None)
        return 'Verif.' + t if t else i
    groups = collections.defaultdict(list)
    for m, t in T.items(): groups[t].append(m)
    # dependencies between groups must not be circular
    dep = collections.defaultdict(set)
    for m, s in files.items():
        for i in imps(s):
            a, b = T.get(m, m), new(i)[6:]
            if i.startswith('Verif.') and a != b: dep[a].add(b)
    state = {}
    def visit(a, path):
        if state.get(a) == 2: return
        if state.get(a) == 1: sys.exit('circular: ' + ' -> '.join(path[path.index(a):] + [a]))
        state[a] = 1
        for b in sorted(dep[a]): visit(b, path + [a])
        state[a] = 2
    for a in sorted(dep): visit(a, [])
    for t, ms in sorted(groups.items()):
        order, seen = [], set()
        def place(m):
            if m in seen: return
            seen.add(m)
            for i in imps(files[m]):
                if T.get(i[6:]) == t: place(i[6:])
            order.append(m)
        for m in sorted(ms): place(m)
        I = []
        for m in order:
            for i in imps(files[m]):
                j = new(i)
                if j != 'Verif.' + t and j not in I: I.append(j)
        tools = sorted(set(re.findall(r'Generated (?:from \S+ )?by (tools/\w+\.py)', ' '.join(files[m] for m in order))))
        out = f'/- Generated by {", ".join(tools)}, joined by tools/merge.py; do not edit by hand. -/\n' + ''.join(f'import {i}\n' for i in I)
        for m in order:
            s = re.sub(r'^import \S+\n', '', files[m], flags=re.M)
            s = re.sub(r'\A/- Generated by tools/\w+\.py; do not edit by hand\.\s*(.*?)-/\n', lambda x: f'/-! {x.group(1).strip()} -/\n' if x.group(1).strip() else '', s, flags=re.S)
            out += f'\nsection {m.split(".")[1]}\n\n{s.strip()}\n\nend {m.split(".")[1]}\n'
        print(t, len(order), len(out))
        if write: open(f'{root}/{t.replace(".", "/")}.lean', 'w').write(out)
    if write:
        for m in T: os.remove(f'{root}/{m.replace(".", "/")}.lean')
        for m, s in files.items():
            if m in T or m in groups: continue
            J = []
            for i in imps(s):
                if new(i) not in J: J.append(new(i))
            if J != imps(s):
                h = True
                def sub(x):
                    nonlocal h
                    if h: h = False; return ''.join(f'import {j}\n' for j in J)
                    return ''
                open(f'{root}/{m.replace(".", "/")}.lean', 'w').write(re.sub(r'^import \S+\n', sub, s, flags=re.M))

if __name__ == '__main__': main('-n' not in sys.argv)
