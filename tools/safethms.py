#!/usr/bin/env python3
"""Emit Lib/*.lean, Lib.lean, Props/C56Any*.lean and Props/C56IAny.lean: the functions with the sizes of their arguments, and
memory safety of every function when its arguments overlap in any way."""
import sys, os, re, glob
sys.path.insert(0, os.path.dirname(os.path.abspath(__file__)))
import pure
from memgen import Emit, Spec, put, quote, TAG, VARS
from imemgen import IEmit

GROUPS = [('Vec', ('Vec2', 'Vec3', 'Vec4', 'Vec2Ext', 'Vec3Ext', 'Vec4Ext')), ('Mat', ('Mat',)), ('Affine', ('Affine',)),
          ('Clip', ('Clipspace',)), ('Quat', ('Quat', 'Euler', 'Handed'))]
KIND = {None: '.void', 'float': '.float', 'int': '.int', 'bool': '.bool'}

def group(mod):
    for g, pre in GROUPS:
        if any(mod.startswith(p) for p in pre): return g
    return 'Geom'

def thm(E, n, ints=False):
    K, C = ('I', 'CI') if ints else ('', 'C')
    lt = E.lt if ints else pure.leantype
    S = Spec(E.M, n)
    arrs = [p for p in S.params if p[3]]
    ptr = {p[0]: p[1] + 'P' for p in arrs}
    sz = {p[0]: S.size(p[2]) for p in arrs}
    b = '{mem : Mem α}' if arrs else '(mem : Mem α)'
    if arrs: b += ' {' + ' '.join(ptr[p[0]] for p in arrs) + ' : Ptr}'
    for pn, ln, t, arr, role in S.params:
        if not arr: b += f' ({ln} : {lt(t)})'
    H, ok, L, outs, run = '', [], [], [], []
    ex, prf, off = [], [], 0
    for pn, ln, t, arr, role in S.params:
        if not arr:
            x = f'.{TAG[t.base]} {ln}' + ('.toInt' if lt(t) == 'Int32' else '')
            ok.append('trivial'); L.append(x); run.append(x)
            continue
        k = sz[pn]
        hs = []
        if role != 'o': H += f' (h_{ln} : Init{K} mem {ptr[pn]} {k})'; hs.append(f'initK_is{K or "F"}.mpr h_{ln}'); ex.append(f'Init{K} mem (0, {off}) {k}'); prf.append('.replicate (by decide)')
        if role != 'i': H += f' (r_{ln} : Room mem {ptr[pn]} {k})'; hs.append(f'r_{ln}'); ex.append(f'Room mem (0, {off}) {k}'); prf.append('.replicate (by decide)')
        ok.append(f'⟨{", ".join(hs)}, by decide⟩')
        L.append(f'.{ {"i": "inp", "o": "out", "io": "io"}[role] } {ptr[pn]} {k}')
        run.append(f'{ptr[pn]}.val')
        if role != 'i': outs.append(f'({ptr[pn]}, {k})')
        off += 1
    R = KIND[S.ret.base if S.ret is not None else None]
    nm = n[4:] + ('_checked' if ints and n in ('glm_imin', 'glm_imax') else '')
    goal = f'SafeMem mem [{", ".join(outs)}] {R} {C}.{n} [{", ".join(run)}]' if ints else f'Safe mem [{", ".join(outs)}] {R} ({C}.{n}.run mem [{", ".join(run)}])'
    s = f'theorem C56_any_{nm} {b}{H} :\n    {goal} :=\n'
    if ints: s += f'  isafe_entry LibI.{n}_ok [{", ".join(L)}] ⟨{", ".join(ok + ["trivial"])}⟩ rfl\n' if ok else f'  isafe_entry LibI.{n}_ok [] trivial rfl\n'
    else: s += f'  safe_entry Lib.{n}_ok [{", ".join(L)}] ⟨{", ".join(ok + ["trivial"])}⟩ rfl\n' if ok else f'  safe_entry Lib.{n}_ok [] trivial rfl\n'
    if ex:
        N = max(k + i for i, k in enumerate(sz.values()))
        s += f'example (x : {"Int" if ints else "α"}) : let mem : Mem α := [⟨true, List.replicate {N} (.{"i" if ints else "f"} x)⟩]\n    {" ∧ ".join(ex)} :=\n  ' + (f'⟨{", ".join(prf)}⟩' if len(prf) > 1 else prf[0]) + '\n'
    return s

CITE = {}
def cite(n):
    """the lines of a function, from the comments of the generated modules"""
    if not CITE:
        for f in glob.glob(os.path.join(os.path.dirname(os.path.abspath(__file__)), '../lean/Verif/Gen/*.lean')):
            if not os.path.basename(f).startswith(('Simd', 'Struct', 'Src', 'Cfg')): CITE.update(re.findall(r'^/-- `(\w+)`: ([\w./-]+:\d+(?:-\d+)?)', open(f).read(), re.M))
    return f'/-- the parameters of `{n}`: {CITE[n]} -/\n' if n in CITE else ''

def entry(E, n, ints=False):
    K, C = ('I', 'CI') if ints else ('', 'C')
    S = Spec(E.M, n)
    sh = [f'.{ {"i": "inp", "o": "out", "io": "io"}[role] } {S.size(t)}' if arr else f'.{TAG[t.base]}' for pn, ln, t, arr, role in S.params]
    R = KIND[S.ret.base if S.ret is not None else None]
    return cite(n) + f'def {n} : {K}Entry := ⟨{C}.{n}, [{", ".join(sh)}], {R}⟩\ntheorem {n}_ok : {n}.ok = true := by kernel_rfl\n'

if __name__ == '__main__':
    E = Emit()
    G, tabs = {}, []
    for path, names in E.byfile.items(): G.setdefault(group(E.gen.modname(path)), []).append((path, names))
    k = 0
    for g, l in G.items():
        s = '/- Generated by tools/safethms.py; do not edit by hand. -/\nimport Verif.CMemEntry\n' + ''.join(f'import Verif.Mem.{E.gen.modname(p)}\n' for p, _ in l)
        s += '''
/-!
# The functions of the array interface with their arguments

Arrays are counted in floats.  The analysis of `CMemSafe` accepts every function.
-/

namespace Cglm.CMem.Lib

'''
        for p, names in l:
            s += f'/-! ## {E.gen.rel(p)} -/\n\n' + ''.join(entry(E, n) for n in names) + '\n'
        names = [n for _, ns in l for n in ns]
        parts = [names[i:i + 40] for i in range(0, len(names), 40)]
        for i, p in enumerate(parts):
            s += f'def part{g}{i + 1} : List Entry := [{", ".join(p)}]\ntheorem part{g}{i + 1}_ok : part{g}{i + 1}.all Entry.ok = true := by\n  simp only [part{g}{i + 1}, List.all_cons, List.all_nil, {", ".join(n + "_ok" for n in p)}, Bool.and_self]\n'
            tabs.append(f'part{g}{i + 1}')
        put(f'Lib/{g}.lean', quote(s + '\nend Cglm.CMem.Lib\n'))
        s = f'/- Generated by tools/safethms.py; do not edit by hand. -/\nimport Verif.Lib.{g}\n'
        s += '''
/-!
# C56: memory safety when the arguments overlap in any way

No theorem here assumes anything about how the arguments lie relative to each other: inputs may be the destination,
or overlap it or each other partly.  Whenever every input is initialised and every destination is writable, the call
is defined, no cell outside the destinations changes, and the destinations end up initialised.
-/

set_option linter.unusedVariables false
set_option linter.unusedSectionVars false

namespace Cglm
open CMem

''' + VARS + '\n'
        for p, names in l:
            s += f'/-! ## {E.gen.rel(p)} -/\n\n' + '\n'.join(thm(E, n) for n in names) + '\n'
            k += len(names)
        put(f'Props/C56Any{g}.lean', quote(s + 'end Cglm\n'))
    print(k, 'theorems')
    s = '/- Generated by tools/safethms.py; do not edit by hand. -/\n' + ''.join(f'import Verif.Lib.{g}\n' for g in G)
    oks = tabs[0] + '_ok'
    for t in tabs[1:]: oks = f'all_ok_append ({oks}) {t}_ok'
    s += f'''
/-!
# All functions of the array interface

{k} functions.  The functions whose arrays have a length given at run time are not here.
-/

namespace Cglm.CMem
open Lib

def lib : List Entry := {" ++ ".join(tabs)}

theorem all_ok_append {{a b : List Entry}} (ha : a.all Entry.ok = true) (hb : b.all Entry.ok = true) : (a ++ b).all Entry.ok = true := by
  rw [List.all_append, ha, hb]
  rfl

/-- the analysis accepts every function -/
theorem lib_ok : lib.all Entry.ok = true :=
  {oks}

end Cglm.CMem
'''
    put('Lib.lean', s)
    E = IEmit()
    s = '/- Generated by tools/safethms.py; do not edit by hand. -/\nimport Verif.CMemIEntry\n' + ''.join(f'import Verif.Mem.{m}\n' for m in dict.fromkeys(E.modn(p) for p in E.byfile))
    s += '''
/-!
# The integer-vector functions with their arguments

Arrays are counted in elements.  The analysis of `CMemISafe` accepts every function.
-/

namespace Cglm.CMem.LibI

'''
    for p, names in E.byfile.items():
        s += f'/-! ## {E.gen.rel(p)} -/\n\n' + ''.join(entry(E, n, True) for n in names) + '\n'
    names = [n for ns in E.byfile.values() for n in ns]
    parts = [names[i:i + 40] for i in range(0, len(names), 40)]
    for i, p in enumerate(parts):
        s += f'def part{i + 1} : List IEntry := [{", ".join(p)}]\ntheorem part{i + 1}_ok : part{i + 1}.all IEntry.ok = true := by\n  simp only [part{i + 1}, List.all_cons, List.all_nil, {", ".join(n + "_ok" for n in p)}, Bool.and_self]\n'
    s += f'''
end LibI

/-- {len(names)} functions -/
def ilib : List IEntry := {" ++ ".join(f"LibI.part{i + 1}" for i in range(len(parts)))}

/-- the analysis accepts every function -/
theorem ilib_ok : ilib.all IEntry.ok = true := by
  simp only [ilib, List.all_append, {", ".join(f"LibI.part{i + 1}_ok" for i in range(len(parts)))}, Bool.and_self]

end Cglm.CMem
'''
    put('Lib/Int.lean', quote(s))
    s = '/- Generated by tools/safethms.py; do not edit by hand. -/\nimport Verif.Lib.Int\n'
    s += '''
/-!
# C56: memory accesses of the integer-vector functions when the arguments overlap in any way

No theorem here assumes anything about how the arguments lie relative to each other.  Whenever every input is initialised
and every destination is writable, the only way for a call to be undefined is an arithmetic operation that overflows or
divides by zero: whatever value such an operation is taken to yield, the call makes no bad access, changes no cell
outside the destinations and initialises these.
-/

set_option linter.unusedVariables false
set_option linter.unusedSectionVars false

namespace Cglm
open CMem

variable {α : Type} [Add α] [Sub α] [Mul α] [Div α] [Neg α] [CFloat α] [CIntConv α]

/-- some arithmetic agrees with C's -/
example : (Arith.zero (α := α)).Agrees := Arith.zero_agrees

'''
    k = 0
    for p, names in E.byfile.items():
        s += f'/-! ## {E.gen.rel(p)} -/\n\n' + '\n'.join(thm(E, n, True) for n in names) + '\n'
        k += len(names)
    put('Props/C56IAny.lean', quote(s + 'end Cglm\n'))
    print(k, 'integer theorems')
