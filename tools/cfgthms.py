"""Writes lean/Verif/Props/C68.lean.  Usage: python3 tools/cfgthms.py"""
import os, sys, re
sys.path.insert(0, os.path.dirname(os.path.abspath(__file__)))
import gen, wrapthms

def variant(n, hand, depth, text):
    for s in (f'_{hand}_{depth}', f'_{depth}', f'_{hand}'):
        if n + s in text: return n + s

def sp(n): return n in wrapthms.SPECIAL

if __name__ == '__main__':
    r = gen.config_mods()
    base = gen.wrappers()
    r = {'RhNo': (base[0], base[1], base[2][0], set()), **r}
    s = '''import Verif.Gen
import Verif.GenStruct
import Verif.GenCall
import Verif.Gen.CfgRhZo
import Verif.Gen.CfgLhNo
import Verif.Gen.CfgLhZo

/-!
# C68: clip-control dispatch

Generated by tools/cfgthms.py.  The model is generated once per configuration: `Cglm` is the default (right-handed, depth -1..1),
`Cglm.RhZo`, `Cglm.LhNo` and `Cglm.LhZo` hold the functions that come out differently when `CGLM_FORCE_DEPTH_ZERO_TO_ONE`
and `CGLM_FORCE_LEFT_HANDED` are defined.  Each theorem says that the generic function is the variant of the configuration.
Generic functions that are the same in all configurations are covered too (they equal every variant).
-/

set_option linter.unusedSectionVars false

namespace Cglm

variable {α : Type} [Add α] [Sub α] [Mul α] [Div α] [Neg α] [CFloat α]

'''
    for cfg, (ps, P, text, names) in r.items():
        hand, depth = cfg[:2].lower(), cfg[2:].lower()
        ns = f'{cfg}.' if cfg != 'RhNo' else ''
        s += f'/-! ## {"right" if hand == "rh" else "left"}-handed, depth {"-1..1" if depth == "no" else "0..1"} -/\n\n'
        other = []
        for n in text:
            if n.endswith(('_lh', '_rh', '_no', '_zo')) or n == 'glm_clamp': continue
            v = variant(n, hand, depth, text)
            if v:
                if v.replace('_' + hand, '').replace('_' + depth, '') != n: print('?', n, v)
                s += f'theorem C68_{cfg}_{n} : {ns if n in names else ""}{n} (α := α) = {v} := rfl\n'
            elif n in names: other.append(n)
        print(cfg, 'callers', other)
        for n in other:
            if n.startswith('glm_') or n.endswith('_unproject'): continue
            t = wrapthms.target(n)
            q = lambda m: (ns if m in names else '') + m
            if sp(n) or t not in text: print('special', n); continue
            s += f'theorem C68_{cfg}_{n} : {q(n)} (α := α) = {q(t)} := rfl\n'
        for a in ('glm_unproject', 'glms_unproject', 'glmc_unproject'):
            q = (ns if a in names else '') + a
            s += f'theorem C68_{cfg}_{a} (pos : V3 α) (m : M4 α) (vp : V4 α) :\n    {q} pos m vp = glm_unprojecti_{depth} pos (glm_mat4_inv m) vp := rfl\n'
        s += '\n'
    s += 'end Cglm\n'
    open(os.path.join(gen.OUT, '../Props/C68.lean'), 'w').write(s)
