"""Writes lean/Verif/Props/C61.lean and C62.lean: one theorem per generated wrapper.  Usage: python3 tools/wrapthms.py"""
import os, re, sys, contextlib, io
sys.path.insert(0, os.path.dirname(os.path.abspath(__file__)))
import gen

# wrappers whose array function has another name: the macro aliases of the headers
ALIAS = {'glms_vec3_flipsign': 'glm_vec3_negate', 'glmc_mat4_inv_precise': 'glm_mat4_inv', 'glmc_vec3_mulv': 'glm_vec3_mul', 'glmc_vec4_mulv': 'glm_vec4_mul'}

# same function, other argument list
SPECIAL = {
 'glms_vec2': 'theorem C61_vec2 (v : V3 α) : glms_vec2 v = glm_vec2 ⟨v.x, v.y⟩ := rfl',
 'glms_vec2_complex_mul': '/-- The third argument, a by-value "destination", is ignored. -/\ntheorem C61_vec2_complex_mul (a b dest : V2 α) : glms_vec2_complex_mul a b dest = glm_vec2_complex_mul a b := rfl',
 'glms_vec2_complex_div': 'theorem C61_vec2_complex_div (a b dest : V2 α) : glms_vec2_complex_div a b dest = glm_vec2_complex_div a b := rfl',
 'glms_vec2_complex_conjugate': 'theorem C61_vec2_complex_conjugate (a dest : V2 α) : glms_vec2_complex_conjugate a dest = glm_vec2_complex_conjugate a := rfl',
}
for sfx in ('', '_lh_no', '_lh_zo', '_rh_no', '_rh_zo'):
    SPECIAL['glms_perspective_resize' + sfx] = ('/-- The struct function takes the matrix first, the array function the aspect ratio. -/\n' if not sfx else '') + \
      f'theorem C61_perspective_resize{sfx} (proj : M4 α) (aspect : α) :\n    glms_perspective_resize{sfx} proj aspect = glm_perspective_resize{sfx} aspect proj := rfl'

def target(n): return ALIAS.get(n) or 'glm_' + n.split('_', 1)[1]

def usesalpha(P, n):
    s = P.sigs[n]
    f = P.ps.fns[n]
    return any(ty.base in ('float', 'double') for _, ty in s.ins) or any(ty.base in ('float', 'double') for _, ty in s.outs) or f.ret.base in ('float', 'double')

def write(cid, title, imp, names, P, text, extra, opn=''):
    s = f'''import Verif.Gen
import Verif.{imp}
import Verif.GenInt

/-!
# {cid}: {title}

Generated by tools/wrapthms.py.  Each theorem equates a generated wrapper with the generated array function of the same
name, as functions, for every scalar type `α`: `float` may be read as `ℝ`, as IEEE binary32 or as anything else with the operations of
`CFloat`.
-/

set_option linter.unusedSectionVars false

namespace Cglm
{opn}
variable {{α : Type}} [Add α] [Sub α] [Mul α] [Div α] [Neg α] [CFloat α]

'''
    miss = []
    for n in names:
        t = target(n)
        if t not in text: miss.append(n); continue
        if n in SPECIAL: s += SPECIAL[n] + '\n'; continue
        a = ' (α := α)' if usesalpha(P, n) else ''
        s += f'theorem {cid}_{n.split("_", 1)[1]} : {n}{a} = {t} := rfl\n'
    print(cid, len(names), 'missing', miss)
    s += extra + '\nend Cglm\n'
    open(os.path.join(gen.OUT, f'../Props/{cid}.lean'), 'w').write(s)

if __name__ == '__main__':
    ps, P, (text, skip, al) = gen.wrappers()
    P.ps = ps
    st = [n for n in text if gen.isstruct(ps.fns[n].file)]
    sc = [n for n in text if gen.issrc(ps.fns[n].file)]
    ip, IP, (it, _, _) = gen.integers()
    def ints(cid, names):
        r = '\nend Cglm\n\nnamespace Cglm.I\n\nvariable {α : Type} [Add α] [Sub α] [Mul α] [Div α] [Neg α] [CFloat α] [CIntConv α]\n\n'
        for n in names:
            a = ' (α := α)' if 'α' in it[n] else ''
            r += f'theorem {cid}_{n.split("_", 1)[1]} : {n}{a} = {target(n)}{a} := rfl\n'
        return r + '\nend Cglm.I\n\nnamespace Cglm\n'
    write('C61', 'the struct API equals the array API', 'GenStruct', st, P, text, ints('C61', [n for n in it if gen.isstruct(ip.fns[n].file)]))
    write('C62', 'the compiled-call API equals the inline API', 'GenCall', sc, P, text, ints('C62', [n for n in it if gen.issrc(ip.fns[n].file)]))
