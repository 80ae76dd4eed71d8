"""Regenerates lean/Verif/Gen/*.lean from the headers in /repo.  Usage: python3 tools/gen.py [names to print]"""
import sys, os, re, collections, glob
sys.path.insert(0, os.path.dirname(os.path.abspath(__file__)))
import cfront, pure, intpure

INC = '/repo/include/cglm/'
OUT = os.path.join(os.path.dirname(os.path.abspath(__file__)), '../lean/Verif/Gen/')
SKIPFILES = ('ivec2.h', 'ivec3.h', 'ivec4.h', 'io.h')

def translate_all(ps, P, fns):
    """translate in rounds until nothing more succeeds"""
    text, skip, al = {}, {}, {}
    todo = list(fns)
    while todo:
        nxt, prog = [], False
        for f in todo:
            try:
                text[f.name] = P.translate(f); al[f.name] = P.aliased; P.nulls = getattr(P, 'nulls', set()) | ({f.name} if P.nulltest else set()); prog = True
            except pure.Skip as ex:
                if str(ex).startswith('callee'): nxt.append((f, str(ex)))
                else: skip[f.name] = str(ex)
        todo = [f for f, _ in nxt]
        if not prog:
            for f, s in nxt: skip[f.name] = s
            break
    return text, skip, al

def modname(path):
    b = path[len(INC):-2] if path.startswith(INC) else path[len('/repo/'):-2]
    return ''.join(w[:1].upper() + w[1:] for w in re.split(r'[-_/.]', b))

HEAD = """/- Generated from {src} by tools/gen.py (value semantics); do not edit by hand. -/
{imports}

set_option linter.unusedVariables false
set_option linter.unusedSectionVars false

namespace {ns}

variable {{α : Type}} [Add α] [Sub α] [Mul α] [Div α] [Neg α] [CFloat α]{extra}

"""

def rel(f): return f[len('/repo/'):]

def doc(f, nulls=()):
    x = '  Simplified: optional output pointers are taken to be non-NULL.' if f.name in nulls else ''
    return f'/-- `{f.name}`: {rel(f.file)}:{f.l0}-{f.l1}.{x} -/'

def emit(ps, text, nulls=(), ns='Cglm', sub='', filt=lambda p: True, base=('Verif.Base', 'Verif.Attr'), attr='cglm', extra=''):
    byfile = collections.OrderedDict()
    for n, f in ps.fns.items():
        if n in text and filt(f.file): byfile.setdefault(f.file, []).append(n)
    for path, ns_ in byfile.items():
        names = [n for n in text if n in ns_]      # translation order = dependency order
        deps = []
        for n in names:
            for m in re.findall(r'\bglm[msc]?_\w+', text[n]):
                if m in text and ps.fns[m].file != path and ps.fns[m].file not in deps: deps.append(ps.fns[m].file)
        imps = ['import ' + b for b in base] + [f'import Verif.Gen.{sub}{modname(d)}' for d in sorted(deps, key=modname)]
        s = HEAD.format(src=rel(path), imports='\n'.join(imps), ns=ns, extra=extra)
        for n in names: s += doc(ps.fns[n], nulls) + f'\n@[{attr}]\n' + text[n] + '\n'
        s += f'end {ns}\n'
        p = OUT + sub.replace('.', '/') + modname(path) + '.lean'
        os.makedirs(os.path.dirname(p), exist_ok=True)
        old = open(p).read() if os.path.exists(p) else None
        if old != s: open(p, 'w').write(s)
    return [sub + modname(p) for p in byfile]

def scalar():
    ps, pp = cfront.load([INC + 'cglm.h', INC + 'handed/euler_to_quat_lh.h'], {'CGLM_CLIPSPACE_INCLUDE_ALL': '1'})
    P = pure.Pure(ps, {})
    fns = [f for f in ps.fns.values() if os.path.basename(f.file) not in SKIPFILES]
    return ps, P, translate_all(ps, P, fns)

def everything(defs={}):
    """the array API, the struct API and the compiled-call API in one translation unit"""
    srcs = sorted(glob.glob('/repo/src/*.c')) + sorted(glob.glob('/repo/src/clipspace/*.c'))
    return cfront.load([INC + 'cglm.h', INC + 'handed/euler_to_quat_lh.h', INC + 'struct.h', INC + 'struct/aabb2d.h'] + srcs, {'CGLM_CLIPSPACE_INCLUDE_ALL': '1', **defs})[0]

def wrappers(defs={}):
    ps = everything(defs)
    P = pure.Pure(ps, {})
    fns = [f for f in ps.fns.values() if os.path.basename(f.file)[:-2] + '.h' not in SKIPFILES]
    return ps, P, translate_all(ps, P, fns)

def integers():
    ps = everything()
    P = intpure.IntPure(ps, {})
    fns = [f for f in ps.fns.values() if os.path.basename(f.file)[:-2] in ('ivec2', 'ivec3', 'ivec4') or f.name in ('glm_imin', 'glm_imax', 'glm_sign')]
    return ps, P, translate_all(ps, P, fns)

def isstruct(p): return p.startswith(INC + 'struct/')
def issrc(p): return p.startswith('/repo/src/')

CONFIGS = {'RhZo': {'CGLM_FORCE_DEPTH_ZERO_TO_ONE': '1'}, 'LhNo': {'CGLM_FORCE_LEFT_HANDED': '1'},
           'LhZo': {'CGLM_FORCE_DEPTH_ZERO_TO_ONE': '1', 'CGLM_FORCE_LEFT_HANDED': '1'}}

def affected(text, base):
    """functions whose translation changes with the configuration, and their transitive callers"""
    aff = {n for n in text if text[n] != base.get(n)}
    while True:
        new = {n for n in text if n not in aff and any(m in aff for m in re.findall(r'\bglm[sc]?_\w+', text[n].split(':=', 1)[1]))}
        if not new: return aff
        aff |= new

def config_mods():
    _, _, (base, _, _) = wrappers()
    r = {}
    for cfg, defs in CONFIGS.items():
        ps, P, (text, skip, al) = wrappers(defs)
        names = affected(text, base)
        r[cfg] = (ps, P, text, names)
        deps = {ps.fns[m].file for n in names for m in re.findall(r'\bglm[sc]?_\w+', text[n]) if m in text and m not in names}
        imps = ['import Verif.Base', 'import Verif.Attr'] + sorted(f'import Verif.Gen.{modname(d)}' for d in deps)
        s = HEAD.format(src=f'the headers and src with {", ".join(defs)} defined (functions that differ from the default configuration)', imports='\n'.join(imps), ns='Cglm.' + cfg, extra='')
        for n in text:
            if n in names: s += doc(ps.fns[n], P.nulls) + f'\n@[cglm]\n' + text[n] + '\n'
        s += f'end Cglm.{cfg}\n'
        p = OUT + f'Cfg{cfg}.lean'
        if not os.path.exists(p) or open(p).read() != s: open(p, 'w').write(s)
        print(cfg, len(names), 'functions')
    return r

def index(name, mods):
    s = '/- Generated by tools/gen.py. -/\n' + ''.join(f'import Verif.Gen.{m}\n' for m in sorted(mods))
    p = OUT + f'../{name}.lean'
    if not os.path.exists(p) or open(p).read() != s: open(p, 'w').write(s)

def wrapper_mods():
    ps, P, (text, skip, al) = wrappers()
    ms = emit(ps, text, P.nulls, filt=isstruct); index('GenStruct', ms)
    mc = emit(ps, text, P.nulls, filt=issrc); index('GenCall', mc)
    for k, v in skip.items():
        if isstruct(ps.fns[k].file) or issrc(ps.fns[k].file): print('not generated:', k, ':', v)
    print(sum(isstruct(ps.fns[n].file) for n in text), 'struct and', sum(issrc(ps.fns[n].file) for n in text), 'call functions')
    ps, P, (text, skip, al) = integers()
    mi = emit(ps, text, P.nulls, ns='Cglm.I', sub='I', base=('Verif.I32', 'Verif.Attr'), attr='cglmi', extra=' [CIntConv α]'); index('GenInt', mi)
    for k, v in skip.items(): print('not generated:', k, ':', v)
    print(len(text), 'integer functions')

if __name__ == '__main__':
    ps, P, (text, skip, al) = scalar()
    mods = emit(ps, text, P.nulls)
    index('Gen', mods)
    print(len(text), 'functions in', len(mods), 'modules')
    for k, v in skip.items(): print('not generated:', k, ':', v)
    wrapper_mods()
    config_mods()
    c = collections.Counter(x for l in al.values() for x in l)
    if '-a' in sys.argv:
        for k, v in sorted(c.items()): print('overlapping call', k, v)
    for k in sys.argv[1:]:
        if k in text: print(text[k])
