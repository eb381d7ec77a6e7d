"""Declared shape of every A2L object, read off the Go struct declarations of /repo/a2l:
a field followed by a bool field `...Set` is a positional parameter, `[]T` after the last one
a list of parameters, every other field belongs to an optional keyword whose parser returns
that type.  Writes lean/Verif/A2l/Decls.lean."""
import re, sys, os
sys.path.insert(0, os.path.dirname(os.path.abspath(__file__)))
import go2lean as g

fs = g.all_funcs(); st = g.structs(); toks, kws = g.tokens(); bk = g.block_keywords()
val2tok = {}
for t, (v, _) in toks.items(): val2tok.setdefault(v, t)
enumparser = {d['ret']: n for n, d in fs.items() if g.is_enum(n)}
ERR = [('ite', ('errNe',), [('brk',)], [])]
ERR1 = [('ite', ('errNe',), [], [])]
FREETEXT = {'parseA2ML', 'parseAnnotationText'}     # the text up to the end token
RAW = {'parseA2ML', 'parseIfData'}                  # content of a foreign language

def kind(t):
    m = re.fullmatch(r'(u?int)(\d+)', t)
    if m: return (m[1], int(m[2]))
    if t == 'string': return ('str',)
    if t == 'float64': return ('float',)
    if t in enumparser: return ('enum', enumparser[t])
    return None

def declared(n):
    fields = st[fs[n]['ret']][3]
    pos, opt, i = [], [], 0
    skip = {x + 'Uint32' for x, _ in fields}        # derived later, not read from the file
    fields = [(x, t) for x, t in fields if x not in skip and t != 'interface{}']
    while i < len(fields):
        nm, t = fields[i]
        if i + 1 < len(fields) and fields[i+1][1] == 'bool' and fields[i+1][0].lower().endswith('set'):
            pos.append((nm, t, fields[i+1][0])); i += 2
        else:
            opt.append((nm, t)); i += 1
    # a flag without a field before it (its field was dropped above)
    opt = [(x, t) for x, t in opt if not (t == 'bool' and x.lower().endswith('set'))]
    return pos, opt

def subs_of(n, opt, pos):
    """keyword -> (parser or enum parser): from the call sites; the field by its type"""
    out, maps = [], []
    for x, t in opt:
        m = re.fullmatch(r'map\[string\]\*?(\w+)', t)
        if m: maps.append(x)
    for t, b in g.switch_cases(fs[n]['ast']):
        c = [s for s in b if s[0] in ('callBuf', 'callField')]
        if len(c) != 1: return None, None
        q = c[0][1] if c[0][0] == 'callBuf' else c[0][2]
        ret = fs[q]['ret']
        f = [(x, 'field') for x, ty in opt if ty == ret] + [(x, 'append') for x, ty in opt if ty == '[]' + ret] + \
            [(x, 'map') for x, ty in opt if ty == f'map[string]{ret}']
        if len(f) != 1: return None, None
        out.append((t, q, f[0][0], f[0][1]))
    return out, maps

def namefield(q):
    """the name of the object: its first positional parameter"""
    return declared(q)[0][0][0]

def shape(n):
    ast = fs[n]['ast']
    pos, opt = declared(n)
    if n in bk or n == 'parseModule':
        ps, rest = [], None
        for i, (x, t, fl) in enumerate(pos):
            if t.startswith('[]'):
                k = kind(t[2:])
                if i + 1 != len(pos) or k is None: return None
                rest = ('list', x, fl, k)
            elif n in FREETEXT: rest = ('text', x, fl)
            elif kind(t) is None: return None
            else: ps.append((x, fl, kind(t)))
        subs, maps = subs_of(n, opt, pos)
        if subs is None: return None
        return ('block', ps, rest, subs, maps, n in RAW)
    if opt == [] and len(pos) == 1 and pos[0][1] == 'bool':
        return ('keyword', pos[0][0], pos[0][2])
    ps = []
    for x, t, fl in pos:
        if kind(t) is None: return None
        ps.append((x, fl, kind(t)))
    if opt or not ps: return None
    if len(ps) == 1: return ('one', ps[0])
    return ('seq', ps)

def load(f, k, err):
    if k[0] == 'str': return [('storeCur', f)]
    if k[0] == 'enum': return [('callField', f, k[1])] + err
    if k[0] == 'float': return [('conv', 'float')] + err + [('store', f, None)]
    return [('conv',) + k] + err + [('store', f, k)]

def add(f, k):
    if k[0] == 'str': return [('appendCur', f)]
    if k[0] == 'float': return [('conv', 'float')] + ERR + [('append', f, None)]
    if k[0] == 'enum': return None
    return [('conv',) + k] + ERR + [('append', f, k)]

def chain(l):
    return [] if not l else [('ite', l[0][0], l[0][1], chain(l[1:]))]

def template(n, s):
    if s[0] == 'keyword':
        return [('ite', ('unset', s[2]), [('setTrue', s[1]), ('setTrue', s[2])], [])]
    if s[0] == 'one':
        f, fl, k = s[1]
        return [('next',)] + chain([(('curIs', 'emptyToken'), [('setErr',)]), (('curKw',), [('setErr',)]),
                                    (('unset', fl), load(f, k, ERR1) + [('setTrue', fl)])])
    if s[0] == 'seq':
        c = [(('curIs', 'emptyToken'), [('setErr',), ('brk',)]), (('curKw',), [('setErr',), ('brk',)])]
        for i, (f, fl, k) in enumerate(s[1]):
            c.append((('unset', fl), load(f, k, ERR) + [('setTrue', fl)] + ([('brk',)] if i + 1 == len(s[1]) else [])))
        return [('loop', [('next',)] + chain(c))]
    _, ps, rest, subs, maps, raw = s
    kw = bk.get(n) or 'MODULE'
    c = [(('curIs', 'emptyToken'), [('setErr',), ('brk',)]),
         (('curIs', val2tok['/end ' + kw]), ([('setTrue', rest[2])] if rest else []) + [('brk',)])]
    if not raw: c.append((('curKw',), [('setErr',), ('brk',)]))
    for f, fl, k in ps: c.append((('unset', fl), load(f, k, ERR) + [('setTrue', fl)]))
    if rest:
        c.append((('unset', rest[2]), add(rest[1], rest[3]) if rest[0] == 'list' else [('concatCur', rest[1])]))
    cs = []
    for t, q, f, m in subs:
        if m == 'field': cs.append((t, [('callField', f, q)] + ERR))
        elif m == 'append': cs.append((t, [('callBuf', q)] + ERR + [('append', f, None)]))
        else: cs.append((t, [('callBuf', q)] + ERR + [('mapInsert', f, namefield(q))]))
    body = [('next',), ('switch', 'retIs', cs, chain(c))] if cs else [('next',)] + chain(c)
    return [('mapInit', x) for x in maps] + [('loop', body)]

names = [n for n in fs if not g.is_enum(n)]
SH = {n: shape(n) for n in names}
regular = [n for n in names if SH[n] and template(n, SH[n]) == fs[n]['ast']]

def lk(k):
    if k[0] in ('str', 'float'): return '.' + k[0]
    if k[0] == 'enum': return f'(.enum {k[1]})'
    return f'(.{k[0]} {k[1]})'
def lp(p): return f'⟨"{p[0]}", "{p[1]}", {lk(p[2])}⟩'
def lsub(s):
    t, q, f, m = s
    if g.is_enum(q): r = f'.enum {q} "{f}"'
    else:
        mode = {'field': '.field', 'append': '.append'}.get(m) or f'(.byName "{namefield(q)}")'
        r = f'.obj .{q} "{f}" {mode}'
    return f'    ({g.lean_chars(toks[t][0])}, {r})'
def lshape(n):
    s = SH[n]
    if s is None: return '.other'
    if s[0] == 'keyword': return f'.keyword "{s[1]}" "{s[2]}"'
    if s[0] == 'one': return f'.one {lp(s[1])}'
    if s[0] == 'seq': return '.seq [' + ', '.join(lp(p) for p in s[1]) + ']'
    _, ps, rest, subs, maps, raw = s
    r = '.none' if rest is None else f'(.list "{rest[1]}" "{rest[2]}" {lk(rest[3])})' if rest[0] == 'list' else f'(.text "{rest[1]}" "{rest[2]}")'
    out = f'.block {"true" if raw else "false"}\n    [' + ',\n     '.join(lp(p) for p in ps) + f']\n    {r}\n    [' + ',\n '.join(lsub(x) for x in subs).strip() + ']\n    [' + ', '.join(f'"{x}"' for x in maps) + ']'
    return out

def emit():
    o = ['import Verif.A2l.Decl', '', '/-!',
         'The declared shape of the A2L objects, read off the struct declarations of a2l/*.go by',
         'tools/decls.py (not off the parse functions; only which keyword starts which optional',
         'object comes from the call sites).', '-/', '', 'namespace Verif.A2l.Decl', 'open Verif.Go Verif.A2l', '',
         '/-- The declared shape of the object a parse function reads. `.other`: the declaration is',
         'not of one of the four forms. -/', 'def shape : PName → Shape']
    for n in names:
        f, a, b, _ = st[fs[n]['ret']]
        o.append(f'  /- struct {fs[n]["ret"]}, a2l/{f}:{a}-{b} -/')
        o.append(f'  | .{n} => {lshape(n)}')
    o += ['  | .parseModuleMultithreaded => .other', '', 'end Verif.A2l.Decl']
    open(g.OUT + '/Decls.lean', 'w').write('\n'.join(o) + '\n')

if __name__ == '__main__':
    print(len(regular), 'regular;', 'irregular:')
    for n in names:
        if n not in regular: print('  ', n, 'other' if SH[n] is None else SH[n])
    emit()
