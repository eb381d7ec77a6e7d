"""Keywords of the A2L objects and constants of the enumerations, for the specification of C57 to C59.
The keyword of an object is the name of its parse function in capitals with underscores (ODD lists the
names that are spelled differently in A2L); it is a `/begin` block if keywordMap (a2l/tokens.go) has it as
one (PLAIN: keywords that are missing there). The constants come from the const declarations of
a2l/enums.go, not from the parse functions.  Writes lean/Verif/A2l/KwSpec.lean."""
import re, sys, os
sys.path.insert(0, os.path.dirname(os.path.abspath(__file__)))
import go2lean as g

fs = g.all_funcs(); toks, kws = g.tokens(); kws = {k for k, _ in kws}
ODD = {'A2ML': 'A2ML', 'ConsistentExchangeKeyword': 'CONSISTENT_EXCHANGE', 'TransformerInObject': 'TRANSFORMER_IN_OBJECTS',
       'TransformerOutObject': 'TRANSFORMER_OUT_OBJECTS', 'A2MLVersion': 'A2ML_VERSION', 'ASAP2Version': 'ASAP2_VERSION',
       'AlignmentFloat16Ieee': 'ALIGNMENT_FLOAT16_IEEE', 'AlignmentFloat32Ieee': 'ALIGNMENT_FLOAT32_IEEE',
       'AlignmentFloat64Ieee': 'ALIGNMENT_FLOAT64_IEEE', 'AlignmentInt64': 'ALIGNMENT_INT64'}
PLAIN = {'FIX_AXIS_PAR', 'READ_ONLY', 'READ_WRITE', 'RESERVED', 'VAR_SEPARATOR'}

def snake(n):
    if n in ODD: return ODD[n]
    n = n.replace('TypeDef', 'Typedef')
    n = re.sub(r'([a-z])([A-Z0-9])', r'\1_\2', n)
    n = re.sub(r'([A-Z])([A-Z][a-z])', r'\1_\2', n)
    return n.upper()

def keyword(n):
    k = snake(n[len('parse'):])
    if k in PLAIN: return k
    c = [x for x in ('/begin ' + k, k) if x in kws]
    return c[0] if len(c) == 1 else None

def enums():
    src = open('/repo/a2l/enums.go').read()
    out = []
    for m in re.finditer(r'^type (\w+) string\n\nconst \((.*?)^\)', src, re.S | re.M):
        line = src[:m.start()].count('\n') + 3
        end = src[:m.end()].count('\n') + 1
        cs = re.findall(r'^\t(\w+)\s+' + m[1] + r'\s*=\s*(\S+)', m[2], re.M)
        vals = []
        for name, v in cs:
            v = v.strip('"') if v.startswith('"') else toks[v][0]
            if v: vals.append(v)
        p = [n for n, d in fs.items() if g.is_enum(n) and d['ret'] == m[1]]
        assert len(p) == 1, m[1]
        out.append((m[1], line, end, vals, p[0]))
    return out

def low(n):
    s = n[0].lower() + n[1:-len("Enum")]
    return "objType" if s == "type" else s

def emit():
    names = [n for n in fs if not g.is_enum(n)]
    o = ['import Verif.A2l.PNames', 'import Verif.A2l.Lang', '', '/-!', 'Keywords of the A2L objects and constants of the enumerations (generated by tools/keywords.py).',
         '-/', '', 'namespace Verif.A2l.KwSpec', 'open Verif.Go', '',
         '/-- The token that introduces an object: the name of the parse function in capitals, as a block if', '`keywordMap` (a2l/tokens.go:361-619) has it as one. -/',
         'def keyword : PName → Option Str']
    for n in names:
        k = keyword(n)
        o.append(f'  | .{n} => ' + ('none' if k is None else f'some {g.lean_chars(k)}'))
    o += ['  | .parseModuleMultithreaded => some ' + g.lean_chars('/begin MODULE'), '', '/-- The enumeration types of a2l/enums.go. -/', 'inductive EnumType where']
    es = enums()
    o += [f'  | {low(e[0])}' for e in es] + ['deriving DecidableEq', '']
    o += ['/-- All of them. -/', 'def EnumType.all : List EnumType := [' + ', '.join('.' + low(e[0]) for e in es) + ']', '']
    o += ['/-- The declared constants of the enumeration types, without the empty one for "undefined". -/', 'def EnumType.constants : EnumType → List Str']
    for n, a, b, vs, _ in es:
        o.append(f'  /- a2l/enums.go:{a}-{b} -/')
        o.append(f'  | .{low(n)} => [' + ', '.join(g.lean_chars(v) for v in vs) + ']')
    o += ['', 'end Verif.A2l.KwSpec', '']
    open(g.OUT + '/KwSpec.lean', 'w').write('\n'.join(o))
    print([n for n in names if keyword(n) is None])
    print([(low(e[0]), e[4]) for e in es])
if __name__ == '__main__': emit()
