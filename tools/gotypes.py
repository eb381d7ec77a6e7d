"""The Go struct types of /repo/a2l with all their fields. Writes lean/Verif/A2l/GoTypes.lean."""
import re, sys, os
sys.path.insert(0, os.path.dirname(os.path.abspath(__file__)))
import go2lean as g

fs = g.all_funcs(); st = g.structs()
enums = {d['ret'] for n, d in fs.items() if g.is_enum(n)}
# string types of enums.go
src = open(os.path.join(g.REPO, 'enums.go')).read() if hasattr(g, 'REPO') else open('/repo/a2l/enums.go').read()
enums |= set(re.findall(r'^type (\w+) string', src, re.M))
lc = lambda n: 'T_' + n
other = set()

def ty(t):
    if t == 'string' or t in enums: return '.str'
    if t == 'bool': return '.bool'
    if t == 'float64': return '.float'
    m = re.fullmatch(r'(u?)int(\d*)', t)
    if m: return f"(.{'uint' if m[1] else 'int'} {m[2] or 64})"
    if t in st: return lc(t)
    m = re.fullmatch(r'\[(\d*)\](\w+)', t)
    if m: return f"(.slice {ty(m[2])})" if not m[1] else f"(.array {m[1]} {ty(m[2])})"
    m = re.fullmatch(r'map\[string\](\w+)', t)
    if m: return f"(.dict {ty(m[1])})"
    if t in ('interface{}', 'error', 'map[uint16]string'): other.add(t); return '.other'
    raise SystemExit('type ' + t)

def deps(n):
    for _, t in st[n][3]:
        m = re.sub(r'^\[\d*\]|^map\[string\]', '', t)
        if m in st: yield m

order, seen = [], set()
def visit(n):
    if n in seen: return
    seen.add(n)
    for m in deps(n): visit(m)
    order.append(n)
parsers = {d['ret']: n for n, d in fs.items() if not g.is_enum(n)}
parsers_all = [(n, d['ret']) for n, d in fs.items() if not g.is_enum(n)]
for n, r in parsers_all: visit(r)

out = ['''import Verif.A2l.GoType

/-!
The struct types of package a2l with all their fields, exported or not, in the order of their declarations
(generated by tools/gotypes.py from the struct declarations).
-/

namespace Verif.A2l
open GoType
''']
for n in order:
    f, a, b, flds = st[n]
    body = ', '.join(f'("{x}", {ty(t)})' for x, t in flds)
    lines, cur = [], ''
    for part in re.findall(r'\("[^"]*", (?:\((?:\([^)]*\)|[^()])*\)|[^()])*\)', body):
        if len(cur) + len(part) > 130: lines.append(cur); cur = ''
        cur += part + ', '
    lines.append(cur)
    body = '\n  '.join(l.rstrip() for l in lines).rstrip(',')
    out.append(f'/-- a2l/{f}:{a}-{b} (`type {n} struct`) -/\ndef {lc(n)} : GoType := .struct [{body}]\n')
out.append('/-- The type of the struct that a parse function returns. -/\ndef typeOf : PName → GoType')
parsers_all.append(('parseModuleMultithreaded', 'Module'))
for n, r in parsers_all: out.append(f'  | .{n} => {lc(r)}')
out.append('\nend Verif.A2l\n')
open('/verif/lean/Verif/A2l/GoTypes.lean', 'w').write('\n'.join(out))
print(len(order), 'structs', other)
