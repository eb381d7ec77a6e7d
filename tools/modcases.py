#!/usr/bin/env python3
"""Read the cases of parseModuleMainLoop, the collectors, the channel capacities and the order
of closing from a2l/module.go and print the Lean table `channels` of Verif/A2l/Module.lean."""
import re
L = open('/repo/a2l/module.go').read().split('\n')
txt = '\n'.join(L)
caps = {m.group(1): (m.group(2), txt[:m.start()].count('\n') + 1)
        for m in re.finditer(r'\b(c[A-Z]\w*) := make\(chan [\w.]+, (\w+)\)', txt)}
coll = {}
for m in re.finditer(r'for elem := range (\w+) \{\n\s*myModule\.(\w+)(\[elem\.(\w+)\])? = (append\([^\n]*\)|elem)\n', txt):
    coll[m.group(1)] = (m.group(2), m.group(4), m.group(5), txt[:m.start()].count('\n') + 2)
close = [m.group(1) for m in re.finditer(r'^\tclose\((\w+)\)$', txt, re.M)]
main = txt[txt.index('func parseModuleMainLoop'):]
off = txt[:txt.index('func parseModuleMainLoop')].count('\n')
cases = {}
for m in re.finditer(r'case (\w+):\n(.*?)(?=\n\t\tcase |\n\t\tdefault:)', main, re.S):
    b = m.group(2)
    p = re.search(r'(buf\w+), err = (parse\w+)\(&tg\)', b)
    s = re.search(r'(c\w+) <- ' + p.group(1) + r'\n', b)
    e = re.search(r'if err != nil \{\n[^\n]*\n\s*cError <- err\n\s*break forLoop\n\s*\}', b)
    assert s and e, m.group(1)
    cases[s.group(1)] = (m.group(1), p.group(2), off + main[:m.start()].count('\n') + 1)
assert len(cases) == 26 and len(coll) == 27 and len(caps) == 27 and len(close) == 27
assert set(close) == set(caps) == set(coll)
for c in close:
    if c == 'cError':
        continue
    tok, par, ln = cases[c]
    f, key, _, cl = coll[c]
    k = 'none' if key is None else f'some "{key}"'
    print(f'  /- module.go:{ln}, {cl}, {caps[c][1]} -/\n  ⟨{tok}, .{par}, "{f}", {k}, {caps[c][0]}⟩,')
