"""Translate the parse functions of /repo/a2l into terms of the statement language of
lean/Verif/A2l/Lang.lean.  Only reads /repo as text.  Every line of every parse function
must be understood; an unknown line stops the script."""
import re, glob, os, sys

REPO = '/repo/a2l'
SKIP_FUNCS = {'ParseFromFile', 'parseModuleMultithreaded', 'parseModuleMainLoop'}

def read(f):
    return open(os.path.join(REPO, f), encoding='utf-8').read().split('\n')

# ---------------------------------------------------------------- tokens.go
def tokens():
    toks, kws = {}, []
    lines = read('tokens.go')
    inmap = False
    for n, l in enumerate(lines, 1):
        m = re.match(r'(?:const )?\s*(\w+Token)\s*=\s*"((?:[^"\\]|\\.)*)"', l)
        if not m:
            m = re.match(r'(?:const )?\s*(\w+Token)\s*=\s*`([^`]*)`', l)
        if m:
            toks[m[1]] = (m[2], n)
        if 'keywordMap' in l:
            inmap = True
        elif inmap:
            m = re.match(r'\s*"([^"]*)":', l)
            if m:
                kws.append((m[1], n))
    return toks, kws

# ---------------------------------------------------------------- function bodies
class Line:
    def __init__(s, n, t): s.n, s.t = n, t

def functions():
    """yield (file, name, rettype, [Line]) for each func parseX(tok *tokenGenerator)"""
    for path in sorted(glob.glob(REPO + '/*.go')):
        f = os.path.basename(path)
        if f.endswith('_test.go'): continue
        lines = read(f)
        i = 0
        while i < len(lines):
            m = re.match(r'func (parse\w+)\(tok \*tokenGenerator\) \((\w+), error\) \{', lines[i])
            if m and m[1] not in SKIP_FUNCS:
                j = i + 1
                while lines[j] != '}': j += 1
                body = []
                for k in range(i + 1, j):
                    t = lines[k].strip()
                    t = re.sub(r'\s*//.*$', '', t) if '"' not in t else t
                    if t == '' or t.startswith('//') or t.startswith('log.'): continue
                    body.append(Line(k + 1, t))
                yield f, m[1], m[2], i + 1, j + 1, body
                i = j
            i += 1

class P:
    def __init__(self, f, name, body):
        self.f, self.name, self.b, self.i = f, name, body, 0
        self.obj = None; self.lastbuf = None
    def err(self, msg=''):
        l = self.b[self.i] if self.i < len(self.b) else Line(0, 'EOF')
        sys.exit(f'{self.f}:{l.n}: {self.name}: cannot translate: {l.t!r} {msg}')
    def peek(self): return self.b[self.i].t if self.i < len(self.b) else None
    def pop(self):
        t = self.b[self.i].t; self.i += 1; return t
    def top(self):
        out = []
        if self.peek() == 'var err error': self.pop()
        m = re.match(r'(\w+) := (\w+)(\{\})?$', self.pop())
        if not m: self.i -= 1; self.err()
        self.obj = m[1]; self.init = m[2] + (m[3] or '')
        while True:
            t = self.peek()
            if t is None: self.err('no return')
            if t == 'var err error': self.pop(); continue
            m = re.match(r'return (\w+), err$', t)
            if m and m[1] == self.obj:
                self.pop()
                if self.peek() is not None: self.err('code after return')
                return out
            out += self.stmt()
    def block(self):
        """statements up to the closing brace line (which is left)"""
        out = []
        while not self.peek().startswith('}') and not re.match(r'(case .*|default):$', self.peek()):
            out += self.stmt()
        return out
    def cond(self, c):
        o = re.escape(self.obj)
        m = re.fullmatch(r'tok\.current\(\) == (\w+)', c)
        if m: return ('curIs', m[1])
        m = re.fullmatch(r'tok\.current\(\) == (\w+) \|\| tok\.current\(\) == (\w+)', c)
        if m: return ('or', ('curIs', m[1]), ('curIs', m[2]))
        if c == 'isKeyword(tok.current())': return ('curKw',)
        if c == 'err != nil': return ('errNe',)
        m = re.fullmatch(r'uint16\(len\(' + o + r'\.(\w+)\)\) == ' + o + r'\.(\w+)', c)
        if m: return ('len16Is', m[1], m[2])
        m = re.fullmatch(r'len\(' + o + r'\.(\w+)\) == (\d+)', c)
        if m: return ('lenIs', m[1], int(m[2]))
        parts = c.split(' || ')
        fs = []
        for p in parts:
            m = re.fullmatch(r'!' + o + r'\.(\w+)', p)
            if not m: self.err('cond ' + c)
            fs.append(m[1])
        r = ('unset', fs[-1])
        for x in reversed(fs[:-1]): r = ('or', ('unset', x), r)
        return r
    def ifrest(self):
        """after the condition line: then-block, and else"""
        a = self.block()
        t = self.pop()
        if t == '}': return a, []
        if t == '} else {':
            b = self.block()
            if self.pop() != '}': self.i -= 1; self.err()
            return a, b
        m = re.fullmatch(r'\} else if (.*) \{', t)
        if not m: self.i -= 1; self.err()
        c = self.cond(m[1])
        x, y = self.ifrest()
        return a, [('ite', c, x, y)]
    def stmt(self):
        t = self.pop(); o = re.escape(self.obj)
        if t == 'tok.next()': return [('next',)]
        if t == 'tok.previous()': return [('prev',)]
        if t == 'break forLoop': return [('brk',)]
        if re.fullmatch(r'var buf\w* \S+', t): return []
        if re.match(r'err = errors\.New\(', t): return [('setErr',)]
        if t == 'forLoop:':
            if self.pop() != 'for {': self.i -= 1; self.err()
            b = self.block()
            if self.pop() != '}': self.i -= 1; self.err()
            return [('loop', b)]
        m = re.fullmatch(r'for i := 0; i < (\d+); i\+\+ \{', t)
        if m:
            m2 = re.fullmatch(o + r'\.(\w+)\[i\] = tok\.current\(\)', self.pop())
            if not m2 or self.pop() != '}': self.i -= 1; self.err()
            return [('storeArr', m2[1], int(m[1]))]
        m = re.fullmatch(r'if tok\.next\(\) != emptyToken \{', t)
        if m:
            a, b = self.ifrest()
            return [('next',), ('ite', ('retIs', 'emptyToken'), b, a)]
        m = re.fullmatch(r'if useMultithreading \{', t)
        if m:
            a, b = self.ifrest()
            return [('ite', ('multi',), a, b)]
        m = re.fullmatch(r'if (.*) \{', t)
        if m:
            c = self.cond(m[1])
            a, b = self.ifrest()
            return [('ite', c, a, b)]
        m = re.fullmatch(r'switch tok\.(next|current)\(\) \{', t)
        if m:
            kind = 'retIs' if m[1] == 'next' else 'curIs'
            cases, dflt = [], []
            while True:
                t = self.pop()
                if t == '}': break
                m2 = re.fullmatch(r'case (\w+|"[^"]*"):', t)
                if m2: cases.append((m2[1], self.block())); continue
                if t == 'default:': dflt = self.block(); continue
                self.i -= 1; self.err()
            pre = [('next',)] if m[1] == 'next' else []
            return pre + [('switch', kind, cases, dflt)]
        m = re.fullmatch(r'buf, err = strconv\.Parse(Uint|Int)\(tok\.current\(\), 10, (\d+)\)', t)
        if m: return [('conv', m[1].lower(), int(m[2]))]
        m = re.fullmatch(r'buf, err = strconv\.ParseFloat\(tok\.current\(\), 64\)', t)
        if m: return [('conv', 'float')]
        m = re.fullmatch(r'buf, err = strconv\.ParseFloat\(tok\.next\(\), 64\)', t)
        if m: return [('next',), ('convRet', 'float')]
        m = re.fullmatch(r'(buf\w*), err = (parse\w+)\(tok\)', t)
        if m:
            self.lastbuf = m[1]
            return [('callBuf', m[2])]
        m = re.fullmatch(o + r'\.(\w+), err = (parse\w+)\(tok\)', t)
        if m: return [('callField', m[1], m[2])]
        m = re.fullmatch(o + r'\.(\w+) = (uint|int)(\d+)\(buf\)', t)
        if m: return [('store', m[1], (m[2], int(m[3])))]
        m = re.fullmatch(o + r'\.(\w+) = buf', t)
        if m: return [('store', m[1], None)]
        m = re.fullmatch(o + r'\.(\w+) = true', t)
        if m: return [('setTrue', m[1])]
        m = re.fullmatch(o + r'\.(\w+) = tok\.current\(\)', t)
        if m: return [('storeCur', m[1])]
        m = re.fullmatch(o + r'\.(\w+) = append\(' + o + r'\.(\w+), buf\)', t)
        if m and m[1] == m[2]: return [('append', m[1], None)]
        m = re.fullmatch(o + r'\.(\w+) = append\(' + o + r'\.(\w+), (uint|int)(\d+)\(buf\)\)', t)
        if m and m[1] == m[2]: return [('append', m[1], (m[3], int(m[4])))]
        m = re.match(o + r'\.(\w+) = append\(' + o + r'\.(\w+), tok\.current\(\)\)(\s*//.*)?$', t)
        if m and m[1] == m[2]: return [('appendCur', m[1])]
        m = re.fullmatch(o + r'\.(\w+)\[(buf\w*)\.(\w+)\] = (buf\w*)', t)
        if m:
            # several buffers exist in parseModule; each is used right after the call that fills it
            if not (m[2] == m[4] == self.lastbuf): self.i -= 1; self.err('buffer')
            return [('mapInsert', m[1], m[3])]
        m = re.fullmatch(o + r'\.(\w+) = make\(map\[string\]\*?\w+(, \d+)?\)', t)
        if m: return [('mapInit', m[1])]
        m = re.fullmatch(o + r'\.(\w+) = ' + o + r'\.(\w+) \+ spaceToken \+ tok\.current\(\)', t)
        if m and m[1] == m[2]: return [('concatCur', m[1])]
        m = re.fullmatch(o + r'\.(\w+) = ([A-Z]\w+)', t)
        if m: return [('storeConst', m[1], m[2])]
        m = re.fullmatch(self.obj + r' = (\w+)', t)
        if m: return [('result', m[1])]
        self.i -= 1
        self.err()

def all_funcs():
    out = {}
    for f, name, ret, a, b, body in functions():
        p = P(f, name, body)
        ast = p.top()
        out[name] = dict(file=f, name=name, ret=ret, a=a, b=b, ast=ast, init=p.init)
    return out


# ---------------------------------------------------------------- enums and structs
def enum_consts():
    """name of the Go constant -> value (a token string)"""
    toks, _ = tokens()
    out = {}
    for l in read('enums.go'):
        m = re.match(r'\s*(\w+)\s+\w+Enum\s*=\s*(\w+|"[^"]*")\s*$', l)
        if m:
            out[m[1]] = m[2][1:-1] if m[2].startswith('"') else toks[m[2]][0]
    return out

def structs():
    """type name -> (file, first line, last line, [(field, type)])"""
    out = {}
    for path in sorted(glob.glob(REPO + '/*.go')):
        f = os.path.basename(path)
        if f.endswith('_test.go'): continue
        lines = read(f)
        i = 0
        while i < len(lines):
            m = re.match(r'type (\w+) struct \{$', lines[i])
            if m:
                j = i + 1; fields = []; incomment = False
                while lines[j] != '}':
                    t = lines[j].strip()
                    if incomment:
                        if '*/' in t: incomment = False
                    elif t.startswith('/*'):
                        if '*/' not in t: incomment = True
                    else:
                        m2 = re.match(r'(\w+)\s+(\S+)', t)
                        if m2 and not t.startswith('//'): fields.append((m2[1], m2[2]))
                    j += 1
                out[m[1]] = (f, i + 1, j + 1, fields)
                i = j
            i += 1
    return out

# ---------------------------------------------------------------- Lean output
def tokname(t):
    return t

def lean_cond(c):
    k = c[0]
    if k in ('curIs', 'retIs'): return f'(.{k} {c[1]})'
    if k in ('curKw', 'errNe', 'multi'): return f'.{k}'
    if k == 'unset': return f'(.unset "{c[1]}")'
    if k == 'len16Is': return f'(.len16Is "{c[1]}" "{c[2]}")'
    if k == 'lenIs': return f'(.lenIs "{c[1]}" {c[2]})'
    if k == 'or': return f'(.or {lean_cond(c[1])} {lean_cond(c[2])})'
    raise Exception(c)

def lean_cast(c):
    return '.same' if c is None else f'(.{c[0]} {c[1]})'

def lean_conv(c):
    return '.float' if c[0] == 'float' else f'(.{c[0]} {c[1]})'

def lean_blk(b, ind):
    if not b: return 'blk []'
    parts = [lean_stmt(x, ind + 2) for x in b]
    one = 'blk [' + ', '.join(parts) + ']'
    if '\n' not in one and len(one) + ind < 96: return one
    pad = ' ' * (ind + 2)
    return 'blk [\n' + ',\n'.join(pad + p for p in parts) + ']'

def lean_stmt(s, ind):
    k = s[0]
    if k in ('next', 'prev', 'brk', 'setErr'): return '.' + k
    if k in ('setTrue', 'storeCur', 'appendCur', 'concatCur', 'mapInit'): return f'.{k} "{s[1]}"'
    if k == 'storeArr': return f'.storeArr "{s[1]}" {s[2]}'
    if k == 'storeConst': return f'.storeConst "{s[1]}" Const.{s[2]}'
    if k in ('conv', 'convRet'): return f'.{k} {lean_conv(s[1:])}'
    if k in ('store', 'append'): return f'.{k} "{s[1]}" {lean_cast(s[2])}'
    if k == 'mapInsert': return f'.mapInsert "{s[1]}" "{s[2]}"'
    if k == 'callBuf': return f'.callBuf .{s[1]}'
    if k == 'callField':
        if s[2].endswith('Enum'): return f'.enumField "{s[1]}" {s[2]}'
        return f'.callField "{s[1]}" .{s[2]}'
    if k == 'ite':
        pad = ' ' * (ind + 2)
        a, b = lean_blk(s[2], ind + 2), lean_blk(s[3], ind + 2)
        one = f'.ite {lean_cond(s[1])} ({a}) ({b})'
        if '\n' not in one and len(one) + ind < 96: return one
        return f'.ite {lean_cond(s[1])}\n{pad}({a})\n{pad}({b})'
    if k == 'loop': return f'.loop ({lean_blk(s[1], ind)})'
    if k == 'switch':
        pad = ' ' * (ind + 2)
        fn = 'switchRet' if s[1] == 'retIs' else 'switchCur'
        cs = ',\n'.join(f'{pad}  ({t}, {lean_blk(b, ind + 4)})' for t, b in s[2])
        return f'{fn} [\n{cs}]\n{pad}({lean_blk(s[3], ind + 2)})'
    raise Exception(s)

def is_enum(n): return n.endswith('Enum')

def calls(ast):
    for s in ast:
        if s[0] == 'callBuf': yield s[1]
        elif s[0] == 'callField':
            if not is_enum(s[2]): yield s[2]
        elif s[0] == 'ite':
            yield from calls(s[2]); yield from calls(s[3])
        elif s[0] == 'loop': yield from calls(s[1])
        elif s[0] == 'switch':
            for _, b in s[2]: yield from calls(b)
            yield from calls(s[3])

def lean_chars(s):
    return '(str! "' + s.replace('\\', '\\\\').replace('"', '\\"') + '")'

OUT = '/verif/lean/Verif/A2l'

def emit():
    toks, kws = tokens()
    fs = all_funcs()
    consts = enum_consts()
    # Tokens
    o = ['import Verif.Go.Lit', '', '/-!', 'The token constants and the keyword table of a2l/tokens.go (generated by tools/go2lean.py).', '-/', '', 'namespace Verif.A2l', 'open Verif.Go', '']
    for t, (v, n) in toks.items():
        o += [f'/-- a2l/tokens.go:{n} -/', f'def {t} : Str := {lean_chars(v)}']
    o += ['', f'/-- The keys of `keywordMap`, a2l/tokens.go:{kws[0][1]}-{kws[-1][1]}. -/', 'def keywords : List Str := [']
    o += [',\n'.join('  ' + lean_chars(k) for k, _ in kws) + ']']
    o += ['', '/-- `isKeyword`, a2l/token_generator.go:325-330. -/', 'def isKeyword (t : Str) : Bool := keywords.contains t', '', 'end Verif.A2l']
    open(OUT + '/Tokens.lean', 'w').write('\n'.join(o) + '\n')
    # Names
    names = [n for n in fs if not is_enum(n)]
    o = ['/-!', 'The names of the parse functions of package a2l (generated by tools/go2lean.py).', '-/', '', 'namespace Verif.A2l', '', '/-- One name per function `parseX(tok *tokenGenerator)` of a2l/*.go. -/', 'inductive PName where']
    for n in names: o.append(f'  | {n}')
    o += ['  | parseModuleMultithreaded', 'deriving DecidableEq, Repr', '']
    o += ['/-- All names. -/', 'def PName.all : List PName := [']
    o += [',\n'.join('  .' + n for n in names + ['parseModuleMultithreaded']) + ']', '', 'end Verif.A2l']
    open(OUT + '/PNames.lean', 'w').write('\n'.join(o) + '\n')
    # Parsers
    o = ['import Verif.A2l.Lang', '', '/-!', 'The parse functions of package a2l, translated line by line from the Go source by', 'tools/go2lean.py. `log` calls and local variable declarations are left out.', '-/', '', 'namespace Verif.A2l', 'open Verif.Go Lang', '']
    used = set()
    def consts_in(ast):
        for s in ast:
            if s[0] == 'storeConst': used.add(s[2])
            elif s[0] == 'ite': consts_in(s[2]); consts_in(s[3])
            elif s[0] == 'loop': consts_in(s[1])
            elif s[0] == 'switch':
                for _, b in s[2]: consts_in(b)
                consts_in(s[3])
    for n in fs: consts_in(fs[n]['ast'])
    for c in sorted(used):
        o += [f'/-- Constant `{c}` of a2l/enums.go. -/', f'def Const.{c} : Str := {lean_chars(consts[c])}']
    for n, d in fs.items():
        if not is_enum(n): continue
        a = d['ast']
        nx = a[0] == ('next',)
        sw = a[-1]
        assert sw[0] == 'switch' and sw[3] == [('setErr',)] and len(a) == (2 if nx else 1)
        ents = []
        for t, b in sw[2]:
            assert len(b) == 1 and b[0][0] == 'result'
            tt = t if not t.startswith('"') else '(str! ' + t + ')'
            ents.append(f'  ({tt}, {lean_chars(consts[b[0][1]])})')
        o += [f'/-- `{n}`, a2l/{d["file"]}:{d["a"]}-{d["b"]}. -/', f'def {n} : EnumDef := ⟨{"true" if nx else "false"}, [', ',\n'.join(ents) + ']⟩']
    for n, d in fs.items():
        if is_enum(n): continue
        o += [f'/-- `{n}`, a2l/{d["file"]}:{d["a"]}-{d["b"]}. -/', f'def {n} : Stmt :=', '  ' + lean_blk(d['ast'], 2), '']
    o += ['/-- The statement list of each parse function. `parseModuleMultithreaded` is not a', 'sequential program; calls to it are answered by the environment (see `Lang.run`). -/', 'def body : PName → Stmt']
    for n in names: o.append(f'  | .{n} => {n}')
    o += ['  | .parseModuleMultithreaded => .skip', '']
    rk = {'parseModuleMultithreaded': 0}
    def rank(n):
        if n not in rk: rk[n] = 1 + max([rank(c) for c in calls(fs[n]['ast'])] + [0])
        return rk[n]
    o += ['/-- Height of the call graph below a parse function: every function only calls functions', 'of smaller height (checked in `Analysis.lean`). -/', 'def rank : PName → Nat']
    for n in names: o.append(f'  | .{n} => {rank(n)}')
    o += ['  | .parseModuleMultithreaded => 0', '', 'end Verif.A2l']
    open(OUT + '/Parsers.lean', 'w').write('\n'.join(o) + '\n')

def switch_cases(ast):
    for s in ast:
        if s[0] == 'switch':
            yield from s[2]
            yield from switch_cases(s[3])
        elif s[0] == 'ite':
            yield from switch_cases(s[2]); yield from switch_cases(s[3])
        elif s[0] == 'loop': yield from switch_cases(s[1])

def block_keywords():
    """parse function -> K, when it is called on the token "/begin K" """
    toks, _ = tokens(); fs = all_funcs(); out = {}
    for n in fs:
        for t, b in switch_cases(fs[n]['ast']):
            for c in calls(b):
                v = toks[t][0]
                if v.startswith('/begin '): out[c] = v[len('/begin '):]
    return out

def emit_spec():
    bk = block_keywords()
    fs = all_funcs()
    o = ['import Verif.A2l.PNames', 'import Verif.Go.Lit', '', '/-!',
         'Which parse function reads which A2L block (generated by tools/go2lean.py from the',
         'tokens at the call sites: `parseX` is called after the token "/begin K").', '-/', '',
         'namespace Verif.A2l.Spec', 'open Verif.Go Verif.A2l', '',
         '/-- The keyword of the block a parse function reads, if it reads a `/begin ... /end` block. -/',
         'def blockKeyword : PName → Option Str']
    for n in [n for n in fs if n in bk] + ['parseModuleMultithreaded']:
        o.append(f'  | .{n} => some {lean_chars(bk[n])}')
    o += ['  | _ => none', '', '/-- The token that closes the block. -/', 'def endToken (p : PName) : Option Str :=',
          '  (blockKeyword p).map fun k => "/end ".toList ++ k', '', 'end Verif.A2l.Spec']
    open(OUT + '/BlockSpec.lean', 'w').write('\n'.join(o) + '\n')

if __name__ == '__main__':
    emit()
    emit_spec()
