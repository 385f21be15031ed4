"""Write the syntax trees of the functions of _proxy.c and _zope_security_checker.c, and the tables in them, as Lean.

    python3 tools/csource.py [REPO [OUT]]

The C files are read as text: comments are removed, the macros that the files themselves define are expanded, except
CLEAR, and the functions are parsed.  Casts are dropped.  What is not understood is an error.
"""
import os
import re
import sys

REPO = sys.argv[1] if len(sys.argv) > 1 else '/repo'
OUT = sys.argv[2] if len(sys.argv) > 2 else os.path.join(
    os.path.dirname(os.path.dirname(os.path.abspath(__file__))), 'lean', 'Verif', 'Source')
PKG = os.path.join(REPO, 'src', 'zope', 'security')
KEEP = {'CLEAR'}
TYPES = {'PyObject', 'int', 'char', 'void', 'long', 'Checker', 'SecurityProxy', 'PyNumberMethods', 'Py_ssize_t', 'PyTypeObject',
         'PyCFunction', 'getter', 'binaryfunc', 'objobjargproc', 'destructor', 'traverseproc', 'inquiry', 'initproc', 'ternaryfunc',
         'lenfunc', 'ssizeargfunc', 'ssizeobjargproc', 'objobjproc', 'reprfunc', 'hashfunc', 'getattrofunc', 'setattrofunc',
         'richcmpfunc', 'getiterfunc', 'iternextfunc', 'visitproc', 'function1'}
TOKEN = re.compile(r'''\s*(?:(?P<str>"(?:\\.|[^"\\])*")|(?P<chr>'(?:\\.|[^'\\])')|(?P<num>\d+)|(?P<id>[A-Za-z_]\w*)'''
                   r'''|(?P<op>\#\#|->|==|!=|<=|>=|&&|\|\||[-+*/%&|^~!<>=?:;,.(){}\[\]\#]))''', re.S)


class Tok(tuple):
    """kind, text, line"""


def tokens(text, line):
    pos, out = 0, []
    text = text.rstrip()
    while pos < len(text):
        m = TOKEN.match(text, pos)
        assert m, (line, text[pos:pos + 40])
        at = line + text.count('\n', 0, m.start(m.lastgroup))
        out.append(Tok((m.lastgroup, m.group(m.lastgroup), at)))
        pos = m.end()
    return out


def uncomment(t):
    return re.sub(r'/\*.*?\*/', lambda m: '\n' * m.group(0).count('\n') or ' ', t, flags=re.S)


def expand(toks, macros, hide=frozenset()):
    out, i = [], 0
    while i < len(toks):
        k, s, ln = toks[i]
        if k == 'id' and s in macros and s not in hide and s not in KEEP:
            params, body = macros[s]
            if params is None:
                out += expand([Tok((a, b, ln)) for a, b, _ in body], macros, hide | {s})
                i += 1
                continue
            if i + 1 < len(toks) and toks[i + 1][1] == '(':
                args, depth, j = [[]], 0, i + 1
                while True:
                    t = toks[j]
                    if t[1] == '(':
                        depth += 1
                    if t[1] == ')':
                        depth -= 1
                        if depth == 0:
                            break
                    if t[1] == ',' and depth == 1:
                        args.append([])
                    elif not (t[1] == '(' and depth == 1):
                        args[-1].append(t)
                    j += 1
                assert len(args) == len(params), (s, ln)
                env = dict(zip(params, args))
                res, b = [], 0
                while b < len(body):
                    a, c, _ = body[b]
                    if c == '#':
                        res.append(Tok(('str', '"' + ''.join(x[1] for x in env[body[b + 1][1]]) + '"', ln)))
                        b += 2
                    elif b + 1 < len(body) and body[b + 1][1] == '##':
                        text, b = ''.join(x[1] for x in env.get(c, [(a, c, ln)])), b + 2
                        while True:
                            c = body[b][1]
                            text += ''.join(x[1] for x in env.get(c, [(0, c, ln)]))
                            b += 1
                            if b < len(body) and body[b][1] == '##':
                                b += 1
                            else:
                                break
                        res.append(Tok(('id', text, ln)))
                    else:
                        res += expand(env[c], macros, hide) if c in env else [Tok((a, c, ln))]
                        b += 1
                out += expand(res, macros, hide | {s})
                i = j + 1
                continue
        out.append(toks[i])
        i += 1
    return out


def read(file):
    """The tokens of the file, macros expanded."""
    macros, out, chunk, start = {}, [], '', 1
    lines = uncomment(open(os.path.join(PKG, file)).read()).split('\n')
    i = 0

    def flush():
        nonlocal chunk
        if chunk.strip():
            out.extend(expand(tokens(chunk, start), macros))
        chunk = ''
    while i < len(lines):
        l = lines[i]
        if l.lstrip().startswith('#'):
            flush()
            n = i
            while l.endswith('\\'):
                i += 1
                l = l[:-1] + ' ' + lines[i]
            m = re.match(r'\s*#\s*define\s+(\w+)(\(([^)]*)\))?(.*)', l)
            if m:
                macros[m.group(1)] = ([p.strip() for p in m.group(3).split(',')] if m.group(2) else None, tokens(m.group(4), n + 1))
            elif re.match(r'\s*#\s*undef\s+(\w+)', l):
                macros.pop(l.split()[1], None)
            else:
                assert re.match(r'\s*#\s*include', l), l
        else:
            if not chunk:
                start = i + 1
            chunk += l + '\n'
        i += 1
    flush()
    res = []
    for t in out:   # adjacent string literals
        if t[0] == 'str' and res and res[-1][0] == 'str':
            res[-1] = Tok(('str', res[-1][1][:-1] + t[1][1:], res[-1][2]))
        else:
            res.append(t)
    return res


def q(s):
    return '"' + s.replace('\\', '\\\\').replace('"', '\\"').replace('\n', '\\n') + '"'


def unq(t):
    return t[1:-1].encode().decode('unicode_escape')


class Parser:
    def __init__(self, toks, funcs):
        self.t, self.i, self.funcs = toks, 0, funcs

    def peek(self, n=0):
        return self.t[self.i + n][1] if self.i + n < len(self.t) else None

    def next(self, want=None):
        k = self.t[self.i]
        assert want is None or k[1] == want, (k, want)
        self.i += 1
        return k

    # expressions
    def cast(self):
        """At a `(` that begins a cast."""
        if self.peek() == '(' and self.peek(1) in TYPES:
            j = 2
            while self.peek(j) == '*':
                j += 1
            if self.peek(j) == ')':
                self.i += j + 1
                return True
        return False

    def expr(self):
        return self.binary(0)

    LEVELS = [['||'], ['&&'], ['==', '!='], ['<', '>', '<=', '>=']]

    def binary(self, n):
        if n == len(self.LEVELS):
            return self.unary()
        a = self.binary(n + 1)
        while self.peek() in self.LEVELS[n]:
            op = self.next()[1]
            b = self.binary(n + 1)
            name = {'||': 'or', '&&': 'and', '==': 'eq', '!=': 'ne', '<': 'lt', '>=': 'ge'}[op]
            a = (name, a, b)
        return a

    def unary(self):
        if self.peek() == '!':
            self.next()
            return ('not', self.unary())
        if self.peek() == '&':
            self.next()
            return ('addr', self.next()[1])
        if self.peek() == '-':
            self.next()
            return ('int', -int(self.next()[1]))
        if self.cast():
            return self.unary()
        return self.postfix()

    def postfix(self):
        k, s, ln = self.next()
        if s == '(':
            e = self.expr()
            self.next(')')
        elif k == 'id':
            e = ('null',) if s == 'NULL' else ('var', s)
        elif k == 'num':
            e = ('int', int(s))
        elif k == 'str':
            e = ('str', unq(s))
        elif k == 'chr':
            e = ('chr', unq(s))
        else:
            raise AssertionError((k, s, ln))
        while True:
            p = self.peek()
            if p == '(':
                self.next()
                args = []
                while self.peek() != ')':
                    args.append(self.expr())
                    if self.peek() == ',':
                        self.next()
                self.next(')')
                e = ('call', e, args)
            elif p == '->':
                self.next()
                f = self.next()[1]
                if f == 'proxy' and self.peek() == '.':
                    self.next()
                    f = self.next()[1]
                e = ('field', e, f)
            elif p == '.':
                self.next()
                e = ('field', e, self.next()[1])
            elif p == '[':
                self.next()
                e = ('index', e, int(self.next()[1]))
                self.next(']')
            else:
                return e

    # statements, as lists
    def block(self):
        self.next('{')
        out = []
        while self.peek() != '}':
            out += self.stmt()
        self.next('}')
        return out

    def stmt(self):
        s = self.peek()
        if s == ';':
            self.next()
            return []
        if s == '{':
            return self.block()
        if s == 'if':
            self.next()
            self.next('(')
            c = self.expr()
            self.next(')')
            a = self.stmt()
            b = []
            if self.peek() == 'else':
                self.next()
                b = self.stmt()
            if c[0] == 'not' and c[1][0] == 'call' and c[1][1][0] == 'var' and c[1][1][1].startswith('PyArg_ParseTuple'):
                assert not b
                return [self.parse(c[1], a)]
            return [('ite', c, a, b)]
        if s == 'while':
            self.next()
            self.next('(')
            c = self.expr()
            self.next(')')
            return [('loop', c, self.stmt())]
        if s == 'return':
            self.next()
            e = self.expr()
            self.next(';')
            return [('ret', e)]
        if s == 'goto':
            self.next()
            l = self.next()[1]
            self.next(';')
            return [('goto', l)]
        if self.peek(1) == ':' and self.t[self.i][0] == 'id':
            l = self.next()[1]
            self.next(':')
            return [('label', l)]
        if s == 'static' or (s in TYPES and (self.peek(1) == '*' or self.t[self.i + 1][0] == 'id')):
            return self.decl()
        if s == 'CLEAR':
            self.next()
            self.next('(')
            e = self.expr()
            self.next(')')
            self.next(';')
            assert e[0] == 'field'
            return [('clear', e[1], e[2])]
        e = self.expr()
        if self.peek() == '=':
            self.next()
            v = self.expr()
            self.next(';')
            if e[0] == 'var':
                return [('set', e[1], v)]
            assert e[0] == 'field', e
            return [('store', e[1], e[2], v)]
        self.next(';')
        return [('eval', e)]

    def parse(self, call, fail):
        args = call[2]
        if call[1][1] == 'PyArg_ParseTuple':
            src, fmt, outs = args[0], args[1], args[2:]
        else:
            src, fmt, outs = args[0], args[2], args[4:]
        assert fmt[0] == 'str'
        f = fmt[1].split(':')[0].replace('O!', 'O')
        need = f.index('|') if '|' in f else len(f)
        assert set(f) <= {'O', '|'}
        outs = [o[1] for o in outs if o[0] == 'addr' and not o[1].endswith('_Type')]
        assert len(outs) == f.count('O')
        return ('parse', src, need, outs, fail)

    def decl(self):
        if self.peek() == 'static':
            while self.next()[1] != ';':
                pass
            return []
        self.next()
        out = []
        while True:
            ptr = False
            while self.peek() == '*':
                self.next()
                ptr = True
            x = self.next()[1]
            if self.peek() == '=':
                self.next()
                v = self.expr()
                if ptr and v == ('int', 0):
                    v = ('null',)
                out.append(('set', x, v))
            if self.next()[1] == ';':
                return out
            assert self.t[self.i - 1][1] == ','


APIS = set()
FIELDS = set()


def lx(e, fn):
    """An expression; `fn` has the variables of the function."""
    k = e[0]
    if k == 'null':
        return '.null'
    if k == 'int':
        return f'(.int {e[1]})' if e[1] >= 0 else f'(.int ({e[1]}))'
    if k == 'str':
        return f'(.str {q(e[1])})'
    if k == 'chr':
        return f"(.chr '{e[1]}')"
    if k == 'addr':
        return f'(.addr {q(e[1])})'
    if k == 'var':
        s = e[1]
        if s in fn['vars']:
            return f'(.var {q(s)})'
        if s in fn['funcs']:
            return f'(.fn {q(s)})'
        if s in fn['statics']:
            return f'(.glob {q(s)})'
        assert re.match(r'_?Py', s), s
        if s in ('Py_None', 'Py_True', 'Py_False', 'Py_NotImplemented') or s.startswith('PyExc_'):
            return f'(.glob {q(s)})'
        APIS.add(s)
        return f'(.api .{s})'
    if k == 'field':
        FIELDS.add(e[2])
        return f'(.field {lx(e[1], fn)} .{e[2]})'
    if k == 'index':
        return f'(.index {lx(e[1], fn)} {e[2]})'
    if k == 'not':
        return f'(.not {lx(e[1], fn)})'
    if k == 'call' and e[1] == ('var', 'strcmp'):
        APIS.add('strcmp')
        return f'(.call (.api .strcmp) [{", ".join(lx(a, fn) for a in e[2])}])'
    if k == 'call':
        return f'(.call {lx(e[1], fn)} [{", ".join(lx(a, fn) for a in e[2])}])'
    return f'(.{k} {lx(e[1], fn)} {lx(e[2], fn)})'


def ls(stmts, fn, ind):
    """Statements; each holds those that follow."""
    pad = ' ' * ind
    if not stmts:
        return '.done'
    s, r = stmts[0], stmts[1:]

    def rest():
        return ' <|\n' + pad + ls(r, fn, ind)

    def sub(l):
        t = ls(l, fn, ind + 4)
        return t if t == '.done' else '(' + t + ')'
    k = s[0]
    if k == 'ret':
        assert not r, r
        return f'.ret {lx(s[1], fn)}'
    if k == 'goto':
        assert not r
        return f'.goto {q(s[1])}'
    if k == 'label':
        return f'.label {q(s[1])}' + rest()
    if k == 'set':
        return f'.set {q(s[1])} {lx(s[2], fn)}' + rest()
    if k == 'store':
        FIELDS.add(s[2])
        return f'.store {lx(s[1], fn)} .{s[2]} {lx(s[3], fn)}' + rest()
    if k == 'clear':
        FIELDS.add(s[2])
        return f'.clear {lx(s[1], fn)} .{s[2]}' + rest()
    if k == 'eval':
        return f'.eval {lx(s[1], fn)}' + rest()
    if k == 'ite':
        return f'.ite {lx(s[1], fn)}\n{pad}  {sub(s[2])}\n{pad}  {sub(s[3])}' + rest()
    if k == 'loop':
        return f'.loop {lx(s[1], fn)}\n{pad}  {sub(s[2])}' + rest()
    if k == 'parse':
        return f'.parse {lx(s[1], fn)} {s[2]} [{", ".join(q(o) for o in s[3])}]\n{pad}  {sub(s[4])}' + rest()
    raise AssertionError(k)


def declared(stmts):
    for s in stmts:
        if s[0] == 'set':
            yield s[1]
        for x in s[1:]:
            if isinstance(x, list) and x and isinstance(x[0], tuple):
                yield from declared(x)
        if s[0] == 'parse':
            yield from s[3]


SKIP = {'proxy_dealloc', 'proxy_traverse', 'Checker_dealloc', 'Checker_traverse'}


def module(file):
    toks = read(file)
    i, funcs, tables, statics, strings, imports = 0, [], [], [], [], []
    depth = 0
    while i < len(toks):
        k, s, ln = toks[i]
        if k == 'id' and i + 1 < len(toks) and toks[i + 1][1] == '(' and depth == 0 and s not in ('typedef',):
            j, d = i + 1, 0
            while True:
                if toks[j][1] == '(':
                    d += 1
                if toks[j][1] == ')':
                    d -= 1
                    if d == 0:
                        break
                j += 1
            if toks[j + 1][1] == '{':
                e, d = j + 1, 0
                while True:
                    if toks[e][1] == '{':
                        d += 1
                    if toks[e][1] == '}':
                        d -= 1
                        if d == 0:
                            break
                    e += 1
                params = [[]]
                for t in toks[i + 2:j]:
                    if t[1] == ',':
                        params.append([])
                    else:
                        params[-1].append(t)
                funcs.append((s, [p[-1][1] for p in params], toks[j + 1:e + 1], ln, toks[e][2]))
                i = e + 1
                continue
        if depth == 0 and k == 'id' and toks[i + 1][1] in ('=', '[') and '{' in (toks[i + 2][1], toks[i + 4][1] if i + 4 < len(toks) else ''):
            j = i
            while toks[j][1] != '{':
                j += 1
            e, d = j, 0
            while True:
                if toks[e][1] == '{':
                    d += 1
                if toks[e][1] == '}':
                    d -= 1
                    if d == 0:
                        break
                e += 1
            if toks[i + 1][1] == '=' or toks[i + 2][1] == ']':
                tables.append((s, toks[j + 1:e], ln, toks[e][2]))
            i = e + 1
            continue
        if s == '{':
            depth += 1
        if s == '}':
            depth -= 1
        # static PyObject *a, *b = 0;
        if depth == 0 and s == 'static' and toks[i + 1][1] == 'PyObject' and toks[i + 2][1] == '*':
            j, names = i + 2, []
            while toks[j][1] in ('*', ',', '=', '0') or toks[j][0] == 'id':
                if toks[j][0] == 'id':
                    names.append(toks[j][1])
                j += 1
            if toks[j][1] == ';':
                statics += names
        i += 1
    for name, params, body, ln, le in funcs:
        if name.startswith('PyInit_'):
            for a in range(len(body) - 5):
                if body[a + 1][1] == '=' and body[a + 2][1] in ('PyUnicode_InternFromString', 'PyUnicode_FromString'):
                    strings.append((body[a][1], unq(body[a + 4][1])))
                if body[a + 1][1] == '=' and body[a + 2][1] == 'PyObject_GetAttrString':
                    imports.append((body[a][1], unq(body[a + 6][1])))
    return toks, funcs, tables, statics, strings, imports


def cells(toks):
    """The initialisers of a table, one level."""
    out, cur, depth = [], [], 0
    for t in toks:
        if t[1] in '({':
            depth += 1
        if t[1] in ')}':
            depth -= 1
        if t[1] == ',' and depth == 0:
            out.append(cur)
            cur = []
        else:
            cur.append(t)
    if cur:
        out.append(cur)
    return out


def cell(ts, known):
    p = Parser(ts, known)
    while p.cast():
        pass
    ts = [t for t in ts[p.i:] if t[1] != '&']
    if len(ts) == 1 and ts[0][0] == 'id' and ts[0][1] != 'NULL':
        return f'.ref {q(ts[0][1])}'
    if len(ts) == 1 and ts[0][1] in ('0', 'NULL'):
        return '.zero'
    if len(ts) == 1 and ts[0][0] == 'str':
        return f'.text {q(unq(ts[0][1]))}'
    return '.other'


class Plain:
    """The functions of the collector and of the initialisation: calls, assignments, and `if (c) return e;`."""

    def __init__(self, toks):
        self.t, self.i = toks, 0

    def at(self, k=0):
        return self.t[self.i + k][1] if self.i + k < len(self.t) else None

    def eat(self, s):
        assert self.at() == s, (s, self.t[self.i:self.i + 6])
        self.i += 1

    def cast(self):
        j = 0
        if self.at() != '(' or self.at(1) not in TYPES:
            return False
        while self.at(j) != ')':
            assert self.at(j) in ('(', '*') or self.at(j) in TYPES, self.t[self.i:self.i + 6]
            j += 1
        self.i += j + 1
        return True

    def primary(self):
        while self.cast():
            pass
        k, s, ln = self.t[self.i]
        self.i += 1
        if s == '&':
            return f'.ref {self.wrap(self.postfix())}'
        if s == '!':
            return f'.not {self.wrap(self.postfix())}'
        if s == '-':
            n = self.t[self.i][1]
            self.i += 1
            assert n.isdigit()
            return f'.int (-{n})'
        if s == '(':
            e = self.expr()
            self.eat(')')
            return e
        if k == 'num':
            return f'.int {s}'
        if k == 'str':
            return f'.str {q(unq(s))}'
        assert k == 'id', (k, s, ln)
        return '.null' if s == 'NULL' else f'.id {q(s)}'

    def wrap(self, e):
        return e if ' ' not in e else f'({e})'

    def postfix(self):
        e = self.primary()
        while self.at() in ('(', '->', '.'):
            if self.at() == '(':
                self.i += 1
                args = []
                while self.at() != ')':
                    args.append(self.expr())
                    if self.at() == ',':
                        self.i += 1
                self.i += 1
                e = f'.call {self.wrap(e)} [{", ".join(args)}]'
            else:
                self.i += 1
                e = f'.fld {self.wrap(e)} {q(self.at())}'
                self.i += 1
        return e

    def expr(self, level=0):
        if level == 3:
            return self.postfix()
        e = self.expr(level + 1)
        ops = [{'=': 'set'}, {'&&': 'and'}, {'==': 'eq', '!=': 'ne', '<': 'lt'}][level]
        while self.at() in ops:
            op = ops[self.at()]
            self.i += 1
            e = f'.{op} {self.wrap(e)} {self.wrap(self.expr(0 if level == 0 else level + 1))}'
        return e

    def ret(self):
        """`return e;`, also in braces"""
        if self.at() == '{':
            self.i += 1
            e = self.ret()
            self.eat('}')
            return e
        self.eat('return')
        e = self.expr()
        self.eat(';')
        return e

    def block(self):
        out = []
        self.eat('{')
        while self.at() != '}':
            s = self.at()
            if s == ';':
                self.i += 1
            elif s == 'PyObject':
                while self.at() != ';':
                    assert self.at() in ('PyObject', '*', ',') or self.t[self.i][0] == 'id'
                    self.i += 1
            elif s == 'static':
                assert [self.at(j) for j in range(1, 7)] == ['struct', 'PyModuleDef', 'moduledef', '=', '{', 'PyModuleDef_HEAD_INIT']
                self.i += 8
                e = []
                while self.at() != '}':
                    e.append(self.at())
                    self.i += 1
                self.i += 2
                e = [x for x in e if x != ',']
                assert len(e) == 5 and e[2:4] == ['-', '1'], e
                out.append(f'.moduleDef {q(unq(e[0]))} {q(e[4])}')
            elif s == 'if':
                self.i += 1
                self.eat('(')
                c = self.expr()
                self.eat(')')
                out.append(f'.guard {self.wrap(c)} {self.wrap(self.ret())}')
            elif s == 'return':
                out.append(f'.ret {self.wrap(self.ret())}')
            else:
                out.append(f'.eval {self.wrap(self.expr())}')
                if not out[-1].startswith('.eval (.call (.id "CLEAR")'):
                    self.eat(';')
        self.eat('}')
        assert self.i == len(self.t)
        return out


def plain(mods):
    out = ['import Verif.Model.CPlain', '', '/-!', '# The functions of the collector and of the initialisation as syntax trees', '',
           'Written by tools/csource.py from the text of _zope_security_checker.c and _proxy.c; do not edit.', '-/', '',
           'namespace ZS.CI', 'namespace Src', '']
    for file, m in mods.items():
        out += [f'/-! ## {file} -/', '']
        for name, params, ts, ln, le in m[1]:
            if name.startswith('PyInit_') or name in SKIP or name in ('proxy_clear', 'Checker_clear'):
                body = Plain(ts).block()
                out += [f'/-- {file}:{ln}-{le} -/', f'def {name} : List T :=', '  [' + ',\n   '.join(body) + ']', '']
    out += ['end Src', 'end ZS.CI', '']
    open(os.path.join(OUT, 'CPlain.lean'), 'w').write('\n'.join(out))


def main():
    mods = {f: module(f) for f in ('_zope_security_checker.c', '_proxy.c')}
    names = {f[0] for m in mods.values() for f in m[1]}
    body = []
    table = []
    for file, (toks, funcs, tables, statics, strings, imports) in mods.items():
        body += [f'/-! ## {file} -/', '']
        for name, params, ts, ln, le in funcs:
            if name.startswith('PyInit_') or name in SKIP:
                continue
            p = Parser(ts, names)
            stmts = p.block()
            fn = {'vars': set(params) | set(declared(stmts)), 'funcs': names, 'statics': set(statics) | {'SecurityProxyType', 'CheckerType'}}
            body += [f'/-- {file}:{ln}-{le} -/', f'def {name} : CFunc where', f'  name := {q(name)}',
                     f'  params := [{", ".join(q(x) for x in params)}]', '  body :=\n    ' + ls(stmts, fn, 4), '']
            table.append(name)
    body += ['/-- The functions. -/', 'def functions : List CFunc :=', '  [' + ',\n   '.join(', '.join(table[i:i + 6]) for i in range(0, len(table), 6)) + ']', '']
    st = [x for m in mods.values() for x in m[4]]
    body += ['/-- The names that the initialisation functions put into static variables. -/', 'def strings : List (String × String) :=',
             '  [' + ',\n   '.join(f'({q(a)}, {q(b)})' for a, b in st) + ']', '']
    im = [x for m in mods.values() for x in m[5]]
    body += ['/-- The attributes of modules that the initialisation functions put into static variables. -/',
             'def imports : List (String × String) :=', '  [' + ',\n   '.join(f'({q(a)}, {q(b)})' for a, b in im) + ']', '']
    for file, (toks, funcs, tables, statics, strings, imports) in mods.items():
        for name, ts, ln, le in tables:
            cs = cells(ts)
            if cs and cs[0][0][1] == '{':
                rows = [[cell(c, names) for c in cells(r[1:-1])] for r in cs]
                body += [f'/-- {file}:{ln}-{le} -/', f'def {name}_{"c" if file.startswith("_z") else "p"} : List (List Entry) :=',
                         '  [' + ',\n   '.join('[' + ', '.join(r) + ']' for r in rows) + ']', '']
            else:
                row = []
                for c in cs:
                    if [t[1] for t in c[:2]] == ['PyVarObject_HEAD_INIT', '(']:
                        d, j = 0, 1
                        while True:
                            d += {'(': 1, ')': -1}.get(c[j][1], 0)
                            j += 1
                            if d == 0:
                                break
                        c = c[j:]
                    row.append(cell(c, names))
                body += [f'/-- {file}:{ln}-{le} -/', f'def {name}_t : List Entry :=',
                         '  [' + ',\n   '.join(', '.join(row[i:i + 8]) for i in range(0, len(row), 8)) + ']', '']
    out = ['import Verif.Model.CSyntax', '', '/-!', '# The C functions as syntax trees', '',
           'Written by tools/csource.py from the text of _zope_security_checker.c and _proxy.c; do not edit.', '-/', '',
           'namespace ZS.CS', 'open ZS', 'namespace Src', ''] + body + ['end Src', 'end ZS.CS', '']
    os.makedirs(OUT, exist_ok=True)
    open(os.path.join(OUT, 'CFiles.lean'), 'w').write('\n'.join(out))
    plain(mods)
    if os.environ.get('SHOW'):
        print(sorted(APIS))
        print(sorted(FIELDS))


main()
