#!/usr/bin/env python3
"""Write the functions of /repo as Lean terms (lean/Verif/Source/*.lean).

The files of /repo are read as text and parsed with the standard `ast` module; nothing of
them is executed.  Docstrings and other constant expression statements are dropped; every name
is resolved to a local (`loc`) or a global (`glo`) name by Python's scoping rule (a name that is
assigned or bound anywhere in a function is local to it unless declared `global`; names that
are local to an enclosing function are local too).  Private names (`__x` in a class `C`) are
mangled to `_C__x`.  A generator function is written as a function that returns the list of what it
yields: `yield x` appends to a local variable `%yield`.  In a function decorated with `contextlib.contextmanager`,
`yield x` is written as a call of the global `%body` with `x`, the body of the `with` statement.  `from m import n` inside a function binds the
local variable `n` to the global `m.n`.  For a local variable that only ever holds lists made in the
function, the statements `x.append(e)` and `x.insert(0, e)` are written `x += [e]` and `x = [e] + x`: no
other name refers to such a list before the function returns (checked by reading the functions).
`import m` inside a function binds the first part of `m` to the global `import m`; a class with an empty body
inside a function is what the global `class` makes of its name and bases, handed to its decorators.

For the modules in WORLDS the assignments named there and the loops of the module are written as `_world`.
For the modules in BODIES the statements of the module itself are written too, as `_module`.  Left out are
the imports, classes and functions that stand there unconditionally, and `del` of names; conditional imports are
written as above, for global names.  For those in CLASSES, so are the assignments in the bodies of some classes.  A lambda at this level becomes a function named by its line.

Usage: python3 tools/pysource.py [REPO] [OUT]
"""
import ast
import os
import sys

REPO = sys.argv[1] if len(sys.argv) > 1 else '/repo'
OUT = sys.argv[2] if len(sys.argv) > 2 else os.path.join(
    os.path.dirname(os.path.dirname(os.path.abspath(__file__))), 'lean', 'Verif', 'Source')

MODULES = {
    'checker': 'Checker',
    'proxy': 'Proxy',
    'management': 'Management',
    'simplepolicies': 'Simplepolicies',
    'decorator': 'Decorator',
    'protectclass': 'Protectclass',
    'metaconfigure': 'Metaconfigure',
    'zcml': 'Zcml',
    'permission': 'Permission',
    'adapter': 'Adapter',
    'testing': 'Testing',
    'examples/sandbox': 'Sandbox',
    'examples/sandbox_security': 'SandboxSecurity',
}

WORLDS = {'examples/sandbox': ['default_service_factories', 'all_homes', 'origin', 'agents']}
BODIES = {'checker', 'examples/sandbox_security'}
CLASSES = {'examples/sandbox_security': ['SimulationSecurityDatabase']}

CMP = {ast.Is: 'is', ast.IsNot: 'isNot', ast.In: 'isIn', ast.NotIn: 'notIn', ast.Eq: 'eq',
       ast.NotEq: 'ne', ast.Lt: 'lt', ast.LtE: 'le', ast.Gt: 'gt', ast.GtE: 'ge'}
BIN = {ast.Mod: '%', ast.Add: '+', ast.Pow: '**', ast.Sub: '-', ast.Mult: '*'}


class Unsupported(Exception):
    pass


def q(s):
    return '"' + s.replace('\\', '\\\\').replace('"', '\\"').replace('\n', '\\n') + '"'


def assigned(fn):
    """Names bound in the body of a function, and names declared global."""
    bound, glob = set(), set()

    def target(t):
        if isinstance(t, ast.Name):
            bound.add(t.id)
        elif isinstance(t, (ast.Tuple, ast.List)):
            for e in t.elts:
                target(e)

    def walk(node):
        for n in ast.iter_child_nodes(node):
            if isinstance(n, (ast.FunctionDef, ast.ClassDef)):
                bound.add(n.name)
                continue
            if isinstance(n, ast.Lambda):
                continue
            if isinstance(n, ast.Global):
                glob.update(n.names)
            if isinstance(n, ast.Assign):
                for t in n.targets:
                    target(t)
            if isinstance(n, ast.AugAssign):
                target(n.target)
            if isinstance(n, ast.For):
                target(n.target)
            if isinstance(n, ast.ExceptHandler) and n.name:
                bound.add(n.name)
            if isinstance(n, (ast.Import, ast.ImportFrom)):
                for a in n.names:
                    bound.add((a.asname or a.name).split('.')[0])
            if isinstance(n, ast.Delete):
                for t in n.targets:
                    target(t)
            walk(n)

    walk(ast.Module(body=fn.body if isinstance(fn.body, list) else [], type_ignores=[]))
    a = fn.args
    for p in a.posonlyargs + a.args + a.kwonlyargs:
        bound.add(p.arg)
    if a.vararg:
        bound.add(a.vararg.arg)
    if a.kwarg:
        bound.add(a.kwarg.arg)
    return bound - glob, glob


def own_lists(fn):
    """Local variables that are only assigned new lists: list displays or `sorted(...)`."""
    new, other = set(), set()
    for n in ast.walk(fn):
        if isinstance(n, ast.Assign):
            for t in n.targets:
                if isinstance(t, ast.Name):
                    fresh = isinstance(n.value, ast.List) or (
                        isinstance(n.value, ast.Call) and isinstance(n.value.func, ast.Name) and n.value.func.id == 'sorted')
                    (new if fresh else other).add(t.id)
    return new - other


class Emit:
    def __init__(self, mod):
        self.mod = mod
        self.cls = ''        # the class around
        self.defs = []       # (lean name, first line, last line, text)
        self.skipped = []
        self.lists = set()   # local variables that hold a list of their own
        self.outside = False  # among the statements of the module itself
        self.manager = False  # in a context manager

    def mangle(self, n):
        if n.startswith('__') and not n.endswith('__') and self.cls:
            return '_' + self.cls.lstrip('_') + n
        return n

    # expressions -------------------------------------------------------------------------
    def e(self, n, loc):
        def r(x):
            return self.e(x, loc)
        if isinstance(n, ast.Name):
            return f'.loc {q(n.id)}' if n.id in loc else f'.glo {q(self.mangle(n.id))}'
        if isinstance(n, ast.Constant):
            v = n.value
            if v is None:
                return '.none'
            if v is True:
                return '.true'
            if v is False:
                return '.false'
            if isinstance(v, str):
                return f'.str {q(v)}'
            if isinstance(v, int):
                return f'.num ({v})'
            raise Unsupported(ast.dump(n))
        if isinstance(n, ast.UnaryOp) and isinstance(n.op, ast.USub) and isinstance(n.operand, ast.Constant):
            return f'.num (-{n.operand.value})'
        if isinstance(n, ast.UnaryOp) and isinstance(n.op, ast.Not):
            return f'.not ({r(n.operand)})'
        if isinstance(n, ast.Attribute):
            return f'.attr ({r(n.value)}) {q(self.mangle(n.attr))}'
        if isinstance(n, ast.Call):
            args = [r(a) for a in n.args]
            args += [f'.kw {q(k.arg)} ({r(k.value)})' if k.arg else f'.dstar ({r(k.value)})' for k in n.keywords]
            return f'.call ({r(n.func)}) [{", ".join(args)}]'
        if isinstance(n, ast.Starred):
            return f'.star ({r(n.value)})'
        if isinstance(n, ast.Compare):
            if len(n.ops) != 1:
                raise Unsupported('chained comparison')
            return f'.cmp .{CMP[type(n.ops[0])]} ({r(n.left)}) ({r(n.comparators[0])})'
        if isinstance(n, ast.BoolOp):
            op = 'and' if isinstance(n.op, ast.And) else 'or'
            out = r(n.values[-1])
            for v in reversed(n.values[:-1]):
                out = f'.{op} ({r(v)}) ({out})'
            return out
        if isinstance(n, ast.IfExp):
            return f'.ife ({r(n.test)}) ({r(n.body)}) ({r(n.orelse)})'
        if isinstance(n, ast.BinOp):
            return f'.bin {q(BIN[type(n.op)])} ({r(n.left)}) ({r(n.right)})'
        if isinstance(n, ast.Subscript):
            return f'.sub ({r(n.value)}) ({r(n.slice)})'
        if isinstance(n, ast.Slice):
            if n.step is not None:
                raise Unsupported('slice step')
            lo = r(n.lower) if n.lower else '.none'
            hi = r(n.upper) if n.upper else '.none'
            return f'.slice ({lo}) ({hi})'
        if isinstance(n, ast.Tuple):
            return f'.tuple [{", ".join(r(x) for x in n.elts)}]'
        if isinstance(n, ast.List):
            return f'.list [{", ".join(r(x) for x in n.elts)}]'
        if isinstance(n, ast.Dict):
            if any(k is None for k in n.keys):
                raise Unsupported('dict display with **')
            return '.dict [' + ", ".join(f'.tuple [{r(k)}, {r(v)}]' for k, v in zip(n.keys, n.values)) + ']'
        if isinstance(n, ast.JoinedStr):
            parts = []
            for p in n.values:
                if isinstance(p, ast.Constant):
                    parts.append(r(p))
                else:
                    if p.format_spec is not None:
                        raise Unsupported('format spec')
                    parts.append(f'.fmt {q(chr(p.conversion) if p.conversion > 0 else "")} ({r(p.value)})')
            return f'.fstr [{", ".join(parts)}]'
        if isinstance(n, (ast.ListComp, ast.GeneratorExp)):
            if len(n.generators) != 1 or not isinstance(n.generators[0].target, ast.Name):
                raise Unsupported('comprehension')
            g = n.generators[0]
            loc2 = loc | {g.target.id}
            cond = '.true'
            for c in reversed(g.ifs):
                cond = self.e(c, loc2) if cond == '.true' else f'.and ({self.e(c, loc2)}) ({cond})'
            kind = 'comp'
            return f'.{kind} ({self.e(n.elt, loc2)}) {q(g.target.id)} ({r(g.iter)}) ({cond})'
        if isinstance(n, ast.Lambda) and self.outside:
            name = f'_lambda_{n.lineno}'
            fake = ast.FunctionDef(name=name, body=[ast.Return(value=n.body)], decorator_list=[], args=n.args,
                                   lineno=n.lineno, end_lineno=n.end_lineno)
            self.fn(fake, [name], set())
            return f'.glo {q(name)}'
        raise Unsupported(type(n).__name__)

    # statements --------------------------------------------------------------------------
    def block(self, body, loc, path, ind):
        out = []
        for st in body:
            out += self.s(st, loc, path, ind)
        if not out:
            return '[]'
        pad = '\n' + ' ' * ind
        return '[' + (',' + pad).join(out) + ']'

    def s(self, n, loc, path, ind):
        lists = self.lists

        def e(x):
            return self.e(x, loc)

        def b(x):
            return self.block(x, loc, path, ind + 2)
        pad = '\n' + ' ' * (ind + 1)
        if isinstance(n, ast.Expr):
            if isinstance(n.value, ast.Constant):
                return []
            if isinstance(n.value, ast.Yield) and self.manager:
                x = '.none' if n.value.value is None else e(n.value.value)
                return [f'.expr (.call (.glo "%body") [{x}])']
            if isinstance(n.value, ast.Yield):
                return [f'.aug "+" (.loc "%yield") (.list [{e(n.value.value)}])']
            c = n.value
            if (isinstance(c, ast.Call) and isinstance(c.func, ast.Attribute) and isinstance(c.func.value, ast.Name)
                    and c.func.value.id in lists and not c.keywords):
                x = e(c.func.value)
                if c.func.attr == 'append' and len(c.args) == 1:
                    return [f'.aug "+" ({x}) (.list [{e(c.args[0])}])']
                if c.func.attr == 'insert' and isinstance(c.args[0], ast.Constant) and c.args[0].value == 0:
                    return [f'.assign ({x}) (.bin "+" (.list [{e(c.args[1])}]) ({x}))']
            return [f'.expr ({e(n.value)})']
        if isinstance(n, ast.Pass):
            return ['.pass']
        if isinstance(n, ast.Global):
            return []
        if isinstance(n, ast.ImportFrom) and not n.level:
            where = 'glo' if self.outside else 'loc'
            return [f'.assign (.{where} {q(a.asname or a.name)}) (.glo {q(n.module + "." + a.name)})' for a in n.names]
        if isinstance(n, ast.Import) and not any(a.asname for a in n.names):
            if self.outside:
                return [f'.expr (.glo {q("import " + a.name)})' for a in n.names]
            return [f'.assign (.loc {q(a.name.split(".")[0])}) (.glo {q("import " + a.name)})' for a in n.names]
        if isinstance(n, ast.ClassDef) and not self.outside and not n.keywords and all(isinstance(x, ast.Pass) for x in n.body):
            made = f'.call (.glo "class") [{", ".join([".str " + q(n.name)] + [e(x) for x in n.bases])}]'
            for d in reversed(n.decorator_list):
                made = f'.call ({e(d)}) [{made}]'
            return [f'.assign (.loc {q(n.name)}) ({made})']
        if isinstance(n, ast.Assign):
            if len(n.targets) != 1:
                raise Unsupported('several targets')
            return [f'.assign ({e(n.targets[0])}) ({e(n.value)})']
        if isinstance(n, ast.AugAssign):
            return [f'.aug {q(BIN[type(n.op)])} ({e(n.target)}) ({e(n.value)})']
        if isinstance(n, ast.Return):
            return [f'.ret ({e(n.value)})' if n.value else '.ret .none']
        if isinstance(n, ast.Raise):
            if n.cause is not None:
                raise Unsupported('raise from')
            return [f'.raise ({e(n.exc)})' if n.exc else '.reraise']
        if isinstance(n, ast.Delete) and self.outside and all(isinstance(t, ast.Name) for t in n.targets):
            return []
        if isinstance(n, ast.Delete):
            return [f'.del ({e(t)})' for t in n.targets]
        if isinstance(n, ast.If):
            return [f'.if ({e(n.test)}){pad}{b(n.body)}{pad}{b(n.orelse)}']
        if isinstance(n, ast.While):
            if n.orelse:
                raise Unsupported('while else')
            return [f'.while ({e(n.test)}){pad}{b(n.body)}']
        if isinstance(n, ast.For):
            if n.orelse:
                raise Unsupported('for else')
            return [f'.for ({e(n.target)}) ({e(n.iter)}){pad}{b(n.body)}']
        if isinstance(n, ast.Break):
            return ['.break']
        if isinstance(n, ast.Continue):
            return ['.continue']
        if isinstance(n, ast.Try):
            hs = []
            for h in n.handlers:
                ty = f'(some ({e(h.type)}))' if h.type else 'none'
                nm = f'(some {q(h.name)})' if h.name else 'none'
                hs.append(f'.handler {ty} {nm}{pad}  {self.block(h.body, loc, path, ind + 4)}')
            return [f'.try{pad}{b(n.body)}{pad}[{("," + pad).join(hs)}]{pad}{b(n.orelse)}{pad}{b(n.finalbody)}']
        if isinstance(n, ast.FunctionDef):
            if n.decorator_list:
                raise Unsupported('decorated inner function')
            if self.outside:
                self.fn(n, [n.name], set())
                return []
            self.fn(n, path + [n.name], loc)
            return [f'.fdef {q(n.name)} {q(".".join(path + [n.name]))}']
        raise Unsupported(type(n).__name__)

    # functions ---------------------------------------------------------------------------
    def fn(self, n, path, outer):
        bound, glob = assigned(n)
        loc = (outer - glob) | bound
        a = n.args
        if a.kwonlyargs or a.posonlyargs:
            raise Unsupported('argument kinds')
        defaults = [None] * (len(a.args) - len(a.defaults)) + list(a.defaults)
        ps = []
        for p, d in zip(a.args, defaults):
            ps.append(f'({q(p.arg)}, {"none" if d is None else "some (" + self.e(d, outer) + ")"})')
        star = f'(some {q(a.vararg.arg)})' if a.vararg else 'none'
        dstar = f'(some {q(a.kwarg.arg)})' if a.kwarg else 'none'
        outer_lists, self.lists = self.lists, own_lists(n)
        outside, self.outside = self.outside, False
        outer_manager = self.manager
        self.manager = any(isinstance(d, ast.Attribute) and d.attr == 'contextmanager' for d in n.decorator_list)
        body = self.block(n.body, loc, path, 4)
        manager, self.manager = self.manager, outer_manager
        self.outside = outside
        self.lists = outer_lists
        if not manager and any(isinstance(x, (ast.Yield, ast.YieldFrom)) for x in ast.walk(n)):
            pad = ',\n    '
            body = '[.assign (.loc "%yield") (.list [])' + pad + body[1:-1] + pad + '.ret (.loc "%yield")]'
        text = (f'def {".".join(path)} : Fn where\n  params := [{", ".join(ps)}]\n  star := {star}\n'
                f'  dstar := {dstar}\n  body :=\n   {body}\n')
        self.defs.append((n.lineno, n.end_lineno, text))

    def world(self, body, names):
        """The module-level loops and the assignments to `names`, as the body of a function without parameters."""
        kept = [n for n in body if isinstance(n, ast.For)
                or isinstance(n, ast.Assign) and isinstance(n.targets[0], ast.Name) and n.targets[0].id in names]
        fake = ast.FunctionDef(name='_world', body=kept, decorator_list=[], lineno=kept[0].lineno,
                               end_lineno=kept[-1].end_lineno,
                               args=ast.arguments(posonlyargs=[], args=[], kwonlyargs=[], kw_defaults=[], defaults=[]))
        self.fn(fake, ['_world'], set())

    def loops(self, body):
        """The module-level `for` statements, as the body of a function without parameters."""
        fors = [n for n in body if isinstance(n, ast.For)]
        if not fors:
            return
        fake = ast.FunctionDef(name='_loops', body=fors, decorator_list=[], lineno=fors[0].lineno,
                               end_lineno=fors[-1].end_lineno,
                               args=ast.arguments(posonlyargs=[], args=[], kwonlyargs=[], kw_defaults=[], defaults=[]))
        try:
            self.fn(fake, ['_loops'], set())
        except Unsupported as x:
            self.skipped.append(('module-level loops', str(x)))

    def statements(self, body):
        """The statements of the module itself."""
        self.outside = True
        out = []
        for n in body:
            if isinstance(n, (ast.Import, ast.ImportFrom, ast.ClassDef, ast.FunctionDef)):
                continue
            keep = len(self.defs)
            try:
                out += self.s(n, set(), [], 3)
            except Unsupported as x:
                del self.defs[keep:]
                self.skipped.append((f'the statement in line {n.lineno}', str(x)))
        self.outside = False
        text = 'def _module : List Stmt :=\n  [' + ',\n   '.join(out) + ']\n'
        self.defs.append((body[0].lineno, body[-1].end_lineno, text))

    def classes(self, body, names):
        """The assignments in the bodies of classes."""
        for n in body:
            if isinstance(n, ast.ClassDef) and n.name in names:
                self.outside = True
                out = []
                for x in n.body:
                    out += self.s(x, set(), [], 3)
                self.outside = False
                self.defs.append((n.lineno, n.end_lineno, f'def {n.name}._body : List Stmt :=\n  [' + ',\n   '.join(out) + ']\n'))

    def tables(self, body):
        """The methods of each class and the functions defined inside functions, by name."""
        known = {t.split()[1] for _, _, t in self.defs}
        out = []
        for n in body:
            if isinstance(n, ast.ClassDef):
                ms = [m.name for m in n.body if isinstance(m, ast.FunctionDef) and f'{n.name}.{m.name}' in known]
                if ms:
                    self.cls = n.name
                    items = ',\n   '.join(f'({q(self.mangle(m))}, {n.name}.{m})' for m in ms)
                    out.append((n.lineno, n.end_lineno, f'def {n.name}.methods : List (Name × Fn) :=\n  [{items}]\n'))
        return out

    def top(self, body, path):
        for n in body:
            if isinstance(n, ast.FunctionDef):
                keep = len(self.defs)
                try:
                    self.fn(n, path + [n.name], set())
                except Unsupported as x:
                    del self.defs[keep:]
                    self.skipped.append(('.'.join(path + [n.name]), str(x)))
            elif isinstance(n, ast.ClassDef):
                self.cls = n.name
                self.top(n.body, path + [n.name])
                self.cls = ''


def main():
    for mod, lean in MODULES.items():
        src = open(os.path.join(REPO, 'src', 'zope', 'security', mod + '.py')).read()
        em = Emit(mod)
        body = ast.parse(src).body
        em.top(body, [])
        em.loops(body)
        if mod in WORLDS:
            em.world(body, WORLDS[mod])
        if mod in BODIES:
            em.statements(body)
        em.classes(body, CLASSES.get(mod, []))
        em.defs += em.tables(body)
        out = ['import Verif.Model.PyCode', '', '/-!', f'# The functions of {mod}.py', '',
               'Written by tools/pysource.py from the text of the file; do not edit.  `_loops` are the',
               'module-level `for` statements, `C.methods` the functions in the body of the class `C`.']
        if em.skipped:
            out.append('Left out: ' + '; '.join(f'{a} ({b})' for a, b in em.skipped) + '.')
        out += ['-/', '', f'namespace ZS.Src.{lean}', 'open ZS ZS.PyC', '']
        for first, last, text in em.defs:
            out += [f'/-- {mod}.py:{first}-{last} -/', text]
        out += [f'end ZS.Src.{lean}', '']
        os.makedirs(OUT, exist_ok=True)
        with open(os.path.join(OUT, lean + '.lean'), 'w') as f:
            f.write('\n'.join(out))
        print(mod, len(em.defs), 'functions;', 'left out:', em.skipped)


main()
