#!/usr/bin/env python3
"""Write the module-level code of the Python modules of /repo as Lean terms (lean/Verif/Source/Modules.lean).

The files are read as text and parsed with the standard `ast` module; nothing of them is executed.  Written are the
statements of the module itself, in order and with the `if` and `try` statements around them: imports one name at a
time, assignments to names, functions and classes, `del`, assignments to an attribute of a name and to `x[..]` (and
`x.update(..)`); everything else is `work`.  With each goes the list of the global names that are read when it is executed: those in expressions,
decorators, default values, bases and bodies of classes; those in the bodies of functions only where a function of the
same module is called (then all the global names in its body, and in those of the functions it calls).  A relative
import is written with the full name of the module.  Docstrings are dropped.

Also written (lean/Verif/Source/Interfaces.lean): the interfaces of interfaces.py with the parameters of their methods and
their attributes, the classes and functions of all modules with their parameters, names and attributes set on `self` by
`__init__`, and the declarations (`implementer`, `implementer_if_needed`, `provider`, `moduleProvides`, `directlyProvides`, `classImplements`) at
module level.

Usage: python3 tools/modsource.py [REPO] [OUT]
"""
import ast
import os
import sys

REPO = sys.argv[1] if len(sys.argv) > 1 else '/repo'
OUT = sys.argv[2] if len(sys.argv) > 2 else os.path.join(
    os.path.dirname(os.path.dirname(os.path.abspath(__file__))), 'lean', 'Verif', 'Source')

MODULES = ['i18n', '_compat', 'interfaces', '_definitions', 'proxy', 'checker', 'decorator', 'simplepolicies', 'management',
           'permission', 'protectclass', 'zcml', 'testing', 'adapter', 'metaconfigure', 'metadirectives', '__init__']


def q(s):
    return '"' + s.replace('\\', '\\\\').replace('"', '\\"') + '"'


def ql(l):
    return '[' + ', '.join(q(x) for x in l) + ']'


def add(a, b):
    for x in b:
        if x not in a:
            a.append(x)
    return a


FUNCS = {}


def body_reads(fn, seen):
    """The global names in the body of a function, and of those of the module that it calls."""
    if fn.name in seen:
        return []
    seen.append(fn.name)
    a = fn.args
    local = {x.arg for x in a.posonlyargs + a.args + a.kwonlyargs + [y for y in (a.vararg, a.kwarg) if y]}
    glob = {x for n in ast.walk(fn) if isinstance(n, ast.Global) for x in n.names}
    for n in ast.walk(fn):
        if n is fn:
            continue
        if isinstance(n, (ast.FunctionDef, ast.ClassDef)):
            local.add(n.name)
            if isinstance(n, ast.FunctionDef):
                local |= {x.arg for x in n.args.args + [y for y in (n.args.vararg, n.args.kwarg) if y]}
        elif isinstance(n, ast.Lambda):
            local |= {x.arg for x in n.args.args + [y for y in (n.args.vararg, n.args.kwarg) if y]}
        elif isinstance(n, (ast.Import, ast.ImportFrom)):
            local |= set(binds(n))
        elif isinstance(n, ast.Name) and isinstance(n.ctx, ast.Store):
            local.add(n.id)
        elif isinstance(n, ast.ExceptHandler) and n.name:
            local.add(n.name)
    local -= glob
    out = []
    for st in fn.body:
        for n in ast.walk(st):
            if isinstance(n, ast.Name) and isinstance(n.ctx, ast.Load) and n.id not in local:
                add(out, [n.id])
            if isinstance(n, ast.Call) and isinstance(n.func, ast.Name) and n.func.id not in local and n.func.id in FUNCS:
                add(out, body_reads(FUNCS[n.func.id], seen))
    return out


def reads(n, hide=frozenset()):
    """The global names that are read when `n` is executed, in order."""
    out = []
    if isinstance(n, list):
        for x in n:
            add(out, reads(x, hide))
        return out
    if n is None:
        return out
    if isinstance(n, ast.Name):
        return [n.id] if isinstance(n.ctx, ast.Load) and n.id not in hide else []
    if isinstance(n, (ast.FunctionDef, ast.AsyncFunctionDef)):
        a = n.args
        return add(add(reads(n.decorator_list, hide), reads(a.defaults, hide)), reads([d for d in a.kw_defaults if d], hide))
    if isinstance(n, ast.Lambda):
        return add(reads(n.args.defaults, hide), reads([d for d in n.args.kw_defaults if d], hide))
    if isinstance(n, ast.ClassDef):
        add(out, reads(n.decorator_list, hide))
        add(out, reads(n.bases, hide))
        add(out, reads([k.value for k in n.keywords], hide))
        bound = set(hide)
        for st in n.body:
            add(out, reads(st, frozenset(bound)))
            bound |= set(binds(st))
        return out
    if isinstance(n, (ast.ListComp, ast.SetComp, ast.GeneratorExp, ast.DictComp)):
        inner = set(hide)
        for g in n.generators:
            inner |= {x.id for x in ast.walk(g.target) if isinstance(x, ast.Name)}
        for c in ast.iter_child_nodes(n):
            add(out, reads(c, frozenset(inner)))
        return out
    for c in ast.iter_child_nodes(n):
        add(out, reads(c, hide))
    if isinstance(n, ast.Call) and isinstance(n.func, ast.Name) and n.func.id not in hide and n.func.id in FUNCS:
        add(out, body_reads(FUNCS[n.func.id], []))
    return out


def binds(n):
    """The names a statement binds."""
    if isinstance(n, (ast.FunctionDef, ast.ClassDef)):
        return [n.name]
    if isinstance(n, (ast.Import, ast.ImportFrom)):
        return [(a.asname or a.name).split('.')[0] for a in n.names]
    return [x.id for x in ast.walk(n) if isinstance(x, ast.Name) and isinstance(x.ctx, ast.Store)]


def value(e):
    if isinstance(e, ast.Name):
        return f'.name {q(e.id)}'
    if isinstance(e, ast.Constant) and isinstance(e.value, bool):
        return f'.bool {str(e.value).lower()}'
    if isinstance(e, ast.UnaryOp) and isinstance(e.op, ast.Not) and isinstance(e.operand, ast.Name):
        return f'.not {q(e.operand.id)}'
    if isinstance(e, ast.Attribute) and isinstance(e.value, ast.Name):
        return f'.attr {q(e.value.id)} {q(e.attr)}'
    return '.other'


def test(e):
    if isinstance(e, ast.Name):
        return f'(.name {q(e.id)})'
    if isinstance(e, ast.UnaryOp) and isinstance(e.op, ast.Not) and isinstance(e.operand, ast.Name):
        return f'(.not {q(e.operand.id)})'
    return f'(.other {ql(reads(e))})'


def stmt(n, ind):
    pad = ',\n' + ' ' * ind
    if isinstance(n, ast.Expr) and isinstance(n.value, ast.Constant):
        return []
    if isinstance(n, ast.Pass):
        return []
    if isinstance(n, ast.Import):
        assert all(a.asname is None for a in n.names)
        return [f'.imp {q(a.name)}' for a in n.names]
    if isinstance(n, ast.ImportFrom):
        assert n.level <= 1
        m = n.module if n.level == 0 else 'zope.security.' + n.module if n.module else 'zope.security'
        return [f'.frm {q(m)} {q(a.name)} {q(a.asname or a.name)}' for a in n.names]
    if isinstance(n, (ast.FunctionDef, ast.ClassDef)):
        return [f'.make {q(n.name)} {ql(reads(n))}']
    if isinstance(n, ast.Assign):
        out = []
        for t in n.targets:
            if isinstance(t, ast.Name):
                out.append(f'.assign {q(t.id)} ({value(n.value)}) {ql(reads(n.value))}'.replace('(.other)', '.other'))
            elif isinstance(t, ast.Attribute) and isinstance(t.value, ast.Name):
                out.append(f'.setattr {q(t.value.id)} {q(t.attr)} {ql(reads(n.value))}')
            elif isinstance(t, ast.Subscript) and isinstance(t.value, ast.Name):
                out.append(f'.store {q(t.value.id)} {ql(reads(n.value))}')
            else:
                out.append(f'.work {ql(add(reads(n.value), reads(t)))} []')
        return out
    if isinstance(n, ast.Expr) and isinstance(n.value, ast.Call) and isinstance(n.value.func, ast.Attribute) \
            and isinstance(n.value.func.value, ast.Name) and n.value.func.attr == 'update':
        return [f'.store {q(n.value.func.value.id)} {ql(reads(n.value.args))}']
    if isinstance(n, ast.Delete):
        return [f'.del {q(t.id)}' for t in n.targets]
    if isinstance(n, ast.If):
        return [f'.ite {test(n.test)}\n{" " * (ind + 2)}{block(n.body, ind + 3)}\n{" " * (ind + 2)}{block(n.orelse, ind + 3)}']
    if isinstance(n, ast.Try):
        assert not n.finalbody and len(n.handlers) == 1
        h = n.handlers[0]
        assert h.name is None
        tys = [h.type.id] if isinstance(h.type, ast.Name) else [x.id for x in h.type.elts]
        return [f'.tryexc\n{" " * (ind + 2)}{block(n.body, ind + 3)}\n{" " * (ind + 2)}{ql(tys)}\n{" " * (ind + 2)}'
                f'{block(h.body, ind + 3)}\n{" " * (ind + 2)}{block(n.orelse, ind + 3)}']
    if isinstance(n, (ast.Expr, ast.For, ast.AugAssign)):
        return [f'.work {ql(reads(n))} {ql(binds(n))}']
    raise ValueError(ast.dump(n))


def block(body, ind):
    out = []
    for n in body:
        out += stmt(n, ind)
    return '[' + (',\n' + ' ' * ind).join(out) + ']'


def main():
    t = ['import Verif.Model.PyTop', '', '/-!', '# The module-level code of the Python modules', '',
         'Written by tools/modsource.py from the text of the files; do not edit.', '-/', '', 'namespace ZS.Top', 'namespace Src', '']
    for m in MODULES:
        src = open(os.path.join(REPO, 'src', 'zope', 'security', m + '.py')).read()
        body = ast.parse(src).body
        FUNCS.clear()
        FUNCS.update({n.name: n for n in ast.walk(ast.Module(body=body, type_ignores=[])) if isinstance(n, ast.FunctionDef)
                      and any(n in getattr(b, f, []) for b in [ast.Module(body=body, type_ignores=[])] + body
                              for f in ('body', 'orelse') if not isinstance(b, ast.ClassDef))})
        name = {'__init__': 'init', '_compat': 'compat', '_definitions': 'definitions'}.get(m, m)
        t += [f'/-- {m}.py -/', f'def {name} : List Top :=', f'  {block(body, 3)}', '']
    t += ['end Src', 'end ZS.Top', '']
    open(os.path.join(OUT, 'Modules.lean'), 'w').write('\n'.join(t))


# Interfaces, classes, functions, and who declares what.

def sig(fn):
    a = fn.args
    return f'⟨0, {ql([x.arg for x in a.args])}, {len(a.args) - len(a.defaults)}, {str(a.vararg is not None).lower()}⟩'


def plain(fn):
    """A function without `/`, `*,` and `**` among its parameters; others are left out."""
    return isinstance(fn, ast.FunctionDef) and not (fn.args.posonlyargs or fn.args.kwonlyargs or fn.args.kwarg)


def named(e):
    """The last part of a dotted name."""
    return e.attr if isinstance(e, ast.Attribute) else e.id


def contracts():
    ifaces, classes, funcs, decls = [], [], [], []
    for m in MODULES:
        src = open(os.path.join(REPO, 'src', 'zope', 'security', m + '.py')).read()
        body = ast.parse(src).body
        known = {'Interface', 'IException', 'IAttributeError'}
        flat = []
        for n in body:
            flat += n.body if isinstance(n, ast.If) else [n]
        for n in flat:
            if isinstance(n, ast.ClassDef) and m == 'interfaces' and any(isinstance(b, ast.Name) and b.id in known for b in n.bases):
                known.add(n.name)
                ms = [f'({q(x.name)}, {sig(x)})' for x in n.body if plain(x)]
                at = [q(x.targets[0].id) for x in n.body if isinstance(x, ast.Assign)]
                ifaces.append(f'⟨{q(n.name)}, {ql([named(b) for b in n.bases])}, [{", ".join(ms)}], [{", ".join(at)}]⟩')
            elif isinstance(n, ast.ClassDef):
                ms = [f'({q(x.name)}, {sig(x)})' for x in n.body if plain(x)]
                sets = [(t.id, x.value) for x in n.body if isinstance(x, ast.Assign) for t in x.targets if isinstance(t, ast.Name)]
                at = [t for t, _ in sets]
                al = [f'({q(t)}, {q(v.id)})' for t, v in sets if isinstance(v, ast.Name)]
                for x in n.body:
                    if isinstance(x, ast.FunctionDef) and x.name == '__init__':
                        add(at, [t.attr for y in x.body if isinstance(y, ast.Assign) for t in y.targets
                                 if isinstance(t, ast.Attribute) and isinstance(t.value, ast.Name) and t.value.id == 'self'])
                classes.append(f'⟨{q(m)}, {q(n.name)}, {ql([named(b) for b in n.bases])}, [{", ".join(ms)}], [{", ".join(al)}], {ql(at)}⟩')
                for d in n.decorator_list:
                    if isinstance(d, ast.Call) and named(d.func) in ('implementer', 'implementer_if_needed', 'provider'):
                        k = 'obj' if named(d.func) == 'provider' else 'cls'
                        decls += [f'.{k} {q(m)} {q(n.name)} {q(named(i))}' for i in d.args]
            elif plain(n):
                funcs.append(f'⟨{q(m)}, {q(n.name)}, {sig(n)}⟩')
            elif isinstance(n, ast.Expr) and isinstance(n.value, ast.Call):
                f, a = named(n.value.func), n.value.args
                if f == 'moduleProvides':
                    decls += [f'.mod {q(m)} {q(named(i))}' for i in a]
                elif f == 'directlyProvides':
                    decls += [f'.obj {q(m)} {q(named(a[0]))} {q(named(i))}' for i in a[1:]]
                elif f == 'classImplements':
                    decls += [f'.cls {q(m)} {q(named(a[0]))} {q(named(i))}' for i in a[1:]]
    t = ['import Verif.Model.PyContract', '', '/-!', '# Interfaces, and who declares them', '',
         'Written by tools/modsource.py from the text of the files; do not edit.', '-/', '', 'namespace ZS.Contract', 'namespace Src', '']
    for name, ty, l in [('ifaces', 'Iface', ifaces), ('classes', 'Cls', classes), ('functions', 'Fun', funcs), ('declared', 'Decl', decls)]:
        t += [f'def {name} : List {ty} :=', '  [' + ',\n   '.join(l) + ']', '']
    t += ['end Src', 'end ZS.Contract', '']
    open(os.path.join(OUT, 'Interfaces.lean'), 'w').write('\n'.join(t))


main()
contracts()
