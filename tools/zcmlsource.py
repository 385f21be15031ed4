#!/usr/bin/env python3
"""Write the schemas of the directives and the ZCML files of /repo as Lean terms.

The files are read as text: metadirectives.py and zcml.py with the standard `ast` module, meta.zcml,
configure.zcml and permissions.zcml with the standard expat parser.  Nothing is executed.

Of a schema, the attributes are written in the order of their definition: the name, the class of the field, the class of
its `value_type`, and whether it is required (the default of zope.schema is that it is).  Classes are written with the module
the name was imported from, or this module.  Of a ZCML file, the elements with their namespaces, names and attributes are
written; attributes in namespaces do not occur.

Usage: python3 tools/zcmlsource.py [REPO] [OUT]
"""
import ast
import os
import sys
from xml.parsers import expat

REPO = sys.argv[1] if len(sys.argv) > 1 else '/repo'
OUT = sys.argv[2] if len(sys.argv) > 2 else os.path.join(
    os.path.dirname(os.path.abspath(__file__)), '..', 'lean', 'Verif', 'Source')
PKG = os.path.join(REPO, 'src', 'zope', 'security')


def q(s):
    return '"' + s.replace('\\', '\\\\').replace('"', '\\"').replace('\n', '\\n') + '"'


def dotted(e):
    if isinstance(e, ast.Name):
        return e.id
    if isinstance(e, ast.Attribute):
        return dotted(e.value) + '.' + e.attr
    raise ValueError(ast.dump(e))


def schemas(mod):
    body = ast.parse(open(os.path.join(PKG, mod + '.py')).read()).body
    names = {}
    for n in body:
        if isinstance(n, ast.ImportFrom):
            for a in n.names:
                names[a.asname or a.name] = n.module + '.' + a.name
        elif isinstance(n, ast.ClassDef):
            names[n.name] = f'zope.security.{mod}.{n.name}'

    def full(e):
        first, *rest = dotted(e).split('.')
        return '.'.join([names.get(first, first)] + rest)

    for n in body:
        if not (isinstance(n, ast.ClassDef) and [full(b) for b in n.bases] == ['zope.interface.Interface']):
            continue
        fields = []
        for s in n.body:
            if isinstance(s, ast.Expr) and isinstance(s.value, ast.Constant):
                continue
            assert isinstance(s, ast.Assign) and len(s.targets) == 1 and isinstance(s.value, ast.Call) and not s.value.args
            kws = {k.arg: k.value for k in s.value.keywords}
            assert set(kws) <= {'title', 'description', 'required', 'value_type'}, kws
            item = 'none'
            if 'value_type' in kws:
                v = kws['value_type']
                assert isinstance(v, ast.Call) and not v.args and not v.keywords
                item = f'some {q(full(v.func))}'
            required = kws['required'].value if 'required' in kws else True
            fields.append(f'⟨{q(s.targets[0].id)}, {q(full(s.value.func))}, {item}, {str(required).lower()}⟩')
        yield n, fields


def element(path):
    stack = [[]]

    def start(name, attrs):
        assert not any(' ' in a for a in attrs)
        stack.append([])
        stack[-1].append((name.split(' '), attrs))

    def end(name):
        (ns, local), attrs = stack[-1][0]
        children = stack.pop()[1:]
        stack[-1].append((ns, local, attrs, children))

    p = expat.ParserCreate(namespace_separator=' ')
    p.ordered_attributes = False
    p.StartElementHandler = start
    p.EndElementHandler = end
    p.Parse(open(path, 'rb').read(), True)
    return stack[0][0]


def lean(e, ind):
    ns, local, attrs, children = e
    a = ', '.join(f'({q(k)}, {q(v)})' for k, v in attrs.items())
    head = f'.el {q(ns)} {q(local)} [{a}]'
    if not children:
        return head + ' []'
    return head + '\n' + ' ' * ind + '[' + (',\n' + ' ' * (ind + 1)).join(lean(c, ind + 2) for c in children) + ']'


def main():
    out = ['import Verif.Model.Xml', '', '/-!', '# The schemas of the directives', '',
           'Written by tools/zcmlsource.py from the text of metadirectives.py and zcml.py; do not edit.', '-/', '',
           'namespace ZS.Src', 'open ZS', '']
    table = []
    for mod in ('metadirectives', 'zcml'):
        for n, fields in schemas(mod):
            out += [f'/-- {mod}.py:{n.lineno}-{n.end_lineno} -/', f'def {n.name} : List SField :=',
                    '  [' + ',\n   '.join(fields) + ']', '']
            table.append(f'({q(f"zope.security.{mod}.{n.name}")}, {n.name})')
    out += ['/-- The schemas by their names. -/', 'def schemas : List (String × List SField) :=',
            '  [' + ',\n   '.join(table) + ']', '', 'end ZS.Src', '']
    os.makedirs(OUT, exist_ok=True)
    open(os.path.join(OUT, 'Schemas.lean'), 'w').write('\n'.join(out))
    out = ['import Verif.Model.Xml', '', '/-!', '# The ZCML files of the package', '',
           'Written by tools/zcmlsource.py from the text of the files; do not edit.', '-/', '',
           'namespace ZS.Src', 'open ZS', '']
    for name, file in (('metaZcml', 'meta.zcml'), ('configureZcml', 'configure.zcml'), ('permissionsZcml', 'permissions.zcml')):
        out += [f'/-- {file} -/', f'def {name} : Xml :=', '  ' + lean(element(os.path.join(PKG, file)), 3), '']
    out += ['end ZS.Src', '']
    open(os.path.join(OUT, 'Files.lean'), 'w').write('\n'.join(out))


main()
