"""Writes the syntax trees of stream.py, types.py and PduFactory.py as Lean data: lean/Verif/Source/IoNames.lean and Io.lean.

  python3 tools/genio.py        (run in /verif, after gensource.py)

Node by node from Python's own parser; the meaning of the nodes is in lean/Verif/Py/Io.lean. Strings are lists of code
points. Names that gensource.py has numbered keep their numbers."""
import ast
import os
import re

from gensource import KEYWORDS, OUT, REPO, lst, par

WORDS = ['self', '__init__', 'struct', 'pack', 'unpack', 'io', 'BytesIO', 'open', 'stream', 'read', 'write', 'seek', 'keys',
         'chr', 'ord', 'len', 'int', 'float', 'str', 'DataInputStream', 'DataOutputStream']
old = {}
for x, n in re.findall(r'^abbrev (\S+) : Ident := (\d+)$', open(f'{OUT}/Names.lean').read(), re.M):
    old[x.strip('«»')] = int(n)
names = dict(old)


def ident(x):
    names.setdefault(x, len(names))
    return 'I.' + (f'«{x}»' if x in KEYWORDS else x)


def expr(e):
    if isinstance(e, ast.Name):
        return f'.name {ident(e.id)}'
    if isinstance(e, ast.Constant):
        v = e.value
        if v is None:
            return '.none'
        if isinstance(v, int) and not isinstance(v, bool):
            return f'.int {v}'
        if isinstance(v, str):
            return f'.str {lst([str(ord(c)) for c in v])}'
        return '.other'
    if isinstance(e, ast.Attribute):
        return f'.attr {par(expr(e.value))} {ident(e.attr)}'
    if isinstance(e, ast.Call) and not e.keywords:
        args = lst([expr(a) for a in e.args])
        f = e.func
        if isinstance(f, ast.Name):
            return f'.call {ident(f.id)} {args}'
        if isinstance(f, ast.Attribute):
            return f'.method {par(expr(f.value))} {ident(f.attr)} {args}'
        return '.other'
    if isinstance(e, ast.Subscript):
        return f'.index {par(expr(e.value))} {par(expr(e.slice))}'
    if isinstance(e, ast.Compare) and len(e.ops) == 1 and isinstance(e.ops[0], ast.In):
        return f'.isIn {par(expr(e.left))} {par(expr(e.comparators[0]))}'
    if isinstance(e, ast.Dict):
        ks, vs = [expr(x) for x in e.keys], [expr(x) for x in e.values]
        wrap = lambda xs: '[' + ',\n    '.join(', '.join(xs[i:i + 4]) for i in range(0, len(xs), 4)) + ']'
        return f'.dict\n   {wrap(ks)}\n   {wrap(vs)}'
    return '.other'


def stmts(ss, ind):
    out = [stmt(s, ind) for s in ss if not (isinstance(s, ast.Expr) and isinstance(s.value, ast.Constant))]
    return '[' + f',\n{ind}'.join(out) + ']'


def stmt(s, ind):
    i2 = ind + '  '
    if isinstance(s, ast.Expr):
        return f'.expr {par(expr(s.value))}'
    if isinstance(s, ast.Assign) and len(s.targets) == 1:
        return f'.assign {par(expr(s.targets[0]))} {par(expr(s.value))}'
    if isinstance(s, ast.If):
        return f'.ite {par(expr(s.test))}\n{i2}{stmts(s.body, i2 + " ")}\n{i2}{stmts(s.orelse, i2 + " ")}'
    if isinstance(s, ast.With) and len(s.items) == 1 and isinstance(s.items[0].optional_vars, ast.Name):
        w = s.items[0]
        return f'.withAs {par(expr(w.context_expr))} {ident(w.optional_vars.id)}\n{i2}{stmts(s.body, i2 + " ")}'
    if isinstance(s, ast.Return):
        return f'.ret {par(expr(s.value))}' if s.value else '.ret .none'
    return '.other'


def function(cite, name, m, skip):
    params = lst([ident(a.arg) for a in m.args.args[skip:]])
    assert not m.args.defaults and not m.args.kwonlyargs and not m.args.vararg and not m.decorator_list
    return (f'/-- `{name}`, {cite}:{m.lineno}-{m.end_lineno}. -/\ndef {name} : Fn where\n  params := {params}\n  body :=\n'
            f'   {stmts(m.body, "    ")}\n')


def table(rows):
    return '[' + ',\n   '.join(rows) + ']'


def main():
    for w in WORDS:
        ident(w)
    o, classes, functions = [], [], []
    cite = '/repo/opendis/stream.py'
    for c in ast.parse(open(f'{REPO}opendis/stream.py').read()).body:
        if isinstance(c, ast.ClassDef):
            ms = [m for m in c.body if isinstance(m, ast.FunctionDef)]
            assert len(ms) == len([m for m in c.body if not isinstance(m, ast.Expr)]) and not c.bases
            o += [function(cite, f'{c.name}.{m.name}', m, 1) for m in ms]
            o.append(f'/-- `class {c.name}`, {cite}:{c.lineno}-{c.end_lineno}. -/\ndef {c.name} : List (Ident × Fn) :=\n  '
                     + table([f'({ident(m.name)}, {c.name}.{m.name})' for m in ms]) + '\n')
            classes.append(c.name)
    t = ast.parse(open(f'{REPO}opendis/types.py').read()).body
    rows = [f'({ident(s.targets[0].id)}, {ident(s.value.id)})' for s in t if isinstance(s, ast.Assign)]
    o.append('/-- The names of types, /repo/opendis/types.py:12-34. -/\ndef types : List (Ident × Ident) :=\n  '
             + table(rows) + '\n')
    cite = '/repo/opendis/PduFactory.py'
    consts = []
    for s in ast.parse(open(f'{REPO}opendis/PduFactory.py').read()).body:
        if isinstance(s, ast.FunctionDef):
            o.append(function(cite, s.name, s, 0))
            functions.append(s.name)
        elif isinstance(s, ast.Assign) and isinstance(s.value, ast.Dict):
            x = s.targets[0].id
            o.append(f'/-- `{x}`, {cite}:{s.lineno}-{s.end_lineno}. -/\ndef {x} : Expr :=\n  {expr(s.value)}\n')
            consts.append(x)
    o.append('/-- The three modules (/repo/opendis/stream.py, /repo/opendis/types.py, /repo/opendis/PduFactory.py). -/\n'
             'def modules : Modules where\n'
             f'  classes := {lst([f"({ident(c)}, {c})" for c in classes])}\n  types := types\n'
             f'  functions := {lst([f"({ident(c)}, {c})" for c in functions])}\n'
             f'  constants := {lst([f"({ident(c)}, {c})" for c in consts])}\n')
    head = 'Written by `tools/genio.py` from the Python source.'
    open(f'{OUT}/Io.lean', 'w').write(
        'import Verif.Py.Io\n\n/-!\n# The syntax trees of the streams and of the factory\n\n' + head
        + '\n-/\n\nnamespace Dis.Io\n\nopen Src\n\n' + '\n'.join(o) + '\nend Dis.Io\n')
    new = [(x, n) for x, n in names.items() if x not in old]
    q = lambda x: f'«{x}»' if x in KEYWORDS else x
    open(f'{OUT}/IoNames.lean', 'w').write(
        'import Verif.Source.Table\n\n/-!\n# Further names in the source\n\n' + head + '\n-/\n\nnamespace Dis.Src\n\nnamespace I\n\n'
        + ''.join(f'/-- The name `{x}` in /repo/opendis. -/\nabbrev {q(x)} : Ident := {n}\n' for x, n in new)
        + '\nend I\n\n/-- Every name in the streams and the factory that the records do not have, with its number (/repo/opendis). -/\n'
        'def ioNames : List (String × Ident) :=\n  [' + ',\n   '.join(f'("{x}", I.{q(x)})' for x, n in new) + ']\n\nend Dis.Src\n')


if __name__ == '__main__':
    main()
