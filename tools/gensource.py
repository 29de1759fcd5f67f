"""Writes the syntax trees of the record and PDU classes as Lean data: lean/Verif/Source/*.lean.

  python3 tools/gensource.py        (run in /verif)

Node by node from Python's own parser; the meaning of the nodes is in lean/Verif/Py/Source.lean."""
import ast
import os
import struct
import textwrap

REPO = '/repo/'
FILES = ['opendis/record/common.py', 'opendis/record/base.py', 'opendis/record/__init__.py',
         'opendis/record/radio/__init__.py', 'opendis/record/warfare/__init__.py', 'opendis/record/warfare/enums.py',
         'opendis/dis7.py']
OUT = os.path.join(os.path.dirname(os.path.abspath(__file__)), '../lean/Verif/Source')
KEYWORDS = {'_', 'end', 'from', 'open', 'where', 'in', 'at', 'then', 'do', 'by', 'have', 'let', 'fun', 'if', 'else', 'for',
            'match', 'with', 'infix', 'class', 'structure', 'type', 'import', 'return', 'section', 'prefix', 'initialize'}
WORDS = ['self', '__class__', '__init__', 'len', 'range', 'list', 'append', 'serialize', 'parse', 'outputStream',
         'inputStream', 'marshalledSize']
# functions of the modules, methods of a class `__module__`; tables of the modules, read where they are used
FUNCTIONS = ['getStandardVariableClass', 'parseStandardVariableRecord']
TABLES = {}
# attributes that hold values which are called; no class has a method of this name
CALLED = ['_struct']

names = {}


def ident(x):
    names.setdefault(x, len(names))
    return 'I.' + (f'«{x}»' if x in KEYWORDS else x)


OPS = {ast.Add: 'add', ast.Sub: 'sub', ast.Mult: 'mul', ast.FloorDiv: 'floordiv', ast.Mod: 'mod', ast.BitAnd: 'bitand'}
CMPS = {ast.Eq: 'eq', ast.NotEq: 'ne', ast.Lt: 'lt', ast.LtE: 'le', ast.Gt: 'gt', ast.GtE: 'ge', ast.Is: 'is',
        ast.IsNot: 'isNot', ast.In: 'isIn'}
ERRORS = {'ValueError': 'valueError', 'TypeError': 'typeError', 'AttributeError': 'attributeError'}


def lst(xs):
    return '[' + ', '.join(xs) + ']'


def par(x):
    return x if ' ' not in x or x[0] in '[(' else f'({x})'


def expr(e):
    if isinstance(e, ast.Name):
        return f'.name {ident(e.id)}'
    if isinstance(e, ast.Constant):
        v = e.value
        if v is None:
            return '.none'
        if isinstance(v, bool):
            return f'.bool {str(v).lower()}'
        if isinstance(v, int):
            return f'.int {v}' if v >= 0 else f'.int ({v})'
        if isinstance(v, float):
            return f'.float 0x{struct.unpack(">Q", struct.pack(">d", v))[0]:016x}'
        if v == b'':
            return '.bytes []'
        return '.other'
    if isinstance(e, ast.UnaryOp) and isinstance(e.op, ast.USub) and isinstance(e.operand, ast.Constant):
        return expr(ast.Constant(-e.operand.value))
    if isinstance(e, ast.Attribute):
        return f'.attr {par(expr(e.value))} {ident(e.attr)}'
    if isinstance(e, ast.Call):
        args = lst([expr(a) for a in e.args] + [expr(k.value) for k in e.keywords])
        kws = lst([ident(k.arg) for k in e.keywords])
        f = e.func
        if isinstance(f, ast.Name) and f.id == 'hasattr':
            return f'.hasattr {par(expr(e.args[0]))} {ident(e.args[1].value)}'
        if isinstance(f, ast.Name) and f.id == 'isinstance' and isinstance(e.args[1], ast.Name) and e.args[1].id == 'int':
            return f'.isInt {par(expr(e.args[0]))}'
        if isinstance(f, ast.Name) and f.id in ('int', 'bool') and len(e.args) == 1 and not e.keywords:
            return f'.to{f.id.capitalize()} {par(expr(e.args[0]))}'
        if isinstance(f, ast.Name) and f.id == 'issubclass':
            return f'.issubclass {par(expr(e.args[0]))} {par(expr(e.args[1]))}'
        if isinstance(f, ast.Name) and f.id in FUNCTIONS:
            return f'.func {ident(f.id)} {args} {kws}'
        if isinstance(f, ast.Attribute) and f.attr == 'get' and isinstance(f.value, ast.Name) and f.value.id in TABLES:
            table = lst([f'({k.value}, {ident(v.id)})' for k, v in TABLES[f.value.id]])
            return f'.lookup {table} {par(expr(e.args[0]))} {par(expr(e.args[1]))}'
        if isinstance(f, ast.Attribute) and f.attr == 'bitfield' and isinstance(f.value, ast.Name) and f.value.id == 'bitfield':
            fields = next(k.value for k in e.keywords if k.arg == 'fields')
            return '.bitfield ' + lst([f'({ident(t.elts[0].value)}, ' + '{ isInteger := '
                                       + str(ast.unparse(t.elts[1]) == 'bitfield.INTEGER').lower()
                                       + f', bits := some {t.elts[2].value} }})' for t in fields.elts])
        if isinstance(f, ast.Attribute) and f.attr in CALLED and not e.keywords:
            return f'.apply {par(expr(f))} {args}'
        if isinstance(f, ast.Name) and f.id in ('ord', 'bytes') and len(e.args) == 1 and not e.keywords:
            ident(f.id)
            return f'.prim .{f.id} {par(expr(e.args[0]))}'
        if isinstance(f, ast.Name) and f.id == 'filter' and len(e.args) == 2 and ast.unparse(e.args[0]) == 'None':
            ident(f.id)
            return f'.prim .filter {par(expr(e.args[1]))}'
        if isinstance(f, ast.Attribute) and f.attr == 'decode' and ast.unparse(e.args[0]) == "'utf-8'" and len(e.args) == 1:
            x = par(expr(f.value))
            ident(f.attr)
            return f'.prim .decode {x}'
        if isinstance(f, ast.Name):
            return f'.call {ident(f.id)} {args} {kws}'
        if isinstance(f, ast.Attribute) and isinstance(f.value, ast.Call) and isinstance(f.value.func, ast.Name) \
                and f.value.func.id == 'super':
            a = f.value.args
            if a:
                assert isinstance(a[1], ast.Name) and a[1].id == 'self'
                return f'.super (some {ident(a[0].id)}) {ident(f.attr)} {args} {kws}'
            return f'.super none {ident(f.attr)} {args} {kws}'
        if isinstance(f, ast.Attribute):
            return f'.method {par(expr(f.value))} {ident(f.attr)} {args} {kws}'
        return '.other'
    if isinstance(e, ast.Subscript):
        return f'.index {par(expr(e.value))} {par(expr(e.slice))}'
    if isinstance(e, ast.BinOp) and type(e.op) in OPS:
        return f'.bin .{OPS[type(e.op)]} {par(expr(e.left))} {par(expr(e.right))}'
    if isinstance(e, ast.BoolOp) and len(e.values) == 2:
        return f'.{"or" if isinstance(e.op, ast.Or) else "and"} {par(expr(e.values[0]))} {par(expr(e.values[1]))}'
    if isinstance(e, ast.UnaryOp) and isinstance(e.op, ast.Not):
        return f'.not {par(expr(e.operand))}'
    if isinstance(e, ast.Compare) and len(e.ops) == 1 and type(e.ops[0]) in CMPS:
        return f'.cmp .{CMPS[type(e.ops[0])]} {par(expr(e.left))} {par(expr(e.comparators[0]))}'
    if isinstance(e, ast.IfExp):
        return f'.ite {par(expr(e.test))} {par(expr(e.body))} {par(expr(e.orelse))}'
    if isinstance(e, (ast.List, ast.Tuple)):
        return f'.list {lst([expr(x) for x in e.elts])}'
    return '.other'


def stmts(ss, ind):
    out = []
    for s in ss:
        if isinstance(s, ast.Expr) and isinstance(s.value, ast.Constant):
            continue
        out.append(stmt(s, ind))
    if not out:
        return '[]'
    return '[' + f',\n{ind}'.join(out) + ']'


def stmt(s, ind):
    i2 = ind + '  '
    if isinstance(s, ast.Expr):
        return f'.expr {par(expr(s.value))}'
    if isinstance(s, ast.Assign) and len(s.targets) == 1:
        return f'.assign {par(expr(s.targets[0]))} {par(expr(s.value))}'
    if isinstance(s, ast.AnnAssign):
        return f'.assign {par(expr(s.target))} {par(expr(s.value))}' if s.value else '.pass'
    if isinstance(s, ast.AugAssign) and isinstance(s.op, ast.Add):
        return f'.augAdd {par(expr(s.target))} {par(expr(s.value))}'
    if isinstance(s, ast.For) and isinstance(s.target, ast.Name) and not s.orelse:
        return f'.for {ident(s.target.id)} {par(expr(s.iter))}\n{i2}{stmts(s.body, i2 + " ")}'
    if isinstance(s, ast.If):
        return f'.ite {par(expr(s.test))}\n{i2}{stmts(s.body, i2 + " ")}\n{i2}{stmts(s.orelse, i2 + " ")}'
    if isinstance(s, ast.Return):
        return f'.ret {par(expr(s.value))}' if s.value else '.ret .none'
    if isinstance(s, ast.Raise) and isinstance(s.exc, ast.Call) and s.exc.func.id in ERRORS:
        return f'.raise .{ERRORS[s.exc.func.id]}'
    if isinstance(s, ast.Pass):
        return '.pass'
    if isinstance(s, ast.Assert):
        return f'.assert {par(expr(s.test))}'
    if isinstance(s, ast.ClassDef):
        return f'.classDef {ident(s.name)}'
    return '.other'


def has_other(t):
    return '.other' in t


class K:
    pass


def load():
    ks = []
    fs = []
    for f in FILES:
        tree = ast.parse(open(REPO + f).read())
        todo = []
        for c in tree.body:
            if isinstance(c, ast.AnnAssign) and isinstance(c.value, ast.Dict):
                TABLES[c.target.id] = list(zip(c.value.keys, c.value.values))
            if isinstance(c, ast.FunctionDef) and c.name in FUNCTIONS:
                fs.append((f, c))
                todo += [d for d in c.body if isinstance(d, ast.ClassDef)]
            elif isinstance(c, ast.ClassDef):
                todo.append(c)
        for c in todo:
            k = K()
            k.name, k.file, k.node = c.name, f, c
            k.bases = [b.id for b in c.bases if isinstance(b, ast.Name)] \
                + [b.attr for b in c.bases if isinstance(b, ast.Attribute) and ast.unparse(b.value) == 'base']
            k.lines = (c.lineno, c.end_lineno)
            k.attrs, k.methods = [], []
            for m in c.body:
                if isinstance(m, ast.FunctionDef):
                    k.methods.append(m)
                elif isinstance(m, ast.AnnAssign) and m.value is not None:
                    k.attrs.append((m.target.id, m.value, m.lineno))
                elif isinstance(m, ast.Assign):
                    k.attrs.append((m.targets[0].id, m.value, m.lineno))
            ks.append(k)
    return ks, fs


def own_fields(k):
    """attributes assigned to self, in order"""
    out = [a[0] for a in k.attrs]
    for m in k.methods:
        for s in ast.walk(m):
            t = s.targets if isinstance(s, ast.Assign) else [s.target] if isinstance(s, (ast.AnnAssign, ast.AugAssign)) else []
            for x in t:
                if isinstance(x, ast.Attribute) and isinstance(x.value, ast.Name) and x.value.id == 'self' \
                        and x.attr not in out:
                    out.append(x.attr)
    return out


def number(ks):
    by = {k.name: k for k in ks}
    def depth(k):
        return 0 if not k.bases or k.bases[0] not in by else 1 + depth(by[k.bases[0]])
    bases = {b for k in ks for b in k.bases}
    for k in sorted([k for k in ks if k.name in bases], key=depth):
        for f in own_fields(k):
            ident(f)
    for w in WORDS:
        ident(w)


def method(prefix, cite, m):
    a = m.args
    ps = [x.arg for x in a.args]
    static = not ps or ps[0] != 'self'
    defaults = [None] * (len(ps) - len(a.defaults)) + list(a.defaults)
    params = [(p, d) for p, d in zip(ps, defaults)]
    if not static:
        params = params[1:]
    prop = any(isinstance(d, ast.Name) and d.id == 'property' for d in m.decorator_list)
    pt = lst([f'({ident(p)}, ' + (f'some ({expr(d)})' if d is not None else 'none') + ')' for p, d in params])
    lines = textwrap.wrap(pt, 110, subsequent_indent='   ', break_long_words=False, break_on_hyphens=False)
    return (f'/-- `{prefix}{m.name}`, {cite}:{m.lineno}-{m.end_lineno}. -/\n'
            f'def {prefix}{m.name if m.name not in KEYWORDS else "«"+m.name+"»"} : Method where\n'
            f'  params := ' + '\n'.join(lines) + '\n'
            f'  property := {str(prop).lower()}\n'
            f'  body :=\n   {stmts(m.body, "    ")}\n')


HEAD = '''{imp}
/-!
# {title}

Written by `tools/gensource.py` from the Python source.
-/

namespace Dis.Src

'''


def main():
    ks, fs = load()
    number(ks)
    by = {k.name: k for k in ks}
    parts = {}
    for k in ks:
        part = 'Records' if 'record/' in k.file else ('Dis1' if k.lines[0] < 1900 else 'Dis2' if k.lines[0] < 3420 else
                                                     'Dis3' if k.lines[0] < 5300 else 'Dis4')
        o = parts.setdefault(part, [])
        cite = f'/repo/{k.file}'
        for m in k.methods:
            o.append(method(k.name + '.', cite, m))
        base = k.bases[0] if k.bases and k.bases[0] in by else None
        o.append(f'/-- `class {k.name}`, {cite}:{k.lines[0]}-{k.lines[1]}. -/\ndef {k.name} : Class where\n'
                 f'  base := ' + (f'some {ident(base)}' if base else 'none') + '\n'
                 '  attrs := ' + lst([f'({ident(a)}, {expr(v)})' for a, v, _ in k.attrs]) + '\n'
                 '  methods :=\n   ' + '[' + ',\n    '.join(f'({ident(m.name)}, {k.name}.{m.name})' for m in k.methods) + ']\n')
        ident(k.name)
    o = parts['Functions'] = []
    for f, m in fs:
        o.append(method('Module.', f'/repo/{f}', m))
    o.append('/-- The functions of the modules, /repo/opendis/record/__init__.py:41-88 and /repo/opendis/dis7.py:49-68. -/\n'
             'def Module : Class where\n  base := none\n  attrs := []\n  methods :=\n   ['
             + ',\n    '.join(f'({ident(m.name)}, Module.{m.name})' for _, m in fs) + ']\n')
    ident('__module__')
    os.makedirs(OUT, exist_ok=True)
    titles = {'Records': 'The classes of `opendis/record` as syntax trees', 'Dis1': '`opendis/dis7.py` as syntax trees, part 1',
              'Dis2': '`opendis/dis7.py` as syntax trees, part 2', 'Dis3': '`opendis/dis7.py` as syntax trees, part 3',
              'Dis4': '`opendis/dis7.py` as syntax trees, part 4',
              'Functions': 'The functions of the modules as syntax trees'}
    for p, o in parts.items():
        with open(f'{OUT}/{p}.lean', 'w') as f:
            f.write(HEAD.format(imp='import Verif.Source.Names\n', title=titles[p]) + '\n'.join(o) + '\nend Dis.Src\n')
    with open(f'{OUT}/Names.lean', 'w') as f:
        f.write(HEAD.format(imp='import Verif.Py.Source\n', title='The names in the source'))
        f.write('namespace I\n\n')
        for x, i in names.items():
            y = f'«{x}»' if x in KEYWORDS else x
            f.write(f'/-- The name `{x}` in /repo/opendis. -/\nabbrev {y} : Ident := {i}\n')
        f.write('\nend I\n\nend Dis.Src\n')
    with open(f'{OUT}/Table.lean', 'w') as f:
        f.write(HEAD.format(imp='import Verif.Source.Names\n', title='The names in the source, spelled'))
        f.write('/-- Every name in the source with its number (/repo/opendis). -/\ndef names : List (String × Ident) :=\n  ['
                + ',\n   '.join(f'("{x}", {ident(x)})' for x in list(names)) + ']\n\nend Dis.Src\n')
    with open(f'{OUT}/Program.lean', 'w') as f:
        f.write(HEAD.format(imp=''.join(f'import Verif.Source.{p}\n' for p in parts), title='All classes'))
        f.write('/-- The classes of /repo/opendis/record and /repo/opendis/dis7.py. -/\ndef program : Program :=\n  ['
                + ',\n   '.join(f'({ident(k.name)}, {k.name})' for k in ks) + f',\n   ({ident("__module__")}, Module)]\n\nend Dis.Src\n')
    print(len(names), 'names', len(ks), 'classes')
    for k in ks:
        for m in k.methods:
            if has_other(stmts(m.body, '')):
                print('other in', k.file, k.name, m.name)


if __name__ == '__main__':
    main()
