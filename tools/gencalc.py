"""Writes the syntax trees of the numerical modules as Lean data: lean/Verif/Source/CalcNames.lean and Calc.lean.

  python3 tools/gencalc.py        (run in /verif)

Node by node from Python's own parser; the meaning of the nodes is in lean/Verif/Py/Calc.lean."""
import ast
import decimal
import os

REPO = '/repo/'
FILES = [('rangeCoordinates', 'opendis/RangeCoordinates.py'), ('deadReckoning', 'opendis/DeadReckoning.py')]
OUT = os.path.join(os.path.dirname(os.path.abspath(__file__)), '../lean/Verif/Source')
KEYWORDS = {'_', 'end', 'from', 'open', 'where', 'in', 'at', 'then', 'do', 'by', 'have', 'let', 'fun', 'if', 'else', 'for',
            'match', 'with', 'infix', 'class', 'structure', 'type', 'import', 'return', 'section', 'prefix', 'initialize'}
WORDS = ['self', 'dtype', 'split', 'len', 'range', 'abs', 'round', 'int', 'float', 'list', 'sqrt', 'pi', 'sin', 'cos', 'tan',
         'atan', 'atan2', 'array', 'dot', 'identity', 'zeros']
OPS = {ast.Add: 'add', ast.Sub: 'sub', ast.Mult: 'mul', ast.Div: 'div', ast.Pow: 'pow', ast.Mod: 'mod', ast.MatMult: 'matmul'}
CMPS = {ast.Eq: 'eq', ast.Lt: 'lt', ast.LtE: 'le', ast.Gt: 'gt', ast.GtE: 'ge', ast.Is: 'is'}
ERRORS = {'Exception': 'exception', 'ValueError': 'valueError'}
LIBS = {'math': {'sqrt', 'pi', 'sin', 'cos', 'tan', 'atan', 'atan2'}, 'numpy': {'array', 'dot', 'identity', 'zeros'}}

names = {}
text = ''


def ident(x):
    names.setdefault(x, len(names))
    return 'N.' + (f'«{x}»' if x in KEYWORDS else x)


def lst(xs):
    return '[' + ', '.join(xs) + ']'


def par(x):
    return x if ' ' not in x or x[0] in '[(' else f'({x})'


def expr(e):
    if isinstance(e, ast.Name):
        return f'.name {ident(e.id)}'
    if isinstance(e, ast.Constant):
        v = e.value
        if v is None:
            return '.none'
        if isinstance(v, bool):
            return '.other'
        if isinstance(v, int):
            return f'.int {v}'
        if isinstance(v, float):
            d = decimal.Decimal(ast.get_source_segment(text, e).replace('_', ''))
            s, digits, ex = d.as_tuple()
            assert not s
            m = int(''.join(map(str, digits)))
            return f'.dec {m} {ex}' if ex >= 0 else f'.dec {m} ({ex})'
        if isinstance(v, str):
            assert all(32 <= ord(c) < 127 and c not in '"\\' for c in v), v
            return f'.str "{v}"'
        return '.other'
    if isinstance(e, ast.UnaryOp) and isinstance(e.op, ast.USub):
        return f'.neg {par(expr(e.operand))}'
    if isinstance(e, ast.Attribute):
        return f'.attr {par(expr(e.value))} {ident(e.attr)}'
    if isinstance(e, ast.Subscript):
        return f'.index {par(expr(e.value))} {par(expr(e.slice))}'
    if isinstance(e, ast.Tuple):
        return f'.tuple {lst([expr(x) for x in e.elts])}'
    if isinstance(e, ast.List):
        return f'.list {lst([expr(x) for x in e.elts])}'
    if isinstance(e, ast.Starred):
        return f'.star {par(expr(e.value))}'
    if isinstance(e, ast.BinOp) and type(e.op) in OPS:
        return f'.bin .{OPS[type(e.op)]} {par(expr(e.left))} {par(expr(e.right))}'
    if isinstance(e, ast.Compare) and all(type(o) in CMPS for o in e.ops):
        return f'.cmp {par(expr(e.left))} ' + lst([f'(.{CMPS[type(o)]}, {expr(x)})' for o, x in zip(e.ops, e.comparators)])
    if isinstance(e, ast.BoolOp) and isinstance(e.op, ast.And) and len(e.values) == 2:
        return f'.and {par(expr(e.values[0]))} {par(expr(e.values[1]))}'
    if isinstance(e, ast.Call) and all(k.arg for k in e.keywords):
        args = lst([expr(x) for x in e.args] + [expr(k.value) for k in e.keywords])
        kws = lst([ident(k.arg) for k in e.keywords])
        if isinstance(e.func, ast.Name):
            return f'.call {ident(e.func.id)} {args} {kws}'
        if isinstance(e.func, ast.Attribute):
            return f'.method {par(expr(e.func.value))} {ident(e.func.attr)} {args} {kws}'
    if isinstance(e, ast.ListComp) and len(e.generators) == 1:
        g = e.generators[0]
        if isinstance(g.target, ast.Name) and not g.ifs and not g.is_async:
            return f'.comp {par(expr(e.elt))} {ident(g.target.id)} {par(expr(g.iter))}'
    return '.other'


def block(ss, ind):
    xs = [x for s in ss for x in stmt(s, ind + 1)]
    return ' ' * ind + '[' + (',\n' + ' ' * (ind + 1)).join(xs) + ']'


def stmt(s, ind):
    if isinstance(s, ast.Expr) and isinstance(s.value, ast.Constant) and isinstance(s.value.value, str):
        return []
    if isinstance(s, ast.Assign) and len(s.targets) == 1:
        return [f'.assign {par(expr(s.targets[0]))} {par(expr(s.value))}']
    if isinstance(s, ast.AugAssign) and isinstance(s.op, ast.Add) and isinstance(s.target, ast.Name):
        return [f'.augAdd {ident(s.target.id)} {par(expr(s.value))}']
    if isinstance(s, ast.For) and isinstance(s.target, ast.Name) and not s.orelse:
        return [f'.for {ident(s.target.id)} {par(expr(s.iter))}\n{block(s.body, ind + 2)}']
    if isinstance(s, ast.While) and not s.orelse:
        return [f'.while {par(expr(s.test))}\n{block(s.body, ind + 2)}']
    if isinstance(s, ast.If):
        return [f'.ite {par(expr(s.test))}\n{block(s.body, ind + 2)}\n{block(s.orelse, ind + 2)}']
    if isinstance(s, ast.Return):
        return [f'.ret {par(expr(s.value))}' if s.value else '.ret .none']
    if isinstance(s, ast.Raise) and isinstance(s.exc, ast.Call) and isinstance(s.exc.func, ast.Name) \
            and s.exc.func.id in ERRORS and all(isinstance(a, ast.Constant) for a in s.exc.args) and not s.cause:
        return [f'.raise .{ERRORS[s.exc.func.id]}']
    return ['.other']


def lean(x):
    return f'«{x}»' if x in KEYWORDS else x


def function(f, name, path, method):
    a = f.args
    assert not (a.vararg or a.kwarg or a.kwonlyargs or a.posonlyargs or f.decorator_list), name
    ps = [x.arg for x in a.args]
    ds = [None] * (len(ps) - len(a.defaults)) + a.defaults
    if method:
        assert ps[0] == 'self'
        ps, ds = ps[1:], ds[1:]
    params = lst([f'({ident(p)}, {"none" if d is None else "some " + par(expr(d))})' for p, d in zip(ps, ds)])
    return (f'/-- `{name}`, /repo/{path}:{f.lineno}-{f.end_lineno}. -/\ndef {name} : Fn where\n  params := {params}\n'
            f'  body :=\n{block(f.body, 3)}\n')


def module(name, path):
    global text
    text = open(REPO + path).read()
    tree = ast.parse(text)
    out, fns, classes, imports, modules, skipped = [], [], [], [], [], []
    for s in tree.body:
        if isinstance(s, ast.FunctionDef):
            out.append(function(s, f'{name}.{s.name}', path, False))
            fns.append(s.name)
        elif isinstance(s, ast.ClassDef):
            assert not (s.bases or s.keywords or s.decorator_list)
            attrs, methods = [], []
            for t in s.body:
                if isinstance(t, ast.FunctionDef):
                    out.append(function(t, f'{name}.{s.name}.{t.name}', path, True))
                    methods.append(t.name)
                elif isinstance(t, ast.Assign):
                    assert len(t.targets) == 1 and isinstance(t.targets[0], ast.Name)
                    attrs.append((t.targets[0].id, t.value))
                else:
                    assert isinstance(t, ast.Expr) and isinstance(t.value, ast.Constant)
            out.append(f'/-- `class {s.name}`, /repo/{path}:{s.lineno}-{s.end_lineno}. -/\ndef {name}.{s.name} : Class where\n'
                       + '  attrs :=\n   [' + ',\n    '.join(f'({ident(x)}, {expr(v)})' for x, v in attrs) + ']\n'
                       + '  methods :=\n   [' + ',\n    '.join(f'({ident(m)}, {name}.{s.name}.{lean(m)})' for m in methods) + ']\n')
            classes.append(s.name)
        elif isinstance(s, ast.ImportFrom) and s.module in LIBS:
            for al in s.names:
                assert not al.asname
                if al.name in LIBS[s.module]:
                    imports.append(al.name)
                else:
                    skipped.append(al.name)
        elif isinstance(s, ast.Import):
            for al in s.names:
                modules.append((al.asname or al.name, al.name))
    out.append(f'/-- /repo/{path}. -/\ndef {name} : Module where\n'
               + '  functions :=\n   [' + ',\n    '.join(f'({ident(f)}, {name}.{lean(f)})' for f in fns) + ']\n'
               + '  classes :=\n   [' + ',\n    '.join(f'({ident(c)}, {name}.{c})' for c in classes) + ']\n'
               + f'  imports := {lst([f"({ident(x)}, .{x})" for x in imports])}\n'
               + f'  modules := {lst([f"({ident(x)}, {m})" for x, m in modules])}\n')
    print(path, 'imports not described:', skipped)
    return '\n'.join(out)


def main():
    for w in WORDS:
        ident(w)
    body = '\n'.join(module(n, p) for n, p in FILES)
    with open(f'{OUT}/CalcNames.lean', 'w') as f:
        f.write('/-!\n# Names in the numerical modules\n\nWritten by `tools/gencalc.py`.\n-/\n\nnamespace Dis.Calc\n\n'
                '/-- A name in the source (/repo/opendis/RangeCoordinates.py, /repo/opendis/DeadReckoning.py). -/\nabbrev Ident := Nat\n\n'
                'namespace N\n\n')
        for x, i in names.items():
            f.write(f'/-- The name `{x}` in /repo/opendis. -/\nabbrev {lean(x)} : Ident := {i}\n\n')
        f.write('end N\n\n/-- The names with their numbers (/repo/opendis/RangeCoordinates.py, /repo/opendis/DeadReckoning.py). -/\n'
                'def names : List (String × Ident) :=\n  ['
                + ',\n   '.join(f'("{x}", N.{lean(x)})' for x in names) + ']\n\nend Dis.Calc\n')
    with open(f'{OUT}/Calc.lean', 'w') as f:
        f.write('import Verif.Py.Calc\n\n/-!\n# The syntax trees of the numerical modules\n\nWritten by `tools/gencalc.py`.\n-/\n\n'
                'namespace Dis.Calc\n\n' + body + '\nend Dis.Calc\n')
    print(len(names), 'names;', body.count('.other'), 'not described')


main()
