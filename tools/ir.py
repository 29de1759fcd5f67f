"""Read the wire classes of /repo/opendis as text (ast) and describe them statement by statement.

Nothing of /repo is imported or executed.  Every statement of __init__, serialize and parse is
matched against a fixed set of shapes; anything else is reported as ('special', source).
"""
import ast

FLOATM = {'float', 'double', 'float32', 'float64'}


class Cls:
    pass


def u(n):
    return ast.unparse(n)


def is_self_attr(n):
    return isinstance(n, ast.Attribute) and isinstance(n.value, ast.Name) and n.value.id == 'self'


def match_write(s):
    """outputStream.write_X(expr) -> (X, expr)"""
    if isinstance(s, ast.Expr) and isinstance(s.value, ast.Call):
        f = s.value.func
        if isinstance(f, ast.Attribute) and u(f.value) == 'outputStream' and f.attr.startswith('write_'):
            return f.attr[6:], s.value.args[0]
    return None


def match_read(e):
    if isinstance(e, ast.Call) and isinstance(e.func, ast.Attribute) \
            and u(e.func.value) == 'inputStream' and e.func.attr.startswith('read_') and not e.args:
        return e.func.attr[5:]
    return None


def match_range(e):
    if isinstance(e, ast.Call) and u(e.func) == 'range':
        if len(e.args) == 1:
            return e.args[0]
        if len(e.args) == 2 and u(e.args[0]) == '0':
            return e.args[1]
    return None


def is_doc(s):
    return isinstance(s, ast.Expr) and isinstance(s.value, ast.Constant) and isinstance(s.value.value, str)


def ser_step(s, cls):
    w = match_write(s)
    if w:
        return ('w', w[0], w[1], s.lineno)
    src = u(s)
    if isinstance(s, ast.Expr) and isinstance(s.value, ast.Call):
        f = s.value.func
        if isinstance(f, ast.Attribute) and f.attr == 'serialize':
            if is_self_attr(f.value):
                return ('obj', f.value.attr, None, s.lineno)
            if isinstance(f.value, ast.Call) and u(f.value.func) == 'super':
                return ('super', None, None, s.lineno)
    if isinstance(s, ast.For):
        var = u(s.target)
        if is_self_attr(s.iter) and len(s.body) == 1:
            b = s.body[0]
            if u(b) == f'{var}.serialize(outputStream)':
                return ('each', s.iter.attr, None, s.lineno)
            w = match_write(b)
            if w and u(w[1]) == var:
                return ('eachw', s.iter.attr, w[0], s.lineno)
        r = match_range(s.iter)
        if r is not None and isinstance(r, ast.Constant) and len(s.body) == 1:
            w = match_write(s.body[0])
            if w and isinstance(w[1], ast.Subscript) and is_self_attr(w[1].value) and u(w[1].slice) == var:
                return ('idx', w[1].value.attr, (w[0], r.value), s.lineno)
    if isinstance(s, ast.Pass):
        return ('pass', None, None, s.lineno)
    return ('special', src, None, s.lineno)


def par_step(s, cls):
    src = u(s)
    if isinstance(s, ast.Assign) and len(s.targets) == 1:
        t = s.targets[0]
        m = match_read(s.value)
        if m:
            if is_self_attr(t):
                return ('r', t.attr, m, s.lineno)
            if isinstance(t, ast.Name):
                return ('local', t.id, m, s.lineno)
        if is_self_attr(t) and isinstance(s.value, ast.BinOp) and u(s.value.left) == '[0]':
            return ('zeros', t.attr, s.value.right.value, s.lineno)
    if isinstance(s, ast.AnnAssign) and match_read(s.value) and is_self_attr(s.target):
        return ('r', s.target.attr, match_read(s.value), s.lineno)
    if isinstance(s, ast.AnnAssign) and match_read(s.value) and isinstance(s.target, ast.Name):
        return ('local', s.target.id, match_read(s.value), s.lineno)
    if isinstance(s, ast.Expr) and isinstance(s.value, ast.Call):
        m = match_read(s.value)
        if m:
            return ('discard', None, m, s.lineno)
        f = s.value.func
        if isinstance(f, ast.Attribute) and f.attr == 'parse' and [u(a) for a in s.value.args] == ['inputStream']:
            if is_self_attr(f.value):
                return ('obj', f.value.attr, None, s.lineno)
            if isinstance(f.value, ast.Call) and u(f.value.func) == 'super':
                return ('super', None, None, s.lineno)
    if isinstance(s, ast.For):
        r = match_range(s.iter)
        b = s.body
        if r is not None:
            if len(b) == 3 and isinstance(b[0], ast.Assign) and u(b[0].targets[0]) == 'element' \
                    and isinstance(b[0].value, ast.Call) and not b[0].value.args \
                    and u(b[1]) == 'element.parse(inputStream)' \
                    and isinstance(b[2], ast.Expr) and isinstance(b[2].value, ast.Call) \
                    and b[2].value.func.attr == 'append' and is_self_attr(b[2].value.func.value) \
                    and u(b[2].value.args[0]) == 'element':
                return ('loop', b[2].value.func.value.attr, (r, u(b[0].value.func)), s.lineno)
            if len(b) == 2 and isinstance(b[0], ast.Assign) and match_read(b[0].value):
                var = u(b[0].targets[0])
                m = match_read(b[0].value)
                if isinstance(b[1], ast.Expr) and b[1].value.func.attr == 'append' and u(b[1].value.args[0]) == var:
                    return ('loopw', b[1].value.func.value.attr, (r, m), s.lineno)
                if isinstance(b[1], ast.Assign) and isinstance(b[1].targets[0], ast.Subscript) \
                        and u(b[1].targets[0].slice) == u(s.target) and u(b[1].value) == var:
                    return ('idx', b[1].targets[0].value.attr, (m, r.value), s.lineno)
            if len(b) == 2 and isinstance(b[0], ast.Assign) and 'parseStandardVariableRecord' in u(b[0]):
                return ('loopsv', b[1].value.func.value.attr, (r, u(b[0].value.args[1])), s.lineno)
    if isinstance(s, ast.Pass):
        return ('pass', None, None, s.lineno)
    return ('special', src, None, s.lineno)


def init_step(s):
    """assignments to self.f in __init__"""
    if isinstance(s, (ast.Assign, ast.AnnAssign)):
        t = s.targets[0] if isinstance(s, ast.Assign) else s.target
        if is_self_attr(t):
            return ('set', t.attr, s.value, s.lineno)
    if isinstance(s, ast.Expr) and isinstance(s.value, ast.Call) and u(s.value).startswith('super('):
        return ('super', None, s.value, s.lineno)
    if isinstance(s, ast.Pass):
        return ('pass', None, None, s.lineno)
    return ('special', u(s), None, s.lineno)


def load(path):
    tree = ast.parse(open(path).read())
    out = {}
    for c in tree.body:
        if not isinstance(c, ast.ClassDef):
            continue
        k = Cls()
        k.name = c.name
        k.path = path
        k.line, k.end = c.lineno, c.end_lineno
        k.bases = [u(b) for b in c.bases]
        k.attrs = {}
        k.props = {}
        k.params = []
        k.init = k.ser = k.par = None
        k.lines = {}
        for m in c.body:
            if isinstance(m, ast.AnnAssign) and m.value is not None:
                k.attrs[m.target.id] = (m.value, m.lineno)
            if isinstance(m, ast.Assign):
                k.attrs[m.targets[0].id] = (m.value, m.lineno)
            if not isinstance(m, ast.FunctionDef):
                continue
            k.lines[m.name] = (m.lineno, m.end_lineno)
            body = [s for s in m.body if not is_doc(s)]
            if any(u(d) == 'property' for d in m.decorator_list):
                k.props[m.name] = body
            elif m.name == '__init__':
                args = m.args.args[1:]
                defs = [None] * (len(args) - len(m.args.defaults)) + list(m.args.defaults)
                k.params = [(a.arg, u(a.annotation) if a.annotation else None, u(d) if d is not None else None)
                            for a, d in zip(args, defs)]
                k.init = [init_step(s) for s in body]
            elif m.name == 'serialize':
                k.ser = [ser_step(s, k) for s in body]
            elif m.name == 'parse':
                k.par = [par_step(s, k) for s in body]
        out[k.name] = k
    return out


if __name__ == '__main__':
    import sys
    cs = load('/repo/opendis/dis7.py')
    cs.update(load('/repo/opendis/record/common.py'))
    for k in cs.values():
        for nm in ('init', 'ser', 'par'):
            steps = getattr(k, nm)
            if steps is None:
                print(k.name, 'no', nm)
                continue
            for s in steps:
                if s[0] == 'special':
                    print(k.name, nm, s[3], s[1][:100])
        sets = {s[1] for s in (k.init or []) if s[0] == 'set'}
        reads = {s[1] for s in (k.par or []) if s[0] in ('r', 'loop', 'loopw', 'idx', 'zeros', 'obj')}
        import re
        writes = set()
        for s in k.ser or []:
            if s[0] == 'w':
                writes |= set(re.findall(r'self\.(\w+)', u(s[2])))
            elif s[0] in ('obj', 'each', 'eachw', 'idx'):
                writes.add(s[1])
        writes -= set(k.props)
        if writes - sets:
            print('  UNSET written', k.name, writes - sets, k.bases)
        if reads - sets:
            print('  UNSET read', k.name, reads - sets)
        if sets - writes:
            print('  offwire(write)', k.name, sets - writes)
        if sets - reads:
            print('  offwire(read)', k.name, sets - reads)
        if (sets | reads) & set(k.props):
            print('  ASSIGN TO PROPERTY', k.name, (sets | reads) & set(k.props))
