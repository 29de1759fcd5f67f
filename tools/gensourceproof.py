"""Writes how model objects look as values of the syntax trees' language (lean/Verif/Source/Encode*.lean) and the
proofs that the transliterated classes do what their syntax trees say (lean/Verif/Proof/SourceRun*.lean).

  python3 tools/gensourceproof.py        (run in /verif, after gensource.py)"""
import ast
import os
import re
import sys

sys.path.insert(0, os.path.dirname(os.path.abspath(__file__)))
import gen
import gensource as gs
from gen import classes, parent, field_info

L = os.path.join(os.path.dirname(os.path.abspath(__file__)), '../lean/Verif')
ks = {k.name: k for k in gs.load()}


def numbers():
    out = {}
    for m in re.finditer(r'^abbrev «?(\w+)»? : Ident := (\d+)', open(f'{L}/Source/Names.lean').read(), re.M):
        out[m.group(1)] = int(m.group(2))
    return out


NUM = numbers()
# classes with attributes that may be missing or of two types, and classes with statements of their own:
# proved by hand in Proof/SourceHand.lean
HAND = {'AttachedParts', 'SilentAggregateSystem', 'EnvironmentGeneral', 'Environment', 'SeparationVP', 'VariableDatum',
        'TransmitterPdu', 'DirectedEnergyFirePdu', 'EntityDamageStatusPdu', 'IntercomControlPdu'}


# classes whose constructors put integers where floats are read and written, and a class with such a part
INTS = {'VariableParameter': ['variableParameterFields1'],
        'EEFundamentalParameterData': ['frequencyRange', 'effectiveRadiatedPower'],
        'AngularVelocityVector': ['x', 'y', 'z'], 'PointObjectStatePdu': ['objectAppearance'],
        'FastEntityStatePdu': [a + b for b in ('Velocity', 'Location', 'Acceleration', 'AngularVelocity') for a in 'xyz']
        + ['psi', 'theta', 'phi'],
        'EmissionSystemBeamRecord': []}
PARTS = {'EmissionSystemBeamRecord': {'fundamentalParameterData': 'EEFundamentalParameterData'}}
RAISES = {'LinearObjectStatePdu', 'AttributePdu'}
ABSTRACT = {'PduSuperclass', 'Pdu', 'LiveEntityPdu'}


# classes proved in Proof/SourceHand.lean, with the depths of calls of serialize, parse, the constructor and both
MANUAL = {'AttachedParts': (1, 1, 2, 2), 'SilentAggregateSystem': (2, 2, 2, 2), 'EnvironmentGeneral': (1, 1, 1, 1),
          'Environment': (1, 1, 1, 1), 'SeparationVP': (3, 3, 3, 3), 'VariableDatum': (2, 2, 1, 2)}


def bad_deps(n, hand=HAND):
    if n in hand:
        return True
    return any(bad_deps(d, hand) for d in gen.deps(classes[n]))


def I(x):
    return 'I.' + (f'«{x}»' if x in gs.KEYWORDS else x)


def enc_of(t, e):
    """value of the Lean term `e` of the type `t`"""
    if t == 'Int':
        return f'.int {e}'
    if t == 'F64':
        return f'.float {e}'
    if t.startswith('List '):
        u = t[5:]
        f = '.int' if u == 'Int' else '.float' if u == 'F64' else f'{u}.enc'
        return f'.list ({e}.map {f})'
    return f'{t}.enc {e}'


def props_of(n):
    out = {}
    while n:
        for m in ks[n].methods:
            if any(isinstance(d, ast.Name) and d.id == 'property' for d in m.decorator_list):
                out.setdefault(m.name, m)
        n = parent(classes[n])
    return out


ALLPROPS = sorted({m.name for k in ks.values() for m in k.methods
                   if any(isinstance(d, ast.Name) and d.id == 'property' for d in m.decorator_list)}, key=lambda x: NUM[x])


def all_fields(n):
    out = {}
    while n:
        for f in field_info(classes[n]):
            out.setdefault(f[0], f[1])
        n = parent(classes[n])
    return out


has_sub = {parent(k) for k in classes.values() if parent(k)}


def own(n):
    return sorted([(f[0], f[1]) for f in field_info(classes[n])], key=lambda x: NUM[x[0]])


def gen_encode(n):
    k = classes[n]
    p = parent(k)
    cite = f'{k.path}:{ks[n].lines[0]}-{ks[n].lines[1]}'
    o = own(n)
    if p:
        q = p
        mx = -1
        while q:
            mx = max([mx] + [NUM[f] for f, _ in own(q)])
            q = parent(classes[q])
        for f, _ in o:
            assert NUM[f] > mx, (n, f)
    us = '_' if not o else ''
    out = []
    body = '[' + ',\n    '.join(f'({I(f)}, {enc_of(t, "x." + f)})' for f, t in o) + ']'
    if p:
        out.append(f'/-- The attributes a `{n}` object has besides the inherited ones ({cite}). -/\n'
                   f'abbrev {n}.own ({us}x : Dis.{n}) : List (Ident × Val) :=\n   {body}\n')
        out.append(f'/-- The attributes of a `{n}` object ({cite}). -/\n'
                   f'abbrev {n}.fields (x : Dis.{n}) : List (Ident × Val) := {p}.fields x.to{p} ++ {n}.own x\n')
    else:
        out.append(f'/-- The attributes of a `{n}` object ({cite}). -/\n'
                   f'abbrev {n}.fields ({us}x : Dis.{n}) : List (Ident × Val) :=\n   {body}\n')
    out.append(f'/-- A `{n}` object ({cite}). -/\nabbrev {n}.enc (x : Dis.{n}) : Val := .obj {I(n)} ({n}.fields x)\n')
    return '\n'.join(out)


class Skip(Exception):
    pass


depth_s, depth_p, depth_c, depth_b = {}, {}, {}, {}
variables = set()


def notprop(k, f):
    if f in ALLPROPS:
        return f'(by decide +kernel : isProperty program {I(k)} {I(f)} = false)'
    return '(plain rfl)'


def method_of(n, name):
    """class where it is found, method"""
    while n:
        for m in ks[n].methods:
            if m.name == name:
                return n, m
        n = parent(classes[n])
    return None


def body_of(m):
    return [s for s in m.body if not (isinstance(s, ast.Expr) and isinstance(s.value, ast.Constant))]


def gives(n, e, fuel, kk):
    """proof that the expression has its value; fuel: what is left, as a number added to n"""
    if isinstance(e, ast.Name):
        return '(gives_name rfl)'
    if isinstance(e, ast.Constant) and isinstance(e.value, int):
        return 'gives_int'
    if isinstance(e, ast.Attribute) and isinstance(e.value, ast.Name) and e.value.id == 'self':
        pr = props_of(n)
        if e.attr in pr:
            d, m = method_of(n, e.attr)
            b = body_of(m)
            assert len(b) == 1 and isinstance(b[0], ast.Return)
            return (f'(gives_property (gives_name rfl) (by decide +kernel)\n        (fun io => property_of (n := n + {fuel - 1}) (d := {I(d)}) '
                    f'(f := {d}.{e.attr}) rfl rfl rfl {gives(n, b[0].value, fuel - 1, kk)} io))')
        return f'(gives_attr (gives_name rfl) {notprop(n, e.attr)} rfl)'
    if isinstance(e, ast.Call) and isinstance(e.func, ast.Name) and e.func.id == 'len':
        return f'(gives_len_map {gives(n, e.args[0], fuel, kk)})'
    if isinstance(e, ast.BinOp):
        return f'(gives_bin {gives(n, e.left, fuel, kk)} {gives(n, e.right, fuel, kk)} fun _ => rfl)'
    raise Skip(('expr', n, ast.unparse(e)))


def uses_props(n, m):
    """1 if an expression of the method needs a property"""
    pr = props_of(n)
    return any(isinstance(x, ast.Attribute) and isinstance(x.value, ast.Name) and x.value.id == 'self' and x.attr in pr
               for x in ast.walk(m))


def is_stream(e, name):
    return isinstance(e, ast.Name) and e.id == name


def elem(t):
    return t[5:]


def ser_stmt(n, s, f):
    """term of Ser1; f: fuel of the calls in the body, as a number added to n"""
    allf = all_fields(n)
    if isinstance(s, ast.Expr) and isinstance(s.value, ast.Call) and isinstance(s.value.func, ast.Attribute):
        c, fn = s.value, s.value.func
        if is_stream(fn.value, 'outputStream'):
            a = c.args[0]
            simple = isinstance(a, ast.Attribute) and a.attr not in props_of(n)
            return f'ser_write {gives(n, a, f, n)} rfl rfl ' + ('rfl' if simple else '(packInt_int _ _)')
        if fn.attr == 'serialize' and isinstance(fn.value, ast.Attribute):
            a = fn.value.attr
            t = allf[a]
            if t in ('Int', 'F64'):
                raise Skip(('ser', n, ast.unparse(s)))
            return f'ser_call rfl {notprop(n, a)} rfl rfl rfl ({t}.serializes (n + {f - depth_s[t]}) _)'
        if fn.attr == 'serialize' and isinstance(fn.value, ast.Call) and fn.value.func.id == 'super':
            p = parent(classes[n])
            return f'ser_super (c := {I(n)}) rfl (Or.inl rfl) {n}.found rfl rfl ({p}.serializes (n + {f - depth_s[p]}) _ _ _)'
    if isinstance(s, ast.For):
        y = s.target.id
        variables.add(y)
        b = body_of(s)
        if isinstance(s.iter, ast.Attribute):
            a = s.iter.attr
            t = elem(allf[a])
            e = gives(n, s.iter, f, n)
            st = b[0].value
            if is_stream(st.func.value, 'outputStream'):
                return (f'ser_for {e} var_{y} rfl fun a _ =>\n      '
                        'ser_last (ser_write (gives_name rfl) rfl rfl rfl)')
            if t == 'Int':
                return (f'ser_for {e} var_{y} rfl fun a _ =>\n      '
                        'ser_last (ser_no_method rfl (fun _ _ => rfl) rfl)')
            return (f'ser_for {e} var_{y} rfl fun a _ =>\n      '
                    f'ser_last (ser_var rfl rfl ({t}.serializes (n + {f - depth_s[t]}) a))')
        if isinstance(s.iter, ast.Call) and s.iter.func.id == 'range' and len(s.iter.args) == 2:
            ix = b[0].value.args[0]
            e = gives(n, ix.value, f, n)
            return (f'ser_range (gives_range0 gives_int) var_{y} rfl fun i =>\n      '
                    f'ser_last (ser_index {e} (gives_name rfl) rfl rfl fun _ => rfl)')
    raise Skip(('ser', n, ast.unparse(s)))


def gen_ser(n):
    k = classes[n]
    got = method_of(n, 'serialize')
    if not got or got[0] != n:
        raise Skip(('no serialize', n))
    m = got[1]
    b = body_of(m)
    nested = []
    allf = all_fields(n)
    for s in ast.walk(m):
        if isinstance(s, ast.Attribute) and isinstance(s.value, ast.Name) and s.value.id == 'self' and s.attr in allf:
            t = allf[s.attr]
            t = t[5:] if t.startswith('List ') else t
            if t in depth_s:
                nested.append(depth_s[t])
    p = parent(k)
    if p and any('super' in ast.unparse(s) for s in b):
        nested.append(depth_s[p])
    d = 1 + max(nested + [1 if uses_props(n, m) else 0])
    depth_s[n] = d
    terms = ['ser_pass'] if all(isinstance(s, ast.Pass) for s in b) else [ser_stmt(n, s, d - 1) for s in b]
    if n in has_sub:
        head = (f'theorem {n}.serializes (n : Nat) (k : Ident) (rest : List (Ident × Val)) (x : Dis.{n}) :\n'
                f'    Serializes (run (n + {d})) {I(n)} (.obj k ({n}.fields x ++ rest)) x.serialize :=\n')
    else:
        head = (f'theorem {n}.serializes (n : Nat) (x : Dis.{n}) :\n'
                f'    Serializes (run (n + {d})) {I(n)} ({n}.enc x) x.serialize :=\n')
    o = [head + f'  serializes_of (n := n + {d - 1}) (d := {I(n)}) (f := {n}.serialize) rfl rfl <|']
    for i, t in enumerate(terms):
        o.append(f'    ser_last <| {t}' if i == len(terms) - 1 else f'    ser_cons ({t}) <|')
    return '\n'.join(o) + '\n'


def read_of(e):
    """method of the stream, if the expression is inputStream.read_x()"""
    if isinstance(e, ast.Call) and isinstance(e.func, ast.Attribute) and is_stream(e.func.value, 'inputStream') and not e.args:
        return e.func.attr
    return None


def kept(keep, ty, obj):
    return 'fun _ => True' if keep is None else f'fun (x : {ty}) => x.{obj}{keep} = {keep}'


def pres(keep):
    return '(fun _ _ _ => trivial)' if keep is None else '(fun _ _ h => h)'


def range_gives(n, it, f):
    a = it.args
    if len(a) == 2 and isinstance(a[0], ast.Constant) and a[0].value == 0:
        return 'gives_range0', a[1]
    if len(a) == 1:
        return 'gives_range1', a[0]
    raise Skip(('range', n, ast.unparse(it)))


def par_terms(n, b, f, raw=False):
    """nested term for the statements, as list of lines; raw: on the larger state"""
    ty = f'{n}.Raw' if raw else f'Dis.{n}'
    obj = 'obj.' if raw else ''
    allf = all_fields(n)
    out = []
    p = parent(classes[n])
    i = 0
    keep = None
    for i, s in enumerate(b):
        later = ' '.join(ast.unparse(x) for x in b[i + 1:])
        if isinstance(s, ast.Pass):
            out.append('par_pass <|')
            continue
        if isinstance(s, ast.Assign) and isinstance(s.targets[0], ast.Attribute) and read_of(s.value):
            a = s.targets[0].attr
            if a in props_of(n):
                raise Skip(('par', n, ast.unparse(s)))
            q = '(fun _ _ => True)' if keep is None else f'(fun _ (x : {ty}) => x.{obj}{keep} = {keep})'
            hq = '(fun _ _ _ => trivial)' if keep is None else '(fun _ _ h => h)'
            v = '_'
            if re.search(r'range\([^\n]*self\.' + a + r'\b', later):
                keep = a
                q = f'(fun v (x : {ty}) => x.{obj}{a} = v)'
                hq = '(fun _ _ _ => rfl)'
                v = a
            out.append(f'par_read {q} rfl rfl {notprop(n, a)} (fun _ _ => rfl) {hq} fun {v} =>')
            continue
        if isinstance(s, ast.Assign) and isinstance(s.targets[0], ast.Name) and read_of(s.value):
            y = s.targets[0].id
            variables.add(y)
            out.append(f'par_local rfl rfl var_{y} rfl fun _ =>')
            continue
        if isinstance(s, ast.Assign) and isinstance(s.targets[0], ast.Name) and isinstance(s.value, ast.BinOp) and read_of(s.value.left):
            y = s.targets[0].id
            variables.add(y)
            out.append(f'par_local_bin rfl rfl (fun _ _ => rfl) var_{y} rfl fun _ =>')
            continue
        if isinstance(s, ast.Assign) and isinstance(s.targets[0], ast.Attribute) and isinstance(s.value, ast.Name):
            out.append(f'par_assign (Q\' := fun _ => True) (fun _ _ => gives_name rfl) {notprop(n, s.targets[0].attr)} (fun _ => rfl) (fun _ _ => trivial) <|')
            continue
        if isinstance(s, ast.Expr) and read_of(s.value):
            out.append('par_drop rfl rfl <|')
            continue
        if isinstance(s, ast.Expr) and isinstance(s.value, ast.Call) and isinstance(s.value.func, ast.Attribute) \
                and s.value.func.attr == 'parse':
            o = s.value.func.value
            if isinstance(o, ast.Attribute):
                t = allf[o.attr]
                if t not in depth_p:
                    raise Skip(('par', n, ast.unparse(s)))
                out.append(f'par_call (Q\' := {kept(keep, ty, obj)}) ({t}.parses{"Raw" if raw and o.attr in PARTS.get(n, {}) else ""} (n + {f - depth_p[t]})) rfl {notprop(n, o.attr)} (fun _ => rfl) '
                           '(fun _ _ => rfl) ' + pres(keep) + ' <|')
                continue
            if isinstance(o, ast.Call) and o.func.id == 'super':
                rest = ' ++ rest' if n in has_sub else ''
                out.append(f'par_super (Q\' := {kept(keep, ty, obj)}) (c := {I(n)}) (hs := fun x y => {p}.fields y ++ ({n}.{"rawOwn" if raw else "own"} x{rest}))\n      '
                           f'(fun _ => {p}.parses (n + {f - depth_p[p]}) _ _) rfl (Or.inl rfl) {n}.found rfl (fun _ => rfl) '
                           '(fun _ _ => rfl) ' + pres(keep) + ' <|')
                continue
        if isinstance(s, ast.Assign) and isinstance(s.value, ast.BinOp) and ast.unparse(s.value.left) == '[0]':
            continue
        if isinstance(s, ast.For):
            y = s.target.id
            variables.add(y)
            lb = body_of(s)
            g, e = range_gives(n, s.iter, f)
            txt = [ast.unparse(x) for x in lb]
            if '//' in ast.unparse(e):
                he = f'(fun _ _ => {g} (gives_bin (gives_name rfl) gives_int fun _ => rfl)) (by simp [Int.fdiv_eq_ediv_of_nonneg])'
            else:
                x = ast.unparse(e)
                if 'self.' in x:
                    a = re.search(r'self\.(\w+)', x).group(1)
                    base = f'(gives_attr_eq (gives_name rfl) {notprop(n, a)} rfl h)'
                    ge = base if x == 'self.' + a else f'(gives_bin {base} gives_int fun _ => rfl)'
                    assert keep == a, (n, keep, a)
                    he = f'(fun (x : {ty}) (h : x.{obj}{a} = {a}) => {g} {ge}) (by simp)'
                else:
                    he = f'(fun _ _ => {g} (gives_name rfl)) (by simp)'
            if len(lb) == 3 and txt[1].endswith('.parse(inputStream)'):
                z = lb[0].targets[0].id
                variables.add(z)
                T = lb[0].value.func.id
                a = lb[2].value.func.value.attr
                if T == 'null':
                    out.append(f'par_unknown {he} no_null null_taken rfl rfl rfl\n      var_{y} rfl rfl <|')
                    continue
                out.append(f'par_objs {he} ({T}.builds (n + {f - depth_b[T]})) rfl\n      '
                           f'{notprop(n, a)} (fun _ => rfl) (fun _ _ => rfl) var_{y} rfl rfl var_{z} rfl rfl <|')
                keep = None
                continue
            if len(lb) == 2 and read_of(lb[0].value) and txt[1].startswith('self.') and '.append(' in txt[1]:
                z = lb[0].targets[0].id
                variables.add(z)
                a = lb[1].value.func.value.attr
                q = pres(keep)
                out.append(f'par_reads (Q\' := fun _ => True) {he} rfl rfl {notprop(n, a)} (fun _ => rfl)\n      (fun _ _ => rfl) {q} '
                           f'var_{y} rfl rfl var_{z} rfl rfl (fun _ _ => trivial) <|')
                keep = None
                continue
            if len(lb) == 2 and read_of(lb[0].value) and isinstance(lb[1], ast.Assign):
                z = lb[0].targets[0].id
                variables.add(z)
                a = lb[1].targets[0].value.attr
                out.append(f'par_fill rfl rfl {notprop(n, a)} (fun _ => rfl) (fun _ _ => rfl) (fun _ _ => rfl) '
                           f'var_{y} rfl rfl\n      var_{z} rfl rfl rfl {pres(keep)} <|')
                continue
        raise Skip(('par', n, ast.unparse(s)))
    return out


def gen_par(n):
    got = method_of(n, 'parse')
    if not got or got[0] != n:
        raise Skip(('no parse', n))
    m = got[1]
    b = body_of(m)
    allf = all_fields(n)
    nested = [0]
    for s in ast.walk(m):
        if isinstance(s, ast.Attribute) and isinstance(s.value, ast.Name) and s.value.id == 'self' and s.attr in allf:
            t = allf[s.attr]
            if t in depth_p:
                nested.append(depth_p[t])
        if isinstance(s, ast.Call) and isinstance(s.func, ast.Name) and s.func.id in depth_p:
            nested += [depth_b[s.func.id]]
    p = parent(classes[n])
    if p:
        nested.append(depth_p[p])
    d = 1 + max(nested)
    terms = par_terms(n, b, d - 1)
    depth_p[n] = d
    extra = ''
    if n in INTS:
        extra = (f'\ntheorem {n}.parsesRaw (n : Nat) :\n'
                 f'    Parses (run (n + {d})) {I(n)} {I(n)} {n}.rawFields {n}.parseRaw :=\n'
                 f'  parses_of (n := n + {d - 1}) (d := {I(n)}) (f := {n}.parse) rfl rfl <|\n'
                 + '\n'.join('    ' + t for t in par_terms(n, b, d - 1, True)) + '\n    par_nil\n')
    if n in has_sub:
        head = (f'theorem {n}.parses (n : Nat) (k : Ident) (rest : List (Ident × Val)) :\n'
                f'    Parses (run (n + {d})) {I(n)} k (fun x => {n}.fields x ++ rest) Dis.{n}.parseInto :=\n')
    else:
        head = (f'theorem {n}.parses (n : Nat) :\n'
                f'    Parses (run (n + {d})) {I(n)} {I(n)} {n}.fields Dis.{n}.parseInto :=\n')
    return (head + f'  parses_of (n := n + {d - 1}) (d := {I(n)}) (f := {n}.parse) rfl rfl <|\n'
            + '\n'.join('    ' + t for t in terms) + '\n    par_nil\n' + extra)


def init_depth(n, seen=()):
    got = method_of(n, '__init__')
    if not got:
        return 0
    d, m = got
    nested = [0]
    for s in ast.walk(m):
        if isinstance(s, ast.Call) and isinstance(s.func, ast.Name) and s.func.id in ks:
            nested.append(init_depth(s.func.id))
        if isinstance(s, ast.Call) and isinstance(s.func, ast.Attribute) and s.func.attr == '__init__':
            nested.append(init_depth(parent(classes[d])))
    return 1 + max(nested)


def fresh(n):
    return f'Dis.{n}.init'


def gen_new(n):
    d = init_depth(n)
    depth_c[n] = d
    got = method_of(n, '__init__')
    if n in ABSTRACT or n.endswith('FamilyPdu'):
        return None
    if not got or n in RAISES:
        raise Skip(('no init', n))
    v = f'{n}.enc {fresh(n)}'
    nm = 'makes'
    if n in INTS:
        v = f'.obj {I(n)} ({n}.rawFields {n}.made)'
        nm = 'makesRaw'
    return (f'theorem {n}.{nm} (n : Nat) : Makes (run (n + {d})) {I(n)} ({v}) :=\n'
            f'  makes_of (p := ({I(got[0])}, {got[0]}.__init__)) (by decide +kernel) rfl rfl rfl (by kernel_rfl) '
            'fun _ => by kernel_rfl\n')


def gen_builds(n):
    if n in RAISES:
        raise Skip(('raises', n))
    d = max(depth_c[n], depth_p[n])
    depth_b[n] = d
    head = f'theorem {n}.builds (n : Nat) : Builds (run (n + {d})) {I(n)} {n}.fields {fresh(n)} Dis.{n}.parseInto :=\n'
    if n in INTS:
        return (head + f'  builds_over (π := {n}.Raw.out) ({n}.makesRaw (n + {d - depth_c[n]})) ({n}.parsesRaw (n + {d - depth_p[n]})) '
                f'{n}.over {n}.ends rfl\n    fun r h => {n}.done r h\n')
    a = ' I.%s []' % n if n in has_sub else ''
    if n in has_sub or n in ABSTRACT:
        return None
    return head + f'  builds_of ({n}.makes (n + {d - depth_c[n]})) ({n}.parses (n + {d - depth_p[n]}))\n'


INTO = {}
for q in sorted(os.listdir(f'{L}/Model')):
    if q.startswith('InPlace'):
        for m in re.finditer(r'^def (\w+)\.parseInto[^\n]*\n((?:  [^\n]*\n)+)', open(f'{L}/Model/{q}').read(), re.M):
            INTO[m.group(1)] = m.group(2)


def gen_raw(n):
    """the larger state, its attributes, parse on it"""
    k = classes[n]
    p = parent(k)
    cite = f'{k.path}:{ks[n].lines[0]}-{ks[n].lines[1]}'
    ints, parts = INTS[n], PARTS.get(n, {})
    o = [f'/-- A `{n}` object of the model, and what the attributes hold that the constructor gives an integer ({cite}). -/',
         f'structure {n}.Raw where', f'  obj : Dis.{n}'] + [f'  {f} : Val' for f in ints] \
        + [f'  {f} : {c}.Raw' for f, c in parts.items()] + ['']
    out = 'r.obj' if not parts else '{ r.obj with ' + ', '.join(f'{f} := r.{f}.out' for f in parts) + ' }'
    o += [f'/-- The object of the model ({cite}). -/', f'abbrev {n}.Raw.out (r : {n}.Raw) : Dis.{n} := {out}', '']
    def e(f, t):
        if f in ints:
            return f'r.{f}'
        if f in parts:
            return f'.obj {I(parts[f])} ({parts[f]}.rawFields r.{f})'
        return enc_of(t, f'r.obj.{f}')
    body = '[' + ',\n    '.join(f'({I(f)}, {e(f, t)})' for f, t in own(n)) + ']'
    if p:
        o += [f'/-- The attributes it has besides the inherited ones ({cite}). -/',
              f'abbrev {n}.rawOwn (r : {n}.Raw) : List (Ident × Val) :=\n   {body}', '',
              f'/-- Its attributes ({cite}). -/',
              f'abbrev {n}.rawFields (r : {n}.Raw) : List (Ident × Val) := {p}.fields r.obj.to{p} ++ {n}.rawOwn r', '']
    else:
        o += [f'/-- Its attributes ({cite}). -/', f'abbrev {n}.rawFields (r : {n}.Raw) : List (Ident × Val) :=\n   {body}', '']
    args = ', '.join(['Dis.%s.init' % n] + ['.int 0'] * len(ints) + [f'{c}.made' for c in parts.values()])
    o += [f'/-- What the constructor makes ({cite}). -/', f'abbrev {n}.made : {n}.Raw := ⟨{args}⟩', '']
    m = method_of(n, 'parse')[1]
    o += [f'/-- `{n}.parse` ({k.path}:{m.lineno}-{m.end_lineno}). -/', f'def {n}.parseRaw : P {n}.Raw Unit := do']
    over, ends, have = [], [], []
    def conj():
        return f'fun (r : {n}.Raw) => ' + ' ∧ '.join(have + ['True'])
    for line in INTO[n].splitlines():
        s = line.strip()
        m1 = re.fullmatch(r'P\.set fun o => \{ o with (\w+) := (\w+) \}', s)
        m2 = re.fullmatch(r'P\.call ⟨\(·\.(\w+)\), fun o v => \{ o with \w+ := v \}⟩ (\w+)\.parseInto', s)
        m3 = re.fullmatch(r'(P\.(?:appendObjs|fillReads) .*)⟨\(·\.(\w+)\), fun o v => \{ o with \w+ := v \}⟩', s)
        if m1:
            f, v = m1.groups()
            x = f', {f} := .float {v}' if f in ints else ''
            o.append(f'  P.set fun o => {{ o with obj := {{ o.obj with {f} := {v} }}{x} }}')
            over.append('over_bind (over_set fun _ => rfl) fun _ =>')
            if f in ints:
                have.insert(0, f'r.{f} = .float r.obj.{f}')
                ends.append(f'ends_bind (ends_set ({conj()}) fun _ h => ⟨rfl, h⟩) fun _ =>')
            else:
                ends.append('ends_bind (ends_keep fun _ h => h) fun _ =>')
        elif m2:
            f, c = m2.groups()
            if f in parts:
                o.append(f'  P.call ⟨(·.{f}), fun o v => {{ o with {f} := v }}⟩ {c}.parseRaw')
                over.append(f'over_bind (over_call {c}.over (fun _ => rfl) (fun _ _ => rfl)) fun _ =>')
                have.insert(0, f'{c}.rawFields r.{f} = {c}.fields r.{f}.out')
                ends.append(f'ends_bind (ends_part ({conj()}) {c}.ends (fun _ t h h1 => ⟨{c}.done t h1, h⟩)) fun _ =>')
            else:
                o.append(f'  P.call ⟨(·.obj.{f}), fun o v => {{ o with obj := {{ o.obj with {f} := v }} }}⟩ Dis.{c}.parseInto')
                over.append('over_bind (over_same (fun _ => rfl) (fun _ _ => rfl)) fun _ =>')
                ends.append('ends_bind (ends_call fun _ _ h => h) fun _ =>')
        elif m3:
            h, f = m3.groups()
            h = re.sub(r'(\w+)\.init (\w+)\.parseInto', r'Dis.\1.init Dis.\2.parseInto', h)
            o.append(f'  {h}⟨(·.obj.{f}), fun o v => {{ o with obj := {{ o.obj with {f} := v }} }}⟩')
            if 'fill' in h:
                over.append('over_bind (over_fill (fun _ => rfl) (fun _ _ => rfl)) fun _ =>')
                ends.append('ends_bind (ends_fill fun _ _ h => h) fun _ =>')
            else:
                over.append(f'over_bind (over_objs (π := {n}.Raw.out) (fun _ => rfl) (fun _ _ => rfl) _) fun _ =>')
                ends.append('ends_bind (ends_objs (fun _ _ h => h) _) fun _ =>')
        elif s == 'return ()':
            o.append('  return ()')
            over.append('over_pure')
            ends.append('ends_pure')
        else:
            assert re.fullmatch(r'let \w+ ← P.read \w+', s) or re.fullmatch(r'let \w+ ← P.get \(·\.\w+\)', s), s
            o.append('  ' + s.replace('(·.', '(·.obj.'))
            over.append('over_bind over_read fun _ =>' if 'read' in s else 'over_bind over_get fun _ =>')
            ends.append('ends_bind ends_read fun _ =>' if 'read' in s else 'ends_bind ends_get fun _ =>')
    pf = [f'theorem {n}.over : Over {n}.Raw.out {n}.parseRaw Dis.{n}.parseInto :='] + ['  ' + x for x in over] + ['']
    pf += [f'theorem {n}.ends : Ends (fun _ => True) {n}.parseRaw ({conj()}) :='] + ['  ' + x for x in ends] + ['']
    pf += [f'theorem {n}.done (r : {n}.Raw) (h : ({conj()}) r) : {n}.rawFields r = {n}.fields r.out := by',
           f'  obtain ⟨{", ".join(f"h{i}" for i in range(len(have)))}, -⟩ := h',
           f'  simp only [{n}.rawFields, {n}.fields' + (f', {n}.rawOwn, {n}.own' if p else '') + ', '
           + ', '.join(f'h{i}' for i in range(len(have))) + ']', '']
    return '\n'.join(o), '\n'.join(pf)


def inj_of(t, h):
    if t == 'Int':
        return f'int_inj {h}'
    if t == 'F64':
        return f'float_inj {h}'
    if t.startswith('List '):
        u = t[5:]
        f = 'ints_inj' if u == 'Int' else 'floats_inj' if u == 'F64' else f'(enc_inj {u}.inj)'
        return f'list_inj {f} {h}'
    return f'obj_inj {t}.inj {h}'


def gen_inj(n):
    """objects with the same attributes are the same"""
    p = parent(classes[n])
    fs = [(f[0], f[1]) for f in field_info(classes[n])]
    xs = (['p'] if p else []) + [f'a{i}' for i in range(len(fs))]
    ys = (['q'] if p else []) + [f'b{i}' for i in range(len(fs))]
    o = [f'theorem {n}.inj : ∀ {{x y : Dis.{n}}}, {n}.fields x = {n}.fields y → x = y := by',
         f'  rintro ⟨{", ".join(xs)}⟩ ⟨{", ".join(ys)}⟩ h']
    if p:
        o.append(f'  obtain rfl : p = q := {p}.inj (List.append_inj_left h rfl)')
    for i, (f, t) in enumerate(fs):
        o.append(f'  obtain rfl : a{i} = b{i} := {inj_of(t, f"(congrArg (look {I(f)}) h)")}')
    return '\n'.join(o + ['  rfl', ''])


CATALOG = re.findall(r'^def InPlace\.(\w+) : InPlace', open(f'{L}/Spec/InPlaceCatalog.lean').read(), re.M)
GROUPS = re.findall(r'^def (inPlace\w+) : List InPlace :=\n  \[(.*?)\]', open(f'{L}/Spec/InPlaceCatalog.lean').read(), re.M | re.S)


def gen_sourced(n):
    k = classes[n]
    cite = f'{k.path}:{ks[n].lines[0]}-{ks[n].lines[1]}'
    return (f'/-- `{n}` ({cite}). -/\ndef Sourced.{n} : Sourced where\n  entry := .{n}\n  cls := {I(n)}\n'
            f'  fields := {n}.fields\n  makes := {"false" if n in RAISES else "true"}\n')


def gen_lawful(n):
    ds, dp = depth_s[n], depth_p[n]
    o = [f'theorem {n}.lawful : Sourced.{n}.Lawful where',
         f'  serialize n x := {n}.serializes (n + {8 - ds}) x',
         f'  parse n := {n}.parses (n + {8 - dp})',
         f'  inj _ _ := {n}.inj']
    if n in RAISES:
        o.append('  makes := by rintro ⟨⟩')
    elif n in INTS:
        m = f'{n}.makesRaw (n + {8 - depth_c[n]})'
        o.append(f'  makes _ := ⟨{n}.rawFields {n}.made, {n}.same, fun n => ⟨{m}, {n}.firstRaw (n + {8 - ds}),\n'
                 f'    fills_over (π := {n}.Raw.out) ({n}.parsesRaw (n + {8 - dp})) {n}.over {n}.ends rfl fun r h => {n}.done r h⟩⟩')
        parts = PARTS.get(n, {})
        alls = []
        q = n
        while q:
            alls = [(f, q) for f, _ in own(q)] + alls
            q = parent(classes[q])
        def one(f, q):
            if f in INTS[n]:
                return '.cons (.int ofInt_zero) <|'
            if f in parts:
                return f'.cons (.obj {parts[f]}.same) <|'
            return '.cons (.refl _) <|'
        o = [f'theorem {n}.same : SameFields ({n}.rawFields {n}.made) ({n}.fields Dis.{n}.init) :='] \
            + ['  ' + one(f, q) for f, q in alls] + ['  .nil', '',
            f'theorem {n}.firstRaw (n : Nat) : Serializes (run (n + {ds})) {I(n)} (.obj {I(n)} ({n}.rawFields {n}.made)) '
            f'Dis.{n}.init.serialize :=', first_raw(n), ''] + o
    else:
        o.append(f'  makes _ := ⟨_, .rfl\' _, fun n => ⟨{n}.makes (n + {8 - depth_c[n]}), {n}.serializes (n + {8 - ds}) {fresh(n)},\n'
                 f'    fun io => ⟨_, {n}.parses (n + {8 - dp}) {fresh(n)} io, fun _ _ => rfl⟩⟩⟩')
    return '\n'.join(o) + '\n'


def first_raw(n):
    """the statements of serialize on the object that the constructor makes"""
    d = depth_s[n]
    b = body_of(method_of(n, 'serialize')[1])
    terms = []
    for s in b:
        t = ser_stmt(n, s, d - 1)
        m = re.fullmatch(r'outputStream\.write_\w+\(self\.(\w+)\)', ast.unparse(s))
        if m and m.group(1) in INTS[n]:
            assert t.endswith('rfl')
            t = t[:-3] + '(packFloat_zero _)'
        m = re.fullmatch(r'self\.(\w+)\.serialize\(outputStream\)', ast.unparse(s))
        if m and m.group(1) in PARTS.get(n, {}):
            t = re.sub(r'\((\w+)\.serializes (\(n \+ \d+\)) _\)', r'(\1.firstRaw \2)', t)
        terms.append(t)
    o = [f'  serializes_of (n := n + {d - 1}) (d := {I(n)}) (f := {n}.serialize) rfl rfl <|']
    for i, t in enumerate(terms):
        o.append(f'    ser_last <| {t}' if i == len(terms) - 1 else f'    ser_cons ({t}) <|')
    return '\n'.join(o)


def gen_member(n):
    for i, (g, l) in enumerate(GROUPS):
        names = [x.strip()[1:] for x in l.split(',')]
        if n in names:
            t = '.head _'
            for _ in range(names.index(n)):
                t = f'.tail _ ({t})'
            return f'theorem {n}.known : Sourced.{n}.entry ∈ {g} := {t}\n'
    raise AssertionError(n)


HEAD = '''{imp}
/-!
# {title}

Written by `tools/gensourceproof.py`.
-/

set_option linter.unusedVariables false
set_option linter.unusedSimpArgs false

namespace Dis.Src

'''


def main():
    recs, pdus = gen.order()
    todo = [n for n in recs + pdus if not bad_deps(n)]
    print(len(todo), 'classes;', [n for n in recs + pdus if bad_deps(n)])
    chunks = [todo[i:i + 40] for i in range(0, len(todo), 40)]
    last = [n for n in recs + pdus if n not in todo and not bad_deps(n, HAND - set(MANUAL))]
    print(len(last), 'more classes;', [n for n in recs + pdus if n not in todo + last])
    chunks.append(last)
    prev = ['Verif.Source.Program', 'Verif.Model.InPlace4']
    files = []
    for i, c in enumerate(chunks):
        if c is last:
            prev = ['Verif.Source.EncodeHand']
        enc = '\n'.join(gen_encode(n) + ('\n' + gen_raw(n)[0] if n in INTS else '') for n in c if n not in MANUAL)
        with open(f'{L}/Source/Encode{i + 1}.lean', 'w') as f:
            f.write(HEAD.format(imp=''.join(f'import {x}\n' for x in prev), title=f'Objects of the model as values, part {i + 1}')
                    + enc + '\nend Dis.Src\n')
        prev = [f'Verif.Source.Encode{i + 1}']
    done = {'s': [], 'p': [], 'c': [], 'b': []}
    texts = []
    for i, c in enumerate(chunks):
        o = []
        for n in c:
            if n in MANUAL:
                depth_s[n], depth_p[n], depth_c[n], depth_b[n] = MANUAL[n]
                continue
            if parent(classes[n]):
                o.append(f'theorem {n}.found : look {I(n)} program = some {n} := rfl\n')
            if n in INTS:
                o.append(gen_raw(n)[1])
            for key, g in (('s', gen_ser), ('c', gen_new), ('p', gen_par), ('b', gen_builds)):
                try:
                    x = g(n)
                    if x:
                        o.append(x)
                        done[key].append(n)
                except Skip as e:
                    print('skip', e.args[0])
                except KeyError as e:
                    print('skip', n, key, 'needs', e)
        texts.append('\n'.join(o))
    with open(f'{L}/Proof/SourceVars.lean', 'w') as f:
        f.write(HEAD.format(imp='import Verif.Proof.Source5\n', title='Names of properties and of variables'))
        f.write('/-- All names of properties. -/\ndef propertyNames : List Ident :=\n  [' + ',\n   '.join(I(x) for x in ALLPROPS) + ']\n\n')
        f.write('theorem plain {k f : Ident} (h : propertyNames.all (fun p => !Nat.beq p f) = true) :\n'
                '    isProperty program k f = false := plain_of propertyNames (by decide +kernel) h\n\n')
        f.write('theorem no_null : look I.null program = none := by decide +kernel\n\n'
                'theorem null_taken : isClass I.null = true := by decide +kernel\n\n')
        for v in sorted(variables):
            f.write(f'theorem var_{v} : isClass {I(v)} = false := by decide +kernel\n\n')
        f.write('end Dis.Src\n')
    listed = [[n for n in c if n in CATALOG] for c in chunks]
    print(sum(map(len, listed)), 'of', len(CATALOG))
    assert not any(n in has_sub for c in listed for n in c)
    with open(f'{L}/Spec/SourceCatalog.lean', 'w') as f:
        f.write(HEAD.format(imp='import Verif.Spec.Source\n' + f'import Verif.Source.Encode{len(chunks)}\nimport Verif.Spec.SourceSpecial\nimport Verif.Spec.SourceDirected\n',
                            title='The classes compared with the source'))
        for i, c in enumerate(listed):
            f.write('\n'.join(gen_sourced(n) for n in c))
            f.write(f'\n/-- Classes of part {i + 1} (/repo/opendis). -/\ndef sourced{i + 1} : List Sourced :=\n  ['
                    + ',\n   '.join('.' + n for n in c) + ']\n\n')
        f.write('/-- The classes of the model that are compared with the source (/repo/opendis). -/\ndef sourced : List Sourced :=\n  '
                + ' ++ '.join(f'sourced{i + 1}' for i in range(len(chunks) + 2)) + '\n\nend Dis.Src\n')
    for i, c in enumerate(chunks):
        o = [gen_inj(n) for n in c if n not in MANUAL] + [gen_lawful(n) for n in listed[i]] + [gen_member(n) for n in listed[i]]
        o.append(f'theorem sourced{i + 1}_lawful : ∀ e ∈ sourced{i + 1}, e.Lawful := by\n  unfold sourced{i + 1}\n'
                 + '\n'.join(f'  refine List.forall_mem_cons.2 ⟨{n}.lawful, ?_⟩' for n in listed[i])
                 + '\n  exact fun e h => nomatch h\n')
        o.append(f'theorem sourced{i + 1}_known : ∀ e ∈ sourced{i + 1}, e.entry ∈ inPlace := by\n  unfold sourced{i + 1} inPlace\n'
                 + '\n'.join(f'  refine List.forall_mem_cons.2 ⟨by simp only [List.mem_append, {n}.known, true_or, or_true], ?_⟩' for n in listed[i])
                 + '\n  exact fun e h => nomatch h\n')
        with open(f'{L}/Proof/SourceLaw{i + 1}.lean', 'w') as f:
            prev = ['Verif.Spec.SourceCatalog', 'Verif.Proof.SourceLaws', f'Verif.Proof.SourceRun{i + 1}'] \
                + ([f'Verif.Proof.SourceLaw{i}'] if i else [])
            f.write(HEAD.format(imp=''.join(f'import {x}\n' for x in prev),
                                title=f'The classes with their laws, part {i + 1}') + '\n'.join(o) + '\nend Dis.Src\n')
    prev = ['Verif.Proof.SourceVars']
    for i, t in enumerate(texts):
        if chunks[i] is last:
            prev = ['Verif.Proof.SourceHand']
        with open(f'{L}/Proof/SourceRun{i + 1}.lean', 'w') as f:
            f.write(HEAD.format(imp=''.join(f'import {x}\n' for x in prev + [f'Verif.Source.Encode{i + 1}']),
                                title=f'The classes do what their syntax trees say, part {i + 1}') + t + '\nend Dis.Src\n')
        prev = [f'Verif.Proof.SourceRun{i + 1}']


if __name__ == '__main__':
    main()
