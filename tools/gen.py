"""Generate the Lean model of the wire classes from the Python source text.

  python3 tools/gen.py        (run in /verif; writes lean/Verif/Model/*.lean)

serialize and parse are transliterated independently of each other, statement by statement.
"""
import ast
import os
import re
import struct
import sys

sys.path.insert(0, os.path.dirname(__file__))
import ir  # noqa: E402
from ir import u, FLOATM  # noqa: E402

OUT = os.path.join(os.path.dirname(__file__), '..', 'lean', 'Verif', 'Model')
D7 = '/repo/opendis/dis7.py'
CM = '/repo/opendis/record/common.py'

classes = {}
for path in (CM, D7):
    classes.update(ir.load(path))

# classes written by hand (Model/Special.lean): they use records of record/radio and record/warfare,
# or a statement shape that occurs only once
HAND = {'TransmitterPdu', 'DirectedEnergyFirePdu', 'EntityDamageStatusPdu', 'IntercomControlPdu'}

# attributes whose type cannot be read off the source: class -> attr -> (lean type, default)
FIELD_TYPES = {
    'SeparationVP': {'stationLocation': ('IntOr NamedLocationIdentification', '.obj NamedLocationIdentification.init')},
    'EnvironmentGeneral': {'geometry': ('Option Int', 'none'), 'padding1': ('Option Int', 'none')},
    'SilentAggregateSystem': {'entityType': ('Option AggregateType', 'none')},
    'Environment': {'padding': ('Option Int', 'none')},
    'AttachedParts': {'parameterValue': ('Option Int', 'none')},
    'IFFData': {'iffData': ('List Int', '[]')},
    'VariableDatum': {'variableData': ('List Int', '[]')},
    'SilentEntitySystem': {'appearanceRecordList': ('List Int', '[]')},
    'StandardVariableSpecification': {'standardVariables': ('List Int', '[]')},
    'GridAxisDescriptorVariable': {'xiValues': ('List Int', '[]')},
    'IntercomSignalPdu': {'data': ('List Int', '[]')},
    'RecordQueryReliablePdu': {'recordIDs': ('List Int', '[]')},
    'UaPdu': {'shaftRPMs': ('List Int', '[]'), 'apaData': ('List Int', '[]'), 'emitterSystems': ('List Int', '[]')},
    'SeesPdu': {'propulsionSystemData': ('List PropulsionSystemData', '[]'),
                'vectoringSystemData': ('List VectoringNozzleSystem', '[]')},
    'MinefieldResponseNackPdu': {'missingPduSequenceNumbers': ('List Int', '[]')},
    'FastEntityStatePdu': {'variableParameters': ('List VariableParameter', '[]')},
}
# how a value of such a type is used as an integer
USE = {
    ('SeparationVP', 'stationLocation'): 'IntOr.asInt self.stationLocation',
    ('EnvironmentGeneral', 'geometry'): 'needInt self.geometry',
    ('EnvironmentGeneral', 'padding1'): 'attr self.padding1',
    ('Environment', 'padding'): 'attr self.padding',
    ('AttachedParts', 'parameterValue'): 'attr self.parameterValue',
}
# value stored by parse when the Lean type is not the type read
WRAP = {
    ('SeparationVP', 'stationLocation'): '.int {}',
    ('EnvironmentGeneral', 'geometry'): 'some {}',
    ('EnvironmentGeneral', 'padding1'): 'some {}',
    ('Environment', 'padding'): 'some {}',
    ('AttachedParts', 'parameterValue'): 'some {}',
}
# list elements that are plain numbers but on which the code calls .serialize: AttributeError
# (element types documented in the class as numbers or left open)

FLOATBITS = lambda s: '0x%016x' % struct.unpack('>Q', struct.pack('>d', float(s)))[0]


def parent(k):
    ps = [b for b in k.bases if b in classes]
    return ps[0] if ps else None


def wire_float(k, f):
    for s in k.ser or []:
        if s[0] == 'w' and u(s[2]) == 'self.' + f and s[1] in FLOATM:
            return True
    for s in k.par or []:
        if s[0] == 'r' and s[1] == f and s[2] in FLOATM:
            return True
    return False


def wire_int(k, f):
    for s in k.ser or []:
        if s[0] == 'w' and u(s[2]) == 'self.' + f and s[1] not in FLOATM:
            return True
    for s in k.par or []:
        if s[0] == 'r' and s[1] == f and s[2] not in FLOATM:
            return True
    return False


def ann_type(a):
    if a is None:
        return None
    a = a.replace("'", '').replace('"', '')
    m = re.match(r'^(\w+)( \| .*)?$', a)
    if m and m.group(1) in classes:
        return m.group(1)
    m = re.match(r'^list\[(\w+)\]( \| None)?$', a)
    if m and m.group(1) in classes:
        return 'List ' + m.group(1)
    if m:
        return 'List Int'
    if a.startswith('float'):
        return 'F64'
    if re.match(r'^(enum|uint|int|struct)\d+', a):
        return 'Int'
    return None


def field_info(k):
    """ordered list of (attr, lean type, default, line)"""
    out = []
    seen = {}
    pname = {p[0]: p for p in k.params}
    for a, (v, ln) in k.attrs.items():
        if a in ('pduType', 'protocolFamily'):
            continue
        out.append((a, 'Int', u(v), ln))
        seen[a] = True
    if k.name == 'PduSuperclass':
        for a, ln in (('protocolVersion', 3438), ('exerciseID', 3441), ('pduType', 3444), ('protocolFamily', 3450),
                      ('timestamp', 3456), ('length', 3459)):
            out.append((a, 'Int', '7' if a == 'protocolVersion' else '0', ln))
        return out
    inherited = set()
    p = parent(k)
    while p:
        inherited |= {f[0] for f in field_info(classes[p])}
        p = parent(classes[p])
    for s in k.init or []:
        if s[0] != 'set':
            continue
        f, v, ln = s[1], s[2], s[3]
        if f in seen or f in inherited or f in k.props:
            continue
        src = u(v)
        t = d = None
        ov = FIELD_TYPES.get(k.name, {}).get(f)
        if ov:
            t, d = ov
        elif isinstance(v, ast.BoolOp) and u(v.values[1]).endswith('()') :
            t = u(v.values[1].func)
            d = f'{t}.init'
        elif isinstance(v, ast.BoolOp) and isinstance(v.values[1], ast.List):
            d = '[]'
            for st in k.par:
                if st[0] == 'loop' and st[1] == f and st[2][1] in classes:
                    t = 'List ' + st[2][1]
                if st[0] == 'loopw' and st[1] == f:
                    t = 'List Int'
            if t is None:
                t = ann_type(pname[u(v.values[0])][1])
        elif isinstance(v, ast.BoolOp) and isinstance(v.values[1], ast.BinOp):
            t = 'List Int'
            d = f'List.replicate {v.values[1].right.value} 0'
        elif isinstance(v, ast.BinOp) and u(v.left) == '[0]':
            t = 'List Int'
            d = f'List.replicate {v.right.value} 0'
        elif isinstance(v, ast.Call) and u(v.func) in classes:
            t = u(v.func)
            d = f'{t}.init'
        elif isinstance(v, ast.Name):
            pd = pname[v.id][2] if v.id in pname else None
            fl = wire_float(k, f) or (ann_type(pname[v.id][1]) == 'F64' if v.id in pname else False)
            if fl and wire_int(k, f):
                print('float annotation, integer on the wire:', k.name, f)
                fl = False
            t = 'F64' if fl else 'Int'
            d = FLOATBITS(pd) if (fl and pd is not None) else pd
            if d is None:
                print('NO DEFAULT', k.name, f, src)
        elif isinstance(v, ast.Constant):
            fl = wire_float(k, f)
            t = 'F64' if fl else 'Int'
            d = FLOATBITS(src) if fl else src
        elif src == 'beamState & 1':
            t, d = 'Int', '0'
        if t is None:
            print('NO TYPE', k.name, f, src)
        out.append((f, t, d, ln))
        seen[f] = True
    for f, (t, d) in FIELD_TYPES.get(k.name, {}).items():
        if f not in seen:
            ln = [s[3] for s in (k.par or []) + (k.ser or []) if (s[1] == f) or (s[0] == 'w' and u(s[2]) == 'self.' + f)][0]
            out.append((f, t, d, ln))
    return out


def cite(k, *what):
    """file:lines of the named methods"""
    spans = [k.lines[w] for w in what if w in k.lines]
    return k.path + ':' + ','.join(f'{a}-{b}' for a, b in spans)


def lean_expr(k, e):
    """integer expression over self in serialize"""
    s = u(e)
    m = re.match(r'^self\.(\w+)$', s)
    if m:
        f = m.group(1)
        if f in k.props:
            body = k.props[f]
            assert len(body) == 1 and isinstance(body[0], ast.Return), (k.name, f)
            return lean_expr(k, body[0].value)
        return f'self.{f}'
    m = re.match(r'^len\(self\.(\w+)\)$', s)
    if m:
        return f'self.{m.group(1)}.length'
    m = re.match(r'^len\(self\.(\w+)\) \* 8$', s)
    if m:
        return f'self.{m.group(1)}.length * 8'
    if s == '0':
        return '0'
    if s == 'self.beamState & 1':
        return 'self.beamState % 2'
    raise Exception((k.name, s))


def wexpr(k, e):
    x = lean_expr(k, e)
    if '.length' in x:
        if ' * ' in x:
            return '((' + x.split(' * ')[0] + ' : Int) * 8)'
        return f'({x} : Int)'
    return f'({x})' if ' ' in x else x


def gen_class(k):
    L = []
    p = parent(k)
    fi = field_info(k)
    own = [f[0] for f in fi]
    allf = dict((f[0], f[1]) for f in fi)
    q = p
    while q:
        for f in field_info(classes[q]):
            allf.setdefault(f[0], f[1])
        q = parent(classes[q])
    # structure
    L.append(f'/-- Attributes of a `{k.name}` object, {k.path}:{k.line}-{k.end}; default values are those of an')
    init_c = cite(k, '__init__') if '__init__' in k.lines else f'{k.path}:{k.line}'
    L.append(f'object made by `{k.name}()`, {init_c}. -/')
    L.append(f'structure {k.name}' + (f' extends {p}' if p else '') + ' where')
    for f, t, d, ln in fi:
        L.append(f'  {f} : {t} := {d}')
    for a in ('pduType', 'protocolFamily'):
        if a in k.attrs:
            L.append(f'  {a} := {u(k.attrs[a][0])}')
    L.append('  deriving DecidableEq')
    L.append('')
    # constructor
    sets = [s for s in (k.init or []) if s[0] == 'set']
    abstract = False
    q = k.name
    ispdu = False
    has_type = False
    while q:
        if q == 'PduSuperclass':
            ispdu = True
        if 'pduType' in classes[q].attrs:
            has_type = True
        q = parent(classes[q])
    raises = None
    if ispdu and not has_type:
        raises = 'valueError'
    if k.name == 'LinearObjectStatePdu':
        raises = 'nameError'
    if raises:
        if k.name in ('AttributePdu', 'LinearObjectStatePdu'):
            L.append(f'/-- `{k.name}(...)` raises whatever the arguments, {cite(k, "__init__")}. -/')
            L.append(f'def {k.name}.init : Except PyErr {k.name} := .error .{raises}')
            L.append('')
    else:
        params = []
        assigns = []
        used = {}
        for s in sets:
            f, v = s[1], s[2]
            t = allf.get(f)
            src = u(v)
            if isinstance(v, ast.Name):
                used[v.id] = (t, None)
                assigns.append((f, v.id))
            elif isinstance(v, ast.BoolOp) and isinstance(v.values[1], ast.Call):
                n = u(v.values[0])
                ty = u(v.values[1].func)
                used[n] = (f'Option {ty}', 'none')
                x = f'{n}.getD {ty}.init'
                if t and t.startswith('IntOr'):
                    x = f'.obj ({x})'
                assigns.append((f, x))
            elif isinstance(v, ast.BoolOp) and isinstance(v.values[1], ast.List):
                n = u(v.values[0])
                used[n] = (t, '[]')
                assigns.append((f, n))
            elif isinstance(v, ast.BoolOp) and isinstance(v.values[1], ast.BinOp):
                n = u(v.values[0])
                used[n] = (t, '[]')
                assigns.append((f, f'if {n}.isEmpty then List.replicate {v.values[1].right.value} 0 else {n}'))
            elif isinstance(v, ast.Constant):
                fd = [x for x in fi if x[0] == f]
                assigns.append((f, fd[0][2] if fd else src))
            elif isinstance(v, ast.BinOp) and u(v.left) == '[0]':
                assigns.append((f, f'List.replicate {v.right.value} 0'))
            elif isinstance(v, ast.Call) and u(v.func) in classes:
                ns = [u(a.values[0]) for a in v.args]
                tf = field_info(classes[u(v.func)])
                for n in ns:
                    used[n] = ([x[1] for x in tf if x[0] == n][0], '[]')
                assigns.append((f, f'{u(v.func)}.init ' + ' '.join(ns)))
            elif src == 'beamState & 1':
                used['beamState'] = ('Int', '0')
                assigns.append((f, 'beamState % 2'))
            else:
                print('CTOR', k.name, f, src)
        ps = []
        for n, ann, d in k.params:
            if n in used:
                t, dd = used[n]
                if dd is None:
                    if t == 'F64':
                        dd = FLOATBITS(d)
                    elif t.startswith('Option'):
                        dd = 'none'
                    else:
                        dd = d
                ps.append(f'({n} : {t} := {dd})')
            else:
                # argument accepted but not used by the constructor
                t = ann_type(ann) or 'Int'
                dd = {'F64': FLOATBITS(d) if d not in (None, 'None') else '0', 'Int': d}.get(t, 'none')
                if t not in ('F64', 'Int'):
                    t = f'Option ({t})'
                if d == 'None' and t == 'Int':
                    t, dd = 'List Int', '[]'
                ps.append(f'(_{n} : {t} := {dd})')
        if not (ispdu and not has_type):
            L.append(f'/-- Constructor `{k.name}(...)`, {init_c}. `x or T()` and `x or []` keep a given')
            L.append('value and replace `None` (absent) by a fresh one. -/')
            head = f'def {k.name}.init'
            line = head
            for a in ps:
                if len(line) + len(a) > 96:
                    L.append(line)
                    line = '   '
                line += ' ' + a
            L.append(line + f' : {k.name} :=')
            # last assignment wins
            fin = {}
            for f, x in assigns:
                fin[f] = x
            L.append('  { ' + ',\n    '.join(f'{f} := {x}' for f, x in fin.items()) + ' }' if fin else '  {}')
            L.append('')
    # serialize
    if k.ser is not None:
        B = []
        for s in k.ser:
            kind = s[0]
            if kind == 'w':
                m = re.match(r'^self\.(\w+)$', u(s[2]))
                use = USE.get((k.name, m.group(1))) if m else None
                if use:
                    B.append(f'W.using ({use}) write_{s[1]}')
                else:
                    B.append(f'write_{s[1]} {wexpr(k, s[2])}')
            elif kind == 'obj':
                t = allf[s[1]]
                if t.startswith('Option'):
                    B.append(f'W.using (attr self.{s[1]}) {t[7:]}.serialize')
                else:
                    B.append(f'{t}.serialize self.{s[1]}')
            elif kind == 'super':
                B.append(f'{p}.serialize self.to{p}')
            elif kind == 'each':
                t = allf[s[1]]
                assert t.startswith('List '), (k.name, s[1], t)
                if t == 'List Int':
                    B.append(f'W.forEach self.{s[1]} fun _ => W.throw .attributeError')
                else:
                    B.append(f'W.forEach self.{s[1]} {t[5:]}.serialize')
            elif kind == 'eachw':
                B.append(f'W.forEach self.{s[1]} write_{s[2]}')
            elif kind == 'idx':
                B.append(f'W.forRange 0 {s[2][1]} fun idx => W.using (index self.{s[1]} idx) write_{s[2][0]}')
            elif kind == 'pass':
                B.append('pure ()')
            elif k.name == 'VariableDatum' and s[3] == 3322:
                B.append('W.forRange 0 (self.variableDatumLength / 8).toNat fun x => '
                         'W.using (index self.variableData x) write_unsigned_byte')
            elif k.name == 'VariableDatum' and s[3] == 3326:
                B.append('W.forRange 0 (self.datumPaddingSizeInBits / 8).toNat fun _ => write_unsigned_byte 0')
            else:
                raise Exception(('SER', k.name, s))
        if k.name == 'VariableDatum':
            L.append(f'/-- `datumPaddingSizeInBits`, {cite(k, "datumPaddingSizeInBits")}. -/')
            L.append('def VariableDatum.datumPaddingSizeInBits (self : VariableDatum) : Int :=')
            L.append('  if self.variableDatumLength % 64 ≠ 0 then 64 - self.variableDatumLength % 64 else 0')
            L.append('')
        L.append(f'/-- `{k.name}.serialize`, {cite(k, "serialize")}. -/')
        L.append(f'def {k.name}.serialize (self : {k.name}) : W Unit := do')
        if not any('self' in b for b in B):
            L.append('  let _ := self')
        L += ['  ' + b for b in B]
        L.append('')
    # parse
    if k.par is not None:
        B = []
        fin = {}
        locs = set()
        zer = {}
        for s in k.par:
            kind = s[0]
            if kind == 'r':
                B.append(f'let {s[1]} ← read_{s[2]}')
                fin[s[1]] = WRAP.get((k.name, s[1]), '{}').format(s[1])
                locs.add(s[1])
            elif kind == 'local':
                B.append(f'let {s[1]} ← read_{s[2]}')
                locs.add(s[1])
            elif kind == 'discard':
                B.append(f'let _ ← read_{s[2]}')
            elif kind == 'obj':
                B.append(f'let {s[1]} ← {allf[s[1]]}.parse self.{s[1]}')
                fin[s[1]] = s[1]
            elif kind == 'super':
                B.append(f'let base ← {p}.parse self.to{p}')
                fin['to' + p] = 'base'
            elif kind in ('loop', 'loopw', 'loopsv'):
                r = u(s[2][0])
                r0 = r
                m = re.match(r'^(self\.)?(\w+)$', r)
                if m:
                    assert m.group(2) in locs, (k.name, r)
                    n = f'{m.group(2)}.toNat'
                else:
                    r = r.replace('self.', '').replace('//', '/')
                    n = f'({r}).toNat'
                f = s[1]
                et = allf[f][5:]
                if kind == 'loop':
                    T = s[2][1]
                    rd = f'({T}.parse {T}.init)' if T != 'null' else f'(R.throw .nameError : R {et})'
                else:
                    rd = f'read_{s[2][1]}'
                B.append(f'let {f} ← R.times {n} {rd}')
                fin[f] = f'self.{f} ++ {f}'
            elif kind == 'zeros':
                zer[s[1]] = s[2]
            elif kind == 'idx':
                # l = [0]*n, then l[idx] = read() for idx in range(n): the list of the n values read
                if zer.get(s[1]) != s[2][1]:
                    print('IDX without zeros', k.name, s)
                B.append(f'let {s[1]} ← R.times {s[2][1]} read_{s[2][0]}')
                fin[s[1]] = s[1]
            elif kind == 'pass':
                pass
            elif k.name == 'BeamStatus' and s[3] == 3164:
                B.append('let value ← read_unsigned_byte')
            elif k.name == 'BeamStatus' and s[3] == 3165:
                fin['beamState'] = 'value % 2'
            elif k.name == 'VariableDatum' and s[3] == 3333:
                B.append('let variableData ← R.times (variableDatumLength / 8).toNat read_unsigned_byte')
                fin['variableData'] = 'self.variableData ++ variableData'
            elif k.name == 'VariableDatum' and s[3] == 3338:
                B.append('let _ ← R.times ({ self with variableDatumLength : VariableDatum }.datumPaddingSizeInBits / 8).toNat'
                         ' read_unsigned_byte')
            else:
                raise Exception(('PAR', k.name, s))
        L.append(f'/-- `{k.name}.parse`, {cite(k, "parse")}; returns the updated object. -/')
        L.append(f'def {k.name}.parse (self : {k.name}) : R {k.name} := do')
        L += ['  ' + b for b in B]
        if fin:
            line = '  return { self with '
            parts = [f'{f} := {x}' for f, x in fin.items()]
            txt = '  return { self with ' + ', '.join(parts) + ' }'
            if len(txt) > 98:
                txt = '  return { self with\n    ' + ',\n    '.join(parts) + ' }'
            L.append(txt)
        else:
            L.append('  return self')
        L.append('')
    return '\n'.join(L)


def deps(k):
    d = set()
    if parent(k):
        d.add(parent(k))
    for f in field_info(k):
        for w in re.findall(r'\w+', f[1]):
            if w in classes and w != k.name:
                d.add(w)
    for s in k.par or []:
        if s[0] == 'loop' and s[2][1] in classes:
            d.add(s[2][1])
    return d


def order():
    out = []
    done = set()

    def visit(n):
        if n in done or n in HAND:
            return
        done.add(n)
        for d in sorted(deps(classes[n]), key=lambda x: (classes[x].path != CM, classes[x].line)):
            visit(d)
        out.append(n)
    for n in classes:
        if not n.endswith('Pdu') and n != 'PduSuperclass':
            visit(n)
    nrec = len(out)
    for n in classes:
        visit(n)
    return out[:nrec], out[nrec:]


HDR = '''import {imp}

/-!
# {title}

Generated by `tools/gen.py` from the Python source; each definition cites the lines it transliterates.
-/

set_option linter.unusedVariables false

namespace Dis

'''


def main():
    recs, pdus = order()
    common = [n for n in recs if classes[n].path == CM]
    rest = [n for n in recs if classes[n].path != CM]
    mods = [('Common', common, 'Records of `opendis/record/common.py`')]
    CH = 22
    for i in range(0, len(rest), CH):
        mods.append((f'Records{i//CH+1}', rest[i:i+CH], f'Records of `opendis/dis7.py`, part {i//CH+1}'))
    for i in range(0, len(pdus), 13):
        mods.append((f'Pdus{i//13+1}', pdus[i:i+13], f'PDUs of `opendis/dis7.py`, part {i//13+1}'))
    prev = 'Verif.Py.Object'
    for name, cl, title in mods:
        txt = HDR.format(imp=prev, title=title) + '\n'.join(gen_class(classes[n]) for n in cl) + '\nend Dis\n'
        open(os.path.join(OUT, name + '.lean'), 'w').write(txt)
        prev = f'Verif.Model.{name}'
    print([(m[0], len(m[1])) for m in mods], prev)
    return mods


if __name__ == '__main__':
    main()
