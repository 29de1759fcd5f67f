"""Generate lean/Verif/Props/Sending.lean (PDUs) and lean/Verif/Props/Constructors.lean (records): what is
passed to a constructor arrives at the receiver under the attribute of the same name.

The parameter names and their order come from the `__init__` signatures in the Python source; the types
come from the Lean model.

  python3 tools/genctor.py        (run in /verif)
"""
import ast
import glob
import os
import re

V = os.path.join(os.path.dirname(__file__), '..', 'lean', 'Verif')
SRC = ['/repo/opendis/dis7.py'] + sorted(glob.glob('/repo/opendis/record/**/*.py', recursive=True))

# type and family numbers of the standard (IEEE 1278.1-2012, SISO-REF-010 UID 4 and 5), except that the
# code uses 63 for RecordQueryReliablePdu where the standard has 65 (see C49_type_numbers)
STD = {
    'EntityStatePdu': (1, 1), 'FirePdu': (2, 2), 'DetonationPdu': (3, 2), 'CollisionPdu': (4, 1),
    'ServiceRequestPdu': (5, 3), 'ResupplyReceivedPdu': (7, 3), 'RepairCompletePdu': (9, 3),
    'RepairResponsePdu': (10, 3), 'CreateEntityPdu': (11, 5), 'RemoveEntityPdu': (12, 5),
    'StartResumePdu': (13, 5), 'StopFreezePdu': (14, 5), 'AcknowledgePdu': (15, 5),
    'ActionRequestPdu': (16, 5), 'ActionResponsePdu': (17, 5), 'DataQueryPdu': (18, 5),
    'SetDataPdu': (19, 5), 'DataPdu': (20, 5), 'EventReportPdu': (21, 5), 'CommentPdu': (22, 5),
    'ElectromagneticEmissionsPdu': (23, 6), 'DesignatorPdu': (24, 6), 'TransmitterPdu': (25, 4),
    'SignalPdu': (26, 4), 'ReceiverPdu': (27, 4), 'UaPdu': (29, 6), 'SeesPdu': (30, 6),
    'IntercomSignalPdu': (31, 4), 'IntercomControlPdu': (32, 4), 'AggregateStatePdu': (33, 7),
    'IsPartOfPdu': (36, 7), 'MinefieldStatePdu': (37, 8), 'MinefieldResponseNackPdu': (40, 8),
    'PointObjectStatePdu': (43, 9), 'LinearObjectStatePdu': (44, 9), 'ArealObjectStatePdu': (45, 9),
    'CreateEntityReliablePdu': (51, 10), 'RemoveEntityReliablePdu': (52, 10),
    'StartResumeReliablePdu': (53, 10), 'StopFreezeReliablePdu': (54, 10),
    'AcknowledgeReliablePdu': (55, 10), 'ActionRequestReliablePdu': (56, 10),
    'ActionResponseReliablePdu': (57, 10), 'DataQueryReliablePdu': (58, 10),
    'SetDataReliablePdu': (59, 10), 'DataReliablePdu': (60, 10), 'EventReportReliablePdu': (61, 10),
    'CommentReliablePdu': (62, 10), 'RecordQueryReliablePdu': (63, 10), 'CollisionElasticPdu': (66, 1),
    'EntityStateUpdatePdu': (67, 1), 'DirectedEnergyFirePdu': (68, 2), 'EntityDamageStatusPdu': (69, 2),
    'ResupplyOfferPdu': (6, 3),
}
# attributes spelled differently from the parameter
SPELLED = {
    ('ArealObjectStatePdu', 'forceId'): 'forceID',
    ('FirePdu', 'range_'): 'range',
    ('SeesPdu', 'originatingEntityID'): 'orginatingEntityID',
    ('IsPartOfPdu', 'originatingEntityID'): 'orginatingEntityID',
    ('StopFreezeReliablePdu', 'requiredReliabilityService'): 'requiredReliablityService',
    ('UAFundamentalParameter', 'azimuthBeamwidthHorizontal'): 'azimuthalBeamwidthHorizontal',
    ('IOCommunicationsNode', 'communicationsNodeType'): 'communcationsNodeType',
    ('EngineFuelReload', 'fuelMeasurementUnits'): 'fuelMeasurmentUnits',
}
# parameters that do not reach the receiver, and what it gets instead (C49)
VALUE = {
    ('DeadReckoningParameters', 'parameters'):
        '(if parameters.isEmpty then List.replicate 15 0 else parameters)',
    ('EntityMarking', 'characters'): '(if characters.isEmpty then List.replicate 11 0 else characters)',
}
VALUE['IFFFundamentalParameterData', 'systemSpecificData'] = \
    '(if systemSpecificData.isEmpty then List.replicate 3 0 else systemSpecificData)'
VALUE['FastEntityStatePdu', 'otherParameters'] = \
    '(if otherParameters.isEmpty then List.replicate 15 0 else otherParameters)'
VALUE['FastEntityStatePdu', 'marking'] = '(if marking.isEmpty then List.replicate 12 0 else marking)'
VALUE['BeamStatus', 'beamState'] = 'beamState % 2'
# objects made by the constructor never serialize (C49)
UNSENDABLE = {'DirectedEnergyFirePdu', 'AttachedParts', 'Environment', 'EnvironmentGeneral', 'SilentAggregateSystem', 'SeparationVP',
              'StandardVariableSpecification', 'RecordSpecification'}
WITHLEN = {'BeamAntennaPattern', 'BasicHaveQuickMP', 'CCTTSincgarsMP'}
IGNORED = {
    ('DataQueryPdu', 'requestID'), ('DataQueryPdu', 'timeInterval'),
    ('EngineFuel', 'fuelQuantity'), ('EngineFuel', 'fuelMeasurementUnits'), ('EngineFuel', 'fuelType'),
    ('EngineFuel', 'fuelLocation'),
    ('AngularVelocityVector', 'x'), ('AngularVelocityVector', 'y'), ('AngularVelocityVector', 'z'),
    ('AggregateMarking', 'characters'),
}

sig, fields, ext = {}, {}, {}
for f in sorted(glob.glob(V + '/Model/*.lean')):
    s = open(f).read()
    for m in re.finditer(r'^def (\w+)\.init\b((?:(?!\n\n).)*?) :\s+([\w ]+) :=\n', s, re.M | re.S):
        sig[m.group(1)] = m.group(2)
    for m in re.finditer(r'^structure (\w+)(?: extends (\w+))? where\n(.*?)\n\n', s, re.M | re.S):
        ext[m.group(1)] = m.group(2)
        fields[m.group(1)] = dict((a, b.strip()) for a, b in
                                  re.findall(r'^  (\w+) : ([^:\n]*)', m.group(3), re.M))
ALL = ''
for d in ('Spec', 'Proof'):
    for f in sorted(os.listdir(os.path.join(V, d))):
        ALL += open(os.path.join(V, d, f)).read()


def has(what):
    return re.search(r'^(?:def|theorem) ' + re.escape(what) + r'\b', ALL, re.M) is not None


def all_fields(t):
    r = {}
    while t:
        r = {**fields[t], **r}
        t = ext.get(t)
    return r


def lean_params(t):
    out, depth, cur = [], 0, ''
    for ch in sig[t]:
        if ch == '(':
            depth += 1
            if depth == 1:
                cur = ''
                continue
        if ch == ')':
            depth -= 1
            if depth == 0:
                n, ty = cur.split(' : ', 1)
                d = None
                if ' := ' in ty:
                    ty, d = ty.split(' := ', 1)
                out += [(x, ' '.join(ty.split()), d) for x in n.split()]
                continue
        if depth:
            cur += ch
    return out


py = {}
for f in SRC:
    for x in ast.walk(ast.parse(open(f).read())):
        if isinstance(x, ast.ClassDef):
            for y in x.body:
                if isinstance(y, ast.FunctionDef) and y.name == '__init__':
                    py[x.name] = ([a.arg for a in y.args.args[1:]], f, y.lineno, y.end_lineno)

catalog = re.findall(r'^  name := "(\w+)"', open(V + '/Spec/Catalog.lean').read(), re.M)


def build(t):
    """(binders, application, [equation], ignored equations)"""
    P = lean_params(t)
    names = py[t][0] if t in py else []
    lean = {n.lstrip('_') if n not in ('_',) else n: (n, ty, d) for n, ty, d in P}
    if len(names) != len(P) or any(n not in lean and n + '_' not in lean for n in names):
        return None, (names, [p[0] for p in P])
    F = all_fields(t)
    binders, eqs, ign, args = [], [], [], []
    for n in names:
        n = n if n in lean else n + '_'
        _, ty, d = lean[n]
        binders.append((n, ty))
        args.append((n, ty, d))
        a = SPELLED.get((t, n), n)
        if a in F:
            fty = F[a]
        else:
            for inner in ('_datums', '_dataQuery'):
                if inner in F and a in all_fields(F[inner]):
                    fty = all_fields(F[inner])[a]
                    a = f'{inner}.{a}'
                    break
            else:
                return None, (t, a)
        if (t, n) in IGNORED:
            ign.append((a, fty, n))
            continue
        if ty.startswith('Option ') and not fty.startswith('Option '):
            v = f'{n}.getD {ty[7:]}.init' if ty != 'Option Int' else f'{n}.getD 0'
            if fty.startswith('IntOr'):
                return None, (t, a, fty)
        else:
            v = VALUE.get((t, n), n)
        eqs.append((a, v))
    return (binders, args, eqs, ign), None


def wrap(prefix, items, sep=' ', width=98, ind='    '):
    lines, cur = [], prefix
    for i, it in enumerate(items):
        s = it if i == 0 and not prefix.strip() else sep + it
        if len(cur) + len(s) > width:
            lines.append(cur.rstrip())
            cur = ind + it
        else:
            cur += s
    lines.append(cur)
    return '\n'.join(lines)


def group(binders):
    out = []
    for n, ty in binders:
        if out and out[-1][1] == ty:
            out[-1][0].append(n)
        else:
            out.append([[n], ty])
    return [f'({" ".join(ns)} : {ty})' for ns, ty in out]


SAMPLE_SKIP = {'SilentAggregateSystem', 'AttachedParts', 'Environment', 'EnvironmentGeneral', 'SeparationVP'}


def sample(ty, i, depth=0):
    if ty == 'Int':
        return str(1 if i % 2 else 2)
    if ty == 'Bool':
        return 'true'
    if ty == 'F64':
        return '0x3FF8000000000000'
    if ty == 'Option Int':
        return 'some 3'
    if ty.startswith('Option '):
        t = ty[7:]
        if t in sig and depth < 2:
            b, _ = build(t)
            if b and t not in SAMPLE_SKIP:
                return 'some (' + app(t, b, depth + 1) + ')'
        return 'none'
    if ty == 'List Int':
        return '[1, 2]'
    if ty.startswith('List '):
        t = ty[5:]
        if t in sig and depth < 2:
            b, _ = build(t)
            if b and t not in SAMPLE_SKIP:
                return '[' + app(t, b, depth + 1) + ']'
        return '[]'
    return None


def app(t, b, depth=0):
    if t in EX:
        return EX[t]
    binders, args, eqs, ign = b
    r = [f'{t}.init']
    for i, (n, ty, d) in enumerate(args):
        s = OVERRIDE.get((t, n)) or sample(ty, i, depth) or d
        if (t, n) in IGNORED:
            s = d
        r.append(s if re.fullmatch(r'\w+|\[.*\]', s) else f'({s})' )
    return ' '.join(r)


OVERRIDE = {
    ('EntityMarking', 'characters'): '[77, 49, 65, 49, 0, 0, 0, 0, 0, 0, 0]',
    ('AggregateMarking', 'characters'): '[]',
    ('FastEntityStatePdu', 'otherParameters'): '[]', ('FastEntityStatePdu', 'marking'): '[]',
    ('FastEntityStatePdu', 'numberOfVariableParameters'): '1',
    ('DeadReckoningParameters', 'parameters'): '[1, 2, 3, 4, 5, 6, 7, 8, 9, 10, 11, 12, 13, 14, 15]',
}
EX = {}
exec(open(os.path.join(os.path.dirname(__file__), 'genctor_samples.py')).read())


def theorem(t, pdu):
    b, why = build(t)
    if b is None:
        return None, why
    binders, args, eqs, ign = b
    call = f'({t}.init {" ".join(n for n, _ in binders)})' if binders else f'{t}.init'
    calll = wrap(f'{t}.init', [n for n, _ in binders]) if binders else f'{t}.init'
    dec = has(t + '.Decodable')
    path, l0, l1 = py[t][1:] if t in py else ('/repo/opendis/dis7.py', 0, 0)
    c = 'C47' if pdu else 'C48'
    o = ['']
    o.append(f'/-- **{c}.** What is passed to `{t}(...)`, {path}:{l0}-{l1},')
    o.append('is what the receiver gets. -/')
    o.append(wrap(f'theorem {c}_{t}', group(binders)))
    if dec:
        o.append(f'    (hd : {call}.Decodable)'.replace('\n', ' '))
    o.append(f'    (hc : {call}.Canon)')
    o.append(f'    (b post : Bytes)' + (' (n : Option Int) (hn : ∀ k, n = some k → 0 ≤ k)' if t in WITHLEN else ''))
    o.append(f'    (hb : {call}.serialize.Emits b) :')
    conj = [f'q.{a} = {v}' for a, v in eqs]
    reg = pdu and t in STD and t not in UNREG
    if pdu:
        if t in STD:
            ty, fam = STD[t]
            hdr = [f'q.toPdu.Header {ty} {fam}']
        else:
            hdr = []
        conj = hdr + conj
    if reg:
        first = f'createPdu (b ++ post) = .ok (some (.{t} q))'
    else:
        first = f'({t}.parse {t}.init{" n" if t in WITHLEN else ""}).Returns (b ++ post) q'
    if not conj:
        return None, (t, 'every argument is ignored')
    o.append(f'    ∃ q : {t}, {first} ∧')
    o.append(wrap('     ', [x + (' ∧' if i + 1 < len(conj) else ' :=') for i, x in enumerate(conj)], ind='      '))
    hdv = 'hd' if dec else 'trivial'
    k = len(conj)
    rf = ', '.join(['⟨rfl, rfl, rfl, rfl, rfl, rfl, rfl, rfl⟩' if x.startswith('q.toPdu.Header') else 'rfl' for x in conj])
    if reg:
        o.append(f'  ⟨_, (C21_factory_round_trip (.{t} {call}) {hdv} (by show PduTypeDecoders.lookup {ty} = some .{t}; decide) b hb post).2 hc,')
    else:
        o.append(f'  ⟨_, returns_of_rt ({t}.rt {"n hn " if t in WITHLEN else ""}_ _{" hd" if dec else ""}) ({t}.after_canon hc) hb post,')
    o.append(f'    {rf}⟩')
    return ('\n'.join(o), b), None


UNREG = {'ResupplyOfferPdu', 'FastEntityStatePdu', 'StartResumeReliablePdu', 'DirectedEnergyFirePdu', 'SeesPdu'}


def example(t, b, pdu):
    call = app(t, b)
    reg = pdu and t in STD and t not in UNREG
    o = []
    lhs = f'({call})'
    o.append(f'example : let p := {call};\n    p.serialize.res = .ok () ∧ ({t}.parse {t}.init{" none" if t in WITHLEN else ""} ⟨p.serialize.out ++ [9], 0⟩).1 = .ok p := by decide +kernel')
    return '\n'.join(o)


def main():
    pdus, recs, skipped = [], [], []
    for t in catalog:
        if t not in sig or t in UNSENDABLE:
            skipped.append((t, 'no init'))
            continue
        pdu = t in STD or t == 'FastEntityStatePdu'
        r, why = theorem(t, pdu)
        if r is None:
            skipped.append((t, why))
            continue
        (pdus if pdu else recs).append((t, r))
    for x in skipped:
        print('skipped', x)
    print(len(pdus), len(recs))
    for name, items, pdu in (('Sending', pdus, True), ('Constructors', recs, False)):
        o = [HEAD[name]]
        for t, (th, b) in items:
            o.append(th)
            if not (len(b[0]) == 0 or t in NOEX):
                o.append('')
                o.append(example(t, b, pdu))
        o.append('\nend Dis\n')
        open(f'{V}/Props/{name}.lean', 'w').write('\n'.join(o))


if __name__ == '__main__':
    main()
