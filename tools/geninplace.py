"""Generates lean/Verif/Model/InPlace*.lean (parse methods as programs that change their object),
lean/Verif/Spec/InPlace.lean (what a parse leaves alone) and lean/Verif/Proof/InPlace*.lean.

  python3 tools/geninplace.py        (run in /verif)
"""
import os
import re
import gen
from gen import classes, parent, field_info, cite, WRAP
from ir import u

L = os.path.join(os.path.dirname(os.path.abspath(__file__)), '../lean/Verif')
HEAD = '''{imp}
/-!
# {title}

Generated by `tools/geninplace.py`{more}.
-/

set_option linter.unusedVariables false
set_option linter.unusedSimpArgs false

namespace Dis

'''


def fields(k):
    """all attributes, inherited ones included: attr -> type"""
    out = {}
    q = k.name
    while q:
        for f in field_info(classes[q]):
            out.setdefault(f[0], f[1])
        q = parent(classes[q])
    return out


class C:
    """steps: (lean statement, kind, attr, element type)"""
    def __init__(self, name):
        self.name = name
        self.steps = []
        self.call = ''       # extra argument of parse
        self.param = ''      # extra parameter of parse
        self.cite = None


def attr(f, t=None):
    return f'⟨(·.{f}), fun o v => {{ o with {f} := v }}⟩'


def translate(k):
    c = C(k.name)
    allf = fields(k)
    p = parent(k)
    for s in k.par:
        kind = s[0]
        S = c.steps.append
        if kind == 'r':
            v = WRAP.get((k.name, s[1]), '{}').format(s[1])
            S((f'let {s[1]} ← P.read read_{s[2]}', 'read', None, None))
            S((f'P.set fun o => {{ o with {s[1]} := {v} }}', 'set', s[1], None))
        elif kind == 'local':
            S((f'let {s[1]} ← P.read read_{s[2]}', 'read', None, None))
        elif kind == 'discard':
            S((f'let _ ← P.read read_{s[2]}', 'read', None, None))
        elif kind == 'obj':
            S((f'P.call {attr(s[1])} {allf[s[1]]}.parseInto', 'call', s[1], allf[s[1]]))
        elif kind == 'super':
            S((f'P.call {attr("to" + p)} {p}.parseInto', 'call', 'to' + p, p))
        elif kind in ('loop', 'loopw', 'loopsv'):
            r = u(s[2][0])
            m = re.match(r'^(self\.)?(\w+)$', r)
            n = f'{m.group(2)}.toNat' if m else '(' + r.replace('self.', '').replace('//', '/') + ').toNat'
            f = s[1]
            et = allf[f][5:]
            if kind == 'loop' and s[2][1] != 'null':
                T = s[2][1]
                S((f'P.appendObjs {n} {T}.init {T}.parseInto {attr(f)}', 'objs', f, T))
            else:
                rd = f'(R.throw .nameError : R {et})' if kind == 'loop' else f'read_{s[2][1]}'
                S((f'P.appendReads {n} {rd} {attr(f)}', 'reads', f, None))
        elif kind == 'zeros':
            pass
        elif kind == 'idx':
            S((f'P.fillReads {s[2][1]} read_{s[2][0]} {attr(s[1])}', 'fill', s[1], None))
        elif kind == 'pass':
            pass
        elif k.name == 'BeamStatus' and s[3] == 3164:
            S(('let value ← P.read read_unsigned_byte', 'read', None, None))
        elif k.name == 'BeamStatus' and s[3] == 3165:
            S(('P.set fun o => { o with beamState := value % 2 }', 'set', 'beamState', None))
        elif k.name == 'VariableDatum' and s[3] == 3333:
            S((f'P.appendReads (variableDatumLength / 8).toNat read_unsigned_byte {attr("variableData")}', 'reads', 'variableData', None))
        elif k.name == 'VariableDatum' and s[3] == 3338:
            S(('let _ ← P.read (R.times\n    (VariableDatum.datumPaddingSizeInBits { variableDatumLength } / 8).toNat read_unsigned_byte)', 'read', None, None))
        else:
            raise Exception(('PAR', k.name, s))
    return c


def components(k, c):
    """what stays or grows: list of (attr, kind, class)"""
    out = []
    p = parent(k)
    touched = {}
    for st, kind, f, T in c.steps:
        if f:
            touched[f] = (kind, T)
    if p:
        if 'to' + p in touched:
            out.append(('to' + p, 'sub', p))
        else:
            out.append(('to' + p, 'off', None))
    for f, t, d, ln in field_info(k):
        if f not in touched:
            out.append((f, 'off', None))
        else:
            kind, T = touched[f]
            if kind == 'call':
                out.append((f, 'sub', T))
            elif kind in ('objs', 'reads'):
                out.append((f, 'list', None))
    return out


lists = set()       # classes with a list that grows, also in a nested object
comps = {}


def gen_model(c):
    o = [f'/-- `{c.name}.parse`, {c.cite or cite(classes[c.name], "parse")}, statement by statement. -/']
    o.append(f'def {c.name}.parseInto{c.param} : P {c.name} Unit := do')
    o += ['  ' + s[0] for s in c.steps]
    o.append('  return ()')
    return '\n'.join(o) + '\n'


def conj(xs):
    return ' ∧ '.join(xs) if xs else 'True'


def gen_spec(c, cs):
    n = c.name
    where = c.cite or cite(classes[n], 'parse')
    comps[n] = cs
    parts = []
    for f, kind, T in cs:
        if kind == 'off':
            parts.append(f'x.{f} = o.{f}')
        elif kind == 'list':
            parts.append(f'o.{f} <+: x.{f}')
        else:
            parts.append(f'{T}.Since o.{f} x.{f}')
    un = '_' if not parts else ''
    o = [f'/-- `x` is the `{n}` object `o` after calls of `parse` ({where}):\nattributes that are not read stay, lists only grow. -/',
         f'abbrev {n}.Since ({un}o {un}x : {n}) : Prop :=']
    line = '  '
    body = conj(parts)
    o += wrap(body, 100)
    tr = []
    for f, kind, T in cs:
        if kind == 'list':
            tr.append(f'{f} := x.{f}.take o.{f}.length')
        elif kind == 'sub' and T in lists:
            tr.append(f'{f} := {T}.trim o.{f} x.{f}')
    if tr:
        lists.add(n)
        o += ['', f'/-- The `{n}` object `x` with its lists cut back to their lengths in `o`\n({where} appends to them). -/',
              f'def {n}.trim (o x : {n}) : {n} :=']
        txt = '  { x with ' + ', '.join(tr) + ' }'
        if len(txt) > 100:
            txt = '  { x with\n    ' + ',\n    '.join(tr) + ' }'
        o.append(txt)
    return '\n'.join(o) + '\n'


def wrap(body, w):
    out, line = [], '  '
    for part in body.split(' ∧ '):
        piece = part + ' ∧ '
        if len(line) + len(piece) > w:
            out.append(line.rstrip())
            line = '    '
        line += piece
    out.append(line[:-3])
    return out


def comp(h, i, m):
    """projection of component i of m"""
    if m == 1:
        return h
    return h + '.2' * i + ('.1' if i < m - 1 else '')


def tup(xs):
    return '⟨' + ', '.join(xs) + '⟩' if len(xs) > 1 else (xs[0] if xs else 'trivial')


LAW = '⟨fun _ _ => rfl, fun _ _ _ => rfl, fun _ => rfl⟩'


def gen_proof(c):
    n = c.name
    cs = comps[n]
    m = len(cs)
    idx = {f: i for i, (f, _, _) in enumerate(cs)}
    rf, tr = [], []
    for i, (f, kind, T) in enumerate(cs):
        a, b = comp('h', i, m), comp('g', i, m)
        if kind == 'off':
            rf.append('rfl')
            tr.append(f'Eq.trans ({b}) ({a})')
        elif kind == 'list':
            rf.append('List.prefix_refl _')
            tr.append(f'List.IsPrefix.trans ({a}) ({b})')
        else:
            rf.append(f'{T}.Since.refl _')
            tr.append(f'{T}.Since.trans {a} {b}')
    o = [f'theorem {n}.Since.refl (o : {n}) : {n}.Since o o :=', f'  {tup(rf)}', '',
         f'theorem {n}.Since.trans {{o x y : {n}}} (h : {n}.Since o x) (g : {n}.Since x y) : {n}.Since o y :=',
         f'  {tup(tr)}', '']
    # invariant
    into = f'({n}.parseInto{c.call})' if c.call else f'{n}.parseInto'
    o += [f'theorem {n}.since {c.param} (o : {n}) (s : InStream) : {n}.Since o ({into} o s).2.1 := by',
          f'  refine (?_ : P.Keeps ({n}.Since o) {into}) o s (.refl o)', f'  unfold {n}.parseInto']
    for st, kind, f, T in c.steps:
        def upd(new):
            return tup([new if i == idx[f] else comp('h', i, m) for i in range(m)])
        if kind == 'read':
            o.append('  refine .read fun _ => ?_')
        elif kind == 'get':
            o.append('  refine .get fun _ => ?_')
        elif kind == 'set':
            o.append('  refine .set (fun _ h => h) ?_')
        elif kind == 'call':
            h1 = comp('h', idx[f], m)
            o.append(f'  refine .call {T}.since (fun _ _ h g => {upd(f"{T}.Since.trans {h1} g")}) ?_')
        elif kind in ('objs', 'reads'):
            h1 = comp('h', idx[f], m)
            nm = {'objs': 'appendObjs', 'reads': 'appendReads'}[kind]
            o.append(f'  refine .{nm} (fun _ _ h => {upd(f"List.IsPrefix.trans ({h1}) (List.prefix_append _ _)")}) ?_')
        elif kind == 'antenna':
            o.append('  refine TransmitterPdu.keeps_antenna (fun _ _ h => h) ?_')
        elif kind == 'fill':
            o.append('  refine .fillReads (fun _ _ h => h) ?_')
    o += ['  exact .pure', '']
    # agreement with the value model
    subs = sorted({T for _, kind, _, T in c.steps if T})
    lem = ['P.run_pure']
    kinds = {kind for _, kind, _, _ in c.steps}
    for kd, l in (('read', 'P.run_read'), ('get', 'P.run_get'), ('set', 'P.run_set'), ('call', 'P.run_call'), ('objs', 'P.run_appendObjs'),
                  ('reads', 'P.run_appendReads'), ('fill', 'P.run_fillReads'), ('antenna', 'TransmitterPdu.run_antenna')):
        if kd in kinds:
            lem.append(l)
    lem += [f'{T}.into' for T in subs]
    more = ['VariableDatum.datumPaddingSizeInBits'] if n == 'VariableDatum' else []
    lem += more
    o += [f'theorem {n}.into{c.param} (o : {n}) : P.run {into} o = {n}.parse o{c.call} := by',
          f'  unfold {n}.parseInto {n}.parse']
    if kinds & {'objs', 'reads', 'fill'}:
        o.append(f'  simp (maxSteps := 1000000) (disch := exact {LAW}) only [{", ".join(lem)}]')
    elif c.steps:
        o.append(f'  simp (maxSteps := 1000000) only [{", ".join(lem)}]')
    else:
        o.append('  rfl')
    o.append('')
    # an earlier parse shows only in the lists
    lhs = f'({n}.trim o x)' if n in lists else 'x'
    rw = []
    for i, (f, kind, T) in enumerate(cs):
        h1 = comp('h', i, m)
        if kind == 'off':
            rw.append(h1)
        elif kind == 'list':
            rw.append(f'← List.prefix_iff_eq_take.mp ({h1})')
        else:
            rw.append(f'{T}.again {h1}')
    un = f'{n}.parse {n}.trim' if n in lists else f'{n}.parse'
    o += [f'theorem {n}.again{c.param} {{o x : {n}}} (h : {n}.Since o x) : {n}.parse {lhs}{c.call} = {n}.parse o{c.call} := by']
    if not c.steps:
        o += ['  cases o; cases x', f'  simp_all only [{n}.Since]']
    elif rw:
        o += [f'  unfold {un}', f'  simp only [{", ".join(rw + more)}]']
    else:
        o += ['  rfl']
    # how the parse ends does not depend on the object
    tgt = f'fun s => {n}.parse s{c.call}' if c.call else f'{n}.parse'
    o += ['', f'theorem {n}.blind{c.param} : Blind ({tgt}) := by', '  intro o x', f'  unfold {n}.parse']
    for st, kind, f, T in c.steps:
        if n == 'TransmitterPdu' and f == 'modulationType':
            o.append('  refine .bind (ModulationType.alike _ _) fun _ _ hm => ?_')
        elif kind in ('read', 'objs', 'reads', 'fill', 'antenna'):
            if 'parseModulationParameters' in st:
                o += ['  rw [TransmitterPdu.modulation_congr hm.1 hm.2]']
            o.append('  refine .read fun _ => ?_')
        elif kind == 'call':
            o.append(f'  refine .bind ({T}.blind _ _) fun _ _ _ => ?_')
    o.append('  exact .pure trivial')
    return '\n'.join(o) + '\n'


# classes modelled by hand: name, lines, statements, what stays or grows
def hand(name, lines, stmts, cs, arg=''):
    c = C(name)
    c.cite = lines
    if arg:
        c.param = ' (bytelength : Option Int)'
        c.call = ' bytelength'
    for s in stmts.strip().split('\n'):
        s = s.strip()
        w = s.split()
        S = c.steps.append
        if w[0] == 'read':          # attr method [wrap]
            v = w[1] if len(w) < 4 else ' '.join(w[3:]).replace('_', w[1], 1)
            S((f'let {w[1]} ← P.read read_{w[2]}', 'read', None, None))
            S((f'P.set fun o => {{ o with {w[1]} := {v} }}', 'set', w[1], None))
        elif w[0] == 'local':
            S((f'let {w[1]} ← P.read {" ".join(w[2:])}', 'read', None, None))
        elif w[0] == 'get':
            S((f'let {w[1]} ← P.get (·.{w[1]})', 'get', None, None))
        elif w[0] == 'do':
            S((f'P.read {" ".join(w[1:])}', 'read', None, None))
        elif w[0] == 'set':
            S((f'P.set fun o => {{ o with {w[1]} := {" ".join(w[2:])} }}', 'set', w[1], None))
        elif w[0] == 'call':
            S((f'P.call {attr(w[1])} {w[2]}.parseInto', 'call', w[1], w[2]))
        elif w[0] == 'reads':
            S((f'P.appendReads {w[2]} {" ".join(w[3:])} {attr(w[1])}', 'reads', w[1], None))
        elif w[0] == 'antenna':
            S(('let antennaPatternType ← P.get (·.antennaPatternType)', 'get', None, None))
            S(('TransmitterPdu.parseAntennaPatternInto antennaPatternType antennaPatternLength', 'antenna', None, None))
        else:
            raise Exception(s)
    return c, cs


RADIO = '/repo/opendis/record/radio/__init__.py'
D7 = '/repo/opendis/dis7.py'


def hands():
    yield hand('NetId', f'{RADIO}:305-310', """local record_bitfield (Bitfield.parse NetId.struct)
        set netNumber record_bitfield.getD 0 0
        set frequencyTable record_bitfield.getD 1 0
        set mode record_bitfield.getD 2 0
        set padding record_bitfield.getD 3 0""", [])
    yield hand('SpreadSpectrum', f'{RADIO}:211-215', """local record_bitfield (Bitfield.parse SpreadSpectrum.struct)
        set frequencyHopping record_bitfield.getD 0 0 ≠ 0
        set pseudoNoise record_bitfield.getD 1 0 ≠ 0
        set timeHopping record_bitfield.getD 2 0 ≠ 0""", [('padding', 'off', None)])
    yield hand('ModulationType', f'{RADIO}:249-253', """call spreadSpectrum SpreadSpectrum
        read majorModulation uint16
        read detail uint16
        read radioSystem uint16""", [('spreadSpectrum', 'sub', 'SpreadSpectrum')])
    yield hand('BeamAntennaPattern', f'{RADIO}:150-164', """do (VariableRecord.parse bytelength)
        call beamDirection EulerAngles
        read azimuthBeamwidth float32
        read elevationBeamwidth float32
        read referenceSystem uint8
        read padding1 uint8
        read padding2 uint16
        read ez float32
        read ex float32
        read phase float32
        read padding3 uint32""", [('beamDirection', 'sub', 'EulerAngles')], 'bytelength')
    yield hand('BasicHaveQuickMP', f'{RADIO}:389-400', """do (VariableRecord.parse bytelength)
        call net_id NetId
        read mwod_index uint16
        read reserved16 uint16
        read reserved8_1 uint8
        read reserved8_2 uint8
        read time_of_day uint32
        read padding uint32""", [('net_id', 'sub', 'NetId')], 'bytelength')
    yield hand('CCTTSincgarsMP', f'{RADIO}:437-449', """do (VariableRecord.parse bytelength)
        read fh_net_id uint16
        read hop_set_id uint16
        read lockout_set_id uint16
        read start_of_message uint8
        read clear_channel uint8
        read fh_sync_time_offset uint32
        read transmission_security_key uint16
        read padding uint16""", [], 'bytelength')
    yield hand('DEFireFlags', '/repo/opendis/record/warfare/enums.py:34-38', """local record_bitfield (Bitfield.parse DEFireFlags.struct)
        set weaponOn record_bitfield.getD 0 0
        set stateUpdateFlag record_bitfield.getD 1 0
        set padding record_bitfield.getD 2 0""", [])
    yield hand('DirectedEnergyTargetEnergyDeposition', '/repo/opendis/record/warfare/__init__.py:276-280', """call targetEntityID EntityIdentifier
        read padding uint16
        read peakIrradiance float32""", [('targetEntityID', 'sub', 'EntityIdentifier')])
    yield hand('TransmitterPdu', f'{D7}:5052-5116', """call toRadioCommunicationsFamilyPdu RadioCommunicationsFamilyPdu
        call radioReferenceID EntityIdentifier
        read radioNumber uint16
        call radioEntityType EntityType
        read transmitState uint8
        read inputSource uint8
        local variableTransmitterParameterCount read_uint16
        call antennaLocation WorldCoordinates
        call relativeAntennaLocation Vector3Float
        read antennaPatternType uint16
        local antennaPatternLength read_uint16
        read frequency uint64
        read transmitFrequencyBandwidth float32
        read power float32
        call modulationType ModulationType
        read cryptoSystem uint16
        read cryptoKeyId uint16
        local modulationParametersLength read_uint8
        read padding2 uint16
        read padding3 uint8
        get modulationType
        local modulationParameters (TransmitterPdu.parseModulationParameters modulationType modulationParametersLength)
        set modulationParameters modulationParameters
        antenna
        reads variableTransmitterParameters variableTransmitterParameterCount.toNat (parseStandardVariableRecord .variableTransmitterParameters)""",
        [('toRadioCommunicationsFamilyPdu', 'sub', 'RadioCommunicationsFamilyPdu'), ('radioReferenceID', 'sub', 'EntityIdentifier'),
         ('radioEntityType', 'sub', 'EntityType'), ('antennaLocation', 'sub', 'WorldCoordinates'),
         ('relativeAntennaLocation', 'sub', 'Vector3Float'), ('modulationType', 'sub', 'ModulationType'),
         ('variableTransmitterParameters', 'list', None)])
    yield hand('DirectedEnergyFirePdu', f'{D7}:6381-6403', """call toWarfareFamilyPdu WarfareFamilyPdu
        call munitionType EntityType
        call shotStartTime ClockTime
        read commulativeShotTime float32 some _
        call apertureEmitterLocation Vector3Float
        read apertureDiameter float32
        read wavelength float32
        read padding1 uint32
        read pulseRepetitionFrequency float32
        read pulseWidth float32
        call flags DEFireFlags
        read pulseShape uint8
        read padding2 uint8
        read padding3 uint32
        read padding4 uint16
        local numberOfDERecords read_uint16
        reads dERecords numberOfDERecords.toNat (parseStandardVariableRecord .damageDescription)""",
        [('toWarfareFamilyPdu', 'sub', 'WarfareFamilyPdu'), ('munitionType', 'sub', 'EntityType'), ('shotStartTime', 'sub', 'ClockTime'),
         ('cumulativeShotTime', 'off', None), ('apertureEmitterLocation', 'sub', 'Vector3Float'), ('flags', 'sub', 'DEFireFlags'),
         ('dERecords', 'list', None)])
    yield hand('EntityDamageStatusPdu', f'{D7}:6666-6677', """call toWarfareFamilyPdu WarfareFamilyPdu
        call damagedEntityID EntityIdentifier
        read padding1 uint16
        read padding2 uint16
        local damageDescriptionCount read_uint16
        reads damageDescriptions damageDescriptionCount.toNat (parseStandardVariableRecord .damageDescription)""",
        [('toWarfareFamilyPdu', 'sub', 'WarfareFamilyPdu'), ('damagedEntityID', 'sub', 'EntityIdentifier'), ('damageDescriptions', 'list', None)])
    yield hand('IntercomControlPdu', f'{D7}:6939-6954', """call toRadioCommunicationsFamilyPdu RadioCommunicationsFamilyPdu
        read controlType unsigned_byte
        read communicationsChannelType unsigned_byte
        call sourceEntityID EntityIdentifier
        read sourceCommunicationsDeviceID unsigned_byte
        read sourceLineID unsigned_byte
        read transmitPriority unsigned_byte
        read transmitLineState unsigned_byte
        read command unsigned_byte
        call masterEntityID EntityIdentifier
        read masterCommunicationsDeviceID unsigned_short
        local _intercomParametersLength read_unsigned_int
        local intercomParameters (R.throw .typeError)
        set intercomParameters intercomParameters""",
        [('toRadioCommunicationsFamilyPdu', 'sub', 'RadioCommunicationsFamilyPdu'), ('sourceEntityID', 'sub', 'EntityIdentifier'),
         ('masterEntityID', 'sub', 'EntityIdentifier')])


def write(path, txt):
    open(os.path.join(L, path), 'w').write(txt)


ARG = {'BeamAntennaPattern': ' (some 40)', 'BasicHaveQuickMP': ' none', 'CCTTSincgarsMP': ' none'}


def catalog():
    cat = open(f'{L}/Spec/Catalog.lean').read()
    parts = re.findall(r'^def (catalog\w+) : List Codec :=\n  \[(.*?)\]\n', cat, re.M | re.S)
    s = [HEAD.format(imp='import Verif.Spec.Catalog\nimport Verif.Model.InPlaceSpecial\nimport Verif.Spec.InPlaceSpecial\n',
                     title='The catalogue with parses in place', more='').rstrip(), '''
/-- A wire class with its `parse` as a program that changes its object (methods `parse` of
/repo/opendis/dis7.py and /repo/opendis/record). -/
structure InPlace where
  /-- the class -/
  codec : Codec
  /-- its method `parse` -/
  into : P codec.Obj Unit
  /-- the second object may be the first one after parses -/
  Since : codec.Obj → codec.Obj → Prop
  /-- the class, or a class of its parts, has lists that `parse` appends to -/
  lists : Bool
  /-- the second object with its lists cut back to their lengths in the first -/
  trim : codec.Obj → codec.Obj → codec.Obj
''']
    p = [HEAD.format(imp='import Verif.Proof.InPlaceSpecial\nimport Verif.Spec.InPlaceCatalog\n',
                     title='Laws of parses in place, for the whole catalogue', more='').rstrip(), '''
/-- What is proved of every entry. -/
structure InPlace.Lawful (e : InPlace) : Prop where
  agrees : ∀ o, P.run e.into o = e.codec.parse o
  refl : ∀ o, e.Since o o
  trans : ∀ o x y, e.Since o x → e.Since x y → e.Since o y
  since : ∀ o s, e.Since o (e.into o s).2.1
  again : ∀ o x, e.Since o x → e.codec.parse (e.trim o x) = e.codec.parse o
  blind : Blind e.codec.parse
  plain : e.lists = false → ∀ o x, e.trim o x = x
''']
    for nm, body in parts:
        ip = nm.replace('catalog', 'inPlace')
        ts = re.findall(r'\.(\w+)', body)
        for T in ts:
            a = ARG.get(T, '')
            into = f'Dis.{T}.parseInto{a}'
            tr = f'Dis.{T}.trim' if T in lists else 'fun _ x => x'
            where = re.search(r'^/-- Catalogue entry of `%s` \((.*?)\)' % T, cat, re.M).group(1)
            s += [f'/-- Entry of `{T}` ({where}). -/', f'def InPlace.{T} : InPlace where', f'  codec := .{T}', f'  into := {into}',
                  f'  Since := Dis.{T}.Since', f'  lists := {"true" if T in lists else "false"}', f'  trim := {tr}', '']
            p += [f'theorem InPlace.{T}.lawful : InPlace.{T}.Lawful where', f'  agrees := Dis.{T}.into{a}', f'  refl := Dis.{T}.Since.refl',
                  f'  trans := fun o x y => @Dis.{T}.Since.trans o x y', f'  since := Dis.{T}.since{a}', f'  again := fun o x => @Dis.{T}.again{a} o x',
                  f'  blind := Dis.{T}.blind{a}', '  plain := ' + ('fun h => nomatch h' if T in lists else 'fun _ _ _ => rfl'), '']
        s += [f'/-- The classes of `{nm}`, in the same order (/repo/opendis). -/', f'def {ip} : List InPlace :=',
              '  [' + ',\n   '.join('.' + T for T in ts) + ']', '']
        p += [f'theorem {ip}_lawful : ∀ e ∈ {ip}, e.Lawful := by', '  intro e he',
              f'  simp only [{ip}, List.mem_cons, List.not_mem_nil, or_false] at he',
              '  rcases he with ' + ' | '.join(['rfl'] * len(ts))] + [f'  · exact InPlace.{T}.lawful' for T in ts] + ['']
        p += [f'theorem {ip}_codecs : {ip}.map (·.codec) = {nm} := rfl', '']
    s += ['/-- All classes of `catalog`, in the same order (/repo/opendis). -/', 'def inPlace : List InPlace :=',
          '  ' + ' ++\n  '.join(nm.replace('catalog', 'inPlace') for nm, _ in parts), '', 'end Dis', '']
    pat = 'h'
    for _ in parts[1:]:
        pat = f'({pat} | h)'
    p += ['theorem inPlace_lawful : ∀ e ∈ inPlace, e.Lawful := by', '  intro e he', '  simp only [inPlace, List.mem_append] at he',
          f'  rcases he with {pat}'] + [f'  · exact {nm.replace("catalog", "inPlace")}_lawful e h' for nm, _ in parts]
    p += ['', 'theorem inPlace_codecs : inPlace.map (·.codec) = catalog := by', '  simp only [inPlace, catalog, List.map_append, ' + ', '.join(nm.replace("catalog", "inPlace") + '_codecs' for nm, _ in parts) + ']', '', 'end Dis', '']
    write('Spec/InPlaceCatalog.lean', '\n'.join(s))
    write('Proof/InPlaceCatalog.lean', '\n'.join(p))


def main():
    recs, pdus = gen.order()
    names = [n for n in recs + pdus if classes[n].par is not None]
    print('no parse:', [n for n in recs + pdus if classes[n].par is None])
    cl = [translate(classes[n]) for n in names]
    spec = HEAD.format(imp='import Verif.Model.Pdus5\n', title='What a parse leaves alone', more='')
    spec += '\n'.join(gen_spec(c, components(classes[c.name], c)) for c in cl) + '\nend Dis\n'
    write('Spec/InPlace.lean', spec)
    CH = 50
    prev = 'import Verif.Model.Pdus5\nimport Verif.Py.InPlace\n'
    prevp = 'import Verif.Proof.InPlace\nimport Verif.Spec.InPlace\n'
    for i in range(0, len(cl), CH):
        j = i // CH + 1
        part = cl[i:i + CH]
        write(f'Model/InPlace{j}.lean', HEAD.format(imp=prev, title=f'Parse methods as programs that change their object, part {j}',
              more=' from the Python source; each definition cites the lines it transliterates') +
              '\n'.join(gen_model(c) for c in part) + '\nend Dis\n')
        prev = f'import Verif.Model.InPlace{j}\n'
        write(f'Proof/InPlace{j}.lean', HEAD.format(imp=f'import Verif.Model.InPlace{j}\n' + prevp, title=f'Parses in place, part {j}', more='') +
              '\n'.join(gen_proof(c) for c in part) + '\nend Dis\n')
        prevp = f'import Verif.Proof.InPlace{j}\n'
    hs = list(hands())
    j += 1
    write('Spec/InPlaceSpecial.lean', HEAD.format(imp='import Verif.Spec.InPlace\nimport Verif.Model.Special\n',
          title='What a parse leaves alone: classes modelled by hand', more='') +
          '\n'.join(gen_spec(c, cs) for c, cs in hs) + '\nend Dis\n')
    txt = '\n'.join(gen_model(c) for c, cs in hs)
    here = os.path.dirname(os.path.abspath(__file__))
    am, ap = open(f'{here}/hand/inplace_antenna.lean.txt').read().split('-----\n')
    txt = txt.replace('/-- `TransmitterPdu.parse`', am + '\n/-- `TransmitterPdu.parse`')
    write(f'Model/InPlaceSpecial.lean', HEAD.format(imp=prev + 'import Verif.Model.Special\n',
          title='Parse methods as programs that change their object: classes modelled by hand', more='; each definition cites the lines it transliterates') +
          txt + '\nend Dis\n')
    txt = '\n'.join(gen_proof(c) for c, cs in hs).replace('theorem TransmitterPdu.Since.refl', ap + '\ntheorem TransmitterPdu.Since.refl')
    write(f'Proof/InPlaceSpecial.lean', HEAD.format(imp=prevp + 'import Verif.Model.InPlaceSpecial\nimport Verif.Spec.InPlaceSpecial\n',
          title='Parses in place: classes modelled by hand', more='') + txt + '\nend Dis\n')
    catalog()
    print(len(cl), len(lists))


if __name__ == '__main__':
    main()
