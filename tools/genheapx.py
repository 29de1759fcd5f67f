"""The part of genheap.py for the classes modelled by hand (records of opendis/record and the PDUs with
standard variable records): Model/HeapSpecial.lean, Model/InPlaceRecords.lean, Spec/HeapFieldsSpecial.lean,
Proof/InPlaceRecords.lean, Proof/HeapSpecial.lean. Called from genheap.py.
"""
import ast
import os
import re
from gen import FLOATBITS

RADIO = 'opendis/record/radio/__init__.py'
WAR = 'opendis/record/warfare/__init__.py'
ENUMS = 'opendis/record/warfare/enums.py'
DIS = 'opendis/dis7.py'
INIT = 'opendis/record/__init__.py'
LEAN = ['Radio', 'Warfare', 'Special']
ORDER = [('NetId', RADIO), ('SpreadSpectrum', RADIO), ('ModulationType', RADIO), ('BeamAntennaPattern', RADIO),
         ('BasicHaveQuickMP', RADIO), ('CCTTSincgarsMP', RADIO), ('HighFidelityHAVEQUICKRadio', RADIO), ('DEFireFlags', ENUMS),
         ('DirectedEnergyTargetEnergyDeposition', WAR), ('DirectedEnergyDamage', WAR), ('DirectedEnergyAreaAimpoint', WAR),
         ('DirectedEnergyPrecisionAimpoint', WAR), ('UnknownStandardVariableRecord', INIT), ('DirectedEnergyFirePdu', DIS),
         ('EntityDamageStatusPdu', DIS), ('UnknownRadio', RADIO), ('UnknownAntennaPattern', RADIO), ('TransmitterPdu', DIS),
         ('IntercomControlPdu', DIS)]
SV = ['HighFidelityHAVEQUICKRadio', 'DirectedEnergyPrecisionAimpoint', 'DirectedEnergyAreaAimpoint', 'DirectedEnergyDamage',
      'UnknownStandardVariableRecord']
TAGGED = SV + ['BeamAntennaPattern', 'BasicHaveQuickMP', 'CCTTSincgarsMP', 'UnknownRadio', 'UnknownAntennaPattern']
INTO = SV + ['UnknownRadio', 'UnknownAntennaPattern']
UNKNOWN = ['UnknownRadio', 'UnknownAntennaPattern']
CATALOGUE = [n for n, _ in ORDER if n not in INTO + ['TransmitterPdu', 'IntercomControlPdu']]
ALONE = [('TransmitterPdu', '/repo/opendis/dis7.py:4943-5116'), ('IntercomControlPdu', '/repo/opendis/dis7.py:6873-6954')]
MPR = [('unknown', 'UnknownRadio'), ('generic', 'GenericRadio'), ('simpleIntercom', 'SimpleIntercomRadio'), ('haveQuick', 'BasicHaveQuickMP'),
       ('sincgars', 'CCTTSincgarsMP')]
APR = [('unknown', 'UnknownAntennaPattern'), ('beam', 'BeamAntennaPattern')]
FLOATM = {'float32', 'float64', 'float', 'double'}
u = ast.unparse
src = {}


def cls(n, path):
    if path not in src:
        src[path] = ast.parse(open('/repo/' + path).read())
    return next(x for x in ast.walk(src[path]) if isinstance(x, ast.ClassDef) and x.name == n)


def meth(n, m):
    return next(x for x in cls(n, dict(ORDER)[n]).body if isinstance(x, ast.FunctionDef) and x.name == m)


def cite(n, m=None):
    x = meth(n, m) if m else cls(n, dict(ORDER)[n])
    return f'/repo/{dict(ORDER)[n]}:{x.lineno}-{x.end_lineno}'


def stmts(n, m):
    return [s for s in meth(n, m).body if not (isinstance(s, ast.Expr) and isinstance(s.value, ast.Constant))]


def lean_fields(L, n):
    for f in LEAN:
        m = re.search(r'^structure %s (?:extends (\w+) )?where\n((?:  .*\n)*)' % n, open(f'{L}/Model/{f}.lean').read(), re.M)
        if m:
            out = []
            for line in m.group(2).splitlines():
                x = re.match(r'  (\w+) : ([\w ]+?)(?: := (.*))?$', line)
                if x:
                    out.append((x.group(1), x.group(2)))
            return m.group(1), out
    raise Exception(n)


def sc(t, d):
    if t == 'F64':
        return f'.sc (.float {FLOATBITS(d)})'
    if t == 'Bool':
        return f'.sc (.bool {d.lower()})'
    if d in ('False', 'None'):
        d = {'False': '0'}.get(d, d)
    if d == 'None':
        return '.sc .none'
    if d == "b''":
        return '.sc (.bytes [])'
    return f'.sc (.int {d})'


def generate(L, H, HEAD, write):
    """H: the module genheap"""
    F = {}
    for n, p in ORDER:
        F[n] = lean_fields(L, n)
    known = {n for n, _ in ORDER}

    def enc(f, t):
        x = f'o.{f}'
        if t == 'Int':
            return f'.sc (.int {x})'
        if t == 'F64':
            return f'.sc (.float {x})'
        if t == 'Bool':
            return f'.sc (.bool {x})'
        if t == 'Bytes':
            return f'.sc (.bytes {x})'
        if t == 'Option F64':
            return f'.optFloat {x}'
        if t.startswith('Option '):
            return f'.noneOr {t[7:]}.members {x}'
        if t == 'IntercomParametersValue':
            return f'IntercomParametersValue.tree {x}'
        if t.startswith('List '):
            return f'.objs {t[5:]}.members {x}'
        return f'.obj ({t}.members {x})'

    tag = lambda n: [(f'"__class__"', f'.cls "{n}"')] if n in TAGGED else []
    parents = {n: F[n][0] for n in F}

    def simpf(n):
        q = [n]
        if parents[n]:
            q += [parents[n]] + H.chain(parents[n])
        return ', '.join(f'{x}.members' for x in q)

    spec, model, into, intop, proof = [], [], [], [], []
    spec.append('''/-- A float in an attribute that may be absent (/repo/opendis/dis7.py:6365, :6385). -/
def Tree.optFloat : Option F64 → Tree
  | none => .sc .absent
  | some v => .sc (.float v)

/-- An object in an attribute that may be `None` (/repo/opendis/dis7.py:4990-4991). -/
def Tree.noneOr {α : Type} (fs : α → List (String × Tree)) : Option α → Tree
  | none => .sc .none
  | some v => .obj (fs v)
''')
    SVM = ['/-- The attributes of a standard variable record by name, with its class (/repo/opendis/dis7.py:49-68). -/',
           'def SVRecord.members : SVRecord → List (String × Tree)']
    for c in SV:
        k = 'unknown' if c.startswith('Unknown') else c[0].lower() + c[1:]
        SVM.append(f'  | .{k} r => {c}.members r')
    svdone = False
    for n, path in ORDER:
        par, fs = F[n]
        if n == 'DirectedEnergyFirePdu':
            spec += SVM + ['']
        if n == 'TransmitterPdu':
            spec += ['/-- The attributes of modulation parameters by name, with their class',
                     '(/repo/opendis/record/radio/__init__.py:58-77, :313-449). -/',
                     'def ModulationParametersRecord.members : ModulationParametersRecord → List (String × Tree)']
            for k, c in MPR:
                spec.append(f'  | .{k} => [("__class__", .sc (.cls "{c}"))]' if c.startswith(('Gen', 'Sim')) else f'  | .{k} r => {c}.members r')
            spec += ['', '/-- The attributes of an antenna pattern by name, with its class',
                     '(/repo/opendis/record/radio/__init__.py:80-164). -/',
                     'def AntennaPatternRecord.members : AntennaPatternRecord → List (String × Tree)']
            for k, c in APR:
                spec.append(f'  | .{k} r => {c}.members r')
            spec.append('')
        if n == 'IntercomControlPdu':
            spec.append('''/-- The values of `intercomParameters` (/repo/opendis/dis7.py:6894, :6936). -/
def IntercomParametersValue.tree : IntercomParametersValue → Tree
  | .none => .sc .none
  | .record r => .obj (IntercomCommunicationsParameters.members r)
  | .records l => .objs IntercomCommunicationsParameters.members l
''')
        ft = dict(fs)
        # members
        items = [f'("__class__", .sc (.cls "{n}"))'] if n in TAGGED else []
        items += [f'("{f}", {enc(f, t)})' for f, t in fs]
        spec += [f'/-- The attributes of a `{n}` object by name ({cite(n)}). -/', f'def {n}.members (o : {n}) : List (String × Tree) :=']
        if par:
            spec.append(f'  {par}.members o.to{par} ++')
        spec += H.wrapl(items, '    [' if par else '  [', '     ' if par else '   ', ']') + ['']
        # constructor
        if n == 'TransmitterPdu':
            hm, hp = open(os.path.join(os.path.dirname(os.path.abspath(__file__)), 'hand/heap_transmitter.lean.txt')).read().split('-----\n')
            model.append(hm)
            proof.append(hp.split('@@@\n')[0])
        init = meth(n, '__init__')
        ps = [a.arg for a in init.args.args[1:]]
        ds = dict(zip(ps, [u(d) for d in init.args.defaults]))
        st, pt = [], {}
        for s in stmts(n, '__init__'):
            if isinstance(s, ast.Expr):
                st.append((f'{par}.initHeap self', 'super', None))
                continue
            t = s.target if isinstance(s, ast.AnnAssign) else s.targets[0]
            f, v = t.attr, s.value
            if isinstance(v, ast.Name):
                pt[v.id] = sc(ft[f], ds[v.id])
                st.append((f'H.setAttr self "{f}" {v.id}', 'set', None))
            elif isinstance(v, ast.BoolOp):
                x, e = u(v.values[0]), v.values[1]
                pt[x] = '.sc .none'
                if isinstance(e, ast.Call):
                    T = u(e.func)
                    st.append((f'H.setOr self "{f}" {x} {T}.newHeap', 'or', f'{T}.makesNew'))
                else:
                    st.append((f'H.setOr self "{f}" {x} (H.alloc (.list []))', 'or', '.empty'))
            elif isinstance(v, ast.IfExp):
                x = u(v.test)
                pt[x] = '.sc .none'
                st.append((f'H.setNew self "{f}" (H.listOrNew {x})', 'new', '.listOrNew'))
            else:
                st.append((f'H.setAttr self "{f}" ({sc(ft[f], u(v))})', 'set', None))
        rec = n == 'UnknownStandardVariableRecord'
        tmpl = []     # groups
        if par:
            for q, g in H.template(par):
                tmpl.append((q, [(f, ('.int ' + u(next(s.value for s in cls(n, path).body if isinstance(s, ast.AnnAssign) and s.target.id == 'pduType')))
                                  if f == 'pduType' else v) for f, v in g]))
        tmpl.append((n, ([('__class__', f'.cls "{n}"')] if n in TAGGED else []) +
                     [(f, '.int recordType' if rec and f == 'recordType' else '.absent') for f, t in fs]))
        arg = ' (recordType : Int)' if rec else ''
        a1 = ' recordType' if rec else ''
        model += [f'/-- Attributes of a `{n}` object before `__init__` ({cite(n)}){"; the class is made for one value of `recordType`" if rec else ""}. -/',
                  f'def {n}.attrs{arg} : List (String × Scalar) :='] + H.wrapl([f'("{f}", {v})' for q, g in tmpl for f, v in g], '  [', '   ', ']') + ['']

        def sig(head, tail):
            out, line = [], head
            for a in ps:
                piece = f' ({a} : Val := {pt[a]})'
                if len(line) + len(piece) > 96:
                    out.append(line)
                    line = '   '
                line += piece
            if len(line) + len(tail) > 98:
                out.append(line)
                line = '   '
            return out + [line + tail]
        note = '; `weaponOn` is the integer 0 instead of `False`' if n == 'DEFireFlags' else ''
        model += [f'/-- `{n}.__init__`, {cite(n, "__init__")}, statement by statement{note}. -/'] + sig(f'def {n}.initHeap (self : Ref)', ' : H Unit := do')
        model += ['  ' + s[0] for s in st] + ['']
        model += [f'/-- `{n}(...)`, {cite(n, "__init__")}. -/'] + sig(f'def {n}.newHeap{arg}', ' : H Ref :=')
        model += [f'  H.new {n}.attrs{a1 and " recordType" if False else ""} fun self => {n}.initHeap self'.replace(f'{n}.attrs', f'({n}.attrs recordType)' if rec else f'{n}.attrs')
                  + ''.join(' ' + a for a in ps), '']
        sf = simpf(n)
        # constructor proof
        pdu = par is not None
        txt = 'ex'
        for q, g in reversed(tmpl):
            g = [(f, '(.int p)' if f == 'pduType' and q == 'PduSuperclass' else '(.int pf)' if f == 'protocolFamily' and q == 'PduSuperclass'
                  else (v if v == '.absent' else f'({v})')) for f, v in g]
            txt = f'{H.lit(g)} ++\n      ({txt})' if txt != 'ex' else f'{H.lit(g)} ++ ex'
        val = f'({n}.members {{ pduType := p, protocolFamily := pf }} ++ ex)' if pdu else f'({n}.members {{ recordType }} ++ ex)' if rec else f'({n}.members {{}} ++ ex)'
        pp = '(p pf : Int) ' if pdu else '(recordType : Int) ' if rec else ''
        proof += [f'theorem {n}.inits {pp}(ex : List (String × Tree)) : Inits (fun self => {n}.initHeap self)', f'      ({txt})', f'      {val} := by',
                  f'  unfold {n}.initHeap']
        for i, (s, kind, mk) in enumerate(st):
            if kind == 'super':
                t = f'{par}.inits p pf _'
            else:
                r = {'set': '.set\'', 'or': f'.setOr\' {mk}', 'new': f'.setNew\' {mk}'}[kind]
                t = f'{r} (by simp [attrOf_putAttr_isSome, attrOf, {sf}])'
            if i < len(st) - 1:
                proof.append(f'  refine .bind ({t}) ?_')
            else:
                proof.append(f'  exact .cast ({t})\n    (by simp [putAttr, {sf}, Tree.ints, Tree.objs, Tree.optInt, Tree.optObj, Tree.intOr, Tree.optFloat{", Tree.noneOr, IntercomParametersValue.tree" if n in ("TransmitterPdu", "IntercomControlPdu") else ""}])')
        proof.append('')
        if pdu:
            pn = u(next(s.value for s in cls(n, path).body if isinstance(s, ast.AnnAssign) and s.target.id == 'pduType'))
            fam = H.class_attr(par, 'protocolFamily')
            proof += [f'theorem {n}.makesNew : MakesNew {n}.newHeap (.obj ({n}.members {n}.init)) :=', f'  .new (.cast ({n}.inits {pn} {fam} []) (List.append_nil _))', '']
        elif rec:
            proof += [f'theorem {n}.makesNew (recordType : Int) : MakesNew ({n}.newHeap recordType) (.obj ({n}.members {{ recordType }})) :=',
                      f'  .new (.cast ({n}.inits recordType []) (List.append_nil _))', '']
        else:
            proof += [f'theorem {n}.makesNew : MakesNew {n}.newHeap (.obj ({n}.members {"{}" if n in UNKNOWN else n + ".init"})) :=', f'  .new (.cast ({n}.inits []) (List.append_nil _))', '']
        # parse
        pa = meth(n, 'parse')
        bl = len(pa.args.args) > 2
        opt = bl and bool(pa.args.defaults)
        blt = (' (bytelength : Option Int)' if opt else ' (bytelength : Int)') if bl else ''
        bla = ' bytelength' if bl else ''
        steps = []      # (heap stmt, refines, P stmt, run lemma)
        RD = 'refine .bind .read fun _ => ?_'
        ST = f"refine .bind (.set' (fun o => by simp [{sf}, attrOf]) (fun o => by simp [{sf}, putAttr, Tree.optFloat])) fun _ => ?_"
        two = f'(fun o => by simp [{sf}, attrOf]) (fun o v => by simp [{sf}, putAttr, Tree.optFloat])'
        structs = {}
        if n in ('NetId', 'SpreadSpectrum', 'DEFireFlags'):
            fl = next(s.value for s in cls(n, path).body if isinstance(s, ast.Assign)).keywords[1].value.elts
            structs = {e.elts[0].value: i for i, e in enumerate(fl)}
        lemmas = []
        for s in stmts(n, 'parse'):
            t = u(s)
            if t.startswith('super('):
                if pdu:
                    steps.append((f'{par}.parseHeap self', f'refine .bind (.super {par}.refines (fun _ => rfl) (fun _ _ => rfl)) fun _ => ?_', None))
                elif bl:
                    b = 'StandardVariableRecord' if n in SV else 'VariableRecord'
                    if n == 'UnknownAntennaPattern':
                        steps.append(('H.read (VariableRecord.parse (some bytelength))', RD, 'P.read (VariableRecord.parse (some bytelength))'))
                        continue
                    steps.append((f'H.read ({b}.parse bytelength)', RD, f'P.read ({b}.parse bytelength)'))
                continue
            m = re.match(r'^self\.(\w+)\.parse\(inputStream\)$', t)
            if m:
                T = ft[m.group(1)]
                steps.append((f'H.call self "{m.group(1)}" {T}.parseHeap', f"refine .bind (.call' {T}.refines {two}) fun _ => ?_",
                              f'P.call ⟨(·.{m.group(1)}), fun o v => {{ o with {m.group(1)} := v }}⟩ {T}.parseInto'))
                lemmas.append(f'{T}.into')
                continue
            if t == 'record_bitfield = self._struct.parse(inputStream)':
                steps.append((f'let record_bitfield ← H.read (Bitfield.parse {n}.struct)', RD, None))
                continue
            m = re.match(r'^self\.(\w+) = (bool\()?record_bitfield\.(\w+)\)?$', t)
            if m:
                e = f'record_bitfield.getD {structs[m.group(3)]} 0'
                v = f'.bool ({e} ≠ 0)' if m.group(2) else f'.int ({e})'
                steps.append((f'H.setAttr self "{m.group(1)}" (.sc ({v}))', ST, None))
                continue
            m = re.match(r'^(self\.)?(\w+) = inputStream\.read_(\w+)\((.*)\)$', t)
            if m:
                f, r, a = m.group(2), m.group(3), m.group(4)
                rd = f'read_{r}' + (f' ({a})' if a else '')
                rd2 = f'({rd})' if a else rd
                steps.append((f'let {f} ← H.read {rd2}', RD, f'let {f} ← P.read {rd2}'))
                if m.group(1):
                    k = 'float' if r in FLOATM else 'bytes' if r == 'bytes' else 'int'
                    steps.append((f'H.setAttr self "{f}" (.sc (.{k} {f}))', ST, f'P.set fun o => {{ o with {f} := {f} }}'))
                continue
            if t == 'assert isinstance(bytelength, int)':
                steps.append(('let bytelength ← H.read (assertInt bytelength)', RD, 'let bytelength ← P.read (assertInt bytelength)'))
                lemmas.append('assertInt')
                continue
            if isinstance(s, ast.If) and 'modulationParametersLength' in u(s.test):
                steps.append(('TransmitterPdu.parseModulationParametersHeap modulationParametersLength self',
                              'refine TransmitterPdu.modulationThen ?_', None))
                continue
            if isinstance(s, ast.If) and 'antennaPatternLength' in u(s.test):
                steps.append(('TransmitterPdu.parseAntennaPatternHeap antennaPatternLength self',
                              'refine TransmitterPdu.antennaThen ?_', None))
                continue
            if t == 'self.intercomParameters = IntercomCommunicationsParameters.parse(inputStream)':
                steps.append(('H.throw .typeError', 'exact .raise', None))
                continue
            if isinstance(s, ast.For):
                c = u(s.iter.args[1])
                f = s.body[-1].value.func.value.attr
                v = s.body[0].value
                T = u(v.func)
                if T == 'parseStandardVariableRecord':
                    b = '.variableTransmitterParameters' if n == 'TransmitterPdu' else '.damageDescription'
                    steps.append((f'H.appendLoads {c}.toNat (parseStandardVariableRecordHeap {b}) self "{f}"',
                                  f'refine .bind (.loads (parseStandardVariableRecord_loads _) {two}) fun _ => ?_', None))
                else:
                    b = ' (some 40)' if T == 'BeamAntennaPattern' else ''
                    w = lambda x: f'({x}{b})' if b else x
                    steps.append((f'H.appendObjs {c}.toNat {T}.newHeap {w(T + ".parseHeap")} self "{f}"',
                                  f'refine .bind (.objs {T}.makesNew {w(T + ".refines")} {two}) fun _ => ?_',
                                  f'P.appendObjs {c}.toNat {T}.init {w(T + ".parseInto")} ⟨(·.{f}), fun o v => {{ o with {f} := v }}⟩'))
                    lemmas.append(f'P.run_appendObjs (a := ⟨fun o : {n} => o.{f}, fun o v => {{ o with {f} := v }}⟩) ⟨fun _ _ => rfl, fun _ _ _ => rfl, fun _ => rfl⟩')
                    lemmas.append(f'{T}.into')
                continue
            raise Exception((n, t))
        model += [f'/-- `{n}.parse`, {cite(n, "parse")}, statement by statement{"; the last one calls a method with too few arguments" if n == "IntercomControlPdu" else ""}. -/', f'def {n}.parseHeap{blt} (self : Ref) : H Unit := do']
        model += ['  ' + s[0] for s in steps] + (['  return ()', ''] if n != 'IntercomControlPdu' else [''])
        if n in INTO:
            into += [f'/-- `{n}.parse`, {cite(n, "parse")}, statement by statement. -/', f'def {n}.parseInto{blt} : P {n} Unit := do']
            into += ['  ' + s[2] for s in steps] + ['  return ()', '']
            ls = ', '.join(dict.fromkeys(lemmas))
            intop += [f'theorem {n}.into{blt} (o : {n}) :', f'    P.run ({n}.parseInto bytelength) o = {n}.parse o bytelength := by',
                      f'  unfold {n}.parseInto {n}.parse', f'  simp (maxSteps := 1000000) only [P.run_pure, P.run_read, P.run_set, P.run_call{", " if ls else ""}{ls}]'] + (['  cases bytelength <;> rfl', ''] if n == 'UnknownRadio' else [''])
        w = lambda x: f'({x}{bla})' if bla else x
        proof += [f'theorem {n}.refines{blt} : Refines {n}.members {w(n + ".parseInto")} {w(n + ".parseHeap")} := by',
                  f'  unfold {n}.parseInto {n}.parseHeap'] + ['  ' + s[1] for s in steps] + (['  exact .pure', ''] if n != 'IntercomControlPdu' else [''])
        # sizes
        if n in ('BeamAntennaPattern',):
            model += [f'/-- `{n}.marshalledSize`, {cite(n, "marshalledSize")}. -/', f'def {n}.marshalledSizeHeap (_self : Ref) : S Int := pure 40', '']
            proof += [f'theorem {n}.sizes : Sizes {n}.members {n}.marshalledSize {n}.marshalledSizeHeap := fun _ _ _ _ _ _ => rfl', '']
        if n == 'DirectedEnergyTargetEnergyDeposition':
            model += [f'/-- `{n}.marshalledSize`, {cite(n, "marshalledSize")}. -/', f'def {n}.marshalledSizeHeap (self : Ref) : S Int := do',
                      '  return (← EntityIdentifier.marshalledSizeHeap (← S.obj self "targetEntityID")) + 6', '']
            proof += [f'theorem {n}.sizes : Sizes {n}.members {n}.marshalledSize {n}.marshalledSizeHeap :=',
                      f'  .objAdd EntityIdentifier.sizes (fun o => by simp [{n}.members, attrOf]) 6', '']
        if n == 'DirectedEnergyAreaAimpoint':
            model += [f'/-- `{n}.marshalledSize`, {cite(n, "marshalledSize")}. -/', f'def {n}.marshalledSizeHeap (self : Ref) : S Int := do',
                      '  let size := 8', '  let size ← S.sizes size (← S.list self "beamAntennaPatterns") BeamAntennaPattern.marshalledSizeHeap',
                      '  S.sizes size (← S.list self "directedEnergyTargetEnergyDepositions")',
                      '    DirectedEnergyTargetEnergyDeposition.marshalledSizeHeap', '']
            proof += [f'theorem {n}.sizes : Sizes {n}.members {n}.marshalledSize {n}.marshalledSizeHeap :=',
                      f'  .twoLists (ts := BeamAntennaPattern.members) (ts\' := DirectedEnergyTargetEnergyDeposition.members)',
                      f'    BeamAntennaPattern.sizes DirectedEnergyTargetEnergyDeposition.sizes 8 (fun o => by simp [{n}.members, attrOf]) (fun o => by simp [{n}.members, attrOf])', '']
        if rec:
            model += [f'/-- `{n}.marshalledSize`, {cite(n, "marshalledSize")}. -/', f'def {n}.marshalledSizeHeap (self : Ref) : S Int := do',
                      '  return 6 + ((← S.bytes self "data").length : Int)', '']
            proof += [f'theorem {n}.sizes : Sizes {n}.members {n}.marshalledSize {n}.marshalledSizeHeap :=',
                      f'  .bytes (fun o => by simp [{n}.members, attrOf]) 6', '']
        if n in UNKNOWN:
            model += [f'/-- `{n}.marshalledSize`, {cite(n, "marshalledSize")}. -/', f'def {n}.marshalledSizeHeap (self : Ref) : S Int := do',
                      '  return ((← S.bytes self "data").length : Int)', '']
            proof += [f'theorem {n}.sizes : Sizes {n}.members {n}.marshalledSize {n}.marshalledSizeHeap :=',
                      f'  .bytes0 (fun o => by simp [{n}.members, attrOf])', '']
        if n == 'TransmitterPdu':
            for m_, f_, T_ in [('antennaPatternLength', 'antennaPattern', 'AntennaPatternRecord'),
                               ('modulationParametersLength', 'modulationParameters', 'ModulationParametersRecord')]:
                model += [f'/-- `{n}.{m_}`, {cite(n, m_)}. -/', f'def {n}.{m_}Heap (self : Ref) : S Int :=',
                          f'  S.sizeOrZero self "{f_}" {T_}.marshalledSizeHeap', '']
                proof += [f'theorem {n}.{m_}_sizes : Sizes {n}.members {n}.{m_} {n}.{m_}Heap :=',
                          f'  Sizes.noneOr (fs := {n}.members) (n := "{f_}") (g := (·.{f_})) {T_}.sizes (fun o => by simp [{sf}, attrOf])',
                          f'    fun o => by unfold {n}.{m_}; cases o.{f_} <;> rfl', '']
        # serialize
        at = f'(fun o => by simp [{sf}, attrOf])'
        ss = []
        dyn = rec or n == 'DirectedEnergyAreaAimpoint'
        size = {'HighFidelityHAVEQUICKRadio': '40', 'DirectedEnergyDamage': '40', 'DirectedEnergyPrecisionAimpoint': '96'}.get(n)

        def length(m):
            if dyn:
                return (f'S.putSize self {n}.marshalledSizeHeap write_{m}', f'.size {n}.sizes')
            return (f'S.write (write_{m} {size})', '.write')

        def rtype(m):
            if rec:
                return (f'S.putInt self "recordType" write_{m}', f'.putInt {at}')
            return (f'S.write (write_{m} {n}.recordType)', '.write')
        svser = None
        for s in stmts(n, 'serialize'):
            t = u(s)
            if t.startswith('super('):
                if pdu:
                    ss.append((f'{par}.serializeHeap self', f'.super {par}.shows (fun _ => rfl)'))
                elif n in SV:
                    svser = [rtype('uint32'), length('uint32')]
                    ss.append(('(do ' + svser[0][0] + '\n      ' + svser[1][0] + ')', f'.bind ({svser[0][1]}) ({svser[1][1]})'))
                continue
            m = re.match(r'^self\.(\w+)\.serialize\(outputStream\)$', t)
            if m:
                T = ft[m.group(1)]
                ss.append((f'S.call self "{m.group(1)}" {T}.serializeHeap', f'.call {T}.shows {at}'))
                continue
            m = re.match(r'^outputStream\.write_(\w+)\(self\.(\w+)\)$', t)
            if m:
                w_, f = m.groups()
                if f in ('antennaPatternLength', 'modulationParametersLength'):
                    ss.append((f'S.putSize self {n}.{f}Heap write_{w_}', f'.size {n}.{f}_sizes'))
                elif f == 'intercomParametersLength':
                    ss.append((f'S.putLen self "intercomParameters" write_{w_}', f'.intercomLen {at}'))
                elif f == 'recordLength':
                    ss.append(length(w_))
                elif f == 'recordType':
                    ss.append(rtype(w_))
                elif f in ft and ft[f] == 'Option F64':
                    ss.append((f'S.putFloat self "{f}" write_{w_}', f'.optFloat {at}'))
                elif f in ft and ft[f] == 'Bytes':
                    ss.append((f'S.putBytes self "{f}" write_{w_}', f'.putBytes {at}'))
                elif f in ft:
                    k = 'Float' if w_ in FLOATM else 'Int'
                    ss.append((f'S.put{k} self "{f}" write_{w_}', f'.put{k} {at}'))
                else:
                    l = meth(n, f).body[0].value.args[0].attr
                    T = ft[l][5:]
                    ss.append((f'S.putLen self "{l}" write_{w_}', f'.lenObjs (ts := {T}.members) {at}'))
                continue
            if t.startswith('self._struct('):
                names = [re.sub(r'^int\((.*)\)$', r'\1', u(a))[5:] for a in s.value.func.value.args]
                ss.append((f'S.putInts self [{", ".join(chr(34) + x + chr(34) for x in names)}] (Bitfield.serialize {n}.struct)',
                           f'.putInts fun o => by simp [IntAttrs, {sf}, attrOf]'))
                continue
            if isinstance(s, ast.If):
                f = s.test.attr
                T = ft[f][7:]
                ss.append((f'S.whenTrue self "{f}" {T}.serializeHeap', f'.noneOr {T}.shows {at}'))
                continue
            if isinstance(s, ast.For):
                f = s.iter.attr
                if f == 'intercomParameters':
                    ss.append((f'S.each self "{f}" IntercomCommunicationsParameters.serializeHeap', f'.intercomEach IntercomCommunicationsParameters.shows {at}'))
                    continue
                T = ft[f][5:]
                ss.append((f'S.each self "{f}" {T}.serializeHeap', f'.eachObj {T}.shows {at}'))
                continue
            raise Exception((n, t))
        model += [f'/-- `{n}.serialize`, {cite(n, "serialize")}, statement by statement{"; `super().serialize`: /repo/opendis/record/base.py:83-88" if n in SV else ""}. -/',
                  f'def {n}.serializeHeap (self : Ref) : S Unit := do'] + ['  ' + s[0] for s in ss] + ['']
        proof += [f'theorem {n}.shows : Shows {n}.members {n}.serialize {n}.serializeHeap := by', f'  unfold {n}.serialize {n}.serializeHeap']
        if svser:
            proof.append('  unfold StandardVariableRecord.serialize')
        proof += [f'  refine .bind ({s[1]}) ?_' for s in ss[:-1]] + [f'  exact {ss[-1][1]}', '']
        if rec:      # everything about the union of the records
            model.append('''/-- `svClass()` then `parse(inputStream, bytelength)`, /repo/opendis/dis7.py:66-67, for the class that was
found. -/
def SVClass.parseHeap (c : SVClass) (bytelength : Int) : H Ref :=
  match c with''')
            for c in SV:
                k = 'unknown t' if c.startswith('Unknown') else c[0].lower() + c[1:]
                a = '(' + c + '.newHeap t)' if c.startswith('Unknown') else c + '.newHeap'
                model.append(f'  | .{k} => H.load {a} ({c}.parseHeap bytelength)')
            model.append('''
/-- `parseStandardVariableRecord`, /repo/opendis/dis7.py:49-68. -/
def parseStandardVariableRecordHeap (expectedType : SVBase) : H Ref := do
  let recordType ← H.read read_uint32
  let recordLength ← H.read read_uint16
  let svClass ← H.read (R.ofExcept (getStandardVariableClass recordType expectedType))
  SVClass.parseHeap svClass recordLength

/-- `record.serialize(outputStream)` for a standard variable record, by its class, /repo/opendis/dis7.py:6379,
:6664. -/
def SVRecord.serializeHeap (self : Ref) : S Unit := do
  S.dispatch (← S.attr self "__class__")
    [''' + ',\n     '.join(f'("{c}", {c}.serializeHeap self)' for c in SV) + ']\n')
            proof.append('theorem SVClass.loads (c : SVClass) (n : Int) : Loads (SVClass.parseHeap c n) (SVClass.parse c n) SVRecord.members := by\n  cases c with')
            for c in SV:
                k = 'unknown t' if c.startswith('Unknown') else c[0].lower() + c[1:]
                x = ' t' if c.startswith('Unknown') else ''
                mk = f'({c}.makesNew t)' if x else f'{c}.makesNew'
                proof.append(f'  | {k} => exact .load {mk} ({c}.refines n) ({c}.into n _) fun _ => rfl')
            proof.append('''
theorem parseStandardVariableRecord_loads (b : SVBase) :
    Loads (parseStandardVariableRecordHeap b) (parseStandardVariableRecord b) SVRecord.members :=
  .read fun _ => .read fun _ => .read fun _ => SVClass.loads _ _

theorem SVRecord.shows : Shows SVRecord.members SVRecord.serialize SVRecord.serializeHeap := by
  intro ex self o h F A
  cases o with''')
            for c in SV:
                k = 'unknown' if c.startswith('Unknown') else c[0].lower() + c[1:]
                proof.append(f'  | {k} r => exact Shows.dispatched (fs := {c}.members) (o := r) {c}.shows (c := "{c}") A (by simp [{c}.members, attrOf]) (by simp [attrOf])')
            proof.append('')
    write('Spec/HeapFieldsSpecial.lean', HEAD.format(imp='import Verif.Model.Special\nimport Verif.Spec.HeapFields\n', title='The attributes of objects by name: records modelled by hand', more='') +
          '\n'.join(spec) + '\nend Dis\n')
    pre = '''/-- `SimulationAddress.marshalledSize`, /repo/opendis/record/common.py:130-131. -/
def SimulationAddress.marshalledSizeHeap (_self : Ref) : S Int := pure 4

/-- `EntityIdentifier.marshalledSize`, /repo/opendis/record/common.py:45-46. -/
def EntityIdentifier.marshalledSizeHeap (self : Ref) : S Int := do
  return (← SimulationAddress.marshalledSizeHeap (← S.obj self "simulationAddress")) + 2

'''
    prep = '''theorem SimulationAddress.sizes :
    Sizes SimulationAddress.members SimulationAddress.marshalledSize SimulationAddress.marshalledSizeHeap := fun _ _ _ _ _ _ => rfl

theorem EntityIdentifier.sizes :
    Sizes EntityIdentifier.members EntityIdentifier.marshalledSize EntityIdentifier.marshalledSizeHeap :=
  .objAdd SimulationAddress.sizes (fun o => by simp [EntityIdentifier.members, attrOf]) 2

'''
    more = ' from the Python source; each definition cites the lines it transliterates'
    write('Model/HeapSpecial.lean', HEAD.format(imp='import Verif.Model.Heap5\nimport Verif.Model.InPlaceRecords\n', title='Methods as programs on a memory of objects: records modelled by hand', more=more) +
          pre + '\n'.join(model) + '\nend Dis\n')
    into.insert(0, '''/-- `assert isinstance(bytelength, int)`, /repo/opendis/record/radio/__init__.py:76. -/
def assertInt (bytelength : Option Int) : R Int :=
  match bytelength with
  | none => R.throw .assertionError
  | some n => pure n
''')
    write('Model/InPlaceRecords.lean', HEAD.format(imp='import Verif.Model.InPlaceSpecial\n', title='Parse methods of the standard variable records as programs that change their object', more=more) +
          '\n'.join(into) + '\nend Dis\n')
    write('Proof/InPlaceRecords.lean', HEAD.format(imp='import Verif.Proof.InPlaceSpecial\nimport Verif.Model.InPlaceRecords\n', title='Parse methods of the standard variable records in place', more='') +
          '\n'.join(intop) + '\nend Dis\n')
    write('Proof/HeapSpecial.lean', HEAD.format(imp='import Verif.Proof.HeapClasses5\nimport Verif.Proof.HeapRecords\nimport Verif.Proof.InPlaceRecords\nimport Verif.Model.HeapSpecial\nimport Verif.Spec.HeapFieldsSpecial\n',
          title='Methods on a memory of objects: records modelled by hand', more='') + prep + '\n'.join(proof) + '\nend Dis\n')
