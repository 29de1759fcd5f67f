"""Generates lean/Verif/Model/Heap*.lean (constructors, parse and serialize as programs on a memory of
objects), lean/Verif/Spec/HeapFields*.lean and lean/Verif/Proof/Heap*.lean.

  python3 tools/genheap.py        (run in /verif)
"""
import ast
import os
import re
import sys
import gen
import genheapx
from gen import classes, parent, field_info, cite, FLOATBITS, USE
from geninplace import fields
from ir import u, FLOATM

L = os.path.join(os.path.dirname(os.path.abspath(__file__)), '../lean/Verif')
RAISE = {'LinearObjectStatePdu', 'AttributePdu'}     # constructors raise, see factory()
HEAD = '''{imp}
/-!
# {title}

Generated by `tools/genheap.py`{more}.
-/

set_option linter.unusedVariables false
set_option linter.unusedSimpArgs false

namespace Dis

'''


def chain(n):
    """ancestors, nearest first"""
    out = []
    p = parent(classes[n])
    while p:
        out.append(p)
        p = parent(classes[p])
    return out


def is_pdu(n):
    return n == 'PduSuperclass' or 'PduSuperclass' in chain(n)


def class_attr(n, a):
    for q in [n] + chain(n):
        if a in classes[q].attrs:
            return u(classes[q].attrs[a][0])
    return None


def enc(n, f, t):
    x = f'o.{f}'
    if t == 'Int':
        return f'.sc (.int {x})'
    if t == 'F64':
        return f'.sc (.float {x})'
    if t == 'List Int':
        return f'.ints {x}'
    if t.startswith('List '):
        return f'.objs {t[5:]}.members {x}'
    if t == 'Option Int':
        d = 'none' if USE.get((n, f), '').startswith('needInt') else 'absent'
        return f'.optInt .{d} {x}'
    if t.startswith('Option '):
        return f'.optObj {t[7:]}.members {x}'
    if t.startswith('IntOr '):
        return f'.intOr {t[6:]}.members {x}'
    assert t in classes, (n, f, t)
    return f'.obj ({t}.members {x})'


def wrapl(items, first, cont, end, w=100):
    out, line = [], first
    for i, it in enumerate(items):
        piece = it + (', ' if i < len(items) - 1 else end)
        if len(line) + len(piece.rstrip()) > w:
            out.append(line.rstrip())
            line = cont
        line += piece
    out.append(line)
    return out


def gen_fields(n):
    k = classes[n]
    p = parent(k)
    items = [f'("{f}", {enc(n, f, t)})' for f, t, d, ln in field_info(k)]
    un = '' if items or p else '_'
    o = [f'/-- The attributes of a `{n}` object by name ({k.path}:{k.line}-{k.end}). -/',
         f'def {n}.members ({un}o : {n}) : List (String × Tree) :=']
    pre = f'  {p}.members o.to{p} ++ [' if p else '  ['
    if p and len(items) > 2:
        o.append(f'  {p}.members o.to{p} ++')
        pre = '    ['
    o += wrapl(items, pre, '    ' + (' ' if p else ''), ']') if items else [pre + ']']
    return '\n'.join(o) + '\n'


def template(n):
    """[(attr, scalar)] of all attributes, outermost ancestor first, grouped by class"""
    out = []
    for q in reversed([n] + chain(n)):
        g = []
        for f, t, d, ln in field_info(classes[q]):
            v = '.absent'
            if q == 'PduSuperclass' and f in ('pduType', 'protocolFamily'):
                c = class_attr(n, f)
                v = f'.int {c}' if c is not None else '.absent'
            elif f in classes[q].attrs:
                v = f'.int {u(classes[q].attrs[f][0])}'
            g.append((f, v))
        out.append((q, g))
    return out


def sc(t, d):
    if d in (None, 'None'):
        return '.sc .none'
    if t == 'F64':
        return f'.sc (.float {FLOATBITS(d)})'
    return f'.sc (.int {d})' if not d.startswith('-') else f'.sc (.int ({d}))'


SUPER = '''/-- `PduSuperclass.__init__`, /repo/opendis/dis7.py:3431-3460, as called by the subclasses: without
arguments. -/
def PduSuperclass.initHeap (self : Ref) (protocolVersion : Val := .sc (.int 7)) (exerciseID : Val := .sc (.int 0))
    (pduType : Val := .sc .none) (protocolFamily : Val := .sc .none) (timestamp : Val := .sc (.int 0))
    (pduLength : Val := .sc (.int 0)) : H Unit := do
  H.setAttr self "protocolVersion" protocolVersion
  H.setAttr self "exerciseID" exerciseID
  let typed ← H.hasAttr self "pduType"
  if pduType = .sc .none ∧ typed = false then H.throw .valueError
  else if pduType ≠ .sc .none then H.setAttr self "pduType" pduType
  let typed ← H.hasAttr self "pduType"
  if protocolFamily = .sc .none ∧ typed = false then H.throw .valueError
  else if pduType ≠ .sc .none then H.setAttr self "protocolFamily" protocolFamily
  H.setAttr self "timestamp" timestamp
  H.setAttr self "length" pduLength
'''

SUPERP = '''theorem PduSuperclass.inits (p pf : Int) (ex : List (String × Tree)) :
    Inits (fun self => PduSuperclass.initHeap self)
      (([("protocolVersion", .sc .absent), ("exerciseID", .sc .absent), ("pduType", .sc (.int p)),
        ("protocolFamily", .sc (.int pf)), ("timestamp", .sc .absent), ("length", .sc .absent)] : List (String × Tree)) ++ ex)
      (PduSuperclass.members { pduType := p, protocolFamily := pf } ++ ex) := by
  unfold PduSuperclass.initHeap
  refine .bind (.set' (by simp [attrOf])) ?_
  refine .bind (.set' (by simp [attrOf, putAttr])) ?_
  refine .hasAttr (x := p) (by simp [attrOf, putAttr]) ?_
  simp only [Bool.true_eq_false, and_false, if_false, ne_eq, not_true_eq_false]
  refine .hasAttr (x := p) (by simp [attrOf, putAttr]) ?_
  simp only [Bool.true_eq_false, and_false, if_false, ne_eq, not_true_eq_false]
  refine .bind (.set' (by simp [attrOf, putAttr])) ?_
  exact .cast (.set' (by simp [attrOf, putAttr])) (by simp [putAttr, PduSuperclass.members])
'''


def init_steps(n):
    """[(lean statement, proof kind, makes)], params"""
    k = classes[n]
    allf = fields(k)
    pname = {p[0]: p for p in k.params}
    st = []
    ptype = {}
    for s in k.init or []:
        if s[0] == 'super':
            st.append((f'{parent(k)}.initHeap self', 'super', None))
        elif s[0] == 'set':
            f, v = s[1], s[2]
            t = allf.get(f)
            src = u(v)
            if isinstance(v, ast.Name):
                if v.id not in pname:
                    raise Exception((n, src))
                ptype[v.id] = t
                st.append((f'H.setAttr self "{f}" {v.id}', 'set', None))
            elif isinstance(v, ast.BoolOp):
                x, e = u(v.values[0]), v.values[1]
                if isinstance(e, ast.Call):
                    T = u(e.func)
                    st.append((f'H.setOr self "{f}" {x} {T}.newHeap', 'or', f'{T}.makesNew'))
                elif isinstance(e, ast.List):
                    st.append((f'H.setOr self "{f}" {x} (H.alloc (.list []))', 'or', '.empty'))
                else:
                    st.append((f'H.setOr self "{f}" {x} (H.zeros {e.right.value})', 'or', f'(.zeros {e.right.value})'))
            elif isinstance(v, ast.Constant):
                st.append((f'H.setAttr self "{f}" ({sc(t, src)})', 'set', None))
            elif isinstance(v, ast.BinOp) and u(v.left) == '[0]':
                st.append((f'H.setNew self "{f}" (H.zeros {v.right.value})', 'new', f'(.zeros {v.right.value})'))
            elif isinstance(v, ast.Call):
                T = u(v.func)
                xs = [u(x.values[0]) for x in v.args]
                a = ''.join(f'      let {x} ← H.orNew {x} (H.alloc (.list []))\n' for x in xs)
                st.append((f'H.setNew self "{f}" (do\n{a}      {T}.newHeap {" ".join(xs)})', 'new', f'{T}.makesNew\''))
            elif src == 'beamState & 1':
                ptype['beamState'] = 'INT'
                st.append(('H.setAttr self "beamState" (.sc (.int (beamState % 2)))', 'set', None))
            else:
                raise Exception((n, src))
        elif s[0] == 'pass':
            pass
        else:
            raise Exception((n, s))
    params = []
    for a, ann, d in k.params:
        if ptype.get(a) == 'INT':
            params.append((a, 'Int', d))
        elif a in ptype:
            params.append((a, 'Val', sc(ptype[a], d)))
        else:
            params.append((a, 'Val', sc('F64' if gen.ann_type(ann) == 'F64' else 'Int', d)))
    return st, params


def par_steps(n):
    """[(lean, proof)]"""
    k = classes[n]
    allf = fields(k)
    p = parent(k)
    sf = simpf(n)
    at = f'by simp [{sf}, attrOf]'
    pu = f'by simp [{sf}, putAttr, Tree.optInt, Tree.intOr]'
    out = []
    S = out.append
    RD = 'refine .bind .read fun _ => ?_'
    ST = f'refine .bind (.set\' (fun o => {at}) (fun o => {pu})) fun _ => ?_'
    two = f'(fun o => {at}) (fun o v => {pu})'
    for s in k.par:
        kind = s[0]
        if kind == 'r':
            c = 'float' if s[2] in FLOATM else 'int'
            S((f'let {s[1]} ← H.read read_{s[2]}', RD))
            S((f'H.setAttr self "{s[1]}" (.sc (.{c} {s[1]}))', ST))
        elif kind == 'local':
            S((f'let {s[1]} ← H.read read_{s[2]}', RD))
        elif kind == 'discard':
            S((f'let _ ← H.read read_{s[2]}', RD))
        elif kind == 'obj':
            S((f'H.call self "{s[1]}" {allf[s[1]]}.parseHeap', f'refine .bind (.call\' {allf[s[1]]}.refines {two}) fun _ => ?_'))
        elif kind == 'super':
            S((f'{p}.parseHeap self', f'refine .bind (.super {p}.refines (fun _ => rfl) (fun _ _ => rfl)) fun _ => ?_'))
        elif kind in ('loop', 'loopw', 'loopsv'):
            r = u(s[2][0])
            m = re.match(r'^(self\.)?(\w+)$', r)
            c = f'{m.group(2)}.toNat' if m else '(' + r.replace('self.', '').replace('//', '/') + ').toNat'
            f = s[1]
            if kind == 'loop' and s[2][1] != 'null':
                T = s[2][1]
                S((f'H.appendObjs {c} {T}.newHeap {T}.parseHeap self "{f}"', f'refine .bind (.objs {T}.makesNew {T}.refines {two}) fun _ => ?_'))
            elif kind == 'loop':
                S((f'H.appendReads {c} (R.throw .nameError : R Int) .int self "{f}"', 'refine .bind .raises fun _ => ?_'))
            else:
                S((f'H.appendReads {c} read_{s[2][1]} .int self "{f}"', f'refine .bind (.reads {two}) fun _ => ?_'))
        elif kind in ('zeros', 'pass'):
            pass
        elif kind == 'idx':
            S((f'H.fillReads {s[2][1]} read_{s[2][0]} self "{s[1]}"',
               f'refine .bind (.fill ⟨fun _ _ => rfl, fun _ _ _ => rfl, fun _ => rfl⟩ {two}) fun _ => ?_'))
        elif n == 'BeamStatus' and s[3] == 3164:
            S(('let value ← H.read read_unsigned_byte', RD))
        elif n == 'BeamStatus' and s[3] == 3165:
            S(('H.setAttr self "beamState" (.sc (.int (value % 2)))', ST))
        elif n == 'VariableDatum' and s[3] == 3333:
            S(('H.appendReads (variableDatumLength / 8).toNat read_unsigned_byte .int self "variableData"', f'refine .bind (.reads {two}) fun _ => ?_'))
        elif n == 'VariableDatum' and s[3] == 3338:
            S(('let _ ← H.read (R.times\n    (VariableDatum.datumPaddingSizeInBits { variableDatumLength } / 8).toNat read_unsigned_byte)', RD))
        else:
            raise Exception((n, s))
    return out


def simpf(n):
    return ', '.join(f'{q}.members' for q in [n] + chain(n))


def ser_steps(n):
    k = classes[n]
    allf = fields(k)
    p = parent(k)
    at = f'(fun o => by simp [{simpf(n)}, attrOf])'
    out = []
    S = out.append

    def w(m, e):
        s = u(e)
        x = re.match(r'^self\.(\w+)$', s)
        if x:
            f = x.group(1)
            if f in k.props:
                return w(m, k.props[f][0].value)
            use = USE.get((n, f))
            if m in FLOATM:
                return (f'S.putFloat self "{f}" write_{m}', f'.putFloat {at}')
            r = 'putInt'
            if use:
                r = {'attr': 'optAbsent', 'needInt': 'optNone', 'IntOr.asInt': 'intOr (ts := NamedLocationIdentification.members)'}[use.split()[0]]
            return (f'S.putInt self "{f}" write_{m}', f'.{r} {at}')
        x = re.match(r'^len\(self\.(\w+)\)( \* 8)?$', s)
        if x:
            t = allf[x.group(1)]
            r = 'lenInts' if t == 'List Int' else f'lenObjs (ts := {t[5:]}.members)'
            if x.group(2):
                return (f'S.putLen self "{x.group(1)}" fun n => write_{m} (n * 8)', f'.{r} (k := fun n => write_{m} (n * 8)) {at}')
            return (f'S.putLen self "{x.group(1)}" write_{m}', f'.{r} {at}')
        if s == '0':
            return (f'S.write (write_{m} 0)', '.write')
        if s == 'self.beamState & 1':
            return (f'S.putInt self "beamState" fun v => write_{m} (v % 2)', f'.putInt (k := fun v => write_{m} (v % 2)) {at}')
        raise Exception((n, s))
    for s in k.ser:
        kind = s[0]
        if kind == 'w':
            S(w(s[1], s[2]))
        elif kind == 'obj':
            t = allf[s[1]]
            if t.startswith('Option'):
                S((f'S.call self "{s[1]}" {t[7:]}.serializeHeap', f'.optObj {t[7:]}.shows {at}'))
            else:
                S((f'S.call self "{s[1]}" {t}.serializeHeap', f'.call {t}.shows {at}'))
        elif kind == 'super':
            S((f'{p}.serializeHeap self', f'.super {p}.shows (fun _ => rfl)'))
        elif kind == 'each':
            t = allf[s[1]]
            if t == 'List Int':
                S((f'S.each self "{s[1]}" fun _ => S.throw .attributeError', f'.eachRaises {at}'))
            else:
                S((f'S.each self "{s[1]}" {t[5:]}.serializeHeap', f'.eachObj {t[5:]}.shows {at}'))
        elif kind == 'eachw':
            S((f'S.eachInt self "{s[1]}" write_{s[2]}', f'.eachInts {at}'))
        elif kind == 'idx':
            S((f'S.forRange 0 {s[2][1]} fun idx => S.putItem self "{s[1]}" idx write_{s[2][0]}', f'.items {at}'))
        elif kind == 'pass':
            S(('pure ()', '.pure'))
        elif n == 'VariableDatum' and s[3] == 3322:
            S(('(do let n ← S.int self "variableDatumLength"\n'
               '      S.forRange 0 (n / 8).toNat fun x => S.putItem self "variableData" x write_unsigned_byte)',
               f'.withInt {at} (w := fun v (o : VariableDatum) => W.forRange 0 (v / 8).toNat fun x =>\n    W.using (index o.variableData x) write_unsigned_byte)'
               f' fun v => .items {at}'))
        elif n == 'VariableDatum' and s[3] == 3326:
            S(('(do let n ← S.int self "variableDatumLength"\n'
               '      S.forRange 0 (VariableDatum.datumPaddingSizeInBits { variableDatumLength := n } / 8).toNat fun _ =>\n'
               '        S.write (write_unsigned_byte 0))',
               f'.withInt {at} (w := fun v (_ : VariableDatum) => W.forRange 0\n    (VariableDatum.datumPaddingSizeInBits {{ variableDatumLength := v }} / 8).toNat fun _ => write_unsigned_byte 0)'
               f' fun v => .range (fun _ => .write) _ 0'))
        else:
            raise Exception((n, s))
    return out


def gen_model(n):
    k = classes[n]
    o = []
    init_c = cite(k, '__init__') if '__init__' in k.lines else f'{k.path}:{k.line}'
    st, params = init_steps(n) if n != 'PduSuperclass' and n not in RAISE else (None, None)
    abstract = is_pdu(n) and class_attr(n, 'pduType') is None
    if not abstract or n in RAISE:
        items = [f'("{f}", {v})' for q, g in template(n) for f, v in g]
        o += [f'/-- Attributes of a `{n}` object before `__init__` ({k.path}:{k.line}-{k.end}): class attributes have',
              'values. -/', f'def {n}.attrs : List (String × Scalar) :=']
        o += (wrapl(items, '  [', '   ', ']') if items else ['  []']) + ['']
    if n == 'PduSuperclass':
        o.append(SUPER)
    elif n not in RAISE:
        o.append(f'/-- `{n}.__init__`, {init_c}, statement by statement. -/')
        line = f'def {n}.initHeap (self : Ref)'
        for a, t, d in params:
            piece = f' ({a} : {t} := {d})'
            if len(line) + len(piece) > 96:
                o.append(line)
                line = '   '
            line += piece
        if len(line) + 12 > 98:
            o.append(line)
            line = '   '
        o.append(line + ' : H Unit := do')
        o += ['  ' + s[0] for s in st] or ['  pure ()']
        o.append('')
        if not abstract:
            o.append(f'/-- `{n}(...)`, {init_c}. -/')
            line = f'def {n}.newHeap'
            for a, t, d in params:
                piece = f' ({a} : {t} := {d})'
                if len(line) + len(piece) > 96:
                    o.append(line)
                    line = '   '
                line += piece
            if len(line) + 12 > 98:
                o.append(line)
                line = '   '
            o.append(line + ' : H Ref :=')
            o.append(f'  H.new {n}.attrs fun self => {n}.initHeap self' + ''.join(' ' + a for a, t, d in params))
            o.append('')
    if k.par is not None:
        o += [f'/-- `{n}.parse`, {cite(k, "parse")}, statement by statement. -/', f'def {n}.parseHeap (self : Ref) : H Unit := do']
        o += ['  ' + s[0] for s in par_steps(n)] + ['  return ()', '']
    if k.ser is not None:
        o += [f'/-- `{n}.serialize`, {cite(k, "serialize")}, statement by statement. -/', f'def {n}.serializeHeap (self : Ref) : S Unit := do']
        o += ['  ' + s[0] for s in ser_steps(n)] + ['']
    return '\n'.join(o)


def lit(g):
    if not g:
        return '[]'
    return '([' + ', '.join(f'("{f}", .sc {v})' for f, v in g) + '] : List (String × Tree))'


def gen_proof(n):
    k = classes[n]
    o = []
    pdu = is_pdu(n)
    abstract = pdu and class_attr(n, 'pduType') is None
    if n == 'PduSuperclass':
        o.append(SUPERP)
    elif n not in RAISE:
        st, params = init_steps(n)
        tm = template(n)
        txt = 'ex'
        for q, g in reversed(tm):
            g = [(f, '(.int p)' if f == 'pduType' and q == 'PduSuperclass' else '(.int pf)' if f == 'protocolFamily' and q == 'PduSuperclass'
                  else (v if v == '.absent' else f'({v})')) for f, v in g]
            txt = f'{lit(g)} ++\n      ({txt})' if txt != 'ex' else f'{lit(g)} ++ ex'
        val = f'({n}.members {{ pduType := p, protocolFamily := pf }} ++ ex)' if pdu else f'({n}.members {{}} ++ ex)'
        pp = '(p pf : Int) ' if pdu else ''
        o += [f'theorem {n}.inits {pp}(ex : List (String × Tree)) : Inits (fun self => {n}.initHeap self)', f'      ({txt})', f'      {val} := by',
              f'  unfold {n}.initHeap']
        sf = simpf(n)
        for i, (s, kind, mk) in enumerate(st):
            if kind == 'super':
                t = f'{parent(k)}.inits {"p pf " if pdu else ""}_'
            else:
                r = {'set': '.set\'', 'new': f'.setNew\' {mk}', 'or': f'.setOr\' {mk}'}[kind]
                t = f'{r} (by simp [attrOf_putAttr_isSome, attrOf, {sf}])'
            if i < len(st) - 1:
                o.append(f'  refine .bind ({t}) ?_')
            else:
                o.append(f'  exact .cast ({t})\n    (by simp [putAttr, {sf}, Tree.ints, Tree.objs, Tree.optInt, Tree.optObj, Tree.intOr])')
        if not st:
            o.append(f'  exact .cast .done (by simp [{sf}])')
        o.append('')
        if not abstract:
            a = f'{class_attr(n, "pduType")} {class_attr(n, "protocolFamily")} ' if pdu else ''
            o += [f'theorem {n}.makesNew : MakesNew {n}.newHeap (.obj ({n}.members {n}.init)) :=', f'  .new (.cast ({n}.inits {a}[]) (List.append_nil _))', '']
    if k.par is not None:
        o += [f'theorem {n}.refines : Refines {n}.members {n}.parseInto {n}.parseHeap := by', f'  unfold {n}.parseInto {n}.parseHeap']
        o += ['  ' + s[1] for s in par_steps(n)] + ['  exact .pure', '']
    if k.ser is not None:
        o += [f'theorem {n}.shows : Shows {n}.members {n}.serialize {n}.serializeHeap := by', f'  unfold {n}.serialize {n}.serializeHeap']
        ss = ser_steps(n)
        o += [f'  refine .bind ({s[1]}) ?_' for s in ss[:-1]] + [f'  exact {ss[-1][1]}', '']
    return '\n'.join(o)


def write(path, txt):
    open(os.path.join(L, path), 'w').write(txt)


EXTRA = {'DatumSpecification': ('fixedDatumRecords', 'variableDatumRecords'), 'DataQueryDatumSpecification': ('fixedDatumIDs', 'variableDatumIDs')}

BYTES = {'BeamAntennaPattern': ' (some 40)', 'BasicHaveQuickMP': ' none', 'CCTTSincgarsMP': ' none'}
BYTESP = {k: ' _' for k in BYTES}


def catalog(names):
    cat = open(f'{L}/Spec/Catalog.lean').read()
    parts = re.findall(r'^def (catalog\w+) : List Codec :=\n  \[(.*?)\]\n', cat, re.M | re.S)
    s = [HEAD.format(imp='import Verif.Spec.InPlaceCatalog\nimport Verif.Spec.HeapFieldsSpecial\nimport Verif.Model.HeapSpecial\n',
                     title='The catalogue with methods on a memory of objects', more='').rstrip(), '''
/-- A wire class with its methods on values (/repo/opendis/dis7.py and /repo/opendis/record). -/
structure ValueClass where
  /-- name of the Python class -/
  name : String
  /-- its objects -/
  Obj : Type
  /-- the object made by the constructor without arguments -/
  fresh : Obj
  /-- the method `parse` -/
  parse : P Obj Unit
  /-- the method `serialize` -/
  serialize : Obj → W Unit

/-- The class of an entry of `inPlace` (/repo/opendis/dis7.py and /repo/opendis/record). -/
def InPlace.value (c : InPlace) : ValueClass := ⟨c.codec.name, c.codec.Obj, c.codec.fresh, c.into, c.codec.serialize⟩

/-- A wire class with its constructor and methods as programs on a memory of objects (/repo/opendis/dis7.py
and /repo/opendis/record). -/
structure HeapClass where
  /-- the class with its methods on values -/
  value : ValueClass
  /-- the attributes of an object by name -/
  members : value.Obj → List (String × Tree)
  /-- the constructor without arguments -/
  new : H Ref
  /-- the method `parse` -/
  parse : Ref → H Unit
  /-- the method `serialize` -/
  serialize : Ref → S Unit
''']
    p = [HEAD.format(imp='import Verif.Proof.HeapSpecial\nimport Verif.Spec.HeapCatalog\n',
                     title='Methods on a memory of objects, for the whole catalogue', more='').rstrip(), '''
/-- What is proved of every entry. -/
structure HeapClass.Lawful (c : HeapClass) : Prop where
  makes : MakesNew c.new (.obj (c.members c.value.fresh))
  refines : Refines c.members c.value.parse c.parse
  shows : Shows c.members c.value.serialize c.serialize
''']
    got = []
    for nm, body in parts:
        hp = nm.replace('catalog', 'heap')
        ts = [T for T in re.findall(r'\.(\w+)', body) if T in names]
        if not ts:
            continue
        got.append(hp)
        for T in ts:
            where = re.search(r'^/-- Catalogue entry of `%s` \((.*?)\)' % T, cat, re.M).group(1)
            s += [f'/-- Entry of `{T}` ({where}). -/', f'def HeapClass.{T} : HeapClass where', f'  value := InPlace.{T}.value', f'  members := Dis.{T}.members',
                  f'  new := Dis.{T}.newHeap', f'  parse := Dis.{T}.parseHeap{BYTES.get(T, "")}', f'  serialize := Dis.{T}.serializeHeap', '']
            p += [f'theorem HeapClass.{T}.lawful : HeapClass.{T}.Lawful := ⟨Dis.{T}.makesNew, Dis.{T}.refines{BYTESP.get(T, "")}, Dis.{T}.shows⟩', '']
        s += [f'/-- Classes of `{nm}` (/repo/opendis). -/', f'def {hp} : List HeapClass :=', '  [' + ',\n   '.join('.' + T for T in ts) + ']', '']
        p += [f'theorem {hp}_lawful : ∀ c ∈ {hp}, c.Lawful := by', '  intro c hc',
              f'  simp only [{hp}, List.mem_cons, List.not_mem_nil, or_false] at hc',
              '  rcases hc with ' + ' | '.join(['rfl'] * len(ts))] + [f'  · exact HeapClass.{T}.lawful' for T in ts] + ['']
    for T, where in genheapx.ALONE:
        s += [f'/-- `{T}` ({where}), which is not in `inPlace`. -/', f'def HeapClass.{T} : HeapClass where',
              f'  value := ⟨"{T}", Dis.{T}, Dis.{T}.init, Dis.{T}.parseInto, Dis.{T}.serialize⟩', f'  members := Dis.{T}.members',
              f'  new := Dis.{T}.newHeap', f'  parse := Dis.{T}.parseHeap', f'  serialize := Dis.{T}.serializeHeap', '']
        p += [f'theorem HeapClass.{T}.lawful : HeapClass.{T}.Lawful := ⟨Dis.{T}.makesNew, Dis.{T}.refines, Dis.{T}.shows⟩', '']
    ts = [T for T, _ in genheapx.ALONE]
    s += ['/-- PDU classes that are not in `inPlace` (/repo/opendis/dis7.py). -/', 'def heapAlone : List HeapClass :=', '  [' + ', '.join('.' + T for T in ts) + ']', '']
    p += ['theorem heapAlone_lawful : ∀ c ∈ heapAlone, c.Lawful := by', '  intro c hc', '  simp only [heapAlone, List.mem_cons, List.not_mem_nil, or_false] at hc',
          '  rcases hc with ' + ' | '.join(['rfl'] * len(ts))] + [f'  · exact HeapClass.{T}.lawful' for T in ts] + ['']
    got.append('heapAlone')
    s += ['/-- The classes with a memory model (/repo/opendis). -/', 'def heapClasses : List HeapClass :=',
          '  ' + ' ++\n  '.join(got), '', 'end Dis', '']
    pat = 'h'
    for _ in got[1:]:
        pat = f'({pat} | h)'
    p += ['theorem heapClasses_lawful : ∀ c ∈ heapClasses, c.Lawful := by', '  intro c hc', '  simp only [heapClasses, List.mem_append] at hc',
          f'  rcases hc with {pat}'] + [f'  · exact {hp}_lawful c h' for hp in got] + ['', 'end Dis', '']
    write('Spec/HeapCatalog.lean', '\n'.join(s))
    write('Proof/HeapCatalog.lean', '\n'.join(p))


FACTORY = open(os.path.join(os.path.dirname(os.path.abspath(__file__)), 'hand', 'heap_factory.lean.txt')).read()


def factory():
    fac = open(f'{L}/Model/Factory.lean').read()
    cls = re.findall(r'^  /-- (\S+) -/\n  \| (\w+)$', fac, re.M)
    dec = '\n'.join(f'  | .{T} => H.load {T}.newHeap {T}.parseHeap  -- {c}' for c, T in cls)
    ser = '\n'.join(f'  | .{T} => {T}.serializeHeap  -- {c}' for c, T in cls)
    mem = '\n'.join(f'  | .{T} p => p.members  -- {c}' for c, T in cls)
    lo = '\n'.join(f'  · exact .load {T}.makesNew {T}.refines ({T}.into _) fun _ => rfl' if T not in RAISE else f'  · exact .raises {T}.raises' for c, T in cls)
    sh = '\n'.join(f'  | .{T} p, A => {T}.shows.alone r p h F A' for c, T in cls)
    m, sp, p = FACTORY.split('-----\n')
    write('Model/HeapFactory.lean', m.replace('DECODE', dec).replace('SERIALIZE', ser))
    write('Spec/HeapFactory.lean', sp.replace('MEMBERS', mem))
    write('Proof/HeapFactory.lean', p.replace('LOADS', lo).replace('SHOWS', sh))


def main():
    recs, pdus = gen.order()
    names = recs + pdus
    CH = 40
    prev = 'import Verif.Model.Pdus5\nimport Verif.Py.Heap\n'
    prevp = 'import Verif.Proof.HeapRules\n'
    write('Spec/HeapFields.lean', HEAD.format(imp='import Verif.Model.Pdus5\nimport Verif.Spec.Heap\n', title='The attributes of objects by name', more='') +
          '\n'.join(gen_fields(n) for n in names) + '\nend Dis\n')
    for i in range(0, len(names), CH):
        j = i // CH + 1
        part = names[i:i + CH]
        write(f'Model/Heap{j}.lean', HEAD.format(imp=prev, title=f'Methods as programs on a memory of objects, part {j}',
              more=' from the Python source; each definition cites the lines it transliterates') +
              '\n'.join(gen_model(n) for n in part) + '\nend Dis\n')
        prev = f'import Verif.Model.Heap{j}\n'
        body = []
        for n in part:
            body.append(gen_proof(n))
            if n in EXTRA:
                body.append(f'theorem {n}.makesNew\' : MakesNew (do\n      let a ← H.orNew (.sc .none) (H.alloc (.list []))\n'
                            f'      let b ← H.orNew (.sc .none) (H.alloc (.list []))\n      {n}.newHeap a b) (.obj ({n}.members {n}.init)) :=\n'
                            f'  MakesNew.twoLists (by decide)\n')
        write(f'Proof/HeapClasses{j}.lean', HEAD.format(imp=prevp + f'import Verif.Model.Heap{j}\nimport Verif.Spec.HeapFields\nimport Verif.Model.InPlace4\n', title=f'Methods on a memory of objects, part {j}', more='') +
              '\n'.join(body) + '\nend Dis\n')
        prevp = f'import Verif.Proof.HeapClasses{j}\n'
    genheapx.generate(L, sys.modules[__name__], HEAD, write)
    catalog(names + genheapx.CATALOGUE)
    factory()
    print(len(names), j)


if __name__ == '__main__':
    main()
