"""Generate lean/Verif/Model/Factory.lean from opendis/PduFactory.py and the class attributes pduType.

  python3 tools/genfactory.py        (run in /verif)
"""
import ast
import os

import gen
from gen import classes, parent, u

PF = '/repo/opendis/PduFactory.py'
OUT = os.path.join(os.path.dirname(__file__), '..', 'lean', 'Verif', 'Model', 'Factory.lean')


def concrete():
    """(name, pduType, line of the attribute, lines of the class) of the concrete PDU classes"""
    res = []
    for n, k in classes.items():
        if 'pduType' not in k.attrs:
            continue
        q = n
        while q and q != 'PduSuperclass':
            q = parent(classes[q])
        if q:
            res.append((n, int(u(k.attrs['pduType'][0]))))
    return res


def cls_node(name):
    for x in TREE.body:
        if isinstance(x, ast.ClassDef) and x.name == name:
            return x


TREE = ast.parse(open('/repo/opendis/dis7.py').read())


def type_line(name):
    for x in cls_node(name).body:
        if isinstance(x, ast.AnnAssign) and x.target.id == 'pduType':
            return x.lineno, int(u(x.value))


def table():
    t = ast.parse(open(PF).read())
    for x in t.body:
        if isinstance(x, ast.Assign) and x.targets[0].id == 'PduTypeDecoders':
            return [(k.value, v.id, k.lineno) for k, v in zip(x.value.keys, x.value.values)]


FAIL = {'LinearObjectStatePdu'}


def lines(name):
    c = cls_node(name)
    return f'{c.lineno}-{c.end_lineno}'


def meth(name, m):
    for x in cls_node(name).body:
        if isinstance(x, ast.FunctionDef) and x.name == m:
            return f'{x.lineno}-{x.end_lineno}'


def main():
    cs = [n for n, _ in concrete()]
    o = []
    o.append('''import Verif.Model.Special

/-!
# `opendis/PduFactory.py`

Generated by `tools/genfactory.py` from the table in the source and the class attributes `pduType`.
-/

namespace Dis

/-- The concrete PDU classes of /repo/opendis/dis7.py (those with a class attribute `pduType`). -/
inductive PduClass where''')
    for n in cs:
        o.append(f'  /-- /repo/opendis/dis7.py:{lines(n)} -/\n  | {n}')
    o.append('''  deriving DecidableEq, Repr

/-- The class attribute `pduType` (line of the attribute in /repo/opendis/dis7.py beside each). -/
def PduClass.pduType : PduClass → Int''')
    for n in cs:
        ln, v = type_line(n)
        o.append(f'  | .{n} => {v}  -- /repo/opendis/dis7.py:{ln}')
    o.append('''
/-- A PDU object: an instance of one of the concrete classes of /repo/opendis/dis7.py (the values
`getPdu` can return, /repo/opendis/PduFactory.py:67). -/
inductive AnyPdu where''')
    for n in cs:
        o.append(f'  /-- /repo/opendis/dis7.py:{lines(n)} -/\n  | {n} (p : _root_.Dis.{n})')
    o.append('''  deriving DecidableEq

/-- `type(pdu)` (classes of /repo/opendis/dis7.py). -/
def AnyPdu.cls : AnyPdu → PduClass''')
    for n in cs:
        o.append(f'  | .{n} _ => .{n}')
    o.append('''
/-- `pdu.serialize(outputStream)`, dispatched on the class (lines in /repo/opendis/dis7.py beside
each). -/
def AnyPdu.serialize : AnyPdu → W Unit''')
    for n in cs:
        o.append(f'  | .{n} p => p.serialize  -- /repo/opendis/dis7.py:{meth(n, "serialize")}')
    o.append('''
/-- The attributes shared by all PDUs (those of the classes `PduSuperclass` and `Pdu`,
/repo/opendis/dis7.py:3424-3478 and :3698-3718). -/
def AnyPdu.toPdu : AnyPdu → Pdu''')
    for n in cs:
        o.append(f'  | .{n} p => p.toPdu')
    o.append('''
/-- `pdu = Decoder(); pdu.parse(inputStream)`, /repo/opendis/PduFactory.py:73-75, dispatched on the
class (lines of the `parse` methods in /repo/opendis/dis7.py beside each). -/
def PduClass.decode : PduClass → R AnyPdu''')
    for n in cs:
        if n in FAIL:
            o.append(f'  | .{n} => do  -- /repo/opendis/dis7.py:{meth(n, "__init__")}, {meth(n, "parse")}\n'
                     f'    let pdu ← R.ofExcept {n}.init\n    let pdu ← {n}.parse pdu\n    return .{n} pdu')
        else:
            o.append(f'  | .{n} => do  -- /repo/opendis/dis7.py:{meth(n, "parse")}\n'
                     f'    let pdu ← {n}.parse {n}.init\n    return .{n} pdu')
    tb = table()
    o.append('''
/-- The dictionary `PduTypeDecoders`, /repo/opendis/PduFactory.py:11-64. -/
def PduTypeDecoders : List (Int × PduClass) := [''')
    for i, (k, v, ln) in enumerate(tb):
        o.append(f'  ({k}, .{v}){"," if i + 1 < len(tb) else "]"}  -- :{ln}')
    o.append('''
/-- `getPdu`, /repo/opendis/PduFactory.py:67-81; `none` is Python's `None`. -/
def getPdu : R (Option AnyPdu) := do
  R.seek 2
  let pduType ← read_byte
  R.seek 0
  match PduTypeDecoders.lookup pduType with
  | some decoder => do
    let pdu ← decoder.decode
    return some pdu
  | none => return none

/-- `createPdu`, /repo/opendis/PduFactory.py:84-92: the outcome of `getPdu` on a new stream. -/
def createPdu (data : Bytes) : Except PyErr (Option AnyPdu) := (getPdu ⟨data, 0⟩).1

/-- `createPduFromFilePath`, /repo/opendis/PduFactory.py:95-100, for a file that can be opened and
has the given contents; the file object is modelled like an in-memory stream. -/
def createPduFromFile (contents : Bytes) : Except PyErr (Option AnyPdu) := (getPdu ⟨contents, 0⟩).1

end Dis
''')
    open(OUT, 'w').write('\n'.join(o))


if __name__ == '__main__':
    main()
