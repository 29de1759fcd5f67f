"""Generate lean/Verif/Spec/AnyPdu.lean and lean/Verif/Proof/AnyPdu.lean: the specification of each
concrete PDU class lifted to the sum of all PDU classes.

  python3 tools/genany.py        (run in /verif)
"""
import os
import re

from genfactory import concrete, lines, FAIL

V = os.path.join(os.path.dirname(__file__), '..', 'lean', 'Verif')
ALL = ''
for d in ('Spec', 'Proof'):
    for f in sorted(os.listdir(os.path.join(V, d))):
        if f.endswith('.lean') and f != 'AnyPdu.lean':
            ALL += open(os.path.join(V, d, f)).read()
NEVER = FAIL | {'IntercomControlPdu'}
names = [n for n, _ in concrete()]


def has(what):
    return re.search(r'^(?:def|theorem) ' + re.escape(what) + r'\b', ALL, re.M) is not None


def decodable(n):
    return has(n + '.Decodable')


def table(head, doc, f):
    out = ['', f'/-- {doc} -/', head]
    for n in names:
        out.append(f'  | .{n} p => {f(n)}  -- /repo/opendis/dis7.py:{lines(n)}'
                   if 'p' in re.findall(r'\w+', f(n)) else
                   f'  | .{n} _ => {f(n)}  -- /repo/opendis/dis7.py:{lines(n)}')
    return out


spec = ['import Verif.Spec.Special', 'import Verif.Spec.LayoutSpecial', 'import Verif.Model.Factory', '', '/-!',
        '# Specification of the PDU classes, over all of them',
        '', 'Generated by `tools/genany.py`.', '-/', '', 'namespace Dis']
spec += table('def AnyPdu.received : AnyPdu → AnyPdu',
              'The PDU a receiver should get: the wire fields of `p`, defaults elsewhere (classes of\n'
              '/repo/opendis/dis7.py, lines beside each).',
              lambda n: f'.{n} p' if n in NEVER else
              f'.{n} (Dis.{n}.after Dis.{n}.init p)')
spec += table('def AnyPdu.Decodable : AnyPdu → Prop',
              'The PDU has no list or part that its `parse` method cannot read back (classes of\n'
              '/repo/opendis/dis7.py, lines beside each).',
              lambda n: 'False' if n in NEVER else 'p.Decodable' if decodable(n) else 'True')
spec += table('def AnyPdu.Canon : AnyPdu → Prop',
              'Singles exact, attributes that are not on the wire at their defaults (classes of\n'
              '/repo/opendis/dis7.py, lines beside each).',
              lambda n: 'False' if n in NEVER else 'p.Canon')
spec += table('def AnyPdu.Fits : AnyPdu → Prop',
              'Every field fits its slot (classes of /repo/opendis/dis7.py, lines beside each).',
              lambda n: 'p.WireOk')
spec += table('def AnyPdu.wire : AnyPdu → List Slot',
              'Layout on the wire (classes of /repo/opendis/dis7.py, lines beside each).',
              lambda n: 'p.wire')
spec += ['', 'end Dis', '']

p = ['import Verif.Spec.AnyPdu', 'import Verif.Proof.Special', 'import Verif.Proof.LayoutSpecial',
     'import Verif.Proof.Begins', '',
     '/-!', '# The theorems about each PDU class, over all of them', '',
     'Generated by `tools/genany.py`.', '-/', '', 'namespace Dis', '']


def per(f, arg=''):
    return [f'  | .{n}{arg} => {f(n)}' for n in names]


p += ['theorem AnyPdu.rt : ∀ p : AnyPdu, p.Decodable → RT p.serialize p.cls.decode p.received']
for n in names:
    if n in NEVER:
        p.append(f'  | .{n} _, h => absurd h id')
    elif decodable(n):
        p.append(f'  | .{n} p, h => RT.last (f := AnyPdu.{n}) (Dis.{n}.rt _ p h)')
    else:
        p.append(f'  | .{n} p, _ => RT.last (f := AnyPdu.{n}) (Dis.{n}.rt _ p)')
p += ['', 'theorem PduClass.loc : ∀ c : PduClass, c ≠ .TransmitterPdu → Local c.decode']
for n in names:
    if n == 'TransmitterPdu':
        p.append(f'  | .{n}, h => absurd rfl h')
    elif n in FAIL:
        p.append(f'  | .{n}, _ => Local.bind (Local.ofExcept _) fun _ => Local.bind (Dis.{n}.loc _) fun _ => Local.pure _')
    else:
        p.append(f'  | .{n}, _ => Local.bind (Dis.{n}.loc _) fun _ => Local.pure _')
p += ['', 'theorem AnyPdu.received_canon : ∀ p : AnyPdu, p.Canon → p.received = p']
for n in names:
    if n in NEVER:
        p.append(f'  | .{n} _, h => absurd h id')
    else:
        p.append(f'  | .{n} _, h => congrArg AnyPdu.{n} (Dis.{n}.after_canon h)')
p += ['', 'theorem AnyPdu.received_cls : ∀ p : AnyPdu, p.received.cls = p.cls']
p += [f'  | .{n} _ => rfl' for n in names]
p += ['', 'theorem AnyPdu.ok_iff : ∀ p : AnyPdu, p.serialize.Ok ↔ p.Fits']
p += [f'  | .{n} p => Dis.{n}.ok_iff p' for n in names]
p += ['', 'theorem AnyPdu.lay : ∀ p : AnyPdu, Lay p.serialize p.wire']
p += [f'  | .{n} p => Dis.{n}.lay p' for n in names]
p += ['', 'theorem PduClass.decode_cls : ∀ c : PduClass, ∀ s p s\', c.decode s = (.ok p, s\') → p.cls = c']
for n in names:
    p.append(f'  | .{n}, _, _, _, h => by' + (' obtain ⟨_, _, h, _⟩ := R.bind_inv h; cases h' if n in FAIL else
             ' obtain ⟨_, _, _, h⟩ := R.bind_inv h; cases h; rfl'))
p += ['', '/-- Unfolds the `serialize` of the family class. -/', 'macro "begins_base" : tactic => `(tactic| first | exact Begins.refl | exact Begins.bind Begins.refl)']
p += ['', 'theorem AnyPdu.begins : ∀ p : AnyPdu, Begins p.serialize (Pdu.serialize p.toPdu)']
for n in names:
    p.append(f'  | .{n} p => by exact (Begins.bind (by begins_base) : Begins (Dis.{n}.serialize p) (Pdu.serialize p.toPdu))')
p += ['', 'end Dis', '']
open(os.path.join(V, 'Spec', 'AnyPdu.lean'), 'w').write('\n'.join(spec))
open(os.path.join(V, 'Proof', 'AnyPdu.lean'), 'w').write('\n'.join(p))
