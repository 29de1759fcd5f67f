"""Writes lean/Verif/Spec/IoFactory.lean and lean/Verif/Proof/IoDecoders.lean: the PDU classes of the factory by name, the
Python objects their values stand for, and the comparison of the decoders (C79).

  python3 tools/geniofactory.py        (run in /verif)"""
import re

model = open('lean/Verif/Model/Factory.lean').read()
classes = re.findall(r'^  \| \.(\w+) => do  -- /repo/opendis/dis7.py:([0-9, :-]+)', model, re.M)
index = {}
cat = ''.join(open(f'lean/Verif/Spec/{f}.lean').read() for f in ['SourceCatalog', 'SourceSpecial', 'SourceDirected'])
sourced = set(re.findall(r'def Sourced\.(\w+)', cat))
for k in '1234567':
    for c in re.findall(r'\.(\w+)', re.search(r'^def sourced%s : .*?\n((?:   ?\[?.*\n)+)' % k, cat, re.M).group(1)):
        index[c] = len(index)
lines = dict(re.findall(r'^  /-- (/repo/opendis/dis7.py:[0-9-]+) -/\n  \| (\w+)$', model, re.M))
lines = {c: l for l, c in lines.items()}

RADIO = {'TransmitterPdu': 'transmitter', 'IntercomControlPdu': 'intercom'}  # outside the catalogue
out = '''import Verif.Spec.Io
import Verif.Spec.SourceCatalog
import Verif.Source.EncodeRadio
import Verif.Model.Factory

/-!
# The PDUs of the factory as Python objects (C79)

Written by `tools/geniofactory.py`.
-/

namespace Dis.Io

open Src

/-- The name of a class (the classes of /repo/opendis/dis7.py that /repo/opendis/PduFactory.py:11-64 can name). -/
def ident : PduClass → Ident
'''
for c, _ in classes:
    out += f'  | .{c} => I.{c}  -- {lines[c]}\n'
out += '''
/-- The Python object that a PDU of the model stands for (see /repo/opendis/PduFactory.py:73-76); there is none for
`LinearObjectStatePdu`, whose constructor raises (C77). -/
def value : AnyPdu → Option Src.Val
'''
for c, _ in classes:
    if c in sourced or c in RADIO:
        out += f'  | .{c} p => some (.obj I.{c} ({c}.fields p))  -- {lines[c]}\n'
out += ''''''
out += f'  | .LinearObjectStatePdu _ => .none  -- {lines["LinearObjectStatePdu"]}\n'
out += '''
/-- Objects of the records and PDUs as the trees of their classes say (C77), reading and writing as the trees of the streams
say, with calls nested at most `n + 8` deep; `file` gives the contents of files (/repo/opendis/PduFactory.py:74-75, :97). -/
def world (file : Val → Except PyErr Bytes) (n : Nat) : World where
  call := methods program words treeStreams (n + 8)
  make c io := match construct program words (methods program words treeStreams (n + 8)) c [] [] ⟨[], io⟩ with
    | (r, st) => (r, st.io)
  file := file

end Dis.Io
'''
open('lean/Verif/Spec/IoFactory.lean', 'w').write(out)

out = '''import Verif.Proof.IoFactory

/-!
# The decoders of the factory, class by class (C79)

Written by `tools/geniofactory.py`.
-/

namespace Dis.Io

open Src

'''
for c, _ in classes:
    if c in sourced:
        out += f'''theorem {c}_decodes : Decodes I.{c} (PduClass.decode .{c}) :=
  decodes .{c} (List.mem_of_getElem? (i := {index[c]}) rfl) rfl .{c} rfl fun _ => rfl

'''
out += '''theorem all_decode : ∀ c : PduClass, Decodes (ident c) c.decode
'''
for c, _ in classes:
    if c in RADIO:
        out += f'  | .{c} => {RADIO[c]}_decodes\n'
    elif c == 'LinearObjectStatePdu':
        out += f'  | .{c} => linear_decodes\n'
    else:
        out += f'  | .{c} => {c}_decodes\n'
out += '''
theorem all_serialize (file : Val → Except PyErr Bytes) (n : Nat) (io : Streams) : ∀ (p : AnyPdu) (v : Src.Val), value p = some v →
    (world file n).call (ident p.cls) I.serialize v [.out] [] io =
      (p.serialize.res.map fun _ => .none, v, ⟨io.inp, io.out ++ p.serialize.out⟩)
'''
for c, _ in classes:
    if c in sourced:
        out += f'''  | .{c} p, v, h =>
    serializes .{c} (List.mem_of_getElem? (i := {index[c]}) rfl) file n io p v (Option.some.inj h)
'''
    elif c in RADIO:
        out += f'''  | .{c} p, v, h => by
    cases h
    simp only [world, treeStreams_eq]
    exact C77_{RADIO[c]}_serialize n p io
'''
    else:
        out += f'  | .{c} _, _, h => nomatch h\n'
out += '\nend Dis.Io\n'
open('lean/Verif/Proof/IoDecoders.lean', 'w').write(out)
