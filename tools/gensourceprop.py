"""Writes lean/Verif/Spec/SourceDerived.lean and lean/Verif/Proof/SourceDerived1.lean: the properties (derived attributes) of
the classes of the catalogue, and the comparison of their syntax trees with the fields of the model's objects (C80).

  python3 tools/gensourceprop.py        (run in /verif)"""
import glob
import re

B = 'lean/Verif/'
src, lines, order = {}, {}, []
for k in ['Dis1', 'Dis2', 'Dis3', 'Dis4', 'Records']:
    s = open(B + f'Source/{k}.lean').read()
    for m in re.finditer(r'^/-- `[\w.]+`, (/repo/[\w./]+:[0-9-]+)[^\n]*? -/\ndef (\w+)\.([\w«»]+) : Method where\n(.*?)(?=\n\n)', s, re.M | re.S):
        if 'property := true' not in m.group(4):
            continue
        b = re.sub(r'\s+', ' ', re.search(r'body :=\s*(.*)$', m.group(4), re.S).group(1))
        src[m.group(2), m.group(3)] = b
        lines[m.group(2), m.group(3)] = m.group(1)
        order.append((m.group(2), m.group(3)))

own = {}
base = {}
for f in glob.glob(B + 'Source/Encode*.lean'):
    s = open(f).read()
    for m in re.finditer(r'^abbrev (\w+)\.(?:own|ownWith|fields)(?: \(\w+ \w+ : Val\))? \(x : [\w.]+\) : List \(Ident × Val\) :=\s*(.*?)(?=\n\n|\Z)', s, re.M | re.S):
        t = re.sub(r'\s+', ' ', m.group(2))
        for a, v in re.findall(r'\(I\.([\w«»]+), ((?:[^()]|\((?:[^()]|\([^()]*\))*\))*)\)', t):
            own.setdefault(m.group(1), {})[a] = v
cat = ''.join(open(B + f'Spec/{f}.lean').read() for f in ['SourceCatalog', 'SourceSpecial', 'SourceDirected'])
classes = set(re.findall(r'^def Sourced\.(\w+) : Sourced', cat, re.M))

done, skipped = {}, []


def field(v, x):
    return re.sub(r'\bx\.', x + '.', v)


def length(v):
    """the length of the value, and the lemma"""
    m = re.fullmatch(r'\.list \((x\.[\w«»]+)\.map .*\)', v)
    if m:
        return m.group(1) + '.length', 'gives_len_map'
    m = re.fullmatch(r'\.bytes (x\.[\w«»]+)', v)
    if m:
        return m.group(1) + '.length', 'gives_len_bytes'


SELF = '(gives_attr (gives_name rfl) (by decide +kernel) rfl)'


def derive(c, p):
    """(value, proof of Gives, level)"""
    b = src[c, p]
    m = re.fullmatch(r'\[\.ret \(\.call I\.len \[\.attr \(\.name I\.self\) I\.(\w+)\] \[\]\)\]', b)
    if m and m.group(1) in own.get(c, {}):
        r = length(own[c][m.group(1)])
        if r:
            return f'.int {r[0]}', f'{r[1]} {SELF}', 0
    m = re.fullmatch(r'\[\.ret \(\.bin \.mul \(\.call I\.len \[\.attr \(\.name I\.self\) I\.(\w+)\] \[\]\) \(\.int (\d+)\)\)\]', b)
    if m and m.group(1) in own.get(c, {}):
        r = length(own[c][m.group(1)])
        if r:
            return f'.int ({r[0]} * {m.group(2)})', f'gives_bin ({r[1]} {SELF}) gives_int fun _ => rfl', 0
    m = re.fullmatch(r'\[\.ret \(\.attr \(\.attr \(\.name I\.self\) I\.(\w+)\) I\.([\w«»]+)\)\]', b)
    if m and m.group(1) in own.get(c, {}):
        t = re.fullmatch(r'(\w+)\.enc (x\.\w+)', own[c][m.group(1)])
        if t:
            d, x, g = t.group(1), t.group(2), m.group(2)
            if (d, g) in src:
                r = derive(d, g)
                if r:
                    return (field(r[0], x),
                            f'gives_property {SELF} (by decide +kernel) ({d}.{g}_value (n := n + {6 - r[2]}) {x})', r[2] + 1)
            elif g in own.get(d, {}):
                return field(own[d][g], x), f'gives_attr {SELF} (by decide +kernel) rfl', 0


groups = {}
for c, p in order:
    r = derive(c, p) if c in classes else None
    if r:
        done[c, p] = r
    else:
        skipped.append((c, p, src[c, p]))
key = sorted(done, key=lambda k: done[k][2])

spec = '''import Verif.Spec.SourceCatalog
import Verif.Spec.SourceSpecial
import Verif.Spec.SourceDirected

/-!
# The derived attributes of the objects, written by tools/gensourceprop.py (C80)

A derived attribute is a method under `@property`: reading it calls the method. Its value is given here in the fields of the
model's object.
-/

namespace Dis.Src

/-- A derived attribute of a class of the catalogue. -/
structure Derived where
  /-- the class -/
  cls : Sourced
  /-- the name of the attribute (e.g. /repo/opendis/dis7.py:4500) -/
  name : Ident
  /-- its value, in the fields of the model's object -/
  value : cls.entry.codec.Obj → Val

namespace Derived

'''
for c, p in order:
    if (c, p) in done:
        spec += f'''/-- `{c}.{p}` ({lines[c, p]}). -/
def {c}.{p} : Derived where
  cls := .{c}
  name := I.{p}
  value := fun (x : Dis.{c}) => {done[c, p][0]}

'''
spec += 'end Derived\n\n/-- The derived attributes of the classes of the catalogue (/repo/opendis/dis7.py). -/\ndef derived : List Derived :=\n   ['
spec += ',\n    '.join(f'Derived.{c}.{p}' for c, p in order if (c, p) in done) + ']\n\nend Dis.Src\n'
open(B + 'Spec/SourceDerived.lean', 'w').write(spec)

out = '''import Verif.Spec.SourceDerived
import Verif.Proof.Source8
import Verif.Source.EncodeHand

/-!
# The derived attributes of the objects have their values, written by tools/gensourceprop.py (C80)
-/

namespace Dis.Src

/-- The attribute is a property, and reading it gives its value and leaves the object and the streams as they are. -/
structure Derived.Lawful (d : Derived) : Prop where
  prop : isProperty program d.cls.cls d.name = true
  reads : ∀ (n : Nat) (x : d.cls.entry.codec.Obj) (io : Streams),
    run (n + 8) d.cls.cls d.name (.obj d.cls.cls (d.cls.fields x)) [] [] io
      = (.ok (d.value x), .obj d.cls.cls (d.cls.fields x), io)

'''
for c, p in key:
    v, pf, l = done[c, p]
    out += f'''theorem {c}.{p}_value {{n : Nat}} (x : Dis.{c}) (io : Streams) :
    run (n + {l + 1 if l == 0 else 8}) I.{c} I.{p} ({c}.enc x) [] [] io = (.ok ({v}), {c}.enc x, io) :=
  property_of (n := n + {l if l == 0 else 7}) (d := I.{c}) (f := {c}.{p}) rfl rfl rfl
    ({pf}) io

'''
for c, p in order:
    if (c, p) in done:
        l = done[c, p][2]
        out += f'''theorem Derived.{c}.{p}.lawful : Derived.{c}.{p}.Lawful where
  prop := by decide +kernel
  reads := fun n x io => {c}.{p}_value (n := n{' + 7' if l == 0 else ''}) x io

'''
out += 'theorem derived_lawful : ∀ d ∈ derived, d.Lawful := by\n  intro d hd\n  unfold derived at hd\n  simp only [List.mem_cons, List.not_mem_nil, or_false] at hd\n  rcases hd with '
out += ' | '.join('rfl' for k in done) + '\n'
for c, p in order:
    if (c, p) in done:
        out += f'  · exact Derived.{c}.{p}.lawful\n'
out += '\nend Dis.Src\n'
open(B + 'Proof/SourceDerived1.lean', 'w').write(out)
print(len(done), 'derived attributes')
for s in skipped:
    print('skipped', *s)
