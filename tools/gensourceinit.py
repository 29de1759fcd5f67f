"""Writes lean/Verif/Spec/SourceInit.lean and lean/Verif/Proof/SourceInit<k>.lean: the constructors with their arguments,
and the comparison of their syntax trees with the model (C77).

  python3 tools/gensourceinit.py        (run in /verif)"""
import glob
import re

B = 'lean/Verif/'
HAND = ['AngularVelocityVector', 'LinearObjectStatePdu', 'AttributePdu']
num = {k: int(v) for k, v in re.findall(r'^abbrev ([\w«»]+) : Ident := (\d+)', open(B + 'Source/Names.lean').read(), re.M)}

src, lines = {}, {}
for k in ['Dis1', 'Dis2', 'Dis3', 'Dis4', 'Records']:
    s = open(B + f'Source/{k}.lean').read()
    for m in re.finditer(r'^/-- `[\w.]+`, (/repo/[\w./]+:[0-9-]+)[^\n]*? -/\ndef ([\w«»]+)\.__init__ : Method where\n(.*?)(?=\n\n)', s, re.M | re.S):
        b = m.group(3)
        p = re.sub(r'\s+', ' ', re.search(r'params := (.*?)\n  property', b, re.S).group(1))
        body = re.sub(r'\s+', ' ', re.search(r'body :=\s*(.*)$', b, re.S).group(1))
        src[m.group(2)] = (re.findall(r'\(I\.([\w«»]+), (?:none|some \()', p), body)
        lines[m.group(2)] = m.group(1)

init = {}
for f in sorted(glob.glob(B + 'Model/*.lean')):
    if 'Heap' in f:
        continue
    s = open(f).read()
    for m in re.finditer(r'^def (\w+)\.init\b', s, re.M):
        i, d, ps, cur = m.end(), 0, [], ''
        while not (d == 0 and s[i] == ':'):
            ch = s[i]
            d += {'(': 1, ')': -1}.get(ch, 0)
            if ch == '(' and d == 1:
                cur = ''
            elif ch == ')' and d == 0:
                n, t = re.sub(r'\s+', ' ', cur).split(' : ', 1)
                ps += [(x, t.split(' := ')[0]) for x in n.split()]
            else:
                cur += ch
            i += 1
        init[m.group(1)] = ps

level, raw = {}, {}
for f in sorted(glob.glob(B + 'Proof/Source*.lean')):
    for c, r, k in re.findall(r'^theorem (\w+)\.makes(Raw)? \(n : Nat\) :\s+Makes \(run \(n \+ (\d+)\)\)', open(f).read(), re.M):
        level[c] = int(k)
        raw[c] = bool(r)
    for c in re.findall(r'^theorem (\w+)\.makes \(n : Nat\) :\s+Makes \(run n\)', open(f).read(), re.M):
        level[c], raw[c] = 0, False
cat = ''.join(open(B + f'Spec/{f}.lean').read() for f in ['SourceCatalog', 'SourceSpecial', 'SourceDirected'])
order = []
for k in '1234567':
    order += re.findall(r'\.(\w+)', re.search(r'^def sourced%s : .*?\n((?:   ?\[?.*\n)+)' % k, cat, re.M).group(1))
base = dict(re.findall(r'^abbrev (\w+)\.fields \(x : [\w.]+\) : List \(Ident × Val\) :=\s+(\w+)\.fields x\.to\2',
                       ''.join(open(f).read() for f in glob.glob(B + 'Source/Encode*.lean')), re.M))


raw['DEFireFlags'] = True  # False for 0


def passed(t, a):
    return f'(some {a})' if given(t) else f'({a}.getD [])' if t.startswith('left ') else a


class Skip(Exception):
    pass


def given(t):
    """Arguments whose default is not an object of the model have to be given."""
    return t.startswith('Option ') and raw.get(t[7:], False)


def typ(t):
    if t.startswith('left '):
        return f'Option ({typ(t[5:])})'
    if given(t):
        return 'Dis.' + t[7:]
    return re.sub(r'\b([A-Z]\w+)\b', lambda m: m.group(1) if m.group(1) in ('Option', 'List', 'Int', 'F64', 'Bool') else 'Dis.' + m.group(1), t)


OWN = {'Option ModulationParametersRecord': 'modVal', 'Option AntennaPatternRecord': 'antVal', 'IntercomParametersValue': 'paramsVal'}


def left(c, x, t):
    """A list that may be left out is optional."""
    x = x.lstrip('_')
    return t.startswith('List ') and re.search(r'\.(or|ite) \(\.name I\.«?%s»?\) \(\.(list|bin|call I\.list)' % x, src[c][1])


def val(t, a):
    if t in ('Int', 'F64', 'Bool'):
        return {'Int': '.int', 'F64': '.float', 'Bool': '.bool'}[t] + ' ' + a
    if given(t):
        return f'{t[7:]}.enc {a}'
    if t in OWN:
        return OWN[t] + ' ' + a
    if t.startswith('left '):
        enc = re.search(r'\(\w+\.map ([\w.]+)\)', val(t[5:], 'a')).group(1)
        return f'listArg {enc} {a}'
    m = re.fullmatch(r'(Option|List) (\w+)', t)
    if not m:
        raise Skip(t)
    enc = {'Int': 'Val.int', 'F64': 'Val.float', 'SVRecord': 'svEnc'}.get(m.group(2), m.group(2) + '.enc')
    if enc.endswith('.enc') and m.group(2) not in order:
        raise Skip(t)
    return f'optArg {enc} {a}' if m.group(1) == 'Option' else f'.list ({a}.map {enc})'


def split(body):
    """The statements of a body, at its outermost commas."""
    out, d, cur = [], 0, ''
    for ch in body[1:-1]:
        d += {'(': 1, '[': 1, ')': -1, ']': -1}.get(ch, 0)
        if ch == ',' and d == 0:
            out.append(cur.strip())
            cur = ''
        else:
            cur += ch
    return out + [cur.strip()]


def at(k, lv):
    if lv > k - 1:
        raise Skip(f'level {lv} in {k}')
    return f'n + {k - 1 - lv}'


def gives(e, c, k):
    if m := re.fullmatch(r'\(\.name I\.[\w«»]+\)', e):
        return 'gives_name rfl'
    if m := re.fullmatch(r'\(\.int -?\d+\)', e):
        return 'gives_int'
    if m := re.fullmatch(r'\.none', e):
        return 'gives_none'
    if m := re.fullmatch(r'\(\.or \(\.name I\.[\w«»]+\) \(\.call I\.(\w+) \[\] \[\]\)\)', e):
        T = m.group(1)
        if raw[T]:
            return 'gives_or_given rfl rfl'
        return f'gives_or_new rfl ({T}.makes ({at(k, level[T])})) (fun _ => rfl)'
    if m := re.fullmatch(r'\(\.ite \(\.name I\.([\w«»]+)\) \(\.call I\.list \[\.name I\.\1\] \[\]\) \(\.list \[\]\)\)', e):
        return 'gives_list_copy rfl'
    if m := re.fullmatch(r'\(\.or \(\.name I\.[\w«»]+\) \(\.list \[\]\)\)', e):
        return 'gives_or_nil rfl'
    if m := re.fullmatch(r'\(\.or \(\.name I\.[\w«»]+\) \(\.bin \.mul \(\.list \[\.int 0\]\) \(\.int \d+\)\)\)', e):
        return 'gives_or_zeros rfl'
    if m := re.fullmatch(r'\(\.bin \.mul \(\.list \[\.int 0\]\) \(\.int \d+\)\)', e):
        return 'gives_zeros'
    if m := re.fullmatch(r'\(\.bin \.bitand \(\.name I\.[\w«»]+\) \(\.int 1\)\)', e):
        return 'gives_bin (gives_name rfl) gives_int fun _ => rfl'
    if m := re.fullmatch(r'\(\.call I\.(\w+) \[\.or \(\.name I\.[\w«»]+\) \(\.list \[\]\), \.or \(\.name I\.[\w«»]+\) \(\.list \[\]\)\] \[\]\)', e):
        T = m.group(1)
        return f'gives_make ({T}.makesOf ({at(k, level[T])}) (some _) (some _)) (fun _ hst => args_two (gives_or_nil rfl) (gives_or_nil rfl) hst) rfl rfl'
    raise Skip(e)


def prove(c):
    k = level[c]
    ps, names = init[c], src[c][0]
    if [p[0].lstrip('_') for p in ps] != names:
        raise Skip('parameters')
    if not ps:
        raise Skip('no parameters')
    args = [f'a{i}' for i in range(1, len(ps) + 1)]
    vals = [val(t, a) for (_, t), a in zip(ps, args)]
    env = [(12, 'self', f'.obj I.{c} (classAttrs program 16 I.{c})'), (13, '__class__', f'.cls I.{c}')]
    env += [(num[x], x, v) for x, v in zip(names, vals)]
    env = ', '.join(f'(I.{x}, {v})' for _, x, v in sorted(env))
    out = f'theorem {c}.makesOf (n : Nat)'
    for (_, t), a in zip(ps, args):
        out += f' ({a} : {typ(t)})'
    out += f''' :
    MakesOf (run (n + {k})) I.{c} [{', '.join(vals)}] ({c}.enc (Dis.{c}.init {' '.join(passed(t, a) for (_, t), a in zip(ps, args))})) :=
  made_with (n := n + {k - 1}) (d := I.{c}) (f := {c}.__init__) (env := [{env}])
    (by kernel_rfl) rfl rfl rfl (by kernel_rfl) (by kernel_rfl) (by kernel_rfl) (by kernel_rfl) <|
'''
    for st in split(src[c][1]):
        if m := re.fullmatch(r'\.expr \(\.super \(some I\.(\w+)\) I\.__init__ \[\] \[\]\)', st):
            b = base[c]
            out += f'    inits_super (fs1 := {b}.fields Dis.{c}.init.to{b}) (.inl rfl) {c}.found rfl (fun _ => by kernel_rfl) <|\n'
        elif m := re.fullmatch(r'\.assign \(\.attr \(\.name I\.self\) I\.([\w«»]+)\) (.*)', st):
            out += f'    inits_set (fun _ => {gives(m.group(2), c, k)}) (by kernel_rfl) <|\n'
        else:
            raise Skip(st)
    return out + '    inits_nil (by kernel_rfl)\n\n'


def spec(c):
    ps = init[c]
    def acc(i):
        n = len(ps)
        return 'a' + '.2' * i + ('.1' if i < n - 1 else '') if n > 1 else 'a'
    vals = [val(t, acc(i)) for i, (_, t) in enumerate(ps)]
    ty = ' × '.join(f'({typ(t)})' if ' ' in t else typ(t) for _, t in ps)
    return f'''/-- `{c}(...)`, {lines[c]}. -/
def Constructor.{c} : Constructor where
  cls := .{c}
  params := {c}.__init__.params
  Args := {ty}
  values a := [{', '.join(vals)}]
  make a := (Dis.{c}.init {' '.join(passed(t, acc(i)) for i, (_, t) in enumerate(ps))} : Dis.{c})

''', ' '.join(f'{acc(i)}' for i in range(len(ps)))


RADIO = ['TransmitterPdu', 'IntercomControlPdu']
for c in order + RADIO:
    if c in init:
        init[c] = [(x, 'left ' + t if c in src and left(c, x, t) else t) for x, t in init[c]]
done, skipped, proofs = [], [], {}
for c in order:
    if c in HAND:
        continue
    try:
        proofs[c] = prove(c)
        done.append(c)
    except (Skip, KeyError) as e:
        skipped.append((c, str(e)[:100]))
print(len(done), 'skipped', skipped)
# the classes that others make come first
done.sort(key=lambda c: 0 if c in ('DatumSpecification', 'DataQueryDatumSpecification') else 1)

out = '''import Verif.Spec.SourceArgs

/-!
# The constructors with their arguments (C77)

Written by `tools/gensourceinit.py`.
-/

namespace Dis.Src

'''
for c in done:
    out += spec(c)[0]
out += f'/-- The constructors that are compared with the source, with all their arguments (/repo/opendis). -/\ndef constructors : List Constructor :=\n  ['
out += ',\n   '.join('.' + c for c in done) + ']\n\nend Dis.Src\n'
open(B + 'Spec/SourceInit.lean', 'w').write(out)

SIZE = 45
parts = [done[i:i + SIZE] for i in range(0, len(done), SIZE)]
for i, part in enumerate(parts, 1):
    out = f'''import Verif.Proof.SourceInit
import Verif.Proof.SourceRun5
import Verif.Proof.SourceHand
import Verif.Proof.SourceSpecialLaw
import Verif.Proof.SourceDirected
'''
    if i > 1:
        out += 'import Verif.Proof.SourceInit1\n'
    out += f'''
/-!
# Constructors with arguments, class by class, part {i} (C77)

Written by `tools/gensourceinit.py`.
-/

namespace Dis.Src

'''
    for c in part:
        out += proofs[c]
    out += 'end Dis.Src\n'
    open(B + f'Proof/SourceInit{i}.lean', 'w').write(out)

out = ''.join(f'import Verif.Proof.SourceInit{i}\n' for i in range(1, len(parts) + 1)) + '''import Verif.Spec.SourceInit

/-!
# The catalogue of constructors (C77)

Written by `tools/gensourceinit.py`.
-/

namespace Dis.Src

/-- The constructor does in the source what it does in the model. -/
def Constructor.Lawful (e : Constructor) : Prop :=
  method program e.cls.cls I.__init__ = some (e.cls.cls, ⟨e.params, false, (method program e.cls.cls I.__init__).elim [] (·.2.body)⟩) ∧
  (∀ (n : Nat) (a : e.Args), MakesOf (run (n + 8)) e.cls.cls (e.values a) (.obj e.cls.cls (e.cls.fields (e.make a)))) ∧
    e.cls.Lawful

'''
for c in done:
    k = level[c]
    out += f'''theorem {c}.constructor : Constructor.{c}.Lawful :=
  ⟨by kernel_rfl, fun n a => {c}.makesOf (n + {8 - k}) {spec(c)[1]}, {c}.lawful⟩

'''
out += 'theorem constructors_lawful : ∀ e ∈ constructors, e.Lawful := by\n  unfold constructors\n'
for c in done:
    out += f'  refine List.forall_mem_cons.2 ⟨{c}.constructor, ?_⟩\n'
out += '  exact fun _ h => nomatch h\n'
out += '\nend Dis.Src\n'
open(B + 'Proof/SourceInitLaw.lean', 'w').write(out)

out = '''import Verif.Proof.SourceInit
import Verif.Proof.SourceTransmitter
import Verif.Proof.SourceIntercom

/-!
# The constructors of `TransmitterPdu` and `IntercomControlPdu` with arguments (C77)

Written by `tools/gensourceinit.py`.
-/

namespace Dis.Src

'''
for c in RADIO:
    out += prove(c)
out += 'end Dis.Src\n'
open(B + 'Proof/SourceInitRadio.lean', 'w').write(out)
