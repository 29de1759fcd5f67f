"""Generates lean/Verif/Proof/Takes.lean: for every class, the bytes a successful parse consumed are
those of the resulting object's wire size."""
import re, os
here = os.path.dirname(os.path.abspath(__file__))
L = os.path.join(here, '../lean/Verif')
W = {'boolean': 1, 'byte': 1, 'unsigned_byte': 1, 'int8': 1, 'uint8': 1, 'short': 2, 'unsigned_short': 2,
     'int16': 2, 'uint16': 2, 'int': 4, 'unsigned_int': 4, 'int32': 4, 'uint32': 4, 'long': 8, 'int64': 8,
     'uint64': 8, 'float': 4, 'float32': 4, 'double': 8, 'float64': 8}
spec = ''.join(open(f'{L}/Spec/{f}').read() for f in os.listdir(f'{L}/Spec'))
sizes = {m.group(1): m.group(2) for m in re.finditer(r'^def (\w+)\.wireSize \(_?o : \w+\) : Nat :=\s(.*?)\n\n', spec, re.M | re.S)}
skip = {'LinearObjectStatePdu', 'AttributePdu'}
hand = {'VariableDatum': '''theorem VariableDatum.takes : Takes (VariableDatum.parse VariableDatum.init) VariableDatum.wireSize := by
  unfold VariableDatum.parse
  refine Post.bind post_unsigned_int fun a0 b0 h0 => ?_
  refine Post.bind post_unsigned_int fun a1 b1 h1 => ?_
  refine Post.bind (Takes.times_const len_unsigned_byte (fun _ => rfl) _) fun a2 b2 h2 => ?_
  refine Post.bind (Takes.times_const len_unsigned_byte (fun _ => rfl) _) fun a3 b3 h3 => ?_
  refine Post.pure _ ?_
  have e0 := sized_unsigned_int _ _ h0.2
  have e1 := sized_unsigned_int _ _ h1.2
  have e2 := h2.1
  have e3 := h3.1
  rw [h2.2] at e2
  rw [h3.2, VariableDatum.padding_eq] at e3
  dsimp only at e3
  simp only [List.length_append, List.length_nil, VariableDatum.wireSize]
  omega''',
        'BeamStatus': '''theorem BeamStatus.takes : Takes (BeamStatus.parse BeamStatus.init) BeamStatus.wireSize := by
  unfold BeamStatus.parse
  exact Post.last len_unsigned_byte fun _ _ h => h'''}
abstract = set()
done = set()
out = []
models = ['Common'] + [f'Records{i}' for i in range(1, 6)] + [f'Pdus{i}' for i in range(1, 6)]
for f in models:
    s = open(f'{L}/Model/{f}.lean').read()
    inits = set(re.findall(r'^def (\w+)\.init\b', s, re.M))
    for m in re.finditer(r'^def (\w+)\.parse \((_?self) : \w+\) : R \w+ := do\n(.*?)\n\n', s, re.M | re.S):
        T, _, body = m.groups()
        if T in skip:
            continue
        if T in hand:
            out.append(hand[T])
            continue
        if T not in sizes:
            print('no size', T)
            continue
        ab = T not in inits
        if ab:
            abstract.add(T)
        steps = []
        exprs = []
        empt = []
        ok = True
        body = re.sub(r'\n      +', ' ', body)
        for line in body.split('\n'):
            mm = re.match(r'  let (\w+) ← (.*)', line)
            if not mm:
                if line.startswith('  return'):
                    break
                print('??', T, line); ok = False
                continue
            e = mm.group(2)
            exprs.append(e)
            if 'R.throw' in e:
                empt.append(mm.group(1))
            if e.startswith('read_'):
                steps.append(('len_' + e[5:], 'c'))
            elif (k := re.match(r'(\w+)\.parse self\.to(\w+)', e)):
                steps.append((f'({k.group(1)}.takes _)', 'c') if k.group(1) in abstract else (f'{k.group(1)}.takes', 'c'))
            elif (k := re.match(r'(\w+)\.parse ', e)):
                steps.append((f'{k.group(1)}.takes', 'c'))
            elif (k := re.match(r'R\.times .* \(?(\w+)\.parse', e)):
                E = k.group(1)
                if sizes[E].strip().isdigit():
                    steps.append((f'(Takes.times_const {E}.takes (fun _ => rfl) _)', 't'))
                else:
                    steps.append((f'(Takes.times {E}.takes _)', 't'))
            elif (k := re.match(r'R\.times .* read_(\w+)', e)):
                steps.append((f'(Takes.times_const len_{k.group(1)} (fun _ => rfl) _)', 't'))
            elif 'R.throw' in e:
                steps.append(('(Post.times_throw _ _)', 'x'))
            else:
                print('??', T, e); ok = False
        if not ok:
            continue
        arg = f' (s : {T})' if ab else ''
        ini = 's' if ab else f'{T}.init'
        o = [f'theorem {T}.takes{arg} : Takes ({T}.parse {ini}) {T}.wireSize := by', f'  unfold {T}.parse']
        if empt:
            o[0] = f'theorem {T}.takes\'{arg} : Post ({T}.parse {ini})\n    (fun b o => b.length = {T}.wireSize o ∧ ' + ' ∧ '.join(f'o.{x} = []' for x in empt) + ') := by'
        for i, (p, k) in enumerate(steps):
            o.append(f'  refine Post.bind {p} fun a{i} b{i} h{i} => ?_')
        o.append('  refine Post.pure _ ' + '?_')
        for i, (p, k) in enumerate(steps):
            if k == 'x':
                o.append(f'  obtain ⟨-, rfl, rfl⟩ := h{i}')
        if empt:
            o.append('  refine ⟨?_, ' + ', '.join('?_' for _ in empt) + '⟩')
        hs = ', '.join((f'h{i}' if k == 'c' else f'h{i}.1') for i, (p, k) in enumerate(steps) if k != 'x')
        comp = [T] + sorted({k.group(1) for p, q in steps if q == 'c' and (k := re.match(r'\(?(\w+)\.takes', p))})
        ws = ', '.join(f'{c}.wireSize' for c in comp)
        o.append(f'  {"all_goals " if empt else ""}simp only [List.length_append, List.length_nil, {"" if ab else T + ".init, List.nil_append, "}{hs + ", " if hs else ""}{ws}]')
        cl = [f'h{i}' for i, (p, k) in enumerate(steps) if k == 'c' or k == 't' and not re.search(r'R\.times \d', exprs[i])]
        if cl:
            o.append('  all_goals clear ' + ' '.join(cl))
        o.append('  all_goals first | rfl | omega' if empt else '  all_goals omega')
        if empt:
            o.append(f'\ntheorem {T}.takes{arg} : Takes ({T}.parse {ini}) {T}.wireSize :=\n  {T}.takes\'.mono fun _ _ h => h.1')
        out.append('\n'.join(o))
        done.add(T)
print(len(out), sorted(set(sizes) - done))
head = open(os.path.join(here, 'hand/takes_head.lean.txt')).read()
open(f'{L}/Proof/Takes.lean', 'w').write(head + '\n' + '\n\n'.join(out) + '\n\nend Dis\n')
