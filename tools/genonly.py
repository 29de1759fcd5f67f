"""Generates lean/Verif/Proof/AnyOnly.lean: which exceptions the classes of the factory can raise while
parsing, and the size of what they re-send."""
import re, os
here = os.path.dirname(os.path.abspath(__file__))
L = os.path.join(here, '../lean/Verif')
fac = open(f'{L}/Model/Factory.lean').read()
classes = re.findall(r'^  \| (\w+)\n', re.search(r'inductive PduClass where\n(.*?)\n\n', fac, re.S).group(1) + '\n', re.M)
model = ''.join(open(f'{L}/Model/{f}').read() for f in os.listdir(f'{L}/Model'))
NAME = ['SilentEntitySystem', 'ResupplyReceivedPdu', 'UaPdu', 'IntercomSignalPdu', 'AggregateStatePdu', 'MinefieldResponseNackPdu',
        'RecordQueryReliablePdu', 'SeesPdu']
out = [open(os.path.join(here, 'hand/only_head.lean.txt')).read()]


def gen(T, errs):
    body = re.search(r'^def %s\.parse \(self : \w+\) : R \w+ := do\n(.*?)\n\n' % T, model, re.M | re.S).group(1)
    body = re.sub(r'\n      +', ' ', body)
    o = [f'theorem {T}.raises (s : {T}) : Only {errs} ({T}.parse s) := by', f'  unfold {T}.parse']
    for line in body.split('\n'):
        mm = re.match(r'  let _?(\w+) ← (.*)', line)
        if not mm:
            break
        e = mm.group(2)
        if e.startswith('read_'):
            p = f'(only_{e[5:]}.to (by decide))'
        elif (k := re.match(r'R\.times .* \(?R\.throw', e)):
            p = '((Only.throw (by decide)).times _)'
        elif 'R.throw' in e:
            p = '(Only.throw (by decide))'
        elif (k := re.match(r'R\.times .* \(?(\w+)\.parse', e)):
            E = k.group(1)
            p = f'(({E}.raises _).times _)' if E in NAME else f'((({E}.only _).to (by decide)).times _)'
        else:
            k = re.match(r'(\w+)\.parse ', e)
            p = f'(({k.group(1)}.only _).to (by decide))'
        o.append(f'  refine Only.bind {p} fun _ => ?_')
    o.append('  exact Only.pure _')
    return '\n'.join(o) + '\n'


for T in NAME:
    out.append(gen(T, '[.structError, .nameError]'))
out.append(gen('IntercomControlPdu', '[.structError, .typeError]'))
out.append(open(os.path.join(here, 'hand/only_special.lean.txt')).read())
out.append('theorem PduClass.raises : ∀ c : PduClass, Only c.exceptions c.decode')
for T in classes:
    if T == 'LinearObjectStatePdu':
        out.append(f'  | .{T} => Only.bind (fun _ _ h => by cases h; decide) fun _ => Only.bind ((Dis.{T}.only _).to (by decide)) fun _ => Only.pure _'.replace(
            f'((Dis.{T}.only _).to (by decide))', '?_') if False else f'  | .{T} => fun _ _ h => by cases h; decide')
    elif T in NAME + ['IntercomControlPdu']:
        out.append(f'  | .{T} => Only.bind (Dis.{T}.raises _) fun _ => Only.pure _')
    elif T in ('TransmitterPdu', 'EntityDamageStatusPdu', 'DirectedEnergyFirePdu'):
        out.append(f'  | .{T} => Only.bind (Dis.{T}.raises _) fun _ => Only.pure _')
    else:
        out.append(f'  | .{T} => Only.bind ((Dis.{T}.only _).to (by decide)) fun _ => Only.pure _')
out.append('\ntheorem PduClass.resend : ∀ c : PduClass, c ∉ [.TransmitterPdu, .EntityDamageStatusPdu, .DirectedEnergyFirePdu] →\n    Post c.decode (fun b p => ∀ b\', p.serialize.Emits b\' → b\'.length = b.length)')
for T in classes:
    if T in ('TransmitterPdu', 'EntityDamageStatusPdu', 'DirectedEnergyFirePdu'):
        out.append(f'  | .{T}, h => absurd (by decide) h')
    elif T == 'LinearObjectStatePdu':
        out.append(f'  | .{T}, _ => fun _ _ _ _ h => nomatch h')
    elif T == 'IntercomControlPdu':
        out.append(f'  | .{T}, _ => Post.bind (Dis.{T}.noPost (Q := fun _ _ => False)) fun _ _ h => h.elim')
    else:
        out.append(f'  | .{T}, _ => Takes.resend Dis.{T}.takes Dis.{T}.sized fun _ => rfl')
out.append('\ntheorem PduClass.header : ∀ c : PduClass, Post c.decode (fun b _ => 12 ≤ b.length)')
for T in classes:
    if T == 'LinearObjectStatePdu':
        out.append(f'  | .{T} => fun _ _ _ _ h => nomatch h')
    elif T == 'IntercomControlPdu':
        out.append(f'  | .{T} => Post.bind (Dis.{T}.noPost (Q := fun _ _ => False)) fun _ _ h => h.elim')
    else:
        sz = f'{T}.receivedSize' if T in ('TransmitterPdu', 'EntityDamageStatusPdu', 'DirectedEnergyFirePdu') else f'{T}.wireSize'
        out.append(f'  | .{T} => Post.last Dis.{T}.takes fun _ _ h => by simp only [h, Dis.{sz}]; omega')
out.append('\nend Dis\n')
open(f'{L}/Proof/AnyOnly.lean', 'w').write('\n'.join(out))
