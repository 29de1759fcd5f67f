"""Generates lean/Verif/Proof/AnyHeader.lean: what the classes of the factory decode as header is the
header at the beginning of the stream."""
import re, os
here = os.path.dirname(os.path.abspath(__file__))
L = os.path.join(here, '../lean/Verif')
fac = open(f'{L}/Model/Factory.lean').read()
classes = re.findall(r'^  \| (\w+)\n', re.search(r'inductive PduClass where\n(.*?)\n\n', fac, re.S).group(1) + '\n', re.M)
model = ''.join(open(f'{L}/Model/{f}').read() for f in sorted(os.listdir(f'{L}/Model')))
out = ['''import Verif.Proof.Factory
import Verif.Proof.InPlaceSpecial

/-!
# The header of a decoded message

Generated by `tools/genheader.py`.
-/

set_option linter.unusedVariables false

namespace Dis

/-- A successful run has a result with the property. -/
def Ends {α : Type} (φ : α → Prop) (r : R α) : Prop := ∀ s x s', r s = (.ok x, s') → φ x

theorem Ends.pure {α} {φ : α → Prop} {a : α} (h : φ a) : Ends φ (Pure.pure a : R α) := by
  intro s x s' e
  cases e
  exact h

theorem Ends.bind {α β} {φ : β → Prop} {r : R α} {k : α → R β} (h : ∀ a, Ends φ (k a)) : Ends φ (r >>= k) := by
  intro s x s' e
  obtain ⟨a, s1, -, e2⟩ := R.bind_inv e
  exact h a _ _ _ e2

/-- A successful run begins with the header of its result. -/
def Heads {α : Type} (hd : α → Pdu) (r : R α) : Prop :=
  ∀ s x s', r s = (.ok x, s') → ∃ s1, Pdu.parse { pduType := 0, protocolFamily := 0 } s = (.ok (hd x), s1)

theorem Heads.first {α β} {hd : α → Pdu} {hd' : β → Pdu} {r : R α} {k : α → R β} (h : Heads hd r)
    (hk : ∀ a, Ends (fun x => hd' x = hd a) (k a)) : Heads hd' (r >>= k) := by
  intro s x s' e
  obtain ⟨a, s1, e1, e2⟩ := R.bind_inv e
  obtain ⟨s2, h2⟩ := h _ _ _ e1
  exact ⟨s2, by rw [hk a _ _ _ e2, h2]⟩

theorem Pdu.heads (o : Pdu) : Heads id (Pdu.parse o) := fun s x s' e =>
  ⟨s', by rw [Pdu.again (o := o) (x := { pduType := 0, protocolFamily := 0 }) trivial, e]; rfl⟩
''']
done = {'Pdu'}


def gen(T):
    if T in done:
        return
    done.add(T)
    body = re.search(r'^def %s\.parse \(self : \w+\) : R \w+ := do\n(.*?)\n\n' % T, model, re.M | re.S).group(1)
    body = re.sub(r'\n    +', ' ', body)
    steps = [l for l in body.split('\n') if '←' in l]
    m = re.match(r'  let base ← (\w+)\.parse self\.to\w+', steps[0])
    B = m.group(1)
    gen(B)
    out.append(f'theorem {T}.heads (o : {T}) : Heads (·.toPdu) ({T}.parse o) := by\n  unfold {T}.parse\n  refine Heads.first ({B}.heads _) fun _ => ?_')
    if len(steps) > 1:
        out[-1] += f'\n  iterate {len(steps) - 1} refine Ends.bind fun _ => ?_'
    out[-1] += '\n  exact Ends.pure rfl\n'


for T in classes:
    gen(T)
out.append('theorem PduClass.heads : ∀ c : PduClass, Heads (·.toPdu) c.decode')
for T in classes:
    if T == 'LinearObjectStatePdu':
        out.append(f'  | .{T} => fun _ _ _ h => nomatch h')
    else:
        out.append(f'  | .{T} => Heads.first (Dis.{T}.heads _) fun _ => Ends.pure rfl')
out.append('\nend Dis\n')
open(f'{L}/Proof/AnyHeader.lean', 'w').write('\n'.join(out))
