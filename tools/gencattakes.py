"""Generates lean/Verif/Proof/CatalogTakes.lean: bytes consumed and counted elements for every class of
the catalogue, and lean/Verif/Proof/AnyTakes.lean: the same for the classes of the factory."""
import re, os
here = os.path.dirname(os.path.abspath(__file__))
L = os.path.join(here, '../lean/Verif')
cat = open(f'{L}/Spec/Catalog.lean').read()
spec = ''.join(open(f'{L}/Spec/{f}').read() for f in os.listdir(f'{L}/Spec'))
sizes = {m.group(1): m.group(2) for m in re.finditer(r'^def (\w+)\.(?:wireSize|receivedSize) \(_?o : \w+\) : Nat :=\s(.*?)\n\n', spec, re.M | re.S)}
takes = open(f'{L}/Proof/Takes.lean').read()
EXC = {'DirectedEnergyFirePdu', 'EntityDamageStatusPdu'}
ARG = {'BeamAntennaPattern': ' (some 40)', 'BasicHaveQuickMP': ' none', 'CCTTSincgarsMP': ' none', 'NetId': ' Dis.NetId.init', 'DEFireFlags': ' Dis.DEFireFlags.init'}
out = ['''import Verif.Proof.TakesSpecial
import Verif.Proof.Catalog

/-!
# Bytes consumed by every class of the catalogue

Generated by `tools/gencattakes.py`.
-/

set_option linter.unusedVariables false
set_option linter.unusedSimpArgs false

namespace Dis

theorem len_le_sum {α} (f : α → Nat) (h : ∀ x, 1 ≤ f x) (l : List α) : l.length ≤ (l.map f).sum := by
  induction l with
  | nil => exact Nat.le_refl _
  | cons x xs ih => have := h x; simp only [List.length_cons, List.map_cons, List.sum_cons]; omega

/-- A parse by `c` that succeeds consumed `m` bytes, at least one for each counted element. -/
structure Codec.Taken (c : Codec) (m : c.Obj → Nat) : Prop where
  takes : Takes (c.parse c.fresh) m
  counted : Post (c.parse c.fresh) fun _ o => (c.counts.map fun f => f.len o).sum ≤ m o
''']
lists = re.findall(r'^def (catalog\w+) : List Codec :=\n  \[(.*?)\]\n', cat, re.M | re.S)
for nm, body in lists:
    ts = re.findall(r'\.(\w+)', body)
    for T in ts:
        d = re.search(r'^def Codec\.%s : Codec where\n(.*?)\n\n' % T, cat, re.M | re.S).group(1)
        size = re.search(r'  size := (.*)', d).group(1)
        m = f'Dis.{T}.receivedSize' if T in EXC else f'Codec.{T}.size'
        o = [f'theorem Codec.{T}.taken : Codec.{T}.Taken ({m}) where', f'  takes := Dis.{T}.takes{ARG.get(T, "")}']
        if 'counts' not in d:
            o.append(f'  counted := (Dis.{T}.takes{ARG.get(T, "")}).mono fun _ _ _ => Nat.zero_le _')
        else:
            h = []
            for k, (fld, e) in enumerate(re.findall(r'\(o\.([\w.]+)\.map (\w+)\.wireSize\)\.sum', sizes[T])):
                h.append(f'    have h{k} := len_le_sum _ (fun x => by unfold Dis.{e}.wireSize; omega : ∀ x : Dis.{e}, 1 ≤ x.wireSize) o.{fld}')
            if 'contentsSize' in sizes[T]:
                fld = re.search(r'o\.(\w+)\.map', sizes[T]).group(1)
                h.append(f'    have h0 := len_le_sum _ (fun x => by omega : ∀ x : SVRecord, 1 ≤ 6 + x.contentsSize) o.{fld}')
            e = "theorem " + T + ".takes'" in takes
            o.append(f'  counted := (Dis.{T}.takes{chr(39) if e else ARG.get(T, "")}).mono fun b (o : Dis.{T}) he => by')
            if e:
                o.append('    replace he := he.2')
            o += h
            o.append(f'    simp only [Codec.{T}, List.map_cons, List.map_nil, List.sum_cons, List.sum_nil, {m if T in EXC else "Dis." + T + ".wireSize"}{", he" if e else ""}]')
            o.append('    try simp only [List.length_nil]\n    omega')
        out.append('\n'.join(o) + '\n')
    out.append(f'theorem {nm}_taken : ∀ c ∈ {nm}, ∃ m, c.Taken m ∧ (c.name ∉ ["DirectedEnergyFirePdu", "EntityDamageStatusPdu"] → m = c.size) := by\n'
               f'  intro c hc\n  simp only [{nm}, List.mem_cons, List.not_mem_nil, or_false] at hc\n  rcases hc with ' + ' | '.join(['rfl'] * len(ts)) + '\n' +
               '\n'.join(f'  · exact ⟨_, Codec.{T}.taken, fun h => absurd (by decide) h⟩' if T in EXC else f'  · exact ⟨_, Codec.{T}.taken, fun _ => rfl⟩' for T in ts) + '\n')
out.append('theorem catalog_taken : ∀ c ∈ catalog, ∃ m, c.Taken m ∧ (c.name ∉ ["DirectedEnergyFirePdu", "EntityDamageStatusPdu"] → m = c.size) := by\n'
           '  intro c hc\n  simp only [catalog, List.mem_append] at hc\n'
           '  rcases hc with (((((((((((((h | h) | h) | h) | h) | h) | h) | h) | h) | h) | h) | h) | h) | h)\n' +
           '\n'.join(f'  · exact {nm}_taken c h' for nm, _ in lists) + '\n\nend Dis\n')
open(f'{L}/Proof/CatalogTakes.lean', 'w').write('\n'.join(out))
