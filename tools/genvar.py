"""Writes lean/Verif/Spec/Variable.lean and lean/Verif/Proof/Variable.lean: specification and proofs
for the fixed-layout records of opendis/record/radio and opendis/record/warfare, from the table below.

A row is (class, citation, parse argument, lead lemma, writer, lossy, fields). The fields are in wire
order; a field is (kind, name) or ('sub', name, class).
"""
import os
OUT = os.path.join(os.path.dirname(os.path.abspath(__file__)), '..', 'lean', 'Verif')
W = {'uint8': ('U8', 1), 'uint16': ('U16', 2), 'uint32': ('U32', 4), 'float32': ('F32Fits', 4)}
SIZE = {'EulerAngles': 12, 'SpreadSpectrum': 2, 'NetId': 2, 'EntityIdentifier': 6, 'Vector3Float': 12,
        'EventIdentifier': 6, 'WorldCoordinates': 24}
R = '/repo/opendis/record/radio/__init__.py'
F = '/repo/opendis/record/warfare/__init__.py'
VR = ('(bl : Option Int)', 'bl', '(hbl : ∀ n, bl = some n → 0 ≤ n)', 'VariableRecord.parse_reads hbl', 'VariableRecord.parse_loc bl')
SV = ('(bl : Int)', 'bl', '(hbl : 0 ≤ bl ∧ bl % 8 = 0)', 'StandardVariableRecord.parse_reads hbl', 'StandardVariableRecord.parse_loc bl')
NO = None
u8, u16, u32, f32 = (lambda *ns, k=k: [(k, n) for n in ns] for k in ('uint8', 'uint16', 'uint32', 'float32'))
sub = lambda n, t: [('sub', n, t)]
CLASSES = [
 ('BeamAntennaPattern', R + ':137-164', VR, 'serialize', False,
  sub('beamDirection', 'EulerAngles') + f32('azimuthBeamwidth', 'elevationBeamwidth')
  + u8('referenceSystem', 'padding1') + u16('padding2') + f32('ez', 'ex', 'phase') + u32('padding3')),
 ('ModulationType', R + ':243-253', NO, 'serialize', True,
  sub('spreadSpectrum', 'SpreadSpectrum') + u16('majorModulation', 'detail', 'radioSystem')),
 ('BasicHaveQuickMP', R + ':379-400', VR, 'serialize', False,
  sub('net_id', 'NetId') + u16('mwod_index', 'reserved16') + u8('reserved8_1', 'reserved8_2')
  + u32('time_of_day', 'padding')),
 ('CCTTSincgarsMP', R + ':426-449', VR, 'serialize', False,
  u16('fh_net_id', 'hop_set_id', 'lockout_set_id') + u8('start_of_message', 'clear_channel')
  + u32('fh_sync_time_offset') + u16('transmission_security_key', 'padding')),
 ('HighFidelityHAVEQUICKRadio', R + ':481-510', SV, 'body', False,
  u16('padding1') + sub('netId', 'NetId') + u8('todTransmitIndicator', 'padding2')
  + u32('todDelta', 'wod1', 'wod2', 'wod3', 'wod4', 'wod5', 'wod6')),
 ('DirectedEnergyDamage', F + ':75-104', SV, 'body', False,
  u16('padding') + sub('damageLocation', 'Vector3Float') + f32('damageDiameter', 'temperature')
  + u8('componentIdentification', 'componentDamageStatus', 'componentVisualDamageStatus',
       'componentVisualSmokeColor') + sub('fireEventID', 'EventIdentifier') + u16('padding2')),
 ('DirectedEnergyTargetEnergyDeposition', F + ':270-280', NO, 'serialize', False,
  sub('targetEntityID', 'EntityIdentifier') + u16('padding') + f32('peakIrradiance')),
 ('DirectedEnergyPrecisionAimpoint', F + ':210-248', SV, 'body', False,
  u16('padding') + sub('targetSpotLocation', 'WorldCoordinates')
  + sub('targetSpotEntityLocation', 'Vector3Float') + sub('targetSpotVelocity', 'Vector3Float')
  + sub('targetSpotAcceleration', 'Vector3Float') + sub('targetEntityID', 'EntityIdentifier')
  + u8('targetComponentID', 'beamSpotType')
  + f32('beamSpotCrossSectionSemiMajorAxis', 'beamSpotCrossSectionSemiMinorAxis',
        'beamSpotCrossSectionOrientationAngle', 'peakIrradiance') + u32('padding2')),
]


def conj(ps):
    return ' ∧\n  '.join(ps) if ps else 'True'


def tup(ts):
    return 'trivial' if not ts else ts[0] if len(ts) == 1 else '⟨' + ', '.join(ts) + '⟩'


def spec(c):
    T, cite, arg, wr, lossy, fs = c
    o = []
    if wr == 'body':
        o.append(f'/-- The part of the record after type and length, in the layout its `parse` expects ({cite}). -/\n'
                 f'def {T}.body (o : {T}) : W Unit := do\n'
                 + ''.join(f'  {f[2]}.serialize o.{f[1]}\n' if f[0] == 'sub' else f'  write_{f[0]} o.{f[1]}\n' for f in fs))
    after = ',\n'.join(f'    {f[1]} := ' + (f'{f[2]}.after s.{f[1]} o.{f[1]}' if f[0] == 'sub' else
                       f'quant o.{f[1]}' if f[0] == 'float32' else f'o.{f[1]}') for f in fs)
    o.append(f'/-- The object `s` after it parsed what `o` serialized ({cite}). -/\n'
             f'def {T}.after (s o : {T}) : {T} :=\n  {{\n{after} }}\n')
    o.append(f'/-- Every field of `o` fits its wire type ({cite}). -/\n'
             f'def {T}.WireOk (o : {T}) : Prop :=\n  '
             + conj([f'{f[2]}.WireOk o.{f[1]}' if f[0] == 'sub' else f'{W[f[0]][0]} o.{f[1]}' for f in fs]) + '\n')
    o.append(f'/-- `o` is in the form a fresh `{T}` takes after parsing ({cite}). -/\n'
             f'def {T}.Canon (o : {T}) : Prop :=\n  '
             + conj([f'{f[2]}.Canon o.{f[1]}' if f[0] == 'sub' else f'quant o.{f[1]} = o.{f[1]}'
                     for f in fs if f[0] in ('sub', 'float32')]) + '\n')
    o.append(f'/-- No single-precision field of `o` is a NaN ({cite}). -/\n'
             f'def {T}.NoNaN (o : {T}) : Prop :=\n  '
             + conj([f'{f[2]}.NoNaN o.{f[1]}' if f[0] == 'sub' else f'¬ o.{f[1]}.isNaN'
                     for f in fs if f[0] in ('sub', 'float32')]) + '\n')
    n = sum(SIZE[f[2]] if f[0] == 'sub' else W[f[0]][1] for f in fs)
    what = '`serialize` writes' if wr == 'serialize' else 'follow type and length'
    o.append(f'/-- Number of bytes that {what} ({cite}). -/\n'
             f'def {T}.wireSize (_o : {T}) : Nat := {n}\n')
    return '\n'.join(o)


def proof(c):
    T, cite, arg, wr, lossy, fs = c
    a, an, hyp, lr, ll = arg if arg else ('', '', '', '', '')
    an = ' ' + an if an else ''
    sp = lambda x: ' ' + x if x else ''
    o = []
    steps = [f'{f[2]}.rt s.{f[1]} o.{f[1]}' if f[0] == 'sub' else f'rt_{f[0]} o.{f[1]}' for f in fs]
    body = ' <|\n    '.join([f'RT.bind ({x})' for x in steps[:-1]] + [f'RT.last ({steps[-1]})'])
    if lr:
        body = f'RT.silent ({lr}) <|\n    ' + body
    o.append(f'theorem {T}.rt{sp(a)}{sp(hyp)} (s o : {T}) :\n    RT ({T}.{wr} o) ({T}.parse s{an}) ({T}.after s o) := by\n'
             f'  unfold {T}.{wr} {T}.parse\n  exact {body}\n')
    steps = [f'{f[2]}.loc _' if f[0] == 'sub' else f'loc_{f[0]}' for f in fs]
    body = ' fun _ =>\n    '.join(([f'Local.bind ({ll})'] if ll else []) + [f'Local.bind ({x})' for x in steps] + ['Local.pure _'])
    o.append(f'theorem {T}.loc{sp(a)} (s : {T}) : Local ({T}.parse s{an}) := by\n  unfold {T}.parse\n  exact {body}\n')
    steps = [f'{f[2]}.sized o.{f[1]}' if f[0] == 'sub' else f'sized_{f[0]} o.{f[1]}' for f in fs]
    body = ' <|\n    '.join([f'Sized.bind ({x})' for x in steps[:-1]] + [steps[-1]])
    subs = sorted({f'{f[2]}.wireSize' for f in fs if f[0] == 'sub'})
    o.append(f'theorem {T}.sized (o : {T}) : Sized ({T}.{wr} o) ({T}.wireSize o) := by\n  unfold {T}.{wr}\n'
             f'  refine Sized.of_eq ({body}) ?_\n  simp only [{", ".join([T + ".wireSize"] + subs)}]; try omega\n')
    steps = [f'{f[2]}.ok_iff o.{f[1]}' if f[0] == 'sub' else f'ok_{f[0]}' for f in fs]
    body = ' <|\n    '.join([f'ok_bind_iff ({x})' for x in steps[:-1]] + [steps[-1]])
    o.append(f'theorem {T}.ok_iff (o : {T}) : ({T}.{wr} o).Ok ↔ {T}.WireOk o := by\n'
             f'  unfold {T}.{wr} {T}.WireOk\n  exact {body}\n')
    cs = [f for f in fs if f[0] in ('sub', 'float32')]
    nm = {f[1]: f'c{i}' for i, f in enumerate(cs)}
    parts = [f'{f[2]}.after_canon {nm[f[1]]}' if f[0] == 'sub' else nm[f[1]] if f[0] == 'float32' else 'rfl' for f in fs]
    ob = '' if not cs else f'  obtain {tup(list(nm.values()))} := h\n' if len(cs) > 1 else '  have c0 := h\n'
    o.append(f'theorem {T}.after_canon {{o : {T}}} (h : {T}.Canon o) : {T}.after {T}.init o = o := by\n'
             f'{ob}  cases o\n  exact ({T}.mk.injEq ..).mpr ⟨{", ".join(parts)}⟩\n')
    steps = [f'{f[2]}.post' if f[0] == 'sub' else f'post_{f[0]}' for f in fs]
    lines = []
    if ll:
        lines.append(f'  refine Post.skip ({ll.replace("_loc", "_silent")}) ?_')
    for i, x in enumerate(steps):
        lines.append(f'  refine Post.{"bind" if i < len(fs) - 1 else "last"} ({x}) fun a{i} b{i} h{i} => ?_')
    ok = [f'h{i}.1.1' if f[0] in ('sub', 'float32') else f'h{i}.1' for i, f in enumerate(fs)]
    if lossy:
        ok = [f'h{i}.1' for i, f in enumerate(fs)]
        can = [f'h{i}.2' for i, f in enumerate(fs) if f[0] == 'sub']
        o.append(f'theorem {T}.post : Post ({T}.parse {T}.init) (fun _ o => {T}.WireOk o ∧ {T}.Canon o) := by\n'
                 f'  unfold {T}.parse\n' + '\n'.join(lines) + f'\n  exact ⟨{tup(ok)}, {tup(can)}⟩\n')
        return '\n'.join(o)
    can = [f'h{i}.1.2' for i, f in enumerate(fs) if f[0] in ('sub', 'float32')]
    nn = {i: f'n{j}' for j, i in enumerate(i for i, f in enumerate(fs) if f[0] in ('sub', 'float32'))}
    em = [f'h{i}.2 n' if False else (f'h{i}.2 {nn[i]}' if i in nn else f'h{i}.2') for i, f in enumerate(fs)]
    body = ' <|\n      '.join([f'W.Emits.bind ({x})' for x in em[:-1]] + [em[-1]])
    ob = '' if not nn else f'  obtain {tup(list(nn.values()))} := hn\n' if len(nn) > 1 else '  have n0 := hn\n'
    o.append(f'theorem {T}.post{sp(a)} : Post ({T}.parse {T}.init{an}) (fun b o => ({T}.WireOk o ∧ {T}.Canon o) ∧\n'
             f'    ({T}.NoNaN o → ({T}.{wr} o).Emits b)) := by\n  unfold {T}.parse\n' + '\n'.join(lines)
             + f'\n  refine ⟨⟨{tup(ok)}, {tup(can)}⟩, fun hn => ?_⟩\n{ob}  exact {body}\n')
    return '\n'.join(o)


HEAD = '''import {imp}

/-!
# {title}

Generated by `tools/genvar.py`.
-/

set_option linter.unusedVariables false

namespace Dis

'''
open(f'{OUT}/Spec/Variable.lean', 'w').write(
    HEAD.format(imp='Verif.Spec.Bits', title='Specification of the fixed-layout records of `opendis/record`')
    + '\n'.join(spec(c) for c in CLASSES) + '\nend Dis\n')
open(f'{OUT}/Proof/Variable.lean', 'w').write(
    HEAD.format(imp='Verif.Proof.Bits\nimport Verif.Spec.Variable', title='Proofs for the fixed-layout records of `opendis/record`')
    + '\n'.join(proof(c) for c in CLASSES) + '\nend Dis\n')
