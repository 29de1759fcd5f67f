"""Generate the wire layouts (Verif/Spec/Layout<Module>.lean) and the proofs that `serialize` writes
them (Verif/Proof/Layout<Module>.lean).

  python3 tools/genlayout.py
"""
import os
import re
import sys

ROOT = os.path.join(os.path.dirname(__file__), '..', 'lean', 'Verif')
MODS = ['Common'] + [f'Records{i}' for i in range(1, 6)] + [f'Pdus{i}' for i in range(1, 6)]
HANDMODS = ['Radio', 'Warfare', 'Special']

KIND = {'unsigned_byte': 'u8', 'uint8': 'u8', 'byte': 's8', 'unsigned_short': 'u16', 'uint16': 'u16',
        'short': 's16', 'unsigned_int': 'u32', 'uint32': 'u32', 'int': 's32', 'long': 's64', 'uint64': 'u64',
        'float': 'f32', 'float32': 'f32', 'double': 'f64', 'float64': 'f64'}


def conv(e):
    return re.sub(r'\bself\b', 'o', e)


def line(T, b):
    """(slot list expression, proof term) of one statement"""
    b = conv(b)
    m = re.match(r'^write_(\w+) (.*)$', b)
    if m and m.group(1) in KIND:
        k, e = KIND[m.group(1)], m.group(2)
        return f'[.{k} {e}]', f'lay_{m.group(1)} _'
    m = re.match(r'^write_bytes (.*)$', b)
    if m:
        return f'[.raw {m.group(1)}]', 'Lay.raw _'
    m = re.match(r'^StandardVariableRecord\.serialize (\S+) (\S+)$', b)
    if m:
        return f'StandardVariableRecord.wire {m.group(1)} {m.group(2)}', 'StandardVariableRecord.lay _ _'
    m = re.match(r'^(\w+)\.serialize (o[\w.]*)$', b)
    if m:
        return f'{m.group(1)}.wire {m.group(2)}', f'{m.group(1)}.lay _'
    m = re.match(r'^W\.using \((attr|needInt|IntOr\.asInt) (o\.\w+)\) write_(\w+)$', b)
    if m:
        w, x, me = m.groups()
        k = f'Slot.{KIND[me]}'
        if w == 'attr':
            return f'[Slot.orFail .attributeError {k} {x}]', f'Lay.attr lay_{me} _'
        if w == 'needInt':
            return f'[Slot.orFail .structError {k} {x}]', f'Lay.need lay_{me} _'
        return f'[Slot.orFail .structError {k} {x}.int?]', f'Lay.asInt lay_{me} _'
    m = re.match(r'^W\.forEach (o\.\w+) write_(\w+)$', b)
    if m:
        return f'{m.group(1)}.map Slot.{KIND[m.group(2)]}', f'Lay.map lay_{m.group(2)}'
    m = re.match(r'^W\.forEach (o\.\w+) (\w+)\.serialize$', b)
    if m:
        return f'{m.group(1)}.flatMap {m.group(2)}.wire', f'Lay.forEach {m.group(2)}.lay'
    m = re.match(r'^W\.forEach (o\.\w+) fun _ => W\.throw (\.\w+)$', b)
    if m:
        return f'{m.group(1)}.map fun _ => .fail {m.group(2)}', f'Lay.map fun _ => Lay.throw _'
    m = re.match(r'^W\.forRange 0 (\w+|\(.*\)\.toNat) fun \w+ => W\.using \(index (o\.\w+) \w+\) write_(\w+)$', b)
    if m:
        n, l, me = m.groups()
        return (f'(List.range {n}).map fun i => Slot.orFail .indexError Slot.{KIND[me]} {l}[i]?',
                f'Lay.range (fun i => Lay.index lay_{me} _ i) _')
    m = re.match(r'^W\.forRange 0 (\(.*\)\.toNat) fun _ => write_unsigned_byte 0$', b)
    if m:
        return f'(List.range {m.group(1)}).map fun _ => .u8 0', 'Lay.range (fun _ => lay_unsigned_byte _) _'
    m = re.match(r'^W\.using \(attr (o\.\w+)\) (\w+)\.serialize$', b)
    if m:
        return f'Slot.orFailAll .attributeError {m.group(2)}.wire {m.group(1)}', f'Lay.attrAll {m.group(2)}.lay _'
    m = re.match(r'^W\.whenSome (o\.\w+) (\w+)\.serialize$', b)
    if m:
        return f'({m.group(1)}.map {m.group(2)}.wire).getD []', f'Lay.whenSome {m.group(2)}.lay _'
    if b == 'pure ()':
        return '[]', 'Lay.nil'
    if b == 'W.using o.intercomParameters.len write_unsigned_int':
        return ('[Slot.orFail .typeError (fun l => .u32 l.length) o.intercomParameters.list?]',
                'IntercomParametersValue.lay_len _')
    if b == 'o.intercomParameters.serializeAll':
        return ('Slot.orFailAll .typeError (·.flatMap IntercomCommunicationsParameters.wire) '
                'o.intercomParameters.list?', 'IntercomParametersValue.lay_all _')
    raise Exception((T, b))


EXTRA_SPEC = {
    'Radio': '''/-- Header that `StandardVariableRecord.serialize` writes (/repo/opendis/record/base.py:79-88). -/
def StandardVariableRecord.wire (recordType marshalledSize : Int) : List Slot :=
  [.u32 recordType, .u32 marshalledSize]

/-- Layout (/repo/opendis/record/radio/__init__.py:182-209). -/
def SpreadSpectrum.wire (o : SpreadSpectrum) : List Slot :=
  [.bits 2 [(1, o.frequencyHopping.toInt), (1, o.pseudoNoise.toInt), (1, o.timeHopping.toInt),
            (13, o.padding)]]

/-- Layout (/repo/opendis/record/radio/__init__.py:276-303). -/
def NetId.wire (o : NetId) : List Slot :=
  [.bits 2 [(10, o.netNumber), (2, o.frequencyTable), (2, o.mode), (2, o.padding)]]

/-- Layout (/repo/opendis/record/radio/__init__.py:67-69). -/
def UnknownRadio.wire (o : UnknownRadio) : List Slot := [.raw o.data]

/-- Layout (/repo/opendis/record/radio/__init__.py:89-91). -/
def UnknownAntennaPattern.wire (o : UnknownAntennaPattern) : List Slot := [.raw o.data]

''',
    'Warfare': '''/-- Layout (/repo/opendis/record/warfare/enums.py:11-32). -/
def DEFireFlags.wire (o : DEFireFlags) : List Slot :=
  [.bits 2 [(1, o.weaponOn), (1, o.stateUpdateFlag), (14, 0)]]

''',
    'Special': '''/-- Layout (/repo/opendis/dis7.py:5050, :6379, :6664). -/
def SVRecord.wire : SVRecord → List Slot
  | .highFidelityHAVEQUICKRadio r => r.wire
  | .directedEnergyPrecisionAimpoint r => r.wire
  | .directedEnergyAreaAimpoint r => r.wire
  | .directedEnergyDamage r => r.wire
  | .unknown r => r.wire

/-- Layout (/repo/opendis/record/radio/__init__.py:67, :323-324, :346-347, :379, :426). -/
def ModulationParametersRecord.wire : ModulationParametersRecord → List Slot
  | .unknown r => r.wire
  | .generic => []
  | .simpleIntercom => []
  | .haveQuick r => r.wire
  | .sincgars r => r.wire

/-- Layout (/repo/opendis/record/radio/__init__.py:89, :137). -/
def AntennaPatternRecord.wire : AntennaPatternRecord → List Slot
  | .unknown r => r.wire
  | .beam r => r.wire

/-- The list in this attribute if it holds one (/repo/opendis/dis7.py:6894, :6913). -/
def IntercomParametersValue.list? : IntercomParametersValue → Option (List IntercomCommunicationsParameters)
  | .records l => some l
  | _ => Option.none

''',
}
EXTRA_PROOF = {
    'Radio': '''theorem StandardVariableRecord.lay (t n) :
    Lay (StandardVariableRecord.serialize t n) (StandardVariableRecord.wire t n) :=
  Lay.bind (lay_uint32 _) (lay_uint32 _)

theorem SpreadSpectrum.lay (o : SpreadSpectrum) : Lay o.serialize o.wire :=
  Bitfield.lay rfl rfl rfl

theorem NetId.lay (o : NetId) : Lay o.serialize o.wire :=
  Bitfield.lay rfl rfl rfl

theorem UnknownRadio.lay (o : UnknownRadio) : Lay o.serialize o.wire := Lay.raw _

theorem UnknownAntennaPattern.lay (o : UnknownAntennaPattern) : Lay o.serialize o.wire := Lay.raw _

''',
    'Warfare': '''theorem DEFireFlags.lay (o : DEFireFlags) : Lay o.serialize o.wire :=
  Bitfield.lay rfl rfl rfl

''',
    'Special': '''theorem SVRecord.lay (r : SVRecord) : Lay r.serialize r.wire := by
  cases r with
  | highFidelityHAVEQUICKRadio r => exact r.lay
  | directedEnergyPrecisionAimpoint r => exact r.lay
  | directedEnergyAreaAimpoint r => exact r.lay
  | directedEnergyDamage r => exact r.lay
  | unknown r => exact r.lay

theorem ModulationParametersRecord.lay (r : ModulationParametersRecord) : Lay r.serialize r.wire := by
  cases r with
  | unknown r => exact r.lay
  | generic => exact Lay.nil
  | simpleIntercom => exact Lay.nil
  | haveQuick r => exact r.lay
  | sincgars r => exact r.lay

theorem AntennaPatternRecord.lay (r : AntennaPatternRecord) : Lay r.serialize r.wire := by
  cases r with
  | unknown r => exact r.lay
  | beam r => exact r.lay

theorem Lay.whenSome {α} {w : α → W Unit} {f : α → List Slot} (h : ∀ x, Lay (w x) (f x))
    (o : Option α) : Lay (W.whenSome o w) ((o.map f).getD []) := by
  cases o with
  | none => exact Lay.nil
  | some x => exact h x

theorem IntercomParametersValue.lay_using (v : IntercomParametersValue) {w : Int → W Unit}
    {k : Int → Slot} (h : ∀ x, Lay (w x) [k x]) :
    Lay (W.using v.len w) [Slot.orFail .typeError (fun l => k l.length) v.list?] := by
  cases v with
  | records l => exact h _
  | none => rfl
  | record _ => rfl

theorem IntercomParametersValue.lay_len (v : IntercomParametersValue) :
    Lay (W.using v.len write_unsigned_int)
      [Slot.orFail .typeError (fun l => .u32 l.length) v.list?] := v.lay_using lay_unsigned_int

theorem IntercomParametersValue.lay_all (v : IntercomParametersValue) :
    Lay v.serializeAll
      (Slot.orFailAll .typeError (·.flatMap IntercomCommunicationsParameters.wire) v.list?) := by
  cases v with
  | records l => exact Lay.forEach IntercomCommunicationsParameters.lay
  | none => rfl
  | record _ => rfl

''',
}
SKIPCLS = {'StandardVariableRecord', 'SpreadSpectrum', 'NetId', 'UnknownRadio', 'UnknownAntennaPattern', 'DEFireFlags',
           'SVRecord', 'ModulationParametersRecord', 'AntennaPatternRecord'}

HS = '''import {imp}

/-!
# {title}

Generated by `tools/genlayout.py`.
-/

set_option linter.unusedVariables false

namespace Dis

'''


def parse_mod(name):
    txt = open(os.path.join(ROOT, 'Model', name + '.lean')).read()
    out = []
    for m in re.finditer(r'/-- ((?:(?!-/).)*?)-/\ndef (\w+)\.serialize \(self : (\w+)\) :\s*W Unit :=( do)?\n((?:  [^\n]*\n)+)',
                         txt, re.S):
        doc, T, T2, _, body = m.groups()
        assert T == T2
        cm = re.search(r'/repo/\S+?(?=[.;:]?\s|[;.]? |$|\.$)', doc)
        cite = re.search(r'(/repo/[\w/.]+?:[\d,-]+)', doc).group(1).rstrip(',')
        lines = [l[2:] for l in body.rstrip('\n').split('\n')]
        js = []
        for l in lines:
            if l.startswith('  '):
                js[-1] += ' ' + l.strip()
            else:
                js.append(l)
        out.append((T, cite, js))
    return out


def main():
    prevS = 'Verif.Spec.Layout'
    prevP = 'Verif.Proof.Layout'
    n = 0
    for name in MODS + HANDMODS:
        S, P = [EXTRA_SPEC.get(name, '')], [EXTRA_PROOF.get(name, '')]
        pre = ('', '')
        if name == 'Special':
            # the variable records come before the PDUs that carry them
            pass
        for T, cite, js in parse_mod(name):
            if T in SKIPCLS:
                continue
            js = [j for j in js if j != 'let _ := self']
            sl = [line(T, j) for j in js]
            n += 1
            S.append(f'/-- Layout of `{T}` on the wire ({cite}). -/\n')
            if len(sl) == 1:
                S.append(f'def {T}.wire (o : {T}) : List Slot :=\n  {sl[0][0]}\n\n')
                P.append(f'theorem {T}.lay (o : {T}) : Lay o.serialize o.wire := by\n'
                         f'  unfold {T}.serialize {T}.wire\n  exact {sl[0][1]}\n\n')
            elif not sl:
                raise Exception(T)
            else:
                # merge runs of singletons for readability
                S.append(f'def {T}.wire (o : {T}) : List Slot :=\n  [' + ',\n   '.join(x[0] for x in sl) + '].flatten\n\n')
                P.append(f'theorem {T}.lay (o : {T}) : Lay o.serialize o.wire := by\n'
                         f'  unfold {T}.serialize {T}.wire\n  exact '
                         + ' <|\n    '.join(f'Lay.bind ({x[1]})' for x in sl[:-1]) + f' <|\n    Lay.last ({sl[-1][1]})\n\n')
        open(os.path.join(ROOT, 'Spec', f'Layout{name}.lean'), 'w').write(
            HS.format(imp=f'Verif.Model.{name}\nimport {prevS}', title=f'Wire layouts of the classes of `Verif.Model.{name}`')
            + ''.join(S) + 'end Dis\n')
        open(os.path.join(ROOT, 'Proof', f'Layout{name}.lean'), 'w').write(
            HS.format(imp=f'Verif.Spec.Layout{name}\nimport {prevP}', title=f'`serialize` writes the layout: classes of `Verif.Model.{name}`')
            + ''.join(P) + 'end Dis\n')
        prevS = f'Verif.Spec.Layout{name}'
        prevP = f'Verif.Proof.Layout{name}'
    print(n, 'layouts')


if __name__ == '__main__':
    main()
