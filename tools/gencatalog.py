"""Generate the catalogue of wire classes: Verif/Spec/Catalog.lean and Verif/Proof/Catalog.lean.

  python3 tools/gencatalog.py
"""
import glob
import os
import re
import sys

sys.path.insert(0, os.path.dirname(__file__))
import genlayout  # noqa: E402

ROOT = os.path.join(os.path.dirname(__file__), '..', 'lean', 'Verif')
MODS = genlayout.MODS + genlayout.HANDMODS


def read(d, m):
    p = os.path.join(ROOT, d, m + '.lean')
    return open(p).read() if os.path.exists(p) else ''


model = {m: read('Model', m) for m in MODS}
spec = ''.join(open(f).read() for f in glob.glob(os.path.join(ROOT, 'Spec', '*.lean')) if 'Catalog' not in f)
proof = ''.join(open(f).read() for f in glob.glob(os.path.join(ROOT, 'Proof', '*.lean')) if 'Catalog' not in f)


def has(txt, pat):
    return re.search(pat, txt) is not None


# parse takes a byte length
ARG = {'BeamAntennaPattern': ('(some 40)', '(some 40) (by intro n h; cases h; decide)', '(some 40)'),
       'BasicHaveQuickMP': ('none', 'none (by intro n h; cases h)', 'none'),
       'CCTTSincgarsMP': ('none', 'none (by intro n h; cases h)', 'none')}
# no round trip of serialize and parse as they stand (property C27), or own treatment (C26)
EXCLUDE = {'HighFidelityHAVEQUICKRadio', 'DirectedEnergyDamage', 'DirectedEnergyAreaAimpoint',
           'DirectedEnergyPrecisionAimpoint', 'UnknownRadio', 'UnknownAntennaPattern',
           'UnknownStandardVariableRecord', 'TransmitterPdu', 'IntercomControlPdu', 'LinearObjectStatePdu',
           'AttributePdu'}

SIZES = {'unsigned_byte': 1, 'uint8': 1, 'byte': 1, 'unsigned_short': 2, 'uint16': 2, 'short': 2, 'unsigned_int': 4,
         'uint32': 4, 'int': 4, 'long': 8, 'uint64': 8, 'float': 4, 'float32': 4, 'double': 8, 'float64': 8}
MAXV = {'u8': 255, 's8': 127, 'u16': 65535, 'u32': 4294967295}

csize = {}


def const_size(T):
    m = re.search(r'def %s\.wireSize \(_?o : %s\) : Nat :=\s*(.*)\n' % (T, T), spec)
    if m and re.match(r'^\d+$', m.group(1).strip()):
        return int(m.group(1))
    return None


JS = {}
bounded = {}


def bound_term(b, T):
    """proof that the slots of one statement have at most their nominal width; (size, proof)"""
    b = genlayout.conv(b)
    m1 = re.match(r'^write_(\w+) ', b)
    m2 = re.match(r'^(\w+)\.serialize (o[\w.]*)$', b)
    m3 = re.match(r'^W\.using \((attr|needInt|IntOr\.asInt) (o\.\w+)\) write_(\w+)$', b)
    m4 = re.match(r'^W\.forRange 0 (\d+) fun \w+ => W\.using \(index (o\.\w+) \w+\) write_(\w+)$', b)
    if m1 and m1.group(1) in SIZES:
        return SIZES[m1.group(1)], 'WidthL.one'
    if m2:
        need_bounded(m2.group(1))
        return const_size(m2.group(1)), f'({m2.group(1)}.bounded _)'
    if m3:
        return SIZES[m3.group(3)], f'WidthL.fail (n := {SIZES[m3.group(3)]}) (fun _ => rfl)'
    if m4:
        return int(m4.group(1)) * SIZES[m4.group(3)], f'WidthL.range (n := {m4.group(1)}) (m := {SIZES[m4.group(3)]}) (fun _ => rfl)'
    raise Exception((T, b))


def need_bounded(T):
    if T in bounded:
        return
    if T in BITS:
        bounded[T] = f'theorem {T}.bounded (o : {T}) : WidthL o.wire {BITS[T]} := WidthL.one\n\n'
        return
    js = [j for j in JS[T] if j != 'let _ := self']
    ts = [bound_term(j, T) for j in js]
    if len(ts) == 1:
        body = ts[0][1]
    else:
        body = 'WidthL.nil'
        for _, q in reversed(ts):
            body = f'WidthL.append ({q}) <|\n      {body}'
        body = f'WidthL.of_eq ({body}) (by rfl)'
    bounded[T] = f'theorem {T}.bounded (o : {T}) : WidthL o.wire {sum(t[0] for t in ts)} :=\n    {body}\n\n'


BITS = {'DEFireFlags': 2, 'SpreadSpectrum': 2, 'NetId': 2}


def counts(T, js):
    """count fields at a constant offset: (offset, width, max, scale, list, proof of the offset, item index)"""
    out = []
    off = 0
    proofs = []
    bproofs = []
    js = [j for j in js if j != 'let _ := self']
    items = [genlayout.line(T, j)[0] for j in js]
    for i, j in enumerate(js):
        b = genlayout.conv(j)
        m = re.match(r'^write_(\w+) \(?\(?(o\.(\w+)\.length)( : Int\))?( \* 8\))?$', b)
        if m and m.group(3) != 'o':
            k = genlayout.KIND[m.group(1)]
            out.append((off, SIZES[m.group(1)], MAXV[k], 8 if m.group(5) else 1, m.group(3), list(proofs), i, items, k, list(bproofs)))
        m1 = re.match(r'^write_(\w+) ', b)
        m2 = re.match(r'^(\w+)\.serialize (o[\w.]*)$', b)
        m3 = re.match(r'^W\.using \((attr|needInt|IntOr\.asInt) (o\.\w+)\) write_(\w+)$', b)
        if any('.length' in x for x in js[i + 1:]) and (m1 or m3 or (m2 and const_size(m2.group(1)) is not None)):
            bproofs.append(bound_term(j, T)[1])
        if m1 and m1.group(1) in SIZES:
            off += SIZES[m1.group(1)]
            proofs.append(f'SizedL.of (lay_{m1.group(1)} _) (sized_{m1.group(1)} _)')
        elif m2:
            s = const_size(m2.group(1))
            if s is None:
                rest = [x for x in js[i + 1:] if '.length' in x]
                if rest:
                    print('variable offset:', T, rest)
                break
            off += s
            proofs.append(f'SizedL.of ({m2.group(1)}.lay _) ({m2.group(1)}.sized _)')
        elif m3:
            off += SIZES[m3.group(3)]
            lem = {'attr': 'attr', 'needInt': 'need', 'IntOr.asInt': 'asInt'}[m3.group(1)]
            proofs.append(f'SizedL.{lem} (fun _ => SizedL.of (lay_{m3.group(3)} _) (sized_{m3.group(3)} _))')
        else:
            rest = [x for x in js[i + 1:] if '.length' in x]
            if rest:
                print('variable offset:', T, rest)
            break
    return out


HEAD = '''import {imp}

/-!
# {title}

Generated by `tools/gencatalog.py`.
-/

namespace Dis

'''


def main():
    entries = {}
    for m in MODS:
        for T, cite, js in genlayout.parse_mod(m):
            JS[T] = js
    for m in MODS:
        lst = []
        js_of = {T: (cite, js) for T, cite, js in genlayout.parse_mod(m)}
        for t in re.finditer(r'^structure (\w+)', model[m], re.M):
            T = t.group(1)
            if T in EXCLUDE or not has(proof, rf'theorem {T}\.post\b'):
                continue
            if not has(model[m], rf'def {T}\.init\b'):
                continue
            lst.append(T)
        entries[m] = (lst, js_of)
    S = HEAD.format(imp='\nimport '.join(['Verif.Spec.Special', 'Verif.Spec.Variable', 'Verif.Spec.LayoutSpecial', 'Verif.Spec.Pdus5', 'Verif.Spec.Codec']),
                    title='Catalogue of the wire classes')
    P = HEAD.format(imp='\nimport '.join(['Verif.Spec.Catalog', 'Verif.Proof.Codec', 'Verif.Proof.Special', 'Verif.Proof.Variable', 'Verif.Proof.LayoutSpecial', 'Verif.Proof.Pdus5']),
                    title='Every entry of the catalogue is verified')
    names = []
    for m in MODS:
        lst, js_of = entries[m]
        if not lst:
            continue
        for T in lst:
            names.append(T)
            post = re.search(rf'theorem {T}\.post\b.*?:= by', proof, re.S).group(0)
            live = f'{T}.Live' in post
            lossless = '.Emits b' in post
            dec = has(spec, rf'def {T}\.Decodable\b')
            only = has(proof, rf'theorem {T}\.only\b')
            pa = ' ' + ARG[T][0] if T in ARG else ''
            cite = js_of[T][0] if T in js_of else re.search(rf'`{T}\.serialize`,\s*(/repo/[\w/.]+:[\d,-]+)', model[m]).group(1)
            cs = counts(T, js_of[T][1]) if T in js_of and T not in genlayout.SKIPCLS else []
            S += f'/-- Catalogue entry of `{T}` ({cite.rstrip(",")}). -/\n'
            S += f'def Codec.{T} : Codec where\n  name := "{T}"\n  Obj := Dis.{T}\n  fresh := Dis.{T}.init\n'
            S += f'  serialize := Dis.{T}.serialize\n  parse s := Dis.{T}.parse s{pa}\n'
            S += f'  wire := Dis.{T}.wire\n  Fits := Dis.{T}.WireOk\n  Canon := Dis.{T}.Canon\n  NoNaN := Dis.{T}.NoNaN\n'
            S += f'  size := Dis.{T}.wireSize\n  after := Dis.{T}.after\n'
            if dec:
                S += f'  Decodable := Dis.{T}.Decodable\n'
            if live:
                S += f'  Live := Dis.{T}.Live\n'
            if not lossless:
                S += '  lossless := false\n'
            if not only:
                S += '  onlyStruct := false\n'
            if cs:
                S += '  counts := [' + ',\n    '.join(
                    f'{{ offset := {c[0]}, width := {c[1]}, max := {c[2]}, scale := {c[3]}, len := fun o => o.{c[4]}.length }}'
                    for c in cs) + ']\n'
            S += '\n'
            # proof
            rtarg = ' ' + ARG[T][1] if T in ARG else ''
            larg = ' ' + ARG[T][2] if T in ARG else ''
            P += f'theorem Codec.{T}.verified : Codec.{T}.Verified where\n'
            P += f'  rt s o {"h" if dec else "_"} := Dis.{T}.rt{rtarg} s o{" h" if dec else ""}\n'
            P += f'  loc s := Dis.{T}.loc{larg} s\n'
            P += f'  lay o := Dis.{T}.lay o\n  sized o := Dis.{T}.sized o\n  ok_iff o := Dis.{T}.ok_iff o\n'
            P += f'  canon _ h := Dis.{T}.after_canon {"(s := Dis.%s.init) " % T if T in ("NetId", "DEFireFlags") else ""}h\n'
            pargs = larg
            fn = {(False, True): 'post_plain', (False, False): 'post_lossy', (True, True): 'post_live',
                  (True, False): 'post_live_lossy'}[(live, lossless)]
            P += f'  post := Codec.{fn} (Dis.{T}.post{pargs})\n'
            if only:
                P += f'  only _ s := Dis.{T}.only s\n'
            else:
                P += '  only h := nomatch h\n'
            P += f'  counted := by\n'
            if not cs:
                P += '    intro c hc; cases hc\n'
            else:
                for (o_, w, mx, sc, l, prf, i, items, k, bprf) in cs:
                    pre = '[' + ', '.join(items[:i]) + '].flatten'
                    postl = '[' + ', '.join(items[i + 1:]) + '].flatten'
                    item = items[i].strip()[1:-1]
                    body = 'SizedL.nil'
                    for q in reversed(prf):
                        body = f'SizedL.append ({q}) <|\n        {body}'
                    bbody = 'WidthL.nil'
                    for q in reversed(bprf):
                        bbody = f'WidthL.append ({q}) <|\n        {bbody}'
                    ctor = 'CountField.At.signed' if k == 's8' else 'CountField.At.unsigned'
                    P += f'    refine List.forall_mem_cons.2 ⟨fun o => {ctor} (pre := {pre})\n        (post := {postl})\n' \
                         f'        (by simp [Codec.{T}, Dis.{T}.wire{", Int.mul_comm" if sc == 8 else ""}]) (SizedL.of_eq (n := _) ({body}) (by rfl)) (by decide)\n        (WidthL.of_eq ({bbody}) (by rfl)), ?_⟩\n'
            if cs:
                P += '    exact fun _ h => nomatch h\n'
            if not cs:
                P += '  appended := fun _ h => nomatch h\n'
            else:
                P += '  appended := by\n'
                for c in cs:
                    P += f'    refine List.forall_mem_cons.2 ⟨fun s o hd hw => ?_, ?_⟩\n'
                    P += f'    · simp only [Codec.{T}{", Dis.%s.Decodable" % T if dec else ""}, Dis.{T}.WireOk] at hd hw ⊢\n'
                    P += f'      simp_all [Dis.{T}.after]\n'
                P += '    exact fun _ h => nomatch h\n'
            P += '\n'
        S += f'/-- Catalogue entries for the classes of `Verif.Model.{m}` (class statements of\n/repo/opendis). -/\n'
        S += f'def catalog{m} : List Codec :=\n  [' + ',\n   '.join(f'.{T}' for T in lst) + ']\n\n'
        P += f'theorem catalog{m}_verified : ∀ c ∈ catalog{m}, c.Verified := by\n  intro c hc\n'
        P += f'  simp only [catalog{m}, List.mem_cons, List.not_mem_nil, or_false] at hc\n'
        if len(lst) == 1:
            P += '  subst hc\n'
        else:
            P += '  rcases hc with ' + ' | '.join(['rfl'] * len(lst)) + '\n'
        for T in lst:
            P += f'  · exact Codec.{T}.verified\n'
        P += '\n'
    ms = [m for m in MODS if entries[m][0]]
    E = HEAD.format(imp='Verif.Proof.Catalog', title='Every class of the catalogue has messages')
    E += '''/-- Zeros, with the count fields set to `n` elements. -/
def Codec.sampleBytes (c : Codec) (n : Nat) : Bytes :=
  c.counts.foldl (fun b f => b.set (f.offset + f.width - 1) (UInt8.ofNat (f.scale * n)))
    (List.replicate 400 0)

/-- The sample is accepted and the result can be serialized. -/
def Codec.sampleOk (c : Codec) (n : Nat) : Bool :=
  match c.parse c.fresh ⟨c.sampleBytes n, 0⟩ with
  | (.ok o, _) => (c.serialize o).res == .ok ()
  | _ => false

/-- Some input is accepted by `parse` and yields an object that `serialize` accepts. -/
def Codec.Inhabited (c : Codec) : Prop :=
  ∃ d o st, c.parse c.fresh ⟨d, 0⟩ = (.ok o, st) ∧ (c.serialize o).Ok

theorem Codec.inhabited_of_sample {c : Codec} {n : Nat} (h : c.sampleOk n = true) : c.Inhabited := by
  unfold Codec.sampleOk at h
  split at h
  · rename_i o st he
    exact ⟨_, o, st, he, (), by simpa using h⟩
  · cases h

'''
    ZERO = {"GridAxisDescriptorVariable", "SilentEntitySystem", "StandardVariableSpecification",
            "RecordSpecification", "IntercomSignalPdu", "ResupplyReceivedPdu", "RecordQueryReliablePdu", "UaPdu", "SeesPdu",
            "MinefieldResponseNackPdu", "AggregateStatePdu", "DirectedEnergyFirePdu", "EntityDamageStatusPdu"}
    for m in ms:
        lst = [T for T in entries[m][0] if T != 'SilentAggregateSystem']
        E += f'theorem catalog{m}_inhabited : ∀ c ∈ catalog{m}, c.name ≠ "SilentAggregateSystem" → c.Inhabited := by\n'
        E += f'  unfold catalog{m}\n'
        for T in entries[m][0]:
            if T == 'SilentAggregateSystem':
                E += '  refine List.forall_mem_cons.2 ⟨fun h => absurd rfl h, ?_⟩\n'
            else:
                E += f'  refine List.forall_mem_cons.2 ⟨fun _ => Codec.inhabited_of_sample (n := {0 if T in ZERO else 1}) (by decide +kernel), ?_⟩\n'
        E += '  exact fun _ h => nomatch h\n\n'
    E += ('/-- Every class of the catalogue, except `SilentAggregateSystem`, whose `serialize` always raises,\n'
          'has inputs that `parse` accepts and whose result `serialize` accepts. For the classes with lists the\n'
          'input announces one element per list, unless the class cannot read elements at all. -/\n')
    E += 'theorem catalog_inhabited : ∀ c ∈ catalog, c.name ≠ "SilentAggregateSystem" → c.Inhabited := by\n  intro c hc\n'
    E += '  simp only [catalog, List.mem_append] at hc\n'
    E += '  rcases hc with ' + '(' * (len(ms) - 1) + 'h' + ''.join(' | h)' for _ in ms[1:]) + '\n'
    for m in ms:
        E += f'  · exact catalog{m}_inhabited c h\n'
    E += '\nend Dis\n'
    open(os.path.join(ROOT, 'Proof', 'Inhabited.lean'), 'w').write(E)
    S += ('/-- All wire classes whose objects can be constructed and whose `parse` mirrors `serialize`\n'
          '(/repo/opendis/dis7.py:71-7505, /repo/opendis/record). -/\n')
    S += 'def catalog : List Codec :=\n  ' + ' ++\n  '.join(f'catalog{m}' for m in ms) + '\n\nend Dis\n'
    P += 'theorem catalog_verified : ∀ c ∈ catalog, c.Verified := by\n  intro c hc\n'
    P += '  simp only [catalog, List.mem_append] at hc\n'
    P += '  rcases hc with ' + '(' * (len(ms) - 1) + 'h' + ''.join(' | h)' for _ in ms[1:]) + '\n'
    for m in ms:
        P += f'  · exact catalog{m}_verified c h\n'
    P += '\nend Dis\n'
    open(os.path.join(ROOT, 'Spec', 'Catalog.lean'), 'w').write(S)
    P = P.replace('namespace Dis\n', 'namespace Dis\n\n' + ''.join(bounded.values()), 1)
    open(os.path.join(ROOT, 'Proof', 'Catalog.lean'), 'w').write(P)
    print(len(names), 'entries')


if __name__ == '__main__':
    main()
