"""Generate, per wire class, the specification (Verif/Spec/*.lean) and the proofs (Verif/Proof/*.lean)."""
import os
import re
import sys

sys.path.insert(0, os.path.dirname(__file__))
import gen  # noqa: E402
from gen import classes, parent, field_info, lean_expr, FIELD_TYPES, USE  # noqa: E402
from ir import u  # noqa: E402

ROOT = os.path.join(os.path.dirname(__file__), '..', 'lean', 'Verif')

FIT = {'unsigned_byte': 'U8', 'byte': 'S8', 'unsigned_short': 'U16', 'uint16': 'U16', 'short': 'S16',
       'unsigned_int': 'U32', 'int': 'S32', 'long': 'S64', 'float': 'F32Fits', 'float32': 'F32Fits'}
SIZE = {'unsigned_byte': 1, 'byte': 1, 'unsigned_short': 2, 'uint16': 2, 'short': 2, 'unsigned_int': 4,
        'int': 4, 'long': 8, 'float': 4, 'float32': 4, 'double': 8, 'float64': 8}
SINGLE = {'float', 'float32'}
DOUBLE = {'double', 'float64'}

# no generated proofs for these (done by hand in Proof/Special.lean)
SKIP = {'VariableDatum', 'BeamStatus', 'IFFData', 'SilentAggregateSystem'}


class Info:
    pass


infos = {}


def align(k):
    """pair up the statements of serialize and parse"""
    ser = [s for s in k.ser if s[0] != 'pass']
    par = [s for s in k.par if s[0] not in ('pass', 'zeros')]
    if len(ser) != len(par):
        return None, f'{len(ser)} writes, {len(par)} reads'
    out = []
    counts = {}   # local/field name -> list it counts
    for s, p in zip(ser, par):
        if s[0] == 'super' and p[0] == 'super':
            out.append(('super',))
        elif s[0] == 'obj' and p[0] == 'obj':
            if s[1] != p[1]:
                return None, f'{s[1]} vs {p[1]}'
            out.append(('obj', s[1]))
        elif s[0] == 'w' and p[0] in ('r', 'local', 'discard'):
            if s[1] != p[2]:
                return None, f'method {s} {p}'
            e = lean_expr(k, s[2])
            m = re.match(r'^self\.(\w+)$', e)
            lm = re.match(r'^self\.([\w.]+)\.length( \* 8)?$', e)
            if lm:
                if p[0] == 'discard':
                    return None, 'count discarded'
                out.append(('count', s[1], lm.group(1), p[1], p[0] == 'r', bool(lm.group(2))))
                counts[p[1]] = (lm.group(1), bool(lm.group(2)))
            elif m and p[0] == 'r':
                if m.group(1) != p[1]:
                    return None, f'{m.group(1)} vs {p[1]}'
                if (k.name, p[1]) in USE:
                    out.append(('use', s[1], p[1]))
                else:
                    out.append(('w', s[1], p[1]))
            elif e == '0' and p[0] == 'discard':
                out.append(('zero', s[1]))
            else:
                return None, f'w {u(s[2])} {p}'
        elif s[0] == 'each' and p[0] == 'loop':
            if s[1] != p[1]:
                return None, f'each {s[1]} {p[1]}'
            r = u(p[2][0])
            m = re.match(r'^(self\.)?(\w+)( // 8)?$', r)
            if not m or counts.get(m.group(2)) != (s[1], bool(m.group(3))):
                return None, f'loop bound {r} for {s[1]}'
            et = dict((f[0], f[1]) for f in field_info(k))[s[1]][5:]
            if et == 'Int':
                assert p[2][1] == 'null', (k.name, p)
                out.append(('throw', s[1], m.group(2)))
            elif p[2][1] == 'null':
                out.append(('null', s[1], m.group(2), et))
            else:
                out.append(('list', s[1], m.group(2), et))
        elif s[0] == 'eachw' and p[0] == 'loopw':
            if s[1] != p[1] or s[2] != p[2][1]:
                return None, f'eachw {s} {p}'
            r = u(p[2][0])
            m = re.match(r'^(self\.)?(\w+)( // 8)?$', r)
            if not m or counts.get(m.group(2)) != (s[1], bool(m.group(3))):
                return None, f'loop bound {r} for {s[1]}'
            out.append(('listw', s[2], s[1], m.group(2), bool(m.group(3))))
        elif s[0] == 'idx' and p[0] == 'idx':
            if s[1] != p[1] or s[2] != p[2]:
                return None, 'idx'
            out.append(('arr', s[2][0], s[1], s[2][1]))
        else:
            return None, f'{s[0]} {p[0]}'
    return out, None


def name_of(i):
    return f'a{i}'


def gen_class(k):
    T = k.name
    I = Info()
    infos[T] = I
    p = parent(k)
    fi = field_info(k)
    ft = {f[0]: f[1] for f in fi}
    fd = {f[0]: f[2] for f in fi}
    steps, why = align(k)
    assert steps is not None, (T, why)
    PI = infos[p] if p else None
    abstract = T in ABSTRACT

    def si(t):
        return infos[t]
    cite = f'{k.path}:' + ','.join(f'{a}-{b}' for a, b in (k.lines['serialize'], k.lines['parse']))
    S = []
    P = []
    # ---- after
    after = []
    wire = []      # conditions (cond or None)
    okp = []       # ok proofs
    rt = []
    loc = []
    only = []
    sized = []
    const = 0
    var = []
    canon = []     # (field, cond)
    canon_eq = {}  # field -> proof term for after_canon, given hypothesis name
    nonan = []
    dec = []
    live = []
    I.exact = True
    I.onlystruct = True
    counted_fields = set()
    handled = set()
    for st in steps:
        kd = st[0]
        if kd == 'super':
            after.append((f'to{p}', f'{p}.after s.to{p} o.to{p}'))
            wire.append(f'{p}.WireOk o.to{p}' if PI.wire else None)
            okp.append(f'{p}.ok_iff o.to{p}')
            decarg = ''
            if PI.dec:
                dec.append(f'{p}.Decodable o.to{p}')
                decarg = f' {{D{len(dec)-1}}}'
            rt.append(f'{p}.rt s.to{p} o.to{p}' + decarg)
            loc.append(f'{p}.loc _')
            only.append(f'{p}.only _')
            I.onlystruct &= PI.onlystruct
            sized.append(f'{p}.sized o.to{p}')
            const += PI.const
            var += [v.replace('o.', f'o.') for v in PI.var]
            if PI.canon:
                canon.append((f'to{p}', f'{p}.Canon o.to{p}'))
            if PI.nonan:
                nonan.append(f'{p}.NoNaN o.to{p}')
            if PI.live:
                live.append(f'{p}.Live o.to{p}')
            I.exact &= PI.exact
        elif kd == 'obj':
            f = st[1]
            t = ft[f]
            q = si(t)
            after.append((f, f'{t}.after s.{f} o.{f}'))
            wire.append(f'{t}.WireOk o.{f}' if q.wire else None)
            okp.append(f'{t}.ok_iff o.{f}')
            decarg = ''
            if q.dec:
                dec.append(f'{t}.Decodable o.{f}')
                decarg = f' {{D{len(dec)-1}}}'
            rt.append(f'{t}.rt s.{f} o.{f}' + decarg)
            loc.append(f'{t}.loc _')
            only.append(f'{t}.only _')
            I.onlystruct &= q.onlystruct
            sized.append(f'{t}.sized o.{f}')
            const += q.const
            var += [v.replace('o.', f'o.{f}.') for v in q.var]
            if q.canon:
                canon.append((f, f'{t}.Canon o.{f}'))
            if q.nonan:
                nonan.append(f'{t}.NoNaN o.{f}')
            if q.live:
                live.append(f'{t}.Live o.{f}')
            I.exact &= q.exact
        elif kd == 'w':
            m, f = st[1], st[2]
            sg = m in SINGLE
            after.append((f, f'quant o.{f}' if sg else f'o.{f}'))
            wire.append(f'{FIT[m]} o.{f}' if m in FIT else None)
            okp.append(f'ok_{m}')
            rt.append(f'rt_{m} o.{f}')
            loc.append(f'loc_{m}')
            only.append(f'only_{m}')
            sized.append(f'sized_{m} o.{f}')
            const += SIZE[m]
            if sg:
                canon.append((f, f'quant o.{f} = o.{f}'))
                nonan.append(f'¬ o.{f}.isNaN')
        elif kd == 'zero':
            m = st[1]
            wire.append(None)
            okp.append(f'ok_{m}_zero')
            rt.append(f'rt_{m} 0')
            loc.append(f'loc_{m}')
            only.append(f'only_{m}')
            sized.append(f'sized_{m} 0')
            const += SIZE[m]
            I.exact = False
        elif kd == 'use':
            m, f = st[1], st[2]
            t = ft[f]
            if t.startswith('IntOr'):
                after.append((f, f'.int (IntOr.toIntD o.{f})'))
                wire.append(f'(∃ v, o.{f} = .int v ∧ {FIT[m]} v)')
                okp.append(f'ok_using_int ok_{m}')
                rt.append(f'rt_using_int rt_{m} o.{f}')
                canon.append((f, f'∃ v, o.{f} = .int v'))
            else:
                need = 'needInt' in USE[(T, f)]
                after.append((f, f'some (o.{f}.getD 0)'))
                wire.append(f'(∃ v, o.{f} = some v ∧ {FIT[m]} v)')
                okp.append(f'ok_{"need" if need else "attr"} ok_{m}')
                rt.append(f'rt_{"need" if need else "attr"} rt_{m} o.{f}')
                canon.append((f, f'∃ v, o.{f} = some v'))
            loc.append(f'loc_{m}')
            only.append(f'only_{m}')
            sized.append(f'sized_using sized_{m}')
            const += SIZE[m]
        elif kd == 'count':
            _, m, l, nm, isf, by8 = st
            ex = f'(o.{l}.length : Int)' + (' * 8' if by8 else '')
            if isf and nm in ft:
                after.append((nm, ex))
                canon.append((nm, f'o.{nm} = {ex}'))
                counted_fields.add(nm)
            wire.append(f'{FIT[m]} ({ex})')
            okp.append(f'ok_{m}')
            rt.append(f'rt_{m} ({ex})')
            loc.append(f'loc_{m}')
            only.append(f'only_{m}')
            sized.append(f'sized_{m} _')
            const += SIZE[m]
            if by8:
                I.exact = False
            if m in ('byte', 'short'):
                if isf and nm in ft:
                    live.append(f'0 ≤ o.{nm}')
                else:
                    raise Exception(T)
        elif kd == 'list':
            _, l, nm, et = st
            q = si(et)
            after.append((l, f's.{l} ++ o.{l}.map ({et}.after {et}.init)'))
            wire.append(f'(∀ x ∈ o.{l}, {et}.WireOk x)' if q.wire else None)
            okp.append(f'ok_list {et}.ok_iff' if q.wire else f'ok_list_true {et}.ok_iff')
            decarg = ''
            if q.dec:
                dec.append(f'(∀ x ∈ o.{l}, {et}.Decodable x)')
                rt.append(f'rt_list fun x hx => {et}.rt _ x ({{D{len(dec)-1}}} x hx)')
            else:
                rt.append(f'rt_list fun x _ => {et}.rt _ x')
            loc.append(f'Local.times ({et}.loc _) _')
            only.append(f'OnlyStruct.times ({et}.only _) _')
            I.onlystruct &= q.onlystruct
            if q.var:
                sized.append(f'Sized.forEach {et}.sized')
                var.append(f'(o.{l}.map {et}.wireSize).sum')
            else:
                sized.append(f'Sized.forEach_const {et}.sized')
                var.append(f'{q.const} * o.{l}.length')
            if q.canon:
                canon.append((l, f'∀ x ∈ o.{l}, {et}.Canon x'))
            if q.nonan:
                nonan.append(f'∀ x ∈ o.{l}, {et}.NoNaN x')
            if q.live:
                live.append(f'∀ x ∈ o.{l}, {et}.Live x')
            I.exact &= q.exact
        elif kd == 'listw':
            _, m, l, nm, by8 = st
            after.append((l, f's.{l} ++ o.{l}'))
            wire.append(f'(∀ x ∈ o.{l}, {FIT[m]} x)')
            okp.append(f'ok_list fun _ => ok_{m}')
            rt.append(f'rt_list_id{"8" if by8 else ""} rt_{m}')
            loc.append(f'Local.times loc_{m} _')
            only.append(f'OnlyStruct.times only_{m} _')
            sized.append(f'Sized.forEach_const sized_{m}')
            var.append(f'{SIZE[m]} * o.{l}.length')
        elif kd == 'throw':
            l = st[1]
            after.append((l, f's.{l} ++ []'))
            wire.append(f'o.{l} = []')
            okp.append('ok_list_throw')
            rt.append(f'rt_list_throw{"8" if any(x[0] == "count" and x[2] == l and x[5] for x in steps) else ""}')
            loc.append('local_throw_times _ _')
            I.onlystruct = False
            sized.append('sized_list_throw')
            canon.append((l, f'o.{l} = []'))
        elif kd == 'null':
            _, l, nm, et = st
            q = si(et)
            after.append((l, f's.{l} ++ []'))
            wire.append(f'(∀ x ∈ o.{l}, {et}.WireOk x)' if q.wire else None)
            okp.append(f'ok_list {et}.ok_iff')
            dec.append(f'o.{l} = []')
            rt.append(f'rt_list_null {{D{len(dec)-1}}}')
            loc.append('local_throw_times _ _')
            I.onlystruct = False
            if q.var:
                sized.append(f'Sized.forEach {et}.sized')
                var.append(f'(o.{l}.map {et}.wireSize).sum')
            else:
                sized.append(f'Sized.forEach_const {et}.sized')
                var.append(f'{q.const} * o.{l}.length')
            canon.append((l, f'o.{l} = []'))
        elif kd == 'arr':
            _, m, l, n = st
            after.append((l, f'o.{l}.take {n}'))
            wire.append(f'({n} ≤ o.{l}.length ∧ ∀ x ∈ o.{l}.take {n}, {FIT[m]} x)')
            okp.append(f'ok_array (fun _ => ok_{m}) _ {n} (by decide)')
            rt.append(f'rt_array rt_{m} o.{l} {n}')
            loc.append(f'Local.times loc_{m} _')
            only.append(f'OnlyStruct.times only_{m} _')
            sized.append(f'sized_array sized_{m} _ _ _')
            const += SIZE[m] * n
            canon.append((l, f'o.{l}.length = {n}'))
        else:
            raise Exception(st)
    onwire = {a[0] for a in after}
    for f, t, d, ln in fi:
        if f not in onwire:
            canon.append((f, f'o.{f} = {d}'))
    # order canon by structure field order for the injectivity proof
    forder = ([f'to{p}'] if p else []) + [f[0] for f in fi]
    I.const, I.var = const, var
    I.wire = any(w for w in wire)
    I.canon = bool(canon)
    I.nonan = bool(nonan)
    I.dec = dec
    I.live = live
    I.steps = steps

    def conj(cs, ind='  '):
        cs = [c for c in cs if c]
        if not cs:
            return ind + 'True'
        return ' ∧\n'.join(ind + (f'({c})' if (c.startswith('∀') or c.startswith('∃')) and i < len(cs) - 1 else c)
                           for i, c in enumerate(cs))
    # ---- spec
    S.append(f'/-- The object `s` after it parsed what `o` serialized: fields of `o`, singles rounded, list elements')
    S.append(f'appended ({cite}). -/')
    S.append(f'def {T}.after (s o : {T}) : {T} :=')
    if after:
        S.append('  { s with\n    ' + ',\n    '.join(f'{a} := {b}' for a, b in after) + ' }')
    else:
        S.append('  s')
    S.append('')
    S.append(f'/-- Every field of `o` fits its wire type ({cite}). -/')
    S.append(f'def {T}.WireOk (o : {T}) : Prop :=')
    S.append(conj(wire))
    S.append('')
    S.append(f'/-- `o` is in the form a fresh `{T}` takes after parsing: singles exact, arrays of the fixed length,')
    S.append(f'attributes that are not on the wire at their initial value ({cite}). -/')
    S.append(f'def {T}.Canon (o : {T}) : Prop :=')
    S.append(conj([c[1] for c in canon]))
    S.append('')
    S.append(f'/-- No single-precision field of `o` is a NaN ({cite}). -/')
    S.append(f'def {T}.NoNaN (o : {T}) : Prop :=')
    S.append(conj(nonan))
    S.append('')
    if dec:
        S.append(f'/-- `o` avoids the lists that `parse` cannot read back ({cite}). -/')
        S.append(f'def {T}.Decodable (o : {T}) : Prop :=')
        S.append(conj(dec))
        S.append('')
    if live:
        S.append(f'/-- `o` avoids the values that `serialize` does not reproduce ({cite}). -/')
        S.append(f'def {T}.Live (o : {T}) : Prop :=')
        S.append(conj(live))
        S.append('')
    S.append(f'/-- Number of bytes `serialize` writes ({cite}). -/')
    sz = ' + '.join(([str(const)] if const or not var else []) + var)
    S.append(f'def {T}.wireSize (o : {T}) : Nat := {sz}')
    S.append('')
    # ---- proofs
    unf_s = f'  unfold {T}.serialize\n'

    # rt
    decarg = ''
    pre = ''
    if dec:
        decarg = f' (hd : {T}.Decodable o)'
        names = [f'd{i}' for i in range(len(dec))]
        pre = f'  obtain ⟨{", ".join(names)}⟩ := hd\n' if len(dec) > 1 else '  have d0 := hd\n'
        for i in range(len(dec)):
            rt = [r.replace('{D%d}' % i, f'd{i}') for r in rt]
    P.append(f'theorem {T}.rt (s o : {T}){decarg} : RT ({T}.serialize o) ({T}.parse s) ({T}.after s o) := by')
    if pre:
        P.append(pre.rstrip())
    P.append(f'  unfold {T}.serialize {T}.parse')
    if not rt:
        P.append('  exact RT.pure _ _')
    else:
        body = ''
        for r in rt[:-1]:
            body += f'RT.bind ({r}) <|\n    '
        body += f'RT.last ({rt[-1]})'
        P.append(f'  exact {body}')
    P.append('')
    P.append(f'theorem {T}.loc (s : {T}) : Local ({T}.parse s) := by')
    P.append(f'  unfold {T}.parse')
    P.append('  exact ' + ''.join(f'Local.bind ({r}) fun _ =>\n    ' for r in loc) + 'Local.pure _')
    P.append('')
    if I.onlystruct:
        P.append(f'theorem {T}.only (s : {T}) : OnlyStruct ({T}.parse s) := by')
        P.append(f'  unfold {T}.parse')
        P.append('  exact ' + ''.join(f'OnlyStruct.bind ({r}) fun _ =>\n    ' for r in only) + 'OnlyStruct.pure _')
        P.append('')
    P.append(f'theorem {T}.sized (o : {T}) : Sized ({T}.serialize o) ({T}.wireSize o) := by')
    P.append(f'  unfold {T}.serialize')
    if not sized:
        P.append('  exact Sized.pure _')
    elif len(sized) == 1:
        P.append(f'  exact ({sized[0]}).of_eq (by simp only [{", ".join(wsz(k))}]; try omega)')
    else:
        body = ''
        for r in sized[:-1]:
            body += f'Sized.bind ({r}) <|\n    '
        body += f'{sized[-1]}'
        P.append(f'  refine Sized.of_eq ({body}) ?_')
        P.append(f'  simp only [{", ".join(wsz(k))}]; try omega')
    P.append('')
    P.append(f'theorem {T}.ok_iff (o : {T}) : ({T}.serialize o).Ok ↔ {T}.WireOk o := by')
    P.append(f'  unfold {T}.serialize {T}.WireOk')
    if not okp:
        P.append('  exact iff_of_true (W.ok_pure _) trivial')
    else:
        term, cond = okp[-1], wire[-1]
        for o_, w_ in list(zip(okp, wire))[:-1][::-1]:
            if w_ and cond:
                nm = 'ok_bind_iff'
            elif w_:
                nm = 'ok_bind_tr'
            elif cond:
                nm = 'ok_bind_tl'
            else:
                nm = 'ok_bind_tt'
            term = f'{nm} ({o_}) <|\n    {term}'
            cond = w_ or cond
        P.append(f'  exact {term}')
    P.append('')
    if not abstract:
        # after_canon
        P.append(f'theorem {T}.after_canon {{o : {T}}} (h : {T}.Canon o) : {T}.after {T}.init o = o := by')
        ac = ac_proof(k, T, canon, forder, p, ft, fd, steps)
        P += ac
        P.append('')
    elif T != 'LinearObjectStatePdu':
        # relative to a base object whose off-wire attributes agree: all fields are on the wire
        P.append(f'theorem {T}.after_canon {{s o : {T}}} (h : {T}.Canon o) : {T}.after s o = o := by')
        P += ac_proof(k, T, canon, forder, p, ft, fd, steps, abstract=True)
        P.append('')
    # post
    if T != 'LinearObjectStatePdu':
      P += post_proof(k, T, steps, wire, canon, nonan, live, ft, p, I, fi, abstract)
    return '\n'.join(S), '\n'.join(P)


def wsz(k):
    out = [f'{k.name}.wireSize']
    p = parent(k)
    if p:
        out.append(f'{p}.wireSize')
        out += wsz(classes[p])[1:]
    for st in infos[k.name].steps:
        if st[0] == 'obj':
            t = dict((f[0], f[1]) for f in field_info(k))[st[1]]
            for x in (wsz(classes[t]) if t not in SKIP else [f'{t}.wireSize']):
                if x not in out:
                    out.append(x)
    return list(dict.fromkeys(out))


def ac_proof(k, T, canon, forder, p, ft, fd, steps, abstract=False):
    L = []
    if not forder:
        return ['  rfl']
    cf = [c[0] for c in canon]
    names = {c[0]: f'h_{c[0]}' for c in canon}
    if len(canon) > 1:
        L.append('  obtain ⟨' + ', '.join(names[c[0]] for c in canon) + '⟩ := h')
    elif len(canon) == 1:
        L.append(f'  have {names[canon[0][0]]} := h')
    proofs = []
    bystep = {}
    for st in steps:
        if st[0] == 'obj':
            bystep[st[1]] = st
        elif st[0] in ('w', 'use', 'arr'):
            bystep[st[2]] = st
        elif st[0] in ('list', 'throw', 'null'):
            bystep[st[1]] = st
        elif st[0] == 'listw':
            bystep[st[2]] = st
        elif st[0] == 'count' and st[4] and st[3] in ft:
            bystep[st[3]] = st
    for f in forder:
        if p and f == f'to{p}':
            if not any(s[0] == 'super' for s in steps):
                raise Exception(T)
            arg = names[f] if f in names else 'trivial'
            proofs.append(f'{p}.after_canon {arg}')
            continue
        st = bystep.get(f)
        h = names.get(f)
        if st is None:
            proofs.append(f'{h}.symm')
        elif st[0] == 'obj':
            proofs.append(f'{ft[f]}.after_canon {h or "trivial"}')
        elif st[0] == 'w':
            proofs.append(h or 'rfl')
        elif st[0] == 'use':
            proofs.append(f'canon_use_{"int" if ft[f].startswith("IntOr") else "some"} {h}')
        elif st[0] == 'arr':
            proofs.append(f'List.take_of_length_le (Nat.le_of_eq {h})')
        elif st[0] == 'list':
            proofs.append(f'canon_list fun x hx => {st[3]}.after_canon ' + (f'({h} x hx)' if h else 'trivial'))
        elif st[0] == 'listw':
            proofs.append('rfl')
        elif st[0] in ('throw', 'null'):
            proofs.append(f'{h}.symm')
        elif st[0] == 'count':
            proofs.append(f'{h}.symm')
    if len(proofs) == 1:
        L.append(f'  cases o; exact ({T}.mk.injEq ..).mpr ({proofs[0]})')
    else:
        L.append('  cases o')
        L.append(f'  exact ({T}.mk.injEq ..).mpr ⟨' + ',\n    '.join(proofs) + '⟩')
    return L


def post_proof(k, T, steps, wire, canon, nonan, live, ft, p, I, fi, abstract):
    L = []
    init = f'{T}.init' if not abstract else 's'
    body = f'{T}.WireOk o ∧ {T}.Canon o'
    if I.exact:
        body = f'({body}) ∧ ({T}.NoNaN o → ({T}.serialize o).Emits b)'
    if live:
        body = f'{T}.Live o → {body}'
    arg = f' (s : {T})' if abstract else ''
    b = 'b' if I.exact else '_'
    L.append(f'theorem {T}.post{arg} : Post ({T}.parse {init}) (fun {b} o => {body}) := by')
    L.append(f'  unfold {T}.parse')
    if not steps:
        L.append('  exact Post.pure _ ⟨⟨trivial, trivial⟩, fun _ => W.emits_pure _⟩')
        L.append('')
        return L
    wp, cp, ep = [], {}, []
    nn_names = []
    lv = []
    nl = 0
    subst = []
    emits = []
    wirep = []
    n = len(steps)
    for i, st in enumerate(steps):
        kd = st[0]
        last = i == n - 1
        h = f'h{i}'
        if kd == 'super':
            post = f'{p}.post _'
            q = infos[p]
            key = f'to{p}'
            t = p
        elif kd == 'obj':
            t = ft[st[1]]
            post = f'{t}.post'
            q = infos[t]
            key = st[1]
        elif kd in ('w', 'use', 'zero', 'count'):
            post = f'post_{st[1]}'
        elif kd == 'list':
            q = infos[st[3]]
            post = None
            if q.live:
                post = f'Post.times_live{"" if q.exact else "_lossy"} {st[3]}.post _'
            elif q.exact:
                post = f'Post.times {st[3]}.post _'
            else:
                post = f'Post.times\' {st[3]}.post _'
        elif kd in ('throw', 'null'):
            post = 'Post.times_throw _ _'
        elif kd == 'listw':
            post = f'Post.times_all post_{st[1]} _'
        elif kd == 'arr':
            post = f'Post.times_all post_{st[1]} _'
        if last:
            L.append(f'  refine Post.last ({post}) fun a{i} b{i} {h} => ?_')
        else:
            L.append(f'  refine Post.bind ({post}) fun a{i} b{i} {h} => ?_')
        # facts
    if live:
        names = [f'l{j}' for j in range(len(live))]
        L.append('  intro hlive')
        L.append(f'  obtain ⟨{", ".join(names)}⟩ := hlive' if len(live) > 1 else '  have l0 := hlive')
    li = 0
    ni = 0
    for i, st in enumerate(steps):
        kd = st[0]
        h = f'h{i}'
        if kd in ('super', 'obj'):
            t = p if kd == 'super' else ft[st[1]]
            key = f'to{p}' if kd == 'super' else st[1]
            q = infos[t]
            hh = h
            if q.live:
                hh = f'({h} l{li})'
                li += 1
            if q.exact:
                w, c = f'{hh}.1.1', f'{hh}.1.2'
            else:
                w, c = f'{hh}.1', f'{hh}.2'
            if q.wire:
                wirep.append(w)
            if q.canon:
                cp[key] = c
            if q.nonan:
                emits.append(f'{hh}.2 n{ni}')
                ni += 1
            else:
                emits.append(f'{hh}.2 trivial')
        elif kd == 'w':
            m, f = st[1], st[2]
            if m in SINGLE:
                wirep.append(f'{h}.1.1')
                cp[f] = f'{h}.1.2'
                emits.append(f'{h}.2 n{ni}')
                ni += 1
            elif m in DOUBLE:
                emits.append(h)
            else:
                wirep.append(f'{h}.1')
                emits.append(f'{h}.2')
        elif kd == 'zero':
            emits.append('??')
        elif kd == 'use':
            wirep.append(f'⟨a{i}, rfl, {h}.1⟩')
            cp[st[2]] = f'⟨a{i}, rfl⟩'
            emits.append(f'{h}.2')
        elif kd == 'count':
            # find the loop
            l = st[2]
            j = [x for x, s2 in enumerate(steps) if (s2[0] in ('list', 'throw', 'null') and s2[1] == l) or (s2[0] == 'listw' and s2[2] == l)]
            if not j:
                # list parsed through a delegate object: count only
                raise Exception((T, 'count without loop'))
            j = j[0]
            if st[1] in ('byte', 'short'):
                L.append(f'  obtain rfl : a{i} = (a{j}.length : Int) := count_eq l{li} (h{j}.1)')
                li += 1
            elif steps[j][0] in ('throw', 'null'):
                if not st[5]:
                    L.append(f'  obtain rfl : a{i} = 0 := zero_eq {h}.1.1 h{j}.1')
            elif st[5]:
                pass
            else:
                L.append(f'  obtain rfl : a{i} = (a{j}.length : Int) := count_eq {h}.1.1 h{j}.1')
            if st[5] and steps[j][0] in ('throw', 'null'):
                wirep.append('U16_zero')
            elif st[5]:
                wirep.append(f'count8_ok {h}.1 h{j}.1')
            else:
                wirep.append(f'{h}.1')
            if st[4] and st[3] in ft:
                cp[st[3]] = 'rfl'
            emits.append(f'{h}.2')
        elif kd == 'list':
            q = infos[st[3]]
            h2 = f'{h}'
            if q.live:
                h2 = f'({h}.2 l{li})'
                li += 1
                if q.exact:
                    w = f'fun x hx => ({h2}.1 x hx).1'
                    c = f'fun x hx => ({h2}.1 x hx).2'
                    e = f'{h2}.2'
                else:
                    w = f'fun x hx => ({h2} x hx).1'
                    c = f'fun x hx => ({h2} x hx).2'
                    e = '??'
            else:
                if q.exact:
                    w = f'fun x hx => ({h}.2.1 x hx).1'
                    c = f'fun x hx => ({h}.2.1 x hx).2'
                    e = f'{h}.2.2'
                else:
                    w = f'fun x hx => ({h}.2 x hx).1'
                    c = f'fun x hx => ({h}.2 x hx).2'
                    e = '??'
            if q.wire:
                wirep.append(w)
            if q.canon:
                cp[st[1]] = c
            if q.nonan:
                e += f' n{ni}'
                ni += 1
            else:
                e += ' (fun _ _ => trivial)'
            emits.append(e)
        elif kd == 'listw':
            wirep.append(f'{h}.2.1')
            emits.append(f'{h}.2.2')
        elif kd in ('throw',):
            wirep.append(f'{h}.2.1')
            cp[st[1]] = f'{h}.2.1'
            emits.append(f'emits_nil {h}.2.1 {h}.2.2')
        elif kd == 'null':
            wirep.append(f'all_nil {h}.2.1')
            cp[st[1]] = f'{h}.2.1'
            emits.append(f'emits_nil {h}.2.1 {h}.2.2')
        elif kd == 'arr':
            wirep.append(f'⟨Nat.le_of_eq {h}.1.symm, fun x hx => {h}.2.1 x (List.mem_of_mem_take hx)⟩')
            cp[st[2]] = f'{h}.1'
            emits.append(f'emits_array {h}.1 {h}.2.2')
    def tup(xs):
        if not xs:
            return 'trivial'
        if len(xs) == 1:
            return xs[0]
        return '⟨' + ', '.join(xs) + '⟩'
    cps = [cp.get(c[0], 'rfl') for c in canon]
    main = f'⟨{tup(wirep)},\n    {tup(cps)}⟩'
    # fix up zero counts for throw/null
    for i, st in enumerate(steps):
        if st[0] in ('throw', 'null'):
            # substitute the empty list so that length 0 shows
            L.append(f'  obtain ⟨-, rfl, rfl⟩ := h{i}')
            wirep = [w.replace(f'h{i}.2.1', 'rfl').replace('all_nil rfl', '(fun _ hx => nomatch hx)') for w in wirep]
            cps = [c.replace(f'h{i}.2.1', 'rfl') for c in cps]
            emits = [e.replace(f'emits_nil h{i}.2.1 h{i}.2.2', 'W.emits_pure ()') for e in emits]
    main = f'⟨{tup(wirep)},\n    {tup(cps)}⟩'
    if not I.exact:
        L.append(f'  exact {main}')
    else:
        em = ''
        for e in emits[:-1]:
            em += f'W.Emits.bind ({e}) <|\n      '
        em += emits[-1]
        if nonan:
            nn = [f'n{j}' for j in range(len(nonan))]
            pat = f'⟨{", ".join(nn)}⟩' if len(nn) > 1 else nn[0]
            if len(nn) > 1:
                L.append(f'  refine ⟨{main}, fun hn => ?_⟩')
                L.append(f'  obtain {pat} := hn')
            else:
                L.append(f'  refine ⟨{main}, fun n0 => ?_⟩')
        else:
            L.append(f'  refine ⟨{main}, fun _ => ?_⟩')
        L.append(f'  exact {em}')
    L.append('')
    return L


ABSTRACT = set()


def classify():
    for n, k in classes.items():
        q = n
        ispdu = False
        has = False
        while q:
            ispdu |= q == 'PduSuperclass'
            has |= 'pduType' in classes[q].attrs
            q = parent(classes[q])
        if (ispdu and not has) or n == 'LinearObjectStatePdu':
            ABSTRACT.add(n)


HS = '''import {imp}

/-!
# {title}

Generated by `tools/genproof.py`.
-/

set_option linter.unusedVariables false
set_option linter.unusedSimpArgs false

namespace Dis

'''


def main():
    classify()
    mods = gen.main()
    recs_prev = ''
    os.makedirs(os.path.join(ROOT, 'Spec'), exist_ok=True)
    prevS = None
    prevP = 'Verif.Proof.Wire'
    bad = []
    for name, cl, title in mods:
        S, P = [], []
        for c in cl:
            k = classes[c]
            if c in SKIP:
                infos[c] = HANDINFO[c]
                hand = os.path.join(os.path.dirname(__file__), 'hand', c)
                S.append(open(hand + '.spec').read())
                P.append(open(hand + '.proof').read())
                continue
            if k.ser is None or k.par is None:
                print('no wire methods', c)
                continue
            st, why = align(k)
            if st is None:
                bad.append((c, why))
                continue
            missing = [t for t in gen.deps(k) if t not in infos]
            if missing:
                bad.append((c, 'depends on ' + ' '.join(missing)))
                continue
            a, b = gen_class(k)
            S.append(a)
            P.append(b)
        imp = f'Verif.Model.{name}' + (f'\nimport {prevS}' if prevS else '\nimport Verif.Spec')
        open(os.path.join(ROOT, 'Spec', name + '.lean'), 'w').write(
            HS.format(imp=imp, title='Specification of: ' + title) + '\n'.join(S) + '\nend Dis\n')
        prevS = f'Verif.Spec.{name}'
        open(os.path.join(ROOT, 'Proof', name + '.lean'), 'w').write(
            HS.format(imp=f'Verif.Spec.{name}\nimport {prevP}', title='Proofs for: ' + title) + '\n'.join(P) + '\nend Dis\n')
        prevP = f'Verif.Proof.{name}'
    for b in bad:
        print('BAD', b)


def hand_info(const, var, wire=True, canon=True, dec=(), live=(), exact=True):
    I = Info()
    I.const, I.var, I.wire, I.canon, I.nonan = const, list(var), wire, canon, False
    I.dec, I.live, I.exact, I.onlystruct, I.steps = list(dec), list(live), exact, True, []
    return I


HANDINFO = {
    'VariableDatum': hand_info(8, ['(o.variableDatumLength / 8).toNat', '((-o.variableDatumLength) % 64 / 8).toNat'],
                               exact=False),
    'BeamStatus': hand_info(1, [], wire=False, exact=False),
    'IFFData': hand_info(6, ['1 * o.iffData.length'], dec=['x'], live=['x']),
    'SilentAggregateSystem': hand_info(10, [], live=['x']),
}
if __name__ == '__main__':
    main()
