"""Generates lean/Verif/Model/HeapArgs.lean (constructors with arguments by name), lean/Verif/Spec/HeapCtors.lean
(what each parameter stands for) and lean/Verif/Proof/HeapArgs*.lean, from the constructors in
lean/Verif/Model/Heap*.lean.

  python3 tools/genheapargs.py        (run in /verif, after tools/genheap.py)
"""
import os
import re

L = os.path.join(os.path.dirname(os.path.abspath(__file__)), '../lean/Verif')
HEAD = '''{imp}
/-!
# {title}

Generated by `tools/genheapargs.py`{more}.
-/

set_option linter.unusedVariables false
set_option linter.unusedSimpArgs false

namespace Dis

'''
SIMP = 'Tree.ints, Tree.objs, Tree.optInt, Tree.optObj, Tree.intOr, Tree.optFloat, Tree.noneOr, IntercomParametersValue.tree'
PARTS = 3
LOW = '''  have run : ∀ v : Int, H.argInt (H.arg kv "PAR" (.int 0)) = Pure.pure v → CLS.callHeap kv = CLS.newHeap v := by
    intro v hv
    simp only [CLS.callHeap, hv]
    rfl
  intro h F s A
  have l : (kv.map (·.2)).length = (kt.map (·.2)).length := by simpa using congrArg List.length e
  unfold HoldsEach at A
  rw [List.map_fst_zip (Nat.le_of_eq l), List.map_snd_zip (Nat.le_of_eq l.symm)] at A
  obtain ⟨F', B, w⟩ := HoldsAll.select [("PAR", .int 0)] (by simp) e A
  have q : ∃ x v, (attrOf "PAR" kt).getD (.sc (.int 0)) = .sc x ∧ H.argInt (.sc x) = Pure.pure v ∧
      Ctor.CLS.built kt = .obj (Dis.CLS.members ⟨v % 2⟩) := by
    cases a : attrOf "PAR" kt with
    | none => exact ⟨_, 0, rfl, rfl, by simp [Ctor.built, Ctor.CLS, Param.put, Tree.change, a, Keeps.value]; rfl⟩
    | some t =>
      rcases ok.suits ⟨"PAR", ["PAR"], .lowBit⟩ (by simp [Ctor.CLS]) t a with ⟨v, rfl⟩ | ⟨b, rfl⟩
      · exact ⟨_, v, rfl, rfl, by simp [Ctor.built, Ctor.CLS, HeapClass.CLS, InPlace.value, InPlace.CLS, Codec.CLS, Param.put, Tree.change, a, Keeps.value, SF]⟩
      · refine ⟨_, _, rfl, rfl, ?_⟩
        simp [Ctor.built, Ctor.CLS, HeapClass.CLS, InPlace.value, InPlace.CLS, Codec.CLS, Param.put, Tree.change, a, Keeps.value, SF]
        cases b <;> rfl
  obtain ⟨x, v, q1, qv, q2⟩ := q
  obtain ⟨G, _, _, C, _, _⟩ := HoldsAll.uncons B
  replace C : Holds h (H.arg kv "PAR" (.int 0)) ((attrOf "PAR" kt).getD (.sc (.int 0))) G := C
  rw [q1] at C
  have q3 : H.argInt (H.arg kv "PAR" (.int 0)) = Pure.pure v := by rw [C.sc_iff, qv]
  obtain ⟨r, h', G, e, C, g⟩ := CLS.builds v h [] s .nil
  refine ⟨r, h', G, ?_, q2 ▸ C, g.fewer (fun _ h => nomatch h) fun _ h => h⟩
  show CLS.callHeap kv h s = _
  rw [run v q3, e]'''


def read(f):
    return open(f'{L}/{f}').read()


def parse():
    """class -> (cite, params [(name, type, default)], statements)"""
    out = {}
    for f in ['Heap1', 'Heap2', 'Heap3', 'Heap4', 'Heap5', 'HeapSpecial']:
        txt = read(f'Model/{f}.lean')
        for m in re.finditer(r'/-- `(\w+)\(\.\.\.\)`, (\S+?)\. -/\ndef \w+\.newHeap', txt):
            out[m.group(1)] = [m.group(2), None, None]
        for m in re.finditer(r'^def (\w+)\.initHeap \(self : Ref\)(.*?) : H Unit := do\n(.*?)\n\n', txt, re.M | re.S):
            T = m.group(1)
            if T not in out:
                continue
            ps = re.findall(r'\((\w+) : (Val|Int) := ((?:[^()]|\((?:[^()]|\([^()]*\))*\))*)\)', m.group(2))
            st, cur = [], None
            for line in m.group(3).split('\n'):
                if line.startswith('      '):
                    st[-1] += '\n' + line
                else:
                    st.append(line.strip())
            out[T][1:] = [ps, st]
    return out


def chains():
    """class -> list of members definitions to unfold, parent"""
    out = {}
    for f in ['HeapFields', 'HeapFieldsSpecial']:
        for m in re.finditer(r'^def (\w+)\.members \(_?o : \w+\) : List \(String × Tree\) :=\s+(?:(\w+)\.members o\.to\w+ \+\+)?', read(f'Spec/{f}.lean'), re.M):
            out[m.group(1)] = m.group(2)
    return out


PARENT = chains()


def sf(T):
    o = []
    while T:
        o.append(f'{T}.members')
        T = PARENT[T]
    return ', '.join(o)


def templates():
    """class -> literal start of the theorem `inits`, class attribute numbers"""
    out = {}
    for f in ['HeapClasses1', 'HeapClasses2', 'HeapClasses3', 'HeapClasses4', 'HeapClasses5', 'HeapSpecial']:
        txt = read(f'Proof/{f}.lean')
        for m in re.finditer(r'^theorem (\w+)\.inits (\(p pf : Int\) )?\(ex : List \(String × Tree\)\) : Inits \(fun self => \w+\.initHeap self\)\n(.*?)\n      \(\w+\.members \{.*?\} \+\+ ex\) := by', txt, re.M | re.S):
            T = m.group(1)
            n = re.search(r'^theorem %s\.makesNew : .*?\n  \.new \(\.cast \(\w+\.inits (?:(\d+) (\d+) )?\[\]\)' % T, txt, re.M)
            if n:
                out[T] = (m.group(3).strip(), n.group(1), n.group(2), bool(m.group(2)))
    return out


def classes():
    txt = read('Spec/HeapCatalog.lean')
    groups = re.findall(r'^def (heap\w+) : List HeapClass :=\n  \[(.*?)\]\n', txt, re.M | re.S)
    return [(g, re.findall(r'\.(\w+)', b)) for g, b in groups]


def wrap(items, ind='   ', w=110, sep=', '):
    out, line = [], ''
    for i, it in enumerate(items):
        piece = it + (sep if i < len(items) - 1 else '')
        if line and len(ind) + len(line) + len(piece.rstrip()) > w:
            out.append(line.rstrip())
            line = ''
        line += piece
    out.append(line)
    return ('\n' + ind).join(out)


def main():
    K = parse()
    tm = templates()
    groups = classes()
    model = [HEAD.format(imp='import Verif.Model.HeapFactory\n', title='Constructors called with arguments by name', more=' from `Verif.Model.Heap1` to `Heap5` and `HeapSpecial`').rstrip(), '''
/-- The argument for a parameter, or its default value (e.g. /repo/opendis/dis7.py:3770-3776). -/
def H.arg (args : List (String × Val)) (n : String) (d : Scalar) : Val := (attrOf n args).getD (.sc d)

/-- An operand of `&` (/repo/opendis/dis7.py:3156); `TypeError` for others than integers
and `bool`. -/
def H.argInt (v : Val) : H Int :=
  match v with
  | .sc (.int v) => pure v
  | .sc (.bool b) => pure (if b then 1 else 0)
  | _ => H.throw .typeError
''']
    spec = [HEAD.format(imp='import Verif.Spec.HeapArgs\nimport Verif.Model.HeapArgs\n', title='What the parameters of each constructor stand for', more='').rstrip(), '']
    proofs = []
    allg = []
    for g, ts in groups:
        cg = g.replace('heap', 'ctors')
        allg.append(cg)
        for T in ts:
            cite, ps, st = K[T]
            tmpl, p, pf, pdu = tm[T]
            defaults = {}
            for n, t, d in ps:
                m = re.fullmatch(r'\.sc (.*)', d)
                defaults[n] = m.group(1) if m else f'(.int {d})'
            defaults = {n: d[1:-1] if d.startswith('(') else d for n, d in defaults.items()}
            # model
            call = []
            for n, t, d in ps:
                dd = defaults[n]
                dd = dd if ' ' not in dd else f'({dd})'
                call.append(f'(H.arg args "{n}" {dd})' if t == 'Val' else f'(← H.argInt (H.arg args "{n}" {dd}))')
            ints = any(t == 'Int' for _, t, _ in ps)
            un = 'args' if ps else '_args'
            model += [f'/-- `{T}(...)` with arguments by name, {cite}. -/', f'def {T}.callHeap ({un} : List (String × Val)) : H Ref :=' + (' do' if ints else ''),
                      '  ' + wrap([f'{T}.newHeap'] + call, '    ', sep=' '), '']
            # spec
            inp = '' if g == 'heapAlone' else f'InPlace.value, InPlace.{T}, Codec.{T}, '
            use, order, steps, vals, nest = {}, [], [], {}, ''
            for s in st:
                if s == 'pure ()':
                    continue
                m = re.fullmatch(r'(\w+)\.initHeap self', s)
                if m:
                    steps.append(f'.inits ({m.group(1)}.inits {p} {pf} _)' if pdu else f'.inits ({m.group(1)}.inits _)')
                    continue
                have = f'(by simp [attrOf_putAttr_isSome, attrOf, {sf(T)}])'
                m = re.fullmatch(r'H\.setAttr self "(\w+)" (\w+)', s)
                if m:
                    f, x = m.groups()
                    assert x not in use, (T, x)
                    use[x] = ([f], 'asIs')
                    order.append(x)
                    vals[f] = f'{x}.2'
                    steps.append(f'.arg (p := {x}) {have}')
                    continue
                m = re.fullmatch(r'H\.setAttr self "(\w+)" \((\.sc .*)\)', s)
                if m:
                    f, v = m.groups()
                    m2 = re.search(r'\((\w+) % 2\)', v)
                    if m2:
                        x = m2.group(1)
                        use[x] = ([f], 'lowBit')
                    vals[f] = v
                    steps.append(f'.inits (.set\' {have})')
                    continue
                m = re.fullmatch(r'H\.setOr self "(\w+)" (\w+) (.*)', s)
                if m:
                    f, x, e = m.groups()
                    assert x not in use, (T, x)
                    use[x] = ([f], 'orFresh')
                    order.append(x)
                    mk, tr = maker(e)
                    vals[f] = f'{x}.2.or ({tr})'
                    steps.append(f'.or (p := {x}) {mk} {have}')
                    continue
                m = re.fullmatch(r'H\.setNew self "(\w+)" \(H\.listOrNew (\w+)\)', s)
                if m:
                    f, x = m.groups()
                    use[x] = ([f], 'copy')
                    order.append(x)
                    vals[f] = f'{x}.2.or (.list [])'
                    steps.append(f'.copy (p := {x}) ok_{x} {have}')
                    continue
                m = re.fullmatch(r'H\.setNew self "(\w+)" \(H\.zeros (\d+)\)', s)
                if m:
                    f, e = m.groups()
                    mk, tr = maker(f'(H.zeros {e})')
                    vals[f] = tr
                    steps.append(f'.inits (.setNew\' {mk} {have})')
                    continue
                m = re.search(r'H\.setNew self "(\w+)" \(do\n((?:      let \w+ ← H\.orNew \w+ \(H\.alloc \(\.list \[\]\)\)\n)+)      (\w+)\.newHeap ((?:\w+ ?)+)\)', s)
                assert m, (T, s)
                f, _, U, xs = m.groups()
                xs = xs.split()
                assert len(xs) == 2
                nest = f', {U}.members, {U}.init'
                subs = [re.search(r'H\.setOr self "(\w+)" %s ' % n, '\n'.join(K[U][2])).group(1) for n, _, _ in K[U][1]]
                for x, sub in zip(xs, subs):
                    assert x not in use
                    use[x] = ([f, sub], 'orFresh')
                    order.append(x)
                vals[f] = f'.obj [' + ', '.join(f'("{sub}", ({x}.2.or (.list [])).or (.list []))' for x, sub in zip(xs, subs)) + ']'
                steps.append(f'.lists (p := {xs[0]}) (q := {xs[1]}) (k := fun a b => {U}.newHeap a b)\n      (t := fun t u => .obj [("{subs[0]}", t.or (.list [])), ("{subs[1]}", u.or (.list []))]) {U}.builds {have}')
            items = []
            for n, t, d in ps:
                path, how = use.get(n, ([], 'asIs'))
                items.append('⟨"%s", [%s], .%s⟩' % (n, ', '.join(f'"{q}"' for q in path), how))
            spec += [f'/-- The constructor of `{T}` ({cite}). -/', f'def Ctor.{T} : Ctor where', f'  cls := .{T}',
                     '  params :=', '    [' + wrap(items, '     ') + ']', f'  new := Dis.{T}.callHeap', '']
            # proof
            lost = [n for n, t, d in ps if n not in use]
            order += lost
            own = re.findall(r'\("(\w+)", (\.sc (?:\.\w+|\(.*?\)))\)', tmpl)
            par = PARENT[T]
            if any(s.startswith('.inits (') and '.inits' in s[8:] for s in steps):
                pm = parent_fields(tmpl)
                fields = own[pm:]
                base = f'{par}.members {{ pduType := {p}, protocolFamily := {pf} }} ++ ' if pdu else f'{par}.members {{}} ++ '
            else:
                fields = own
                base = ''
            final = '[' + wrap([f'("{f}", {vals.get(f, v)})' for f, v in fields], '      ') + ']'
            if base:
                final = f'({base}({final} : List (String × Tree)))'
            o = []
            low = [n for n, t, d in ps if t == 'Int']
            cp = [n for n in use if use[n][1] == 'copy']
            vs = ' '.join(n for n, t, d in ps if t == 'Val')
            sig = (f' ({vs} : Val × Tree)' if vs else '') + ''.join(f' ({n} : Int)' for n in low) + ''.join(f' (ok_{n} : Keeps.Accepts .copy {n}.2)' for n in cp)
            args = ''.join(f' {n}.1' if t == 'Val' else f' {n}' for n, t, d in ps)
            start = tmpl.replace('(.int p)', f'(.int {p})').replace('(.int pf)', f'(.int {pf})').replace(' ++ ex)', ' ++ [])').replace('(ex)', '([])')
            start = start if ascribed(tmpl) else re.sub(r'(\[\("[^\[\]]*\]) \+\+', r'(\1 : List (String × Tree)) ++', start)
            o += [f'theorem {T}.builds{sig} :', f'    Builds ({T}.newHeap{args}) [' + ', '.join(order) + ']', f'      (.obj {final if base else final}) := by',
                  f'  have a : Fills (fun self => {T}.initHeap self{args}) [' + ', '.join(order) + ']', f'      {start} [{", ".join(lost)}]', f'      {final} := by',
                  f'    unfold {T}.initHeap']
            for i, t in enumerate(steps):
                if i < len(steps) - 1:
                    o.append(f'    refine .bind ({t}) ?_')
                else:
                    o.append(f'    exact .cast ({t})\n      (by simp [putAttr, {sf(T)}, {SIMP}])')
            if not steps:
                o.append(f'    exact .cast (.inits .done) (by simp [{sf(T)}])')
            o += ['  exact .new a', '']
            ns = '[' + ', '.join(f'("{n}", {defaults[n]})' for n in order) + ']'
            pick = ' '.join(f'((attrOf "{n}" kv).getD (.sc ({defaults[n]})), (attrOf "{n}" kt).getD (.sc ({defaults[n]})))' for n, t, d in ps if t == 'Val')
            o += [f'theorem Ctor.{T}.lawful : Ctor.{T}.Lawful := by', '  intro kv kt e ok']
            o += [f'  refine .select {ns} (by simp) e ?_'] if not low else []
            for n in cp:
                o.append(f'  have c : Keeps.Accepts .copy ((attrOf "{n}" kt).getD (.sc ({defaults[n]}))) := Ctor.copy_suits ok ⟨"{n}", {lst(use[n][0])}, .copy⟩ (by simp [Ctor.{T}]) rfl')
            if low:
                o += LOW.replace('CLS', T).replace('PAR', low[0]).replace('SF', sf(T)).split('\n')
            else:
                o += [f'  exact .cast ({T}.builds {pick}{" c" * len(cp)}) (by',
                      f'    simp [Ctor.built, Ctor.{T}, HeapClass.{T}, {inp}{T}.init, Param.put, Tree.change, value_asIs, value_orFresh, value_copy, Tree.or_list, {sf(T)}{nest}, {SIMP}])']
            o.append('')
            proofs.append('\n'.join(o))
        spec += [f'/-- Constructors of `{g}` (/repo/opendis). -/', f'def {cg} : List Ctor :=', '  [' + ',\n   '.join('.' + T for T in ts) + ']', '']
    spec += ['/-- The constructors (/repo/opendis). -/', 'def heapCtors : List Ctor :=', '  ' + ' ++\n  '.join(allg), '', 'end Dis', '']
    model += ['end Dis', '']
    write('Model/HeapArgs.lean', '\n'.join(model))
    write('Spec/HeapCtors.lean', '\n'.join(spec))
    n = (len(proofs) + PARTS - 1) // PARTS
    for i in range(PARTS):
        write(f'Proof/HeapCtors{i + 1}.lean', HEAD.format(imp=('import Verif.Proof.HeapArgs\nimport Verif.Spec.HeapCtors\n' if i == 0 else f'import Verif.Proof.HeapCtors{i}\n'), title=f'Constructors with arguments, part {i + 1}', more='') +
              '\n'.join(proofs[i * n:(i + 1) * n]) + '\nend Dis\n')
    p = [HEAD.format(imp=''.join(f'import Verif.Proof.HeapCtors{i + 1}\n' for i in range(PARTS)), title='Constructors with arguments, all of them', more='').rstrip(), '']
    for g, ts in groups:
        cg = g.replace('heap', 'ctors')
        p += [f'theorem {cg}_lawful : ∀ c ∈ {cg}, c.Lawful := by', '  intro c hc',
              f'  simp only [{cg}, List.mem_cons, List.not_mem_nil, or_false] at hc',
              '  rcases hc with ' + ' | '.join(['rfl'] * len(ts))] + [f'  · exact Ctor.{T}.lawful' for T in ts] + ['']
    pat = 'h'
    for _ in allg[1:]:
        pat = f'({pat} | h)'
    p += ['theorem heapCtors_lawful : ∀ c ∈ heapCtors, c.Lawful := by', '  intro c hc', '  simp only [heapCtors, List.mem_append] at hc',
          f'  rcases hc with {pat}'] + [f'  · exact {cg}_lawful c h' for cg in allg] + ['', 'end Dis', '']
    write('Proof/HeapCtors.lean', '\n'.join(p))


def ascribed(tmpl):
    return '] : List' in tmpl


def lst(q):
    return '[' + ', '.join(f'"{x}"' for x in q) + ']'


def parent_fields(tmpl):
    """number of attributes of the ancestors in a template `[..] ++ ([..] ++ ([..] ++ ex))`"""
    parts = re.split(r'\](?: : List \(String × Tree\)\))? \+\+\s', tmpl)
    return sum(len(re.findall(r'\("\w+", ', x)) for x in parts[:-2]) if len(parts) > 2 else 0


def maker(e):
    m = re.fullmatch(r'(\w+)\.newHeap', e)
    if m:
        return f'{m.group(1)}.makesNew', f'.obj ({m.group(1)}.members {m.group(1)}.init)'
    if e == '(H.alloc (.list []))':
        return '.empty', '.list []'
    m = re.fullmatch(r'\(H\.zeros (\d+)\)', e)
    return f'(.zeros {m.group(1)})', f'.list ((List.replicate {m.group(1)} (0 : Int)).map fun v => .sc (.int v))'


def write(path, txt):
    open(os.path.join(L, path), 'w').write(txt)


main()
