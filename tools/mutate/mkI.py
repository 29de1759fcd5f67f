import json
F='Verif/Py/Source.lean'
L=[]
def m(w,old,new,claim,exp='C77',f=F):
    L.append(dict(id=f'I{len(L)+1:02d}',file=f,within=w,old=old,new=new,definition=w,claim=claim,expect=[exp]))
m('truth','| .int v => v != 0','| .int _ => true','an argument 0 counts as missing in `x or y`; `if self.flag` is false for 0')
m('truth','| .list l => !l.isEmpty','| .list _ => true','an empty list given to a constructor is replaced by a new one')
m('binary','pure (.int (a - b))','pure (.int (b - a))','paddings are computed by subtraction in this order')
m('binary','pure (.int (a.fmod b))','pure (.int (a.fmod b + 1))','remainders')
m('compare','pure (.bool (decide (a < b)))','pure (.bool (decide (a ≤ b)))','bounds of lengths')
m('compare','| .isNot, _, .none, _, _ => pure (.bool true)','| .isNot, _, .none, _, _ => pure (.bool false)','`is not None` holds for values')
m('rangeOf','[.int a, .int b] => pure (.list ((List.range (b - a).toNat)','[.int a, .int b] => pure (.list ((List.range (b - a + 1).toNat)','`range(0, n)` has n elements')
m('getAttr','| true => fun st =>\n      match C c f v [] [] st.io with\n      | (r, _, io) => (r, { st with io })','| true => M.get .attributeError (look f fs)','reading a property runs its method','C80')
m('store','| true => M.throw .attributeError','| true => M.setVar x (.obj c (put f v fs))','properties without a setter cannot be assigned','C80')
m('callMethod','(.list (l ++ [a]))','(.list (a :: l))','append adds at the end')
m('callMethod','| (.ok _, st\') => (r, st\')\n','| (.ok _, st\') => (r.bind fun _ => .ok .none, st\')\n','a method returns its value')
m('callSuper','(r, ⟨put W.self self\' st.locals, io⟩)','(r, { st with io })','what super().__init__ sets is kept')
m('resolve','| some d => some (c, d)\n      | .none => match k.base with\n        | some b => resolve P n b m\n        | .none => .none','| some d => some (c, d)\n      | .none => .none','methods are inherited')
m('construct','| (.error e, _, io) => (.error e, { st with io })','| (.error _, v, io) => (.ok v, { st with io })','an exception in __init__ is that of the constructor')
m('classAttrs','| some v => put a.1 v fs','| some _ => fs','objects have the attributes of their class')
m('held','vs.headD 0 % 2 ^ w','vs.headD 0','bit fields cut off what does not fit')
m('primitive','pure (.list (l.filter truth))','pure (.list l)','charactersString drops zeros')
m('primitive','| .ord, .str [c] => pure (.int c)','| .ord, .str [c] => pure (.int (c + 1))','setString stores code points')
m('inTable','if i = k then .cls c else inTable d t k','if i = k then inTable (.cls c) t k else inTable d t k','the table of record types gives the class')
m('isSubclass','| true => true\n    | false => match','| true => false\n    | false => match','issubclass is reflexive')
m('loop','| some r => return some r\n    | .none => loop x body vs','| some _ => loop x body vs\n    | .none => loop x body vs','a return in a loop ends it')
m('exec','if 0 ≤ i ∧ i.toNat < vs.length then do','if 0 ≤ i ∧ i.toNat ≤ vs.length then do','assignment past the end of a list raises')
m('exec','(.list (vs.set i.toNat v))','(.list (vs ++ [v]))','item assignment replaces')
m('execs','| some v => return some v\n    | .none => execs P W T C ss','| some _ => execs P W T C ss\n    | .none => execs P W T C ss','statements after a return are not run')
m('bindParams','| some v, _ => bindParams ps [] ks (put x v env)','| some v, .none => bindParams ps [] ks (put x v env)\n    | some _, some e => match constant e with\n      | some v => bindParams ps [] ks (put x v env)\n      | .none => .none','an argument given by name is used rather than the default')
m('methods','(.error e, (look W.self st.locals).getD v, st.io)','(.error e, v, st.io)','the object keeps what a method did before it raised')
m('eval','| true => return v\n    | false => eval P W T C r','| true => return .bool true\n    | false => eval P W T C r','`x or y` is x if x is true')
m('evalList','let v ← eval P W T C e\n    let vs ← evalList P W T C es','let vs ← evalList P W T C es\n    let v ← eval P W T C e','arguments are evaluated from left to right')
m('hasAttr','isProperty P c f || (look f fs).isSome','(look f fs).isSome','hasattr sees properties')
m('global','| some v => return v\n  | .none =>','| some _ => M.throw .nameError\n  | .none =>','names of local variables')
m('bind','(.error e, st\') => (.error e, st\')','(.error e, _) => (.error e, st)','what was written before an exception stays written')
m('writing','st.io.out ++ w.out','w.out','the output stream keeps what was written before')
json.dump(L,open('/tmp/mut/I.json','w'),indent=1)
print(len(L))
