"""Edits to the interpreters of Py/Io.lean (K) and Py/Calc.lean (L): run with QUICK=1."""
import json
I='Verif/Py/Io.lean'; C='Verif/Py/Calc.lean'
K=[('converted','| .none => .error .structError','| .none => .error .typeError','an integer too large for a float raises another exception'),
('pack','| [66] => integer (packU 1) v','| [66] => integer (packS 1) v','format B packs signed bytes'),
('unpack','| [62, 113] => do return [.int (← unpackS 8 b)]','| [62, 113] => do return [.int (← unpackU 8 b)]','format q unpacks unsigned'),
('inputMethod','| true, _, [.val .none] => do return .val (.bytes (← M.reading (R.readRaw (-1))))','| true, _, [.val .none] => M.throw .typeError','read(None) raises instead of reading everything'),
('inputMethod','M.reading (R.seek n.toNat)','M.reading (R.seek 0)','seek goes to the beginning whatever the argument'),
('outputMethod','| true, _ => M.throw .typeError','| true, _ => pure (.val .none)','writing something that is not bytes is accepted'),
('moduleFunction','| true, _, [.val (.bytes b)] => do M.file b; return .input','| true, _, [.val (.bytes _)] => return .input','BytesIO does not take the data'),
('builtin','if 0 ≤ v ∧ v < 0x110000 then','if 0 ≤ v ∧ v < 0x80 then','chr of a number above 127 raises'),
('builtin','| _, true, _, _, _, _, [_] => M.throw .typeError','| _, true, _, _, _, _, [_] => M.throw .valueError','ord of two characters raises ValueError'),
('dictionary','some (if l.any (·.1 == k) then l else (k, c) :: l)','some (l)','the table loses its entries'),
('callMethod','(r.map .val, ⟨put x (.val v\') st.locals, io⟩)','(r.map .val, ⟨st.locals, io⟩)','the object is not changed by its method'),
('exec','| true => execs G O C y\n    | false => execs G O C n','| true => execs G O C n\n    | false => execs G O C y','branches of if exchanged'),
('run','| (.ok r, st) => (.ok (r.getD (.val .none)), st.io)','| (.ok r, _) => (.ok (r.getD (.val .none)), io)','what a function reads and writes is lost'),
('self','if Nat.beq c I.DataInputStream then .inp else .out','if Nat.beq c I.DataInputStream then .out else .inp','the streams exchanged')]
L=[('floatOp','| .sub, x, y => .ok (.float (O.sub x y))','| .sub, x, y => .ok (.float (O.sub y x))','subtraction the wrong way round'),
('floatOp','| .div, x, y => do return .float (← up (O.pyDiv x y))','| .div, x, y => do return .float (O.div x y)','division by zero of Python floats gives inf instead of raising'),
('npOp','| .div, x, y => .ok (.np (O.div x y))','| .div, x, y => do return .np (← up (O.pyDiv x y))','division by zero of numpy scalars raises'),
('power','| .ofNat 2 => do return .float (← up (M.square x))','| .ofNat 2 => .ok (.float x)','x ** 2 is x'),
('binary','| some f => .ok (.mat fun i j => f (v j) (w i))','| some f => .ok (.mat fun i j => f (v i) (w j))','the product of a row and a column transposed'),
('binary','| .matmul => .ok (.arr (M.matvec m v))','| .matmul => .ok (.arr (M.matvec (fun i j => m j i) v))','matrix transposed in @'),
('compareFloat','| .gt, x, y => .ok (O.lt y x)','| .gt, x, y => .ok (O.le y x)','> is >='),
('exactly','| true => up (O.fromInt n)','| true => up (O.fromInt (-n))','integers negated in comparisons'),
('elements','| .arr v => .ok [.np (v 0), .np (v 1), .np (v 2)]','| .arr v => .ok [.float (v 0), .float (v 1), .float (v 2)]','elements of arrays are Python floats'),
('floatArray','| .iarr v => return .arr (← ofInts O v)','| .iarr v => return .iarr v','dtype=float ignored'),
('apply','return .float (M.atan2 y x)','return .float (M.atan2 x y)','arguments of atan2 exchanged'),
('apply','| .abs, [.float x] => .ok (.float (O.abs x))','| .abs, [.float x] => .ok (.float x)','abs does nothing'),
('item','| .none => .error (.err .indexError)','| .none => .error (.err .typeError)','an index too large raises TypeError'),
('product','return .np (M.dot u v)','return .float (M.dot u v)','dot gives a Python float'),
('math','(N.sin, .sin), (N.cos, .cos)','(N.sin, .cos), (N.cos, .sin)','sin and cos exchanged in math')]
out=[]
for p,f,l,x in [('K',I,K,'C79'),('L',C,L,'C78')]:
    for k,(w,o,n,c) in enumerate(l,1):
        out.append({'id':f'{p}{k:02}','file':f,'within':w,'old':o,'new':n,'definition':w,'claim':c,'expect':[x]})
json.dump(out,open('K.json','w'),indent=1)
