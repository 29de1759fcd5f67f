[
 {
  "id": "K01",
  "file": "Verif/Py/Io.lean",
  "within": "converted",
  "old": "| .none => .error .structError",
  "new": "| .none => .error .typeError",
  "definition": "converted",
  "claim": "an integer too large for a float raises another exception",
  "expect": [
   "C79"
  ]
 },
 {
  "id": "K02",
  "file": "Verif/Py/Io.lean",
  "within": "pack",
  "old": "| [66] => integer (packU 1) v",
  "new": "| [66] => integer (packS 1) v",
  "definition": "pack",
  "claim": "format B packs signed bytes",
  "expect": [
   "C79"
  ]
 },
 {
  "id": "K03",
  "file": "Verif/Py/Io.lean",
  "within": "unpack",
  "old": "| [62, 113] => do return [.int (\u2190 unpackS 8 b)]",
  "new": "| [62, 113] => do return [.int (\u2190 unpackU 8 b)]",
  "definition": "unpack",
  "claim": "format q unpacks unsigned",
  "expect": [
   "C79"
  ]
 },
 {
  "id": "K04",
  "file": "Verif/Py/Io.lean",
  "within": "inputMethod",
  "old": "| true, _, [.val .none] => do return .val (.bytes (\u2190 M.reading (R.readRaw (-1))))",
  "new": "| true, _, [.val .none] => M.throw .typeError",
  "definition": "inputMethod",
  "claim": "read(None) raises instead of reading everything",
  "expect": [
   "C79"
  ]
 },
 {
  "id": "K05",
  "file": "Verif/Py/Io.lean",
  "within": "inputMethod",
  "old": "M.reading (R.seek n.toNat)",
  "new": "M.reading (R.seek 0)",
  "definition": "inputMethod",
  "claim": "seek goes to the beginning whatever the argument",
  "expect": [
   "C79"
  ]
 },
 {
  "id": "K06",
  "file": "Verif/Py/Io.lean",
  "within": "outputMethod",
  "old": "| true, _ => M.throw .typeError",
  "new": "| true, _ => pure (.val .none)",
  "definition": "outputMethod",
  "claim": "writing something that is not bytes is accepted",
  "expect": [
   "C79"
  ]
 },
 {
  "id": "K07",
  "file": "Verif/Py/Io.lean",
  "within": "moduleFunction",
  "old": "| true, _, [.val (.bytes b)] => do M.file b; return .input",
  "new": "| true, _, [.val (.bytes _)] => return .input",
  "definition": "moduleFunction",
  "claim": "BytesIO does not take the data",
  "expect": [
   "C79"
  ]
 },
 {
  "id": "K08",
  "file": "Verif/Py/Io.lean",
  "within": "builtin",
  "old": "if 0 \u2264 v \u2227 v < 0x110000 then",
  "new": "if 0 \u2264 v \u2227 v < 0x80 then",
  "definition": "builtin",
  "claim": "chr of a number above 127 raises",
  "expect": [
   "C79"
  ]
 },
 {
  "id": "K09",
  "file": "Verif/Py/Io.lean",
  "within": "builtin",
  "old": "| _, true, _, _, _, _, [_] => M.throw .typeError",
  "new": "| _, true, _, _, _, _, [_] => M.throw .valueError",
  "definition": "builtin",
  "claim": "ord of two characters raises ValueError",
  "expect": [
   "C79"
  ]
 },
 {
  "id": "K10",
  "file": "Verif/Py/Io.lean",
  "within": "dictionary",
  "old": "some (if l.any (\u00b7.1 == k) then l else (k, c) :: l)",
  "new": "some (l)",
  "definition": "dictionary",
  "claim": "the table loses its entries",
  "expect": [
   "C79"
  ]
 },
 {
  "id": "K11",
  "file": "Verif/Py/Io.lean",
  "within": "callMethod",
  "old": "(r.map .val, \u27e8put x (.val v') st.locals, io\u27e9)",
  "new": "(r.map .val, \u27e8st.locals, io\u27e9)",
  "definition": "callMethod",
  "claim": "the object is not changed by its method",
  "expect": [
   "C79"
  ]
 },
 {
  "id": "K12",
  "file": "Verif/Py/Io.lean",
  "within": "exec",
  "old": "| true => execs G O C y\n    | false => execs G O C n",
  "new": "| true => execs G O C n\n    | false => execs G O C y",
  "definition": "exec",
  "claim": "branches of if exchanged",
  "expect": [
   "C79"
  ]
 },
 {
  "id": "K13",
  "file": "Verif/Py/Io.lean",
  "within": "run",
  "old": "| (.ok r, st) => (.ok (r.getD (.val .none)), st.io)",
  "new": "| (.ok r, _) => (.ok (r.getD (.val .none)), io)",
  "definition": "run",
  "claim": "what a function reads and writes is lost",
  "expect": [
   "C79"
  ]
 },
 {
  "id": "K14",
  "file": "Verif/Py/Io.lean",
  "within": "self",
  "old": "if Nat.beq c I.DataInputStream then .inp else .out",
  "new": "if Nat.beq c I.DataInputStream then .out else .inp",
  "definition": "self",
  "claim": "the streams exchanged",
  "expect": [
   "C79"
  ]
 },
 {
  "id": "L01",
  "file": "Verif/Py/Calc.lean",
  "within": "floatOp",
  "old": "| .sub, x, y => .ok (.float (O.sub x y))",
  "new": "| .sub, x, y => .ok (.float (O.sub y x))",
  "definition": "floatOp",
  "claim": "subtraction the wrong way round",
  "expect": [
   "C78"
  ]
 },
 {
  "id": "L02",
  "file": "Verif/Py/Calc.lean",
  "within": "floatOp",
  "old": "| .div, x, y => do return .float (\u2190 up (O.pyDiv x y))",
  "new": "| .div, x, y => do return .float (O.div x y)",
  "definition": "floatOp",
  "claim": "division by zero of Python floats gives inf instead of raising",
  "expect": [
   "C78"
  ]
 },
 {
  "id": "L03",
  "file": "Verif/Py/Calc.lean",
  "within": "npOp",
  "old": "| .div, x, y => .ok (.np (O.div x y))",
  "new": "| .div, x, y => do return .np (\u2190 up (O.pyDiv x y))",
  "definition": "npOp",
  "claim": "division by zero of numpy scalars raises",
  "expect": [
   "C78"
  ]
 },
 {
  "id": "L04",
  "file": "Verif/Py/Calc.lean",
  "within": "power",
  "old": "| .ofNat 2 => do return .float (\u2190 up (M.square x))",
  "new": "| .ofNat 2 => .ok (.float x)",
  "definition": "power",
  "claim": "x ** 2 is x",
  "expect": [
   "C78"
  ]
 },
 {
  "id": "L05",
  "file": "Verif/Py/Calc.lean",
  "within": "binary",
  "old": "| some f => .ok (.mat fun i j => f (v j) (w i))",
  "new": "| some f => .ok (.mat fun i j => f (v i) (w j))",
  "definition": "binary",
  "claim": "the product of a row and a column transposed",
  "expect": [
   "C78"
  ]
 },
 {
  "id": "L06",
  "file": "Verif/Py/Calc.lean",
  "within": "binary",
  "old": "| .matmul => .ok (.arr (M.matvec m v))",
  "new": "| .matmul => .ok (.arr (M.matvec (fun i j => m j i) v))",
  "definition": "binary",
  "claim": "matrix transposed in @",
  "expect": [
   "C78"
  ]
 },
 {
  "id": "L07",
  "file": "Verif/Py/Calc.lean",
  "within": "compareFloat",
  "old": "| .gt, x, y => .ok (O.lt y x)",
  "new": "| .gt, x, y => .ok (O.le y x)",
  "definition": "compareFloat",
  "claim": "> is >=",
  "expect": [
   "C78"
  ]
 },
 {
  "id": "L08",
  "file": "Verif/Py/Calc.lean",
  "within": "exactly",
  "old": "| true => up (O.fromInt n)",
  "new": "| true => up (O.fromInt (-n))",
  "definition": "exactly",
  "claim": "integers negated in comparisons",
  "expect": [
   "C78"
  ]
 },
 {
  "id": "L09",
  "file": "Verif/Py/Calc.lean",
  "within": "elements",
  "old": "| .arr v => .ok [.np (v 0), .np (v 1), .np (v 2)]",
  "new": "| .arr v => .ok [.float (v 0), .float (v 1), .float (v 2)]",
  "definition": "elements",
  "claim": "elements of arrays are Python floats",
  "expect": [
   "C78"
  ]
 },
 {
  "id": "L10",
  "file": "Verif/Py/Calc.lean",
  "within": "floatArray",
  "old": "| .iarr v => return .arr (\u2190 ofInts O v)",
  "new": "| .iarr v => return .iarr v",
  "definition": "floatArray",
  "claim": "dtype=float ignored",
  "expect": [
   "C78"
  ]
 },
 {
  "id": "L11",
  "file": "Verif/Py/Calc.lean",
  "within": "apply",
  "old": "return .float (M.atan2 y x)",
  "new": "return .float (M.atan2 x y)",
  "definition": "apply",
  "claim": "arguments of atan2 exchanged",
  "expect": [
   "C78"
  ]
 },
 {
  "id": "L12",
  "file": "Verif/Py/Calc.lean",
  "within": "apply",
  "old": "| .abs, [.float x] => .ok (.float (O.abs x))",
  "new": "| .abs, [.float x] => .ok (.float x)",
  "definition": "apply",
  "claim": "abs does nothing",
  "expect": [
   "C78"
  ]
 },
 {
  "id": "L13",
  "file": "Verif/Py/Calc.lean",
  "within": "item",
  "old": "| .none => .error (.err .indexError)",
  "new": "| .none => .error (.err .typeError)",
  "definition": "item",
  "claim": "an index too large raises TypeError",
  "expect": [
   "C78"
  ]
 },
 {
  "id": "L14",
  "file": "Verif/Py/Calc.lean",
  "within": "product",
  "old": "return .np (M.dot u v)",
  "new": "return .float (M.dot u v)",
  "definition": "product",
  "claim": "dot gives a Python float",
  "expect": [
   "C78"
  ]
 },
 {
  "id": "L15",
  "file": "Verif/Py/Calc.lean",
  "within": "math",
  "old": "(N.sin, .sin), (N.cos, .cos)",
  "new": "(N.sin, .cos), (N.cos, .sin)",
  "definition": "math",
  "claim": "sin and cos exchanged in math",
  "expect": [
   "C78"
  ]
 }
]