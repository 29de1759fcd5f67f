[
 {
  "id": "I01",
  "file": "Verif/Py/Source.lean",
  "within": "truth",
  "old": "| .int v => v != 0",
  "new": "| .int _ => true",
  "definition": "truth",
  "claim": "an argument 0 counts as missing in `x or y`; `if self.flag` is false for 0",
  "expect": [
   "C77"
  ]
 },
 {
  "id": "I02",
  "file": "Verif/Py/Source.lean",
  "within": "truth",
  "old": "| .list l => !l.isEmpty",
  "new": "| .list _ => true",
  "definition": "truth",
  "claim": "an empty list given to a constructor is replaced by a new one",
  "expect": [
   "C77"
  ]
 },
 {
  "id": "I03",
  "file": "Verif/Py/Source.lean",
  "within": "binary",
  "old": "pure (.int (a - b))",
  "new": "pure (.int (b - a))",
  "definition": "binary",
  "claim": "paddings are computed by subtraction in this order",
  "expect": [
   "C77"
  ]
 },
 {
  "id": "I04",
  "file": "Verif/Py/Source.lean",
  "within": "binary",
  "old": "pure (.int (a.fmod b))",
  "new": "pure (.int (a.fmod b + 1))",
  "definition": "binary",
  "claim": "remainders",
  "expect": [
   "C77"
  ]
 },
 {
  "id": "I05",
  "file": "Verif/Py/Source.lean",
  "within": "compare",
  "old": "pure (.bool (decide (a < b)))",
  "new": "pure (.bool (decide (a \u2264 b)))",
  "definition": "compare",
  "claim": "bounds of lengths",
  "expect": [
   "C77"
  ]
 },
 {
  "id": "I06",
  "file": "Verif/Py/Source.lean",
  "within": "compare",
  "old": "| .isNot, _, .none, _, _ => pure (.bool true)",
  "new": "| .isNot, _, .none, _, _ => pure (.bool false)",
  "definition": "compare",
  "claim": "`is not None` holds for values",
  "expect": [
   "C77"
  ]
 },
 {
  "id": "I07",
  "file": "Verif/Py/Source.lean",
  "within": "rangeOf",
  "old": "[.int a, .int b] => pure (.list ((List.range (b - a).toNat)",
  "new": "[.int a, .int b] => pure (.list ((List.range (b - a + 1).toNat)",
  "definition": "rangeOf",
  "claim": "`range(0, n)` has n elements",
  "expect": [
   "C77"
  ]
 },
 {
  "id": "I08",
  "file": "Verif/Py/Source.lean",
  "within": "getAttr",
  "old": "| true => fun st =>\n      match C c f v [] [] st.io with\n      | (r, _, io) => (r, { st with io })",
  "new": "| true => M.get .attributeError (look f fs)",
  "definition": "getAttr",
  "claim": "reading a property runs its method",
  "expect": [
   "C80"
  ]
 },
 {
  "id": "I09",
  "file": "Verif/Py/Source.lean",
  "within": "store",
  "old": "| true => M.throw .attributeError",
  "new": "| true => M.setVar x (.obj c (put f v fs))",
  "definition": "store",
  "claim": "properties without a setter cannot be assigned",
  "expect": [
   "C80"
  ]
 },
 {
  "id": "I10",
  "file": "Verif/Py/Source.lean",
  "within": "callMethod",
  "old": "(.list (l ++ [a]))",
  "new": "(.list (a :: l))",
  "definition": "callMethod",
  "claim": "append adds at the end",
  "expect": [
   "C77"
  ]
 },
 {
  "id": "I11",
  "file": "Verif/Py/Source.lean",
  "within": "callMethod",
  "old": "| (.ok _, st') => (r, st')\n",
  "new": "| (.ok _, st') => (r.bind fun _ => .ok .none, st')\n",
  "definition": "callMethod",
  "claim": "a method returns its value",
  "expect": [
   "C77"
  ]
 },
 {
  "id": "I12",
  "file": "Verif/Py/Source.lean",
  "within": "callSuper",
  "old": "(r, \u27e8put W.self self' st.locals, io\u27e9)",
  "new": "(r, { st with io })",
  "definition": "callSuper",
  "claim": "what super().__init__ sets is kept",
  "expect": [
   "C77"
  ]
 },
 {
  "id": "I13",
  "file": "Verif/Py/Source.lean",
  "within": "resolve",
  "old": "| some d => some (c, d)\n      | .none => match k.base with\n        | some b => resolve P n b m\n        | .none => .none",
  "new": "| some d => some (c, d)\n      | .none => .none",
  "definition": "resolve",
  "claim": "methods are inherited",
  "expect": [
   "C77"
  ]
 },
 {
  "id": "I14",
  "file": "Verif/Py/Source.lean",
  "within": "construct",
  "old": "| (.error e, _, io) => (.error e, { st with io })",
  "new": "| (.error _, v, io) => (.ok v, { st with io })",
  "definition": "construct",
  "claim": "an exception in __init__ is that of the constructor",
  "expect": [
   "C77"
  ]
 },
 {
  "id": "I15",
  "file": "Verif/Py/Source.lean",
  "within": "classAttrs",
  "old": "| some v => put a.1 v fs",
  "new": "| some _ => fs",
  "definition": "classAttrs",
  "claim": "objects have the attributes of their class",
  "expect": [
   "C77"
  ]
 },
 {
  "id": "I16",
  "file": "Verif/Py/Source.lean",
  "within": "held",
  "old": "vs.headD 0 % 2 ^ w",
  "new": "vs.headD 0",
  "definition": "held",
  "claim": "bit fields cut off what does not fit",
  "expect": [
   "C77"
  ]
 },
 {
  "id": "I17",
  "file": "Verif/Py/Source.lean",
  "within": "primitive",
  "old": "pure (.list (l.filter truth))",
  "new": "pure (.list l)",
  "definition": "primitive",
  "claim": "charactersString drops zeros",
  "expect": [
   "C77"
  ]
 },
 {
  "id": "I18",
  "file": "Verif/Py/Source.lean",
  "within": "primitive",
  "old": "| .ord, .str [c] => pure (.int c)",
  "new": "| .ord, .str [c] => pure (.int (c + 1))",
  "definition": "primitive",
  "claim": "setString stores code points",
  "expect": [
   "C77"
  ]
 },
 {
  "id": "I19",
  "file": "Verif/Py/Source.lean",
  "within": "inTable",
  "old": "if i = k then .cls c else inTable d t k",
  "new": "if i = k then inTable (.cls c) t k else inTable d t k",
  "definition": "inTable",
  "claim": "the table of record types gives the class",
  "expect": [
   "C77"
  ]
 },
 {
  "id": "I20",
  "file": "Verif/Py/Source.lean",
  "within": "isSubclass",
  "old": "| true => true\n    | false => match",
  "new": "| true => false\n    | false => match",
  "definition": "isSubclass",
  "claim": "issubclass is reflexive",
  "expect": [
   "C77"
  ]
 },
 {
  "id": "I21",
  "file": "Verif/Py/Source.lean",
  "within": "loop",
  "old": "| some r => return some r\n    | .none => loop x body vs",
  "new": "| some _ => loop x body vs\n    | .none => loop x body vs",
  "definition": "loop",
  "claim": "a return in a loop ends it",
  "expect": [
   "C77"
  ]
 },
 {
  "id": "I22",
  "file": "Verif/Py/Source.lean",
  "within": "exec",
  "old": "if 0 \u2264 i \u2227 i.toNat < vs.length then do",
  "new": "if 0 \u2264 i \u2227 i.toNat \u2264 vs.length then do",
  "definition": "exec",
  "claim": "assignment past the end of a list raises",
  "expect": [
   "C77"
  ]
 },
 {
  "id": "I23",
  "file": "Verif/Py/Source.lean",
  "within": "exec",
  "old": "(.list (vs.set i.toNat v))",
  "new": "(.list (vs ++ [v]))",
  "definition": "exec",
  "claim": "item assignment replaces",
  "expect": [
   "C77"
  ]
 },
 {
  "id": "I24",
  "file": "Verif/Py/Source.lean",
  "within": "execs",
  "old": "| some v => return some v\n    | .none => execs P W T C ss",
  "new": "| some _ => execs P W T C ss\n    | .none => execs P W T C ss",
  "definition": "execs",
  "claim": "statements after a return are not run",
  "expect": [
   "C77"
  ]
 },
 {
  "id": "I25",
  "file": "Verif/Py/Source.lean",
  "within": "bindParams",
  "old": "| some v, _ => bindParams ps [] ks (put x v env)",
  "new": "| some v, .none => bindParams ps [] ks (put x v env)\n    | some _, some e => match constant e with\n      | some v => bindParams ps [] ks (put x v env)\n      | .none => .none",
  "definition": "bindParams",
  "claim": "an argument given by name is used rather than the default",
  "expect": [
   "C77"
  ]
 },
 {
  "id": "I26",
  "file": "Verif/Py/Source.lean",
  "within": "methods",
  "old": "(.error e, (look W.self st.locals).getD v, st.io)",
  "new": "(.error e, v, st.io)",
  "definition": "methods",
  "claim": "the object keeps what a method did before it raised",
  "expect": [
   "C77"
  ]
 },
 {
  "id": "I27",
  "file": "Verif/Py/Source.lean",
  "within": "eval",
  "old": "| true => return v\n    | false => eval P W T C r",
  "new": "| true => return .bool true\n    | false => eval P W T C r",
  "definition": "eval",
  "claim": "`x or y` is x if x is true",
  "expect": [
   "C77"
  ]
 },
 {
  "id": "I28",
  "file": "Verif/Py/Source.lean",
  "within": "evalList",
  "old": "let v \u2190 eval P W T C e\n    let vs \u2190 evalList P W T C es",
  "new": "let vs \u2190 evalList P W T C es\n    let v \u2190 eval P W T C e",
  "definition": "evalList",
  "claim": "arguments are evaluated from left to right",
  "expect": [
   "C77"
  ]
 },
 {
  "id": "I29",
  "file": "Verif/Py/Source.lean",
  "within": "hasAttr",
  "old": "isProperty P c f || (look f fs).isSome",
  "new": "(look f fs).isSome",
  "definition": "hasAttr",
  "claim": "hasattr sees properties",
  "expect": [
   "C77"
  ]
 },
 {
  "id": "I30",
  "file": "Verif/Py/Source.lean",
  "within": "global",
  "old": "| some v => return v\n  | .none =>",
  "new": "| some _ => M.throw .nameError\n  | .none =>",
  "definition": "global",
  "claim": "names of local variables",
  "expect": [
   "C77"
  ]
 },
 {
  "id": "I31",
  "file": "Verif/Py/Source.lean",
  "within": "bind",
  "old": "(.error e, st') => (.error e, st')",
  "new": "(.error e, _) => (.error e, st)",
  "definition": "bind",
  "claim": "what was written before an exception stays written",
  "expect": [
   "C77"
  ]
 },
 {
  "id": "I32",
  "file": "Verif/Py/Source.lean",
  "within": "writing",
  "old": "st.io.out ++ w.out",
  "new": "w.out",
  "definition": "writing",
  "claim": "the output stream keeps what was written before",
  "expect": [
   "C77"
  ]
 }
]