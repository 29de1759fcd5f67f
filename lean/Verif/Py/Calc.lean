import Verif.Model.RangeFrames
import Verif.Model.RangeUtm
import Verif.Source.CalcNames

/-!
# The numerical modules as data, and what they mean

`opendis/RangeCoordinates.py` and `opendis/DeadReckoning.py` were transliterated into Lean by hand
(`Model/RangeCoordinates.lean`, `RangeFrames.lean`, `RangeUtm.lean`, `DeadReckoning.lean`). Here the syntax trees of
their functions are data (`Source/Calc.lean`, written by `tools/gencalc.py` node by node from Python's own parser), and
this module says what such a tree does. C78 proves that the transliterations do what the trees say.

The part of Python is the one these functions use. Whatever is outside of it stops with `unsupported`. Python floats
and the scalars of numpy are told apart: they differ in division by zero and in `** 2`. Arrays have the shapes
(3,), (3, 1) and (3, 3), of integers or of doubles.
-/

namespace Dis.Calc

open Dbl

/-- Binary operators (e.g. /repo/opendis/RangeCoordinates.py:51, :66, :357; /repo/opendis/DeadReckoning.py:286). -/
inductive Op where
  | add | sub | mul | div | pow | mod | matmul

/-- Comparisons (e.g. /repo/opendis/RangeCoordinates.py:65, :138, :139, :142, :149, :348). -/
inductive Cmp where
  | eq | lt | le | gt | ge | is

/-- Expressions, as in Python's `ast`. `dec m e` is the float literal with the digits `m` and the exponent `e`, i.e.
`m * 10 ** e`; `neg` is the unary minus; `cmp a [(op, b), …]` is a chain of comparisons; `f(...)` for a name `f` and
`e.m(...)` have a constructor each, with the keyword arguments last and `kws` their names; `star e` is `*e` among
arguments; `comp e x l` is `[e for x in l]`
(those of /repo/opendis/RangeCoordinates.py:49-576 and /repo/opendis/DeadReckoning.py:40-391). -/
inductive Expr where
  | name (x : Ident)
  | int (n : Nat)
  | dec (m : Nat) (e : Int)
  | str (s : String)
  | none
  | attr (e : Expr) (f : Ident)
  | index (e i : Expr)
  | tuple (es : List Expr)
  | list (es : List Expr)
  | neg (e : Expr)
  | bin (op : Op) (l r : Expr)
  | cmp (e : Expr) (rest : List (Cmp × Expr))
  | and (l r : Expr)
  | call (f : Ident) (args : List Expr) (kws : List Ident)
  | method (e : Expr) (m : Ident) (args : List Expr) (kws : List Ident)
  | star (e : Expr)
  | comp (e : Expr) (x : Ident) (l : Expr)
  | other

/-- Statements, as in Python's `ast`. Annotations and strings that stand alone are dropped; `raise` keeps the class of
the exception. `assign` has one target: a name or a tuple of names
(those of /repo/opendis/RangeCoordinates.py:49-576 and /repo/opendis/DeadReckoning.py:40-391). -/
inductive Stmt where
  | assign (target e : Expr)
  | augAdd (x : Ident) (e : Expr)
  | for (x : Ident) (iter : Expr) (body : List Stmt)
  | while (test : Expr) (body : List Stmt)
  | ite (test : Expr) (yes no : List Stmt)
  | ret (e : Expr)
  | raise (e : PyErr)
  | other

/-- A function or method: its parameters (without `self`) with default values, and its body
(e.g. /repo/opendis/RangeCoordinates.py:117). -/
structure Fn where
  params : List (Ident × Option Expr)
  body : List Stmt

/-- A class: its attributes in the order of their assignments (e.g. /repo/opendis/RangeCoordinates.py:76-85) and its
methods. -/
structure Class where
  attrs : List (Ident × Expr)
  methods : List (Ident × Fn)

/-- Functions of Python and of the modules `math` and `numpy`, the number `math.pi`, and the class `float`
(/repo/opendis/RangeCoordinates.py:45-46, /repo/opendis/DeadReckoning.py:29-30). -/
inductive Lib where
  | sqrt | pi | sin | cos | tan | atan | atan2 | array | dot | identity | zeros
  | len | range | abs | round | int | float | list

/-- A module: its functions and classes, the names it imports from other modules (`from math import sqrt`), and the
modules it imports (`import numpy as np`) with their contents
(/repo/opendis/RangeCoordinates.py:45-576, /repo/opendis/DeadReckoning.py:28-391). -/
structure Module where
  functions : List (Ident × Fn)
  classes : List (Ident × Class)
  imports : List (Ident × Lib)
  modules : List (Ident × List (Ident × Lib))

/-- Values. `np` and `npInt` are the scalars of numpy; `arr`, `col` and `mat` are arrays of shapes (3,), (3, 1) and
(3, 3). An object of the classes here has no attributes of its own
(those of /repo/opendis/RangeCoordinates.py:49-576 and /repo/opendis/DeadReckoning.py:40-391). -/
inductive Val where
  | none
  | int (n : Int)
  | bool (b : Bool)
  | float (x : F64)
  | np (x : F64)
  | npInt (n : Int)
  | str (s : String)
  | tuple (l : List Val)
  | list (l : List Val)
  | arr (v : Vec)
  | iarr (v : Fin 3 → Int)
  | col (v : Vec)
  | icol (v : Fin 3 → Int)
  | mat (m : Mat)
  | imat (m : Fin 3 → Fin 3 → Int)
  | obj (c : Ident)
  | lib (l : Lib)
  | module (m : List (Ident × Lib))

/-- The double nearest to `m * 10 ** e` (float literals, e.g. /repo/opendis/RangeCoordinates.py:79): the quotient is
computed to half a unit, and the last bit says whether something was cut off. Nothing if it is too large. -/
@[irreducible] def decimal (m : Nat) (e : Int) : Option F64 :=
  let q := m * 10 ^ e.toNat * 2 ^ 1075 / 10 ^ (-e).toNat
  let r := m * 10 ^ e.toNat * 2 ^ 1075 % 10 ^ (-e).toNat
  let k := F64.roundMag (2 * q + if r = 0 then 0 else 1) 2
  if k < 2047 * 2 ^ 52 then some (F64.ofMag 0 k) else none

/-- The operations on doubles (e.g. /repo/opendis/RangeCoordinates.py:51, :69, :138-149, :346): `pyDiv` is `/` of Python
floats, `div` that of numpy; `trig` applies a function of `math`; `fromInt` converts an integer; `decimal` is a float literal. -/
structure Ops where
  add : F64 → F64 → F64
  sub : F64 → F64 → F64
  mul : F64 → F64 → F64
  div : F64 → F64 → F64
  neg : F64 → F64
  abs : F64 → F64
  round2 : F64 → F64
  sqrt : F64 → Except PyErr F64
  pyDiv : F64 → F64 → Except PyErr F64
  lt : F64 → F64 → Bool
  le : F64 → F64 → Bool
  trig : (F64 → F64) → F64 → Except PyErr F64
  fromInt : Int → Except PyErr F64
  truncate : F64 → Except PyErr Int
  decimal : Nat → Int → Option F64

/-- The operations of Python: IEEE 754 arithmetic (e.g. /repo/opendis/RangeCoordinates.py:51). -/
def Ops.ieee : Ops where
  add := F64.add
  sub := F64.sub
  mul := F64.mul
  div := F64.div
  neg := F64.neg
  abs := F64.abs
  round2 := Dbl.round2
  sqrt := F64.sqrt
  pyDiv := F64.pyDiv
  lt := F64.lt
  le := F64.le
  trig := Dbl.trig
  fromInt := Dbl.fromInt
  truncate := Dbl.truncate
  decimal := Calc.decimal

/-- What depends on the machine and the libraries: the C library (`CMath`), the products of numpy
(/repo/opendis/RangeCoordinates.py:222), `x ** 2` of a numpy scalar, which does not raise (line 223), and, of strings,
`split` and `float` (line 322). -/
structure Machine extends CMath where
  dot : Vec → Vec → F64
  npSquare : F64 → F64
  split : String → List String
  parse : String → Except PyErr F64

/-- Why there is no result: an exception, or the interpreter gave up after too many rounds or too many calls in one
another, or it met something outside of its part of Python
(of a function of /repo/opendis/RangeCoordinates.py:49-576 and /repo/opendis/DeadReckoning.py:40-391). -/
inductive Stop where
  | err (e : PyErr)
  | fuel
  | unsupported

/-- The outcome of a piece of code
(of a function of /repo/opendis/RangeCoordinates.py:49-576 and /repo/opendis/DeadReckoning.py:40-391). -/
abbrev Res (α : Type) := Except Stop α

/-- An operation that may raise (e.g. the division in /repo/opendis/RangeCoordinates.py:51). -/
def up {α : Type} : Except PyErr α → Res α
  | .ok a => .ok a
  | .error e => .error (.err e)

/-- Something outside of the part of Python described here (no function of /repo/opendis/RangeCoordinates.py needs
it). -/
def unsupported {α : Type} : Res α := .error .unsupported

/-- What a name is bound to (e.g. `deg` in /repo/opendis/RangeCoordinates.py:49-52). -/
def look {α : Type} (x : Ident) : List (Ident × α) → Option α
  | [] => .none
  | (y, v) :: l => match Nat.beq y x with
    | true => some v
    | false => look x l

/-- Local variables; the newest binding of a name counts (e.g. of /repo/opendis/RangeCoordinates.py:117-158). -/
abbrev Env := List (Ident × Val)

/-! ## Numbers -/

/-- A number as a double, as the functions of `math` convert their arguments and as integers meet floats
(/repo/opendis/RangeCoordinates.py:51, :128). -/
def toFloat (O : Ops) : Val → Res F64
  | .int n => up (O.fromInt n)
  | .npInt n => up (O.fromInt n)
  | .float x => .ok x
  | .np x => .ok x
  | _ => .error (.err .typeError)

/-- Arithmetic of integers (/repo/opendis/RangeCoordinates.py:346, :359). -/
def intOp : Op → Int → Int → Res Val
  | .add, a, b => .ok (.int (a + b))
  | .sub, a, b => .ok (.int (a - b))
  | .mul, a, b => .ok (.int (a * b))
  | _, _, _ => unsupported

/-- Arithmetic of Python floats (/repo/opendis/RangeCoordinates.py:51). -/
def floatOp (O : Ops) : Op → F64 → F64 → Res Val
  | .add, x, y => .ok (.float (O.add x y))
  | .sub, x, y => .ok (.float (O.sub x y))
  | .mul, x, y => .ok (.float (O.mul x y))
  | .div, x, y => do return .float (← up (O.pyDiv x y))
  | _, _, _ => unsupported

/-- Arithmetic of a numpy scalar and another number (/repo/opendis/DeadReckoning.py:193-199): division by zero does not
raise. -/
def npOp (O : Ops) : Op → F64 → F64 → Res Val
  | .add, x, y => .ok (.np (O.add x y))
  | .sub, x, y => .ok (.np (O.sub x y))
  | .mul, x, y => .ok (.np (O.mul x y))
  | .div, x, y => .ok (.np (O.div x y))
  | _, _, _ => unsupported

/-- `x ** n` of a Python float (/repo/opendis/RangeCoordinates.py:66, :372-397). -/
def power (M : Machine) (x : F64) : Int → Res Val
  | .ofNat 2 => do return .float (← up (M.square x))
  | .ofNat n =>
    match Nat.ble 3 n, Nat.ble n 6 with
    | true, true => do return .float (← up (M.pow x n))
    | _, _ => unsupported
  | _ => unsupported

/-- `x ** 2` of a numpy scalar (/repo/opendis/RangeCoordinates.py:223). -/
def npPower (M : Machine) (x : F64) : Int → Res Val
  | .ofNat 2 => .ok (.np (M.npSquare x))
  | _ => unsupported

/-- Element by element (/repo/opendis/DeadReckoning.py:140). -/
def elementwise (O : Ops) : Op → Option (F64 → F64 → F64)
  | .add => some O.add
  | .sub => some O.sub
  | .mul => some O.mul
  | .div => some O.div
  | _ => .none

/-- An integer among the doubles of an array (/repo/opendis/RangeCoordinates.py:521-530). -/
def ofInts (O : Ops) (v : Fin 3 → Int) : Res Vec := do
  let a ← up (O.fromInt (v 0))
  let b ← up (O.fromInt (v 1))
  let c ← up (O.fromInt (v 2))
  return ![a, b, c]

/-- The integers of an array as doubles (/repo/opendis/RangeCoordinates.py:530). -/
def ofIntMat (O : Ops) (m : Fin 3 → Fin 3 → Int) : Res Mat := do
  let a ← ofInts O (m 0)
  let b ← ofInts O (m 1)
  let c ← ofInts O (m 2)
  return ![a, b, c]

/-- Integers of numpy have 64 bits; whatever leaves them is not described here
(arrays of integers as in /repo/opendis/RangeCoordinates.py:506-531). -/
def int64 (n : Int) : Res Int :=
  match decide (-(2 ^ 63) ≤ n ∧ n < 2 ^ 63) with
  | true => .ok n
  | false => unsupported

/-- The product of a row and a column of integers (/repo/opendis/RangeCoordinates.py:528). -/
def outerRow (v : Fin 3 → Int) (w : Int) : Res (Fin 3 → Int) := do
  let a ← int64 (v 0 * w)
  let b ← int64 (v 1 * w)
  let c ← int64 (v 2 * w)
  return ![a, b, c]

/-- The product of a row and a column of integers (/repo/opendis/RangeCoordinates.py:528). -/
def outer (v w : Fin 3 → Int) : Res (Fin 3 → Fin 3 → Int) := do
  let a ← outerRow v (w 0)
  let b ← outerRow v (w 1)
  let c ← outerRow v (w 2)
  return ![a, b, c]

/-- `"%d%c" % (n, c)` (/repo/opendis/RangeCoordinates.py:357) for a string of one character. -/
def format (f : String) : Val → Res Val
  | .tuple [.int n, .str s] =>
    match decide (f = "%d%c"), s.toList with
    | true, [c] => .ok (.str (toString n ++ c.toString))
    | _, _ => unsupported
  | _ => unsupported

/-- `a op b` (e.g. /repo/opendis/RangeCoordinates.py:51, :357, :528-530; /repo/opendis/DeadReckoning.py:140, :232, :286).
An array of shape (3,) times one of shape (3, 1) is the array of all products. -/
def binary (O : Ops) (M : Machine) (op : Op) : Val → Val → Res Val
  | .int a, .int b => intOp op a b
  | .int a, .float y => do floatOp O op (← up (O.fromInt a)) y
  | .float x, .int b =>
    match op with
    | .pow => power M x b
    | _ => do floatOp O op x (← up (O.fromInt b))
  | .float x, .float y => floatOp O op x y
  | .np x, .int b =>
    match op with
    | .pow => npPower M x b
    | _ => do npOp O op x (← up (O.fromInt b))
  | .int a, .np y => do npOp O op (← up (O.fromInt a)) y
  | .np x, .float y => npOp O op x y
  | .float x, .np y => npOp O op x y
  | .np x, .np y => npOp O op x y
  | .arr v, .arr w =>
    match elementwise O op with
    | some f => .ok (.arr fun i => f (v i) (w i))
    | .none => unsupported
  | .arr v, .float x =>
    match elementwise O op with
    | some f => .ok (.arr fun i => f (v i) x)
    | .none => unsupported
  | .float x, .arr v =>
    match elementwise O op with
    | some f => .ok (.arr fun i => f x (v i))
    | .none => unsupported
  | .arr v, .col w =>
    match elementwise O op with
    | some f => .ok (.mat fun i j => f (v j) (w i))
    | .none => unsupported
  | .iarr v, .icol w =>
    match op with
    | .mul => do return .imat (← outer v w)
    | _ => unsupported
  | .float x, .mat m =>
    match elementwise O op with
    | some f => .ok (.mat fun i j => f x (m i j))
    | .none => unsupported
  | .float x, .imat m =>
    match elementwise O op with
    | some f => do
      let m ← ofIntMat O m
      return .mat fun i j => f x (m i j)
    | .none => unsupported
  | .mat m, .mat k =>
    match elementwise O op with
    | some f => .ok (.mat fun i j => f (m i j) (k i j))
    | .none => unsupported
  | .mat m, .arr v =>
    match op with
    | .matmul => .ok (.arr (M.matvec m v))
    | _ => unsupported
  | .str f, v =>
    match op with
    | .mod => format f v
    | _ => unsupported
  | _, _ => unsupported

/-- `-x` (/repo/opendis/RangeCoordinates.py:143, :224, :521-523, :543). -/
def negate (O : Ops) : Val → Res Val
  | .int n => .ok (.int (-n))
  | .float x => .ok (.float (O.neg x))
  | .np x => .ok (.np (O.neg x))
  | .npInt n => do return .npInt (← int64 (-n))
  | _ => unsupported

/-- Comparison of doubles (/repo/opendis/RangeCoordinates.py:138-149): equal is neither less nor greater, and no NaN. -/
def compareFloat (O : Ops) : Cmp → F64 → F64 → Res Bool
  | .eq, x, y => .ok (O.le x y && O.le y x)
  | .lt, x, y => .ok (O.lt x y)
  | .le, x, y => .ok (O.le x y)
  | .gt, x, y => .ok (O.lt y x)
  | .ge, x, y => .ok (O.le y x)
  | .is, _, _ => unsupported

/-- An integer that meets a float in a comparison: Python compares the exact values, so only integers that are doubles
are described (/repo/opendis/RangeCoordinates.py:138, :543). -/
def exactly (O : Ops) (n : Int) : Res F64 :=
  match decide (n.natAbs ≤ 2 ^ 53) with
  | true => up (O.fromInt n)
  | false => unsupported

/-- One comparison (/repo/opendis/RangeCoordinates.py:65, :138-149, :348-355, :544-564). -/
def compare (O : Ops) (op : Cmp) : Val → Val → Res Bool
  | .none, .none => match op with | .is => .ok true | _ => unsupported
  | .float x, .float y => compareFloat O op x y
  | .np x, .float y => compareFloat O op x y
  | .float x, .np y => compareFloat O op x y
  | .np x, .np y => compareFloat O op x y
  | .int a, .float y => do compareFloat O op (← exactly O a) y
  | .float x, .int b => do compareFloat O op x (← exactly O b)
  | .np x, .int b => do compareFloat O op x (← exactly O b)
  | .int a, .np y => do compareFloat O op (← exactly O a) y
  | .list _, .none => match op with | .is => .ok false | _ => unsupported
  | .tuple _, .none => match op with | .is => .ok false | _ => unsupported
  | .arr _, .none => match op with | .is => .ok false | _ => unsupported
  | _, _ => unsupported

/-- The truth of a value (/repo/opendis/RangeCoordinates.py:65, :321). -/
def truth : Val → Res Bool
  | .bool b => .ok b
  | .str s => .ok (!s.isEmpty)
  | _ => unsupported

/-! ## Sequences and arrays -/

/-- The elements of a sequence or array, as in `a, b, c = e`, `*e` and `for x in e` (/repo/opendis/RangeCoordinates.py:184,
/repo/opendis/DeadReckoning.py:178, :285). -/
def elements : Val → Res (List Val)
  | .tuple l => .ok l
  | .list l => .ok l
  | .arr v => .ok [.np (v 0), .np (v 1), .np (v 2)]
  | .iarr v => .ok [.npInt (v 0), .npInt (v 1), .npInt (v 2)]
  | .mat m => .ok [.arr (m 0), .arr (m 1), .arr (m 2)]
  | _ => unsupported

/-- `e[i]` with an index that is not negative (/repo/opendis/RangeCoordinates.py:66, :123-125, :217-219). -/
def item (v : Val) : Val → Res Val
  | .int (.ofNat i) => do
    match (← elements v)[i]? with
    | some x => .ok x
    | .none => .error (.err .indexError)
  | _ => unsupported

/-- Integers only (/repo/opendis/RangeCoordinates.py:187). -/
def ints : List Val → Option (List Int)
  | [] => some []
  | .int n :: l => match ints l with
    | some ns => some (n :: ns)
    | .none => .none
  | .npInt n :: l => match ints l with
    | some ns => some (n :: ns)
    | .none => .none
  | _ => .none

/-- All as doubles, the first that is not a number raises (/repo/opendis/RangeCoordinates.py:285). -/
def floats (O : Ops) : List Val → Res (List F64)
  | [] => .ok []
  | v :: l => do
    let x ← toFloat O v
    let xs ← floats O l
    return x :: xs

/-- A row of an array (/repo/opendis/RangeCoordinates.py:187, :285). -/
inductive Row where
  | ints (v : Fin 3 → Int)
  | floats (v : Vec)

/-- Three numbers as a row: integers if all are integers, else doubles (/repo/opendis/RangeCoordinates.py:187, :285). -/
def row (O : Ops) (l : List Val) : Res Row :=
  match ints l with
  | some [a, b, c] => .ok (.ints ![a, b, c])
  | some _ => unsupported
  | .none => do
    match ← floats O l with
    | [a, b, c] => .ok (.floats ![a, b, c])
    | _ => unsupported

/-- The row as doubles (/repo/opendis/RangeCoordinates.py:285-288: the second row has an integer among doubles). -/
def Row.vec (O : Ops) : Row → Res Vec
  | .ints v => ofInts O v
  | .floats v => .ok v

/-- Three rows (/repo/opendis/RangeCoordinates.py:285-288, :521-525). -/
def rows (O : Ops) : Row → Row → Row → Res Val
  | .ints a, .ints b, .ints c => .ok (.imat ![a, b, c])
  | a, b, c => do
    let a ← a.vec O
    let b ← b.vec O
    let c ← c.vec O
    return .mat ![a, b, c]

/-- `array(v)` (/repo/opendis/RangeCoordinates.py:187, :248, :285, :521, :539). -/
def array (O : Ops) : Val → Res Val
  | .arr v => .ok (.arr v)
  | .list [.list a, .list b, .list c] =>
    match a, b, c with
    | [a], [b], [c] => do
      match ← row O [a, b, c] with
      | .ints v => return .icol v
      | .floats v => return .col v
    | a, b, c => do
      let a ← row O a
      let b ← row O b
      let c ← row O c
      rows O a b c
  | .list l => do
    match ← row O l with
    | .ints v => return .iarr v
    | .floats v => return .arr v
  | .tuple l => do
    match ← row O l with
    | .ints v => return .iarr v
    | .floats v => return .arr v
  | _ => unsupported

/-- `np.array(v, dtype=float)` (/repo/opendis/DeadReckoning.py:42). -/
def floatArray (O : Ops) (v : Val) : Res Val := do
  match ← array O v with
  | .arr v => return .arr v
  | .iarr v => return .arr (← ofInts O v)
  | _ => unsupported

/-- A vector of doubles (operands of `dot`, /repo/opendis/RangeCoordinates.py:195). -/
def vector (O : Ops) : Val → Res Vec
  | .arr v => .ok v
  | .iarr v => ofInts O v
  | _ => unsupported

/-- `dot(a, b)` of two vectors or of a matrix and a vector (/repo/opendis/RangeCoordinates.py:195, :222). -/
def product (O : Ops) (M : Machine) : Val → Val → Res Val
  | .mat m, v => do return .arr (M.matvec m (← vector O v))
  | u, v => do
    let u ← vector O u
    let v ← vector O v
    return .np (M.dot u v)

/-- A call of a library function with arguments by position (/repo/opendis/RangeCoordinates.py:45-46, :64, :140, :149,
:248, :322, :346). -/
def apply (O : Ops) (M : Machine) : Lib → List Val → Res Val
  | .sqrt, [v] => do return .float (← up (O.sqrt (← toFloat O v)))
  | .sin, [v] => do return .float (← up (O.trig M.sin (← toFloat O v)))
  | .cos, [v] => do return .float (← up (O.trig M.cos (← toFloat O v)))
  | .tan, [v] => do return .float (← up (O.trig M.tan (← toFloat O v)))
  | .atan, [v] => do return .float (M.atan (← toFloat O v))
  | .atan2, [v, w] => do
    let y ← toFloat O v
    let x ← toFloat O w
    return .float (M.atan2 y x)
  | .array, [v] => array O v
  | .dot, [v, w] => product O M v w
  | .identity, [.int (.ofNat 3)] => .ok (.mat unit)
  | .zeros, [.int (.ofNat 3)] => .ok (.arr zeros)
  | .len, [v] => do return .int (← elements v).length
  | .range, [.int n] => .ok (.list ((List.range n.toNat).map fun (i : Nat) => .int i))
  | .abs, [.int n] => .ok (.int n.natAbs)
  | .abs, [.float x] => .ok (.float (O.abs x))
  | .abs, [.np x] => .ok (.np (O.abs x))
  | .round, [.float x, .int (.ofNat 2)] => .ok (.float (O.round2 x))
  | .int, [.float x] => do return .int (← up (O.truncate x))
  | .float, [.str s] => do return .float (← up (M.parse s))
  | .list, [v] => do return .list (← elements v)
  | _, _ => unsupported

/-- A call of a library function, with arguments by name for `np.array(v, dtype=float)` only
(/repo/opendis/DeadReckoning.py:42). -/
def applyLib (O : Ops) (M : Machine) (l : Lib) (args : List Val) (kws : List (Ident × Val)) : Res Val :=
  match kws with
  | [] => apply O M l args
  | [(k, .lib .float)] =>
    match l, args, Nat.beq k N.dtype with
    | .array, [v], true => floatArray O v
    | _, _, _ => unsupported
  | _ => unsupported

/-- The names that need no import (/repo/opendis/RangeCoordinates.py:64, :140, :149, :248, :322, :346). -/
def builtins : List (Ident × Lib) :=
  [(N.len, .len), (N.range, .range), (N.abs, .abs), (N.round, .round), (N.int, .int), (N.float, .float), (N.list, .list)]

/-- The contents of the module `math` (/repo/opendis/RangeCoordinates.py:45, /repo/opendis/DeadReckoning.py:29). -/
def math : List (Ident × Lib) :=
  [(N.sqrt, .sqrt), (N.pi, .pi), (N.sin, .sin), (N.cos, .cos), (N.tan, .tan), (N.atan, .atan), (N.atan2, .atan2)]

/-- The contents of the module `numpy` (/repo/opendis/RangeCoordinates.py:46, /repo/opendis/DeadReckoning.py:30). -/
def numpy : List (Ident × Lib) :=
  [(N.array, .array), (N.dot, .dot), (N.identity, .identity), (N.zeros, .zeros)]

/-! ## Expressions and statements -/

/-- What a call of a function of the module, or of a method of a class, does; and the attributes of classes
(e.g. `deg2rad` in /repo/opendis/RangeCoordinates.py:293-314). -/
structure Calls where
  fn : Ident → List Val → Res Val
  method : Ident → Ident → List Val → Res Val
  attr : Ident → Ident → Res Val

/-- A library name as a value: `math.pi` is a number (/repo/opendis/RangeCoordinates.py:51). -/
def libValue : Lib → Val
  | .pi => .float pi
  | l => .lib l

/-- A name: a local variable, else an imported name or module, else a built-in one
(e.g. `pi` in /repo/opendis/RangeCoordinates.py:49-52). -/
def global (X : Module) (env : Env) (x : Ident) : Res Val :=
  match look x env with
  | some v => .ok v
  | .none =>
    match look x X.imports with
    | some l => .ok (libValue l)
    | .none =>
      match look x X.modules with
      | some m => .ok (.module m)
      | .none =>
        match look x builtins with
        | some l => .ok (libValue l)
        | .none => .error (.err .nameError)

/-- `f(...)` for a name: a function or class of the module, or a library function
(/repo/opendis/RangeCoordinates.py:64, :113, :237). -/
def callName (O : Ops) (M : Machine) (X : Module) (C : Calls) (env : Env) (f : Ident) (args : List Val) (kws : List (Ident × Val)) :
    Res Val :=
  match look f X.functions, kws with
  | some _, [] => C.fn f args
  | some _, _ => unsupported
  | .none, _ =>
    match look f X.classes, args, kws with
    | some _, [], [] => .ok (.obj f)
    | some _, _, _ => unsupported
    | .none, _, _ => do
      match ← global X env f with
      | .lib l => applyLib O M l args kws
      | _ => .error (.err .typeError)

/-- `e.m(...)`: a method of an object, a function of a module, or `split` of a string
(/repo/opendis/RangeCoordinates.py:184, :322; /repo/opendis/DeadReckoning.py:57). -/
def callMethod (O : Ops) (M : Machine) (C : Calls) (v : Val) (m : Ident) (args : List Val) (kws : List (Ident × Val)) : Res Val :=
  match v, kws with
  | .obj c, [] => C.method c m args
  | .module l, _ =>
    match look m l with
    | some f => applyLib O M f args kws
    | .none => .error (.err .attributeError)
  | .str s, [] =>
    match args, Nat.beq m N.split with
    | [], true => .ok (.list ((M.split s).map .str))
    | _, _ => unsupported
  | _, _ => unsupported

/-- `e.f` (/repo/opendis/RangeCoordinates.py:132, :530). -/
def getAttr (C : Calls) (v : Val) (f : Ident) : Res Val :=
  match v with
  | .obj c => C.attr c f
  | .module l =>
    match look f l with
    | some f => .ok (libValue f)
    | .none => .error (.err .attributeError)
  | _ => unsupported

/-- The arguments without the last ones, which have names (e.g. `dtype=float` in /repo/opendis/DeadReckoning.py:42). -/
def byPosition (vs : List Val) (kws : List Ident) : List Val := vs.take (vs.length - kws.length)

/-- The last arguments, with their names (e.g. `dtype=float` in /repo/opendis/DeadReckoning.py:42). -/
def byName (vs : List Val) (kws : List Ident) : List (Ident × Val) := kws.zip (vs.drop (vs.length - kws.length))

/-- One after the other, as in `[e for x in l]` (/repo/opendis/RangeCoordinates.py:322). -/
def each (f : Val → Res Val) : List Val → Res (List Val)
  | [] => .ok []
  | v :: l => do
    let x ← f v
    let xs ← each f l
    return x :: xs

mutual

/-- The value of an expression (e.g. /repo/opendis/RangeCoordinates.py:49-57). -/
def eval (O : Ops) (M : Machine) (X : Module) (C : Calls) : Expr → Env → Res Val
  | .name x, env => global X env x
  | .int n, _ => .ok (.int (.ofNat n))
  | .dec m e, _ =>
    match O.decimal m e with
    | some x => .ok (.float x)
    | .none => unsupported
  | .str s, _ => .ok (.str s)
  | .none, _ => .ok .none
  | .attr e f, env => do getAttr C (← eval O M X C e env) f
  | .index e i, env => do
    let v ← eval O M X C e env
    let j ← eval O M X C i env
    item v j
  | .tuple es, env => do return .tuple (← evalList O M X C es env)
  | .list es, env => do return .list (← evalList O M X C es env)
  | .neg e, env => do negate O (← eval O M X C e env)
  | .bin op l r, env => do
    let a ← eval O M X C l env
    let b ← eval O M X C r env
    binary O M op a b
  | .cmp e rest, env => do
    let v ← eval O M X C e env
    return .bool (← evalChain O M X C v rest env)
  | .and l r, env => do
    let v ← eval O M X C l env
    match ← truth v with
    | true => eval O M X C r env
    | false => .ok v
  | .call f args kws, env => do
    let vs ← evalList O M X C args env
    callName O M X C env f (byPosition vs kws) (byName vs kws)
  | .method e m args kws, env => do
    let v ← eval O M X C e env
    let vs ← evalList O M X C args env
    callMethod O M C v m (byPosition vs kws) (byName vs kws)
  | .star _, _ => unsupported
  | .comp e x l, env => do
    let vs ← elements (← eval O M X C l env)
    return .list (← each (fun v => eval O M X C e ((x, v) :: env)) vs)
  | .other, _ => unsupported

/-- The values of the arguments, from left to right; `*e` stands for the elements of `e`
(/repo/opendis/DeadReckoning.py:285). -/
def evalList (O : Ops) (M : Machine) (X : Module) (C : Calls) : List Expr → Env → Res (List Val)
  | [], _ => .ok []
  | .star e :: es, env => do
    let vs ← elements (← eval O M X C e env)
    let ws ← evalList O M X C es env
    return vs ++ ws
  | e :: es, env => do
    let v ← eval O M X C e env
    let vs ← evalList O M X C es env
    return v :: vs

/-- A chain of comparisons, until one is false (/repo/opendis/RangeCoordinates.py:348). -/
def evalChain (O : Ops) (M : Machine) (X : Module) (C : Calls) (v : Val) : List (Cmp × Expr) → Env → Res Bool
  | [], _ => .ok true
  | (op, e) :: rest, env => do
    let w ← eval O M X C e env
    match ← compare O op v w with
    | true => evalChain O M X C w rest env
    | false => .ok false

end

/-- Assignment to several names (/repo/opendis/RangeCoordinates.py:184, :325). -/
def unpack : List Expr → List Val → Env → Res Env
  | [], [], env => .ok env
  | .name x :: ts, v :: vs, env => unpack ts vs ((x, v) :: env)
  | [], _ :: _, _ => .error (.err .valueError)
  | _ :: _, [], _ => .error (.err .valueError)
  | _, _, _ => unsupported

/-- Assignment (e.g. /repo/opendis/RangeCoordinates.py:117-158). -/
def store : Expr → Val → Env → Res Env
  | .name x, v, env => .ok ((x, v) :: env)
  | .tuple ts, v, env => do unpack ts (← elements v) env
  | _, _, _ => unsupported

/-- `for x in l: body` (/repo/opendis/RangeCoordinates.py:64). -/
def forLoop (x : Ident) (body : Env → Res (Env × Option Val)) : List Val → Env → Res (Env × Option Val)
  | [], env => .ok (env, .none)
  | v :: vs, env => do
    match ← body ((x, v) :: env) with
    | (env, some r) => .ok (env, some r)
    | (env, .none) => forLoop x body vs env

/-- `while test: body` (/repo/opendis/RangeCoordinates.py:149), at most so many rounds. -/
def whileLoop (test : Env → Res Bool) (body : Env → Res (Env × Option Val)) : Nat → Env → Res (Env × Option Val)
  | 0, _ => .error .fuel
  | n + 1, env => do
    match ← test env with
    | false => .ok (env, .none)
    | true =>
      match ← body env with
      | (env, some r) => .ok (env, some r)
      | (env, .none) => whileLoop test body n env

mutual

/-- A statement; `some v` if it has returned `v`. `n` limits the rounds of `while`
(e.g. /repo/opendis/RangeCoordinates.py:117-158). -/
def exec (O : Ops) (M : Machine) (X : Module) (C : Calls) (n : Nat) : Stmt → Env → Res (Env × Option Val)
  | .assign t e, env => do
    let v ← eval O M X C e env
    return (← store t v env, .none)
  | .augAdd x e, env => do
    let a ← global X env x
    let b ← eval O M X C e env
    return ((x, ← binary O M .add a b) :: env, .none)
  | .for x e body, env => do
    let vs ← elements (← eval O M X C e env)
    forLoop x (execs O M X C n body) vs env
  | .while t body, env => whileLoop (fun env => do truth (← eval O M X C t env)) (execs O M X C n body) n env
  | .ite t y e, env => do
    match ← truth (← eval O M X C t env) with
    | true => execs O M X C n y env
    | false => execs O M X C n e env
  | .ret e, env => do return (env, some (← eval O M X C e env))
  | .raise e, _ => .error (.err e)
  | .other, _ => unsupported

/-- Statements one after the other, until one returns (e.g. /repo/opendis/RangeCoordinates.py:117-158). -/
def execs (O : Ops) (M : Machine) (X : Module) (C : Calls) (n : Nat) : List Stmt → Env → Res (Env × Option Val)
  | [], env => .ok (env, .none)
  | s :: ss, env => do
    match ← exec O M X C n s env with
    | (env, some v) => .ok (env, some v)
    | (env, .none) => execs O M X C n ss env

end

/-- Nothing can be called (default values and the bodies of classes)
(e.g. the default value in /repo/opendis/RangeCoordinates.py:117). -/
def noCalls : Calls := ⟨fun _ _ => unsupported, fun _ _ _ => unsupported, fun _ _ => unsupported⟩

/-- The parameters with their values: the arguments, then default values (/repo/opendis/RangeCoordinates.py:117). -/
def bindParams (O : Ops) (M : Machine) (X : Module) : List (Ident × Option Expr) → List Val → Env → Res Env
  | [], [], env => .ok env
  | [], _ :: _, _ => .error (.err .typeError)
  | (x, _) :: ps, v :: vs, env => bindParams O M X ps vs ((x, v) :: env)
  | (x, some d) :: ps, [], env => do
    let v ← eval O M X noCalls d []
    bindParams O M X ps [] ((x, v) :: env)
  | (_, .none) :: _, [], _ => .error (.err .typeError)

/-- The attributes of a class: its body, one assignment after the other (/repo/opendis/RangeCoordinates.py:72-115). -/
def classBody (O : Ops) (M : Machine) (X : Module) : List (Ident × Expr) → Env → Res Env
  | [], env => .ok env
  | (x, e) :: l, env => do
    let v ← eval O M X noCalls e env
    classBody O M X l ((x, v) :: env)

/-- An attribute of a class (/repo/opendis/RangeCoordinates.py:113, :132). -/
def classAttr (O : Ops) (M : Machine) (X : Module) (c f : Ident) : Res Val :=
  match look c X.classes with
  | .none => unsupported
  | some k => do
    match look f (← classBody O M X k.attrs []) with
    | some v => .ok v
    | .none => .error (.err .attributeError)

/-- A call: the parameters, then the body. A function that does not return anything returns `None`
(e.g. /repo/opendis/RangeCoordinates.py:117). -/
def invoke (O : Ops) (M : Machine) (X : Module) (C : Calls) (n : Nat) (f : Fn) (args : List Val) (env : Env) : Res Val := do
  let env ← bindParams O M X f.params args env
  match ← execs O M X C n f.body env with
  | (_, some v) => .ok v
  | (_, .none) => .ok .none

/-- The functions and methods of a module, with at most so many calls in one another and rounds of a loop
(those of /repo/opendis/RangeCoordinates.py:49-576 and /repo/opendis/DeadReckoning.py:40-391). -/
def calls (O : Ops) (M : Machine) (X : Module) : Nat → Calls
  | 0 => ⟨fun _ _ => .error .fuel, fun _ _ _ => .error .fuel, classAttr O M X⟩
  | n + 1 =>
    { fn := fun f args =>
        match look f X.functions with
        | some k => invoke O M X (calls O M X n) n k args []
        | .none => .error (.err .nameError)
      method := fun c m args =>
        match look c X.classes with
        | some k =>
          match look m k.methods with
          | some f => invoke O M X (calls O M X n) n f args [(N.self, .obj c)]
          | .none => .error (.err .attributeError)
        | .none => unsupported
      attr := classAttr O M X }

end Dis.Calc
