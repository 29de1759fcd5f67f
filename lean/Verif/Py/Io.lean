import Verif.Py.Arith
import Verif.Source.IoNames

/-!
# The streams and the factory as data, and what they mean

The syntax trees of `opendis/stream.py`, `opendis/types.py` and `opendis/PduFactory.py` are data (`Source/Io.lean`, written
by `tools/genio.py` node by node from Python's own parser). This module says what such a tree does; C79 proves that the
transliterations (`Stream.lean`, `Model/Factory.lean`) do what the trees say.

The part of Python is the one these modules use; whatever is outside of it raises `unsupported`. There is one file to read
from and one to write to: a `DataInputStream` is known by the file behind it. Objects of the record and PDU classes belong
to the interpreter of `Py/Source.lean`.
-/

namespace Dis.Io

open Src

/-- Expressions, as in Python's `ast`; a string is the list of its code points
(those of /repo/opendis/stream.py:27-184 and /repo/opendis/PduFactory.py:11-100). -/
inductive Expr where
  | name (x : Ident)
  | int (v : Int)
  | str (s : List Nat)
  | none
  | attr (e : Expr) (f : Ident)
  | call (f : Ident) (args : List Expr)
  | method (e : Expr) (m : Ident) (args : List Expr)
  | index (e i : Expr)
  | isIn (l r : Expr)
  | dict (keys values : List Expr)
  | other

/-- Statements, as in Python's `ast`. Annotations and strings that stand alone are dropped
(those of /repo/opendis/stream.py:27-184 and /repo/opendis/PduFactory.py:11-100). -/
inductive Stmt where
  | expr (e : Expr)
  | assign (target e : Expr)
  | ite (test : Expr) (yes no : List Stmt)
  | withAs (e : Expr) (x : Ident) (body : List Stmt)
  | ret (e : Expr)
  | other

/-- A function or a method: its parameters without `self`, its body (e.g. /repo/opendis/stream.py:31-32). -/
structure Fn where
  params : List Ident
  body : List Stmt

/-- The modules: classes with their methods (/repo/opendis/stream.py:27-184), other names of types
(/repo/opendis/types.py:12-34), functions and constants (/repo/opendis/PduFactory.py:11-100). -/
structure Modules where
  classes : List (Ident × List (Ident × Fn))
  types : List (Ident × Ident)
  functions : List (Ident × Fn)
  constants : List (Ident × Expr)

/-- Values: those of the records and PDUs, among them the two streams; strings; what `struct.unpack` returns; modules; the
two files behind the streams (`self.stream`, /repo/opendis/stream.py:29); a dictionary from numbers to classes
(/repo/opendis/PduFactory.py:11) and its keys. -/
inductive Val where
  | val (v : Src.Val)
  | str (s : List Nat)
  | tuple (vs : List Src.Val)
  | module (m : Ident)
  | input
  | output
  | dict (l : List (Int × Ident))
  | keys (l : List Int)

/-- Local variables and files (of a function such as /repo/opendis/PduFactory.py:66-81). -/
structure St where
  locals : List (Ident × Val)
  io : Streams

/-- A piece of code at work, see `Src.M` (such as /repo/opendis/PduFactory.py:66-81). -/
def M (α : Type) := St → Except PyErr α × St

namespace M

/-- One after the other; an exception ends it (e.g. /repo/opendis/PduFactory.py:67-69). -/
def bind {α β : Type} (p : M α) (k : α → M β) : M β := fun st =>
  match p st with
  | (.error e, st') => (.error e, st')
  | (.ok a, st') => k a st'

/-- `do` notation (it has no counterpart in /repo). -/
instance : Monad M where
  pure a := fun st => (.ok a, st)
  bind := bind

/-- An exception (e.g. of `open`, /repo/opendis/PduFactory.py:97). -/
def throw {α : Type} (e : PyErr) : M α := fun st => (.error e, st)

/-- A value that may be missing (e.g. `pdu` in /repo/opendis/PduFactory.py:75). -/
def get {α : Type} (e : PyErr) : Option α → M α
  | some v => pure v
  | .none => throw e

/-- A result or an exception (of `struct.pack` or `struct.unpack`, /repo/opendis/stream.py:27-184). -/
def of {α : Type} (x : Except PyErr α) : M α := fun st => (x, st)

/-- Something done to the file that is read from (`self.stream.read`, /repo/opendis/stream.py:27-105). -/
def reading {α : Type} (r : R α) : M α := fun st =>
  match r st.io.inp with
  | (x, s) => (x, { st with io := { st.io with inp := s } })

/-- Something written (`self.stream.write`, /repo/opendis/stream.py:107-184). -/
def writing {α : Type} (w : W α) : M α := fun st =>
  (w.res, { st with io := { st.io with out := st.io.out ++ w.out } })

/-- A local variable, if it is bound (e.g. /repo/opendis/PduFactory.py:72). -/
def var? (x : Ident) : M (Option Val) := fun st => (.ok (look x st.locals), st)

/-- Assignment to a local variable (e.g. /repo/opendis/PduFactory.py:68). -/
def setVar (x : Ident) (v : Val) : M Unit := fun st => (.ok (), { st with locals := put x v st.locals })

/-- A new file to read from (/repo/opendis/PduFactory.py:89). -/
def file (data : Bytes) : M Unit := fun st => (.ok (), { st with io := { st.io with inp := ⟨data, 0⟩ } })

end M

/-- The objects of the records and PDUs: calls of their methods, and new ones; and the files one can open, with their
contents (used by /repo/opendis/PduFactory.py:74-75, 97). -/
structure World where
  call : Src.Call
  make : Ident → Streams → Except PyErr Src.Val × Streams
  file : Val → Except PyErr Bytes

/-- A function or a method of a stream called (e.g. /repo/opendis/PduFactory.py:92). -/
abbrev Call := Option Ident → Ident → List Val → Streams → Except PyErr Val × Streams

/-- `struct.pack` with an integer format (/repo/opendis/stream.py:114-146, :184): `struct.error` unless it is given an
integer. -/
def integer (p : Int → Except PyErr Bytes) : Val → Except PyErr Bytes
  | .val (.int v) => p v
  | .val (.bool b) => p b.toInt
  | _ => .error .structError

/-- An integer where `struct.pack` needs a float; `struct.error` if it is too large
(`struct.pack`, e.g. in /repo/opendis/stream.py:107-184). -/
def converted (p : F64 → Except PyErr Bytes) : Option F64 → Except PyErr Bytes
  | some x => p x
  | .none => .error .structError

/-- `struct.pack` with a float format (/repo/opendis/stream.py:123-127): an integer is converted. -/
def real (p : F64 → Except PyErr Bytes) : Val → Except PyErr Bytes
  | .val (.float v) => p v
  | .val (.int v) => converted p (F64.ofInt v)
  | .val (.bool b) => converted p (F64.ofInt b.toInt)
  | _ => .error .structError

/-- Truth of a value, as `struct.pack` with the format `?` needs it (/repo/opendis/stream.py:112). -/
def truth : Val → Bool
  | .val v => Src.truth v
  | .str s => !s.isEmpty
  | .tuple vs => !vs.isEmpty
  | .dict l => !l.isEmpty
  | .keys l => !l.isEmpty
  | _ => true

/-- `struct.pack(format, v)`, for the formats of /repo/opendis/stream.py:112-184: `?`, `b`, `B`, and after `>`, which says big
endian, `H`, `h`, `I`, `i`, `Q`, `q`, `f`, `d`. -/
def pack (format : List Nat) (v : Val) : Except PyErr Bytes :=
  match format with
  | [63] => .ok [if truth v then 1 else 0]
  | [98] => integer (packS 1) v
  | [66] => integer (packU 1) v
  | [62, 72] => integer (packU 2) v
  | [62, 104] => integer (packS 2) v
  | [62, 73] => integer (packU 4) v
  | [62, 105] => integer (packS 4) v
  | [62, 81] => integer (packU 8) v
  | [62, 113] => integer (packS 8) v
  | [62, 102] => real packF v
  | [62, 100] => real packD v
  | _ => .error unsupported

/-- `struct.unpack(format, b)`, a tuple with one element, for the formats of /repo/opendis/stream.py:32-66 (see `pack`). -/
def unpack (format : List Nat) (b : Bytes) : Except PyErr (List Src.Val) :=
  match format with
  | [63] => do return [.bool ((← unpackU 1 b) ≠ 0)]
  | [98] => do return [.int (← unpackS 1 b)]
  | [66] => do return [.int (← unpackU 1 b)]
  | [62, 72] => do return [.int (← unpackU 2 b)]
  | [62, 104] => do return [.int (← unpackS 2 b)]
  | [62, 73] => do return [.int (← unpackU 4 b)]
  | [62, 105] => do return [.int (← unpackS 4 b)]
  | [62, 81] => do return [.int (← unpackU 8 b)]
  | [62, 113] => do return [.int (← unpackS 8 b)]
  | [62, 102] => do return [.float (← unpackF b)]
  | [62, 100] => do return [.float (← unpackD b)]
  | _ => .error unsupported

/-- Methods of the file that is read from: `read` (/repo/opendis/stream.py:32, :70), where `None` means everything, and `seek`
from the beginning (/repo/opendis/PduFactory.py:68). -/
def inputMethod (m : Ident) (args : List Val) : M Val :=
  match Nat.beq m I.read, Nat.beq m I.seek, args with
  | true, _, [.val (.int n)] => do return .val (.bytes (← M.reading (R.readRaw n)))
  | true, _, [.val (.bool b)] => do return .val (.bytes (← M.reading (R.readRaw b.toInt)))
  | true, _, [.val .none] => do return .val (.bytes (← M.reading (R.readRaw (-1))))
  | true, _, _ => M.throw .typeError
  | _, true, [.val (.int n), .val (.int 0)] => do
    if n < 0 then M.throw .valueError else M.reading (R.seek n.toNat)
    return .val (.int n)
  | _, _, _ => M.throw unsupported

/-- Methods of the file that is written to (/repo/opendis/stream.py:112, :150). -/
def outputMethod (m : Ident) (args : List Val) : M Val :=
  match Nat.beq m I.write, args with
  | true, [.val (.bytes b)] => do M.writing (W.emit b); return .val (.int b.length)
  | true, _ => M.throw .typeError
  | _, _ => M.throw unsupported

/-- Functions of the modules `struct` and `io` (/repo/opendis/stream.py:32, :112; /repo/opendis/PduFactory.py:89, :97). -/
def moduleFunction (O : World) (mo m : Ident) (args : List Val) : M Val :=
  match Nat.beq mo I.struct, Nat.beq mo I.io with
  | true, _ =>
    match Nat.beq m I.pack, Nat.beq m I.unpack, args with
    | true, _, [.str f, v] => do return .val (.bytes (← M.of (pack f v)))
    | _, true, [.str f, .val (.bytes b)] => do return .tuple (← M.of (unpack f b))
    | _, _, _ => M.throw unsupported
  | _, true =>
    match Nat.beq m I.BytesIO, Nat.beq m I.«open», args with
    | true, _, [.val (.bytes b)] => do M.file b; return .input
    | _, true, [path, .str [114, 98]] => do M.file (← M.of (O.file path)); return .input
    | _, _, _ => M.throw unsupported
  | _, _ => M.throw unsupported

/-- Functions of the language, also under the names of /repo/opendis/types.py:12-34: `chr`, `ord`, `len`, `int`, `float`,
`str`. -/
def builtin (f : Ident) (args : List Val) : M Val :=
  match Nat.beq f I.chr, Nat.beq f I.ord, Nat.beq f I.len, Nat.beq f I.int, Nat.beq f I.float, Nat.beq f I.str, args with
  | true, _, _, _, _, _, [.val (.int v)] => if 0 ≤ v ∧ v < 0x110000 then pure (.str [v.toNat]) else M.throw .valueError
  | _, true, _, _, _, _, [.str [c]] => pure (.val (.int (c : Int)))
  | _, true, _, _, _, _, [_] => M.throw .typeError
  | _, _, true, _, _, _, [.val (.bytes b)] => pure (.val (.int b.length))
  | _, _, true, _, _, _, [.str s] => pure (.val (.int s.length))
  | _, _, _, true, _, _, [.val (.int v)] => pure (.val (.int v))
  | _, _, _, true, _, _, [.val (.bool b)] => pure (.val (.int b.toInt))
  | _, _, _, _, true, _, [.val (.float v)] => pure (.val (.float v))
  | _, _, _, _, _, true, [.str s] => pure (.str s)
  | _, _, _, _, _, _, _ => M.throw unsupported

/-- The constructor of a stream has to keep the file as `self.stream` (/repo/opendis/stream.py:28-29, :108-109). -/
def wraps : Option (List (Ident × Fn)) → Bool
  | some k => match look I.__init__ k with
    | some ⟨[p], [.assign (.attr (.name s) a) (.name q)]⟩ => Nat.beq s I.self && Nat.beq a I.stream && Nat.beq p q
    | _ => false
  | .none => false

/-- `f(...)` for a name (e.g. /repo/opendis/stream.py:41, :74; /repo/opendis/PduFactory.py:74, :90, :92): a local variable that
is a class, a stream, a function of the module, a function of the language. -/
def callName (G : Modules) (O : World) (C : Call) (f : Ident) (args : List Val) : M Val := do
  let v ← M.var? f
  match v, Nat.beq f I.DataInputStream, look f G.functions, args with
  | some (.val (.cls c)), _, _, [] =>
    fun st => match O.make c st.io with
      | (r, io) => (r.map .val, { st with io })
  | some _, _, _, _ => M.throw unsupported
  | .none, true, _, [.input] => if wraps (look f G.classes) then return .val .inp else M.throw unsupported
  | .none, true, _, _ => M.throw unsupported
  | .none, false, some _, _ =>
    fun st => match C .none f args st.io with
      | (r, io) => (r, { st with io })
  | .none, false, .none, _ => builtin ((look f G.types).getD f) args

/-- A dictionary display with numbers as keys and classes as values; of two equal keys the last counts
(/repo/opendis/PduFactory.py:11-64). -/
def dictionary : List Expr → List Expr → Option (List (Int × Ident))
  | [], [] => some []
  | .int k :: ks, .name c :: vs => match dictionary ks vs with
    | some l => some (if l.any (·.1 == k) then l else (k, c) :: l)
    | .none => .none
  | _, _ => .none

/-- A name: a local variable, a module, a constant (e.g. `PduTypeDecoders` in /repo/opendis/PduFactory.py:71). -/
def global (G : Modules) (x : Ident) : M Val := do
  let v ← M.var? x
  match v, Nat.beq x I.struct || Nat.beq x I.io, look x G.constants with
  | some v, _, _ => return v
  | .none, true, _ => return .module x
  | .none, false, some (.dict ks vs) => return .dict (← M.get unsupported (dictionary ks vs))
  | .none, false, _ => M.throw .nameError

/-- `e.f`: only `stream` of the two streams (/repo/opendis/stream.py:29, :109). -/
def getAttr (v : Val) (f : Ident) : M Val :=
  match v, Nat.beq f I.stream with
  | .val .inp, true => pure .input
  | .val .out, true => pure .output
  | _, _ => M.throw unsupported

/-- `e[i]`: an element of a tuple, or the value of a dictionary (/repo/opendis/stream.py:32, /repo/opendis/PduFactory.py:73).
A missing key is a `KeyError`, here `unsupported`. -/
def item (v i : Val) : M Val :=
  match v, i with
  | .tuple vs, .val (.int i) => if i < 0 then M.throw unsupported else do return .val (← M.get .indexError vs[i.toNat]?)
  | .dict l, .val (.int i) => match l.find? (·.1 == i) with
    | some (_, c) => pure (.val (.cls c))
    | .none => M.throw unsupported
  | _, _ => M.throw unsupported

/-- `e.m(...)`, for the value of `e`. A method of an object may change it; the object goes back to the variable
(e.g. /repo/opendis/PduFactory.py:75). -/
def callMethod (O : World) (C : Call) (e : Expr) (v : Val) (m : Ident) (args : List Val) : M Val :=
  match v with
  | .module mo => moduleFunction O mo m args
  | .input => inputMethod m args
  | .output => outputMethod m args
  | .val .inp => fun st => match C (some I.DataInputStream) m args st.io with
    | (r, io) => (r, { st with io })
  | .val .out => fun st => match C (some I.DataOutputStream) m args st.io with
    | (r, io) => (r, { st with io })
  | .val (.obj c fs) =>
    match e, args with
    | .name x, [.val a] => fun st =>
      match O.call c m (.obj c fs) [a] [] st.io with
      | (r, v', io) => (r.map .val, ⟨put x (.val v') st.locals, io⟩)
    | _, _ => M.throw unsupported
  | .dict l => if Nat.beq m I.keys then pure (.keys (l.map (·.1))) else M.throw unsupported
  | _ => M.throw unsupported

mutual

/-- The value of an expression (e.g. /repo/opendis/PduFactory.py:72). -/
def eval (G : Modules) (O : World) (C : Call) : Expr → M Val
  | .name x => global G x
  | .int v => pure (.val (.int v))
  | .str s => pure (.str s)
  | .none => pure (.val .none)
  | .attr e f => do getAttr (← eval G O C e) f
  | .call f args => do callName G O C f (← evalList G O C args)
  | .method e m args => do
    let v ← eval G O C e
    callMethod O C e v m (← evalList G O C args)
  | .index e i => do item (← eval G O C e) (← eval G O C i)
  | .isIn l r => do
    let a ← eval G O C l
    let b ← eval G O C r
    match a, b with
    | .val (.int v), .keys ks => return .val (.bool (ks.contains v))
    | _, _ => M.throw unsupported
  | .dict _ _ => M.throw unsupported
  | .other => M.throw unsupported

/-- The values of the arguments, from left to right (e.g. /repo/opendis/PduFactory.py:67). -/
def evalList (G : Modules) (O : World) (C : Call) : List Expr → M (List Val)
  | [] => pure []
  | e :: es => do
    let v ← eval G O C e
    let vs ← evalList G O C es
    return v :: vs

end

mutual

/-- A statement; `some v` if it has returned `v`. Leaving a `with` closes the file, which nothing sees
(e.g. /repo/opendis/PduFactory.py:71-76). -/
def exec (G : Modules) (O : World) (C : Call) : Stmt → M (Option Val)
  | .expr e => do let _ ← eval G O C e; return .none
  | .assign (.name x) e => do M.setVar x (← eval G O C e); return .none
  | .assign _ _ => M.throw unsupported
  | .ite t y n => do
    match truth (← eval G O C t) with
    | true => execs G O C y
    | false => execs G O C n
  | .withAs e x body => do
    M.setVar x (← eval G O C e)
    execs G O C body
  | .ret e => do return some (← eval G O C e)
  | .other => M.throw unsupported

/-- Statements one after the other, until one returns (e.g. /repo/opendis/PduFactory.py:67-81). -/
def execs (G : Modules) (O : World) (C : Call) : List Stmt → M (Option Val)
  | [] => pure .none
  | s :: ss => do
    match ← exec G O C s with
    | some v => return some v
    | .none => execs G O C ss

end

/-- The parameters with their values; `none` for a `TypeError` (e.g. /repo/opendis/PduFactory.py:66). -/
def bindParams : List Ident → List Val → List (Ident × Val) → Option (List (Ident × Val))
  | [], [], env => some env
  | x :: ps, v :: vs, env => bindParams ps vs (put x v env)
  | _, _, _ => .none

/-- `self`, for a method of a stream (e.g. /repo/opendis/stream.py:27-105). -/
def self : Option Ident → List (Ident × Val)
  | some c => [(I.self, .val (if Nat.beq c I.DataInputStream then .inp else .out))]
  | .none => []

/-- The function or method with a name (of /repo/opendis/stream.py:27-184 and /repo/opendis/PduFactory.py:66-100). -/
def find (G : Modules) (c : Option Ident) (f : Ident) : Option Fn :=
  match c with
  | some c => match look c G.classes with
    | some k => look f k
    | .none => .none
  | .none => look f G.functions

/-- The functions and methods of the modules, called at most so deep in one another
(of /repo/opendis/stream.py:27-184 and /repo/opendis/PduFactory.py:66-100). -/
def run (G : Modules) (O : World) : Nat → Call
  | 0, _, _, _, io => (.error unsupported, io)
  | n + 1, c, f, args, io =>
    match find G c f with
    | .none => (.error .attributeError, io)
    | some d =>
      match bindParams d.params args (self c) with
      | .none => (.error .typeError, io)
      | some env =>
        match execs G O (run G O n) d.body ⟨env, io⟩ with
        | (.ok r, st) => (.ok (r.getD (.val .none)), st.io)
        | (.error e, st) => (.error e, st.io)

end Dis.Io
