import Verif.Stream
import Verif.Model.Bitfield
import Verif.Py.Text

/-!
# The source text as data, and what it means

The other modules transliterate each method of /repo/opendis into Lean. Here the syntax trees of the methods
are data (`Source/*.lean`, written by `tools/gensource.py` node by node from Python's own parser), and this
module says what such a tree does. C77 proves that the transliterations do what the trees say.

The part of Python is the one the methods `__init__`, `serialize` and `parse` and the properties of the record
and PDU classes use. Whatever is outside of it raises `unsupported`.

Objects are values: a method that changes its object hands the changed object back, and it is put where it came
from. C66 and C67 justify this for programs that do not put one object in two places. The order of attributes is
not visible; they are kept in the order of their numbers.
-/

namespace Dis.Src

/-- A name in the source (identifiers of /repo/opendis/dis7.py); `Source/Names.lean` numbers them. -/
abbrev Ident := Nat

/-- Binary operators (e.g. /repo/opendis/dis7.py:199, :3164, :3313, :3322, :6998). -/
inductive Op where
  | add | sub | mul | floordiv | mod | bitand

/-- Comparisons (e.g. /repo/opendis/dis7.py:3314, :3444, :5077, :5079). -/
inductive Cmp where
  | eq | ne | lt | le | gt | ge | is | isNot | isIn

/-- `ord(e)`, `bytes(e)`, `filter(None, e)` and `e.decode("utf-8")` (/repo/opendis/dis7.py:1225, :1231). -/
inductive Prim where
  | ord | bytes | filter | decode

/-- Expressions, as in Python's `ast`, with a constructor for each kind of call that occurs: `f(...)` for a name `f`,
`e.m(...)`, `super(T, self).m(...)` or `super().m(...)`, `hasattr(e, 'f')`. Keyword arguments come last among the
arguments, and `kws` are their names. Further `isinstance(e, int)`, `int(e)`, `bool(e)`, the call of a value that is
neither a method nor named (`self._struct(...)`), `bitfield.bitfield(name=..., fields=[...])`, `issubclass(e, e')`,
`t.get(k, d)` for the table `t` of a module, calls of functions of a module, and of built-in functions on strings
(those of /repo/opendis/dis7.py:49-7537 and /repo/opendis/record). -/
inductive Expr where
  | name (x : Ident)
  | int (v : Int)
  | float (v : F64)
  | none
  | bool (b : Bool)
  | attr (e : Expr) (f : Ident)
  | call (f : Ident) (args : List Expr) (kws : List Ident)
  | method (e : Expr) (m : Ident) (args : List Expr) (kws : List Ident)
  | super (c : Option Ident) (m : Ident) (args : List Expr) (kws : List Ident)
  | hasattr (e : Expr) (f : Ident)
  | index (e i : Expr)
  | bin (op : Op) (l r : Expr)
  | or (l r : Expr)
  | and (l r : Expr)
  | not (e : Expr)
  | cmp (op : Cmp) (l r : Expr)
  | ite (test yes no : Expr)
  | list (es : List Expr)
  | bytes (b : Bytes)
  | isInt (e : Expr)
  | toInt (e : Expr)
  | toBool (e : Expr)
  | apply (e : Expr) (args : List Expr)
  | bitfield (fs : List (Ident × FieldDescription))
  | issubclass (e e' : Expr)
  | lookup (table : List (Int × Ident)) (k d : Expr)
  | func (f : Ident) (args : List Expr) (kws : List Ident)
  | prim (p : Prim) (e : Expr)
  | other

/-- Statements, as in Python's `ast`. Annotations and strings that stand alone are dropped; `raise` keeps the
class of the exception. `classDef x` is a class statement in a function; the class itself is in the program
(those of /repo/opendis/dis7.py:49-7537 and /repo/opendis/record). -/
inductive Stmt where
  | expr (e : Expr)
  | assign (target e : Expr)
  | augAdd (target e : Expr)
  | for (x : Ident) (iter : Expr) (body : List Stmt)
  | ite (test : Expr) (yes no : List Stmt)
  | ret (e : Expr)
  | raise (e : PyErr)
  | assert (e : Expr)
  | classDef (x : Ident)
  | pass
  | other

/-- A method: its parameters without `self` (with default values), whether it is a property, its body
(e.g. /repo/opendis/dis7.py:86-87). -/
structure Method where
  params : List (Ident × Option Expr)
  property : Bool
  body : List Stmt

/-- A class: its base class, its attributes (e.g. /repo/opendis/dis7.py:4803) and its methods. -/
structure Class where
  base : Option Ident
  attrs : List (Ident × Expr)
  methods : List (Ident × Method)

/-- The classes of the modules (/repo/opendis/dis7.py, /repo/opendis/record). The functions of the modules are methods of a
class with a name of its own (`Words.module`). -/
abbrev Program := List (Ident × Class)

/-- Values. `inp` and `out` are the streams a method is given. `struct` is a class made by `bitfield`, with the names and
widths of its fields, and `bits` an object of it (/repo/opendis/record/bitfield.py:99); `own` is a class made by a class
statement in a function, with the attributes assigned to it since (/repo/opendis/record/__init__.py:49, :77). -/
inductive Val where
  | none
  | int (v : Int)
  | float (v : F64)
  | bool (b : Bool)
  | bytes (b : Bytes)
  | list (l : List Val)
  | obj (c : Ident) (fs : List (Ident × Val))
  | cls (c : Ident)
  | own (c : Ident) (attrs : List (Ident × Val))
  | struct (fs : List (Ident × Nat))
  | bits (fs : List (Ident × Nat)) (vs : List Int)
  | str (s : List Int)
  | inp
  | out

/-- Outside of the modelled part of the language; no claim of C77 ends like this, unless it says so
(syntax not used by the methods of /repo/opendis/dis7.py). -/
def unsupported : PyErr := .exception

/-- What a name is bound to (`self.f`, local variables; e.g. /repo/opendis/dis7.py:95). -/
def look {α : Type} (x : Ident) : List (Ident × α) → Option α
  | [] => .none
  | (y, v) :: l => match Nat.beq y x with
    | true => some v
    | false => look x l

/-- The bindings after an assignment (`self.f = v`, e.g. /repo/opendis/dis7.py:127), in the order of the numbers of the
names. -/
def put {α : Type} (x : Ident) (v : α) : List (Ident × α) → List (Ident × α)
  | [] => [(x, v)]
  | (y, w) :: l => match Nat.beq y x with
    | true => (x, v) :: l
    | false => match Nat.ble x y with
      | true => (x, v) :: (y, w) :: l
      | false => (y, w) :: put x v l

/-- The streams: what is read from, and what has been written (/repo/opendis/stream.py:27-29, :107-109). -/
structure Streams where
  inp : InStream
  out : Bytes

/-- Local variables and streams (of a method such as /repo/opendis/dis7.py:103-112). -/
structure St where
  locals : List (Ident × Val)
  io : Streams

/-- A piece of code at work: it ends with a result or an exception and leaves the variables and streams as they are
then (such as the body of a method, e.g. /repo/opendis/dis7.py:103-112). -/
def M (α : Type) := St → Except PyErr α × St

namespace M

/-- One after the other; an exception ends it (e.g. /repo/opendis/dis7.py:105-106). -/
def bind {α β : Type} (p : M α) (k : α → M β) : M β := fun st =>
  match p st with
  | (.error e, st') => (.error e, st')
  | (.ok a, st') => k a st'

/-- `do` notation (it has no counterpart in /repo). -/
instance : Monad M where
  pure a := fun st => (.ok a, st)
  bind := bind

/-- An exception (e.g. /repo/opendis/record/base.py:55-57). -/
def throw {α : Type} (e : PyErr) : M α := fun st => (.error e, st)

/-- A value that may be missing (e.g. the attribute in /repo/opendis/dis7.py:95). -/
def get {α : Type} (e : PyErr) : Option α → M α
  | some v => pure v
  | .none => throw e

/-- Something done to the input stream (e.g. /repo/opendis/dis7.py:105). -/
def reading {α : Type} (r : R α) : M α := fun st =>
  match r st.io.inp with
  | (x, s) => (x, { st with io := { st.io with inp := s } })

/-- Something written to the output stream (e.g. /repo/opendis/dis7.py:95). -/
def writing {α : Type} (w : W α) : M α := fun st =>
  (w.res, { st with io := { st.io with out := st.io.out ++ w.out } })

/-- A local variable, if it is bound (e.g. `idx` of /repo/opendis/dis7.py:107). -/
def var? (x : Ident) : M (Option Val) := fun st => (.ok (look x st.locals), st)

/-- Assignment to a local variable (e.g. /repo/opendis/dis7.py:105). -/
def setVar (x : Ident) (v : Val) : M Unit := fun st => (.ok (), { st with locals := put x v st.locals })

end M

/-- A method called: class where its search begins, name, object, arguments, keyword arguments, streams; the result, the
object afterwards (also when the method raises), and the streams (e.g. /repo/opendis/dis7.py:3710). -/
abbrev Call := Ident → Ident → Val → List Val → List (Ident × Val) → Streams → Except PyErr Val × Val × Streams

/-- The names that mean something to the language or to the streams (e.g. `self` and `super` of /repo/opendis/dis7.py:3710). -/
structure Words where
  self : Ident
  init : Ident
  cls : Ident
  len : Ident
  range : Ident
  list : Ident
  append : Ident
  marshalledSize : Ident
  serialize : Ident
  parse : Ident
  module : Ident

/-- The methods of the streams, by name (/repo/opendis/stream.py:27-184): for reading, the argument is that of
`read_bytes`, and the result is a value; for writing, the argument is any value. -/
structure StreamTable where
  reads : List (Ident × (List Val → R Val))
  writes : List (Ident × (Val → W Unit))

/-- Where a method is found: first in the class, then in its base classes (method resolution order; no class of
/repo/opendis has two bases with methods of the same name). Sixteen steps are more than there are. -/
def resolve (P : Program) : Nat → Ident → Ident → Option (Ident × Method)
  | 0, _, _ => .none
  | n + 1, c, m => match look c P with
    | .none => .none
    | some k => match look m k.methods with
      | some d => some (c, d)
      | .none => match k.base with
        | some b => resolve P n b m
        | .none => .none

/-- The method of a class (see `resolve`) (e.g. /repo/opendis/dis7.py:3708-3712). -/
def method (P : Program) (c m : Ident) : Option (Ident × Method) := resolve P 16 c m

/-- The class itself or a base class of it has the property (e.g. /repo/opendis/dis7.py:86). -/
def isProperty (P : Program) (c f : Ident) : Bool :=
  match method P c f with
  | some (_, d) => d.property
  | .none => false

/-- A constant expression, as default values of parameters and class attributes are (e.g. /repo/opendis/dis7.py:3432,
:4803). -/
def constant : Expr → Option Val
  | .int v => some (.int v)
  | .float v => some (.float v)
  | .bool b => some (.bool b)
  | .none => some .none
  | .bytes b => some (.bytes b)
  | .bitfield fs => match Dis.bitfield (fs.map (·.2)) with
    | .ok ws => some (.struct ((fs.map (·.1)).zip ws))
    | .error _ => .none
  | _ => .none

/-- The class attributes of a class and its base classes, as attributes of a new object. Simplified: Python keeps them in the
class until they are assigned; nothing assigns to attributes of classes (e.g. /repo/opendis/dis7.py:3517, :4803). -/
def classAttrs (P : Program) : Nat → Ident → List (Ident × Val)
  | 0, _ => []
  | n + 1, c => match look c P with
    | .none => []
    | some k =>
      k.attrs.foldl (fun fs a => match constant a.2 with | some v => put a.1 v fs | .none => fs) (match k.base with
        | some b => classAttrs P n b
        | .none => [])

/-- Truth of a value (`x or y`, `if x`): `None`, zero, `False` and what is empty are false, objects are true, as no class of
/repo/opendis defines `__bool__` or `__len__` (e.g. /repo/opendis/dis7.py:80). -/
def truth : Val → Bool
  | .none => false
  | .int v => v != 0
  | .float v => !(v == 0 || v == 0x8000000000000000)
  | .bool b => b
  | .bytes b => !b.isEmpty
  | .list l => !l.isEmpty
  | .str s => !s.isEmpty
  | _ => true

/-- An integer; `bool` is a kind of integer (e.g. the count in /repo/opendis/dis7.py:107). -/
def asInt : Val → Option Int
  | .int v => some v
  | .bool b => some b.toInt
  | _ => .none

/-- `l op r` (e.g. /repo/opendis/dis7.py:199, :3313); integers only, and `[x] * n` (/repo/opendis/dis7.py:348). `x & y`
is for a mask `y` of the form 2^k - 1 (/repo/opendis/dis7.py:3155). -/
def binary (op : Op) (l r : Val) : M Val :=
  match op, l, asInt l, asInt r with
  | .mul, .list vs, _, some n => pure (.list (List.replicate n.toNat vs).flatten)
  | .add, _, some a, some b => pure (.int (a + b))
  | .sub, _, some a, some b => pure (.int (a - b))
  | .mul, _, some a, some b => pure (.int (a * b))
  | .floordiv, _, some a, some b => if b = 0 then M.throw .zeroDivisionError else pure (.int (a.fdiv b))
  | .mod, _, some a, some b => if b = 0 then M.throw .zeroDivisionError else pure (.int (a.fmod b))
  | .bitand, _, some a, some b => if b = 1 then pure (.int (a % 2)) else M.throw unsupported
  | _, _, _, _ => M.throw .typeError

/-- `l op r` (e.g. /repo/opendis/dis7.py:3314, :3444, :5077); for integers, and `is` for `None`, and `in` for an integer
and a tuple of integers (/repo/opendis/dis7.py:5084). -/
def compare (op : Cmp) (l r : Val) : M Val :=
  match op, l, r, asInt l, asInt r with
  | .is, .none, .none, _, _ => pure (.bool true)
  | .is, _, .none, _, _ => pure (.bool false)
  | .isNot, .none, .none, _, _ => pure (.bool false)
  | .isNot, _, .none, _, _ => pure (.bool true)
  | .eq, _, _, some a, some b => pure (.bool (a == b))
  | .ne, _, _, some a, some b => pure (.bool (a != b))
  | .lt, _, _, some a, some b => pure (.bool (decide (a < b)))
  | .le, _, _, some a, some b => pure (.bool (decide (a ≤ b)))
  | .gt, _, _, some a, some b => pure (.bool (decide (b < a)))
  | .ge, _, _, some a, some b => pure (.bool (decide (b ≤ a)))
  | .isIn, _, .list l, some a, _ => pure (.bool (l.any fun v => match asInt v with | some b => a == b | .none => false))
  | _, _, _, _, _ => M.throw unsupported

/-- `l[i]` for a list or a string and an index that is not negative (e.g. /repo/opendis/dis7.py:360, :1225). -/
def item : Val → Val → M Val
  | .str s, .int i => if i < 0 then M.throw unsupported else M.get .indexError (s[i.toNat]?.map fun c => .str [c])
  | .list l, .int i => if i < 0 then M.throw unsupported else M.get .indexError l[i.toNat]?
  | _, _ => M.throw .typeError

/-- `range(a, b)` (e.g. /repo/opendis/dis7.py:107); also `range(b)` (/repo/opendis/dis7.py:3322). -/
def rangeOf : List Val → M Val
  | [.int b] => pure (.list ((List.range b.toNat).map fun (i : Nat) => .int (i : Int)))
  | [.int a, .int b] => pure (.list ((List.range (b - a).toNat).map fun (i : Nat) => .int (a + (i : Int))))
  | _ => M.throw .typeError

/-- `e.f`, for a value (e.g. /repo/opendis/dis7.py:95): properties come first, then the attributes of the object. -/
def getAttr (P : Program) (C : Call) (v : Val) (f : Ident) : M Val :=
  match v with
  | .obj c fs =>
    match isProperty P c f with
    | true => fun st =>
      match C c f v [] [] st.io with
      | (r, _, io) => (r, { st with io })
    | false => M.get .attributeError (look f fs)
  | .bits fs vs => M.get .attributeError ((look f ((fs.map (·.1)).zip vs)).map .int)
  | _ => M.throw .attributeError

/-- The place an expression names gets a new value: a variable or an attribute of an object in such a place
(`self.f`, `element`; e.g. /repo/opendis/dis7.py:127, :743). Properties cannot be assigned. -/
def store (P : Program) : Expr → Val → M Unit
  | .name x, v => M.setVar x v
  | .attr (.name x) f, v => do
    match ← M.get .nameError (← M.var? x) with
    | .obj c fs =>
      match isProperty P c f with
      | true => M.throw .attributeError
      | false => M.setVar x (.obj c (put f v fs))
    | .own c fs => M.setVar x (.own c (put f v fs))
    | _ => M.throw .attributeError
  | _, _ => M.throw unsupported

/-- After a method call the object is put back where it came from, if it came from a place (`self.f.parse(...)`,
`element.parse(...)`, `self.l.append(...)`; e.g. /repo/opendis/dis7.py:239, :744, :745). -/
def putBack (P : Program) : Expr → Val → M Unit
  | .name x, v => store P (.name x) v
  | .attr (.name x) f, v => store P (.attr (.name x) f) v
  | _, _ => pure ()

/-- `T(...)`: a new object with the class attributes, then `__init__` (e.g. /repo/opendis/dis7.py:217). -/
def construct (P : Program) (W : Words) (C : Call) (c : Ident) (args : List Val) (kws : List (Ident × Val)) : M Val :=
  fun st =>
    match method P c W.init with
    | .none => (.ok (.obj c (classAttrs P 16 c)), st)
    | some _ =>
      match C c W.init (.obj c (classAttrs P 16 c)) args kws st.io with
      | (.ok _, v, io) => (.ok v, { st with io })
      | (.error e, _, io) => (.error e, { st with io })

/-- The same for a class made by a class statement in a function (/repo/opendis/dis7.py:66). -/
def constructOwn (P : Program) (W : Words) (C : Call) (c : Ident) (attrs : List (Ident × Val)) (args : List Val)
    (kws : List (Ident × Val)) : M Val :=
  fun st =>
    match C c W.init (.obj c (attrs.foldl (fun fs a => put a.1 a.2 fs) (classAttrs P 16 c))) args kws st.io with
    | (.ok _, v, io) => (.ok v, { st with io })
    | (.error e, _, io) => (.error e, { st with io })

/-- The values that the fields of a bit field structure with these widths hold: what does not fit is cut off, what is not
given is zero (`ctypes`; /repo/opendis/record/radio/__init__.py:204-209). -/
def held : List Nat → List Int → List Int
  | [], _ => []
  | w :: ws, vs => vs.headD 0 % 2 ^ w :: held ws vs.tail

/-- The arguments as integers (e.g. of `range` in /repo/opendis/dis7.py:107). -/
def integers : List Val → Option (List Int)
  | [] => some []
  | v :: vs => match asInt v, integers vs with
    | some i, some is => some (i :: is)
    | _, _ => .none

/-- A value called: the constructor of a bit field structure (`self._struct(...)`,
/repo/opendis/record/radio/__init__.py:204-209). -/
def callValue : Val → List Val → M Val
  | .struct fs, args => match integers args with
    | some is => match Nat.ble is.length fs.length with
      | true => pure (.bits fs (held (fs.map (·.2)) is))
      | false => M.throw .typeError
    | .none => M.throw .typeError
  | _, _ => M.throw unsupported

/-- `e.m(...)`, for the value of `e` (e.g. /repo/opendis/dis7.py:95, :231, :745): methods of the streams, `append` of lists,
methods of objects, and methods of classes, which are given the object as an argument
(/repo/opendis/dis7.py:6954); the methods of bit field structures (/repo/opendis/record/bitfield.py:102-111) are those of
`Model/Bitfield.lean`. -/
def callMethod (P : Program) (W : Words) (T : StreamTable) (C : Call) (e : Expr) (v : Val) (m : Ident) (args : List Val)
    (kws : List (Ident × Val)) : M Val :=
  match v with
  | .out =>
    match look m T.writes, args with
    | some w, [a] => do M.writing (w a); return .none
    | _, _ => M.throw unsupported
  | .inp =>
    match look m T.reads with
    | some r => M.reading (r args)
    | .none => M.throw unsupported
  | .list l =>
    match Nat.beq m W.append, args with
    | true, [a] => do putBack P e (.list (l ++ [a])); return .none
    | _, _ => M.throw unsupported
  | .obj c _ => fun st =>
    match C c m v args kws st.io with
    | (r, v', io) =>
      match putBack P e v' { st with io } with
      | (.ok _, st') => (r, st')
      | (.error x, st') => (.error x, st')
  | .cls c =>
    match method P c m, args with
    | .none, _ => M.throw .attributeError
    | some _, self :: args => fun st =>
      match C c m self args kws st.io with
      | (r, _, io) => (r, { st with io })
    | some _, [] => M.throw .typeError
  | .struct fs =>
    match Nat.beq m W.marshalledSize, Nat.beq m W.parse, args with
    | true, _, [] => pure (.int (Bitfield.marshalledSize (fs.map (·.2))))
    | _, true, [.inp] => do return .bits fs (← M.reading (Bitfield.parse (fs.map (·.2))))
    | _, _, _ => M.throw unsupported
  | .bits fs vs =>
    match Nat.beq m W.serialize, args with
    | true, [.out] => do M.writing (Bitfield.serialize (fs.map (·.2)) vs); return .none
    | _, _ => M.throw unsupported
  | _ => M.throw .attributeError

/-- The base class of a class (`super(Pdu, self)`, /repo/opendis/dis7.py:3710). -/
def baseOf (P : Program) : Val → Option Ident
  | .cls c => match look c P with
    | some k => k.base
    | .none => .none
  | _ => .none

/-- `hasattr(e, 'f')` (/repo/opendis/dis7.py:3444). -/
def hasAttr (P : Program) : Val → Ident → M Val
  | .obj c fs, f => pure (.bool (isProperty P c f || (look f fs).isSome))
  | _, _ => M.throw unsupported

/-- The arguments without the last ones, which have names (e.g. /repo/opendis/record/radio/__init__.py:182). -/
def byPosition (vs : List Val) (kws : List Ident) : List Val := vs.take (vs.length - kws.length)

/-- The last arguments, with their names (e.g. /repo/opendis/record/radio/__init__.py:182). -/
def byName (vs : List Val) (kws : List Ident) : List (Ident × Val) := kws.zip (vs.drop (vs.length - kws.length))

/-- `super().m(...)` and `super(T, self).m(...)`: the search begins in the base class of `T`
(e.g. /repo/opendis/dis7.py:3679, /repo/opendis/record/base.py:86). -/
def callSuper (P : Program) (W : Words) (C : Call) (c : Val) (m : Ident) (args : List Val) (kws : List (Ident × Val)) :
    M Val :=
  match baseOf P c with
  | some b => do
    let self ← M.get .nameError (← M.var? W.self)
    fun st =>
      match C b m self args kws st.io with
      | (r, self', io) => (r, ⟨put W.self self' st.locals, io⟩)
  | _ => M.throw unsupported

/-- A name: a local variable, else a class (e.g. `null`, which is neither, /repo/opendis/dis7.py:2153). -/
def global (P : Program) (x : Ident) : M Val := do
  match ← M.var? x with
  | some v => return v
  | .none =>
    match look x P with
    | some _ => return .cls x
    | .none => M.throw .nameError

/-- `f(...)` for a name: `len`, `range`, `list`, or a class (e.g. /repo/opendis/dis7.py:87, :107, :217). -/
def callName (P : Program) (W : Words) (C : Call) (f : Ident) (args : List Val) (kws : List (Ident × Val)) : M Val :=
  match Nat.beq f W.len, Nat.beq f W.range, Nat.beq f W.list, args with
  | true, _, _, [.list l] => pure (.int l.length)
  | true, _, _, [.bytes l] => pure (.int l.length)
  | true, _, _, [.str s] => pure (.int s.length)
  | true, _, _, _ => M.throw .typeError
  | _, true, _, _ => rangeOf args
  | _, _, true, [.list l] => pure (.list l)
  | _, _, true, _ => M.throw .typeError
  | _, _, _, _ => do
    match ← global P f with
    | .cls c => construct P W C c args kws
    | .own c attrs => constructOwn P W C c attrs args kws
    | _ => M.throw .typeError

/-- `isinstance(v, int)` (/repo/opendis/record/base.py:36). -/
def isInteger : Val → Bool
  | .int _ => true
  | .bool _ => true
  | _ => false

/-- `int(v)`; floats and strings are not modelled (/repo/opendis/record/radio/__init__.py:205). -/
def toInteger (v : Val) : M Val :=
  match asInt v with
  | some i => pure (.int i)
  | .none => M.throw unsupported

/-- A result or an exception (of a built-in function, e.g. in /repo/opendis/dis7.py:1223-1243). -/
def M.of (r : Except PyErr Val) : M Val := fun st => (r, st)

/-- The built-in functions on strings. Simplified: `filter` gives a list, while Python goes through it when `bytes` asks for
it; `bytes` is for lists of integers only (/repo/opendis/dis7.py:1225, :1231). -/
def primitive : Prim → Val → M Val
  | .ord, .str [c] => pure (.int c)
  | .ord, _ => M.throw .typeError
  | .bytes, .list l => match integers l with
    | some is => M.of ((toBytes is).map .bytes)
    | .none => M.throw unsupported
  | .bytes, _ => M.throw unsupported
  | .filter, .list l => pure (.list (l.filter truth))
  | .filter, _ => M.throw .typeError
  | .decode, .bytes b => M.of ((utf8Decode b).map .str)
  | .decode, _ => M.throw .attributeError

/-- The class is the other one or has it among its base classes (`issubclass` in /repo/opendis/record/__init__.py:80). -/
def isSubclass (P : Program) : Nat → Ident → Ident → Bool
  | 0, _, _ => false
  | n + 1, c, d => match Nat.beq c d with
    | true => true
    | false => match look c P with
      | some k => match k.base with
        | some b => isSubclass P n b d
        | .none => false
      | .none => false

/-- `issubclass(v, w)` (/repo/opendis/record/__init__.py:82). -/
def subclassOf (P : Program) : Val → Val → M Val
  | .cls c, .cls d => pure (.bool (isSubclass P 16 c d))
  | .own c _, .cls d => pure (.bool (isSubclass P 16 c d))
  | _, _ => M.throw .typeError

/-- The class that a table has for an integer, or the default (/repo/opendis/record/__init__.py:78-81). -/
def inTable (d : Val) : List (Int × Ident) → Int → Val
  | [], _ => d
  | (i, c) :: t, k => if i = k then .cls c else inTable d t k

/-- `t.get(k, d)` (/repo/opendis/record/__init__.py:78-81). -/
def tableGet (table : List (Int × Ident)) (k d : Val) : M Val :=
  match asInt k with
  | some i => pure (inTable d table i)
  | .none => M.throw unsupported

mutual

/-- The value of an expression (e.g. /repo/opendis/dis7.py:497). -/
def eval (P : Program) (W : Words) (T : StreamTable) (C : Call) : Expr → M Val
  | .name x => global P x
  | .int v => pure (.int v)
  | .float v => pure (.float v)
  | .none => pure .none
  | .bool b => pure (.bool b)
  | .attr e f => do getAttr P C (← eval P W T C e) f
  | .call f args kws => do
    let vs ← evalList P W T C args
    callName P W C f (byPosition vs kws) (byName vs kws)
  | .method e m args kws => do
    let v ← eval P W T C e
    let vs ← evalList P W T C args
    callMethod P W T C e v m (byPosition vs kws) (byName vs kws)
  | .super c m args kws => do
    let c ← match c with
      | some c => global P c
      | .none => M.get unsupported (← M.var? W.cls)
    let vs ← evalList P W T C args
    callSuper P W C c m (byPosition vs kws) (byName vs kws)
  | .hasattr e f => do hasAttr P (← eval P W T C e) f
  | .index e i => do item (← eval P W T C e) (← eval P W T C i)
  | .bin op l r => do binary op (← eval P W T C l) (← eval P W T C r)
  | .or l r => do
    let v ← eval P W T C l
    match truth v with
    | true => return v
    | false => eval P W T C r
  | .and l r => do
    let v ← eval P W T C l
    match truth v with
    | true => eval P W T C r
    | false => return v
  | .not e => do return .bool (!truth (← eval P W T C e))
  | .cmp op l r => do compare op (← eval P W T C l) (← eval P W T C r)
  | .ite t y n => do
    match truth (← eval P W T C t) with
    | true => eval P W T C y
    | false => eval P W T C n
  | .list es => do return .list (← evalList P W T C es)
  | .bytes b => pure (.bytes b)
  | .isInt e => do return .bool (isInteger (← eval P W T C e))
  | .toInt e => do toInteger (← eval P W T C e)
  | .toBool e => do return .bool (truth (← eval P W T C e))
  | .apply e args => do
    let v ← eval P W T C e
    callValue v (← evalList P W T C args)
  | .bitfield fs => M.get unsupported (constant (.bitfield fs))
  | .issubclass e e' => do subclassOf P (← eval P W T C e) (← eval P W T C e')
  | .lookup table k d => do tableGet table (← eval P W T C k) (← eval P W T C d)
  | .func f args kws => do
    let vs ← evalList P W T C args
    fun st =>
      match C W.module f .none (byPosition vs kws) (byName vs kws) st.io with
      | (r, _, io) => (r, { st with io })
  | .prim p e => do primitive p (← eval P W T C e)
  | .other => M.throw unsupported

/-- The values of the arguments, from left to right (e.g. /repo/opendis/dis7.py:107). -/
def evalList (P : Program) (W : Words) (T : StreamTable) (C : Call) : List Expr → M (List Val)
  | [] => pure []
  | e :: es => do
    let v ← eval P W T C e
    let vs ← evalList P W T C es
    return v :: vs

end

/-- `for x in l: body`; a `return` in the body ends it. Changes of `x` do not go back into the list: no loop of
/repo/opendis/dis7.py makes any. -/
def loop (x : Ident) (body : M (Option Val)) : List Val → M (Option Val)
  | [] => pure .none
  | v :: vs => do
    M.setVar x v
    match ← body with
    | some r => return some r
    | .none => loop x body vs

/-- The elements a `for` goes through (e.g. /repo/opendis/dis7.py:97, 107). -/
def elements : Val → M (List Val)
  | .list l => pure l
  | _ => M.throw .typeError

mutual

/-- A statement; `some v` if it has returned `v` (e.g. /repo/opendis/dis7.py:105-109). -/
def exec (P : Program) (W : Words) (T : StreamTable) (C : Call) : Stmt → M (Option Val)
  | .expr e => do let _ ← eval P W T C e; return .none
  | .assign (.index (.attr (.name x) f) i) e => do
    let v ← eval P W T C e
    let l ← eval P W T C (.attr (.name x) f)
    let i ← eval P W T C i
    match l, i with
    | .list vs, .int i =>
      if 0 ≤ i ∧ i.toNat < vs.length then do
        store P (.attr (.name x) f) (.list (vs.set i.toNat v))
        return .none
      else M.throw .indexError
    | _, _ => M.throw .typeError
  | .assign t e => do
    let v ← eval P W T C e
    store P t v
    return .none
  | .augAdd t e => do
    let a ← eval P W T C t
    let b ← eval P W T C e
    store P t (← binary .add a b)
    return .none
  | .for x e body => do
    let l ← elements (← eval P W T C e)
    loop x (execs P W T C body) l
  | .ite t y n => do
    match truth (← eval P W T C t) with
    | true => execs P W T C y
    | false => execs P W T C n
  | .ret e => do return some (← eval P W T C e)
  | .raise e => M.throw e
  | .assert e => do
    match truth (← eval P W T C e) with
    | true => return .none
    | false => M.throw .assertionError
  | .classDef x => do
    M.setVar x (.own x [])
    return .none
  | .pass => pure .none
  | .other => M.throw unsupported

/-- Statements one after the other, until one returns (e.g. /repo/opendis/dis7.py:105-112). -/
def execs (P : Program) (W : Words) (T : StreamTable) (C : Call) : List Stmt → M (Option Val)
  | [] => pure .none
  | s :: ss => do
    match ← exec P W T C s with
    | some v => return some v
    | .none => execs P W T C ss

end

/-- The parameters with their values: arguments by position, then by name, then defaults; `none` for a `TypeError`
(e.g. /repo/opendis/dis7.py:3701). -/
def bindParams : List (Ident × Option Expr) → List Val → List (Ident × Val) → List (Ident × Val) →
    Option (List (Ident × Val))
  | [], [], _, env => some env
  | [], _ :: _, _, _ => .none
  | (x, _) :: ps, v :: vs, ks, env => bindParams ps vs ks (put x v env)
  | (x, d) :: ps, [], ks, env =>
    match look x ks, d with
    | some v, _ => bindParams ps [] ks (put x v env)
    | .none, some e =>
      match constant e with
      | some v => bindParams ps [] ks (put x v env)
      | .none => .none
    | .none, .none => .none

/-- The methods of a program, called at most so deep in one another; deeper is a `RecursionError`, here `unsupported`
(of /repo/opendis/dis7.py:49-7537 and /repo/opendis/record). -/
def methods (P : Program) (W : Words) (T : StreamTable) : Nat → Call
  | 0, _, _, v, _, _, io => (.error unsupported, v, io)
  | n + 1, c, m, v, args, kws, io =>
    match method P c m with
    | .none => (.error .attributeError, v, io)
    | some (d, f) =>
      match bindParams f.params args kws (put W.self v (put W.cls (.cls d) [])) with
      | .none => (.error .typeError, v, io)
      | some env =>
        match execs P W T (methods P W T n) f.body ⟨env, io⟩ with
        | (.ok r, st) => (.ok (r.getD .none), (look W.self st.locals).getD v, st.io)
        | (.error e, st) => (.error e, (look W.self st.locals).getD v, st.io)

end Dis.Src
