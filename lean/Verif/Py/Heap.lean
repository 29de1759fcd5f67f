import Verif.Py.InPlace
import Verif.Py.Arith

/-!
# Objects in memory

In the other modules an object is a value: nothing is said about two attributes that hold the same
object. Here objects and lists are cells of a memory and attributes hold references, so that two PDUs
may share a nested object or a list, and changing it through one of them shows in the other.
-/

namespace Dis

/-- Where an object or a list is (identity of objects, `id(x)`; the objects of /repo/opendis/dis7.py). -/
abbrev Ref := Nat

/-- Values without attributes or elements to change. `absent` marks an attribute that has not been
assigned (e.g. `self.padding` before `parse`, /repo/opendis/dis7.py:3200), `cls` is a class. -/
inductive Scalar where
  | absent
  | none
  | int (v : Int)
  | float (v : F64)
  | bool (v : Bool)
  | bytes (v : Bytes)
  | cls (name : String)
  deriving DecidableEq

/-- What an attribute or a list element holds (attributes of /repo/opendis/dis7.py). -/
inductive Val where
  | sc (v : Scalar)
  | ref (r : Ref)
  deriving DecidableEq

/-- An object with its attributes, or a list with its elements (e.g. /repo/opendis/dis7.py:3775-3788).
Simplified: the class of an object is recorded only where it is needed to find a method, as the attribute
`__class__` of standard variable records, modulation parameters and antenna patterns
(/repo/opendis/dis7.py:6379, :5042, :5046); an object has the attributes of its class from the
start, with the class attributes (e.g. /repo/opendis/dis7.py:3766) in the place of those not assigned. -/
inductive Cell where
  | obj (attrs : List (String × Val))
  | list (items : List Val)
  deriving DecidableEq

/-- The memory; a reference is an index, new cells come last. Cells are never reused: Python frees a cell
only when nothing refers to it (objects of /repo/opendis/dis7.py). -/
abbrev Heap := List Cell

/-- A method at work on the memory and on a stream (methods `parse` and `__init__` of
/repo/opendis/dis7.py and /repo/opendis/record). -/
def H (α : Type) := Heap → InStream → Except PyErr α × Heap × InStream

/-- The value of an attribute (`self.f`, e.g. /repo/opendis/dis7.py:3796). -/
def attrOf {α : Type} (n : String) : List (String × α) → Option α
  | [] => .none
  | (m, v) :: l => if m = n then some v else attrOf n l

/-- The attributes after an assignment (`self.f = v`, e.g. /repo/opendis/dis7.py:3778). -/
def putAttr {α : Type} (n : String) (v : α) : List (String × α) → List (String × α)
  | [] => [(n, v)]
  | (m, w) :: l => if m = n then (m, v) :: l else (m, w) :: putAttr n v l

namespace H

/-- Statement sequencing; an exception ends the method and leaves the memory as it is (semantics of the
language used throughout /repo/opendis/dis7.py). -/
def bind {α β : Type} (p : H α) (k : α → H β) : H β := fun h s =>
  match p h s with
  | (.error e, h', s') => (.error e, h', s')
  | (.ok a, h', s') => k a h' s'

/-- `do` notation for the statements of methods (as used throughout /repo/opendis/dis7.py). -/
instance : Monad H where
  pure a := fun h s => (.ok a, h, s)
  bind := bind

/-- `raise`, or an operation that raises (e.g. /repo/opendis/dis7.py:3445). -/
def throw {α : Type} (e : PyErr) : H α := fun h s => (.error e, h, s)

/-- An expression that only reads from the stream, e.g. `inputStream.read_unsigned_byte()` at
/repo/opendis/dis7.py:3472. -/
def read {α : Type} (r : R α) : H α := fun h s =>
  match r s with
  | (x, s') => (x, h, s')

/-- A new object or list, e.g. `EntityIdentifier()` and `[]` at /repo/opendis/dis7.py:3776, :3787. -/
def alloc (c : Cell) : H Ref := fun h s => (.ok h.length, h ++ [c], s)

/-- `self.f`, e.g. /repo/opendis/dis7.py:3796; `AttributeError` when there is no such attribute. -/
def attr (self : Ref) (n : String) : H Val := fun h s =>
  match h[self]? with
  | some (.obj d) =>
    match attrOf n d with
    | some v => (.ok v, h, s)
    | .none => (.error .attributeError, h, s)
  | _ => (.error .attributeError, h, s)

/-- The object in an attribute, of which a method is called (`self.f.parse(inputStream)`, e.g.
/repo/opendis/dis7.py:4872); `AttributeError` when it holds a number or `None`. -/
def objAttr (self : Ref) (n : String) : H Ref := do
  match ← attr self n with
  | .ref r => return r
  | .sc _ => throw .attributeError

/-- A number in an attribute, as an operand of `==` (`x.f == 1`, /repo/opendis/dis7.py:5077). Simplified:
`TypeError` for other values, which Python finds unequal to every number. -/
def intAttr (self : Ref) (n : String) : H Int := do
  match ← attr self n with
  | .sc (.int v) => return v
  | _ => throw .typeError

/-- `self.f = v`, e.g. /repo/opendis/dis7.py:4873. -/
def setAttr (self : Ref) (n : String) (v : Val) : H Unit := fun h s =>
  match h[self]? with
  | some (.obj d) => (.ok (), h.set self (.obj (putAttr n v d)), s)
  | _ => (.error .attributeError, h, s)

/-- `l.append(v)`, e.g. /repo/opendis/dis7.py:5169. -/
def append (l : Ref) (v : Val) : H Unit := fun h s =>
  match h[l]? with
  | some (.list vs) => (.ok (), h.set l (.list (vs ++ [v])), s)
  | _ => (.error .attributeError, h, s)

/-- `l[i] = v`, e.g. /repo/opendis/dis7.py:372; `IndexError` outside the list. -/
def setItem (l : Ref) (i : Nat) (v : Val) : H Unit := fun h s =>
  match h[l]? with
  | some (.list vs) =>
    if i < vs.length then (.ok (), h.set l (.list (vs.set i v)), s) else (.error .indexError, h, s)
  | _ => (.error .typeError, h, s)

/-- Truth of a value: `None`, zero, `False`, `b''` and the empty list are false; objects are true, as no
class of /repo/opendis defines `__bool__` or `__len__` (`x or T()`, e.g. /repo/opendis/dis7.py:3776). -/
def truth (v : Val) : H Bool := fun h s =>
  match v with
  | .sc .absent | .sc .none => (.ok false, h, s)
  | .sc (.int v) => (.ok (v ≠ 0), h, s)
  | .sc (.float v) => (.ok (!(v = 0 ∨ v = 0x8000000000000000)), h, s)
  | .sc (.bool b) => (.ok b, h, s)
  | .sc (.bytes b) => (.ok (!b.isEmpty), h, s)
  | .sc (.cls _) => (.ok true, h, s)
  | .ref r =>
    match h[r]? with
    | some (.list vs) => (.ok (!vs.isEmpty), h, s)
    | _ => (.ok true, h, s)

/-- `x or e`, e.g. /repo/opendis/dis7.py:3776: the very object `x` if it is true, else what `e` makes. -/
def orNew (v : Val) (m : H Ref) : H Val := do
  if ← truth v then return v else return .ref (← m)

/-- `list(x) if x else []`, /repo/opendis/dis7.py:4992-4996: a new list in either case, with the elements of
`x`; `TypeError` if `x` is true and not a list. -/
def listOrNew (v : Val) : H Ref := do
  if ← truth v then
    fun h s =>
      match v with
      | .ref r =>
        match h[r]? with
        | some (.list vs) => alloc (.list vs) h s
        | _ => (.error .typeError, h, s)
      | .sc _ => (.error .typeError, h, s)
  else alloc (.list [])

/-- `self.f.m()`, a method of the object in an attribute, e.g. /repo/opendis/dis7.py:4872. -/
def call (self : Ref) (n : String) (m : Ref → H Unit) : H Unit := do
  m (← objAttr self n)

/-- `self.f = e`, where `e` makes an object or a list, e.g. /repo/opendis/dis7.py:4496. -/
def setNew (self : Ref) (n : String) (m : H Ref) : H Unit := do
  setAttr self n (.ref (← m))

/-- `self.f = x or e`, e.g. /repo/opendis/dis7.py:3776. -/
def setOr (self : Ref) (n : String) (v : Val) (m : H Ref) : H Unit := do
  setAttr self n (← orNew v m)

/-- `hasattr(self, 'f')`, /repo/opendis/dis7.py:3444. -/
def hasAttr (self : Ref) (n : String) : H Bool := fun h s =>
  match h[self]? with
  | some (.obj d) => (.ok (match attrOf n d with | some (.sc .absent) | .none => false | _ => true), h, s)
  | _ => (.ok false, h, s)

/-- `for idx in range(0, n): element = T(); element.parse(inputStream); self.l.append(element)`, e.g.
/repo/opendis/dis7.py:5166-5169. -/
def appendObjs (n : Nat) (new : H Ref) (parse : Ref → H Unit) (self : Ref) (f : String) : H Unit :=
  match n with
  | 0 => pure ()
  | n + 1 => do
    let element ← new
    parse element
    let l ← objAttr self f
    append l (.ref element)
    appendObjs n new parse self f

/-- `for idx in range(0, n): self.l.append(inputStream.read_x())`, e.g. /repo/opendis/dis7.py:107-109;
`v` is the value as it is stored. -/
def appendReads {α : Type} (n : Nat) (r : R α) (v : α → Scalar) (self : Ref) (f : String) : H Unit :=
  match n with
  | 0 => pure ()
  | n + 1 => do
    let x ← read r
    let l ← objAttr self f
    append l (.sc (v x))
    appendReads n r v self f

/-- `for idx in range(i, i + n): self.l[idx] = inputStream.read_x()`, e.g.
/repo/opendis/dis7.py:369-372. -/
def setReads (i n : Nat) (r : R Int) (self : Ref) (f : String) : H Unit :=
  match n with
  | 0 => pure ()
  | n + 1 => do
    let x ← read r
    let l ← objAttr self f
    setItem l i (.sc (.int x))
    setReads (i + 1) n r self f

/-- `[0] * n`, e.g. /repo/opendis/dis7.py:368. -/
def zeros (n : Nat) : H Ref := alloc (.list (List.replicate n (.sc (.int 0))))

/-- `self.l = [0] * n` and then `for idx in range(0, n): self.l[idx] = inputStream.read_x()`, e.g.
/repo/opendis/dis7.py:368-372. -/
def fillReads (n : Nat) (r : R Int) (self : Ref) (f : String) : H Unit := do
  let l ← zeros n
  setAttr self f (.ref l)
  setReads 0 n r self f

/-- `T(...)`: a new object, of which `__init__` is called (e.g. /repo/opendis/dis7.py:5167). `attrs` are the
attributes with their values before `__init__`: class attributes, and marks for those without a value. -/
def new (attrs : List (String × Scalar)) (init : Ref → H Unit) : H Ref := do
  let self ← alloc (.obj (attrs.map fun a => (a.1, .sc a.2)))
  init self
  return self

/-- `x = T(); x.parse(inputStream, bytelength); return x`, /repo/opendis/dis7.py:66-68. -/
def load (new : H Ref) (parse : Ref → H Unit) : H Ref := do
  let x ← new
  parse x
  return x

/-- `for _ in range(0, n): record = e; self.l.append(record)`, where `e` makes and parses an object, e.g.
/repo/opendis/dis7.py:6398-6403. -/
def appendLoads (n : Nat) (m : H Ref) (self : Ref) (f : String) : H Unit :=
  match n with
  | 0 => pure ()
  | n + 1 => do
    let record ← m
    let l ← objAttr self f
    append l (.ref record)
    appendLoads n m self f

end H

/-- A method `serialize` at work: it looks at the memory, does not change it, and writes (e.g.
/repo/opendis/dis7.py:4851-4867). -/
def S (α : Type) := Heap → W α

namespace S

/-- Statement sequencing (semantics of the language used throughout /repo/opendis/dis7.py). -/
def bind {α β : Type} (p : S α) (k : α → S β) : S β := fun h => p h >>= fun a => k a h

/-- `do` notation for the statements of methods (as used throughout /repo/opendis/dis7.py). -/
instance : Monad S where
  pure a := fun _ => pure a
  bind := bind

/-- A write, e.g. /repo/opendis/dis7.py:4855. -/
def write (w : W Unit) : S Unit := fun _ => w

/-- `raise`, or an operation that raises (e.g. `None.serialize`, /repo/opendis/dis7.py:4866-4867). -/
def throw {α : Type} (e : PyErr) : S α := fun _ => W.throw e

/-- `self.f`, e.g. /repo/opendis/dis7.py:4855; `AttributeError` when there is no such attribute. -/
def attr (self : Ref) (n : String) : S Val := fun h =>
  match h[self]? with
  | some (.obj d) =>
    match attrOf n d with
    | some (.sc .absent) => W.throw .attributeError
    | some v => pure v
    | .none => W.throw .attributeError
  | _ => W.throw .attributeError

/-- A value as an argument of `struct.pack` with an integer format (/repo/opendis/stream.py:108-184):
`struct.error` unless it is an integer. -/
def asInt : Val → S Int
  | .sc (.int v) => pure v
  | .sc (.bool b) => pure b.toInt
  | _ => throw .structError

/-- A conversion that may fail (`float`, as `struct.pack` applies it, /repo/opendis/stream.py:122-134). -/
def need {α : Type} (e : PyErr) : Option α → S α
  | some x => pure x
  | .none => throw e

/-- An integer as an argument of `struct.pack` with a float format (/repo/opendis/stream.py:122-134). -/
def intAsFloat (v : Int) : S F64 := need .structError (F64.ofInt v)

/-- A value as an argument of `struct.pack` with a float format (/repo/opendis/stream.py:122-134), which
applies `float` to it: integers and truth values become the nearest double, and anything else, or an
integer too large for that, is a `struct.error`. -/
def asFloat : Val → S F64
  | .sc (.float v) => pure v
  | .sc (.int v) => intAsFloat v
  | .sc (.bool b) => intAsFloat b.toInt
  | _ => throw .structError

/-- The object of which `serialize` is called (e.g. /repo/opendis/dis7.py:4854); `AttributeError` for
numbers and `None`. -/
def asObj : Val → S Ref
  | .ref r => pure r
  | .sc _ => throw .attributeError

/-- The elements of a list (`for x in l`, `len(l)`, e.g. /repo/opendis/dis7.py:4866, :4849); `TypeError` for
anything else. -/
def items : Val → S (List Val)
  | .ref r => fun h =>
    match h[r]? with
    | some (.list vs) => pure vs
    | _ => W.throw .typeError
  | .sc _ => throw .typeError

/-- `self.f` as an argument of a write, e.g. /repo/opendis/dis7.py:4855. -/
def int (self : Ref) (n : String) : S Int := do asInt (← attr self n)

/-- `self.f` as an argument of a write of a float, e.g. /repo/opendis/record/common.py:161. -/
def float (self : Ref) (n : String) : S F64 := do asFloat (← attr self n)

/-- The object in `self.f`, e.g. /repo/opendis/dis7.py:4854. -/
def obj (self : Ref) (n : String) : S Ref := do asObj (← attr self n)

/-- The elements of the list in `self.f`, e.g. /repo/opendis/dis7.py:4866. -/
def list (self : Ref) (n : String) : S (List Val) := do items (← attr self n)

/-- `for x in l: body(x)`, e.g. /repo/opendis/dis7.py:4866-4867. -/
def forEach (l : List Val) (body : Val → S Unit) : S Unit :=
  match l with
  | [] => pure ()
  | x :: xs => do body x; forEach xs body

/-- `for idx in range(i, i + n): body(idx)`, e.g. /repo/opendis/dis7.py:1236-1237. -/
def forRange (i n : Nat) (body : Nat → S Unit) : S Unit :=
  match n with
  | 0 => pure ()
  | n + 1 => do body i; forRange (i + 1) n body

/-- `self.f[i]` as an argument of a write, e.g. /repo/opendis/dis7.py:1237; `IndexError` outside the
list. -/
def item (self : Ref) (n : String) (i : Nat) : S Int := do
  match (← list self n)[i]? with
  | some v => asInt v
  | none => throw .indexError

/-- `outputStream.write_x(self.f)`, e.g. /repo/opendis/dis7.py:4855. -/
def putInt (self : Ref) (n : String) (w : Int → W Unit) : S Unit := do write (w (← int self n))

/-- `outputStream.write_float(self.f)`, e.g. /repo/opendis/record/common.py:161. -/
def putFloat (self : Ref) (n : String) (w : F64 → W Unit) : S Unit := do write (w (← float self n))

/-- `outputStream.write_x(len(self.l))`, e.g. /repo/opendis/dis7.py:4860. -/
def putLen (self : Ref) (n : String) (w : Int → W Unit) : S Unit := do write (w ((← list self n).length : Int))

/-- `outputStream.write_x(self.l[i])`, e.g. /repo/opendis/dis7.py:1237. -/
def putItem (self : Ref) (n : String) (i : Nat) (w : Int → W Unit) : S Unit := do write (w (← item self n i))

/-- `self.f.serialize(outputStream)`, e.g. /repo/opendis/dis7.py:4854. -/
def call (self : Ref) (n : String) (m : Ref → S Unit) : S Unit := do m (← obj self n)

/-- `for x in self.l: x.serialize(outputStream)`, e.g. /repo/opendis/dis7.py:4866-4867. -/
def each (self : Ref) (n : String) (m : Ref → S Unit) : S Unit := do
  forEach (← list self n) fun v => do m (← asObj v)

/-- `for x in self.l: outputStream.write_x(x)`, e.g. /repo/opendis/dis7.py:97-98. -/
def eachInt (self : Ref) (n : String) (w : Int → W Unit) : S Unit := do
  forEach (← list self n) fun v => do write (w (← asInt v))

/-- `self.f` as an argument of `write_bytes`, /repo/opendis/record/__init__.py:62; `TypeError` unless it is a
`bytes` object. -/
def bytes (self : Ref) (n : String) : S Bytes := do
  match ← attr self n with
  | .sc (.bytes b) => pure b
  | _ => throw .typeError

/-- `outputStream.write_bytes(self.f)`, /repo/opendis/record/__init__.py:62. -/
def putBytes (self : Ref) (n : String) (w : Bytes → W Unit) : S Unit := do write (w (← bytes self n))

/-- A value as an argument of a bitfield, a `ctypes` integer (/repo/opendis/record/bitfield.py:99-100): `TypeError`
unless it is an integer. -/
def asField : Val → S Int
  | .sc (.int v) => pure v
  | .sc (.bool b) => pure b.toInt
  | _ => throw .typeError

/-- The arguments `self.f, self.g, ...` of a bitfield, e.g. /repo/opendis/record/radio/__init__.py:298-303. -/
def ints (self : Ref) : List String → S (List Int)
  | [] => pure []
  | n :: ns => do
    let v ← asField (← attr self n)
    let vs ← ints self ns
    return v :: vs

/-- `self._struct(self.f, self.g, ...).serialize(outputStream)`, e.g.
/repo/opendis/record/radio/__init__.py:298-303. -/
def putInts (self : Ref) (ns : List String) (w : List Int → W Unit) : S Unit := do write (w (← ints self ns))

/-- `for record in l: size += record.marshalledSize()`, e.g. /repo/opendis/record/warfare/__init__.py:133-134. -/
def sizes (size : Int) (l : List Val) (m : Ref → S Int) : S Int :=
  match l with
  | [] => pure size
  | x :: xs => do
    let n ← m (← asObj x)
    sizes (size + n) xs m

/-- `outputStream.write_x(self.marshalledSize())`, e.g. /repo/opendis/record/base.py:88. -/
def putSize (self : Ref) (m : Ref → S Int) (w : Int → W Unit) : S Unit := do write (w (← m self))

/-- The method of a class, from those of all classes that have it (`record.serialize`,
/repo/opendis/dis7.py:6379). -/
def dispatch {α : Type} (c : Val) (methods : List (String × S α)) : S α :=
  match c with
  | .sc (.cls n) =>
    match attrOf n methods with
    | some m => m
    | none => throw .attributeError
  | _ => throw .attributeError

/-- Truth of a value (`if self.f:`, /repo/opendis/dis7.py:5041). -/
def truth (v : Val) : S Bool := fun h =>
  match (H.truth v h ⟨[], 0⟩).1 with
  | .ok b => pure b
  | .error e => W.throw e

/-- `if self.f: self.f.serialize(outputStream)`, /repo/opendis/dis7.py:5041-5046. -/
def whenTrue (self : Ref) (n : String) (m : Ref → S Unit) : S Unit := do
  let v ← attr self n
  if ← truth v then m (← asObj v) else pure ()

/-- `self.f.marshalledSize() if self.f else 0`, /repo/opendis/dis7.py:4998-5010. -/
def sizeOrZero (self : Ref) (n : String) (m : Ref → S Int) : S Int := do
  let v ← attr self n
  if ← truth v then m (← asObj v) else return 0

end S

end Dis
