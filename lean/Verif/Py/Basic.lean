/-!
# Python runtime: exceptions, output effects, input effects

The part of the Python runtime that `/repo/opendis` relies on: exceptions, an append-only output
stream (`io.BytesIO` behind `DataOutputStream.stream`) and a seekable input stream (`io.BytesIO`
behind `DataInputStream.stream`).
-/

namespace Dis

/-- A Python `bytes` value. Models the `bytes` passed to and from the streams,
/repo/opendis/stream.py:27-184. -/
abbrev Bytes := List UInt8

/-- Python exception classes that `/repo/opendis` code can end with; the message is dropped
(raise sites e.g. /repo/opendis/record/base.py:91-106, /repo/opendis/record/__init__.py:40-85,
/repo/opendis/dis7.py:49-68; implicit ones raised by `struct`, attribute and name lookup). -/
inductive PyErr where
  | structError | overflowError | attributeError | nameError | typeError | valueError
  | indexError | assertionError | unicodeDecodeError | zeroDivisionError | exception
  deriving DecidableEq, Repr

/-- Equality of outcomes is decidable (used to evaluate examples; outcomes of the methods of
/repo/opendis/stream.py:27-184). -/
instance {ε α : Type} [DecidableEq ε] [DecidableEq α] : DecidableEq (Except ε α)
  | .ok a, .ok b => if h : a = b then isTrue (h ▸ rfl) else isFalse fun e => h (Except.ok.inj e)
  | .error a, .error b =>
    if h : a = b then isTrue (h ▸ rfl) else isFalse fun e => h (Except.error.inj e)
  | .ok _, .error _ => isFalse nofun
  | .error _, .ok _ => isFalse nofun

/-- What running a writing method did: the bytes appended to `outputStream.stream`
(kept also when the method raises) and how the method ended.
Models the effect of `serialize(self, outputStream)` in /repo/opendis/dis7.py on
/repo/opendis/stream.py:107-184. -/
structure W (α : Type) where
  out : Bytes
  res : Except PyErr α
  deriving DecidableEq, Repr

namespace W

/-- Statement sequencing in Python: run `w`, stop if it raised, else continue
(/repo/opendis/stream.py:138-140 is the smallest instance). -/
def bind {α β : Type} (w : W α) (k : α → W β) : W β :=
  match w.res with
  | .error e => ⟨w.out, .error e⟩
  | .ok a => ⟨w.out ++ (k a).out, (k a).res⟩

/-- `do` notation for statement sequences of Python methods (semantics of the language used
throughout /repo/opendis/dis7.py). -/
instance : Monad W where
  pure a := ⟨[], .ok a⟩
  bind := bind

/-- `raise e` (e.g. /repo/opendis/record/base.py:97). -/
def throw {α : Type} (e : PyErr) : W α := ⟨[], .error e⟩

/-- `self.stream.write(b)`, as used in /repo/opendis/stream.py:111-184. -/
def emit (b : Bytes) : W Unit := ⟨b, .ok ()⟩

/-- Using the value of an expression that may raise (attribute access, `struct.pack`),
e.g. /repo/opendis/stream.py:112. -/
def ofExcept {α : Type} (x : Except PyErr α) : W α := ⟨[], x⟩

end W

/-- State of the input stream: contents and read position of the `io.BytesIO` created in
/repo/opendis/PduFactory.py:89-90. -/
structure InStream where
  data : Bytes
  pos : Nat
  deriving DecidableEq, Repr

/-- A reading method: a function of the input stream that ends with a result or an exception and
leaves the stream at a new position. Models `parse(self, inputStream)` in /repo/opendis/dis7.py and
the methods of /repo/opendis/stream.py:27-104. -/
def R (α : Type) := InStream → Except PyErr α × InStream

namespace R

/-- Statement sequencing for reading methods (/repo/opendis/stream.py:58-60 is the smallest
instance). -/
def bind {α β : Type} (r : R α) (k : α → R β) : R β := fun s =>
  match r s with
  | (.error e, s') => (.error e, s')
  | (.ok a, s') => k a s'

/-- `do` notation for statement sequences of Python methods (as used throughout
/repo/opendis/dis7.py). -/
instance : Monad R where
  pure a := fun s => (.ok a, s)
  bind := bind

/-- `raise e` in a reading method (e.g. /repo/opendis/record/base.py:97). -/
def throw {α : Type} (e : PyErr) : R α := fun s => (.error e, s)

/-- Using the value of an expression that may raise, e.g. /repo/opendis/stream.py:32. -/
def ofExcept {α : Type} (x : Except PyErr α) : R α := fun s => (x, s)

end R

/-- `BytesIO.read(n)`: at most `n` bytes from the position, fewer at the end of the data, none
beyond it; a negative `n` reads everything that is left. Used by /repo/opendis/stream.py:31-70. -/
def R.readRaw (n : Int) : R Bytes := fun s =>
  let rest := s.data.drop s.pos
  let got := if n < 0 then rest else rest.take n.toNat
  (.ok got, { s with pos := s.pos + got.length })

/-- `BytesIO.seek(n, 0)`, used in /repo/opendis/PduFactory.py:68 and :70. -/
def R.seek (n : Nat) : R Unit := fun s => (.ok (), { s with pos := n })

/-- `for x in l: body(x)` around writes, e.g. /repo/opendis/dis7.py:7480 (`anObj.serialize`). -/
def W.forEach {α : Type} (l : List α) (body : α → W Unit) : W Unit :=
  match l with
  | [] => pure ()
  | x :: xs => do body x; W.forEach xs body

/-- `for idx in range(0, n): body(idx)` around writes, counting from `i`
(e.g. the indexed loops of `VariableParameter.serialize` in /repo/opendis/dis7.py). -/
def W.forRange (i : Nat) (n : Nat) (body : Nat → W Unit) : W Unit :=
  match n with
  | 0 => pure ()
  | n + 1 => do body i; W.forRange (i + 1) n body

/-- `n` repetitions of a read whose results are collected in order: models both
`for idx in range(0, n): element = T(); element.parse(s); l.append(element)` and
`l = [0]*n; for idx in range(0, n): l[idx] = read()` of /repo/opendis/dis7.py.
The list is returned only if all reads succeed. -/
def R.times {α : Type} (n : Nat) (r : R α) : R (List α) :=
  match n with
  | 0 => pure []
  | n + 1 => do
    let x ← r
    let xs ← R.times n r
    return x :: xs

/-- `l[idx]` for a non-negative index: `IndexError` beyond the end
(e.g. `self.recordSpecificFields[idx]`, `self.variableData[x]` in /repo/opendis/dis7.py). -/
def index {α : Type} (l : List α) (i : Nat) : Except PyErr α :=
  match l[i]? with
  | some x => .ok x
  | none => .error .indexError

/-- Attribute access `self.f` where the constructor may not have created `f`
(e.g. `parameterValue` of `AttachedParts` in /repo/opendis/dis7.py). -/
def attr {α : Type} (o : Option α) : Except PyErr α :=
  match o with
  | some x => .ok x
  | none => .error .attributeError

end Dis
