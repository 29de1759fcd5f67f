import Verif.Py.Object

/-!
# Parse methods as programs that change an object

`R` returns the parsed object as a value and forgets what a parse that raised has done to the object.
Here a parse method is a program that changes `self` statement by statement, so the half-filled object
an exception leaves behind is visible.
-/

namespace Dis

/-- A parse method at work on an object: started with the object and the stream it ends with a result or
an exception, and in either case with the object and the stream as they are then
(methods `parse(self, inputStream)` of /repo/opendis/dis7.py and /repo/opendis/record). -/
def P (σ α : Type) := σ → InStream → Except PyErr α × σ × InStream

/-- An attribute: how it is read and how it is assigned (`self.f` and `self.f = v` in
/repo/opendis/dis7.py). -/
structure Attr (σ τ : Type) where
  get : σ → τ
  put : σ → τ → σ

namespace P

/-- Statement sequencing: an exception ends the method and leaves the object as it is
(semantics of the language used throughout /repo/opendis/dis7.py). -/
def bind {σ α β : Type} (p : P σ α) (k : α → P σ β) : P σ β := fun o s =>
  match p o s with
  | (.error e, o', s') => (.error e, o', s')
  | (.ok a, o', s') => k a o' s'

/-- `do` notation for statement sequences of parse methods (as used throughout
/repo/opendis/dis7.py). -/
instance {σ : Type} : Monad (P σ) where
  pure a := fun o s => (.ok a, o, s)
  bind := bind

/-- An expression that reads from the stream and does not touch the object, e.g.
`inputStream.read_unsigned_byte()` at /repo/opendis/dis7.py:3472. -/
def read {σ α : Type} (r : R α) : P σ α := fun o s =>
  match r s with
  | (x, s') => (x, o, s')

/-- An expression that looks at `self`, e.g. `self.modulationType.radioSystem` at
/repo/opendis/dis7.py:5077. -/
def get {σ α : Type} (f : σ → α) : P σ α := fun o s => (.ok (f o), o, s)

/-- An assignment to attributes of `self`, e.g. /repo/opendis/dis7.py:3472. -/
def set {σ : Type} (f : σ → σ) : P σ Unit := fun o s => (.ok (), f o, s)

/-- `self.f.parse(inputStream)`: the object in the attribute is changed in place, also when its parse
raises (e.g. /repo/opendis/dis7.py:5159); `super().parse(inputStream)` likewise, with the inherited
attributes (e.g. /repo/opendis/dis7.py:5158). -/
def call {σ τ : Type} (a : Attr σ τ) (p : P τ Unit) : P σ Unit := fun o s =>
  match p (a.get o) s with
  | (x, t, s') => (x, a.put o t, s')

/-- `element = T(); element.parse(inputStream)`, e.g. /repo/opendis/dis7.py:5167-5168: the new object is
local, so it is lost when its parse raises. -/
def element {σ τ : Type} (fresh : τ) (p : P τ Unit) : P σ τ := fun o s =>
  match p fresh s with
  | (.error e, _, s') => (.error e, o, s')
  | (.ok _, t, s') => (.ok t, o, s')

/-- `for idx in range(0, n): element = T(); element.parse(inputStream); self.l.append(element)`,
e.g. /repo/opendis/dis7.py:5166-5169: what has been appended stays when a later element raises. -/
def appendObjs {σ τ : Type} (n : Nat) (fresh : τ) (p : P τ Unit) (a : Attr σ (List τ)) : P σ Unit :=
  match n with
  | 0 => pure ()
  | n + 1 => do
    let t ← element fresh p
    set fun o => a.put o (a.get o ++ [t])
    appendObjs n fresh p a

/-- `for idx in range(0, n): self.l.append(inputStream.read_x())`, e.g. /repo/opendis/dis7.py:107-109. -/
def appendReads {σ τ : Type} (n : Nat) (r : R τ) (a : Attr σ (List τ)) : P σ Unit :=
  match n with
  | 0 => pure ()
  | n + 1 => do
    let t ← read r
    set fun o => a.put o (a.get o ++ [t])
    appendReads n r a

/-- `for idx in range(i, i + n): val = inputStream.read_x(); self.l[idx] = val`, e.g.
/repo/opendis/dis7.py:369-372; the index is within the list in all uses. -/
def setReads {σ : Type} (i n : Nat) (r : R Int) (a : Attr σ (List Int)) : P σ Unit :=
  match n with
  | 0 => pure ()
  | n + 1 => do
    let v ← read r
    set fun o => a.put o ((a.get o).set i v)
    setReads (i + 1) n r a

/-- `self.l = [0] * n` and then `for idx in range(0, n): self.l[idx] = inputStream.read_x()`, e.g.
/repo/opendis/dis7.py:368-372. -/
def fillReads {σ : Type} (n : Nat) (r : R Int) (a : Attr σ (List Int)) : P σ Unit := do
  set fun o => a.put o (List.replicate n 0)
  setReads 0 n r a

end P

end Dis
