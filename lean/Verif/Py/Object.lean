import Verif.Stream

/-! # Python objects: attributes that may be absent or hold something else than a number -/

namespace Dis

/-- `f(x)` where evaluating the argument `x` may raise: attribute access or subscript inside a
write call, e.g. `outputStream.write_byte(self.characters[idx])`, /repo/opendis/dis7.py:1236-1237. -/
def W.using {α : Type} (x : Except PyErr α) (k : α → W Unit) : W Unit :=
  match x with
  | .ok v => k v
  | .error e => W.throw e

/-- An attribute that holds an object after construction and an integer after parsing
(`SeparationVP.stationLocation`, /repo/opendis/dis7.py:3600 and :3621). -/
inductive IntOr (α : Type) where
  | int (v : Int)
  | obj (o : α)
  deriving DecidableEq

/-- Passing such an attribute to `struct.pack`: `struct.error` unless it is an integer
(/repo/opendis/dis7.py:3611 through /repo/opendis/stream.py:146). -/
def IntOr.asInt {α : Type} : IntOr α → Except PyErr Int
  | .int v => .ok v
  | .obj _ => .error .structError

/-- Passing an attribute that may be `None` to `struct.pack`: `struct.error` for `None`
(/repo/opendis/dis7.py:3200 through /repo/opendis/stream.py:118). -/
def needInt : Option Int → Except PyErr Int
  | some v => .ok v
  | none => .error .structError

end Dis
