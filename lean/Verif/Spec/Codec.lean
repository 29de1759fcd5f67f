import Verif.Spec.Layout

/-!
# What there is to say about a wire class

A `Codec` collects a class's constructor, `serialize` and `parse` together with its specification.
-/

namespace Dis

/-- A count field: `width` bytes, `offset` bytes from the start of the message, announcing
`scale * len o`, at most `max` (e.g. /repo/opendis/dis7.py:4848 and :4860). -/
structure CountField (Obj : Type) where
  offset : Nat
  width : Nat
  max : Nat
  scale : Nat
  len : Obj → Nat

/-- A wire class with its specification (classes of /repo/opendis/dis7.py:71-7505 and
/repo/opendis/record). -/
structure Codec where
  /-- name of the Python class -/
  name : String
  /-- its objects -/
  Obj : Type
  /-- the object made by the constructor without arguments -/
  fresh : Obj
  /-- the method `serialize` -/
  serialize : Obj → W Unit
  /-- the method `parse`: the object it is called on, and the updated object as result -/
  parse : Obj → R Obj
  /-- the slots of the message -/
  wire : Obj → List Slot
  /-- every field fits its slot -/
  Fits : Obj → Prop
  /-- the object is one a fresh object can become by parsing: singles exact, off-wire attributes at
  their defaults -/
  Canon : Obj → Prop
  /-- no single-precision field is a NaN -/
  NoNaN : Obj → Prop
  /-- size of the message in bytes -/
  size : Obj → Nat
  /-- `after s o`: the object `s` after it parsed the message of `o` -/
  after : Obj → Obj → Obj
  /-- the lists that `parse` cannot read back are empty -/
  Decodable : Obj → Prop := fun _ => True
  /-- the fields that `serialize` does not reproduce have the reproduced value -/
  Live : Obj → Prop := fun _ => True
  /-- `serialize` writes back every bit `parse` reads -/
  lossless : Bool := true
  /-- `parse` raises nothing but `struct.error` -/
  onlyStruct : Bool := true
  /-- the count fields -/
  counts : List (CountField Obj) := []

end Dis
