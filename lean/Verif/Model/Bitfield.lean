import Verif.Py.Object

/-!
# `opendis/record/bitfield.py`

`bitfield(name, fields)` builds a `ctypes.BigEndianStructure` class. The model represents the class
by the list of its field widths and an instance by the list of its field values. What `ctypes` does
with such a structure (all fields share one unsigned base type that they fill exactly, the first
field in the most significant bits, stored values truncated to the field width, arguments that are
not given are zero) is part of the trusted reading of the library, see DESIGN.md.
-/

namespace Dis

/-- One entry `(name, ftype, bits)` of the argument `fields`, /repo/opendis/record/bitfield.py:24 and
:67; the name is dropped, `isInteger` says whether `ftype == INTEGER`, `bits` is `none` when it is
not an `int`. -/
structure FieldDescription where
  isInteger : Bool := true
  bits : Option Int
  deriving DecidableEq, Repr

/-- The first pass of `bitfield`, /repo/opendis/record/bitfield.py:66-74: validates every field and
adds up the sizes; `acc` is the running total `bitsize`. -/
def bitfieldFirstPass (acc : Nat) : List FieldDescription → Except PyErr Nat
  | [] => .ok acc
  | f :: fs =>
    if f.isInteger = false then .error .valueError
    else match f.bits with
      | none => .error .valueError
      | some bits =>
        if bits ≤ 0 ∨ bits > 32 then .error .valueError
        else bitfieldFirstPass (acc + bits.toNat) fs

/-- Size in bytes of the base type chosen for a total of `bitsize` bits,
/repo/opendis/record/bitfield.py:84-91: `c_uint8`, `c_uint16`, `c_uint32`, else `ValueError`. -/
def bitfieldBaseSize (bitsize : Nat) : Except PyErr Nat :=
  if bitsize ≤ 8 then .ok 1
  else if bitsize ≤ 16 then .ok 2
  else if bitsize ≤ 32 then .ok 4
  else .error .valueError

/-- `_field`, /repo/opendis/record/bitfield.py:34-50: width of one field of the structure. -/
def bitfieldField (f : FieldDescription) : Except PyErr Nat :=
  if f.isInteger = false then .error .valueError
  else match f.bits with
    | none => .error .typeError
    | some bits => if bits ≤ 0 ∨ bits > 32 then .error .valueError else .ok bits.toNat

/-- The second pass of `bitfield`, /repo/opendis/record/bitfield.py:93-96. -/
def bitfieldSecondPass : List FieldDescription → Except PyErr (List Nat)
  | [] => .ok []
  | f :: fs =>
    match bitfieldField f with
    | .error e => .error e
    | .ok w =>
      match bitfieldSecondPass fs with
      | .error e => .error e
      | .ok ws => .ok (w :: ws)

/-- `bitfield`, /repo/opendis/record/bitfield.py:53-119: the widths of the fields of the new class, or
the exception. `sizeof(Bitfield)` (line 114) is the size of the single base-type unit that holds all
the fields; the `assert` is taken to be enabled (no `python -O`). -/
def bitfield (fields : List FieldDescription) : Except PyErr (List Nat) :=
  match bitfieldFirstPass 0 fields with
  | .error e => .error e
  | .ok bitsize =>
    if bitsize = 0 then .error .valueError
    else if bitsize % 8 ≠ 0 then .error .valueError
    else match bitfieldBaseSize bitsize with
      | .error e => .error e
      | .ok size =>
        match bitfieldSecondPass fields with
        | .error e => .error e
        | .ok ws => if size = bitsize / 8 then .ok ws else .error .assertionError

/-- The integer whose big-endian bytes are `bytes(self)` for a structure with field widths `ws`
made by `cls(*vs)`, /repo/opendis/record/bitfield.py:99-107. The first field takes the most
significant bits, each value is truncated to its width, missing trailing values are zero. -/
def packBits : List Nat → List Int → Nat
  | [], _ => 0
  | w :: ws, vs => (vs.headD 0 % 2 ^ w).toNat * 2 ^ ws.sum + packBits ws vs.tail

/-- The field values of the structure whose bytes are the big-endian representation of `n`,
/repo/opendis/record/bitfield.py:110-111. -/
def unpackBits : List Nat → Nat → List Int
  | [], _ => []
  | w :: ws, n => ((n / 2 ^ ws.sum % 2 ^ w : Nat) : Int) :: unpackBits ws n

/-- `Bitfield.marshalledSize`, /repo/opendis/record/bitfield.py:102-104. -/
def Bitfield.marshalledSize (ws : List Nat) : Nat := ws.sum / 8

/-- `Bitfield.serialize` of the instance `cls(*vs)`, /repo/opendis/record/bitfield.py:106-107. -/
def Bitfield.serialize (ws : List Nat) (vs : List Int) : W Unit :=
  write_bytes (beBytes (ws.sum / 8) (packBits ws vs))

/-- `cls.from_buffer_copy(b)`: `ValueError` if the buffer is smaller than the structure, bytes
beyond its size are ignored, /repo/opendis/record/bitfield.py:111. -/
def Bitfield.fromBufferCopy (ws : List Nat) (b : Bytes) : Except PyErr (List Int) :=
  if b.length < ws.sum / 8 then .error .valueError
  else .ok (unpackBits ws (beNat (b.take (ws.sum / 8))))

/-- `Bitfield.parse`, /repo/opendis/record/bitfield.py:109-111. -/
def Bitfield.parse (ws : List Nat) : R (List Int) := do
  let b ← read_bytes (ws.sum / 8 : Nat)
  R.ofExcept (Bitfield.fromBufferCopy ws b)

end Dis
