import Verif.Py.Float

/-!
# `opendis/stream.py`

Each definition is one method of `DataInputStream` / `DataOutputStream`; names follow the Python
methods. Characters are represented by their code points (`ord`).
-/

namespace Dis

/-- `struct.unpack(fmt, self.stream.read(n))[0]`: the common body of the fixed-size read methods,
/repo/opendis/stream.py:31-66. -/
def R.readFixed {α : Type} (n : Nat) (unpack : Bytes → Except PyErr α) : R α := do
  let b ← R.readRaw n
  R.ofExcept (unpack b)

/-- `self.stream.write(struct.pack(fmt, val))`: the common body of the fixed-size write methods,
/repo/opendis/stream.py:111-146. -/
def W.writeFixed (packed : Except PyErr Bytes) : W Unit := do
  let b ← W.ofExcept packed
  W.emit b

/-- `read_boolean`, /repo/opendis/stream.py:31-32: any non-zero byte is `True`. -/
def read_boolean : R Bool :=
  R.readFixed 1 fun b => match unpackU 1 b with
    | .ok v => .ok (v ≠ 0)
    | .error e => .error e

/-- `write_boolean`, /repo/opendis/stream.py:111-112. -/
def write_boolean (b : Bool) : W Unit :=
  W.writeFixed (.ok [if b then 1 else 0])

/-- `read_byte`, /repo/opendis/stream.py:34-35. -/
def read_byte : R Int := R.readFixed 1 (unpackS 1)

/-- `write_byte`, /repo/opendis/stream.py:114-115. -/
def write_byte (val : Int) : W Unit := W.writeFixed (packS 1 val)

/-- `read_unsigned_byte`, /repo/opendis/stream.py:37-38. -/
def read_unsigned_byte : R Int := R.readFixed 1 (unpackU 1)

/-- `write_unsigned_byte`, /repo/opendis/stream.py:117-118. -/
def write_unsigned_byte (val : Int) : W Unit := W.writeFixed (packU 1 val)

/-- `read_char`, /repo/opendis/stream.py:40-41. The character is its code point: `chr`/`ord` are identities here. -/
def read_char : R Int := R.readFixed 2 (unpackU 2)

/-- `write_char`, /repo/opendis/stream.py:120-121. The character is its code point: `chr`/`ord` are identities here. -/
def write_char (val : Int) : W Unit := W.writeFixed (packU 2 val)

/-- `read_short`, /repo/opendis/stream.py:49-50. -/
def read_short : R Int := R.readFixed 2 (unpackS 2)

/-- `write_short`, /repo/opendis/stream.py:129-130. -/
def write_short (val : Int) : W Unit := W.writeFixed (packS 2 val)

/-- `read_unsigned_short`, /repo/opendis/stream.py:52-53. -/
def read_unsigned_short : R Int := R.readFixed 2 (unpackU 2)

/-- `write_unsigned_short`, /repo/opendis/stream.py:132-133. -/
def write_unsigned_short (val : Int) : W Unit := W.writeFixed (packU 2 val)

/-- `read_long`, /repo/opendis/stream.py:55-56. -/
def read_long : R Int := R.readFixed 8 (unpackS 8)

/-- `write_long`, /repo/opendis/stream.py:135-136. -/
def write_long (val : Int) : W Unit := W.writeFixed (packS 8 val)

/-- `read_int`, /repo/opendis/stream.py:62-63. -/
def read_int : R Int := R.readFixed 4 (unpackS 4)

/-- `write_int`, /repo/opendis/stream.py:142-143. -/
def write_int (val : Int) : W Unit := W.writeFixed (packS 4 val)

/-- `read_unsigned_int`, /repo/opendis/stream.py:65-66. -/
def read_unsigned_int : R Int := R.readFixed 4 (unpackU 4)

/-- `write_unsigned_int`, /repo/opendis/stream.py:145-146. -/
def write_unsigned_int (val : Int) : W Unit := W.writeFixed (packU 4 val)

/-- `read_double`, /repo/opendis/stream.py:43-44. -/
def read_double : R F64 := R.readFixed 8 unpackD

/-- `write_double`, /repo/opendis/stream.py:123-124. -/
def write_double (val : F64) : W Unit := W.writeFixed (packD val)

/-- `read_float`, /repo/opendis/stream.py:46-47. -/
def read_float : R F64 := R.readFixed 4 unpackF

/-- `write_float`, /repo/opendis/stream.py:126-127. -/
def write_float (val : F64) : W Unit := W.writeFixed (packF val)

/-- `read_bytes`, /repo/opendis/stream.py:68-70. -/
def read_bytes (n : Int) : R Bytes := R.readRaw n

/-- `write_bytes`, /repo/opendis/stream.py:148-150. -/
def write_bytes (val : Bytes) : W Unit := W.emit val

/-- `read_utf`, /repo/opendis/stream.py:58-60. -/
def read_utf : R Bytes := do
  let utf_length ← R.readFixed 2 (unpackU 2)
  R.readRaw utf_length

/-- `write_utf`, /repo/opendis/stream.py:138-140. -/
def write_utf (string : Bytes) : W Unit := do
  W.writeFixed (packU 2 string.length)
  W.emit string

/-- `read_float32`, /repo/opendis/stream.py:76-77. -/
def read_float32 : R F64 := read_float

/-- `write_float32`, /repo/opendis/stream.py:156-157. -/
def write_float32 (val : F64) : W Unit := write_float val

/-- `read_float64`, /repo/opendis/stream.py:79-80. -/
def read_float64 : R F64 := read_double

/-- `write_float64`, /repo/opendis/stream.py:159-160. -/
def write_float64 (val : F64) : W Unit := write_double val

/-- `read_int8`, /repo/opendis/stream.py:82-83. -/
def read_int8 : R Int := read_byte

/-- `write_int8`, /repo/opendis/stream.py:162-163. -/
def write_int8 (val : Int) : W Unit := write_byte val

/-- `read_int16`, /repo/opendis/stream.py:85-86. -/
def read_int16 : R Int := read_short

/-- `write_int16`, /repo/opendis/stream.py:165-166. -/
def write_int16 (val : Int) : W Unit := write_short val

/-- `read_int32`, /repo/opendis/stream.py:88-89. -/
def read_int32 : R Int := read_int

/-- `write_int32`, /repo/opendis/stream.py:168-169. -/
def write_int32 (val : Int) : W Unit := write_int val

/-- `read_int64`, /repo/opendis/stream.py:91-92. -/
def read_int64 : R Int := read_long

/-- `write_int64`, /repo/opendis/stream.py:171-172. -/
def write_int64 (val : Int) : W Unit := write_long val

/-- `read_uint8`, /repo/opendis/stream.py:94-95. -/
def read_uint8 : R Int := read_unsigned_byte

/-- `write_uint8`, /repo/opendis/stream.py:174-175. -/
def write_uint8 (val : Int) : W Unit := write_unsigned_byte val

/-- `read_uint16`, /repo/opendis/stream.py:97-98. -/
def read_uint16 : R Int := read_unsigned_short

/-- `write_uint16`, /repo/opendis/stream.py:177-178. -/
def write_uint16 (val : Int) : W Unit := write_unsigned_short val

/-- `read_uint32`, /repo/opendis/stream.py:100-101. -/
def read_uint32 : R Int := read_unsigned_int

/-- `write_uint32`, /repo/opendis/stream.py:180-181. -/
def write_uint32 (val : Int) : W Unit := write_unsigned_int val

/-- `read_char8`, /repo/opendis/stream.py:73-74: reads a 16-bit character. -/
def read_char8 : R Int := read_char

/-- `write_char8`, /repo/opendis/stream.py:153-154: writes one signed byte. -/
def write_char8 (val : Int) : W Unit := write_byte val

/-- `read_uint64`, /repo/opendis/stream.py:103-104: reads a *signed* 64-bit integer. -/
def read_uint64 : R Int := read_long

/-- `write_uint64`, /repo/opendis/stream.py:183-184. -/
def write_uint64 (val : Int) : W Unit := W.writeFixed (packU 8 val)

end Dis
