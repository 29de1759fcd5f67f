import Verif.Stream
import Verif.Spec

/-!
# The methods of the streams, listed with their widths and signedness

Vocabulary of the properties C01-C07.
-/

namespace Dis

/-- A method of `DataOutputStream` that writes an integer of `width` bytes (/repo/opendis/stream.py:111-184). -/
structure IntWriter where
  name : String
  write : Int → W Unit
  width : Nat
  signed : Bool

/-- A method of `DataInputStream` that reads an integer of `width` bytes (/repo/opendis/stream.py:31-104). -/
structure IntReader where
  name : String
  read : R Int
  width : Nat
  signed : Bool

/-- The integers a two's complement or unsigned number of `width` bytes can hold (C types behind the
formats of /repo/opendis/stream.py:31-184). -/
def IntRange (signed : Bool) (width : Nat) (v : Int) : Prop :=
  if signed then -2 ^ (8 * width - 1) ≤ v ∧ v < 2 ^ (8 * width - 1) else 0 ≤ v ∧ v < 2 ^ (8 * width)

/-- Range membership is decidable (used to evaluate examples; ranges of /repo/opendis/stream.py:31-184). -/
instance (s : Bool) (n : Nat) (v : Int) : Decidable (IntRange s n v) := by
  unfold IntRange; infer_instance

/-- Value of a byte string as a base-256 number, most significant digit first (network byte order,
/repo/opendis/stream.py:31-184). -/
def beValue (b : Bytes) : Int := b.foldl (fun acc x => 256 * acc + x.toNat) 0

/-- The integer methods that are documented as counterparts of each other and use the same format:
`read_x` undoes `write_x` (/repo/opendis/stream.py:34-41, 49-56, 62-66, 82-101 and 114-121, 129-136,
142-146, 162-181). Characters are their code points. -/
def intPairs : List (IntWriter × IntReader) :=
  [(⟨"write_byte", write_byte, 1, true⟩, ⟨"read_byte", read_byte, 1, true⟩),
   (⟨"write_unsigned_byte", write_unsigned_byte, 1, false⟩, ⟨"read_unsigned_byte", read_unsigned_byte, 1, false⟩),
   (⟨"write_char", write_char, 2, false⟩, ⟨"read_char", read_char, 2, false⟩),
   (⟨"write_short", write_short, 2, true⟩, ⟨"read_short", read_short, 2, true⟩),
   (⟨"write_unsigned_short", write_unsigned_short, 2, false⟩,
    ⟨"read_unsigned_short", read_unsigned_short, 2, false⟩),
   (⟨"write_int", write_int, 4, true⟩, ⟨"read_int", read_int, 4, true⟩),
   (⟨"write_unsigned_int", write_unsigned_int, 4, false⟩, ⟨"read_unsigned_int", read_unsigned_int, 4, false⟩),
   (⟨"write_long", write_long, 8, true⟩, ⟨"read_long", read_long, 8, true⟩),
   (⟨"write_int8", write_int8, 1, true⟩, ⟨"read_int8", read_int8, 1, true⟩),
   (⟨"write_int16", write_int16, 2, true⟩, ⟨"read_int16", read_int16, 2, true⟩),
   (⟨"write_int32", write_int32, 4, true⟩, ⟨"read_int32", read_int32, 4, true⟩),
   (⟨"write_int64", write_int64, 8, true⟩, ⟨"read_int64", read_int64, 8, true⟩),
   (⟨"write_uint8", write_uint8, 1, false⟩, ⟨"read_uint8", read_uint8, 1, false⟩),
   (⟨"write_uint16", write_uint16, 2, false⟩, ⟨"read_uint16", read_uint16, 2, false⟩),
   (⟨"write_uint32", write_uint32, 4, false⟩, ⟨"read_uint32", read_uint32, 4, false⟩)]

/-- All integer write methods, including the two without a faithful counterpart
(/repo/opendis/stream.py:153-154, 183-184). -/
def intWriters : List IntWriter :=
  intPairs.map (·.1) ++
    [⟨"write_char8", write_char8, 1, true⟩, ⟨"write_uint64", write_uint64, 8, false⟩]

/-- All integer read methods, including the two without a faithful counterpart
(/repo/opendis/stream.py:73-74, 103-104). -/
def intReaders : List IntReader :=
  intPairs.map (·.2) ++
    [⟨"read_char8", read_char8, 2, false⟩, ⟨"read_uint64", read_uint64, 8, true⟩]

end Dis
