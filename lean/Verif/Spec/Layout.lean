import Verif.Spec

/-!
# Wire layouts

A message as the sequence of its slots, independent of the code that writes it. `Slot.stream` says
what writing such a sequence does: slots are written in order until one does not fit.
-/

namespace Dis

/-- One field on the wire (the write methods of /repo/opendis/stream.py:111-184). -/
inductive Slot where
  /-- unsigned integer of `n` bytes -/
  | uint (n : Nat) (v : Int)
  /-- signed integer of `n` bytes, two's complement -/
  | sint (n : Nat) (v : Int)
  /-- double rounded to single precision -/
  | f32 (x : F64)
  /-- double -/
  | f64 (x : F64)
  /-- bit fields `(width, value)`, most significant first, together `n` bytes -/
  | bits (n : Nat) (fields : List (Nat × Int))
  /-- bytes as they are -/
  | raw (b : Bytes)
  /-- a value that cannot be written at all -/
  | fail (e : PyErr)

/-- One unsigned byte (/repo/opendis/stream.py:117-118). -/
abbrev Slot.u8 (v : Int) : Slot := .uint 1 v
/-- Unsigned 16 bits (/repo/opendis/stream.py:132-133). -/
abbrev Slot.u16 (v : Int) : Slot := .uint 2 v
/-- Unsigned 32 bits (/repo/opendis/stream.py:145-146). -/
abbrev Slot.u32 (v : Int) : Slot := .uint 4 v
/-- Unsigned 64 bits (/repo/opendis/stream.py:183-184). -/
abbrev Slot.u64 (v : Int) : Slot := .uint 8 v
/-- One signed byte (/repo/opendis/stream.py:114-115). -/
abbrev Slot.s8 (v : Int) : Slot := .sint 1 v
/-- Signed 16 bits (/repo/opendis/stream.py:129-130). -/
abbrev Slot.s16 (v : Int) : Slot := .sint 2 v
/-- Signed 32 bits (/repo/opendis/stream.py:142-143). -/
abbrev Slot.s32 (v : Int) : Slot := .sint 4 v
/-- Signed 64 bits (/repo/opendis/stream.py:135-136). -/
abbrev Slot.s64 (v : Int) : Slot := .sint 8 v

/-- An attribute that may be missing or unusable: then writing it raises `e`
(e.g. /repo/opendis/dis7.py:3611, :1237). -/
def Slot.orFail {α : Type} (e : PyErr) (k : α → Slot) : Option α → Slot
  | some v => k v
  | none => .fail e

/-- The same for a value laid out in several slots (e.g. /repo/opendis/dis7.py:6936-6937). -/
def Slot.orFailAll {α : Type} (e : PyErr) (k : α → List Slot) : Option α → List Slot
  | some v => k v
  | none => [.fail e]

/-- The integer in an attribute that may also hold an object (/repo/opendis/dis7.py:3600-3621). -/
def IntOr.int? {α : Type} : IntOr α → Option Int
  | .int v => some v
  | .obj _ => none

/-- The `n` base-256 digits of `v`, most significant first; negative numbers in two's complement
(network byte order, /repo/opendis/stream.py:31-184). -/
def digits (n : Nat) (v : Int) : Bytes :=
  (List.range n).map fun i => UInt8.ofNat (v / 256 ^ (n - 1 - i) % 256).toNat

/-- The number formed by bit fields, first field most significant, each value modulo two to its
width (/repo/opendis/record/bitfield.py:99-107). -/
def bitsValue (fields : List (Nat × Int)) : Int :=
  fields.foldl (fun acc f => acc * 2 ^ f.1 + f.2 % 2 ^ f.1) 0

/-- The bytes of a slot, or why it cannot be written (/repo/opendis/stream.py:111-184). -/
def Slot.encode : Slot → Except PyErr Bytes
  | .uint n v => if 0 ≤ v ∧ v < 256 ^ n then .ok (digits n v) else .error .structError
  | .sint n v => if -(256 ^ n) ≤ 2 * v ∧ 2 * v < 256 ^ n then .ok (digits n v) else .error .structError
  | .f32 x =>
    match narrow x with
    | .ok y => .ok (digits 4 y.toNat)
    | .error e => .error e
  | .f64 x => .ok (digits 8 x.toNat)
  | .bits n fs => .ok (digits n (bitsValue fs))
  | .raw b => .ok b
  | .fail e => .error e

/-- Width of a slot in bytes (/repo/opendis/stream.py:111-184). -/
def Slot.width : Slot → Nat
  | .uint n _ => n
  | .sint n _ => n
  | .f32 _ => 4
  | .f64 _ => 8
  | .bits n _ => n
  | .raw b => b.length
  | .fail _ => 0

/-- Writing slots one after the other: the bytes of the slots before the first one that cannot be
written, and its exception if there is one (statement sequences of `serialize` methods,
/repo/opendis/dis7.py). -/
def Slot.stream : List Slot → W Unit
  | [] => ⟨[], .ok ()⟩
  | s :: rest =>
    match s.encode with
    | .ok b => ⟨b ++ (Slot.stream rest).out, (Slot.stream rest).res⟩
    | .error e => ⟨[], .error e⟩

end Dis
