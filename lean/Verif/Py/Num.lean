import Verif.Py.Basic

/-!
# `struct.pack` / `struct.unpack` for integers

All formats used in /repo/opendis/stream.py are big-endian or one byte wide.
-/

namespace Dis

/-- The `n` low-order base-256 digits of `v`, most significant first: byte layout of the `'>'`
formats of `struct` (used in /repo/opendis/stream.py:31-184). -/
def beBytes : Nat → Nat → Bytes
  | 0, _ => []
  | n + 1, v => UInt8.ofNat (v / 256 ^ n % 256) :: beBytes n v

/-- Value of a big-endian byte string (the `'>'` formats in /repo/opendis/stream.py:31-70). -/
def beNat : Bytes → Nat
  | [] => 0
  | b :: bs => b.toNat * 256 ^ bs.length + beNat bs

/-- `struct.pack` for an unsigned format of `n` bytes ('B', '>H', '>I', '>Q' in
/repo/opendis/stream.py:118-184): `struct.error` outside `0 ..< 256^n`. -/
def packU (n : Nat) (v : Int) : Except PyErr Bytes :=
  if 0 ≤ v ∧ v < (256 ^ n : Nat) then .ok (beBytes n v.toNat) else .error .structError

/-- `struct.pack` for a signed format of `n` bytes ('b', '>h', '>i', '>q' in
/repo/opendis/stream.py:115-143): two's complement, `struct.error` outside
`-256^n/2 ..< 256^n/2`. -/
def packS (n : Nat) (v : Int) : Except PyErr Bytes :=
  if -((256 ^ n / 2 : Nat) : Int) ≤ v ∧ v < (256 ^ n / 2 : Nat) then
    .ok (beBytes n (v % ((256 ^ n : Nat) : Int)).toNat)
  else .error .structError

/-- `struct.unpack` for an unsigned format of `n` bytes (/repo/opendis/stream.py:38-66):
`struct.error` unless exactly `n` bytes are given. -/
def unpackU (n : Nat) (b : Bytes) : Except PyErr Int :=
  if b.length = n then .ok (beNat b) else .error .structError

/-- `struct.unpack` for a signed format of `n` bytes (/repo/opendis/stream.py:35-63). -/
def unpackS (n : Nat) (b : Bytes) : Except PyErr Int :=
  if b.length = n then
    .ok (if beNat b < 256 ^ n / 2 then (beNat b : Int) else (beNat b : Int) - (256 ^ n : Nat))
  else .error .structError

end Dis
