import Verif.Py.Num

/-!
# Python floats and the '>d', '>f' formats

A Python `float` is an IEEE binary64 value, represented by its bit pattern; a single-precision wire
field by its binary32 pattern.
-/

namespace Dis

/-- A Python `float`, as its IEEE binary64 bit pattern (attributes of type `float32`/`float64`,
/repo/opendis/types.py:23-24). -/
abbrev F64 := BitVec 64

/-- A binary32 bit pattern: the content of a '>f' field (/repo/opendis/stream.py:47, :127). -/
abbrev F32 := BitVec 32

namespace F64
/-- Sign bit of a binary64 pattern (format used by '>d', /repo/opendis/stream.py:44). -/
def sign (x : F64) : Nat := x.toNat / 2 ^ 63
/-- Biased exponent of a binary64 pattern (/repo/opendis/stream.py:44). -/
def expo (x : F64) : Nat := x.toNat / 2 ^ 52 % 2 ^ 11
/-- Trailing significand of a binary64 pattern (/repo/opendis/stream.py:44). -/
def frac (x : F64) : Nat := x.toNat % 2 ^ 52
/-- Assemble a binary64 pattern (/repo/opendis/stream.py:44). -/
def mk (s e f : Nat) : F64 := BitVec.ofNat 64 (s * 2 ^ 63 + e * 2 ^ 52 + f)
end F64

namespace F32
/-- Sign bit of a binary32 pattern (format used by '>f', /repo/opendis/stream.py:47). -/
def sign (x : F32) : Nat := x.toNat / 2 ^ 31
/-- Biased exponent of a binary32 pattern (/repo/opendis/stream.py:47). -/
def expo (x : F32) : Nat := x.toNat / 2 ^ 23 % 2 ^ 8
/-- Trailing significand of a binary32 pattern (/repo/opendis/stream.py:47). -/
def frac (x : F32) : Nat := x.toNat % 2 ^ 23
end F32

/-- Round `x / 2^s` to the nearest integer, ties to even: the rounding the C cast
`(float)x` performs inside `struct.pack('>f', val)`, /repo/opendis/stream.py:127. -/
def rne (x s : Nat) : Nat :=
  let q := x / 2 ^ s
  let r := x % 2 ^ s
  if 2 * r > 2 ^ s ∨ (2 * r = 2 ^ s ∧ q % 2 = 1) then q + 1 else q

/-- Binary32 to binary64, as `struct.unpack('>f', ...)` does, /repo/opendis/stream.py:47.
Exact for every non-NaN; a signalling NaN comes out quiet (hardware conversion on the usual
platforms). -/
def widen (y : F32) : F64 :=
  let s := y.sign
  let e := y.expo
  let f := y.frac
  if e = 255 then
    if f = 0 then F64.mk s 2047 0                       -- infinity
    else F64.mk s 2047 (2 ^ 51 + (f % 2 ^ 22) * 2 ^ 29) -- NaN, quieted
  else if e = 0 then
    if f = 0 then F64.mk s 0 0                          -- zero
    else                                                -- subnormal: normalise
      let k := f.log2
      F64.mk s (k + 874) ((f - 2 ^ k) * 2 ^ (52 - k))
  else F64.mk s (e + 896) (f * 2 ^ 29)

/-- Magnitude bits of the binary32 nearest to a finite binary64 with biased exponent `e` and
trailing significand `f` (may reach or pass the pattern of infinity); part of
`struct.pack('>f', val)`, /repo/opendis/stream.py:127. -/
def narrowMag (e f : Nat) : Nat :=
  let sig := if e = 0 then f else 2 ^ 52 + f
  let e' := max e 1
  (max e' 897 - 897) * 2 ^ 23 + rne sig (29 + (897 - e'))

/-- Binary64 to binary32, as `struct.pack('>f', val)` does, /repo/opendis/stream.py:127:
round to nearest even; `OverflowError` if a finite value rounds to infinity; NaNs keep the upper
payload bits and come out quiet. -/
def narrow (x : F64) : Except PyErr F32 :=
  let s := x.sign
  let e := x.expo
  let f := x.frac
  if e = 2047 then
    if f = 0 then .ok (BitVec.ofNat 32 (s * 2 ^ 31 + 255 * 2 ^ 23))
    else .ok (BitVec.ofNat 32 (s * 2 ^ 31 + 255 * 2 ^ 23 + 2 ^ 22 + f / 2 ^ 29 % 2 ^ 22))
  else
    let m := narrowMag e f
    if m < 255 * 2 ^ 23 then .ok (BitVec.ofNat 32 (s * 2 ^ 31 + m))
    else .error .overflowError

/-- `struct.pack('>d', val)`, /repo/opendis/stream.py:124. -/
def packD (x : F64) : Except PyErr Bytes := .ok (beBytes 8 x.toNat)

/-- `struct.unpack('>d', b)[0]`, /repo/opendis/stream.py:44. -/
def unpackD (b : Bytes) : Except PyErr F64 :=
  if b.length = 8 then .ok (BitVec.ofNat 64 (beNat b)) else .error .structError

/-- `struct.pack('>f', val)`, /repo/opendis/stream.py:127. -/
def packF (x : F64) : Except PyErr Bytes :=
  match narrow x with
  | .ok y => .ok (beBytes 4 y.toNat)
  | .error e => .error e

/-- `struct.unpack('>f', b)[0]`, /repo/opendis/stream.py:47. -/
def unpackF (b : Bytes) : Except PyErr F64 :=
  if b.length = 4 then .ok (widen (BitVec.ofNat 32 (beNat b))) else .error .structError

end Dis
