import Mathlib.Data.Fin.VecNotation
import Mathlib.Data.Nat.Find
import Verif.Model.DeadReckoning
import Verif.Py.Sqrt

/-!
# `opendis/RangeCoordinates.py` in floating point

The functions of `Verif/Geo/RangeCoordinates.lean` again, on doubles instead of real numbers, with the
operations in the order in which Python evaluates them. Points have exactly three coordinates, all of them
Python floats.

What the C library computes is not fixed by IEEE 754; it is a parameter, `Libm`, about which the theorems assume
only what they state. `sqrt` is fixed (`F64.sqrt`).
-/

namespace Dis.Dbl

/-- The functions of the C library used in /repo/opendis/RangeCoordinates.py, besides those of
`Platform`: `atan` (line 152) and `atan2` (line 128). -/
structure Libm extends Platform where
  atan : F64 → F64
  atan2 : F64 → F64 → F64

/-- A small whole number as a double (e.g. `180` at /repo/opendis/RangeCoordinates.py:51). -/
def num (n : Nat) : F64 := F64.ofMag 0 (F64.roundMag (n * 2 ^ 1074) 0)

/-- `math.pi`, /repo/opendis/RangeCoordinates.py:45. -/
def pi : F64 := BitVec.ofNat 64 0x400921FB54442D18

/-- `deg2rad`, /repo/opendis/RangeCoordinates.py:49-51. -/
def deg2rad (deg : F64) : F64 := F64.div (F64.mul deg pi) (num 180)

/-- `rad2deg`, /repo/opendis/RangeCoordinates.py:54-56. -/
def rad2deg (rad : F64) : F64 := F64.div (F64.mul rad (num 180)) pi

/-- The loop of `euclideanDistance` without a second point, /repo/opendis/RangeCoordinates.py:64-66. -/
def sumSquares (P : Platform) : F64 → List F64 → Except PyErr F64
  | total, [] => .ok total
  | total, d :: data => do
    let s ← P.square d
    sumSquares P (F64.add total s) data

/-- `euclideanDistance(data)`, /repo/opendis/RangeCoordinates.py:59-69. -/
def euclideanDistance (P : Platform) (data : List F64) : Except PyErr F64 := do
  let total ← sumSquares P (num 0) data
  F64.sqrt total

/-! ## Class `WGS84` -/

namespace WGS84

/-- `WGS84.a`, /repo/opendis/RangeCoordinates.py:76. -/
def a : F64 := num 6378137

/-- `WGS84.b`, /repo/opendis/RangeCoordinates.py:79: the double nearest to 6356752.3142. -/
def b : F64 := BitVec.ofNat 64 0x41583FC4141BDA51

/-- `WGS84.f`, /repo/opendis/RangeCoordinates.py:82. -/
def f : F64 := F64.div (F64.sub a b) a

/-- `WGS84.e`, /repo/opendis/RangeCoordinates.py:85. The argument of the root is positive (`WGS84.e_ok`). -/
def e : F64 := (F64.sqrt (F64.mul f (F64.sub (num 2) f))).toOption.getD F64.nan

end WGS84

open WGS84

/-! ## Class `GPS` -/

/-- `a / sqrt(1 - x**2)`, as at /repo/opendis/RangeCoordinates.py:153 and :305. -/
def normal (P : Platform) (x : F64) : Except PyErr F64 := do
  let s ← P.square x
  let r ← F64.sqrt (F64.sub (num 1) s)
  F64.pyDiv a r

/-- `GPS.lla2ecef`, /repo/opendis/RangeCoordinates.py:293-313. -/
def lla2ecef (P : Platform) (lla : Vec) : Except PyErr Vec := do
  let lat := deg2rad (lla 0)
  let lon := deg2rad (lla 1)
  let alt := lla 2
  let s ← trig P.sin lat
  let N ← normal P (F64.mul e s)
  let c ← trig P.cos lat
  let cl ← trig P.cos lon
  let x := F64.mul (F64.mul (F64.add N alt) c) cl
  let sl ← trig P.sin lon
  let y := F64.mul (F64.mul (F64.add N alt) c) sl
  let e2 ← P.square e
  let z := F64.mul (F64.add (F64.mul N (F64.sub (num 1) e2)) alt) s
  return ![x, y, z]

/-- Subtraction of two points, coordinate by coordinate, /repo/opendis/RangeCoordinates.py:329. -/
def vsub (u v : Vec) : Vec := fun i => F64.sub (u i) (v i)

/-- `GPS.lla2gcc`, /repo/opendis/RangeCoordinates.py:316-329. `geoOrigin` is `none` for the empty string
and otherwise the list of numbers in it; a part that is not a number (a `ValueError` too) is not
modelled. -/
def lla2gcc (P : Platform) (lla : Vec) (geoOrigin : Option (List F64)) : Except PyErr Vec := do
  let o ← match geoOrigin with
    | some [lon0, lat0, a0] => lla2ecef P ![lat0, lon0, a0]
    | some _ => .error .valueError
    | none => .ok ![num 0, num 0, num 0]
  let p ← lla2ecef P lla
  return vsub p o

/-- `round(x, 2)` of a float, /repo/opendis/RangeCoordinates.py:140-143: the double nearest to the nearest
multiple of 1/100, ties to even. -/
def round2 (x : F64) : F64 :=
  if x.expo = 2047 then x
  else
    let n := rne (x.mag * 100) 1074 * 2 ^ 1075
    F64.ofMag x.sign (F64.roundMag (2 * (n / 100) + if n % 100 = 0 then 0 else 1) 2)

/-- The variables the loop of `ecef2lla` changes, /repo/opendis/RangeCoordinates.py:131-135. -/
structure LoopState where
  lat : F64
  previousLat : F64
  N : F64
  alt : F64

/-- Their initial values, /repo/opendis/RangeCoordinates.py:131-135 (the integers 0 and 90 as doubles). -/
def ecef2lla_init : LoopState := { lat := num 0, previousLat := num 90, N := a, alt := num 0 }

/-- The loop body, /repo/opendis/RangeCoordinates.py:150-154. -/
def ecef2lla_body (L : Libm) (p z : F64) (s : LoopState) : Except PyErr LoopState := do
  let previousLat := s.lat
  let e2 ← L.square e
  let sinLat ← F64.pyDiv z (F64.add (F64.mul s.N (F64.sub (num 1) e2)) s.alt)
  let e2 ← L.square e
  let t ← F64.pyDiv (F64.add z (F64.mul (F64.mul e2 s.N) sinLat)) p
  let lat := L.atan t
  let N ← normal L.toPlatform (F64.mul e sinLat)
  let c ← trig L.cos lat
  let r ← F64.pyDiv p c
  let alt := F64.sub r N
  return { lat := lat, previousLat := previousLat, N := N, alt := alt }

/-- The state after running the body `n` times, the test of the `while` left aside,
/repo/opendis/RangeCoordinates.py:149-154. -/
def ecef2lla_after (L : Libm) (p z : F64) : ℕ → Except PyErr LoopState
  | 0 => .ok ecef2lla_init
  | n + 1 =>
    match ecef2lla_after L p z n with
    | .error err => .error err
    | .ok s => ecef2lla_body L p z s

/-- The loop is left after `n` rounds: the body raised, or the test at
/repo/opendis/RangeCoordinates.py:149 is false. -/
def ecef2lla_leaves (L : Libm) (p z tolerance : F64) (n : ℕ) : Prop :=
  match ecef2lla_after L p z n with
  | .error _ => True
  | .ok s => F64.le tolerance (F64.abs (F64.sub s.lat s.previousLat)) = false

open Classical in
/-- The `while` loop, /repo/opendis/RangeCoordinates.py:149-154: it ends with the first `n` at which it is
left, and `none` stands for running forever. -/
noncomputable def ecef2lla_loop (L : Libm) (p z tolerance : F64) : Option (Except PyErr LoopState) :=
  if h : ∃ n, ecef2lla_leaves L p z tolerance n then some (ecef2lla_after L p z (Nat.find h)) else none

/-- `GPS.ecef2lla`, /repo/opendis/RangeCoordinates.py:117-157, returning (lat, lon, alt); `none` if it does
not return. -/
noncomputable def ecef2lla (L : Libm) (ecef : Vec) (tolerance : F64) : Option (Except PyErr Vec) :=
  let x := ecef 0
  let y := ecef 1
  let z := ecef 2
  let lon := L.atan2 y x
  match (do let x2 ← L.square x; let y2 ← L.square y; F64.sqrt (F64.add x2 y2) : Except PyErr F64) with
  | .error err => some (.error err)
  | .ok p =>
    if x.mag = 0 ∧ y.mag = 0 then
      if F64.lt (num 0) z then some (.ok ![num 90, num 69, round2 (F64.sub z b)])
      else if F64.lt z (num 0) then some (.ok ![F64.neg (num 90), num 69, round2 (F64.sub (F64.neg z) b)])
      else some (.error .exception)
    else
      match ecef2lla_loop L p z tolerance with
      | none => none
      | some (.error err) => some (.error err)
      | some (.ok s) => some (.ok ![rad2deg s.lat, rad2deg lon, s.alt])

/-- The default `tolerance` of `ecef2lla`, /repo/opendis/RangeCoordinates.py:117: the double nearest to 1e-9. -/
def defaultTolerance : F64 := BitVec.ofNat 64 0x3E112E0BE826D695

end Dis.Dbl
