import Verif.Model.RangeCoordinates

/-!
# Universal Transverse Mercator coordinates of `opendis/RangeCoordinates.py` in floating point

`lla2utm` and `ecef2utm` of `Verif/Geo/RangeCoordinates.lean` again, on doubles, with the operations in the order in which
Python evaluates them; and `WGS84.g0`. Whole-number literals next to a float are converted to the same float. A
call that occurs twice with the same arguments is written once.
-/

namespace Dis.Dbl

open WGS84

/-- The C library with its `pow`: `x ** n` for `n` from 3 to 6 (/repo/opendis/RangeCoordinates.py:372-397), which may raise an
`OverflowError`. -/
structure CMath extends Libm where
  pow : F64 → Nat → Except PyErr F64

/-- `int(x)` of a float, /repo/opendis/RangeCoordinates.py:346: towards zero; raises for infinities and NaNs. -/
def truncate (x : F64) : Except PyErr Int :=
  if x.expo = 2047 then (if x.frac = 0 then .error .overflowError else .error .valueError)
  else .ok (x.units.tdiv (2 ^ 1074))

/-- `lo <= x < hi`, as at /repo/opendis/RangeCoordinates.py:348. -/
def within (lo x hi : F64) : Bool := F64.le lo x && F64.lt x hi

/-- `GPS.utmLetterDesignator`, /repo/opendis/RangeCoordinates.py:542-564. -/
def utmLetterDesignator (lat : F64) : Char :=
  let minus (n : Nat) := F64.neg (num n)
  if within (minus 80) lat (minus 72) then 'C'
  else if within (minus 72) lat (minus 64) then 'D'
  else if within (minus 64) lat (minus 56) then 'E'
  else if within (minus 56) lat (minus 48) then 'F'
  else if within (minus 48) lat (minus 40) then 'G'
  else if within (minus 40) lat (minus 32) then 'H'
  else if within (minus 32) lat (minus 24) then 'J'
  else if within (minus 24) lat (minus 16) then 'K'
  else if within (minus 16) lat (minus 8) then 'L'
  else if within (minus 8) lat (num 0) then 'M'
  else if within (num 0) lat (num 8) then 'N'
  else if within (num 8) lat (num 16) then 'P'
  else if within (num 16) lat (num 24) then 'Q'
  else if within (num 24) lat (num 32) then 'R'
  else if within (num 32) lat (num 40) then 'S'
  else if within (num 40) lat (num 48) then 'T'
  else if within (num 48) lat (num 56) then 'U'
  else if within (num 56) lat (num 64) then 'V'
  else if within (num 64) lat (num 72) then 'W'
  else if within (num 72) lat (num 80) then 'X'
  else 'Z'

/-- The zone number computed by `GPS.lla2utm`, /repo/opendis/RangeCoordinates.py:345-355. -/
def zoneNumber (lat lon : F64) : Except PyErr Int := do
  let t ← truncate (F64.div (F64.add lon (num 180)) (num 6))
  let zone₁ := t + 1
  let zone₂ := if within (num 56) lat (num 64) && within (num 3) lon (num 12) then 32 else zone₁
  return if within (num 72) lat (num 84) then
      if within (num 0) lon (num 9) then 31
      else if within (num 9) lon (num 21) then 33
      else if within (num 21) lon (num 33) then 35
      else if within (num 33) lon (num 42) then 37
      else zone₂
    else zone₂

/-- What `GPS.lla2utm` returns, /repo/opendis/RangeCoordinates.py:398-400. The zone string
(`"%d%c"`, line 357) is kept as the number and the letter. -/
structure Utm where
  /-- easting, northing, upping -/
  utm : Vec
  zone : Int × Char
  k : F64

/-- An integer that is too large for a float raises, /repo/opendis/RangeCoordinates.py:51. -/
def fits : Option F64 → Except PyErr F64
  | none => .error .overflowError
  | some x => .ok x

/-- The product of an integer and a float, /repo/opendis/RangeCoordinates.py:51 with the `lonOrigin` of line 359: the integer
is converted first. -/
def fromInt (n : Int) : Except PyErr F64 := fits (F64.ofInt n)

/-- `k0`, /repo/opendis/RangeCoordinates.py:365: the double nearest to 0.9996. -/
def k0 : F64 := BitVec.ofNat 64 0x3FEFFCB923A29C78

/-- The length of the meridian, `M` at /repo/opendis/RangeCoordinates.py:372-382. -/
def meridian (L : CMath) (eSquared latRad : F64) : Except PyErr F64 := do
  let e4 ← L.square eSquared
  let e6 ← L.pow eSquared 3
  let s2 ← trig L.sin (F64.mul (num 2) latRad)
  let s4 ← trig L.sin (F64.mul (num 4) latRad)
  let s6 ← trig L.sin (F64.mul (num 6) latRad)
  let c0 := F64.sub (F64.sub (F64.sub (num 1) (F64.div eSquared (num 4))) (F64.div (F64.mul (num 3) e4) (num 64)))
    (F64.div (F64.mul (num 5) e6) (num 256))
  let c2 := F64.add (F64.add (F64.div (F64.mul (num 3) eSquared) (num 8)) (F64.div (F64.mul (num 3) e4) (num 32)))
    (F64.div (F64.mul (num 45) e6) (num 1024))
  let c4 := F64.add (F64.div (F64.mul (num 15) e4) (num 256)) (F64.div (F64.mul (num 45) e6) (num 1024))
  let c6 := F64.div (F64.mul (num 35) e6) (num 3072)
  return F64.mul a (F64.sub (F64.add (F64.sub (F64.mul c0 latRad) (F64.mul c2 s2)) (F64.mul c4 s4)) (F64.mul c6 s6))

/-- `x`, /repo/opendis/RangeCoordinates.py:385-387. -/
def easting (L : CMath) (N T C A ep : F64) : Except PyErr F64 := do
  let A3 ← L.pow A 3
  let T2 ← L.square T
  let A5 ← L.pow A 5
  let u := F64.div (F64.mul (F64.add (F64.sub (num 1) T) C) A3) (num 6)
  let q := F64.sub (F64.add (F64.add (F64.sub (num 5) (F64.mul (num 18) T)) T2) (F64.mul (num 72) C)) (F64.mul (num 58) ep)
  let v := F64.div (F64.mul q A5) (num 120)
  return F64.add (F64.mul (F64.mul k0 N) (F64.add (F64.add A u) v)) (num 500000)

/-- `y`, /repo/opendis/RangeCoordinates.py:388-392 (`M0` is 0). -/
def northing (L : CMath) (M N tanLat T C A ep : F64) : Except PyErr F64 := do
  let A2 ← L.square A
  let C2 ← L.square C
  let A4 ← L.pow A 4
  let T2 ← L.square T
  let A6 ← L.pow A 6
  let p := F64.add (F64.add (F64.sub (num 5) T) (F64.mul (num 9) C)) (F64.mul (num 4) C2)
  let u := F64.div (F64.mul p A4) (num 24)
  let q := F64.sub (F64.add (F64.add (F64.sub (num 61) (F64.mul (num 58) T)) T2) (F64.mul (num 600) C)) (F64.mul (num 330) ep)
  let v := F64.div (F64.mul q A6) (num 720)
  return F64.mul k0 (F64.add (F64.sub M (num 0))
    (F64.mul (F64.mul N tanLat) (F64.add (F64.add (F64.div A2 (num 2)) u) v)))

/-- `k`, /repo/opendis/RangeCoordinates.py:394-397. -/
def scaleFactor (L : CMath) (T C A ep : F64) : Except PyErr F64 := do
  let A2 ← L.square A
  let C2 ← L.square C
  let A4 ← L.pow A 4
  let T2 ← L.square T
  let A6 ← L.pow A 6
  let u := F64.div (F64.mul (F64.add (num 1) C) A2) (num 2)
  let p := F64.sub (F64.add (F64.add (F64.sub (num 5) (F64.mul (num 4) T)) (F64.mul (num 42) C)) (F64.mul (num 13) C2))
    (F64.mul (num 28) ep)
  let v := F64.div (F64.mul p A4) (num 24)
  let q := F64.add (F64.sub (num 61) (F64.mul (num 148) T)) (F64.mul (num 16) T2)
  let w := F64.div (F64.mul q A6) (num 720)
  return F64.mul k0 (F64.add (F64.add (F64.add (num 1) u) v) w)

/-- `GPS.lla2utm`, /repo/opendis/RangeCoordinates.py:332-400. -/
def lla2utm (L : CMath) (lla : Vec) : Except PyErr Utm := do
  let lat := lla 0
  let lon := lla 1
  let alt := lla 2
  let zoneNumber ← zoneNumber lat lon
  let zone := (zoneNumber, utmLetterDesignator lat)
  let lonOrigin ← fromInt ((zoneNumber - 1) * 6 - 180 + 3)
  let latRad := deg2rad lat
  let lonRad := deg2rad lon
  let lonOriginRad := deg2rad lonOrigin
  let eSquared ← L.square e
  let ePrimeSquared ← F64.pyDiv eSquared (F64.sub (num 1) eSquared)
  let s ← trig L.sin latRad
  let s2 ← L.square s
  let r ← F64.sqrt (F64.sub (num 1) (F64.mul eSquared s2))
  let N ← F64.pyDiv a r
  let t ← trig L.tan latRad
  let T ← L.square t
  let c ← trig L.cos latRad
  let c2 ← L.square c
  let C := F64.mul ePrimeSquared c2
  let A := F64.mul (F64.sub lonRad lonOriginRad) c
  let M ← meridian L eSquared latRad
  let x ← easting L N T C A ePrimeSquared
  let y ← northing L M N t T C A ePrimeSquared
  let k ← scaleFactor L T C A ePrimeSquared
  return { utm := ![x, y, alt], zone := zone, k := k }

/-- `GPS.ecef2utm`, /repo/opendis/RangeCoordinates.py:263-266. -/
noncomputable def ecef2utm (L : CMath) (ecef : Vec) : Option (Except PyErr Utm) :=
  match ecef2lla L.toLibm ecef defaultTolerance with
  | none => none
  | some (.error err) => some (.error err)
  | some (.ok lla) => some (lla2utm L lla)

/-- `WGS84.g0`, /repo/opendis/RangeCoordinates.py:99-107; the literals are the doubles nearest to 9.7803267715,
0.001931851353 and 0.0066943800229. -/
def g0 (P : Platform) (lat : F64) : Except PyErr F64 := do
  let s ← trig P.sin lat
  let s2 ← P.square s
  let r ← F64.sqrt (F64.sub (num 1) (F64.mul (BitVec.ofNat 64 0x3F7B6B90F43EE0EF) s2))
  F64.pyDiv (F64.mul (BitVec.ofNat 64 0x40238F86FD979250)
    (F64.add (num 1) (F64.mul (BitVec.ofNat 64 0x3F5FA6C5987087F4) s2))) r

end Dis.Dbl
