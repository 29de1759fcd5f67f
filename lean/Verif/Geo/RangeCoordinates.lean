import Verif.Py.Basic
import Verif.Geo.DeadReckoning
import Mathlib.Analysis.SpecialFunctions.Complex.Arg

/-!
# `opendis/RangeCoordinates.py`

Names follow the Python functions and methods; `self` is dropped, the methods of `GPS` and `WGS84` use
only class constants. Simplifications, for the whole file: floats are real numbers (no rounding, no
infinities, NaNs or signed zeros), decimal constants are the exact decimals, and points and vectors
have exactly three components. Division by zero and square roots of negative numbers raise in Python;
they are modelled where they can happen (`ecef2lla`) and are impossible elsewhere: the divisors are
`pi`, numerals, and square roots of `1 - (e sin lat)^2`, which is positive because `e < 1`
(`Verif/Proof/Ellipsoid.lean`).
-/

namespace Dis.Geo

open Matrix

/-- `deg2rad`, /repo/opendis/RangeCoordinates.py:49-51. -/
noncomputable def deg2rad (deg : ℝ) : ℝ := deg * Real.pi / 180

/-- `rad2deg`, /repo/opendis/RangeCoordinates.py:54-56. -/
noncomputable def rad2deg (rad : ℝ) : ℝ := rad * 180 / Real.pi

/-- The loop of `euclideanDistance` over the indices that are left, `total` being the sum so far,
/repo/opendis/RangeCoordinates.py:64-68. Walking both lists together stands for indexing them;
`dataRef` running out first is the `IndexError`. -/
def euclideanDistanceLoop : ℝ → List ℝ → Option (List ℝ) → Except PyErr ℝ
  | total, [], _ => .ok total
  | total, d :: data, none => euclideanDistanceLoop (total + d ^ 2) data none
  | total, d :: data, some (r :: dataRef) => euclideanDistanceLoop (total + (d - r) ^ 2) data (some dataRef)
  | _, _ :: _, some [] => .error .indexError

/-- `euclideanDistance`, /repo/opendis/RangeCoordinates.py:59-69. -/
noncomputable def euclideanDistance (data : List ℝ) (dataRef : Option (List ℝ)) : Except PyErr ℝ :=
  match euclideanDistanceLoop 0 data dataRef with
  | .error e => .error e
  | .ok total => .ok (Real.sqrt total)

/-- `math.atan2(y, x)`, the angle of the point (x, y), as used at /repo/opendis/RangeCoordinates.py:128. -/
noncomputable def atan2 (y x : ℝ) : ℝ := Complex.arg ⟨x, y⟩

/-! ## Class `WGS84` -/

namespace WGS84

/-- `WGS84.a`, /repo/opendis/RangeCoordinates.py:76. -/
noncomputable def a : ℝ := 6378137.0

/-- `WGS84.b`, /repo/opendis/RangeCoordinates.py:79. -/
noncomputable def b : ℝ := 6356752.3142

/-- `WGS84.f`, /repo/opendis/RangeCoordinates.py:82. -/
noncomputable def f : ℝ := (a - b) / a

/-- `WGS84.e`, /repo/opendis/RangeCoordinates.py:85. -/
noncomputable def e : ℝ := Real.sqrt (f * (2 - f))

/-- `WGS84.g0`, /repo/opendis/RangeCoordinates.py:99-107. -/
noncomputable def g0 (L : ℝ) : ℝ :=
  9.7803267715 * (1 + 0.001931851353 * Real.sin L ^ 2) / Real.sqrt (1 - 0.0066943800229 * Real.sin L ^ 2)

end WGS84

open WGS84

/-! ## Class `GPS` -/

/-- Python's rounding to the nearest integer, ties to even: what `round(x, 2)` at
/repo/opendis/RangeCoordinates.py:140-143 does to `100 * x`. -/
noncomputable def roundHalfEven (x : ℝ) : ℤ :=
  if x - ⌊x⌋ < 1 / 2 then ⌊x⌋
  else if 1 / 2 < x - ⌊x⌋ then ⌊x⌋ + 1
  else if ⌊x⌋ % 2 = 0 then ⌊x⌋ else ⌊x⌋ + 1

/-- `round(x, 2)`, /repo/opendis/RangeCoordinates.py:140-143. -/
noncomputable def round2 (x : ℝ) : ℝ := roundHalfEven (100 * x) / 100

/-- The variables the loop of `ecef2lla` changes, /repo/opendis/RangeCoordinates.py:131-135. -/
structure LoopState where
  lat : ℝ
  previousLat : ℝ
  N : ℝ
  alt : ℝ

/-- Their initial values, /repo/opendis/RangeCoordinates.py:131-135. -/
noncomputable def ecef2lla_init : LoopState := { lat := 0, previousLat := 90, N := a, alt := 0 }

/-- The loop body, /repo/opendis/RangeCoordinates.py:150-154: line 151 can divide by zero, line 153
can take the root of a negative number or divide by zero. Lines 152 and 154 cannot: `p` is positive
off the polar axis and the cosine of an arctangent is positive. -/
noncomputable def ecef2lla_body (p z : ℝ) (s : LoopState) : Except PyErr LoopState :=
  let previousLat := s.lat
  if s.N * (1 - e ^ 2) + s.alt = 0 then .error .zeroDivisionError
  else
    let sinLat := z / (s.N * (1 - e ^ 2) + s.alt)
    let lat := Real.arctan ((z + e ^ 2 * s.N * sinLat) / p)
    if 1 - (e * sinLat) ^ 2 < 0 then .error .valueError
    else if Real.sqrt (1 - (e * sinLat) ^ 2) = 0 then .error .zeroDivisionError
    else
      let N := a / Real.sqrt (1 - (e * sinLat) ^ 2)
      let alt := p / Real.cos lat - N
      .ok { lat := lat, previousLat := previousLat, N := N, alt := alt }

/-- The state after running the body `n` times, the test of the `while` left aside,
/repo/opendis/RangeCoordinates.py:149-154. -/
noncomputable def ecef2lla_after (p z : ℝ) : ℕ → Except PyErr LoopState
  | 0 => .ok ecef2lla_init
  | n + 1 =>
    match ecef2lla_after p z n with
    | .error err => .error err
    | .ok s => ecef2lla_body p z s

/-- The loop is left after `n` rounds: the body raised, or the test at
/repo/opendis/RangeCoordinates.py:149 is false. -/
def ecef2lla_leaves (p z tolerance : ℝ) (n : ℕ) : Prop :=
  match ecef2lla_after p z n with
  | .error _ => True
  | .ok s => ¬ |s.lat - s.previousLat| ≥ tolerance

open Classical in
/-- The `while` loop, /repo/opendis/RangeCoordinates.py:149-154: it ends with the first `n` at which it is
left, and `none` stands for running forever. -/
noncomputable def ecef2lla_loop (p z tolerance : ℝ) : Option (Except PyErr LoopState) :=
  if h : ∃ n, ecef2lla_leaves p z tolerance n then some (ecef2lla_after p z (Nat.find h)) else none

open Classical in
/-- `GPS.ecef2lla`, /repo/opendis/RangeCoordinates.py:117-157, returning (lat, lon, alt); `none` if it does
not return. -/
noncomputable def ecef2lla (ecef : Vec) (tolerance : ℝ) : Option (Except PyErr Vec) :=
  let x := ecef 0
  let y := ecef 1
  let z := ecef 2
  let lon := atan2 y x
  let p := Real.sqrt (x ^ 2 + y ^ 2)
  if x = 0 ∧ y = 0 then
    if z > 0 then some (.ok ![90, 69, round2 (z - b)])
    else if z < 0 then some (.ok ![-90, 69, round2 (-z - b)])
    else some (.error .exception)
  else
    match ecef2lla_loop p z tolerance with
    | none => none
    | some (.error err) => some (.error err)
    | some (.ok s) => some (.ok ![rad2deg s.lat, rad2deg lon, s.alt])

/-- The default `tolerance` of `ecef2lla`, /repo/opendis/RangeCoordinates.py:117. -/
noncomputable def defaultTolerance : ℝ := 1e-9

/-- `GPS.transpose` of a vector, /repo/opendis/RangeCoordinates.py:533-539: a 3x1 array. -/
def transpose3 (arr : Vec) : Matrix (Fin 3) (Fin 1) ℝ := !![arr 0; arr 1; arr 2]

/-- `GPS.rotate_3x3`, /repo/opendis/RangeCoordinates.py:506-530, for a one-dimensional `normal_vec`; the
product at line 528 broadcasts (3,) against (3, 1). -/
noncomputable def rotate_3x3 (theta : ℝ) (normal_vec : Vec) : Mat :=
  let n_x : Mat := !![0, -normal_vec 2, normal_vec 1;
                      normal_vec 2, 0, -normal_vec 0;
                      -normal_vec 1, normal_vec 0, 0]
  let nnt : Mat := Matrix.of fun i j => normal_vec j * transpose3 normal_vec i 0
  (1 - Real.cos theta) • nnt + Real.cos theta • (1 : Mat) + Real.sin theta • n_x

/-- `GPS.ecefvec2nedvec`, /repo/opendis/RangeCoordinates.py:269-290. -/
noncomputable def ecefvec2nedvec (lat lon : ℝ) : Mat :=
  !![-Real.sin lat * Real.cos lon, -Real.sin lat * Real.sin lon, Real.cos lat;
     -Real.sin lon, Real.cos lon, 0;
     -Real.cos lat * Real.cos lon, -Real.cos lat * Real.sin lon, -Real.sin lat]

/-- `GPS.ecef2llarpy`, /repo/opendis/RangeCoordinates.py:160-232, returning ((lat, lon, alt),
(roll, pitch, yaw)); it calls `ecef2lla` with the default tolerance. `z3` (line 213) is not used
and left out. -/
noncomputable def ecef2llarpy (X Y Z psi theta phi : ℝ) : Option (Except PyErr (Vec × Vec)) :=
  match ecef2lla ![X, Y, Z] defaultTolerance with
  | none => none
  | some (.error err) => some (.error err)
  | some (.ok lla) =>
    let lat := lla 0
    let lon := lla 1
    let alt := lla 2
    let x0 : Vec := ![1, 0, 0]
    let y0 : Vec := ![0, 1, 0]
    let z0 : Vec := ![0, 0, 1]
    let rot_array_1 := rotate_3x3 psi z0
    let x1 := rot_array_1 *ᵥ x0
    let y1 := rot_array_1 *ᵥ y0
    let rot_array_2 := rotate_3x3 theta y1
    let x2 := rot_array_2 *ᵥ x1
    let y2 := rot_array_2 *ᵥ y1
    let rot_array_3 := rotate_3x3 phi x2
    let x3 := rot_array_3 *ᵥ x2
    let y3 := rot_array_3 *ᵥ y2
    let a0 := ecefvec2nedvec (deg2rad lat) (deg2rad lon)
    let X0 : Vec := a0 0
    let Y0 : Vec := a0 1
    let Z0 : Vec := a0 2
    let yaw := atan2 (x3 ⬝ᵥ Y0) (x3 ⬝ᵥ X0)
    let pitch := atan2 (-(x3 ⬝ᵥ Z0)) (Real.sqrt ((x3 ⬝ᵥ X0) ^ 2 + (x3 ⬝ᵥ Y0) ^ 2))
    let Y2 := rotate_3x3 yaw Z0 *ᵥ Y0
    let Z2 := rotate_3x3 pitch Y2 *ᵥ Z0
    let roll := atan2 (y3 ⬝ᵥ Z2) (y3 ⬝ᵥ Y2)
    some (.ok (![deg2rad lat, deg2rad lon, alt], ![roll, pitch, yaw]))

/-- `GPS.ecef2ned`, /repo/opendis/RangeCoordinates.py:235-248. -/
noncomputable def ecef2ned (ecef origin : Vec) : Option (Except PyErr Vec) :=
  match ecef2lla origin defaultTolerance with
  | none => none
  | some (.error err) => some (.error err)
  | some (.ok llaOrigin) =>
    let lat := deg2rad (llaOrigin 0)
    let lon := deg2rad (llaOrigin 1)
    let Re2t : Mat :=
      !![-Real.sin lat * Real.cos lon, -Real.sin lat * Real.sin lon, Real.cos lat;
         -Real.sin lon, Real.cos lon, 0;
         -Real.cos lat * Real.cos lon, -Real.cos lat * Real.sin lon, -Real.sin lat]
    some (.ok (Re2t *ᵥ (ecef - origin)))

/-- `GPS.ned2pae`, /repo/opendis/RangeCoordinates.py:494-503. -/
noncomputable def ned2pae (ned : Vec) : Except PyErr Vec :=
  match euclideanDistance [ned 0, ned 1, ned 2] none with
  | .error err => .error err
  | .ok p =>
    let alpha := atan2 (ned 1) (ned 0)
    let epsilon := atan2 (-ned 2) (Real.sqrt (ned 0 ^ 2 + ned 1 ^ 2))
    .ok ![p, rad2deg alpha, rad2deg epsilon]

/-- `GPS.ecef2pae`, /repo/opendis/RangeCoordinates.py:251-260. -/
noncomputable def ecef2pae (ecef origin : Vec) : Option (Except PyErr Vec) :=
  match ecef2ned ecef origin with
  | none => none
  | some (.error err) => some (.error err)
  | some (.ok ned) => some (ned2pae ned)

/-- `GPS.lla2ecef`, /repo/opendis/RangeCoordinates.py:293-313. -/
noncomputable def lla2ecef (lla : Vec) : Vec :=
  let lat := deg2rad (lla 0)
  let lon := deg2rad (lla 1)
  let alt := lla 2
  let N := a / Real.sqrt (1 - (e * Real.sin lat) ^ 2)
  let x := (N + alt) * Real.cos lat * Real.cos lon
  let y := (N + alt) * Real.cos lat * Real.sin lon
  let z := (N * (1 - e ^ 2) + alt) * Real.sin lat
  ![x, y, z]

/-- `GPS.lla2gcc`, /repo/opendis/RangeCoordinates.py:316-329. `geoOrigin` is `none` for the empty string
and otherwise the list of numbers in it; a part that is not a number (a `ValueError` too) is not
modelled. Unpacking at line 322 raises unless there are exactly three. -/
noncomputable def lla2gcc (lla : Vec) (geoOrigin : Option (List ℝ)) : Except PyErr Vec :=
  match geoOrigin with
  | some [lon0, lat0, a0] => .ok (lla2ecef lla - lla2ecef ![lat0, lon0, a0])
  | some _ => .error .valueError
  | none => .ok (lla2ecef lla - ![0, 0, 0])

/-- `int(x)` of a float: truncation towards zero, as used at /repo/opendis/RangeCoordinates.py:346. -/
noncomputable def truncate (x : ℝ) : ℤ := if 0 ≤ x then ⌊x⌋ else ⌈x⌉

open Classical in
/-- `GPS.utmLetterDesignator`, /repo/opendis/RangeCoordinates.py:542-564. -/
noncomputable def utmLetterDesignator (lat : ℝ) : Char :=
  if -80 ≤ lat ∧ lat < -72 then 'C'
  else if -72 ≤ lat ∧ lat < -64 then 'D'
  else if -64 ≤ lat ∧ lat < -56 then 'E'
  else if -56 ≤ lat ∧ lat < -48 then 'F'
  else if -48 ≤ lat ∧ lat < -40 then 'G'
  else if -40 ≤ lat ∧ lat < -32 then 'H'
  else if -32 ≤ lat ∧ lat < -24 then 'J'
  else if -24 ≤ lat ∧ lat < -16 then 'K'
  else if -16 ≤ lat ∧ lat < -8 then 'L'
  else if -8 ≤ lat ∧ lat < 0 then 'M'
  else if 0 ≤ lat ∧ lat < 8 then 'N'
  else if 8 ≤ lat ∧ lat < 16 then 'P'
  else if 16 ≤ lat ∧ lat < 24 then 'Q'
  else if 24 ≤ lat ∧ lat < 32 then 'R'
  else if 32 ≤ lat ∧ lat < 40 then 'S'
  else if 40 ≤ lat ∧ lat < 48 then 'T'
  else if 48 ≤ lat ∧ lat < 56 then 'U'
  else if 56 ≤ lat ∧ lat < 64 then 'V'
  else if 64 ≤ lat ∧ lat < 72 then 'W'
  else if 72 ≤ lat ∧ lat < 80 then 'X'
  else 'Z'

open Classical in
/-- The zone number computed by `GPS.lla2utm`, /repo/opendis/RangeCoordinates.py:345-355. -/
noncomputable def zoneNumber (lat lon : ℝ) : ℤ :=
  let zone₁ : ℤ := truncate ((lon + 180) / 6) + 1
  let zone₂ : ℤ := if (56 ≤ lat ∧ lat < 64) ∧ (3 ≤ lon ∧ lon < 12) then 32 else zone₁
  if 72 ≤ lat ∧ lat < 84 then
    if 0 ≤ lon ∧ lon < 9 then 31
    else if 9 ≤ lon ∧ lon < 21 then 33
    else if 21 ≤ lon ∧ lon < 33 then 35
    else if 33 ≤ lon ∧ lon < 42 then 37
    else zone₂
  else zone₂

/-- What `GPS.lla2utm` returns, /repo/opendis/RangeCoordinates.py:398-400. The zone string
(`"%d%c"`, line 357) is kept as the number and the letter. -/
structure Utm where
  /-- easting, northing, upping -/
  utm : Vec
  zone : ℤ × Char
  k : ℝ

/-- `GPS.lla2utm`, /repo/opendis/RangeCoordinates.py:332-400. At latitude ±90 Mathlib's `tan` is 0 where
Python's is about 1.6e16; both are multiplied by powers of the cosine, 0 here and about 6e-17 there. -/
noncomputable def lla2utm (lla : Vec) : Utm :=
  let lat := lla 0
  let lon := lla 1
  let alt := lla 2
  let zoneNumber := zoneNumber lat lon
  let zone := (zoneNumber, utmLetterDesignator lat)
  let lonOrigin : ℝ := (((zoneNumber - 1) * 6 - 180 + 3 : ℤ) : ℝ)
  let latRad := deg2rad lat
  let lonRad := deg2rad lon
  let lonOriginRad := deg2rad lonOrigin
  let k0 : ℝ := 0.9996
  let eSquared := e ^ 2
  let ePrimeSquared := eSquared / (1 - eSquared)
  let N := a / Real.sqrt (1 - eSquared * Real.sin latRad ^ 2)
  let T := Real.tan latRad ^ 2
  let C := ePrimeSquared * Real.cos latRad ^ 2
  let A := (lonRad - lonOriginRad) * Real.cos latRad
  let M := a * ((1 - eSquared / 4 - 3 * eSquared ^ 2 / 64 - 5 * eSquared ^ 3 / 256) * latRad
    - (3 * eSquared / 8 + 3 * eSquared ^ 2 / 32 + 45 * eSquared ^ 3 / 1024) * Real.sin (2 * latRad)
    + (15 * eSquared ^ 2 / 256 + 45 * eSquared ^ 3 / 1024) * Real.sin (4 * latRad)
    - (35 * eSquared ^ 3 / 3072) * Real.sin (6 * latRad))
  let M0 : ℝ := 0
  let x := k0 * N * (A + (1 - T + C) * A ^ 3 / 6
    + (5 - 18 * T + T ^ 2 + 72 * C - 58 * ePrimeSquared) * A ^ 5 / 120) + 500000
  let y := k0 * (M - M0 + N * Real.tan latRad * (A ^ 2 / 2
    + (5 - T + 9 * C + 4 * C ^ 2) * A ^ 4 / 24
    + (61 - 58 * T + T ^ 2 + 600 * C - 330 * ePrimeSquared) * A ^ 6 / 720))
  let k := k0 * (1 + (1 + C) * A ^ 2 / 2
    + (5 - 4 * T + 42 * C + 13 * C ^ 2 - 28 * ePrimeSquared) * A ^ 4 / 24
    + (61 - 148 * T + 16 * T ^ 2) * A ^ 6 / 720)
  { utm := ![x, y, alt], zone := zone, k := k }

/-- `GPS.ecef2utm`, /repo/opendis/RangeCoordinates.py:263-266. -/
noncomputable def ecef2utm (ecef : Vec) : Option (Except PyErr Utm) :=
  match ecef2lla ecef defaultTolerance with
  | none => none
  | some (.error err) => some (.error err)
  | some (.ok lla) => some (.ok (lla2utm lla))

/-- `GPS.llarpy2ecef`, /repo/opendis/RangeCoordinates.py:403-476, returning ((X, Y, Z),
(psi, theta, phi)). `z3` (line 459) is not used and left out. -/
noncomputable def llarpy2ecef (lat lon alt roll pitch yaw : ℝ) : Vec × Vec :=
  let XYZ := lla2ecef ![rad2deg lat, rad2deg lon, alt]
  let a0 := ecefvec2nedvec lat lon
  let x0 : Vec := a0 0
  let y0 : Vec := a0 1
  let z0 : Vec := a0 2
  let rot_array_1 := rotate_3x3 yaw z0
  let x1 := rot_array_1 *ᵥ x0
  let y1 := rot_array_1 *ᵥ y0
  let rot_array_2 := rotate_3x3 pitch y1
  let x2 := rot_array_2 *ᵥ x1
  let y2 := rot_array_2 *ᵥ y1
  let rot_array_3 := rotate_3x3 roll x2
  let x3 := rot_array_3 *ᵥ x2
  let y3 := rot_array_3 *ᵥ y2
  let X0 : Vec := ![1, 0, 0]
  let Y0 : Vec := ![0, 1, 0]
  let Z0 : Vec := ![0, 0, 1]
  let psi := atan2 (x3 ⬝ᵥ Y0) (x3 ⬝ᵥ X0)
  let theta := atan2 (-(x3 ⬝ᵥ Z0)) (Real.sqrt ((x3 ⬝ᵥ X0) ^ 2 + (x3 ⬝ᵥ Y0) ^ 2))
  let Y2 := rotate_3x3 psi Z0 *ᵥ Y0
  let Z2 := rotate_3x3 theta Y2 *ᵥ Z0
  let phi := atan2 (y3 ⬝ᵥ Z2) (y3 ⬝ᵥ Y2)
  (XYZ, ![psi, theta, phi])

/-- `GPS.ned2ecef`, /repo/opendis/RangeCoordinates.py:479-492. -/
noncomputable def ned2ecef (ned origin : Vec) : Option (Except PyErr Vec) :=
  match ecef2lla origin defaultTolerance with
  | none => none
  | some (.error err) => some (.error err)
  | some (.ok llaOrigin) =>
    let lat := deg2rad (llaOrigin 0)
    let lon := deg2rad (llaOrigin 1)
    let Rt2e : Mat :=
      !![-Real.sin lat * Real.cos lon, -Real.sin lon, -Real.cos lat * Real.cos lon;
         -Real.sin lat * Real.sin lon, Real.cos lon, -Real.cos lat * Real.sin lon;
         Real.cos lat, 0, -Real.sin lat]
    some (.ok (Rt2e *ᵥ ned + origin))

end Dis.Geo
