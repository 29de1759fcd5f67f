import Verif.Model.RangeCoordinates

/-!
# `opendis/RangeCoordinates.py` in floating point: local frames and attitudes

Continues `Verif/Model/RangeCoordinates.lean`. Arrays have the shapes the callers give them: vectors of length 3
and 3x3 matrices of doubles. Arrays of integers (`array([1, 0, 0])`) are the same numbers as doubles: numpy
converts them before it multiplies them with doubles, and the sign of a zero does not survive the additions in
`rotate_3x3`.

The product of two vectors is left to a BLAS library like that of a matrix and a vector, so it is a
parameter.
-/

namespace Dis.Dbl

/-- What /repo/opendis/RangeCoordinates.py uses of numpy, besides `matvec` of `Platform` (`dot` of a matrix and a vector,
line 195): `dot` of two vectors (line 222). -/
structure Numpy extends Libm where
  dot : Vec → Vec → F64

/-- `array([1, 0, 0])`, `array([0, 1, 0])`, `array([0, 0, 1])`, /repo/opendis/RangeCoordinates.py:187-189, :461-463. -/
def unit (i : Fin 3) : Vec := fun j => if j = i then num 1 else num 0

/-- `n_x` of `rotate_3x3`, /repo/opendis/RangeCoordinates.py:521-525. -/
def skew (n : Vec) : Mat := fun i => match i with
  | 0 => fun j => match j with | 0 => num 0 | 1 => F64.neg (n 2) | 2 => n 1
  | 1 => fun j => match j with | 0 => n 2 | 1 => num 0 | 2 => F64.neg (n 0)
  | 2 => fun j => match j with | 0 => F64.neg (n 1) | 1 => n 0 | 2 => num 0

/-- `GPS.rotate_3x3`, /repo/opendis/RangeCoordinates.py:506-530, for a one-dimensional `normal_vec`; the
product at line 528 broadcasts (3,) against (3, 1). -/
def rotate_3x3 (P : Platform) (theta : F64) (normal_vec : Vec) : Except PyErr Mat := do
  let c ← trig P.cos theta
  let s ← trig P.sin theta
  return fun i j =>
    F64.add
      (F64.add (F64.mul (F64.sub (num 1) c) (F64.mul (normal_vec j) (normal_vec i))) (F64.mul c (unit i j)))
      (F64.mul s (skew normal_vec i j))

/-- `GPS.ecefvec2nedvec`, /repo/opendis/RangeCoordinates.py:269-290. -/
def ecefvec2nedvec (P : Platform) (lat lon : F64) : Except PyErr Mat := do
  let s ← trig P.sin lat
  let cl ← trig P.cos lon
  let sl ← trig P.sin lon
  let c ← trig P.cos lat
  return fun i => match i with
    | 0 => fun j => match j with
      | 0 => F64.mul (F64.neg s) cl | 1 => F64.mul (F64.neg s) sl | 2 => c
    | 1 => fun j => match j with | 0 => F64.neg sl | 1 => cl | 2 => num 0
    | 2 => fun j => match j with
      | 0 => F64.mul (F64.neg c) cl | 1 => F64.mul (F64.neg c) sl | 2 => F64.neg s

/-- The same three rotations in both directions, /repo/opendis/RangeCoordinates.py:191-213 and :437-459: the axes
`x3` and `y3` of a frame turned by `yaw` about its third axis, then `pitch` about its second, then `roll` about its first.
`z3` is not used and left out. -/
def turned (P : Platform) (yaw pitch roll : F64) (x0 y0 z0 : Vec) : Except PyErr (Vec × Vec) := do
  let rot_array_1 ← rotate_3x3 P yaw z0
  let x1 := P.matvec rot_array_1 x0
  let y1 := P.matvec rot_array_1 y0
  let rot_array_2 ← rotate_3x3 P pitch y1
  let x2 := P.matvec rot_array_2 x1
  let y2 := P.matvec rot_array_2 y1
  let rot_array_3 ← rotate_3x3 P roll x2
  let x3 := P.matvec rot_array_3 x2
  let y3 := P.matvec rot_array_3 y2
  return (x3, y3)

/-- The angles `(first, second, third)` by which the frame `X0`, `Y0`, `Z0` is turned to `x3`, `y3`:
/repo/opendis/RangeCoordinates.py:221-229 (yaw, pitch, roll) and :466-474 (psi, theta, phi). `** 2` is that of numpy, which
does not raise on overflow; the operands are not large enough for a difference. -/
def angles (L : Numpy) (x3 y3 X0 Y0 Z0 : Vec) : Except PyErr Vec := do
  let first := L.atan2 (L.dot x3 Y0) (L.dot x3 X0)
  let x2 ← L.square (L.dot x3 X0)
  let y2 ← L.square (L.dot x3 Y0)
  let r ← F64.sqrt (F64.add x2 y2)
  let second := L.atan2 (F64.neg (L.dot x3 Z0)) r
  let R1 ← rotate_3x3 L.toPlatform first Z0
  let Y2 := L.matvec R1 Y0
  let R2 ← rotate_3x3 L.toPlatform second Y2
  let Z2 := L.matvec R2 Z0
  let third := L.atan2 (L.dot y3 Z2) (L.dot y3 Y2)
  return ![first, second, third]

/-- `GPS.llarpy2ecef`, /repo/opendis/RangeCoordinates.py:403-476, returning ((X, Y, Z), (psi, theta, phi)). -/
def llarpy2ecef (L : Numpy) (lat lon alt roll pitch yaw : F64) : Except PyErr (Vec × Vec) := do
  let XYZ ← lla2ecef L.toPlatform ![rad2deg lat, rad2deg lon, alt]
  let a0 ← ecefvec2nedvec L.toPlatform lat lon
  let (x3, y3) ← turned L.toPlatform yaw pitch roll (a0 0) (a0 1) (a0 2)
  let euler ← angles L x3 y3 (unit 0) (unit 1) (unit 2)
  return (XYZ, euler)

/-- The part of `ecef2llarpy` after `ecef2lla` has returned, /repo/opendis/RangeCoordinates.py:184-232. -/
def ecef2llarpy_rest (L : Numpy) (lla : Vec) (psi theta phi : F64) : Except PyErr (Vec × Vec) := do
  let (x3, y3) ← turned L.toPlatform psi theta phi (unit 0) (unit 1) (unit 2)
  let a0 ← ecefvec2nedvec L.toPlatform (deg2rad (lla 0)) (deg2rad (lla 1))
  let ypr ← angles L x3 y3 (a0 0) (a0 1) (a0 2)
  return (![deg2rad (lla 0), deg2rad (lla 1), lla 2], ![ypr 2, ypr 1, ypr 0])

/-- `GPS.ecef2llarpy`, /repo/opendis/RangeCoordinates.py:160-232, returning ((lat, lon, alt), (roll, pitch, yaw)); it calls
`ecef2lla` with the default tolerance. -/
noncomputable def ecef2llarpy (L : Numpy) (X Y Z psi theta phi : F64) : Option (Except PyErr (Vec × Vec)) :=
  match ecef2lla L.toLibm ![X, Y, Z] defaultTolerance with
  | none => none
  | some (.error err) => some (.error err)
  | some (.ok lla) => some (ecef2llarpy_rest L lla psi theta phi)

/-- `GPS.ecef2ned`, /repo/opendis/RangeCoordinates.py:235-248. -/
noncomputable def ecef2ned (L : Libm) (ecef origin : Vec) : Option (Except PyErr Vec) :=
  match ecef2lla L origin defaultTolerance with
  | none => none
  | some (.error err) => some (.error err)
  | some (.ok llaOrigin) => some (do
    let Re2t ← ecefvec2nedvec L.toPlatform (deg2rad (llaOrigin 0)) (deg2rad (llaOrigin 1))
    return L.matvec Re2t (vsub ecef origin))

/-- `GPS.ned2pae`, /repo/opendis/RangeCoordinates.py:494-503, for a list of Python floats; numpy's floats, which `ecef2pae`
passes, differ only where `** 2` overflows. -/
def ned2pae (L : Libm) (ned : Vec) : Except PyErr Vec := do
  let p ← euclideanDistance L.toPlatform [ned 0, ned 1, ned 2]
  let alpha := L.atan2 (ned 1) (ned 0)
  let x2 ← L.square (ned 0)
  let y2 ← L.square (ned 1)
  let r ← F64.sqrt (F64.add x2 y2)
  let epsilon := L.atan2 (F64.neg (ned 2)) r
  return ![p, rad2deg alpha, rad2deg epsilon]

/-- `GPS.ecef2pae`, /repo/opendis/RangeCoordinates.py:251-260. -/
noncomputable def ecef2pae (L : Libm) (ecef origin : Vec) : Option (Except PyErr Vec) :=
  match ecef2ned L ecef origin with
  | none => none
  | some (.error err) => some (.error err)
  | some (.ok ned) => some (ned2pae L ned)

/-- `Rt2e` of `ned2ecef`, /repo/opendis/RangeCoordinates.py:489-491. -/
def nedvec2ecefvec (P : Platform) (lat lon : F64) : Except PyErr Mat := do
  let s ← trig P.sin lat
  let cl ← trig P.cos lon
  let sl ← trig P.sin lon
  let c ← trig P.cos lat
  return fun i => match i with
    | 0 => fun j => match j with
      | 0 => F64.mul (F64.neg s) cl | 1 => F64.neg sl | 2 => F64.mul (F64.neg c) cl
    | 1 => fun j => match j with
      | 0 => F64.mul (F64.neg s) sl | 1 => cl | 2 => F64.mul (F64.neg c) sl
    | 2 => fun j => match j with | 0 => c | 1 => num 0 | 2 => F64.neg s

/-- `GPS.ned2ecef`, /repo/opendis/RangeCoordinates.py:479-492. -/
noncomputable def ned2ecef (L : Libm) (ned origin : Vec) : Option (Except PyErr Vec) :=
  match ecef2lla L origin defaultTolerance with
  | none => none
  | some (.error err) => some (.error err)
  | some (.ok llaOrigin) => some (do
    let Rt2e ← nedvec2ecefvec L.toPlatform (deg2rad (llaOrigin 0)) (deg2rad (llaOrigin 1))
    return vadd (L.matvec Rt2e ned) origin)

end Dis.Dbl
