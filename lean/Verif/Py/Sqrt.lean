import Verif.Py.Arith

/-!
# Square roots, divisions and comparisons of Python floats

`math.sqrt` is correctly rounded on platforms with IEEE 754 arithmetic. Python's `/` differs from
numpy's (`F64.div`): a zero divisor is a `ZeroDivisionError`.
-/

namespace Dis

namespace F64

/-- The whole part of the square root of a number below `4 ^ k`, a binary digit at a time (part of `math.sqrt`,
/repo/opendis/RangeCoordinates.py:69). -/
def isqrt : Nat → Nat → Nat
  | 0, _ => 0
  | k + 1, A =>
    let r := 2 * isqrt k (A / 4)
    if (r + 1) * (r + 1) ≤ A then r + 1 else r

/-- The root of a magnitude in units of 2^-1074, as magnitude bits: computed to half a unit, and the last bit says
whether something was cut off, which is enough to round correctly (/repo/opendis/RangeCoordinates.py:69). -/
def sqrtMag (m : Nat) : Nat :=
  let A := m * 2 ^ 1076
  let q := isqrt (A.log2 / 2 + 1) A
  roundMag (2 * q + if q * q = A then 0 else 1) 2

/-- `math.sqrt`, /repo/opendis/RangeCoordinates.py:69: `ValueError` for negative numbers. -/
def sqrt (x : F64) : Except PyErr F64 :=
  if x.expo = 2047 ∧ x.frac ≠ 0 then .ok nan
  else if x.mag = 0 then .ok x
  else if x.sign = 1 then .error .valueError
  else if x.expo = 2047 then .ok x
  else .ok (ofMag 0 (sqrtMag x.mag))

/-- `x / y` of Python floats, e.g. /repo/opendis/RangeCoordinates.py:51. -/
def pyDiv (x y : F64) : Except PyErr F64 := if y.mag = 0 then .error .zeroDivisionError else .ok (div x y)

/-- Not a number (semantics of the comparisons at /repo/opendis/RangeCoordinates.py:138-149). -/
def isNan (x : F64) : Bool := decide (x.expo = 2047 ∧ x.frac ≠ 0)

/-- `x < y`, /repo/opendis/RangeCoordinates.py:142. False if one is a NaN; `units` orders infinities beyond all
numbers. -/
def lt (x y : F64) : Bool := !x.isNan && !y.isNan && decide (x.units < y.units)

/-- `x <= y`, /repo/opendis/RangeCoordinates.py:149. -/
def le (x y : F64) : Bool := !x.isNan && !y.isNan && decide (x.units ≤ y.units)

/-- `abs(x)`, /repo/opendis/RangeCoordinates.py:149. -/
def abs (x : F64) : F64 := mk 0 x.expo x.frac

end F64

end Dis
