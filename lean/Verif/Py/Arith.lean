import Verif.Spec.Float

/-!
# Floating-point arithmetic

IEEE 754 binary64 arithmetic, rounding to nearest, ties to even: what `+`, `-`, `*` and `/` of
Python floats and numpy's elementwise operations compute on the usual platforms
(/repo/opendis/DeadReckoning.py:66-78, :140, :166, :192-205, :232). Simplification: every NaN result is
the same quiet NaN. `Verif/Props/Rounding.lean` proves that the finite results are the nearest doubles.
-/

namespace Dis

namespace F64

/-- The NaN that stands for all NaN results (/repo/opendis/DeadReckoning.py:140). -/
def nan : F64 := mk 0 2047 (2 ^ 51)

/-- Infinity with a sign (/repo/opendis/DeadReckoning.py:140). -/
def inf (s : Nat) : F64 := mk s 2047 0

/-- Magnitude bits of the double nearest to `N / 2^k` units of 2^-1074, without an upper bound on the
exponent (/repo/opendis/DeadReckoning.py:140). The significand is rounded to 53 bits, or to a whole
number of units if that is coarser. -/
def roundMag (N k : Nat) : Nat :=
  let s := max k (N.log2 - 52)
  (s - k) * 2 ^ 52 + rne N s

/-- The double with a sign and magnitude bits; infinity if the bits are too large
(/repo/opendis/DeadReckoning.py:140). -/
def ofMag (s m : Nat) : F64 := if m < 2047 * 2 ^ 52 then BitVec.ofNat 64 (s * 2 ^ 63 + m) else inf s

/-- `x + y`, /repo/opendis/DeadReckoning.py:140. -/
def add (x y : F64) : F64 :=
  if x.expo = 2047 then
    if x.frac ≠ 0 then nan
    else if y.expo = 2047 then
      if y.frac ≠ 0 then nan else if x.sign = y.sign then x else nan
    else x
  else if y.expo = 2047 then
    if y.frac ≠ 0 then nan else y
  else
    let n := x.units + y.units
    if n = 0 then
      if x.sign = 1 ∧ y.sign = 1 then mk 1 0 0 else mk 0 0 0
    else ofMag (if n < 0 then 1 else 0) (roundMag n.natAbs 0)

/-- `x * y`, /repo/opendis/DeadReckoning.py:140. -/
def mul (x y : F64) : F64 :=
  let s := (x.sign + y.sign) % 2
  if x.expo = 2047 ∧ x.frac ≠ 0 ∨ y.expo = 2047 ∧ y.frac ≠ 0 then nan
  else if x.expo = 2047 ∨ y.expo = 2047 then
    if x.expo = 0 ∧ x.frac = 0 ∨ y.expo = 0 ∧ y.frac = 0 then nan else inf s
  else ofMag s (roundMag (x.mag * y.mag) 1074)

/-- `-x`, /repo/opendis/DeadReckoning.py:76. -/
def neg (x : F64) : F64 := mk (1 - x.sign) x.expo x.frac

/-- `x - y`, /repo/opendis/DeadReckoning.py:67. -/
def sub (x y : F64) : F64 := add x (neg y)

/-- `x / y` of numpy floats, /repo/opendis/DeadReckoning.py:199. Division by zero gives an infinity or
NaN and a warning, not an exception. The quotient is computed to a quarter of a unit; the last bit of
`2 * q + …` says whether something was cut off, which is enough to round correctly. -/
def div (x y : F64) : F64 :=
  let s := (x.sign + y.sign) % 2
  if x.expo = 2047 ∧ x.frac ≠ 0 ∨ y.expo = 2047 ∧ y.frac ≠ 0 then nan
  else if x.expo = 2047 then
    if y.expo = 2047 then nan else inf s
  else if y.expo = 2047 then mk s 0 0
  else if y.mag = 0 then
    if x.mag = 0 then nan else inf s
  else
    let q := x.mag * 2 ^ 1075 / y.mag
    let r := x.mag * 2 ^ 1075 % y.mag
    ofMag s (roundMag (2 * q + if r = 0 then 0 else 1) 2)

/-- `abs(x) < c` for a positive finite `c`, /repo/opendis/DeadReckoning.py:192. False for NaNs, whose
magnitude bits are above those of all other numbers. -/
def absLt (x c : F64) : Bool := decide (x.expo * 2 ^ 52 + x.frac < c.expo * 2 ^ 52 + c.frac)

/-- `float(n)` of an integer, as `struct.pack` applies it to the argument of a float format
(/repo/opendis/stream.py:122-134): the nearest double, ties to even, or nothing where Python raises
because the integer is too large. -/
@[irreducible] def ofInt (n : Int) : Option F64 :=
  let m := roundMag (n.natAbs * 2 ^ 1074) 0
  if m < 2047 * 2 ^ 52 then some (ofMag (if n < 0 then 1 else 0) m) else none

end F64

end Dis
