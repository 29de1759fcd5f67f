import Verif.Spec

/-!
# Values of floating-point patterns

Every finite binary64 (and binary32) value is a whole multiple of 2^-1074, so values are written as
integers in that unit.
-/

namespace Dis

/-- Neither infinite nor a NaN (values of '>d', /repo/opendis/stream.py:44). -/
def F64.Finite (x : F64) : Prop := x.expo ≠ 2047

/-- Neither infinite nor a NaN (values of '>f', /repo/opendis/stream.py:47). -/
def F32.Finite (y : F32) : Prop := y.expo ≠ 255

/-- Plus or minus infinity (values of '>d', /repo/opendis/stream.py:44). -/
def F64.Infinite (x : F64) : Prop := x.expo = 2047 ∧ x.frac = 0

/-- Magnitude of a finite binary64 in units of 2^-1074: significand (with the hidden bit of normal
numbers) times a power of two (/repo/opendis/stream.py:44). -/
def F64.mag (x : F64) : Nat :=
  (if x.expo = 0 then x.frac else 2 ^ 52 + x.frac) * 2 ^ (max x.expo 1 - 1)

/-- Magnitude of a finite binary32 in units of 2^-1074; its own unit is 2^-149
(/repo/opendis/stream.py:47). -/
def F32.mag (y : F32) : Nat :=
  (if y.expo = 0 then y.frac else 2 ^ 23 + y.frac) * 2 ^ (max y.expo 1 - 1) * 2 ^ 925

/-- Value of a finite binary64 in units of 2^-1074 (/repo/opendis/stream.py:44). -/
def F64.units (x : F64) : Int := if x.sign = 1 then -(x.mag : Int) else x.mag

/-- Value of a finite binary32 in units of 2^-1074 (/repo/opendis/stream.py:47). -/
def F32.units (y : F32) : Int := if y.sign = 1 then -(y.mag : Int) else y.mag

end Dis
