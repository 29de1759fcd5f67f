import Mathlib.Analysis.SpecialFunctions.Trigonometric.Arctan
import Verif.Model.RangeFrames
import Verif.Geo.RangeCoordinates
import Verif.Spec.Platform

/-!
# What is assumed of the C library: inverse functions, squares

As in `Verif.Spec.Platform`; the bounds are those of a library that returns one of the two doubles next to the
exact result.
-/

namespace Dis.Dbl

open Geo

/-- `x ** 2` returns if the result is far from the largest double (/repo/opendis/RangeCoordinates.py:66). -/
def Platform.SquareReturns (P : Platform) : Prop :=
  ∀ t : F64, t.Finite → |ofDouble t| ≤ 2 ^ 500 → ∃ s, P.square t = .ok s ∧ s.Finite

/-- `x ** 2` of a zero is zero (/repo/opendis/RangeCoordinates.py:133). -/
def Platform.SquareZero (P : Platform) : Prop := ∀ x : F64, x.Finite → ofDouble x = 0 → P.square x = .ok 0

/-- `x ** 2` is not negative (/repo/opendis/RangeCoordinates.py:223). -/
def Platform.SquareNonneg (P : Platform) : Prop :=
  ∀ x s : F64, x.Finite → P.square x = .ok s → s.Finite → 0 ≤ ofDouble s

/-- `atan` and `atan2` of finite doubles are finite and err by at most 2^-52 of the result, or 2^-1074
(/repo/opendis/RangeCoordinates.py:128, :152). For `atan2` this is assumed except at the origin and where `y` is minus
zero. -/
structure Libm.ArcOk (L : Libm) : Prop where
  atan : ∀ x : F64, x.Finite → (L.atan x).Finite ∧
    |ofDouble (L.atan x) - Real.arctan (ofDouble x)| ≤ 1 / 2 ^ 52 * |Real.arctan (ofDouble x)| + 1 / 2 ^ 1074
  atan2 : ∀ y x : F64, y.Finite → x.Finite → (ofDouble y = 0 → y.sign = 0 ∧ ofDouble x ≠ 0) → (L.atan2 y x).Finite ∧
    |ofDouble (L.atan2 y x) - Geo.atan2 (ofDouble y) (ofDouble x)|
      ≤ 1 / 2 ^ 52 * |Geo.atan2 (ofDouble y) (ofDouble x)| + 1 / 2 ^ 1074

/-- `atan2` where `y` is a zero of either sign: at most 3.1416 in magnitude, and off the origin as above, except that it may
be the opposite angle (-π for minus zero) (/repo/opendis/RangeCoordinates.py:222-229). -/
def Libm.ArcZero (L : Libm) : Prop :=
  ∀ y x : F64, y.Finite → x.Finite → ofDouble y = 0 → (L.atan2 y x).Finite ∧ |ofDouble (L.atan2 y x)| ≤ 3.1416 ∧
    (ofDouble x ≠ 0 → ∃ a, (a = Geo.atan2 0 (ofDouble x) ∨ a = -Geo.atan2 0 (ofDouble x)) ∧
      |ofDouble (L.atan2 y x) - a| ≤ 1 / 2 ^ 52 * |a| + 1 / 2 ^ 1074)

/-- `dot` of a matrix and a vector of moderate numbers does not overflow (/repo/opendis/RangeCoordinates.py:195). -/
def Platform.MatvecFinite (P : Platform) : Prop :=
  ∀ (R : Mat) (v : Vec) (i : Fin 3),
    (∀ j, (R i j).Finite ∧ |ofDouble (R i j)| ≤ 2 ^ 400 ∧ (v j).Finite ∧ |ofDouble (v j)| ≤ 2 ^ 400) →
    (P.matvec R v i).Finite

/-- `dot` of two vectors of moderate numbers is finite and errs by at most 2^-50 of the sum of the magnitudes of the
three products, or 2^-1070 (/repo/opendis/RangeCoordinates.py:222). -/
def Numpy.DotOk (L : Numpy) : Prop :=
  ∀ u v : Vec, (∀ j, (u j).Finite ∧ |ofDouble (u j)| ≤ 2 ^ 400 ∧ (v j).Finite ∧ |ofDouble (v j)| ≤ 2 ^ 400) →
    (L.dot u v).Finite ∧
    |ofDouble (L.dot u v)
        - (ofDouble (u 0) * ofDouble (v 0) + ofDouble (u 1) * ofDouble (v 1) + ofDouble (u 2) * ofDouble (v 2))|
      ≤ 1 / 2 ^ 50 * (|ofDouble (u 0) * ofDouble (v 0)| + |ofDouble (u 1) * ofDouble (v 1)|
        + |ofDouble (u 2) * ofDouble (v 2)|) + 1 / 2 ^ 1070

/-- All of the above (/repo/opendis/RangeCoordinates.py:45-46). -/
structure Numpy.Accurate (L : Numpy) : Prop where
  square : L.SquareOk
  squareReturns : L.SquareReturns
  squareNonneg : L.SquareNonneg
  squareZero : L.SquareZero
  trig : L.TrigOk
  arc : L.ArcOk
  arcZero : L.ArcZero
  matvec : L.MatvecOk
  matvecFinite : L.MatvecFinite
  dot : L.DotOk

end Dis.Dbl
