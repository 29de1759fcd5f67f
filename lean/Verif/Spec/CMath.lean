import Verif.Model.RangeUtm
import Verif.Spec.Libm

/-!
# What is assumed of the C library: `pow`

As in `Verif.Spec.Platform`.
-/

namespace Dis.Dbl

open Geo

/-- `x ** n`, for `n` from 3 to 6, of moderate numbers returns a finite double and errs by at most 2^-52 of the result,
or 2^-1074 (/repo/opendis/RangeCoordinates.py:372-397). -/
def CMath.PowOk (L : CMath) : Prop :=
  ∀ (x : F64) (n : ℕ), 3 ≤ n → n ≤ 6 → x.Finite → |ofDouble x| ≤ 2 ^ 100 →
    ∃ y, L.pow x n = .ok y ∧ y.Finite ∧
      |ofDouble y - ofDouble x ^ n| ≤ 1 / 2 ^ 52 * |ofDouble x ^ n| + 1 / 2 ^ 1074

/-- What `lla2utm` needs of the C library (/repo/opendis/RangeCoordinates.py:45-46). -/
structure CMath.Accurate (L : CMath) : Prop where
  square : L.SquareOk
  squareReturns : L.SquareReturns
  trig : L.TrigOk
  pow : L.PowOk

end Dis.Dbl
