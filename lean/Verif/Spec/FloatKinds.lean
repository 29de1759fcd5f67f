import Verif.Spec.Float

/-!
# Kinds of doubles (C62)
-/

namespace Dis

/-- Not a number (values of '>d', /repo/opendis/stream.py:44). -/
def F64.NaN (x : F64) : Prop := x.expo = 2047 ∧ x.frac ≠ 0

/-- Plus or minus zero (values of '>d', /repo/opendis/stream.py:44). -/
def F64.Zero (x : F64) : Prop := x.expo = 0 ∧ x.frac = 0

/-- The sign of a product or quotient (/repo/opendis/DeadReckoning.py:140). -/
def F64.signOf (x y : F64) : Nat := if x.sign = y.sign then 0 else 1

end Dis
