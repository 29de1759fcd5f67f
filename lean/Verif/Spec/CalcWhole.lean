import Verif.Spec.Calc

/-!
# Whole numbers in place of floats

Users write `0` for `0.0` (/repo/examples/dis_sender.py:34-37, /repo/tests/test_RangeCoordinates.py:114).
-/

namespace Dis.Calc

/-- A Python number that stands for the double `x`: the float itself, or an integer that Python converts to it (none
beyond the largest double). /repo/examples/dis_sender.py:34-37. -/
def IsNumber (v : Val) (x : F64) : Prop := v = .float x ∨ ∃ z, v = .int z ∧ Dbl.fromInt z = .ok x

/-- An integer here is one that doubles have exactly; larger ones are rounded once by `rad * 180` and once by the
multiplication of doubles, /repo/opendis/RangeCoordinates.py:56. -/
def Small (v : Val) : Prop := ∀ z, v = .int z → z.natAbs ≤ 2 ^ 53

end Dis.Calc
