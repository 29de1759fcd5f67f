import Mathlib.Data.Real.Basic
import Verif.Spec.Float

/-!
# Values of doubles as real numbers
-/

namespace Dis.Geo

/-- The number a finite double stands for (values of '>d', /repo/opendis/stream.py:44). Infinities and
NaNs get a meaningless value. -/
noncomputable def ofDouble (x : F64) : ℝ := x.units / 2 ^ 1074

end Dis.Geo
