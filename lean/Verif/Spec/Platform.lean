import Mathlib.Analysis.SpecialFunctions.Trigonometric.Basic
import Verif.Model.DeadReckoning
import Verif.Spec.FloatReal

/-!
# What is assumed of the C library and of matrix products

Hypotheses of the theorems about rounding. Each bound is met with room to spare by a function that returns
one of the two doubles next to the exact result.
-/

namespace Dis.Dbl

open Geo

/-- `dt ** 2` errs by at most 2^-52 of the result, or 2^-1074 (/repo/opendis/DeadReckoning.py:232). -/
def Platform.SquareOk (P : Platform) : Prop :=
  ∀ t s : F64, t.Finite → P.square t = .ok s → s.Finite →
    |ofDouble s - ofDouble t ^ 2| ≤ 1 / 2 ^ 52 * ofDouble t ^ 2 + 1 / 2 ^ 1074

/-- `cos`, `sin` and `tan` of finite doubles are finite and err by at most 2^-52 of the result, or
2^-1074; for `tan` this is assumed only up to 2^1000 (/repo/opendis/DeadReckoning.py:57-62, :181-184). -/
structure Platform.TrigOk (P : Platform) : Prop where
  cos : ∀ x : F64, x.Finite → (P.cos x).Finite ∧
    |ofDouble (P.cos x) - Real.cos (ofDouble x)| ≤ 1 / 2 ^ 52 * |Real.cos (ofDouble x)| + 1 / 2 ^ 1074
  sin : ∀ x : F64, x.Finite → (P.sin x).Finite ∧
    |ofDouble (P.sin x) - Real.sin (ofDouble x)| ≤ 1 / 2 ^ 52 * |Real.sin (ofDouble x)| + 1 / 2 ^ 1074
  tan : ∀ x : F64, x.Finite → |Real.tan (ofDouble x)| ≤ 2 ^ 1000 → (P.tan x).Finite ∧
    |ofDouble (P.tan x) - Real.tan (ofDouble x)| ≤ 1 / 2 ^ 52 * |Real.tan (ofDouble x)| + 1 / 2 ^ 1074

/-- A component of `R @ v` errs by at most 2^-50 of the sum of the magnitudes of the three products, or
2^-1070: room for any order of the operations, with or without fused multiply-add
(/repo/opendis/DeadReckoning.py:286). -/
def Platform.MatvecOk (P : Platform) : Prop :=
  ∀ (R : Mat) (v : Vec) (i : Fin 3), (P.matvec R v i).Finite →
    (∀ j, (R i j).Finite ∧ (v j).Finite) ∧
    |ofDouble (P.matvec R v i) - (ofDouble (R i 0) * ofDouble (v 0) + ofDouble (R i 1) * ofDouble (v 1)
        + ofDouble (R i 2) * ofDouble (v 2))|
      ≤ 1 / 2 ^ 50 * (|ofDouble (R i 0) * ofDouble (v 0)| + |ofDouble (R i 1) * ofDouble (v 1)|
        + |ofDouble (R i 2) * ofDouble (v 2)|) + 1 / 2 ^ 1070

end Dis.Dbl
