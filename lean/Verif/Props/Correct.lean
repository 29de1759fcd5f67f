import Verif.Proof.Coordinates64
import Verif.Proof.Correct
import Verif.Props.Rounding

/-!
# C62, C70: quotients and square roots are correctly rounded

The doubles of the model divide (/repo/opendis/RangeCoordinates.py:51) and take square roots (line 69) as IEEE 754 asks:
the result is the double nearest to the exact one, and the even one of two.
-/

set_option exponentiation.threshold 4096

namespace Dis

open Geo

/-- **C62.** No double is closer to the exact quotient than a finite quotient by a finite double; if another is as close,
the result is the one with the even last bit. -/
theorem C62_quotient_nearest (x y w : F64) (h : (F64.div x y).Finite) (hy : y.Finite) :
    |ofDouble (F64.div x y) - ofDouble x / ofDouble y| ≤ |ofDouble w - ofDouble x / ofDouble y| ∧
    (|ofDouble (F64.div x y) - ofDouble x / ofDouble y| = |ofDouble w - ofDouble x / ofDouble y| →
      ofDouble w ≠ ofDouble (F64.div x y) → (F64.div x y).frac % 2 = 0) := div_nearest h hy w

/-- **C70.** The square root of a positive double is finite and no double is closer to the exact root; if another is as
close, the result is the one with the even last bit. -/
theorem C70_sqrt_nearest (x w : F64) (hx : x.Finite) (h0 : 0 < ofDouble x) : ∃ y, F64.sqrt x = .ok y ∧ y.Finite ∧
    |ofDouble y - Real.sqrt (ofDouble x)| ≤ |ofDouble w - Real.sqrt (ofDouble x)| ∧
    (|ofDouble y - Real.sqrt (ofDouble x)| = |ofDouble w - Real.sqrt (ofDouble x)| → ofDouble w ≠ ofDouble y →
      y.frac % 2 = 0) := sqrt_nearest hx h0 w

/-! ## Examples -/

/-- A third: the two neighbours of the quotient are further away. -/
example : F64.div 0x3ff0000000000000 0x4008000000000000 = 0x3fd5555555555555 ∧
    |ofDouble 0x3fd5555555555555 - 1 / 3| ≤ |ofDouble 0x3fd5555555555554 - 1 / 3| ∧
    |ofDouble 0x3fd5555555555555 - 1 / 3| ≤ |ofDouble 0x3fd5555555555556 - 1 / 3| := by
  have e : F64.div 0x3ff0000000000000 0x4008000000000000 = 0x3fd5555555555555 := by decide +kernel
  have v1 : ofDouble 0x3ff0000000000000 = 1 := by
    rw [val_units (m := 1) 1074 0 (by decide +kernel) rfl]; norm_num
  have v3 : ofDouble 0x4008000000000000 = 3 := by
    rw [val_units (m := 3) 1074 0 (by decide +kernel) rfl]; norm_num
  have h (w : F64) := (C62_quotient_nearest 0x3ff0000000000000 0x4008000000000000 w
    (by rw [e]; exact show F64.expo _ ≠ 2047 by decide +kernel) (show F64.expo _ ≠ 2047 by decide +kernel)).1
  rw [e, v1, v3] at h
  exact ⟨e, h _, h _⟩

/-- The square root of 2: its neighbours are further away. -/
example : F64.sqrt 0x4000000000000000 = .ok 0x3ff6a09e667f3bcd ∧
    |ofDouble 0x3ff6a09e667f3bcd - Real.sqrt 2| ≤ |ofDouble 0x3ff6a09e667f3bcc - Real.sqrt 2| ∧
    |ofDouble 0x3ff6a09e667f3bcd - Real.sqrt 2| ≤ |ofDouble 0x3ff6a09e667f3bce - Real.sqrt 2| := by
  have e : F64.sqrt 0x4000000000000000 = .ok 0x3ff6a09e667f3bcd := by decide +kernel
  have v2 : ofDouble 0x4000000000000000 = 2 := by
    rw [val_units (m := 2) 1074 0 (by decide +kernel) rfl]; norm_num
  have h (w : F64) : |ofDouble 0x3ff6a09e667f3bcd - Real.sqrt 2| ≤ |ofDouble w - Real.sqrt 2| := by
    obtain ⟨y, e1, -, e2, -⟩ := C70_sqrt_nearest 0x4000000000000000 w (show F64.expo _ ≠ 2047 by decide +kernel)
      (by rw [v2]; norm_num)
    rw [e] at e1
    rw [v2] at e2
    cases e1
    exact e2
  exact ⟨e, h _, h _⟩

end Dis
