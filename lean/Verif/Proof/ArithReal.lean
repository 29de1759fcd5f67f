import Mathlib.Tactic.Linarith
import Mathlib.Tactic.Positivity
import Mathlib.Tactic.FieldSimp
import Mathlib.Tactic.NormNum
import Mathlib.Tactic.Ring
import Verif.Spec.FloatReal
import Verif.Proof.Arith

/-!
# Rounding errors as real numbers
-/

set_option exponentiation.threshold 4096

namespace Dis.Geo

theorem natAbs_cast_le {a : Int} {b : Nat} (h : a.natAbs ≤ b) : |(a : ℝ)| ≤ b := by
  rw [← Int.cast_abs, Int.abs_eq_natAbs]
  exact_mod_cast h

theorem natAbs_cast (a : Int) : ((a.natAbs : ℕ) : ℝ) = |(a : ℝ)| := by
  rw [← Int.cast_abs, Int.abs_eq_natAbs]
  rfl

theorem val_add {x y : F64} (h : (F64.add x y).Finite) :
    |ofDouble (F64.add x y) - (ofDouble x + ofDouble y)| ≤ 1 / 2 ^ 53 * |ofDouble x + ofDouble y| := by
  have e := F64.add_error h
  have e' : (2 : ℝ) ^ 53 * |((F64.add x y).units : ℝ) - (x.units + y.units)| ≤ |(x.units : ℝ) + y.units| := by
    have := (Nat.cast_le (α := ℝ)).2 e
    rw [Nat.cast_mul, natAbs_cast, natAbs_cast] at this
    rw [Int.cast_sub, Int.cast_add, Nat.cast_pow, Nat.cast_ofNat] at this
    exact this
  unfold ofDouble
  have hU : (0 : ℝ) < 2 ^ 1074 := by positivity
  generalize (2 : ℝ) ^ 1074 = U at *
  rw [← add_div, ← sub_div, abs_div, abs_div, abs_of_pos hU, ← mul_div_assoc]
  refine div_le_div_of_nonneg_right ?_ hU.le
  linarith

theorem val_mul {x y : F64} (h : (F64.mul x y).Finite) :
    |ofDouble (F64.mul x y) - ofDouble x * ofDouble y|
      ≤ max (1 / 2 ^ 53 * |ofDouble x * ofDouble y|) (1 / 2 ^ 1075) := by
  have e := F64.mul_error h
  have e' : (2 : ℝ) ^ 53 * |((F64.mul x y).units : ℝ) * 2 ^ 1074 - x.units * y.units|
      ≤ max |(x.units : ℝ) * y.units| (2 ^ (52 + 1074)) := by
    have := (Nat.cast_le (α := ℝ)).2 e
    rw [Nat.cast_mul, Nat.cast_max, natAbs_cast, natAbs_cast] at this
    rw [Int.cast_sub, Int.cast_mul, Int.cast_mul, Int.cast_pow, Nat.cast_pow, Nat.cast_pow] at this
    exact this
  unfold ofDouble
  have hU : (0 : ℝ) < 2 ^ 1074 := by positivity
  have e5 : (1 : ℝ) / 2 ^ 1075 = 1 / (2 * 2 ^ 1074) := by rw [pow_succ' 2 1074]
  have e6 : (2 : ℝ) ^ (52 + 1074) = 2 ^ 52 * 2 ^ 1074 := pow_add ..
  rw [e5]
  rw [e6] at e'
  generalize (2 : ℝ) ^ 1074 = U at *
  have h1 : ((F64.mul x y).units : ℝ) / U - x.units / U * (y.units / U)
      = (((F64.mul x y).units : ℝ) * U - x.units * y.units) / (U * U) := by
    field_simp
  have h2 : (x.units : ℝ) / U * (y.units / U) = x.units * y.units / (U * U) := by
    field_simp
  rw [h1, h2, abs_div, abs_div, abs_of_pos (mul_pos hU hU)]
  have h3 : (1 : ℝ) / 2 ^ 53 * (|(x.units : ℝ) * y.units| / (U * U))
      = (1 / 2 ^ 53 * |(x.units : ℝ) * y.units|) / (U * U) := by ring
  have h4 : (1 : ℝ) / (2 * U) = (U / 2) / (U * U) := by field_simp
  rw [h3, h4, max_div_div_right (by positivity)]
  refine div_le_div_of_nonneg_right ?_ (by positivity)
  rcases le_max_iff.1 e' with hh | hh
  · exact le_max_of_le_left (by linarith)
  · exact le_max_of_le_right (by linarith)

theorem val_div {x y : F64} (h : (F64.div x y).Finite) (hy : y.Finite) :
    |ofDouble (F64.div x y) - ofDouble x / ofDouble y|
      ≤ max (1 / 2 ^ 53 * |ofDouble x / ofDouble y|) (1 / 2 ^ 1075) := by
  have e := F64.div_error h hy
  have e' : (2 : ℝ) ^ 53 * |((F64.div x y).units : ℝ) * y.units - x.units * 2 ^ 1074|
      ≤ max (|(x.units : ℝ)| * 2 ^ 1074) (2 ^ 52 * |(y.units : ℝ)|) := by
    have := (Nat.cast_le (α := ℝ)).2 e
    rw [Nat.cast_mul, Nat.cast_max, natAbs_cast, Nat.cast_mul, natAbs_cast, Nat.cast_mul, natAbs_cast] at this
    rw [Int.cast_sub, Int.cast_mul, Int.cast_mul, Int.cast_pow, Nat.cast_pow, Nat.cast_pow, Nat.cast_pow,
      Nat.cast_ofNat, Int.cast_ofNat] at this
    exact this
  have hy0 : y.units ≠ 0 := by
    have := (F64.div_finite h hy).2.1
    rw [← F64.units_abs] at this
    omega
  have hy1 : (0 : ℝ) < |(y.units : ℝ)| := abs_pos.2 (by exact_mod_cast hy0)
  have hy2 : (y.units : ℝ) ≠ 0 := by exact_mod_cast hy0
  unfold ofDouble
  have hU : (0 : ℝ) < 2 ^ 1074 := by positivity
  have e5 : (1 : ℝ) / 2 ^ 1075 = 1 / (2 * 2 ^ 1074) := by rw [pow_succ' 2 1074]
  rw [e5]
  generalize (2 : ℝ) ^ 1074 = U at *
  have h1 : ((F64.div x y).units : ℝ) / U - x.units / U / (y.units / U)
      = (((F64.div x y).units : ℝ) * y.units - x.units * U) / (y.units * U) := by
    field_simp
  have h2 : (x.units : ℝ) / U / (y.units / U) = x.units * U / (y.units * U) := by
    field_simp
  rw [h1, h2, abs_div, abs_div, abs_mul (y.units : ℝ), abs_of_pos hU]
  have h3 : (1 : ℝ) / 2 ^ 53 * (|(x.units : ℝ) * U| / (|(y.units : ℝ)| * U))
      = (1 / 2 ^ 53 * (|(x.units : ℝ)| * U)) / (|(y.units : ℝ)| * U) := by
    rw [abs_mul, abs_of_pos hU]; ring
  have h4 : (1 : ℝ) / (2 * U) = (|(y.units : ℝ)| / 2) / (|(y.units : ℝ)| * U) := by field_simp
  rw [h3, h4, max_div_div_right (by positivity)]
  refine div_le_div_of_nonneg_right ?_ (by positivity)
  rcases le_max_iff.1 e' with hh | hh
  · exact le_max_of_le_left (by linarith)
  · exact le_max_of_le_right (by linarith)

theorem val_neg (x : F64) : ofDouble (F64.neg x) = -ofDouble x := by
  unfold ofDouble
  rw [F64.neg_units]
  push_cast
  ring

theorem val_sub {x y : F64} (h : (F64.sub x y).Finite) :
    |ofDouble (F64.sub x y) - (ofDouble x - ofDouble y)| ≤ 1 / 2 ^ 53 * |ofDouble x - ofDouble y| := by
  have := val_add h
  rw [val_neg, ← sub_eq_add_neg] at this
  exact this

theorem val_le {x y : F64} : ofDouble x ≤ ofDouble y ↔ x.units ≤ y.units := by
  unfold ofDouble
  rw [div_le_div_iff_of_pos_right (by positivity)]
  exact Int.cast_le

theorem val_eq {x y : F64} : ofDouble x = ofDouble y ↔ x.units = y.units := by
  rw [le_antisymm_iff, val_le, val_le, ← le_antisymm_iff]

/-- Bits from value and sign. -/
theorem val_inj {x y : F64} (h : ofDouble x = ofDouble y) (hs : x.sign = y.sign) : x = y := by
  rw [val_eq] at h
  refine F64.mag_inj hs ?_
  rw [← F64.units_abs, ← F64.units_abs, h]

end Dis.Geo
