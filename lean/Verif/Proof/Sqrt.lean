import Verif.Proof.Near
import Verif.Py.Sqrt

/-!
# The square root is correctly rounded
-/

set_option exponentiation.threshold 4096

namespace Dis

open Geo

theorem isqrt_spec : ∀ (k A : Nat), A < 4 ^ k →
    F64.isqrt k A * F64.isqrt k A ≤ A ∧ A < (F64.isqrt k A + 1) * (F64.isqrt k A + 1)
  | 0, A, h => by
    have : A = 0 := by omega
    subst this
    simp [F64.isqrt]
  | k + 1, A, h => by
    have ih := isqrt_spec k (A / 4) (by rw [Nat.pow_succ] at h; omega)
    simp only [F64.isqrt]
    generalize F64.isqrt k (A / 4) = q at *
    obtain ⟨h1, h2⟩ := ih
    have e1 : 2 * q * (2 * q) = 4 * (q * q) := by ring
    have e2 : (2 * q + 1 + 1) * (2 * q + 1 + 1) = 4 * ((q + 1) * (q + 1)) := by ring
    split
    · rename_i hc
      refine ⟨hc, ?_⟩
      rw [e2]
      omega
    · rename_i hc
      refine ⟨?_, by omega⟩
      rw [e1]
      omega

theorem lt_four_pow (A : Nat) : A < 4 ^ (A.log2 / 2 + 1) := by
  have h1 : A < 2 ^ (A.log2 + 1) := Nat.lt_log2_self
  refine h1.trans_le ?_
  rw [show (4 : Nat) = 2 ^ 2 from rfl, ← Nat.pow_mul]
  exact Nat.pow_le_pow_right (by decide) (by omega)

/-- Rounding of the root with its marked last bit: `r` is the exact root. -/
theorem roundMag_root (A q : Nat) (r : ℝ) (hr : 0 ≤ r) (hA : r ^ 2 = A) (h1 : q * q ≤ A) (h2 : A < (q + 1) * (q + 1))
    (hq : 2 ^ 60 ≤ q) :
    2 ^ 53 * |(mag64 (F64.roundMag (2 * q + if q * q = A then 0 else 1) 2) : ℝ) * 2 - r| ≤ r := by
  have q1 : (q : ℝ) ≤ r := by
    have : (q : ℝ) * q ≤ r ^ 2 := by rw [hA]; exact_mod_cast h1
    nlinarith
  have q2 : r < q + 1 := by
    have : r ^ 2 < ((q : ℝ) + 1) * (q + 1) := by rw [hA]; exact_mod_cast h2
    nlinarith
  have q3 : q * q = A → r = q := fun e => by
    have : r ^ 2 = (q : ℝ) * q := by rw [hA]; exact_mod_cast e.symm
    nlinarith
  generalize hN : 2 * q + (if q * q = A then 0 else 1) = N
  obtain ⟨v, -, -, -⟩ := roundMag_value N 2
  have herr := roundMag_error N 2
  obtain ⟨-, hb⟩ := roundMag_bounds N 2
  have hlog : 2 < max 2 (N.log2 - 52) := by
    have : 60 ≤ N.log2 := by
      rw [Nat.le_log2 (by omega)]
      omega
    omega
  have hb := hb hlog
  rw [v] at herr
  obtain ⟨t, ht⟩ : ∃ t, max 2 (N.log2 - 52) = t + 2 := ⟨max 2 (N.log2 - 52) - 2, by omega⟩
  rw [ht] at v hb herr
  have e : 2 ^ (t + 2) = 4 * 2 ^ t := by rw [Nat.pow_succ, Nat.pow_succ]; omega
  rw [e] at v hb herr
  generalize mag64 (F64.roundMag N 2) = M at *
  rw [← v] at herr
  generalize 2 ^ t = T at *
  have key : 2 ^ 53 * |(4 * M : ℝ) - 2 * r| ≤ 2 * r := by
    by_cases hc : q * q = A
    · rw [if_pos hc, Nat.add_zero] at hN
      rw [q3 hc]
      have h3 : 2 * ((N : Int) - (4 * M : Nat)).natAbs ≤ 4 * T := by
        rw [show 4 * M = M * 2 ^ 2 by omega]; exact herr
      have h4 : 2 ^ 53 * ((N : Int) - (4 * M : Nat)).natAbs ≤ N := by omega
      have h5 := (Nat.cast_le (α := ℝ)).2 h4
      rw [Nat.cast_mul, natAbs_cast, Int.cast_sub, abs_sub_comm] at h5
      rw [← hN] at h5
      push_cast at h5
      linarith
    · rw [if_neg hc] at hN
      have h3 : 2 * ((N : Int) - (4 * M : Nat)).natAbs + 2 ≤ 4 * T := by
        rw [show M * 2 ^ 2 = 4 * M by omega] at herr
        omega
      have h4 : 2 ^ 53 * (((N : Int) - (4 * M : Nat)).natAbs + 1) ≤ 2 * q := by omega
      have h5 := (Nat.cast_le (α := ℝ)).2 h4
      rw [Nat.cast_mul, Nat.cast_add, natAbs_cast, Int.cast_sub, abs_sub_comm] at h5
      rw [← hN] at h5
      push_cast at h5
      have h6 : |(4 * M : ℝ) - 2 * r| ≤ |(4 * M : ℝ) - (2 * q + 1)| + 1 := by
        refine (abs_sub_tri _ (2 * q + 1) _).trans ?_
        gcongr
        rw [abs_le]
        constructor <;> linarith
      linarith
  have e5 : (4 * M : ℝ) - 2 * r = 2 * (M * 2 - r) := by ring
  rw [e5, abs_mul, abs_of_pos (by norm_num : (0 : ℝ) < 2)] at key
  linarith

/-- The square root of a positive number: a finite double within 2^-53 of the exact root. -/
theorem val_sqrt {x : F64} (hx : x.Finite) (h0 : 0 < ofDouble x) : ∃ y, F64.sqrt x = .ok y ∧ y.Finite ∧ y.sign = 0 ∧
    |ofDouble y - Real.sqrt (ofDouble x)| ≤ 1 / 2 ^ 53 * Real.sqrt (ofDouble x) := by
  have hU : (0 : ℝ) < 2 ^ 1074 := by positivity
  have hu : 0 < x.units := by
    unfold ofDouble at h0
    have := (div_pos_iff_of_pos_right hU).1 h0
    exact_mod_cast this
  have hs : x.sign ≠ 1 := fun h => by
    unfold F64.units at hu
    rw [if_pos h] at hu
    omega
  have hm : x.units = x.mag := by unfold F64.units; rw [if_neg hs]
  have hm0 : 0 < x.mag := by omega
  have e1 : F64.sqrt x = .ok (F64.ofMag 0 (F64.sqrtMag x.mag)) := by
    unfold F64.sqrt
    rw [if_neg (fun h => hx h.1), if_neg (by omega), if_neg hs, if_neg hx]
  have hM := F64.mag_lt hx
  generalize hA : x.mag * 2 ^ 1076 = A
  obtain ⟨i1, i2⟩ := isqrt_spec _ A (lt_four_pow A)
  have e2 : F64.sqrtMag x.mag = F64.roundMag (2 * F64.isqrt (A.log2 / 2 + 1) A
      + if F64.isqrt (A.log2 / 2 + 1) A * F64.isqrt (A.log2 / 2 + 1) A = A then 0 else 1) 2 := by
    unfold F64.sqrtMag
    rw [hA]
  generalize F64.isqrt (A.log2 / 2 + 1) A = q at *
  have hA1 : 2 ^ 1076 ≤ A := by
    rw [← hA]; exact Nat.le_mul_of_pos_left _ hm0
  have hq : 2 ^ 60 ≤ q := by
    by_contra hq
    have h1 : (q + 1) * (q + 1) ≤ 2 ^ 60 * 2 ^ 60 := Nat.mul_le_mul (by omega) (by omega)
    have h2 : 2 ^ 60 * 2 ^ 60 ≤ 2 ^ 1076 := by
      rw [← Nat.pow_add]; exact Nat.pow_le_pow_right (by decide) (by decide)
    omega
  have hq2 : q < 2 ^ 1588 := by
    by_contra hq
    have h1 : 2 ^ 1588 * 2 ^ 1588 ≤ q * q := Nat.mul_le_mul (by omega) (by omega)
    have h2 : A ≤ (2 ^ 53 - 1) * 2 ^ 2045 * 2 ^ 1076 := by rw [← hA]; exact Nat.mul_le_mul_right _ hM
    have h3 : (2 ^ 53 - 1) * 2 ^ 2045 * 2 ^ 1076 < 2 ^ 1588 * 2 ^ 1588 := by
      rw [Nat.mul_assoc, ← Nat.pow_add, ← Nat.pow_add, show 1588 + 1588 = 55 + (2045 + 1076) from rfl, Nat.pow_add 2 55]
      exact Nat.mul_lt_mul_of_pos_right (by decide) (Nat.pow_pos (by decide))
    omega
  have hfin : F64.sqrtMag x.mag < 2047 * 2 ^ 52 := by
    rw [e2]
    by_contra h
    rw [not_lt, roundMag_overflow] at h
    have h2 : 2 ^ 1590 ≤ (2 ^ 54 - 1) * 2 ^ (2044 + 2) :=
      (Nat.pow_le_pow_right (by decide) (by decide)).trans (Nat.le_mul_of_pos_left _ (by decide))
    have h3 : (2 : ℕ) ^ 1590 = 4 * 2 ^ 1588 := by rw [Nat.pow_succ, Nat.pow_succ]; omega
    split at h <;> omega
  have hF := F64.ofMag_is_finite (s := 0) (by decide) hfin
  obtain ⟨-, y2, y3⟩ := F64.ofMag_finite (by decide) hF
  refine ⟨_, e1, hF, y2, ?_⟩
  have r1 := roundMag_root A q (Real.sqrt A) (Real.sqrt_nonneg _) (Real.sq_sqrt (by positivity)) i1 i2 hq
  rw [← e2] at r1
  have v1 : ofDouble (F64.ofMag 0 (F64.sqrtMag x.mag)) = mag64 (F64.sqrtMag x.mag) / 2 ^ 1074 := by
    unfold ofDouble F64.units
    rw [y2, y3]
    simp
  have v2 : Real.sqrt (ofDouble x) = Real.sqrt A / 2 ^ 1075 := by
    have : ofDouble x = (A : ℝ) / (2 ^ 1075) ^ 2 := by
      unfold ofDouble
      rw [hm, ← hA, Int.cast_natCast, Nat.cast_mul, Nat.cast_pow, Nat.cast_ofNat, ← pow_mul,
        show 1075 * 2 = 1074 + 1076 from rfl, pow_add]
      rw [mul_div_mul_right _ _ (by positivity)]
    rw [this, Real.sqrt_div (by positivity), Real.sqrt_sq (by positivity)]
  rw [v1, v2]
  have v3 : (mag64 (F64.sqrtMag x.mag) : ℝ) / 2 ^ 1074 = mag64 (F64.sqrtMag x.mag) * 2 / 2 ^ 1075 := by
    rw [pow_succ 2 1074, mul_div_mul_right _ _ (by norm_num)]
  rw [v3, ← sub_div, abs_div, abs_of_pos (by positivity : (0 : ℝ) < 2 ^ 1075), ← mul_div_assoc]
  refine div_le_div_of_nonneg_right ?_ (by positivity)
  rw [one_div, inv_mul_eq_div, le_div_iff₀ (by positivity), mul_comm]
  exact r1

theorem sqrt_zero {x : F64} (hx : x.Finite) (h0 : ofDouble x = 0) : F64.sqrt x = .ok x := by
  have hu : x.units = 0 := by
    unfold ofDouble at h0
    have := (div_eq_zero_iff.1 h0).resolve_right (by positivity)
    exact_mod_cast this
  have : x.mag = 0 := by rw [← F64.units_abs, hu]; rfl
  unfold F64.sqrt
  rw [if_neg (fun h => hx h.1), if_pos this]

theorem sqrt_neg {x : F64} (hx : x.Finite) (h0 : ofDouble x < 0) : F64.sqrt x = .error .valueError := by
  have hU : (0 : ℝ) < 2 ^ 1074 := by positivity
  have hu : x.units < 0 := by
    unfold ofDouble at h0
    have := (div_lt_iff₀ hU).1 h0
    rw [zero_mul] at this
    exact_mod_cast this
  unfold F64.units at hu
  unfold F64.sqrt
  split at hu
  · rename_i hs
    rw [if_neg (fun h => hx h.1), if_neg (by omega), if_pos hs]
  · omega

theorem pyDiv_ok {x y : F64} (h : ofDouble y ≠ 0) : F64.pyDiv x y = .ok (F64.div x y) := by
  unfold F64.pyDiv
  rw [if_neg]
  intro hm
  apply h
  have : y.units = 0 := by rw [← Int.natAbs_eq_zero, F64.units_abs, hm]
  unfold ofDouble
  rw [this]
  simp

end Dis
