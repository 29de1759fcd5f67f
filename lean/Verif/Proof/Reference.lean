import Verif.Proof.Rounding
import Mathlib.Algebra.Order.Floor.Semiring

/-!
# A platform that meets the assumptions of `Verif/Spec/Platform.lean`

It shows that the hypotheses of the theorems about rounding can be met.
-/

set_option exponentiation.threshold 4096

namespace Dis.Geo

/-- Every number up to 2^1000 has a double close to it. -/
theorem exists_double (c : ℝ) (h : |c| ≤ 2 ^ 1000) :
    ∃ y : F64, y.Finite ∧ |ofDouble y - c| ≤ 1 / 2 ^ 52 * |c| + 1 / 2 ^ 1074 := by
  have hU : (0 : ℝ) < 2 ^ 1074 := by positivity
  have hc := abs_nonneg c
  obtain ⟨N, hN⟩ : ∃ N, N = ⌊|c| * 2 ^ 1074⌋₊ := ⟨_, rfl⟩
  have n1 : (N : ℝ) ≤ |c| * 2 ^ 1074 := by rw [hN]; exact Nat.floor_le (by positivity)
  have n2 : |c| * 2 ^ 1074 < N + 1 := by rw [hN]; exact Nat.lt_floor_add_one _
  have hb : F64.roundMag N 0 < 2047 * 2 ^ 52 := by
    refine Nat.lt_of_not_le fun hh => ?_
    have h1 := (roundMag_overflow N 0).1 hh
    have h2 : (N : ℝ) ≤ ((2 ^ 1000 * 2 ^ 1074 : ℕ) : ℝ) := by
      refine n1.trans ?_
      rw [Nat.cast_mul, Nat.cast_pow, Nat.cast_pow, Nat.cast_ofNat]
      exact mul_le_mul_of_nonneg_right h hU.le
    have h3 : N ≤ 2 ^ 1000 * 2 ^ 1074 := by exact_mod_cast h2
    have h4 : (2 ^ 1000 * 2 ^ 1074 : ℕ) < (2 ^ 54 - 1) * 2 ^ (2044 + 0) := by decide +kernel
    omega
  have hs : (if c < 0 then 1 else 0) < 2 := by split <;> decide
  have hf := F64.ofMag_is_finite hs hb
  obtain ⟨-, e1, e2⟩ := F64.ofMag_finite hs hf
  refine ⟨_, hf, ?_⟩
  have hr := (Nat.cast_le (α := ℝ)).2 (roundMag_relative_zero N)
  rw [Nat.cast_mul, natAbs_cast, Int.cast_sub, Nat.cast_pow, Nat.cast_ofNat, Int.cast_natCast,
    Int.cast_natCast, ← e2] at hr
  generalize F64.ofMag (if c < 0 then 1 else 0) (F64.roundMag N 0) = y at *
  have hv : |ofDouble y - c| = abs ((y.mag : ℝ) / 2 ^ 1074 - abs c) := by
    unfold ofDouble F64.units
    rw [e1]
    by_cases hc0 : c < 0
    · rw [if_pos hc0, if_pos rfl, abs_of_neg hc0, Int.cast_neg, Int.cast_natCast, neg_div, ← abs_neg]
      congr 1
      ring
    · rw [if_neg hc0, if_neg (by decide), abs_of_nonneg (not_lt.1 hc0), Int.cast_natCast]
  rw [hv]
  generalize (y.mag : ℝ) = Y at *
  generalize |c| = C at *
  have hN0 : (0 : ℝ) ≤ N := Nat.cast_nonneg N
  generalize (N : ℝ) = M at *
  generalize (2 : ℝ) ^ 1074 = U at *
  have e3 : Y / U - C = (Y - C * U) / U := by field_simp
  rw [e3, abs_div, abs_of_pos hU, div_le_iff₀ hU]
  have e4 : (1 / 2 ^ 52 * C + 1 / U) * U = 1 / 2 ^ 52 * (C * U) + 1 := by field_simp
  rw [e4]
  have t1 : |Y - C * U| ≤ |M - Y| + |C * U - M| := by
    have : Y - C * U = -((M - Y) + (C * U - M)) := by ring
    rw [this, abs_neg]
    exact abs_add_le _ _
  have t2 : |C * U - M| ≤ 1 := by rw [abs_of_nonneg (by linarith)]; linarith
  generalize C * U = Z at *
  norm_num at *
  linarith

/-- A double close to a number. -/
noncomputable def near (c : ℝ) : F64 :=
  open Classical in if h : |c| ≤ 2 ^ 1000 then (exists_double c h).choose else F64.nan

theorem near_spec {c : ℝ} (h : |c| ≤ 2 ^ 1000) :
    (near c).Finite ∧ |ofDouble (near c) - c| ≤ 1 / 2 ^ 52 * |c| + 1 / 2 ^ 1074 := by
  unfold near
  rw [dif_pos h]
  exact (exists_double c h).choose_spec

/-- Sum of three products in doubles, from left to right. -/
def dot (a b : Dbl.Vec) : F64 :=
  F64.add (F64.add (F64.mul (a 0) (b 0)) (F64.mul (a 1) (b 1))) (F64.mul (a 2) (b 2))

theorem dot_error {a b : Dbl.Vec} (h : (dot a b).Finite) :
    (∀ j, (a j).Finite ∧ (b j).Finite) ∧
    |ofDouble (dot a b) - (ofDouble (a 0) * ofDouble (b 0) + ofDouble (a 1) * ofDouble (b 1)
        + ofDouble (a 2) * ofDouble (b 2))|
      ≤ 1 / 2 ^ 50 * (|ofDouble (a 0) * ofDouble (b 0)| + |ofDouble (a 1) * ofDouble (b 1)|
        + |ofDouble (a 2) * ofDouble (b 2)|) + 32 * eta := by
  unfold dot at h ⊢
  have f1 := (F64.add_finite h).1
  have m0 := (F64.add_finite f1).1
  have m1 := (F64.add_finite f1).2.1
  have m2 := (F64.add_finite h).2.1
  have k0 := F64.mul_finite m0
  have k1 := F64.mul_finite m1
  have k2 := F64.mul_finite m2
  refine ⟨fun j => ?_, ?_⟩
  · match j with
    | 0 => exact ⟨k0.1, k0.2.1⟩
    | 1 => exact ⟨k1.1, k1.2.1⟩
    | 2 => exact ⟨k2.1, k2.2.1⟩
  have e1 := val_add h
  have e2 := val_add f1
  have v0 := val_mul' m0
  have v1 := val_mul' m1
  have v2 := val_mul' m2
  have h0 := eta_pos
  generalize ofDouble (F64.add (F64.add (F64.mul (a 0) (b 0)) (F64.mul (a 1) (b 1))) (F64.mul (a 2) (b 2))) = r at *
  generalize ofDouble (F64.add (F64.mul (a 0) (b 0)) (F64.mul (a 1) (b 1))) = s at *
  generalize ofDouble (F64.mul (a 0) (b 0)) = p0 at *
  generalize ofDouble (F64.mul (a 1) (b 1)) = p1 at *
  generalize ofDouble (F64.mul (a 2) (b 2)) = p2 at *
  generalize ofDouble (a 0) * ofDouble (b 0) = q0 at *
  generalize ofDouble (a 1) * ofDouble (b 1) = q1 at *
  generalize ofDouble (a 2) * ofDouble (b 2) = q2 at *
  have g0 := abs_le_of_near v0
  have g1 := abs_le_of_near v1
  have g2 := abs_le_of_near v2
  have i1 := abs_add_le p0 p1
  have gs := abs_le_of_near e2
  have i2 := abs_add_le s p2
  have t : |r - (q0 + q1 + q2)| ≤ |r - (s + p2)| + |s - (p0 + p1)| + |p0 - q0| + |p1 - q1| + |p2 - q2| := by
    have : r - (q0 + q1 + q2) = (r - (s + p2)) + (s - (p0 + p1)) + (p0 - q0) + ((p1 - q1) + (p2 - q2)) := by ring
    rw [this]
    have j1 := abs_add_le ((r - (s + p2)) + (s - (p0 + p1)) + (p0 - q0)) ((p1 - q1) + (p2 - q2))
    have j2 := abs_add_three (r - (s + p2)) (s - (p0 + p1)) (p0 - q0)
    have j3 := abs_add_le (p1 - q1) (p2 - q2)
    linarith
  norm_num at e1 e2 v0 v1 v2 g0 g1 g2 gs ⊢
  have n0 := abs_nonneg q0
  have n1 := abs_nonneg q1
  have n2 := abs_nonneg q2
  linarith

/-- The reference platform: nearly exact functions, `t * t`, and products summed from left to right. -/
noncomputable def reference : Dbl.Platform where
  cos x := near (Real.cos (ofDouble x))
  sin x := near (Real.sin (ofDouble x))
  tan x := near (Real.tan (ofDouble x))
  square t := .ok (F64.mul t t)
  matvec R v := fun i => dot (R i) v

theorem one_le : (1 : ℝ) ≤ 2 ^ 1000 := one_le_pow₀ (by norm_num)

theorem reference_trig : reference.TrigOk where
  cos _ _ := near_spec ((Real.abs_cos_le_one _).trans one_le)
  sin _ _ := near_spec ((Real.abs_sin_le_one _).trans one_le)
  tan _ _ h := near_spec h

theorem reference_square : reference.SquareOk := by
  intro t s _ hs hf
  injection hs with hs
  subst hs
  have := val_mul' hf
  rw [eta_two, sq]
  have h1 : 0 ≤ ofDouble t * ofDouble t := mul_self_nonneg _
  rw [abs_of_nonneg h1] at this
  have := eta_pos
  norm_num at *
  linarith

theorem reference_matvec : reference.MatvecOk := by
  intro R v i h
  have e : (1 : ℝ) / 2 ^ 1070 = 32 * eta := by
    rw [show (1070 : ℕ) = 1075 - 5 from rfl, eta_pow 5 (by norm_num)]; norm_num
  rw [e]
  exact dot_error h

end Dis.Geo
