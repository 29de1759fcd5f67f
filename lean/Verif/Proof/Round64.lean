import Verif.Proof.Ecef64
import Verif.Proof.ReferenceLibm

/-!
# `ecef2lla` in doubles on the axis of the Earth
-/

set_option exponentiation.threshold 4096

namespace Dis.Geo

open WGS84

theorem zero_cases {x : F64} (h0 : ofDouble x = 0) : x.mag = 0 := by
  have hU : (0 : ℝ) < 2 ^ 1074 := by positivity
  unfold ofDouble at h0
  have := (div_eq_zero_iff.1 h0).resolve_right hU.ne'
  rw [← F64.units_abs, show x.units = 0 by exact_mod_cast this]
  rfl

/-- What the last bit of a quotient says. -/
theorem sticky {n M : ℕ} (hM : 2 * (n / 100) + (if n % 100 = 0 then 0 else 1) = M) : |(M : ℝ) * 50 - n| ≤ 50 := by
  have hd := Nat.div_add_mod n 100
  have hl := Nat.mod_lt n (show 0 < 100 by decide)
  have : ((M * 50 : ℕ) : ℤ) - (n : ℤ) ≤ 50 ∧ -50 ≤ ((M * 50 : ℕ) : ℤ) - (n : ℤ) := by
    split at hM <;> omega
  rw [abs_le]
  constructor
  · have := (Int.cast_le (R := ℝ)).2 this.2
    push_cast at this ⊢
    linarith
  · have := (Int.cast_le (R := ℝ)).2 this.1
    push_cast at this ⊢
    linarith

/-- `round(x, 2)`. -/
theorem round2_near {x : F64} (hx : x.Finite) (hb : |ofDouble x| ≤ 2 ^ 900) :
    Ap (Dbl.round2 x) (ofDouble x) (0.005 + |ofDouble x| / 2 ^ 53 + 1e-15) := by
  have hU : (0 : ℝ) < 2 ^ 1074 := by positivity
  have e1 : |ofDouble x| = (x.mag : ℝ) / 2 ^ 1074 := by
    unfold ofDouble
    rw [abs_div, abs_of_pos hU, ← natAbs_cast, F64.units_abs]
  have n1 := (rne_near (x.mag * 100) 1074).1
  have hs := x.sign_lt
  unfold Dbl.round2
  rw [if_neg hx]
  dsimp only
  generalize hn0 : rne (x.mag * 100) 1074 = n0 at *
  generalize hM : 2 * (n0 * 2 ^ 1075 / 100) + (if n0 * 2 ^ 1075 % 100 = 0 then 0 else 1) = M at *
  -- what the sticky bit does
  have m1 : |(M : ℝ) * 50 - n0 * 2 ^ 1075| ≤ 50 := by
    have := sticky hM
    rw [Nat.cast_mul, Nat.cast_pow, Nat.cast_ofNat] at this
    exact this
  have r0 : |(n0 : ℝ) * 2 ^ 1074 - x.mag * 100| ≤ 2 ^ 1074 / 2 := by
    have := (Nat.cast_le (α := ℝ)).2 n1
    rw [Nat.cast_mul, natAbs_cast, Int.cast_sub, abs_sub_comm] at this
    push_cast at this
    linarith
  have hmag : (x.mag : ℝ) ≤ 2 ^ 900 * 2 ^ 1074 := by
    rw [e1, div_le_iff₀ hU] at hb
    exact hb
  have mup : (M : ℝ) ≤ 4 * x.mag + 2 ^ 1074 / 50 + 1 := by
    have k1 := (abs_le.1 m1).2
    have k2 := (abs_le.1 r0).2
    rw [show (2 : ℝ) ^ 1075 = 2 * 2 ^ 1074 by rw [← pow_succ']] at k1
    linarith
  have hfin : F64.roundMag M 2 < 2047 * 2 ^ 52 := by
    by_contra h
    rw [not_lt, roundMag_overflow] at h
    have h2 : 2 ^ 2046 ≤ M := le_trans (Nat.le_mul_of_pos_left _ (by decide)) h
    have h3 : (2 : ℝ) ^ 2046 ≤ M := by exact_mod_cast h2
    have h4 : (4 : ℝ) * (2 ^ 900 * 2 ^ 1074) + 2 ^ 1074 / 50 + 1 < 2 ^ 2046 := by norm_num
    linarith
  have hF := F64.ofMag_is_finite hs hfin
  obtain ⟨-, y2, y3⟩ := F64.ofMag_finite hs hF
  have rel := roundMag_relative M 2
  have rel' : (2 : ℝ) ^ 53 * |(M : ℝ) - mag64 (F64.roundMag M 2) * 4| ≤ M + 2 ^ 54 := by
    have := (Nat.cast_le (α := ℝ)).2 (rel.trans (max_le (Nat.le_add_right _ (2 ^ 54)) (Nat.le_add_left _ M)))
    rw [Nat.cast_mul, natAbs_cast] at this
    push_cast at this
    norm_num at this ⊢
    exact this
  refine ⟨hF, ?_⟩
  have e2 : |ofDouble (F64.ofMag x.sign (F64.roundMag M 2)) - ofDouble x|
      = |(mag64 (F64.roundMag M 2) : ℝ) - x.mag| / 2 ^ 1074 := by
    unfold ofDouble F64.units
    rw [y2, y3]
    split
    · rw [← sub_div, abs_div, abs_of_pos hU]
      push_cast
      rw [neg_sub_neg, abs_sub_comm]
    · rw [← sub_div, abs_div, abs_of_pos hU]
      push_cast
      rfl
  rw [e2, e1, div_le_iff₀ hU]
  generalize (mag64 (F64.roundMag M 2) : ℝ) = V at *
  have hx0 : (0 : ℝ) ≤ x.mag := Nat.cast_nonneg _
  generalize (x.mag : ℝ) = X at *
  generalize (n0 : ℝ) = n at *
  generalize (M : ℝ) = m at *
  rw [show (2 : ℝ) ^ 1075 = 2 * 2 ^ 1074 by rw [← pow_succ']] at m1
  rw [show (0.005 + X / 2 ^ 1074 / 2 ^ 53 + 1e-15) * (2 : ℝ) ^ 1074 = 0.005 * 2 ^ 1074 + X / 2 ^ 53 + 1e-15 * 2 ^ 1074 by
    field_simp]
  have hbig : (1e30 : ℝ) ≤ 2 ^ 1074 := by norm_num
  generalize (2 : ℝ) ^ 1074 = U at *
  have k1 : |V - m / 4| ≤ (m + 2 ^ 54) / 2 ^ 53 / 4 := by
    rw [show V - m / 4 = -((m - V * 4) / 4) by ring, abs_neg, abs_div, abs_of_pos (show (0 : ℝ) < 4 by norm_num)]
    apply div_le_div_of_nonneg_right _ (by norm_num)
    rw [le_div_iff₀ (by positivity)]
    linarith
  rw [abs_le] at k1 m1 r0 ⊢
  norm_num at k1 m1 r0 hbig mup ⊢
  constructor <;> linarith

theorem lt_iff {x y : F64} (hx : x.Finite) (hy : y.Finite) : F64.lt x y = true ↔ ofDouble x < ofDouble y := by
  have n1 : x.isNan = false := by
    unfold F64.isNan; rw [decide_eq_false_iff_not]; exact fun h => hx h.1
  have n2 : y.isNan = false := by
    unfold F64.isNan; rw [decide_eq_false_iff_not]; exact fun h => hy h.1
  unfold F64.lt ofDouble
  have hU : (0 : ℝ) < 2 ^ 1074 := by positivity
  rw [n1, n2, div_lt_div_iff_of_pos_right hU, Int.cast_lt]
  simp

theorem num_zero_val : (Dbl.num 0).Finite ∧ ofDouble (Dbl.num 0) = 0 := by
  have := Ap.num (n := 0) (by decide)
  refine ⟨this.1, ?_⟩
  have h := this.2
  rw [Nat.cast_zero, sub_zero] at h
  exact abs_eq_zero.1 (le_antisymm h (abs_nonneg _))

/-- The call on the axis. -/
theorem ecef2lla_axis {L : Dbl.Libm} (h0 : L.SquareZero) {pos : Dbl.Vec} {tol : F64} (hx : (pos 0).Finite)
    (hy : (pos 1).Finite) (hz : (pos 2).Finite) (x0 : ofDouble (pos 0) = 0) (y0 : ofDouble (pos 1) = 0) :
    Dbl.ecef2lla L pos tol =
      if 0 < ofDouble (pos 2) then some (.ok ![Dbl.num 90, Dbl.num 69, Dbl.round2 (F64.sub (pos 2) Dbl.WGS84.b)])
      else if ofDouble (pos 2) < 0 then
        some (.ok ![F64.neg (Dbl.num 90), Dbl.num 69, Dbl.round2 (F64.sub (F64.neg (pos 2)) Dbl.WGS84.b)])
      else some (.error .exception) := by
  have e0 : (do let x2 ← L.square (pos 0); let y2 ← L.square (pos 1); F64.sqrt (F64.add x2 y2) : Except PyErr F64)
      = .ok (F64.add 0 0) := by
    rw [h0 _ hx x0, bind_ok, h0 _ hy y0, bind_ok]
    decide +kernel
  have c1 := lt_iff num_zero_val.1 hz
  have c2 := lt_iff hz num_zero_val.1
  rw [num_zero_val.2] at c1 c2
  unfold Dbl.ecef2lla
  dsimp only
  rw [e0]
  dsimp only
  rw [if_pos ⟨zero_cases x0, zero_cases y0⟩]
  by_cases d1 : 0 < ofDouble (pos 2)
  · rw [if_pos (c1.2 d1), if_pos d1]
  · rw [if_neg (fun h => d1 (c1.1 h)), if_neg d1]
    by_cases d2 : ofDouble (pos 2) < 0
    · rw [if_pos (c2.2 d2), if_pos d2]
    · rw [if_neg (fun h => d2 (c2.1 h)), if_neg d2]

theorem referenceLibm_zero : referenceLibm.SquareZero := by
  intro x hx h0
  have hm := zero_cases h0
  show Except.ok (F64.mul x x) = .ok 0
  unfold F64.mul
  dsimp only
  have h2 : (x.sign + x.sign) % 2 = 0 := by omega
  rw [if_neg (by rintro (h | h) <;> exact hx h.1), if_neg (by rintro (h | h) <;> exact hx h), hm, h2, Nat.mul_zero,
    roundMag_zero]
  rfl

theorem returned {o : Option (Except PyErr Dbl.Vec)} {a b c : F64} (e : o = some (.ok ![a, b, c])) :
    ∃ r, o = some (.ok r) ∧ r 0 = a ∧ r 1 = b ∧ r 2 = c := ⟨_, e, rfl, rfl, rfl⟩

theorem defaultTolerance_finite : Dbl.defaultTolerance.Finite := show F64.expo _ ≠ 2047 by decide +kernel

theorem defaultTolerance_range : 1.3e-10 ≤ ofDouble Dbl.defaultTolerance ∧ ofDouble Dbl.defaultTolerance ≤ 9e-7 := by
  have := val_units (x := Dbl.defaultTolerance) (m := 4835703278458517) 992 82 (by decide +kernel) rfl
  rw [this]
  norm_num

theorem direction_aux {q Q c c' δ : ℝ} (hq : 1 ≤ q) (hQ : |Q - q| ≤ 5.2e-8) (hc : |c'| ≤ 1)
    (h : |Q * c - q * c'| ≤ δ) (hδ : δ ≤ 2.6e-8) : |c - c'| ≤ 9e-8 := by
  have h0 : 0.99 ≤ Q := by
    have := (abs_le.1 hQ).1
    norm_num at this ⊢
    linarith
  have h1 : Q * |c - c'| ≤ 7.8e-8 := by
    rw [← abs_of_nonneg (show 0 ≤ Q by norm_num at h0; linarith), ← abs_mul,
      show Q * (c - c') = (Q * c - q * c') + (q - Q) * c' by ring]
    refine (abs_add_le _ _).trans ?_
    rw [abs_mul, abs_sub_comm q Q]
    have : |Q - q| * |c'| ≤ 5.2e-8 * 1 := mul_le_mul hQ hc (abs_nonneg _) (by norm_num)
    norm_num at this hδ ⊢
    linarith
  have h2 := abs_nonneg (c - c')
  have h3 : 0.99 * |c - c'| ≤ 7.8e-8 := (mul_le_mul_of_nonneg_right h0 h2).trans h1
  norm_num at h3 ⊢
  linarith

/-- The angle of a point of the plane that is near another one, at least 1 m from the origin. -/
theorem direction_near {lat lon alt x y : ℝ} (hlat : -90 < lat ∧ lat < 90) (halt : |alt| ≤ 100000)
    (haxis : 1 ≤ Real.sqrt (lla2ecef ![lat, lon, alt] 0 ^ 2 + lla2ecef ![lat, lon, alt] 1 ^ 2))
    (hx : |x - lla2ecef ![lat, lon, alt] 0| ≤ 2.6e-8) (hy : |y - lla2ecef ![lat, lon, alt] 1| ≤ 2.6e-8) :
    ¬ (x = 0 ∧ y = 0) ∧
    |Real.cos (atan2 y x) - Real.cos (lon * Real.pi / 180)| ≤ 9e-8 ∧
    |Real.sin (atan2 y x) - Real.sin (lon * Real.pi / 180)| ≤ 9e-8 := by
  have ht : -(Real.pi / 2) < lat * Real.pi / 180 ∧ lat * Real.pi / 180 < Real.pi / 2 := by
    have := Real.pi_pos
    constructor <;> nlinarith
  have hD := D_bounds (t := lat * Real.pi / 180) halt
  have hD0 : 0 < NN (lat * Real.pi / 180) * (1 - e ^ 2) + alt := by linarith
  have hP := lla2ecef_p (lon := lon) ht hD0
  have hl := sqrt_lip2 hx hy
  rw [hP] at haxis hl
  have hl' := hl.trans (show (2 * 2.6e-8 : ℝ) ≤ 5.2e-8 by norm_num)
  rw [lla2ecef_form] at hx hy
  simp only [Matrix.cons_val_zero, Matrix.cons_val_one] at hx hy
  refine ⟨?_, ?_, ?_⟩
  · rintro ⟨rfl, rfl⟩
    have := (abs_le.1 hl').1
    norm_num at this
    linarith
  · rw [← atan2_cos y x] at hx
    exact direction_aux haxis hl' (Real.abs_cos_le_one _) hx le_rfl
  · rw [← atan2_sin y x] at hy
    exact direction_aux haxis hl' (Real.abs_sin_le_one _) hy le_rfl

end Dis.Geo
