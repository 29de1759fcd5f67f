import Verif.Geo.RangeCoordinates
import Verif.Proof.Geo

/-! # Lemmas about angles and the WGS84 ellipsoid -/

namespace Dis.Geo

open Matrix WGS84

/-! ## Angles -/

theorem deg2rad_rad2deg (r : ℝ) : deg2rad (rad2deg r) = r := by
  have := Real.pi_ne_zero
  unfold deg2rad rad2deg; field_simp

theorem rad2deg_deg2rad (d : ℝ) : rad2deg (deg2rad d) = d := by
  have := Real.pi_ne_zero
  unfold deg2rad rad2deg; field_simp

theorem atan2_cos (y x : ℝ) : Real.sqrt (x ^ 2 + y ^ 2) * Real.cos (atan2 y x) = x := by
  have := Complex.norm_mul_cos_arg ⟨x, y⟩
  rwa [Complex.norm_eq_sqrt_sq_add_sq] at this

theorem atan2_sin (y x : ℝ) : Real.sqrt (x ^ 2 + y ^ 2) * Real.sin (atan2 y x) = y := by
  have := Complex.norm_mul_sin_arg ⟨x, y⟩
  rwa [Complex.norm_eq_sqrt_sq_add_sq] at this

theorem atan2_range (y x : ℝ) : -Real.pi < atan2 y x ∧ atan2 y x ≤ Real.pi := Complex.arg_mem_Ioc _

theorem atan2_half (y x : ℝ) (h : 0 ≤ x) : -(Real.pi / 2) ≤ atan2 y x ∧ atan2 y x ≤ Real.pi / 2 :=
  abs_le.1 (Complex.abs_arg_le_pi_div_two_iff.2 h)

theorem atan2_polar {r t : ℝ} (hr : 0 < r) (h₁ : -Real.pi < t) (h₂ : t ≤ Real.pi) :
    atan2 (r * Real.sin t) (r * Real.cos t) = t := by
  have := Complex.arg_mul_cos_add_sin_mul_I hr ⟨h₁, h₂⟩
  unfold atan2
  refine Eq.trans (congrArg Complex.arg ?_) this
  apply Complex.ext
  · simp [Complex.cos_ofReal_re, Complex.sin_ofReal_re]
  · simp [Complex.cos_ofReal_re, Complex.sin_ofReal_re]

/-! ## The ellipsoid -/

theorem a_pos : 0 < a := by unfold a; norm_num

theorem e_sq : e ^ 2 = 1 - (b / a) ^ 2 := by
  have h : 0 ≤ f * (2 - f) := by unfold f a b; norm_num
  unfold e
  rw [Real.sq_sqrt h]
  unfold f a b; norm_num

theorem e_nonneg : 0 ≤ e := Real.sqrt_nonneg _

theorem e_sq_lt : e ^ 2 < 0.0066944 := by rw [e_sq]; unfold a b; norm_num

theorem e_sq_gt : 0.0066943 < e ^ 2 := by rw [e_sq]; unfold a b; norm_num

theorem one_sub_pos (t : ℝ) : 0 < 1 - (e * Real.sin t) ^ 2 := by
  have h1 := Real.sin_sq_le_one t
  have h2 := e_sq_lt
  have h3 := sq_nonneg (Real.sin t)
  rw [mul_pow]
  nlinarith [sq_nonneg e]

/-- Length of the normal to the ellipsoid. -/
noncomputable def NN (t : ℝ) : ℝ := a / Real.sqrt (1 - (e * Real.sin t) ^ 2)

theorem NN_pos (t : ℝ) : 0 < NN t := div_pos a_pos (Real.sqrt_pos.2 (one_sub_pos t))

theorem NN_sq (t : ℝ) : NN t ^ 2 * (1 - e ^ 2 * Real.sin t ^ 2) = a ^ 2 := by
  have h := one_sub_pos t
  unfold NN
  rw [div_pow, Real.sq_sqrt h.le]
  rw [mul_pow] at h ⊢
  field_simp

end Dis.Geo
