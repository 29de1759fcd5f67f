import Verif.Proof.Coordinates
import Mathlib.Analysis.SpecialFunctions.Trigonometric.Deriv
import Mathlib.Analysis.SpecialFunctions.Sqrt

/-! # Lemmas about the radii of curvature of the ellipsoid -/

namespace Dis.Geo

open WGS84

/-- The second eccentricity squared. -/
noncomputable def ep2 : ℝ := e ^ 2 / (1 - e ^ 2)

theorem one_sub_e_sq_pos : 0 < 1 - e ^ 2 := by have := e_sq_lt; linarith

theorem ep2_lt : ep2 < 0.0067396 := by
  unfold ep2; rw [div_lt_iff₀ one_sub_e_sq_pos]; rw [e_sq]; unfold a b; norm_num

theorem ep2_gt : 0.0067394 < ep2 := by
  unfold ep2; rw [lt_div_iff₀ one_sub_e_sq_pos]; rw [e_sq]; unfold a b; norm_num

/-- `1 - e² sin²`. -/
noncomputable def ww (t : ℝ) : ℝ := 1 - e ^ 2 * Real.sin t ^ 2

theorem ww_pos (t : ℝ) : 0 < ww t := by
  have := one_sub_pos t; unfold ww; nlinarith

theorem ww_eq (t : ℝ) : ww t * (1 + ep2) = 1 + ep2 * Real.cos t ^ 2 := by
  have h := one_sub_e_sq_pos.ne'
  unfold ww ep2
  have := Real.sin_sq_add_cos_sq t
  have hs : Real.sin t ^ 2 = 1 - Real.cos t ^ 2 := by linarith
  rw [hs]
  field_simp
  ring

theorem ww_axes (t : ℝ) : (6378137 * Real.cos t) ^ 2 + (6356752.3142 * Real.sin t) ^ 2 = 6378137 ^ 2 * ww t := by
  have key : ∀ A B : ℝ, A ≠ 0 → (A * Real.cos t) ^ 2 + (B * Real.sin t) ^ 2
      = A ^ 2 * (1 - (1 - (B / A) ^ 2) * Real.sin t ^ 2) := by
    intro A B hA
    have hs : Real.cos t ^ 2 = 1 - Real.sin t ^ 2 := by linarith [Real.sin_sq_add_cos_sq t]
    rw [mul_pow, mul_pow, hs]
    field_simp
    ring
  rw [key _ _ (by norm_num)]
  unfold ww
  rw [e_sq]
  unfold a b
  norm_num

theorem sqrt_axes (t : ℝ) : Real.sqrt ((6378137 * Real.cos t) ^ 2 + (6356752.3142 * Real.sin t) ^ 2)
    = 6378137 * Real.sqrt (ww t) := by
  rw [ww_axes, Real.sqrt_mul (by norm_num), Real.sqrt_sq (by norm_num)]

theorem transverse_eq (t : ℝ) : transverseRadius t = a / Real.sqrt (ww t) := by
  have h := Real.sqrt_pos.2 (ww_pos t)
  unfold transverseRadius
  rw [sqrt_axes]
  unfold a
  field_simp
  norm_num

theorem meridian_eq (t : ℝ) : meridianRadius t = a * (1 - e ^ 2) / Real.sqrt (ww t) ^ 3 := by
  have h := Real.sqrt_pos.2 (ww_pos t)
  unfold meridianRadius
  rw [sqrt_axes, e_sq]
  unfold a b
  field_simp
  norm_num

theorem transverse_pos (t : ℝ) : 0 < transverseRadius t := by
  rw [transverse_eq]; exact div_pos a_pos (Real.sqrt_pos.2 (ww_pos t))

theorem meridian_pos (t : ℝ) : 0 < meridianRadius t := by
  rw [meridian_eq]
  exact div_pos (mul_pos a_pos one_sub_e_sq_pos) (pow_pos (Real.sqrt_pos.2 (ww_pos t)) 3)

/-- Their ratio. -/
theorem transverse_meridian (t : ℝ) : transverseRadius t = (1 + ep2 * Real.cos t ^ 2) * meridianRadius t := by
  have h := Real.sqrt_pos.2 (ww_pos t)
  have h2 : Real.sqrt (ww t) ^ 2 = ww t := Real.sq_sqrt (ww_pos t).le
  have he := one_sub_e_sq_pos.ne'
  rw [transverse_eq, meridian_eq, ← ww_eq]
  have : 1 + ep2 = 1 / (1 - e ^ 2) := by unfold ep2; field_simp; ring
  rw [this]
  field_simp
  rw [h2]

theorem hasDerivAt_ww (t : ℝ) : HasDerivAt ww (-(2 * e ^ 2 * Real.sin t * Real.cos t)) t := by
  have := (((Real.hasDerivAt_sin t).pow 2).const_mul (e ^ 2)).const_sub 1
  refine this.congr_deriv ?_
  push_cast
  ring

theorem hasDerivAt_transverse (t : ℝ) :
    HasDerivAt transverseRadius
      (transverseRadius t * (ep2 * Real.sin t * Real.cos t / (1 + ep2 * Real.cos t ^ 2))) t := by
  have hp := ww_pos t
  have h := Real.sqrt_pos.2 hp
  have h2 : Real.sqrt (ww t) ^ 2 = ww t := Real.sq_sqrt hp.le
  have he := one_sub_e_sq_pos.ne'
  have hd := (((hasDerivAt_ww t).sqrt hp.ne').inv h.ne').const_mul a
  have hf : transverseRadius = fun y => a * (fun y => Real.sqrt (ww y))⁻¹ y := by
    funext y; rw [transverse_eq]; rfl
  rw [hf]
  refine hd.congr_deriv ?_
  rw [← ww_eq]
  have : ep2 = e ^ 2 / (1 - e ^ 2) := rfl
  have h1 : 1 + ep2 = 1 / (1 - e ^ 2) := by unfold ep2; field_simp; ring
  rw [h1, this]
  simp only [Pi.inv_apply]
  have hw := hp.ne'
  field_simp
  rw [h2]

end Dis.Geo
