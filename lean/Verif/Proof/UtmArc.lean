import Verif.Proof.UtmBounds
import Mathlib.MeasureTheory.Integral.IntervalIntegral.FundThmCalculus

/-! # The meridian arc of `lla2utm` -/

namespace Dis.Geo

open WGS84

/-- Derivative of `arcSeries` over the equatorial radius, in `u = e² sin²`. -/
noncomputable def arcRate (E x : ℝ) : ℝ :=
  (1 - E) * (1 + 3 / 2 * (E * x) + 15 / 8 * (E * x) ^ 2 + 35 / 16 * (E * x) ^ 3) + E * (35 / 16 * (E * x) ^ 3)

theorem hasDerivAt_sin_mul (k t : ℝ) : HasDerivAt (fun t => Real.sin (k * t)) (k * Real.cos (k * t)) t := by
  have h := (Real.hasDerivAt_sin (k * t)).comp t ((hasDerivAt_id t).const_mul k)
  refine h.congr_deriv ?_
  ring

theorem hasDerivAt_arc (t : ℝ) : HasDerivAt arcSeries (a * arcRate (e ^ 2) (Real.sin t ^ 2)) t := by
  have h := (((((hasDerivAt_id t).const_mul (1 - e ^ 2 / 4 - 3 * (e ^ 2) ^ 2 / 64 - 5 * (e ^ 2) ^ 3 / 256)).sub
    ((hasDerivAt_sin_mul 2 t).const_mul (3 * e ^ 2 / 8 + 3 * (e ^ 2) ^ 2 / 32 + 45 * (e ^ 2) ^ 3 / 1024))).add
    ((hasDerivAt_sin_mul 4 t).const_mul (15 * (e ^ 2) ^ 2 / 256 + 45 * (e ^ 2) ^ 3 / 1024))).sub
    ((hasDerivAt_sin_mul 6 t).const_mul (35 * (e ^ 2) ^ 3 / 3072))).const_mul a
  refine h.congr_deriv ?_
  have c2 : Real.cos (2 * t) = 1 - 2 * Real.sin t ^ 2 := by
    rw [Real.cos_two_mul]; linarith [Real.sin_sq_add_cos_sq t]
  have c4 : Real.cos (4 * t) = 2 * (1 - 2 * Real.sin t ^ 2) ^ 2 - 1 := by
    rw [show 4 * t = 2 * (2 * t) by ring, Real.cos_two_mul, c2]
  have c6 : Real.cos (6 * t) = 4 * (1 - 2 * Real.sin t ^ 2) ^ 3 - 3 * (1 - 2 * Real.sin t ^ 2) := by
    rw [show 6 * t = 3 * (2 * t) by ring, Real.cos_three_mul, c2]
  rw [c2, c4, c6]
  unfold arcRate
  ring

/-- Truncated binomial series of `(1 - u)^(-3/2)`. -/
theorem binomial_bounds {u : ℝ} (h0 : 0 ≤ u) (h1 : u ≤ 0.0067) :
    1 + 3 / 2 * u + 15 / 8 * u ^ 2 + 35 / 16 * u ^ 3 + 315 / 128 * u ^ 4 ≤ 1 / Real.sqrt (1 - u) ^ 3
    ∧ 1 / Real.sqrt (1 - u) ^ 3
      ≤ 1 + 3 / 2 * u + 15 / 8 * u ^ 2 + 35 / 16 * u ^ 3 + 315 / 128 * u ^ 4 + 3 * u ^ 5 := by
  have hp : 0 < 1 - u := by linarith
  set r := Real.sqrt (1 - u) with hr
  have hr0 : 0 < r := Real.sqrt_pos.2 hp
  have hr2 : r ^ 2 = 1 - u := Real.sq_sqrt hp.le
  have hr6 : (r ^ 3) ^ 2 = (1 - u) ^ 3 := by rw [← hr2]; ring
  have p5 : 0 ≤ u ^ 5 := by positivity
  have p6 : 0 ≤ u ^ 6 := by positivity
  have u1 : u ^ 2 ≤ 0.0067 * u := by nlinarith
  have u2 : 0 ≤ u ^ 2 := by positivity
  have u3 : 0 ≤ u ^ 3 := by positivity
  have u3' : u ^ 3 ≤ 0.001 := by nlinarith
  have u4 : 0 ≤ u ^ 4 := by positivity
  have u4' : u ^ 4 ≤ 0.001 := by nlinarith
  have u5' : u ^ 5 ≤ 0.001 := by nlinarith
  have u6' : u ^ 6 ≤ 0.001 := by nlinarith
  have u7 : 0 ≤ u ^ 7 := by positivity
  have u7' : u ^ 7 ≤ 0.001 := by nlinarith
  have u8 : 0 ≤ u ^ 8 := by positivity
  constructor
  · rw [le_div_iff₀ (by positivity)]
    refine (abs_le_of_sq_le_sq' (b := 1) ?_ (by norm_num)).2
    rw [mul_pow, hr6]
    have e : (1 + 3 / 2 * u + 15 / 8 * u ^ 2 + 35 / 16 * u ^ 3 + 315 / 128 * u ^ 4) ^ 2 * (1 - u) ^ 3
        = 1 ^ 2 - u ^ 5 * (693 / 128 - 1155 / 512 * u - 495 / 1024 * u ^ 2 - 3465 / 16384 * u ^ 3
          - 1925 / 16384 * u ^ 4 - 121275 / 16384 * u ^ 5 + 99225 / 16384 * u ^ 6) := by ring
    rw [e]
    have : 0 ≤ 693 / 128 - 1155 / 512 * u - 495 / 1024 * u ^ 2 - 3465 / 16384 * u ^ 3
          - 1925 / 16384 * u ^ 4 - 121275 / 16384 * u ^ 5 + 99225 / 16384 * u ^ 6 := by linarith
    nlinarith [mul_nonneg p5 this]
  · rw [div_le_iff₀ (by positivity)]
    refine (abs_le_of_sq_le_sq' (a := 1) ?_ (by positivity)).2
    rw [mul_pow, hr6]
    have e : (1 + 3 / 2 * u + 15 / 8 * u ^ 2 + 35 / 16 * u ^ 3 + 315 / 128 * u ^ 4 + 3 * u ^ 5) ^ 2 * (1 - u) ^ 3
        = 1 ^ 2 + u ^ 5 * (75 / 128 - 3453 / 512 * u + 2799 / 1024 * u ^ 2 + 9609 / 16384 * u ^ 3
          + 4229 / 16384 * u ^ 4 + 3771 / 16384 * u ^ 5 - 30873 / 16384 * u ^ 6 + 783 / 64 * u ^ 7
          - 9 * u ^ 8) := by ring
    rw [e]
    have u8' : u ^ 8 ≤ 0.001 := by nlinarith
    have : 0 ≤ 75 / 128 - 3453 / 512 * u + 2799 / 1024 * u ^ 2 + 9609 / 16384 * u ^ 3
          + 4229 / 16384 * u ^ 4 + 3771 / 16384 * u ^ 5 - 30873 / 16384 * u ^ 6 + 783 / 64 * u ^ 7
          - 9 * u ^ 8 := by linarith
    nlinarith [mul_nonneg p5 this]

theorem fourth_order {E x : ℝ} (e0 : 0 ≤ E) (e1 : E ≤ 0.0066944) (x0 : 0 ≤ x) (x1 : x ≤ 1) :
    |E ^ 4 * (35 / 16 * x ^ 3 - 315 / 128 * x ^ 4)| ≤ 5.6e-10 := by
  have E4 : E ^ 4 ≤ 0.0066944 ^ 4 := pow_le_pow_left₀ e0 e1 4
  have x3 : 0 ≤ x ^ 3 := by positivity
  have x3' : x ^ 3 ≤ 1 := pow_le_one₀ x0 x1
  have f : |35 / 16 * x ^ 3 - 315 / 128 * x ^ 4| ≤ 0.274 := by
    rw [abs_le]
    constructor
    · nlinarith [mul_nonneg x3 (sub_nonneg.2 x1)]
    · nlinarith [sq_nonneg (x ^ 2 - 0.444), sq_nonneg (x - 0.667), mul_nonneg x0 (sq_nonneg (x - 0.667)),
        mul_nonneg (pow_nonneg x0 2) (sq_nonneg (x - 0.667))]
  rw [abs_mul, abs_of_nonneg (by positivity)]
  calc _ ≤ 0.0066944 ^ 4 * 0.274 := mul_le_mul E4 f (abs_nonneg _) (by norm_num)
    _ ≤ _ := by norm_num

theorem fifth_order {E x : ℝ} (e0 : 0 ≤ E) (e1 : E ≤ 0.0066944) (x0 : 0 ≤ x) (x1 : x ≤ 1) :
    0 ≤ E ^ 5 * x ^ 4 ∧ E ^ 5 * x ^ 4 ≤ 2e-11 ∧ 0 ≤ (1 - E) * (E ^ 5 * x ^ 5)
      ∧ (1 - E) * (E ^ 5 * x ^ 5) ≤ 2e-11 := by
  have E5 : E ^ 5 ≤ 2e-11 := (pow_le_pow_left₀ e0 e1 5).trans (by norm_num)
  have h0 : 0 ≤ 1 - E := by linarith
  refine ⟨by positivity, ?_, by positivity, ?_⟩
  · exact (mul_le_of_le_one_right (by positivity) (pow_le_one₀ x0 x1)).trans E5
  · refine (mul_le_of_le_one_left (by positivity) (by linarith)).trans ?_
    exact (mul_le_of_le_one_right (by positivity) (pow_le_one₀ x0 x1)).trans E5

theorem arcRate_sub (E x : ℝ) :
    arcRate E x = (1 - E) * (1 + 3 / 2 * (E * x) + 15 / 8 * (E * x) ^ 2 + 35 / 16 * (E * x) ^ 3
      + 315 / 128 * (E * x) ^ 4) + E ^ 4 * (35 / 16 * x ^ 3 - 315 / 128 * x ^ 4)
      + 315 / 128 * (E ^ 5 * x ^ 4) := by
  unfold arcRate; ring

/-- The rate of the code's arc is the radius of curvature of the meridian, up to seven parts in 10¹⁰. -/
theorem arc_rate_error (t : ℝ) : |a * arcRate (e ^ 2) (Real.sin t ^ 2) - meridianRadius t| ≤ a * 7e-10 := by
  have e1 := e_sq_lt
  have e0 : 0 ≤ e ^ 2 := sq_nonneg e
  have x0 : 0 ≤ Real.sin t ^ 2 := sq_nonneg _
  have x1 : Real.sin t ^ 2 ≤ 1 := Real.sin_sq_le_one t
  have hm : meridianRadius t = a * ((1 - e ^ 2) * (1 / Real.sqrt (1 - e ^ 2 * Real.sin t ^ 2) ^ 3)) := by
    rw [meridian_eq]; unfold ww; ring
  rw [hm, ← mul_sub, abs_mul, abs_of_pos a_pos]
  refine mul_le_mul_of_nonneg_left ?_ a_pos.le
  generalize e ^ 2 = E at *
  generalize Real.sin t ^ 2 = x at *
  have hu0 : 0 ≤ E * x := mul_nonneg e0 x0
  have hu1 : E * x ≤ 0.0067 := by nlinarith
  obtain ⟨b1, b2⟩ := binomial_bounds hu0 hu1
  generalize 1 / Real.sqrt (1 - E * x) ^ 3 = v at *
  have hE : 0 ≤ 1 - E := by linarith
  have k1 := mul_le_mul_of_nonneg_left b1 hE
  have k2 := mul_le_mul_of_nonneg_left b2 hE
  obtain ⟨m1, m2⟩ := abs_le.1 (fourth_order e0 e1.le x0 x1)
  obtain ⟨n1, n2, n3, n4⟩ := fifth_order e0 e1.le x0 x1
  have low := arcRate_sub E x
  have up : (1 - E) * (1 + 3 / 2 * (E * x) + 15 / 8 * (E * x) ^ 2 + 35 / 16 * (E * x) ^ 3
      + 315 / 128 * (E * x) ^ 4 + 3 * (E * x) ^ 5)
      = (1 - E) * (1 + 3 / 2 * (E * x) + 15 / 8 * (E * x) ^ 2 + 35 / 16 * (E * x) ^ 3
      + 315 / 128 * (E * x) ^ 4) + 3 * ((1 - E) * (E ^ 5 * x ^ 5)) := by ring
  rw [up] at k2
  rw [abs_le]
  constructor
  · linarith
  · linarith

theorem continuous_meridian : Continuous meridianRadius := by
  have : meridianRadius = fun t => a * (1 - e ^ 2) / Real.sqrt (ww t) ^ 3 := by
    funext t; exact meridian_eq t
  rw [this]
  refine Continuous.div continuous_const ?_ (fun t => (pow_pos (Real.sqrt_pos.2 (ww_pos t)) 3).ne')
  unfold ww
  fun_prop

/-- The code's arc is the length of the meridian from the equator, up to seven parts in 10¹⁰ of the
equatorial radius times the latitude. -/
theorem arc_error (t : ℝ) : |arcSeries t - ∫ u in (0:ℝ)..t, meridianRadius u| ≤ a * 7e-10 * |t| := by
  have hd : ∀ t, HasDerivAt (fun t => arcSeries t - ∫ u in (0:ℝ)..t, meridianRadius u)
      (a * arcRate (e ^ 2) (Real.sin t ^ 2) - meridianRadius t) t := by
    intro t
    refine (hasDerivAt_arc t).sub ?_
    exact intervalIntegral.integral_hasDerivAt_right (continuous_meridian.intervalIntegrable _ _)
      (continuous_meridian.stronglyMeasurableAtFilter _ _) continuous_meridian.continuousAt
  have h := Convex.norm_image_sub_le_of_norm_hasDerivWithin_le (s := Set.univ) (x := 0) (y := t)
    (fun x _ => (hd x).hasDerivWithinAt) (fun x _ => arc_rate_error x) convex_univ trivial trivial
  simpa [arcSeries] using h

end Dis.Geo
