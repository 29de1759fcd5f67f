import Verif.Proof.Geodetic2
import Verif.Proof.Coordinates

/-!
# How far a point moves with its latitude and longitude
-/

namespace Dis.Geo

open WGS84 Matrix

theorem NN_lip (s t : ℝ) : |NN s - NN t| ≤ 43500 * |s - t| := by
  have h1 := NN_sq s
  have h2 := NN_sq t
  have b1 := NN_bounds s
  have b2 := NN_bounds t
  have e1 := e_sq_lt
  have e0 := sq_nonneg e
  have ss := Real.sin_sq_le_one s
  have s0 := sq_nonneg (Real.sin s)
  have key : (NN s - NN t) * ((NN s + NN t) * (1 - e ^ 2 * Real.sin s ^ 2))
      = NN t ^ 2 * e ^ 2 * ((Real.sin s - Real.sin t) * (Real.sin s + Real.sin t)) := by
    linear_combination h1 - h2
  have hD : 0.9933 ≤ 1 - e ^ 2 * Real.sin s ^ 2 := by
    have : e ^ 2 * Real.sin s ^ 2 ≤ 0.0066944 * 1 := mul_le_mul e1.le ss s0 (by norm_num)
    norm_num at this ⊢
    linarith
  have ha := a_pos
  have hL : 2 * a * 0.9933 ≤ (NN s + NN t) * (1 - e ^ 2 * Real.sin s ^ 2) :=
    mul_le_mul (by linarith [b1.1, b2.1]) hD (by norm_num) (by linarith [b1.1, b2.1])
  have hR : |NN t ^ 2 * e ^ 2 * ((Real.sin s - Real.sin t) * (Real.sin s + Real.sin t))|
      ≤ (1.0034 * a) ^ 2 * 0.0066944 * (|s - t| * 2) := by
    rw [abs_mul, abs_of_nonneg (show 0 ≤ NN t ^ 2 * e ^ 2 by positivity), abs_mul]
    have k1 := Real.abs_sin_sub_sin_le s t
    have k2 : |Real.sin s + Real.sin t| ≤ 2 :=
      (abs_add_le _ _).trans ((add_le_add (Real.abs_sin_le_one s) (Real.abs_sin_le_one t)).trans (by norm_num))
    have k3 : NN t ^ 2 ≤ (1.0034 * a) ^ 2 := pow_le_pow_left₀ (NN_pos t).le b2.2 2
    gcongr
  rw [← key, abs_mul, abs_of_pos (show 0 < (NN s + NN t) * (1 - e ^ 2 * Real.sin s ^ 2) by
    refine lt_of_lt_of_le ?_ hL; positivity)] at hR
  have h3 : |NN s - NN t| * (2 * a * 0.9933) ≤ (1.0034 * a) ^ 2 * 0.0066944 * (|s - t| * 2) :=
    (mul_le_mul_of_nonneg_left hL (abs_nonneg _)).trans hR
  have h4 : |NN s - NN t| ≤ 1.0034 ^ 2 * 0.0066944 / 0.9933 * a * |s - t| := by
    have : |NN s - NN t| * (2 * a * 0.9933) ≤ (1.0034 ^ 2 * 0.0066944 / 0.9933 * a * |s - t|) * (2 * a * 0.9933) := by
      refine h3.trans (le_of_eq ?_)
      field_simp
      try ring
    exact le_of_mul_le_mul_right this (by positivity)
  refine h4.trans ?_
  have : (1.0034 : ℝ) ^ 2 * 0.0066944 / 0.9933 * a ≤ 43500 := by unfold a; norm_num
  exact mul_le_mul_of_nonneg_right this (abs_nonneg _)

theorem prod_lip {A B c d D m : ℝ} (hA : |A - B| ≤ D) (hc : |c - d| ≤ m) (hc1 : |c| ≤ 1) :
    |A * c - B * d| ≤ D + |B| * m := by
  have e : A * c - B * d = (A - B) * c + B * (c - d) := by ring
  rw [e]
  refine (abs_add_le _ _).trans (add_le_add ?_ ?_)
  · rw [abs_mul]
    exact (mul_le_mul hA hc1 (abs_nonneg _) ((abs_nonneg _).trans hA)).trans (by rw [mul_one])
  · rw [abs_mul]
    exact mul_le_mul_of_nonneg_left hc (abs_nonneg _)

/-- The position as a function of the latitude and longitude in radians. -/
theorem lla2ecef_lip (lat lon lat' lon' alt : ℝ) (i : Fin 3) :
    |lla2ecef ![lat', lon', alt] i - lla2ecef ![lat, lon, alt] i| ≤
      (6450000 + |alt|) * (|lat' * Real.pi / 180 - lat * Real.pi / 180|
        + |lon' * Real.pi / 180 - lon * Real.pi / 180|) := by
  rw [lla2ecef_form, lla2ecef_form]
  generalize lat' * Real.pi / 180 = t'
  generalize lat * Real.pi / 180 = t
  generalize lon' * Real.pi / 180 = l'
  generalize lon * Real.pi / 180 = l
  have ha : 1.0034 * a ≤ 6400000 := by unfold a; norm_num
  have n0 := NN_pos t
  have n1 := (NN_bounds t).2.trans ha
  have hN := NN_lip t' t
  have d0 := abs_nonneg (t' - t)
  have d1 := abs_nonneg (l' - l)
  have h0 := abs_nonneg alt
  have m0 := mul_nonneg h0 d0
  have m1 := mul_nonneg h0 d1
  have hB : |NN t + alt| ≤ 6400000 + |alt| := by
    refine (abs_add_le _ _).trans ?_
    rw [abs_of_pos n0]
    linarith
  have hX : |(NN t' + alt) * Real.cos t' - (NN t + alt) * Real.cos t| ≤ (6443500 + |alt|) * |t' - t| := by
    refine (prod_lip (D := 43500 * |t' - t|) (by rwa [add_sub_add_right_eq_sub]) (Real.abs_cos_sub_cos_le _ _)
      (Real.abs_cos_le_one _)).trans ?_
    have := mul_le_mul_of_nonneg_right hB d0
    linarith
  have hXB : |(NN t + alt) * Real.cos t| ≤ 6400000 + |alt| := by
    rw [abs_mul]
    exact (mul_le_of_le_one_right (abs_nonneg _) (Real.abs_cos_le_one _)).trans hB
  have hm := mul_le_mul_of_nonneg_right hXB d1
  fin_cases i
  · show |(NN t' + alt) * Real.cos t' * Real.cos l' - (NN t + alt) * Real.cos t * Real.cos l| ≤ _
    refine (prod_lip hX (Real.abs_cos_sub_cos_le _ _) (Real.abs_cos_le_one _)).trans ?_
    linarith
  · show |(NN t' + alt) * Real.cos t' * Real.sin l' - (NN t + alt) * Real.cos t * Real.sin l| ≤ _
    refine (prod_lip hX (Real.abs_sin_sub_sin_le _ _) (Real.abs_sin_le_one _)).trans ?_
    linarith
  · show |(NN t' * (1 - e ^ 2) + alt) * Real.sin t' - (NN t * (1 - e ^ 2) + alt) * Real.sin t| ≤ _
    have e1 := e_sq_lt
    have e0 := sq_nonneg e
    have one_sub_e : 0 < 1 - e ^ 2 := by
      have : (0.0066944 : ℝ) < 1 := by norm_num
      linarith
    have k1 : |NN t' * (1 - e ^ 2) + alt - (NN t * (1 - e ^ 2) + alt)| ≤ 43500 * |t' - t| := by
      rw [add_sub_add_right_eq_sub, ← sub_mul, abs_mul, abs_of_pos (one_sub_e)]
      exact (mul_le_of_le_one_right (abs_nonneg _) (by linarith)).trans hN
    have k2 : |NN t * (1 - e ^ 2) + alt| ≤ 6400000 + |alt| := by
      refine (abs_add_le _ _).trans ?_
      rw [abs_mul, abs_of_pos n0, abs_of_pos (one_sub_e)]
      have := mul_le_of_le_one_right n0.le (show 1 - e ^ 2 ≤ 1 by linarith)
      linarith
    refine (prod_lip k1 (Real.abs_sin_sub_sin_le _ _) (Real.abs_sin_le_one _)).trans ?_
    have := mul_le_mul_of_nonneg_right k2 d0
    linarith

end Dis.Geo
