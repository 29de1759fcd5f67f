import Verif.Proof.Geodetic2
import Mathlib.Topology.Order.IntermediateValue

/-!
# Geodetic coordinates exist and are unique
-/

namespace Dis.Geo

open WGS84

theorem NN_continuous : Continuous NN := by
  unfold NN
  refine Continuous.div continuous_const (by fun_prop) (fun t => ?_)
  exact (Real.sqrt_pos.2 (one_sub_pos t)).ne'

/-- The foot of the perpendicular on the northern half of a meridian. -/
theorem foot_north {p z : ℝ} (hp : 0 ≤ p) (hz : 0 ≤ z) (hr : 50000 ^ 2 ≤ p ^ 2 + z ^ 2) :
    ∃ t h : ℝ, (0 ≤ t ∧ t ≤ Real.pi / 2) ∧ -6335439 ≤ h ∧ (NN t + h) * Real.cos t = p ∧
      (NN t * (1 - e ^ 2) + h) * Real.sin t = z := by
  have hc : ContinuousOn (fun t => p * Real.sin t - z * Real.cos t - e ^ 2 * NN t * Real.sin t * Real.cos t)
      (Set.Icc 0 (Real.pi / 2)) := by
    have := NN_continuous
    fun_prop
  have hpi := Real.pi_pos
  obtain ⟨t, ⟨t0, t1⟩, ht⟩ := intermediate_value_Icc (by linarith) hc
    (show (0 : ℝ) ∈ Set.Icc _ _ by constructor <;> simp [hp, hz])
  have hs : 0 ≤ Real.sin t := Real.sin_nonneg_of_nonneg_of_le_pi t0 (by linarith)
  have hk : 0 ≤ Real.cos t := Real.cos_nonneg_of_neg_pi_div_two_le_of_le (by linarith) t1
  have h1 := Real.sin_sq_add_cos_sq t
  have hN := NN_sq t
  have hb := NN_bounds t
  have ha : a = 6378137 := by unfold a; norm_num
  rw [ha] at hb hN
  have he := e_sq_lt
  have he0 := sq_nonneg e
  dsimp only at ht
  refine ⟨t, p * Real.cos t + z * Real.sin t - NN t * (1 - e ^ 2 * Real.sin t ^ 2), ⟨t0, t1⟩, ?_, ?_, ?_⟩ <;>
  clear hc <;>
  generalize NN t = N at * <;>
  generalize e ^ 2 = E at * <;>
  generalize Real.sin t = s at * <;>
  generalize Real.cos t = c at *
  · have hw : |E * N * s * c| ≤ 22000 := by
      have hsc : s * c ≤ 1 / 2 := by nlinarith [sq_nonneg (s - c)]
      have h0 : 0 ≤ s * c := mul_nonneg hs hk
      have : E * N ≤ 0.0066944 * (1.0034 * 6378137) := mul_le_mul he.le hb.2 (by linarith) (by norm_num)
      have h2 : 0 ≤ E * N := mul_nonneg he0 (by linarith)
      have h3 : 0 ≤ E * N * s * c := by rw [mul_assoc]; positivity
      rw [abs_of_nonneg h3, mul_assoc]
      have : E * N * (s * c) ≤ 0.0066944 * (1.0034 * 6378137) * (1 / 2) := mul_le_mul this hsc h0 (by norm_num)
      linarith
    have hu0 : 0 ≤ p * c + z * s := by positivity
    have hu2 : (p * c + z * s) ^ 2 + (E * N * s * c) ^ 2 = p ^ 2 + z ^ 2 := by
      have : E * N * s * c = p * s - z * c := by linarith
      rw [this]
      linear_combination (p ^ 2 + z ^ 2) * h1
    have hu : 44000 ≤ p * c + z * s := by
      have h3 : (E * N * s * c) ^ 2 ≤ 22000 ^ 2 := sq_le_sq' (abs_le.1 hw).1 (abs_le.1 hw).2
      nlinarith
    have hS : N * (1 - E * s ^ 2) ≤ 6378137 := by
      have h4 : 0 < N := by linarith
      have h5 : N * (N * (1 - E * s ^ 2)) = 6378137 ^ 2 := by rw [← hN]; ring
      by_contra hn
      have : N * 6378137 < N * (N * (1 - E * s ^ 2)) := mul_lt_mul_of_pos_left (not_le.1 hn) h4
      nlinarith
    linarith
  · linear_combination (-s) * ht + p * h1
  · linear_combination c * ht + (z + N * s * E) * h1

/-- The foot of the perpendicular on a meridian. -/
theorem foot {p z : ℝ} (hp : 0 ≤ p) (hr : 50000 ^ 2 ≤ p ^ 2 + z ^ 2) :
    ∃ t h : ℝ, (-(Real.pi / 2) ≤ t ∧ t ≤ Real.pi / 2) ∧ -6335439 ≤ h ∧ (NN t + h) * Real.cos t = p ∧
      (NN t * (1 - e ^ 2) + h) * Real.sin t = z := by
  have hpi := Real.pi_pos
  rcases le_total 0 z with hz | hz
  · obtain ⟨t, h, ht, r⟩ := foot_north hp hz hr
    exact ⟨t, h, ⟨by linarith, ht.2⟩, r⟩
  · obtain ⟨t, h, ht, r1, r2, r3⟩ := foot_north hp (z := -z) (by linarith) (by rw [neg_sq]; exact hr)
    have hN : NN (-t) = NN t := by simp [NN]
    refine ⟨-t, h, ⟨by linarith, by linarith⟩, r1, ?_, ?_⟩
    · rw [hN, Real.cos_neg, r2]
    · rw [hN, Real.sin_neg]; linarith

/-- The ellipse lies within the circle of its smallest radius of curvature moved along its tangents. -/
theorem support (t t' : ℝ) (hcos : 0 < 1 + Real.cos (t - t')) :
    NN t' * (Real.cos t * Real.cos t' + (1 - e ^ 2) * (Real.sin t * Real.sin t'))
      ≤ NN t * (1 - e ^ 2 * Real.sin t ^ 2) - a * (1 - e ^ 2) * (1 - Real.cos (t - t')) := by
  have h1 := Real.sin_sq_add_cos_sq t
  have h2 := Real.sin_sq_add_cos_sq t'
  have q1 := one_sub_pos t
  have q2 := one_sub_pos t'
  have he := e_sq_lt
  have he0 := sq_nonneg e
  have hc1 := Real.cos_le_one (t - t')
  rw [Real.cos_sub] at *
  unfold NN
  have k1 := Real.sqrt_pos.2 q1
  have k2 := Real.sqrt_pos.2 q2
  have s1 := Real.sq_sqrt q1.le
  have s2 := Real.sq_sqrt q2.le
  rw [mul_pow] at s1 s2
  have l2 : Real.sqrt (1 - (e * Real.sin t') ^ 2) ≤ 1 := by
    have := Real.sqrt_le_sqrt (show 1 - (e * Real.sin t') ^ 2 ≤ 1 by linarith [sq_nonneg (e * Real.sin t')])
    rwa [Real.sqrt_one] at this
  have ha := a_pos
  simp only [mul_pow] at *
  generalize Real.sqrt (1 - e ^ 2 * Real.sin t ^ 2) = k at *
  generalize Real.sqrt (1 - e ^ 2 * Real.sin t' ^ 2) = k' at *
  generalize e ^ 2 = E at *
  generalize Real.sin t = s at *
  generalize Real.cos t = c at *
  generalize Real.sin t' = s' at *
  generalize Real.cos t' = c' at *
  have hx : (k * k') ^ 2 - (c * c' + (1 - E) * (s * s')) ^ 2
      = (1 - E) * (1 - (c * c' + s * s')) * (1 + (c * c' + s * s')) := by
    have e1 : c ^ 2 = 1 - s ^ 2 := by linarith
    have e2 : c' ^ 2 = 1 - s' ^ 2 := by linarith
    rw [mul_pow, s1, s2]
    linear_combination (-c' ^ 2 + (1 - E) * (c' ^ 2)) * e1 + (-(1 - s ^ 2) + (1 - E) * (1 - s ^ 2)) * e2
  have hy : k * k' + (c * c' + (1 - E) * (s * s')) ≤ 1 + (c * c' + s * s') := by
    nlinarith [sq_nonneg (k - k'), mul_nonneg he0 (sq_nonneg (s + s'))]
  have hw : 0 < 1 - E := by linarith
  have hm : (1 - E) * (1 - (c * c' + s * s')) ≤ k * k' - (c * c' + (1 - E) * (s * s')) := by
    by_contra hn
    have hn := not_le.1 hn
    have hd : 0 ≤ (1 - E) * (1 - (c * c' + s * s')) := mul_nonneg hw.le (by linarith)
    have hk := mul_pos k1 k2
    generalize k * k' = g at *
    generalize c * c' + (1 - E) * (s * s') = X at *
    generalize c * c' + s * s' = C at *
    generalize (1 - E) * (1 - C) = d at *
    have hx : (g - X) * (g + X) = d * (1 + C) := by linarith [hx]
    rcases lt_or_ge 0 (g + X) with hS | hS
    · nlinarith [mul_lt_mul_of_pos_right hn hS, mul_le_mul_of_nonneg_left hy hd]
    · have hdd : d = 0 := by nlinarith
      linarith
  have hm' : (1 - E) * (1 - (c * c' + s * s')) * k' ≤ k * k' - (c * c' + (1 - E) * (s * s')) := by
    have hd : 0 ≤ (1 - E) * (1 - (c * c' + s * s')) := mul_nonneg hw.le (by linarith)
    nlinarith
  have e3 : a / k * (1 - E * s ^ 2) = a * k := by rw [← s1]; field_simp
  rw [e3, div_mul_eq_mul_div, div_le_iff₀ k2]
  nlinarith [mul_le_mul_of_nonneg_left hm' ha.le]

theorem foot_unique {t t' h h' : ℝ} (ht : -(Real.pi / 2) ≤ t ∧ t ≤ Real.pi / 2)
    (ht' : -(Real.pi / 2) ≤ t' ∧ t' ≤ Real.pi / 2) (hh : -6335439 ≤ h) (hh' : -6335439 ≤ h')
    (e1 : (NN t + h) * Real.cos t = (NN t' + h') * Real.cos t')
    (e2 : (NN t * (1 - e ^ 2) + h) * Real.sin t = (NN t' * (1 - e ^ 2) + h') * Real.sin t') : t = t' ∧ h = h' := by
  have hpi := Real.pi_pos
  have h1 := Real.sin_sq_add_cos_sq t
  have h2 := Real.sin_sq_add_cos_sq t'
  have hρ : 6335439 < a * (1 - e ^ 2) := by rw [e_sq]; unfold a b; norm_num
  by_cases hc : 0 < 1 + Real.cos (t - t')
  · have s1 := support t t' hc
    have s2 := support t' t (by rwa [← Real.cos_neg, neg_sub])
    rw [← Real.cos_neg (t' - t), neg_sub] at s2
    have hle := Real.cos_le_one (t - t')
    have hcs := Real.cos_sub t t'
    generalize a * (1 - e ^ 2) = R at *
    have d1 : h + R ≤ (h' + R) * Real.cos (t - t') := by
      have : NN t * (1 - e ^ 2 * Real.sin t ^ 2) + h = NN t' * (Real.cos t * Real.cos t' + (1 - e ^ 2) * (Real.sin t * Real.sin t'))
          + h' * Real.cos (t - t') := by
        rw [hcs]
        linear_combination Real.cos t * e1 + Real.sin t * e2 - (NN t + h) * h1
      linarith
    have d2 : h' + R ≤ (h + R) * Real.cos (t - t') := by
      have : NN t' * (1 - e ^ 2 * Real.sin t' ^ 2) + h' = NN t * (Real.cos t' * Real.cos t + (1 - e ^ 2) * (Real.sin t' * Real.sin t))
          + h * Real.cos (t - t') := by
        rw [hcs]
        linear_combination -Real.cos t' * e1 - Real.sin t' * e2 - (NN t' + h') * h2
      linarith
    have p1 : 0 < h + R := by linarith
    have p2 : 0 < h' + R := by linarith
    have hone : Real.cos (t - t') = 1 := by
      have hpos : 0 < Real.cos (t - t') := by
        by_contra hn
        nlinarith
      nlinarith
    rw [hone] at d1 d2
    refine ⟨?_, by linarith⟩
    have := (Real.cos_eq_one_iff_of_lt_of_lt (x := t - t') (by linarith) (by linarith)).1 hone
    linarith
  · exfalso
    have hcos : Real.cos (t - t') = -1 := le_antisymm (by linarith) (Real.neg_one_le_cos _)
    have c0 : 0 ≤ Real.cos t := Real.cos_nonneg_of_neg_pi_div_two_le_of_le ht.1 ht.2
    have c0' : 0 ≤ Real.cos t' := Real.cos_nonneg_of_neg_pi_div_two_le_of_le ht'.1 ht'.2
    have z1 := above hh (t := t)
    have z2 := above hh' (t := t')
    rw [Real.cos_sub] at hcos
    have h0 : (Real.cos t + Real.cos t') ^ 2 + (Real.sin t + Real.sin t') ^ 2 = 0 := by
      linear_combination h1 + h2 + 2 * hcos
    have h3 : Real.cos t + Real.cos t' = 0 :=
      pow_eq_zero_iff (two_ne_zero) |>.1
        (le_antisymm (by linarith [sq_nonneg (Real.sin t + Real.sin t')]) (sq_nonneg _))
    have h4 : Real.sin t + Real.sin t' = 0 :=
      pow_eq_zero_iff (two_ne_zero) |>.1
        (le_antisymm (by linarith [sq_nonneg (Real.cos t + Real.cos t')]) (sq_nonneg _))
    have hs : Real.sin t' = -Real.sin t := by linarith
    have hk : Real.cos t = 0 := by linarith
    rw [hs] at e2
    have hsin : Real.sin t = 0 := by
      have : (NN t * (1 - e ^ 2) + h + (NN t' * (1 - e ^ 2) + h')) * Real.sin t = 0 := by linarith
      rcases mul_eq_zero.1 this with h | h
      · linarith
      · exact h
    rw [hsin, hk] at h1
    norm_num at h1

theorem len_sub_le (p q : Vec) : len q ≤ len p + len (p - q) := by
  unfold len
  simp only [Pi.sub_apply]
  apply Real.sqrt_le_iff.2
  refine ⟨by positivity, ?_⟩
  have h1 := Real.sq_sqrt (show 0 ≤ p 0 ^ 2 + p 1 ^ 2 + p 2 ^ 2 by positivity)
  have h2 := Real.sq_sqrt (show 0 ≤ (p 0 - q 0) ^ 2 + (p 1 - q 1) ^ 2 + (p 2 - q 2) ^ 2 by positivity)
  have h3 := Real.sqrt_nonneg (p 0 ^ 2 + p 1 ^ 2 + p 2 ^ 2)
  have h4 := Real.sqrt_nonneg ((p 0 - q 0) ^ 2 + (p 1 - q 1) ^ 2 + (p 2 - q 2) ^ 2)
  generalize Real.sqrt (p 0 ^ 2 + p 1 ^ 2 + p 2 ^ 2) = A at *
  generalize Real.sqrt ((p 0 - q 0) ^ 2 + (p 1 - q 1) ^ 2 + (p 2 - q 2) ^ 2) = B at *
  generalize p 0 = x at *
  generalize p 1 = y at *
  generalize p 2 = z at *
  generalize hX : x - q 0 = X at *
  generalize hY : y - q 1 = Y at *
  generalize hZ : z - q 2 = Z at *
  have e0 : q 0 = x - X := by linarith
  have e1 : q 1 = y - Y := by linarith
  have e2 : q 2 = z - Z := by linarith
  rw [e0, e1, e2]
  have hcs : (x * X + y * Y + z * Z) ^ 2 ≤ (A * B) ^ 2 := by
    rw [mul_pow, h1, h2]
    nlinarith [sq_nonneg (x * Y - y * X), sq_nonneg (x * Z - z * X), sq_nonneg (y * Z - z * Y)]
  have := abs_le_of_sq_le_sq' hcs (mul_nonneg h3 h4)
  nlinarith

/-- No point of the ellipsoid is nearer than the foot of the perpendicular. -/
theorem nearest_on_ellipsoid {E n q : Vec} {c alt : ℝ} (h : -6335439 ≤ alt) (hc : 0 < c)
    (hn : n 0 ^ 2 + n 1 ^ 2 + n 2 ^ 2 = 1) (g0 : E 0 / 6378137 ^ 2 = c * n 0) (g1 : E 1 / 6378137 ^ 2 = c * n 1)
    (g2 : E 2 / 6356752.3142 ^ 2 = c * n 2)
    (hE : E 0 ^ 2 / 6378137 ^ 2 + E 1 ^ 2 / 6378137 ^ 2 + E 2 ^ 2 / 6356752.3142 ^ 2 = 1)
    (hq : q 0 ^ 2 / 6378137 ^ 2 + q 1 ^ 2 / 6378137 ^ 2 + q 2 ^ 2 / 6356752.3142 ^ 2 = 1) :
    alt ^ 2 ≤ (E 0 + alt * n 0 - q 0) ^ 2 + (E 1 + alt * n 1 - q 1) ^ 2 + (E 2 + alt * n 2 - q 2) ^ 2 := by
  generalize E 0 = x at *
  generalize E 1 = y at *
  generalize E 2 = z at *
  generalize n 0 = u at *
  generalize n 1 = v at *
  generalize n 2 = w at *
  generalize hX : q 0 - x = X
  generalize hY : q 1 - y = Y
  generalize hZ : q 2 - z = Z
  have eX : q 0 = x + X := by linarith
  have eY : q 1 = y + Y := by linarith
  have eZ : q 2 = z + Z := by linarith
  rw [eX, eY, eZ] at hq ⊢
  clear eX eY eZ hX hY hZ
  have hA : (0 : ℝ) < 6378137 ^ 2 := by norm_num
  have hB : (0 : ℝ) < 6356752.3142 ^ 2 := by norm_num
  have hx : x = c * u * 6378137 ^ 2 := (div_eq_iff hA.ne').1 g0
  have hy : y = c * v * 6378137 ^ 2 := (div_eq_iff hA.ne').1 g1
  have hz : z = c * w * 6356752.3142 ^ 2 := (div_eq_iff hB.ne').1 g2
  have hAB : (6378137 : ℝ) * 6335439 ≤ 6356752.3142 ^ 2 := by norm_num
  have hBA : (6356752.3142 : ℝ) ^ 2 ≤ 6378137 ^ 2 := by norm_num
  have hc1 : 1 ≤ (c * 6378137) ^ 2 := by
    have h1 : c ^ 2 * (u ^ 2 + v ^ 2) * 6378137 ^ 2 + c ^ 2 * w ^ 2 * 6356752.3142 ^ 2 = 1 := by
      rw [← hE, hx, hy, hz]
      field_simp
    have h2 : 0 ≤ c ^ 2 * w ^ 2 := by positivity
    have h3 : (c * 6378137) ^ 2 = c ^ 2 * (u ^ 2 + v ^ 2) * 6378137 ^ 2 + c ^ 2 * w ^ 2 * 6378137 ^ 2 := by
      linear_combination -(c * 6378137) ^ 2 * hn
    rw [h3, ← h1]
    linarith [mul_le_mul_of_nonneg_left hBA h2]
  have hc2 : 1 ≤ c * 6378137 := by
    by_contra h0
    have h0 := not_le.1 h0
    have : 0 < c * 6378137 := by positivity
    nlinarith
  have hq' : 2 * c * (u * X + v * Y + w * Z) + (X ^ 2 / 6378137 ^ 2 + Y ^ 2 / 6378137 ^ 2 + Z ^ 2 / 6356752.3142 ^ 2)
      = 0 := by
    rw [hx, hy, hz] at hq hE
    field_simp at hq hE ⊢
    linear_combination hq - 6378137 ^ 2 * 6356752.3142 ^ 2 * hE
  have hG' : 6356752.3142 ^ 2 * (X ^ 2 / 6378137 ^ 2 + Y ^ 2 / 6378137 ^ 2 + Z ^ 2 / 6356752.3142 ^ 2)
      ≤ X ^ 2 + Y ^ 2 + Z ^ 2 := by
    have k : ∀ r : ℝ, 6356752.3142 ^ 2 * (r ^ 2 / 6378137 ^ 2) ≤ r ^ 2 := fun r => by
      rw [mul_div_assoc', div_le_iff₀ hA, mul_comm]
      exact mul_le_mul_of_nonneg_left hBA (sq_nonneg r)
    have k2 : 6356752.3142 ^ 2 * (Z ^ 2 / 6356752.3142 ^ 2) = Z ^ 2 := by field_simp
    linarith [k X, k Y]
  have hG : 0 ≤ X ^ 2 / 6378137 ^ 2 + Y ^ 2 / 6378137 ^ 2 + Z ^ 2 / 6356752.3142 ^ 2 := by positivity
  have goal : (x + alt * u - (x + X)) ^ 2 + (y + alt * v - (y + Y)) ^ 2 + (z + alt * w - (z + Z)) ^ 2
      = alt ^ 2 - alt * (2 * (u * X + v * Y + w * Z)) + (X ^ 2 + Y ^ 2 + Z ^ 2) := by
    linear_combination alt ^ 2 * hn
  rw [goal]
  clear goal hx hy hz g0 g1 g2 hE hq hn
  generalize X ^ 2 / 6378137 ^ 2 + Y ^ 2 / 6378137 ^ 2 + Z ^ 2 / 6356752.3142 ^ 2 = G at *
  generalize X ^ 2 + Y ^ 2 + Z ^ 2 = D at *
  generalize u * X + v * Y + w * Z = m at *
  have hm0 : m ≤ 0 := by
    by_contra h0
    have := mul_pos hc (not_le.1 h0)
    linarith
  have hm : -(2 * m) ≤ 6378137 * G := by
    have h1 : c * -(2 * m) = G := by linarith
    have h2 : 1 * -(2 * m) ≤ c * 6378137 * -(2 * m) := mul_le_mul_of_nonneg_right hc2 (by linarith)
    have h3 : c * 6378137 * -(2 * m) = 6378137 * (c * -(2 * m)) := by ring
    rw [h3, h1] at h2
    linarith
  have h5 : -alt * -(2 * m) ≤ 6335439 * -(2 * m) := mul_le_mul_of_nonneg_right (by linarith) (by linarith)
  have h6 : 6335439 * -(2 * m) ≤ 6335439 * (6378137 * G) := mul_le_mul_of_nonneg_left hm (by norm_num)
  have h7 := mul_le_mul_of_nonneg_right hAB hG
  linarith

end Dis.Geo
