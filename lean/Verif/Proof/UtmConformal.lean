import Verif.Proof.UtmArc
import Mathlib.Analysis.Real.Pi.Bounds

/-! # Local shape of the UTM map -/

namespace Dis.Geo

open WGS84 Filter Topology

theorem hasDerivAt_deg2rad (t : ℝ) : HasDerivAt deg2rad (Real.pi / 180) t := by
  have h := ((hasDerivAt_id t).mul_const Real.pi).div_const 180
  refine h.congr_deriv ?_
  ring

theorem hasDerivAt_fromCentre (z : ℤ) (t : ℝ) : HasDerivAt (fromCentre z) (Real.pi / 180) t := by
  have h := (((hasDerivAt_id t).sub_const (6 * (z : ℝ) - 183)).mul_const Real.pi).div_const 180
  refine h.congr_deriv ?_
  ring

theorem cos_deg_pos {lat : ℝ} (h : -90 < lat ∧ lat < 90) : 0 < Real.cos (deg2rad lat) := by
  have hp := Real.pi_pos
  apply Real.cos_pos_of_mem_Ioo
  unfold deg2rad
  constructor <;> nlinarith [h.1, h.2]

/-- No point is further than six degrees from the central meridian of its zone. -/
theorem zone_near (lat lon : ℝ) (h0 : -180 ≤ lon) : |lon - (6 * (zoneNumber lat lon : ℝ) - 183)| ≤ 6 := by
  by_cases hN : (56 ≤ lat ∧ lat < 64) ∧ (3 ≤ lon ∧ lon < 12)
  · have hz : zoneNumber lat lon = 32 := by
      have : ¬ (72 ≤ lat ∧ lat < 84) := by rintro ⟨_, _⟩; linarith [hN.1.2]
      simp [zoneNumber, hN, this]
    rw [hz, abs_le]
    push_cast
    constructor <;> linarith [hN.2.1, hN.2.2]
  · by_cases hS : (72 ≤ lat ∧ lat < 84) ∧ (0 ≤ lon ∧ lon < 42)
    · unfold zoneNumber
      simp only [hN, hS.1, if_false]
      by_cases a1 : lon < 9
      · simp only [hS.2.1, a1, and_self, if_true]
        rw [abs_le]; push_cast; constructor <;> linarith [hS.2.1]
      · push Not at a1
        by_cases a2 : lon < 21
        · simp only [a1, a2, not_lt.2 a1, and_self, and_false, if_true, if_false]
          rw [abs_le]; push_cast; constructor <;> linarith
        · push Not at a2
          by_cases a3 : lon < 33
          · simp only [a2, a3, not_lt.2 a2, not_lt.2 a1, and_self, and_false, if_true, if_false]
            rw [abs_le]; push_cast; constructor <;> linarith
          · push Not at a3
            simp only [a3, hS.2.2, not_lt.2 a2, not_lt.2 a1, not_lt.2 a3, and_self, and_false, if_true, if_false]
            rw [abs_le]; push_cast; constructor <;> linarith [hS.2.2]
    · rw [zone_eq lat lon hN hS]
      obtain ⟨z1, z2⟩ := zone_plain lon h0
      rw [abs_le]
      constructor <;> linarith

theorem fromCentre_le (lat lon : ℝ) (h0 : -180 ≤ lon) : |fromCentre (zoneNumber lat lon) lon| ≤ 0.11 := by
  have h := zone_near lat lon h0
  unfold fromCentre
  rw [abs_div, abs_mul, abs_of_pos Real.pi_pos, abs_of_pos (by norm_num : (0:ℝ) < 180)]
  have := Real.pi_lt_d4
  have := Real.pi_pos
  rw [div_le_iff₀ (by norm_num)]
  calc _ ≤ 6 * 3.15 := mul_le_mul h (by linarith) (by linarith) (by norm_num)
    _ ≤ _ := by norm_num

/-- The four partial derivatives of the map, per metre of ground distance. -/
theorem utm_partials (lat lon alt : ℝ) (hl : -90 < lat ∧ lat < 90)
    (hz : ∀ᶠ p : ℝ × ℝ in 𝓝 (lat, lon),
      (lla2utm ![p.1, p.2, alt]).zone.1 = (lla2utm ![lat, lon, alt]).zone.1) :
    let φ := deg2rad lat
    let l := fromCentre (zoneNumber lat lon) lon
    HasDerivAt (fun t => (lla2utm ![t, lon, alt]).utm 0)
      (0.9996 * nE ep2 l (Real.sin φ) (Real.cos φ) * (meridianRadius φ * Real.pi / 180)) lat
    ∧ HasDerivAt (fun t => (lla2utm ![t, lon, alt]).utm 1)
      (0.9996 * (a * arcRate (e ^ 2) (Real.sin φ ^ 2) / meridianRadius φ + nN ep2 l (Real.sin φ) (Real.cos φ))
        * (meridianRadius φ * Real.pi / 180)) lat
    ∧ HasDerivAt (fun t => (lla2utm ![lat, t, alt]).utm 0)
      (0.9996 * eE ep2 l (Real.cos φ) * (transverseRadius φ * Real.cos φ * Real.pi / 180)) lon
    ∧ HasDerivAt (fun t => (lla2utm ![lat, t, alt]).utm 1)
      (0.9996 * (Real.sin φ * eN ep2 l (Real.cos φ)) * (transverseRadius φ * Real.cos φ * Real.pi / 180)) lon := by
  intro φ l
  have hc := (cos_deg_pos hl).ne'
  have hzl : ∀ lat lon, (lla2utm ![lat, lon, alt]).zone.1 = zoneNumber lat lon := fun _ _ => rfl
  simp only [hzl] at hz
  have z1 : ∀ᶠ t in 𝓝 lat, zoneNumber t lon = zoneNumber lat lon := by
    have : Tendsto (fun t : ℝ => (t, lon)) (𝓝 lat) (𝓝 (lat, lon)) :=
      (Continuous.prodMk continuous_id continuous_const).tendsto lat
    exact this.eventually hz
  have z2 : ∀ᶠ t in 𝓝 lon, zoneNumber lat t = zoneNumber lat lon := by
    have : Tendsto (fun t : ℝ => (lat, t)) (𝓝 lon) (𝓝 (lat, lon)) :=
      (Continuous.prodMk continuous_const continuous_id).tendsto lon
    exact this.eventually hz
  have c1 : ∀ᶠ t in 𝓝 lat, Real.cos (deg2rad t) ≠ 0 := by
    have : Set.Ioo (-90 : ℝ) 90 ∈ 𝓝 lat := Ioo_mem_nhds hl.1 hl.2
    filter_upwards [this] with t ht
    exact (cos_deg_pos ht).ne'
  have hm := (meridian_pos φ).ne'
  refine ⟨?_, ?_, ?_, ?_⟩
  · have h := (((hasDerivAt_E_lat l φ).comp lat (hasDerivAt_deg2rad lat)).const_mul (0.9996 : ℝ)).add_const 500000
    refine (h.congr_of_eventuallyEq ?_).congr_deriv ?_
    · filter_upwards [z1, c1] with t h1 h2
      rw [(utm_series t lon alt h2).1, h1]
      rfl
    · ring
  · have h := ((((hasDerivAt_arc φ).add (hasDerivAt_N_lat l φ)).comp lat (hasDerivAt_deg2rad lat))).const_mul (0.9996 : ℝ)
    refine (h.congr_of_eventuallyEq ?_).congr_deriv ?_
    · filter_upwards [z1, c1] with t h1 h2
      rw [(utm_series t lon alt h2).2.1, h1]
      rfl
    · field_simp
  · have h := ((((hasDerivAt_E_lon ep2 l (Real.cos φ)).comp lon (hasDerivAt_fromCentre (zoneNumber lat lon) lon)).const_mul
      (transverseRadius φ)).const_mul (0.9996 : ℝ)).add_const 500000
    refine (h.congr_of_eventuallyEq ?_).congr_deriv ?_
    · filter_upwards [z2] with t h1
      rw [(utm_series lat t alt hc).1, h1]
      rfl
    · ring
  · have h := ((((((hasDerivAt_N_lon ep2 l (Real.cos φ)).comp lon (hasDerivAt_fromCentre (zoneNumber lat lon) lon)).const_mul
      (Real.sin φ)).const_mul (transverseRadius φ))).const_add (arcSeries φ)).const_mul (0.9996 : ℝ)
    refine (h.congr_of_eventuallyEq ?_).congr_deriv ?_
    · filter_upwards [z2] with t h1
      rw [(utm_series lat t alt hc).2.1, h1]
      rfl
    · ring

theorem arc_ratio (φ : ℝ) : |1 - a * arcRate (e ^ 2) (Real.sin φ ^ 2) / meridianRadius φ| ≤ 1e-9 := by
  have h := arc_rate_error φ
  have hm := meridian_pos φ
  have e : 1 - a * arcRate (e ^ 2) (Real.sin φ ^ 2) / meridianRadius φ
      = -((a * arcRate (e ^ 2) (Real.sin φ ^ 2) - meridianRadius φ) / meridianRadius φ) := by
    field_simp; ring
  rw [e, abs_neg, abs_div, abs_of_pos hm, div_le_iff₀ hm]
  have : a * 0.99 ≤ meridianRadius φ := by
    rw [meridian_eq, le_div_iff₀ (pow_pos (Real.sqrt_pos.2 (ww_pos φ)) 3)]
    have h1 : Real.sqrt (ww φ) ≤ 1 := by
      apply Real.sqrt_le_one.2
      unfold ww; nlinarith [sq_nonneg (WGS84.e), sq_nonneg (Real.sin φ), mul_nonneg (sq_nonneg WGS84.e) (sq_nonneg (Real.sin φ))]
    have h2 : Real.sqrt (ww φ) ^ 3 ≤ 1 := pow_le_one₀ (Real.sqrt_nonneg _) h1
    have h3 : 0 ≤ Real.sqrt (ww φ) ^ 3 := by positivity
    have h4 := e_sq_lt
    have := a_pos
    calc _ ≤ a * 0.99 * 1 := mul_le_mul_of_nonneg_left h2 (by positivity)
      _ ≤ a * (1 - WGS84.e ^ 2) := by nlinarith
  have := a_pos
  linarith

/-! ## Motion over the ground -/

/-- `lla2ecef` with the angles in radians and the radius of curvature across the meridian. -/
noncomputable def ecefOf (φ l h : ℝ) : Vec :=
  ![(transverseRadius φ + h) * Real.cos φ * Real.cos l, (transverseRadius φ + h) * Real.cos φ * Real.sin l,
    (transverseRadius φ * (1 - e ^ 2) + h) * Real.sin φ]

theorem lla2ecef_radii (lat lon alt : ℝ) : lla2ecef ![lat, lon, alt] = ecefOf (deg2rad lat) (deg2rad lon) alt := by
  have h : a / Real.sqrt (1 - (e * Real.sin (deg2rad lat)) ^ 2) = transverseRadius (deg2rad lat) := by
    rw [transverse_eq]; unfold ww; rw [mul_pow]
  simp only [lla2ecef, ecefOf, Matrix.cons_val_zero, Matrix.cons_val_one, Matrix.cons_val, h]

theorem hasDerivAt_ecef_lat (φ l h : ℝ) :
    HasDerivAt (fun t => ecefOf t l h) ((meridianRadius φ + h) • north φ l) φ := by
  have hq := ep2_gt
  have h1 : 1 + ep2 * Real.cos φ ^ 2 ≠ 0 := by positivity
  have hv := hasDerivAt_transverse φ
  have ht := transverse_meridian φ
  have hs : Real.sin φ ^ 2 = 1 - Real.cos φ ^ 2 := by linarith [Real.sin_sq_add_cos_sq φ]
  have he := one_sub_e_sq_pos.ne'
  have hE : (1 - e ^ 2) * (1 + ep2) = 1 := by unfold ep2; field_simp; ring
  have hE' : 1 - e ^ 2 = 1 / (1 + ep2) := by rw [eq_div_iff (by positivity)]; exact hE
  have hp : (1 + ep2 : ℝ) ≠ 0 := by positivity
  rw [hasDerivAt_pi]
  intro i
  fin_cases i
  · have := (((hv.add_const h).mul (Real.hasDerivAt_cos φ)).mul_const (Real.cos l))
    refine this.congr_deriv ?_
    simp only [north, Pi.smul_apply, smul_eq_mul, Fin.zero_eta, Matrix.cons_val_zero]
    rw [ht]; field_simp; ring
  · have := (((hv.add_const h).mul (Real.hasDerivAt_cos φ)).mul_const (Real.sin l))
    refine this.congr_deriv ?_
    simp only [north, Pi.smul_apply, smul_eq_mul, Fin.mk_one, Matrix.cons_val_one]
    rw [ht]; simp only [Matrix.cons_val_zero]; field_simp; ring
  · have := ((hv.mul_const (1 - e ^ 2)).add_const h).mul (Real.hasDerivAt_sin φ)
    refine this.congr_deriv ?_
    simp only [north, Pi.smul_apply, smul_eq_mul, Fin.reduceFinMk, Matrix.cons_val]
    rw [ht, hE']
    field_simp
    rw [hs]
    ring

theorem hasDerivAt_ecef_lon (φ l h : ℝ) :
    HasDerivAt (fun t => ecefOf φ t h) (((transverseRadius φ + h) * Real.cos φ) • east l) l := by
  rw [hasDerivAt_pi]
  intro i
  fin_cases i
  · have := (Real.hasDerivAt_cos l).const_mul ((transverseRadius φ + h) * Real.cos φ)
    refine this.congr_deriv ?_
    simp [east]
  · have := (Real.hasDerivAt_sin l).const_mul ((transverseRadius φ + h) * Real.cos φ)
    refine this.congr_deriv ?_
    simp [east]
  · refine (hasDerivAt_const l _).congr_deriv ?_
    simp [east]

end Dis.Geo
