import Verif.Proof.Chart
import Verif.Props.Geodetic
import Verif.Props.Coordinates

/-!
# C38: every point has geodetic coordinates, and only one set of them

`lla2ecef` of /repo/opendis/RangeCoordinates.py over the real numbers (`Geo.lla2ecef`). Altitudes of at least -6335439 m
are those above the centres of curvature of the ellipsoid, the smallest radius of curvature being 6335439.3 m; no point
of interest lies below.
-/

namespace Dis

open Matrix Geo

/-- Every point at least 50 km from the centre of the earth is what `lla2ecef` returns for some latitude from -90 to 90,
some longitude above -180 and up to 180 and some altitude of at least -6335439 m. -/
theorem C38_every_point (pos : Vec) (h : 50000 ≤ len pos) :
    ∃ lat lon alt, (-90 ≤ lat ∧ lat ≤ 90) ∧ (-180 < lon ∧ lon ≤ 180) ∧ -6335439 ≤ alt ∧
      lla2ecef ![lat, lon, alt] = pos := by
  have hpi := Real.pi_pos
  have hr : 50000 ^ 2 ≤ Real.sqrt (pos 0 ^ 2 + pos 1 ^ 2) ^ 2 + pos 2 ^ 2 := by
    rw [Real.sq_sqrt (by positivity)]
    exact Real.le_sqrt' (by norm_num) |>.1 h
  obtain ⟨t, alt, ht, ha, e1, e2⟩ := foot (Real.sqrt_nonneg _) hr
  have hl := atan2_range (pos 1) (pos 0)
  have r1 : t * 180 / Real.pi * Real.pi / 180 = t := by field_simp
  have r2 : atan2 (pos 1) (pos 0) * 180 / Real.pi * Real.pi / 180 = atan2 (pos 1) (pos 0) := by field_simp
  refine ⟨t * 180 / Real.pi, atan2 (pos 1) (pos 0) * 180 / Real.pi, alt, ⟨?_, ?_⟩, ⟨?_, ?_⟩, ha, ?_⟩
  · rw [le_div_iff₀ hpi]; linarith
  · rw [div_le_iff₀ hpi]; linarith
  · rw [lt_div_iff₀ hpi]; linarith
  · rw [div_le_iff₀ hpi]; linarith
  · rw [lla2ecef_form, r1, r2, e1, e2, atan2_cos, atan2_sin]
    ext i
    fin_cases i <;> rfl

/-- Two sets of coordinates of one point have the same latitude and altitude and, except at the poles, the same
longitude. -/
theorem C38_unique (lat lon alt lat' lon' alt' : ℝ) (h1 : -90 ≤ lat ∧ lat ≤ 90) (h1' : -90 ≤ lat' ∧ lat' ≤ 90)
    (h2 : -180 < lon ∧ lon ≤ 180) (h2' : -180 < lon' ∧ lon' ≤ 180) (h3 : -6335439 ≤ alt) (h3' : -6335439 ≤ alt')
    (h : lla2ecef ![lat, lon, alt] = lla2ecef ![lat', lon', alt']) :
    lat = lat' ∧ alt = alt' ∧ (|lat| ≠ 90 → lon = lon') := by
  have hpi := Real.pi_pos
  rw [lla2ecef_form, lla2ecef_form] at h
  have g0 := congrFun h 0
  have g1 := congrFun h 1
  have g2 := congrFun h 2
  simp only [cons_val_zero, cons_val_one, cons_val] at g0 g1 g2
  have ht : -(Real.pi / 2) ≤ lat * Real.pi / 180 ∧ lat * Real.pi / 180 ≤ Real.pi / 2 := by
    constructor <;> nlinarith
  have ht' : -(Real.pi / 2) ≤ lat' * Real.pi / 180 ∧ lat' * Real.pi / 180 ≤ Real.pi / 2 := by
    constructor <;> nlinarith
  have d : ∀ u v : ℝ, u * Real.pi / 180 = v * Real.pi / 180 → u = v := fun u v huv =>
    mul_right_cancel₀ hpi.ne' (by linarith)
  have hd : ∀ {t a : ℝ}, -6335439 ≤ a → 0 < NN t + a := fun {t a} ha => by
    have := above ha (t := t)
    have h1 := mul_nonneg (NN_pos t).le (sq_nonneg WGS84.e)
    linarith
  have p0 : 0 ≤ (NN (lat * Real.pi / 180) + alt) * Real.cos (lat * Real.pi / 180) :=
    mul_nonneg (hd h3).le (Real.cos_nonneg_of_neg_pi_div_two_le_of_le ht.1 ht.2)
  have p0' : 0 ≤ (NN (lat' * Real.pi / 180) + alt') * Real.cos (lat' * Real.pi / 180) :=
    mul_nonneg (hd h3').le (Real.cos_nonneg_of_neg_pi_div_two_le_of_le ht'.1 ht'.2)
  have hp : (NN (lat * Real.pi / 180) + alt) * Real.cos (lat * Real.pi / 180)
      = (NN (lat' * Real.pi / 180) + alt') * Real.cos (lat' * Real.pi / 180) := by
    have l1 := Real.sin_sq_add_cos_sq (lon * Real.pi / 180)
    have l2 := Real.sin_sq_add_cos_sq (lon' * Real.pi / 180)
    refine (sq_eq_sq₀ p0 p0').1 ?_
    generalize (NN (lat * Real.pi / 180) + alt) * Real.cos (lat * Real.pi / 180) = p at *
    generalize (NN (lat' * Real.pi / 180) + alt') * Real.cos (lat' * Real.pi / 180) = p' at *
    have q0 : (p * Real.cos (lon * Real.pi / 180)) ^ 2 = (p' * Real.cos (lon' * Real.pi / 180)) ^ 2 := by rw [g0]
    have q1 : (p * Real.sin (lon * Real.pi / 180)) ^ 2 = (p' * Real.sin (lon' * Real.pi / 180)) ^ 2 := by rw [g1]
    linear_combination q0 + q1 - p ^ 2 * l1 + p' ^ 2 * l2
  obtain ⟨a1, a2⟩ := foot_unique ht ht' h3 h3' hp g2
  refine ⟨d _ _ a1, a2, fun hne => ?_⟩
  have hlt : -(Real.pi / 2) < lat * Real.pi / 180 ∧ lat * Real.pi / 180 < Real.pi / 2 := by
    have n1 : lat ≠ 90 := fun h => hne (by rw [h]; norm_num)
    have n2 : lat ≠ -90 := fun h => hne (by rw [h]; norm_num)
    have m1 := lt_of_le_of_ne h1.2 n1
    have m2 := lt_of_le_of_ne h1.1 (Ne.symm n2)
    constructor <;> nlinarith
  have pp := mul_pos (hd h3 (t := lat * Real.pi / 180)) (Real.cos_pos_of_mem_Ioo hlt)
  rw [hp] at pp g0 g1
  have k0 := mul_left_cancel₀ pp.ne' g0
  have k1 := mul_left_cancel₀ pp.ne' g1
  have hc : Real.cos (lon * Real.pi / 180 - lon' * Real.pi / 180) = 1 := by
    rw [Real.cos_sub, k0, k1]
    linarith [Real.sin_sq_add_cos_sq (lon' * Real.pi / 180)]
  refine d _ _ ?_
  have := (Real.cos_eq_one_iff_of_lt_of_lt (x := lon * Real.pi / 180 - lon' * Real.pi / 180)
    (by nlinarith) (by nlinarith)).1 hc
  linarith

/-- The altitude is the distance from the ellipsoid, negative inside: the point at altitude 0 with the same latitude and
longitude is `|alt|` away, and no point of the ellipsoid is nearer. -/
theorem C38_distance (lat lon alt : ℝ) (h : -6335439 ≤ alt) :
    OnEllipsoid (lla2ecef ![lat, lon, 0]) ∧
    len (lla2ecef ![lat, lon, alt] - lla2ecef ![lat, lon, 0]) = |alt| ∧
    ∀ q, OnEllipsoid q → |alt| ≤ len (lla2ecef ![lat, lon, alt] - q) := by
  refine ⟨C38_ellipsoid lat lon, ?_, fun q hq => ?_⟩
  · rw [C38_altitude, add_sub_cancel_left]
    have l1 := Real.sin_sq_add_cos_sq (lat * Real.pi / 180)
    have l2 := Real.sin_sq_add_cos_sq (lon * Real.pi / 180)
    unfold len up
    simp only [Pi.smul_apply, smul_eq_mul, cons_val_zero, cons_val_one, cons_val]
    rw [← Real.sqrt_sq_eq_abs]
    congr 1
    linear_combination alt ^ 2 * l1 + alt ^ 2 * Real.cos (lat * Real.pi / 180) ^ 2 * l2
  · rw [C38_altitude]
    obtain ⟨c, hc, hg⟩ := C38_normal lat lon
    have hE := C38_ellipsoid lat lon
    have l1 := Real.sin_sq_add_cos_sq (lat * Real.pi / 180)
    have l2 := Real.sin_sq_add_cos_sq (lon * Real.pi / 180)
    generalize lla2ecef ![lat, lon, 0] = E at *
    have hn : up (lat * Real.pi / 180) (lon * Real.pi / 180) 0 ^ 2 + up (lat * Real.pi / 180) (lon * Real.pi / 180) 1 ^ 2
        + up (lat * Real.pi / 180) (lon * Real.pi / 180) 2 ^ 2 = 1 := by
      unfold up
      simp only [cons_val_zero, cons_val_one, cons_val]
      linear_combination l1 + Real.cos (lat * Real.pi / 180) ^ 2 * l2
    generalize up (lat * Real.pi / 180) (lon * Real.pi / 180) = n at *
    have g0 := congrFun hg 0
    have g1 := congrFun hg 1
    have g2 := congrFun hg 2
    unfold gradient at g0 g1 g2
    simp only [Pi.smul_apply, smul_eq_mul, cons_val_zero, cons_val_one, cons_val] at g0 g1 g2
    unfold OnEllipsoid at hE hq
    unfold len
    simp only [Pi.add_apply, Pi.sub_apply, Pi.smul_apply, smul_eq_mul]
    apply Real.le_sqrt_of_sq_le
    rw [sq_abs]
    exact nearest_on_ellipsoid h hc hn g0 g1 g2 hE hq

/-- The point at Monterey, 100 m up: its distance from the ellipsoid is 100 m. -/
example (q : Vec) (hq : OnEllipsoid q) : 100 ≤ len (lla2ecef ![36.6, -121.9, 100] - q) := by
  have := (C38_distance 36.6 (-121.9) 100 (by norm_num)).2.2 q hq
  rwa [abs_of_pos (by norm_num)] at this

/-- No other coordinates than these give the point at Monterey. -/
example (lat lon alt : ℝ) (h1 : -90 ≤ lat ∧ lat ≤ 90) (h2 : -180 < lon ∧ lon ≤ 180) (h3 : -6335439 ≤ alt)
    (h : lla2ecef ![lat, lon, alt] = lla2ecef ![36.6, -121.9, 100]) : lat = 36.6 ∧ lon = -121.9 ∧ alt = 100 := by
  obtain ⟨a1, a2, a3⟩ := C38_unique lat lon alt _ _ _ h1 (by norm_num) h2 (by norm_num) h3 (by norm_num) h
  exact ⟨a1, a3 (by rw [a1, abs_of_pos] <;> norm_num), a2⟩

/-- A point of which only x, y and z are known. -/
example : ∃ lat lon alt, (-90 ≤ lat ∧ lat ≤ 90) ∧ (-180 < lon ∧ lon ≤ 180) ∧ -6335439 ≤ alt ∧
    lla2ecef ![lat, lon, alt] = ![1000000, 2000000, -6000000] :=
  C38_every_point _ (by
    unfold len
    exact Real.le_sqrt_of_sq_le (by simp only [cons_val_zero, cons_val_one, cons_val]; norm_num))

/-! ## C39 for points -/

/-- Every point off the axis within 100 km of the ellipsoid: it has coordinates, and `ecef2lla` returns the longitude
exactly, the latitude to 1.1e-5 degrees plus 1e-9 degrees per metre of altitude and the altitude to 1.2 m plus 0.2 mm
per metre of altitude. -/
theorem C39_near_ellipsoid (pos q : Vec) (tol : ℝ) (haxis : ¬ (pos 0 = 0 ∧ pos 1 = 0)) (hq : OnEllipsoid q)
    (hd : len (pos - q) ≤ 100000) (h0 : 0 < tol) (h1 : tol ≤ 1e-6) :
    ∃ lat lon alt v, lla2ecef ![lat, lon, alt] = pos ∧ (-90 < lat ∧ lat < 90) ∧ (-180 < lon ∧ lon ≤ 180) ∧
      |alt| ≤ len (pos - q) ∧ ecef2lla pos tol = some (.ok v) ∧
      |v 0 - lat| ≤ 1.1e-5 + 1e-9 * |alt| ∧ v 1 = lon ∧ |v 2 - alt| ≤ 1.2 + 2e-4 * |alt| := by
  have hlq : 6356752 ≤ len q := by
    unfold len
    apply Real.le_sqrt_of_sq_le
    unfold OnEllipsoid at hq
    have := sq_nonneg (q 0)
    have := sq_nonneg (q 1)
    norm_num at hq ⊢
    linarith
  have hlen := len_sub_le pos q
  obtain ⟨lat, lon, alt, a1, a2, a3, a4⟩ := C38_every_point pos (by linarith)
  have ha := (C38_distance lat lon alt a3).2.2 q hq
  rw [a4] at ha
  have p90 : ∀ s : ℝ, |s| = 90 → lat ≠ s := by
    rintro s hs rfl
    apply haxis
    rw [← a4]
    rcases eq_or_eq_neg_of_abs_eq hs with h | h <;> rw [h]
    · rw [(C38_poles lon alt).1]; exact ⟨rfl, rfl⟩
    · rw [(C38_poles lon alt).2]; exact ⟨rfl, rfl⟩
  have b1 : -90 < lat ∧ lat < 90 :=
    ⟨lt_of_le_of_ne a1.1 (p90 (-90) (by norm_num)).symm, lt_of_le_of_ne a1.2 (p90 90 (by norm_num))⟩
  obtain ⟨v, c1, c2⟩ := C39_accuracy lat lon alt tol b1 a2 (ha.trans hd) h0 h1
  rw [a4] at c1
  exact ⟨lat, lon, alt, v, a4, b1, a2, ha, c1, c2⟩

/-- The point at Monterey, 100 m up. -/
example : ∃ v, ecef2lla (lla2ecef ![36.6, -121.9, 100]) 1e-9 = some (.ok v) ∧ v 1 = -121.9 := by
  have hd : len (lla2ecef ![36.6, -121.9, 100] - lla2ecef ![36.6, -121.9, 0]) = 100 := by
    rw [(C38_distance _ _ _ (by norm_num)).2.1, abs_of_pos (by norm_num)]
  have hx : ¬ (lla2ecef ![36.6, -121.9, 100] 0 = 0 ∧ lla2ecef ![36.6, -121.9, 100] 1 = 0) := by
    rintro ⟨h0, h1⟩
    have hp := Real.pi_pos
    have p1 : 0 < (NN (36.6 * Real.pi / 180) + 100) * Real.cos (36.6 * Real.pi / 180) :=
      mul_pos (by linarith [NN_pos (36.6 * Real.pi / 180)])
        (Real.cos_pos_of_mem_Ioo ⟨by linarith, by linarith⟩)
    rw [lla2ecef_form] at h0 h1
    simp only [cons_val_zero, cons_val_one] at h0 h1
    have c := (mul_eq_zero.1 h0).resolve_left p1.ne'
    have s := (mul_eq_zero.1 h1).resolve_left p1.ne'
    have := Real.sin_sq_add_cos_sq (-121.9 * Real.pi / 180)
    rw [c, s] at this
    norm_num at this
  obtain ⟨lat, lon, alt, v, a1, a2, a3, a4, a5, -, a6, -⟩ := C39_near_ellipsoid _ _ 1e-9 hx
    (C38_ellipsoid 36.6 (-121.9)) (by rw [hd]; norm_num) (by norm_num) (by norm_num)
  rw [hd] at a4
  obtain ⟨b1, b2, b3⟩ := C38_unique _ _ _ _ _ _ ⟨a2.1.le, a2.2.le⟩ (by norm_num) a3 (by norm_num)
    (by linarith [(abs_le.1 a4).1]) (by norm_num) a1
  exact ⟨v, a5, by rw [a6, b3 (by rw [b1, abs_of_pos] <;> norm_num)]⟩

end Dis
