import Verif.Props.Chart
import Verif.Props.Geodetic64
import Verif.Proof.Demo

/-!
# C71 for points

`GPS.ecef2lla` of /repo/opendis/RangeCoordinates.py on doubles, for a point given by its x, y and z. Its exact geodetic
coordinates exist and are unique (C38).
-/

set_option exponentiation.threshold 4096

namespace Dis

open Geo

/-- A point within 100 km of the ellipsoid and at least 1 m from the axis, given in doubles that are within `δ` of it,
at most 0.4 µm: the call returns. The latitude and altitude are within the bounds of `C71_accuracy` of those of the
point. If the double for y is not minus zero, the direction of the longitude errs by about three times `δ` over the
distance from the axis. -/
theorem C71_point (L : Dbl.Libm) (h1 : L.SquareOk) (h2 : L.SquareReturns) (h3 : L.TrigOk) (h4 : L.ArcOk)
    (pos : Dbl.Vec) (tol : F64) (p q : Vec) (δ r : ℝ) (hf : ∀ i, (pos i).Finite)
    (hpos : ∀ i, |ofDouble (pos i) - p i| ≤ δ) (hδ : δ ≤ 4e-7)
    (hq : OnEllipsoid q) (hd : len (p - q) ≤ 100000) (hr : r = Real.sqrt (p 0 ^ 2 + p 1 ^ 2)) (haxis : 1 ≤ r)
    (tf : tol.Finite) (tl : 1.3e-10 ≤ ofDouble tol) (tu : ofDouble tol ≤ 9e-7) :
    ∃ lat lon alt lla, lla2ecef ![lat, lon, alt] = p ∧ (-90 < lat ∧ lat < 90) ∧ (-180 < lon ∧ lon ≤ 180) ∧
      |alt| ≤ len (p - q) ∧ Dbl.ecef2lla L pos tol = some (.ok lla) ∧ (∀ i, i ≠ 1 → (lla i).Finite) ∧
      |ofDouble (lla 0) - lat| ≤ 1.1e-5 + 1.1e-9 * |alt| ∧
      |ofDouble (lla 2) - alt| ≤ 1.17 + 0.0002 * |alt| ∧
      ((ofDouble (pos 1) = 0 → (pos 1).sign = 0) → (lla 1).Finite ∧
        |Real.cos (ofDouble (lla 1) * Real.pi / 180) - Real.cos (lon * Real.pi / 180)| ≤ 3.01 * δ / r + 2e-15 ∧
        |Real.sin (ofDouble (lla 1) * Real.pi / 180) - Real.sin (lon * Real.pi / 180)| ≤ 3.01 * δ / r + 2e-15) := by
  have hoff : ¬ (p 0 = 0 ∧ p 1 = 0) := by
    rintro ⟨e0, e1⟩
    rw [hr, e0, e1] at haxis
    norm_num at haxis
  obtain ⟨lat, lon, alt, -, a1, a2, a3, a4, -⟩ := C39_near_ellipsoid p q 1e-9 hoff hq hd (by norm_num) (by norm_num)
  have δ0 : 0 ≤ δ := (abs_nonneg _).trans (hpos 0)
  subst a1
  obtain ⟨lla, er, b0, b1, b2, b3⟩ := C71_accuracy L h1 h2 h3 h4 pos tol lat lon alt hf a2 (a4.trans hd)
    (fun i => (hpos i).trans hδ) (hr ▸ haxis) tf tl tu
  refine ⟨lat, lon, alt, lla, rfl, a2, a3, a4, er, ?_, b1, b3, fun hy => ?_⟩
  · intro i hi
    match i with
    | 0 => exact b0
    | 1 => exact absurd rfl hi
    | 2 => exact b2
  have ht : -(Real.pi / 2) < lat * Real.pi / 180 ∧ lat * Real.pi / 180 < Real.pi / 2 := by
    have := Real.pi_pos
    constructor <;> nlinarith
  have hD := D_bounds (t := lat * Real.pi / 180) (a4.trans hd)
  have hP := lla2ecef_p (lon := lon) ht (show 0 < NN (lat * Real.pi / 180) * (1 - WGS84.e ^ 2) + alt by linarith)
  rw [← hr] at hP
  have hx := hpos 0
  have hy' := hpos 1
  rw [lla2ecef_form] at hx hy'
  simp only [Matrix.cons_val_zero, Matrix.cons_val_one] at hx hy'
  rw [← hP] at hx hy'
  norm_num at hδ
  obtain ⟨d1, d2, d3⟩ := direction_near' (by linarith) hx hy'
  obtain ⟨l0, hl⟩ := C71_longitude L h4 pos lla tol hf d1 hy er
  have hpi := Real.pi_pos
  have ha : |ofDouble (lla 1) * Real.pi / 180 - Geo.atan2 (ofDouble (pos 1)) (ofDouble (pos 0))| ≤ 2e-15 := by
    have : ofDouble (lla 1) * Real.pi / 180 - Geo.atan2 (ofDouble (pos 1)) (ofDouble (pos 0))
        = (ofDouble (lla 1) - Geo.atan2 (ofDouble (pos 1)) (ofDouble (pos 0)) * 180 / Real.pi) * (Real.pi / 180) := by
      field_simp
    rw [this, abs_mul, abs_of_pos (show 0 < Real.pi / 180 by positivity)]
    have hp : Real.pi / 180 ≤ 0.02 := by linarith [Real.pi_lt_d2]
    exact (mul_le_mul hl hp (by positivity) (by norm_num)).trans (by norm_num)
  have hb : 3 * δ / (r - 2 * δ) ≤ 3.01 * δ / r := by
    rw [div_le_div_iff₀ (by linarith) (by linarith)]
    nlinarith
  refine ⟨l0, ?_, ?_⟩
  · have := (Real.abs_cos_sub_cos_le _ _).trans ha
    have := (abs_sub_le _ _ _).trans (add_le_add this d2)
    linarith
  · have := (Real.abs_sin_sub_sin_le _ _).trans ha
    have := (abs_sub_le _ _ _).trans (add_le_add this d3)
    linarith

/-- The point (0, 6378200, 50) in doubles that hold it exactly: the altitude found is within 1.2 m of its distance from
the ellipsoid, which is at most 81 m. -/
example : ∃ lat lon alt lla, lla2ecef ![lat, lon, alt] = ![0, 6378200, 50] ∧ |alt| ≤ 81 ∧
    Dbl.ecef2lla referenceLibm ![Dbl.num 0, Dbl.num 6378200, Dbl.num 50] Dbl.defaultTolerance = some (.ok lla) ∧
    |ofDouble (lla 2) - alt| ≤ 1.2 := by
  have v0 := ap_num 0 (r := 0) (by norm_num) (by norm_num)
  have v1 := ap_num 6378200 (r := 6378200) (by norm_num) (by norm_num)
  have v2 := ap_num 50 (r := 50) (by norm_num) (by norm_num)
  generalize Dbl.num 0 = x at *
  generalize Dbl.num 6378200 = y at *
  generalize Dbl.num 50 = z at *
  have hlen : len (![0, 6378200, 50] - ![0, 6378137, 0]) ≤ 81 := by
    unfold len
    rw [Real.sqrt_le_left (by norm_num)]
    simp only [Pi.sub_apply, Matrix.cons_val_zero, Matrix.cons_val_one, Matrix.cons_val]
    norm_num
  obtain ⟨lat, lon, alt, lla, a1, -, -, a2, a3, -, -, a4, -⟩ := C71_point referenceLibm reference_square
    reference_returns reference_trig referenceLibm_arc ![x, y, z] Dbl.defaultTolerance
    ![0, 6378200, 50] ![0, 6378137, 0] 0 6378200
    (fun i => by
      match i with
      | 0 => exact v0.1
      | 1 => exact v1.1
      | 2 => exact v2.1)
    (fun i => by
      match i with
      | 0 => exact v0.2
      | 1 => exact v1.2
      | 2 => exact v2.2)
    (by norm_num)
    (by unfold OnEllipsoid; simp only [Matrix.cons_val_zero, Matrix.cons_val_one, Matrix.cons_val]; norm_num)
    (hlen.trans (by norm_num))
    (by
      simp only [Matrix.cons_val_zero, Matrix.cons_val_one]
      rw [show ((0 : ℝ) ^ 2 + 6378200 ^ 2) = 6378200 ^ 2 by norm_num, Real.sqrt_sq (by norm_num)])
    (by norm_num) defaultTolerance_finite defaultTolerance_range.1 defaultTolerance_range.2
  refine ⟨lat, lon, alt, lla, a1, a2.trans hlen, a3, a4.trans ?_⟩
  have := a2.trans hlen
  norm_num at this ⊢
  linarith

end Dis
