import Verif.Proof.Curvature
import Verif.Proof.Utm
import Mathlib.Analysis.Calculus.MeanValue
import Mathlib.Analysis.SpecialFunctions.Integrals.Basic

/-! # Lemmas about the series of `lla2utm` -/

namespace Dis.Geo

open WGS84

/-! ## The series as polynomials in the cosine of the latitude -/

/-- Coefficients of the easting: of `c`, `c³`, `c⁵`, `c⁷` at angle `l` from the central meridian. -/
noncomputable def pE (q l x : ℝ) : ℝ :=
  (l - l ^ 3 / 6 + l ^ 5 / 120) * x + (l ^ 3 / 3 - l ^ 5 / 6) * x ^ 3
    + (q * l ^ 3 / 6 + (24 - 58 * q) * l ^ 5 / 120) * x ^ 5 + 72 * q * l ^ 5 / 120 * x ^ 7

/-- The same for the northing, the sine left out. -/
noncomputable def pN (q l x : ℝ) : ℝ :=
  (l ^ 2 / 2 - l ^ 4 / 24 + l ^ 6 / 720) * x + (l ^ 4 / 4 - l ^ 6 / 12) * x ^ 3
    + (9 * q * l ^ 4 / 24 + (120 - 330 * q) * l ^ 6 / 720) * x ^ 5
    + (4 * q ^ 2 * l ^ 4 / 24 + 600 * q * l ^ 6 / 720) * x ^ 7

/-- And of the scale factor. -/
noncomputable def pK (q l c : ℝ) : ℝ :=
  1 + (1 + q * c ^ 2) * c ^ 2 * l ^ 2 / 2
    + (9 * c ^ 4 - 4 * c ^ 2 + 42 * q * c ^ 6 + 13 * q ^ 2 * c ^ 8 - 28 * q * c ^ 4) * l ^ 4 / 24
    + (61 * c ^ 6 - 148 * (1 - c ^ 2) * c ^ 4 + 16 * (1 - c ^ 2) ^ 2 * c ^ 2) * l ^ 6 / 720

/-- The meridian arc of the code. -/
noncomputable def arcSeries (t : ℝ) : ℝ :=
  a * ((1 - e ^ 2 / 4 - 3 * (e ^ 2) ^ 2 / 64 - 5 * (e ^ 2) ^ 3 / 256) * t
    - (3 * e ^ 2 / 8 + 3 * (e ^ 2) ^ 2 / 32 + 45 * (e ^ 2) ^ 3 / 1024) * Real.sin (2 * t)
    + (15 * (e ^ 2) ^ 2 / 256 + 45 * (e ^ 2) ^ 3 / 1024) * Real.sin (4 * t)
    - (35 * (e ^ 2) ^ 3 / 3072) * Real.sin (6 * t))

/-- Angle from the central meridian of zone `z`, in radians. -/
noncomputable def fromCentre (z : ℤ) (lon : ℝ) : ℝ := (lon - (6 * (z : ℝ) - 183)) * Real.pi / 180

theorem utm_series (lat lon alt : ℝ) (hc : Real.cos (deg2rad lat) ≠ 0) :
    (lla2utm ![lat, lon, alt]).utm 0
      = 0.9996 * (transverseRadius (deg2rad lat)
          * pE ep2 (fromCentre (zoneNumber lat lon) lon) (Real.cos (deg2rad lat))) + 500000
    ∧ (lla2utm ![lat, lon, alt]).utm 1
      = 0.9996 * (arcSeries (deg2rad lat) + transverseRadius (deg2rad lat) * (Real.sin (deg2rad lat)
          * pN ep2 (fromCentre (zoneNumber lat lon) lon) (Real.cos (deg2rad lat))))
    ∧ (lla2utm ![lat, lon, alt]).k
      = 0.9996 * pK ep2 (fromCentre (zoneNumber lat lon) lon) (Real.cos (deg2rad lat)) := by
  simp only [lla2utm, Matrix.cons_val_zero, Matrix.cons_val_one, Matrix.cons_val]
  have hl : deg2rad lon - deg2rad ((((zoneNumber lat lon - 1) * 6 - 180 + 3 : ℤ) : ℝ))
      = fromCentre (zoneNumber lat lon) lon := by
    unfold deg2rad fromCentre; push_cast; ring
  rw [hl]
  generalize fromCentre (zoneNumber lat lon) lon = l
  generalize deg2rad lat = t at *
  have hN : a / Real.sqrt (1 - e ^ 2 * Real.sin t ^ 2) = transverseRadius t := (transverse_eq t).symm
  have hep : e ^ 2 / (1 - e ^ 2) = ep2 := rfl
  rw [hN, hep, Real.tan_eq_sin_div_cos]
  have hs : Real.sin t ^ 2 = 1 - Real.cos t ^ 2 := by linarith [Real.sin_sq_add_cos_sq t]
  simp only [div_pow, hs]
  generalize ep2 = q
  generalize transverseRadius t = v
  refine ⟨?_, ?_, ?_⟩
  · unfold pE
    generalize Real.cos t = c at *
    field_simp
    ring
  · have : arcSeries t = _ := rfl
    rw [show arcSeries t = a * ((1 - e ^ 2 / 4 - 3 * (e ^ 2) ^ 2 / 64 - 5 * (e ^ 2) ^ 3 / 256) * t
      - (3 * e ^ 2 / 8 + 3 * (e ^ 2) ^ 2 / 32 + 45 * (e ^ 2) ^ 3 / 1024) * Real.sin (2 * t)
      + (15 * (e ^ 2) ^ 2 / 256 + 45 * (e ^ 2) ^ 3 / 1024) * Real.sin (4 * t)
      - (35 * (e ^ 2) ^ 3 / 3072) * Real.sin (6 * t)) from rfl]
    generalize a * _ = M
    unfold pN
    have h4 : (1 - Real.cos t ^ 2) ^ 2 = (1 - Real.cos t ^ 2) ^ 2 := rfl
    generalize Real.cos t = c at *
    generalize Real.sin t = s at *
    field_simp
    ring
  · unfold pK
    generalize Real.cos t = c at *
    field_simp
    ring

/-! ## Derivatives -/

theorem hasDerivAt_odd (k1 k3 k5 k7 x : ℝ) :
    HasDerivAt (fun x : ℝ => k1 * x + k3 * x ^ 3 + k5 * x ^ 5 + k7 * x ^ 7)
      (k1 + 3 * k3 * x ^ 2 + 5 * k5 * x ^ 4 + 7 * k7 * x ^ 6) x := by
  have h := ((((hasDerivAt_id x).const_mul k1).add ((hasDerivAt_pow 3 x).const_mul k3)).add
    ((hasDerivAt_pow 5 x).const_mul k5)).add ((hasDerivAt_pow 7 x).const_mul k7)
  refine h.congr_deriv ?_
  push_cast
  ring

/-- Derivative of `pE` in the cosine. -/
noncomputable def pE' (q l x : ℝ) : ℝ :=
  (l - l ^ 3 / 6 + l ^ 5 / 120) + 3 * (l ^ 3 / 3 - l ^ 5 / 6) * x ^ 2
    + 5 * (q * l ^ 3 / 6 + (24 - 58 * q) * l ^ 5 / 120) * x ^ 4 + 7 * (72 * q * l ^ 5 / 120) * x ^ 6

/-- Derivative of `pN` in the cosine. -/
noncomputable def pN' (q l x : ℝ) : ℝ :=
  (l ^ 2 / 2 - l ^ 4 / 24 + l ^ 6 / 720) + 3 * (l ^ 4 / 4 - l ^ 6 / 12) * x ^ 2
    + 5 * (9 * q * l ^ 4 / 24 + (120 - 330 * q) * l ^ 6 / 720) * x ^ 4
    + 7 * (4 * q ^ 2 * l ^ 4 / 24 + 600 * q * l ^ 6 / 720) * x ^ 6

theorem hasDerivAt_pE (q l x : ℝ) : HasDerivAt (pE q l) (pE' q l x) x := hasDerivAt_odd _ _ _ _ x

theorem hasDerivAt_pN (q l x : ℝ) : HasDerivAt (pN q l) (pN' q l x) x := hasDerivAt_odd _ _ _ _ x

/-- East component of a unit step north, up to the factor 0.9996. -/
noncomputable def nE (q l s c : ℝ) : ℝ := q * s * c * pE q l c - s * ((1 + q * c ^ 2) * pE' q l c)

/-- North component of a unit step north, without the meridian arc. -/
noncomputable def nN (q l s c : ℝ) : ℝ :=
  q * s ^ 2 * c * pN q l c + (1 + q * c ^ 2) * (c * pN q l c - s ^ 2 * pN' q l c)

/-- East component of a unit step east. -/
noncomputable def eE (q l x : ℝ) : ℝ :=
  (1 - l ^ 2 / 2 + l ^ 4 / 24) + (l ^ 2 - 5 * l ^ 4 / 6) * x ^ 2
    + (q * l ^ 2 / 2 + (24 - 58 * q) * l ^ 4 / 24) * x ^ 4 + 3 * q * l ^ 4 * x ^ 6

/-- North component of a unit step east, the sine left out. -/
noncomputable def eN (q l x : ℝ) : ℝ :=
  (l - l ^ 3 / 6 + l ^ 5 / 120) + (l ^ 3 - l ^ 5 / 2) * x ^ 2
    + (3 * q * l ^ 3 / 2 + (120 - 330 * q) * l ^ 5 / 120) * x ^ 4
    + (2 * q ^ 2 * l ^ 3 / 3 + 5 * q * l ^ 5) * x ^ 6

theorem hasDerivAt_E_lat (l t : ℝ) :
    HasDerivAt (fun t => transverseRadius t * pE ep2 l (Real.cos t))
      (meridianRadius t * nE ep2 l (Real.sin t) (Real.cos t)) t := by
  have hq := ep2_gt
  have h1 : 1 + ep2 * Real.cos t ^ 2 ≠ 0 := by positivity
  have h := (hasDerivAt_transverse t).mul ((hasDerivAt_pE ep2 l (Real.cos t)).comp t (Real.hasDerivAt_cos t))
  refine h.congr_deriv ?_
  have ht := transverse_meridian t
  simp only [Function.comp, nE]
  rw [ht]
  field_simp
  ring

theorem hasDerivAt_N_lat (l t : ℝ) :
    HasDerivAt (fun t => transverseRadius t * (Real.sin t * pN ep2 l (Real.cos t)))
      (meridianRadius t * nN ep2 l (Real.sin t) (Real.cos t)) t := by
  have hq := ep2_gt
  have h1 : 1 + ep2 * Real.cos t ^ 2 ≠ 0 := by positivity
  have h := (hasDerivAt_transverse t).mul
    ((Real.hasDerivAt_sin t).mul ((hasDerivAt_pN ep2 l (Real.cos t)).comp t (Real.hasDerivAt_cos t)))
  refine h.congr_deriv ?_
  have ht := transverse_meridian t
  simp only [Function.comp, nN, Pi.mul_apply]
  rw [ht]
  field_simp
  ring

theorem hasDerivAt_E_lon (q l x : ℝ) : HasDerivAt (fun l => pE q l x) (x * eE q l x) l := by
  have h := (((hasDerivAt_id l).const_mul x).add ((hasDerivAt_pow 3 l).const_mul (-x / 6 + x ^ 3 / 3 + q * x ^ 5 / 6))).add
    ((hasDerivAt_pow 5 l).const_mul (x / 120 - x ^ 3 / 6 + (24 - 58 * q) / 120 * x ^ 5 + 72 * q / 120 * x ^ 7))
  have hf : (fun l => pE q l x) = fun l => x * l + (-x / 6 + x ^ 3 / 3 + q * x ^ 5 / 6) * l ^ 3
      + (x / 120 - x ^ 3 / 6 + (24 - 58 * q) / 120 * x ^ 5 + 72 * q / 120 * x ^ 7) * l ^ 5 := by
    funext l; unfold pE; ring
  rw [hf]
  refine h.congr_deriv ?_
  unfold eE
  push_cast
  ring

theorem hasDerivAt_N_lon (q l x : ℝ) : HasDerivAt (fun l => pN q l x) (x * eN q l x) l := by
  have h := (((hasDerivAt_pow 2 l).const_mul (x / 2)).add
    ((hasDerivAt_pow 4 l).const_mul (-x / 24 + x ^ 3 / 4 + 9 * q / 24 * x ^ 5 + 4 * q ^ 2 / 24 * x ^ 7))).add
    ((hasDerivAt_pow 6 l).const_mul (x / 720 - x ^ 3 / 12 + (120 - 330 * q) / 720 * x ^ 5 + 600 * q / 720 * x ^ 7))
  have hf : (fun l => pN q l x) = fun l => x / 2 * l ^ 2
      + (-x / 24 + x ^ 3 / 4 + 9 * q / 24 * x ^ 5 + 4 * q ^ 2 / 24 * x ^ 7) * l ^ 4
      + (x / 720 - x ^ 3 / 12 + (120 - 330 * q) / 720 * x ^ 5 + 600 * q / 720 * x ^ 7) * l ^ 6 := by
    funext l; unfold pN; ring
  rw [hf]
  refine h.congr_deriv ?_
  unfold eN
  push_cast
  ring

/-! ## How far the series is from conformal -/

theorem residual_N (q l s c : ℝ) :
    s * eN q l c + nE q l s c = l ^ 5 * (q ^ 2 * (c ^ 6 * s * (29 / 15 - 18 / 5 * c ^ 2))) := by
  unfold eN nE pE pE'
  ring

theorem residual_E (q l s c : ℝ) (h : s ^ 2 = 1 - c ^ 2) :
    eE q l c - nN q l s c = 1
      + l ^ 4 * (q ^ 2 * (c ^ 6 * (8 / 3 - 77 / 24 * c ^ 2 + q * c ^ 2 - 7 / 6 * q * c ^ 4)))
      + l ^ 6 * (1 / 720 - 91 / 360 * c ^ 2 + 7 / 6 * c ^ 4 - c ^ 6
        + q * (-(1771 / 720) * c ^ 4 + 19 / 2 * c ^ 6 - 15 / 2 * c ^ 8)
        + q ^ 2 * (-(11 / 6) * c ^ 6 + 175 / 24 * c ^ 8 - 35 / 6 * c ^ 10)) := by
  unfold eE nN pN pN'
  rw [h]
  ring

end Dis.Geo
