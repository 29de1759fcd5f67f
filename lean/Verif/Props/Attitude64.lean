import Verif.Proof.Llarpy64
import Verif.Proof.ReferenceNumpy
import Verif.Props.Geodetic64

/-!
# C72: orientations in floating point

`GPS.llarpy2ecef` and `GPS.ecef2llarpy` of /repo/opendis/RangeCoordinates.py on doubles, for any mathematical library and
matrix products within the bounds of `Numpy.Accurate` (`Spec/Libm.lean`). Orientations are compared as rotation
matrices, entry by entry, so that nothing has to be excluded where the angles themselves are not unique (gimbal
lock). `attitude ![psi, theta, phi]` is the rotation three Euler angles stand for and `nedFrame lat lon` the matrix of
the north, east and down directions (`Spec/Geo.lean`).
-/

set_option exponentiation.threshold 4096

namespace Dis

open Geo

/-- Any finite roll, pitch and yaw, at a latitude up to 1.5707963 radians: the call returns, the position is
within 7e-15 of the distance from the centre of the Earth, and the Euler angles are at most 3.1416, the second
at most π/2 + 2e-10 in magnitude, and stand for the orientation of the entity within 7e-10. -/
theorem C72_llarpy2ecef (L : Dbl.Numpy) (hL : L.Accurate) (lat lon alt roll pitch yaw : F64) (hlat : lat.Finite)
    (hlon : lon.Finite) (halt : alt.Finite) (hroll : roll.Finite) (hpitch : pitch.Finite) (hyaw : yaw.Finite)
    (blat : |ofDouble lat| ≤ 1.5707963) (blon : |ofDouble lon| ≤ 6.28) (balt : |ofDouble alt| ≤ 2 ^ 900) :
    ∃ pos euler, Dbl.llarpy2ecef L lat lon alt roll pitch yaw = .ok (pos, euler) ∧
      (∀ i, (pos i).Finite ∧
        |ofDouble (pos i)
            - lla2ecef ![ofDouble lat * 180 / Real.pi, ofDouble lon * 180 / Real.pi, ofDouble alt] i|
          ≤ 7e-15 * (6378137 + |ofDouble alt|)) ∧
      (∀ i, (euler i).Finite ∧ |ofDouble (euler i)| ≤ 3.1416) ∧
      |ofDouble (euler 1)| ≤ Real.pi / 2 + 2e-10 ∧
      ∀ i j, |attitude ![ofDouble (euler 0), ofDouble (euler 1), ofDouble (euler 2)] i j
        - (nedFrame (ofDouble lat) (ofDouble lon) * attitude ![ofDouble yaw, ofDouble pitch, ofDouble roll]) i j|
          ≤ 7e-10 :=
  llarpy_near hL hlat hlon halt hroll hpitch hyaw blat blon balt

/-- Any finite Euler angles, wherever `ecef2lla` returns a finite latitude and longitude: the call returns them in
radians, the angles are at most 3.1416, the pitch at most π/2 + 2e-10 in magnitude, and turning the local frame there by
the returned yaw, pitch and roll gives the orientation passed in, within 2.1e-9. -/
theorem C72_ecef2llarpy (L : Dbl.Numpy) (hL : L.Accurate) (X Y Z psi theta phi : F64) (hpsi : psi.Finite)
    (htheta : theta.Finite) (hphi : phi.Finite) (lla : Dbl.Vec)
    (hlla : Dbl.ecef2lla L.toLibm ![X, Y, Z] Dbl.defaultTolerance = some (.ok lla))
    (hlat : (lla 0).Finite ∧ |ofDouble (lla 0)| ≤ 2 ^ 900) (hlon : (lla 1).Finite ∧ |ofDouble (lla 1)| ≤ 2 ^ 900) :
    ∃ lat lon roll pitch yaw, Dbl.ecef2llarpy L X Y Z psi theta phi
        = some (.ok (![lat, lon, lla 2], ![roll, pitch, yaw])) ∧
      (lat.Finite ∧ lon.Finite ∧ roll.Finite ∧ pitch.Finite ∧ yaw.Finite) ∧
      (|ofDouble roll| ≤ 3.1416 ∧ |ofDouble pitch| ≤ Real.pi / 2 + 2e-10 ∧ |ofDouble yaw| ≤ 3.1416) ∧
      |ofDouble lat - ofDouble (lla 0) * Real.pi / 180| ≤ |ofDouble (lla 0)| * 4.7e-18 + 1 / 2 ^ 99 ∧
      |ofDouble lon - ofDouble (lla 1) * Real.pi / 180| ≤ |ofDouble (lla 1)| * 4.7e-18 + 1 / 2 ^ 99 ∧
      ∀ i j, |(nedFrame (ofDouble lat) (ofDouble lon) * attitude ![ofDouble yaw, ofDouble pitch, ofDouble roll]) i j
        - attitude ![ofDouble psi, ofDouble theta, ofDouble phi] i j| ≤ 2.1e-9 := by
  have d0 := Ap.deg2rad hlat.1 le_rfl hlat.2
  have d1 := Ap.deg2rad hlon.1 le_rfl hlon.2
  obtain ⟨v, e, fv, pv, hv⟩ := rest_near hL d0.1 d1.1 hpsi htheta hphi
  refine ⟨_, _, _, _, _, ?_, ⟨d0.1, d1.1, (fv 2).1, (fv 1).1, (fv 0).1⟩, ⟨(fv 2).2, pv, (fv 0).2⟩, d0.2, d1.2, hv⟩
  rw [Dbl.ecef2llarpy, hlla, ← e]

/-- Otherwise the outcome is that of `ecef2lla`: the same exception, or running forever. -/
theorem C72_failure (L : Dbl.Numpy) (X Y Z psi theta phi : F64) :
    (Dbl.ecef2lla L.toLibm ![X, Y, Z] Dbl.defaultTolerance = none → Dbl.ecef2llarpy L X Y Z psi theta phi = none) ∧
    ∀ err, Dbl.ecef2lla L.toLibm ![X, Y, Z] Dbl.defaultTolerance = some (.error err) →
      Dbl.ecef2llarpy L X Y Z psi theta phi = some (.error err) := by
  constructor
  · intro h
    rw [Dbl.ecef2llarpy, h]
  · intro err h
    rw [Dbl.ecef2llarpy, h]

/-- An infinite roll, pitch or yaw raises `ValueError`, whatever the other two are. -/
theorem C72_infinite (L : Dbl.Numpy) (hL : L.Accurate) (lat lon alt roll pitch yaw : F64) (hlat : lat.Finite)
    (hlon : lon.Finite) (halt : alt.Finite) (blat : |ofDouble lat| ≤ 1.5707963) (blon : |ofDouble lon| ≤ 6.28)
    (balt : |ofDouble alt| ≤ 2 ^ 900) (h : roll.Infinite ∨ pitch.Infinite ∨ yaw.Infinite) :
    Dbl.llarpy2ecef L lat lon alt roll pitch yaw = .error .valueError := by
  obtain ⟨pos, euler, e1, -⟩ := llarpy_near hL hlat hlon halt zero_finite zero_finite zero_finite blat blon balt
  obtain ⟨M, e2, -⟩ := ned_near hL.trig hlat hlon
  cases e : Dbl.lla2ecef L.toPlatform ![Dbl.rad2deg lat, Dbl.rad2deg lon, alt] with
  | error err =>
    simp only [Dbl.llarpy2ecef, e] at e1
    cases e1
  | ok XYZ =>
    have := turned_infinite L.toPlatform (M 0) (M 1) (M 2) (by tauto : yaw.Infinite ∨ pitch.Infinite ∨ roll.Infinite)
    simp only [Dbl.llarpy2ecef, e, e2, this, bind_ok]
    rfl

/-- Latitude, longitude, altitude, roll, pitch and yaw to geocentric coordinates and Euler angles and back, within
100 km of the ellipsoid and at least 1 m from the axis: the latitude is within 2e-7 radians (1.3 m) plus 2e-11 per
metre of altitude, the longitude within 1.3 µm along the parallel, the altitude within 1.17 m plus 0.2 mm per metre,
and the orientation in space within 2.8e-9. -/
theorem C72_round_trip (L : Dbl.Numpy) (hL : L.Accurate) (lat lon alt roll pitch yaw : F64) (hlat : lat.Finite)
    (hlon : lon.Finite) (halt : alt.Finite) (hroll : roll.Finite) (hpitch : pitch.Finite) (hyaw : yaw.Finite)
    (blat : |ofDouble lat| ≤ 1.5707963) (blon : |ofDouble lon| ≤ 6.28) (balt : |ofDouble alt| ≤ 100000) (q : ℝ)
    (hq : q = Real.sqrt (lla2ecef ![ofDouble lat * 180 / Real.pi, ofDouble lon * 180 / Real.pi, ofDouble alt] 0 ^ 2
      + lla2ecef ![ofDouble lat * 180 / Real.pi, ofDouble lon * 180 / Real.pi, ofDouble alt] 1 ^ 2)) (haxis : 1 ≤ q) :
    ∃ pos euler lat' lon' alt' roll' pitch' yaw',
      Dbl.llarpy2ecef L lat lon alt roll pitch yaw = .ok (pos, euler) ∧
      Dbl.ecef2llarpy L (pos 0) (pos 1) (pos 2) (euler 0) (euler 1) (euler 2)
        = some (.ok (![lat', lon', alt'], ![roll', pitch', yaw'])) ∧
      |ofDouble lat' - ofDouble lat| ≤ 2e-7 + 2e-11 * |ofDouble alt| ∧
      q * |Real.cos (ofDouble lon') - Real.cos (ofDouble lon)| ≤ 1.3e-6 ∧
      q * |Real.sin (ofDouble lon') - Real.sin (ofDouble lon)| ≤ 1.3e-6 ∧
      |ofDouble alt' - ofDouble alt| ≤ 1.17 + 0.0002 * |ofDouble alt| ∧
      ∀ i j, |(nedFrame (ofDouble lat') (ofDouble lon')
            * attitude ![ofDouble yaw', ofDouble pitch', ofDouble roll']) i j
          - (nedFrame (ofDouble lat) (ofDouble lon) * attitude ![ofDouble yaw, ofDouble pitch, ofDouble roll]) i j|
        ≤ 2.8e-9 := by
  obtain ⟨pos, euler, e1, hp, fe, -, he⟩ := llarpy_near hL hlat hlon halt hroll hpitch hyaw blat blon
    (balt.trans (by norm_num))
  have pi20 := Real.pi_gt_d20
  have c1 : |ofDouble lat * 180 / Real.pi| < 90 := by
    rw [abs_div, abs_mul, abs_of_pos Real.pi_pos, abs_of_pos (show (0 : ℝ) < 180 by norm_num), div_lt_iff₀ Real.pi_pos]
    norm_num at pi20 blat ⊢
    linarith
  have hback : ∀ x : ℝ, x * 180 / Real.pi * Real.pi / 180 = x := fun x => by
    have := Real.pi_ne_zero
    field_simp
  obtain ⟨lla, e2, a0, f1, c, s, a2⟩ := geodetic_near hL (pos := ![pos 0, pos 1, pos 2])
    (fun i => by fin_cases i; exacts [(hp 0).1, (hp 1).1, (hp 2).1]) (abs_lt.1 c1) balt
    (fun i => by
      have : 7e-15 * (6378137 + |ofDouble alt|) ≤ 4e-7 := by norm_num at balt ⊢; linarith
      fin_cases i
      exacts [(hp 0).2.trans this, (hp 1).2.trans this, (hp 2).2.trans this]) (by rw [← hq]; exact haxis)
  rw [hback] at a0 c s
  rw [← hq] at c s
  obtain ⟨v, e3, fv, -, hv⟩ := rest_near hL a0.1 f1.1 (fe 0).1 (fe 1).1 (fe 2).1
  refine ⟨pos, euler, _, _, _, v 2, v 1, v 0, e1, ?_, a0.2, c, s, a2.2, fun i j => ?_⟩
  · rw [Dbl.ecef2llarpy, e2, ← e3]
  · exact (abs_sub_le _ _ _).trans ((add_le_add (hv i j) (he i j)).trans (by norm_num))

/-! ## Concrete cases -/

theorem half_radian_axis : 1 ≤ Real.sqrt (lla2ecef ![(1 / 2 : ℝ) * 180 / Real.pi, (-2 : ℝ) * 180 / Real.pi, 100] 0 ^ 2
    + lla2ecef ![(1 / 2 : ℝ) * 180 / Real.pi, (-2 : ℝ) * 180 / Real.pi, 100] 1 ^ 2) := by
  have hb : (1 / 2 : ℝ) * 180 / Real.pi * Real.pi / 180 = 1 / 2 := by
    have := Real.pi_ne_zero
    field_simp
  have hpi := Real.pi_gt_three
  have hD := D_bounds (t := (1 / 2 : ℝ)) (h := 100) (by norm_num [abs_le])
  rw [lla2ecef_p (by rw [hb]; constructor <;> linarith) (by rw [hb]; linarith [hD.2]), hb]
  have hN := (NN_bounds (1 / 2 : ℝ)).1
  have ha : (2 : ℝ) ≤ WGS84.a := by unfold WGS84.a; norm_num
  have hc : 0.5 ≤ Real.cos (1 / 2 : ℝ) := by
    have h1 := Real.one_sub_sq_div_two_le_cos (x := (1 / 2 : ℝ))
    norm_num at h1 ⊢
    linarith
  have := mul_le_mul (show 2 ≤ NN (1 / 2 : ℝ) + 100 by linarith) hc (by norm_num) (by linarith)
  norm_num at this ⊢
  linarith

/-- Latitude 1/2, longitude -2, 100 m up, rolled by 1/4, flying straight up (a pitch of π/2: gimbal lock), yaw 1. -/
theorem upright : ∃ pos euler lat' lon' alt' roll' pitch' yaw',
    Dbl.llarpy2ecef referenceNumpy 0x3fe0000000000000 0xc000000000000000 0x4059000000000000 0x3fd0000000000000
      0x3ff921fb54442d18 0x3ff0000000000000 = .ok (pos, euler) ∧
    Dbl.ecef2llarpy referenceNumpy (pos 0) (pos 1) (pos 2) (euler 0) (euler 1) (euler 2)
      = some (.ok (![lat', lon', alt'], ![roll', pitch', yaw'])) ∧
    |ofDouble lat' - 1 / 2| ≤ 2.1e-7 ∧ |ofDouble alt' - 100| ≤ 1.2 := by
  have v0 : ofDouble 0x3fe0000000000000 = 1 / 2 := by
    rw [val_units (m := 1) 1073 1 (by decide +kernel) rfl]; norm_num
  have v1 : ofDouble 0xc000000000000000 = -2 := by
    rw [val_units (m := -2) 1074 0 (by decide +kernel) rfl]; norm_num
  have v2 : ofDouble 0x4059000000000000 = 100 := by
    rw [val_units (m := 100) 1074 0 (by decide +kernel) rfl]; norm_num
  obtain ⟨pos, euler, lat', lon', alt', roll', pitch', yaw', e1, e2, a0, -, -, a2, -⟩ := C72_round_trip referenceNumpy
    referenceNumpy_accurate 0x3fe0000000000000 0xc000000000000000 0x4059000000000000 0x3fd0000000000000
    0x3ff921fb54442d18 0x3ff0000000000000
    (show F64.expo _ ≠ 2047 by decide +kernel) (show F64.expo _ ≠ 2047 by decide +kernel)
    (show F64.expo _ ≠ 2047 by decide +kernel) (show F64.expo _ ≠ 2047 by decide +kernel)
    (show F64.expo _ ≠ 2047 by decide +kernel) (show F64.expo _ ≠ 2047 by decide +kernel)
    (by rw [v0]; norm_num [abs_le]) (by rw [v1]; norm_num [abs_le]) (by rw [v2]; norm_num [abs_le]) _ rfl
    (by rw [v0, v1, v2]; exact half_radian_axis)
  refine ⟨pos, euler, lat', lon', alt', roll', pitch', yaw', e1, e2, ?_, ?_⟩
  · rw [v0, v2] at a0
    refine a0.trans ?_
    norm_num [abs_le]
  · rw [v2] at a2
    refine a2.trans ?_
    norm_num [abs_le]

/-- Over the north pole: a point of the axis, Euler angles 1, -1/2 and 2. -/
example : ∃ lat lon alt roll pitch yaw, Dbl.ecef2llarpy referenceNumpy 0 0 0x41583fcb00000000 0x3ff0000000000000
      0xbfe0000000000000 0x4000000000000000 = some (.ok (![lat, lon, alt], ![roll, pitch, yaw])) ∧
    ∀ i j, |(nedFrame (ofDouble lat) (ofDouble lon) * attitude ![ofDouble yaw, ofDouble pitch, ofDouble roll]) i j
      - attitude ![1, -1 / 2, 2] i j| ≤ 2.1e-9 := by
  have v0 : ofDouble 0 = 0 := by
    rw [val_units (m := 0) 1074 0 (by decide +kernel) rfl]; norm_num
  have v2 : ofDouble 0x41583fcb00000000 = 6356780 := by
    rw [val_units (m := 6356780) 1074 0 (by decide +kernel) rfl]; norm_num
  have w0 : ofDouble 0x3ff0000000000000 = 1 := by
    rw [val_units (m := 1) 1074 0 (by decide +kernel) rfl]; norm_num
  have w1 : ofDouble 0xbfe0000000000000 = -1 / 2 := by
    rw [val_units (m := -1) 1073 1 (by decide +kernel) rfl]; norm_num
  have w2 : ofDouble 0x4000000000000000 = 2 := by
    rw [val_units (m := 2) 1074 0 (by decide +kernel) rfl]; norm_num
  have ha := ecef2lla_axis (L := referenceNumpy.toLibm) (pos := ![0, 0, 0x41583fcb00000000]) (tol := Dbl.defaultTolerance)
    referenceNumpy_accurate.squareZero zero_finite zero_finite (show F64.expo _ ≠ 2047 by decide +kernel) v0 v0
  rw [if_pos (show 0 < ofDouble ((![0, 0, 0x41583fcb00000000] : Dbl.Vec) 2) from by
    show 0 < ofDouble 0x41583fcb00000000
    rw [v2]; norm_num)] at ha
  obtain ⟨r, e, e0, e1, -⟩ := returned ha
  have n90 := Ap.num (n := 90) (by decide)
  have n69 := Ap.num (n := 69) (by decide)
  obtain ⟨lat, lon, roll, pitch, yaw, h1, -, -, -, -, h2⟩ := C72_ecef2llarpy referenceNumpy referenceNumpy_accurate 0 0
    0x41583fcb00000000 0x3ff0000000000000 0xbfe0000000000000 0x4000000000000000
    (show F64.expo _ ≠ 2047 by decide +kernel) (show F64.expo _ ≠ 2047 by decide +kernel)
    (show F64.expo _ ≠ 2047 by decide +kernel) r e
    ⟨by rw [e0]; exact n90.1, by rw [e0]; exact (n90.le (A := 90) (by norm_num)).trans (by norm_num)⟩
    ⟨by rw [e1]; exact n69.1, by rw [e1]; exact (n69.le (A := 69) (by norm_num)).trans (by norm_num)⟩
  rw [w0, w1, w2] at h2
  exact ⟨lat, lon, _, roll, pitch, yaw, h1, h2⟩

/-- An infinite pitch, with a yaw that is not a number. -/
example : Dbl.llarpy2ecef referenceNumpy 0 0 0 0 0xfff0000000000000 0x7ff8000000000000 = .error .valueError := by
  have v0 : ofDouble 0 = 0 := by
    rw [val_units (m := 0) 1074 0 (by decide +kernel) rfl]; norm_num
  exact C72_infinite referenceNumpy referenceNumpy_accurate 0 0 0 0 0xfff0000000000000 0x7ff8000000000000 zero_finite
    zero_finite zero_finite (by rw [v0]; norm_num) (by rw [v0]; norm_num) (by rw [v0, abs_zero]; positivity)
    (Or.inr (Or.inl ⟨by decide, by decide⟩))

end Dis
