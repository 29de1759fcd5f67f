import Verif.Proof.Axis64
import Verif.Proof.Round64
import Verif.Props.Geodetic
import Verif.Props.Coordinates64

/-!
# C71: from geocentric to geodetic coordinates in floating point

`GPS.ecef2lla` of /repo/opendis/RangeCoordinates.py on doubles (`Dbl.ecef2lla`), for any mathematical library that errs by
at most one unit in the last place (`Spec/Platform.lean`, `Spec/Libm.lean`), against the exact conversion `lla2ecef`
(real numbers), whose geometric meaning is C38. `ofDouble x` is the real number a finite double stands for. The
outcome is `none` if the loop runs forever, `some (.error _)` if the call raises and `some (.ok ![lat, lon, alt])` if it
returns.
-/

set_option exponentiation.threshold 4096

namespace Dis

open Geo

/-- A point within 100 km of the ellipsoid and at least 1 m from the axis, given in doubles that are within 0.4 µm of
it, and a tolerance from 1.3e-10 to 9e-7: the call returns, the latitude is within 1.1e-5 degrees plus 1.1e-9 degrees
per metre of altitude, and the altitude within 1.17 m plus 0.2 mm per metre of altitude. -/
theorem C71_accuracy (L : Dbl.Libm) (h1 : L.SquareOk) (h2 : L.SquareReturns) (h3 : L.TrigOk) (h4 : L.ArcOk)
    (pos : Dbl.Vec) (tol : F64) (lat lon alt : ℝ) (hf : ∀ i, (pos i).Finite) (hlat : -90 < lat ∧ lat < 90)
    (halt : |alt| ≤ 100000)
    (hpos : ∀ i, |ofDouble (pos i) - lla2ecef ![lat, lon, alt] i| ≤ 4e-7)
    (haxis : 1 ≤ Real.sqrt (lla2ecef ![lat, lon, alt] 0 ^ 2 + lla2ecef ![lat, lon, alt] 1 ^ 2))
    (tf : tol.Finite) (tl : 1.3e-10 ≤ ofDouble tol) (tu : ofDouble tol ≤ 9e-7) :
    ∃ r, Dbl.ecef2lla L pos tol = some (.ok r) ∧
      (r 0).Finite ∧ |ofDouble (r 0) - lat| ≤ 1.1e-5 + 1.1e-9 * |alt| ∧
      (r 2).Finite ∧ |ofDouble (r 2) - alt| ≤ 1.17 + 0.0002 * |alt| := by
  obtain ⟨p, s, n, -, -, -, -, e, a1, a2⟩ := ecef2lla_near h1 h2 h3 h4 hf hlat halt hpos haxis tf tl tu
  exact ⟨_, e, a1.1, a1.2, a2.1, a2.2⟩

/-- The loop is left after six rounds at the latest. -/
theorem C71_rounds (L : Dbl.Libm) (h1 : L.SquareOk) (h2 : L.SquareReturns) (h3 : L.TrigOk) (h4 : L.ArcOk)
    (pos : Dbl.Vec) (tol : F64) (lat lon alt : ℝ) (hf : ∀ i, (pos i).Finite) (hlat : -90 < lat ∧ lat < 90)
    (halt : |alt| ≤ 100000)
    (hpos : ∀ i, |ofDouble (pos i) - lla2ecef ![lat, lon, alt] i| ≤ 4e-7)
    (haxis : 1 ≤ Real.sqrt (lla2ecef ![lat, lon, alt] 0 ^ 2 + lla2ecef ![lat, lon, alt] 1 ^ 2))
    (tf : tol.Finite) (tl : 1.3e-10 ≤ ofDouble tol) (tu : ofDouble tol ≤ 9e-7) (r : Dbl.Vec)
    (hr : Dbl.ecef2lla L pos tol = some (.ok r)) :
    ∃ x2 y2 p n s, L.square (pos 0) = .ok x2 ∧ L.square (pos 1) = .ok y2 ∧ F64.sqrt (F64.add x2 y2) = .ok p ∧
      1 ≤ n ∧ n ≤ 6 ∧ Dbl.ecef2lla_after L p (pos 2) n = .ok s ∧ r 0 = Dbl.rad2deg s.lat ∧ r 2 = s.alt := by
  obtain ⟨p, s, n, ep, hn, ea, -, e, -, -⟩ := ecef2lla_near h1 h2 h3 h4 hf hlat halt hpos haxis tf tl tu
  rw [hr] at e
  injection e with e
  injection e with e
  subst e
  cases e1 : L.square (pos 0) with
  | error _ => rw [e1] at ep; cases ep
  | ok x2 =>
    cases e2 : L.square (pos 1) with
    | error _ => rw [e1, bind_ok, e2] at ep; cases ep
    | ok y2 =>
      rw [e1, bind_ok, e2, bind_ok] at ep
      exact ⟨x2, y2, p, n, s, rfl, rfl, ep, hn.1, hn.2, ea, rfl, rfl⟩

/-- Whenever the call returns for a point off the axis whose `y` is not minus zero, the longitude is within 1e-13
degrees of the angle of (x, y). -/
theorem C71_longitude (L : Dbl.Libm) (h4 : L.ArcOk) (pos r : Dbl.Vec) (tol : F64) (hf : ∀ i, (pos i).Finite)
    (hxy : ¬ (ofDouble (pos 0) = 0 ∧ ofDouble (pos 1) = 0)) (hy : ofDouble (pos 1) = 0 → (pos 1).sign = 0)
    (hr : Dbl.ecef2lla L pos tol = some (.ok r)) :
    (r 1).Finite ∧ |ofDouble (r 1) - Geo.atan2 (ofDouble (pos 1)) (ofDouble (pos 0)) * 180 / Real.pi| ≤ 1e-13 := by
  have h := longitude_near h4 (hf 1) (hf 0) (fun h => ⟨hy h, fun h' => hxy ⟨h', h⟩⟩)
  have hne : ¬ ((pos 0).mag = 0 ∧ (pos 1).mag = 0) := fun h => hxy ⟨val_zero_of_mag h.1, val_zero_of_mag h.2⟩
  have e : r 1 = Dbl.rad2deg (L.atan2 (pos 1) (pos 0)) := by
    unfold Dbl.ecef2lla at hr
    dsimp only at hr
    split at hr
    · cases hr
    · rw [if_neg hne] at hr
      split at hr
      · cases hr
      · cases hr
      · injection hr with hr
        injection hr with hr
        rw [← hr]
        rfl
  rw [e]
  exact h

/-- From geodetic to geocentric coordinates and back, with the tolerance of the code: the error in latitude and
altitude of `C71_accuracy`, and the direction of the longitude within 1e-7. -/
theorem C71_round_trip (L : Dbl.Libm) (h1 : L.SquareOk) (h2 : L.SquareReturns) (h3 : L.TrigOk) (h4 : L.ArcOk)
    (lla : Dbl.Vec) (hf : ∀ i, (lla i).Finite) (hlat : |ofDouble (lla 0)| < 90) (hlon : |ofDouble (lla 1)| ≤ 360)
    (halt : |ofDouble (lla 2)| ≤ 100000)
    (haxis : 1 ≤ Real.sqrt (lla2ecef (fun j => ofDouble (lla j)) 0 ^ 2 + lla2ecef (fun j => ofDouble (lla j)) 1 ^ 2)) :
    ∃ pos r, Dbl.lla2ecef L.toPlatform lla = .ok pos ∧ Dbl.ecef2lla L pos Dbl.defaultTolerance = some (.ok r) ∧
      |ofDouble (r 0) - ofDouble (lla 0)| ≤ 1.1e-5 + 1.1e-9 * |ofDouble (lla 2)| ∧
      |ofDouble (r 2) - ofDouble (lla 2)| ≤ 1.17 + 0.0002 * |ofDouble (lla 2)| ∧
      ((ofDouble (pos 1) = 0 → (pos 1).sign = 0) →
        |Real.cos (ofDouble (r 1) * Real.pi / 180) - Real.cos (ofDouble (lla 1) * Real.pi / 180)| ≤ 1e-7 ∧
        |Real.sin (ofDouble (r 1) * Real.pi / 180) - Real.sin (ofDouble (lla 1) * Real.pi / 180)| ≤ 1e-7) := by
  obtain ⟨pos, e, h⟩ := C70_lla2ecef L.toPlatform h1 h2 h3 lla hf hlat.le hlon (halt.trans (by norm_num))
  have hv : (fun j => ofDouble (lla j)) = ![ofDouble (lla 0), ofDouble (lla 1), ofDouble (lla 2)] := by
    funext j; fin_cases j <;> rfl
  rw [hv] at h haxis
  have hpos : ∀ i, |ofDouble (pos i) - lla2ecef ![ofDouble (lla 0), ofDouble (lla 1), ofDouble (lla 2)] i| ≤ 2.6e-8 :=
    fun i => (h i).2.trans (by norm_num at halt ⊢; linarith)
  obtain ⟨r, er, -, a0, -, a2⟩ := C71_accuracy L h1 h2 h3 h4 pos Dbl.defaultTolerance _ _ _ (fun i => (h i).1)
    (abs_lt.1 hlat) halt (fun i => (hpos i).trans (by norm_num)) haxis defaultTolerance_finite
    defaultTolerance_range.1 defaultTolerance_range.2
  refine ⟨pos, r, e, er, a0, a2, fun hy => ?_⟩
  obtain ⟨d1, d2, d3⟩ := direction_near (abs_lt.1 hlat) halt haxis (hpos 0) (hpos 1)
  have hl := (C71_longitude L h4 pos r _ (fun i => (h i).1) d1 hy er).2
  have ha : |ofDouble (r 1) * Real.pi / 180 - Geo.atan2 (ofDouble (pos 1)) (ofDouble (pos 0))| ≤ 1e-14 := by
    have : ofDouble (r 1) * Real.pi / 180 - Geo.atan2 (ofDouble (pos 1)) (ofDouble (pos 0))
        = (ofDouble (r 1) - Geo.atan2 (ofDouble (pos 1)) (ofDouble (pos 0)) * 180 / Real.pi) * (Real.pi / 180) := by
      field_simp
    rw [this, abs_mul, abs_of_pos (show 0 < Real.pi / 180 by positivity)]
    have hp : Real.pi / 180 ≤ 0.1 := by linarith [Real.pi_lt_four]
    exact (mul_le_mul hl hp (by positivity) (by norm_num)).trans (by norm_num)
  constructor
  · have := (Real.abs_cos_sub_cos_le _ _).trans ha
    exact (abs_sub_le _ _ _).trans ((add_le_add this d2).trans (by norm_num))
  · have := (Real.abs_sin_sub_sin_le _ _).trans ha
    exact (abs_sub_le _ _ _).trans ((add_le_add this d3).trans (by norm_num))

/-- On the axis: latitude 90 or -90, longitude 69, and the height over the pole rounded to centimetres. -/
theorem C71_poles (L : Dbl.Libm) (h0 : L.SquareZero) (pos : Dbl.Vec) (tol : F64) (hf : ∀ i, (pos i).Finite)
    (hx : ofDouble (pos 0) = 0) (hy : ofDouble (pos 1) = 0) (hz : ofDouble (pos 2) ≠ 0)
    (hz' : |ofDouble (pos 2)| ≤ 1e15) :
    ∃ r, Dbl.ecef2lla L pos tol = some (.ok r) ∧
      ofDouble (r 0) = (if 0 < ofDouble (pos 2) then 90 else -90) ∧ ofDouble (r 1) = 69 ∧ (r 2).Finite ∧
      |ofDouble (r 2) - (|ofDouble (pos 2)| - 6356752.3142)| ≤ 0.0051 + |ofDouble (pos 2)| / 2 ^ 51 := by
  have v90 : ofDouble (Dbl.num 90) = 90 := by
    have := (Ap.num (n := 90) (by decide)).2
    exact sub_eq_zero.1 (abs_eq_zero.1 (le_antisymm (by simpa using this) (abs_nonneg _)))
  have v69 : ofDouble (Dbl.num 69) = 69 := by
    have := (Ap.num (n := 69) (by decide)).2
    exact sub_eq_zero.1 (abs_eq_zero.1 (le_antisymm (by simpa using this) (abs_nonneg _)))
  have key : ∀ x : F64, Ap x |ofDouble (pos 2)| 0 → Ap (Dbl.round2 (F64.sub x Dbl.WGS84.b))
      (|ofDouble (pos 2)| - 6356752.3142) (0.0051 + |ofDouble (pos 2)| / 2 ^ 51) := by
    intro x hx
    have hb : Ap Dbl.WGS84.b 6356752.3142 _ := Ap.b
    have z0 := abs_nonneg (ofDouble (pos 2))
    have hsub := hx.sub hb (S := |ofDouble (pos 2)| + 6356753) (g := 2e-9 + |ofDouble (pos 2)| / 2 ^ 53) (by
      rw [abs_le]; norm_num; constructor <;> linarith) (by
      norm_num at hz' ⊢; linarith) (by norm_num; linarith)
    have hval := hsub.le (A := |ofDouble (pos 2)| + 6356753) (by
      rw [abs_le]; norm_num; constructor <;> linarith)
    have hr := round2_near hsub.1 (hval.trans (by norm_num at hz' ⊢; linarith))
    refine hr.to hsub.2 ?_
    norm_num at hval ⊢
    linarith
  have hz2 := Ap.self (hf 2)
  have ha := ecef2lla_axis h0 (hf 0) (hf 1) (hf 2) hx hy (tol := tol)
  rcases lt_or_gt_of_ne hz with h | h
  · rw [if_neg h.not_gt, if_pos h] at ha
    obtain ⟨r, e, e0, e1, e2⟩ := returned ha
    refine ⟨r, e, ?_, ?_, ?_⟩
    · rw [e0, if_neg h.not_gt, val_neg, v90]
    · rw [e1, v69]
    · rw [e2]
      exact key _ (by rw [abs_of_neg h]; exact hz2.neg)
  · rw [if_pos h] at ha
    obtain ⟨r, e, e0, e1, e2⟩ := returned ha
    refine ⟨r, e, ?_, ?_, ?_⟩
    · rw [e0, if_pos h, v90]
    · rw [e1, v69]
    · rw [e2]
      exact key _ (by rw [abs_of_pos h]; exact hz2)

/-- The centre of the Earth raises an exception. -/
theorem C71_centre (L : Dbl.Libm) (h0 : L.SquareZero) (pos : Dbl.Vec) (tol : F64) (hf : ∀ i, (pos i).Finite)
    (hc : ∀ i, ofDouble (pos i) = 0) : Dbl.ecef2lla L pos tol = some (.error .exception) := by
  rw [ecef2lla_axis h0 (hf 0) (hf 1) (hf 2) (hc 0) (hc 1), hc 2]
  simp

/-- Close to the axis the accuracy is lost altogether: within 1e-12 m of it and near the ellipsoid the call raises a
`ValueError` in its second round, whatever the library, although the function on real numbers returns for the same
arguments. The double nearest to a right angle is 6e-17 off, so `p / cos(lat)` is far from the radius. -/
theorem C71_near_axis_violated (L : Dbl.Libm) (h1 : L.SquareOk) (h2 : L.SquareReturns) (h3 : L.TrigOk) (h4 : L.ArcOk)
    (pos : Dbl.Vec) (tol : F64) (hf : ∀ i, (pos i).Finite)
    (hl : 1e-150 ≤ Real.sqrt (ofDouble (pos 0) ^ 2 + ofDouble (pos 1) ^ 2))
    (hu : Real.sqrt (ofDouble (pos 0) ^ 2 + ofDouble (pos 1) ^ 2) ≤ 1e-12)
    (hz : 6.2e6 ≤ |ofDouble (pos 2)| ∧ |ofDouble (pos 2)| ≤ 6.5e6) (tf : tol.Finite) (t0 : 0 < ofDouble tol)
    (t1 : ofDouble tol ≤ 1) :
    Dbl.ecef2lla L pos tol = some (.error .valueError) ∧
      ∃ v, Geo.ecef2lla ![ofDouble (pos 0), ofDouble (pos 1), ofDouble (pos 2)] (ofDouble tol) = some (.ok v) := by
  refine ⟨axis_raises h1 h2 h3 h4 hf hl hu hz.1 hz.2 tf t1, ?_⟩
  refine C39_returns_partial _ _ _ _ ?_ ?_ ?_ t0
  · rintro ⟨a, b⟩
    rw [a, b] at hl
    norm_num at hl
  · rw [len_eq]
    refine le_trans ?_ (abs_z_le _ _)
    exact le_trans (by norm_num) hz.1
  · exact hz.2.trans (by norm_num)

/-! ## Concrete cases -/

theorem monterey_axis : 1 ≤ Real.sqrt (lla2ecef ![36.5, -122, 100] 0 ^ 2 + lla2ecef ![36.5, -122, 100] 1 ^ 2) := by
  have hpi := Real.pi_pos
  have ht : -(Real.pi / 2) < (36.5 : ℝ) * Real.pi / 180 ∧ (36.5 : ℝ) * Real.pi / 180 < Real.pi / 2 := by
    constructor <;> norm_num <;> linarith
  have hD := D_bounds (t := (36.5 : ℝ) * Real.pi / 180) (h := 100) (by norm_num [abs_le])
  rw [lla2ecef_p ht (by linarith [hD.2])]
  have hN := (NN_bounds ((36.5 : ℝ) * Real.pi / 180)).1
  have ha : (2 : ℝ) ≤ WGS84.a := by unfold WGS84.a; norm_num
  have hc : 0.5 ≤ Real.cos ((36.5 : ℝ) * Real.pi / 180) := by
    have h1 := Real.one_sub_sq_div_two_le_cos (x := (36.5 : ℝ) * Real.pi / 180)
    have h2 : (36.5 : ℝ) * Real.pi / 180 ≤ 0.82 := by
      have := Real.pi_lt_four
      norm_num
      linarith
    have h3 : ((36.5 : ℝ) * Real.pi / 180) ^ 2 ≤ 0.82 ^ 2 := pow_le_pow_left₀ (by positivity) h2 2
    norm_num at h1 h3 ⊢
    linarith
  have := mul_le_mul (show 2 ≤ NN ((36.5 : ℝ) * Real.pi / 180) + 100 by linarith) hc (by norm_num) (by linarith)
  norm_num at this ⊢
  linarith

/-- 36.5° north, 122° west, 100 m above the ground, there and back: within 1.2 m. -/
example : ∃ pos r, Dbl.lla2ecef referenceLibm.toPlatform ![0x4042400000000000, 0xc05e800000000000, 0x4059000000000000]
      = .ok pos ∧ Dbl.ecef2lla referenceLibm pos Dbl.defaultTolerance = some (.ok r) ∧
      |ofDouble (r 0) - 36.5| ≤ 1.2e-5 ∧ |ofDouble (r 2) - 100| ≤ 1.2 := by
  have v0 : ofDouble 0x4042400000000000 = 36.5 := by
    rw [val_units (m := 73) 1073 1 (by decide +kernel) rfl]; norm_num
  have v1 : ofDouble 0xc05e800000000000 = -122 := by
    rw [val_units (m := -122) 1074 0 (by decide +kernel) rfl]; norm_num
  have v2 : ofDouble 0x4059000000000000 = 100 := by
    rw [val_units (m := 100) 1074 0 (by decide +kernel) rfl]; norm_num
  have hv : (fun j => ofDouble ((![0x4042400000000000, 0xc05e800000000000, 0x4059000000000000] : Dbl.Vec) j))
      = ![36.5, -122, 100] := by
    funext j
    fin_cases j
    exacts [v0, v1, v2]
  obtain ⟨pos, r, e1, e2, a0, a2, -⟩ := C71_round_trip referenceLibm reference_square reference_returns reference_trig
    referenceLibm_arc ![0x4042400000000000, 0xc05e800000000000, 0x4059000000000000]
    (fun i => by fin_cases i <;> exact show F64.expo _ ≠ 2047 by decide +kernel)
    (show |ofDouble 0x4042400000000000| < 90 by rw [v0]; norm_num [abs_lt])
    (show |ofDouble 0xc05e800000000000| ≤ 360 by rw [v1]; norm_num [abs_le])
    (show |ofDouble 0x4059000000000000| ≤ 100000 by rw [v2]; norm_num [abs_le])
    (by rw [hv]; exact monterey_axis)
  refine ⟨pos, r, e1, e2, ?_, ?_⟩
  · replace a0 : |ofDouble (r 0) - ofDouble 0x4042400000000000| ≤ 1.1e-5 + 1.1e-9 * |ofDouble 0x4059000000000000| := a0
    rw [v0, v2] at a0
    refine a0.trans ?_
    norm_num [abs_le]
  · replace a2 : |ofDouble (r 2) - ofDouble 0x4059000000000000| ≤ 1.17 + 0.0002 * |ofDouble 0x4059000000000000| := a2
    rw [v2] at a2
    refine a2.trans ?_
    norm_num [abs_le]

/-- A point 1.7e-13 m from the axis at the height of the pole. -/
example : Dbl.ecef2lla referenceLibm ![0x3d48000000000000, 0, 0x41583fcb00000000] Dbl.defaultTolerance
    = some (.error .valueError) := by
  have v0 : ofDouble 0x3d48000000000000 = 3 / 2 ^ 44 := by
    rw [val_units (m := 3) 1030 44 (by decide +kernel) rfl]; norm_num
  have v1 : ofDouble 0 = 0 := by
    rw [val_units (m := 0) 1074 0 (by decide +kernel) rfl]; norm_num
  have v2 : ofDouble 0x41583fcb00000000 = 6356780 := by
    rw [val_units (m := 6356780) 1074 0 (by decide +kernel) rfl]; norm_num
  have hs : Real.sqrt (ofDouble 0x3d48000000000000 ^ 2 + ofDouble 0 ^ 2) = 3 / 2 ^ 44 := by
    rw [v0, v1, zero_pow two_ne_zero, add_zero, Real.sqrt_sq (by positivity)]
  have ht := defaultTolerance_range
  exact (C71_near_axis_violated referenceLibm reference_square reference_returns reference_trig referenceLibm_arc
    ![0x3d48000000000000, 0, 0x41583fcb00000000] Dbl.defaultTolerance
    (fun i => by fin_cases i <;> exact show F64.expo _ ≠ 2047 by decide +kernel)
    (show 1e-150 ≤ Real.sqrt (ofDouble 0x3d48000000000000 ^ 2 + ofDouble 0 ^ 2) by rw [hs]; norm_num)
    (show Real.sqrt (ofDouble 0x3d48000000000000 ^ 2 + ofDouble 0 ^ 2) ≤ 1e-12 by rw [hs]; norm_num)
    (show 6.2e6 ≤ |ofDouble 0x41583fcb00000000| ∧ |ofDouble 0x41583fcb00000000| ≤ 6.5e6 by rw [v2]; norm_num [abs_le])
    defaultTolerance_finite (lt_of_lt_of_le (by norm_num) ht.1) (ht.2.trans (by norm_num))).1

/-- The same height exactly on the axis, with `x` minus zero. -/
example : ∃ r, Dbl.ecef2lla referenceLibm ![0x8000000000000000, 0, 0x41583fcb00000000] Dbl.defaultTolerance
    = some (.ok r) ∧ ofDouble (r 0) = 90 ∧ ofDouble (r 1) = 69 ∧ |ofDouble (r 2) - 27.6858| ≤ 0.006 := by
  have v0 : ofDouble 0x8000000000000000 = 0 := by
    rw [val_units (m := 0) 1074 0 (by decide +kernel) rfl]; norm_num
  have v1 : ofDouble 0 = 0 := by
    rw [val_units (m := 0) 1074 0 (by decide +kernel) rfl]; norm_num
  have v2 : ofDouble 0x41583fcb00000000 = 6356780 := by
    rw [val_units (m := 6356780) 1074 0 (by decide +kernel) rfl]; norm_num
  obtain ⟨r, e, a0, a1, -, a2⟩ := C71_poles referenceLibm referenceLibm_zero
    ![0x8000000000000000, 0, 0x41583fcb00000000] Dbl.defaultTolerance
    (fun i => by fin_cases i <;> exact show F64.expo _ ≠ 2047 by decide +kernel) v0 v1
    (show ofDouble 0x41583fcb00000000 ≠ 0 by rw [v2]; norm_num)
    (show |ofDouble 0x41583fcb00000000| ≤ 1e15 by rw [v2]; norm_num [abs_le])
  refine ⟨r, e, ?_, a1, ?_⟩
  · replace a0 : ofDouble (r 0) = if 0 < ofDouble 0x41583fcb00000000 then 90 else -90 := a0
    rw [v2, if_pos (by norm_num)] at a0
    exact a0
  · replace a2 : |ofDouble (r 2) - (|ofDouble 0x41583fcb00000000| - 6356752.3142)|
      ≤ 0.0051 + |ofDouble 0x41583fcb00000000| / 2 ^ 51 := a2
    rw [v2, abs_of_pos (show (0 : ℝ) < 6356780 by norm_num)] at a2
    norm_num at a2 ⊢
    linarith

/-- The centre of the Earth. -/
example : Dbl.ecef2lla referenceLibm ![0, 0x8000000000000000, 0] Dbl.defaultTolerance = some (.error .exception) :=
  C71_centre referenceLibm referenceLibm_zero _ _
    (fun i => by fin_cases i <;> exact show F64.expo _ ≠ 2047 by decide +kernel)
    (fun i => by
      fin_cases i
      · show ofDouble 0 = 0
        rw [val_units (m := 0) 1074 0 (by decide +kernel) rfl]; norm_num
      · show ofDouble 0x8000000000000000 = 0
        rw [val_units (m := 0) 1074 0 (by decide +kernel) rfl]; norm_num
      · show ofDouble 0 = 0
        rw [val_units (m := 0) 1074 0 (by decide +kernel) rfl]; norm_num)

end Dis
