import Verif.Proof.Coordinates
import Verif.Proof.Lla64
import Verif.Proof.ReferenceLibm

/-!
# C70: geodetic coordinates in floating point

The functions of /repo/opendis/RangeCoordinates.py on doubles (`Dbl.…`) against the exact ones (`Geo.…`, real
numbers), whose geometric meaning is C38 and C43. `ofDouble x` is the real number a finite double stands for.
-/

set_option exponentiation.threshold 4096

namespace Dis

open Geo

/-- `math.sqrt`: a `ValueError` for negative numbers, else a finite double with a relative error of at most 2^-53. -/
theorem C70_sqrt (x : F64) (hx : x.Finite) :
    (ofDouble x < 0 → F64.sqrt x = .error .valueError) ∧
    (0 ≤ ofDouble x → ∃ y, F64.sqrt x = .ok y ∧ y.Finite ∧
      |ofDouble y - Real.sqrt (ofDouble x)| ≤ 1 / 2 ^ 53 * Real.sqrt (ofDouble x)) := by
  constructor
  · exact sqrt_neg hx
  · intro h0
    rcases h0.lt_or_eq with h | h
    · obtain ⟨y, e1, e2, -, e3⟩ := val_sqrt hx h
      exact ⟨y, e1, e2, e3⟩
    · refine ⟨x, sqrt_zero hx h.symm, hx, ?_⟩
      rw [← h]
      simp

/-- Degrees to radians: an error of at most 4.7e-18 per degree (the spacing of doubles near 1° in radians is 3.5e-18). -/
theorem C70_deg2rad (x : F64) (hx : x.Finite) (h : |ofDouble x| ≤ 2 ^ 900) :
    (Dbl.deg2rad x).Finite ∧
    |ofDouble (Dbl.deg2rad x) - ofDouble x * Real.pi / 180| ≤ |ofDouble x| * 4.7e-18 + 1 / 2 ^ 99 :=
  Ap.deg2rad hx le_rfl h

/-- Radians to degrees: an error of at most 1.52e-14 degrees per radian. -/
theorem C70_rad2deg (x : F64) (hx : x.Finite) (h : |ofDouble x| ≤ 2 ^ 800) :
    (Dbl.rad2deg x).Finite ∧
    |ofDouble (Dbl.rad2deg x) - ofDouble x * 180 / Real.pi| ≤ |ofDouble x| * 1.52e-14 + 1 / 2 ^ 98 := by
  have := (Ap.self hx).rad2deg le_rfl h (by positivity)
  rw [zero_mul, zero_add] at this
  exact this

/-- Degrees to radians and back: a relative error of at most 5.5e-16. -/
theorem C70_round_trip (x : F64) (hx : x.Finite) (h : |ofDouble x| ≤ 2 ^ 700) :
    (Dbl.rad2deg (Dbl.deg2rad x)).Finite ∧
    |ofDouble (Dbl.rad2deg (Dbl.deg2rad x)) - ofDouble x| ≤ |ofDouble x| * 5.5e-16 + 1 / 2 ^ 92 := by
  have h1 := Ap.deg2rad hx le_rfl (h.trans (by norm_num))
  have h0 := abs_nonneg (ofDouble x)
  have h2 : |deg2rad (ofDouble x)| ≤ |ofDouble x| * 0.0174534 := by
    unfold deg2rad
    rw [abs_div, abs_mul, abs_of_pos Real.pi_pos, abs_of_pos (show (0 : ℝ) < 180 by norm_num)]
    have : |ofDouble x| * Real.pi ≤ |ofDouble x| * 3.1416 := by
      gcongr
      linarith [Real.pi_lt_d4]
    norm_num at this ⊢
    linarith
  have h3 := h1.rad2deg h2 (by
      have : (2 : ℝ) ^ 700 ≤ 2 ^ 800 := by norm_num
      norm_num at this ⊢
      linarith only [this, h, h0]) (by
      have : (2 : ℝ) ^ 700 + 1 ≤ 2 ^ 800 := by norm_num
      norm_num at this ⊢
      linarith only [this, h, h0])
  rw [rad2deg_deg2rad] at h3
  refine h3.mono ?_
  norm_num
  linarith only [h0]

/-- `lla2ecef` of finite coordinates returns, and each coordinate of the result is within
4e-15 · (6378137 + |altitude|) of the exact one: 26 nanometres on the ground. -/
theorem C70_lla2ecef (P : Dbl.Platform) (h1 : P.SquareOk) (h2 : P.SquareReturns) (h3 : P.TrigOk) (lla : Dbl.Vec)
    (hf : ∀ i, (lla i).Finite) (hlat : |ofDouble (lla 0)| ≤ 90) (hlon : |ofDouble (lla 1)| ≤ 360)
    (halt : |ofDouble (lla 2)| ≤ 2 ^ 900) :
    ∃ r, Dbl.lla2ecef P lla = .ok r ∧ ∀ i, (r i).Finite ∧
      |ofDouble (r i) - lla2ecef (fun j => ofDouble (lla j)) i| ≤ 4e-15 * (6378137 + |ofDouble (lla 2)|) := by
  obtain ⟨r, e, h⟩ := lla2ecef_near h1 h2 h3 hf hlat hlon halt
  exact ⟨r, e, fun i => (h i).1⟩

/-- Points of altitude 0 are on the ellipsoid x²/a² + y²/a² + z²/b² = 1 up to 3e-14. -/
theorem C70_ellipsoid (P : Dbl.Platform) (h1 : P.SquareOk) (h2 : P.SquareReturns) (h3 : P.TrigOk) (lla : Dbl.Vec)
    (hf : ∀ i, (lla i).Finite) (hlat : |ofDouble (lla 0)| ≤ 90) (hlon : |ofDouble (lla 1)| ≤ 360)
    (halt : ofDouble (lla 2) = 0) :
    ∃ r, Dbl.lla2ecef P lla = .ok r ∧ |(ofDouble (r 0) / 6378137) ^ 2 + (ofDouble (r 1) / 6378137) ^ 2
      + (ofDouble (r 2) / 6356752.3142) ^ 2 - 1| ≤ 3e-14 := by
  obtain ⟨r, e, h⟩ := lla2ecef_near h1 h2 h3 hf hlat hlon (by rw [halt, abs_zero]; positivity)
  refine ⟨r, e, ?_⟩
  rw [halt, abs_zero] at h
  have E : OnEllipsoid (lla2ecef (fun j => ofDouble (lla j))) := by
    have := lla2ecef_ellipsoid (ofDouble (lla 0)) (ofDouble (lla 1))
    convert this using 2
    funext j
    fin_cases j
    · rfl
    · rfl
    · exact halt
  exact ellipsoid_near (r := fun i => ofDouble (r i)) E (fun i => (h i).1.2)

/-- `lla2gcc` with an origin "lon,lat,alt": each coordinate is within 4.2e-15 times the two distances of the
difference of the exact points. -/
theorem C70_lla2gcc (P : Dbl.Platform) (h1 : P.SquareOk) (h2 : P.SquareReturns) (h3 : P.TrigOk) (lla : Dbl.Vec)
    (lon0 lat0 alt0 : F64)
    (hf : ∀ i, (lla i).Finite) (hlat : |ofDouble (lla 0)| ≤ 90) (hlon : |ofDouble (lla 1)| ≤ 360)
    (halt : |ofDouble (lla 2)| ≤ 2 ^ 900) (hf0 : lat0.Finite ∧ lon0.Finite ∧ alt0.Finite) (hlat0 : |ofDouble lat0| ≤ 90)
    (hlon0 : |ofDouble lon0| ≤ 360) (halt0 : |ofDouble alt0| ≤ 2 ^ 900) :
    ∃ r, Dbl.lla2gcc P lla (some [lon0, lat0, alt0]) = .ok r ∧ ∀ i, (r i).Finite ∧
      |ofDouble (r i) - (lla2ecef (fun j => ofDouble (lla j)) i
          - lla2ecef ![ofDouble lat0, ofDouble lon0, ofDouble alt0] i)|
        ≤ 4.2e-15 * ((6378137 + |ofDouble (lla 2)|) + (6378137 + |ofDouble alt0|)) := by
  have hbig : (6378137 : ℝ) + 2 ^ 900 ≤ 2 ^ 901 := by norm_num
  obtain ⟨r, e, h⟩ := lla2ecef_near h1 h2 h3 hf hlat hlon halt
  obtain ⟨r0, e0, h0⟩ := lla2ecef_near (lla := ![lat0, lon0, alt0]) h1 h2 h3
    (fun i => by fin_cases i; exacts [hf0.1, hf0.2.1, hf0.2.2]) hlat0 hlon0 halt0
  refine ⟨Dbl.vsub r r0, ?_, fun i => ?_⟩
  · unfold Dbl.lla2gcc
    dsimp only
    rw [e0, bind_ok, e, bind_ok]
    rfl
  · have := vsub_near (by linarith only [halt, hbig]) (by
      have := halt0
      show 6378137 + |ofDouble alt0| ≤ _
      linarith only [this, hbig]) (by positivity) (by positivity) h h0 i
    have ev : (fun j => ofDouble ((![lat0, lon0, alt0] : Dbl.Vec) j)) = ![ofDouble lat0, ofDouble lon0, ofDouble alt0] := by
      funext j
      fin_cases j <;> rfl
    rw [ev] at this
    exact this

/-- An infinite latitude raises a `ValueError`, whatever else is given. -/
theorem C70_infinite (P : Dbl.Platform) (lla : Dbl.Vec) (h : (lla 0).Infinite) :
    Dbl.lla2ecef P lla = .error .valueError := by
  have e : ∀ f, Dbl.trig f (Dbl.deg2rad (lla 0)) = .error .valueError := fun f => if_pos (deg2rad_infinite h)
  unfold Dbl.lla2ecef
  dsimp only
  rw [e]
  rfl

/-! ## Concrete cases -/

/-- The square root of 2 and of -1. -/
example : F64.sqrt 0x4000000000000000 = .ok 0x3ff6a09e667f3bcd ∧ F64.sqrt 0xbff0000000000000 = .error .valueError := by
  decide +kernel

/-- 180 degrees is the double nearest to π, and the other way round. -/
example : Dbl.deg2rad 0x4066800000000000 = 0x400921fb54442d18 ∧ Dbl.rad2deg 0x400921fb54442d18 = 0x4066800000000000 := by
  decide +kernel

/-- 36.5° north, 122° west, 100 m above the ground, on a platform that meets the assumptions. -/
example : ∃ r, Dbl.lla2ecef reference ![0x4042400000000000, 0xc05e800000000000, 0x4059000000000000] = .ok r ∧
    ∀ i, (r i).Finite ∧ |ofDouble (r i) - lla2ecef ![36.5, -122, 100] i| ≤ 2.6e-8 := by
  have v0 : ofDouble 0x4042400000000000 = 36.5 := by
    rw [val_units (m := 73) 1073 1 (by decide +kernel) rfl]; norm_num
  have v1 : ofDouble 0xc05e800000000000 = -122 := by
    rw [val_units (m := -122) 1074 0 (by decide +kernel) rfl]; norm_num
  have v2 : ofDouble 0x4059000000000000 = 100 := by
    rw [val_units (m := 100) 1074 0 (by decide +kernel) rfl]; norm_num
  obtain ⟨r, e, h⟩ := C70_lla2ecef reference reference_square reference_returns reference_trig
    ![0x4042400000000000, 0xc05e800000000000, 0x4059000000000000]
    (fun i => by fin_cases i <;> exact show F64.expo _ ≠ 2047 by decide +kernel)
    (show |ofDouble 0x4042400000000000| ≤ 90 by rw [v0]; norm_num [abs_le])
    (show |ofDouble 0xc05e800000000000| ≤ 360 by rw [v1]; norm_num [abs_le])
    (show |ofDouble 0x4059000000000000| ≤ 2 ^ 900 by rw [v2]; norm_num [abs_le])
  refine ⟨r, e, fun i => ⟨(h i).1, ?_⟩⟩
  have ev : (fun j => ofDouble ((![0x4042400000000000, 0xc05e800000000000, 0x4059000000000000] : Dbl.Vec) j))
      = ![36.5, -122, 100] := by
    funext j
    fin_cases j
    exacts [v0, v1, v2]
  have h2 := (h i).2
  rw [ev] at h2
  refine h2.trans ?_
  show 4e-15 * (6378137 + |ofDouble 0x4059000000000000|) ≤ _
  rw [v2]
  norm_num

/-- An infinite latitude. -/
example : Dbl.lla2ecef reference ![0x7ff0000000000000, 0, 0] = .error .valueError :=
  C70_infinite _ _ ⟨by decide, by decide⟩

end Dis
