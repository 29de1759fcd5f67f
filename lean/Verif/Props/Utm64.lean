import Verif.Proof.Utm64
import Verif.Props.Coordinates64

/-!
# C75: UTM coordinates in floating point

`lla2utm` and `g0` on doubles (`Model/RangeUtm.lean`), for any C library within the bounds of `CMath.Accurate`
(`Spec/CMath.lean`), against the same functions on real numbers.
-/

set_option exponentiation.threshold 4096

namespace Dis

open Geo

/-- The band letter is that of the exact latitude. -/
theorem C75_letter (lat : F64) (h : lat.Finite) : Dbl.utmLetterDesignator lat = utmLetterDesignator (ofDouble lat) :=
  letter_eq h

/-- The zone number is that of the exact longitude, or the next one less than 1e-13 degrees west of a multiple of six. -/
theorem C75_zone (lat lon : F64) (hlat : lat.Finite) (hlon : lon.Finite) (h0 : -180 ≤ ofDouble lon)
    (h1 : ofDouble lon ≤ 180) :
    ∃ z : ℤ, Dbl.zoneNumber lat lon = .ok z ∧
      (z = zoneNumber (ofDouble lat) (ofDouble lon) ∨
       z = zoneNumber (ofDouble lat) (ofDouble lon) + 1 ∧
         ∃ k : ℤ, 6 * (k : ℝ) - 1e-13 < ofDouble lon ∧ ofDouble lon < 6 * k) := by
  obtain ⟨z, e, -, h⟩ := zone_dbl hlat hlon h0 h1
  refine ⟨z, e, h.imp_right fun h => ⟨h.1, z - 31, ?_, ?_⟩⟩
  · have := h.2.1; push_cast; linarith
  · have := h.2.2.1; push_cast; linarith

/-- Between 84° south and north `lla2utm` returns; zone and band are those of the exact position, the easting errs by at
most 38 nm, the northing by at most 46 nm, the scale factor by at most 1.3e-15 and the altitude not at all. Less than 1e-13
degrees west of a multiple of six this may hold for the position on that meridian instead. -/
theorem C75_utm (L : Dbl.CMath) (hL : L.Accurate) (lla : Dbl.Vec) (hlat : (lla 0).Finite) (hlon : (lla 1).Finite)
    (h0 : |ofDouble (lla 0)| ≤ 84) (h1 : -180 ≤ ofDouble (lla 1)) (h2 : ofDouble (lla 1) ≤ 180) (alt : ℝ) :
    ∃ (lon : ℝ) (U : Dbl.Utm),
      (lon = ofDouble (lla 1) ∨ ∃ k : ℤ, lon = 6 * k ∧ lon - 1e-13 < ofDouble (lla 1) ∧ ofDouble (lla 1) < lon) ∧
      Dbl.lla2utm L lla = .ok U ∧ U.zone = (lla2utm ![ofDouble (lla 0), lon, alt]).zone ∧ U.utm 2 = lla 2 ∧
      (U.utm 0).Finite ∧ |ofDouble (U.utm 0) - (lla2utm ![ofDouble (lla 0), lon, alt]).utm 0| ≤ 3.8e-8 ∧
      (U.utm 1).Finite ∧ |ofDouble (U.utm 1) - (lla2utm ![ofDouble (lla 0), lon, alt]).utm 1| ≤ 4.6e-8 ∧
      U.k.Finite ∧ |ofDouble U.k - (lla2utm ![ofDouble (lla 0), lon, alt]).k| ≤ 1.3e-15 := by
  obtain ⟨l, U, hl, e, hz, ha, hx, hy, hk⟩ := utm_shown hL hlat hlon h0 h1 h2 alt
  exact ⟨l, U, hl, e, hz, ha, hx.1, hx.2, hy.1, hy.2, hk.1, hk.2⟩

/-- Elsewhere it holds for the given position. -/
theorem C75_utm_inside (L : Dbl.CMath) (hL : L.Accurate) (lla : Dbl.Vec) (hlat : (lla 0).Finite) (hlon : (lla 1).Finite)
    (h0 : |ofDouble (lla 0)| ≤ 84) (h1 : -180 ≤ ofDouble (lla 1)) (h2 : ofDouble (lla 1) ≤ 180) (alt : ℝ)
    (hin : ∀ k : ℤ, ofDouble (lla 1) ≤ 6 * (k : ℝ) - 1e-13 ∨ 6 * (k : ℝ) ≤ ofDouble (lla 1)) :
    ∃ U, Dbl.lla2utm L lla = .ok U ∧ U.zone = (lla2utm ![ofDouble (lla 0), ofDouble (lla 1), alt]).zone ∧ U.utm 2 = lla 2 ∧
      (U.utm 0).Finite ∧ |ofDouble (U.utm 0) - (lla2utm ![ofDouble (lla 0), ofDouble (lla 1), alt]).utm 0| ≤ 3.8e-8 ∧
      (U.utm 1).Finite ∧ |ofDouble (U.utm 1) - (lla2utm ![ofDouble (lla 0), ofDouble (lla 1), alt]).utm 1| ≤ 4.6e-8 ∧
      U.k.Finite ∧ |ofDouble U.k - (lla2utm ![ofDouble (lla 0), ofDouble (lla 1), alt]).k| ≤ 1.3e-15 := by
  obtain ⟨l, U, rfl | ⟨k, rfl, k1, k2⟩, h⟩ := C75_utm L hL lla hlat hlon h0 h1 h2 alt
  · exact ⟨U, h⟩
  · rcases hin k with h | h
    · exact absurd (h.trans_lt k1) (lt_irrefl _)
    · exact absurd (h.trans_lt k2) (lt_irrefl _)

/-- Just west of Greenwich the zone is that east of it, as adding 180 rounds to 180. -/
theorem C75_edge_violated : ∃ lat lon : F64, lat.Finite ∧ lon.Finite ∧ ofDouble lon < 0 ∧ -1 < ofDouble lon ∧
    zoneNumber (ofDouble lat) (ofDouble lon) = 30 ∧ Dbl.zoneNumber lat lon = .ok 31 := by
  have v0 : ofDouble 0 = 0 := by
    rw [val_units (m := 0) 1074 0 (by decide +kernel) rfl]; norm_num
  have v : ofDouble 0xbc30000000000000 = -1 / 2 ^ 60 := by
    rw [val_units (m := -1) 1014 60 (by decide +kernel) rfl]; norm_num
  refine ⟨0, 0xbc30000000000000, show F64.expo _ ≠ 2047 by decide +kernel, show F64.expo _ ≠ 2047 by decide +kernel, ?_, ?_, ?_, by decide +kernel⟩
  · rw [v]; norm_num
  · rw [v]; norm_num
  · rw [v0, v]
    unfold zoneNumber truncate
    rw [if_neg (by norm_num), if_neg (by norm_num), if_pos (by norm_num)]
    norm_num [Int.floor_eq_iff]

/-- The last longitude below 180 is in zone 61, which does not exist. -/
theorem C75_last_violated : ∃ lat lon : F64, lat.Finite ∧ lon.Finite ∧ ofDouble lon < 180 ∧ 179 < ofDouble lon ∧
    zoneNumber (ofDouble lat) (ofDouble lon) = 60 ∧ Dbl.zoneNumber lat lon = .ok 61 := by
  have v0 : ofDouble 0 = 0 := by
    rw [val_units (m := 0) 1074 0 (by decide +kernel) rfl]; norm_num
  have v : ofDouble 0x40667fffffffffff = 6333186975989759 / 2 ^ 45 := by
    rw [val_units (m := 6333186975989759) 1029 45 (by decide +kernel) rfl]; norm_num
  refine ⟨0, 0x40667fffffffffff, show F64.expo _ ≠ 2047 by decide +kernel, show F64.expo _ ≠ 2047 by decide +kernel, ?_, ?_, ?_, by decide +kernel⟩
  · rw [v]; norm_num
  · rw [v]; norm_num
  · rw [v0, v]
    unfold zoneNumber truncate
    rw [if_neg (by norm_num), if_neg (by norm_num), if_pos (by norm_num)]
    norm_num [Int.floor_eq_iff]

/-- A longitude that is not a number raises a `ValueError`, an infinite one an `OverflowError`. -/
theorem C75_longitude (L : Dbl.CMath) (lla : Dbl.Vec) :
    ((lla 1).isNan = true → Dbl.lla2utm L lla = .error .valueError) ∧
    ((lla 1).Infinite → Dbl.lla2utm L lla = .error .overflowError) := by
  constructor
  · intro h
    obtain ⟨h1, h2⟩ := of_decide_eq_true h
    unfold Dbl.lla2utm
    dsimp only
    rw [zone_nan h1 h2]
    rfl
  · intro h
    unfold Dbl.lla2utm
    dsimp only
    rw [zone_infinite h]
    rfl

/-- An infinite latitude raises a `ValueError`. -/
theorem C75_latitude (L : Dbl.CMath) (hL : L.Accurate) (lla : Dbl.Vec) (h : (lla 0).Infinite) (hlon : (lla 1).Finite)
    (h1 : -180 ≤ ofDouble (lla 1)) (h2 : ofDouble (lla 1) ≤ 180) : Dbl.lla2utm L lla = .error .valueError :=
  utm_infinite hL h hlon h1 h2

/-- `ecef2utm` is `lla2utm` of what `ecef2lla` returns; it raises or runs for ever as that does. -/
theorem C75_ecef (L : Dbl.CMath) (ecef : Dbl.Vec) :
    Dbl.ecef2utm L ecef = (Dbl.ecef2lla L.toLibm ecef Dbl.defaultTolerance).map fun r =>
      match r with
      | .ok lla => Dbl.lla2utm L lla
      | .error err => .error err := by
  unfold Dbl.ecef2utm
  rcases Dbl.ecef2lla L.toLibm ecef Dbl.defaultTolerance with _ | (_ | _) <;> rfl

/-- Gravity at a latitude in radians errs by at most 6e-15 m/s². -/
theorem C75_gravity (P : Dbl.Platform) (h1 : P.SquareOk) (h2 : P.SquareReturns) (h3 : P.TrigOk) (lat : F64) (h : lat.Finite) :
    ∃ g, Dbl.g0 P lat = .ok g ∧ g.Finite ∧
      |ofDouble g - 9.7803267715 * (1 + 0.001931851353 * Real.sin (ofDouble lat) ^ 2)
        / Real.sqrt (1 - 0.0066943800229 * Real.sin (ofDouble lat) ^ 2)| ≤ 6e-15 := gravity_near h1 h2 h3 h

/-! ## Concrete cases -/

/-- Bands of the equator and of the largest double below it. -/
example : Dbl.utmLetterDesignator 0 = 'N' ∧ Dbl.utmLetterDesignator 0x8000000000000001 = 'M' ∧
    utmLetterDesignator (ofDouble 0x8000000000000001) = 'M' := by
  have h : Dbl.utmLetterDesignator 0x8000000000000001 = 'M' := by decide +kernel
  refine ⟨by decide +kernel, h, ?_⟩
  rw [← C75_letter _ (show F64.expo _ ≠ 2047 by decide +kernel), h]

/-- 60.5° north, 5° east is in Norway's zone 32, in doubles and in the reals. -/
example : Dbl.zoneNumber 0x404e400000000000 0x4014000000000000 = .ok 32 ∧
    zoneNumber (ofDouble 0x404e400000000000) (ofDouble 0x4014000000000000) = 32 := by
  have v : ofDouble 0x4014000000000000 = 5 := by
    rw [val_units (m := 5) 1074 0 (by decide +kernel) rfl]; norm_num
  have e : Dbl.zoneNumber 0x404e400000000000 0x4014000000000000 = .ok 32 := by decide +kernel
  refine ⟨e, ?_⟩
  obtain ⟨z, e1, h⟩ := C75_zone 0x404e400000000000 0x4014000000000000 (show F64.expo _ ≠ 2047 by decide +kernel)
    (show F64.expo _ ≠ 2047 by decide +kernel) (by rw [v]; norm_num) (by rw [v]; norm_num)
  rw [e] at e1
  cases e1
  rcases h with h | ⟨-, k, k1, k2⟩
  · exact h.symm
  · exfalso
    rw [v] at k1 k2
    have a1 : 6 * (k : ℝ) < 6 := by norm_num at k1; linarith
    have a2 : (5 : ℝ) < 6 * k := k2
    have b1 : 6 * k < 6 := by exact_mod_cast a1
    have b2 : 5 < 6 * k := by exact_mod_cast a2
    omega

/-- 48.5° north, 2.25° east, 35 m, on a library that meets the assumptions: zone 31U. -/
example : ∃ U, Dbl.lla2utm referenceCMath ![0x4048400000000000, 0x4002000000000000, 0x4041800000000000] = .ok U ∧
    U.zone = (31, 'U') ∧ U.utm 2 = 0x4041800000000000 ∧
    |ofDouble (U.utm 0) - (lla2utm ![48.5, 2.25, 35]).utm 0| ≤ 3.8e-8 ∧
    |ofDouble (U.utm 1) - (lla2utm ![48.5, 2.25, 35]).utm 1| ≤ 4.6e-8 := by
  have v0 : ofDouble 0x4048400000000000 = 48.5 := by
    rw [val_units (m := 97) 1073 1 (by decide +kernel) rfl]; norm_num
  have v1 : ofDouble 0x4002000000000000 = 2.25 := by
    rw [val_units (m := 9) 1072 2 (by decide +kernel) rfl]; norm_num
  obtain ⟨U, e, hz, ha, -, hx, -, hy, -⟩ := C75_utm_inside referenceCMath referenceCMath_accurate
    ![0x4048400000000000, 0x4002000000000000, 0x4041800000000000]
    (show F64.expo _ ≠ 2047 by decide +kernel) (show F64.expo _ ≠ 2047 by decide +kernel)
    (show |ofDouble 0x4048400000000000| ≤ 84 by rw [v0]; norm_num [abs_le])
    (show -180 ≤ ofDouble 0x4002000000000000 by rw [v1]; norm_num)
    (show ofDouble 0x4002000000000000 ≤ 180 by rw [v1]; norm_num) 35
    (fun k => by
      show ofDouble 0x4002000000000000 ≤ _ ∨ _ ≤ ofDouble 0x4002000000000000
      rw [v1]
      rcases le_or_gt k 0 with h | h
      · right
        have : (k : ℝ) ≤ 0 := by exact_mod_cast h
        linarith
      · left
        have : (1 : ℝ) ≤ k := by exact_mod_cast h
        norm_num
        linarith)
  refine ⟨U, e, ?_, ha, ?_, ?_⟩
  · rw [hz]
    show (zoneNumber (ofDouble 0x4048400000000000) (ofDouble 0x4002000000000000),
      utmLetterDesignator (ofDouble 0x4048400000000000)) = _
    rw [v0, v1, letter_U _ (by norm_num)]
    unfold zoneNumber truncate
    rw [if_neg (by norm_num), if_neg (by norm_num), if_pos (by norm_num)]
    norm_num [Int.floor_eq_iff]
  · rw [← v0, ← v1]; exact hx
  · rw [← v0, ← v1]; exact hy

/-- Longitudes that are not numbers, and infinite ones; an infinite latitude. -/
example : Dbl.lla2utm referenceCMath ![0, 0x7ff8000000000000, 0] = .error .valueError ∧
    Dbl.lla2utm referenceCMath ![0, 0xfff0000000000000, 0] = .error .overflowError ∧
    Dbl.lla2utm referenceCMath ![0x7ff0000000000000, 0, 0] = .error .valueError := by
  have v0 : ofDouble 0 = 0 := by
    rw [val_units (m := 0) 1074 0 (by decide +kernel) rfl]; norm_num
  refine ⟨(C75_longitude _ _).1 (by decide +kernel), (C75_longitude _ _).2 ⟨by decide, by decide⟩,
    C75_latitude _ referenceCMath_accurate _ ⟨by decide, by decide⟩ (show F64.expo _ ≠ 2047 by decide +kernel) ?_ ?_⟩
  · show -180 ≤ ofDouble 0
    rw [v0]; norm_num
  · show ofDouble 0 ≤ 180
    rw [v0]; norm_num

/-- Gravity at the equator. -/
example : ∃ g, Dbl.g0 reference 0 = .ok g ∧ |ofDouble g - 9.7803267715| ≤ 6e-15 := by
  have v0 : ofDouble 0 = 0 := by
    rw [val_units (m := 0) 1074 0 (by decide +kernel) rfl]; norm_num
  obtain ⟨g, e, -, h⟩ := C75_gravity reference reference_square reference_returns reference_trig 0
    (show F64.expo _ ≠ 2047 by decide +kernel)
  refine ⟨g, e, ?_⟩
  rw [v0, Real.sin_zero] at h
  norm_num at h ⊢
  exact h

end Dis
