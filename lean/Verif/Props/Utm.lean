import Verif.Proof.Utm

/-!
# UTM (C42, C46)

`(lla2utm lla).zone` is the zone number with the band letter, `.utm` the easting, northing and altitude,
`.k` the scale factor. `bandLetter` is in `Verif/Spec/Geo.lean`.
-/

namespace Dis

open Geo

/-! ## C42 -/

/-- For every longitude from -180 up to but not including 180, the zone number is between 1 and 60. -/
theorem C42_number (lat lon alt : ℝ) (h0 : -180 ≤ lon) (h1 : lon < 180) :
    1 ≤ (lla2utm ![lat, lon, alt]).zone.1 ∧ (lla2utm ![lat, lon, alt]).zone.1 ≤ 60 :=
  zone_range lat lon h0 h1

/-- Outside southern Norway and Svalbard the point lies in its zone: zone `n` covers the six degrees
from `6 (n - 1) - 180` on. -/
theorem C42_within (lat lon alt : ℝ) (h0 : -180 ≤ lon)
    (hN : ¬ ((56 ≤ lat ∧ lat < 64) ∧ (3 ≤ lon ∧ lon < 12)))
    (hS : ¬ ((72 ≤ lat ∧ lat < 84) ∧ (0 ≤ lon ∧ lon < 42))) :
    6 * ((lla2utm ![lat, lon, alt]).zone.1 - 1 : ℝ) - 180 ≤ lon
    ∧ lon < 6 * ((lla2utm ![lat, lon, alt]).zone.1 : ℝ) - 180 := by
  have h : (lla2utm ![lat, lon, alt]).zone.1 = _ := zone_eq lat lon hN hS
  rw [h]
  exact zone_plain lon h0

/-- Southern Norway: zone 32 reaches west to 3 degrees east. -/
theorem C42_norway (lat lon alt : ℝ) (h : 56 ≤ lat ∧ lat < 64) (h' : 3 ≤ lon ∧ lon < 12) :
    (lla2utm ![lat, lon, alt]).zone.1 = 32 := by
  have : ¬ (72 ≤ lat ∧ lat < 84) := by rintro ⟨_, _⟩; linarith [h.2]
  simp [lla2utm, zoneNumber, h, h', this]

/-- Svalbard: zones 31, 33, 35 and 37 are widened and 32, 34 and 36 do not occur. -/
theorem C42_svalbard (lat lon alt : ℝ) (h : 72 ≤ lat ∧ lat < 84) :
    (0 ≤ lon ∧ lon < 9 → (lla2utm ![lat, lon, alt]).zone.1 = 31)
    ∧ (9 ≤ lon ∧ lon < 21 → (lla2utm ![lat, lon, alt]).zone.1 = 33)
    ∧ (21 ≤ lon ∧ lon < 33 → (lla2utm ![lat, lon, alt]).zone.1 = 35)
    ∧ (33 ≤ lon ∧ lon < 42 → (lla2utm ![lat, lon, alt]).zone.1 = 37) := by
  refine ⟨?_, ?_, ?_, ?_⟩
  · intro h'
    simp [lla2utm, zoneNumber, h, h']
  · intro h'
    simp [lla2utm, zoneNumber, h, h', not_lt.2 h'.1]
  · intro h'
    simp [lla2utm, zoneNumber, h, h', not_lt.2 h'.1, not_lt.2 (show (9 : ℝ) ≤ lon by linarith [h'.1])]
  · intro h'
    simp [lla2utm, zoneNumber, h, h', not_lt.2 h'.1, not_lt.2 (show (9 : ℝ) ≤ lon by linarith [h'.1]),
      not_lt.2 (show (21 : ℝ) ≤ lon by linarith [h'.1])]

/-- The letter is that of the eight-degree band the latitude lies in. -/
theorem C42_letter (lat lon alt : ℝ) (k : Fin 20) :
    (lla2utm ![lat, lon, alt]).zone.2 = bandLetter k ↔ -80 + 8 * (k : ℝ) ≤ lat ∧ lat < -72 + 8 * (k : ℝ) :=
  letter_iff lat k

/-- Latitudes outside all bands get `Z`. -/
theorem C42_no_band (lat lon alt : ℝ) :
    (lla2utm ![lat, lon, alt]).zone.2 = 'Z' ↔ lat < -80 ∨ 80 ≤ lat := letter_Z lat

/-- In particular band X is not extended to 84 degrees, although the Svalbard zones go that far. -/
theorem C42_band_X_not_extended (lat lon alt : ℝ) (h : 80 ≤ lat ∧ lat < 84) (h' : 9 ≤ lon ∧ lon < 21) :
    (lla2utm ![lat, lon, alt]).zone = (33, 'Z') :=
  Prod.ext ((C42_svalbard lat lon alt ⟨by linarith [h.1], h.2⟩).2.1 h') ((C42_no_band lat lon alt).2 (Or.inr h.1))

/-- Longitude 180, the same meridian as -180, gets the non-existent zone 61. -/
theorem C42_antimeridian (lat alt : ℝ) : (lla2utm ![lat, 180, alt]).zone.1 = 61
    ∧ (lla2utm ![lat, -180, alt]).zone.1 = 1 := by
  constructor
  · have h : (lla2utm ![lat, 180, alt]).zone.1 = _ :=
      zone_eq lat 180 (by rintro ⟨_, _, h⟩; norm_num at h) (by rintro ⟨_, _, h⟩; norm_num at h)
    rw [h]
    have e : ((180 + 180) / 6 : ℝ) = ((60 : ℤ) : ℝ) := by norm_num
    rw [truncate, e, Int.floor_intCast, if_pos (by norm_num)]
    norm_num
  · have h : (lla2utm ![lat, -180, alt]).zone.1 = _ :=
      zone_eq lat (-180) (by rintro ⟨_, h, _⟩; norm_num at h) (by rintro ⟨_, h, _⟩; norm_num at h)
    rw [h]
    simp [truncate]

/-- Paris is in zone 31U. -/
example (alt : ℝ) : (lla2utm ![48.9, 2.3, alt]).zone = (31, 'U') := by
  refine Prod.ext ?_ ((C42_letter _ _ _ 16).2 (by constructor <;> norm_num))
  obtain ⟨h1, h2⟩ := C42_within 48.9 2.3 alt (by norm_num) (by norm_num) (by norm_num)
  generalize (lla2utm ![48.9, 2.3, alt]).zone.1 = z at *
  have a1 : (z : ℝ) < 32 := by linarith
  have a2 : (30 : ℝ) < z := by linarith
  have a1' : z < 32 := by exact_mod_cast a1
  have a2' : 30 < z := by exact_mod_cast a2
  show z = 31
  omega

/-- Bergen, 5.3 degrees east, is in zone 32 although it lies west of its six degrees. -/
example (alt : ℝ) : (lla2utm ![60.4, 5.3, alt]).zone.1 = 32 :=
  C42_norway _ _ _ (by norm_num) (by norm_num)

/-! ## C46 -/

/-- On the central meridian of its zone a point has easting 500 km and scale factor 0.9996. -/
theorem C46_central (lat lon alt : ℝ)
    (h : lon = 6 * ((lla2utm ![lat, lon, alt]).zone.1 : ℝ) - 183) :
    (lla2utm ![lat, lon, alt]).utm 0 = 500000 ∧ (lla2utm ![lat, lon, alt]).k = 0.9996 :=
  utm_central lat lon alt h

/-- Two points of a zone mirrored at its central meridian have mirrored eastings, and the same northing
and scale factor. -/
theorem C46_mirror (lat lon lon' alt : ℝ)
    (hz : (lla2utm ![lat, lon, alt]).zone = (lla2utm ![lat, lon', alt]).zone)
    (h : lon + lon' = 2 * (6 * ((lla2utm ![lat, lon, alt]).zone.1 : ℝ) - 183)) :
    (lla2utm ![lat, lon', alt]).utm 0 - 500000 = -((lla2utm ![lat, lon, alt]).utm 0 - 500000)
    ∧ (lla2utm ![lat, lon', alt]).utm 1 = (lla2utm ![lat, lon, alt]).utm 1
    ∧ (lla2utm ![lat, lon', alt]).k = (lla2utm ![lat, lon, alt]).k :=
  utm_mirror lat lon lon' alt hz h

/-- Mirroring at the equator negates the northing: there is no false northing of 10000 km in the
southern hemisphere. -/
theorem C46_south (lat lon alt : ℝ)
    (hz : (lla2utm ![-lat, lon, alt]).zone.1 = (lla2utm ![lat, lon, alt]).zone.1) :
    (lla2utm ![-lat, lon, alt]).utm 0 = (lla2utm ![lat, lon, alt]).utm 0
    ∧ (lla2utm ![-lat, lon, alt]).utm 1 = -(lla2utm ![lat, lon, alt]).utm 1
    ∧ (lla2utm ![-lat, lon, alt]).k = (lla2utm ![lat, lon, alt]).k :=
  utm_south lat lon alt hz

/-- On the central meridian northings are positive north of the equator, so negative south of it. -/
theorem C46_north (lat lon alt : ℝ) (hl : 0 < lat)
    (h : lon = 6 * ((lla2utm ![lat, lon, alt]).zone.1 : ℝ) - 183) :
    0 < (lla2utm ![lat, lon, alt]).utm 1 := utm_north_pos lat lon alt hl h

/-- The altitude is passed on. -/
theorem C46_altitude (lat lon alt : ℝ) : (lla2utm ![lat, lon, alt]).utm 2 = alt := by
  simp [lla2utm]

/-- `ecef2utm` is `lla2utm` of what `ecef2lla` returns. -/
theorem C46_ecef (ecef lla : Vec) (h : ecef2lla ecef defaultTolerance = some (.ok lla)) :
    ecef2utm ecef = some (.ok (lla2utm lla)) := by simp only [ecef2utm, h]

/-- Zone 31's central meridian is 3 degrees east. -/
theorem zone31 (lat alt : ℝ) (h : -56 < lat ∧ lat < 56) : (lla2utm ![lat, 3, alt]).zone.1 = 31 := by
  obtain ⟨h1, h2⟩ := C42_within lat 3 alt (by norm_num) (by rintro ⟨⟨_, _⟩, _⟩; linarith)
    (by rintro ⟨⟨_, _⟩, _⟩; linarith)
  generalize (lla2utm ![lat, 3, alt]).zone.1 = z at *
  have a1 : (z : ℝ) < 32 := by linarith
  have a2 : (30 : ℝ) < z := by linarith
  have a1' : z < 32 := by exact_mod_cast a1
  have a2' : 30 < z := by exact_mod_cast a2
  show z = 31
  omega

example : (lla2utm ![48.9, 3, 35]).utm 0 = 500000 ∧ 0 < (lla2utm ![48.9, 3, 35]).utm 1
    ∧ (lla2utm ![-48.9, 3, 35]).utm 1 < 0 := by
  have z1 := zone31 48.9 35 (by norm_num)
  have z2 := zone31 (-48.9) 35 (by norm_num)
  have h : (3 : ℝ) = 6 * ((lla2utm ![48.9, 3, 35]).zone.1 : ℝ) - 183 := by rw [z1]; norm_num
  have hn := C46_north 48.9 3 35 (by norm_num) h
  refine ⟨(C46_central _ _ _ h).1, hn, ?_⟩
  rw [(C46_south 48.9 3 35 (by rw [z1, z2])).2.1]
  linarith

end Dis
