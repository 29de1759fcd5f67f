import Verif.Proof.UtmConformal
import Verif.Props.Utm
import Verif.Props.Coordinates

/-!
# C52-C55: motion over the ground, geocentric offsets, gravity, and the UTM map

`meridianRadius` and `transverseRadius` (`Verif/Spec/Geo.lean`) are the radii of curvature of the
ellipsoid; C52 shows that they are the ground distances per angle.
-/

namespace Dis

open Geo WGS84 Filter Topology

/-! ## C52 -/

/-- A growing latitude moves the point north, by the meridian's radius of curvature plus the altitude
for each unit of angle. -/
theorem C52_north (lat lon alt : ℝ) :
    HasDerivAt (fun t => lla2ecef ![t, lon, alt])
      (((meridianRadius (lat * Real.pi / 180) + alt) * Real.pi / 180)
        • north (lat * Real.pi / 180) (lon * Real.pi / 180)) lat := by
  have h := (hasDerivAt_ecef_lat (deg2rad lat) (deg2rad lon) alt).scomp lat (hasDerivAt_deg2rad lat)
  refine (h.congr_of_eventuallyEq (Eventually.of_forall fun t => ?_)).congr_deriv ?_
  · exact lla2ecef_radii t lon alt
  · rw [smul_smul]; congr 1; unfold deg2rad; ring

/-- A growing longitude moves it east, along the circle of latitude. -/
theorem C52_east (lat lon alt : ℝ) :
    HasDerivAt (fun t => lla2ecef ![lat, t, alt])
      (((transverseRadius (lat * Real.pi / 180) + alt) * Real.cos (lat * Real.pi / 180) * Real.pi / 180)
        • east (lon * Real.pi / 180)) lon := by
  have h := (hasDerivAt_ecef_lon (deg2rad lat) (deg2rad lon) alt).scomp lon (hasDerivAt_deg2rad lon)
  refine (h.congr_of_eventuallyEq (Eventually.of_forall fun t => ?_)).congr_deriv ?_
  · exact lla2ecef_radii lat t alt
  · rw [smul_smul]; congr 1; unfold deg2rad; ring

/-- A growing altitude moves it up, metre by metre. -/
theorem C52_up (lat lon alt : ℝ) :
    HasDerivAt (fun t => lla2ecef ![lat, lon, t]) (up (lat * Real.pi / 180) (lon * Real.pi / 180)) alt := by
  have h : HasDerivAt (fun t : ℝ => lla2ecef ![lat, lon, 0] + t • up (lat * Real.pi / 180) (lon * Real.pi / 180))
      ((1 : ℝ) • up (lat * Real.pi / 180) (lon * Real.pi / 180)) alt :=
    ((hasDerivAt_id alt).smul_const _).const_add _
  rw [one_smul] at h
  exact h.congr_of_eventuallyEq (Eventually.of_forall fun t => C38_altitude lat lon t)

/-- On the equator at longitude zero, a degree of longitude is a step of 6378137 pi / 180 metres along the
y axis, and a degree of latitude one of 6356752.3142^2 / 6378137 pi / 180 metres along the z axis. -/
example : HasDerivAt (fun t => lla2ecef ![0, t, 0]) ![0, 6378137 * Real.pi / 180, 0] 0
    ∧ HasDerivAt (fun t => lla2ecef ![t, 0, 0]) ![0, 0, 6356752.3142 ^ 2 / 6378137 * Real.pi / 180] 0 := by
  have s1 : Real.sqrt (6378137 ^ 2) = 6378137 := Real.sqrt_sq (by norm_num)
  constructor
  · refine (C52_east 0 0 0).congr_deriv ?_
    ext i
    fin_cases i <;> simp [transverseRadius, east, s1]
    norm_num
  · refine (C52_north 0 0 0).congr_deriv ?_
    ext i
    fin_cases i <;> simp [meridianRadius, north, s1]
    norm_num

/-! ## C53 -/

/-- Without an origin `lla2gcc` is `lla2ecef`. -/
theorem C53_plain (lla : Vec) : lla2gcc lla none = .ok (lla2ecef lla) := by
  simp only [lla2gcc]
  congr 1
  ext i; fin_cases i <;> simp

/-- With an origin, given as longitude, latitude and altitude, the result is the offset from it: the
origin itself has offset zero, and adding the origin's position gives the position. -/
theorem C53_offset (lla : Vec) (lon0 lat0 alt0 : ℝ) :
    (∃ p, lla2gcc lla (some [lon0, lat0, alt0]) = .ok p ∧ p + lla2ecef ![lat0, lon0, alt0] = lla2ecef lla)
    ∧ lla2gcc ![lat0, lon0, alt0] (some [lon0, lat0, alt0]) = .ok 0 := by
  refine ⟨⟨_, rfl, sub_add_cancel _ _⟩, ?_⟩
  simp only [lla2gcc, sub_self]

/-- Differences of offsets from one origin do not depend on it. -/
theorem C53_difference (p q p' q' : Vec) (lla lla' : Vec) (o o' : List ℝ)
    (h1 : lla2gcc lla (some o) = .ok p) (h2 : lla2gcc lla' (some o) = .ok q)
    (h3 : lla2gcc lla (some o') = .ok p') (h4 : lla2gcc lla' (some o') = .ok q') : p - q = p' - q' := by
  have key : ∀ (lla p : Vec) (o : List ℝ), lla2gcc lla (some o) = .ok p →
      ∃ c : Vec, (∀ l' p', lla2gcc l' (some o) = .ok p' → p' = lla2ecef l' - c) ∧ p = lla2ecef lla - c := by
    intro lla p o h
    match o, h with
    | [x, y, z], h =>
      have h' : ∀ l' p', lla2gcc l' (some [x, y, z]) = .ok p' → p' = lla2ecef l' - lla2ecef ![y, x, z] := by
        intro l' p' hh; cases hh; rfl
      exact ⟨_, h', h' _ _ h⟩
    | [], h => cases h
    | [_], h => cases h
    | [_, _], h => cases h
    | _ :: _ :: _ :: _ :: _, h => cases h
  obtain ⟨c, hc, rfl⟩ := key lla p o h1
  obtain ⟨c', hc', rfl⟩ := key lla p' o' h3
  rw [hc _ _ h2, hc' _ _ h4]
  abel

/-- It raises exactly if the origin does not have three components. -/
theorem C53_raises (lla : Vec) (o : List ℝ) :
    (o.length = 3 → ∃ p, lla2gcc lla (some o) = .ok p)
    ∧ (o.length ≠ 3 → lla2gcc lla (some o) = .error .valueError) := by
  match o with
  | [x, y, z] => exact ⟨fun _ => ⟨_, rfl⟩, fun h => absurd rfl h⟩
  | [] => exact ⟨fun h => by simp at h, fun _ => rfl⟩
  | [_] => exact ⟨fun h => by simp at h, fun _ => rfl⟩
  | [_, _] => exact ⟨fun h => by simp at h, fun _ => rfl⟩
  | _ :: _ :: _ :: _ :: l => exact ⟨fun h => by simp at h, fun _ => rfl⟩

/-- Seen from longitude 90 on the equator, a point above the north pole. -/
example : lla2gcc ![90, 0, 10] (some [90, 0, 0]) = .ok ![0, -6378137, 6356752.3142 + 10] := by
  have h : lla2gcc ![90, 0, 10] (some [90, 0, 0]) = .ok (lla2ecef ![90, 0, 10] - lla2ecef ![0, 90, 0]) := rfl
  rw [h, (C38_poles 0 10).1, C38_equator 90 0]
  congr 1
  have : (90 : ℝ) * Real.pi / 180 = Real.pi / 2 := by ring
  ext i
  fin_cases i <;> simp [this]

/-! ## C54 -/

/-- Gravity grows with the distance from the equator: `L` is in radians. -/
theorem C54_grows (L L' : ℝ) : g0 L < g0 L' ↔ |Real.sin L| < |Real.sin L'| := by
  have key : ∀ x y : ℝ, 0 ≤ x → x < y → y ≤ 1 →
      9.7803267715 * (1 + 0.001931851353 * x) / Real.sqrt (1 - 0.0066943800229 * x)
      < 9.7803267715 * (1 + 0.001931851353 * y) / Real.sqrt (1 - 0.0066943800229 * y) := by
    intro x y hx hxy hy
    have p : 0 < Real.sqrt (1 - 0.0066943800229 * y) := Real.sqrt_pos.2 (by linarith)
    have q : Real.sqrt (1 - 0.0066943800229 * y) ≤ Real.sqrt (1 - 0.0066943800229 * x) :=
      Real.sqrt_le_sqrt (by linarith)
    exact div_lt_div₀ (by linarith) q (by linarith) p
  constructor
  · intro h
    by_contra hc
    push Not at hc
    rcases hc.lt_or_eq with hc | hc
    · have := key _ _ (sq_nonneg (Real.sin L')) (sq_lt_sq.2 hc) (Real.sin_sq_le_one L)
      unfold g0 at h
      linarith
    · have : Real.sin L ^ 2 = Real.sin L' ^ 2 := by rw [← sq_abs, ← hc, sq_abs]
      unfold g0 at h
      rw [this] at h
      exact lt_irrefl _ h
  · intro h
    exact key _ _ (sq_nonneg (Real.sin L)) (sq_lt_sq.2 h) (Real.sin_sq_le_one L')

/-- Its value on the equator and, to twelve digits, at the poles; in between it lies between them. -/
theorem C54_range (L : ℝ) : g0 0 = 9.7803267715 ∧ |g0 (Real.pi / 2) - 9.83218636848| < 1e-11
    ∧ 9.7803267715 ≤ g0 L ∧ g0 L ≤ g0 (Real.pi / 2) := by
  have h0 : g0 0 = 9.7803267715 := by simp [g0]
  refine ⟨h0, ?_, ?_, ?_⟩
  · have hp : g0 (Real.pi / 2) = 9.7803267715 * (1 + 0.001931851353) / Real.sqrt (1 - 0.0066943800229) := by
      simp [g0]
    rw [hp]
    have a1 : 0.9966471893188 < Real.sqrt (1 - 0.0066943800229) :=
      Real.lt_sqrt_of_sq_lt (by norm_num)
    have a2 : Real.sqrt (1 - 0.0066943800229) < 0.9966471893189 :=
      (Real.sqrt_lt' (by norm_num)).2 (by norm_num)
    have a3 : 0 < Real.sqrt (1 - 0.0066943800229) := by linarith
    rw [abs_lt]
    constructor
    · have : 9.83218636848 - 1e-11 < 9.7803267715 * (1 + 0.001931851353) / Real.sqrt (1 - 0.0066943800229) := by
        rw [lt_div_iff₀ a3]; nlinarith
      linarith
    · have : 9.7803267715 * (1 + 0.001931851353) / Real.sqrt (1 - 0.0066943800229) < 9.83218636848 + 1e-11 := by
        rw [div_lt_iff₀ a3]; nlinarith
      linarith
  · rw [← h0]
    by_contra hc
    push Not at hc
    have := (C54_grows L 0).1 hc
    simp at this
    exact absurd this (not_lt.2 (abs_nonneg _))
  · by_contra hc
    push Not at hc
    have := (C54_grows (Real.pi / 2) L).1 hc
    simp at this
    exact absurd this (not_lt.2 (Real.abs_sin_le_one L))

/-- Gravity at 45 degrees lies strictly between. -/
example : g0 0 < g0 (Real.pi / 4) ∧ g0 (Real.pi / 4) < g0 (Real.pi / 2) := by
  have h2 : Real.sqrt 2 < 2 := (Real.sqrt_lt' (by norm_num)).2 (by norm_num)
  have h0 : 0 < Real.sqrt 2 := Real.sqrt_pos.2 (by norm_num)
  constructor
  · rw [C54_grows]; simp
  · rw [C54_grows]
    simp only [Real.sin_pi_div_four, Real.sin_pi_div_two, abs_one]
    rw [abs_of_pos (by positivity)]
    linarith

/-! ## C55 -/

/-- **C55.** On the central meridian the northing is 0.9996 times the length of the meridian from the
equator, up to a centimetre. -/
theorem C55_length (lat lon alt : ℝ) (hl : -90 < lat ∧ lat < 90)
    (h : lon = 6 * ((lla2utm ![lat, lon, alt]).zone.1 : ℝ) - 183) :
    |(lla2utm ![lat, lon, alt]).utm 1
      - 0.9996 * ∫ t in (0:ℝ)..(lat * Real.pi / 180), meridianRadius t| ≤ 0.01 := by
  have hs := (utm_series lat lon alt (cos_deg_pos hl).ne').2.1
  have hz : fromCentre (zoneNumber lat lon) lon = 0 := by
    have h' : lon = 6 * (zoneNumber lat lon : ℝ) - 183 := h
    unfold fromCentre
    rw [← h']; simp
  have hp : ∀ q x, pN q 0 x = 0 := fun q x => by unfold pN; ring
  rw [hs, hz, hp]
  have he := arc_error (deg2rad lat)
  have hd : deg2rad lat = lat * Real.pi / 180 := rfl
  have hb : |deg2rad lat| ≤ 1.5709 := by
    have p1 := Real.pi_lt_d4
    have p2 := Real.pi_pos
    unfold deg2rad
    rw [abs_le]
    constructor <;> nlinarith [hl.1, hl.2]
  have e : 0.9996 * (arcSeries (deg2rad lat) + transverseRadius (deg2rad lat) * (Real.sin (deg2rad lat) * 0))
      - 0.9996 * ∫ t in (0:ℝ)..(lat * Real.pi / 180), meridianRadius t
      = 0.9996 * (arcSeries (deg2rad lat) - ∫ t in (0:ℝ)..deg2rad lat, meridianRadius t) := by
    rw [hd]; ring
  rw [e, abs_mul, abs_of_pos (by norm_num)]
  have ha : a * 7e-10 * |deg2rad lat| ≤ 6378137 * 7e-10 * 1.5709 := by
    unfold a
    exact mul_le_mul (by norm_num) hb (abs_nonneg _) (by norm_num)
  norm_num at *
  linarith

/-- **C55.** Inside a zone the map is conformal and the returned scale factor is its scale: with `(nE, nN)`
and `(eE, eN)` the images, per metre of ground distance, of a small step north and east, the second is the
first turned clockwise by a right angle and `k` is its length. `l` is the angle from the central meridian;
at three degrees, the edge of an ordinary zone, the bounds are below 4 parts in 10⁹. -/
theorem C55_conformal (lat lon alt : ℝ) (hl : -90 < lat ∧ lat < 90) (h0 : -180 ≤ lon)
    (hz : ∀ᶠ p : ℝ × ℝ in 𝓝 (lat, lon),
      (lla2utm ![p.1, p.2, alt]).zone.1 = (lla2utm ![lat, lon, alt]).zone.1) :
    let φ := lat * Real.pi / 180
    let l := (lon - (6 * ((lla2utm ![lat, lon, alt]).zone.1 : ℝ) - 183)) * Real.pi / 180
    ∃ nE nN eE eN : ℝ,
      HasDerivAt (fun t => (lla2utm ![t, lon, alt]).utm 0) (nE * (meridianRadius φ * Real.pi / 180)) lat
      ∧ HasDerivAt (fun t => (lla2utm ![t, lon, alt]).utm 1) (nN * (meridianRadius φ * Real.pi / 180)) lat
      ∧ HasDerivAt (fun t => (lla2utm ![lat, t, alt]).utm 0)
          (eE * (transverseRadius φ * Real.cos φ * Real.pi / 180)) lon
      ∧ HasDerivAt (fun t => (lla2utm ![lat, t, alt]).utm 1)
          (eN * (transverseRadius φ * Real.cos φ * Real.pi / 180)) lon
      ∧ |eE - nN| ≤ 1e-9 + 0.00003 * l ^ 4 + 0.1 * l ^ 6
      ∧ |eN + nE| ≤ 0.000025 * |l| ^ 5
      ∧ |Real.sqrt (eE ^ 2 + eN ^ 2) - (lla2utm ![lat, lon, alt]).k| ≤ 0.0001 * l ^ 4 + 0.5 * l ^ 6 := by
  intro φ l
  obtain ⟨d1, d2, d3, d4⟩ := utm_partials lat lon alt hl hz
  have hq : 0 ≤ ep2 := by linarith [ep2_gt]
  have hq1 := ep2_lt.le
  have hs : Real.sin φ ^ 2 = 1 - Real.cos φ ^ 2 := by linarith [Real.sin_sq_add_cos_sq φ]
  refine ⟨_, _, _, _, d1, d2, d3, d4, ?_, ?_, ?_⟩
  · have r := abs_residual_E hq hq1 hs l
    have r0 := arc_ratio φ
    have e : 0.9996 * eE ep2 l (Real.cos φ) - 0.9996 * (a * arcRate (WGS84.e ^ 2) (Real.sin φ ^ 2) / meridianRadius φ
          + nN ep2 l (Real.sin φ) (Real.cos φ))
        = 0.9996 * ((eE ep2 l (Real.cos φ) - nN ep2 l (Real.sin φ) (Real.cos φ) - 1)
          + (1 - a * arcRate (WGS84.e ^ 2) (Real.sin φ ^ 2) / meridianRadius φ)) := by ring
    refine le_trans (le_of_eq (congrArg abs e)) ?_
    rw [abs_mul, abs_of_pos (by norm_num)]
    have := abs_add_le (eE ep2 l (Real.cos φ) - nN ep2 l (Real.sin φ) (Real.cos φ) - 1)
      (1 - a * arcRate (WGS84.e ^ 2) (Real.sin φ ^ 2) / meridianRadius φ)
    have l4 : 0 ≤ l ^ 4 := by positivity
    have l6 : 0 ≤ l ^ 6 := by positivity
    linarith
  · have r := abs_residual_N hq hq1 hs l
    have e : 0.9996 * (Real.sin φ * eN ep2 l (Real.cos φ)) + 0.9996 * nE ep2 l (Real.sin φ) (Real.cos φ)
        = 0.9996 * (Real.sin φ * eN ep2 l (Real.cos φ) + nE ep2 l (Real.sin φ) (Real.cos φ)) := by ring
    refine le_trans (le_of_eq (congrArg abs e)) ?_
    rw [abs_mul, abs_of_pos (by norm_num)]
    have : 0 ≤ |l| ^ 5 := by positivity
    linarith
  · have r := scale_error hq hq1 hs l (fromCentre_le lat lon h0)
    have hk := (utm_series lat lon alt (cos_deg_pos hl).ne').2.2
    have e : Real.sqrt ((0.9996 * eE ep2 l (Real.cos φ)) ^ 2 + (0.9996 * (Real.sin φ * eN ep2 l (Real.cos φ))) ^ 2)
        = 0.9996 * Real.sqrt (eE ep2 l (Real.cos φ) ^ 2 + (Real.sin φ * eN ep2 l (Real.cos φ)) ^ 2) := by
      rw [mul_pow, mul_pow, ← mul_add, Real.sqrt_mul (by norm_num), Real.sqrt_sq (by norm_num)]
    rw [hk]
    refine le_trans (le_of_eq (congrArg abs (congrArg₂ (· - ·) e rfl))) ?_
    have e2 : 0.9996 * Real.sqrt (eE ep2 l (Real.cos φ) ^ 2 + (Real.sin φ * eN ep2 l (Real.cos φ)) ^ 2)
        - 0.9996 * pK ep2 l (Real.cos φ)
        = 0.9996 * (Real.sqrt (eE ep2 l (Real.cos φ) ^ 2 + (Real.sin φ * eN ep2 l (Real.cos φ)) ^ 2)
          - pK ep2 l (Real.cos φ)) := by ring
    refine le_trans (le_of_eq (congrArg abs e2)) ?_
    rw [abs_mul, abs_of_pos (by norm_num)]
    have l4 : 0 ≤ l ^ 4 := by positivity
    have l6 : 0 ≤ l ^ 6 := by positivity
    linarith

/-- Inside zone 31 south of Norway the zone does not change in a neighbourhood, so both theorems apply: at
Paris, and on the meridian of 3 degrees. -/
theorem zone31_near (lat lon alt : ℝ) (h : -56 < lat ∧ lat < 56) (h' : 0 < lon ∧ lon < 6) :
    ∀ᶠ p : ℝ × ℝ in 𝓝 (lat, lon),
      (lla2utm ![p.1, p.2, alt]).zone.1 = (lla2utm ![lat, lon, alt]).zone.1 := by
  have z : ∀ lat lon : ℝ, -56 < lat ∧ lat < 56 → 0 < lon ∧ lon < 6 → (lla2utm ![lat, lon, alt]).zone.1 = 31 := by
    intro lat lon h h'
    obtain ⟨h1, h2⟩ := C42_within lat lon alt (by linarith) (by rintro ⟨⟨_, _⟩, _⟩; linarith)
      (by rintro ⟨⟨_, _⟩, _⟩; linarith)
    generalize (lla2utm ![lat, lon, alt]).zone.1 = z at *
    have a1 : (z : ℝ) < 32 := by linarith
    have a2 : (30 : ℝ) < z := by linarith
    have a1' : z < 32 := by exact_mod_cast a1
    have a2' : 30 < z := by exact_mod_cast a2
    omega
  rw [z lat lon h h']
  have hn : Set.Ioo (-56 : ℝ) 56 ×ˢ Set.Ioo (0 : ℝ) 6 ∈ 𝓝 (lat, lon) :=
    prod_mem_nhds (Ioo_mem_nhds h.1 h.2) (Ioo_mem_nhds h'.1 h'.2)
  filter_upwards [hn] with p hp
  exact z p.1 p.2 hp.1 hp.2

example (alt : ℝ) : ∃ eE eN : ℝ,
    |Real.sqrt (eE ^ 2 + eN ^ 2) - (lla2utm ![48.9, 2.3, alt]).k| ≤ 1e-8 := by
  obtain ⟨nE, nN, eE, eN, -, -, -, -, -, -, h⟩ := C55_conformal 48.9 2.3 alt (by norm_num) (by norm_num)
    (zone31_near 48.9 2.3 alt (by norm_num) (by norm_num))
  refine ⟨eE, eN, h.trans ?_⟩
  have hz : (lla2utm ![48.9, 2.3, alt]).zone.1 = 31 := by
    obtain ⟨h1, h2⟩ := C42_within 48.9 2.3 alt (by norm_num) (by norm_num) (by norm_num)
    generalize (lla2utm ![48.9, 2.3, alt]).zone.1 = z at *
    have a1 : (z : ℝ) < 32 := by linarith
    have a2 : (30 : ℝ) < z := by linarith
    have a1' : z < 32 := by exact_mod_cast a1
    have a2' : 30 < z := by exact_mod_cast a2
    omega
  rw [hz]
  have p1 := Real.pi_lt_d4
  have p2 := Real.pi_pos
  have e : (2.3 - (6 * ((31 : ℤ) : ℝ) - 183)) * Real.pi / 180 = -(0.7 * Real.pi / 180) := by push_cast; ring
  rw [e]
  have b : 0.7 * Real.pi / 180 ≤ 0.0123 := by linarith
  have b0 : 0 ≤ 0.7 * Real.pi / 180 := by positivity
  have b4 := pow_le_pow_left₀ b0 b 4
  have b6 := pow_le_pow_left₀ b0 b 6
  have n4 : (-(0.7 * Real.pi / 180)) ^ 4 = (0.7 * Real.pi / 180) ^ 4 := by ring
  have n6 : (-(0.7 * Real.pi / 180)) ^ 6 = (0.7 * Real.pi / 180) ^ 6 := by ring
  rw [n4, n6]
  norm_num at *
  linarith

example (alt : ℝ) : |(lla2utm ![48.9, 3, alt]).utm 1
    - 0.9996 * ∫ t in (0:ℝ)..(48.9 * Real.pi / 180), meridianRadius t| ≤ 0.01 :=
  C55_length 48.9 3 alt (by norm_num) (by rw [zone31 48.9 alt (by norm_num)]; norm_num)

end Dis
