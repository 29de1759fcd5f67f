import Verif.Proof.Coordinates

/-!
# Coordinate conversions (C37, C38, C40, C41, C43, C44)

The vocabulary is in `Verif/Spec/Geo.lean`. A method that calls `ecef2lla` has outcome `none` if it does
not return, `some (.error _)` if it raises and `some (.ok v)` if it returns `v`.
-/

namespace Dis

open Matrix Geo

/-! ## C37 -/

/-- The array `ecefvec2nedvec` returns has the north, east and down directions as its rows, and is a
rotation matrix. -/
theorem C37_frame (lat lon : ℝ) :
    ecefvec2nedvec lat lon 0 = north lat lon ∧ ecefvec2nedvec lat lon 1 = east lon
      ∧ ecefvec2nedvec lat lon 2 = -up lat lon ∧ IsRotation (ecefvec2nedvec lat lon) := by
  refine ⟨?_, ?_, ?_, ?_⟩
  · ext i; fin_cases i <;> simp [ecefvec2nedvec, north]
  · ext i; fin_cases i <;> simp [ecefvec2nedvec, east]
  · ext i; fin_cases i <;> simp [ecefvec2nedvec, up]
  · rw [ecefvec_eq]; exact (isRotation_ned lat lon).transpose

/-- What the two conversions do, in terms of the latitude and longitude `ecef2lla` finds for the
origin: project the offset on the local frame, and the reverse. -/
theorem C37_meaning (origin lla : Vec) (h : ecef2lla origin defaultTolerance = some (.ok lla)) (p : Vec) :
    ecef2ned p origin = some (.ok ((nedFrame (lla 0 * Real.pi / 180) (lla 1 * Real.pi / 180))ᵀ *ᵥ (p - origin)))
    ∧ ned2ecef p origin = some (.ok (nedFrame (lla 0 * Real.pi / 180) (lla 1 * Real.pi / 180) *ᵥ p + origin)) :=
  ned_eq origin lla h p

/-- The two conversions are inverse to each other for every origin: `ned2ecef(q, origin)` returns `p`
exactly if `ecef2ned(p, origin)` returns `q`. -/
theorem C37_inverse (origin p q : Vec) :
    ecef2ned p origin = some (.ok q) ↔ ned2ecef q origin = some (.ok p) := ned_inverse origin p q

/-- They return or fail together, and whether they do depends on the origin only. -/
theorem C37_same_domain (origin p q : Vec) (err : PyErr) :
    (ecef2ned p origin = none ↔ ned2ecef q origin = none)
    ∧ (ecef2ned p origin = some (.error err) ↔ ned2ecef q origin = some (.error err)) :=
  ned_domain origin p q err

/-- The origin has local coordinates zero. -/
theorem C37_origin (origin q : Vec) (h : ecef2ned origin origin = some (.ok q)) : q = 0 :=
  ned_origin origin q h

/-- Distances are the same in both systems. -/
theorem C37_isometry (origin p p' q q' : Vec) (h : ecef2ned p origin = some (.ok q))
    (h' : ecef2ned p' origin = some (.ok q')) : len (q - q') = len (p - p') :=
  ned_isometry origin p p' q q' h h'

/-- Seen from the point of latitude and longitude zero at altitude zero, a point one metre to the north,
two to the east and three up. -/
example : ecef2ned ![6378140, 2, 1] ![6378137, 0, 0] = some (.ok ![1, 2, -3])
    ∧ ned2ecef ![1, 2, -3] ![6378137, 0, 0] = some (.ok ![6378140, 2, 1]) := by
  have h := ecef2lla_equator 6378137 (by norm_num)
  have key : ecef2ned ![6378140, 2, 1] ![6378137, 0, 0] = some (.ok ![1, 2, -3]) := by
    rw [(C37_meaning _ _ h _).1]
    congr 2
    ext i
    fin_cases i <;> simp [nedFrame, north, east, up, Matrix.mulVec, dotProduct, Fin.sum_univ_three]
    norm_num
  exact ⟨key, (C37_inverse _ _ _).1 key⟩

/-! ## C38 -/

/-- Altitude zero is the WGS84 ellipsoid. -/
theorem C38_ellipsoid (lat lon : ℝ) : OnEllipsoid (lla2ecef ![lat, lon, 0]) := lla2ecef_ellipsoid lat lon

/-- The ellipsoid's outward normal at that point is the vertical of the given latitude and longitude. -/
theorem C38_normal (lat lon : ℝ) :
    ∃ c : ℝ, 0 < c ∧ gradient (lla2ecef ![lat, lon, 0]) = c • up (lat * Real.pi / 180) (lon * Real.pi / 180) :=
  lla2ecef_normal lat lon

/-- Altitude `h` is reached by walking `h` along that normal. -/
theorem C38_altitude (lat lon h : ℝ) :
    lla2ecef ![lat, lon, h]
      = lla2ecef ![lat, lon, 0] + h • up (lat * Real.pi / 180) (lon * Real.pi / 180) := by
  ext i
  fin_cases i <;> simp [lla2ecef, up, deg2rad] <;> ring

/-- Longitude is periodic. -/
theorem C38_periodic (lat lon h : ℝ) : lla2ecef ![lat, lon + 360, h] = lla2ecef ![lat, lon, h] := by
  have e : deg2rad (lon + 360) = deg2rad lon + 2 * Real.pi := by unfold deg2rad; ring
  simp [lla2ecef, e]

/-- The poles are the ends of the minor axis, at any longitude. -/
theorem C38_poles (lon h : ℝ) : lla2ecef ![90, lon, h] = ![0, 0, 6356752.3142 + h]
    ∧ lla2ecef ![-90, lon, h] = ![0, 0, -(6356752.3142 + h)] := lla2ecef_poles lon h

/-- The equator is the circle of radius the major semi-axis. -/
theorem C38_equator (lon h : ℝ) : lla2ecef ![0, lon, h]
    = ![(6378137 + h) * Real.cos (lon * Real.pi / 180), (6378137 + h) * Real.sin (lon * Real.pi / 180), 0] := by
  ext i
  fin_cases i <;> simp [lla2ecef, deg2rad, WGS84.a] <;> norm_num

/-- Ninety degrees east on the equator, 100 m up. -/
example : lla2ecef ![0, 90, 100] = ![0, 6378237, 0] := by
  rw [C38_equator, show (90 * Real.pi / 180 : ℝ) = Real.pi / 2 by ring]
  norm_num

/-! ## C40 -/

/-- About a unit vector, `rotate_3x3` is a rotation matrix. -/
theorem C40_rotation (theta : ℝ) (n : Vec) (hn : len n = 1) :
    rotate_3x3 theta n * (rotate_3x3 theta n)ᵀ = 1 ∧ (rotate_3x3 theta n).det = 1 :=
  isRotation_rotate theta n hn

/-- It fixes the axis. -/
theorem C40_axis (theta : ℝ) (n : Vec) (hn : len n = 1) : rotate_3x3 theta n *ᵥ n = n :=
  rotate_axis theta n hn

/-- A vector perpendicular to the axis turns by `theta` in the plane it spans with its cross product,
counter-clockwise seen from the tip of the axis. -/
theorem C40_angle (theta : ℝ) (n v : Vec) (h : n ⬝ᵥ v = 0) :
    rotate_3x3 theta n *ᵥ v = Real.cos theta • v + Real.sin theta • (n ⨯₃ v) := by
  rw [rotate_mulVec, h, mul_zero, zero_smul, zero_add]

/-- Rotations about the same axis add up. -/
theorem C40_add (s t : ℝ) (n : Vec) (hn : len n = 1) :
    rotate_3x3 s n * rotate_3x3 t n = rotate_3x3 (s + t) n := rotate_add s t n hn

/-- The opposite angle gives the inverse, which is also the transpose. -/
theorem C40_inverse (t : ℝ) (n : Vec) (hn : len n = 1) :
    rotate_3x3 t n * rotate_3x3 (-t) n = 1 ∧ rotate_3x3 (-t) n = (rotate_3x3 t n)ᵀ := by
  constructor
  · rw [rotate_add _ _ _ hn, add_neg_cancel, rotate_entries]
    ext i j
    fin_cases i <;> fin_cases j <;> simp
  · rw [rotate_entries, rotate_entries]
    ext i j
    fin_cases i <;> fin_cases j <;> simp [-mul_eq_mul_left_iff] <;> ring

/-- About the coordinate axes these are the elementary rotations. -/
theorem C40_elementary (t : ℝ) : rotate_3x3 t ![1, 0, 0] = Rx t ∧ rotate_3x3 t ![0, 1, 0] = Ry t
    ∧ rotate_3x3 t ![0, 0, 1] = Rz t := ⟨rotate_x t, rotate_y t, rotate_z t⟩

/-- A slanted unit vector. -/
example : len ![2 / 3, -1 / 3, 2 / 3] = 1 := by
  simp [len]; norm_num

/-! ## C41 -/

/-- `llarpy2ecef` returns the position of the latitude, longitude and altitude, and Euler angles
standing for the attitude obtained by turning the local north-east-down frame by yaw, pitch and roll. -/
theorem C41_llarpy2ecef (lat lon alt roll pitch yaw : ℝ) :
    (llarpy2ecef lat lon alt roll pitch yaw).1 = lla2ecef ![lat * 180 / Real.pi, lon * 180 / Real.pi, alt]
    ∧ attitude (llarpy2ecef lat lon alt roll pitch yaw).2 = nedFrame lat lon * attitude ![yaw, pitch, roll] :=
  ⟨rfl, llarpy_frame lat lon alt roll pitch yaw⟩

/-- When `ecef2llarpy` returns, the position is what `ecef2lla` finds, in radians, and turning the local
frame there by the returned yaw, pitch and roll gives the attitude passed in. -/
theorem C41_ecef2llarpy (X Y Z psi theta phi lat lon alt roll pitch yaw : ℝ)
    (h : ecef2llarpy X Y Z psi theta phi = some (.ok (![lat, lon, alt], ![roll, pitch, yaw]))) :
    ecef2lla ![X, Y, Z] defaultTolerance = some (.ok ![lat * 180 / Real.pi, lon * 180 / Real.pi, alt])
    ∧ nedFrame lat lon * attitude ![yaw, pitch, roll] = attitude ![psi, theta, phi] :=
  ecef2llarpy_spec h

/-- It returns exactly if `ecef2lla` does. -/
theorem C41_returns (X Y Z psi theta phi : ℝ) :
    (∃ r, ecef2llarpy X Y Z psi theta phi = some (.ok r))
      ↔ ∃ lla, ecef2lla ![X, Y, Z] defaultTolerance = some (.ok lla) := ecef2llarpy_returns X Y Z psi theta phi

/-- Going to earth-centred Euler angles and back recovers roll, pitch and yaw, if they are in their
principal ranges, away from gimbal lock, and if `ecef2lla` recovers the position up to whole turns of
longitude. -/
theorem C41_round_trip (lat lon alt roll pitch yaw X Y Z psi theta phi : ℝ) (lla rpy : Vec)
    (hr : -Real.pi < roll ∧ roll ≤ Real.pi) (hp : -(Real.pi / 2) < pitch ∧ pitch < Real.pi / 2)
    (hy : -Real.pi < yaw ∧ yaw ≤ Real.pi)
    (h1 : llarpy2ecef lat lon alt roll pitch yaw = (![X, Y, Z], ![psi, theta, phi]))
    (h2 : ecef2llarpy X Y Z psi theta phi = some (.ok (lla, rpy)))
    (hlat : lla 0 = lat) (hlon : ∃ k : ℤ, lla 1 = lon + k * (2 * Real.pi)) :
    rpy = ![roll, pitch, yaw] :=
  llarpy_round_trip lat lon alt roll pitch yaw X Y Z psi theta phi lla rpy hr hp hy h1 h2 hlat hlon

/-- And the other way round, for the Euler angles. -/
theorem C41_round_trip_ecef (lat lon alt roll pitch yaw X Y Z psi theta phi : ℝ) (xyz euler : Vec)
    (hpsi : -Real.pi < psi ∧ psi ≤ Real.pi) (htheta : -(Real.pi / 2) < theta ∧ theta < Real.pi / 2)
    (hphi : -Real.pi < phi ∧ phi ≤ Real.pi)
    (h1 : ecef2llarpy X Y Z psi theta phi = some (.ok (![lat, lon, alt], ![roll, pitch, yaw])))
    (h2 : llarpy2ecef lat lon alt roll pitch yaw = (xyz, euler)) :
    euler = ![psi, theta, phi] := by
  obtain ⟨ha, hb⟩ := C41_ecef2llarpy _ _ _ _ _ _ _ _ _ _ _ _ h1
  have hc := (C41_llarpy2ecef lat lon alt roll pitch yaw).2
  rw [h2, hb] at hc
  have := llarpy_range lat lon alt roll pitch yaw euler (by rw [h2])
  exact (attitude_inj (by simpa using hpsi) (by simpa using htheta) (by simpa using hphi) this.1 this.2.1
    this.2.2 hc.symm).symm

/-- On the equator `ecef2lla` is exact, so the round trip applies. -/
example (alt roll pitch yaw : ℝ) (ha : -6378137 < alt)
    (hr : -Real.pi < roll ∧ roll ≤ Real.pi) (hp : -(Real.pi / 2) < pitch ∧ pitch < Real.pi / 2)
    (hy : -Real.pi < yaw ∧ yaw ≤ Real.pi) :
    ∃ psi theta phi, llarpy2ecef 0 0 alt roll pitch yaw = (![6378137 + alt, 0, 0], ![psi, theta, phi])
      ∧ ecef2llarpy (6378137 + alt) 0 0 psi theta phi = some (.ok (![0, 0, alt], ![roll, pitch, yaw])) :=
  llarpy_equator alt roll pitch yaw ha hr hp hy

/-! ## C43 -/

/-- `deg2rad` and `rad2deg` are inverse to each other. -/
theorem C43_inverse (t : ℝ) : deg2rad (rad2deg t) = t ∧ rad2deg (deg2rad t) = t :=
  ⟨deg2rad_rad2deg t, rad2deg_deg2rad t⟩

/-- Both are linear, and half a turn is 180 degrees and `pi` radians. -/
theorem C43_linear (s t c : ℝ) :
    deg2rad (c * s + t) = c * deg2rad s + deg2rad t ∧ rad2deg (c * s + t) = c * rad2deg s + rad2deg t
    ∧ deg2rad 180 = Real.pi ∧ rad2deg Real.pi = 180 := by
  have := Real.pi_ne_zero
  unfold deg2rad rad2deg
  refine ⟨by ring, by ring, by ring, by field_simp⟩

/-- `euclideanDistance(data)` and `euclideanDistance(data, dataRef)` are the distance from zero and from
`dataRef` in Euclidean space of the dimension of `data`. -/
theorem C43_distance {n : ℕ} (u v : EuclideanSpace ℝ (Fin n)) :
    euclideanDistance (List.ofFn u) none = .ok ‖u‖
    ∧ euclideanDistance (List.ofFn u) (some (List.ofFn v)) = .ok (dist u v) := distance_eq u v

/-- Metric laws, on lists of the same length. -/
theorem C43_metric (u v w : List ℝ) (hv : v.length = u.length) (hw : w.length = u.length) :
    ∃ duv dvu dvw duw, euclideanDistance u (some v) = .ok duv ∧ euclideanDistance v (some u) = .ok dvu
      ∧ euclideanDistance v (some w) = .ok dvw ∧ euclideanDistance u (some w) = .ok duw
      ∧ 0 ≤ duv ∧ (duv = 0 ↔ u = v) ∧ duv = dvu ∧ duw ≤ duv + dvw := distance_metric u v w hv hw

/-- A reference that is too short raises `IndexError`; what it has too much is not looked at. -/
theorem C43_lengths (u v w : List ℝ) :
    (v.length < u.length → euclideanDistance u (some v) = .error .indexError)
    ∧ (v.length = u.length → euclideanDistance u (some (v ++ w)) = euclideanDistance u (some v)) :=
  distance_lengths u v w

example : euclideanDistance [1, 2] (some [4, 6]) = .ok 5 := by
  simp [euclideanDistance, euclideanDistanceLoop]
  rw [Real.sqrt_eq_iff_mul_self_eq] <;> norm_num

/-! ## C44 -/

/-- `ned2pae` always returns; range, azimuth and elevation are spherical coordinates of the vector
(azimuth clockwise from north, elevation upwards), in their principal ranges. -/
theorem C44_spherical (ned : Vec) :
    ∃ p alpha epsilon : ℝ, ned2pae ned = .ok ![p, alpha, epsilon]
      ∧ p = len ned
      ∧ ned = p • ![Real.cos (epsilon * Real.pi / 180) * Real.cos (alpha * Real.pi / 180),
                    Real.cos (epsilon * Real.pi / 180) * Real.sin (alpha * Real.pi / 180),
                    -Real.sin (epsilon * Real.pi / 180)]
      ∧ (-180 < alpha ∧ alpha ≤ 180) ∧ (-90 ≤ epsilon ∧ epsilon ≤ 90) := pae_spherical ned

/-- They are the only ones: whatever range, azimuth and elevation describe the vector are returned. -/
theorem C44_unique (p alpha epsilon : ℝ) (hp : 0 < p) (ha : -180 < alpha ∧ alpha ≤ 180)
    (he : -90 < epsilon ∧ epsilon < 90) :
    ned2pae (p • ![Real.cos (epsilon * Real.pi / 180) * Real.cos (alpha * Real.pi / 180),
                   Real.cos (epsilon * Real.pi / 180) * Real.sin (alpha * Real.pi / 180),
                   -Real.sin (epsilon * Real.pi / 180)])
      = .ok ![p, alpha, epsilon] := pae_unique p alpha epsilon hp ha he

/-- `ecef2pae` applies this to the local coordinates of the point. -/
theorem C44_ecef (ecef origin ned : Vec) (h : ecef2ned ecef origin = some (.ok ned)) :
    ecef2pae ecef origin = some (ned2pae ned) := by
  simp only [ecef2pae, h]

/-- Two metres due east and two up: azimuth 90 degrees, elevation 45. -/
example : ned2pae ![0, 2, -2] = .ok ![2 * Real.sqrt 2, 90, 45] := by
  have h := C44_unique (2 * Real.sqrt 2) 90 45 (by positivity) (by norm_num) (by norm_num)
  rw [show (90 * Real.pi / 180 : ℝ) = Real.pi / 2 by ring, show (45 * Real.pi / 180 : ℝ) = Real.pi / 4 by ring,
    Real.cos_pi_div_four, Real.sin_pi_div_four, Real.cos_pi_div_two, Real.sin_pi_div_two] at h
  have e := Real.mul_self_sqrt (show (0 : ℝ) ≤ 2 by norm_num)
  rw [← h]
  congr 1
  ext i
  fin_cases i <;> simp <;> linarith

end Dis
