[
 {
  "id": "G01",
  "file": "Verif/Geo/DeadReckoning.lean",
  "old": "let r23 := s_psi * s_theta * c_phi - c_psi * s_phi",
  "new": "let r23 := s_psi * s_theta * c_phi + c_psi * s_phi",
  "definition": "get_rotation_matrix",
  "claim": "sign of r23 flipped: not a rotation any more",
  "expect": [
   "C32",
   "C35"
  ]
 },
 {
  "id": "G02",
  "file": "Verif/Geo/DeadReckoning.lean",
  "old": "  !![r11, r12, r13;\n     r21, r22, r23;\n     r31, r32, r33]",
  "new": "  !![r11, r21, r31;\n     r12, r22, r32;\n     r13, r23, r33]",
  "definition": "get_rotation_matrix",
  "claim": "transposed matrix: still a rotation, but world-to-body instead of Rz Ry Rx",
  "expect": [
   "C32_elementary"
  ]
 },
 {
  "id": "G03",
  "file": "Verif/Geo/DeadReckoning.lean",
  "old": "let r31 := -s_theta",
  "new": "let r31 := s_theta",
  "definition": "get_rotation_matrix",
  "claim": "sign of r31 flipped",
  "expect": [
   "C32"
  ]
 },
 {
  "id": "G04",
  "file": "Verif/Geo/DeadReckoning.lean",
  "old": "     -wy, wx, 0]",
  "new": "     -wy, -wx, 0]",
  "definition": "get_angular_velocity_matrix",
  "claim": "not skew-symmetric, not the cross product",
  "expect": [
   "C32_skew",
   "C32_cross"
  ]
 },
 {
  "id": "G05",
  "file": "Verif/Geo/DeadReckoning.lean",
  "old": "  (position + dt \u2022 velocity, orientation)",
  "new": "  (position + velocity, orientation)",
  "definition": "drm_fpw",
  "claim": "dt dropped: dt = 0 no longer the identity, does not compose",
  "expect": [
   "C33",
   "C34_fpw"
  ]
 },
 {
  "id": "G06",
  "file": "Verif/Geo/DeadReckoning.lean",
  "old": "    if |c_theta| < 1e-6 then",
  "new": "    if |c_theta| < 1e-2 then",
  "definition": "drm_rpw",
  "claim": "gimbal-lock branch taken too early: rates wrong near but not at the singularity",
  "expect": [
   "C36"
  ]
 },
 {
  "id": "G07",
  "file": "Verif/Geo/DeadReckoning.lean",
  "old": "(p + (q * s_phi + r * c_phi) * t_theta, q * c_phi - r * s_phi,",
  "new": "(p + (q * s_phi - r * c_phi) * t_theta, q * c_phi - r * s_phi,",
  "definition": "drm_rpw",
  "claim": "roll rate wrong",
  "expect": [
   "C36"
  ]
 },
 {
  "id": "G08",
  "file": "Verif/Geo/DeadReckoning.lean",
  "old": "        (q * s_phi + r * c_phi) / c_theta)",
  "new": "        (q * s_phi + r * c_phi) * c_theta)",
  "definition": "drm_rpw",
  "claim": "yaw rate multiplied instead of divided by cos theta",
  "expect": [
   "C36"
  ]
 },
 {
  "id": "G09",
  "file": "Verif/Geo/DeadReckoning.lean",
  "old": "(p, q * c_phi - r * s_phi, 0)",
  "new": "(p, q * c_phi + r * s_phi, 0)",
  "definition": "drm_rpw",
  "claim": "pitch rate in the gimbal-lock branch wrong",
  "expect": [
   "C36"
  ]
 },
 {
  "id": "G10",
  "file": "Verif/Geo/DeadReckoning.lean",
  "old": "  let new_position := position + dt \u2022 velocity + dt ^ 2 \u2022 ((0.5 : \u211d) \u2022 acceleration)\n  let new_orientation := (drm_rpw position velocity dt orientation angular_velocity).2",
  "new": "  let new_position := position + dt \u2022 velocity + dt ^ 2 \u2022 acceleration\n  let new_orientation := (drm_rpw position velocity dt orientation angular_velocity).2",
  "definition": "drm_rvw",
  "claim": "factor 1/2 missing: position does not compose over time",
  "expect": [
   "C34"
  ]
 },
 {
  "id": "G11",
  "file": "Verif/Geo/DeadReckoning.lean",
  "old": "  (position + dt \u2022 velocity + dt ^ 2 \u2022 ((0.5 : \u211d) \u2022 acceleration), orientation)",
  "new": "  (position + dt \u2022 velocity + dt \u2022 ((0.5 : \u211d) \u2022 acceleration), orientation)",
  "definition": "drm_fvw",
  "claim": "dt instead of dt^2",
  "expect": [
   "C34_fvw"
  ]
 },
 {
  "id": "G12",
  "file": "Verif/Geo/DeadReckoning.lean",
  "old": "  let R_wb := get_rotation_matrix (orientation 0) (orientation 1) (orientation 2)\n  let velocity_world := R_wb *\u1d65 velocity\n  (position + dt \u2022 velocity_world, orientation)",
  "new": "  let R_wb := get_rotation_matrix (orientation 2) (orientation 1) (orientation 0)\n  let velocity_world := R_wb *\u1d65 velocity\n  (position + dt \u2022 velocity_world, orientation)",
  "definition": "drm_fpb",
  "claim": "psi and phi swapped when building the body-to-world matrix",
  "expect": [
   "C35"
  ]
 },
 {
  "id": "G13",
  "file": "Verif/Geo/DeadReckoning.lean",
  "old": "  let velocity_world := R_wb *\u1d65 velocity\n  (position + dt \u2022 velocity_world, orientation)",
  "new": "  let velocity_world := R_wb\u1d40 *\u1d65 velocity\n  (position + dt \u2022 velocity_world, orientation)",
  "definition": "drm_fpb",
  "claim": "transposed rotation: displacement turned the wrong way",
  "expect": [
   "C35"
  ]
 },
 {
  "id": "G14",
  "file": "Verif/Geo/DeadReckoning.lean",
  "old": "  (position + displacement_world, new_orientation)",
  "new": "  (position + displacement_body, new_orientation)",
  "definition": "drm_rvb",
  "claim": "body displacement added without rotating it",
  "expect": [
   "C35",
   "C34"
  ]
 },
 {
  "id": "G15",
  "file": "Verif/Geo/DeadReckoning.lean",
  "old": "  (position + dt \u2022 velocity_world, new_orientation)",
  "new": "  (position + dt \u2022 velocity_world, orientation)",
  "definition": "drm_rpb",
  "claim": "orientation not advanced",
  "expect": [
   "C36_all_rotating"
  ]
 },
 {
  "id": "G16",
  "file": "Verif/Geo/DeadReckoning.lean",
  "old": "  let displacement_body := dt \u2022 velocity + dt ^ 2 \u2022 ((0.5 : \u211d) \u2022 acceleration)\n  let displacement_world := R_wb *\u1d65 displacement_body\n  (position + displacement_world, orientation)",
  "new": "  let displacement_body := dt \u2022 velocity + dt ^ 2 \u2022 ((0.5 : \u211d) \u2022 acceleration)\n  let displacement_world := R_wb *\u1d65 displacement_body\n  (position + displacement_world, ![orientation 0, orientation 1, orientation 2 + dt])",
  "definition": "drm_fvb",
  "claim": "fixed-orientation model rolls",
  "expect": [
   "C33",
   "C34_fvb"
  ]
 },
 {
  "id": "G17",
  "file": "Verif/Geo/DeadReckoning.lean",
  "old": "(new_position, ![psi + d_psi * dt, theta + d_theta * dt, phi + d_phi * dt])",
  "new": "(new_position, ![psi + d_phi * dt, theta + d_theta * dt, phi + d_psi * dt])",
  "definition": "drm_rpw",
  "claim": "yaw and roll rates applied to the wrong angles",
  "expect": [
   "C36"
  ]
 },
 {
  "id": "G20",
  "file": "Verif/Geo/RangeCoordinates.lean",
  "old": "noncomputable def deg2rad (deg : \u211d) : \u211d := deg * Real.pi / 180",
  "new": "noncomputable def deg2rad (deg : \u211d) : \u211d := deg * Real.pi / 200",
  "definition": "deg2rad",
  "claim": "gradians instead of degrees",
  "expect": [
   "C43",
   "C39",
   "C38"
  ]
 },
 {
  "id": "G21",
  "file": "Verif/Geo/RangeCoordinates.lean",
  "old": "euclideanDistanceLoop (total + (d - r) ^ 2) data (some dataRef)",
  "new": "euclideanDistanceLoop (total + (d + r) ^ 2) data (some dataRef)",
  "definition": "euclideanDistanceLoop",
  "claim": "sum instead of difference: not a metric",
  "expect": [
   "C43"
  ]
 },
 {
  "id": "G22",
  "file": "Verif/Geo/RangeCoordinates.lean",
  "old": "  let z := (N * (1 - e ^ 2) + alt) * Real.sin lat\n  ![x, y, z]",
  "new": "  let z := (N + alt) * Real.sin lat\n  ![x, y, z]",
  "definition": "lla2ecef",
  "claim": "sphere-like z: not on the ellipsoid",
  "expect": [
   "C38",
   "C39"
  ]
 },
 {
  "id": "G23",
  "file": "Verif/Geo/RangeCoordinates.lean",
  "old": "  let y := (N + alt) * Real.cos lat * Real.sin lon\n",
  "new": "  let y := -((N + alt) * Real.cos lat * Real.sin lon)\n",
  "definition": "lla2ecef",
  "claim": "west longitudes positive",
  "expect": [
   "C38",
   "C39"
  ]
 },
 {
  "id": "G24",
  "file": "Verif/Geo/RangeCoordinates.lean",
  "old": "  let x := (N + alt) * Real.cos lat * Real.cos lon\n",
  "new": "  let x := N * Real.cos lat * Real.cos lon\n",
  "definition": "lla2ecef",
  "claim": "altitude ignored in x",
  "expect": [
   "C38"
  ]
 },
 {
  "id": "G25",
  "file": "Verif/Geo/RangeCoordinates.lean",
  "old": "    let lat := Real.arctan ((z + e ^ 2 * s.N * sinLat) / p)",
  "new": "    let lat := Real.arctan ((z - e ^ 2 * s.N * sinLat) / p)",
  "definition": "ecef2lla_body",
  "claim": "sign error: true coordinates no longer a fixed point",
  "expect": [
   "C39"
  ]
 },
 {
  "id": "G26",
  "file": "Verif/Geo/RangeCoordinates.lean",
  "old": "      let alt := p / Real.cos lat - N\n",
  "new": "      let alt := p / Real.cos lat - a\n",
  "definition": "ecef2lla_body",
  "claim": "altitude measured from the wrong radius",
  "expect": [
   "C39"
  ]
 },
 {
  "id": "G27",
  "file": "Verif/Geo/RangeCoordinates.lean",
  "old": "    if z > 0 then some (.ok ![90, 69, round2 (z - b)])",
  "new": "    if z > 0 then some (.ok ![90, 69, round2 (z - a)])",
  "definition": "ecef2lla",
  "claim": "altitude at the north pole measured from the equatorial radius",
  "expect": [
   "C39_poles"
  ]
 },
 {
  "id": "G28",
  "file": "Verif/Geo/RangeCoordinates.lean",
  "old": "    else if z < 0 then some (.ok ![-90, 69, round2 (-z - b)])",
  "new": "    else if z < 0 then some (.ok ![90, 69, round2 (-z - b)])",
  "definition": "ecef2lla",
  "claim": "south pole reported as north pole",
  "expect": [
   "C39_poles"
  ]
 },
 {
  "id": "G29",
  "file": "Verif/Geo/RangeCoordinates.lean",
  "old": "some (.ok ![rad2deg s.lat, rad2deg lon, s.alt])",
  "new": "some (.ok ![rad2deg lon, rad2deg s.lat, s.alt])",
  "definition": "ecef2lla",
  "claim": "latitude and longitude swapped in the result",
  "expect": [
   "C39"
  ]
 },
 {
  "id": "G30",
  "file": "Verif/Geo/RangeCoordinates.lean",
  "old": "  let lon := atan2 y x\n",
  "new": "  let lon := atan2 x y\n",
  "definition": "ecef2lla",
  "claim": "arguments of atan2 swapped",
  "expect": [
   "C39_longitude"
  ]
 },
 {
  "id": "G31",
  "file": "Verif/Geo/RangeCoordinates.lean",
  "old": "  | .ok s => \u00ac |s.lat - s.previousLat| \u2265 tolerance",
  "new": "  | .ok s => \u00ac (s.lat - s.previousLat) \u2265 tolerance",
  "definition": "ecef2lla_leaves",
  "claim": "absolute value forgotten: stops at the first decrease",
  "expect": [
   "C39_accuracy"
  ]
 },
 {
  "id": "G32",
  "file": "Verif/Geo/RangeCoordinates.lean",
  "old": "(1 - Real.cos theta) \u2022 nnt + Real.cos theta \u2022 (1 : Mat) + Real.sin theta \u2022 n_x",
  "new": "(1 - Real.cos theta) \u2022 nnt + Real.cos theta \u2022 (1 : Mat) - Real.sin theta \u2022 n_x",
  "definition": "rotate_3x3",
  "claim": "left-handed rotation",
  "expect": [
   "C40"
  ]
 },
 {
  "id": "G33",
  "file": "Verif/Geo/RangeCoordinates.lean",
  "old": "(1 - Real.cos theta) \u2022 nnt + Real.cos theta \u2022 (1 : Mat) + Real.sin theta \u2022 n_x",
  "new": "(1 + Real.cos theta) \u2022 nnt + Real.cos theta \u2022 (1 : Mat) + Real.sin theta \u2022 n_x",
  "definition": "rotate_3x3",
  "claim": "axis not fixed",
  "expect": [
   "C40"
  ]
 },
 {
  "id": "G34",
  "file": "Verif/Geo/RangeCoordinates.lean",
  "old": "     -Real.sin lon, Real.cos lon, 0;\n     -Real.cos lat * Real.cos lon, -Real.cos lat * Real.sin lon, -Real.sin lat]\n\n/-- `GPS.ecef2llarpy`",
  "new": "     Real.sin lon, -Real.cos lon, 0;\n     -Real.cos lat * Real.cos lon, -Real.cos lat * Real.sin lon, -Real.sin lat]\n\n/-- `GPS.ecef2llarpy`",
  "definition": "ecefvec2nedvec",
  "claim": "second row points west: left-handed frame",
  "expect": [
   "C37_frame",
   "C41"
  ]
 },
 {
  "id": "G35",
  "file": "Verif/Geo/RangeCoordinates.lean",
  "old": "    some (.ok (Re2t *\u1d65 (ecef - origin)))",
  "new": "    some (.ok (Re2t *\u1d65 (origin - ecef)))",
  "definition": "ecef2ned",
  "claim": "offset reversed",
  "expect": [
   "C37_inverse",
   "C37_meaning"
  ]
 },
 {
  "id": "G36",
  "file": "Verif/Geo/RangeCoordinates.lean",
  "old": "    some (.ok (Rt2e *\u1d65 ned + origin))",
  "new": "    some (.ok (Rt2e *\u1d65 ned))",
  "definition": "ned2ecef",
  "claim": "origin not added back",
  "expect": [
   "C37_inverse"
  ]
 },
 {
  "id": "G37",
  "file": "Verif/Geo/RangeCoordinates.lean",
  "old": "    let alpha := atan2 (ned 1) (ned 0)",
  "new": "    let alpha := atan2 (ned 0) (ned 1)",
  "definition": "ned2pae",
  "claim": "azimuth measured from east",
  "expect": [
   "C44"
  ]
 },
 {
  "id": "G38",
  "file": "Verif/Geo/RangeCoordinates.lean",
  "old": "    let epsilon := atan2 (-ned 2) (Real.sqrt (ned 0 ^ 2 + ned 1 ^ 2))",
  "new": "    let epsilon := atan2 (ned 2) (Real.sqrt (ned 0 ^ 2 + ned 1 ^ 2))",
  "definition": "ned2pae",
  "claim": "elevation negated",
  "expect": [
   "C44"
  ]
 },
 {
  "id": "G39",
  "file": "Verif/Geo/RangeCoordinates.lean",
  "old": "  | some (.ok ned) => some (ned2pae ned)",
  "new": "  | some (.ok ned) => some (ned2pae (-ned))",
  "definition": "ecef2pae",
  "claim": "direction reversed",
  "expect": [
   "C44_ecef"
  ]
 },
 {
  "id": "G40",
  "file": "Verif/Geo/RangeCoordinates.lean",
  "old": "  else if 0 \u2264 lat \u2227 lat < 8 then 'N'",
  "new": "  else if 0 < lat \u2227 lat < 8 then 'N'",
  "definition": "utmLetterDesignator",
  "claim": "the equator itself gets no band",
  "expect": [
   "C42_letter"
  ]
 },
 {
  "id": "G41",
  "file": "Verif/Geo/RangeCoordinates.lean",
  "old": "  else if 64 \u2264 lat \u2227 lat < 72 then 'W'\n",
  "new": "  else if 64 \u2264 lat \u2227 lat < 72 then 'X'\n",
  "definition": "utmLetterDesignator",
  "claim": "two bands called X",
  "expect": [
   "C42_letter"
  ]
 },
 {
  "id": "G42",
  "file": "Verif/Geo/RangeCoordinates.lean",
  "old": "  let zone\u2081 : \u2124 := truncate ((lon + 180) / 6) + 1",
  "new": "  let zone\u2081 : \u2124 := truncate ((lon + 180) / 6)",
  "definition": "zoneNumber",
  "claim": "zones numbered from 0",
  "expect": [
   "C42_number",
   "C42_within"
  ]
 },
 {
  "id": "G43",
  "file": "Verif/Geo/RangeCoordinates.lean",
  "old": "(56 \u2264 lat \u2227 lat < 64) \u2227 (3 \u2264 lon \u2227 lon < 12) then 32",
  "new": "(56 \u2264 lat \u2227 lat < 64) \u2227 (3 \u2264 lon \u2227 lon < 12) then 31",
  "definition": "zoneNumber",
  "claim": "Norway exception with the wrong zone",
  "expect": [
   "C42_norway"
  ]
 },
 {
  "id": "G44",
  "file": "Verif/Geo/RangeCoordinates.lean",
  "old": "    else if 9 \u2264 lon \u2227 lon < 21 then 33",
  "new": "    else if 9 \u2264 lon \u2227 lon < 21 then 32",
  "definition": "zoneNumber",
  "claim": "Svalbard exception with the wrong zone",
  "expect": [
   "C42_svalbard"
  ]
 },
 {
  "id": "G45",
  "file": "Verif/Geo/RangeCoordinates.lean",
  "old": "(((zoneNumber - 1) * 6 - 180 + 3 : \u2124) : \u211d)",
  "new": "(((zoneNumber - 1) * 6 - 180 : \u2124) : \u211d)",
  "definition": "lla2utm",
  "claim": "central meridian at the edge of the zone",
  "expect": [
   "C46"
  ]
 },
 {
  "id": "G46",
  "file": "Verif/Geo/RangeCoordinates.lean",
  "old": "  let k0 : \u211d := 0.9996",
  "new": "  let k0 : \u211d := 1",
  "definition": "lla2utm",
  "claim": "scale factor missing",
  "expect": [
   "C46"
  ]
 },
 {
  "id": "G47",
  "file": "Verif/Geo/RangeCoordinates.lean",
  "old": "* A ^ 5 / 120) + 500000",
  "new": "* A ^ 4 / 120) + 500000",
  "definition": "lla2utm",
  "claim": "even power in the easting series: not mirrored at the central meridian",
  "expect": [
   "C46_mirror"
  ]
 },
 {
  "id": "G48",
  "file": "Verif/Geo/RangeCoordinates.lean",
  "old": "  let y := k0 * (M - M0 +",
  "new": "  let y := 10000000 + k0 * (M - M0 +",
  "definition": "lla2utm",
  "claim": "false northing added everywhere",
  "expect": [
   "C46"
  ]
 },
 {
  "id": "G49",
  "file": "Verif/Geo/RangeCoordinates.lean",
  "old": "(5 - 18 * T + T ^ 2 + 72 * C - 58 * ePrimeSquared) * A ^ 5 / 120",
  "new": "(5 - 18 * T + T ^ 2 + 14 * C - 58 * ePrimeSquared) * A ^ 5 / 120",
  "definition": "lla2utm",
  "claim": "wrong coefficient in the easting series (the standard one is 72 C): eastings off the central meridian wrong",
  "expect": [
   "C46"
  ]
 },
 {
  "id": "G50",
  "file": "Verif/Geo/RangeCoordinates.lean",
  "old": "    - (3 * eSquared / 8 + 3 * eSquared ^ 2 / 32 + 45 * eSquared ^ 3 / 1024) * Real.sin (2 * latRad)",
  "new": "    - (3 * eSquared / 8 + 3 * eSquared ^ 2 / 32 - 45 * eSquared ^ 3 / 1024) * Real.sin (2 * latRad)",
  "definition": "lla2utm",
  "claim": "wrong coefficient in the meridian arc",
  "expect": [
   "C46"
  ]
 },
 {
  "id": "G51",
  "file": "Verif/Geo/RangeCoordinates.lean",
  "old": "{ utm := ![x, y, alt], zone := zone, k := k }",
  "new": "{ utm := ![y, x, alt], zone := zone, k := k }",
  "definition": "lla2utm",
  "claim": "easting and northing swapped",
  "expect": [
   "C46"
  ]
 },
 {
  "id": "G52",
  "file": "Verif/Geo/RangeCoordinates.lean",
  "old": "  let rot_array_1 := rotate_3x3 yaw z0\n  let x1 := rot_array_1 *\u1d65 x0",
  "new": "  let rot_array_1 := rotate_3x3 (-yaw) z0\n  let x1 := rot_array_1 *\u1d65 x0",
  "definition": "llarpy2ecef",
  "claim": "yaw turned the wrong way",
  "expect": [
   "C41"
  ]
 },
 {
  "id": "G53",
  "file": "Verif/Geo/RangeCoordinates.lean",
  "old": "  let Y2 := rotate_3x3 psi Z0 *\u1d65 Y0\n  let Z2 := rotate_3x3 theta Y2 *\u1d65 Z0",
  "new": "  let Y2 := rotate_3x3 psi Z0 *\u1d65 Y0\n  let Z2 := rotate_3x3 theta Y0 *\u1d65 Z0",
  "definition": "llarpy2ecef",
  "claim": "intermediate axis taken from the unrotated frame",
  "expect": [
   "C41"
  ]
 },
 {
  "id": "G54",
  "file": "Verif/Geo/RangeCoordinates.lean",
  "old": "    let roll := atan2 (y3 \u2b1d\u1d65 Z2) (y3 \u2b1d\u1d65 Y2)",
  "new": "    let roll := atan2 (y3 \u2b1d\u1d65 Y2) (y3 \u2b1d\u1d65 Z2)",
  "definition": "ecef2llarpy",
  "claim": "roll measured from the other axis",
  "expect": [
   "C41"
  ]
 },
 {
  "id": "G55",
  "file": "Verif/Geo/RangeCoordinates.lean",
  "old": "    some (.ok (![deg2rad lat, deg2rad lon, alt], ![roll, pitch, yaw]))",
  "new": "    some (.ok (![lat, lon, alt], ![roll, pitch, yaw]))",
  "definition": "ecef2llarpy",
  "claim": "latitude and longitude left in degrees",
  "expect": [
   "C41_ecef2llarpy"
  ]
 },
 {
  "id": "G56",
  "file": "Verif/Geo/RangeCoordinates.lean",
  "old": ".ok (lla2ecef lla - lla2ecef ![lat0, lon0, a0])",
  "new": ".ok (lla2ecef lla - lla2ecef ![lon0, lat0, a0])",
  "definition": "lla2gcc",
  "claim": "origin latitude and longitude swapped (no property covers lla2gcc yet)",
  "expect": [
   "C47"
  ]
 },
 {
  "id": "G60",
  "edits": [
   {
    "file": "Verif/Geo/DeadReckoning.lean",
    "old": "R_wb *\u1d65 velocity",
    "new": "R_wb\u1d40 *\u1d65 velocity",
    "count": 2
   },
   {
    "file": "Verif/Geo/DeadReckoning.lean",
    "old": "R_wb *\u1d65 displacement_body",
    "new": "R_wb\u1d40 *\u1d65 displacement_body",
    "count": 2
   }
  ],
  "definition": "drm_fpb, drm_rpb, drm_rvb, drm_fvb",
  "claim": "body velocities rotated by the inverse attitude in all four body-frame models",
  "expect": [
   "C34",
   "C35"
  ]
 },
 {
  "id": "G61",
  "edits": [
   {
    "file": "Verif/Geo/DeadReckoning.lean",
    "old": "dt \u2022 velocity",
    "new": "(-dt) \u2022 velocity",
    "count": 8
   }
  ],
  "definition": "all moving dead-reckoning models",
  "claim": "entities move backwards",
  "expect": [
   "C34",
   "C35"
  ]
 }
]