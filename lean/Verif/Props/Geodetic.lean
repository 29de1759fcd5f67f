import Verif.Proof.Geodetic2

/-!
# From earth-centred to geodetic coordinates (C39)

`ecef2lla` has outcome `none` if its loop runs forever, `some (.error _)` if it raises and
`some (.ok v)` if it returns `v`, the latitude and longitude in degrees and the altitude in metres.
"Returns the geodetic coordinates of the point" is said with `lla2ecef`, the direct formula, itself tied
to the ellipsoid in C40.
-/

namespace Dis

open Matrix Geo Geo.WGS84

/-! ## The longitude -/

/-- Off the polar axis, the longitude returned is exact: it is the polar angle of `(x, y)`, in
(-180, 180]. -/
theorem C39_longitude (x y z tol : ℝ) (hxy : ¬ (x = 0 ∧ y = 0)) (v : Vec)
    (h : ecef2lla ![x, y, z] tol = some (.ok v)) :
    x = Real.sqrt (x ^ 2 + y ^ 2) * Real.cos (v 1 * Real.pi / 180)
    ∧ y = Real.sqrt (x ^ 2 + y ^ 2) * Real.sin (v 1 * Real.pi / 180) ∧ -180 < v 1 ∧ v 1 ≤ 180 := by
  obtain ⟨p, l, hp, hl, ex, ey, ep, -⟩ := polar_form x y hxy
  rw [ex, ey, off_axis hp hl] at h
  have hv : v 1 = rad2deg l := by
    revert h
    rcases ecef2lla_loop p z tol with _ | _ | s
    · simp
    · simp
    · intro h
      injection h with h
      injection h with h
      rw [← h]; rfl
  rw [← ep, hv, show rad2deg l * Real.pi / 180 = l from deg2rad_rad2deg l]
  refine ⟨ex, ey, ?_, ?_⟩
  · unfold rad2deg; rw [lt_div_iff₀ Real.pi_pos]; linarith
  · unfold rad2deg; rw [div_le_iff₀ Real.pi_pos]; linarith

/-! ## The polar axis -/

/-- On the polar axis away from the centre, a call always returns, and the coordinates returned denote a
point at most 5 mm from the one asked for (the altitude is rounded to centimetres). -/
theorem C39_poles (z tol : ℝ) (hz : z ≠ 0) : ∃ v, ecef2lla ![0, 0, z] tol = some (.ok v)
    ∧ (v 0 = 90 ∧ 0 < z ∨ v 0 = -90 ∧ z < 0)
    ∧ lla2ecef v 0 = 0 ∧ lla2ecef v 1 = 0 ∧ |lla2ecef v 2 - z| ≤ 0.005 := by
  rcases lt_or_gt_of_ne hz with h | h
  · refine ⟨![-90, 69, round2 (-z - b)], ?_, ?_⟩
    · simp [ecef2lla, h, h.le]
    · have := (lla2ecef_poles 69 (round2 (-z - b))).2
      rw [this]
      have hr := round2_error (-z - b)
      refine ⟨Or.inr ⟨rfl, h⟩, rfl, rfl, ?_⟩
      rw [← abs_neg]
      simp only [cons_val]
      have e1 : -(-(6356752.3142 + round2 (-z - b)) - z) = round2 (-z - b) - (-z - b) := by
        unfold b; ring
      rw [e1]; exact hr
  · refine ⟨![90, 69, round2 (z - b)], ?_, ?_⟩
    · simp [ecef2lla, h]
    · have := (lla2ecef_poles 69 (round2 (z - b))).1
      rw [this]
      have hr := round2_error (z - b)
      refine ⟨Or.inl ⟨rfl, h⟩, rfl, rfl, ?_⟩
      simp only [cons_val]
      have e1 : 6356752.3142 + round2 (z - b) - z = round2 (z - b) - (z - b) := by
        unfold b; ring
      rw [e1]; exact hr

/-- At the centre of the earth it raises the generic exception of line 145. -/
theorem C39_centre (tol : ℝ) : ecef2lla ![0, 0, 0] tol = some (.error .exception) := by
  simp [ecef2lla]

/-- The north pole itself: altitude 0, and the longitude is the constant 69. -/
example : ecef2lla ![0, 0, 6356752.3142] 1e-9 = some (.ok ![90, 69, 0]) := by
  have h : round2 (6356752.3142 - b) = 0 := by
    unfold round2 roundHalfEven b; norm_num
  simp [ecef2lla, h]
  intro h; norm_num at h

/-! ## The iteration -/

/-- The true coordinates are a fixed point: a round of the loop started with the true altitude and
the length of the normal at the true latitude (whatever latitude it has) finds the true latitude, and the
same length and altitude again. For latitudes strictly between the poles and altitudes above -6335.439 km, which
is below the evolute of the ellipsoid at every latitude. -/
theorem C39_fixed_point (lat lon alt : ℝ) (h1 : -90 < lat ∧ lat < 90) (h2 : -6335439 ≤ alt) (s : LoopState)
    (hN : s.N = a / Real.sqrt (1 - (e * Real.sin (lat * Real.pi / 180)) ^ 2)) (hA : s.alt = alt) :
    ecef2lla_body (Real.sqrt (lla2ecef ![lat, lon, alt] 0 ^ 2 + lla2ecef ![lat, lon, alt] 1 ^ 2))
      (lla2ecef ![lat, lon, alt] 2) s
      = .ok { lat := lat * Real.pi / 180, previousLat := s.lat, N := s.N, alt := s.alt } := by
  have ht : -(Real.pi / 2) < lat * Real.pi / 180 ∧ lat * Real.pi / 180 < Real.pi / 2 := by
    have := Real.pi_pos
    constructor <;> nlinarith
  have hpos := above h2 (t := lat * Real.pi / 180)
  have hn : s.N = NN (lat * Real.pi / 180) := hN
  rw [lla2ecef_p ht hpos, lla2ecef_z]
  have hp : 0 < (NN (lat * Real.pi / 180) + alt) * Real.cos (lat * Real.pi / 180) :=
    mul_pos (sum_pos hpos) (cos_pos' ht)
  rw [body_ok hp s (D := NN (lat * Real.pi / 180) * (1 - e ^ 2) + alt) (by rw [hn, hA]) hpos.ne'
    (by rw [true_sin hpos]; exact one_sub_pos _), hn, true_lat ht hpos, true_SN ht hpos, true_W ht hpos,
    true_R ht hpos, hA]
  congr 2
  ring

/-- At 45 degrees north, 9 degrees east and 120 m. -/
example : ecef2lla_body (Real.sqrt (lla2ecef ![45, 9, 120] 0 ^ 2 + lla2ecef ![45, 9, 120] 1 ^ 2))
    (lla2ecef ![45, 9, 120] 2)
    { lat := 0, previousLat := 90, N := a / Real.sqrt (1 - (e * Real.sin (45 * Real.pi / 180)) ^ 2), alt := 120 }
    = .ok { lat := 45 * Real.pi / 180, previousLat := 0,
            N := a / Real.sqrt (1 - (e * Real.sin (45 * Real.pi / 180)) ^ 2), alt := 120 } :=
  C39_fixed_point 45 9 120 (by norm_num) (by norm_num) _ rfl rfl

/-- And only they are: if a round of the loop leaves the altitude and the length of the normal alone, then the
latitude it finds, the altitude and the longitude of the point are coordinates of the point. -/
theorem C39_fixed_point_only (x y z lon : ℝ) (hxy : ¬ (x = 0 ∧ y = 0))
    (hx : x = Real.sqrt (x ^ 2 + y ^ 2) * Real.cos (lon * Real.pi / 180))
    (hy : y = Real.sqrt (x ^ 2 + y ^ 2) * Real.sin (lon * Real.pi / 180))
    (s s' : LoopState) (h : ecef2lla_body (Real.sqrt (x ^ 2 + y ^ 2)) z s = .ok s')
    (hN : s'.N = s.N) (hA : s'.alt = s.alt) :
    lla2ecef ![s'.lat * 180 / Real.pi, lon, s'.alt] = ![x, y, z] := by
  obtain ⟨p, l, hp, hl, ex, ey, ep, -⟩ := polar_form x y hxy
  rw [← ep] at h hx hy
  obtain ⟨-, f2, f3⟩ := fixed_true hp s s' h hN hA
  rw [lla2ecef_eq]
  simp only [cons_val_zero, cons_val_one, cons_val]
  rw [show deg2rad (s'.lat * 180 / Real.pi) = s'.lat from deg2rad_rad2deg _, hA, ← f2, ← f3]
  rw [show deg2rad lon = lon * Real.pi / 180 from rfl, ← hx, ← hy]

/-- The iterates converge to the true coordinates: for every point between the poles, not nearer than
638 km to the centre and at most 76500 km from the plane of the equator, and for every precision,
after sufficiently many rounds latitude and altitude are that near the truth and stay so. -/
theorem C39_converges (lat lon alt : ℝ) (h1 : -90 < lat ∧ lat < 90) (h2 : -6335439 ≤ alt)
    (hr : 638000 ≤ len (lla2ecef ![lat, lon, alt])) (hz : |lla2ecef ![lat, lon, alt] 2| ≤ 76500000)
    (ε : ℝ) (hε : 0 < ε) :
    ∃ n₀, ∀ n, n₀ ≤ n → ∃ s, ecef2lla_after
      (Real.sqrt (lla2ecef ![lat, lon, alt] 0 ^ 2 + lla2ecef ![lat, lon, alt] 1 ^ 2)) (lla2ecef ![lat, lon, alt] 2) n
      = .ok s ∧ |s.lat - lat * Real.pi / 180| < ε ∧ |s.alt - alt| < ε := by
  have ht : -(Real.pi / 2) < lat * Real.pi / 180 ∧ lat * Real.pi / 180 < Real.pi / 2 := by
    have := Real.pi_pos
    constructor <;> nlinarith
  have hpos := above h2 (t := lat * Real.pi / 180)
  rw [len_eq, lla2ecef_p ht hpos] at hr
  rw [lla2ecef_p ht hpos]
  rw [lla2ecef_z] at hz hr ⊢
  have ha : a = 6378137 := by unfold a; norm_num
  exact converges ht hpos (by rw [ha]; linarith) (by rw [ha]; linarith) hε

/-- On the equator at longitude 0 and altitude 1000 m. -/
example (ε : ℝ) (hε : 0 < ε) : ∃ n₀, ∀ n, n₀ ≤ n → ∃ s, ecef2lla_after
    (Real.sqrt (lla2ecef ![0, 0, 1000] 0 ^ 2 + lla2ecef ![0, 0, 1000] 1 ^ 2)) (lla2ecef ![0, 0, 1000] 2) n
    = .ok s ∧ |s.lat - 0 * Real.pi / 180| < ε ∧ |s.alt - 1000| < ε := by
  have h : lla2ecef ![0, 0, 1000] = ![6379137, 0, 0] := by
    rw [lla2ecef_form]
    ext i; fin_cases i <;> simp [NN, a]; norm_num
  refine C39_converges 0 0 1000 (by norm_num) (by norm_num) ?_ ?_ ε hε
  · rw [h]; unfold len; apply Real.le_sqrt_of_sq_le; simp; norm_num
  · rw [h]; simp

/-! ## Returning -/

/-- "Raises only at the centre of the earth", for the points not nearer than 638 km to the centre and
at most 76500 km from the plane of the equator: off the polar axis the loop ends, for every positive
tolerance, and the call returns. (Missing: the points very near the centre and those between 76500 km and 77500 km
from the plane of the equator; beyond that the claim is false, `C39_raises_far`.) -/
theorem C39_returns_partial (x y z tol : ℝ) (hxy : ¬ (x = 0 ∧ y = 0)) (hr : 638000 ≤ len ![x, y, z])
    (hz : |z| ≤ 76500000) (ht : 0 < tol) : ∃ v, ecef2lla ![x, y, z] tol = some (.ok v) := by
  obtain ⟨p, l, hp, hl, ex, ey, ep, -⟩ := polar_form x y hxy
  rw [len_eq] at hr
  simp only [cons_val_zero, cons_val_one, cons_val] at hr
  rw [← ep] at hr
  have ha : a = 6378137 := by unfold a; norm_num
  obtain ⟨n, -, -, hn⟩ := loop_returns hp (z := z) (by rw [ha]; linarith) (by rw [ha]; linarith) ht
  rw [ex, ey, off_axis hp hl, hn]
  exact ⟨_, rfl⟩

/-- A point 6328 km from the centre. -/
example : ∃ v, ecef2lla ![4000000, 1000000, 4800000] 1e-9 = some (.ok v) :=
  C39_returns_partial _ _ _ _ (by norm_num) (by
    unfold len; apply Real.le_sqrt_of_sq_le; simp; norm_num) (by norm_num [abs_le]) (by norm_num)

/-- The code disagrees with "raises only at the centre of the earth": at 77500 km or more from the plane
of the equator and off the polar axis, `sqrt` gets a negative argument in the first round and every
call raises `ValueError`. -/
theorem C39_raises_far (x y z tol : ℝ) (hxy : ¬ (x = 0 ∧ y = 0)) (hz : 77500000 ≤ |z|) (ht : tol ≤ 90) :
    ecef2lla ![x, y, z] tol = some (.error .valueError) := by
  obtain ⟨p, l, hp, hl, ex, ey, ep, -⟩ := polar_form x y hxy
  rw [ex, ey, off_axis hp hl, raises_far (by linarith) ht]

/-- A point over the northern hemisphere, at a fifth of the distance to the moon. -/
example : ecef2lla ![1, 0, 80000000] 1e-9 = some (.error .valueError) :=
  C39_raises_far _ _ _ _ (by simp) (by rw [abs_of_pos] <;> norm_num) (by norm_num)

/-! ## Accuracy -/

/-- For points within 100 km of the ellipsoid and any tolerance from 0 to 1e-6 (the default is 1e-9), the call
returns, the longitude is exact, the latitude is within 1.1e-5 degrees plus 1e-9 degrees per metre of
altitude, and the altitude within 1.2 m plus 0.2 mm per metre of altitude. -/
theorem C39_accuracy (lat lon alt tol : ℝ) (h1 : -90 < lat ∧ lat < 90) (h2 : -180 < lon ∧ lon ≤ 180)
    (h3 : |alt| ≤ 100000) (h4 : 0 < tol) (h5 : tol ≤ 1e-6) :
    ∃ v, ecef2lla (lla2ecef ![lat, lon, alt]) tol = some (.ok v)
      ∧ |v 0 - lat| ≤ 1.1e-5 + 1e-9 * |alt| ∧ v 1 = lon ∧ |v 2 - alt| ≤ 1.2 + 2e-4 * |alt| := by
  have ht : -(Real.pi / 2) < lat * Real.pi / 180 ∧ lat * Real.pi / 180 < Real.pi / 2 := by
    have := Real.pi_pos
    constructor <;> nlinarith
  have hl : -Real.pi < lon * Real.pi / 180 ∧ lon * Real.pi / 180 ≤ Real.pi := by
    have := Real.pi_pos
    constructor <;> nlinarith
  have ha : a = 6378137 := by unfold a; norm_num
  have hD := D_bounds (t := lat * Real.pi / 180) h3
  have hpos : 0 < NN (lat * Real.pi / 180) * (1 - e ^ 2) + alt := by linarith
  have hp : 0 < (NN (lat * Real.pi / 180) + alt) * Real.cos (lat * Real.pi / 180) :=
    mul_pos (sum_pos hpos) (cos_pos' ht)
  have hR := R_ge ht h3
  have hz : |(NN (lat * Real.pi / 180) * (1 - e ^ 2) + alt) * Real.sin (lat * Real.pi / 180)| ≤ 12 * a := by
    have h6 := true_R_le ht hpos
    have h7 := abs_z_le ((NN (lat * Real.pi / 180) + alt) * Real.cos (lat * Real.pi / 180))
      ((NN (lat * Real.pi / 180) * (1 - e ^ 2) + alt) * Real.sin (lat * Real.pi / 180))
    have h8 := NN_bounds (lat * Real.pi / 180)
    have := abs_le.1 h3
    linarith
  obtain ⟨n, hn, hm, hloop⟩ := loop_returns hp (by linarith) hz h4
  rw [lla2ecef_form]
  rw [off_axis hp hl, hloop]
  have hn0 : n ≠ 0 := by
    rintro rfl
    simp only [lats, prevs] at hn
    norm_num at hn
    linarith
  have key : |lats ((NN (lat * Real.pi / 180) + alt) * Real.cos (lat * Real.pi / 180))
        ((NN (lat * Real.pi / 180) * (1 - e ^ 2) + alt) * Real.sin (lat * Real.pi / 180)) n - lat * Real.pi / 180|
      ≤ (1.099 + 0.0001 * |alt|) / 6235000
    ∧ |(xs ((NN (lat * Real.pi / 180) + alt) * Real.cos (lat * Real.pi / 180))
        ((NN (lat * Real.pi / 180) * (1 - e ^ 2) + alt) * Real.sin (lat * Real.pi / 180)) n).2
        - (xs ((NN (lat * Real.pi / 180) + alt) * Real.cos (lat * Real.pi / 180))
        ((NN (lat * Real.pi / 180) * (1 - e ^ 2) + alt) * Real.sin (lat * Real.pi / 180)) n).1 * (1 - e ^ 2) - alt|
      ≤ 1.11 + 0.00017 * |alt| := by
    match n, hn0 with
    | 1, _ =>
      apply accuracy_first ht h3
      simp only [prevs] at hn
      change |lats _ _ 1 - 0| < tol at hn
      rw [sub_zero] at hn
      linarith
    | k + 2, _ => exact accuracy_later ht h3 k
  have hh := abs_nonneg alt
  refine ⟨_, rfl, ?_, ?_, ?_⟩
  · simp only [cons_val_zero]
    have hpi := Real.pi_gt_d2
    have e1 : ∀ r : ℝ, rad2deg r - lat = (r - lat * Real.pi / 180) * (180 / Real.pi) := by
      intro r; unfold rad2deg; field_simp
    rw [e1, abs_mul, abs_of_pos (show 0 < 180 / Real.pi by positivity)]
    have h9 : 180 / Real.pi ≤ 57.4 := by
      rw [div_le_iff₀ Real.pi_pos]; linarith
    calc _ ≤ (1.099 + 0.0001 * |alt|) / 6235000 * 57.4 := by
          apply mul_le_mul key.1 h9 (by positivity) (by positivity)
      _ ≤ _ := by linarith
  · simp only [cons_val_one, cons_val_zero]
    exact rad2deg_deg2rad lon
  · simp only [cons_val]
    linarith [key.2]

/-- The bound cannot be made to follow the tolerance: the loop may stop in its second round by coincidence. At
the height 6200 km over the plane of the equator there is a point, 1408 km from the axis and about 140 m
above the ellipsoid, for which the coordinates returned denote a point at least 70 cm further north, however small
the tolerance. -/
theorem C39_stops_early : ∃ x : ℝ, 0 < x ∧ ∀ tol : ℝ, 0 < tol → tol ≤ 1 / 2 →
    ∃ v, ecef2lla ![x, 0, 6200000] tol = some (.ok v)
      ∧ lla2ecef v 0 = x ∧ lla2ecef v 1 = 0 ∧ 6200000.7 ≤ lla2ecef v 2 := by
  obtain ⟨p, hp, h⟩ := stops_early (z := 6200000) rfl
  refine ⟨p, hp, fun tol h0 h1 => ?_⟩
  obtain ⟨t, alt, ⟨prev, N, hl⟩, e1, e2⟩ := h tol h0 h1
  have hx := off_axis hp (l := 0) ⟨by linarith [Real.pi_pos], Real.pi_pos.le⟩ 6200000 tol
  rw [hl] at hx
  simp only [Real.cos_zero, Real.sin_zero, mul_one, mul_zero] at hx
  refine ⟨_, hx, ?_⟩
  rw [lla2ecef_eq]
  simp only [cons_val_zero, cons_val_one, cons_val, deg2rad_rad2deg, Real.cos_zero, Real.sin_zero, mul_one, mul_zero]
  exact ⟨e1, trivial, by linarith⟩

/-- The accuracy theorem at latitude 45, longitude 9, altitude 120 m. -/
example : ∃ v, ecef2lla (lla2ecef ![45, 9, 120]) 1e-9 = some (.ok v)
    ∧ |v 0 - 45| ≤ 1.2e-5 ∧ v 1 = 9 ∧ |v 2 - 120| ≤ 1.3 := by
  obtain ⟨v, h, h1, h2, h3⟩ := C39_accuracy 45 9 120 1e-9 (by norm_num) (by norm_num) (by norm_num [abs_le])
    (by norm_num) (by norm_num)
  rw [abs_of_pos (by norm_num : (0 : ℝ) < 120)] at h1 h3
  exact ⟨v, h, h1.trans (by norm_num), h2, h3.trans (by norm_num)⟩

end Dis
