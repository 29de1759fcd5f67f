import Verif.Proof.Local64
import Verif.Proof.ReferenceNumpy
import Verif.Props.Geodetic64

/-!
# C73: local coordinates in floating point

`GPS.ecef2ned`, `GPS.ned2ecef`, `GPS.ned2pae` and `GPS.ecef2pae` of /repo/opendis/RangeCoordinates.py on doubles, for any
mathematical library and matrix products within the bounds of `Numpy.Accurate` (`Spec/Libm.lean`). `nedFrame lat lon` has
the directions north, east and down as columns, `len` is the length of a vector (`Spec/Geo.lean`).

The origin enters in two ways: its offset is subtracted and its latitude and longitude turn the axes. The theorems
separate the two. What depends on the offset only (distances, one function after the other) is exact up to rounding
wherever `ecef2lla` returns at all; directions also carry the error of `ecef2lla`.
-/

set_option exponentiation.threshold 4096

namespace Dis

open Geo Matrix

/-- `ecef2ned` gives the components of the offset along north, east and down at the latitude and longitude that
`ecef2lla` gives for the origin, within 1.4e-14 of the distance. -/
theorem C73_ecef2ned (L : Dbl.Numpy) (hL : L.Accurate) (ecef origin lla : Dbl.Vec) (D : ℝ)
    (hlla : Dbl.ecef2lla L.toLibm origin Dbl.defaultTolerance = some (.ok lla))
    (hlat : (lla 0).Finite ∧ |ofDouble (lla 0)| ≤ 360) (hlon : (lla 1).Finite ∧ |ofDouble (lla 1)| ≤ 360)
    (he : ∀ i, (ecef i).Finite) (ho : ∀ i, (origin i).Finite)
    (hD : ∀ i, |ofDouble (ecef i) - ofDouble (origin i)| ≤ D) (bD : D ≤ 2 ^ 300) :
    ∃ ned, Dbl.ecef2ned L.toLibm ecef origin = some (.ok ned) ∧
      ∀ i, (ned i).Finite ∧ |ofDouble (ned i)
        - ((nedFrame (ofDouble (lla 0) * Real.pi / 180) (ofDouble (lla 1) * Real.pi / 180))ᵀ
          *ᵥ fun i => ofDouble (ecef i) - ofDouble (origin i)) i| ≤ 1.4e-14 * D + 1e-29 := by
  have d0 := (Ap.deg2rad hlat.1 hlat.2 (by norm_num)).mono (g := 1.7e-15) (by norm_num)
  have d1 := (Ap.deg2rad hlon.1 hlon.2 (by norm_num)).mono (g := 1.7e-15) (by norm_num)
  obtain ⟨ned, e, h⟩ := to_ned hL hlla d0.1 d1.1 he ho hD bD
  refine ⟨ned, e, fun i => ⟨(h i).1, (abs_sub_le _ _ _).trans (add_le_add (h i).2 (frame_near d0.2
    ((Real.abs_cos_sub_cos_le _ _).trans d1.2) ((Real.abs_sin_sub_sin_le _ _).trans d1.2) hD i)) |>.trans ?_⟩⟩
  have := (abs_nonneg _).trans (hD 0)
  norm_num
  linarith

/-- With an origin within 0.4 µm of a point at most 100 km from the ellipsoid and at least 1 m from the axis, the
components are along the true directions there, up to 0.61 µm per metre of distance, more at altitude and near
the axis. -/
theorem C73_true_directions (L : Dbl.Numpy) (hL : L.Accurate) (ecef origin : Dbl.Vec) (lat lon alt D q : ℝ)
    (he : ∀ i, (ecef i).Finite) (ho : ∀ i, (origin i).Finite) (hlat : -90 < lat ∧ lat < 90) (halt : |alt| ≤ 100000)
    (hpos : ∀ i, |ofDouble (origin i) - lla2ecef ![lat, lon, alt] i| ≤ 4e-7)
    (hq : q = Real.sqrt (lla2ecef ![lat, lon, alt] 0 ^ 2 + lla2ecef ![lat, lon, alt] 1 ^ 2)) (haxis : 1 ≤ q)
    (hD : ∀ i, |ofDouble (ecef i) - ofDouble (origin i)| ≤ D) (bD : D ≤ 2 ^ 300) :
    ∃ ned, Dbl.ecef2ned L.toLibm ecef origin = some (.ok ned) ∧
      ∀ i, (ned i).Finite ∧ |ofDouble (ned i) - ((nedFrame (lat * Real.pi / 180) (lon * Real.pi / 180))ᵀ
          *ᵥ fun i => ofDouble (ecef i) - ofDouble (origin i)) i|
        ≤ (6.1e-7 + 6e-11 * |alt| + 2.6e-6 / q) * D + 1e-29 := by
  obtain ⟨lla, e2, a0, f1, c, s, -⟩ := geodetic_near hL ho hlat halt hpos (by rw [← hq]; exact haxis)
  rw [← hq] at c s
  have q0 : 0 < q := lt_of_lt_of_le one_pos haxis
  have c' : |Real.cos (ofDouble (Dbl.deg2rad (lla 1))) - Real.cos (lon * Real.pi / 180)| ≤ 1.3e-6 / q := by
    rw [le_div_iff₀ q0, mul_comm]; exact c
  have s' : |Real.sin (ofDouble (Dbl.deg2rad (lla 1))) - Real.sin (lon * Real.pi / 180)| ≤ 1.3e-6 / q := by
    rw [le_div_iff₀ q0, mul_comm]; exact s
  obtain ⟨ned, e, h⟩ := to_ned hL e2 a0.1 f1.1 he ho hD bD
  refine ⟨ned, e, fun i => ⟨(h i).1, (abs_sub_le _ _ _).trans (add_le_add (h i).2
    (frame_near a0.2 c' s' hD i)) |>.trans ?_⟩⟩
  have D0 := (abs_nonneg _).trans (hD 0)
  rw [show (2.6e-6 : ℝ) / q = 2 * (1.3e-6 / q) by ring]
  generalize (1.3e-6 : ℝ) / q = w
  generalize |alt| = u
  ring_nf
  norm_num
  linarith

/-- `ned2ecef` undoes `ecef2ned` up to rounding, at any origin for which `ecef2lla` returns: an error in the latitude
and longitude does not enter, because both functions turn by the same angles. -/
theorem C73_round_trip (L : Dbl.Numpy) (hL : L.Accurate) (ecef origin lla : Dbl.Vec) (D : ℝ)
    (hlla : Dbl.ecef2lla L.toLibm origin Dbl.defaultTolerance = some (.ok lla))
    (hlat : (lla 0).Finite ∧ |ofDouble (lla 0)| ≤ 360) (hlon : (lla 1).Finite ∧ |ofDouble (lla 1)| ≤ 360)
    (he : ∀ i, (ecef i).Finite) (ho : ∀ i, (origin i).Finite) (be : ∀ i, |ofDouble (ecef i)| ≤ 2 ^ 900)
    (hD : ∀ i, |ofDouble (ecef i) - ofDouble (origin i)| ≤ D) (bD : D ≤ 2 ^ 300) :
    ∃ ned ecef', Dbl.ecef2ned L.toLibm ecef origin = some (.ok ned) ∧
      Dbl.ned2ecef L.toLibm ned origin = some (.ok ecef') ∧
      ∀ i, (ecef' i).Finite ∧
        |ofDouble (ecef' i) - ofDouble (ecef i)| ≤ 3e-14 * D + 1.12e-16 * |ofDouble (ecef i)| + 1e-29 := by
  have d0 := Ap.deg2rad hlat.1 hlat.2 (by norm_num)
  have d1 := Ap.deg2rad hlon.1 hlon.2 (by norm_num)
  obtain ⟨ned, e, h⟩ := to_ned hL hlla d0.1 d1.1 he ho hD bD
  have D0 := (abs_nonneg _).trans (hD 0)
  have hF := isRotation_ned (ofDouble (Dbl.deg2rad (lla 0))) (ofDouble (Dbl.deg2rad (lla 1)))
  have hx : ∀ i, (nedFrame (ofDouble (Dbl.deg2rad (lla 0))) (ofDouble (Dbl.deg2rad (lla 1)))
      *ᵥ ((nedFrame (ofDouble (Dbl.deg2rad (lla 0))) (ofDouble (Dbl.deg2rad (lla 1))))ᵀ
        *ᵥ fun i => ofDouble (ecef i) - ofDouble (origin i))) i + ofDouble (origin i) = ofDouble (ecef i) := fun i => by
    rw [Matrix.mulVec_mulVec, hF.1, Matrix.one_mulVec]
    ring
  obtain ⟨ecef', e', h'⟩ := from_ned hL (D := 3 * D) (S := fun i => |ofDouble (ecef i)|) hlla d0.1 d1.1 ho h
    (fun i => sum3_le hF.transpose hD i) (by
      have : (4 : ℝ) * 2 ^ 300 = 2 ^ 302 := by norm_num
      rw [← this]
      linarith [show (0 : ℝ) ≤ 2 ^ 300 by positivity]) (by norm_num; linarith)
    (fun i => (be i).trans (by norm_num)) (fun i => by rw [hx i])
  refine ⟨ned, ecef', e, e', fun i => ⟨(h' i).1, ?_⟩⟩
  have := (h' i).2
  rw [hx i] at this
  refine this.trans ?_
  norm_num
  linarith

/-- And `ecef2ned` undoes `ned2ecef`; here the sum with the origin is rounded too. -/
theorem C73_round_trip_back (L : Dbl.Numpy) (hL : L.Accurate) (ned origin lla : Dbl.Vec) (D R : ℝ)
    (hlla : Dbl.ecef2lla L.toLibm origin Dbl.defaultTolerance = some (.ok lla))
    (hlat : (lla 0).Finite ∧ |ofDouble (lla 0)| ≤ 360) (hlon : (lla 1).Finite ∧ |ofDouble (lla 1)| ≤ 360)
    (hn : ∀ i, (ned i).Finite) (ho : ∀ i, (origin i).Finite) (hR : ∀ i, |ofDouble (origin i)| ≤ R)
    (hD : ∀ i, |ofDouble (ned i)| ≤ D) (bR : R ≤ 2 ^ 290) (bD : D ≤ 2 ^ 290) :
    ∃ ecef ned', Dbl.ned2ecef L.toLibm ned origin = some (.ok ecef) ∧
      Dbl.ecef2ned L.toLibm ecef origin = some (.ok ned') ∧
      ∀ i, (ned' i).Finite ∧ |ofDouble (ned' i) - ofDouble (ned i)| ≤ 4e-14 * D + 4e-16 * R + 1e-29 := by
  have d0 := Ap.deg2rad hlat.1 hlat.2 (by norm_num)
  have d1 := Ap.deg2rad hlon.1 hlon.2 (by norm_num)
  have D0 := (abs_nonneg _).trans (hD 0)
  have R0 := (abs_nonneg _).trans (hR 0)
  have hF := isRotation_ned (ofDouble (Dbl.deg2rad (lla 0))) (ofDouble (Dbl.deg2rad (lla 1)))
  have b1 : (1000 : ℝ) * 2 ^ 290 ≤ 2 ^ 300 := by norm_num
  have b2 : (2 : ℝ) ^ 300 ≤ 2 ^ 302 := by norm_num
  have b3 : (2 : ℝ) ^ 300 ≤ 2 ^ 990 := by norm_num
  have b4 : (1 : ℝ) ≤ 2 ^ 290 := one_le_pow₀ (by norm_num)
  obtain ⟨ecef, e, h⟩ := from_ned hL (v := fun i => ofDouble (ned i)) (f := 0) (S := fun _ => 3 * D + R) hlla d0.1 d1.1 ho
    (fun i => Ap.self (hn i)) hD (by linarith) (by norm_num; linarith) (fun _ => by linarith)
    (fun i => (abs_add_le _ _).trans (add_le_add (sum3_le hF hD i) (hR i)))
  have off : ∀ i, |ofDouble (ecef i) - ofDouble (origin i) - (nedFrame (ofDouble (Dbl.deg2rad (lla 0)))
      (ofDouble (Dbl.deg2rad (lla 1))) *ᵥ fun i => ofDouble (ned i)) i| ≤ 4.9e-15 * D + 1.12e-16 * R + 2e-30 := fun i => by
    have := (h i).2
    rw [← sub_sub, sub_right_comm] at this
    refine this.trans ?_
    norm_num
    linarith
  have bo : ∀ i, |ofDouble (ecef i) - ofDouble (origin i)| ≤ 3.01 * D + 1.12e-16 * R + 2e-30 := fun i =>
    (abs_le_of_near (off i)).trans (by
      have := sum3_le hF hD i
      norm_num
      linarith)
  obtain ⟨ned', e', h'⟩ := to_ned hL hlla d0.1 d1.1 (fun i => (h i).1) ho bo (by norm_num at b1 b4 ⊢; linarith)
  refine ⟨ecef, ned', e, e', fun i => ⟨(h' i).1, (abs_sub_le _ _ _).trans (add_le_add (h' i).2 (d :=
    3 * (4.9e-15 * D + 1.12e-16 * R + 2e-30)) ?_) |>.trans ?_⟩⟩
  · have k := sum3_le hF.transpose off i
    have ev : (fun i => ofDouble (ecef i) - ofDouble (origin i) - (nedFrame (ofDouble (Dbl.deg2rad (lla 0)))
        (ofDouble (Dbl.deg2rad (lla 1))) *ᵥ fun i => ofDouble (ned i)) i)
        = (fun i => ofDouble (ecef i) - ofDouble (origin i)) - (nedFrame (ofDouble (Dbl.deg2rad (lla 0)))
        (ofDouble (Dbl.deg2rad (lla 1))) *ᵥ fun i => ofDouble (ned i)) := rfl
    rw [ev, Matrix.mulVec_sub, Matrix.mulVec_mulVec, hF.left, Matrix.one_mulVec] at k
    exact k
  · norm_num
    linarith

/-- `ned2pae` returns the length of the vector within 7e-16 of it, and an azimuth and an elevation in degrees from
which, with the range, the vector is recovered within 6e-15 of its length (straight up and the zero vector
included). -/
theorem C73_ned2pae (L : Dbl.Numpy) (hL : L.Accurate) (ned : Dbl.Vec) (hn : ∀ i, (ned i).Finite)
    (bn : ∀ i, |ofDouble (ned i)| ≤ 2 ^ 400) (l : ℝ) (hl : l = len fun i => ofDouble (ned i)) :
    ∃ p alpha epsilon, Dbl.ned2pae L.toLibm ned = .ok ![p, alpha, epsilon] ∧
      (p.Finite ∧ alpha.Finite ∧ epsilon.Finite) ∧
      |ofDouble p - l| ≤ 7e-16 * l + 4e-15 ∧
      |ofDouble p * (Real.cos (ofDouble epsilon * Real.pi / 180) * Real.cos (ofDouble alpha * Real.pi / 180))
        - ofDouble (ned 0)| ≤ 6e-15 * l + 2e-14 ∧
      |ofDouble p * (Real.cos (ofDouble epsilon * Real.pi / 180) * Real.sin (ofDouble alpha * Real.pi / 180))
        - ofDouble (ned 1)| ≤ 6e-15 * l + 2e-14 ∧
      |-(ofDouble p * Real.sin (ofDouble epsilon * Real.pi / 180)) - ofDouble (ned 2)| ≤ 6e-15 * l + 2e-14 := by
  subst hl
  obtain ⟨p, alpha, epsilon, e, a, b, hp, h⟩ := pae_near hL hn bn
  exact ⟨p, alpha, epsilon, e, ⟨hp.1, a.1, b.1⟩, hp.2, h⟩

/-- The range `ecef2pae` returns is the straight-line distance of the two points, within 1.6e-14 of it, at any origin
for which `ecef2lla` returns. -/
theorem C73_range (L : Dbl.Numpy) (hL : L.Accurate) (ecef origin lla : Dbl.Vec) (D : ℝ)
    (hlla : Dbl.ecef2lla L.toLibm origin Dbl.defaultTolerance = some (.ok lla))
    (hlat : (lla 0).Finite ∧ |ofDouble (lla 0)| ≤ 360) (hlon : (lla 1).Finite ∧ |ofDouble (lla 1)| ≤ 360)
    (he : ∀ i, (ecef i).Finite) (ho : ∀ i, (origin i).Finite)
    (hD : D = len fun i => ofDouble (ecef i) - ofDouble (origin i)) (bD : D ≤ 2 ^ 300) :
    ∃ p alpha epsilon, Dbl.ecef2pae L.toLibm ecef origin = some (.ok ![p, alpha, epsilon]) ∧
      p.Finite ∧ |ofDouble p - D| ≤ 1.6e-14 * D + 5e-15 := by
  have d0 := Ap.deg2rad hlat.1 hlat.2 (by norm_num)
  have d1 := Ap.deg2rad hlon.1 hlon.2 (by norm_num)
  have k : ∀ i, |ofDouble (ecef i) - ofDouble (origin i)| ≤ D := fun i => by
    rw [hD]; exact le_len (fun i => ofDouble (ecef i) - ofDouble (origin i)) i
  obtain ⟨ned, e, h⟩ := to_ned hL hlla d0.1 d1.1 he ho k bD
  have hF := isRotation_ned (ofDouble (Dbl.deg2rad (lla 0))) (ofDouble (Dbl.deg2rad (lla 1)))
  have D0 := (abs_nonneg _).trans (k 0)
  obtain ⟨p, alpha, epsilon, e', -, -, hp, -⟩ := pae_near hL (fun i => (h i).1) fun i =>
    ((h i).le (sum3_le hF.transpose k i)).trans (by
      have b1 : (8 : ℝ) * 2 ^ 300 ≤ 2 ^ 400 := by norm_num
      have b2 : (1 : ℝ) ≤ 2 ^ 300 := one_le_pow₀ (by norm_num)
      generalize (2 : ℝ) ^ 300 = A at *
      generalize (2 : ℝ) ^ 400 = B at *
      norm_num
      linarith)
  refine ⟨p, alpha, epsilon, by rw [Dbl.ecef2pae, e, ← e'], hp.1, ?_⟩
  have hl := len_lip fun i => (h i).2
  rw [hF.transpose.len, ← hD] at hl
  have hl' := abs_le.1 hl
  refine (abs_sub_le _ _ _).trans ((add_le_add hp.2 hl).trans ?_)
  norm_num at hl' ⊢
  linarith

/-- All three fail as `ecef2lla` does for the origin: the same exception, or running forever. -/
theorem C73_failure (L : Dbl.Libm) (v origin : Dbl.Vec) :
    (Dbl.ecef2lla L origin Dbl.defaultTolerance = none →
      Dbl.ecef2ned L v origin = none ∧ Dbl.ned2ecef L v origin = none ∧ Dbl.ecef2pae L v origin = none) ∧
    ∀ err, Dbl.ecef2lla L origin Dbl.defaultTolerance = some (.error err) →
      Dbl.ecef2ned L v origin = some (.error err) ∧ Dbl.ned2ecef L v origin = some (.error err) ∧
      Dbl.ecef2pae L v origin = some (.error err) := by
  constructor
  · intro h
    have e : Dbl.ecef2ned L v origin = none := by rw [Dbl.ecef2ned, h]
    exact ⟨e, by rw [Dbl.ned2ecef, h], by rw [Dbl.ecef2pae, e]⟩
  · intro err h
    have e : Dbl.ecef2ned L v origin = some (.error err) := by rw [Dbl.ecef2ned, h]
    exact ⟨e, by rw [Dbl.ned2ecef, h], by rw [Dbl.ecef2pae, e]⟩

/-! ## Concrete cases -/

theorem equator_position : lla2ecef ![0, 0, 0] = ![6378137, 0, 0] := by
  rw [lla2ecef_form]
  simp [NN, WGS84.a]
  norm_num

/-- From the point of the equator at longitude 0, three metres up, four east and twelve north. -/
example : ∃ ned, Dbl.ecef2ned referenceNumpy.toLibm ![0x415854a700000000, 0x4010000000000000, 0x4028000000000000]
      ![0x415854a640000000, 0, 0] = some (.ok ned) ∧
    |ofDouble (ned 0) - 12| ≤ 8e-6 ∧ |ofDouble (ned 1) - 4| ≤ 8e-6 ∧ |ofDouble (ned 2) - -3| ≤ 8e-6 := by
  have o0 : ofDouble 0x415854a640000000 = 6378137 := by
    rw [val_units (m := 6378137) 1074 0 (by decide +kernel) rfl]; norm_num
  have o1 : ofDouble 0 = 0 := by
    rw [val_units (m := 0) 1074 0 (by decide +kernel) rfl]; norm_num
  have p0 : ofDouble 0x415854a700000000 = 6378140 := by
    rw [val_units (m := 6378140) 1074 0 (by decide +kernel) rfl]; norm_num
  have p1 : ofDouble 0x4010000000000000 = 4 := by
    rw [val_units (m := 4) 1074 0 (by decide +kernel) rfl]; norm_num
  have p2 : ofDouble 0x4028000000000000 = 12 := by
    rw [val_units (m := 12) 1074 0 (by decide +kernel) rfl]; norm_num
  have hv : (fun i => ofDouble ((![0x415854a700000000, 0x4010000000000000, 0x4028000000000000] : Dbl.Vec) i)
      - ofDouble ((![0x415854a640000000, 0, 0] : Dbl.Vec) i)) = ![3, 4, 12] := by
    funext i
    fin_cases i
    · show ofDouble 0x415854a700000000 - ofDouble 0x415854a640000000 = 3
      rw [p0, o0]; norm_num
    · show ofDouble 0x4010000000000000 - ofDouble 0 = 4
      rw [p1, o1]; norm_num
    · show ofDouble 0x4028000000000000 - ofDouble 0 = 12
      rw [p2, o1]; norm_num
  obtain ⟨ned, e, h⟩ := C73_true_directions referenceNumpy referenceNumpy_accurate
    ![0x415854a700000000, 0x4010000000000000, 0x4028000000000000] ![0x415854a640000000, 0, 0] 0 0 0 12 6378137
    (fun i => by fin_cases i <;> exact show F64.expo _ ≠ 2047 by decide +kernel)
    (fun i => by fin_cases i <;> exact show F64.expo _ ≠ 2047 by decide +kernel) (by norm_num) (by norm_num)
    (fun i => by
      rw [equator_position]
      fin_cases i
      · show |ofDouble 0x415854a640000000 - 6378137| ≤ _
        rw [o0]; norm_num
      · show |ofDouble 0 - 0| ≤ _
        rw [o1]; norm_num
      · show |ofDouble 0 - 0| ≤ _
        rw [o1]; norm_num)
    (by rw [equator_position]; simp) (by norm_num)
    (fun i => by
      rw [congrFun hv i]
      fin_cases i <;> norm_num [abs_le]) (by norm_num)
  rw [hv] at h
  have w : ((nedFrame (0 * Real.pi / 180) (0 * Real.pi / 180))ᵀ *ᵥ ![3, 4, 12] : Fin 3 → ℝ) = ![12, 4, -3] := by
    funext i
    fin_cases i <;> simp [nedFrame, north, east, up, mulVec, dotProduct, Fin.sum_univ_three]
  rw [w] at h
  have b : ((6.1e-7 + 6e-11 * |0| + 2.6e-6 / 6378137) * 12 + 1e-29 : ℝ) ≤ 8e-6 := by norm_num
  exact ⟨ned, e, (h 0).2.trans b, (h 1).2.trans b, (h 2).2.trans b⟩

/-- On the axis over the north pole, 13 m to a point 3 m, 4 m and 12 m away along the coordinate axes: the range, and
back from local coordinates. -/
theorem pole_range : ∃ p alpha epsilon, Dbl.ecef2pae referenceNumpy.toLibm ![0x4008000000000000, 0x4010000000000000, 0x41583fce00000000]
      ![0, 0, 0x41583fcb00000000] = some (.ok ![p, alpha, epsilon]) ∧ |ofDouble p - 13| ≤ 3e-13 ∧
    ∃ ned ecef', Dbl.ecef2ned referenceNumpy.toLibm ![0x4008000000000000, 0x4010000000000000, 0x41583fce00000000]
        ![0, 0, 0x41583fcb00000000] = some (.ok ned) ∧
      Dbl.ned2ecef referenceNumpy.toLibm ned ![0, 0, 0x41583fcb00000000] = some (.ok ecef') ∧
      |ofDouble (ecef' 0) - 3| ≤ 4e-13 := by
  have o0 : ofDouble 0 = 0 := by
    rw [val_units (m := 0) 1074 0 (by decide +kernel) rfl]; norm_num
  have o2 : ofDouble 0x41583fcb00000000 = 6356780 := by
    rw [val_units (m := 6356780) 1074 0 (by decide +kernel) rfl]; norm_num
  have p0 : ofDouble 0x4008000000000000 = 3 := by
    rw [val_units (m := 3) 1074 0 (by decide +kernel) rfl]; norm_num
  have p1 : ofDouble 0x4010000000000000 = 4 := by
    rw [val_units (m := 4) 1074 0 (by decide +kernel) rfl]; norm_num
  have p2 : ofDouble 0x41583fce00000000 = 6356792 := by
    rw [val_units (m := 6356792) 1074 0 (by decide +kernel) rfl]; norm_num
  have hv : (fun i => ofDouble ((![0x4008000000000000, 0x4010000000000000, 0x41583fce00000000] : Dbl.Vec) i)
      - ofDouble ((![0, 0, 0x41583fcb00000000] : Dbl.Vec) i)) = ![3, 4, 12] := by
    funext i
    fin_cases i
    · show ofDouble 0x4008000000000000 - ofDouble 0 = 3
      rw [p0, o0]; norm_num
    · show ofDouble 0x4010000000000000 - ofDouble 0 = 4
      rw [p1, o0]; norm_num
    · show ofDouble 0x41583fce00000000 - ofDouble 0x41583fcb00000000 = 12
      rw [p2, o2]; norm_num
  have hl : len ![3, 4, 12] = 13 := by
    unfold len
    rw [show (![3, 4, 12] : Fin 3 → ℝ) 0 ^ 2 + (![3, 4, 12] : Fin 3 → ℝ) 1 ^ 2 + (![3, 4, 12] : Fin 3 → ℝ) 2 ^ 2 = 13 ^ 2 by
      simp; norm_num]
    exact Real.sqrt_sq (by norm_num)
  have ha := ecef2lla_axis (L := referenceNumpy.toLibm) (pos := ![0, 0, 0x41583fcb00000000]) (tol := Dbl.defaultTolerance)
    referenceNumpy_accurate.squareZero zero_finite zero_finite (show F64.expo _ ≠ 2047 by decide +kernel) o0 o0
  rw [if_pos (show 0 < ofDouble ((![0, 0, 0x41583fcb00000000] : Dbl.Vec) 2) from by
    show 0 < ofDouble 0x41583fcb00000000
    rw [o2]; norm_num)] at ha
  obtain ⟨r, e, e0, e1, -⟩ := returned ha
  have n90 := Ap.num (n := 90) (by decide)
  have n69 := Ap.num (n := 69) (by decide)
  have q0 : (r 0).Finite ∧ |ofDouble (r 0)| ≤ 360 := by
    rw [e0]; exact ⟨n90.1, (n90.le (A := 90) (by norm_num)).trans (by norm_num)⟩
  have q1 : (r 1).Finite ∧ |ofDouble (r 1)| ≤ 360 := by
    rw [e1]; exact ⟨n69.1, (n69.le (A := 69) (by norm_num)).trans (by norm_num)⟩
  have fe : ∀ i, ((![0x4008000000000000, 0x4010000000000000, 0x41583fce00000000] : Dbl.Vec) i).Finite := fun i => by
    fin_cases i <;> exact show F64.expo _ ≠ 2047 by decide +kernel
  have fo : ∀ i, ((![0, 0, 0x41583fcb00000000] : Dbl.Vec) i).Finite := fun i => by
    fin_cases i <;> exact show F64.expo _ ≠ 2047 by decide +kernel
  obtain ⟨p, alpha, epsilon, h1, -, h2⟩ := C73_range referenceNumpy referenceNumpy_accurate _ _ r 13 e q0 q1 fe fo
    (by rw [hv, hl]) (by norm_num)
  refine ⟨p, alpha, epsilon, h1, h2.trans (by norm_num), ?_⟩
  obtain ⟨ned, ecef', h3, h4, h5⟩ := C73_round_trip referenceNumpy referenceNumpy_accurate _ _ r 12 e q0 q1 fe fo
    (fun i => by
      fin_cases i
      · show |ofDouble 0x4008000000000000| ≤ _
        rw [p0]; norm_num
      · show |ofDouble 0x4010000000000000| ≤ _
        rw [p1]; norm_num
      · show |ofDouble 0x41583fce00000000| ≤ _
        rw [p2]; norm_num)
    (fun i => by
      rw [congrFun hv i]
      fin_cases i <;> norm_num [abs_le]) (by norm_num)
  refine ⟨ned, ecef', h3, h4, ?_⟩
  have := (h5 0).2
  change |ofDouble (ecef' 0) - ofDouble 0x4008000000000000| ≤ _ * _ + _ * |ofDouble 0x4008000000000000| + _ at this
  rw [p0] at this
  exact this.trans (by norm_num)

/-- Five metres straight up: the range is 5 m and the elevation has sine 1, though the azimuth is undetermined. -/
example : ∃ p alpha epsilon, Dbl.ned2pae referenceNumpy.toLibm ![0, 0, 0xc014000000000000] = .ok ![p, alpha, epsilon] ∧
    |ofDouble p - 5| ≤ 1e-14 ∧ |ofDouble p * Real.sin (ofDouble epsilon * Real.pi / 180) - 5| ≤ 6e-14 := by
  have o0 : ofDouble 0 = 0 := by
    rw [val_units (m := 0) 1074 0 (by decide +kernel) rfl]; norm_num
  have o2 : ofDouble 0xc014000000000000 = -5 := by
    rw [val_units (m := -5) 1074 0 (by decide +kernel) rfl]; norm_num
  have hl : 5 = len fun i => ofDouble ((![0, 0, 0xc014000000000000] : Dbl.Vec) i) := by
    show 5 = Real.sqrt (ofDouble 0 ^ 2 + ofDouble 0 ^ 2 + ofDouble 0xc014000000000000 ^ 2)
    rw [o0, o2, show (0 : ℝ) ^ 2 + 0 ^ 2 + (-5) ^ 2 = 5 ^ 2 by norm_num, Real.sqrt_sq (by norm_num)]
  obtain ⟨p, alpha, epsilon, h1, -, h2, -, -, h3⟩ := C73_ned2pae referenceNumpy referenceNumpy_accurate
    ![0, 0, 0xc014000000000000] (fun i => by fin_cases i <;> exact show F64.expo _ ≠ 2047 by decide +kernel)
    (fun i => by
      fin_cases i
      · show |ofDouble 0| ≤ _
        rw [o0]; norm_num
      · show |ofDouble 0| ≤ _
        rw [o0]; norm_num
      · show |ofDouble 0xc014000000000000| ≤ _
        rw [o2]; norm_num) 5 hl
  refine ⟨p, alpha, epsilon, h1, h2.trans (by norm_num), ?_⟩
  change |-(ofDouble p * Real.sin (ofDouble epsilon * Real.pi / 180)) - ofDouble 0xc014000000000000| ≤ _ at h3
  rw [o2, ← abs_neg, show -(-(ofDouble p * Real.sin (ofDouble epsilon * Real.pi / 180)) - -5)
    = ofDouble p * Real.sin (ofDouble epsilon * Real.pi / 180) - 5 by ring] at h3
  exact h3.trans (by norm_num)

/-- The centre of the Earth is no origin. -/
example : Dbl.ecef2pae referenceNumpy.toLibm ![0x4008000000000000, 0, 0] ![0, 0, 0] = some (.error .exception) :=
  ((C73_failure referenceNumpy.toLibm ![0x4008000000000000, 0, 0] ![0, 0, 0]).2 _
    (C71_centre referenceNumpy.toLibm referenceNumpy_accurate.squareZero _ _
      (fun i => by fin_cases i <;> exact show F64.expo _ ≠ 2047 by decide +kernel)
      (fun i => by
        have : ofDouble 0 = 0 := by
          rw [val_units (m := 0) 1074 0 (by decide +kernel) rfl]; norm_num
        fin_cases i
        exacts [this, this, this]))).2.2

end Dis
