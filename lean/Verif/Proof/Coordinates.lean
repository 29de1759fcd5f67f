import Verif.Proof.Rotations
import Mathlib.Analysis.InnerProductSpace.PiL2

/-! # Lemmas about coordinate conversions -/

namespace Dis.Geo

open Matrix WGS84

/-! ## The loop of `ecef2lla` -/

theorem loop_eq {p z tol : ℝ} {n : ℕ} (h : ecef2lla_leaves p z tol n)
    (hno : ∀ m < n, ¬ ecef2lla_leaves p z tol m) : ecef2lla_loop p z tol = some (ecef2lla_after p z n) := by
  classical
  unfold ecef2lla_loop
  rw [dif_pos ⟨n, h⟩]
  congr 2
  rw [Nat.find_eq_iff]
  exact ⟨h, hno⟩

theorem not_leaves_zero (p z : ℝ) {tol : ℝ} (h : tol ≤ 90) : ¬ ecef2lla_leaves p z tol 0 := by
  simp [ecef2lla_leaves, ecef2lla_after, ecef2lla_init, h]

theorem ecef2lla_plane (x y : ℝ) (h : ¬ (x = 0 ∧ y = 0)) {tol : ℝ} (h0 : 0 < tol) (h1 : tol ≤ 90) :
    ecef2lla ![x, y, 0] tol = some (.ok ![0, rad2deg (atan2 y x), Real.sqrt (x ^ 2 + y ^ 2) - a]) := by
  have e1 : e ^ 2 ≠ 1 := by have := e_sq_lt; linarith
  have h2 : (1 : ℝ) - e ^ 2 ≠ 0 := fun h => e1 (by linarith)
  have ha := a_pos.ne'
  have hb : ∀ p : ℝ, ecef2lla_after p 0 1 = .ok ⟨0, 0, a, p - a⟩ := by
    intro p
    simp [ecef2lla_after, ecef2lla_body, ecef2lla_init, ha, h2]
  have hl : ∀ p : ℝ, ecef2lla_leaves p 0 tol 1 := by
    intro p
    simp [ecef2lla_leaves, hb, h0]
  have := loop_eq (hl (Real.sqrt (x ^ 2 + y ^ 2))) (fun m hm => by
    rw [Nat.lt_one_iff.1 hm]; exact not_leaves_zero _ _ h1)
  simp only [ecef2lla, cons_val_zero, cons_val_one, cons_val, h, if_false, this, hb]
  simp [rad2deg]

theorem ecef2lla_equator (x : ℝ) (hx : 0 < x) :
    ecef2lla ![x, 0, 0] defaultTolerance = some (.ok ![0, 0, x - 6378137]) := by
  have := ecef2lla_plane x 0 (by simp [hx.ne']) (tol := defaultTolerance) (by unfold defaultTolerance; norm_num)
    (by unfold defaultTolerance; norm_num)
  rw [this]
  have h0 : atan2 0 x = 0 := by
    have := atan2_polar (r := x) (t := 0) hx (by simp [Real.pi_pos]) Real.pi_pos.le
    simpa using this
  rw [h0]
  congr 2
  ext i
  fin_cases i <;> simp [rad2deg, hx.le, a, Real.sqrt_sq]
  norm_num

/-! ## Local tangent plane -/

theorem ned_eq (origin lla : Vec) (h : ecef2lla origin defaultTolerance = some (.ok lla)) (p : Vec) :
    ecef2ned p origin = some (.ok ((nedFrame (lla 0 * Real.pi / 180) (lla 1 * Real.pi / 180))ᵀ *ᵥ (p - origin)))
    ∧ ned2ecef p origin = some (.ok (nedFrame (lla 0 * Real.pi / 180) (lla 1 * Real.pi / 180) *ᵥ p + origin)) := by
  constructor
  · simp only [ecef2ned, h]
    refine congrArg (fun M : Mat => some (Except.ok (M *ᵥ (p - origin)))) ?_
    exact ecefvec_eq _ _
  · simp only [ned2ecef, h]
    refine congrArg (fun M : Mat => some (Except.ok (M *ᵥ p + origin))) ?_
    ext i j
    fin_cases i <;> fin_cases j <;> simp [nedFrame, north, east, up, deg2rad]

theorem ned_domain (origin p q : Vec) (err : PyErr) :
    (ecef2ned p origin = none ↔ ned2ecef q origin = none)
    ∧ (ecef2ned p origin = some (.error err) ↔ ned2ecef q origin = some (.error err)) := by
  unfold ecef2ned ned2ecef
  cases ecef2lla origin defaultTolerance with
  | none => simp
  | some r => cases r <;> simp

theorem ned_ok {origin p q : Vec} (h : ecef2ned p origin = some (.ok q) ∨ ned2ecef q origin = some (.ok p)) :
    ∃ lla, ecef2lla origin defaultTolerance = some (.ok lla) := by
  cases hr : ecef2lla origin defaultTolerance with
  | none => simp [ecef2ned, ned2ecef, hr] at h
  | some r =>
    cases r with
    | error e => simp [ecef2ned, ned2ecef, hr] at h
    | ok lla => exact ⟨lla, rfl⟩

theorem ned_inverse (origin p q : Vec) :
    ecef2ned p origin = some (.ok q) ↔ ned2ecef q origin = some (.ok p) := by
  constructor
  · intro h
    obtain ⟨lla, hl⟩ := ned_ok (Or.inl h)
    rw [(ned_eq origin lla hl p).1] at h
    rw [(ned_eq origin lla hl q).2]
    injection h with h
    injection h with h
    have hN := isRotation_ned (lla 0 * Real.pi / 180) (lla 1 * Real.pi / 180)
    rw [← h, mulVec_mulVec, hN.1, Matrix.one_mulVec, sub_add_cancel]
  · intro h
    obtain ⟨lla, hl⟩ := ned_ok (Or.inr h)
    rw [(ned_eq origin lla hl q).2] at h
    rw [(ned_eq origin lla hl p).1]
    injection h with h
    injection h with h
    have hN := isRotation_ned (lla 0 * Real.pi / 180) (lla 1 * Real.pi / 180)
    rw [← h, add_sub_cancel_right, mulVec_mulVec, hN.left, Matrix.one_mulVec]

theorem ned_origin (origin q : Vec) (h : ecef2ned origin origin = some (.ok q)) : q = 0 := by
  obtain ⟨lla, hl⟩ := ned_ok (Or.inl h)
  rw [(ned_eq origin lla hl origin).1] at h
  injection h with h
  injection h with h
  rw [← h, sub_self, mulVec_zero]

theorem ned_isometry (origin p p' q q' : Vec) (h : ecef2ned p origin = some (.ok q))
    (h' : ecef2ned p' origin = some (.ok q')) : len (q - q') = len (p - p') := by
  obtain ⟨lla, hl⟩ := ned_ok (Or.inl h)
  rw [(ned_eq origin lla hl p).1] at h
  rw [(ned_eq origin lla hl p').1] at h'
  injection h with h
  injection h with h
  injection h' with h'
  injection h' with h'
  rw [← h, ← h', ← mulVec_sub, (isRotation_ned _ _).transpose.len]
  congr 1
  abel

/-! ## Geodetic coordinates -/

theorem lla2ecef_eq (lla : Vec) : lla2ecef lla =
    ![(NN (deg2rad (lla 0)) + lla 2) * Real.cos (deg2rad (lla 0)) * Real.cos (deg2rad (lla 1)),
      (NN (deg2rad (lla 0)) + lla 2) * Real.cos (deg2rad (lla 0)) * Real.sin (deg2rad (lla 1)),
      (NN (deg2rad (lla 0)) * (1 - e ^ 2) + lla 2) * Real.sin (deg2rad (lla 0))] := rfl

theorem lla2ecef_ellipsoid (lat lon : ℝ) : OnEllipsoid (lla2ecef ![lat, lon, 0]) := by
  rw [lla2ecef_eq]
  unfold OnEllipsoid
  simp only [cons_val_zero, cons_val_one, cons_val, add_zero]
  generalize deg2rad lat = t
  generalize deg2rad lon = l
  have hN := NN_sq t
  have he := e_sq
  have q1 := sq1 t
  have q2 := sq1 l
  have hab : (6356752.3142 : ℝ) ^ 2 = 6378137 ^ 2 * (1 - e ^ 2) := by
    rw [he]; unfold a b; norm_num
  have ha : (6378137 : ℝ) ^ 2 = a ^ 2 := by unfold a; norm_num
  have he' : (1 : ℝ) - e ^ 2 ≠ 0 := by have := e_sq_lt; intro h; linarith
  have ha0 : a ≠ 0 := a_pos.ne'
  rw [hab, ha]
  generalize NN t = n at *
  generalize e ^ 2 = E at *
  field_simp
  linear_combination (n ^ 2 * Real.cos t ^ 2) * q2 + n ^ 2 * q1 + hN

theorem lla2ecef_normal (lat lon : ℝ) :
    ∃ c : ℝ, 0 < c ∧ gradient (lla2ecef ![lat, lon, 0]) = c • up (lat * Real.pi / 180) (lon * Real.pi / 180) := by
  refine ⟨NN (deg2rad lat) / 6378137 ^ 2, div_pos (NN_pos _) (by norm_num), ?_⟩
  rw [lla2ecef_eq]
  have hab : (6356752.3142 : ℝ) ^ 2 = 6378137 ^ 2 * (1 - e ^ 2) := by
    rw [e_sq]; unfold a b; norm_num
  have he' : (1 : ℝ) - e ^ 2 ≠ 0 := by have := e_sq_lt; intro h; linarith
  unfold gradient up
  rw [hab]
  ext i
  fin_cases i <;> simp [deg2rad] <;> field_simp

theorem lla2ecef_poles (lon h : ℝ) : lla2ecef ![90, lon, h] = ![0, 0, 6356752.3142 + h]
    ∧ lla2ecef ![-90, lon, h] = ![0, 0, -(6356752.3142 + h)] := by
  have h90 : deg2rad 90 = Real.pi / 2 := by unfold deg2rad; ring
  have h90' : deg2rad (-90) = -(Real.pi / 2) := by unfold deg2rad; ring
  have hb : NN (Real.pi / 2) * (1 - e ^ 2) = 6356752.3142 := by
    have : NN (Real.pi / 2) = a / (b / a) := by
      unfold NN
      rw [Real.sin_pi_div_two, mul_one, e_sq, sub_sub_cancel, Real.sqrt_sq (by unfold a b; norm_num)]
    rw [this, e_sq]; unfold a b; norm_num
  have hb' : NN (-(Real.pi / 2)) = NN (Real.pi / 2) := by simp [NN]
  constructor
  · rw [lla2ecef_eq]
    simp only [cons_val_zero, cons_val_one, cons_val, h90, hb, Real.cos_pi_div_two, Real.sin_pi_div_two]
    simp
  · rw [lla2ecef_eq]
    simp only [cons_val_zero, cons_val_one, cons_val, h90', hb', hb, Real.cos_neg, Real.sin_neg,
      Real.cos_pi_div_two, Real.sin_pi_div_two]
    simp

/-! ## Attitudes -/

theorem rotate_axis (theta : ℝ) (n : Vec) (hn : len n = 1) : rotate_3x3 theta n *ᵥ n = n := by
  have d : n ⬝ᵥ n = 1 := by
    have := congrArg (· ^ 2) hn
    simp only [len, one_pow] at this
    rw [Real.sq_sqrt (by positivity)] at this
    simp [dotProduct, Fin.sum_univ_three]; linarith
  rw [rotate_mulVec, d, cross_self]
  module

theorem ecef2llarpy_spec {X Y Z psi theta phi lat lon alt roll pitch yaw : ℝ}
    (h : ecef2llarpy X Y Z psi theta phi = some (.ok (![lat, lon, alt], ![roll, pitch, yaw]))) :
    ecef2lla ![X, Y, Z] defaultTolerance = some (.ok ![lat * 180 / Real.pi, lon * 180 / Real.pi, alt])
    ∧ nedFrame lat lon * attitude ![yaw, pitch, roll] = attitude ![psi, theta, phi] := by
  obtain ⟨g, hg, e1, e2⟩ := ecef2llarpy_frame h
  refine ⟨?_, by simpa using e2⟩
  have e0 := congrFun e1 0
  have e1' := congrFun e1 1
  have e2' := congrFun e1 2
  simp at e0 e1' e2'
  rw [hg, e0, e1', e2']
  congr 2
  have k : ∀ d : ℝ, deg2rad d * 180 / Real.pi = d := rad2deg_deg2rad
  ext i
  fin_cases i <;> simp [k]

theorem ecef2llarpy_returns (X Y Z psi theta phi : ℝ) :
    (∃ r, ecef2llarpy X Y Z psi theta phi = some (.ok r))
      ↔ ∃ lla, ecef2lla ![X, Y, Z] defaultTolerance = some (.ok lla) := by
  unfold ecef2llarpy
  cases ecef2lla ![X, Y, Z] defaultTolerance with
  | none => simp
  | some r => cases r <;> simp

theorem nedFrame_periodic (lat lon : ℝ) (k : ℤ) : nedFrame lat (lon + k * (2 * Real.pi)) = nedFrame lat lon := by
  simp [nedFrame, north, east, up, Real.cos_add_int_mul_two_pi, Real.sin_add_int_mul_two_pi]

theorem llarpy_round_trip (lat lon alt roll pitch yaw X Y Z psi theta phi : ℝ) (lla rpy : Vec)
    (hr : -Real.pi < roll ∧ roll ≤ Real.pi) (hp : -(Real.pi / 2) < pitch ∧ pitch < Real.pi / 2)
    (hy : -Real.pi < yaw ∧ yaw ≤ Real.pi)
    (h1 : llarpy2ecef lat lon alt roll pitch yaw = (![X, Y, Z], ![psi, theta, phi]))
    (h2 : ecef2llarpy X Y Z psi theta phi = some (.ok (lla, rpy)))
    (hlat : lla 0 = lat) (hlon : ∃ k : ℤ, lla 1 = lon + k * (2 * Real.pi)) :
    rpy = ![roll, pitch, yaw] := by
  obtain ⟨g, hg, e1, e2⟩ := ecef2llarpy_frame h2
  have f := llarpy_frame lat lon alt roll pitch yaw
  obtain ⟨k, hk⟩ := hlon
  rw [h1, ← e2, hlat, hk, nedFrame_periodic] at f
  have hc := (isRotation_ned lat lon).cancel f
  obtain ⟨r1, r2, r3⟩ := ecef2llarpy_range h2
  have := attitude_inj (o := ![yaw, pitch, roll]) (o' := ![rpy 2, rpy 1, rpy 0]) (by simpa using hy)
    (by simpa using hp) (by simpa using hr) (by simpa using r3) (by simpa using r2) (by simpa using r1) hc.symm
  have q0 := congrFun this 0
  have q1 := congrFun this 1
  have q2 := congrFun this 2
  simp at q0 q1 q2
  ext i
  fin_cases i
  · exact q2.symm
  · exact q1.symm
  · exact q0.symm

theorem llarpy_equator (alt roll pitch yaw : ℝ) (ha : -6378137 < alt)
    (hr : -Real.pi < roll ∧ roll ≤ Real.pi) (hp : -(Real.pi / 2) < pitch ∧ pitch < Real.pi / 2)
    (hy : -Real.pi < yaw ∧ yaw ≤ Real.pi) :
    ∃ psi theta phi, llarpy2ecef 0 0 alt roll pitch yaw = (![6378137 + alt, 0, 0], ![psi, theta, phi])
      ∧ ecef2llarpy (6378137 + alt) 0 0 psi theta phi = some (.ok (![0, 0, alt], ![roll, pitch, yaw])) := by
  have hpos : lla2ecef ![rad2deg 0, rad2deg 0, alt] = ![6378137 + alt, 0, 0] := by
    rw [lla2ecef_eq]
    ext i
    fin_cases i <;> simp [deg2rad_rad2deg, NN, a]
    norm_num
  generalize ho : (llarpy2ecef 0 0 alt roll pitch yaw).2 = o
  have hfull : llarpy2ecef 0 0 alt roll pitch yaw = (![6378137 + alt, 0, 0], ![o 0, o 1, o 2]) := by
    have : ![o 0, o 1, o 2] = o := by ext i; fin_cases i <;> rfl
    rw [this, ← ho, ← hpos]; rfl
  refine ⟨_, _, _, hfull, ?_⟩
  have hlla := ecef2lla_equator (6378137 + alt) (by linarith)
  obtain ⟨⟨lla, rpy⟩, hret⟩ := (ecef2llarpy_returns _ _ _ (o 0) (o 1) (o 2)).2 ⟨_, hlla⟩
  obtain ⟨g, hg, e1, -⟩ := ecef2llarpy_frame hret
  rw [hlla] at hg
  injection hg with hg
  injection hg with hg
  have e1' : lla = ![0, 0, alt] := by
    rw [e1, ← hg]
    ext i
    fin_cases i <;> simp [deg2rad]
  have := llarpy_round_trip 0 0 alt roll pitch yaw _ _ _ _ _ _ lla rpy hr hp hy hfull hret (by simp [e1'])
    ⟨0, by simp [e1']⟩
  rw [hret, this, e1']

/-! ## Distances -/

theorem loop_none : ∀ (u : List ℝ) (t : ℝ), euclideanDistanceLoop t u none = .ok (t + (u.map (· ^ 2)).sum)
  | [], t => by simp [euclideanDistanceLoop]
  | d :: u, t => by simp [euclideanDistanceLoop, loop_none u, add_assoc]

theorem loop_some : ∀ (u v w : List ℝ) (t : ℝ), v.length = u.length →
    euclideanDistanceLoop t u (some (v ++ w)) = .ok (t + ((u.zip v).map fun q => (q.1 - q.2) ^ 2).sum)
  | [], v, w, t, h => by
    rw [List.length_eq_zero_iff.1 h]; simp [euclideanDistanceLoop]
  | d :: u, [], w, t, h => by simp at h
  | d :: u, r :: v, w, t, h => by
    simp only [List.cons_append, euclideanDistanceLoop, List.zip_cons_cons, List.map_cons, List.sum_cons]
    rw [loop_some u v w _ (by simpa using h)]
    simp [add_assoc]

theorem loop_short : ∀ (u v : List ℝ) (t : ℝ), v.length < u.length →
    euclideanDistanceLoop t u (some v) = .error .indexError
  | [], v, t, h => by simp at h
  | d :: u, [], t, h => rfl
  | d :: u, r :: v, t, h => by
    simp only [euclideanDistanceLoop]
    exact loop_short u v _ (by simpa using h)

theorem distance_lengths (u v w : List ℝ) :
    (v.length < u.length → euclideanDistance u (some v) = .error .indexError)
    ∧ (v.length = u.length → euclideanDistance u (some (v ++ w)) = euclideanDistance u (some v)) := by
  constructor
  · intro h
    simp only [euclideanDistance, loop_short u v 0 h]
  · intro h
    have h2 := loop_some u v [] 0 h
    rw [List.append_nil] at h2
    simp only [euclideanDistance, loop_some u v w 0 h, h2]

theorem distance_eq {n : ℕ} (u v : EuclideanSpace ℝ (Fin n)) :
    euclideanDistance (List.ofFn u) none = .ok ‖u‖
    ∧ euclideanDistance (List.ofFn u) (some (List.ofFn v)) = .ok (dist u v) := by
  constructor
  · rw [euclideanDistance, loop_none]
    simp only [zero_add]
    rw [EuclideanSpace.norm_eq]
    congr 2
    rw [List.map_ofFn, List.sum_ofFn]
    simp
  · have h := loop_some (List.ofFn u) (List.ofFn v) [] 0 (by simp)
    rw [List.append_nil] at h
    rw [euclideanDistance, h]
    simp only [zero_add]
    rw [EuclideanSpace.dist_eq]
    congr 2
    have hz : (List.ofFn u).zip (List.ofFn v) = List.ofFn fun i => (u i, v i) := by
      apply List.ext_getElem <;> simp
    rw [hz, List.map_ofFn, List.sum_ofFn]
    simp [Real.dist_eq]

theorem distance_metric (u v w : List ℝ) (hv : v.length = u.length) (hw : w.length = u.length) :
    ∃ duv dvu dvw duw, euclideanDistance u (some v) = .ok duv ∧ euclideanDistance v (some u) = .ok dvu
      ∧ euclideanDistance v (some w) = .ok dvw ∧ euclideanDistance u (some w) = .ok duw
      ∧ 0 ≤ duv ∧ (duv = 0 ↔ u = v) ∧ duv = dvu ∧ duw ≤ duv + dvw := by
  obtain ⟨n, hn⟩ : ∃ n, n = u.length := ⟨_, rfl⟩
  have mk : ∀ l : List ℝ, l.length = n → ∃ x : EuclideanSpace ℝ (Fin n), l = List.ofFn x := by
    intro l hl
    subst hl
    exact ⟨WithLp.toLp 2 fun i => l.get i, (List.ofFn_get l).symm⟩
  obtain ⟨x, rfl⟩ := mk u hn.symm
  obtain ⟨y, rfl⟩ := mk v (hv.trans hn.symm)
  obtain ⟨z, rfl⟩ := mk w (hw.trans hn.symm)
  refine ⟨_, _, _, _, (distance_eq x y).2, (distance_eq y x).2, (distance_eq y z).2, (distance_eq x z).2,
    dist_nonneg, ?_, dist_comm _ _, dist_triangle _ _ _⟩
  rw [dist_eq_zero]
  constructor
  · rintro rfl; rfl
  · intro h
    have := List.ofFn_injective h
    ext i
    exact congrFun this i

/-! ## Range, azimuth, elevation -/

theorem ned2pae_eq (ned : Vec) : ned2pae ned = .ok ![len ned, rad2deg (atan2 (ned 1) (ned 0)),
    rad2deg (atan2 (-ned 2) (Real.sqrt (ned 0 ^ 2 + ned 1 ^ 2)))] := by
  simp [ned2pae, euclideanDistance, euclideanDistanceLoop, len]

theorem rad2deg_mul (t : ℝ) : rad2deg t * Real.pi / 180 = t := deg2rad_rad2deg t

theorem pae_spherical (ned : Vec) :
    ∃ p alpha epsilon : ℝ, ned2pae ned = .ok ![p, alpha, epsilon]
      ∧ p = len ned
      ∧ ned = p • ![Real.cos (epsilon * Real.pi / 180) * Real.cos (alpha * Real.pi / 180),
                    Real.cos (epsilon * Real.pi / 180) * Real.sin (alpha * Real.pi / 180),
                    -Real.sin (epsilon * Real.pi / 180)]
      ∧ (-180 < alpha ∧ alpha ≤ 180) ∧ (-90 ≤ epsilon ∧ epsilon ≤ 90) := by
  refine ⟨_, _, _, ned2pae_eq ned, rfl, ?_, ?_, ?_⟩
  · rw [rad2deg_mul, rad2deg_mul]
    have h0 : 0 ≤ ned 0 ^ 2 + ned 1 ^ 2 := by positivity
    have c1 := atan2_cos (ned 1) (ned 0)
    have s1 := atan2_sin (ned 1) (ned 0)
    have c2 := atan2_cos (-ned 2) (Real.sqrt (ned 0 ^ 2 + ned 1 ^ 2))
    have s2 := atan2_sin (-ned 2) (Real.sqrt (ned 0 ^ 2 + ned 1 ^ 2))
    rw [Real.sq_sqrt h0, neg_sq] at c2 s2
    change len ned * _ = _ at c2
    change len ned * _ = _ at s2
    ext i
    fin_cases i <;> simp
    · rw [← mul_assoc, c2, c1]
    · rw [← mul_assoc, c2, s1]
    · rw [s2, neg_neg]
  · have h := atan2_range (ned 1) (ned 0)
    have hp := Real.pi_pos
    unfold rad2deg
    constructor
    · rw [lt_div_iff₀ hp]; linarith [h.1]
    · rw [div_le_iff₀ hp]; linarith [h.2]
  · have h := atan2_half (-ned 2) _ (Real.sqrt_nonneg (ned 0 ^ 2 + ned 1 ^ 2))
    have hp := Real.pi_pos
    unfold rad2deg
    constructor
    · rw [le_div_iff₀ hp]; linarith [h.1]
    · rw [div_le_iff₀ hp]; linarith [h.2]

theorem pae_unique (p alpha epsilon : ℝ) (hp : 0 < p) (ha : -180 < alpha ∧ alpha ≤ 180)
    (he : -90 < epsilon ∧ epsilon < 90) :
    ned2pae (p • ![Real.cos (epsilon * Real.pi / 180) * Real.cos (alpha * Real.pi / 180),
                   Real.cos (epsilon * Real.pi / 180) * Real.sin (alpha * Real.pi / 180),
                   -Real.sin (epsilon * Real.pi / 180)])
      = .ok ![p, alpha, epsilon] := by
  have hpi := Real.pi_pos
  rw [ned2pae_eq]
  have e1 : epsilon * Real.pi / 180 = deg2rad epsilon := rfl
  have a1 : alpha * Real.pi / 180 = deg2rad alpha := rfl
  rw [e1, a1]
  have ra : -Real.pi < deg2rad alpha ∧ deg2rad alpha ≤ Real.pi := by
    unfold deg2rad
    constructor
    · nlinarith [ha.1]
    · nlinarith [ha.2]
  have re : -(Real.pi / 2) < deg2rad epsilon ∧ deg2rad epsilon < Real.pi / 2 := by
    unfold deg2rad
    constructor
    · nlinarith [he.1]
    · nlinarith [he.2]
  have hc : 0 < Real.cos (deg2rad epsilon) := Real.cos_pos_of_mem_Ioo re
  have ka := rad2deg_deg2rad alpha
  have ke := rad2deg_deg2rad epsilon
  generalize deg2rad alpha = A at *
  generalize deg2rad epsilon = E at *
  have qa := sq1 A
  have qe := sq1 E
  have hpc : 0 < p * Real.cos E := mul_pos hp hc
  have hr : Real.sqrt ((p * (Real.cos E * Real.cos A)) ^ 2 + (p * (Real.cos E * Real.sin A)) ^ 2)
      = p * Real.cos E := by
    rw [Real.sqrt_eq_iff_mul_self_eq (by positivity) hpc.le]
    linear_combination (p ^ 2 * Real.cos E ^ 2) * qa
  congr 1
  ext i
  fin_cases i <;> simp
  · unfold len
    rw [Real.sqrt_eq_iff_mul_self_eq (by positivity) hp.le]
    simp
    linear_combination (p ^ 2 * Real.cos E ^ 2) * qa + p ^ 2 * qe
  · rw [← mul_assoc, ← mul_assoc, atan2_polar hpc ra.1 ra.2, ka]
  · rw [hr, atan2_polar hp (by linarith [re.1]) (by linarith [re.2]), ke]

end Dis.Geo
