import Verif.Proof.Ellipsoid
import Mathlib.LinearAlgebra.Matrix.Adjugate

/-! # Lemmas about axis-angle rotations and Euler angles -/

namespace Dis.Geo

open Matrix

theorem rotate_entries (t : ℝ) (n : Vec) : rotate_3x3 t n =
    !![(1 - Real.cos t) * (n 0 * n 0) + Real.cos t, (1 - Real.cos t) * (n 0 * n 1) - Real.sin t * n 2,
        (1 - Real.cos t) * (n 0 * n 2) + Real.sin t * n 1;
       (1 - Real.cos t) * (n 1 * n 0) + Real.sin t * n 2, (1 - Real.cos t) * (n 1 * n 1) + Real.cos t,
        (1 - Real.cos t) * (n 1 * n 2) - Real.sin t * n 0;
       (1 - Real.cos t) * (n 2 * n 0) - Real.sin t * n 1,
        (1 - Real.cos t) * (n 2 * n 1) + Real.sin t * n 0, (1 - Real.cos t) * (n 2 * n 2) + Real.cos t] := by
  ext i j
  fin_cases i <;> fin_cases j <;> simp [rotate_3x3, transpose3, -mul_eq_mul_left_iff] <;> ring

/-- Rodrigues' formula. -/
theorem rotate_mulVec (t : ℝ) (n v : Vec) : rotate_3x3 t n *ᵥ v =
    ((1 - Real.cos t) * (n ⬝ᵥ v)) • n + Real.cos t • v + Real.sin t • (n ⨯₃ v) := by
  rw [rotate_entries]
  ext i
  fin_cases i <;>
    simp [Matrix.mulVec, dotProduct, Fin.sum_univ_three, crossProduct] <;> ring

theorem rotate_z (t : ℝ) : rotate_3x3 t ![0, 0, 1] = Rz t := by
  rw [rotate_entries]
  ext i j
  fin_cases i <;> fin_cases j <;> simp [Rz]

theorem rotate_y (t : ℝ) : rotate_3x3 t ![0, 1, 0] = Ry t := by
  rw [rotate_entries]
  ext i j
  fin_cases i <;> fin_cases j <;> simp [Ry]

theorem rotate_x (t : ℝ) : rotate_3x3 t ![1, 0, 0] = Rx t := by
  rw [rotate_entries]
  ext i j
  fin_cases i <;> fin_cases j <;> simp [Rx]

/-- Rotations commute with the cross product. -/
theorem IsRotation.cross {Q : Mat} (h : IsRotation Q) (u v : Vec) :
    (Q *ᵥ u) ⨯₃ (Q *ᵥ v) = Q *ᵥ (u ⨯₃ v) := by
  have hadj : Q.adjugate = Qᵀ := by
    have h1 : Q * Q.adjugate = 1 := by rw [mul_adjugate, h.2, one_smul]
    calc Q.adjugate = (Qᵀ * Q) * Q.adjugate := by rw [h.left, Matrix.one_mul]
      _ = Qᵀ * (Q * Q.adjugate) := Matrix.mul_assoc _ _ _
      _ = Qᵀ := by rw [h1, Matrix.mul_one]
  rw [adjugate_fin_three] at hadj
  have e : ∀ i j, Q j i = _ := fun i j => (congrFun (congrFun hadj i) j).symm
  have e00 := e 0 0
  have e01 := e 0 1
  have e02 := e 0 2
  have e10 := e 1 0
  have e11 := e 1 1
  have e12 := e 1 2
  have e20 := e 2 0
  have e21 := e 2 1
  have e22 := e 2 2
  simp at e00 e01 e02 e10 e11 e12 e20 e21 e22
  ext i
  fin_cases i <;>
    simp [Matrix.mulVec, dotProduct, Fin.sum_univ_three, crossProduct]
  · linear_combination -(u 1 * v 2 - u 2 * v 1) * e00 - (u 2 * v 0 - u 0 * v 2) * e10
      - (u 0 * v 1 - u 1 * v 0) * e20
  · linear_combination -(u 1 * v 2 - u 2 * v 1) * e01 - (u 2 * v 0 - u 0 * v 2) * e11
      - (u 0 * v 1 - u 1 * v 0) * e21
  · linear_combination -(u 1 * v 2 - u 2 * v 1) * e02 - (u 2 * v 0 - u 0 * v 2) * e12
      - (u 0 * v 1 - u 1 * v 0) * e22

theorem IsRotation.dot {Q : Mat} (h : IsRotation Q) (u v : Vec) : (Q *ᵥ u) ⬝ᵥ (Q *ᵥ v) = u ⬝ᵥ v := by
  rw [Matrix.dotProduct_mulVec, Matrix.vecMul_mulVec, h.left, Matrix.vecMul_one]

/-- Rotating about a rotated axis. -/
theorem rotate_conj {Q : Mat} (h : IsRotation Q) (t : ℝ) (n : Vec) :
    rotate_3x3 t (Q *ᵥ n) * Q = Q * rotate_3x3 t n := by
  refine Matrix.ext_iff_mulVec.2 fun v => ?_
  rw [← mulVec_mulVec, ← mulVec_mulVec, rotate_mulVec, rotate_mulVec, h.dot, h.cross, mulVec_add,
    mulVec_add, mulVec_smul, mulVec_smul, mulVec_smul]

/-- Turning a frame about its own third, second and first axis. -/
theorem rotate_frame_z {Q : Mat} (h : IsRotation Q) (t : ℝ) (v : Vec) :
    rotate_3x3 t (Q *ᵥ ![0, 0, 1]) *ᵥ (Q *ᵥ v) = (Q * Rz t) *ᵥ v := by
  rw [mulVec_mulVec, rotate_conj h, rotate_z]

theorem rotate_frame_y {Q : Mat} (h : IsRotation Q) (t : ℝ) (v : Vec) :
    rotate_3x3 t (Q *ᵥ ![0, 1, 0]) *ᵥ (Q *ᵥ v) = (Q * Ry t) *ᵥ v := by
  rw [mulVec_mulVec, rotate_conj h, rotate_y]

theorem rotate_frame_x {Q : Mat} (h : IsRotation Q) (t : ℝ) (v : Vec) :
    rotate_3x3 t (Q *ᵥ ![1, 0, 0]) *ᵥ (Q *ᵥ v) = (Q * Rx t) *ᵥ v := by
  rw [mulVec_mulVec, rotate_conj h, rotate_x]

theorem Rz_e2 (t : ℝ) : Rz t *ᵥ ![0, 0, 1] = ![0, 0, 1] := by
  ext i; fin_cases i <;> simp [Rz, Matrix.mulVec, dotProduct, Fin.sum_univ_three]
theorem Ry_e1 (t : ℝ) : Ry t *ᵥ ![0, 1, 0] = ![0, 1, 0] := by
  ext i; fin_cases i <;> simp [Ry, Matrix.mulVec, dotProduct, Fin.sum_univ_three]
theorem Rx_e0 (t : ℝ) : Rx t *ᵥ ![1, 0, 0] = ![1, 0, 0] := by
  ext i; fin_cases i <;> simp [Rx, Matrix.mulVec, dotProduct, Fin.sum_univ_three]

theorem mulVec_dot (A B : Mat) (u v : Vec) : (A *ᵥ u) ⬝ᵥ (B *ᵥ v) = ((Bᵀ * A) *ᵥ u) ⬝ᵥ v := by
  rw [Matrix.dotProduct_mulVec, ← Matrix.mulVec_transpose, mulVec_mulVec]

/-- A rotation that fixes the x axis is a rotation about it. -/
theorem isRotation_fix_x {S : Mat} (h : IsRotation S) (h0 : S *ᵥ ![1, 0, 0] = ![1, 0, 0]) :
    S = Rx (atan2 (S 2 1) (S 1 1)) := by
  have a00 := congrFun h0 0
  have a10 := congrFun h0 1
  have a20 := congrFun h0 2
  simp [Matrix.mulVec, dotProduct, Fin.sum_univ_three] at a00 a10 a20
  have r0 := congrFun (congrFun h.1 0) 0
  have c1 := congrFun (congrFun h.left 1) 1
  have c2 := congrFun (congrFun h.left 2) 2
  simp [Matrix.mul_apply, Fin.sum_univ_three, a00] at r0 c1 c2
  have a01 : S 0 1 = 0 := by nlinarith [mul_self_nonneg (S 0 1), mul_self_nonneg (S 0 2)]
  have a02 : S 0 2 = 0 := by nlinarith [mul_self_nonneg (S 0 1), mul_self_nonneg (S 0 2)]
  rw [a01] at c1
  rw [a02] at c2
  have d := h.2
  rw [det_fin_three, a00, a01, a02, a10, a20] at d
  have k : Real.sqrt (S 1 1 ^ 2 + S 2 1 ^ 2) = 1 := by
    rw [show S 1 1 ^ 2 + S 2 1 ^ 2 = 1 by linarith]; exact Real.sqrt_one
  have hc := atan2_cos (S 2 1) (S 1 1)
  have hs := atan2_sin (S 2 1) (S 1 1)
  rw [k, one_mul] at hc hs
  have e12 : S 1 2 = -S 2 1 := by
    nlinarith [sq_nonneg (S 1 2 + S 2 1), sq_nonneg (S 2 2 - S 1 1)]
  have e22 : S 2 2 = S 1 1 := by
    nlinarith [sq_nonneg (S 1 2 + S 2 1), sq_nonneg (S 2 2 - S 1 1)]
  ext i j
  fin_cases i <;> fin_cases j <;> simp [Rx, hc, hs, a00, a01, a02, a10, a20, e12, e22]

/-- Reading Euler angles off two rotated axes, the way `llarpy2ecef` and `ecef2llarpy` do. `F` holds
the reference frame in its columns and `B` the body axes. -/
theorem euler_read {F B : Mat} (hF : IsRotation F) (hB : IsRotation B) {psi theta phi : ℝ} {Y2 Z2 : Vec}
    (hpsi : psi = atan2 ((B *ᵥ ![1, 0, 0]) ⬝ᵥ (F *ᵥ ![0, 1, 0])) ((B *ᵥ ![1, 0, 0]) ⬝ᵥ (F *ᵥ ![1, 0, 0])))
    (htheta : theta = atan2 (-((B *ᵥ ![1, 0, 0]) ⬝ᵥ (F *ᵥ ![0, 0, 1])))
      (Real.sqrt (((B *ᵥ ![1, 0, 0]) ⬝ᵥ (F *ᵥ ![1, 0, 0])) ^ 2
        + ((B *ᵥ ![1, 0, 0]) ⬝ᵥ (F *ᵥ ![0, 1, 0])) ^ 2)))
    (hY2 : Y2 = rotate_3x3 psi (F *ᵥ ![0, 0, 1]) *ᵥ (F *ᵥ ![0, 1, 0]))
    (hZ2 : Z2 = rotate_3x3 theta Y2 *ᵥ (F *ᵥ ![0, 0, 1]))
    (hphi : phi = atan2 ((B *ᵥ ![0, 1, 0]) ⬝ᵥ Z2) ((B *ᵥ ![0, 1, 0]) ⬝ᵥ Y2)) :
    F * attitude ![psi, theta, phi] = B := by
  have hR : IsRotation (Fᵀ * B) := hF.transpose.mul hB
  generalize hRd : Fᵀ * B = R at hR
  have d : ∀ u v : Vec, (B *ᵥ u) ⬝ᵥ (F *ᵥ v) = (R *ᵥ u) ⬝ᵥ v := by
    intro u v; rw [mulVec_dot, hRd]
  have p0 : (B *ᵥ ![1, 0, 0]) ⬝ᵥ (F *ᵥ ![1, 0, 0]) = R 0 0 := by
    rw [d]; simp [Matrix.mulVec, dotProduct, Fin.sum_univ_three]
  have p1 : (B *ᵥ ![1, 0, 0]) ⬝ᵥ (F *ᵥ ![0, 1, 0]) = R 1 0 := by
    rw [d]; simp [Matrix.mulVec, dotProduct, Fin.sum_univ_three]
  have p2 : (B *ᵥ ![1, 0, 0]) ⬝ᵥ (F *ᵥ ![0, 0, 1]) = R 2 0 := by
    rw [d]; simp [Matrix.mulVec, dotProduct, Fin.sum_univ_three]
  rw [p0, p1] at hpsi
  rw [p0, p1, p2] at htheta
  have hY : Y2 = (F * (Rz psi * Ry theta)) *ᵥ ![0, 1, 0] := by
    rw [hY2, rotate_frame_z hF, ← Matrix.mul_assoc, ← mulVec_mulVec _ (F * Rz psi), Ry_e1]
  have hY' : Y2 = (F * Rz psi) *ᵥ ![0, 1, 0] := by rw [hY2, rotate_frame_z hF]
  have hZ : Z2 = (F * (Rz psi * Ry theta)) *ᵥ ![0, 0, 1] := by
    rw [hZ2, hY', show F *ᵥ ![0, 0, 1] = (F * Rz psi) *ᵥ ![0, 0, 1] by rw [← mulVec_mulVec, Rz_e2],
      rotate_frame_y (hF.mul (isRotation_Rz psi)), Matrix.mul_assoc]
  generalize hM : Rz psi * Ry theta = M at hY hZ
  have hMr : IsRotation M := hM ▸ (isRotation_Rz psi).mul (isRotation_Ry theta)
  have hS : IsRotation (Mᵀ * R) := hMr.transpose.mul hR
  have dM : ∀ u v : Vec, (B *ᵥ u) ⬝ᵥ ((F * M) *ᵥ v) = ((Mᵀ * R) *ᵥ u) ⬝ᵥ v := by
    intro u v; rw [mulVec_dot, transpose_mul, Matrix.mul_assoc, hRd]
  have q1 : (B *ᵥ ![0, 1, 0]) ⬝ᵥ Y2 = (Mᵀ * R) 1 1 := by
    rw [hY, dM]; simp [Matrix.mulVec, dotProduct, Fin.sum_univ_three]
  have q2 : (B *ᵥ ![0, 1, 0]) ⬝ᵥ Z2 = (Mᵀ * R) 2 1 := by
    rw [hZ, dM]; simp [Matrix.mulVec, dotProduct, Fin.sum_univ_three]
  rw [q1, q2] at hphi
  -- the first columns agree
  have hcol : R *ᵥ ![1, 0, 0] = M *ᵥ ![1, 0, 0] := by
    have n0 := congrFun (congrFun hR.left 0) 0
    simp [Matrix.mul_apply, Fin.sum_univ_three] at n0
    have s0 : 0 ≤ R 0 0 ^ 2 + R 1 0 ^ 2 := by positivity
    have cpsi := atan2_cos (R 1 0) (R 0 0)
    have spsi := atan2_sin (R 1 0) (R 0 0)
    have cth := atan2_cos (-R 2 0) (Real.sqrt (R 0 0 ^ 2 + R 1 0 ^ 2))
    have sth := atan2_sin (-R 2 0) (Real.sqrt (R 0 0 ^ 2 + R 1 0 ^ 2))
    rw [Real.sq_sqrt s0, show R 0 0 ^ 2 + R 1 0 ^ 2 + (-R 2 0) ^ 2 = 1 by linarith, Real.sqrt_one, one_mul,
      ← htheta] at cth sth
    rw [← hpsi, ← cth] at cpsi spsi
    rw [← hM]
    ext i
    fin_cases i <;> simp [Rz, Ry, Matrix.mulVec, dotProduct, Fin.sum_univ_three, Matrix.mul_apply]
    · linarith
    · linarith
    · linarith
  have hfix : (Mᵀ * R) *ᵥ ![1, 0, 0] = ![1, 0, 0] := by
    rw [← mulVec_mulVec, hcol, mulVec_mulVec, hMr.left, Matrix.one_mulVec]
  have hx := isRotation_fix_x hS hfix
  rw [← hphi] at hx
  have : attitude ![psi, theta, phi] = M * (Mᵀ * R) := by
    rw [hx, ← hM]; rfl
  rw [this, ← Matrix.mul_assoc M, hMr.1, Matrix.one_mul, ← hRd, ← Matrix.mul_assoc, hF.1, Matrix.one_mul]

/-! ## The local frame -/

theorem ecefvec_eq (lat lon : ℝ) : ecefvec2nedvec lat lon = (nedFrame lat lon)ᵀ := by
  ext i j
  fin_cases i <;> fin_cases j <;> simp [ecefvec2nedvec, nedFrame, north, east, up]

theorem isRotation_ned (lat lon : ℝ) : IsRotation (nedFrame lat lon) := by
  have h1 := sq1 lat
  have h2 := sq1 lon
  constructor
  · ext i j
    fin_cases i <;> fin_cases j <;>
      simp [nedFrame, north, east, up, Matrix.mul_apply, Fin.sum_univ_three]
    · linear_combination (Real.cos lon * Real.cos lon) * h1 + h2
    · linear_combination (Real.cos lon * Real.sin lon) * h1
    · ring
    · linear_combination (Real.cos lon * Real.sin lon) * h1
    · linear_combination (Real.sin lon * Real.sin lon) * h1 + h2
    · ring
    · ring
    · ring
    · linear_combination h1
  · simp [nedFrame, north, east, up, det_fin_three]
    linear_combination (Real.cos lon * Real.cos lon + Real.sin lon * Real.sin lon) * h1 + h2

theorem row_eq (F : Mat) : (Fᵀ 0 = F *ᵥ ![1, 0, 0]) ∧ (Fᵀ 1 = F *ᵥ ![0, 1, 0]) ∧ (Fᵀ 2 = F *ᵥ ![0, 0, 1]) := by
  refine ⟨?_, ?_, ?_⟩ <;>
    (ext i; simp [Matrix.mulVec, dotProduct, Fin.sum_univ_three, Matrix.transpose_apply])

theorem llarpy_frame (lat lon alt roll pitch yaw : ℝ) :
    attitude (llarpy2ecef lat lon alt roll pitch yaw).2 = nedFrame lat lon * attitude ![yaw, pitch, roll] := by
  have hN := isRotation_ned lat lon
  obtain ⟨r0, r1, r2⟩ := row_eq (nedFrame lat lon)
  have hz := isRotation_Rz yaw
  have hy := isRotation_Ry pitch
  have hx := isRotation_Rx roll
  have h1 := hN.mul hz
  have h2 := h1.mul hy
  have one : IsRotation (1 : Mat) := ⟨by simp, by simp⟩
  have h3 := h2.mul hx
  have := euler_read (F := 1) one h3 rfl rfl rfl rfl rfl
  simp only [Matrix.one_mul, Matrix.one_mulVec] at this
  rw [show nedFrame lat lon * attitude ![yaw, pitch, roll] = nedFrame lat lon * Rz yaw * Ry pitch * Rx roll by
    simp [attitude, Matrix.mul_assoc], ← this]
  congr 1
  simp only [llarpy2ecef, ecefvec_eq, r0, r1, r2, rotate_frame_z hN, rotate_frame_y h1, rotate_frame_x h2]

theorem ecef2llarpy_frame {X Y Z psi theta phi : ℝ} {lla rpy : Vec}
    (h : ecef2llarpy X Y Z psi theta phi = some (.ok (lla, rpy))) :
    ∃ g, ecef2lla ![X, Y, Z] defaultTolerance = some (.ok g)
      ∧ lla = ![deg2rad (g 0), deg2rad (g 1), g 2]
      ∧ nedFrame (lla 0) (lla 1) * attitude ![rpy 2, rpy 1, rpy 0] = attitude ![psi, theta, phi] := by
  unfold ecef2llarpy at h
  split at h
  · simp at h
  · simp at h
  · rename_i g hg
    refine ⟨g, hg, ?_⟩
    have hN := isRotation_ned (deg2rad (g 0)) (deg2rad (g 1))
    obtain ⟨r0, r1, r2⟩ := row_eq (nedFrame (deg2rad (g 0)) (deg2rad (g 1)))
    have one : IsRotation (1 : Mat) := ⟨by simp, by simp⟩
    have h1 := one.mul (isRotation_Rz psi)
    have h2 := h1.mul (isRotation_Ry theta)
    have h3 := h2.mul (isRotation_Rx phi)
    have key := euler_read hN h3 rfl rfl rfl rfl rfl
    have fz := fun t v => rotate_frame_z one t v
    have fy := fun t v => rotate_frame_y h1 t v
    have fx := fun t v => rotate_frame_x h2 t v
    rw [Matrix.one_mul] at fy fx h1 h2 h3 key
    simp only [Matrix.one_mulVec, Matrix.one_mul] at fz
    injection h with h
    injection h with h
    injection h with ha hb
    subst ha
    subst hb
    refine ⟨rfl, ?_⟩
    rw [show attitude ![psi, theta, phi] = Rz psi * Ry theta * Rx phi from rfl]
    refine Eq.trans ?_ key
    simp only [ecefvec_eq, r0, r1, r2, fz, fy, fx]
    rfl

/-! ## Euler angles are determined -/

/-- Principal Euler angles away from gimbal lock are determined by the attitude. -/
theorem attitude_inj {o o' : Vec}
    (h0 : -Real.pi < o 0 ∧ o 0 ≤ Real.pi) (h1 : -(Real.pi / 2) < o 1 ∧ o 1 < Real.pi / 2)
    (h2 : -Real.pi < o 2 ∧ o 2 ≤ Real.pi)
    (h0' : -Real.pi < o' 0 ∧ o' 0 ≤ Real.pi) (h1' : -(Real.pi / 2) ≤ o' 1 ∧ o' 1 ≤ Real.pi / 2)
    (h2' : -Real.pi < o' 2 ∧ o' 2 ≤ Real.pi) (h : attitude o = attitude o') : o = o' := by
  rw [attitude_eq, attitude_eq] at h
  have e00 := congrFun (congrFun h 0) 0
  have e10 := congrFun (congrFun h 1) 0
  have e20 := congrFun (congrFun h 2) 0
  have e21 := congrFun (congrFun h 2) 1
  have e22 := congrFun (congrFun h 2) 2
  simp [rot, get_rotation_matrix] at e00 e10 e20 e21 e22
  have t : o 1 = o' 1 := Real.injOn_sin ⟨h1.1.le, h1.2.le⟩ ⟨h1'.1, h1'.2⟩ e20
  have c : 0 < Real.cos (o 1) := Real.cos_pos_of_mem_Ioo ⟨h1.1, h1.2⟩
  have c' : 0 < Real.cos (o' 1) := t ▸ c
  have p : o 0 = o' 0 := by
    rw [← atan2_polar c h0.1 h0.2, ← atan2_polar c' h0'.1 h0'.2]
    congr 1 <;> linarith
  have r : o 2 = o' 2 := by
    rw [← atan2_polar c h2.1 h2.2, ← atan2_polar c' h2'.1 h2'.2, e21, e22]
  funext i
  fin_cases i
  · exact p
  · exact t
  · exact r

theorem llarpy_range (lat lon alt roll pitch yaw : ℝ) (o : Vec)
    (h : o = (llarpy2ecef lat lon alt roll pitch yaw).2) :
    (-Real.pi < o 0 ∧ o 0 ≤ Real.pi) ∧ (-(Real.pi / 2) ≤ o 1 ∧ o 1 ≤ Real.pi / 2)
      ∧ (-Real.pi < o 2 ∧ o 2 ≤ Real.pi) := by
  subst h
  exact ⟨atan2_range _ _, atan2_half _ _ (Real.sqrt_nonneg _), atan2_range _ _⟩

theorem ecef2llarpy_range {X Y Z psi theta phi : ℝ} {lla rpy : Vec}
    (h : ecef2llarpy X Y Z psi theta phi = some (.ok (lla, rpy))) :
    (-Real.pi < rpy 0 ∧ rpy 0 ≤ Real.pi) ∧ (-(Real.pi / 2) ≤ rpy 1 ∧ rpy 1 ≤ Real.pi / 2)
      ∧ (-Real.pi < rpy 2 ∧ rpy 2 ≤ Real.pi) := by
  unfold ecef2llarpy at h
  split at h
  · simp at h
  · simp at h
  · injection h with h
    injection h with h
    injection h with ha hb
    subst hb
    exact ⟨atan2_range _ _, atan2_half _ _ (Real.sqrt_nonneg _), atan2_range _ _⟩

/-! ## Axis-angle rotations -/

theorem isRotation_rotate (t : ℝ) (n : Vec) (hn : len n = 1) : IsRotation (rotate_3x3 t n) := by
  have u : n 0 * n 0 + n 1 * n 1 + n 2 * n 2 = 1 := by
    have := congrArg (· ^ 2) hn
    simp only [len, one_pow] at this
    rw [Real.sq_sqrt (by positivity)] at this
    linarith
  have q := sq1 t
  rw [rotate_entries]
  generalize Real.cos t = c at *
  generalize Real.sin t = s at *
  generalize n 0 = x at *
  generalize n 1 = y at *
  generalize n 2 = z at *
  constructor
  · ext i j
    fin_cases i <;> fin_cases j <;> simp [Matrix.mul_apply, Fin.sum_univ_three]
    · linear_combination ((1 - c) ^ 2 * x * x + s * s) * u + (1 - x * x) * q
    · linear_combination ((1 - c) ^ 2 * x * y) * u - (x * y) * q
    · linear_combination ((1 - c) ^ 2 * x * z) * u - (x * z) * q
    · linear_combination ((1 - c) ^ 2 * x * y) * u - (x * y) * q
    · linear_combination ((1 - c) ^ 2 * y * y + s * s) * u + (1 - y * y) * q
    · linear_combination ((1 - c) ^ 2 * y * z) * u - (y * z) * q
    · linear_combination ((1 - c) ^ 2 * x * z) * u - (x * z) * q
    · linear_combination ((1 - c) ^ 2 * y * z) * u - (y * z) * q
    · linear_combination ((1 - c) ^ 2 * z * z + s * s) * u + (1 - z * z) * q
  · rw [det_fin_three]
    simp
    linear_combination
      (c ^ 2 * (1 - c) + c * s ^ 2 + (1 - c) * s ^ 2 * (x * x + y * y + z * z + 1)) * u + q

theorem rotate_add (s t : ℝ) (n : Vec) (hn : len n = 1) :
    rotate_3x3 s n * rotate_3x3 t n = rotate_3x3 (s + t) n := by
  have u : n 0 * n 0 + n 1 * n 1 + n 2 * n 2 = 1 := by
    have := congrArg (· ^ 2) hn
    simp only [len, one_pow] at this
    rw [Real.sq_sqrt (by positivity)] at this
    linarith
  have d : n ⬝ᵥ n = 1 := by simp [dotProduct, Fin.sum_univ_three]; linarith
  refine Matrix.ext_iff_mulVec.2 fun v => ?_
  rw [← mulVec_mulVec, rotate_mulVec t, rotate_mulVec s, rotate_mulVec (s + t), Real.cos_add, Real.sin_add]
  have c1 : n ⬝ᵥ (n ⨯₃ v) = 0 := by
    simp [dotProduct, Fin.sum_univ_three, crossProduct]; ring
  have c2 : n ⨯₃ (n ⨯₃ v) = (n ⬝ᵥ v) • n - v := by
    ext i
    fin_cases i <;> simp [dotProduct, Fin.sum_univ_three, crossProduct]
    · linear_combination -(v 0) * u
    · linear_combination -(v 1) * u
    · linear_combination -(v 2) * u
  simp only [dotProduct_add, dotProduct_smul, map_add, map_smul, c1, c2, d, cross_self, smul_zero, smul_eq_mul]
  module

end Dis.Geo
