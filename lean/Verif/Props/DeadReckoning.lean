import Verif.Proof.Geo

/-!
# Dead reckoning (C32-C36)

The vocabulary is in `Verif/Spec/Geo.lean`: elementary rotations, `IsRotation`, `len`, `attitude`.
`⨯₃` is Mathlib's cross product and `*ᵥ` its matrix-vector product.
-/

namespace Dis

open Matrix Geo

/-! ## C32 -/

/-- `get_rotation_matrix` is the yaw-pitch-roll product of elementary rotations. -/
theorem C32_elementary (psi theta phi : ℝ) :
    get_rotation_matrix psi theta phi = Rz psi * Ry theta * Rx phi := rotation_eq psi theta phi

/-- It is orthogonal with determinant 1. -/
theorem C32_rotation (psi theta phi : ℝ) :
    get_rotation_matrix psi theta phi * (get_rotation_matrix psi theta phi)ᵀ = 1
      ∧ (get_rotation_matrix psi theta phi).det = 1 := isRotation_get psi theta phi

/-- It keeps lengths, and so angles and distances. -/
theorem C32_isometry (psi theta phi : ℝ) (v : Vec) :
    len (get_rotation_matrix psi theta phi *ᵥ v) = len v := (isRotation_get _ _ _).len v

/-- `get_angular_velocity_matrix` is skew-symmetric. -/
theorem C32_skew (omega : Vec) :
    (get_angular_velocity_matrix omega)ᵀ = -get_angular_velocity_matrix omega := by
  ext i j
  fin_cases i <;> fin_cases j <;> simp [get_angular_velocity_matrix]

/-- Multiplying by it is taking the cross product with `omega`. -/
theorem C32_cross (omega v : Vec) : get_angular_velocity_matrix omega *ᵥ v = omega ⨯₃ v := by
  ext i
  fin_cases i <;>
    simp [get_angular_velocity_matrix, Matrix.mulVec, dotProduct, Fin.sum_univ_three, crossProduct] <;> ring

/-- A quarter turn of yaw takes the forward axis to the left axis. -/
example : get_rotation_matrix (Real.pi / 2) 0 0 *ᵥ ![1, 0, 0] = ![0, 1, 0] := by
  ext i
  fin_cases i <;> simp [get_rotation_matrix, Matrix.mulVec, dotProduct, Fin.sum_univ_three]

/-- A quarter turn of roll, where the middle factor of the product does not matter. -/
example : get_rotation_matrix 0 0 (Real.pi / 2) = !![1, 0, 0; 0, 0, -1; 0, 1, 0] := by
  ext i j
  fin_cases i <;> fin_cases j <;> simp [get_rotation_matrix]

example : get_angular_velocity_matrix ![1, 2, 3] *ᵥ ![4, 5, 6] = ![-3, 6, -3] := by
  ext i
  fin_cases i <;>
    simp [get_angular_velocity_matrix, Matrix.mulVec, dotProduct, Fin.sum_univ_three] <;> norm_num

/-! ## C33 -/

/-- At `dt = 0` each model returns the position and orientation it was given; `drm_static` does so
always, having no `dt`. -/
theorem C33_zero (position velocity acceleration orientation angular_velocity : Vec) :
    drm_static position orientation = (position, orientation)
    ∧ drm_fpw position velocity 0 orientation = (position, orientation)
    ∧ drm_rpw position velocity 0 orientation angular_velocity = (position, orientation)
    ∧ drm_rvw position velocity acceleration 0 orientation angular_velocity = (position, orientation)
    ∧ drm_fvw position velocity acceleration 0 orientation = (position, orientation)
    ∧ drm_fpb position velocity 0 orientation = (position, orientation)
    ∧ drm_rpb position velocity 0 orientation angular_velocity = (position, orientation)
    ∧ drm_rvb position velocity acceleration 0 orientation angular_velocity = (position, orientation)
    ∧ drm_fvb position velocity acceleration 0 orientation = (position, orientation) := by
  have e : ![orientation 0, orientation 1, orientation 2] = orientation := by
    funext i; fin_cases i <;> rfl
  refine ⟨rfl, ?_, ?_, ?_, ?_, ?_, ?_, ?_, ?_⟩ <;>
    simp [drm_fpw, drm_rpw, drm_rvw, drm_fvw, drm_fpb, drm_rpb, drm_rvb, drm_fvb, e]

/-- A turning, accelerating entity: nothing else is zero. -/
example : drm_rvb ![1, 2, 3] ![10, 0, 0] ![0, 1, 0] 0 ![1, 0.5, 0.2] ![0.1, 0.2, 0.3]
    = (![1, 2, 3], ![1, 0.5, 0.2]) := (C33_zero _ _ _ _ _).2.2.2.2.2.2.2.1

/-! ## C34 -/

/-- World-frame constant velocity: extrapolating by `s` and from there by `t` is extrapolating by
`s + t`. -/
theorem C34_fpw (p v o : Vec) (s t : ℝ) :
    drm_fpw (drm_fpw p v s o).1 v t (drm_fpw p v s o).2 = drm_fpw p v (s + t) o := by
  simp only [drm_fpw, Prod.mk.injEq, and_true]
  module

/-- World-frame constant acceleration, with the velocity reached after `s`. -/
theorem C34_fvw (p v a o : Vec) (s t : ℝ) :
    drm_fvw (drm_fvw p v a s o).1 (v + s • a) a t (drm_fvw p v a s o).2 = drm_fvw p v a (s + t) o := by
  simp only [drm_fvw, Prod.mk.injEq, and_true]
  module

/-- Body-frame constant velocity. -/
theorem C34_fpb (p v o : Vec) (s t : ℝ) :
    drm_fpb (drm_fpb p v s o).1 v t (drm_fpb p v s o).2 = drm_fpb p v (s + t) o := by
  simp only [drm_fpb, Prod.mk.injEq, and_true]
  module

/-- Body-frame constant acceleration, with the body-frame velocity reached after `s`. -/
theorem C34_fvb (p v a o : Vec) (s t : ℝ) :
    drm_fvb (drm_fvb p v a s o).1 (v + s • a) a t (drm_fvb p v a s o).2 = drm_fvb p v a (s + t) o := by
  simp only [drm_fvb, Prod.mk.injEq, and_true, mulVec_add, mulVec_smul]
  module

/-- The positions of the rotating world-frame models compose as well, whatever the orientation and
angular velocity at the intermediate time. -/
theorem C34_rotating_position (p v a o w o' w' : Vec) (s t : ℝ) :
    (drm_rpw (drm_rpw p v s o w).1 v t o' w').1 = (drm_rpw p v (s + t) o w).1
    ∧ (drm_rvw (drm_rvw p v a s o w).1 (v + s • a) a t o' w').1 = (drm_rvw p v a (s + t) o w).1 := by
  simp only [drm_rpw, drm_rvw]
  constructor <;> module

/-- One second and then two seconds of a braking car, against three seconds. -/
example : (drm_fvw ![0, 0, 0] ![10, 0, 0] ![-2, 0, 0] 1 0).1 = ![9, 0, 0]
    ∧ (drm_fvw ![9, 0, 0] ![8, 0, 0] ![-2, 0, 0] 2 0).1 = ![21, 0, 0]
    ∧ (drm_fvw ![0, 0, 0] ![10, 0, 0] ![-2, 0, 0] 3 0).1 = ![21, 0, 0] := by
  simp only [drm_fvw]
  refine ⟨?_, ?_, ?_⟩ <;> (ext i; fin_cases i <;> norm_num)

/-- World-frame models: the extrapolated position moves, at every time, with the given velocity, to
which the accelerating models add the acceleration times the time elapsed.  With `C33_zero` this
determines the positions. -/
theorem C34_velocity (p v a o w : Vec) (t : ℝ) :
    HasDerivAt (fun dt => (drm_fpw p v dt o).1) v t
    ∧ HasDerivAt (fun dt => (drm_rpw p v dt o w).1) v t
    ∧ HasDerivAt (fun dt => (drm_fvw p v a dt o).1) (v + t • a) t
    ∧ HasDerivAt (fun dt => (drm_rvw p v a dt o w).1) (v + t • a) t := by
  have h1 : HasDerivAt (fun dt : ℝ => p + dt • v) v t := by
    simpa using ((hasDerivAt_id t).smul_const v).const_add p
  have h2 : HasDerivAt (fun dt : ℝ => p + dt • v + dt ^ 2 • ((0.5 : ℝ) • a)) (v + t • a) t := by
    have h := h1.add (((hasDerivAt_id t).pow 2).smul_const ((0.5 : ℝ) • a))
    have e : (((2 : ℕ) : ℝ) * t ^ (2 - 1) * 1) • ((0.5 : ℝ) • a) = t • a := by
      rw [smul_smul]; congr 1; norm_num; ring
    simp only [id] at h
    rw [e] at h
    exact h
  refine ⟨?_, ?_, ?_, ?_⟩
  · simpa only [drm_fpw] using h1
  · simpa only [drm_rpw] using h1
  · simpa only [drm_fvw] using h2
  · simpa only [drm_rvw] using h2

/-! ## C35 -/

/-- Zero acceleration gives the constant-velocity models. -/
theorem C35_no_acceleration (p v o w : Vec) (dt : ℝ) :
    drm_fvw p v 0 dt o = drm_fpw p v dt o
    ∧ drm_rvw p v 0 dt o w = drm_rpw p v dt o w
    ∧ drm_fvb p v 0 dt o = drm_fpb p v dt o
    ∧ drm_rvb p v 0 dt o w = drm_rpb p v dt o w := by
  refine ⟨?_, ?_, ?_, ?_⟩ <;>
    simp [drm_fvw, drm_fpw, drm_rvw, drm_rpw, drm_fvb, drm_fpb, drm_rvb, drm_rpb, mulVec_smul]

/-- Zero angular velocity gives the fixed-orientation models. -/
theorem C35_no_rotation (p v a o : Vec) (dt : ℝ) :
    drm_rpw p v dt o 0 = drm_fpw p v dt o
    ∧ drm_rvw p v a dt o 0 = drm_fvw p v a dt o
    ∧ drm_rpb p v dt o 0 = drm_fpb p v dt o
    ∧ drm_rvb p v a dt o 0 = drm_fvb p v a dt o := by
  have e : ![o 0, o 1, o 2] = o := by funext i; fin_cases i <;> rfl
  refine ⟨?_, ?_, ?_, ?_⟩ <;>
    simp [drm_fvw, drm_fpw, drm_rvw, drm_rpw, drm_fvb, drm_fpb, drm_rvb, drm_rpb, e]

/-- Zero Euler angles make the body frame the world frame. -/
theorem C35_level (p v a w : Vec) (dt : ℝ) :
    drm_fpb p v dt 0 = drm_fpw p v dt 0
    ∧ drm_rpb p v dt 0 w = drm_rpw p v dt 0 w
    ∧ drm_fvb p v a dt 0 = drm_fvw p v a dt 0
    ∧ drm_rvb p v a dt 0 w = drm_rvw p v a dt 0 w := by
  have e : get_rotation_matrix 0 0 0 = 1 := by
    ext i j
    fin_cases i <;> fin_cases j <;> simp [get_rotation_matrix]
  refine ⟨?_, ?_, ?_, ?_⟩ <;>
    simp [drm_fvw, drm_fpw, drm_rvw, drm_rpw, drm_fvb, drm_fpb, drm_rvb, drm_rpb, e, add_assoc]

/-- The distance covered in a body-frame model is the length of the body-frame displacement. -/
theorem C35_distance (p v a o w : Vec) (dt : ℝ) :
    len ((drm_fpb p v dt o).1 - p) = |dt| * len v
    ∧ len ((drm_rpb p v dt o w).1 - p) = |dt| * len v
    ∧ len ((drm_fvb p v a dt o).1 - p) = len (dt • v + (dt ^ 2 / 2) • a)
    ∧ len ((drm_rvb p v a dt o w).1 - p) = len (dt • v + (dt ^ 2 / 2) • a) := by
  have hl : ∀ u : Vec, len (dt • u) = |dt| * len u := by
    intro u
    unfold len
    rw [← Real.sqrt_sq_eq_abs, ← Real.sqrt_mul (sq_nonneg _)]
    congr 1
    simp only [Pi.smul_apply, smul_eq_mul]; ring
  have hd : dt • v + dt ^ 2 • ((0.5 : ℝ) • a) = dt • v + (dt ^ 2 / 2) • a := by
    rw [smul_smul]; congr 2; norm_num; ring
  refine ⟨?_, ?_, ?_, ?_⟩
  · simp only [drm_fpb, add_sub_cancel_left]
    rw [hl, (isRotation_get _ _ _).len]
  · simp only [drm_rpb, add_sub_cancel_left]
    rw [hl, (isRotation_get _ _ _).len]
  · simp only [drm_fvb, add_sub_cancel_left]
    rw [(isRotation_get _ _ _).len, hd]
  · simp only [drm_rvb, add_sub_cancel_left]
    rw [(isRotation_get _ _ _).len, hd]

/-- Body-frame models: the extrapolated position moves, at every time, with the given velocity, to
which the accelerating models add the acceleration times the time elapsed, both turned from the body
to the world by the attitude at the start.  With `C33_zero` this determines the positions. -/
theorem C35_velocity (p v a o w : Vec) (t : ℝ) :
    HasDerivAt (fun dt => (drm_fpb p v dt o).1) (attitude o *ᵥ v) t
    ∧ HasDerivAt (fun dt => (drm_rpb p v dt o w).1) (attitude o *ᵥ v) t
    ∧ HasDerivAt (fun dt => (drm_fvb p v a dt o).1) (attitude o *ᵥ (v + t • a)) t
    ∧ HasDerivAt (fun dt => (drm_rvb p v a dt o w).1) (attitude o *ᵥ (v + t • a)) t := by
  have h1 : HasDerivAt (fun dt : ℝ => p + dt • (attitude o *ᵥ v)) (attitude o *ᵥ v) t :=
    (C34_velocity p (attitude o *ᵥ v) 0 0 0 t).1
  have h2 := (C34_velocity p (attitude o *ᵥ v) (attitude o *ᵥ a) 0 0 t).2.2.1
  simp only [drm_fvw] at h2
  rw [show attitude o *ᵥ v + t • (attitude o *ᵥ a) = attitude o *ᵥ (v + t • a) by
    rw [Matrix.mulVec_add, Matrix.mulVec_smul]] at h2
  have e : ∀ dt : ℝ, p + attitude o *ᵥ (dt • v + dt ^ 2 • ((0.5 : ℝ) • a))
      = p + dt • (attitude o *ᵥ v) + dt ^ 2 • ((0.5 : ℝ) • (attitude o *ᵥ a)) := by
    intro dt
    rw [Matrix.mulVec_add, Matrix.mulVec_smul, Matrix.mulVec_smul, Matrix.mulVec_smul, add_assoc]
  have r : get_rotation_matrix (o 0) (o 1) (o 2) = attitude o := rotation_eq _ _ _
  refine ⟨?_, ?_, ?_, ?_⟩
  · simpa only [drm_fpb, r] using h1
  · simpa only [drm_rpb, r] using h1
  · simpa only [drm_fvb, r, e] using h2
  · simpa only [drm_rvb, r, e] using h2

/-- An entity yawed by a quarter turn moves along the world's y axis. -/
example : (drm_fvb ![0, 0, 0] ![3, 0, 0] ![2, 0, 0] 2 ![Real.pi / 2, 0, 0]).1 = ![0, 10, 0] := by
  simp only [drm_fvb]
  ext i
  fin_cases i <;>
    norm_num [get_rotation_matrix, Matrix.mulVec, dotProduct, Fin.sum_univ_three]

/-! ## C36 -/

/-- Away from gimbal lock the orientations `drm_rpw` extrapolates to turn, at the start, with the given
body angular velocity `w`: a point `u` fixed to the body moves, in the world frame, with the
velocity `w × u` taken in the body frame. -/
theorem C36_angular_velocity (p v o w u : Vec) (h : 1e-6 ≤ |Real.cos (o 1)|) :
    HasDerivAt (fun dt => attitude (drm_rpw p v dt o w).2 *ᵥ u) (attitude o *ᵥ (w ⨯₃ u)) 0 :=
  rpw_derivative p v o w u h

/-- No other Euler rates do: whenever orientations `o + t d` turn at the start with body angular velocity
`w`, they are the ones `drm_rpw` returns, at all times. -/
theorem C36_unique (p v o w d : Vec) (h : 1e-6 ≤ |Real.cos (o 1)|)
    (hd : ∀ u, HasDerivAt (fun t : ℝ => attitude (o + t • d) *ᵥ u) (attitude o *ᵥ (w ⨯₃ u)) 0) (dt : ℝ) :
    (drm_rpw p v dt o w).2 = o + dt • d := rpw_unique p v o w d h hd dt

/-- In the gimbal-lock branch the yaw is kept and the roll changes at rate `p`. -/
theorem C36_gimbal_lock (p v o w : Vec) (dt : ℝ) (h : |Real.cos (o 1)| < 1e-6) :
    (drm_rpw p v dt o w).2 0 = o 0 ∧ (drm_rpw p v dt o w).2 2 = o 2 + w 0 * dt := by
  simp [drm_rpw, h]

/-- The pitch changes at the same rate `q cos phi - r sin phi` in both branches. -/
theorem C36_pitch (p v o w : Vec) (dt : ℝ) :
    (drm_rpw p v dt o w).2 1 = o 1 + (w 1 * Real.cos (o 2) - w 2 * Real.sin (o 2)) * dt := by
  simp only [drm_rpw]
  split <;> simp

/-- The price of that branch: an entity pitched up to within it, without roll, that turns about its
own z axis at any rate `r` never changes its orientation. -/
theorem C36_gimbal_lock_frozen (p v o : Vec) (r dt : ℝ) (h : |Real.cos (o 1)| < 1e-6) (h2 : o 2 = 0) :
    (drm_rpw p v dt o ![0, 0, r]).2 = o := by
  funext i
  fin_cases i <;> simp [drm_rpw, h, h2]

/-- The other rotating models use the same orientations. -/
theorem C36_all_rotating (p v a o w p' v' : Vec) (dt : ℝ) :
    (drm_rvw p v a dt o w).2 = (drm_rpw p' v' dt o w).2
    ∧ (drm_rpb p v dt o w).2 = (drm_rpw p' v' dt o w).2
    ∧ (drm_rvb p v a dt o w).2 = (drm_rpw p' v' dt o w).2 := by
  refine ⟨?_, ?_, ?_⟩ <;> simp only [drm_rvw, drm_rpb, drm_rvb, drm_rpw]

/-- A banked, climbing entity is away from gimbal lock. -/
example : (1e-6 : ℝ) ≤ |Real.cos ((![1, Real.pi / 3, 0.5] : Vec) 1)| := by
  norm_num [Real.cos_pi_div_three]

/-- Without pitch and roll the body's yaw rate is the Euler yaw rate. -/
example : (drm_rpw 0 0 2 ![1, 0, 0] ![0.1, 0.2, 0.3]).2 = ![1.6, 0.4, 0.2] := by
  funext i
  fin_cases i <;> simp [drm_rpw] <;> norm_num

/-- Nose straight up is in the gimbal-lock branch. -/
example : |Real.cos ((![1, Real.pi / 2, 0] : Vec) 1)| < 1e-6 := by norm_num

end Dis
