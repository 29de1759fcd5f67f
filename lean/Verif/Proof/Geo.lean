import Verif.Geo.DeadReckoning
import Verif.Spec.Geo
import Mathlib.LinearAlgebra.CrossProduct
import Mathlib.LinearAlgebra.Matrix.NonsingularInverse
import Mathlib.Analysis.SpecialFunctions.Trigonometric.Deriv
import Mathlib.Analysis.Calculus.Deriv.Mul
import Mathlib.Analysis.Calculus.Deriv.Prod
import Mathlib.Analysis.Calculus.Deriv.Add
import Mathlib.Tactic.LinearCombination
import Mathlib.Tactic.FieldSimp
import Mathlib.Tactic.FinCases

/-! # Lemmas about rotations -/

namespace Dis.Geo

open Matrix

/-- The matrix of an orientation vector. -/
noncomputable def rot (o : Vec) : Mat := get_rotation_matrix (o 0) (o 1) (o 2)

theorem sq1 (t : ℝ) : Real.cos t * Real.cos t + Real.sin t * Real.sin t = 1 := by
  have := Real.sin_sq_add_cos_sq t
  linear_combination this

theorem IsRotation.mul {A B : Mat} (hA : IsRotation A) (hB : IsRotation B) : IsRotation (A * B) := by
  constructor
  · rw [transpose_mul, Matrix.mul_assoc, ← Matrix.mul_assoc B, hB.1, Matrix.one_mul, hA.1]
  · rw [det_mul, hA.2, hB.2, one_mul]

theorem IsRotation.left {R : Mat} (h : IsRotation R) : Rᵀ * R = 1 := mul_eq_one_comm.1 h.1

theorem IsRotation.transpose {R : Mat} (h : IsRotation R) : IsRotation Rᵀ :=
  ⟨by rw [transpose_transpose]; exact h.left, by rw [det_transpose]; exact h.2⟩

theorem isRotation_Rx (t : ℝ) : IsRotation (Rx t) := by
  have h := sq1 t
  constructor
  · ext i j
    fin_cases i <;> fin_cases j <;> simp [Rx, Matrix.mul_apply, Fin.sum_univ_three] <;> linarith
  · simp [Rx, det_fin_three]; linarith

theorem isRotation_Ry (t : ℝ) : IsRotation (Ry t) := by
  have h := sq1 t
  constructor
  · ext i j
    fin_cases i <;> fin_cases j <;> simp [Ry, Matrix.mul_apply, Fin.sum_univ_three] <;> linarith
  · simp [Ry, det_fin_three]; linarith

theorem isRotation_Rz (t : ℝ) : IsRotation (Rz t) := by
  have h := sq1 t
  constructor
  · ext i j
    fin_cases i <;> fin_cases j <;> simp [Rz, Matrix.mul_apply, Fin.sum_univ_three] <;> linarith
  · simp [Rz, det_fin_three]; linarith

theorem rotation_eq (psi theta phi : ℝ) :
    get_rotation_matrix psi theta phi = Rz psi * Ry theta * Rx phi := by
  unfold get_rotation_matrix
  ext i j
  fin_cases i <;> fin_cases j <;> simp [Rx, Ry, Rz, Matrix.mul_apply, Fin.sum_univ_three] <;> ring

theorem isRotation_get (psi theta phi : ℝ) : IsRotation (get_rotation_matrix psi theta phi) := by
  rw [rotation_eq]
  exact ((isRotation_Rz _).mul (isRotation_Ry _)).mul (isRotation_Rx _)

theorem IsRotation.len {R : Mat} (h : IsRotation R) (v : Vec) : Geo.len (R *ᵥ v) = Geo.len v := by
  unfold Geo.len
  have e : ∀ w : Vec, w 0 ^ 2 + w 1 ^ 2 + w 2 ^ 2 = w ⬝ᵥ w := by
    intro w; simp [dotProduct, Fin.sum_univ_three]; ring
  rw [e, e, Matrix.dotProduct_mulVec, Matrix.vecMul_mulVec, h.left, Matrix.vecMul_one]

/-! ## Euler rates -/

/-- Body angular velocity of the Euler rates `d` at orientation `o`. -/
noncomputable def bodyRates (o d : Vec) : Vec :=
  ![d 2 - d 0 * Real.sin (o 1),
    d 1 * Real.cos (o 2) + d 0 * Real.cos (o 1) * Real.sin (o 2),
    -d 1 * Real.sin (o 2) + d 0 * Real.cos (o 1) * Real.cos (o 2)]

theorem hasDerivAt_cos_lin (a b : ℝ) :
    HasDerivAt (fun t : ℝ => Real.cos (a + t * b)) (-Real.sin a * b) 0 := by
  have h : HasDerivAt (fun t : ℝ => a + t * b) b 0 := by
    simpa using ((hasDerivAt_id (0 : ℝ)).mul_const b).const_add a
  simpa using h.cos

theorem hasDerivAt_sin_lin (a b : ℝ) :
    HasDerivAt (fun t : ℝ => Real.sin (a + t * b)) (Real.cos a * b) 0 := by
  have h : HasDerivAt (fun t : ℝ => a + t * b) b 0 := by
    simpa using ((hasDerivAt_id (0 : ℝ)).mul_const b).const_add a
  simpa using h.sin

theorem hasDerivAt_rot (o d : Vec) (i j : Fin 3) :
    HasDerivAt (fun t : ℝ => rot (o + t • d) i j)
      ((rot o * get_angular_velocity_matrix (bodyRates o d)) i j) 0 := by
  have c0 := hasDerivAt_cos_lin (o 0) (d 0)
  have s0 := hasDerivAt_sin_lin (o 0) (d 0)
  have c1 := hasDerivAt_cos_lin (o 1) (d 1)
  have s1 := hasDerivAt_sin_lin (o 1) (d 1)
  have c2 := hasDerivAt_cos_lin (o 2) (d 2)
  have s2 := hasDerivAt_sin_lin (o 2) (d 2)
  have q0 := sq1 (o 0)
  have q1 := sq1 (o 1)
  have q2 := sq1 (o 2)
  unfold rot get_rotation_matrix get_angular_velocity_matrix bodyRates
  fin_cases i <;> fin_cases j <;>
    simp only [Pi.add_apply, Pi.smul_apply, smul_eq_mul, Matrix.mul_apply, Fin.sum_univ_three,
      Fin.zero_eta, Fin.mk_one, Fin.reduceFinMk, of_apply, cons_val', cons_val, Fin.isValue]
  · refine (c0.mul c1).congr_deriv ?_
    simp only [zero_mul, add_zero]
    linear_combination (Real.cos (o 0) * Real.sin (o 1) * d 1 + Real.sin (o 0) * Real.cos (o 1) * d 0) * q2
  · refine (((c0.mul s1).mul s2).sub (s0.mul c2)).congr_deriv ?_
    simp only [zero_mul, add_zero, Pi.mul_apply]
    linear_combination (Real.cos (o 0) * Real.cos (o 2) * d 0) * q1
  · refine (((c0.mul s1).mul c2).add (s0.mul s2)).congr_deriv ?_
    simp only [zero_mul, add_zero, Pi.mul_apply]
    linear_combination -(Real.cos (o 0) * Real.sin (o 2) * d 0) * q1
  · refine (s0.mul c1).congr_deriv ?_
    simp only [zero_mul, add_zero]
    linear_combination (Real.sin (o 0) * Real.sin (o 1) * d 1 - Real.cos (o 0) * Real.cos (o 1) * d 0) * q2
  · refine (((s0.mul s1).mul s2).add (c0.mul c2)).congr_deriv ?_
    simp only [zero_mul, add_zero, Pi.mul_apply]
    linear_combination (Real.sin (o 0) * Real.cos (o 2) * d 0) * q1
  · refine (((s0.mul s1).mul c2).sub (c0.mul s2)).congr_deriv ?_
    simp only [zero_mul, add_zero, Pi.mul_apply]
    linear_combination -(Real.sin (o 0) * Real.sin (o 2) * d 0) * q1
  · refine s1.neg.congr_deriv ?_
    linear_combination Real.cos (o 1) * d 1 * q2
  · refine (c1.mul s2).congr_deriv ?_
    simp only [zero_mul, add_zero]
    ring
  · refine (c1.mul c2).congr_deriv ?_
    simp only [zero_mul, add_zero]
    ring

theorem skew_inj {v w : Vec} (h : get_angular_velocity_matrix v = get_angular_velocity_matrix w) :
    v = w := by
  have h0 := congrFun (congrFun h 2) 1
  have h1 := congrFun (congrFun h 0) 2
  have h2 := congrFun (congrFun h 1) 0
  simp [get_angular_velocity_matrix] at h0 h1 h2
  funext i
  fin_cases i
  · exact h0
  · exact h1
  · exact h2

theorem IsRotation.cancel {R A B : Mat} (h : IsRotation R) (e : R * A = R * B) : A = B := by
  have := congrArg (Rᵀ * ·) e
  simpa only [← Matrix.mul_assoc, h.left, Matrix.one_mul] using this

/-- Two sets of Euler rates give the same angular velocity only if they are equal. -/
theorem bodyRates_inj {o d d' : Vec} (hc : Real.cos (o 1) ≠ 0) (h : bodyRates o d = bodyRates o d') :
    d = d' := by
  have h0 := congrFun h 0
  have h1 := congrFun h 1
  have h2 := congrFun h 2
  have q2 := sq1 (o 2)
  simp [bodyRates] at h0 h1 h2
  have e0 : d 0 = d' 0 := by
    have : (d 0 - d' 0) * Real.cos (o 1) = 0 := by
      linear_combination Real.sin (o 2) * h1 + Real.cos (o 2) * h2
        - ((d 0 - d' 0) * Real.cos (o 1)) * q2
    rcases mul_eq_zero.1 this with h | h
    · linarith
    · exact absurd h hc
  have e1 : d 1 = d' 1 := by
    linear_combination Real.cos (o 2) * h1 - Real.sin (o 2) * h2 - (d 1 - d' 1) * q2
  have e2 : d 2 = d' 2 := by rw [e0] at h0; linarith
  funext i
  fin_cases i
  · exact e0
  · exact e1
  · exact e2

theorem attitude_eq (o : Vec) : attitude o = rot o := (rotation_eq _ _ _).symm

theorem skew_mulVec (w v : Vec) : get_angular_velocity_matrix w *ᵥ v = w ⨯₃ v := by
  ext i
  fin_cases i <;>
    simp [get_angular_velocity_matrix, Matrix.mulVec, dotProduct, Fin.sum_univ_three, crossProduct] <;> ring

theorem hasDerivAt_attitude (o d u : Vec) :
    HasDerivAt (fun t : ℝ => attitude (o + t • d) *ᵥ u) (attitude o *ᵥ (bodyRates o d ⨯₃ u)) 0 := by
  simp only [attitude_eq, ← skew_mulVec, mulVec_mulVec]
  rw [hasDerivAt_pi]
  intro i
  simp only [mulVec, dotProduct]
  exact HasDerivAt.fun_sum fun j _ => (hasDerivAt_rot o d i j).mul_const (u j)

/-- Euler rates of a body angular velocity. -/
noncomputable def eulerRates (o w : Vec) : Vec :=
  ![(w 1 * Real.sin (o 2) + w 2 * Real.cos (o 2)) / Real.cos (o 1),
    w 1 * Real.cos (o 2) - w 2 * Real.sin (o 2),
    w 0 + (w 1 * Real.sin (o 2) + w 2 * Real.cos (o 2)) * Real.tan (o 1)]

theorem bodyRates_eulerRates {o w : Vec} (hc : Real.cos (o 1) ≠ 0) : bodyRates o (eulerRates o w) = w := by
  have q2 := sq1 (o 2)
  funext i
  fin_cases i <;> simp [bodyRates, eulerRates, Real.tan_eq_sin_div_cos] <;> field_simp
  · ring
  · linear_combination w 1 * q2
  · linear_combination w 2 * q2

theorem rpw_rates (p v o w : Vec) (h : 1e-6 ≤ |Real.cos (o 1)|) (dt : ℝ) :
    (drm_rpw p v dt o w).2 = o + dt • eulerRates o w := by
  funext i
  fin_cases i <;> simp [drm_rpw, eulerRates, not_lt.2 h] <;> ring

theorem cos_ne {x : ℝ} (h : 1e-6 ≤ |Real.cos x|) : Real.cos x ≠ 0 := by
  intro e
  rw [e, abs_zero] at h
  norm_num at h

theorem rpw_derivative (p v o w u : Vec) (h : 1e-6 ≤ |Real.cos (o 1)|) :
    HasDerivAt (fun dt => attitude (drm_rpw p v dt o w).2 *ᵥ u) (attitude o *ᵥ (w ⨯₃ u)) 0 := by
  have := hasDerivAt_attitude o (eulerRates o w) u
  rw [bodyRates_eulerRates (cos_ne h)] at this
  simpa only [rpw_rates p v o w h] using this

theorem rpw_unique (p v o w d : Vec) (h : 1e-6 ≤ |Real.cos (o 1)|)
    (hd : ∀ u, HasDerivAt (fun t : ℝ => attitude (o + t • d) *ᵥ u) (attitude o *ᵥ (w ⨯₃ u)) 0) (dt : ℝ) :
    (drm_rpw p v dt o w).2 = o + dt • d := by
  have hb : bodyRates o d = w := by
    apply skew_inj
    apply (show IsRotation (attitude o) by rw [attitude_eq]; exact isRotation_get _ _ _).cancel
    refine Matrix.ext_iff_mulVec.2 fun u => ?_
    rw [← mulVec_mulVec, ← mulVec_mulVec, skew_mulVec, skew_mulVec]
    exact (hasDerivAt_attitude o d u).unique (hd u)
  rw [rpw_rates p v o w h, bodyRates_inj (cos_ne h) (hb.trans (bodyRates_eulerRates (cos_ne h)).symm)]

end Dis.Geo
