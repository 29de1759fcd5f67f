import Verif.Proof.Angles64
import Verif.Proof.Radius64

/-!
# `angles` in doubles
-/

set_option exponentiation.threshold 4096

namespace Dis.Geo

open Matrix

theorem dot_x {Q B : Mat} (u : Vec) : (B *ᵥ u) ⬝ᵥ (Q *ᵥ ![1, 0, 0]) = ((Qᵀ * B) *ᵥ u) 0 := by
  rw [mulVec_dot]; simp [dotProduct, Fin.sum_univ_three]

theorem dot_y {Q B : Mat} (u : Vec) : (B *ᵥ u) ⬝ᵥ (Q *ᵥ ![0, 1, 0]) = ((Qᵀ * B) *ᵥ u) 1 := by
  rw [mulVec_dot]; simp [dotProduct, Fin.sum_univ_three]

theorem dot_z {Q B : Mat} (u : Vec) : (B *ᵥ u) ⬝ᵥ (Q *ᵥ ![0, 0, 1]) = ((Qᵀ * B) *ᵥ u) 2 := by
  rw [mulVec_dot]; simp [dotProduct, Fin.sum_univ_three]

theorem dot_turned {Q B : Mat} (C : Mat) (u v : Vec) :
    (B *ᵥ u) ⬝ᵥ ((Q * C) *ᵥ v) = ((Qᵀ * B) *ᵥ u) ⬝ᵥ (C *ᵥ v) := by
  rw [mulVec_dot, mulVec_dot, Matrix.transpose_mul, Matrix.mul_assoc]

theorem sum_sq {C : Mat} (h : IsRotation C) {v : Vec} (hv : len v = 1) :
    (C *ᵥ v) 0 ^ 2 + (C *ᵥ v) 1 ^ 2 + (C *ᵥ v) 2 ^ 2 = 1 := by
  have := h.len v
  rw [hv, len, Real.sqrt_eq_one] at this
  exact this

theorem small_sqrt {x y : ℝ} (hx : |x| ≤ 1.1) (hy : |y| ≤ 1.1) : Real.sqrt (x ^ 2 + y ^ 2) ≤ 2 := by
  rw [Real.sqrt_le_iff]
  have h1 := pow_le_pow_left₀ (abs_nonneg _) hx 2
  have h2 := pow_le_pow_left₀ (abs_nonneg _) hy 2
  rw [sq_abs] at h1 h2
  norm_num at h1 h2 ⊢
  linarith

theorem angles_ok {L : Dbl.Numpy} {x3 y3 X0 Y0 Z0 : Dbl.Vec} {p : F64} {R1 R2 : Dbl.Mat}
    (e1 : (do let x2 ← L.square (L.dot x3 X0); let y2 ← L.square (L.dot x3 Y0); F64.sqrt (F64.add x2 y2)
        : Except PyErr F64) = .ok p)
    (e2 : Dbl.rotate_3x3 L.toPlatform (L.atan2 (L.dot x3 Y0) (L.dot x3 X0)) Z0 = .ok R1)
    (e3 : Dbl.rotate_3x3 L.toPlatform (L.atan2 (F64.neg (L.dot x3 Z0)) p) (L.matvec R1 Y0) = .ok R2) :
    Dbl.angles L x3 y3 X0 Y0 Z0 = .ok ![L.atan2 (L.dot x3 Y0) (L.dot x3 X0), L.atan2 (F64.neg (L.dot x3 Z0)) p,
      L.atan2 (L.dot y3 (L.matvec R2 Z0)) (L.dot y3 (L.matvec R1 Y0))] := by
  rw [Dbl.angles]
  rcases h1 : L.square (L.dot x3 X0) with err | a
  · rw [h1] at e1; cases e1
  rcases h2 : L.square (L.dot x3 Y0) with err | b
  · rw [h1, h2] at e1; cases e1
  rw [h1, h2, bind_ok, bind_ok] at e1
  simp only [e1, e2, e3, bind_ok]
  rfl

/-- The angles stand for the rotation from the frame `Q` to the axes of `B`. -/
theorem angles_near {L : Dbl.Numpy} (h1 : L.SquareOk) (h2 : L.SquareReturns) (h3 : L.TrigOk) (h4 : L.ArcOk)
    (h5 : L.MatvecOk) (h6 : L.MatvecFinite) (h7 : L.DotOk) (h8 : L.ArcZero) (h9 : L.SquareNonneg) {Q B : Mat}
    {x3 y3 X0 Y0 Z0 : Dbl.Vec} (hQ : FrameNear Q X0 Y0 Z0 6e-16) (hB : IsRotation B)
    (hx : ∀ j, Ap (x3 j) ((B *ᵥ ![1, 0, 0]) j) 9e-12) (hy : ∀ j, Ap (y3 j) ((B *ᵥ ![0, 1, 0]) j) 9e-12) :
    ∃ v, Dbl.angles L x3 y3 X0 Y0 Z0 = .ok v ∧ (∀ i, (v i).Finite ∧ |ofDouble (v i)| ≤ 3.1416) ∧
      |ofDouble (v 1)| ≤ Real.pi / 2 + 2e-10 ∧
      ∀ i j, |attitude ![ofDouble (v 0), ofDouble (v 1), ofDouble (v 2)] i j - (Qᵀ * B) i j| ≤ 7e-10 := by
  obtain ⟨rQ, X, Y, Z⟩ := hQ
  have rC : IsRotation (Qᵀ * B) := rQ.transpose.mul hB
  have dX := dot_near h7 hx X (rot_x_le hB) (rot_x_le rQ) (by norm_num) (by norm_num) (g := 2.9e-11) (by norm_num)
  have dY := dot_near h7 hx Y (rot_x_le hB) (rot_y_le rQ) (by norm_num) (by norm_num) (g := 2.9e-11) (by norm_num)
  have dZ := dot_near h7 hx Z (rot_x_le hB) (rot_z_le rQ) (by norm_num) (by norm_num) (g := 2.9e-11) (by norm_num)
  rw [dot_x] at dX
  rw [dot_y] at dY
  rw [dot_z] at dZ
  have bX : |ofDouble (L.dot x3 X0)| ≤ 1.1 := (dX.le (rot_x_le rC 0)).trans (by norm_num)
  have bY : |ofDouble (L.dot x3 Y0)| ≤ 1.1 := (dY.le (rot_x_le rC 1)).trans (by norm_num)
  have bZ : |ofDouble (L.dot x3 Z0)| ≤ 1.1 := (dZ.le (rot_x_le rC 2)).trans (by norm_num)
  have big : (1.1 : ℝ) ≤ 2 ^ 400 := by norm_num
  obtain ⟨p, ep, ap⟩ := radius_near h1 h2 h9 dX.1 dY.1 (bX.trans big) (bY.trans big)
  have rle := small_sqrt bX bY
  obtain ⟨f1, a1, a2⟩ := angle_near h4 h8 dY.1 dX.1 (rle.trans (by norm_num))
  have hp : |ofDouble p - Real.sqrt (ofDouble (L.dot x3 X0) ^ 2 + ofDouble (L.dot x3 Y0) ^ 2)| ≤ 1e-14 := by
    refine ap.2.trans ?_
    norm_num at rle ⊢
    linarith
  have sX := sum_sq rC len_e0
  have r0 := Real.sqrt_nonneg (ofDouble (L.dot x3 X0) ^ 2 + ofDouble (L.dot x3 Y0) ^ 2)
  have pR : Real.sqrt (ofDouble p ^ 2 + ofDouble (F64.neg (L.dot x3 Z0)) ^ 2) ≤ 3 := by
    rw [val_neg, neg_sq, Real.sqrt_le_iff]
    have k1 : |ofDouble p| ≤ 2.1 := by
      have := abs_le.1 hp
      rw [abs_le]
      norm_num at this ⊢
      constructor <;> linarith
    have k2 := pow_le_pow_left₀ (abs_nonneg _) k1 2
    have k3 := pow_le_pow_left₀ (abs_nonneg _) bZ 2
    rw [sq_abs] at k2 k3
    norm_num at k2 k3 ⊢
    linarith
  obtain ⟨f2, b1, b2⟩ := angle_near h4 h8 dZ.neg.1 ap.1 pR
  rw [val_neg, neg_sq] at b1 b2
  obtain ⟨R1, e1, -⟩ := rotate_near h3 f1 Z (rot_z_le rQ) (by norm_num)
  have t1 : len (Q *ᵥ ![0, 0, 1]) = 1 := by rw [rQ.len, len_e2]
  have y1 := turn_near h3 h5 h6 f1 Z t1 (rot_z_le rQ) (by norm_num) e1 Y (rot_y_le rQ) (by norm_num) (g := 2.4e-14)
    (by norm_num)
  have z1 := turn_near h3 h5 h6 f1 Z t1 (rot_z_le rQ) (by norm_num) e1 Z (rot_z_le rQ) (by norm_num) (g := 2.4e-14)
    (by norm_num)
  rw [rotate_frame_z rQ] at y1 z1
  set a := ofDouble (L.atan2 (L.dot x3 Y0) (L.dot x3 X0)) with ha
  set b := ofDouble (L.atan2 (F64.neg (L.dot x3 Z0)) p) with hb
  have r1 : IsRotation (Q * Rz a) := rQ.mul (isRotation_Rz _)
  have r2 : IsRotation (Q * Rz a * Ry b) := r1.mul (isRotation_Ry _)
  obtain ⟨R2, e2, -⟩ := rotate_near h3 f2 y1 (rot_y_le r1) (by norm_num)
  have t2 : len ((Q * Rz a) *ᵥ ![0, 1, 0]) = 1 := by rw [r1.len, len_e1]
  have Z' : ∀ j, Ap (Z0 j) (((Q * Rz a) *ᵥ ![0, 0, 1]) j) 6e-16 := by
    have : (Q * Rz a) *ᵥ ![0, 0, 1] = Q *ᵥ ![0, 0, 1] := by
      rw [← mulVec_mulVec]
      congr 1
      ext j
      fin_cases j <;> simp [Rz]
    rw [this]
    exact Z
  have z2 := turn_near h3 h5 h6 f2 y1 t2 (rot_y_le r1) (by norm_num) e2 Z' (rot_z_le r1) (by norm_num) (g := 4.6e-13)
    (by norm_num)
  rw [rotate_frame_y r1] at z2
  have dU := dot_near h7 hy y1 (rot_y_le hB) (rot_y_le r1) (by norm_num) (by norm_num) (g := 2.9e-11) (by norm_num)
  have dW := dot_near h7 hy z2 (rot_y_le hB) (rot_z_le r2) (by norm_num) (by norm_num) (g := 2.9e-11) (by norm_num)
  rw [dot_turned] at dU
  rw [Matrix.mul_assoc, dot_turned] at dW
  have bU : |ofDouble (L.dot y3 (L.matvec R1 Y0))| ≤ 1.1 := by
    have := r1.transpose.mul hB
    refine (dU.le (A := 1) ?_).trans (by norm_num)
    rw [← dot_turned, dot_y]
    exact rot_y_le this 1
  have bW : |ofDouble (L.dot y3 (L.matvec R2 Z0))| ≤ 1.1 := by
    have := r2.transpose.mul hB
    refine (dW.le (A := 1) ?_).trans (by norm_num)
    rw [← dot_turned, ← Matrix.mul_assoc, dot_z]
    exact rot_y_le this 2
  obtain ⟨f3, c1, c2⟩ := angle_near h4 h8 dW.1 dU.1 ((small_sqrt bU bW).trans (by norm_num))
  obtain ⟨x0, x1, x2, x3'⟩ := first_two sX dX.2 dY.2 dZ.2 hp a1 a2 b1 b2 (Real.abs_cos_le_one a) (Real.abs_sin_le_one a)
    (Real.abs_cos_le_one b) (Real.abs_sin_le_one b)
  refine ⟨_, angles_ok ep e1 e2, ?_, right_angle (angle_rel h4 h8 dZ.neg.1 ap.1).2.1 x3', ?_⟩
  · intro i
    fin_cases i
    · exact ⟨f1, (angle_rel h4 h8 dY.1 dX.1).2.1⟩
    · exact ⟨f2, (angle_rel h4 h8 dZ.neg.1 ap.1).2.1⟩
    · exact ⟨f3, (angle_rel h4 h8 dW.1 dU.1).2.1⟩
  · intro i j
    have hz : (Qᵀ * B) *ᵥ ![0, 0, 1] = ((Qᵀ * B) *ᵥ ![1, 0, 0]) ⨯₃ ((Qᵀ * B) *ᵥ ![0, 1, 0]) := by
      rw [rC.cross, cross_apply]
      simp
    have hxy : ((Qᵀ * B) *ᵥ ![1, 0, 0]) ⬝ᵥ ((Qᵀ * B) *ᵥ ![0, 1, 0]) = 0 := by
      rw [rC.dot]
      simp [dotProduct, Fin.sum_univ_three]
    obtain ⟨q0, q1, q2⟩ := attitude_near (sum_sq rC len_e1) hxy hz x0 x1 x2 dU.2 dW.2 c1 c2 i
    rw [col0] at q0
    rw [col1] at q1
    rw [col2] at q2
    fin_cases j
    · exact q0
    · exact q1
    · exact q2

end Dis.Geo
