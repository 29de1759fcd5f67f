import Verif.Proof.Frame64

/-!
# The local frame in doubles, and a frame turned by three angles
-/

set_option exponentiation.threshold 4096

namespace Dis.Geo

open Matrix

theorem col0 (Q : Mat) (i : Fin 3) : (Q *ᵥ ![1, 0, 0]) i = Q i 0 := by
  simp [mulVec, dotProduct, Fin.sum_univ_three]

theorem col1 (Q : Mat) (i : Fin 3) : (Q *ᵥ ![0, 1, 0]) i = Q i 1 := by
  simp [mulVec, dotProduct, Fin.sum_univ_three]

theorem col2 (Q : Mat) (i : Fin 3) : (Q *ᵥ ![0, 0, 1]) i = Q i 2 := by
  simp [mulVec, dotProduct, Fin.sum_univ_three]

theorem len_e0 : len ![1, 0, 0] = 1 := by simp [len]
theorem len_e1 : len ![0, 1, 0] = 1 := by simp [len]
theorem len_e2 : len ![0, 0, 1] = 1 := by simp [len]

/-- The axes `x'`, `y'`, `z'` of a frame in doubles, within `e` of the columns of `Q`. -/
structure FrameNear (Q : Mat) (x' y' z' : Dbl.Vec) (e : ℝ) : Prop where
  rot : IsRotation Q
  x : ∀ j, Ap (x' j) ((Q *ᵥ ![1, 0, 0]) j) e
  y : ∀ j, Ap (y' j) ((Q *ᵥ ![0, 1, 0]) j) e
  z : ∀ j, Ap (z' j) ((Q *ᵥ ![0, 0, 1]) j) e

theorem rot_x_le {Q : Mat} (h : IsRotation Q) (j : Fin 3) : |(Q *ᵥ ![1, 0, 0]) j| ≤ 1 := by
  rw [col0]; exact h.entry_le j 0

theorem rot_y_le {Q : Mat} (h : IsRotation Q) (j : Fin 3) : |(Q *ᵥ ![0, 1, 0]) j| ≤ 1 := by
  rw [col1]; exact h.entry_le j 1

theorem rot_z_le {Q : Mat} (h : IsRotation Q) (j : Fin 3) : |(Q *ᵥ ![0, 0, 1]) j| ≤ 1 := by
  rw [col2]; exact h.entry_le j 2

theorem unit_frame : FrameNear 1 (Dbl.unit 0) (Dbl.unit 1) (Dbl.unit 2) 6e-16 where
  rot := ⟨by simp, by simp⟩
  x j := by
    rw [col0, show (1 : Mat) j 0 = (1 : Mat) 0 j by simp [Matrix.one_apply, eq_comm]]
    exact (unit_near 0 j).mono (by norm_num)
  y j := by
    rw [col1, show (1 : Mat) j 1 = (1 : Mat) 1 j by simp [Matrix.one_apply, eq_comm]]
    exact (unit_near 1 j).mono (by norm_num)
  z j := by
    rw [col2, show (1 : Mat) j 2 = (1 : Mat) 2 j by simp [Matrix.one_apply, eq_comm]]
    exact (unit_near 2 j).mono (by norm_num)

theorem ned_near {P : Dbl.Platform} (h3 : P.TrigOk) {lat lon : F64} (hlat : lat.Finite) (hlon : lon.Finite) :
    ∃ M, Dbl.ecefvec2nedvec P lat lon = .ok M ∧
      FrameNear (nedFrame (ofDouble lat) (ofDouble lon)) (M 0) (M 1) (M 2) 6e-16 := by
  obtain ⟨e1, s⟩ := Ap.sin h3 (Ap.self hlat) (g := 2.3e-16) (by norm_num)
  obtain ⟨e2, c⟩ := Ap.cos h3 (Ap.self hlat) (g := 2.3e-16) (by norm_num)
  obtain ⟨e3, sl⟩ := Ap.sin h3 (Ap.self hlon) (g := 2.3e-16) (by norm_num)
  obtain ⟨e4, cl⟩ := Ap.cos h3 (Ap.self hlon) (g := 2.3e-16) (by norm_num)
  have k1 := Real.abs_sin_le_one (ofDouble lat)
  have k2 := Real.abs_cos_le_one (ofDouble lat)
  have k3 := Real.abs_sin_le_one (ofDouble lon)
  have k4 := Real.abs_cos_le_one (ofDouble lon)
  have n1 : |-Real.sin (ofDouble lat)| ≤ 1 := by rw [abs_neg]; exact k1
  have n2 : |-Real.cos (ofDouble lat)| ≤ 1 := by rw [abs_neg]; exact k2
  have zero : Ap (Dbl.num 0) 0 6e-16 :=
    ((Ap.num (n := 0) (by decide)).to (b := 0) (f := 0) (by norm_num) (le_refl (0 + 0))).mono (by norm_num)
  have w : ∀ {x : F64} {a : ℝ}, Ap x a 2.3e-16 → Ap x a 6e-16 := fun h => h.mono (by norm_num)
  refine ⟨_, by rw [Dbl.ecefvec2nedvec, e1, e2, e3, e4]; rfl, ⟨isRotation_ned _ _, ?_, ?_, ?_⟩⟩
  · intro j
    rw [col0]
    fin_cases j
    · show Ap _ (-(Real.sin _ * Real.cos _)) _
      rw [← neg_mul]
      exact s.neg.mul cl n1 k4 (by norm_num) (by norm_num)
    · show Ap _ (-(Real.sin _ * Real.sin _)) _
      rw [← neg_mul]
      exact s.neg.mul sl n1 k3 (by norm_num) (by norm_num)
    · exact w c
  · intro j
    rw [col1]
    fin_cases j
    · exact w sl.neg
    · exact w cl
    · exact zero
  · intro j
    rw [col2]
    fin_cases j
    · show Ap _ (-(Real.cos _ * Real.cos _)) _
      rw [← neg_mul]
      exact c.neg.mul cl n2 k4 (by norm_num) (by norm_num)
    · show Ap _ (-(Real.cos _ * Real.sin _)) _
      rw [← neg_mul]
      exact c.neg.mul sl n2 k3 (by norm_num) (by norm_num)
    · exact w s.neg

theorem attitude_mul (Q : Mat) (a b c : ℝ) : Q * Rz a * Ry b * Rx c = Q * attitude ![a, b, c] := by
  simp [attitude, Matrix.mul_assoc]

theorem turned_near {P : Dbl.Platform} (h3 : P.TrigOk) (h5 : P.MatvecOk) (h6 : P.MatvecFinite) {a b c : F64}
    (ha : a.Finite) (hb : b.Finite) (hc : c.Finite) {Q : Mat} {x0 y0 z0 : Dbl.Vec} (hQ : FrameNear Q x0 y0 z0 6e-16) :
    ∃ x3 y3, Dbl.turned P a b c x0 y0 z0 = .ok (x3, y3) ∧
      (∀ j, Ap (x3 j) (((Q * attitude ![ofDouble a, ofDouble b, ofDouble c]) *ᵥ ![1, 0, 0]) j) 9e-12) ∧
      ∀ j, Ap (y3 j) (((Q * attitude ![ofDouble a, ofDouble b, ofDouble c]) *ᵥ ![0, 1, 0]) j) 9e-12 := by
  obtain ⟨rQ, x, y, z⟩ := hQ
  have r1 : IsRotation (Q * Rz (ofDouble a)) := rQ.mul (isRotation_Rz _)
  have r2 : IsRotation (Q * Rz (ofDouble a) * Ry (ofDouble b)) := r1.mul (isRotation_Ry _)
  obtain ⟨R1, e1, -⟩ := rotate_near h3 ha z (rot_z_le rQ) (by norm_num)
  have t1 : len (Q *ᵥ ![0, 0, 1]) = 1 := by rw [rQ.len, len_e2]
  have x1 := turn_near h3 h5 h6 ha z t1 (rot_z_le rQ) (by norm_num) e1 x (rot_x_le rQ) (by norm_num) (g := 2.4e-14)
    (by norm_num)
  have y1 := turn_near h3 h5 h6 ha z t1 (rot_z_le rQ) (by norm_num) e1 y (rot_y_le rQ) (by norm_num) (g := 2.4e-14)
    (by norm_num)
  rw [rotate_frame_z rQ] at x1 y1
  obtain ⟨R2, e2, -⟩ := rotate_near h3 hb y1 (rot_y_le r1) (by norm_num)
  have t2 : len ((Q * Rz (ofDouble a)) *ᵥ ![0, 1, 0]) = 1 := by rw [r1.len, len_e1]
  have x2 := turn_near h3 h5 h6 hb y1 t2 (rot_y_le r1) (by norm_num) e2 x1 (rot_x_le r1) (by norm_num) (g := 4.6e-13)
    (by norm_num)
  have y2 := turn_near h3 h5 h6 hb y1 t2 (rot_y_le r1) (by norm_num) e2 y1 (rot_y_le r1) (by norm_num) (g := 4.6e-13)
    (by norm_num)
  rw [rotate_frame_y r1] at x2 y2
  obtain ⟨R3, e3, -⟩ := rotate_near h3 hc x2 (rot_x_le r2) (by norm_num)
  have t3 : len ((Q * Rz (ofDouble a) * Ry (ofDouble b)) *ᵥ ![1, 0, 0]) = 1 := by rw [r2.len, len_e0]
  have x3 := turn_near h3 h5 h6 hc x2 t3 (rot_x_le r2) (by norm_num) e3 x2 (rot_x_le r2) (by norm_num) (g := 9e-12)
    (by norm_num)
  have y3 := turn_near h3 h5 h6 hc x2 t3 (rot_x_le r2) (by norm_num) e3 y2 (rot_y_le r2) (by norm_num) (g := 9e-12)
    (by norm_num)
  rw [rotate_frame_x r2, attitude_mul] at x3 y3
  refine ⟨_, _, ?_, x3, y3⟩
  simp only [Dbl.turned, e1, e2, e3, bind_ok]
  rfl

end Dis.Geo
