import Verif.Proof.Near
import Verif.Proof.Geo

/-!
# The rotation matrix and the body-frame formulas in doubles
-/

set_option exponentiation.threshold 4096

namespace Dis.Geo

/-- The numbers three doubles stand for. -/
theorem entry_le {R : Mat} (h : IsRotation R) (i j : Fin 3) : |R i j| ≤ 1 := by
  have h1 := congrFun (congrFun h.1 i) i
  rw [Matrix.mul_apply, Fin.sum_univ_three] at h1
  simp only [Matrix.transpose_apply, Matrix.one_apply_eq] at h1
  rw [abs_le_one_iff_mul_self_le_one]
  have a0 := mul_self_nonneg (R i 0)
  have a1 := mul_self_nonneg (R i 1)
  have a2 := mul_self_nonneg (R i 2)
  fin_cases j <;> simp only [Fin.zero_eta, Fin.mk_one, Fin.reduceFinMk] <;> linarith

theorem finite_not_infinite {x : F64} (h : x.Finite) : ¬ x.Infinite := fun hi => h hi.1

theorem rotation_near {P : Dbl.Platform} (hP : P.TrigOk) {psi theta phi : F64} (h1 : psi.Finite)
    (h2 : theta.Finite) (h3 : phi.Finite) :
    ∃ M, Dbl.get_rotation_matrix P psi theta phi = .ok M ∧
      ∀ i j, Unit1 (M i j)
        (get_rotation_matrix (ofDouble psi) (ofDouble theta) (ofDouble phi) i j) 14 := by
  have n1 := finite_not_infinite h1
  have n2 := finite_not_infinite h2
  have n3 := finite_not_infinite h3
  have hR := fun i j => entry_le (isRotation_get (ofDouble psi) (ofDouble theta) (ofDouble phi)) i j
  unfold Dbl.get_rotation_matrix
  simp only [Dbl.trig_ok n1, Dbl.trig_ok n2, Dbl.trig_ok n3, bind, Except.bind, pure, Except.pure]
  refine ⟨_, rfl, ?_⟩
  have c1 := unit_trig (hP.cos psi h1) (Real.abs_cos_le_one _)
  have s1 := unit_trig (hP.sin psi h1) (Real.abs_sin_le_one _)
  have c2 := unit_trig (hP.cos theta h2) (Real.abs_cos_le_one _)
  have s2 := unit_trig (hP.sin theta h2) (Real.abs_sin_le_one _)
  have c3 := unit_trig (hP.cos phi h3) (Real.abs_cos_le_one _)
  have s3 := unit_trig (hP.sin phi h3) (Real.abs_sin_le_one _)
  have m2 : ∀ {x y : F64} {a b : ℝ}, Unit1 x a 2 → Unit1 y b 2 → Unit1 (F64.mul x y) (a * b) 5 :=
    fun hx hy => (hx.mul hy (by norm_num) (by norm_num)).mono (by norm_num)
  have m3 : ∀ {x y z : F64} {a b c : ℝ}, Unit1 x a 2 → Unit1 y b 2 → Unit1 z c 2 →
      Unit1 (F64.mul (F64.mul x y) z) (a * b * c) 8 :=
    fun hx hy hz => ((m2 hx hy).mul hz (by norm_num) (by norm_num)).mono (by norm_num)
  intro i j
  match i, j with
  | 0, 0 => exact (m2 c1 c2).mono (by norm_num)
  | 0, 1 => exact ((m3 c1 s2 s3).sub (m2 s1 c3) (by norm_num) (by norm_num) (hR 0 1)).mono (by norm_num)
  | 0, 2 => exact ((m3 c1 s2 c3).add (m2 s1 s3) (by norm_num) (by norm_num) (hR 0 2)).mono (by norm_num)
  | 1, 0 => exact (m2 s1 c2).mono (by norm_num)
  | 1, 1 => exact ((m3 s1 s2 s3).add (m2 c1 c3) (by norm_num) (by norm_num) (hR 1 1)).mono (by norm_num)
  | 1, 2 => exact ((m3 s1 s2 c3).sub (m2 c1 s3) (by norm_num) (by norm_num) (hR 1 2)).mono (by norm_num)
  | 2, 0 => exact s2.neg.mono (by norm_num)
  | 2, 1 => exact (m2 c2 s3).mono (by norm_num)
  | 2, 2 => exact (m2 c2 c3).mono (by norm_num)

/-- A row of the matrix times a vector, each entry and each component with an error. -/
theorem row_near {M : Dbl.Mat} {R : Mat} {i : Fin 3} {P : Dbl.Platform} (hP : P.MatvecOk)
    (hM : ∀ j, Unit1 (M i j) (R i j) 14) {v : Dbl.Vec} {u e : Fin 3 → ℝ}
    (hv : ∀ j, |ofDouble (v j) - u j| ≤ e j) (h : (P.matvec M v i).Finite) :
    |ofDouble (P.matvec M v i) - (R i 0 * u 0 + R i 1 * u 1 + R i 2 * u 2)|
      ≤ 19 / 2 ^ 52 * (|u 0| + |u 1| + |u 2|) + (1 + 19 / 2 ^ 52) * (e 0 + e 1 + e 2) + 1 / 2 ^ 1070 := by
  have hm := (hP M v i h).2
  have key : ∀ j, |ofDouble (M i j) * ofDouble (v j) - R i j * u j|
      ≤ 14 / 2 ^ 52 * |u j| + (1 + 14 / 2 ^ 52) * e j ∧
      |ofDouble (M i j) * ofDouble (v j)| ≤ (1 + 14 / 2 ^ 52) * (|u j| + e j) := by
    intro j
    obtain ⟨-, m1, m2⟩ := hM j
    have hj := hv j
    have he := (abs_nonneg _).trans hj
    have g1 := abs_le_of_near m2
    have g2 := abs_le_of_near hj
    have g3 : |ofDouble (M i j)| ≤ 1 + 14 / 2 ^ 52 := by linarith
    refine ⟨?_, ?_⟩
    · have t1 : ofDouble (M i j) * ofDouble (v j) - R i j * u j
          = ofDouble (M i j) * (ofDouble (v j) - u j) + (ofDouble (M i j) - R i j) * u j := by ring
      rw [t1]
      refine (abs_add_le _ _).trans ?_
      rw [abs_mul, abs_mul]
      have i1 : |ofDouble (M i j)| * |ofDouble (v j) - u j| ≤ (1 + 14 / 2 ^ 52) * e j :=
        mul_le_mul g3 hj (abs_nonneg _) (by norm_num)
      have i2 : |ofDouble (M i j) - R i j| * |u j| ≤ 14 / 2 ^ 52 * |u j| :=
        mul_le_mul_of_nonneg_right m2 (abs_nonneg _)
      linarith
    · rw [abs_mul]
      exact mul_le_mul g3 g2 (abs_nonneg _) (by norm_num)
  obtain ⟨k0, l0⟩ := key 0
  obtain ⟨k1, l1⟩ := key 1
  obtain ⟨k2, l2⟩ := key 2
  have e0 := (abs_nonneg _).trans (hv 0)
  have e1 := (abs_nonneg _).trans (hv 1)
  have e2 := (abs_nonneg _).trans (hv 2)
  generalize ofDouble (P.matvec M v i) = r at *
  generalize ofDouble (M i 0) * ofDouble (v 0) = x0 at *
  generalize ofDouble (M i 1) * ofDouble (v 1) = x1 at *
  generalize ofDouble (M i 2) * ofDouble (v 2) = x2 at *
  generalize R i 0 * u 0 = y0 at *
  generalize R i 1 * u 1 = y1 at *
  generalize R i 2 * u 2 = y2 at *
  have t1 : |r - (y0 + y1 + y2)| ≤ |r - (x0 + x1 + x2)| + (|x0 - y0| + |x1 - y1| + |x2 - y2|) := by
    have : r - (y0 + y1 + y2) = (r - (x0 + x1 + x2)) + ((x0 - y0) + (x1 - y1) + (x2 - y2)) := by ring
    rw [this]
    exact (abs_add_le _ _).trans (add_le_add le_rfl (abs_add_three _ _ _))
  generalize (1 : ℝ) / 2 ^ 1070 = E at *
  norm_num at hm k0 k1 k2 l0 l1 l2 ⊢
  have u0 := abs_nonneg (u 0)
  have u1 := abs_nonneg (u 1)
  have u2 := abs_nonneg (u 2)
  linarith

/-- `p + w * t` in doubles, `w` with an error. -/
theorem madd_near {p w t : F64} {a e : ℝ} (h : (F64.add p (F64.mul w t)).Finite)
    (hw : |ofDouble w - a| ≤ e) :
    |ofDouble (F64.add p (F64.mul w t)) - (ofDouble p + a * ofDouble t)|
      ≤ 1 / 2 ^ 53 * |ofDouble p| + 3 / 2 ^ 53 * (|a| * |ofDouble t|) + (1 + 1 / 2 ^ 51) * (e * |ofDouble t|)
        + 2 * eta := by
  have h1 := mul_near (F64.add_finite h).2.1 hw (le_of_eq (by rw [sub_self, abs_zero]) : |ofDouble t - ofDouble t| ≤ 0)
  have h2 := add_near h (le_of_eq (by rw [sub_self, abs_zero]) : |ofDouble p - ofDouble p| ≤ 0) h1
  have h3 := abs_add_le (ofDouble p) (a * ofDouble t)
  rw [abs_mul a] at h3
  have h0 := eta_pos
  have he := (abs_nonneg _).trans hw
  have n1 : 0 ≤ e * |ofDouble t| := by positivity
  have n2 : 0 ≤ |a| * |ofDouble t| := by positivity
  have n3 := abs_nonneg (ofDouble p)
  generalize |ofDouble p + a * ofDouble t| = A at *
  generalize e * |ofDouble t| = E at *
  generalize |a| * |ofDouble t| = F at *
  generalize |ofDouble p| = G at *
  norm_num at h2 ⊢
  linarith

/-- `v * t + 0.5 * a * t²` in doubles. -/
theorem displacement_near {v a t q : F64}
    (hq : |ofDouble q - ofDouble t ^ 2| ≤ 1 / 2 ^ 52 * ofDouble t ^ 2 + 1 / 2 ^ 1074)
    (h : (F64.add (F64.mul v t) (F64.mul (F64.mul Dbl.half a) q)).Finite) :
    |ofDouble (F64.add (F64.mul v t) (F64.mul (F64.mul Dbl.half a) q))
        - (ofDouble v * ofDouble t + ofDouble a * ofDouble t ^ 2 / 2)|
      ≤ 1 / 2 ^ 50 * (|ofDouble v * ofDouble t| + |ofDouble a * ofDouble t ^ 2 / 2|)
        + 4 * eta * (1 + |ofDouble a| + ofDouble t ^ 2) := by
  have h1 := val_mul' (F64.add_finite h).1
  have h2 := accel_error hq (F64.add_finite h).2.1
  have h3 := add_near h h1 h2
  have h4 := abs_add_le (ofDouble v * ofDouble t) (ofDouble a * ofDouble t ^ 2 / 2)
  have n1 := abs_nonneg (ofDouble v * ofDouble t)
  have n2 := abs_nonneg (ofDouble a * ofDouble t ^ 2 / 2)
  have h0 := eta_pos
  have n3 : eta ≤ eta * (1 + |ofDouble a| + ofDouble t ^ 2) := by
    have : 0 ≤ eta * (|ofDouble a| + ofDouble t ^ 2) := by positivity
    linarith
  rw [mul_assoc 2 eta] at h3
  rw [mul_assoc 4 eta]
  generalize |ofDouble v * ofDouble t + ofDouble a * ofDouble t ^ 2 / 2| = A at *
  generalize |ofDouble v * ofDouble t| = B at *
  generalize |ofDouble a * ofDouble t ^ 2 / 2| = C at *
  generalize eta * (1 + |ofDouble a| + ofDouble t ^ 2) = E at *
  norm_num at h3 ⊢
  linarith

end Dis.Geo
