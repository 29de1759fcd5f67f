import Verif.Proof.Body
import Verif.Proof.Reference

/-!
# The reference platform on moderate numbers
-/

set_option exponentiation.threshold 4096

namespace Dis.Geo

theorem big_of {A : ℝ} (h : A ≤ 2 ^ 100) : A ≤ 2 ^ 1000 :=
  h.trans (pow_le_pow_right₀ (by norm_num) (by norm_num))

theorem abs_le_pow (x : F64) (k : ℕ) (h : x.mag ≤ 2 ^ k * 2 ^ 1074) : |ofDouble x| ≤ 2 ^ k := by
  unfold ofDouble
  have hU : (0 : ℝ) < 2 ^ 1074 := by positivity
  rw [abs_div, abs_of_pos hU, div_le_iff₀ hU, ← natAbs_cast, F64.units_abs]
  exact_mod_cast h

theorem mul_bound {x y : F64} {A B : ℝ} (hx : x.Finite) (hy : y.Finite) (ha : |ofDouble x| ≤ A)
    (hb : |ofDouble y| ≤ B) (h : A * B ≤ 2 ^ 100) :
    (F64.mul x y).Finite ∧ |ofDouble (F64.mul x y)| ≤ 2 * (A * B) + 1 := by
  have h1 : |ofDouble x * ofDouble y| ≤ A * B := by
    rw [abs_mul]; exact mul_le_mul ha hb (abs_nonneg _) ((abs_nonneg _).trans ha)
  have hf := mul_finite_of hx hy (big_of (h1.trans h))
  refine ⟨hf, ?_⟩
  have h2 := abs_le_of_near (val_mul' hf)
  have := eta_le
  have h3 := abs_nonneg (ofDouble x * ofDouble y)
  generalize |ofDouble x * ofDouble y| = Z at *
  norm_num at h2 this
  linarith

theorem add_bound {x y : F64} {A B : ℝ} (hx : x.Finite) (hy : y.Finite) (ha : |ofDouble x| ≤ A)
    (hb : |ofDouble y| ≤ B) (h : A + B ≤ 2 ^ 100) :
    (F64.add x y).Finite ∧ |ofDouble (F64.add x y)| ≤ 2 * (A + B) := by
  have h1 : |ofDouble x + ofDouble y| ≤ A + B := (abs_add_le _ _).trans (add_le_add ha hb)
  have hf := add_finite_of hx hy (big_of (h1.trans h))
  refine ⟨hf, ?_⟩
  have h2 := abs_le_of_near (val_add hf)
  have h3 := abs_nonneg (ofDouble x + ofDouble y)
  generalize |ofDouble x + ofDouble y| = Z at *
  norm_num at h2
  linarith

theorem dot_bound {a b : Dbl.Vec} (ha : ∀ j, (a j).Finite ∧ |ofDouble (a j)| ≤ 2)
    (hb : ∀ j, (b j).Finite ∧ |ofDouble (b j)| ≤ 2 ^ 40) : (dot a b).Finite ∧ |ofDouble (dot a b)| ≤ 2 ^ 50 := by
  obtain ⟨f0, m0⟩ := mul_bound (ha 0).1 (hb 0).1 (ha 0).2 (hb 0).2 (by norm_num)
  obtain ⟨f1, m1⟩ := mul_bound (ha 1).1 (hb 1).1 (ha 1).2 (hb 1).2 (by norm_num)
  obtain ⟨f2, m2⟩ := mul_bound (ha 2).1 (hb 2).1 (ha 2).2 (hb 2).2 (by norm_num)
  obtain ⟨g1, n1⟩ := add_bound f0 f1 m0 m1 (by norm_num)
  obtain ⟨g2, n2⟩ := add_bound g1 f2 n1 m2 (by norm_num)
  exact ⟨g2, n2.trans (by norm_num)⟩

/-- On the reference platform `drm_fpb` returns finite positions for moderate arguments. -/
theorem reference_fpb {p v o : Dbl.Vec} {dt : F64} (ho : ∀ k, (o k).Finite)
    (hp : ∀ k, (p k).Finite ∧ |ofDouble (p k)| ≤ 2 ^ 40) (hv : ∀ k, (v k).Finite ∧ |ofDouble (v k)| ≤ 2 ^ 40)
    (hd : dt.Finite ∧ |ofDouble dt| ≤ 2 ^ 40) :
    ∃ pos, Dbl.drm_fpb reference p v dt o = .ok (pos, o) ∧ ∀ i, (pos i).Finite := by
  obtain ⟨M, hM, hE⟩ := rotation_near reference_trig (ho 0) (ho 1) (ho 2)
  unfold Dbl.drm_fpb
  rw [hM]
  refine ⟨_, rfl, fun i => ?_⟩
  have hr : ∀ j, (M i j).Finite ∧ |ofDouble (M i j)| ≤ 2 := fun j => by
    refine ⟨(hE i j).1, ?_⟩
    have h1 := abs_le_of_near (hE i j).2.2
    have h2 := (hE i j).2.1
    norm_num at h1
    linarith
  obtain ⟨f1, b1⟩ := dot_bound hr hv
  obtain ⟨f2, b2⟩ := mul_bound f1 hd.1 b1 hd.2 (by norm_num)
  exact (add_bound (hp i).1 f2 (hp i).2 b2 (by norm_num)).1

theorem reference_fvb {p v a o : Dbl.Vec} {dt : F64} (ho : ∀ k, (o k).Finite)
    (hp : ∀ k, (p k).Finite ∧ |ofDouble (p k)| ≤ 2 ^ 40) (hv : ∀ k, (v k).Finite ∧ |ofDouble (v k)| ≤ 2 ^ 15)
    (ha : ∀ k, (a k).Finite ∧ |ofDouble (a k)| ≤ 2 ^ 10)
    (hd : dt.Finite ∧ |ofDouble dt| ≤ 2 ^ 10) :
    ∃ pos, Dbl.drm_fvb reference p v a dt o = .ok (pos, o) ∧ ∀ i, (pos i).Finite := by
  obtain ⟨M, hM, hE⟩ := rotation_near reference_trig (ho 0) (ho 1) (ho 2)
  unfold Dbl.drm_fvb
  rw [hM]
  refine ⟨_, rfl, fun i => ?_⟩
  have hr : ∀ j, (M i j).Finite ∧ |ofDouble (M i j)| ≤ 2 := fun j => by
    refine ⟨(hE i j).1, ?_⟩
    have h1 := abs_le_of_near (hE i j).2.2
    have h2 := (hE i j).2.1
    norm_num at h1
    linarith
  obtain ⟨q1, q2⟩ := mul_bound hd.1 hd.1 hd.2 hd.2 (by norm_num)
  have hD : ∀ j, (F64.add (F64.mul (v j) dt) (F64.mul (F64.mul Dbl.half (a j)) (F64.mul dt dt))).Finite ∧
      |ofDouble (F64.add (F64.mul (v j) dt) (F64.mul (F64.mul Dbl.half (a j)) (F64.mul dt dt)))| ≤ 2 ^ 40 := by
    intro j
    obtain ⟨f1, b1⟩ := mul_bound (hv j).1 hd.1 (hv j).2 hd.2 (by norm_num)
    obtain ⟨f2, b2⟩ := mul_bound (x := Dbl.half) (A := 1) (show F64.expo _ ≠ 2047 by decide) (ha j).1
      (by rw [val_half]; norm_num [abs_of_pos]) (ha j).2 (by norm_num)
    obtain ⟨f3, b3⟩ := mul_bound f2 q1 b2 q2 (by norm_num)
    obtain ⟨f4, b4⟩ := add_bound f1 f3 b1 b3 (by norm_num)
    exact ⟨f4, b4.trans (by norm_num)⟩
  obtain ⟨f1, b1⟩ := dot_bound hr hD
  exact (add_bound (hp i).1 f1 (hp i).2 b1 (by norm_num)).1

end Dis.Geo
