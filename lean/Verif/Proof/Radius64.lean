import Verif.Proof.Ecef64

/-!
# The distance from an axis in doubles, anywhere
-/

set_option exponentiation.threshold 4096

namespace Dis.Geo

theorem sqrt_rel {s a k q : ℝ} (hs : 0 ≤ s) (ha : 0 ≤ a) (hk : 0 ≤ k) (hq : 0 ≤ q) (h : |s - a| ≤ k * a + q * q) :
    |Real.sqrt s - Real.sqrt a| ≤ k * Real.sqrt a + q := by
  have r0 := Real.sqrt_nonneg a
  have rr := Real.mul_self_sqrt ha
  have ss := Real.mul_self_sqrt hs
  have s0 := Real.sqrt_nonneg s
  have h' := abs_le.1 h
  set r := Real.sqrt a
  set t := Real.sqrt s
  have D0 : 0 ≤ k * r + q := by positivity
  rw [abs_le]
  constructor
  · by_contra hc
    push Not at hc
    have h1 : t < r - (k * r + q) := by linarith
    have h2 : t * t < (r - (k * r + q)) * (r - (k * r + q)) := by nlinarith
    have h3 : (k * r + q) * (r - (k * r + q)) ≥ 0 := mul_nonneg D0 (by linarith)
    have kr : 0 ≤ k * r := by positivity
    have h4 : q * q ≤ q * r := mul_le_mul_of_nonneg_left (by linarith) hq
    nlinarith
  · have h2 : t * t ≤ (r + (k * r + q)) * (r + (k * r + q)) := by
      have kr : 0 ≤ k * r := by positivity
      have e1 : 0 ≤ r * (k * r) := by positivity
      have e2 : 0 ≤ r * q := by positivity
      have e3 : 0 ≤ (k * r) * q := by positivity
      nlinarith [sq_nonneg (k * r)]
    have := (mul_self_le_mul_self_iff s0 (show 0 ≤ r + (k * r + q) by linarith)).2 h2
    linarith

theorem radius_near {P : Dbl.Platform} (h1 : P.SquareOk) (h2 : P.SquareReturns) (h9 : P.SquareNonneg) {x y : F64}
    (hx : x.Finite) (hy : y.Finite) (bx : |ofDouble x| ≤ 2 ^ 400) (by' : |ofDouble y| ≤ 2 ^ 400) :
    ∃ p, (do let x2 ← P.square x; let y2 ← P.square y; F64.sqrt (F64.add x2 y2) : Except PyErr F64) = .ok p ∧
      Ap p (Real.sqrt (ofDouble x ^ 2 + ofDouble y ^ 2))
        (5e-16 * Real.sqrt (ofDouble x ^ 2 + ofDouble y ^ 2) + 4e-15) := by
  have big : (2 : ℝ) ^ 400 ≤ 2 ^ 500 := by norm_num
  obtain ⟨sx, e1, f1, g1⟩ := square_rel h1 h2 hx (bx.trans big)
  obtain ⟨sy, e2, f2, g2⟩ := square_rel h1 h2 hy (by'.trans big)
  have n1 := h9 x sx hx e1 f1
  have n2 := h9 y sy hy e2 f2
  have qx : ofDouble x ^ 2 ≤ 2 ^ 800 := by
    rw [← sq_abs]
    exact (pow_le_pow_left₀ (abs_nonneg _) bx 2).trans (by norm_num)
  have qy : ofDouble y ^ 2 ≤ 2 ^ 800 := by
    rw [← sq_abs]
    exact (pow_le_pow_left₀ (abs_nonneg _) by' 2).trans (by norm_num)
  have px := sq_nonneg (ofDouble x)
  have py := sq_nonneg (ofDouble y)
  have k1 := abs_le.1 g1
  have k2 := abs_le.1 g2
  have fin : (F64.add sx sy).Finite := by
    refine add_finite_of f1 f2 ?_
    rw [abs_of_nonneg (show 0 ≤ ofDouble sx + ofDouble sy by linarith)]
    have : (4 : ℝ) * 2 ^ 800 + 1 ≤ 2 ^ 1000 := by norm_num
    generalize (2 : ℝ) ^ 800 = A at *
    generalize (2 : ℝ) ^ 1000 = B at *
    norm_num at k1 k2 ⊢
    linarith only [k1.1, k1.2, k2.1, k2.2, px, py, this, qx, qy]
  have v := val_add fin
  rw [abs_of_nonneg (show 0 ≤ ofDouble sx + ofDouble sy by linarith)] at v
  have v' := abs_le.1 v
  have s0 : 0 ≤ ofDouble (F64.add sx sy) := by
    norm_num at v' ⊢
    linarith only [v'.1, n1, n2]
  have rel : |ofDouble (F64.add sx sy) - (ofDouble x ^ 2 + ofDouble y ^ 2)|
      ≤ 3.4e-16 * (ofDouble x ^ 2 + ofDouble y ^ 2) + 3e-15 * 3e-15 := by
    rw [abs_le]
    norm_num at v' k1 k2 ⊢
    constructor <;> linarith only [v'.1, v'.2, k1.1, k1.2, k2.1, k2.2, px, py]
  have t := sqrt_rel s0 (add_nonneg px py) (by norm_num) (by norm_num) rel
  have r0 := Real.sqrt_nonneg (ofDouble x ^ 2 + ofDouble y ^ 2)
  set r := Real.sqrt (ofDouble x ^ 2 + ofDouble y ^ 2)
  rcases s0.eq_or_lt with h | h
  · refine ⟨_, by rw [e1, bind_ok, e2, bind_ok]; exact sqrt_zero fin h.symm, fin, ?_⟩
    rw [← h, Real.sqrt_zero] at t
    rw [← h]
    refine t.trans ?_
    norm_num
    linarith
  · obtain ⟨p, e3, f3, -, g3⟩ := val_sqrt fin h
    refine ⟨p, by rw [e1, bind_ok, e2, bind_ok]; exact e3, f3, ?_⟩
    have t' := abs_le.1 t
    refine (abs_sub_le _ (Real.sqrt (ofDouble (F64.add sx sy))) _).trans ((add_le_add g3 t).trans ?_)
    norm_num at t' ⊢
    linarith only [t'.2, r0]

end Dis.Geo
