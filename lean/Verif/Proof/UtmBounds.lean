import Verif.Proof.UtmSeries

/-! # Bounds on the errors of the series of `lla2utm` -/

namespace Dis.Geo

open WGS84

theorem mono {q x : ℝ} (hq : 0 ≤ q) (hq1 : q ≤ 0.0067396) (hx : 0 ≤ x) (hx1 : x ≤ 1) (m n : ℕ) :
    0 ≤ q ^ m * x ^ n ∧ q ^ m * x ^ n ≤ 0.0067396 ^ m :=
  ⟨by positivity, (mul_le_of_le_one_right (by positivity) (pow_le_one₀ hx hx1)).trans
    (pow_le_pow_left₀ hq hq1 m)⟩

/-- Coefficient of the 4th power in the error of the squared scale factor. -/
noncomputable def R4 (q x : ℝ) : ℝ :=
  4 / 3 * (q ^ 2 * x ^ 3) - 29 / 12 * (q ^ 2 * x ^ 4)

theorem R4_bound {q x : ℝ} (hq : 0 ≤ q) (hq1 : q ≤ 0.0067396) (hx : 0 ≤ x) (hx1 : x ≤ 1) :
    |R4 q x| ≤ 0.00005 := by
  unfold R4
  have h2 : q ^ 2 ≤ 0.00004543 := by nlinarith
  have h3 : x ^ 3 ≤ 1 := pow_le_one₀ hx hx1
  have h3' : 0 ≤ x ^ 3 := pow_nonneg hx 3
  have e : 4 / 3 * (q ^ 2 * x ^ 3) - 29 / 12 * (q ^ 2 * x ^ 4) = q ^ 2 * (x ^ 3 * (4 / 3 - 29 / 12 * x)) := by ring
  rw [e, abs_mul, abs_of_nonneg (sq_nonneg q)]
  have : |x ^ 3 * (4 / 3 - 29 / 12 * x)| ≤ 13 / 12 := by
    rw [abs_le]
    constructor
    · nlinarith [mul_nonneg h3' (sub_nonneg.2 hx1)]
    · nlinarith [sq_nonneg (x ^ 2), sq_nonneg (x - 1 / 2), sq_nonneg (x ^ 2 - 1 / 4), mul_nonneg h3' hx]
  calc q ^ 2 * |x ^ 3 * (4 / 3 - 29 / 12 * x)| ≤ 0.00004543 * (13 / 12) :=
        mul_le_mul h2 this (abs_nonneg _) (by norm_num)
    _ ≤ _ := by norm_num

/-- Coefficient of the 6th power in the error of the squared scale factor. -/
noncomputable def R6 (q x : ℝ) : ℝ :=
  1 / 360 - 91 / 180 * (x) + 7 / 3 * (x ^ 2) - 2 / 1 * (x ^ 3) - 85 / 24 * (q * x ^ 2) + 35 / 3 * (q
    * x ^ 3) - 65 / 8 * (q * x ^ 4) - 2 / 9 * (q ^ 2 * x ^ 3) + 23 / 9 * (q ^ 2 * x ^ 4) - 23 / 8 *
    (q ^ 2 * x ^ 5) + 2 / 1 * (q ^ 3 * x ^ 5) - 61 / 24 * (q ^ 3 * x ^ 6) + 4 / 9 * (q ^ 4 * x ^ 6)
    - 4 / 9 * (q ^ 4 * x ^ 7)

theorem R6_bound {q x : ℝ} (hq : 0 ≤ q) (hq1 : q ≤ 0.0067396) (hx : 0 ≤ x) (hx1 : x ≤ 1) :
    |R6 q x| ≤ 0.34 := by
  unfold R6
  have h1_2 := mono hq hq1 hx hx1 1 2
  have h1_3 := mono hq hq1 hx hx1 1 3
  have h1_4 := mono hq hq1 hx hx1 1 4
  have h2_3 := mono hq hq1 hx hx1 2 3
  have h2_4 := mono hq hq1 hx hx1 2 4
  have h2_5 := mono hq hq1 hx hx1 2 5
  have h3_5 := mono hq hq1 hx hx1 3 5
  have h3_6 := mono hq hq1 hx hx1 3 6
  have h4_6 := mono hq hq1 hx hx1 4 6
  have h4_7 := mono hq hq1 hx hx1 4 7
  have f1 : 1 / 360 - 91 / 180 * x + 7 / 3 * x ^ 2 - 2 * x ^ 3 ≤ 0.13 := by
    nlinarith [mul_nonneg hx (sq_nonneg (x - 0.63)), sq_nonneg (x - 0.63)]
  have f2 : -0.17 ≤ 1 / 360 - 91 / 180 * x + 7 / 3 * x ^ 2 - 2 * x ^ 3 := by
    nlinarith [mul_nonneg (sub_nonneg.2 hx1) (sq_nonneg (x - 0.13)), mul_nonneg hx (sub_nonneg.2 hx1)]
  simp only [pow_zero, one_mul, pow_one] at *
  rw [abs_le]
  constructor <;> linarith

/-- Coefficient of the 8th power in the error of the squared scale factor. -/
noncomputable def R8 (q x : ℝ) : ℝ :=
  -(1 / 960) + 7 / 60 * (x) - 71 / 90 * (x ^ 2) + 49 / 24 * (x ^ 3) - 93 / 64 * (x ^ 4) + 533 / 720
    * (q * x ^ 2) - 689 / 120 * (q * x ^ 3) + 325 / 24 * (q * x ^ 4) - 69 / 8 * (q * x ^ 5) + 1 / 90
    * (q ^ 2 * x ^ 3) - 3203 / 720 * (q ^ 2 * x ^ 4) + 1081 / 72 * (q ^ 2 * x ^ 5) - 1037 / 96 * (q
    ^ 2 * x ^ 6) - 11 / 3 * (q ^ 3 * x ^ 5) + 835 / 72 * (q ^ 3 * x ^ 6) - 137 / 16 * (q ^ 3 * x ^
    7) - 169 / 576 * (q ^ 4 * x ^ 8)

theorem R8_bound {q x : ℝ} (hq : 0 ≤ q) (hq1 : q ≤ 0.0067396) (hx : 0 ≤ x) (hx1 : x ≤ 1) :
    |R8 q x| ≤ 5 := by
  unfold R8
  have h0_1 := mono hq hq1 hx hx1 0 1
  have h0_2 := mono hq hq1 hx hx1 0 2
  have h0_3 := mono hq hq1 hx hx1 0 3
  have h0_4 := mono hq hq1 hx hx1 0 4
  have h1_2 := mono hq hq1 hx hx1 1 2
  have h1_3 := mono hq hq1 hx hx1 1 3
  have h1_4 := mono hq hq1 hx hx1 1 4
  have h1_5 := mono hq hq1 hx hx1 1 5
  have h2_3 := mono hq hq1 hx hx1 2 3
  have h2_4 := mono hq hq1 hx hx1 2 4
  have h2_5 := mono hq hq1 hx hx1 2 5
  have h2_6 := mono hq hq1 hx hx1 2 6
  have h3_5 := mono hq hq1 hx hx1 3 5
  have h3_6 := mono hq hq1 hx hx1 3 6
  have h3_7 := mono hq hq1 hx hx1 3 7
  have h4_8 := mono hq hq1 hx hx1 4 8
  simp only [pow_zero, one_mul, pow_one] at *
  rw [abs_le]
  constructor <;> linarith

/-- Coefficient of the 10th power in the error of the squared scale factor. -/
noncomputable def R10 (q x : ℝ) : ℝ :=
  1 / 14400 - 121 / 14400 * (x) + 61 / 216 * (x ^ 2) - 41 / 30 * (x ^ 3) + 55 / 24 * (x ^ 4) - 79 /
    64 * (x ^ 5) - 11 / 240 * (q * x ^ 2) + 6331 / 2160 * (q * x ^ 3) - 2519 / 180 * (q * x ^ 4) +
    1061 / 48 * (q * x ^ 5) - 355 / 32 * (q * x ^ 6) + 121 / 16 * (q ^ 2 * x ^ 4) - 75787 / 2160 *
    (q ^ 2 * x ^ 5) + 2533 / 48 * (q ^ 2 * x ^ 6) - 4865 / 192 * (q ^ 2 * x ^ 7)

theorem R10_bound {q x : ℝ} (hq : 0 ≤ q) (hq1 : q ≤ 0.0067396) (hx : 0 ≤ x) (hx1 : x ≤ 1) :
    |R10 q x| ≤ 6 := by
  unfold R10
  have h0_1 := mono hq hq1 hx hx1 0 1
  have h0_2 := mono hq hq1 hx hx1 0 2
  have h0_3 := mono hq hq1 hx hx1 0 3
  have h0_4 := mono hq hq1 hx hx1 0 4
  have h0_5 := mono hq hq1 hx hx1 0 5
  have h1_2 := mono hq hq1 hx hx1 1 2
  have h1_3 := mono hq hq1 hx hx1 1 3
  have h1_4 := mono hq hq1 hx hx1 1 4
  have h1_5 := mono hq hq1 hx hx1 1 5
  have h1_6 := mono hq hq1 hx hx1 1 6
  have h2_4 := mono hq hq1 hx hx1 2 4
  have h2_5 := mono hq hq1 hx hx1 2 5
  have h2_6 := mono hq hq1 hx hx1 2 6
  have h2_7 := mono hq hq1 hx hx1 2 7
  simp only [pow_zero, one_mul, pow_one] at *
  rw [abs_le]
  constructor <;> linarith

/-- Coefficient of the 12th power in the error of the squared scale factor. -/
noncomputable def R12 (q x : ℝ) : ℝ :=
  -(1 / 2025 * (x ^ 2)) + 1 / 90 * (x ^ 3) - 11 / 144 * (x ^ 4) + 5 / 32 * (x ^ 5) - 25 / 256 * (x ^
    6)

theorem R12_bound {q x : ℝ} (hq : 0 ≤ q) (hq1 : q ≤ 0.0067396) (hx : 0 ≤ x) (hx1 : x ≤ 1) :
    |R12 q x| ≤ 1 := by
  unfold R12
  have h0_2 := mono hq hq1 hx hx1 0 2
  have h0_3 := mono hq hq1 hx hx1 0 3
  have h0_4 := mono hq hq1 hx hx1 0 4
  have h0_5 := mono hq hq1 hx hx1 0 5
  have h0_6 := mono hq hq1 hx hx1 0 6
  simp only [pow_zero, one_mul, pow_one] at *
  rw [abs_le]
  constructor <;> linarith


/-- The squared local scale and the square of the scale factor the code returns. -/
theorem residual_K (q l s c : ℝ) (h : s ^ 2 = 1 - c ^ 2) :
    eE q l c ^ 2 + (s * eN q l c) ^ 2 - pK q l c ^ 2 = l ^ 4 * R4 q (c ^ 2)
      + l ^ 6 * (R6 q (c ^ 2) + l ^ 2 * R8 q (c ^ 2) + l ^ 4 * R10 q (c ^ 2) + l ^ 6 * R12 q (c ^ 2)) := by
  rw [mul_pow, h]
  unfold eE eN pK R4 R6 R8 R10 R12
  ring

theorem abs_residual_N {q s c : ℝ} (hq : 0 ≤ q) (hq1 : q ≤ 0.0067396) (h : s ^ 2 = 1 - c ^ 2) (l : ℝ) :
    |s * eN q l c + nE q l s c| ≤ 0.000025 * |l| ^ 5 := by
  rw [residual_N, abs_mul, abs_pow, mul_comm]
  refine mul_le_mul_of_nonneg_right ?_ (by positivity)
  have hx : 0 ≤ c ^ 2 := sq_nonneg c
  have hx1 : c ^ 2 ≤ 1 := by nlinarith [sq_nonneg s]
  have h2 : q ^ 2 ≤ 0.00004543 := by nlinarith
  rw [abs_mul, abs_of_nonneg (sq_nonneg q), abs_mul]
  have h3 : |c ^ 6 * s| ≤ 1 / 4 := by
    apply abs_le_of_sq_le_sq _ (by norm_num)
    have : (c ^ 6 * s) ^ 2 = (c ^ 2) ^ 6 * (1 - c ^ 2) := by rw [mul_pow, h]; ring
    rw [this]
    generalize c ^ 2 = x at *
    nlinarith [sq_nonneg (x ^ 3 - 0.6297), sq_nonneg (x - 6 / 7), mul_nonneg (pow_nonneg hx 3) (sub_nonneg.2 hx1),
      mul_nonneg (pow_nonneg hx 5) (sq_nonneg (x - 6/7)), mul_nonneg (pow_nonneg hx 4) (sq_nonneg (x - 6/7)),
      mul_nonneg (pow_nonneg hx 3) (sq_nonneg (x - 6/7)), mul_nonneg (pow_nonneg hx 2) (sq_nonneg (x - 6/7)),
      mul_nonneg hx (sq_nonneg (x - 6/7))]
  have h4 : |29 / 15 - 18 / 5 * c ^ 2| ≤ 29 / 15 := by
    rw [abs_le]; constructor <;> linarith
  calc q ^ 2 * (|c ^ 6 * s| * |29 / 15 - 18 / 5 * c ^ 2|) ≤ 0.00004543 * (1 / 4 * (29 / 15)) :=
        mul_le_mul h2 (mul_le_mul h3 h4 (abs_nonneg _) (by norm_num)) (by positivity) (by norm_num)
    _ ≤ _ := by norm_num

theorem abs_residual_E {q s c : ℝ} (hq : 0 ≤ q) (hq1 : q ≤ 0.0067396) (h : s ^ 2 = 1 - c ^ 2) (l : ℝ) :
    |eE q l c - nN q l s c - 1| ≤ 0.00003 * l ^ 4 + 0.1 * l ^ 6 := by
  have hx : 0 ≤ c ^ 2 := sq_nonneg c
  have hx1 : c ^ 2 ≤ 1 := by nlinarith [sq_nonneg s]
  have h2 : q ^ 2 ≤ 0.00004543 := by nlinarith
  rw [residual_E q l s c h]
  have e1 : |q ^ 2 * (c ^ 6 * (8 / 3 - 77 / 24 * c ^ 2 + q * c ^ 2 - 7 / 6 * q * c ^ 4))| ≤ 0.00003 := by
    rw [abs_mul, abs_of_nonneg (sq_nonneg q)]
    have : |c ^ 6 * (8 / 3 - 77 / 24 * c ^ 2 + q * c ^ 2 - 7 / 6 * q * c ^ 4)| ≤ 0.6 := by
      have a1 : c ^ 6 = (c ^ 2) ^ 3 := by ring
      have a2 : c ^ 4 = (c ^ 2) ^ 2 := by ring
      rw [a1, a2]
      generalize c ^ 2 = x at *
      have m1 := mono hq hq1 hx hx1 1 4
      have m2 := mono hq hq1 hx hx1 1 5
      simp only [pow_one] at m1 m2
      have e : x ^ 3 * (8 / 3 - 77 / 24 * x + q * x - 7 / 6 * q * x ^ 2)
          = x ^ 3 * (8 / 3 - 77 / 24 * x) + q * x ^ 4 - 7 / 6 * (q * x ^ 5) := by ring
      rw [e]
      have h3 : x ^ 3 ≤ 1 := pow_le_one₀ hx hx1
      have h3' : 0 ≤ x ^ 3 := pow_nonneg hx 3
      have b1 : x ^ 3 * (8 / 3 - 77 / 24 * x) ≤ 0.55 := by
        nlinarith [sq_nonneg (x ^ 2 - 0.39), sq_nonneg (x - 0.623), mul_nonneg hx (sq_nonneg (x - 0.623)),
          mul_nonneg (pow_nonneg hx 2) (sq_nonneg (x - 0.623))]
      have b2 : -0.55 ≤ x ^ 3 * (8 / 3 - 77 / 24 * x) := by
        nlinarith [mul_nonneg h3' (sub_nonneg.2 hx1)]
      rw [abs_le]
      constructor <;> linarith [m1.1, m1.2, m2.1, m2.2]
    calc _ ≤ 0.00004543 * 0.6 := mul_le_mul h2 this (abs_nonneg _) (by norm_num)
      _ ≤ _ := by norm_num
  have e2 : |1 / 720 - 91 / 360 * c ^ 2 + 7 / 6 * c ^ 4 - c ^ 6
        + q * (-(1771 / 720) * c ^ 4 + 19 / 2 * c ^ 6 - 15 / 2 * c ^ 8)
        + q ^ 2 * (-(11 / 6) * c ^ 6 + 175 / 24 * c ^ 8 - 35 / 6 * c ^ 10)| ≤ 0.1 := by
    have a1 : c ^ 6 = (c ^ 2) ^ 3 := by ring
    have a2 : c ^ 4 = (c ^ 2) ^ 2 := by ring
    have a3 : c ^ 8 = (c ^ 2) ^ 4 := by ring
    have a4 : c ^ 10 = (c ^ 2) ^ 5 := by ring
    rw [a1, a2, a3, a4]
    generalize c ^ 2 = x at *
    have f1 : 1 / 720 - 91 / 360 * x + 7 / 6 * x ^ 2 - x ^ 3 ≤ 0.065 := by
      nlinarith [mul_nonneg hx (sq_nonneg (x - 0.63)), sq_nonneg (x - 0.63)]
    have f2 : -0.085 ≤ 1 / 720 - 91 / 360 * x + 7 / 6 * x ^ 2 - x ^ 3 := by
      nlinarith [mul_nonneg (sub_nonneg.2 hx1) (sq_nonneg (x - 0.13)), mul_nonneg hx (sub_nonneg.2 hx1)]
    have g1 : |-(1771 / 720) * x ^ 2 + 19 / 2 * x ^ 3 - 15 / 2 * x ^ 4| ≤ 1 := by
      have : -(1771 / 720) * x ^ 2 + 19 / 2 * x ^ 3 - 15 / 2 * x ^ 4
          = x ^ 2 * (-(1771 / 720) + 19 / 2 * x - 15 / 2 * x ^ 2) := by ring
      rw [this, abs_mul, abs_of_nonneg (sq_nonneg x)]
      by_cases hh : x ≤ 1 / 2
      · have k1 : x ^ 2 ≤ 1 / 4 := by nlinarith
        have k2 : |-(1771 / 720) + 19 / 2 * x - 15 / 2 * x ^ 2| ≤ 4 := by
          rw [abs_le]; constructor <;> nlinarith
        calc _ ≤ 1 / 4 * 4 := mul_le_mul k1 k2 (abs_nonneg _) (by norm_num)
          _ ≤ _ := by norm_num
      · have k1 : x ^ 2 ≤ 1 := by nlinarith
        have k2 : |-(1771 / 720) + 19 / 2 * x - 15 / 2 * x ^ 2| ≤ 1 := by
          rw [abs_le]; constructor <;> nlinarith [sq_nonneg (x - 19 / 30)]
        calc _ ≤ 1 * 1 := mul_le_mul k1 k2 (abs_nonneg _) (by norm_num)
          _ ≤ _ := by norm_num
    have n1 := mono hq hq1 hx hx1 2 3
    have n2 := mono hq hq1 hx hx1 2 4
    have n3 := mono hq hq1 hx hx1 2 5
    have g1' := abs_le.1 g1
    have g3 : |q * (-(1771 / 720) * x ^ 2 + 19 / 2 * x ^ 3 - 15 / 2 * x ^ 4)| ≤ 0.0067396 := by
      rw [abs_mul, abs_of_nonneg hq]
      calc _ ≤ 0.0067396 * 1 := mul_le_mul hq1 g1 (abs_nonneg _) (by norm_num)
        _ ≤ _ := by norm_num
    have g3' := abs_le.1 g3
    have e : q ^ 2 * (-(11 / 6) * x ^ 3 + 175 / 24 * x ^ 4 - 35 / 6 * x ^ 5)
        = -(11 / 6) * (q ^ 2 * x ^ 3) + 175 / 24 * (q ^ 2 * x ^ 4) - 35 / 6 * (q ^ 2 * x ^ 5) := by ring
    rw [e, abs_le]
    constructor <;> linarith [n1.1, n1.2, n2.1, n2.2, n3.1, n3.2]
  generalize q ^ 2 * (c ^ 6 * (8 / 3 - 77 / 24 * c ^ 2 + q * c ^ 2 - 7 / 6 * q * c ^ 4)) = A at *
  generalize 1 / 720 - 91 / 360 * c ^ 2 + 7 / 6 * c ^ 4 - c ^ 6
        + q * (-(1771 / 720) * c ^ 4 + 19 / 2 * c ^ 6 - 15 / 2 * c ^ 8)
        + q ^ 2 * (-(11 / 6) * c ^ 6 + 175 / 24 * c ^ 8 - 35 / 6 * c ^ 10) = B at *
  have hl4 : 0 ≤ l ^ 4 := by positivity
  have hl6 : 0 ≤ l ^ 6 := by positivity
  have e : 1 + l ^ 4 * A + l ^ 6 * B - 1 = l ^ 4 * A + l ^ 6 * B := by ring
  rw [e]
  refine (abs_add_le _ _).trans ?_
  rw [abs_mul, abs_mul, abs_of_nonneg hl4, abs_of_nonneg hl6]
  nlinarith

theorem abs_residual_K {q s c : ℝ} (hq : 0 ≤ q) (hq1 : q ≤ 0.0067396) (h : s ^ 2 = 1 - c ^ 2) (l : ℝ)
    (hl : |l| ≤ 0.11) :
    |eE q l c ^ 2 + (s * eN q l c) ^ 2 - pK q l c ^ 2| ≤ 0.00005 * l ^ 4 + 0.42 * l ^ 6 := by
  have hx : 0 ≤ c ^ 2 := sq_nonneg c
  have hx1 : c ^ 2 ≤ 1 := by nlinarith [sq_nonneg s]
  rw [residual_K q l s c h]
  have r4 := R4_bound hq hq1 hx hx1
  have r6 := abs_le.1 (R6_bound hq hq1 hx hx1)
  have r8 := abs_le.1 (R8_bound hq hq1 hx hx1)
  have r10 := abs_le.1 (R10_bound hq hq1 hx hx1)
  have r12 := abs_le.1 (R12_bound hq hq1 hx hx1)
  have hl2 : l ^ 2 ≤ 0.0121 := by
    have := sq_le_sq' (by linarith [abs_nonneg l]) hl
    rw [sq_abs] at this; linarith
  have hl2' : 0 ≤ l ^ 2 := sq_nonneg l
  have hl4 : l ^ 4 ≤ 0.000147 := by nlinarith
  have hl4' : 0 ≤ l ^ 4 := by positivity
  have hl6 : l ^ 6 ≤ 0.000002 := by nlinarith
  have hl6' : 0 ≤ l ^ 6 := by positivity
  have key : |R6 q (c ^ 2) + l ^ 2 * R8 q (c ^ 2) + l ^ 4 * R10 q (c ^ 2) + l ^ 6 * R12 q (c ^ 2)| ≤ 0.42 := by
    rw [abs_le]
    constructor <;> nlinarith
  refine (abs_add_le _ _).trans ?_
  rw [abs_mul, abs_mul, abs_of_nonneg hl4', abs_of_nonneg hl6']
  nlinarith

theorem pK_ge {q c : ℝ} (hq : 0 ≤ q) (hq1 : q ≤ 0.0067396) (hx1 : c ^ 2 ≤ 1) (l : ℝ)
    (hl : |l| ≤ 0.11) : 0.99 ≤ pK q l c := by
  have hx : 0 ≤ c ^ 2 := sq_nonneg c
  have hl2 : l ^ 2 ≤ 0.0121 := by
    have := sq_le_sq' (by linarith [abs_nonneg l]) hl
    rw [sq_abs] at this; linarith
  have hl2' : 0 ≤ l ^ 2 := sq_nonneg l
  have hl4 : l ^ 4 ≤ 0.000147 := by nlinarith
  have hl4' : 0 ≤ l ^ 4 := by positivity
  have hl6 : l ^ 6 ≤ 0.000002 := by nlinarith
  have hl6' : 0 ≤ l ^ 6 := by positivity
  have e : pK q l c = 1 + (1 + q * c ^ 2) * c ^ 2 * l ^ 2 / 2
      + l ^ 4 * ((9 * c ^ 4 - 4 * c ^ 2 + 42 * q * c ^ 6 + 13 * q ^ 2 * c ^ 8 - 28 * q * c ^ 4) / 24)
      + l ^ 6 * ((61 * c ^ 6 - 148 * (1 - c ^ 2) * c ^ 4 + 16 * (1 - c ^ 2) ^ 2 * c ^ 2) / 720) := by
    unfold pK; ring
  rw [e]
  have a1 : 0 ≤ (1 + q * c ^ 2) * c ^ 2 * l ^ 2 / 2 := by positivity
  have a2 : -1 ≤ (9 * c ^ 4 - 4 * c ^ 2 + 42 * q * c ^ 6 + 13 * q ^ 2 * c ^ 8 - 28 * q * c ^ 4) / 24 := by
    have : 0 ≤ 9 * c ^ 4 + 42 * q * c ^ 6 + 13 * q ^ 2 * c ^ 8 := by positivity
    have m := (mono hq hq1 hx hx1 1 2).2
    have : q * c ^ 4 = q ^ 1 * (c ^ 2) ^ 2 := by ring
    have : 28 * q * c ^ 4 ≤ 1 := by nlinarith
    linarith
  have a3 : -1 ≤ (61 * c ^ 6 - 148 * (1 - c ^ 2) * c ^ 4 + 16 * (1 - c ^ 2) ^ 2 * c ^ 2) / 720 := by
    have : 0 ≤ 61 * c ^ 6 + 16 * (1 - c ^ 2) ^ 2 * c ^ 2 := by positivity
    have : (1 - c ^ 2) * c ^ 4 ≤ 1 := by
      have : c ^ 4 ≤ 1 := by nlinarith
      nlinarith [sq_nonneg (c ^ 2)]
    linarith
  nlinarith

theorem scale_error {q s c : ℝ} (hq : 0 ≤ q) (hq1 : q ≤ 0.0067396) (h : s ^ 2 = 1 - c ^ 2) (l : ℝ)
    (hl : |l| ≤ 0.11) :
    |Real.sqrt (eE q l c ^ 2 + (s * eN q l c) ^ 2) - pK q l c| ≤ 0.0001 * l ^ 4 + 0.5 * l ^ 6 := by
  have h1 := abs_residual_K hq hq1 h l hl
  have h2 := pK_ge (c := c) hq hq1 (by nlinarith [sq_nonneg s]) l hl
  set r := Real.sqrt (eE q l c ^ 2 + (s * eN q l c) ^ 2) with hr
  have hr0 : 0 ≤ r := Real.sqrt_nonneg _
  have hr2 : r ^ 2 = eE q l c ^ 2 + (s * eN q l c) ^ 2 := Real.sq_sqrt (by positivity)
  rw [← hr2] at h1
  have e : r ^ 2 - pK q l c ^ 2 = (r - pK q l c) * (r + pK q l c) := by ring
  rw [e, abs_mul, abs_of_nonneg (show 0 ≤ r + pK q l c by linarith)] at h1
  have h3 : |r - pK q l c| * 0.99 ≤ |r - pK q l c| * (r + pK q l c) :=
    mul_le_mul_of_nonneg_left (by linarith) (abs_nonneg _)
  have hl4' : 0 ≤ l ^ 4 := by positivity
  have hl6' : 0 ≤ l ^ 6 := by positivity
  linarith

end Dis.Geo
