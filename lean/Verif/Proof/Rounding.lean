import Verif.Proof.ArithReal
import Verif.Spec.Platform

/-!
# Rounding errors of the dead-reckoning formulas
-/

set_option exponentiation.threshold 4096

namespace Dis.Geo

/-- Half the smallest subnormal double. -/
noncomputable def eta : ℝ := 1 / 2 ^ 1075

theorem eta_pos : 0 < eta := by unfold eta; positivity

theorem eta_le : eta ≤ 1 / 2 ^ 100 := by
  unfold eta
  exact one_div_le_one_div_of_le (by positivity) (pow_le_pow_right₀ (by norm_num) (by norm_num))

theorem eta_two : (1 : ℝ) / 2 ^ 1074 = 2 * eta := by
  unfold eta
  rw [pow_succ' 2 1074]
  generalize (2 : ℝ) ^ 1074 = U
  by_cases h : U = 0
  · subst h; simp
  · field_simp

theorem eta_pow (k : ℕ) (hk : k ≤ 1075) : (1 : ℝ) / 2 ^ (1075 - k) = 2 ^ k * eta := by
  unfold eta
  have : (2 : ℝ) ^ 1075 = 2 ^ (1075 - k) * 2 ^ k := by
    rw [← pow_add]
    congr 1
    omega
  rw [this]
  have h1 : (0 : ℝ) < 2 ^ (1075 - k) := by positivity
  have h2 : (0 : ℝ) < 2 ^ k := by positivity
  generalize (2 : ℝ) ^ (1075 - k) = U at *
  generalize (2 : ℝ) ^ k = V at *
  field_simp

theorem val_mul' {x y : F64} (h : (F64.mul x y).Finite) :
    |ofDouble (F64.mul x y) - ofDouble x * ofDouble y| ≤ 1 / 2 ^ 53 * |ofDouble x * ofDouble y| + eta := by
  refine (val_mul h).trans (max_le ?_ ?_)
  · exact le_add_of_nonneg_right eta_pos.le
  · exact le_add_of_nonneg_left (by positivity)

theorem val_div' {x y : F64} (h : (F64.div x y).Finite) (hy : y.Finite) :
    |ofDouble (F64.div x y) - ofDouble x / ofDouble y| ≤ 1 / 2 ^ 53 * |ofDouble x / ofDouble y| + eta := by
  refine (val_div h hy).trans (max_le ?_ ?_)
  · exact le_add_of_nonneg_right eta_pos.le
  · exact le_add_of_nonneg_left (by positivity)

/-- `p + v * t` in doubles. -/
theorem madd_error {p v t : F64} (h : (F64.add p (F64.mul v t)).Finite) :
    |ofDouble (F64.add p (F64.mul v t)) - (ofDouble p + ofDouble v * ofDouble t)|
      ≤ 1 / 2 ^ 53 * |ofDouble p + ofDouble v * ofDouble t| + 1 / 2 ^ 52 * |ofDouble v * ofDouble t|
        + 2 * eta := by
  have h1 := val_add h
  have h2 := val_mul' (F64.add_finite h).2.1
  have h0 := eta_pos
  generalize ofDouble (F64.add p (F64.mul v t)) = r at *
  generalize ofDouble (F64.mul v t) = m at *
  generalize ofDouble v * ofDouble t = w at *
  generalize ofDouble p = q at *
  have t1 : |r - (q + w)| ≤ |r - (q + m)| + |m - w| := by
    have : r - (q + w) = (r - (q + m)) + (m - w) := by ring
    rw [this]; exact abs_add_le _ _
  have t2 : |q + m| ≤ |q + w| + |m - w| := by
    have : q + m = (q + w) + (m - w) := by ring
    rw [this]; exact abs_add_le _ _
  have := abs_nonneg w
  linarith

/-- Product of approximations. -/
theorem abs_mul_sub_le (a b a' b' : ℝ) : |a' * b' - a * b| ≤ |a' - a| * |b'| + |a| * |b' - b| := by
  have : a' * b' - a * b = (a' - a) * b' + a * (b' - b) := by ring
  rw [this]
  refine (abs_add_le _ _).trans ?_
  rw [abs_mul, abs_mul]

theorem abs_le_of_near {a a' e : ℝ} (h : |a' - a| ≤ e) : |a'| ≤ |a| + e := by
  have : |a'| ≤ |a| + |a' - a| := by
    have : a' = a + (a' - a) := by ring
    calc |a'| = |a + (a' - a)| := by rw [← this]
      _ ≤ _ := abs_add_le _ _
  linarith

theorem val_half : ofDouble Dbl.half = 1 / 2 := by
  have : Dbl.half.units = 2 ^ 1073 := by decide +kernel
  unfold ofDouble
  rw [this, Int.cast_pow, pow_succ' 2 1073]
  have h : (0 : ℝ) < 2 ^ 1073 := by positivity
  rw [Int.cast_ofNat]
  generalize (2 : ℝ) ^ 1073 = U at *
  field_simp

/-- `0.5 * a * t²` in doubles, `q` standing for the computed square. -/
theorem accel_error {a q : F64} {T : ℝ} (hq : |ofDouble q - T ^ 2| ≤ 1 / 2 ^ 52 * T ^ 2 + 1 / 2 ^ 1074)
    (h : (F64.mul (F64.mul Dbl.half a) q).Finite) :
    |ofDouble (F64.mul (F64.mul Dbl.half a) q) - ofDouble a * T ^ 2 / 2|
      ≤ 9 / 2 ^ 54 * |ofDouble a * T ^ 2 / 2| + 2 * eta * (1 + |ofDouble a| + T ^ 2) := by
  have h1 := val_mul' h
  have h2 := val_mul' (F64.mul_finite h).1
  have h0 := eta_pos
  have h00 := eta_le
  rw [eta_two] at hq
  rw [val_half] at h2
  generalize ofDouble (F64.mul (F64.mul Dbl.half a) q) = r at *
  generalize ofDouble (F64.mul Dbl.half a) = b at *
  generalize ofDouble q = s at *
  generalize ofDouble a = A at *
  have hT : 0 ≤ T ^ 2 := sq_nonneg T
  generalize T ^ 2 = Y at *
  have e1 : A * Y / 2 = (1 / 2 * A) * Y := by ring
  have e2 : |A| = 2 * |1 / 2 * A| := by rw [abs_mul, abs_of_pos (by norm_num : (0 : ℝ) < 1 / 2)]; ring
  rw [e1, e2, abs_mul, abs_of_nonneg hT]
  generalize 1 / 2 * A = Z at *
  have t1 := abs_mul_sub_le Z Y b s
  have t2 : |r - Z * Y| ≤ |r - b * s| + |b * s - Z * Y| := by
    have : r - Z * Y = (r - b * s) + (b * s - Z * Y) := by ring
    rw [this]; exact abs_add_le _ _
  have t3 := abs_le_of_near hq
  rw [abs_of_nonneg hT] at t3
  have t4 : |b * s| ≤ |Z * Y| + |b * s - Z * Y| := abs_le_of_near le_rfl
  rw [abs_mul Z, abs_of_nonneg hT] at t4
  have hZ := abs_nonneg Z
  have b1 : |b - Z| * |s| ≤ (1 / 2 ^ 53 * |Z| + eta) * (Y + (1 / 2 ^ 52 * Y + 2 * eta)) :=
    mul_le_mul h2 t3 (abs_nonneg _) (by positivity)
  have b2 : |Z| * |s - Y| ≤ |Z| * (1 / 2 ^ 52 * Y + 2 * eta) := mul_le_mul_of_nonneg_left hq hZ
  have n1 : 0 ≤ |Z| * Y := mul_nonneg hZ hT
  have n2 : 0 ≤ eta * |Z| := mul_nonneg h0.le hZ
  have n3 : 0 ≤ eta * Y := mul_nonneg h0.le hT
  have n4 : eta * eta ≤ 1 / 2 ^ 100 * eta := mul_le_mul_of_nonneg_right h00 h0.le
  have x1 : (1 / 2 ^ 53 * |Z| + eta) * (Y + (1 / 2 ^ 52 * Y + 2 * eta))
      = 1 / 2 ^ 53 * (1 + 1 / 2 ^ 52) * (|Z| * Y) + 1 / 2 ^ 52 * (eta * |Z|) + (1 + 1 / 2 ^ 52) * (eta * Y)
        + 2 * (eta * eta) := by ring
  have x2 : |Z| * (1 / 2 ^ 52 * Y + 2 * eta) = 1 / 2 ^ 52 * (|Z| * Y) + 2 * (eta * |Z|) := by ring
  have x3 : 2 * eta * (1 + 2 * |Z| + Y) = 2 * eta + 4 * (eta * |Z|) + 2 * (eta * Y) := by ring
  rw [x3]
  rw [x1] at b1
  rw [x2] at b2
  generalize |Z| * Y = X at *
  generalize eta * |Z| = E at *
  generalize eta * Y = F at *
  generalize eta * eta = G at *
  generalize |b * s - Z * Y| = D at *
  generalize |r - b * s| = D2 at *
  generalize |b * s| = D3 at *
  generalize |b - Z| * |s| = D4 at *
  generalize |Z| * |s - Y| = D5 at *
  norm_num at *
  linarith

/-- `p + v * t + 0.5 * a * t²` in doubles. -/
theorem fvw_error {p v a t q : F64}
    (hq : |ofDouble q - ofDouble t ^ 2| ≤ 1 / 2 ^ 52 * ofDouble t ^ 2 + 1 / 2 ^ 1074)
    (h : (F64.add (F64.add p (F64.mul v t)) (F64.mul (F64.mul Dbl.half a) q)).Finite) :
    |ofDouble (F64.add (F64.add p (F64.mul v t)) (F64.mul (F64.mul Dbl.half a) q))
        - (ofDouble p + ofDouble v * ofDouble t + ofDouble a * ofDouble t ^ 2 / 2)|
      ≤ 1 / 2 ^ 50 * (|ofDouble p| + |ofDouble v * ofDouble t| + |ofDouble a * ofDouble t ^ 2 / 2|)
        + 8 * eta * (1 + |ofDouble a| + ofDouble t ^ 2) := by
  have h1 := val_add h
  have h2 := madd_error (F64.add_finite h).1
  have h3 := accel_error hq (F64.add_finite h).2.1
  have h0 := eta_pos
  have hT : 0 ≤ ofDouble t ^ 2 := sq_nonneg _
  generalize ofDouble (F64.add (F64.add p (F64.mul v t)) (F64.mul (F64.mul Dbl.half a) q)) = r at *
  generalize ofDouble (F64.add p (F64.mul v t)) = e at *
  generalize ofDouble (F64.mul (F64.mul Dbl.half a) q) = f at *
  generalize ofDouble v * ofDouble t = w at *
  generalize ofDouble a * ofDouble t ^ 2 / 2 = x at *
  generalize ofDouble p = p at *
  have t1 : |r - (p + w + x)| ≤ |r - (e + f)| + |e - (p + w)| + |f - x| := by
    have : r - (p + w + x) = (r - (e + f)) + (e - (p + w)) + (f - x) := by ring
    rw [this]; exact abs_add_three _ _ _
  have t2 : |e + f| ≤ |p + w| + |x| + |e - (p + w)| + |f - x| := by
    have : e + f = ((p + w) + x) + ((e - (p + w)) + (f - x)) := by ring
    rw [this]
    have i1 := abs_add_le ((p + w) + x) ((e - (p + w)) + (f - x))
    have i2 := abs_add_le (p + w) x
    have i3 := abs_add_le (e - (p + w)) (f - x)
    linarith
  have t3 : |p + w| ≤ |p| + |w| := abs_add_le _ _
  have k1 : 0 ≤ eta * (1 + |ofDouble a| + ofDouble t ^ 2) := by positivity
  have k2 : eta ≤ eta * (1 + |ofDouble a| + ofDouble t ^ 2) := by
    have := mul_le_mul_of_nonneg_left (show (1 : ℝ) ≤ 1 + |ofDouble a| + ofDouble t ^ 2 by
      have := abs_nonneg (ofDouble a); linarith) h0.le
    linarith
  rw [mul_assoc 8 eta]
  rw [mul_assoc 2 eta] at h3
  have n1 := abs_nonneg p
  have n2 := abs_nonneg w
  have n3 := abs_nonneg x
  generalize eta * (1 + |ofDouble a| + ofDouble t ^ 2) = K at *
  generalize |p + w| = A1 at *
  generalize |p| = A2 at *
  generalize |w| = A3 at *
  generalize |x| = A4 at *
  norm_num at *
  linarith

end Dis.Geo
