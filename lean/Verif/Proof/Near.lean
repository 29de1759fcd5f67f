import Verif.Proof.Rounding
import Verif.Proof.Rates

/-!
# Operations on approximations
-/

set_option exponentiation.threshold 4096

namespace Dis.Geo

theorem abs_sub_tri (a b c : ℝ) : |a - c| ≤ |a - b| + |b - c| := by
  have : a - c = (a - b) + (b - c) := by ring
  rw [this]; exact abs_add_le _ _

theorem mul_near {x y : F64} {a b e f : ℝ} (h : (F64.mul x y).Finite) (hx : |ofDouble x - a| ≤ e)
    (hy : |ofDouble y - b| ≤ f) :
    |ofDouble (F64.mul x y) - a * b|
      ≤ (1 + 1 / 2 ^ 53) * (e * |b| + |a| * f + e * f) + 1 / 2 ^ 53 * (|a| * |b|) + eta := by
  have h1 := val_mul' h
  generalize ofDouble (F64.mul x y) = r at *
  generalize ofDouble x = x at *
  generalize ofDouble y = y at *
  have he := (abs_nonneg _).trans hx
  have hf := (abs_nonneg _).trans hy
  have t1 : |x * y - a * b| ≤ e * |b| + |a| * f + e * f := by
    have i1 := abs_mul_sub_le a b x y
    have i2 : |x - a| * |y| ≤ e * (|b| + f) :=
      mul_le_mul hx (abs_le_of_near hy) (abs_nonneg _) he
    have i3 : |a| * |y - b| ≤ |a| * f := mul_le_mul_of_nonneg_left hy (abs_nonneg _)
    linarith
  have t2 := abs_sub_tri r (x * y) (a * b)
  have t3 := abs_le_of_near t1
  rw [abs_mul a b] at t3
  generalize |r - x * y| = A at *
  generalize |x * y - a * b| = B at *
  linarith

theorem add_near {x y : F64} {a b e f : ℝ} (h : (F64.add x y).Finite) (hx : |ofDouble x - a| ≤ e)
    (hy : |ofDouble y - b| ≤ f) :
    |ofDouble (F64.add x y) - (a + b)| ≤ (1 + 1 / 2 ^ 53) * (e + f) + 1 / 2 ^ 53 * |a + b| := by
  have h1 := val_add h
  generalize ofDouble (F64.add x y) = r at *
  generalize ofDouble x = x at *
  generalize ofDouble y = y at *
  have t1 : |x + y - (a + b)| ≤ e + f := by
    have : x + y - (a + b) = (x - a) + (y - b) := by ring
    rw [this]
    exact (abs_add_le _ _).trans (add_le_add hx hy)
  have t2 := abs_sub_tri r (x + y) (a + b)
  have t3 := abs_le_of_near t1
  generalize |r - (x + y)| = A at *
  linarith

theorem neg_near {x : F64} {a e : ℝ} (hx : |ofDouble x - a| ≤ e) : |ofDouble (F64.neg x) - -a| ≤ e := by
  rw [val_neg, ← abs_neg]
  have : -(-ofDouble x - -a) = ofDouble x - a := by ring
  rwa [this]

theorem sub_near {x y : F64} {a b e f : ℝ} (h : (F64.sub x y).Finite) (hx : |ofDouble x - a| ≤ e)
    (hy : |ofDouble y - b| ≤ f) :
    |ofDouble (F64.sub x y) - (a - b)| ≤ (1 + 1 / 2 ^ 53) * (e + f) + 1 / 2 ^ 53 * |a - b| := by
  rw [sub_eq_add_neg]
  exact add_near h hx (neg_near hy)

theorem div_near {x y : F64} {a b e : ℝ} (h : (F64.div x y).Finite) (hf : y.Finite)
    (hx : |ofDouble x - a| ≤ e) (hb : b ≠ 0) (hy : |ofDouble y - b| ≤ 1 / 2 ^ 51 * |b|) :
    |ofDouble (F64.div x y) - a / b|
      ≤ (1 + 1 / 2 ^ 49) * (e / |b|) + (1 / 2 ^ 51 + 1 / 2 ^ 52) * (|a| / |b|) + eta := by
  have h1 := val_div' h hf
  generalize ofDouble (F64.div x y) = r at *
  generalize ofDouble x = x at *
  generalize ofDouble y = y at *
  have he := (abs_nonneg _).trans hx
  have hB : 0 < |b| := abs_pos.2 hb
  have hY : (1 - 1 / 2 ^ 51) * |b| ≤ |y| := by
    have := abs_sub_tri b y 0
    rw [sub_zero, sub_zero, abs_sub_comm] at this
    linarith
  have hY0 : 0 < |y| := lt_of_lt_of_le (by positivity) hY
  have hy0 : y ≠ 0 := abs_pos.1 hY0
  have t1 : |x / y - a / b| ≤ (1 + 1 / 2 ^ 50) * ((e + 1 / 2 ^ 51 * |a|) / |b|) := by
    have e1 : x / y - a / b = ((x - a) - a * (y - b) / b) / y := by field_simp; ring
    rw [e1, abs_div, div_le_iff₀ hY0]
    have i1 : |(x - a) - a * (y - b) / b| ≤ e + 1 / 2 ^ 51 * |a| := by
      have i2 : |a * (y - b) / b| ≤ 1 / 2 ^ 51 * |a| := by
        rw [abs_div, abs_mul, div_le_iff₀ hB]
        calc |a| * |y - b| ≤ |a| * (1 / 2 ^ 51 * |b|) := mul_le_mul_of_nonneg_left hy (abs_nonneg _)
          _ = _ := by ring
      have i3 := abs_sub (x - a) (a * (y - b) / b)
      linarith
    refine i1.trans ?_
    have hE : 0 ≤ e + 1 / 2 ^ 51 * |a| := by positivity
    generalize e + 1 / 2 ^ 51 * |a| = E at *
    calc E ≤ (1 + 1 / 2 ^ 50) * (1 - 1 / 2 ^ 51) * E := by
          norm_num; linarith
      _ = (1 + 1 / 2 ^ 50) * (E / |b|) * ((1 - 1 / 2 ^ 51) * |b|) := by field_simp
      _ ≤ _ := mul_le_mul_of_nonneg_left hY (by positivity)
  have t2 := abs_sub_tri r (x / y) (a / b)
  have t3 := abs_le_of_near t1
  rw [abs_div a b] at t3
  rw [add_div, mul_div_assoc] at t1 t3
  have n1 : 0 ≤ e / |b| := by positivity
  have n2 : 0 ≤ |a| / |b| := by positivity
  generalize e / |b| = E at *
  generalize |a| / |b| = A at *
  generalize |x / y - a / b| = B at *
  generalize |r - x / y| = C at *
  generalize |x / y| = D at *
  norm_num at t1 t3 h1 ⊢
  linarith

/-! ## Finiteness -/

theorem mul_finite_of {x y : F64} (hx : x.Finite) (hy : y.Finite) (h : |ofDouble x * ofDouble y| ≤ 2 ^ 1000) :
    (F64.mul x y).Finite := by
  rw [F64.mul_finite_iff hx hy]
  have hU : (0 : ℝ) < 2 ^ 1074 := by positivity
  have e : ofDouble x * ofDouble y = (x.units * y.units : ℤ) / (2 ^ 1074 * 2 ^ 1074) := by
    unfold ofDouble
    push_cast
    field_simp
  rw [e, abs_div, abs_of_pos (by positivity : (0 : ℝ) < 2 ^ 1074 * 2 ^ 1074), div_le_iff₀ (by positivity),
    ← natAbs_cast] at h
  have h2 : (x.units * y.units).natAbs ≤ 2 ^ 1000 * (2 ^ 1074 * 2 ^ 1074) := by exact_mod_cast h
  have h3 : (2 ^ 1000 * (2 ^ 1074 * 2 ^ 1074) : ℕ) < (2 ^ 54 - 1) * 2 ^ (2044 + 1074) := by decide +kernel
  omega

theorem add_finite_of {x y : F64} (hx : x.Finite) (hy : y.Finite) (h : |ofDouble x + ofDouble y| ≤ 2 ^ 1000) :
    (F64.add x y).Finite := by
  rw [F64.add_finite_iff hx hy]
  have hU : (0 : ℝ) < 2 ^ 1074 := by positivity
  have e : ofDouble x + ofDouble y = (x.units + y.units : ℤ) / 2 ^ 1074 := by
    unfold ofDouble
    push_cast
    field_simp
  rw [e, abs_div, abs_of_pos hU, div_le_iff₀ hU, ← natAbs_cast] at h
  have h2 : (x.units + y.units).natAbs ≤ 2 ^ 1000 * 2 ^ 1074 := by exact_mod_cast h
  have h3 : (2 ^ 1000 * 2 ^ 1074 : ℕ) < (2 ^ 54 - 1) * 2 ^ 2044 := by decide +kernel
  omega

/-! ## Sines and cosines -/

theorem two_le_big : (3 : ℝ) ≤ 2 ^ 1000 :=
  (by norm_num : (3 : ℝ) ≤ 2 ^ 2).trans (pow_le_pow_right₀ (by norm_num) (by norm_num))

/-- A double close to a number of magnitude at most 1. -/
def Unit1 (x : F64) (a : ℝ) (k : ℝ) : Prop := x.Finite ∧ |a| ≤ 1 ∧ |ofDouble x - a| ≤ k / 2 ^ 52

theorem unit_trig {x : F64} {a : ℝ} (hx : x.Finite ∧ |ofDouble x - a| ≤ 1 / 2 ^ 52 * |a| + 1 / 2 ^ 1074)
    (ha : |a| ≤ 1) : Unit1 x a 2 := by
  refine ⟨hx.1, ha, hx.2.trans ?_⟩
  have := eta_le
  rw [eta_two]
  norm_num at *
  linarith

theorem Unit1.mul {x y : F64} {a b k l : ℝ} (hx : Unit1 x a k) (hy : Unit1 y b l) (hk : k ≤ 100) (hl : l ≤ 100) :
    Unit1 (F64.mul x y) (a * b) (k + l + 1) := by
  obtain ⟨f1, a1, e1⟩ := hx
  obtain ⟨f2, a2, e2⟩ := hy
  have ab : |a * b| ≤ 1 := by
    rw [abs_mul]; exact mul_le_one₀ a1 (abs_nonneg _) a2
  have k0 : 0 ≤ k := by
    have := (abs_nonneg _).trans e1
    rw [div_nonneg_iff] at this
    rcases this with h | h
    · exact h.1
    · exact absurd h.2 (by norm_num)
  have l0 : 0 ≤ l := by
    have := (abs_nonneg _).trans e2
    rw [div_nonneg_iff] at this
    rcases this with h | h
    · exact h.1
    · exact absurd h.2 (by norm_num)
  have hf : (F64.mul x y).Finite := by
    refine mul_finite_of f1 f2 ?_
    have h1 := abs_le_of_near e1
    have h2 := abs_le_of_near e2
    have h3 : |ofDouble x| ≤ 3 / 2 := by norm_num at *; linarith
    have h4 : |ofDouble y| ≤ 3 / 2 := by norm_num at *; linarith
    rw [abs_mul]
    calc _ ≤ (3 / 2 : ℝ) * (3 / 2) := mul_le_mul h3 h4 (abs_nonneg _) (by norm_num)
      _ ≤ 3 := by norm_num
      _ ≤ _ := two_le_big
  refine ⟨hf, ab, ?_⟩
  have h := mul_near hf e1 e2
  have i1 : k / 2 ^ 52 * |b| ≤ k / 2 ^ 52 * 1 := mul_le_mul_of_nonneg_left a2 (by positivity)
  have i2 : |a| * (l / 2 ^ 52) ≤ 1 * (l / 2 ^ 52) := mul_le_mul_of_nonneg_right a1 (by positivity)
  have i3 : k / 2 ^ 52 * (l / 2 ^ 52) ≤ k / 2 ^ 52 * (100 / 2 ^ 52) :=
    mul_le_mul_of_nonneg_left (by gcongr) (by positivity)
  rw [abs_mul] at ab
  have := eta_le
  generalize k / 2 ^ 52 * |b| = A at *
  generalize |a| * (l / 2 ^ 52) = B at *
  generalize k / 2 ^ 52 * (l / 2 ^ 52) = C at *
  generalize |a| * |b| = D at *
  norm_num at *
  linarith

theorem Unit1.add {x y : F64} {a b k l : ℝ} (hx : Unit1 x a k) (hy : Unit1 y b l) (hk : k ≤ 100) (hl : l ≤ 100)
    (hab : |a + b| ≤ 1) : Unit1 (F64.add x y) (a + b) (k + l + 1) := by
  obtain ⟨f1, a1, e1⟩ := hx
  obtain ⟨f2, a2, e2⟩ := hy
  have hf : (F64.add x y).Finite := by
    refine add_finite_of f1 f2 ?_
    have h1 := abs_le_of_near e1
    have h2 := abs_le_of_near e2
    have h3 : |ofDouble x| ≤ 3 / 2 := by norm_num at *; linarith
    have h4 : |ofDouble y| ≤ 3 / 2 := by norm_num at *; linarith
    refine (abs_add_le _ _).trans (le_trans ?_ two_le_big)
    linarith
  refine ⟨hf, hab, ?_⟩
  have h := add_near hf e1 e2
  norm_num at *
  linarith

theorem Unit1.neg {x : F64} {a k : ℝ} (hx : Unit1 x a k) : Unit1 (F64.neg x) (-a) k := by
  obtain ⟨f1, a1, e1⟩ := hx
  refine ⟨F64.neg_finite.2 f1, by rwa [abs_neg], neg_near e1⟩

theorem Unit1.sub {x y : F64} {a b k l : ℝ} (hx : Unit1 x a k) (hy : Unit1 y b l) (hk : k ≤ 100) (hl : l ≤ 100)
    (hab : |a - b| ≤ 1) : Unit1 (F64.sub x y) (a - b) (k + l + 1) := by
  rw [sub_eq_add_neg] at hab ⊢
  exact hx.add hy.neg hk hl hab

theorem Unit1.mono {x : F64} {a k l : ℝ} (hx : Unit1 x a k) (h : k ≤ l) : Unit1 x a l :=
  ⟨hx.1, hx.2.1, hx.2.2.trans (by gcongr)⟩

end Dis.Geo
