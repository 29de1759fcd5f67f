import Verif.Proof.Body

/-!
# The Euler rates in doubles
-/

set_option exponentiation.threshold 4096

namespace Dis.Geo

theorem self_near (x : ℝ) : |x - x| ≤ 0 := by rw [sub_self, abs_zero]

/-- `q * s + r * c`, with errors in `s` and `c`. -/
theorem swing_near {q s r c : F64} {S C : ℝ} (hs : Unit1 s S 2) (hc : Unit1 c C 2)
    (h : (F64.add (F64.mul q s) (F64.mul r c)).Finite) :
    |ofDouble (F64.add (F64.mul q s) (F64.mul r c)) - (ofDouble q * S + ofDouble r * C)|
        ≤ 1 / 2 ^ 50 * (|ofDouble q| + |ofDouble r|) + 3 * eta ∧
    |ofDouble q * S + ofDouble r * C| ≤ |ofDouble q| + |ofDouble r| := by
  obtain ⟨-, s1, s2⟩ := hs
  obtain ⟨-, c1, c2⟩ := hc
  have h1 := mul_near (F64.add_finite h).1 (self_near (ofDouble q)) s2
  have h2 := mul_near (F64.add_finite h).2.1 (self_near (ofDouble r)) c2
  have h3 := add_near h h1 h2
  have q0 := abs_nonneg (ofDouble q)
  have r0 := abs_nonneg (ofDouble r)
  have i1 : |ofDouble q| * |S| ≤ |ofDouble q| * 1 := mul_le_mul_of_nonneg_left s1 q0
  have i2 : |ofDouble r| * |C| ≤ |ofDouble r| * 1 := mul_le_mul_of_nonneg_left c1 r0
  have i3 : |ofDouble q * S + ofDouble r * C| ≤ |ofDouble q| + |ofDouble r| := by
    refine (abs_add_le _ _).trans ?_
    rw [abs_mul, abs_mul]
    linarith
  have h0 := eta_pos
  refine ⟨?_, i3⟩
  generalize |ofDouble q * S + ofDouble r * C| = A at *
  generalize |ofDouble q| * |S| = B at *
  generalize |ofDouble r| * |C| = D at *
  generalize |ofDouble q| = Q at *
  generalize |ofDouble r| = R at *
  norm_num at h3 ⊢
  linarith

theorem swing_sub_near {q s r c : F64} {S C : ℝ} (hs : Unit1 s S 2) (hc : Unit1 c C 2)
    (h : (F64.sub (F64.mul q s) (F64.mul r c)).Finite) :
    |ofDouble (F64.sub (F64.mul q s) (F64.mul r c)) - (ofDouble q * S - ofDouble r * C)|
        ≤ 1 / 2 ^ 50 * (|ofDouble q| + |ofDouble r|) + 3 * eta ∧
    |ofDouble q * S - ofDouble r * C| ≤ |ofDouble q| + |ofDouble r| := by
  obtain ⟨-, s1, s2⟩ := hs
  obtain ⟨-, c1, c2⟩ := hc
  have h1 := mul_near (F64.add_finite h).1 (self_near (ofDouble q)) s2
  have h2 := mul_near (F64.neg_finite.1 (F64.add_finite h).2.1) (self_near (ofDouble r)) c2
  have h3 := sub_near h h1 h2
  have q0 := abs_nonneg (ofDouble q)
  have r0 := abs_nonneg (ofDouble r)
  have i1 : |ofDouble q| * |S| ≤ |ofDouble q| * 1 := mul_le_mul_of_nonneg_left s1 q0
  have i2 : |ofDouble r| * |C| ≤ |ofDouble r| * 1 := mul_le_mul_of_nonneg_left c1 r0
  have i3 : |ofDouble q * S - ofDouble r * C| ≤ |ofDouble q| + |ofDouble r| := by
    refine (abs_sub _ _).trans ?_
    rw [abs_mul, abs_mul]
    linarith
  have h0 := eta_pos
  refine ⟨?_, i3⟩
  generalize |ofDouble q * S - ofDouble r * C| = A at *
  generalize |ofDouble q| * |S| = B at *
  generalize |ofDouble r| * |C| = D at *
  generalize |ofDouble q| = Q at *
  generalize |ofDouble r| = R at *
  norm_num at h3 ⊢
  linarith

/-- `theta + d_theta * dt`. -/
theorem theta_near {o d t : F64} {D S : ℝ} (hd : |ofDouble d - D| ≤ 1 / 2 ^ 50 * S + 3 * eta) (hD : |D| ≤ S)
    (h : (F64.add o (F64.mul d t)).Finite) :
    |ofDouble (F64.add o (F64.mul d t)) - (ofDouble o + D * ofDouble t)|
      ≤ 1 / 2 ^ 53 * |ofDouble o| + 1 / 2 ^ 49 * (S * |ofDouble t|) + 4 * eta * (1 + |ofDouble t|) := by
  have h1 := madd_near h hd
  have h0 := eta_pos
  have t0 := abs_nonneg (ofDouble t)
  have S0 := (abs_nonneg _).trans hD
  have i1 : |D| * |ofDouble t| ≤ S * |ofDouble t| := mul_le_mul_of_nonneg_right hD t0
  have i2 : 0 ≤ S * |ofDouble t| := mul_nonneg S0 t0
  have i3 : 0 ≤ eta * |ofDouble t| := mul_nonneg h0.le t0
  have x1 : (1 / 2 ^ 50 * S + 3 * eta) * |ofDouble t| = 1 / 2 ^ 50 * (S * |ofDouble t|) + 3 * (eta * |ofDouble t|) := by
    ring
  have x2 : 4 * eta * (1 + |ofDouble t|) = 4 * eta + 4 * (eta * |ofDouble t|) := by ring
  rw [x1] at h1
  rw [x2]
  generalize |D| * |ofDouble t| = A at *
  generalize S * |ofDouble t| = B at *
  generalize eta * |ofDouble t| = E at *
  norm_num at h1 ⊢
  linarith

/-- `psi + d_psi * dt`, where `d_psi = u / c`. -/
theorem psi_near {o u c t : F64} {U C S : ℝ} (hu : |ofDouble u - U| ≤ 1 / 2 ^ 50 * S + 3 * eta) (hU : |U| ≤ S)
    (hcf : c.Finite) (hc : |ofDouble c - C| ≤ 1 / 2 ^ 51 * |C|) (hC : C ≠ 0) (hC1 : |C| ≤ 1)
    (h : (F64.add o (F64.mul (F64.div u c) t)).Finite) :
    |ofDouble (F64.add o (F64.mul (F64.div u c) t)) - (ofDouble o + U / C * ofDouble t)|
      ≤ 1 / 2 ^ 53 * |ofDouble o| + 1 / 2 ^ 48 * (S / |C| * |ofDouble t|)
        + 8 * eta * (1 + |ofDouble t| / |C|) := by
  have hd := (F64.mul_finite (F64.add_finite h).2.1).1
  have h1 := div_near hd hcf hu hC hc
  have hC0 : 0 < |C| := abs_pos.2 hC
  have h0 := eta_pos
  have S0 := (abs_nonneg _).trans hU
  have h2 : |ofDouble (F64.div u c) - U / C| ≤ 1 / 2 ^ 49 * (S / |C|) + 5 * (eta / |C|) := by
    have i1 : |U| / |C| ≤ S / |C| := div_le_div_of_nonneg_right hU hC0.le
    have i2 : (1 / 2 ^ 50 * S + 3 * eta) / |C| = 1 / 2 ^ 50 * (S / |C|) + 3 * (eta / |C|) := by ring
    have i3 : eta ≤ eta / |C| := by
      rw [le_div_iff₀ hC0]
      exact mul_le_of_le_one_right h0.le hC1
    have i4 : 0 ≤ S / |C| := by positivity
    rw [i2] at h1
    generalize |U| / |C| = A at *
    generalize S / |C| = B at *
    generalize eta / |C| = E at *
    norm_num at h1 ⊢
    linarith
  have h3 := madd_near h h2
  have t0 := abs_nonneg (ofDouble t)
  have i1 : |U / C| * |ofDouble t| ≤ S / |C| * |ofDouble t| := by
    rw [abs_div]
    exact mul_le_mul_of_nonneg_right (div_le_div_of_nonneg_right hU hC0.le) t0
  have i2 : 0 ≤ S / |C| * |ofDouble t| := by positivity
  have x1 : (1 / 2 ^ 49 * (S / |C|) + 5 * (eta / |C|)) * |ofDouble t|
      = 1 / 2 ^ 49 * (S / |C| * |ofDouble t|) + 5 * (eta * (|ofDouble t| / |C|)) := by ring
  have x2 : 8 * eta * (1 + |ofDouble t| / |C|) = 8 * eta + 8 * (eta * (|ofDouble t| / |C|)) := by ring
  have i3 : 0 ≤ eta * (|ofDouble t| / |C|) := mul_nonneg h0.le (div_nonneg t0 hC0.le)
  rw [x1] at h3
  rw [x2]
  generalize |U / C| * |ofDouble t| = A at *
  generalize S / |C| * |ofDouble t| = B at *
  generalize eta * (|ofDouble t| / |C|) = E at *
  norm_num at h3 ⊢
  linarith

/-- `phi + d_phi * dt`, where `d_phi = p + u * tan`. -/
theorem phi_near {o p u y t : F64} {U Y S : ℝ} (hu : |ofDouble u - U| ≤ 1 / 2 ^ 50 * S + 3 * eta)
    (hU : |U| ≤ S) (hy : |ofDouble y - Y| ≤ 1 / 2 ^ 52 * |Y| + 1 / 2 ^ 1074)
    (h : (F64.add o (F64.mul (F64.add p (F64.mul u y)) t)).Finite) :
    |ofDouble (F64.add o (F64.mul (F64.add p (F64.mul u y)) t))
        - (ofDouble o + (ofDouble p + U * Y) * ofDouble t)|
      ≤ 1 / 2 ^ 53 * |ofDouble o| + 1 / 2 ^ 50 * (|ofDouble p| * |ofDouble t|)
        + 1 / 2 ^ 48 * (S * |Y| * |ofDouble t|)
        + 8 * eta * (1 + |ofDouble t| * (1 + S + |Y|)) := by
  rw [eta_two] at hy
  have hs := (F64.mul_finite (F64.add_finite h).2.1).1
  have hm := (F64.add_finite hs).2.1
  have h1 := mul_near hm hu hy
  have h0 := eta_pos
  have h00 := eta_le
  have S0 := (abs_nonneg _).trans hU
  have Y0 := abs_nonneg Y
  have t0 := abs_nonneg (ofDouble t)
  have p0 := abs_nonneg (ofDouble p)
  have h2 : |ofDouble (F64.mul u y) - U * Y|
      ≤ (1 / 2 ^ 50 + 1 / 2 ^ 52 + 1 / 2 ^ 52) * (S * |Y|) + 4 * (eta * |Y|) + 3 * (eta * S) + 2 * eta := by
    have i1 : |U| * (1 / 2 ^ 52 * |Y| + 2 * eta) ≤ S * (1 / 2 ^ 52 * |Y| + 2 * eta) :=
      mul_le_mul_of_nonneg_right hU (by positivity)
    have i2 : |U| * |Y| ≤ S * |Y| := mul_le_mul_of_nonneg_right hU Y0
    have x1 : (1 / 2 ^ 50 * S + 3 * eta) * |Y| = 1 / 2 ^ 50 * (S * |Y|) + 3 * (eta * |Y|) := by ring
    have x2 : S * (1 / 2 ^ 52 * |Y| + 2 * eta) = 1 / 2 ^ 52 * (S * |Y|) + 2 * (eta * S) := by ring
    have x3 : (1 / 2 ^ 50 * S + 3 * eta) * (1 / 2 ^ 52 * |Y| + 2 * eta)
        = 1 / 2 ^ 50 * (1 / 2 ^ 52) * (S * |Y|) + 2 / 2 ^ 50 * (eta * S) + 3 / 2 ^ 52 * (eta * |Y|)
          + 6 * (eta * eta) := by ring
    have i3 : eta * eta ≤ 1 / 2 ^ 100 * eta := mul_le_mul_of_nonneg_right h00 h0.le
    have n1 : 0 ≤ S * |Y| := mul_nonneg S0 Y0
    have n2 : 0 ≤ eta * S := mul_nonneg h0.le S0
    have n3 : 0 ≤ eta * |Y| := mul_nonneg h0.le Y0
    rw [x1, x3] at h1
    rw [x2] at i1
    generalize |U| * (1 / 2 ^ 52 * |Y| + 2 * eta) = A at *
    generalize |U| * |Y| = B at *
    generalize S * |Y| = D at *
    generalize eta * S = E at *
    generalize eta * |Y| = F at *
    generalize eta * eta = G at *
    norm_num at h1 i3 i1 ⊢
    linarith
  have h3 := add_near hs (self_near (ofDouble p)) h2
  have hUY : |U * Y| ≤ S * |Y| := by
    rw [abs_mul]; exact mul_le_mul_of_nonneg_right hU Y0
  have hpU := abs_add_le (ofDouble p) (U * Y)
  have h4 : |ofDouble (F64.add p (F64.mul u y)) - (ofDouble p + U * Y)|
      ≤ 1 / 2 ^ 53 * |ofDouble p| + 7 / 2 ^ 52 * (S * |Y|) + 5 * (eta * |Y|) + 4 * (eta * S) + 3 * eta := by
    have n1 : 0 ≤ S * |Y| := mul_nonneg S0 Y0
    have n2 : 0 ≤ eta * S := mul_nonneg h0.le S0
    have n3 : 0 ≤ eta * |Y| := mul_nonneg h0.le Y0
    generalize |ofDouble p + U * Y| = A at *
    generalize |U * Y| = B at *
    generalize S * |Y| = D at *
    generalize eta * S = E at *
    generalize eta * |Y| = F at *
    norm_num at h3 ⊢
    linarith
  have h5 := madd_near h h4
  have i1 : |ofDouble p + U * Y| * |ofDouble t| ≤ |ofDouble p| * |ofDouble t| + S * |Y| * |ofDouble t| := by
    rw [← add_mul]
    exact mul_le_mul_of_nonneg_right (by linarith) t0
  have x1 : (1 / 2 ^ 53 * |ofDouble p| + 7 / 2 ^ 52 * (S * |Y|) + 5 * (eta * |Y|) + 4 * (eta * S) + 3 * eta) * |ofDouble t|
      = 1 / 2 ^ 53 * (|ofDouble p| * |ofDouble t|) + 7 / 2 ^ 52 * (S * |Y| * |ofDouble t|)
        + 5 * (eta * |Y| * |ofDouble t|) + 4 * (eta * S * |ofDouble t|) + 3 * (eta * |ofDouble t|) := by ring
  have x2 : 8 * eta * (1 + |ofDouble t| * (1 + S + |Y|))
      = 8 * eta + 8 * (eta * |ofDouble t|) + 8 * (eta * S * |ofDouble t|) + 8 * (eta * |Y| * |ofDouble t|) := by ring
  have n1 : 0 ≤ |ofDouble p| * |ofDouble t| := mul_nonneg p0 t0
  have n2 : 0 ≤ S * |Y| * |ofDouble t| := by positivity
  have n3 : 0 ≤ eta * |Y| * |ofDouble t| := by positivity
  have n4 : 0 ≤ eta * S * |ofDouble t| := by positivity
  have n5 : 0 ≤ eta * |ofDouble t| := by positivity
  rw [x1] at h5
  rw [x2]
  generalize |ofDouble p + U * Y| * |ofDouble t| = A at *
  generalize |ofDouble p| * |ofDouble t| = B at *
  generalize S * |Y| * |ofDouble t| = D at *
  generalize eta * |Y| * |ofDouble t| = E at *
  generalize eta * S * |ofDouble t| = F at *
  generalize eta * |ofDouble t| = G at *
  norm_num at h5 ⊢
  linarith

/-! ## The threshold -/

theorem le_of_absLt {x c : F64} (h : F64.absLt x c = true) : |ofDouble x| ≤ |ofDouble c| := by
  unfold F64.absLt at h
  rw [decide_eq_true_iff] at h
  have h1 := mag64_mono h.le
  rw [← F64.mag_eq, ← F64.mag_eq, ← F64.units_abs, ← F64.units_abs] at h1
  unfold ofDouble
  have hU : (0 : ℝ) < 2 ^ 1074 := by positivity
  rw [abs_div, abs_div, abs_of_pos hU, div_le_div_iff_of_pos_right hU, ← natAbs_cast, ← natAbs_cast]
  exact Nat.cast_le.2 h1

theorem le_of_not_absLt {x c : F64} (h : F64.absLt x c = false) : |ofDouble c| ≤ |ofDouble x| := by
  unfold F64.absLt at h
  rw [decide_eq_false_iff_not] at h
  have h1 := mag64_mono (Nat.le_of_not_lt h)
  rw [← F64.mag_eq, ← F64.mag_eq, ← F64.units_abs, ← F64.units_abs] at h1
  unfold ofDouble
  have hU : (0 : ℝ) < 2 ^ 1074 := by positivity
  rw [abs_div, abs_div, abs_of_pos hU, div_le_div_iff_of_pos_right hU, ← natAbs_cast, ← natAbs_cast]
  exact Nat.cast_le.2 h1

/-- The literal `1e-6`. -/
theorem gimbal_val : 1 / 10 ^ 6 * (1 - 1 / 2 ^ 53) ≤ |ofDouble Dbl.gimbal| ∧
    |ofDouble Dbl.gimbal| ≤ 1 / 10 ^ 6 * (1 + 1 / 2 ^ 53) := by
  have h1 : (2 ^ 53 - 1) * 2 ^ 1074 ≤ 2 ^ 53 * (10 ^ 6 * Dbl.gimbal.mag) := by decide +kernel
  have h2 : 2 ^ 53 * (10 ^ 6 * Dbl.gimbal.mag) ≤ (2 ^ 53 + 1) * 2 ^ 1074 := by decide +kernel
  have e : |ofDouble Dbl.gimbal| = Dbl.gimbal.mag / 2 ^ 1074 := by
    unfold ofDouble
    rw [abs_div, abs_of_pos (by positivity : (0 : ℝ) < 2 ^ 1074), ← natAbs_cast, F64.units_abs]
  rw [e]
  have hU : (0 : ℝ) < 2 ^ 1074 := by positivity
  have h1' : ((2 : ℝ) ^ 53 - 1) * 2 ^ 1074 ≤ 2 ^ 53 * (10 ^ 6 * Dbl.gimbal.mag) := by
    have := (Nat.cast_le (α := ℝ)).2 h1
    rw [Nat.cast_mul, Nat.cast_mul, Nat.cast_mul, Nat.cast_pow, Nat.cast_pow, Nat.cast_pow, Nat.cast_sub (by norm_num),
      Nat.cast_pow] at this
    exact_mod_cast this
  have h2' : (2 : ℝ) ^ 53 * (10 ^ 6 * Dbl.gimbal.mag) ≤ (2 ^ 53 + 1) * 2 ^ 1074 := by
    have := (Nat.cast_le (α := ℝ)).2 h2
    rw [Nat.cast_mul, Nat.cast_mul, Nat.cast_mul, Nat.cast_pow, Nat.cast_pow, Nat.cast_pow, Nat.cast_add,
      Nat.cast_pow] at this
    exact_mod_cast this
  generalize (Dbl.gimbal.mag : ℝ) = G at *
  generalize (2 : ℝ) ^ 1074 = U at *
  rw [le_div_iff₀ hU, div_le_iff₀ hU]
  constructor <;> norm_num at * <;> linarith

theorem regular_branch {P : Dbl.Platform} (hT : P.TrigOk) {x : F64} (hx : x.Finite)
    (h : 1 / 10 ^ 6 * (1 + 1 / 2 ^ 50) ≤ |Real.cos (ofDouble x)|) :
    F64.absLt (P.cos x) Dbl.gimbal = false := by
  rw [Bool.eq_false_iff]
  intro hb
  have h1 := le_of_absLt hb
  have h2 := gimbal_val.2
  have h3 := (hT.cos x hx).2
  rw [abs_sub_comm] at h3
  have h4 := abs_le_of_near h3
  rw [eta_two] at h4
  have := eta_le
  generalize |ofDouble (P.cos x)| = A at *
  generalize |Real.cos (ofDouble x)| = B at *
  norm_num at *
  linarith

theorem gimbal_branch {P : Dbl.Platform} (hT : P.TrigOk) {x : F64} (hx : x.Finite)
    (h : |Real.cos (ofDouble x)| ≤ 1 / 10 ^ 6 * (1 - 1 / 2 ^ 50)) :
    F64.absLt (P.cos x) Dbl.gimbal = true := by
  by_contra hb
  have h1 := le_of_not_absLt (Bool.eq_false_iff.2 hb)
  have h2 := gimbal_val.1
  have h3 := (hT.cos x hx).2
  have h4 := abs_le_of_near h3
  rw [eta_two] at h4
  have := eta_le
  generalize |ofDouble (P.cos x)| = A at *
  generalize |Real.cos (ofDouble x)| = B at *
  norm_num at *
  linarith

/-- Away from the vertical the cosine of the pitch is relatively accurate and the tangent is moderate. -/
theorem regular_trig {P : Dbl.Platform} (hT : P.TrigOk) {x : F64} (hx : x.Finite)
    (h : 1 / 10 ^ 6 * (1 + 1 / 2 ^ 50) ≤ |Real.cos (ofDouble x)|) :
    Real.cos (ofDouble x) ≠ 0 ∧ |ofDouble (P.cos x) - Real.cos (ofDouble x)| ≤ 1 / 2 ^ 51 * |Real.cos (ofDouble x)| ∧
    |Real.tan (ofDouble x)| ≤ 2 ^ 1000 := by
  have h3 := (hT.cos x hx).2
  have hp : 0 < |Real.cos (ofDouble x)| := lt_of_lt_of_le (by norm_num) h
  refine ⟨abs_pos.1 hp, ?_, ?_⟩
  · rw [eta_two] at h3
    have := eta_le
    generalize |ofDouble (P.cos x) - Real.cos (ofDouble x)| = A at *
    generalize |Real.cos (ofDouble x)| = B at *
    norm_num at *
    linarith
  · rw [Real.tan_eq_sin_div_cos, abs_div, div_le_iff₀ hp]
    refine (Real.abs_sin_le_one _).trans ?_
    have e : (2 : ℝ) ^ 20 ≤ 2 ^ 1000 := pow_le_pow_right₀ (by norm_num) (by norm_num)
    have h4 : (2 : ℝ) ^ 20 * |Real.cos (ofDouble x)| ≤ 2 ^ 1000 * |Real.cos (ofDouble x)| :=
      mul_le_mul_of_nonneg_right e hp.le
    refine le_trans ?_ h4
    norm_num at *
    linarith

end Dis.Geo
