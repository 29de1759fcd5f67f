import Verif.Proof.Rounding
import Verif.Proof.Stream

/-!
# Accuracy of single-precision fields
-/

set_option exponentiation.threshold 4096

namespace Dis

theorem narrow_relative {e f : Nat} (hf : f < 2 ^ 52) :
    2 ^ 24 * (((if e = 0 then f else 2 ^ 52 + f) * 2 ^ (max e 1 - 1) : Nat) - (mag32 (narrowMag e f) : Int)).natAbs
      ≤ max ((if e = 0 then f else 2 ^ 52 + f) * 2 ^ (max e 1 - 1)) (2 ^ (23 + 925)) := by
  obtain ⟨sig, q, s, p, hsig, hp, hs, hq, hY, -⟩ := narrowMag_form (e := e) hf
  rw [hY, ← hsig, ← hp]
  have hn := (rne_near sig s).1
  rw [← hq] at hn
  have e1 : ((sig * 2 ^ p : Nat) : Int) - (q * 2 ^ (s + p) : Nat)
      = ((sig : Int) - (q * 2 ^ s : Nat)) * (2 ^ p : Nat) := by
    rw [Int.sub_mul, ← Int.natCast_mul, ← Int.natCast_mul, Nat.mul_assoc, ← Nat.pow_add]
  rw [e1, Int.natAbs_mul, Int.natAbs_natCast]
  generalize ((sig : Int) - (q * 2 ^ s : Nat)).natAbs = d at *
  by_cases he : 897 ≤ max e 1
  · have hs' : s = 29 := by omega
    have h52 : 2 ^ 52 ≤ sig := by rw [hsig, if_neg (by omega)]; omega
    rw [hs'] at hn
    refine Nat.le_trans ?_ (Nat.le_max_left ..)
    rw [← Nat.mul_assoc]
    exact Nat.mul_le_mul_right _ (by omega)
  · have hsp : s + p = 925 := by omega
    refine Nat.le_trans ?_ (Nat.le_max_right ..)
    have := Nat.mul_le_mul_right (2 ^ p) hn
    rw [Nat.mul_assoc, ← Nat.pow_add, hsp] at this
    rw [Nat.pow_add 2 23 925]
    generalize d * 2 ^ p = D at *
    generalize 2 ^ 925 = T at *
    omega

/-- The value after the trip through a single-precision field, in units. -/
theorem quant_units {x : F64} (hx : x.Finite) {y : F32} (hy : narrow x = .ok y) :
    (quant x).Finite ∧ 2 ^ 24 * ((quant x).units - x.units).natAbs ≤ max x.units.natAbs (2 ^ (23 + 925)) ∧
      (quant x).units.natAbs ≤ 2 ^ 24 * 2 ^ 253 * 2 ^ 925 := by
  have hq : quant x = widen y := by unfold quant; rw [hy]
  obtain ⟨hyf, hys, hym⟩ := narrow_finite hx hy
  obtain ⟨hwf, hws, hwm⟩ := widen_value y hyf
  have hmag : (widen y).mag = mag32 (narrowMag x.expo x.frac) := by rw [hwm, F32.mag_eq, hym]
  rw [hq]
  refine ⟨hwf, ?_, ?_⟩
  · have hr := narrow_relative (e := x.expo) x.frac_lt
    have hX : (if x.expo = 0 then x.frac else 2 ^ 52 + x.frac) * 2 ^ (max x.expo 1 - 1) = x.mag := rfl
    rw [hX, ← hmag] at hr
    rw [F64.units_abs]
    have : ((widen y).units - x.units).natAbs = ((x.mag : Int) - ((widen y).mag : Int)).natAbs := by
      unfold F64.units
      rw [hws, hys]
      split <;> omega
    rw [this]
    exact hr
  · rw [F64.units_abs, hwm]
    have h1 := y.expo_lt
    have h2 := y.frac_lt
    unfold F32.Finite at hyf
    unfold F32.mag
    refine Nat.mul_le_mul_right _ (Nat.mul_le_mul ?_ (Nat.pow_le_pow_right (by decide) (by omega)))
    split <;> omega

end Dis

namespace Dis.Geo

theorem val_quant {x : F64} (hx : x.Finite) {y : F32} (hy : narrow x = .ok y) :
    (quant x).Finite ∧ |ofDouble (quant x) - ofDouble x| ≤ 1 / 2 ^ 24 * |ofDouble x| + 1 / 2 ^ 150 ∧
      |ofDouble (quant x)| ≤ 2 ^ 128 := by
  obtain ⟨h0, h1, h2⟩ := quant_units hx hy
  have e1 := (Nat.cast_le (α := ℝ)).2 h1
  have e2 := (Nat.cast_le (α := ℝ)).2 h2
  rw [Nat.cast_mul, Nat.cast_max, natAbs_cast, natAbs_cast, Int.cast_sub, Nat.cast_pow, Nat.cast_pow,
    Nat.cast_ofNat] at e1
  rw [natAbs_cast, Nat.cast_mul, Nat.cast_mul, Nat.cast_pow, Nat.cast_pow, Nat.cast_pow, Nat.cast_ofNat] at e2
  unfold ofDouble
  have hU : (0 : ℝ) < 2 ^ 1074 := by positivity
  refine ⟨h0, ?_, ?_⟩
  · have e5 : (2 : ℝ) ^ 1074 = 2 ^ 149 * 2 ^ 925 := by rw [← pow_add]
    have e6 : (2 : ℝ) ^ (23 + 925) = 2 ^ 23 * 2 ^ 925 := pow_add ..
    have hT : (0 : ℝ) < 2 ^ 925 := by positivity
    rw [e6] at e1
    have e7 : (1 : ℝ) / 2 ^ 150 = (2 ^ 925 / 2) / 2 ^ 1074 := by
      rw [e5]
      generalize (2 : ℝ) ^ 925 = T at *
      field_simp
    rw [e7, ← sub_div, abs_div, abs_div, abs_of_pos hU, ← mul_div_assoc, ← add_div]
    refine div_le_div_of_nonneg_right ?_ hU.le
    generalize (2 : ℝ) ^ 925 = T at *
    have := abs_nonneg (x.units : ℝ)
    rcases le_max_iff.1 e1 with h | h <;> linarith
  · rw [abs_div, abs_of_pos hU, div_le_iff₀ hU]
    have e8 : (2 : ℝ) ^ 24 * 2 ^ 253 * 2 ^ 925 = 2 ^ 128 * 2 ^ 1074 := by
      rw [← pow_add, ← pow_add, ← pow_add]
    rw [← e8]
    exact e2

end Dis.Geo

namespace Dis

theorem quant_not_finite {x : F64} {y : F32} (hy : narrow x = .ok y) (h : (quant x).Finite) : x.Finite := by
  intro he
  have hs := x.sign_lt
  have hf := x.frac_lt
  apply h
  unfold quant
  rw [hy]
  unfold narrow at hy
  dsimp only at hy
  rw [if_pos he] at hy
  have h255 : y.expo = 255 := by
    split at hy
    · injection hy with hy
      subst hy
      unfold F32.expo
      rw [BitVec.toNat_ofNat]
      omega
    · injection hy with hy
      subst hy
      unfold F32.expo
      rw [BitVec.toNat_ofNat]
      omega
  have hys := y.sign_lt
  unfold widen
  dsimp only
  rw [if_pos h255]
  split
  · exact F64.expo_mk hys (by decide) (by decide)
  · exact F64.expo_mk hys (by decide) (by omega)

end Dis

namespace Dis.Geo

/-- `p + v t + a t²/2` with velocity and acceleration that went through single-precision fields. -/
theorem fvw_quant {r p v a v' a' T : ℝ}
    (hv : |v' - v| ≤ 1 / 2 ^ 24 * |v| + 1 / 2 ^ 150) (ha : |a' - a| ≤ 1 / 2 ^ 24 * |a| + 1 / 2 ^ 150)
    (ha' : |a'| ≤ 2 ^ 128)
    (h : |r - (p + v' * T + a' * T ^ 2 / 2)|
      ≤ 1 / 2 ^ 50 * (|p| + |v' * T| + |a' * T ^ 2 / 2|) + 8 * eta * (1 + |a'| + T ^ 2)) :
    |r - (p + v * T + a * T ^ 2 / 2)|
      ≤ (1 / 2 ^ 24 + 1 / 2 ^ 48) * (|v * T| + |a * T ^ 2 / 2|) + 1 / 2 ^ 50 * |p|
        + 1 / 2 ^ 149 * (1 + |T| + T ^ 2) := by
  have hT : 0 ≤ T ^ 2 := sq_nonneg T
  have hT' := abs_nonneg T
  have d1 : |v' * T - v * T| ≤ 1 / 2 ^ 24 * |v * T| + 1 / 2 ^ 150 * |T| := by
    rw [← sub_mul, abs_mul, abs_mul]
    have := mul_le_mul_of_nonneg_right hv hT'
    linarith
  have d2 : |a' * T ^ 2 / 2 - a * T ^ 2 / 2| ≤ 1 / 2 ^ 24 * |a * T ^ 2 / 2| + 1 / 2 ^ 151 * T ^ 2 := by
    have e : ∀ c : ℝ, |c * T ^ 2 / 2| = |c| * T ^ 2 / 2 := fun c => by
      rw [abs_div, abs_mul, abs_of_nonneg hT]; norm_num
    have : a' * T ^ 2 / 2 - a * T ^ 2 / 2 = (a' - a) * T ^ 2 / 2 := by ring
    rw [this, e, e]
    have := mul_le_mul_of_nonneg_right ha hT
    norm_num at this ⊢
    linarith
  have f1 := abs_le_of_near d1
  have f2 := abs_le_of_near d2
  have t1 : |r - (p + v * T + a * T ^ 2 / 2)| ≤ |r - (p + v' * T + a' * T ^ 2 / 2)|
      + |v' * T - v * T| + |a' * T ^ 2 / 2 - a * T ^ 2 / 2| := by
    have : r - (p + v * T + a * T ^ 2 / 2) = (r - (p + v' * T + a' * T ^ 2 / 2))
      + (v' * T - v * T) + (a' * T ^ 2 / 2 - a * T ^ 2 / 2) := by ring
    rw [this]; exact abs_add_three _ _ _
  have he : eta ≤ 1 / 2 ^ 300 := by
    unfold eta
    exact one_div_le_one_div_of_le (by positivity) (pow_le_pow_right₀ (by norm_num) (by norm_num))
  have g1 : 8 * eta * (1 + |a'| + T ^ 2) ≤ 8 * (1 / 2 ^ 300) * (1 + 2 ^ 128 + T ^ 2) :=
    mul_le_mul (by linarith) (by linarith) (by positivity) (by positivity)
  have n1 := abs_nonneg p
  have n2 := abs_nonneg (v * T)
  have n3 := abs_nonneg (a * T ^ 2 / 2)
  generalize |v * T| = X1 at *
  generalize |a * T ^ 2 / 2| = X2 at *
  generalize |v' * T| = X3 at *
  generalize |a' * T ^ 2 / 2| = X4 at *
  generalize |v' * T - v * T| = X5 at *
  generalize |a' * T ^ 2 / 2 - a * T ^ 2 / 2| = X6 at *
  generalize |T| = Y at *
  generalize T ^ 2 = Z at *
  generalize |p| = W at *
  norm_num at *
  linarith

end Dis.Geo
