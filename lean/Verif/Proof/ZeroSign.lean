import Verif.Proof.Arith
import Verif.Model.RangeFrames

/-!
# The sign of a zero does not matter in `rotate_3x3`

`array([[0, -n[2], …]])` of integers has no minus zero; of floats it has.
-/

namespace Dis.Dbl
set_option exponentiation.threshold 3000

theorem sign_ofMag (s m : Nat) (hs : s < 2) : (F64.ofMag s m).sign = s := by
  unfold F64.ofMag
  split
  · simp only [F64.sign, BitVec.toNat_ofNat]; omega
  · exact F64.sign_mk hs (by decide) (by decide)

theorem ofMag_zero (s : Nat) : F64.ofMag s 0 = F64.mk s 0 0 := by
  have h : F64.ofMag s 0 = BitVec.ofNat 64 (s * 2 ^ 63 + 0) := if_pos (by decide)
  exact h.trans (congrArg (BitVec.ofNat 64) (by omega))

theorem mul_pos_zero (x : F64) (hx : x.expo ≠ 2047) : F64.mul x (num 0) = F64.mk x.sign 0 0 := by
  have h0 : num 0 = F64.mk 0 0 0 := by decide +kernel
  have := F64.sign_lt x
  rw [h0]
  have e : (F64.mk 0 0 0).expo = 0 := by decide
  have f : (F64.mk 0 0 0).frac = 0 := by decide
  have s : (F64.mk 0 0 0).sign = 0 := by decide
  have m : (F64.mk 0 0 0).mag = 0 := by decide +kernel
  unfold F64.mul
  rw [if_neg (by omega), if_neg (by omega), m, Nat.mul_zero, s]
  have : F64.roundMag 0 1074 = 0 := by decide +kernel
  rw [this, show (x.sign + 0) % 2 = x.sign by omega]
  exact ofMag_zero _

theorem mul_neg_zero (x : F64) (hx : x.expo ≠ 2047) : F64.mul x (F64.neg (num 0)) = F64.mk (1 - x.sign) 0 0 := by
  have h0 : F64.neg (num 0) = F64.mk 1 0 0 := by decide +kernel
  have := F64.sign_lt x
  rw [h0]
  have e : (F64.mk 1 0 0).expo = 0 := by decide
  have f : (F64.mk 1 0 0).frac = 0 := by decide
  have s : (F64.mk 1 0 0).sign = 1 := by decide
  have m : (F64.mk 1 0 0).mag = 0 := by decide +kernel
  unfold F64.mul
  rw [if_neg (by omega), if_neg (by omega), m, Nat.mul_zero, s]
  have : F64.roundMag 0 1074 = 0 := by decide +kernel
  rw [this, show (x.sign + 1) % 2 = 1 - x.sign by omega]
  exact ofMag_zero _

/-- Multiplying what is not finite by a zero gives the NaN. -/
theorem mul_zero_nan (x z : F64) (hx : x.expo = 2047) (he : z.expo = 0) (hf : z.frac = 0) : F64.mul x z = F64.nan := by
  unfold F64.mul
  by_cases h : x.frac = 0
  · rw [if_neg (by omega), if_pos (by omega), if_pos (by omega)]
  · rw [if_pos (by omega)]

theorem nan_add (x : F64) : F64.add F64.nan x = F64.nan := by
  unfold F64.add
  rw [if_pos (by decide), if_pos (by decide)]

/-- The sign of a zero that is added matters only to a zero with a minus sign. -/
theorem add_zeros (a : F64) (ha : a.expo = 2047 ∨ a.units ≠ 0 ∨ a.sign = 0) (s t : Nat) (hs : s < 2) (ht : t < 2) :
    F64.add a (F64.mk s 0 0) = F64.add a (F64.mk t 0 0) := by
  have e (s : Nat) (hs : s < 2) : (F64.mk s 0 0).expo = 0 := F64.expo_mk hs (by decide) (by decide)
  have u (s : Nat) (hs : s < 2) : (F64.mk s 0 0).units = 0 := by
    have : s = 0 ∨ s = 1 := by omega
    rcases this with rfl | rfl <;> decide +kernel
  unfold F64.add
  simp only [e s hs, e t ht, u s hs, u t ht]
  by_cases h1 : a.expo = 2047
  · simp [h1]
  · by_cases h2 : a.units = 0
    · have : a.sign = 0 := by
        rcases ha with h | h | h
        · exact absurd h h1
        · exact absurd h2 h
        · exact h
      simp [h1, h2, this]
    · simp [h1, h2]

/-- `(1 - c) * 0 + c * 0` is not a zero with a minus sign. -/
theorem no_minus (c : F64) :
    let a := F64.add (F64.mul (F64.sub (num 1) c) (num 0)) (F64.mul c (num 0))
    a.expo = 2047 ∨ a.units ≠ 0 ∨ a.sign = 0 := by
  intro a
  have hz : (num 0).expo = 0 ∧ (num 0).frac = 0 := by decide +kernel
  by_cases h1 : (F64.sub (num 1) c).expo = 2047
  · left
    show (F64.add (F64.mul (F64.sub (num 1) c) (num 0)) (F64.mul c (num 0))).expo = 2047
    rw [mul_zero_nan _ _ h1 hz.1 hz.2, nan_add]; decide
  · have h2 : c.expo ≠ 2047 := by
      intro h2
      apply h1
      have hn : (F64.neg c).expo = 2047 := by
        unfold F64.neg
        rw [F64.expo_mk (by have := F64.sign_lt c; omega) (F64.expo_lt c) (F64.frac_lt c), h2]
      unfold F64.sub F64.add
      have : (num 1).expo ≠ 2047 := by decide +kernel
      rw [if_neg this, if_pos hn]
      split
      · decide
      · exact hn
    right; right
    show (F64.add (F64.mul (F64.sub (num 1) c) (num 0)) (F64.mul c (num 0))).sign = 0
    rw [mul_pos_zero _ h1, mul_pos_zero _ h2]
    have hs : ¬ ((F64.sub (num 1) c).sign = 1 ∧ c.sign = 1) := by
      rintro ⟨h3, h4⟩
      have hn : (F64.neg c).expo ≠ 2047 := by
        unfold F64.neg
        rw [F64.expo_mk (by have := F64.sign_lt c; omega) (F64.expo_lt c) (F64.frac_lt c)]; exact h2
      have hu : 0 ≤ (F64.neg c).units := by
        have : (F64.neg c).sign = 0 := by
          unfold F64.neg
          rw [F64.sign_mk (by have := F64.sign_lt c; omega) (F64.expo_lt c) (F64.frac_lt c)]; omega
        unfold F64.units
        rw [if_neg (by omega)]
        exact Int.natCast_nonneg _
      have h1u : (num 1).units = 2 ^ 1074 := by decide +kernel
      have : (F64.sub (num 1) c).sign = 0 := by
        unfold F64.sub F64.add
        rw [if_neg (by decide +kernel), if_neg hn, h1u]
        have hp : (0 : Int) < 2 ^ 1074 + (F64.neg c).units := by
          have : (0 : Int) < 2 ^ 1074 := by decide +kernel
          omega
        simp only []
        rw [if_neg (by omega), if_neg (by omega)]
        exact sign_ofMag 0 _ (by decide)
      omega
    have k1 := F64.sign_lt (F64.sub (num 1) c)
    have k2 := F64.sign_lt c
    generalize (F64.sub (num 1) c).sign = s at *
    generalize c.sign = t at *
    have : (s = 0 ∧ t = 0) ∨ (s = 0 ∧ t = 1) ∨ (s = 1 ∧ t = 0) := by omega
    rcases this with ⟨rfl, rfl⟩ | ⟨rfl, rfl⟩ | ⟨rfl, rfl⟩ <;> decide +kernel

/-- The sign of a zero in the third summand does not matter. -/
theorem zero_sign (c s : F64) :
    F64.add (F64.add (F64.mul (F64.sub (num 1) c) (num 0)) (F64.mul c (num 0))) (F64.mul s (num 0))
    = F64.add (F64.add (F64.mul (F64.sub (num 1) c) (num 0)) (F64.mul c (num 0))) (F64.mul s (F64.neg (num 0))) := by
  by_cases hs : s.expo = 2047
  · rw [mul_zero_nan s (num 0) hs (by decide +kernel) (by decide +kernel),
      mul_zero_nan s (F64.neg (num 0)) hs (by decide +kernel) (by decide +kernel)]
  · rw [mul_pos_zero s hs, mul_neg_zero s hs]
    exact add_zeros _ (no_minus c) _ _ (F64.sign_lt s) (by omega)
end Dis.Dbl
