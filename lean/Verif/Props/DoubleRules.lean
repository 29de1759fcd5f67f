import Verif.Proof.Correct
import Verif.Spec.FloatKinds

/-!
# C62: signs, infinities and NaNs

`C62_sum` and the like say which number a finite result is. Here is what they leave open: the sign of zeros, and what happens
with infinities and NaNs.
-/

set_option exponentiation.threshold 4096

namespace Dis

open F64

theorem ofMag_kind (s m : Nat) (hs : s < 2) : (ofMag s m).sign = s ∧ ¬(ofMag s m).NaN ∧
    (¬(ofMag s m).Finite → (ofMag s m).Infinite) := by
  unfold F64.NaN F64.Finite F64.Infinite ofMag
  split
  · next h =>
    refine ⟨?_, ?_, fun h' => absurd ?_ h'⟩ <;> simp only [F64.sign, F64.expo, F64.frac, BitVec.toNat_ofNat] <;> omega
  · refine ⟨sign_mk hs (by decide) (by decide), fun h => h.2 (frac_mk hs (by decide) (by decide)), fun _ =>
      ⟨expo_mk hs (by decide) (by decide), frac_mk hs (by decide) (by decide)⟩⟩

theorem nan_kind : F64.nan.NaN := ⟨expo_mk (by decide) (by decide) (by decide), by
  rw [show F64.nan.frac = 2 ^ 51 from frac_mk (by decide) (by decide) (by decide)]; decide⟩

theorem inf_kind (s : Nat) (hs : s < 2) : (inf s).sign = s ∧ ¬(inf s).NaN ∧ (inf s).Infinite :=
  ⟨sign_mk hs (by decide) (by decide), fun h => h.2 (frac_mk hs (by decide) (by decide)),
    expo_mk hs (by decide) (by decide), frac_mk hs (by decide) (by decide)⟩

theorem zero_kind (s : Nat) (hs : s < 2) : (F64.mk s 0 0).sign = s ∧ ¬(F64.mk s 0 0).NaN ∧ (F64.mk s 0 0).Finite ∧
    (F64.mk s 0 0).Zero := by
  have he : (F64.mk s 0 0).expo = 0 := expo_mk hs (by decide) (by decide)
  have hf : (F64.mk s 0 0).frac = 0 := frac_mk hs (by decide) (by decide)
  refine ⟨sign_mk hs (by decide) (by decide), fun h => h.2 hf, fun h => ?_, he, hf⟩
  rw [he] at h
  cases h

theorem signOf_eq (x y : F64) : (x.sign + y.sign) % 2 = signOf x y := by
  have := x.sign_lt; have := y.sign_lt
  unfold signOf
  split <;> omega

theorem signOf_lt (x y : F64) : signOf x y < 2 := by unfold signOf; split <;> decide

theorem mag_zero_iff (x : F64) : x.mag = 0 ↔ x.Zero := by
  unfold F64.mag F64.Zero
  rw [Nat.mul_eq_zero]
  have : 2 ^ (max x.expo 1 - 1) ≠ 0 := (Nat.pow_pos (by decide)).ne'
  split <;> omega

/-- **C62.** `x + y` and `y + x` are the same, whatever `x` and `y` are. -/
theorem C62_sum_comm (x y : F64) : F64.add x y = F64.add y x := by
  unfold F64.add
  by_cases hx : x.expo = 2047 <;> by_cases hy : y.expo = 2047
  · simp only [hx, hy, if_true]
    by_cases fx : x.frac = 0 <;> by_cases fy : y.frac = 0
    · simp only [fx, fy, ne_eq, not_true_eq_false, if_false, eq_comm (a := y.sign)]
      split
      · next h => rw [← mk_eta x, ← mk_eta y, h, hx, hy, fx, fy]
      · rfl
    · simp only [fx, fy, ne_eq, not_true_eq_false, not_false_eq_true, if_false, if_true]
    · simp only [fx, fy, ne_eq, not_true_eq_false, not_false_eq_true, if_false, if_true]
    · simp only [fx, fy, ne_eq, not_false_eq_true, if_true]
  · simp only [hx, hy, if_true, if_false]
  · simp only [hx, hy, if_true, if_false]
  · simp only [hx, hy, if_false, Int.add_comm y.units, and_comm (a := y.sign = 1)]

/-- **C62.** `x * y` and `y * x` are the same, whatever `x` and `y` are. -/
theorem C62_product_comm (x y : F64) : F64.mul x y = F64.mul y x := by
  unfold F64.mul
  simp only [Nat.add_comm y.sign, Nat.mul_comm y.mag, or_comm (a := y.expo = 2047 ∧ y.frac ≠ 0), or_comm (a := y.expo = 2047),
    or_comm (a := y.expo = 0 ∧ y.frac = 0)]

/-- **C62.** A sum of finite doubles is minus zero only if both are. -/
theorem C62_sum_zero (x y : F64) (hx : x.Finite) (hy : y.Finite) :
    F64.add x y = F64.mk 1 0 0 ↔ x = F64.mk 1 0 0 ∧ y = F64.mk 1 0 0 := by
  constructor
  · intro h
    have hz := zero_kind 1 (by decide)
    have hu : x.units + y.units = 0 := by
      by_contra h0
      have hf : (F64.add x y).Finite := h ▸ hz.2.2.1
      have hn := F64.rounded_nearest hf (F64.add_form hf h0)
      have hu0 : (F64.add x y).units = 0 := by rw [h]; decide +kernel
      rw [hu0] at hn
      rcases lt_or_gt_of_ne h0 with hneg | hpos
      · have := (hn (F64.mk 1 0 1)).1
        rw [show (F64.mk 1 0 1).units = -1 by decide +kernel] at this
        simp only [Int.pow_zero, Int.mul_one] at this
        omega
      · have := (hn (F64.mk 0 0 1)).1
        rw [show (F64.mk 0 0 1).units = 1 by decide +kernel] at this
        simp only [Int.pow_zero, Int.mul_one] at this
        omega
    unfold F64.add at h
    rw [if_neg hx, if_neg hy] at h
    simp only [hu, if_true] at h
    split at h
    · next hs =>
      have e : x.mag = 0 ∧ y.mag = 0 := by
        unfold F64.units at hu
        rw [if_pos hs.1, if_pos hs.2] at hu
        omega
      rw [mag_zero_iff, mag_zero_iff] at e
      rw [← mk_eta x, ← mk_eta y, hs.1, hs.2, e.1.1, e.1.2, e.2.1, e.2.2]
      exact ⟨rfl, rfl⟩
    · cases (show F64.mk 0 0 0 ≠ F64.mk 1 0 0 by decide) h
  · rintro ⟨rfl, rfl⟩
    decide +kernel

/-- **C62.** A sum of finite doubles that is not finite is an infinity with the sign of the exact sum. -/
theorem C62_sum_overflow (x y : F64) (hx : x.Finite) (hy : y.Finite) (h : ¬(F64.add x y).Finite) :
    (F64.add x y).Infinite ∧ ((F64.add x y).sign = 1 ↔ x.units + y.units < 0) := by
  unfold F64.add at h ⊢
  rw [if_neg hx, if_neg hy] at h ⊢
  simp only at h ⊢
  split at h
  · split at h
    · exact absurd (zero_kind 1 (by decide)).2.2.1 h
    · exact absurd (zero_kind 0 (by decide)).2.2.1 h
  · next h0 =>
    rw [if_neg h0]
    have hs : (if x.units + y.units < 0 then 1 else 0) < 2 := by split <;> decide
    have := ofMag_kind _ (roundMag (x.units + y.units).natAbs 0) hs
    refine ⟨this.2.2 h, ?_⟩
    rw [this.1]
    split <;> simp_all

/-- **C62.** A sum is not a number if one of the summands is not, or if they are infinities of different signs. -/
theorem C62_sum_nan (x y : F64) : (F64.add x y).NaN ↔
    x.NaN ∨ y.NaN ∨ x.Infinite ∧ y.Infinite ∧ x.sign ≠ y.sign := by
  unfold F64.add
  by_cases hx : x.expo = 2047 <;> by_cases hy : y.expo = 2047
  · by_cases fx : x.frac = 0 <;> by_cases fy : y.frac = 0 <;> by_cases hs : x.sign = y.sign <;>
      simp [hx, hy, fx, fy, hs, nan_kind.1, nan_kind.2, F64.NaN, F64.Infinite]
  · by_cases fx : x.frac = 0 <;> simp [hx, hy, fx, nan_kind.1, nan_kind.2, F64.NaN, F64.Infinite]
  · by_cases fy : y.frac = 0 <;> simp [hx, hy, fy, nan_kind.1, nan_kind.2, F64.NaN, F64.Infinite]
  · have hn : ¬(x.NaN ∨ y.NaN ∨ x.Infinite ∧ y.Infinite ∧ x.sign ≠ y.sign) := by
      rintro (h | h | ⟨h, -⟩)
      · exact hx h.1
      · exact hy h.1
      · exact hx h.1
    simp only [hx, hy, if_false, hn, iff_false]
    split
    · split
      · exact (zero_kind 1 (by decide)).2.1
      · exact (zero_kind 0 (by decide)).2.1
    · exact (ofMag_kind _ _ (by split <;> decide)).2.1

/-- **C62.** An infinity plus a number that is not the opposite infinity stays what it is. -/
theorem C62_sum_infinite (x y : F64) (hx : x.Infinite) (hy : ¬y.NaN) (hs : y.Infinite → y.sign = x.sign) : F64.add x y = x := by
  unfold F64.add
  rw [if_pos hx.1, if_neg (fun h => h hx.2)]
  split
  · next h =>
    have fy : y.frac = 0 := by by_contra hf; exact hy ⟨h, hf⟩
    rw [if_neg (fun h => h fy), if_pos (hs ⟨h, fy⟩).symm]
  · rfl

/-- **C62.** A finite number minus itself is plus zero. -/
theorem C62_difference_self (x : F64) (hx : x.Finite) : F64.sub x x = F64.mk 0 0 0 := by
  unfold F64.sub F64.add
  have := x.sign_lt
  rw [if_neg hx, if_neg (by rw [neg_expo]; exact hx)]
  simp only [neg_units, Int.add_right_neg, if_true, neg_sign]
  rw [if_neg (by omega)]

/-- **C62.** A difference of finite doubles is a double nearest to the exact difference, with ties to even. -/
theorem C62_difference (x y : F64) (hx : x.Finite) (hy : y.Finite) :
    ((F64.sub x y).Finite ↔ (x.units - y.units).natAbs < (2 ^ 54 - 1) * 2 ^ 2044) ∧
    ((F64.sub x y).Finite → ∀ w : F64,
      ((F64.sub x y).units - (x.units - y.units)).natAbs ≤ (w.units - (x.units - y.units)).natAbs ∧
      (((F64.sub x y).units - (x.units - y.units)).natAbs = (w.units - (x.units - y.units)).natAbs →
        w.units ≠ (F64.sub x y).units → (F64.sub x y).frac % 2 = 0)) := by
  have hn : x.units + (neg y).units = x.units - y.units := by rw [neg_units]; omega
  rw [← hn]
  have hy' : (neg y).Finite := neg_finite.2 hy
  refine ⟨F64.add_finite_iff hx hy', fun h w => ?_⟩
  by_cases h0 : x.units + (neg y).units = 0
  · obtain ⟨-, -, ⟨h1, -⟩ | ⟨-, h1⟩⟩ := F64.add_finite h
    · rw [show (F64.sub x y).units = 0 from h1, h0]
      refine ⟨Nat.zero_le _, fun h2 h3 => ?_⟩
      omega
    · exact absurd h0 h1
  · have := F64.rounded_nearest h (F64.add_form h h0) w
    rwa [Int.pow_zero, Int.mul_one, Int.mul_one] at this

/-- **C62.** A product that is a number is negative, or minus zero, if exactly one of the factors is. -/
theorem C62_product_sign (x y : F64) (h : ¬(F64.mul x y).NaN) : (F64.mul x y).sign = signOf x y := by
  unfold F64.mul at h ⊢
  simp only [signOf_eq] at h ⊢
  split at h
  · exact absurd nan_kind h
  · next h1 =>
    rw [if_neg h1]
    split at h
    · next h2 =>
      rw [if_pos h2]
      split at h
      · exact absurd nan_kind h
      · next h3 => rw [if_neg h3]; exact (inf_kind _ (signOf_lt x y)).1
    · next h2 => rw [if_neg h2]; exact (ofMag_kind _ _ (signOf_lt x y)).1

/-- **C62.** A product is not a number if one of the factors is not, or if one is infinite and the other zero. -/
theorem C62_product_nan (x y : F64) : (F64.mul x y).NaN ↔
    x.NaN ∨ y.NaN ∨ x.Infinite ∧ y.Zero ∨ x.Zero ∧ y.Infinite := by
  unfold F64.mul
  simp only [signOf_eq]
  split
  · next h =>
    refine ⟨fun _ => ?_, fun _ => nan_kind⟩
    exact h.elim .inl fun h => .inr (.inl h)
  · next h =>
    have hx : ¬x.NaN := fun h' => h (.inl h')
    have hy : ¬y.NaN := fun h' => h (.inr h')
    simp only [hx, hy, false_or]
    split
    · next h2 =>
      split
      · next h3 =>
        refine ⟨fun _ => ?_, fun _ => nan_kind⟩
        unfold F64.Infinite F64.Zero
        unfold F64.NaN at hx hy
        rcases h2 with h2 | h2 <;> rcases h3 with h3 | h3 <;> omega
      · next h3 =>
        refine ⟨fun h' => absurd h' (inf_kind _ (signOf_lt x y)).2.1, ?_⟩
        rintro (⟨-, h'⟩ | ⟨h', -⟩)
        · exact absurd (.inr h') h3
        · exact absurd (.inl h') h3
    · next h2 =>
      refine ⟨fun h' => absurd h' (ofMag_kind _ _ (signOf_lt x y)).2.1, ?_⟩
      rintro (⟨h', -⟩ | ⟨-, h'⟩)
      · exact absurd (.inl h'.1) h2
      · exact absurd (.inr h'.1) h2

/-- **C62.** A product that is neither finite nor a NaN is an infinity; it is one if a factor is. -/
theorem C62_product_infinite (x y : F64) (h : ¬(F64.mul x y).NaN) (hi : x.Infinite ∨ y.Infinite) : (F64.mul x y).Infinite := by
  unfold F64.mul at h ⊢
  simp only [signOf_eq] at h ⊢
  have h2 : x.expo = 2047 ∨ y.expo = 2047 := hi.imp (·.1) (·.1)
  split at h
  · exact absurd nan_kind h
  · next h1 =>
    rw [if_neg h1, if_pos h2]
    split at h
    · exact absurd nan_kind h
    · next h3 => rw [if_neg h3]; exact (inf_kind _ (signOf_lt x y)).2.2

section Quotients

attribute [local irreducible] F64.nan F64.inf F64.ofMag F64.mk F64.roundMag

/-- **C62.** A quotient that is a number has the sign of a product. -/
theorem C62_quotient_sign (x y : F64) (h : ¬(F64.div x y).NaN) : (F64.div x y).sign = signOf x y := by
  unfold F64.div at h ⊢
  simp only [signOf_eq] at h ⊢
  split_ifs at h ⊢ <;> first
    | exact absurd nan_kind h
    | exact (inf_kind _ (signOf_lt x y)).1
    | exact (zero_kind _ (signOf_lt x y)).1
    | exact (ofMag_kind _ _ (signOf_lt x y)).1

/-- **C62.** A quotient is not a number if one of the two is not, if both are infinite or both zero. -/
theorem C62_quotient_nan (x y : F64) : (F64.div x y).NaN ↔
    x.NaN ∨ y.NaN ∨ x.Infinite ∧ y.Infinite ∨ x.Zero ∧ y.Zero := by
  have zx := mag_zero_iff x
  have zy := mag_zero_iff y
  unfold F64.div
  simp only [signOf_eq]
  split
  · next h =>
    exact ⟨fun _ => h.elim .inl fun h => .inr (.inl h), fun _ => nan_kind⟩
  · next h =>
    have hx : ¬x.NaN := fun h' => h (.inl h')
    have hy : ¬y.NaN := fun h' => h (.inr h')
    simp only [hx, hy, false_or]
    unfold F64.NaN at hx hy
    unfold F64.Infinite F64.Zero at *
    split_ifs <;> first
      | exact ⟨fun _ => by omega, fun _ => nan_kind⟩
      | exact ⟨fun h' => absurd h' (inf_kind _ (signOf_lt x y)).2.1, fun h' => by omega⟩
      | exact ⟨fun h' => absurd h' (zero_kind _ (signOf_lt x y)).2.1, fun h' => by omega⟩
      | exact ⟨fun h' => absurd h' (ofMag_kind _ _ (signOf_lt x y)).2.1, fun h' => by omega⟩

/-- **C62.** Division by zero gives an infinity, division by an infinity a zero. -/
theorem C62_quotient_limits (x y : F64) (h : ¬(F64.div x y).NaN) :
    (y.Zero ∨ x.Infinite → (F64.div x y).Infinite) ∧ (y.Infinite → (F64.div x y).Zero) := by
  have hn := mt (C62_quotient_nan x y).2 h
  unfold F64.div at h ⊢
  simp only [signOf_eq] at h ⊢
  unfold F64.NaN at hn
  split_ifs at h ⊢ with h1 h2 h3 h4 h5 h6
  all_goals first
    | exact absurd nan_kind h
    | skip
  · exact ⟨fun _ => (inf_kind _ (signOf_lt x y)).2.2, fun hy => absurd hy.1 h3⟩
  · refine ⟨?_, fun _ => (zero_kind _ (signOf_lt x y)).2.2.2⟩
    rintro (h' | h')
    · exact absurd h'.1 (by omega)
    · exact absurd h'.1 h2
  · exact ⟨fun _ => (inf_kind _ (signOf_lt x y)).2.2, fun hy => absurd hy.1 h4⟩
  all_goals
    refine ⟨?_, fun hy => absurd hy.1 h4⟩
    rintro (h' | h')
    · exact absurd ((mag_zero_iff y).2 h') h5
    · exact absurd h'.1 h2

end Quotients

/-! Concrete cases: 1.5 - 2.5, -0 + -0, overflow, and the quotients of 1.5 by zero and infinity. -/

example : F64.sub 0x3FF8000000000000 0x4004000000000000 = 0xBFF0000000000000 := by decide +kernel
example : F64.add (F64.mk 1 0 0) (F64.mk 1 0 0) = F64.mk 1 0 0 ∧ F64.add (F64.mk 1 0 0) (F64.mk 0 0 0) = F64.mk 0 0 0 := by
  decide +kernel
example : ¬(F64.add 0xFFEFFFFFFFFFFFFF 0xFFEFFFFFFFFFFFFF).Finite ∧
    F64.add 0xFFEFFFFFFFFFFFFF 0xFFEFFFFFFFFFFFFF = F64.inf 1 := ⟨by unfold F64.Finite; decide +kernel, by decide +kernel⟩
example : ¬(F64.div 0x3FF8000000000000 (F64.mk 1 0 0)).NaN ∧ F64.div 0x3FF8000000000000 (F64.mk 1 0 0) = F64.inf 1 ∧
    F64.div 0x3FF8000000000000 (F64.inf 1) = F64.mk 1 0 0 := ⟨by unfold F64.NaN; decide +kernel, by decide +kernel⟩
example : (F64.mul (F64.inf 0) (F64.mk 1 0 0)).NaN ∧ F64.mul (F64.inf 0) 0xBFF0000000000000 = F64.inf 1 :=
  ⟨by unfold F64.NaN; decide +kernel, by decide +kernel⟩

end Dis
