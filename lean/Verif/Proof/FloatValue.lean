import Verif.Proof.Float
import Verif.Spec.Float

/-! # Rounding to binary32 is rounding to the nearest value -/

set_option linter.unusedVariables false
set_option exponentiation.threshold 4096

namespace Dis

/-! ## Rounding to a grid -/

theorem rne_near (x s : Nat) : 2 * ((x : Int) - (rne x s * 2 ^ s : Nat)).natAbs ≤ 2 ^ s ∧
    (2 * ((x : Int) - (rne x s * 2 ^ s : Nat)).natAbs = 2 ^ s → rne x s % 2 = 0) := by
  have hp : 0 < 2 ^ s := Nat.pow_pos (by decide)
  have hd := Nat.div_add_mod x (2 ^ s)
  have hm := Nat.mod_lt x hp
  unfold rne
  dsimp only
  generalize hP : 2 ^ s = P at *
  generalize x / P = q at *
  generalize x % P = r at *
  have hc : q * P = P * q := Nat.mul_comm _ _
  split
  · have : (q + 1) * P = q * P + P := Nat.succ_mul _ _
    rw [this]
    constructor
    · omega
    · intro h; omega
  · constructor
    · omega
    · intro h; omega

theorem rne_lower {x s a : Nat} (h : a * 2 ^ s ≤ x) : a ≤ rne x s := by
  have hp : 0 < 2 ^ s := Nat.pow_pos (by decide)
  have : a ≤ x / 2 ^ s := (Nat.le_div_iff_mul_le hp).2 h
  unfold rne
  dsimp only
  split <;> omega

theorem rne_upper {x s a : Nat} (h : x ≤ a * 2 ^ s) : rne x s ≤ a := by
  have hp : 0 < 2 ^ s := Nat.pow_pos (by decide)
  have hd := Nat.div_add_mod x (2 ^ s)
  have hm := Nat.mod_lt x hp
  have : x / 2 ^ s ≤ a := Nat.div_le_of_le_mul (by rw [Nat.mul_comm]; exact h)
  unfold rne
  dsimp only
  split
  · rename_i hc
    by_cases he : x / 2 ^ s = a
    · exfalso
      rw [he, Nat.mul_comm] at hd
      generalize 2 ^ s = P at *
      omega
    · omega
  · omega

/-- A multiple of `U` within half of `U` is the nearest multiple. -/
theorem grid {X U : Nat} {q : Nat} (h : 2 * ((X : Int) - (q * U : Nat)).natAbs ≤ U) (k : Nat) :
    ((X : Int) - (q * U : Nat)).natAbs ≤ ((X : Int) - (k * U : Nat)).natAbs ∧
    (((X : Int) - (q * U : Nat)).natAbs = ((X : Int) - (k * U : Nat)).natAbs → k ≠ q →
      2 * ((X : Int) - (q * U : Nat)).natAbs = U) := by
  rcases Nat.lt_trichotomy k q with hk | hk | hk
  · obtain ⟨d, rfl⟩ : ∃ d, q = k + d + 1 := ⟨q - k - 1, by omega⟩
    have e : (k + d + 1) * U = k * U + d * U + U := by rw [Nat.add_mul, Nat.add_mul, Nat.one_mul]
    rw [e] at h ⊢
    generalize k * U = A at *
    generalize d * U = B at *
    constructor <;> omega
  · subst hk; exact ⟨Nat.le_refl _, fun _ h => absurd rfl h⟩
  · obtain ⟨d, rfl⟩ : ∃ d, k = q + d + 1 := ⟨k - q - 1, by omega⟩
    have e : (q + d + 1) * U = q * U + d * U + U := by rw [Nat.add_mul, Nat.add_mul, Nat.one_mul]
    rw [e]
    generalize q * U = A at *
    generalize d * U = B at *
    constructor <;> omega

/-! ## Magnitudes of patterns -/

/-- Magnitude of the binary32 pattern with the low 31 bits `m`. -/
def mag32 (m : Nat) : Nat :=
  (if m / 2 ^ 23 = 0 then m % 2 ^ 23 else 2 ^ 23 + m % 2 ^ 23) * 2 ^ (max (m / 2 ^ 23) 1 - 1) * 2 ^ 925

theorem F32.mag_eq (y : F32) : y.mag = mag32 (y.expo * 2 ^ 23 + y.frac) := by
  have := y.frac_lt
  unfold F32.mag mag32
  rw [show (y.expo * 2 ^ 23 + y.frac) / 2 ^ 23 = y.expo by omega,
    show (y.expo * 2 ^ 23 + y.frac) % 2 ^ 23 = y.frac by omega]

/-- Normal patterns, the carry into the next exponent included. -/
theorem mag32_normal {E q : Nat} (h1 : 2 ^ 23 ≤ q) (h2 : q ≤ 2 ^ 24) :
    mag32 (E * 2 ^ 23 + q) = q * 2 ^ (E + 925) := by
  unfold mag32
  rw [Nat.pow_add, ← Nat.mul_assoc]
  refine congrArg (· * 2 ^ 925) ?_
  by_cases h : q = 2 ^ 24
  · subst h
    rw [show (E * 2 ^ 23 + 2 ^ 24) / 2 ^ 23 = E + 2 by omega,
      show (E * 2 ^ 23 + 2 ^ 24) % 2 ^ 23 = 0 by omega, if_neg (by omega),
      show max (E + 2) 1 - 1 = E + 1 by omega, Nat.pow_succ]
    omega
  · rw [show (E * 2 ^ 23 + q) / 2 ^ 23 = E + 1 by omega,
      show (E * 2 ^ 23 + q) % 2 ^ 23 = q - 2 ^ 23 by omega, if_neg (by omega),
      show max (E + 1) 1 - 1 = E by omega, show 2 ^ 23 + (q - 2 ^ 23) = q by omega]

theorem mag32_subnormal {q : Nat} (h : q ≤ 2 ^ 23) : mag32 q = q * 2 ^ 925 := by
  by_cases h2 : q = 2 ^ 23
  · have := mag32_normal (E := 0) (q := q) (by omega) (by omega)
    simpa using this
  · unfold mag32
    rw [show q / 2 ^ 23 = 0 by omega, if_pos rfl, show q % 2 ^ 23 = q by omega]
    simp

/-- The magnitude as significand times a power of two. -/
theorem mag32_form (m : Nat) : ∃ sg, sg < 2 ^ 24 ∧ mag32 m = sg * 2 ^ (max (m / 2 ^ 23) 1 - 1 + 925) := by
  unfold mag32
  refine ⟨_, ?_, by rw [Nat.pow_add, ← Nat.mul_assoc]⟩
  split <;> omega

theorem F64.sig_lt {e f : Nat} (hf : f < 2 ^ 52) : (if e = 0 then f else 2 ^ 52 + f) < 2 ^ 53 := by
  split <;> omega

/-! ## The rounded magnitude -/

/-- In both cases the rounded pattern stands for the rounded multiple of the local spacing. -/
theorem narrowMag_form {e f : Nat} (hf : f < 2 ^ 52) :
    ∃ sig q s p, sig = (if e = 0 then f else 2 ^ 52 + f) ∧ p = max e 1 - 1 ∧
      s = 29 + (897 - max e 1) ∧ q = rne sig s ∧
      mag32 (narrowMag e f) = q * 2 ^ (s + p) ∧ narrowMag e f % 2 = q % 2 := by
  refine ⟨_, _, _, _, rfl, rfl, rfl, rfl, ?_, ?_⟩
  · unfold narrowMag
    dsimp only
    by_cases he : 897 ≤ max e 1
    · have he0 : e ≠ 0 := by omega
      rw [if_neg he0, show 29 + (897 - max e 1) = 29 by omega]
      rw [mag32_normal (rne_lower (by omega)) (rne_upper (by omega)),
        show max (max e 1) 897 - 897 + 925 = 29 + (max e 1 - 1) by omega]
    · rw [show max (max e 1) 897 - 897 = 0 by omega, Nat.zero_mul, Nat.zero_add]
      rw [mag32_subnormal]
      · rw [show 29 + (897 - max e 1) + (max e 1 - 1) = 925 by omega]
      · refine rne_upper ?_
        have h1 := F64.sig_lt (e := e) hf
        have h2 : 2 ^ 30 ≤ 2 ^ (29 + (897 - max e 1)) := Nat.pow_le_pow_right (by decide) (by omega)
        generalize 2 ^ (29 + (897 - max e 1)) = P at *
        omega
  · unfold narrowMag
    dsimp only
    omega

/-- The rounded magnitude is at least as near as any binary32 magnitude; if another one is as near,
the pattern is even. -/
theorem narrowMag_nearest {e f : Nat} (hf : f < 2 ^ 52) (m' : Nat) :
    let X := (if e = 0 then f else 2 ^ 52 + f) * 2 ^ (max e 1 - 1)
    ((X : Int) - mag32 (narrowMag e f)).natAbs ≤ ((X : Int) - mag32 m').natAbs ∧
    (((X : Int) - mag32 (narrowMag e f)).natAbs = ((X : Int) - mag32 m').natAbs →
      mag32 m' ≠ mag32 (narrowMag e f) → narrowMag e f % 2 = 0) := by
  intro X
  obtain ⟨sig, q, s, p, hsig, hp, hs, hq, hY, hpar⟩ := narrowMag_form (e := e) hf
  have hX : X = sig * 2 ^ p := by rw [hsig, hp]
  have hsg : sig < 2 ^ 53 := hsig ▸ F64.sig_lt hf
  rw [hY, hpar]
  -- distance to the rounded value is at most half the spacing
  have hnear := rne_near sig s
  rw [← hq] at hnear
  have hscale : ((X : Int) - (q * 2 ^ (s + p) : Nat)).natAbs
      = ((sig : Int) - (q * 2 ^ s : Nat)).natAbs * 2 ^ p := by
    have e2 : (X : Int) - (q * 2 ^ (s + p) : Nat) = ((sig : Int) - (q * 2 ^ s : Nat)) * (2 ^ p : Nat) := by
      rw [hX, Nat.pow_add, ← Nat.mul_assoc, Int.sub_mul]
      push_cast
      rfl
    rw [e2, Int.natAbs_mul, Int.natAbs_natCast]
  have hU : 2 ^ (s + p) = 2 ^ s * 2 ^ p := Nat.pow_add ..
  have hP : 0 < 2 ^ p := Nat.pow_pos (by decide)
  have hhalf : 2 * ((X : Int) - (q * 2 ^ (s + p) : Nat)).natAbs ≤ 2 ^ (s + p) := by
    rw [hscale, hU, ← Nat.mul_assoc]
    exact Nat.mul_le_mul_right _ hnear.1
  have htie : 2 * ((X : Int) - (q * 2 ^ (s + p) : Nat)).natAbs = 2 ^ (s + p) → q % 2 = 0 := by
    rw [hscale, hU, ← Nat.mul_assoc]
    intro h
    exact hnear.2 (Nat.eq_of_mul_eq_mul_right hP h)
  -- a value on the grid
  have hgrid : ∀ k, mag32 m' = k * 2 ^ (s + p) →
      ((X : Int) - (q * 2 ^ (s + p) : Nat)).natAbs ≤ ((X : Int) - mag32 m').natAbs ∧
      (((X : Int) - (q * 2 ^ (s + p) : Nat)).natAbs = ((X : Int) - mag32 m').natAbs →
        mag32 m' ≠ q * 2 ^ (s + p) → q % 2 = 0) := by
    intro k hk
    rw [hk]
    obtain ⟨g1, g2⟩ := grid hhalf k
    exact ⟨g1, fun h1 h2 => htie (g2 h1 fun h => h2 (by rw [h]))⟩
  obtain ⟨sg, hsg24, hm'⟩ := mag32_form m'
  by_cases hc : s + p ≤ max (m' / 2 ^ 23) 1 - 1 + 925
  · refine hgrid (sg * 2 ^ (max (m' / 2 ^ 23) 1 - 1 + 925 - (s + p))) ?_
    rw [hm', Nat.mul_assoc, ← Nat.pow_add]
    congr 2
    omega
  · -- a value below the binade of `X`
    have he : 897 ≤ max e 1 := by omega
    have he0 : e ≠ 0 := by omega
    have hs29 : s = 29 := by omega
    have hlow : 2 ^ 52 ≤ sig := by rw [hsig, if_neg he0]; omega
    have hXl : 2 ^ 23 * 2 ^ (s + p) ≤ X := by
      rw [hX, hU, hs29, ← Nat.mul_assoc]
      exact Nat.mul_le_mul_right _ hlow
    have hZ : mag32 m' < 2 ^ 23 * 2 ^ (s + p) := by
      rw [hm']
      have h1 : 2 ^ (max (m' / 2 ^ 23) 1 - 1 + 925 + 1) ≤ 2 ^ (s + p) :=
        Nat.pow_le_pow_right (by decide) (by omega)
      rw [Nat.pow_succ] at h1
      have h0 : 0 < 2 ^ (max (m' / 2 ^ 23) 1 - 1 + 925) := Nat.pow_pos (by decide)
      generalize 2 ^ (max (m' / 2 ^ 23) 1 - 1 + 925) = A at *
      generalize 2 ^ (s + p) = U at *
      calc sg * A < 2 ^ 24 * A := Nat.mul_lt_mul_of_pos_right hsg24 h0
        _ = 2 ^ 23 * (A * 2) := by omega
        _ ≤ 2 ^ 23 * U := Nat.mul_le_mul_left _ h1
    have g := (grid hhalf (2 ^ 23)).1
    generalize mag32 m' = Z at *
    generalize 2 ^ 23 * 2 ^ (s + p) = V at *
    generalize q * 2 ^ (s + p) = Y at *
    constructor
    · omega
    · intro h; omega

/-! ## Overflow -/

theorem narrowMag_overflow {e f : Nat} (he : e < 2047) (hf : f < 2 ^ 52) :
    255 * 2 ^ 23 ≤ narrowMag e f ↔
      (2 ^ 25 - 1) * 2 ^ 1177 ≤ (if e = 0 then f else 2 ^ 52 + f) * 2 ^ (max e 1 - 1) := by
  have hsg := F64.sig_lt (e := e) hf
  have hlow : e ≠ 0 → 2 ^ 52 ≤ (if e = 0 then f else 2 ^ 52 + f) := fun h => by rw [if_neg h]; omega
  unfold narrowMag
  dsimp only
  generalize (if e = 0 then f else 2 ^ 52 + f) = sig at *
  by_cases h1 : 1151 ≤ e
  · -- beyond the exponent range
    refine iff_of_true ?_ ?_
    · rw [show 29 + (897 - max e 1) = 29 by omega]
      have := rne_lower (x := sig) (s := 29) (a := 2 ^ 23) (by have := hlow (by omega); omega)
      omega
    · have hp : 2 ^ 1150 ≤ 2 ^ (max e 1 - 1) := Nat.pow_le_pow_right (by decide) (by omega)
      calc (2 ^ 25 - 1) * 2 ^ 1177 ≤ 2 ^ 25 * 2 ^ 1177 := Nat.mul_le_mul_right _ (by decide)
        _ = 2 ^ 52 * 2 ^ 1150 := by rw [← Nat.pow_add]
        _ ≤ _ := Nat.mul_le_mul (hlow (by omega)) hp
  · by_cases h2 : e = 1150
    · subst h2
      rw [show max (max 1150 1) 897 - 897 = 253 by rfl, show 29 + (897 - max 1150 1) = 29 by rfl,
        show max 1150 1 - 1 = 1149 by rfl]
      have e3 : (2 ^ 25 - 1) * 2 ^ 1177 = ((2 ^ 25 - 1) * 2 ^ 28) * 2 ^ 1149 := by
        rw [Nat.mul_assoc, ← Nat.pow_add]
      rw [e3, Nat.mul_le_mul_right_iff (Nat.pow_pos (by decide))]
      unfold rne
      dsimp only
      split <;> omega
    · refine iff_of_false ?_ ?_
      · have : rne sig (29 + (897 - max e 1)) ≤ 2 ^ 24 := by
          refine rne_upper ?_
          have h2 : 2 ^ 29 ≤ 2 ^ (29 + (897 - max e 1)) := Nat.pow_le_pow_right (by decide) (by omega)
          generalize 2 ^ (29 + (897 - max e 1)) = P at *
          omega
        omega
      · have hp : 2 ^ (max e 1 - 1) ≤ 2 ^ 1148 := Nat.pow_le_pow_right (by decide) (by omega)
        refine Nat.not_le.2 ?_
        calc sig * 2 ^ (max e 1 - 1) ≤ sig * 2 ^ 1148 := Nat.mul_le_mul_left _ hp
          _ < 2 ^ 53 * 2 ^ 1148 := Nat.mul_lt_mul_of_pos_right hsg (Nat.pow_pos (by decide))
          _ = 2 ^ 24 * 2 ^ 1177 := by rw [← Nat.pow_add]
          _ ≤ (2 ^ 25 - 1) * 2 ^ 1177 := Nat.mul_le_mul_right _ (by decide)

/-! ## Widening is exact -/

theorem widen_value (y : F32) (h : y.Finite) :
    (widen y).Finite ∧ (widen y).sign = y.sign ∧ (widen y).mag = y.mag := by
  have hs := y.sign_lt
  have he := y.expo_lt
  have hf := y.frac_lt
  unfold F32.Finite at h
  unfold widen
  dsimp only
  rw [if_neg h]
  unfold F64.Finite F64.mag F32.mag
  by_cases he0 : y.expo = 0
  · rw [if_pos he0]
    by_cases hf0 : y.frac = 0
    · rw [if_pos hf0, F64.expo_mk hs (by omega) (by omega), F64.sign_mk hs (by omega) (by omega),
        F64.frac_mk hs (by omega) (by omega), he0, hf0]
      refine ⟨by omega, rfl, ?_⟩
      simp
    · rw [if_neg hf0]
      have hk := log2_lt_23 hf hf0
      have hb := subnormal_frac_lt hf hf0
      rw [F64.expo_mk hs (by omega) hb, F64.sign_mk hs (by omega) hb, F64.frac_mk hs (by omega) hb]
      refine ⟨by omega, rfl, ?_⟩
      rw [if_neg (by omega), subnormal_sig hf hf0, if_pos he0, he0, Nat.mul_assoc, ← Nat.pow_add,
        show 52 - y.frac.log2 + (max (y.frac.log2 + 874) 1 - 1) = 925 by omega]
      simp
  · rw [if_neg he0]
    have hb : y.frac * 2 ^ 29 < 2 ^ 52 := by omega
    rw [F64.expo_mk hs (by omega) hb, F64.sign_mk hs (by omega) hb, F64.frac_mk hs (by omega) hb]
    refine ⟨by omega, rfl, ?_⟩
    rw [if_neg (by omega), if_neg he0, show 2 ^ 52 + y.frac * 2 ^ 29 = (2 ^ 23 + y.frac) * 2 ^ 29 by omega,
      Nat.mul_assoc, Nat.mul_assoc, ← Nat.pow_add, ← Nat.pow_add,
      show 29 + (max (y.expo + 896) 1 - 1) = max y.expo 1 - 1 + 925 by omega]

/-! ## A pattern is determined by sign and value -/

theorem F64.mag_inj {x x' : F64} (hs : x.sign = x'.sign) (h : x.mag = x'.mag) : x = x' := by
  have key : ∀ e f e' f' : Nat, f < 2 ^ 52 → e < e' →
      (if e = 0 then f else 2 ^ 52 + f) * 2 ^ (max e 1 - 1)
        < (if e' = 0 then f' else 2 ^ 52 + f') * 2 ^ (max e' 1 - 1) := by
    intro e f e' f' hf hlt
    rw [if_neg (show e' ≠ 0 by omega), show max e' 1 - 1 = e' - 1 by omega]
    have hge : 2 ^ 52 * 2 ^ (e' - 1) ≤ (2 ^ 52 + f') * 2 ^ (e' - 1) :=
      Nat.mul_le_mul_right _ (by omega)
    refine Nat.lt_of_lt_of_le ?_ hge
    by_cases he : e = 0
    · rw [if_pos he, he]
      have : 0 < 2 ^ (e' - 1) := Nat.pow_pos (by decide)
      simp only [show max 0 1 - 1 = 0 by rfl, Nat.pow_zero, Nat.mul_one]
      exact Nat.lt_of_lt_of_le hf (Nat.le_mul_of_pos_right _ this)
    · rw [if_neg he]
      have h1 : 2 ^ (max e 1 - 1 + 1) ≤ 2 ^ (e' - 1) := Nat.pow_le_pow_right (by decide) (by omega)
      rw [Nat.pow_succ] at h1
      have h0 : 0 < 2 ^ (max e 1 - 1) := Nat.pow_pos (by decide)
      generalize 2 ^ (max e 1 - 1) = A at *
      generalize 2 ^ (e' - 1) = B at *
      calc (2 ^ 52 + f) * A < 2 ^ 53 * A := Nat.mul_lt_mul_of_pos_right (by omega) h0
        _ = 2 ^ 52 * (A * 2) := by omega
        _ ≤ _ := Nat.mul_le_mul_left _ h1
  have h1 := x.frac_lt
  have h2 := x'.frac_lt
  unfold F64.mag at h
  have he : x.expo = x'.expo := by
    rcases Nat.lt_trichotomy x.expo x'.expo with hl | hl | hl
    · have := key _ _ _ x'.frac h1 hl; omega
    · exact hl
    · have := key _ _ _ x.frac h2 hl; omega
  rw [he] at h
  have hsig := Nat.eq_of_mul_eq_mul_right (Nat.pow_pos (by decide)) h
  have hf : x.frac = x'.frac := by
    split at hsig <;> omega
  rw [← F64.mk_eta x, ← F64.mk_eta x', hs, he, hf]

/-! ## `narrow` -/

theorem narrow_finite {x : F64} {y : F32} (hx : x.Finite) (h : narrow x = .ok y) :
    y.Finite ∧ y.sign = x.sign ∧ y.expo * 2 ^ 23 + y.frac = narrowMag x.expo x.frac := by
  have hs := x.sign_lt
  unfold F64.Finite at hx
  unfold narrow at h
  dsimp only at h
  rw [if_neg hx] at h
  split at h
  · rename_i hm
    injection h with h
    subst h
    unfold F32.Finite F32.expo F32.sign F32.frac
    rw [BitVec.toNat_ofNat]
    generalize narrowMag x.expo x.frac = m at *
    omega
  · cases h

theorem narrow_overflow {x : F64} (e : PyErr) :
    narrow x = .error e ↔ e = .overflowError ∧ x.Finite ∧ 255 * 2 ^ 23 ≤ narrowMag x.expo x.frac := by
  unfold narrow F64.Finite
  dsimp only
  split
  · rename_i hx
    split <;> simp [hx]
  · rename_i hx
    split
    · rename_i hm
      constructor
      · intro h; cases h
      · rintro ⟨-, -, h⟩; omega
    · rename_i hm
      constructor
      · intro h; cases h; exact ⟨rfl, hx, by omega⟩
      · rintro ⟨rfl, -, -⟩; rfl

end Dis
