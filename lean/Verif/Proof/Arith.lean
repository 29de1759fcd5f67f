import Verif.Py.Arith
import Verif.Proof.FloatValue

/-!
# Rounding of binary64 arithmetic
-/

set_option exponentiation.threshold 4096

namespace Dis

/-- Magnitude of the binary64 pattern with the low 63 bits `m`. -/
def mag64 (m : Nat) : Nat :=
  (if m / 2 ^ 52 = 0 then m % 2 ^ 52 else 2 ^ 52 + m % 2 ^ 52) * 2 ^ (max (m / 2 ^ 52) 1 - 1)

theorem F64.mag_eq (x : F64) : x.mag = mag64 (x.expo * 2 ^ 52 + x.frac) := by
  have := x.frac_lt
  unfold F64.mag mag64
  rw [show (x.expo * 2 ^ 52 + x.frac) / 2 ^ 52 = x.expo by omega,
    show (x.expo * 2 ^ 52 + x.frac) % 2 ^ 52 = x.frac by omega]

theorem mag64_normal {E q : Nat} (h1 : 2 ^ 52 ≤ q) (h2 : q ≤ 2 ^ 53) :
    mag64 (E * 2 ^ 52 + q) = q * 2 ^ E := by
  unfold mag64
  by_cases h : q = 2 ^ 53
  · subst h
    rw [show (E * 2 ^ 52 + 2 ^ 53) / 2 ^ 52 = E + 2 by omega,
      show (E * 2 ^ 52 + 2 ^ 53) % 2 ^ 52 = 0 by omega, if_neg (by omega),
      show max (E + 2) 1 - 1 = E + 1 by omega, Nat.pow_succ]
    omega
  · rw [show (E * 2 ^ 52 + q) / 2 ^ 52 = E + 1 by omega,
      show (E * 2 ^ 52 + q) % 2 ^ 52 = q - 2 ^ 52 by omega, if_neg (by omega),
      show max (E + 1) 1 - 1 = E by omega, show 2 ^ 52 + (q - 2 ^ 52) = q by omega]

theorem mag64_subnormal {q : Nat} (h : q ≤ 2 ^ 52) : mag64 q = q := by
  by_cases h2 : q = 2 ^ 52
  · have := mag64_normal (E := 0) (q := q) (by omega) (by omega)
    simpa using this
  · unfold mag64
    rw [show q / 2 ^ 52 = 0 by omega, if_pos rfl, show q % 2 ^ 52 = q by omega]
    simp

theorem mag64_form (m : Nat) : ∃ sg, sg < 2 ^ 53 ∧ mag64 m = sg * 2 ^ (max (m / 2 ^ 52) 1 - 1) := by
  unfold mag64
  refine ⟨_, ?_, rfl⟩
  split <;> omega

/-- The bounds on the significand before rounding. -/
theorem roundMag_bounds (N k : Nat) : let s := max k (N.log2 - 52)
    N ≤ 2 ^ 53 * 2 ^ s ∧ (k < s → 2 ^ 52 * 2 ^ s ≤ N) := by
  intro s
  by_cases h0 : N = 0
  · subst h0
    refine ⟨Nat.zero_le _, fun h => ?_⟩
    have : s = max k 0 := rfl
    omega
  have h1 : N < 2 ^ (N.log2 + 1) := Nat.lt_log2_self
  have h2 : 2 ^ N.log2 ≤ N := Nat.log2_self_le h0
  constructor
  · refine Nat.le_of_lt (Nat.lt_of_lt_of_le h1 ?_)
    rw [← Nat.pow_add]
    exact Nat.pow_le_pow_right (by decide) (by omega)
  · intro h
    refine Nat.le_trans ?_ h2
    rw [← Nat.pow_add]
    exact Nat.pow_le_pow_right (by decide) (by omega)

/-- The rounded bits stand for the rounded multiple of the local spacing. -/
theorem roundMag_value (N k : Nat) : let s := max k (N.log2 - 52)
    mag64 (F64.roundMag N k) * 2 ^ k = rne N s * 2 ^ s ∧
    (F64.roundMag N k) % 2 = rne N s % 2 ∧ rne N s ≤ 2 ^ 53 ∧ (k < s → 2 ^ 52 ≤ rne N s) := by
  intro s
  obtain ⟨b1, b2⟩ := roundMag_bounds N k
  have hu : rne N s ≤ 2 ^ 53 := rne_upper b1
  have hl : k < s → 2 ^ 52 ≤ rne N s := fun h => rne_lower (b2 h)
  refine ⟨?_, ?_, hu, hl⟩
  · show mag64 ((s - k) * 2 ^ 52 + rne N s) * 2 ^ k = _
    by_cases h : k < s
    · rw [mag64_normal (hl h) hu, Nat.mul_assoc, ← Nat.pow_add]
      congr 2; omega
    · have hs : s = k := by omega
      have : s - k = 0 := by omega
      rw [this, hs]
      simp only [Nat.zero_mul, Nat.zero_add]
      by_cases h52 : rne N k ≤ 2 ^ 52
      · rw [mag64_subnormal h52]
      · have := mag64_normal (E := 0) (q := rne N k) (by omega) (hs ▸ hu)
        simp only [Nat.zero_mul, Nat.zero_add, Nat.pow_zero, Nat.mul_one] at this
        rw [this]
  · show ((s - k) * 2 ^ 52 + rne N s) % 2 = _
    omega

/-- Half the local spacing bounds the error. -/
theorem roundMag_error (N k : Nat) :
    2 * ((N : Int) - (mag64 (F64.roundMag N k) * 2 ^ k : Nat)).natAbs ≤ 2 ^ max k (N.log2 - 52) := by
  rw [(roundMag_value N k).1]
  exact (rne_near N _).1

/-- The error is at most 2^-53 of the number, or half a unit. -/
theorem roundMag_relative (N k : Nat) :
    2 ^ 53 * ((N : Int) - (mag64 (F64.roundMag N k) * 2 ^ k : Nat)).natAbs ≤ max N (2 ^ (52 + k)) := by
  have h := roundMag_error N k
  obtain ⟨-, b2⟩ := roundMag_bounds N k
  by_cases hk : k < max k (N.log2 - 52)
  · have := b2 hk
    generalize ((N : Int) - (mag64 (F64.roundMag N k) * 2 ^ k : Nat)).natAbs = d at *
    generalize 2 ^ max k (N.log2 - 52) = S at *
    omega
  · have e : max k (N.log2 - 52) = k := by omega
    rw [e] at h
    rw [Nat.pow_add]
    generalize ((N : Int) - (mag64 (F64.roundMag N k) * 2 ^ k : Nat)).natAbs = d at *
    generalize 2 ^ k = S at *
    omega

/-- Whole numbers of units are rounded with relative error at most 2^-53. -/
theorem roundMag_relative_zero (N : Nat) :
    2 ^ 53 * ((N : Int) - (mag64 (F64.roundMag N 0) : Nat)).natAbs ≤ N := by
  have v := (roundMag_value N 0).1
  by_cases hk : 0 < max 0 (N.log2 - 52)
  · have h := roundMag_error N 0
    have := (roundMag_bounds N 0).2 hk
    rw [Nat.pow_zero, Nat.mul_one] at h
    generalize ((N : Int) - (mag64 (F64.roundMag N 0) : Nat)).natAbs = d at *
    generalize 2 ^ max 0 (N.log2 - 52) = S at *
    omega
  · have e : max 0 (N.log2 - 52) = 0 := by omega
    rw [e, Nat.pow_zero, Nat.mul_one, Nat.mul_one] at v
    have r : rne N 0 = N := by simpa using rne_exact N 0
    rw [v, r]
    simp

/-! ## Nearest -/

/-- No binary64 magnitude is nearer; if another one is as near, the bits are even. -/
theorem roundMag_nearest (N k m' : Nat) :
    ((N : Int) - (mag64 (F64.roundMag N k) * 2 ^ k : Nat)).natAbs
      ≤ ((N : Int) - (mag64 m' * 2 ^ k : Nat)).natAbs ∧
    (((N : Int) - (mag64 (F64.roundMag N k) * 2 ^ k : Nat)).natAbs
        = ((N : Int) - (mag64 m' * 2 ^ k : Nat)).natAbs →
      mag64 m' ≠ mag64 (F64.roundMag N k) → F64.roundMag N k % 2 = 0) := by
  obtain ⟨v, par, hu, hl⟩ := roundMag_value N k
  obtain ⟨n1, n2⟩ := rne_near N (max k (N.log2 - 52))
  have b := roundMag_bounds N k
  have hne : mag64 m' ≠ mag64 (F64.roundMag N k) →
      mag64 m' * 2 ^ k ≠ rne N (max k (N.log2 - 52)) * 2 ^ max k (N.log2 - 52) := by
    intro h e
    rw [← v] at e
    exact h (Nat.eq_of_mul_eq_mul_right (Nat.pow_pos (by decide)) e)
  rw [v, par]
  have hks : k ≤ max k (N.log2 - 52) := Nat.le_max_left ..
  generalize max k (N.log2 - 52) = s at *
  generalize rne N s = q at *
  have hgrid : ∀ j, mag64 m' * 2 ^ k = j * 2 ^ s →
      ((N : Int) - (q * 2 ^ s : Nat)).natAbs ≤ ((N : Int) - (mag64 m' * 2 ^ k : Nat)).natAbs ∧
      (((N : Int) - (q * 2 ^ s : Nat)).natAbs = ((N : Int) - (mag64 m' * 2 ^ k : Nat)).natAbs →
        mag64 m' ≠ mag64 (F64.roundMag N k) → q % 2 = 0) := by
    intro j hj
    obtain ⟨g1, g2⟩ := grid n1 j
    rw [hj]
    refine ⟨g1, fun h1 h2 => n2 (g2 h1 fun h => hne h2 (by rw [hj, h]))⟩
  obtain ⟨sg, hsg, hm'⟩ := mag64_form m'
  by_cases hc : s ≤ max (m' / 2 ^ 52) 1 - 1 + k
  · refine hgrid (sg * 2 ^ (max (m' / 2 ^ 52) 1 - 1 + k - s)) ?_
    rw [hm', Nat.mul_assoc, ← Nat.pow_add, Nat.mul_assoc, ← Nat.pow_add]
    congr 2
    omega
  · have hks' : k < s := by omega
    have hN := b.2 hks'
    have hZ : mag64 m' * 2 ^ k < 2 ^ 52 * 2 ^ s := by
      rw [hm', Nat.mul_assoc, ← Nat.pow_add]
      have h1 : 2 ^ (max (m' / 2 ^ 52) 1 - 1 + k + 1) ≤ 2 ^ s :=
        Nat.pow_le_pow_right (by decide) (by omega)
      rw [Nat.pow_succ] at h1
      have h0 : 0 < 2 ^ (max (m' / 2 ^ 52) 1 - 1 + k) := Nat.pow_pos (by decide)
      generalize 2 ^ (max (m' / 2 ^ 52) 1 - 1 + k) = A at *
      generalize 2 ^ s = U at *
      calc sg * A < 2 ^ 53 * A := Nat.mul_lt_mul_of_pos_right hsg h0
        _ = 2 ^ 52 * (A * 2) := by omega
        _ ≤ 2 ^ 52 * U := Nat.mul_le_mul_left _ h1
    have g := (grid n1 (2 ^ 52)).1
    generalize mag64 m' * 2 ^ k = Z at *
    generalize 2 ^ 52 * 2 ^ s = V at *
    generalize q * 2 ^ s = Y at *
    constructor
    · omega
    · intro h; omega

/-! ## Monotone -/

theorem rne_mono {a b s : Nat} (h : a ≤ b) : rne a s ≤ rne b s := by
  have hp : 0 < 2 ^ s := Nat.pow_pos (by decide)
  have hd := Nat.div_add_mod a (2 ^ s)
  have hm := Nat.mod_lt a hp
  have hd' := Nat.div_add_mod b (2 ^ s)
  have hm' := Nat.mod_lt b hp
  have hle : a / 2 ^ s ≤ b / 2 ^ s := Nat.div_le_div_right h
  unfold rne
  dsimp only
  rcases Nat.lt_or_ge (a / 2 ^ s) (b / 2 ^ s) with hlt | hge
  · split <;> split <;> omega
  · have e : a / 2 ^ s = b / 2 ^ s := by omega
    rw [e] at hd ⊢
    have : a % 2 ^ s ≤ b % 2 ^ s := by omega
    split <;> split <;> omega

theorem log2_mono {a b : Nat} (h : a ≤ b) : a.log2 ≤ b.log2 := by
  by_cases h0 : a = 0
  · subst h0; simp
  · by_cases hb : b = 0
    · omega
    · exact (Nat.le_log2 hb).2 (Nat.le_trans (Nat.log2_self_le h0) h)

theorem roundMag_mono {a b : Nat} (k : Nat) (h : a ≤ b) : F64.roundMag a k ≤ F64.roundMag b k := by
  have hl := log2_mono h
  obtain ⟨-, -, hu, -⟩ := roundMag_value a k
  obtain ⟨-, -, -, hl'⟩ := roundMag_value b k
  unfold F64.roundMag
  dsimp only
  rcases Nat.lt_or_ge (max k (a.log2 - 52)) (max k (b.log2 - 52)) with hs | hs
  · have hk : k ≤ max k (a.log2 - 52) := Nat.le_max_left ..
    have := hl' (by omega)
    generalize max k (a.log2 - 52) = s at *
    generalize max k (b.log2 - 52) = s' at *
    omega
  · have e : max k (a.log2 - 52) = max k (b.log2 - 52) := by omega
    rw [e]
    exact Nat.add_le_add_left (rne_mono h) _

/-! ## The results as patterns -/

theorem F64.ofMag_finite {s m : Nat} (hs : s < 2) (h : (F64.ofMag s m).Finite) :
    m < 2047 * 2 ^ 52 ∧ (F64.ofMag s m).sign = s ∧ (F64.ofMag s m).mag = mag64 m := by
  have hm : m < 2047 * 2 ^ 52 := by
    refine Nat.lt_of_not_le fun hm => h ?_
    unfold F64.ofMag
    rw [if_neg (by omega)]
    exact F64.expo_mk hs (by decide) (by decide)
  have e : F64.ofMag s m = F64.mk s (m / 2 ^ 52) (m % 2 ^ 52) := by
    unfold F64.ofMag F64.mk
    rw [if_pos hm]
    exact congrArg (BitVec.ofNat 64) (by omega)
  have h1 : m / 2 ^ 52 < 2048 := by omega
  have h2 : m % 2 ^ 52 < 2 ^ 52 := by omega
  refine ⟨hm, by rw [e, F64.sign_mk hs h1 h2], ?_⟩
  rw [F64.mag_eq, e, F64.expo_mk hs h1 h2, F64.frac_mk hs h1 h2]
  congr 1
  omega

theorem F64.ofMag_is_finite {s m : Nat} (hs : s < 2) (hm : m < 2047 * 2 ^ 52) :
    (F64.ofMag s m).Finite := by
  have e : F64.ofMag s m = F64.mk s (m / 2 ^ 52) (m % 2 ^ 52) := by
    unfold F64.ofMag F64.mk
    rw [if_pos hm]
    exact congrArg (BitVec.ofNat 64) (by omega)
  unfold F64.Finite
  rw [e, F64.expo_mk hs (by omega) (by omega)]
  omega

theorem F64.nan_expo : F64.nan.expo = 2047 := F64.expo_mk (by decide) (by decide) (by decide)

/-- A finite sum has finite summands, and is the rounded exact sum. -/
theorem F64.add_finite {x y : F64} (h : (F64.add x y).Finite) :
    x.Finite ∧ y.Finite ∧ ((F64.add x y).units = 0 ∧ x.units + y.units = 0 ∨
      F64.add x y = F64.ofMag (if x.units + y.units < 0 then 1 else 0)
        (F64.roundMag (x.units + y.units).natAbs 0) ∧ x.units + y.units ≠ 0) := by
  unfold F64.Finite at *
  unfold F64.add at *
  split at h
  · exfalso; revert h
    rename_i hx
    split
    · exact fun h => h F64.nan_expo
    · split
      · split
        · exact fun h => h F64.nan_expo
        · split
          · exact fun h => h hx
          · exact fun h => h F64.nan_expo
      · exact fun h => h hx
  · rename_i hx
    rw [if_neg hx]
    split at h
    · exfalso; revert h
      rename_i hy
      split
      · exact fun h => h F64.nan_expo
      · exact fun h => h hy
    · rename_i hy
      rw [if_neg hy]
      refine ⟨hx, hy, ?_⟩
      dsimp only
      split
      · rename_i h0
        left
        refine ⟨?_, h0⟩
        split <;> decide
      · rename_i h0
        exact .inr ⟨rfl, h0⟩

/-- A finite product has finite factors, and is the rounded exact product. -/
theorem F64.mul_finite {x y : F64} (h : (F64.mul x y).Finite) :
    x.Finite ∧ y.Finite ∧
      F64.mul x y = F64.ofMag ((x.sign + y.sign) % 2) (F64.roundMag (x.mag * y.mag) 1074) := by
  unfold F64.Finite at *
  unfold F64.mul at *
  dsimp only at *
  split at h
  · exact absurd F64.nan_expo h
  · rename_i h1
    rw [if_neg h1]
    split at h
    · exfalso; revert h
      split
      · exact fun h => h F64.nan_expo
      · exact fun h => h (F64.expo_mk (by omega) (by decide) (by decide))
    · rename_i h2
      rw [if_neg h2]
      exact ⟨fun h => h2 (.inl h), fun h => h2 (.inr h), rfl⟩

/-- Finite numbers of which the exact sum rounds below infinity have a finite sum. -/
theorem F64.add_is_finite {x y : F64} (hx : x.Finite) (hy : y.Finite)
    (h : F64.roundMag (x.units + y.units).natAbs 0 < 2047 * 2 ^ 52) : (F64.add x y).Finite := by
  unfold F64.Finite at hx hy
  unfold F64.add
  rw [if_neg hx, if_neg hy]
  dsimp only
  split
  · unfold F64.Finite
    split <;> decide
  · exact F64.ofMag_is_finite (by split <;> decide) h

theorem F64.mul_is_finite {x y : F64} (hx : x.Finite) (hy : y.Finite)
    (h : F64.roundMag (x.mag * y.mag) 1074 < 2047 * 2 ^ 52) : (F64.mul x y).Finite := by
  unfold F64.Finite at hx hy
  unfold F64.mul
  dsimp only
  rw [if_neg (by rintro (h | h); exact hx h.1; exact hy h.1), if_neg (by rintro (h | h); exact hx h; exact hy h)]
  exact F64.ofMag_is_finite (by omega) h

/-! ## Values of the results -/

theorem F64.units_abs (x : F64) : x.units.natAbs = x.mag := by
  unfold F64.units
  split <;> omega

theorem mag64_zero : mag64 0 = 0 := by simp [mag64]

theorem roundMag_zero (k : Nat) : F64.roundMag 0 k = 0 := by
  unfold F64.roundMag
  simp [rne_zero]

/-- Signed version of `roundMag_nearest` and `roundMag_relative`: `n` is the exact result in units of
2^-(1074+k), the bits are those of the rounded one. -/
theorem F64.rounded {z : F64} {n : Int} {k : Nat} (hz : z.Finite)
    (h : ∃ s : Nat, s < 2 ∧ z = F64.ofMag s (F64.roundMag n.natAbs k) ∧
      n = if s = 1 then -(n.natAbs : Int) else n.natAbs) :
    ∃ s : Nat, s < 2 ∧ z.sign = s ∧ (n = if s = 1 then -(n.natAbs : Int) else n.natAbs) ∧
      z.mag = mag64 (F64.roundMag n.natAbs k) ∧
      (z.units * 2 ^ k - n).natAbs
        = ((n.natAbs : Int) - (mag64 (F64.roundMag n.natAbs k) * 2 ^ k : Nat)).natAbs := by
  obtain ⟨s, hs, e, hn⟩ := h
  rw [e] at hz
  obtain ⟨-, h1, h2⟩ := F64.ofMag_finite hs hz
  rw [← e] at h1 h2
  refine ⟨s, hs, h1, hn, h2, ?_⟩
  have hu : z.units = if s = 1 then -(mag64 (F64.roundMag n.natAbs k) : Int)
      else mag64 (F64.roundMag n.natAbs k) := by
    unfold F64.units
    rw [h1, h2]
  rw [hu, Int.natCast_mul, Int.natCast_pow]
  generalize F64.roundMag n.natAbs k = m at *
  generalize (mag64 m : Int) = M at *
  split
  · rename_i h1
    rw [if_pos h1] at hn
    rw [Int.neg_mul]
    generalize M * 2 ^ k = P at *
    omega
  · rename_i h1
    rw [if_neg h1] at hn
    generalize M * 2 ^ k = P at *
    omega

theorem F64.add_form {x y : F64} (h : (F64.add x y).Finite) (h0 : x.units + y.units ≠ 0) :
    ∃ s : Nat, s < 2 ∧ F64.add x y = F64.ofMag s (F64.roundMag (x.units + y.units).natAbs 0) ∧
      x.units + y.units
        = if s = 1 then -((x.units + y.units).natAbs : Int) else (x.units + y.units).natAbs := by
  obtain ⟨-, -, ⟨-, h1⟩ | ⟨h1, -⟩⟩ := F64.add_finite h
  · exact absurd h1 h0
  · refine ⟨_, ?_, h1, ?_⟩
    · split <;> decide
    · by_cases hh : x.units + y.units < 0
      · rw [if_pos hh, if_pos rfl]; omega
      · rw [if_neg hh, if_neg (by decide)]; omega

theorem F64.units_mul (x y : F64) : ((x.sign + y.sign) % 2 = 1 → x.units * y.units = -(x.mag * y.mag : Nat)) ∧
    ((x.sign + y.sign) % 2 ≠ 1 → x.units * y.units = (x.mag * y.mag : Nat)) := by
  have hx := x.sign_lt
  have hy := y.sign_lt
  unfold F64.units
  rw [Int.natCast_mul]
  by_cases h1 : x.sign = 1 <;> by_cases h2 : y.sign = 1
  · rw [if_pos h1, if_pos h2, Int.neg_mul_neg]
    exact ⟨fun h => by omega, fun _ => rfl⟩
  · rw [if_pos h1, if_neg h2, Int.neg_mul]
    exact ⟨fun _ => rfl, fun h => by omega⟩
  · rw [if_neg h1, if_pos h2, Int.mul_neg]
    exact ⟨fun _ => rfl, fun h => by omega⟩
  · rw [if_neg h1, if_neg h2]
    exact ⟨fun h => by omega, fun _ => rfl⟩

theorem F64.mul_form {x y : F64} (h : (F64.mul x y).Finite) :
    ∃ s : Nat, s < 2 ∧ F64.mul x y = F64.ofMag s (F64.roundMag (x.units * y.units).natAbs 1074) ∧
      x.units * y.units
        = if s = 1 then -((x.units * y.units).natAbs : Int) else (x.units * y.units).natAbs := by
  obtain ⟨-, -, e⟩ := F64.mul_finite h
  obtain ⟨m1, m2⟩ := F64.units_mul x y
  have ha : (x.units * y.units).natAbs = x.mag * y.mag := by
    rw [Int.natAbs_mul, F64.units_abs, F64.units_abs]
  refine ⟨(x.sign + y.sign) % 2, Nat.mod_lt _ (by decide), by rw [ha]; exact e, ?_⟩
  rw [ha]
  split
  · rename_i h1
    exact m1 h1
  · rename_i h1
    exact m2 h1

theorem F64.add_error {x y : F64} (h : (F64.add x y).Finite) :
    2 ^ 53 * ((F64.add x y).units - (x.units + y.units)).natAbs ≤ (x.units + y.units).natAbs := by
  by_cases h0 : x.units + y.units = 0
  · obtain ⟨-, -, ⟨h1, -⟩ | ⟨-, h1⟩⟩ := F64.add_finite h
    · rw [h1, h0]; decide
    · exact absurd h0 h1
  · obtain ⟨s, -, -, -, -, hd⟩ := F64.rounded h (F64.add_form h h0)
    have hr := roundMag_relative_zero (x.units + y.units).natAbs
    rw [Int.pow_zero, Int.mul_one, Nat.pow_zero, Nat.mul_one] at hd
    rw [hd]
    exact hr

theorem F64.mul_error {x y : F64} (h : (F64.mul x y).Finite) :
    2 ^ 53 * ((F64.mul x y).units * 2 ^ 1074 - x.units * y.units).natAbs
      ≤ max (x.units * y.units).natAbs (2 ^ (52 + 1074)) := by
  obtain ⟨s, -, -, -, -, hd⟩ := F64.rounded h (F64.mul_form h)
  rw [hd]
  exact roundMag_relative _ _

/-- A rounded result is a nearest double, with an even significand if there are two. -/
theorem F64.rounded_nearest {z : F64} {n : Int} {k : Nat} (hz : z.Finite)
    (h : ∃ s : Nat, s < 2 ∧ z = F64.ofMag s (F64.roundMag n.natAbs k) ∧
      n = if s = 1 then -(n.natAbs : Int) else n.natAbs) (w : F64) :
    (z.units * 2 ^ k - n).natAbs ≤ (w.units * 2 ^ k - n).natAbs ∧
    ((z.units * 2 ^ k - n).natAbs = (w.units * 2 ^ k - n).natAbs → w.units ≠ z.units →
      z.frac % 2 = 0) := by
  obtain ⟨s, hs, hzs, hn, hzm, hd⟩ := F64.rounded hz h
  obtain ⟨a1, a2⟩ := roundMag_nearest n.natAbs k (w.expo * 2 ^ 52 + w.frac)
  obtain ⟨b1, b2⟩ := roundMag_nearest n.natAbs k 0
  have hpar : z.frac % 2 = F64.roundMag n.natAbs k % 2 := by
    have : z.expo * 2 ^ 52 + z.frac = F64.roundMag n.natAbs k := by
      obtain ⟨s', hs', e, -⟩ := h
      have hz' := hz
      rw [e] at hz'
      have hm := (F64.ofMag_finite hs' hz').1
      have hf := z.frac_lt
      have e2 : z.toNat = s' * 2 ^ 63 + F64.roundMag n.natAbs k := by
        rw [e]
        unfold F64.ofMag
        rw [if_pos hm, BitVec.toNat_ofNat]
        exact Nat.mod_eq_of_lt (by omega)
      unfold F64.expo F64.frac
      rw [e2]
      omega
    omega
  rw [← F64.mag_eq] at a1 a2
  rw [mag64_zero] at b1 b2
  rw [hd, hpar, ← hzm]
  rw [← hzm] at a1 a2 b1 b2
  have hp : 0 < 2 ^ k := Nat.pow_pos (by decide)
  have hw : (w.units * 2 ^ k - n).natAbs
      = if w.sign = s then ((n.natAbs : Int) - (w.mag * 2 ^ k : Nat)).natAbs
        else n.natAbs + w.mag * 2 ^ k := by
    have hws := w.sign_lt
    unfold F64.units
    rw [Int.natCast_mul, Int.natCast_pow]
    generalize hM : (w.mag : Int) = M at *
    have hM0 : 0 ≤ M * 2 ^ k := by
      rw [← hM]
      exact Int.mul_nonneg (Int.natCast_nonneg _) (Int.pow_nonneg (by decide))
    have hM1 : w.mag * 2 ^ k = (M * 2 ^ k).natAbs := by
      rw [← hM, Int.natAbs_mul, Int.natAbs_pow]
      rfl
    rw [hM1]
    by_cases h1 : w.sign = 1 <;> by_cases h2 : s = 1 <;> simp only [h1, h2, if_true, if_false] at hn ⊢
    · rw [Int.neg_mul]; generalize M * 2 ^ k = P at *; omega
    · rw [Int.neg_mul, if_neg (by omega)]; generalize M * 2 ^ k = P at *; omega
    · generalize M * 2 ^ k = P at *; omega
    · rw [if_pos (by omega)]; generalize M * 2 ^ k = P at *; omega
  have hwz : w.units ≠ z.units → w.sign = s → w.mag ≠ z.mag := by
    intro h1 h2 h3
    apply h1
    unfold F64.units
    rw [h2, hzs, h3]
  rw [hw]
  split
  · rename_i h1
    exact ⟨a1, fun h2 h3 => a2 h2 (hwz h3 h1)⟩
  · rename_i h1
    simp only [Nat.zero_mul, Int.ofNat_zero, Int.sub_zero, Int.natAbs_natCast] at b1 b2
    have hB : ((n.natAbs : Int) - (z.mag * 2 ^ k : Nat)).natAbs ≤ n.natAbs := by
      simpa using b1
    refine ⟨by omega, fun h2 h3 => ?_⟩
    by_cases hzz : z.mag = 0
    · by_cases hww : w.mag = 0
      · exfalso
        apply h3
        unfold F64.units
        rw [hzz, hww]
        simp
      · have : 0 < w.mag * 2 ^ k := Nat.mul_pos (by omega) hp
        omega
    · refine b2 ?_ (by omega)
      have : w.mag * 2 ^ k = 0 := by omega
      omega

/-! ## Overflow -/

theorem roundMag_overflow (N k : Nat) :
    2047 * 2 ^ 52 ≤ F64.roundMag N k ↔ (2 ^ 54 - 1) * 2 ^ (2044 + k) ≤ N := by
  obtain ⟨-, -, hu, hl⟩ := roundMag_value N k
  have hks : k ≤ max k (N.log2 - 52) := Nat.le_max_left ..
  have hsl : N.log2 ≤ max k (N.log2 - 52) + 52 := by omega
  have hsl2 : k < max k (N.log2 - 52) → max k (N.log2 - 52) + 52 = N.log2 := by omega
  show 2047 * 2 ^ 52 ≤ (max k (N.log2 - 52) - k) * 2 ^ 52 + rne N (max k (N.log2 - 52)) ↔ _
  generalize max k (N.log2 - 52) = s at *
  have hp : 0 < 2 ^ s := Nat.pow_pos (by decide)
  have hd := Nat.div_add_mod N (2 ^ s)
  have hm := Nat.mod_lt N hp
  have key : s = 2045 + k → (2 ^ 53 ≤ rne N s ↔ (2 ^ 54 - 1) * 2 ^ (2044 + k) ≤ N) := by
    intro hs
    have e : 2 ^ s = 2 * 2 ^ (2044 + k) := by
      rw [hs, show 2045 + k = 2044 + k + 1 by omega, Nat.pow_succ, Nat.mul_comm]
    unfold rne
    dsimp only
    generalize N % 2 ^ s = r at *
    generalize N / 2 ^ s = q at *
    generalize 2 ^ (2044 + k) = T at *
    generalize 2 ^ s = U at *
    subst e
    rcases Nat.lt_trichotomy q (2 ^ 53 - 1) with h | h | h
    · have : 2 * T * q ≤ 2 * T * (2 ^ 53 - 2) := Nat.mul_le_mul_left _ (by omega)
      split <;> omega
    · subst h
      split <;> omega
    · have : 2 * T * 2 ^ 53 ≤ 2 * T * q := Nat.mul_le_mul_left _ (by omega)
      split <;> omega
  rcases Nat.lt_trichotomy s (2045 + k) with h | h | h
  · refine iff_of_false (by omega) ?_
    have h1 : N < 2 ^ (N.log2 + 1) := Nat.lt_log2_self
    have h2 : 2 ^ (N.log2 + 1) ≤ 2 ^ (53 + (2044 + k)) := Nat.pow_le_pow_right (by decide) (by omega)
    rw [Nat.pow_add 2 53] at h2
    generalize 2 ^ (2044 + k) = T at *
    omega
  · rw [← key h]
    omega
  · refine iff_of_true ?_ ?_
    · have := hl (by omega)
      omega
    · have h0 : N ≠ 0 := by
        rintro rfl
        have := hsl2 (by omega)
        have e : Nat.log2 0 = 0 := by simp
        omega
      have h1 : 2 ^ N.log2 ≤ N := Nat.log2_self_le h0
      have h2 : 2 ^ (54 + (2044 + k)) ≤ 2 ^ N.log2 := Nat.pow_le_pow_right (by decide) (by
        have := hsl2 (by omega)
        omega)
      rw [Nat.pow_add 2 54] at h2
      generalize 2 ^ (2044 + k) = T at *
      omega

theorem F64.add_finite_iff {x y : F64} (hx : x.Finite) (hy : y.Finite) :
    (F64.add x y).Finite ↔ (x.units + y.units).natAbs < (2 ^ 54 - 1) * 2 ^ 2044 := by
  have ho := roundMag_overflow (x.units + y.units).natAbs 0
  rw [Nat.add_zero] at ho
  constructor
  · intro h
    by_cases h0 : x.units + y.units = 0
    · rw [h0]
      have : 0 < 2 ^ 2044 := Nat.pow_pos (by decide)
      generalize 2 ^ 2044 = T at *
      show 0 < _
      omega
    · obtain ⟨s, hs, e, -⟩ := F64.add_form h h0
      have := (F64.ofMag_finite hs (e ▸ h)).1
      exact Nat.lt_of_not_le fun hc => by
        have := ho.2 hc
        omega
  · intro h
    exact F64.add_is_finite hx hy (Nat.lt_of_not_le fun hc => by
      have := ho.1 hc
      omega)

theorem F64.mul_finite_iff {x y : F64} (hx : x.Finite) (hy : y.Finite) :
    (F64.mul x y).Finite ↔ (x.units * y.units).natAbs < (2 ^ 54 - 1) * 2 ^ (2044 + 1074) := by
  have ho := roundMag_overflow (x.units * y.units).natAbs 1074
  constructor
  · intro h
    obtain ⟨s, hs, e, -⟩ := F64.mul_form h
    have := (F64.ofMag_finite hs (e ▸ h)).1
    exact Nat.lt_of_not_le fun hc => by
      have := ho.2 hc
      omega
  · intro h
    refine F64.mul_is_finite hx hy (Nat.lt_of_not_le fun hc => ?_)
    rw [← F64.units_abs, ← F64.units_abs, ← Int.natAbs_mul] at hc
    have := ho.1 hc
    omega

/-! ## Negation, subtraction -/

theorem F64.neg_sign (x : F64) : (F64.neg x).sign = 1 - x.sign :=
  F64.sign_mk (by omega) x.expo_lt x.frac_lt
theorem F64.neg_expo (x : F64) : (F64.neg x).expo = x.expo :=
  F64.expo_mk (by omega) x.expo_lt x.frac_lt
theorem F64.neg_frac (x : F64) : (F64.neg x).frac = x.frac :=
  F64.frac_mk (by omega) x.expo_lt x.frac_lt

theorem F64.neg_finite {x : F64} : (F64.neg x).Finite ↔ x.Finite := by
  unfold F64.Finite
  rw [F64.neg_expo]

theorem F64.neg_mag (x : F64) : (F64.neg x).mag = x.mag := by
  unfold F64.mag
  rw [F64.neg_expo, F64.neg_frac]

theorem F64.neg_units (x : F64) : (F64.neg x).units = -x.units := by
  have := x.sign_lt
  unfold F64.units
  rw [F64.neg_sign, F64.neg_mag]
  split <;> split <;> omega

/-! ## Division -/

/-- Rounding the quotient with its marked last bit errs by at most half the local spacing from the
exact quotient; all distances multiplied by the divisor. -/
theorem roundMag_quotient (A d : Nat) (hd : 0 < d) : let N := 2 * (A / d) + if A % d = 0 then 0 else 1
    2 * ((2 * A : Int) - (mag64 (F64.roundMag N 2) * 4 * d : Nat)).natAbs ≤ 2 ^ max 2 (N.log2 - 52) * d ∧
    (2 < max 2 (N.log2 - 52) → 2 ^ 52 * 2 ^ max 2 (N.log2 - 52) * d ≤ 2 * A) := by
  intro N
  have hA := Nat.div_add_mod A d
  have hr := Nat.mod_lt A hd
  obtain ⟨v, -, -, -⟩ := roundMag_value N 2
  have herr := roundMag_error N 2
  obtain ⟨-, hb⟩ := roundMag_bounds N 2
  have hs2 : 2 ≤ max 2 (N.log2 - 52) := Nat.le_max_left ..
  have hN : N = 2 * (A / d) + if A % d = 0 then 0 else 1 := rfl
  rw [v] at herr
  have e4 : mag64 (F64.roundMag N 2) * 4 * d = rne N (max 2 (N.log2 - 52)) * 2 ^ max 2 (N.log2 - 52) * d := by
    rw [← v]
  rw [e4]
  generalize hs : max 2 (N.log2 - 52) = s at *
  clear_value N
  obtain ⟨t, rfl⟩ : ∃ t, s = t + 2 := ⟨s - 2, by omega⟩
  have e : 2 ^ (t + 2) = 4 * 2 ^ t := by rw [Nat.pow_succ, Nat.pow_succ]; omega
  generalize rne N (t + 2) = q at *
  generalize 2 ^ t = T at *
  generalize 2 ^ (t + 2) = U at *
  subst e
  generalize hQ : A / d = Q at *
  generalize hR : A % d = R at *
  have e1 : q * (4 * T) = 4 * (q * T) := by rw [Nat.mul_left_comm]
  generalize q * T = Y at *
  generalize q * (4 * T) = Z at *
  subst e1
  clear hs e4 v
  by_cases hR0 : R = 0
  · rw [if_pos hR0, Nat.add_zero] at hN
    subst hR0 hN
    rw [Nat.add_zero] at hA
    have hA2 : (2 * A : Int) = ((2 * Q * d : Nat) : Int) := by
      rw [← hA, Nat.mul_assoc, Nat.mul_comm d Q]
      rfl
    constructor
    · rw [hA2]
      have hsub : ((2 * Q * d : Nat) : Int) - (4 * Y * d : Nat) = ((2 * Q : Nat) - (4 * Y : Nat) : Int) * d := by
        rw [Int.sub_mul, Int.natCast_mul, Int.natCast_mul _ d]
      rw [hsub, Int.natAbs_mul, Int.natAbs_natCast, ← Nat.mul_assoc]
      exact Nat.mul_le_mul_right _ herr
    · intro h
      have := Nat.mul_le_mul_right d (hb h)
      rw [← hA]
      calc _ ≤ 2 * Q * d := this
        _ = 2 * (d * Q) := by rw [Nat.mul_assoc, Nat.mul_comm Q d]
  · rw [if_neg hR0] at hN
    subst hN
    have herr' : 2 * ((2 * Q + 1 : Int) - (4 * Y : Nat)).natAbs + 2 ≤ 4 * T := by omega
    have hb' : 2 < t + 2 → 2 ^ 52 * (4 * T) ≤ 2 * Q := fun h => by
      have := hb h
      omega
    constructor
    · -- 2 A lies strictly between 2 Q d and (2 Q + 2) d
      have h1 : d * Q < A := by omega
      have h2 : A < d * Q + d := by omega
      rcases Int.le_total (4 * Y : Nat) (2 * Q) with hc | hc
      · obtain ⟨D, hD⟩ : ∃ D : Nat, Q = 2 * Y + D := ⟨Q - 2 * Y, by omega⟩
        have hT : 2 * D + 2 ≤ 2 * T := by omega
        have hm := Nat.mul_le_mul_left d hT
        rw [Nat.mul_add] at hm
        have e2 : d * Q = 2 * (Y * d) + D * d := by rw [hD, Nat.mul_add, Nat.mul_comm d D, Nat.mul_left_comm, Nat.mul_comm d Y]
        have e3 : d * (2 * D) = 2 * (D * d) := by rw [Nat.mul_left_comm, Nat.mul_comm d D]
        have e4 : d * (2 * T) = 2 * (T * d) := by rw [Nat.mul_left_comm, Nat.mul_comm d T]
        have e5 : 4 * Y * d = 4 * (Y * d) := Nat.mul_assoc ..
        have e6 : 4 * T * d = 4 * (T * d) := Nat.mul_assoc ..
        rw [e5, e6]
        rw [e2] at h1 h2
        rw [e3, e4] at hm
        generalize Y * d = a at *
        generalize D * d = b at *
        generalize T * d = c at *
        omega
      · obtain ⟨D, hD⟩ : ∃ D : Nat, 2 * Y = Q + D := ⟨2 * Y - Q, by omega⟩
        have hT : 2 * D ≤ 2 * T := by omega
        have hT1 : d ≤ T * d := Nat.le_mul_of_pos_left _ (by omega)
        have hm := Nat.mul_le_mul_left d hT
        have e2 : 2 * (Y * d) = d * Q + D * d := by
          rw [← Nat.mul_assoc, hD, Nat.add_mul, Nat.mul_comm Q d]
        have e3 : d * (2 * D) = 2 * (D * d) := by rw [Nat.mul_left_comm, Nat.mul_comm d D]
        have e4 : d * (2 * T) = 2 * (T * d) := by rw [Nat.mul_left_comm, Nat.mul_comm d T]
        have e5 : 4 * Y * d = 4 * (Y * d) := Nat.mul_assoc ..
        have e6 : 4 * T * d = 4 * (T * d) := Nat.mul_assoc ..
        rw [e5, e6]
        rw [e3, e4] at hm
        generalize d * Q = f at *
        generalize Y * d = a at *
        generalize D * d = b at *
        generalize T * d = c at *
        omega
    · intro h
      have := Nat.mul_le_mul_right d (hb' h)
      have e2 : 2 * Q * d = 2 * (d * Q) := by rw [Nat.mul_assoc, Nat.mul_comm Q d]
      rw [e2] at this
      omega

theorem F64.div_finite {x y : F64} (h : (F64.div x y).Finite) (hy : y.Finite) :
    x.Finite ∧ y.mag ≠ 0 ∧ F64.div x y = F64.ofMag ((x.sign + y.sign) % 2)
      (F64.roundMag (2 * (x.mag * 2 ^ 1075 / y.mag) + if x.mag * 2 ^ 1075 % y.mag = 0 then 0 else 1) 2) := by
  unfold F64.Finite at *
  unfold F64.div at *
  dsimp only at *
  split at h
  · exact absurd F64.nan_expo h
  · rename_i h1
    rw [if_neg h1]
    split at h
    · exact absurd (F64.expo_mk (by omega) (by decide) (by decide)) h
    · rename_i h2
      rw [if_neg h2, if_neg hy]
      split at h
      · exfalso; revert h
        split
        · exact fun h => h F64.nan_expo
        · exact fun h => h (F64.expo_mk (by omega) (by decide) (by decide))
      · rename_i h3
        rw [if_neg h3]
        exact ⟨h2, h3, rfl⟩

theorem F64.div_error {x y : F64} (h : (F64.div x y).Finite) (hy : y.Finite) :
    2 ^ 53 * ((F64.div x y).units * y.units - x.units * 2 ^ 1074).natAbs
      ≤ max (x.units.natAbs * 2 ^ 1074) (2 ^ 52 * y.units.natAbs) := by
  obtain ⟨hx, h0, e⟩ := F64.div_finite h hy
  have hs : (x.sign + y.sign) % 2 < 2 := Nat.mod_lt _ (by decide)
  obtain ⟨-, hzs, hzm⟩ := F64.ofMag_finite hs (e ▸ h)
  rw [← e] at hzs hzm
  obtain ⟨q1, q2⟩ := roundMag_quotient (x.mag * 2 ^ 1075) y.mag (by omega)
  rw [← hzm] at q1
  have hsx := x.sign_lt
  have hsy := y.sign_lt
  have hd : ((F64.div x y).units * y.units - x.units * 2 ^ 1074).natAbs
      = ((x.mag * 2 ^ 1074 : Nat) - ((F64.div x y).mag * y.mag : Nat) : Int).natAbs := by
    rw [Int.natCast_mul, Int.natCast_mul, Int.natCast_pow]
    show _ = ((x.mag : Int) * 2 ^ 1074 - _).natAbs
    unfold F64.units
    rw [hzs]
    generalize (2 : Int) ^ 1074 = U
    rcases (by omega : x.sign = 0 ∨ x.sign = 1) with h1 | h1 <;>
    rcases (by omega : y.sign = 0 ∨ y.sign = 1) with h2 | h2 <;>
    rw [h1, h2] <;> simp only [Nat.reduceAdd, Nat.reduceMod, if_true, if_false, Nat.zero_ne_one,
      Int.neg_mul, Int.mul_neg, Int.neg_neg] <;> omega
  rw [hd, F64.units_abs, F64.units_abs]
  clear hd hzm hzs e
  generalize (F64.div x y).mag = M at *
  obtain ⟨A, hA⟩ : ∃ A, A = x.mag * 2 ^ 1074 := ⟨_, rfl⟩
  have e2 : x.mag * 2 ^ 1075 = 2 * A := by
    rw [hA, Nat.pow_succ 2 1074, ← Nat.mul_assoc, Nat.mul_comm _ 2]
  rw [e2] at q1 q2
  rw [← hA]
  generalize (2 * (2 * A / y.mag) + if 2 * A % y.mag = 0 then 0 else 1) = N at *
  have e3 : M * 4 * y.mag = 4 * (M * y.mag) := by rw [Nat.mul_right_comm, Nat.mul_comm]
  rw [e3] at q1
  by_cases hc : 2 < max 2 (N.log2 - 52)
  · have := q2 hc
    generalize M * y.mag = B at *
    rw [Nat.mul_assoc] at this
    generalize 2 ^ max 2 (N.log2 - 52) * y.mag = C at *
    omega
  · have e4 : max 2 (N.log2 - 52) = 2 := by omega
    rw [e4] at q1
    generalize M * y.mag = B at *
    omega

/-! ## The sign of rounded results, monotonicity -/

theorem mag64_mono {a b : Nat} (h : a ≤ b) : mag64 a ≤ mag64 b := by
  unfold mag64
  have e1 := Nat.div_add_mod a (2 ^ 52)
  have e2 := Nat.div_add_mod b (2 ^ 52)
  have m1 : a % 2 ^ 52 < 2 ^ 52 := Nat.mod_lt _ (by decide)
  have m2 : b % 2 ^ 52 < 2 ^ 52 := Nat.mod_lt _ (by decide)
  generalize a / 2 ^ 52 = E at *
  generalize b / 2 ^ 52 = F at *
  generalize a % 2 ^ 52 = f at *
  generalize b % 2 ^ 52 = g at *
  rcases Nat.lt_trichotomy E F with hlt | heq | hgt
  · by_cases hE : E = 0
    · subst hE
      rw [if_pos rfl, if_neg (by omega)]
      simp only [Nat.max_eq_right (Nat.zero_le 1), Nat.sub_self, Nat.pow_zero, Nat.mul_one]
      have : 0 < 2 ^ (max F 1 - 1) := Nat.pow_pos (by decide)
      exact Nat.le_trans (by omega) (Nat.le_mul_of_pos_right _ this)
    · rw [if_neg hE, if_neg (by omega), show max F 1 - 1 = (F - E - 1) + 1 + (max E 1 - 1) by omega, Nat.pow_add,
        ← Nat.mul_assoc]
      refine Nat.mul_le_mul_right _ ?_
      rw [Nat.pow_succ 2 (F - E - 1), ← Nat.mul_assoc]
      have : 0 < 2 ^ (F - E - 1) := Nat.pow_pos (by decide)
      have := Nat.le_mul_of_pos_right (2 ^ 52 + g) this
      omega
  · subst heq
    refine Nat.mul_le_mul_right _ ?_
    split <;> omega
  · omega

/-- Signed rounding is monotone. -/
theorem F64.rounded_mono {z z' : F64} {n n' : Int} {k : Nat} (hz : z.Finite) (hz' : z'.Finite)
    (h : ∃ s : Nat, s < 2 ∧ z = F64.ofMag s (F64.roundMag n.natAbs k) ∧
      n = if s = 1 then -(n.natAbs : Int) else n.natAbs)
    (h' : ∃ s : Nat, s < 2 ∧ z' = F64.ofMag s (F64.roundMag n'.natAbs k) ∧
      n' = if s = 1 then -(n'.natAbs : Int) else n'.natAbs) (hle : n ≤ n') : z.units ≤ z'.units := by
  obtain ⟨s, hs, e1, hn, hm, -⟩ := F64.rounded hz h
  obtain ⟨s', hs', e1', hn', hm', -⟩ := F64.rounded hz' h'
  unfold F64.units
  rw [hm, hm', e1, e1']
  by_cases h1 : s = 1 <;> by_cases h2 : s' = 1
  · rw [if_pos h1, if_pos h2]
    rw [if_pos h1] at hn
    rw [if_pos h2] at hn'
    have := mag64_mono (roundMag_mono k (show n'.natAbs ≤ n.natAbs by omega))
    omega
  · rw [if_pos h1, if_neg h2]
    omega
  · rw [if_neg h1, if_pos h2]
    rw [if_neg h1] at hn
    rw [if_pos h2] at hn'
    rw [show n.natAbs = 0 by omega, show n'.natAbs = 0 by omega, roundMag_zero, mag64_zero]
    decide
  · rw [if_neg h1, if_neg h2]
    rw [if_neg h1] at hn
    rw [if_neg h2] at hn'
    have := mag64_mono (roundMag_mono k (show n.natAbs ≤ n'.natAbs by omega))
    omega

theorem F64.mul_mono {x y x' y' : F64} (h : (F64.mul x y).Finite) (h' : (F64.mul x' y').Finite)
    (hle : x.units * y.units ≤ x'.units * y'.units) : (F64.mul x y).units ≤ (F64.mul x' y').units :=
  F64.rounded_mono h h' (F64.mul_form h) (F64.mul_form h') hle

theorem F64.ofMag_zero_units (s : Nat) (hs : s < 2) (k : Nat) :
    (F64.ofMag s (F64.roundMag 0 k)).units = 0 := by
  rw [roundMag_zero]
  rcases (by omega : s = 0 ∨ s = 1) with rfl | rfl <;> decide

/-- A finite sum in the form `rounded` speaks of, up to the sign of zero. -/
theorem F64.add_form' {x y : F64} (h : (F64.add x y).Finite) :
    ∃ z : F64, z.Finite ∧ z.units = (F64.add x y).units ∧
      ∃ s : Nat, s < 2 ∧ z = F64.ofMag s (F64.roundMag (x.units + y.units).natAbs 0) ∧
      x.units + y.units
        = if s = 1 then -((x.units + y.units).natAbs : Int) else (x.units + y.units).natAbs := by
  by_cases h0 : x.units + y.units = 0
  · obtain ⟨-, -, ⟨h1, -⟩ | ⟨-, h1⟩⟩ := F64.add_finite h
    · refine ⟨F64.ofMag 0 (F64.roundMag 0 0), ?_, ?_, 0, by decide, ?_, ?_⟩
      · rw [roundMag_zero]; exact (by decide : (F64.ofMag 0 0).expo ≠ 2047)
      · rw [F64.ofMag_zero_units 0 (by decide), h1]
      · rw [h0]; rfl
      · rw [h0]; rfl
    · exact absurd h0 h1
  · exact ⟨F64.add x y, h, rfl, F64.add_form h h0⟩

theorem F64.add_mono {x y x' y' : F64} (h : (F64.add x y).Finite) (h' : (F64.add x' y').Finite)
    (hle : x.units + y.units ≤ x'.units + y'.units) : (F64.add x y).units ≤ (F64.add x' y').units := by
  obtain ⟨z, hz, e, hf⟩ := F64.add_form' h
  obtain ⟨z', hz', e', hf'⟩ := F64.add_form' h'
  rw [← e, ← e']
  exact F64.rounded_mono hz hz' hf hf' hle

/-! ## Exact results -/

theorem F64.mag_lt {x : F64} (h : x.Finite) : x.mag ≤ (2 ^ 53 - 1) * 2 ^ 2045 := by
  have h1 := x.expo_lt
  have h2 := x.frac_lt
  unfold F64.Finite at h
  unfold F64.mag
  refine Nat.mul_le_mul ?_ (Nat.pow_le_pow_right (by decide) (by omega))
  split <;> omega

theorem F64.add_exact {x y w : F64} (hx : x.Finite) (hy : y.Finite) (hw : w.Finite)
    (h : x.units + y.units = w.units) : (F64.add x y).Finite ∧ (F64.add x y).units = w.units := by
  have hm := F64.mag_lt hw
  have hf : (F64.add x y).Finite := by
    rw [F64.add_finite_iff hx hy, h, F64.units_abs]
    rw [Nat.pow_succ 2 2044] at hm
    have : 0 < 2 ^ 2044 := Nat.pow_pos (by decide)
    generalize 2 ^ 2044 = T at *
    omega
  refine ⟨hf, ?_⟩
  obtain ⟨z, hz, e, hz'⟩ := F64.add_form' hf
  have := (F64.rounded_nearest hz hz' w).1
  rw [Int.pow_zero, Int.mul_one, Int.mul_one, h] at this
  rw [← e]
  omega

theorem F64.mul_exact {x y w : F64} (hx : x.Finite) (hy : y.Finite) (hw : w.Finite)
    (h : x.units * y.units = w.units * 2 ^ 1074) :
    (F64.mul x y).Finite ∧ (F64.mul x y).units = w.units := by
  have hm := F64.mag_lt hw
  have hf : (F64.mul x y).Finite := by
    rw [F64.mul_finite_iff hx hy, h, Int.natAbs_mul, F64.units_abs, Int.natAbs_pow, Nat.pow_add,
      ← Nat.mul_assoc]
    refine Nat.mul_lt_mul_of_pos_right ?_ (Nat.pow_pos (by decide))
    rw [Nat.pow_succ 2 2044] at hm
    have : 0 < 2 ^ 2044 := Nat.pow_pos (by decide)
    generalize 2 ^ 2044 = T at *
    omega
  refine ⟨hf, ?_⟩
  have := (F64.rounded_nearest hf (F64.mul_form hf) w).1
  rw [h, Int.sub_self, ← Int.sub_mul, Int.natAbs_mul] at this
  have hp : (2 ^ 1074 : Int).natAbs ≠ 0 := by decide
  have h0 : ((F64.mul x y).units - w.units).natAbs = 0 := by
    rcases Nat.mul_eq_zero.1 (Nat.le_zero.1 this) with h | h
    · exact h
    · exact absurd h hp
  omega

end Dis
