import Verif.Proof.Sqrt

/-!
# Correct rounding of quotients and square roots
-/

set_option exponentiation.threshold 4096

namespace Dis.Geo

/-- A bit for what was cut off decides as the exact number does. -/
theorem sticky_near {M q z w : ℕ} {v : ℝ} (hM : M = 2 * q ∧ 4 * v = 2 * q ∨ M = 2 * q + 1 ∧ 2 * q < 4 * v ∧ 4 * v < 2 * q + 2)
    (h : ((M : Int) - (z * 2 ^ 2 : ℕ)).natAbs ≤ ((M : Int) - (w * 2 ^ 2 : ℕ)).natAbs) :
    |(z : ℝ) - v| ≤ |(w : ℝ) - v| ∧
    (|(z : ℝ) - v| = |(w : ℝ) - v| → ((M : Int) - (z * 2 ^ 2 : ℕ)).natAbs = ((M : Int) - (w * 2 ^ 2 : ℕ)).natAbs) := by
  rcases Nat.lt_trichotomy z w with hzw | rfl | hzw
  · have h1 : M ≤ 2 * (z + w) := by omega
    have h2 : 4 * v ≤ 2 * (z + w) ∧ (4 * v = 2 * (z + w) → M = 2 * (z + w)) := by
      rcases hM with ⟨e, ev⟩ | ⟨e, ev⟩
      · have h3 : (q : ℝ) ≤ z + w := by exact_mod_cast (by omega : q ≤ z + w)
        refine ⟨by linarith, fun h4 => ?_⟩
        have : (q : ℝ) = z + w := by linarith
        have : q = z + w := by exact_mod_cast this
        omega
      · have h3 : (q : ℝ) + 1 ≤ z + w := by exact_mod_cast (by omega : q + 1 ≤ z + w)
        exact ⟨by linarith, fun h4 => by linarith⟩
    have hr : (z : ℝ) < w := by exact_mod_cast hzw
    constructor
    · rw [abs_le]
      have := le_abs_self ((w : ℝ) - v)
      have := neg_abs_le ((w : ℝ) - v)
      constructor
      · linarith
      · rcases le_total v z with hv | hv
        · linarith
        · linarith [abs_nonneg ((w : ℝ) - v)]
    · intro he
      have : 4 * v = 2 * (z + w) := by
        rw [abs_eq_abs] at he
        rcases he with he | he <;> linarith
      have := h2.2 this
      omega
  · exact ⟨le_rfl, fun _ => rfl⟩
  · have h1 : 2 * (z + w) ≤ M := by omega
    have h2 : 2 * (z + w) ≤ 4 * v ∧ (4 * v = 2 * (z + w) → M = 2 * (z + w)) := by
      rcases hM with ⟨e, ev⟩ | ⟨e, ev⟩
      · have h3 : (z : ℝ) + w ≤ q := by exact_mod_cast (by omega : z + w ≤ q)
        refine ⟨by linarith, fun h4 => ?_⟩
        have : (q : ℝ) = z + w := by linarith
        have : q = z + w := by exact_mod_cast this
        omega
      · have h3 : (z : ℝ) + w ≤ q := by exact_mod_cast (by omega : z + w ≤ q)
        exact ⟨by linarith, fun h4 => by linarith⟩
    have hr : (w : ℝ) < z := by exact_mod_cast hzw
    constructor
    · rw [abs_le]
      have := le_abs_self ((w : ℝ) - v)
      have := neg_abs_le ((w : ℝ) - v)
      constructor
      · rcases le_total (z : ℝ) v with hv | hv
        · linarith
        · linarith [abs_nonneg ((w : ℝ) - v)]
      · linarith
    · intro he
      have : 4 * v = 2 * (z + w) := by
        rw [abs_eq_abs] at he
        rcases he with he | he <;> linarith
      have := h2.2 this
      omega

theorem frac_ofMag {s m : ℕ} (hs : s < 2) (h : (F64.ofMag s m).Finite) : (F64.ofMag s m).frac % 2 = m % 2 := by
  have hm := (F64.ofMag_finite hs h).1
  have e2 : (F64.ofMag s m).toNat = s * 2 ^ 63 + m := by
    unfold F64.ofMag
    rw [if_pos hm, BitVec.toNat_ofNat]
    exact Nat.mod_eq_of_lt (by omega)
  unfold F64.frac
  rw [e2]
  omega

/-- The nearest magnitude with the right sign is the nearest double. -/
theorem signed_nearest {s M : ℕ} (hs : s < 2) {v V : ℝ} (hv : 0 ≤ v) (hV : V = if s = 1 then -v else v)
    (hz : (F64.ofMag s (F64.roundMag M 2)).Finite)
    (hM : ∃ q : ℕ, M = 2 * q ∧ 4 * v = 2 * q ∨ M = 2 * q + 1 ∧ 2 * q < 4 * v ∧ 4 * v < 2 * q + 2) (w : F64) :
    |((F64.ofMag s (F64.roundMag M 2)).units : ℝ) - V| ≤ |(w.units : ℝ) - V| ∧
    (|((F64.ofMag s (F64.roundMag M 2)).units : ℝ) - V| = |(w.units : ℝ) - V| →
      w.units ≠ (F64.ofMag s (F64.roundMag M 2)).units → (F64.ofMag s (F64.roundMag M 2)).frac % 2 = 0) := by
  obtain ⟨q, hM⟩ := hM
  obtain ⟨-, z1, z2⟩ := F64.ofMag_finite hs hz
  have near : ∀ m', |(mag64 (F64.roundMag M 2) : ℝ) - v| ≤ |(mag64 m' : ℝ) - v| ∧
      (|(mag64 (F64.roundMag M 2) : ℝ) - v| = |(mag64 m' : ℝ) - v| → mag64 m' ≠ mag64 (F64.roundMag M 2) →
        F64.roundMag M 2 % 2 = 0) := fun m' => by
    obtain ⟨n1, n2⟩ := roundMag_nearest M 2 m'
    obtain ⟨s1, s2⟩ := sticky_near hM n1
    exact ⟨s1, fun e => n2 (s2 e)⟩
  rw [frac_ofMag hs hz]
  have ez : |((F64.ofMag s (F64.roundMag M 2)).units : ℝ) - V| = |(mag64 (F64.roundMag M 2) : ℝ) - v| := by
    unfold F64.units
    rw [z1, z2, hV]
    split
    · rw [← abs_neg]
      congr 1
      push_cast
      ring
    · push_cast
      rfl
  rw [ez]
  have same : w.sign = s → |(w.units : ℝ) - V| = |(w.mag : ℝ) - v| ∧
      (w.units ≠ (F64.ofMag s (F64.roundMag M 2)).units → w.mag ≠ mag64 (F64.roundMag M 2)) := fun hw => by
    unfold F64.units
    rw [z1, z2, hV, hw]
    split
    · refine ⟨?_, fun h e => h (by rw [e])⟩
      rw [← abs_neg]
      congr 1
      push_cast
      ring
    · refine ⟨?_, fun h e => h (by rw [e])⟩
      push_cast
      rfl
  by_cases hw : w.sign = s
  · obtain ⟨w1, w2⟩ := same hw
    rw [w1, F64.mag_eq w]
    rw [F64.mag_eq w] at w2
    exact ⟨(near _).1, fun h1 h2 => (near _).2 h1 (w2 h2)⟩
  · have hlt := w.sign_lt
    have eW : |(w.units : ℝ) - V| = w.mag + v := by
      have h0 : (0 : ℝ) ≤ (w.mag : ℝ) + v := by positivity
      rw [hV]
      unfold F64.units
      rcases (by omega : s = 0 ∧ w.sign = 1 ∨ s = 1 ∧ w.sign = 0) with ⟨h1, h2⟩ | ⟨h1, h2⟩
      · rw [h1, h2, if_pos rfl, if_neg (by decide), ← abs_neg, show -(((-(w.mag : ℤ) : ℤ) : ℝ) - v) = w.mag + v by
          push_cast; ring]
        exact abs_of_nonneg h0
      · rw [h1, h2, if_neg (by decide), if_pos rfl, show (((w.mag : ℤ) : ℝ) - -v) = w.mag + v by push_cast; ring]
        exact abs_of_nonneg h0
    have n0 := near 0
    rw [mag64_zero, Nat.cast_zero, zero_sub, abs_neg, abs_of_nonneg hv] at n0
    rw [eW]
    have hw0 : (0 : ℝ) ≤ w.mag := by positivity
    refine ⟨n0.1.trans (by linarith), fun h1 h2 => ?_⟩
    have e0 : (w.mag : ℝ) = 0 := le_antisymm (by linarith [n0.1]) hw0
    have e0' : w.mag = 0 := by exact_mod_cast e0
    refine n0.2 (by linarith) (fun h3 => h2 ?_)
    unfold F64.units
    rw [z1, z2, ← h3, e0']
    simp

/-- A finite quotient is a nearest double, with an even significand if there are two. -/
theorem div_nearest {x y : F64} (h : (F64.div x y).Finite) (hy : y.Finite) (w : F64) :
    |ofDouble (F64.div x y) - ofDouble x / ofDouble y| ≤ |ofDouble w - ofDouble x / ofDouble y| ∧
    (|ofDouble (F64.div x y) - ofDouble x / ofDouble y| = |ofDouble w - ofDouble x / ofDouble y| →
      ofDouble w ≠ ofDouble (F64.div x y) → (F64.div x y).frac % 2 = 0) := by
  obtain ⟨-, h0, e⟩ := F64.div_finite h hy
  have hs : (x.sign + y.sign) % 2 < 2 := Nat.mod_lt _ (by decide)
  have hU : (0 : ℝ) < 2 ^ 1074 := by positivity
  have hy0 : (0 : ℝ) < y.mag := by exact_mod_cast Nat.pos_of_ne_zero h0
  have key := signed_nearest (M := 2 * (x.mag * 2 ^ 1075 / y.mag) + if x.mag * 2 ^ 1075 % y.mag = 0 then 0 else 1)
    (v := x.mag * 2 ^ 1074 / y.mag) (V := ofDouble x / ofDouble y * 2 ^ 1074) hs (by positivity) ?_ (e ▸ h) ?_ w
  · rw [← e] at key
    have sc : ∀ u : F64, (u.units : ℝ) - ofDouble x / ofDouble y * 2 ^ 1074
        = (ofDouble u - ofDouble x / ofDouble y) * 2 ^ 1074 := fun u => by
      rw [sub_mul]
      congr 1
      unfold ofDouble
      field_simp
    rw [sc, sc, abs_mul, abs_mul, abs_of_pos hU, mul_le_mul_iff_left₀ hU, mul_left_inj' hU.ne'] at key
    refine ⟨key.1, fun h1 h2 => key.2 h1 (fun h3 => h2 ?_)⟩
    unfold ofDouble
    rw [h3]
  · have hsx := x.sign_lt
    have hsy := y.sign_lt
    unfold ofDouble F64.units
    generalize (2 : ℝ) ^ 1074 = U at *
    rcases (by omega : x.sign = 0 ∨ x.sign = 1) with h1 | h1 <;>
    rcases (by omega : y.sign = 0 ∨ y.sign = 1) with h2 | h2 <;>
    rw [h1, h2] <;> simp <;> field_simp
  · refine ⟨x.mag * 2 ^ 1075 / y.mag, ?_⟩
    have e1 : 4 * ((x.mag : ℝ) * 2 ^ 1074 / y.mag) = 2 * ((x.mag * 2 ^ 1075 : ℕ) / y.mag : ℝ) := by
      push_cast
      rw [pow_succ]
      ring
    have e2 := Nat.div_add_mod (x.mag * 2 ^ 1075) y.mag
    have e3 := Nat.mod_lt (x.mag * 2 ^ 1075) (Nat.pos_of_ne_zero h0)
    rw [e1]
    generalize x.mag * 2 ^ 1075 = A at *
    generalize hq : A / y.mag = q at *
    generalize hr : A % y.mag = r at *
    have e4 : (A : ℝ) / y.mag = q + r / y.mag := by
      rw [← e2]
      push_cast
      field_simp
    rw [e4]
    by_cases hr0 : r = 0
    · left
      rw [if_pos hr0, hr0]
      simp
    · right
      rw [if_neg hr0]
      have r1 : 0 < (r : ℝ) / y.mag := div_pos (by exact_mod_cast Nat.pos_of_ne_zero hr0) hy0
      have r2 : (r : ℝ) / y.mag < 1 := by rw [div_lt_one hy0]; exact_mod_cast e3
      refine ⟨rfl, by linarith, by linarith⟩

theorem root_sticky {A q : ℕ} (i1 : q * q ≤ A) (i2 : A < (q + 1) * (q + 1)) :
    (2 * q + if q * q = A then 0 else 1) = 2 * q ∧ 4 * (Real.sqrt A / 2) = 2 * q ∨
    (2 * q + if q * q = A then 0 else 1) = 2 * q + 1 ∧ 2 * q < 4 * (Real.sqrt A / 2) ∧ 4 * (Real.sqrt A / 2) < 2 * q + 2 := by
  have hr := Real.sq_sqrt (show (0 : ℝ) ≤ A by positivity)
  have r0 := Real.sqrt_nonneg (A : ℝ)
  generalize Real.sqrt (A : ℝ) = r at *
  have q2 : r < q + 1 := by
    have : r ^ 2 < ((q : ℝ) + 1) * (q + 1) := by rw [hr]; exact_mod_cast i2
    nlinarith
  by_cases hq : q * q = A
  · left
    rw [if_pos hq]
    have : r ^ 2 = (q : ℝ) * q := by rw [hr]; exact_mod_cast hq.symm
    have : r = q := by nlinarith
    rw [this]
    exact ⟨rfl, by ring⟩
  · right
    rw [if_neg hq]
    have : (q : ℝ) * q < r ^ 2 := by rw [hr]; exact_mod_cast lt_of_le_of_ne i1 hq
    have q1 : (q : ℝ) < r := by nlinarith
    exact ⟨rfl, by linarith, by linarith⟩

/-- The square root of a positive number is a nearest double, with an even significand if there are two. -/
theorem sqrt_nearest {x : F64} (hx : x.Finite) (h0 : 0 < ofDouble x) (w : F64) : ∃ y, F64.sqrt x = .ok y ∧ y.Finite ∧
    |ofDouble y - Real.sqrt (ofDouble x)| ≤ |ofDouble w - Real.sqrt (ofDouble x)| ∧
    (|ofDouble y - Real.sqrt (ofDouble x)| = |ofDouble w - Real.sqrt (ofDouble x)| → ofDouble w ≠ ofDouble y →
      y.frac % 2 = 0) := by
  obtain ⟨y, ey, fy, sy, -⟩ := val_sqrt hx h0
  refine ⟨y, ey, fy, ?_⟩
  have hU : (0 : ℝ) < 2 ^ 1074 := by positivity
  have hu : 0 < x.units := by
    unfold ofDouble at h0
    have := (div_pos_iff_of_pos_right hU).1 h0
    exact_mod_cast this
  have hs : x.sign ≠ 1 := fun h => by
    unfold F64.units at hu
    rw [if_pos h] at hu
    omega
  have hm : x.units = x.mag := by unfold F64.units; rw [if_neg hs]
  have e1 : F64.sqrt x = .ok (F64.ofMag 0 (F64.sqrtMag x.mag)) := by
    unfold F64.sqrt
    rw [if_neg (fun h => hx h.1), if_neg (by omega), if_neg hs, if_neg hx]
  rw [e1] at ey
  obtain rfl := Except.ok.inj ey
  generalize hA : x.mag * 2 ^ 1076 = A
  obtain ⟨i1, i2⟩ := isqrt_spec _ A (lt_four_pow A)
  have e2 : F64.sqrtMag x.mag = F64.roundMag (2 * F64.isqrt (A.log2 / 2 + 1) A
      + if F64.isqrt (A.log2 / 2 + 1) A * F64.isqrt (A.log2 / 2 + 1) A = A then 0 else 1) 2 := by
    unfold F64.sqrtMag
    rw [hA]
  generalize F64.isqrt (A.log2 / 2 + 1) A = q at *
  rw [e2] at fy ⊢
  have v2 : Real.sqrt (ofDouble x) * 2 ^ 1074 = Real.sqrt A / 2 := by
    have : ofDouble x = (A : ℝ) / (2 ^ 1075) ^ 2 := by
      unfold ofDouble
      rw [hm, ← hA, Int.cast_natCast, Nat.cast_mul, Nat.cast_pow, Nat.cast_ofNat, ← pow_mul,
        show 1075 * 2 = 1074 + 1076 from rfl, pow_add]
      rw [mul_div_mul_right _ _ (by positivity)]
    rw [this, Real.sqrt_div (by positivity), Real.sqrt_sq (by positivity), pow_succ 2 1074]
    field_simp
  have key := signed_nearest (v := Real.sqrt A / 2) (V := Real.sqrt (ofDouble x) * 2 ^ 1074) (s := 0) (by decide)
    (by positivity) v2 fy ?_ w
  · have sc : ∀ u : F64, (u.units : ℝ) - Real.sqrt (ofDouble x) * 2 ^ 1074
        = (ofDouble u - Real.sqrt (ofDouble x)) * 2 ^ 1074 := fun u => by
      rw [sub_mul]
      congr 1
      unfold ofDouble
      field_simp
    rw [sc, sc, abs_mul, abs_mul, abs_of_pos hU, mul_le_mul_iff_left₀ hU, mul_left_inj' hU.ne'] at key
    refine ⟨key.1, fun h1 h2 => key.2 h1 (fun h3 => h2 ?_)⟩
    unfold ofDouble
    rw [h3]
  · exact ⟨q, root_sticky i1 i2⟩

end Dis.Geo
