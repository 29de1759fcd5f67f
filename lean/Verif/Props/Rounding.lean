import Verif.Proof.Reference
import Mathlib.Logic.Function.Iterate

/-!
# Rounding in dead reckoning (C62)

`Verif/Model/DeadReckoning.lean` computes with doubles; `ofDouble` is the number a finite double stands
for, `x.units` the same in units of 2^-1074. `P.SquareOk` is what is assumed of `dt ** 2`.
-/

set_option exponentiation.threshold 4096

namespace Dis

open Geo

/-! ## The arithmetic -/

/-- **C62.** The sum of two finite doubles is finite unless its magnitude reaches (2^54-1)·2^970, half a
unit in the last place above the largest double. A finite sum is a double nearest to the exact sum, and
if another one is as near, it is the one with an even significand. -/
theorem C62_sum (x y : F64) (hx : x.Finite) (hy : y.Finite) :
    ((F64.add x y).Finite ↔ (x.units + y.units).natAbs < (2 ^ 54 - 1) * 2 ^ 2044) ∧
    ((F64.add x y).Finite → ∀ w : F64,
      ((F64.add x y).units - (x.units + y.units)).natAbs ≤ (w.units - (x.units + y.units)).natAbs ∧
      (((F64.add x y).units - (x.units + y.units)).natAbs = (w.units - (x.units + y.units)).natAbs →
        w.units ≠ (F64.add x y).units → (F64.add x y).frac % 2 = 0)) := by
  refine ⟨F64.add_finite_iff hx hy, fun h w => ?_⟩
  by_cases h0 : x.units + y.units = 0
  · obtain ⟨-, -, ⟨h1, -⟩ | ⟨-, h1⟩⟩ := F64.add_finite h
    · rw [h1, h0]
      refine ⟨Nat.zero_le _, fun h2 h3 => ?_⟩
      omega
    · exact absurd h0 h1
  · have := F64.rounded_nearest h (F64.add_form h h0) w
    rwa [Int.pow_zero, Int.mul_one, Int.mul_one] at this

/-- **C62.** The same for products; both sides are multiplied by 2^1074. -/
theorem C62_product (x y : F64) (hx : x.Finite) (hy : y.Finite) :
    ((F64.mul x y).Finite ↔ (x.units * y.units).natAbs < (2 ^ 54 - 1) * 2 ^ (2044 + 1074)) ∧
    ((F64.mul x y).Finite → ∀ w : F64,
      ((F64.mul x y).units * 2 ^ 1074 - x.units * y.units).natAbs
        ≤ (w.units * 2 ^ 1074 - x.units * y.units).natAbs ∧
      (((F64.mul x y).units * 2 ^ 1074 - x.units * y.units).natAbs
          = (w.units * 2 ^ 1074 - x.units * y.units).natAbs →
        w.units ≠ (F64.mul x y).units → (F64.mul x y).frac % 2 = 0)) :=
  ⟨F64.mul_finite_iff hx hy, fun h w => F64.rounded_nearest h (F64.mul_form h) w⟩

/-- **C62.** A finite quotient by a finite double errs by at most 2^-53 of the exact quotient or by half the
smallest positive double. -/
theorem C62_quotient (x y : F64) (h : (F64.div x y).Finite) (hy : y.Finite) :
    |ofDouble (F64.div x y) - ofDouble x / ofDouble y|
      ≤ max (1 / 2 ^ 53 * |ofDouble x / ofDouble y|) (1 / 2 ^ 1075) := val_div h hy

/-! ## The positions -/

/-- **C62.** Each finite component of the position returned by `drm_fpw` is `p + v dt` up to rounding of the
sum and of the product. The orientation is returned as it is. -/
theorem C62_fpw (position velocity orientation : Dbl.Vec) (dt : F64) (i : Fin 3)
    (h : ((Dbl.drm_fpw position velocity dt orientation).1 i).Finite) :
    |ofDouble ((Dbl.drm_fpw position velocity dt orientation).1 i)
        - (ofDouble (position i) + ofDouble (velocity i) * ofDouble dt)|
      ≤ 1 / 2 ^ 53 * |ofDouble (position i) + ofDouble (velocity i) * ofDouble dt|
        + 1 / 2 ^ 52 * |ofDouble (velocity i) * ofDouble dt| + 1 / 2 ^ 1074 ∧
    (Dbl.drm_fpw position velocity dt orientation).2 = orientation := by
  refine ⟨?_, rfl⟩
  rw [eta_two]
  exact madd_error h

/-- **C62.** `drm_rpw` extrapolates the position like `drm_fpw`, bit for bit. -/
theorem C62_rpw (P : Dbl.Platform) (position velocity orientation angular_velocity pos ori : Dbl.Vec)
    (dt : F64) (h : Dbl.drm_rpw P position velocity dt orientation angular_velocity = .ok (pos, ori)) :
    pos = (Dbl.drm_fpw position velocity dt orientation).1 := by
  unfold Dbl.drm_rpw at h
  cases hr : Dbl.rates P orientation angular_velocity with
  | error e => rw [hr] at h; cases h
  | ok d => rw [hr] at h; cases h; rfl

/-- **C62.** Each finite component of the position returned by `drm_fvw` is `p + v dt + a dt²/2` up to
rounding; the orientation is returned as it is. -/
theorem C62_fvw (P : Dbl.Platform) (hP : P.SquareOk) (position velocity acceleration orientation pos ori : Dbl.Vec)
    (dt : F64) (h : Dbl.drm_fvw P position velocity acceleration dt orientation = .ok (pos, ori))
    (i : Fin 3) (hf : (pos i).Finite) :
    |ofDouble (pos i) - (ofDouble (position i) + ofDouble (velocity i) * ofDouble dt
        + ofDouble (acceleration i) * ofDouble dt ^ 2 / 2)|
      ≤ 1 / 2 ^ 50 * (|ofDouble (position i)| + |ofDouble (velocity i) * ofDouble dt|
          + |ofDouble (acceleration i) * ofDouble dt ^ 2 / 2|)
        + 1 / 2 ^ 1072 * (1 + |ofDouble (acceleration i)| + ofDouble dt ^ 2) ∧
    ori = orientation := by
  unfold Dbl.drm_fvw at h
  cases hr : P.square dt with
  | error e => rw [hr] at h; cases h
  | ok d =>
    rw [hr] at h
    cases h
    refine ⟨?_, rfl⟩
    have h1 : (1 : ℝ) / 2 ^ 1072 = 8 * eta := by
      rw [show (1072 : ℕ) = 1075 - 3 from rfl, eta_pow 3 (by norm_num)]; norm_num
    rw [h1]
    have hd := (F64.mul_finite (F64.add_finite (F64.add_finite hf).1).2.1).2.1
    have hs := (F64.mul_finite (F64.add_finite hf).2.1).2.1
    exact fvw_error (hP dt d hd hr hs) hf

/-- **C62.** `drm_rvw` extrapolates the position like `drm_fvw`, bit for bit. -/
theorem C62_rvw (P : Dbl.Platform) (position velocity acceleration orientation angular_velocity pos ori : Dbl.Vec)
    (dt : F64)
    (h : Dbl.drm_rvw P position velocity acceleration dt orientation angular_velocity = .ok (pos, ori)) :
    Dbl.drm_fvw P position velocity acceleration dt orientation = .ok (pos, orientation) := by
  unfold Dbl.drm_rvw at h
  unfold Dbl.drm_fvw
  cases hr : P.square dt with
  | error e => rw [hr] at h; cases h
  | ok d =>
    rw [hr] at h
    cases hw : Dbl.drm_rpw P position velocity dt orientation angular_velocity with
    | error e => simp only [hw, bind, Except.bind] at h; cases h
    | ok d => simp only [hw, bind, Except.bind] at h; cases h; rfl

/-- **C62.** After no time, the position is the same, however fast the (finite) velocity: the same value,
and the same bits unless it is a zero. -/
theorem C62_no_time (position velocity orientation : Dbl.Vec) (dt : F64) (i : Fin 3) (hdt : dt.Finite)
    (h0 : ofDouble dt = 0) (hp : (position i).Finite) (hv : (velocity i).Finite) :
    ((Dbl.drm_fpw position velocity dt orientation).1 i).Finite ∧
    ofDouble ((Dbl.drm_fpw position velocity dt orientation).1 i) = ofDouble (position i) ∧
    (ofDouble (position i) ≠ 0 → (Dbl.drm_fpw position velocity dt orientation).1 i = position i) := by
  have hz : ofDouble (F64.mk 0 0 0) = 0 := by
    unfold ofDouble
    rw [show (F64.mk 0 0 0).units = 0 by decide]
    simp
  have hd : dt.units = 0 := by
    have := (val_eq (x := dt) (y := F64.mk 0 0 0)).1 (by rw [h0, hz])
    rwa [show (F64.mk 0 0 0).units = 0 by decide] at this
  obtain ⟨m1, m2⟩ := F64.mul_exact (w := F64.mk 0 0 0) hv hdt (show (F64.mk 0 0 0).expo ≠ 2047 by decide)
    (by rw [hd, show (F64.mk 0 0 0).units = 0 by decide]; simp)
  obtain ⟨a1, a2⟩ := F64.add_exact hp m1 hp (by rw [m2, show (F64.mk 0 0 0).units = 0 by decide]; simp)
  refine ⟨a1, val_eq.2 a2, fun hne => ?_⟩
  refine val_inj (val_eq.2 a2) ?_
  have hu : (position i).units ≠ 0 := fun h => hne (by unfold ofDouble; rw [h]; simp)
  have hs1 := ((Dbl.drm_fpw position velocity dt orientation).1 i).sign_lt
  have hs2 := (position i).sign_lt
  have a3 : ((Dbl.drm_fpw position velocity dt orientation).1 i).units = (position i).units := a2
  clear a2 m2
  generalize (Dbl.drm_fpw position velocity dt orientation).1 i = q at *
  unfold F64.units at a3 hu
  split at a3 <;> split at a3 <;> split at hu <;> omega

/-- **C62.** With a velocity that is not negative, a later time never gives a smaller coordinate. -/
theorem C62_monotone (position velocity orientation : Dbl.Vec) (dt dt' : F64) (i : Fin 3)
    (hv : 0 ≤ ofDouble (velocity i)) (ht : ofDouble dt ≤ ofDouble dt')
    (h : ((Dbl.drm_fpw position velocity dt orientation).1 i).Finite)
    (h' : ((Dbl.drm_fpw position velocity dt' orientation).1 i).Finite) :
    ofDouble ((Dbl.drm_fpw position velocity dt orientation).1 i)
      ≤ ofDouble ((Dbl.drm_fpw position velocity dt' orientation).1 i) := by
  have hz : ofDouble (F64.mk 0 0 0) = 0 := by
    unfold ofDouble
    rw [show (F64.mk 0 0 0).units = 0 by decide]
    simp
  have hv' : 0 ≤ (velocity i).units := by
    rw [← hz, val_le] at hv
    rwa [show (F64.mk 0 0 0).units = 0 by decide] at hv
  rw [val_le] at ht ⊢
  exact F64.add_mono h h' (Int.add_le_add_left
    (F64.mul_mono (F64.add_finite h).2.1 (F64.add_finite h').2.1 (Int.mul_le_mul_of_nonneg_left ht hv')) _)

/-- **C62.** `n` steps of `drm_fpw`, each starting from the position the last one returned, stay within
`n` rounding errors of `p + n v dt`, as long as the coordinate stays finite and within `M`. -/
theorem C62_steps (position velocity orientation : Dbl.Vec) (dt : F64) (i : Fin 3) (M : ℝ) (n : ℕ)
    (h : ∀ k, k ≤ n → (((fun p => (Dbl.drm_fpw p velocity dt orientation).1)^[k] position) i).Finite ∧
      |ofDouble (((fun p => (Dbl.drm_fpw p velocity dt orientation).1)^[k] position) i)| ≤ M) :
    |ofDouble (((fun p => (Dbl.drm_fpw p velocity dt orientation).1)^[n] position) i)
        - (ofDouble (position i) + n * (ofDouble (velocity i) * ofDouble dt))|
      ≤ n * (1 / 2 ^ 53 * M + 1 / 2 ^ 51 * |ofDouble (velocity i) * ofDouble dt| + 1 / 2 ^ 1074) := by
  induction n with
  | zero => simp
  | succ n ih =>
    have ih := ih fun k hk => h k (by omega)
    have hn := (h n (by omega)).2
    have hf := (h (n + 1) le_rfl).1
    rw [Function.iterate_succ_apply'] at hf ⊢
    have hs := (C62_fpw _ velocity orientation dt i hf).1
    generalize ((fun p => (Dbl.drm_fpw p velocity dt orientation).1)^[n] position) = q at *
    generalize ofDouble ((Dbl.drm_fpw q velocity dt orientation).1 i) = r at *
    generalize ofDouble (velocity i) * ofDouble dt = w at *
    generalize ofDouble (q i) = q at *
    generalize ofDouble (position i) = p at *
    have t1 : |r - (p + (n + 1 : ℕ) * w)| ≤ |r - (q + w)| + |q - (p + n * w)| := by
      have : r - (p + (n + 1 : ℕ) * w) = (r - (q + w)) + (q - (p + n * w)) := by push_cast; ring
      rw [this]
      exact abs_add_le _ _
    have t2 := abs_add_le q w
    have t3 := abs_nonneg w
    have t4 : ((n + 1 : ℕ) : ℝ) * (1 / 2 ^ 53 * M + 1 / 2 ^ 51 * |w| + 1 / 2 ^ 1074)
        = n * (1 / 2 ^ 53 * M + 1 / 2 ^ 51 * |w| + 1 / 2 ^ 1074)
          + (1 / 2 ^ 53 * M + 1 / 2 ^ 51 * |w| + 1 / 2 ^ 1074) := by push_cast; ring
    rw [t4]
    generalize (1 : ℝ) / 2 ^ 1074 = E at *
    linarith

/-- **C62.** In doubles the law of C34 fails: two steps of `dt` may differ from one step of `2 dt`. The
coordinate is 6378137 m, the velocity 3 m/s and `dt` 0.2 s; the results are 2^-30 m apart. -/
theorem C62_compose_violated : ∃ (position velocity orientation : Dbl.Vec) (dt dt2 : F64),
    ofDouble dt2 = 2 * ofDouble dt ∧
    (Dbl.drm_fpw (Dbl.drm_fpw position velocity dt orientation).1 velocity dt orientation).1 0
      = 0x415854a68ccccccc ∧
    (Dbl.drm_fpw position velocity dt2 orientation).1 0 = 0x415854a68ccccccd := by
  refine ⟨fun _ => 0x415854a640000000, fun _ => 0x4008000000000000, fun _ => 0, 0x3fc999999999999a,
    0x3fd999999999999a, ?_, by decide +kernel, by decide +kernel⟩
  have : F64.units 0x3fd999999999999a = 2 * F64.units 0x3fc999999999999a := by decide +kernel
  unfold ofDouble
  rw [this, Int.cast_mul]
  norm_num [mul_div_assoc]

/-- **C62.** `drm_fvw` raises only what `dt ** 2` raises. -/
theorem C62_fvw_raises (P : Dbl.Platform) (position velocity acceleration orientation : Dbl.Vec) (dt : F64)
    (e : PyErr) : Dbl.drm_fvw P position velocity acceleration dt orientation = .error e ↔
      P.square dt = .error e := by
  unfold Dbl.drm_fvw
  cases hr : P.square dt with
  | error e' =>
    exact ⟨fun h => by cases h; rfl, fun h => by cases h; rfl⟩
  | ok d => exact ⟨(fun h => by cases h), (fun h => by cases h)⟩

/-! ## Examples -/

/-- 6378137 + 3 · 0.2 = 6378137.6 up to rounding. -/
example : (Dbl.drm_fpw (fun _ => 0x415854a640000000) (fun _ => 0x4008000000000000) 0x3fc999999999999a
    (fun _ => 0)).1 0 = 0x415854a666666666 := by decide +kernel

/-- 6378137 + 3 · 0.2 + 1 · 0.2² / 2 on a platform that meets the assumption. -/
example : reference.SquareOk ∧ ∃ pos ori : Dbl.Vec, Dbl.drm_fvw reference (fun _ => 0x415854a640000000)
    (fun _ => 0x4008000000000000) (fun _ => 0x3ff0000000000000) 0x3fc999999999999a (fun _ => 0)
      = .ok (pos, ori) ∧ (pos 0).Finite ∧ pos 0 = 0x415854a667ae147a := by
  refine ⟨reference_square, _, _, rfl, ?_, ?_⟩
  · show F64.expo _ ≠ 2047
    decide +kernel
  · decide +kernel

/-- No time, and a thousandth of a second after that. -/
example (position velocity orientation : Dbl.Vec) (hp : (position 1).Finite)
    (hv : velocity 1 = 0x4008000000000000)
    (h : ((Dbl.drm_fpw position velocity 0x3f50624dd2f1a9fc orientation).1 1).Finite) :
    ofDouble (position 1) ≤ ofDouble ((Dbl.drm_fpw position velocity 0x3f50624dd2f1a9fc orientation).1 1) := by
  have z : ofDouble 0 = 0 := by
    unfold ofDouble
    rw [show F64.units 0 = 0 by decide +kernel]
    simp
  have h0 := C62_no_time position velocity orientation 0 1 (show F64.expo 0 ≠ 2047 by decide) z hp
    (by rw [hv]; exact show F64.expo _ ≠ 2047 by decide)
  rw [← h0.2.1]
  refine C62_monotone position velocity orientation 0 _ 1 ?_ ?_ h0.1 h
  · rw [hv, ← z, val_le]; decide +kernel
  · rw [val_le]; decide +kernel

/-- Three steps of 0.2 s at 3 m/s from 6378137 m, within 2^23 m. -/
example : ∀ k ≤ 3, (((fun p => (Dbl.drm_fpw p (fun _ => 0x4008000000000000) 0x3fc999999999999a
      (fun _ => 0)).1)^[k] (fun _ => 0x415854a640000000)) 0).Finite ∧
    |ofDouble (((fun p => (Dbl.drm_fpw p (fun _ => 0x4008000000000000) 0x3fc999999999999a
      (fun _ => 0)).1)^[k] (fun _ => 0x415854a640000000)) 0)| ≤ ofDouble 0x4160000000000000 := by
  intro k hk
  have h : ∀ k ≤ 3, (((fun p => (Dbl.drm_fpw p (fun _ => 0x4008000000000000) 0x3fc999999999999a
      (fun _ => 0)).1)^[k] (fun _ => 0x415854a640000000)) 0).expo ≠ 2047 ∧
      0 ≤ (((fun p => (Dbl.drm_fpw p (fun _ => 0x4008000000000000) 0x3fc999999999999a
      (fun _ => 0)).1)^[k] (fun _ => 0x415854a640000000)) 0).units ∧
      (((fun p => (Dbl.drm_fpw p (fun _ => 0x4008000000000000) 0x3fc999999999999a
      (fun _ => 0)).1)^[k] (fun _ => 0x415854a640000000)) 0).units ≤ F64.units 0x4160000000000000 := by
    decide +kernel
  obtain ⟨h1, h2, h3⟩ := h k hk
  refine ⟨h1, ?_⟩
  rw [abs_of_nonneg, val_le]
  · exact h3
  · unfold ofDouble
    have : (0 : ℝ) ≤ (((((fun p => (Dbl.drm_fpw p (fun _ => 0x4008000000000000) 0x3fc999999999999a
      (fun _ => 0)).1)^[k] (fun _ => 0x415854a640000000)) 0).units : ℤ) : ℝ) := Int.cast_nonneg h2
    positivity

/-- A component that overflows is infinite, one that subtracts infinities a NaN; nothing is raised. -/
example : (Dbl.drm_fpw (fun _ => 0x7fefffffffffffff) (fun _ => 0x7fefffffffffffff) 0x3ff0000000000000
    (fun _ => 0)).1 0 = F64.inf 0 := by decide +kernel
example : (Dbl.drm_fpw (fun _ => 0x7ff0000000000000) (fun _ => 0xfff0000000000000) 0x3ff0000000000000
    (fun _ => 0)).1 0 = F64.nan := by decide +kernel

/-- 0.1 + 0.2, 0.1 · 3, the smallest subnormal halved, and 1 / 3. -/
example : F64.add 0x3fb999999999999a 0x3fc999999999999a = 0x3fd3333333333334 := by decide +kernel
example : F64.mul 0x3fb999999999999a 0x4008000000000000 = 0x3fd3333333333334 := by decide +kernel
example : F64.mul 0x0000000000000001 0x3fe0000000000000 = 0x0000000000000000 := by decide +kernel
example : F64.div 0x3ff0000000000000 0x4008000000000000 = 0x3fd5555555555555 := by decide +kernel

end Dis
