import Mathlib.Analysis.Real.Pi.Bounds
import Verif.Proof.Approx
import Verif.Proof.Ellipsoid

/-!
# Constants and angles of `RangeCoordinates.py` in doubles
-/

set_option exponentiation.threshold 4096

namespace Dis.Geo

open Dbl (num)

/-! ## Constants -/

theorem val_units {x : F64} {m : ℤ} (j k : ℕ) (h : x.units = m * 2 ^ j) (hk : j + k = 1074) :
    ofDouble x = m / 2 ^ k := by
  unfold ofDouble
  rw [h, ← hk, pow_add]
  push_cast
  field_simp

theorem num_units {n : ℕ} (h : n < 2 ^ 53) : (num n).Finite ∧ (num n).units = n * 2 ^ 1074 := by
  have e1 : num n = F64.ofMag 0 (F64.roundMag (n * 2 ^ 1074) 0) := rfl
  have ho := roundMag_overflow (n * 2 ^ 1074) 0
  have hfin : F64.roundMag (n * 2 ^ 1074) 0 < 2047 * 2 ^ 52 := by
    refine Nat.lt_of_not_le fun hc => ?_
    rw [ho] at hc
    have h1 : n * 2 ^ 1074 ≤ 2 ^ 53 * 2 ^ 1074 := Nat.mul_le_mul_right _ h.le
    have h2 : 2 ^ 53 * 2 ^ 1074 < (2 ^ 54 - 1) * 2 ^ (2044 + 0) := by decide +kernel
    omega
  have hf : (num n).Finite := by rw [e1]; exact F64.ofMag_is_finite (by decide) hfin
  obtain ⟨-, s1, s2⟩ := F64.ofMag_finite (s := 0) (by decide) (e1 ▸ hf)
  rw [← e1] at s1 s2
  refine ⟨hf, ?_⟩
  have v := (roundMag_value (n * 2 ^ 1074) 0).1
  have hl : max 0 ((n * 2 ^ 1074).log2 - 52) ≤ 1074 := by
    by_cases h0 : n = 0
    · subst h0; decide
    · have : (n * 2 ^ 1074).log2 < 1127 := by
        rw [Nat.log2_lt (by positivity)]
        calc n * 2 ^ 1074 < 2 ^ 53 * 2 ^ 1074 := Nat.mul_lt_mul_of_pos_right h (by positivity)
          _ = 2 ^ 1127 := by rw [← pow_add]
      omega
  rw [Nat.pow_zero, Nat.mul_one] at v
  generalize max 0 ((n * 2 ^ 1074).log2 - 52) = s at *
  have h3 : rne (n * 2 ^ 1074) s * 2 ^ s = n * 2 ^ 1074 := by
    obtain ⟨t, ht⟩ := Nat.exists_eq_add_of_le hl
    have := (rne_near (n * 2 ^ 1074) s).1
    have e2 : n * 2 ^ 1074 = n * 2 ^ t * 2 ^ s := by rw [ht, pow_add]; ring
    rw [e2] at this ⊢
    generalize rne (n * 2 ^ t * 2 ^ s) s = q at *
    have h4 : ((n * 2 ^ t * 2 ^ s : ℕ) - (q * 2 ^ s : ℕ) : ℤ).natAbs = ((n * 2 ^ t : ℕ) - q : ℤ).natAbs * 2 ^ s := by
      have : ((n * 2 ^ t * 2 ^ s : ℕ) - (q * 2 ^ s : ℕ) : ℤ) = ((n * 2 ^ t : ℕ) - q : ℤ) * (2 ^ s : ℕ) := by
        push_cast; ring
      rw [this, Int.natAbs_mul, Int.natAbs_natCast]
    rw [h4] at this
    have h5 : 0 < 2 ^ s := Nat.pow_pos (by decide)
    have h6 : ((n * 2 ^ t : ℕ) - q : ℤ).natAbs = 0 := by
      by_contra hc
      have : 1 * 2 ^ s ≤ ((n * 2 ^ t : ℕ) - q : ℤ).natAbs * 2 ^ s := Nat.mul_le_mul_right _ (by omega)
      omega
    have : q = n * 2 ^ t := by omega
    rw [this]
  unfold F64.units
  rw [s1, if_neg (by decide), s2, v, h3]
  push_cast
  rfl

theorem Ap.num {n : ℕ} (h : n < 2 ^ 53) : Ap (num n) n 0 := by
  obtain ⟨h1, h2⟩ := num_units h
  refine ⟨h1, ?_⟩
  rw [val_units (m := n) 1074 0 h2 rfl]
  simp

theorem Ap.pi : Ap Dbl.pi Real.pi 1.3e-16 := by
  refine ⟨by unfold F64.Finite; decide, ?_⟩
  rw [val_units (m := 0x1921FB54442D18) 1023 51 (by decide +kernel) rfl, abs_le]
  have h1 := Real.pi_gt_d20
  have h2 := Real.pi_lt_d20
  norm_num at *
  constructor <;> linarith

theorem Ap.a : Ap Dbl.WGS84.a WGS84.a 0 := by
  have := Ap.num (n := 6378137) (by decide)
  unfold WGS84.a
  norm_num at *
  exact this

theorem Ap.b : Ap Dbl.WGS84.b WGS84.b 1e-9 := by
  refine ⟨by unfold F64.Finite; decide, ?_⟩
  rw [val_units (m := 0x183FC4141BDA51) 1044 30 (by decide +kernel) rfl, abs_le]
  unfold WGS84.b
  norm_num

theorem e_bits : Dbl.WGS84.e = BitVec.ofNat 64 0x3FB4F21A3D398EA4 := by decide +kernel

theorem e_lt : WGS84.e < 0.0819 := by
  have := e_sq_lt
  have := e_nonneg
  nlinarith

theorem e_gt : 0.0818 < WGS84.e := by
  have := e_sq_gt
  have := e_nonneg
  nlinarith

theorem Ap.e : Ap Dbl.WGS84.e WGS84.e 1e-15 := by
  rw [e_bits]
  refine ⟨by unfold F64.Finite; decide, ?_⟩
  rw [val_units (m := 0x14F21A3D398EA4) 1018 56 (by decide +kernel) rfl]
  have h1 := e_sq
  have h2 := e_gt
  have h3 := e_nonneg
  generalize WGS84.e = e at *
  unfold WGS84.a WGS84.b at h1
  have h4 : |(((0x14F21A3D398EA4 : ℤ) : ℝ) / 2 ^ 56) ^ 2 - e ^ 2| ≤ 1.6e-16 := by
    rw [h1, abs_le]
    norm_num
  have h5 : (0.08 : ℝ) ≤ ((0x14F21A3D398EA4 : ℤ) : ℝ) / 2 ^ 56 := by norm_num
  generalize ((0x14F21A3D398EA4 : ℤ) : ℝ) / 2 ^ 56 = x at *
  have h6 : x ^ 2 - e ^ 2 = (x - e) * (x + e) := by ring
  rw [h6, abs_mul, abs_of_pos (show 0 < x + e by linarith)] at h4
  have h7 : |x - e| * 0.16 ≤ |x - e| * (x + e) := by
    gcongr; linarith
  linarith

/-! ## Angles -/

theorem Ap.deg2rad {x : F64} {D : ℝ} (hx : x.Finite) (hD : |ofDouble x| ≤ D) (h : D ≤ 2 ^ 900) :
    Ap (Dbl.deg2rad x) (Geo.deg2rad (ofDouble x)) (D * 4.7e-18 + 1 / 2 ^ 99) := by
  have hD0 := (abs_nonneg _).trans hD
  have p1 : |Real.pi| ≤ 3.1416 := by
    rw [abs_of_pos Real.pi_pos]; linarith [Real.pi_lt_d4]
  have h1 : Ap (F64.mul x Dbl.pi) (ofDouble x * Real.pi) (D * 4.79e-16 + 1 / 2 ^ 100) := by
    refine (Ap.self hx).mul Ap.pi hD p1 ?_ ?_
    · norm_num at *; linarith
    · norm_num at *; linarith
  have h2 : |ofDouble x * Real.pi / ((180 : ℕ) : ℝ)| ≤ D * 0.0174534 := by
    rw [abs_div, abs_mul]
    have : |ofDouble x| * |Real.pi| ≤ D * 3.1416 := by gcongr
    norm_num at *
    linarith
  have h3 := (h1.div (Ap.num (n := 180) (by decide)) h2 (B := 180) (g := D * 4.7e-18 + 1 / 2 ^ 99) (by norm_num)
    (by norm_num) (by norm_num at *; linarith) (by norm_num at *; linarith)).1
  unfold Dbl.deg2rad Geo.deg2rad
  exact_mod_cast h3

theorem scale_le {t R : ℝ} (h : R ≤ 2 ^ 901) (ht : t ≤ 100 * R) : t ≤ 2 ^ 1000 := by
  have : (100 : ℝ) * 2 ^ 901 ≤ 2 ^ 1000 := by norm_num
  linarith

theorem Ap.rad2deg {x : F64} {a e D : ℝ} (hx : Ap x a e) (hD : |a| ≤ D) (h : D ≤ 2 ^ 800) (he : e ≤ 2 ^ 800) :
    Ap (Dbl.rad2deg x) (Geo.rad2deg a) (e * 57.4 + D * 1.52e-14 + 1 / 2 ^ 98) := by
  have hD0 := (abs_nonneg _).trans hD
  have he0 := hx.nonneg
  have hS : D + e + 1 ≤ 2 ^ 901 := by
    have : (2 : ℝ) ^ 800 + 2 ^ 800 + 1 ≤ 2 ^ 901 := by norm_num
    linarith
  have p1 : (3.1415 : ℝ) ≤ |Real.pi| := by
    rw [abs_of_pos Real.pi_pos]; linarith [Real.pi_gt_d4]
  have h1 : Ap (F64.mul x (Dbl.num 180)) (a * (180 : ℕ)) (e * 180.1 + D * 1.9985e-14 + 1 / 2 ^ 100) := by
    refine hx.mul (Ap.num (n := 180) (by decide)) hD (B := 180) (by norm_num) ?_ ?_
    · refine scale_le (R := 2 * (D + e + 1)) ?_ (by linarith only [hD0, he0])
      have : (2 : ℝ) * (2 ^ 800 + 2 ^ 800 + 1) ≤ 2 ^ 901 := by norm_num
      linarith only [this, h, he]
    · norm_num
      linarith only [hD0, he0]
  have h2 : |a * ((180 : ℕ) : ℝ) / Real.pi| ≤ D * 57.298 := by
    rw [abs_div, abs_mul, div_le_iff₀ (by linarith)]
    have : |a| * |((180 : ℕ) : ℝ)| ≤ D * 180 := by gcongr; norm_num
    have h3 : D * 57.298 * 3.1415 ≤ D * 57.298 * |Real.pi| := by gcongr
    norm_num at this h3 ⊢
    linarith only [this, h3, hD0]
  have h3 := (h1.div Ap.pi h2 (B := 3.1415) (g := e * 57.4 + D * 1.52e-14 + 1 / 2 ^ 98) p1
    (by norm_num) (scale_le hS (by norm_num; linarith only [hD0, he0])) (by norm_num; linarith only [hD0, he0])).1
  unfold Dbl.rad2deg Geo.rad2deg
  exact_mod_cast h3

/-! ## `lla2ecef` -/

theorem bind_ok {α β : Type} (x : α) (f : α → Except PyErr β) : (Except.ok x >>= f) = f x := rfl

theorem normal_ok {P : Dbl.Platform} {x s r : F64} (e1 : P.square x = .ok s)
    (e2 : F64.sqrt (F64.sub (Dbl.num 1) s) = .ok r) (h : ofDouble r ≠ 0) :
    Dbl.normal P x = .ok (F64.div Dbl.WGS84.a r) := by
  unfold Dbl.normal
  rw [e1, bind_ok, e2, bind_ok, pyDiv_ok h]
theorem Ap.normal {P : Dbl.Platform} (h1 : P.SquareOk) (h2 : P.SquareReturns) {x : F64} {w : ℝ} (hx : Ap x w 1.1e-15)
    (hw : |w| ≤ 0.0819) :
    ∃ N, Dbl.normal P x = .ok N ∧ Ap N (WGS84.a / Real.sqrt (1 - w ^ 2)) 2.45e-9 := by
  have hw2 : w ^ 2 ≤ 0.00671 := by
    rw [← sq_abs]; nlinarith [abs_nonneg w]
  have hw0 := sq_nonneg w
  obtain ⟨s, e1, s1⟩ := hx.square h1 h2 hw (g := 1.9e-16) (by norm_num) (by norm_num)
  have d1 : Ap (F64.sub (Dbl.num 1) s) ((1 : ℕ) - w ^ 2) 3.1e-16 := by
    refine (Ap.num (n := 1) (by decide)).sub s1 (S := 1) ?_ ?_ ?_
    · rw [abs_le]; constructor <;> norm_num <;> linarith
    · norm_num
    · norm_num
  rw [Nat.cast_one] at d1
  have r0 : Real.sqrt (1 - w ^ 2) ≤ 1 := Real.sqrt_le_one.2 (by linarith)
  obtain ⟨r, e2, r1⟩ := d1.sqrt (q := 0.995) (S := 1) (g := 2.7e-16) (by norm_num) (by norm_num at hw2 ⊢; linarith only [hw2]) r0
    (by norm_num)
  have r2 : 0.9966 ≤ Real.sqrt (1 - w ^ 2) := Real.le_sqrt_of_sq_le (by norm_num at hw2 ⊢; linarith only [hw2])
  have q1 : |WGS84.a / Real.sqrt (1 - w ^ 2)| ≤ 6.4e6 := by
    rw [abs_of_nonneg (div_nonneg a_pos.le (Real.sqrt_nonneg _)), div_le_iff₀ (by linarith)]
    unfold WGS84.a
    norm_num at r2 ⊢
    linarith only [r2]
  obtain ⟨q2, q3⟩ := Ap.a.div r1 q1 (B := 0.9966) (g := 2.45e-9) (by rw [abs_of_nonneg (Real.sqrt_nonneg _)]; exact r2)
    (by norm_num) (by norm_num) (by norm_num)
  exact ⟨_, normal_ok e1 e2 q3, q2⟩

/-- The same for the wider range of the loop of `ecef2lla`. -/
theorem Ap.normal_wide {P : Dbl.Platform} (h1 : P.SquareOk) (h2 : P.SquareReturns) {x : F64} {w : ℝ} (hx : Ap x w 1.2e-15)
    (hw : |w| ≤ 0.09) :
    ∃ N, Dbl.normal P x = .ok N ∧ Ap N (WGS84.a / Real.sqrt (1 - w ^ 2)) 2.6e-9 := by
  have hw2 : w ^ 2 ≤ 0.0081 := by
    rw [← sq_abs]; nlinarith [abs_nonneg w]
  have hw0 := sq_nonneg w
  obtain ⟨s, e1, s1⟩ := hx.square h1 h2 hw (g := 2.19e-16) (by norm_num) (by norm_num)
  have d1 : Ap (F64.sub (Dbl.num 1) s) ((1 : ℕ) - w ^ 2) 3.31e-16 := by
    refine (Ap.num (n := 1) (by decide)).sub s1 (S := 1) ?_ ?_ ?_
    · rw [abs_le]; constructor <;> norm_num <;> linarith
    · norm_num
    · norm_num
  rw [Nat.cast_one] at d1
  have r0 : Real.sqrt (1 - w ^ 2) ≤ 1 := Real.sqrt_le_one.2 (by linarith)
  obtain ⟨r, e2, r1⟩ := d1.sqrt (q := 0.995) (S := 1) (g := 2.79e-16) (by norm_num) (by norm_num at hw2 ⊢; linarith only [hw2]) r0
    (by norm_num)
  have r2 : 0.9959 ≤ Real.sqrt (1 - w ^ 2) := Real.le_sqrt_of_sq_le (by norm_num at hw2 ⊢; linarith only [hw2])
  have q1 : |WGS84.a / Real.sqrt (1 - w ^ 2)| ≤ 6.41e6 := by
    rw [abs_of_nonneg (div_nonneg a_pos.le (Real.sqrt_nonneg _)), div_le_iff₀ (by linarith)]
    unfold WGS84.a
    norm_num at r2 ⊢
    linarith only [r2]
  obtain ⟨q2, q3⟩ := Ap.a.div r1 q1 (B := 0.9959) (g := 2.6e-9) (by rw [abs_of_nonneg (Real.sqrt_nonneg _)]; exact r2)
    (by norm_num) (by norm_num) (by norm_num)
  exact ⟨_, normal_ok e1 e2 q3, q2⟩

end Dis.Geo
