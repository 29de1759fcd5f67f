import Verif.Proof.Attitude
import Verif.Proof.BodyExample
import Mathlib.Analysis.Real.Pi.Bounds
import Mathlib.Analysis.SpecialFunctions.Trigonometric.Bounds

/-!
# Rounding in the extrapolated orientation (C65)

`ofDouble` is the number a finite double stands for; `P.TrigOk` is what is assumed of the C library's `cos`,
`sin` and `tan`. Euler angles are (psi, theta, phi), angular velocities (p, q, r).
-/

set_option exponentiation.threshold 4096

namespace Dis

open Geo

/-- **C65.** If the cosine of the pitch is above 10^-6 (with a margin of 2^-50 of it), each finite angle
returned by `drm_rpw` is the one from the exact Euler rates up to rounding. The error in yaw grows with the
inverse of that cosine, the one in roll with the tangent. -/
theorem C65_regular (P : Dbl.Platform) (hT : P.TrigOk)
    (position velocity orientation angular_velocity pos ori : Dbl.Vec) (dt : F64)
    (ho : ∀ k, (orientation k).Finite) (psi theta phi p q r t : ℝ)
    (hpsi : psi = ofDouble (orientation 0)) (htheta : theta = ofDouble (orientation 1))
    (hphi : phi = ofDouble (orientation 2)) (hp : p = ofDouble (angular_velocity 0))
    (hq : q = ofDouble (angular_velocity 1)) (hr : r = ofDouble (angular_velocity 2)) (ht : t = ofDouble dt)
    (hc : 1 / 10 ^ 6 * (1 + 1 / 2 ^ 50) ≤ |Real.cos theta|)
    (h : Dbl.drm_rpw P position velocity dt orientation angular_velocity = .ok (pos, ori)) :
    ((ori 0).Finite →
      |ofDouble (ori 0) - (psi + (q * Real.sin phi + r * Real.cos phi) / Real.cos theta * t)|
        ≤ 1 / 2 ^ 53 * |psi| + 1 / 2 ^ 48 * ((|q| + |r|) / |Real.cos theta| * |t|)
          + 1 / 2 ^ 1072 * (1 + |t| / |Real.cos theta|)) ∧
    ((ori 1).Finite →
      |ofDouble (ori 1) - (theta + (q * Real.cos phi - r * Real.sin phi) * t)|
        ≤ 1 / 2 ^ 53 * |theta| + 1 / 2 ^ 49 * ((|q| + |r|) * |t|) + 1 / 2 ^ 1072 * (1 + |t|)) ∧
    ((ori 2).Finite →
      |ofDouble (ori 2) - (phi + (p + (q * Real.sin phi + r * Real.cos phi) * Real.tan theta) * t)|
        ≤ 1 / 2 ^ 53 * |phi| + 1 / 2 ^ 50 * (|p| * |t|) + 1 / 2 ^ 48 * ((|q| + |r|) * |Real.tan theta| * |t|)
          + 1 / 2 ^ 1072 * (1 + |t| * (1 + (|q| + |r|) + |Real.tan theta|))) := by
  subst hpsi htheta hphi hp hq hr ht
  have c1 : (1 : ℝ) / 2 ^ 1072 = 8 * eta := by
    rw [show (1072 : ℕ) = 1075 - 3 from rfl, eta_pow 3 (by norm_num)]; norm_num
  rw [c1]
  have hb := regular_branch hT (ho 1) hc
  obtain ⟨k1, k2, k3⟩ := regular_trig hT (ho 1) hc
  have cφ := unit_trig (hT.cos _ (ho 2)) (Real.abs_cos_le_one _)
  have sφ := unit_trig (hT.sin _ (ho 2)) (Real.abs_sin_le_one _)
  unfold Dbl.drm_rpw at h
  rw [Dbl.rates_ok (finite_not_infinite (ho 1)) (finite_not_infinite (ho 2)), hb] at h
  cases h
  refine ⟨fun hf => ?_, fun hf => ?_, fun hf => ?_⟩
  · have hcf := (hT.cos _ (ho 1)).1
    have hu := (F64.div_finite (F64.mul_finite (F64.add_finite hf).2.1).1 hcf).1
    obtain ⟨h1, h2⟩ := swing_near sφ cφ hu
    exact psi_near h1 h2 hcf k2 k1 (Real.abs_cos_le_one _) hf
  · have hu := (F64.mul_finite (F64.add_finite hf).2.1).1
    obtain ⟨h1, h2⟩ := swing_sub_near cφ sφ hu
    have := theta_near h1 h2 hf
    refine this.trans ?_
    have h0 := eta_pos
    have : 0 ≤ eta * (1 + |ofDouble dt|) := mul_nonneg h0.le (by positivity)
    rw [mul_assoc 4, mul_assoc 8]
    linarith
  · have hs := (F64.mul_finite (F64.add_finite hf).2.1).1
    have hu := (F64.mul_finite (F64.add_finite hs).2.1).1
    obtain ⟨h1, h2⟩ := swing_near sφ cφ hu
    exact phi_near h1 h2 (hT.tan _ (ho 1) k3).2 hf

/-- **C65.** If the cosine of the pitch is below 10^-6 (with the same margin), the yaw stays as it is, whatever
the angular velocity, and the roll advances with `p` alone. -/
theorem C65_gimbal (P : Dbl.Platform) (hT : P.TrigOk)
    (position velocity orientation angular_velocity pos ori : Dbl.Vec) (dt : F64)
    (ho : ∀ k, (orientation k).Finite) (theta phi p q r t : ℝ)
    (htheta : theta = ofDouble (orientation 1))
    (hphi : phi = ofDouble (orientation 2)) (hp : p = ofDouble (angular_velocity 0))
    (hq : q = ofDouble (angular_velocity 1)) (hr : r = ofDouble (angular_velocity 2)) (ht : t = ofDouble dt)
    (hc : |Real.cos theta| ≤ 1 / 10 ^ 6 * (1 - 1 / 2 ^ 50))
    (h : Dbl.drm_rpw P position velocity dt orientation angular_velocity = .ok (pos, ori)) :
    (dt.Finite → (ori 0).Finite ∧ ofDouble (ori 0) = ofDouble (orientation 0)) ∧
    ((ori 1).Finite →
      |ofDouble (ori 1) - (theta + (q * Real.cos phi - r * Real.sin phi) * t)|
        ≤ 1 / 2 ^ 53 * |theta| + 1 / 2 ^ 49 * ((|q| + |r|) * |t|) + 1 / 2 ^ 1072 * (1 + |t|)) ∧
    ((ori 2).Finite →
      |ofDouble (ori 2) - (phi + p * t)| ≤ 1 / 2 ^ 53 * |phi + p * t| + 1 / 2 ^ 52 * |p * t| + 1 / 2 ^ 1074) := by
  subst htheta hphi hp hq hr ht
  have c1 : (1 : ℝ) / 2 ^ 1072 = 8 * eta := by
    rw [show (1072 : ℕ) = 1075 - 3 from rfl, eta_pow 3 (by norm_num)]; norm_num
  rw [c1, eta_two]
  have hb := gimbal_branch hT (ho 1) hc
  have cφ := unit_trig (hT.cos _ (ho 2)) (Real.abs_cos_le_one _)
  have sφ := unit_trig (hT.sin _ (ho 2)) (Real.abs_sin_le_one _)
  unfold Dbl.drm_rpw at h
  rw [Dbl.rates_ok (finite_not_infinite (ho 1)) (finite_not_infinite (ho 2)), hb] at h
  cases h
  refine ⟨fun hd => ?_, fun hf => ?_, fun hf => ?_⟩
  · have hz : (F64.mk 0 0 0).units = 0 := by decide
    have hzf : (F64.mk 0 0 0).Finite := show (F64.mk 0 0 0).expo ≠ 2047 by decide
    obtain ⟨m1, m2⟩ := F64.mul_exact (w := F64.mk 0 0 0) hzf hd hzf (by rw [hz]; simp)
    obtain ⟨a1, a2⟩ := F64.add_exact (ho 0) m1 (ho 0) (by rw [m2, hz]; simp)
    exact ⟨a1, val_eq.2 a2⟩
  · have hu := (F64.mul_finite (F64.add_finite hf).2.1).1
    obtain ⟨h1, h2⟩ := swing_sub_near cφ sφ hu
    have := theta_near h1 h2 hf
    refine this.trans ?_
    have h0 := eta_pos
    have : 0 ≤ eta * (1 + |ofDouble dt|) := mul_nonneg h0.le (by positivity)
    rw [mul_assoc 4, mul_assoc 8]
    linarith
  · exact madd_error hf

/-- **C65.** The orientation depends neither on the position nor on the velocity or acceleration: `drm_rvw`
returns that of `drm_rpw`, bit for bit. -/
theorem C65_same (P : Dbl.Platform) (position velocity acceleration orientation angular_velocity pos ori : Dbl.Vec)
    (position' velocity' : Dbl.Vec) (dt : F64)
    (h : Dbl.drm_rvw P position velocity acceleration dt orientation angular_velocity = .ok (pos, ori)) :
    ∃ pos', Dbl.drm_rpw P position' velocity' dt orientation angular_velocity = .ok (pos', ori) := by
  unfold Dbl.drm_rvw Dbl.drm_rpw at h
  unfold Dbl.drm_rpw
  cases hs : P.square dt with
  | error e => rw [hs] at h; cases h
  | ok s =>
    rw [hs] at h
    cases hr : Dbl.rates P orientation angular_velocity with
    | error e => rw [hr] at h; cases h
    | ok d =>
      rw [hr] at h
      cases h
      exact ⟨_, rfl⟩

/-- **C65.** After no time, an angle that comes out finite is the same. -/
theorem C65_no_time (P : Dbl.Platform) (position velocity orientation angular_velocity pos ori : Dbl.Vec) (dt : F64)
    (h0 : ofDouble dt = 0) (h : Dbl.drm_rpw P position velocity dt orientation angular_velocity = .ok (pos, ori))
    (i : Fin 3) (hf : (ori i).Finite) : ofDouble (ori i) = ofDouble (orientation i) := by
  have hz : (F64.mk 0 0 0).units = 0 := by decide
  have hzf : (F64.mk 0 0 0).Finite := show (F64.mk 0 0 0).expo ≠ 2047 by decide
  have hd : dt.units = 0 := by
    have := (val_eq (x := dt) (y := F64.mk 0 0 0)).1 (by
      rw [h0]; unfold ofDouble; rw [hz]; simp)
    rwa [hz] at this
  have key : ∀ o d : F64, (F64.add o (F64.mul d dt)).Finite → ofDouble (F64.add o (F64.mul d dt)) = ofDouble o := by
    intro o d hh
    have f1 := (F64.add_finite hh).1
    have f2 := F64.mul_finite (F64.add_finite hh).2.1
    obtain ⟨m1, m2⟩ := F64.mul_exact (w := F64.mk 0 0 0) f2.1 f2.2.1 hzf (by rw [hz, hd]; simp)
    obtain ⟨-, a2⟩ := F64.add_exact f1 m1 f1 (by rw [m2, hz]; simp)
    exact val_eq.2 a2
  unfold Dbl.drm_rpw at h
  cases hr : Dbl.rates P orientation angular_velocity with
  | error e => rw [hr] at h; cases h
  | ok d =>
    rw [hr] at h
    cases h
    match i with
    | 0 => exact key _ _ hf
    | 1 => exact key _ _ hf
    | 2 => exact key _ _ hf

/-- **C65.** `drm_rpw` raises only `ValueError`, exactly if pitch or roll is infinite. -/
theorem C65_raises (P : Dbl.Platform) (position velocity orientation angular_velocity : Dbl.Vec) (dt : F64)
    (e : PyErr) : Dbl.drm_rpw P position velocity dt orientation angular_velocity = .error e ↔
      e = .valueError ∧ ((orientation 1).Infinite ∨ (orientation 2).Infinite) := by
  rw [← Dbl.rates_error (P := P) (av := angular_velocity)]
  unfold Dbl.drm_rpw
  cases hr : Dbl.rates P orientation angular_velocity with
  | error e' => exact ⟨(fun h => by cases h; rfl), (fun h => by cases h; rfl)⟩
  | ok d => exact ⟨(fun h => by cases h), (fun h => by cases h)⟩

/-! ## Examples -/

/-- Level flight at a roll of half a radian, turning at 0.25 rad/s, for 0.2 s: a platform that meets the
assumption returns finite angles. -/
example : reference.TrigOk ∧ 1 / 10 ^ 6 * (1 + 1 / 2 ^ 50) ≤ |Real.cos (ofDouble 0)| ∧
    ∃ pos ori, Dbl.drm_rpw reference (fun _ => 0) (fun _ => 0) 0x3fc999999999999a
      (fun i => match i with | 0 => 0 | 1 => 0 | 2 => 0x3fe0000000000000)
      (fun i => match i with | 0 => 0 | 1 => 0 | 2 => 0x3fd0000000000000) = .ok (pos, ori) ∧
      (ori 1).Finite := by
  have f : ∀ x : F64, x.expo ≠ 2047 → x.Finite := fun _ h => h
  have z : ofDouble 0 = 0 := by
    unfold ofDouble
    rw [show F64.units 0 = 0 by decide +kernel]
    simp
  have hc : 1 / 10 ^ 6 * (1 + 1 / 2 ^ 50) ≤ |Real.cos (ofDouble 0)| := by
    rw [z, Real.cos_zero]; norm_num
  refine ⟨reference_trig, hc, ?_⟩
  have hb := regular_branch reference_trig (f 0 (by decide)) hc
  unfold Dbl.drm_rpw
  rw [Dbl.rates_ok (finite_not_infinite (f _ (by decide))) (finite_not_infinite (f _ (by decide)))]
  dsimp only
  rw [hb]
  refine ⟨_, _, rfl, ?_⟩
  have hd := f 0x3fc999999999999a (by decide)
  have hr := f 0x3fd0000000000000 (by decide)
  have bd := abs_le_pow 0x3fc999999999999a 1 (by decide +kernel)
  have br := abs_le_pow 0x3fd0000000000000 1 (by decide +kernel)
  have bz := abs_le_pow 0 1 (by decide +kernel)
  have one : ∀ {x : F64} {a : ℝ}, Unit1 x a 2 → |ofDouble x| ≤ 2 := fun {x a} hx => by
    have h1 := abs_le_of_near hx.2.2
    have h2 := hx.2.1
    norm_num at h1
    linarith
  have hφ := f 0x3fe0000000000000 (by decide)
  have cφ := unit_trig (reference_trig.cos _ hφ) (Real.abs_cos_le_one _)
  have sφ := unit_trig (reference_trig.sin _ hφ) (Real.abs_sin_le_one _)
  obtain ⟨f1, b1⟩ := mul_bound (f 0 (by decide)) cφ.1 bz (one cφ) (by norm_num)
  obtain ⟨f2, b2⟩ := mul_bound hr sφ.1 br (one sφ) (by norm_num)
  have b2' : |ofDouble (F64.neg (F64.mul 0x3fd0000000000000 (reference.sin 0x3fe0000000000000)))| ≤ 9 := by
    rw [val_neg, abs_neg]; exact b2.trans (by norm_num)
  obtain ⟨f3, b3⟩ := add_bound f1 (F64.neg_finite.2 f2) b1 b2' (by norm_num)
  obtain ⟨f4, b4⟩ := mul_bound f3 hd b3 bd (by norm_num)
  exact (add_bound (f 0 (by decide)) f4 bz b4 (by norm_num)).1

/-- A pitch of a quarter turn, as near as a double comes to it. -/
example : |Real.cos (ofDouble 0x3ff921fb54442d18)| ≤ 1 / 10 ^ 6 * (1 - 1 / 2 ^ 50) := by
  have e : ofDouble 0x3ff921fb54442d18 = 884279719003555 / 562949953421312 := by
    have h : F64.units 0x3ff921fb54442d18 = 884279719003555 * 2 ^ 1025 := by decide +kernel
    unfold ofDouble
    rw [h, show (2 : ℝ) ^ 1074 = 562949953421312 * 2 ^ 1025 by
      rw [show (562949953421312 : ℝ) = 2 ^ 49 by norm_num, ← pow_add], Int.cast_mul, Int.cast_pow]
    have hU : (0 : ℝ) < 2 ^ 1025 := by positivity
    rw [Int.cast_ofNat, Int.cast_ofNat]
    generalize (2 : ℝ) ^ 1025 = U at *
    field_simp
  rw [e, ← Real.sin_pi_div_two_sub]
  have h1 := Real.pi_gt_d6
  have h2 := Real.pi_lt_d6
  refine (Real.abs_sin_le_abs).trans ?_
  rw [abs_le]
  constructor <;> norm_num at * <;> linarith

end Dis
