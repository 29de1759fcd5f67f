import Verif.Model.DemoRun
import Verif.Proof.Bounded
import Verif.Proof.Zone64
import Verif.Proof.Rates
import Verif.Proof.Round64

/-!
# The loop of the demonstration program
-/

set_option exponentiation.threshold 4096

namespace Dis.Geo

open Dbl

/-- What round `k` computes. -/
abbrev roundOf (P : Platform) (m : Motion) (t : F64) : Except PyErr (Dbl.Vec × Dbl.Vec) :=
  Dbl.drm_rvw P m.position m.velocity m.acceleration t m.orientation m.angularVelocity

theorem frames_succ {P : Platform} {m : Motion} {step : F64} {n : ℕ} {fs : List Frame} {pos ori : Dbl.Vec}
    (h : frames P m step n = .ok fs) (h' : roundOf P m (clock step n) = .ok (pos, ori)) :
    frames P m step (n + 1) = .ok (fs ++ [⟨clock step n, pos⟩]) := by
  unfold roundOf at h'
  unfold frames
  rw [h, bind_ok, h', bind_ok]
  rfl

theorem frames_ok {P : Platform} {m : Motion} {step : F64} (n : ℕ)
    (h : ∀ k < n, ∃ pos ori, roundOf P m (clock step k) = .ok (pos, ori)) :
    ∃ fs, frames P m step n = .ok fs ∧ fs.length = n ∧ ∀ (k : ℕ) (hk : k < fs.length),
      fs[k].time = clock step k ∧ ∃ ori, roundOf P m (clock step k) = .ok (fs[k].position, ori) := by
  induction n with
  | zero => exact ⟨[], rfl, rfl, fun k hk => absurd hk (Nat.not_lt_zero k)⟩
  | succ n ih =>
    obtain ⟨fs, e, hl, hf⟩ := ih fun k hk => h k (Nat.lt_succ_of_lt hk)
    obtain ⟨pos, ori, hr⟩ := h n (Nat.lt_succ_self n)
    refine ⟨_, frames_succ e hr, by simp [hl], fun k hk => ?_⟩
    by_cases hkn : k < fs.length
    · rw [List.getElem_append_left hkn]
      exact hf k hkn
    · have hk' : k = n := by
        rw [List.length_append, List.length_singleton] at hk
        omega
      subst hk'
      rw [List.getElem_append_right (by omega)]
      simp only [hl, Nat.sub_self, List.getElem_singleton]
      exact ⟨trivial, ori, hr⟩

theorem frames_error {P : Platform} {m : Motion} {step : F64} {k : ℕ} {e : PyErr} (h : frames P m step k = .error e)
    (n : ℕ) (hn : k ≤ n) : frames P m step n = .error e := by
  induction n, hn using Nat.le_induction with
  | base => exact h
  | succ n _ ih =>
    unfold frames
    rw [ih]
    rfl

theorem simulate_eq {P : Platform} {m : Motion} {step duration : F64} {n : ℕ} {fs : List Frame}
    (h1 : ∀ k < n, F64.le (clock step k) duration = true) (h2 : F64.le (clock step n) duration = false)
    (h : frames P m step n = .ok fs) : simulate P m step duration = some (.ok fs) := by
  have hex : ∃ n, ends P m step duration n := ⟨n, .inl h2⟩
  unfold simulate
  rw [dif_pos hex]
  classical
  have : Nat.find hex = n := by
    rw [Nat.find_eq_iff]
    refine ⟨.inl h2, fun k hk => ?_⟩
    rintro (h3 | ⟨e, h3⟩)
    · rw [h1 k hk] at h3; cases h3
    · rw [frames_error h3 n hk.le] at h; cases h
  have e : @Nat.find _ (fun a => Classical.propDecidable _) hex = n := by convert this
  rw [e, h]

theorem clock_exact {step : F64} (hs : step.Finite) (n : ℕ)
    (hm : ∀ k ≤ n, ∃ w : F64, w.Finite ∧ ofDouble w = k * ofDouble step) :
    (clock step n).Finite ∧ ofDouble (clock step n) = n * ofDouble step := by
  induction n with
  | zero =>
    obtain ⟨h1, h2⟩ := num_zero_val
    exact ⟨h1, by rw [Nat.cast_zero, zero_mul]; exact h2⟩
  | succ n ih =>
    obtain ⟨h1, h2⟩ := ih fun k hk => hm k (Nat.le_succ_of_le hk)
    obtain ⟨w, w1, w2⟩ := hm (n + 1) le_rfl
    have hu : (clock step n).units + step.units = w.units := by
      have : ofDouble (clock step n) + ofDouble step = ofDouble w := by rw [h2, w2]; push_cast; ring
      unfold ofDouble at this
      rw [← add_div] at this
      have := (div_left_inj' (show ((2 : ℝ) ^ 1074) ≠ 0 by positivity)).1 this
      exact_mod_cast this
    obtain ⟨a1, a2⟩ := F64.add_exact h1 hs w1 hu
    exact ⟨a1, by rw [← w2]; exact val_eq.2 a2⟩

theorem rvw_returns {P : Platform} {m : Motion} {t s : F64} (h1 : ¬ (m.orientation 1).Infinite)
    (h2 : ¬ (m.orientation 2).Infinite) (hs : P.square t = .ok s) :
    ∃ ori, roundOf P m t
      = .ok (vadd (vadd m.position (vmul m.velocity t)) (vmul (vhalf m.acceleration) s), ori) := by
  obtain ⟨d, hd⟩ : ∃ d, rates P m.orientation m.angularVelocity = .ok d := ⟨_, rates_ok h1 h2⟩
  obtain ⟨r, hr⟩ : ∃ r, Dbl.drm_rpw P m.position m.velocity t m.orientation m.angularVelocity = .ok r := by
    unfold Dbl.drm_rpw
    dsimp only
    rw [hd, bind_ok]
    exact ⟨_, rfl⟩
  unfold roundOf Dbl.drm_rvw
  rw [hs, bind_ok]
  dsimp only
  rw [hr, bind_ok]
  exact ⟨_, rfl⟩

/-- The angle of a point of the plane that is near another one. -/
theorem direction_near' {q l x y δ : ℝ} (hδ : 2 * δ < q)
    (hx : |x - q * Real.cos l| ≤ δ) (hy : |y - q * Real.sin l| ≤ δ) :
    ¬ (x = 0 ∧ y = 0) ∧
    |Real.cos (atan2 y x) - Real.cos l| ≤ 3 * δ / (q - 2 * δ) ∧
    |Real.sin (atan2 y x) - Real.sin l| ≤ 3 * δ / (q - 2 * δ) := by
  have hl := sqrt_lip2 hx hy
  have h0 : 0 ≤ δ := (abs_nonneg _).trans hx
  have hq : Real.sqrt ((q * Real.cos l) ^ 2 + (q * Real.sin l) ^ 2) = q := by
    have : (q * Real.cos l) ^ 2 + (q * Real.sin l) ^ 2 = q ^ 2 := by
      linear_combination q ^ 2 * Real.sin_sq_add_cos_sq l
    rw [this, Real.sqrt_sq (by linarith)]
  rw [hq] at hl
  have hd : 0 < q - 2 * δ := by linarith
  have hQ := abs_le.1 hl
  have aux : ∀ c c' : ℝ, |c'| ≤ 1 → |Real.sqrt (x ^ 2 + y ^ 2) * c - q * c'| ≤ δ → |c - c'| ≤ 3 * δ / (q - 2 * δ) := by
    intro c c' hc h
    rw [le_div_iff₀ hd]
    have h2 := abs_nonneg (c - c')
    have hQ0 : 0 ≤ Real.sqrt (x ^ 2 + y ^ 2) := Real.sqrt_nonneg _
    have h1 : Real.sqrt (x ^ 2 + y ^ 2) * |c - c'| ≤ 3 * δ := by
      rw [← abs_of_nonneg hQ0, ← abs_mul,
        show Real.sqrt (x ^ 2 + y ^ 2) * (c - c')
          = (Real.sqrt (x ^ 2 + y ^ 2) * c - q * c') + (q - Real.sqrt (x ^ 2 + y ^ 2)) * c' by ring]
      refine (abs_add_le _ _).trans ?_
      rw [abs_mul, abs_sub_comm q]
      have : |Real.sqrt (x ^ 2 + y ^ 2) - q| * |c'| ≤ 2 * δ * 1 := mul_le_mul hl hc (abs_nonneg _) (by linarith)
      linarith
    have : |c - c'| * (q - 2 * δ) ≤ |c - c'| * Real.sqrt (x ^ 2 + y ^ 2) :=
      mul_le_mul_of_nonneg_left (by linarith) h2
    linarith
  refine ⟨?_, ?_, ?_⟩
  · rintro ⟨rfl, rfl⟩
    norm_num at hQ
    linarith
  · rw [← atan2_cos y x] at hx
    exact aux _ _ (Real.abs_cos_le_one _) hx
  · rw [← atan2_sin y x] at hy
    exact aux _ _ (Real.abs_sin_le_one _) hy

end Dis.Geo
