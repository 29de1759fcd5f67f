import Verif.Proof.Llarpy64
import Verif.Proof.Single

/-!
# What is lost between the example sender and the example receiver
-/

set_option exponentiation.threshold 4096

namespace Dis.Geo

open Matrix

/-- Single precision for an angle. -/
theorem single_near {x : F64} (hx : x.Finite) (hb : |ofDouble x| ≤ 3.1416) :
    (write_float x).Ok ∧ (quant x).Finite ∧ |ofDouble (quant x) - ofDouble x| ≤ 1.9e-7 := by
  have hn : ∃ y, narrow x = .ok y := by
    cases h : narrow x with
    | ok y => exact ⟨y, rfl⟩
    | error e =>
      exfalso
      obtain ⟨-, -, hm⟩ := (narrow_overflow e).1 h
      rw [narrowMag_overflow (by have := x.expo_lt; unfold F64.Finite at hx; omega) x.frac_lt] at hm
      have hm' : (2 ^ 25 - 1) * 2 ^ 1177 ≤ x.mag := hm
      have hu := (Nat.cast_le (α := ℝ)).2 hm'
      have hU : (0 : ℝ) < 2 ^ 1074 := by positivity
      have hv : (x.mag : ℝ) = |ofDouble x| * 2 ^ 1074 := by
        unfold ofDouble
        rw [abs_div, abs_of_pos hU, div_mul_cancel₀ _ hU.ne', ← natAbs_cast, F64.units_abs]
      rw [hv, Nat.cast_mul, Nat.cast_pow, show (2 : ℕ) ^ 25 - 1 = 33554431 from rfl] at hu
      push_cast at hu
      rw [show (2 : ℝ) ^ 1177 = 2 ^ 103 * 2 ^ 1074 by rw [← pow_add], ← mul_assoc] at hu
      have := le_of_mul_le_mul_right hu hU
      norm_num at this
      linarith
  obtain ⟨y, hy⟩ := hn
  obtain ⟨f, h1, -⟩ := val_quant hx hy
  refine ⟨ok_float.2 ⟨y, hy⟩, f, h1.trans ?_⟩
  norm_num
  linarith

theorem two_near {a a' b b' d e : ℝ} (h1 : |a' - a| ≤ d) (h2 : |b' - b| ≤ e) (h3 : |a| ≤ 1) (h4 : |b'| ≤ 1) :
    |a' * b' - a * b| ≤ d + e := by
  rw [show a' * b' - a * b = (a' - a) * b' + (b' - b) * a by ring]
  exact (abs_add_le _ _).trans (add_le_add (scale h1 h4) (scale h2 h3))

theorem abs_mul_le_one {a b : ℝ} (h1 : |a| ≤ 1) (h2 : |b| ≤ 1) : |a * b| ≤ 1 := by
  rw [abs_mul]
  exact mul_le_one₀ h1 (abs_nonneg _) h2

/-- Errors of the angles of an attitude. -/
theorem attitude_lip {a b c a' b' c' d : ℝ} (ha : |a' - a| ≤ d) (hb : |b' - b| ≤ d) (hc : |c' - c| ≤ d) (i j : Fin 3) :
    |attitude ![a', b', c'] i j - attitude ![a, b, c] i j| ≤ 5 * d := by
  have d0 := (abs_nonneg _).trans ha
  have sa := (Real.abs_sin_sub_sin_le a' a).trans ha
  have ca := (Real.abs_cos_sub_cos_le a' a).trans ha
  have sb := (Real.abs_sin_sub_sin_le b' b).trans hb
  have cb := (Real.abs_cos_sub_cos_le b' b).trans hb
  have sc := (Real.abs_sin_sub_sin_le c' c).trans hc
  have cc := (Real.abs_cos_sub_cos_le c' c).trans hc
  have S := Real.abs_sin_le_one
  have C := Real.abs_cos_le_one
  have p2 : ∀ {x x' y y' : ℝ}, |x' - x| ≤ d → |y' - y| ≤ d → |x| ≤ 1 → |y'| ≤ 1 → |x' * y' - x * y| ≤ 5 * d :=
    fun h1 h2 h3 h4 => (two_near h1 h2 h3 h4).trans (by linarith)
  have p5 : ∀ {x x' y y' u u' v v' w w' : ℝ}, |x' - x| ≤ d → |y' - y| ≤ d → |x| ≤ 1 → |y'| ≤ 1 → |u' - u| ≤ d →
      |v' - v| ≤ d → |w' - w| ≤ d → |u| ≤ 1 → |v'| ≤ 1 → |v| ≤ 1 → |w'| ≤ 1 →
      |x' * y' + u' * v' * w' - (x * y + u * v * w)| ≤ 5 * d := by
    intro x x' y y' u u' v v' w w' h1 h2 h3 h4 h5 h6 h7 h8 h9 h10 h11
    rw [show x' * y' + u' * v' * w' - (x * y + u * v * w) = (x' * y' - x * y) + (u' * v' * w' - u * v * w) by ring]
    have k1 := two_near h1 h2 h3 h4
    have k2 := two_near (two_near h5 h6 h8 h9) h7 (abs_mul_le_one h8 h10) h11
    exact (abs_add_le _ _).trans ((add_le_add k1 k2).trans (by linarith))
  have ng : ∀ {x x' : ℝ}, |x' - x| ≤ d → |-x' - -x| ≤ d := fun {x x'} h => by
    rwa [show -x' - -x = -(x' - x) by ring, abs_neg]
  have nl : ∀ {x : ℝ}, |x| ≤ 1 → |-x| ≤ 1 := fun h => by rwa [abs_neg]
  fin_cases i <;> fin_cases j <;> simp [attitude, Rz, Ry, Rx, Matrix.mul_apply, Fin.sum_univ_three]
  · exact p2 ca cb (C _) (C _)
  · rw [← neg_mul, ← neg_mul]
    exact p5 (ng sa) cc (nl (S _)) (C _) ca sb sc (C _) (S _) (S _) (S _)
  · exact p5 sa sc (S _) (S _) ca sb cc (C _) (S _) (S _) (C _)
  · exact p2 sa cb (S _) (C _)
  · exact p5 ca cc (C _) (C _) sa sb sc (S _) (S _) (S _) (S _)
  · rw [← neg_mul, ← neg_mul]
    exact p5 (ng ca) sc (nl (C _)) (S _) sa sb cc (S _) (S _) (S _) (C _)
  · rw [show -Real.sin b' + Real.sin b = -(Real.sin b' - Real.sin b) by ring, abs_neg]
    exact sb.trans (by linarith)
  · exact p2 cb sc (C _) (S _)
  · exact p2 cb cc (C _) (C _)

/-- Errors of latitude and longitude in the local frame. -/
theorem ned_lip {t l t' l' d : ℝ} (ht : |t' - t| ≤ d) (hl : |l' - l| ≤ d) (i j : Fin 3) :
    |nedFrame t' l' i j - nedFrame t l i j| ≤ 2 * d := by
  have d0 := (abs_nonneg _).trans ht
  have st := (Real.abs_sin_sub_sin_le t' t).trans ht
  have ct := (Real.abs_cos_sub_cos_le t' t).trans ht
  have sl := (Real.abs_sin_sub_sin_le l' l).trans hl
  have cl := (Real.abs_cos_sub_cos_le l' l).trans hl
  have S := Real.abs_sin_le_one
  have C := Real.abs_cos_le_one
  have p2 : ∀ {x x' y y' : ℝ}, |x' - x| ≤ d → |y' - y| ≤ d → |x| ≤ 1 → |y'| ≤ 1 → |x' * y' - x * y| ≤ 2 * d :=
    fun h1 h2 h3 h4 => (two_near h1 h2 h3 h4).trans (by linarith)
  have nm : ∀ {x x' : ℝ}, |x' - x| ≤ 2 * d → |-x' + x| ≤ 2 * d := fun {x x'} h => by
    rwa [show -x' + x = -(x' - x) by ring, abs_neg]
  fin_cases i <;> fin_cases j <;> simp [nedFrame, north, east, up]
  · exact nm (p2 st cl (S _) (C _))
  · exact nm (sl.trans (by linarith))
  · exact nm (p2 ct cl (C _) (C _))
  · exact nm (p2 st sl (S _) (S _))
  · exact cl.trans (by linarith)
  · exact nm (p2 ct sl (C _) (S _))
  · exact ct.trans (by linarith)
  · exact d0
  · exact nm (st.trans (by linarith))

/-- Errors of a position and an attitude in the orientation in space. -/
theorem turned_lip {t l t' l' a b c a' b' c' d : ℝ} (ht : |t' - t| ≤ d) (hl : |l' - l| ≤ d) (ha : |a' - a| ≤ d)
    (hb : |b' - b| ≤ d) (hc : |c' - c| ≤ d) (i j : Fin 3) :
    |(nedFrame t' l' * attitude ![a', b', c']) i j - (nedFrame t l * attitude ![a, b, c]) i j| ≤ 21 * d := by
  have k : ∀ m, |nedFrame t' l' i m * attitude ![a', b', c'] m j - nedFrame t l i m * attitude ![a, b, c] m j|
      ≤ 2 * d + 5 * d := fun m =>
    two_near (ned_lip ht hl i m) (attitude_lip ha hb hc m j) ((isRotation_ned _ _).entry_le i m)
      ((isRotation_attitude _).entry_le m j)
  rw [Matrix.mul_apply, Matrix.mul_apply, Fin.sum_univ_three, Fin.sum_univ_three, add_sub_add_comm, add_sub_add_comm]
  exact (tri (k 0) (k 1) (k 2)).trans (by linarith)

/-- What is shown in degrees for an angle in radians. -/
theorem shown_near {t : F64} (ht : t.Finite) (hT : |ofDouble t| ≤ 5) :
    |ofDouble (Dbl.rad2deg t) * Real.pi / 180 - ofDouble t| ≤ 2e-15 := by
  have h := (degrees_near ht hT (by norm_num)).2
  have e : ofDouble (Dbl.rad2deg t) * Real.pi / 180 - ofDouble t
      = (ofDouble (Dbl.rad2deg t) - ofDouble t * 180 / Real.pi) * (Real.pi / 180) := by
    have := Real.pi_ne_zero
    field_simp
  rw [e, abs_mul, abs_of_pos (show 0 < Real.pi / 180 by positivity)]
  have hp : Real.pi / 180 ≤ 0.017454 := by
    have := Real.pi_lt_d4
    norm_num at this ⊢
    linarith
  exact (mul_le_mul h hp (by positivity) (by positivity)).trans (by norm_num)

/-- An angle in degrees as shown is hardly larger. -/
theorem shown_le {t : F64} (ht : t.Finite) {T : ℝ} (hT : |ofDouble t| ≤ T) (h : T ≤ 5) :
    |ofDouble (Dbl.rad2deg t) * Real.pi / 180| ≤ T + 2e-15 :=
  (abs_le_of_near (shown_near ht (hT.trans h))).trans (by linarith)

/-- Errors in the local frame enter the attitude seen from there. -/
theorem local_near {F F' A A' : Mat} (hF' : IsRotation F') (hA : IsRotation A) {d e : ℝ}
    (h1 : ∀ i j, |F' i j - F i j| ≤ d) (h2 : ∀ i j, |(F' * A') i j - (F * A) i j| ≤ e) (i j : Fin 3) :
    |A' i j - A i j| ≤ 3 * (e + 3 * d) := by
  have k : ∀ i j, |(F' * A') i j - (F' * A) i j| ≤ e + 3 * d := fun i j => by
    refine (abs_sub_le _ ((F * A) i j) _).trans (add_le_add (h2 i j) ?_)
    rw [Matrix.mul_apply, Matrix.mul_apply, Fin.sum_univ_three, Fin.sum_univ_three, add_sub_add_comm, add_sub_add_comm]
    have m : ∀ m, |F i m * A m j - F' i m * A m j| ≤ d := fun m => by
      rw [← sub_mul]
      refine scale ?_ (hA.entry_le m j)
      rw [abs_sub_comm]
      exact h1 i m
    exact (tri (m 0) (m 1) (m 2)).trans (by linarith)
  have e0 : ∀ B : Mat, B = F'ᵀ * (F' * B) := fun B => by rw [← Matrix.mul_assoc, hF'.left, Matrix.one_mul]
  have e1 : A' i j - A i j = ((F' * A') 0 j - (F' * A) 0 j) * F'ᵀ i 0 + ((F' * A') 1 j - (F' * A) 1 j) * F'ᵀ i 1
      + ((F' * A') 2 j - (F' * A) 2 j) * F'ᵀ i 2 := by
    conv_lhs => rw [e0 A', e0 A]
    rw [Matrix.mul_apply, Matrix.mul_apply (N := F' * A), Fin.sum_univ_three, Fin.sum_univ_three]
    ring
  rw [e1]
  have m : ∀ m, |((F' * A') m j - (F' * A) m j) * F'ᵀ i m| ≤ e + 3 * d := fun m =>
    scale (k m j) (hF'.transpose.entry_le i m)
  exact (tri (m 0) (m 1) (m 2)).trans (by linarith)

/-- The local frame with errors in the latitude and in the direction of the longitude. -/
theorem ned_lip2 {t l t' l' d e : ℝ} (ht : |t' - t| ≤ d) (hc : |Real.cos l' - Real.cos l| ≤ e)
    (hs : |Real.sin l' - Real.sin l| ≤ e) (i j : Fin 3) : |nedFrame t' l' i j - nedFrame t l i j| ≤ d + e := by
  have d0 := (abs_nonneg _).trans ht
  have e0 := (abs_nonneg _).trans hc
  have st := (Real.abs_sin_sub_sin_le t' t).trans ht
  have ct := (Real.abs_cos_sub_cos_le t' t).trans ht
  have S := Real.abs_sin_le_one
  have C := Real.abs_cos_le_one
  have nm : ∀ {x x' : ℝ}, |x' - x| ≤ d + e → |-x' + x| ≤ d + e := fun {x x'} h => by
    rwa [show -x' + x = -(x' - x) by ring, abs_neg]
  fin_cases i <;> fin_cases j <;> simp [nedFrame, north, east, up]
  · exact nm (two_near st hc (S _) (C _))
  · exact nm (hs.trans (by linarith))
  · exact nm (two_near ct hc (C _) (C _))
  · exact nm (two_near st hs (S _) (S _))
  · exact hc.trans (by linarith)
  · exact nm (two_near ct hs (C _) (S _))
  · exact ct.trans (by linarith)
  · positivity
  · exact nm (st.trans (by linarith))

/-- The angles of two attitudes that are nearly the same. -/
theorem angles_of_near {a b c a' b' c' e : ℝ} (h : ∀ i j, |attitude ![a', b', c'] i j - attitude ![a, b, c] i j| ≤ e)
    (hb : |b| ≤ Real.pi / 2) (hb' : |b'| ≤ Real.pi / 2 + 2.1e-10) :
    |Real.sin b' - Real.sin b| ≤ e ∧ |Real.cos b' - Real.cos b| ≤ 2 * e + 1e-9 ∧
    Real.cos b * |Real.cos a' - Real.cos a| ≤ 3 * e + 1e-9 ∧ Real.cos b * |Real.sin a' - Real.sin a| ≤ 3 * e + 1e-9 ∧
    Real.cos b * |Real.cos c' - Real.cos c| ≤ 3 * e + 1e-9 ∧ Real.cos b * |Real.sin c' - Real.sin c| ≤ 3 * e + 1e-9 := by
  have h00 := h 0 0
  have h10 := h 1 0
  have h20 := h 2 0
  have h21 := h 2 1
  have h22 := h 2 2
  simp [attitude, Rz, Ry, Rx, Matrix.mul_apply, Fin.sum_univ_three] at h00 h10 h20 h21 h22
  have c0 : 0 ≤ Real.cos b := Real.cos_nonneg_of_mem_Icc ⟨by linarith [(abs_le.1 hb).1], (abs_le.1 hb).2⟩
  have hc : |Real.cos b' - Real.cos b| ≤ 2 * e + 1e-9 := by
    have l := sqrt_lip2 h00 h10
    have sq : ∀ x y : ℝ, Real.sqrt ((Real.cos x * Real.cos y) ^ 2 + (Real.sin x * Real.cos y) ^ 2) = |Real.cos y| := by
      intro x y
      rw [← Real.sqrt_sq_eq_abs]
      congr 1
      have := Real.sin_sq_add_cos_sq x
      linear_combination Real.cos y ^ 2 * this
    rw [sq, sq, abs_of_nonneg c0] at l
    have hn : -2.1e-10 ≤ Real.cos b' := by
      rw [← Real.cos_abs]
      by_cases hle : |b'| ≤ Real.pi / 2
      · exact le_trans (by norm_num) (Real.cos_nonneg_of_mem_Icc ⟨by linarith [abs_nonneg b', Real.pi_pos], hle⟩)
      · push Not at hle
        have hs : Real.cos |b'| = -Real.sin (|b'| - Real.pi / 2) := by rw [Real.sin_sub_pi_div_two, neg_neg]
        have := Real.sin_le (show 0 ≤ |b'| - Real.pi / 2 by linarith)
        rw [hs]
        linarith
    have ha : |Real.cos b' - abs (Real.cos b')| ≤ 4.2e-10 := by
      rcases le_total 0 (Real.cos b') with hp | hp
      · rw [abs_of_nonneg hp, sub_self, abs_zero]; norm_num
      · rw [abs_of_nonpos hp, abs_le]
        norm_num at hn ⊢
        constructor <;> linarith
    exact (abs_sub_le _ _ _).trans ((add_le_add ha l).trans (by norm_num; linarith))
  have key : ∀ {x x' : ℝ}, |x'| ≤ 1 → |Real.cos b' * x' - Real.cos b * x| ≤ e →
      Real.cos b * |x' - x| ≤ 3 * e + 1e-9 := fun {x x'} hx k => by
    have e0 := (abs_nonneg _).trans k
    rw [show Real.cos b * |x' - x| = |Real.cos b * (x' - x)| by rw [abs_mul, abs_of_nonneg c0],
      show Real.cos b * (x' - x) = (Real.cos b' * x' - Real.cos b * x) + -((Real.cos b' - Real.cos b) * x') by ring]
    refine (abs_add_le _ _).trans ?_
    rw [abs_neg]
    exact (add_le_add k (scale hc hx)).trans (by linarith)
  have sw : ∀ x y x' y' : ℝ, |x' * y' - x * y| ≤ e → |y' * x' - y * x| ≤ e := fun x y x' y' hh => by
    rwa [mul_comm y', mul_comm y]
  refine ⟨?_, hc, key (Real.abs_cos_le_one _) (sw _ _ _ _ h00), key (Real.abs_sin_le_one _) (sw _ _ _ _ h10),
    key (Real.abs_cos_le_one _) h22, key (Real.abs_sin_le_one _) h21⟩
  rwa [show -Real.sin b' + Real.sin b = -(Real.sin b' - Real.sin b) by ring, abs_neg] at h20

/-- An angle whose direction is nearly that of the axis. -/
theorem small_angle {t e : ℝ} (ht : |t| ≤ 5.28) (hc : 0.9 ≤ Real.cos t) (hs : |Real.sin t| ≤ e) : |t| ≤ 1.6 * e := by
  have p6 := Real.pi_gt_d6
  have q6 := Real.pi_lt_d6
  norm_num at p6 q6 ht hc
  have hle : |t| ≤ Real.pi / 2 := by
    by_contra hn
    push Not at hn
    rw [← Real.cos_abs] at hc
    by_cases h3 : |t| ≤ Real.pi + Real.pi / 2
    · linarith [Real.cos_nonpos_of_pi_div_two_le_of_le hn.le h3]
    · push Not at h3
      have e1 : Real.cos |t| = Real.sin (|t| - (Real.pi + Real.pi / 2)) := by
        rw [← Real.cos_sub_two_pi, ← Real.sin_add_pi_div_two, ← Real.sin_sub_two_pi, ← Real.sin_add_two_pi]
        congr 1
        ring
      have := Real.sin_le (show 0 ≤ |t| - (Real.pi + Real.pi / 2) by linarith)
      linarith
  have k := (Real.mul_abs_le_abs_sin hle).trans hs
  rw [div_mul_eq_mul_div, div_le_iff₀ Real.pi_pos] at k
  have e0 := (abs_nonneg _).trans hs
  nlinarith

/-- Two angles of nearly the same direction. -/
theorem angle_of_near {a b e : ℝ} (hab : |a - b| ≤ 5.28) (he : e ≤ 0.05) (hc : |Real.cos a - Real.cos b| ≤ e)
    (hs : |Real.sin a - Real.sin b| ≤ e) : |a - b| ≤ 3.2 * e := by
  have e0 := (abs_nonneg _).trans hc
  have h1 : |(Real.cos a - Real.cos b) * Real.cos b| ≤ e := scale hc (Real.abs_cos_le_one _)
  have h2 : |(Real.sin a - Real.sin b) * Real.sin b| ≤ e := scale hs (Real.abs_sin_le_one _)
  have h3 : |(Real.sin a - Real.sin b) * Real.cos b| ≤ e := scale hs (Real.abs_cos_le_one _)
  have h4 : |(Real.cos a - Real.cos b) * Real.sin b| ≤ e := scale hc (Real.abs_sin_le_one _)
  have u := Real.sin_sq_add_cos_sq b
  have c : Real.cos (a - b) = 1 + (Real.cos a - Real.cos b) * Real.cos b + (Real.sin a - Real.sin b) * Real.sin b := by
    rw [Real.cos_sub]
    linear_combination u
  have s : Real.sin (a - b) = (Real.sin a - Real.sin b) * Real.cos b - (Real.cos a - Real.cos b) * Real.sin b := by
    rw [Real.sin_sub]
    ring
  have k := small_angle (e := 2 * e) hab (by
    rw [c]
    have := (abs_le.1 h1).1
    have := (abs_le.1 h2).1
    norm_num at he ⊢
    linarith) (by
    rw [s]
    refine (abs_sub _ _).trans ?_
    linarith)
  linarith

/-- Distance from the axis, within 100 km of the ellipsoid. -/
theorem parallel_le {lat lon alt : ℝ} (hlat : -90 < lat ∧ lat < 90) (halt : |alt| ≤ 100000) :
    Real.sqrt (lla2ecef ![lat, lon, alt] 0 ^ 2 + lla2ecef ![lat, lon, alt] 1 ^ 2) ≤ 6.6e6 := by
  have ht : -(Real.pi / 2) < lat * Real.pi / 180 ∧ lat * Real.pi / 180 < Real.pi / 2 := by
    have := Real.pi_pos
    constructor <;> nlinarith
  have hD := D_bounds (t := lat * Real.pi / 180) halt
  have hD0 : 0 < NN (lat * Real.pi / 180) * (1 - WGS84.e ^ 2) + alt := by linarith
  rw [lla2ecef_p (lon := lon) ht hD0]
  have hR := (R_range ht halt).2
  have k2 := (le_abs_self _).trans (R_ge_left ((NN (lat * Real.pi / 180) + alt) * Real.cos (lat * Real.pi / 180))
    ((NN (lat * Real.pi / 180) * (1 - WGS84.e ^ 2) + alt) * Real.sin (lat * Real.pi / 180)))
  norm_num at hR ⊢
  linarith

/-- Far from the poles. -/
theorem parallel_ge {t l h : ℝ} (ht : |t| ≤ 1.4) (hh : |h| ≤ 100000) :
    1e5 ≤ Real.sqrt (lla2ecef ![t * 180 / Real.pi, l, h] 0 ^ 2 + lla2ecef ![t * 180 / Real.pi, l, h] 1 ^ 2) := by
  have hb : t * 180 / Real.pi * Real.pi / 180 = t := by
    have := Real.pi_ne_zero
    field_simp
  have hpi := Real.pi_gt_three
  have hD := D_bounds (t := t) hh
  have h' := abs_le.1 ht
  norm_num at h'
  rw [lla2ecef_p (by rw [hb]; constructor <;> linarith) (by rw [hb]; linarith [hD.2]), hb]
  have hN := (NN_bounds t).1
  rw [WGS84.a] at hN
  have hc : 0.02 ≤ Real.cos t := by
    have h1 := Real.one_sub_sq_div_two_le_cos (x := t)
    have h2 : t ^ 2 ≤ 1.96 := by
      rw [← sq_abs]
      exact (pow_le_pow_left₀ (abs_nonneg _) ht 2).trans (by norm_num)
    norm_num at h1 h2 ⊢
    linarith
  have := mul_le_mul (show 6000000 ≤ NN t + h by linarith [(abs_le.1 hh).1]) hc (by norm_num)
    (by linarith [(abs_le.1 hh).1])
  norm_num at this ⊢
  linarith

/-- What is lost along a parallel by showing the longitude in degrees. -/
theorem along_near {q x y z : ℝ} (h0 : 0 ≤ q) (hq : q ≤ 6.6e6) (h1 : |x - y| ≤ 2e-15) (h2 : q * |y - z| ≤ 1.3e-6) :
    q * |x - z| ≤ 1.4e-6 := by
  have h3 := mul_le_mul_of_nonneg_left (abs_sub_le x y z) h0
  have h4 := mul_le_mul hq h1 (abs_nonneg _) (by norm_num)
  rw [mul_add] at h3
  norm_num at h4 h2 ⊢
  linarith

end Dis.Geo
