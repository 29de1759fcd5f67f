import Verif.Proof.Extract64
import Verif.Proof.Position64
import Verif.Proof.Lla64
import Verif.Proof.Round64

/-!
# `llarpy2ecef` and `ecef2llarpy` in doubles
-/

set_option exponentiation.threshold 4096

namespace Dis.Geo

open Matrix

/-- Radians to degrees and back. -/
theorem back_near {t : F64} (ht : t.Finite) (hT : |ofDouble t| ≤ 4) :
    Ap (Dbl.deg2rad (Dbl.rad2deg t)) (ofDouble t) 2.2e-15 := by
  have h1 := ((Ap.self ht).rad2deg hT (by norm_num) (by positivity)).mono (g := 6.09e-14) (by norm_num)
  have hb : |rad2deg (ofDouble t)| ≤ 229.5 := by
    unfold rad2deg
    rw [abs_div, abs_mul, abs_of_pos Real.pi_pos, abs_of_pos (show (0 : ℝ) < 180 by norm_num), div_le_iff₀ Real.pi_pos]
    have h3 := Real.pi_gt_d4
    norm_num at h3 ⊢
    linarith
  have h2 := Ap.deg2rad h1.1 (h1.le hb) (by norm_num)
  refine h2.to (f := 1.064e-15) ?_ (by norm_num)
  have e : deg2rad (ofDouble (Dbl.rad2deg t)) - ofDouble t
      = (ofDouble (Dbl.rad2deg t) - rad2deg (ofDouble t)) * (Real.pi / 180) := by
    have := Real.pi_ne_zero
    unfold deg2rad rad2deg
    field_simp
  rw [e, abs_mul, abs_of_pos (show 0 < Real.pi / 180 by positivity)]
  have hp : Real.pi / 180 ≤ 0.017454 := by
    have := Real.pi_lt_d4
    norm_num at this ⊢
    linarith
  exact (mul_le_mul h1.2 hp (by positivity) (by norm_num)).trans (by norm_num)

/-- Degrees of an angle in radians. -/
theorem degrees_near {t : F64} {T : ℝ} (ht : t.Finite) (hT : |ofDouble t| ≤ T) (h : T ≤ 100) :
    Ap (Dbl.rad2deg t) (ofDouble t * 180 / Real.pi) (T * 1.52e-14 + 1 / 2 ^ 98) := by
  have := (Ap.self ht).rad2deg hT (h.trans (by norm_num)) (by positivity)
  rw [zero_mul, zero_add] at this
  exact this

/-- `ecef2lla` near the ellipsoid, with the results in radians. -/
theorem geodetic_near {L : Dbl.Numpy} (hL : L.Accurate) {pos : Dbl.Vec} {lat lon alt : ℝ} (hf : ∀ i, (pos i).Finite)
    (hlat : -90 < lat ∧ lat < 90) (halt : |alt| ≤ 100000)
    (hpos : ∀ i, |ofDouble (pos i) - lla2ecef ![lat, lon, alt] i| ≤ 4e-7)
    (haxis : 1 ≤ Real.sqrt (lla2ecef ![lat, lon, alt] 0 ^ 2 + lla2ecef ![lat, lon, alt] 1 ^ 2)) :
    ∃ lla, Dbl.ecef2lla L.toLibm pos Dbl.defaultTolerance = some (.ok lla) ∧
      Ap (Dbl.deg2rad (lla 0)) (lat * Real.pi / 180) (2e-7 + 2e-11 * |alt|) ∧
      ((Dbl.deg2rad (lla 1)).Finite ∧ |ofDouble (Dbl.deg2rad (lla 1))| ≤ 3.1417) ∧
      Real.sqrt (lla2ecef ![lat, lon, alt] 0 ^ 2 + lla2ecef ![lat, lon, alt] 1 ^ 2)
        * |Real.cos (ofDouble (Dbl.deg2rad (lla 1))) - Real.cos (lon * Real.pi / 180)| ≤ 1.3e-6 ∧
      Real.sqrt (lla2ecef ![lat, lon, alt] 0 ^ 2 + lla2ecef ![lat, lon, alt] 1 ^ 2)
        * |Real.sin (ofDouble (Dbl.deg2rad (lla 1))) - Real.sin (lon * Real.pi / 180)| ≤ 1.3e-6 ∧
      Ap (lla 2) alt (1.17 + 0.0002 * |alt|) := by
  have ht : -(Real.pi / 2) < lat * Real.pi / 180 ∧ lat * Real.pi / 180 < Real.pi / 2 := by
    have := Real.pi_pos
    constructor <;> nlinarith
  have hD := D_bounds (t := lat * Real.pi / 180) halt
  have hD0 : 0 < NN (lat * Real.pi / 180) * (1 - WGS84.e ^ 2) + alt := by linarith
  have hP := lla2ecef_p (lon := lon) ht hD0
  obtain ⟨p, s, n, -, -, -, -, e, a1, a2⟩ := ecef2lla_near hL.square hL.squareReturns hL.trig hL.arc hf hlat halt hpos
    haxis defaultTolerance_finite defaultTolerance_range.1 defaultTolerance_range.2
  have h0 := abs_nonneg alt
  have hl := sqrt_lip2 (hpos 0) (hpos 1)
  obtain ⟨f1, b1, c1, s1⟩ := angle_rel hL.arc hL.arcZero (hf 1) (hf 0)
  have k := back_near f1 (b1.trans (by norm_num))
  refine ⟨_, e, ?_, ⟨k.1, (k.le b1).trans (by norm_num)⟩, ?_, ?_, a2⟩
  · show Ap (Dbl.deg2rad (Dbl.rad2deg s.lat)) _ _
    have hv := a1.le (A := 90) (by rw [abs_le]; constructor <;> linarith)
    have hv' : |ofDouble (Dbl.rad2deg s.lat)| ≤ 91 := by
      norm_num at halt hv ⊢
      linarith
    refine (Ap.deg2rad a1.1 hv' (by norm_num)).to (f := (1.1e-5 + 1.1e-9 * |alt|) * 0.01746) ?_ ?_
    · unfold deg2rad
      rw [show ofDouble (Dbl.rad2deg s.lat) * Real.pi / 180 - lat * Real.pi / 180
        = (ofDouble (Dbl.rad2deg s.lat) - lat) * (Real.pi / 180) by ring, abs_mul,
        abs_of_pos (show 0 < Real.pi / 180 by positivity)]
      refine mul_le_mul a1.2 ?_ (by positivity) ?_
      · have := Real.pi_lt_d4
        norm_num at this ⊢
        linarith
      · norm_num; linarith
    · norm_num
      linarith
  all_goals
    rw [hP] at hl ⊢
    have hq : 0 ≤ (NN (lat * Real.pi / 180) + alt) * Real.cos (lat * Real.pi / 180) := by
      rw [← hP]; exact Real.sqrt_nonneg _
    have hqu : (NN (lat * Real.pi / 180) + alt) * Real.cos (lat * Real.pi / 180) ≤ 6.6e6 := by
      have hR := (R_range ht halt).2
      have k2 := (le_abs_self _).trans (R_ge_left ((NN (lat * Real.pi / 180) + alt) * Real.cos (lat * Real.pi / 180))
        ((NN (lat * Real.pi / 180) * (1 - WGS84.e ^ 2) + alt) * Real.sin (lat * Real.pi / 180)))
      norm_num at hR ⊢
      linarith
    set q := (NN (lat * Real.pi / 180) + alt) * Real.cos (lat * Real.pi / 180) with hqd
    set Q := Real.sqrt (ofDouble (pos 0) ^ 2 + ofDouble (pos 1) ^ 2)
    have hl' := abs_le.1 hl
    have hQu : Q ≤ 6.7e6 := by
      norm_num at hl' hqu ⊢
      linarith
    have hQ0 : 0 ≤ Q := Real.sqrt_nonneg _
  · have hx := hpos 0
    rw [lla2ecef_form] at hx
    simp only [Matrix.cons_val_zero] at hx
    rw [← hqd] at hx
    have m1 := (Real.abs_cos_sub_cos_le (ofDouble (Dbl.deg2rad (Dbl.rad2deg (L.atan2 (pos 1) (pos 0)))))
      (ofDouble (L.atan2 (pos 1) (pos 0)))).trans k.2
    show q * |Real.cos (ofDouble (Dbl.deg2rad (Dbl.rad2deg (L.atan2 (pos 1) (pos 0))))) - _| ≤ _
    set c' := Real.cos (ofDouble (Dbl.deg2rad (Dbl.rad2deg (L.atan2 (pos 1) (pos 0)))))
    have hc' : |c'| ≤ 1 := Real.abs_cos_le_one _
    rw [← abs_of_nonneg hq, ← abs_mul,
      show q * (c' - Real.cos (lon * Real.pi / 180)) = -((Q - q) * c')
        + Q * (c' - Real.cos (ofDouble (L.atan2 (pos 1) (pos 0))))
        + (Q * Real.cos (ofDouble (L.atan2 (pos 1) (pos 0))) - ofDouble (pos 0))
        + (ofDouble (pos 0) - q * Real.cos (lon * Real.pi / 180)) by ring]
    refine (abs_add_le _ _).trans ?_
    have t1 : |-((Q - q) * c')| ≤ 8e-7 := by
      rw [abs_neg]
      exact (scale hl hc').trans (by norm_num)
    have t2 : |Q * (c' - Real.cos (ofDouble (L.atan2 (pos 1) (pos 0))))| ≤ 6.7e6 * 2.2e-15 := by
      rw [abs_mul, abs_of_nonneg hQ0]
      exact mul_le_mul hQu m1 (abs_nonneg _) (by norm_num)
    have t3 : 8e-16 * Q ≤ 8e-16 * 6.7e6 := mul_le_mul_of_nonneg_left hQu (by norm_num)
    exact (add_le_add (tri t1 t2 (c1.trans t3)) hx).trans (by norm_num)
  · have hx := hpos 1
    rw [lla2ecef_form] at hx
    simp only [Matrix.cons_val_one, Matrix.cons_val_zero] at hx
    rw [← hqd] at hx
    have m1 := (Real.abs_sin_sub_sin_le (ofDouble (Dbl.deg2rad (Dbl.rad2deg (L.atan2 (pos 1) (pos 0)))))
      (ofDouble (L.atan2 (pos 1) (pos 0)))).trans k.2
    show q * |Real.sin (ofDouble (Dbl.deg2rad (Dbl.rad2deg (L.atan2 (pos 1) (pos 0))))) - _| ≤ _
    set c' := Real.sin (ofDouble (Dbl.deg2rad (Dbl.rad2deg (L.atan2 (pos 1) (pos 0)))))
    have hc' : |c'| ≤ 1 := Real.abs_sin_le_one _
    rw [← abs_of_nonneg hq, ← abs_mul,
      show q * (c' - Real.sin (lon * Real.pi / 180)) = -((Q - q) * c')
        + Q * (c' - Real.sin (ofDouble (L.atan2 (pos 1) (pos 0))))
        + (Q * Real.sin (ofDouble (L.atan2 (pos 1) (pos 0))) - ofDouble (pos 1))
        + (ofDouble (pos 1) - q * Real.sin (lon * Real.pi / 180)) by ring]
    refine (abs_add_le _ _).trans ?_
    have t1 : |-((Q - q) * c')| ≤ 8e-7 := by
      rw [abs_neg]
      exact (scale hl hc').trans (by norm_num)
    have t2 : |Q * (c' - Real.sin (ofDouble (L.atan2 (pos 1) (pos 0))))| ≤ 6.7e6 * 2.2e-15 := by
      rw [abs_mul, abs_of_nonneg hQ0]
      exact mul_le_mul hQu m1 (abs_nonneg _) (by norm_num)
    have t3 : 8e-16 * Q ≤ 8e-16 * 6.7e6 := mul_le_mul_of_nonneg_left hQu (by norm_num)
    exact (add_le_add (tri t1 t2 (s1.trans t3)) hx).trans (by norm_num)

theorem isRotation_attitude (o : Vec) : IsRotation (attitude o) :=
  ((isRotation_Rz _).mul (isRotation_Ry _)).mul (isRotation_Rx _)

/-- An attitude in another frame. -/
theorem frame_mul_near {F A B : Mat} (hF : IsRotation F) {e : ℝ} (h : ∀ i j, |A i j - (Fᵀ * B) i j| ≤ e) (i j : Fin 3) :
    |(F * A) i j - B i j| ≤ 3 * e := by
  have e0 : B = F * (Fᵀ * B) := by rw [← Matrix.mul_assoc, hF.1, Matrix.one_mul]
  have e1 : (F * A) i j - B i j = F i 0 * (A 0 j - (Fᵀ * B) 0 j) + F i 1 * (A 1 j - (Fᵀ * B) 1 j)
      + F i 2 * (A 2 j - (Fᵀ * B) 2 j) := by
    conv_lhs => rw [e0]
    rw [Matrix.mul_apply, Matrix.mul_apply (M := F), Fin.sum_univ_three, Fin.sum_univ_three]
    ring
  rw [e1]
  have k : ∀ m, |F i m * (A m j - (Fᵀ * B) m j)| ≤ e := fun m => by
    rw [mul_comm]
    exact scale (h m j) (hF.entry_le i m)
  exact (tri (k 0) (k 1) (k 2)).trans (by linarith)

theorem rest_near {L : Dbl.Numpy} (hL : L.Accurate) {lla : Dbl.Vec} {psi theta phi : F64}
    (h0 : (Dbl.deg2rad (lla 0)).Finite) (h1 : (Dbl.deg2rad (lla 1)).Finite) (hpsi : psi.Finite) (htheta : theta.Finite)
    (hphi : phi.Finite) :
    ∃ v : Dbl.Vec, Dbl.ecef2llarpy_rest L lla psi theta phi
        = .ok (![Dbl.deg2rad (lla 0), Dbl.deg2rad (lla 1), lla 2], ![v 2, v 1, v 0]) ∧
      (∀ i, (v i).Finite ∧ |ofDouble (v i)| ≤ 3.1416) ∧ |ofDouble (v 1)| ≤ Real.pi / 2 + 2e-10 ∧
      ∀ i j, |(nedFrame (ofDouble (Dbl.deg2rad (lla 0))) (ofDouble (Dbl.deg2rad (lla 1)))
          * attitude ![ofDouble (v 0), ofDouble (v 1), ofDouble (v 2)]) i j
        - attitude ![ofDouble psi, ofDouble theta, ofDouble phi] i j| ≤ 2.1e-9 := by
  obtain ⟨x3, y3, e1, hx, hy⟩ := turned_near hL.trig hL.matvec hL.matvecFinite hpsi htheta hphi unit_frame
  rw [Matrix.one_mul] at hx hy
  obtain ⟨M, e2, fM⟩ := ned_near hL.trig h0 h1
  obtain ⟨v, e3, fv, pv, hv⟩ := angles_near hL.square hL.squareReturns hL.trig hL.arc hL.matvec hL.matvecFinite hL.dot
    hL.arcZero hL.squareNonneg fM (isRotation_attitude _) hx hy
  refine ⟨v, ?_, fv, pv, fun i j => (frame_mul_near (isRotation_ned _ _) hv i j).trans (by norm_num)⟩
  simp only [Dbl.ecef2llarpy_rest, e1, e2, e3, bind_ok]
  rfl

theorem llarpy_near {L : Dbl.Numpy} (hL : L.Accurate) {lat lon alt roll pitch yaw : F64} (hlat : lat.Finite)
    (hlon : lon.Finite) (halt : alt.Finite) (hroll : roll.Finite) (hpitch : pitch.Finite) (hyaw : yaw.Finite)
    (blat : |ofDouble lat| ≤ 1.5707963) (blon : |ofDouble lon| ≤ 6.28) (balt : |ofDouble alt| ≤ 2 ^ 900) :
    ∃ pos euler, Dbl.llarpy2ecef L lat lon alt roll pitch yaw = .ok (pos, euler) ∧
      (∀ i, Ap (pos i) (lla2ecef ![ofDouble lat * 180 / Real.pi, ofDouble lon * 180 / Real.pi, ofDouble alt] i)
        (7e-15 * (6378137 + |ofDouble alt|))) ∧
      (∀ i, (euler i).Finite ∧ |ofDouble (euler i)| ≤ 3.1416) ∧
      |ofDouble (euler 1)| ≤ Real.pi / 2 + 2e-10 ∧
      ∀ i j, |attitude ![ofDouble (euler 0), ofDouble (euler 1), ofDouble (euler 2)] i j
        - (nedFrame (ofDouble lat) (ofDouble lon) * attitude ![ofDouble yaw, ofDouble pitch, ofDouble roll]) i j|
          ≤ 7e-10 := by
  have dlat := (degrees_near hlat blat (by norm_num)).mono (g := 2.4e-14) (by norm_num)
  have dlon := (degrees_near hlon blon (by norm_num)).mono (g := 9.6e-14) (by norm_num)
  have h0 := abs_nonneg (ofDouble alt)
  have pi6 := Real.pi_gt_d6
  have c1 : |ofDouble lat * 180 / Real.pi| ≤ 89.9999999 := by
    rw [abs_div, abs_mul, abs_of_pos Real.pi_pos, abs_of_pos (show (0 : ℝ) < 180 by norm_num), div_le_iff₀ Real.pi_pos]
    have := Real.pi_gt_d20
    norm_num at this blat ⊢
    linarith
  have c2 : |ofDouble lon * 180 / Real.pi| ≤ 359.9 := by
    rw [abs_div, abs_mul, abs_of_pos Real.pi_pos, abs_of_pos (show (0 : ℝ) < 180 by norm_num), div_le_iff₀ Real.pi_pos]
    norm_num at pi6 blon ⊢
    linarith
  obtain ⟨pos, e1, hp⟩ := lla2ecef_near (lla := ![Dbl.rad2deg lat, Dbl.rad2deg lon, alt]) hL.square hL.squareReturns hL.trig
    (fun i => by fin_cases i; exacts [dlat.1, dlon.1, halt]) ((dlat.le c1).trans (by norm_num))
    ((dlon.le c2).trans (by norm_num)) balt
  obtain ⟨M, e2, fM⟩ := ned_near hL.trig hlat hlon
  obtain ⟨x3, y3, e3, hx, hy⟩ := turned_near hL.trig hL.matvec hL.matvecFinite hyaw hpitch hroll fM
  obtain ⟨v, e4, fv, pv, hv⟩ := angles_near hL.square hL.squareReturns hL.trig hL.arc hL.matvec hL.matvecFinite hL.dot
    hL.arcZero hL.squareNonneg unit_frame ((isRotation_ned _ _).mul (isRotation_attitude _)) hx hy
  rw [Matrix.transpose_one, Matrix.one_mul] at hv
  refine ⟨pos, v, ?_, ?_, fv, pv, hv⟩
  · simp only [Dbl.llarpy2ecef, e1, e2, e3, e4, bind_ok]
    rfl
  · intro i
    have hv : (fun j => ofDouble ((![Dbl.rad2deg lat, Dbl.rad2deg lon, alt] : Dbl.Vec) j))
        = ![ofDouble (Dbl.rad2deg lat), ofDouble (Dbl.rad2deg lon), ofDouble alt] := by
      funext j; fin_cases j <;> rfl
    have k1 := (hp i).1
    rw [hv] at k1
    refine k1.to (lla2ecef_lip _ _ _ _ _ i) ?_
    have rad : ∀ {x y g : ℝ}, |x - y| ≤ g → |x * Real.pi / 180 - y * Real.pi / 180| ≤ g * 0.01746 := by
      intro x y g h
      rw [show x * Real.pi / 180 - y * Real.pi / 180 = (x - y) * (Real.pi / 180) by ring, abs_mul,
        abs_of_pos (show 0 < Real.pi / 180 by positivity)]
      refine mul_le_mul h ?_ (by positivity) ((abs_nonneg _).trans h)
      have := Real.pi_lt_d4
      norm_num at this ⊢
      linarith
    have m1 := rad dlat.2
    have m2 := rad dlon.2
    have m3 := mul_le_mul_of_nonneg_left (add_le_add m1 m2) (show 0 ≤ 6450000 + |ofDouble alt| by linarith)
    refine (add_le_add_right m3 _).trans ?_
    show 4e-15 * (6378137 + |ofDouble alt|) + _ ≤ _
    norm_num
    linarith

theorem zero_finite : F64.Finite (0 : F64) := show F64.expo _ ≠ 2047 by decide +kernel

theorem rotate_infinite (P : Dbl.Platform) {t : F64} (n : Dbl.Vec) (h : t.Infinite) :
    Dbl.rotate_3x3 P t n = .error .valueError := by
  have e : ∀ f, Dbl.trig f t = .error .valueError := fun f => if_pos h
  rw [Dbl.rotate_3x3, e]
  rfl

theorem rotate_outcome (P : Dbl.Platform) (t : F64) (n : Dbl.Vec) :
    Dbl.rotate_3x3 P t n = .error .valueError ∨ ∃ R, Dbl.rotate_3x3 P t n = .ok R := by
  by_cases h : t.Infinite
  · exact Or.inl (rotate_infinite P n h)
  · have e : ∀ f, Dbl.trig f t = .ok (f t) := fun f => if_neg h
    refine Or.inr ?_
    rw [Dbl.rotate_3x3, e, e]
    exact ⟨_, rfl⟩

theorem turned_infinite (P : Dbl.Platform) {a b c : F64} (x y z : Dbl.Vec)
    (h : a.Infinite ∨ b.Infinite ∨ c.Infinite) : Dbl.turned P a b c x y z = .error .valueError := by
  rcases rotate_outcome P a z with e1 | ⟨R1, e1⟩
  · rw [Dbl.turned, e1]; rfl
  rcases rotate_outcome P b (P.matvec R1 y) with e2 | ⟨R2, e2⟩
  · simp only [Dbl.turned, e1, e2, bind_ok]; rfl
  rcases rotate_outcome P c (P.matvec R2 (P.matvec R1 x)) with e3 | ⟨R3, e3⟩
  · simp only [Dbl.turned, e1, e2, e3, bind_ok]; rfl
  exfalso
  rcases h with h | h | h
  · rw [rotate_infinite P z h] at e1; cases e1
  · rw [rotate_infinite P _ h] at e2; cases e2
  · rw [rotate_infinite P _ h] at e3; cases e3

end Dis.Geo
