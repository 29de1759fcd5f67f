import Verif.Proof.Llarpy64
import Verif.Proof.Radius64

/-!
# Local coordinates in doubles
-/

set_option exponentiation.threshold 4096

namespace Dis.Geo

open Matrix

/-! ## Lengths -/

/-- One term of a sum of squares. -/
theorem acc_near {t s : F64} {T S k c : ℝ} (ht : t.Finite) (hs : s.Finite) (t0 : 0 ≤ ofDouble t) (s0 : 0 ≤ ofDouble s)
    (T0 : 0 ≤ T) (S0 : 0 ≤ S) (bT : T ≤ 2 ^ 805) (bS : S ≤ 2 ^ 805) (hk : 2.3e-16 ≤ k) (hk1 : k ≤ 1e-15) (c0 : 0 ≤ c)
    (hc1 : c ≤ 1) (h1 : |ofDouble t - T| ≤ k * T + c) (h2 : |ofDouble s - S| ≤ 1 / 2 ^ 52 * S + 1 / 2 ^ 99) :
    (F64.add t s).Finite ∧ 0 ≤ ofDouble (F64.add t s) ∧
      |ofDouble (F64.add t s) - (T + S)| ≤ (k + 1.12e-16) * (T + S) + (1.01 * c + 2e-30) := by
  have k1 := abs_le.1 h1
  have k2 := abs_le.1 h2
  have kT : k * T ≤ 1e-15 * T := mul_le_mul_of_nonneg_right hk1 T0
  have kS : 2.3e-16 * S ≤ k * S := mul_le_mul_of_nonneg_right hk S0
  have fin : (F64.add t s).Finite := by
    refine add_finite_of ht hs ?_
    rw [abs_of_nonneg (add_nonneg t0 s0)]
    have : (8 : ℝ) * 2 ^ 805 + 8 ≤ 2 ^ 1000 := by norm_num
    generalize (2 : ℝ) ^ 805 = A at *
    generalize (2 : ℝ) ^ 1000 = B at *
    norm_num at k1 k2 kT ⊢
    linarith only [k1.1, k1.2, k2.1, k2.2, T0, S0, this, bT, bS, kT, hc1]
  have v := val_add fin
  rw [abs_of_nonneg (add_nonneg t0 s0)] at v
  have v' := abs_le.1 v
  refine ⟨fin, ?_, ?_⟩
  · norm_num at v' ⊢
    linarith only [v'.1, t0, s0]
  · rw [abs_le]
    norm_num at v' k1 k2 kT kS ⊢
    constructor <;> linarith only [v'.1, v'.2, k1.1, k1.2, k2.1, k2.2, T0, S0, kT, kS, c0]

theorem distance_near {P : Dbl.Platform} (h1 : P.SquareOk) (h2 : P.SquareReturns) (h9 : P.SquareNonneg) {v : Dbl.Vec}
    (hv : ∀ i, (v i).Finite) (bv : ∀ i, |ofDouble (v i)| ≤ 2 ^ 400) :
    ∃ p, Dbl.euclideanDistance P [v 0, v 1, v 2] = .ok p ∧
      Ap p (len fun i => ofDouble (v i)) (7e-16 * len (fun i => ofDouble (v i)) + 4e-15) := by
  have big : (2 : ℝ) ^ 400 ≤ 2 ^ 500 := by norm_num
  have sq : ∀ i, ∃ s, P.square (v i) = .ok s ∧ s.Finite ∧ 0 ≤ ofDouble s ∧
      |ofDouble s - ofDouble (v i) ^ 2| ≤ 1 / 2 ^ 52 * ofDouble (v i) ^ 2 + 1 / 2 ^ 99 := fun i => by
    obtain ⟨s, a, b, c⟩ := square_rel h1 h2 (hv i) ((bv i).trans big)
    exact ⟨s, a, b, h9 _ s (hv i) a b, c⟩
  obtain ⟨s0, e0, f0, n0, g0⟩ := sq 0
  obtain ⟨s1, e1, f1, n1, g1⟩ := sq 1
  obtain ⟨s2, e2, f2, n2, g2⟩ := sq 2
  have q : ∀ i, 0 ≤ ofDouble (v i) ^ 2 ∧ ofDouble (v i) ^ 2 ≤ 2 ^ 800 := fun i => by
    refine ⟨sq_nonneg _, ?_⟩
    rw [← sq_abs]
    exact (pow_le_pow_left₀ (abs_nonneg _) (bv i) 2).trans (by norm_num)
  have b1 : (2 : ℝ) ^ 800 + 2 ^ 800 + 2 ^ 800 ≤ 2 ^ 805 := by norm_num
  have z := Ap.num (n := 0) (by decide)
  have z0 : ofDouble (Dbl.num (0 : ℕ)) = 0 := by
    have := z.2
    simpa using this
  obtain ⟨u0, w0, x0⟩ := acc_near (k := 2.3e-16) (c := 0) (T := 0) z.1 f0 (by rw [z0]) n0 le_rfl (q 0).1 (by positivity)
    (by linarith [(q 0).2]) le_rfl (by norm_num) le_rfl (by norm_num) (by rw [z0]; simp) g0
  obtain ⟨u1, w1, x1⟩ := acc_near u0 f1 w0 n1 (by rw [zero_add]; exact (q 0).1) (q 1).1 (by linarith [(q 0).2])
    (by linarith [(q 1).2]) (by norm_num) (by norm_num) (by norm_num) (by norm_num) x0 g1
  obtain ⟨u2, w2, x2⟩ := acc_near u1 f2 w1 n2 (by linarith [(q 0).1, (q 1).1]) (q 2).1 (by linarith [(q 0).2, (q 1).2])
    (by linarith [(q 2).2]) (by norm_num) (by norm_num) (by norm_num) (by norm_num) x1 g2
  have run : Dbl.euclideanDistance P [v 0, v 1, v 2]
      = F64.sqrt (F64.add (F64.add (F64.add (Dbl.num (0 : ℕ)) s0) s1) s2) := by
    simp only [Dbl.euclideanDistance, Dbl.sumSquares, e0, e1, e2, bind_ok]
  rw [run]
  generalize F64.add (F64.add (F64.add (Dbl.num (0 : ℕ)) s0) s1) s2 = S at *
  have rel : |ofDouble S - (ofDouble (v 0) ^ 2 + ofDouble (v 1) ^ 2 + ofDouble (v 2) ^ 2)|
      ≤ 5.7e-16 * (ofDouble (v 0) ^ 2 + ofDouble (v 1) ^ 2 + ofDouble (v 2) ^ 2) + 3e-15 * 3e-15 := by
    rw [zero_add] at x2
    refine x2.trans ?_
    have := add_nonneg (add_nonneg (q 0).1 (q 1).1) (q 2).1
    norm_num
    linarith
  have t := sqrt_rel w2 (add_nonneg (add_nonneg (q 0).1 (q 1).1) (q 2).1) (by norm_num) (by norm_num) rel
  show ∃ p, _ ∧ Ap p (Real.sqrt (ofDouble (v 0) ^ 2 + ofDouble (v 1) ^ 2 + ofDouble (v 2) ^ 2))
    (7e-16 * Real.sqrt (ofDouble (v 0) ^ 2 + ofDouble (v 1) ^ 2 + ofDouble (v 2) ^ 2) + 4e-15)
  have r0 := Real.sqrt_nonneg (ofDouble (v 0) ^ 2 + ofDouble (v 1) ^ 2 + ofDouble (v 2) ^ 2)
  set r := Real.sqrt (ofDouble (v 0) ^ 2 + ofDouble (v 1) ^ 2 + ofDouble (v 2) ^ 2)
  rcases w2.eq_or_lt with h | h
  · refine ⟨_, sqrt_zero u2 h.symm, u2, ?_⟩
    rw [← h, Real.sqrt_zero] at t
    rw [← h]
    refine t.trans ?_
    norm_num
    linarith
  · obtain ⟨p, e3, f3, -, g3⟩ := val_sqrt u2 h
    refine ⟨p, e3, f3, ?_⟩
    have t' := abs_le.1 t
    refine (abs_sub_le _ (Real.sqrt (ofDouble S)) _).trans ((add_le_add g3 t).trans ?_)
    norm_num at t' ⊢
    linarith only [t'.2, r0]

theorem len_lip {u v : Vec} {e : ℝ} (h : ∀ i, |u i - v i| ≤ e) : |len u - len v| ≤ 3 * e := by
  have k1 := sqrt_lip2 (h 0) (h 1)
  have a : ∀ w : Vec, len w = R (Real.sqrt (w 0 ^ 2 + w 1 ^ 2)) (w 2) := fun w => by
    unfold len R
    rw [Real.sq_sqrt (by positivity)]
  rw [a, a]
  have g1 := R_lip (Real.sqrt (u 0 ^ 2 + u 1 ^ 2)) (u 2) (v 2)
  have g2 := R_lip2 (Real.sqrt (u 0 ^ 2 + u 1 ^ 2)) (Real.sqrt (v 0 ^ 2 + v 1 ^ 2)) (v 2)
  refine (abs_sub_tri _ (R (Real.sqrt (u 0 ^ 2 + u 1 ^ 2)) (v 2)) _).trans ?_
  have := h 2
  linarith

theorem le_len (v : Vec) (i : Fin 3) : |v i| ≤ len v := by
  unfold len
  refine Real.abs_le_sqrt ?_
  have q0 := sq_nonneg (v 0)
  have q1 := sq_nonneg (v 1)
  have q2 := sq_nonneg (v 2)
  fin_cases i
  · show v 0 ^ 2 ≤ _; linarith
  · show v 1 ^ 2 ≤ _; linarith
  · show v 2 ^ 2 ≤ _; linarith

theorem len_nonneg (v : Vec) : 0 ≤ len v := Real.sqrt_nonneg _

/-! ## Range, azimuth, elevation -/

/-- Degrees of an angle of at most 4 radians. -/
theorem angle_degrees {t : F64} (ht : t.Finite) (hT : |ofDouble t| ≤ 4) :
    (Dbl.rad2deg t).Finite ∧ |ofDouble (Dbl.rad2deg t) * Real.pi / 180 - ofDouble t| ≤ 1.07e-15 := by
  have h := degrees_near ht hT (by norm_num)
  refine ⟨h.1, ?_⟩
  have e : ofDouble (Dbl.rad2deg t) * Real.pi / 180 - ofDouble t
      = (ofDouble (Dbl.rad2deg t) - ofDouble t * 180 / Real.pi) * (Real.pi / 180) := by
    have := Real.pi_ne_zero
    field_simp
  rw [e, abs_mul, abs_of_pos (show 0 < Real.pi / 180 by positivity)]
  have hp : Real.pi / 180 ≤ 0.017454 := by
    have := Real.pi_lt_d4
    norm_num at this ⊢
    linarith
  exact (mul_le_mul h.2 hp (by positivity) (by norm_num)).trans (by norm_num)

/-- Spherical coordinates with errors. -/
theorem pae_chain {p q R r' r n l a a' c c' : ℝ} (hp : |p - l| ≤ 7e-16 * l + 4e-15) (hR : |l - R| ≤ 5e-16 * l + 4e-15)
    (hr : |r' - r| ≤ 5e-16 * l + 4e-15) (l0 : 0 ≤ l) (R0 : 0 ≤ R) (r0 : 0 ≤ r) (rl : r ≤ l) (hc : |c' - c| ≤ 1.07e-15)
    (ha : |a' - a| ≤ 1.07e-15) (h1 : |R * c - r'| ≤ 8e-16 * R) (h2 : |r * a - n| ≤ 8e-16 * r) (ba : |a'| ≤ 1)
    (bc : |c'| ≤ 1) (hq : q = p * (c' * a')) : |q - n| ≤ 6e-15 * l + 2e-14 := by
  have bb : |c' * a'| ≤ 1 := by rw [abs_mul]; exact mul_le_one₀ bc (abs_nonneg _) ba
  have e : q - n = (p - l) * (c' * a') + (l - R) * (c' * a') + R * (c' - c) * a' + (R * c - r') * a'
      + (r' - r) * a' + r * (a' - a) + (r * a - n) := by rw [hq]; ring
  have R' := abs_le.1 hR
  have t3 : |R * (c' - c) * a'| ≤ R * 1.07e-15 := by
    refine scale ?_ ba
    rw [abs_mul, abs_of_nonneg R0]
    exact mul_le_mul_of_nonneg_left hc R0
  have t6 : |r * (a' - a)| ≤ r * 1.07e-15 := by
    rw [abs_mul, abs_of_nonneg r0]
    exact mul_le_mul_of_nonneg_left ha r0
  have s1 := tri (scale hp bb) (scale hR bb) t3
  have s2 := tri s1 (scale h1 ba) (scale hr ba)
  have s3 := tri s2 t6 h2
  rw [e]
  refine s3.trans ?_
  norm_num at R' ⊢
  linarith

theorem pae_near {L : Dbl.Numpy} (hL : L.Accurate) {ned : Dbl.Vec} (hn : ∀ i, (ned i).Finite)
    (bn : ∀ i, |ofDouble (ned i)| ≤ 2 ^ 400) :
    ∃ p alpha epsilon, Dbl.ned2pae L.toLibm ned = .ok ![p, alpha, epsilon] ∧
      (alpha.Finite ∧ |ofDouble alpha * Real.pi / 180| ≤ 3.1417) ∧
      (epsilon.Finite ∧ |ofDouble epsilon * Real.pi / 180| ≤ 3.1417) ∧
      Ap p (len fun i => ofDouble (ned i)) (7e-16 * len (fun i => ofDouble (ned i)) + 4e-15) ∧
      |ofDouble p * (Real.cos (ofDouble epsilon * Real.pi / 180) * Real.cos (ofDouble alpha * Real.pi / 180))
        - ofDouble (ned 0)| ≤ 6e-15 * len (fun i => ofDouble (ned i)) + 2e-14 ∧
      |ofDouble p * (Real.cos (ofDouble epsilon * Real.pi / 180) * Real.sin (ofDouble alpha * Real.pi / 180))
        - ofDouble (ned 1)| ≤ 6e-15 * len (fun i => ofDouble (ned i)) + 2e-14 ∧
      |-(ofDouble p * Real.sin (ofDouble epsilon * Real.pi / 180)) - ofDouble (ned 2)|
        ≤ 6e-15 * len (fun i => ofDouble (ned i)) + 2e-14 := by
  obtain ⟨p, e1, hp⟩ := distance_near hL.square hL.squareReturns hL.squareNonneg hn bn
  obtain ⟨r', e2, hr⟩ := radius_near hL.square hL.squareReturns hL.squareNonneg (hn 0) (hn 1) (bn 0) (bn 1)
  obtain ⟨f1, b1, c1, s1⟩ := angle_rel hL.arc hL.arcZero (hn 1) (hn 0)
  obtain ⟨f2, b2, c2, s2⟩ := angle_rel hL.arc hL.arcZero (F64.neg_finite.2 (hn 2)) hr.1
  obtain ⟨g1, d1⟩ := angle_degrees f1 (b1.trans (by norm_num))
  obtain ⟨g2, d2⟩ := angle_degrees f2 (b2.trans (by norm_num))
  have bound : ∀ {x y : ℝ}, |x - y| ≤ 1.07e-15 → |y| ≤ 3.1416 → |x| ≤ 3.1417 := fun {x y} h h' =>
    (abs_le_of_near h).trans (by norm_num at h' ⊢; linarith)
  refine ⟨p, _, _, ?_, ⟨g1, bound d1 b1⟩, ⟨g2, bound d2 b2⟩, hp, ?_⟩
  · cases ex : L.square (ned 0) with
    | error err => rw [ex] at e2; cases e2
    | ok x2 =>
      cases ey : L.square (ned 1) with
      | error err => rw [ex, bind_ok, ey] at e2; cases e2
      | ok y2 =>
        rw [ex, bind_ok, ey, bind_ok] at e2
        simp only [Dbl.ned2pae, e1, ex, ey, e2, bind_ok]
        rfl
  have nv : ofDouble (F64.neg (ned 2)) = -ofDouble (ned 2) := val_neg _
  rw [nv, neg_sq] at c2 s2
  have r0 := Real.sqrt_nonneg (ofDouble (ned 0) ^ 2 + ofDouble (ned 1) ^ 2)
  have R0 := Real.sqrt_nonneg (ofDouble r' ^ 2 + ofDouble (ned 2) ^ 2)
  have l0 := len_nonneg fun i => ofDouble (ned i)
  have rl : Real.sqrt (ofDouble (ned 0) ^ 2 + ofDouble (ned 1) ^ 2) ≤ len fun i => ofDouble (ned i) := by
    unfold len
    exact Real.sqrt_le_sqrt (by linarith [sq_nonneg (ofDouble (ned 2))])
  have ll : len (fun i => ofDouble (ned i))
      = R (Real.sqrt (ofDouble (ned 0) ^ 2 + ofDouble (ned 1) ^ 2)) (ofDouble (ned 2)) := by
    unfold len R
    rw [Real.sq_sqrt (by positivity)]
  have k := R_lip2 (Real.sqrt (ofDouble (ned 0) ^ 2 + ofDouble (ned 1) ^ 2)) (ofDouble r') (ofDouble (ned 2))
  rw [← ll] at k
  change |_ - Real.sqrt (ofDouble r' ^ 2 + ofDouble (ned 2) ^ 2)| ≤ _ at k
  have hp2 := hp.2
  have hr2 := hr.2
  generalize len (fun i => ofDouble (ned i)) = l at *
  generalize Real.sqrt (ofDouble (ned 0) ^ 2 + ofDouble (ned 1) ^ 2) = r at *
  generalize Real.sqrt (ofDouble r' ^ 2 + ofDouble (ned 2) ^ 2) = R' at *
  have hr3 : |ofDouble r' - r| ≤ 5e-16 * l + 4e-15 := hr2.trans (by norm_num; linarith)
  have k3 : |l - R'| ≤ 5e-16 * l + 4e-15 := by rw [abs_sub_comm r] at k; exact k.trans hr3
  refine ⟨?_, ?_, ?_⟩
  · exact pae_chain hp2 k3 hr3 l0 R0 r0 rl ((Real.abs_cos_sub_cos_le _ _).trans d2)
      ((Real.abs_cos_sub_cos_le _ _).trans d1) c2 c1 (Real.abs_cos_le_one _) (Real.abs_cos_le_one _) rfl
  · exact pae_chain hp2 k3 hr3 l0 R0 r0 rl ((Real.abs_cos_sub_cos_le _ _).trans d2)
      ((Real.abs_sin_sub_sin_le _ _).trans d1) c2 s1 (Real.abs_sin_le_one _) (Real.abs_cos_le_one _) rfl
  · have hs := (Real.abs_sin_sub_sin_le _ _).trans d2
    have bs := Real.abs_sin_le_one (ofDouble (Dbl.rad2deg (L.atan2 (F64.neg (ned 2)) r')) * Real.pi / 180)
    generalize Real.sin (ofDouble (Dbl.rad2deg (L.atan2 (F64.neg (ned 2)) r')) * Real.pi / 180) = s' at *
    generalize Real.sin (ofDouble (L.atan2 (F64.neg (ned 2)) r')) = s at *
    rw [show -(ofDouble p * s') - ofDouble (ned 2) = -((ofDouble p - l) * s' + (l - R') * s' + R' * (s' - s)
      + (R' * s - -ofDouble (ned 2)) + 0) by ring, abs_neg]
    have t3 : |R' * (s' - s)| ≤ R' * 1.07e-15 := by
      rw [abs_mul, abs_of_nonneg R0]
      exact mul_le_mul_of_nonneg_left hs R0
    refine (tri (tri (scale hp2 bs) (scale k3 bs) t3) s2 (le_refl |(0 : ℝ)|)).trans ?_
    have k4 := abs_le.1 k3
    rw [abs_zero]
    norm_num at k4 ⊢
    linarith

end Dis.Geo
