import Verif.Proof.Geodetic64b

/-!
# Rounds of the loop of `ecef2lla` in doubles near the ellipsoid
-/

set_option exponentiation.threshold 4096

namespace Dis.Geo

open WGS84

/-- The denominator of the sine in the next round. -/
noncomputable def den (s : Dbl.LoopState) : ℝ := ofDouble s.alt + ofDouble s.N * (1 - e ^ 2)

/-- What holds after every round: `N` and the denominator are finite and near the truth. -/
def Near64 (t h : ℝ) (s : Dbl.LoopState) : Prop :=
  s.N.Finite ∧ s.alt.Finite ∧ |ofDouble s.N - NN t| ≤ 164 + 0.0077 * |h| ∧
    |den s - (NN t * (1 - e ^ 2) + h)| ≤ 1.2 + 0.007 * |h|

section
variable {t h : ℝ} (ht : -(Real.pi / 2) < t ∧ t < Real.pi / 2) (hh : |h| ≤ 100000)
include ht hh

/-- One more round, given bounds on the errors. -/
theorem next_errors_wide {N' D' : ℝ} (i1 : |N' - NN t| ≤ 164 + 0.0077 * |h|)
    (i2 : |D' - (NN t * (1 - e ^ 2) + h)| ≤ 1.2 + 0.007 * |h|) :
    |SN ((NN t * (1 - e ^ 2) + h) * Real.sin t) D' - NN t| ≤ 0.01 + 0.00006 * |h|
    ∧ |W ((NN t * (1 - e ^ 2) + h) * Real.sin t) N' D'
        - W ((NN t * (1 - e ^ 2) + h) * Real.sin t) (NN t) (NN t * (1 - e ^ 2) + h)| ≤ 1.11 + 0.00011 * |h|
    ∧ (6.234e6 ≤ D' ∧ D' ≤ 6.5e6) ∧ (6.37e6 ≤ N' ∧ N' ≤ 6.41e6)
    ∧ |(NN t * (1 - e ^ 2) + h) * Real.sin t / D'| ≤ 1.01 := by
  have hD := D_bounds (t := t) hh
  have ha : a = 6378137 := by unfold a; norm_num
  have hE := e_sq_lt
  have hE0 := e_sq_gt
  have hNN := NN_bounds t
  have hh0 := abs_nonneg h
  have hpos : 0 < NN t * (1 - e ^ 2) + h := by linarith
  have hSN := true_SN ht hpos
  have hst := sin_true (t := t) hh
  have hD' : 6234000 ≤ D' := by
    have := abs_le.1 i2; linarith
  have hD'' : D' ≤ 6500000 := by
    have h1 := abs_le.1 i2
    have h2 := (abs_le.1 hh).2
    have h3 : NN t * (1 - e ^ 2) ≤ 1.0034 * a * 0.99331 :=
      mul_le_mul hNN.2 (by linarith) (by linarith) (by rw [ha]; norm_num)
    rw [ha] at h3
    linarith
  have hN' : 6370000 ≤ N' ∧ N' ≤ 1.0036 * a := by
    have := abs_le.1 i1; constructor <;> linarith
  have s1 := s_lip (z := (NN t * (1 - e ^ 2) + h) * Real.sin t) (D := NN t * (1 - e ^ 2) + h) (D' := D')
    (d := 6234000) (by norm_num) hpos hD' hst
  have s2 : a * |(NN t * (1 - e ^ 2) + h) * Real.sin t / (NN t * (1 - e ^ 2) + h)
      - (NN t * (1 - e ^ 2) + h) * Real.sin t / D'| ≤ 1.0232 * (1.2 + 0.007 * |h|) := by
    rw [abs_sub_comm] at i2
    have : a * |(NN t * (1 - e ^ 2) + h) * Real.sin t / (NN t * (1 - e ^ 2) + h)
        - (NN t * (1 - e ^ 2) + h) * Real.sin t / D'| ≤ a * (1 / 6234000 * (1.2 + 0.007 * |h|)) := by
      apply mul_le_mul_of_nonneg_left _ a_pos.le
      exact s1.trans (by gcongr)
    rw [ha] at this ⊢
    linarith
  have s3 : |(NN t * (1 - e ^ 2) + h) * Real.sin t / D'| ≤ 1.01 := by
    generalize (NN t * (1 - e ^ 2) + h) * Real.sin t / (NN t * (1 - e ^ 2) + h) = u at *
    generalize (NN t * (1 - e ^ 2) + h) * Real.sin t / D' = v at *
    have h3 : |v| ≤ |u| + |u - v| := by
      have := abs_sub_abs_le_abs_sub v u
      rw [abs_sub_comm v u] at this
      linarith
    rw [ha] at s2
    linarith
  have n1 := N_lip (hst.trans (by norm_num)) (s3.trans (by norm_num))
  change |SN _ _ - SN _ _| ≤ _ at n1
  rw [hSN] at n1
  have w1 := W_lip (z := (NN t * (1 - e ^ 2) + h) * Real.sin t) (N := N') (N' := NN t) (D := D')
    (D' := NN t * (1 - e ^ 2) + h) (ν := 1.0036 * a) (by rw [abs_of_pos (by linarith)]; exact hN'.2) hst
  rw [abs_sub_comm (_ / D')] at w1
  refine ⟨?_, ?_, ⟨by norm_num; linarith, by norm_num; linarith⟩, ⟨by norm_num; linarith, by norm_num; linarith⟩, s3⟩
  · clear s3
    generalize |(NN t * (1 - e ^ 2) + h) * Real.sin t / (NN t * (1 - e ^ 2) + h)
      - (NN t * (1 - e ^ 2) + h) * Real.sin t / D'| = Δ at *
    rw [abs_sub_comm]; nlinarith
  · clear s3
    generalize |(NN t * (1 - e ^ 2) + h) * Real.sin t / (NN t * (1 - e ^ 2) + h)
      - (NN t * (1 - e ^ 2) + h) * Real.sin t / D'| = Δ at *
    nlinarith

theorem R_range : 6.21e6 ≤ R ((NN t + h) * Real.cos t) ((NN t * (1 - e ^ 2) + h) * Real.sin t) ∧
    R ((NN t + h) * Real.cos t) ((NN t * (1 - e ^ 2) + h) * Real.sin t) ≤ 6.54e6 := by
  have hD := D_bounds (t := t) hh
  have hpos : 0 < NN t * (1 - e ^ 2) + h := by linarith
  have h1 := R_ge ht hh
  have h2 := true_R_le ht hpos
  have h3 := (NN_bounds t).2
  have ha : a = 6378137 := by unfold a; norm_num
  have h4 := (abs_le.1 hh).2
  rw [ha] at h3
  norm_num
  constructor <;> linarith

/-- A round from a state near the truth. -/
theorem next64 {L : Dbl.Libm} (h1 : L.SquareOk) (h2 : L.SquareReturns) (h3 : L.TrigOk) (h4 : L.ArcOk) {ph zh : F64}
    {s : Dbl.LoopState} (hp : Ap ph ((NN t + h) * Real.cos t) 1e-6)
    (hz : Ap zh ((NN t * (1 - e ^ 2) + h) * Real.sin t) 1e-6) (bp : 1 ≤ (NN t + h) * Real.cos t)
    (hs : Near64 t h s) :
    ∃ s', Dbl.ecef2lla_body L ph zh s = .ok s' ∧ s'.previousLat = s.lat ∧ Near64 t h s' ∧
      Ap s'.lat (Real.arctan (W ((NN t * (1 - e ^ 2) + h) * Real.sin t) (ofDouble s.N) (den s)
        / ((NN t + h) * Real.cos t))) 1.1e-12 ∧
      Ap s'.N (SN ((NN t * (1 - e ^ 2) + h) * Real.sin t) (den s)) 1.3e-8 ∧
      Ap s'.alt (R ((NN t + h) * Real.cos t) (W ((NN t * (1 - e ^ 2) + h) * Real.sin t) (ofDouble s.N) (den s))
        - SN ((NN t * (1 - e ^ 2) + h) * Real.sin t) (den s)) 0.048 ∧
      Ap s'.lat t ((1.12 + 0.00011 * |h|) / 6235000) ∧ Ap s'.alt h (1.17 + 0.0002 * |h|) := by
  obtain ⟨f1, f2, i1, i2⟩ := hs
  obtain ⟨n1, w1, bD, bN, bs⟩ := next_errors_wide ht hh i1 i2
  have hD := D_bounds (t := t) hh
  have hpos : 0 < NN t * (1 - e ^ 2) + h := by linarith
  have hR := R_ge ht hh
  have hlat := true_lat ht hpos
  have hSN := true_SN ht hpos
  have g1 := congrArg Prod.snd (true_fixed ht hpos)
  simp only [stepND] at g1
  rw [hSN] at g1
  have r1 := R_lip ((NN t + h) * Real.cos t)
      (W ((NN t * (1 - e ^ 2) + h) * Real.sin t) (ofDouble s.N) (den s))
      (W ((NN t * (1 - e ^ 2) + h) * Real.sin t) (NN t) (NN t * (1 - e ^ 2) + h))
  have hN0 := (NN_pos t).le
  have hE := e_sq_lt
  have hE0 := sq_nonneg e
  have hh0 := abs_nonneg h
  obtain ⟨s', b1, b2, b3, b4, b5⟩ := step64' (s := s) (N := ofDouble s.N) (D := den s) h1 h2 h3 h4 hp hz (Ap.self f1)
    (by have := Ap.self f2; unfold den; rw [add_sub_cancel_right]; exact this) bp
    ⟨bN.1, bN.2.trans (by norm_num)⟩ ⟨le_trans (by norm_num) bD.1, bD.2.trans (by norm_num)⟩
    (bs.trans (by norm_num)) (R_range ht hh)
  have l1 := lat_lip (p := (NN t + h) * Real.cos t) (z := (NN t * (1 - e ^ 2) + h) * Real.sin t)
    (by linarith) (by have := bN.1; norm_num at this; linarith : 0 ≤ ofDouble s.N)
    (by have := bD.1; norm_num at this; linarith : 0 < den s) hN0 hpos
  rw [hlat] at l1
  have l2 : |Real.arctan (W ((NN t * (1 - e ^ 2) + h) * Real.sin t) (ofDouble s.N) (den s)
      / ((NN t + h) * Real.cos t)) - t| ≤ (1.11 + 0.00011 * |h|) / 6235000 :=
    l1.trans (div_le_div₀ (by positivity) w1 (by norm_num) (hD.2.trans hR))
  have q4 := b4.2
  have q5 := b5.2
  refine ⟨s', b1, b2, ⟨b4.1, b5.1, ?_, ?_⟩, b3, b4, b5, b3.to l2 ?_, b5.to (f := 1.121 + 0.00018 * |h|) ?_ ?_⟩
  · refine (abs_sub_tri _ (SN ((NN t * (1 - e ^ 2) + h) * Real.sin t) (den s)) _).trans ?_
    norm_num at q4 n1 ⊢
    linarith only [q4, n1, hh0]
  · unfold den at *
    generalize (NN t * (1 - e ^ 2) + h) * Real.sin t = z at *
    generalize (NN t + h) * Real.cos t = p at *
    generalize ofDouble s.alt + ofDouble s.N * (1 - e ^ 2) = D' at *
    have e1 : ofDouble s'.alt + ofDouble s'.N * (1 - e ^ 2) - (NN t * (1 - e ^ 2) + h)
        = (ofDouble s'.alt - (R p (W z (ofDouble s.N) D') - SN z D')) + (ofDouble s'.N - SN z D') * (1 - e ^ 2)
          + ((R p (W z (ofDouble s.N) D') - R p (W z (NN t) (NN t * (1 - e ^ 2) + h)))
          - e ^ 2 * (SN z D' - NN t)) := by linear_combination g1
    rw [e1]
    refine (abs_add_le _ _).trans ((add_le_add (abs_add_le _ _) (abs_sub _ _)).trans ?_)
    rw [abs_mul, abs_mul, abs_of_nonneg hE0, abs_of_nonneg (show 0 ≤ 1 - e ^ 2 by linarith)]
    have k1 := mul_le_mul hE.le n1 (abs_nonneg _) (by norm_num)
    have k2 : |ofDouble s'.N - SN z D'| * (1 - e ^ 2) ≤ 1.3e-8 := by nlinarith [abs_nonneg (ofDouble s'.N - SN z D')]
    norm_num at q5 k1 k2 r1 w1 ⊢
    linarith only [q5, k1, k2, r1, w1, hh0]
  · norm_num
    linarith only [hh0]
  · unfold den at *
    generalize (NN t * (1 - e ^ 2) + h) * Real.sin t = z at *
    generalize (NN t + h) * Real.cos t = p at *
    generalize ofDouble s.alt + ofDouble s.N * (1 - e ^ 2) = D' at *
    have e1 : R p (W z (ofDouble s.N) D') - SN z D' - h
        = (R p (W z (ofDouble s.N) D') - R p (W z (NN t) (NN t * (1 - e ^ 2) + h))) - (SN z D' - NN t) := by
      linear_combination g1
    rw [e1]
    refine (abs_sub _ _).trans ?_
    norm_num at r1 w1 n1 ⊢
    linarith only [r1, w1, n1, hh0]
  · norm_num
    linarith only [hh0]

end

end Dis.Geo
