import Verif.Proof.Geodetic64

/-!
# Rounds of the loop of `ecef2lla` in doubles, against the true coordinates
-/

set_option exponentiation.threshold 4096

namespace Dis.Geo

open WGS84

/-! ## Errors of the point -/

theorem arctan_lip_denominator {w m p q : ℝ} (hm : 0 < m) (hp : m ≤ p) (hq : m ≤ q) :
    |Real.arctan (w / p) - Real.arctan (w / q)| ≤ |p - q| / R m w := by
  have hR : 0 < R m w := Real.sqrt_pos.2 (by positivity)
  have key : ∀ w : ℝ, 0 < w → |Real.arctan (w / p) - Real.arctan (w / q)| ≤ |p - q| / R m w := by
    intro w hw
    have h1 := Real.arctan_inv_of_pos (div_pos (hm.trans_le hp) hw)
    have h2 := Real.arctan_inv_of_pos (div_pos (hm.trans_le hq) hw)
    rw [inv_div] at h1 h2
    rw [h1, h2, sub_sub_sub_cancel_left, abs_sub_comm]
    have h3 := arctan_lip_far hw hm.le hp hq
    have h4 : R w m = R m w := by unfold R; rw [add_comm]
    rw [h4] at h3
    exact h3
  rcases lt_trichotomy w 0 with h | h | h
  · have := key (-w) (by linarith)
    rw [neg_div, neg_div, Real.arctan_neg, Real.arctan_neg, neg_sub_neg, abs_sub_comm] at this
    have h4 : R m (-w) = R m w := by unfold R; rw [neg_sq]
    rwa [h4] at this
  · subst h
    simp
    positivity
  · exact key w h

theorem R_lip2 (p q w : ℝ) : |R p w - R q w| ≤ |p - q| := by
  have h1 : ∀ p, R p w = R w p := fun p => by unfold R; rw [add_comm]
  rw [h1 p, h1 q]
  exact R_lip w p q

theorem R_ge_left (p w : ℝ) : |p| ≤ R p w := by
  unfold R
  exact Real.abs_le_sqrt (by nlinarith [sq_nonneg w])

/-- What a change of the point by a micrometre does. -/
theorem shift {p z p0 z0 N D : ℝ} (hp : |p - p0| ≤ 1e-6) (hz : |z - z0| ≤ 1e-6) (bp : 1 ≤ p0) (bN : 0 ≤ N ∧ N ≤ 6.42e6)
    (bD : 6.2e6 ≤ D) (bs : |z / D| ≤ 1.05) (bs0 : |z0 / D| ≤ 1.05) (bR : 6.2e6 ≤ R p z) :
    |SN z D - SN z0 D| ≤ 1e-8 ∧ |W z N D - W z0 N D| ≤ 1.01e-6 ∧
    |R p (W z N D) - R p0 (W z0 N D)| ≤ 2.1e-6 ∧
    |Real.arctan (W z N D / p) - Real.arctan (W z0 N D / p0)| ≤ 1e-12 := by
  have hD0 : 0 < D := by norm_num at bD; linarith
  have hpp := abs_le.1 hp
  have hp0 : 0 < p := by norm_num at hpp; linarith
  have hE := e_sq_lt
  have hE0 := sq_nonneg e
  have d1 : |z / D - z0 / D| ≤ 1.62e-13 := by
    rw [← sub_div, abs_div, abs_of_pos hD0, div_le_iff₀ hD0]
    norm_num at hz bD ⊢
    linarith only [hz, bD]
  have n1 : |SN z D - SN z0 D| ≤ 1e-8 := by
    have := N_lip (bs.trans (by norm_num)) (bs0.trans (by norm_num))
    refine this.trans ?_
    calc 0.0075 * a * |z / D - z0 / D| ≤ 0.0075 * a * 1.62e-13 :=
          mul_le_mul_of_nonneg_left d1 (by have := a_pos; positivity)
      _ ≤ 1e-8 := by unfold a; norm_num
  have w1 : |W z N D - W z0 N D| ≤ 1.01e-6 := by
    have e1 : W z N D - W z0 N D = (z - z0) + e ^ 2 * N * (z / D - z0 / D) := by unfold W; ring
    rw [e1]
    refine (abs_add_le _ _).trans ?_
    rw [abs_mul, abs_mul, abs_of_nonneg hE0, abs_of_nonneg bN.1]
    have : e ^ 2 * N * |z / D - z0 / D| ≤ 0.0066944 * 6.42e6 * 1.62e-13 := by
      have := bN.1
      have := bN.2
      gcongr
    norm_num at this hz ⊢
    linarith only [this, hz]
  have rr : |R p (W z N D) - R p0 (W z0 N D)| ≤ 2.1e-6 := by
    have g1 := R_lip p (W z N D) (W z0 N D)
    have g2 := R_lip2 p p0 (W z0 N D)
    refine (abs_sub_tri _ (R p (W z0 N D)) _).trans ?_
    norm_num at g1 g2 w1 hp ⊢
    linarith only [g1, g2, w1, hp]
  refine ⟨n1, w1, rr, ?_⟩
  have g1 := arctan_near hp0 bR (u := W z0 N D) (v := W z N D) (δ := 1.01e-6) (by rw [abs_sub_comm]; exact w1)
    (by norm_num) (W_sign (z := z) bN.1 hD0)
  have g2 := arctan_lip_denominator (w := W z0 N D) (m := p - 2e-6) (p := p) (q := p0) (by norm_num at hpp ⊢; linarith)
    (by norm_num) (by norm_num at hpp ⊢; linarith)
  have g3 : 6.1e6 ≤ R (p - 2e-6) (W z0 N D) := by
    have k1 := R_lip2 p (p - 2e-6) (W z0 N D)
    have k2 := R_lip p (W z N D) (W z0 N D)
    have k3 := R_mono (p := p) (W_ge (z := z) bN.1 hD0)
    rw [sub_sub_cancel, abs_of_pos (show (0 : ℝ) < 2e-6 by norm_num)] at k1
    have k1 := abs_le.1 k1
    have k2 := abs_le.1 (k2.trans w1)
    norm_num at k1 k2 bR ⊢
    linarith only [k1.2, k2.2, k3, bR]
  have g4 : |p - p0| / R (p - 2e-6) (W z0 N D) ≤ 1e-6 / 6.1e6 := div_le_div₀ (by norm_num) hp (by norm_num) g3
  refine (abs_sub_tri _ (Real.arctan (W z0 N D / p)) _).trans ?_
  rw [abs_sub_comm] at g1
  norm_num at g1 g4 ⊢
  linarith only [g1, g2, g4]

/-- One round in doubles against the exact round at the exact point. -/
theorem step64' {L : Dbl.Libm} (h1 : L.SquareOk) (h2 : L.SquareReturns) (h3 : L.TrigOk) (h4 : L.ArcOk) {ph zh : F64}
    {s : Dbl.LoopState} {p0 z0 N D : ℝ} (hp : Ap ph p0 1e-6) (hz : Ap zh z0 1e-6) (hN : Ap s.N N 0)
    (hA : Ap s.alt (D - N * (1 - e ^ 2)) 0) (bp : 1 ≤ p0) (bN : 6.37e6 ≤ N ∧ N ≤ 6.42e6)
    (bD : 6.2e6 ≤ D ∧ D ≤ 6.6e6) (bs : |z0 / D| ≤ 1.04) (bR : 6.21e6 ≤ R p0 z0 ∧ R p0 z0 ≤ 6.54e6) :
    ∃ s', Dbl.ecef2lla_body L ph zh s = .ok s' ∧ s'.previousLat = s.lat ∧
      Ap s'.lat (Real.arctan (W z0 N D / p0)) 1.1e-12 ∧ Ap s'.N (SN z0 D) 1.3e-8 ∧
      Ap s'.alt (R p0 (W z0 N D) - SN z0 D) 0.048 := by
  have hD0 : 0 < D := by have := bD.1; norm_num at this; linarith
  have hpp := hp.2
  have hzz := hz.2
  have hR : 6.2e6 ≤ R (ofDouble ph) (ofDouble zh) ∧ R (ofDouble ph) (ofDouble zh) ≤ 6.55e6 := by
    have k1 := abs_le.1 ((R_lip2 (ofDouble ph) p0 (ofDouble zh)).trans hpp)
    have k2 := abs_le.1 ((R_lip p0 (ofDouble zh) z0).trans hzz)
    norm_num at k1 k2 bR ⊢
    constructor
    · linarith only [k1.1, k2.1, bR.1]
    · linarith only [k1.2, k2.2, bR.2]
  have hs : |ofDouble zh / D| ≤ 1.05 := by
    have : ofDouble zh / D = z0 / D + (ofDouble zh - z0) / D := by ring
    rw [this]
    refine (abs_add_le _ _).trans ?_
    have : |(ofDouble zh - z0) / D| ≤ 0.01 := by
      rw [abs_div, abs_of_pos hD0, div_le_iff₀ hD0]
      have := bD.1
      norm_num at hzz this ⊢
      linarith only [hzz, this]
    norm_num at this bs ⊢
    linarith only [this, bs]
  have hp1 : 0.99 ≤ ofDouble ph := by
    have := abs_le.1 hpp
    norm_num at this ⊢
    linarith only [this.1, bp]
  obtain ⟨s', b1, b2, b3, b4, b5⟩ := step64 h1 h2 h3 h4 (Ap.self hp.1) (Ap.self hz.1) hN hA hp1 bN bD hs hR
  obtain ⟨c1, c2, c3, c4⟩ := shift hpp hzz bp ⟨by have := bN.1; norm_num at this; linarith, bN.2⟩ bD.1 hs
    (bs.trans (by norm_num)) hR.1
  refine ⟨s', b1, b2, b3.to c4 (by norm_num), b4.to c1 (by norm_num), b5.to (f := 2.11e-6) ?_ (by norm_num)⟩
  rw [show R (ofDouble ph) (W (ofDouble zh) N D) - SN (ofDouble zh) D - (R p0 (W z0 N D) - SN z0 D)
    = (R (ofDouble ph) (W (ofDouble zh) N D) - R p0 (W z0 N D)) - (SN (ofDouble zh) D - SN z0 D) by ring]
  refine (abs_sub _ _).trans ((add_le_add c3 c1).trans ?_)
  norm_num

end Dis.Geo
