import Verif.Proof.Coordinates64
import Verif.Proof.Geodetic2

/-!
# One round of the loop of `ecef2lla` in doubles
-/

set_option exponentiation.threshold 4096

namespace Dis.Geo

open WGS84

/-- Computed and exact tangent lead to nearly the same latitude. -/
theorem arctan_near {p z u v δ : ℝ} (hp : 0 < p) (hR : 6.2e6 ≤ R p z) (h : |u - v| ≤ δ) (hδ : δ ≤ 1)
    (hv : (0 ≤ z → |z| ≤ v) ∧ (z ≤ 0 → |z| ≤ -v)) : |Real.arctan (u / p) - Real.arctan (v / p)| ≤ δ / 6.19e6 := by
  have hδ0 : 0 ≤ δ := (abs_nonneg _).trans h
  have hR2 : R p z ^ 2 = p ^ 2 + |z| ^ 2 := by rw [sq_abs]; exact Real.sq_sqrt (by positivity)
  have hz0 := abs_nonneg z
  have h2 : 3.844e13 ≤ p ^ 2 + |z| ^ 2 := by
    rw [← hR2]
    calc (3.844e13 : ℝ) = 6.2e6 ^ 2 := by norm_num
      _ ≤ R p z ^ 2 := by gcongr
  by_cases hz : |z| ≤ 1000
  · have hp2 : 6.19e6 ≤ p := by
      by_contra hc
      have h3 : p ^ 2 ≤ 6.19e6 ^ 2 := by gcongr; linarith
      have h4 : |z| ^ 2 ≤ 1000 ^ 2 := by gcongr
      norm_num at h2 h3 h4
      linarith
    refine (arctan_lip _ _).trans ?_
    rw [← sub_div, abs_div, abs_of_pos hp]
    exact div_le_div₀ hδ0 h (by norm_num) hp2
  · have hz : 1000 < |z| := not_le.1 hz
    have hRm : 6.19e6 ≤ R p (|z| - 1) := by
      refine Real.le_sqrt_of_sq_le ?_
      have h3 : |z| ≤ 1.0011 * (|z| - 1) := by norm_num; linarith
      have h4 : |z| ^ 2 ≤ (1.0011 * (|z| - 1)) ^ 2 := by gcongr
      have h5 := sq_nonneg p
      norm_num at h2 h4 ⊢
      nlinarith
    have hm : 0 ≤ |z| - 1 := by linarith
    have hab := abs_le.1 h
    rcases le_total 0 z with hs | hs
    · have hv := hv.1 hs
      exact (arctan_lip_far hp hm (by linarith) (by linarith)).trans (div_le_div₀ hδ0 h (by norm_num) hRm)
    · have hv := hv.2 hs
      have := arctan_lip_far hp hm (u := -u) (v := -v) (by linarith) (by linarith)
      rw [neg_div, neg_div, Real.arctan_neg, Real.arctan_neg, neg_sub_neg, neg_sub_neg, abs_sub_comm, abs_sub_comm v] at this
      exact this.trans (div_le_div₀ hδ0 h (by norm_num) hRm)

theorem Ap.atan {L : Dbl.Libm} (h : L.ArcOk) {x : F64} {θ δ g : ℝ} (hx : x.Finite)
    (hn : |Real.arctan (ofDouble x) - θ| ≤ δ) (hg : 3.5e-16 + δ ≤ g) : Ap (L.atan x) θ g := by
  obtain ⟨f, n⟩ := h.atan x hx
  refine ⟨f, (abs_sub_tri _ (Real.arctan (ofDouble x)) _).trans ?_⟩
  have h1 : |Real.arctan (ofDouble x)| ≤ 1.5708 := by
    have h1 := Real.arctan_lt_pi_div_two (ofDouble x)
    have h2 := Real.neg_pi_div_two_lt_arctan (ofDouble x)
    have h3 := Real.pi_lt_d4
    rw [abs_le]
    norm_num at h3 ⊢
    constructor <;> linarith
  have h2 := tiny
  have h3 : 1 / 2 ^ 52 * |Real.arctan (ofDouble x)| + 1 / 2 ^ 1074 ≤ 3.5e-16 := by
    have : 1 / 2 ^ 52 * |Real.arctan (ofDouble x)| ≤ 1 / 2 ^ 52 * (1.5708 : ℝ) := by gcongr
    refine (add_le_add this h2).trans ?_
    norm_num
  linarith

/-- One round: `N` and `D` are those of the state before, the results those of the exact round up to rounding. -/
theorem step64 {L : Dbl.Libm} (h1 : L.SquareOk) (h2 : L.SquareReturns) (h3 : L.TrigOk) (h4 : L.ArcOk) {ph zh : F64}
    {s : Dbl.LoopState} {p z N D : ℝ} (hp : Ap ph p 0) (hz : Ap zh z 0) (hN : Ap s.N N 0)
    (hA : Ap s.alt (D - N * (1 - e ^ 2)) 0) (bp : 0.99 ≤ p) (bN : 6.37e6 ≤ N ∧ N ≤ 6.42e6)
    (bD : 6.2e6 ≤ D ∧ D ≤ 6.6e6) (bs : |z / D| ≤ 1.05) (bR : 6.2e6 ≤ R p z ∧ R p z ≤ 6.55e6) :
    ∃ s', Dbl.ecef2lla_body L ph zh s = .ok s' ∧ s'.previousLat = s.lat ∧
      Ap s'.lat (Real.arctan (W z N D / p)) 8e-16 ∧ Ap s'.N (SN z D) 2.6e-9 ∧
      Ap s'.alt (R p (W z N D) - SN z D) 0.047 := by
  have hp0 : 0 < p := by norm_num at bp; linarith
  have hD0 : 0 < D := by norm_num at bD; linarith
  have hN0 : 0 < N := by norm_num at bN; linarith
  have be : |e| ≤ 0.0819 := by rw [abs_of_nonneg e_nonneg]; exact e_lt.le
  have bN' : |N| ≤ 6.42e6 := by rw [abs_of_pos hN0]; exact bN.2
  have bz : |z| ≤ 6.55e6 := (abs_z_le p z).trans bR.2
  obtain ⟨e2, f1, f2⟩ := Ap.e.square h1 h2 be (g := 1.7e-16) (by norm_num) (by norm_num)
  have q0 := e_sq_lt
  have q0' := sq_nonneg WGS84.e
  have be2 : |e ^ 2| ≤ 0.0066944 := by rw [abs_of_nonneg q0']; exact q0.le
  have bq : |1 - e ^ 2| ≤ 1 := by rw [abs_le]; constructor <;> linarith only [q0, q0']
  have q1 : Ap (F64.sub (Dbl.num 1) e2) ((1 : ℕ) - e ^ 2) 2.85e-16 := by
    refine (Ap.num (n := 1) (by decide)).sub f2 (S := 1) ?_ ?_ ?_
    · rw [Nat.cast_one]; exact bq
    · norm_num
    · norm_num
  rw [Nat.cast_one] at q1
  have q2 : Ap (F64.mul s.N (F64.sub (Dbl.num 1) e2)) (N * (1 - e ^ 2)) 2.6e-9 :=
    hN.mul q1 bN' bq (by norm_num) (by norm_num)
  have q3 : Ap (F64.add (F64.mul s.N (F64.sub (Dbl.num 1) e2)) s.alt) (N * (1 - e ^ 2) + (D - N * (1 - e ^ 2))) 3.4e-9 := by
    refine q2.add hA (S := 6.6e6) ?_ (by norm_num) (by norm_num)
    rw [add_sub_cancel, abs_of_pos hD0]
    exact bD.2
  rw [add_sub_cancel] at q3
  obtain ⟨s1, s1'⟩ := hz.div q3 bs (B := 6.2e6) (g := 7e-16) (by rw [abs_of_pos hD0]; exact bD.1)
    (by norm_num) (by norm_num) (by norm_num)
  have m1 : Ap (F64.mul e2 s.N) (e ^ 2 * N) 1.11e-9 := f2.mul hN be2 bN' (by norm_num) (by norm_num)
  have bm1 : |e ^ 2 * N| ≤ 43000 := by
    rw [abs_mul]
    calc |e ^ 2| * |N| ≤ 0.0066944 * 6.42e6 := by gcongr
      _ ≤ 43000 := by norm_num
  have m2 : Ap (F64.mul (F64.mul e2 s.N) (F64.div zh (F64.add (F64.mul s.N (F64.sub (Dbl.num 1) e2)) s.alt)))
      (e ^ 2 * N * (z / D)) 1.21e-9 := m1.mul s1 bm1 bs (by norm_num) (by norm_num)
  have bm2 : |e ^ 2 * N * (z / D)| ≤ 45150 := by
    rw [abs_mul]
    calc |e ^ 2 * N| * |z / D| ≤ 43000 * 1.05 := by gcongr
      _ ≤ 45150 := by norm_num
  have bW : |W z N D| ≤ 6.6e6 := by
    unfold W
    refine (abs_add_le _ _).trans ((add_le_add bz bm2).trans ?_)
    norm_num
  have m3 := hz.add m2 (S := 6.6e6) (g := 1.96e-9) bW (by norm_num) (by norm_num)
  change Ap _ (W z N D) _ at m3
  -- the tangent
  have ep : ofDouble ph = p := sub_eq_zero.1 (abs_eq_zero.1 (le_antisymm hp.2 (abs_nonneg _)))
  have hph0 : ofDouble ph ≠ 0 := by rw [ep]; exact hp0.ne'
  have bT : |W z N D / p| ≤ 6.7e6 := by
    rw [abs_div, abs_of_pos hp0, div_le_iff₀ hp0]
    norm_num at bW bp ⊢
    linarith only [bW, bp]
  obtain ⟨t1, -⟩ := m3.div hp bT (B := 0.99) (g := 1) (by rw [abs_of_pos hp0]; exact bp) (by norm_num) (by norm_num)
    (by norm_num)
  have bp' : p ≤ 6.55e6 := by
    refine le_trans ?_ bR.2
    exact Real.le_sqrt_of_sq_le (by nlinarith [sq_nonneg z])
  have t2 := val_div' t1.1 hp.1
  rw [ep] at t2
  have m3' := m3.le bW
  have m32 := m3.2
  have e3 : ∃ sl, F64.div zh (F64.add (F64.mul s.N (F64.sub (Dbl.num 1) e2)) s.alt) = sl := ⟨_, rfl⟩
  obtain ⟨sl, e3⟩ := e3
  rw [e3] at s1 m2 m3 t1 t2 m3' m32
  have e4 : ∃ w, F64.add zh (F64.mul (F64.mul e2 s.N) sl) = w := ⟨_, rfl⟩
  obtain ⟨w, e4⟩ := e4
  rw [e4] at m3 t1 t2 m3' m32
  have t3 : |ofDouble (F64.div w ph) * p - W z N D| ≤ 2.71e-9 := by
    have g1 : |ofDouble (F64.div w ph) * p - ofDouble w| ≤ (1 / 2 ^ 53 * |ofDouble w / p| + eta) * p := by
      have : ofDouble (F64.div w ph) * p - ofDouble w = (ofDouble (F64.div w ph) - ofDouble w / p) * p := by
        field_simp
      rw [this, abs_mul, abs_of_pos hp0]
      gcongr
    have g2 : (1 / 2 ^ 53 * |ofDouble w / p| + eta) * p = 1 / 2 ^ 53 * |ofDouble w| + eta * p := by
      rw [abs_div, abs_of_pos hp0]
      field_simp
    have g3 : eta * p ≤ 1 / 2 ^ 100 * 6.55e6 := mul_le_mul eta_le bp' hp0.le (by positivity)
    refine (abs_sub_tri _ (ofDouble w) _).trans ?_
    rw [g2] at g1
    norm_num at g1 g3 m3' m32 ⊢
    linarith only [g1, g3, m3', m32]
  have t4 := arctan_near hp0 bR.1 t3 (by norm_num) (W_sign (z := z) hN0.le hD0)
  rw [mul_div_assoc, div_self hp0.ne', mul_one] at t4
  have l1 : Ap (L.atan (F64.div w ph)) (Real.arctan (W z N D / p)) 8e-16 := Ap.atan h4 t1.1 t4 (by norm_num)
  -- the normal
  have v1 : Ap (F64.mul Dbl.WGS84.e sl) (e * (z / D)) 1.2e-15 := Ap.e.mul s1 be bs (by norm_num) (by norm_num)
  have bv : |e * (z / D)| ≤ 0.09 := by
    rw [abs_mul]
    calc |e| * |z / D| ≤ 0.0819 * 1.05 := by gcongr
      _ ≤ 0.09 := by norm_num
  obtain ⟨N', n1, n2⟩ := v1.normal_wide h1 h2 bv
  change Ap N' (SN z D) _ at n2
  -- the altitude
  obtain ⟨c1, c2⟩ := l1.cos h3 (g := 1.03e-15) (by norm_num)
  have hcos := p_div_cos hp0 (W z N D)
  have hR0 : 0 < R p (W z N D) := Real.sqrt_pos.2 (by positivity)
  have hc0 : 0 < Real.cos (Real.arctan (W z N D / p)) := Real.cos_arctan_pos _
  have bRW : R p (W z N D) ≤ 6.6e6 := by
    have g1 := R_lip p (W z N D) z
    have g2 : |W z N D - z| ≤ 45150 := by
      unfold W
      rw [add_sub_cancel_left]
      exact bm2
    have g3 := abs_le.1 (g1.trans g2)
    have := bR.2
    norm_num at this ⊢
    linarith only [g3.2, this]
  have bc : 1.5e-7 ≤ |Real.cos (Real.arctan (W z N D / p))| := by
    rw [abs_of_pos hc0]
    have hcos' := (div_eq_iff hc0.ne').1 hcos
    have : p ≤ 6.6e6 * Real.cos (Real.arctan (W z N D / p)) :=
      hcos'.le.trans (mul_le_mul_of_nonneg_right bRW hc0.le)
    norm_num at this bp ⊢
    linarith only [this, bp]
  obtain ⟨r1, r2⟩ := hp.div c2 (Q := 6.6e6) (g := 0.046) (by rw [hcos, abs_of_pos hR0]; exact bRW) bc (by norm_num)
    (by norm_num) (by norm_num)
  rw [hcos] at r1
  have bSN := SN_bounds (bs.trans (by norm_num))
  have a1 : Ap (F64.sub (F64.div ph (L.cos (L.atan (F64.div w ph)))) N') (R p (W z N D) - SN z D) 0.047 := by
    refine r1.sub n2 (S := 1e7) ?_ (by norm_num) (by norm_num)
    have ha : a = 6378137 := by unfold a; norm_num
    rw [ha] at bSN
    rw [abs_le]
    norm_num at bSN bRW ⊢
    constructor <;> linarith only [bSN.1, bSN.2, bRW, hR0]
  refine ⟨⟨L.atan (F64.div w ph), s.lat, N', F64.sub (F64.div ph (L.cos (L.atan (F64.div w ph)))) N'⟩, ?_, rfl, l1, n2, a1⟩
  unfold Dbl.ecef2lla_body
  dsimp only
  rw [f1, bind_ok, pyDiv_ok s1', bind_ok, bind_ok, e3, e4, pyDiv_ok hph0, bind_ok, n1, bind_ok, c1, bind_ok,
    pyDiv_ok r2, bind_ok]
  rfl

end Dis.Geo
